import Verif.Spec.Explodes
import Verif.Proof.Misuse
/-! The programs on the level of messages end as `Finishes` says. -/
namespace Verif.Proof
open Verif.Go Verif.Spec Verif.Model

theorem firstBad_here {α : Type} {good bad : α → Prop} {x : α} {l : List α} (h : bad x) : FirstBad good bad (x :: l) :=
  ⟨0, x, rfl, fun _ hy => by simp at hy, h⟩

theorem firstBad_later {α : Type} {good bad : α → Prop} {x : α} {l : List α} (hx : good x) (h : FirstBad good bad l) :
    FirstBad good bad (x :: l) := by
  obtain ⟨i, y, h1, h2, h3⟩ := h
  refine ⟨i + 1, y, by simpa using h1, fun z hz => ?_, h3⟩
  rcases List.mem_cons.mp (show z ∈ x :: l.take i from hz) with rfl | hz
  · exact hx
  · exact h2 z hz

theorem anyRes_explodes {v : Val} (h : anyRes v = .panic) : argPanics v = true := by
  unfold anyRes at h
  split at h
  · cases h
  · split at h
    · assumption
    · cases h

theorem argsRes_explodes : ∀ {vs : List Val}, argsRes vs = .panic → ArgsExplode modelDur vs
  | [], h => by cases h
  | v :: vs, h => by
    rw [argsRes] at h
    split at h
    · rename_i s hs
      split at h
      · cases h
      · cases h
      · exact firstBad_later (by rw [(anyRes_ok_iff _ _).mp hs]; rfl) (argsRes_explodes ‹_›)
    · cases h
    · exact firstBad_here (anyRes_explodes ‹_›)

mutual
theorem exprRes_explodes : ∀ {v : Val}, exprRes v = .panic → Explodes modelDur v
  | .nilFn, _ => .nilFn
  | .nilPtr true, _ => .nilPtr
  | .ptr v, h => by
    rw [exprRes] at h
    split at h
    · rename_i ha
      cases v <;> simp [isWrapper] at ha <;> simp [exprRes, plainScalar] at h
    · cases h
  | .op name ps, h => by
    rw [exprRes] at h
    split at h
    · cases h
    · cases h
    · obtain ⟨j, v, h1, h2, h3⟩ := paramsRes_explodes (vs := ps) ‹_›
      exact .op h1 h2 h3
  | .call name ps, h => by
    rw [exprRes] at h
    split at h
    · cases h
    · cases h
    · obtain ⟨j, v, h1, h2, h3⟩ := paramsRes_explodes (vs := ps) ‹_›
      exact .call h1 h2 h3
  | .nil, h | .bool _, h | .int8 _, h | .int16 _, h | .int32 _, h | .int64 _, h | .int _, h | .uint8 _, h | .uint16 _, h
  | .uint32 _, h | .uint64 _, h | .uint _, h | .str _, h | .bytes _, h | .float32 _, h | .float64 _, h | .time _, h
  | .duration _, h | .strColl .., h | .xml _, h | .xmlStr _, h | .json _, h | .jsonStr _, h | .geometry _, h
  | .column _, h | .variable _, h | .placeholder _, h | .nilPtr false, h | .other, h => by
    simp [exprRes, plainScalar] at h
theorem paramsRes_explodes : ∀ {vs : List Val} {j : Nat}, paramsRes j vs = .panic → RowExplodes modelDur vs
  | [], _, h => by cases h
  | v :: vs, j, h => by
    rw [paramsRes] at h
    split at h
    · rename_i x hx
      split at h
      · cases h
      · cases h
      · exact firstBad_later (exprRes_fine hx) (paramsRes_explodes ‹_›)
    · cases h
    · exact firstBad_here (exprRes_explodes ‹_›)
end

theorem rowRes_explodes : ∀ {vs : List Val} {j : Nat}, rowRes j vs = .panic → RowExplodes modelDur vs
  | [], _, h => by cases h
  | v :: vs, j, h => by
    rw [rowRes] at h
    split at h
    · rename_i x hx
      split at h
      · cases h
      · cases h
      · exact firstBad_later (exprRes_fine hx) (rowRes_explodes ‹_›)
    · cases h
    · exact firstBad_here (exprRes_explodes ‹_›)

theorem critRes_explodes {c : Criteria} (h : critRes c = .panic) : ∃ v, c = some v ∧ Explodes modelDur v := by
  cases c with
  | none => cases h
  | some v =>
    rw [critRes] at h
    cases hr : exprRes v with
    | panic => exact ⟨v, rfl, exprRes_explodes hr⟩
    | ok _ => rw [hr] at h; cases h
    | err _ => rw [hr] at h; cases h

theorem rowsRes_explodes {ncols : Nat} : ∀ {rows : List (List Val)} {i : Nat}, rowsRes ncols i rows = .panic →
    FirstBad (fun r => r.length = ncols ∧ ∀ v ∈ r, Fine modelDur v) (fun r => r.length = ncols ∧ RowExplodes modelDur r) rows
  | [], _, h => by cases h
  | row :: rows, i, h => by
    rw [rowsRes] at h
    split at h
    · cases h
    · have hl : row.length = ncols := by omega
      split at h
      · rename_i es hr
        split at h
        · cases h
        · cases h
        · exact firstBad_later ⟨hl, rowRes_fine _ _ _ hr⟩ (rowsRes_explodes ‹_›)
      · cases h
      · exact firstBad_here ⟨hl, rowRes_explodes ‹_›⟩

theorem setsRes_explodes : ∀ {sets : List (Bytes × Val)}, setsRes sets = .panic →
    FirstBad (fun s => Fine modelDur s.2) (fun s => Explodes modelDur s.2) sets
  | [], h => by cases h
  | (name, v) :: rest, h => by
    rw [setsRes] at h
    split at h
    · rename_i x hx
      split at h
      · cases h
      · cases h
      · exact firstBad_later (exprRes_fine hx) (setsRes_explodes ‹_›)
    · cases h
    · exact firstBad_here (exprRes_explodes ‹_›)

theorem callRes_explodes {n : Nat} {c : Call} (h : callRes n c = .panic) : CallExplodes modelDur c := by
  cases c with
  | stmtExecute => exact argsRes_explodes (map_panic h)
  | prepare => cases h
  | execute => exact argsRes_explodes (map_panic h)
  | deallocate => cases h
  | insert => exact rowsRes_explodes (map_panic h)
  | insertRow => exact rowRes_explodes (map_panic h)
  | update t crit sets =>
    rw [callRes] at h
    split at h
    · exact .inr ⟨critRes_fine ‹_›, setsRes_explodes (map_panic h)⟩
    · cases h
    · exact .inl (critRes_explodes ‹_›)
  | delete => exact critRes_explodes (map_panic h)

theorem rowsP_error_none {n : Nat} {e : Err} : ∀ (steps : List RowStep), rowsP n (.error e) steps = none → ¬RowsPure n steps
  | [], h => by cases h
  | .row args :: rest, h => fun h' => rowsP_error_none rest h fun d c hm => h' d c (.tail _ hm)
  | .outer d c :: rest, h => by
    rw [rowsP] at h
    split at h
    · exact fun h' => by have := h' d c (.head _); omega
    · exact fun h' => rowsP_error_none rest h fun d c hm => h' d c (.tail _ hm)

theorem rowsP_explodes {n : Nat} : ∀ (steps : List RowStep) (rs : List (List PExpr)), rowsP n (.ok rs) steps = none →
    ¬RowsPure n steps ∨ RowsExplode modelDur (rowArgs steps)
  | [], rs, h => by cases h
  | .row args :: rest, rs, h => by
    have e : rowArgs (.row args :: rest) = args :: rowArgs rest := rfl
    have pure : ¬RowsPure n rest → ¬RowsPure n (.row args :: rest) := fun h h' => h fun d c hm => h' d c (.tail _ hm)
    rw [e]
    unfold rowsP at h
    dsimp only at h
    split at h
    · rename_i es hr
      rcases rowsP_explodes rest _ h with h | h
      · exact .inl (pure h)
      · exact .inr (firstBad_later (rowRes_fine _ _ _ hr) h)
    · exact .inl (pure (rowsP_error_none rest h))
    · exact .inr (firstBad_here (rowRes_explodes ‹_›))
  | .outer d c :: rest, rs, h => by
    have e : rowArgs (.outer d c :: rest) = rowArgs rest := rfl
    rw [e]
    rw [rowsP] at h
    split at h
    · exact .inl fun h' => by have := h' d c (.head _); omega
    · rcases rowsP_explodes rest _ h with h | h
      · exact .inl fun h' => h fun d c hm => h' d c (.tail _ hm)
      · exact .inr h

theorem setsP_error_none {n : Nat} {e : Err} : ∀ (steps : List SetStep), setsP n (.error e) steps = none → ¬SetsPure n steps
  | [], h => by cases h
  | .set name v :: rest, h => fun h' => setsP_error_none rest h fun d c hm => h' d c (.tail _ hm)
  | .outer d c :: rest, h => by
    rw [setsP] at h
    split at h
    · exact fun h' => by have := h' d c (.head _); omega
    · exact fun h' => setsP_error_none rest h fun d c hm => h' d c (.tail _ hm)

theorem setsP_explodes {n : Nat} : ∀ (steps : List SetStep) (ss : List (Bytes × PExpr)), setsP n (.ok ss) steps = none →
    ¬SetsPure n steps ∨ FirstBad (fun s => Fine modelDur s.2) (fun s => Explodes modelDur s.2) (setArgs steps)
  | [], ss, h => by cases h
  | .set name v :: rest, ss, h => by
    have e : setArgs (.set name v :: rest) = (name, v) :: setArgs rest := rfl
    have pure : ¬SetsPure n rest → ¬SetsPure n (.set name v :: rest) := fun h h' => h fun d c hm => h' d c (.tail _ hm)
    rw [e]
    unfold setsP at h
    dsimp only at h
    split at h
    · rename_i x hx
      rcases setsP_explodes rest _ h with h | h
      · exact .inl (pure h)
      · exact .inr (firstBad_later (exprRes_fine hx) h)
    · exact .inl (pure (setsP_error_none rest h))
    · exact .inr (firstBad_here (exprRes_explodes ‹_›))
  | .outer d c :: rest, ss, h => by
    have e : setArgs (.outer d c :: rest) = setArgs rest := rfl
    rw [e]
    rw [setsP] at h
    split at h
    · exact .inl fun h' => by have := h' d c (.head _); omega
    · rcases setsP_explodes rest _ h with h | h
      · exact .inl fun h' => h fun d c hm => h' d c (.tail _ hm)
      · exact .inr h

/-- the names the code gives to variables, `z` bytes being in the buffer before the unit of work -/
def nameAfter (z : Nat) : Naming := fun ms => idVariable (z + (bytesOf ms).length)

theorem callRes_name {z : Nat} {ms m : List ClientMsg} {c : Call} {r : Option Val}
    (h : callRes (z + (bytesOf ms).length) c = .ok (m, r)) :
    ∀ v, r = some v → v = .variable (nameAfter z (ms ++ m.dropLast)) := by
  intro v hv
  subst hv
  cases c with
  | insertRow name cols row =>
    simp only [callRes] at h
    cases hr : rowRes 0 row with
    | ok es =>
      rw [hr] at h
      simp only [Res.map, Res.ok.injEq, Prod.mk.injEq, Option.some.injEq] at h
      obtain ⟨rfl, rfl⟩ := h
      simp [nameAfter, bytesOf_append, Nat.add_assoc]
      simp [bytesOf]
    | err e => rw [hr] at h; cases h
    | panic => rw [hr] at h; cases h
  | stmtExecute s args => simp only [callRes] at h; cases ha : argsRes args <;> rw [ha] at h <;> simp [Res.map] at h
  | prepare id s => simp [callRes] at h
  | execute id args => simp only [callRes] at h; cases ha : argsRes args <;> rw [ha] at h <;> simp [Res.map] at h
  | deallocate id => simp [callRes] at h
  | insert n cols data => simp only [callRes] at h; cases ha : rowsRes cols.length 0 data <;> rw [ha] at h <;> simp [Res.map] at h
  | update n crit sets =>
    simp only [callRes] at h
    cases hc : critRes crit <;> rw [hc] at h <;> simp at h
    cases ha : setsRes sets <;> rw [ha] at h <;> simp [Res.map] at h
  | delete n crit => simp only [callRes] at h; cases ha : critRes crit <;> rw [ha] at h <;> simp [Res.map] at h

/-! ### and the other way round -/

theorem firstBad_cons {α : Type} {good bad : α → Prop} {x : α} {l : List α} :
    FirstBad good bad (x :: l) ↔ bad x ∨ good x ∧ FirstBad good bad l := by
  constructor
  · rintro ⟨i, y, h1, h2, h3⟩
    cases i with
    | zero => cases h1; exact .inl h3
    | succ i =>
      exact .inr ⟨h2 x (by simp), i, y, by simpa using h1, fun z hz => h2 z (by rw [List.take_succ_cons]; exact .tail _ hz), h3⟩
  · rintro (h | ⟨h1, h2⟩)
    · exact firstBad_here h
    · exact firstBad_later h1 h2

theorem firstBad_nil {α : Type} {good bad : α → Prop} : ¬FirstBad good bad [] := by
  rintro ⟨i, y, h1, _⟩
  cases h1

theorem fine_exprRes {v : Val} (h : Fine modelDur v) : ∃ x, exprRes v = .ok x := by
  obtain ⟨x, hx⟩ := Option.isSome_iff_exists.mp h
  exact ⟨x, (exprRes_ok_iff _ _).mpr hx⟩

theorem fine_rowRes : ∀ {vs : List Val} {j : Nat}, (∀ v ∈ vs, Fine modelDur v) → ∃ es, rowRes j vs = .ok es
  | [], _, _ => ⟨[], rfl⟩
  | v :: vs, j, h => by
    obtain ⟨x, hx⟩ := fine_exprRes (h v (.head _))
    obtain ⟨xs, hxs⟩ := fine_rowRes (j := j + 1) fun u hu => h u (.tail _ hu)
    exact ⟨x :: xs, by rw [rowRes, hx]; dsimp only; rw [hxs]⟩

theorem explodes_exprRes {v : Val} (h : Explodes modelDur v) : exprRes v = .panic := by
  have key : ∀ (ps : List Val) (j k : Nat) (v : Val), ps[j]? = some v → FineBefore modelDur ps j → exprRes v = .panic →
      paramsRes k ps = .panic := by
    intro ps
    induction ps with
    | nil => intro j k v h; cases h
    | cons p ps ih =>
      intro j k v h1 h2 h3
      rw [paramsRes]
      cases j with
      | zero => cases h1; rw [h3]
      | succ j =>
        obtain ⟨x, hx⟩ := fine_exprRes (h2 p (by simp))
        rw [hx]
        dsimp only
        rw [ih j (k + 1) v (by simpa using h1) (fun u hu => h2 u (by rw [List.take_succ_cons]; exact .tail _ hu)) h3]
  induction h with
  | nilFn => rfl
  | nilPtr => rfl
  | op h1 h2 _ ih => rw [exprRes, key _ _ 0 _ h1 h2 ih]
  | call h1 h2 _ ih => rw [exprRes, key _ _ 0 _ h1 h2 ih]

theorem explodes_rowRes : ∀ {vs : List Val} {j : Nat}, RowExplodes modelDur vs → rowRes j vs = .panic
  | [], _, h => absurd h firstBad_nil
  | v :: vs, j, h => by
    rw [rowRes]
    rcases firstBad_cons.mp h with h | ⟨h1, h2⟩
    · rw [explodes_exprRes h]
    · obtain ⟨x, hx⟩ := fine_exprRes h1
      rw [hx]
      dsimp only
      rw [explodes_rowRes h2]

theorem explodes_argsRes : ∀ {vs : List Val}, ArgsExplode modelDur vs → argsRes vs = .panic
  | [], h => absurd h firstBad_nil
  | v :: vs, h => by
    rw [argsRes]
    rcases firstBad_cons.mp h with h | ⟨h1, h2⟩
    · have hn : ∀ v, argPanics v = true → argScalarOf modelDur fmtTime v = none := by
        intro v
        fun_induction argPanics v with
        | case1 b => intro h; subst h; rfl
        | case2 v ih =>
          intro h
          cases v with
          | nilPtr b => cases h; rfl
          | ptr v => exact ih h
          | _ => cases h
        | case3 v h1 h2 => intro h; cases h
      rw [anyRes, hn v h, h]
      rfl
    · obtain ⟨x, hx⟩ := Option.isSome_iff_exists.mp h1
      rw [(anyRes_ok_iff _ _).mpr hx]
      dsimp only
      rw [explodes_argsRes h2]

theorem explodes_setsRes : ∀ {sets : List (Bytes × Val)},
    FirstBad (fun s => Fine modelDur s.2) (fun s => Explodes modelDur s.2) sets → setsRes sets = .panic
  | [], h => absurd h firstBad_nil
  | (name, v) :: rest, h => by
    rw [setsRes]
    rcases firstBad_cons.mp h with h | ⟨h1, h2⟩
    · rw [explodes_exprRes h]
    · obtain ⟨x, hx⟩ := fine_exprRes h1
      rw [hx]
      dsimp only
      rw [explodes_setsRes h2]

theorem explodes_rowsRes {ncols : Nat} : ∀ {rows : List (List Val)} {i : Nat},
    FirstBad (fun r => r.length = ncols ∧ ∀ v ∈ r, Fine modelDur v) (fun r => r.length = ncols ∧ RowExplodes modelDur r) rows →
    rowsRes ncols i rows = .panic
  | [], _, h => absurd h firstBad_nil
  | row :: rows, i, h => by
    rw [rowsRes]
    rcases firstBad_cons.mp h with ⟨hl, h⟩ | ⟨⟨hl, h1⟩, h2⟩
    · rw [if_neg (by simpa using hl), explodes_rowRes h]
    · obtain ⟨x, hx⟩ := fine_rowRes (j := 0) h1
      rw [if_neg (by simpa using hl), hx]
      dsimp only
      rw [explodes_rowsRes h2]

theorem fine_critRes {c : Criteria} (h : ∀ v, c = some v → Fine modelDur v) : ∃ x, critRes c = .ok x := by
  cases c with
  | none => exact ⟨none, rfl⟩
  | some v =>
    obtain ⟨x, hx⟩ := fine_exprRes (h v rfl)
    exact ⟨some x, by rw [critRes, hx]; rfl⟩

/-- A call panics exactly if `CallExplodes` says so. -/
theorem callRes_panic_iff {n : Nat} {c : Call} : callRes n c = .panic ↔ CallExplodes modelDur c := by
  refine ⟨callRes_explodes, fun h => ?_⟩
  cases c with
  | stmtExecute => rw [callRes, explodes_argsRes h]; rfl
  | prepare => cases h
  | execute => rw [callRes, explodes_argsRes h]; rfl
  | deallocate => cases h
  | insert => rw [callRes, explodes_rowsRes h]; rfl
  | insertRow => rw [callRes, explodes_rowRes h]; rfl
  | update t crit sets =>
    rw [callRes]
    rcases h with ⟨v, rfl, h⟩ | ⟨h1, h2⟩
    · rw [critRes, explodes_exprRes h]; rfl
    · obtain ⟨x, hx⟩ := fine_critRes h1
      rw [hx]
      dsimp only
      rw [explodes_setsRes h2]; rfl
  | delete t crit =>
    obtain ⟨v, rfl, h⟩ := h
    rw [callRes, critRes, explodes_exprRes h]; rfl

theorem impure_rowsP {n : Nat} : ∀ (steps : List RowStep) (st : Except Err (List (List PExpr))), ¬RowsPure n steps →
    rowsP n st steps = none := by
  intro steps st h
  cases hr : rowsP n st steps with
  | none => rfl
  | some x => exact absurd (rowsP_pure _ _ _ hr) h

theorem impure_setsP {n : Nat} : ∀ (steps : List SetStep) (st : Except Err (List (Bytes × PExpr))), ¬SetsPure n steps →
    setsP n st steps = none := by
  intro steps st h
  cases hr : setsP n st steps with
  | none => rfl
  | some x => exact absurd (setsP_pure _ _ _ hr) h

theorem explodes_rowsP {n : Nat} : ∀ (steps : List RowStep) (rs : List (List PExpr)), RowsExplode modelDur (rowArgs steps) →
    rowsP n (.ok rs) steps = none
  | [], _, h => absurd h firstBad_nil
  | .row args :: rest, rs, h => by
    rcases firstBad_cons.mp (show RowsExplode modelDur (args :: rowArgs rest) from h) with h | ⟨h1, h2⟩
    · unfold rowsP
      dsimp only
      rw [explodes_rowRes h]
    · obtain ⟨x, hx⟩ := fine_rowRes (j := 0) h1
      unfold rowsP
      dsimp only
      rw [hx]
      exact explodes_rowsP rest _ h2
  | .outer d c :: rest, rs, h => by
    rw [rowsP]
    split
    · rfl
    · exact explodes_rowsP rest rs h

theorem explodes_setsP {n : Nat} : ∀ (steps : List SetStep) (ss : List (Bytes × PExpr)),
    FirstBad (fun s => Fine modelDur s.2) (fun s => Explodes modelDur s.2) (setArgs steps) → setsP n (.ok ss) steps = none
  | [], _, h => absurd h firstBad_nil
  | .set name v :: rest, ss, h => by
    rcases firstBad_cons.mp (show FirstBad _ _ ((name, v) :: setArgs rest) from h) with h | ⟨h1, h2⟩
    · unfold setsP
      dsimp only
      rw [explodes_exprRes h]
    · obtain ⟨x, hx⟩ := fine_exprRes h1
      unfold setsP
      dsimp only
      rw [hx]
      exact explodes_setsP rest _ h2
  | .outer d c :: rest, ss, h => by
    rw [setsP]
    split
    · rfl
    · exact explodes_setsP rest ss h

/-- the program's end on the level of messages -/
theorem runP_finishes {z : Nat} (prog : Prog) : ∀ (n : Nat) (st : PState) (x : Option (PState × List (Option Val))),
    runP z prog n st = x → Finishes modelDur (nameAfter z) n prog st x := by
  induction prog with
  | ret err out => intro n st x h; cases h; exact .ret
  | call c k ih =>
    intro n st x h
    unfold runP at h
    cases st with
    | error e => exact .callSkip (ih _ _ _ _ h)
    | ok ms =>
      simp only [stepP] at h
      split at h
      · rename_i m r hc
        exact .call (callRes_ok hc) (callRes_name hc) (ih _ _ _ _ h)
      · rename_i e hc
        refine .callFail (fun m r ha => ?_) (fun hx => ?_) (callRes_blames hc) (ih _ _ _ _ h)
        · obtain ⟨x, hx⟩ := callRes_of_asked (n := (z + (bytesOf ms).length)) ha
          rw [hx] at hc; cases hc
        · rw [callRes_panic_iff.mpr hx] at hc; cases hc
      · cases h
        exact .callPanic (callRes_explodes ‹_›)
  | tx level body k ihb ihk =>
    intro n st x h
    unfold runP at h
    cases st with
    | error e => exact .txSkip (ihk _ _ _ _ h)
    | ok ms =>
      simp only [opening_eq] at h
      cases hl : txOpening level.toNat with
      | none =>
        simp only [hl, Option.map_none] at h
        exact .txLevel hl (ihk _ _ _ _ h)
      | some ss =>
        simp only [hl, Option.map_some] at h
        have hb := ihb (n + 1) (.ok (ms ++ (ss.map ascii).map stmtMsg)) _ rfl
        cases hr : runP z body (n + 1) (.ok (ms ++ (ss.map ascii).map stmtMsg)) with
        | none =>
          rw [hr] at h hb
          rw [List.map_map] at hb
          cases h
          exact .txPanic hl hb
        | some y =>
          obtain ⟨s1, o1⟩ := y
          rw [hr] at h hb
          rw [List.map_map] at hb
          cases s1 with
          | ok ms' => exact .tx hl hb (ihk _ _ _ _ h)
          | error e => exact .txFail hl hb (ihk _ _ _ _ h)
  | expect op body k ihb ihk =>
    intro n st x h
    unfold runP at h
    cases st with
    | error e => exact .expectSkip (ihk _ _ _ _ h)
    | ok ms =>
      dsimp only at h
      have hb := ihb (n + 1) (.ok (ms ++ [.expectOpen op.toNat [(1, [49])]])) _ rfl
      cases hr : runP z body (n + 1) (.ok (ms ++ [.expectOpen op.toNat [(1, [49])]])) with
      | none =>
        rw [hr] at h hb
        cases h
        exact .expectPanic hb
      | some y =>
        obtain ⟨s1, o1⟩ := y
        rw [hr] at h hb
        cases s1 with
        | ok ms' => exact .expect hb (ihk _ _ _ _ h)
        | error e => exact .expectFail hb (ihk _ _ _ _ h)
  | insertF t cols body err k ih =>
    intro n st x h
    unfold runP at h
    cases st with
    | error e => exact .insertFSkip (ih _ _ _ h)
    | ok ms =>
      dsimp only at h
      cases hb : rowsP (n + 1) (.ok []) body with
      | none =>
        rw [hb] at h
        cases h
        exact .insertFPanic (rowsP_explodes _ _ hb)
      | some s1 =>
        rw [hb] at h
        have hr := rowsP_ok _ _ _ hb
        have hp := rowsP_pure _ _ _ hb
        cases s1 with
        | ok rs =>
          obtain ⟨rs1, rfl, hr⟩ := hr
          exact .insertF hp hr (ih _ _ _ h)
        | error e =>
          refine .insertFFail hp hr (fun hx => ?_) (rowsP_blames _ _ hb) (ih _ _ _ h)
          rw [explodes_rowsP _ _ hx] at hb; cases hb
  | updateF t crit body err k ih =>
    intro n st x h
    unfold runP at h
    cases st with
    | error e => exact .updateFSkip (ih _ _ _ h)
    | ok ms =>
      dsimp only at h
      cases hc : critRes crit with
      | panic =>
        rw [hc] at h
        cases h
        exact .updateFPanic (.inr (.inl (critRes_explodes hc)))
      | ok c =>
        rw [hc] at h
        dsimp only at h
        cases hb : setsP (n + 1) (.ok []) body with
        | none =>
          rw [hb] at h
          cases h
          exact .updateFPanic ((setsP_explodes _ _ hb).imp id fun h => .inr ⟨critRes_fine hc, h⟩)
        | some s1 =>
          rw [hb] at h
          have hr := setsP_ok _ _ _ hb
          have hp := setsP_pure _ _ _ hb
          cases s1 with
          | ok rs =>
            obtain ⟨rs1, rfl, hr⟩ := hr
            exact .updateF hp ((critRes_ok_iff _ _).mp hc) hr (ih _ _ _ h)
          | error e =>
            refine .updateFFail hp (fun c ss hcs => hr ss hcs.2) ?_ (.inr ⟨critRes_fine hc, setsP_blames _ _ hb⟩) (ih _ _ _ h)
            rintro (⟨v, rfl, hx⟩ | ⟨_, hx⟩)
            · rw [critRes, explodes_exprRes hx] at hc; cases hc
            · rw [explodes_setsP _ _ hx] at hb; cases hb
      | err e =>
        rw [hc] at h
        dsimp only at h
        cases hb : setsP (n + 1) (.error e) body with
        | none =>
          rw [hb] at h
          cases h
          exact .updateFPanic (.inl (setsP_error_none _ hb))
        | some s1 =>
          rw [hb] at h
          cases setsP_error' _ _ hb
          refine .updateFFail (setsP_pure _ _ _ hb) (fun c ss hcs => ?_) ?_ (.inl (critRes_blames hc)) (ih _ _ _ h)
          · rw [(critRes_ok_iff _ _).mpr hcs.1] at hc
            cases hc
          · rintro (⟨v, rfl, hx⟩ | ⟨hf, hx⟩)
            · rw [critRes, explodes_exprRes hx] at hc; cases hc
            · obtain ⟨x, hx⟩ := fine_critRes hf
              rw [hx] at hc; cases hc
  | outer d c k ih =>
    intro n st x h
    rw [runP] at h
    split at h
    · cases h
      exact .outerPanic ‹_›
    · exact .outer (by omega) (ih _ _ _ h)

end Verif.Proof
