import Verif.Proof.Explodes
import Verif.Props.Errors
/-! C12: exactly which programs panic. -/
namespace Verif.Props
open Verif.Go Verif.Spec Verif.Model Verif.Proof

variable {g : Grow} {b b' : Builder} {prog : Prog} {o : List Builder} {out : List (Option Val)}

section spec
variable {dt : BitVec 64 → Bytes} {nm : Naming}

/-! ### there is one end of every program -/

theorem Explodes.not_fine {v : Val} (h : Explodes dt v) : ¬Fine dt v := by
  induction h with
  | nilFn => simp [Fine, exprOf, plainScalar]
  | nilPtr => simp [Fine, exprOf, plainScalar]
  | op hj _ _ ih =>
    intro hf
    rw [Fine, exprOf, Option.isSome_map] at hf
    exact ih ((exprsOf_fine _).mp hf _ (List.mem_of_getElem? hj))
  | call hj _ _ ih =>
    intro hf
    rw [Fine, exprOf, Option.isSome_map] at hf
    exact ih ((exprsOf_fine _).mp hf _ (List.mem_of_getElem? hj))

theorem some_map_inj {α : Type} {l l' : List α} (h : l.map some = l'.map some) : l = l' := by
  induction l generalizing l' with
  | nil => cases l' with
    | nil => rfl
    | cons => cases h
  | cons a l ih => cases l' with
    | nil => cases h
    | cons a' l' =>
      simp only [List.map_cons, List.cons.injEq, Option.some.injEq] at h
      rw [h.1, ih h.2]

theorem row_fine {row : List Val} {es : List PExpr} (h : Row dt row es) : ∀ v ∈ row, Fine dt v := by
  intro v hv
  have : exprOf dt fmtTime v ∈ es.map some := by rw [← show _ = es.map some from h]; exact List.mem_map_of_mem hv
  obtain ⟨e, _, he⟩ := List.mem_map.mp this
  rw [Fine, ← he]; rfl

theorem rows_fine {rows : List (List Val)} {rs : List (List PExpr)} (h : Rows dt rows rs) : ∀ r ∈ rows, ∀ v ∈ r, Fine dt v := by
  intro r hr
  have : r.map (exprOf dt fmtTime) ∈ rs.map (·.map some) := by rw [← show _ = rs.map _ from h]; exact List.mem_map_of_mem hr
  obtain ⟨es, _, he⟩ := List.mem_map.mp this
  exact row_fine (es := es) he.symm

theorem sets_fine {sets : List (Bytes × Val)} {ss : List (Bytes × PExpr)} (h : Sets dt sets ss) : ∀ s ∈ sets, Fine dt s.2 := by
  intro s hs
  have : (s.1, exprOf dt fmtTime s.2) ∈ ss.map (fun s => (s.1, some s.2)) := by
    rw [← show _ = ss.map _ from h]; exact List.mem_map.mpr ⟨s, hs, rfl⟩
  obtain ⟨x, _, he⟩ := List.mem_map.mp this
  rw [Fine, ← (Prod.mk.inj he).2]; rfl

theorem crit_fine {c : Criteria} {e : Option PExpr} (h : Crit dt c e) : ∀ v, c = some v → Fine dt v := by
  rintro v rfl
  cases e with
  | none => cases h
  | some x => rw [Fine, show exprOf dt fmtTime v = some x from Option.some.inj h]; rfl

theorem args_fine {args : List Val} {as : List PScalar} (h : Args dt args as) : ∀ a ∈ args, (argScalarOf dt fmtTime a).isSome := by
  intro v hv
  have : argScalarOf dt fmtTime v ∈ as.map some := by rw [← show _ = as.map some from h]; exact List.mem_map_of_mem hv
  obtain ⟨e, _, he⟩ := List.mem_map.mp this
  rw [← he]; rfl

theorem rows_unique {rows : List (List Val)} {rs rs' : List (List PExpr)} (h : Rows dt rows rs) (h' : Rows dt rows rs') :
    rs = rs' := by
  replace h : rs.map (·.map some) = rs'.map (·.map some) := (show _ = rs.map _ from h).symm.trans h'
  clear h'
  induction rs generalizing rs' with
  | nil => cases rs' with
    | nil => rfl
    | cons => cases h
  | cons r rs ih => cases rs' with
    | nil => cases h
    | cons r' rs' =>
      simp only [List.map_cons, List.cons.injEq] at h
      rw [some_map_inj h.1, ih h.2]

theorem sets_unique {sets : List (Bytes × Val)} {ss ss' : List (Bytes × PExpr)} (h : Sets dt sets ss) (h' : Sets dt sets ss') :
    ss = ss' := by
  replace h : ss.map (fun s => (s.1, some s.2)) = ss'.map (fun s => (s.1, some s.2)) := (show _ = ss.map _ from h).symm.trans h'
  clear h'
  induction ss generalizing ss' with
  | nil => cases ss' with
    | nil => rfl
    | cons => cases h
  | cons s ss ih => cases ss' with
    | nil => cases h
    | cons s' ss' =>
      simp only [List.map_cons, List.cons.injEq, Prod.mk.injEq, Option.some.injEq] at h
      rw [show s = s' from Prod.ext h.1.1 h.1.2, ih h.2]

theorem crit_unique {c : Criteria} {e e' : Option PExpr} (h : Crit dt c e) (h' : Crit dt c e') : e = e' := by
  have h : e.map some = e'.map some := (show _ = e.map some from h).symm.trans h'
  cases e <;> cases e' <;> simp at h ⊢
  exact h

theorem firstBad_not_all {α : Type} {good bad : α → Prop} {l : List α} (h : FirstBad good bad l) (hx : ∀ x, bad x → ¬good x) :
    ¬∀ x ∈ l, good x := by
  obtain ⟨i, x, h1, _, h3⟩ := h
  exact fun h => hx x h3 (h x (List.mem_of_getElem? h1))

theorem rowExplodes_not_fine {row : List Val} (h : RowExplodes dt row) : ¬∀ v ∈ row, Fine dt v :=
  firstBad_not_all h fun _ => Explodes.not_fine

theorem argPanics_none (v : Val) : argPanics v = true → argScalarOf dt fmtTime v = none := by
  fun_induction argPanics v with
  | case1 b => intro h; subst h; rfl
  | case2 v ih =>
    intro h
    cases v with
    | nilPtr b => cases h; rfl
    | ptr v => exact ih h
    | _ => cases h
  | case3 v h1 h2 => intro h; cases h

theorem argsExplode_not_fine {args : List Val} (h : ArgsExplode dt args) : ¬∀ a ∈ args, (argScalarOf dt fmtTime a).isSome :=
  firstBad_not_all h fun a ha => by simp [argPanics_none a ha]

theorem rowsExplode_not_fine {rows : List (List Val)} (h : RowsExplode dt rows) : ¬∀ r ∈ rows, ∀ v ∈ r, Fine dt v :=
  firstBad_not_all h fun _ => rowExplodes_not_fine

theorem updateExplodes_not_fine {crit : Criteria} {sets : List (Bytes × Val)} (h : UpdateExplodes dt crit sets) :
    ¬((∀ c, crit = some c → Fine dt c) ∧ ∀ s ∈ sets, Fine dt s.2) := by
  rintro ⟨hc, hs⟩
  rcases h with ⟨c, rfl, h⟩ | ⟨_, h⟩
  · exact Explodes.not_fine h (hc c rfl)
  · exact firstBad_not_all h (fun s hs => Explodes.not_fine hs) hs

/-- A call that panics asks for nothing. -/
theorem explodes_not_asked {c : Call} {m : List ClientMsg} {r : Option Val} (h : Asked dt c m r) : ¬CallExplodes dt c := by
  cases h with
  | stmtExecute h => exact fun hx => argsExplode_not_fine hx (args_fine h)
  | prepare => exact id
  | execute h => exact fun hx => argsExplode_not_fine hx (args_fine h)
  | deallocate => exact id
  | insert hl h => exact fun hx => firstBad_not_all hx (fun r hr hg => rowExplodes_not_fine hr.2 hg.2) fun r hr => ⟨hl r hr, rows_fine h r hr⟩
  | insertRow h => exact fun hx => rowExplodes_not_fine hx (row_fine h)
  | update hc hs => exact fun hx => updateExplodes_not_fine hx ⟨crit_fine hc, sets_fine hs⟩
  | delete hc => rintro ⟨v, rfl, hx⟩; exact Explodes.not_fine hx (crit_fine hc v rfl)

theorem asked_unique {c : Call} {ms m m' : List ClientMsg} {r r' : Option Val} (h : Asked dt c m r) (h' : Asked dt c m' r')
    (hn : ∀ v, r = some v → v = .variable (nm (ms ++ m.dropLast))) (hn' : ∀ v, r' = some v → v = .variable (nm (ms ++ m'.dropLast))) :
    m = m' ∧ r = r' := by
  cases h with
  | stmtExecute h => cases h' with | stmtExecute h' => exact ⟨by rw [some_map_inj (h.symm.trans h')], rfl⟩
  | prepare => cases h'; exact ⟨rfl, rfl⟩
  | execute h => cases h' with | execute h' => exact ⟨by rw [some_map_inj (h.symm.trans h')], rfl⟩
  | deallocate => cases h'; exact ⟨rfl, rfl⟩
  | insert _ h => cases h' with | insert _ h' => exact ⟨by rw [rows_unique h h'], rfl⟩
  | insertRow h =>
    cases h' with
    | insertRow h' =>
      cases some_map_inj (h.symm.trans h')
      have e1 := hn _ rfl
      have e2 := hn' _ rfl
      simp only [List.dropLast, Val.variable.injEq] at e1 e2
      rw [e1, e2]
      exact ⟨rfl, rfl⟩
  | update h1 h2 => cases h' with | update h1' h2' => exact ⟨by rw [crit_unique h1 h1', sets_unique h2 h2'], rfl⟩
  | delete h => cases h' with | delete h' => exact ⟨by rw [crit_unique h h'], rfl⟩

/-- A program ends in one way. -/
theorem finishes_unique {n : Nat} {s : UState} {x : Option (UState × List (Option Val))} (h : Finishes dt nm n prog s x) :
    ∀ {y}, Finishes dt nm n prog s y → x = y := by
  induction h with
  | ret => intro y h'; cases h'; rfl
  | call ha hn _ ih =>
    intro y h'
    cases h' with
    | call ha' hn' h' => obtain ⟨rfl, rfl⟩ := asked_unique ha ha' hn hn'; exact ih h'
    | callFail ha' => exact absurd ha (ha' _ _)
    | callPanic hx => exact absurd hx (explodes_not_asked ha)
  | callFail hna hnx hb _ ih =>
    intro y h'
    cases h' with
    | call ha' hn' h' => exact absurd ha' (hna _ _)
    | callFail _ _ hb' h' => cases C62_unique hb hb'; exact ih h'
    | callPanic hx => exact absurd hx hnx
  | callPanic hx =>
    intro y h'
    cases h' with
    | call ha' hn' h' => exact absurd hx (explodes_not_asked ha')
    | callFail _ hnx => exact absurd hx hnx
    | callPanic => rfl
  | callSkip _ ih => intro y h'; cases h' with | callSkip h' => exact ih h'
  | tx hl _ _ ihb ihk =>
    intro y h'
    cases h' with
    | tx hl' hb' h' => cases hl.symm.trans hl'; cases ihb hb'; exact ihk h'
    | txFail hl' hb' _ => cases hl.symm.trans hl'; cases ihb hb'
    | txPanic hl' hb' => cases hl.symm.trans hl'; cases ihb hb'
    | txLevel hl' _ => cases hl.symm.trans hl'
  | txFail hl _ _ ihb ihk =>
    intro y h'
    cases h' with
    | tx hl' hb' h' => cases hl.symm.trans hl'; cases ihb hb'
    | txFail hl' hb' h' => cases hl.symm.trans hl'; cases ihb hb'; exact ihk h'
    | txPanic hl' hb' => cases hl.symm.trans hl'; cases ihb hb'
    | txLevel hl' _ => cases hl.symm.trans hl'
  | txPanic hl _ ihb =>
    intro y h'
    cases h' with
    | tx hl' hb' h' => cases hl.symm.trans hl'; cases ihb hb'
    | txFail hl' hb' h' => cases hl.symm.trans hl'; cases ihb hb'
    | txPanic hl' hb' => rfl
    | txLevel hl' _ => cases hl.symm.trans hl'
  | txLevel hl _ ih =>
    intro y h'
    cases h' with
    | tx hl' hb' h' => cases hl.symm.trans hl'
    | txFail hl' hb' h' => cases hl.symm.trans hl'
    | txPanic hl' hb' => cases hl.symm.trans hl'
    | txLevel hl' h' => exact ih h'
  | txSkip _ ih => intro y h'; cases h' with | txSkip h' => exact ih h'
  | expect _ _ ihb ihk =>
    intro y h'
    cases h' with
    | expect hb' h' => cases ihb hb'; exact ihk h'
    | expectFail hb' h' => cases ihb hb'
    | expectPanic hb' => cases ihb hb'
  | expectFail _ _ ihb ihk =>
    intro y h'
    cases h' with
    | expect hb' h' => cases ihb hb'
    | expectFail hb' h' => cases ihb hb'; exact ihk h'
    | expectPanic hb' => cases ihb hb'
  | expectPanic _ ihb =>
    intro y h'
    cases h' with
    | expect hb' h' => cases ihb hb'
    | expectFail hb' h' => cases ihb hb'
    | expectPanic hb' => rfl
  | expectSkip _ ih => intro y h'; cases h' with | expectSkip h' => exact ih h'
  | insertF hp hr _ ih =>
    intro y h'
    cases h' with
    | insertF _ hr' h' => cases rows_unique hr hr'; exact ih h'
    | insertFFail _ hn _ _ _ => exact absurd hr (hn _)
    | insertFPanic hx =>
      rcases hx with hx | hx
      · exact absurd hp hx
      · exact absurd (rows_fine hr) (rowsExplode_not_fine hx)
  | insertFFail hp hn hnx hb _ ih =>
    intro y h'
    cases h' with
    | insertF _ hr' h' => exact absurd hr' (hn _)
    | insertFFail _ _ _ hb' h' => cases RowsBlame.unique hb hb'; exact ih h'
    | insertFPanic hx =>
      rcases hx with hx | hx
      · exact absurd hp hx
      · exact absurd hx hnx
  | insertFPanic hx =>
    intro y h'
    cases h' with
    | insertF hp hr' h' =>
      rcases hx with hx | hx
      · exact absurd hp hx
      · exact absurd (rows_fine hr') (rowsExplode_not_fine hx)
    | insertFFail hp _ hnx _ _ =>
      rcases hx with hx | hx
      · exact absurd hp hx
      · exact absurd hx hnx
    | insertFPanic => rfl
  | insertFSkip _ ih => intro y h'; cases h' with | insertFSkip h' => exact ih h'
  | updateF hp hc hs _ ih =>
    intro y h'
    cases h' with
    | updateF _ hc' hs' h' => cases crit_unique hc hc'; cases sets_unique hs hs'; exact ih h'
    | updateFFail _ hn _ _ _ => exact absurd ⟨hc, hs⟩ (hn _ _)
    | updateFPanic hx =>
      rcases hx with hx | hx
      · exact absurd hp hx
      · exact absurd ⟨crit_fine hc, sets_fine hs⟩ (updateExplodes_not_fine hx)
  | updateFFail hp hn hnx hb _ ih =>
    intro y h'
    cases h' with
    | updateF _ hc' hs' h' => exact absurd ⟨hc', hs'⟩ (hn _ _)
    | updateFFail _ _ _ hb' h' => cases UpdateBlames.unique hb hb'; exact ih h'
    | updateFPanic hx =>
      rcases hx with hx | hx
      · exact absurd hp hx
      · exact absurd hx hnx
  | updateFPanic hx =>
    intro y h'
    cases h' with
    | updateF hp hc' hs' h' =>
      rcases hx with hx | hx
      · exact absurd hp hx
      · exact absurd ⟨crit_fine hc', sets_fine hs'⟩ (updateExplodes_not_fine hx)
    | updateFFail hp _ hnx _ _ =>
      rcases hx with hx | hx
      · exact absurd hp hx
      · exact absurd hx hnx
    | updateFPanic => rfl
  | updateFSkip _ ih => intro y h'; cases h' with | updateFSkip h' => exact ih h'
  | outer hd _ ih =>
    intro y h'
    cases h' with
    | outer _ h' => exact ih h'
    | outerPanic hd' => omega
  | outerPanic hd =>
    intro y h'
    cases h' with
    | outer hd' h' => omega
    | outerPanic _ => rfl

/-- What returns does what `Exec` says (the specification of C10 and others). -/
theorem finishes_exec {n : Nat} {s : UState} {x : Option (UState × List (Option Val))} (h : Finishes dt nm n prog s x) :
    ∀ s' out, x = some (s', out) → ∃ vs, Exec dt n prog s s' out vs := by
  induction h with
  | ret => intro s' out h; cases h; exact ⟨_, .ret⟩
  | call ha _ _ ih => intro s' out h; obtain ⟨vs, h⟩ := ih _ _ h; exact ⟨_, .call ha h⟩
  | callFail hn _ hb _ ih => intro s' out h; obtain ⟨vs, h⟩ := ih _ _ h; exact ⟨_, .callFail hn hb h⟩
  | callSkip _ ih => intro s' out h; obtain ⟨vs, h⟩ := ih _ _ h; exact ⟨_, .callSkip h⟩
  | tx hl _ _ ihb ihk =>
    intro s' out h; obtain ⟨vs', h⟩ := ihk _ _ h; obtain ⟨vs, hb⟩ := ihb _ _ rfl; exact ⟨_, .tx hl hb h⟩
  | txFail hl _ _ ihb ihk =>
    intro s' out h; obtain ⟨vs', h⟩ := ihk _ _ h; obtain ⟨vs, hb⟩ := ihb _ _ rfl; exact ⟨_, .txFail hl hb h⟩
  | txLevel hl _ ih => intro s' out h; obtain ⟨vs, h⟩ := ih _ _ h; exact ⟨_, .txLevel hl h⟩
  | txSkip _ ih => intro s' out h; obtain ⟨vs, h⟩ := ih _ _ h; exact ⟨_, .txSkip h⟩
  | expect _ _ ihb ihk =>
    intro s' out h; obtain ⟨vs', h⟩ := ihk _ _ h; obtain ⟨vs, hb⟩ := ihb _ _ rfl; exact ⟨_, .expect hb h⟩
  | expectFail _ _ ihb ihk =>
    intro s' out h; obtain ⟨vs', h⟩ := ihk _ _ h; obtain ⟨vs, hb⟩ := ihb _ _ rfl; exact ⟨_, .expectFail hb h⟩
  | expectSkip _ ih => intro s' out h; obtain ⟨vs, h⟩ := ih _ _ h; exact ⟨_, .expectSkip h⟩
  | insertF hp hr _ ih => intro s' out h; obtain ⟨vs, h⟩ := ih _ _ h; exact ⟨_, .insertF hp hr h⟩
  | insertFFail hp hn _ hb _ ih => intro s' out h; obtain ⟨vs, h⟩ := ih _ _ h; exact ⟨_, .insertFFail hp hn hb h⟩
  | insertFSkip _ ih => intro s' out h; obtain ⟨vs, h⟩ := ih _ _ h; exact ⟨_, .insertFSkip h⟩
  | updateF hp hc hs _ ih => intro s' out h; obtain ⟨vs, h⟩ := ih _ _ h; exact ⟨_, .updateF hp hc hs h⟩
  | updateFFail hp hn _ hb _ ih => intro s' out h; obtain ⟨vs, h⟩ := ih _ _ h; exact ⟨_, .updateFFail hp hn hb h⟩
  | updateFSkip _ ih => intro s' out h; obtain ⟨vs, h⟩ := ih _ _ h; exact ⟨_, .updateFSkip h⟩
  | outer hd _ ih => intro s' out h; obtain ⟨vs, h⟩ := ih _ _ h; exact ⟨_, .outer hd h⟩
  | callPanic _ => intro s' out h; cases h
  | txPanic _ _ _ => intro s' out h; cases h
  | expectPanic _ _ => intro s' out h; cases h
  | insertFPanic _ => intro s' out h; cases h
  | updateFPanic _ => intro s' out h; cases h
  | outerPanic _ => intro s' out h; cases h
end spec

/-! ### C12 -/

/-- How a run of the builder ended, in the words of the specification. -/
def FinishesAs (r : M (List Builder × Builder × List (Option Val))) : Option (UState × List (Option Val)) → Prop
  | none => r = .error .panic
  | some (s, out) => ∃ o b', r = .ok (o, b', out) ∧ b'.err = (match s with | .ok _ => none | .error e => some e)

/-- C12, exactly: on a builder without error, every program ends in the one way `Finishes` says, unless memory runs out.
In particular it panics exactly if the specification says so: a builder of an enclosing callback is used, or a call that
no earlier error suppresses is handed a value that panics and that no refused value in front of it protects. -/
theorem C12_exact (hb : Ready b) : ∃ nm : Naming, ∀ (g : Grow) (prog : Prog),
    ∃ x, Finishes libDur nm 0 prog (.ok []) x ∧ (∀ y, Finishes libDur nm 0 prog (.ok []) y → y = x) ∧
      (run g prog [] b = .error .oom ∨ FinishesAs (run g prog [] b) x) := by
  refine ⟨nameAfter b.buf.data.length, fun g prog => ⟨runP b.buf.data.length prog 0 (.ok []), ?_⟩⟩
  have he := runP_finishes (z := b.buf.data.length) prog 0 (.ok []) _ rfl
  rw [modelDur_lib] at he
  refine ⟨he, fun y hy => finishes_unique hy he, ?_⟩
  have hr := run_ref (g := g) prog [] _ _ (by simp) (Ready.rel hb)
  rcases hr with h | h
  · exact .inl h
  · right
    cases hp : runP b.buf.data.length prog 0 (.ok []) with
    | none => rw [show ([] : List Builder).length = 0 from rfl, hp] at h; exact h
    | some y =>
      obtain ⟨s, ou⟩ := y
      rw [show ([] : List Builder).length = 0 from rfl, hp] at h
      obtain ⟨⟨o1, b1, ou1⟩, e1, _, k1, l1⟩ := h
      cases l1
      refine ⟨o1, b1, e1, ?_⟩
      cases s with
      | ok ms => exact k1.2.1
      | error e => exact k1.2

/-- C12, exactly, of one call: it panics if and only if its values say so. -/
theorem C12_call_exact (hb : Ready b) (c : Call) :
    (b.step g c = .error .panic → CallExplodes libDur c) ∧
    (CallExplodes libDur c → b.step g c = .error .panic ∨ b.step g c = .error .oom) := by
  have hr := step_ref (g := g) c (Ready.rel hb)
  rw [← modelDur_lib]
  simp only [stepP] at hr
  constructor
  · intro h
    rw [h] at hr
    rcases hr with h | h
    · cases h
    · cases hc : callRes (b.buf.data.length + (bytesOf []).length) c with
      | ok x => rw [hc] at h; obtain ⟨_, hx, _⟩ := h; cases hx
      | err e => rw [hc] at h; obtain ⟨_, hx, _⟩ := h; cases hx
      | panic => exact callRes_explodes hc
  · intro h
    rw [callRes_panic_iff.mpr h] at hr
    exact hr.symm

/-! ### examples: the same nil, reached or not -/

def nilOp : Val := .op (ascii "+") [.int8 1, .nilFn, .other]

/-- reached: behind a value and a parameter that are fine -/
example : CallExplodes libDur (.insert (ascii "t") [ascii "a"] [[.int8 1], [nilOp]]) ∧
    builderEx.step growEx (.insert (ascii "t") [ascii "a"] [[.int8 1], [nilOp]]) = .error .panic := by
  refine ⟨⟨1, [nilOp], rfl, fun y hy => ?_, rfl, 0, nilOp, rfl, fun y hy => by simp at hy,
    .op (j := 1) rfl (fun u hu => ?_) .nilFn⟩, rfl⟩
  · simp at hy; subst hy; exact ⟨rfl, fun v hv => by simp at hv; subst hv; rfl⟩
  · simp at hu; subst hu; rfl

/-- not reached: the row has the wrong length, or a value in front is refused -/
example : ((builderEx.step growEx (.insert (ascii "t") [ascii "a"] [[nilOp, nilOp]])).toOption.map (·.1.err)) =
      some (some (.rowLen 0 1 2)) ∧
    ((builderEx.step growEx (.insert (ascii "t") [ascii "a"] [[.op (ascii "+") [.other, .nilFn]]])).toOption.map (·.1.err)) =
      some (some (.column 0 (.param 0 .unknownType))) ∧
    ¬CallExplodes libDur (.insert (ascii "t") [ascii "a"] [[nilOp, nilOp]]) := by
  refine ⟨by decide +kernel, by decide +kernel, ?_⟩
  rintro ⟨i, row, h1, _, h3, _⟩
  match i with
  | 0 => cases h1; cases h3
  | i + 1 => cases h1

/-- not reached: an error was recorded before; the use of an enclosing builder still panics -/
example : ((run growEx (.call (.stmtExecute [] [.other]) fun _ => .call (.stmtExecute [] [.nilPtr true]) fun _ => .ret none [])
      [] builderEx).toOption.map (·.2.1.err)) = some (some .unsupportedType) ∧
    (run growEx (.tx 0 (.call (.stmtExecute [] [.other]) fun _ => .outer 0 .send (.ret none [])) fun _ => .ret none [])
      [] builderEx) = .error .panic := by
  refine ⟨by decide +kernel, rfl⟩

end Verif.Props
