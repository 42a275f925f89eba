import Verif.Spec.Misuse
import Verif.Proof.Units
/-! A program that panics has misused the builder. -/
namespace Verif.Proof
open Verif.Go Verif.Spec Verif.Model

theorem argPanics_hazard : ∀ v, argPanics v = true → hazard v = true
  | .nilPtr b, h => by simpa [argPanics, hazard] using h
  | .ptr v, h => by rw [argPanics] at h; rw [hazard]; exact argPanics_hazard v h
  | .nil, h | .bool _, h | .int8 _, h | .int16 _, h | .int32 _, h | .int64 _, h | .int _, h | .uint8 _, h | .uint16 _, h
  | .uint32 _, h | .uint64 _, h | .uint _, h | .str _, h | .bytes _, h | .float32 _, h | .float64 _, h | .time _, h
  | .duration _, h | .strColl .., h | .xml _, h | .xmlStr _, h | .json _, h | .jsonStr _, h | .geometry _, h
  | .column _, h | .op .., h | .call .., h | .variable _, h | .placeholder _, h | .nilFn, h | .other, h => by
    simp [argPanics] at h

theorem anyRes_hazard {v : Val} (h : anyRes v = .panic) : hazard v = true := by
  unfold anyRes at h
  split at h
  · cases h
  · split at h
    · exact argPanics_hazard v ‹_›
    · cases h

theorem argsRes_hazard : ∀ {vs : List Val}, argsRes vs = .panic → hazards vs = true
  | [], h => by cases h
  | v :: vs, h => by
    rw [argsRes] at h
    rw [hazards, Bool.or_eq_true]
    split at h
    · split at h
      · cases h
      · cases h
      · exact .inr (argsRes_hazard ‹_›)
    · cases h
    · exact .inl (anyRes_hazard ‹_›)

mutual
theorem exprRes_hazard : ∀ {v : Val}, exprRes v = .panic → hazard v = true
  | .nilFn, _ => rfl
  | .nilPtr true, _ => rfl
  | .ptr v, h => by
    rw [exprRes] at h
    rw [hazard]
    split at h
    · exact exprRes_hazard h
    · cases h
  | .op name ps, h => by
    rw [exprRes] at h
    rw [hazard]
    split at h
    · cases h
    · cases h
    · exact paramsRes_hazard ‹_›
  | .call name ps, h => by
    rw [exprRes] at h
    rw [hazard]
    split at h
    · cases h
    · cases h
    · exact paramsRes_hazard ‹_›
  | .nil, h | .bool _, h | .int8 _, h | .int16 _, h | .int32 _, h | .int64 _, h | .int _, h | .uint8 _, h | .uint16 _, h
  | .uint32 _, h | .uint64 _, h | .uint _, h | .str _, h | .bytes _, h | .float32 _, h | .float64 _, h | .time _, h
  | .duration _, h | .strColl .., h | .xml _, h | .xmlStr _, h | .json _, h | .jsonStr _, h | .geometry _, h
  | .column _, h | .variable _, h | .placeholder _, h | .nilPtr false, h | .other, h => by
    simp [exprRes, plainScalar] at h
theorem paramsRes_hazard : ∀ {vs : List Val} {j : Nat}, paramsRes j vs = .panic → hazards vs = true
  | [], _, h => by cases h
  | v :: vs, j, h => by
    rw [paramsRes] at h
    rw [hazards, Bool.or_eq_true]
    split at h
    · split at h
      · cases h
      · cases h
      · exact .inr (paramsRes_hazard ‹_›)
    · cases h
    · exact .inl (exprRes_hazard ‹_›)
end

theorem rowRes_hazard : ∀ {vs : List Val} {j : Nat}, rowRes j vs = .panic → hazards vs = true
  | [], _, h => by cases h
  | v :: vs, j, h => by
    rw [rowRes] at h
    rw [hazards, Bool.or_eq_true]
    split at h
    · split at h
      · cases h
      · cases h
      · exact .inr (rowRes_hazard ‹_›)
    · cases h
    · exact .inl (exprRes_hazard ‹_›)

theorem critRes_hazard {c : Criteria} (h : critRes c = .panic) : c.any hazard = true := by
  cases c with
  | none => cases h
  | some v =>
    rw [critRes] at h
    cases hr : exprRes v with
    | panic => exact exprRes_hazard hr
    | ok _ => rw [hr] at h; cases h
    | err _ => rw [hr] at h; cases h

theorem rowsRes_hazard {ncols : Nat} : ∀ {rows : List (List Val)} {i : Nat}, rowsRes ncols i rows = .panic →
    rows.any hazards = true
  | [], _, h => by cases h
  | row :: rows, i, h => by
    rw [rowsRes] at h
    rw [List.any_cons, Bool.or_eq_true]
    split at h
    · cases h
    · split at h
      · split at h
        · cases h
        · cases h
        · exact .inr (rowsRes_hazard ‹_›)
      · cases h
      · exact .inl (rowRes_hazard ‹_›)

theorem setsRes_hazard : ∀ {sets : List (Bytes × Val)}, setsRes sets = .panic → (sets.any fun s => hazard s.2) = true
  | [], h => by cases h
  | (name, v) :: rest, h => by
    rw [setsRes] at h
    rw [List.any_cons, Bool.or_eq_true]
    split at h
    · split at h
      · cases h
      · cases h
      · exact .inr (setsRes_hazard ‹_›)
    · cases h
    · exact .inl (exprRes_hazard ‹_›)

theorem map_panic {α β : Type} {f : α → β} {r : Res α} (h : r.map f = .panic) : r = .panic := by
  cases r <;> first | rfl | cases h

theorem callRes_hazard {n : Nat} {c : Call} (h : callRes n c = .panic) : callHazard c = true := by
  cases c with
  | stmtExecute => exact argsRes_hazard (map_panic h)
  | prepare => cases h
  | execute => exact argsRes_hazard (map_panic h)
  | deallocate => cases h
  | insert => exact rowsRes_hazard (map_panic h)
  | insertRow => exact rowRes_hazard (map_panic h)
  | update t crit sets =>
    rw [callHazard, Bool.or_eq_true]
    rw [callRes] at h
    split at h
    · exact .inr (setsRes_hazard (map_panic h))
    · cases h
    · exact .inl (critRes_hazard ‹_›)
  | delete => exact critRes_hazard (map_panic h)

theorem rowsP_none {n : Nat} : ∀ (steps : List RowStep) (st : Except Err (List (List PExpr))), rowsP n st steps = none →
    (rowArgs steps).any hazards = true ∨ ¬RowsPure n steps
  | [], st, h => by cases h
  | .row args :: rest, st, h => by
    have e : rowArgs (.row args :: rest) = args :: rowArgs rest := rfl
    have pure : ¬RowsPure n rest → ¬RowsPure n (.row args :: rest) := fun h h' => h fun d c hm => h' d c (.tail _ hm)
    rw [e, List.any_cons, Bool.or_eq_true]
    unfold rowsP at h
    have tail : ∀ st, rowsP n st rest = none → (hazards args = true ∨ (rowArgs rest).any hazards = true) ∨
        ¬RowsPure n (.row args :: rest) := fun st h => by
      rcases rowsP_none rest st h with h | h
      · exact .inl (.inr h)
      · exact .inr (pure h)
    split at h
    · exact tail _ h
    · split at h
      · exact tail _ h
      · exact tail _ h
      · exact .inl (.inl (rowRes_hazard ‹_›))
  | .outer d c :: rest, st, h => by
    have e : rowArgs (.outer d c :: rest) = rowArgs rest := rfl
    rw [e]
    rw [rowsP] at h
    split at h
    · exact .inr fun h' => by have := h' d c (.head _); omega
    · rcases rowsP_none rest st h with h | h
      · exact .inl h
      · exact .inr fun h' => h fun d c hm => h' d c (.tail _ hm)

theorem setsP_none {n : Nat} : ∀ (steps : List SetStep) (st : Except Err (List (Bytes × PExpr))), setsP n st steps = none →
    ((setArgs steps).any fun s => hazard s.2) = true ∨ ¬SetsPure n steps
  | [], st, h => by cases h
  | .set name v :: rest, st, h => by
    have e : setArgs (.set name v :: rest) = (name, v) :: setArgs rest := rfl
    have pure : ¬SetsPure n rest → ¬SetsPure n (.set name v :: rest) := fun h h' => h fun d c hm => h' d c (.tail _ hm)
    rw [e, List.any_cons, Bool.or_eq_true]
    unfold setsP at h
    have tail : ∀ st, setsP n st rest = none → (hazard v = true ∨ ((setArgs rest).any fun s => hazard s.2) = true) ∨
        ¬SetsPure n (.set name v :: rest) := fun st h => by
      rcases setsP_none rest st h with h | h
      · exact .inl (.inr h)
      · exact .inr (pure h)
    split at h
    · exact tail _ h
    · split at h
      · exact tail _ h
      · exact tail _ h
      · exact .inl (.inl (exprRes_hazard ‹_›))
  | .outer d c :: rest, st, h => by
    have e : setArgs (.outer d c :: rest) = setArgs rest := rfl
    rw [e]
    rw [setsP] at h
    split at h
    · exact .inr fun h' => by have := h' d c (.head _); omega
    · rcases setsP_none rest st h with h | h
      · exact .inl h
      · exact .inr fun h' => h fun d c hm => h' d c (.tail _ hm)

theorem runP_none {z : Nat} (prog : Prog) : ∀ (n : Nat) (st : PState), runP z prog n st = none → Misuse modelDur n prog st := by
  induction prog with
  | ret err out => intro n st h; cases h
  | call c k ih =>
    intro n st h
    unfold runP at h
    cases st with
    | error e => exact .afterSkip (ih _ _ _ h)
    | ok ms =>
      simp only [stepP] at h
      split at h
      · rename_i m r hc
        exact .afterCall (callRes_ok hc) (ih _ _ _ h)
      · rename_i e hc
        refine .afterFail (fun m r ha => ?_) (ih _ _ _ h)
        obtain ⟨x, hx⟩ := callRes_of_asked (n := (z + (bytesOf ms).length)) ha
        rw [hx] at hc; cases hc
      · exact .value (callRes_hazard ‹_›)
  | tx level body k ihb ihk =>
    intro n st h
    unfold runP at h
    cases st with
    | error e => exact .afterTxSkip (ihk _ _ _ h)
    | ok ms =>
      simp only [opening_eq] at h
      cases hl : txOpening level.toNat with
      | none =>
        simp only [hl, Option.map_none] at h
        exact .afterTxLevel hl (ihk _ _ _ h)
      | some ss =>
        simp only [hl, Option.map_some] at h
        cases hb : runP z body (n + 1) (.ok (ms ++ (ss.map ascii).map stmtMsg)) with
        | none =>
          have := ihb _ _ hb
          rw [List.map_map] at this
          exact .tx hl this
        | some x =>
          obtain ⟨s1, o1⟩ := x
          rw [hb] at h
          obtain ⟨ks, hb, _⟩ := runP_exec _ _ _ _ _ hb
          rw [List.map_map] at hb
          cases s1 with
          | ok ms' => exact .afterTx hl hb (ihk _ _ _ h)
          | error e => exact .afterTxFail hl hb (ihk _ _ _ h)
  | expect op body k ihb ihk =>
    intro n st h
    unfold runP at h
    cases st with
    | error e => exact .afterExpectSkip (ihk _ _ _ h)
    | ok ms =>
      dsimp only at h
      cases hb : runP z body (n + 1) (.ok (ms ++ [.expectOpen op.toNat [(1, [49])]])) with
      | none => exact .expect (ihb _ _ hb)
      | some x =>
        obtain ⟨s1, o1⟩ := x
        rw [hb] at h
        obtain ⟨ks, hb, _⟩ := runP_exec _ _ _ _ _ hb
        cases s1 with
        | ok ms' => exact .afterExpect hb (ihk _ _ _ h)
        | error e => exact .afterExpectFail hb (ihk _ _ _ h)
  | insertF t cols body err k ih =>
    intro n st h
    unfold runP at h
    cases st with
    | error e => exact .afterInsertFSkip (ih _ _ h)
    | ok ms =>
      dsimp only at h
      cases hb : rowsP (n + 1) (.ok []) body with
      | none => exact .rows (rowsP_none _ _ hb)
      | some s1 =>
        rw [hb] at h
        have hr := rowsP_ok _ _ _ hb
        cases s1 with
        | ok rs =>
          obtain ⟨rs1, rfl, hr⟩ := hr
          exact .afterInsertF hr (ih _ _ h)
        | error e => exact .afterInsertFFail hr (ih _ _ h)
  | updateF t crit body err k ih =>
    intro n st h
    unfold runP at h
    cases st with
    | error e => exact .afterUpdateFSkip (ih _ _ h)
    | ok ms =>
      dsimp only at h
      cases hc : critRes crit with
      | panic => exact .sets (.inl (critRes_hazard hc))
      | ok c =>
        rw [hc] at h
        dsimp only at h
        cases hb : setsP (n + 1) (.ok []) body with
        | none => exact .sets (.inr (setsP_none _ _ hb))
        | some s1 =>
          rw [hb] at h
          have hr := setsP_ok _ _ _ hb
          cases s1 with
          | ok rs =>
            obtain ⟨rs1, rfl, hr⟩ := hr
            exact .afterUpdateF ((critRes_ok_iff _ _).mp hc) hr (ih _ _ h)
          | error e => exact .afterUpdateFFail (fun c ss hcs => hr ss hcs.2) (ih _ _ h)
      | err e =>
        rw [hc] at h
        dsimp only at h
        cases hb : setsP (n + 1) (.error e) body with
        | none => exact .sets (.inr (setsP_none _ _ hb))
        | some s1 =>
          rw [hb] at h
          cases setsP_error' _ _ hb
          refine .afterUpdateFFail (fun c ss hcs => ?_) (ih _ _ h)
          rw [(critRes_ok_iff _ _).mpr hcs.1] at hc
          cases hc
  | outer d c k ih =>
    intro n st h
    rw [runP] at h
    split at h
    · exact .outer ‹_›
    · exact .afterOuter (by omega) (ih _ _ h)

end Verif.Proof
