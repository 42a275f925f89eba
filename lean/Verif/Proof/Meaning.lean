import Verif.Proof.Run
import Verif.Proof.MsgDecode
import Verif.Spec.Unit
/-! The outcomes computed in `Proof` agree with the specified meaning. -/
namespace Verif.Proof
open Verif.Go Verif.Spec Verif.Model

/-! ### values -/

mutual
theorem exprRes_ok_iff (v : Val) : ∀ e, exprRes v = .ok e ↔ exprOf modelDur fmtTime v = some e := by
  intro e
  match v with
  | .op name ps =>
    have ih := paramsRes_ok_iff 0 ps
    rw [exprRes, exprOf]
    cases h : paramsRes 0 ps with
    | ok es => simp [(ih es).mp h]
    | err x =>
      cases h2 : exprsOf modelDur fmtTime ps with
      | none => simp
      | some es => rw [(ih es).mpr h2] at h; cases h
    | panic =>
      cases h2 : exprsOf modelDur fmtTime ps with
      | none => simp
      | some es => rw [(ih es).mpr h2] at h; cases h
  | .call name ps =>
    have ih := paramsRes_ok_iff 0 ps
    rw [exprRes, exprOf]
    cases h : paramsRes 0 ps with
    | ok es => simp [(ih es).mp h]
    | err x =>
      cases h2 : exprsOf modelDur fmtTime ps with
      | none => simp
      | some es => rw [(ih es).mpr h2] at h; cases h
    | panic =>
      cases h2 : exprsOf modelDur fmtTime ps with
      | none => simp
      | some es => rw [(ih es).mpr h2] at h; cases h
  | .ptr v =>
    rw [exprRes, exprOf]
    split
    · exact exprRes_ok_iff v e
    · simp
  | .nilPtr b => cases b <;> simp [exprRes, exprOf, plainScalar]
  | .column _ | .variable _ | .placeholder _ | .nilFn | .other | .nil | .bool _ | .int8 _ | .int16 _ | .int32 _
  | .int64 _ | .int _ | .uint8 _ | .uint16 _ | .uint32 _ | .uint64 _ | .uint _ | .str _ | .bytes _ | .float32 _
  | .float64 _ | .time _ | .duration _ | .strColl .. | .xml _ | .xmlStr _ | .json _ | .jsonStr _ | .geometry _ =>
    simp [exprRes, exprOf, plainScalar]
theorem paramsRes_ok_iff (j : Nat) (vs : List Val) : ∀ es, paramsRes j vs = .ok es ↔ exprsOf modelDur fmtTime vs = some es := by
  intro es
  match vs with
  | [] => simp [paramsRes, exprsOf]
  | v :: vs =>
    have h1 := exprRes_ok_iff v
    have h2 := paramsRes_ok_iff (j + 1) vs
    rw [paramsRes, exprsOf]
    cases e1 : exprOf modelDur fmtTime v with
    | none =>
      cases r1 : exprRes v with
      | ok e => rw [(h1 e).mp r1] at e1; cases e1
      | err e => simp
      | panic => simp
    | some e =>
      rw [(h1 e).mpr e1]
      cases e2 : exprsOf modelDur fmtTime vs with
      | none =>
        cases r2 : paramsRes (j + 1) vs with
        | ok es => rw [(h2 es).mp r2] at e2; cases e2
        | err e => simp
        | panic => simp
      | some es => rw [(h2 es).mpr e2]; simp
end

mutual
theorem exprOf_ok (dt : BitVec 64 → Bytes) (tt : GoTime → Bytes) (v : Val) : ∀ e, exprOf dt tt v = some e → ExprOK e := by
  intro e h
  match v with
  | .op name ps =>
    rw [exprOf, Option.map_eq_some_iff] at h
    obtain ⟨es, h, rfl⟩ := h
    rw [ExprOK]; exact exprsOf_ok dt tt ps es h
  | .call name ps =>
    rw [exprOf, Option.map_eq_some_iff] at h
    obtain ⟨es, h, rfl⟩ := h
    rw [ExprOK]; exact exprsOf_ok dt tt ps es h
  | .ptr v =>
    rw [exprOf] at h
    split at h
    · exact exprOf_ok dt tt v e h
    · cases h
  | .column _ => simp [exprOf] at h; subst h; simp [ExprOK]
  | .variable _ => simp [exprOf] at h; subst h; simp [ExprOK]
  | .placeholder pos => simp [exprOf] at h; subst h; simp [ExprOK]; exact pos.isLt
  | .nilPtr _ | .nilFn | .other | .nil | .bool _ | .int8 _ | .int16 _ | .int32 _
  | .int64 _ | .int _ | .uint8 _ | .uint16 _ | .uint32 _ | .uint64 _ | .uint _ | .str _ | .bytes _ | .float32 _
  | .float64 _ | .time _ | .duration _ | .strColl .. | .xml _ | .xmlStr _ | .json _ | .jsonStr _ | .geometry _ =>
    simp only [exprOf, Option.map_eq_some_iff] at h
    obtain ⟨s, h, rfl⟩ := h
    rw [ExprOK]; exact plainScalar_ok h
theorem exprsOf_ok (dt : BitVec 64 → Bytes) (tt : GoTime → Bytes) (vs : List Val) : ∀ es, exprsOf dt tt vs = some es → ExprsOK es := by
  intro es h
  match vs with
  | [] => simp [exprsOf] at h; subst h; simp [ExprsOK]
  | v :: vs =>
    rw [exprsOf] at h
    split at h
    · rename_i h1 h2
      cases h
      rw [ExprsOK]
      exact ⟨exprOf_ok dt tt v _ h1, exprsOf_ok dt tt vs _ h2⟩
    · cases h
end

theorem anyRes_ok_iff (v : Val) (s : PScalar) : anyRes v = .ok s ↔ argScalarOf modelDur fmtTime v = some s := by
  unfold anyRes
  split
  · rename_i s' h; rw [h]; simp
  · rename_i h; rw [h]; split <;> simp

/-- a result list element by element -/
theorem argsRes_ok_iff (args : List Val) (as : List PScalar) : argsRes args = .ok as ↔ Args modelDur args as := by
  induction args generalizing as with
  | nil => cases as <;> simp [argsRes, Args]
  | cons v vs ih =>
    rw [argsRes]
    cases as with
    | nil =>
      simp only [Args, List.map_cons, List.map_nil]
      cases anyRes v with
      | ok s => cases argsRes vs <;> simp
      | err e => simp
      | panic => simp
    | cons a as =>
      simp only [Args, List.map_cons, List.cons.injEq] at ih ⊢
      rw [← anyRes_ok_iff, ← ih]
      cases anyRes v with
      | ok s => cases argsRes vs <;> simp
      | err e => simp
      | panic => simp

theorem rowRes_ok_iff (row : List Val) : ∀ (j : Nat) (es : List PExpr), rowRes j row = .ok es ↔ Row modelDur row es := by
  induction row with
  | nil => intro j es; cases es <;> simp [rowRes, Row]
  | cons v vs ih =>
    intro j es
    rw [rowRes]
    cases es with
    | nil =>
      simp only [Row, List.map_cons, List.map_nil]
      cases exprRes v with
      | ok s => cases rowRes (j + 1) vs <;> simp
      | err e => simp
      | panic => simp
    | cons a as =>
      have ih := ih (j + 1) as
      simp only [Row, List.map_cons, List.cons.injEq] at ih ⊢
      rw [← exprRes_ok_iff, ← ih]
      cases exprRes v with
      | ok s => cases rowRes (j + 1) vs <;> simp
      | err e => simp
      | panic => simp

theorem rowsRes_ok_iff (n : Nat) (rows : List (List Val)) : ∀ (i : Nat) (rs : List (List PExpr)),
    rowsRes n i rows = .ok rs ↔ (∀ row ∈ rows, row.length = n) ∧ Rows modelDur rows rs := by
  induction rows with
  | nil => intro i rs; cases rs <;> simp [rowsRes, Rows]
  | cons row rows ih =>
    intro i rs
    rw [rowsRes]
    split
    · rename_i h; simp [h]
    · rename_i h
      have h : row.length = n := by omega
      cases rs with
      | nil =>
        simp only [Rows, List.map_cons, List.map_nil]
        cases rowRes 0 row with
        | ok s => cases rowsRes n (i + 1) rows <;> simp
        | err e => simp
        | panic => simp
      | cons a as =>
        have ih := ih (i + 1) as
        have hr := rowRes_ok_iff row 0 a
        simp only [Row] at hr
        simp only [Rows, List.map_cons, List.cons.injEq, List.mem_cons, forall_eq_or_imp] at ih ⊢
        rw [← hr, h]
        simp only [true_and]
        rw [and_left_comm, ← ih]
        cases rowRes 0 row with
        | ok s => cases rowsRes n (i + 1) rows <;> simp
        | err e => simp
        | panic => simp

theorem setsRes_ok_iff (sets : List (Bytes × Val)) : ∀ (ss : List (Bytes × PExpr)),
    setsRes sets = .ok ss ↔ Sets modelDur sets ss := by
  induction sets with
  | nil => intro ss; cases ss <;> simp [setsRes, Sets]
  | cons s sets ih =>
    intro ss
    obtain ⟨name, v⟩ := s
    rw [setsRes]
    cases ss with
    | nil =>
      simp only [Sets, List.map_cons, List.map_nil]
      cases exprRes v with
      | ok s => cases setsRes sets <;> simp
      | err e => simp
      | panic => simp
    | cons a as =>
      have ih := ih as
      simp only [Sets, List.map_cons, List.cons.injEq, Prod.mk.injEq] at ih ⊢
      rw [← exprRes_ok_iff, ← ih]
      obtain ⟨a1, a2⟩ := a
      cases exprRes v with
      | ok s => cases setsRes sets <;> simp [and_assoc]
      | err e => simp
      | panic => simp

theorem critRes_ok_iff (c : Criteria) (e : Option PExpr) : critRes c = .ok e ↔ Crit modelDur c e := by
  cases c with
  | none => cases e <;> simp [critRes, Crit]
  | some v =>
    have := exprRes_ok_iff v
    cases e with
    | none => cases h : exprRes v <;> simp [critRes, Crit, h, Res.map]
    | some e =>
      simp only [critRes, Crit, Option.map_some, Option.some.injEq]
      rw [← this]
      cases h : exprRes v <;> simp [Res.map]

/-! ### calls -/

theorem res_map_ok {α β : Type} {f : α → β} {r : Res α} {b : β} : r.map f = .ok b ↔ ∃ a, r = .ok a ∧ f a = b := by
  cases r <;> simp [Res.map]

theorem callRes_ok {n : Nat} {c : Call} {ms : List ClientMsg} {r : Option Val} (h : callRes n c = .ok (ms, r)) :
    Asked modelDur c ms r := by
  cases c with
  | stmtExecute s args =>
    simp only [callRes, res_map_ok] at h
    obtain ⟨as, h, e⟩ := h
    cases e
    exact .stmtExecute ((argsRes_ok_iff _ _).mp h)
  | prepare id s => cases h; exact .prepare
  | execute id args =>
    simp only [callRes, res_map_ok] at h
    obtain ⟨as, h, e⟩ := h
    cases e
    exact .execute ((argsRes_ok_iff _ _).mp h)
  | deallocate id => cases h; exact .deallocate
  | insert t cols data =>
    simp only [callRes, res_map_ok] at h
    obtain ⟨as, h, e⟩ := h
    cases e
    have := (rowsRes_ok_iff _ _ _ _).mp h
    exact .insert this.1 this.2
  | insertRow t cols row =>
    simp only [callRes, res_map_ok] at h
    obtain ⟨as, h, e⟩ := h
    cases e
    exact .insertRow ((rowRes_ok_iff _ _ _).mp h)
  | update t crit sets =>
    simp only [callRes] at h
    split at h
    · rename_i c hc
      rw [res_map_ok] at h
      obtain ⟨as, h, e⟩ := h
      cases e
      exact .update ((critRes_ok_iff _ _).mp hc) ((setsRes_ok_iff _ _).mp h)
    · cases h
    · cases h
  | delete t crit =>
    simp only [callRes, res_map_ok] at h
    obtain ⟨as, h, e⟩ := h
    cases e
    exact .delete ((critRes_ok_iff _ _).mp h)

theorem callRes_of_asked {n : Nat} {c : Call} {ms : List ClientMsg} {r : Option Val} (h : Asked modelDur c ms r) :
    ∃ x, callRes n c = .ok x := by
  cases h with
  | stmtExecute h => exact ⟨_, by rw [callRes, (argsRes_ok_iff _ _).mpr h]; rfl⟩
  | prepare => exact ⟨_, rfl⟩
  | execute h => exact ⟨_, by rw [callRes, (argsRes_ok_iff _ _).mpr h]; rfl⟩
  | deallocate => exact ⟨_, rfl⟩
  | insert h1 h2 => exact ⟨_, by rw [callRes, (rowsRes_ok_iff _ _ _ _).mpr ⟨h1, h2⟩]; rfl⟩
  | insertRow h => exact ⟨_, by rw [callRes, (rowRes_ok_iff _ _ _).mpr h]; rfl⟩
  | update h1 h2 => exact ⟨_, by rw [callRes, (critRes_ok_iff _ _).mpr h1, (setsRes_ok_iff _ _).mpr h2]; rfl⟩
  | delete h => exact ⟨_, by rw [callRes, (critRes_ok_iff _ _).mpr h]; rfl⟩

/-! ### callbacks of InsertF and UpdateF -/

theorem rowsP_pure {n : Nat} (steps : List RowStep) : ∀ (st st' : Except Err (List (List PExpr))),
    rowsP n st steps = some st' → RowsPure n steps := by
  induction steps with
  | nil => intro st st' _ d c h; cases h
  | cons s steps ih =>
    intro st st' h d c hm
    cases s with
    | row args =>
      simp only [List.mem_cons, reduceCtorEq, false_or] at hm
      cases st with
      | error e => exact ih _ _ h d c hm
      | ok rs =>
        simp only [rowsP] at h
        split at h
        · exact ih _ _ h d c hm
        · exact ih _ _ h d c hm
        · cases h
    | outer d' c' =>
      rw [rowsP] at h
      split at h
      · cases h
      · simp only [List.mem_cons, RowStep.outer.injEq] at hm
        rcases hm with ⟨rfl, _⟩ | hm
        · omega
        · exact ih _ _ h d c hm

theorem rowsP_error {n : Nat} {e : Err} (steps : List RowStep) (st' : Except Err (List (List PExpr))) :
    rowsP n (.error e) steps = some st' → st' = .error e := by
  induction steps with
  | nil => intro h; cases h; rfl
  | cons s steps ih =>
    intro h
    cases s with
    | row args => exact ih h
    | outer d' c' =>
      rw [rowsP] at h
      split at h
      · cases h
      · exact ih h

theorem rowsP_ok {n : Nat} (steps : List RowStep) : ∀ (rs0 : List (List PExpr)) (st' : Except Err (List (List PExpr))),
    rowsP n (.ok rs0) steps = some st' →
    match st' with
    | .ok rs => ∃ rs1, rs = rs0 ++ rs1 ∧ Rows modelDur (rowArgs steps) rs1
    | .error _ => ∀ rs, ¬Rows modelDur (rowArgs steps) rs := by
  induction steps with
  | nil => intro rs0 st' h; cases h; exact ⟨[], by simp, rfl⟩
  | cons s steps ih =>
    intro rs0 st' h
    cases s with
    | row args =>
      simp only [rowsP] at h
      split at h
      · rename_i es he
        have := ih _ _ h
        have he := (rowRes_ok_iff _ _ _).mp he
        cases st' with
        | ok rs =>
          obtain ⟨rs1, rfl, h1⟩ := this
          refine ⟨es :: rs1, by simp, ?_⟩
          simp only [Rows, rowArgs] at h1
          simp only [Row] at he
          simp [Rows, rowArgs, h1, he]
        | error e =>
          intro rs hrs
          cases rs with
          | nil => simp [Rows, rowArgs] at hrs
          | cons r rs => exact this rs (by simp [Rows, rowArgs] at hrs ⊢; exact hrs.2)
      · rename_i e he
        rw [rowsP_error _ _ h]
        intro rs hrs
        cases rs with
        | nil => simp [Rows, rowArgs] at hrs
        | cons r rs =>
          have h1 : Row modelDur args r := by simp [Rows, rowArgs] at hrs; exact hrs.1
          rw [(rowRes_ok_iff _ 0 _).mpr h1] at he
          cases he
      · cases h
    | outer d' c' =>
      rw [rowsP] at h
      split at h
      · cases h
      · exact ih _ _ h

theorem setsP_pure {n : Nat} (steps : List SetStep) : ∀ (st st' : Except Err (List (Bytes × PExpr))),
    setsP n st steps = some st' → SetsPure n steps := by
  induction steps with
  | nil => intro st st' _ d c h; cases h
  | cons s steps ih =>
    intro st st' h d c hm
    cases s with
    | set name v =>
      simp only [List.mem_cons, reduceCtorEq, false_or] at hm
      cases st with
      | error e => exact ih _ _ h d c hm
      | ok rs =>
        simp only [setsP] at h
        split at h
        · exact ih _ _ h d c hm
        · exact ih _ _ h d c hm
        · cases h
    | outer d' c' =>
      rw [setsP] at h
      split at h
      · cases h
      · simp only [List.mem_cons, SetStep.outer.injEq] at hm
        rcases hm with ⟨rfl, _⟩ | hm
        · omega
        · exact ih _ _ h d c hm

theorem setsP_error' {n : Nat} {e : Err} (steps : List SetStep) (st' : Except Err (List (Bytes × PExpr))) :
    setsP n (.error e) steps = some st' → st' = .error e := by
  induction steps with
  | nil => intro h; cases h; rfl
  | cons s steps ih =>
    intro h
    cases s with
    | set name v => exact ih h
    | outer d' c' =>
      rw [setsP] at h
      split at h
      · cases h
      · exact ih h

theorem setsP_ok {n : Nat} (steps : List SetStep) : ∀ (rs0 : List (Bytes × PExpr)) (st' : Except Err (List (Bytes × PExpr))),
    setsP n (.ok rs0) steps = some st' →
    match st' with
    | .ok rs => ∃ rs1, rs = rs0 ++ rs1 ∧ Sets modelDur (setArgs steps) rs1
    | .error _ => ∀ rs, ¬Sets modelDur (setArgs steps) rs := by
  induction steps with
  | nil => intro rs0 st' h; cases h; exact ⟨[], by simp, rfl⟩
  | cons s steps ih =>
    intro rs0 st' h
    cases s with
    | set name v =>
      simp only [setsP] at h
      split at h
      · rename_i es he
        have := ih _ _ h
        have he := (exprRes_ok_iff _ _).mp he
        cases st' with
        | ok rs =>
          obtain ⟨rs1, rfl, h1⟩ := this
          refine ⟨(name, es) :: rs1, by simp, ?_⟩
          simp only [Sets, setArgs] at h1
          simp [Sets, setArgs, h1, he]
        | error e =>
          intro rs hrs
          cases rs with
          | nil => simp [Sets, setArgs] at hrs
          | cons r rs => exact this rs (by simp [Sets, setArgs] at hrs ⊢; exact hrs.2)
      · rename_i e he
        rw [setsP_error' _ _ h]
        intro rs hrs
        cases rs with
        | nil => simp [Sets, setArgs] at hrs
        | cons r rs =>
          have h1 : exprOf modelDur fmtTime v = some r.2 := by simp [Sets, setArgs] at hrs; exact hrs.1.2
          rw [(exprRes_ok_iff _ _).mpr h1] at he
          cases he
      · cases h
    | outer d' c' =>
      rw [setsP] at h
      split at h
      · cases h
      · exact ih _ _ h

/-! ### which value an error is about -/

theorem exprRes_fine {v : Val} {x : PExpr} (h : exprRes v = .ok x) : Fine modelDur v := by
  rw [Fine, (exprRes_ok_iff _ _).mp h]; rfl

theorem exprRes_not_fine {v : Val} {e : Err} (h : exprRes v = .err e) : ¬Fine modelDur v := by
  intro hf
  obtain ⟨x, hx⟩ := Option.isSome_iff_exists.mp hf
  rw [(exprRes_ok_iff _ _).mpr hx] at h; cases h

theorem fineBefore_cons {v : Val} {vs : List Val} {j : Nat} (h : Fine modelDur v) (hs : FineBefore modelDur vs j) :
    FineBefore modelDur (v :: vs) (j + 1) := by
  intro u hu
  rcases List.mem_cons.mp hu with rfl | hu
  · exact h
  · exact hs u hu

mutual
theorem exprRes_blames (v : Val) : ∀ e, exprRes v = .err e → Blames modelDur e v := by
  intro e h
  match v with
  | .op name ps =>
    rw [exprRes] at h
    split at h
    · cases h
    · rename_i e' hp
      cases h
      obtain ⟨j, u, e', rfl, hu, hf, hb⟩ := paramsRes_blames 0 ps _ hp
      rw [Nat.zero_add]
      exact .op hu hf hb
    · cases h
  | .call name ps =>
    rw [exprRes] at h
    split at h
    · cases h
    · rename_i e' hp
      cases h
      obtain ⟨j, u, e', rfl, hu, hf, hb⟩ := paramsRes_blames 0 ps _ hp
      rw [Nat.zero_add]
      exact .call hu hf hb
    · cases h
  | .ptr v =>
    have hf := exprRes_not_fine h
    have he : e = .unknownType := by
      rw [exprRes] at h
      split at h
      · rename_i ha
        cases v <;> simp [isWrapper] at ha <;> simp [exprRes, plainScalar] at h
      · cases h; rfl
    subst he
    exact .value hf (fun n ps => ⟨by simp, by simp⟩)
  | .nil | .bool _ | .int8 _ | .int16 _ | .int32 _ | .int64 _ | .int _ | .uint8 _ | .uint16 _ | .uint32 _ | .uint64 _ | .uint _
  | .str _ | .bytes _ | .float32 _ | .float64 _ | .time _ | .duration _ | .strColl _ _ | .xml _ | .xmlStr _ | .json _ | .jsonStr _
  | .geometry _ | .column _ | .variable _ | .placeholder _ | .nilFn | .nilPtr true => simp [exprRes, plainScalar] at h
  | .nilPtr false | .other =>
    have hf := exprRes_not_fine h
    have he : e = .unknownType := by simpa [exprRes, plainScalar] using h.symm
    subst he
    exact .value hf (fun n ps => ⟨by simp, by simp⟩)
theorem paramsRes_blames (k : Nat) (vs : List Val) : ∀ e, paramsRes k vs = .err e →
    ∃ j v e', e = .param (k + j) e' ∧ vs[j]? = some v ∧ FineBefore modelDur vs j ∧ Blames modelDur e' v := by
  intro e h
  match vs with
  | [] => cases h
  | v :: vs =>
    rw [paramsRes] at h
    split at h
    · rename_i x hx
      split at h
      · cases h
      · rename_i e' hp
        cases h
        obtain ⟨j, u, e', rfl, hu, hf, hb⟩ := paramsRes_blames (k + 1) vs _ hp
        exact ⟨j + 1, u, e', by rw [Nat.add_assoc, Nat.add_comm 1 j], by simpa using hu, fineBefore_cons (exprRes_fine hx) hf, hb⟩
      · cases h
    · rename_i e' hx
      cases h
      exact ⟨0, v, e', rfl, rfl, fun u hu => by simp at hu, exprRes_blames v _ hx⟩
    · cases h
end

theorem rowRes_blames (vs : List Val) : ∀ (k : Nat) (e : Err), rowRes k vs = .err e →
    ∃ j v e', e = .column (k + j) e' ∧ vs[j]? = some v ∧ FineBefore modelDur vs j ∧ Blames modelDur e' v := by
  induction vs with
  | nil => intro k e h; cases h
  | cons v vs ih =>
    intro k e h
    rw [rowRes] at h
    split at h
    · rename_i x hx
      split at h
      · cases h
      · rename_i e' hp
        cases h
        obtain ⟨j, u, e', rfl, hu, hf, hb⟩ := ih (k + 1) _ hp
        exact ⟨j + 1, u, e', by rw [Nat.add_assoc, Nat.add_comm 1 j], by simpa using hu, fineBefore_cons (exprRes_fine hx) hf, hb⟩
      · cases h
    · rename_i e' hx
      cases h
      exact ⟨0, v, e', rfl, rfl, fun u hu => by simp at hu, exprRes_blames v _ hx⟩
    · cases h

theorem rowRes_blame {row : List Val} {e : Err} (h : rowRes 0 row = .err e) : RowBlames modelDur e row := by
  obtain ⟨j, v, e', rfl, h1, h2, h3⟩ := rowRes_blames row 0 e h
  rw [Nat.zero_add]
  exact .column h1 h2 h3

theorem rowRes_fine (row : List Val) : ∀ (j : Nat) (es : List PExpr), rowRes j row = .ok es → ∀ v ∈ row, Fine modelDur v := by
  induction row with
  | nil => intro j es _ v hv; cases hv
  | cons u us ih =>
    intro j es h v hv
    rw [rowRes] at h
    split at h
    · rename_i x hx
      split at h
      · rename_i es' hr
        rcases List.mem_cons.mp hv with rfl | hv
        · exact exprRes_fine hx
        · exact ih _ _ hr v hv
      · cases h
      · cases h
    · cases h
    · cases h

theorem rowsRes_blames {n : Nat} (data : List (List Val)) : ∀ (k : Nat) (e : Err), rowsRes n k data = .err e →
    ∃ i row, data[i]? = some row ∧ (∀ r ∈ data.take i, r.length = n ∧ ∀ v ∈ r, Fine modelDur v) ∧
      ((row.length ≠ n ∧ e = .rowLen (k + i) n row.length) ∨ (row.length = n ∧ RowBlames modelDur e row)) := by
  induction data with
  | nil => intro k e h; cases h
  | cons row data ih =>
    intro k e h
    rw [rowsRes] at h
    split at h
    · rename_i hl
      cases h
      exact ⟨0, row, rfl, fun r hr => by simp at hr, .inl ⟨hl, rfl⟩⟩
    · rename_i hl
      have hl : row.length = n := by omega
      split at h
      · rename_i es hr
        split at h
        · cases h
        · rename_i e' hp
          cases h
          obtain ⟨i, r, h1, h2, h3⟩ := ih (k + 1) _ hp
          refine ⟨i + 1, r, by simpa using h1, ?_, ?_⟩
          · intro r hr'
            rcases List.mem_cons.mp hr' with rfl | hr'
            · exact ⟨hl, rowRes_fine _ _ _ hr⟩
            · exact h2 r hr'
          · rw [show k + (i + 1) = k + 1 + i by omega]; exact h3
        · cases h
      · rename_i e' hr
        cases h
        exact ⟨0, row, rfl, fun r hr => by simp at hr, .inr ⟨hl, rowRes_blame hr⟩⟩
      · cases h

theorem setsRes_blames (sets : List (Bytes × Val)) : ∀ (e : Err), setsRes sets = .err e →
    ∃ i s, sets[i]? = some s ∧ (∀ s ∈ sets.take i, Fine modelDur s.2) ∧ Blames modelDur e s.2 := by
  induction sets with
  | nil => intro e h; cases h
  | cons s sets ih =>
    intro e h
    obtain ⟨name, v⟩ := s
    rw [setsRes] at h
    split at h
    · rename_i x hx
      split at h
      · cases h
      · rename_i e' hp
        cases h
        obtain ⟨i, s, h1, h2, h3⟩ := ih _ hp
        refine ⟨i + 1, s, by simpa using h1, ?_, h3⟩
        intro u hu
        rcases List.mem_cons.mp hu with rfl | hu
        · exact exprRes_fine hx
        · exact h2 u hu
      · cases h
    · rename_i e' hx
      cases h
      exact ⟨0, _, rfl, fun u hu => by simp at hu, exprRes_blames v _ hx⟩
    · cases h

theorem argsRes_blames (args : List Val) : ∀ (e : Err), argsRes args = .err e →
    e = .unsupportedType ∧ ∃ a ∈ args, argScalarOf modelDur fmtTime a = none := by
  induction args with
  | nil => intro e h; cases h
  | cons v vs ih =>
    intro e h
    rw [argsRes] at h
    split at h
    · split at h
      · cases h
      · rename_i e' hp
        cases h
        obtain ⟨h1, a, ha, h2⟩ := ih _ hp
        exact ⟨h1, a, List.mem_cons_of_mem _ ha, h2⟩
      · cases h
    · rename_i e' hx
      cases h
      rw [anyRes] at hx
      split at hx
      · cases hx
      · rename_i hn
        split at hx
        · cases hx
        · cases hx; exact ⟨rfl, v, List.mem_cons_self, hn⟩
    · cases h

theorem critRes_blames {c : Criteria} {e : Err} (h : critRes c = .err e) : ∃ v, c = some v ∧ Blames modelDur e v := by
  cases c with
  | none => cases h
  | some v =>
    rw [critRes] at h
    cases hv : exprRes v with
    | ok x => rw [hv] at h; cases h
    | err e' => rw [hv] at h; cases h; exact ⟨v, rfl, exprRes_blames v _ hv⟩
    | panic => rw [hv] at h; cases h

theorem critRes_fine {c : Criteria} {x : Option PExpr} (h : critRes c = .ok x) : ∀ v, c = some v → Fine modelDur v := by
  intro v hc
  subst hc
  rw [critRes] at h
  cases hv : exprRes v with
  | ok x => exact exprRes_fine hv
  | err e' => rw [hv] at h; cases h
  | panic => rw [hv] at h; cases h

theorem res_map_err {α β : Type} {f : α → β} {r : Res α} {e : Err} : r.map f = .err e ↔ r = .err e := by
  cases r <;> simp [Res.map]

theorem callRes_blames {n : Nat} {c : Call} {e : Err} (h : callRes n c = .err e) : CallBlames modelDur c e := by
  cases c with
  | stmtExecute s args =>
    obtain ⟨rfl, ha⟩ := argsRes_blames _ _ (res_map_err.mp h)
    exact .stmtExecute ha
  | prepare id s => cases h
  | execute id args =>
    obtain ⟨rfl, ha⟩ := argsRes_blames _ _ (res_map_err.mp h)
    exact .execute ha
  | deallocate id => cases h
  | insert t cols data =>
    obtain ⟨i, row, h1, h2, ⟨h3, rfl⟩ | ⟨h3, h4⟩⟩ := rowsRes_blames _ _ _ (res_map_err.mp h)
    · rw [Nat.zero_add]; exact .insertLength h1 h3 h2
    · exact .insertValue h1 h3 h2 h4
  | insertRow t cols row => exact .insertRow (rowRes_blame (res_map_err.mp h))
  | update t crit sets =>
    rw [callRes] at h
    split at h
    · rename_i x hc
      obtain ⟨i, s, h1, h2, h3⟩ := setsRes_blames _ _ (res_map_err.mp h)
      exact .update (.inr ⟨critRes_fine hc, i, s, h1, h2, h3⟩)
    · rename_i e' hc
      cases h
      obtain ⟨v, hv⟩ := critRes_blames hc
      exact .update (.inl ⟨v, hv⟩)
    · cases h
  | delete t crit =>
    obtain ⟨v, rfl, hv⟩ := critRes_blames (res_map_err.mp h)
    exact .delete hv

theorem rowsP_blames {n : Nat} {e : Err} (steps : List RowStep) : ∀ (rs0 : List (List PExpr)),
    rowsP n (.ok rs0) steps = some (.error e) → RowsBlame modelDur e (rowArgs steps) := by
  induction steps with
  | nil => intro rs0 h; cases h
  | cons s steps ih =>
    intro rs0 h
    cases s with
    | row args =>
      simp only [rowsP] at h
      split at h
      · rename_i es he
        obtain ⟨i, row, h1, h2, h3⟩ := ih _ h
        refine ⟨i + 1, row, by simpa [rowArgs] using h1, ?_, h3⟩
        intro r hr
        rcases List.mem_cons.mp (show r ∈ args :: (rowArgs steps).take i from hr) with rfl | hr
        · exact rowRes_fine _ _ _ he
        · exact h2 r hr
      · rename_i e' he
        cases rowsP_error _ _ h
        exact ⟨0, args, rfl, fun r hr => by simp at hr, rowRes_blame he⟩
      · cases h
    | outer d' c' =>
      rw [rowsP] at h
      split at h
      · cases h
      · exact ih _ h

theorem setsP_blames {n : Nat} {e : Err} (steps : List SetStep) : ∀ (rs0 : List (Bytes × PExpr)),
    setsP n (.ok rs0) steps = some (.error e) →
      ∃ i s, (setArgs steps)[i]? = some s ∧ (∀ s ∈ (setArgs steps).take i, Fine modelDur s.2) ∧ Blames modelDur e s.2 := by
  induction steps with
  | nil => intro rs0 h; cases h
  | cons s steps ih =>
    intro rs0 h
    cases s with
    | set name v =>
      simp only [setsP] at h
      split at h
      · rename_i es he
        obtain ⟨i, s, h1, h2, h3⟩ := ih _ h
        refine ⟨i + 1, s, by simpa [setArgs] using h1, ?_, h3⟩
        intro u hu
        rcases List.mem_cons.mp (show u ∈ (name, v) :: (setArgs steps).take i from hu) with rfl | hu
        · exact exprRes_fine he
        · exact h2 u hu
      · rename_i e' he
        cases setsP_error' _ _ h
        exact ⟨0, (name, v), rfl, fun u hu => by simp at hu, exprRes_blames v _ he⟩
      · cases h
    | outer d' c' =>
      rw [setsP] at h
      split at h
      · cases h
      · exact ih _ h

/-! ### programs -/

theorem opening_eq (level : BitVec 64) : isolationStmts level = (txOpening level.toNat).map (·.map ascii) := by
  unfold isolationStmts
  generalize level.toNat = n
  match n with
  | 0 | 1 | 2 | 3 | 4 | 5 => rfl
  | n + 6 => rfl

/-- bytes in the buffer -/
def fill (z : Nat) (ms : List ClientMsg) : Nat := z + (bytesOf ms).length

/-- The numbers `ks` of the variables returned going from `st` to `st'` increase, and lie between the fill of
the buffer before and after. -/
structure Between (z : Nat) (st st' : PState) (ks : List Nat) : Prop where
  inc : ks.Pairwise (· < ·)
  low : ∀ k ∈ ks, ∃ ms, st = .ok ms ∧ fill z ms < k
  high : ∀ k ∈ ks, ∀ ms, st' = .ok ms → k ≤ fill z ms
  mono : ∀ ms', st' = .ok ms' → ∃ ms, st = .ok ms ∧ fill z ms ≤ fill z ms'

theorem Between.nil {z : Nat} {st : PState} : Between z st st [] :=
  ⟨.nil, by simp, by simp, fun ms' h => ⟨ms', h, Nat.le_refl _⟩⟩

theorem fill_append {z : Nat} (ms m : List ClientMsg) : fill z (ms ++ m) = fill z ms + (bytesOf m).length := by
  simp [fill, bytesOf_append]; omega

/-- from a state that is not behind -/
theorem Between.later {z : Nat} {ms m : List ClientMsg} {st' : PState} {ks : List Nat}
    (h : Between z (.ok (ms ++ m)) st' ks) : Between z (.ok ms) st' ks := by
  have hf := fill_append (z := z) ms m
  refine ⟨h.inc, fun k hk => ⟨ms, rfl, ?_⟩, h.high, fun ms' h' => ⟨ms, rfl, ?_⟩⟩
  · obtain ⟨_, he, hl⟩ := h.low k hk
    cases he; omega
  · obtain ⟨_, he, hl⟩ := h.mono ms' h'
    cases he; omega

theorem Between.error {z : Nat} {e : Err} {st st' : PState} {ks : List Nat} (h : Between z (.error e) st' ks) :
    Between z st st' ks := by
  refine ⟨h.inc, fun k hk => ?_, h.high, fun ms' h' => ?_⟩
  · obtain ⟨_, he, _⟩ := h.low k hk; cases he
  · obtain ⟨_, he, _⟩ := h.mono ms' h'; cases he

theorem Between.append {z : Nat} {st st1 st' : PState} {ks ks' : List Nat} (h : Between z st st1 ks)
    (h' : Between z st1 st' ks') : Between z st st' (ks ++ ks') := by
  refine ⟨List.pairwise_append.mpr ⟨h.inc, h'.inc, fun a ha b hb => ?_⟩, fun k hk => ?_, fun k hk ms' e => ?_, fun ms' e => ?_⟩
  · obtain ⟨ms, e, hl⟩ := h'.low b hb
    have := h.high a ha ms e; omega
  · rcases List.mem_append.mp hk with hk | hk
    · exact h.low k hk
    · obtain ⟨ms, e, hl⟩ := h'.low k hk
      obtain ⟨ms0, e0, hl0⟩ := h.mono ms e
      exact ⟨ms0, e0, by omega⟩
  · rcases List.mem_append.mp hk with hk | hk
    · obtain ⟨ms, e, hl⟩ := h'.mono ms' e
      have := h.high k hk ms e; omega
    · exact h'.high k hk ms' e
  · obtain ⟨ms, e, hl⟩ := h'.mono ms' e
    obtain ⟨ms0, e0, hl0⟩ := h.mono ms e
    exact ⟨ms0, e0, by omega⟩

theorem named_callRes {z : Nat} {ms m : List ClientMsg} {c : Call} {r : Option Val}
    (h : callRes (fill z ms) c = .ok (m, r)) :
    ∃ ks, named r = ks.map idVariable ∧ Between z (.ok ms) (.ok (ms ++ m)) ks := by
  have hb : ∀ m, Between z (.ok ms) (.ok (ms ++ m)) [] := fun m =>
    ⟨.nil, by simp, by simp, fun ms' e => ⟨ms, rfl, by cases e; rw [fill_append]; omega⟩⟩
  have h0 : r = none → ∃ ks, named r = ks.map idVariable ∧ Between z (.ok ms) (.ok (ms ++ m)) ks :=
    fun e => ⟨[], by rw [e]; rfl, hb m⟩
  cases c with
  | insertRow name cols row =>
    simp only [callRes] at h
    cases hr : rowRes 0 row with
    | ok es =>
      rw [hr] at h
      simp only [Res.map, Res.ok.injEq, Prod.mk.injEq] at h
      obtain ⟨rfl, rfl⟩ := h
      refine ⟨[fill z ms + (codeFrame (.insert name (some 2) cols [es])).length], rfl, ?_⟩
      refine ⟨by simp, fun k hk => ⟨ms, rfl, ?_⟩, fun k hk ms' e => ?_, fun ms' e => ⟨ms, rfl, ?_⟩⟩
      · simp at hk; subst hk
        have : 0 < (codeFrame (.insert name (some 2) cols [es])).length := by simp only [codeFrame, frame, List.length_append, List.length_cons]; omega
        omega
      · simp at hk; subst hk
        cases e
        rw [fill_append]
        simp [bytesOf]
      · cases e; rw [fill_append]; omega
    | err e => rw [hr] at h; cases h
    | panic => rw [hr] at h; cases h
  | stmtExecute s args => apply h0; simp only [callRes] at h; cases ha : argsRes args <;> rw [ha] at h <;> simp [Res.map] at h; exact h.2.symm
  | prepare id s => apply h0; simp only [callRes, Res.ok.injEq, Prod.mk.injEq] at h; exact h.2.symm
  | execute id args => apply h0; simp only [callRes] at h; cases ha : argsRes args <;> rw [ha] at h <;> simp [Res.map] at h; exact h.2.symm
  | deallocate id => apply h0; simp only [callRes, Res.ok.injEq, Prod.mk.injEq] at h; exact h.2.symm
  | insert n cols data => apply h0; simp only [callRes] at h; cases ha : rowsRes cols.length 0 data <;> rw [ha] at h <;> simp [Res.map] at h; exact h.2.symm
  | update n crit sets =>
    apply h0; simp only [callRes] at h
    cases hc : critRes crit <;> rw [hc] at h <;> simp at h
    cases ha : setsRes sets <;> rw [ha] at h <;> simp [Res.map] at h; exact h.2.symm
  | delete n crit => apply h0; simp only [callRes] at h; cases ha : critRes crit <;> rw [ha] at h <;> simp [Res.map] at h; exact h.2.symm

theorem runP_exec {z : Nat} (prog : Prog) : ∀ (n : Nat) (st st' : PState) (out : List (Option Val)),
    runP z prog n st = some (st', out) →
      ∃ ks, Exec modelDur n prog st st' out (ks.map idVariable) ∧ Between z st st' ks := by
  induction prog with
  | ret err out => intro n st st' o h; cases h; exact ⟨[], .ret, .nil⟩
  | call c k ih =>
    intro n st st' o h
    unfold runP at h
    cases st with
    | error e => obtain ⟨ks, h, hk⟩ := ih _ _ _ _ _ h; exact ⟨ks, .callSkip h, hk.error⟩
    | ok ms =>
      simp only [stepP] at h
      split at h
      · rename_i m r hc
        obtain ⟨ks1, hn, hk1⟩ := named_callRes hc
        obtain ⟨ks, h, hk⟩ := ih _ _ _ _ _ h
        exact ⟨ks1 ++ ks, by rw [List.map_append, ← hn]; exact .call (callRes_ok hc) h, hk1.append hk⟩
      · rename_i e hc
        obtain ⟨ks, h, hk⟩ := ih _ _ _ _ _ h
        refine ⟨ks, .callFail (fun m r ha => ?_) (callRes_blames hc) h, hk.error⟩
        obtain ⟨x, hx⟩ := callRes_of_asked (n := (z + (bytesOf ms).length)) ha
        rw [hx] at hc; cases hc
      · cases h
  | tx level body k ihb ihk =>
    intro n st st' o h
    unfold runP at h
    cases st with
    | error e => obtain ⟨ks, h, hk⟩ := ihk _ _ _ _ _ h; exact ⟨ks, .txSkip h, hk.error⟩
    | ok ms =>
      simp only [opening_eq] at h
      cases hl : txOpening level.toNat with
      | none =>
        simp only [hl, Option.map_none] at h
        obtain ⟨ks, h, hk⟩ := ihk _ _ _ _ _ h
        exact ⟨ks, .txLevel hl h, hk.error⟩
      | some ss =>
        simp only [hl, Option.map_some, Option.bind_eq_some_iff] at h
        obtain ⟨⟨s1, o1⟩, hb, h⟩ := h
        obtain ⟨ks1, hb, hk1⟩ := ihb _ _ _ _ hb
        rw [List.map_map] at hb hk1
        obtain ⟨ks, h, hk⟩ := ihk _ _ _ _ _ h
        refine ⟨ks1 ++ ks, ?_, hk1.later.append (by cases s1 <;> first | exact hk.later | exact hk)⟩
        rw [List.map_append]
        cases s1 with
        | ok ms' => exact .tx hl hb h
        | error e => exact .txFail hl hb h
  | expect op body k ihb ihk =>
    intro n st st' o h
    unfold runP at h
    cases st with
    | error e => obtain ⟨ks, h, hk⟩ := ihk _ _ _ _ _ h; exact ⟨ks, .expectSkip h, hk.error⟩
    | ok ms =>
      simp only [Option.bind_eq_some_iff] at h
      obtain ⟨⟨s1, o1⟩, hb, h⟩ := h
      obtain ⟨ks1, hb, hk1⟩ := ihb _ _ _ _ hb
      obtain ⟨ks, h, hk⟩ := ihk _ _ _ _ _ h
      refine ⟨ks1 ++ ks, ?_, hk1.later.append (by cases s1 <;> first | exact hk.later | exact hk)⟩
      rw [List.map_append]
      cases s1 with
      | ok ms' => exact .expect hb h
      | error e => exact .expectFail hb h
  | insertF t cols body err k ih =>
    intro n st st' o h
    unfold runP at h
    cases st with
    | error e => obtain ⟨ks, h, hk⟩ := ih _ _ _ _ h; exact ⟨ks, .insertFSkip h, hk.error⟩
    | ok ms =>
      simp only [Option.bind_eq_some_iff] at h
      obtain ⟨s1, hb, h⟩ := h
      have hp := rowsP_pure _ _ _ hb
      have hr := rowsP_ok _ _ _ hb
      cases s1 with
      | ok rs =>
        obtain ⟨rs1, rfl, hr⟩ := hr
        obtain ⟨ks, h, hk⟩ := ih _ _ _ _ h; exact ⟨ks, .insertF hp hr h, hk.later⟩
      | error e => obtain ⟨ks, h, hk⟩ := ih _ _ _ _ h; exact ⟨ks, .insertFFail hp hr (rowsP_blames _ _ hb) h, hk.error⟩
  | updateF t crit body err k ih =>
    intro n st st' o h
    unfold runP at h
    cases st with
    | error e => obtain ⟨ks, h, hk⟩ := ih _ _ _ _ h; exact ⟨ks, .updateFSkip h, hk.error⟩
    | ok ms =>
      dsimp only at h
      cases hc : critRes crit with
      | panic => rw [hc] at h; cases h
      | ok c =>
        simp only [hc, Option.bind_eq_some_iff] at h
        obtain ⟨s1, hb, h⟩ := h
        have hp := setsP_pure _ _ _ hb
        have hr := setsP_ok _ _ _ hb
        cases s1 with
        | ok rs =>
          obtain ⟨rs1, rfl, hr⟩ := hr
          obtain ⟨ks, h, hk⟩ := ih _ _ _ _ h; exact ⟨ks, .updateF hp ((critRes_ok_iff _ _).mp hc) hr h, hk.later⟩
        | error e => obtain ⟨ks, h, hk⟩ := ih _ _ _ _ h; exact ⟨ks, .updateFFail hp (fun c ss hcs => hr ss hcs.2) (.inr ⟨critRes_fine hc, setsP_blames _ _ hb⟩) h, hk.error⟩
      | err e =>
        simp only [hc, Option.bind_eq_some_iff] at h
        obtain ⟨s1, hb, h⟩ := h
        have hp := setsP_pure _ _ _ hb
        cases setsP_error' _ _ hb
        obtain ⟨ks, h, hk⟩ := ih _ _ _ _ h
        refine ⟨ks, .updateFFail hp (fun c ss hcs => ?_) (.inl (critRes_blames hc)) h, hk.error⟩
        rw [(critRes_ok_iff _ _).mpr hcs.1] at hc
        cases hc
  | outer d c k ih =>
    intro n st st' o h
    rw [runP] at h
    split at h
    · cases h
    · obtain ⟨ks, h, hk⟩ := ih _ _ _ _ h; exact ⟨ks, .outer (by omega) h, hk⟩

end Verif.Proof
