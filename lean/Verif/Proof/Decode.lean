import Verif.Proof.ExprAll
/-! The strict readers recover what the canonical encodings hold. -/
namespace Verif.Proof
open Verif.Go Verif.Spec Verif.Model

/-- a field whose number and integer value are representable -/
def FieldNumOK : Field → Prop
  | (t, .varint v) => 0 < t ∧ t < 2 ^ 29 ∧ v < 2 ^ 64
  | (t, .fixed64 v) => 0 < t ∧ t < 2 ^ 29 ∧ v < 2 ^ 64
  | (t, .bytes _) => 0 < t ∧ t < 2 ^ 29
  | (t, .fixed32 v) => 0 < t ∧ t < 2 ^ 29 ∧ v < 2 ^ 32

theorem bytes_le_encField (t : Nat) (b : Bytes) : b.length < (encField (t, .bytes b)).length := by
  have := varint_length_pos b.length
  simp [encField]; omega

theorem encField_le {f : Field} {fs : List Field} (h : f ∈ fs) : (encField f).length ≤ (encFields fs).length := by
  induction fs with
  | nil => simp at h
  | cons a fs ih =>
    simp only [List.mem_cons] at h
    rcases h with rfl | h
    · simp [encFields]
    · have := ih h; simp [encFields]; omega

theorem bytes_lt_encFields {t : Nat} {b : Bytes} {fs : List Field} (h : (t, .bytes b) ∈ fs) :
    b.length < (encFields fs).length :=
  Nat.lt_of_lt_of_le (bytes_le_encField t b) (encField_le h)

/-- reading back, when the whole is shorter than 2^64 bytes -/
theorem readFields_enc {fs : List Field} (hl : (encFields fs).length < 2 ^ 64) (h : ∀ f ∈ fs, FieldNumOK f) :
    readFields (encFields fs) = some fs := by
  apply readFields_encFields
  intro f hf
  have hn := h f hf
  obtain ⟨t, v⟩ := f
  cases v with
  | varint v => exact hn
  | fixed64 v => exact hn
  | fixed32 v => exact hn
  | bytes b => exact ⟨hn.1, hn.2, Nat.lt_trans (bytes_lt_encFields hf) hl⟩

/-- representable scalars -/
def ScalarOK : PScalar → Prop
  | .sint v => zz v < 2 ^ 64
  | .uint v => v < 2 ^ 64
  | .octets _ ct => ∀ c, ct = some c → c < 2 ^ 32
  | .double x => x < 2 ^ 64
  | .float x => x < 2 ^ 32
  | .string _ c => ∀ n, c = some n → n < 2 ^ 64
  | _ => True

theorem decodeOctets_enc (b : Bytes) (ct : Option Nat) (h : ∀ c, ct = some c → c < 2 ^ 32)
    (hl : (encFields (optField 2 ct ++ [(1, .bytes b)])).length < 2 ^ 64) :
    decodeOctets (encFields (optField 2 ct ++ [(1, .bytes b)])) = some (.octets b ct) := by
  cases ct with
  | none =>
    rw [decodeOctets, readFields_enc hl (by simp [optField, FieldNumOK])]
    simp [optField, onlyTags, reqBytes, optVarint, single, many]
  | some c =>
    have hc := h c rfl
    rw [decodeOctets, readFields_enc hl (by simp [optField, FieldNumOK]; omega)]
    simp [optField, onlyTags, reqBytes, optVarint, single, many, hc]

theorem decodeString_enc (b : Bytes) (ct : Option Nat) (h : ∀ c, ct = some c → c < 2 ^ 64)
    (hl : (encFields (optField 2 ct ++ [(1, .bytes b)])).length < 2 ^ 64) :
    decodeString (encFields (optField 2 ct ++ [(1, .bytes b)])) = some (.string b ct) := by
  cases ct with
  | none =>
    rw [decodeString, readFields_enc hl (by simp [optField, FieldNumOK])]
    simp [optField, onlyTags, reqBytes, optVarint, single, many]
  | some c =>
    have hc := h c rfl
    rw [decodeString, readFields_enc hl (by simp [optField, FieldNumOK]; omega)]
    simp [optField, onlyTags, reqBytes, optVarint, single, many]

theorem decodeScalar_enc (s : PScalar) (h : ScalarOK s) (hl : (encScalar s).length < 2 ^ 64) :
    decodeScalar (encScalar s) = some s := by
  cases s with
  | sint v =>
    rw [encScalar] at hl ⊢
    rw [decodeScalar, readFields_enc hl (by simp [FieldNumOK]; exact h)]
    simp [onlyTags, reqVarint, single, many, unzigzag_zz]
  | uint v =>
    rw [encScalar] at hl ⊢
    rw [decodeScalar, readFields_enc hl (by simp [FieldNumOK]; exact h)]
    simp [onlyTags, reqVarint, single, many]
  | null =>
    rw [encScalar] at hl ⊢
    rw [decodeScalar, readFields_enc hl (by simp [FieldNumOK])]
    simp [onlyTags, reqVarint, single, many]
  | double v =>
    rw [encScalar] at hl ⊢
    rw [decodeScalar, readFields_enc hl (by simp [FieldNumOK]; exact h)]
    simp [onlyTags, reqVarint, single, many]
  | float v =>
    rw [encScalar] at hl ⊢
    rw [decodeScalar, readFields_enc hl (by simp [FieldNumOK]; exact h)]
    simp [onlyTags, reqVarint, single, many]
  | bool b =>
    rw [encScalar] at hl ⊢
    rw [decodeScalar, readFields_enc hl (by simp [FieldNumOK]; cases b <;> simp)]
    cases b <;> simp [onlyTags, reqVarint, single, many]
  | octets b ct =>
    rw [encScalar] at hl ⊢
    rw [decodeScalar, readFields_enc hl (by simp [FieldNumOK])]
    have := bytes_lt_encFields (t := 5) (b := encFields (optField 2 ct ++ [(1, .bytes b)]))
      (fs := [(1, .varint 4), (5, .bytes (encFields (optField 2 ct ++ [(1, .bytes b)])))]) (by simp)
    have := decodeOctets_enc b ct h (by omega)
    simp [onlyTags, reqVarint, reqBytes, single, many, this]
  | string b ct =>
    rw [encScalar] at hl ⊢
    rw [decodeScalar, readFields_enc hl (by simp [FieldNumOK])]
    have := bytes_lt_encFields (t := 9) (b := encFields (optField 2 ct ++ [(1, .bytes b)]))
      (fs := [(1, .varint 8), (9, .bytes (encFields (optField 2 ct ++ [(1, .bytes b)])))]) (by simp)
    have := decodeString_enc b ct h (by omega)
    simp [onlyTags, reqVarint, reqBytes, single, many, this]

theorem decodeAny_enc (s : PScalar) (h : ScalarOK s) (hl : (encAny s).length < 2 ^ 64) :
    decodeAny (encAny s) = some s := by
  have h1 := bytes_lt_encFields (t := 2) (b := encScalar s)
      (fs := [(1, .varint 1), (2, .bytes (encScalar s))]) (by simp)
  rw [encAny] at hl ⊢
  rw [decodeAny, readFields_enc hl (by simp [FieldNumOK])]
  simp [onlyTags, reqVarint, reqBytes, single, many, decodeScalar_enc s h (by omega)]

/-! ### expressions -/

mutual
def ExprOK : PExpr → Prop
  | .literal s => ScalarOK s
  | .funcCall _ ps => ExprsOK ps
  | .operator _ ps => ExprsOK ps
  | .placeholder n => n < 2 ^ 32
  | _ => True
def ExprsOK : List PExpr → Prop
  | [] => True
  | e :: es => ExprOK e ∧ ExprsOK es
end

mutual
def depth : PExpr → Nat
  | .funcCall _ ps => depths ps + 1
  | .operator _ ps => depths ps + 1
  | _ => 0
def depths : List PExpr → Nat
  | [] => 0
  | e :: es => max (depth e) (depths es)
end

/-- parameters as fields -/
def paramFields (ps : List PExpr) : List Field := ps.map fun e => (2, .bytes (encExpr e))

theorem encParams_eq (ps : List PExpr) : encParams ps = encFields (paramFields ps) := by
  induction ps with
  | nil => rfl
  | cons e es ih => rw [encParams, ih]; rfl

theorem many_params (ps : List PExpr) : many (paramFields ps) 2 = ps.map fun e => .bytes (encExpr e) := by
  induction ps with
  | nil => rfl
  | cons e es ih => simp [paramFields, many] at ih ⊢; exact ih

theorem allBytes_map {α : Type} (f : α → Bytes) (xs : List α) :
    allBytes (xs.map fun x => .bytes (f x)) = some (xs.map f) := by
  induction xs with
  | nil => rfl
  | cons x xs ih => simp [allBytes, ih]

theorem params_only (name : Bytes) (ps : List PExpr) :
    onlyTags [1, 2] ((1, .bytes name) :: paramFields ps) = true := by
  simp [onlyTags, paramFields]

theorem params_req (name : Bytes) (ps : List PExpr) :
    reqBytes ((1, .bytes name) :: paramFields ps) 1 = some name := by
  have : (paramFields ps).filter (fun f => f.1 == 1) = [] := by simp [paramFields]
  simp [reqBytes, single, many, this]

theorem params_rep (name : Bytes) (ps : List PExpr) :
    repBytes ((1, .bytes name) :: paramFields ps) 2 = some (ps.map encExpr) := by
  have := many_params ps
  simp only [many] at this
  rw [repBytes, many, List.filter_cons_of_neg (by simp), this, allBytes_map]

theorem encFields_two (a b : Field) : encFields [a, b] = encField a ++ encField b := by simp [encFields]

mutual
theorem decodeExprAux_enc (e : PExpr) (h : ExprOK e) (fuel : Nat) (hf : depth e < fuel)
    (hl : (encExpr e).length < 2 ^ 64) : decodeExprAux fuel (encExpr e) = some e := by
  obtain ⟨fuel, rfl⟩ : ∃ k, fuel = k + 1 := ⟨fuel - 1, by omega⟩
  match e with
  | .ident name =>
    have h1 := bytes_lt_encFields (t := 2) (b := encFields [(2, .bytes name)])
      (fs := [(1, .varint 1), (2, .bytes (encFields [(2, .bytes name)]))]) (by simp)
    rw [encExpr] at hl ⊢
    rw [decodeExprAux, readFields_enc hl (by simp [FieldNumOK])]
    simp [onlyTags, reqVarint, reqBytes, single, many, decodeColumnIdentifier,
      readFields_enc (fs := [(2, .bytes name)]) (by omega) (by simp [FieldNumOK])]
  | .literal s =>
    have h1 := bytes_lt_encFields (t := 4) (b := encScalar s)
      (fs := [(1, .varint 2), (4, .bytes (encScalar s))]) (by simp)
    rw [encExpr] at hl ⊢
    rw [decodeExprAux, readFields_enc hl (by simp [FieldNumOK])]
    simp [onlyTags, reqVarint, reqBytes, single, many, decodeScalar_enc s h (by omega)]
  | .variable name =>
    rw [encExpr] at hl ⊢
    rw [decodeExprAux, readFields_enc hl (by simp [FieldNumOK])]
    simp [onlyTags, reqVarint, reqBytes, single, many]
  | .placeholder n =>
    have hn : n < 2 ^ 32 := h
    rw [encExpr] at hl ⊢
    rw [decodeExprAux, readFields_enc hl (by simp [FieldNumOK]; omega)]
    simp [onlyTags, reqVarint, single, many, hn]
  | .funcCall name ps =>
    rw [encExpr, encParams_eq] at hl ⊢
    have h1 := bytes_lt_encFields (t := 5) (b := encField (1, .bytes (encFields [(1, .bytes name)])) ++ encFields (paramFields ps))
      (fs := [(1, .varint 4), (5, .bytes (encField (1, .bytes (encFields [(1, .bytes name)])) ++ encFields (paramFields ps)))]) (by simp)
    rw [show encField (1, .bytes (encFields [(1, .bytes name)])) ++ encFields (paramFields ps) =
      encFields ((1, .bytes (encFields [(1, .bytes name)])) :: paramFields ps) from rfl] at hl h1 ⊢
    have h2 := bytes_lt_encFields (t := 1) (b := encFields [(1, .bytes name)])
      (fs := (1, .bytes (encFields [(1, .bytes name)])) :: paramFields ps) (by simp)
    have ih := decodeExprs_enc ps (by simpa [ExprOK] using h) fuel (by simp [depth] at hf; omega)
      (by
        have : (encFields (paramFields ps)).length ≤ (encFields ((1, .bytes (encFields [(1, .bytes name)])) :: paramFields ps)).length := by
          simp [encFields]
        rw [encParams_eq]; omega)
    rw [decodeExprAux, readFields_enc hl (by simp [FieldNumOK])]
    have e2 := readFields_enc (fs := (1, .bytes (encFields [(1, .bytes name)])) :: paramFields ps) (by omega)
      (by simp [FieldNumOK, paramFields])
    have e3 := readFields_enc (fs := [(1, .bytes name)]) (by omega) (by simp [FieldNumOK])
    have e4 : decodeIdentifier (encFields [(1, .bytes name)]) = some name := by
      simp [decodeIdentifier, e3, onlyTags, reqBytes, single, many]
    have e0 : reqBytes [(1, .varint 4), (5, .bytes (encFields ((1, .bytes (encFields [(1, .bytes name)])) :: paramFields ps)))] 5
        = some (encFields ((1, .bytes (encFields [(1, .bytes name)])) :: paramFields ps)) := by
      simp [reqBytes, single, many]
    have e1 : reqVarint [(1, .varint 4), (5, .bytes (encFields ((1, .bytes (encFields [(1, .bytes name)])) :: paramFields ps)))] 1 = some 4 := by
      simp [reqVarint, single, many]
    simp only [e0, e1, e2, params_only, params_req, params_rep, Option.bind_some, e4, ih, if_true]
    simp [onlyTags]
  | .operator name ps =>
    rw [encExpr, encParams_eq] at hl ⊢
    have h1 := bytes_lt_encFields (t := 6) (b := encField (1, .bytes name) ++ encFields (paramFields ps))
      (fs := [(1, .varint 5), (6, .bytes (encField (1, .bytes name) ++ encFields (paramFields ps)))]) (by simp)
    rw [show encField (1, .bytes name) ++ encFields (paramFields ps) =
      encFields ((1, .bytes name) :: paramFields ps) from rfl] at hl h1 ⊢
    have ih := decodeExprs_enc ps (by simpa [ExprOK] using h) fuel (by simp [depth] at hf; omega)
      (by
        have : (encFields (paramFields ps)).length ≤ (encFields ((1, .bytes name) :: paramFields ps)).length := by
          simp [encFields]
        rw [encParams_eq]; omega)
    rw [decodeExprAux, readFields_enc hl (by simp [FieldNumOK])]
    have e2 := readFields_enc (fs := (1, .bytes name) :: paramFields ps) (by omega)
      (by simp [FieldNumOK, paramFields])
    have e0 : reqBytes [(1, .varint 5), (6, .bytes (encFields ((1, .bytes name) :: paramFields ps)))] 6
        = some (encFields ((1, .bytes name) :: paramFields ps)) := by
      simp [reqBytes, single, many]
    have e1 : reqVarint [(1, .varint 5), (6, .bytes (encFields ((1, .bytes name) :: paramFields ps)))] 1 = some 5 := by
      simp [reqVarint, single, many]
    simp only [e0, e1, e2, params_only, params_req, params_rep, Option.bind_some, ih, if_true]
    simp [onlyTags]
theorem decodeExprs_enc (es : List PExpr) (h : ExprsOK es) (fuel : Nat) (hf : depths es < fuel)
    (hl : (encParams es).length < 2 ^ 64) : decodeAll (decodeExprAux fuel) (es.map encExpr) = some es := by
  match es with
  | [] => rfl
  | e :: es =>
    rw [encParams] at hl
    have := bytes_le_encField 2 (encExpr e)
    simp only [List.length_append] at hl
    simp only [depths] at hf
    simp [decodeAll, decodeExprAux_enc e h.1 fuel (by omega) (by omega), decodeExprs_enc es h.2 fuel (by omega) (by omega)]
end

mutual
theorem depth_le (e : PExpr) : depth e ≤ (encExpr e).length := by
  match e with
  | .ident _ => simp [depth]
  | .literal _ => simp [depth]
  | .variable _ => simp [depth]
  | .placeholder _ => simp [depth]
  | .funcCall name ps =>
    have := depths_le ps
    have h1 := bytes_lt_encFields (t := 5) (b := encField (1, .bytes (encFields [(1, .bytes name)])) ++ encParams ps)
      (fs := [(1, .varint 4), (5, .bytes (encField (1, .bytes (encFields [(1, .bytes name)])) ++ encParams ps))]) (by simp)
    rw [List.length_append] at h1
    rw [encExpr, depth]; omega
  | .operator name ps =>
    have := depths_le ps
    have h1 := bytes_lt_encFields (t := 6) (b := encField (1, .bytes name) ++ encParams ps)
      (fs := [(1, .varint 5), (6, .bytes (encField (1, .bytes name) ++ encParams ps))]) (by simp)
    rw [List.length_append] at h1
    rw [encExpr, depth]; omega
theorem depths_le (es : List PExpr) : depths es ≤ (encParams es).length := by
  match es with
  | [] => simp [depths]
  | e :: es =>
    have := depth_le e
    have := depths_le es
    have := bytes_le_encField 2 (encExpr e)
    rw [encParams, depths, List.length_append]
    omega
end

theorem decodeExpr_enc (e : PExpr) (h : ExprOK e) (hl : (encExpr e).length < 2 ^ 64) :
    decodeExpr (encExpr e) = some e :=
  decodeExprAux_enc e h _ (by have := depth_le e; omega) hl

/-! ### what values stand for is representable -/

theorem octetsOrNull_ok (b : Option Bytes) {ct : Nat} (h : ct < 2 ^ 32) : ScalarOK (octetsOrNull b ct) := by
  cases b with
  | none => trivial
  | some b =>
    intro c hc
    unfold optNonZero at hc
    split at hc <;> simp at hc; omega

theorem plainScalar_ok {dt : BitVec 64 → Bytes} {tt : GoTime → Bytes} {v : Val} {s : PScalar}
    (h : plainScalar dt tt v = some s) : ScalarOK s := by
  cases v <;> simp only [plainScalar, Option.some.injEq, reduceCtorEq] at h <;> subst h
  all_goals first
    | exact octetsOrNull_ok _ (by omega)
    | trivial
    | (rename_i v; have := zz_lt (by omega) v; simp only [ScalarOK]; omega)
    | (rename_i v; have := v.isLt; simp only [ScalarOK]; omega)
    | (intro c hc; simp at hc; done)
    | (intro c hc; simp at hc; omega)
    | (intro c hc; rename_i k; have := k.isLt; unfold optNonZero at hc; split at hc <;> simp at hc; omega)

theorem argScalarOf_ok {dt : BitVec 64 → Bytes} {tt : GoTime → Bytes} {v : Val} {s : PScalar}
    (h : argScalarOf dt tt v = some s) : ScalarOK s := by
  fun_induction argScalarOf dt tt v with
  | case1 => simp at h
  | case2 v hv ih => exact ih h
  | case3 => simp at h; subst h; trivial
  | case4 => exact plainScalar_ok h

end Verif.Proof
