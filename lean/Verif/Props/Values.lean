import Verif.Proof.FieldAll
import Verif.Proof.TextRead
/-! C02-C09, C24, C27: what single Go values become on the wire. -/
namespace Verif.Props
open Verif.Go Verif.Spec Verif.Model Verif.Proof

variable {g : Grow} {p : Slice} {tag : UInt8}

/-- the integer held by a value of a signed integer type -/
def signedOf : Val → Option Int
  | .int8 v => some v.toInt
  | .int16 v => some v.toInt
  | .int32 v => some v.toInt
  | .int64 v => some v.toInt
  | .int v => some v.toInt
  | _ => none

/-- the integer held by a value of an unsigned integer type -/
def unsignedOf : Val → Option Nat
  | .uint8 v => some v.toNat
  | .uint16 v => some v.toNat
  | .uint32 v => some v.toNat
  | .uint64 v => some v.toNat
  | .uint v => some v.toNat
  | _ => none

/-- An arbitrary growth policy for the examples. -/
def grow0 : Grow := fun _ n => n

/-- C02: every signed integer, as argument and as literal, is one field that decodes to the same integer. -/
theorem C02_signed_exact (ht : SmallTag tag) {v : Val} {i : Int} (h : signedOf v = some i) :
    Writes (appendAny g p tag v) p (fun bs => AnyField tag.toNat bs (.sint i)) ∧
    Writes (appendExpr g p tag v) p (fun bs => ExprField tag.toNat bs (.literal (.sint i))) := by
  apply scalar_writes ht
  · cases v <;> simp [signedOf] at h <;> subst h <;> rfl
  · exact Nat.zero_le _

example : signedOf (.int16 (-300)) = some (-300) ∧ SmallTag 2 := by
  constructor
  · rfl
  · exact ⟨by decide, by decide⟩
example : written (appendAny grow0 ⟨[1], [9, 9]⟩ 2 (.int16 (-300))) =
    some [1, 18, 9, 8, 1, 18, 5, 8, 1, 16, 215, 4] := by decide +kernel

/-- C03: the same for unsigned integers. -/
theorem C03_unsigned_exact (ht : SmallTag tag) {v : Val} {i : Nat} (h : unsignedOf v = some i) :
    Writes (appendAny g p tag v) p (fun bs => AnyField tag.toNat bs (.uint i)) ∧
    Writes (appendExpr g p tag v) p (fun bs => ExprField tag.toNat bs (.literal (.uint i))) := by
  apply scalar_writes ht
  · cases v <;> simp [unsignedOf] at h <;> subst h <;> rfl
  · exact Nat.zero_le _

example : unsignedOf (.uint64 18446744073709551615) = some 18446744073709551615 := rfl
example : written (appendExpr grow0 ⟨[], []⟩ 4 (.uint64 18446744073709551615)) =
    some [34, 17, 8, 2, 34, 13, 8, 2, 24, 255, 255, 255, 255, 255, 255, 255, 255, 255, 1] := by decide +kernel

/-- C04: nil, bool and the floats, bit by bit. -/
theorem C04_null_bool_float_exact (ht : SmallTag tag) :
    (Writes (appendAny g p tag .nil) p (fun bs => AnyField tag.toNat bs .null) ∧
      Writes (appendExpr g p tag .nil) p (fun bs => ExprField tag.toNat bs (.literal .null))) ∧
    (∀ b, Writes (appendAny g p tag (.bool b)) p (fun bs => AnyField tag.toNat bs (.bool b)) ∧
      Writes (appendExpr g p tag (.bool b)) p (fun bs => ExprField tag.toNat bs (.literal (.bool b)))) ∧
    (∀ x, Writes (appendAny g p tag (.float32 x)) p (fun bs => AnyField tag.toNat bs (.float x.toNat)) ∧
      Writes (appendExpr g p tag (.float32 x)) p (fun bs => ExprField tag.toNat bs (.literal (.float x.toNat)))) ∧
    (∀ x, Writes (appendAny g p tag (.float64 x)) p (fun bs => AnyField tag.toNat bs (.double x.toNat)) ∧
      Writes (appendExpr g p tag (.float64 x)) p (fun bs => ExprField tag.toNat bs (.literal (.double x.toNat)))) :=
  ⟨scalar_writes ht rfl (Nat.zero_le _), fun _ => scalar_writes ht rfl (Nat.zero_le _),
    fun _ => scalar_writes ht rfl (Nat.zero_le _), fun _ => scalar_writes ht rfl (Nat.zero_le _)⟩

-- a signalling NaN with payload, in a buffer with stale spare bytes
example : written (appendAny grow0 ⟨[], [7, 7, 7]⟩ 2 (.float32 0x7fa00001)) =
    some [18, 11, 8, 1, 18, 7, 8, 6, 61, 1, 0, 160, 127] := by decide +kernel

/-- a length that a Go string or slice can have -/
def GoLen (s : Bytes) : Prop := s.length ≤ maxAlloc

/-- C05: strings and byte slices with their collation or content type. Collation and content type zero are
not transmitted; a nil slice is NULL, an empty one is not. -/
theorem C05_strings_exact (ht : SmallTag tag) (s : Bytes) (hs : GoLen s) :
    let Both := fun (v : Val) (x : PScalar) =>
      Writes (appendAny g p tag v) p (fun bs => AnyField tag.toNat bs x) ∧
      Writes (appendExpr g p tag v) p (fun bs => ExprField tag.toNat bs (.literal x))
    Both (.str s) (.string s none) ∧
    Both (.strColl s 0) (.string s none) ∧
    (∀ c : BitVec 64, c ≠ 0 → Both (.strColl s c) (.string s (some c.toNat))) ∧
    Both (.bytes (some s)) (.octets s none) ∧
    Both (.geometry (some s)) (.octets s (some 1)) ∧
    Both (.json (some s)) (.octets s (some 2)) ∧
    Both (.jsonStr s) (.octets s (some 2)) ∧
    Both (.xml (some s)) (.octets s (some 3)) ∧
    Both (.xmlStr s) (.octets s (some 3)) ∧
    Both (.bytes none) .null ∧ Both (.geometry none) .null ∧ Both (.json none) .null ∧ Both (.xml none) .null := by
  have hl : s.length ≤ 2 ^ 62 := by unfold GoLen maxAlloc at hs; omega
  refine ⟨scalar_writes ht rfl hl, scalar_writes ht rfl hl, fun c hc => scalar_writes ht ?_ hl, scalar_writes ht rfl hl,
    scalar_writes ht rfl hl, scalar_writes ht rfl hl, scalar_writes ht rfl hl, scalar_writes ht rfl hl,
    scalar_writes ht rfl hl, scalar_writes ht rfl (Nat.zero_le _), scalar_writes ht rfl (Nat.zero_le _),
    scalar_writes ht rfl (Nat.zero_le _), scalar_writes ht rfl (Nat.zero_le _)⟩
  have : c.toNat ≠ 0 := fun h => hc (BitVec.eq_of_toNat_eq h)
  simp [plainScalar, optNonZero, this]

example : GoLen (ascii "abc") := by unfold GoLen; decide
example : written (appendAny grow0 ⟨[], []⟩ 2 (.strColl (ascii "abc") 255)) =
    some [18, 16, 8, 1, 18, 12, 8, 8, 74, 8, 16, 255, 1, 10, 3, 97, 98, 99] := by decide +kernel
example : written (appendExpr grow0 ⟨[], []⟩ 1 (.json (some []))) ≠ written (appendExpr grow0 ⟨[], []⟩ 1 (.json none)) := by
  decide +kernel

/-- C06: a time is sent as octets whose text reads back as the time's own wall clock fields (so different
wall clock readings have different texts, next theorem). -/
theorem C06_time_exact (ht : SmallTag tag) (t : GoTime) : ∃ text : Bytes,
    readDateTime text = some (t.year.toInt, t.month.val, t.day.val, t.hour.val, t.min.val, t.sec.val, t.nsec.val) ∧
    Writes (appendAny g p tag (.time t)) p (fun bs => AnyField tag.toNat bs (.octets text none)) ∧
    Writes (appendExpr g p tag (.time t)) p (fun bs => ExprField tag.toNat bs (.literal (.octets text none))) := by
  refine ⟨fmtTime t, readDateTime_fmt t, scalar_writes ht rfl ?_⟩
  have := fmtTime_length t
  simp only [textLen]; omega

example : readDateTime (ascii "-0044-03-15 12:00:00.000000001") = some (-44, 3, 15, 12, 0, 0, 1) := rfl
example : written (appendAny grow0 ⟨[], []⟩ 2 (.time ⟨2020, 2, 29, 23, 59, 58, 123456789⟩)) =
    some ([18, 39, 8, 1, 18, 35, 8, 4, 42, 31, 10, 29] ++ ascii "2020-02-29 23:59:58.123456789") := by decide +kernel

/-- C06: times with different wall clock readings are sent as different arguments. -/
theorem C06_time_injective (ht : SmallTag tag) {t u : GoTime} {q r : Slice}
    (h1 : appendAny g p tag (.time t) = .ok (q, none)) (h2 : appendAny g p tag (.time u) = .ok (r, none))
    (h : q.data = r.data) : t = u := by
  obtain ⟨text, ht1, hw1, _⟩ := C06_time_exact (g := g) (p := p) ht t
  obtain ⟨text', ht2, hw2, _⟩ := C06_time_exact (g := g) (p := p) ht u
  rcases hw1 with hw | ⟨bs, sp, hw, b1, hb1, hd1⟩
  · rw [hw] at h1; cases h1
  rcases hw2 with hw' | ⟨bs', sp', hw', b2, hb2, hd2⟩
  · rw [hw'] at h2; cases h2
  rw [hw] at h1; cases h1
  rw [hw'] at h2; cases h2
  cases List.append_cancel_left h
  rw [hb1] at hb2
  cases hb2
  rw [hd1] at hd2
  cases hd2
  rw [ht1] at ht2
  obtain ⟨y, mo, d, h, mi, s, ns⟩ := t
  obtain ⟨y', mo', d', h', mi', s', ns'⟩ := u
  simp only [Option.some.injEq, Prod.mk.injEq, BitVec.toInt_inj, Fin.val_inj] at ht2
  simp only [GoTime.mk.injEq]
  exact ht2

example : (written (appendAny grow0 ⟨[], []⟩ 2 (.time ⟨2020, 2, 29, 23, 59, 58, 0⟩))).isSome := by decide +kernel

/-- The whole of C07: for every duration, the text sent reads back as the duration in whole seconds. -/
def C07_full : Prop := ∀ (g : Grow) (p : Slice) (tag : UInt8), SmallTag tag → ∀ d : BitVec 64, ∃ text : Bytes,
    readDuration text = some (d.toInt.tdiv 1000000000) ∧
    Writes (appendAny g p tag (.duration d)) p (fun bs => AnyField tag.toNat bs (.octets text none)) ∧
    Writes (appendExpr g p tag (.duration d)) p (fun bs => ExprField tag.toNat bs (.literal (.octets text none)))

/-- C07 for every duration but the smallest. Missing: `math.MinInt64` ns, see `C07_min_wrong`. -/
theorem C07_duration_exact_partial (ht : SmallTag tag) (d : BitVec 64) (hd : d ≠ BitVec.intMin 64) : ∃ text : Bytes,
    readDuration text = some (d.toInt.tdiv 1000000000) ∧
    Writes (appendAny g p tag (.duration d)) p (fun bs => AnyField tag.toNat bs (.octets text none)) ∧
    Writes (appendExpr g p tag (.duration d)) p (fun bs => ExprField tag.toNat bs (.literal (.octets text none))) := by
  refine ⟨durationText d.toInt, readDuration_text _, scalar_writes ht ?_ ?_⟩
  · simp [plainScalar, libDur, hd]
  · have := modelDur_length d
    rw [modelDur_eq hd] at this
    simp only [textLen]; omega

-- -1.5 s is sent as "-0:00:01"
example : (BitVec.ofInt 64 (-1500000000)) ≠ BitVec.intMin 64 := by decide
example : written (appendAny grow0 ⟨[], []⟩ 2 (.duration (BitVec.ofInt 64 (-1500000000)))) =
    some ([18, 18, 8, 1, 18, 14, 8, 4, 42, 10, 10, 8] ++ ascii "-0:00:01") := by decide +kernel
example : readDuration (ascii "-0:00:01") = some (Int.tdiv (-1500000000) 1000000000) := by decide +kernel

/-- The smallest duration is sent as a TIME of about -2·10^15 years. -/
theorem C07_min_wrong : ¬C07_full := by
  intro h
  obtain ⟨text, ht, hw, _⟩ := h grow0 ⟨[], []⟩ 2 ⟨by decide, by decide⟩ (BitVec.intMin 64)
  have hs := (scalar_writes (g := grow0) (p := ⟨[], []⟩) (tag := 2) ⟨by decide, by decide⟩ (v := .duration (BitVec.intMin 64))
    (s := .octets (ascii "-18446744073706989569:29:00") none) rfl (by decide)).1
  rcases hw with hw | ⟨bs, sp, hw, b1, hb1, hd1⟩
  · rcases hs with hs | ⟨bs', sp', hs, _⟩
    · have : written (appendAny grow0 ⟨[], []⟩ 2 (.duration (BitVec.intMin 64))) ≠ none := by decide +kernel
      rw [hs] at this; exact this rfl
    · rw [hw] at hs; cases hs
  · rcases hs with hs | ⟨bs', sp', hs, b2, hb2, hd2⟩
    · rw [hw] at hs; cases hs
    · rw [hw] at hs
      cases hs
      rw [hb1] at hb2; cases hb2
      rw [hd1] at hd2; cases hd2
      revert ht; decide +kernel

/-- C08: every expression tree is written as one field that decodes to the same tree (the tree a value
stands for, `exprMeaning`). Names of variables up to 123 bytes, see C24. -/
theorem C08_expression_trees (ht : SmallTag tag) {v : Val} {e : PExpr} (h : exprMeaning v = some e)
    (hv : varsShort e = true) :
    Writes (appendExpr g p tag v) p fun bs => bs.length < 2 ^ 63 → ExprField tag.toNat bs e :=
  appendExpr_writes ht h hv

/-- `a = 1 AND f(@x, ?)` -/
def exampleTree : Val :=
  .op (ascii "&&") [.op (ascii "==") [.column (ascii "a"), .int 1], .call (ascii "f") [.variable (ascii "@x"), .placeholder 3]]
example : ∃ e, exprMeaning exampleTree = some e ∧ varsShort e = true := ⟨_, rfl, by decide⟩
example : (written (appendExpr grow0 ⟨[], [1, 2, 3]⟩ 5 exampleTree)).map (fun bs => (readFields bs).map List.length) = some (some 1) := by
  decide +kernel

/-- C08, other direction: an accepted expression has a meaning. -/
theorem C08_accepted_has_meaning (ht : SmallTag tag) {v : Val} {q : Slice} (h : appendExpr g p tag v = .ok (q, none)) :
    ∃ e, exprMeaning v = some e := by
  obtain ⟨e, he, _⟩ := appendExpr_accepted ht h
  exact ⟨e, he⟩

/-- C09: a value accepted both as an argument and as an expression is the same scalar in both. -/
theorem C09_any_expr_agree {g' : Grow} {p' q q' : Slice} {tag' : UInt8} (ht : SmallTag tag) (ht' : SmallTag tag') {v : Val}
    (h1 : appendAny g p tag v = .ok (q, none)) (h2 : appendExpr g' p' tag' v = .ok (q', none))
    (hq : q.len < 2 ^ 63) (hq' : q'.len < 2 ^ 63) :
    ∃ s bs bs', q.data = p.data ++ bs ∧ q'.data = p'.data ++ bs' ∧ AnyField tag.toNat bs s ∧
      ExprField tag'.toNat bs' (.literal s) := by
  obtain ⟨s, hs, e1⟩ := appendAny_accepted ht h1
  obtain ⟨e, he, e2⟩ := appendExpr_accepted ht' h2
  have key : e = .literal s := by
    have gen : ∀ v : Val, ∀ s e, argMeaning v = some s → exprMeaning v = some e → e = .literal s := by
      intro v
      unfold argMeaning exprMeaning
      intro s e hs he
      cases v with
      | ptr v =>
        rw [exprOf] at he
        split at he
        · rename_i ha
          cases v <;> simp [isWrapper] at ha <;> simp [exprOf, plainScalar, argScalarOf] at he hs <;> rw [← he, ← hs]
        · cases he
      | nilPtr b => simp [exprOf, plainScalar] at he
      | _ => simp [exprOf, plainScalar, argScalarOf] at he hs <;> rw [← he, ← hs]
    exact gen v s e hs he
  subst key
  have hok : ScalarOK s := argScalarOf_ok hs
  refine ⟨s, _, _, e1, e2, anyField_anyF ht hok ?_, exprField_exprF ht' hok (by simp [varsShort]) ?_⟩
  · have := congrArg List.length e1; simp [Slice.len] at this hq ⊢; omega
  · have := congrArg List.length e2; simp [Slice.len] at this hq' ⊢; omega

example : (written (appendAny grow0 ⟨[], []⟩ 2 (.ptr (.xmlStr (ascii "<a/>"))))).isSome ∧
    (written (appendExpr grow0 ⟨[], []⟩ 1 (.ptr (.xmlStr (ascii "<a/>"))))).isSome := by decide +kernel

/-- The whole of C24. -/
def C24_full : Prop := ∀ (g : Grow) (p : Slice) (tag : UInt8), SmallTag tag → ∀ name : Bytes, GoLen name →
    Writes (appendExpr g p tag (.variable name)) p fun bs => ExprField tag.toNat bs (.variable name)

/-- C24 for names of up to 123 bytes. Missing: longer names, see `C24_long_wrong`. -/
theorem C24_variable_partial (ht : SmallTag tag) (name : Bytes) (hn : name.length < 124) :
    Writes (appendExpr g p tag (.variable name)) p fun bs => ExprField tag.toNat bs (.variable name) := by
  refine appendExpr_writes_small ht (e := .variable name) rfl (by simp [varsShort, hn]) ?_
  rw [codeExprF_eq (by have := ht.2; omega) _ (by simp [varsShort, hn])]
  have h1 := encField_varint_length_le 1 (by omega) 3 (by omega)
  have h2 := encField_bytes_length_le 3 (by omega) name (by omega)
  have h3 : (encExpr (.variable name)).length ≤ 200 := by
    simp only [encExpr, encFields, List.length_append, List.length_nil]; omega
  have h4 := encField_bytes_length_le tag.toNat (by have := ht.2; omega) (encExpr (.variable name)) (by omega)
  rw [exprF]; omega

example : (ascii "@id$1234").length < 124 := by decide
example : written (appendExpr grow0 ⟨[], []⟩ 2 (.variable (ascii "@v"))) = some [18, 6, 8, 3, 26, 2, 64, 118] := by
  decide +kernel

/-- A 124 byte name is written with a length byte of 128: not a field at all. -/
theorem C24_long_wrong : ¬C24_full := by
  intro h
  have := h grow0 ⟨[], []⟩ 2 ⟨by decide, by decide⟩ (List.replicate 124 97) (by unfold GoLen; decide +kernel)
  rcases this with h | ⟨bs, sp, h, body, hb, _⟩
  · have : written (appendExpr grow0 ⟨[], []⟩ 2 (.variable (List.replicate 124 97))) ≠ none := by decide +kernel
    rw [h] at this; exact this rfl
  · have h1 : (written (appendExpr grow0 ⟨[], []⟩ 2 (.variable (List.replicate 124 97)))).bind readFields = none := by
      decide +kernel
    rw [h] at h1
    simp only [written, List.nil_append, Option.bind_some] at h1
    rw [h1] at hb; cases hb

/-- a pointer of depth `n` to a variable holding `v` -/
def ptrs : Nat → Val → Val
  | 0, v => v
  | n + 1, v => .ptr (ptrs n v)

/-- The whole of C27: pointers mean what they point to, nil pointers NULL (`.nil`: a nil interface, NULL). -/
def C27_full : Prop := ∀ (g : Grow) (p : Slice) (tag : UInt8), SmallTag tag →
    (∀ n v s, argMeaning v = some s →
      Writes (appendAny g p tag (ptrs n v)) p fun bs => bs.length < 2 ^ 63 → AnyField tag.toNat bs s) ∧
    (∀ n b, Writes (appendAny g p tag (ptrs n (.nilPtr b))) p fun bs => AnyField tag.toNat bs .null)

/-- C27 for pointers to anything but a nil interface and nil pointers to anything but the library's own
wrapper types. Missing: those two, see `C27_wrong`. -/
theorem C27_pointers_partial (ht : SmallTag tag) :
    (∀ n v s, v ≠ .nil → argMeaning v = some s →
      Writes (appendAny g p tag (ptrs n v)) p fun bs => bs.length < 2 ^ 63 → AnyField tag.toNat bs s) ∧
    (∀ n, Writes (appendAny g p tag (ptrs n (.nilPtr false))) p fun bs => AnyField tag.toNat bs .null) := by
  have gen : ∀ n v s, v ≠ .nil → argMeaning v = some s → argMeaning (ptrs n v) = some s ∧ ptrs n v ≠ .nil := by
    intro n v s hv h
    induction n with
    | zero => exact ⟨h, hv⟩
    | succ n ih =>
      refine ⟨?_, by simp [ptrs]⟩
      unfold argMeaning at ih ⊢
      rw [ptrs]
      rw [argScalarOf]
      · exact ih.1
      · exact ih.2
  refine ⟨fun n v s hv h => appendAny_writes ht (gen n v s hv h).1, fun n => ?_⟩
  exact appendAny_writes_small ht (gen n (.nilPtr false) .null (by simp) rfl).1 (anyF_length ht trivial (Nat.zero_le _))

example : ptrs 2 (.int 7) = .ptr (.ptr (.int 7)) ∧ argMeaning (.int 7) = some (.sint 7) ∧ Val.int 7 ≠ .nil :=
  ⟨rfl, rfl, by simp⟩
example : written (appendAny grow0 ⟨[], []⟩ 2 (.ptr (.ptr (.int 7)))) = written (appendAny grow0 ⟨[], []⟩ 2 (.int 7)) ∧
    (written (appendAny grow0 ⟨[], []⟩ 2 (.int 7))).isSome := by decide +kernel

/-- A pointer to a nil interface is rejected, and a nil `*xtorm.String` panics. -/
theorem C27_wrong : ¬C27_full ∧ (appendAny grow0 ⟨[], []⟩ 2 (ptrs 1 .nil) = .ok (Slice.nil, some .unsupportedType)) ∧
    (appendAny grow0 ⟨[], []⟩ 2 (.nilPtr true) = .error .panic) := by
  refine ⟨fun h => ?_, rfl, rfl⟩
  have := (h grow0 ⟨[], []⟩ 2 ⟨by decide, by decide⟩).2 0 true
  rcases this with h | ⟨bs, sp, h, _⟩
  · rw [show ptrs 0 (.nilPtr true) = .nilPtr true from rfl, show appendAny grow0 ⟨[], []⟩ 2 (.nilPtr true) = .error .panic from rfl] at h
    cases h
  · cases h

end Verif.Props
