import Verif.Proof.Text
/-! `appendAny` as a whole. -/
namespace Verif.Proof
open Verif.Go Verif.Spec Verif.Model

inductive Res (α : Type) where
  | ok (a : α)
  | err (e : Err)
  | panic

theorem Appends.bind {r : M Slice} {p : Slice} {a b : Bytes} {k : Slice → M Slice} (h : Appends r p a)
    (hk : ∀ q, q.data = p.data ++ a → Appends (k q) q b) : Appends (r >>= k) p (a ++ b) := by
  rcases h with h | ⟨sp, h⟩
  · left; rw [h]; rfl
  · rw [h, ok_bind]
    rcases hk ⟨p.data ++ a, sp⟩ rfl with h2 | ⟨sp2, h2⟩
    · exact .inl h2
    · exact .inr ⟨sp2, by rw [h2]; simp⟩

/-! ### text of durations and times -/

/-- the text `AppendDuration` produces -/
def modelDur (d : BitVec 64) : Bytes :=
  let d' := if d.toInt < 0 then -d else d
  (if d.toInt < 0 then [45] else []) ++ (decimal (d'.sdiv 3600000000000#64).toNat ++
    58 :: (two ((d'.sdiv 60000000000#64).toNat % 60) ++ 58 :: two ((d'.sdiv 1000000000#64).toNat % 60)))

theorem smalls_at : ∀ k : Fin 60, smalls[2 * k.val]? = some (UInt8.ofNat (48 + k.val / 10)) ∧
    smalls[2 * k.val + 1]? = some (UInt8.ofNat (48 + k.val % 10)) := by
  decide +kernel

theorem smalls_at' {k : Nat} (h : k < 60) : smallsAt (2 * k) = .ok (UInt8.ofNat (48 + k / 10)) ∧
    smallsAt (2 * k + 1) = .ok (UInt8.ofNat (48 + k % 10)) := by
  obtain ⟨a, b⟩ := smalls_at ⟨k, h⟩
  simp only at a b
  simp [smallsAt, a, b]

theorem durTail_appends (g : Grow) (p : Slice) (d : BitVec 64) :
    Appends (append g p (decimal (d.sdiv 3600000000000#64).toNat) >>= fun p =>
      smallsAt (2 * ((d.sdiv 60000000000#64).toNat % 60)) >>= fun a =>
      smallsAt (2 * ((d.sdiv 60000000000#64).toNat % 60) + 1) >>= fun b =>
      smallsAt (2 * ((d.sdiv 1000000000#64).toNat % 60)) >>= fun c =>
      smallsAt (2 * ((d.sdiv 1000000000#64).toNat % 60) + 1) >>= fun e =>
      append g p [58, a, b, 58, c, e]) p
      (decimal (d.sdiv 3600000000000#64).toNat ++
        58 :: (two ((d.sdiv 60000000000#64).toNat % 60) ++ 58 :: two ((d.sdiv 1000000000#64).toNat % 60))) := by
  apply (append_appends g p _).bind
  intro q _
  obtain ⟨a, b⟩ := smalls_at' (Nat.mod_lt (d.sdiv 60000000000#64).toNat (show 0 < 60 by omega))
  obtain ⟨c, e⟩ := smalls_at' (Nat.mod_lt (d.sdiv 1000000000#64).toNat (show 0 < 60 by omega))
  rw [a, ok_bind, b, ok_bind, c, ok_bind, e, ok_bind]
  exact append_appends g q _

theorem appendDuration_appends (g : Grow) (p : Slice) (d : BitVec 64) :
    Appends (appendDuration g p d) p (modelDur d) := by
  unfold appendDuration modelDur
  by_cases h : d.toInt < 0
  · simp only [h, if_true]
    apply (append_appends g p [45]).bind
    intro q _
    exact durTail_appends g q (-d)
  · simp only [h, if_false]
    exact durTail_appends g p d

theorem decimal_length_le (k : Nat) : ∀ n, n < 10 ^ (k + 1) → (decimal n).length ≤ k + 1 := by
  induction k with
  | zero => intro n h; rw [decimal]; simp at h; simp [h]
  | succ k ih =>
    intro n h
    rw [decimal]
    split
    · simp
    · have := ih (n / 10) (by rw [Nat.div_lt_iff_lt_mul (by omega)]; rw [Nat.pow_succ] at h; omega)
      simp; omega

theorem modelDur_length (d : BitVec 64) : (modelDur d).length ≤ 27 := by
  unfold modelDur
  simp only [List.length_append, List.length_cons]
  have : ∀ x : BitVec 64, (decimal x.toNat).length ≤ 20 :=
    fun x => decimal_length_le 19 _ (by have := x.isLt; omega)
  have := this ((if d.toInt < 0 then -d else d).sdiv 3600000000000#64)
  have h2 : (if d.toInt < 0 then [45] else [] : Bytes).length ≤ 1 := by split <;> simp
  simp only [two, List.length_cons, List.length_nil]
  omega

theorem fixedDigits_length (w n : Nat) : (fixedDigits w n).length = w := by
  induction w generalizing n with
  | zero => rfl
  | succ w ih => simp [fixedDigits, ih]

theorem fmtTime_length (t : GoTime) : (fmtTime t).length ≤ 46 := by
  have hy : (fmtYear t.year.toInt).length ≤ 21 := by
    have h1 : t.year.toInt.natAbs < 10 ^ 20 := by
      have := BitVec.toInt_lt (x := t.year); have := BitVec.le_toInt (x := t.year)
      simp at *; omega
    have h2 : (pad4 t.year.toInt.natAbs).length ≤ 20 := by
      unfold pad4
      split
      · simp [fixedDigits_length]
      · exact decimal_length_le 19 _ h1
    unfold fmtYear
    split <;> simp <;> omega
  unfold fmtTime
  simp only [List.length_append, List.length_cons, fixedDigits_length]
  omega

/-! ### octets with a one byte length -/

theorem smallOctets_eq {tag : UInt8} (htag : tag.toNat < 16) (text : Bytes) (hl : text.length < 118)
    (t b : Nat) (T B : UInt8) (h3 : varint t = [T]) (h4 : varint (b * 8 + 2) = [B]) :
    encField (tag.toNat, .bytes (encFields [(1, .varint t), (b, .bytes (encScalar (.octets text none)))])) =
    [keyBytes tag, 10 + UInt8.ofNat text.length, keyVarint 1, T, B, 6 + UInt8.ofNat text.length,
      keyVarint 1, 4, keyBytes 5, 2 + UInt8.ofNat text.length, keyBytes 1, 0 + UInt8.ofNat text.length] ++ text := by
  rw [encField_bytes htag]
  have e0 : varint text.length = [UInt8.ofNat text.length] := varint_small (by omega)
  have e1 : varint (text.length + 1 + 1) = [UInt8.ofNat (text.length + 1 + 1)] := varint_small (by omega)
  have e2 : varint (text.length + 1 + 1 + 1 + 1 + 1 + 1) = [UInt8.ofNat (text.length + 1 + 1 + 1 + 1 + 1 + 1)] :=
    varint_small (by omega)
  have e3 : varint (text.length + 1 + 1 + 1 + 1 + 1 + 1 + 1 + 1 + 1 + 1) =
    [UInt8.ofNat (text.length + 1 + 1 + 1 + 1 + 1 + 1 + 1 + 1 + 1 + 1)] := varint_small (by omega)
  simp [encScalar, encFields, encField, optField, h3, h4, e0, e1, e2, keyVarint1, keyBytes5, keyBytes1]
  simp only [show (text.length + 1 + 1 + 1 + 1 + 1 + 1 + 1 + 1 + 1 + 1) = 10 + text.length by omega] at *
  rw [e3]
  simp
  refine ⟨?_, ?_⟩ <;> apply UInt8.toNat_inj.mp <;> simp <;> omega

theorem patchLengths_ok (A text sp : Bytes) (t0 T B : UInt8) (n : Nat) :
    patchLengths ⟨A ++ ([t0, 10, keyVarint 1, T, B, 6, keyVarint 1, 4, keyBytes 5, 2, keyBytes 1, 0] ++ text), sp⟩
      A.length n = .ok ⟨A ++ ([t0, 10 + UInt8.ofNat n, keyVarint 1, T, B, 6 + UInt8.ofNat n, keyVarint 1, 4, keyBytes 5,
        2 + UInt8.ofNat n, keyBytes 1, 0 + UInt8.ofNat n] ++ text), sp⟩ := by
  unfold patchLengths
  rw [setAdd_at (A := A ++ [t0, 10, keyVarint 1, T, B, 6, keyVarint 1, 4, keyBytes 5, 2, keyBytes 1]) (j := 0) (R := text)
    (by simp) (by simp), ok_bind]
  rw [setAdd_at (A := A ++ [t0, 10, keyVarint 1, T, B, 6, keyVarint 1, 4, keyBytes 5]) (j := 2)
    (R := keyBytes 1 :: (0 + UInt8.ofNat n) :: text) (by simp) (by simp), ok_bind]
  rw [setAdd_at (A := A ++ [t0, 10, keyVarint 1, T, B]) (j := 6)
    (R := keyVarint 1 :: 4 :: keyBytes 5 :: (2 + UInt8.ofNat n) :: keyBytes 1 :: (0 + UInt8.ofNat n) :: text)
    (by simp) (by simp), ok_bind]
  rw [setAdd_at (A := A ++ [t0]) (j := 10)
    (R := keyVarint 1 :: T :: B :: (6 + UInt8.ofNat n) :: keyVarint 1 :: 4 :: keyBytes 5 :: (2 + UInt8.ofNat n) :: keyBytes 1 :: (0 + UInt8.ofNat n) :: text)
    (by simp) (by simp)]
  simp

theorem smallOctets_appends (g : Grow) (p : Slice) (tag T B : UInt8) (text : Bytes) (k : Slice → M Slice)
    (hk : ∀ q, Appends (k q) q text) (chk : Nat → Bool) (hchk : chk text.length = true) :
    Appends (append g p [keyBytes tag, 10, keyVarint 1, T, B, 6, keyVarint 1, 4, keyBytes 5, 2, keyBytes 1, 0] >>= fun q =>
      k q >>= fun q => if chk (q.len - p.len - 12) then patchLengths q p.len (q.len - p.len - 12) else .error .panic) p
      ([keyBytes tag, 10 + UInt8.ofNat text.length, keyVarint 1, T, B, 6 + UInt8.ofNat text.length,
      keyVarint 1, 4, keyBytes 5, 2 + UInt8.ofNat text.length, keyBytes 1, 0 + UInt8.ofNat text.length] ++ text) := by
  rcases append_appends g p [keyBytes tag, 10, keyVarint 1, T, B, 6, keyVarint 1, 4, keyBytes 5, 2, keyBytes 1, 0] with h | ⟨sp, h⟩
  · left; rw [h]; rfl
  · rw [h, ok_bind]
    rcases hk ⟨p.data ++ [keyBytes tag, 10, keyVarint 1, T, B, 6, keyVarint 1, 4, keyBytes 5, 2, keyBytes 1, 0], sp⟩ with h2 | ⟨sp2, h2⟩
    · left; rw [h2]; rfl
    · right
      rw [h2, ok_bind]
      dsimp only
      have e : (⟨p.data ++ [keyBytes tag, 10, keyVarint 1, T, B, 6, keyVarint 1, 4, keyBytes 5, 2, keyBytes 1, 0] ++ text, sp2⟩ : Slice).len
          - p.len - 12 = text.length := by
        simp [Slice.len]
      rw [e, hchk, if_pos rfl, List.append_assoc]
      exact ⟨sp2, patchLengths_ok p.data text sp2 _ _ _ _⟩

/-! ### the whole type switch -/

theorem Appends.of_eq {r : M Slice} {p : Slice} {a b : Bytes} (h : Appends r p a) (e : b = a) : Appends r p b :=
  e ▸ h

variable {g : Grow} {p : Slice} {tag : UInt8}

/-- encoding of a scalar as an `Any` field -/
def anyF (tag : UInt8) (s : PScalar) : Bytes := encField (tag.toNat, .bytes (encAny s))

theorem anyNull_appends (htag : tag.toNat < 16) : Appends (appendAnyNull g p tag) p (anyF tag .null) := by
  apply (append_appends g p _).of_eq
  rw [anyF, encField_bytes htag]
  simp [encAny, encScalar, encFields, encField, keyVarint1, keyBytes2]

theorem anyBool_appends (htag : tag.toNat < 16) (b : Bool) :
    Appends (appendAnyBool g p tag b) p (anyF tag (.bool b)) := by
  apply (append_appends g p _).of_eq
  rw [anyF, encField_bytes htag]
  cases b <;> simp [encAny, encScalar, encFields, encField, keyVarint1, keyBytes2, keyVarint8, encodeBool]

theorem anyFloat32_appends (htag : tag.toNat < 16) (x : BitVec 32) :
    Appends (appendAnyFloat32 g p tag x) p (anyF tag (.float x.toNat)) := by
  apply (append_appends g p _).of_eq
  rw [anyF, encField_bytes htag]
  simp [encAny, encScalar, encFields, encField, keyVarint1, keyBytes2, keyFixed32_7, fixed4]

theorem anyFloat64_appends (htag : tag.toNat < 16) (x : BitVec 64) :
    Appends (appendAnyFloat64 g p tag x) p (anyF tag (.double x.toNat)) := by
  apply (append_appends g p _).of_eq
  rw [anyF, encField_bytes htag]
  simp [encAny, encScalar, encFields, encField, keyVarint1, keyBytes2, keyFixed64_6, fixed8]

theorem anyUint_eq (htag : tag.toNat < 16) (x n : Nat) (hx : x < 2 ^ 64) (hn : n = (varint x).length) :
    anyF tag (.uint x) = anyHead tag (7 + UInt8.ofNat n) (3 + UInt8.ofNat n) 2 (keyVarint 3) ++ varint x :=
  encInt_eq htag x n 3 2 (keyVarint 3) (keyBytes 2) hx hn (by simp [keyVarint3]) 1 2 (by omega) (by omega)
    (by simp [keyBytes2])

theorem anySint_eq (htag : tag.toNat < 16) (v : Int) (n : Nat) (hx : zz v < 2 ^ 64)
    (hn : n = (varint (zz v)).length) :
    anyF tag (.sint v) = anyHead tag (7 + UInt8.ofNat n) (3 + UInt8.ofNat n) 1 (keyVarint 2) ++ varint (zz v) :=
  encInt_eq htag (zz v) n 2 2 (keyVarint 2) (keyBytes 2) hx hn (by simp [keyVarint2]) 1 1 (by omega) (by omega)
    (by simp [keyBytes2])

theorem size16 {x : Nat} (h : x < 2 ^ 16) : sizeVarint16 x = sizeVarint x := by
  rw [sizeVarint16_eq h, sizeVarint_eq (by omega)]
theorem size32 {x : Nat} (h : x < 2 ^ 32) : sizeVarint32 x = sizeVarint x := by
  rw [sizeVarint32_eq h, sizeVarint_eq (by omega)]

theorem anyUint64_appends (htag : tag.toNat < 16) (x : BitVec 64) :
    Appends (appendAnyUint64 g p tag x) p (anyF tag (.uint x.toNat)) := by
  have hx := x.isLt
  have := unrolled_appends g p (anyHead tag (7 + UInt8.ofNat (sizeVarint x.toNat)) (3 + UInt8.ofNat (sizeVarint x.toNat)) 2 (keyVarint 3))
    (unrolled64 x.toNat) (n := sizeVarint x.toNat) (K := 10) rfl (sizeVarint_pos _) (sizeVarint_le10 _)
  rw [maskLast_unrolled64 hx, ← anyUint_eq htag x.toNat _ hx (sizeVarint_eq hx)] at this
  exact this

theorem anyUint32_appends (htag : tag.toNat < 16) (x : BitVec 32) :
    Appends (appendAnyUint32 g p tag x) p (anyF tag (.uint x.toNat)) := by
  have hx := x.isLt
  have hx' : x.toNat < 2 ^ 64 := by omega
  have h5 := varint_length_le5 hx
  have := unrolled_appends g p (anyHead tag (7 + UInt8.ofNat (sizeVarint x.toNat)) (3 + UInt8.ofNat (sizeVarint x.toNat)) 2 (keyVarint 3))
    (unrolled32 x.toNat) (n := sizeVarint x.toNat) (K := 5) rfl (sizeVarint_pos _) (by rw [sizeVarint_eq hx']; exact h5)
  rw [maskLast_unrolled32 (by omega), ← anyUint_eq htag x.toNat _ hx' (sizeVarint_eq hx')] at this
  simp only [appendAnyUint32, size32 hx]
  exact this

theorem anyUint16_appends (htag : tag.toNat < 16) (x : BitVec 16) :
    Appends (appendAnyUint16 g p tag x) p (anyF tag (.uint x.toNat)) := by
  have hx := x.isLt
  have hx' : x.toNat < 2 ^ 64 := by omega
  have h5 := varint_length_le3 hx
  have := unrolled_appends g p (anyHead tag (7 + UInt8.ofNat (sizeVarint x.toNat)) (3 + UInt8.ofNat (sizeVarint x.toNat)) 2 (keyVarint 3))
    (unrolled16 x.toNat) (n := sizeVarint x.toNat) (K := 3) rfl (sizeVarint_pos _) (by rw [sizeVarint_eq hx']; exact h5)
  rw [maskLast_unrolled16 (by omega), ← anyUint_eq htag x.toNat _ hx' (sizeVarint_eq hx')] at this
  simp only [appendAnyUint16, size16 hx]
  exact this

theorem anyUint8_appends (htag : tag.toNat < 16) (x : BitVec 8) :
    Appends (appendAnyUint8 g p tag x) p (anyF tag (.uint x.toNat)) := by
  have hx := x.isLt
  rw [anyUint_eq htag x.toNat _ (by omega) rfl]
  unfold appendAnyUint8
  split
  · rename_i h
    rw [varint_small h]
    exact append_appends g p _
  · rename_i h
    rw [varint_big h, varint_small (by omega)]
    have e1 : x.toNat % 128 + 128 = x.toNat := by omega
    have e2 : x.toNat / 128 = 1 := by omega
    rw [e1, e2]
    exact append_appends g p _

theorem anyInt64_appends (htag : tag.toNat < 16) (x : BitVec 64) :
    Appends (appendAnyInt64 g p tag x) p (anyF tag (.sint x.toInt)) := by
  have hx := zz_lt (by omega) x
  have := unrolled_appends g p (anyHead tag (7 + UInt8.ofNat (sizeVarint (zz x.toInt))) (3 + UInt8.ofNat (sizeVarint (zz x.toInt))) 1 (keyVarint 2))
    (unrolled64 (zz x.toInt)) (n := sizeVarint (zz x.toInt)) (K := 10) rfl (sizeVarint_pos _) (sizeVarint_le10 _)
  rw [maskLast_unrolled64 hx, ← anySint_eq htag _ _ hx (sizeVarint_eq hx)] at this
  simp only [appendAnyInt64, toNat_zigzag (show 0 < 64 by omega)]
  exact this

theorem anyInt32_appends (htag : tag.toNat < 16) (x : BitVec 32) :
    Appends (appendAnyInt32 g p tag x) p (anyF tag (.sint x.toInt)) := by
  have hx := zz_lt (by omega) x
  have hx' : zz x.toInt < 2 ^ 64 := by omega
  have h5 := varint_length_le5 hx
  have := unrolled_appends g p (anyHead tag (7 + UInt8.ofNat (sizeVarint (zz x.toInt))) (3 + UInt8.ofNat (sizeVarint (zz x.toInt))) 1 (keyVarint 2))
    (unrolled32 (zz x.toInt)) (n := sizeVarint (zz x.toInt)) (K := 5) rfl (sizeVarint_pos _) (by rw [sizeVarint_eq hx']; exact h5)
  rw [maskLast_unrolled32 (by omega), ← anySint_eq htag _ _ hx' (sizeVarint_eq hx')] at this
  simp only [appendAnyInt32, toNat_zigzag (show 0 < 32 by omega), size32 hx]
  exact this

theorem anyInt16_appends (htag : tag.toNat < 16) (x : BitVec 16) :
    Appends (appendAnyInt16 g p tag x) p (anyF tag (.sint x.toInt)) := by
  have hx := zz_lt (by omega) x
  have hx' : zz x.toInt < 2 ^ 64 := by omega
  have h5 := varint_length_le3 hx
  have := unrolled_appends g p (anyHead tag (7 + UInt8.ofNat (sizeVarint (zz x.toInt))) (3 + UInt8.ofNat (sizeVarint (zz x.toInt))) 1 (keyVarint 2))
    (unrolled16 (zz x.toInt)) (n := sizeVarint (zz x.toInt)) (K := 3) rfl (sizeVarint_pos _) (by rw [sizeVarint_eq hx']; exact h5)
  rw [maskLast_unrolled16 (by omega), ← anySint_eq htag _ _ hx' (sizeVarint_eq hx')] at this
  simp only [appendAnyInt16, toNat_zigzag (show 0 < 16 by omega), size16 hx]
  exact this

theorem anyInt8_appends (htag : tag.toNat < 16) (x : BitVec 8) :
    Appends (appendAnyInt8 g p tag x) p (anyF tag (.sint x.toInt)) := by
  have hx := zz_lt (by omega) x
  rw [anySint_eq htag _ _ (by omega) rfl]
  simp only [appendAnyInt8, toNat_zigzag (show 0 < 8 by omega)]
  split
  · rename_i h
    rw [varint_small h]
    exact append_appends g p _
  · rename_i h
    rw [varint_big h, varint_small (by omega)]
    have e1 : zz x.toInt % 128 + 128 = zz x.toInt := by omega
    have e2 : zz x.toInt / 128 = 1 := by omega
    rw [e1, e2]
    exact append_appends g p _

theorem anyOctetsText_appends (htag : tag.toNat < 16) (s : Bytes) (ct : Nat) (hct : ct < 2 ^ 64) :
    Appends (appendAnyText p tag s ct 4 (keyBytes 5)) p (anyF tag (.octets s (optNonZero ct))) := by
  rw [appendAnyText_gen]
  exact textGen_appends htag p s ct 4 5 4 (keyBytes 5) hct (by simp) (by simp [keyBytes5]) 1 2 1 (keyBytes 2)
    (by simp) (by simp [keyBytes2])

theorem anyString_appends (htag : tag.toNat < 16) (s : Bytes) (c : Nat) (hc : c < 2 ^ 64) :
    Appends (appendAnyString p tag s c) p (anyF tag (.string s (optNonZero c))) := by
  rw [appendAnyString, appendAnyText_gen]
  exact textGen_appends htag p s c 8 9 8 (keyBytes 9) hc (by simp) (by simp [keyBytes9]) 1 2 1 (keyBytes 2)
    (by simp) (by simp [keyBytes2])

theorem anyBytes_appends (htag : tag.toNat < 16) (b : Option Bytes) (ct : Nat) (hct : ct < 2 ^ 64) :
    Appends (appendAnyBytes g p tag b ct) p (anyF tag (octetsOrNull b ct)) := by
  cases b with
  | none => exact anyNull_appends htag
  | some b => exact anyOctetsText_appends htag b ct hct

theorem anyTime_appends (htag : tag.toNat < 16) (t : GoTime) :
    Appends (appendAnyTime g p tag t) p (anyF tag (.octets (fmtTime t) none)) := by
  have hl := fmtTime_length t
  have := smallOctets_appends g p tag 1 (keyBytes 2) (fmtTime t) (fun q => append g q (fmtTime t))
    (fun q => append_appends g q _) (fun n => !decide (n ≥ 0x80 - 10)) (by simp; omega)
  rw [anyF, encAny, smallOctets_eq htag (fmtTime t) (by omega) 1 2 1 (keyBytes 2) (by simp) (by simp [keyBytes2])]
  simp only [Bool.not_eq_true', decide_eq_false_iff_not, ite_not] at this
  exact this

theorem anyDuration_appends (htag : tag.toNat < 16) (d : BitVec 64) :
    Appends (appendAnyDuration g p tag d) p (anyF tag (.octets (modelDur d) none)) := by
  have hl := modelDur_length d
  have := smallOctets_appends g p tag 1 (keyBytes 2) (modelDur d) (fun q => appendDuration g q d)
    (fun q => appendDuration_appends g q _) (fun n => true) rfl
  rw [anyF, encAny, smallOctets_eq htag (modelDur d) (by omega) 1 2 1 (keyBytes 2) (by simp) (by simp [keyBytes2])]
  simp only [if_true] at this
  exact this

/-- outcome of `appendAny` -/
def anyRes : Val → Res PScalar := fun v =>
  match argScalarOf modelDur fmtTime v with
  | some s => .ok s
  | none => if argPanics v then .panic else .err .unsupportedType

def PostAny (r : M (Slice × Option Err)) (p : Slice) (tag : UInt8) : Res PScalar → Prop
  | .ok s => r = .error .oom ∨ ∃ sp, r = .ok (⟨p.data ++ anyF tag s, sp⟩, none)
  | .err e => r = .ok (Slice.nil, some e)
  | .panic => r = .error .panic

theorem noErr_post {r : M Slice} {e : Bytes} (h : Appends r p e) :
    noErr r = .error .oom ∨ ∃ sp, noErr r = .ok (⟨p.data ++ e, sp⟩, none) := by
  rcases h with h | ⟨sp, h⟩
  · left; rw [h]; rfl
  · right; exact ⟨sp, by rw [h]; rfl⟩

theorem optNonZero_zero : optNonZero 0 = none := rfl

theorem appendAnySwitch_post (htag : tag.toNat < 16) (v : Val) (hv : ∀ (_ : v = .nil), False) :
    PostAny (appendAnySwitch g p tag v) p tag (anyRes v) := by
  match v with
  | .nil => exact (hv rfl).elim
  | .bool b => exact noErr_post (anyBool_appends htag b)
  | .int8 v => exact noErr_post (anyInt8_appends htag v)
  | .int16 v => exact noErr_post (anyInt16_appends htag v)
  | .int32 v => exact noErr_post (anyInt32_appends htag v)
  | .int64 v => exact noErr_post (anyInt64_appends htag v)
  | .int v => exact noErr_post (anyInt64_appends htag v)
  | .uint8 v => exact noErr_post (anyUint8_appends htag v)
  | .uint16 v => exact noErr_post (anyUint16_appends htag v)
  | .uint32 v => exact noErr_post (anyUint32_appends htag v)
  | .uint64 v => exact noErr_post (anyUint64_appends htag v)
  | .uint v => exact noErr_post (anyUint64_appends htag v)
  | .str s => exact noErr_post (anyString_appends htag s 0 (by omega))
  | .bytes b => exact noErr_post (anyBytes_appends htag b 0 (by omega))
  | .float32 x => exact noErr_post (anyFloat32_appends htag x)
  | .float64 x => exact noErr_post (anyFloat64_appends htag x)
  | .time t => exact noErr_post (anyTime_appends htag t)
  | .duration d => exact noErr_post (anyDuration_appends htag d)
  | .strColl s c => exact noErr_post (anyString_appends htag s c.toNat c.isLt)
  | .xml b => exact noErr_post (anyBytes_appends htag b 3 (by omega))
  | .xmlStr s => exact noErr_post (anyOctetsText_appends htag s 3 (by omega))
  | .json b => exact noErr_post (anyBytes_appends htag b 2 (by omega))
  | .jsonStr s => exact noErr_post (anyOctetsText_appends htag s 2 (by omega))
  | .geometry b => exact noErr_post (anyBytes_appends htag b 1 (by omega))
  | .column _ => rfl
  | .op _ _ => rfl
  | .call _ _ => rfl
  | .variable _ => rfl
  | .placeholder _ => rfl
  | .nilFn => rfl
  | .other => rfl
  | .nilPtr b =>
    cases b with
    | true => rfl
    | false => exact noErr_post (anyNull_appends htag)
  | .ptr v =>
    by_cases hnil : v = .nil
    · subst hnil; rfl
    · have := appendAnySwitch_post htag v (fun h => hnil h)
      rw [appendAnySwitch]
      have e : anyRes (.ptr v) = anyRes v := by
        unfold anyRes
        have : argScalarOf modelDur fmtTime (.ptr v) = argScalarOf modelDur fmtTime v := by
          rw [argScalarOf]; exact fun h => hnil h
        rw [this, argPanics]
      rw [e]; exact this

theorem appendAny_post (htag : tag.toNat < 16) (v : Val) :
    PostAny (appendAny g p tag v) p tag (anyRes v) := by
  unfold appendAny
  split
  · exact noErr_post (anyNull_appends htag)
  · rename_i h; exact appendAnySwitch_post htag v h

end Verif.Proof
