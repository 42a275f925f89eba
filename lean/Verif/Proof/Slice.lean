import Verif.Proof.Wire
/-! Lemmas about the slice model and the hand-written varints. -/
namespace Verif.Proof
open Verif.Go Verif.Spec Verif.Model

/-! ### Monad plumbing -/

@[simp] theorem ok_bind {α β : Type} (a : α) (f : α → M β) : (Except.ok a >>= f : M β) = f a := rfl
@[simp] theorem error_bind {α β : Type} (e : Crash) (f : α → M β) :
    (Except.error e >>= f : M β) = .error e := rfl

/-! ### append, ForAppend, Insert -/

theorem append_cases (g : Grow) (s : Slice) (xs : Bytes) :
    append g s xs = .error .oom ∨
    (s.len + xs.length ≤ maxAlloc ∧ ∃ sp, append g s xs = .ok ⟨s.data ++ xs, sp⟩) := by
  unfold append
  by_cases h : s.len + xs.length ≤ maxAlloc
  · right; refine ⟨h, ?_⟩
    rw [if_pos h]; split <;> exact ⟨_, rfl⟩
  · left; rw [if_neg h]

theorem forAppend_cases (s : Slice) (n : Nat) :
    forAppend s n = .error .oom ∨
    (s.len + n ≤ maxAlloc ∧ ∃ J sp, J.length = n ∧ forAppend s n = .ok ⟨s.data ++ J, sp⟩) := by
  unfold forAppend
  by_cases h : s.len + n ≤ maxAlloc
  · simp only [h, if_true]
    by_cases hc : s.len + n ≤ s.cap
    · right; refine ⟨trivial, ?_⟩
      simp only [hc, if_true, reslice]
      refine ⟨s.spare.take n, (s.data ++ s.spare).drop (s.len + n), ?_, ?_⟩
      · simp [Slice.len, Slice.cap] at hc ⊢; omega
      · congr 2
        simp [Slice.len, List.take_append, Nat.add_sub_cancel_left, List.take_of_length_le]
    · simp only [hc, if_false]
      split
      · right; exact ⟨trivial, _, _, List.length_replicate, rfl⟩
      · left; rfl
  · left; simp [h]

theorem reslice_prefix {s : Slice} {A R : Bytes} {n : Nat} (hd : s.data = A ++ R) (hn : n = A.length) :
    ∃ sp, reslice s n = .ok ⟨A, sp⟩ := by
  subst hn
  refine ⟨R ++ s.spare, ?_⟩
  unfold reslice
  rw [if_pos (by simp [Slice.cap, hd]; omega), hd]
  simp

theorem sliceInsert_cases (g : Grow) (s : Slice) (pos n : Nat) (hp : pos ≤ s.len) (hn : n ≠ 0) :
    sliceInsert g s pos n = .error .oom ∨
    (s.len + n ≤ maxAlloc ∧ ∃ J sp, J.length = n ∧
      sliceInsert g s pos n = .ok ⟨s.data.take pos ++ (J ++ s.data.drop pos), sp⟩) := by
  unfold sliceInsert
  rw [if_neg hn, if_neg (by omega)]
  by_cases hc : pos + n ≤ s.cap
  · rw [if_pos hc]
    simp only [reslice, hc, if_true, ok_bind]
    rcases append_cases g ⟨(s.data ++ s.spare).take (pos + n), (s.data ++ s.spare).drop (pos + n)⟩
      (s.data.drop pos) with h | ⟨hle, sp, h⟩
    · left; exact h
    · right
      simp only [Slice.len, Slice.cap, List.length_take, List.length_append, List.length_drop] at hle hc hp
      refine ⟨by simp [Slice.len]; omega, ((s.data ++ s.spare).take (pos + n)).drop pos, sp, ?_, ?_⟩
      · simp; omega
      · rw [h]
        congr 2
        simp only [← List.append_assoc]
        congr 1
        have : s.data.take pos = ((s.data ++ s.spare).take (pos + n)).take pos := by
          rw [List.take_take, Nat.min_eq_left (by omega), List.take_append_of_le_length (by omega)]
        rw [this, List.take_append_drop]
  · rw [if_neg hc]
    by_cases h : s.len + n + 512 ≤ maxAlloc
    · right; refine ⟨by omega, ?_⟩
      rw [if_pos h]
      exact ⟨_, _, List.length_replicate, by rw [List.append_assoc]⟩
    · left; rw [if_neg h]

/-! ### single writes -/

theorem set_at {s : Slice} {A R : Bytes} {j v : UInt8} {i : Nat} (hd : s.data = A ++ j :: R)
    (hi : i = A.length) : setAt s i v = .ok ⟨A ++ v :: R, s.spare⟩ := by
  subst hi
  simp [setAt, Slice.len, hd]

theorem setAnd_at {s : Slice} {A R : Bytes} {j v : UInt8} {i : Nat} (hd : s.data = A ++ j :: R)
    (hi : i = A.length) : setAnd s i v = .ok ⟨A ++ (j &&& v) :: R, s.spare⟩ := by
  subst hi
  simp [setAnd, hd]

theorem setAdd_at {s : Slice} {A R : Bytes} {j v : UInt8} {i : Nat} (hd : s.data = A ++ j :: R)
    (hi : i = A.length) : setAdd s i v = .ok ⟨A ++ (j + v) :: R, s.spare⟩ := by
  subst hi
  simp [setAdd, hd]

theorem overwrite_nil (d : Bytes) (i : Nat) : overwrite d i [] = d := by
  cases d <;> simp [overwrite]

theorem overwrite_exact (A J R xs : Bytes) (h : J.length = xs.length) :
    overwrite (A ++ (J ++ R)) A.length xs = A ++ (xs ++ R) := by
  induction A with
  | nil =>
    induction J generalizing xs with
    | nil => cases xs <;> simp_all [overwrite_nil]
    | cons j J ih =>
      cases xs with
      | nil => simp at h
      | cons x xs =>
        have := ih xs (by simpa using h)
        simp [overwrite] at this ⊢; exact this
  | cons a A ih =>
    cases xs with
    | nil => simp [overwrite_nil]; simpa using h
    | cons x xs => simpa [overwrite] using ih

theorem copyAt_exact {s : Slice} {A J R xs : Bytes} {i : Nat} (hd : s.data = A ++ (J ++ R))
    (hJ : J.length = xs.length) (hi : i = A.length) :
    copyAt s i xs = .ok (⟨A ++ (xs ++ R), s.spare⟩, xs.length) := by
  subst hi
  simp only [copyAt, Slice.len, hd, overwrite_exact A J R xs hJ]
  simp
  omega

/-! ### varints -/

theorem or_128 {x : Nat} (h : x < 128) : x ||| 128 = x + 128 := by
  have := Nat.two_pow_add_eq_or_of_lt (i := 7) (b := x) (by omega) 1
  rw [Nat.or_comm]; simp at this; omega

theorem ofNat_or_128 (x : Nat) : UInt8.ofNat x ||| 0x80 = UInt8.ofNat (x % 128 + 128) := by
  apply UInt8.toNat_inj.mp
  simp only [UInt8.toNat_or, UInt8.toNat_ofNat', UInt8.reduceToNat]
  have h1 : x % 2 ^ 8 ||| 128 = (x % 2 ^ 7 + 128) := by
    apply Nat.eq_of_testBit_eq
    intro i
    rw [← or_128 (x := x % 2 ^ 7) (by omega)]
    have h128 : Nat.testBit 128 i = decide (i = 7) := by
      have : (128 : Nat) = 2 ^ 7 := rfl
      rw [this, Nat.testBit_two_pow]
      simp [eq_comm]
    simp only [Nat.testBit_or, Nat.testBit_mod_two_pow, h128]
    by_cases hi : i = 7
    · simp [hi]
    · have : decide (i < 8) = decide (i < 7) := by simp; omega
      simp [hi, this]
  rw [h1]; omega

theorem ofNat_and_127 (x : Nat) : UInt8.ofNat x &&& 0x7F = UInt8.ofNat (x % 128) := by
  apply UInt8.toNat_inj.mp
  simp only [UInt8.toNat_and, UInt8.toNat_ofNat', UInt8.reduceToNat]
  have : (127 : Nat) = 2 ^ 7 - 1 := rfl
  rw [this, Nat.and_two_pow_sub_one_eq_mod]
  omega

theorem cont_eq (x k : Nat) : cont x k = UInt8.ofNat (x / 2 ^ k % 128 + 128) := by
  rw [cont, ofNat_or_128, Nat.shiftRight_eq_div_pow]

theorem cont_and (x k : Nat) : cont x k &&& 0x7F = UInt8.ofNat (x / 2 ^ k % 128) := by
  rw [cont_eq, ofNat_and_127]; congr 1; omega

theorem varint_length_eq {k x : Nat} (h1 : x < 128 ^ (k + 1)) (h2 : k = 0 ∨ 128 ^ k ≤ x) :
    (varint x).length = k + 1 := by
  induction k generalizing x with
  | zero => rw [varint_small (by simpa using h1)]; rfl
  | succ k ih =>
    have hx : 128 ^ (k + 1) ≤ x := by rcases h2 with h | h; omega; exact h
    have h128 : ¬ x < 128 := by
      have : 128 ^ 1 ≤ 128 ^ (k + 1) := Nat.pow_le_pow_right (by omega) (by omega)
      omega
    rw [varint_big h128]
    rw [Nat.pow_succ] at h1 hx
    have := ih (x := x / 128) (by rw [Nat.div_lt_iff_lt_mul (by omega)]; exact h1)
      (by right; rw [Nat.le_div_iff_mul_le (by omega)]; exact hx)
    simp [this]

theorem bitLen_le {x k : Nat} (h : x < 2 ^ k) : bitLen x ≤ k := by
  unfold bitLen
  split
  · omega
  · rename_i h0
    have := (Nat.log2_lt h0).2 h
    omega

theorem lt_bitLen {x k : Nat} (h : 2 ^ k ≤ x) : k < bitLen x := by
  unfold bitLen
  have h0 : x ≠ 0 := by have := Nat.two_pow_pos k; omega
  rw [if_neg h0]
  have := (Nat.le_log2 h0).2 h
  omega

/-- `x` needs `k+1` varint bytes -/
theorem varint_band (x : Nat) (h : x < 2 ^ 64) :
    ∃ k, k < 10 ∧ x < 128 ^ (k + 1) ∧ (k = 0 ∨ 128 ^ k ≤ x) := by
  by_cases h0 : x < 128 ^ 1; · exact ⟨0, by omega, h0, .inl rfl⟩
  by_cases h1 : x < 128 ^ 2; · exact ⟨1, by omega, h1, by right; omega⟩
  by_cases h2 : x < 128 ^ 3; · exact ⟨2, by omega, h2, by right; omega⟩
  by_cases h3 : x < 128 ^ 4; · exact ⟨3, by omega, h3, by right; omega⟩
  by_cases h4 : x < 128 ^ 5; · exact ⟨4, by omega, h4, by right; omega⟩
  by_cases h5 : x < 128 ^ 6; · exact ⟨5, by omega, h5, by right; omega⟩
  by_cases h6 : x < 128 ^ 7; · exact ⟨6, by omega, h6, by right; omega⟩
  by_cases h7 : x < 128 ^ 8; · exact ⟨7, by omega, h7, by right; omega⟩
  by_cases h8 : x < 128 ^ 9; · exact ⟨8, by omega, h8, by right; omega⟩
  exact ⟨9, by omega, by omega, by right; omega⟩

theorem size_formula {x k : Nat} (hk : k < 10) (hx : x < 2 ^ 64) (h1 : x < 128 ^ (k + 1))
    (h2 : k = 0 ∨ 128 ^ k ≤ x) : (9 * bitLen x + 64) / 64 = k + 1 := by
  have e1 : (128 : Nat) ^ (k + 1) = 2 ^ (7 * (k + 1)) := by rw [Nat.pow_mul]
  have e2 : (128 : Nat) ^ k = 2 ^ (7 * k) := by rw [Nat.pow_mul]
  have u := bitLen_le (e1 ▸ h1)
  have u2 := bitLen_le hx
  have l : k = 0 ∨ 7 * k < bitLen x := h2.imp id (fun h => lt_bitLen (e2 ▸ h))
  rcases l with rfl | l
  · omega
  · omega

theorem sizeVarint_eq {x : Nat} (h : x < 2 ^ 64) : sizeVarint x = (varint x).length := by
  obtain ⟨k, hk, h1, h2⟩ := varint_band x h
  rw [varint_length_eq h1 h2, sizeVarint, Nat.min_eq_left (by omega), size_formula hk h h1 h2]

theorem sizeVarint32_eq {x : Nat} (h : x < 2 ^ 32) : sizeVarint32 x = (varint x).length := by
  obtain ⟨k, hk, h1, h2⟩ := varint_band x (by omega)
  rw [varint_length_eq h1 h2, sizeVarint32, Nat.mod_eq_of_lt h, size_formula hk (by omega) h1 h2]

theorem sizeVarint16_eq {x : Nat} (h : x < 2 ^ 16) : sizeVarint16 x = (varint x).length := by
  obtain ⟨k, hk, h1, h2⟩ := varint_band x (by omega)
  rw [varint_length_eq h1 h2, sizeVarint16, Nat.mod_eq_of_lt h, size_formula hk (by omega) h1 h2]

theorem varint_length_le10 {x : Nat} (h : x < 2 ^ 64) : (varint x).length ≤ 10 :=
  varint_length_le 9 x (by omega)

theorem varint_length_le5 {x : Nat} (h : x < 2 ^ 32) : (varint x).length ≤ 5 :=
  varint_length_le 4 x (by omega)

theorem varint_length_le3 {x : Nat} (h : x < 2 ^ 16) : (varint x).length ≤ 3 :=
  varint_length_le 2 x (by omega)

theorem sizeVarint_pos (x : Nat) : 1 ≤ sizeVarint x := by unfold sizeVarint; omega

theorem sizeVarint_le10 (x : Nat) : sizeVarint x ≤ 10 := by
  have := bitLen_le (show min x (2 ^ 64 - 1) < 2 ^ 64 by omega)
  unfold sizeVarint; omega

theorem sizeVarint_huge {x : Nat} (h : ¬ x < 2 ^ 64) : sizeVarint x = 10 := by
  rw [sizeVarint, Nat.min_eq_right (by omega)]; rfl

/-- writing a varint into the space reserved for it -/
theorem putUvarintLoop_at (f : Nat) : ∀ {s : Slice} {A J R : Bytes} {x i : Nat},
    x < 128 ^ (f + 1) → s.data = A ++ (J ++ R) → J.length = (varint x).length → i = A.length →
    putUvarintLoop (f + 1) s i x =
      .ok (⟨A ++ (varint x ++ R), s.spare⟩, i + (varint x).length) := by
  induction f with
  | zero =>
    intro s A J R x i hx hd hJ hi
    have hx : x < 128 := by simpa using hx
    rw [varint_small hx] at hJ ⊢
    match J, hJ with
    | [j], _ =>
      rw [putUvarintLoop, if_pos hx, set_at hd hi]
      simp
  | succ f ih =>
    intro s A J R x i hx hd hJ hi
    by_cases h : x < 128
    · rw [varint_small h] at hJ ⊢
      match J, hJ with
      | [j], _ =>
        rw [putUvarintLoop, if_pos h, set_at hd hi]
        simp
    · rw [varint_big h] at hJ ⊢
      match J, hJ with
      | j :: J, hJ =>
        rw [putUvarintLoop, if_neg h, set_at (j := j) (R := J ++ R) (by simpa using hd) hi]
        simp only [ok_bind, Nat.shiftRight_eq_div_pow]
        rw [ih (A := A ++ [UInt8.ofNat x ||| 0x80]) (J := J) (R := R)]
        · simp [ofNat_or_128]; omega
        · rw [Nat.div_lt_iff_lt_mul (by omega)]; rw [Nat.pow_succ] at hx; omega
        · simp
        · simpa using hJ
        · simp [hi]

theorem putUvarint_at {s : Slice} {A J R : Bytes} {x i : Nat} (hx : x < 2 ^ 64)
    (hd : s.data = A ++ (J ++ R)) (hJ : J.length = (varint x).length) (hi : i = A.length) :
    putUvarint s i x = .ok (⟨A ++ (varint x ++ R), s.spare⟩, (varint x).length) := by
  unfold putUvarint
  simp only [Nat.mod_eq_of_lt hx]
  by_cases h : x < 128
  · rw [if_pos h]
    rw [varint_small h] at hJ ⊢
    match J, hJ with
    | [j], _ => rw [set_at hd hi]; simp
  · rw [if_neg h, putUvarintLoop_at 9 (by omega) hd hJ hi]
    simp

/-- mask the top bit of the last byte -/
def maskLast (L : Bytes) : Bytes :=
  match L.getLast? with
  | some b => L.dropLast ++ [b &&& 0x7F]
  | none => []

/-- `n += len(p) - K; p[n-1] &= 0x7F; p = p[:n]` after appending `K` unrolled bytes. -/
theorem finish_varint {pre L : Bytes} {sp : Bytes} {n : Nat} (h1 : 1 ≤ n) (h2 : n ≤ L.length) :
    ∃ sp', (do
      let p ← setAnd (⟨pre ++ L, sp⟩ : Slice) (pre.length + n - 1) 0x7F
      reslice p (pre.length + n)) = .ok ⟨pre ++ maskLast (L.take n), sp'⟩ := by
  obtain ⟨m, rfl⟩ : ∃ m, n = m + 1 := ⟨n - 1, by omega⟩
  have hm : m < L.length := by omega
  have e : L = L.take m ++ L[m] :: L.drop (m + 1) := by simp
  have e2 : maskLast (L.take (m + 1)) = L.take m ++ [L[m] &&& 0x7F] := by
    rw [List.take_succ_eq_append_getElem hm]
    simp [maskLast, -List.take_append_getElem]
  rw [setAnd_at (A := pre ++ L.take m) (j := L[m]) (R := L.drop (m + 1)) (by simp)
    (by simp; omega)]
  rw [e2]
  rw [ok_bind]
  exact reslice_prefix (R := L.drop (m + 1)) (by simp) (by simp; omega)

theorem mask_contList (f : Nat → UInt8) (x k : Nat) (hf : ∀ i, i ≤ k → f i &&& 0x7F = UInt8.ofNat (x / 2 ^ (7 * i) % 128))
    (hc : ∀ i, i < k → f i = UInt8.ofNat (x / 2 ^ (7 * i) % 128 + 128))
    (h1 : x < 128 ^ (k + 1)) (h2 : k = 0 ∨ 128 ^ k ≤ x) :
    (List.range k).map f ++ [f k &&& 0x7F] = varint x := by
  induction k generalizing x f with
  | zero =>
    have : x < 128 := by simpa using h1
    have h0 := hf 0 (by omega)
    simp [varint_small this, h0, Nat.mod_eq_of_lt this]
  | succ k ih =>
    have hx : 128 ^ (k + 1) ≤ x := by rcases h2 with h | h; omega; exact h
    have h128 : ¬ x < 128 := by
      have : 128 ^ 1 ≤ 128 ^ (k + 1) := Nat.pow_le_pow_right (by omega) (by omega)
      omega
    rw [varint_big h128, List.range_succ_eq_map]
    rw [Nat.pow_succ] at h1 hx
    have dd : ∀ i, x / 2 ^ (7 * (i + 1)) = x / 128 / 2 ^ (7 * i) := by
      intro i
      rw [Nat.div_div_eq_div_mul]
      congr 1
      rw [show 7 * (i + 1) = 7 + 7 * i by omega, Nat.pow_add]
    have := ih (fun i => f (i + 1)) (x / 128)
      (fun i hi => by have := hf (i + 1) (by omega); rwa [dd] at this)
      (fun i hi => by have := hc (i + 1) (by omega); rwa [dd] at this)
      (by rw [Nat.div_lt_iff_lt_mul (by omega)]; exact h1)
      (by right; rw [Nat.le_div_iff_mul_le (by omega)]; exact hx)
    rw [← this]
    have h0 := hc 0 (by omega)
    simp at h0
    simp [h0, Function.comp_def]

theorem maskLast_unrolled {L : Bytes} {x k : Nat} (hL : k < L.length)
    (hf : ∀ i, i ≤ k → (L.getD i 0) &&& 0x7F = UInt8.ofNat (x / 2 ^ (7 * i) % 128))
    (hc : ∀ i, i < k → L.getD i 0 = UInt8.ofNat (x / 2 ^ (7 * i) % 128 + 128))
    (h1 : x < 128 ^ (k + 1)) (h2 : k = 0 ∨ 128 ^ k ≤ x) :
    maskLast (L.take (k + 1)) = varint x := by
  rw [← mask_contList (fun i => L.getD i 0) x k hf hc h1 h2]
  rw [List.take_succ_eq_append_getElem hL]
  simp [hL, maskLast, -List.take_append_getElem]
  apply List.ext_getElem
  · simp; omega
  · intro i h1 h2
    simp at h1 h2
    simp [List.getElem?_eq_getElem (show i < L.length by omega)]

theorem maskLast_unrolled64 {x : Nat} (h : x < 2 ^ 64) :
    maskLast ((unrolled64 x).take (sizeVarint x)) = varint x := by
  obtain ⟨k, hk, h1, h2⟩ := varint_band x h
  rw [sizeVarint_eq h, varint_length_eq h1 h2]
  apply maskLast_unrolled (by simp [unrolled64]; omega) _ _ h1 h2
  · intro i hi
    match i with
    | 0 | 1 | 2 | 3 | 4 | 5 | 6 | 7 => simp [unrolled64, cont_and]
    | 8 => simp [unrolled64, ofNat_and_127, Nat.shiftRight_eq_div_pow]
    | 9 =>
      have : x / 2 ^ 63 % 128 = 1 := by
        have : k = 9 := by omega
        subst this; omega
      simp at this
      simp [unrolled64, this]; decide
    | i + 10 => omega
  · intro i hi
    match i with
    | 0 | 1 | 2 | 3 | 4 | 5 | 6 | 7 => simp [unrolled64, cont_eq]
    | 8 =>
      have : k = 9 := by omega
      subst this
      have h63 : 2 ^ 63 ≤ x := by omega
      simp [unrolled64, Nat.shiftRight_eq_div_pow]
      apply UInt8.toNat_inj.mp
      simp
      omega
    | i + 9 => omega

theorem maskLast_unrolled64' {x : Nat} (h : x < 2 ^ 64) :
    maskLast ((unrolled64' x).take (sizeVarint x)) = varint x := by
  obtain ⟨k, hk, h1, h2⟩ := varint_band x h
  rw [sizeVarint_eq h, varint_length_eq h1 h2]
  apply maskLast_unrolled (by simp [unrolled64']; omega) _ _ h1 h2
  · intro i hi
    match i with
    | 0 | 1 | 2 | 3 | 4 | 5 | 6 | 7 | 8 => simp [unrolled64', cont_and]
    | 9 =>
      have : x / 2 ^ 63 % 128 = 1 := by
        have : k = 9 := by omega
        subst this; omega
      simp at this
      simp [unrolled64', this]; decide
    | i + 10 => omega
  · intro i hi
    match i with
    | 0 | 1 | 2 | 3 | 4 | 5 | 6 | 7 | 8 => simp [unrolled64', cont_eq]
    | i + 9 => omega

theorem maskLast_unrolled32 {x : Nat} (h : x < 2 ^ 35) :
    maskLast ((unrolled32 x).take (sizeVarint x)) = varint x := by
  obtain ⟨k, hk, h1, h2⟩ := varint_band x (by omega)
  rw [sizeVarint_eq (by omega), varint_length_eq h1 h2]
  have hk5 : k < 5 := by
    rcases h2 with h2 | h2
    · omega
    · by_cases h5 : k < 5
      · exact h5
      · have := Nat.pow_le_pow_right (show 1 ≤ 128 by omega) (show 5 ≤ k by omega)
        omega
  apply maskLast_unrolled (by simp [unrolled32]; omega) _ _ h1 h2
  · intro i hi
    match i with
    | 0 | 1 | 2 | 3 => simp [unrolled32, cont_and]
    | 4 => simp [unrolled32, ofNat_and_127, Nat.shiftRight_eq_div_pow]
    | i + 5 => omega
  · intro i hi
    match i with
    | 0 | 1 | 2 | 3 => simp [unrolled32, cont_eq]
    | i + 4 => omega

theorem maskLast_unrolled16 {x : Nat} (h : x < 2 ^ 16) :
    maskLast ((unrolled16 x).take (sizeVarint x)) = varint x := by
  obtain ⟨k, hk, h1, h2⟩ := varint_band x (by omega)
  rw [sizeVarint_eq (by omega), varint_length_eq h1 h2]
  have hk5 : k < 3 := by
    rcases h2 with h2 | h2
    · omega
    · by_cases h5 : k < 3
      · exact h5
      · have := Nat.pow_le_pow_right (show 1 ≤ 128 by omega) (show 3 ≤ k by omega)
        omega
  apply maskLast_unrolled (by simp [unrolled16]; omega) _ _ h1 h2
  · intro i hi
    match i with
    | 0 | 1 => simp [unrolled16, cont_and]
    | 2 => simp [unrolled16, ofNat_and_127, Nat.shiftRight_eq_div_pow]
    | i + 3 => omega
  · intro i hi
    match i with
    | 0 | 1 => simp [unrolled16, cont_eq]
    | i + 2 => omega

end Verif.Proof
