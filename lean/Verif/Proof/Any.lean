import Verif.Proof.Slice
import Verif.Spec.Meaning
import Verif.Model.Any
/-! The argument encoders append the canonical encoding of the scalar. -/
namespace Verif.Proof
open Verif.Go Verif.Spec Verif.Model

/-- `r` appends `e` to `p` unless memory runs out. -/
def Appends (r : M Slice) (p : Slice) (e : Bytes) : Prop :=
  r = .error .oom ∨ ∃ sp, r = .ok ⟨p.data ++ e, sp⟩

theorem append_appends (g : Grow) (p : Slice) (xs : Bytes) : Appends (append g p xs) p xs := by
  rcases append_cases g p xs with h | ⟨_, sp, h⟩
  · exact .inl h
  · exact .inr ⟨sp, h⟩

/-! ### canonical encodings -/

def zz (v : Int) : Nat := if v < 0 then (-(2 * v + 1)).toNat else (2 * v).toNat

def optField (t : Nat) : Option Nat → List Field
  | none => []
  | some v => [(t, .varint v)]

def encScalar : PScalar → Bytes
  | .sint v => encFields [(1, .varint 1), (2, .varint (zz v))]
  | .uint v => encFields [(1, .varint 2), (3, .varint v)]
  | .null => encFields [(1, .varint 3)]
  | .octets b ct => encFields [(1, .varint 4), (5, .bytes (encFields (optField 2 ct ++ [(1, .bytes b)])))]
  | .double x => encFields [(1, .varint 5), (6, .fixed64 x)]
  | .float x => encFields [(1, .varint 6), (7, .fixed32 x)]
  | .bool b => encFields [(1, .varint 7), (8, .varint (if b then 1 else 0))]
  | .string b c => encFields [(1, .varint 8), (9, .bytes (encFields (optField 2 c ++ [(1, .bytes b)])))]

def encAny (s : PScalar) : Bytes := encFields [(1, .varint 1), (2, .bytes (encScalar s))]

/-! ### keys and small varints -/

theorem keyBytes_eq {tag : UInt8} (h : tag.toNat < 16) : varint (tag.toNat * 8 + 2) = [keyBytes tag] := by
  rw [varint_small (by omega)]
  congr 1
  apply UInt8.toNat_inj.mp
  rw [keyBytes]
  have : ∀ t : Fin 16, (UInt8.ofNat (t.val * 8 + 2)).toNat = (UInt8.ofNat t.val <<< 3 ||| 2).toNat := by decide
  have := this ⟨tag.toNat, h⟩
  simpa using this

theorem ofNat_add (a b : Nat) : UInt8.ofNat (a + b) = UInt8.ofNat a + UInt8.ofNat b := by
  apply UInt8.toNat_inj.mp; simp

@[simp] theorem varint_lit0 : varint 0 = [0] := by simp [varint_small]
@[simp] theorem varint_lit1 : varint 1 = [1] := by simp [varint_small]
@[simp] theorem varint_lit2 : varint 2 = [2] := by simp [varint_small]
@[simp] theorem varint_lit3 : varint 3 = [3] := by simp [varint_small]
@[simp] theorem varint_lit4 : varint 4 = [4] := by simp [varint_small]
@[simp] theorem varint_lit5 : varint 5 = [5] := by simp [varint_small]
@[simp] theorem varint_lit6 : varint 6 = [6] := by simp [varint_small]
@[simp] theorem varint_lit7 : varint 7 = [7] := by simp [varint_small]
@[simp] theorem varint_lit8 : varint 8 = [8] := by simp [varint_small]
@[simp] theorem varint_lit10 : varint 10 = [10] := by simp [varint_small]
@[simp] theorem varint_lit11 : varint 11 = [11] := by simp [varint_small]
@[simp] theorem varint_lit15 : varint 15 = [15] := by simp [varint_small]
@[simp] theorem varint_lit16 : varint 16 = [16] := by simp [varint_small]
@[simp] theorem varint_lit18 : varint 18 = [18] := by simp [varint_small]
@[simp] theorem varint_lit24 : varint 24 = [24] := by simp [varint_small]
@[simp] theorem varint_lit26 : varint 26 = [26] := by simp [varint_small]
@[simp] theorem varint_lit34 : varint 34 = [34] := by simp [varint_small]
@[simp] theorem varint_lit42 : varint 42 = [42] := by simp [varint_small]
@[simp] theorem varint_lit49 : varint 49 = [49] := by simp [varint_small]
@[simp] theorem varint_lit50 : varint 50 = [50] := by simp [varint_small]
@[simp] theorem varint_lit56 : varint 56 = [56] := by simp [varint_small]
@[simp] theorem varint_lit58 : varint 58 = [58] := by simp [varint_small]
@[simp] theorem varint_lit61 : varint 61 = [61] := by simp [varint_small]
@[simp] theorem varint_lit64 : varint 64 = [64] := by simp [varint_small]
@[simp] theorem varint_lit74 : varint 74 = [74] := by simp [varint_small]

theorem keyVarint1 : keyVarint 1 = 8 := rfl
theorem keyVarint2 : keyVarint 2 = 16 := rfl
theorem keyVarint3 : keyVarint 3 = 24 := rfl
theorem keyVarint7 : keyVarint 7 = 56 := rfl
theorem keyVarint8 : keyVarint 8 = 64 := rfl
theorem keyBytes1 : keyBytes 1 = 10 := rfl
theorem keyBytes2 : keyBytes 2 = 18 := rfl
theorem keyBytes3 : keyBytes 3 = 26 := rfl
theorem keyBytes4 : keyBytes 4 = 34 := rfl
theorem keyBytes5 : keyBytes 5 = 42 := rfl
theorem keyBytes6 : keyBytes 6 = 50 := rfl
theorem keyBytes7 : keyBytes 7 = 58 := rfl
theorem keyBytes9 : keyBytes 9 = 74 := rfl
theorem keyFixed64_6 : keyFixed64 6 = 49 := rfl
theorem keyFixed32_7 : keyFixed32 7 = 61 := rfl

/-- a field holding fewer than 128 bytes -/
theorem encField_bytes {tag : UInt8} (h : tag.toNat < 16) (b : Bytes) :
    encField (tag.toNat, .bytes b) = keyBytes tag :: (varint b.length ++ b) := by
  simp [encField, keyBytes_eq h]

/-! ### fixed shapes -/

theorem unrolled_appends (g : Grow) (p : Slice) (head L : Bytes) {n K : Nat} (hK : L.length = K)
    (h1 : 1 ≤ n) (h2 : n ≤ K) :
    Appends (append g p (head ++ L) >>= fun q =>
      setAnd q (n + q.len - K - 1) 0x7F >>= fun r => reslice r (n + q.len - K)) p
      (head ++ maskLast (L.take n)) := by
  subst hK
  rcases append_cases g p (head ++ L) with h | ⟨_, sp, h⟩
  · left; rw [h]; rfl
  · right
    rw [h, ok_bind]
    have e : n + (⟨p.data ++ (head ++ L), sp⟩ : Slice).len - L.length = (p.data ++ head).length + n := by
      simp [Slice.len]; omega
    rw [e]
    have := finish_varint (pre := p.data ++ head) (sp := sp) h1 h2
    obtain ⟨sp', hs⟩ := this
    exact ⟨sp', by rw [← List.append_assoc]; simpa using hs⟩

theorem encInt_eq {tag : UInt8} (h : tag.toNat < 16) (x n a b : Nat) (A B : UInt8) (hx : x < 2 ^ 64)
    (hn : n = (varint x).length) (k1 : varint (a * 8) = [A]) (t st : Nat) (ht : t < 128) (hst : st < 128)
    (k2 : varint (b * 8 + 2) = [B]) :
    encField (tag.toNat, .bytes (encFields [(1, .varint t), (b, .bytes (encFields [(1, .varint st), (a, .varint x)]))]))
      = [keyBytes tag, 7 + UInt8.ofNat n, keyVarint 1, UInt8.ofNat t, B, 3 + UInt8.ofNat n, keyVarint 1,
          UInt8.ofNat st, A] ++ varint x := by
  subst hn
  have hl := varint_length_le10 hx
  rw [encField_bytes h]
  simp [encFields, encField, k1, k2, varint_small ht, varint_small hst]
  rw [varint_small (x := (varint x).length + 1 + 1 + 1) (by omega)]
  simp
  rw [varint_small (by omega)]
  simp [keyVarint1]
  constructor
  · apply UInt8.toNat_inj.mp; simp; omega
  · apply UInt8.toNat_inj.mp; simp; omega

theorem fixed4 (x : Nat) : fixed 4 x =
    [UInt8.ofNat x, UInt8.ofNat (x >>> 8), UInt8.ofNat (x >>> 16), UInt8.ofNat (x >>> 24)] := by
  simp only [fixed, Nat.shiftRight_eq_div_pow, Nat.div_div_eq_div_mul]
  congr 1
  · apply UInt8.toNat_inj.mp; simp
  congr 1
  · apply UInt8.toNat_inj.mp; simp
  congr 1
  · apply UInt8.toNat_inj.mp; simp
  congr 1
  · apply UInt8.toNat_inj.mp; simp

theorem fixed8 (x : Nat) : fixed 8 x =
    [UInt8.ofNat x, UInt8.ofNat (x >>> 8), UInt8.ofNat (x >>> 16), UInt8.ofNat (x >>> 24),
     UInt8.ofNat (x >>> 32), UInt8.ofNat (x >>> 40), UInt8.ofNat (x >>> 48), UInt8.ofNat (x >>> 56)] := by
  simp only [fixed, Nat.shiftRight_eq_div_pow, Nat.div_div_eq_div_mul]
  iterate 8 (congr 1; · (apply UInt8.toNat_inj.mp; simp))

/-! ### zigzag -/

theorem toNat_zigzag {w : Nat} (hw : 0 < w) (v : BitVec w) : (zigzag v).toNat = zz v.toInt := by
  have hlt := v.isLt
  have hp : 2 ^ w = 2 * 2 ^ (w - 1) := by rw [← Nat.pow_succ']; congr 1; omega
  have hpi : (2 : Int) ^ w = 2 * 2 ^ (w - 1) := by exact_mod_cast hp
  have hpos := Nat.two_pow_pos (w - 1)
  cases hm : v.msb with
  | false =>
    have h2 : 2 * v.toNat < 2 ^ w := by
      have := BitVec.msb_eq_false_iff_two_mul_lt.mp hm; exact this
    have hs : v.sshiftRight (w - 1) = 0#w := by
      rw [BitVec.sshiftRight_eq_of_msb_false hm]
      apply BitVec.eq_of_toNat_eq
      simp [Nat.shiftRight_eq_div_pow]; omega
    rw [zigzag, hs, BitVec.toInt_eq_toNat_of_msb hm]
    simp [zz, Nat.shiftLeft_eq]
    rw [if_neg (by omega)]
    have : v.toNat * 2 < 2 ^ w := by omega
    rw [Nat.mod_eq_of_lt this]; omega
  | true =>
    have h2 : 2 ^ w ≤ 2 * v.toNat := BitVec.msb_eq_true_iff_two_mul_ge.mp hm
    have hs : v.sshiftRight (w - 1) = BitVec.allOnes w := by
      rw [BitVec.sshiftRight_eq_of_msb_true hm]
      apply BitVec.eq_of_toNat_eq
      rw [BitVec.toNat_not, BitVec.toNat_ushiftRight, BitVec.toNat_not, BitVec.toNat_allOnes,
        Nat.shiftRight_eq_div_pow, Nat.div_eq_of_lt (by omega)]
      omega
    rw [zigzag, hs, BitVec.xor_allOnes, BitVec.toNat_not, BitVec.toNat_shiftLeft, Nat.shiftLeft_eq,
      BitVec.toInt_eq_msb_cond, hm]
    have e : v.toNat * 2 ^ 1 % 2 ^ w = 2 * v.toNat - 2 ^ w := by
      rw [Nat.mod_eq_sub_mod (by omega), Nat.mod_eq_of_lt (by omega)]; omega
    rw [e]
    simp only [if_true, zz]
    rw [if_pos (by norm_cast; omega)]
    have : ((2 : Nat) : Int) ^ w = ((2 ^ w : Nat) : Int) := by norm_cast
    omega

theorem unzigzag_zz (v : Int) : unzigzag (zz v) = v := by
  unfold unzigzag zz
  split <;> split <;> omega

theorem zz_lt {w : Nat} (hw : 0 < w) (v : BitVec w) : zz v.toInt < 2 ^ w := by
  rw [← toNat_zigzag hw]; exact (zigzag v).isLt


/-! ### filling reserved space -/

/-- `s` holds `A` followed by `n` bytes still to be filled; `i` is the index of the first of them. -/
def At (s : Slice) (i : Nat) (A : Bytes) (n : Nat) : Prop :=
  ∃ J, s.data = A ++ J ∧ J.length = n ∧ i = A.length

theorem At.done {s : Slice} {i : Nat} {A : Bytes} (h : At s i A 0) : s.data = A := by
  obtain ⟨J, h1, h2, h3⟩ := h
  simp [List.eq_nil_of_length_eq_zero h2] at h1; exact h1

theorem At.done' {s : Slice} {i n : Nat} {A : Bytes} (h : At s i A n) (hn : n = 0) : s.data = A :=
  At.done (hn ▸ h)

theorem split_at {J : Bytes} {n m : Nat} (h : J.length = n) (hm : m ≤ n) :
    ∃ K R, J = K ++ R ∧ K.length = m ∧ R.length = n - m :=
  ⟨J.take m, J.drop m, by simp, by simp; omega, by simp [h]⟩

/-- `b[0] = v; b = b[1:]` -/
theorem At.set {s : Slice} {i : Nat} {A : Bytes} {n : Nat} (v : UInt8) (h : At s i A n) (hn : 1 ≤ n) :
    ∃ s', setAt s i v = .ok s' ∧ At s' (i + 1) (A ++ [v]) (n - 1) := by
  obtain ⟨J, h1, h2, h3⟩ := h
  obtain ⟨K, R, rfl, hK, hR⟩ := split_at h2 hn
  match K, hK with
  | [j], _ =>
    refine ⟨_, set_at (by simpa using h1) h3, R, ?_, hR, ?_⟩
    · simp
    · simp [h3]

/-- `putUvarint(b, x)` -/
theorem At.put {s : Slice} {i : Nat} {A : Bytes} {n : Nat} {x : Nat} (h : At s i A n) (hx : x < 2 ^ 64)
    (hn : (varint x).length ≤ n) :
    ∃ s', putUvarint s i x = .ok (s', (varint x).length) ∧
      At s' (i + (varint x).length) (A ++ varint x) (n - (varint x).length) := by
  obtain ⟨J, h1, h2, h3⟩ := h
  obtain ⟨K, R, rfl, hK, hR⟩ := split_at h2 hn
  refine ⟨_, putUvarint_at hx h1 hK h3, R, ?_, hR, ?_⟩
  · simp
  · simp [h3]

/-- `copy(b, xs)` -/
theorem At.copy {s : Slice} {i : Nat} {A : Bytes} {n : Nat} (xs : Bytes) (h : At s i A n)
    (hn : xs.length ≤ n) :
    ∃ s', copyAt s i xs = .ok (s', xs.length) ∧
      At s' (i + xs.length) (A ++ xs) (n - xs.length) := by
  obtain ⟨J, h1, h2, h3⟩ := h
  obtain ⟨K, R, rfl, hK, hR⟩ := split_at h2 hn
  refine ⟨_, copyAt_exact h1 hK h3, R, ?_, hR, ?_⟩
  · simp
  · simp [h3]

/-- `i = putUvarint(b[1:], x); b[0] = v; b = b[1+i:]` -/
theorem At.fill1 {s : Slice} {i : Nat} {A : Bytes} {n : Nat} {x : Nat} (v : UInt8) (h : At s i A n)
    (hx : x < 2 ^ 64) (hn : 1 + (varint x).length ≤ n) :
    ∃ s1 s2, putUvarint s (i + 1) x = .ok (s1, (varint x).length) ∧ setAt s1 i v = .ok s2 ∧
      At s2 (i + (1 + (varint x).length)) (A ++ v :: varint x) (n - (1 + (varint x).length)) := by
  obtain ⟨J, h1, h2, h3⟩ := h
  obtain ⟨K, R, rfl, hK, hR⟩ := split_at h2 hn
  match K with
  | [] => simp at hK; omega
  | j :: K =>
    have hK : K.length = (varint x).length := by simp at hK; omega
    refine ⟨_, _, putUvarint_at (A := A ++ [j]) (J := K) (R := R) hx (by simpa using h1) hK (by simp [h3]),
      set_at (A := A) (j := j) (R := varint x ++ R) (by simp) h3, R, by simp, hR, ?_⟩
    simp; omega

/-- `i = putUvarint(b[3:], x); b[0] = u; b[1] = v; b[2] = w; b = b[3+i:]` -/
theorem At.fill3 {s : Slice} {i : Nat} {A : Bytes} {n : Nat} {x : Nat} (u v w : UInt8) (h : At s i A n)
    (hx : x < 2 ^ 64) (hn : 3 + (varint x).length ≤ n) :
    ∃ s1 s2 s3 s4, putUvarint s (i + 3) x = .ok (s1, (varint x).length) ∧ setAt s1 i u = .ok s2 ∧
      setAt s2 (i + 1) v = .ok s3 ∧ setAt s3 (i + 2) w = .ok s4 ∧
      At s4 (i + (3 + (varint x).length)) (A ++ u :: v :: w :: varint x) (n - (3 + (varint x).length)) := by
  obtain ⟨J, h1, h2, h3⟩ := h
  obtain ⟨K, R, rfl, hK, hR⟩ := split_at h2 hn
  match K with
  | [] => simp at hK; omega
  | [_] => simp at hK; omega
  | [_, _] => simp at hK; omega
  | a :: b :: c :: K =>
    have hK : K.length = (varint x).length := by simp at hK; omega
    refine ⟨_, _, _, _, putUvarint_at (A := A ++ [a, b, c]) (J := K) (R := R) hx (by simpa using h1) hK (by simp [h3]),
      set_at (A := A) (j := a) (R := b :: c :: (varint x ++ R)) (by simp) h3,
      set_at (A := A ++ [u]) (j := b) (R := c :: (varint x ++ R)) (by simp) (by simp [h3]),
      set_at (A := A ++ [u, v]) (j := c) (R := (varint x ++ R)) (by simp) (by simp [h3]), R, by simp, hR, ?_⟩
    simp; omega

theorem Appends.of_forAppend {p : Slice} {n : Nat} {k : Slice → M Slice} {e : Bytes}
    (h : p.len + n ≤ maxAlloc → ∀ q, At q p.len p.data n → ∃ s, k q = .ok s ∧ s.data = p.data ++ e) :
    Appends (forAppend p n >>= k) p e := by
  rcases forAppend_cases p n with h1 | ⟨hle, J, sp, hJ, h1⟩
  · left; rw [h1]; rfl
  · right
    rw [h1, ok_bind]
    obtain ⟨s, hs, hd⟩ := h hle ⟨p.data ++ J, sp⟩ ⟨J, rfl, hJ, rfl⟩
    exact ⟨s.spare, by rw [hs, ← hd]⟩

/-! ### text -/

/-- body of a Scalar_String / Scalar_Octets -/
def encText (s : Bytes) (extra : Nat) : Bytes :=
  encFields (optField 2 (optNonZero extra) ++ [(1, .bytes s)])

theorem encText_eq (s : Bytes) (extra : Nat) : encText s extra =
    (if extra ≠ 0 then keyVarint 2 :: varint extra else []) ++ (keyBytes 1 :: (varint s.length ++ s)) := by
  unfold encText optNonZero
  by_cases h : extra = 0
  · simp [h, optField, encFields, encField, keyBytes1]
  · simp [h, optField, encFields, encField, keyBytes1, keyVarint2]

theorem encText_length_ge (s : Bytes) (extra : Nat) : s.length ≤ (encText s extra).length := by
  rw [encText_eq]; simp; omega

theorem anyText_eq {tag : UInt8} (h : tag.toNat < 16) (s : Bytes) (extra st fk : Nat) (ST FK : UInt8)
    (h1 : varint st = [ST]) (h2 : varint (fk * 8 + 2) = [FK]) (t b : Nat) (T B : UInt8)
    (h3 : varint t = [T]) (h4 : varint (b * 8 + 2) = [B]) :
    encField (tag.toNat, .bytes (encFields [(1, .varint t), (b, .bytes (encFields [(1, .varint st), (fk, .bytes (encText s extra))]))]))
    = keyBytes tag :: (varint (3 + (varint (3 + (varint (encText s extra).length).length + (encText s extra).length)).length
          + (3 + (varint (encText s extra).length).length + (encText s extra).length)) ++
      (keyVarint 1 :: T :: B :: (varint (3 + (varint (encText s extra).length).length + (encText s extra).length) ++
        (keyVarint 1 :: ST :: FK :: (varint (encText s extra).length ++ encText s extra))))) := by
  rw [encField_bytes h]
  simp [encFields, encField, h1, h2, h3, h4, keyVarint1]
  rw [show (varint (encText s extra).length).length + (encText s extra).length + 1 + 1 + 1 =
    3 + (varint (encText s extra).length).length + (encText s extra).length by omega]
  congr 2
  omega

/-- number of bytes of the extra field -/
theorem text_n0 (s : Bytes) (extra : Nat) (hs : s.length < 2 ^ 63) (he : extra < 2 ^ 64) :
    (if extra ≠ 0 then 1 + sizeVarint s.length + s.length + (1 + sizeVarint extra)
      else 1 + sizeVarint s.length + s.length) = (encText s extra).length := by
  rw [encText_eq, sizeVarint_eq (x := s.length) (by omega), sizeVarint_eq he]
  by_cases h : extra = 0 <;> simp [h] <;> omega

end Verif.Proof
