import Verif.Model.Auth
import Verif.Spec.Auth
import Verif.Proof.Session
/-! The authentication mechanisms. -/
namespace Verif.Proof
open Verif.Go Verif.Spec Verif.Model

theorem allocate_cases (s : Slice) (n : Nat) :
    allocate s n = .error .oom ∨ ∃ A J sp, J.length = n ∧ allocate s n = .ok ⟨A ++ J, sp⟩ := by
  unfold allocate
  split
  · rename_i h
    right
    simp only [reslice, if_pos h]
    refine ⟨s.data, s.spare.take n, (s.data ++ s.spare).drop (s.len + n), ?_, ?_⟩
    · simp [Slice.len, Slice.cap] at h ⊢; omega
    · congr 2
      simp [Slice.len, List.take_append, List.take_of_length_le]
  · split
    · right; exact ⟨[], _, _, List.length_replicate, rfl⟩
    · left; rfl

theorem sumAt_exact {s : Slice} {A J R : Bytes} {d : Bytes} {i : Nat} (hd : s.data = A ++ (J ++ R)) (hJ : J.length = d.length) (hi : i = A.length) :
    sumAt s i d = ⟨A ++ (d ++ R), s.spare⟩ := by
  subst hi
  unfold sumAt
  rw [if_pos (by simp [Slice.cap, hd, hJ]; omega)]
  have e : s.data ++ s.spare = A ++ (J ++ (R ++ s.spare)) := by rw [hd]; simp
  have hl : s.len = (A ++ (d ++ R)).length := by simp [Slice.len, hd, hJ]
  rw [e, overwrite_exact A J (R ++ s.spare) d hJ, hl]
  have e2 : A ++ (d ++ (R ++ s.spare)) = (A ++ (d ++ R)) ++ s.spare := by simp
  simp only [e2, List.take_left, List.drop_left]

theorem getAt_at {s : Slice} {A R : Bytes} {v : UInt8} {i : Nat} (hd : s.data = A ++ v :: R) (hi : i = A.length) : getAt s i = .ok v := by
  subst hi; simp [getAt, hd]

theorem setXor_at {s : Slice} {A R : Bytes} {j v : UInt8} {i : Nat} (hd : s.data = A ++ j :: R) (hi : i = A.length) :
    setXor s i v = .ok ⟨A ++ (j ^^^ v) :: R, s.spare⟩ := by
  subst hi; simp [setXor, hd]

theorem xorLoop_exact : ∀ (H T A B sp : Bytes), H.length = T.length → ∀ {i j : Nat}, i = A.length → j = A.length + H.length + B.length →
    xorLoop H.length ⟨A ++ (H ++ (B ++ T)), sp⟩ i j = .ok ⟨A ++ (H ++ (B ++ xorBytes T H)), sp⟩ := by
  intro H
  induction H with
  | nil => intro T A B sp h i j _ _; cases T with
    | nil => rfl
    | cons => simp at h
  | cons h H ih =>
    intro T A B sp hl i j hi hj
    cases T with
    | nil => simp at hl
    | cons t T =>
      rw [List.length_cons, xorLoop, getAt_at (v := h) (A := A) (by simp; rfl) hi, ok_bind,
        setXor_at (A := A ++ (h :: H ++ B)) (j := t) (R := T) (by simp) (by simp at hj ⊢; omega), ok_bind]
      have := ih T (A ++ [h]) (B ++ [t ^^^ h]) sp (by simpa using hl) (i := i + 1) (j := j + 1) (by simp [hi]) (by simp at hj ⊢; omega)
      rw [show A ++ (h :: H ++ B) ++ (t ^^^ h) :: T = A ++ [h] ++ (H ++ (B ++ [t ^^^ h] ++ T)) by simp, this]
      simp [xorBytes]

/-- two hexadecimal digits a byte -/
def hexOf (T : Bytes) : Bytes := T.flatMap fun (v : UInt8) => [hexDigit (v >>> 4), hexDigit (v &&& 0x0F)]

theorem hexLoop_exact : ∀ (T A M sp : Bytes), M.length = T.length → ∀ {i j : Nat}, i = A.length → j = A.length + M.length →
    hexLoop T.length ⟨A ++ (M ++ T), sp⟩ i j = .ok ⟨A ++ hexOf T, sp⟩ := by
  intro T
  induction T with
  | nil => intro A M sp h i j _ _; cases M with
    | nil => simp [hexLoop, hexOf]
    | cons => simp at h
  | cons v T ih =>
    intro A M sp hl i j hi hj
    rw [List.length_cons, hexLoop, getAt_at (v := v) (A := A ++ M) (R := T) (by simp) (by simp [hj]), ok_bind]
    obtain ⟨x, y, N, hN, hNl⟩ : ∃ x y N, M ++ v :: T = x :: y :: (N ++ T) ∧ N.length = T.length := by
      cases M with
      | nil => simp at hl
      | cons x M =>
        cases M with
        | nil => exact ⟨x, v, [], rfl, by simp at hl; simp [hl]⟩
        | cons y M => exact ⟨x, y, M ++ [v], by simp, by simpa using hl⟩
    rw [hN, set_at (A := A) (j := x) (R := y :: (N ++ T)) rfl hi, ok_bind,
      set_at (A := A ++ [hexDigit (v >>> 4)]) (j := y) (R := N ++ T) (by simp) (by simp [hi]), ok_bind]
    have := ih (A ++ [hexDigit (v >>> 4), hexDigit (v &&& 0x0F)]) N sp hNl (i := i + 2) (j := j + 1) (by simp [hi]) (by simp at hl ⊢; omega)
    rw [show A ++ [hexDigit (v >>> 4)] ++ hexDigit (v &&& 0x0F) :: (N ++ T) = A ++ [hexDigit (v >>> 4), hexDigit (v &&& 0x0F)] ++ (N ++ T) by simp, this]
    simp [hexOf]

/-- database NUL user NUL -/
def namesOf (c : Credentials) : Bytes := c.database ++ 0 :: (c.userName ++ [0])

theorem namesOf_length (c : Credentials) : (namesOf c).length = c.database.length + 1 + c.userName.length + 1 := by
  simp [namesOf]; omega

theorem putNames_exact {A J R sp : Bytes} {c : Credentials} (h : J.length = (namesOf c).length) {o : Nat} (ho : o = A.length) :
    putNames ⟨A ++ (J ++ R), sp⟩ o c = .ok (⟨A ++ (namesOf c ++ R), sp⟩, o + (namesOf c).length) := by
  subst ho
  rw [namesOf_length] at h
  obtain ⟨J1, J2, rfl, h1⟩ : ∃ J1 J2, J = J1 ++ J2 ∧ J1.length = c.database.length :=
    ⟨J.take c.database.length, J.drop c.database.length, by simp, by simp; omega⟩
  obtain ⟨z, J3, rfl⟩ : ∃ z J3, J2 = z :: J3 := by
    cases J2 with
    | nil => simp at h; omega
    | cons z J3 => exact ⟨z, J3, rfl⟩
  obtain ⟨J4, J5, rfl, h4⟩ : ∃ J4 J5, J3 = J4 ++ J5 ∧ J4.length = c.userName.length :=
    ⟨J3.take c.userName.length, J3.drop c.userName.length, by simp, by simp at h ⊢; omega⟩
  obtain ⟨y, rfl⟩ : ∃ y, J5 = [y] := by
    cases J5 with
    | nil => simp at h; omega
    | cons y J6 => cases J6 with
      | nil => exact ⟨y, rfl⟩
      | cons => simp at h; omega
  simp only [putNames]
  rw [copyAt_exact (A := A) (J := J1) (R := z :: (J4 ++ [y]) ++ R) (by simp) h1 rfl, ok_bind]
  dsimp only
  rw [set_at (A := A ++ c.database) (j := z) (R := (J4 ++ [y]) ++ R) (by simp) (by simp), ok_bind,
    copyAt_exact (A := A ++ c.database ++ [0]) (J := J4) (R := [y] ++ R) (by simp) h4 (by simp; omega), ok_bind]
  dsimp only
  rw [set_at (A := A ++ c.database ++ [0] ++ c.userName) (j := y) (R := R) (by simp) (by simp; omega), ok_bind]
  simp [namesOf]
  omega

/-- the token part for hash `H`; `mix` combines challenge and stored hash -/
def tokenOf (H : Bytes → Bytes) (mix : Bytes → Bytes) (pw : Bytes) : Bytes := hexOf (xorBytes (H (mix (H (H pw)))) (H pw))

/-- the part common to mysql41.go:39-59 and sha256.go:35-53 -/
theorem token_exact (H mix : Bytes → Bytes) {size : Nat} (hH : ∀ x, (H x).length = size) (pw : Bytes) {A J sp : Bytes}
    (hJ : J.length = size + size) {i : Nat} (hi : i = A.length) :
    (let buf := sumAt ⟨A ++ J, sp⟩ i (H pw)
     let buf := sumAt buf (i + size) (H ((buf.data.drop i).take size))
     let buf := sumAt buf (i + size) (H (mix (buf.data.drop (i + size))))
     xorLoop size buf i (i + size) >>= fun buf => hexLoop (buf.len - (i + size)) buf i (i + size)) =
    .ok ⟨A ++ tokenOf H mix pw, sp⟩ := by
  subst hi
  obtain ⟨J1, J2, rfl, h1⟩ : ∃ J1 J2, J = J1 ++ J2 ∧ J1.length = size := ⟨J.take size, J.drop size, by simp, by simp; omega⟩
  have h2 : J2.length = size := by simp at hJ; omega
  have hp := hH pw
  have hpp := hH (H pw)
  have hm := hH (mix (H (H pw)))
  dsimp only
  rw [sumAt_exact (A := A) (J := J1) (R := J2) rfl (by omega) rfl]
  dsimp only
  rw [List.drop_left, show (H pw ++ J2).take size = H pw by rw [← hp, List.take_left]]
  rw [sumAt_exact (s := ⟨A ++ (H pw ++ J2), sp⟩) (A := A ++ H pw) (J := J2) (R := []) (by simp) (by omega) (by simp [hp])]
  dsimp only
  rw [show List.drop (A.length + size) (A ++ H pw ++ (H (H pw) ++ [])) = H (H pw) by
    rw [show A.length + size = (A ++ H pw).length by simp [hp], List.drop_left, List.append_nil]]
  rw [sumAt_exact (A := A ++ H pw) (J := H (H pw)) (R := []) rfl (by omega) (by simp [hp])]
  have hx := xorLoop_exact (H pw) (H (mix (H (H pw)))) A [] sp (by omega) (i := A.length) (j := A.length + size) rfl (by simp [hp])
  rw [hp] at hx
  simp only [List.append_nil, List.append_assoc, List.nil_append] at hx ⊢
  rw [hx, ok_bind]
  have hxl : (xorBytes (H (mix (H (H pw)))) (H pw)).length = size := by simp [xorBytes, hp, hm]
  have hh := hexLoop_exact (xorBytes (H (mix (H (H pw)))) (H pw)) A (H pw) sp (by omega) (i := A.length) (j := A.length + size) rfl (by omega)
  rw [hxl] at hh
  rw [show (⟨A ++ (H pw ++ xorBytes (H (mix (H (H pw)))) (H pw)), sp⟩ : Slice).len - (A.length + size) = size by
    simp [Slice.len, hp, hxl]; omega]
  exact hh

theorem mysql41Continue_post (g : Grow) {sha1 : Bytes → Bytes} (hH : ∀ x, (sha1 x).length = 20) (buf : Slice) (c : Credentials) (ch : Bytes) :
    mysql41Continue g sha1 buf c ch = .error .oom ∨ ∃ sp, mysql41Continue g sha1 buf c ch = .ok ⟨codeFrame (.authContinue
      (namesOf c ++ if c.password = [] then [] else 42 :: tokenOf sha1 (ch ++ ·) c.password)), sp⟩ := by
  simp only [mysql41Continue]
  generalize hn : (if 0 < c.password.length then c.database.length + 1 + c.userName.length + 1 + (1 + 2 * 20)
    else c.database.length + 1 + c.userName.length + 1) = n
  rcases allocate_cases buf n with h | ⟨A, J, sp, hJ, h⟩
  · left; rw [h]; rfl
  · rw [h, ok_bind]
    have ho : (⟨A ++ J, sp⟩ : Slice).len - n = A.length := by simp [Slice.len, hJ]
    rw [ho]
    have hnl := namesOf_length c
    obtain ⟨J1, J2, rfl, h1⟩ : ∃ J1 J2, J = J1 ++ J2 ∧ J1.length = (namesOf c).length :=
      ⟨J.take (namesOf c).length, J.drop (namesOf c).length, by simp, by simp; split at hn <;> omega⟩
    rw [putNames_exact h1 rfl, ok_bind]
    dsimp only
    have h2 : J2.length = if 0 < c.password.length then 41 else 0 := by
      rw [List.length_append] at hJ; split <;> split at hn <;> omega
    by_cases hp : 0 < c.password.length
    · have hne : c.password ≠ [] := by intro h; simp [h] at hp
      rw [if_pos hp] at h2
      obtain ⟨z, J3, rfl⟩ : ∃ z J3, J2 = z :: J3 := by
        cases J2 with
        | nil => simp at h2
        | cons z J3 => exact ⟨z, J3, rfl⟩
      simp only [if_pos hp, if_neg hne]
      rw [set_at (A := A ++ namesOf c) (j := z) (R := J3) (by simp) (by simp), ok_bind]
      rw [if_neg (by simp [Slice.len] at h2 ⊢; omega)]
      have ht := token_exact sha1 (ch ++ ·) hH c.password (A := A ++ namesOf c ++ [42]) (J := J3) (sp := sp) (by simpa using h2)
        (i := A.length + (namesOf c).length + 1) (by simp; omega)
      dsimp only at ht
      rw [show A ++ namesOf c ++ [42] ++ J3 = A ++ namesOf c ++ 42 :: J3 by simp] at ht
      dsimp only
      rw [← bind_assoc, ht, ok_bind]
      dsimp only
      rw [show List.drop A.length (A ++ namesOf c ++ [42] ++ tokenOf sha1 (ch ++ ·) c.password) =
        namesOf c ++ 42 :: tokenOf sha1 (ch ++ ·) c.password by simp]
      exact authenticateContinue_post g _ _
    · have he : c.password = [] := by cases hc : c.password with
        | nil => rfl
        | cons => rw [hc] at hp; simp at hp
      rw [if_neg hp] at h2
      have : J2 = [] := List.length_eq_zero_iff.mp h2
      subst this
      simp only [if_neg hp, if_pos he, ok_bind, List.append_nil, List.drop_left]
      exact authenticateContinue_post g _ _

theorem sha256Continue_post (g : Grow) {sha256 : Bytes → Bytes} (hH : ∀ x, (sha256 x).length = 32) (buf : Slice) (c : Credentials) (ch : Bytes) :
    sha256Continue g sha256 buf c ch = .error .oom ∨ ∃ sp, sha256Continue g sha256 buf c ch = .ok ⟨codeFrame (.authContinue
      (namesOf c ++ tokenOf sha256 (· ++ ch) c.password)), sp⟩ := by
  simp only [sha256Continue]
  generalize hn : c.database.length + 1 + c.userName.length + 1 + 2 * 32 = n
  rcases allocate_cases buf n with h | ⟨A, J, sp, hJ, h⟩
  · left; rw [h]; rfl
  · rw [h, ok_bind]
    have ho : (⟨A ++ J, sp⟩ : Slice).len - n = A.length := by simp [Slice.len, hJ]
    rw [ho]
    have hnl := namesOf_length c
    obtain ⟨J1, J2, rfl, h1⟩ : ∃ J1 J2, J = J1 ++ J2 ∧ J1.length = (namesOf c).length :=
      ⟨J.take (namesOf c).length, J.drop (namesOf c).length, by simp, by simp; omega⟩
    have h2 : J2.length = 64 := by rw [List.length_append] at hJ; omega
    rw [putNames_exact h1 rfl, ok_bind]
    dsimp only
    rw [if_neg (by simp [Slice.len]; omega)]
    have ht := token_exact sha256 (· ++ ch) hH c.password (A := A ++ namesOf c) (J := J2) (sp := sp) (by simpa using h2)
      (i := A.length + (namesOf c).length) (by simp)
    dsimp only at ht
    rw [← List.append_assoc, ← bind_assoc, ht, ok_bind]
    dsimp only
    rw [List.append_assoc, List.drop_left]
    exact authenticateContinue_post g _ _

theorem plainStart_post (g : Grow) (buf : Slice) (c : Credentials) :
    plainStart g buf c = .error .oom ∨ ∃ sp, plainStart g buf c = .ok ⟨codeFrame (.authStart (ascii "PLAIN")
      (some (namesOf c ++ c.password))), sp⟩ := by
  simp only [plainStart]
  generalize hn : c.database.length + 1 + c.userName.length + 1 + c.password.length = n
  rcases allocate_cases buf n with h | ⟨A, J, sp, hJ, h⟩
  · left; rw [h]; rfl
  · rw [h, ok_bind]
    have ho : (⟨A ++ J, sp⟩ : Slice).len - n = A.length := by simp [Slice.len, hJ]
    rw [ho]
    have hnl := namesOf_length c
    obtain ⟨J1, J2, rfl, h1⟩ : ∃ J1 J2, J = J1 ++ J2 ∧ J1.length = (namesOf c).length :=
      ⟨J.take (namesOf c).length, J.drop (namesOf c).length, by simp, by simp; omega⟩
    rw [putNames_exact h1 rfl, ok_bind]
    dsimp only
    rw [copyAt_exact (A := A ++ namesOf c) (J := J2) (R := []) (by simp) (by rw [List.length_append] at hJ; omega) (by simp), ok_bind]
    dsimp only
    rw [List.append_assoc, List.drop_left, List.append_nil]
    have := authenticateStart_post g ⟨A ++ (namesOf c ++ c.password), sp⟩ (ascii "PLAIN") (namesOf c ++ c.password)
    rw [if_neg (by simp [namesOf])] at this
    exact this

theorem unhex_hexOf (T : Bytes) : unhex (hexOf T) = some T := by
  have hd : ∀ v : UInt8, unhexDigit (hexDigit (v >>> 4)) = some (v >>> 4) ∧ unhexDigit (hexDigit (v &&& 0x0F)) = some (v &&& 0x0F) ∧
      (v >>> 4) * 16 + (v &&& 0x0F) = v := by
    have : ∀ n : Fin 256, let v := UInt8.ofNat n.val
      unhexDigit (hexDigit (v >>> 4)) = some (v >>> 4) ∧ unhexDigit (hexDigit (v &&& 0x0F)) = some (v &&& 0x0F) ∧
      (v >>> 4) * 16 + (v &&& 0x0F) = v := by decide +kernel
    intro v
    have := this ⟨v.toNat, v.toNat_lt⟩
    simpa using this
  induction T with
  | nil => rfl
  | cons v T ih =>
    obtain ⟨h1, h2, h3⟩ := hd v
    show unhex (hexDigit (v >>> 4) :: hexDigit (v &&& 0x0F) :: hexOf T) = _
    simp only [unhex, h1, h2, ih, h3]

theorem xor_cancel (a b : Bytes) (h : a.length = b.length) : xorBytes (xorBytes a b) a = b := by
  induction a generalizing b with
  | nil => cases b with
    | nil => rfl
    | cons => simp at h
  | cons x a ih =>
    cases b with
    | nil => simp at h
    | cons y b =>
      have := ih b (by simpa using h)
      simp only [xorBytes, List.zipWith_cons_cons] at this ⊢
      rw [this, UInt8.xor_comm x y, UInt8.xor_assoc, UInt8.xor_self, UInt8.xor_zero]

theorem splitNul_free {a : Bytes} (h : (0 : UInt8) ∉ a) (r : Bytes) : splitNul (a ++ 0 :: r) = some (a, r) := by
  induction a with
  | nil => simp [splitNul]
  | cons x a ih =>
    simp only [List.mem_cons, not_or] at h
    simp only [List.cons_append, splitNul]
    rw [if_neg (fun e => h.1 e.symm), ih h.2]; rfl

theorem parse_names {c : Credentials} (h1 : (0 : UInt8) ∉ c.database) (h2 : (0 : UInt8) ∉ c.userName) (r : Bytes) :
    parseAuthData (namesOf c ++ r) = some (c.database, c.userName, r) := by
  simp only [namesOf, parseAuthData, List.append_assoc, List.cons_append, List.nil_append]
  rw [splitNul_free h1]
  dsimp only
  rw [splitNul_free h2]

end Verif.Proof
