import Verif.Proof.MsgEnc
import Verif.Model.Builder
/-! The message encoders produce `codeFrame`. -/
namespace Verif.Proof
open Verif.Go Verif.Spec Verif.Model

variable {g : Grow} {p : Slice}

theorem unrolled_cps {β : Type} (head L : Bytes) {n K : Nat} (f : Nat → Nat) (k : Slice → M β)
    (hK : L.length = K) (h1 : 1 ≤ n) (h2 : n ≤ K) (hf : ∀ l, K ≤ l → f l = n + l - K) :
    (append g p (head ++ L) >>= fun q =>
      setAnd q (f q.len - 1) 0x7F >>= fun r => reslice r (f q.len) >>= k) = .error .oom ∨
    ∃ sp, (append g p (head ++ L) >>= fun q =>
      setAnd q (f q.len - 1) 0x7F >>= fun r => reslice r (f q.len) >>= k) =
        k ⟨p.data ++ (head ++ maskLast (L.take n)), sp⟩ := by
  subst hK
  rcases append_cases g p (head ++ L) with h | ⟨_, sp, h⟩
  · left; rw [h]; rfl
  · right
    rw [h, ok_bind]
    have e : f (⟨p.data ++ (head ++ L), sp⟩ : Slice).len = (p.data ++ head).length + n := by
      rw [hf _ (by simp [Slice.len]; omega)]
      simp [Slice.len]; omega
    rw [e]
    obtain ⟨sp', hs⟩ := finish_varint (pre := p.data ++ head) (sp := sp) h1 h2
    refine ⟨sp', ?_⟩
    rw [← bind_assoc, ← List.append_assoc]
    rw [hs, ok_bind]
    simp

theorem append_cps {β : Type} (xs : Bytes) (k : Slice → M β) :
    (append g p xs >>= k) = .error .oom ∨ ∃ sp, (append g p xs >>= k) = k ⟨p.data ++ xs, sp⟩ := by
  rcases append_cases g p xs with h | ⟨_, sp, h⟩
  · left; rw [h]; rfl
  · right; exact ⟨sp, by rw [h, ok_bind]⟩

/-! ### arguments -/

/-- outcome of an argument list -/
def argsRes : List Val → Res (List PScalar)
  | [] => .ok []
  | v :: vs =>
    match anyRes v with
    | .ok s =>
      match argsRes vs with
      | .ok ss => .ok (s :: ss)
      | .err e => .err e
      | .panic => .panic
    | .err e => .err e
    | .panic => .panic

/-- like `PostExprG`, without the buffer in the error case -/
def PostAnyG (r : M (Slice × Option Err)) (p : Slice) : Res Bytes → Prop
  | .ok e => r = .error .oom ∨ ∃ sp, r = .ok (⟨p.data ++ e, sp⟩, none)
  | .err e => r = .error .oom ∨ ∃ s, r = .ok (s, some e)
  | .panic => r = .error .oom ∨ r = .error .panic

theorem appendArgs_post (vs : List Val) : ∀ p : Slice,
    PostAnyG (appendArgs g p 2 vs) p ((argsRes vs).map argsF) := by
  induction vs with
  | nil => intro p; exact .inr ⟨p.spare, by simp [appendArgs, argsF]⟩
  | cons v vs ih =>
    intro p
    have h := appendAny_post (g := g) (p := p) (tag := 2) (by decide) v
    rw [appendArgs, argsRes]
    cases hr : anyRes v with
    | ok s =>
      rw [hr] at h
      rcases h with h | ⟨sp, h⟩
      · rw [h]; cases argsRes vs <;> exact .inl rfl
      · rw [h, ok_bind]
        have ih := ih ⟨p.data ++ anyF 2 s, sp⟩
        dsimp only
        cases hr2 : argsRes vs with
        | ok ss =>
          rw [hr2] at ih
          rcases ih with h | ⟨sp', h⟩
          · exact .inl h
          · exact .inr ⟨sp', by rw [h]; simp [argsF]⟩
        | err e => rw [hr2] at ih; exact ih
        | panic => rw [hr2] at ih; exact ih
    | err e => rw [hr] at h; exact .inr ⟨Slice.nil, by rw [h]; rfl⟩
    | panic => rw [hr] at h; exact .inr (by rw [h]; rfl)

/-! ### messages -/

def PostMsg (r : M (Slice × Option Err)) (p : Slice) (res : Res ClientMsg) : Prop :=
  PostAnyG r p (res.map codeFrame)

theorem append_huge {q : Slice} {xs : Bytes} (h : ¬ xs.length < 2 ^ 64) : append g q xs = .error .oom := by
  rw [append, if_neg]
  simp only [maxAlloc]; omega

/-- arguments, then the frame length -/
theorem argsTail_post (A H : Bytes) (t : UInt8) (sp : Bytes) (args : List Val) (mk : List PScalar → ClientMsg)
    (hmk : ∀ ss, codeMsg (mk ss) = (t, H ++ argsF ss)) (n : Nat) (hn : n = A.length) :
    ∀ sp0, PostMsg (appendArgs g ⟨A ++ ([0, 0, 0, 0, t] ++ H), sp⟩ 2 args >>= fun x =>
        match x.2 with
          | some e => .ok (x.1, some e)
          | none => putUint32 x.1 n (x.1.len - n - 4) >>= fun p' => .ok (p', none)) ⟨A, sp0⟩ ((argsRes args).map mk) := by
  intro sp0
  subst hn
  have ha := appendArgs_post (g := g) args ⟨A ++ ([0, 0, 0, 0, t] ++ H), sp⟩
  cases hr : argsRes args with
  | ok ss =>
    rw [hr] at ha
    rcases ha with h | ⟨sp, h⟩
    · left; rw [h]; rfl
    · right
      rw [h, ok_bind]
      dsimp only
      rw [putUint32_at (A := A) (J := [0, 0, 0, 0]) (R := t :: (H ++ argsF ss)) (by simp) rfl rfl, ok_bind]
      refine ⟨sp, ?_⟩
      simp [codeFrame, frame, hmk, Slice.len]
  | err e =>
    rw [hr] at ha
    rcases ha with h | ⟨s, h⟩
    · left; rw [h]; rfl
    · right; exact ⟨s, by rw [h]; rfl⟩
  | panic =>
    rw [hr] at ha
    rcases ha with h | h
    · left; rw [h]; rfl
    · right; rw [h]; rfl

theorem PostMsg.oom {r : M (Slice × Option Err)} {res : Res ClientMsg} (h : r = .error .oom) : PostMsg r p res := by
  subst h; cases res <;> exact .inl rfl

theorem stmtExecute_post (stmt : Bytes) (args : List Val) :
    PostMsg (stmtExecute g p stmt args) p ((argsRes args).map (.stmtExecute stmt)) := by
  have := unrolled_cps (g := g) (p := p) [0, 0, 0, 0, 12, keyBytes 1] (unrolled64' stmt.length)
    (n := sizeVarint stmt.length) (K := 10) (fun l => l + sizeVarint stmt.length - 10)
    (fun q => append g q stmt >>= fun q => appendArgs g q 2 args >>= fun x =>
        match x.2 with
          | some e => .ok (x.1, some e)
          | none => putUint32 x.1 p.len (x.1.len - p.len - 4) >>= fun p' => .ok (p', none))
    rfl (sizeVarint_pos _) (sizeVarint_le10 _) (fun l _ => by omega)
  by_cases hx : stmt.length < 2 ^ 64
  · rw [maskLast_unrolled64' hx] at this
    rcases this with h | ⟨sp, h⟩
    · exact .oom h
    · rw [show stmtExecute g p stmt args = _ from h]
      rcases append_cases g ⟨p.data ++ ([0, 0, 0, 0, 12, keyBytes 1] ++ varint stmt.length), sp⟩ stmt with h | ⟨_, sp, h⟩
      · rw [h]; exact .oom rfl
      · rw [h, ok_bind]
        have := (argsTail_post (g := g) p.data (keyBytes 1 :: (varint stmt.length ++ stmt)) 12 sp args (.stmtExecute stmt)
          (by simp [codeMsg, encField, keyBytes1]) p.len rfl) p.spare
        rw [show p.data ++ ([0, 0, 0, 0, 12] ++ keyBytes 1 :: (varint stmt.length ++ stmt)) =
          p.data ++ ([0, 0, 0, 0, 12, keyBytes 1] ++ varint stmt.length) ++ stmt by simp] at this
        exact this
  · rcases this with h | ⟨sp, h⟩
    · exact .oom h
    · rw [show stmtExecute g p stmt args = _ from h, append_huge hx]
      exact .oom rfl

theorem execute_post (id : BitVec 32) (args : List Val) :
    PostMsg (execute g p id args) p ((argsRes args).map (.execute id.toNat)) := by
  have hx := id.isLt
  have hs : sizeVarint32 id.toNat = sizeVarint id.toNat := size32 hx
  have h5 := varint_length_le5 hx
  have := unrolled_cps (g := g) (p := p) [0, 0, 0, 0, 41, keyVarint 1] (unrolled32 id.toNat)
    (n := sizeVarint id.toNat) (K := 5) (fun l => l - 5 + sizeVarint32 id.toNat)
    (fun q => appendArgs g q 2 args >>= fun x =>
        match x.2 with
          | some e => .ok (x.1, some e)
          | none => putUint32 x.1 p.len (x.1.len - p.len - 4) >>= fun p' => .ok (p', none))
    rfl (sizeVarint_pos _) (by rw [sizeVarint_eq (by omega)]; exact h5) (fun l _ => by omega)
  rw [maskLast_unrolled32 (by omega)] at this
  rcases this with h | ⟨sp, h⟩
  · exact .oom h
  · rw [show execute g p id args = _ from h]
    have := (argsTail_post (g := g) p.data (keyVarint 1 :: varint id.toNat) 41 sp args (.execute id.toNat)
      (by simp [codeMsg, encField, keyVarint1]) p.len rfl) p.spare
    rw [show p.data ++ ([0, 0, 0, 0, 41] ++ keyVarint 1 :: varint id.toNat) =
          p.data ++ ([0, 0, 0, 0, 41, keyVarint 1] ++ varint id.toNat) by simp] at this
    exact this

theorem fixed4_small {x : Nat} (h : x < 256) : fixed 4 x = [UInt8.ofNat x, 0, 0, 0] := by
  simp [fixed4, Nat.shiftRight_eq_div_pow]
  refine ⟨?_, ?_, ?_⟩ <;> apply UInt8.toNat_inj.mp <;> simp <;> omega

theorem deallocate_post (id : BitVec 32) :
    Appends (deallocate g p id) p (codeFrame (.deallocate id.toNat)) := by
  have hx := id.isLt
  have hs : sizeVarint32 id.toNat = sizeVarint id.toNat := size32 hx
  have h5 := varint_length_le5 hx
  have he := sizeVarint_eq (x := id.toNat) (by omega)
  have := unrolled_appends g p ([2 + UInt8.ofNat (sizeVarint id.toNat), 0, 0, 0, 42, keyVarint 1])
    (unrolled32 id.toNat) (n := sizeVarint id.toNat) (K := 5) rfl (sizeVarint_pos _) (by omega)
  rw [maskLast_unrolled32 (by omega)] at this
  simp only [deallocate, hs]
  apply this.of_eq
  simp [codeFrame, frame, codeMsg, encFields, encField, keyVarint1]
  rw [fixed4_small (by omega), he]
  simp
  apply UInt8.toNat_inj.mp; simp; omega

theorem expectClose_post : Appends (expectClose g p) p (codeFrame .expectClose) := by
  apply (append_appends g p _).of_eq
  simp [codeFrame, frame, codeMsg, fixed4]

theorem reset_post (k : Bool) : Appends (reset g p k) p (codeFrame (.reset (if k then some true else none))) := by
  cases k
  · apply (append_appends g p _).of_eq
    simp [codeFrame, frame, codeMsg, fixed4]
  · apply (append_appends g p _).of_eq
    simp [codeFrame, frame, codeMsg, fixed4, encFields, encField, keyVarint1]

/-! ### expectations -/

/-- key and value of a condition -/
def condOf : Cond → Nat × Bytes
  | .noError true => (1, [49])
  | .noError false => (1, [48])
  | .fieldExists f => (2, f)

/-- conditions short enough for the code's five byte lengths -/
def condShort : Cond → Bool
  | .noError _ => true
  | .fieldExists f => decide (f.length < 2 ^ 35 - 8)

theorem appendCond_post {c : Cond} (h : condShort c = true) (p : Slice) :
    Appends (appendCond g p c) p (condF (condOf c)) := by
  match c with
  | .noError true =>
    apply (append_appends g p _).of_eq
    simp [condF, condOf, encFields, encField, keyBytes2, keyVarint1]
  | .noError false =>
    apply (append_appends g p _).of_eq
    simp [condF, condOf, encFields, encField, keyBytes2, keyVarint1]
  | .fieldExists f =>
    have hf : f.length < 2 ^ 35 - 8 := by simpa [condShort] using h
    have l5 : (varint f.length).length ≤ 5 := varint_length_le 4 _ (by omega)
    have en := sizeVarint_eq (x := f.length) (by omega)
    have en0 := sizeVarint_eq (x := 3 + sizeVarint f.length + f.length) (by omega)
    have l50 : (varint (3 + sizeVarint f.length + f.length)).length ≤ 5 := varint_length_le 4 _ (by omega)
    have h1 := unrolled_cps (g := g) (p := p) [keyBytes 2] (unrolled32 (3 + sizeVarint f.length + f.length))
      (n := sizeVarint (3 + sizeVarint f.length + f.length)) (K := 5)
      (fun l => l - 5 + sizeVarint (3 + sizeVarint f.length + f.length))
      (fun p => append g p ([keyVarint 1, 2, keyBytes 2] ++ unrolled32 f.length) >>= fun p =>
        setAnd p (p.len - 5 + sizeVarint f.length - 1) 0x7F >>= fun r =>
        reslice r (p.len - 5 + sizeVarint f.length) >>= fun p => append g p f)
      rfl (sizeVarint_pos _) (by omega) (fun l _ => by omega)
    rw [maskLast_unrolled32 (by omega)] at h1
    rcases h1 with h | ⟨sp, h⟩
    · exact .inl h
    · rw [show appendCond g p (.fieldExists f) = _ from h]
      have h2 := unrolled_cps (g := g)
        (p := ⟨p.data ++ ([keyBytes 2] ++ varint (3 + sizeVarint f.length + f.length)), sp⟩)
        [keyVarint 1, 2, keyBytes 2] (unrolled32 f.length) (n := sizeVarint f.length) (K := 5)
        (fun l => l - 5 + sizeVarint f.length) (fun p => append g p f)
        rfl (sizeVarint_pos _) (by omega) (fun l _ => by omega)
      rw [maskLast_unrolled32 (by omega)] at h2
      rcases h2 with h | ⟨sp', h⟩
      · exact .inl h
      · rw [h]
        rcases append_appends g ⟨p.data ++ ([keyBytes 2] ++ varint (3 + sizeVarint f.length + f.length)) ++
          ([keyVarint 1, 2, keyBytes 2] ++ varint f.length), sp'⟩ f with h | ⟨sp, h⟩
        · exact .inl h
        · right
          refine ⟨sp, ?_⟩
          rw [h]
          simp [condF, condOf, encFields, encField, keyBytes2, keyVarint1, en]
          congr 1; omega

theorem appendConds_post {cs : List Cond} (h : cs.all condShort = true) : ∀ p : Slice,
    Appends (appendConds g p cs) p (cs.flatMap fun c => condF (condOf c)) := by
  induction cs with
  | nil => intro p; exact .inr ⟨p.spare, by simp [appendConds]⟩
  | cons c cs ih =>
    intro p
    simp only [List.all_cons, Bool.and_eq_true] at h
    rw [appendConds, List.flatMap_cons]
    exact (appendCond_post h.1 p).bind fun q _ => ih h.2 q

theorem expectOpen_post (op : UInt8) {cs : List Cond} (h : cs.all condShort = true) :
    Appends (expectOpen g p op cs) p (codeFrame (.expectOpen op.toNat (cs.map condOf))) := by
  unfold expectOpen
  rcases append_appends g p [0, 0, 0, 0, 24, keyVarint 1, op] with h1 | ⟨sp, h1⟩
  · left; dsimp only; rw [h1]; rfl
  · dsimp only
    rw [h1, ok_bind]
    rcases appendConds_post (g := g) h ⟨p.data ++ [0, 0, 0, 0, 24, keyVarint 1, op], sp⟩ with h2 | ⟨sp, h2⟩
    · left; rw [h2]; rfl
    · right
      rw [h2, ok_bind]
      rw [putUint32_at (A := p.data) (J := [0, 0, 0, 0]) (i := p.len)
        (R := 24 :: keyVarint 1 :: op :: cs.flatMap fun c => condF (condOf c)) (by simp) rfl rfl]
      refine ⟨sp, ?_⟩
      simp [codeFrame, frame, codeMsg, Slice.len, List.flatMap_map, keyVarint1]

/-! ### messages whose space is reserved first -/

theorem forAppend_cps {β : Type} (n : Nat) (k : Slice → M β) :
    (forAppend p n >>= k) = .error .oom ∨
    (p.len + n ≤ maxAlloc ∧ ∃ q, At q p.len p.data n ∧ (forAppend p n >>= k) = k q) := by
  rcases forAppend_cases p n with h1 | ⟨hle, J, sp, hJ, h1⟩
  · left; rw [h1]; rfl
  · right; exact ⟨hle, ⟨p.data ++ J, sp⟩, ⟨J, rfl, hJ, rfl⟩, by rw [h1, ok_bind]⟩

/-- a Collection or Column in a field -/
abbrev nameF (t : Nat) (name : Bytes) : Bytes := encField (t, .bytes (encFields [(1, .bytes name)]))

theorem nameF_eq {t : UInt8} (ht : t.toNat < 16) (name : Bytes) :
    nameF t.toNat name = keyBytes t :: (varint (1 + (varint name.length).length + name.length) ++
      (keyBytes 1 :: (varint name.length ++ name))) := by
  rw [nameF, encField_bytes ht]
  simp [encFields, encField, keyBytes1]
  congr 1; omega

theorem prepare_post (id : BitVec 32) (stmt : Bytes) :
    Appends (prepare p id stmt) p (codeFrame (.prepare id.toNat stmt)) := by
  have hid := id.isLt
  have li := varint_length_le5 hid
  have hs : sizeVarint32 id.toNat = (varint id.toNat).length := sizeVarint32_eq hid
  unfold prepare
  apply Appends.of_forAppend
  intro hle q hq
  rw [hs] at hle hq ⊢
  have hmax : maxAlloc = 2 ^ 48 := rfl
  have ls := varint_length_le10 (x := stmt.length) (by omega)
  rw [sizeVarint_eq (x := stmt.length) (by omega)] at hle hq ⊢
  generalize hN0 : 1 + (varint stmt.length).length + stmt.length = N0 at *
  have l0 := varint_length_le10 (x := N0) (by omega)
  rw [sizeVarint_eq (x := N0) (by omega)] at hle hq ⊢
  generalize hN1 : 3 + (varint N0).length + N0 = N1 at *
  have l1 := varint_length_le10 (x := N1) (by omega)
  rw [sizeVarint_eq (x := N1) (by omega)] at hle hq ⊢
  generalize hN2 : 2 + (varint id.toNat).length + (varint N1).length + N1 = N2 at *
  obtain ⟨J, h1, h2, h3⟩ := hq
  obtain ⟨K, R, rfl, hK, hR⟩ := split_at h2 (show 6 + (varint id.toNat).length ≤ 4 + 1 + N2 by omega)
  obtain ⟨K4, K', rfl, hK4, hK'⟩ := split_at hK (show 4 ≤ 6 + (varint id.toNat).length by omega)
  match K' with
  | [] => simp at hK'; omega
  | [_] => simp at hK'; omega
  | a :: b :: K' =>
  have hK' : K'.length = (varint id.toNat).length := by simp at hK'; omega
  rw [putUvarint_at (A := p.data ++ (K4 ++ [a, b])) (J := K') (R := R) (by omega) (by simpa using h1) hK'
    (by simp [h3, hK4]), ok_bind]
  dsimp only
  rw [putUint32_at (A := p.data) (J := K4) (R := a :: b :: (varint id.toNat ++ R)) (by simp) hK4 h3, ok_bind]
  rw [set_at (A := p.data ++ fixed 4 (1 + N2)) (j := a) (R := b :: (varint id.toNat ++ R)) (by simp)
    (by simp [h3, fixed_length]), ok_bind]
  rw [set_at (A := p.data ++ fixed 4 (1 + N2) ++ [40]) (j := b) (R := varint id.toNat ++ R) (by simp)
    (by simp [h3, fixed_length]), ok_bind]
  have hq : At ⟨p.data ++ fixed 4 (1 + N2) ++ [40] ++ keyVarint 1 :: (varint id.toNat ++ R), q.spare⟩
      (p.len + 6 + (varint id.toNat).length)
      (p.data ++ fixed 4 (1 + N2) ++ [40] ++ keyVarint 1 :: varint id.toNat) (4 + 1 + N2 - (6 + (varint id.toNat).length)) :=
    ⟨R, by simp, by omega, by simp [Slice.len, fixed_length]; omega⟩
  obtain ⟨q1, e, hq⟩ := hq.set (keyBytes 2) (by omega)
  rw [e, ok_bind]
  obtain ⟨q1, e, hq⟩ := hq.put (x := N1) (by omega) (by omega)
  rw [e, ok_bind]
  obtain ⟨q1, e, hq⟩ := hq.set (keyVarint 1) (by omega)
  dsimp only; rw [e, ok_bind]
  obtain ⟨q1, e, hq⟩ := hq.set 5 (by omega)
  rw [e, ok_bind]
  obtain ⟨q1, e, hq⟩ := hq.set (keyBytes 6) (by omega)
  rw [e, ok_bind]
  obtain ⟨q1, e, hq⟩ := hq.put (x := N0) (by omega) (by omega)
  rw [e, ok_bind]
  obtain ⟨q1, e, hq⟩ := hq.set (keyBytes 1) (by omega)
  dsimp only; rw [e, ok_bind]
  obtain ⟨q1, e, hq⟩ := hq.put (x := stmt.length) (by omega) (by omega)
  rw [e, ok_bind]
  obtain ⟨q1, e, hq⟩ := hq.copy stmt (by omega)
  dsimp only; rw [e, ok_bind]
  refine ⟨q1, rfl, ?_⟩
  rw [hq.done' (by omega)]
  simp [codeFrame, frame, codeMsg, encFields, encField, keyVarint1, keyBytes2, keyBytes6, keyBytes1]
  rw [show (varint stmt.length).length + stmt.length + 1 = N0 by omega]
  rw [show (varint N0).length + N0 + 1 + 1 + 1 = N1 by omega]
  congr 2; omega

/-- state after the fixed part of an insert/update/delete: the four bytes before the type are not set -/
def Headed (r : M Slice) (p : Slice) (t : UInt8) (e : Bytes) : Prop :=
  r = .error .oom ∨ ∃ J sp, J.length = 4 ∧ r = .ok ⟨p.data ++ (J ++ t :: e), sp⟩

theorem appendColumns_post (cs : List Bytes) : ∀ p : Slice,
    Appends (appendColumns p cs) p (columnsF cs) := by
  induction cs with
  | nil => intro p; exact .inr ⟨p.spare, by simp [appendColumns, columnsF]⟩
  | cons name names ih =>
    intro p
    rw [appendColumns]
    rcases forAppend_cps (p := p) (1 + sizeVarint (1 + sizeVarint name.length + name.length) + (1 + sizeVarint name.length + name.length))
      _ with h | ⟨hle, q, hq, h⟩
    · exact .inl h
    · dsimp only
      rw [h]
      have hmax : maxAlloc = 2 ^ 48 := rfl
      have ls := varint_length_le10 (x := name.length) (by omega)
      rw [sizeVarint_eq (x := name.length) (by omega)] at hle hq ⊢
      generalize hN0 : 1 + (varint name.length).length + name.length = N0 at *
      have l0 := varint_length_le10 (x := N0) (by omega)
      rw [sizeVarint_eq (x := N0) (by omega)] at hle hq
      obtain ⟨q, e, hq⟩ := hq.set (keyBytes 3) (by omega)
      rw [e, ok_bind]
      obtain ⟨q, e, hq⟩ := hq.put (x := N0) (by omega) (by omega)
      rw [e, ok_bind]
      obtain ⟨q, e, hq⟩ := hq.set (keyBytes 1) (by omega)
      dsimp only; rw [e, ok_bind]
      obtain ⟨q, e, hq⟩ := hq.put (x := name.length) (by omega) (by omega)
      rw [e, ok_bind]
      obtain ⟨q, e, hq⟩ := hq.copy name (by omega)
      dsimp only; rw [e, ok_bind]
      have hd := hq.done' (by omega)
      have e1 : q.data = p.data ++ nameF 3 name := by
        rw [hd, show nameF 3 name = _ from nameF_eq (t := 3) (by decide) name, hN0]; simp
      rcases ih q with h | ⟨sp, h⟩
      · exact .inl h
      · exact .inr ⟨sp, by dsimp only; rw [h, e1]; simp [columnsF]⟩

theorem insert_post (t : Bytes) (cs : List Bytes) :
    Headed (Model.insert p t cs) p 18 (nameF 1 t ++ (encField (2, .varint 2) ++ columnsF cs)) := by
  unfold Model.insert
  rcases forAppend_cps (p := p) (5 + 3 + sizeVarint (1 + sizeVarint t.length + t.length) + (1 + sizeVarint t.length + t.length))
      _ with h | ⟨hle, q, hq, h⟩
  · exact .inl h
  · dsimp only
    rw [h]
    have hmax : maxAlloc = 2 ^ 48 := rfl
    have ls := varint_length_le10 (x := t.length) (by omega)
    rw [sizeVarint_eq (x := t.length) (by omega)] at hle hq ⊢
    generalize hN0 : 1 + (varint t.length).length + t.length = N0 at *
    have l0 := varint_length_le10 (x := N0) (by omega)
    rw [sizeVarint_eq (x := N0) (by omega)] at hle hq
    obtain ⟨J, hJ, hq⟩ := hq.skip (m := 4) (by omega)
    obtain ⟨q, e, hq⟩ := hq.set 18 (by omega)
    rw [e, ok_bind]
    obtain ⟨q, e, hq⟩ := hq.set (keyBytes 1) (by omega)
    rw [e, ok_bind]
    obtain ⟨q, e, hq⟩ := hq.put (x := N0) (by omega) (by omega)
    rw [e, ok_bind]
    obtain ⟨q, e, hq⟩ := hq.set (keyBytes 1) (by omega)
    dsimp only; rw [e, ok_bind]
    obtain ⟨q, e, hq⟩ := hq.put (x := t.length) (by omega) (by omega)
    rw [e, ok_bind]
    obtain ⟨q, e, hq⟩ := hq.copy t (by omega)
    dsimp only; rw [e, ok_bind]
    obtain ⟨q, e, hq⟩ := hq.set (keyVarint 2) (by omega)
    dsimp only; rw [e, ok_bind]
    obtain ⟨q, e, hq⟩ := hq.set 2 (by omega)
    rw [e, ok_bind]
    have hd := hq.done' (by omega)
    have e1 : q.data = p.data ++ (J ++ 18 :: (nameF 1 t ++ encField (2, .varint 2))) := by
      rw [hd, show nameF 1 t = _ from nameF_eq (t := 1) (by decide) t, hN0]; simp [encField, keyVarint2]
    rcases appendColumns_post cs q with h | ⟨sp, h⟩
    · exact .inl h
    · exact .inr ⟨J, sp, hJ, by rw [h, e1]; simp⟩

/-- outcome of an optional criteria -/
def critRes : Criteria → Res (Option PExpr)
  | none => .ok none
  | some v => (exprRes v).map some

theorem appendCriteria_post {tag : UInt8} (htag : tag.toNat < 16) (c : Criteria) :
    PostExprG (appendCriteria g p tag c) p ((critRes c).map (critF tag)) := by
  cases c with
  | none => exact .inr ⟨p.spare, by simp [appendCriteria, critF]⟩
  | some v =>
    have := appendExpr_post (g := g) (p := p) htag v
    rw [appendCriteria, critRes]
    cases hr : exprRes v <;> rw [hr] at this <;> exact this

/-- outcome of the head of an update: the four header bytes not set; on error they exist nevertheless -/
def PostHead (r : M (Slice × Option Err)) (p : Slice) (t : UInt8) : Res Bytes → Prop
  | .ok e => r = .error .oom ∨ ∃ J sp, J.length = 4 ∧ r = .ok (⟨p.data ++ (J ++ t :: e), sp⟩, none)
  | .err e => r = .error .oom ∨ ∃ s, r = .ok (s, some e) ∧ p.len + 4 ≤ s.len
  | .panic => r = .error .oom ∨ r = .error .panic

theorem update_post (t : Bytes) (c : Criteria) :
    PostHead (update g p t c) p 19 ((critRes c).map fun e =>
      nameF 2 t ++ (encField (3, .varint 2) ++ critF 4 e)) := by
  unfold update
  rcases forAppend_cps (p := p) (4 + 1 + 3 + sizeVarint (1 + sizeVarint t.length + t.length) + (1 + sizeVarint t.length + t.length))
      _ with h | ⟨hle, q, hq, h⟩
  · have h' : update g p t c = .error .oom := h
    rw [show (critRes c).map _ = _ from rfl]
    dsimp only
    rw [h]
    cases critRes c <;> exact .inl rfl
  · dsimp only
    rw [h]
    have hmax : maxAlloc = 2 ^ 48 := rfl
    have ls := varint_length_le10 (x := t.length) (by omega)
    rw [sizeVarint_eq (x := t.length) (by omega)] at hle hq ⊢
    generalize hN0 : 1 + (varint t.length).length + t.length = N0 at *
    have l0 := varint_length_le10 (x := N0) (by omega)
    rw [sizeVarint_eq (x := N0) (by omega)] at hle hq
    obtain ⟨J, hJ, hq⟩ := hq.skip (m := 4) (by omega)
    obtain ⟨q1, q2, q3, e1, e2, e3, hq⟩ := hq.fill2 (x := N0) 19 (keyBytes 2) (by omega) (by omega)
    rw [show p.len + 6 = p.len + 4 + 2 from rfl, e1, ok_bind]
    dsimp only
    rw [e2, ok_bind, show p.len + 5 = p.len + 4 + 1 from rfl, e3, ok_bind]
    obtain ⟨q, e, hq⟩ := hq.set (keyBytes 1) (by omega)
    rw [e, ok_bind]
    obtain ⟨q, e, hq⟩ := hq.put (x := t.length) (by omega) (by omega)
    rw [e, ok_bind]
    obtain ⟨q, e, hq⟩ := hq.copy t (by omega)
    dsimp only; rw [e, ok_bind]
    obtain ⟨q, e, hq⟩ := hq.set (keyVarint 3) (by omega)
    dsimp only; rw [e, ok_bind]
    obtain ⟨q, e, hq⟩ := hq.set 2 (by omega)
    rw [e, ok_bind]
    have hd := hq.done' (by omega)
    have e1 : q.data = p.data ++ (J ++ 19 :: (nameF 2 t ++ encField (3, .varint 2))) := by
      rw [hd, show nameF 2 t = _ from nameF_eq (t := 2) (by decide) t, hN0]; simp [encField, keyVarint3]
    have hc := appendCriteria_post (g := g) (p := q) (tag := 4) (by decide) c
    cases hr : critRes c with
    | ok e =>
      rw [hr] at hc
      rcases hc with h | ⟨sp, h⟩
      · exact .inl h
      · exact .inr ⟨J, sp, hJ, by rw [h, e1]; simp⟩
    | err e =>
      rw [hr] at hc
      rcases hc with h | ⟨s, h, hp⟩
      · exact .inl h
      · refine .inr ⟨s, h, ?_⟩
        have := hp.length_le
        rw [e1] at this
        simp [Slice.len] at this ⊢; omega
    | panic => rw [hr] at hc; exact hc

theorem delete_post (t : Bytes) (c : Criteria) :
    PostMsg (delete g p t c) p ((critRes c).map fun e => .delete t none e) := by
  unfold delete
  rcases forAppend_cps (p := p) (4 + 1 + 1 + sizeVarint (1 + sizeVarint t.length + t.length) + (1 + sizeVarint t.length + t.length))
      _ with h | ⟨hle, q, hq, h⟩
  · exact .oom h
  · dsimp only
    rw [h]
    have hmax : maxAlloc = 2 ^ 48 := rfl
    have ls := varint_length_le10 (x := t.length) (by omega)
    rw [sizeVarint_eq (x := t.length) (by omega)] at hle hq ⊢
    generalize hN0 : 1 + (varint t.length).length + t.length = N0 at *
    have l0 := varint_length_le10 (x := N0) (by omega)
    rw [sizeVarint_eq (x := N0) (by omega)] at hle hq
    obtain ⟨J, hJ, hq⟩ := hq.skip (m := 4) (by omega)
    obtain ⟨q1, q2, q3, e1, e2, e3, hq⟩ := hq.fill2 (x := N0) 20 (keyBytes 1) (by omega) (by omega)
    rw [show p.len + 6 = p.len + 4 + 2 from rfl, e1, ok_bind]
    dsimp only
    rw [e2, ok_bind, show p.len + 5 = p.len + 4 + 1 from rfl, e3, ok_bind]
    obtain ⟨q, e, hq⟩ := hq.set (keyBytes 1) (by omega)
    rw [e, ok_bind]
    obtain ⟨q, e, hq⟩ := hq.put (x := t.length) (by omega) (by omega)
    rw [e, ok_bind]
    obtain ⟨q, e, hq⟩ := hq.copy t (by omega)
    dsimp only; rw [e, ok_bind]
    have hd := hq.done' (by omega)
    have e1 : q.data = p.data ++ (J ++ 20 :: nameF 1 t) := by
      rw [hd, show nameF 1 t = _ from nameF_eq (t := 1) (by decide) t, hN0]; simp
    have hc := appendCriteria_post (g := g) (p := q) (tag := 3) (by decide) c
    cases hr : critRes c with
    | ok e =>
      rw [hr] at hc
      rcases hc with h | ⟨sp, h⟩
      · left; dsimp only; rw [h]; rfl
      · right
        refine ⟨sp, ?_⟩
        dsimp only
        rw [h, ok_bind]
        dsimp only
        rw [putUint32_at (A := p.data) (J := J) (i := p.len) (R := 20 :: (nameF 1 t ++ critF 3 e)) (by simp [e1]) hJ rfl, ok_bind]
        simp [codeFrame, frame, codeMsg, optDM, Slice.len, e1, hJ]

    | err e =>
      rw [hr] at hc
      rcases hc with h | ⟨s, h, hp⟩
      · left; dsimp only; rw [h]; rfl
      · right
        dsimp only
        rw [h, ok_bind]
        dsimp only
        obtain ⟨R, hR⟩ := hp
        rw [putUint32_at (A := p.data) (J := J) (i := p.len) (R := 20 :: (nameF 1 t ++ R)) (by rw [← hR, e1]; simp) hJ rfl, ok_bind]
        exact ⟨_, rfl⟩
    | panic =>
      rw [hr] at hc
      rcases hc with h | h
      · left; dsimp only; rw [h]; rfl
      · right; dsimp only; rw [h]; rfl

end Verif.Proof
