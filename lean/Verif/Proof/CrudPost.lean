import Verif.Proof.MsgPost
/-! Insert rows, update assignments and the authentication messages. -/
namespace Verif.Proof
open Verif.Go Verif.Spec Verif.Model

variable {g : Grow} {p : Slice}

/-- outcome of a row, from column `j` on -/
def rowRes (j : Nat) : List Val → Res (List PExpr)
  | [] => .ok []
  | v :: vs =>
    match exprRes v with
    | .ok e =>
      match rowRes (j + 1) vs with
      | .ok es => .ok (e :: es)
      | .err e => .err e
      | .panic => .panic
    | .err e => .err (.column j e)
    | .panic => .panic

theorem PostExprG.oom {r : M (Slice × Option Err)} {res : Res Bytes} (h : r = .error .oom) :
    PostExprG r p res := by
  subst h; cases res <;> exact .inl rfl

theorem appendRowFields_post (vs : List Val) : ∀ (j : Nat) (p : Slice),
    PostExprG (appendRowFields g p j vs) p ((rowRes j vs).map rowBody) := by
  induction vs with
  | nil => intro j p; exact .inr ⟨p.spare, by simp [appendRowFields, rowBody]⟩
  | cons v vs ih =>
    intro j p
    have h := appendExpr_post (g := g) (p := p) (tag := 1) (by decide) v
    rw [appendRowFields, rowRes]
    cases hr : exprRes v with
    | ok s =>
      rw [hr] at h
      rcases h with h | ⟨sp, h⟩
      · exact .oom (by rw [h]; rfl)
      · rw [h, ok_bind]
        have ih := ih (j + 1) ⟨p.data ++ codeExprF 1 s, sp⟩
        dsimp only
        cases hr2 : rowRes (j + 1) vs with
        | ok ss =>
          rw [hr2] at ih
          rcases ih with h | ⟨sp', h⟩
          · exact .inl h
          · exact .inr ⟨sp', by rw [h]; simp [rowBody]⟩
        | err e =>
          rw [hr2] at ih
          rcases ih with h | ⟨s, h, hp⟩
          · exact .inl h
          · exact .inr ⟨s, h, (List.prefix_append _ _).trans hp⟩
        | panic => rw [hr2] at ih; exact ih
    | err e =>
      rw [hr] at h
      rcases h with h | ⟨s, h, hp⟩
      · exact .inl (by rw [h]; rfl)
      · exact .inr ⟨s, by rw [h]; rfl, hp⟩
    | panic =>
      rw [hr] at h
      rcases h with h | h
      · exact .inl (by rw [h]; rfl)
      · exact .inr (by rw [h]; rfl)

theorem row_finish (A B sp : Bytes) (k : UInt8) (i n : Nat) (hi : i = A.length + 3) (hn : n = B.length) :
    let r : M (Slice × Option Err) := ((if sizeVarint n ≠ 2 then
          reslice ⟨A ++ (k :: 0 :: 0 :: B), sp⟩ (i + sizeVarint n - 2) >>= fun q =>
            append g q ((A ++ (k :: 0 :: 0 :: B)).drop i)
        else .ok ⟨A ++ (k :: 0 :: 0 :: B), sp⟩) >>= fun p =>
        putUvarint p (i - 2) n >>= fun x => .ok (x.1, none))
    r = .error .oom ∨ ∃ sp, r = .ok (⟨A ++ (k :: (varint B.length ++ B)), sp⟩, none) := by
  intro r
  subst hi hn
  have hd : (A ++ (k :: 0 :: 0 :: B)).drop (A.length + 3) = B := by
    rw [List.drop_append]; simp [show A.length + 3 - A.length = 3 by omega]
  by_cases hb : B.length < 2 ^ 64
  · have l := varint_length_le10 hb
    have lpos := varint_length_pos B.length
    have hs := sizeVarint_eq hb
    suffices h : ((if sizeVarint B.length ≠ 2 then
          reslice ⟨A ++ (k :: 0 :: 0 :: B), sp⟩ (A.length + 3 + sizeVarint B.length - 2) >>= fun q =>
            append g q ((A ++ (k :: 0 :: 0 :: B)).drop (A.length + 3))
        else .ok ⟨A ++ (k :: 0 :: 0 :: B), sp⟩) : M Slice) = .error .oom ∨
        ∃ J sp', J.length = (varint B.length).length ∧ ((if sizeVarint B.length ≠ 2 then
          reslice ⟨A ++ (k :: 0 :: 0 :: B), sp⟩ (A.length + 3 + sizeVarint B.length - 2) >>= fun q =>
            append g q ((A ++ (k :: 0 :: 0 :: B)).drop (A.length + 3))
        else .ok ⟨A ++ (k :: 0 :: 0 :: B), sp⟩) : M Slice) = .ok ⟨A ++ k :: (J ++ B), sp'⟩ by
      rcases h with h | ⟨J, sp', hJ, h⟩
      · left; simp only [r]; rw [h]; rfl
      · right
        simp only [r]
        rw [h, ok_bind, putUvarint_at (A := A ++ [k]) (J := J) (R := B) hb (by simp) hJ (by simp), ok_bind]
        exact ⟨sp', by simp⟩
    rw [hd]
    by_cases h2 : sizeVarint B.length = 2
    · right
      rw [if_neg (by omega)]
      exact ⟨[0, 0], sp, by rw [← hs, h2]; rfl, by simp⟩
    · rw [if_pos h2]
      have hX : (varint B.length).length ≤ (0 :: 0 :: B).length := by
        by_cases hsm : B.length < 128 ^ (1 + 1)
        · have := varint_length_le 1 _ hsm
          simp; omega
        · simp; omega
      have hsplit := List.take_append_drop (varint B.length).length (0 :: 0 :: B)
      generalize hJ : (0 :: 0 :: B).take (varint B.length).length = J at hsplit
      have hJl : J.length = (varint B.length).length := by rw [← hJ]; simp at hX ⊢; omega
      obtain ⟨sp2, h2⟩ := reslice_prefix (s := ⟨A ++ (k :: 0 :: 0 :: B), sp⟩)
        (n := A.length + 3 + sizeVarint B.length - 2) (A := A ++ k :: J)
        (R := (0 :: 0 :: B).drop (varint B.length).length)
        (by rw [List.append_assoc, List.cons_append, hsplit]) (by simp [hs, hJl]; omega)
      rw [h2, ok_bind]
      rcases append_appends g ⟨A ++ k :: J, sp2⟩ B with h | ⟨sp, h⟩
      · exact .inl h
      · exact .inr ⟨J, sp, hJl, by rw [h]; simp⟩
  · left
    simp only [r]
    have hs := sizeVarint_huge hb
    rw [if_pos (by omega), hd, hs]
    have hsplit := List.take_append_drop 10 (0 :: 0 :: B)
    generalize hJ : (0 :: 0 :: B).take 10 = J at hsplit
    have hJl : J.length = 10 := by rw [← hJ]; simp; omega
    obtain ⟨sp2, h2⟩ := reslice_prefix (s := ⟨A ++ (k :: 0 :: 0 :: B), sp⟩)
        (n := A.length + 3 + 10 - 2) (A := A ++ k :: J) (R := (0 :: 0 :: B).drop 10)
        (by rw [List.append_assoc, List.cons_append, hsplit]) (by simp [hJl])
    rw [h2, ok_bind, append_huge hb]
    rfl

theorem appendInsertRow_post (row : List Val) :
    PostExprG (appendInsertRow g p row) p ((rowRes 0 row).map rowF) := by
  unfold appendInsertRow
  rcases append_appends g p [keyBytes 4, 0, 0] with h | ⟨sp, h⟩
  · exact .oom (by dsimp only; rw [h]; rfl)
  · dsimp only
    rw [h, ok_bind]
    have hp := appendRowFields_post (g := g) row 0 ⟨p.data ++ [keyBytes 4, 0, 0], sp⟩
    cases hr : rowRes 0 row with
    | ok es =>
      rw [hr] at hp
      rcases hp with h | ⟨sp, h⟩
      · exact .oom (by rw [h]; rfl)
      · rw [h, ok_bind]
        dsimp only
        generalize hB : rowBody es = B
        have hrow : rowF es = keyBytes 4 :: (varint B.length ++ B) := by
          rw [rowF, show (4 : Nat) = (4 : UInt8).toNat from rfl, encField_bytes (by decide), hB]
        have := row_finish (g := g) p.data B sp (keyBytes 4) (p.data.length + 3) B.length rfl rfl
        rw [show (Res.ok es).map rowF = .ok (keyBytes 4 :: (varint B.length ++ B)) by rw [← hrow]; rfl]
        simp only [Slice.len, List.append_assoc, List.length_append, List.length_cons, List.length_nil,
          List.cons_append, List.nil_append]
        rw [show p.data.length + (B.length + 1 + 1 + 1) - (p.data.length + (0 + 1 + 1 + 1)) = B.length by omega,
          show p.data.length + (0 + 1 + 1 + 1) = p.data.length + 3 by omega]
        by_cases h2 : sizeVarint B.length ≠ 2
        · simp only [if_pos h2] at this ⊢
          rw [bind_assoc] at this
          exact this
        · simp only [if_neg h2] at this ⊢
          exact this
    | err e =>
      rw [hr] at hp
      rcases hp with h | ⟨s, h, hp⟩
      · exact .inl (by rw [h]; rfl)
      · exact .inr ⟨s, by rw [h]; rfl, (List.prefix_append _ _).trans hp⟩
    | panic =>
      rw [hr] at hp
      rcases hp with h | h
      · exact .inl (by rw [h]; rfl)
      · exact .inr (by rw [h]; rfl)

theorem appendUpdateSet_post (name : Bytes) (v : Val) :
    PostExprG (appendUpdateSet g p name v) p ((exprRes v).map fun e => setF (name, e)) := by
  unfold appendUpdateSet
  have hp := appendExpr_post (g := g) (p := p) (tag := 3) (by decide) v
  cases hr : exprRes v with
  | err e =>
    rw [hr] at hp
    rcases hp with h | ⟨s, h, hp⟩
    · exact .inl (by dsimp only; rw [h]; rfl)
    · exact .inr ⟨s, by dsimp only; rw [h]; rfl, hp⟩
  | panic =>
    rw [hr] at hp
    rcases hp with h | h
    · exact .inl (by dsimp only; rw [h]; rfl)
    · exact .inr (by dsimp only; rw [h]; rfl)
  | ok x =>
    rw [hr] at hp
    rcases hp with h | ⟨sp, h⟩
    · exact .oom (by dsimp only; rw [h]; rfl)
    · dsimp only
      rw [h, ok_bind]
      dsimp only
      generalize hR : codeExprF 3 x = R
      have hl : (⟨p.data ++ R, sp⟩ : Slice).len - p.len = R.length := by simp [Slice.len]
      simp only [hl]
      rcases sliceInsert_cases g ⟨p.data ++ R, sp⟩ p.len (1 + sizeVarint (3 + sizeVarint (1 + sizeVarint name.length + name.length) +
          (1 + sizeVarint name.length + name.length) + R.length) + (3 + sizeVarint (1 + sizeVarint name.length + name.length) +
          (1 + sizeVarint name.length + name.length) + R.length) - R.length) (by simp [Slice.len]) (by omega) with h1 | ⟨hle, J, sp', hJ, h1⟩
      · exact .oom (by rw [h1]; rfl)
      · right
        rw [h1, ok_bind]
        have hq : AtR ⟨p.data ++ (J ++ R), sp'⟩ p.len p.data J.length R := ⟨J, rfl, rfl, rfl⟩
        rw [hJ] at hq
        rw [show (⟨p.data ++ R, sp⟩ : Slice).data.take p.len = p.data by simp [Slice.len],
          show (⟨p.data ++ R, sp⟩ : Slice).data.drop p.len = R by simp [Slice.len]]
        have hmax : maxAlloc = 2 ^ 48 := rfl
        have hlen : (⟨p.data ++ R, sp⟩ : Slice).len = p.data.length + R.length := by simp [Slice.len]
        rw [hlen] at hle
        clear h1 hJ
        have ls := varint_length_le10 (x := name.length) (by omega)
        rw [sizeVarint_eq (x := name.length) (by omega)] at hle hq ⊢
        generalize hN1 : 1 + (varint name.length).length + name.length = N1 at *
        have l1 := varint_length_le10 (x := N1) (by omega)
        rw [sizeVarint_eq (x := N1) (by omega)] at hle hq ⊢
        generalize hN2 : 3 + (varint N1).length + N1 + R.length = N2 at *
        have l2 := varint_length_le10 (x := N2) (by omega)
        rw [sizeVarint_eq (x := N2) (by omega)] at hle hq
        generalize (⟨p.data ++ (J ++ R), sp'⟩ : Slice) = q at *
        obtain ⟨q, e, hq⟩ := hq.set (keyBytes 7) (by omega)
        rw [e, ok_bind]
        obtain ⟨q, e, hq⟩ := hq.put (x := N2) (by omega) (by omega)
        rw [e, ok_bind]
        obtain ⟨q, e, hq⟩ := hq.set (keyBytes 1) (by omega)
        dsimp only; rw [e, ok_bind]
        obtain ⟨q, e, hq⟩ := hq.put (x := N1) (by omega) (by omega)
        rw [e, ok_bind]
        obtain ⟨q, e, hq⟩ := hq.set (keyBytes 2) (by omega)
        dsimp only; rw [e, ok_bind]
        obtain ⟨q, e, hq⟩ := hq.put (x := name.length) (by omega) (by omega)
        rw [e, ok_bind]
        obtain ⟨q, e, hq⟩ := hq.copy name (by omega)
        dsimp only; rw [e, ok_bind]
        obtain ⟨q, e, hq⟩ := hq.set (keyVarint 2) (by omega)
        dsimp only; rw [e, ok_bind]
        obtain ⟨q, e, hq⟩ := hq.set 1 (by omega)
        rw [e, ok_bind]
        refine ⟨q.spare, ?_⟩
        have hd := hq.done (by omega)
        have : q.data = p.data ++ setF (name, x) := by
          rw [hd]
          simp [setF, hR, encFields, encField, keyBytes7, keyBytes1, keyBytes2, keyVarint2]
          rw [show (varint name.length).length + name.length + 1 = N1 by omega]
          congr 2; omega
        rw [← this]

end Verif.Proof
