import Verif.Proof.CrudPost
/-! The builder on the level of messages, and the proof that the byte level builder implements it. -/
namespace Verif.Proof
open Verif.Go Verif.Spec Verif.Model

variable {g : Grow} {p : Slice}

/-! ### refinement of computations -/

/-- `r` runs out of memory, or does what `o` says; `none` stands for a panic. -/
def Ref {α β : Type} (r : M α) (o : Option β) (R : α → β → Prop) : Prop :=
  r = .error .oom ∨ match o with
    | none => r = .error .panic
    | some y => ∃ x, r = .ok x ∧ R x y

theorem Ref.oom {α β : Type} {r : M α} {o : Option β} {R : α → β → Prop} (h : r = .error .oom) : Ref r o R := .inl h

theorem Ref.pure {α β : Type} {x : α} {y : β} {R : α → β → Prop} (h : R x y) : Ref (.ok x) (some y) R :=
  .inr ⟨x, rfl, h⟩

theorem Ref.bind {α β γ δ : Type} {r : M α} {o : Option β} {R : α → β → Prop} {k : α → M γ} {l : β → Option δ}
    {S : γ → δ → Prop} (h : Ref r o R) (hk : ∀ x y, R x y → Ref (k x) (l y) S) : Ref (r >>= k) (o.bind l) S := by
  rcases h with h | h
  · exact .inl (by rw [h]; rfl)
  · cases o with
    | none => exact .inr (by rw [show r = .error .panic from h]; rfl)
    | some y =>
      obtain ⟨x, hx, hr⟩ := h
      rw [hx, ok_bind]
      exact hk x y hr

theorem Ref.bind' {α β γ δ : Type} {r : M α} {o : Option β} {R : α → β → Prop} {k : α → M γ} {l : β → Option δ}
    {S : γ → δ → Prop} (h : Ref r o R) (hk : ∀ x y, r = .ok x → o = some y → R x y → Ref (k x) (l y) S) :
    Ref (r >>= k) (o.bind l) S := by
  rcases h with h | h
  · exact .inl (by rw [h]; rfl)
  · cases o with
    | none => exact .inr (by rw [show r = .error .panic from h]; rfl)
    | some y =>
      obtain ⟨x, hx, hr⟩ := h
      rw [hx, ok_bind]
      exact hk x y hx rfl hr

theorem Ref.mono {α β : Type} {r : M α} {o : Option β} {R S : α → β → Prop} (h : Ref r o R)
    (hs : ∀ x y, R x y → S x y) : Ref r o S := by
  rcases h with h | h
  · exact .inl h
  · cases o with
    | none => exact .inr h
    | some y => obtain ⟨x, hx, hr⟩ := h; exact .inr ⟨x, hx, hs x y hr⟩

/-! ### rows and assignments -/

/-- outcome of the rows of `Insert`, from row `i` on -/
def rowsRes (ncols : Nat) (i : Nat) : List (List Val) → Res (List (List PExpr))
  | [] => .ok []
  | row :: rows =>
    if row.length ≠ ncols then .err (.rowLen i ncols row.length)
    else
      match rowRes 0 row with
      | .ok es =>
        match rowsRes ncols (i + 1) rows with
        | .ok rs => .ok (es :: rs)
        | .err e => .err e
        | .panic => .panic
      | .err e => .err e
      | .panic => .panic

theorem insertRows_post (ncols : Nat) (rows : List (List Val)) : ∀ (i : Nat) (p : Slice),
    PostExprG (insertRows g p ncols i rows) p ((rowsRes ncols i rows).map fun rs => rs.flatMap rowF) := by
  induction rows with
  | nil => intro i p; exact .inr ⟨p.spare, by simp [insertRows]⟩
  | cons row rows ih =>
    intro i p
    rw [insertRows, rowsRes]
    split
    · exact .inr ⟨p, rfl, List.prefix_refl _⟩
    · have h := appendInsertRow_post (g := g) (p := p) row
      cases hr : rowRes 0 row with
      | ok es =>
        rw [hr] at h
        rcases h with h | ⟨sp, h⟩
        · exact .oom (by rw [h]; rfl)
        · rw [h, ok_bind]
          have ih := ih (i + 1) ⟨p.data ++ rowF es, sp⟩
          dsimp only
          cases hr2 : rowsRes ncols (i + 1) rows with
          | ok ss =>
            rw [hr2] at ih
            rcases ih with h | ⟨sp', h⟩
            · exact .inl h
            · exact .inr ⟨sp', by rw [h]; simp⟩
          | err e =>
            rw [hr2] at ih
            rcases ih with h | ⟨s, h, hp⟩
            · exact .inl h
            · exact .inr ⟨s, h, (List.prefix_append _ _).trans hp⟩
          | panic => rw [hr2] at ih; exact ih
      | err e =>
        rw [hr] at h
        rcases h with h | ⟨s, h, hp⟩
        · exact .inl (by rw [h]; rfl)
        · exact .inr ⟨s, by rw [h]; rfl, hp⟩
      | panic =>
        rw [hr] at h
        rcases h with h | h
        · exact .inl (by rw [h]; rfl)
        · exact .inr (by rw [h]; rfl)

/-- outcome of the assignments of `Update` -/
def setsRes : List (Bytes × Val) → Res (List (Bytes × PExpr))
  | [] => .ok []
  | (name, v) :: rest =>
    match exprRes v with
    | .ok e =>
      match setsRes rest with
      | .ok ss => .ok ((name, e) :: ss)
      | .err e => .err e
      | .panic => .panic
    | .err e => .err e
    | .panic => .panic

theorem updateSets_post (sets : List (Bytes × Val)) : ∀ (p : Slice),
    PostExprG (updateSets g p sets) p ((setsRes sets).map fun ss => ss.flatMap setF) := by
  induction sets with
  | nil => intro p; exact .inr ⟨p.spare, by simp [updateSets]⟩
  | cons s rest ih =>
    intro p
    obtain ⟨name, v⟩ := s
    rw [updateSets, setsRes]
    have h := appendUpdateSet_post (g := g) (p := p) name v
    cases hr : exprRes v with
    | ok es =>
      rw [hr] at h
      rcases h with h | ⟨sp, h⟩
      · exact .oom (by rw [h]; rfl)
      · rw [h, ok_bind]
        have ih := ih ⟨p.data ++ setF (name, es), sp⟩
        dsimp only
        cases hr2 : setsRes rest with
        | ok ss =>
          rw [hr2] at ih
          rcases ih with h | ⟨sp', h⟩
          · exact .inl h
          · exact .inr ⟨sp', by rw [h]; simp⟩
        | err e =>
          rw [hr2] at ih
          rcases ih with h | ⟨s, h, hp⟩
          · exact .inl h
          · exact .inr ⟨s, h, (List.prefix_append _ _).trans hp⟩
        | panic => rw [hr2] at ih; exact ih
    | err e =>
      rw [hr] at h
      rcases h with h | ⟨s, h, hp⟩
      · exact .inl (by rw [h]; rfl)
      · exact .inr ⟨s, by rw [h]; rfl, hp⟩
    | panic =>
      rw [hr] at h
      rcases h with h | h
      · exact .inl (by rw [h]; rfl)
      · exact .inr (by rw [h]; rfl)

/-! ### calls -/

def bytesOf (ms : List ClientMsg) : Bytes := ms.flatMap codeFrame

theorem bytesOf_append (a b : List ClientMsg) : bytesOf (a ++ b) = bytesOf a ++ bytesOf b := by
  simp [bytesOf]

/-- the recorded error, or the messages so far -/
abbrev PState := Except Err (List ClientMsg)

/-- `SET @id$n = LAST_INSERT_ID()` -/
def setId (n : Nat) : Bytes := ascii "SET " ++ idVariable n ++ ascii " = LAST_INSERT_ID()"

/-- messages and reply of a call, `n` bytes being in the buffer -/
def callRes (n : Nat) : Call → Res (List ClientMsg × Option Val)
  | .stmtExecute s args => (argsRes args).map fun as => ([.stmtExecute s as], none)
  | .prepare id s => .ok ([.prepare id.toNat s], none)
  | .execute id args => (argsRes args).map fun as => ([.execute id.toNat as], none)
  | .deallocate id => .ok ([.deallocate id.toNat], none)
  | .insert name cols data => (rowsRes cols.length 0 data).map fun rs => ([.insert name (some 2) cols rs], none)
  | .insertRow name cols row => (rowRes 0 row).map fun es =>
      let m := n + (codeFrame (.insert name (some 2) cols [es])).length
      ([.insert name (some 2) cols [es], .stmtExecute (setId m) []], some (.variable (idVariable m)))
  | .update name crit sets =>
    match critRes crit with
    | .ok c => (setsRes sets).map fun ss => ([.update name (some 2) c ss], none)
    | .err e => .err e
    | .panic => .panic
  | .delete name crit => (critRes crit).map fun c => ([.delete name none c], none)

/-- `o`: bytes in front -/
def stepP (o : Nat) (st : PState) (c : Call) : Option (PState × Option Val) :=
  match st with
  | .error e => some (.error e, none)
  | .ok ms =>
    match callRes (o + (bytesOf ms).length) c with
    | .ok (m, r) => some (.ok (ms ++ m), r)
    | .err e => some (.error e, none)
    | .panic => none

/-- the builder `b` holds the state `st` behind the bytes `Z` -/
def BRel (Z : Bytes) (b : Builder) (st : PState) : Prop :=
  b.disabled = false ∧ match st with
    | .error e => b.err = some e
    | .ok ms => b.err = none ∧ b.buf.data = Z ++ bytesOf ms

variable {Z : Bytes}

theorem BRel.mk_ok {ms : List ClientMsg} {d sp : Bytes} (h : d = Z ++ bytesOf ms) :
    BRel Z { buf := ⟨d, sp⟩, err := none, disabled := false } (.ok ms) := ⟨rfl, rfl, h⟩

/-- a call whose outcome is one of the encoders' -/
theorem Ref.of_post {r : M (Slice × Option Err)} {res : Res ClientMsg} {b : Builder} {ms : List ClientMsg}
    (hb : BRel Z b (.ok ms)) (h : PostMsg r b.buf res) :
    Ref (r >>= fun x => .ok ({ b with buf := x.1, err := x.2 }, none))
      (match (res.map fun m => (([m], none) : List ClientMsg × Option Val)) with
        | .ok (m, r) => some ((.ok (ms ++ m) : PState), r)
        | .err e => some (.error e, none)
        | .panic => none)
      (fun x y => BRel Z x.1 y.1 ∧ x.2 = y.2) := by
  obtain ⟨hd, he, hbuf⟩ := hb
  cases res with
  | ok m =>
    rcases h with h | ⟨sp, h⟩
    · exact .oom (by rw [h]; rfl)
    · rw [h, ok_bind]
      refine .pure ⟨⟨hd, rfl, ?_⟩, rfl⟩
      simp [hbuf, bytesOf]
  | err e =>
    rcases h with h | ⟨s, h⟩
    · exact .oom (by rw [h]; rfl)
    · rw [h, ok_bind]
      exact .pure ⟨⟨hd, rfl⟩, rfl⟩
  | panic =>
    rcases h with h | h
    · exact .oom (by rw [h]; rfl)
    · exact .inr (by rw [h]; rfl)

theorem Ref.of_appends {r : M Slice} {m : ClientMsg} {b : Builder} {ms : List ClientMsg}
    (hb : BRel Z b (.ok ms)) (h : Appends r b.buf (codeFrame m)) :
    Ref (r >>= fun x => .ok ({ b with buf := x }, none))
      (some ((.ok (ms ++ [m]) : PState), (none : Option Val)))
      (fun x y => BRel Z x.1 y.1 ∧ x.2 = y.2) := by
  obtain ⟨hd, he, hbuf⟩ := hb
  rcases h with h | ⟨sp, h⟩
  · exact .oom (by rw [h]; rfl)
  · rw [h, ok_bind]
    refine .pure ⟨⟨hd, he, ?_⟩, rfl⟩
    simp [hbuf, bytesOf]

theorem BRel.upd {b : Builder} {ms : List ClientMsg} (hb : BRel Z b (.ok ms)) {s : Slice} {ms' : List ClientMsg}
    (h : s.data = Z ++ bytesOf ms') : BRel Z { b with buf := s } (.ok ms') := ⟨hb.1, hb.2.1, h⟩

theorem BRel.updErr {b : Builder} {ms : List ClientMsg} (hb : BRel Z b (.ok ms)) {s : Slice} {e : Err} :
    BRel Z { b with buf := s, err := some e } (.error e) := ⟨hb.1, rfl⟩

/-- patching the header of an insert -/
theorem patch_frame {A J E : Bytes} {t : UInt8} {sp : Bytes} {i : Nat} (hJ : J.length = 4) (hi : i = A.length) :
    putUint32 ⟨A ++ (J ++ t :: E), sp⟩ i ((⟨A ++ (J ++ t :: E), sp⟩ : Slice).len - i - 4) =
      .ok ⟨A ++ frame (t, E), sp⟩ := by
  rw [putUint32_at (A := A) (J := J) (R := t :: E) rfl hJ hi]
  simp [frame, Slice.len, hi, hJ]

theorem stmt_ref {b : Builder} {ms : List ClientMsg} (hb : BRel Z b (.ok ms)) (s : Bytes) :
    Ref (b.stmtExecute g s []) (some (.ok (ms ++ [.stmtExecute s []]) : PState)) (fun b y => BRel Z b y) := by
  rw [Builder.stmtExecute, if_neg (by simp [hb.1]), if_neg (by simp [hb.2.1])]
  have h := stmtExecute_post (g := g) (p := b.buf) s []
  rcases h with h | ⟨sp, h⟩
  · exact .oom (by rw [h]; rfl)
  · rw [h, ok_bind]
    refine .pure ⟨hb.1, rfl, ?_⟩
    simp [hb.2.2, bytesOf]

theorem step_ref (c : Call) {b : Builder} {st : PState} (hb : BRel Z b st) :
    Ref (b.step g c) (stepP Z.length st c) (fun x y => BRel Z x.1 y.1 ∧ x.2 = y.2) := by
  cases st with
  | error e =>
    unfold Builder.step
    rw [if_neg (by simp [hb.1]), if_pos (by rw [hb.2]; rfl)]
    exact .pure ⟨hb, rfl⟩
  | ok ms =>
    have hlen : b.buf.len = Z.length + (bytesOf ms).length := by simp [Slice.len, hb.2.2]
    unfold Builder.step stepP
    rw [if_neg (by simp [hb.1]), if_neg (by simp [hb.2.1])]
    cases c with
    | stmtExecute s args =>
      have h := Ref.of_post hb (stmtExecute_post (g := g) (p := b.buf) s args)
      simp only [callRes]
      rw [Builder.stmtExecute, if_neg (by simp [hb.1]), if_neg (by simp [hb.2.1]), bind_assoc]
      rw [show ((argsRes args).map (ClientMsg.stmtExecute s)).map (fun m => (([m], none) : List ClientMsg × Option Val)) =
        (argsRes args).map (fun as => ([.stmtExecute s as], none)) by cases argsRes args <;> rfl] at h
      exact h
    | prepare id s => exact Ref.of_appends hb (prepare_post id s)
    | execute id args =>
      have h := Ref.of_post hb (execute_post (g := g) (p := b.buf) id args)
      rw [show ((argsRes args).map (ClientMsg.execute id.toNat)).map (fun m => (([m], none) : List ClientMsg × Option Val)) =
        (argsRes args).map (fun as => ([.execute id.toNat as], none)) by cases argsRes args <;> rfl] at h
      exact h
    | deallocate id => exact Ref.of_appends hb (deallocate_post id)
    | delete name crit =>
      have h := Ref.of_post hb (delete_post (g := g) (p := b.buf) name crit)
      rw [show ((critRes crit).map (fun e => ClientMsg.delete name none e)).map (fun m => (([m], none) : List ClientMsg × Option Val)) =
        (critRes crit).map (fun c => ([.delete name none c], none)) by cases critRes crit <;> rfl] at h
      exact h
    | insert name cols data =>
      simp only [callRes]
      rcases insert_post (p := b.buf) name cols with h | ⟨J, sp, hJ, h⟩
      · exact .oom (by rw [h]; rfl)
      · rw [h, ok_bind]
        have h := insertRows_post (g := g) cols.length data 0 ⟨b.buf.data ++ (J ++ 18 :: (nameF 1 name ++ (encField (2, .varint 2) ++ columnsF cols))), sp⟩
        cases hr : rowsRes cols.length 0 data with
        | ok rs =>
          rw [hr] at h
          rcases h with h | ⟨sp, h⟩
          · exact .oom (by rw [h]; rfl)
          · rw [h, ok_bind]
            dsimp only
            rw [List.append_assoc, List.append_assoc, List.cons_append, patch_frame (i := b.buf.len) hJ rfl, ok_bind]
            refine .pure ⟨hb.upd ?_, rfl⟩
            simp [bytesOf, codeFrame, codeMsg, optDM, hb.2.2]
        | err e =>
          rw [hr] at h
          rcases h with h | ⟨s, h, hp⟩
          · exact .oom (by rw [h]; rfl)
          · rw [h, ok_bind]
            exact .pure ⟨hb.updErr, rfl⟩
        | panic =>
          rw [hr] at h
          rcases h with h | h
          · exact .oom (by rw [h]; rfl)
          · exact .inr (by rw [h]; rfl)
    | insertRow name cols row =>
      simp only [callRes]
      rcases insert_post (p := b.buf) name cols with h | ⟨J, sp, hJ, h⟩
      · exact .oom (by rw [h]; rfl)
      · rw [h, ok_bind]
        have h := appendInsertRow_post (g := g) (p := ⟨b.buf.data ++ (J ++ 18 :: (nameF 1 name ++ (encField (2, .varint 2) ++ columnsF cols))), sp⟩) row
        cases hr : rowRes 0 row with
        | ok es =>
          rw [hr] at h
          rcases h with h | ⟨sp, h⟩
          · exact .oom (by rw [h]; rfl)
          · rw [h, ok_bind]
            dsimp only
            rw [List.append_assoc, List.append_assoc, List.cons_append, patch_frame (i := b.buf.len) hJ rfl, ok_bind]
            have hf : frame (18, nameF 1 name ++ (encField (2, .varint 2) ++ columnsF cols) ++ rowF es) =
                codeFrame (.insert name (some 2) cols [es]) := by
              simp [codeFrame, codeMsg, optDM]
            rw [hf]
            have hn : (⟨b.buf.data ++ codeFrame (.insert name (some 2) cols [es]), sp⟩ : Slice).len =
              Z.length + (bytesOf ms).length + (codeFrame (.insert name (some 2) cols [es])).length := by
                simp [Slice.len, hb.2.2]; omega
            rw [hn]
            have hs := stmt_ref (g := g) (b := { b with buf := ⟨b.buf.data ++ codeFrame (.insert name (some 2) cols [es]), sp⟩ })
              (ms := ms ++ [.insert name (some 2) cols [es]]) (hb.upd (by simp [bytesOf, hb.2.2]))
              (setId (Z.length + (bytesOf ms).length + (codeFrame (.insert name (some 2) cols [es])).length))
            have := hs.bind (k := fun b => .ok (b, some (.variable (idVariable (Z.length + (bytesOf ms).length + (codeFrame (.insert name (some 2) cols [es])).length)))))
              (l := fun st => some (st, some (Val.variable (idVariable (Z.length + (bytesOf ms).length + (codeFrame (.insert name (some 2) cols [es])).length)))))
              (S := fun x y => BRel Z x.1 y.1 ∧ x.2 = y.2) (fun x y h => .pure ⟨h, rfl⟩)
            simpa [setId, Res.map] using this
        | err e =>
          rw [hr] at h
          rcases h with h | ⟨s, h, hp⟩
          · exact .oom (by rw [h]; rfl)
          · rw [h, ok_bind]
            exact .pure ⟨hb.updErr, rfl⟩
        | panic =>
          rw [hr] at h
          rcases h with h | h
          · exact .oom (by rw [h]; rfl)
          · exact .inr (by rw [h]; rfl)
    | update name crit sets =>
      simp only [callRes]
      have h := update_post (g := g) (p := b.buf) name crit
      cases hc : critRes crit with
      | err e =>
        rw [hc] at h
        rcases h with h | ⟨s, h, hp⟩
        · exact .oom (by rw [h]; rfl)
        · rw [h, ok_bind]
          exact .pure ⟨hb.updErr, rfl⟩
      | panic =>
        rw [hc] at h
        rcases h with h | h
        · exact .oom (by rw [h]; rfl)
        · exact .inr (by rw [h]; rfl)
      | ok c =>
        rw [hc] at h
        rcases h with h | ⟨J, sp, hJ, h⟩
        · exact .oom (by rw [h]; rfl)
        · rw [h, ok_bind]
          dsimp only
          have h := updateSets_post (g := g) sets ⟨b.buf.data ++ (J ++ 19 :: (nameF 2 name ++ (encField (3, .varint 2) ++ critF 4 c))), sp⟩
          cases hr : setsRes sets with
          | ok rs =>
            rw [hr] at h
            rcases h with h | ⟨sp, h⟩
            · exact .oom (by rw [h]; rfl)
            · rw [h, ok_bind]
              dsimp only
              rw [List.append_assoc, List.append_assoc, List.cons_append, patch_frame (i := b.buf.len) hJ rfl, ok_bind]
              refine .pure ⟨hb.upd ?_, rfl⟩
              simp [bytesOf, codeFrame, codeMsg, optDM, hb.2.2]
          | err e =>
            rw [hr] at h
            rcases h with h | ⟨s, h, hp⟩
            · exact .oom (by rw [h]; rfl)
            · rw [h, ok_bind]
              exact .pure ⟨hb.updErr, rfl⟩
          | panic =>
            rw [hr] at h
            rcases h with h | h
            · exact .oom (by rw [h]; rfl)
            · exact .inr (by rw [h]; rfl)

end Verif.Proof
