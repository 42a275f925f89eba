import Verif.Spec.Recover
import Verif.Proof.Explodes
import Verif.Proof.Record
/-! Programs that recover: the builders are left as `Ran` says. -/
namespace Verif.Proof
open Verif.Go Verif.Spec Verif.Model

variable {g : Grow}

/-! ### forgetting what a panic leaves behind gives the functions of Model/Builder.lean -/

def erase {σ α : Type} : Ended σ α → M (σ × α)
  | .ret s a => .ok (s, a)
  | .panic _ => .error .panic
  | .oom => .error .oom

theorem erase_of {σ α β : Type} (s : σ) (r : M α) (k : α → Ended σ β) : erase (Ended.of s r k) = r >>= fun a => erase (k a) := by
  match r with
  | .ok a => rfl
  | .error .panic => rfl
  | .error .oom => rfl

theorem erase_then {σ α β : Type} (x : Ended σ α) (k : σ → α → Ended σ β) :
    erase (x.then k) = erase x >>= fun y => erase (k y.1 y.2) := by
  cases x <;> rfl

theorem erase_rowsLeft (n : Nat) (rows : List (List Val)) : ∀ (i : Nat) (b : Builder), b.err = none →
    erase (b.rowsLeft g n i rows) = insertRows g b.buf n i rows >>= fun x => .ok ({ b with buf := x.1, err := x.2 }, ()) := by
  induction rows with
  | nil => intro i b hb; cases b; cases hb; rfl
  | cons row rows ih =>
    intro i b hb
    rw [Builder.rowsLeft, insertRows]
    split
    · rfl
    · rw [erase_of, bind_assoc]
      congr 1
      funext x
      obtain ⟨p, err⟩ := x
      cases err with
      | some e => rfl
      | none => exact ih (i + 1) _ hb

theorem erase_setsLeft (sets : List (Bytes × Val)) : ∀ (b : Builder), b.err = none →
    erase (b.setsLeft g sets) = updateSets g b.buf sets >>= fun x => .ok ({ b with buf := x.1, err := x.2 }, ()) := by
  induction sets with
  | nil => intro b hb; cases b; cases hb; rfl
  | cons s rest ih =>
    intro b hb
    obtain ⟨k, v⟩ := s
    rw [Builder.setsLeft, updateSets, erase_of, bind_assoc]
    congr 1
    funext x
    obtain ⟨p, err⟩ := x
    cases err with
    | some e => rfl
    | none => exact ih _ hb

theorem erase_stmtLeft (b : Builder) (s : Bytes) (args : List Val) :
    erase (b.stmtLeft g s args) = b.stmtExecute g s args >>= fun b => .ok (b, none) := by
  rw [Builder.stmtLeft, Builder.stmtExecute]
  split
  · rfl
  · split
    · rfl
    · rw [erase_of, bind_assoc]; rfl

theorem erase_stmtsLeft (ss : List Bytes) : ∀ (b : Builder),
    erase (b.stmtsLeft g ss) = b.stmts g ss >>= fun b => .ok (b, none) := by
  induction ss with
  | nil => intro b; rfl
  | cons s ss ih =>
    intro b
    rw [Builder.stmtsLeft, Builder.stmts, erase_then, erase_stmtLeft, bind_assoc, bind_assoc]
    congr 1
    funext b
    exact ih b

theorem erase_stepLeft (b : Builder) (c : Call) : erase (b.stepLeft g c) = b.step g c := by
  unfold Builder.stepLeft Builder.step
  split
  · rfl
  · split
    · rfl
    · rename_i hd he
      replace he : b.err = none := by cases h : b.err <;> simp_all
      cases c with
      | stmtExecute s args => exact erase_stmtLeft b s args
      | prepare id s => exact erase_of _ _ _
      | execute id args => exact erase_of _ _ _
      | deallocate id => exact erase_of _ _ _
      | delete t crit => exact erase_of _ _ _
      | insert t cols data =>
        dsimp only
        rw [erase_of]
        congr 1
        funext p
        rw [erase_then, erase_rowsLeft _ _ _ { b with buf := p } he, bind_assoc]
        congr 1
        funext x
        obtain ⟨p, err⟩ := x
        cases err with
        | some e => rfl
        | none => exact (erase_of _ _ _).trans (by cases b; cases he; rfl)
      | insertRow t cols row =>
        dsimp only
        rw [erase_of]
        congr 1
        funext p
        rw [erase_of]
        congr 1
        funext x
        obtain ⟨p, err⟩ := x
        cases err with
        | some e => rfl
        | none =>
          dsimp only
          rw [erase_then, Builder.patchLeft]
          rw [if_neg (by simp [he]), erase_of, bind_assoc]
          congr 1
          funext p
          rw [erase, ok_bind]
          dsimp only
          rw [erase_then, erase_stmtLeft, bind_assoc]
          rfl
      | update t crit sets =>
        dsimp only
        rw [erase_of]
        congr 1
        funext x
        obtain ⟨p, err⟩ := x
        cases err with
        | some e => rfl
        | none =>
          dsimp only
          rw [erase_then, erase_setsLeft _ { b with buf := p } he, bind_assoc]
          congr 1
          funext x
          obtain ⟨p, err⟩ := x
          cases err with
          | some e => rfl
          | none => exact (erase_of _ _ _).trans (by cases b; cases he; rfl)

theorem erase_ok {σ α : Type} {x : Ended σ α} {s : σ} {a : α} (h : erase x = .ok (s, a)) : x = .ret s a := by
  cases x <;> cases h; rfl

theorem erase_panic {σ α : Type} {x : Ended σ α} (h : erase x = .error .panic) : ∃ s, x = .panic s := by
  cases x with
  | panic s => exact ⟨s, rfl⟩
  | _ => cases h

theorem erase_oom {σ α : Type} {x : Ended σ α} (h : erase x = .error .oom) : x = .oom := by
  cases x <;> cases h; rfl

/-! ### calls that panic -/

theorem FirstBad.split {α : Type} {good bad : α → Prop} {l : List α} (h : FirstBad good bad l) :
    ∃ front x rest, l = front ++ x :: rest ∧ (∀ y ∈ front, good y) ∧ bad x := by
  obtain ⟨i, x, h1, h2, h3⟩ := h
  refine ⟨l.take i, x, l.drop (i + 1), ?_, h2, h3⟩
  obtain ⟨hi, rfl⟩ := List.getElem?_eq_some_iff.mp h1
  rw [List.getElem_cons_drop, List.take_append_drop]

theorem codeFrame_drop (m : ClientMsg) : (codeFrame m).drop 4 = (codeMsg m).1 :: (codeMsg m).2 := by
  rw [codeFrame, frame, List.drop_left' (fixed_length _ _)]

/-- A slice behind which a message without header has been written. -/
def Torn (p q : Slice) (m : ClientMsg) : Prop := ∃ J, J.length = 4 ∧ q.data = p.data ++ (J ++ (codeFrame m).drop 4)

theorem rowsLeft_cut {ncols : Nat} {row : List Val} {rest : List (List Val)} (hl : row.length = ncols) (hx : RowExplodes modelDur row)
    (front : List (List Val)) : ∀ (i : Nat) (b : Builder) (rs : List (List PExpr)),
    (∀ r ∈ front, r.length = ncols) → Rows modelDur front rs →
    b.rowsLeft g ncols i (front ++ row :: rest) = .oom ∨
    ∃ sp, b.rowsLeft g ncols i (front ++ row :: rest) = .panic { b with buf := ⟨b.buf.data ++ rs.flatMap rowF, sp⟩ } := by
  induction front with
  | nil =>
    intro i b rs _ hr
    cases rs with
    | cons => cases hr
    | nil =>
      rw [List.nil_append, Builder.rowsLeft, if_neg (by simpa using hl)]
      have hp := appendInsertRow_post (g := g) (p := b.buf) row
      rw [explodes_rowRes hx] at hp
      rcases hp with h | h
      · exact .inl (by rw [h]; rfl)
      · exact .inr ⟨b.buf.spare, by rw [h]; simp [Ended.of]⟩
  | cons r front ih =>
    intro i b rs hls hr
    cases rs with
    | nil => cases hr
    | cons es rs =>
      rw [List.cons_append, Builder.rowsLeft, if_neg (by simpa using hls r (.head _))]
      have hr0 : Row modelDur r es := (List.cons.inj hr).1
      have hr1 : Rows modelDur front rs := (List.cons.inj hr).2
      have hp := appendInsertRow_post (g := g) (p := b.buf) r
      rw [(rowRes_ok_iff _ _ _).mpr hr0] at hp
      rcases hp with h | ⟨sp, h⟩
      · exact .inl (by rw [h]; rfl)
      · rw [h]
        simp only [Ended.of]
        rcases ih (i + 1) { b with buf := ⟨b.buf.data ++ rowF es, sp⟩ } rs (fun r hr => hls r (.tail _ hr)) hr1 with h | ⟨sp', h⟩
        · exact .inl h
        · exact .inr ⟨sp', by rw [h]; simp⟩

theorem setsLeft_cut {s : Bytes × Val} {rest : List (Bytes × Val)} (hx : Explodes modelDur s.2)
    (front : List (Bytes × Val)) : ∀ (b : Builder) (ss : List (Bytes × PExpr)), Sets modelDur front ss →
    b.setsLeft g (front ++ s :: rest) = .oom ∨
    ∃ sp, b.setsLeft g (front ++ s :: rest) = .panic { b with buf := ⟨b.buf.data ++ ss.flatMap setF, sp⟩ } := by
  induction front with
  | nil =>
    intro b ss hr
    obtain ⟨k, v⟩ := s
    cases ss with
    | cons => cases hr
    | nil =>
      rw [List.nil_append, Builder.setsLeft]
      have hp := appendUpdateSet_post (g := g) (p := b.buf) k v
      rw [explodes_exprRes hx] at hp
      rcases hp with h | h
      · exact .inl (by rw [h]; rfl)
      · exact .inr ⟨b.buf.spare, by rw [h]; simp [Ended.of]⟩
  | cons r front ih =>
    intro b ss hr
    obtain ⟨k, v⟩ := r
    cases ss with
    | nil => cases hr
    | cons es ss =>
      obtain ⟨k', e⟩ := es
      rw [List.cons_append, Builder.setsLeft]
      have hr0 := (List.cons.inj hr).1
      have hr1 : Sets modelDur front ss := (List.cons.inj hr).2
      replace hr0 : k = k' ∧ exprOf modelDur fmtTime v = some e := Prod.mk.inj hr0
      obtain ⟨rfl, hr0⟩ := hr0
      have hp := appendUpdateSet_post (g := g) (p := b.buf) k v
      rw [(exprRes_ok_iff _ _).mpr hr0] at hp
      rcases hp with h | ⟨sp, h⟩
      · exact .inl (by rw [h]; rfl)
      · rw [h]
        simp only [Ended.of]
        rcases ih { b with buf := ⟨b.buf.data ++ setF (k, e), sp⟩ } ss hr1 with h | ⟨sp', h⟩
        · exact .inl h
        · exact .inr ⟨sp', by rw [h]; simp⟩

theorem stepLeft_cut {b : Builder} (hb : Ready b) {c : Call} {m : ClientMsg} (h : Cut modelDur c m) :
    b.stepLeft g c = .oom ∨ ∃ p, b.stepLeft g c = .panic { b with buf := p } ∧ Torn b.buf p m := by
  unfold Builder.stepLeft
  rw [if_neg (by simp [hb.1]), if_neg (by simp [hb.2])]
  cases h with
  | @insert t cols front row rest rs hls hr hl hx =>
    dsimp only
    rcases insert_post (p := b.buf) t cols with h | ⟨J, sp, hJ, h⟩
    · exact .inl (by rw [h]; rfl)
    · rw [h]
      simp only [Ended.of]
      rcases rowsLeft_cut (g := g) (rest := rest) hl hx front 0
        { b with buf := ⟨b.buf.data ++ (J ++ 18 :: (nameF 1 t ++ (encField (2, .varint 2) ++ columnsF cols))), sp⟩ } rs hls hr with h | ⟨sp', h⟩
      · exact .inl (by rw [h]; rfl)
      · refine .inr ⟨_, by rw [h]; rfl, J, hJ, ?_⟩
        simp [codeFrame_drop, codeMsg, optDM]
  | @insertRow t cols row hx =>
    dsimp only
    rcases insert_post (p := b.buf) t cols with h | ⟨J, sp, hJ, h⟩
    · exact .inl (by rw [h]; rfl)
    · rw [h]
      simp only [Ended.of]
      have hp := appendInsertRow_post (g := g)
        (p := ⟨b.buf.data ++ (J ++ 18 :: (nameF 1 t ++ (encField (2, .varint 2) ++ columnsF cols))), sp⟩) row
      rw [explodes_rowRes hx] at hp
      rcases hp with h | h
      · exact .inl (by rw [h])
      · refine .inr ⟨_, by rw [h], J, hJ, ?_⟩
        simp [codeFrame_drop, codeMsg, optDM]
  | @update t crit c front s rest ss hc hs hx =>
    dsimp only
    have hu := update_post (g := g) (p := b.buf) t crit
    rw [(critRes_ok_iff _ _).mpr hc] at hu
    rcases hu with h | ⟨J, sp, hJ, h⟩
    · exact .inl (by rw [h]; rfl)
    · rw [h]
      simp only [Ended.of]
      rcases setsLeft_cut (g := g) (rest := rest) hx front
        { b with buf := ⟨b.buf.data ++ (J ++ 19 :: (nameF 2 t ++ (encField (3, .varint 2) ++ critF 4 c))), sp⟩ } ss hs with h | ⟨sp', h⟩
      · exact .inl (by rw [h]; rfl)
      · refine .inr ⟨_, by rw [h]; rfl, J, hJ, ?_⟩
        simp [codeFrame_drop, codeMsg, optDM]

theorem fine_rows : ∀ {rows : List (List Val)}, (∀ r ∈ rows, ∀ v ∈ r, Fine modelDur v) → ∃ rs, Rows modelDur rows rs
  | [], _ => ⟨[], rfl⟩
  | r :: rows, h => by
    obtain ⟨es, he⟩ := fine_rowRes (j := 0) (h r (.head _))
    obtain ⟨rs, hr⟩ := fine_rows fun r hr => h r (.tail _ hr)
    exact ⟨es :: rs, by
      show r.map (exprOf modelDur fmtTime) :: rows.map _ = es.map some :: _
      rw [show r.map _ = es.map some from (rowRes_ok_iff _ _ _).mp he, show rows.map _ = rs.map _ from hr]⟩

theorem fine_sets : ∀ {sets : List (Bytes × Val)}, (∀ s ∈ sets, Fine modelDur s.2) → ∃ ss, Sets modelDur sets ss
  | [], _ => ⟨[], rfl⟩
  | (k, v) :: sets, h => by
    obtain ⟨e, he⟩ := Option.isSome_iff_exists.mp (h (k, v) (.head _))
    obtain ⟨ss, hs⟩ := fine_sets fun r hr => h r (.tail _ hr)
    exact ⟨(k, e) :: ss, by
      show _ :: _ = _ :: _
      rw [show sets.map _ = ss.map _ from hs]
      simp only [he]⟩

theorem explodes_cut {c : Call} (h : CallExplodes modelDur c) :
    (∃ m, Cut modelDur c m) ∨ (∀ m, ¬Cut modelDur c m) ∧ ∀ (g : Grow) (b : Builder), Ready b → b.stepLeft g c = .oom ∨ b.stepLeft g c = .panic b := by
  cases c with
  | stmtExecute s args =>
    refine .inr ⟨fun m hm => (by cases hm), fun g b hb => ?_⟩
    unfold Builder.stepLeft
    rw [if_neg (by simp [hb.1]), if_neg (by simp [hb.2])]
    dsimp only
    rw [Builder.stmtLeft, if_neg (by simp [hb.1]), if_neg (by simp [hb.2])]
    have hp := stmtExecute_post (g := g) (p := b.buf) s args
    rw [explodes_argsRes h] at hp
    rcases hp with h | h
    · exact .inl (by rw [h]; rfl)
    · exact .inr (by rw [h]; rfl)
  | prepare => cases h
  | deallocate => cases h
  | execute id args =>
    refine .inr ⟨fun m hm => (by cases hm), fun g b hb => ?_⟩
    unfold Builder.stepLeft
    rw [if_neg (by simp [hb.1]), if_neg (by simp [hb.2])]
    dsimp only
    have hp := execute_post (g := g) (p := b.buf) id args
    rw [explodes_argsRes h] at hp
    rcases hp with h | h
    · exact .inl (by rw [h]; rfl)
    · exact .inr (by rw [h]; rfl)
  | delete t crit =>
    obtain ⟨v, rfl, h⟩ := h
    refine .inr ⟨fun m hm => (by cases hm), fun g b hb => ?_⟩
    unfold Builder.stepLeft
    rw [if_neg (by simp [hb.1]), if_neg (by simp [hb.2])]
    dsimp only
    have hp := delete_post (g := g) (p := b.buf) t (some v)
    rw [critRes, explodes_exprRes h] at hp
    rcases hp with h | h
    · exact .inl (by rw [h]; rfl)
    · exact .inr (by rw [h]; rfl)
  | insert t cols data =>
    obtain ⟨front, row, rest, rfl, hf, hl, hx⟩ := FirstBad.split h
    obtain ⟨rs, hr⟩ := fine_rows fun r hr => (hf r hr).2
    exact .inl ⟨_, .insert (fun r hr => (hf r hr).1) hr hl hx⟩
  | insertRow t cols row => exact .inl ⟨_, .insertRow h⟩
  | update t crit sets =>
    rcases h with ⟨v, rfl, h⟩ | ⟨hf, h⟩
    · refine .inr ⟨fun m hm => ?_, fun g b hb => ?_⟩
      · cases hm with
        | update hc hs hx =>
          rename_i hc0 _ _
          have := (critRes_ok_iff _ _).mpr hc
          rw [critRes, explodes_exprRes h] at this
          cases this
      · unfold Builder.stepLeft
        rw [if_neg (by simp [hb.1]), if_neg (by simp [hb.2])]
        dsimp only
        have hp := update_post (g := g) (p := b.buf) t (some v)
        rw [critRes, explodes_exprRes h] at hp
        rcases hp with h | h
        · exact .inl (by rw [h]; rfl)
        · exact .inr (by rw [h]; rfl)
    · obtain ⟨c, hc⟩ := fine_critRes hf
      obtain ⟨front, s, rest, rfl, hf, hx⟩ := FirstBad.split h
      obtain ⟨ss, hs⟩ := fine_sets hf
      exact .inl ⟨_, .update ((critRes_ok_iff _ _).mp hc) hs hx⟩

/-! ### what the buffer holds -/

/-- the bytes of pieces; of a message cut short the header is whatever was there -/
inductive Written : List Piece → Bytes → Prop
  | nil : Written [] []
  | msg {ps bs m} : Written ps bs → Written (ps ++ [.msg m]) (bs ++ codeFrame m)
  | cut {ps bs m J} : Written ps bs → J.length = 4 → Written (ps ++ [.cut m]) (bs ++ (J ++ (codeFrame m).drop 4))

/-- number of bytes -/
def piecesLen (ps : List Piece) : Nat :=
  (ps.map fun p => match p with
    | .msg m => (codeFrame m).length
    | .cut m => (codeFrame m).length).sum

theorem Written.length {ps : List Piece} {bs : Bytes} (h : Written ps bs) : bs.length = piecesLen ps := by
  induction h with
  | nil => rfl
  | msg _ ih => simp [piecesLen] at ih ⊢; omega
  | @cut _ _ m _ _ hJ ih =>
    have := codeFrame_length m
    simp [piecesLen] at ih ⊢
    omega

theorem Written.msgs {ps : List Piece} {bs : Bytes} (h : Written ps bs) (ms : List ClientMsg) :
    Written (ps ++ ms.map .msg) (bs ++ bytesOf ms) := by
  induction ms generalizing ps bs with
  | nil => simpa [bytesOf] using h
  | cons m ms ih => simpa [bytesOf] using ih (h.msg (m := m))

/-- the builder `b` is left as `a` says, behind the bytes `Z` -/
def LRel (Z : Bytes) (b : Builder) (a : Left) : Prop :=
  b.disabled = a.dead ∧ match a.unit with
    | .error e => b.err = some e
    | .ok ps => b.err = none ∧ ∃ bs, Written ps bs ∧ b.buf.data = Z ++ bs

/-- names by the number of bytes -/
def nameP (z : Nat) (ps : List Piece) : Bytes := idVariable (z + piecesLen ps)

variable {Z : Bytes}

theorem LRel.ready {b : Builder} {ps : List Piece} (h : LRel Z b ⟨.ok ps, false⟩) : Ready b := ⟨h.1, h.2.1⟩

theorem LRel.same {b : Builder} {ps : List Piece} (h : LRel Z b ⟨.ok ps, false⟩) : BRel b.buf.data b (.ok []) := Ready.rel h.ready

/-- messages behind -/
theorem LRel.add {b b' : Builder} {ps : List Piece} {d d' : Bool} (h : LRel Z b ⟨.ok ps, d⟩) {ms : List ClientMsg}
    (hd : b'.disabled = d') (he : b'.err = none) (hb : b'.buf.data = b.buf.data ++ bytesOf ms) :
    LRel Z b' ⟨.ok (ps ++ ms.map .msg), d'⟩ := by
  obtain ⟨_, _, bs, hw, hbs⟩ := h
  exact ⟨hd, he, bs ++ bytesOf ms, hw.msgs ms, by rw [hb, hbs, List.append_assoc]⟩

theorem LRel.dirty {b : Builder} {a : Left} (h : LRel Z b a) (left : Bytes) : LRel Z { b with buf := dirty b.buf left } a := h

/-! ### rows and assignments -/

theorem callOuterLeft_ref {outers : List Builder} (ho : ∀ b ∈ outers, b.disabled = true) (d : Nat) (c : OuterCall) :
    callOuterLeft g outers d c = if d < outers.length then .panic outers else .ret outers () := by
  unfold callOuterLeft
  by_cases hd : d < outers.length
  · rw [if_pos hd]
    have : outers[d]? = some outers[d] := by simp [hd]
    rw [this]
    have hb := ho _ (List.getElem_mem hd)
    cases c <;> simp [Builder.stepLeft, Builder.reset, Builder.send, hb, Ended.of]
  · rw [if_neg hd]
    have : outers[d]? = none := by simp; omega
    rw [this]

/-- the end of a callback of `InsertF` or `UpdateF` -/
def endRows (s : List Builder × Slice × Option Err) : Bool → Ended (List Builder × Slice × Option Err) Unit
  | true => .ret s ()
  | false => .panic s

theorem rowsLeft_ran {outers : List Builder} (ho : ∀ b ∈ outers, b.disabled = true) (H : Bytes) (code : RRows) :
    ∀ (p : Slice) (err : Option Err) (st : Except Err (List (List PExpr))), RowsRel outers H rowF (outers, p, err) st →
    rowsLeft g code (outers, p, err) = .oom ∨
    ∃ x st' s, RanRows modelDur outers.length code st x st' ∧ RowsRel outers H rowF s st' ∧
      rowsLeft g code (outers, p, err) = endRows s x := by
  induction code with
  | done => intro p err st h; exact .inr ⟨_, _, _, .done, h, rfl⟩
  | panic => intro p err st h; exact .inr ⟨_, _, _, .panic, h, rfl⟩
  | outer d c k ih =>
    intro p err st h
    rw [rowsLeft, callOuterLeft_ref ho]
    by_cases hd : d < outers.length
    · rw [if_pos hd]; exact .inr ⟨_, _, _, .outerPanic hd, h, rfl⟩
    · rw [if_neg hd]
      rcases ih p err st h with h | ⟨x, st', s, h1, h2, h3⟩
      · exact .inl h
      · exact .inr ⟨x, st', s, .outer (by omega) h1, h2, h3⟩
  | row args k ih =>
    intro p err st h
    cases st with
    | error e =>
      have h' := h
      obtain ⟨_, rfl, _⟩ : _ ∧ err = some e ∧ _ := h'
      rcases ih p (some e) _ h with h | ⟨x, st', s, h1, h2, h3⟩
      · exact .inl h
      · exact .inr ⟨x, st', s, .rowSkip h1, h2, h3⟩
    | ok rs =>
      have h' := h
      obtain ⟨_, rfl, hp⟩ : _ ∧ err = none ∧ _ := h'
      have hpost := appendInsertRow_post (g := g) (p := p) args
      unfold rowsLeft
      dsimp only
      cases hr : rowRes 0 args with
      | ok es =>
        rw [hr] at hpost
        rcases hpost with h' | ⟨sp, h'⟩
        · exact .inl (by rw [h']; rfl)
        · rw [h']
          rcases ih ⟨p.data ++ rowF es, sp⟩ none (.ok (rs ++ [es])) ⟨rfl, rfl, by simp at hp; simp [hp]⟩ with
            h | ⟨x, st', s, h1, h2, h3⟩
          · exact .inl h
          · exact .inr ⟨x, st', s, .row ((rowRes_ok_iff _ _ _).mp hr) h1, h2, h3⟩
      | err e =>
        rw [hr] at hpost
        rcases hpost with h' | ⟨q, h', hq⟩
        · exact .inl (by rw [h']; rfl)
        · rw [h']
          have hlen : H.length ≤ q.len := by
            have := hq.length_le
            simp at hp
            simp [Slice.len, hp] at this ⊢
            omega
          rcases ih q (some e) (.error e) ⟨rfl, rfl, hlen⟩ with h | ⟨x, st', s, h1, h2, h3⟩
          · exact .inl h
          · refine .inr ⟨x, st', s, .rowFail (fun es he => ?_) (fun hx => ?_) ?_ h1, h2, h3⟩
            · rw [(rowRes_ok_iff _ _ _).mpr he] at hr; cases hr
            · rw [explodes_rowRes hx] at hr; cases hr
            · obtain ⟨j, v, e', rfl, hj, hf, hb⟩ := rowRes_blames _ _ _ hr
              rw [Nat.zero_add]
              exact .column hj hf hb
      | panic =>
        rw [hr] at hpost
        rcases hpost with h' | h'
        · exact .inl (by rw [h']; rfl)
        · exact .inr ⟨_, _, _, .rowPanic (rowRes_explodes hr), h, by rw [h']; rfl⟩
  | attempt body left k ihb ihk =>
    intro p err st h
    rw [rowsLeft]
    rcases ihb p err st h with h | ⟨x, st', s, h1, h2, h3⟩
    · exact .inl (by rw [h])
    · rw [h3]
      obtain ⟨o, q, er⟩ := s
      have hs := h2
      obtain ⟨rfl, _⟩ : o = outers ∧ _ := hs
      cases x with
      | true =>
        rcases ihk q er st' h2 with h | ⟨x, st'', s, k1, k2, k3⟩
        · exact .inl h
        · exact .inr ⟨x, st'', s, .attempt h1 k1, k2, k3⟩
      | false =>
        rcases ihk (dirty q left) er st' h2 with h | ⟨x, st'', s, k1, k2, k3⟩
        · exact .inl h
        · exact .inr ⟨x, st'', s, .attempt h1 k1, k2, k3⟩

theorem setsLeft_ran {outers : List Builder} (ho : ∀ b ∈ outers, b.disabled = true) (H : Bytes) (code : RSets) :
    ∀ (p : Slice) (err : Option Err) (st : Except Err (List (Bytes × PExpr))), RowsRel outers H setF (outers, p, err) st →
    setsLeft g code (outers, p, err) = .oom ∨
    ∃ x st' s, RanSets modelDur outers.length code st x st' ∧ RowsRel outers H setF s st' ∧
      setsLeft g code (outers, p, err) = endRows s x := by
  induction code with
  | done => intro p err st h; exact .inr ⟨_, _, _, .done, h, rfl⟩
  | panic => intro p err st h; exact .inr ⟨_, _, _, .panic, h, rfl⟩
  | outer d c k ih =>
    intro p err st h
    rw [setsLeft, callOuterLeft_ref ho]
    by_cases hd : d < outers.length
    · rw [if_pos hd]; exact .inr ⟨_, _, _, .outerPanic hd, h, rfl⟩
    · rw [if_neg hd]
      rcases ih p err st h with h | ⟨x, st', s, h1, h2, h3⟩
      · exact .inl h
      · exact .inr ⟨x, st', s, .outer (by omega) h1, h2, h3⟩
  | set name v k ih =>
    intro p err st h
    cases st with
    | error e =>
      have h' := h
      obtain ⟨_, rfl, _⟩ : _ ∧ err = some e ∧ _ := h'
      rcases ih p (some e) _ h with h | ⟨x, st', s, h1, h2, h3⟩
      · exact .inl h
      · exact .inr ⟨x, st', s, .setSkip h1, h2, h3⟩
    | ok ss =>
      have h' := h
      obtain ⟨_, rfl, hp⟩ : _ ∧ err = none ∧ _ := h'
      have hpost := appendUpdateSet_post (g := g) (p := p) name v
      unfold setsLeft
      dsimp only
      cases hr : exprRes v with
      | ok es =>
        rw [hr] at hpost
        rcases hpost with h' | ⟨sp, h'⟩
        · exact .inl (by rw [h']; rfl)
        · rw [h']
          rcases ih ⟨p.data ++ setF (name, es), sp⟩ none (.ok (ss ++ [(name, es)])) ⟨rfl, rfl, by simp at hp; simp [hp]⟩ with
            h | ⟨x, st', s, h1, h2, h3⟩
          · exact .inl h
          · exact .inr ⟨x, st', s, .set ((exprRes_ok_iff _ _).mp hr) h1, h2, h3⟩
      | err e =>
        rw [hr] at hpost
        rcases hpost with h' | ⟨q, h', hq⟩
        · exact .inl (by rw [h']; rfl)
        · rw [h']
          have hlen : H.length ≤ q.len := by
            have := hq.length_le
            simp at hp
            simp [Slice.len, hp] at this ⊢
            omega
          rcases ih q (some e) (.error e) ⟨rfl, rfl, hlen⟩ with h | ⟨x, st', s, h1, h2, h3⟩
          · exact .inl h
          · refine .inr ⟨x, st', s, .setFail (fun he => ?_) (fun hx => ?_) (exprRes_blames _ _ hr) h1, h2, h3⟩
            · obtain ⟨y, hy⟩ := fine_exprRes he
              rw [hy] at hr; cases hr
            · rw [explodes_exprRes hx] at hr; cases hr
      | panic =>
        rw [hr] at hpost
        rcases hpost with h' | h'
        · exact .inl (by rw [h']; rfl)
        · exact .inr ⟨_, _, _, .setPanic (exprRes_explodes hr), h, by rw [h']; rfl⟩
  | attempt body left k ihb ihk =>
    intro p err st h
    rw [setsLeft]
    rcases ihb p err st h with h | ⟨x, st', s, h1, h2, h3⟩
    · exact .inl (by rw [h])
    · rw [h3]
      obtain ⟨o, q, er⟩ := s
      have hs := h2
      obtain ⟨rfl, _⟩ : o = outers ∧ _ := hs
      cases x with
      | true =>
        rcases ihk q er st' h2 with h | ⟨x, st'', s, k1, k2, k3⟩
        · exact .inl h
        · exact .inr ⟨x, st'', s, .attempt h1 k1, k2, k3⟩
      | false =>
        rcases ihk (dirty q left) er st' h2 with h | ⟨x, st'', s, k1, k2, k3⟩
        · exact .inl h
        · exact .inr ⟨x, st'', s, .attempt h1 k1, k2, k3⟩

theorem ranSets_error {dt : BitVec 64 → Bytes} {n : Nat} {code : RSets} {st st' : Except Err (List (Bytes × PExpr))} {x : Bool}
    (h : RanSets dt n code st x st') : ∀ e, st = .error e → st' = .error e := by
  induction h with
  | done => intro e h; exact h
  | set => intro e h; cases h
  | setFail => intro e h; cases h
  | setPanic => intro e h; cases h
  | setSkip _ ih => intro e h; exact ih _ h
  | outer _ _ ih => intro e h; exact ih _ h
  | outerPanic => intro e h; exact h
  | panic => intro e h; exact h
  | attempt _ _ ihb ihk => intro e h; exact ihk _ (ihb _ h)

/-! ### programs -/

/-- the end of a program -/
def endProg (outers : List Builder) (b : Builder) : Option (List (Option Val)) → Ended (List Builder × Builder) (List (Option Val))
  | some out => .ret (outers, b) out
  | none => .panic (outers, b)

theorem stmtLeft_ref {b : Builder} {ps : List Piece} (hb : LRel Z b ⟨.ok ps, false⟩) (s : Bytes) :
    b.stmtLeft g s [] = .oom ∨ ∃ b', b.stmtLeft g s [] = .ret b' none ∧ LRel Z b' ⟨.ok (ps ++ [.msg (stmtMsg s)]), false⟩ := by
  have he := erase_stmtLeft (g := g) b s []
  rcases stmt_ref (g := g) hb.same s with h | ⟨b', h, hb'⟩
  · rw [h] at he; exact .inl (erase_oom he)
  · rw [h] at he
    refine .inr ⟨b', erase_ok he, ?_⟩
    exact hb.add (ms := [stmtMsg s]) hb'.1 hb'.2.1 hb'.2.2

theorem stmtsLeft_ref (ss : List Bytes) : ∀ {b : Builder} {ps : List Piece}, LRel Z b ⟨.ok ps, false⟩ →
    b.stmtsLeft g ss = .oom ∨ ∃ b', b.stmtsLeft g ss = .ret b' none ∧ LRel Z b' ⟨.ok (ps ++ ss.map fun s => .msg (stmtMsg s)), false⟩ := by
  induction ss with
  | nil => intro b ps hb; exact .inr ⟨b, rfl, by simpa using hb⟩
  | cons s ss ih =>
    intro b ps hb
    rw [Builder.stmtsLeft]
    rcases stmtLeft_ref (g := g) hb s with h | ⟨b', h, hb'⟩
    · exact .inl (by rw [h]; rfl)
    · rw [h]
      rcases ih hb' with h | ⟨b2, h, hb2⟩
      · exact .inl h
      · exact .inr ⟨b2, h, by simpa using hb2⟩

theorem stmtLeft_error {b : Builder} {e : Err} (hd : b.disabled = false) (he : b.err = some e) (s : Bytes) :
    b.stmtLeft g s [] = .ret b none := by
  rw [Builder.stmtLeft, if_neg (by simp [hd]), if_pos (by simp [he])]

theorem runLeft_ran (prog : RProg) : ∀ (outers : List Builder) (b : Builder) (a : Left),
    (∀ b ∈ outers, b.disabled = true) → LRel Z b a →
    runLeft g prog outers b = .oom ∨
    ∃ x a' b', Ran modelDur (nameP Z.length) outers.length prog a x a' ∧ LRel Z b' a' ∧
      runLeft g prog outers b = endProg outers b' x := by
  induction prog with
  | ret err out => intro outers b a ho hb; exact .inr ⟨_, a, b, .ret, hb, rfl⟩
  | panic => intro outers b a ho hb; exact .inr ⟨_, a, b, .panic, hb, rfl⟩
  | outer d c k ih =>
    intro outers b a ho hb
    rw [runLeft, callOuterLeft_ref ho]
    by_cases hd : d < outers.length
    · rw [if_pos hd]; exact .inr ⟨_, a, b, .outerPanic hd, hb, rfl⟩
    · rw [if_neg hd]
      rcases ih outers b a ho hb with h | ⟨x, a', b', h1, h2, h3⟩
      · exact .inl h
      · exact .inr ⟨x, a', b', .outer (by omega) h1, h2, h3⟩
  | attempt body left k ihb ihk =>
    intro outers b a ho hb
    rw [runLeft]
    rcases ihb outers b a ho hb with h | ⟨x, a', b', h1, h2, h3⟩
    · exact .inl (by rw [h])
    · rw [h3]
      cases x with
      | some out =>
        rcases ihk (some out) outers b' a' ho h2 with h | ⟨x, a'', b'', k1, k2, k3⟩
        · exact .inl h
        · exact .inr ⟨x, a'', b'', .attempt h1 k1, k2, k3⟩
      | none =>
        rcases ihk none outers _ a' ho (h2.dirty left) with h | ⟨x, a'', b'', k1, k2, k3⟩
        · exact .inl h
        · exact .inr ⟨x, a'', b'', .recovered h1 k1, k2, k3⟩
  | call c k ih =>
    intro outers b a ho hb
    obtain ⟨u, d⟩ := a
    cases d with
    | true =>
      refine .inr ⟨none, _, b, .dead rfl, hb, ?_⟩
      have hd : b.disabled = true := hb.1
      unfold runLeft Builder.stepLeft
      rw [if_pos hd]; rfl
    | false =>
      cases u with
      | error e =>
        have he : b.err = some e := hb.2
        rcases ih none outers b _ ho hb with h | ⟨x, a', b', h1, h2, h3⟩
        · exact .inl (by unfold runLeft Builder.stepLeft; rw [if_neg (by simp [hb.1]), if_pos (by simp [he])]; exact h)
        · exact .inr ⟨x, a', b', .callSkip h1, h2, by
            unfold runLeft Builder.stepLeft; rw [if_neg (by simp [hb.1]), if_pos (by simp [he])]; exact h3⟩
      | ok ps =>
        have hs := step_ref (g := g) c hb.same
        have he := erase_stepLeft (g := g) b c
        obtain ⟨_, _, bs, hw, hbs⟩ := id hb
        have hlen : b.buf.data.length + (bytesOf []).length = Z.length + piecesLen ps := by
          rw [hbs]; simp [bytesOf, hw.length]
        rw [runLeft]
        simp only [stepP] at hs
        rcases hs with h | h
        · rw [h] at he; exact .inl (by rw [erase_oom he])
        · cases hc : callRes (b.buf.data.length + (bytesOf []).length) c with
          | ok y =>
            obtain ⟨m, r⟩ := y
            rw [hc] at h
            obtain ⟨⟨b', r'⟩, hx, hb', rfl⟩ := h
            rw [hx] at he
            rw [erase_ok he]
            rcases ih r' outers b' _ ho (hb.add (ms := m) hb'.1 hb'.2.1 hb'.2.2) with h | ⟨x, a', b2, h1, h2, h3⟩
            · exact .inl h
            · refine .inr ⟨x, a', b2, .call (callRes_ok hc) (fun v hv => ?_) h1, h2, h3⟩
              have hn := callRes_name (z := b.buf.data.length) (ms := []) hc v hv
              rw [hn, nameAfter, nameP]
              congr 2
              rw [hbs, List.nil_append, List.length_append, hw.length, Nat.add_assoc]
              congr 1
              have := (hw.msgs m.dropLast).length
              rw [List.length_append, hw.length] at this
              exact this
          | err e =>
            rw [hc] at h
            obtain ⟨⟨b', r'⟩, hx, hb', rfl⟩ := h
            rw [hx] at he
            rw [erase_ok he]
            rcases ih none outers b' ⟨.error e, false⟩ ho hb' with h | ⟨x, a', b2, h1, h2, h3⟩
            · exact .inl h
            · refine .inr ⟨x, a', b2, .callFail (fun m r ha => ?_) (fun hx => ?_) (callRes_blames hc) h1, h2, h3⟩
              · obtain ⟨x, hx⟩ := callRes_of_asked (n := b.buf.data.length + (bytesOf []).length) ha
                rw [hx] at hc; cases hc
              · rw [callRes_panic_iff.mpr hx] at hc; cases hc
          | panic =>
            have hx := callRes_explodes hc
            rcases explodes_cut hx with ⟨m, hm⟩ | ⟨hn, hp⟩
            · rcases stepLeft_cut (g := g) hb.ready hm with h | ⟨p, h, J, hJ, hd⟩
              · exact .inl (by rw [h])
              · refine .inr ⟨none, _, _, .callCut hm, ?_, by rw [h]; rfl⟩
                exact ⟨hb.1, hb.2.1, _, hw.cut hJ, by rw [hd, hbs, List.append_assoc]⟩
            · rcases hp g b hb.ready with h | h
              · exact .inl (by rw [h])
              · exact .inr ⟨none, _, b, .callPanic hx hn, hb, by rw [h]; rfl⟩
  | tx level body k ihb ihk =>
    intro outers b a ho hb
    obtain ⟨u, d⟩ := a
    unfold runLeft
    cases d with
    | true =>
      have hd : b.disabled = true := hb.1
      exact .inr ⟨none, _, b, .dead rfl, hb, by rw [if_pos hd]; rfl⟩
    | false =>
      rw [if_neg (by simp [hb.1])]
      cases u with
      | error e =>
        have he : b.err = some e := hb.2
        rw [if_pos (by simp [he])]
        rcases ihk [] outers b _ ho hb with h | ⟨x, a', b', h1, h2, h3⟩
        · exact .inl h
        · exact .inr ⟨x, a', b', .txSkip h1, h2, h3⟩
      | ok ps =>
        rw [if_neg (by simp [hb.2.1]), opening_eq]
        cases hl : txOpening level.toNat with
        | none =>
          dsimp only [Option.map]
          rcases ihk [] outers { b with err := some .isolation } ⟨.error .isolation, false⟩ ho ⟨hb.1, rfl⟩ with
            h | ⟨x, a', b', h1, h2, h3⟩
          · exact .inl h
          · exact .inr ⟨x, a', b', .txLevel hl h1, h2, h3⟩
        | some ss =>
          dsimp only [Option.map]
          rcases stmtsLeft_ref (g := g) (ss.map ascii) hb with h | ⟨b1, h, hb1⟩
          · exact .inl (by rw [h])
          · rw [h]
            dsimp only
            rw [List.map_map, show ((fun s => Piece.msg (stmtMsg s)) ∘ ascii) = (fun s => Piece.msg (sql s)) from rfl] at hb1
            rcases ihb ({ b1 with disabled := true } :: outers) { buf := b1.buf, err := b1.err, disabled := false }
              ⟨.ok (ps ++ ss.map fun s => .msg (sql s)), false⟩ (by simpa using ho) ⟨rfl, hb1.2⟩ with h | ⟨x, ⟨u, d⟩, b2, h1, h2, h3⟩
            · exact .inl (by rw [h])
            · rw [h3]
              cases x with
              | none => exact .inr ⟨none, _, { b1 with disabled := true }, .txPanic hl h1, ⟨rfl, hb1.2⟩, rfl⟩
              | some out =>
                dsimp only [endProg]
                cases u with
                | error e =>
                  have he2 : b2.err = some e := h2.2
                  rw [stmtLeft_error (b := { buf := b2.buf, err := b2.err, disabled := false }) (e := e) rfl he2]
                  dsimp only
                  rcases ihk out outers { buf := b2.buf, err := b2.err, disabled := false } ⟨.error e, false⟩ ho ⟨rfl, he2⟩ with
                    h | ⟨x, a', b', k1, k2, k3⟩
                  · exact .inl h
                  · exact .inr ⟨x, a', b', .txFail hl h1 k1, k2, k3⟩
                | ok ps' =>
                  rcases stmtLeft_ref (g := g) (b := { buf := b2.buf, err := b2.err, disabled := false })
                    (show LRel Z _ ⟨.ok ps', false⟩ from ⟨rfl, h2.2⟩) (ascii "COMMIT") with h | ⟨b3, h, hb3⟩
                  · exact .inl (by rw [h])
                  · rw [h]
                    dsimp only
                    rcases ihk out outers b3 _ ho hb3 with h | ⟨x, a', b', k1, k2, k3⟩
                    · exact .inl h
                    · exact .inr ⟨x, a', b', .tx hl h1 k1, k2, k3⟩
  | expect op body k ihb ihk =>
    intro outers b a ho hb
    obtain ⟨u, d⟩ := a
    unfold runLeft
    cases d with
    | true =>
      have hd : b.disabled = true := hb.1
      exact .inr ⟨none, _, b, .dead rfl, hb, by rw [if_pos hd]; rfl⟩
    | false =>
      rw [if_neg (by simp [hb.1])]
      cases u with
      | error e =>
        have he : b.err = some e := hb.2
        rw [if_pos (by simp [he])]
        rcases ihk [] outers b _ ho hb with h | ⟨x, a', b', h1, h2, h3⟩
        · exact .inl h
        · exact .inr ⟨x, a', b', .expectSkip h1, h2, h3⟩
      | ok ps =>
        rw [if_neg (by simp [hb.2.1])]
        rcases expectOpen_post (g := g) (p := b.buf) op (cs := [.noError true]) rfl with h | ⟨sp, h⟩
        · exact .inl (by rw [h])
        · rw [h]
          dsimp only
          have hb1 : LRel Z { buf := ⟨b.buf.data ++ codeFrame (.expectOpen op.toNat [(1, [49])]), sp⟩, err := b.err, disabled := false }
              ⟨.ok (ps ++ [.msg (.expectOpen op.toNat [(1, ascii "1")])]), false⟩ :=
            hb.add (ms := [.expectOpen op.toNat [(1, [49])]]) rfl hb.2.1 (by simp [bytesOf])
          rcases ihb ({ b with buf := ⟨b.buf.data ++ codeFrame (.expectOpen op.toNat [(1, [49])]), sp⟩, disabled := true } :: outers) _ _
            (by simpa using ho) hb1 with h | ⟨x, ⟨u, d⟩, b2, h1, h2, h3⟩
          · exact .inl (by rw [show [Cond.noError true].map condOf = [(1, [49])] from rfl, h])
          · rw [show [Cond.noError true].map condOf = [(1, [49])] from rfl, h3]
            cases x with
            | none =>
              exact .inr ⟨none, _, { b with buf := ⟨b.buf.data ++ codeFrame (.expectOpen op.toNat [(1, [49])]), sp⟩, disabled := true },
                .expectPanic h1, ⟨rfl, hb1.2⟩, rfl⟩
            | some out =>
              dsimp only [endProg]
              rcases expectClose_post (g := g) (p := b2.buf) with h | ⟨sp2, h⟩
              · exact .inl (by rw [h])
              · rw [h]
                dsimp only
                cases u with
                | error e =>
                  have he2 : b2.err = some e := h2.2
                  rcases ihk out outers { b with buf := ⟨b2.buf.data ++ codeFrame .expectClose, sp2⟩, err := b2.err, disabled := false }
                    ⟨.error e, false⟩ ho ⟨rfl, he2⟩ with h | ⟨x, a', b', k1, k2, k3⟩
                  · exact .inl h
                  · exact .inr ⟨x, a', b', .expectFail h1 k1, k2, k3⟩
                | ok ps' =>
                  rcases ihk out outers { b with buf := ⟨b2.buf.data ++ codeFrame .expectClose, sp2⟩, err := b2.err, disabled := false }
                    ⟨.ok (ps' ++ [.msg .expectClose]), false⟩ ho
                    (h2.add (ms := [.expectClose]) (d' := false)
                      (b' := { b with buf := ⟨b2.buf.data ++ codeFrame .expectClose, sp2⟩, err := b2.err, disabled := false })
                      rfl h2.2.1 (by simp [bytesOf])) with h | ⟨x, a', b', k1, k2, k3⟩
                  · exact .inl h
                  · exact .inr ⟨x, a', b', .expect h1 k1, k2, k3⟩
  | insertF t cols body err k ihk =>
    intro outers b a ho hb
    obtain ⟨u, d⟩ := a
    unfold runLeft
    cases d with
    | true =>
      have hd : b.disabled = true := hb.1
      exact .inr ⟨none, _, b, .dead rfl, hb, by rw [if_pos hd]; rfl⟩
    | false =>
      rw [if_neg (by simp [hb.1])]
      cases u with
      | error e =>
        have he : b.err = some e := hb.2
        rw [if_pos (by simp [he])]
        rcases ihk outers b _ ho hb with h | ⟨x, a', b', h1, h2, h3⟩
        · exact .inl h
        · exact .inr ⟨x, a', b', .insertFSkip h1, h2, h3⟩
      | ok ps =>
        rw [if_neg (by simp [hb.2.1])]
        rcases insert_post (p := b.buf) t cols with h | ⟨J, sp, hJ, h⟩
        · exact .inl (by rw [h])
        · rw [h]
          dsimp only
          rcases rowsLeft_ran (g := g) (outers := { b with disabled := true } :: outers) (by simpa using ho)
            (b.buf.data ++ (J ++ 18 :: (nameF 1 t ++ (encField (2, .varint 2) ++ columnsF cols)))) body
            ⟨b.buf.data ++ (J ++ 18 :: (nameF 1 t ++ (encField (2, .varint 2) ++ columnsF cols))), sp⟩ none (.ok [])
            ⟨rfl, rfl, by simp⟩ with h | ⟨x, st, ⟨o, q, er⟩, h1, h2, h3⟩
          · exact .inl (by rw [h])
          · rw [h3]
            obtain ⟨rfl, hq⟩ : o = _ ∧ _ := h2
            cases x with
            | false => exact .inr ⟨none, _, { b with disabled := true }, .insertFPanic h1, ⟨rfl, hb.2⟩, rfl⟩
            | true =>
              dsimp only [endRows]
              cases st with
              | ok rs =>
                obtain ⟨rfl, hq⟩ : er = none ∧ _ := hq
                obtain ⟨qd, qs⟩ := q
                simp only at hq
                subst hq
                rw [List.append_assoc, List.append_assoc, List.cons_append, patch_frame (i := b.buf.len) hJ rfl]
                dsimp only
                rcases ihk outers _ _ ho (hb.add (ms := [.insert t (some 2) cols rs]) (d' := false)
                  (b' := { b with buf := ⟨b.buf.data ++ frame (18, nameF 1 t ++ (encField (2, .varint 2) ++ columnsF cols) ++ rs.flatMap rowF), qs⟩,
                                  err := none, disabled := false }) rfl rfl
                  (by simp [bytesOf, codeFrame, codeMsg, optDM])) with h | ⟨x, a', b', k1, k2, k3⟩
                · exact .inl h
                · exact .inr ⟨x, a', b', .insertF h1 k1, k2, k3⟩
              | error e =>
                obtain ⟨rfl, hq⟩ : er = some e ∧ _ := hq
                obtain ⟨q', hq'⟩ := putUint32_ok (s := q) (i := b.buf.len) (n := q.len - b.buf.len - 4)
                  (by simp [hJ] at hq; simp [Slice.len] at hq ⊢; omega)
                rw [hq']
                dsimp only
                rcases ihk outers { b with buf := q', err := some e, disabled := false } ⟨.error e, false⟩ ho ⟨rfl, rfl⟩ with
                  h | ⟨x, a', b', k1, k2, k3⟩
                · exact .inl h
                · exact .inr ⟨x, a', b', .insertFFail h1 k1, k2, k3⟩
  | updateF t crit body err k ihk =>
    intro outers b a ho hb
    obtain ⟨u, d⟩ := a
    unfold runLeft
    cases d with
    | true =>
      have hd : b.disabled = true := hb.1
      exact .inr ⟨none, _, b, .dead rfl, hb, by rw [if_pos hd]; rfl⟩
    | false =>
      rw [if_neg (by simp [hb.1])]
      cases u with
      | error e =>
        have he : b.err = some e := hb.2
        rw [if_pos (by simp [he])]
        rcases ihk outers b _ ho hb with h | ⟨x, a', b', h1, h2, h3⟩
        · exact .inl h
        · exact .inr ⟨x, a', b', .updateFSkip h1, h2, h3⟩
      | ok ps =>
        rw [if_neg (by simp [hb.2.1])]
        have hu := update_post (g := g) (p := b.buf) t crit
        cases hc : critRes crit with
        | panic =>
          rw [hc] at hu
          obtain ⟨v, rfl, hx⟩ := critRes_explodes hc
          rcases hu with h | h
          · exact .inl (by rw [h])
          · exact .inr ⟨none, _, b, .updateFCritExplodes hx, hb, by rw [h]; rfl⟩
        | err e =>
          rw [hc] at hu
          obtain ⟨v, rfl, hbl⟩ := critRes_blames hc
          have hnf : ¬Fine modelDur v := by
            intro hf
            obtain ⟨y, hy⟩ := fine_exprRes hf
            rw [critRes, hy] at hc; cases hc
          have hnx : ¬Explodes modelDur v := by
            intro hx
            rw [critRes, explodes_exprRes hx] at hc; cases hc
          rcases hu with h | ⟨s, h, hlen⟩
          · exact .inl (by rw [h])
          · rw [h]
            dsimp only
            rcases setsLeft_ran (g := g) (outers := { b with disabled := true } :: outers) (by simpa using ho)
              (b.buf.data ++ [0, 0, 0, 0]) body s (some e) (.error e)
              ⟨rfl, rfl, by simp [Slice.len] at hlen ⊢; omega⟩ with h | ⟨x, st, ⟨o, q, er⟩, h1, h2, h3⟩
            · exact .inl (by rw [h])
            · rw [h3]
              cases ranSets_error h1 _ rfl
              obtain ⟨rfl, rfl, hq⟩ : o = _ ∧ er = some e ∧ _ := h2
              cases x with
              | false => exact .inr ⟨none, _, { b with disabled := true }, .updateFCritPanic hnf hnx hbl h1, ⟨rfl, hb.2⟩, rfl⟩
              | true =>
                dsimp only [endRows]
                obtain ⟨q', hq'⟩ := putUint32_ok (s := q) (i := b.buf.len) (n := q.len - b.buf.len - 4)
                  (by simp at hq; simp [Slice.len] at hq ⊢; omega)
                rw [hq']
                dsimp only
                rcases ihk outers { b with buf := q', err := some e, disabled := false } ⟨.error e, false⟩ ho ⟨rfl, rfl⟩ with
                  h | ⟨x, a', b', k1, k2, k3⟩
                · exact .inl h
                · exact .inr ⟨x, a', b', .updateFCrit hnf hnx hbl h1 k1, k2, k3⟩
        | ok c =>
          rw [hc] at hu
          have hcr := (critRes_ok_iff _ _).mp hc
          rcases hu with h | ⟨J, sp, hJ, h⟩
          · exact .inl (by rw [h])
          · rw [h]
            dsimp only
            rcases setsLeft_ran (g := g) (outers := { b with disabled := true } :: outers) (by simpa using ho)
              (b.buf.data ++ (J ++ 19 :: (nameF 2 t ++ (encField (3, .varint 2) ++ critF 4 c)))) body
              ⟨b.buf.data ++ (J ++ 19 :: (nameF 2 t ++ (encField (3, .varint 2) ++ critF 4 c))), sp⟩ none (.ok [])
              ⟨rfl, rfl, by simp⟩ with h | ⟨x, st, ⟨o, q, er⟩, h1, h2, h3⟩
            · exact .inl (by rw [h])
            · rw [h3]
              obtain ⟨rfl, hq⟩ : o = _ ∧ _ := h2
              cases x with
              | false => exact .inr ⟨none, _, { b with disabled := true }, .updateFPanic hcr h1, ⟨rfl, hb.2⟩, rfl⟩
              | true =>
                dsimp only [endRows]
                cases st with
                | ok ss =>
                  obtain ⟨rfl, hq⟩ : er = none ∧ _ := hq
                  obtain ⟨qd, qs⟩ := q
                  simp only at hq
                  subst hq
                  rw [List.append_assoc, List.append_assoc, List.cons_append, patch_frame (i := b.buf.len) hJ rfl]
                  dsimp only
                  rcases ihk outers _ _ ho (hb.add (ms := [.update t (some 2) c ss]) (d' := false)
                    (b' := { b with buf := ⟨b.buf.data ++ frame (19, nameF 2 t ++ (encField (3, .varint 2) ++ critF 4 c) ++ ss.flatMap setF), qs⟩,
                                    err := none, disabled := false }) rfl rfl
                    (by simp [bytesOf, codeFrame, codeMsg, optDM])) with h | ⟨x, a', b', k1, k2, k3⟩
                  · exact .inl h
                  · exact .inr ⟨x, a', b', .updateF hcr h1 k1, k2, k3⟩
                | error e =>
                  obtain ⟨rfl, hq⟩ : er = some e ∧ _ := hq
                  obtain ⟨q', hq'⟩ := putUint32_ok (s := q) (i := b.buf.len) (n := q.len - b.buf.len - 4)
                    (by simp [hJ] at hq; simp [Slice.len] at hq ⊢; omega)
                  rw [hq']
                  dsimp only
                  rcases ihk outers { b with buf := q', err := some e, disabled := false } ⟨.error e, false⟩ ho ⟨rfl, rfl⟩ with
                    h | ⟨x, a', b', k1, k2, k3⟩
                  · exact .inl h
                  · exact .inr ⟨x, a', b', .updateFFail hcr h1 k1, k2, k3⟩

end Verif.Proof
