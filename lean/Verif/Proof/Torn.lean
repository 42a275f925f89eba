import Verif.Proof.Recover
/-! What is left where the header of a message should be, and other facts about programs that recover. -/
namespace Verif.Proof
open Verif.Go Verif.Spec Verif.Model

variable {g : Grow}

/-! ### the four bytes in front of a message -/

theorem bind_ok {α β : Type} {x : M α} {f : α → M β} {y : β} (h : (x >>= f) = .ok y) : ∃ a, x = .ok a ∧ f a = .ok y := by
  match x with
  | .ok a => exact ⟨a, rfl, h⟩
  | .error e => cases h

theorem setAt_take {s q : Slice} {i n : Nat} {v : UInt8} (h : setAt s i v = .ok q) (hn : n ≤ i) : q.data.take n = s.data.take n := by
  unfold setAt at h
  split at h
  · cases h; simp [List.take_set, List.set_eq_of_length_le (l := s.data.take n) (i := i) (by simp; omega)]
  · cases h

theorem overwrite_take (d : Bytes) : ∀ (i n : Nat) (xs : Bytes), n ≤ i → (overwrite d i xs).take n = d.take n := by
  induction d with
  | nil => intro i n xs _; simp [overwrite]
  | cons a d ih =>
    intro i n xs hn
    cases xs with
    | nil => simp [overwrite]
    | cons x xs =>
      cases i with
      | zero => cases Nat.le_zero.mp hn; simp
      | succ i =>
        cases n with
        | zero => simp
        | succ n => simp [overwrite, ih i n (x :: xs) (by omega)]

theorem copyAt_take {s : Slice} {q : Slice × Nat} {i n : Nat} {xs : Bytes} (h : copyAt s i xs = .ok q) (hn : n ≤ i) :
    q.1.data.take n = s.data.take n := by
  unfold copyAt at h
  split at h
  · cases h; exact overwrite_take _ _ _ _ hn
  · cases h

theorem putUvarintLoop_take (f : Nat) : ∀ {s : Slice} {q : Slice × Nat} {i n x : Nat}, putUvarintLoop f s i x = .ok q → n ≤ i →
    q.1.data.take n = s.data.take n := by
  induction f with
  | zero => intro s q i n x h _; cases h
  | succ f ih =>
    intro s q i n x h hn
    rw [putUvarintLoop] at h
    split at h
    · obtain ⟨s', h1, h⟩ := bind_ok h
      cases h
      exact setAt_take h1 hn
    · obtain ⟨s', h1, h⟩ := bind_ok h
      rw [ih h (by omega), setAt_take h1 hn]

theorem putUvarint_take {s : Slice} {q : Slice × Nat} {i n x : Nat} (h : putUvarint s i x = .ok q) (hn : n ≤ i) :
    q.1.data.take n = s.data.take n := by
  unfold putUvarint at h
  dsimp only at h
  split at h
  · obtain ⟨s', h1, h⟩ := bind_ok h
    cases h
    exact setAt_take h1 hn
  · obtain ⟨s', h1, h⟩ := bind_ok h
    cases h
    exact putUvarintLoop_take 10 (q := s') h1 hn

/-- what the code finds at the place of a header: what has been there, or nothing -/
theorem forAppend_header {s q : Slice} {n : Nat} (h : forAppend s n = .ok q) (hn : 4 ≤ n) :
    q.data.take (s.len + 4) = s.data ++ s.spare.take 4 ∧ 4 ≤ s.spare.length ∨ q.data.take (s.len + 4) = s.data ++ [0, 0, 0, 0] := by
  unfold forAppend at h
  dsimp only at h
  split at h
  · split at h
    · rename_i h1 h2
      left
      unfold reslice at h
      rw [if_pos h2] at h
      cases h
      simp only [Slice.cap, Slice.len] at h2 ⊢
      refine ⟨?_, by omega⟩
      rw [List.take_take, Nat.min_eq_left (by omega), List.take_append, List.take_of_length_le (by omega)]
      congr 2; omega
    · split at h
      · cases h
        right
        simp only [Slice.len]
        rw [List.take_append, List.take_of_length_le (by omega)]
        congr 1
        rw [List.take_replicate, Nat.min_eq_left (by omega), Nat.add_sub_cancel_left]
        rfl
      · cases h
  · cases h

theorem insert_header {p q : Slice} {t : Bytes} {cs : List Bytes} (h : Model.insert p t cs = .ok q) :
    q.data.take (p.len + 4) = p.data ++ p.spare.take 4 ∧ 4 ≤ p.spare.length ∨ q.data.take (p.len + 4) = p.data ++ [0, 0, 0, 0] := by
  unfold Model.insert at h
  obtain ⟨q0, h0, h⟩ := bind_ok h
  obtain ⟨q1, h1, h⟩ := bind_ok h
  obtain ⟨q2, h2, h⟩ := bind_ok h
  obtain ⟨⟨q3, k3⟩, h3, h⟩ := bind_ok h
  dsimp only at h
  obtain ⟨q4, h4, h⟩ := bind_ok h
  obtain ⟨⟨q5, k5⟩, h5, h⟩ := bind_ok h
  dsimp only at h
  obtain ⟨⟨q6, k6⟩, h6, h⟩ := bind_ok h
  dsimp only at h
  obtain ⟨q7, h7, h⟩ := bind_ok h
  obtain ⟨q8, h8, h⟩ := bind_ok h
  have e : q.data.take (p.len + 4) = q0.data.take (p.len + 4) := by
    rcases appendColumns_post cs q8 with h' | ⟨sp, h'⟩
    · rw [h'] at h; cases h
    · rw [h'] at h; cases h
      have hl : p.len + 4 ≤ q8.data.length := by
        unfold setAt at h8
        split at h8
        · rename_i hlt; cases h8; simp [Slice.len] at hlt ⊢; omega
        · cases h8
      rw [List.take_append_of_le_length hl, setAt_take h8 (by omega), setAt_take h7 (by omega), copyAt_take h6 (by omega),
        putUvarint_take h5 (by omega), setAt_take h4 (by omega), putUvarint_take h3 (by omega), setAt_take h2 (by omega),
        setAt_take h1 (by omega)]
  rw [e]
  exact forAppend_header h0 (by omega)

theorem update_header {p q : Slice} {t : Bytes} {crit : Criteria} (h : Model.update g p t crit = .ok (q, none)) :
    q.data.take (p.len + 4) = p.data ++ p.spare.take 4 ∧ 4 ≤ p.spare.length ∨ q.data.take (p.len + 4) = p.data ++ [0, 0, 0, 0] := by
  unfold Model.update at h
  obtain ⟨q0, h0, h⟩ := bind_ok h
  obtain ⟨⟨q1, k1⟩, h1, h⟩ := bind_ok h
  dsimp only at h
  obtain ⟨q2, h2, h⟩ := bind_ok h
  obtain ⟨q3, h3, h⟩ := bind_ok h
  obtain ⟨q4, h4, h⟩ := bind_ok h
  obtain ⟨⟨q5, k5⟩, h5, h⟩ := bind_ok h
  dsimp only at h
  obtain ⟨⟨q6, k6⟩, h6, h⟩ := bind_ok h
  dsimp only at h
  obtain ⟨q7, h7, h⟩ := bind_ok h
  obtain ⟨q8, h8, h⟩ := bind_ok h
  have e : q.data.take (p.len + 4) = q0.data.take (p.len + 4) := by
    have hp := appendCriteria_post (g := g) (p := q8) (tag := 4) (by decide) crit
    cases hc : critRes crit with
    | err e =>
      rw [hc] at hp
      rcases hp with h' | ⟨s, h', _⟩ <;> rw [h'] at h <;> cases h
    | panic =>
      rw [hc] at hp
      rcases hp with h' | h' <;> rw [h'] at h <;> cases h
    | ok c =>
      rw [hc] at hp
      rcases hp with h' | ⟨sp, h'⟩
      · rw [h'] at h; cases h
      · rw [h'] at h; cases h
        have hl : p.len + 4 ≤ q8.data.length := by
          unfold setAt at h8
          split at h8
          · rename_i hlt; cases h8; simp [Slice.len] at hlt ⊢; omega
          · cases h8
        rw [List.take_append_of_le_length hl, setAt_take h8 (by omega), setAt_take h7 (by omega), copyAt_take h6 (by omega),
          putUvarint_take h5 (by omega), setAt_take h4 (by omega), setAt_take h3 (by omega), setAt_take h2 (by omega),
          putUvarint_take h1 (by omega)]
  rw [e]
  exact forAppend_header h0 (by omega)

/-- behind the buffer `p`: what has been left there, or zeros -/
def Stale (p : Slice) (J : Bytes) : Prop := J = p.spare.take 4 ∨ J = [0, 0, 0, 0]

theorem stale_of {p : Slice} {J rest d : Bytes} (hJ : J.length = 4) (hd : d = p.data ++ (J ++ rest))
    (h : d.take (p.len + 4) = p.data ++ p.spare.take 4 ∧ 4 ≤ p.spare.length ∨ d.take (p.len + 4) = p.data ++ [0, 0, 0, 0]) : Stale p J := by
  have e : d.take (p.len + 4) = p.data ++ J := by
    rw [hd, ← List.append_assoc, List.take_left' (by simp [Slice.len, hJ])]
  rw [e] at h
  rcases h with ⟨h, _⟩ | h
  · exact .inl (List.append_cancel_left h)
  · exact .inr (List.append_cancel_left h)

theorem stepLeft_torn {b : Builder} (hb : Ready b) {c : Call} {m : ClientMsg} (h : Cut modelDur c m) :
    b.stepLeft g c = .oom ∨ ∃ p J, b.stepLeft g c = .panic { b with buf := p } ∧ J.length = 4 ∧ Stale b.buf J ∧
      p.data = b.buf.data ++ (J ++ (codeFrame m).drop 4) := by
  unfold Builder.stepLeft
  rw [if_neg (by simp [hb.1]), if_neg (by simp [hb.2])]
  cases h with
  | @insert t cols front row rest rs hls hr hl hx =>
    dsimp only
    rcases insert_post (p := b.buf) t cols with h | ⟨J, sp, hJ, h⟩
    · exact .inl (by rw [h]; rfl)
    · have hst := stale_of hJ rfl (insert_header h)
      rw [h]
      simp only [Ended.of]
      rcases rowsLeft_cut (g := g) (rest := rest) hl hx front 0
        { b with buf := ⟨b.buf.data ++ (J ++ 18 :: (nameF 1 t ++ (encField (2, .varint 2) ++ columnsF cols))), sp⟩ } rs hls hr with h | ⟨sp', h⟩
      · exact .inl (by rw [h]; rfl)
      · refine .inr ⟨_, J, by rw [h]; rfl, hJ, hst, ?_⟩
        simp [codeFrame_drop, codeMsg, optDM]
  | @insertRow t cols row hx =>
    dsimp only
    rcases insert_post (p := b.buf) t cols with h | ⟨J, sp, hJ, h⟩
    · exact .inl (by rw [h]; rfl)
    · have hst := stale_of hJ rfl (insert_header h)
      rw [h]
      simp only [Ended.of]
      have hp := appendInsertRow_post (g := g)
        (p := ⟨b.buf.data ++ (J ++ 18 :: (nameF 1 t ++ (encField (2, .varint 2) ++ columnsF cols))), sp⟩) row
      rw [explodes_rowRes hx] at hp
      rcases hp with h | h
      · exact .inl (by rw [h])
      · refine .inr ⟨_, J, by rw [h], hJ, hst, ?_⟩
        simp [codeFrame_drop, codeMsg, optDM]
  | @update t crit c front s rest ss hc hs hx =>
    dsimp only
    have hu := update_post (g := g) (p := b.buf) t crit
    rw [(critRes_ok_iff _ _).mpr hc] at hu
    rcases hu with h | ⟨J, sp, hJ, h⟩
    · exact .inl (by rw [h]; rfl)
    · have hst := stale_of hJ rfl (update_header h)
      rw [h]
      simp only [Ended.of]
      rcases setsLeft_cut (g := g) (rest := rest) hx front
        { b with buf := ⟨b.buf.data ++ (J ++ 19 :: (nameF 2 t ++ (encField (3, .varint 2) ++ critF 4 c))), sp⟩ } ss hs with h | ⟨sp', h⟩
      · exact .inl (by rw [h]; rfl)
      · refine .inr ⟨_, J, by rw [h]; rfl, hJ, hst, ?_⟩
        simp [codeFrame_drop, codeMsg, optDM]

/-! ### reading a stream up to a bad place -/

theorem readFixed_more (n : Nat) : ∀ {bs rest : Bytes} {v : Nat} (more : Bytes), readFixed n bs = some (v, rest) →
    readFixed n (bs ++ more) = some (v, rest ++ more) := by
  induction n with
  | zero => intro bs rest v more h; cases h; rfl
  | succ n ih =>
    intro bs rest v more h
    cases bs with
    | nil => cases h
    | cons b bs =>
      rw [readFixed] at h
      rw [List.cons_append, readFixed]
      cases hr : readFixed n bs with
      | none => rw [hr] at h; cases h
      | some x => obtain ⟨v', r⟩ := x; rw [hr] at h; cases h; rw [ih more hr]

theorem readFrame_more {bs rest : Bytes} {fr : UInt8 × Bytes} (more : Bytes) (h : readFrame bs = some (fr, rest)) :
    readFrame (bs ++ more) = some (fr, rest ++ more) := by
  unfold readFrame at h ⊢
  cases hr : readFixed 4 bs with
  | none => rw [hr] at h; cases h
  | some x =>
    obtain ⟨n, r⟩ := x
    rw [hr] at h
    rw [readFixed_more 4 more hr]
    dsimp only at h ⊢
    unfold readN at h ⊢
    by_cases hn : n ≤ r.length
    · rw [if_pos hn] at h
      rw [if_pos (by simp; omega), List.take_append_of_le_length hn, List.drop_append_of_le_length hn]
      cases ht : r.take n with
      | nil => rw [ht] at h; cases h
      | cons t p => rw [ht] at h; cases h; rfl
    · rw [if_neg hn] at h; cases h

theorem readFramesAux_bad {bad : Bytes} (hb : readFrame bad = none) (hne : bad ≠ []) (f' : Nat) : ∀ (f : Nat) {bs : Bytes}
    {frs : List (UInt8 × Bytes)}, readFramesAux f bs = some frs → readFramesAux f' (bs ++ bad) = none := by
  induction f' with
  | zero =>
    intro f bs frs _
    cases hc : bs ++ bad with
    | nil => simp at hc; exact absurd hc.2 hne
    | cons a l => rfl
  | succ f' ih =>
    intro f bs frs h
    cases bs with
    | nil =>
      cases bad with
      | nil => exact absurd rfl hne
      | cons a l => rw [List.nil_append, readFramesAux, hb]
    | cons b bs =>
      cases f with
      | zero => cases h
      | succ f =>
        rw [readFramesAux] at h
        rw [List.cons_append, readFramesAux]
        cases hr : readFrame (b :: bs) with
        | none => rw [hr] at h; cases h
        | some x =>
          obtain ⟨fr, rest⟩ := x
          rw [hr] at h
          rw [show b :: (bs ++ bad) = (b :: bs) ++ bad from rfl, readFrame_more bad hr]
          dsimp only at h ⊢
          cases hs : readFramesAux f rest with
          | none => rw [hs] at h; cases h
          | some frs => rw [ih f hs]

theorem decodeStream_bad {bs bad : Bytes} {ms : List ClientMsg} (h : decodeStream bs = some ms) (hb : readFrame bad = none) (hne : bad ≠ []) :
    decodeStream (bs ++ bad) = none := by
  rw [decodeStream, Option.bind_eq_some_iff] at h
  obtain ⟨frs, h, _⟩ := h
  rw [decodeStream, readFrames, readFramesAux_bad hb hne _ _ h]; rfl

theorem readFrame_zero (more : Bytes) : readFrame (0 :: 0 :: 0 :: 0 :: more) = none := by
  simp [readFrame, readFixed, readN]

/-! ### programs of Model/Builder.lean are among these -/

def rowsCode : List RowStep → RRows
  | [] => .done
  | .row args :: rest => .row args (rowsCode rest)
  | .outer d c :: rest => .outer d c (rowsCode rest)

def setsCode : List SetStep → RSets
  | [] => .done
  | .set name v :: rest => .set name v (setsCode rest)
  | .outer d c :: rest => .outer d c (setsCode rest)

def progCode : Prog → RProg
  | .ret err out => .ret err out
  | .call c k => .call c fun r => progCode (k r)
  | .tx level body k => .tx level (progCode body) fun o => progCode (k o)
  | .expect op body k => .expect op (progCode body) fun o => progCode (k o)
  | .insertF t cols body err k => .insertF t cols (rowsCode body) err (progCode k)
  | .updateF t crit body err k => .updateF t crit (setsCode body) err (progCode k)
  | .outer d c k => .outer d c (progCode k)

theorem erase_callOuterLeft (outers : List Builder) (d : Nat) (c : OuterCall) :
    erase (callOuterLeft g outers d c) = callOuter g outers d c >>= fun o => .ok (o, ()) := by
  unfold callOuterLeft callOuter
  cases outers[d]? with
  | none => rfl
  | some b =>
    dsimp only
    cases c with
    | leaf c =>
      have h := erase_stepLeft (g := g) b c
      dsimp only
      rw [← h]
      cases b.stepLeft g c <;> rfl
    | reset => rw [erase_of]; dsimp only; rw [bind_assoc]; rfl
    | send => rw [erase_of]; dsimp only; rw [bind_assoc]; rfl
    | tx => dsimp only; split <;> rfl
    | expect => dsimp only; split <;> rfl
    | insertF => dsimp only; split <;> rfl
    | updateF => dsimp only; split <;> rfl

theorem erase_rowsCode (steps : List RowStep) : ∀ (outers : List Builder) (p : Slice) (err : Option Err),
    erase (rowsLeft g (rowsCode steps) (outers, p, err)) = runRows g outers p err steps >>= fun s => .ok (s, ()) := by
  induction steps with
  | nil => intro outers p err; rfl
  | cons st rest ih =>
    intro outers p err
    cases st with
    | row args =>
      rw [rowsCode, rowsLeft.eq_def]
      dsimp only
      cases err with
      | some e => exact ih outers p (some e)
      | none =>
        rw [erase_of, runRows, bind_assoc]
        congr 1
        funext x
        exact ih outers x.1 x.2
    | outer d c =>
      rw [rowsCode, rowsLeft, runRows, bind_assoc]
      have h := erase_callOuterLeft (g := g) outers d c
      cases hc : callOuterLeft g outers d c with
      | ret o u =>
        rw [hc] at h
        cases ho : callOuter g outers d c with
        | error e => rw [ho] at h; cases h
        | ok o' => rw [ho] at h; cases h; exact ih o p err
      | panic o =>
        rw [hc] at h
        cases ho : callOuter g outers d c with
        | error e => rw [ho] at h; cases h; rfl
        | ok o' => rw [ho] at h; cases h
      | oom =>
        rw [hc] at h
        cases ho : callOuter g outers d c with
        | error e => rw [ho] at h; cases h; rfl
        | ok o' => rw [ho] at h; cases h

theorem erase_setsCode (steps : List SetStep) : ∀ (outers : List Builder) (p : Slice) (err : Option Err),
    erase (setsLeft g (setsCode steps) (outers, p, err)) = runSets g outers p err steps >>= fun s => .ok (s, ()) := by
  induction steps with
  | nil => intro outers p err; rfl
  | cons st rest ih =>
    intro outers p err
    cases st with
    | set name v =>
      rw [setsCode, setsLeft.eq_def]
      dsimp only
      cases err with
      | some e => exact ih outers p (some e)
      | none =>
        rw [erase_of, runSets, bind_assoc]
        congr 1
        funext x
        exact ih outers x.1 x.2
    | outer d c =>
      rw [setsCode, setsLeft, runSets, bind_assoc]
      have h := erase_callOuterLeft (g := g) outers d c
      cases hc : callOuterLeft g outers d c with
      | ret o u =>
        rw [hc] at h
        cases ho : callOuter g outers d c with
        | error e => rw [ho] at h; cases h
        | ok o' => rw [ho] at h; cases h; exact ih o p err
      | panic o =>
        rw [hc] at h
        cases ho : callOuter g outers d c with
        | error e => rw [ho] at h; cases h; rfl
        | ok o' => rw [ho] at h; cases h
      | oom =>
        rw [hc] at h
        cases ho : callOuter g outers d c with
        | error e => rw [ho] at h; cases h; rfl
        | ok o' => rw [ho] at h; cases h

/-- how a run ends, panics without their state -/
def forget : Ended (List Builder × Builder) (List (Option Val)) → M (List Builder × Builder × List (Option Val))
  | .ret (o, b) out => .ok (o, b, out)
  | .panic _ => .error .panic
  | .oom => .error .oom

theorem erase_split {σ α : Type} {x : Ended σ α} {y : M σ} {a : α} (h : erase x = y >>= fun s => .ok (s, a)) :
    (∃ s, x = .ret s a ∧ y = .ok s) ∨ (∃ s, x = .panic s ∧ y = .error .panic) ∨ x = .oom ∧ y = .error .oom := by
  match y with
  | .ok s => exact .inl ⟨s, erase_ok h, rfl⟩
  | .error .panic => obtain ⟨s, hs⟩ := erase_panic h; exact .inr (.inl ⟨s, hs, rfl⟩)
  | .error .oom => exact .inr (.inr ⟨erase_oom h, rfl⟩)

theorem forget_split {x : Ended (List Builder × Builder) (List (Option Val))} {y : M (List Builder × Builder × List (Option Val))}
    (h : forget x = y) :
    (∃ o b out, x = .ret (o, b) out ∧ y = .ok (o, b, out)) ∨ (∃ s, x = .panic s ∧ y = .error .panic) ∨ x = .oom ∧ y = .error .oom := by
  subst h
  match x with
  | .ret (o, b) out => exact .inl ⟨o, b, out, rfl, rfl⟩
  | .panic s => exact .inr (.inl ⟨s, rfl, rfl⟩)
  | .oom => exact .inr (.inr ⟨rfl, rfl⟩)

theorem runLeft_run (prog : Prog) : ∀ (outers : List Builder) (b : Builder),
    forget (runLeft g (progCode prog) outers b) = run g prog outers b := by
  induction prog with
  | ret err out => intro outers b; rfl
  | call c k ih =>
    intro outers b
    rw [progCode, runLeft, run, ← erase_stepLeft]
    cases b.stepLeft g c with
    | ret b' r => exact ih r outers b'
    | panic b' => rfl
    | oom => rfl
  | tx level body k ihb ihk =>
    intro outers b
    rw [progCode]
    unfold runLeft run
    split
    · rfl
    · split
      · exact ihk [] outers b
      · cases isolationStmts level with
        | none => exact ihk [] outers _
        | some ss =>
          dsimp only
          rcases erase_split (erase_stmtsLeft (g := g) ss b) with ⟨b1, h1, h2⟩ | ⟨s, h1, h2⟩ | ⟨h1, h2⟩
          · rw [h1, h2, ok_bind]
            dsimp only
            rcases forget_split (ihb ({ b1 with disabled := true } :: outers) { buf := b1.buf, err := b1.err, disabled := false }) with
              ⟨o, c, out, h1, h2⟩ | ⟨⟨o, c⟩, h1, h2⟩ | ⟨h1, h2⟩
            · rw [h1, h2, ok_bind]
              cases o with
              | nil => rfl
              | cons b2 o =>
                dsimp only
                rcases erase_split (erase_stmtLeft (g := g) { b2 with buf := c.buf, err := c.err, disabled := false } (ascii "COMMIT") []) with
                  ⟨b3, h1, h2⟩ | ⟨s, h1, h2⟩ | ⟨h1, h2⟩
                · rw [h1, h2, ok_bind]; exact ihk out o b3
                · rw [h1, h2]; rfl
                · rw [h1, h2]; rfl
            · rw [h1, h2]; cases o <;> rfl
            · rw [h1, h2]; rfl
          · rw [h1, h2]; rfl
          · rw [h1, h2]; rfl
  | expect op body k ihb ihk =>
    intro outers b
    rw [progCode]
    unfold runLeft run
    split
    · rfl
    · split
      · exact ihk [] outers b
      · match hx : expectOpen g b.buf op [.noError true] with
        | .error .oom => rfl
        | .error .panic => rfl
        | .ok p =>
          rw [ok_bind]
          dsimp only
          rcases forget_split (ihb ({ b with buf := p, disabled := true } :: outers) { buf := p, err := b.err, disabled := false }) with
            ⟨o, c, out, h1, h2⟩ | ⟨⟨o, c⟩, h1, h2⟩ | ⟨h1, h2⟩
          · rw [h1, h2, ok_bind]
            cases o with
            | nil => rfl
            | cons b2 o =>
              dsimp only
              match hy : expectClose g c.buf with
              | .error .oom => rfl
              | .error .panic => rfl
              | .ok p => exact ihk out o _
          · rw [h1, h2]; cases o <;> rfl
          · rw [h1, h2]; rfl
  | insertF t cols body err k ihk =>
    intro outers b
    rw [progCode]
    unfold runLeft run
    split
    · rfl
    · split
      · exact ihk outers b
      · match hx : Model.insert b.buf t cols with
        | .error .oom => rfl
        | .error .panic => rfl
        | .ok p =>
          dsimp only
          rw [ok_bind]
          rcases erase_split (erase_rowsCode (g := g) body ({ b with disabled := true } :: outers) p none) with
            ⟨⟨o, q, er⟩, h1, h2⟩ | ⟨⟨o, q⟩, h1, h2⟩ | ⟨h1, h2⟩
          · rw [h1, h2, ok_bind]
            cases o with
            | nil => rfl
            | cons b2 o =>
              dsimp only
              match hy : putUint32 q b.buf.len (q.len - b.buf.len - 4) with
              | .error .oom => rfl
              | .error .panic => rfl
              | .ok p => exact ihk o _
          · rw [h1, h2]; cases o <;> rfl
          · rw [h1, h2]; rfl
  | updateF t crit body err k ihk =>
    intro outers b
    rw [progCode]
    unfold runLeft run
    split
    · rfl
    · split
      · exact ihk outers b
      · match hx : Model.update g b.buf t crit with
        | .error .oom => rfl
        | .error .panic => rfl
        | .ok (p, e) =>
          dsimp only
          rw [ok_bind]
          dsimp only
          rcases erase_split (erase_setsCode (g := g) body ({ b with disabled := true } :: outers) p e) with
            ⟨⟨o, q, er⟩, h1, h2⟩ | ⟨⟨o, q⟩, h1, h2⟩ | ⟨h1, h2⟩
          · rw [h1, h2, ok_bind]
            cases o with
            | nil => rfl
            | cons b2 o =>
              dsimp only
              match hy : putUint32 q b.buf.len (q.len - b.buf.len - 4) with
              | .error .oom => rfl
              | .error .panic => rfl
              | .ok p => exact ihk o _
          · rw [h1, h2]; cases o <;> rfl
          · rw [h1, h2]; rfl
  | outer d c k ih =>
    intro outers b
    rw [progCode, runLeft, run]
    rcases erase_split (erase_callOuterLeft (g := g) outers d c) with ⟨o, h1, h2⟩ | ⟨o, h1, h2⟩ | ⟨h1, h2⟩
    · rw [h1, h2, ok_bind]; exact ih o b
    · rw [h1, h2]; rfl
    · rw [h1, h2]; rfl

/-! ### every piece can be read -/

/-- the message of a piece -/
def Piece.body : Piece → ClientMsg
  | .msg m => m
  | .cut m => m

def GoodUnit (a : Left) : Prop := ∀ ps, a.unit = .ok ps → ∀ p ∈ ps, Readable (Piece.body p) → GoodMsg (Piece.body p)

variable {dt : BitVec 64 → Bytes} {nm : List Piece → Bytes}

theorem ranRows_good {n : Nat} {code : RRows} {st st' : Except Err (List (List PExpr))} {x : Bool} (h : RanRows dt n code st x st') :
    (∀ rs, st = .ok rs → ∀ r ∈ rs, ∀ e ∈ r, ExprOK e) → ∀ rs, st' = .ok rs → ∀ r ∈ rs, ∀ e ∈ r, ExprOK e := by
  induction h with
  | done => exact id
  | row hr _ ih =>
    intro hg
    refine ih fun rs' h r hr' => ?_
    cases h
    rcases List.mem_append.mp hr' with h' | h'
    · exact hg _ rfl r h'
    · simp at h'; subst h'; exact row_good hr
  | rowFail _ _ _ _ ih => intro _; exact ih fun rs h => by cases h
  | rowPanic => exact id
  | rowSkip _ ih => exact ih
  | outer _ _ ih => exact ih
  | outerPanic => exact id
  | panic => exact id
  | attempt _ _ ihb ihk => intro hg; exact ihk (ihb hg)

theorem ranSets_good {n : Nat} {code : RSets} {st st' : Except Err (List (Bytes × PExpr))} {x : Bool} (h : RanSets dt n code st x st') :
    (∀ ss, st = .ok ss → ∀ s ∈ ss, ExprOK s.2) → ∀ ss, st' = .ok ss → ∀ s ∈ ss, ExprOK s.2 := by
  induction h with
  | done => exact id
  | set hr _ ih =>
    intro hg
    refine ih fun rs' h r hr' => ?_
    cases h
    rcases List.mem_append.mp hr' with h' | h'
    · exact hg _ rfl r h'
    · simp at h'; subst h'; exact exprOf_ok _ _ _ _ hr
  | setFail _ _ _ _ ih => intro _; exact ih fun rs h => by cases h
  | setPanic => exact id
  | setSkip _ ih => exact ih
  | outer _ _ ih => exact ih
  | outerPanic => exact id
  | panic => exact id
  | attempt _ _ ihb ihk => intro hg; exact ihk (ihb hg)

theorem goodUnit_error {e : Err} {d : Bool} : GoodUnit ⟨.error e, d⟩ := fun ps h => by cases h

theorem GoodUnit.add {ps qs : List Piece} {d d' : Bool} (h : GoodUnit ⟨.ok ps, d⟩)
    (hq : ∀ p ∈ qs, Readable (Piece.body p) → GoodMsg (Piece.body p)) : GoodUnit ⟨.ok (ps ++ qs), d'⟩ := by
  intro _ he p hp
  cases he
  rcases List.mem_append.mp hp with h' | h'
  · exact h _ rfl p h'
  · exact hq p h'

theorem GoodUnit.flag {u : Except Err (List Piece)} {d d' : Bool} (h : GoodUnit ⟨u, d⟩) : GoodUnit ⟨u, d'⟩ := h

theorem sqls_good (ss : List String) : ∀ p ∈ ss.map fun s => Piece.msg (sql s), Readable (Piece.body p) → GoodMsg (Piece.body p) := by
  intro p hp _
  obtain ⟨s, _, rfl⟩ := List.mem_map.mp hp
  exact sql_good s

theorem cut_good {c : Call} {m : ClientMsg} (h : Cut dt c m) : Readable m → GoodMsg m := by
  cases h with
  | insert _ hr => intro h; exact ⟨.inr (.inr rfl), fun r hr' e he => ⟨rows_good hr r hr' e he, h r hr' e he⟩⟩
  | insertRow => intro h; exact ⟨.inr (.inr rfl), fun r hr' => by simp at hr'⟩
  | update h1 h2 =>
    intro hr; exact ⟨.inr (.inr rfl), fun e he => ⟨crit_good h1 e he, hr.1 e he⟩, fun s hs => ⟨sets_good h2 s hs, hr.2 s hs⟩⟩

theorem ran_good {n : Nat} {prog : RProg} {a a' : Left} {x : Option (List (Option Val))} (h : Ran dt nm n prog a x a') :
    GoodUnit a → GoodUnit a' := by
  have one : ∀ {m : ClientMsg}, (Readable m → GoodMsg m) → ∀ p ∈ [Piece.msg m], Readable (Piece.body p) → GoodMsg (Piece.body p) := by
    intro m hm p hp; simp at hp; subst hp; exact hm
  have opn : ∀ {op : Nat}, Readable (.expectOpen op [(1, ascii "1")]) → GoodMsg (.expectOpen op [(1, ascii "1")]) := by
    intro op hr; exact ⟨hr, by simp⟩
  induction h with
  | ret => exact id
  | panic => exact id
  | attempt _ _ ihb ihk => intro hg; exact ihk (ihb hg)
  | recovered _ _ ihb ihk => intro hg; exact ihk (ihb hg)
  | outer _ _ ih => exact ih
  | outerPanic => exact id
  | dead => exact id
  | call ha _ _ ih =>
    intro hg
    refine ih (hg.add fun p hp => ?_)
    obtain ⟨m, hm, rfl⟩ := List.mem_map.mp hp
    exact asked_good ha m hm
  | callFail _ _ _ _ ih => intro _; exact ih goodUnit_error
  | callPanic => exact id
  | callCut hc => intro hg; exact hg.add fun p hp => by simp at hp; subst hp; exact cut_good hc
  | callSkip _ ih => exact ih
  | tx _ _ _ ihb ihk =>
    intro hg
    exact ihk ((ihb (hg.add (sqls_good _))).add (one fun _ => sql_good _))
  | txFail _ _ _ ihb ihk => intro _; exact ihk goodUnit_error
  | txPanic _ _ ihb => intro hg; exact hg.add (sqls_good _)
  | txLevel _ _ ih => intro _; exact ih goodUnit_error
  | txSkip _ ih => exact ih
  | expect _ _ ihb ihk =>
    intro hg
    exact ihk ((ihb (hg.add (one opn))).add (one fun _ => trivial))
  | expectFail _ _ ihb ihk => intro _; exact ihk goodUnit_error
  | expectPanic _ ihb => intro hg; exact hg.add (one opn)
  | expectSkip _ ih => exact ih
  | insertF hr _ ih =>
    intro hg
    refine ih (hg.add (one fun h => ⟨.inr (.inr rfl), fun r hr' e he => ⟨?_, h r hr' e he⟩⟩))
    exact ranRows_good hr (fun rs h => by cases h; simp) _ rfl r hr' e he
  | insertFFail _ _ ih => intro _; exact ih goodUnit_error
  | insertFPanic _ => intro hg; exact hg.flag
  | insertFSkip _ ih => exact ih
  | updateF hc hs _ ih =>
    intro hg
    refine ih (hg.add (one fun h => ⟨.inr (.inr rfl), fun e he => ⟨crit_good hc e he, h.1 e he⟩, fun s hs' => ⟨?_, h.2 s hs'⟩⟩))
    exact ranSets_good hs (fun rs h => by cases h; simp) _ rfl s hs'
  | updateFFail _ _ _ ih => intro _; exact ih goodUnit_error
  | updateFPanic _ _ => intro hg; exact hg.flag
  | updateFCrit _ _ _ _ _ ih => intro _; exact ih goodUnit_error
  | updateFCritPanic _ _ _ _ => intro hg; exact hg.flag
  | updateFCritExplodes _ => exact id
  | updateFSkip _ ih => exact ih

end Verif.Proof
