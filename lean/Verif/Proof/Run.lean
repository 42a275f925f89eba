import Verif.Proof.Pure
/-! Client programs on the level of messages, and the proof that `run` implements that. -/
namespace Verif.Proof
open Verif.Go Verif.Spec Verif.Model

variable {g : Grow} {p : Slice}

/-- rows of `InsertF`; `n` is the number of enclosing builders -/
def rowsP (n : Nat) (st : Except Err (List (List PExpr))) : List RowStep → Option (Except Err (List (List PExpr)))
  | [] => some st
  | .row args :: rest =>
    match st with
    | .error _ => rowsP n st rest
    | .ok rs =>
      match rowRes 0 args with
      | .ok es => rowsP n (.ok (rs ++ [es])) rest
      | .err e => rowsP n (.error e) rest
      | .panic => none
  | .outer d _ :: rest => if d < n then none else rowsP n st rest

/-- assignments of `UpdateF` -/
def setsP (n : Nat) (st : Except Err (List (Bytes × PExpr))) : List SetStep → Option (Except Err (List (Bytes × PExpr)))
  | [] => some st
  | .set name v :: rest =>
    match st with
    | .error _ => setsP n st rest
    | .ok ss =>
      match exprRes v with
      | .ok e => setsP n (.ok (ss ++ [(name, e)])) rest
      | .err e => setsP n (.error e) rest
      | .panic => none
  | .outer d _ :: rest => if d < n then none else setsP n st rest

/-- append messages unless an error is recorded -/
def PState.add (st : PState) (ms : List ClientMsg) : PState :=
  match st with
  | .ok ms0 => .ok (ms0 ++ ms)
  | .error e => .error e

def stmtMsg (s : Bytes) : ClientMsg := .stmtExecute s []

/-- a program with `n` enclosing builders, `o` bytes being in front; `none`: it panics -/
def runP (o : Nat) : Prog → Nat → PState → Option (PState × List (Option Val))
  | .ret _ out, _, st => some (st, out)
  | .call c k, n, st => (stepP o st c).bind fun x => runP o (k x.2) n x.1
  | .tx level body k, n, st =>
    match st with
    | .error e => runP o (k []) n (.error e)
    | .ok ms =>
      match isolationStmts level with
      | none => runP o (k []) n (.error .isolation)
      | some ss => (runP o body (n + 1) (.ok (ms ++ ss.map stmtMsg))).bind fun x =>
        runP o (k x.2) n (x.1.add [stmtMsg (ascii "COMMIT")])
  | .expect op body k, n, st =>
    match st with
    | .error e => runP o (k []) n (.error e)
    | .ok ms => (runP o body (n + 1) (.ok (ms ++ [.expectOpen op.toNat [(1, [49])]]))).bind fun x =>
        runP o (k x.2) n (x.1.add [.expectClose])
  | .insertF name cols body _ k, n, st =>
    match st with
    | .error e => runP o k n (.error e)
    | .ok ms => (rowsP (n + 1) (.ok []) body).bind fun x =>
        runP o k n (match x with
          | .ok rs => .ok (ms ++ [.insert name (some 2) cols rs])
          | .error e => .error e)
  | .updateF name crit body _ k, n, st =>
    match st with
    | .error e => runP o k n (.error e)
    | .ok ms =>
      match critRes crit with
      | .panic => none
      | .ok c => (setsP (n + 1) (.ok []) body).bind fun x =>
        runP o k n (match x with
          | .ok ss => .ok (ms ++ [.update name (some 2) c ss])
          | .error e => .error e)
      | .err e => (setsP (n + 1) (.error e) body).bind fun x =>
        runP o k n (match x with
          | .ok _ => .ok ms -- does not happen
          | .error e => .error e)
  | .outer d _ k, n, st => if d < n then none else runP o k n st

/-! ### refinement -/

theorem callOuter_ref {outers : List Builder} (ho : ∀ b ∈ outers, b.disabled = true) (d : Nat) (c : OuterCall) :
    callOuter g outers d c = if d < outers.length then .error .panic else .ok outers := by
  unfold callOuter
  by_cases hd : d < outers.length
  · rw [if_pos hd]
    have : outers[d]? = some outers[d] := by simp [hd]
    rw [this]
    have hb := ho _ (List.getElem_mem hd)
    cases c <;> simp [Builder.step, Builder.reset, Builder.send, hb] <;> rfl
  · rw [if_neg hd]
    have : outers[d]? = none := by simp; omega
    rw [this]

/-- what a callback of `InsertF` has done: `H` is the buffer before the rows -/
def RowsRel {α : Type} (outers : List Builder) (H : Bytes) (enc : α → Bytes)
    (x : List Builder × Slice × Option Err) (y : Except Err (List α)) : Prop :=
  x.1 = outers ∧ match y with
    | .ok rs => x.2.2 = none ∧ x.2.1.data = H ++ rs.flatMap enc
    | .error e => x.2.2 = some e ∧ H.length ≤ x.2.1.len

theorem runRows_ref {outers : List Builder} (ho : ∀ b ∈ outers, b.disabled = true) (H : Bytes) (steps : List RowStep) :
    ∀ (p : Slice) (err : Option Err) (st : Except Err (List (List PExpr))),
      RowsRel outers H rowF (outers, p, err) st →
      Ref (runRows g outers p err steps) (rowsP outers.length st steps) (RowsRel outers H rowF) := by
  induction steps with
  | nil => intro p err st h; exact .pure h
  | cons s rest ih =>
    intro p err st h
    cases s with
    | row args =>
      cases st with
      | error e =>
        have h' := h
        obtain ⟨_, rfl, h2⟩ : _ ∧ err = some e ∧ _ := h'
        exact ih p (some e) (.error e) h
      | ok rs =>
        obtain ⟨_, rfl, h2⟩ : _ ∧ err = none ∧ _ := h
        have hp := appendInsertRow_post (g := g) (p := p) args
        simp only [runRows, rowsP]
        cases hr : rowRes 0 args with
        | ok es =>
          rw [hr] at hp
          rcases hp with h' | ⟨sp, h'⟩
          · exact .oom (by rw [h']; rfl)
          · rw [h', ok_bind]
            exact ih _ none (.ok (rs ++ [es])) ⟨rfl, rfl, by simp at h2; simp [h2]⟩
        | err e =>
          rw [hr] at hp
          rcases hp with h' | ⟨s, h', hp⟩
          · exact .oom (by rw [h']; rfl)
          · rw [h', ok_bind]
            refine ih _ (some e) (.error e) ⟨rfl, rfl, ?_⟩
            have := hp.length_le
            simp at h2
            simp [Slice.len, h2] at this ⊢
            omega
        | panic =>
          rw [hr] at hp
          rcases hp with h' | h'
          · exact .oom (by rw [h']; rfl)
          · exact .inr (by rw [h']; rfl)
    | outer d c =>
      simp only [runRows, rowsP, callOuter_ref ho]
      split
      · exact .inr rfl
      · exact ih p err st h

theorem runSets_ref {outers : List Builder} (ho : ∀ b ∈ outers, b.disabled = true) (H : Bytes) (steps : List SetStep) :
    ∀ (p : Slice) (err : Option Err) (st : Except Err (List (Bytes × PExpr))),
      RowsRel outers H setF (outers, p, err) st →
      Ref (runSets g outers p err steps) (setsP outers.length st steps) (RowsRel outers H setF) := by
  induction steps with
  | nil => intro p err st h; exact .pure h
  | cons s rest ih =>
    intro p err st h
    cases s with
    | set name v =>
      cases st with
      | error e =>
        have h' := h
        obtain ⟨_, rfl, h2⟩ : _ ∧ err = some e ∧ _ := h'
        exact ih p (some e) (.error e) h
      | ok rs =>
        obtain ⟨_, rfl, h2⟩ : _ ∧ err = none ∧ _ := h
        have hp := appendUpdateSet_post (g := g) (p := p) name v
        simp only [runSets, setsP]
        cases hr : exprRes v with
        | ok es =>
          rw [hr] at hp
          rcases hp with h' | ⟨sp, h'⟩
          · exact .oom (by rw [h']; rfl)
          · rw [h', ok_bind]
            exact ih _ none (.ok (rs ++ [(name, es)])) ⟨rfl, rfl, by simp at h2; simp [h2]⟩
        | err e =>
          rw [hr] at hp
          rcases hp with h' | ⟨s, h', hp⟩
          · exact .oom (by rw [h']; rfl)
          · rw [h', ok_bind]
            refine ih _ (some e) (.error e) ⟨rfl, rfl, ?_⟩
            have := hp.length_le
            simp at h2
            simp [Slice.len, h2] at this ⊢
            omega
        | panic =>
          rw [hr] at hp
          rcases hp with h' | h'
          · exact .oom (by rw [h']; rfl)
          · exact .inr (by rw [h']; rfl)
    | outer d c =>
      simp only [runSets, setsP, callOuter_ref ho]
      split
      · exact .inr rfl
      · exact ih p err st h

theorem stmts_ref {Z : Bytes} (ss : List Bytes) : ∀ {b : Builder} {ms : List ClientMsg}, BRel Z b (.ok ms) →
    Ref (b.stmts g ss) (some (.ok (ms ++ ss.map stmtMsg) : PState)) (fun b y => BRel Z b y) := by
  induction ss with
  | nil => intro b ms hb; exact .pure (by simpa using hb)
  | cons s ss ih =>
    intro b ms hb
    rcases stmt_ref (g := g) hb s with h | ⟨b', h, hb'⟩
    · exact .oom (by rw [Builder.stmts, h]; rfl)
    · rw [Builder.stmts, h, ok_bind]
      have := ih hb'
      simpa [stmtMsg] using this

theorem setsP_error {n : Nat} {e : Err} {y : Except Err (List (Bytes × PExpr))} (steps : List SetStep)
    (h : setsP n (.error e) steps = some y) : y = .error e := by
  induction steps with
  | nil => simpa [setsP, eq_comm] using h
  | cons s rest ih =>
    cases s with
    | set name v => exact ih h
    | outer d c =>
      simp only [setsP] at h
      split at h
      · simp at h
      · exact ih h

theorem stmtAny_ref {Z : Bytes} {b : Builder} {st : PState} (hb : BRel Z b st) (s : Bytes) :
    Ref (b.stmtExecute g s []) (some (st.add [stmtMsg s])) (fun b y => BRel Z b y) := by
  cases st with
  | ok ms => exact stmt_ref hb s
  | error e =>
    rw [Builder.stmtExecute, if_neg (by simp [hb.1]), if_pos (by rw [hb.2]; rfl)]
    exact .pure hb

/-- putUint32 within the buffer never fails -/
theorem putUint32_ok {s : Slice} {i n : Nat} (h : i + 4 ≤ s.len) : ∃ s', putUint32 s i n = .ok s' := by
  obtain ⟨A, rest, hd, hA⟩ : ∃ A rest, s.data = A ++ rest ∧ A.length = i :=
    ⟨s.data.take i, s.data.drop i, by simp, by simp [Slice.len] at h ⊢; omega⟩
  obtain ⟨J, R, rfl, hJ⟩ : ∃ J R, rest = J ++ R ∧ J.length = 4 :=
    ⟨rest.take 4, rest.drop 4, by simp, by
      have := congrArg List.length hd
      simp [Slice.len] at h this ⊢; omega⟩
  exact ⟨_, putUint32_at hd hJ hA.symm⟩

def RunRel (Z : Bytes) (outers : List Builder) (x : List Builder × Builder × List (Option Val)) (y : PState × List (Option Val)) : Prop :=
  x.1 = outers ∧ BRel Z x.2.1 y.1 ∧ x.2.2 = y.2

theorem run_ref {Z : Bytes} (prog : Prog) : ∀ (outers : List Builder) (b : Builder) (st : PState),
    (∀ b ∈ outers, b.disabled = true) → BRel Z b st →
    Ref (run g prog outers b) (runP Z.length prog outers.length st) (RunRel Z outers) := by
  induction prog with
  | ret err out => intro outers b st ho hb; exact .pure ⟨rfl, hb, rfl⟩
  | call c k ih =>
    intro outers b st ho hb
    rw [run, runP]
    refine (step_ref (g := g) c hb).bind fun x y h => ?_
    obtain ⟨x1, x2⟩ := x
    obtain ⟨h1, rfl⟩ : _ ∧ x2 = y.2 := h
    exact ih _ outers x1 y.1 ho h1
  | tx level body k ihb ihk =>
    intro outers b st ho hb
    unfold run runP
    rw [if_neg (by simp [hb.1])]
    cases st with
    | error e => rw [if_pos (by rw [hb.2]; rfl)]; exact ihk _ outers b _ ho hb
    | ok ms =>
      rw [if_neg (by simp [hb.2.1])]
      cases hl : isolationStmts level with
      | none => exact ihk _ outers _ _ ho ⟨hb.1, rfl⟩
      | some ss =>
        dsimp only
        rcases stmts_ref (g := g) ss hb with h | ⟨b', h, hb'⟩
        · exact .oom (by rw [h]; rfl)
        · rw [h, ok_bind]
          have hbody := ihb ({ b' with disabled := true } :: outers) { buf := b'.buf, err := b'.err, disabled := false }
            (.ok (ms ++ ss.map stmtMsg)) (by simpa using ho) ⟨rfl, hb'.2⟩
          refine hbody.bind fun x y hxy => ?_
          obtain ⟨o, ch, out⟩ := x
          obtain ⟨st', out'⟩ := y
          obtain ⟨rfl, h2, rfl⟩ : o = _ ∧ BRel Z ch st' ∧ out = out' := hxy
          dsimp only
          rcases stmtAny_ref (g := g) (b := { buf := ch.buf, err := ch.err, disabled := false }) (st := st')
            ⟨rfl, h2.2⟩ (ascii "COMMIT") with h | ⟨b2, h, hb2⟩
          · exact .oom (by rw [h]; rfl)
          · rw [h, ok_bind]
            exact ihk _ outers b2 _ ho hb2
  | expect op body k ihb ihk =>
    intro outers b st ho hb
    unfold run runP
    rw [if_neg (by simp [hb.1])]
    cases st with
    | error e => rw [if_pos (by rw [hb.2]; rfl)]; exact ihk _ outers b _ ho hb
    | ok ms =>
      rw [if_neg (by simp [hb.2.1])]
      rcases expectOpen_post (g := g) (p := b.buf) op (cs := [.noError true]) rfl with h | ⟨sp, h⟩
      · exact .oom (by rw [h]; rfl)
      · rw [h, ok_bind]
        have hbody := ihb ({ b with buf := ⟨b.buf.data ++ codeFrame (.expectOpen op.toNat [(1, [49])]), sp⟩, disabled := true } :: outers)
          { buf := ⟨b.buf.data ++ codeFrame (.expectOpen op.toNat [(1, [49])]), sp⟩, err := b.err, disabled := false }
          (.ok (ms ++ [.expectOpen op.toNat [(1, [49])]])) (by simpa using ho) ⟨rfl, hb.2.1, by simp [bytesOf, hb.2.2]⟩
        refine hbody.bind fun x y hxy => ?_
        obtain ⟨o, ch, out⟩ := x
        obtain ⟨st', out'⟩ := y
        obtain ⟨rfl, h2, rfl⟩ : o = _ ∧ BRel Z ch st' ∧ out = out' := hxy
        dsimp only
        rcases expectClose_post (g := g) (p := ch.buf) with h | ⟨sp2, h⟩
        · exact .oom (by rw [h]; rfl)
        · rw [h, ok_bind]
          refine ihk _ outers _ _ ho ⟨rfl, ?_⟩
          cases st' with
          | ok ms' => exact ⟨h2.2.1, by simp [bytesOf, h2.2.2]⟩
          | error e => exact h2.2
  | insertF name cols body err k ihk =>
    intro outers b st ho hb
    unfold run runP
    rw [if_neg (by simp [hb.1])]
    cases st with
    | error e => rw [if_pos (by rw [hb.2]; rfl)]; exact ihk outers b _ ho hb
    | ok ms =>
      rw [if_neg (by simp [hb.2.1])]
      rcases insert_post (p := b.buf) name cols with h | ⟨J, sp, hJ, h⟩
      · exact .oom (by dsimp only; rw [h]; rfl)
      · dsimp only
        rw [h, ok_bind]
        have hrows := runRows_ref (g := g) (outers := { b with disabled := true } :: outers) (by simpa using ho)
          (b.buf.data ++ (J ++ 18 :: (nameF 1 name ++ (encField (2, .varint 2) ++ columnsF cols)))) body
          ⟨b.buf.data ++ (J ++ 18 :: (nameF 1 name ++ (encField (2, .varint 2) ++ columnsF cols))), sp⟩ none (.ok [])
          ⟨rfl, rfl, by simp⟩
        refine hrows.bind fun x y hxy => ?_
        obtain ⟨o, q, er⟩ := x
        cases y with
        | ok rs =>
          obtain ⟨rfl, rfl, h2⟩ : o = _ ∧ er = none ∧ _ := hxy
          dsimp only
          obtain ⟨qd, qs⟩ := q
          simp only at h2
          subst h2
          rw [List.append_assoc, List.append_assoc, List.cons_append, patch_frame (i := b.buf.len) hJ rfl, ok_bind]
          exact ihk outers _ _ ho ⟨rfl, rfl, by simp [bytesOf, codeFrame, codeMsg, optDM, hb.2.2]⟩
        | error e =>
          obtain ⟨rfl, rfl, h2⟩ : o = _ ∧ er = some e ∧ _ := hxy
          dsimp only
          obtain ⟨q', hq'⟩ := putUint32_ok (s := q) (i := b.buf.len) (n := q.len - b.buf.len - 4)
            (by simp [hJ] at h2; simp [Slice.len] at h2 ⊢; omega)
          rw [hq', ok_bind]
          exact ihk outers _ _ ho ⟨rfl, rfl⟩
  | updateF name crit body err k ihk =>
    intro outers b st ho hb
    unfold run runP
    rw [if_neg (by simp [hb.1])]
    cases st with
    | error e => rw [if_pos (by rw [hb.2]; rfl)]; exact ihk outers b _ ho hb
    | ok ms =>
      rw [if_neg (by simp [hb.2.1])]
      dsimp only
      have hu := update_post (g := g) (p := b.buf) name crit
      cases hc : critRes crit with
      | panic =>
        rw [hc] at hu
        rcases hu with h | h
        · exact .oom (by rw [h]; rfl)
        · exact .inr (by rw [h]; rfl)
      | err e0 =>
        rw [hc] at hu
        rcases hu with h | ⟨s, h, hlen⟩
        · exact .oom (by rw [h]; rfl)
        · rw [h, ok_bind]
          have hsets := runSets_ref (g := g) (outers := { b with disabled := true } :: outers) (by simpa using ho)
            (b.buf.data ++ [0, 0, 0, 0]) body s (some e0) (.error e0)
            ⟨rfl, rfl, by simp [Slice.len] at hlen ⊢; omega⟩
          refine hsets.bind' fun x y _ hy hxy => ?_
          obtain ⟨o, q, er⟩ := x
          cases y with
          | ok rs => exact absurd (setsP_error body hy) (by simp)
          | error e =>
            obtain ⟨rfl, rfl, h2⟩ : o = _ ∧ er = some e ∧ _ := hxy
            dsimp only
            obtain ⟨q', hq'⟩ := putUint32_ok (s := q) (i := b.buf.len) (n := q.len - b.buf.len - 4)
              (by simp at h2; simp [Slice.len] at h2 ⊢; omega)
            rw [hq', ok_bind]
            exact ihk outers _ _ ho ⟨rfl, rfl⟩
      | ok c =>
        rw [hc] at hu
        rcases hu with h | ⟨J, sp, hJ, h⟩
        · exact .oom (by rw [h]; rfl)
        · rw [h, ok_bind]
          have hsets := runSets_ref (g := g) (outers := { b with disabled := true } :: outers) (by simpa using ho)
            (b.buf.data ++ (J ++ 19 :: (nameF 2 name ++ (encField (3, .varint 2) ++ critF 4 c)))) body
            ⟨b.buf.data ++ (J ++ 19 :: (nameF 2 name ++ (encField (3, .varint 2) ++ critF 4 c))), sp⟩ none (.ok [])
            ⟨rfl, rfl, by simp⟩
          refine hsets.bind fun x y hxy => ?_
          obtain ⟨o, q, er⟩ := x
          cases y with
          | ok rs =>
            obtain ⟨rfl, rfl, h2⟩ : o = _ ∧ er = none ∧ _ := hxy
            dsimp only
            obtain ⟨qd, qs⟩ := q
            simp only at h2
            subst h2
            rw [List.append_assoc, List.append_assoc, List.cons_append, patch_frame (i := b.buf.len) hJ rfl, ok_bind]
            exact ihk outers _ _ ho ⟨rfl, rfl, by simp [bytesOf, codeFrame, codeMsg, optDM, hb.2.2]⟩
          | error e =>
            obtain ⟨rfl, rfl, h2⟩ : o = _ ∧ er = some e ∧ _ := hxy
            dsimp only
            obtain ⟨q', hq'⟩ := putUint32_ok (s := q) (i := b.buf.len) (n := q.len - b.buf.len - 4)
              (by simp [hJ] at h2; simp [Slice.len] at h2 ⊢; omega)
            rw [hq', ok_bind]
            exact ihk outers _ _ ho ⟨rfl, rfl⟩
  | outer d c k ihk =>
    intro outers b st ho hb
    rw [run, runP, callOuter_ref ho]
    split
    · exact .inr rfl
    · exact ihk outers b st ho hb

end Verif.Proof
