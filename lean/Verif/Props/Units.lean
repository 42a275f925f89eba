import Verif.Proof.Record
import Verif.Proof.Misuse
import Verif.Props.Calls
import Verif.Proof.Decide
/-! C10 - C17, C19, C21, C28: whole units of work. -/
namespace Verif.Props
open Verif.Go Verif.Spec Verif.Model Verif.Proof

variable {g : Grow} {b b' : Builder} {prog body : Prog} {o : List Builder} {out : List (Option Val)}

/-! ### a program to try things on -/

/-- `ExpectFailOnError(0, Tx(RepeatableRead, { v := InsertRow("t", ["a"], 1); Update("u", nil, {"b": v});
InsertF("w", ["c"], { Row(v); Row(2) }) })); Deallocate(7)` -/
def progEx : Prog :=
  .expect 0 (.tx 3 (.call (.insertRow (ascii "t") [ascii "a"] [.int 1]) fun v =>
      .call (.update (ascii "u") none [(ascii "b", v.getD .nil)]) fun _ =>
      .insertF (ascii "w") [ascii "c"] [.row [v.getD .nil], .row [.int 2]] none
      (.ret none [v])) fun o => .ret none o) fun o =>
  .call (.deallocate 7) fun _ => .ret none o

/-- what a program appends to the buffer -/
def appended (b : Builder) (prog : Prog) : Option Bytes :=
  match run growEx prog [] b with
  | .ok (_, b', _) => if b'.err.isNone then some (b'.buf.data.drop b.buf.data.length) else none
  | .error _ => none

example : (appended builderEx progEx).isSome := by decide +kernel
example : ((appended builderEx progEx).bind readFrames).map (·.map Prod.fst) =
    some [24, 12, 12, 18, 12, 19, 18, 12, 25, 42] := by decide +kernel
/-! ### C10 -/

/-- C10: a program that returns with no error has appended whole frames, one per message, and they are read as
exactly the messages the calls ask for, in order.  (Messages of 4 GiB and more: C28.  Variable names of 124
bytes and more: C24.  Contexts other than 0 and 1: C26.) -/
theorem C10_unit_frames (hb : Ready b) (h : run g prog [] b = .ok (o, b', out)) (he : b'.err = none) :
    ∃ ms vs, ∃ frs : List Bytes, Exec libDur 0 prog (.ok []) (.ok ms) out vs ∧
      b'.buf.data = b.buf.data ++ frs.flatten ∧ frs.length = ms.length ∧
      ((∀ f ∈ frs, f.length < 2 ^ 32) →
        (∃ raw, readFrames frs.flatten = some raw ∧ raw.length = ms.length) ∧
        ((∀ m ∈ ms, Readable m) → decodeStream frs.flatten = some ms)) := by
  obtain ⟨st, ks, h1, h2, _⟩ := run_ready hb h
  cases st with
  | error e => rw [show b'.err = some e from h2.2] at he; cases he
  | ok ms =>
    refine ⟨ms, _, ms.map codeFrame, h1, ?_, by simp, fun hf => ⟨⟨ms.map codeMsg, ?_, by simp⟩, fun hr => ?_⟩⟩
    · rw [h2.2.2, bytesOf, List.flatMap_def]
    · rw [← List.flatMap_def, show ms.flatMap codeFrame = (ms.map codeMsg).flatMap frame by rw [List.flatMap_map]; rfl]
      apply readFrames_frames
      simp only [List.mem_map]
      rintro _ ⟨m, hm, rfl⟩
      have := hf _ (List.mem_map_of_mem hm)
      rw [codeFrame_length] at this
      omega
    · rw [← List.flatMap_def]
      apply decodeStream_frames
      intro m hm
      refine ⟨exec_good h1 _ _ rfl rfl (by simp) m hm (hr m hm), ?_⟩
      have := hf _ (List.mem_map_of_mem hm)
      rw [codeFrame_length] at this
      unfold FitsFrame
      omega

/-! ### C11 -/

/-- C11: what is sent after `Reset`, and what the program gets to see, is the same as on a new builder of any
capacity under any growth policy: either one of the two runs out of memory, or both panic, or both return the
same results and `Send` does the same. -/
theorem C11_buffer_independent {b0 : Builder} (hr : b.reset = .ok b0) (g g' : Grow) (n : Nat) (prog : Prog) :
    run g prog [] b0 = .error .oom ∨ run g' prog [] (newPipe n) = .error .oom ∨
    (run g prog [] b0 = .error .panic ∧ run g' prog [] (newPipe n) = .error .panic) ∨
    ∃ o1 b1 o2 b2 out, run g prog [] b0 = .ok (o1, b1, out) ∧ run g' prog [] (newPipe n) = .ok (o2, b2, out) ∧
      b1.send = b2.send := by
  have h0 : BRel [] b0 (.ok []) := by
    unfold Builder.reset at hr
    split at hr
    · cases hr
    · rename_i hd
      rw [show reslice b.buf 0 = .ok ⟨[], b.buf.data ++ b.buf.spare⟩ by simp [reslice, Slice.cap]; try rfl, ok_bind] at hr
      cases hr
      exact ⟨by simpa using hd, rfl, rfl⟩
  have h1 : BRel [] (newPipe n) (.ok []) := ⟨rfl, rfl, rfl⟩
  have r0 := run_ref (g := g) prog [] _ _ (by simp) h0
  have r1 := run_ref (g := g') prog [] _ _ (by simp) h1
  rcases r0 with r0 | r0
  · exact .inl r0
  rcases r1 with r1 | r1
  · exact .inr (.inl r1)
  right; right
  cases hp : runP ([] : Bytes).length prog ([] : List Builder).length (.ok []) with
  | none => rw [hp] at r0 r1; exact .inl ⟨r0, r1⟩
  | some y =>
    obtain ⟨st, ou⟩ := y
    rw [hp] at r0 r1
    obtain ⟨⟨o1, b1, ou1⟩, e1, _, k1, l1⟩ := r0
    obtain ⟨⟨o2, b2, ou2⟩, e2, _, k2, l2⟩ := r1
    cases l1; cases l2
    refine .inr ⟨o1, b1, o2, b2, _, e1, e2, ?_⟩
    cases st with
    | ok ms =>
      simp [Builder.send, show b1.disabled = false from k1.1, show b2.disabled = false from k2.1,
        show b1.err = none from k1.2.1, show b2.err = none from k2.2.1,
        show b1.buf.data = _ from k1.2.2, show b2.buf.data = _ from k2.2.2]
    | error e =>
      simp [Builder.send, show b1.disabled = false from k1.1, show b2.disabled = false from k2.1,
        show b1.err = some e from k1.2, show b2.err = some e from k2.2]

example : builderEx.reset = .ok { buf := ⟨[], [1, 0, 0, 0, 25, 170, 171, 172]⟩, err := none, disabled := false } := rfl
example : appended { buf := ⟨[], [1, 0, 0, 0, 25, 170, 171, 172]⟩, err := none, disabled := false } progEx =
    appended (newPipe 300) progEx ∧ (appended (newPipe 300) progEx).isSome := by decide +kernel

/-! ### C12 -/

/-- The program never uses an enclosing builder. -/
def OnlyInner : Prog → Prop
  | .ret .. => True
  | .call _ k => ∀ r, OnlyInner (k r)
  | .tx _ body k => OnlyInner body ∧ ∀ o, OnlyInner (k o)
  | .expect _ body k => OnlyInner body ∧ ∀ o, OnlyInner (k o)
  | .insertF _ _ body _ k => (∀ d c, .outer d c ∉ body) ∧ OnlyInner k
  | .updateF _ _ body _ k => (∀ d c, .outer d c ∉ body) ∧ OnlyInner k
  | .outer .. => False

/-- The whole of C12. -/
def C12_full : Prop := ∀ (g : Grow) (b : Builder) (prog : Prog), Ready b → OnlyInner prog →
  run g prog [] b ≠ .error .panic

/-- C12, partial: if a program panics, it has used an enclosing builder, or handed a nil expression or a nil
pointer to one of the library's own types to a builder.  Missing: panics for those values. -/
theorem C12_no_panic_partial (hb : Ready b) (h : run g prog [] b = .error .panic) : Misuse libDur 0 prog (.ok []) := by
  have hr := run_ref (g := g) prog [] _ _ (by simp) (Ready.rel hb)
  rw [h] at hr
  rcases hr with h | h
  · cases h
  · cases hp : runP b.buf.data.length prog ([] : List Builder).length (.ok []) with
    | none => rw [← modelDur_lib]; exact runP_none _ _ _ hp
    | some y => rw [hp] at h; obtain ⟨x, hx, _⟩ := h; cases hx

/-- No value in the program is hazardous. -/
def NoHazard : Prog → Prop
  | .ret .. => True
  | .call c k => callHazard c = false ∧ ∀ r, (∀ v, r = some v → hazard v = false) → NoHazard (k r)
  | .tx _ body k => NoHazard body ∧ ∀ o, NoHazard (k o)
  | .expect _ body k => NoHazard body ∧ ∀ o, NoHazard (k o)
  | .insertF _ _ body _ k => (rowArgs body).any hazards = false ∧ NoHazard k
  | .updateF _ crit body _ k => crit.any hazard = false ∧ ((setArgs body).any fun s => hazard s.2) = false ∧ NoHazard k
  | .outer _ _ k => NoHazard k

theorem misuse_cases {dt : BitVec 64 → Bytes} {n : Nat} {s : UState} (h : Misuse dt n prog s) : ¬(OnlyInner prog ∧ NoHazard prog) := by
  induction h with
  | outer _ => intro h; exact h.1
  | value h => intro h'; rw [h'.2.1] at h; cases h
  | rows h =>
    intro h'
    rcases h with h | h
    · rw [h'.2.1] at h; cases h
    · exact h fun d c hm => absurd hm (h'.1.1 d c)
  | sets h =>
    intro h'
    rcases h with h | h | h
    · rw [h'.2.1] at h; cases h
    · rw [h'.2.2.1] at h; cases h
    · exact h fun d c hm => absurd hm (h'.1.1 d c)
  | tx _ _ ih => intro h; exact ih ⟨h.1.1, h.2.1⟩
  | expect _ ih => intro h; exact ih ⟨h.1.1, h.2.1⟩
  | afterCall ha _ ih =>
    intro h
    refine ih ⟨h.1 _, h.2.2 _ fun v hv => ?_⟩
    cases ha <;> cases hv
    rfl
  | afterFail _ _ ih => intro h; exact ih ⟨h.1 _, h.2.2 _ (by simp)⟩
  | afterSkip _ ih => intro h; exact ih ⟨h.1 _, h.2.2 _ (by simp)⟩
  | afterTx _ _ _ ih => intro h; exact ih ⟨h.1.2 _, h.2.2 _⟩
  | afterTxFail _ _ _ ih => intro h; exact ih ⟨h.1.2 _, h.2.2 _⟩
  | afterTxLevel _ _ ih => intro h; exact ih ⟨h.1.2 _, h.2.2 _⟩
  | afterTxSkip _ ih => intro h; exact ih ⟨h.1.2 _, h.2.2 _⟩
  | afterExpect _ _ ih => intro h; exact ih ⟨h.1.2 _, h.2.2 _⟩
  | afterExpectFail _ _ ih => intro h; exact ih ⟨h.1.2 _, h.2.2 _⟩
  | afterExpectSkip _ ih => intro h; exact ih ⟨h.1.2 _, h.2.2 _⟩
  | afterInsertF _ _ ih => intro h; exact ih ⟨h.1.2, h.2.2⟩
  | afterInsertFFail _ _ ih => intro h; exact ih ⟨h.1.2, h.2.2⟩
  | afterInsertFSkip _ ih => intro h; exact ih ⟨h.1.2, h.2.2⟩
  | afterUpdateF _ _ _ ih => intro h; exact ih ⟨h.1.2, h.2.2.2⟩
  | afterUpdateFFail _ _ ih => intro h; exact ih ⟨h.1.2, h.2.2.2⟩
  | afterUpdateFSkip _ ih => intro h; exact ih ⟨h.1.2, h.2.2.2⟩
  | afterOuter _ _ _ => intro h; exact h.1

/-- C12, partial: no panic in programs that use only the innermost builder and no hazardous value. -/
theorem C12_legal_partial (hb : Ready b) (h1 : OnlyInner prog) (h2 : NoHazard prog) : run g prog [] b ≠ .error .panic :=
  fun h => misuse_cases (C12_no_panic_partial hb h) ⟨h1, h2⟩

/-- The rest of C12 is false: `StmtExecute("", (*xtorm.String)(nil))` panics. -/
theorem C12_wrong : ¬C12_full := fun h =>
  h growEx builderEx (.call (.stmtExecute [] [.nilPtr true]) fun _ => .ret none []) ⟨rfl, rfl⟩ (fun _ => trivial) rfl

example : OnlyInner (.expect 0 (.tx 9 (.call (.insertRow [] [] [.other, .ptr .nil, .bytes none, .nilPtr false]) fun _ => .ret none [])
    fun _ => .ret none []) fun _ => .ret none []) ∧
  NoHazard (.expect 0 (.tx 9 (.call (.insertRow [] [] [.other, .ptr .nil, .bytes none, .nilPtr false]) fun _ => .ret none [])
    fun _ => .ret none []) fun _ => .ret none []) :=
  ⟨⟨⟨fun _ => trivial, fun _ => trivial⟩, fun _ => trivial⟩, ⟨⟨rfl, fun _ _ => trivial⟩, fun _ => trivial⟩, fun _ => trivial⟩

/-! ### C13 -/

/-- C13: once an error is recorded (at any depth of nesting: `outers` are the builders of the callbacks around),
every program leaves it in place, and `Send` reports it and transmits nothing. -/
theorem C13_errors_stick {outers : List Builder} (ho : ∀ x ∈ outers, x.disabled = true) {e : Err}
    (hd : b.disabled = false) (he : b.err = some e) (h : run g prog outers b = .ok (o, b', out)) :
    b'.err = some e ∧ b'.send = .ok (.error e) ∧ ∃ b0, b'.reset = .ok b0 ∧ Ready b0 ∧ b0.buf.data = [] := by
  have hb : BRel [] b (.error e) := ⟨hd, he⟩
  obtain ⟨st, ks, h1, h2, _⟩ := run_exec ho hb h
  cases exec_error h1 e rfl
  refine ⟨h2.2, ?_, ?_⟩
  · rw [Builder.send, if_neg (by simp [h2.1]), show b'.err = some e from h2.2]
  · rw [Builder.reset, if_neg (by simp [h2.1]), show reslice b'.buf 0 = .ok ⟨[], b'.buf.data ++ b'.buf.spare⟩ by
      simp [reslice, Slice.cap]; try rfl, ok_bind]
    exact ⟨_, rfl, ⟨h2.1, rfl⟩, rfl⟩

/-- C13: a call that is not possible records an error; an error recorded in a callback is recorded outside. -/
theorem C13_errors_start (hb : Ready b) :
    (∀ c r, (∀ ms r, ¬Asked libDur c ms r) → b.step g c = .ok (b', r) → Failed b' ∧ r = none) ∧
    (∀ level k, (∀ o, ∃ err out, k o = .ret err out) → run g (.tx level body k) [] b = .ok (o, b', out) →
      ∀ ss, txOpening level.toNat = some ss →
        (∀ ms o vs, ¬Exec libDur 1 body (.ok (ss.map sql)) (.ok ms) o vs) →
          ∃ e o vs, Exec libDur 1 body (.ok (ss.map sql)) (.error e) o vs ∧ b'.send = .ok (.error e)) ∧
    (∀ op k, (∀ o, ∃ err out, k o = .ret err out) → run g (.expect op body k) [] b = .ok (o, b', out) →
        (∀ ms o vs, ¬Exec libDur 1 body (.ok [.expectOpen op.toNat [(1, ascii "1")]]) (.ok ms) o vs) →
          ∃ e o vs, Exec libDur 1 body (.ok [.expectOpen op.toNat [(1, ascii "1")]]) (.error e) o vs ∧ b'.send = .ok (.error e)) := by
  have fin : ∀ {Z e}, BRel Z b' (.error e) → b'.send = .ok (.error e) := fun h2 => by
    rw [Builder.send, if_neg (by simp [h2.1]), show b'.err = some _ from h2.2]
  refine ⟨fun c r hn hs => ⟨not_asked hb hs hn, ?_⟩, fun level k hk h ss hl hn => ?_, fun op k hk h hn => ?_⟩
  · rcases step_cases (g := g) hb c with h1 | ⟨h1, _⟩ | ⟨b2, e, h1, h2, _⟩ | ⟨b2, ms, r, h1, h2, _⟩
    · rw [hs] at h1; cases h1
    · rw [hs] at h1; cases h1
    · rw [hs] at h1; cases h1; rfl
    · exact absurd h2 (hn _ _)
  · obtain ⟨st, ks, h1, h2, _⟩ := run_ready hb h
    generalize ks.map idVariable = vs at h1
    cases h1 with
    | tx hl' hx _ => rw [hl] at hl'; cases hl'; exact absurd hx (hn _ _ _)
    | txFail hl' hx hk' =>
      rw [hl] at hl'; cases hl'
      cases exec_error hk' _ rfl
      exact ⟨_, _, _, hx, fin h2⟩
    | txLevel hl' _ => rw [hl] at hl'; cases hl'
  · obtain ⟨st, ks, h1, h2, _⟩ := run_ready hb h
    generalize ks.map idVariable = vs at h1
    cases h1 with
    | expect hx _ => exact absurd hx (hn _ _ _)
    | expectFail hx hk' =>
      cases exec_error hk' _ rfl
      exact ⟨_, _, _, hx, fin h2⟩

/-- `Tx(Default, { StmtExecute("x", unsupported); Prepare(1, "y") }); Prepare(2, "z")`: the error sticks -/
example : ∃ o b' out, run growEx (.tx 0 (.call (.stmtExecute (ascii "x") [.other]) fun _ =>
    .call (.prepare 1 (ascii "y")) fun _ => .ret none []) fun _ => .call (.prepare 2 (ascii "z")) fun _ => .ret none [])
    [] builderEx = .ok (o, b', out) ∧ b'.send = .ok (.error .unsupportedType) := ⟨_, _, _, rfl, rfl⟩

/-! ### C14 -/

/-- C14: whatever a program does, what was in the buffer stays in front of what `Send` transmits, or nothing is
transmitted. -/
theorem C14_append_only (hb : Ready b) (h : run g prog [] b = .ok (o, b', out)) :
    (∃ new, b'.send = .ok (.ok (b.buf.data ++ new))) ∨ ∃ e, b'.send = .ok (.error e) := by
  obtain ⟨st, ks, h1, h2, _⟩ := run_ready hb h
  cases st with
  | ok ms =>
    refine .inl ⟨bytesOf ms, ?_⟩
    rw [Builder.send, if_neg (by simp [h2.1]), show b'.err = none from h2.2.1]
    simp [show b'.buf.data = _ from h2.2.2]
  | error e =>
    refine .inr ⟨e, ?_⟩
    rw [Builder.send, if_neg (by simp [h2.1]), show b'.err = some e from h2.2]

example : (run growEx progEx [] builderEx).toOption.isSome ∧ builderEx.buf.data ≠ [] := by decide +kernel

/-! ### C15 -/

/-- C15: `Tx` records the opening statements of its level, the messages of the callback and COMMIT, or the
callback's error; an undefined level records an error and nothing else. -/
theorem C15_tx (hb : Ready b) (level : BitVec 64)
    (h : run g (.tx level body fun o => .ret none o) [] b = .ok (o, b', out)) :
    (∀ ss, txOpening level.toNat = some ss →
      (∃ ms vs, Exec libDur 1 body (.ok []) (.ok ms) out vs ∧
        ((∀ m ∈ ms, Readable m) → Holds b' b.buf.data (ss.map sql ++ ms ++ [sql "COMMIT"]))) ∨
      (∃ e vs, Exec libDur 1 body (.ok (ss.map sql)) (.error e) out vs ∧ b'.send = .ok (.error e))) ∧
    (txOpening level.toNat = none → b'.send = .ok (.error .isolation)) := by
  obtain ⟨st, ks, h1, h2, _⟩ := run_ready hb h
  generalize ks.map idVariable = vs at h1
  have fin : ∀ {Z e}, BRel Z b' (.error e) → b'.send = .ok (.error e) := fun h2 => by
    rw [Builder.send, if_neg (by simp [h2.1]), show b'.err = some _ from h2.2]
  cases h1 with
  | tx hl' hx hk' =>
    cases hk'
    refine ⟨fun ss hl => ?_, fun hl => by rw [hl] at hl'; cases hl'⟩
    rw [hl] at hl'; cases hl'
    obtain ⟨new, e, hp⟩ := exec_append hx _ _ rfl rfl
    have hp := hp []
    refine .inl ⟨new, _, hp, fun hr => ?_⟩
    rw [e] at h2
    apply h2.holds
    intro m hm
    have hx' := exec_good hp _ _ rfl rfl (by simp)
    simp only [List.nil_append, List.mem_append, List.mem_map, List.mem_singleton] at hm hx'
    rcases hm with (⟨s, _, rfl⟩ | hm) | rfl
    · exact sql_good s
    · exact hx' m hm (hr m hm)
    · exact sql_good _
  | txFail hl' hx hk' =>
    cases hk'
    refine ⟨fun ss hl => ?_, fun hl => by rw [hl] at hl'; cases hl'⟩
    rw [hl] at hl'; cases hl'
    exact .inr ⟨_, _, hx, fin h2⟩
  | txLevel hl' hk' =>
    cases hk'
    exact ⟨fun ss hl => (by rw [hl] at hl'; cases hl'), fun _ => fin h2⟩

example : (appended builderEx (.tx 1 (.call (.delete (ascii "t") none) fun _ => .ret none []) fun o => .ret none o)).bind
    (fun bs => (readFrames bs).map (·.map (fun f => decodeMsg f.1 f.2))) =
    some [some (sql "SET TRANSACTION ISOLATION LEVEL READ UNCOMMITTED"), some (sql "START TRANSACTION"),
      some (.delete (ascii "t") none none), some (sql "COMMIT")] := by decide +kernel

/-! ### C16 -/

/-- Reading messages inside `n` open blocks: the number of open blocks at the end, `none` if a block is closed
that is not open. -/
def openBlocks : Nat → List ClientMsg → Option Nat
  | n, [] => some n
  | n, .expectOpen .. :: ms => openBlocks (n + 1) ms
  | 0, .expectClose :: _ => none
  | n + 1, .expectClose :: ms => openBlocks n ms
  | n, _ :: ms => openBlocks n ms

def isBlock : ClientMsg → Bool
  | .expectOpen .. => true
  | .expectClose => true
  | _ => false

theorem openBlocks_append (a c : List ClientMsg) : ∀ n, openBlocks n (a ++ c) = (openBlocks n a).bind fun m => openBlocks m c := by
  induction a with
  | nil => intro n; rfl
  | cons m a ih =>
    intro n
    cases m <;> (try (simp only [List.cons_append, openBlocks]; exact ih _))
    cases n with
    | zero => rfl
    | succ n => exact ih n

theorem openBlocks_plain {a : List ClientMsg} (h : ∀ m ∈ a, isBlock m = false) (n : Nat) : openBlocks n a = some n := by
  induction a with
  | nil => rfl
  | cons m a ih =>
    have hm := h m (.head _)
    have ih := ih fun m hm => h m (.tail _ hm)
    cases m <;> first | (simp only [openBlocks]; exact ih) | (cases hm)

theorem asked_plain {dt : BitVec 64 → Bytes} {c : Call} {ms : List ClientMsg} {r : Option Val} (h : Asked dt c ms r) :
    ∀ m ∈ ms, isBlock m = false := by
  cases h <;> simp [isBlock, captureId]

theorem sql_plain (ss : List String) : ∀ m ∈ ss.map sql, isBlock m = false := by
  simp [sql, isBlock]

/-- every block a condition no_error = 1 -/
def NoErrorBlocks (ms : List ClientMsg) : Prop := ∀ op conds, ClientMsg.expectOpen op conds ∈ ms → conds = [(1, ascii "1")]

theorem plain_noError {ms : List ClientMsg} (h : ∀ m ∈ ms, isBlock m = false) : NoErrorBlocks ms :=
  fun op conds hm => by have := h _ hm; cases this

theorem NoErrorBlocks.append {a c : List ClientMsg} (ha : NoErrorBlocks a) (hc : NoErrorBlocks c) : NoErrorBlocks (a ++ c) :=
  fun op conds hm => (List.mem_append.mp hm).elim (ha op conds) (hc op conds)

theorem exec_blocks {dt : BitVec 64 → Bytes} {n : Nat} {s s' : UState} {vs : List Bytes} (h : Exec dt n prog s s' out vs) :
    ∀ ms ms', s = .ok ms → s' = .ok ms' → ∀ d, openBlocks 0 ms = some d → NoErrorBlocks ms →
      openBlocks 0 ms' = some d ∧ NoErrorBlocks ms' := by
  have plain : ∀ {ms m : List ClientMsg} {d}, openBlocks 0 ms = some d → NoErrorBlocks ms → (∀ x ∈ m, isBlock x = false) →
      openBlocks 0 (ms ++ m) = some d ∧ NoErrorBlocks (ms ++ m) := fun hd hn hm =>
    ⟨by rw [openBlocks_append, hd]; exact openBlocks_plain hm _, hn.append (plain_noError hm)⟩
  induction h with
  | ret => intro ms ms' h1 h2 d hd hn; cases h1; cases h2; exact ⟨hd, hn⟩
  | call ha _ ih =>
    intro ms ms' h1 h2 d hd hn; cases h1
    obtain ⟨h3, h4⟩ := plain hd hn (asked_plain ha)
    exact ih _ _ rfl h2 d h3 h4
  | tx hl _ _ ihb ihk =>
    intro ms ms' h1 h2 d hd hn; cases h1
    obtain ⟨h3, h4⟩ := plain hd hn (sql_plain _)
    obtain ⟨h3, h4⟩ := ihb _ _ rfl rfl d h3 h4
    obtain ⟨h3, h4⟩ := plain h3 h4 (m := [sql "COMMIT"]) (by simp [sql, isBlock])
    exact ihk _ _ rfl h2 d h3 h4
  | expect _ _ ihb ihk =>
    intro ms ms' h1 h2 d hd hn; cases h1
    obtain ⟨h3, h4⟩ := ihb _ _ rfl rfl (d + 1) (by rw [openBlocks_append, hd]; rfl)
      (hn.append fun op conds hm => by simp at hm; exact hm.2)
    refine ihk _ _ rfl h2 d (by rw [openBlocks_append, h3]; rfl) (h4.append fun op conds hm => by simp at hm)
  | insertF _ _ _ ih =>
    intro ms ms' h1 h2 d hd hn; cases h1
    obtain ⟨h3, h4⟩ := plain hd hn (m := [.insert ..]) (by simp [isBlock])
    exact ih _ _ rfl h2 d h3 h4
  | updateF _ _ _ _ ih =>
    intro ms ms' h1 h2 d hd hn; cases h1
    obtain ⟨h3, h4⟩ := plain hd hn (m := [.update ..]) (by simp [isBlock])
    exact ih _ _ rfl h2 d h3 h4
  | outer _ _ ih => exact ih
  | callFail _ _ hx _ => intro ms ms' h1 h2; cases exec_error hx _ rfl; cases h2
  | txFail _ _ hx _ _ => intro ms ms' h1 h2; cases exec_error hx _ rfl; cases h2
  | txLevel _ hx _ => intro ms ms' h1 h2; cases exec_error hx _ rfl; cases h2
  | expectFail _ hx _ _ => intro ms ms' h1 h2; cases exec_error hx _ rfl; cases h2
  | insertFFail _ _ _ hx _ => intro ms ms' h1 h2; cases exec_error hx _ rfl; cases h2
  | updateFFail _ _ _ hx _ => intro ms ms' h1 h2; cases exec_error hx _ rfl; cases h2
  | callSkip _ _ => intro ms ms' h1 h2; cases h1
  | txSkip _ _ => intro ms ms' h1 h2; cases h1
  | expectSkip _ _ => intro ms ms' h1 h2; cases h1
  | insertFSkip _ _ => intro ms ms' h1 h2; cases h1
  | updateFSkip _ _ => intro ms ms' h1 h2; cases h1

/-- C16: the messages of a sendable unit of work open and close expectation blocks in balance, every block with
the one condition no_error = 1. -/
theorem C16_blocks_balanced (hb : Ready b) (h : run g prog [] b = .ok (o, b', out)) (he : b'.err = none) :
    ∃ ms, openBlocks 0 ms = some 0 ∧ NoErrorBlocks ms ∧ ((∀ m ∈ ms, Readable m) → Holds b' b.buf.data ms) := by
  obtain ⟨st, ks, h1, h2, _⟩ := run_ready hb h
  cases st with
  | error e => rw [show b'.err = some e from h2.2] at he; cases he
  | ok ms =>
    obtain ⟨h3, h4⟩ := exec_blocks h1 _ _ rfl rfl 0 rfl (fun _ _ hm => by cases hm)
    exact ⟨ms, h3, h4, fun hr => h2.holds fun m hm => exec_good h1 _ _ rfl rfl (by simp) m hm (hr m hm)⟩

/-- C16: `ExpectFailOnError` opens a block in the requested context with that condition, records the messages of
the callback, themselves in balance, and closes the block. -/
theorem C16_block_nesting (hb : Ready b) (op : UInt8)
    (h : run g (.expect op body fun o => .ret none o) [] b = .ok (o, b', out)) :
    (∃ ms vs, Exec libDur 1 body (.ok []) (.ok ms) out vs ∧ openBlocks 0 ms = some 0 ∧
        (op.toNat ≤ 1 → (∀ m ∈ ms, Readable m) →
          Holds b' b.buf.data (.expectOpen op.toNat [(1, ascii "1")] :: ms ++ [.expectClose]))) ∨
      (∃ e vs, Exec libDur 1 body (.ok [.expectOpen op.toNat [(1, ascii "1")]]) (.error e) out vs ∧ b'.send = .ok (.error e)) := by
  obtain ⟨st, ks, h1, h2, _⟩ := run_ready hb h
  generalize ks.map idVariable = vs at h1
  have h1' := exec_good h1
  cases h1 with
  | expect hx hk' =>
    cases hk'
    obtain ⟨new, e, hp⟩ := exec_append hx _ _ rfl rfl
    have hp := hp []
    refine .inl ⟨new, _, hp, (exec_blocks hp _ _ rfl rfl 0 rfl (fun _ _ hm => by cases hm)).1, fun hop hr => ?_⟩
    rw [e] at h2 h1'
    apply h2.holds
    intro m hm
    refine h1' _ _ rfl rfl (by simp) m hm ?_
    simp only [List.nil_append, List.cons_append, List.mem_cons, List.mem_append] at hm
    rcases hm with rfl | hm | rfl | hm
    · exact hop
    · exact hr m hm
    · trivial
    · cases hm
  | expectFail hx hk' =>
    cases hk'
    refine .inr ⟨_, _, hx, ?_⟩
    rw [Builder.send, if_neg (by simp [h2.1]), show b'.err = some _ from h2.2]

example : (appended builderEx (.expect 1 (.expect 0 (.ret none []) fun _ => .call (.deallocate 1) fun _ => .ret none [])
    fun o => .ret none o)).bind decodeStream =
    some [.expectOpen 1 [(1, ascii "1")], .expectOpen 0 [(1, ascii "1")], .expectClose, .deallocate 1, .expectClose] := by
  decide +kernel

/-! ### C17 -/

/-- First `p`, then `q`. -/
def andThen : Prog → Prog → Prog
  | .ret .., q => q
  | .call c k, q => .call c fun r => andThen (k r) q
  | .tx l body k, q => .tx l body fun o => andThen (k o) q
  | .expect op body k, q => .expect op body fun o => andThen (k o) q
  | .insertF t cols body err k, q => .insertF t cols body err (andThen k q)
  | .updateF t crit body err k, q => .updateF t crit body err (andThen k q)
  | .outer d c k, q => .outer d c (andThen k q)

theorem never_outer {z d n : Nat} (hd : d < n) (c : OuterCall) (q : Prog) (p : Prog) :
    ∀ st, runP z (andThen p (.outer d c q)) n st = none := by
  induction p with
  | ret => intro st; simp [andThen, runP, hd]
  | call c k ih =>
    intro st
    simp only [andThen, runP]
    cases stepP z st c with
    | none => rfl
    | some x => exact ih _ _
  | tx l body k _ ih =>
    intro st
    simp only [andThen]
    unfold runP
    cases st with
    | error e => exact ih _ _
    | ok ms =>
      dsimp only
      cases isolationStmts l with
      | none => exact ih _ _
      | some ss =>
        dsimp only
        cases runP z body (n + 1) (.ok (ms ++ ss.map stmtMsg)) with
        | none => rfl
        | some x => exact ih _ _
  | expect op body k _ ih =>
    intro st
    simp only [andThen]
    unfold runP
    cases st with
    | error e => exact ih _ _
    | ok ms =>
      dsimp only
      cases runP z body (n + 1) (.ok (ms ++ [.expectOpen op.toNat [(1, [49])]])) with
      | none => rfl
      | some x => exact ih _ _
  | insertF t cols body err k ih =>
    intro st
    simp only [andThen]
    unfold runP
    cases st with
    | error e => exact ih _
    | ok ms =>
      dsimp only
      cases rowsP (n + 1) (.ok []) body with
      | none => rfl
      | some x => exact ih _
  | updateF t crit body err k ih =>
    intro st
    simp only [andThen]
    unfold runP
    cases st with
    | error e => exact ih _
    | ok ms =>
      dsimp only
      cases critRes crit with
      | panic => rfl
      | ok c =>
        dsimp only
        cases setsP (n + 1) (.ok []) body with
        | none => rfl
        | some x => exact ih _
      | err e =>
        dsimp only
        cases setsP (n + 1) (.error e) body with
        | none => rfl
        | some x => exact ih _
  | outer d' c' k ih =>
    intro st
    simp only [andThen, runP]
    split
    · rfl
    · exact ih _

/-- C17: inside any number of callbacks (whose builders `outers` are all disabled), whatever program `p` has been
run before and whether or not an error is recorded, a use of any of the enclosing builders panics (if `p` did
not panic or run out of memory). -/
theorem C17_enclosing_panics {outers : List Builder} (ho : ∀ x ∈ outers, x.disabled = true) (hd : b.disabled = false)
    (p : Prog) {d : Nat} (hn : d < outers.length) (c : OuterCall) (q : Prog) :
    run g (andThen p (.outer d c q)) outers b = .error .oom ∨ run g (andThen p (.outer d c q)) outers b = .error .panic := by
  have : ∃ Z st, BRel Z b st := by
    cases he : b.err with
    | none => exact ⟨b.buf.data, .ok [], hd, he, by simp [bytesOf]⟩
    | some e => exact ⟨[], .error e, hd, he⟩
  obtain ⟨Z, st, hb⟩ := this
  have := run_ref (g := g) (andThen p (.outer d c q)) outers b st ho hb
  rw [never_outer hn c q p st] at this
  exact this

/-- C17: every method of a disabled builder panics. -/
theorem C17_disabled_panics (hd : b.disabled = true) (outers : List Builder) :
    (∀ c, b.step g c = .error .panic) ∧ b.reset = .error .panic ∧ b.send = .error .panic ∧
    (∀ l body k, run g (.tx l body k) outers b = .error .panic) ∧
    (∀ op body k, run g (.expect op body k) outers b = .error .panic) ∧
    (∀ t cols body err k, run g (.insertF t cols body err k) outers b = .error .panic) ∧
    (∀ t crit body err k, run g (.updateF t crit body err k) outers b = .error .panic) := by
  refine ⟨fun c => ?_, ?_, ?_, fun l body k => ?_, fun op body k => ?_, fun t cols body err k => ?_, fun t crit body err k => ?_⟩
  · unfold Builder.step; rw [if_pos hd]
  · rw [Builder.reset, if_pos hd]
  · rw [Builder.send, if_pos hd]
  · unfold run; rw [if_pos hd]
  · unfold run; rw [if_pos hd]
  · unfold run; rw [if_pos hd]
  · unfold run; rw [if_pos hd]

theorem oom_or_panic {r : M (List Builder × Builder × List (Option Val))} {o : Option (PState × List (Option Val))} {R}
    (h : Ref r o R) (hn : o = none) : r = .error .oom ∨ r = .error .panic := by
  subst hn; exact h

/-- C17: the callbacks of `Tx`, `ExpectFailOnError`, `InsertF` and `UpdateF` run with the builder they were called
on disabled: using it as number 0 panics, for every method. -/
theorem C17_callbacks (hb : Ready b) (p q : Prog) (c : OuterCall) :
    (∀ level k, txOpening level.toNat ≠ none → ∃ e, run g (.tx level (andThen p (.outer 0 c q)) k) [] b = .error e) ∧
    (∀ op k, ∃ e, run g (.expect op (andThen p (.outer 0 c q)) k) [] b = .error e) ∧
    (∀ t cols body err k, RowStep.outer 0 c ∈ body → ∃ e, run g (.insertF t cols body err k) [] b = .error e) ∧
    (∀ t crit body err k, SetStep.outer 0 c ∈ body → ∃ e, run g (.updateF t crit body err k) [] b = .error e) := by
  have key : ∀ prog, (∀ st' out vs, ¬Exec libDur 0 prog (.ok []) st' out vs) → ∃ e, run g prog [] b = .error e := by
    intro prog h
    cases hr : run g prog [] b with
    | error e => exact ⟨e, rfl⟩
    | ok x =>
      obtain ⟨o, b', out⟩ := x
      obtain ⟨st, ks, h1, _⟩ := run_ready hb hr
      exact absurd h1 (h _ _ _)
  have never : ∀ p : Prog, ∀ s s' o vs, ¬Exec libDur 1 (andThen p (.outer 0 c q)) s s' o vs := by
    intro p
    induction p with
    | ret => intro s s' o vs h; cases h; omega
    | call c k ih => intro s s' o vs h; cases h <;> exact ih _ _ _ _ _ ‹_›
    | tx l body k _ ih => intro s s' o vs h; cases h <;> exact ih _ _ _ _ _ ‹_›
    | expect op body k _ ih => intro s s' o vs h; cases h <;> exact ih _ _ _ _ _ ‹_›
    | insertF t cols body err k ih => intro s s' o vs h; cases h <;> exact ih _ _ _ _ ‹_›
    | updateF t crit body err k ih => intro s s' o vs h; cases h <;> exact ih _ _ _ _ ‹_›
    | outer d c k ih => intro s s' o vs h; cases h; exact ih _ _ _ _ ‹_›
  refine ⟨fun level k hl => key _ fun st' out vs h => ?_, fun op k => key _ fun st' out vs h => ?_,
    fun t cols body err k hm => key _ fun st' out vs h => ?_, fun t crit body err k hm => key _ fun st' out vs h => ?_⟩
  · cases h with
    | tx _ hx _ => exact never p _ _ _ _ hx
    | txFail _ hx _ => exact never p _ _ _ _ hx
    | txLevel h _ => exact hl h
  · cases h with
    | expect hx _ => exact never p _ _ _ _ hx
    | expectFail hx _ => exact never p _ _ _ _ hx
  · cases h with
    | insertF hp _ _ => have := hp _ _ hm; omega
    | insertFFail hp _ _ _ => have := hp _ _ hm; omega
  · cases h with
    | updateF hp _ _ _ => have := hp _ _ hm; omega
    | updateFFail hp _ _ _ => have := hp _ _ hm; omega

/-- C17: after a callback the builder is usable again and has the callback's messages in it. -/
theorem C17_usable_again (hb : Ready b) (level : BitVec 64) (c : Call)
    (h : run g (.tx level body fun o => .call c fun _ => .ret none o) [] b = .ok (o, b', out)) (he : b'.err = none) :
    ∃ ss ms vs m r, txOpening level.toNat = some ss ∧ Exec libDur 1 body (.ok []) (.ok ms) out vs ∧ Asked libDur c m r ∧
      ((∀ x ∈ ms, Readable x) → (∀ x ∈ m, Readable x) →
        Holds b' b.buf.data (ss.map sql ++ ms ++ [sql "COMMIT"] ++ m)) := by
  obtain ⟨st, ks, h1, h2, _⟩ := run_ready hb h
  generalize ks.map idVariable = vs at h1
  have notErr : ∀ e, st ≠ .error e := fun e hs => by
    subst hs
    rw [show b'.err = some e from h2.2] at he; cases he
  have hg := exec_good h1
  cases h1 with
  | tx hl hx hk =>
    cases hk with
    | call ha hk =>
      cases hk
      obtain ⟨new, e, hp⟩ := exec_append hx _ _ rfl rfl
      refine ⟨_, new, _, _, _, hl, hp [], ha, fun hr1 hr2 => ?_⟩
      rw [e] at h2 hg
      rw [List.nil_append] at h2 hg
      apply h2.holds
      intro m hm
      refine hg _ _ rfl rfl (by simp) m hm ?_
      simp only [List.mem_append, List.mem_map, List.mem_singleton] at hm
      rcases hm with ((⟨s, _, rfl⟩ | hm) | rfl) | hm
      · trivial
      · exact hr1 m hm
      · trivial
      · exact hr2 m hm
    | callFail _ _ hk => cases hk; exact absurd rfl (notErr _)
  | txFail _ _ hk => exact absurd (exec_error hk _ rfl) (notErr _)
  | txLevel _ hk => exact absurd (exec_error hk _ rfl) (notErr _)

/-- C17: the same for `ExpectFailOnError`. -/
theorem C17_usable_after_expect (hb : Ready b) (op : UInt8) (hop : op.toNat ≤ 1) (c : Call)
    (h : run g (.expect op body fun o => .call c fun _ => .ret none o) [] b = .ok (o, b', out)) (he : b'.err = none) :
    ∃ ms vs m r, Exec libDur 1 body (.ok []) (.ok ms) out vs ∧ Asked libDur c m r ∧
      ((∀ x ∈ ms, Readable x) → (∀ x ∈ m, Readable x) →
        Holds b' b.buf.data (.expectOpen op.toNat [(1, ascii "1")] :: ms ++ [.expectClose] ++ m)) := by
  obtain ⟨st, ks, h1, h2, _⟩ := run_ready hb h
  generalize ks.map idVariable = vs at h1
  have notErr : ∀ e, st ≠ .error e := fun e hs => by
    subst hs
    rw [show b'.err = some e from h2.2] at he; cases he
  have hg := exec_good h1
  cases h1 with
  | expect hx hk =>
    cases hk with
    | call ha hk =>
      cases hk
      obtain ⟨new, e, hp⟩ := exec_append hx _ _ rfl rfl
      refine ⟨new, _, _, _, hp [], ha, fun hr1 hr2 => ?_⟩
      rw [e] at h2 hg
      rw [List.nil_append, List.singleton_append] at h2 hg
      apply h2.holds
      intro m hm
      refine hg _ _ rfl rfl (by simp) m hm ?_
      simp only [List.cons_append, List.mem_append, List.mem_cons, List.not_mem_nil, or_false] at hm
      rcases hm with rfl | (hm | rfl) | hm
      · exact hop
      · exact hr1 m hm
      · trivial
      · exact hr2 m hm
    | callFail _ _ hk => cases hk; exact absurd rfl (notErr _)
  | expectFail _ hk => exact absurd (exec_error hk _ rfl) (notErr _)

/-- C17: and for `InsertF` and `UpdateF`, whose callbacks record rows and assignments. -/
theorem C17_usable_after_rows (hb : Ready b) (c : Call) (he : b'.err = none) :
    (∀ t cols body err, run g (.insertF t cols body err (.call c fun _ => .ret none [])) [] b = .ok (o, b', out) →
      ∃ rs m r, Rows libDur (rowArgs body) rs ∧ Asked libDur c m r ∧
        ((∀ row ∈ rs, ∀ e ∈ row, varsShort e = true) → (∀ x ∈ m, Readable x) → Holds b' b.buf.data (.insert t (some 2) cols rs :: m))) ∧
    (∀ t crit body err, run g (.updateF t crit body err (.call c fun _ => .ret none [])) [] b = .ok (o, b', out) →
      ∃ cr ss m r, Crit libDur crit cr ∧ Sets libDur (setArgs body) ss ∧ Asked libDur c m r ∧
        ((∀ e ∈ cr, varsShort e = true) → (∀ s ∈ ss, varsShort s.2 = true) → (∀ x ∈ m, Readable x) →
          Holds b' b.buf.data (.update t (some 2) cr ss :: m))) := by
  refine ⟨fun t cols body err h => ?_, fun t crit body err h => ?_⟩
  all_goals
    obtain ⟨st, ks, h1, h2, _⟩ := run_ready hb h
    generalize ks.map idVariable = vs at h1
    have notErr : ∀ e, st ≠ .error e := fun e hs => by
      subst hs
      rw [show b'.err = some e from h2.2] at he; cases he
    have hg := exec_good h1
  · cases h1 with
    | insertF _ hr hk =>
      cases hk with
      | call ha hk =>
        cases hk
        refine ⟨_, _, _, hr, ha, fun hr1 hr2 => ?_⟩
        apply h2.holds
        intro m hm
        refine hg _ _ rfl rfl (by simp) m hm ?_
        rcases List.mem_cons.mp hm with rfl | hm
        · exact hr1
        · exact hr2 m hm
      | callFail _ _ hk => cases hk; exact absurd rfl (notErr _)
    | insertFFail _ _ _ hk => exact absurd (exec_error hk _ rfl) (notErr _)
  · cases h1 with
    | updateF _ h3 h4 hk =>
      cases hk with
      | call ha hk =>
        cases hk
        refine ⟨_, _, _, _, h3, h4, ha, fun hr1 hr1' hr2 => ?_⟩
        apply h2.holds
        intro m hm
        refine hg _ _ rfl rfl (by simp) m hm ?_
        rcases List.mem_cons.mp hm with rfl | hm
        · exact ⟨hr1, hr1'⟩
        · exact hr2 m hm
      | callFail _ _ hk => cases hk; exact absurd rfl (notErr _)
    | updateFFail _ _ _ hk => exact absurd (exec_error hk _ rfl) (notErr _)

example : (appended builderEx (.expect 1 (.call (.deallocate 1) fun _ => .ret none []) fun o => .call (.deallocate 2) fun _ => .ret none o)).isSome ∧
    (appended builderEx (.insertF (ascii "t") [ascii "a"] [.row [.int 1], .row [.int 2]] none (.call (.deallocate 2) fun _ => .ret none []))).isSome ∧
    (appended builderEx (.updateF (ascii "t") none [.set (ascii "a") (.int 1)] none (.call (.deallocate 2) fun _ => .ret none []))).isSome := by
  decide +kernel
example : (match run growEx (.expect 0 (.tx 0 (.call (.deallocate 1) fun _ => .outer 1 .send (.ret none []))
    fun _ => .ret none []) fun _ => .ret none []) [] builderEx with | .error .panic => true | _ => false) = true := by
  decide +kernel
example : (appended builderEx (.tx 5 (.call (.deallocate 1) fun _ => .ret none []) fun o => .call (.deallocate 2) fun _ => .ret none o)).isSome := by
  decide +kernel

/-! ### C19 -/

/-- C19: `InsertRow` records the insert followed by the statement that captures the generated id in a variable,
and returns that variable. -/
theorem C19_insertRow (hb : Ready b) (t : Bytes) (cols : List Bytes) (row : List Val) {es : List PExpr}
    (hr : Row libDur row es) (hv : ∀ e ∈ es, varsShort e = true) :
    b.step g (.insertRow t cols row) = .error .oom ∨
    ∃ v, Records g b (.insertRow t cols row)
      [.insert t (some 2) cols [es], .stmtExecute (ascii "SET " ++ v ++ ascii " = LAST_INSERT_ID()") []] (some (.variable v)) := by
  rcases step_asked (g := g) hb (Asked.insertRow hr (v := [])) with h1 | ⟨b', ms', r', h1, h2, h3⟩
  · exact .inl h1
  · cases h2 with
    | insertRow hr' =>
      cases row_unique hr hr'
      refine .inr ⟨_, .inr ⟨b', h1, h3.holds fun m hm => asked_good (.insertRow hr) m hm ?_⟩⟩
      simp at hm
      rcases hm with rfl | rfl
      · intro r hr e he; simp at hr; subst hr; exact hv e he
      · trivial

/-- C19: the variables returned in one unit of work, at whatever depth, are all different; they are numbered, with
numbers not exceeding the size of the unit. -/
theorem C19_fresh_variables (hb : Ready b) (h : run g prog [] b = .ok (o, b', out)) :
    ∃ s vs, Exec libDur 0 prog (.ok []) s out vs ∧ vs.Nodup ∧
      (b'.err = none → ∀ v ∈ vs, ∃ k ≤ b'.buf.data.length, v = ascii "@id$" ++ decimal k) := by
  obtain ⟨st, ks, h1, h2, h3⟩ := run_ready hb h
  refine ⟨st, _, h1, h3.nodup, fun he v hv => ?_⟩
  obtain ⟨k, hk, rfl⟩ := List.mem_map.mp hv
  cases st with
  | error e => rw [show b'.err = some e from h2.2] at he; cases he
  | ok ms =>
    have := h3.high k hk ms rfl
    refine ⟨k, ?_, rfl⟩
    rw [h2.2.2, List.length_append]
    exact this

def idsOf : List ClientMsg → List Bytes
  | .stmtExecute s [] :: ms => s :: idsOf ms
  | _ :: ms => idsOf ms
  | [] => []

example : ((appended builderEx (.tx 0 (.call (.insertRow (ascii "t") [ascii "a"] [.int 1]) fun v => .ret none [v]) fun o =>
    .call (.insertRow (ascii "t") [ascii "a"] [(o.head?.join).getD .nil]) fun _ => .ret none [])).bind decodeStream).map idsOf =
    some (["START TRANSACTION", "SET @id$58 = LAST_INSERT_ID()", "COMMIT", "SET @id$138 = LAST_INSERT_ID()"].map ascii) := by
  decide +kernel

/-! ### C21 -/

/-- The callback returns an error, wherever it returns. -/
def ReturnsErr : Prog → Prop
  | .ret err _ => err.isSome
  | .call _ k => ∀ r, ReturnsErr (k r)
  | .tx _ _ k => ∀ o, ReturnsErr (k o)
  | .expect _ _ k => ∀ o, ReturnsErr (k o)
  | .insertF _ _ _ _ k => ReturnsErr k
  | .updateF _ _ _ _ k => ReturnsErr k
  | .outer _ _ k => ReturnsErr k

/-- The whole of C21. -/
def C21_full : Prop := ∀ (g : Grow) (b : Builder), Ready b → ∀ o b' out,
  (∀ level body, ReturnsErr body → run g (.tx level body fun o => .ret none o) [] b = .ok (o, b', out) → Failed b') ∧
  (∀ op body, ReturnsErr body → run g (.expect op body fun o => .ret none o) [] b = .ok (o, b', out) → Failed b') ∧
  (∀ t cols body err, err ≠ none → run g (.insertF t cols body err (.ret none [])) [] b = .ok (o, b', out) → Failed b') ∧
  (∀ t crit body err, err ≠ none → run g (.updateF t crit body err (.ret none [])) [] b = .ok (o, b', out) → Failed b')

/-- The same program with callbacks returning no error. -/
def dropErrs : Prog → Prog
  | .ret _ out => .ret none out
  | .call c k => .call c fun r => dropErrs (k r)
  | .tx l body k => .tx l (dropErrs body) fun o => dropErrs (k o)
  | .expect op body k => .expect op (dropErrs body) fun o => dropErrs (k o)
  | .insertF t cols body _ k => .insertF t cols body none (dropErrs k)
  | .updateF t crit body _ k => .updateF t crit body none (dropErrs k)
  | .outer d c k => .outer d c (dropErrs k)

/-- C21, partial: errors of the builder's calls made in a callback abort the unit of work.  Missing: errors
returned by the callback; they are ignored, see `C21_wrong` and `C21_ignored`. -/
theorem C21_failed_calls_partial (hb : Ready b) :
    (∀ level, run g (.tx level body fun o => .ret none o) [] b = .ok (o, b', out) →
      (∀ ms o vs, ¬Exec libDur 1 body (.ok []) (.ok ms) o vs) → Failed b') ∧
    (∀ op, run g (.expect op body fun o => .ret none o) [] b = .ok (o, b', out) →
      (∀ ms o vs, ¬Exec libDur 1 body (.ok []) (.ok ms) o vs) → Failed b') ∧
    (∀ t cols steps err, run g (.insertF t cols steps err (.ret none [])) [] b = .ok (o, b', out) →
      (∀ rs, ¬Rows libDur (rowArgs steps) rs) → Failed b') ∧
    (∀ t crit steps err, run g (.updateF t crit steps err (.ret none [])) [] b = .ok (o, b', out) →
      (∀ c ss, ¬(Crit libDur crit c ∧ Sets libDur (setArgs steps) ss)) → Failed b') := by
  refine ⟨fun level h hn => ?_, fun op h hn => ?_, fun t cols steps err h hn => ?_, fun t crit steps err h hn => ?_⟩ <;>
    obtain ⟨st, ks, h1, h2, _⟩ := run_ready hb h <;> generalize ks.map idVariable = vs at h1
  · cases h1 with
    | tx _ hx _ => obtain ⟨new, _, hp⟩ := exec_append hx _ _ rfl rfl; exact absurd (hp []) (hn _ _ _)
    | txFail _ _ hk => cases hk; exact h2.failed
    | txLevel _ hk => cases hk; exact h2.failed
  · cases h1 with
    | expect hx _ => obtain ⟨new, _, hp⟩ := exec_append hx _ _ rfl rfl; exact absurd (hp []) (hn _ _ _)
    | expectFail _ hk => cases hk; exact h2.failed
  · cases h1 with
    | insertF _ hr _ => exact absurd hr (hn _)
    | insertFFail _ _ _ hk => cases hk; exact h2.failed
  · cases h1 with
    | updateF _ h1 h2 _ => exact absurd ⟨h1, h2⟩ (hn _ _)
    | updateFFail _ _ _ hk => cases hk; exact h2.failed

/-- The errors callbacks return have no effect at all. -/
theorem C21_ignored (prog : Prog) : ∀ (outers : List Builder) (b : Builder), run g (dropErrs prog) outers b = run g prog outers b := by
  induction prog with
  | ret => intro outers b; rfl
  | call c k ih => intro outers b; simp only [dropErrs, run, ih]
  | tx l body k ihb ihk => intro outers b; simp only [dropErrs, run, ihb, ihk]
  | expect op body k ihb ihk => intro outers b; simp only [dropErrs, run, ihb, ihk]
  | insertF t cols body err k ih => intro outers b; simp only [dropErrs, run, ih]
  | updateF t crit body err k ih => intro outers b; simp only [dropErrs, run, ih]
  | outer d c k ih => intro outers b; simp only [dropErrs, run, ih]

/-- The rest of C21 is false: the transaction is committed although the callback returned an error. -/
theorem C21_wrong : ¬C21_full := fun h => by
  have h := (h growEx builderEx ⟨rfl, rfl⟩ _ _ _).1 0
    (.call (.stmtExecute (ascii "DELETE FROM t") []) fun _ => .ret (some .unsupportedType) []) (fun _ => rfl) rfl
  obtain ⟨e, h, _⟩ := h
  cases h

/-! ### C28 -/

/-- The four byte header has the number of bytes that follow. -/
def HeaderOK (fr : Bytes) : Prop := ∃ n rest, readFixed 4 fr = some (n, rest) ∧ rest.length = n

/-- The whole of C28, for the calls that record one message. -/
def C28_full : Prop := ∀ (g : Grow) (b b' : Builder) (c : Call) (r : Option Val), Ready b →
  (∀ t cols row, c ≠ .insertRow t cols row) → b.step g c = .ok (b', r) → b'.err = none →
  ∃ fr, b'.buf.data = b.buf.data ++ fr ∧ HeaderOK fr

/-- C28, partial: in every sendable unit of work the frames, one per message, of less than 4 GiB (with the type
byte) have the right header.  Missing: longer ones. -/
theorem C28_headers_partial (hb : Ready b) (h : run g prog [] b = .ok (o, b', out)) (he : b'.err = none) :
    ∃ ms vs, ∃ frs : List Bytes, Exec libDur 0 prog (.ok []) (.ok ms) out vs ∧ b'.buf.data = b.buf.data ++ frs.flatten ∧
      frs.length = ms.length ∧ ∀ f ∈ frs, f.length < 2 ^ 32 + 4 → HeaderOK f := by
  obtain ⟨st, ks, h1, h2, _⟩ := run_ready hb h
  cases st with
  | error e => rw [show b'.err = some e from h2.2] at he; cases he
  | ok ms =>
    refine ⟨ms, _, ms.map codeFrame, h1, ?_, by simp, fun f hf hl => ?_⟩
    · rw [h2.2.2, bytesOf, List.flatMap_def]
    · obtain ⟨m, _, rfl⟩ := List.mem_map.mp hf
      rw [codeFrame_length] at hl
      exact ⟨(codeMsg m).2.length + 1, _, readFixed_fixed 4 _ _ (by omega), by simp⟩

end Verif.Props
