import Verif.Proof.Plugin
/-! C50, C51: what units of work do to the database. -/
namespace Verif.Props
open Verif.Go Verif.Spec Verif.Model Verif.Proof

variable {g : Grow} {b b' : Builder} {body : Prog} {o : List Builder} {out : List (Option Val)}

/-- What a transaction in an expectation block puts into the buffer. -/
theorem guarded_run (hb : Ready b) (op : UInt8) (level : BitVec 64)
    (h : run g (.expect op (.tx level body fun o => .ret none o) fun o => .ret none o) [] b = .ok (o, b', out))
    (he : b'.err = none) :
    ∃ ss ms vs, txOpening level.toNat = some ss ∧ Exec libDur 2 body (.ok []) (.ok ms) out vs ∧
      openBlocks 0 ms = some 0 ∧ NoErrorBlocks ms ∧
      (op.toNat ≤ 1 → (∀ m ∈ ms, Readable m) → Holds b' b.buf.data (guarded op.toNat ss ms)) := by
  obtain ⟨st, ks, h1, h2, _⟩ := run_ready hb h
  generalize ks.map idVariable = vs at h1
  have h1' := exec_good h1
  cases h1 with
  | expect hx hk' =>
    cases hk'
    cases hx with
    | tx hl hx hk' =>
      cases hk'
      obtain ⟨new, e, hp⟩ := exec_append hx _ _ rfl rfl
      have hp := hp []
      obtain ⟨h3, h4⟩ := exec_blocks hp _ _ rfl rfl 0 rfl (fun _ _ hm => by cases hm)
      refine ⟨_, new, _, hl, hp, h3, h4, fun hop hr => ?_⟩
      rw [e] at h2 h1'
      have e : ∀ {ss : List String}, [] ++ [ClientMsg.expectOpen op.toNat [(1, ascii "1")]] ++ ss.map sql ++ new ++ [sql "COMMIT"] ++ [.expectClose] =
          guarded op.toNat ss new := by simp [guarded]
      rw [e] at h2 h1'
      apply h2.holds
      intro m hm
      refine h1' _ _ rfl rfl (by simp) m hm ?_
      simp only [guarded, List.cons_append, List.mem_cons, List.mem_append, List.mem_map, List.not_mem_nil, or_false] at hm
      rcases hm with rfl | ((⟨x, _, rfl⟩ | hm) | rfl) | rfl
      · exact hop
      · trivial
      · exact hr m hm
      · trivial
      · trivial
    | txLevel hl hk' => cases hk'
    | txFail hl hx hk' => cases hk'
  | expectFail hx hk' =>
    cases hk'
    rw [show b'.err = some _ from h2.2] at he; cases he

/-! ### C50 -/

/-- COMMIT is executed exactly if every message before it was answered OK, and the end of the block is answered
OK exactly if COMMIT was. -/
def CommitGuarded (spreads : Bool) (script : Nat → Fate) (op : Nat) (opening : List String) (body : List ClientMsg)
    (s : Session) : Prop :=
  ∃ before commit close, (serve spreads script (guarded op opening body) s).1 = before ++ [commit, close] ∧
    before.length = 1 + (opening.length + body.length) ∧
    (commit ≠ .skipped ↔ ∀ a ∈ before, a = .ok) ∧ (close = .ok ↔ commit = .ok)

theorem commitGuarded {sp : Bool} {f : Nat → Fate} {op : Nat} {ss : List String} {ms : List ClientMsg} {s : Session}
    (hb : openBlocks 0 ms = some 0) (hn : NoErrorBlocks ms) (hs : sp = true ∨ ∀ m ∈ ms, isBlock m = false) :
    CommitGuarded sp f op ss ms s := by
  obtain ⟨h1, h2, h3, h4⟩ := serve_guarded (sp := sp) (f := f) (op := op) (ss := ss) (s := s) hb hn hs
  refine ⟨_, _, _, by rw [h1], h2, ?_, ?_⟩
  · rw [serveOne_plain rfl, h4]
    generalize (_ :: _ : List Answer) = as
    constructor
    · intro h a ha
      cases hf : as.any (fun a => decide (a ≠ .ok)) with
      | true => rw [hf] at h; exact absurd rfl h
      | false => simpa using List.any_eq_false.mp hf a ha
    · intro h
      rw [show as.any (fun a => decide (a ≠ .ok)) = false from List.any_eq_false.mpr fun a ha => by simp [h a ha]]
      simp only [Bool.false_eq_true, if_false]
      split <;> simp
  · have hc := serveOne_inside (f := f (1 + (ss.length + ms.length))) (sp := sp) (m := sql "COMMIT") (ms := []) h3 rfl
      (fun _ _ h => by cases h) (.inr rfl)
    obtain ⟨d, _, ⟨inner, hl, hbl, _, _⟩, hf⟩ := hc
    have hcf : ∀ s : Session, s.failed = true → ∀ {sp f}, (serveOne sp f (sql "COMMIT") s).1 ≠ .ok := by
      intro s hs sp f; rw [serveOne_plain rfl, if_pos hs]; simp
    revert hf hbl
    generalize hcs : serveOne sp (f (1 + (ss.length + ms.length))) (sql "COMMIT") _ = c
    intro hf hbl
    cases inner with
    | nil => cases hl
    | cons x inner =>
      have hx : c.2.failed = x.failed := by simp [Session.failed, hbl]
      have hx2 : (x.failed = false ↔ c.1 = .ok) := by
        rw [← hx, hf, Bool.or_eq_false_iff]
        constructor
        · rintro ⟨_, h⟩; simpa using h
        · intro h
          refine ⟨?_, by simp [h]⟩
          cases hr : Session.failed _ with
          | false => rfl
          | true => rw [← hcs] at h; exact absurd h (hcf _ hr)
      rw [← hx2]
      simp only [serveOne, hbl, List.cons_append]
      cases x.failed <;> simp

/-- C50: whatever the body of `ExpectFailOnError(Tx(body))` and whatever the server does with its statements, in
whatever session: COMMIT is executed exactly if everything before it succeeded, and the end of the block succeeds
exactly if COMMIT did.  (Bodies with blocks of their own need a server that counts the error at the end of such a
block as an error.) -/
theorem C50_commit_guarded (hb : Ready b) (op : UInt8) (level : BitVec 64)
    (h : run g (.expect op (.tx level body fun o => .ret none o) fun o => .ret none o) [] b = .ok (o, b', out))
    (he : b'.err = none) :
    ∃ opening ms vs, txOpening level.toNat = some opening ∧ Exec libDur 2 body (.ok []) (.ok ms) out vs ∧
      (op.toNat ≤ 1 → (∀ m ∈ ms, Readable m) → Holds b' b.buf.data (guarded op.toNat opening ms)) ∧
      ∀ spreads script s, (spreads = true ∨ ∀ m ∈ ms, isBlock m = false) →
        CommitGuarded spreads script op.toNat opening ms s := by
  obtain ⟨ss, ms, vs, hl, hx, h1, h2, h3⟩ := guarded_run hb op level h he
  exact ⟨ss, ms, vs, hl, hx, h3, fun sp f s hs => commitGuarded h1 h2 hs⟩

/-- the server fails the i-th message -/
def failsAt (i : Nat) : Nat → Fate := fun j => ⟨if j = i then .error else .success, .change⟩

def freshSession : Session := ⟨[], none, []⟩

def deleteEx : ClientMsg := .delete (ascii "t") none none
def insertEx : ClientMsg := .insert (ascii "u") (some 2) [ascii "a"] [[.literal (.sint 1)]]

example : (serve false (failsAt 3) (guarded 0 ["START TRANSACTION"] [deleteEx, insertEx]) freshSession).1 =
    [.ok, .ok, .ok, .failed, .skipped, .failed] := by decide
example : (serve true (failsAt 9) (guarded 0 ["START TRANSACTION"] [deleteEx, insertEx]) freshSession).1 =
    [.ok, .ok, .ok, .ok, .ok, .ok] := by decide
/-- a failure inside a nested block -/
example : (serve true (failsAt 4) (guarded 0 ["START TRANSACTION"]
      [deleteEx, .expectOpen 1 [(1, ascii "1")], insertEx, .expectClose, deleteEx]) freshSession).1 =
    [.ok, .ok, .ok, .ok, .failed, .failed, .skipped, .skipped, .failed] := by decide
/-- the hypothesis on nested blocks is needed -/
example : ¬CommitGuarded false (failsAt 3) 0 ["START TRANSACTION"]
    [.expectOpen 1 [(1, ascii "1")], insertEx, .expectClose, deleteEx] freshSession := by
  rintro ⟨as, c, d, h, hl, hc, _⟩
  have h' : as ++ [c, d] = [.ok, .ok, .ok, .failed, .failed, .ok] ++ [.ok, .ok] := h.symm.trans (by decide)
  obtain ⟨rfl, h'⟩ := List.append_inj h' (by simpa using hl)
  cases h'
  exact absurd (hc.mp (by decide) .failed (by decide)) (by decide)

/-- Without the block, COMMIT is executed and succeeds although a statement failed, and what the other statements
changed becomes durable. -/
theorem C50_needs_block : ∃ script, (serve true script ([sql "START TRANSACTION", deleteEx, insertEx, sql "COMMIT"]) freshSession) =
    ([.ok, .ok, .failed, .ok], ⟨[], none, [deleteEx]⟩) := ⟨failsAt 2, by rfl⟩

/-! ### C51 -/

/-- A unit of work as `ExpectFailOnError(Tx(body))` produces it (`guarded_run`), whose statements leave the
transaction alone. -/
def JobOK (spreads : Bool) (j : Job) : Prop :=
  (∃ level, txOpening level = some j.opening) ∧ openBlocks 0 j.body = some 0 ∧ NoErrorBlocks j.body ∧
  Steady j.bodyScript j.body ∧ (spreads = true ∨ ∀ m ∈ j.body, isBlock m = false)

/-- A session between units of work, with no transaction open. -/
def Idle (s : Session) : Prop := s.blocks = [] ∧ s.tx = none

/-- C51 in full: of any sequence of units of work on a session, exactly the changes of those whose COMMIT was
answered OK become durable. -/
def C51_full (spreads : Bool) : Prop := ∀ (js : List Job) (s : Session), Idle s → (∀ j ∈ js, JobOK spreads j) →
  (jobs spreads js s).2.durable = s.durable ++ committedChanges js (jobs spreads js s).1

theorem serve_kinds {sp : Bool} (ss : List String) : ∀ (f : Nat → Fate) (s : Session) (rest : List Block), Inside rest 0 s →
    (∀ x ∈ ss, fixedKind (sql x) = some .session) → s.tx = none →
    (serve sp f (ss.map sql) s).2.tx = none ∧ (serve sp f (ss.map sql) s).2.durable = s.durable := by
  induction ss with
  | nil => intro f s rest _ _ ht; exact ⟨ht, rfl⟩
  | cons x ss ih =>
    intro f s rest hi hk ht
    have h1 : (serveOne sp (f 0) (sql x) s).2.tx = none ∧ (serveOne sp (f 0) (sql x) s).2.durable = s.durable := by
      rw [serveOne_plain rfl]
      split
      · exact ⟨ht, rfl⟩
      · split
        · rw [Fate.of, hk x (.head _)]; exact ⟨ht, rfl⟩
        · exact ⟨(note_tx _).trans ht, note_durable _⟩
        · exact ⟨note_tx _, note_durable _⟩
    obtain ⟨d, hd, hi', _⟩ := serveOne_inside (sp := sp) (f := f 0) (m := sql x) (ms := []) hi rfl (fun _ _ h => by cases h) (.inr rfl)
    cases hd
    rw [List.map_cons, serve_cons, ← h1.2]
    exact ih _ _ rest hi' (fun y hy => hk y (.tail _ hy)) h1.1

theorem opening_eff {sp : Bool} {n : Nat} {ss : List String} (h : txOpening n = some ss) (f : Nat → Fate) (s : Session)
    {rest : List Block} (hi : Inside rest 0 s) (ht : s.tx = none) : Eff s.durable [] (serve sp f (ss.map sql) s).2 := by
  obtain ⟨pre, last, rfl, hp, hl⟩ := opening_kinds h
  obtain ⟨h1, h2⟩ := serve_kinds (sp := sp) pre f s rest hi hp ht
  obtain ⟨hi', _⟩ := serve_inside (sp := sp) (e := 0) (pre.map sql) f s 0 hi (openBlocks_plain (sql_plain _) _)
    (plain_noError (sql_plain _)) (.inr (sql_plain _))
  rw [List.map_append, serve_append]
  revert h1 h2 hi'
  generalize (serve sp f (pre.map sql) s).2 = t
  intro h1 h2 hi'
  simp only [List.map_cons, List.map_nil, serve_cons, serve]
  have hI := serveOne_inside (sp := sp) (f := f ((pre.map sql).length + 0)) (m := sql last) (ms := []) hi' rfl (fun _ _ h => by cases h) (.inr rfl)
  obtain ⟨_, _, _, hf⟩ := hI
  rw [serveOne_plain rfl] at hf ⊢
  split
  · rename_i hff; exact ⟨h2, fun h => by rw [hff] at h; cases h⟩
  · rename_i hff
    rw [if_neg hff] at hf
    split
    · rw [Fate.of, hl]; exact ⟨by simp [Session.effect, h1, h2], fun _ => rfl⟩
    · rename_i ho
      simp only [ho] at hf
      exact ⟨(note_durable _).trans h2, fun h => by rw [h] at hf; simp at hf⟩
    · rename_i ho
      simp only [ho] at hf
      exact ⟨(note_durable _).trans h2, fun h => by rw [h] at hf; simp at hf⟩

/-- One unit of work on an idle session: all of its changes are durable if COMMIT was answered OK, none if not;
if it was, the session is idle again. -/
theorem job_once {sp : Bool} {j : Job} {s : Session} (hj : JobOK sp j) (hs : Idle s) :
    (j.on sp s).2.durable = s.durable ++ (if (j.on sp s).1 then changes j.bodyScript j.body else []) ∧
    ((j.on sp s).1 = true ∨ j.dropped = true → Idle (j.on sp s).2) := by
  obtain ⟨⟨level, hl⟩, hb, hn, hst, hsp⟩ := hj
  obtain ⟨h1, h2, h3, h4⟩ := serve_guarded (sp := sp) (f := j.script) (op := j.op) (ss := j.opening) (s := s) hb hn hsp
  have h0 : Inside s.blocks 0 { s with blocks := ⟨true, s.failed⟩ :: s.blocks } :=
    ⟨[⟨true, s.failed⟩], rfl, rfl, by simp, by simp⟩
  have e0 := opening_eff (sp := sp) hl (fun i => j.script (i + 1)) _ h0 hs.2
  have hi := (serve_inside (sp := sp) (e := 0) (j.opening.map sql) (fun i => j.script (i + 1)) _ 0 h0
    (openBlocks_plain (sql_plain _) _) (plain_noError (sql_plain _)) (.inr (sql_plain _))).1
  have hbs : j.bodyScript = fun i => j.script (j.opening.length + i + 1) := by
    funext i; simp [Job.bodyScript, Nat.add_comm]
  have e1 := serve_eff (sp := sp) j.body (fun i => j.script (j.opening.length + i + 1)) _ 0 [] hi hb hn hsp
    (hbs ▸ hst) e0
  have hr : serve sp (fun i => j.script (i + 1)) (j.opening.map sql ++ j.body) { s with blocks := ⟨true, s.failed⟩ :: s.blocks } = _ :=
    serve_append ..
  have e2 : Eff s.durable (changes j.bodyScript j.body)
      (serve sp (fun i => j.script (i + 1)) (j.opening.map sql ++ j.body) { s with blocks := ⟨true, s.failed⟩ :: s.blocks }).2 := by
    rw [hr]
    simp only [List.length_map]
    rw [hbs]
    simpa using e1
  clear e1 hr hi e0
  revert h1 h2 h3 h4 e2
  generalize serve sp (fun i => j.script (i + 1)) (j.opening.map sql ++ j.body) { s with blocks := ⟨true, s.failed⟩ :: s.blocks } = r
  intro h1 h2 h3 h4 e2
  generalize hn' : 1 + (j.opening.length + j.body.length) = n at h1 h2
  generalize hA : ((if s.failed = true then Answer.failed else Answer.ok) :: r.1 : List Answer) = as at h1 h2 h4
  have hc : (serve sp j.script (guarded j.op j.opening j.body) s).1[n]? = some (serveOne sp (j.script n) (sql "COMMIT") r.2).1 := by
    rw [h1, List.getElem?_append_right (by omega), h2, Nat.sub_self]; rfl
  have hd : (serve sp j.script (guarded j.op j.opening j.body) s).2 =
      (serveOne sp (j.script (n + 1)) .expectClose (serveOne sp (j.script n) (sql "COMMIT") r.2).2).2 := by rw [h1]
  have hcl : ∀ (t : Session) (f : Fate), (serveOne sp f .expectClose t).2.durable = t.durable ∧ (serveOne sp f .expectClose t).2.tx = t.tx := by
    intro t f
    simp only [serveOne]
    split
    · exact ⟨rfl, rfl⟩
    · split
      · split
        · exact ⟨note_durable _, note_tx _⟩
        · exact ⟨rfl, rfl⟩
      · exact ⟨rfl, rfl⟩
  have hclb : ∀ (t : Session) (f : Fate), Inside s.blocks 0 t → (serveOne sp f .expectClose t).2.blocks = [] := by
    intro t f ⟨inner, hl, hbl, _, _⟩
    match inner, hl with
    | [x], _ =>
      rw [hs.1] at hbl
      simp only [serveOne, hbl, List.cons_append, List.nil_append]
      cases x.failed <;> cases sp <;> rfl
  have hci := serveOne_inside (f := j.script n) (sp := sp) (m := sql "COMMIT") (ms := []) h3 rfl
    (fun _ _ h => by cases h) (.inr rfl)
  obtain ⟨_, hd0, hci, _⟩ := hci
  cases hd0
  have hdur : ∀ t : Session, (if j.dropped = true then t.drop else t).durable = t.durable := by intro t; split <;> rfl
  simp only [Job.on, hn', hc, hd, hdur, (hcl _ _).1]
  have hcom : ((serveOne sp (j.script n) (sql "COMMIT") r.2).1 = .ok ∧ (serveOne sp (j.script n) (sql "COMMIT") r.2).2.tx = none ∧
      (serveOne sp (j.script n) (sql "COMMIT") r.2).2.durable = s.durable ++ changes j.bodyScript j.body) ∨
      ((serveOne sp (j.script n) (sql "COMMIT") r.2).1 ≠ .ok ∧ (serveOne sp (j.script n) (sql "COMMIT") r.2).2.durable = s.durable) := by
    rw [serveOne_plain rfl]
    split
    · exact .inr ⟨by simp, e2.1⟩
    · rename_i hf
      split
      · refine .inl ⟨rfl, ?_, ?_⟩
        · rw [Fate.of, commit_kind]; rfl
        · rw [Fate.of, commit_kind]
          simp [Session.effect, e2.1, e2.2 (by simpa using hf)]
      · exact .inr ⟨by simp, (note_durable _).trans e2.1⟩
      · exact .inr ⟨by simp, (note_durable _).trans e2.1⟩
  rcases hcom with ⟨ha, ht, hdd⟩ | ⟨ha, hdd⟩
  · refine ⟨by simp [ha, hdd], fun _ => ?_⟩
    split
    · exact ⟨rfl, rfl⟩
    · exact ⟨hclb _ _ hci, (hcl _ _).2.trans ht⟩
  · refine ⟨by simp [ha, hdd], fun h => ?_⟩
    rcases h with h | h
    · simp [ha] at h
    · rw [if_pos h]; exact ⟨rfl, rfl⟩

/-- C51, partial: exactly the changes of the committed units of work become durable, however long the history,
provided that the connection goes away after every unit of work that was not committed.  Missing: the library
does not close the connection then, see `C51_wrong`. -/
theorem C51_partial {sp : Bool} (js : List Job) : ∀ (s : Session), Idle s → (∀ j ∈ js, JobOK sp j) →
    (∀ p ∈ js.zip (jobs sp js s).1, p.2 = true ∨ p.1.dropped = true) →
    (jobs sp js s).2.durable = s.durable ++ committedChanges js (jobs sp js s).1 := by
  induction js with
  | nil => intro s _ _ _; simp [jobs, committedChanges]
  | cons j js ih =>
    intro s hs hj hd
    obtain ⟨h1, h2⟩ := job_once (hj j (.head _)) hs
    simp only [jobs, List.zip_cons_cons, List.mem_cons, forall_eq_or_imp] at hd ⊢
    rw [ih _ (h2 hd.1) (fun j hm => hj j (.tail _ hm)) hd.2, h1]
    simp [committedChanges, List.append_assoc]

/-- two units of work, the first of which fails at its second statement -/
def jobEx (fail : Nat) (dropped : Bool) (body : List ClientMsg) : Job :=
  ⟨0, ["START TRANSACTION"], body, failsAt fail, dropped⟩

theorem jobEx_ok (fail : Nat) (dropped sp : Bool) : JobOK sp (jobEx fail dropped [deleteEx, insertEx]) :=
  ⟨⟨0, rfl⟩, rfl, fun _ _ h => by simp [jobEx, deleteEx, insertEx] at h, ⟨.inl rfl, .inl rfl, trivial⟩, .inr (by simp [jobEx, deleteEx, insertEx, isBlock])⟩

/-- C51 is false: the changes a failed unit of work made before its failure become durable when the next unit of
work on the session starts its transaction. -/
theorem C51_wrong (sp : Bool) : ¬C51_full sp := by
  intro h
  have := h [jobEx 3 false [deleteEx, insertEx], jobEx 9 false [deleteEx, insertEx]] freshSession ⟨rfl, rfl⟩
    (by simp only [List.mem_cons, List.not_mem_nil, or_false, forall_eq_or_imp, forall_eq]; exact ⟨jobEx_ok .., jobEx_ok ..⟩)
  have := congrArg List.length this
  revert this
  cases sp <;> decide

example : (jobs true [jobEx 3 true [deleteEx, insertEx], jobEx 9 false [deleteEx, insertEx]] freshSession).1 = [false, true] := by decide
example : (jobs true [jobEx 3 true [deleteEx, insertEx], jobEx 9 false [deleteEx, insertEx]] freshSession).2.durable = [deleteEx, insertEx] := by rfl
example : (jobs true [jobEx 3 false [deleteEx, insertEx], jobEx 9 false [deleteEx, insertEx]] freshSession).2.durable =
    [deleteEx, deleteEx, insertEx] := by rfl

end Verif.Props
