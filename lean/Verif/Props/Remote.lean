import Verif.Proof.Remote
import Verif.Props.Server
import Verif.Props.Connection
/-! C60: from the calls of the user to the database of the server and back. -/
namespace Verif.Props
open Verif.Go Verif.Spec Verif.Model Verif.Proof

variable {sp : Bool} {f : Nat → Fate} {op : Nat} {ss : List String} {ms : List ClientMsg} {s : Session}

theorem close_keeps (t : Session) (x : Fate) : (serveOne sp x .expectClose t).2.durable = t.durable := by
  simp only [serveOne]
  split
  · rfl
  · split
    · split
      · exact note_durable _
      · rfl
    · rfl

/-- Before COMMIT nothing becomes durable. -/
theorem prefix_keeps {n : Nat} (hl : txOpening n = some ss) (hb : openBlocks 0 ms = some 0) (hn : NoErrorBlocks ms)
    (hs : sp = true ∨ ∀ m ∈ ms, isBlock m = false) {rest : List Block} (hi : Inside rest 0 s) (ht : s.tx = none)
    (hst : Steady (fun i => f (ss.length + i)) ms) (j : Nat) :
    (serve sp f ((ss.map sql ++ ms).take j) s).2.durable = s.durable := by
  by_cases hj : j < ss.length
  · obtain ⟨pre, last, rfl, hp, _⟩ := opening_kinds hl
    have e : ((pre ++ [last]).map sql ++ ms).take j = (pre.take j).map sql := by
      rw [List.length_append, List.length_singleton] at hj
      rw [List.take_append_of_le_length (by simp; omega), ← List.map_take, List.take_append_of_le_length (by omega)]
    rw [e]
    exact (serve_kinds (pre.take j) f s rest hi (fun x hx => hp x (List.mem_of_mem_take hx)) ht).2
  · have e : (ss.map sql ++ ms).take j = ss.map sql ++ ms.take (j - ss.length) := by
      rw [List.take_append, List.take_of_length_le (by simp; omega), List.length_map]
    rw [e, serve_append]
    have e0 := opening_eff (sp := sp) hl f s hi ht
    have h1 := (serve_inside (sp := sp) (e := 0) (ss.map sql) f s 0 hi
      (openBlocks_plain (sql_plain _) _) (plain_noError (sql_plain _)) (.inr (sql_plain _))).1
    obtain ⟨d, hd⟩ := openBlocks_take hb (j - ss.length)
    rw [List.length_map]
    exact (serve_eff (sp := sp) (ms.take (j - ss.length)) _ _ 0 [] h1 hd
      (fun op conds hm => hn op conds (List.mem_of_mem_take hm)) (hs.imp id fun h m hm => h m (List.mem_of_mem_take hm))
      (steady_take hst _) e0).1

/-- All or nothing, wherever the unit of work is cut. -/
theorem cut_atomic {sp : Bool} {j : Job} {s : Session} (hj : JobOK sp j) (hs : Idle s) (k : Nat) :
    (serve sp j.script ((guarded j.op j.opening j.body).take k) s).2.durable = s.durable ∨
    (serve sp j.script ((guarded j.op j.opening j.body).take k) s).2.durable = s.durable ++ changes j.bodyScript j.body := by
  have hw : (serve sp j.script (guarded j.op j.opening j.body) s).2.durable = s.durable ∨
      (serve sp j.script (guarded j.op j.opening j.body) s).2.durable = s.durable ++ changes j.bodyScript j.body := by
    have h := (job_once hj hs).1
    have hd : (j.on sp s).2.durable = (serve sp j.script (guarded j.op j.opening j.body) s).2.durable := by
      simp only [Job.on]; split <;> rfl
    rw [← hd, h]
    split
    · exact .inr rfl
    · exact .inl (by simp)
  have hlen : (guarded j.op j.opening j.body).length = j.opening.length + j.body.length + 3 := by simp [guarded]; omega
  have hg : guarded j.op j.opening j.body = (guarded j.op j.opening j.body).take (j.opening.length + j.body.length + 2) ++ [.expectClose] := by
    have : guarded j.op j.opening j.body = (.expectOpen j.op [(1, ascii "1")] :: (j.opening.map sql ++ j.body ++ [sql "COMMIT"])) ++ [.expectClose] := rfl
    rw [this, List.take_append_of_le_length (by simp; omega), List.take_of_length_le (by simp; omega)]
  by_cases h1 : k ≤ j.opening.length + j.body.length + 1
  · left
    cases k with
    | zero => rfl
    | succ k =>
      have e : (guarded j.op j.opening j.body).take (k + 1) = .expectOpen j.op [(1, ascii "1")] :: (j.opening.map sql ++ j.body).take k := by
        rw [guarded, List.cons_append, List.take_succ_cons, List.append_assoc, List.take_append_of_le_length (by simp; omega)]
      rw [e, serve_cons, serveOne_open]
      obtain ⟨⟨level, hl⟩, hb, hn, hst, hsp⟩ := hj
      have h0 : Inside s.blocks 0 { s with blocks := ⟨true, s.failed⟩ :: s.blocks } := ⟨[⟨true, s.failed⟩], rfl, rfl, by simp, by simp⟩
      have hbs : j.bodyScript = fun i => j.script (j.opening.length + i + 1) := by
        funext i; simp [Job.bodyScript, Nat.add_comm]
      exact prefix_keeps (sp := sp) hl hb hn hsp h0 hs.2 (f := fun i => j.script (i + 1)) (hbs ▸ hst) k
  · by_cases h2 : k = j.opening.length + j.body.length + 2
    · rw [hg, serve_append] at hw
      simp only [serve, close_keeps] at hw
      rw [h2]
      exact hw
    · rw [List.take_of_length_le (by omega)]
      exact hw

/-- **C60.** A user runs `ExpectFailOnError(Tx(body))`, on a new builder, and sends it over a connection; the server at
the other end executes it in a session without open transaction, whatever becomes of the statements, and wherever the
connection goes away, if it does.  Then all of the changes of the body are durable or none is; if `Send` returns without
error it has one response per message, and all changes are durable if these are all OK, none if not. -/
theorem C60_end_to_end {g : Grow} {b b' : Builder} {body : Prog} {o : List Builder} {out : List (Option Val)} (hb : Ready b) (h0 : b.buf.data = [])
    (op : UInt8) (level : BitVec 64)
    (h : run g (.expect op (.tx level body fun o => .ret none o) fun o => .ret none o) [] b = .ok (o, b', out))
    {bs : Bytes} (hbs : b'.send = .ok (.ok bs)) (hsize : bs.length < 2 ^ 32) (hop : op.toNat ≤ 1) :
    ∃ opening ms vs, txOpening level.toNat = some opening ∧ Exec libDur 2 body (.ok []) (.ok ms) out vs ∧
    ∀ (cd : Codec) (spreads : Bool) (script : Nat → Fate) (s s' : Session) (w : World) (c : Conn),
      let bodyScript := fun i => script (1 + (opening.length + i))
      (∀ m ∈ ms, Readable m) → Steady bodyScript ms → (spreads = true ∨ ∀ m ∈ ms, isBlock m = false) →
      RejectsHeaders cd → Life cd c.r → Idle s → Serves cd spreads script s bs c.r.pending s' →
      ∃ w' c' rrs e, Conn.send cd w c bs = .ok (w', c', rrs, e) ∧
        (s'.durable = s.durable ∨ s'.durable = s.durable ++ changes bodyScript ms) ∧
        (e = none → rrs.length = opening.length + ms.length + 3 ∧
          ((∀ r ∈ rrs, r = .ok) → s'.durable = s.durable ++ changes bodyScript ms ∧ Idle s') ∧
          ((∃ r ∈ rrs, r ≠ .ok) → s'.durable = s.durable)) := by
  have hd : b'.err = none ∧ b'.buf.data = bs := by
    rw [Builder.send] at hbs
    split at hbs
    · cases hbs
    · cases he : b'.err with
      | some e => rw [he] at hbs; simp at hbs
      | none => rw [he] at hbs; simpa using hbs
  obtain ⟨he, rfl⟩ := hd
  obtain ⟨ss, ms, vs, hl, hx, h1, h2, h3⟩ := guarded_run hb op level h he
  refine ⟨ss, ms, vs, hl, hx, fun cd sp script s s' w c => ?_⟩
  intro bodyScript hr hst hsp hcd hc hs hsv
  have hdec : decodeStream b'.buf.data = some (guarded op.toNat ss ms) := by
    obtain ⟨_, fr, e1, e2⟩ := h3 hop hr
    rw [h0, List.nil_append] at e1
    rw [e1] at hsize ⊢
    exact e2 hsize
  obtain ⟨fs, hfs, hlen⟩ : ∃ fs, readFrames b'.buf.data = some fs ∧ fs.length = (guarded op.toNat ss ms).length := stream_frames hdec
  let j : Job := ⟨op.toNat, ss, ms, script, false⟩
  have hj : JobOK sp j := ⟨⟨_, hl⟩, h1, h2, hst, hsp⟩
  have hglen : (guarded op.toNat ss ms).length = ss.length + ms.length + 3 := by simp [guarded]; omega
  obtain ⟨w', c', rrs, e, hsend, _, _⟩ := C31_safe cd (w := w) hc hfs
  refine ⟨w', c', rrs, e, hsend, ?_, fun hnone => ?_⟩
  · cases hsv with
    | done hd' hr' =>
      rw [hdec] at hd'
      cases hd'
      have := cut_atomic hj hs (guarded op.toNat ss ms).length
      rwa [List.take_length] at this
    | @lost _ _ k _ _ hd' hr' =>
      rw [hdec] at hd'
      cases hd'
      exact cut_atomic hj hs k
  · subst hnone
    have hw : Writable w := by
      rw [Conn.send] at hsend
      unfold World.write at hsend
      unfold Writable
      cases f1 : w.fault w.calls with
      | some x => rw [f1] at hsend; simp at hsend
      | none =>
        cases f2 : w.fault (w.calls + 1) with
        | some x => rw [f1, f2] at hsend; simp at hsend
        | none => exact ⟨rfl, rfl⟩
    have hall := C29_only_answers hcd hw hc hfs hsend
    have hrl := answeredAll_length hall
    rw [List.length_map, hlen, hglen] at hrl
    obtain ⟨q1, q2⟩ := serves_seen hsv hdec (by rw [List.length_map, hlen]) hall
    obtain ⟨o1, o2⟩ := job_once hj hs
    obtain ⟨before, commit, close, a1, a2, a3, a4⟩ := commitGuarded (f := script) (op := op.toNat) (ss := ss) (s := s) h1 h2 hsp
    have hcom : (j.on sp s).1 = decide (commit = .ok) := by
      have e : (serve sp script (guarded op.toNat ss ms) s).1[1 + (ss.length + ms.length)]? = some commit := by
        rw [a1, List.getElem?_append_right (by omega), a2, Nat.sub_self]
        rfl
      simp only [Job.on, j]
      rw [e]
      simp
    have hon : (j.on sp s).2 = (serve sp script (guarded op.toNat ss ms) s).2 := by simp [Job.on, j]
    have hdur : s'.durable = (serve sp script (guarded op.toNat ss ms) s).2.durable := by
      rcases q2 with rfl | rfl <;> rfl
    have hchg : changes j.bodyScript j.body = changes bodyScript ms := rfl
    refine ⟨hrl, fun hok => ?_, fun hno => ?_⟩
    · have hok' := q1.mp hok
      have hc : commit = .ok := hok' commit (by rw [a1]; simp)
      rw [hcom, hc, hon, hchg] at o1
      refine ⟨by rw [hdur, o1]; simp, ?_⟩
      have hi := o2 (.inl (by rw [hcom, hc]; rfl))
      rw [hon] at hi
      rcases q2 with rfl | rfl
      · exact hi
      · exact ⟨rfl, rfl⟩
    · have hc : commit ≠ .ok := by
        intro hc
        obtain ⟨r, hr1, hr2⟩ := hno
        refine hr2 (q1.mpr (fun a ha => ?_) r hr1)
        rw [a1] at ha
        simp only [List.mem_append, List.mem_cons, List.not_mem_nil, or_false] at ha
        rcases ha with ha | rfl | rfl
        · exact a3.mp (by rw [hc]; simp) a ha
        · exact hc
        · exact a4.mpr hc
      rw [hcom, hon, hchg] at o1
      rw [hdur, o1]
      simp [hc]

/-! ### cases -/

/-- An Ok, or an error of code 7. -/
def answerBytes : Answer → Bytes
  | .ok => [1, 0, 0, 0, 0]
  | _ => [3, 0, 0, 0, 1, 0, 7]

theorem replies_possible (as : List Answer) (rest : Bytes) : ∃ rrs, Replies toyCodec as rrs (as.flatMap answerBytes ++ rest) rest := by
  induction as with
  | nil => exact ⟨[], .nil _⟩
  | cons a as ih =>
    obtain ⟨rrs, ih⟩ := ih
    cases a with
    | ok => exact ⟨.ok :: rrs, .cons (.last (m := (0, [])) rfl (.ok (by decide))) .ok ih⟩
    | failed => exact ⟨.error ⟨0, 7, [], []⟩ :: rrs, .cons (.last (m := (1, [0, 7])) rfl (.error (by simp) rfl)) (.failed _) ih⟩
    | skipped => exact ⟨.error ⟨0, 7, [], []⟩ :: rrs, .cons (.last (m := (1, [0, 7])) rfl (.error (by simp) rfl)) (.skipped _) ih⟩

/-- For every request that is read, every session and every script there is a server that does it all, and its answers may
be cut anywhere. -/
example {sp : Bool} {f : Nat → Fate} {s : Session} {b : Bytes} {ms : List ClientMsg} (h : decodeStream b = some ms) :
    Serves toyCodec sp f s b ((serve sp f ms s).1.flatMap answerBytes ++ []) (serve sp f ms s).2 ∧
    ∀ k n, Serves toyCodec sp f s b (((serve sp f (ms.take k) s).1.flatMap answerBytes ++ []).take n) (serve sp f (ms.take k) s).2.drop := by
  obtain ⟨rrs, hr⟩ := replies_possible (serve sp f ms s).1 []
  refine ⟨.done h hr, fun k n => ?_⟩
  obtain ⟨rrs, hr⟩ := replies_possible (serve sp f (ms.take k) s).1 []
  refine .lost h hr (fun rr r ha => ?_) (List.take_prefix ..)
  cases ha with
  | last hf => cases hf
  | more hf => cases hf

/-- `Tx(0, { Delete("t", nil); Update("u", nil, {"b": 2}) })` in a block -/
def unitEx : Prog := .expect 0 (.tx 0 (.call (.delete (ascii "t") none) fun _ => .call (.update (ascii "u") none [(ascii "b", .int 2)]) fun _ => .ret none [])
  fun o => .ret none o) fun o => .ret none o

/-- The session runs them, and the last of the statements fails: error answers from there on. -/
example : ((appended (newPipe 0) unitEx).map fun bs => (Conn.send toyCodec calm (Conn.new .tcp
      ⟨[[Answer.ok, .ok, .ok, .failed, .skipped, .failed].flatMap answerBytes], .eof, true⟩) bs).toOption.map (fun x => (x.2.2.1.map (decide <| · = .ok), x.2.2.2))) =
    some (some ([true, true, true, false, false, false], none)) := by decide +kernel

/-- All is well. -/
example : ((appended (newPipe 0) unitEx).map fun bs => (Conn.send toyCodec calm (Conn.new .tcp
      ⟨[[Answer.ok, .ok, .ok, .ok, .ok, .ok].flatMap answerBytes], .eof, true⟩) bs).toOption.map (fun x => (x.2.2.1.map (decide <| · = .ok), x.2.2.2))) =
    some (some ([true, true, true, true, true, true], none)) := by decide +kernel

/-- The connection goes away after COMMIT was executed and before its answer has come: an error, although all is durable.
C60 claims no more than all or nothing then. -/
example : ((appended (newPipe 0) unitEx).map fun bs => (Conn.send toyCodec calm (Conn.new .tcp
      ⟨[[Answer.ok, .ok, .ok, .ok].flatMap answerBytes], .eof, true⟩) bs).toOption.map (fun x => x.2.2.2)) =
    some (some (some (.read (.io .eof)))) := by decide +kernel

example : (serve false (failsAt 9) ((guarded 0 ["START TRANSACTION"] [deleteEx, insertEx]).take 5) freshSession).2.durable = [deleteEx, insertEx] ∧
    (serve false (failsAt 9) ((guarded 0 ["START TRANSACTION"] [deleteEx, insertEx]).take 4) freshSession).2.durable = [] := ⟨rfl, rfl⟩

end Verif.Props
