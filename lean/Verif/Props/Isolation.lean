import Verif.Spec.Isolation
import Verif.Proof.Remote
import Verif.Props.Leftovers
/-! C74: the isolation level of the transactions of `Tx`. -/
namespace Verif.Props
open Verif.Go Verif.Spec Verif.Model Verif.Proof

/-! ### Settings along a list of messages -/

theorem isoAfter_append (f : Nat → Fate) (g : Nat → IsoFate) (l l' : List (ClientMsg × Answer)) (x : Iso) :
    isoAfter f g (l ++ l') x = isoAfter (fun i => f (l.length + i)) (fun i => g (l.length + i)) l' (isoAfter f g l x) := by
  induction l generalizing f g x with
  | nil => simp [isoAfter]
  | cons p l ih => simp only [List.cons_append, isoAfter, ih, List.length_cons, Nat.add_right_comm _ 1]

theorem steady_mode {f : Nat → Fate} {g : Nat → IsoFate} {ms : List ClientMsg} (as : List Answer) {x : Iso} (h : Steady f ms) :
    (isoAfter f g (ms.zip as) x).mode = x.mode := by
  induction ms generalizing f g as x with
  | nil => simp [isoAfter]
  | cons m ms ih =>
    cases as with
    | nil => rfl
    | cons a as =>
      rw [List.zip_cons_cons, isoAfter, ih as h.2]
      have hk : ¬(a = .ok ∧ (f 0).of m = .start) := by rintro ⟨-, hk⟩; rcases h.1 with h | h <;> rw [hk] at h <;> cases h
      unfold Iso.after
      rw [if_neg hk]
      split
      · rfl
      · split <;> rfl

/-- The mode of a transaction that is opened in the library's words, all of which are answered OK. -/
def openedMode (level : Nat) (x : Iso) : Mode :=
  match level with
  | 1 => ⟨.readUncommitted, false⟩
  | 2 => ⟨.readCommitted, false⟩
  | 3 => ⟨.repeatableRead, false⟩
  | 4 => ⟨.serializable, false⟩
  | 5 => ⟨x.next.getD x.usual, decide (x.next.getD x.usual = .repeatableRead)⟩
  | _ => ⟨x.next.getD x.usual, false⟩

theorem after_start {f : Fate} {g : IsoFate} {t : String} {x : Iso} (h : fixedKind (sql t) = some .start) :
    x.after f g (sql t) .ok =
      { x with next := none, mode := ⟨x.next.getD x.usual, asksSnapshot g (sql t) && decide (x.next.getD x.usual = .repeatableRead)⟩ } := by
  unfold Iso.after
  rw [if_neg (by simp [aboutBlocks, sql]), if_pos ⟨rfl, by rw [Fate.of, h]; rfl⟩]

theorem after_set {f : Fate} {g : IsoFate} {t : String} {l : Level} {x : Iso} (h : fixedKind (sql t) = some .session)
    (hl : setsLevel (sql t) = some l) : x.after f g (sql t) .ok = { x with next := some l } := by
  unfold Iso.after
  rw [if_neg (by simp [aboutBlocks, sql]), if_neg (by rw [Fate.of, h]; simp), hl]

theorem opening_mode {level : Nat} {ss : List String} (h : txOpening level = some ss) (f : Nat → Fate) (g : Nat → IsoFate)
    {as : List Answer} (hl : as.length = ss.length) (ha : ∀ a ∈ as, a = .ok) (x : Iso) :
    (isoAfter f g ((ss.map sql).zip as) x).mode = openedMode level x ∧ (isoAfter f g ((ss.map sql).zip as) x).next = none ∧
    (isoAfter f g ((ss.map sql).zip as) x).usual = x.usual := by
  have hs : ∀ g, asksSnapshot g (sql "START TRANSACTION") = false := fun _ => rfl
  have hc : ∀ g, asksSnapshot g (sql "START TRANSACTION WITH CONSISTENT SNAPSHOT") = true := fun _ => rfl
  have e : as = List.replicate ss.length .ok := List.eq_replicate_iff.mpr ⟨hl, ha⟩
  subst e
  unfold txOpening at h
  split at h <;> cases h <;>
    simp only [List.map_cons, List.map_nil, List.length_cons, List.length_nil, List.replicate_succ, List.replicate_zero, List.zip_cons_cons, List.zip_nil_left,
      isoAfter]
  · rw [after_start (by decide)]; simp [openedMode, hs]
  · rw [after_set (t := "SET TRANSACTION ISOLATION LEVEL READ UNCOMMITTED") (by decide) (l := .readUncommitted) (by decide), after_start (by decide)]; simp [openedMode, hs]
  · rw [after_set (t := "SET TRANSACTION ISOLATION LEVEL READ COMMITTED") (by decide) (l := .readCommitted) (by decide), after_start (by decide)]; simp [openedMode, hs]
  · rw [after_set (t := "SET TRANSACTION ISOLATION LEVEL REPEATABLE READ") (by decide) (l := .repeatableRead) (by decide), after_start (by decide)]; simp [openedMode, hs]
  · rw [after_set (t := "SET TRANSACTION ISOLATION LEVEL SERIALIZABLE") (by decide) (l := .serializable) (by decide), after_start (by decide)]; simp [openedMode, hs]
  · rw [after_start (by decide)]; simp [openedMode, hc]

/-! ### The state at a message -/

theorem answer_at {sp : Bool} {f : Nat → Fate} {ms : List ClientMsg} {s : Session} {n : Nat} {m : ClientMsg} (h : ms[n]? = some m) :
    (serve sp f ms s).1[n]? = some (serveOne sp (f n) m (sessionAt sp f ms s n)).1 := by
  have hn : n < ms.length := (List.getElem?_eq_some_iff.mp h).1
  have e : ms = ms.take n ++ m :: ms.drop (n + 1) := by
    have := (List.getElem?_eq_some_iff.mp h).2
    rw [← this, List.getElem_cons_drop, List.take_append_drop]
  have hl : (ms.take n).length = n := by simp; omega
  have : (serve sp f (ms.take n ++ m :: ms.drop (n + 1)) s).1[n]? = some (serveOne sp (f n) m (sessionAt sp f ms s n)).1 := by
    rw [serve_append, List.getElem?_append_right (by rw [serve_length, hl]; exact Nat.le_refl _), serve_length, hl, Nat.sub_self, serve_cons]
    rfl
  rwa [← e] at this

theorem answers_take {sp : Bool} {f : Nat → Fate} {ms : List ClientMsg} {s : Session} {n : Nat} :
    (serve sp f ms s).1.take n = (serve sp f (ms.take n) s).1 := by
  have : (serve sp f (ms.take n ++ ms.drop n) s).1.take n = (serve sp f (ms.take n) s).1 := by
    rw [serve_append]
    rcases Nat.lt_or_ge n ms.length with h | h
    · exact List.take_left' (by rw [serve_length]; simp; omega)
    · have : ms.drop n = [] := List.drop_eq_nil_of_le h
      rw [this]
      simp only [serve, List.append_nil]
      exact List.take_of_length_le (by rw [serve_length]; simp; omega)
  rwa [List.take_append_drop] at this

theorem isoAt_eq {sp : Bool} {f : Nat → Fate} {g : Nat → IsoFate} {ms : List ClientMsg} {s : Session} {x : Iso} {n : Nat} :
    isoAt sp f g ms s x n = isoAfter f g ((ms.take n).zip (serve sp f (ms.take n) s).1) x := by
  rw [isoAt, List.zip_eq_zipWith, List.take_zipWith, answers_take, ← List.zip_eq_zipWith]

theorem guarded_take {op : Nat} {ss : List String} {body : List ClientMsg} {i : Nat} (hi : i ≤ body.length) :
    (guarded op ss body).take (1 + (ss.length + i)) = .expectOpen op [(1, ascii "1")] :: (ss.map sql ++ body.take i) := by
  have e : guarded op ss body = .expectOpen op [(1, ascii "1")] :: ((ss.map sql ++ body.take i) ++ (body.drop i ++ [sql "COMMIT"] ++ [.expectClose])) := by
    have : body = body.take i ++ body.drop i := (List.take_append_drop ..).symm
    rw [guarded]
    conv => lhs; rw [this]
    simp only [List.append_assoc, List.cons_append]
  rw [e, Nat.add_comm 1, List.take_succ_cons, List.take_left' (by simp; omega)]

/-- The body of a guarded unit of work: when one of its statements is executed, the transaction is open and has the mode
with which it was opened. -/
theorem body_executed {sp : Bool} {f : Nat → Fate} {g : Nat → IsoFate} {op level : Nat} {ss : List String} {body : List ClientMsg}
    {s : Session} {x : Iso} {i : Nat} {m : ClientMsg} (hl : txOpening level = some ss) (hb : openBlocks 0 body = some 0)
    (hn : NoErrorBlocks body) (hsp : sp = true ∨ ∀ m ∈ body, isBlock m = false) (hst : Steady (fun i => f (1 + (ss.length + i))) (body.take i))
    (hm : body[i]? = some m) (hmb : isBlock m = false)
    (ha : (serve sp f (guarded op ss body) s).1[1 + (ss.length + i)]? ≠ some .skipped) :
    (sessionAt sp f (guarded op ss body) s (1 + (ss.length + i))).tx ≠ none ∧
    (isoAt sp f g (guarded op ss body) s x (1 + (ss.length + i))).mode = openedMode level x := by
  have hi : i < body.length := (List.getElem?_eq_some_iff.mp hm).1
  have ht := guarded_take (op := op) (ss := ss) (body := body) (Nat.le_of_lt hi)
  have hg : (guarded op ss body)[1 + (ss.length + i)]? = some m := by
    rw [guarded, List.cons_append, Nat.add_comm 1, List.getElem?_cons_succ, List.getElem?_append_left (by simp; omega),
      List.getElem?_append_left (by simp; omega), List.getElem?_append_right (by simp), List.length_map, Nat.add_sub_cancel_left, hm]
  rw [answer_at hg, serveOne_plain hmb] at ha
  have hnf : (sessionAt sp f (guarded op ss body) s (1 + (ss.length + i))).failed = false := by
    cases h : (sessionAt sp f (guarded op ss body) s (1 + (ss.length + i))).failed with
    | false => rfl
    | true => rw [h] at ha; exact absurd rfl ha
  have h0 : Inside s.blocks 0 { s with blocks := ⟨true, s.failed⟩ :: s.blocks } :=
    ⟨[⟨true, s.failed⟩], rfl, rfl, by simp, by simp⟩
  obtain ⟨e', he'⟩ := openBlocks_take hb i
  have hmem : ∀ {c}, c ∈ body.take i → c ∈ body := fun h => List.mem_of_mem_take h
  have hn' : NoErrorBlocks (body.take i) := fun op conds h => hn op conds (hmem h)
  have hsp' : sp = true ∨ ∀ m ∈ body.take i, isBlock m = false := hsp.imp id fun h m hm => h m (hmem hm)
  have hst' := hst
  rw [isoAt_eq, sessionAt, ht, serve_cons, serveOne_open, serve_append]
  rw [sessionAt, ht, serve_cons, serveOne_open, serve_append] at hnf
  obtain ⟨hi1, hf1⟩ := serve_inside (sp := sp) (e := 0) (ss.map sql) (fun i => f (i + 1)) _ 0 h0 (openBlocks_plain (sql_plain _) _)
    (plain_noError (sql_plain _)) (.inr (sql_plain _))
  obtain ⟨hi2, hf2⟩ := serve_inside (sp := sp) (e := e') (body.take i) (fun i => f ((ss.map sql).length + i + 1)) _ 0 hi1 he' hn' hsp'
  have e0 := opening_holds (sp := sp) hl (fun i => f (i + 1)) _ h0
  have hidx : (fun i => f ((ss.map sql).length + i + 1)) = fun i => f (1 + (ss.length + i)) := by
    funext i; rw [List.length_map, Nat.add_comm 1]
  have hlen := serve_length (sp := sp) (ss.map sql) (fun i => f (i + 1)) { s with blocks := ⟨true, s.failed⟩ :: s.blocks }
  revert hf1 hi1 hf2 hi2 hnf e0 hlen
  generalize serve sp (fun i => f (i + 1)) (ss.map sql) { s with blocks := ⟨true, s.failed⟩ :: s.blocks } = r
  intro hnf hi1 hf1 hi2 hf2 e0 hlen
  dsimp only at hnf ⊢
  rw [hnf] at hf2
  have hf2 := Bool.or_eq_false_iff.mp hf2.symm
  rw [hf2.1] at hf1
  have hall : ∀ a ∈ r.1, a = .ok := by
    intro a ha
    have := List.any_eq_false.mp (Bool.or_eq_false_iff.mp hf1.symm).2 a ha
    simpa using this
  refine ⟨?_, ?_⟩
  · rcases e0 with ⟨-, e⟩ | ⟨-, h, -⟩
    · have := body_holds (sp := sp) (body.take i) _ _ 0 [] hi1 he' hn' hsp' (hidx ▸ hst') e
      rw [this.2.1 hnf]
      simp
    · rw [hf2.1] at h; cases h
  · rw [List.zip_cons_cons, isoAfter, List.zip_append (by rw [hlen]), isoAfter_append, steady_mode]
    · have hx : ∀ a, x.after (f 0) (g 0) (.expectOpen op [(1, ascii "1")]) a = x := by
        intro a; unfold Iso.after; rw [if_pos (.inr rfl)]
      rw [hx]
      exact (opening_mode hl _ _ (by rw [hlen, List.length_map]) hall x).1
    · have : ((ss.map sql).zip r.1).length = (ss.map sql).length := by simp [hlen]
      rw [this]
      exact hidx ▸ hst'

/-! ### C74 -/

/-- Whenever a statement of the body of the unit of work is executed, it is inside a transaction that is as the isolation level
asks. -/
def Honoured (spreads : Bool) (level : Nat) (j : Job) (isos : Nat → IsoFate) (s : Session) (x : Iso) : Prop :=
  ∀ (i : Nat) m, j.body[i]? = some m → isBlock m = false →
    (serve spreads j.script (guarded j.op j.opening j.body) s).1[1 + (j.opening.length + i)]? ≠ some .skipped →
    (sessionAt spreads j.script (guarded j.op j.opening j.body) s (1 + (j.opening.length + i))).tx ≠ none ∧
    Wanted level x.usual (isoAt spreads j.script isos (guarded j.op j.opening j.body) s x (1 + (j.opening.length + i))).mode

/-- C74 in full: the transactions of guarded units of work are as their isolation levels ask, on every session. -/
def C74_full (spreads : Bool) : Prop := ∀ (level : Nat) (j : Job) (isos : Nat → IsoFate) (s : Session) (x : Iso),
  txOpening level = some j.opening → JobOK spreads j → Honoured spreads level j isos s x

/-- The settings of the session suit the level: nothing was said about the next transaction to begin with (Default), and the
session is at REPEATABLE READ (Snapshot). -/
def Suits (level : Nat) (x : Iso) : Prop :=
  (level = 0 → x.next.getD x.usual = x.usual) ∧ (level = 5 → x.next.getD x.usual = .repeatableRead)

theorem wanted_iff {level : Nat} {ss : List String} (h : txOpening level = some ss) (x : Iso) :
    Wanted level x.usual (openedMode level x) ↔ Suits level x := by
  unfold txOpening at h
  split at h <;> first | cases h; done | simp [Wanted, openedMode, Suits]

/-- **C74**, partial: the transactions of guarded units of work are as their isolation levels ask, on a session whose settings
suit.  Missing: Default and Snapshot do not set the level of the transaction, and so get the one of the session or
the one that an earlier unit of work has left, see `C74_exact` and `C74_wrong`. -/
theorem C74_partial {sp : Bool} {level : Nat} {j : Job} {isos : Nat → IsoFate} {s : Session} {x : Iso}
    (hl : txOpening level = some j.opening) (hj : JobOK sp j) (hx : Suits level x) : Honoured sp level j isos s x := by
  intro i m hm hb ha
  obtain ⟨h1, h2⟩ := body_executed (g := isos) (x := x) hl hj.2.1 hj.2.2.1 hj.2.2.2.2 (steady_take hj.2.2.2.1 i) hm hb ha
  exact ⟨h1, by rw [h2]; exact (wanted_iff hl x).mpr hx⟩

/-- **C74**, exactly: if any statement of the body comes to be executed, the level was honoured if and only if the settings
suit. -/
theorem C74_exact {sp : Bool} {level : Nat} {j : Job} {isos : Nat → IsoFate} {s : Session} {x : Iso} {i : Nat} {m : ClientMsg}
    (hl : txOpening level = some j.opening) (hj : JobOK sp j) (hm : j.body[i]? = some m) (hb : isBlock m = false)
    (ha : (serve sp j.script (guarded j.op j.opening j.body) s).1[1 + (j.opening.length + i)]? ≠ some .skipped) :
    Honoured sp level j isos s x ↔ Suits level x := by
  refine ⟨fun h => ?_, C74_partial hl hj⟩
  have h2 := (body_executed (g := isos) (x := x) hl hj.2.1 hj.2.2.1 hj.2.2.2.2 (steady_take hj.2.2.2.1 i) hm hb ha).2
  have := (h i m hm hb ha).2
  rw [h2] at this
  exact (wanted_iff hl x).mp this

/-- The same from the calls: what `ExpectFailOnError(Tx(level, body))` puts into the buffer is such a unit of work. -/
theorem C74_programs {g : Grow} {b b' : Builder} {body : Prog} {o : List Builder} {out : List (Option Val)}
    (hb : Ready b) (op : UInt8) (level : BitVec 64)
    (h : run g (.expect op (.tx level body fun o => .ret none o) fun o => .ret none o) [] b = .ok (o, b', out))
    (he : b'.err = none) :
    ∃ opening ms vs, txOpening level.toNat = some opening ∧ Exec libDur 2 body (.ok []) (.ok ms) out vs ∧
      (op.toNat ≤ 1 → (∀ m ∈ ms, Readable m) → Verif.Spec.Holds b' b.buf.data (guarded op.toNat opening ms)) ∧
      ∀ sp script dropped isos s x, (sp = true ∨ ∀ m ∈ ms, isBlock m = false) →
        Steady (fun i => script (1 + (opening.length + i))) ms → Suits level.toNat x →
        Honoured sp level.toNat ⟨op.toNat, opening, ms, script, dropped⟩ isos s x := by
  obtain ⟨ss, ms, vs, hl, hx, h1, h2, h3⟩ := guarded_run hb op level h he
  exact ⟨ss, ms, vs, hl, hx, h3, fun sp f dr isos s x hs hst hsu => C74_partial hl ⟨⟨_, hl⟩, h1, h2, hst, hs⟩ hsu⟩

/-- settings that nothing changes but the library -/
def settled : Nat → IsoFate := fun _ => ⟨id, id, false⟩

def jobAt (level fail : Nat) (dropped : Bool) (body : List ClientMsg) : Job :=
  ⟨0, (txOpening level).getD [], body, failsAt fail, dropped⟩

theorem jobAt_ok {level : Nat} (hl : level ≤ 5) (fail : Nat) (dropped sp : Bool) :
    txOpening level = some (jobAt level fail dropped [deleteEx, insertEx]).opening ∧ JobOK sp (jobAt level fail dropped [deleteEx, insertEx]) := by
  have : txOpening level = some ((txOpening level).getD []) := by
    match level, hl with
    | 0, _ | 1, _ | 2, _ | 3, _ | 4, _ | 5, _ => rfl
  exact ⟨this, ⟨level, this⟩, rfl, fun _ _ h => by simp [jobAt, deleteEx, insertEx] at h, ⟨.inl rfl, .inl rfl, trivial⟩,
    .inr (by simp [jobAt, deleteEx, insertEx, isBlock])⟩

/-- a session at READ COMMITTED -/
def committedIso : Iso := ⟨.readCommitted, none, ⟨.readCommitted, false⟩⟩

/-- C74 is false: on a session at READ COMMITTED, the transaction of the level Snapshot has no snapshot. -/
theorem C74_wrong (sp : Bool) : ¬C74_full sp := by
  intro h
  have hj := jobAt_ok (level := 5) (by decide) 9 false sp
  have := (C74_exact (isos := settled) (s := freshSession) (x := committedIso) (i := 0) hj.1 hj.2 rfl rfl (by cases sp <;> decide)).mp (h _ _ _ _ _ hj.1 hj.2)
  exact absurd (this.2 rfl) (by decide)

/-- The level Default may get the level of an earlier unit of work whose transaction was not started. -/
theorem C74_wrong_default (sp : Bool) : ∃ (j j' : Job) (s' : Session) (x' : Iso),
    txOpening 4 = some j.opening ∧ JobOK sp j ∧ (j.on sp freshSession).2 = s' ∧
    isoAt sp j.script settled (guarded j.op j.opening j.body) freshSession committedIso (guarded j.op j.opening j.body).length = x' ∧
    txOpening 0 = some j'.opening ∧ JobOK sp j' ∧ (j'.on sp s').1 = true ∧ x'.usual = .readCommitted ∧
    (isoAt sp j'.script settled (guarded j'.op j'.opening j'.body) s' x' 2).mode = ⟨.serializable, false⟩ := by
  have hj := jobAt_ok (level := 4) (by decide) 2 false sp
  have hj' := jobAt_ok (level := 0) (by decide) 9 false sp
  refine ⟨_, _, _, _, hj.1, hj.2, rfl, rfl, hj'.1, hj'.2, ?_, ?_, ?_⟩ <;> cases sp <;> decide +kernel

/-! ### Transactions inside a transaction, and after one that was left open -/

theorem setsLevel_plain {m : ClientMsg} (h : setsLevel m ≠ none) : isBlock m = false := by
  cases m <;> first | rfl | exact absurd rfl h

/-- A guarded unit of work that sets the level of the next transaction inside its own, as a `Tx` of the levels ReadUncommitted
to Serializable inside a `Tx` does, is never committed. -/
theorem C74_nested {sp : Bool} {level : Nat} {j : Job} {s : Session} {i : Nat} {m : ClientMsg}
    (hl : txOpening level = some j.opening) (hb : openBlocks 0 j.body = some 0) (hn : NoErrorBlocks j.body)
    (hsp : sp = true ∨ ∀ m ∈ j.body, isBlock m = false) (hst : Steady j.bodyScript (j.body.take i)) (hm : j.body[i]? = some m)
    (hset : setsLevel m ≠ none) (hr : Refuses sp j.script (guarded j.op j.opening j.body) s) : (j.on sp s).1 = false := by
  have hi : i < j.body.length := (List.getElem?_eq_some_iff.mp hm).1
  have hg : (guarded j.op j.opening j.body)[1 + (j.opening.length + i)]? = some m := by
    rw [guarded, List.cons_append, Nat.add_comm 1, List.getElem?_cons_succ, List.getElem?_append_left (by simp; omega),
      List.getElem?_append_left (by simp; omega), List.getElem?_append_right (by simp), List.length_map, Nat.add_sub_cancel_left, hm]
  obtain ⟨before, commit, close, h1, h2, h3, -⟩ := commitGuarded (sp := sp) (f := j.script) (op := j.op) (ss := j.opening) (s := s) hb hn hsp
  cases hc : (j.on sp s).1 with
  | false => rfl
  | true =>
    exfalso
    rw [Job.on, decide_eq_true_eq, h1, List.getElem?_append_right (by omega), h2, Nat.sub_self] at hc
    cases hc
    have hall := h3.mp (by decide)
    have hans : (serve sp j.script (guarded j.op j.opening j.body) s).1[1 + (j.opening.length + i)]? = some .ok := by
      rw [h1, List.getElem?_append_left (by omega), List.getElem?_eq_getElem (by omega)]
      exact congrArg some (hall _ (List.getElem_mem _))
    have htx := (body_executed (g := settled) (x := committedIso) hl hb hn hsp hst hm (setsLevel_plain hset) (by rw [hans]; decide)).1
    have ho := hr _ m hg hset htx
    rw [answer_at hg, serveOne_plain (setsLevel_plain hset), ho] at hans
    split at hans <;> cases hans

/-- A failed block changes nothing. -/
theorem failed_same {sp : Bool} {rest : List Block} {e : Nat} (ms : List ClientMsg) : ∀ (f : Nat → Fate) (s : Session) (d : Nat),
    Inside rest d s → openBlocks d ms = some e → NoErrorBlocks ms → (sp = true ∨ ∀ m ∈ ms, isBlock m = false) → s.failed = true →
    (serve sp f ms s).2.durable = s.durable ∧ (serve sp f ms s).2.tx = s.tx ∧ (serve sp f ms s).2.failed = true := by
  induction ms with
  | nil => intro f s d _ _ _ _ hf; exact ⟨rfl, rfl, hf⟩
  | cons m ms ih =>
    intro f s d hi ho hn hs hf
    obtain ⟨d', h1, h2, h3⟩ := serveOne_inside (f := f 0) hi ho (fun op conds h => hn op conds (h ▸ .head _)) (hs.imp id fun h => h m (.head _))
    rw [hf, Bool.true_or] at h3
    have h4 : (serveOne sp (f 0) m s).2.durable = s.durable ∧ (serveOne sp (f 0) m s).2.tx = s.tx := by
      cases hm : isBlock m with
      | false => rw [serveOne_plain hm, if_pos hf]; exact ⟨rfl, rfl⟩
      | true => exact block_keeps hm
    rw [serve_cons, ← h4.1, ← h4.2]
    exact ih (fun i => f (i + 1)) _ d' h2 h1 (fun op conds h => hn op conds (.tail _ h)) (hs.imp id fun h => fun m hm => h m (.tail _ hm)) h3

/-- Units of work of the levels ReadUncommitted to Serializable. -/
def Levelled (j : Job) : Prop := ∃ level, 1 ≤ level ∧ level ≤ 4 ∧ txOpening level = some j.opening

theorem levelled_opening {j : Job} (h : Levelled j) : ∃ t l, j.opening = [t, "START TRANSACTION"] ∧ setsLevel (sql t) = some l ∧
    fixedKind (sql t) = some .session := by
  obtain ⟨level, h1, h2, h⟩ := h
  match level, h1, h2 with
  | 1, _, _ => exact ⟨_, .readUncommitted, (Option.some.inj h).symm, by decide, by decide⟩
  | 2, _, _ => exact ⟨_, .readCommitted, (Option.some.inj h).symm, by decide, by decide⟩
  | 3, _, _ => exact ⟨_, .repeatableRead, (Option.some.inj h).symm, by decide, by decide⟩
  | 4, _, _ => exact ⟨_, .serializable, (Option.some.inj h).symm, by decide, by decide⟩

theorem close_failed {sp : Bool} {f : Fate} {r s : Session} {y : Block} (hb : r.blocks = [y]) (hy : y.failed = true) (hs : s.blocks = [])
    (hd : r.durable = s.durable) (ht : r.tx = s.tx) : (serveOne sp f .expectClose r).2 = s := by
  obtain ⟨rb, rt, rd⟩ := r
  obtain ⟨sb, st, sd⟩ := s
  dsimp only at hb hs hd ht
  subst hb hs hd ht
  simp only [serveOne, hy]
  cases sp <;> rfl

/-- On a session with an open transaction (which a unit of work that was not committed leaves behind, `C51_exact`) a guarded
unit of work of such a level is not executed at all, and leaves the session as it was. -/
theorem refused_once {sp : Bool} {j : Job} {s : Session} (hl : Levelled j) (hb : openBlocks 0 j.body = some 0) (hn : NoErrorBlocks j.body)
    (hsp : sp = true ∨ ∀ m ∈ j.body, isBlock m = false) (hs : s.blocks = []) (ht : s.tx ≠ none) (hd : j.dropped = false)
    (hr : Refuses sp j.script (guarded j.op j.opening j.body) s) : j.on sp s = (false, s) := by
  obtain ⟨t, l, hop, hset, hk⟩ := levelled_opening hl
  have h0 : Inside s.blocks 0 { s with blocks := ⟨true, s.failed⟩ :: s.blocks } :=
    ⟨[⟨true, s.failed⟩], rfl, rfl, by simp, by simp⟩
  have hsf : s.failed = false := by simp [Session.failed, hs]
  have hout : (j.script 1).outcome = .error := by
    refine hr 1 (sql t) (by rw [guarded, hop]; rfl) (by rw [hset]; simp) ?_
    have : (guarded j.op j.opening j.body).take 1 = [.expectOpen j.op [(1, ascii "1")]] := rfl
    rw [sessionAt, this, serve_cons, serveOne_open]
    exact ht
  obtain ⟨h1, h2, h3, h4⟩ := serve_guarded (sp := sp) (f := j.script) (op := j.op) (ss := j.opening) (s := s) hb hn hsp
  -- the state before COMMIT
  have hst : (serve sp (fun i => j.script (i + 1)) (j.opening.map sql ++ j.body) { s with blocks := ⟨true, s.failed⟩ :: s.blocks }).2.durable = s.durable ∧
      (serve sp (fun i => j.script (i + 1)) (j.opening.map sql ++ j.body) { s with blocks := ⟨true, s.failed⟩ :: s.blocks }).2.tx = s.tx ∧
      (serve sp (fun i => j.script (i + 1)) (j.opening.map sql ++ j.body) { s with blocks := ⟨true, s.failed⟩ :: s.blocks }).2.failed = true := by
    have e : j.opening.map sql ++ j.body = sql t :: (sql "START TRANSACTION" :: j.body) := by rw [hop]; rfl
    obtain ⟨d', hd', hi', hf'⟩ := serveOne_inside (sp := sp) (f := j.script (0 + 1)) (m := sql t) (ms := []) h0 rfl (fun _ _ h => by cases h) (.inr rfl)
    cases hd'
    rw [e, serve_cons]
    have hone : serveOne sp (j.script (0 + 1)) (sql t) { s with blocks := ⟨true, s.failed⟩ :: s.blocks } =
        (.failed, Session.note { s with blocks := ⟨true, s.failed⟩ :: s.blocks }) := by
      rw [serveOne_plain rfl, show j.script (0 + 1) = j.script 1 from rfl, hout, hsf]
      rfl
    rw [hone] at hi' hf' ⊢
    obtain ⟨a, b, c⟩ := failed_same (sp := sp) (sql "START TRANSACTION" :: j.body) (fun i => j.script (i + 1 + 1)) _ 0 hi'
      (by rw [show sql "START TRANSACTION" :: j.body = [sql "START TRANSACTION"] ++ j.body from rfl, openBlocks_append]; exact hb)
      (fun op conds h => by rcases List.mem_cons.mp h with h | h; cases h; exact hn op conds h)
      (hsp.imp id fun h m hm => by rcases List.mem_cons.mp hm with rfl | hm; rfl; exact h m hm) (by rw [hf']; simp)
    exact ⟨a, b, c⟩
  revert h1 h2 h3 hst
  generalize serve sp (fun i => j.script (i + 1)) (j.opening.map sql ++ j.body) { s with blocks := ⟨true, s.failed⟩ :: s.blocks } = r
  intro h1 h2 h3 hst
  generalize hn' : 1 + (j.opening.length + j.body.length) = n at h1 h2
  have hcom : serveOne sp (j.script n) (sql "COMMIT") r.2 = (.skipped, r.2) := by rw [serveOne_plain rfl, if_pos hst.2.2]
  rw [hcom] at h1
  have hcl : (serveOne sp (j.script (n + 1)) .expectClose r.2).2 = s := by
    obtain ⟨inner, hl, hbl, _, _⟩ := h3
    match inner, hl with
    | [y], _ =>
      have hy : y.failed = true := by have := hst.2.2; simpa [Session.failed, hbl] using this
      rw [hs] at hbl
      exact close_failed hbl hy hs hst.1 hst.2.1
  have hc : (serve sp j.script (guarded j.op j.opening j.body) s).1[n]? = some .skipped := by
    rw [h1, List.getElem?_append_right (by omega), h2, Nat.sub_self]; rfl
  have hd2 : (serve sp j.script (guarded j.op j.opening j.body) s).2 = s := by rw [h1]; exact hcl
  simp only [Job.on, hn', hc, hd2, hd]
  rfl

/-- **C74**: once a transaction was left open on a session, all units of work of the levels ReadUncommitted to Serializable
fail, however many there are, and what was left stays. -/
theorem C74_stuck {sp : Bool} (js : List Job) {s : Session} (hs : s.blocks = []) (ht : s.tx ≠ none)
    (hj : ∀ j ∈ js, Levelled j ∧ JobOK sp j ∧ j.dropped = false ∧ Refuses sp j.script (guarded j.op j.opening j.body) s) :
    jobs sp js s = (List.replicate js.length false, s) := by
  induction js with
  | nil => rfl
  | cons j js ih =>
    obtain ⟨h1, h2, h3, h4⟩ := hj j (.head _)
    rw [jobs, refused_once h1 h2.2.1 h2.2.2.1 h2.2.2.2.2 hs ht h3 h4, ih fun j hm => hj j (.tail _ hm)]
    rfl

/-- a server that refuses message `k` and lets the others succeed -/
theorem refuses_failsAt {sp : Bool} {ms : List ClientMsg} {s : Session} (k : Nat)
    (h : ∀ i, i < ms.length → ms[i]?.bind setsLevel ≠ none → i = k) : Refuses sp (failsAt k) ms s := by
  intro i m hm hs _
  have := h i (List.getElem?_eq_some_iff.mp hm).1 (by rw [hm]; exact hs)
  simp [failsAt, this]

/-- A unit of work fails at its second statement; two of level Serializable follow on the same session. -/
example : ∃ s : Session, ((jobEx 3 false [deleteEx, insertEx]).on true freshSession).2 = s ∧ s.tx = some [deleteEx] ∧
    jobs true [jobAt 4 1 false [deleteEx, insertEx], jobAt 2 1 false [deleteEx, insertEx]] s = ([false, false], s) := by
  refine ⟨_, rfl, rfl, C74_stuck (s := ((jobEx 3 false [deleteEx, insertEx]).on true freshSession).2) _ rfl (fun h => by cases h) fun j hj => ?_⟩
  simp only [List.mem_cons, List.not_mem_nil, or_false] at hj
  rcases hj with rfl | rfl
  · exact ⟨⟨4, by decide, by decide, rfl⟩, (jobAt_ok (level := 4) (by decide) 1 false true).2, rfl, refuses_failsAt 1 (by decide)⟩
  · exact ⟨⟨2, by decide, by decide, rfl⟩, (jobAt_ok (level := 2) (by decide) 1 false true).2, rfl, refuses_failsAt 1 (by decide)⟩

/-- `Tx(Default)` around a `Tx(Serializable)` -/
example : ((⟨0, ["START TRANSACTION"], [deleteEx, sql "SET TRANSACTION ISOLATION LEVEL SERIALIZABLE", sql "START TRANSACTION", insertEx,
    sql "COMMIT"], failsAt 3, false⟩ : Job).on true freshSession).1 = false :=
  C74_nested (level := 0) (i := 1) rfl rfl (fun _ _ h => by simp [deleteEx, insertEx, sql] at h) (.inl rfl) ⟨.inl rfl, trivial⟩ rfl (by decide)
    (refuses_failsAt 3 (by decide))

/-- a session at REPEATABLE READ suits Snapshot -/
example : Honoured true 5 (jobAt 5 9 false [deleteEx, insertEx]) settled freshSession ⟨.repeatableRead, none, ⟨.readCommitted, false⟩⟩ :=
  C74_partial (jobAt_ok (level := 5) (by decide) 9 false true).1 (jobAt_ok (level := 5) (by decide) 9 false true).2 ⟨by decide, fun _ => rfl⟩

/-- any session suits Serializable; a statement of the body is executed -/
example : Honoured true 4 (jobAt 4 4 false [deleteEx, insertEx]) settled freshSession committedIso ∧
    (serve true (failsAt 4) (guarded 0 ["SET TRANSACTION ISOLATION LEVEL SERIALIZABLE", "START TRANSACTION"] [deleteEx, insertEx]) freshSession).1 =
      [.ok, .ok, .ok, .ok, .failed, .skipped, .failed] ∧
    (isoAt true (failsAt 4) settled (guarded 0 ["SET TRANSACTION ISOLATION LEVEL SERIALIZABLE", "START TRANSACTION"] [deleteEx, insertEx]) freshSession
      committedIso 3).mode = ⟨.serializable, false⟩ :=
  ⟨C74_partial (jobAt_ok (level := 4) (by decide) 4 false true).1 (jobAt_ok (level := 4) (by decide) 4 false true).2 ⟨by decide, by decide⟩,
    by decide, by decide⟩

/-- Outside a block, the level is lost: on a session with an open transaction SET TRANSACTION is refused, START TRANSACTION
commits what was left, and the statements of the body run at the level of the session; COMMIT succeeds. -/
theorem C74_needs_block : ∃ (script : Nat → Fate) (ms : List ClientMsg) (s : Session),
    ms = ["SET TRANSACTION ISOLATION LEVEL SERIALIZABLE", "START TRANSACTION"].map sql ++ [deleteEx, sql "COMMIT"] ∧
    txOpening 4 = some ["SET TRANSACTION ISOLATION LEVEL SERIALIZABLE", "START TRANSACTION"] ∧
    (serve true script ms s).1 = [.failed, .ok, .ok, .ok] ∧ s.tx = some [insertEx] ∧ Refuses true script ms s ∧
    (serve true script ms s).2.durable = [insertEx, deleteEx] ∧
    (isoAt true script settled ms s committedIso 2).mode = ⟨.readCommitted, false⟩ := by
  refine ⟨failsAt 0, _, ⟨[], some [insertEx], []⟩, rfl, rfl, by decide, rfl, ?_, rfl, by decide⟩
  intro i m hm hs _
  match i with
  | 0 => rfl
  | 1 => cases hm; exact absurd rfl hs
  | 2 => cases hm; exact absurd rfl hs
  | 3 => cases hm; exact absurd rfl hs
  | i + 4 => cases hm

end Verif.Props
