import Verif.Props.Server
/-! C51: what a unit of work that was not committed leaves behind, for all histories. -/
namespace Verif.Props
open Verif.Go Verif.Spec Verif.Model Verif.Proof

/-- The statement that starts the transaction of the unit of work was answered OK. -/
def Started (sp : Bool) (j : Job) (s : Session) : Prop :=
  (serve sp j.script (guarded j.op j.opening j.body) s).1[j.opening.length]? = some .ok

/-- The durable changes, and the open transaction: `t` unless something has failed, then at most the beginning of it. -/
def Holds (D : List ClientMsg) (t : Option (List ClientMsg)) (s : Session) : Prop :=
  s.durable = D ∧ (s.failed = false → s.tx = t) ∧ (s.tx = none ∨ ∃ p q, s.tx = some p ∧ t = some q ∧ p <+: q)

theorem Holds.refl (s : Session) : Holds s.durable s.tx s :=
  ⟨rfl, fun _ => rfl, by cases h : s.tx; exact .inl rfl; exact .inr ⟨_, _, rfl, rfl, List.prefix_refl _⟩⟩

theorem block_keeps {sp : Bool} {f : Fate} {m : ClientMsg} {s : Session} (hm : isBlock m = true) :
    (serveOne sp f m s).2.durable = s.durable ∧ (serveOne sp f m s).2.tx = s.tx := by
  cases m with
  | expectOpen op conds => simp only [serveOne]; split <;> exact ⟨rfl, rfl⟩
  | expectClose =>
    simp only [serveOne]
    split
    · exact ⟨rfl, rfl⟩
    · split
      · split
        · exact ⟨note_durable _, note_tx _⟩
        · exact ⟨rfl, rfl⟩
      · exact ⟨rfl, rfl⟩
  | _ => cases hm

theorem serveOne_holds {sp : Bool} {f : Fate} {m : ClientMsg} {ms : List ClientMsg} {rest : List Block} {d e : Nat}
    {s : Session} {D : List ClientMsg} {t : Option (List ClientMsg)} (h : Inside rest d s) (ho : openBlocks d (m :: ms) = some e)
    (hn : ∀ op conds, m = .expectOpen op conds → conds = [(1, ascii "1")]) (hs : sp = true ∨ isBlock m = false)
    (hk : (f.of m = .change ∧ t ≠ none) ∨ f.of m = .session) (he : Holds D t s) :
    Holds D (t.map (· ++ if f.of m = .change then [m] else [])) (serveOne sp f m s).2 := by
  obtain ⟨d', h1, h2, h3⟩ := serveOne_inside (f := f) h ho hn hs
  have longer : ∀ x : List ClientMsg, (s.tx = none ∨ ∃ p q, s.tx = some p ∧ t = some q ∧ p <+: q) →
      s.tx = none ∨ ∃ p q, s.tx = some p ∧ t.map (· ++ x) = some q ∧ p <+: q := by
    rintro x (h | ⟨p, q, h1, rfl, h2⟩)
    · exact .inl h
    · exact .inr ⟨p, q ++ x, h1, rfl, h2.trans (List.prefix_append _ _)⟩
  cases hm : isBlock m with
  | false =>
    rw [serveOne_plain hm] at h3 ⊢
    cases hf : s.failed with
    | true => simp only [if_true]; exact ⟨he.1, fun h => (by rw [hf] at h; cases h), longer _ he.2.2⟩
    | false =>
      simp only [hf, Bool.false_or] at h3 ⊢
      have ht := he.2.1 hf
      cases ho : f.outcome with
      | success =>
        simp only [Bool.false_eq_true, if_false]
        rcases hk with ⟨hk, hne⟩ | hk
        · cases t with
          | none => exact absurd rfl hne
          | some l =>
            rw [hk]
            simp only [Session.effect, ht, if_true, Option.map_some]
            exact ⟨he.1, fun _ => rfl, .inr ⟨_, _, rfl, rfl, List.prefix_refl _⟩⟩
        · rw [hk]
          simp only [Session.effect]
          have : t.map (· ++ if Kind.session = Kind.change then [m] else []) = t := by cases t <;> simp
          rw [this]; exact he
      | error =>
        simp only [ho, Bool.false_eq_true, if_false] at h3 ⊢
        exact ⟨(note_durable _).trans he.1, fun h => (by rw [h3] at h; simp at h), by rw [note_tx]; exact longer _ he.2.2⟩
      | rolledBack =>
        simp only [ho, Bool.false_eq_true, if_false] at h3 ⊢
        exact ⟨(note_durable _).trans he.1, fun h => (by rw [h3] at h; simp at h), .inl (note_tx _)⟩
  | true =>
    have hno : (if f.of m = .change then [m] else ([] : List ClientMsg)) = [] := by
      cases m <;> first | (simp [Fate.of, fixedKind]; done) | cases hm
    have : t.map (· ++ ([] : List ClientMsg)) = t := by cases t <;> simp
    rw [hno, this]
    obtain ⟨hd1, hd2⟩ := block_keeps (sp := sp) (f := f) (s := s) hm
    refine ⟨hd1.trans he.1, fun h => hd2.trans (he.2.1 ?_), by rw [hd2]; exact he.2.2⟩
    rw [h3, Bool.or_eq_false_iff] at h
    exact h.1

/-- Statements that do nothing of the kind, before the transaction starts. -/
theorem session_holds {sp : Bool} {rest : List Block} {D : List ClientMsg} {t : Option (List ClientMsg)} (ss : List String) :
    ∀ (f : Nat → Fate) (s : Session), Inside rest 0 s → (∀ x ∈ ss, fixedKind (sql x) = some .session) → Holds D t s →
    Holds D t (serve sp f (ss.map sql) s).2 := by
  induction ss with
  | nil => intro f s _ _ he; exact he
  | cons x ss ih =>
    intro f s hi hk he
    have hx : (f 0).of (sql x) = .session := by rw [Fate.of, hk x (.head _)]; rfl
    obtain ⟨d', hd, h2, -⟩ := serveOne_inside (sp := sp) (f := f 0) (m := sql x) (ms := []) hi rfl (fun _ _ h => by cases h) (.inr rfl)
    cases hd
    have h1 := serveOne_holds (sp := sp) (f := f 0) (m := sql x) (ms := []) hi rfl (fun _ _ h => by cases h) (.inr rfl) (.inr hx) he
    have : t.map (· ++ if (f 0).of (sql x) = .change then [sql x] else []) = t := by rw [hx]; cases t <;> simp
    rw [this] at h1
    exact ih _ _ h2 (fun y hy => hk y (.tail _ hy)) h1

theorem body_holds {sp : Bool} {rest : List Block} {e : Nat} {D : List ClientMsg} (ms : List ClientMsg) :
    ∀ (f : Nat → Fate) (s : Session) (d : Nat) (acc : List ClientMsg),
    Inside rest d s → openBlocks d ms = some e → NoErrorBlocks ms → (sp = true ∨ ∀ m ∈ ms, isBlock m = false) →
    Steady f ms → Holds D (some acc) s → Holds D (some (acc ++ changes f ms)) (serve sp f ms s).2 := by
  induction ms with
  | nil => intro f s d acc _ _ _ _ _ he; simpa [serve, changes] using he
  | cons m ms ih =>
    intro f s d acc hi ho hn hs hk he
    have hn' : ∀ op conds, m = .expectOpen op conds → conds = [(1, ascii "1")] :=
      fun op conds h => hn op conds (h ▸ List.Mem.head _)
    obtain ⟨d', h1, h2, _⟩ := serveOne_inside (f := f 0) hi ho hn' (hs.imp id fun h => h m (.head _))
    have h5 := serveOne_holds (f := f 0) hi ho hn' (hs.imp id fun h => h m (.head _)) (hk.1.imp (⟨·, by simp⟩) id) he
    have := ih (fun i => f (i + 1)) _ d' _ h2 h1 (fun op conds h => hn op conds (.tail _ h))
      (hs.imp id fun h => fun m hm => h m (.tail _ hm)) hk.2 h5
    rw [serve_cons, changes, ← List.append_assoc]
    exact this

/-- In a failed block nothing happens. -/
theorem failed_holds {sp : Bool} {rest : List Block} {e : Nat} {D : List ClientMsg} {t : Option (List ClientMsg)} (ms : List ClientMsg) :
    ∀ (f : Nat → Fate) (s : Session) (d : Nat),
    Inside rest d s → openBlocks d ms = some e → NoErrorBlocks ms → (sp = true ∨ ∀ m ∈ ms, isBlock m = false) →
    s.failed = true → Holds D t s → Holds D t (serve sp f ms s).2 ∧ (serve sp f ms s).2.failed = true := by
  induction ms with
  | nil => intro f s d _ _ _ _ hf he; exact ⟨he, hf⟩
  | cons m ms ih =>
    intro f s d hi ho hn hs hf he
    obtain ⟨d', h1, h2, h3⟩ := serveOne_inside (f := f 0) hi ho (fun op conds h => hn op conds (h ▸ .head _)) (hs.imp id fun h => h m (.head _))
    rw [hf, Bool.true_or] at h3
    refine ih (fun i => f (i + 1)) _ d' h2 h1 (fun op conds h => hn op conds (.tail _ h)) (hs.imp id fun h => fun m hm => h m (.tail _ hm)) h3 ?_
    have : (serveOne sp (f 0) m s).2.durable = s.durable ∧ (serveOne sp (f 0) m s).2.tx = s.tx := by
      cases hm : isBlock m with
      | false => rw [serveOne_plain hm, if_pos hf]; exact ⟨rfl, rfl⟩
      | true => exact block_keeps hm
    exact ⟨this.1.trans he.1, fun h => (by rw [h3] at h; cases h), by rw [this.2]; exact he.2.2⟩

/-- The opening: either the transaction has started, after committing what was open, or something has failed and it has not. -/
theorem opening_holds {sp : Bool} {n : Nat} {ss : List String} (h : txOpening n = some ss) (f : Nat → Fate) (s : Session)
    {rest : List Block} (hi : Inside rest 0 s) :
    ((serve sp f (ss.map sql) s).1.getLast? = some .ok ∧ Holds (s.durable ++ s.tx.getD []) (some []) (serve sp f (ss.map sql) s).2) ∨
    ((serve sp f (ss.map sql) s).1.getLast? ≠ some .ok ∧ (serve sp f (ss.map sql) s).2.failed = true ∧
      Holds s.durable s.tx (serve sp f (ss.map sql) s).2) := by
  obtain ⟨pre, last, rfl, hp, hl⟩ := opening_kinds h
  have h1 := session_holds (sp := sp) pre f s hi hp (.refl s)
  obtain ⟨hi', _⟩ := serve_inside (sp := sp) (e := 0) (pre.map sql) f s 0 hi (openBlocks_plain (sql_plain _) _)
    (plain_noError (sql_plain _)) (.inr (sql_plain _))
  rw [List.map_append, serve_append]
  revert h1 hi'
  generalize serve sp f (pre.map sql) s = t
  intro h1 hi'
  simp only [List.map_cons, List.map_nil, serve_cons, serve, List.getLast?_append, List.getLast?_singleton, Option.some_or]
  obtain ⟨_, _, _, hf⟩ := serveOne_inside (sp := sp) (f := f ((pre.map sql).length + 0)) (m := sql last) (ms := []) hi' rfl (fun _ _ h => by cases h) (.inr rfl)
  rw [serveOne_plain rfl] at hf ⊢
  split
  · rename_i hff; exact .inr ⟨by simp, hff, h1⟩
  · rename_i hff
    rw [if_neg hff] at hf
    simp only [Bool.not_eq_true] at hff
    have ht := h1.2.1 hff
    split
    · rw [Fate.of, hl]
      exact .inl ⟨rfl, by simp [Session.effect, h1.1, ht], fun _ => rfl, .inr ⟨_, _, rfl, rfl, List.prefix_refl _⟩⟩
    · rename_i ho
      simp only [ho] at hf
      replace hf := hf.trans (b := _) (c := true) (by simp)
      exact .inr ⟨by simp, hf, (note_durable _).trans h1.1, fun h => (by rw [hf] at h; cases h), by rw [note_tx]; exact h1.2.2⟩
    · rename_i ho
      simp only [ho] at hf
      replace hf := hf.trans (b := _) (c := true) (by simp)
      exact .inr ⟨by simp, hf, (note_durable _).trans h1.1, fun h => (by rw [hf] at h; cases h), .inl (note_tx _)⟩

theorem getElem?_getLast? {α : Type} {l : List α} {n : Nat} (h : l.length = n + 1) : l[n]? = l.getLast? := by
  rw [List.getLast?_eq_getElem?, h]; rfl

/-- **C51**, exactly: one unit of work on a session that may still have a transaction open (left by a unit that was not
committed).  If its START TRANSACTION is answered OK, all that was left becomes durable, before its own changes, which do
if COMMIT is answered OK.  Unless it was committed or the connection goes away, a beginning of its changes is left in turn,
unless the server undid them. -/
theorem C51_exact {sp : Bool} {j : Job} {s : Session} (hj : JobOK sp j) (hs : s.blocks = []) :
    (j.on sp s).2.blocks = [] ∧ ((j.on sp s).1 = true ∨ j.dropped = true → (j.on sp s).2.tx = none) ∧
    ((Started sp j s ∧
        (j.on sp s).2.durable = s.durable ++ s.tx.getD [] ++ (if (j.on sp s).1 then changes j.bodyScript j.body else []) ∧
        ((j.on sp s).2.tx = none ∨ ∃ p, (j.on sp s).2.tx = some p ∧ p <+: changes j.bodyScript j.body)) ∨
      (¬Started sp j s ∧ (j.on sp s).1 = false ∧ (j.on sp s).2.durable = s.durable ∧
        ((j.on sp s).2.tx = none ∨ ∃ p q, (j.on sp s).2.tx = some p ∧ s.tx = some q ∧ p <+: q))) := by
  obtain ⟨⟨level, hl⟩, hb, hn, hst, hsp⟩ := hj
  obtain ⟨h1, h2, h3, -⟩ := serve_guarded (sp := sp) (f := j.script) (op := j.op) (ss := j.opening) (s := s) hb hn hsp
  have h0 : Inside s.blocks 0 { s with blocks := ⟨true, s.failed⟩ :: s.blocks } :=
    ⟨[⟨true, s.failed⟩], rfl, rfl, by simp, by simp⟩
  have e0 := opening_holds (sp := sp) hl (fun i => j.script (i + 1)) _ h0
  have hi := (serve_inside (sp := sp) (e := 0) (j.opening.map sql) (fun i => j.script (i + 1)) _ 0 h0
    (openBlocks_plain (sql_plain _) _) (plain_noError (sql_plain _)) (.inr (sql_plain _))).1
  have hlen := serve_length (sp := sp) (j.opening.map sql) (fun i => j.script (i + 1)) { s with blocks := ⟨true, s.failed⟩ :: s.blocks }
  have hbs : j.bodyScript = fun i => j.script (j.opening.length + i + 1) := by
    funext i; simp [Job.bodyScript, Nat.add_comm]
  have hr : serve sp (fun i => j.script (i + 1)) (j.opening.map sql ++ j.body) { s with blocks := ⟨true, s.failed⟩ :: s.blocks } = _ :=
    serve_append ..
  obtain ⟨pre, last, hop, -, -⟩ := opening_kinds hl
  have hpos : j.opening.length = pre.length + 1 := by rw [hop]; simp
  -- the state before COMMIT
  have hstart : Started sp j s ↔
      (serve sp (fun i => j.script (i + 1)) (j.opening.map sql) { s with blocks := ⟨true, s.failed⟩ :: s.blocks }).1.getLast? = some .ok := by
    rw [Started, h1, hr, ← getElem?_getLast? (n := pre.length) (by rw [hlen, List.length_map, hpos])]
    dsimp only
    rw [List.getElem?_append_left (by simp [hlen, serve_length]; omega), hpos, List.getElem?_cons_succ,
      List.getElem?_append_left (by rw [hlen, List.length_map, hpos]; omega)]
  have e2 : (Started sp j s ∧ Holds (s.durable ++ s.tx.getD []) (some (changes j.bodyScript j.body))
        (serve sp (fun i => j.script (i + 1)) (j.opening.map sql ++ j.body) { s with blocks := ⟨true, s.failed⟩ :: s.blocks }).2) ∨
      (¬Started sp j s ∧
        (serve sp (fun i => j.script (i + 1)) (j.opening.map sql ++ j.body) { s with blocks := ⟨true, s.failed⟩ :: s.blocks }).2.failed = true ∧
        Holds s.durable s.tx
          (serve sp (fun i => j.script (i + 1)) (j.opening.map sql ++ j.body) { s with blocks := ⟨true, s.failed⟩ :: s.blocks }).2) := by
    rw [hstart, hr]
    rcases e0 with ⟨a, e⟩ | ⟨a, b, e⟩
    · refine .inl ⟨a, ?_⟩
      have := body_holds (sp := sp) j.body (fun i => j.script (j.opening.length + i + 1)) _ 0 [] hi hb hn hsp (hbs ▸ hst) e
      simp only [List.length_map]
      rw [hbs]
      simpa using this
    · have := failed_holds (sp := sp) j.body (fun i => j.script ((j.opening.map sql).length + i + 1)) _ 0 hi hb hn hsp b e
      exact .inr ⟨a, this.2, this.1⟩
  clear hr hi e0 hstart hlen
  revert h1 h2 h3 e2
  generalize serve sp (fun i => j.script (i + 1)) (j.opening.map sql ++ j.body) { s with blocks := ⟨true, s.failed⟩ :: s.blocks } = r
  intro h1 h2 h3 e2
  generalize hn' : 1 + (j.opening.length + j.body.length) = n at h1 h2
  generalize hA : ((if s.failed = true then Answer.failed else Answer.ok) :: r.1 : List Answer) = as at h1 h2
  have hc : (serve sp j.script (guarded j.op j.opening j.body) s).1[n]? = some (serveOne sp (j.script n) (sql "COMMIT") r.2).1 := by
    rw [h1, List.getElem?_append_right (by omega), h2, Nat.sub_self]; rfl
  have hd : (serve sp j.script (guarded j.op j.opening j.body) s).2 =
      (serveOne sp (j.script (n + 1)) .expectClose (serveOne sp (j.script n) (sql "COMMIT") r.2).2).2 := by rw [h1]
  have hclb : ∀ (t : Session) (f : Fate), Inside s.blocks 0 t → (serveOne sp f .expectClose t).2.blocks = [] := by
    intro t f ⟨inner, hl, hbl, _, _⟩
    match inner, hl with
    | [x], _ =>
      rw [hs] at hbl
      simp only [serveOne, hbl, List.cons_append, List.nil_append]
      cases x.failed <;> cases sp <;> rfl
  obtain ⟨_, hd0, hci, -⟩ := serveOne_inside (f := j.script n) (sp := sp) (m := sql "COMMIT") (ms := []) h3 rfl
    (fun _ _ h => by cases h) (.inr rfl)
  cases hd0
  have hkeep := fun (t : Session) (f : Fate) => block_keeps (sp := sp) (f := f) (m := .expectClose) (s := t) rfl
  -- COMMIT
  have hcom : ∀ (D : List ClientMsg) (t : Option (List ClientMsg)), Holds D t r.2 →
      ((serveOne sp (j.script n) (sql "COMMIT") r.2).1 = .ok ∧ r.2.failed = false ∧ (serveOne sp (j.script n) (sql "COMMIT") r.2).2.tx = none ∧
        (serveOne sp (j.script n) (sql "COMMIT") r.2).2.durable = D ++ t.getD []) ∨
      ((serveOne sp (j.script n) (sql "COMMIT") r.2).1 ≠ .ok ∧ (serveOne sp (j.script n) (sql "COMMIT") r.2).2.durable = D ∧
        ((serveOne sp (j.script n) (sql "COMMIT") r.2).2.tx = none ∨
          ∃ p q, (serveOne sp (j.script n) (sql "COMMIT") r.2).2.tx = some p ∧ t = some q ∧ p <+: q)) := by
    intro D t e
    rw [serveOne_plain rfl]
    split
    · exact .inr ⟨by simp, e.1, e.2.2⟩
    · rename_i hf
      simp only [Bool.not_eq_true] at hf
      split
      · rw [Fate.of, commit_kind]
        exact .inl ⟨rfl, hf, rfl, by simp [Session.effect, e.1, e.2.1 hf]⟩
      · exact .inr ⟨by simp, (note_durable _).trans e.1, by rw [note_tx]; exact e.2.2⟩
      · exact .inr ⟨by simp, (note_durable _).trans e.1, .inl (note_tx _)⟩
  have hon : j.on sp s = (decide ((serveOne sp (j.script n) (sql "COMMIT") r.2).1 = .ok), if j.dropped then
      (serveOne sp (j.script (n + 1)) .expectClose (serveOne sp (j.script n) (sql "COMMIT") r.2).2).2.drop else
      (serveOne sp (j.script (n + 1)) .expectClose (serveOne sp (j.script n) (sql "COMMIT") r.2).2).2) := by
    simp [Job.on, hn', hc, hd]
  have hdur : (j.on sp s).2.durable = (serveOne sp (j.script n) (sql "COMMIT") r.2).2.durable := by
    rw [hon]; dsimp only; split
    · exact (hkeep _ _).1
    · exact (hkeep _ _).1
  have htx : (j.on sp s).2.tx = if j.dropped then none else (serveOne sp (j.script n) (sql "COMMIT") r.2).2.tx := by
    rw [hon]; dsimp only; split
    · rfl
    · exact (hkeep _ _).2
  have hblk : (j.on sp s).2.blocks = [] := by
    rw [hon]; dsimp only; split
    · rfl
    · exact hclb _ _ hci
  have hok : (j.on sp s).1 = decide ((serveOne sp (j.script n) (sql "COMMIT") r.2).1 = .ok) := by rw [hon]
  refine ⟨hblk, fun h => ?_, ?_⟩
  · rw [htx]
    rcases h with h | h
    · rw [hok, decide_eq_true_eq] at h
      rcases e2 with ⟨-, e⟩ | ⟨-, -, e⟩ <;> rcases hcom _ _ e with ⟨-, -, x, -⟩ | ⟨x, -⟩
      · simp [x]
      · exact absurd h x
      · simp [x]
      · exact absurd h x
    · simp [h]
  · rcases e2 with ⟨a, e⟩ | ⟨a, hf, e⟩
    · refine .inl ⟨a, ?_⟩
      rw [hdur, htx, hok]
      rcases hcom _ _ e with ⟨x1, -, x2, x3⟩ | ⟨x1, x2, x3⟩
      · exact ⟨by simp [x1, x3], .inl (by simp [x2])⟩
      · refine ⟨by simp [x1, x2], ?_⟩
        rcases x3 with x3 | ⟨p, q, x3, x4, x5⟩
        · exact .inl (by simp [x3])
        · cases x4
          cases j.dropped
          · exact .inr ⟨p, by simpa using x3, x5⟩
          · exact .inl rfl
    · refine .inr ⟨a, ?_⟩
      rw [hdur, htx, hok]
      rcases hcom _ _ e with ⟨-, x1, -⟩ | ⟨x1, x2, x3⟩
      · rw [hf] at x1; cases x1
      · refine ⟨by simp [x1], x2, ?_⟩
        cases j.dropped
        · simpa using x3
        · exact .inl rfl

/-- **C51**, what holds of every history, whether or not connections go away: what becomes durable is, for each unit of work
in turn, a beginning of its changes: all of them if COMMIT was answered OK; none if it was not and the connection went
away.  Missing: none whenever COMMIT was not answered OK (`C51_wrong`, `C51_exact`). -/
theorem C51_prefixes_partial {sp : Bool} (js : List Job) (s : Session) (hs : Idle s) (hj : ∀ j ∈ js, JobOK sp j) :
    ∃ pieces : List (List ClientMsg), pieces.length = js.length ∧ (jobs sp js s).2.durable = s.durable ++ pieces.flatten ∧
      ∀ p ∈ (js.zip (jobs sp js s).1).zip pieces, p.2 <+: changes p.1.1.bodyScript p.1.1.body ∧
        (p.1.2 = true → p.2 = changes p.1.1.bodyScript p.1.1.body) ∧ (p.1.2 = false → p.1.1.dropped = true → p.2 = []) := by
  have key : ∀ (js : List Job) (s : Session), s.blocks = [] → (∀ j ∈ js, JobOK sp j) →
      ∃ (first : List ClientMsg) (pieces : List (List ClientMsg)), (first = [] ∨ ∃ q, s.tx = some q ∧ first <+: q) ∧ pieces.length = js.length ∧
        (jobs sp js s).2.durable = s.durable ++ first ++ pieces.flatten ∧
        ∀ p ∈ (js.zip (jobs sp js s).1).zip pieces, p.2 <+: changes p.1.1.bodyScript p.1.1.body ∧
          (p.1.2 = true → p.2 = changes p.1.1.bodyScript p.1.1.body) ∧ (p.1.2 = false → p.1.1.dropped = true → p.2 = []) := by
    intro js
    induction js with
    | nil => intro s _ _; exact ⟨[], [], .inl rfl, rfl, by simp [jobs], by simp⟩
    | cons j js ih =>
      intro s hs hj
      obtain ⟨h1, h2, h3⟩ := C51_exact (hj j (.head _)) hs
      obtain ⟨first, pieces, h4, h5, h6, h7⟩ := ih _ h1 (fun j hm => hj j (.tail _ hm))
      have none_first : (j.on sp s).2.tx = none → first = [] := by
        intro h
        rcases h4 with h4 | ⟨q, h4, -⟩
        · exact h4
        · rw [h] at h4; cases h4
      rcases h3 with ⟨-, hd, ht⟩ | ⟨-, hc, hd, ht⟩
      · have hL : s.tx.getD [] = [] ∨ ∃ q, s.tx = some q ∧ s.tx.getD [] <+: q := by
          cases s.tx with
          | none => exact .inl rfl
          | some q => exact .inr ⟨q, rfl, List.prefix_refl _⟩
        cases hc : (j.on sp s).1 with
        | true =>
          have hf := none_first (h2 (.inl hc))
          refine ⟨s.tx.getD [], changes j.bodyScript j.body :: pieces, hL, by simp [h5], ?_, ?_⟩
          · simp only [jobs]; rw [h6, hd, hc, hf]; simp
          · simp only [jobs, List.zip_cons_cons, List.mem_cons, forall_eq_or_imp]
            exact ⟨⟨List.prefix_refl _, by simp, by simp [hc]⟩, h7⟩
        | false =>
          refine ⟨s.tx.getD [], first :: pieces, hL, by simp [h5], ?_, ?_⟩
          · simp only [jobs]; rw [h6, hd, hc]; simp
          · simp only [jobs, List.zip_cons_cons, List.mem_cons, forall_eq_or_imp]
            refine ⟨⟨?_, by simp [hc], fun _ h => none_first (h2 (.inr h))⟩, h7⟩
            rcases h4 with h4 | ⟨q, h4, h8⟩
            · rw [h4]; exact List.nil_prefix
            · rcases ht with ht | ⟨p, ht, h9⟩
              · rw [ht] at h4; cases h4
              · rw [ht] at h4; cases h4; exact h8.trans h9
      · refine ⟨first, [] :: pieces, ?_, by simp [h5], ?_, ?_⟩
        · rcases h4 with h4 | ⟨q, h4, h8⟩
          · exact .inl h4
          · rcases ht with ht | ⟨p, q', ht, h9, h10⟩
            · rw [ht] at h4; cases h4
            · rw [ht] at h4; cases h4; exact .inr ⟨q', h9, h8.trans h10⟩
        · simp only [jobs]; rw [h6, hd]; simp
        · simp only [jobs, List.zip_cons_cons, List.mem_cons, forall_eq_or_imp]
          exact ⟨⟨List.nil_prefix, by simp [hc], by simp⟩, h7⟩
  obtain ⟨first, pieces, h1, h2, h3, h4⟩ := key js s hs.1 hj
  have : first = [] := by
    rcases h1 with h1 | ⟨q, h1, -⟩
    · exact h1
    · rw [hs.2] at h1; cases h1
  exact ⟨pieces, h2, by rw [h3, this, List.append_nil], h4⟩

/-- The second unit of work of `C51_wrong`: its START TRANSACTION is answered OK, and makes durable what the first one
left. -/
example : ∃ s : Session, ((jobEx 3 false [deleteEx, insertEx]).on true freshSession).2 = s ∧ s.blocks = [] ∧ s.tx = some [deleteEx] ∧
    Started true (jobEx 9 false [deleteEx, insertEx]) s ∧
    ((jobEx 2 false [deleteEx, insertEx]).on true s).1 = false ∧ ((jobEx 2 false [deleteEx, insertEx]).on true s).2.durable = [deleteEx] :=
  ⟨_, rfl, rfl, rfl, by unfold Started; decide +kernel, by decide, rfl⟩

/-- The transaction is not started: nothing becomes durable. -/
example : ∃ s : Session, ((jobEx 3 false [deleteEx, insertEx]).on true freshSession).2 = s ∧ ¬Started true (jobEx 1 false [deleteEx]) s ∧
    ((jobEx 1 false [deleteEx]).on true s).2.durable = [] :=
  ⟨_, rfl, by unfold Started; decide +kernel, rfl⟩

end Verif.Props
