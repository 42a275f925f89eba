import Verif.Spec.Plugin
import Verif.Props.Units
/-! Expectation blocks and transactions on the server. -/
namespace Verif.Proof
open Verif.Go Verif.Spec Verif.Model Verif.Props

/-- `d + 1` blocks with no_error on top of `rest`; a block inside a failed one has failed. -/
def Inside (rest : List Block) (d : Nat) (s : Session) : Prop :=
  ∃ inner : List Block, inner.length = d + 1 ∧ s.blocks = inner ++ rest ∧ (∀ x ∈ inner, x.noError = true) ∧
    inner.Pairwise fun a b => b.failed = true → a.failed = true

theorem Inside.note {rest : List Block} {d : Nat} {s : Session} (h : Inside rest d s) :
    Inside rest d s.note ∧ s.note.failed = true := by
  obtain ⟨inner, hl, hb, hn, hp⟩ := h
  cases inner with
  | nil => cases hl
  | cons x inner =>
    rw [List.cons_append] at hb
    have hx := hn x (.head _)
    refine ⟨⟨{ x with failed := x.failed || x.noError } :: inner, hl, by simp [Session.note, hb], ?_, ?_⟩, by simp [Session.note, Session.failed, hb, hx]⟩
    · intro y hy
      rcases List.mem_cons.mp hy with rfl | hy
      · exact hx
      · exact hn y (.tail _ hy)
    · rw [List.pairwise_cons] at hp ⊢
      exact ⟨fun y hy _ => by simp [hx], hp.2⟩

theorem noErrorCond_one (i : Bool) : noErrorCond i [(1, ascii "1")] = true := by cases i <;> decide

theorem effect_blocks (s : Session) (m : ClientMsg) (k : Kind) : (s.effect m k).blocks = s.blocks := by
  cases k <;> simp [Session.effect]
  cases s.tx <;> rfl

theorem Inside.congr {rest : List Block} {d : Nat} {s t : Session} (h : Inside rest d s) (e : t.blocks = s.blocks) :
    Inside rest d t := by rw [Inside, e]; exact h

theorem failed_congr {s t : Session} (e : t.blocks = s.blocks) : t.failed = s.failed := by rw [Session.failed, e]; rfl

/-- what becomes of a message that is not about blocks -/
theorem serveOne_plain {sp : Bool} {f : Fate} {m : ClientMsg} (h : isBlock m = false) (s : Session) :
    serveOne sp f m s = if s.failed then (.skipped, s)
      else match f.outcome with
        | .success => (.ok, s.effect m (f.of m))
        | .error => (.failed, s.note)
        | .rolledBack => (.failed, { s with tx := none }.note) := by
  cases m <;> first | rfl | cases h

theorem serveOne_open (sp : Bool) (f : Fate) (op : Nat) (s : Session) :
    serveOne sp f (.expectOpen op [(1, ascii "1")]) s = (if s.failed then .failed else .ok,
      { s with blocks := ⟨true, s.failed⟩ :: s.blocks }) := by
  simp only [serveOne, noErrorCond_one]
  cases s.failed <;> rfl

theorem serveOne_inside {sp : Bool} {f : Fate} {m : ClientMsg} {ms : List ClientMsg} {rest : List Block} {d e : Nat}
    {s : Session} (h : Inside rest d s) (ho : openBlocks d (m :: ms) = some e)
    (hn : ∀ op conds, m = .expectOpen op conds → conds = [(1, ascii "1")]) (hs : sp = true ∨ isBlock m = false) :
    ∃ d', openBlocks d' ms = some e ∧ Inside rest d' (serveOne sp f m s).2 ∧
      (serveOne sp f m s).2.failed = (s.failed || decide ((serveOne sp f m s).1 ≠ .ok)) := by
  cases hm : isBlock m with
  | false =>
    refine ⟨d, ?_, ?_⟩
    · rw [show m :: ms = [m] ++ ms from rfl, openBlocks_append, openBlocks_plain (by simpa using hm)] at ho
      exact ho
    · rw [serveOne_plain hm]
      cases hf : s.failed with
      | true => exact ⟨by simpa using h, by simp [hf]⟩
      | false =>
        cases f.outcome with
        | success => exact ⟨h.congr (effect_blocks ..), by simpa using (failed_congr (effect_blocks ..)).trans hf⟩
        | error => exact ⟨h.note.1, by simpa using h.note.2⟩
        | rolledBack =>
          have h := (h.congr (t := { s with tx := none }) rfl).note
          exact ⟨h.1, by simpa using h.2⟩
  | true =>
    have hs : sp = true := hs.resolve_right (by simp [hm])
    subst hs
    obtain ⟨inner, hl, hb, hni, hp⟩ := h
    cases m with
    | expectOpen op conds =>
      cases hn _ _ rfl
      refine ⟨d + 1, ho, ?_⟩
      rw [serveOne_open]
      cases hf : s.failed with
      | true =>
        refine ⟨⟨⟨true, true⟩ :: inner, by simp [hl], ?_, ?_, ?_⟩, ?_⟩
        · simp [hb]
        · simpa using hni
        · exact List.pairwise_cons.mpr ⟨fun _ _ _ => rfl, hp⟩
        · simp [Session.failed]
      | false =>
        refine ⟨⟨⟨true, false⟩ :: inner, by simp [hl], ?_, ?_, ?_⟩, ?_⟩
        · simp [hb]
        · simpa using hni
        · refine List.pairwise_cons.mpr ⟨fun y hy hy' => ?_, hp⟩
          cases inner with
          | nil => cases hy
          | cons x inner =>
            have hx : x.failed = false := by simpa [Session.failed, hb] using hf
            rcases List.mem_cons.mp hy with rfl | hy
            · rw [hx] at hy'; cases hy'
            · rw [← hx]; exact ((List.pairwise_cons.mp hp).1 y hy hy')
        · simp [Session.failed]
    | expectClose =>
      cases d with
      | zero => cases ho
      | succ d =>
        refine ⟨d, ho, ?_⟩
        cases inner with
        | nil => cases hl
        | cons x inner =>
          have hI : Inside rest d { s with blocks := inner ++ rest } :=
            ⟨inner, by simpa using hl, rfl, fun y hy => hni y (.tail _ hy), (List.pairwise_cons.mp hp).2⟩
          have hf : s.failed = x.failed := by simp [Session.failed, hb]
          cases hx : x.failed with
          | true =>
            have : serveOne true f .expectClose s = (.failed, { s with blocks := inner ++ rest }.note) := by
              simp [serveOne, hb, hx]
            rw [this]
            exact ⟨hI.note.1, by simpa using hI.note.2⟩
          | false =>
            have : serveOne true f .expectClose s = (.ok, { s with blocks := inner ++ rest }) := by
              simp [serveOne, hb, hx]
            rw [this]
            refine ⟨hI, ?_⟩
            rw [hf, hx]
            cases inner with
            | nil => cases hl
            | cons y inner =>
              show y.failed = false
              have := (List.pairwise_cons.mp hp).1 y (.head _)
              cases hy : y.failed with
              | false => rfl
              | true => rw [this hy] at hx; cases hx
    | _ => cases hm

theorem serve_cons {sp : Bool} {f : Nat → Fate} {m : ClientMsg} {ms : List ClientMsg} {s : Session} :
    serve sp f (m :: ms) s = ((serveOne sp (f 0) m s).1 :: (serve sp (fun i => f (i + 1)) ms (serveOne sp (f 0) m s).2).1,
      (serve sp (fun i => f (i + 1)) ms (serveOne sp (f 0) m s).2).2) := rfl

theorem serve_append {sp : Bool} (a c : List ClientMsg) : ∀ (f : Nat → Fate) (s : Session),
    serve sp f (a ++ c) s = ((serve sp f a s).1 ++ (serve sp (fun i => f (a.length + i)) c (serve sp f a s).2).1,
      (serve sp (fun i => f (a.length + i)) c (serve sp f a s).2).2) := by
  induction a with
  | nil => intro f s; simp [serve]
  | cons m a ih =>
    intro f s
    simp only [List.cons_append, serve_cons, ih, List.length_cons]
    simp only [Nat.add_right_comm _ 1]

theorem serve_length {sp : Bool} (ms : List ClientMsg) : ∀ (f : Nat → Fate) (s : Session), (serve sp f ms s).1.length = ms.length := by
  induction ms with
  | nil => intro f s; rfl
  | cons m ms ih => intro f s; simp [serve_cons, ih]

theorem serve_inside {sp : Bool} {rest : List Block} {e : Nat} (ms : List ClientMsg) : ∀ (f : Nat → Fate) (s : Session) (d : Nat),
    Inside rest d s → openBlocks d ms = some e → NoErrorBlocks ms → (sp = true ∨ ∀ m ∈ ms, isBlock m = false) →
    Inside rest e (serve sp f ms s).2 ∧
      (serve sp f ms s).2.failed = (s.failed || (serve sp f ms s).1.any (fun a => decide (a ≠ .ok))) := by
  induction ms with
  | nil => intro f s d hi ho _ _; cases ho; exact ⟨hi, by simp [serve]⟩
  | cons m ms ih =>
    intro f s d hi ho hn hs
    obtain ⟨d', h1, h2, h3⟩ := serveOne_inside (f := f 0) hi ho (fun op conds h => hn op conds (h ▸ .head _))
      (hs.imp id fun h => h m (.head _))
    obtain ⟨h4, h5⟩ := ih (fun i => f (i + 1)) _ d' h2 h1 (fun op conds h => hn op conds (.tail _ h))
      (hs.imp id fun h => fun m hm => h m (.tail _ hm))
    exact ⟨h4, by rw [serve_cons]; simp only [h5, h3, List.any_cons, Bool.or_assoc]⟩

/-- Inside a block: the transaction while nothing has failed. -/
def Eff (D acc : List ClientMsg) (s : Session) : Prop := s.durable = D ∧ (s.failed = false → s.tx = some acc)

theorem note_durable (s : Session) : s.note.durable = s.durable := by
  unfold Session.note; split <;> rfl

theorem note_tx (s : Session) : s.note.tx = s.tx := by
  unfold Session.note; split <;> rfl

theorem serveOne_eff {sp : Bool} {f : Fate} {m : ClientMsg} {ms : List ClientMsg} {rest : List Block} {d e : Nat}
    {s : Session} {D acc : List ClientMsg} (h : Inside rest d s) (ho : openBlocks d (m :: ms) = some e)
    (hn : ∀ op conds, m = .expectOpen op conds → conds = [(1, ascii "1")]) (hs : sp = true ∨ isBlock m = false)
    (hk : f.of m = .change ∨ f.of m = .session) (he : Eff D acc s) :
    Eff D (acc ++ if f.of m = .change then [m] else []) (serveOne sp f m s).2 := by
  obtain ⟨d', h1, h2, h3⟩ := serveOne_inside (f := f) h ho hn hs
  cases hm : isBlock m with
  | false =>
    rw [serveOne_plain hm] at h3 ⊢
    cases hf : s.failed with
    | true => simp only [if_true]; exact ⟨he.1, fun h => by rw [hf] at h; cases h⟩
    | false =>
      simp only [hf, Bool.false_or] at h3 ⊢
      cases ho : f.outcome with
      | success =>
        simp only [Bool.false_eq_true, if_false]
        have ht := he.2 hf
        rcases hk with hk | hk
        · rw [hk]; simp [Session.effect, ht, Eff, he.1]
        · rw [hk]; simpa [Session.effect] using he
      | error =>
        simp only [ho, Bool.false_eq_true, if_false] at h3 ⊢
        exact ⟨(note_durable _).trans he.1, fun h => by rw [h3] at h; simp at h⟩
      | rolledBack =>
        simp only [ho, Bool.false_eq_true, if_false] at h3 ⊢
        exact ⟨(note_durable _).trans he.1, fun h => by rw [h3] at h; simp at h⟩
  | true =>
    have hno : (if f.of m = .change then [m] else ([] : List ClientMsg)) = [] := by
      cases m <;> first | (simp [Fate.of, fixedKind]; done) | cases hm
    rw [hno, List.append_nil]
    have hd : (serveOne sp f m s).2.durable = s.durable ∧ (serveOne sp f m s).2.tx = s.tx := by
      cases m with
      | expectOpen op conds => simp only [serveOne]; split <;> exact ⟨rfl, rfl⟩
      | expectClose =>
        simp only [serveOne]
        split
        · exact ⟨rfl, rfl⟩
        · split
          · split
            · exact ⟨note_durable _, note_tx _⟩
            · exact ⟨rfl, rfl⟩
          · exact ⟨rfl, rfl⟩
      | _ => cases hm
    refine ⟨hd.1.trans he.1, fun h => hd.2.trans (he.2 ?_)⟩
    rw [h3, Bool.or_eq_false_iff] at h
    exact h.1

theorem serve_eff {sp : Bool} {rest : List Block} {e : Nat} {D : List ClientMsg} (ms : List ClientMsg) :
    ∀ (f : Nat → Fate) (s : Session) (d : Nat) (acc : List ClientMsg),
    Inside rest d s → openBlocks d ms = some e → NoErrorBlocks ms → (sp = true ∨ ∀ m ∈ ms, isBlock m = false) →
    Steady f ms → Eff D acc s → Eff D (acc ++ changes f ms) (serve sp f ms s).2 := by
  induction ms with
  | nil => intro f s d acc _ _ _ _ _ he; simpa [serve, changes] using he
  | cons m ms ih =>
    intro f s d acc hi ho hn hs hk he
    have hn' : ∀ op conds, m = .expectOpen op conds → conds = [(1, ascii "1")] :=
      fun op conds h => hn op conds (h ▸ List.Mem.head _)
    obtain ⟨d', h1, h2, _⟩ := serveOne_inside (f := f 0) hi ho hn' (hs.imp id fun h => h m (.head _))
    have h5 := serveOne_eff (f := f 0) hi ho hn' (hs.imp id fun h => h m (.head _)) hk.1 he
    have := ih (fun i => f (i + 1)) _ d' _ h2 h1 (fun op conds h => hn op conds (.tail _ h))
      (hs.imp id fun h => fun m hm => h m (.tail _ hm)) hk.2 h5
    rw [serve_cons, changes, ← List.append_assoc]
    exact this

/-- The opening of a transaction and COMMIT are plain statements of a fixed kind. -/
theorem opening_kinds {n : Nat} {ss : List String} (h : txOpening n = some ss) :
    ∃ pre last, ss = pre ++ [last] ∧ (∀ x ∈ pre, fixedKind (sql x) = some .session) ∧ fixedKind (sql last) = some .start := by
  unfold txOpening at h
  split at h <;> cases h
  · exact ⟨[], _, rfl, by simp, by decide⟩
  all_goals first
    | exact ⟨[_], _, rfl, by simp only [List.mem_singleton, forall_eq]; decide, by decide⟩
    | exact ⟨[], _, rfl, by simp, by decide⟩

theorem commit_kind : fixedKind (sql "COMMIT") = some .commit := by decide

/-- The state before COMMIT, the answer to COMMIT and the answer to the end of the block. -/
theorem serve_guarded {sp : Bool} {f : Nat → Fate} {op : Nat} {ss : List String} {ms : List ClientMsg} {s : Session}
    (hb : openBlocks 0 ms = some 0) (hn : NoErrorBlocks ms) (hs : sp = true ∨ ∀ m ∈ ms, isBlock m = false) :
    let n := 1 + (ss.length + ms.length)
    let r := serve sp (fun i => f (i + 1)) (ss.map sql ++ ms) { s with blocks := ⟨true, s.failed⟩ :: s.blocks }
    let c := serveOne sp (f n) (sql "COMMIT") r.2
    let d := serveOne sp (f (n + 1)) .expectClose c.2
    let as := (if s.failed then Answer.failed else .ok) :: r.1
    serve sp f (guarded op ss ms) s = (as ++ [c.1, d.1], d.2) ∧ as.length = n ∧
    Inside s.blocks 0 r.2 ∧ r.2.failed = as.any (fun a => decide (a ≠ .ok)) := by
  intro n r c d as
  have h0 : Inside s.blocks 0 { s with blocks := ⟨true, s.failed⟩ :: s.blocks } :=
    ⟨[⟨true, s.failed⟩], rfl, rfl, by simp, by simp⟩
  obtain ⟨h1, h2⟩ := serve_inside (e := 0) (sp := sp) (ss.map sql ++ ms) (fun i => f (i + 1)) _ 0 h0
    (by rw [openBlocks_append, openBlocks_plain (sql_plain _)]; exact hb)
    ((plain_noError (sql_plain _)).append hn)
    (hs.imp id fun h m hm => (List.mem_append.mp hm).elim (sql_plain _ m) (h m))
  refine ⟨?_, ?_, h1, ?_⟩
  · have e : guarded op ss ms = [.expectOpen op [(1, ascii "1")]] ++ ((ss.map sql ++ ms) ++ ([sql "COMMIT"] ++ [.expectClose])) := by
      simp [guarded]
    rw [e, List.singleton_append, serve_cons, serveOne_open, serve_append, List.singleton_append, serve_cons, serve_cons]
    simp only [serve, List.length_append, List.length_map, Nat.add_zero, as, c, d, r, List.cons_append]
    have e1 : (ss.length + ms.length) + 1 = n := Nat.add_comm ..
    rw [e1]
  · simp [as, n, r, serve_length]; omega
  · rw [h2, List.any_cons]
    congr 1
    cases hf : s.failed <;> simp [Session.failed]

end Verif.Proof
