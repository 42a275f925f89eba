import Verif.Spec.Remote
import Verif.Proof.Answer
import Verif.Proof.Plugin
/-! What the client learns of what a server did. -/
namespace Verif.Proof
open Verif.Go Verif.Spec Verif.Model Verif.Props

theorem answered_more {cd : Codec} {p rest : Bytes} {rr : Response} (h : Answered cd p rr rest) (t : Bytes) :
    Answered cd (p ++ t) rr (rest ++ t) := by
  obtain ⟨c, rfl, _, h⟩ := answered_split h
  rw [List.append_assoc]
  exact h _

theorem answered_det {cd : Codec} {p rest rest' : Bytes} {rr rr' : Response} (h : Answered cd p rr rest) (h' : Answered cd p rr' rest') :
    rr = rr' ∧ rest = rest' := by
  have := (answered_read cd 0 0 .eof h).symm.trans (answered_read cd 0 0 .eof h')
  simp only [Prod.mk.injEq] at this
  exact ⟨this.2.1, this.1⟩

theorem answeredAll_more {cd : Codec} {cts : List UInt8} {p rest : Bytes} {rrs : List Response} (h : AnsweredAll cd cts p rrs rest) (t : Bytes) :
    AnsweredAll cd cts (p ++ t) rrs (rest ++ t) := by
  induction h with
  | nil => exact .nil _
  | cons h he _ ih => exact .cons (answered_more h t) he ih

theorem stands_ok {a : Answer} {rr : Response} (h : Stands a rr) : rr = .ok ↔ a = .ok := by
  cases h <;> simp

/-- The client reads as many answers as it has sent messages: then they are the server's, and the server gave no fewer,
unless it goes on. -/
theorem replies_seen {cd : Codec} {as : List Answer} {rrs' : List Response} {p rest : Bytes} (h : Replies cd as rrs' p rest) :
    ∀ {cts : List UInt8} {rrs : List Response} {rest' : Bytes}, AnsweredAll cd cts p rrs rest' →
      (cts.length ≤ as.length ∨ ∃ rr r, Answered cd rest rr r) ∧
      (cts.length = as.length → rrs = rrs') := by
  induction h with
  | nil =>
    intro cts rrs rest' h
    cases h with
    | nil => exact ⟨.inl (Nat.le_refl _), fun _ => rfl⟩
    | cons h _ _ => exact ⟨.inr ⟨_, _, h⟩, fun h => by cases h⟩
  | cons h ha hs ih =>
    intro cts rrs rest' h'
    cases h' with
    | nil => exact ⟨.inl (by simp), fun h => by cases h⟩
    | cons h' _ hs' =>
      obtain ⟨rfl, rfl⟩ := answered_det h h'
      obtain ⟨i1, i2⟩ := ih hs'
      exact ⟨i1.imp (fun h => by simpa using h) id, fun h => by rw [i2 (by simpa using h)]⟩

theorem replies_ok {cd : Codec} {as : List Answer} {rrs : List Response} {p rest : Bytes} (h : Replies cd as rrs p rest) :
    (∀ r ∈ rrs, r = .ok) ↔ ∀ a ∈ as, a = .ok := by
  induction h with
  | nil => simp
  | cons _ h _ ih => simp only [List.mem_cons, forall_eq_or_imp, ih, stands_ok h]

/-- If the client has an answer for each of its messages, the server has executed all of them and the answers are the
server's. -/
theorem serves_seen {cd : Codec} {sp : Bool} {f : Nat → Fate} {s s' : Session} {b p rest : Bytes} {ms : List ClientMsg} {cts : List UInt8}
    {rrs : List Response} (h : Serves cd sp f s b p s') (hd : decodeStream b = some ms) (hl : cts.length = ms.length)
    (ha : AnsweredAll cd cts p rrs rest) :
    ((∀ r ∈ rrs, r = .ok) ↔ ∀ a ∈ (serve sp f ms s).1, a = .ok) ∧
    (s' = (serve sp f ms s).2 ∨ s' = (serve sp f ms s).2.drop) := by
  cases h with
  | done hd' hr =>
    rw [hd] at hd'
    cases hd'
    obtain ⟨_, h2⟩ := replies_seen hr ha
    rw [h2 (by rw [serve_length, hl])]
    exact ⟨replies_ok hr, .inl rfl⟩
  | @lost ms' rrs' k full rest' hd' hr hn hp =>
    rw [hd] at hd'
    cases hd'
    obtain ⟨t, rfl⟩ := hp
    obtain ⟨h1, h2⟩ := replies_seen hr (answeredAll_more ha t)
    rcases h1 with h1 | ⟨rr, r, h1⟩
    · rw [serve_length, hl, List.length_take] at h1
      have : ms.take k = ms := List.take_of_length_le (by omega)
      rw [this] at hr h2 ⊢
      rw [h2 (by rw [serve_length, hl])]
      exact ⟨replies_ok hr, .inr rfl⟩
    · exact absurd h1 (hn rr r)

theorem stream_frames {bs : Bytes} {ms : List ClientMsg} (h : decodeStream bs = some ms) :
    ∃ fs, readFrames bs = some fs ∧ fs.length = ms.length := by
  rw [decodeStream, Option.bind_eq_some_iff] at h
  obtain ⟨fs, hfs, h⟩ := h
  refine ⟨fs, hfs, ?_⟩
  clear hfs
  induction fs generalizing ms with
  | nil => simp only [List.foldr_nil, Option.some.injEq] at h; subst h; rfl
  | cons x fs ih =>
    simp only [List.foldr_cons] at h
    split at h
    · rename_i h2
      simp only [Option.some.injEq] at h
      subst h
      simp [ih h2]
    · cases h

/-! ### a unit of work cut short -/

theorem openBlocks_take {d e : Nat} {ms : List ClientMsg} (h : openBlocks d ms = some e) (k : Nat) : ∃ e', openBlocks d (ms.take k) = some e' := by
  rw [← List.take_append_drop k ms, openBlocks_append, Option.bind_eq_some_iff] at h
  obtain ⟨a, h, _⟩ := h
  exact ⟨a, h⟩

theorem steady_take : ∀ {ms : List ClientMsg} {f : Nat → Fate}, Steady f ms → ∀ k, Steady f (ms.take k) := by
  intro ms
  induction ms with
  | nil => intro f h k; simpa using h
  | cons m ms ih =>
    intro f h k
    cases k with
    | zero => trivial
    | succ k => exact ⟨h.1, ih h.2 k⟩

end Verif.Proof
