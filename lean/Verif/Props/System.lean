import Verif.Spec.System
import Verif.Props.PoolConn
import Verif.Props.Nested
/-! The whole system: programs, pool, connections, servers. -/
namespace Verif.Props
open Verif.Go Verif.Model Verif.Spec Verif.Proof Verif.Model.PoolConn Verif.Spec.PoolConn Verif.Proof.PoolConn

/-! ### a unit of work cut short on a session with leftovers -/

/-- from message `k` on all that is executed fails -/
def cutAt (k : Nat) (f : Nat → Fate) : Nat → Fate := fun i => if i < k then f i else { f i with outcome := .error }

theorem cutAt_zero (f : Nat → Fate) (i : Nat) : (cutAt 0 f i).outcome = .error := by simp [cutAt]

theorem cutAt_succ (k : Nat) (f : Nat → Fate) : (fun i => cutAt (k + 1) f (i + 1)) = cutAt k fun i => f (i + 1) := by
  funext i; simp [cutAt]

theorem cutAt_of (k : Nat) (f : Nat → Fate) (i : Nat) (m : ClientMsg) : (cutAt k f i).of m = (f i).of m := by
  simp only [cutAt, Fate.of]; split <;> rfl

theorem failing_keeps {sp : Bool} : ∀ (ms : List ClientMsg) (f : Nat → Fate) (s : Session), (∀ i, (f i).outcome = .error) →
    (serve sp f ms s).2.durable = s.durable
  | [], _, _, _ => rfl
  | m :: ms, f, s, h => by
    rw [serve_cons]
    dsimp only
    rw [failing_keeps ms _ _ fun i => h (i + 1)]
    cases hb : isBlock m with
    | true => exact (block_keeps hb).1
    | false =>
      rw [serveOne_plain hb]
      split
      · rfl
      · rw [h 0]; exact note_durable _

theorem serve_cut {sp : Bool} : ∀ (ms : List ClientMsg) (f : Nat → Fate) (s : Session) (k : Nat),
    (serve sp f (ms.take k) s).2.durable = (serve sp (cutAt k f) ms s).2.durable
  | [], _, _, k => by simp [serve]
  | m :: ms, f, s, 0 => by
    rw [failing_keeps _ _ _ (cutAt_zero f)]; rfl
  | m :: ms, f, s, k + 1 => by
    rw [List.take_succ_cons, serve_cons, serve_cons, cutAt_succ]
    have : cutAt (k + 1) f 0 = f 0 := by simp [cutAt]
    rw [this]
    exact serve_cut ms _ _ k

theorem steady_cut {f f' : Nat → Fate} (ms : List ClientMsg) (h : ∀ i m, (f' i).of m = (f i).of m) (hs : Steady f ms) : Steady f' ms := by
  induction ms generalizing f f' with
  | nil => trivial
  | cons m ms ih => exact ⟨by rw [h]; exact hs.1, ih (fun i m => h (i + 1) m) hs.2⟩

theorem changes_cut {f f' : Nat → Fate} (ms : List ClientMsg) (h : ∀ i m, (f' i).of m = (f i).of m) : changes f' ms = changes f ms := by
  induction ms generalizing f f' with
  | nil => rfl
  | cons m ms ih => rw [changes, changes, h, ih fun i m => h (i + 1) m]

/-- A unit of work cut short: what was left becomes durable or not, then all of its changes or none. -/
theorem cut_holds {sp : Bool} {j : Job} {s : Session} (hj : JobOK sp j) (hs : s.blocks = []) (k : Nat) :
    ∃ first, (first = [] ∨ ∃ q, s.tx = some q ∧ first = q) ∧
    ((serve sp j.script ((guarded j.op j.opening j.body).take k) s).2.durable = s.durable ++ first ∨
     (serve sp j.script ((guarded j.op j.opening j.body).take k) s).2.durable = s.durable ++ first ++ changes j.bodyScript j.body) := by
  let j' : Job := { j with script := cutAt k j.script }
  have hof : ∀ i m, (j'.bodyScript i).of m = (j.bodyScript i).of m := fun i m => cutAt_of k j.script _ m
  have hj' : JobOK sp j' := ⟨hj.1, hj.2.1, hj.2.2.1, steady_cut _ hof hj.2.2.2.1, hj.2.2.2.2⟩
  have hd : (serve sp j.script ((guarded j.op j.opening j.body).take k) s).2.durable = (j'.on sp s).2.durable := by
    rw [serve_cut]; simp only [Job.on]; split <;> rfl
  rw [hd]
  obtain ⟨-, -, h⟩ := C51_exact hj' hs
  rcases h with ⟨-, h, -⟩ | ⟨-, -, h, -⟩
  · refine ⟨s.tx.getD [], ?_, ?_⟩
    · cases s.tx with
      | none => exact .inl rfl
      | some q => exact .inr ⟨q, rfl, rfl⟩
    · rw [h, changes_cut _ hof]
      split
      · exact .inr rfl
      · exact .inl (by simp)
  · exact ⟨[], .inl rfl, .inl (by rw [h]; simp)⟩

/-! ### what the client hears -/

/-- The stream `p` is heard like this: complete answers to each request, except perhaps the last. -/
inductive Heard (cd : Codec) (req : Nat → Bytes) : Bytes → List (Nat × Option (List Response)) → Prop where
  | nil (p : Bytes) : Heard cd req p []
  | failed (p : Bytes) (t : Nat) : Heard cd req p [(t, none)]
  | cons {p p' : Bytes} {t : Nat} {rs : List Response} {fs : List (UInt8 × Bytes)} {hist : List (Nat × Option (List Response))}
      (hf : readFrames (req t) = some fs) (ha : AnsweredAll cd (fs.map Prod.fst) p rs p') (h : Heard cd req p' hist) :
      Heard cd req p ((t, some rs) :: hist)

variable {cd : Codec} {k : Connector} {req : Nat → Bytes} {n : Nat} {conn : Nat → World × Conn} {l : List Act} {s : State}

theorem exchange_heard {p q : Bytes} {hist : List (Nat × List Response)} {tail : List (Nat × Option (List Response))} (h : Exchange cd req p hist q)
    (ht : tail = [] ∨ ∃ t, tail = [(t, none)]) : Heard cd req p (hist.map (fun y => (y.1, some y.2)) ++ tail) := by
  induction h with
  | nil => 
    rcases ht with rfl | ⟨t, rfl⟩
    · exact .nil _
    · exact .failed _ _
  | cons hf ha _ ih => exact .cons hf ha ih

theorem ended_snoc (c : Nat) (l : List Act) (a : Act) : ended c (l ++ [a]) = ended c l ++ ended c [a] := by simp [ended]

/-- Only the last call on a connection can have failed. -/
theorem ended_form (h : Run cd k req (init n conn) l s) (c : Nat) :
    ∃ tail, ended c l = (served c l).map (fun y => (y.1, some y.2)) ++ tail ∧ (¬Failed c l → tail = []) ∧ (tail = [] ∨ ∃ t, tail = [(t, none)]) := by
  induction h with
  | nil => exact ⟨[], rfl, fun _ => rfl, .inl rfl⟩
  | @snoc s s' l a hr hs ih =>
    obtain ⟨tail, i1, i2, i3⟩ := ih
    by_cases ha : ∃ t rs e, a = .finish t c rs e
    · obtain ⟨t, rs, e, rfl⟩ := ha
      have hnf : ¬Failed c l := by
        obtain ⟨st, st', g1, g2⟩ := stages hr hs c
        have hst : st = .busy t := by
          simp only [Act.ev, Spec.Pool.advance, if_true] at g2
          split at g2
          · assumption
          · cases g2
        rintro ⟨t', rs', e', hm⟩
        exact stage_notFailed (hst ▸ g1) (t' := t') (mem_ev hm)
      obtain rfl := i2 hnf
      cases e with
      | none =>
        refine ⟨[], ?_, fun _ => rfl, .inl rfl⟩
        rw [ended_snoc, served_snoc, i1]
        simp [ended, served]
      | some e =>
        refine ⟨[(t, none)], ?_, fun hf => absurd ⟨t, rs, e, by simp⟩ hf, .inr ⟨t, rfl⟩⟩
        rw [ended_snoc, served_snoc, i1]
        simp [ended, served]
    · refine ⟨tail, ?_, fun hf => i2 fun ⟨t, rs, e, hm⟩ => hf ⟨t, rs, e, List.mem_append_left _ hm⟩, i3⟩
      have e1 : ended c [a] = [] := by
        cases a <;> simp [ended]
        rintro rfl
        exact ha ⟨_, _, _, rfl⟩
      have e2 : served c [a] = [] := by
        cases a with
        | finish t c' rs e =>
          cases e <;> simp [served]
          rintro rfl
          exact ha ⟨_, _, _, rfl⟩
        | _ => simp [served]
      rw [ended_snoc, served_snoc, e1, e2, i1]
      simp

/-- The client hears what the server says. -/
theorem replies_heard {as : List Answer} {rrs : List Response} {p p' : Bytes} (h : Replies cd as rrs p p') :
    ∀ {cts : List UInt8} {rs : List Response} {q : Bytes}, AnsweredAll cd cts p rs q → cts.length = as.length → rs = rrs ∧ q = p' := by
  induction h with
  | nil =>
    intro cts rs q h hl
    cases h with
    | nil => exact ⟨rfl, rfl⟩
    | cons => simp at hl
  | cons h _ _ ih =>
    intro cts rs q h' hl
    cases h' with
    | nil => simp at hl
    | cons h1 _ h2 =>
      obtain ⟨rfl, rfl⟩ := answered_det h h1
      obtain ⟨rfl, rfl⟩ := ih h2 (by simpa using hl)
      exact ⟨rfl, rfl⟩

/-! ### what becomes durable -/

/-- What is durable, `piece`, of all changes that a call asks for, if `r` is what its `conn.Send` returned. -/
def Kept (r : Option (List Response)) (last : Prop) (all piece : List ClientMsg) : Prop :=
  piece <+: all ∧ (∀ rs, r = some rs → (∀ x ∈ rs, x = .ok) → piece = all) ∧ (r = none → piece = [] ∨ piece = all) ∧
  (∀ rs, r = some rs → (∃ x ∈ rs, x ≠ .ok) → last → piece = [])

theorem committed_iff {sp : Bool} {j : Job} (hj : JobOK sp j) (s : Session) :
    (j.on sp s).1 = true ↔ ∀ a ∈ (serve sp j.script (guarded j.op j.opening j.body) s).1, a = .ok := by
  obtain ⟨-, h1, h2, -, hsp⟩ := hj
  obtain ⟨before, commit, close, a1, a2, a3, a4⟩ := commitGuarded (f := j.script) (op := j.op) (ss := j.opening) (s := s) h1 h2 hsp
  have e : (serve sp j.script (guarded j.op j.opening j.body) s).1[1 + (j.opening.length + j.body.length)]? = some commit := by
    rw [a1, List.getElem?_append_right (by omega), a2, Nat.sub_self]
    rfl
  simp only [Job.on]
  rw [e, a1]
  simp only [Option.some.injEq, decide_eq_true_eq, List.mem_append, List.mem_cons, List.not_mem_nil, or_false]
  constructor
  · rintro hc a (ha | rfl | rfl)
    · exact a3.mp (by rw [hc]; simp) a ha
    · exact hc
    · exact a4.mpr hc
  · exact fun h => h commit (.inr (.inl rfl))

theorem on_durable {sp : Bool} {j : Job} {s : Session} : (j.on sp s).2.durable = (serve sp j.script (guarded j.op j.opening j.body) s).2.durable := by
  simp only [Job.on]; split <;> rfl

/-- The calls ask for these units of work. -/
def Units (sp : Bool) (req : Nat → Bytes) (J : Nat → Job) : Prop :=
  ∀ t, decodeStream (req t) = some (guarded (J t).op (J t).opening (J t).body) ∧ JobOK sp (J t) ∧ (J t).dropped = false

theorem tends_kept {sp : Bool} {J : Nat → Job} (hJ : Units sp req J) {s s' : Session} {p : Bytes} {ts : List Nat}
    (h : Tends cd sp (fun t => (J t).script) req s p ts s') :
    s.blocks = [] → ∀ hist : List (Nat × Option (List Response)), hist.map Prod.fst = ts → Heard cd req p hist →
    ∃ (first : List ClientMsg) (pieces : List (List ClientMsg)), (first = [] ∨ ∃ q, s.tx = some q ∧ first <+: q) ∧ (ts = [] → first = []) ∧
      pieces.length = hist.length ∧ s'.durable = s.durable ++ first ++ pieces.flatten ∧
      ∀ (i : Nat) t r piece, hist[i]? = some (t, r) → pieces[i]? = some piece →
        Kept r (i + 1 = hist.length) (changes (J t).bodyScript (J t).body) piece := by
  have left : ∀ s : Session, s.tx.getD [] = [] ∨ ∃ q, s.tx = some q ∧ s.tx.getD [] <+: q := by
    intro s
    cases s.tx with
    | none => exact .inl rfl
    | some q => exact .inr ⟨q, rfl, List.prefix_refl _⟩
  induction h with
  | idle s p =>
    intro _ hist hm _
    obtain rfl := List.map_eq_nil_iff.mp hm
    exact ⟨[], [], .inl rfl, fun _ => rfl, rfl, by simp, by simp⟩
  | gone s p =>
    intro _ hist hm _
    obtain rfl := List.map_eq_nil_iff.mp hm
    exact ⟨[], [], .inl rfl, fun _ => rfl, rfl, by simp [Session.drop], by simp⟩
  | @last s s' p t hsv =>
    intro hs hist hm hh
    obtain ⟨hd, hj, hdr⟩ := hJ t
    cases hh with
    | nil => simp at hm
    | failed p t' =>
      simp only [List.map_cons, List.map_nil, List.cons.injEq, and_true] at hm
      subst hm
      have hcut : ∃ k, s'.durable = (serve sp (J t').script ((guarded (J t').op (J t').opening (J t').body).take k) s).2.durable := by
        cases hsv with
        | done hd' hr =>
          rw [hd] at hd'
          cases hd'
          exact ⟨(guarded (J t').op (J t').opening (J t').body).length, by rw [List.take_length]⟩
        | @lost _ _ k _ _ hd' hr hn hp =>
          rw [hd] at hd'
          cases hd'
          exact ⟨k, rfl⟩
      obtain ⟨k, hk⟩ := hcut
      obtain ⟨first, h1, h2⟩ := cut_holds hj hs k
      have h1' : first = [] ∨ ∃ q, s.tx = some q ∧ first <+: q := by
        rcases h1 with h1 | ⟨q, h1, rfl⟩
        · exact .inl h1
        · exact .inr ⟨_, h1, List.prefix_refl _⟩
      have fin : ∀ piece, (piece = [] ∨ piece = changes (J t').bodyScript (J t').body) → ∀ (i : Nat) t r pc,
          ([(t', none)] : List (Nat × Option (List Response)))[i]? = some (t, r) → [piece][i]? = some pc →
          Kept r (i + 1 = 1) (changes (J t).bodyScript (J t).body) pc := by
        intro piece hp i t r pc e1 e2
        cases i with
        | succ i => simp at e1
        | zero =>
          simp only [List.getElem?_cons_zero, Option.some.injEq, Prod.mk.injEq] at e1 e2
          obtain ⟨rfl, rfl⟩ := e1
          subst e2
          refine ⟨?_, by simp, fun _ => hp, by simp⟩
          rcases hp with rfl | rfl
          · exact List.nil_prefix
          · exact List.prefix_refl _
      rcases h2 with h2 | h2
      · exact ⟨first, [[]], h1', by simp, rfl, by rw [hk, h2]; simp, fin [] (.inl rfl)⟩
      · exact ⟨first, [_], h1', by simp, rfl, by rw [hk, h2]; simp, fin _ (.inr rfl)⟩
    | @cons _ p' t' rs fs hist hf ha hh =>
      simp only [List.map_cons, List.cons.injEq, List.map_eq_nil_iff] at hm
      obtain ⟨rfl, rfl⟩ := hm
      obtain ⟨fs', hfs, hlen⟩ := stream_frames hd
      rw [hf] at hfs
      cases hfs
      obtain ⟨q1, q2⟩ := serves_seen hsv hd (by rw [List.length_map, hlen]) ha
      rw [← committed_iff hj] at q1
      have hdur : s'.durable = ((J t').on sp s).2.durable := by
        rw [on_durable]
        rcases q2 with rfl | rfl <;> rfl
      obtain ⟨-, -, h3⟩ := C51_exact hj hs
      have fin : ∀ piece, piece = (if ((J t').on sp s).1 then changes (J t').bodyScript (J t').body else []) → ∀ (i : Nat) t r pc,
          [(t', some rs)][i]? = some (t, r) → [piece][i]? = some pc → Kept r (i + 1 = 1) (changes (J t).bodyScript (J t).body) pc := by
        intro piece hp i t r pc e1 e2
        cases i with
        | succ i => simp at e1
        | zero =>
          simp only [List.getElem?_cons_zero, Option.some.injEq, Prod.mk.injEq] at e1 e2
          obtain ⟨rfl, rfl⟩ := e1
          subst e2
          cases hc : ((J t').on sp s).1 with
          | true =>
            rw [hc, if_pos rfl] at hp
            subst hp
            refine ⟨List.prefix_refl _, fun _ _ _ => rfl, by simp, ?_⟩
            rintro _ ⟨⟩ ⟨x, hx, hx'⟩
            exact absurd (q1.mpr hc x hx) hx'
          | false =>
            rw [hc] at hp
            simp only [Bool.false_eq_true, if_false] at hp
            subst hp
            refine ⟨List.nil_prefix, ?_, by simp, fun _ _ _ _ => rfl⟩
            rintro _ ⟨⟩ hok
            exact absurd (q1.mp hok) (by rw [hc]; simp)
      rcases h3 with ⟨-, h3, -⟩ | ⟨-, hc, h3, -⟩
      · exact ⟨s.tx.getD [], [_], left s, by simp, rfl, by rw [hdur, h3]; simp, fin _ rfl⟩
      · exact ⟨[], [_], .inl rfl, by simp, rfl, by rw [hdur, h3, hc]; simp, fin _ rfl⟩
  | @next s s' p p' t ts ms rrs hd hr h ih =>
    intro hs hist hm hh
    obtain ⟨hd', hj, hdr⟩ := hJ t
    rw [hd'] at hd
    cases hd
    have hon : ((J t).on sp s).2 = (serve sp (J t).script (guarded (J t).op (J t).opening (J t).body) s).2 := by simp [Job.on, hdr]
    obtain ⟨hb, h2, h3⟩ := C51_exact hj hs
    rw [← hon] at ih h
    obtain ⟨hist', r, rfl, hm', hh', hlast, hiff⟩ : ∃ hist' r, hist = (t, r) :: hist' ∧ hist'.map Prod.fst = ts ∧ Heard cd req p' hist' ∧
        (r = none → ts = []) ∧ ∀ rs, r = some rs → ((∀ x ∈ rs, x = .ok) ↔ ((J t).on sp s).1 = true) := by
      cases hh with
      | nil => simp at hm
      | failed p t' =>
        simp only [List.map_cons, List.map_nil, List.cons.injEq] at hm
        obtain ⟨rfl, rfl⟩ := hm
        exact ⟨[], none, rfl, rfl, .nil _, fun _ => rfl, by simp⟩
      | @cons _ q t' rs fs hist hf ha hh =>
        simp only [List.map_cons, List.cons.injEq] at hm
        obtain ⟨rfl, rfl⟩ := hm
        obtain ⟨fs', hfs, hlen⟩ := stream_frames hd'
        rw [hf] at hfs
        cases hfs
        obtain ⟨rfl, rfl⟩ := replies_heard hr ha (by rw [List.length_map, hlen, serve_length])
        refine ⟨hist, some rs, rfl, rfl, hh, by simp, ?_⟩
        rintro _ ⟨⟩
        rw [replies_ok hr, committed_iff hj]
    obtain ⟨first, pieces, h4, h5, h6, h7, h8⟩ := ih hb hist' hm' hh'
    have none_first : ((J t).on sp s).2.tx = none → first = [] := by
      intro h
      rcases h4 with h4 | ⟨q, h4, -⟩
      · exact h4
      · rw [h] at h4; cases h4
    have last_first : hist'.length = 0 → first = [] := by
      intro h
      rw [List.length_eq_zero_iff] at h
      subst h
      exact h5 hm'.symm
    have fin : ∀ piece, Kept r (hist'.length = 0) (changes (J t).bodyScript (J t).body) piece → ∀ (i : Nat) t' r' pc,
        ((t, r) :: hist')[i]? = some (t', r') → (piece :: pieces)[i]? = some pc →
        Kept r' (i + 1 = ((t, r) :: hist').length) (changes (J t').bodyScript (J t').body) pc := by
      intro piece hk i t' r' pc e1 e2
      cases i with
      | zero =>
        simp only [List.getElem?_cons_zero, Option.some.injEq, Prod.mk.injEq] at e1 e2
        obtain ⟨rfl, rfl⟩ := e1
        subst e2
        refine ⟨hk.1, hk.2.1, hk.2.2.1, fun rs h1 h2 h3 => hk.2.2.2 rs h1 h2 (by simpa using h3)⟩
      | succ i =>
        simp only [List.getElem?_cons_succ] at e1 e2
        have := h8 i t' r' pc e1 e2
        refine ⟨this.1, this.2.1, this.2.2.1, fun rs h1 h2 h3 => this.2.2.2 rs h1 h2 (by simpa using h3)⟩
    rcases h3 with ⟨-, hdu, ht⟩ | ⟨-, hc, hdu, ht⟩
    · cases hc : ((J t).on sp s).1 with
      | true =>
        have hf := none_first (h2 (.inl hc))
        refine ⟨s.tx.getD [], changes (J t).bodyScript (J t).body :: pieces, left s, by simp, by simp [h6], ?_, fin _ ?_⟩
        · rw [h7, hdu, hc, hf]; simp
        · refine ⟨List.prefix_refl _, fun _ _ _ => rfl, fun _ => .inr rfl, fun rs e ⟨x, hx, hx'⟩ _ => absurd ((hiff rs e).mpr hc x hx) hx'⟩
      | false =>
        refine ⟨s.tx.getD [], first :: pieces, left s, by simp, by simp [h6], ?_, fin _ ?_⟩
        · rw [h7, hdu, hc]; simp
        · refine ⟨?_, fun rs e hok => absurd ((hiff rs e).mp hok) (by rw [hc]; simp), fun hn => .inl (h5 (hlast hn)), fun _ _ _ h => last_first h⟩
          rcases h4 with h4 | ⟨q, h4, h9⟩
          · rw [h4]; exact List.nil_prefix
          · rcases ht with ht | ⟨p, ht, hp⟩
            · rw [ht] at h4; cases h4
            · rw [ht] at h4; cases h4; exact h9.trans hp
    · refine ⟨first, [] :: pieces, ?_, by simp, by simp [h6], ?_, fin _ ?_⟩
      · rcases h4 with h4 | ⟨q, h4, h9⟩
        · exact .inl h4
        · rcases ht with ht | ⟨p, q', ht, hq, hp⟩
          · rw [ht] at h4; cases h4
          · rw [ht] at h4; cases h4; exact .inr ⟨q', hq, h9.trans hp⟩
      · rw [h7, hdu]; simp
      · exact ⟨List.nil_prefix, fun rs e hok => absurd ((hiff rs e).mp hok) (by rw [hc]; simp), fun _ => .inl rfl, fun _ _ _ _ => rfl⟩

/-! ### C76 -/

theorem units_frames {sp : Bool} {J : Nat → Job} (hJ : Units sp req J) (t : Nat) : ∃ fs, readFrames (req t) = some fs := by
  obtain ⟨fs, h, -⟩ := stream_frames (hJ t).1
  exact ⟨fs, h⟩

/-- **C76**, partial, for each connection: if the calls of the pool ask for units of work, what becomes durable in the session
behind the connection is, for each call that used it, in turn, a beginning of its changes: all of them if it got OKs only, all
or nothing if it got an error from the connection, nothing if it got an error response and was the last.  Missing: nothing
also if it was not the last, see `C76_wrong`. -/
theorem C76_partial {sp : Bool} {J : Nat → Job} (hcd : RejectsHeaders cd) (hJ : Units sp req J) (h : Run cd k req (init n conn) l s)
    {t0 c : Nat} {w : World} {x : Conn} (ho : Act.opened t0 c w x ∈ l) {s0 s' : Session} (hs : Idle s0)
    (hT : Tends cd sp (fun t => (J t).script) req s0 x.r.pending ((ended c l).map Prod.fst) s') :
    ∃ pieces : List (List ClientMsg), pieces.length = (ended c l).length ∧ s'.durable = s0.durable ++ pieces.flatten ∧
      ∀ (i : Nat) t r piece, (ended c l)[i]? = some (t, r) → pieces[i]? = some piece →
        Kept r (i + 1 = (ended c l).length) (changes (J t).bodyScript (J t).body) piece := by
  obtain ⟨⟨rest, hx, -⟩, -⟩ := C64_stream hcd (units_frames hJ) h ho
  obtain ⟨tail, e1, -, e2⟩ := ended_form h c
  have hh : Heard cd req x.r.pending (ended c l) := e1 ▸ exchange_heard hx e2
  obtain ⟨first, pieces, h1, -, h2, h3, h4⟩ := tends_kept hJ hT hs.1 (ended c l) rfl hh
  obtain rfl : first = [] := by
    rcases h1 with h1 | ⟨q, h1, -⟩
    · exact h1
    · rw [hs.2] at h1; cases h1
  exact ⟨pieces, h2, by simpa using h3, h4⟩

/-- the ends of `conn.Send`s of call `t` -/
def fins (t : Nat) (l : List Act) : List Act := l.filter fun a => isFin t a.ev

theorem ended_fins (h : Run cd k req (init n conn) l s) (t c : Nat) : (ended c l).filter (fun y => y.1 == t) = ended c (fins t l) := by
  have key : ∀ l : List Act, (∀ e, Act.other e ∈ l → plainEv e = true ∨ ∃ t c, e = .close t c) →
      (ended c l).filter (fun y => y.1 == t) = ended c (fins t l) := by
    intro l
    induction l with
    | nil => intro _; rfl
    | cons a l ih =>
      intro ho
      have ih := ih fun e he => ho e (.tail _ he)
      cases a with
      | finish t' c' rs e =>
        by_cases ht : t' = t <;> by_cases hc : c' = c <;> simp [ended, fins, isFin, Act.ev, ht, hc] at ih ⊢ <;> exact ih
      | opened => simpa [ended, fins, isFin, Act.ev] using ih
      | ret => simpa [ended, fins, isFin, Act.ev] using ih
      | other e =>
        have : isFin t e = false := by
          rcases ho e (.head _) with h | ⟨t, c, rfl⟩
          · cases e <;> first | rfl | cases h
          · rfl
        simpa [ended, fins, Act.ev, this] using ih
  exact key l fun e he => other_mem h he

theorem fins_ev (t : Nat) (l : List Act) : (fins t l).map Act.ev = (Spec.Pool.deeds t (l.map Act.ev)).filter (isFin t) := by
  have e1 : (fins t l).map Act.ev = (l.map Act.ev).filter (isFin t) := by rw [fins, List.filter_map]; rfl
  rw [e1, Spec.Pool.deeds, List.filter_filter]
  refine List.filter_congr fun e _ => ?_
  cases e <;> simp [isFin]

/-- A call that has returned has used one connection once, or none: by what it returned. -/
theorem C76_call (h : Run cd k req (init n conn) l s) {t : Nat} (hc : Act.other (.callSend t) ∈ l) {r : Pool.Res} {rs : List Response}
    (hr : Act.ret t r rs ∈ l) :
    (r = .ok → ∃ c rs', ∀ c', (ended c' l).filter (fun y => y.1 == t) = if c' = c then [(t, some rs')] else []) ∧
    (r = .send → ∃ c, ∀ c', (ended c' l).filter (fun y => y.1 == t) = if c' = c then [(t, none)] else []) ∧
    (r ≠ .ok → r ≠ .send → ∀ c', (ended c' l).filter (fun y => y.1 == t) = []) := by
  have hd := C57_send (run_pool h) (mem_ev hc) (mem_ev hr)
  have hf := fins_ev t l
  simp only [ended_fins h]
  have none : (fins t l).map Act.ev = [] → ∀ c', ended c' (fins t l) = [] := by
    intro h c'
    rw [List.map_eq_nil_iff] at h
    rw [h]; rfl
  have one : ∀ c ok, (fins t l).map Act.ev = [.finish t c ok] → ∃ rs e, fins t l = [.finish t c rs e] ∧ e.isNone = ok := by
    intro c ok hm
    obtain ⟨a, ha, he⟩ := List.map_eq_singleton_iff.mp hm
    have hmem : a ∈ fins t l := by rw [ha]; simp
    have hmem := (List.mem_filter.mp hmem).1
    cases a with
    | finish t' c' rs e =>
      simp only [Act.ev, Pool.Ev.finish.injEq] at he
      obtain ⟨rfl, rfl, rfl⟩ := he
      exact ⟨rs, e, ha, rfl⟩
    | other e =>
      simp only [Act.ev] at he
      subst he
      rcases other_mem h hmem with h | ⟨_, _, h⟩ <;> cases h
    | opened => cases he
    | ret => cases he
  generalize Spec.Pool.deeds t (l.map Act.ev) = d at hd hf
  cases hd with
  | @ok c g e hg he =>
    refine ⟨fun _ => ?_, fun h => (by cases h), fun h => absurd rfl h⟩
    obtain ⟨rs', e', h1, h2⟩ := one c true (by rw [hf]; cases hg <;> rcases he with rfl | rfl <;> simp [isFin])
    refine ⟨c, rs', fun c' => ?_⟩
    cases e' with
    | some => cases h2
    | none => rw [h1]; by_cases hcc : c' = c <;> simp [ended, hcc]; exact fun h => hcc h.symm
  | @send c g hg =>
    refine ⟨fun h => (by cases h), fun _ => ?_, fun _ h => absurd rfl h⟩
    obtain ⟨rs', e', h1, h2⟩ := one c false (by rw [hf]; cases hg <;> simp [isFin])
    refine ⟨c, fun c' => ?_⟩
    cases e' with
    | none => cases h2
    | some => rw [h1]; by_cases hcc : c' = c <;> simp [ended, hcc]; exact fun h => hcc h.symm
  | connector => exact ⟨fun h => (by cases h), fun h => (by cases h), fun _ _ => none (by rw [hf]; simp [isFin])⟩
  | ctx => exact ⟨fun h => (by cases h), fun h => (by cases h), fun _ _ => none (by rw [hf]; simp)⟩
  | poolClosed => exact ⟨fun h => (by cases h), fun h => (by cases h), fun _ _ => none (by rw [hf]; simp)⟩

theorem flatten_at {α : Type} : ∀ (L : List (List α)) (i : Nat) (h : i < L.length),
    L.flatten = (L.take i).flatten ++ (L[i] ++ (L.drop (i + 1)).flatten)
  | x :: L, 0, _ => by simp
  | x :: L, i + 1, h => by
    simp only [List.flatten_cons, List.take_succ_cons, List.getElem_cons_succ, List.drop_succ_cons, List.append_assoc]
    rw [← flatten_at L i (by simpa using h)]

/-- **C76**, partial, for each call: a `Send` of the pool that returned responses has used one connection, once; whatever the
server behind it does, and whatever other calls use it before and after, the changes of the call are durable, in one piece,
if all responses are OK; if not, no more than a beginning of them, and none if no call used the connection afterwards. -/
theorem C76_own_partial (hcd : RejectsHeaders cd) (hreq : ∀ t, ∃ fs, readFrames (req t) = some fs) (h : Run cd k req (init n conn) l s)
    {t : Nat} (hc : Act.other (.callSend t) ∈ l) {rs : List Response} (hr : Act.ret t .ok rs ∈ l) :
    ∃ c t0 w x i, Act.opened t0 c w x ∈ l ∧ (ended c l)[i]? = some (t, some rs) ∧
      (∀ (c' i' : Nat) y, (ended c' l)[i']? = some (t, y) → c' = c ∧ i' = i) ∧
      ∀ (sp : Bool) (J : Nat → Job) (s0 s' : Session), Units sp req J → Idle s0 →
        Tends cd sp (fun t => (J t).script) req s0 x.r.pending ((ended c l).map Prod.fst) s' →
        ∃ before piece after, s'.durable = s0.durable ++ before ++ piece ++ after ∧
          Kept (some rs) (i + 1 = (ended c l).length) (changes (J t).bodyScript (J t).body) piece := by
  obtain ⟨c, t0, w, x, before, after, -, -, -, ho, hsv, -⟩ := C64_own hcd hreq h hc hr
  obtain ⟨c0, rs0, hone⟩ := (C76_call h hc hr).1 rfl
  have hmem : (t, some rs) ∈ ended c l := by
    have : (t, rs) ∈ served c l := by rw [hsv]; simp
    rw [served, List.mem_filterMap] at this
    obtain ⟨a, ha, he⟩ := this
    rw [ended, List.mem_filterMap]
    refine ⟨a, ha, ?_⟩
    cases a with
    | finish t' c' rs' e =>
      cases e with
      | some => simp at he
      | none => simp at he ⊢; exact he
    | _ => simp at he
  have uniq : ∀ (c' i' : Nat) y, (ended c' l)[i']? = some (t, y) → c' = c0 := by
    intro c' i' y hi
    have hm : (t, y) ∈ (ended c' l).filter (fun y => y.1 == t) := List.mem_filter.mpr ⟨List.mem_of_getElem? hi, by simp⟩
    rw [hone] at hm
    split at hm
    · assumption
    · simp at hm
  obtain ⟨i, hi⟩ := List.mem_iff_getElem?.mp hmem
  obtain rfl := uniq c i _ hi
  have uniq2 : ∀ (i' : Nat) y, (ended c l)[i']? = some (t, y) → i' = i := by
    intro i' y hi'
    have key : ∀ (L : List (Nat × Option (List Response))) (a b : Nat) (ya yb : Option (List Response)), a < b → L[a]? = some (t, ya) → L[b]? = some (t, yb) →
        2 ≤ (L.filter (fun y => y.1 == t)).length := by
      intro L a b ya yb hab h1 h2
      have e : L = L.take b ++ L.drop b := (List.take_append_drop b L).symm
      rw [e, List.filter_append, List.length_append]
      have m1 : (t, ya) ∈ (L.take b).filter (fun y => y.1 == t) :=
        List.mem_filter.mpr ⟨List.mem_of_getElem? (i := a) (by rw [List.getElem?_take, if_pos hab, h1]), by simp⟩
      have m2 : (t, yb) ∈ (L.drop b).filter (fun y => y.1 == t) :=
        List.mem_filter.mpr ⟨List.mem_of_getElem? (i := 0) (by rw [List.getElem?_drop]; exact h2), by simp⟩
      have := List.length_pos_of_mem m1
      have := List.length_pos_of_mem m2
      omega
    have hl : ((ended c l).filter (fun y => y.1 == t)).length = 1 := by rw [hone]; simp
    rcases Nat.lt_trichotomy i' i with hlt | heq | hlt
    · have := key _ _ _ _ _ hlt hi' hi; omega
    · exact heq
    · have := key _ _ _ _ _ hlt hi hi'; omega
  refine ⟨c, t0, w, x, i, ho, hi, fun c' i' y hy => ?_, fun sp J s0 s' hJ hs hT => ?_⟩
  · obtain rfl := uniq c' i' y hy
    exact ⟨rfl, uniq2 i' y hy⟩
  · obtain ⟨pieces, h1, h2, h3⟩ := C76_partial hcd hJ h ho hs hT
    have hlt : i < pieces.length := by rw [h1]; exact (List.getElem?_eq_some_iff.mp hi).1
    refine ⟨(pieces.take i).flatten, pieces[i], (pieces.drop (i + 1)).flatten, ?_, h3 i t _ _ hi (List.getElem?_eq_getElem hlt)⟩
    rw [h2, flatten_at pieces i hlt]; simp [List.append_assoc]

/-! ### a pool that keeps no connections -/

/-- the ends of `conn.Send`s on connection `c` -/
def endsOn (c : Nat) (l : List Pool.Ev) : List Pool.Ev := l.filter fun | .finish _ c' _ => c' == c | _ => false

theorem ended_endsOn (h : Run cd k req (init n conn) l s) (c : Nat) : (ended c l).length = (endsOn c (l.map Act.ev)).length := by
  induction h with
  | nil => rfl
  | @snoc s s' l a hr hs ih =>
    rw [ended_snoc, List.length_append, ih, List.map_append, endsOn, endsOn, List.filter_append, List.length_append]
    congr 1
    cases hs with
    | @finish _ _ c' =>
      by_cases hc : c' = c <;> simp [ended, Act.ev, hc]
    | other _ he => rename_i e; cases e <;> simp [ended, Act.ev, plainEv] at he ⊢
    | _ => simp [ended, Act.ev]

theorem unpooled_once {l : List Pool.Ev} {s : Pool.State} (h : Pool.Run (Pool.init 0) l s) (c : Nat) :
    (endsOn c l).length ≤ 1 ∧ ((s.next ≤ c ∨ ∃ t, s.pc t = .got c ∨ s.pc t = .busy c) → endsOn c l = []) := by
  generalize hs0 : Pool.init 0 = s0 at h
  induction h with
  | nil => exact ⟨by simp [endsOn], fun _ => rfl⟩
  | @snoc s s' l e hr hs ih =>
    subst hs0
    obtain ⟨i1, i2⟩ := ih
    have hq : s.queue = [] := List.length_eq_zero_iff.mp (Nat.le_zero.mp (C41_bounded hr).1)
    have hsn : ∀ e, endsOn c (l ++ [e]) = endsOn c l ++ endsOn c [e] := fun e => by simp [endsOn]
    by_cases he : ∃ t ok, e = .finish t c ok
    · obtain ⟨t, ok, rfl⟩ := he
      have hb : s.pc t = .busy c := by cases hs <;> assumption
      have h0 := i2 (.inr ⟨t, .inr hb⟩)
      obtain ⟨st, -, hw⟩ := stage_some hr c
      obtain ⟨-, hlt⟩ := Proof.Pool.where_held hw (t := t) (by rw [hb]; rfl)
      rw [hsn, h0]
      refine ⟨by simp [endsOn], fun hx => ?_⟩
      exfalso
      have huniq : ∀ t', (s.pc t' = .got c ∨ s.pc t' = .busy c) → t' = t := by
        intro t' h'
        have hh : Spec.Pool.holds (s.pc t') = some c := by rcases h' with h' | h' <;> rw [h'] <;> rfl
        have hh' : Spec.Pool.holds (s.pc t) = some c := by rw [hb]; rfl
        cases hw with
        | absent _ _ g => exact absurd hh (g t')
        | queued _ _ g => exact absurd hh (g t')
        | closed _ _ g => exact absurd hh (g t')
        | held _ _ _ g => rw [g t' hh, g t hh']
      rcases hx with hx | ⟨t', hx⟩
      · cases hs <;> exact absurd hx (Nat.not_le.mpr hlt)
      · by_cases ht : t' = t
        · subst ht
          cases hs <;> simp [Pool.State.goto] at hx
        · rw [pc_other hs ht] at hx
          exact ht (huniq t' hx)
    · have h0 : endsOn c [e] = [] := by
        cases e <;> simp [endsOn]
        rintro rfl
        exact he ⟨_, _, rfl⟩
      rw [hsn, h0, List.append_nil]
      refine ⟨i1, fun hx => i2 ?_⟩
      rcases hx with hx | ⟨t', hx⟩
      · left
        cases hs <;> simp only [Pool.State.goto] at hx ⊢ <;> omega
      · by_cases ht : t' = e.thread
        · cases hs <;> simp only [Pool.Ev.thread] at ht <;> subst ht <;> simp [Pool.State.goto] at hx
          case begin h => subst hx; exact .inr ⟨_, .inl h⟩
          case opened => subst hx; exact .inl (Nat.le_refl _)
          case take h _ => rw [hq] at h; cases h
          case cancel => exact .inr ⟨_, hx⟩
        · rw [pc_other hs ht] at hx
          exact .inr ⟨t', hx⟩

/-- **C76** in full for a pool of size 0, which uses no connection twice: a call that got an error response has no effect. -/
theorem C76_unpooled {sp : Bool} {J : Nat → Job} (hcd : RejectsHeaders cd) (hJ : Units sp req J) (h : Run cd k req (init 0 conn) l s)
    {t0 c : Nat} {w : World} {x : Conn} (ho : Act.opened t0 c w x ∈ l) {s0 s' : Session} (hs : Idle s0)
    (hT : Tends cd sp (fun t => (J t).script) req s0 x.r.pending ((ended c l).map Prod.fst) s') :
    (ended c l = [] ∧ s'.durable = s0.durable) ∨ ∃ t r piece, ended c l = [(t, r)] ∧ s'.durable = s0.durable ++ piece ∧
      Kept r True (changes (J t).bodyScript (J t).body) piece := by
  obtain ⟨pieces, h1, h2, h3⟩ := C76_partial hcd hJ h ho hs hT
  have hlen := (unpooled_once (run_pool h) c).1
  rw [← ended_endsOn h] at hlen
  match he : ended c l, pieces, h1, hlen with
  | [], [], _, _ => exact .inl ⟨rfl, by simpa using h2⟩
  | [(t, r)], [piece], _, _ =>
    refine .inr ⟨t, r, piece, rfl, by simpa using h2, ?_⟩
    obtain ⟨k1, k2, k3, k4⟩ := h3 0 t r piece (by rw [he]; rfl) rfl
    exact ⟨k1, k2, k3, fun rs e hx _ => k4 rs e hx (by rw [he]; rfl)⟩

/-- A program `ExpectFailOnError(Tx(level, body))`; `op` is the operation of the block. -/
structure Work where
  op : UInt8
  level : BitVec 64
  body : Prog

/-- The request is what a new builder sends after the program has run. -/
def Work.Builds (u : Work) (bs : Bytes) : Prop :=
  ∃ (g : Grow) (b b' : Builder) (o : List Builder) (out : List (Option Val)), Ready b ∧ b.buf.data = [] ∧
    run g (.expect u.op (.tx u.level u.body fun o => .ret none o) fun o => .ret none o) [] b = .ok (o, b', out) ∧ b'.send = .ok (.ok bs) ∧
    bs.length < 2 ^ 32

/-- **C76**, partial, from the programs to the databases: each call sends what a program `ExpectFailOnError(Tx(level, body))`
built, the body leaves transactions to `Tx` and does not call it.  What the calls ask for, `ms`, is given by the programs, and
becomes durable as in `C76_partial` behind each connection of the pool. -/
theorem C76_programs_partial {u : Nat → Work} (hcd : RejectsHeaders cd) (hb : ∀ t, (u t).Builds (req t)) (hop : ∀ t, (u t).op.toNat ≤ 1)
    (hl : ∀ t, Leaves false (u t).body) (h : Run cd k req (init n conn) l s) :
    ∃ (opening : Nat → List String) (ms : Nat → List ClientMsg), (∀ t, txOpening (u t).level.toNat = some (opening t) ∧
      ∃ out vs, Exec libDur 2 (u t).body (.ok []) (.ok (ms t)) out vs) ∧
    ∀ (sp : Bool) (script : Nat → Nat → Fate), let bodyScript := fun t i => script t (1 + ((opening t).length + i))
      (∀ t, (∀ m ∈ ms t, Readable m) ∧ Decent (bodyScript t) (ms t) ∧ (sp = true ∨ ∀ m ∈ ms t, isBlock m = false)) →
      ∀ (t0 c : Nat) (w : World) (x : Conn) (s0 s' : Session), Act.opened t0 c w x ∈ l → Idle s0 →
        Tends cd sp script req s0 x.r.pending ((ended c l).map Prod.fst) s' →
        ∃ pieces : List (List ClientMsg), pieces.length = (ended c l).length ∧ s'.durable = s0.durable ++ pieces.flatten ∧
          ∀ (i : Nat) t r piece, (ended c l)[i]? = some (t, r) → pieces[i]? = some piece →
            Kept r (i + 1 = (ended c l).length) (changes (bodyScript t) (ms t)) piece := by
  have each : ∀ t, ∃ y : List String × List ClientMsg, txOpening (u t).level.toNat = some y.1 ∧
      (∃ out vs, Exec libDur 2 (u t).body (.ok []) (.ok y.2) out vs) ∧ openBlocks 0 y.2 = some 0 ∧ NoErrorBlocks y.2 ∧
      ((∀ m ∈ y.2, Readable m) → decodeStream (req t) = some (guarded (u t).op.toNat y.1 y.2)) := by
    intro t
    obtain ⟨g, b, b', o, out, hrd, h0, hrun, hbs, hsize⟩ := hb t
    have hd : b'.err = none ∧ b'.buf.data = req t := by
      rw [Builder.send] at hbs
      split at hbs
      · cases hbs
      · cases he : b'.err with
        | some e => rw [he] at hbs; simp at hbs
        | none => rw [he] at hbs; simpa using hbs
    obtain ⟨he, hd⟩ := hd
    obtain ⟨ss, ms, vs, h1, h2, h3, h4, h5⟩ := guarded_run hrd _ _ hrun he
    refine ⟨(ss, ms), h1, ⟨out, vs, h2⟩, h3, h4, fun hr => ?_⟩
    obtain ⟨_, fr, e1, e2⟩ := h5 (hop t) hr
    rw [h0, List.nil_append, hd] at e1
    rw [e1] at hsize ⊢
    exact e2 hsize
  refine ⟨fun t => (each t).choose.1, fun t => (each t).choose.2, fun t => ⟨(each t).choose_spec.1, (each t).choose_spec.2.1⟩, ?_⟩
  intro sp script bodyScript hok t0 c w x s0 s' ho hs hT
  have hJ : Units sp req fun t => ⟨(u t).op.toNat, (each t).choose.1, (each t).choose.2, script t, false⟩ := by
    intro t
    obtain ⟨h1, ⟨out, vs, h2⟩, h3, h4, h5⟩ := (each t).choose_spec
    obtain ⟨g1, g2, g3⟩ := hok t
    exact ⟨h5 g1, ⟨⟨_, h1⟩, h3, h4, inner_steady (exec_inner h2 _ _ rfl rfl (hl t) (fun m h => by cases h)) g2, g3⟩, rfl⟩
  exact C76_partial hcd hJ h ho hs hT

/-- C76 in full: each call that got an error response has no effect, as well. -/
def C76_full (sp : Bool) : Prop := ∀ (cd : Codec) (k : Connector) (req : Nat → Bytes) (n : Nat) (conn : Nat → World × Conn) (l : List Act) (s : State)
    (J : Nat → Job) (t0 c : Nat) (w : World) (x : Conn) (s0 s' : Session), RejectsHeaders cd → Units sp req J → Run cd k req (init n conn) l s →
  Act.opened t0 c w x ∈ l → Idle s0 → Tends cd sp (fun t => (J t).script) req s0 x.r.pending ((ended c l).map Prod.fst) s' →
  ∃ pieces : List (List ClientMsg), pieces.length = (ended c l).length ∧ s'.durable = s0.durable ++ pieces.flatten ∧
    ∀ (i : Nat) t r piece, (ended c l)[i]? = some (t, r) → pieces[i]? = some piece →
      Kept r True (changes (J t).bodyScript (J t).body) piece

/-! ### a case -/

/-- `ExpectFailOnError(Tx(Default, { Delete("t", nil); Insert("u", {"a"}, {{1}}) }))` -/
def unitSys : Prog := .expect 0 (.tx 0 (.call (.delete (ascii "t") none) fun _ => .call (.insert (ascii "u") [ascii "a"] [[.int 1]]) fun _ => .ret none [])
  fun o => .ret none o) fun o => .ret none o

def reqSys : Nat → Bytes := fun _ => (appended (newPipe 0) unitSys).getD []

/-- the fourth message of call 0 fails -/
def jobSys (t : Nat) : Job := jobEx (if t = 0 then 3 else 9) false [deleteEx, insertEx]

theorem jobSys_units (sp : Bool) : Units sp reqSys jobSys := fun t =>
  ⟨show decodeStream (reqSys 0) = some (guarded 0 ["START TRANSACTION"] [deleteEx, insertEx]) by decide +kernel, jobEx_ok .., rfl⟩

def answers0 : Bytes := [Answer.ok, .ok, .ok, .failed, .skipped, .failed].flatMap answerBytes
def answers1 : Bytes := [Answer.ok, .ok, .ok, .ok, .ok, .ok].flatMap answerBytes

def envSys (_ : Nat) : Env := envEx .unix ⟨[[1, 0, 0, 0, 4] ++ answers0 ++ answers1], .eof, false⟩ deniesEx

/-- Call 0 opens a connection; call 1 takes it from the pool after that. -/
def doSys : List Proof.Pool.Do := [.send 0, .go 0, .go 0, .go 0, .go 0, .go 0, .go 0, .send 1, .go 1, .go 1, .go 1, .go 1, .go 1]

def errSys : Response := .error ⟨0, 1007, [], []⟩

/-- The connections opened, and what was to come on them. -/
def openedOn : Act → Option (Nat × Nat × Bytes)
  | .opened t c _ x => some (t, c, x.r.pending)
  | _ => none

def returned : Act → Option (Nat × Pool.Res × List Response)
  | .ret t r rs => some (t, r, rs)
  | _ => none

def callOf1 : Act → Bool
  | .other (.callSend 1) => true
  | _ => false

set_option synthInstance.maxSize 1024 in
theorem doSys_seen : (playC connCodec poolK reqSys envSys initPool doSys).map (fun y => (y.1.filterMap openedOn, ended 0 y.1, y.1.filterMap returned,
      y.1.any callOf1)) =
    some ([(0, 0, answers0 ++ answers1)],
      [(0, some [.ok, .ok, .ok, errSys, errSys, errSys]), (1, some [.ok, .ok, .ok, .ok, .ok, .ok])],
      [(0, .ok, [.ok, .ok, .ok, errSys, errSys, errSys]), (1, .ok, [.ok, .ok, .ok, .ok, .ok, .ok])], true) := by
  decide +kernel

theorem replies_sys (as : List Answer) (rest : Bytes) : ∃ rrs, Replies connCodec as rrs (as.flatMap answerBytes ++ rest) rest := by
  induction as with
  | nil => exact ⟨[], .nil _⟩
  | cons a as ih =>
    obtain ⟨rrs, ih⟩ := ih
    cases a with
    | ok => exact ⟨.ok :: rrs, .cons (.last (m := (0, [])) rfl (.ok (by decide))) .ok ih⟩
    | failed => exact ⟨errSys :: rrs, .cons (.last (m := (1, [0, 7])) rfl (.error (by simp) rfl)) (.failed _) ih⟩
    | skipped => exact ⟨errSys :: rrs, .cons (.last (m := (1, [0, 7])) rfl (.error (by simp) rfl)) (.skipped _) ih⟩

/-- the session after both calls -/
def endSys : Session := ⟨[], none, [deleteEx, deleteEx, insertEx]⟩

theorem tends_sys (sp : Bool) : Tends connCodec sp (fun t => (jobSys t).script) reqSys freshSession (answers0 ++ answers1) [0, 1] endSys := by
  have e0 : (serve sp (jobSys 0).script (guarded 0 ["START TRANSACTION"] [deleteEx, insertEx]) freshSession) =
      ([.ok, .ok, .ok, .failed, .skipped, .failed], ⟨[], some [deleteEx], []⟩) := by cases sp <;> rfl
  have e1 : (serve sp (jobSys 1).script (guarded 0 ["START TRANSACTION"] [deleteEx, insertEx]) ⟨[], some [deleteEx], []⟩) =
      ([.ok, .ok, .ok, .ok, .ok, .ok], endSys) := by cases sp <;> rfl
  obtain ⟨r0, h0⟩ := replies_sys [.ok, .ok, .ok, .failed, .skipped, .failed] answers1
  obtain ⟨r1, h1⟩ := replies_sys [.ok, .ok, .ok, .ok, .ok, .ok] []
  rw [List.append_nil] at h1
  refine .next (ms := guarded 0 ["START TRANSACTION"] [deleteEx, insertEx]) (rrs := r0) (p' := answers1) (jobSys_units sp 0).1 (by rw [e0]; exact h0) ?_
  rw [e0]
  refine .next (ms := guarded 0 ["START TRANSACTION"] [deleteEx, insertEx]) (rrs := r1) (p' := []) (jobSys_units sp 1).1 (by rw [e1]; exact h1) ?_
  rw [e1]
  exact .idle _ _

theorem run_sys : ∃ l s t w x, Run connCodec poolK reqSys initPool l s ∧ Act.opened t 0 w x ∈ l ∧
    (∀ t c w x, Act.opened t c w x ∈ l → x.r.pending = answers0 ++ answers1) ∧
    ended 0 l = [(0, some [.ok, .ok, .ok, errSys, errSys, errSys]), (1, some [.ok, .ok, .ok, .ok, .ok, .ok])] ∧
    Act.ret 1 .ok [.ok, .ok, .ok, .ok, .ok, .ok] ∈ l ∧ Act.other (.callSend 1) ∈ l := by
  have h := doSys_seen
  rw [Option.map_eq_some_iff] at h
  obtain ⟨⟨l, s⟩, h1, h2⟩ := h
  simp only [Prod.mk.injEq] at h2
  obtain ⟨h2, h3, h4, h5⟩ := h2
  obtain ⟨d, hd, h5⟩ := List.any_eq_true.mp h5
  have hd : Act.other (.callSend 1) ∈ l := by
    unfold callOf1 at h5
    split at h5
    · exact hd
    · cases h5
  have hE : ∀ c, Streams (envSys c) := fun c => envEx_streams _ (by simp) (by simp [deniesEx])
  have hrun : Run connCodec poolK reqSys initPool l s := playC_run (env := envSys) (fun _ => rfl) hE h1
  have m1 : (0, 0, answers0 ++ answers1) ∈ l.filterMap openedOn := by rw [h2]; simp
  obtain ⟨a, ha, he⟩ := List.mem_filterMap.mp m1
  have m2 : (1, Pool.Res.ok, [.ok, .ok, .ok, .ok, .ok, .ok]) ∈ l.filterMap returned := by rw [h4]; simp
  obtain ⟨b, hb, hf⟩ := List.mem_filterMap.mp m2
  cases a with
  | opened t c w x =>
    simp only [openedOn, Option.some.injEq, Prod.mk.injEq] at he
    obtain ⟨rfl, rfl, he⟩ := he
    cases b with
    | ret t r rs =>
      simp only [returned, Option.some.injEq, Prod.mk.injEq] at hf
      obtain ⟨rfl, rfl, rfl⟩ := hf
      refine ⟨l, s, _, w, x, hrun, ha, fun t c w x hm => ?_, h3, hb, hd⟩
      have : (t, c, x.r.pending) ∈ l.filterMap openedOn := List.mem_filterMap.mpr ⟨_, hm, rfl⟩
      rw [h2] at this
      simp only [List.mem_singleton, Prod.mk.injEq] at this
      exact this.2.2
    | _ => cases hf
  | _ => cases he

/-- C76 is false: call 0 gets an error response, and the change that it made before is durable after call 1. -/
theorem C76_wrong (sp : Bool) : ¬C76_full sp := by
  intro h
  obtain ⟨l, s, t, w, x, hr, ho, hp, he, -, -⟩ := run_sys
  obtain ⟨pieces, h1, h2, h3⟩ := h connCodec poolK reqSys 1 _ l s jobSys t 0 w x freshSession endSys connCodec_rejects (jobSys_units sp) hr ho ⟨rfl, rfl⟩
    (by rw [hp _ _ _ _ ho, he]; exact tends_sys sp)
  rw [he] at h1 h3
  obtain ⟨p0, p1, rfl⟩ : ∃ a b, pieces = [a, b] := by
    match pieces, h1 with
    | [a, b], _ => exact ⟨a, b, rfl⟩
  have k0 := (h3 0 0 _ p0 rfl rfl).2.2.2 _ rfl ⟨errSys, by simp, by simp [errSys]⟩ trivial
  have k1 := (h3 1 1 _ p1 rfl rfl).1.length_le
  have := congrArg List.length h2
  subst k0
  simp [endSys, freshSession] at this
  have hl : (changes (jobSys 1).bodyScript (jobSys 1).body).length = 2 := rfl
  omega

/-- The hypotheses of `C76_partial` are met, by that execution. -/
example : ∃ before piece after, endSys.durable = freshSession.durable ++ before ++ piece ++ after ∧ piece = [deleteEx, insertEx] := by
  obtain ⟨l, s, t, w, x, hr, ho, hp, he, -, -⟩ := run_sys
  obtain ⟨pieces, h1, h2, h3⟩ := C76_partial (sp := true) connCodec_rejects (jobSys_units true) hr ho (s0 := freshSession) (s' := endSys) ⟨rfl, rfl⟩
    (by rw [hp _ _ _ _ ho, he]; exact tends_sys true)
  rw [he] at h1 h3
  obtain ⟨p0, p1, rfl⟩ : ∃ a b, pieces = [a, b] := by
    match pieces, h1 with
    | [a, b], _ => exact ⟨a, b, rfl⟩
  exact ⟨p0, p1, [], by simpa using h2, (h3 1 1 _ p1 rfl rfl).2.1 _ rfl (by simp)⟩

theorem unitSys_builds (t : Nat) : Work.Builds ⟨0, 0, .call (.delete (ascii "t") none) fun _ =>
    .call (.insert (ascii "u") [ascii "a"] [[.int 1]]) fun _ => .ret none []⟩ (reqSys t) := by
  have h : (match run growEx unitSys [] (newPipe 0) with
      | .ok (_, b', _) => (match b'.send with | .ok (.ok bs) => bs == reqSys 0 | _ => false)
      | .error _ => false) = true := by decide +kernel
  split at h
  · rename_i o b' out hr
    split at h
    · rename_i bs hs
      exact ⟨growEx, newPipe 0, b', o, out, ⟨rfl, rfl⟩, rfl, hr, by rw [hs, eq_of_beq h]; rfl, show (reqSys 0).length < 2 ^ 32 by decide +kernel⟩
    · cases h
  · cases h

/-- The hypotheses of `C76_programs_partial` on the programs are met. -/
example : ∃ u : Nat → Work, (∀ t, (u t).Builds (reqSys t)) ∧ (∀ t, (u t).op.toNat ≤ 1) ∧ ∀ t, Leaves false (u t).body :=
  ⟨fun _ => _, unitSys_builds, fun _ => Nat.zero_le 1, fun _ => .call (fun _ _ h => by cases h) fun _ => .call (fun _ _ h => by cases h) fun _ => .ret⟩

/-- The hypotheses of `C76_own_partial` are met. -/
example : ∃ before after, endSys.durable = before ++ [deleteEx, insertEx] ++ after := by
  obtain ⟨l, s, t, w, x, hr, ho, hp, he, hret, hcall⟩ := run_sys
  obtain ⟨c, t', w', x', i, h1, h2, h3, h4⟩ := C76_own_partial connCodec_rejects (units_frames (jobSys_units true)) hr hcall hret
  obtain ⟨rfl, rfl⟩ := h3 0 1 _ (by rw [he]; rfl)
  obtain ⟨before, piece, after, h5, h6⟩ := h4 true jobSys freshSession endSys (jobSys_units true) ⟨rfl, rfl⟩ (by rw [hp _ _ _ _ h1, he]; exact tends_sys true)
  obtain rfl : piece = [deleteEx, insertEx] := h6.2.1 _ rfl (by simp)
  exact ⟨before, after, by simpa [freshSession] using h5⟩

/-- Call 1 of that execution has used connection 0 only, and once. -/
example : ∃ l s rs, Run connCodec poolK reqSys initPool l s ∧ ∀ c, (ended c l).filter (fun y => y.1 == 1) = if c = 0 then [(1, some rs)] else [] := by
  obtain ⟨l, s, t, w, x, hr, ho, hp, he, hret, hcall⟩ := run_sys
  obtain ⟨c, rs, hc⟩ := (C76_call hr hcall hret).1 rfl
  have h0 := hc 0
  rw [he] at h0
  refine ⟨l, s, rs, hr, fun c' => ?_⟩
  by_cases h : 0 = c
  · subst h; exact hc c'
  · rw [if_neg h] at h0; simp at h0

set_option synthInstance.maxSize 1024 in
/-- call 0 alone, in a pool of size 0 -/
theorem doSys0_seen : (playC connCodec poolK reqSys envSys (init 0 initPool.conn) (doSys.take 7)).map (fun y => (y.1.filterMap openedOn, ended 0 y.1)) =
    some ([(0, 0, answers0 ++ answers1)], [(0, some [.ok, .ok, .ok, errSys, errSys, errSys])]) := by
  decide +kernel

/-- The hypotheses of `C76_unpooled` are met; the change of call 0 is not durable. -/
example : ∃ l s t w x s', Run connCodec poolK reqSys (init 0 initPool.conn) l s ∧ Act.opened t 0 w x ∈ l ∧
    Tends connCodec true (fun t => (jobSys t).script) reqSys freshSession x.r.pending ((ended 0 l).map Prod.fst) s' ∧ s'.durable = [] := by
  have h := doSys0_seen
  rw [Option.map_eq_some_iff] at h
  obtain ⟨⟨l, s⟩, h1, h2⟩ := h
  simp only [Prod.mk.injEq] at h2
  obtain ⟨h2, h3⟩ := h2
  have hE : ∀ c, Streams (envSys c) := fun c => envEx_streams _ (by simp) (by simp [deniesEx])
  have hrun : Run connCodec poolK reqSys (init 0 initPool.conn) l s := playC_run (env := envSys) (fun _ => rfl) hE h1
  have m1 : (0, 0, answers0 ++ answers1) ∈ l.filterMap openedOn := by rw [h2]; simp
  obtain ⟨a, ha, he⟩ := List.mem_filterMap.mp m1
  cases a with
  | opened t c w x =>
    simp only [openedOn, Option.some.injEq, Prod.mk.injEq] at he
    obtain ⟨rfl, rfl, he⟩ := he
    obtain ⟨r0, h0⟩ := replies_sys [.ok, .ok, .ok, .failed, .skipped, .failed] answers1
    have hT : Tends connCodec true (fun t => (jobSys t).script) reqSys freshSession x.r.pending ((ended 0 l).map Prod.fst)
        ⟨[], some [deleteEx], []⟩ := by
      rw [he, h3]
      exact .next (ms := guarded 0 ["START TRANSACTION"] [deleteEx, insertEx]) (rrs := r0) (p' := answers1) (jobSys_units true 0).1 h0 (.idle _ _)
    exact ⟨l, s, _, w, x, _, hrun, ha, hT, rfl⟩
  | _ => cases he

end Verif.Props
