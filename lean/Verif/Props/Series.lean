import Verif.Spec.Series
import Verif.Props.Keys
/-! C91: a series of units of work on one connection. -/
namespace Verif.Props
open Verif.Go Verif.Spec Verif.Model Verif.Proof Verif.Spec.Sql

variable {V : Type}

/-- `bs` is what is sent for the unit of work `Expect(Tx(u))`, with the beginning `us.2` of its transaction; the statements `p` are
prepared before. -/
def Recorded (K : Known) (p : Nat → Option Bytes) (us : GoUnit × List String) (bs : Bytes) : Prop :=
  ∃ (g : Grow) (b b' : Builder) (o : List Builder) (out : List (Option Val)) (op : UInt8) (level : BitVec 64), Ready b ∧ b.buf.data = [] ∧
    fineP K p us.1 ∧ op.toNat ≤ 1 ∧
    run g (.expect op (.tx level (progU us.1) fun o => .ret none o) fun o => .ret none o) [] b = .ok (o, b', out) ∧
    b'.send = .ok (.ok bs) ∧ bs.length < 2 ^ 32 ∧ txOpening level.toNat = some us.2

/-- A series of them: the statements known to be prepared before each are those that the one before leaves. -/
inductive RecordedAll (K : Known) : (Nat → Option Bytes) → List (GoUnit × List String) → List Bytes → Prop
  | nil {p} : RecordedAll K p [] []
  | cons {p q us bs uss bss} : Recorded K p us bs → leaves q p us.1 → RecordedAll K q uss bss → RecordedAll K p (us :: uss) (bs :: bss)

theorem recorded_msgs {K : Known} {p : Nat → Option Bytes} {us : GoUnit × List String} {bs : Bytes} (h : Recorded K p us bs) :
    ∃ (op n : Nat) (ns : List ClientMsg) (vs : List Bytes), txOpening n = some us.2 ∧ decodeStream bs = some (guarded op us.2 ns) ∧
      SendsAll us.1 ns vs ∧ fineP K p us.1 ∧ (∀ v ∈ vs, isVariable v = true ∧ v.length < 124) ∧ vs.Nodup := by
  obtain ⟨g, b, b', o, out, op, level, hb, h0, hf, hop, h, hbs, hsize, hl'⟩ := h
  have hd : b'.err = none ∧ b'.buf.data = bs := by
    rw [Builder.send] at hbs
    split at hbs
    · cases hbs
    · cases he : b'.err with
      | some e => rw [he] at hbs; simp at hbs
      | none => rw [he] at hbs; simpa using hbs
  obtain ⟨he, rfl⟩ := hd
  obtain ⟨ss, ms, vs, hl, hx, hnd, hv, hh⟩ := guarded_names hb op level h he hsize
  obtain ⟨ns, hms, hsend⟩ := exec_progU us.1 hx
  rw [List.nil_append] at hms
  subst hms
  obtain ⟨hm, _⟩ := sends_does (V := Unit) hsend hf hv
  rw [hl'] at hl
  cases hl
  refine ⟨op.toNat, level.toNat, ms, vs, hl', ?_, hsend, hf, hv, hnd⟩
  obtain ⟨_, fr, e1, e2⟩ := hh hop fun m h => (hm m h).1
  rw [h0, List.nil_append] at e1
  rw [e1] at hsize ⊢
  exact e2 hsize

/-- A unit of work all of whose messages are executed. -/
theorem guarded_playOk {K : Known} {op n : Nat} {u : GoUnit} {ss : List String} {ns : List ClientMsg} {vs : List Bytes}
    {p : Nat → Option Bytes} (hl : txOpening n = some ss) (hs : SendsAll u ns vs) (hf : fineP K p u) (hv : ∀ v ∈ vs, isVariable v = true ∧ v.length < 124) (hnd : vs.Nodup)
    {S : Nat → Server V} (hS : Usual K S) {x x' : Store V} (hg : Agrees p x.toScope)
    (h : playOk S (guarded op ss ns) x = some x') :
    UnitDoes (fun i => S (1 + (ss.length + i))) [] u x.toScope x'.toScope ∧ x'.saved = none ∧ ∀ q, leaves q p u → Agrees q x'.toScope := by
  have e : guarded op ss ns = [.expectOpen op [(1, ascii "1")]] ++ (ss.map sql ++ (ns ++ [sql "COMMIT", .expectClose])) := by simp [guarded]
  rw [e, playOk_append, show playOk S [.expectOpen op [(1, ascii "1")]] x = some x from rfl, Option.bind_some, playOk_append, playOk_opening hl,
    Option.bind_some, playOk_append, Option.bind_eq_some_iff] at h
  obtain ⟨x2, h1, h2⟩ := h
  have hc : captured (sql "COMMIT") = none := by decide +kernel
  have hk : fixedKind (sql "COMMIT") = some .commit := by decide +kernel
  rw [playOk, exec_kind hc, hk] at h2
  cases h2
  have := (sends_does (V := V) hs hf hv).2 _ [] (fun i => hS _) hnd (by simp) { x with saved := some x.db } x2 hg h1
  simp only [List.length_map, List.length_singleton] at this
  exact ⟨this.1, rfl, this.2⟩

theorem plays_all_ok : ∀ (ms : List ClientMsg) (S : Nat → Server V) (as : List Answer) {x x' : Store V}, as.length = ms.length → (∀ a ∈ as, a = .ok) →
    Plays S (ms.zip as) x x' → playOk S ms x = some x'
  | [], S, as, x, x', _, _, h => by rw [List.zip_nil_left] at h; cases h; rfl
  | m :: ms, S, [], x, x', hl, _, _ => by cases hl
  | m :: ms, S, a :: as, x, x', hl, ha, h => by
    rw [List.zip_cons_cons, ha a (List.mem_cons_self ..)] at h
    cases h with
    | ok h1 h2 => rw [playOk, h1, Option.bind_some]; exact plays_all_ok ms _ as (by simpa using hl) (fun a h => ha a (List.mem_cons_of_mem _ h)) h2

/-- no block of the session has failed -/
def Clean (s : Session) : Prop := ∀ b ∈ s.blocks, b.failed = false

theorem clean_failed {s : Session} (h : Clean s) : s.failed = false := by
  unfold Session.failed
  split
  · rename_i b bs hb; exact h b (by rw [hb]; simp)
  · rfl

theorem effect_blocks (s : Session) (m : ClientMsg) (k : Kind) : (s.effect m k).blocks = s.blocks := by
  cases k <;> simp only [Session.effect]
  split <;> rfl

theorem serveOne_clean {sp : Bool} {f : Fate} {m : ClientMsg} {s : Session} (h : Clean s) (ho : (serveOne sp f m s).1 = .ok) :
    Clean (serveOne sp f m s).2 := by
  unfold serveOne at ho ⊢
  split at ho
  · rw [clean_failed h] at ho ⊢
    intro b hb
    simp only [Bool.false_eq_true, if_false, List.mem_cons] at hb
    rcases hb with rfl | hb
    · rfl
    · exact h b hb
  · split at ho
    · cases ho
    · rename_i b bs hb
      have := h b (by rw [hb]; simp)
      simp only [this, Bool.false_eq_true, if_false]
      exact fun c hc => h c (by rw [hb]; exact List.mem_cons_of_mem _ hc)
  · rw [clean_failed h] at ho ⊢
    simp only [Bool.false_eq_true, if_false] at ho ⊢
    split at ho
    · intro b hb; rw [effect_blocks] at hb; exact h b hb
    · cases ho
    · cases ho

theorem serve_clean {sp : Bool} : ∀ (ms : List ClientMsg) {f : Nat → Fate} {s : Session}, Clean s → (∀ a ∈ (serve sp f ms s).1, a = .ok) →
    Clean (serve sp f ms s).2
  | [], _, _, h, _ => h
  | m :: ms, f, s, h, ha => by
    rw [serve] at ha ⊢
    exact serve_clean ms (serveOne_clean h (ha _ (List.mem_cons_self ..))) fun a h => ha a (List.mem_cons_of_mem _ h)

theorem send_writable {cd : Codec} {w w' : World} {c c' : Conn} {b : Bytes} {rrs : List Response}
    (h : Conn.send cd w c b = .ok (w', c', rrs, none)) : Writable w := by
  rw [Conn.send] at h
  unfold World.write at h
  unfold Writable
  cases f1 : w.fault w.calls with
  | some x => rw [f1] at h; simp at h
  | none =>
    cases f2 : w.fault (w.calls + 1) with
    | some x => rw [f1, f2] at h; simp at h
    | none => exact ⟨rfl, rfl⟩

/-- where the answers end -/
theorem replies_rest {cd : Codec} {as : List Answer} {rrs' : List Response} {p rest : Bytes} (h : Replies cd as rrs' p rest) :
    ∀ {cts : List UInt8} {rrs : List Response} {rest' : Bytes}, AnsweredAll cd cts p rrs rest' → cts.length = as.length → rest' = rest := by
  induction h with
  | nil =>
    intro cts rrs rest' h hl
    cases h with
    | nil => rfl
    | cons => cases hl
  | cons h ha hs ih =>
    intro cts rrs rest' h' hl
    cases h' with
    | nil => cases hl
    | cons h' _ hs' =>
      obtain ⟨rfl, rfl⟩ := answered_det h h'
      exact ih hs' (by simpa using hl)

/-- If no answer is to come, no `Send` of a unit of work goes well. -/
theorem silent_send {cd : Codec} (hcd : RejectsHeaders cd) {K : Known} {p : Nat → Option Bytes} {us : GoUnit × List String} {b : Bytes}
    (hr : Recorded K p us b)
    {w w' : World} {c c' : Conn} (hc : Life cd c.r) {rrs : List Response} (hn : ∀ rr r, ¬Answered cd c.r.pending rr r)
    (h : Conn.send cd w c b = .ok (w', c', rrs, none)) : False := by
  obtain ⟨op, n, ns, vs, _, hd, _⟩ := recorded_msgs hr
  obtain ⟨fs, hfs, hlen⟩ := stream_frames hd
  have hall := C29_only_answers hcd (send_writable h) hc hfs h
  cases fs with
  | nil => simp [guarded] at hlen
  | cons f fs =>
    cases hall with
    | cons h1 _ _ => exact hn _ _ h1

theorem send_life {cd : Codec} {w w' : World} {c c' : Conn} {b : Bytes} {fs : List (UInt8 × Bytes)} {rrs : List Response} {e : Option ConnErr}
    (hc : Life cd c.r) (hb : readFrames b = some fs) (h : Conn.send cd w c b = .ok (w', c', rrs, e)) : Life cd c'.r := by
  obtain ⟨w1, c1, rrs1, e1, h1, h2, _⟩ := C31_safe cd (w := w) hc hb
  rw [h] at h1
  cases h1
  exact h2

/-- **C91.** A client sends one unit of work after the other on one connection, and stops at the first that is not answered OK for all
its messages.  Whatever the server and the network do, the database is then as a number of the units of work say, one after the other,
from the first one on: exactly those that went well, or, if the last `Send` returned an error, perhaps that one as well. -/
theorem C91_series {cd : Codec} (hcd : RejectsHeaders cd) {K : Known} {w : World} {c : Conn} {reqs : List Bytes} {n : Nat} {e : End}
    (hcl : Client cd w c reqs n e) : ∀ {us : List (GoUnit × List String)} {sp : Bool} {f : Nat → Nat → Fate} {S : Nat → Nat → Server V} {s : Session}
      {x x' : Store V} {p : Nat → Option Bytes}, RecordedAll K p us reqs → Life cd c.r → Clean s → x.saved = none → Agrees p x.toScope → (∀ i, Usual K (S i)) →
      Lives cd sp f S s x reqs c.r.pending x' →
      ∃ m y, UnitsDo S (us.take m) x.toScope y ∧ x'.durable = y.db ∧ m ≤ us.length ∧ (m = n ∨ m = n + 1 ∧ e = .broken) := by
  have durable_none : ∀ {x : Store V}, x.saved = none → x.durable = x.db := fun h => by rw [Store.durable, h]; rfl
  have last : ∀ {w w' : World} {c c' : Conn} {b : Bytes} {rrs : List Response} {e : Option ConnErr} {us : List (GoUnit × List String)} {sp : Bool}
      {f : Nat → Nat → Fate} {S : Nat → Nat → Server V} {s : Session} {x x' : Store V}
      {p : Nat → Option Bytes}, Conn.send cd w c b = .ok (w', c', rrs, e) →
      RecordedAll K p us [b] → Life cd c.r → Clean s → x.saved = none → Agrees p x.toScope → (∀ i, Usual K (S i)) → Lives cd sp f S s x [b] c.r.pending x' →
      ∃ m y, UnitsDo S (us.take m) x.toScope y ∧ x'.durable = y.db ∧ m ≤ us.length ∧ (m = 0 ∨ m = 1 ∧ (e = none → ∀ r ∈ rrs, r = .ok)) := by
    intro w w' c c' b rrs e us sp f S s x x' p h hus hc hs hx hg hS hlv
    cases hus with
    | @cons _ q u _ us _ hu hq hus =>
      cases hus
      have hw : Works cd sp (f 0) (S 0) s x b c.r.pending x' := by
        cases hlv with
        | done hd hr hx hl => cases hl; exact .done hd hr hx
        | lost hd hr hn hp hx => exact .lost hd hr hn hp hx
      obtain ⟨g, bb, bb', o, out, op, level, hb, h0, hf, hop, hrun, hbs, hsize, hl'⟩ := hu
      obtain ⟨ss, hl, key⟩ := C89_keys (V := V) hb h0 op level hf hrun hbs hsize hop
      rw [hl'] at hl
      cases hl
      obtain ⟨w1, c1, rrs1, e1, h1, k1, k2⟩ := key (w := w) hcd hc (clean_failed hs) hx hg (hS 0) hw
      rw [h] at h1
      cases h1
      by_cases hb : x'.durable = x.db
      · exact ⟨0, x.toScope, .nil, hb, by simp, .inl rfl⟩
      · rcases k1 with k1 | ⟨y, y1, y2⟩
        · exact absurd k1 hb
        · refine ⟨1, y, .cons y1 .nil, y2, by simp, .inr ⟨rfl, fun he r hr => ?_⟩⟩
          by_cases hok : r = .ok
          · exact hok
          · exact absurd ((k2 he).2 ⟨r, hr, hok⟩) hb
  induction hcl with
  | idle =>
    intro us sp f S s x x' p hus _ _ hx _ _ hlv
    cases hus
    cases hlv
    exact ⟨0, x.toScope, .nil, durable_none hx, by simp, .inl rfl⟩
  | refused h ha =>
    intro us sp f S s x x' p hus hc hs hx hg hS hlv
    obtain ⟨m, y, a1, a2, a3, a4⟩ := last h hus hc hs hx hg hS hlv
    refine ⟨m, y, a1, a2, a3, .inl ?_⟩
    rcases a4 with a4 | ⟨_, a4⟩
    · exact a4
    · obtain ⟨r, hr, hne⟩ := ha
      exact absurd (a4 rfl r hr) hne
  | broken h =>
    intro us sp f S s x x' p hus hc hs hx hg hS hlv
    obtain ⟨m, y, a1, a2, a3, a4⟩ := last h hus hc hs hx hg hS hlv
    exact ⟨m, y, a1, a2, a3, a4.imp id fun a4 => ⟨a4.1, rfl⟩⟩
  | @ok w w' c c' b bs rrs n e h ha hcl ih =>
    intro us sp f S s x x' p hus hc hs hx hg hS hlv
    cases hus with
    | @cons _ q u _ us _ hu hq hus =>
      obtain ⟨op, lv, ns, vs, hl, hd, hsend, hf, hv, hnd⟩ := recorded_msgs hu
      obtain ⟨fs, hfs, hlen⟩ := stream_frames hd
      have hall := C29_only_answers hcd (send_writable h) hc hfs h
      have hc' := send_life hc hfs h
      cases hlv with
      | @done _ _ _ _ x1 _ _ _ _ rest _ _ hd' hr hp hlv =>
        rw [hd] at hd'
        cases hd'
        have hsl : (fs.map Prod.fst).length = (serve sp (f 0) (guarded op u.2 ns) s).1.length := by rw [List.length_map, hlen, serve_length]
        obtain rfl := replies_rest hr hall hsl
        rw [(replies_seen hr hall).2 hsl] at ha
        have hok := (replies_ok hr).mp ha
        obtain ⟨d1, d2, d3⟩ := guarded_playOk hl hsend hf hv hnd (hS 0) hg (plays_all_ok _ _ _ (serve_length ..) hok hp)
        obtain ⟨m, y, a1, a2, a3, a4⟩ := ih hus hc' (serve_clean _ hs hok) d2 (d3 q hq) (fun i => hS (i + 1)) hlv
        exact ⟨m + 1, y, .cons d1 a1, a2, by simpa using a3, a4.imp (fun h => by omega) fun h => ⟨by omega, h.2⟩⟩
      | @lost _ _ _ _ x1 _ _ _ full rest _ rrs' k hd' hr hn hp hpl =>
        rw [hd] at hd'
        cases hd'
        obtain ⟨t, rfl⟩ := hp
        have hall' := answeredAll_more hall t
        have hk : (guarded op u.2 ns).take k = guarded op u.2 ns := by
          rcases (replies_seen hr hall').1 with h1 | ⟨rr, r, h1⟩
          · rw [serve_length, List.length_map, hlen, List.length_take] at h1
            exact List.take_of_length_le (by omega)
          · exact absurd h1 (hn rr r)
        rw [hk] at hr hpl
        have hsl : (fs.map Prod.fst).length = (serve sp (f 0) (guarded op u.2 ns) s).1.length := by rw [List.length_map, hlen, serve_length]
        obtain rfl := replies_rest hr hall' hsl
        rw [(replies_seen hr hall').2 hsl] at ha
        have hok := (replies_ok hr).mp ha
        obtain ⟨d1, d2, d3⟩ := guarded_playOk hl hsend hf hv hnd (hS 0) hg (plays_all_ok _ _ _ (serve_length ..) hok hpl)
        have hn' : ∀ rr r, ¬Answered cd c'.r.pending rr r := fun rr r h => hn rr (r ++ t) (answered_more h t)
        have hn0 : n = 0 := by
          cases hcl with
          | idle => rfl
          | refused => rfl
          | broken => rfl
          | ok h2 _ _ =>
            cases hus with
            | cons hu2 _ _ => exact (silent_send hcd hu2 hc' hn' h2).elim
        refine ⟨1, x1.toScope, .cons d1 .nil, ?_, by simp, .inl (by omega)⟩
        show x1.drop.durable = x1.db
        simp [Store.drop, Store.durable, d2]

/-- C91: such a client always gets to an end. -/
theorem C91_ends {cd : Codec} {K : Known} {p : Nat → Option Bytes} {us : List (GoUnit × List String)} {reqs : List Bytes} (h : RecordedAll K p us reqs) :
    ∀ {w : World} {c : Conn}, Life cd c.r → ∃ k n e, Client cd w c (reqs.take k) n e ∧ (e = .all → k = reqs.length) ∧ (e = .all ∨ k = n + 1) := by
  induction h with
  | nil => intro w c _; exact ⟨0, 0, .all, .idle, fun _ => rfl, .inl rfl⟩
  | @cons p q u b us reqs hu _ hus ih =>
    intro w c hc
    obtain ⟨op, lv, ns, vs, hl, hd, _⟩ := recorded_msgs hu
    obtain ⟨fs, hfs, hlen⟩ := stream_frames hd
    obtain ⟨w', c', rrs, e, h1, h2, _⟩ := C31_safe cd (w := w) hc hfs
    cases e with
    | some e => exact ⟨1, 0, .broken, .broken h1, nofun, .inr rfl⟩
    | none =>
      by_cases hok : ∀ r ∈ rrs, r = .ok
      · obtain ⟨k, n, e, a1, a2, a3⟩ := ih (w := w') h2
        exact ⟨k + 1, n + 1, e, .ok h1 hok a1, fun h => by rw [a2 h]; rfl, a3.imp id (by omega)⟩
      · obtain ⟨r, hr⟩ := Classical.not_forall.mp hok
        obtain ⟨hr, hne⟩ := Classical.not_imp.mp hr
        exact ⟨1, 0, .refused, .refused h1 ⟨r, hr, hne⟩, nofun, .inr rfl⟩

/-! ### cases -/

/-- what is sent for `Expect(Tx(keysUnit))` -/
def keysReq : Bytes := (appended (newPipe 0) (.expect 0 (.tx 0 (progU keysUnit) fun o => .ret none o) fun o => .ret none o)).getD []

theorem keysReq_recorded : Recorded knownEx (fun _ => none) (keysUnit, ["START TRANSACTION"]) keysReq := by
  have h : (match run growEx (.expect 0 (.tx 0 (progU keysUnit) fun o => .ret none o) fun o => .ret none o) [] (newPipe 0) with
      | .ok (_, b', _) => (match b'.send with | .ok (.ok bs) => bs == keysReq | _ => false)
      | .error _ => false) = true := by decide +kernel
  split at h
  · rename_i o b' out hr
    split at h
    · rename_i bs hs
      exact ⟨growEx, newPipe 0, b', o, out, 0, 0, ⟨rfl, rfl⟩, rfl, keysUnit_fine, by decide, hr, by rw [hs, eq_of_beq h],
        by decide +kernel, rfl⟩
    · cases h
  · cases h

def keysGuarded : List ClientMsg := (decodeStream keysReq).getD []

theorem keysReq_read : decodeStream keysReq = some keysGuarded := by
  have h : (decodeStream keysReq).isSome = true := by decide +kernel
  obtain ⟨ms, h⟩ := Option.isSome_iff_exists.mp h
  rw [keysGuarded, h]; rfl

/-- `Prepare(7, "INSERT INTO tag (a) VALUES (?)")` -/
def firstUnit : GoUnit := .prepare 7 tagText .done

/-- what is sent for `Expect(Tx(firstUnit))` and `Expect(Tx(executeUnit))` -/
def firstReq : Bytes := (appended (newPipe 0) (.expect 0 (.tx 0 (progU firstUnit) fun o => .ret none o) fun o => .ret none o)).getD []
def executeReq : Bytes := (appended (newPipe 0) (.expect 0 (.tx 0 (progU executeUnit) fun o => .ret none o) fun o => .ret none o)).getD []

/-- Statements are prepared in one unit of work and executed in the next ones. -/
theorem prepared_recorded : RecordedAll knownEx (fun _ => none)
    [(firstUnit, ["START TRANSACTION"]), (executeUnit, ["START TRANSACTION"]), (executeUnit, ["START TRANSACTION"])]
    [firstReq, executeReq, executeReq] := by
  have h1 : (match run growEx (.expect 0 (.tx 0 (progU firstUnit) fun o => .ret none o) fun o => .ret none o) [] (newPipe 0) with
      | .ok (_, b', _) => (match b'.send with | .ok (.ok bs) => bs == firstReq | _ => false)
      | .error _ => false) = true := by decide +kernel
  have h2 : (match run growEx (.expect 0 (.tx 0 (progU executeUnit) fun o => .ret none o) fun o => .ret none o) [] (newPipe 0) with
      | .ok (_, b', _) => (match b'.send with | .ok (.ok bs) => bs == executeReq | _ => false)
      | .error _ => false) = true := by decide +kernel
  have r1 : Recorded knownEx (fun _ => none) (firstUnit, ["START TRANSACTION"]) firstReq := by
    split at h1
    · rename_i o b' out hr
      split at h1
      · rename_i bs hs
        exact ⟨growEx, newPipe 0, b', o, out, 0, 0, ⟨rfl, rfl⟩, rfl, trivial, by decide, hr, by rw [hs, eq_of_beq h1], by decide +kernel, rfl⟩
      · cases h1
    · cases h1
  have r2 : Recorded knownEx seven (executeUnit, ["START TRANSACTION"]) executeReq := by
    split at h2
    · rename_i o b' out hr
      split at h2
      · rename_i bs hs
        exact ⟨growEx, newPipe 0, b', o, out, 0, 0, ⟨rfl, rfl⟩, rfl, executeUnit_fine, by decide, hr, by rw [hs, eq_of_beq h2], by decide +kernel, rfl⟩
      · cases h2
    · cases h2
  exact .cons r1 (q := seven) (fun _ _ h => h) (.cons r2 (q := seven) (fun _ _ h => h) (.cons r2 (q := seven) (fun _ _ h => h) .nil))

/-- what the server has then -/
example : showTable (((playOk serversEx ((decodeStream firstReq).getD []) keysStore).bind (playOk serversEx ((decodeStream executeReq).getD []))).bind
    (playOk serversEx ((decodeStream executeReq).getD []))) "tag" = some [(some none, some (some 6)), (some none, some (some 6))] := by decide +kernel

/-- The unit of work sent twice; the j-th message of the i-th one generates the ids from 100 i + 10 j on. -/
def seriesServers : Nat → Nat → Server (Option Int) := fun i j => serversEx (10 * i + j)

/-- Nothing fails in the first one; in the second one the message `k` does, if there is one. -/
def seriesScript (k : Nat) : Nat → Nat → Fate := fun i => if i = 0 then failsAt 99 else failsAt k

/-- the answers to both -/
def seriesAnswers (k : Nat) : List Answer × List Answer :=
  let r := serve false (failsAt 99) keysGuarded freshSession
  (r.1, (serve false (failsAt k) keysGuarded r.2).1)

def seriesConn (k : Nat) : Conn := Conn.new .tcp ⟨[(seriesAnswers k).1.flatMap answerBytes, (seriesAnswers k).2.flatMap answerBytes], .eof, true⟩

/-- how many of the units of work go well, and whether the last one gets responses -/
def clientRun (c : Conn) : Option (Nat × Bool) :=
  match Conn.send toyCodec calm c keysReq with
  | .ok (w', c', rrs, none) =>
    if rrs.all (decide <| · = .ok) then
      match Conn.send toyCodec w' c' keysReq with
      | .ok (_, _, rrs, none) => if rrs.all (decide <| · = .ok) then some (2, true) else some (1, true)
      | .ok (_, _, _, some _) => some (1, false)
      | _ => none
    else some (0, true)
  | .ok (_, _, _, some _) => some (0, false)
  | _ => none

example : clientRun (seriesConn 99) = some (2, true) ∧ clientRun (seriesConn 3) = some (1, true) := by decide +kernel

attribute [local irreducible] keysGuarded keysReq in
/-- The hypotheses of `C91_series` are met with both going well, and after that the tables are those of both. -/
example : ∃ x' y, Lives toyCodec false (seriesScript 99) seriesServers freshSession keysStore [keysReq, keysReq] (seriesConn 99).r.pending x' ∧
    Client toyCodec calm (seriesConn 99) [keysReq, keysReq] 2 .all ∧
    UnitsDo seriesServers [(keysUnit, ["START TRANSACTION"]), (keysUnit, ["START TRANSACTION"])] keysStore.toScope y ∧ x'.durable = y.db ∧
    showTable (some x') "parent" = some [(some (some 1), some (some 5)), (some (some 120), some (some 3)), (some (some 220), some (some 3))] ∧
    showTable (some x') "child" = some [(some (some 140), some (some 120)), (some (some 141), some (some 8)),
      (some (some 240), some (some 220)), (some (some 241), some (some 8))] := by
  have hp : ((playOk (seriesServers 0) keysGuarded keysStore).bind (playOk (seriesServers 1) keysGuarded)).isSome = true := by decide +kernel
  have ht : showTable ((playOk (seriesServers 0) keysGuarded keysStore).bind (playOk (seriesServers 1) keysGuarded)) "parent" =
        some [(some (some 1), some (some 5)), (some (some 120), some (some 3)), (some (some 220), some (some 3))] ∧
      showTable ((playOk (seriesServers 0) keysGuarded keysStore).bind (playOk (seriesServers 1) keysGuarded)) "child" =
        some [(some (some 140), some (some 120)), (some (some 141), some (some 8)), (some (some 240), some (some 220)), (some (some 241), some (some 8))] := by
    decide +kernel
  obtain ⟨x', hx⟩ := Option.isSome_iff_exists.mp hp
  rw [hx] at ht
  obtain ⟨x1, e1, e2⟩ := Option.bind_eq_some_iff.mp hx
  have hok : (∀ a ∈ (seriesAnswers 99).1, a = .ok) ∧ ∀ a ∈ (seriesAnswers 99).2, a = .ok := by decide +kernel
  obtain ⟨rrs2, r2⟩ := replies_possible (seriesAnswers 99).2 []
  obtain ⟨rrs1, r1⟩ := replies_possible (seriesAnswers 99).1 ((seriesAnswers 99).2.flatMap answerBytes ++ [])
  have hlv : Lives toyCodec false (seriesScript 99) seriesServers freshSession keysStore [keysReq, keysReq] (seriesConn 99).r.pending x' := by
    have : (seriesConn 99).r.pending = (seriesAnswers 99).1.flatMap answerBytes ++ ((seriesAnswers 99).2.flatMap answerBytes ++ []) := by decide +kernel
    rw [this]
    have s0 : seriesScript 99 0 = failsAt 99 := rfl
    have s1 : seriesScript 99 (0 + 1) = failsAt 99 := rfl
    refine .done (ms := keysGuarded) (rrs := rrs1) (x1 := x1) keysReq_read (by rw [s0]; exact r1)
      (by rw [s0]; exact plays_ok _ _ _ (serve_length ..) hok.1 e1) ?_
    rw [s0]
    refine .done (ms := keysGuarded) (rrs := rrs2) (x1 := x') keysReq_read (by rw [s1]; exact r2)
      (by rw [s1]; exact plays_ok _ _ _ (serve_length ..) hok.2 e2) .idle
  have hcl : Client toyCodec calm (seriesConn 99) [keysReq, keysReq] 2 .all := by
    have h : clientRun (seriesConn 99) = some (2, true) := by decide +kernel
    unfold clientRun at h
    split at h
    · rename_i w' c' rrs hs
      split at h
      · rename_i ha
        split at h
        · rename_i w2 c2 rrs2 hs2
          split at h
          · rename_i ha2
            exact .ok hs (by simpa using ha) (.ok hs2 (by simpa using ha2) .idle)
          · cases h
        · cases h
        · cases h
      · cases h
    · cases h
    · cases h
  obtain ⟨m, y, a1, a2, a3, a4⟩ := C91_series toyCodec_rejects hcl (.cons keysReq_recorded (q := fun _ => none) (fun _ _ _ h => nomatch h)
    (.cons keysReq_recorded (q := fun _ => none) (fun _ _ _ h => nomatch h) .nil)) (.new .tcp _ nofun) (by nofun) rfl (agrees_none _)
    (fun i j => serversEx_usual _) hlv
  obtain rfl : m = 2 := by exact a4.elim id fun h => nomatch h.2
  exact ⟨x', y, hlv, hcl, a1, a2, ht.1, ht.2⟩

/-- the same with a first unit of work in which the insert into `child` fails -/
def torn : Option (Store (Option Int)) :=
  (playOk (seriesServers 0) (keysGuarded.take 4) keysStore).bind (playOk (seriesServers 1) keysGuarded)

attribute [local irreducible] keysGuarded keysReq in
/-- C91: the client has to stop.  If it goes on with the next unit of work after one with error responses, that one begins with the
transaction of the first one still open, and commits what it has done: here a parent without its children.  (C51 in terms of tables.) -/
theorem C91_needs_stop : ∃ x', Lives toyCodec false (fun i => if i = 0 then failsAt 4 else failsAt 99) seriesServers freshSession keysStore
      [keysReq, keysReq] (([Answer.ok, .ok, .ok, .ok, .failed, .skipped, .failed] ++ List.replicate 7 Answer.ok).flatMap answerBytes) x' ∧ x'.saved = none ∧
    showTable (some x') "parent" = some [(some (some 1), some (some 5)), (some (some 120), some (some 3)), (some (some 220), some (some 3))] ∧
    showTable (some x') "child" = some [(some (some 240), some (some 220)), (some (some 241), some (some 8))] := by
  have hp : torn.isSome = true := by decide +kernel
  have ht : torn.map (·.saved.isNone) = some true ∧
      showTable torn "parent" = some [(some (some 1), some (some 5)), (some (some 120), some (some 3)), (some (some 220), some (some 3))] ∧
      showTable torn "child" = some [(some (some 240), some (some 220)), (some (some 241), some (some 8))] := by decide +kernel
  obtain ⟨x', hx⟩ := Option.isSome_iff_exists.mp hp
  rw [hx] at ht
  obtain ⟨x1, e1, e2⟩ := Option.bind_eq_some_iff.mp hx
  have a1 : (serve false (failsAt 4) keysGuarded freshSession).1 = [.ok, .ok, .ok, .ok] ++ [.failed, .skipped, .failed] := by decide +kernel
  have a2 : (serve false (failsAt 99) keysGuarded (serve false (failsAt 4) keysGuarded freshSession).2).1 = List.replicate 7 .ok := by decide +kernel
  have hl : keysGuarded.length = 7 := by decide +kernel
  obtain ⟨rrs2, r2⟩ := replies_possible (List.replicate 7 Answer.ok) []
  obtain ⟨rrs1, r1⟩ := replies_possible ([.ok, .ok, .ok, .ok] ++ [.failed, .skipped, .failed]) ((List.replicate 7 Answer.ok).flatMap answerBytes ++ [])
  have pl : Plays (seriesServers 0) (keysGuarded.zip ([.ok, .ok, .ok, .ok] ++ [.failed, .skipped, .failed])) keysStore x1 := by
    have := plays_ok (keysGuarded.take 4) (seriesServers 0) [.ok, .ok, .ok, .ok] (by rw [List.length_take, hl]; rfl) (by simp) e1
    obtain ⟨m0, m1, m2, m3, m4, m5, m6, hg⟩ : ∃ m0 m1 m2 m3 m4 m5 m6, keysGuarded = [m0, m1, m2, m3, m4, m5, m6] := by
      match keysGuarded, hl with
      | [m0, m1, m2, m3, m4, m5, m6], _ => exact ⟨_, _, _, _, _, _, _, rfl⟩
    rw [hg] at this ⊢
    cases this with
    | ok h0 this =>
    cases this with
    | ok h1 this =>
    cases this with
    | ok h2 this =>
    cases this with
    | ok h3 this =>
    cases this
    exact .ok h0 (.ok h1 (.ok h2 (.ok h3 (.failed (.inl ⟨rfl, rfl⟩) (.skipped (.failed (.inl ⟨rfl, rfl⟩) .nil))))))
  refine ⟨x', ?_, by simpa using ht.1, ht.2.1, ht.2.2⟩
  refine .done (ms := keysGuarded) (rrs := rrs1) (x1 := x1) (rest := (List.replicate 7 Answer.ok).flatMap answerBytes ++ []) keysReq_read
    (by rw [if_pos rfl, a1]; exact r1) (by rw [if_pos rfl, a1]; exact pl) ?_
  rw [if_pos rfl]
  refine .done (ms := keysGuarded) (rrs := rrs2) (x1 := x') keysReq_read (by rw [if_neg (by simp), a2]; exact r2)
    (by rw [if_neg (by simp), a2]; exact plays_ok _ _ _ (by rw [hl]; rfl) (by simp) e2) .idle

end Verif.Props
