import Verif.Props.Keys
/-! C90: ids in later units of work. -/
namespace Verif.Props
open Verif.Go Verif.Spec Verif.Model Verif.Proof Verif.Spec.Sql

variable {V : Type}

/-- What a unit of work puts into an empty buffer. -/
theorem unit_sends {g : Grow} {b b' : Builder} {u : GoUnit} {o : List Builder} {out : List (Option Val)} {K : Known} {p : Nat → Option Bytes} (hb : Ready b)
    (h0 : b.buf.data = []) (hf : fineP K p u) (h : run g (progU u) [] b = .ok (o, b', out)) (he : b'.err = none) (hsize : b'.buf.data.length < 2 ^ 32) :
    ∃ ns vs, SendsAll u ns vs ∧ (∀ v ∈ vs, isVariable v = true ∧ v.length < 124) ∧ vs.Nodup ∧ decodeStream b'.buf.data = some ns := by
  obtain ⟨st, ks, h1, h2, h5⟩ := run_ready hb h
  cases st with
  | error e => rw [show b'.err = some e from h2.2] at he; cases he
  | ok ms =>
    have hv : ∀ v ∈ ks.map idVariable, isVariable v = true ∧ v.length < 124 := by
      intro v hv
      obtain ⟨k, hk, rfl⟩ := List.mem_map.mp hv
      refine ⟨(idVariable_name k).2, ?_⟩
      have h6 := h5.high k hk ms rfl
      rw [h2.2.2, List.length_append] at hsize
      have h7 := decimal_length_le 9 k (by unfold fill at h6; omega)
      simp only [idVariable, List.length_append, show (ascii "@id$").length = 4 from rfl]
      omega
    obtain ⟨ns, hms, hs⟩ := exec_progU u h1
    rw [List.nil_append] at hms
    subst hms
    refine ⟨_, _, hs, hv, h5.nodup, ?_⟩
    have hm := (sends_does (V := Unit) hs hf hv).1
    have hg := exec_good h1
    obtain ⟨_, fr, e1, e2⟩ := h2.holds fun m hm' => hg _ _ rfl rfl (by simp) m hm' (hm m hm').1
    rw [h0, List.nil_append] at e1
    rw [e1] at hsize ⊢
    exact e2 hsize

/-- The statements of the user set no variables. -/
def Tame (K : Known) (S : Nat → Server V) : Prop := ∀ i m, K.within m → ∀ x x', (S i).rest x m = some x' → x'.vars = x.vars

/-- Only `InsertRow` sets variables, and only its own. -/
theorem sends_vars {K : Known} {u : GoUnit} {ns : List ClientMsg} {vs : List Bytes} (h : SendsAll u ns vs) :
    ∀ {p : Nat → Option Bytes}, fineP K p u → (∀ v ∈ vs, isVariable v = true ∧ v.length < 124) → ∀ (S : Nat → Server V), Usual K S → Tame K S →
      ∀ x x' : Store V, Agrees p x.toScope → playOk S ns x = some x' → ∀ v, captureId v ∉ ns → x'.vars v = x.vars v := by
  induction h with
  | done => intro p _ _ S _ _ x x' _ h v _; cases h; rfl
  | @stmt s k m ns vs h1 h2 ih =>
    intro p hf hv S hS ht x x' hg hp v hn
    rw [playOk, Option.bind_eq_some_iff] at hp
    obtain ⟨x1, e1, e2⟩ := hp
    obtain ⟨a1, _⟩ := (sends_step (V := V) hf.1 h1).2.2 (S 0) (hS 0).2.1 ((hS 0).1 ▸ hf.2.1) x x1 e1
    rw [ih hf.2.2 hv _ (fun i => hS (i + 1)) (fun i => ht (i + 1)) _ _ (fun i t h => by rw [(step_stmts a1).1]; exact hg i t h) e2 v
      fun h => hn (List.mem_cons_of_mem _ h), (step_stmts a1).2]
  | @raw text args k as ns vs ha h2 ih =>
    intro p hf hv S hS ht x x' hg hp v hn
    obtain ⟨f1, f2, f3⟩ := hf.1 as ha
    rw [playOk, Option.bind_eq_some_iff] at hp
    obtain ⟨x1, e1, e2⟩ := hp
    rw [exec_raw _ _ f1 f2] at e1
    rw [ih hf.2 hv _ (fun i => hS (i + 1)) (fun i => ht (i + 1)) _ _ (fun i t h => by rw [((hS 0).2.2 _ f3 _ _ e1).2]; exact hg i t h) e2 v
      fun h => hn (List.mem_cons_of_mem _ h), ht 0 _ f3 _ _ e1]
  | @prepare id text k ns vs h2 ih =>
    intro p hf hv S hS ht x x' hg hp v hn
    exact ih hf hv _ (fun i => hS (i + 1)) (fun i => ht (i + 1)) { x with toScope := x.toScope.prepare id.toNat (some text) } _ (hg.prepare _ _) hp v
      fun h => hn (List.mem_cons_of_mem _ h)
  | @execute id args k as ns vs ha h2 ih =>
    intro p hf hv S hS ht x x' hg hp v hn
    obtain ⟨text, h3, h4⟩ := hf.1
    obtain ⟨f1, f2, f3⟩ := h4 as ha
    rw [playOk, Option.bind_eq_some_iff] at hp
    obtain ⟨x1, e1, e2⟩ := hp
    rw [exec_prepared _ _ (hg _ _ h3) f1 f2] at e1
    rw [ih hf.2 hv _ (fun i => hS (i + 1)) (fun i => ht (i + 1)) _ _ (fun i t h => by rw [((hS 0).2.2 _ f3 _ _ e1).2]; exact hg i t h) e2 v
      fun h => hn (List.mem_cons_of_mem _ h), ht 0 _ f3 _ _ e1]
  | @deallocate id k ns vs h2 ih =>
    intro p hf hv S hS ht x x' hg hp v hn
    exact ih hf hv _ (fun i => hS (i + 1)) (fun i => ht (i + 1)) { x with toScope := x.toScope.prepare id.toNat none } _ (hg.prepare _ _) hp v
      fun h => hn (List.mem_cons_of_mem _ h)
  | @insertRow t cols es k rs w ns vs hr h2 ih =>
    intro p hf hv S hS ht x x' hg hp v hn
    obtain ⟨v1, v2⟩ := hv w (List.mem_cons_self ..)
    rw [playOk, Option.bind_eq_some_iff] at hp
    obtain ⟨x1, e1, e2⟩ := hp
    rw [playOk, exec_capture _ _ v1, Option.bind_some] at e2
    obtain ⟨a, ha, hac⟩ := hf.2.1
    obtain ⟨db', _, rfl⟩ := ((insert_numbered (V := V) (data := [es]) hf.1 hr).2 (S 0)
      (by rw [(hS 0).1, ha]; intro b hb; cases hb; exact hac) x x1).mp e1
    rw [ih (hf.2.2 w v2) (fun u hu => hv u (List.mem_cons_of_mem _ hu)) _ (fun i => hS (i + 1 + 1)) (fun i => ht (i + 1 + 1)) _ _ (by exact fun i t h => hg i t h) e2 v
      fun h => hn (List.mem_cons_of_mem _ (List.mem_cons_of_mem _ h))]
    have hne : v ≠ w := fun h => hn (by rw [h]; simp)
    simp [hne]

/-- Two units of work, the second one sent after the first and on the same connection, each from an empty buffer: `v` is the name of an
id that the first one returned.  The messages in `ms2` are those of the second. -/
def LaterKeeps (ok : Bytes → List ClientMsg → Prop) : Prop :=
  ∀ {V : Type} (g : Grow) {b1 b1' b2 b2' : Builder} {u1 u2 : GoUnit} {o1 o2 : List Builder} {out1 out2 : List (Option Val)} {K : Known}
    {p1 p2 : Nat → Option Bytes}, Ready b1 → Ready b2 → b1.buf.data = [] → b2.buf.data = [] → fineP K p1 u1 → fineP K p2 u2 →
    run g (progU u1) [] b1 = .ok (o1, b1', out1) → run g (progU u2) [] b2 = .ok (o2, b2', out2) → b1'.err = none → b2'.err = none →
    b1'.buf.data.length < 2 ^ 32 → b2'.buf.data.length < 2 ^ 32 →
    ∀ {ms1 ms2 : List ClientMsg}, decodeStream b1'.buf.data = some ms1 → decodeStream b2'.buf.data = some ms2 →
    ∀ {S : Nat → Server V} {x x1 x2 : Store V}, Usual K S → Tame K S → Agrees p1 x.toScope → Agrees p2 x1.toScope →
    playOk S ms1 x = some x1 → playOk (fun i => S (ms1.length + i)) ms2 x1 = some x2 →
    ∀ v, captureId v ∈ ms1 → ok v ms2 → x2.vars v = x1.vars v

/-- C90 in full: the id goes on to stand for the same row. -/
def C90_full : Prop := LaterKeeps fun _ _ => True

/-- C90: it does unless the second unit of work has an `InsertRow` that returns the same name.  (Missing: that it always does, see
`C90_wrong`.) -/
theorem C90_partial : LaterKeeps fun v ms2 => captureId v ∉ ms2 := by
  intro V g b1 b1' b2 b2' u1 u2 o1 o2 out1 out2 K p1 p2 _ hb2 _ h02 _ hf2 _ hr2 _ he2 _ hs2 ms1 ms2 _ hd2 S x x1 x2 hS ht _ hg _ hp2 v _ hn
  obtain ⟨ns, vs, a1, a2, _, a3⟩ := unit_sends hb2 h02 hf2 hr2 he2 hs2
  rw [hd2] at a3
  cases a3
  exact sends_vars a1 hf2 a2 _ (fun i => hS _) (fun i => ht _) _ _ hg hp2 v hn

theorem captureId_inj {v w : Bytes} (h : captureId v = captureId w) : v = w := by
  unfold captureId at h
  injection h with h
  exact List.append_cancel_left (List.append_cancel_right h)

theorem sends_not_capture {s : GoStmt} {m : ClientMsg} (h : Sends s m) (v : Bytes) : m ≠ captureId v := by
  cases h <;> (unfold captureId; intro h; cases h)

theorem raw_not_capture {m : ClientMsg} (h : captured m = none) {v : Bytes} (hv : isVariable v = true) : m ≠ captureId v := by
  rintro rfl
  rw [captured_id hv] at h
  cases h

/-- The messages that save an id are those of `InsertRow`. -/
theorem sends_captures {K : Known} {u : GoUnit} {ns : List ClientMsg} {vs : List Bytes} (h : SendsAll u ns vs) {v : Bytes}
    (hv' : isVariable v = true) : ∀ {p : Nat → Option Bytes}, fineP K p u → (∀ v ∈ vs, v.length < 124) → captureId v ∈ ns → v ∈ vs := by
  induction h with
  | done => intro _ _ _ h; cases h
  | stmt h1 _ ih =>
    intro p hf hv h
    rcases List.mem_cons.mp h with h | h
    · exact absurd h.symm (sends_not_capture h1 v)
    · exact ih hf.2.2 hv h
  | raw ha _ ih =>
    intro p hf hv h
    rcases List.mem_cons.mp h with h | h
    · exact absurd h.symm (raw_not_capture (hf.1 _ ha).1 hv')
    · exact ih hf.2 hv h
  | prepare _ ih =>
    intro p hf hv h
    rcases List.mem_cons.mp h with h | h
    · unfold captureId at h; cases h
    · exact ih hf hv h
  | execute _ _ ih =>
    intro p hf hv h
    rcases List.mem_cons.mp h with h | h
    · unfold captureId at h; cases h
    · exact ih hf.2 hv h
  | deallocate _ ih =>
    intro p hf hv h
    rcases List.mem_cons.mp h with h | h
    · unfold captureId at h; cases h
    · exact ih hf hv h
  | insertRow _ _ ih =>
    intro p hf hv h
    rcases List.mem_cons.mp h with h | h
    · unfold captureId at h; cases h
    · rcases List.mem_cons.mp h with h | h
      · rw [captureId_inj h]; exact List.mem_cons_self ..
      · exact List.mem_cons_of_mem _ (ih (hf.2.2 _ (hv _ (List.mem_cons_self ..))) (fun w hw => hv w (List.mem_cons_of_mem _ hw)) h)

theorem sends_head {K : Known} {u : GoUnit} {ns : List ClientMsg} {vs : List Bytes} (h : SendsAll u ns vs) {p : Nat → Option Bytes} (hf : fineP K p u) {v : Bytes}
    (hv : isVariable v = true) : ns[0]? ≠ some (captureId v) := by
  cases h with
  | done => intro h; cases h
  | stmt h1 _ => intro h; exact sends_not_capture h1 v (by simpa using h)
  | raw ha _ => intro h; exact raw_not_capture (hf.1 _ ha).1 hv (by simpa using h)
  | prepare _ => intro h; simp [captureId] at h
  | execute _ _ => intro h; simp [captureId] at h
  | deallocate _ => intro h; simp [captureId] at h
  | insertRow _ _ => intro h; simp [captureId] at h

/-- After a unit of work each of its variables has the id of the row inserted just before it was set. -/
theorem sends_set {K : Known} {u : GoUnit} {ns : List ClientMsg} {vs : List Bytes} (h : SendsAll u ns vs) :
    ∀ {p : Nat → Option Bytes}, fineP K p u → (∀ v ∈ vs, isVariable v = true ∧ v.length < 124) → vs.Nodup → ∀ (S : Nat → Server V), Usual K S → Tame K S →
      ∀ x x' : Store V, Agrees p x.toScope → playOk S ns x = some x' →
      ∀ v i, isVariable v = true → ns[i + 1]? = some (captureId v) → x'.vars v = some ((S i).ids 0) := by
  induction h with
  | done => intro p _ _ _ S _ _ x x' _ _ v i _ h; cases h
  | @stmt s k m ns vs h1 h2 ih =>
    intro p hf hv hnd S hS ht x x' hg hp v i hiv hi
    rw [playOk, Option.bind_eq_some_iff] at hp
    obtain ⟨x1, e1, e2⟩ := hp
    obtain ⟨a1, _⟩ := (sends_step (V := V) hf.1 h1).2.2 (S 0) (hS 0).2.1 ((hS 0).1 ▸ hf.2.1) x x1 e1
    rw [List.getElem?_cons_succ] at hi
    cases i with
    | zero => exact absurd hi (sends_head h2 hf.2.2 hiv)
    | succ i =>
      exact ih hf.2.2 hv hnd _ (fun i => hS (i + 1)) (fun i => ht (i + 1)) _ _ (fun i t h => by rw [(step_stmts a1).1]; exact hg i t h) e2 v i hiv hi
  | @raw text args k as ns vs ha h2 ih =>
    intro p hf hv hnd S hS ht x x' hg hp v i hiv hi
    obtain ⟨f1, f2, f3⟩ := hf.1 as ha
    rw [playOk, Option.bind_eq_some_iff] at hp
    obtain ⟨x1, e1, e2⟩ := hp
    rw [exec_raw _ _ f1 f2] at e1
    rw [List.getElem?_cons_succ] at hi
    cases i with
    | zero => exact absurd hi (sends_head h2 hf.2 hiv)
    | succ i =>
      exact ih hf.2 hv hnd _ (fun i => hS (i + 1)) (fun i => ht (i + 1)) _ _ (fun i t h => by rw [((hS 0).2.2 _ f3 _ _ e1).2]; exact hg i t h) e2 v i hiv hi
  | @prepare id text k ns vs h2 ih =>
    intro p hf hv hnd S hS ht x x' hg hp v i hiv hi
    rw [List.getElem?_cons_succ] at hi
    cases i with
    | zero => exact absurd hi (sends_head h2 hf hiv)
    | succ i =>
      exact ih hf hv hnd _ (fun i => hS (i + 1)) (fun i => ht (i + 1)) { x with toScope := x.toScope.prepare id.toNat (some text) } _ (hg.prepare _ _) hp v i hiv hi
  | @execute id args k as ns vs ha h2 ih =>
    intro p hf hv hnd S hS ht x x' hg hp v i hiv hi
    obtain ⟨text, h3, h4⟩ := hf.1
    obtain ⟨f1, f2, f3⟩ := h4 as ha
    rw [playOk, Option.bind_eq_some_iff] at hp
    obtain ⟨x1, e1, e2⟩ := hp
    rw [exec_prepared _ _ (hg _ _ h3) f1 f2] at e1
    rw [List.getElem?_cons_succ] at hi
    cases i with
    | zero => exact absurd hi (sends_head h2 hf.2 hiv)
    | succ i =>
      exact ih hf.2 hv hnd _ (fun i => hS (i + 1)) (fun i => ht (i + 1)) _ _ (fun i t h => by rw [((hS 0).2.2 _ f3 _ _ e1).2]; exact hg i t h) e2 v i hiv hi
  | @deallocate id k ns vs h2 ih =>
    intro p hf hv hnd S hS ht x x' hg hp v i hiv hi
    rw [List.getElem?_cons_succ] at hi
    cases i with
    | zero => exact absurd hi (sends_head h2 hf hiv)
    | succ i =>
      exact ih hf hv hnd _ (fun i => hS (i + 1)) (fun i => ht (i + 1)) { x with toScope := x.toScope.prepare id.toNat none } _ (hg.prepare _ _) hp v i hiv hi
  | @insertRow t cols es k rs w ns vs hr h2 ih =>
    intro p hf hv hnd S hS ht x x' hg hp v i hiv hi
    obtain ⟨v1, v2⟩ := hv w (List.mem_cons_self ..)
    have hv' : ∀ v ∈ vs, isVariable v = true ∧ v.length < 124 := fun u hu => hv u (List.mem_cons_of_mem _ hu)
    obtain ⟨hw, hnd⟩ := List.nodup_cons.mp hnd
    rw [playOk, Option.bind_eq_some_iff] at hp
    obtain ⟨x1, e1, e2⟩ := hp
    rw [playOk, exec_capture _ _ v1, Option.bind_some] at e2
    obtain ⟨a, ha, hac⟩ := hf.2.1
    obtain ⟨db', _, rfl⟩ := ((insert_numbered (V := V) (data := [es]) hf.1 hr).2 (S 0)
      (by rw [(hS 0).1, ha]; intro b hb; cases hb; exact hac) x x1).mp e1
    rw [List.getElem?_cons_succ] at hi
    match i with
    | 0 =>
      rw [List.getElem?_cons_zero, Option.some.injEq] at hi
      cases captureId_inj hi
      rw [sends_vars h2 (hf.2.2 w v2) hv' _ (fun i => hS (i + 1 + 1)) (fun i => ht (i + 1 + 1)) _ _ (by exact fun i t h => hg i t h) e2 w
        fun h => hw (sends_captures h2 v1 (hf.2.2 w v2) (fun u hu => (hv' u hu).2) h)]
      simp [Server.lastOf, (hS 0).1, ha]
    | 1 => exact absurd (by simpa using hi) (sends_head h2 (hf.2.2 w v2) hiv)
    | i + 2 =>
      exact ih (hf.2.2 w v2) hv' hnd _ (fun i => hS (i + 1 + 1)) (fun i => ht (i + 1 + 1)) _ _ (by exact fun i t h => hg i t h) e2 v i hiv (by simpa using hi)

/-- C90: what the id stands for after the second unit of work, in every case: for the row that the second one inserted just before it
saved an id under the same name, and if it did not, for what it was. -/
theorem C90_exact (g : Grow) {b b' : Builder} {u : GoUnit} {o : List Builder} {out : List (Option Val)} {K : Known} {p : Nat → Option Bytes}
    (hb : Ready b) (h0 : b.buf.data = []) (hf : fineP K p u) (hr : run g (progU u) [] b = .ok (o, b', out)) (he : b'.err = none)
    (hs : b'.buf.data.length < 2 ^ 32) {ms : List ClientMsg} (hd : decodeStream b'.buf.data = some ms) {S : Nat → Server V} {x x' : Store V}
    (hS : Usual K S) (ht : Tame K S) (hg : Agrees p x.toScope) (hp : playOk S ms x = some x') {v : Bytes} (hv : isVariable v = true) :
    (captureId v ∉ ms ∧ x'.vars v = x.vars v) ∨ ∃ i, ms[i + 1]? = some (captureId v) ∧ x'.vars v = some ((S i).ids 0) := by
  obtain ⟨ns, vs, a1, a2, a3, a4⟩ := unit_sends hb h0 hf hr he hs
  rw [hd] at a4
  cases a4
  by_cases hn : captureId v ∈ ms
  · obtain ⟨i, hi⟩ := List.getElem?_of_mem hn
    match i with
    | 0 => exact absurd hi (sends_head a1 hf hv)
    | i + 1 => exact .inr ⟨i, hi, sends_set a1 hf a2 a3 _ hS ht _ _ hg hp v i hv hi⟩
  · exact .inl ⟨hn, sends_vars a1 hf a2 _ hS ht _ _ hg hp v hn⟩

/-! ### cases -/

/-- `id := InsertRow("parent", ["a"], [3])` -/
def firstEx : GoUnit := .insertRow (ascii "parent") [ascii "a"] [.val (.int 3)] fun _ => .done

/-- `InsertRow("parent", ["a"], [4]); Insert("child", ["a"], [[id]])` -/
def secondEx (id : Bytes) : GoUnit := .insertRow (ascii "parent") [ascii "a"] [.val (.int 4)] fun _ =>
  .stmt (.insert (ascii "child") [ascii "a"] [[.var id]]) .done

/-- `Insert("child", ["a"], [[id]])` -/
def linkEx (id : Bytes) : GoUnit := .stmt (.insert (ascii "child") [ascii "a"] [[.var id]]) .done

/-- the buffer after the calls -/
def recorded (u : GoUnit) : Option Bytes :=
  match run growEx (progU u) [] (newPipe 0) with
  | .ok (_, b', _) => if b'.err.isNone then some b'.buf.data else none
  | .error _ => none

/-- the messages in it -/
def recordedMsgs (u : GoUnit) : List ClientMsg := ((recorded u).bind decodeStream).getD []

theorem recorded_run {u : GoUnit} {bs : Bytes} (h : recorded u = some bs) :
    ∃ o b' out, run growEx (progU u) [] (newPipe 0) = .ok (o, b', out) ∧ b'.err = none ∧ b'.buf.data = bs := by
  unfold recorded at h
  split at h
  · rename_i o b' out hr
    split at h
    · rename_i he
      cases h
      exact ⟨o, b', out, hr, by simpa using he, rfl⟩
    · cases h
  · cases h

/-- The name that the first `InsertRow` of a unit of work returns depends on nothing but the size of its message. -/
def idEx : Bytes := ascii "@id$34"

theorem firstEx_msgs : (recorded firstEx).bind decodeStream = some
    [.insert (ascii "parent") (some 2) [ascii "a"] [[.literal (.sint 3)]], captureId idEx] := by decide +kernel

theorem secondEx_msgs : (recorded (secondEx idEx)).bind decodeStream = some
    [.insert (ascii "parent") (some 2) [ascii "a"] [[.literal (.sint 4)]], captureId idEx,
     .insert (ascii "child") (some 2) [ascii "a"] [[.variable idEx]]] := by decide +kernel

theorem linkEx_msgs : (recorded (linkEx idEx)).bind decodeStream = some
    [.insert (ascii "child") (some 2) [ascii "a"] [[.variable idEx]]] := by decide +kernel

theorem one_fine (t : Bytes) (n : Int) (h : okFor (.val (.int n)) = true) : fine (.insert t [ascii "a"] [[.val (.int n)]]) := by
  intro es he
  simp only [List.mem_singleton] at he
  subst he
  exact ⟨rfl, independent_one _ _, by simp; exact h⟩

theorem linkEx_fine : fineU knownEx (linkEx idEx) := by
  refine ⟨?_, ?_, trivial⟩
  · intro es he
    simp only [List.mem_singleton] at he
    subst he
    exact ⟨rfl, independent_one _ _, by simp [okFor, regular, served]; decide⟩
  · intro a ha
    have : knownEx.auto (ascii "child") = some (ascii "id") := by decide
    rw [this] at ha
    cases ha
    decide

theorem firstEx_fine : fineU knownEx firstEx := ⟨one_fine _ 3 rfl, ⟨ascii "id", by decide, by decide⟩, fun _ _ => trivial⟩

theorem secondEx_fine : fineU knownEx (secondEx idEx) :=
  ⟨one_fine _ 4 rfl, ⟨ascii "id", by decide, by decide⟩, fun _ _ => linkEx_fine⟩

theorem serversEx_tame : Tame knownEx serversEx := by
  rintro _ _ ⟨n, rfl⟩ x x' h
  simp only [serversEx, restEx, if_true, Option.map_eq_some_iff] at h
  obtain ⟨tab, _, rfl⟩ := h
  rfl

/-- the session after the first unit of work, and after both -/
def afterFirst : Option (Store (Option Int)) := playOk serversEx (recordedMsgs firstEx) keysStore
def afterSecond : Option (Store (Option Int)) := afterFirst.bind (playOk (fun i => serversEx (2 + i)) (recordedMsgs (secondEx idEx)))
def afterChild : Option (Store (Option Int)) := afterFirst.bind (playOk (fun i => serversEx (2 + i)) (recordedMsgs (linkEx idEx)))

/-- C90: it is false of the code.  With the two units of work above the id that the first one returned ends up as that of the row
of the second one. -/
theorem C90_wrong : ¬ C90_full := by
  intro h
  cases e1 : recorded firstEx with
  | none => have := firstEx_msgs; rw [e1] at this; cases this
  | some bs1 =>
  cases e2 : recorded (secondEx idEx) with
  | none => have := secondEx_msgs; rw [e2] at this; cases this
  | some bs2 =>
  have d1 := firstEx_msgs
  have d2 := secondEx_msgs
  have l1 : ((recorded firstEx).map List.length).getD 0 < 2 ^ 32 := by decide +kernel
  have l2 : ((recorded (secondEx idEx)).map List.length).getD 0 < 2 ^ 32 := by decide +kernel
  rw [e1] at d1 l1
  rw [e2] at d2 l2
  obtain ⟨o1, b1, out1, r1, n1, rfl⟩ := recorded_run e1
  obtain ⟨o2, b2, out2, r2, n2, rfl⟩ := recorded_run e2
  have := h (V := Option Int) growEx ⟨rfl, rfl⟩ ⟨rfl, rfl⟩ rfl rfl firstEx_fine secondEx_fine r1 r2 n1 n2 l1 l2 d1 d2 (S := serversEx) (x := keysStore)
    serversEx_usual serversEx_tame (agrees_none _) (agrees_none _) rfl rfl idEx (by simp) trivial
  revert this
  decide +kernel

/-- Both units of work are executed, and the child of the first row is one of the second row. -/
example : showTable afterSecond "parent" = some [(some (some 1), some (some 5)), (some (some 100), some (some 3)), (some (some 120), some (some 4))] ∧
    showTable afterSecond "child" = some [(some (some 140), some (some 120))] := by decide +kernel

/-- `C90_exact` for the second one: its messages have the name at place 1, and row 120 is the one inserted by message 0. -/
example : (recordedMsgs (secondEx idEx))[0 + 1]? = some (captureId idEx) ∧ afterSecond.map (·.vars idEx) = some (some ((serversEx (2 + 0)).ids 0)) := by
  decide +kernel

/-- Without an `InsertRow` in the second one it is one of the first row: the hypotheses of `C90_partial` are met. -/
example : captureId idEx ∈ recordedMsgs firstEx ∧ captureId idEx ∉ recordedMsgs (linkEx idEx) ∧
    showTable afterChild "child" = some [(some (some 120), some (some 100))] ∧ (afterChild.map (·.vars idEx)) = (afterFirst.map (·.vars idEx)) := by
  decide +kernel

end Verif.Props
