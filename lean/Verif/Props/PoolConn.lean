import Verif.Proof.PoolConn
import Verif.Props.Connector
/-! C64: every call through the pool gets the answers to its own request. -/
namespace Verif.Props
open Verif.Go Verif.Model Verif.Spec Verif.Model.PoolConn Verif.Spec.PoolConn Verif.Proof.PoolConn

variable {cd : Codec} {k : Connector} {req : Nat → Bytes} {n : Nat} {conn : Nat → World × Conn} {l : List Act} {s : State}

/-- **C64.** In every execution, on every connection: what was written after `connector.New` are the requests of the calls
that succeeded on it, whole and in order, then at most a part of the request of the one that failed, and then it was
closed, if it was.  What the server sent after `connector.New` starts with the answers to these requests, in the same order,
which are the responses these calls got; and unless a call failed, that is all that has been consumed. -/
theorem C64_stream (hcd : RejectsHeaders cd) (hreq : ∀ t, ∃ fs, readFrames (req t) = some fs) (h : Run cd k req (init n conn) l s)
    {t c : Nat} {w : World} {x : Conn} (ho : Act.opened t c w x ∈ l) :
    (∃ rest, Exchange cd req x.r.pending (served c l) rest ∧ (¬Failed c l → (s.conn c).2.r.pending = rest)) ∧
    ∃ part tail, (part = [] ∨ ∃ t rs e b, Act.finish t c rs (some e) ∈ l ∧ b <+: req t ∧ part = [Event.wrote x.transport b]) ∧
      (Closed c l → tail = [Event.closed]) ∧ (¬Closed c l → tail = []) ∧
      (s.conn c).1.log = w.log ++ (served c l).map (fun y => .wrote x.transport (req y.1)) ++ part ++ tail := by
  have i := cinv_run hcd hreq h ho
  exact ⟨i.stream, i.log⟩

/-- **C64.** If a `Send` of the pool returns responses and no error, there is one connection, on which its request was sent
after those of the calls `before`, and the responses are the answers to the messages of this request: they are what the
server sent on this connection after the answers to the requests of `before`. -/
theorem C64_own (hcd : RejectsHeaders cd) (hreq : ∀ t, ∃ fs, readFrames (req t) = some fs) (h : Run cd k req (init n conn) l s)
    {t : Nat} (hc : Act.other (.callSend t) ∈ l) {rs : List Response} (hr : Act.ret t .ok rs ∈ l) :
    ∃ c t0 w x before after fs p p', Act.opened t0 c w x ∈ l ∧ served c l = before ++ (t, rs) :: after ∧
      Exchange cd req x.r.pending before p ∧ readFrames (req t) = some fs ∧ AnsweredAll cd (fs.map Prod.fst) p rs p' ∧
      (∀ c' rs', (t, rs') ∈ served c' l → c' = c ∧ rs' = rs) := by
  obtain ⟨l1, l2, s1, s2, hl, h1, hres, h2⟩ := ret_split h hr
  have hp := run_pool h
  have hp2 := run_pool h2
  have e2 : (l1 ++ [Act.ret t .ok rs]).map Act.ev = l1.map Act.ev ++ [.ret t .ok] := by simp [Act.ev]
  have el : l.map Act.ev = l1.map Act.ev ++ .ret t .ok :: l2.map Act.ev := by simp [hl, Act.ev]
  rw [e2] at hp2
  have hc2 := callSend_before (el ▸ hp) hp2 (el ▸ mem_ev hc)
  -- this call has one `finish`, before it returned
  have only : ∀ {l' : List Pool.Ev}, Spec.Pool.SendDeeds t .ok (Spec.Pool.deeds t l') →
      ∃ c, Pool.Ev.finish t c true ∈ l' ∧ ∀ c' ok, Pool.Ev.finish t c' ok ∈ l' → c' = c ∧ ok = true := by
    intro l' hd
    have hmem : ∀ c' ok, Pool.Ev.finish t c' ok ∈ l' ↔ Pool.Ev.finish t c' ok ∈ Spec.Pool.deeds t l' := by
      intro c' ok
      simp [Spec.Pool.deeds, List.mem_filter]
    generalize Spec.Pool.deeds t l' = d at hd hmem
    cases hd with
    | @ok c g e hg he =>
      refine ⟨c, (hmem _ _).mpr (by simp), fun c' ok hm => ?_⟩
      rw [hmem] at hm
      cases hg <;> rcases he with rfl | rfl <;> simpa using hm
  obtain ⟨c, hf, -⟩ := only (C57_send hp2 hc2 (r := .ok) (by simp))
  obtain ⟨c1, hf1, huniq⟩ := only (C57_send hp (mem_ev hc) (mem_ev hr))
  have hfl1 : ∃ rs' e', Act.finish t c rs' e' ∈ l1 := by
    have : Pool.Ev.finish t c true ∈ l1.map Act.ev := by simpa using hf
    exact finish_of_ev h1 this
  obtain ⟨c2, e2', hm⟩ : ∃ c' e, Act.finish t c' rs e ∈ l1 := by
    rcases res_run h1 (t := t) with ⟨-, hno⟩ | ⟨c', e, hm⟩
    · obtain ⟨rs', e', hm⟩ := hfl1
      exact absurd hm (hno _ _ _)
    · rw [hres] at hm; exact ⟨c', e, hm⟩
  have hml : Act.finish t c2 rs e2' ∈ l := by rw [hl]; exact List.mem_append_left _ hm
  obtain ⟨rfl, hok⟩ := huniq c2 _ (mem_ev hml)
  obtain rfl : e2' = none := by cases e2' with
    | none => rfl
    | some e => simp at hok
  have hsv : (t, rs) ∈ served c2 l := by
    rw [served, List.mem_filterMap]
    exact ⟨_, hml, by simp⟩
  obtain ⟨before, after, hba⟩ := List.append_of_mem hsv
  obtain ⟨t0, w, x, ho⟩ := opened_before h hml
  obtain ⟨⟨rest, hx, -⟩, -⟩ := C64_stream hcd hreq h ho
  rw [hba] at hx
  obtain ⟨fs, p, p', x1, x2, x3, -⟩ := exchange_split hx
  refine ⟨c2, t0, w, x, before, after, fs, p, p', ho, hba, x1, x2, x3, fun c' rs' hm' => ?_⟩
  rw [served, List.mem_filterMap] at hm'
  obtain ⟨a, ha, he⟩ := hm'
  cases a with
  | finish t' c'' rs'' e'' =>
    cases e'' with
    | some e'' => simp at he
    | none =>
      simp at he
      obtain ⟨rfl, rfl, rfl⟩ := he
      have := finish_once (C57_send hp (mem_ev hc) (mem_ev hr)) ha hml (by simp [Act.ev, isFin]) (by simp [Act.ev, isFin])
      simp at this
      exact this
  | _ => simp at he

/-- **C64**, for a server that answers in order: if what it sends on a connection is answers to requests, in the order in
which these were written (`plan`: the requests and what it answers to each), every call gets the answer meant for it. -/
theorem C64_planned (hcd : RejectsHeaders cd) (hreq : ∀ t, ∃ fs, readFrames (req t) = some fs) (h : Run cd k req (init n conn) l s)
    {t c : Nat} {w : World} {x : Conn} (ho : Act.opened t c w x ∈ l) {plan : List (Nat × List Response)} {rest : Bytes}
    (hp : Exchange cd req x.r.pending plan rest) (horder : (served c l).map Prod.fst <+: plan.map Prod.fst) : served c l <+: plan := by
  obtain ⟨⟨rest', hx, -⟩, -⟩ := C64_stream hcd hreq h ho
  exact exchange_det hx hp horder

/-! ### a case -/

/-- One step, as chosen. -/
def actC (cd : Codec) (k : Connector) (req : Nat → Bytes) (env : Nat → Env) (s : State) (d : Proof.Pool.Do) : Option (Act × State) :=
  match Proof.Pool.act s.pool d with
  | none => none
  | some (.opened t c, p) =>
    match k.new (env c) calm with
    | .ok (w, .ok x) => some (.opened t c w x, { s with pool := p, conn := fun c' => if c' = c then (w, x) else s.conn c' })
    | _ => none
  | some (.finish t c ok, p) =>
    match Conn.send cd (s.conn c).1 (s.conn c).2 (req t) with
    | .ok (w, x, rs, e) =>
      if e.isNone = ok then
        some (.finish t c rs e, ⟨p, fun c' => if c' = c then (w, x) else s.conn c', fun t' => if t' = t then rs else s.res t'⟩)
      else none
    | _ => none
  | some (.close t c, p) =>
    some (.other (.close t c), { s with pool := p, conn := fun c' => if c' = c then ((s.conn c).1.close, (s.conn c).2) else s.conn c' })
  | some (.ret t r, p) => some (.ret t r (s.res t), { s with pool := p })
  | some (e, p) => some (.other e, { s with pool := p })

theorem actC_step {env : Nat → Env} (hcd : ∀ c, (env c).cd = cd) (hE : ∀ c, Streams (env c)) {s' : State} {d : Proof.Pool.Do} {a : Act}
    (h : actC cd k req env s d = some (a, s')) : Step cd k req s a s' := by
  rw [actC] at h
  split at h
  · cases h
  · rename_i t c p hp
    split at h
    · rename_i w x hn
      cases h
      exact .opened (Proof.Pool.act_step hp) ⟨env c, calm, hcd c, (hE c).1, (hE c).2, rfl, hn⟩
    · cases h
  · rename_i t c ok p hp
    split at h
    · rename_i w x rs e hn
      split at h
      · rename_i he
        cases h
        exact .finish (he ▸ Proof.Pool.act_step hp) hn
      · cases h
    · cases h
  · rename_i t c p hp; cases h; exact .close (Proof.Pool.act_step hp)
  · rename_i t r p hp; cases h; exact .ret (Proof.Pool.act_step hp)
  · rename_i e p h1 h2 h3 h4 hp
    cases h
    refine .other (Proof.Pool.act_step hp) ?_
    cases e <;> first | rfl | (simp at h1 h2 h3 h4)

def playC (cd : Codec) (k : Connector) (req : Nat → Bytes) (env : Nat → Env) (s : State) : List Proof.Pool.Do → Option (List Act × State)
  | [] => some ([], s)
  | d :: ds =>
    match actC cd k req env s d with
    | none => none
    | some (a, s') => (playC cd k req env s' ds).map fun x => (a :: x.1, x.2)

theorem run_cons {s1 s2 : State} {a : Act} {l' : List Act} (hs : Step cd k req s a s1) (h : Run cd k req s1 l' s2) : Run cd k req s (a :: l') s2 := by
  induction h with
  | nil => exact .snoc (.nil _) hs
  | snoc h hs' ih => exact .snoc ih hs'

theorem playC_run {env : Nat → Env} (hcd : ∀ c, (env c).cd = cd) (hE : ∀ c, Streams (env c)) {ds : List Proof.Pool.Do} {s' : State}
    (h : playC cd k req env s ds = some (l, s')) : Run cd k req s l s' := by
  induction ds generalizing s l with
  | nil => cases h; exact .nil _
  | cons d ds ih =>
    simp only [playC] at h
    split at h
    · cases h
    · rename_i a s1 ha
      rw [Option.map_eq_some_iff] at h
      obtain ⟨⟨l', s2⟩, h1, h2⟩ := h
      cases h2
      exact run_cons (actC_step hcd hE ha) (ih h1)

/-- A StmtExecute; an Update and an Insert; a Delete. -/
def reqPool : Nat → Bytes
  | 0 => [3, 0, 0, 0, 12, 1, 2]
  | 1 => [1, 0, 0, 0, 19, 2, 0, 0, 0, 18, 7]
  | _ => [1, 0, 0, 0, 20]

/-- On connection 0: AuthenticateOk, an Ok, then an error and StmtExecuteOk; on connection 1: AuthenticateOk, an error, the end. -/
def envPool (c : Nat) : Env :=
  envEx .unix ⟨if c = 0 then [[1, 0, 0, 0, 4, 1, 0, 0], [0, 0, 3, 0, 0, 0, 1, 0, 7, 1, 0, 0, 0, 17]] else [[1, 0, 0, 0, 4], [3, 0, 0, 0, 1, 0, 9]], .eof, false⟩ deniesEx

/-- Call 0 opens connection 0, call 2 connection 1; call 1 takes connection 0 from the pool while call 2 is under way. -/
def doPool : List Proof.Pool.Do :=
  [.send 0, .go 0, .go 0, .go 0, .send 2, .go 2, .go 0, .go 0, .go 2, .send 1, .go 1, .go 2, .go 1, .go 0, .go 1, .go 2, .go 1, .go 1, .go 2, .go 2, .go 2]

/-- The event and the responses that go with it. -/
def seen : Act → Pool.Ev × List Response
  | .finish t c rs e => (.finish t c e.isNone, rs)
  | .ret t r rs => (.ret t r, rs)
  | .opened t c _ _ => (.opened t c, [])
  | .other e => (e, [])

def poolK : Connector := ⟨false, plain noGrow, credsEx⟩

def initPool : State := init 1 fun _ => (calm, Conn.new .unix ⟨[], .eof, false⟩)

theorem doPool_seen : (playC connCodec poolK reqPool envPool initPool doPool).map (fun x => x.1.map seen) =
    some [(.callSend 0, []), (.miss 0, []), (.opened 0 0, []), (.begin 0 0, []), (.callSend 2, []), (.miss 2, []),
      (.finish 0 0 true, [.ok]), (.put 0 0, []), (.opened 2 1, []), (.callSend 1, []), (.take 1 0, []), (.begin 2 1, []), (.begin 1 0, []),
      (.ret 0 .ok, [.ok]), (.finish 1 0 true, [.error ⟨0, 1007, [], []⟩, .ok]), (.finish 2 1 true, [.error ⟨0, 1009, [], []⟩]), (.put 1 0, []),
      (.ret 1 .ok, [.error ⟨0, 1007, [], []⟩, .ok]), (.tau 2, []), (.close 2 1, []), (.ret 2 .ok, [.error ⟨0, 1009, [], []⟩])] := by
  decide +kernel

theorem reqPool_frames (t : Nat) : ∃ fs, readFrames (reqPool t) = some fs := by
  match t with
  | 0 => exact ⟨[(12, [1, 2])], by decide +kernel⟩
  | 1 => exact ⟨[(19, []), (18, [7])], by decide +kernel⟩
  | _ + 2 => exact ⟨[(20, [])], show readFrames [1, 0, 0, 0, 20] = _ by decide +kernel⟩

/-- The hypotheses of C64 are met, by an execution in which three calls return responses, two of them on one connection:
its second user gets the second answers. -/
example : ∃ l s, Run connCodec poolK reqPool initPool l s ∧ RejectsHeaders connCodec ∧ (∀ t, ∃ fs, readFrames (reqPool t) = some fs) ∧
    Act.other (.callSend 1) ∈ l ∧ Act.ret 1 .ok [.error ⟨0, 1007, [], []⟩, .ok] ∈ l ∧ ∃ t w x, Act.opened t 0 w x ∈ l := by
  have h := doPool_seen
  rw [Option.map_eq_some_iff] at h
  obtain ⟨⟨l, s⟩, h1, h2⟩ := h
  dsimp only at h2
  have hE : ∀ c, Streams (envPool c) := fun c => envEx_streams _ (by simp) (by simp [deniesEx])
  have hrun : Run connCodec poolK reqPool initPool l s := playC_run (env := envPool) (fun _ => rfl) hE h1
  have mem : ∀ y, y ∈ l.map seen → ∃ a ∈ l, seen a = y := fun y hy => List.mem_map.mp hy
  refine ⟨l, s, hrun, connCodec_rejects, reqPool_frames, ?_, ?_, ?_⟩
  · obtain ⟨a, ha, he⟩ := mem (.callSend 1, []) (by rw [h2]; decide +kernel)
    cases a <;> simp [seen] at he
    subst he; exact ha
  · obtain ⟨a, ha, he⟩ := mem (.ret 1 .ok, [.error ⟨0, 1007, [], []⟩, .ok]) (by rw [h2]; decide +kernel)
    cases a <;> simp [seen] at he
    obtain ⟨⟨rfl, rfl⟩, rfl⟩ := he; exact ha
  · obtain ⟨a, ha, he⟩ := mem (.opened 0 0, []) (by rw [h2]; decide +kernel)
    cases a <;> simp [seen] at he
    · obtain ⟨rfl, rfl⟩ := he; exact ⟨_, _, _, ha⟩
    · subst he
      rcases other_mem hrun ha with h | ⟨_, _, h⟩ <;> cases h

end Verif.Props
