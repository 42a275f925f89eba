import Verif.Spec.PoolConn
import Verif.Spec.Connecting
import Verif.Proof.Connecting
import Verif.Proof.Remote
import Verif.Props.Connection
import Verif.Props.PoolResults
/-! The pool together with its connections. -/
namespace Verif.Proof.PoolConn
open Verif.Go Verif.Model Verif.Spec Verif.Model.PoolConn Verif.Spec.PoolConn Verif.Proof Verif.Props Verif.Spec.Pool

/-! ### stages -/

section
open Verif.Model.Pool
variable {c : Nat} {l : List Ev} {st : Stage}

/-- The event is about the connection. -/
def About (c : Nat) : Ev → Prop
  | .opened _ c' | .finish _ c' _ | .close _ c' => c' = c
  | _ => False

theorem absent_from (h : stageFrom c (some st) l = some .absent) : st = .absent ∧ ∀ e ∈ l, ¬About c e := by
  induction l generalizing st with
  | nil => simp [stageFrom] at h; exact ⟨h, by simp⟩
  | cons e l ih =>
    rw [stageFrom_cons] at h
    cases ha : advance c st e with
    | none => rw [ha, stageFrom_none] at h; cases h
    | some st' =>
      rw [ha] at h
      obtain ⟨rfl, h2⟩ := ih h
      have : st = .absent ∧ ¬About c e := by
        cases e <;> simp only [advance] at ha
        case opened | begin | close | finish => 
          split at ha
          · split at ha
            · simp at ha; try (split at ha <;> simp at ha)
            · cases ha
          · cases ha; exact ⟨rfl, by simp [About, *]⟩
        all_goals (cases ha; exact ⟨rfl, fun h => h⟩)
      exact ⟨this.1, by simpa using ⟨this.2, h2⟩⟩

theorem stage_absent (h : stage c l = some .absent) : ∀ e ∈ l, ¬About c e :=
  (absent_from (st := .absent) (by simpa [stageFrom, stage] using h)).2

theorem stage_split {e : Ev} (h : stage c l = some st) (he : e ∈ l) :
    ∃ l1 l2 st1 st2, l = l1 ++ e :: l2 ∧ advance c st1 e = some st2 ∧ stageFrom c (some st2) l2 = some st := by
  obtain ⟨l1, l2, rfl⟩ := List.append_of_mem he
  rw [stage_append] at h
  cases hs : stage c l1 with
  | none => rw [hs, stageFrom_none] at h; cases h
  | some st1 =>
    rw [hs, stageFrom_cons] at h
    cases ha : advance c st1 e with
    | none => rw [ha, stageFrom_none] at h; cases h
    | some st2 => rw [ha] at h; exact ⟨l1, l2, st1, st2, rfl, ha, h⟩

theorem stage_notClosed {t : Nat} (h : stage c l = some st) (hst : st ≠ .closed) : Ev.close t c ∉ l := by
  intro he
  obtain ⟨l1, l2, st1, st2, rfl, ha, hf⟩ := stage_split h he
  obtain rfl : st2 = .closed := by
    simp only [advance, if_true] at ha
    split at ha <;> simp at ha
    exact ha.symm
  exact hst (closed_stays hf).1

theorem stage_notFailed {t t' : Nat} (h : stage c l = some (.busy t)) : Ev.finish t' c false ∉ l := by
  intro he
  obtain ⟨l1, l2, st1, st2, rfl, ha, hf⟩ := stage_split h he
  obtain rfl : st2 = .broken t' := by
    simp only [advance, if_true] at ha
    split at ha <;> simp at ha
    exact ha.symm
  rcases (broken_stays hf).1 with h | h <;> cases h

end

/-! ### `connector.New` -/

theorem finished_life {k : Connector} {env : Env} {w w' : World} {c x : Conn} (hc : Life env.cd c.r) (h : Finished k env w c w' (.ok x)) :
    Life env.cd x.r := by
  cases h with
  | ok h => exact (authed_life hc h).1
  | plainOk h hd hs h2 => exact (authed_life (authed_life hc h).1 h2).1

theorem opens_life {cd : Codec} {k : Connector} {w : World} {x : Conn} (h : Opens cd k w x) : Life cd x.r := by
  obtain ⟨env, w0, rfl, h1, h2, -, h3⟩ := h
  cases new_cases ⟨h1, h2⟩ h3 with
  | plainly hd ht hf => exact finished_life (.new _ _ (h1 _ _ hd)) hf
  | overTLS hd ht hb hh hl hc hf => subst hc; exact finished_life (.new _ _ (h2 _ hh)) hf

/-! ### executions -/

variable {cd : Codec} {k : Connector} {req : Nat → Bytes} {s s' : State} {l : List Act} {a : Act} {conn : Nat → World × Conn} {n : Nat}

theorem run_pool (h : Run cd k req (init n conn) l s) : Pool.Run (Pool.init n) (l.map Act.ev) s.pool := by
  induction h with
  | nil => exact .nil _
  | snoc h hs ih =>
    rw [List.map_append]
    refine .snoc ih ?_
    cases hs <;> exact (by assumption)

theorem stages (h : Run cd k req (init n conn) l s) (hs : Step cd k req s a s') (c : Nat) :
    ∃ st st', stage c (l.map Act.ev) = some st ∧ advance c st a.ev = some st' := by
  have h1 := run_pool h
  have h2 := run_pool (.snoc h hs)
  obtain ⟨st, e1, -⟩ := stage_some h1 c
  obtain ⟨st', e2, -⟩ := stage_some h2 c
  rw [List.map_append, stage_append, e1] at e2
  exact ⟨st, st', e1, by simpa [stageFrom] using e2⟩

theorem mem_ev {a : Act} (h : a ∈ l) : a.ev ∈ l.map Act.ev := List.mem_map_of_mem h

theorem send_writable {w w' : World} {c c' : Conn} {b : Bytes} {rs : List Response} (h : Conn.send cd w c b = .ok (w', c', rs, none)) : Writable w := by
  rw [Conn.send] at h
  unfold World.write at h
  unfold Writable
  cases f1 : w.fault w.calls with
  | some x => rw [f1] at h; simp at h
  | none =>
    cases f2 : w.fault (w.calls + 1) with
    | some x => rw [f1, f2] at h; simp at h
    | none => exact ⟨rfl, rfl⟩

theorem exchange_snoc {p q q' : Bytes} {hist : List (Nat × List Response)} {t : Nat} {rs : List Response} {fs : List (UInt8 × Bytes)}
    (h : Exchange cd req p hist q) (hf : readFrames (req t) = some fs) (ha : AnsweredAll cd (fs.map Prod.fst) q rs q') :
    Exchange cd req p (hist ++ [(t, rs)]) q' := by
  induction h with
  | nil p => exact .cons hf ha (.nil _)
  | cons hf' ha' _ ih => exact .cons hf' ha' (ih ha)

theorem exchange_split {p q : Bytes} {before after : List (Nat × List Response)} {t : Nat} {rs : List Response}
    (h : Exchange cd req p (before ++ (t, rs) :: after) q) :
    ∃ fs p1 p2, Exchange cd req p before p1 ∧ readFrames (req t) = some fs ∧ AnsweredAll cd (fs.map Prod.fst) p1 rs p2 ∧ Exchange cd req p2 after q := by
  induction before generalizing p with
  | nil => cases h with | cons hf ha h => exact ⟨_, _, _, .nil _, hf, ha, h⟩
  | cons b before ih =>
    cases h with
    | cons hf ha h =>
      obtain ⟨fs, p1, p2, h1, h2⟩ := ih h
      exact ⟨fs, p1, p2, .cons hf ha h1, h2⟩

theorem answeredAll_det {cts : List UInt8} {p : Bytes} {rs : List Response} {q : Bytes} (h : AnsweredAll cd cts p rs q) :
    ∀ {rs' : List Response} {q' : Bytes}, AnsweredAll cd cts p rs' q' → rs = rs' ∧ q = q' := by
  induction h with
  | nil => intro rs' q' h; cases h; exact ⟨rfl, rfl⟩
  | cons h he hs ih =>
    intro rs' q' h'
    cases h' with
    | cons h1 he1 hs1 =>
      obtain ⟨rfl, rfl⟩ := answered_det h h1
      obtain ⟨rfl, rfl⟩ := ih hs1
      exact ⟨rfl, rfl⟩

theorem exchange_det {p q q' : Bytes} {h1 h2 : List (Nat × List Response)} (e1 : Exchange cd req p h1 q) (e2 : Exchange cd req p h2 q')
    (hp : h1.map Prod.fst <+: h2.map Prod.fst) : h1 <+: h2 := by
  induction e1 generalizing h2 with
  | nil => exact List.nil_prefix
  | cons hf ha _ ih =>
    cases e2 with
    | nil => simp at hp
    | cons hf' ha' e2 =>
      simp only [List.map_cons, List.cons_prefix_cons] at hp
      obtain ⟨rfl, hp⟩ := hp
      rw [hf] at hf'
      cases hf'
      obtain ⟨rfl, rfl⟩ := answeredAll_det ha ha'
      exact (List.cons_prefix_cons).mpr ⟨rfl, ih e2 hp⟩

/-- What holds of connection `c`, which was `x` in the world `w` when it was opened. -/
structure CInv (cd : Codec) (req : Nat → Bytes) (s : State) (l : List Act) (c : Nat) (w : World) (x : Conn) : Prop where
  life : Life cd (s.conn c).2.r
  transport : (s.conn c).2.transport = x.transport
  stream : ∃ rest, Exchange cd req x.r.pending (served c l) rest ∧ (¬Failed c l → (s.conn c).2.r.pending = rest)
  log : ∃ part tail, (part = [] ∨ ∃ t rs e b, Act.finish t c rs (some e) ∈ l ∧ b <+: req t ∧ part = [Event.wrote x.transport b]) ∧
    (Closed c l → tail = [Event.closed]) ∧ (¬Closed c l → tail = []) ∧
    (s.conn c).1.log = w.log ++ (served c l).map (fun y => .wrote x.transport (req y.1)) ++ part ++ tail

theorem served_snoc (c : Nat) (l : List Act) (a : Act) : served c (l ++ [a]) = served c l ++ served c [a] := by simp [served]

/-- A step that has nothing to do with `c`. -/
theorem cinv_skip {c : Nat} {w : World} {x : Conn} (h : CInv cd req s l c w x) (hc : s'.conn c = s.conn c) (ha : ¬About c a.ev) :
    CInv cd req s' (l ++ [a]) c w x := by
  have hf : Failed c (l ++ [a]) ↔ Failed c l := by
    constructor
    · rintro ⟨t, rs, e, hm⟩
      rcases List.mem_append.mp hm with hm | hm
      · exact ⟨t, rs, e, hm⟩
      · rw [List.mem_singleton] at hm; subst hm; exact absurd rfl ha
    · rintro ⟨t, rs, e, hm⟩; exact ⟨t, rs, e, List.mem_append_left _ hm⟩
  have hcl : Closed c (l ++ [a]) ↔ Closed c l := by
    constructor
    · rintro ⟨t, hm⟩
      rcases List.mem_append.mp hm with hm | hm
      · exact ⟨t, hm⟩
      · rw [List.mem_singleton] at hm; subst hm; exact absurd rfl ha
    · rintro ⟨t, hm⟩; exact ⟨t, List.mem_append_left _ hm⟩
  have hsv : served c (l ++ [a]) = served c l := by
    rw [served_snoc]
    have : served c [a] = [] := by
      cases a with
      | finish t c' rs e =>
        have : c' ≠ c := ha
        cases e <;> simp [served, this]
      | _ => simp [served]
    rw [this, List.append_nil]
  obtain ⟨h1, h2, h3, part, tail, h4, h5, h6, h7⟩ := h
  refine ⟨by rw [hc]; exact h1, by rw [hc]; exact h2, by rw [hc, hsv, hf]; exact h3, part, tail, h4.imp id ?_, by rw [hcl]; exact h5, by rw [hcl]; exact h6, by rw [hc, hsv]; exact h7⟩
  rintro ⟨t, rs, e, b, hm, h⟩
  exact ⟨t, rs, e, b, List.mem_append_left _ hm, h⟩

theorem cinv_run (hcd : RejectsHeaders cd) (hreq : ∀ t, ∃ fs, readFrames (req t) = some fs) (h : Run cd k req (init n conn) l s) :
    ∀ {t c : Nat} {w : World} {x : Conn}, Act.opened t c w x ∈ l → CInv cd req s l c w x := by
  induction h with
  | nil => simp
  | @snoc s s' l a hr hs ih =>
    intro t0 c w x hm0
    obtain ⟨st, st', g1, g2⟩ := stages hr hs c
    rcases List.mem_append.mp hm0 with hm | hm
    case inr =>
      rw [List.mem_singleton] at hm
      subst hm
      have hst : st = .absent := by
        simp only [Act.ev, advance, if_true] at g2
        split at g2
        · assumption
        · cases g2
      subst hst
      have hno := stage_absent g1
      cases hs with
      | opened h ho =>
        have e1 : served c l = [] := by
          rw [served, List.filterMap_eq_nil_iff]
          intro a ha
          have hne := hno _ (mem_ev ha)
          cases a with
          | finish t c' rs e =>
            have hcc : c' ≠ c := hne
            cases e <;> simp [hcc]
          | _ => rfl
        have e2 : served c (l ++ [.opened t0 c w x]) = [] := by rw [served_snoc, e1]; rfl
        refine ⟨by simpa using opens_life ho, by simp, ?_, [], [], .inl rfl, ?_, fun _ => rfl, by rw [e2]; simp⟩
        · rw [e2]
          exact ⟨_, .nil _, by simp⟩
        · rintro ⟨t, hm⟩
          rcases List.mem_append.mp hm with hm | hm
          · exact absurd rfl (hno _ (mem_ev hm))
          · simp at hm
    case inl =>
      have hI := ih hm
      by_cases hab : About c a.ev
      case neg =>
        refine cinv_skip hI ?_ hab
        cases hs with
        | opened h ho => exact if_neg fun e => hab e.symm
        | finish h ho => exact if_neg fun e => hab e.symm
        | close h => exact if_neg fun e => hab e.symm
        | ret h => rfl
        | other h he => rfl
      case pos =>
        cases hs with
        | @opened _ t c' w' x' h ho =>
          obtain rfl : c' = c := hab
          have hst : st = .absent := by
            simp only [Act.ev, advance, if_true] at g2
            split at g2
            · assumption
            · cases g2
          subst hst
          exact absurd rfl (stage_absent g1 (.opened t0 c') (mem_ev hm))
        | @finish p t c' w' x' rs e h hsend =>
          obtain rfl : c' = c := hab
          have hst : st = .busy t := by
            simp only [Act.ev, advance, if_true] at g2
            split at g2
            · assumption
            · cases g2
          subst hst
          have hnf : ¬Failed c' l := by
            rintro ⟨t', rs', e', hm'⟩
            exact stage_notFailed g1 (mem_ev hm')
          have hnc : ¬Closed c' l := by
            rintro ⟨t', hm'⟩
            exact stage_notClosed g1 (by simp) (mem_ev hm')
          have hnc' : ¬Closed c' (l ++ [.finish t c' rs e]) := by
            rintro ⟨t', hm'⟩
            rcases List.mem_append.mp hm' with hm' | hm'
            · exact hnc ⟨t', hm'⟩
            · simp at hm'
          obtain ⟨h1, h2, ⟨rest, h3, h3'⟩, part, tail, h4, h5, h6, h7⟩ := hI
          have hpart : part = [] := by
            rcases h4 with h4 | ⟨t', rs', e', b, hm', _⟩
            · exact h4
            · exact absurd ⟨t', rs', e', hm'⟩ hnf
          rw [hpart, h6 hnc, List.append_nil, List.append_nil] at h7
          obtain ⟨s1, s2⟩ := send_cases hsend
          have hl := send_size h1 hsend
          obtain ⟨fs, hfs⟩ := hreq t
          cases e with
          | none =>
            have hsv : served c' (l ++ [.finish t c' rs none]) = served c' l ++ [(t, rs)] := by rw [served_snoc]; simp [served]
            refine ⟨by simpa using hl, by simpa using s1.trans h2, ?_, [], [], .inl rfl, fun h => absurd h hnc', fun _ => rfl, ?_⟩
            · rw [hsv]
              have ha := C29_only_answers hcd (send_writable hsend) h1 hfs hsend
              rw [h3' hnf] at ha
              exact ⟨_, exchange_snoc h3 hfs ha, fun _ => by simp⟩
            · rw [hsv]
              rcases s2 with ⟨_, s2⟩ | ⟨s2, _⟩
              · simp [s2, h7, h2]
              · exact absurd rfl s2
          | some e =>
            have hsv : served c' (l ++ [.finish t c' rs (some e)]) = served c' l := by rw [served_snoc]; simp [served]
            have hfl : Failed c' (l ++ [.finish t c' rs (some e)]) := ⟨t, rs, e, by simp⟩
            rcases s2 with ⟨s2, _⟩ | ⟨_, b, hb, s2⟩
            · cases s2
            · refine ⟨by simpa using hl, by simpa using s1.trans h2, ⟨rest, by rw [hsv]; exact h3, fun h => absurd hfl h⟩, ?_⟩
              rcases s2 with s2 | s2
              · exact ⟨[], [], .inl rfl, fun h => absurd h hnc', fun _ => rfl, by rw [hsv]; simp [s2, h7]⟩
              · exact ⟨[.wrote x.transport b], [], .inr ⟨t, rs, e, b, by simp, hb, rfl⟩, fun h => absurd h hnc', fun _ => rfl, by rw [hsv]; simp [s2, h7, h2]⟩
        | @close p t c' h =>
          obtain rfl : c' = c := hab
          have hst : st ≠ .closed := by
            rintro rfl
            simp [Act.ev, advance] at g2
          have hnc : ¬Closed c' l := by
            rintro ⟨t', hm'⟩
            exact stage_notClosed g1 hst (mem_ev hm')
          obtain ⟨h1, h2, ⟨rest, h3, h3'⟩, part, tail, h4, h5, h6, h7⟩ := hI
          rw [h6 hnc, List.append_nil] at h7
          have hsv : served c' (l ++ [.other (.close t c')]) = served c' l := by rw [served_snoc]; simp [served]
          refine ⟨by simpa using h1, by simpa using h2, ⟨rest, by rw [hsv]; exact h3, fun h => ?_⟩, part, [.closed], h4.imp id ?_, fun _ => rfl, fun h => absurd ⟨t, by simp⟩ h, ?_⟩
          · simp only [if_true]
            exact h3' fun ⟨t', rs', e', hm'⟩ => h ⟨t', rs', e', List.mem_append_left _ hm'⟩
          · rintro ⟨t', rs', e', b, hm', h⟩
            exact ⟨t', rs', e', b, List.mem_append_left _ hm', h⟩
          · rw [hsv]; simp [World.close, h7]
        | ret h => exact absurd hab id
        | @other _ e h he => 
          exfalso
          cases e <;> first | exact hab | simp [plainEv] at he

theorem other_mem (h : Run cd k req (init n conn) l s) {e : Pool.Ev} (hm : Act.other e ∈ l) : plainEv e = true ∨ ∃ t c, e = .close t c := by
  induction h with
  | nil => simp at hm
  | snoc hr hs ih =>
    rcases List.mem_append.mp hm with hm | hm
    · exact ih hm
    · rw [List.mem_singleton] at hm
      subst hm
      cases hs with
      | close h => exact .inr ⟨_, _, rfl⟩
      | other h he => exact .inl he

theorem finish_of_ev (h : Run cd k req (init n conn) l s) {t c : Nat} {ok : Bool} (hm : Pool.Ev.finish t c ok ∈ l.map Act.ev) :
    ∃ rs e, Act.finish t c rs e ∈ l := by
  obtain ⟨a, ha, he⟩ := List.mem_map.mp hm
  cases a with
  | finish t' c' rs e => simp [Act.ev] at he; obtain ⟨rfl, rfl, -⟩ := he; exact ⟨rs, e, ha⟩
  | opened => simp [Act.ev] at he
  | ret => simp [Act.ev] at he
  | other e' =>
    simp only [Act.ev] at he
    subst he
    rcases other_mem h ha with h | ⟨_, _, h⟩ <;> cases h

/-- The event is the end of a `conn.Send` in call `t`. -/
def isFin (t : Nat) : Pool.Ev → Bool
  | .finish t' _ _ => t' == t
  | _ => false

/-- A call that returned nil has ended one `conn.Send`. -/
theorem finish_once {t : Nat} (hd : SendDeeds t .ok (deeds t (l.map Act.ev))) {a b : Act} (ha : a ∈ l) (hb : b ∈ l)
    (fa : isFin t a.ev = true) (fb : isFin t b.ev = true) : a = b := by
  have h1 : ((l.filter (fun a => isFin t a.ev)).map Act.ev).length = 1 := by
    have e1 : (l.filter (fun a => isFin t a.ev)).map Act.ev = (l.map Act.ev).filter (isFin t) := by
      rw [List.filter_map]; rfl
    have e2 : (l.map Act.ev).filter (isFin t) = (deeds t (l.map Act.ev)).filter (isFin t) := by
      rw [deeds, List.filter_filter]
      refine List.filter_congr fun e _ => ?_
      cases e <;> simp [isFin]
    rw [e1, e2]
    generalize deeds t (l.map Act.ev) = d at hd
    cases hd with
    | ok hg he => cases hg <;> rcases he with rfl | rfl <;> simp [isFin]
  rw [List.length_map] at h1
  obtain ⟨y, hy⟩ := List.length_eq_one_iff.mp h1
  have m1 : a ∈ l.filter (fun a => isFin t a.ev) := List.mem_filter.mpr ⟨ha, fa⟩
  have m2 : b ∈ l.filter (fun a => isFin t a.ev) := List.mem_filter.mpr ⟨hb, fb⟩
  rw [hy, List.mem_singleton] at m1 m2
  rw [m1, m2]

/-- The variable `r` of a call is what its `conn.Send` returned. -/
theorem res_run (h : Run cd k req (init n conn) l s) {t : Nat} :
    (s.res t = [] ∧ ∀ c rs e, Act.finish t c rs e ∉ l) ∨ ∃ c e, Act.finish t c (s.res t) e ∈ l := by
  induction h with
  | nil => exact .inl ⟨rfl, by simp⟩
  | @snoc s s' l a hr hs ih =>
    have skip : s'.res t = s.res t → (∀ c rs e, a ≠ .finish t c rs e) →
        (s'.res t = [] ∧ ∀ c rs e, Act.finish t c rs e ∉ l ++ [a]) ∨ ∃ c e, Act.finish t c (s'.res t) e ∈ l ++ [a] := by
      intro h1 h2
      rw [h1]
      rcases ih with ⟨i1, i2⟩ | ⟨c, e, i⟩
      · refine .inl ⟨i1, fun c rs e hm => ?_⟩
        rcases List.mem_append.mp hm with hm | hm
        · exact i2 c rs e hm
        · exact h2 c rs e (List.mem_singleton.mp hm).symm
      · exact .inr ⟨c, e, List.mem_append_left _ i⟩
    cases hs with
    | @finish p t' c' w' x' rs e h hsend =>
      by_cases ht : t' = t
      · subst ht
        exact .inr ⟨c', e, by simp⟩
      · exact skip (by simp [Ne.symm ht]) (by simp [ht])
    | opened h ho => exact skip rfl (by simp)
    | close h => exact skip rfl (by simp)
    | ret h => exact skip rfl (by simp)
    | other h he => exact skip rfl (by simp)

/-- What is returned was the variable `r`. -/
theorem ret_split {t : Nat} {r : Pool.Res} {rs : List Response} (h : Run cd k req (init n conn) l s) (hm : Act.ret t r rs ∈ l) :
    ∃ l1 l2 s1 s2, l = l1 ++ .ret t r rs :: l2 ∧ Run cd k req (init n conn) l1 s1 ∧ s1.res t = rs ∧
      Run cd k req (init n conn) (l1 ++ [.ret t r rs]) s2 := by
  induction h with
  | nil => simp at hm
  | @snoc s s' l a hr hs ih =>
    rcases List.mem_append.mp hm with hm | hm
    · obtain ⟨l1, l2, s1, s2, rfl, h1, h2⟩ := ih hm
      exact ⟨l1, l2 ++ [a], s1, s2, by simp, h1, h2⟩
    · rw [List.mem_singleton] at hm
      subst hm
      cases hs with
      | ret h => exact ⟨l, [], s, _, rfl, hr, rfl, .snoc hr (.ret h)⟩

/-- A call that is a `Send` was one before it returned. -/
theorem callSend_before {l1 l2 : List Pool.Ev} {s1 s2 : Pool.State} {t : Nat} {r : Pool.Res} (h : Pool.Run (Pool.init n) (l1 ++ .ret t r :: l2) s2)
    (h1 : Pool.Run (Pool.init n) (l1 ++ [.ret t r]) s1) (hc : Pool.Ev.callSend t ∈ l1 ++ .ret t r :: l2) : Pool.Ev.callSend t ∈ l1 ++ [.ret t r] := by
  have hd := ret_done h1 (t := t) (r := r) (by simp)
  rcases story_run (t := t) h1 with i | ⟨i, -, -⟩ | ⟨i, -, -⟩
  · exact absurd (i.1.symm.trans hd) (by simp)
  · exact i
  · exfalso
    have i' : Pool.Ev.callClose t ∈ l1 ++ .ret t r :: l2 := by
      rcases List.mem_append.mp i with i | i
      · exact List.mem_append_left _ i
      · simp at i
    rcases story_run (t := t) h with j | ⟨-, j, -⟩ | ⟨-, j, -⟩
    · exact j.2.2.1 hc
    · exact j i'
    · exact j hc

/-- Before a connection is used it was opened. -/
theorem opened_before {t c : Nat} {rs : List Response} {e : Option ConnErr} (h : Run cd k req (init n conn) l s) (hm : Act.finish t c rs e ∈ l) :
    ∃ t0 w x, Act.opened t0 c w x ∈ l := by
  obtain ⟨st, g1, -⟩ := stage_some (run_pool h) c
  refine Classical.byContradiction fun hno => ?_
  have key : ∀ (l : List Pool.Ev) (st : Stage), (∀ t0, Pool.Ev.opened t0 c ∉ l) → stageFrom c (some .absent) l = some st → ∀ t ok, Pool.Ev.finish t c ok ∉ l := by
    intro l st ho
    induction l with
    | nil => simp
    | cons e l ih =>
      intro h t ok hm
      rw [stageFrom_cons] at h
      cases ha : advance c .absent e with
      | none => rw [ha, stageFrom_none] at h; cases h
      | some st' =>
        rw [ha] at h
        have : st' = .absent ∧ ∀ t ok, e ≠ .finish t c ok := by
          cases e <;> simp only [advance] at ha
          case opened t' c' =>
            have : c' ≠ c := by rintro rfl; exact ho t' (by simp)
            rw [if_neg this] at ha
            cases ha; exact ⟨rfl, by simp⟩
          case begin t' c' => split at ha <;> simp at ha; exact ⟨ha.symm, by simp⟩
          case close t' c' => split at ha <;> simp at ha; exact ⟨ha.symm, by simp⟩
          case finish t' c' ok => split at ha <;> simp at ha; rename_i hc; exact ⟨ha.symm, by simp [hc]⟩
          all_goals (cases ha; exact ⟨rfl, by simp⟩)
        obtain ⟨rfl, h2⟩ := this
        rcases List.mem_cons.mp hm with hm | hm
        · exact h2 t ok hm.symm
        · exact ih (fun t0 h0 => ho t0 (.tail _ h0)) h t ok hm
  refine key _ st (fun t0 h0 => ?_) (by simpa [stageFrom, stage] using g1) t e.isNone (mem_ev hm)
  obtain ⟨a, ha, he⟩ := List.mem_map.mp h0
  cases a with
  | opened t1 c1 w x => simp [Act.ev] at he; obtain ⟨rfl, rfl⟩ := he; exact hno ⟨_, w, x, ha⟩
  | finish => simp [Act.ev] at he
  | ret => simp [Act.ev] at he
  | other e' =>
    simp only [Act.ev] at he
    subst he
    rcases other_mem h ha with h | ⟨_, _, h⟩ <;> cases h

end Verif.Proof.PoolConn
