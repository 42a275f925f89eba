import Verif.Spec.Nested
import Verif.Props.Isolation
import Verif.Props.Remote
/-! C75: `Tx` inside `Tx`. -/
namespace Verif.Props
open Verif.Go Verif.Spec Verif.Model Verif.Proof

/-- a message that is not one of the transaction -/
def Inner (m : ClientMsg) : Prop := fixedKind m = none ∨ fixedKind m = some .change ∨ fixedKind m = some .session

theorem stmt_inner {t : Bytes} (h : t ∉ txTexts) (as : List PScalar) : Inner (.stmtExecute t as) := by
  simp only [txTexts, List.mem_cons, List.not_mem_nil, or_false, not_or] at h
  cases as with
  | cons a as => exact .inl rfl
  | nil =>
    unfold Inner fixedKind
    simp only [h, or_self, if_false]
    split
    · exact .inr (.inr rfl)
    · exact .inl rfl

theorem captured_inner (v : Bytes) : Inner (captureId v) := by
  refine stmt_inner (fun h => ?_) []
  have e : (ascii "SET " ++ v ++ ascii " = LAST_INSERT_ID()")[1]? = some 69 := rfl
  simp only [txTexts, List.mem_cons, List.not_mem_nil, or_false] at h
  rcases h with h | h | h | h <;> rw [h] at e <;> revert e <;> decide

theorem asked_inner {dt : BitVec 64 → Bytes} {c : Call} {ms : List ClientMsg} {r : Option Val} (h : Asked dt c ms r)
    (hc : ∀ t args, c = Call.stmtExecute t args → t ∉ txTexts) : ∀ m ∈ ms, Inner m := by
  cases h with
  | stmtExecute _ => simp only [List.mem_singleton, forall_eq]; exact stmt_inner (hc _ _ rfl) _
  | insertRow _ =>
    simp only [List.mem_cons, List.not_mem_nil, or_false, forall_eq_or_imp, forall_eq]
    exact ⟨.inr (.inl rfl), captured_inner _⟩
  | execute _ => simp only [List.mem_singleton, forall_eq]; exact .inl rfl
  | prepare => simp only [List.mem_singleton, forall_eq]; exact .inr (.inr rfl)
  | deallocate => simp only [List.mem_singleton, forall_eq]; exact .inr (.inr rfl)
  | _ => simp only [List.mem_singleton, forall_eq]; exact .inr (.inl rfl)

theorem inner_snoc {a : List ClientMsg} {m : ClientMsg} (h1 : ∀ m ∈ a, Inner m) (h2 : Inner m) : ∀ m' ∈ a ++ [m], Inner m' := by
  intro m' h
  rcases List.mem_append.mp h with h | h
  · exact h1 _ h
  · cases List.mem_singleton.mp h; exact h2

/-- A program that leaves transactions alone asks for no message of the kind. -/
theorem exec_inner {dt : BitVec 64 → Bytes} {n : Nat} {prog : Prog} {s s' : UState} {out : List (Option Val)} {vs : List Bytes}
    (h : Exec dt n prog s s' out vs) : ∀ ms ms', s = .ok ms → s' = .ok ms' → Leaves false prog → (∀ m ∈ ms, Inner m) → ∀ m ∈ ms', Inner m := by
  induction h with
  | ret => intro ms ms' h1 h2 _ hm; cases h1; cases h2; exact hm
  | call ha _ ih =>
    intro ms ms' h1 h2 hl hm; cases h1
    cases hl with
    | call hc hk => exact ih _ _ rfl h2 (hk _) fun m h => (List.mem_append.mp h).elim (hm m) (asked_inner ha hc m)
  | tx => intro ms ms' _ _ hl; cases hl with | tx h => cases h
  | expect hx hk ihb ihk =>
    intro ms ms' h1 h2 hl hm; cases h1
    cases hl with
    | expect hb hk' =>
      exact ihk _ _ rfl h2 (hk' _) (inner_snoc (ihb _ _ rfl rfl hb (inner_snoc hm (.inr (.inr rfl)))) (.inr (.inr rfl)))
  | insertF h1 h2 _ ih =>
    intro ms ms' h3 h4 hl hm; cases h3
    cases hl with
    | insertF hk => exact ih _ _ rfl h4 hk (inner_snoc hm (.inr (.inl rfl)))
  | updateF h1 h2 h2' _ ih =>
    intro ms ms' h3 h4 hl hm; cases h3
    cases hl with
    | updateF hk => exact ih _ _ rfl h4 hk (inner_snoc hm (.inr (.inl rfl)))
  | outer hd _ ih => intro ms ms' h3 h4 hl hm; cases hl with | outer hk => exact ih _ _ h3 h4 hk hm
  | callFail _ _ hx _ => intro ms ms' h1 h2; cases exec_error hx _ rfl; cases h2
  | txFail _ _ hx _ _ => intro ms ms' h1 h2; cases exec_error hx _ rfl; cases h2
  | txLevel _ hx _ => intro ms ms' h1 h2; cases exec_error hx _ rfl; cases h2
  | expectFail _ hx _ _ => intro ms ms' h1 h2; cases exec_error hx _ rfl; cases h2
  | insertFFail _ _ _ hx _ => intro ms ms' h1 h2; cases exec_error hx _ rfl; cases h2
  | updateFFail _ _ _ hx _ => intro ms ms' h1 h2; cases exec_error hx _ rfl; cases h2
  | callSkip _ _ => intro ms ms' h1 h2; cases h1
  | txSkip _ _ => intro ms ms' h1 h2; cases h1
  | expectSkip _ _ => intro ms ms' h1 h2; cases h1
  | insertFSkip _ _ => intro ms ms' h1 h2; cases h1
  | updateFSkip _ _ => intro ms ms' h1 h2; cases h1

theorem inner_steady {ms : List ClientMsg} {f : Nat → Fate} (h : ∀ m ∈ ms, Inner m) (hd : Decent f ms) : Steady f ms := by
  induction ms generalizing f with
  | nil => trivial
  | cons m ms ih =>
    refine ⟨?_, ih (fun m hm => h m (.tail _ hm)) fun i m hm hk => hd (i + 1) m hm hk⟩
    rcases h m (.head _) with hk | hk | hk
    · rw [Fate.of, hk]; exact hd 0 m rfl hk
    · rw [Fate.of, hk]; exact .inl rfl
    · rw [Fate.of, hk]; exact .inr rfl

/-! ### What a guarded unit of work does, whatever is in it -/

theorem effect_congr {s t : Session} (m : ClientMsg) (k : Kind) (h : s.durable = t.durable ∧ s.tx = t.tx) :
    (s.effect m k).durable = (t.effect m k).durable ∧ (s.effect m k).tx = (t.effect m k).tx := by
  obtain ⟨sb, st, sd⟩ := s
  obtain ⟨tb, tt, td⟩ := t
  obtain ⟨h1, h2⟩ := h
  dsimp only at h1 h2
  subst h1 h2
  cases k <;> first | exact ⟨rfl, rfl⟩ | (cases st <;> exact ⟨rfl, rfl⟩)

theorem block_effect {f : Fate} {m : ClientMsg} (h : isBlock m = true) (s : Session) : s.effect m (f.of m) = s := by
  cases m <;> first | rfl | cases h

theorem failed_answers {sp : Bool} {rest : List Block} {e : Nat} (ms : List ClientMsg) : ∀ (f : Nat → Fate) (s : Session) (d : Nat),
    Inside rest d s → openBlocks d ms = some e → NoErrorBlocks ms → (sp = true ∨ ∀ m ∈ ms, isBlock m = false) → s.failed = true →
    ∀ a ∈ (serve sp f ms s).1, a ≠ .ok := by
  induction ms with
  | nil => intro f s d _ _ _ _ hf a ha; cases ha
  | cons m ms ih =>
    intro f s d hi ho hn hs hf a ha
    obtain ⟨d', h1, h2, h3⟩ := serveOne_inside (f := f 0) hi ho (fun op conds h => hn op conds (h ▸ .head _)) (hs.imp id fun h => h m (.head _))
    rw [hf, Bool.true_or] at h3
    rw [serve_cons] at ha
    rcases List.mem_cons.mp ha with rfl | ha
    · cases hm : isBlock m with
      | false => rw [serveOne_plain hm, if_pos hf]; simp
      | true =>
        cases m with
        | expectOpen op conds => simp only [serveOne, hf]; simp
        | expectClose =>
          unfold Session.failed at hf
          split at hf
          · rename_i y ys hb; simp only [serveOne, hb, hf]; simp
          · cases hf
        | _ => cases hm
    · exact ih (fun i => f (i + 1)) _ d' h2 h1 (fun op conds h => hn op conds (.tail _ h)) (hs.imp id fun h => fun m hm => h m (.tail _ hm)) h3 a ha

/-- Inside blocks that fail on errors: the messages are executed up to the first that fails. -/
theorem serve_applied {sp : Bool} {rest : List Block} {e : Nat} (ms : List ClientMsg) : ∀ (f : Nat → Fate) (s t : Session) (d : Nat),
    Inside rest d s → openBlocks d ms = some e → NoErrorBlocks ms → (sp = true ∨ ∀ m ∈ ms, isBlock m = false) → s.failed = false →
    s.durable = t.durable ∧ s.tx = t.tx →
    ∃ k, k ≤ ms.length ∧ (∀ a ∈ (serve sp f ms s).1.take k, a = .ok) ∧
      (k < ms.length → (serve sp f ms s).1[k]? = some .failed ∧ (serve sp f ms s).2.failed = true) ∧
      (k = ms.length → (serve sp f ms s).2.failed = false) ∧ (∀ i, k ≤ i → (serve sp f ms s).1[i]? ≠ some .ok) ∧
      (serve sp f ms s).2.durable = (applied f (ms.take k) t).durable ∧
      (serve sp f ms s).2.tx = if k < ms.length ∧ (f k).outcome = .rolledBack then none else (applied f (ms.take k) t).tx := by
  induction ms with
  | nil => intro f s t d _ _ _ _ hf h; exact ⟨0, Nat.le_refl _, by simp [serve], by simp, fun _ => hf, by simp [serve], h.1, by simp [serve, applied, h.2]⟩
  | cons m ms ih =>
    intro f s t d hi ho hn hs hf h
    have hn' : ∀ op conds, m = .expectOpen op conds → conds = [(1, ascii "1")] := fun op conds h => hn op conds (h ▸ .head _)
    obtain ⟨d', h1, h2, h3⟩ := serveOne_inside (f := f 0) hi ho hn' (hs.imp id fun h => h m (.head _))
    rw [hf, Bool.false_or] at h3
    have hs' : sp = true ∨ ∀ m ∈ ms, isBlock m = false := hs.imp id fun h => fun m hm => h m (.tail _ hm)
    have hnn : NoErrorBlocks ms := fun op conds h => hn op conds (.tail _ h)
    have key : ((serveOne sp (f 0) m s).1 = .ok ∧ (serveOne sp (f 0) m s).2.durable = (t.effect m ((f 0).of m)).durable ∧
          (serveOne sp (f 0) m s).2.tx = (t.effect m ((f 0).of m)).tx) ∨
        ((serveOne sp (f 0) m s).1 = .failed ∧ (serveOne sp (f 0) m s).2.durable = t.durable ∧
          (serveOne sp (f 0) m s).2.tx = if (f 0).outcome = .rolledBack then none else t.tx) := by
      cases hm : isBlock m with
      | false =>
        rw [serveOne_plain hm, hf, if_neg (by simp)]
        cases hout : (f 0).outcome with
        | success => exact .inl ⟨rfl, effect_congr _ _ h⟩
        | error => exact .inr ⟨rfl, (note_durable _).trans h.1, by simpa using (note_tx _).trans h.2⟩
        | rolledBack => exact .inr ⟨rfl, (note_durable _).trans h.1, by simpa using note_tx _⟩
      | true =>
        left
        have hk := block_keeps (sp := sp) (f := f 0) (s := s) hm
        rw [block_effect hm, hk.1, hk.2]
        refine ⟨?_, h⟩
        cases m with
        | expectOpen op conds => simp only [serveOne, hf]; rfl
        | expectClose =>
          obtain ⟨inner, hl, hbl, _, _⟩ := hi
          match inner, hl with
          | y :: inner, hl =>
            have hy : y.failed = false := by simpa [Session.failed, hbl] using hf
            simp only [serveOne, hbl, List.cons_append, hy]
            rfl
        | _ => cases hm
    rw [serve_cons]
    rcases key with ⟨ka, kd, kt⟩ | ⟨ka, kd, kt⟩
    · rw [ka] at h3
      obtain ⟨k, i1, i2, i3, i4, i0, i5, i6⟩ := ih (fun i => f (i + 1)) _ _ d' h2 h1 hnn hs' (by simpa using h3) ⟨kd, kt⟩
      refine ⟨k + 1, by simpa using i1, ?_, ?_, ?_, ?_, ?_, ?_⟩
      · intro a ha
        rcases List.mem_cons.mp ha with rfl | ha
        · exact ka
        · exact i2 a ha
      · intro hk; exact i3 (by simpa using hk)
      · intro hk; exact i4 (by simpa using hk)
      · intro i hk
        cases i with
        | zero => omega
        | succ i => exact i0 i (by omega)
      · exact i5
      · simpa [applied] using i6
    · rw [ka] at h3
      obtain ⟨j1, j2, j3⟩ := failed_same (sp := sp) ms (fun i => f (i + 1)) _ d' h2 h1 hnn hs' (by simpa using h3)
      have j4 := failed_answers (sp := sp) ms (fun i => f (i + 1)) _ d' h2 h1 hnn hs' (by simpa using h3)
      refine ⟨0, Nat.zero_le _, by simp, fun _ => ⟨by simp [ka], j3⟩, by simp, ?_, j1.trans kd, ?_⟩
      · intro i _
        cases i with
        | zero => simp [ka]
        | succ i => exact fun h => j4 _ (List.mem_of_getElem? h) rfl
      rw [j2, kt]
      simp [applied]

/-- The statements of a guarded unit of work. -/
def statements (j : Job) : List ClientMsg := j.opening.map sql ++ j.body ++ [sql "COMMIT"]

/-- What becomes of them. -/
def Job.fates (j : Job) : Nat → Fate := fun i => j.script (1 + i)

/-- **C75**, exactly: a guarded unit of work, whatever statements are in it, has the effect of its first `k` statements, those
answered OK before the first that is not; it is committed if and only if these are all of them. -/
theorem C75_exact {sp : Bool} {j : Job} {s : Session} (hb : openBlocks 0 j.body = some 0) (hn : NoErrorBlocks j.body)
    (hsp : sp = true ∨ ∀ m ∈ j.body, isBlock m = false) (hs : s.blocks = []) :
    ∃ k, k ≤ (statements j).length ∧
      (∀ i, i < (statements j).length → ((serve sp j.script (guarded j.op j.opening j.body) s).1[1 + i]? = some .ok ↔ i < k)) ∧
      ((j.on sp s).1 = true ↔ k = (statements j).length) ∧
      (j.on sp s).2.durable = (applied (Job.fates j) ((statements j).take k) s).durable ∧
      (j.on sp s).2.tx = (if j.dropped = true ∨ (k < (statements j).length ∧ (Job.fates j k).outcome = .rolledBack) then none
        else (applied (Job.fates j) ((statements j).take k) s).tx) ∧ (j.on sp s).2.blocks = [] := by
  have hsf : s.failed = false := by simp [Session.failed, hs]
  have h0 : Inside s.blocks 0 { s with blocks := ⟨true, s.failed⟩ :: s.blocks } :=
    ⟨[⟨true, s.failed⟩], rfl, rfl, by simp, by simp⟩
  have hbS : openBlocks 0 (statements j) = some 0 := by
    rw [statements, openBlocks_append, openBlocks_append, openBlocks_plain (sql_plain _)]
    simp only [Option.bind_some, hb]
    rfl
  have hnS : NoErrorBlocks (statements j) := by
    intro op conds hm
    simp only [statements, List.mem_append, List.mem_map, List.mem_singleton] at hm
    rcases hm with (⟨_, _, h⟩ | h) | h
    · cases h
    · exact hn op conds h
    · cases h
  have hspS : sp = true ∨ ∀ m ∈ statements j, isBlock m = false := by
    refine hsp.imp id fun h m hm => ?_
    simp only [statements, List.mem_append, List.mem_map, List.mem_singleton] at hm
    rcases hm with (⟨_, _, rfl⟩ | hm) | rfl
    · rfl
    · exact h m hm
    · rfl
  have hg : guarded j.op j.opening j.body = .expectOpen j.op [(1, ascii "1")] :: (statements j ++ [.expectClose]) := rfl
  obtain ⟨k, k1, k2, k3, k4, k5, k6, k7⟩ := serve_applied (sp := sp) (statements j) (fun i => j.script (i + 1)) _ s 0 h0 hbS hnS hspS
    (by simpa [Session.failed] using hsf) ⟨rfl, rfl⟩
  have hI := (serve_inside (sp := sp) (e := 0) (statements j) (fun i => j.script (i + 1)) _ 0 h0 hbS hnS hspS).1
  have hfates : (fun i => j.script (i + 1)) = Job.fates j := by funext i; rw [Job.fates, Nat.add_comm]
  have hlen := serve_length (sp := sp) (statements j) (fun i => j.script (i + 1)) { s with blocks := ⟨true, s.failed⟩ :: s.blocks }
  have hserve : ∃ a0 x, serve sp j.script (guarded j.op j.opening j.body) s =
      let r := serve sp (fun i => j.script (i + 1)) (statements j) { s with blocks := ⟨true, s.failed⟩ :: s.blocks }
      let c := serveOne sp x .expectClose r.2
      (a0 :: (r.1 ++ [c.1]), c.2) := by
    rw [hg, serve_cons, serveOne_open, serve_append]
    exact ⟨_, _, rfl⟩
  rw [hfates] at k2 k3 k4 k5 k6 k7 hI hlen hserve
  revert k2 k3 k4 k5 k6 k7 hI hlen hserve
  generalize serve sp (Job.fates j) (statements j) { s with blocks := ⟨true, s.failed⟩ :: s.blocks } = r
  intro k2 k3 k4 k5 k6 k7 hI hlen hserve
  obtain ⟨a0, x, hserve⟩ := hserve
  have hans : ∀ i, i < (statements j).length → (serve sp j.script (guarded j.op j.opening j.body) s).1[1 + i]? = r.1[i]? := by
    intro i hi
    rw [hserve]
    dsimp only
    rw [Nat.add_comm 1 i, List.getElem?_cons_succ, List.getElem?_append_left (by omega)]
  have hiff : ∀ i, i < (statements j).length → (r.1[i]? = some .ok ↔ i < k) := by
    intro i hi
    refine ⟨fun h => ?_, fun h => ?_⟩
    · exact Nat.lt_of_not_le fun hk => k5 i hk h
    · rw [List.getElem?_eq_getElem (by omega)]
      have : r.1[i] ∈ r.1.take k := by
        rw [List.mem_take_iff_getElem]
        exact ⟨i, by omega, rfl⟩
      rw [k2 _ this]
  have hpos : (statements j).length = j.opening.length + j.body.length + 1 := by simp [statements]; omega
  have hcl : ∀ x : Fate, (serveOne sp x .expectClose r.2).2.blocks = [] := by
    intro x
    obtain ⟨inner, hl, hbl, _, _⟩ := hI
    match inner, hl with
    | [y], _ =>
      rw [hs] at hbl
      simp only [serveOne, hbl, List.cons_append, List.nil_append]
      cases y.failed <;> cases sp <;> rfl
  have hcom : (j.on sp s).1 = decide (r.1[j.opening.length + j.body.length]? = some .ok) := by
    simp only [Job.on]
    rw [hans _ (by omega)]
  have hkeep := fun x : Fate => block_keeps (sp := sp) (f := x) (m := .expectClose) (s := r.2) rfl
  refine ⟨k, k1, fun i hi => by rw [hans i hi]; exact hiff i hi, ?_, ?_, ?_, ?_⟩
  · rw [hcom, decide_eq_true_eq, hiff _ (by omega)]
    omega
  · rw [← k6]
    simp only [Job.on]
    rw [hserve]
    dsimp only
    split
    · exact (hkeep _).1
    · exact (hkeep _).1
  · simp only [Job.on]
    rw [hserve]
    dsimp only
    by_cases hd : j.dropped = true
    · rw [if_pos hd, if_pos (.inl hd)]; rfl
    · rw [if_neg hd]
      simp only [hd, false_or, Bool.false_eq_true]
      have hk : Job.fates j k = j.script (k + 1) := by rw [Job.fates, Nat.add_comm]
      rw [(hkeep _).2, k7, hk]
  · simp only [Job.on]
    rw [hserve]
    dsimp only
    split
    · rfl
    · exact hcl _

/-! ### One `Tx` inside another -/

theorem applied_append (a c : List ClientMsg) : ∀ (f : Nat → Fate) (s : Session),
    applied f (a ++ c) s = applied (fun i => f (a.length + i)) c (applied f a s) := by
  induction a with
  | nil => intro f s; simp [applied]
  | cons m a ih => intro f s; simp only [List.cons_append, applied, ih, List.length_cons, Nat.add_right_comm _ 1]

theorem applied_inside (ms : List ClientMsg) : ∀ (f : Nat → Fate) (s : Session) (acc : List ClientMsg), Steady f ms → s.tx = some acc →
    (applied f ms s).durable = s.durable ∧ (applied f ms s).tx = some (acc ++ changes f ms) := by
  induction ms with
  | nil => intro f s acc _ ht; exact ⟨rfl, by simpa [applied, changes] using ht⟩
  | cons m ms ih =>
    intro f s acc hst ht
    rw [applied, changes]
    rcases hst.1 with hk | hk
    · obtain ⟨h1, h2⟩ := ih (fun i => f (i + 1)) (s.effect m .change) (acc ++ [m]) hst.2 (by simp [Session.effect, ht])
      rw [hk, h1, h2]
      simp [Session.effect, ht]
    · obtain ⟨h1, h2⟩ := ih (fun i => f (i + 1)) (s.effect m .session) acc hst.2 ht
      rw [hk, h1, h2]
      simp [Session.effect]

theorem applied_outside (ms : List ClientMsg) : ∀ (f : Nat → Fate) (s : Session), Steady f ms → s.tx = none →
    (applied f ms s).durable = s.durable ++ changes f ms ∧ (applied f ms s).tx = none := by
  induction ms with
  | nil => intro f s _ ht; exact ⟨by simp [applied, changes], ht⟩
  | cons m ms ih =>
    intro f s hst ht
    rw [applied, changes]
    rcases hst.1 with hk | hk
    · obtain ⟨h1, h2⟩ := ih (fun i => f (i + 1)) (s.effect m .change) hst.2 (by simp [Session.effect, ht])
      rw [hk, h1, h2]
      simp [Session.effect, ht]
    · obtain ⟨h1, h2⟩ := ih (fun i => f (i + 1)) (s.effect m .session) hst.2 ht
      rw [hk, h1, h2]
      simp [Session.effect]

theorem applied_session (ss : List String) : ∀ (f : Nat → Fate) (s : Session), (∀ x ∈ ss, fixedKind (sql x) = some .session) →
    applied f (ss.map sql) s = s := by
  induction ss with
  | nil => intro f s _; rfl
  | cons x ss ih =>
    intro f s h
    rw [List.map_cons, applied, Fate.of, h x (.head _)]
    exact ih _ _ fun y hy => h y (.tail _ hy)

theorem applied_opening {level : Nat} {ss : List String} (h : txOpening level = some ss) (f : Nat → Fate) (s : Session) (k : Nat) :
    applied f ((ss.map sql).take k) s =
      if k < ss.length then s else { s with durable := s.durable ++ s.tx.getD [], tx := some [] } := by
  obtain ⟨pre, last, rfl, hp, hl⟩ := opening_kinds h
  by_cases hk : k < (pre ++ [last]).length
  · rw [if_pos hk]
    have e : ((pre ++ [last]).map sql).take k = (pre.take k).map sql := by
      rw [List.length_append, List.length_singleton] at hk
      rw [← List.map_take, List.take_append_of_le_length (by omega)]
    rw [e]
    exact applied_session _ _ _ fun x hx => hp x (List.mem_of_mem_take hx)
  · rw [if_neg hk, List.take_of_length_le (by simpa using hk), List.map_append, applied_append, applied_session _ _ _ hp,
      List.map_singleton, applied, Fate.of, hl]
    rfl

theorem take_seg {α : Type} (a b : List α) (k : Nat) : (a ++ b).take k = if k < a.length then a.take k else a ++ b.take (k - a.length) := by
  rw [List.take_append]
  split
  · rw [Nat.sub_eq_zero_of_le (by omega)]; simp
  · rw [List.take_of_length_le (by omega)]

/-- The durable changes after the first `k` statements of a transaction with another one inside. -/
theorem nested_applied {l l' : Nat} {ss ss' : List String} {b1 b2 b3 : List ClientMsg} {f : Nat → Fate} (hl : txOpening l = some ss)
    (hl' : txOpening l' = some ss') (h1 : Steady (fun i => f (ss.length + i)) b1)
    (h2 : Steady (fun i => f (ss.length + b1.length + ss'.length + i)) b2)
    (h3 : Steady (fun i => f (ss.length + b1.length + ss'.length + b2.length + 1 + i)) b3) (s : Session) (k : Nat) :
    (applied f ((ss.map sql ++ (b1 ++ (ss'.map sql ++ (b2 ++ ([sql "COMMIT"] ++ (b3 ++ [sql "COMMIT"])))))).take k) s).durable =
      s.durable ++ (if k < ss.length then [] else s.tx.getD []) ++
      (if k < ss.length + b1.length + ss'.length then [] else changes (fun i => f (ss.length + i)) b1) ++
      (if k < ss.length + b1.length + ss'.length + b2.length + 1 then [] else
        changes (fun i => f (ss.length + b1.length + ss'.length + i)) b2) ++
      changes (fun i => f (ss.length + b1.length + ss'.length + b2.length + 1 + i))
        (b3.take (k - (ss.length + b1.length + ss'.length + b2.length + 1))) := by
  have hz : k < ss.length + b1.length + ss'.length + b2.length + 1 → k - (ss.length + b1.length + ss'.length + b2.length + 1) = 0 :=
    fun h => by omega
  rw [take_seg, List.length_map]
  by_cases c1 : k < ss.length
  · rw [if_pos c1, applied_opening hl, if_pos c1, if_pos c1, if_pos (by omega), if_pos (by omega), hz (by omega)]
    simp [changes]
  rw [if_neg c1, applied_append, if_neg c1, List.length_map]
  have e1 := applied_opening hl f s ss.length
  rw [List.take_of_length_le (by simp), if_neg (by omega)] at e1
  rw [e1, take_seg]
  generalize hs1 : ({ s with durable := s.durable ++ s.tx.getD [], tx := some [] } : Session) = s1
  have hd1 : s1.durable = s.durable ++ s.tx.getD [] := by rw [← hs1]
  have ht1 : s1.tx = some [] := by rw [← hs1]
  by_cases c2 : k - ss.length < b1.length
  · rw [if_pos c2, if_pos (by omega), if_pos (by omega), hz (by omega), (applied_inside _ _ _ _ (steady_take h1 _) ht1).1, hd1]
    simp [changes]
  rw [if_neg c2, applied_append]
  obtain ⟨hd2, ht2⟩ := applied_inside b1 _ s1 _ h1 ht1
  revert hd2 ht2
  generalize applied (fun i => f (ss.length + i)) b1 s1 = s2
  intro hd2 ht2
  rw [take_seg, List.length_map]
  by_cases c3 : k - ss.length - b1.length < ss'.length
  · rw [if_pos c3, applied_opening hl', if_pos c3, if_pos (by omega), if_pos (by omega), hz (by omega), hd2, hd1]
    simp [changes]
  rw [if_neg c3, applied_append, List.length_map]
  have e3 := applied_opening hl' (fun i => f (ss.length + (b1.length + i))) s2 ss'.length
  rw [List.take_of_length_le (by simp), if_neg (by omega)] at e3
  rw [e3, take_seg]
  generalize hs3 : ({ s2 with durable := s2.durable ++ s2.tx.getD [], tx := some [] } : Session) = s3
  have hd3 : s3.durable = s.durable ++ s.tx.getD [] ++ changes (fun i => f (ss.length + i)) b1 := by rw [← hs3]; simp [hd2, hd1, ht2]
  have ht3 : s3.tx = some [] := by rw [← hs3]
  have f2 : (fun i => f (ss.length + (b1.length + (ss'.length + i)))) = fun i => f (ss.length + b1.length + ss'.length + i) := by
    funext i; congr 1; omega
  rw [f2]
  rw [if_neg (show ¬k < ss.length + b1.length + ss'.length by omega)]
  by_cases c4 : k - ss.length - b1.length - ss'.length < b2.length
  · rw [if_pos c4, if_pos (by omega), hz (by omega), (applied_inside _ _ _ _ (steady_take h2 _) ht3).1, hd3]
    simp [changes]
  rw [if_neg c4, applied_append]
  obtain ⟨hd4, ht4⟩ := applied_inside b2 _ s3 _ h2 ht3
  revert hd4 ht4
  generalize applied (fun i => f (ss.length + b1.length + ss'.length + i)) b2 s3 = s4
  intro hd4 ht4
  rw [take_seg, List.length_singleton]
  by_cases c5 : k - ss.length - b1.length - ss'.length - b2.length < 1
  · rw [if_pos c5, if_pos (by omega), hz (by omega)]
    have : k - ss.length - b1.length - ss'.length - b2.length = 0 := by omega
    rw [this]
    simp [changes, applied, hd4, hd3]
  rw [if_neg c5, if_neg (by omega), List.singleton_append, applied, Fate.of, commit_kind]
  have ht5 : (s4.effect (sql "COMMIT") .commit).tx = none := rfl
  have hd5 : (s4.effect (sql "COMMIT") .commit).durable = s4.durable ++ s4.tx.getD [] := rfl
  rw [Option.getD_some]
  revert ht5 hd5
  generalize s4.effect (sql "COMMIT") .commit = s5
  intro ht5 hd5
  rw [ht4, hd4, hd3] at hd5
  have f3 : (fun i => f (ss.length + b1.length + ss'.length + (b2.length + (i + 1)))) =
      fun i => f (ss.length + b1.length + ss'.length + b2.length + 1 + i) := by
    funext i; congr 1; omega
  rw [f3]
  have hk : k - ss.length - b1.length - ss'.length - b2.length - 1 = k - (ss.length + b1.length + ss'.length + b2.length + 1) := by omega
  rw [hk, take_seg]
  split
  · rw [(applied_outside _ _ _ (steady_take h3 _) ht5).1, hd5]
    simp
  · rw [applied_append]
    obtain ⟨hd6, ht6⟩ := applied_outside _ _ _ h3 ht5
    revert hd6 ht6
    generalize applied (fun i => f (ss.length + b1.length + ss'.length + b2.length + 1 + i)) b3 s5 = s6
    intro hd6 ht6
    rw [List.take_of_length_le (l := b3) (by omega)]
    have : ∀ (n : Nat) (g : Nat → Fate), (applied g ([sql "COMMIT"].take n) s6).durable = s6.durable := by
      intro n g
      cases n with
      | zero => rfl
      | succ n =>
        rw [List.take_succ_cons, List.take_nil, applied, Fate.of, commit_kind]
        simp [applied, Session.effect, ht6]
    rw [this, hd6, hd5]
    simp

/-- A guarded unit of work with a `Tx` inside: what it has made durable depends on how many of its statements were answered OK
before the first that was not. The START TRANSACTION of the inner one makes durable what the outer one did before, and
what the outer one does after the COMMIT of the inner one is durable at once, whether or not the unit of work is
committed. -/
theorem C75_nested {sp : Bool} {j : Job} {s : Session} {l l' : Nat} {ss' : List String} {b1 b2 b3 : List ClientMsg}
    (hl : txOpening l = some j.opening) (hl' : txOpening l' = some ss')
    (hbody : j.body = b1 ++ (ss'.map sql ++ (b2 ++ ([sql "COMMIT"] ++ b3))))
    (hb : openBlocks 0 j.body = some 0) (hn : NoErrorBlocks j.body) (hsp : sp = true ∨ ∀ m ∈ j.body, isBlock m = false) (hs : s.blocks = [])
    (n0 n1 n2 n3 : Nat) (h0 : n0 = j.opening.length) (h1 : n1 = n0 + b1.length) (h2 : n2 = n1 + ss'.length) (h3 : n3 = n2 + b2.length + 1)
    (s1 : Steady (fun i => Job.fates j (n0 + i)) b1) (s2 : Steady (fun i => Job.fates j (n2 + i)) b2)
    (s3 : Steady (fun i => Job.fates j (n3 + i)) b3) :
    ∃ k, k ≤ (statements j).length ∧
      (∀ i, i < (statements j).length → ((serve sp j.script (guarded j.op j.opening j.body) s).1[1 + i]? = some .ok ↔ i < k)) ∧
      ((j.on sp s).1 = true ↔ k = (statements j).length) ∧
      (j.on sp s).2.durable = s.durable ++ (if k < n0 then [] else s.tx.getD []) ++
        (if k < n2 then [] else changes (fun i => Job.fates j (n0 + i)) b1) ++
        (if k < n3 then [] else changes (fun i => Job.fates j (n2 + i)) b2) ++
        changes (fun i => Job.fates j (n3 + i)) (b3.take (k - n3)) := by
  subst h0 h1 h2 h3
  obtain ⟨k, k1, k2, k3, k4, -⟩ := C75_exact (s := s) hb hn hsp hs
  refine ⟨k, k1, k2, k3, ?_⟩
  rw [k4]
  have e : statements j = j.opening.map sql ++ (b1 ++ (ss'.map sql ++ (b2 ++ ([sql "COMMIT"] ++ (b3 ++ [sql "COMMIT"]))))) := by
    rw [statements, hbody]; simp
  rw [e, nested_applied hl hl' s1 s2 s3]

/-! ### C75 -/

/-- The changes of the unit of work are durable, all of them, if it was committed, and none otherwise. -/
def AllOrNothing (sp : Bool) (j : Job) (s : Session) : Prop :=
  (j.on sp s).2.durable = s.durable ++ (if (j.on sp s).1 then changes j.bodyScript j.body else [])

/-- C75 in full: a unit of work `ExpectFailOnError(Tx(body))` on an idle session is all or nothing, also if the body calls `Tx`. -/
def C75_full (sp : Bool) : Prop := ∀ (body : Prog) (level : Nat) (out : List (Option Val)) (vs : List Bytes) (j : Job) (s : Session),
  txOpening level = some j.opening → Leaves true body → Exec libDur 2 body (.ok []) (.ok j.body) out vs → Decent j.bodyScript j.body →
  (sp = true ∨ ∀ m ∈ j.body, isBlock m = false) → Idle s → AllOrNothing sp j s

theorem leaves_jobOK {sp : Bool} {body : Prog} {level : Nat} {out : List (Option Val)} {vs : List Bytes} {j : Job}
    (hl : txOpening level = some j.opening) (hp : Leaves false body) (hx : Exec libDur 2 body (.ok []) (.ok j.body) out vs)
    (hd : Decent j.bodyScript j.body) (hsp : sp = true ∨ ∀ m ∈ j.body, isBlock m = false) : JobOK sp j := by
  obtain ⟨h3, h4⟩ := exec_blocks hx _ _ rfl rfl 0 rfl (fun _ _ hm => by cases hm)
  exact ⟨⟨_, hl⟩, h3, h4, inner_steady (exec_inner hx _ _ rfl rfl hp (fun m h => by cases h)) hd, hsp⟩

/-- **C75**, partial: such a unit of work is all or nothing if its body does not call `Tx`.  Missing: a `Tx` inside another,
see `C75_nested` and `C75_wrong`. -/
theorem C75_partial {sp : Bool} {body : Prog} {level : Nat} {out : List (Option Val)} {vs : List Bytes} {j : Job} {s : Session}
    (hl : txOpening level = some j.opening) (hp : Leaves false body) (hx : Exec libDur 2 body (.ok []) (.ok j.body) out vs)
    (hd : Decent j.bodyScript j.body) (hsp : sp = true ∨ ∀ m ∈ j.body, isBlock m = false) (hs : Idle s) : AllOrNothing sp j s :=
  (job_once (leaves_jobOK hl hp hx hd hsp) hs).1

/-- From the calls to the database, for bodies that do not call `Tx`: the assumption of C60 on the statements is one on the
statements of the user only. -/
theorem C75_end_to_end {g : Grow} {b b' : Builder} {body : Prog} {o : List Builder} {out : List (Option Val)} (hb : Ready b) (h0 : b.buf.data = [])
    (op : UInt8) (level : BitVec 64) (hp : Leaves false body)
    (h : run g (.expect op (.tx level body fun o => .ret none o) fun o => .ret none o) [] b = .ok (o, b', out))
    {bs : Bytes} (hbs : b'.send = .ok (.ok bs)) (hsize : bs.length < 2 ^ 32) (hop : op.toNat ≤ 1) :
    ∃ opening ms vs, txOpening level.toNat = some opening ∧ Exec libDur 2 body (.ok []) (.ok ms) out vs ∧
    ∀ (cd : Codec) (spreads : Bool) (script : Nat → Fate) (s s' : Session) (w : World) (c : Conn),
      let bodyScript := fun i => script (1 + (opening.length + i))
      (∀ m ∈ ms, Readable m) → Decent bodyScript ms → (spreads = true ∨ ∀ m ∈ ms, isBlock m = false) →
      RejectsHeaders cd → Life cd c.r → Idle s → Serves cd spreads script s bs c.r.pending s' →
      ∃ w' c' rrs e, Conn.send cd w c bs = .ok (w', c', rrs, e) ∧
        (s'.durable = s.durable ∨ s'.durable = s.durable ++ changes bodyScript ms) ∧
        (e = none → rrs.length = opening.length + ms.length + 3 ∧
          ((∀ r ∈ rrs, r = .ok) → s'.durable = s.durable ++ changes bodyScript ms ∧ Idle s') ∧
          ((∃ r ∈ rrs, r ≠ .ok) → s'.durable = s.durable)) := by
  obtain ⟨ss, ms, vs, hl, hx, hall⟩ := C60_end_to_end hb h0 op level h hbs hsize hop
  exact ⟨ss, ms, vs, hl, hx, fun cd sp f s s' w c hr hd => hall cd sp f s s' w c hr
    (inner_steady (exec_inner hx _ _ rfl rfl hp (fun m h => by cases h)) hd)⟩

/-- `Delete("t", nil); Tx(Default, { Insert("u", {"a"}, {{1}}) })` -/
def nestedEx : Prog := .call (.delete (ascii "t") none) fun _ =>
  .tx 0 (.call (.insert (ascii "u") [ascii "a"] [[.int 1]]) fun _ => .ret none []) fun _ => .ret none []

theorem nestedEx_leaves : Leaves true nestedEx :=
  .call (fun _ _ h => by cases h) fun _ => .tx rfl (.call (fun _ _ h => by cases h) fun _ => .ret) fun _ => .ret

theorem deleteEx_asked : Asked libDur (.delete (ascii "t") none) [deleteEx] none := .delete (show Crit libDur none none from rfl)

theorem insertEx_asked : Asked libDur (.insert (ascii "u") [ascii "a"] [[.int 1]]) [insertEx] none :=
  .insert (by simp) (show Rows libDur [[.int 1]] [[.literal (.sint 1)]] from rfl)

theorem nestedEx_exec : Exec libDur 2 nestedEx (.ok []) (.ok [deleteEx, sql "START TRANSACTION", insertEx, sql "COMMIT"]) [] [] :=
  .call (ms := []) (m := [deleteEx]) (vs := []) deleteEx_asked
    (.tx (ss := ["START TRANSACTION"]) (ms := [deleteEx]) (ms' := [deleteEx, sql "START TRANSACTION", insertEx]) (o := []) (vs := []) (vs' := []) rfl
      (.call (ms := [deleteEx, sql "START TRANSACTION"]) (m := [insertEx]) (vs := []) insertEx_asked .ret) .ret)

/-- C75 is false: the inner transaction fails, the unit of work is not committed, and the change of the outer one before it is
durable. -/
theorem C75_wrong (sp : Bool) : ¬C75_full sp := by
  intro h
  have := h nestedEx 0 [] [] ⟨0, ["START TRANSACTION"], [deleteEx, sql "START TRANSACTION", insertEx, sql "COMMIT"], failsAt 4, false⟩ freshSession
    rfl nestedEx_leaves nestedEx_exec
    (by
      intro i m _ _
      exact .inl rfl) (.inr (by decide)) ⟨rfl, rfl⟩
  have := congrArg List.length this
  revert this
  cases sp <;> decide

/-- without the inner `Tx`, and with a call that fails -/
example : AllOrNothing true ⟨0, ["START TRANSACTION"], [deleteEx, insertEx], failsAt 3, false⟩ freshSession :=
  C75_partial (body := .call (.delete (ascii "t") none) fun _ => .call (.insert (ascii "u") [ascii "a"] [[.int 1]]) fun _ => .ret none []) (level := 0) rfl
    (.call (fun _ _ h => by cases h) fun _ => .call (fun _ _ h => by cases h) fun _ => .ret)
    (.call (m := [deleteEx]) deleteEx_asked (.call (m := [insertEx]) insertEx_asked .ret)) (fun _ _ _ _ => .inl rfl) (.inr (by decide))
    ⟨rfl, rfl⟩

/-- the body of `C75_wrong`, with a statement after the inner transaction that fails -/
example : ∃ k, k = 5 ∧ ((⟨0, ["START TRANSACTION"], [deleteEx, sql "START TRANSACTION", insertEx, sql "COMMIT", deleteEx], failsAt 6, false⟩ : Job).on true
      freshSession).2.durable = [deleteEx] ++ [insertEx] := by
  obtain ⟨k, _, h1, _, h2⟩ := C75_nested (sp := true)
    (j := ⟨0, ["START TRANSACTION"], [deleteEx, sql "START TRANSACTION", insertEx, sql "COMMIT", deleteEx], failsAt 6, false⟩)
    (s := freshSession) (l := 0) (l' := 0) (ss' := ["START TRANSACTION"]) (b1 := [deleteEx]) (b2 := [insertEx]) (b3 := [deleteEx]) rfl rfl rfl rfl
    (fun _ _ h => by simp [deleteEx, insertEx, sql] at h) (.inl rfl) rfl 1 2 3 5 rfl rfl rfl rfl ⟨.inl rfl, trivial⟩ ⟨.inl rfl, trivial⟩ ⟨.inl rfl, trivial⟩
  have a := (h1 4 (by decide)).mp (by decide)
  have c : ¬5 < k := fun hk => absurd ((h1 5 (by decide)).mpr hk) (by decide)
  have : k = 5 := by omega
  subst this
  exact ⟨5, rfl, h2⟩

end Verif.Props
