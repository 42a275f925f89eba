import Verif.Spec.Ids
import Verif.Proof.Plugin
import Verif.Proof.Remote
/-! Ids of inserted rows. -/
namespace Verif.Proof
open Verif.Go Verif.Spec Verif.Model Verif.Props

theorem captured_id {v : Bytes} (h : isVariable v = true) : captured (captureId v) = some v := by
  have e : ((ascii "SET " ++ v ++ ascii " = LAST_INSERT_ID()").drop 4).take ((ascii "SET " ++ v ++ ascii " = LAST_INSERT_ID()").length - 23) = v := by
    rw [List.append_assoc, show 4 = (ascii "SET ").length from rfl, List.drop_left']
    · have : (ascii "SET " ++ (v ++ ascii " = LAST_INSERT_ID()")).length - 23 = v.length := by
        simp [show (ascii "SET ").length = 4 from rfl, show (ascii " = LAST_INSERT_ID()").length = 19 from rfl]; omega
      rw [this, List.take_left']
      rfl
    · rfl
  simp only [captured, captureId, e, h, and_self, if_true]

theorem captured_eq {m : ClientMsg} {v : Bytes} (h : captured m = some v) : m = captureId v := by
  unfold captured at h
  split at h
  · rename_i t
    simp only at h
    split at h
    · rename_i hc
      cases h
      rw [captureId, ← hc.1]
    · cases h
  · cases h

/-- the variables of the library's kind that are captured -/
def caps (ms : List ClientMsg) : List Bytes := (ms.filterMap captured).filter isIdName

theorem caps_append (a b : List ClientMsg) : caps (a ++ b) = caps a ++ caps b := by simp [caps]

theorem caps_sql (ss : List String) (h : ∀ s ∈ ss, captured (sql s) = none) : caps (ss.map sql) = [] := by
  induction ss with
  | nil => rfl
  | cons s ss ih =>
    have := ih fun x hx => h x (.tail _ hx)
    rw [List.map_cons, show sql s :: ss.map sql = [sql s] ++ ss.map sql from rfl, caps_append, this]
    simp [caps, h s (.head _)]

theorem caps_opening {n : Nat} {ss : List String} (h : txOpening n = some ss) : caps (ss.map sql) = [] := by
  apply caps_sql
  revert h
  unfold txOpening
  split <;> intro h <;> cases h <;> decide

/-- what is captured is what the calls of InsertRow return -/
theorem exec_caps {dt : BitVec 64 → Bytes} {n : Nat} {prog : Prog} {s s' : UState} {out : List (Option Val)} {vs : List Bytes}
    (h : Exec dt n prog s s' out vs) : NoCapture prog → (∀ v ∈ vs, isIdName v = true ∧ isVariable v = true) →
    ∀ ms ms', s = .ok ms → s' = .ok ms' → caps ms' = caps ms ++ vs := by
  induction h with
  | ret => intro _ _ ms ms' h1 h2; cases h1; cases h2; simp
  | @call n c k ms m r s out vs ha _ ih =>
    intro hc hv ms' ms'' h1 h2; cases h1
    cases hc with
    | call hc hk =>
    rw [ih (hk _) (fun v hm => hv v (List.mem_append.mpr (.inr hm))) _ _ rfl h2, caps_append, List.append_assoc]
    congr 2
    cases ha with
    | @insertRow t cols row es v hr =>
      obtain ⟨h3, h4⟩ := hv v (by simp [named])
      simp only [caps, List.filterMap_cons, captured_id h4, List.filterMap_nil, show captured (.insert t (some 2) cols [es]) = none from rfl, List.filter_cons, h3, if_true, named, List.filter_nil]
    | @stmtExecute t args as hargs =>
      simp only [caps, named, List.filterMap_cons, List.filterMap_nil]
      cases hcap : captured (.stmtExecute t as) with
      | none => rfl
      | some v =>
        have e := captured_eq hcap
        simp only [captureId, ClientMsg.stmtExecute.injEq] at e
        cases hn : isIdName v with
        | false => simp [hn]
        | true => exact absurd (by rw [e.1]) (hc v hn args)
    | _ => rfl
  | tx hl _ _ ihb ihk =>
    intro hc hv ms' ms'' h1 h2; cases h1
    cases hc with
    | tx hb hk =>
    rw [ihk (hk _) (fun v hm => hv v (List.mem_append.mpr (.inr hm))) _ _ rfl h2, caps_append,
      ihb hb (fun v hm => hv v (List.mem_append.mpr (.inl hm))) _ _ rfl rfl, caps_append, caps_opening hl,
      show caps [sql "COMMIT"] = [] by decide]
    simp
  | expect _ _ ihb ihk =>
    intro hc hv ms' ms'' h1 h2; cases h1
    cases hc with
    | expect hb hk =>
    rw [ihk (hk _) (fun v hm => hv v (List.mem_append.mpr (.inr hm))) _ _ rfl h2, caps_append,
      ihb hb (fun v hm => hv v (List.mem_append.mpr (.inl hm))) _ _ rfl rfl, caps_append,
      show caps [.expectClose] = [] from rfl, show ∀ {op conds}, caps [.expectOpen op conds] = [] from rfl]
    simp
  | insertF h1 h2 _ ih =>
    intro hc hv ms ms' h3 h4; cases h3
    cases hc with
    | insertF hk => rw [ih hk hv _ _ rfl h4, caps_append]; exact congrArg (· ++ _) (List.append_nil _)
  | updateF h1 h2 h2' _ ih =>
    intro hc hv ms ms' h3 h4; cases h3
    cases hc with
    | updateF hk => rw [ih hk hv _ _ rfl h4, caps_append]; exact congrArg (· ++ _) (List.append_nil _)
  | outer hd _ ih =>
    intro hc hv ms ms' h3 h4
    cases hc with
    | outer hk => exact ih hk hv _ _ h3 h4
  | callFail _ _ hx _ => intro _ _ ms ms' h1 h2; cases exec_error hx _ rfl; cases h2
  | txFail _ _ hx _ _ => intro _ _ ms ms' h1 h2; cases exec_error hx _ rfl; cases h2
  | txLevel _ hx _ => intro _ _ ms ms' h1 h2; cases exec_error hx _ rfl; cases h2
  | expectFail _ hx _ _ => intro _ _ ms ms' h1 h2; cases exec_error hx _ rfl; cases h2
  | insertFFail _ _ _ hx _ => intro _ _ ms ms' h1 h2; cases exec_error hx _ rfl; cases h2
  | updateFFail _ _ _ hx _ => intro _ _ ms ms' h1 h2; cases exec_error hx _ rfl; cases h2
  | callSkip _ _ => intro _ _ ms ms' h1 h2; cases h1
  | txSkip _ _ => intro _ _ ms ms' h1 h2; cases h1
  | expectSkip _ _ => intro _ _ ms ms' h1 h2; cases h1
  | insertFSkip _ _ => intro _ _ ms ms' h1 h2; cases h1
  | updateFSkip _ _ => intro _ _ ms ms' h1 h2; cases h1

/-- every variable returned is captured right after the insert of a row -/
theorem exec_rows {dt : BitVec 64 → Bytes} {n : Nat} {prog : Prog} {s s' : UState} {out : List (Option Val)} {vs : List Bytes}
    (h : Exec dt n prog s s' out vs) : ∀ ms ms', s = .ok ms → s' = .ok ms' → ∀ v ∈ vs,
    ∃ pre t cols es post, ms' = pre ++ .insert t (some 2) cols [es] :: captureId v :: post := by
  induction h with
  | ret => intro ms ms' h1 h2 v hv; cases hv
  | call ha hx ih =>
    intro ms ms' h1 h2 v hv; cases h1
    rcases List.mem_append.mp hv with hv | hv
    · obtain ⟨new, e, _⟩ := exec_append hx _ _ rfl h2
      cases ha with
      | insertRow hr =>
        simp only [named, List.mem_singleton] at hv
        subst hv
        exact ⟨_, _, _, _, new, by rw [e, List.append_assoc]; rfl⟩
      | _ => simp [named] at hv
    · exact ih _ _ rfl h2 v hv
  | tx hl hx hk ihb ihk =>
    intro ms ms' h1 h2 v hv; cases h1
    rcases List.mem_append.mp hv with hv | hv
    · obtain ⟨pre, t, cols, es, post, e⟩ := ihb _ _ rfl rfl v hv
      obtain ⟨new, e', _⟩ := exec_append hk _ _ rfl h2
      exact ⟨pre, t, cols, es, post ++ [sql "COMMIT"] ++ new, by rw [e', e]; simp⟩
    · exact ihk _ _ rfl h2 v hv
  | expect hx hk ihb ihk =>
    intro ms ms' h1 h2 v hv; cases h1
    rcases List.mem_append.mp hv with hv | hv
    · obtain ⟨pre, t, cols, es, post, e⟩ := ihb _ _ rfl rfl v hv
      obtain ⟨new, e', _⟩ := exec_append hk _ _ rfl h2
      exact ⟨pre, t, cols, es, post ++ [.expectClose] ++ new, by rw [e', e]; simp⟩
    · exact ihk _ _ rfl h2 v hv
  | insertF h1 h2 _ ih => intro ms ms' h3 h4 v hv; cases h3; exact ih _ _ rfl h4 v hv
  | updateF h1 h2 h2' _ ih => intro ms ms' h3 h4 v hv; cases h3; exact ih _ _ rfl h4 v hv
  | outer hd _ ih => intro ms ms' h3 h4 v hv; exact ih _ _ h3 h4 v hv
  | callFail _ _ hx _ => intro ms ms' h1 h2; cases exec_error hx _ rfl; cases h2
  | txFail _ _ hx _ _ => intro ms ms' h1 h2; cases exec_error hx _ rfl; cases h2
  | txLevel _ hx _ => intro ms ms' h1 h2; cases exec_error hx _ rfl; cases h2
  | expectFail _ hx _ _ => intro ms ms' h1 h2; cases exec_error hx _ rfl; cases h2
  | insertFFail _ _ _ hx _ => intro ms ms' h1 h2; cases exec_error hx _ rfl; cases h2
  | updateFFail _ _ _ hx _ => intro ms ms' h1 h2; cases exec_error hx _ rfl; cases h2
  | callSkip _ _ => intro ms ms' h1 h2; cases h1
  | txSkip _ _ => intro ms ms' h1 h2; cases h1
  | expectSkip _ _ => intro ms ms' h1 h2; cases h1
  | insertFSkip _ _ => intro ms ms' h1 h2; cases h1
  | updateFSkip _ _ => intro ms ms' h1 h2; cases h1

theorem varsAfter_append (a b : List (ClientMsg × Answer)) : ∀ (f : Nat → IdFate) (x : Vars),
    varsAfter f (a ++ b) x = varsAfter (fun i => f (a.length + i)) b (varsAfter f a x) := by
  induction a with
  | nil => intro f x; simp [varsAfter]
  | cons y a ih =>
    intro f x
    obtain ⟨m, c⟩ := y
    simp only [List.cons_append, varsAfter, ih, List.length_cons]
    simp only [Nat.add_right_comm _ 1]

/-- messages that do not capture `v` leave it alone -/
theorem varsAfter_keeps {v : Bytes} (hv : isIdName v = true) (l : List (ClientMsg × Answer)) : ∀ (f : Nat → IdFate) (x : Vars),
    LeavesIds f → (∀ y ∈ l, captured y.1 ≠ some v) → (varsAfter f l x).user v = x.user v := by
  induction l with
  | nil => intro f x _ _; rfl
  | cons y l ih =>
    intro f x hf hl
    obtain ⟨m, a⟩ := y
    rw [varsAfter, ih _ _ (fun i => hf (i + 1)) fun y hy => hl y (.tail _ hy)]
    have hm : captured m ≠ some v := hl _ (.head _)
    unfold Vars.after
    split
    · rfl
    · exact hf 0 x v hv
    · exact hf 0 x v hv
    · cases hc : captured m with
      | none => exact hf 0 x v hv
      | some u =>
        have : v ≠ u := fun h => hm (h ▸ hc)
        simp [this]

/-- a row is inserted and its id captured -/
theorem varsAfter_row {v : Bytes} (hv : isVariable v = true) {t : Bytes} {dm : Option Nat} {cols : List Bytes} {rs : List (List PExpr)} (f : Nat → IdFate) (x : Vars) :
    (varsAfter f [(.insert t dm cols rs, .ok), (captureId v, .ok)] x).user v = some (f 0).generated := by
  simp only [varsAfter, Vars.after]
  have := captured_id hv
  rw [captureId] at this ⊢
  simp only [this, if_true]

theorem decimal_nameChars (n : Nat) : (decimal n).all nameChar = true := by
  induction n using Nat.strongRecOn with
  | ind n ih =>
    have hd : ∀ d : Nat, nameChar (digit d) = true := by
      intro d
      have h : d % 10 < 10 := Nat.mod_lt _ (by omega)
      have : ∀ k < 10, nameChar (UInt8.ofNat (48 + k)) = true := by decide
      exact this _ h
    rw [decimal]
    split
    · simp [hd]
    · rw [List.all_append, ih (n / 10) (by omega)]
      simp [hd]

theorem idVariable_name (k : Nat) : isIdName (idVariable k) = true ∧ isVariable (idVariable k) = true := by
  refine ⟨?_, ?_⟩
  · rw [isIdName, idVariable, List.isPrefixOf_iff_prefix]; exact List.prefix_append ..
  · show isVariable (64 :: ([105, 100, 36] ++ decimal k)) = true
    simp only [isVariable, List.all_append, decimal_nameChars]
    rfl

end Verif.Proof
