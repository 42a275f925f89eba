import Verif.Spec.Injection
import Verif.Proof.Units
/-! Data cannot become code: two runs side by side. -/
namespace Verif.Proof
open Verif.Go Verif.Spec
open Verif.Model (Val Err Prog Call Criteria RowStep SetStep fmtTime)

variable {dt : BitVec 64 → Bytes} {ρ : Bytes → Bytes → Prop}

theorem along_length {α β : Type} {R : α → β → Prop} {as : List α} {bs : List β} (h : Along R as bs) : as.length = bs.length := by
  induction h with
  | nil => rfl
  | cons _ _ ih => simp [ih]

theorem along_append {α β : Type} {R : α → β → Prop} {as as' : List α} {bs bs' : List β} (h : Along R as bs) (h' : Along R as' bs') :
    Along R (as ++ as') (bs ++ bs') := by
  induction h with
  | nil => exact h'
  | cons h _ ih => exact .cons h ih

theorem along_refl {α : Type} {R : α → α → Prop} : ∀ {as : List α}, (∀ a ∈ as, R a a) → Along R as as
  | [], _ => .nil
  | a :: _, h => .cons (h a (.head _)) (along_refl fun b hb => h b (.tail _ hb))

theorem plain_data {v : Val} {s : PScalar} (h : plainScalar dt fmtTime v = some s) : isData v = true := by
  cases v <;> first | rfl | cases h

/-- data is sent as a literal -/
theorem data_literal {v : Val} {e : PExpr} (hd : isData v = true) (h : exprOf dt fmtTime v = some e) : ∃ s, e = .literal s := by
  have key : ∀ v : Val, (plainScalar dt fmtTime v).map PExpr.literal = some e → ∃ s, e = .literal s := by
    intro v h
    cases hp : plainScalar dt fmtTime v with
    | none => rw [hp] at h; cases h
    | some s => rw [hp] at h; cases h; exact ⟨s, rfl⟩
  cases v with
  | column | «variable» | placeholder | op | call | nilFn => simp [isData] at hd
  | ptr v =>
    simp only [exprOf] at h
    split at h
    · rename_i hw
      cases v <;> simp [isWrapper] at hw <;> exact key _ (by simpa only [exprOf] using h)
    · cases h
  | _ => exact key _ (by simpa only [exprOf] using h)

mutual
theorem val_alike {v w : Val} (h : ValAlike ρ v w) {e f : PExpr} (he : exprOf dt fmtTime v = some e) (hf : exprOf dt fmtTime w = some f) :
    ExprAlike ρ e f := by
  match h with
  | .data h1 h2 =>
    obtain ⟨_, rfl⟩ := data_literal h1 he
    obtain ⟨_, rfl⟩ := data_literal h2 hf
    exact .literal
  | .column => simp only [exprOf] at he hf; cases he; cases hf; exact .ident
  | .variable h => simp only [exprOf] at he hf; cases he; cases hf; exact .variable h
  | .placeholder => simp only [exprOf] at he hf; cases he; cases hf; exact .placeholder
  | .nilFn => simp [exprOf, plainScalar] at he
  | @ValAlike.op _ n vs ws h =>
    simp only [exprOf] at he hf
    cases h1 : exprsOf dt fmtTime vs with
    | none => rw [h1] at he; cases he
    | some es =>
      cases h2 : exprsOf dt fmtTime ws with
      | none => rw [h2] at hf; cases hf
      | some fs => rw [h1] at he; rw [h2] at hf; cases he; cases hf; exact .operator (vals_alike h h1 h2)
  | @ValAlike.call _ n vs ws h =>
    simp only [exprOf] at he hf
    cases h1 : exprsOf dt fmtTime vs with
    | none => rw [h1] at he; cases he
    | some es =>
      cases h2 : exprsOf dt fmtTime ws with
      | none => rw [h2] at hf; cases hf
      | some fs => rw [h1] at he; rw [h2] at hf; cases he; cases hf; exact .funcCall (vals_alike h h1 h2)
theorem vals_alike {vs ws : List Val} (h : ValsAlike ρ vs ws) {es fs : List PExpr} (he : exprsOf dt fmtTime vs = some es)
    (hf : exprsOf dt fmtTime ws = some fs) : ExprsAlike ρ es fs := by
  match h with
  | .nil => simp only [exprsOf] at he hf; cases he; cases hf; exact .nil
  | @ValsAlike.cons _ v w vs ws h h' =>
    simp only [exprsOf] at he hf
    split at he
    · rename_i h1 h2
      split at hf
      · rename_i h3 h4
        cases he; cases hf
        exact .cons (val_alike h h1 h3) (vals_alike h' h2 h4)
      · cases hf
    · cases he
end

theorem row_alike {vs ws : List Val} (h : ValsAlike ρ vs ws) : ∀ {es fs : List PExpr}, Row dt vs es → Row dt ws fs → ExprsAlike ρ es fs := by
  match h with
  | .nil => intro es fs he hf; simp [Row] at he hf; subst he hf; exact .nil
  | @ValsAlike.cons _ v w vs ws h h' =>
    intro es fs he hf
    cases es with
    | nil => simp [Row] at he
    | cons e es =>
      cases fs with
      | nil => simp [Row] at hf
      | cons f fs =>
        simp only [Row, List.map_cons, List.cons.injEq] at he hf
        exact .cons (val_alike h he.1 hf.1) (row_alike h' he.2 hf.2)

theorem rows_alike {rows rows' : List (List Val)} (h : Along (ValsAlike ρ) rows rows') :
    ∀ {rs rs' : List (List PExpr)}, Rows dt rows rs → Rows dt rows' rs' → Along (ExprsAlike ρ) rs rs' := by
  induction h with
  | nil => intro rs rs' he hf; simp [Rows] at he hf; subst he hf; exact .nil
  | cons h _ ih =>
    intro rs rs' he hf
    cases rs with
    | nil => simp [Rows] at he
    | cons e es =>
      cases rs' with
      | nil => simp [Rows] at hf
      | cons f fs =>
        simp only [Rows, List.map_cons, List.cons.injEq] at he hf
        exact .cons (row_alike h he.1 hf.1) (ih he.2 hf.2)

theorem sets_alike {xs ys : List (Bytes × Val)} (h : Along (SetAlike ρ) xs ys) :
    ∀ {ss ss' : List (Bytes × PExpr)}, Sets dt xs ss → Sets dt ys ss' → Along (fun x y => x.1 = y.1 ∧ ExprAlike ρ x.2 y.2) ss ss' := by
  induction h with
  | nil => intro rs rs' he hf; simp [Sets] at he hf; subst he hf; exact .nil
  | cons h _ ih =>
    intro rs rs' he hf
    cases rs with
    | nil => simp [Sets] at he
    | cons e es =>
      cases rs' with
      | nil => simp [Sets] at hf
      | cons f fs =>
        simp only [Sets, List.map_cons, List.cons.injEq, Prod.mk.injEq] at he hf
        exact .cons ⟨he.1.1.symm.trans (h.1.trans hf.1.1), val_alike h.2 he.1.2 hf.1.2⟩ (ih he.2 hf.2)

theorem crit_alike {c d : Criteria} (h : OptAlike (ValAlike ρ) c d) {e f : Option PExpr} (he : Crit dt c e) (hf : Crit dt d f) :
    OptAlike (ExprAlike ρ) e f := by
  cases h with
  | none =>
    cases e with
    | some e => simp [Crit] at he
    | none =>
      cases f with
      | some f => simp [Crit] at hf
      | none => exact .none
  | some h =>
    cases e with
    | none => simp [Crit] at he
    | some e =>
      cases f with
      | none => simp [Crit] at hf
      | some f =>
        simp only [Crit, Option.map_some, Option.some.injEq] at he hf
        exact .some (val_alike h he hf)

theorem args_length {args : List Val} {as : List PScalar} (h : Args dt args as) : args.length = as.length := by
  have := congrArg List.length h
  simpa using this

theorem vals_length {vs ws : List Val} (h : ValsAlike ρ vs ws) : vs.length = ws.length := by
  match h with
  | .nil => rfl
  | .cons _ h => simp [vals_length h]

/-- Calls on different data ask for messages that differ in literals only. -/
theorem asked_alike {c c' : Call} (h : CallAlike ρ c c') {ms ms' : List ClientMsg} {r r' : Option Val} (ha : Asked dt c ms r)
    (ha' : Asked dt c' ms' r') (hv : ∀ x ∈ (named r).zip (named r'), ρ x.1 x.2) :
    Along (MsgAlike ρ) ms ms' ∧ OptAlike (ValAlike ρ) r r' := by
  cases h with
  | stmtExecute h =>
    cases ha with
    | stmtExecute h1 =>
    cases ha' with
    | stmtExecute h2 =>
    exact ⟨.cons (.stmtExecute (by rw [← args_length h1, ← args_length h2, vals_length h])) .nil, .none⟩
  | prepare => cases ha; cases ha'; exact ⟨.cons .prepare .nil, .none⟩
  | execute h =>
    cases ha with
    | execute h1 =>
    cases ha' with
    | execute h2 =>
    exact ⟨.cons (.execute (by rw [← args_length h1, ← args_length h2, vals_length h])) .nil, .none⟩
  | deallocate => cases ha; cases ha'; exact ⟨.cons .deallocate .nil, .none⟩
  | insert h =>
    cases ha with
    | insert _ h1 =>
    cases ha' with
    | insert _ h2 => exact ⟨.cons (.insert (rows_alike h h1 h2)) .nil, .none⟩
  | insertRow h =>
    cases ha with
    | @insertRow t cols row es v h1 =>
    cases ha' with
    | @insertRow _ _ _ es' v' h2 =>
      have hr : ρ v v' := hv (v, v') (by simp [named])
      exact ⟨.cons (.insert (.cons (row_alike h h1 h2) .nil)) (.cons (.capture hr) .nil), .some (.variable hr)⟩
  | update h h' =>
    cases ha with
    | update h1 h2 =>
    cases ha' with
    | update h3 h4 => exact ⟨.cons (.update (crit_alike h h1 h3) (sets_alike h' h2 h4)) .nil, .none⟩
  | delete h =>
    cases ha with
    | delete h1 =>
    cases ha' with
    | delete h2 => exact ⟨.cons (.delete (crit_alike h h1 h2)) .nil, .none⟩

theorem rowArgs_alike {b b' : List RowStep} (h : Along (RowStepAlike ρ) b b') : Along (ValsAlike ρ) (rowArgs b) (rowArgs b') := by
  induction h with
  | nil => exact .nil
  | cons h _ ih =>
    cases h with
    | row h => exact .cons h ih
    | outer => exact ih

theorem setArgs_alike {b b' : List SetStep} (h : Along (SetStepAlike ρ) b b') : Along (SetAlike ρ) (setArgs b) (setArgs b') := by
  induction h with
  | nil => exact .nil
  | cons h _ ih =>
    cases h with
    | set h => exact .cons ⟨rfl, h⟩ ih
    | outer => exact ih

theorem zip_left {α β : Type} : ∀ {a b : List α} {a' b' : List β} {x : α × β}, x ∈ a.zip a' → x ∈ (a ++ b).zip (a' ++ b')
  | [], _, _, _, _, h => by simp at h
  | _ :: _, _, [], _, _, h => by simp at h
  | p :: a, b, q :: a', b', x, h => by
    simp only [List.zip_cons_cons, List.mem_cons, List.cons_append] at h ⊢
    exact h.imp id zip_left

theorem zip_right {α β : Type} : ∀ {a b : List α} {a' b' : List β} {x : α × β}, a.length = a'.length → x ∈ b.zip b' →
    x ∈ (a ++ b).zip (a' ++ b')
  | [], _, [], _, _, _, h => h
  | [], _, _ :: _, _, _, hl, _ => by simp at hl
  | _ :: _, _, [], _, _, hl, _ => by simp at hl
  | p :: a, b, q :: a', b', x, hl, h => by
    simp only [List.zip_cons_cons, List.mem_cons, List.cons_append]
    exact .inr (zip_right (by simpa using hl) h)

theorem asked_named {c c' : Call} (h : CallAlike ρ c c') {ms ms' : List ClientMsg} {r r' : Option Val} (ha : Asked dt c ms r)
    (ha' : Asked dt c' ms' r') : (named r).length = (named r').length := by
  cases h <;> cases ha <;> cases ha' <;> rfl

theorem sql_alike {ss : List String} : Along (MsgAlike ρ) (ss.map sql) (ss.map sql) :=
  along_refl fun m hm => by
    obtain ⟨s, _, rfl⟩ := List.mem_map.mp hm
    exact .stmtExecute rfl

/-- Programs on different data record messages that differ in literals only. -/
theorem exec_alike {p p' : Prog} (h : ProgAlike ρ p p') : ∀ {n : Nat} {ms ms' ms1 ms1' : List ClientMsg} {out out' : List (Option Val)}
    {vs vs' : List Bytes}, Exec dt n p (.ok ms) (.ok ms1) out vs → Exec dt n p' (.ok ms') (.ok ms1') out' vs' →
    (∀ x ∈ vs.zip vs', ρ x.1 x.2) → Along (MsgAlike ρ) ms ms' →
      vs.length = vs'.length ∧ Along (MsgAlike ρ) ms1 ms1' ∧ Along (OptAlike (ValAlike ρ)) out out' := by
  induction h with
  | ret ho =>
    intro n ms ms' ms1 ms1' out out' vs vs' hx hx' _ hm
    cases hx; cases hx'
    exact ⟨rfl, hm, ho⟩
  | call hc _ ih =>
    intro n ms ms' ms1 ms1' out out' vs vs' hx hx' hv hm
    cases hx with
    | callFail _ _ hx => cases exec_error hx _ rfl
    | call ha hx =>
    cases hx' with
    | callFail _ _ hx => cases exec_error hx _ rfl
    | call ha' hx' =>
    obtain ⟨h1, h2⟩ := asked_alike hc ha ha' fun x hx => hv x (zip_left hx)
    have hl := asked_named hc ha ha'
    obtain ⟨h3, h4⟩ := ih _ _ h2 hx hx' (fun x hx => hv x (zip_right hl hx)) (along_append hm h1)
    exact ⟨by simp [hl, h3], h4⟩
  | tx _ _ ihb ih =>
    intro n ms ms' ms1 ms1' out out' vs vs' hx hx' hv hm
    cases hx with
    | txFail _ _ hx => cases exec_error hx _ rfl
    | txLevel _ hx => cases exec_error hx _ rfl
    | tx ho hb hx =>
    cases hx' with
    | txFail _ _ hx => cases exec_error hx _ rfl
    | txLevel _ hx => cases exec_error hx _ rfl
    | tx ho' hb' hx' =>
    rw [ho] at ho'
    cases ho'
    obtain ⟨hl, h1, h2⟩ := ihb hb hb' (fun x hx => hv x (zip_left hx)) (along_append hm sql_alike)
    obtain ⟨h3, h4⟩ := ih _ _ h2 hx hx' (fun x hx => hv x (zip_right hl hx)) (along_append h1 (.cons (.stmtExecute rfl) .nil))
    exact ⟨by simp [hl, h3], h4⟩
  | expect _ _ ihb ih =>
    intro n ms ms' ms1 ms1' out out' vs vs' hx hx' hv hm
    cases hx with
    | expectFail _ hx => cases exec_error hx _ rfl
    | expect hb hx =>
    cases hx' with
    | expectFail _ hx => cases exec_error hx _ rfl
    | expect hb' hx' =>
    obtain ⟨hl, h1, h2⟩ := ihb hb hb' (fun x hx => hv x (zip_left hx)) (along_append hm (.cons .expectOpen .nil))
    obtain ⟨h3, h4⟩ := ih _ _ h2 hx hx' (fun x hx => hv x (zip_right hl hx)) (along_append h1 (.cons .expectClose .nil))
    exact ⟨by simp [hl, h3], h4⟩
  | insertF hb _ ih =>
    intro n ms ms' ms1 ms1' out out' vs vs' hx hx' hv hm
    cases hx with
    | insertFFail _ _ _ hx => cases exec_error hx _ rfl
    | insertF _ hr hx =>
    cases hx' with
    | insertFFail _ _ _ hx => cases exec_error hx _ rfl
    | insertF _ hr' hx' => exact ih hx hx' hv (along_append hm (.cons (.insert (rows_alike (rowArgs_alike hb) hr hr')) .nil))
  | updateF hc hb _ ih =>
    intro n ms ms' ms1 ms1' out out' vs vs' hx hx' hv hm
    cases hx with
    | updateFFail _ _ _ hx => cases exec_error hx _ rfl
    | updateF _ h1 h2 hx =>
    cases hx' with
    | updateFFail _ _ _ hx => cases exec_error hx _ rfl
    | updateF _ h3 h4 hx' =>
    exact ih hx hx' hv (along_append hm (.cons (.update (crit_alike hc h1 h3) (sets_alike (setArgs_alike hb) h2 h4)) .nil))
  | outer _ ih =>
    intro n ms ms' ms1 ms1' out out' vs vs' hx hx' hv hm
    cases hx with
    | outer _ hx =>
    cases hx' with
    | outer _ hx' => exact ih hx hx' hv hm

/-- Where the texts of a unit of work come from. -/
def FromWhere (prog : Prog) (vs : List Bytes) (t : Bytes) : Prop :=
  Gives prog t ∨ (∃ s ∈ ownTexts, t = ascii s) ∨ ∃ v ∈ vs, t = ascii "SET " ++ v ++ ascii " = LAST_INSERT_ID()"

theorem opening_own {n : Nat} {ss : List String} (h : txOpening n = some ss) : ∀ s ∈ ss, s ∈ ownTexts := by
  revert h
  unfold txOpening
  split <;> intro h <;> cases h <;> decide

theorem exec_texts {n : Nat} {prog : Prog} {s s' : UState} {out : List (Option Val)} {vs : List Bytes} (h : Exec dt n prog s s' out vs) :
    ∀ ms ms', s = .ok ms → s' = .ok ms' → ∀ m ∈ ms', m ∈ ms ∨ ∀ t ∈ textOf m, FromWhere prog vs t := by
  induction h with
  | ret => intro ms ms' h1 h2; cases h1; cases h2; exact fun m hm => .inl hm
  | @call n c k ms m r s out vs ha _ ih =>
    intro ms0 ms' h1 h2; cases h1
    intro x hx
    rcases ih _ _ rfl h2 x hx with h | h
    · rcases List.mem_append.mp h with h | h
      · exact .inl h
      · right
        cases ha with
        | stmtExecute => simp at h; subst h; intro t ht; cases ht; exact .inl .stmtExecute
        | prepare => simp at h; subst h; intro t ht; cases ht; exact .inl .prepare
        | @insertRow t cols row es v _ =>
          simp at h
          rcases h with rfl | rfl
          · intro t ht; cases ht
          · intro t ht; cases ht; exact .inr (.inr ⟨v, by simp [named], rfl⟩)
        | _ => simp at h; subst h; intro t ht; cases ht
    · right
      intro t ht
      rcases h t ht with h | h | ⟨v, hv, h⟩
      · exact .inl (.call h)
      · exact .inr (.inl h)
      · exact .inr (.inr ⟨v, List.mem_append.mpr (.inr hv), h⟩)
  | tx ho _ _ ihb ih =>
    intro ms0 ms' h1 h2; cases h1
    intro x hx
    rcases ih _ _ rfl h2 x hx with h | h
    · rcases List.mem_append.mp h with h | h
      · rcases ihb _ _ rfl rfl x h with h | h
        · rcases List.mem_append.mp h with h | h
          · exact .inl h
          · obtain ⟨s, hs, rfl⟩ := List.mem_map.mp h
            right
            intro t ht; cases ht
            exact .inr (.inl ⟨s, opening_own ho s hs, rfl⟩)
        · right
          intro t ht
          rcases h t ht with h | h | ⟨v, hv, h⟩
          · exact .inl (.txBody h)
          · exact .inr (.inl h)
          · exact .inr (.inr ⟨v, List.mem_append.mpr (.inl hv), h⟩)
      · right
        simp at h; subst h
        intro t ht; cases ht
        exact .inr (.inl ⟨"COMMIT", by decide, rfl⟩)
    · right
      intro t ht
      rcases h t ht with h | h | ⟨v, hv, h⟩
      · exact .inl (.tx h)
      · exact .inr (.inl h)
      · exact .inr (.inr ⟨v, List.mem_append.mpr (.inr hv), h⟩)
  | expect _ _ ihb ih =>
    intro ms0 ms' h1 h2; cases h1
    intro x hx
    rcases ih _ _ rfl h2 x hx with h | h
    · rcases List.mem_append.mp h with h | h
      · rcases ihb _ _ rfl rfl x h with h | h
        · rcases List.mem_append.mp h with h | h
          · exact .inl h
          · right
            simp at h; subst h
            intro t ht; cases ht
        · right
          intro t ht
          rcases h t ht with h | h | ⟨v, hv, h⟩
          · exact .inl (.expectBody h)
          · exact .inr (.inl h)
          · exact .inr (.inr ⟨v, List.mem_append.mpr (.inl hv), h⟩)
      · right
        simp at h; subst h
        intro t ht; cases ht
    · right
      intro t ht
      rcases h t ht with h | h | ⟨v, hv, h⟩
      · exact .inl (.expect h)
      · exact .inr (.inl h)
      · exact .inr (.inr ⟨v, List.mem_append.mpr (.inr hv), h⟩)
  | insertF _ _ _ ih =>
    intro ms0 ms' h1 h2; cases h1
    intro x hx
    rcases ih _ _ rfl h2 x hx with h | h
    · rcases List.mem_append.mp h with h | h
      · exact .inl h
      · right
        simp at h; subst h
        intro t ht; cases ht
    · exact .inr fun t ht => (h t ht).imp .insertF id
  | updateF _ _ _ _ ih =>
    intro ms0 ms' h1 h2; cases h1
    intro x hx
    rcases ih _ _ rfl h2 x hx with h | h
    · rcases List.mem_append.mp h with h | h
      · exact .inl h
      · right
        simp at h; subst h
        intro t ht; cases ht
    · exact .inr fun t ht => (h t ht).imp .updateF id
  | outer _ _ ih =>
    intro ms0 ms' h1 h2 x hx
    exact (ih _ _ h1 h2 x hx).imp id fun h t ht => (h t ht).imp .outer id
  | callFail _ _ hx _ => intro ms ms' h1 h2; cases exec_error hx _ rfl; cases h2
  | txFail _ _ hx _ _ => intro ms ms' h1 h2; cases exec_error hx _ rfl; cases h2
  | txLevel _ hx _ => intro ms ms' h1 h2; cases exec_error hx _ rfl; cases h2
  | expectFail _ hx _ _ => intro ms ms' h1 h2; cases exec_error hx _ rfl; cases h2
  | insertFFail _ _ _ hx _ => intro ms ms' h1 h2; cases exec_error hx _ rfl; cases h2
  | updateFFail _ _ _ hx _ => intro ms ms' h1 h2; cases exec_error hx _ rfl; cases h2
  | callSkip _ _ => intro ms ms' h1 h2; cases h1
  | txSkip _ _ => intro ms ms' h1 h2; cases h1
  | expectSkip _ _ => intro ms ms' h1 h2; cases h1
  | insertFSkip _ _ => intro ms ms' h1 h2; cases h1
  | updateFSkip _ _ => intro ms ms' h1 h2; cases h1

end Verif.Proof
