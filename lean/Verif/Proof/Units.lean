import Verif.Proof.Meaning
import Verif.Proof.TextRead
/-! Facts about `Exec`, and about running programs. -/
namespace Verif.Proof
open Verif.Go Verif.Spec Verif.Model

/-! ### durations -/

theorem sdiv_nonneg {d : BitVec 64} (h : 0 ≤ d.toInt) (k : BitVec 64) (hk : 0 ≤ k.toInt) :
    (d.sdiv k).toNat = d.toNat / k.toNat := by
  have h1 : d.msb = false := by
    rw [BitVec.msb_eq_false_iff_two_mul_lt]
    rw [BitVec.toInt_eq_toNat_cond] at h
    split at h <;> omega
  have h2 : k.msb = false := by
    rw [BitVec.msb_eq_false_iff_two_mul_lt]
    rw [BitVec.toInt_eq_toNat_cond] at hk
    split at hk <;> omega
  simp [BitVec.sdiv, h1, h2]

theorem natAbs_toInt {d : BitVec 64} (h : d ≠ BitVec.intMin 64) :
    0 ≤ (if d.toInt < 0 then -d else d).toInt ∧ (if d.toInt < 0 then -d else d).toNat = d.toInt.natAbs := by
  have hd : d.toNat ≠ 2 ^ 63 := by
    intro h2; apply h; apply BitVec.eq_of_toNat_eq; rw [h2]; rfl
  have hlt := d.isLt
  simp only [BitVec.toInt_eq_toNat_cond]
  split <;> split <;> simp [BitVec.toNat_neg] at * <;> omega

theorem modelDur_eq {d : BitVec 64} (h : d ≠ BitVec.intMin 64) : modelDur d = durationText d.toInt := by
  obtain ⟨h1, h2⟩ := natAbs_toInt h
  unfold modelDur durationText
  simp only
  rw [sdiv_nonneg h1 _ (by decide), sdiv_nonneg h1 _ (by decide), sdiv_nonneg h1 _ (by decide), h2]
  simp only [show (3600000000000#64).toNat = 1000000000 * 3600 from rfl, show (60000000000#64).toNat = 1000000000 * 60 from rfl,
    show (1000000000#64).toNat = 1000000000 from rfl, ← Nat.div_div_eq_div_mul]
  simp

theorem modelDur_lib : modelDur = libDur := by
  funext d
  unfold libDur
  split
  · rename_i h; subst h; decide +kernel
  · rename_i h; exact modelDur_eq h

/-! ### facts about Exec -/

variable {dt : BitVec 64 → Bytes}

theorem exec_error {n : Nat} {prog : Prog} {s s' : UState} {out : List (Option Val)} {vs : List Bytes} (h : Exec dt n prog s s' out vs) :
    ∀ e, s = .error e → s' = .error e := by
  induction h with
  | ret => intro e h; exact h
  | callSkip _ ih => intro e h; exact ih e h
  | txSkip _ ih => intro e h; exact ih e h
  | expectSkip _ ih => intro e h; exact ih e h
  | insertFSkip _ ih => intro e h; exact ih e h
  | updateFSkip _ ih => intro e h; exact ih e h
  | outer _ _ ih => intro e h; exact ih e h
  | _ => intro e h; cases h

/-- programs only append, and what they append does not depend on what is there -/
theorem exec_append {n : Nat} {prog : Prog} {s s' : UState} {out : List (Option Val)} {vs : List Bytes} (h : Exec dt n prog s s' out vs) :
    ∀ ms ms', s = .ok ms → s' = .ok ms' →
      ∃ new, ms' = ms ++ new ∧ ∀ pre, Exec dt n prog (.ok pre) (.ok (pre ++ new)) out vs := by
  induction h with
  | ret => intro ms ms' h1 h2; cases h1; cases h2; exact ⟨[], by simp, fun pre => by simpa using .ret⟩
  | call ha _ ih =>
    intro ms ms' h1 h2; cases h1
    obtain ⟨new, h, hp⟩ := ih _ _ rfl h2
    exact ⟨_ ++ new, by simpa using h, fun pre => .call ha (by simpa using hp (pre ++ _))⟩
  | @tx n level body k ms ss ms1 o s out vs vs' hl _ _ ihb ihk =>
    intro ms0 ms' h1 h2; cases h1
    obtain ⟨new, h, hp⟩ := ihb _ _ rfl rfl
    obtain ⟨new2, h2, hp2⟩ := ihk _ _ rfl h2
    refine ⟨ss.map sql ++ (new ++ ([sql "COMMIT"] ++ new2)), by rw [h2, h]; simp, fun pre => ?_⟩
    refine .tx hl (hp _) ?_
    have := hp2 (pre ++ ss.map sql ++ new ++ [sql "COMMIT"])
    simp only [List.append_assoc] at this ⊢
    exact this
  | @expect n op body k ms ms1 o s out vs vs' _ _ ihb ihk =>
    intro ms0 ms' h1 h2; cases h1
    obtain ⟨new, h, hp⟩ := ihb _ _ rfl rfl
    obtain ⟨new2, h2, hp2⟩ := ihk _ _ rfl h2
    refine ⟨[.expectOpen op.toNat [(1, ascii "1")]] ++ (new ++ ([.expectClose] ++ new2)), by rw [h2, h]; simp, fun pre => ?_⟩
    refine .expect (hp _) ?_
    have := hp2 (pre ++ [.expectOpen op.toNat [(1, ascii "1")]] ++ new ++ [.expectClose])
    simp only [List.append_assoc] at this ⊢
    exact this
  | insertF h1 h2 _ ih =>
    intro ms ms' h3 h4; cases h3
    obtain ⟨new, h, hp⟩ := ih _ _ rfl h4
    exact ⟨[_] ++ new, by simpa using h, fun pre => .insertF h1 h2 (by rw [← List.append_assoc]; exact hp _)⟩
  | updateF h1 h2 h2' _ ih =>
    intro ms ms' h3 h4; cases h3
    obtain ⟨new, h, hp⟩ := ih _ _ rfl h4
    exact ⟨[_] ++ new, by simpa using h, fun pre => .updateF h1 h2 h2' (by rw [← List.append_assoc]; exact hp _)⟩
  | outer hd _ ih =>
    intro ms ms' h3 h4
    obtain ⟨new, h, hp⟩ := ih _ _ h3 h4
    exact ⟨new, h, fun pre => .outer hd (hp pre)⟩
  | callFail _ _ hx _ => intro ms ms' h1 h2; cases exec_error hx _ rfl; cases h2
  | txFail _ _ hx _ _ => intro ms ms' h1 h2; cases exec_error hx _ rfl; cases h2
  | txLevel _ hx _ => intro ms ms' h1 h2; cases exec_error hx _ rfl; cases h2
  | expectFail _ hx _ _ => intro ms ms' h1 h2; cases exec_error hx _ rfl; cases h2
  | insertFFail _ _ _ hx _ => intro ms ms' h1 h2; cases exec_error hx _ rfl; cases h2
  | updateFFail _ _ _ hx _ => intro ms ms' h1 h2; cases exec_error hx _ rfl; cases h2
  | callSkip _ _ => intro ms ms' h1 h2; cases h1
  | txSkip _ _ => intro ms ms' h1 h2; cases h1
  | expectSkip _ _ => intro ms ms' h1 h2; cases h1
  | insertFSkip _ _ => intro ms ms' h1 h2; cases h1
  | updateFSkip _ _ => intro ms ms' h1 h2; cases h1

theorem args_good {args : List Val} {as : List PScalar} (h : Args dt args as) : ∀ s ∈ as, ScalarOK s := by
  intro s hs
  have : some s ∈ as.map some := List.mem_map.mpr ⟨s, hs, rfl⟩
  rw [← show args.map _ = as.map some from h, List.mem_map] at this
  obtain ⟨v, _, hv⟩ := this
  exact argScalarOf_ok hv

theorem row_good {row : List Val} {es : List PExpr} (h : Row dt row es) : ∀ e ∈ es, ExprOK e := by
  intro s hs
  have : some s ∈ es.map some := List.mem_map.mpr ⟨s, hs, rfl⟩
  rw [← show row.map _ = es.map some from h, List.mem_map] at this
  obtain ⟨v, _, hv⟩ := this
  exact exprOf_ok _ _ _ _ hv

theorem rows_good {rows : List (List Val)} {rs : List (List PExpr)} (h : Rows dt rows rs) : ∀ r ∈ rs, ∀ e ∈ r, ExprOK e := by
  intro r hr
  have : r.map some ∈ rs.map (·.map some) := List.mem_map.mpr ⟨r, hr, rfl⟩
  rw [← show rows.map _ = _ from h, List.mem_map] at this
  obtain ⟨row, _, hv⟩ := this
  exact row_good hv

theorem sets_good {sets : List (Bytes × Val)} {ss : List (Bytes × PExpr)} (h : Sets dt sets ss) : ∀ s ∈ ss, ExprOK s.2 := by
  intro s hs
  have : (s.1, some s.2) ∈ ss.map (fun s => (s.1, some s.2)) := List.mem_map.mpr ⟨s, hs, rfl⟩
  rw [← show sets.map _ = _ from h, List.mem_map] at this
  obtain ⟨v, _, hv⟩ := this
  exact exprOf_ok _ _ _ _ (Prod.mk.inj hv).2

theorem crit_good {c : Criteria} {e : Option PExpr} (h : Crit dt c e) : ∀ x ∈ e, ExprOK x := by
  intro x hx
  cases e with
  | none => cases hx
  | some y =>
    cases hx
    cases c with
    | none => cases h
    | some v => exact exprOf_ok _ _ _ _ (Option.some.inj h)

theorem asked_good {c : Call} {ms : List ClientMsg} {r : Option Val} (h : Asked dt c ms r) :
    ∀ m ∈ ms, Readable m → GoodMsg m := by
  cases h with
  | stmtExecute h => intro m hm _; simp at hm; subst hm; exact args_good h
  | prepare => intro m hm _; simp at hm; subst hm; exact BitVec.isLt _
  | execute h => intro m hm _; simp at hm; subst hm; exact ⟨BitVec.isLt _, args_good h⟩
  | deallocate => intro m hm _; simp at hm; subst hm; exact BitVec.isLt _
  | insert _ h =>
    intro m hm hr; simp at hm; subst hm
    exact ⟨.inr (.inr rfl), fun r hr' e he => ⟨rows_good h r hr' e he, hr r hr' e he⟩⟩
  | insertRow h =>
    intro m hm hr; simp at hm
    rcases hm with rfl | rfl
    · exact ⟨.inr (.inr rfl), fun r hr' e he => by
        simp at hr'; subst hr'; exact ⟨row_good h e he, hr _ (by simp) e he⟩⟩
    · intro s hs; cases hs
  | update h1 h2 =>
    intro m hm hr; simp at hm; subst hm
    exact ⟨.inr (.inr rfl), fun e he => ⟨crit_good h1 e he, hr.1 e he⟩, fun s hs => ⟨sets_good h2 s hs, hr.2 s hs⟩⟩
  | delete h =>
    intro m hm hr; simp at hm; subst hm
    exact ⟨.inl rfl, fun e he => ⟨crit_good h e he, hr e he⟩⟩

theorem sql_good (s : String) : GoodMsg (sql s) := by intro x hx; cases hx

theorem good_append {a b : List ClientMsg} (ha : ∀ m ∈ a, Readable m → GoodMsg m) (hb : ∀ m ∈ b, Readable m → GoodMsg m) :
    ∀ m ∈ a ++ b, Readable m → GoodMsg m := by
  intro m hm
  rcases List.mem_append.mp hm with h | h
  · exact ha m h
  · exact hb m h

theorem exec_good {n : Nat} {prog : Prog} {s s' : UState} {out : List (Option Val)} {vs : List Bytes} (h : Exec dt n prog s s' out vs) :
    ∀ ms ms', s = .ok ms → s' = .ok ms' → (∀ m ∈ ms, Readable m → GoodMsg m) → ∀ m ∈ ms', Readable m → GoodMsg m := by
  induction h with
  | ret => intro ms ms' h1 h2; cases h1; cases h2; exact id
  | call ha _ ih =>
    intro ms ms' h1 h2 hg; cases h1
    exact ih _ _ rfl h2 (good_append hg (asked_good ha))
  | tx hl _ _ ihb ihk =>
    intro ms ms' h1 h2 hg; cases h1
    refine ihk _ _ rfl h2 (good_append (ihb _ _ rfl rfl (good_append hg ?_)) ?_)
    · intro m hm _; rw [List.mem_map] at hm; obtain ⟨s, _, rfl⟩ := hm; exact sql_good s
    · intro m hm _; simp at hm; subst hm; exact sql_good _
  | expect _ _ ihb ihk =>
    intro ms ms' h1 h2 hg; cases h1
    refine ihk _ _ rfl h2 (good_append (ihb _ _ rfl rfl (good_append hg ?_)) ?_)
    · intro m hm hr; simp at hm; subst hm; exact ⟨hr, by simp⟩
    · intro m hm _; simp at hm; subst hm; exact trivial
  | insertF h1 h2 _ ih =>
    intro ms ms' h3 h4 hg; cases h3
    refine ih _ _ rfl h4 (good_append hg ?_)
    intro m hm hr; simp at hm; subst hm
    exact ⟨.inr (.inr rfl), fun r hr' e he => ⟨rows_good h2 r hr' e he, hr r hr' e he⟩⟩
  | updateF h1 h2 h2' _ ih =>
    intro ms ms' h3 h4 hg; cases h3
    refine ih _ _ rfl h4 (good_append hg ?_)
    intro m hm hr; simp at hm; subst hm
    exact ⟨.inr (.inr rfl), fun e he => ⟨crit_good h2 e he, hr.1 e he⟩, fun s hs => ⟨sets_good h2' s hs, hr.2 s hs⟩⟩
  | outer hd _ ih => exact ih
  | callFail _ _ hx _ => intro ms ms' h1 h2; cases exec_error hx _ rfl; cases h2
  | txFail _ _ hx _ _ => intro ms ms' h1 h2; cases exec_error hx _ rfl; cases h2
  | txLevel _ hx _ => intro ms ms' h1 h2; cases exec_error hx _ rfl; cases h2
  | expectFail _ hx _ _ => intro ms ms' h1 h2; cases exec_error hx _ rfl; cases h2
  | insertFFail _ _ _ hx _ => intro ms ms' h1 h2; cases exec_error hx _ rfl; cases h2
  | updateFFail _ _ _ hx _ => intro ms ms' h1 h2; cases exec_error hx _ rfl; cases h2
  | callSkip _ _ => intro ms ms' h1 h2; cases h1
  | txSkip _ _ => intro ms ms' h1 h2; cases h1
  | expectSkip _ _ => intro ms ms' h1 h2; cases h1
  | insertFSkip _ _ => intro ms ms' h1 h2; cases h1
  | updateFSkip _ _ => intro ms ms' h1 h2; cases h1

/-! ### runs -/

variable {g : Grow}

theorem idVariable_inj {a b : Nat} (h : idVariable a = idVariable b) : a = b := by
  have h := List.append_cancel_left h
  have := readNat_decimal a
  rw [h, readNat_decimal] at this
  exact (Option.some.inj this).symm

theorem Between.nodup {z : Nat} {st st' : PState} {ks : List Nat} (h : Between z st st' ks) :
    (ks.map idVariable).Nodup := by
  rw [List.Nodup, List.pairwise_map]
  exact h.inc.imp fun hab he => by have := idVariable_inj he; omega

/-- Every terminating run does what `Exec` says. -/
theorem run_exec {Z : Bytes} {prog : Prog} {outers o' : List Builder} {b b' : Builder} {st : PState} {out : List (Option Val)}
    (ho : ∀ b ∈ outers, b.disabled = true) (hb : BRel Z b st) (h : run g prog outers b = .ok (o', b', out)) :
    ∃ st' ks, Exec modelDur outers.length prog st st' out (ks.map idVariable) ∧ BRel Z b' st' ∧ o' = outers ∧
      runP Z.length prog outers.length st = some (st', out) ∧ Between Z.length st st' ks := by
  have hr := run_ref (g := g) prog outers b st ho hb
  rw [h] at hr
  rcases hr with h | h
  · cases h
  · cases hp : runP Z.length prog outers.length st with
    | none => rw [hp] at h; cases h
    | some y =>
      obtain ⟨st', out'⟩ := y
      rw [hp] at h
      obtain ⟨x, hx, h1, h2, h3⟩ := h
      cases hx
      cases h3
      obtain ⟨ks, he, hk⟩ := runP_exec _ _ _ _ _ hp
      exact ⟨st', _, he, h2, h1, rfl, hk⟩

theorem codeFrame_length (m : ClientMsg) : (codeFrame m).length = (codeMsg m).2.length + 5 := by
  simp [codeFrame, frame, fixed_length]; omega

theorem mem_bytesOf {m : ClientMsg} {ms : List ClientMsg} (h : m ∈ ms) : (codeFrame m).length ≤ (bytesOf ms).length := by
  induction ms with
  | nil => cases h
  | cons a ms ih =>
    have : bytesOf (a :: ms) = codeFrame a ++ bytesOf ms := rfl
    rw [this, List.length_append]
    rcases List.mem_cons.mp h with rfl | h
    · omega
    · have := ih h; omega

theorem bytesOf_frames {ms : List ClientMsg} (h : (bytesOf ms).length < 2 ^ 32) :
    readFrames (bytesOf ms) = some (ms.map codeMsg) := by
  have e : bytesOf ms = (ms.map codeMsg).flatMap frame := by
    rw [List.flatMap_map]; rfl
  rw [e]
  apply readFrames_frames
  simp only [List.mem_map]
  rintro _ ⟨m, hm, rfl⟩
  have := mem_bytesOf hm
  rw [codeFrame_length] at this
  omega

theorem bytesOf_stream {ms : List ClientMsg} (h : (bytesOf ms).length < 2 ^ 32) (hg : ∀ m ∈ ms, GoodMsg m) :
    decodeStream (bytesOf ms) = some ms := by
  apply decodeStream_frames
  intro m hm
  refine ⟨hg m hm, ?_⟩
  have := mem_bytesOf hm
  rw [codeFrame_length] at this
  unfold FitsFrame
  omega

end Verif.Proof
