import Verif.Proof.FieldAll
import Verif.Model.Ctors
/-! C23, C52: the expression constructors. -/
namespace Verif.Props
open Verif.Go Verif.Spec Verif.Model Verif.Proof

/-- On the wire (in any buffer, under any field) `v` is the expression `e`. -/
def Sent (v : Val) (e : PExpr) : Prop := ∀ (g : Grow) (p : Slice) (tag : UInt8), SmallTag tag →
  Writes (appendExpr g p tag v) p fun bs => bs.length < 2 ^ 63 → ExprField tag.toNat bs e

/-- The operand `v` stands for the expression `e`. -/
def Operand (v : Val) (e : PExpr) : Prop := exprMeaning v = some e ∧ varsShort e = true

theorem sent_of {v : Val} {e : PExpr} (h : exprMeaning v = some e) (hv : varsShort e = true) : Sent v e :=
  fun _ _ _ ht => appendExpr_writes ht h hv

theorem exprsOf_map {dt tt} : ∀ {vs : List Val} {es : List PExpr}, vs.map (exprOf dt tt) = es.map some → exprsOf dt tt vs = some es
  | [], [], _ => by rw [exprsOf]
  | [], _ :: _, h => by simp at h
  | _ :: _, [], h => by simp at h
  | v :: vs, e :: es, h => by
    simp only [List.map_cons, List.cons.injEq] at h
    rw [exprsOf, h.1, exprsOf_map h.2]

theorem varsShorts_of : ∀ {es : List PExpr}, (∀ e ∈ es, varsShort e = true) → varsShorts es = true
  | [], _ => by rw [varsShorts]
  | e :: es, h => by
    rw [varsShorts, h e (by simp), varsShorts_of fun x hx => h x (by simp [hx])]; rfl

theorem sent_op {name : String} {vs : List Val} {es : List PExpr} (h : vs.map exprMeaning = es.map some)
    (hv : ∀ e ∈ es, varsShort e = true) : Sent (.op (ascii name) vs) (.operator (ascii name) es) := by
  refine sent_of ?_ ?_
  · unfold exprMeaning at h ⊢
    rw [exprOf, exprsOf_map h]; rfl
  · simp only [varsShort]; exact varsShorts_of hv

/-- The whole of C23. -/
def C23_full : Prop :=
  (∀ k a x, Operand a x → k.documented ∈ protocolOperators ∧ Sent (unary k a) (.operator (ascii k.documented) [x])) ∧
  (∀ k a b x y, Operand a x → Operand b y → k.documented ∈ protocolOperators ∧
    Sent (binary k a b) (.operator (ascii k.documented) [x, y])) ∧
  (∀ k a b c x y z, Operand a x → Operand b y → Operand c z → k.documented ∈ protocolOperators ∧
    Sent (ternary k a b c) (.operator (ascii k.documented) [x, y, z]))

/-- C23 for all constructors but `Regexp` and `NotBetween`. Missing: those two, see `C23_wrong`. -/
theorem C23_operators_partial :
    (∀ k a x, Operand a x → k.documented ∈ protocolOperators ∧ Sent (unary k a) (.operator (ascii k.documented) [x])) ∧
    (∀ k a b x y, k ≠ .regexp → Operand a x → Operand b y → k.documented ∈ protocolOperators ∧
      Sent (binary k a b) (.operator (ascii k.documented) [x, y])) ∧
    (∀ k a b c x y z, k ≠ .notBetween → Operand a x → Operand b y → Operand c z → k.documented ∈ protocolOperators ∧
      Sent (ternary k a b c) (.operator (ascii k.documented) [x, y, z])) ∧
    (∀ a b x y unit, Operand a x → Operand b y →
      Sent (dateAdd a b unit) (.operator (ascii "date_add") [x, y, .literal (.octets unit none)]) ∧
      Sent (dateSub a b unit) (.operator (ascii "date_sub") [x, y, .literal (.octets unit none)])) ∧
    Sent exprDefault (.operator (ascii "default") []) ∧
    Sent rowCount (.funcCall (ascii "ROW_COUNT") []) ∧
    Sent lastInsertID (.funcCall (ascii "LAST_INSERT_ID") []) ∧
    (∀ name, Sent (.column name) (.ident name)) := by
  refine ⟨fun k a x ha => ⟨?_, ?_⟩, fun k a b x y hk ha hb => ⟨?_, ?_⟩, fun k a b c x y z hk ha hb hc => ⟨?_, ?_⟩,
    fun a b x y unit ha hb => ⟨?_, ?_⟩, sent_of rfl rfl, sent_of rfl rfl, sent_of rfl rfl, fun name => sent_of rfl rfl⟩
  · cases k <;> decide
  · cases k <;> exact sent_op (by simp [ha.1]) (by simp [ha.2])
  · cases k <;> decide
  · cases k <;> first
      | exact absurd rfl hk
      | exact sent_op (by simp [ha.1, hb.1]) (by simp [ha.2, hb.2])
  · cases k <;> decide
  · cases k <;> first
      | exact absurd rfl hk
      | exact sent_op (by simp [ha.1, hb.1, hc.1]) (by simp [ha.2, hb.2, hc.2])
  · exact sent_op (by simp only [List.map_cons, List.map_nil, ha.1, hb.1]; rfl) (by simp [ha.2, hb.2, varsShort])
  · exact sent_op (by simp only [List.map_cons, List.map_nil, ha.1, hb.1]; rfl) (by simp [ha.2, hb.2, varsShort])

example : Operand (binary .lt (.column (ascii "n")) (.int 10))
    (.operator (ascii "<") [.ident (ascii "n"), .literal (.sint 10)]) := ⟨rfl, by decide⟩
example : (written (appendExpr (fun _ n => n) ⟨[], []⟩ 5 (binary .lt (.column (ascii "n")) (.int 10)))).isSome := by decide +kernel

/-- an expression is not sent as two different trees -/
theorem Sent.unique {v : Val} {e e' : PExpr} (h : Sent v e) (h' : Sent v e')
    (hw : ∃ bs, written (appendExpr (fun _ n => n) ⟨[], []⟩ 5 v) = some bs ∧ bs.length < 2 ^ 63) : e = e' := by
  obtain ⟨bs, hbs, hl⟩ := hw
  have h1 := h (fun _ n => n) ⟨[], []⟩ 5 ⟨by decide, by decide⟩
  have h2 := h' (fun _ n => n) ⟨[], []⟩ 5 ⟨by decide, by decide⟩
  rcases h1 with h1 | ⟨b1, s1, h1, p1⟩
  · rw [h1] at hbs; cases hbs
  · rcases h2 with h2 | ⟨b2, s2, h2, p2⟩
    · rw [h1] at h2; cases h2
    · rw [h1] at h2
      cases h2
      rw [h1] at hbs
      cases hbs
      obtain ⟨c1, hc1, hd1⟩ := p1 hl
      obtain ⟨c2, hc2, hd2⟩ := p2 hl
      rw [hc1] at hc2
      cases hc2
      rw [hd1] at hd2
      cases hd2
      rfl

/-- `Regexp` sends "rexgexp", `NotBetween` sends "not_between"; the protocol knows neither. -/
theorem C23_wrong : ¬C23_full ∧
    (∀ a b x y, Operand a x → Operand b y → Sent (binary .regexp a b) (.operator (ascii "rexgexp") [x, y])) ∧
    (∀ a b c x y z, Operand a x → Operand b y → Operand c z →
      Sent (ternary .notBetween a b c) (.operator (ascii "not_between") [x, y, z])) ∧
    "rexgexp" ∉ protocolOperators ∧ "not_between" ∉ protocolOperators := by
  have h2 : ∀ a b x y, Operand a x → Operand b y → Sent (binary .regexp a b) (.operator (ascii "rexgexp") [x, y]) :=
    fun a b x y ha hb => sent_op (by simp [ha.1, hb.1]) (by simp [ha.2, hb.2])
  refine ⟨fun h => ?_, h2, fun a b c x y z ha hb hc => sent_op (by simp [ha.1, hb.1, hc.1]) (by simp [ha.2, hb.2, hc.2]),
    by decide, by decide⟩
  have hc : Operand (.column []) (.ident []) := ⟨rfl, rfl⟩
  have := Sent.unique (h.2.1 .regexp _ _ _ _ hc hc).2 (h2 _ _ _ _ hc hc) ⟨_, rfl, by decide +kernel⟩
  simp only [PExpr.operator.injEq] at this
  exact absurd this.1 (by decide)

/-- C52: `In`, `InV`, `NotIn`, `NotInV` keep all operands in order, as they were when the expression was built,
whatever happens to the client's slice afterwards. -/
theorem C52_in_operands {now later : Arrays} {a : Val} {b : Nat} {x : PExpr} {ys : List PExpr}
    (ha : Operand a x) (hb : (now b).map exprMeaning = ys.map some) (hv : ∀ y ∈ ys, varsShort y = true) :
    Sent (mkIn now a b later) (.operator (ascii "in") (x :: ys)) ∧
    Sent (mkNotIn now a b later) (.operator (ascii "not_in") (x :: ys)) :=
  ⟨sent_op (by simp [ha.1, hb]) (by simpa [ha.2] using hv), sent_op (by simp [ha.1, hb]) (by simpa [ha.2] using hv)⟩

example : let now : Arrays := fun _ => [.int 1, .int 2]
    Operand (.column (ascii "n")) (.ident (ascii "n")) ∧
    (now 7).map exprMeaning = [.literal (.sint 1), .literal (.sint 2)].map some := ⟨⟨rfl, rfl⟩, rfl⟩

/-- `Concat`, in contrast, sends what the slice holds when the expression is used. -/
theorem C52_concat_aliases : ∃ (now later : Arrays), mkConcat now 0 later = .call (ascii "CONCAT") [.int 2] ∧ now 0 = [.int 1] :=
  ⟨fun _ => [.int 1], fun _ => [.int 2], rfl, rfl⟩

end Verif.Props
