import Verif.Spec.Sql
import Verif.Props.Calls
import Verif.Props.Exprs
/-! For C85 - C87: from the calls to the rows. -/
namespace Verif.Props
open Verif.Go Verif.Spec Verif.Model Verif.Proof Verif.Spec.Sql

variable {V : Type} (E : Engine V)

mutual
/-- The calls that build a Go expression. -/
def built : GoExpr → Val
  | .val v => v
  | .column name => .column name
  | .var name => .variable name
  | .unary k a => unary k (built a)
  | .binary k a b => binary k (built a) (built b)
  | .ternary k a b c => ternary k (built a) (built b) (built c)
  | .isIn a bs => mkIn (fun _ => builts bs) (built a) 0 (fun _ => [])
  | .notIn a bs => mkNotIn (fun _ => builts bs) (built a) 0 (fun _ => [])
  | .dateAdd a b unit => dateAdd (built a) (built b) unit
  | .dateSub a b unit => dateSub (built a) (built b) unit
  | .dflt => exprDefault
  | .concat as => mkConcat (fun _ => []) 0 (fun _ => builts as)
  | .rowCount => rowCount
  | .lastInsertID => lastInsertID
def builts : List GoExpr → List Val
  | [] => []
  | e :: es => built e :: builts es
end

/-- Go values: neither expressions nor pointers. -/
def isPlain (v : Val) : Bool := (plainScalar libDur fmtTime v).isSome

mutual
/-- Every leaf is a Go value, a column or an id (a variable with a short name, as those of `InsertRow` have), and DEFAULT does
not occur. -/
def regular : GoExpr → Bool
  | .val v => isPlain v
  | .column _ => true
  | .var name => decide (name.length < 124)
  | .unary _ a => regular a
  | .binary _ a b => regular a && regular b
  | .ternary _ a b c => regular a && regular b && regular c
  | .isIn a bs => regular a && regulars bs
  | .notIn a bs => regular a && regulars bs
  | .dateAdd a b _ => regular a && regular b
  | .dateSub a b _ => regular a && regular b
  | .dflt => false
  | .concat as => regulars as
  | .rowCount => true
  | .lastInsertID => true
def regulars : List GoExpr → Bool
  | [] => true
  | e :: es => regular e && regulars es
end

mutual
/-- Nowhere `Regexp` or `NotBetween`. -/
def served : GoExpr → Bool
  | .val _ => true
  | .column _ => true
  | .var _ => true
  | .unary _ a => served a
  | .binary k a b => k != .regexp && served a && served b
  | .ternary k a b c => k != .notBetween && served a && served b && served c
  | .isIn a bs => served a && serveds bs
  | .notIn a bs => served a && serveds bs
  | .dateAdd a b _ => served a && served b
  | .dateSub a b _ => served a && served b
  | .dflt => true
  | .concat as => serveds as
  | .rowCount => true
  | .lastInsertID => true
def serveds : List GoExpr → Bool
  | [] => true
  | e :: es => served e && serveds es
end

theorem apply_named {name : Bytes} {o : Op} (h : Op.named name = some o) (vs : List V) : apply E name vs = o.result E vs := by
  rw [apply, h]; rfl

theorem plain_expr {v : Val} (h : isPlain v = true) : exprMeaning v = (plainScalar libDur fmtTime v).map .literal := by
  unfold exprMeaning
  cases v <;> first | (simp [isPlain, plainScalar] at h; done) | (unfold exprOf; rfl)

theorem exprMeaning_op (name : Bytes) (ps : List Val) : exprMeaning (.op name ps) = (exprsOf libDur fmtTime ps).map (.operator name) := by
  unfold exprMeaning; rw [exprOf]

theorem exprMeaning_call (name : Bytes) (ps : List Val) : exprMeaning (.call name ps) = (exprsOf libDur fmtTime ps).map (.funcCall name) := by
  unfold exprMeaning; rw [exprOf]

theorem exprsOf_cons (v : Val) (vs : List Val) : exprsOf libDur fmtTime (v :: vs) =
    match exprMeaning v, exprsOf libDur fmtTime vs with | some e, some es => some (e :: es) | _, _ => none := by
  unfold exprMeaning; rw [exprsOf]; rfl

theorem named_unary (k : Unary) : Op.named (ascii k.documented) = some (match k with | .not => .not | k => .other 1 k.documented) := by
  cases k <;> decide +kernel

theorem named_binary (k : Binary) : Op.named (ascii k.documented) =
    some (match k with
      | .and => .and | .or => .or | .xor => .xor | .eq => .eq | .neq => .neq | .lt => .lt | .lte => .le | .gt => .gt | .gte => .ge
      | .is => .is | .isNot => .isNot | k => .other 2 k.documented) := by
  cases k <;> decide +kernel

theorem exprsOf_one {v : Val} {xs : List PExpr} (h : exprsOf libDur fmtTime [v] = some xs) : ∃ x, exprMeaning v = some x ∧ xs = [x] := by
  rw [exprsOf_cons, exprsOf] at h
  split at h
  · rename_i y ys h1 h2; cases h2; cases h; exact ⟨y, h1, rfl⟩
  · cases h

theorem exprsOf_more {v : Val} {vs : List Val} {xs : List PExpr} (h : exprsOf libDur fmtTime (v :: vs) = some xs) :
    ∃ x ys, exprMeaning v = some x ∧ exprsOf libDur fmtTime vs = some ys ∧ xs = x :: ys := by
  rw [exprsOf_cons] at h
  split at h
  · rename_i y ys h1 h2; cases h; exact ⟨y, ys, h1, h2, rfl⟩
  · cases h

theorem exprMeaning_octets (unit : Bytes) : exprMeaning (.bytes (some unit)) = some (.literal (.octets unit none)) := by
  unfold exprMeaning; rw [exprOf] <;> simp [plainScalar, octetsOrNull, optNonZero]

mutual
/-- What the server computes for a Go expression. -/
theorem eval_built (row : Row V) : ∀ (e : GoExpr) {x : PExpr}, regular e = true → exprMeaning (built e) = some x →
    eval E row x = if served e = true then den E row e else none
  | .val v, x, hr, h => by
    rw [built, plain_expr hr] at h
    obtain ⟨s, hs, rfl⟩ := Option.map_eq_some_iff.mp h
    simp [eval, served, den, hs]
  | .column name, x, _, h => by
    unfold exprMeaning at h
    rw [built, exprOf] at h
    cases h
    simp [eval, served, den]
  | .var name, x, _, h => by
    unfold exprMeaning at h
    rw [built, exprOf] at h
    cases h
    simp [eval, served, den]
  | .unary k a, x, hr, h => by
    rw [regular] at hr
    have hb : built (.unary k a) = .op (ascii k.documented) [built a] := by rw [built]; cases k <;> rfl
    rw [hb, exprMeaning_op] at h
    obtain ⟨xs, hxs, rfl⟩ := Option.map_eq_some_iff.mp h
    obtain ⟨y, ha, rfl⟩ := exprsOf_one hxs
    have ih := eval_built row a hr ha
    have e : served (.unary k a) = served a := by rw [served]
    rw [e]
    simp only [eval, evals, ih]
    by_cases hs : served a = true
    · simp only [if_pos hs]
      cases hd : den E row a with
      | none => cases k <;> simp [den, hd]
      | some v =>
        simp only [Option.bind_some, apply_named E (named_unary k)]
        cases k <;> simp [den, hd, Op.result]
    · simp only [if_neg hs]; rfl
  | .binary k a b, x, hr, h => by
    rw [regular, Bool.and_eq_true] at hr
    by_cases hk : k = .regexp
    · subst hk
      rw [built, binary, exprMeaning_op] at h
      obtain ⟨xs, hxs, rfl⟩ := Option.map_eq_some_iff.mp h
      have hn : Op.named (ascii "rexgexp") = none := by decide +kernel
      simp [eval, served, apply, hn]
    · have hb : built (.binary k a b) = .op (ascii k.documented) [built a, built b] := by
        rw [built]; cases k <;> first | rfl | exact absurd rfl hk
      rw [hb, exprMeaning_op] at h
      obtain ⟨xs, hxs, rfl⟩ := Option.map_eq_some_iff.mp h
      obtain ⟨y, zs, ha, hz, rfl⟩ := exprsOf_more hxs
      obtain ⟨z, hb', rfl⟩ := exprsOf_one hz
      have i1 := eval_built row a hr.1 ha
      have i2 := eval_built row b hr.2 hb'
      have hk' : (k != .regexp) = true := by simp [hk]
      simp only [eval, evals, i1, i2, served, hk', Bool.true_and, Bool.and_eq_true]
      by_cases hs : served a = true ∧ served b = true
      · simp only [if_pos hs, if_pos hs.1, if_pos hs.2]
        cases hd : den E row a with
        | none => simp [den, hd]
        | some v =>
          cases hd' : den E row b with
          | none => simp [den, hd, hd']
          | some w =>
            simp only [Option.bind_some, apply_named E (named_binary k)]
            cases k <;> simp [den, hd, hd', Op.result, Binary.rel] <;> first | rfl | (exfalso; exact hk rfl)
      · rw [if_neg hs]
        by_cases ha : served a = true
        · simp only [if_neg fun hb => hs ⟨ha, hb⟩]
          split <;> simp_all
        · simp only [if_neg ha]; rfl
  | .ternary k a b c, x, hr, h => by
    rw [regular, Bool.and_eq_true, Bool.and_eq_true] at hr
    cases k with
    | notBetween =>
      rw [built, ternary, exprMeaning_op] at h
      obtain ⟨xs, hxs, rfl⟩ := Option.map_eq_some_iff.mp h
      have hn : Op.named (ascii "not_between") = none := by decide +kernel
      simp [eval, served, apply, hn]
    | between =>
      rw [built, ternary, exprMeaning_op] at h
      obtain ⟨xs, hxs, rfl⟩ := Option.map_eq_some_iff.mp h
      obtain ⟨y, zs, ha, hz, rfl⟩ := exprsOf_more hxs
      obtain ⟨z, zs', hb, hz', rfl⟩ := exprsOf_more hz
      obtain ⟨u, hc, rfl⟩ := exprsOf_one hz'
      have i1 := eval_built row a hr.1.1 ha
      have i2 := eval_built row b hr.1.2 hb
      have i3 := eval_built row c hr.2 hc
      have hn : Op.named (ascii "between") = some .between := by decide +kernel
      simp only [eval, evals, i1, i2, i3, served, den, show (Ternary.between != .notBetween) = true from rfl, Bool.true_and]
      by_cases h1 : served a = true <;> by_cases h2 : served b = true <;> by_cases h3 : served c = true <;> simp only [h1, h2, h3, if_true, if_false, Bool.false_eq_true, Bool.and_self, Bool.and_false, Bool.false_and]
      · cases den E row a <;> cases den E row b <;> cases den E row c <;> simp [apply_named E hn, Op.result]
      all_goals (cases den E row a <;> cases den E row b <;> cases den E row c <;> simp)
  | .isIn a bs, x, hr, h => by
    rw [regular, Bool.and_eq_true] at hr
    rw [built, mkIn, exprMeaning_op] at h
    obtain ⟨xs, hxs, rfl⟩ := Option.map_eq_some_iff.mp h
    obtain ⟨y, zs, ha, hz, rfl⟩ := exprsOf_more hxs
    have i1 := eval_built row a hr.1 ha
    obtain ⟨i2, hl⟩ := evals_built row bs hr.2 hz
    have hn : Op.named (ascii "in") = some .isIn := by decide +kernel
    simp only [eval, evals, i1, i2, served, den]
    by_cases h1 : served a = true <;> by_cases h2 : serveds bs = true <;> simp only [h1, h2, if_true, if_false, Bool.false_eq_true, Bool.and_self, Bool.and_false, Bool.false_and]
    · cases den E row a <;> cases dens E row bs <;> simp [apply_named E hn, Op.result]
    all_goals (cases den E row a <;> cases dens E row bs <;> simp)
  | .notIn a bs, x, hr, h => by
    rw [regular, Bool.and_eq_true] at hr
    rw [built, mkNotIn, exprMeaning_op] at h
    obtain ⟨xs, hxs, rfl⟩ := Option.map_eq_some_iff.mp h
    obtain ⟨y, zs, ha, hz, rfl⟩ := exprsOf_more hxs
    have i1 := eval_built row a hr.1 ha
    obtain ⟨i2, hl⟩ := evals_built row bs hr.2 hz
    have hn : Op.named (ascii "not_in") = some .notIn := by decide +kernel
    simp only [eval, evals, i1, i2, served, den]
    by_cases h1 : served a = true <;> by_cases h2 : serveds bs = true <;> simp only [h1, h2, if_true, if_false, Bool.false_eq_true, Bool.and_self, Bool.and_false, Bool.false_and]
    · cases den E row a <;> cases dens E row bs <;> simp [apply_named E hn, Op.result]
    all_goals (cases den E row a <;> cases dens E row bs <;> simp)
  | .dateAdd a b unit, x, hr, h => by
    rw [regular, Bool.and_eq_true] at hr
    rw [built, dateAdd, exprMeaning_op] at h
    obtain ⟨xs, hxs, rfl⟩ := Option.map_eq_some_iff.mp h
    obtain ⟨y, zs, ha, hz, rfl⟩ := exprsOf_more hxs
    obtain ⟨z, zs', hb, hz', rfl⟩ := exprsOf_more hz
    obtain ⟨u, hc, rfl⟩ := exprsOf_one hz'
    rw [exprMeaning_octets] at hc
    cases hc
    have i1 := eval_built row a hr.1 ha
    have i2 := eval_built row b hr.2 hb
    have hn : Op.named (ascii "date_add") = some (.other 3 "date_add") := by decide +kernel
    simp only [eval, evals, i1, i2, served, den]
    by_cases h1 : served a = true <;> by_cases h2 : served b = true <;> simp only [h1, h2, if_true, if_false, Bool.false_eq_true, Bool.and_self, Bool.and_false, Bool.false_and]
    · cases den E row a <;> cases den E row b <;> simp [apply_named E hn, Op.result]
    all_goals (cases den E row a <;> cases den E row b <;> simp)
  | .dateSub a b unit, x, hr, h => by
    rw [regular, Bool.and_eq_true] at hr
    rw [built, dateSub, exprMeaning_op] at h
    obtain ⟨xs, hxs, rfl⟩ := Option.map_eq_some_iff.mp h
    obtain ⟨y, zs, ha, hz, rfl⟩ := exprsOf_more hxs
    obtain ⟨z, zs', hb, hz', rfl⟩ := exprsOf_more hz
    obtain ⟨u, hc, rfl⟩ := exprsOf_one hz'
    rw [exprMeaning_octets] at hc
    cases hc
    have i1 := eval_built row a hr.1 ha
    have i2 := eval_built row b hr.2 hb
    have hn : Op.named (ascii "date_sub") = some (.other 3 "date_sub") := by decide +kernel
    simp only [eval, evals, i1, i2, served, den]
    by_cases h1 : served a = true <;> by_cases h2 : served b = true <;> simp only [h1, h2, if_true, if_false, Bool.false_eq_true, Bool.and_self, Bool.and_false, Bool.false_and]
    · cases den E row a <;> cases den E row b <;> simp [apply_named E hn, Op.result]
    all_goals (cases den E row a <;> cases den E row b <;> simp)
  | .dflt, x, hr, h => by simp [regular] at hr
  | .concat as, x, hr, h => by
    rw [regular] at hr
    rw [built, mkConcat, exprMeaning_call] at h
    obtain ⟨xs, hxs, rfl⟩ := Option.map_eq_some_iff.mp h
    obtain ⟨i2, hl⟩ := evals_built row as hr hxs
    have e : served (.concat as) = serveds as := by rw [served]
    rw [e]
    simp only [eval, i2, den]
    by_cases h1 : serveds as = true
    · rw [if_pos h1, if_pos h1]
    · rw [if_neg h1, if_neg h1]; rfl
  | .rowCount, x, hr, h => by
    rw [built, rowCount, exprMeaning_call, exprsOf] at h
    cases h
    simp [eval, evals, served, den]
  | .lastInsertID, x, hr, h => by
    rw [built, lastInsertID, exprMeaning_call, exprsOf] at h
    cases h
    simp [eval, evals, served, den]
theorem evals_built (row : Row V) : ∀ (es : List GoExpr) {xs : List PExpr}, regulars es = true → exprsOf libDur fmtTime (builts es) = some xs →
    evals E row xs = (if serveds es = true then dens E row es else none) ∧ xs.length = es.length
  | [], xs, _, h => by
    rw [builts, exprsOf] at h
    cases h
    simp [evals, serveds, dens]
  | e :: es, xs, hr, h => by
    rw [regulars, Bool.and_eq_true] at hr
    rw [builts, exprsOf_cons] at h
    split at h
    · rename_i y ys h1 h2
      cases h
      have i1 := eval_built row e hr.1 h1
      have i2 := evals_built row es hr.2 h2
      refine ⟨?_, by simp [i2.2]⟩
      rw [evals, i1, i2.1, serveds, dens]
      cases served e <;> cases serveds es <;> simp
    · cases h
end


theorem varsShorts_all : ∀ {xs : List PExpr}, varsShorts xs = true ↔ ∀ x ∈ xs, varsShort x = true
  | [] => by simp [varsShorts]
  | x :: xs => by simp [varsShorts, varsShorts_all (xs := xs)]

theorem plain_literal {v : Val} (h : isPlain v = true) : ∃ s, exprMeaning v = some (.literal s) := by
  rw [plain_expr h]
  cases hp : plainScalar libDur fmtTime v with
  | none => rw [isPlain, hp] at h; cases h
  | some s => exact ⟨s, rfl⟩

theorem op_operand {name : Bytes} {vs : List Val} {xs : List PExpr} (h : exprsOf libDur fmtTime vs = some xs) (hv : varsShorts xs = true) :
    Operand (.op name vs) (.operator name xs) := ⟨by rw [exprMeaning_op, h]; rfl, by rw [varsShort, hv]⟩

theorem op_ex {name : Bytes} {vs : List Val} {x : PExpr} {xs : List PExpr} (h : exprsOf libDur fmtTime vs = some (x :: xs))
    (hv : varsShorts (x :: xs) = true) : ∃ y, Operand (.op name vs) y ∧ isDefault y = false :=
  ⟨_, op_operand h hv, rfl⟩

mutual
theorem built_operand : ∀ (e : GoExpr), regular e = true → ∃ x, Operand (built e) x ∧ isDefault x = false
  | .val v, h => by
    rw [regular] at h
    obtain ⟨s, hs⟩ := plain_literal h
    exact ⟨_, ⟨by rw [built, hs], rfl⟩, rfl⟩
  | .column name, _ => ⟨.ident name, ⟨by rw [built]; rfl, rfl⟩, rfl⟩
  | .var name, h => ⟨.variable name, ⟨by rw [built]; rfl, by rw [regular] at h; rw [varsShort, h]⟩, rfl⟩
  | .unary k a, h => by
    rw [regular] at h
    obtain ⟨x, ⟨h1, h2⟩, _⟩ := built_operand a h
    rw [built]
    cases k <;> exact op_ex (by rw [exprsOf_cons, h1, exprsOf]) (by simp [varsShorts, h2])
  | .binary k a b, h => by
    rw [regular, Bool.and_eq_true] at h
    obtain ⟨x, ⟨h1, h2⟩, _⟩ := built_operand a h.1
    obtain ⟨y, ⟨h3, h4⟩, _⟩ := built_operand b h.2
    rw [built]
    cases k <;> exact op_ex (by rw [exprsOf_cons, exprsOf_cons, h1, h3, exprsOf]) (by simp [varsShorts, h2, h4])
  | .ternary k a b c, h => by
    rw [regular, Bool.and_eq_true, Bool.and_eq_true] at h
    obtain ⟨x, ⟨h1, h2⟩, _⟩ := built_operand a h.1.1
    obtain ⟨y, ⟨h3, h4⟩, _⟩ := built_operand b h.1.2
    obtain ⟨z, ⟨h5, h6⟩, _⟩ := built_operand c h.2
    rw [built]
    cases k <;> exact op_ex (by rw [exprsOf_cons, exprsOf_cons, exprsOf_cons, h1, h3, h5, exprsOf]) (by simp [varsShorts, h2, h4, h6])
  | .isIn a bs, h => by
    rw [regular, Bool.and_eq_true] at h
    obtain ⟨x, ⟨h1, h2⟩, _⟩ := built_operand a h.1
    obtain ⟨ys, h3, h4⟩ := builts_operand bs h.2
    rw [built, mkIn]
    exact op_ex (by rw [exprsOf_cons, h1, h3]) (by simp [varsShorts, h2, h4])
  | .notIn a bs, h => by
    rw [regular, Bool.and_eq_true] at h
    obtain ⟨x, ⟨h1, h2⟩, _⟩ := built_operand a h.1
    obtain ⟨ys, h3, h4⟩ := builts_operand bs h.2
    rw [built, mkNotIn]
    exact op_ex (by rw [exprsOf_cons, h1, h3]) (by simp [varsShorts, h2, h4])
  | .dateAdd a b unit, h => by
    rw [regular, Bool.and_eq_true] at h
    obtain ⟨x, ⟨h1, h2⟩, _⟩ := built_operand a h.1
    obtain ⟨y, ⟨h3, h4⟩, _⟩ := built_operand b h.2
    rw [built, dateAdd]
    exact op_ex (by rw [exprsOf_cons, exprsOf_cons, exprsOf_cons, h1, h3, exprMeaning_octets, exprsOf])
      (by simp [varsShorts, h2, h4, varsShort])
  | .dateSub a b unit, h => by
    rw [regular, Bool.and_eq_true] at h
    obtain ⟨x, ⟨h1, h2⟩, _⟩ := built_operand a h.1
    obtain ⟨y, ⟨h3, h4⟩, _⟩ := built_operand b h.2
    rw [built, dateSub]
    exact op_ex (by rw [exprsOf_cons, exprsOf_cons, exprsOf_cons, h1, h3, exprMeaning_octets, exprsOf])
      (by simp [varsShorts, h2, h4, varsShort])
  | .dflt, h => by simp [regular] at h
  | .concat as, h => by
    rw [regular] at h
    obtain ⟨ys, h3, h4⟩ := builts_operand as h
    exact ⟨.funcCall (ascii "CONCAT") ys, ⟨by rw [built, mkConcat, exprMeaning_call, h3]; rfl, by rw [varsShort, h4]⟩, rfl⟩
  | .rowCount, _ => ⟨.funcCall _ [], ⟨by rw [built, rowCount, exprMeaning_call, exprsOf]; rfl, rfl⟩, rfl⟩
  | .lastInsertID, _ => ⟨.funcCall _ [], ⟨by rw [built, lastInsertID, exprMeaning_call, exprsOf]; rfl, rfl⟩, rfl⟩
theorem builts_operand : ∀ (es : List GoExpr), regulars es = true → ∃ xs, exprsOf libDur fmtTime (builts es) = some xs ∧ varsShorts xs = true
  | [], _ => ⟨[], by rw [builts, exprsOf], rfl⟩
  | e :: es, h => by
    rw [regulars, Bool.and_eq_true] at h
    obtain ⟨x, ⟨h1, h2⟩, _⟩ := built_operand e h.1
    obtain ⟨xs, h3, h4⟩ := builts_operand es h.2
    exact ⟨x :: xs, by rw [builts, exprsOf_cons, h1, h3], by rw [varsShorts, h2, h4]; rfl⟩
end

/-- a value for a column: DEFAULT or an expression the server knows -/
def okFor : GoExpr → Bool
  | .dflt => true
  | e => regular e && served e

theorem built_for (e : GoExpr) (h : okFor e = true) :
    ∃ x, Operand (built e) x ∧ ∀ {V : Type} (E : Engine V) (blank row : Sql.Row V) (c : Bytes), valueFor E blank row c x = denFor E blank row c e := by
  by_cases hd : e = .dflt
  · subst hd
    refine ⟨.operator (ascii "default") [], ⟨by rw [built, exprDefault, exprMeaning_op, exprsOf]; rfl, rfl⟩, fun E blank row c => ?_⟩
    rw [valueFor, if_pos (by simp [isDefault]), denFor]
  · have h' : (regular e && served e) = true := by cases e <;> first | exact h | exact absurd rfl hd
    rw [Bool.and_eq_true] at h'
    obtain ⟨x, h1, h2⟩ := built_operand e h'.1
    refine ⟨x, h1, fun E blank row c => ?_⟩
    have hden : denFor E blank row c e = den E row e := by cases e <;> first | rfl | exact absurd rfl hd
    rw [valueFor, h2, hden, if_neg (by simp), eval_built E row e h'.1 h1.1, if_pos h'.2]

/-- what is sent for the assignments -/
theorem built_sets : ∀ (sets : List (Bytes × GoExpr)), (∀ s ∈ sets, okFor s.2 = true) →
    ∃ ss : List (Bytes × PExpr), Sets libDur (sets.map fun s => (s.1, built s.2)) ss ∧ (∀ s ∈ ss, varsShort s.2 = true) ∧
      (ss = [] ↔ sets = []) ∧
      ∀ {V : Type} (E : Engine V) (t : Bytes) (blank row row' : Sql.Row V), assigns E t blank ss row = some row' ↔ Steps E t blank sets row row'
  | [], _ => ⟨[], rfl, by simp, by simp, fun E t blank row row' => by
      simp only [assigns, Option.some.injEq]
      exact ⟨fun h => h ▸ .done, fun h => by cases h; rfl⟩⟩
  | (c, e) :: sets, h => by
    obtain ⟨x, hx, hv⟩ := built_for e (h _ (List.mem_cons_self ..))
    obtain ⟨ss, h1, h2, _, h3⟩ := built_sets sets fun s hs => h s (List.mem_cons_of_mem _ hs)
    refine ⟨(c, x) :: ss, ?_, ?_, by simp, fun E t blank row row' => ?_⟩
    · simp only [Sets, List.map_cons] at h1 ⊢
      rw [h1, show exprOf libDur fmtTime (built e) = some x from hx.1]
    · intro s hs
      rcases List.mem_cons.mp hs with rfl | hs
      · exact hx.2
      · exact h2 s hs
    · simp only [assigns, hv E]
      constructor
      · intro h
        obtain ⟨v, hv1, h⟩ := Option.bind_eq_some_iff.mp h
        obtain ⟨r, hr, h⟩ := Option.bind_eq_some_iff.mp h
        rw [assign] at hr
        split at hr
        · cases hr
        · rename_i hc
          obtain ⟨w, hw, rfl⟩ := Option.map_eq_some_iff.mp hr
          exact .set (by cases hq : row c with | none => simp [hq] at hc | some _ => rfl) ⟨v, hv1, hw⟩ ((h3 ..).mp h)
      · intro h
        cases h with
        | @set _ _ _ _ _ w hc hw h =>
          obtain ⟨v, hv1, hw⟩ := hw
          rw [hv1, Option.bind_some, assign, if_neg (by intro hq; cases hr : row c <;> simp [hr] at hc hq), hw, Option.map_some, Option.bind_some]
          exact (h3 ..).mpr h

theorem built_crit (crit : Option GoExpr) (h : ∀ e ∈ crit, regular e = true ∧ served e = true) :
    ∃ c, Crit libDur (crit.map built) c ∧ (∀ e ∈ c, varsShort e = true) ∧ ∀ {V : Type} (E : Engine V) (row : Sql.Row V), selects E row c = meets E row crit := by
  cases crit with
  | none => exact ⟨none, rfl, by simp, fun E row => rfl⟩
  | some e =>
    obtain ⟨h1, h2⟩ := h e rfl
    obtain ⟨x, hx, _⟩ := built_operand e h1
    refine ⟨some x, ?_, fun y hy => ?_, fun E row => ?_⟩
    · simp only [Crit, Option.map_some]; rw [show exprOf libDur fmtTime (built e) = some x from hx.1]
    · cases hy; exact hx.2
    · rw [selects, meets, eval_built E row e h1 hx.1, if_pos h2]

theorem mapM_each {α β : Type} {f : α → Option β} : ∀ {l : List α} {l' : List β}, l.mapM f = some l' ↔ Each (fun a b => f a = some b) l l'
  | [], l' => by
    simp only [List.mapM_nil]
    exact ⟨fun h => by cases h; exact .nil, fun h => by cases h; rfl⟩
  | a :: l, l' => by
    rw [List.mapM_cons]
    constructor
    · intro h
      obtain ⟨b, hb, h⟩ := Option.bind_eq_some_iff.mp h
      obtain ⟨bs, hbs, h⟩ := Option.bind_eq_some_iff.mp h
      cases h
      exact .cons hb (mapM_each.mp hbs)
    · intro h
      cases h with
      | cons hb h =>
        have := mapM_each.mpr h
        rw [hb, this]; rfl

theorem each_imp {α β : Type} {R S : α → β → Prop} (h : ∀ a b, R a b → S a b) : ∀ {l : List α} {l' : List β}, Each R l l' → Each S l l'
  | _, _, .nil => .nil
  | _, _, .cons h1 h2 => .cons (h _ _ h1) (each_imp h h2)

theorem each_iff {α β : Type} {R S : α → β → Prop} (h : ∀ a b, R a b ↔ S a b) {l : List α} {l' : List β} : Each R l l' ↔ Each S l l' :=
  ⟨each_imp fun a b => (h a b).mp, each_imp fun a b => (h a b).mpr⟩

mutual
/-- An expression depends on the columns it reads. -/
theorem den_reads {row row' : Sql.Row V} : ∀ (e : GoExpr), (∀ c ∈ reads e, row' c = row c) → den E row' e = den E row e
  | .val v, _ => by rw [den, den]
  | .column name, h => by rw [den, den, h name (by simp [reads])]
  | .var name, _ => by rw [den, den]
  | .unary k a, h => by
    have := den_reads a (by simpa [reads] using h)
    cases k <;> rw [den, den, this] <;> simp
  | .binary k a b, h => by
    simp only [reads, List.mem_append] at h
    rw [den, den, den_reads a fun c hc => h c (.inl hc), den_reads b fun c hc => h c (.inr hc)]
  | .ternary k a b c, h => by
    simp only [reads, List.mem_append] at h
    rw [den, den, den_reads a fun c hc => h c (.inl (.inl hc)), den_reads b fun c hc => h c (.inl (.inr hc)), den_reads c fun c hc => h c (.inr hc)]
  | .isIn a bs, h => by
    simp only [reads, List.mem_append] at h
    rw [den, den, den_reads a fun c hc => h c (.inl hc), dens_reads bs fun c hc => h c (.inr hc)]
  | .notIn a bs, h => by
    simp only [reads, List.mem_append] at h
    rw [den, den, den_reads a fun c hc => h c (.inl hc), dens_reads bs fun c hc => h c (.inr hc)]
  | .dateAdd a b _, h => by
    simp only [reads, List.mem_append] at h
    rw [den, den, den_reads a fun c hc => h c (.inl hc), den_reads b fun c hc => h c (.inr hc)]
  | .dateSub a b _, h => by
    simp only [reads, List.mem_append] at h
    rw [den, den, den_reads a fun c hc => h c (.inl hc), den_reads b fun c hc => h c (.inr hc)]
  | .dflt, _ => by rw [den, den]
  | .concat as, h => by rw [den, den, dens_reads as (by simpa [reads] using h)]
  | .rowCount, _ => by rw [den, den]
  | .lastInsertID, _ => by rw [den, den]
theorem dens_reads {row row' : Sql.Row V} : ∀ (es : List GoExpr), (∀ c ∈ readss es, row' c = row c) → dens E row' es = dens E row es
  | [], _ => by rw [dens, dens]
  | e :: es, h => by
    simp only [readss, List.mem_append] at h
    rw [dens, dens, den_reads e fun c hc => h c (.inl hc), dens_reads es fun c hc => h c (.inr hc)]
end

theorem comes_reads {t : Bytes} {blank row row' : Sql.Row V} {c : Bytes} {e : GoExpr} {w : V} (h : ∀ c ∈ reads e, row' c = row c) :
    Comes E t blank row' c e w ↔ Comes E t blank row c e w := by
  have : denFor E blank row' c e = denFor E blank row c e := by
    cases e <;> first | rfl | exact den_reads E _ h
  simp only [Comes, this]

/-- Assignments that do not read each other's columns may as well be made all at once. -/
theorem steps_simul {t : Bytes} {blank : Sql.Row V} : ∀ (sets : List (Bytes × GoExpr)), (sets.map (·.1)).Nodup → Independent sets →
    ∀ row row' : Sql.Row V, Steps E t blank sets row row' ↔ Simul E t blank sets row row'
  | [], _, _, row, row' => ⟨fun h => by cases h; exact ⟨by simp, fun _ _ => rfl⟩, fun h => by
      have : row' = row := funext fun c => h.rest c (by simp)
      rw [this]; exact .done⟩
  | (c, e) :: sets, hn, hi, row, row' => by
    simp only [List.map_cons, List.nodup_cons, List.mem_map] at hn
    have hne : ∀ s ∈ sets, s.1 ≠ c := fun s hs he => hn.1 ⟨s, hs, he⟩
    have hi' : Independent sets := fun s hs s' hs' => hi s (List.mem_cons_of_mem _ hs) s' (List.mem_cons_of_mem _ hs')
    have ih := steps_simul (t := t) (blank := blank) sets hn.2 hi'
    have hr : ∀ s ∈ sets, ∀ (w : V) (x : Bytes), x ∈ reads s.2 → (if x = c then some w else row x) = row x := by
      intro s hs w x hx
      by_cases hxc : x = c
      · subst hxc
        exact absurd (hi s (List.mem_cons_of_mem _ hs) (x, e) (List.mem_cons_self ..) hx).symm (hne s hs)
      · rw [if_neg hxc]
    constructor
    · intro h
      cases h with
      | @set _ _ _ _ _ w h1 h2 h3 =>
        have h4 := (ih _ _).mp h3
        refine ⟨fun s hs => ?_, fun x hx => ?_⟩
        · rcases List.mem_cons.mp hs with rfl | hs
          · refine ⟨h1, w, h2, ?_⟩
            rw [h4.rest c hne, if_pos rfl]
          · obtain ⟨h5, u, h6, h7⟩ := h4.set s hs
            rw [if_neg (hne s hs)] at h5
            exact ⟨h5, u, (comes_reads E (hr s hs w)).mp h6, h7⟩
        · rw [h4.rest x fun s hs => hx s (List.mem_cons_of_mem _ hs), if_neg fun he => hx _ (List.mem_cons_self ..) he.symm]
    · intro h
      obtain ⟨h1, w, h2, h3⟩ := h.set (c, e) (List.mem_cons_self ..)
      refine .set h1 h2 ((ih _ _).mpr ⟨fun s hs => ?_, fun x hx => ?_⟩)
      · obtain ⟨h5, u, h6, h7⟩ := h.set s (List.mem_cons_of_mem _ hs)
        refine ⟨by rw [if_neg (hne s hs)]; exact h5, u, (comes_reads E (hr s hs w)).mpr h6, h7⟩
      · by_cases hxc : x = c
        · subst hxc; rw [if_pos rfl]; exact h3
        · rw [if_neg hxc]
          refine h.rest x fun s hs => ?_
          rcases List.mem_cons.mp hs with rfl | hs
          · exact fun he => hxc he.symm
          · exact hx s hs

/-- what is sent for a row of an insert -/
theorem built_row (cols : List Bytes) (es : List GoExpr) (hl : es.length = cols.length) (h : ∀ e ∈ es, okFor e = true) :
    ∃ xs, Spec.Row libDur (es.map built) xs ∧ (∀ x ∈ xs, varsShort x = true) ∧ xs.length = es.length ∧
      ∀ {V : Type} (E : Engine V) (t : Bytes) (blank row' : Sql.Row V),
        assigns E t blank (cols.zip xs) blank = some row' ↔ Steps E t blank (cols.zip es) blank row' := by
  obtain ⟨ss, h1, h2, _, h3⟩ := built_sets (cols.zip es) fun s hs => h _ (List.of_mem_zip hs).2
  have hf : ss.map (·.1) = cols := by
    have := congrArg (List.map (·.1)) (show List.map _ _ = List.map _ _ from h1)
    simp only [List.map_map] at this
    have e1 : ((fun x : Bytes × Option PExpr => x.1) ∘ (fun s : Bytes × PExpr => (s.1, some s.2))) = (·.1) := rfl
    rw [e1] at this
    rw [← this]
    have e2 : ((fun x : Bytes × Option PExpr => x.1) ∘ ((fun s : Bytes × Val => (s.1, exprOf libDur fmtTime s.2)) ∘
      (fun s : Bytes × GoExpr => (s.1, built s.2)))) = Prod.fst := rfl
    rw [e2, List.map_fst_zip (by omega)]
  have hg : (ss.map (·.2)).map some = es.map (fun e => exprOf libDur fmtTime (built e)) := by
    have := congrArg (List.map (·.2)) (show List.map _ _ = List.map _ _ from h1)
    simp only [List.map_map] at this
    have e1 : ((fun x : Bytes × Option PExpr => x.2) ∘ (fun s : Bytes × PExpr => (s.1, some s.2))) = some ∘ (·.2) := rfl
    rw [e1] at this
    rw [List.map_map, ← this]
    have e2 : ((fun x : Bytes × Option PExpr => x.2) ∘ ((fun s : Bytes × Val => (s.1, exprOf libDur fmtTime s.2)) ∘
      (fun s : Bytes × GoExpr => (s.1, built s.2)))) = (fun e => exprOf libDur fmtTime (built e)) ∘ Prod.snd := rfl
    rw [e2, ← List.map_map, List.map_snd_zip (by omega)]
  have hz : cols.zip (ss.map (·.2)) = ss := by
    rw [← hf]; exact (List.zip_map' ..).trans (by simp)
  refine ⟨ss.map (·.2), ?_, ?_, ?_, ?_⟩
  · rw [Spec.Row, hg, List.map_map]; rfl
  · intro x hx
    obtain ⟨s, hs, rfl⟩ := List.mem_map.mp hx
    exact h2 s hs
  · rw [hl, ← hf]; simp
  · intro V E t blank row'
    rw [hz]
    exact h3 E t blank blank row'

end Verif.Props
