import Verif.Spec.Schema
/-! The readers of `Spec.Mysqlx` and `Spec.Message` agree with the reader that follows the .proto files. -/
namespace Verif.Proof
open Verif.Go Verif.Spec Verif.Spec.Schema

variable {bs b : Bytes} {fs : List Field} {ts : List Nat} {t f : Nat} {m : Msg}

theorem readVarintAux_length : ∀ (k : Nat) (bs : Bytes) {v : Nat} {rest : Bytes}, readVarintAux k bs = some (v, rest) → rest.length < bs.length := by
  intro k
  induction k with
  | zero => intro bs v rest h; simp [readVarintAux] at h
  | succ k ih =>
    intro bs v rest h
    cases bs with
    | nil => simp [readVarintAux] at h
    | cons b bs =>
      simp only [readVarintAux] at h
      split at h
      · simp at h; simp [← h.2]
      · split at h
        · rename_i v' rest' h'
          have := ih _ h'
          simp at h
          simp [← h.2]; omega
        · cases h

theorem readVarint_length {v : Nat} {rest : Bytes} (h : readVarint bs = some (v, rest)) : rest.length < bs.length := by
  simp only [readVarint] at h
  split at h
  · rename_i h'
    split at h
    · simp at h; rw [← h.2]; exact readVarintAux_length _ _ h'
    · cases h
  · cases h

theorem readFixed_length : ∀ (k : Nat) (bs : Bytes) {v : Nat} {rest : Bytes}, readFixed k bs = some (v, rest) → rest.length + k = bs.length := by
  intro k
  induction k with
  | zero => intro bs v rest h; simp [readFixed] at h; simp [h.2]
  | succ k ih =>
    intro bs v rest h
    cases bs with
    | nil => simp [readFixed] at h
    | cons b bs =>
      simp only [readFixed] at h
      split at h
      · rename_i h'
        have := ih _ h'
        simp at h
        simp [← h.2]; omega
      · cases h

theorem readN_length {n : Nat} {rest : Bytes} (h : readN n bs = some (b, rest)) : b.length + rest.length = bs.length := by
  simp only [readN] at h
  split at h
  · simp at h
    obtain ⟨rfl, rfl⟩ := h
    simp; omega
  · cases h

theorem readField_length {fld : Field} {rest : Bytes} (h : readField bs = some (fld, rest)) :
    rest.length < bs.length ∧ ∀ b, fld.2 = .bytes b → b.length < bs.length := by
  simp only [readField] at h
  split at h
  · cases h
  · rename_i key bs1 hk
    have h1 := readVarint_length hk
    split at h
    · cases h
    · split at h
      · split at h
        · rename_i h2
          have := readVarint_length h2
          simp at h; obtain ⟨rfl, rfl⟩ := h
          exact ⟨by omega, by simp⟩
        · cases h
      · split at h
        · rename_i h2
          have := readFixed_length _ _ h2
          simp at h; obtain ⟨rfl, rfl⟩ := h
          exact ⟨by omega, by simp⟩
        · cases h
      · split at h
        · rename_i h2
          have := readVarint_length h2
          split at h
          · rename_i h3
            have := readN_length h3
            simp at h; obtain ⟨rfl, rfl⟩ := h
            refine ⟨by omega, ?_⟩
            simp; omega
          · cases h
        · cases h
      · split at h
        · rename_i h2
          have := readFixed_length _ _ h2
          simp at h; obtain ⟨rfl, rfl⟩ := h
          exact ⟨by omega, by simp⟩
        · cases h
      · cases h

theorem readFieldsAux_length : ∀ (k : Nat) (bs : Bytes) {fs : List Field}, readFieldsAux k bs = some fs → ∀ t b, (t, .bytes b) ∈ fs → b.length < bs.length := by
  intro k
  induction k with
  | zero =>
    intro bs fs h
    cases bs with
    | nil => simp [readFieldsAux] at h; simp [h]
    | cons b bs => simp [readFieldsAux] at h
  | succ k ih =>
    intro bs fs h t b hm
    cases bs with
    | nil => simp [readFieldsAux] at h; subst h; cases hm
    | cons b' bs =>
      simp only [readFieldsAux] at h
      split at h
      · cases h
      · rename_i fld rest h1
        have hl := readField_length h1
        split at h
        · cases h
        · rename_i fs' h2
          simp at h; subst h
          rcases List.mem_cons.1 hm with hm | hm
          · exact hl.2 b (by rw [← hm])
          · have := ih _ h2 t b hm
            omega

theorem inner_length (h : readFields bs = some fs) (hm : .bytes b ∈ many fs t) : b.length < bs.length := by
  simp only [many, List.mem_map, List.mem_filter] at hm
  obtain ⟨⟨t', v⟩, ⟨h1, -⟩, rfl⟩ := hm
  exact readFieldsAux_length _ _ h _ _ h1

theorem many_absent (h : onlyTags ts fs = true) (ht : t ∉ ts) : many fs t = [] := by
  simp only [onlyTags, List.all_eq_true] at h
  simp only [many, List.map_eq_nil_iff, List.filter_eq_nil_iff]
  intro x hx
  have := h x hx
  simp at this
  simp only [beq_iff_eq]
  rintro rfl
  exact ht this

theorem onlyTags_mono {ts' : List Nat} (h : onlyTags ts fs = true) (hs : ts.all (ts'.contains ·) = true) : onlyTags ts' fs = true := by
  simp only [onlyTags, List.all_eq_true] at h hs ⊢
  intro x hx
  exact hs _ (by simpa using h x hx)

theorem many_reqBytes (h : reqBytes fs t = some b) : many fs t = [.bytes b] := by
  simp only [reqBytes, single] at h
  split at h <;> rename_i h1
  · simp at h; subst h
    split at h1 <;> rename_i h2 <;> simp at h1
    rw [h2, h1]
  · cases h

theorem many_reqVarint {n : Nat} (h : reqVarint fs t = some n) : many fs t = [.varint n] := by
  simp only [reqVarint, single] at h
  split at h <;> rename_i h1
  · simp at h; subst h
    split at h1 <;> rename_i h2 <;> simp at h1
    rw [h2, h1]
  · cases h

theorem many_single {v : WireVal} (h : single fs t = some (some v)) : many fs t = [v] := by
  simp only [single] at h
  split at h <;> rename_i h1 <;> simp at h
  rw [h1, h]

theorem many_optVarint {o : Option Nat} (h : optVarint fs t = some o) : many fs t = o.toList.map .varint := by
  simp only [optVarint, single] at h
  split at h <;> rename_i h1
  · simp at h; subst h
    split at h1 <;> rename_i h2 <;> simp at h1
    simp [h2]
  · simp at h; subst h
    split at h1 <;> rename_i h2 <;> simp at h1
    simp [h2, h1]
  · cases h

theorem many_optBytes' {o : Option Bytes} (h : optBytes fs t = some o) : many fs t = o.toList.map .bytes := by
  simp only [optBytes, single] at h
  split at h <;> rename_i h1
  · simp at h; subst h
    split at h1 <;> rename_i h2 <;> simp at h1
    simp [h2]
  · simp at h; subst h
    split at h1 <;> rename_i h2 <;> simp at h1
    simp [h2, h1]
  · cases h

theorem allBytes_some : ∀ {vs : List WireVal} {bs : List Bytes}, allBytes vs = some bs → vs = bs.map .bytes := by
  intro vs
  induction vs with
  | nil => intro bs h; simp [allBytes] at h; simp [h]
  | cons v vs ih =>
    intro bs h
    cases v <;> simp only [allBytes] at h
    case bytes b =>
      split at h
      · rename_i h1
        simp at h; subst h
        rw [ih h1]; rfl
      · cases h
    all_goals cases h

theorem many_repBytes {l : List Bytes} (h : repBytes fs t = some l) : many fs t = l.map .bytes := allBytes_some h

/-- Whatever fuel above the length is given, the message is read as the tree. -/
def Reads (m : Msg) (bs : Bytes) (x : Tree) : Prop := ∀ f, bs.length < f → readTree f m bs = some x

theorem reads_intro {x : Tree} (hr : readFields bs = some fs) (ht : onlyTags ts fs = true) (hs : ts.all (((fields m).map Decl.num).contains ·) = true)
    (h : ∀ f, bs.length ≤ f → (each (readDecl (readTree f) fs) (fields m)).map record = some x) : Reads m bs x := by
  intro f hf
  cases f with
  | zero => omega
  | succ f => rw [readTree, hr]; simp only; rw [if_pos (onlyTags_mono ht hs)]; exact h f (by omega)

theorem decodeAll_each {α : Type} {d : Bytes → Option α} {tr : α → Tree} {sub : Msg → Bytes → Option Tree} {m : Msg} :
    ∀ {l : List Bytes} {xs : List α}, decodeAll d l = some xs → (∀ b ∈ l, ∀ x, d b = some x → sub m b = some (tr x)) →
      each (readValue sub (.msg m)) (l.map .bytes) = some (xs.map tr) := by
  intro l
  induction l with
  | nil => intro xs h _; simp [decodeAll] at h; simp [h, each]
  | cons b l ih =>
    intro xs h hd
    simp only [decodeAll] at h
    split at h
    · rename_i x xs' h1 h2
      simp at h; subst h
      have := ih h2 fun b hb => hd b (by simp [hb])
      simp [each, readValue, hd b (by simp) x h1, this]
    · cases h

theorem string_reads {s : PScalar} (h : decodeString bs = some s) :
    ∃ v c, s = .string v c ∧ Reads .Datatypes_Scalar_String bs (record [("value", [.bytes v]), ("collation", c.toList.map .nat)]) := by
  simp only [decodeString] at h
  split at h
  · rename_i fs hr
    split at h
    · rename_i ht
      split at h
      · rename_i v c h1 h2
        refine ⟨v, c, by simpa using h.symm, reads_intro hr ht (by decide) fun f hf => ?_⟩
        have m1 := many_reqBytes h1
        have m2 := many_optVarint h2
        cases c <;> simp [fields, each, readDecl, m1, m2, readValue, allowed]
      · cases h
    · cases h
  · cases h

theorem octets_reads {s : PScalar} (h : decodeOctets bs = some s) :
    ∃ v c, s = .octets v c ∧ Reads .Datatypes_Scalar_Octets bs (record [("value", [.bytes v]), ("content_type", c.toList.map .nat)]) := by
  simp only [decodeOctets] at h
  split at h
  · rename_i fs hr
    split at h
    · rename_i ht
      split at h
      · rename_i v h1 h2
        refine ⟨v, none, by simpa using h.symm, reads_intro hr ht (by decide) fun f hf => ?_⟩
        have m1 := many_reqBytes h1
        have m2 := many_optVarint h2
        simp [fields, each, readDecl, m1, m2, readValue, allowed]
      · rename_i v c h1 h2
        split at h
        · rename_i hc
          refine ⟨v, some c, by simpa using h.symm, reads_intro hr ht (by decide) fun f hf => ?_⟩
          have m1 := many_reqBytes h1
          have m2 := many_optVarint h2
          simp at hc
          simp [fields, each, readDecl, m1, m2, readValue, allowed, hc]
        · cases h
      · cases h
    · cases h
  · cases h

/-- The fields that are not declared by the reader's tags are absent. -/
theorem absent_iff (h : onlyTags ts fs = true) : ∀ t, ts.contains t = false → many fs t = [] := fun t ht =>
  many_absent h (by simpa using ht)

theorem scalar_reads {s : PScalar} (h : decodeScalar bs = some s) : Reads .Datatypes_Scalar bs (scalarTree s) := by
  simp only [decodeScalar] at h
  split at h
  · cases h
  · rename_i fs hr
    split at h
    · rename_i h1
      split at h
      · rename_i ht
        have ha := absent_iff ht
        simp only [Option.map_eq_some_iff] at h
        obtain ⟨n, h2, rfl⟩ := h
        refine reads_intro hr ht (by decide) fun f hf => ?_
        simp [fields, each, readDecl, many_reqVarint h1, many_reqVarint h2, ha, readValue, allowed, values, scalarTree, record]
      · cases h
    · rename_i h1
      split at h
      · rename_i ht
        have ha := absent_iff ht
        simp only [Option.map_eq_some_iff] at h
        obtain ⟨n, h2, rfl⟩ := h
        refine reads_intro hr ht (by decide) fun f hf => ?_
        simp [fields, each, readDecl, many_reqVarint h1, many_reqVarint h2, ha, readValue, allowed, values, List.lookup, scalarTree, record]
      · cases h
    · rename_i h1
      split at h
      · rename_i ht
        have ha := absent_iff ht
        simp at h; subst h
        refine reads_intro hr ht (by decide) fun f hf => ?_
        simp [fields, each, readDecl, many_reqVarint h1, ha, readValue, allowed, values, List.lookup, scalarTree, record]
      · cases h
    · rename_i h1
      split at h
      · rename_i ht
        have ha := absent_iff ht
        simp only [Option.bind_eq_some_iff] at h
        obtain ⟨b, h2, h3⟩ := h
        have m2 := many_reqBytes h2
        have hl := inner_length hr (t := 5) (b := b) (by simp [m2])
        obtain ⟨v, c, rfl, h4⟩ := octets_reads h3
        refine reads_intro hr ht (by decide) fun f hf => ?_
        simp [fields, each, readDecl, many_reqVarint h1, m2, ha, readValue, allowed, values, List.lookup, scalarTree, h4 f (by omega)]
        simp [record]
      · cases h
    · rename_i h1
      split at h
      · rename_i ht
        have ha := absent_iff ht
        split at h
        · rename_i v h2
          simp at h; subst h
          refine reads_intro hr ht (by decide) fun f hf => ?_
          simp [fields, each, readDecl, many_reqVarint h1, many_single h2, ha, readValue, allowed, values, List.lookup, scalarTree, record]
        · cases h
      · cases h
    · rename_i h1
      split at h
      · rename_i ht
        have ha := absent_iff ht
        split at h
        · rename_i v h2
          simp at h; subst h
          refine reads_intro hr ht (by decide) fun f hf => ?_
          simp [fields, each, readDecl, many_reqVarint h1, many_single h2, ha, readValue, allowed, values, List.lookup, scalarTree, record]
        · cases h
      · cases h
    · rename_i h1
      split at h
      · rename_i ht
        have ha := absent_iff ht
        split at h
        · rename_i h2
          simp at h; subst h
          refine reads_intro hr ht (by decide) fun f hf => ?_
          simp [fields, each, readDecl, many_reqVarint h1, many_reqVarint h2, ha, readValue, allowed, values, List.lookup, scalarTree, record]
        · rename_i h2
          simp at h; subst h
          refine reads_intro hr ht (by decide) fun f hf => ?_
          simp [fields, each, readDecl, many_reqVarint h1, many_reqVarint h2, ha, readValue, allowed, values, List.lookup, scalarTree, record]
        · cases h
      · cases h
    · rename_i h1
      split at h
      · rename_i ht
        have ha := absent_iff ht
        simp only [Option.bind_eq_some_iff] at h
        obtain ⟨b, h2, h3⟩ := h
        have m2 := many_reqBytes h2
        have hl := inner_length hr (t := 9) (b := b) (by simp [m2])
        obtain ⟨v, c, rfl, h4⟩ := string_reads h3
        refine reads_intro hr ht (by decide) fun f hf => ?_
        simp [fields, each, readDecl, many_reqVarint h1, m2, ha, readValue, allowed, values, List.lookup, scalarTree, h4 f (by omega)]
        simp [record]
      · cases h
    · cases h

theorem any_reads {s : PScalar} (h : decodeAny bs = some s) : Reads .Datatypes_Any bs (anyTree s) := by
  simp only [decodeAny] at h
  split at h
  · cases h
  · rename_i fs hr
    split at h
    · rename_i ht
      simp only [Bool.and_eq_true, beq_iff_eq] at ht
      have ha := absent_iff ht.1
      simp only [Option.bind_eq_some_iff] at h
      obtain ⟨b, h2, h3⟩ := h
      have m2 := many_reqBytes h2
      have hl := inner_length hr (t := 2) (b := b) (by simp [m2])
      refine reads_intro hr ht.1 (by decide) fun f hf => ?_
      simp [fields, each, readDecl, many_reqVarint ht.2, m2, ha, readValue, allowed, values, anyTree, scalar_reads h3 f (by omega)]
      simp [record]
    · cases h

theorem columnIdentifier_reads {name : Bytes} (h : decodeColumnIdentifier bs = some name) :
    Reads .Expr_ColumnIdentifier bs (record [("name", [.bytes name])]) := by
  simp only [decodeColumnIdentifier] at h
  split at h
  · cases h
  · rename_i fs hr
    split at h
    · rename_i ht
      have ha := absent_iff ht
      refine reads_intro hr ht (by decide) fun f hf => ?_
      simp [fields, each, readDecl, many_reqBytes h, ha, readValue, allowed, record]
    · cases h

theorem identifier_reads {name : Bytes} (h : decodeIdentifier bs = some name) :
    Reads .Expr_Identifier bs (record [("name", [.bytes name])]) := by
  simp only [decodeIdentifier] at h
  split at h
  · cases h
  · rename_i fs hr
    split at h
    · rename_i ht
      have ha := absent_iff ht
      refine reads_intro hr ht (by decide) fun f hf => ?_
      simp [fields, each, readDecl, many_reqBytes h, ha, readValue, allowed, record]
    · cases h

theorem exprTrees_eq (es : List PExpr) : exprTrees es = es.map exprTree := by
  induction es with
  | nil => rfl
  | cons e es ih => simp [exprTrees, ih]

theorem expr_reads : ∀ (k : Nat) (bs : Bytes) {e : PExpr}, decodeExprAux k bs = some e → Reads .Expr_Expr bs (exprTree e) := by
  intro k
  induction k with
  | zero => intro bs e h; simp [decodeExprAux] at h
  | succ k ih =>
    intro bs e h
    simp only [decodeExprAux] at h
    split at h
    · cases h
    · rename_i fs hr
      split at h
      · rename_i h1
        split at h
        · rename_i ht
          have ha := absent_iff ht
          simp only [Option.map_eq_some_iff, Option.bind_eq_some_iff] at h
          obtain ⟨n, ⟨b, h2, h3⟩, rfl⟩ := h
          have m2 := many_reqBytes h2
          have hl := inner_length hr (t := 2) (b := b) (by simp [m2])
          refine reads_intro hr ht (by decide) fun f hf => ?_
          simp [fields, each, readDecl, many_reqVarint h1, m2, ha, readValue, allowed, values, exprTree, columnIdentifier_reads h3 f (by omega)]
          simp [record]
        · cases h
      · rename_i h1
        split at h
        · rename_i ht
          have ha := absent_iff ht
          simp only [Option.map_eq_some_iff, Option.bind_eq_some_iff] at h
          obtain ⟨n, ⟨b, h2, h3⟩, rfl⟩ := h
          have m2 := many_reqBytes h2
          have hl := inner_length hr (t := 4) (b := b) (by simp [m2])
          refine reads_intro hr ht (by decide) fun f hf => ?_
          simp [fields, each, readDecl, many_reqVarint h1, m2, ha, readValue, allowed, values, List.lookup, exprTree, scalar_reads h3 f (by omega)]
          simp [record]
        · cases h
      · rename_i h1
        split at h
        · rename_i ht
          have ha := absent_iff ht
          simp only [Option.map_eq_some_iff] at h
          obtain ⟨b, h2, rfl⟩ := h
          refine reads_intro hr ht (by decide) fun f hf => ?_
          simp [fields, each, readDecl, many_reqVarint h1, many_reqBytes h2, ha, readValue, allowed, values, List.lookup, exprTree, record]
        · cases h
      · rename_i h1
        split at h
        · rename_i ht
          have ha := absent_iff ht
          split at h
          · cases h
          · rename_i gs hg
            simp only [Option.bind_eq_some_iff] at hg
            obtain ⟨b, h2, hg⟩ := hg
            split at h
            · rename_i hu
              have hb := absent_iff hu
              split at h
              · rename_i name ps h3 h4
                simp at h; subst h
                simp only [Option.bind_eq_some_iff] at h3 h4
                obtain ⟨nb, h3, h3'⟩ := h3
                obtain ⟨pb, h4, h4'⟩ := h4
                have m2 := many_reqBytes h2
                have m3 := many_reqBytes h3
                have m4 := many_repBytes h4
                have hl := inner_length hr (t := 5) (b := b) (by simp [m2])
                have hf1 : Reads .Expr_FunctionCall b (record [("name", [record [("name", [.bytes name])]]), ("param", ps.map exprTree)]) := by
                  refine reads_intro hg hu (by decide) fun f hf => ?_
                  have hn := inner_length hg (t := 1) (b := nb) (by simp [m3])
                  have hp := decodeAll_each (m := .Expr_Expr) (sub := readTree f) (tr := exprTree) h4' fun x hx y hy =>
                    ih x hy f (by have := inner_length hg (t := 2) (b := x) (by simp [m4, hx]); omega)
                  simp [fields, each, readDecl, m3, m4, hp, allowed, readValue, identifier_reads h3' f (by omega)]
                refine reads_intro hr ht (by decide) fun f hf => ?_
                simp [fields, each, readDecl, many_reqVarint h1, m2, ha, readValue, allowed, values, List.lookup, exprTree, exprTrees_eq, hf1 f (by omega)]
                simp [record]
              · cases h
            · cases h
        · cases h
      · rename_i h1
        split at h
        · rename_i ht
          have ha := absent_iff ht
          split at h
          · cases h
          · rename_i gs hg
            simp only [Option.bind_eq_some_iff] at hg
            obtain ⟨b, h2, hg⟩ := hg
            split at h
            · rename_i hu
              have hb := absent_iff hu
              split at h
              · rename_i name ps h3 h4
                simp at h; subst h
                simp only [Option.bind_eq_some_iff] at h4
                obtain ⟨pb, h4, h4'⟩ := h4
                have m2 := many_reqBytes h2
                have m3 := many_reqBytes h3
                have m4 := many_repBytes h4
                have hl := inner_length hr (t := 6) (b := b) (by simp [m2])
                have hf1 : Reads .Expr_Operator b (record [("name", [.bytes name]), ("param", ps.map exprTree)]) := by
                  refine reads_intro hg hu (by decide) fun f hf => ?_
                  have hp := decodeAll_each (m := .Expr_Expr) (sub := readTree f) (tr := exprTree) h4' fun x hx y hy =>
                    ih x hy f (by have := inner_length hg (t := 2) (b := x) (by simp [m4, hx]); omega)
                  simp [fields, each, readDecl, m3, m4, hp, allowed, readValue]
                refine reads_intro hr ht (by decide) fun f hf => ?_
                simp [fields, each, readDecl, many_reqVarint h1, m2, ha, readValue, allowed, values, List.lookup, exprTree, exprTrees_eq, hf1 f (by omega)]
                simp [record]
              · cases h
            · cases h
        · cases h
      · rename_i h1
        split at h
        · rename_i ht
          have ha := absent_iff ht
          split at h
          · rename_i n h2
            split at h
            · rename_i hn
              simp at h; subst h
              simp at hn
              refine reads_intro hr ht (by decide) fun f hf => ?_
              simp [fields, each, readDecl, many_reqVarint h1, many_reqVarint h2, ha, readValue, allowed, values, List.lookup, exprTree, record, hn]
            · cases h
          · cases h
        · cases h
      · cases h

theorem decodeExpr_reads {e : PExpr} (h : decodeExpr bs = some e) : Reads .Expr_Expr bs (exprTree e) := expr_reads _ bs h

theorem collection_reads {name : Bytes} (h : decodeName bs = some name) : Reads .Crud_Collection bs (record [("name", [.bytes name])]) := by
  simp only [decodeName] at h
  split at h
  · cases h
  · rename_i fs hr
    split at h
    · rename_i ht
      have ha := absent_iff ht
      refine reads_intro hr ht (by decide) fun f hf => ?_
      simp [fields, each, readDecl, many_reqBytes h, ha, readValue, allowed, record]
    · cases h

theorem column_reads {name : Bytes} (h : decodeName bs = some name) : Reads .Crud_Column bs (record [("name", [.bytes name])]) := by
  simp only [decodeName] at h
  split at h
  · cases h
  · rename_i fs hr
    split at h
    · rename_i ht
      have ha := absent_iff ht
      refine reads_intro hr ht (by decide) fun f hf => ?_
      simp [fields, each, readDecl, many_reqBytes h, ha, readValue, allowed, record]
    · cases h

/-- A repeated field of messages that the reader reads. -/
theorem each_reads {α : Type} {d : Bytes → Option α} {tr : α → Tree} {m : Msg} {l : List Bytes} {xs : List α} {f : Nat}
    (hr : readFields bs = some fs) (hl : many fs t = l.map .bytes) (hf : bs.length ≤ f) (h : decodeAll d l = some xs)
    (hd : ∀ b x, d b = some x → Reads m b (tr x)) :
    each (readValue (readTree f) (.msg m)) (l.map .bytes) = some (xs.map tr) :=
  decodeAll_each h fun b hb x hx => hd b x hx f (by have := inner_length hr (t := t) (b := b) (by simp [hl, hb]); omega)

theorem row_reads {es : List PExpr} (h : decodeRow bs = some es) : Reads .Crud_Insert_TypedRow bs (record [("field", es.map exprTree)]) := by
  simp only [decodeRow] at h
  split at h
  · cases h
  · rename_i fs hr
    split at h
    · rename_i ht
      simp only [Option.bind_eq_some_iff] at h
      obtain ⟨l, h1, h2⟩ := h
      have m1 := many_repBytes h1
      refine reads_intro hr ht (by decide) fun f hf => ?_
      have := each_reads hr m1 hf h2 fun b x hx => decodeExpr_reads hx
      simp [fields, each, readDecl, m1, this, allowed]
    · cases h

theorem model_reads {dm : Option Nat} {sub : Msg → Bytes → Option Tree} (h : optDataModel fs t = some dm) :
    each (readValue sub (.enum .Crud_DataModel)) (many fs t) = some (modelTree dm) ∧ (modelTree dm).length ≤ 1 := by
  simp only [optDataModel] at h
  split at h
  · rename_i h1
    simp at h; subst h
    simp [many_optVarint h1, each, modelTree]
  · rename_i n h1
    split at h
    · rename_i hn
      simp at h; subst h
      rcases hn with rfl | rfl <;> simp [many_optVarint h1, each, modelTree, readValue, values, List.lookup]
    · cases h
  · cases h

theorem optExpr_reads {e : Option PExpr} {f : Nat} (hr : readFields bs = some fs) (hf : bs.length ≤ f) (h : optExpr fs t = some e) :
    each (readValue (readTree f) (.msg .Expr_Expr)) (many fs t) = some (e.toList.map exprTree) ∧ e.toList.length ≤ 1 := by
  simp only [optExpr] at h
  split at h
  · rename_i h1
    simp at h; subst h
    simp [many_optBytes' h1, each]
  · rename_i b h1
    simp only [Option.map_eq_some_iff] at h
    obtain ⟨x, hx, rfl⟩ := h
    have m1 := many_optBytes' h1
    have hl := inner_length hr (t := t) (b := b) (by simp [m1])
    simp [m1, each, readValue, decodeExpr_reads hx f (by omega)]
  · cases h

theorem insert_reads {m : ClientMsg} (h : decodeInsert bs = some m) : (messageTree m).1 = .Crud_Insert ∧ Reads .Crud_Insert bs (messageTree m).2 := by
  simp only [decodeInsert] at h
  split at h
  · cases h
  · rename_i fs hr
    split at h
    · rename_i ht
      have ha := absent_iff ht
      split at h
      · rename_i name dm cs rs h1 h2 h3 h4
        simp at h; subst h
        simp only [Option.bind_eq_some_iff] at h1 h3 h4
        obtain ⟨nb, h1, h1'⟩ := h1
        obtain ⟨lc, h3, h3'⟩ := h3
        obtain ⟨lr, h4, h4'⟩ := h4
        have m1 := many_reqBytes h1
        have m3 := many_repBytes h3
        have m4 := many_repBytes h4
        have hl := inner_length hr (t := 1) (b := nb) (by simp [m1])
        refine ⟨rfl, reads_intro hr ht (by decide) fun f hf => ?_⟩
        have d2 := model_reads (sub := readTree f) h2
        have e3 := each_reads hr m3 hf h3' fun b x hx => column_reads hx
        have e4 := each_reads hr m4 hf h4' fun b x hx => row_reads hx
        simp only [messageTree]
        simp [fields, each, readDecl, m1, m3, m4, d2, e3, e4, ha, allowed, readValue, collection_reads h1' f (by omega)]
        simp [record, List.filter_cons]
      · cases h
    · cases h

theorem set_reads {s : Bytes × PExpr} (h : decodeSet bs = some s) : Reads .Crud_UpdateOperation bs
    (record [("source", [record [("name", [.bytes s.1])]]), ("operation", [.enum "SET"]), ("value", [exprTree s.2])]) := by
  simp only [decodeSet] at h
  split at h
  · cases h
  · rename_i fs hr
    split at h
    · rename_i ht
      simp only [Bool.and_eq_true, beq_iff_eq] at ht
      have ha := absent_iff ht.1
      split at h
      · rename_i c e h1 h2
        simp at h; subst h
        simp only [Option.bind_eq_some_iff] at h1 h2
        obtain ⟨cb, h1, h1'⟩ := h1
        obtain ⟨eb, h2, h2'⟩ := h2
        have m1 := many_reqBytes h1
        have m2 := many_reqBytes h2
        have l1 := inner_length hr (t := 1) (b := cb) (by simp [m1])
        have l2 := inner_length hr (t := 3) (b := eb) (by simp [m2])
        refine reads_intro hr ht.1 (by decide) fun f hf => ?_
        simp [fields, each, readDecl, m1, m2, many_reqVarint ht.2, allowed, readValue, values,
          columnIdentifier_reads h1' f (by omega), decodeExpr_reads h2' f (by omega)]
      · cases h
    · cases h

theorem update_reads {m : ClientMsg} (h : decodeUpdate bs = some m) : (messageTree m).1 = .Crud_Update ∧ Reads .Crud_Update bs (messageTree m).2 := by
  simp only [decodeUpdate] at h
  split at h
  · cases h
  · rename_i fs hr
    split at h
    · rename_i ht
      have ha := absent_iff ht
      split at h
      · rename_i name dm cr ops h1 h2 h3 h4
        simp at h; subst h
        simp only [Option.bind_eq_some_iff] at h1 h4
        obtain ⟨nb, h1, h1'⟩ := h1
        obtain ⟨lr, h4, h4'⟩ := h4
        have m1 := many_reqBytes h1
        have m4 := many_repBytes h4
        have hl := inner_length hr (t := 2) (b := nb) (by simp [m1])
        refine ⟨rfl, reads_intro hr ht (by decide) fun f hf => ?_⟩
        have d2 := model_reads (sub := readTree f) h2
        have d3 := optExpr_reads hr hf h3
        have e4 := each_reads hr m4 hf h4' fun b x hx => set_reads hx
        simp only [messageTree]
        simp [fields, each, readDecl, m1, m4, d2, d3, e4, ha, allowed, readValue, collection_reads h1' f (by omega)]
        simp [record, List.filter_cons]
      · cases h
    · cases h

theorem delete_reads {m : ClientMsg} (h : decodeDelete bs = some m) : (messageTree m).1 = .Crud_Delete ∧ Reads .Crud_Delete bs (messageTree m).2 := by
  simp only [decodeDelete] at h
  split at h
  · cases h
  · rename_i fs hr
    split at h
    · rename_i ht
      have ha := absent_iff ht
      split at h
      · rename_i name dm cr h1 h2 h3
        simp at h; subst h
        simp only [Option.bind_eq_some_iff] at h1
        obtain ⟨nb, h1, h1'⟩ := h1
        have m1 := many_reqBytes h1
        have hl := inner_length hr (t := 1) (b := nb) (by simp [m1])
        refine ⟨rfl, reads_intro hr ht (by decide) fun f hf => ?_⟩
        have d2 := model_reads (sub := readTree f) h2
        have d3 := optExpr_reads hr hf h3
        simp only [messageTree]
        simp [fields, each, readDecl, m1, d2, d3, ha, allowed, readValue, collection_reads h1' f (by omega)]
        simp [record, List.filter_cons]
      · cases h
    · cases h

theorem reqUint32_some {n : Nat} (h : reqUint32 fs t = some n) : many fs t = [.varint n] ∧ n < 2 ^ 32 := by
  simp only [reqUint32] at h
  split at h
  · rename_i h1
    split at h
    · simp at h; subst h; exact ⟨many_reqVarint h1, ‹_›⟩
    · cases h
  · cases h

theorem cond_reads {c : Nat × Bytes} (h : decodeCond bs = some c) : Reads .Expect_Open_Condition bs
    (record [("condition_key", [.nat c.1]), ("condition_value", [.bytes c.2])]) := by
  simp only [decodeCond] at h
  split at h
  · cases h
  · rename_i fs hr
    split at h
    · rename_i ht
      have ha := absent_iff ht
      split at h
      · rename_i k v h1 h2
        simp at h; subst h
        have m1 := reqUint32_some h1
        refine reads_intro hr ht (by decide) fun f hf => ?_
        simp at m1
        simp [fields, each, readDecl, m1, many_reqBytes h2, ha, allowed, readValue]
        simp [record]
      · cases h
    · cases h

theorem expectOpen_reads {m : ClientMsg} (h : decodeExpectOpen bs = some m) : (messageTree m).1 = .Expect_Open ∧ Reads .Expect_Open bs (messageTree m).2 := by
  simp only [decodeExpectOpen] at h
  split at h
  · cases h
  · rename_i fs hr
    split at h
    · rename_i ht
      split at h
      · rename_i op cs h1 h2
        split at h
        · rename_i ho
          simp at h; subst h
          simp only [Option.bind_eq_some_iff] at h2
          obtain ⟨l, h2, h2'⟩ := h2
          have m2 := many_repBytes h2
          refine ⟨rfl, reads_intro hr ht (by decide) fun f hf => ?_⟩
          have e2 := each_reads hr m2 hf h2' fun b x hx => cond_reads hx
          simp only [messageTree]
          have : op = 0 ∨ op = 1 := by omega
          rcases this with rfl | rfl <;>
            simp [fields, each, readDecl, m2, e2, many_reqVarint h1, allowed, readValue, values, List.lookup, opTree]
        · cases h
      · cases h
    · cases h

theorem stmtExecute_reads {m : ClientMsg} (h : decodeStmtExecute bs = some m) :
    (messageTree m).1 = .Sql_StmtExecute ∧ Reads .Sql_StmtExecute bs (messageTree m).2 := by
  simp only [decodeStmtExecute] at h
  split at h
  · cases h
  · rename_i fs hr
    split at h
    · rename_i ht
      have ha := absent_iff ht
      split at h
      · rename_i s as h1 h2
        simp at h; subst h
        simp only [Option.bind_eq_some_iff] at h2
        obtain ⟨l, h2, h2'⟩ := h2
        have m2 := many_repBytes h2
        refine ⟨rfl, reads_intro hr ht (by decide) fun f hf => ?_⟩
        have e2 := each_reads hr m2 hf h2' fun b x hx => any_reads hx
        simp only [messageTree]
        simp [fields, each, readDecl, many_reqBytes h1, m2, e2, ha, allowed, readValue]
        simp [record, List.filter_cons]
      · cases h
    · cases h

theorem oneOf_reads {s : Bytes} (h : decodeOneOf bs = some s) : Reads .Prepare_Prepare_OneOfMessage bs
    (record [("type", [.enum "STMT"]), ("stmt_execute", [record [("stmt", [.bytes s])]])]) := by
  simp only [decodeOneOf] at h
  split at h
  · cases h
  · rename_i fs hr
    split at h
    · rename_i ht
      simp only [Bool.and_eq_true, beq_iff_eq] at ht
      have ha := absent_iff ht.1
      split at h
      · rename_i s h1
        simp at h; subst h
        simp only [Option.bind_eq_some_iff] at h1
        obtain ⟨b, h1, h2⟩ := h1
        have m1 := many_reqBytes h1
        have hl := inner_length hr (t := 6) (b := b) (by simp [m1])
        have := (stmtExecute_reads h2).2
        refine reads_intro hr ht.1 (by decide) fun f hf => ?_
        simp [fields, each, readDecl, many_reqVarint ht.2, m1, ha, allowed, readValue, values, List.lookup, this f (by omega), messageTree]
        simp [record]
      · cases h
    · cases h

theorem prepare_reads {m : ClientMsg} (h : decodePrepare bs = some m) : (messageTree m).1 = .Prepare_Prepare ∧ Reads .Prepare_Prepare bs (messageTree m).2 := by
  simp only [decodePrepare] at h
  split at h
  · cases h
  · rename_i fs hr
    split at h
    · rename_i ht
      split at h
      · rename_i id s h1 h2
        simp at h; subst h
        simp only [Option.bind_eq_some_iff] at h2
        obtain ⟨b, h2, h2'⟩ := h2
        have m1 := reqUint32_some h1
        have m2 := many_reqBytes h2
        have hl := inner_length hr (t := 2) (b := b) (by simp [m2])
        refine ⟨rfl, reads_intro hr ht (by decide) fun f hf => ?_⟩
        simp at m1
        simp [fields, each, readDecl, m1, m2, allowed, readValue, oneOf_reads h2' f (by omega), messageTree]
      · cases h
    · cases h

theorem execute_reads {m : ClientMsg} (h : decodeExecute bs = some m) : (messageTree m).1 = .Prepare_Execute ∧ Reads .Prepare_Execute bs (messageTree m).2 := by
  simp only [decodeExecute] at h
  split at h
  · cases h
  · rename_i fs hr
    split at h
    · rename_i ht
      have ha := absent_iff ht
      split at h
      · rename_i id as h1 h2
        simp at h; subst h
        simp only [Option.bind_eq_some_iff] at h2
        obtain ⟨l, h2, h2'⟩ := h2
        have m1 := reqUint32_some h1
        have m2 := many_repBytes h2
        refine ⟨rfl, reads_intro hr ht (by decide) fun f hf => ?_⟩
        have e2 := each_reads hr m2 hf h2' fun b x hx => any_reads hx
        simp at m1
        simp only [messageTree]
        simp [fields, each, readDecl, m1, m2, e2, ha, allowed, readValue]
        simp [record, List.filter_cons]
      · cases h
    · cases h

theorem deallocate_reads {m : ClientMsg} (h : decodeDeallocate bs = some m) :
    (messageTree m).1 = .Prepare_Deallocate ∧ Reads .Prepare_Deallocate bs (messageTree m).2 := by
  simp only [decodeDeallocate] at h
  split at h
  · cases h
  · rename_i fs hr
    split at h
    · rename_i ht
      simp only [Option.map_eq_some_iff] at h
      obtain ⟨id, h1, rfl⟩ := h
      have m1 := reqUint32_some h1
      simp at m1
      refine ⟨rfl, reads_intro hr ht (by decide) fun f hf => ?_⟩
      simp [fields, each, readDecl, m1, allowed, readValue, messageTree]
    · cases h

theorem reset_reads {m : ClientMsg} (h : decodeReset bs = some m) : (messageTree m).1 = .Session_Reset ∧ Reads .Session_Reset bs (messageTree m).2 := by
  simp only [decodeReset] at h
  split at h
  · cases h
  · rename_i fs hr
    split at h
    · rename_i ht
      split at h
      all_goals first | (cases h; done) | skip
      all_goals
        rename_i h1
        simp at h; subst h
        refine ⟨rfl, reads_intro hr ht (by decide) fun f hf => ?_⟩
        simp [fields, each, readDecl, many_optVarint h1, allowed, readValue, messageTree]
    · cases h

theorem authStart_reads {m : ClientMsg} (h : decodeAuthStart bs = some m) :
    (messageTree m).1 = .Session_AuthenticateStart ∧ Reads .Session_AuthenticateStart bs (messageTree m).2 := by
  simp only [decodeAuthStart] at h
  split at h
  · cases h
  · rename_i fs hr
    split at h
    · rename_i ht
      have ha := absent_iff ht
      split at h
      · rename_i n d h1 h2
        simp at h; subst h
        refine ⟨rfl, reads_intro hr ht (by decide) fun f hf => ?_⟩
        have m2 := many_optBytes' h2
        cases d <;> simp [fields, each, readDecl, many_reqBytes h1, m2, ha, allowed, readValue, messageTree, record]
      · cases h
    · cases h

theorem authContinue_reads {m : ClientMsg} (h : decodeAuthContinue bs = some m) :
    (messageTree m).1 = .Session_AuthenticateContinue ∧ Reads .Session_AuthenticateContinue bs (messageTree m).2 := by
  simp only [decodeAuthContinue] at h
  split at h
  · cases h
  · rename_i fs hr
    split at h
    · rename_i ht
      simp only [Option.map_eq_some_iff] at h
      obtain ⟨d, h1, rfl⟩ := h
      refine ⟨rfl, reads_intro hr ht (by decide) fun f hf => ?_⟩
      simp [fields, each, readDecl, many_reqBytes h1, allowed, readValue, messageTree]
    · cases h

theorem capability_reads {c : Bytes × PScalar} (h : decodeCapability bs = some c) : Reads .Connection_Capability bs
    (record [("name", [.bytes c.1]), ("value", [anyTree c.2])]) := by
  simp only [decodeCapability] at h
  split at h
  · cases h
  · rename_i fs hr
    split at h
    · rename_i ht
      split at h
      · rename_i n v h1 h2
        simp at h; subst h
        simp only [Option.bind_eq_some_iff] at h2
        obtain ⟨b, h2, h2'⟩ := h2
        have m2 := many_reqBytes h2
        have hl := inner_length hr (t := 2) (b := b) (by simp [m2])
        refine reads_intro hr ht (by decide) fun f hf => ?_
        simp [fields, each, readDecl, many_reqBytes h1, m2, allowed, readValue, any_reads h2' f (by omega)]
      · cases h
    · cases h

theorem capabilities_reads {cs : List (Bytes × PScalar)} (h : decodeCapabilities bs = some cs) : Reads .Connection_Capabilities bs
    (record [("capabilities", cs.map fun c => record [("name", [.bytes c.1]), ("value", [anyTree c.2])])]) := by
  simp only [decodeCapabilities] at h
  split at h
  · cases h
  · rename_i fs hr
    split at h
    · rename_i ht
      simp only [Option.bind_eq_some_iff] at h
      obtain ⟨l, h1, h2⟩ := h
      have m1 := many_repBytes h1
      refine reads_intro hr ht (by decide) fun f hf => ?_
      have := each_reads hr m1 hf h2 fun b x hx => capability_reads hx
      simp [fields, each, readDecl, m1, this, allowed]
    · cases h

theorem capabilitiesSet_reads {m : ClientMsg} (h : decodeCapabilitiesSet bs = some m) :
    (messageTree m).1 = .Connection_CapabilitiesSet ∧ Reads .Connection_CapabilitiesSet bs (messageTree m).2 := by
  simp only [decodeCapabilitiesSet] at h
  split at h
  · cases h
  · rename_i fs hr
    split at h
    · rename_i ht
      simp only [Option.map_eq_some_iff, Option.bind_eq_some_iff] at h
      obtain ⟨cs, ⟨b, h1, h2⟩, rfl⟩ := h
      have m1 := many_reqBytes h1
      have hl := inner_length hr (t := 1) (b := b) (by simp [m1])
      refine ⟨rfl, reads_intro hr ht (by decide) fun f hf => ?_⟩
      simp [fields, each, readDecl, m1, allowed, readValue, capabilities_reads h2 f (by omega), messageTree]
    · cases h

/-- What the hand-written readers accept is valid under the .proto files, and says what `messageTree` says. -/
theorem decodeMsg_reads {type : UInt8} {m : ClientMsg} (h : decodeMsg type bs = some m) : readMessage type bs = some (messageTree m) := by
  have key : ∀ {M : Msg}, clientMessage type.toNat = some M → (messageTree m).1 = M ∧ Reads M bs (messageTree m).2 →
      readMessage type bs = some (messageTree m) := by
    intro M hc ⟨h1, h2⟩
    rw [readMessage, hc]
    simp only [h2 (bs.length + 1) (by omega), Option.map_some]
    rw [← h1]
  simp only [decodeMsg] at h
  split at h <;> rename_i ht
  · exact key (by rw [ht]; rfl) (capabilitiesSet_reads h)
  · exact key (by rw [ht]; rfl) (authStart_reads h)
  · exact key (by rw [ht]; rfl) (authContinue_reads h)
  · exact key (by rw [ht]; rfl) (reset_reads h)
  · exact key (by rw [ht]; rfl) (stmtExecute_reads h)
  · exact key (by rw [ht]; rfl) (insert_reads h)
  · exact key (by rw [ht]; rfl) (update_reads h)
  · exact key (by rw [ht]; rfl) (delete_reads h)
  · exact key (by rw [ht]; rfl) (expectOpen_reads h)
  · split at h
    · simp at h; subst h
      refine key (M := .Expect_Close) (by rw [ht]; rfl) ⟨rfl, ?_⟩
      refine reads_intro (ts := []) (fs := []) (by rfl) (by rfl) (by decide) fun f hf => ?_
      simp [fields, each, messageTree]
    · cases h
  · exact key (by rw [ht]; rfl) (prepare_reads h)
  · exact key (by rw [ht]; rfl) (execute_reads h)
  · exact key (by rw [ht]; rfl) (deallocate_reads h)
  · cases h

theorem stream_reads {ms : List ClientMsg} (h : decodeStream bs = some ms) : readStream bs = some (ms.map messageTree) := by
  simp only [decodeStream, Option.bind_eq_some_iff] at h
  obtain ⟨frs, hf, h⟩ := h
  rw [readStream, hf, Option.bind_some]
  clear hf
  induction frs generalizing ms with
  | nil => simp at h; subst h; rfl
  | cons fr frs ih =>
    simp only [List.foldr_cons] at h
    split at h
    · rename_i m ms' h1 h2
      simp at h; subst h
      simp [each, decodeMsg_reads h1, ih h2]
    · cases h

end Verif.Proof
