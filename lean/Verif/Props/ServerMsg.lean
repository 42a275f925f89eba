import Verif.Spec.ServerMsg
import Verif.Proof.Unmarshal
import Verif.Props.Connection
/-! C63: the client understands the server's messages as the .proto files declare them. -/
namespace Verif.Props
open Verif.Go Verif.Spec Verif.Spec.Schema Verif.Model Verif.Proof

/-! ### declared fields -/

section
variable {sub : Msg → Bytes → Option Tree} {fs : List Field} {nm : String} {num : Nat} {x : String × List Tree}

theorem each_single {α β : Type} {f : α → Option β} {l : List α} {vs : List β} (h : each f l = some vs) (hl : vs.length = 1) :
    ∃ a b, l = [a] ∧ vs = [b] ∧ f a = some b := by
  cases l with
  | nil => simp [each] at h; subst h; cases hl
  | cons a as =>
    rw [each] at h
    split at h
    · rename_i b bs hb hs
      cases h
      cases as with
      | nil => simp [each] at hs; subst hs; exact ⟨a, b, rfl, rfl, hb⟩
      | cons c cs =>
        rw [each] at hs
        split at hs
        · cases hs; simp at hl
        · cases hs
    · cases h

theorem decl_required {ty : Ty} (h : readDecl sub fs ⟨nm, num, .required, ty⟩ = some x) :
    ∃ v t, many fs num = [v] ∧ readValue sub ty v = some t ∧ x = (nm, [t]) := by
  rw [readDecl] at h
  split at h
  · rename_i vs hv
    split at h
    · rename_i ha
      cases h
      obtain ⟨a, b, h1, h2, h3⟩ := each_single hv (by simpa [allowed] using ha)
      exact ⟨a, b, h1, h3, by rw [h2]⟩
    · cases h
  · cases h

theorem decl_optional {ty : Ty} (h : readDecl sub fs ⟨nm, num, .optional, ty⟩ = some x) :
    (many fs num = [] ∧ x = (nm, [])) ∨ ∃ v t, many fs num = [v] ∧ readValue sub ty v = some t ∧ x = (nm, [t]) := by
  rw [readDecl] at h
  split at h
  · rename_i vs hv
    split at h
    · rename_i ha
      cases h
      have ha : vs.length ≤ 1 := by simpa [allowed] using ha
      by_cases h0 : vs.length = 1
      · obtain ⟨a, b, h1, h2, h3⟩ := each_single hv h0
        exact .inr ⟨a, b, h1, h3, by rw [h2]⟩
      · left
        obtain rfl : vs = [] := List.eq_nil_of_length_eq_zero (by omega)
        refine ⟨?_, rfl⟩
        cases hm : many fs num with
        | nil => rfl
        | cons a as =>
          dsimp only at hv
          rw [hm, each] at hv
          split at hv <;> cases hv
    · cases h
  · cases h

theorem value_uint32 {v : WireVal} {t : Tree} (h : readValue sub .uint32 v = some t) : ∃ n, v = .varint n ∧ n < 2 ^ 32 ∧ t = .nat n := by
  cases v <;> simp [readValue] at h
  exact ⟨_, rfl, h.1, h.2.symm⟩

theorem value_bytes {v : WireVal} {t : Tree} (h : readValue sub .bytes v = some t ∨ readValue sub .string v = some t) :
    ∃ b, v = .bytes b ∧ t = .bytes b := by
  rcases h with h | h <;> cases v <;> simp [readValue] at h <;> exact ⟨_, rfl, h.symm⟩

theorem value_enum {v : WireVal} {t : Tree} {e : Enum} (h : readValue sub (.enum e) v = some t) :
    ∃ n s, v = .varint n ∧ (values e).lookup n = some s ∧ t = .enum s := by
  cases v <;> simp [readValue] at h
  obtain ⟨s, h1, h2⟩ := h
  exact ⟨_, s, rfl, h1, h2.symm⟩

theorem each_cons_some {α β : Type} {f : α → Option β} {a : α} {as : List α} {ys : List β} (h : each f (a :: as) = some ys) :
    ∃ b bs, f a = some b ∧ each f as = some bs ∧ ys = b :: bs := by
  rw [each] at h
  split at h
  · rename_i b bs h1 h2
    cases h
    exact ⟨b, bs, h1, h2, rfl⟩
  · cases h

end

theorem readTree_some {k : Nat} {m : Msg} {p : Bytes} {t : Tree} (h : readTree (k + 1) m p = some t) :
    ∃ fs xs, readFields p = some fs ∧ each (readDecl (readTree k) fs) (fields m) = some xs ∧ t = record xs := by
  rw [readTree] at h
  split at h
  · cases h
  · rename_i fs hf
    split at h
    · obtain ⟨xs, h1, h2⟩ := Option.map_eq_some_iff.mp h
      exact ⟨fs, xs, hf, h1, h2.symm⟩
    · cases h

theorem nonempty_of_many {p : Bytes} {fs : List Field} (h : readFields p = some fs) {n : Nat} {v : WireVal} (hm : many fs n = [v]) : p ≠ [] := by
  rintro rfl
  cases h
  cases hm

/-! ### the decoder -/

/-- The decoder on fields as they come: values as they are, whatever other fields there are and in whatever order. -/
theorem C63_error {p : Bytes} {fs : List Field} (h : readFields p = some fs) {code : Nat} {state msg : Bytes} {sev : Option Nat}
    (h1 : optVarint fs 1 = some sev) (h2 : reqVarint fs 2 = some code) (h3 : reqBytes fs 3 = some msg) (h4 : reqBytes fs 4 = some state) :
    Pb.codec.error p = some ⟨sev.getD 0 % 2 ^ 32, code % 2 ^ 32, state, msg⟩ := by
  show Pb.unmarshalError p = _
  rw [Pb.unmarshalError, scan_fields h]
  dsimp only
  rw [last_some (y := .varint code) fs (many_reqVarint h2) (by simp [keep, Pb.errorFields]),
    last_some (y := .bytes state) fs (many_reqBytes h4) (by simp [keep, Pb.errorFields]),
    last_some (y := .bytes msg) fs (many_reqBytes h3) (by simp [keep, Pb.errorFields])]
  dsimp only
  cases sev with
  | none => rw [last_none fs (many_optVarint h1)]; rfl
  | some s => rw [last_some (y := .varint s) fs (many_optVarint h1) (by simp [keep, Pb.errorFields])]; rfl

/-- A message without one of the required fields is refused. -/
theorem C63_required {p : Bytes} {fs : List Field} (h : readFields p = some fs) :
    (many fs 2 = [] ∨ many fs 3 = [] ∨ many fs 4 = [] → Pb.codec.error p = none) ∧
    (many fs 1 = [] → Pb.codec.columnMeta p = false ∧ Pb.codec.authContinue p = none) := by
  constructor
  · intro hm
    show Pb.unmarshalError p = none
    rw [Pb.unmarshalError, scan_fields h]
    dsimp only
    rcases hm with hm | hm | hm
    · rw [last_none fs hm]
    · rw [last_none (n := 3) fs hm]
      split
      · contradiction
      · rfl
    · rw [last_none (n := 4) fs hm]
      split
      · contradiction
      · rfl
  · intro hm
    refine ⟨?_, ?_⟩
    · show Pb.unmarshalMeta p = false
      rw [Pb.unmarshalMeta, scan_fields h]
      dsimp only
      rw [last_none fs hm]; rfl
    · show Pb.unmarshalContinue p = none
      rw [Pb.unmarshalContinue, scan_fields h]
      dsimp only
      rw [last_none fs hm]

theorem last_mem {known : Nat → Option Nat} {fs : List Field} {n : Nat} {y : Pb.Stored} (h : Pb.last n (fs.filterMap (keep known)) = some y) :
    ∃ v, (n, v) ∈ fs ∧ keep known (n, v) = some (n, y) := by
  have hm : (n, y) ∈ fs.filterMap (keep known) := by
    rw [Pb.last, List.lookup_eq_some_iff] at h
    obtain ⟨l1, l2, h, _⟩ := h
    rw [← List.mem_reverse, h]
    simp
  obtain ⟨⟨m, v⟩, h1, h2⟩ := List.mem_filterMap.mp hm
  have : m = n := by
    cases v <;> simp [keep] at h2 <;> exact h2.2.1
  subst this
  exact ⟨v, h1, h2⟩

/-- Nothing is made up: the parts of a decoded error are values of the message's fields (the number modulo 2^32). -/
theorem C63_no_invention {p : Bytes} {fs : List Field} (h : readFields p = some fs) {e : SrvError} (he : Pb.codec.error p = some e) :
    (∃ n, (2, .varint n) ∈ fs ∧ e.code = n % 2 ^ 32) ∧ (3, .bytes e.msg) ∈ fs ∧ (4, .bytes e.sqlState) ∈ fs ∧
    (e.severity ≠ 0 → ∃ n, (1, .varint n) ∈ fs ∧ e.severity = n % 2 ^ 32) := by
  change Pb.unmarshalError p = _ at he
  rw [Pb.unmarshalError, scan_fields h] at he
  dsimp only at he
  split at he
  · rename_i code state msg h2 h4 h3
    cases he
    obtain ⟨v2, m2, k2⟩ := last_mem h2
    obtain ⟨v3, m3, k3⟩ := last_mem h3
    obtain ⟨v4, m4, k4⟩ := last_mem h4
    refine ⟨?_, ?_, ?_, ?_⟩
    · cases v2 <;> simp [keep] at k2
      exact ⟨_, m2, by rw [k2.2]⟩
    · cases v3 <;> simp [keep] at k3
      rw [← k3.2]; exact m3
    · cases v4 <;> simp [keep] at k4
      rw [← k4.2]; exact m4
    · intro hne
      dsimp only at hne ⊢
      split at hne
      · rename_i s h1
        obtain ⟨v1, m1, k1⟩ := last_mem h1
        cases v1 <;> simp [keep] at k1
        rw [k1.2] at m1
        exact ⟨_, m1, rfl⟩
      · exact absurd rfl hne
  · cases he

/-- The hypothesis of C29, C31, C38-C40 about the decoder is met by golang/protobuf. -/
theorem C63_rejects : RejectsHeaders Pb.codec := fun _ => ⟨rfl, rfl, rfl⟩

/-- **C63**, errors: a message that reads as a Mysqlx.Error under the .proto files is decoded to exactly the severity,
code, SQL state and text in it. -/
theorem C63_error_exact {p : Bytes} {t : Tree} (h : ReadsAs .Error p t) : ∃ e, ErrorTree t e ∧ Pb.codec.error p = some e ∧ p ≠ [] := by
  obtain ⟨fs, xs, h1, h2, rfl⟩ := readTree_some h
  rw [fields] at h2
  obtain ⟨x1, xs1, d1, e1, rfl⟩ := each_cons_some h2
  obtain ⟨x2, xs2, d2, e2, rfl⟩ := each_cons_some e1
  obtain ⟨x3, xs3, d3, e3, rfl⟩ := each_cons_some e2
  obtain ⟨x4, xs4, d4, e4, rfl⟩ := each_cons_some e3
  cases e4
  obtain ⟨v2, t2, m2, r2, rfl⟩ := decl_required d2
  obtain ⟨v3, t3, m3, r3, rfl⟩ := decl_required d3
  obtain ⟨v4, t4, m4, r4, rfl⟩ := decl_required d4
  obtain ⟨code, rfl, hc, rfl⟩ := value_uint32 r2
  obtain ⟨state, rfl, rfl⟩ := value_bytes (.inr r3)
  obtain ⟨msg, rfl, rfl⟩ := value_bytes (.inr r4)
  have hd : ∀ sev, optVarint fs 1 = some sev → Pb.codec.error p = some ⟨sev.getD 0 % 2 ^ 32, code, state, msg⟩ := by
    intro sev hs
    rw [C63_error h1 hs (by rw [reqVarint, single, m2]) (by rw [reqBytes, single, m4]) (by rw [reqBytes, single, m3]),
      Nat.mod_eq_of_lt hc]
  have hp := nonempty_of_many h1 m2
  rcases decl_optional d1 with ⟨m1, rfl⟩ | ⟨v1, t1, m1, r1, rfl⟩
  · exact ⟨_, .plain, hd none (by rw [optVarint, single, m1]), hp⟩
  · obtain ⟨n, s, rfl, hl, rfl⟩ := value_enum r1
    have hs : optVarint fs 1 = some (some n) := by rw [optVarint, single, m1]
    have := hd _ hs
    simp only [values, List.lookup_cons, List.lookup_nil] at hl
    split at hl
    · rename_i h0
      cases hl
      have : n = 0 := by simpa using h0
      subst this
      exact ⟨_, .error, this, hp⟩
    · split at hl
      · rename_i h0
        cases hl
        have : n = 1 := by simpa using h0
        subst this
        exact ⟨_, .fatal, this, hp⟩
      · cases hl

/-- **C63**, the challenge of an authentication. -/
theorem C63_continue_exact {p : Bytes} {t : Tree} (h : ReadsAs .Session_AuthenticateContinue p t) :
    ∃ data, t = .msg [("auth_data", [.bytes data])] ∧ Pb.codec.authContinue p = some data ∧ p ≠ [] := by
  obtain ⟨fs, xs, h1, h2, rfl⟩ := readTree_some h
  rw [fields] at h2
  obtain ⟨x1, xs1, d1, e1, rfl⟩ := each_cons_some h2
  cases e1
  obtain ⟨v, t, m1, r1, rfl⟩ := decl_required d1
  obtain ⟨b, rfl, rfl⟩ := value_bytes (.inl r1)
  refine ⟨b, rfl, ?_, nonempty_of_many h1 m1⟩
  show Pb.unmarshalContinue p = _
  rw [Pb.unmarshalContinue, scan_fields h1]
  dsimp only
  rw [last_some (y := .bytes b) fs m1 (by simp [keep, Pb.continueFields])]

/-- **C63**, metadata that is well-formed is accepted. -/
theorem C63_meta_accepted {p : Bytes} {t : Tree} (h : ReadsAs .Resultset_ColumnMetaData p t) : Pb.codec.columnMeta p = true ∧ p ≠ [] := by
  obtain ⟨fs, xs, h1, h2, rfl⟩ := readTree_some h
  rw [fields] at h2
  obtain ⟨x1, xs1, d1, e1, rfl⟩ := each_cons_some h2
  obtain ⟨v, t, m1, r1, rfl⟩ := decl_required d1
  obtain ⟨n, s, rfl, _, rfl⟩ := value_enum r1
  refine ⟨?_, nonempty_of_many h1 m1⟩
  show Pb.unmarshalMeta p = _
  rw [Pb.unmarshalMeta, scan_fields h1]
  dsimp only
  rw [last_some (y := .varint n) fs m1 (by simp [keep, Pb.metaFields])]; rfl

theorem errorTree_unique {t : Tree} {e e' : SrvError} (h : ErrorTree t e) (h' : ErrorTree t e') : e = e' := by
  cases h <;> (generalize ht : Tree.msg _ = t at h'; cases h' <;> simp at ht) <;> obtain ⟨rfl, rfl, rfl⟩ := ht <;> rfl

theorem intermediate_of {t : UInt8} {p : Bytes} (ht : t ≠ 0 ∧ t ≠ 1 ∧ t ≠ 3 ∧ t ≠ 4 ∧ t ≠ 17)
    (hm : t = 12 → ∃ x, ReadsAs .Resultset_ColumnMetaData p x) : Intermediate Pb.codec (t, p) :=
  ⟨ht.1, ht.2.1, ht.2.2.1, ht.2.2.2.1, ht.2.2.2.2, fun h => by
    obtain ⟨x, hx⟩ := hm h
    exact ⟨(C63_meta_accepted hx).2, (C63_meta_accepted hx).1⟩⟩

/-- **C63**, answers: what the server says is what the client takes the answer for. -/
theorem C63_says {bs rest : Bytes} {rr : Response} (h : Says bs rr rest) : Answered Pb.codec bs rr rest := by
  induction h with
  | ok hf ht => exact .last hf (.ok ht)
  | error hf ht he =>
    obtain ⟨e', h1, h2, h3⟩ := C63_error_exact ht
    cases errorTree_unique he h1
    exact .last hf (.error h3 h2)
  | more hf ht hm _ ih => exact .more hf (intermediate_of ht hm) ih

theorem C63_says_all {cts : List UInt8} {bs rest : Bytes} {rrs : List Response} (h : SaysAll cts bs rrs rest) :
    AnsweredAll Pb.codec cts bs rrs rest := by
  induction h with
  | nil bs => exact .nil bs
  | cons h he _ ih => exact .cons (C63_says h) he ih

theorem C63_says_continue {bs data rest : Bytes} (h : SaysContinue bs data rest) : AsksContinue Pb.codec bs data rest := by
  induction h with
  | last hf ht =>
    obtain ⟨d, h1, h2, h3⟩ := C63_continue_exact ht
    cases h1
    exact .last hf h3 h2
  | more hf ht hm _ ih => exact .more hf (intermediate_of ht hm) ih

/-- **C63**, together with C29: the answers of the server, read by the .proto files, are what `Send` returns: for every
message success or the error with severity, code, SQL state and text as the server sent them. -/
theorem C63_send {w : World} (hw : Writable w) {c : Conn} (hc : Life Pb.codec c.r) {b : Bytes} {fs : List (UInt8 × Bytes)}
    (hb : readFrames b = some fs) {rest : Bytes} {rrs : List Response} (ha : SaysAll (fs.map Prod.fst) c.r.pending rrs rest) :
    ∃ w' c', Conn.send Pb.codec w c b = .ok (w', c', rrs, none) ∧ rrs.length = fs.length ∧ c'.r.pending = rest := by
  obtain ⟨w', c', h1, h2, h3, _⟩ := C29_one_response_each Pb.codec hw hc hb (C63_says_all ha)
  exact ⟨w', c', h1, h2, h3⟩

/-! ### cases -/

/-- `ERROR 1064 (42000): x`, the fields in an unusual order. -/
def errEx : Bytes := [26, 1, 120, 16, 168, 8, 34, 5, 52, 50, 48, 48, 48]

example : Pb.codec.error errEx = some ⟨0, 1064, ascii "42000", ascii "x"⟩ := by decide +kernel

example : ReadsAs .Error errEx (.msg [("code", [.nat 1064]), ("sql_state", [.bytes (ascii "42000")]), ("msg", [.bytes (ascii "x")])]) := rfl

/-- Unknown fields, also groups, are passed over; of a repeated field the last counts. -/
example : Pb.codec.error ([8, 0, 123, 16, 9, 124] ++ errEx ++ [8, 1, 250, 1, 1, 7]) = some ⟨1, 1064, ascii "42000", ascii "x"⟩ := by
  decide +kernel

/-- Cut off, without code, a group without end, more than 64 bits. -/
example : Pb.codec.error (errEx.take 12) = none ∧ Pb.codec.error (errEx.take 3 ++ errEx.drop 6) = none ∧
    Pb.codec.error (errEx ++ [123, 16, 9]) = none ∧ Pb.codec.error (errEx ++ [8, 255, 255, 255, 255, 255, 255, 255, 255, 255, 2]) = none := by
  decide +kernel

/-- A unit of two statements: metadata, a row and success for the first, an error for the second. -/
example : ∃ rest, SaysAll [12, 12] ([3, 0, 0, 0, 12, 8, 1, 4, 0, 0, 0, 13, 10, 1, 2, 1, 0, 0, 0, 17, 14, 0, 0, 0, 1] ++ errEx ++ [9])
    [.ok, .error ⟨0, 1064, ascii "42000", ascii "x"⟩] rest :=
  ⟨[9], .cons (.more (t := 12) (p := [8, 1]) rfl (by decide) (fun _ => ⟨_, rfl⟩) (.more (t := 13) (p := [10, 1, 2]) rfl (by decide)
    (fun h => by cases h) (.ok (t := 17) (p := []) rfl (by decide)))) (by simp [Ends])
    (.cons (.error (p := errEx) rfl rfl .plain) (by simp [Ends]) (.nil _))⟩

end Verif.Props
