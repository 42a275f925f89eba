import Verif.Proof.Record
/-! C01, C18, C20, C22, C25, C26, C28: what single builder calls record. -/
namespace Verif.Props
open Verif.Go Verif.Spec Verif.Model Verif.Proof

variable {g : Grow} {b b' : Builder} {r : Option Val}

/-- C01: `StmtExecute` and `Execute` with arguments that stand for `as` record exactly one message with that
text (or id) and those arguments in order; with other arguments they record nothing and the unit fails. -/
theorem C01_statements_exact (hb : Ready b) (args : List Val) :
    (∀ as, Args libDur args as →
      (∀ s, Records g b (.stmtExecute s args) [.stmtExecute s as] none) ∧
      (∀ id : BitVec 32, Records g b (.execute id args) [.execute id.toNat as] none)) ∧
    ((∀ as, ¬Args libDur args as) →
      (∀ s, b.step g (.stmtExecute s args) = .ok (b', r) → Failed b') ∧
      (∀ id, b.step g (.execute id args) = .ok (b', r) → Failed b')) := by
  refine ⟨fun as h => ⟨fun s => ?_, fun id => ?_⟩, fun h => ⟨fun s hs => ?_, fun id hs => ?_⟩⟩
  · exact asked_records hb (by simp) (.stmtExecute h) (by simp [Readable])
  · exact asked_records hb (by simp) (.execute h) (by simp [Readable])
  · exact not_asked hb hs fun ms r ha => by cases ha with | stmtExecute h' => exact h _ h'
  · exact not_asked hb hs fun ms r ha => by cases ha with | execute h' => exact h _ h'

/-- A growth policy and a builder in use, with something in the buffer and stale bytes behind it. -/
def growEx : Grow := fun c n => c + n
def builderEx : Builder := { buf := ⟨[1, 0, 0, 0, 25], [170, 171, 172]⟩, err := none, disabled := false }

/-- the bytes in the buffer after a call -/
def after (b : Builder) (c : Call) : Option Bytes :=
  match b.step growEx c with
  | .ok (b, _) => if b.err.isNone then some b.buf.data else none
  | .error _ => none

example : Ready builderEx := ⟨rfl, rfl⟩
example : Args libDur [.int 5, .ptr (.str (ascii "x")), .nil] [.sint 5, .string (ascii "x") none, .null] := rfl
example : (after builderEx (.stmtExecute (ascii "SELECT ?") [.int 5])) =
    some ([1, 0, 0, 0, 25, 21, 0, 0, 0, 12, 10, 8] ++ ascii "SELECT ?" ++ [18, 8, 8, 1, 18, 4, 8, 1, 16, 10]) := by
  decide +kernel
example : ∀ as, ¬Args libDur [.other] as := by
  intro as h
  cases as with
  | nil => cases h
  | cons a as => simp [Args, argScalarOf, plainScalar] at h

/-- C18: an insert with a row of the wrong length fails the unit of work; otherwise table, columns and rows
are recorded exactly. -/
theorem C18_insert (hb : Ready b) (t : Bytes) (cols : List Bytes) (data : List (List Val)) :
    ((∃ row ∈ data, row.length ≠ cols.length) → b.step g (.insert t cols data) = .ok (b', r) → Failed b') ∧
    ((∀ row ∈ data, row.length = cols.length) → ∀ rs, Rows libDur data rs → (∀ row ∈ rs, ∀ e ∈ row, varsShort e = true) →
      Records g b (.insert t cols data) [.insert t (some 2) cols rs] none) := by
  refine ⟨fun ⟨row, hr, hl⟩ hs => ?_, fun hl rs h hv => ?_⟩
  · exact not_asked hb hs fun ms r ha => by cases ha with | insert h _ => exact hl (h row hr)
  · exact asked_records hb (by simp) (.insert hl h) (by simpa [Readable] using hv)

example : after builderEx (.insert (ascii "t") [ascii "a", ascii "b"] [[.int 1, .int 2], [.int 3]]) = none ∧
    (after builderEx (.insert (ascii "t") [ascii "a", ascii "b"] [[.int 1, .int 2], [.int 3, .nil]])).isSome := by
  decide +kernel
example : Rows libDur [[.int 1, .int 2], [.int 3, .nil]]
    [[.literal (.sint 1), .literal (.sint 2)], [.literal (.sint 3), .literal .null]] := rfl

theorem perm_map_inv {α β : Type} {f : α → β} : ∀ {l : List β} {m : List α}, l.Perm (m.map f) → ∃ m' : List α, m'.Perm m ∧ l = m'.map f
  | [], m, h => ⟨[], by cases m with | nil => exact .nil | cons => simpa using h.length_eq, rfl⟩
  | a :: l, m, h => by
    obtain ⟨x, hx, rfl⟩ := List.mem_map.mp (h.subset (List.mem_cons_self ..))
    obtain ⟨s, t, rfl⟩ := List.append_of_mem hx
    have h2 : (f x :: l).Perm (f x :: (s ++ t).map f) := h.trans (by simp)
    obtain ⟨m', h3, rfl⟩ := perm_map_inv h2.cons_inv
    exact ⟨x :: m', (h3.cons x).trans List.perm_middle.symm, rfl⟩

/-- C20: an update is recorded with exactly one assignment per entry of the map, in whatever order `order` the
run time iterates it. -/
theorem C20_update (hb : Ready b) (t : Bytes) {crit : Criteria} {c : Option PExpr} (hc : Crit libDur crit c)
    {entries order : List (Bytes × Val)} (hp : order.Perm entries) {ss : List (Bytes × PExpr)} (hs : Sets libDur entries ss)
    (hv : (∀ e ∈ c, varsShort e = true) ∧ ∀ s ∈ ss, varsShort s.2 = true) :
    ∃ ss', ss'.Perm ss ∧ Records g b (.update t crit order) [.update t (some 2) c ss'] none := by
  have key : ∃ ss', ss'.Perm ss ∧ Sets libDur order ss' := by
    have := hp.map (fun s : Bytes × Val => (s.1, exprOf libDur fmtTime s.2))
    rw [show entries.map _ = _ from hs] at this
    obtain ⟨ss', h1, h2⟩ := perm_map_inv this
    exact ⟨ss', h1, h2⟩
  obtain ⟨ss', h1, h2⟩ := key
  refine ⟨ss', h1, asked_records hb (by simp) (.update hc h2) ?_⟩
  simp only [List.mem_singleton, forall_eq, Readable]
  exact ⟨hv.1, fun s hs => hv.2 s (h1.subset hs)⟩

/-- C20: `UpdateF` records its `Set` calls in order. -/
theorem C20_updateF (hb : Ready b) (t : Bytes) {crit : Criteria} {c : Option PExpr} (hc : Crit libDur crit c)
    {sets : List (Bytes × Val)} {ss : List (Bytes × PExpr)} (hs : Sets libDur sets ss) (err : Option Err)
    (hv : (∀ e ∈ c, varsShort e = true) ∧ ∀ s ∈ ss, varsShort s.2 = true) {o : List Builder} {out : List (Option Val)}
    (h : run g (.updateF t crit (sets.map fun s => .set s.1 s.2) err (.ret none [])) [] b = .ok (o, b', out)) :
    Holds b' b.buf.data [.update t (some 2) c ss] := by
  obtain ⟨st, ks, h1, h2, _⟩ := run_ready hb h
  generalize ks.map idVariable = vs at h1
  have e : setArgs (sets.map fun s => .set s.1 s.2) = sets := by
    simp only [setArgs, List.filterMap_map]
    exact List.filterMap_some
  cases h1 with
  | updateF _ hc' hs' hk =>
    cases hk
    rw [e] at hs'
    cases crit_unique hc hc'
    cases sets_unique hs hs'
    refine h2.holds fun m hm => ?_
    simp at hm
    subst hm
    refine ⟨.inr (.inr rfl), fun e he => ⟨crit_good hc e he, hv.1 e he⟩, fun s hs'' => ⟨sets_good hs s hs'', hv.2 s hs''⟩⟩
  | updateFFail _ hn _ _ =>
    rw [e] at hn
    exact absurd ⟨hc, hs⟩ (hn _ _)

example : Sets libDur [(ascii "a", .int 1), (ascii "b", .column (ascii "a"))]
    [(ascii "a", .literal (.sint 1)), (ascii "b", .ident (ascii "a"))] ∧
    Crit libDur (some (.op (ascii "==") [.column (ascii "id"), .int 7]))
      (some (.operator (ascii "==") [.ident (ascii "id"), .literal (.sint 7)])) := ⟨rfl, rfl⟩
example : (after builderEx (.update (ascii "t") none [(ascii "a", .int 1)])).isSome := by decide +kernel

/-- The whole of C22 (TABLE = 2). -/
def C22_full : Prop := ∀ (g : Grow) (b : Builder), Ready b → ∀ (t : Bytes) (crit : Criteria) (c : Option PExpr),
  Crit libDur crit c → (∀ e ∈ c, varsShort e = true) → (c = none ↔ crit = none) ∧
    (∀ sets ss, Sets libDur sets ss → (∀ s ∈ ss, varsShort s.2 = true) →
      Records g b (.update t crit sets) [.update t (some 2) c ss] none) ∧
    Records g b (.delete t crit) [.delete t (some 2) c] none

/-- C22 but for the data model of `Delete`. Missing: `Delete` declares no data model, see `C22_delete_wrong`. -/
theorem C22_criteria_partial (hb : Ready b) (t : Bytes) {crit : Criteria} {c : Option PExpr}
    (hc : Crit libDur crit c) (hv : ∀ e ∈ c, varsShort e = true) : (c = none ↔ crit = none) ∧
    (∀ sets ss, Sets libDur sets ss → (∀ s ∈ ss, varsShort s.2 = true) →
      Records g b (.update t crit sets) [.update t (some 2) c ss] none) ∧
    Records g b (.delete t crit) [.delete t none c] none := by
  refine ⟨?_, fun sets ss hs hvs => asked_records hb (by simp) (.update hc hs) (by simpa [Readable] using ⟨by simpa using hv, by simpa using hvs⟩),
    asked_records hb (by simp) (.delete hc) (by simpa [Readable] using hv)⟩
  cases crit <;> cases c <;> simp [Crit] at hc ⊢

example : Crit libDur (some (.op (ascii "==") [.column (ascii "id"), .int 7]))
      (some (.operator (ascii "==") [.ident (ascii "id"), .literal (.sint 7)])) := rfl

theorem C22_delete_wrong : ¬C22_full := by
  intro h
  have hb : Ready builderEx := ⟨rfl, rfl⟩
  have h1 := (h growEx builderEx hb (ascii "t") none none rfl (by simp)).2.2
  have h2 := (C22_criteria_partial (g := growEx) hb (ascii "t") (crit := none) (c := none) rfl (by simp)).2.2
  have hne : (after builderEx (.delete (ascii "t") none)).isSome := by decide +kernel
  have hlen : ∀ d, after builderEx (.delete (ascii "t") none) = some d → d.length < 100 := by
    intro d hd
    have : (after builderEx (.delete (ascii "t") none)).all (fun d => d.length < 100) := by decide +kernel
    rw [hd] at this; simpa using this
  unfold after at hne hlen
  rcases h1 with h1 | ⟨b1, h1, ⟨r1, r1'⟩, f1, d1, s1⟩
  · rw [h1] at hne; cases hne
  rcases h2 with h2 | ⟨b2, h2, ⟨r2, r2'⟩, f2, d2, s2⟩
  · rw [h1] at h2; cases h2
  rw [h1] at h2
  cases h2
  rw [d1] at d2
  cases List.append_cancel_left d2
  have hl : f1.length < 2 ^ 32 := by
    have := hlen b1.buf.data (by rw [h1]; simp [r1'])
    rw [d1] at this; simp at this; omega
  have := (s1 hl).symm.trans (s2 hl)
  simp at this

/-- C25: `Prepare` and `Deallocate` are recorded exactly. -/
theorem C25_prepare_deallocate (hb : Ready b) (id : BitVec 32) :
    (∀ s, Records g b (.prepare id s) [.prepare id.toNat s] none) ∧
    Records g b (.deallocate id) [.deallocate id.toNat] none :=
  ⟨fun _ => asked_records hb (by simp) .prepare (by simp [Readable]), asked_records hb (by simp) .deallocate (by simp [Readable])⟩

example : after builderEx (.prepare 300 (ascii "DO 1")) =
    some ([1, 0, 0, 0, 25] ++ [16, 0, 0, 0, 40, 8, 172, 2, 18, 10, 8, 5, 50, 6, 10, 4] ++ ascii "DO 1") := by decide +kernel
example : after builderEx (.deallocate 4294967295) =
    some ([1, 0, 0, 0, 25] ++ [7, 0, 0, 0, 42, 8, 255, 255, 255, 255, 15]) := by decide +kernel

/-- condition key and value of a condition (EXPECT_NO_ERROR = 1 with "0" or "1", EXPECT_FIELD_EXIST = 2) -/
def condMeaning : Cond → Nat × Bytes
  | .noError false => (1, ascii "0")
  | .noError true => (1, ascii "1")
  | .fieldExists f => (2, f)

/-- a field name of less than 4 GiB -/
def CondFits : Cond → Prop
  | .noError _ => True
  | .fieldExists f => f.length < 2 ^ 32

/-- C26: opening an expectation block with one of the two context operations of the protocol. -/
theorem C26_expect_open (p : Slice) (op : UInt8) (hop : op = 0 ∨ op = 1) (conds : List Cond) (hc : ∀ c ∈ conds, CondFits c) :
    expectOpen g p op conds = .error .oom ∨ ∃ fr sp, expectOpen g p op conds = .ok ⟨p.data ++ fr, sp⟩ ∧
      (fr.length < 2 ^ 32 → decodeStream fr = some [.expectOpen op.toNat (conds.map condMeaning)]) := by
  have e : condMeaning = condOf := by
    funext c; cases c with
    | noError v => cases v <;> rfl
    | fieldExists f => rfl
  have hs : conds.all condShort = true := by
    simp only [List.all_eq_true]
    intro c hm
    have := hc c hm
    cases c with
    | noError v => cases v <;> rfl
    | fieldExists f => simp only [CondFits] at this; simp [condShort]; omega
  rcases expectOpen_post (g := g) (p := p) op hs with h | ⟨sp, h⟩
  · exact .inl h
  · refine .inr ⟨_, sp, h, fun hl => ?_⟩
    rw [e]
    have : codeFrame (.expectOpen op.toNat (conds.map condOf)) = bytesOf [.expectOpen op.toNat (conds.map condOf)] := by
      simp [bytesOf]
    rw [this] at hl ⊢
    refine bytesOf_stream hl fun m hm => ?_
    simp at hm
    subst hm
    refine ⟨by rcases hop with rfl | rfl <;> decide, fun c hc => ?_⟩
    rw [List.mem_map] at hc
    obtain ⟨c, _, rfl⟩ := hc
    cases c with
    | noError v => cases v <;> decide
    | fieldExists f => show 2 < 2 ^ 32; decide

example : CondFits (.fieldExists (ascii "6.1")) := by simp [CondFits]; decide
example : (match expectOpen growEx ⟨[], []⟩ 1 [.noError true, .fieldExists (ascii "6.1")] with | .ok s => s.data | .error _ => []) =
    [19, 0, 0, 0, 24, 8, 1, 18, 5, 8, 1, 18, 1, 49, 18, 7, 8, 2, 18, 3, 54, 46, 49] := by decide +kernel

end Verif.Props
