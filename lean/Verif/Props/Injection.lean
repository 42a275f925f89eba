import Verif.Proof.Injection
import Verif.Props.Units
/-! C77: data cannot become code. -/
namespace Verif.Props
open Verif.Go Verif.Spec Verif.Model Verif.Proof

/-- a run that leaves a sendable buffer -/
theorem run_sent {g : Grow} {b b' : Builder} {prog : Prog} {o : List Builder} {out : List (Option Val)} (hb : Ready b)
    (h : run g prog [] b = .ok (o, b', out)) {bs : Bytes} (hs : b'.send = .ok (.ok bs)) :
    ∃ ms vs fr, Exec libDur 0 prog (.ok []) (.ok ms) out vs ∧ vs.Nodup ∧ (∀ v ∈ vs, ∃ k, v = ascii "@id$" ++ decimal k) ∧
      bs = b.buf.data ++ fr ∧ ((∀ m ∈ ms, Readable m) → fr.length < 2 ^ 32 → decodeStream fr = some ms) := by
  have hd : b'.err = none ∧ b'.buf.data = bs := by
    rw [Builder.send] at hs
    split at hs
    · cases hs
    · cases he : b'.err with
      | some e => rw [he] at hs; simp at hs
      | none => rw [he] at hs; simpa using hs
  obtain ⟨he, rfl⟩ := hd
  obtain ⟨st, ks, h1, h2, h3⟩ := run_ready hb h
  cases st with
  | error e => rw [show b'.err = some e from h2.2] at he; cases he
  | ok ms =>
    refine ⟨ms, _, bytesOf ms, h1, h3.nodup, fun v hv => ?_, h2.2.2, fun hr hf => ?_⟩
    · obtain ⟨k, _, rfl⟩ := List.mem_map.mp hv
      exact ⟨k, rfl⟩
    · apply decodeStream_frames
      intro m hm
      refine ⟨exec_good h1 _ _ rfl rfl (by simp) m hm (hr m hm), ?_⟩
      have : (codeFrame m).length ≤ (bytesOf ms).length := by
        rw [bytesOf, List.flatMap_def]
        exact (List.sublist_flatten_of_mem (List.mem_map_of_mem hm)).length_le
      rw [codeFrame_length] at this
      unfold FitsFrame
      omega

/-- C77: two programs that make the same calls on different data send messages that differ in literals only: same kinds of
messages in the same order, same statement texts, tables, columns, operators and functions, same number of arguments.  A string
of any content stays a literal.  Only the variables of `InsertRow` may be numbered differently, consistently: the i-th of the
one program takes the place of the i-th of the other. -/
theorem C77_no_injection {g g' : Grow} {b b1 b' b1' : Builder} {prog prog' : Prog} {o o' : List Builder} {out out' : List (Option Val)}
    (hb : Ready b) (hb' : Ready b') (halike : ∀ ρ : Bytes → Bytes → Prop, (∀ v, ρ v v) → ProgAlike ρ prog prog')
    (h : run g prog [] b = .ok (o, b1, out)) (h' : run g' prog' [] b' = .ok (o', b1', out'))
    {bs bs' : Bytes} (hs : b1.send = .ok (.ok bs)) (hs' : b1'.send = .ok (.ok bs')) :
    ∃ (ms ms' : List ClientMsg) (vs vs' : List Bytes) (fr fr' : Bytes), bs = b.buf.data ++ fr ∧ bs' = b'.buf.data ++ fr' ∧
      ((∀ m ∈ ms, Readable m) → fr.length < 2 ^ 32 → decodeStream fr = some ms) ∧
      ((∀ m ∈ ms', Readable m) → fr'.length < 2 ^ 32 → decodeStream fr' = some ms') ∧
      vs.Nodup ∧ vs'.Nodup ∧ vs.length = vs'.length ∧ (∀ v ∈ vs ++ vs', ∃ k, v = ascii "@id$" ++ decimal k) ∧
      Along (MsgAlike fun v w => v = w ∨ (v, w) ∈ vs.zip vs') ms ms' := by
  obtain ⟨ms, vs, fr, hx, hn, hk, e, hd⟩ := run_sent hb h hs
  obtain ⟨ms', vs', fr', hx', hn', hk', e', hd'⟩ := run_sent hb' h' hs'
  obtain ⟨h1, h2, _⟩ := exec_alike (halike (fun v w => v = w ∨ (v, w) ∈ vs.zip vs') fun _ => .inl rfl) hx hx'
    (fun x hx => .inr hx) .nil
  exact ⟨ms, ms', vs, vs', fr, fr', e, e', hd, hd', hn, hn', h1,
    fun v hv => (List.mem_append.mp hv).elim (hk v) (hk' v), h2⟩

/-- C77: every SQL text sent was given to `StmtExecute` or `Prepare` by the program, or is one of seven texts of the library's
own, or `SET @id$<number> = LAST_INSERT_ID()`. -/
theorem C77_texts {g : Grow} {b b1 : Builder} {prog : Prog} {o : List Builder} {out : List (Option Val)} (hb : Ready b)
    (h : run g prog [] b = .ok (o, b1, out)) {bs : Bytes} (hs : b1.send = .ok (.ok bs)) :
    ∃ ms fr, bs = b.buf.data ++ fr ∧ ((∀ m ∈ ms, Readable m) → fr.length < 2 ^ 32 → decodeStream fr = some ms) ∧
      ∀ m ∈ ms, ∀ t ∈ textOf m, Gives prog t ∨ (∃ s ∈ ownTexts, t = ascii s) ∨
        ∃ k, t = ascii "SET @id$" ++ decimal k ++ ascii " = LAST_INSERT_ID()" := by
  obtain ⟨ms, vs, fr, hx, hn, hk, e, hd⟩ := run_sent hb h hs
  refine ⟨ms, fr, e, hd, fun m hm t ht => ?_⟩
  rcases exec_texts hx _ _ rfl rfl m hm with h | h
  · cases h
  · rcases h t ht with h | h | ⟨v, hv, rfl⟩
    · exact .inl h
    · exact .inr (.inl h)
    · obtain ⟨k, rfl⟩ := hk v hv
      refine .inr (.inr ⟨k, ?_⟩)
      rw [← List.append_assoc]
      rfl

/-! ### an example -/

/-- `ExpectFailOnError(0, Tx(Default, { v := InsertRow("t", ["a"], x); Update("u", Equal(Column("c"), y), {"b": v});
StmtExecute("CALL p(?)", z) }))` -/
def progData (x y z : Val) : Prog :=
  .expect 0 (.tx 0 (.call (.insertRow (ascii "t") [ascii "a"] [x]) fun v =>
      .call (.update (ascii "u") (some (.op (ascii "==") [.column (ascii "c"), y])) [(ascii "b", v.getD .nil)]) fun _ =>
      .call (.stmtExecute (ascii "CALL p(?)") [z]) fun _ =>
      .ret none []) fun o => .ret none o) fun o => .ret none o

theorem progData_alike {x x' y y' z z' : Val} (hx : isData x = true) (hx' : isData x' = true) (hy : isData y = true) (hy' : isData y' = true)
    (hz : isData z = true) (hz' : isData z' = true) (ρ : Bytes → Bytes → Prop) : ProgAlike ρ (progData x y z) (progData x' y' z') := by
  refine .expect (.tx (.call (.insertRow (.cons (.data hx hx') .nil)) fun r r' hr =>
    .call (.update (.some (.op (.cons .column (.cons (.data hy hy') .nil)))) (.cons ⟨rfl, ?_⟩ .nil)) fun _ _ _ =>
    .call (.stmtExecute (.cons (.data hz hz') .nil)) fun _ _ _ => .ret .nil) fun _ _ h => .ret h) fun _ _ h => .ret h
  cases hr with
  | none => exact .data rfl rfl
  | some h => exact h

/-- both are sent -/
example : (appended builderEx (progData (.int 1) (.str (ascii "x")) .nil)).isSome ∧
    (appended builderEx (progData (.str (ascii "'; DROP TABLE t; --")) (.bool true) (.str (ascii "COMMIT")))).isSome := by decide +kernel

/-- The variables are indeed numbered differently. -/
example : ((appended builderEx (progData (.int 1) (.str (ascii "x")) .nil)).bind decodeStream).map idsOf =
      some (["START TRANSACTION", "SET @id$72 = LAST_INSERT_ID()", "COMMIT"].map ascii) ∧
    ((appended builderEx (progData (.str (ascii "'; DROP TABLE t; --")) (.bool true) (.str (ascii "COMMIT")))).bind decodeStream).map idsOf =
      some (["START TRANSACTION", "SET @id$93 = LAST_INSERT_ID()", "COMMIT"].map ascii) := by decide +kernel

end Verif.Props
