import Verif.Proof.Groups
import Verif.Props.ServerMsg
/-! C63: groups in the server's messages. -/
namespace Verif.Props
open Verif.Go Verif.Spec Verif.Model Verif.Proof

/-- **C63**, groups, which a later version of the server may send: a message is taken for what it is without its groups,
however they are nested, whatever numbers they have and wherever between the fields they stand. -/
theorem C63_groups {p p' : Bytes} {fs : List Field} (h : Mixed p fs) (h' : readFields p' = some fs) :
    Pb.codec.error p = Pb.codec.error p' ∧ Pb.codec.columnMeta p = Pb.codec.columnMeta p' ∧ Pb.codec.authContinue p = Pb.codec.authContinue p' := by
  have h1 : ∀ n, Pb.errorFields n ≠ some 3 := fun n => by unfold Pb.errorFields; split <;> simp
  have h2 : ∀ n, Pb.metaFields n ≠ some 3 := fun n => by unfold Pb.metaFields; split <;> simp
  have h3 : ∀ n, Pb.continueFields n ≠ some 3 := fun n => by unfold Pb.continueFields; split <;> simp
  refine ⟨?_, ?_, ?_⟩
  · show Pb.unmarshalError p = Pb.unmarshalError p'
    rw [Pb.unmarshalError, Pb.unmarshalError, scan_fields h', scan_mixed h1 h _ (Nat.le_refl _)]
  · show Pb.unmarshalMeta p = Pb.unmarshalMeta p'
    rw [Pb.unmarshalMeta, Pb.unmarshalMeta, scan_fields h', scan_mixed h2 h _ (Nat.le_refl _)]
  · show Pb.unmarshalContinue p = Pb.unmarshalContinue p'
    rw [Pb.unmarshalContinue, Pb.unmarshalContinue, scan_fields h', scan_mixed h3 h _ (Nat.le_refl _)]

/-- Group 15, in it field 2 and group 1, which holds an empty group 15; then the fields of `errEx`. -/
example : ∃ fs, Mixed ([123, 16, 9, 11, 123, 124, 12, 124] ++ errEx) fs ∧ readFields errEx = some fs :=
  ⟨_, .group (m := 15) rfl (by decide) (.field (f := (2, .varint 9)) rfl (.group (m := 1) rfl (by decide)
    (.group (m := 15) rfl (by decide) (.stop rfl) (.stop rfl)) (.stop rfl)))
    (.field (f := (3, .bytes [120])) rfl (.field (f := (2, .varint 1064)) rfl (.field (f := (4, .bytes (ascii "42000"))) rfl .nil))), rfl⟩

example : Pb.codec.error ([123, 16, 9, 11, 123, 124, 12, 124] ++ errEx) = some ⟨0, 1064, ascii "42000", ascii "x"⟩ := by decide +kernel

end Verif.Props
