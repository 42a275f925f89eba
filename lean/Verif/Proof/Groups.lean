import Verif.Spec.Groups
import Verif.Proof.Unmarshal
/-! The decoder of golang/protobuf passes over groups. -/
namespace Verif.Proof
open Verif.Go Verif.Spec Verif.Model

theorem readField_parts {bs rest : Bytes} {fld : Field} (h : readField bs = some (fld, rest)) :
    ∃ key bs1, readVarint bs = some (key, bs1) ∧ fld.1 = key / 8 ∧ key / 8 ≠ 0 ∧ key / 8 < 2 ^ 29 ∧ rest.length < bs1.length ∧
      ((key % 8 = 0 ∧ ∃ v, fld.2 = .varint v ∧ readVarint bs1 = some (v, rest)) ∨
       (key % 8 = 1 ∧ ∃ v, fld.2 = .fixed64 v ∧ 8 ≤ bs1.length ∧ rest = bs1.drop 8) ∨
       (key % 8 = 2 ∧ ∃ v, fld.2 = .bytes v ∧ Pb.consumeBytes bs1 = some (v, rest)) ∨
       (key % 8 = 5 ∧ ∃ v, fld.2 = .fixed32 v ∧ 4 ≤ bs1.length ∧ rest = bs1.drop 4)) := by
  simp only [readField] at h
  split at h
  · cases h
  rename_i key bs1 hk
  split at h
  · cases h
  rename_i hkey
  have h0 : key / 8 ≠ 0 := fun e => hkey (.inl e)
  have h1 : key / 8 < 2 ^ 29 := by omega
  refine ⟨key, bs1, hk, ?_⟩
  split at h
  · rename_i hm
    split at h
    · rename_i v r hv
      cases h
      exact ⟨rfl, h0, h1, readVarint_length hv, .inl ⟨hm, v, rfl, hv⟩⟩
    · cases h
  · rename_i hm
    split at h
    · rename_i v r hv
      cases h
      obtain ⟨hl, rfl⟩ := readFixed_some 8 _ hv
      exact ⟨rfl, h0, h1, by rw [List.length_drop]; omega, .inr (.inl ⟨hm, v, rfl, hl, rfl⟩)⟩
    · cases h
  · rename_i hm
    split at h
    · rename_i n r hv
      split at h
      · rename_i v r' hn
        cases h
        have hl := readVarint_length hv
        have hl' := readN_length hn
        exact ⟨rfl, h0, h1, by omega, .inr (.inr (.inl ⟨hm, v, rfl, by rw [consumeBytes_eq, hv]; exact hn⟩))⟩
      · cases h
    · cases h
  · rename_i hm
    split at h
    · rename_i v r hv
      cases h
      obtain ⟨hl, rfl⟩ := readFixed_some 4 _ hv
      exact ⟨rfl, h0, h1, by rw [List.length_drop]; omega, .inr (.inr (.inr ⟨hm, v, rfl, hl, rfl⟩))⟩
    · cases h
  · cases h

/-- A field within a group is skipped. -/
theorem skip_field {bs rest : Bytes} {fld : Field} (h : readField bs = some (fld, rest)) :
    ∃ key bs1, readVarint bs = some (key, bs1) ∧ key / 8 ≠ 0 ∧ key / 8 < 2 ^ 29 ∧ key % 8 ≠ 4 ∧ rest.length < bs1.length ∧
      ∀ f, Pb.skip (f + 1) (key / 8) (key % 8) bs1 = some rest := by
  obtain ⟨key, bs1, hk, -, h0, h1, hl, hc⟩ := readField_parts h
  refine ⟨key, bs1, hk, h0, h1, ?_, hl, fun f => ?_⟩
  · rcases hc with ⟨h, -⟩ | ⟨h, -⟩ | ⟨h, -⟩ | ⟨h, -⟩ <;> omega
  · rcases hc with ⟨h, v, -, hv⟩ | ⟨h, v, -, hv, hr⟩ | ⟨h, v, -, hv⟩ | ⟨h, v, -, hv, hr⟩ <;> rw [h]
    · rw [skip_varint, consumeVarint_eq, hv]; rfl
    · rw [skip_fixed64 hv, hr]
    · rw [skip_bytes, hv]; rfl
    · rw [skip_fixed32 hv, hr]

theorem skip_group {f n : Nat} {bs : Bytes} : Pb.skip (f + 1) n 3 bs = Pb.skipGroup f n bs := by simp [Pb.skip]

/-- A group is skipped up to its own end. -/
theorem skipGroup_eq {num : Nat} {bs rest : Bytes} (h : Group num bs rest) (hn : 0 < num ∧ num < 2 ^ 29) :
    rest.length < bs.length ∧ ∀ f, bs.length ≤ f + rest.length → Pb.skipGroup f num bs = some rest := by
  induction h with
  | stop h =>
    have hl := readVarint_length h
    refine ⟨hl, fun f hf => ?_⟩
    obtain ⟨f, rfl⟩ : ∃ k, f = k + 1 := ⟨f - 1, by omega⟩
    rw [Pb.skipGroup, consumeVarint_eq, h]
    dsimp only
    rw [if_neg (by omega), if_pos (by omega), if_pos (by omega)]
  | field h hg ih =>
    obtain ⟨hr, ih⟩ := ih hn
    obtain ⟨key, bs1, hk, h0, h1, h4, hl, hsk⟩ := skip_field h
    have hkl := readVarint_length hk
    refine ⟨by omega, fun f hf => ?_⟩
    obtain ⟨f, rfl⟩ : ∃ k, f = k + 2 := ⟨f - 2, by omega⟩
    rw [Pb.skipGroup, consumeVarint_eq, hk]
    dsimp only
    rw [if_neg (by omega), if_neg h4, hsk f]
    dsimp only
    exact ih _ (by omega)
  | @group num m bs bs' bs'' rest h hm hi hg ih1 ih2 =>
    obtain ⟨hr1, ih1⟩ := ih1 hm
    obtain ⟨hr2, ih2⟩ := ih2 hn
    have hkl := readVarint_length h
    refine ⟨by omega, fun f hf => ?_⟩
    obtain ⟨f, rfl⟩ : ∃ k, f = k + 2 := ⟨f - 2, by omega⟩
    rw [Pb.skipGroup, consumeVarint_eq, h]
    dsimp only
    rw [if_neg (by omega), if_neg (by omega), show (m * 8 + 3) / 8 = m by omega, show (m * 8 + 3) % 8 = 3 by omega, skip_group, ih1 f (by omega)]
    dsimp only
    exact ih2 _ (by omega)

theorem scan_mixed {known : Nat → Option Nat} (hk3 : ∀ n, known n ≠ some 3) {p : Bytes} {fs : List Field} (h : Mixed p fs) :
    ∀ f, p.length ≤ f → Pb.scan known f p = some (fs.filterMap (keep known)) := by
  induction h with
  | nil => intro f _; cases f <;> rfl
  | @field bs bs' fld fs h hs ih =>
    intro f hf
    obtain ⟨key, bs1, hk, hn, h0, h1, hl, hc⟩ := readField_parts h
    have hkl := readVarint_length hk
    have ihr := ih (f - 1) (by omega)
    obtain ⟨b, bt, rfl⟩ : ∃ b bt, bs = b :: bt := by
      cases bs with
      | nil => simp at hkl
      | cons b bt => exact ⟨b, bt, rfl⟩
    obtain ⟨f, rfl⟩ : ∃ k, f = k + 1 := ⟨f - 1, by simp at hf; omega⟩
    rw [Nat.add_sub_cancel] at ihr
    obtain ⟨num, v⟩ := fld
    dsimp only at hn hc
    subst hn
    rw [Pb.scan, consumeVarint_eq, hk]
    dsimp only
    rw [if_neg (by omega)]
    rcases hc with ⟨hm, v, rfl, hv⟩ | ⟨hm, v, rfl, hv, rfl⟩ | ⟨hm, v, rfl, hv⟩ | ⟨hm, v, rfl, hv, rfl⟩ <;> rw [hm]
    · by_cases hkn : known (key / 8) = some 0
      · rw [if_pos ⟨hkn, rfl⟩, consumeVarint_eq, hv]
        simp only [ihr, List.filterMap_cons, keep, if_pos hkn, Option.map_some]
      · rw [if_neg (fun h => hkn h.1), if_neg (fun h => by simp at h), skip_varint, consumeVarint_eq, hv]
        simp only [Option.map_some, List.filterMap_cons, keep, if_neg hkn]
        exact ihr
    · rw [if_neg (fun h => by simp at h), if_neg (fun h => by simp at h), skip_fixed64 hv]
      simp only [List.filterMap_cons, keep]
      exact ihr
    · by_cases hkn : known (key / 8) = some 2
      · rw [if_neg (fun h => by simp at h), if_pos ⟨hkn, rfl⟩, hv]
        simp only [ihr, List.filterMap_cons, keep, if_pos hkn, Option.map_some]
      · rw [if_neg (fun h => hkn h.1), if_neg (fun h => hkn h.1), skip_bytes, hv]
        simp only [Option.map_some, List.filterMap_cons, keep, if_neg hkn]
        exact ihr
    · rw [if_neg (fun h => by simp at h), if_neg (fun h => by simp at h), skip_fixed32 hv]
      simp only [List.filterMap_cons, keep]
      exact ihr
  | @group m bs bs' bs'' fs h hm hi hs ih =>
    intro f hf
    have hkl := readVarint_length h
    obtain ⟨hgl, hg⟩ := skipGroup_eq hi hm
    obtain ⟨b, bt, rfl⟩ : ∃ b bt, bs = b :: bt := by
      cases bs with
      | nil => simp at hkl
      | cons b bt => exact ⟨b, bt, rfl⟩
    obtain ⟨f, rfl⟩ : ∃ k, f = k + 1 := ⟨f - 1, by simp at hf; omega⟩
    rw [Pb.scan, consumeVarint_eq, h]
    dsimp only
    rw [if_neg (by omega), show (m * 8 + 3) / 8 = m by omega, show (m * 8 + 3) % 8 = 3 by omega,
      if_neg (fun h => hk3 _ h.1), if_neg (fun h => hk3 _ h.1), skip_group, hg _ (by omega)]
    dsimp only
    exact ih f (by omega)

end Verif.Proof
