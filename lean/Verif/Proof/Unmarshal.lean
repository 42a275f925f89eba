import Verif.Model.Unmarshal
import Verif.Proof.Schema
/-! The decoder of golang/protobuf (`Model.Pb`) against the reader of the wire format (`Spec.readFields`). -/
namespace Verif.Proof
open Verif.Go Verif.Spec Verif.Model

theorem varintFrom_eq (bs : Bytes) : ∀ (i acc : Nat), i ≤ 9 → acc < 2 ^ (7 * i) →
    Pb.varintFrom i acc bs = match readVarintAux (10 - i) bs with
      | some (v, rest) => if acc + v * 2 ^ (7 * i) < 2 ^ 64 then some (acc + v * 2 ^ (7 * i), rest) else none
      | none => none := by
  induction bs with
  | nil =>
    intro i acc hi _
    rw [show 10 - i = (9 - i) + 1 by omega]
    rfl
  | cons b bs ih =>
    intro i acc hi ha
    have hb := b.toNat_lt
    rw [show 10 - i = (9 - i) + 1 by omega, readVarintAux, Pb.varintFrom]
    by_cases h9 : i = 9
    · subst h9
      rw [if_pos rfl]
      simp only [Nat.shiftLeft_eq, Nat.reducePow, Nat.reduceMul, Nat.sub_self] at ha ⊢
      by_cases h : b.toNat < 128
      · rw [if_pos h]
        by_cases h2 : b.toNat < 2
        · rw [if_pos h2]; dsimp only; rw [if_pos (by omega)]
        · rw [if_neg h2]; dsimp only; rw [if_neg (by omega)]
      · rw [if_neg h, if_neg (by omega)]
        simp [readVarintAux]
    · rw [if_neg h9]
      by_cases h : b.toNat < 128
      · rw [if_pos h, if_pos h]
        dsimp only
        have : i = 0 ∨ i = 1 ∨ i = 2 ∨ i = 3 ∨ i = 4 ∨ i = 5 ∨ i = 6 ∨ i = 7 ∨ i = 8 := by omega
        rw [Nat.shiftLeft_eq, if_pos]
        rcases this with rfl | rfl | rfl | rfl | rfl | rfl | rfl | rfl | rfl <;>
          simp only [Nat.reducePow, Nat.reduceMul] at ha ⊢ <;> omega
      · rw [if_neg h, if_neg h]
        rw [ih (i + 1) _ (by omega), show 10 - (i + 1) = 9 - i by omega]
        · cases readVarintAux (9 - i) bs with
          | none => rfl
          | some x =>
            obtain ⟨v, rest⟩ := x
            dsimp only
            have e : acc + (b.toNat - 128) <<< (7 * i) + v * 2 ^ (7 * (i + 1)) = acc + (b.toNat - 128 + 128 * v) * 2 ^ (7 * i) := by
              rw [Nat.shiftLeft_eq, Nat.add_mul, show 7 * (i + 1) = 7 + 7 * i by omega, Nat.pow_add, show (2 : Nat) ^ 7 = 128 from rfl,
                ← Nat.mul_assoc, Nat.mul_comm v 128, Nat.add_assoc]
            rw [e]
        · rw [Nat.shiftLeft_eq, show 7 * (i + 1) = 7 + 7 * i by omega, Nat.pow_add, show (2 : Nat) ^ 7 = 128 from rfl]
          have : (b.toNat - 128) * 2 ^ (7 * i) ≤ 127 * 2 ^ (7 * i) := Nat.mul_le_mul_right _ (by omega)
          omega

theorem consumeVarint_eq (bs : Bytes) : Pb.consumeVarint bs = readVarint bs := by
  rw [Pb.consumeVarint, varintFrom_eq bs 0 0 (by omega) (by simp), readVarint]
  simp only [Nat.sub_zero, Nat.mul_zero, Nat.pow_zero, Nat.mul_one, Nat.zero_add]
  cases readVarintAux 10 bs <;> rfl

theorem consumeBytes_eq (bs : Bytes) : Pb.consumeBytes bs = (readVarint bs).bind fun x => readN x.1 x.2 := by
  rw [Pb.consumeBytes, consumeVarint_eq]
  cases readVarint bs <;> rfl

theorem readFixed_some (k : Nat) : ∀ (bs : Bytes) {v : Nat} {rest : Bytes}, readFixed k bs = some (v, rest) →
    k ≤ bs.length ∧ rest = bs.drop k := by
  induction k with
  | zero => intro bs v rest h; simp [readFixed] at h; simp [h.2]
  | succ k ih =>
    intro bs v rest h
    cases bs with
    | nil => simp [readFixed] at h
    | cons b bs =>
      simp only [readFixed] at h
      split at h
      · rename_i h'
        obtain ⟨h1, h2⟩ := ih _ h'
        simp at h
        refine ⟨by simp; omega, by rw [← h.2, h2]; rfl⟩
      · cases h

theorem skip_varint {f n : Nat} {bs : Bytes} : Pb.skip (f + 1) n 0 bs = (Pb.consumeVarint bs).map Prod.snd := by simp [Pb.skip]
theorem skip_fixed64 {f n : Nat} {bs : Bytes} (h : 8 ≤ bs.length) : Pb.skip (f + 1) n 1 bs = some (bs.drop 8) := by simp [Pb.skip, h]
theorem skip_bytes {f n : Nat} {bs : Bytes} : Pb.skip (f + 1) n 2 bs = (Pb.consumeBytes bs).map Prod.snd := by simp [Pb.skip]
theorem skip_fixed32 {f n : Nat} {bs : Bytes} (h : 4 ≤ bs.length) : Pb.skip (f + 1) n 5 bs = some (bs.drop 4) := by simp [Pb.skip, h]

/-- What decoding keeps of a field. -/
def keep (known : Nat → Option Nat) : Field → Option (Nat × Pb.Stored)
  | (n, .varint v) => if known n = some 0 then some (n, .varint v) else none
  | (n, .bytes b) => if known n = some 2 then some (n, .bytes b) else none
  | _ => none

/-- Fields as the wire format has them are taken as they are. -/
theorem scan_eq (known : Nat → Option Nat) (k : Nat) : ∀ (bs : Bytes) (fs : List Field) (f : Nat), readFieldsAux k bs = some fs →
    bs.length ≤ f → Pb.scan known f bs = some (fs.filterMap (keep known)) := by
  induction k with
  | zero =>
    intro bs fs f h hf
    cases bs with
    | nil => simp [readFieldsAux] at h; subst h; cases f <;> rfl
    | cons b bs => simp [readFieldsAux] at h
  | succ k ih =>
    intro bs fs f h hf
    cases bs with
    | nil => simp [readFieldsAux] at h; subst h; cases f <;> rfl
    | cons b bs =>
      rw [readFieldsAux] at h
      split at h
      · cases h
      · rename_i fld rest hr
        split at h
        · cases h
        · rename_i fs' hs
          cases h
          obtain ⟨f, rfl⟩ : ∃ f', f = f' + 1 := ⟨f - 1, by simp at hf; omega⟩
          rw [Pb.scan, consumeVarint_eq]
          simp only [readField] at hr
          split at hr
          · cases hr
          · rename_i key bs1 hk
            have hlen := readVarint_length hk
            rw [hk]
            dsimp only
            split at hr
            · cases hr
            · rename_i hkey
              rw [if_neg hkey]
              have hm : key % 8 < 8 := Nat.mod_lt _ (by omega)
              split at hr
              · -- varint
                rename_i h0
                split at hr
                · rename_i v rest' hv
                  cases hr
                  have hl2 := readVarint_length hv
                  have ihr := ih _ _ f hs (by omega)
                  rw [h0]
                  by_cases hkn : known (key / 8) = some 0
                  · rw [if_pos ⟨hkn, rfl⟩, consumeVarint_eq, hv]
                    simp only [ihr, List.filterMap_cons, keep, if_pos hkn, Option.map_some]
                  · rw [if_neg (fun h => hkn h.1), if_neg (fun h => by simp at h), skip_varint, consumeVarint_eq, hv]
                    simp only [Option.map_some, List.filterMap_cons, keep, if_neg hkn]
                    exact ihr
                · cases hr
              · -- fixed64
                rename_i h0
                split at hr
                · rename_i v rest' hv
                  cases hr
                  obtain ⟨hl1, rfl⟩ := readFixed_some 8 _ hv
                  have ihr := ih _ _ f hs (by rw [List.length_drop]; omega)
                  rw [h0]
                  rw [if_neg (fun h => by simp at h), if_neg (fun h => by simp at h), skip_fixed64 hl1]
                  simp only [List.filterMap_cons, keep]
                  exact ihr
                · cases hr
              · -- bytes
                rename_i h0
                split at hr
                · rename_i n rest' hv
                  split at hr
                  · rename_i v rest'' hn
                    cases hr
                    have hl2 := readVarint_length hv
                    have hl3 := readN_length hn
                    have ihr := ih _ _ f hs (by omega)
                    have hcb : Pb.consumeBytes bs1 = some (v, rest) := by rw [consumeBytes_eq, hv]; exact hn
                    rw [h0]
                    by_cases hkn : known (key / 8) = some 2
                    · rw [if_neg (fun h => by simp at h), if_pos ⟨hkn, rfl⟩, hcb]
                      simp only [ihr, List.filterMap_cons, keep, if_pos hkn, Option.map_some]
                    · rw [if_neg (fun h => hkn h.1), if_neg (fun h => hkn h.1), skip_bytes, hcb]
                      simp only [Option.map_some, List.filterMap_cons, keep, if_neg hkn]
                      exact ihr
                  · cases hr
                · cases hr
              · -- fixed32
                rename_i h0
                split at hr
                · rename_i v rest' hv
                  cases hr
                  obtain ⟨hl1, rfl⟩ := readFixed_some 4 _ hv
                  have ihr := ih _ _ f hs (by rw [List.length_drop]; omega)
                  rw [h0]
                  rw [if_neg (fun h => by simp at h), if_neg (fun h => by simp at h), skip_fixed32 hl1]
                  simp only [List.filterMap_cons, keep]
                  exact ihr
                · cases hr
              · cases hr

theorem scan_fields {known : Nat → Option Nat} {p : Bytes} {fs : List Field} (h : readFields p = some fs) :
    Pb.scan known p.length p = some (fs.filterMap (keep known)) := scan_eq known _ _ _ _ h (Nat.le_refl _)

/-! ### the last assignment -/

theorem lookup_append_none {α : Type} {n : Nat} {l l' : List (Nat × α)} : (l ++ l').lookup n = (l.lookup n).or (l'.lookup n) := by
  induction l with
  | nil => rfl
  | cons x l ih =>
    obtain ⟨k, a⟩ := x
    simp only [List.cons_append, List.lookup_cons]
    cases n == k <;> simp [ih]

theorem last_cons {n : Nat} {x : Nat × Pb.Stored} {l : List (Nat × Pb.Stored)} :
    Pb.last n (x :: l) = (Pb.last n l).or (if x.1 = n then some x.2 else none) := by
  rw [Pb.last, List.reverse_cons, lookup_append_none, Pb.last]
  congr 1
  obtain ⟨k, a⟩ := x
  by_cases h : k = n
  · subst h; simp
  · simp only [if_neg h, List.lookup_cons, List.lookup_nil]
    rw [show (n == k) = false by simpa using fun e => h e.symm]

/-- A field that does not occur is not assigned. -/
theorem last_none {known : Nat → Option Nat} {n : Nat} (fs : List Field) (h : many fs n = []) :
    Pb.last n (fs.filterMap (keep known)) = none := by
  induction fs with
  | nil => rfl
  | cons x fs ih =>
    obtain ⟨k, v⟩ := x
    simp only [many, List.filter_cons] at h
    by_cases hk : k = n
    · simp [hk] at h
    · rw [if_neg (by simpa using hk)] at h
      have ih := ih h
      rw [List.filterMap_cons]
      split
      · exact ih
      · rename_i y hy
        rw [last_cons, ih]
        have : y.1 = k := by
          cases v <;> simp [keep] at hy <;> rw [← hy.2]
        rw [if_neg (by rw [this]; exact hk)]; rfl

/-- The value of a field that occurs once. -/
theorem last_some {known : Nat → Option Nat} {n : Nat} {v : WireVal} {y : Pb.Stored} (fs : List Field) (h : many fs n = [v])
    (hy : keep known (n, v) = some (n, y)) : Pb.last n (fs.filterMap (keep known)) = some y := by
  induction fs with
  | nil => cases h
  | cons x fs ih =>
    obtain ⟨k, u⟩ := x
    simp only [many, List.filter_cons] at h
    by_cases hk : k = n
    · subst hk
      rw [if_pos (by simp)] at h
      simp only [List.map_cons, List.cons.injEq] at h
      obtain ⟨rfl, h⟩ := h
      rw [List.filterMap_cons, hy]
      dsimp only
      rw [last_cons, last_none fs h, if_pos rfl]; rfl
    · rw [if_neg (by simpa using hk)] at h
      have ih := ih h
      rw [List.filterMap_cons]
      split
      · exact ih
      · rename_i z hz
        rw [last_cons, ih]; rfl

end Verif.Proof
