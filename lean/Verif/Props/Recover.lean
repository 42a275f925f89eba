import Verif.Proof.Torn
import Verif.Props.Panics
import Verif.Props.Units
/-! C73: panics that the program recovers from. -/
namespace Verif.Props
open Verif.Go Verif.Spec Verif.Model Verif.Proof

variable {g : Grow} {b b' : Builder} {prog body : RProg} {o : List Builder} {out : List (Option Val)}

section spec
variable {dt : BitVec 64 → Bytes}

/-! ### there is one way a program leaves a builder -/

theorem split_unique {α : Type} {good bad : α → Prop} (hx : ∀ x, bad x → ¬good x) :
    ∀ {f f' : List α} {x x' : α} {r r' : List α}, f ++ x :: r = f' ++ x' :: r' → (∀ y ∈ f, good y) → (∀ y ∈ f', good y) → bad x → bad x' →
    f = f' ∧ x = x'
  | [], [], x, x', r, r', h, _, _, _, _ => ⟨rfl, (List.cons.inj h).1⟩
  | [], y :: f', x, x', r, r', h, _, hg, hb, _ => absurd (hg y (.head _)) ((List.cons.inj h).1 ▸ hx _ hb)
  | y :: f, [], x, x', r, r', h, hg, _, _, hb => absurd (hg y (.head _)) ((List.cons.inj h).1 ▸ hx _ hb)
  | y :: f, y' :: f', x, x', r, r', h, hg, hg', hb, hb' => by
    have := split_unique hx (List.cons.inj h).2 (fun z hz => hg z (.tail _ hz)) (fun z hz => hg' z (.tail _ hz)) hb hb'
    exact ⟨by rw [(List.cons.inj h).1, this.1], this.2⟩

theorem cut_explodes {c : Call} {m : ClientMsg} (h : Cut dt c m) : CallExplodes dt c := by
  cases h with
  | @insert t cols front row rest rs hl hr hl' hx =>
    refine ⟨front.length, row, by simp, fun y hy => ?_, hl', hx⟩
    rw [List.take_left] at hy
    exact ⟨hl y hy, rows_fine hr y hy⟩
  | insertRow hx => exact hx
  | @update t crit c front s rest ss hc hs hx =>
    refine .inr ⟨crit_fine hc, front.length, s, by simp, fun y hy => ?_, hx⟩
    rw [List.take_left] at hy
    exact sets_fine hs y hy

theorem cut_unique {c : Call} {m m' : ClientMsg} (h : Cut dt c m) (h' : Cut dt c m') : m = m' := by
  cases h with
  | insertRow => cases h'; rfl
  | @insert t cols front row rest rs hl hr hl' hx =>
    generalize hd : front ++ row :: rest = data at h'
    cases h' with
    | @insert _ _ front' row' rest' rs' hm hr' hm' hx' =>
      obtain ⟨rfl, rfl⟩ := split_unique (good := fun r => ∀ v ∈ r, Fine dt v) (bad := RowExplodes dt)
        (fun _ => rowExplodes_not_fine) hd (rows_fine hr) (rows_fine hr') hx hx'
      rw [rows_unique hr hr']
  | @update t crit c front s rest ss hc hs hx =>
    generalize hd : front ++ s :: rest = data at h'
    cases h' with
    | @update _ _ c' front' s' rest' ss' hc' hs' hx' =>
      obtain ⟨rfl, rfl⟩ := split_unique (good := fun r => Fine dt r.2) (bad := fun s => Explodes dt s.2)
        (fun _ => Explodes.not_fine) hd (sets_fine hs) (sets_fine hs') hx hx'
      rw [crit_unique hc hc', sets_unique hs hs']

theorem ranRows_unique {n : Nat} {code : RRows} {st st' : Except Err (List (List PExpr))} {x : Bool} (h : RanRows dt n code st x st') :
    ∀ {y t}, RanRows dt n code st y t → x = y ∧ st' = t := by
  induction h with
  | done => intro y t h; cases h; exact ⟨rfl, rfl⟩
  | row hr _ ih =>
    intro y t h
    cases h with
    | row hr' h => cases some_map_inj (hr.symm.trans hr'); exact ih h
    | rowFail hn => exact absurd hr (hn _)
    | rowPanic hx => exact absurd (row_fine hr) (rowExplodes_not_fine hx)
  | rowFail hn hnx hb _ ih =>
    intro y t h
    cases h with
    | row hr' h => exact absurd hr' (hn _)
    | rowFail _ _ hb' h => cases RowBlames.unique hb hb'; exact ih h
    | rowPanic hx => exact absurd hx hnx
  | rowPanic hx =>
    intro y t h
    cases h with
    | row hr' h => exact absurd (row_fine hr') (rowExplodes_not_fine hx)
    | rowFail _ hnx _ h => exact absurd hx hnx
    | rowPanic => exact ⟨rfl, rfl⟩
  | rowSkip _ ih => intro y t h; cases h with | rowSkip h => exact ih h
  | outer hd _ ih =>
    intro y t h
    cases h with
    | outer _ h => exact ih h
    | outerPanic => omega
  | outerPanic hd =>
    intro y t h
    cases h with
    | outer => omega
    | outerPanic => exact ⟨rfl, rfl⟩
  | panic => intro y t h; cases h; exact ⟨rfl, rfl⟩
  | attempt _ _ ihb ihk =>
    intro y t h
    cases h with
    | attempt hb hk => obtain ⟨_, rfl⟩ := ihb hb; exact ihk hk

theorem ranSets_unique {n : Nat} {code : RSets} {st st' : Except Err (List (Bytes × PExpr))} {x : Bool} (h : RanSets dt n code st x st') :
    ∀ {y t}, RanSets dt n code st y t → x = y ∧ st' = t := by
  have fine : ∀ {v : Val} {e : PExpr}, exprOf dt fmtTime v = some e → Fine dt v := fun h => by rw [Fine, h]; rfl
  induction h with
  | done => intro y t h; cases h; exact ⟨rfl, rfl⟩
  | set hr _ ih =>
    intro y t h
    cases h with
    | set hr' h => cases Option.some.inj (hr.symm.trans hr'); exact ih h
    | setFail hn => exact absurd (fine hr) hn
    | setPanic hx => exact absurd (fine hr) (Explodes.not_fine hx)
  | setFail hn hnx hb _ ih =>
    intro y t h
    cases h with
    | set hr' h => exact absurd (fine hr') hn
    | setFail _ _ hb' h => cases Blames.unique hb hb'; exact ih h
    | setPanic hx => exact absurd hx hnx
  | setPanic hx =>
    intro y t h
    cases h with
    | set hr' h => exact absurd (fine hr') (Explodes.not_fine hx)
    | setFail _ hnx _ h => exact absurd hx hnx
    | setPanic => exact ⟨rfl, rfl⟩
  | setSkip _ ih => intro y t h; cases h with | setSkip h => exact ih h
  | outer hd _ ih =>
    intro y t h
    cases h with
    | outer _ h => exact ih h
    | outerPanic => omega
  | outerPanic hd =>
    intro y t h
    cases h with
    | outer => omega
    | outerPanic => exact ⟨rfl, rfl⟩
  | panic => intro y t h; cases h; exact ⟨rfl, rfl⟩
  | attempt _ _ ihb ihk =>
    intro y t h
    cases h with
    | attempt hb hk => obtain ⟨_, rfl⟩ := ihb hb; exact ihk hk

/-- the values and messages of a call, by name of the variable -/
theorem asked_unique_named {c : Call} {m m' : List ClientMsg} {r r' : Option Val} {nm : List ClientMsg → Bytes}
    (h : Asked dt c m r) (h' : Asked dt c m' r')
    (hn : ∀ v, r = some v → v = .variable (nm m.dropLast)) (hn' : ∀ v, r' = some v → v = .variable (nm m'.dropLast)) :
    m = m' ∧ r = r' := asked_unique (nm := nm) (ms := []) h h' hn hn'

theorem ran_unique {nm : List Piece → Bytes} {n : Nat} {a a' : Left} {x : Option (List (Option Val))} (h : Ran dt nm n prog a x a') :
    ∀ {y t}, Ran dt nm n prog a y t → x = y ∧ a' = t := by
  induction h with
  | ret =>
    intro y t h
    cases h with
    | ret => exact ⟨rfl, rfl⟩
    | dead hu => cases hu
  | panic =>
    intro y t h
    cases h with
    | panic => exact ⟨rfl, rfl⟩
    | dead hu => cases hu
  | attempt _ _ ihb ihk =>
    intro y t h
    cases h with
    | attempt hb hk => obtain ⟨h1, rfl⟩ := ihb hb; cases h1; exact ihk hk
    | recovered hb hk => obtain ⟨h1, _⟩ := ihb hb; cases h1
    | dead hu => cases hu
  | recovered _ _ ihb ihk =>
    intro y t h
    cases h with
    | attempt hb hk => obtain ⟨h1, _⟩ := ihb hb; cases h1
    | recovered hb hk => obtain ⟨_, rfl⟩ := ihb hb; exact ihk hk
    | dead hu => cases hu
  | outer hd _ ih =>
    intro y t h
    cases h with
    | outer _ h => exact ih h
    | outerPanic => omega
    | dead hu => cases hu
  | outerPanic hd =>
    intro y t h
    cases h with
    | outer => omega
    | outerPanic => exact ⟨rfl, rfl⟩
    | dead hu => cases hu
  | dead hu =>
    intro y t h
    cases h with
    | dead => exact ⟨rfl, rfl⟩
    | ret => cases hu
    | panic => cases hu
    | attempt => cases hu
    | recovered => cases hu
    | outer => cases hu
    | outerPanic => cases hu
  | call ha hn _ ih =>
    intro y t h
    cases h with
    | call ha' hn' h =>
      obtain ⟨rfl, rfl⟩ := asked_unique_named (nm := fun ms => nm (_ ++ ms.map .msg)) ha ha' hn hn'
      exact ih h
    | callFail hna => exact absurd ha (hna _ _)
    | callPanic hx => exact absurd hx (explodes_not_asked ha)
    | callCut hc => exact absurd (cut_explodes hc) (explodes_not_asked ha)
  | callFail hna hnx hb _ ih =>
    intro y t h
    cases h with
    | call ha' => exact absurd ha' (hna _ _)
    | callFail _ _ hb' h => cases C62_unique hb hb'; exact ih h
    | callPanic hx => exact absurd hx hnx
    | callCut hc => exact absurd (cut_explodes hc) hnx
  | callPanic hx hn =>
    intro y t h
    cases h with
    | call ha => exact absurd hx (explodes_not_asked ha)
    | callFail _ hnx => exact absurd hx hnx
    | callPanic => exact ⟨rfl, rfl⟩
    | callCut hc => exact absurd hc (hn _)
  | callCut hc =>
    intro y t h
    cases h with
    | call ha => exact absurd (cut_explodes hc) (explodes_not_asked ha)
    | callFail _ hnx => exact absurd (cut_explodes hc) hnx
    | callPanic _ hn => exact absurd hc (hn _)
    | callCut hc' => cases cut_unique hc hc'; exact ⟨rfl, rfl⟩
  | callSkip _ ih => intro y t h; cases h with | callSkip h => exact ih h
  | tx hl _ _ ihb ihk =>
    intro y t h
    cases h with
    | tx hl' hb' h => cases hl.symm.trans hl'; obtain ⟨h1, h2⟩ := ihb hb'; cases h1; cases h2; exact ihk h
    | txFail hl' hb' _ => cases hl.symm.trans hl'; obtain ⟨h1, h2⟩ := ihb hb'; cases h2
    | txPanic hl' hb' => cases hl.symm.trans hl'; obtain ⟨h1, h2⟩ := ihb hb'; cases h1
    | txLevel hl' _ => cases hl.symm.trans hl'
  | txFail hl _ _ ihb ihk =>
    intro y t h
    cases h with
    | tx hl' hb' h => cases hl.symm.trans hl'; obtain ⟨h1, h2⟩ := ihb hb'; cases h2
    | txFail hl' hb' h => cases hl.symm.trans hl'; obtain ⟨h1, h2⟩ := ihb hb'; cases h1; cases h2; exact ihk h
    | txPanic hl' hb' => cases hl.symm.trans hl'; obtain ⟨h1, h2⟩ := ihb hb'; cases h1
    | txLevel hl' _ => cases hl.symm.trans hl'
  | txPanic hl _ ihb =>
    intro y t h
    cases h with
    | tx hl' hb' h => cases hl.symm.trans hl'; obtain ⟨h1, h2⟩ := ihb hb'; cases h1
    | txFail hl' hb' h => cases hl.symm.trans hl'; obtain ⟨h1, h2⟩ := ihb hb'; cases h1
    | txPanic hl' hb' => cases hl.symm.trans hl'; exact ⟨rfl, rfl⟩
    | txLevel hl' _ => cases hl.symm.trans hl'
  | txLevel hl _ ih =>
    intro y t h
    cases h with
    | tx hl' hb' h => cases hl.symm.trans hl'
    | txFail hl' hb' h => cases hl.symm.trans hl'
    | txPanic hl' hb' => cases hl.symm.trans hl'
    | txLevel hl' h => exact ih h
  | txSkip _ ih => intro y t h; cases h with | txSkip h => exact ih h
  | expect _ _ ihb ihk =>
    intro y t h
    cases h with
    | expect hb' h => obtain ⟨h1, h2⟩ := ihb hb'; cases h1; cases h2; exact ihk h
    | expectFail hb' h => obtain ⟨h1, h2⟩ := ihb hb'; cases h2
    | expectPanic hb' => obtain ⟨h1, h2⟩ := ihb hb'; cases h1
  | expectFail _ _ ihb ihk =>
    intro y t h
    cases h with
    | expect hb' h => obtain ⟨h1, h2⟩ := ihb hb'; cases h2
    | expectFail hb' h => obtain ⟨h1, h2⟩ := ihb hb'; cases h1; cases h2; exact ihk h
    | expectPanic hb' => obtain ⟨h1, h2⟩ := ihb hb'; cases h1
  | expectPanic _ ihb =>
    intro y t h
    cases h with
    | expect hb' h => obtain ⟨h1, h2⟩ := ihb hb'; cases h1
    | expectFail hb' h => obtain ⟨h1, h2⟩ := ihb hb'; cases h1
    | expectPanic hb' => exact ⟨rfl, rfl⟩
  | expectSkip _ ih => intro y t h; cases h with | expectSkip h => exact ih h
  | insertF hr _ ih =>
    intro y t h
    cases h with
    | insertF hr' h => obtain ⟨_, h2⟩ := ranRows_unique hr hr'; cases h2; exact ih h
    | insertFFail hr' h => obtain ⟨_, h2⟩ := ranRows_unique hr hr'; cases h2
    | insertFPanic hr' => obtain ⟨h1, _⟩ := ranRows_unique hr hr'; cases h1
  | insertFFail hr _ ih =>
    intro y t h
    cases h with
    | insertF hr' h => obtain ⟨_, h2⟩ := ranRows_unique hr hr'; cases h2
    | insertFFail hr' h => obtain ⟨_, h2⟩ := ranRows_unique hr hr'; cases h2; exact ih h
    | insertFPanic hr' => obtain ⟨h1, _⟩ := ranRows_unique hr hr'; cases h1
  | insertFPanic hr =>
    intro y t h
    cases h with
    | insertF hr' h => obtain ⟨h1, _⟩ := ranRows_unique hr hr'; cases h1
    | insertFFail hr' h => obtain ⟨h1, _⟩ := ranRows_unique hr hr'; cases h1
    | insertFPanic hr' => exact ⟨rfl, rfl⟩
  | insertFSkip _ ih => intro y t h; cases h with | insertFSkip h => exact ih h
  | updateF hc hr _ ih =>
    intro y t h
    cases h with
    | updateF hc' hr' h => cases crit_unique hc hc'; obtain ⟨_, h2⟩ := ranSets_unique hr hr'; cases h2; exact ih h
    | updateFFail _ hr' h => obtain ⟨_, h2⟩ := ranSets_unique hr hr'; cases h2
    | updateFPanic _ hr' => obtain ⟨h1, _⟩ := ranSets_unique hr hr'; cases h1
    | updateFCrit hn => exact absurd (crit_fine hc _ rfl) hn
    | updateFCritPanic hn => exact absurd (crit_fine hc _ rfl) hn
    | updateFCritExplodes hx => exact absurd (crit_fine hc _ rfl) (Explodes.not_fine hx)
  | updateFFail hc hr _ ih =>
    intro y t h
    cases h with
    | updateF hc' hr' h => obtain ⟨_, h2⟩ := ranSets_unique hr hr'; cases h2
    | updateFFail _ hr' h => obtain ⟨_, h2⟩ := ranSets_unique hr hr'; cases h2; exact ih h
    | updateFPanic _ hr' => obtain ⟨h1, _⟩ := ranSets_unique hr hr'; cases h1
    | updateFCrit hn => exact absurd (crit_fine hc _ rfl) hn
    | updateFCritPanic hn => exact absurd (crit_fine hc _ rfl) hn
    | updateFCritExplodes hx => exact absurd (crit_fine hc _ rfl) (Explodes.not_fine hx)
  | updateFPanic hc hr =>
    intro y t h
    cases h with
    | updateF hc' hr' h => obtain ⟨h1, _⟩ := ranSets_unique hr hr'; cases h1
    | updateFFail _ hr' h => obtain ⟨h1, _⟩ := ranSets_unique hr hr'; cases h1
    | updateFPanic _ hr' => exact ⟨rfl, rfl⟩
    | updateFCrit hn => exact absurd (crit_fine hc _ rfl) hn
    | updateFCritPanic hn => exact absurd (crit_fine hc _ rfl) hn
    | updateFCritExplodes hx => exact absurd (crit_fine hc _ rfl) (Explodes.not_fine hx)
  | updateFCrit hn hnx hb hr _ ih =>
    intro y t h
    cases h with
    | updateF hc => exact absurd (crit_fine hc _ rfl) hn
    | updateFFail hc => exact absurd (crit_fine hc _ rfl) hn
    | updateFPanic hc => exact absurd (crit_fine hc _ rfl) hn
    | updateFCrit _ _ hb' hr' h => cases Blames.unique hb hb'; exact ih h
    | updateFCritPanic _ _ hb' hr' =>
      cases Blames.unique hb hb'
      obtain ⟨h1, _⟩ := ranSets_unique hr hr'; cases h1
    | updateFCritExplodes hx => exact absurd hx hnx
  | updateFCritPanic hn hnx hb hr =>
    intro y t h
    cases h with
    | updateF hc => exact absurd (crit_fine hc _ rfl) hn
    | updateFFail hc => exact absurd (crit_fine hc _ rfl) hn
    | updateFPanic hc => exact absurd (crit_fine hc _ rfl) hn
    | updateFCrit _ _ hb' hr' h =>
      cases Blames.unique hb hb'
      obtain ⟨h1, _⟩ := ranSets_unique hr hr'; cases h1
    | updateFCritPanic => exact ⟨rfl, rfl⟩
    | updateFCritExplodes hx => exact absurd hx hnx
  | updateFCritExplodes hx =>
    intro y t h
    cases h with
    | updateF hc => exact absurd (crit_fine hc _ rfl) (Explodes.not_fine hx)
    | updateFFail hc => exact absurd (crit_fine hc _ rfl) (Explodes.not_fine hx)
    | updateFPanic hc => exact absurd (crit_fine hc _ rfl) (Explodes.not_fine hx)
    | updateFCrit _ hnx => exact absurd hx hnx
    | updateFCritPanic _ hnx => exact absurd hx hnx
    | updateFCritExplodes => exact ⟨rfl, rfl⟩
  | updateFSkip _ ih => intro y t h; cases h with | updateFSkip h => exact ih h

end spec

/-! ### the pieces in the buffer -/

/-- the bytes of the pieces, one after the other -/
theorem written_frames {ps : List Piece} {bs : Bytes} (h : Written ps bs) : ∃ frs : List Bytes, bs = frs.flatten ∧ frs.length = ps.length ∧
    ∀ (i : Nat) fr p, frs[i]? = some fr → ps[i]? = some p → fr.length = (codeFrame (Piece.body p)).length ∧
      match p with
      | .msg m => fr = codeFrame m
      | .cut m => fr.drop 4 = (codeFrame m).drop 4 := by
  have snoc : ∀ {ps : List Piece} {frs : List Bytes} {fr0 : Bytes} {p0 : Piece} {P : Bytes → Piece → Prop}, frs.length = ps.length →
      (∀ (i : Nat) fr p, frs[i]? = some fr → ps[i]? = some p → P fr p) → P fr0 p0 →
      ∀ (i : Nat) fr p, (frs ++ [fr0])[i]? = some fr → (ps ++ [p0])[i]? = some p → P fr p := by
    intro ps frs fr0 p0 P hl h h0 i fr p h1 h2
    by_cases hi : i < frs.length
    · rw [List.getElem?_append_left hi] at h1
      rw [List.getElem?_append_left (by omega)] at h2
      exact h i fr p h1 h2
    · rw [List.getElem?_append_right (by omega)] at h1
      rw [List.getElem?_append_right (by omega)] at h2
      rw [hl] at h1
      cases hk : i - ps.length with
      | zero => rw [hk] at h1 h2; cases h1; cases h2; exact h0
      | succ k => rw [hk] at h1; cases h1
  induction h with
  | nil => exact ⟨[], rfl, rfl, fun i fr p h => by simp at h⟩
  | @msg ps bs m _ ih =>
    obtain ⟨frs, rfl, hl, h⟩ := ih
    exact ⟨frs ++ [codeFrame m], by simp, by simp [hl], snoc (P := fun fr p => fr.length = (codeFrame (Piece.body p)).length ∧
      match p with
      | .msg m => fr = codeFrame m
      | .cut m => fr.drop 4 = (codeFrame m).drop 4) hl h ⟨rfl, rfl⟩⟩
  | @cut ps bs m J _ hJ ih =>
    obtain ⟨frs, rfl, hl, h⟩ := ih
    refine ⟨frs ++ [J ++ (codeFrame m).drop 4], by simp, by simp [hl], snoc (P := fun fr p => fr.length = (codeFrame (Piece.body p)).length ∧
      match p with
      | .msg m => fr = codeFrame m
      | .cut m => fr.drop 4 = (codeFrame m).drop 4) hl h ⟨?_, ?_⟩⟩
    · have := codeFrame_length m
      simp [Piece.body, hJ]
      omega
    · exact List.drop_left' hJ

theorem written_msgs {ms : List ClientMsg} : ∀ {ps : List Piece} {bs : Bytes}, Written ps bs → ps = ms.map .msg → bs = bytesOf ms := by
  intro ps bs h
  induction h generalizing ms with
  | nil => intro he; cases ms with
    | nil => rfl
    | cons => cases he
  | @msg ps bs m _ ih =>
    intro he
    rcases List.eq_nil_or_concat ms with rfl | ⟨ms', m', rfl⟩
    · simp at he
    · rw [List.concat_eq_append, List.map_append] at he
      obtain ⟨h1, h2⟩ := List.append_inj' he rfl
      cases h2
      rw [ih h1, List.concat_eq_append]
      simp [bytesOf]
  | @cut ps bs m J _ _ ih =>
    intro he
    rcases List.eq_nil_or_concat ms with rfl | ⟨ms', m', rfl⟩
    · simp at he
    · rw [List.concat_eq_append, List.map_append] at he
      obtain ⟨h1, h2⟩ := List.append_inj' he rfl
      cases h2

theorem one_frame {m : ClientMsg} (h : (codeFrame m).length < 2 ^ 32) : readFrames (codeFrame m) = some [codeMsg m] := by
  have := bytesOf_frames (ms := [m]) (by simpa [bytesOf] using h)
  simpa [bytesOf] using this

theorem one_stream {m : ClientMsg} (h : (codeFrame m).length < 2 ^ 32) (hg : GoodMsg m) : decodeStream (codeFrame m) = some [m] := by
  have := bytesOf_stream (ms := [m]) (by simpa [bytesOf] using h) (by simpa using hg)
  simpa [bytesOf] using this

theorem lrel_leftAs {Z : Bytes} {a : Left} (h : LRel Z b a) (hg : GoodUnit a) : LeftAs Z b a := by
  refine ⟨h.1, ?_⟩
  have h2 := h.2
  obtain ⟨u, d⟩ := a
  cases u with
  | error e => exact h2
  | ok ps =>
    obtain ⟨he, bs, hw, hb⟩ := h2
    obtain ⟨frs, rfl, hl, hf⟩ := written_frames hw
    refine ⟨he, frs, hb, hl, fun i fr p h1 h2 => ?_, fun ms hms hr hlen => ?_⟩
    · obtain ⟨h3, h4⟩ := hf i fr p h1 h2
      have hgp := hg ps rfl p (List.mem_of_getElem? h2)
      cases p with
      | msg m =>
        replace h4 : fr = codeFrame m := h4
        subst h4
        exact fun hlen => ⟨⟨_, one_frame hlen⟩, fun hr => one_stream hlen (hgp hr)⟩
      | cut m =>
        replace h4 : fr.drop 4 = (codeFrame m).drop 4 := h4
        have := codeFrame_length m
        simp only [Piece.body] at h3
        refine ⟨by omega, fun hlen => ⟨(codeFrame m).take 4, by rw [List.length_take]; omega, ?_⟩⟩
        rw [h4, List.take_append_drop]
        exact ⟨⟨_, one_frame (by omega)⟩, fun hr => one_stream (by omega) (hgp hr)⟩
    · have e := written_msgs hw hms
      rw [e] at hlen ⊢
      refine bytesOf_stream hlen fun m hm => hg ps rfl (.msg m) ?_ (hr m hm)
      rw [hms]; exact List.mem_map_of_mem hm

/-! ### C73 -/

/-- How a run ended, in the words of the specification. -/
def RanAs (r : Ended (List Builder × Builder) (List (Option Val))) (old : Bytes) (x : Option (List (Option Val))) (a : Left) : Prop :=
  ∃ b', LeftAs old b' a ∧ r = match x with
    | some out => .ret ([], b') out
    | none => .panic ([], b')

/-- C73, exactly: whatever a program does, panics and recovers from, it ends in the one way `Ran` says, unless memory
runs out, and the builder holds the pieces `Ran` says, and is dead if `Ran` says so.  If the pieces are whole messages,
what is in the buffer is read as exactly these. -/
theorem C73_recover_partial (hb : Ready b) : ∃ nm : List Piece → Bytes, ∀ (g : Grow) (prog : RProg),
    runLeft g prog [] b = .oom ∨ ∃ x a, Ran libDur nm 0 prog ⟨.ok [], false⟩ x a ∧
      (∀ y a', Ran libDur nm 0 prog ⟨.ok [], false⟩ y a' → y = x ∧ a' = a) ∧ RanAs (runLeft g prog [] b) b.buf.data x a := by
  refine ⟨nameP b.buf.data.length, fun g prog => ?_⟩
  rcases runLeft_ran (g := g) (Z := b.buf.data) prog [] b ⟨.ok [], false⟩ (by simp) ⟨hb.1, hb.2, [], .nil, by simp⟩ with
    h | ⟨x, a, b', h1, h2, h3⟩
  · exact .inl h
  · rw [modelDur_lib] at h1
    refine .inr ⟨x, a, h1, fun y a' h => ran_unique h h1, b', lrel_leftAs h2 (ran_good h1 fun ps h => by cases h; simp), ?_⟩
    rw [h3]; cases x <;> rfl

/-- The programs of the other properties are among these, and end in the same way. -/
theorem C73_programs (prog : Prog) : forget (runLeft g (progCode prog) [] b) = run g prog [] b := runLeft_run prog [] b

/-- a call under `recover`, and what follows -/
def tryCall (c : Call) (left : Bytes) (k : RProg) : RProg := .attempt (.call c fun _ => .ret none []) left fun _ => k

/-- C73 holds of the calls whose panic comes before anything is in the buffer, `StmtExecute`, `Execute` and `Delete` among
them: what follows runs on the same builder, up to the bytes behind the end of the buffer. -/
theorem C73_retry (hb : Ready b) {c : Call} (hx : CallExplodes libDur c) (hn : ∀ m, ¬Cut libDur c m) (left : Bytes) (k : RProg) :
    runLeft g (tryCall c left k) [] b = .oom ∨
    runLeft g (tryCall c left k) [] b = runLeft g k [] { b with buf := ⟨b.buf.data, overwrite b.buf.spare 0 left⟩ } := by
  rw [← modelDur_lib] at hx hn
  rcases explodes_cut hx with ⟨m, hm⟩ | ⟨_, hp⟩
  · exact absurd hm (hn m)
  · rw [tryCall, runLeft, runLeft]
    rcases hp g b hb with h | h
    · exact .inl (by rw [h])
    · exact .inr (by rw [h]; rfl)

theorem stmt_not_cut {s : Bytes} {args : List Val} (m : ClientMsg) : ¬Cut libDur (.stmtExecute s args) m := fun h => by cases h
theorem execute_not_cut {id : BitVec 32} {args : List Val} (m : ClientMsg) : ¬Cut libDur (.execute id args) m := fun h => by cases h
theorem delete_not_cut {t : Bytes} {crit : Criteria} (m : ClientMsg) : ¬Cut libDur (.delete t crit) m := fun h => by cases h

/-- C73 fails of the others, always: behind whole messages and with zeros behind the end of the buffer (a new pipe), the
builder accepts calls as if nothing had happened, `Send` hands over what is in the buffer, and that is not a stream of
messages, whatever is added to it. -/
theorem C73_torn (hb : Ready b) {ms : List ClientMsg} (hs : decodeStream b.buf.data = some ms) (hz : ∀ x ∈ b.buf.spare, x = 0)
    {c : Call} {m : ClientMsg} (hc : Cut libDur c m) :
    b.stepLeft g c = .oom ∨ ∃ b', b.stepLeft g c = .panic b' ∧ Ready b' ∧ b'.send = .ok (.ok b'.buf.data) ∧
      ∀ more, decodeStream (b'.buf.data ++ more) = none := by
  rw [← modelDur_lib] at hc
  rcases stepLeft_torn (g := g) hb hc with h | ⟨p, J, h, hJ, hst, hd⟩
  · exact .inl h
  · refine .inr ⟨{ b with buf := p }, h, hb, ?_, fun more => ?_⟩
    · simp [Builder.send, hb.1, hb.2]
    · have hJ0 : J = [0, 0, 0, 0] := by
        rcases hst with rfl | h
        · have : ∀ x ∈ b.buf.spare.take 4, x = 0 := fun x hx => hz x (List.mem_of_mem_take hx)
          match hl : b.buf.spare.take 4, hJ with
          | [x, y, z, w], _ => rw [hl] at this; simp at this; obtain ⟨rfl, rfl, rfl, rfl⟩ := this; rfl
        · exact h
      show decodeStream (p.data ++ more) = none
      rw [hd, hJ0, List.append_assoc]
      exact decodeStream_bad hs (readFrame_zero _) (by simp)

/-- Whatever is behind the end of the buffer, the place of the header holds what was there, or zeros. -/
theorem C73_header (hb : Ready b) {c : Call} {m : ClientMsg} (hc : Cut libDur c m) :
    b.stepLeft g c = .oom ∨ ∃ b', b.stepLeft g c = .panic b' ∧ Ready b' ∧
      ((b'.buf.data.drop b.buf.data.length).take 4 = b.buf.spare.take 4 ∨
       (b'.buf.data.drop b.buf.data.length).take 4 = [0, 0, 0, 0]) := by
  rw [← modelDur_lib] at hc
  rcases stepLeft_torn (g := g) hb hc with h | ⟨p, J, h, hJ, hst, hd⟩
  · exact .inl h
  · refine .inr ⟨{ b with buf := p }, h, hb, ?_⟩
    dsimp only
    rw [hd, List.drop_left, List.take_left' hJ]
    exact hst

/-- a transaction, an expectation block, an `InsertF` or an `UpdateF` (with criteria that do not panic), and nothing after it -/
inductive Scope : RProg → Prop
  | tx {level body} : Scope (.tx level body fun o => .ret none o)
  | expect {op body} : Scope (.expect op body fun o => .ret none o)
  | insertF {t cols body err} : Scope (.insertF t cols body err (.ret none []))
  | updateF {t crit body err} : (∀ v, crit = some v → ¬Explodes libDur v) → Scope (.updateF t crit body err (.ret none []))

theorem scope_dead {nm : List Piece → Bytes} {n : Nat} {a a' : Left} {x : Option (List (Option Val))} (hs : Scope prog)
    (h : Ran libDur nm n prog a x a') (hx : x = none) : a'.dead = true := by
  subst hx
  cases hs with
  | tx =>
    cases h with
    | dead => rfl
    | txPanic => rfl
    | tx _ _ h => cases h
    | txFail _ _ h => cases h
    | txLevel _ h => cases h
    | txSkip h => cases h
  | expect =>
    cases h with
    | dead => rfl
    | expectPanic => rfl
    | expect _ h => cases h
    | expectFail _ h => cases h
    | expectSkip h => cases h
  | insertF =>
    cases h with
    | dead => rfl
    | insertFPanic => rfl
    | insertF _ h => cases h
    | insertFFail _ h => cases h
    | insertFSkip h => cases h
  | updateF hc =>
    cases h with
    | dead => rfl
    | updateFPanic => rfl
    | updateFCritPanic => rfl
    | updateFCritExplodes hx => exact absurd hx (hc _ rfl)
    | updateF _ _ h => cases h
    | updateFFail _ _ h => cases h
    | updateFCrit _ _ _ _ h => cases h
    | updateFSkip h => cases h

/-- C73 fails of callbacks, always: once a callback has panicked the builder it was run on is of no use.  Recording,
`Send` and `Reset` panic; what was recorded cannot be sent, and the pipe cannot be used again. -/
theorem C73_dead (hb : Ready b) (hs : Scope prog) (h : runLeft g prog [] b = .panic (o, b')) :
    (∀ (g' : Grow) (c : Call), b'.step g' c = .error .panic) ∧ b'.send = .error .panic ∧ b'.reset = .error .panic := by
  obtain ⟨nm, hx⟩ := C73_recover_partial hb
  rcases hx g prog with hx | ⟨x, a, hr, _, b1, hl, he⟩
  · rw [h] at hx; cases hx
  · rw [h] at he
    cases x with
    | some out => cases he
    | none =>
      cases he
      have hd : b'.disabled = true := hl.1.trans (scope_dead hs hr rfl)
      exact ⟨fun g' c => by unfold Builder.step; rw [if_pos hd], by simp [Builder.send, hd], by simp [Builder.reset, hd]⟩

/-- C73 fails of transactions inside of callbacks, always: whatever made the transaction panic, if the enclosing callback
recovers then the unit of work begins a transaction that it neither commits nor rolls back, and is ready to be sent. -/
theorem C73_dangling (hb : Ready b) (op : UInt8) {level : BitVec 64} {ss : List String} (hl : txOpening level.toNat = some ss)
    (left : Bytes) (k : List (Option Val) → RProg) (hop : op.toNat ≤ 1)
    (hp : ∀ nm : List Piece → Bytes, ∃ a', Ran libDur nm 2 body
      ⟨.ok (.msg (.expectOpen op.toNat [(1, ascii "1")]) :: ss.map fun s => .msg (sql s)), false⟩ none a') :
    runLeft g (.expect op (.attempt (.tx level body k) left fun _ => .ret none []) fun o => .ret none o) [] b = .oom ∨
    ∃ b' fr, runLeft g (.expect op (.attempt (.tx level body k) left fun _ => .ret none []) fun o => .ret none o) [] b = .ret ([], b') [] ∧
      Ready b' ∧ b'.buf.data = b.buf.data ++ fr ∧
      (fr.length < 2 ^ 32 → decodeStream fr = some (.expectOpen op.toNat [(1, ascii "1")] :: ss.map sql ++ [.expectClose])) := by
  obtain ⟨nm, hx⟩ := C73_recover_partial hb
  rcases hx g (.expect op (.attempt (.tx level body k) left fun _ => .ret none []) fun o => .ret none o) with hx | ⟨x, a, hr, hu, b1, hla, he⟩
  · exact .inl hx
  · right
    obtain ⟨a', ha'⟩ := hp nm
    have hr2 : Ran libDur nm 0 (.expect op (.attempt (.tx level body k) left fun _ => .ret none []) fun o => .ret none o) ⟨.ok [], false⟩
        (some []) ⟨.ok ([] ++ [.msg (.expectOpen op.toNat [(1, ascii "1")])] ++ (ss.map fun s => .msg (sql s)) ++ [.msg .expectClose]), false⟩ :=
      .expect (d := true) (.recovered (.txPanic hl ha') .ret) .ret
    obtain ⟨rfl, rfl⟩ := hu _ _ hr2
    obtain ⟨hd, herr, frs, hdata, _, _, hdec⟩ := hla
    refine ⟨b1, frs.flatten, he, ⟨hd, herr⟩, hdata, fun hlen => hdec _ ?_ ?_ hlen⟩
    · simp [Function.comp_def]
    · intro m hm
      simp only [List.cons_append, List.mem_cons, List.mem_append, List.mem_map, List.not_mem_nil, or_false] at hm
      rcases hm with rfl | ⟨s, _, rfl⟩ | rfl
      · exact hop
      · exact trivial
      · exact trivial

/-! ### wrong for the code: the full statements of C73 -/

/-- C73 in full asks that a recovered panic leaves a builder that can be used.  It does not. -/
theorem C73_not_usable : ¬∀ (g : Grow) (b b' : Builder) (prog : RProg) (o : List Builder), Ready b →
    runLeft g prog [] b = .panic (o, b') → ∃ b0, b'.reset = .ok b0 := by
  intro h
  obtain ⟨b0, h0⟩ := h growEx (newPipe 64) _ (.tx 0 .panic fun o => .ret none o) [] ⟨rfl, rfl⟩ rfl
  cases h0

/-- the row that panics is the second -/
def tornInsert (x : BitVec 64) : Call := .insert (ascii "t") [ascii "a"] [[.int x], [.nilFn]]

/-- seven is in the buffer by then -/
theorem tornInsert_cut (x : BitVec 64) : Cut libDur (tornInsert x) (.insert (ascii "t") (some 2) [ascii "a"] [[.literal (.sint x.toInt)]]) :=
  .insert (front := [[.int x]]) (rest := []) (by simp) rfl rfl ⟨0, _, rfl, fun y hy => by simp at hy, .nilFn⟩

/-- C73 in full asks that what is sent afterwards are messages.  They are not. -/
theorem C73_not_whole : ¬∀ (g : Grow) (b b' : Builder) (prog : RProg) (o : List Builder) (fr : Bytes), Ready b →
    runLeft g prog [] b = .panic (o, b') → b'.send = .ok (.ok fr) → fr.length < 2 ^ 32 → ∃ ms, decodeStream fr = some ms := by
  intro h
  have hlen : (match (newPipe 64).stepLeft growEx (tornInsert 7) with
    | .panic b => b.buf.data.length
    | _ => 2 ^ 32) < 2 ^ 32 := by decide +kernel
  rcases C73_torn (g := growEx) (b := newPipe 64) ⟨rfl, rfl⟩ (ms := []) rfl (by simp [newPipe]) (tornInsert_cut 7) with h0 | ⟨b', h0, _, hs, hn⟩
  · rw [h0] at hlen; exact absurd hlen (by decide)
  · rw [h0] at hlen
    obtain ⟨ms, hm⟩ := h growEx (newPipe 64) b' (.call (tornInsert 7) fun _ => .ret none []) [] _ ⟨rfl, rfl⟩ (by rw [runLeft, h0]) hs hlen
    rw [← List.append_nil b'.buf.data, hn] at hm
    cases hm

/-- what is in the buffer at the end -/
def leftOver (b : Builder) (prog : RProg) : Option Bytes :=
  match runLeft growEx prog [] b with
  | .ret (_, b') _ => if b'.err.isNone && !b'.disabled then some b'.buf.data else none
  | _ => none

/-- a pipe on which `Insert("t", ["a"], [[1]])` has been recorded (and sent), and which has been reset -/
def usedPipe : Builder :=
  match (newPipe 64).step growEx (.insert (ascii "t") [ascii "a"] [[.int 1]]) with
  | .ok (b, _) => (match b.reset with | .ok b => b | .error _ => newPipe 64)
  | .error _ => newPipe 64

/-- With the header of an earlier message in its place, the first half of an `Insert` that panicked is a message: the
server is asked for the rows in front of the one that panicked, and only for these. -/
theorem C73_half : Ready usedPipe ∧ usedPipe.buf.data = [] ∧
    leftOver usedPipe (tryCall (tornInsert 7) [] (.ret none [])) = (usedPipe.step growEx (.insert (ascii "t") [ascii "a"] [[.int 7]])).toOption.map (·.1.buf.data) ∧
    (leftOver usedPipe (tryCall (tornInsert 7) [] (.ret none []))).isSome := by
  refine ⟨⟨rfl, rfl⟩, rfl, by decide +kernel, by decide +kernel⟩

/-! ### examples -/

/-- a statement whose panic is recovered from, and another behind it -/
example : CallExplodes libDur (.stmtExecute (ascii "SELECT ?") [.nilPtr true]) ∧
    ((leftOver (newPipe 64) (tryCall (.stmtExecute (ascii "SELECT ?") [.nilPtr true]) [1, 2, 3] (.call (.deallocate 7) fun _ => .ret none []))).bind decodeStream).isSome ∧
    leftOver (newPipe 64) (tryCall (.stmtExecute (ascii "SELECT ?") [.nilPtr true]) [1, 2, 3] (.call (.deallocate 7) fun _ => .ret none [])) =
      leftOver (newPipe 64) (.call (.deallocate 7) fun _ => .ret none []) := by
  refine ⟨⟨0, _, rfl, fun y hy => by simp at hy, rfl⟩, by decide +kernel, by decide +kernel⟩

/-- an insert that is torn -/
example : ((leftOver (newPipe 64) (tryCall (tornInsert 7) [] (.call (.deallocate 7) fun _ => .ret none []))).map decodeStream).map (·.isSome) =
    some false := by decide +kernel

/-- rows that panic are left out if the callback recovers -/
example : (leftOver (newPipe 64) (.insertF (ascii "t") [ascii "a"] (.row [.int 1] (.attempt (.row [.nilFn] .done) [] (.row [.int 2] .done))) none
      (.ret none []))) = (leftOver (newPipe 64) (.insertF (ascii "t") [ascii "a"] (.row [.int 1] (.row [.int 2] .done)) none (.ret none []))) ∧
    (leftOver (newPipe 64) (.insertF (ascii "t") [ascii "a"] (.row [.int 1] (.row [.int 2] .done)) none (.ret none []))).isSome := by
  constructor <;> decide +kernel

/-- the row that panics kills the builder if only the caller of `InsertF` recovers -/
example : Scope (.insertF (ascii "t") [ascii "a"] (.row [.nilFn] .done) none (.ret none [])) ∧
    ∃ b', runLeft growEx (.insertF (ascii "t") [ascii "a"] (.row [.nilFn] .done) none (.ret none [])) [] (newPipe 64) = .panic ([], b') :=
  ⟨.insertF, _, rfl⟩

/-- a transaction nobody ends: the statement in it panics, the block around it recovers -/
example : ((leftOver (newPipe 64) (.expect 0 (.attempt (.tx 0 (.call (.delete (ascii "t") (some .nilFn)) fun _ => .ret none []) fun o => .ret none o) []
      fun _ => .ret none []) fun o => .ret none o)).bind readFrames).map (·.map Prod.fst) = some [24, 12, 25] ∧
    ∀ nm : List Piece → Bytes, ∃ a', Ran libDur nm 2 (.call (.delete (ascii "t") (some .nilFn)) fun _ => .ret none [])
      ⟨.ok (.msg (.expectOpen (0 : UInt8).toNat [(1, ascii "1")]) :: ["START TRANSACTION"].map fun s => .msg (sql s)), false⟩ none a' := by
  refine ⟨by decide +kernel, fun nm => ⟨_, .callPanic ⟨_, rfl, .nilFn⟩ delete_not_cut⟩⟩

end Verif.Props
