import Verif.Spec.Alias
/-! Towards C67: the builder in use holds what was recorded through it, wherever its array is. -/
namespace Verif.Proof.Alias
open Verif.Go Verif.Model.Alias Verif.Spec.Alias

variable {h h' : Heap} {r r' q : Ref} {enc : Bytes}

/-- within its array -/
def Fits (h : Heap) (r : Ref) : Prop := r.len ≤ (h.arrays r.arr).length

theorem data_length (hf : Fits h r) : (h.data r).length = r.len := by
  rw [Heap.data, List.length_take]; exact Nat.min_eq_left hf

theorem put_data (hp : Put h r enc h' r') (hf : Fits h r) : h'.data r' = h.data r ++ enc ∧ Fits h' r' := by
  have hl := data_length hf
  cases hp with
  | inPlace hs =>
    refine ⟨?_, ?_⟩
    · simp only [Heap.data, Heap.set, if_pos]
      rw [List.take_append_of_le_length, List.take_of_length_le]
      all_goals { have := hl; simp only [Heap.data] at this; simp only [List.length_append, this]; omega }
    · simp only [Fits, Heap.set, if_pos]
      simp only [List.length_append, hl]; omega
  | moved hs hn =>
    refine ⟨?_, ?_⟩
    · simp only [Heap.data, Heap.set, if_pos]
      rw [List.take_append_of_le_length, List.take_of_length_le]
      all_goals { have := hl; simp only [Heap.data] at this; simp only [List.length_append, this]; omega }
    · simp only [Fits, Heap.set, if_pos]
      simp only [List.length_append, hl]; omega

theorem patch_data {n : Nat} {u : Bytes} (hf : Fits h r) (hu : u.length = 4) (hn : n + 4 ≤ r.len) :
    (h.patch r n u).data r = patched (h.data r) n u ∧ Fits (h.patch r n u) r := by
  have hf' := hf
  simp only [Fits] at hf'
  refine ⟨?_, ?_⟩
  · simp only [Heap.data, Heap.patch, Heap.set, if_pos, patched]
    rw [List.take_take, List.append_assoc, List.append_assoc, List.take_append, List.length_take]
    rw [List.take_take]
    congr 1
    · congr 1; omega
    · rw [List.take_append, List.take_of_length_le (by omega), List.drop_take]
      congr 2; omega
  · simp only [Fits, Heap.patch, Heap.set, if_pos]
    simp only [List.length_append, List.length_take, List.length_drop]; omega

/-- The builder of the innermost callback that runs, or the first. -/
def current : List Frame → Nat
  | [] => 0
  | f :: _ => f.child

/-- All builders whose callbacks run are disabled but for the last. -/
def Chain (hs : List Handle) : List Frame → Prop
  | [] => True
  | f :: fs => f.parent = current fs ∧ f.parent < f.child ∧ (∃ b, hs[f.parent]? = some b ∧ b.disabled = true) ∧ Chain hs fs

theorem chain_closed {hs : List Handle} {st : List Frame} (hc : Chain hs st) {i : Nat} (ho : i = 0 ∨ ∃ f ∈ st, f.child = i) (hi : i ≠ current st) :
    ∃ b, hs[i]? = some b ∧ b.disabled = true := by
  induction st with
  | nil =>
    rcases ho with h | ⟨f, hf, -⟩
    · exact absurd h hi
    · cases hf
  | cons f fs ih =>
    obtain ⟨h1, h2, h3, h4⟩ := hc
    have ho' : i = 0 ∨ ∃ f ∈ fs, f.child = i := by
      rcases ho with h | ⟨f', hf, he⟩
      · exact .inl h
      · cases hf with
        | head => exact absurd he.symm hi
        | tail _ hf => exact .inr ⟨f', hf, he⟩
    by_cases hp : i = current fs
    · rw [hp, ← h1]; exact h3
    · exact ih h4 ho' hp

/-- The builders below do not change. -/
theorem chain_keep {hs hs' : List Handle} {st : List Frame} (hc : Chain hs st) (hk : ∀ i, i < current st → hs'[i]? = hs[i]?) : Chain hs' st := by
  induction st with
  | nil => trivial
  | cons f fs ih =>
    obtain ⟨h1, h2, h3, h4⟩ := hc
    simp only [current] at hk
    exact ⟨h1, h2, by rw [hk _ h2]; exact h3, ih h4 fun i hi => hk i (by omega)⟩

structure Inv (s : State) (l : Library) : Prop where
  stack : s.stack = l.stack
  length : s.handles.length = l.books.length
  chain : Chain s.handles s.stack
  current : ∃ b k, s.handles[current s.stack]? = some b ∧ l.books[current s.stack]? = some k ∧ b.disabled = false ∧ b.err = k.failed ∧
    (b.err = false → Fits s.heap b.ref ∧ s.heap.data b.ref = k.bytes)

theorem inv_init (n : Nat) : Inv (init n) emptyLibrary :=
  ⟨rfl, rfl, trivial, ⟨⟨0, 0⟩, false, false⟩, ⟨[], false⟩, rfl, rfl, rfl, rfl, fun _ => ⟨Nat.zero_le _, rfl⟩⟩

theorem get_set {α : Type} {l : List α} {i : Nat} {a x : α} (h : l[i]? = some a) : (l.set i x)[i]? = some x := by
  have := (List.getElem?_eq_some_iff.mp h).1
  simp [this]

theorem lt_of_get {α : Type} {l : List α} {i : Nat} {a : α} (h : l[i]? = some a) : i < l.length := (List.getElem?_eq_some_iff.mp h).1

theorem inv_step {s s' : State} {a : Act} {l : Library} (hi : Inv s l) (hs : Step s a s')
    (hp : l.allows a) : Inv s' (l.act a) := by
  obtain ⟨h1, h2, h3, b0, k0, h4, h5, h6, h7, h8⟩ := hi
  have here : ∀ {i : Nat} {b : Handle}, l.open i → s.handles[i]? = some b → b.disabled = false → i = current s.stack ∧ b = b0 := by
    intro i b ho hb hd
    by_cases hc : i = current s.stack
    · subst hc; rw [h4] at hb; cases hb; exact ⟨rfl, rfl⟩
    · obtain ⟨b', e1, e2⟩ := chain_closed h3 (by rw [Library.open, ← h1] at ho; exact ho) hc
      rw [hb] at e1; cases e1; rw [hd] at e2; cases e2
  cases hs with
  | call hb hd he hput =>
    obtain ⟨rfl, rfl⟩ := here hp hb hd
    obtain ⟨f1, f2⟩ := h8 he
    obtain ⟨d1, d2⟩ := put_data hput f1
    obtain ⟨bs, failed⟩ := k0
    simp only [he] at h7
    subst h7
    simp only [Library.act, h5]
    refine ⟨h1, by simp [State.put, h2], chain_keep h3 fun i (hi : i < current s.stack) => by simp only [State.put]; rw [List.getElem?_set_ne (by omega)], _, _, get_set h4, get_set h5, hd, he, fun _ => ⟨d2, ?_⟩⟩
    simp only [State.put]
    rw [d1, f2]
  | callErr hb hd he =>
    obtain ⟨rfl, rfl⟩ := here hp hb hd
    obtain ⟨bs, failed⟩ := k0
    simp only [he] at h7
    subst h7
    simp only [Library.act, h5]
    exact ⟨h1, h2, h3, _, _, h4, h5, h6, he, h8⟩
  | fail hb hd he hput =>
    obtain ⟨rfl, rfl⟩ := here hp hb hd
    obtain ⟨bs, failed⟩ := k0
    simp only [he] at h7
    subst h7
    simp only [Library.act, h5]
    exact ⟨h1, by simp [State.put, h2], chain_keep h3 fun i (hi : i < current s.stack) => by simp only [State.put]; rw [List.getElem?_set_ne (by omega)], _, _, get_set h4, get_set h5, hd, rfl, fun h => by cases h⟩
  | failNil hb hd he hn =>
    obtain ⟨rfl, rfl⟩ := here hp hb hd
    obtain ⟨bs, failed⟩ := k0
    simp only [he] at h7
    subst h7
    simp only [Library.act, h5]
    exact ⟨h1, by simp [State.put, h2], chain_keep h3 fun i (hi : i < current s.stack) => by simp only [State.put]; rw [List.getElem?_set_ne (by omega)], _, _, get_set h4, get_set h5, hd, rfl, fun h => by cases h⟩
  | @enter i m b enc h r hb hd he hput =>
    obtain ⟨rfl, rfl⟩ := here hp hb hd
    obtain ⟨f1, f2⟩ := h8 he
    obtain ⟨d1, d2⟩ := put_data hput f1
    obtain ⟨bs, failed⟩ := k0
    simp only [he] at h7
    subst h7
    simp only [Library.act, h5]
    have hl := data_length f1
    rw [f2] at hl
    have hlt := lt_of_get h4
    refine ⟨by rw [h1, h2, hl], by simp [h2], ⟨rfl, hlt, ⟨_, by rw [List.getElem?_append_left (by simpa using hlt)]; exact get_set h4, rfl⟩, chain_keep h3 fun i hi => ?_⟩, ⟨r, false, false⟩, ⟨bs ++ enc, false⟩, ?_, ?_, rfl, rfl, fun _ => ⟨d2, by rw [d1, f2]⟩⟩
    · rw [List.getElem?_append_left (by simp; omega), List.getElem?_set_ne (by omega)]
    · simp [current]
    · simp [current, h2]
  | @leave i c fs b k enc h r hst hb hk hput =>
    rw [hst] at h1 h3 h4 h5
    obtain ⟨c1, c2, ⟨b', c3, c4⟩, c5⟩ := h3
    simp only [current] at h4 h5
    rw [hk] at h4; cases h4
    obtain ⟨bs, failed⟩ := k0
    simp only [Library.act, ← h1, h5]
    subst c1
    have hlt := lt_of_get hb
    refine ⟨rfl, by simp [h2], chain_keep c5 fun i (hi : i < current fs) => by rw [List.getElem?_set_ne (by omega)], ⟨r, b0.err, false⟩, ⟨bs ++ enc, failed⟩, get_set hb, ?_, rfl, h7, fun he => ?_⟩
    · rw [List.getElem?_set_self (by omega)]
    · obtain ⟨f1, f2⟩ := h8 he
      obtain ⟨d1, d2⟩ := put_data hput f1
      exact ⟨d2, by rw [d1, f2]⟩
  | @leaveMessage i c n fs b k u hst hb hk hu hn =>
    rw [hst] at h1 h3 h4 h5
    obtain ⟨c1, c2, ⟨b', c3, c4⟩, c5⟩ := h3
    simp only [current] at h4 h5
    rw [hk] at h4; cases h4
    obtain ⟨bs, failed⟩ := k0
    simp only [Library.act, ← h1, h5]
    subst c1
    have hlt := lt_of_get hb
    refine ⟨rfl, by simp [h2], chain_keep c5 fun i (hi : i < current fs) => by rw [List.getElem?_set_ne (by omega)], ⟨b0.ref, b0.err, false⟩, ⟨patched bs n u, failed⟩, get_set hb, ?_, rfl, h7, fun he => ?_⟩
    · rw [List.getElem?_set_self (by omega)]
    · obtain ⟨f1, f2⟩ := h8 he
      obtain ⟨d1, d2⟩ := patch_data f1 hu hn
      exact ⟨d2, by rw [d1, f2]⟩
  | @reset b hb hd =>
    obtain ⟨e, rfl⟩ := here (.inl rfl) hb hd
    have hst : s.stack = [] := by
      cases hs : s.stack with
      | nil => rfl
      | cons f fs => rw [hs] at e h3; have := h3.2.1; simp only [current] at e; omega
    rw [← e] at h5
    simp only [Library.act]
    refine ⟨h1, by simp [State.put, h2], by simp only [State.put]; rw [hst]; trivial, { b with ref := { b.ref with len := 0 }, err := false }, _, by simp only [State.put]; rw [← e]; exact get_set hb, by simp only [State.put]; rw [← e]; exact get_set h5, hd, rfl, fun _ => ⟨Nat.zero_le _, ?_⟩⟩
    simp [Heap.data]

theorem inv_run {n : Nat} {as : List Act} {s : State} (hr : Run (init n) as s) (hp : Proper emptyLibrary as) : Inv s (emptyLibrary.acts as) := by
  have split : ∀ (l : Library) (as : List Act) (a : Act), Proper l (as ++ [a]) →
      Proper l as ∧ (l.acts as).allows a := by
    intro l as a
    induction as generalizing l with
    | nil => exact fun h => ⟨trivial, h.1⟩
    | cons x as ih => exact fun h => ⟨⟨h.1, (ih _ h.2).1⟩, (ih _ h.2).2⟩
  induction hr with
  | nil => exact inv_init n
  | @snoc s' s'' as a hr hs ih =>
    obtain ⟨h1, h2⟩ := split _ _ _ hp
    have := inv_step (ih h1) hs h2
    simpa only [Library.acts, List.foldl_append, List.foldl_cons, List.foldl_nil] using this

/-! ### What every builder keeps -/

/-- Every builder begins with `w`, but for some that failed and have arrays of their own. -/
structure Safe (w : Bytes) (good : Nat → Bool) (s : State) : Prop where
  fits : ∀ b ∈ s.handles, Fits s.heap b.ref ∧ b.ref.arr < s.heap.next
  begins : ∀ b ∈ s.handles, good b.ref.arr = true → w.length ≤ b.ref.len ∧ (s.heap.arrays b.ref.arr).take w.length = w
  bad : ∀ b ∈ s.handles, good b.ref.arr = false → b.err = true
  frames : ∀ f ∈ s.stack, ∀ n, f.start = some n → w.length ≤ n

/-- What an encoder does to the slices of others and to its own. -/
theorem put_others (hp : Put h r enc h' r') (hf : Fits h r) (hn : r.arr < h.next) :
    (∀ q, Fits h q → q.arr < h.next → Fits h' q ∧ q.arr < h'.next) ∧ r'.arr < h'.next ∧ r.len ≤ r'.len ∧
    (∀ k a, a < h.next → (a ≠ r.arr ∨ k ≤ r.len) → (h'.arrays a).take k = (h.arrays a).take k) ∧
    (∀ k, k ≤ r.len → (h'.arrays r'.arr).take k = (h.arrays r.arr).take k) ∧ (r'.arr = r.arr ∨ h.next ≤ r'.arr) := by
  have hl := data_length hf
  have htk : ∀ (k : Nat) (x : Bytes), k ≤ r.len → (h.data r ++ x).take k = (h.arrays r.arr).take k := by
    intro k x hk
    rw [List.take_append_of_le_length (by omega), Heap.data, List.take_take, Nat.min_eq_left hk]
  cases hp with
  | @inPlace stale hs =>
    refine ⟨fun q hq hqn => ⟨?_, hqn⟩, hn, Nat.le_add_right .., fun k a ha hk => ?_, fun k hk => ?_, .inl rfl⟩
    · simp only [Fits, Heap.set] at hq ⊢
      split
      · rename_i e; rw [e] at hq; rw [hs]; exact hq
      · exact hq
    · simp only [Heap.set]
      split
      · rename_i e
        rw [e, List.append_assoc]
        exact htk k _ (hk.resolve_left fun h => h e)
      · rfl
    · simp only [Heap.set, if_pos, List.append_assoc]
      exact htk k _ hk
  | @moved stale spare n hs hge =>
    refine ⟨fun q hq hqn => ⟨?_, by simp only []; omega⟩, Nat.lt_succ_self n, Nat.le_add_right .., fun k a ha hk => ?_, fun k hk => ?_, .inr hge⟩
    · simp only [Fits, Heap.set] at hq ⊢
      rw [if_neg (by omega)]
      split
      · rename_i e; rw [e] at hq; rw [hs]; exact hq
      · exact hq
    · simp only [Heap.set]
      rw [if_neg (by omega)]
      split
      · rename_i e
        rw [e]
        exact htk k _ (hk.resolve_left fun h => h e)
      · rfl
    · simp only [Heap.set, if_pos, List.append_assoc]
      exact htk k _ hk

variable {w : Bytes} {good : Nat → Bool} {s s' : State}

/-- A step that appends to the buffer of builder `b0` and gives the result to builder `b'`, all others being as before. -/
theorem safe_put (hs : Safe w good s) {b0 : Handle} (hb0 : b0 ∈ s.handles) (hp : Put s.heap b0.ref enc h' r') {s' : State} (hh : s'.heap = h')
    (hold : ∀ b ∈ s'.handles, (∃ b1 ∈ s.handles, b.ref = b1.ref ∧ (b1.err = true → b.err = true)) ∨ (b.ref = r' ∧ (b0.err = true → b.err = true)))
    (hst : ∀ f ∈ s'.stack, ∀ n, f.start = some n → w.length ≤ n) : ∃ good, Safe w good s' := by
  obtain ⟨f1, f2⟩ := hs.fits b0 hb0
  obtain ⟨p1, p2, p3, p4, p5, p6⟩ := put_others hp f1 f2
  obtain ⟨d1, d2⟩ := put_data hp f1
  subst hh
  have hlab : ∀ b1 ∈ s.handles, (if b1.ref.arr = r'.arr then good b0.ref.arr else good b1.ref.arr) = good b1.ref.arr := by
    intro b1 hb1
    split
    · rename_i e
      rcases p6 with e' | e'
      · rw [e, e']
      · have := (hs.fits b1 hb1).2; omega
    · rfl
  refine ⟨fun a => if a = r'.arr then good b0.ref.arr else good a, ⟨fun b hb => ?_, fun b hb hg => ?_, fun b hb hg => ?_, hst⟩⟩
  · rcases hold b hb with ⟨b1, h1, h2, -⟩ | ⟨h2, -⟩
    · rw [h2]; exact p1 _ (hs.fits b1 h1).1 (hs.fits b1 h1).2
    · rw [h2]; exact ⟨d2, p2⟩
  · rcases hold b hb with ⟨b1, h1, h2, -⟩ | ⟨h2, -⟩
    · simp only [h2] at hg ⊢
      rw [hlab b1 h1] at hg
      obtain ⟨k1, k2⟩ := hs.begins b1 h1 hg
      refine ⟨k1, ?_⟩
      rw [p4 _ _ (hs.fits b1 h1).2, k2]
      by_cases e : b1.ref.arr = b0.ref.arr
      · exact .inr (hs.begins b0 hb0 (by rw [← e]; exact hg)).1
      · exact .inl e
    · simp only [h2, if_pos] at hg ⊢
      obtain ⟨k1, k2⟩ := hs.begins b0 hb0 hg
      exact ⟨by omega, by rw [p5 _ k1, k2]⟩
  · rcases hold b hb with ⟨b1, h1, h2, h3⟩ | ⟨h2, h3⟩
    · simp only [h2] at hg
      rw [hlab b1 h1] at hg
      exact h3 (hs.bad b1 h1 hg)
    · simp only [h2, if_pos] at hg
      exact h3 (hs.bad b0 hb0 hg)

theorem mem_set_of {α : Type} {l : List α} {i : Nat} {x y : α} (h : y ∈ l.set i x) : y ∈ l ∨ y = x := by
  rcases List.mem_or_eq_of_mem_set h with h | h
  · exact .inl h
  · exact .inr h

theorem safe_step {a : Act} (hs : Safe w good s) (h : Step s a s') (ha : ∀ i, a ≠ .reset i) : ∃ good, Safe w good s' := by
  have mem : ∀ {i : Nat} {b : Handle}, s.handles[i]? = some b → b ∈ s.handles := fun h => List.mem_of_getElem? h
  cases h with
  | call hb hd he hp =>
    refine safe_put hs (mem hb) hp rfl (fun b hbm => ?_) hs.frames
    rcases mem_set_of hbm with h | h
    · exact .inl ⟨b, h, rfl, id⟩
    · exact .inr ⟨by rw [h], fun h' => by rw [h]; exact h'⟩
  | callErr => exact ⟨good, hs⟩
  | fail hb hd he hp =>
    refine safe_put hs (mem hb) hp rfl (fun b hbm => ?_) hs.frames
    rcases mem_set_of hbm with h | h
    · exact .inl ⟨b, h, rfl, id⟩
    · exact .inr ⟨by rw [h], fun h' => by rw [h]⟩
  | @failNil i n b0 hb hd he hn =>
    refine ⟨fun a => if a = n then false else good a, ⟨fun b hbm => ?_, fun b hbm hg => ?_, fun b hbm hg => ?_, hs.frames⟩⟩
    all_goals rcases mem_set_of hbm with h | h
    · obtain ⟨h1, h2⟩ := hs.fits b h
      have : b.ref.arr ≠ n := by omega
      refine ⟨?_, by simp only [State.put]; omega⟩
      simp only [State.put, Fits, Heap.set, if_neg this]; exact h1
    · rw [h]; exact ⟨Nat.zero_le _, Nat.lt_succ_self _⟩
    · obtain ⟨h1, h2⟩ := hs.fits b h
      have : b.ref.arr ≠ n := by omega
      simp only [if_neg this] at hg
      simp only [State.put, Heap.set, if_neg this]
      exact hs.begins b h hg
    · rw [h] at hg; simp at hg
    · obtain ⟨h1, h2⟩ := hs.fits b h
      have : b.ref.arr ≠ n := by omega
      simp only [if_neg this] at hg
      exact hs.bad b h hg
    · rw [h]
  | @enter i m b0 enc h1 r hb hd he hp =>
    refine safe_put hs (mem hb) hp rfl (fun b hbm => ?_) (fun f hf n hn => ?_)
    · rcases List.mem_append.mp hbm with h | h
      · rcases mem_set_of h with h | h
        · exact .inl ⟨b, h, rfl, id⟩
        · cases m
          · exact .inr ⟨by rw [h]; rfl, fun h' => by rw [h]; exact h'⟩
          · exact .inl ⟨b0, mem hb, by rw [h]; rfl, fun h' => by rw [h]; exact h'⟩
      · rw [List.mem_singleton] at h
        exact .inr ⟨by rw [h], fun h' => by rw [he] at h'; cases h'⟩
    · cases hf with
      | head =>
        cases m
        · cases hn
        · cases hn
          refine (hs.begins b0 (mem hb) ?_).1
          cases hg : good b0.ref.arr
          · have := hs.bad b0 (mem hb) hg; rw [he] at this; cases this
          · rfl
      | tail _ hf => exact hs.frames f hf n hn
  | leave hst hb hk hp =>
    refine safe_put hs (mem hk) hp rfl (fun b hbm => ?_) (fun f hf n hn => hs.frames f (by rw [hst]; exact .tail _ hf) n hn)
    rcases mem_set_of hbm with h | h
    · exact .inl ⟨b, h, rfl, id⟩
    · exact .inr ⟨by rw [h], fun h' => by rw [h]; exact h'⟩
  | @leaveMessage i c n fs b0 k u hst hb hk hu hn =>
    have hstart : w.length ≤ n := hs.frames _ (by rw [hst]; exact .head _) n rfl
    have harr : ∀ a, (s.heap.patch k.ref n u).arrays a = if a = k.ref.arr then (s.heap.arrays k.ref.arr).take n ++ u ++ (s.heap.arrays k.ref.arr).drop (n + 4) else s.heap.arrays a := fun _ => rfl
    have hkf := (hs.fits k (mem hk)).1
    simp only [Fits] at hkf
    have hlen : ∀ a, ((s.heap.patch k.ref n u).arrays a).length = (s.heap.arrays a).length := by
      intro a
      rw [harr]
      split
      · rename_i e
        rw [e]
        simp only [List.length_append, List.length_take, List.length_drop]; omega
      · rfl
    have htk : ∀ a, ((s.heap.patch k.ref n u).arrays a).take w.length = (s.heap.arrays a).take w.length := by
      intro a
      rw [harr]
      split
      · rename_i e
        rw [e, List.append_assoc, List.take_append_of_le_length (by rw [List.length_take]; omega), List.take_take, Nat.min_eq_left hstart]
      · rfl
    have hold : ∀ b ∈ s.handles.set i ⟨k.ref, k.err, false⟩, ∃ b1 ∈ s.handles, b.ref = b1.ref ∧ b.err = b1.err := by
      intro b hbm
      rcases mem_set_of hbm with h | h
      · exact ⟨b, h, rfl, rfl⟩
      · exact ⟨k, mem hk, by rw [h], by rw [h]⟩
    refine ⟨good, ⟨fun b hbm => ?_, fun b hbm hg => ?_, fun b hbm hg => ?_, fun f hf n hn => hs.frames f (by rw [hst]; exact .tail _ hf) n hn⟩⟩
    all_goals obtain ⟨b1, h1, h2, h3⟩ := hold b hbm
    · rw [h2]
      exact ⟨by simp only [Fits, hlen]; exact (hs.fits b1 h1).1, (hs.fits b1 h1).2⟩
    · rw [h2] at hg ⊢
      simp only [htk]
      exact hs.begins b1 h1 hg
    · rw [h2] at hg
      rw [h3]; exact hs.bad b1 h1 hg
  | reset => exact absurd rfl (ha 0)

theorem safe_run {as : List Act} (hs : Safe w good s) (h : Run s as s') (ha : ∀ i, .reset i ∉ as) : ∃ good, Safe w good s' := by
  induction h with
  | nil => exact ⟨good, hs⟩
  | snoc h hst ih =>
    obtain ⟨good, hs⟩ := ih fun i hi => ha i (List.mem_append_left _ hi)
    exact safe_step hs hst fun i hi => ha i (by rw [hi]; simp)

theorem fits_run {n : Nat} {as : List Act} (h : Run (init n) as s) : Safe [] (fun _ => true) s := by
  have weaken : ∀ {good : Nat → Bool} {s : State}, Safe [] good s → Safe [] (fun _ => true) s := fun h =>
    ⟨h.fits, fun _ _ _ => ⟨Nat.zero_le _, rfl⟩, (fun _ _ h => by cases h), h.frames⟩
  induction h with
  | nil => exact ⟨(fun b hb => by cases hb with | head => exact ⟨Nat.zero_le _, Nat.zero_lt_one⟩ | tail _ h => cases h),
      fun _ _ _ => ⟨Nat.zero_le _, rfl⟩, (fun _ _ h => by cases h), fun f hf => by cases hf⟩
  | @snoc s' s'' as a h hst ih =>
    by_cases ha : ∃ i, a = .reset i
    · obtain ⟨i, rfl⟩ := ha
      cases hst with
      | reset hb hd =>
        refine ⟨fun b hbm => ?_, fun _ _ _ => ⟨Nat.zero_le _, rfl⟩, (fun _ _ h => by cases h), ih.frames⟩
        rcases mem_set_of hbm with h | h
        · exact ih.fits b h
        · rw [h]; exact ⟨Nat.zero_le _, (ih.fits _ (List.mem_of_getElem? hb)).2⟩
    · obtain ⟨g, hg⟩ := safe_step ih hst fun i hi => ha ⟨i, hi⟩
      exact weaken hg

/-- As long as there is one builder, no callback runs. -/
theorem one_run {n : Nat} {as : List Act} (h : Run (init n) as s) : 1 ≤ s.handles.length ∧ (s.stack ≠ [] → 2 ≤ s.handles.length) := by
  induction h with
  | nil => exact ⟨Nat.le_refl _, fun h => absurd rfl h⟩
  | snoc h hst ih =>
    obtain ⟨h1, h2⟩ := ih
    cases hst with
    | call | fail | failNil | reset => simp only [State.put, List.length_set]; exact ⟨h1, h2⟩
    | callErr => exact ⟨h1, h2⟩
    | enter => simp only [List.length_append, List.length_set, List.length_singleton]; exact ⟨by omega, fun _ => by omega⟩
    | leave hs | leaveMessage hs => simp only [List.length_set]; exact ⟨h1, fun _ => h2 (by rw [hs]; simp)⟩

end Verif.Proof.Alias
