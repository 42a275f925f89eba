import Verif.Props.Units
/-! C62: errors lead to the first offending value. -/
namespace Verif.Props
open Verif.Go Verif.Spec Verif.Model Verif.Proof

variable {g : Grow} {b b' : Builder} {prog : Prog} {o : List Builder} {out : List (Option Val)}

section unique
variable {dt : BitVec 64 → Bytes}

theorem exprsOf_fine (vs : List Val) : (exprsOf dt fmtTime vs).isSome ↔ ∀ v ∈ vs, Fine dt v := by
  induction vs with
  | nil => simp [exprsOf]
  | cons v vs ih =>
    rw [exprsOf]
    cases hv : exprOf dt fmtTime v with
    | none => simp [Fine, hv]
    | some x =>
      cases hs : exprsOf dt fmtTime vs with
      | none =>
        rw [hs] at ih
        constructor
        · intro h; cases h
        · intro h; exact absurd (ih.mpr fun u hu => h u (List.mem_cons_of_mem _ hu)) (by simp)
      | some xs =>
        rw [hs] at ih
        constructor
        · intro _ u hu
          rcases List.mem_cons.mp hu with rfl | hu
          · rw [Fine, hv]; rfl
          · exact ih.mp rfl u hu
        · intro _; rfl

/-- Only values that stand for nothing are blamed. -/
theorem Blames.not_fine {e : Err} {v : Val} (h : Blames dt e v) : ¬Fine dt v := by
  induction h with
  | value h _ => exact h
  | op hj _ _ ih =>
    intro hf
    rw [Fine, exprOf, Option.isSome_map] at hf
    exact ih ((exprsOf_fine _).mp hf _ (List.mem_of_getElem? hj))
  | call hj _ _ ih =>
    intro hf
    rw [Fine, exprOf, Option.isSome_map] at hf
    exact ih ((exprsOf_fine _).mp hf _ (List.mem_of_getElem? hj))

/-- There is one first element of a list that is not good. -/
theorem first_unique {α : Type} {good : α → Prop} {l : List α} {i j : Nat} {x y : α} (hx : l[i]? = some x) (hy : l[j]? = some y)
    (bx : ¬good x) (bY : ¬good y) (gx : ∀ z ∈ l.take i, good z) (gy : ∀ z ∈ l.take j, good z) : i = j ∧ x = y := by
  have key : ∀ {i j : Nat} {x : α}, l[i]? = some x → i < j → x ∈ l.take j := by
    intro i j x h hij
    obtain ⟨hi, rfl⟩ := List.getElem?_eq_some_iff.mp h
    exact List.mem_take_iff_getElem.mpr ⟨i, by omega, rfl⟩
  have e : i = j := by
    rcases Nat.lt_trichotomy i j with h | h | h
    · exact absurd (gy x (key hx h)) bx
    · exact h
    · exact absurd (gx y (key hy h)) bY
  subst e
  rw [hx] at hy
  exact ⟨rfl, Option.some.inj hy⟩

theorem Blames.unique {e : Err} {v : Val} (h : Blames dt e v) : ∀ {e'}, Blames dt e' v → e = e' := by
  induction h with
  | value _ h2 =>
    intro e' h'
    cases h' with
    | value => rfl
    | op => exact absurd rfl (h2 _ _).1
    | call => exact absurd rfl (h2 _ _).2
  | op hj hf hb ih =>
    intro e' h'
    cases h' with
    | value _ h2 => exact absurd rfl (h2 _ _).1
    | op hj' hf' hb' =>
      obtain ⟨rfl, rfl⟩ := first_unique hj hj' (Blames.not_fine hb) (Blames.not_fine hb') hf hf'
      rw [ih hb']
  | call hj hf hb ih =>
    intro e' h'
    cases h' with
    | value _ h2 => exact absurd rfl (h2 _ _).2
    | call hj' hf' hb' =>
      obtain ⟨rfl, rfl⟩ := first_unique hj hj' (Blames.not_fine hb) (Blames.not_fine hb') hf hf'
      rw [ih hb']

theorem RowBlames.unique {e e' : Err} {row : List Val} (h : RowBlames dt e row) (h' : RowBlames dt e' row) : e = e' := by
  cases h with
  | column hj hf hb =>
    cases h' with
    | column hj' hf' hb' =>
      obtain ⟨rfl, rfl⟩ := first_unique hj hj' (Blames.not_fine hb) (Blames.not_fine hb') hf hf'
      rw [Blames.unique hb hb']

theorem RowBlames.not_fine {e : Err} {row : List Val} (h : RowBlames dt e row) : ¬∀ v ∈ row, Fine dt v := by
  cases h with
  | column hj hf hb => exact fun h => Blames.not_fine hb (h _ (List.mem_of_getElem? hj))

theorem RowsBlame.unique {e e' : Err} {rows : List (List Val)} (h : RowsBlame dt e rows) (h' : RowsBlame dt e' rows) : e = e' := by
  obtain ⟨i, row, h1, h2, h3⟩ := h
  obtain ⟨i', row', h1', h2', h3'⟩ := h'
  obtain ⟨rfl, rfl⟩ := first_unique (good := fun r : List Val => ∀ v ∈ r, Fine dt v) h1 h1' (RowBlames.not_fine h3) (RowBlames.not_fine h3') h2 h2'
  exact RowBlames.unique h3 h3'

theorem UpdateBlames.unique {e e' : Err} {crit : Criteria} {sets : List (Bytes × Val)} (h : UpdateBlames dt e crit sets)
    (h' : UpdateBlames dt e' crit sets) : e = e' := by
  rcases h with ⟨c, rfl, hc⟩ | ⟨hf, i, s, h1, h2, h3⟩
  · rcases h' with ⟨c', hc', hb⟩ | ⟨hf', _⟩
    · cases hc'; exact Blames.unique hc hb
    · exact absurd (hf' c rfl) (Blames.not_fine hc)
  · rcases h' with ⟨c', rfl, hb⟩ | ⟨hf', i', s', h1', h2', h3'⟩
    · exact absurd (hf c' rfl) (Blames.not_fine hb)
    · obtain ⟨rfl, rfl⟩ := first_unique (good := fun s : Bytes × Val => Fine dt s.2) h1 h1' (Blames.not_fine h3) (Blames.not_fine h3') h2 h2'
      exact Blames.unique h3 h3'

/-- For every call there is at most one error that is right. -/
theorem C62_unique {c : Call} {e e' : Err} (h : CallBlames dt c e) (h' : CallBlames dt c e') : e = e' := by
  cases h with
  | stmtExecute _ => cases h'; rfl
  | execute _ => cases h'; rfl
  | insertLength h1 h2 h3 =>
    rename_i t cols data i row
    cases h' with
    | insertLength h1' h2' h3' =>
      obtain ⟨rfl, rfl⟩ := first_unique (good := fun r : List Val => r.length = cols.length ∧ ∀ v ∈ r, Fine dt v) h1 h1'
        (fun h => h2 h.1) (fun h => h2' h.1) h3 h3'
      rfl
    | insertValue h1' h2' h3' h4' =>
      obtain ⟨rfl, rfl⟩ := first_unique (good := fun r : List Val => r.length = cols.length ∧ ∀ v ∈ r, Fine dt v) h1 h1'
        (fun h => h2 h.1) (fun h => RowBlames.not_fine h4' h.2) h3 h3'
      exact absurd h2' h2
  | insertValue h1 h2 h3 h4 =>
    rename_i t cols data i row
    cases h' with
    | insertLength h1' h2' h3' =>
      obtain ⟨rfl, rfl⟩ := first_unique (good := fun r : List Val => r.length = cols.length ∧ ∀ v ∈ r, Fine dt v) h1 h1'
        (fun h => RowBlames.not_fine h4 h.2) (fun h => h2' h.1) h3 h3'
      exact absurd h2 h2'
    | insertValue h1' h2' h3' h4' =>
      obtain ⟨rfl, rfl⟩ := first_unique (good := fun r : List Val => r.length = cols.length ∧ ∀ v ∈ r, Fine dt v) h1 h1'
        (fun h => RowBlames.not_fine h4 h.2) (fun h => RowBlames.not_fine h4' h.2) h3 h3'
      exact RowBlames.unique h4 h4'
  | insertRow h => cases h' with | insertRow h' => exact RowBlames.unique h h'
  | update h => cases h' with | update h' => exact UpdateBlames.unique h h'
  | delete h => cases h' with | delete h' => exact Blames.unique h h'

end unique

/-- C62: the error recorded by a call on a builder without error leads to the first offending value of the call: the
position of the row for rows of a wrong length, else the column of the value, else the parameter of the operator or
function, at any depth.  By `C62_unique` no other error would do. -/
theorem C62_call (hb : Ready b) {c : Call} {r : Option Val} (h : b.step g c = .ok (b', r)) {e : Err} (he : b'.err = some e) :
    CallBlames libDur c e ∧ ∀ e', CallBlames libDur c e' → e' = e := by
  have hr : run g (.call c fun r => .ret none [r]) [] b = .ok ([], b', [r]) := by
    rw [run, h]; rfl
  obtain ⟨st, ks, h1, h2, _⟩ := run_ready hb hr
  have key : CallBlames libDur c e := by
    generalize ks.map idVariable = vs at h1
    cases h1 with
    | call _ hk =>
      cases hk
      rw [show b'.err = none from h2.2.1] at he; cases he
    | callFail _ hx hk =>
      cases hk
      rw [show b'.err = some _ from h2.2] at he; cases he
      exact hx
  exact ⟨key, fun e' h' => C62_unique h' key⟩

/-- C62: what `Send` reports of a program is the error of the first call that failed, wherever in nested callbacks it
was: `Exec` says which, and demands `CallBlames` of it. -/
theorem C62_send (hb : Ready b) (h : run g prog [] b = .ok (o, b', out)) {e : Err} (he : b'.send = .ok (.error e)) :
    ∃ vs, Exec libDur 0 prog (.ok []) (.error e) out vs := by
  obtain ⟨st, ks, h1, h2, _⟩ := run_ready hb h
  cases st with
  | ok ms =>
    rw [Builder.send, if_neg (by simp [h2.1]), show b'.err = none from h2.2.1] at he
    cases he
  | error e' =>
    rw [Builder.send, if_neg (by simp [h2.1]), show b'.err = some e' from h2.2] at he
    cases he
    exact ⟨_, h1⟩

/-- A nested expression with one unsupported value: the second parameter of the first parameter of the value for the
third column of the second row. -/
def badValueEx : Val := .op (ascii "+") [.call (ascii "f") [.int8 1, .other], .other]
def badInsertEx : Call := .insert (ascii "t") [ascii "a", ascii "b", ascii "c"]
  [[.int8 1, .int8 2, .int8 3], [.int8 1, .nil, badValueEx], [.other]]

example : ((builderEx.step growEx badInsertEx).toOption.map (·.1.err)) =
    some (some (.column 2 (.param 0 (.param 1 .unknownType)))) ∧ Ready builderEx := by
  refine ⟨by decide +kernel, by decide, by decide⟩

/-- An error of an inner callback comes out of `Send`. -/
example : ((run growEx (.expect 0 (.tx 0 (.call badInsertEx fun _ => .call (.stmtExecute [] [.other]) fun _ => .ret none [])
    fun _ => .ret none []) fun _ => .ret none []) [] builderEx).toOption.map (·.2.1.err)) =
    some (some (.column 2 (.param 0 (.param 1 .unknownType)))) := by decide +kernel

end Verif.Props
