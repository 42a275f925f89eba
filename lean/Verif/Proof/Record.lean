import Verif.Spec.Record
import Verif.Proof.Units
namespace Verif.Proof
open Verif.Go Verif.Spec Verif.Model

variable {g : Grow}

theorem Ready.rel {b : Builder} (h : Ready b) : BRel b.buf.data b (.ok []) := ⟨h.1, h.2, by simp [bytesOf]⟩

theorem BRel.holds {Z : Bytes} {b : Builder} {ms : List ClientMsg} (h : BRel Z b (.ok ms)) (hg : ∀ m ∈ ms, GoodMsg m) :
    Holds b Z ms := ⟨⟨h.1, h.2.1⟩, _, h.2.2, fun hl => bytesOf_stream hl hg⟩

theorem BRel.failed {Z : Bytes} {b : Builder} {e : Err} (h : BRel Z b (.error e)) : Failed b := by
  refine ⟨e, h.2, ?_⟩
  rw [Builder.send, if_neg (by simp [h.1]), show b.err = some e from h.2]

/-- outcome of a call -/
theorem step_cases {b : Builder} (hb : Ready b) (c : Call) :
    b.step g c = .error .oom ∨
    (b.step g c = .error .panic ∧ ∀ ms r, ¬Asked libDur c ms r) ∨
    (∃ b' e, b.step g c = .ok (b', none) ∧ BRel b.buf.data b' (.error e) ∧ ∀ ms r, ¬Asked libDur c ms r) ∨
    ∃ b' ms r, b.step g c = .ok (b', r) ∧ Asked libDur c ms r ∧ BRel b.buf.data b' (.ok ms) := by
  have h := step_ref (g := g) c (Ready.rel hb)
  rcases h with h | h
  · exact .inl h
  · right
    rw [← modelDur_lib]
    simp only [stepP] at h
    cases hc : callRes (b.buf.data.length + (bytesOf []).length) c with
    | panic =>
      rw [hc] at h
      refine .inl ⟨h, fun ms r ha => ?_⟩
      obtain ⟨x, hx⟩ := callRes_of_asked (n := b.buf.data.length + (bytesOf []).length) ha
      rw [hc] at hx; cases hx
    | err e =>
      rw [hc] at h
      obtain ⟨⟨b', r⟩, h1, h2, rfl⟩ := h
      refine .inr (.inl ⟨b', e, h1, h2, fun ms r ha => ?_⟩)
      obtain ⟨x, hx⟩ := callRes_of_asked (n := b.buf.data.length + (bytesOf []).length) ha
      rw [hc] at hx; cases hx
    | ok x =>
      obtain ⟨ms, r⟩ := x
      rw [hc] at h
      obtain ⟨⟨b', r'⟩, h1, h2, rfl⟩ := h
      exact .inr (.inr ⟨b', ms, _, h1, callRes_ok hc, h2⟩)

/-- a call with a meaning -/
theorem step_asked {b : Builder} (hb : Ready b) {c : Call} {ms0 : List ClientMsg} {r0 : Option Val} (h : Asked libDur c ms0 r0) :
    b.step g c = .error .oom ∨ ∃ b' ms r, b.step g c = .ok (b', r) ∧ Asked libDur c ms r ∧ BRel b.buf.data b' (.ok ms) := by
  rcases step_cases (g := g) hb c with h1 | ⟨_, h1⟩ | ⟨_, _, _, _, h1⟩ | h1
  · exact .inl h1
  · exact absurd h (h1 _ _)
  · exact absurd h (h1 _ _)
  · exact .inr h1

theorem map_inj' {α β : Type} {f : α → β} (hf : ∀ x y, f x = f y → x = y) : ∀ {a b : List α}, a.map f = b.map f → a = b
  | [], [], _ => rfl
  | [], _ :: _, h => by simp at h
  | _ :: _, [], h => by simp at h
  | x :: a, y :: b, h => by
    simp only [List.map_cons, List.cons.injEq] at h
    rw [hf _ _ h.1, map_inj' hf h.2]

theorem map_some_inj {α : Type} {a b : List α} (h : a.map some = b.map some) : a = b :=
  map_inj' (fun _ _ h => by simpa using h) h

theorem map_map_some_inj {α : Type} {a b : List (List α)} (h : a.map (·.map some) = b.map (·.map some)) : a = b :=
  map_inj' (fun _ _ h => map_some_inj h) h

variable {dt : BitVec 64 → Bytes}

theorem args_unique {args : List Val} {a b : List PScalar} (h1 : Args dt args a) (h2 : Args dt args b) : a = b :=
  map_some_inj (h1.symm.trans h2)
theorem row_unique {args : List Val} {a b : List PExpr} (h1 : Row dt args a) (h2 : Row dt args b) : a = b :=
  map_some_inj (h1.symm.trans h2)
theorem rows_unique {args : List (List Val)} {a b : List (List PExpr)} (h1 : Rows dt args a) (h2 : Rows dt args b) : a = b :=
  map_map_some_inj (h1.symm.trans h2)
theorem sets_unique {args : List (Bytes × Val)} {a b : List (Bytes × PExpr)} (h1 : Sets dt args a) (h2 : Sets dt args b) : a = b := by
  have := h1.symm.trans h2
  refine map_inj' ?_ this
  rintro ⟨a, b⟩ ⟨c, d⟩ h
  simpa using h
theorem crit_unique {c : Criteria} {a b : Option PExpr} (h1 : Crit dt c a) (h2 : Crit dt c b) : a = b := by
  have := h1.symm.trans h2
  cases a <;> cases b <;> simp_all

/-- calls other than InsertRow have one meaning -/
theorem Asked.unique {c : Call} {m m' : List ClientMsg} {r r' : Option Val} (hc : ∀ t cs row, c ≠ .insertRow t cs row)
    (h1 : Asked dt c m r) (h2 : Asked dt c m' r') : m = m' ∧ r = r' := by
  cases h1 with
  | stmtExecute h => cases h2 with | stmtExecute h' => rw [args_unique h h']; exact ⟨rfl, rfl⟩
  | prepare => cases h2; exact ⟨rfl, rfl⟩
  | execute h => cases h2 with | execute h' => rw [args_unique h h']; exact ⟨rfl, rfl⟩
  | deallocate => cases h2; exact ⟨rfl, rfl⟩
  | insert _ h => cases h2 with | insert _ h' => rw [rows_unique h h']; exact ⟨rfl, rfl⟩
  | insertRow h => exact absurd rfl (hc _ _ _)
  | update h k => cases h2 with | update h' k' => rw [crit_unique h h', sets_unique k k']; exact ⟨rfl, rfl⟩
  | delete h => cases h2 with | delete h' => rw [crit_unique h h']; exact ⟨rfl, rfl⟩

theorem asked_records {b : Builder} (hb : Ready b) {c : Call} {ms : List ClientMsg} {r : Option Val}
    (hc : ∀ t cs row, c ≠ .insertRow t cs row) (h : Asked libDur c ms r) (hr : ∀ m ∈ ms, Readable m) :
    Records g b c ms r := by
  rcases step_asked (g := g) hb h with h1 | ⟨b', ms', r', h1, h2, h3⟩
  · exact .inl h1
  · obtain ⟨rfl, rfl⟩ := Asked.unique hc h h2
    exact .inr ⟨b', h1, h3.holds fun m hm => asked_good h m hm (hr m hm)⟩

/-- a call without a meaning is not recorded -/
theorem not_asked {b b' : Builder} (hb : Ready b) {c : Call} {r : Option Val} (h : b.step g c = .ok (b', r))
    (hn : ∀ ms r, ¬Asked libDur c ms r) : Failed b' := by
  rcases step_cases (g := g) hb c with h1 | ⟨h1, _⟩ | ⟨b2, e, h1, h2, _⟩ | ⟨b2, ms, r, h1, h2, _⟩
  · rw [h] at h1; cases h1
  · rw [h] at h1; cases h1
  · rw [h] at h1; cases h1; exact h2.failed
  · exact absurd h2 (hn _ _)

/-- a whole program on a ready builder -/
theorem run_ready {b b' : Builder} (hb : Ready b) {prog : Prog} {o' : List Builder} {out : List (Option Val)}
    (h : run g prog [] b = .ok (o', b', out)) :
    ∃ st' ks, Exec libDur 0 prog (.ok []) st' out (ks.map idVariable) ∧ BRel b.buf.data b' st' ∧
      Between b.buf.data.length (.ok []) st' ks := by
  obtain ⟨st', vs, h1, h2, _, _, h3⟩ := run_exec (g := g) (outers := []) (by simp) (Ready.rel hb) h
  rw [modelDur_lib] at h1
  exact ⟨st', vs, h1, h2, h3⟩

end Verif.Proof
