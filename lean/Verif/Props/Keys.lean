import Verif.Spec.Keys
import Verif.Props.Whole
import Verif.Props.Ids
/-! C89: units of work with generated ids, from the calls to the tables. -/
namespace Verif.Props
open Verif.Go Verif.Spec Verif.Model Verif.Proof Verif.Spec.Sql

variable {V : Type}

/-- A call that changes tables, and what comes after it. -/
def callOf : GoStmt → Prog → Prog
  | .insert t cols data, p => .call (.insert t cols (data.map (·.map built))) fun _ => p
  | .insertF t cols data, p => .insertF t cols (data.map fun es => .row (es.map built)) none p
  | .update t crit sets, p => .call (.update t (crit.map built) (entries sets)) fun _ => p
  | .updateF t crit sets, p => .updateF t (crit.map built) ((entries sets).map fun s => .set s.1 s.2) none p
  | .delete t crit, p => .call (.delete t (crit.map built)) fun _ => p

/-- the name in the result of `InsertRow` -/
def nameOf : Option Val → Bytes
  | some (.variable v) => v
  | _ => []

/-- The calls as a program. -/
def progU : GoUnit → Prog
  | .done => .ret none []
  | .stmt s k => callOf s (progU k)
  | .raw text args k => .call (.stmtExecute text args) fun _ => progU k
  | .prepare id text k => .call (.prepare id text) fun _ => progU k
  | .execute id args k => .call (.execute id args) fun _ => progU k
  | .deallocate id k => .call (.deallocate id) fun _ => progU k
  | .insertRow t cols es k => .call (.insertRow t cols (es.map built)) fun r => progU (k (nameOf r))

/-- No values for the AUTO_INCREMENT column. -/
def leavesId (auto : Bytes → Option Bytes) : GoStmt → Prop
  | .insert t cols _ => ∀ a ∈ auto t, a ∉ cols
  | .insertF t cols _ => ∀ a ∈ auto t, a ∉ cols
  | _ => True

/-- A statement of the user is none of those that the library sends to begin and end transactions and to save ids, and it stays within the
transaction. -/
def staysIn (K : Known) (text : Bytes) (args : List Val) : Prop :=
  ∀ as, Args libDur args as → let m := ClientMsg.stmtExecute text as
    captured m = none ∧ fixedKind m = none ∧ K.within m

/-- `fine`, no values for AUTO_INCREMENT columns, `InsertRow` only for tables that have one, and statements of the user that stay in.  `p` are the
statements prepared so far: what is executed is prepared. -/
def fineP (K : Known) : (Nat → Option Bytes) → GoUnit → Prop
  | _, .done => True
  | p, .stmt s k => fine s ∧ leavesId K.auto s ∧ fineP K p k
  | p, .raw text args k => staysIn K text args ∧ fineP K p k
  | p, .prepare id text k => fineP K (fun i => if i = id.toNat then some text else p i) k
  | p, .execute id args k => (∃ text, p id.toNat = some text ∧ staysIn K text args) ∧ fineP K p k
  | p, .deallocate id k => fineP K (fun i => if i = id.toNat then none else p i) k
  | p, .insertRow t cols es k => fine (.insert t cols [es]) ∧ (∃ a, K.auto t = some a ∧ a ∉ cols) ∧ ∀ v, v.length < 124 → fineP K p (k v)

/-- If the statements `p` are prepared before the unit of work, then the statements `q` are afterwards. -/
def leaves (q : Nat → Option Bytes) : (Nat → Option Bytes) → GoUnit → Prop
  | p, .done => ∀ i t, q i = some t → p i = some t
  | p, .stmt _ k => leaves q p k
  | p, .raw _ _ k => leaves q p k
  | p, .prepare id text k => leaves q (fun i => if i = id.toNat then some text else p i) k
  | p, .execute _ _ k => leaves q p k
  | p, .deallocate id k => leaves q (fun i => if i = id.toNat then none else p i) k
  | p, .insertRow _ _ _ k => ∀ v, leaves q p (k v)

/-- `fineP` for a unit of work that executes nothing that it has not prepared. -/
def fineU (K : Known) (u : GoUnit) : Prop := fineP K (fun _ => none) u

/-- The statements known to be prepared are. -/
def Agrees (p : Nat → Option Bytes) (y : Scope V) : Prop := ∀ i t, p i = some t → y.stmts i = some t

/-- the message of a call -/
inductive Sends : GoStmt → ClientMsg → Prop
  | insert {t cols data rs} : Rows libDur (data.map (·.map built)) rs → Sends (.insert t cols data) (.insert t (some 2) cols rs)
  | insertF {t cols data rs} : Rows libDur (data.map (·.map built)) rs → Sends (.insertF t cols data) (.insert t (some 2) cols rs)
  | update {t crit sets c ss} : Crit libDur (crit.map built) c → Sets libDur (entries sets) ss → Sends (.update t crit sets) (.update t (some 2) c ss)
  | updateF {t crit sets c ss} : Crit libDur (crit.map built) c → Sets libDur (entries sets) ss → Sends (.updateF t crit sets) (.update t (some 2) c ss)
  | delete {t crit c} : Crit libDur (crit.map built) c → Sends (.delete t crit) (.delete t none c)

theorem exec_callOf {n : Nat} {s : GoStmt} {p : Prog} {ms ms' : List ClientMsg} {out : List (Option Val)} {vs : List Bytes}
    (h : Exec libDur n (callOf s p) (.ok ms) (.ok ms') out vs) :
    ∃ m, Sends s m ∧ Exec libDur n p (.ok (ms ++ [m])) (.ok ms') out vs := by
  cases s with
  | insert t cols data =>
    cases h with
    | call ha hk => cases ha with | insert _ hr => exact ⟨_, .insert hr, hk⟩
    | callFail _ _ hk => exact absurd (exec_error hk _ rfl) (by simp)
  | insertF t cols data =>
    have e : ∀ data : List (List GoExpr), rowArgs (data.map fun es => RowStep.row (es.map built)) = data.map (·.map built) := by
      intro data
      induction data with
      | nil => rfl
      | cons es data ih => simpa [rowArgs] using ih
    cases h with
    | insertF _ hr hk => rw [e data] at hr; exact ⟨_, .insertF hr, hk⟩
    | insertFFail _ _ _ hk => exact absurd (exec_error hk _ rfl) (by simp)
  | update t crit sets =>
    cases h with
    | call ha hk => cases ha with | update h1 h2 => exact ⟨_, .update h1 h2, hk⟩
    | callFail _ _ hk => exact absurd (exec_error hk _ rfl) (by simp)
  | updateF t crit sets =>
    have e : setArgs ((entries sets).map fun s => SetStep.set s.1 s.2) = entries sets := by
      simp only [setArgs, List.filterMap_map]
      exact List.filterMap_some
    cases h with
    | updateF _ h1 h2 hk => rw [e] at h2; exact ⟨_, .updateF h1 h2, hk⟩
    | updateFFail _ _ _ hk => exact absurd (exec_error hk _ rfl) (by simp)
  | delete t crit =>
    cases h with
    | call ha hk => cases ha with | delete h1 => exact ⟨_, .delete h1, hk⟩
    | callFail _ _ hk => exact absurd (exec_error hk _ rfl) (by simp)

/-- An insert with generated ids. -/
theorem insert_numbered {t : Bytes} {cols : List Bytes} {data : List (List GoExpr)} {rs : List (List PExpr)} (hf : fine (.insert t cols data))
    (hr : Rows libDur (data.map (·.map built)) rs) : Readable (.insert t (some 2) cols rs) ∧
    ∀ (S : Server V), (∀ a ∈ S.auto t, a ∉ cols) → ∀ x x' : Store V, S.exec x (.insert t (some 2) cols rs) = some x' ↔
      ∃ db', Numbered S x.toScope t cols data db' ∧ x' = { x with db := db', last := S.lastOf t x.last } := by
  obtain ⟨rs', r1, r2, r3, r4⟩ := built_rows cols data (fun es he => (hf es he).1) fun es he => (hf es he).2.2
  cases rows_unique hr r1
  refine ⟨r2, fun S ha x x' => ?_⟩
  have he : S.explicit t cols = false := by
    unfold Server.explicit
    split
    · rfl
    · rename_i a hS; exact decide_eq_false (ha a hS)
  simp only [Server.exec, he, Bool.false_eq_true, if_false, Server.insert, Option.bind_eq_some_iff, Numbered]
  constructor
  · rintro ⟨tab, h1, h⟩
    split at h
    · cases h
    · rename_i hne
      obtain ⟨new, h2, rfl⟩ := Option.map_eq_some_iff.mp h
      refine ⟨_, ⟨tab, new, h1, fun he => hne (r3.mpr he), ?_, rfl⟩, rfl⟩
      exact (each_simul (fun es he => (hf es he).1) (fun es he => (hf es he).2.1)).mp ((r4 _ t tab.blank new).mp (mapM_each.mp h2))
  · rintro ⟨db', ⟨tab, new, h1, h2, h3, rfl⟩, rfl⟩
    refine ⟨tab, h1, ?_⟩
    rw [if_neg fun he => h2 (r3.mp he), mapM_each.mpr ((r4 _ t tab.blank new).mpr
      ((each_simul (fun es he => (hf es he).1) (fun es he => (hf es he).2.1)).mpr h3))]
    rfl

theorem update_simul {t : Bytes} {crit : Option GoExpr} {sets : List (Bytes × GoExpr)} (h1 : (sets.map (·.1)).Nodup) (h2 : Independent sets)
    {E : Engine V} {db db' : Database V} : (GoStmt.updateF t crit sets).Does E db db' ↔ (GoStmt.update t crit sets).Does E db db' := by
  have key : ∀ blank (rows rows' : List (Sql.Row _)), Each (Updated E crit (Steps E t blank sets)) rows rows' ↔
      Each (Updated E crit (Simul E t blank sets)) rows rows' := fun blank rows rows' =>
    each_iff fun row row' => by simp only [Updated, steps_simul E sets h1 h2]
  simp only [GoStmt.Does, key]

/-- What the server does with the message of a call. -/
theorem sends_step {s : GoStmt} {m : ClientMsg} (hf : fine s) (h : Sends s m) : Readable m ∧ isBlock m = false ∧
    ∀ (S : Server V), TakesTable S.other → leavesId S.auto s → ∀ x x' : Store V, S.exec x m = some x' →
      s.Step S x.toScope x'.toScope ∧ x'.saved = x.saved := by
  cases h with
  | insert hr =>
    obtain ⟨h1, h2⟩ := insert_numbered (V := V) hf hr
    refine ⟨h1, rfl, fun S _ ha x x' hx => ?_⟩
    obtain ⟨db', h3, rfl⟩ := (h2 S ha x x').mp hx
    exact ⟨⟨h3, rfl, rfl, rfl⟩, rfl⟩
  | insertF hr =>
    obtain ⟨h1, h2⟩ := insert_numbered (V := V) hf hr
    refine ⟨h1, rfl, fun S _ ha x x' hx => ?_⟩
    obtain ⟨db', h3, rfl⟩ := (h2 S ha x x').mp hx
    exact ⟨⟨h3, rfl, rfl, rfl⟩, rfl⟩
  | @update t crit sets _ _ h1 h2 =>
    obtain ⟨a1, _, a3, a4⟩ := is_update (t := t) hf.1 hf.2.1 h1 h2
    refine ⟨a1, a3, fun S ho _ x x' hx => ?_⟩
    simp only [Server.exec] at hx
    obtain ⟨db', hd, rfl⟩ := Option.map_eq_some_iff.mp hx
    exact ⟨⟨(update_simul hf.2.2.1 hf.2.2.2).mp ((a4 (S.sees x.toScope) S.other ho _ _).mp hd), rfl, rfl, rfl⟩, rfl⟩
  | @updateF t crit sets _ _ h1 h2 =>
    obtain ⟨a1, _, a3, a4⟩ := is_update (t := t) hf.1 hf.2 h1 h2
    refine ⟨a1, a3, fun S ho _ x x' hx => ?_⟩
    simp only [Server.exec] at hx
    obtain ⟨db', hd, rfl⟩ := Option.map_eq_some_iff.mp hx
    exact ⟨⟨(a4 (S.sees x.toScope) S.other ho _ _).mp hd, rfl, rfl, rfl⟩, rfl⟩
  | @delete t crit _ h1 =>
    obtain ⟨a1, _, a3, a4⟩ := is_delete (t := t) hf h1
    refine ⟨a1, a3, fun S ho _ x x' hx => ?_⟩
    simp only [Server.exec] at hx
    obtain ⟨db', hd, rfl⟩ := Option.map_eq_some_iff.mp hx
    exact ⟨⟨(a4 (S.sees x.toScope) S.other ho _ _).mp hd, rfl, rfl, rfl⟩, rfl⟩

/-- What the calls send; the names are those returned by `InsertRow`. -/
inductive SendsAll : GoUnit → List ClientMsg → List Bytes → Prop
  | done : SendsAll .done [] []
  | stmt {s k m ns vs} : Sends s m → SendsAll k ns vs → SendsAll (.stmt s k) (m :: ns) vs
  | raw {text args k as ns vs} : Args libDur args as → SendsAll k ns vs → SendsAll (.raw text args k) (.stmtExecute text as :: ns) vs
  | prepare {id text k ns vs} : SendsAll k ns vs → SendsAll (.prepare id text k) (.prepare id.toNat text :: ns) vs
  | execute {id args k as ns vs} : Args libDur args as → SendsAll k ns vs → SendsAll (.execute id args k) (.execute id.toNat as :: ns) vs
  | deallocate {id k ns vs} : SendsAll k ns vs → SendsAll (.deallocate id k) (.deallocate id.toNat :: ns) vs
  | insertRow {t cols es k rs v ns vs} : Rows libDur [es.map built] [rs] → SendsAll (k v) ns vs →
      SendsAll (.insertRow t cols es k) (.insert t (some 2) cols [rs] :: captureId v :: ns) (v :: vs)

theorem exec_progU (u : GoUnit) : ∀ {n : Nat} {ms ms' : List ClientMsg} {out : List (Option Val)} {vs : List Bytes},
    Exec libDur n (progU u) (.ok ms) (.ok ms') out vs → ∃ ns, ms' = ms ++ ns ∧ SendsAll u ns vs := by
  induction u with
  | done =>
    intro n ms ms' out vs h
    cases h
    exact ⟨[], by simp, .done⟩
  | stmt s k ih =>
    intro n ms ms' out vs h
    obtain ⟨m, h1, h2⟩ := exec_callOf h
    obtain ⟨ns, rfl, h3⟩ := ih h2
    exact ⟨m :: ns, by simp, .stmt h1 h3⟩
  | raw text args k ih =>
    intro n ms ms' out vs h
    rw [progU] at h
    cases h with
    | call ha hk =>
      cases ha with
      | stmtExecute ha =>
        obtain ⟨ns, rfl, h3⟩ := ih hk
        exact ⟨_ :: ns, by simp, .raw ha h3⟩
    | callFail _ _ hk => exact absurd (exec_error hk _ rfl) (by simp)
  | prepare id text k ih =>
    intro n ms ms' out vs h
    rw [progU] at h
    cases h with
    | call ha hk =>
      cases ha with
      | prepare =>
        obtain ⟨ns, rfl, h3⟩ := ih hk
        exact ⟨_ :: ns, by simp, .prepare h3⟩
    | callFail _ _ hk => exact absurd (exec_error hk _ rfl) (by simp)
  | execute id args k ih =>
    intro n ms ms' out vs h
    rw [progU] at h
    cases h with
    | call ha hk =>
      cases ha with
      | execute ha =>
        obtain ⟨ns, rfl, h3⟩ := ih hk
        exact ⟨_ :: ns, by simp, .execute ha h3⟩
    | callFail _ _ hk => exact absurd (exec_error hk _ rfl) (by simp)
  | deallocate id k ih =>
    intro n ms ms' out vs h
    rw [progU] at h
    cases h with
    | call ha hk =>
      cases ha with
      | deallocate =>
        obtain ⟨ns, rfl, h3⟩ := ih hk
        exact ⟨_ :: ns, by simp, .deallocate h3⟩
    | callFail _ _ hk => exact absurd (exec_error hk _ rfl) (by simp)
  | insertRow t cols es k ih =>
    intro n ms ms' out vs h
    rw [progU] at h
    cases h with
    | call ha hk =>
      cases ha with
      | @insertRow _ _ _ xs v hr =>
        have hk : Exec libDur n (progU (k v)) _ _ out _ := hk
        obtain ⟨ns, rfl, h3⟩ := ih v hk
        exact ⟨.insert t (some 2) cols [xs] :: captureId v :: ns, by simp, .insertRow (by simpa [Rows, Spec.Row] using hr) h3⟩
    | callFail _ _ hk => exact absurd (exec_error hk _ rfl) (by simp)

/-- All of the messages are executed. -/
def playOk : (Nat → Server V) → List ClientMsg → Store V → Option (Store V)
  | _, [], x => some x
  | S, m :: ms, x => ((S 0).exec x m).bind (playOk (fun i => S (i + 1)) ms)

theorem playOk_append : ∀ (l l' : List ClientMsg) (S : Nat → Server V) (x : Store V),
    playOk S (l ++ l') x = (playOk S l x).bind (playOk (fun i => S (l.length + i)) l')
  | [], l', S, x => by simp [playOk]
  | m :: l, l', S, x => by
    rw [List.cons_append, playOk, playOk, Option.bind_assoc]
    congr 1
    funext x1
    rw [playOk_append l l']
    congr 1
    funext x2
    congr 1
    funext i
    congr 1
    simp only [List.length_cons]; omega

theorem exec_capture (S : Server V) (x : Store V) {v : Bytes} (h : isVariable v = true) :
    S.exec x (captureId v) = some { x with vars := fun u => if u = v then some x.last else x.vars u } := by
  have := captured_id h
  rw [captureId] at this ⊢
  simp only [Server.exec, Server.direct, this]

/-- A statement that is none of those fixed. -/
theorem exec_raw (S : Server V) (x : Store V) {text : Bytes} {as : List PScalar} (hc : captured (.stmtExecute text as) = none)
    (hk : fixedKind (.stmtExecute text as) = none) : S.exec x (.stmtExecute text as) = S.rest x (.stmtExecute text as) := by
  simp only [Server.exec, Server.direct, hc, hk]

/-- The same, prepared. -/
theorem exec_prepared (S : Server V) (x : Store V) {id : Nat} {text : Bytes} {as : List PScalar} (hp : x.stmts id = some text)
    (hc : captured (.stmtExecute text as) = none) (hk : fixedKind (.stmtExecute text as) = none) :
    S.exec x (.execute id as) = S.rest x (.stmtExecute text as) := by
  simp only [Server.exec, hp, Option.bind_some, Server.direct, hc, hk]

theorem Agrees.prepare {p : Nat → Option Bytes} {y : Scope V} (h : Agrees p y) (id : Nat) (text : Option Bytes) :
    Agrees (fun i => if i = id then text else p i) (y.prepare id text) := by
  intro i t hi
  simp only [Scope.prepare]
  dsimp only at hi
  split at hi
  · rename_i e; rw [if_pos e]; exact hi
  · rename_i e; rw [if_neg e]; exact h i t hi

theorem step_stmts {S : Server V} {s : GoStmt} {y y' : Scope V} (h : s.Step S y y') : y'.stmts = y.stmts ∧ y'.vars = y.vars := by
  cases s <;> exact ⟨h.2.2.2, h.2.2.1⟩

theorem sends_does {K : Known} {u : GoUnit} {ns : List ClientMsg} {vs : List Bytes} (h : SendsAll u ns vs) :
    ∀ {p : Nat → Option Bytes}, fineP K p u → (∀ v ∈ vs, isVariable v = true ∧ v.length < 124) →
    ((∀ m ∈ ns, Readable m ∧ isBlock m = false) ∧
    ∀ (S : Nat → Server V) (used : List Bytes), Usual K S → vs.Nodup → (∀ v ∈ vs, v ∉ used) → ∀ x x' : Store V, Agrees p x.toScope →
      playOk S ns x = some x' → UnitDoes S used u x.toScope x'.toScope ∧ ∀ q, leaves q p u → Agrees q x'.toScope) := by
  induction h with
  | done =>
    intro p _ _
    exact ⟨by simp, fun S used _ _ _ x x' hg h => by cases h; exact ⟨.done, fun q hq i t h => hg i t (hq i t h)⟩⟩
  | @stmt s k m ns vs h1 h2 ih =>
    intro p hf hv
    obtain ⟨i1, i2⟩ := ih hf.2.2 hv
    obtain ⟨s1, s2, s3⟩ := sends_step (V := V) hf.1 h1
    refine ⟨fun m' hm => ?_, fun S used hS hnd hd x x' hg hp => ?_⟩
    · rcases List.mem_cons.mp hm with rfl | hm
      · exact ⟨s1, s2⟩
      · exact i1 m' hm
    · rw [playOk, Option.bind_eq_some_iff] at hp
      obtain ⟨x1, e1, e2⟩ := hp
      obtain ⟨a1, _⟩ := s3 (S 0) (hS 0).2.1 ((hS 0).1 ▸ hf.2.1) x x1 e1
      have i := (i2 _ used (fun i => hS (i + 1)) hnd hd _ _ (fun i t h => by rw [(step_stmts a1).1]; exact hg i t h) e2)
      exact ⟨.stmt a1 i.1, fun q hq => i.2 q hq⟩
  | @raw text args k as ns vs ha h2 ih =>
    intro p hf hv
    obtain ⟨i1, i2⟩ := ih hf.2 hv
    obtain ⟨f1, f2, f3⟩ := hf.1 as ha
    refine ⟨fun m' hm => ?_, fun S used hS hnd hd x x' hg hp => ?_⟩
    · rcases List.mem_cons.mp hm with rfl | hm
      · exact ⟨trivial, rfl⟩
      · exact i1 m' hm
    · rw [playOk, Option.bind_eq_some_iff] at hp
      obtain ⟨x1, e1, e2⟩ := hp
      rw [exec_raw _ _ f1 f2] at e1
      have i := i2 _ used (fun i => hS (i + 1)) hnd hd _ _ (fun i t h => by rw [((hS 0).2.2 _ f3 _ _ e1).2]; exact hg i t h) e2
      exact ⟨.raw ha e1 i.1, fun q hq => i.2 q hq⟩
  | @prepare id text k ns vs h2 ih =>
    intro p hf hv
    obtain ⟨i1, i2⟩ := ih hf hv
    refine ⟨fun m' hm => ?_, fun S used hS hnd hd x x' hg hp => ?_⟩
    · rcases List.mem_cons.mp hm with rfl | hm
      · exact ⟨trivial, rfl⟩
      · exact i1 m' hm
    · have i := i2 _ used (fun i => hS (i + 1)) hnd hd { x with toScope := x.toScope.prepare id.toNat (some text) } _ (hg.prepare _ _) hp
      exact ⟨.prepare i.1, fun q hq => i.2 q hq⟩
  | @execute id args k as ns vs ha h2 ih =>
    intro p hf hv
    obtain ⟨i1, i2⟩ := ih hf.2 hv
    obtain ⟨text, h3, h4⟩ := hf.1
    obtain ⟨f1, f2, f3⟩ := h4 as ha
    refine ⟨fun m' hm => ?_, fun S used hS hnd hd x x' hg hp => ?_⟩
    · rcases List.mem_cons.mp hm with rfl | hm
      · exact ⟨trivial, rfl⟩
      · exact i1 m' hm
    · rw [playOk, Option.bind_eq_some_iff] at hp
      obtain ⟨x1, e1, e2⟩ := hp
      rw [exec_prepared _ _ (hg _ _ h3) f1 f2] at e1
      have i := i2 _ used (fun i => hS (i + 1)) hnd hd _ _ (fun i t h => by rw [((hS 0).2.2 _ f3 _ _ e1).2]; exact hg i t h) e2
      exact ⟨.execute (hg _ _ h3) (.raw ha e1 i.1), fun q hq => i.2 q hq⟩
  | @deallocate id k ns vs h2 ih =>
    intro p hf hv
    obtain ⟨i1, i2⟩ := ih hf hv
    refine ⟨fun m' hm => ?_, fun S used hS hnd hd x x' hg hp => ?_⟩
    · rcases List.mem_cons.mp hm with rfl | hm
      · exact ⟨trivial, rfl⟩
      · exact i1 m' hm
    · have i := i2 _ used (fun i => hS (i + 1)) hnd hd { x with toScope := x.toScope.prepare id.toNat none } _ (hg.prepare _ _) hp
      exact ⟨.deallocate i.1, fun q hq => i.2 q hq⟩
  | @insertRow t cols es k rs v ns vs hr h2 ih =>
    intro p hf hv
    obtain ⟨v1, v2⟩ := hv v (List.mem_cons_self ..)
    obtain ⟨i1, i2⟩ := ih (hf.2.2 v v2) fun w hw => hv w (List.mem_cons_of_mem _ hw)
    obtain ⟨s1, s3⟩ := insert_numbered (V := V) (data := [es]) hf.1 hr
    obtain ⟨a, ha, hac⟩ := hf.2.1
    refine ⟨fun m' hm => ?_, fun S used hS hnd hd x x' hg hp => ?_⟩
    · rcases List.mem_cons.mp hm with rfl | hm
      · exact ⟨s1, rfl⟩
      · rcases List.mem_cons.mp hm with rfl | hm
        · exact ⟨trivial, rfl⟩
        · exact i1 m' hm
    · rw [playOk, Option.bind_eq_some_iff] at hp
      obtain ⟨x1, e1, e2⟩ := hp
      rw [playOk, exec_capture _ _ v1, Option.bind_some] at e2
      have hauto : (S 0).auto t = some a := by rw [(hS 0).1, ha]
      obtain ⟨db', a1, rfl⟩ := (s3 (S 0) (by rw [hauto]; intro b hb; cases hb; exact hac) x x1).mp e1
      have hl : (S 0).lastOf t x.last = (S 0).ids 0 := by rw [Server.lastOf, hauto]; rfl
      rw [List.nodup_cons] at hnd
      have i := i2 _ (v :: used) (fun i => hS (i + 1 + 1)) hnd.2 (fun w hw hm => by
        rcases List.mem_cons.mp hm with rfl | hm
        · exact hnd.1 hw
        · exact hd w (List.mem_cons_of_mem _ hw) hm) _ _ (by exact fun i t h => hg i t h) e2
      have := i.1
      rw [hl] at this
      exact ⟨.insertRow (hd v (List.mem_cons_self ..)) (by rw [hauto]; rfl) a1 this, fun q hq => i.2 q (hq v)⟩

theorem agrees_none (y : Scope V) : Agrees (fun _ => none) y := fun _ _ h => by cases h

/-! ### on the server -/

/-- However many of the messages the server executes, the transaction goes on. -/
def Stays (K : Known) (V : Type) (p : Nat → Option Bytes) (ns : List ClientMsg) : Prop :=
  ∀ (S : Nat → Server V), Usual K S → ∀ (j : Nat) (x x' : Store V), Agrees p x.toScope → playOk S (ns.take j) x = some x' → x'.saved = x.saved

theorem sends_stays {K : Known} {u : GoUnit} {ns : List ClientMsg} {vs : List Bytes} (h : SendsAll u ns vs) :
    ∀ {p : Nat → Option Bytes}, fineP K p u → (∀ v ∈ vs, isVariable v = true ∧ v.length < 124) → Stays K V p ns := by
  unfold Stays
  have zero : ∀ {l : List ClientMsg} {S : Nat → Server V} {x x' : Store V}, playOk S (l.take 0) x = some x' → x'.saved = x.saved := by
    intro l S x x' h
    rw [List.take_zero] at h
    cases h; rfl
  induction h with
  | done =>
    intro p _ _ S _ j x x' _ h
    rw [List.take_nil] at h
    cases h; rfl
  | @stmt s k m ns vs h1 h2 ih =>
    intro p hf hv S hS j x x' hg h
    cases j with
    | zero => exact zero h
    | succ j =>
      rw [List.take_succ_cons, playOk, Option.bind_eq_some_iff] at h
      obtain ⟨x1, e1, e2⟩ := h
      obtain ⟨a1, a2⟩ := (sends_step (V := V) hf.1 h1).2.2 (S 0) (hS 0).2.1 ((hS 0).1 ▸ hf.2.1) x x1 e1
      rw [ih hf.2.2 hv _ (fun i => hS (i + 1)) j _ _ (fun i t h => by rw [(step_stmts a1).1]; exact hg i t h) e2, a2]
  | @raw text args k as ns vs ha h2 ih =>
    intro p hf hv S hS j x x' hg h
    obtain ⟨f1, f2, f3⟩ := hf.1 as ha
    cases j with
    | zero => exact zero h
    | succ j =>
      rw [List.take_succ_cons, playOk, Option.bind_eq_some_iff] at h
      obtain ⟨x1, e1, e2⟩ := h
      rw [exec_raw _ _ f1 f2] at e1
      obtain ⟨a1, a2⟩ := (hS 0).2.2 _ f3 _ _ e1
      rw [ih hf.2 hv _ (fun i => hS (i + 1)) j _ _ (fun i t h => by rw [a2]; exact hg i t h) e2, a1]
  | @prepare id text k ns vs h2 ih =>
    intro p hf hv S hS j x x' hg h
    cases j with
    | zero => exact zero h
    | succ j =>
      rw [List.take_succ_cons] at h
      exact ih hf hv _ (fun i => hS (i + 1)) j { x with toScope := x.toScope.prepare id.toNat (some text) } _ (hg.prepare _ _) h
  | @execute id args k as ns vs ha h2 ih =>
    intro p hf hv S hS j x x' hg h
    obtain ⟨text, h3, h4⟩ := hf.1
    obtain ⟨f1, f2, f3⟩ := h4 as ha
    cases j with
    | zero => exact zero h
    | succ j =>
      rw [List.take_succ_cons, playOk, Option.bind_eq_some_iff] at h
      obtain ⟨x1, e1, e2⟩ := h
      rw [exec_prepared _ _ (hg _ _ h3) f1 f2] at e1
      obtain ⟨a1, a2⟩ := (hS 0).2.2 _ f3 _ _ e1
      rw [ih hf.2 hv _ (fun i => hS (i + 1)) j _ _ (fun i t h => by rw [a2]; exact hg i t h) e2, a1]
  | @deallocate id k ns vs h2 ih =>
    intro p hf hv S hS j x x' hg h
    cases j with
    | zero => exact zero h
    | succ j =>
      rw [List.take_succ_cons] at h
      exact ih hf hv _ (fun i => hS (i + 1)) j { x with toScope := x.toScope.prepare id.toNat none } _ (hg.prepare _ _) h
  | @insertRow t cols es k rs v ns vs hr h2 ih =>
    intro p hf hv S hS j x x' hg h
    obtain ⟨v1, v2⟩ := hv v (List.mem_cons_self ..)
    have ins : ∀ x1, (S 0).exec x (.insert t (some 2) cols [rs]) = some x1 → ∃ db', x1 = { x with db := db', last := (S 0).lastOf t x.last } := by
      intro x1 e1
      obtain ⟨a, h3, h4⟩ := hf.2.1
      obtain ⟨db', _, rfl⟩ := ((insert_numbered (V := V) (data := [es]) hf.1 hr).2 (S 0)
        (by rw [(hS 0).1, h3]; intro b hb; cases hb; exact h4) x x1).mp e1
      exact ⟨db', rfl⟩
    match j with
    | 0 => exact zero h
    | 1 =>
      rw [List.take_succ_cons, List.take_zero, playOk, Option.bind_eq_some_iff] at h
      obtain ⟨x1, e1, e2⟩ := h
      obtain ⟨db', rfl⟩ := ins x1 e1
      cases e2; rfl
    | j + 2 =>
      rw [List.take_succ_cons, List.take_succ_cons, playOk, Option.bind_eq_some_iff] at h
      obtain ⟨x1, e1, e2⟩ := h
      obtain ⟨db', rfl⟩ := ins x1 e1
      rw [playOk, exec_capture _ _ v1, Option.bind_some] at e2
      rw [ih (hf.2.2 v v2) (fun w hw => hv w (List.mem_cons_of_mem _ hw)) _ (fun i => hS (i + 1 + 1)) j _ _ (by exact fun i t h => hg i t h) e2]

theorem exec_kind {S : Server V} {x : Store V} {t : String} (hc : captured (sql t) = none) : S.exec x (sql t) =
    match fixedKind (sql t) with
      | some .start => some { x with saved := some x.db }
      | some .commit => some { x with saved := none }
      | some .rollback => some { x with db := x.durable, saved := none }
      | some .session => some x
      | _ => S.rest x (sql t) := by
  rw [sql] at hc ⊢
  simp only [Server.exec, Server.direct, hc]
  rfl

theorem opening_captured {n : Nat} {ss : List String} (h : txOpening n = some ss) : ∀ t ∈ ss, captured (sql t) = none := by
  revert h
  unfold txOpening
  split <;> intro h <;> cases h <;> simp only [List.mem_cons, List.not_mem_nil, or_false, forall_eq_or_imp, forall_eq] <;> decide

/-- Statements before the transaction. -/
theorem playOk_before : ∀ (pre : List String) (S : Nat → Server V) (x : Store V), (∀ t ∈ pre, captured (sql t) = none) →
    (∀ t ∈ pre, fixedKind (sql t) = some .session) → playOk S (pre.map sql) x = some x
  | [], _, _, _, _ => rfl
  | t :: pre, S, x, hc, hk => by
    rw [List.map_cons, playOk, exec_kind (hc t (List.mem_cons_self ..)), hk t (List.mem_cons_self ..)]
    exact playOk_before pre _ x (fun t h => hc t (List.mem_cons_of_mem _ h)) fun t h => hk t (List.mem_cons_of_mem _ h)

theorem playOk_opening {n : Nat} {ss : List String} (h : txOpening n = some ss) (S : Nat → Server V) (x : Store V) :
    playOk S (ss.map sql) x = some { x with saved := some x.db } := by
  have hc := opening_captured h
  obtain ⟨pre, last, rfl, h1, h2⟩ := opening_kinds h
  rw [List.map_append, playOk_append, playOk_before pre S x (fun t h => hc t (by simp [h])) h1, Option.bind_some, List.map_singleton, playOk,
    exec_kind (hc last (by simp)), h2]
  rfl

/-- Before COMMIT nothing is durable. -/
theorem playOk_durable {K : Known} {n : Nat} {ss : List String} (h : txOpening n = some ss) {ns : List ClientMsg} {p : Nat → Option Bytes}
    (hm : Stays K V p ns) {S : Nat → Server V} (hS : Usual K S) {x x' : Store V} (hx : x.saved = none) (hg : Agrees p x.toScope) (j : Nat)
    (hp : playOk S ((ss.map sql ++ ns).take j) x = some x') : x'.durable = x.db := by
  by_cases hj : j < ss.length
  · have hc := opening_captured h
    obtain ⟨pre, last, rfl, h1, _⟩ := opening_kinds h
    have e : ((pre ++ [last]).map sql ++ ns).take j = (pre.take j).map sql := by
      rw [List.length_append, List.length_singleton] at hj
      rw [List.take_append_of_le_length (by simp; omega), ← List.map_take, List.take_append_of_le_length (by omega)]
    rw [e, playOk_before _ S x (fun t h => hc t (by simp [List.mem_of_mem_take h])) fun t h => h1 t (List.mem_of_mem_take h)] at hp
    cases hp
    rw [Store.durable, hx]; rfl
  · have e : (ss.map sql ++ ns).take j = ss.map sql ++ ns.take (j - ss.length) := by
      rw [List.take_append, List.take_of_length_le (by simp; omega), List.length_map]
    rw [e, playOk_append, playOk_opening h, Option.bind_some] at hp
    have := hm _ (fun i => hS (_ + i)) _ { x with saved := some x.db } _ hg hp
    rw [Store.durable, this]; rfl

theorem failed_durable {x x' : Store V} (h : x.Failed x') : x'.durable = x.durable := by
  rcases h with ⟨h1, h2⟩ | ⟨h1, h2⟩
  · rw [Store.durable, h1, h2]; rfl
  · rw [Store.durable, h1, h2]; rfl

/-- In a block: all of the messages are executed, or some of the first and then no more. -/
theorem plays_plain {sp : Bool} {rest : List Block} : ∀ (ms : List ClientMsg) {f : Nat → Fate} {s : Session} {S : Nat → Server V} {x x' : Store V},
    (∀ m ∈ ms, isBlock m = false) → Inside rest 0 s → Plays S (ms.zip (serve sp f ms s).1) x x' →
    Inside rest 0 (serve sp f ms s).2 ∧
    (s.failed = false ∧ (serve sp f ms s).2.failed = false ∧ playOk S ms x = some x' ∨
     s.failed = false ∧ (serve sp f ms s).2.failed = true ∧ (∃ j xj, playOk S (ms.take j) x = some xj ∧ x'.durable = xj.durable) ∨
     s.failed = true ∧ (serve sp f ms s).2.failed = true ∧ x' = x)
  | [], f, s, S, x, x', _, hi, h => by
    cases h
    refine ⟨hi, ?_⟩
    cases hs : s.failed with
    | false => exact .inl ⟨rfl, by rw [serve, hs], rfl⟩
    | true => exact .inr (.inr ⟨rfl, by rw [serve, hs], rfl⟩)
  | m :: ms, f, s, S, x, x', hm, hi, h => by
    have hp := hm m (List.mem_cons_self ..)
    have hms : ∀ m ∈ ms, isBlock m = false := fun m h => hm m (List.mem_cons_of_mem _ h)
    rw [serve_cons, serveOne_plain hp] at h ⊢
    cases hs : s.failed with
    | true =>
      simp only [hs, if_true, List.zip_cons_cons] at h ⊢
      cases h with
      | skipped h =>
        obtain ⟨i1, i2⟩ := plays_plain ms hms hi h
        refine ⟨i1, ?_⟩
        rcases i2 with ⟨a, _⟩ | ⟨a, _⟩ | ⟨a, b, c⟩
        · rw [hs] at a; cases a
        · rw [hs] at a; cases a
        · exact .inr (.inr ⟨trivial, b, c⟩)
    | false =>
      simp only [hs, Bool.false_eq_true, if_false] at h ⊢
      have fail : ∀ s1 : Session, Inside rest 0 s1 → s1.failed = true → Plays S ((m, Answer.failed) :: ms.zip (serve sp (fun i => f (i + 1)) ms s1).1) x x' →
          Inside rest 0 (serve sp (fun i => f (i + 1)) ms s1).2 ∧ (serve sp (fun i => f (i + 1)) ms s1).2.failed = true ∧ x'.durable = x.durable := by
        intro s1 h1 h2 h
        cases h with
        | failed hx h =>
          obtain ⟨i1, i2⟩ := plays_plain ms hms h1 h
          rcases i2 with ⟨a, _⟩ | ⟨a, _⟩ | ⟨_, b, c⟩
          · rw [h2] at a; cases a
          · rw [h2] at a; cases a
          · exact ⟨i1, b, by rw [c, failed_durable hx]⟩
      cases ho : (f 0).outcome with
      | success =>
        simp only [ho, List.zip_cons_cons] at h ⊢
        cases h with
        | ok hx h =>
          obtain ⟨i1, i2⟩ := plays_plain ms hms (hi.congr (effect_blocks ..)) h
          rw [failed_congr (effect_blocks ..), hs] at i2
          refine ⟨i1, ?_⟩
          rcases i2 with ⟨_, b, c⟩ | ⟨_, b, j, xj, c1, c2⟩ | ⟨a, _⟩
          · exact .inl ⟨trivial, b, by rw [playOk, hx, Option.bind_some, c]⟩
          · exact .inr (.inl ⟨trivial, b, j + 1, xj, by rw [List.take_succ_cons, playOk, hx, Option.bind_some, c1], c2⟩)
          · cases a
      | error =>
        simp only [ho, List.zip_cons_cons] at h ⊢
        obtain ⟨n1, n2⟩ := hi.note
        obtain ⟨i1, i2, i3⟩ := fail _ n1 n2 h
        exact ⟨i1, .inr (.inl ⟨trivial, i2, 0, x, rfl, i3⟩)⟩
      | rolledBack =>
        simp only [ho, List.zip_cons_cons] at h ⊢
        obtain ⟨n1, n2⟩ := (hi.congr (t := { s with tx := none }) rfl).note
        obtain ⟨i1, i2, i3⟩ := fail _ n1 n2 h
        exact ⟨i1, .inr (.inl ⟨trivial, i2, 0, x, rfl, i3⟩)⟩

theorem plays_append {S : Nat → Server V} : ∀ {l l' : List (ClientMsg × Answer)} {x x' : Store V}, Plays S (l ++ l') x x' →
    ∃ x1, Plays S l x x1 ∧ Plays (fun i => S (l.length + i)) l' x1 x' := by
  intro l
  induction l generalizing S with
  | nil => intro l' x x' h; exact ⟨x, .nil, by simpa using h⟩
  | cons y l ih =>
    intro l' x x' h
    have e : ∀ i, l.length + i + 1 = (y :: l).length + i := by intro i; simp only [List.length_cons]; omega
    rw [List.cons_append] at h
    cases h with
    | ok h1 h2 =>
      obtain ⟨x1, a, b⟩ := ih h2
      simp only [e] at b
      exact ⟨x1, .ok h1 a, b⟩
    | failed h1 h2 =>
      obtain ⟨x1, a, b⟩ := ih h2
      simp only [e] at b
      exact ⟨x1, .failed h1 a, b⟩
    | skipped h2 =>
      obtain ⟨x1, a, b⟩ := ih h2
      simp only [e] at b
      exact ⟨x1, .skipped a, b⟩

/-- The end of a block changes no data. -/
theorem plays_close {S : Nat → Server V} {a : Answer} {x x' : Store V} (h : Plays S [(.expectClose, a)] x x') : x'.durable = x.durable := by
  cases h with
  | ok h1 h2 => cases h2; cases h1; rfl
  | failed h1 h2 => cases h2; exact failed_durable h1
  | skipped h2 => cases h2; rfl

/-- The first `k` messages of the unit of work: if COMMIT was not answered OK nothing is durable, otherwise everything. -/
theorem guarded_plays {K : Known} {sp : Bool} {f : Nat → Fate} {op n : Nat} {ss : List String} (hl : txOpening n = some ss)
    {ns : List ClientMsg} {p : Nat → Option Bytes} (hm : Stays K V p ns) (hb : ∀ m ∈ ns, isBlock m = false) {S : Nat → Server V} (hS : Usual K S)
    {s : Session} (hs : s.failed = false) {x x' : Store V} (hx : x.saved = none) (hg : Agrees p x.toScope) (k : Nat)
    (h : Plays S (((guarded op ss ns).take k).zip (serve sp f ((guarded op ss ns).take k) s).1) x x') :
    (x'.durable = x.db ∧ (serve sp f ((guarded op ss ns).take k) s).1[1 + (ss.length + ns.length)]? ≠ some .ok) ∨
    (serve sp f ((guarded op ss ns).take k) s).1[1 + (ss.length + ns.length)]? = some .ok ∧
      ∃ x1, playOk (fun i => S (1 + i)) (ss.map sql ++ ns) x = some x1 ∧ x'.durable = x1.db := by
  have hd : x.durable = x.db := by rw [Store.durable, hx]; rfl
  cases k with
  | zero =>
    rw [List.take_zero] at h ⊢
    cases h
    exact .inl ⟨hd, by simp [serve]⟩
  | succ k =>
    have hplain : ∀ m ∈ ss.map sql ++ ns, isBlock m = false := fun m hm => (List.mem_append.mp hm).elim (sql_plain _ m) (hb m)
    have h0 : Inside s.blocks 0 { s with blocks := ⟨true, s.failed⟩ :: s.blocks } := ⟨[⟨true, s.failed⟩], rfl, rfl, by simp, by simp⟩
    have hf0 : ({ s with blocks := ⟨true, s.failed⟩ :: s.blocks } : Session).failed = false := hs
    generalize hs0 : ({ s with blocks := ⟨true, s.failed⟩ :: s.blocks } : Session) = s0 at h0 hf0
    have hlen : (ss.map sql ++ ns).length = ss.length + ns.length := by simp
    have hS' : Usual K fun i => S (1 + i) := fun i => hS _
    have hsh : (fun i => S (i + 1)) = fun i => S (1 + i) := by funext i; rw [Nat.add_comm]
    by_cases hk : k ≤ ss.length + ns.length
    · have e : (guarded op ss ns).take (k + 1) = .expectOpen op [(1, ascii "1")] :: (ss.map sql ++ ns).take k := by
        rw [guarded, List.cons_append, List.take_succ_cons, List.append_assoc, List.take_append_of_le_length (by simp; omega)]
      rw [e, serve_cons, serveOne_open, hs0] at h ⊢
      simp only [hs, Bool.false_eq_true, if_false, List.zip_cons_cons] at h ⊢
      left
      refine ⟨?_, ?_⟩
      · cases h with
        | ok h1 h2 =>
          cases h1
          rw [hsh] at h2
          obtain ⟨_, q⟩ := plays_plain _ (fun m hm => hplain m (List.mem_of_mem_take hm)) h0 h2
          rcases q with ⟨_, _, q⟩ | ⟨_, _, j, xj, q1, q2⟩ | ⟨q, _⟩
          · exact playOk_durable hl hm hS' hx hg k q
          · rw [q2]
            rw [List.take_take] at q1
            exact playOk_durable hl hm hS' hx hg _ q1
          · rw [hf0] at q; cases q
      · intro hc
        have := (List.getElem?_eq_some_iff.mp hc).1
        simp only [List.length_cons, serve_length, List.length_take, hlen] at this
        omega
    · have e : (guarded op ss ns).take (k + 1) = .expectOpen op [(1, ascii "1")] :: ((ss.map sql ++ ns) ++ (sql "COMMIT" :: [ClientMsg.expectClose].take (k - (ss.length + ns.length) - 1))) := by
        rw [guarded, List.cons_append, List.take_succ_cons, List.append_assoc, List.take_append, List.take_of_length_le (by simp; omega)]
        congr 2
        rw [show k - (ss.map sql ++ ns).length = (k - (ss.length + ns.length) - 1) + 1 by rw [hlen]; omega]
        rfl
      rw [e, serve_cons, serveOne_open, hs0] at h ⊢
      rw [serve_append, serve_cons] at h ⊢
      simp only [hs, Bool.false_eq_true, if_false, List.zip_cons_cons] at h ⊢
      generalize hr : serve sp (fun i => f (i + 1)) (ss.map sql ++ ns) s0 = r at h ⊢
      have hrl : r.1.length = ss.length + ns.length := by rw [← hr, serve_length, hlen]
      rw [List.zip_append (by rw [hrl, hlen])] at h
      have hget : ∀ (c : Answer) (l : List Answer), (Answer.ok :: (r.1 ++ c :: l))[1 + (ss.length + ns.length)]? = some c := by
        intro c l
        rw [Nat.add_comm 1, List.getElem?_cons_succ, List.getElem?_append_right (by omega), hrl, Nat.sub_self]
        rfl
      rw [hget]
      cases h with
      | ok h1 h2 =>
        cases h1
        rw [hsh] at h2
        obtain ⟨x1, p1, p2⟩ := plays_append h2
        have q := plays_plain (sp := sp) (f := fun i => f (i + 1)) (rest := s.blocks) (s := s0) (S := fun i => S (1 + i)) (x := x) (x' := x1) _ hplain h0 (by rw [hr]; exact p1)
        rw [hr] at q
        obtain ⟨q0, q⟩ := q
        have hclose : ∀ {a : Answer} {x2 : Store V} {S' : Nat → Server V} {st : Session} {f' : Nat → Fate} {j : Nat},
            Plays S' (([ClientMsg.expectClose].take j).zip (serve sp f' ([ClientMsg.expectClose].take j) st).1) x2 x' → x'.durable = x2.durable := by
          intro a x2 S' st f' j h
          cases j with
          | zero => cases h; rfl
          | succ j =>
            rw [List.take_succ_cons, List.take_nil, serve_cons] at h
            exact plays_close h
        rw [serveOne_plain (show isBlock (sql "COMMIT") = false from rfl)] at p2 ⊢
        rw [List.zip_cons_cons] at p2
        rcases q with ⟨_, q1, q2⟩ | ⟨_, q1, j, xj, q2, q3⟩ | ⟨q, _⟩
        · have hd1 : x1.durable = x.db := playOk_durable hl hm hS' hx hg (ss.map sql ++ ns).length (by rw [List.take_length]; exact q2)
          simp only [q1, Bool.false_eq_true, if_false] at p2 ⊢
          split at p2
          · rename_i ho
            cases p2 with
            | ok p3 p4 =>
              rw [exec_kind (by decide), commit_kind] at p3
              cases p3
              refine .inr ⟨rfl, x1, q2, ?_⟩
              rw [hclose (a := .ok) p4]
              rfl
          · rename_i ho
            cases p2 with
            | failed p3 p4 => exact .inl ⟨by rw [hclose (a := .ok) p4, failed_durable p3, hd1], by simp⟩
          · rename_i ho
            cases p2 with
            | failed p3 p4 => exact .inl ⟨by rw [hclose (a := .ok) p4, failed_durable p3, hd1], by simp⟩
        · simp only [q1, if_true] at p2 ⊢
          cases p2 with
          | skipped p4 =>
            refine .inl ⟨?_, by simp⟩
            rw [hclose (a := .ok) p4, q3]
            exact playOk_durable hl hm hS' hx hg j q2
        · rw [hf0] at q; cases q

/-! ### the whole -/

/-- `guarded_run`, with the names of the ids: all different, and short. -/
theorem guarded_names {g : Grow} {b b' : Builder} {body : Prog} {o : List Builder} {out : List (Option Val)} (hb : Ready b) (op : UInt8) (level : BitVec 64)
    (h : run g (.expect op (.tx level body fun o => .ret none o) fun o => .ret none o) [] b = .ok (o, b', out)) (he : b'.err = none)
    (hsize : b'.buf.data.length < 2 ^ 32) :
    ∃ ss ms vs, txOpening level.toNat = some ss ∧ Exec libDur 2 body (.ok []) (.ok ms) out vs ∧ vs.Nodup ∧
      (∀ v ∈ vs, isVariable v = true ∧ v.length < 124) ∧
      (op.toNat ≤ 1 → (∀ m ∈ ms, Readable m) → Spec.Holds b' b.buf.data (guarded op.toNat ss ms)) := by
  obtain ⟨st, ks, h1, h2, h5⟩ := run_ready hb h
  have hnd := h5.nodup
  have hshort : ∀ v ∈ ks.map idVariable, isVariable v = true ∧ v.length < 124 := by
    intro v hv
    obtain ⟨k, hk, rfl⟩ := List.mem_map.mp hv
    refine ⟨(idVariable_name k).2, ?_⟩
    cases st with
    | error e => rw [show b'.err = some e from h2.2] at he; cases he
    | ok ms =>
      have h6 := h5.high k hk ms rfl
      rw [h2.2.2, List.length_append] at hsize
      have h7 := decimal_length_le 9 k (by unfold fill at h6; omega)
      simp only [idVariable, List.length_append, show (ascii "@id$").length = 4 from rfl]
      omega
  have h1' := exec_good h1
  generalize hv : ks.map idVariable = vs at h1 hnd hshort
  cases h1 with
  | expect hx hk' =>
    cases hk'
    cases hx with
    | tx hl hx hk' =>
      cases hk'
      simp only [List.append_nil] at hnd hshort
      obtain ⟨new, e, hp⟩ := exec_append hx _ _ rfl rfl
      have hp := hp []
      refine ⟨_, new, _, hl, hp, hnd, hshort, fun hop hr => ?_⟩
      rw [e] at h2 h1'
      have e : ∀ {ss : List String}, [] ++ [ClientMsg.expectOpen op.toNat [(1, ascii "1")]] ++ ss.map sql ++ new ++ [sql "COMMIT"] ++ [.expectClose] =
          guarded op.toNat ss new := by simp [guarded]
      rw [e] at h2 h1'
      apply h2.holds
      intro m hm
      refine h1' _ _ rfl rfl (by simp) m hm ?_
      simp only [guarded, List.cons_append, List.mem_cons, List.mem_append, List.mem_map, List.not_mem_nil, or_false] at hm
      rcases hm with rfl | ((⟨x, _, rfl⟩ | hm) | rfl) | rfl
      · exact hop
      · trivial
      · exact hr m hm
      · trivial
      · trivial
    | txLevel hl hk' => cases hk'
    | txFail hl hx hk' => cases hk'
  | expectFail hx hk' =>
    cases hk'
    rw [show b'.err = some _ from h2.2] at he; cases he

/-- If the client has an answer for each of its messages, the server has dealt with all of them. -/
theorem works_seen {cd : Codec} {sp : Bool} {f : Nat → Fate} {S : Nat → Server V} {s : Session} {x x' : Store V} {b p rest : Bytes}
    {ms : List ClientMsg} {cts : List UInt8} {rrs : List Response} (h : Works cd sp f S s x b p x') (hd : decodeStream b = some ms)
    (hl : cts.length = ms.length) (ha : AnsweredAll cd cts p rrs rest) :
    ((∀ r ∈ rrs, r = .ok) ↔ ∀ a ∈ (serve sp f ms s).1, a = .ok) ∧ ∃ x1, Plays S (ms.zip (serve sp f ms s).1) x x1 ∧ x'.durable = x1.durable := by
  cases h with
  | done hd' hr hx =>
    rw [hd] at hd'
    cases hd'
    obtain ⟨_, h2⟩ := replies_seen hr ha
    rw [h2 (by rw [serve_length, hl])]
    exact ⟨replies_ok hr, _, hx, rfl⟩
  | @lost ms' rrs' k full rest' x1 hd' hr hn hp hx =>
    rw [hd] at hd'
    cases hd'
    obtain ⟨t, rfl⟩ := hp
    obtain ⟨h1, h2⟩ := replies_seen hr (answeredAll_more ha t)
    rcases h1 with h1 | ⟨rr, r, h1⟩
    · rw [serve_length, hl, List.length_take] at h1
      have : ms.take k = ms := List.take_of_length_le (by omega)
      rw [this] at hr h2 hx
      rw [h2 (by rw [serve_length, hl])]
      exact ⟨replies_ok hr, x1, hx, rfl⟩
    · exact absurd h1 (hn rr r)

/-- **C89.** A unit of work of the form the README recommends, made of calls that change tables, in which calls after an `InsertRow` may
use the id it returns, on a server with transactions, generated ids and variables, wherever the connection goes away, if it does:
afterwards the database is either as it was or as the calls say, one after the other, where each id stands for the one generated for
the row of its own `InsertRow`.  If `Send` returns responses, they tell which.  (`p` are the statements prepared before.) -/
theorem C89_keys {g : Grow} {b b' : Builder} {u : GoUnit} {o : List Builder} {out : List (Option Val)} (hb : Ready b) (h0 : b.buf.data = [])
    (op : UInt8) (level : BitVec 64) {K : Known} {p : Nat → Option Bytes} (hf : fineP K p u)
    (h : run g (.expect op (.tx level (progU u) fun o => .ret none o) fun o => .ret none o) [] b = .ok (o, b', out))
    {bs : Bytes} (hbs : b'.send = .ok (.ok bs)) (hsize : bs.length < 2 ^ 32) (hop : op.toNat ≤ 1) :
    ∃ opening, txOpening level.toNat = some opening ∧
    ∀ {cd : Codec} {spreads : Bool} {script : Nat → Fate} {S : Nat → Server V} {s : Session} {x x' : Store V} {w : World} {c : Conn},
      RejectsHeaders cd → Life cd c.r → s.failed = false → x.saved = none → Agrees p x.toScope → Usual K S →
      Works cd spreads script S s x bs c.r.pending x' →
      ∃ w' c' rrs e, Conn.send cd w c bs = .ok (w', c', rrs, e) ∧
        (let before := x'.durable = x.db
         let after := ∃ y, UnitDoes (fun i => S (1 + (opening.length + i))) [] u x.toScope y ∧ x'.durable = y.db
         (before ∨ after) ∧ (e = none → ((∀ r ∈ rrs, r = .ok) → after) ∧ ((∃ r ∈ rrs, r ≠ .ok) → before))) := by
  have hd : b'.err = none ∧ b'.buf.data = bs := by
    rw [Builder.send] at hbs
    split at hbs
    · cases hbs
    · cases he : b'.err with
      | some e => rw [he] at hbs; simp at hbs
      | none => rw [he] at hbs; simpa using hbs
  obtain ⟨he, rfl⟩ := hd
  obtain ⟨ss, ms, vs, hl, hx, hnd, hv, hh⟩ := guarded_names hb op level h he hsize
  obtain ⟨ns, hms, hsend⟩ := exec_progU u hx
  rw [List.nil_append] at hms
  subst hms
  obtain ⟨hm, hdo⟩ := sends_does (V := V) hsend hf hv
  have hst := sends_stays (V := V) hsend hf hv
  have hdec : decodeStream b'.buf.data = some (guarded op.toNat ss ms) := by
    obtain ⟨_, fr, e1, e2⟩ := hh hop fun m h => (hm m h).1
    rw [h0, List.nil_append] at e1
    rw [e1] at hsize ⊢
    exact e2 hsize
  obtain ⟨fs, hfs, hlen⟩ : ∃ fs, readFrames b'.buf.data = some fs ∧ fs.length = (guarded op.toNat ss ms).length := stream_frames hdec
  refine ⟨ss, hl, fun {cd sp f S s x x' w c} hcd hc hs hx hg hS hw => ?_⟩
  have hb : ∀ m ∈ ms, isBlock m = false := fun m h => (hm m h).2
  have does : ∀ x1, playOk (fun i => S (1 + i)) (ss.map sql ++ ms) x = some x1 →
      ∃ y, UnitDoes (fun i => S (1 + (ss.length + i))) [] u x.toScope y ∧ x1.db = y.db := by
    intro x1 hp
    rw [playOk_append, playOk_opening hl, Option.bind_some, List.length_map] at hp
    exact ⟨x1.toScope, (hdo _ [] (fun i => hS _) hnd (by simp) { x with saved := some x.db } _ hg hp).1, rfl⟩
  obtain ⟨w', c', rrs, e, hsd, _, _⟩ := C31_safe cd (w := w) hc hfs
  refine ⟨w', c', rrs, e, hsd, ?_, fun hnone => ?_⟩
  · have cut : ∀ k x1, Plays S (((guarded op.toNat ss ms).take k).zip (serve sp f ((guarded op.toNat ss ms).take k) s).1) x x1 →
        x'.durable = x1.durable → x'.durable = x.db ∨ ∃ y, UnitDoes (fun i => S (1 + (ss.length + i))) [] u x.toScope y ∧ x'.durable = y.db := by
      intro k x1 hp hd
      rcases guarded_plays hl hst hb hS hs hx hg k hp with ⟨q, _⟩ | ⟨_, x2, q1, q2⟩
      · exact .inl (hd.trans q)
      · obtain ⟨y, y1, y2⟩ := does x2 q1
        exact .inr ⟨y, y1, by rw [hd, q2, y2]⟩
    cases hw with
    | done hd' _ hp =>
      rw [hdec] at hd'
      cases hd'
      exact cut _ _ (by rw [List.take_length]; exact hp) rfl
    | @lost _ _ k _ _ _ hd' _ _ _ hp =>
      rw [hdec] at hd'
      cases hd'
      exact cut k _ hp rfl
  · subst hnone
    have hww : Writable w := by
      rw [Conn.send] at hsd
      unfold World.write at hsd
      unfold Writable
      cases f1 : w.fault w.calls with
      | some x => rw [f1] at hsd; simp at hsd
      | none =>
        cases f2 : w.fault (w.calls + 1) with
        | some x => rw [f1, f2] at hsd; simp at hsd
        | none => exact ⟨rfl, rfl⟩
    have hall := C29_only_answers hcd hww hc hfs hsd
    obtain ⟨q1, x1, q2, q3⟩ := works_seen hw hdec (by rw [List.length_map, hlen]) hall
    obtain ⟨before, commit, close, a1, a2, a3, a4⟩ := commitGuarded (sp := sp) (f := f) (op := op.toNat) (ss := ss) (s := s)
      (openBlocks_plain hb 0) (plain_noError hb) (.inr hb)
    have hget : (serve sp f (guarded op.toNat ss ms) s).1[1 + (ss.length + ms.length)]? = some commit := by
      rw [a1, List.getElem?_append_right (by omega), a2, Nat.sub_self]
      rfl
    have key := guarded_plays (x' := x1) hl hst hb hS hs hx hg (guarded op.toNat ss ms).length (by rw [List.take_length]; exact q2)
    rw [List.take_length, hget] at key
    refine ⟨fun hok => ?_, fun hno => ?_⟩
    · have hc : commit = .ok := q1.mp hok commit (by rw [a1]; simp)
      rcases key with ⟨_, k2⟩ | ⟨_, x2, k1, k2⟩
      · rw [hc] at k2; exact absurd rfl k2
      · obtain ⟨y, y1, y2⟩ := does x2 k1
        exact ⟨y, y1, by rw [q3, k2, y2]⟩
    · rcases key with ⟨k1, _⟩ | ⟨k1, _⟩
      · exact q3.trans k1
      · exfalso
        obtain ⟨r, hr1, hr2⟩ := hno
        have hc : commit = .ok := Option.some.inj k1
        refine hr2 (q1.mpr (fun a ha => ?_) r hr1)
        rw [a1] at ha
        simp only [List.mem_append, List.mem_cons, List.not_mem_nil, or_false] at ha
        rcases ha with ha | rfl | rfl
        · exact a3.mp (by rw [hc]; simp) a ha
        · exact hc
        · exact a4.mpr hc

/-- C89: a parent and its child.  The new row of the child has, in the column given, the id that the new row of the parent has in its
AUTO_INCREMENT column. -/
theorem C89_child {S : Nat → Server V} {used : List Bytes} {t u a c : Bytes} {cols : List Bytes} {es : List GoExpr} {y z : Scope V} (htu : t ≠ u)
    (ha : (S 0).auto t = some a) (hac : a ∉ cols) (hc : ∀ b ∈ (S 2).auto u, b ≠ c)
    (h : UnitDoes S used (.insertRow t cols es fun v => .stmt (.insert u [c] [[.var v]]) .done) y z) :
    ∃ tab tab' parent child w, y.db t = some tab ∧ y.db u = some tab' ∧
      z.db t = some { tab with rows := tab.rows ++ [parent] } ∧ z.db u = some { tab' with rows := tab'.rows ++ [child] } ∧
      parent a = some ((S 0).ids 0) ∧ (∀ x ∈ cols, x ≠ a) ∧ (S 2).engine.store u c ((S 0).ids 0) = some w ∧ child c = some w := by
  cases h with
  | @insertRow _ _ _ _ _ _ v _ db' _ _ _ h1 h2 =>
    obtain ⟨tab, new, p1, _, p3, rfl⟩ := h1
    cases p3 with
    | @cons _ row _ _ p3 p4 =>
      cases p4
      cases h2 with
      | stmt h3 h4 =>
        cases h4
        obtain ⟨⟨tab', new', q1, _, q3, q4⟩, _, _⟩ := h3
        cases q3 with
        | @cons _ row' _ _ q5 q6 =>
          cases q6
          have hz : ∀ x, z.db x = _ := fun x => congrFun q4 x
          have q1' : y.db u = some tab' := by simpa [withRows, Ne.symm htu] using q1
          obtain ⟨_, w, ⟨v', k1, k2⟩, k3⟩ := q5.2.2.set (c, .var v) (by simp)
          have k1' : v' = (S 0).ids 0 := by
            simp [denFor, den, Server.sees] at k1
            exact k1.symm
          subst k1'
          refine ⟨tab, tab', (S 0).number t 0 row, (S 2).number u 0 row', w, p1, q1', ?_, ?_, ?_, ?_, k2, ?_⟩
          · rw [hz]; simp [withRows, htu]
          · rw [hz]; simp [withRows]
          · simp [Server.number, ha]
          · intro x hx hxa; exact hac (hxa ▸ hx)
          · rw [Server.number]
            cases hb : (S 2).auto u with
            | none => exact k3
            | some b => exact (if_neg fun h => hc b hb h.symm).trans k3

/-! ### cases -/

/-- The database of the cases: `parent`, `child` and `tag`, with columns `id` and `a`; the first two have generated ids. -/
def autoEx : Bytes → Option Bytes := fun t => if t = ascii "parent" ∨ t = ascii "child" then some (ascii "id") else none

def rowId (i a : Option Int) : Sql.Row (Option Int) := fun c => if c = ascii "id" then some i else if c = ascii "a" then some a else none

def keysDb : Database (Option Int) := fun t =>
  if t = ascii "parent" then some ⟨rowId none none, [rowId (some 1) (some 5)]⟩
  else if t = ascii "child" ∨ t = ascii "tag" then some ⟨rowId none none, []⟩
  else none

/-- a statement of the user -/
def tagText : Bytes := ascii "INSERT INTO tag (a) VALUES (?)"

/-- its effect -/
def restEx (x : Store (Option Int)) : ClientMsg → Option (Store (Option Int))
  | .stmtExecute t [.sint n] => if t = tagText then (x.db (ascii "tag")).map fun tab =>
      { x with db := withRows x.db (ascii "tag") tab (tab.rows ++ [rowId none (some n)]) } else none
  | _ => none

/-- The i-th message generates the ids from 100 + 10 i on. -/
def serversEx : Nat → Server (Option Int) := fun i =>
  ⟨intEngine, fun E db m => onTable E db m, autoEx, fun j => some (100 + 10 * i + j), restEx⟩

def knownEx : Known := ⟨autoEx, fun m => ∃ n, m = .stmtExecute tagText [.sint n]⟩

theorem serversEx_usual : Usual knownEx serversEx := by
  refine fun _ => ⟨rfl, fun _ _ _ _ => rfl, ?_⟩
  rintro _ ⟨n, rfl⟩ x x' h
  simp only [serversEx, restEx, if_true, Option.map_eq_some_iff] at h
  obtain ⟨tab, _, rfl⟩ := h
  exact ⟨rfl, rfl⟩

/-- a session that has last inserted a row with id 7 -/
def keysStore : Store (Option Int) := ⟨⟨keysDb, some 7, fun _ => none, fun _ => none⟩, none⟩

/-- `id := InsertRow("parent", ["a"], [3]); Insert("child", ["a"], [[id], [8]])` -/
def keysUnit : GoUnit := .insertRow (ascii "parent") [ascii "a"] [.val (.int 3)] fun v =>
  .stmt (.insert (ascii "child") [ascii "a"] [[.var v], [.val (.int 8)]]) .done

theorem independent_one (c : Bytes) (e : GoExpr) : Independent ([c].zip [e]) := by
  intro s hs s' hs' _
  simp at hs hs'
  rw [hs, hs']

theorem keysUnit_fine : fineU knownEx keysUnit := by
  refine ⟨?_, ⟨ascii "id", by decide, by decide⟩, fun v hv => ⟨?_, ?_, trivial⟩⟩
  · intro es he
    simp only [List.mem_singleton] at he
    subst he
    exact ⟨rfl, independent_one _ _, by simp; rfl⟩
  · intro es he
    simp only [List.mem_cons, List.not_mem_nil, or_false] at he
    rcases he with rfl | rfl
    · exact ⟨rfl, independent_one _ _, by simp [okFor, regular, hv, served]⟩
    · exact ⟨rfl, independent_one _ _, by simp; rfl⟩
  · intro a ha
    have : knownEx.auto (ascii "child") = some (ascii "id") := by decide
    rw [this] at ha
    cases ha
    decide

/-- `id := InsertRow("parent", ["a"], [3]); StmtExecute("INSERT INTO tag (a) VALUES (?)", 6); Insert("child", ["a"], [[id]])` -/
def rawUnit : GoUnit := .insertRow (ascii "parent") [ascii "a"] [.val (.int 3)] fun v =>
  .raw tagText [.int 6] (.stmt (.insert (ascii "child") [ascii "a"] [[.var v]]) .done)

theorem rawUnit_fine : fineU knownEx rawUnit := by
  refine ⟨?_, ⟨ascii "id", by decide, by decide⟩, fun v hv => ⟨?_, ?_, ?_, trivial⟩⟩
  · intro es he
    simp only [List.mem_singleton] at he
    subst he
    exact ⟨rfl, independent_one _ _, by simp; rfl⟩
  · intro as ha
    have : as = [.sint 6] := by
      have h : [PScalar.sint 6].map some = as.map some := ha
      exact ((List.map_inj_right fun _ _ h => Option.some.inj h).mp h).symm
    subst this
    exact ⟨rfl, rfl, 6, rfl⟩
  · intro es he
    simp only [List.mem_cons, List.not_mem_nil, or_false] at he
    subst he
    exact ⟨rfl, independent_one _ _, by simp [okFor, regular, hv, served]⟩
  · intro a ha
    have : knownEx.auto (ascii "child") = some (ascii "id") := by decide
    rw [this] at ha
    cases ha
    decide

theorem tag_staysIn (n : BitVec 64) : staysIn knownEx tagText [.int n] := by
  intro as ha
  have : as = [.sint n.toInt] := by
    have h : [PScalar.sint n.toInt].map some = as.map some := ha
    exact ((List.map_inj_right fun _ _ h => Option.some.inj h).mp h).symm
  subst this
  exact ⟨rfl, rfl, _, rfl⟩

/-- `Execute(7, 6)` -/
def executeUnit : GoUnit := .execute 7 [.int 6] .done

/-- `Prepare(7, "INSERT INTO tag (a) VALUES (?)"); Execute(7, 6); Deallocate(7); Prepare(8, "INSERT INTO tag (a) VALUES (?)")` -/
def prepareUnit : GoUnit := .prepare 7 tagText (.execute 7 [.int 6] (.deallocate 7 (.prepare 8 tagText .done)))

/-- only number 7 -/
def seven : Nat → Option Bytes := fun i => if i = 7 then some tagText else none

theorem prepareUnit_fine : fineU knownEx prepareUnit := ⟨⟨tagText, rfl, tag_staysIn 6⟩, trivial⟩

/-- Statements prepared earlier are known. -/
theorem executeUnit_fine : fineP knownEx seven executeUnit := ⟨⟨tagText, rfl, tag_staysIn 6⟩, trivial⟩

example : leaves (fun i => if i = 8 then some tagText else none) (fun _ => none) prepareUnit := by
  intro i t h
  by_cases e : i = 8
  · subst e; exact h
  · dsimp only at h; rw [if_neg e] at h; cases h

/-- the columns `id` and `a` of the rows of a table -/
def showTable (x : Option (Store (Option Int))) (t : String) : Option (List (Option (Option Int) × Option (Option Int))) :=
  x.bind fun x => (x.db (ascii t)).map fun tab => tab.rows.map fun row => (row (ascii "id"), row (ascii "a"))

/-- what `keysUnit` sends, on the example's server -/
def keysMsgs : List ClientMsg := [sql "START TRANSACTION", .insert (ascii "parent") (some 2) [ascii "a"] [[.literal (.sint 3)]], captureId (ascii "@id$9"),
  .insert (ascii "child") (some 2) [ascii "a"] [[.variable (ascii "@id$9")], [.literal (.sint 8)]], sql "COMMIT"]

example : showTable (playOk serversEx keysMsgs keysStore) "parent" = some [(some (some 1), some (some 5)), (some (some 110), some (some 3))] ∧
    showTable (playOk serversEx keysMsgs keysStore) "child" = some [(some (some 130), some (some 110)), (some (some 131), some (some 8))] := by
  decide +kernel

/-- The calls do this. -/
example : ∃ z, UnitDoes serversEx [] keysUnit keysStore.toScope z := by
  have hs : SendsAll keysUnit [.insert (ascii "parent") (some 2) [ascii "a"] [[.literal (.sint 3)]], captureId (ascii "@id$9"),
      .insert (ascii "child") (some 2) [ascii "a"] [[.variable (ascii "@id$9")], [.literal (.sint 8)]]] [ascii "@id$9"] :=
    .insertRow (show Rows libDur _ _ from rfl) (.stmt (.insert (show Rows libDur _ _ from rfl)) .done)
  exact ⟨_, ((sends_does hs keysUnit_fine (by simp; decide)).2 serversEx [] serversEx_usual (by simp) (by simp) keysStore _ (agrees_none _) rfl).1⟩

/-- With a statement of the user in between. -/
example : ∃ z, UnitDoes serversEx [] rawUnit keysStore.toScope z ∧
    (z.db (ascii "tag")).map (·.rows.map fun row => row (ascii "a")) = some [some (some 6)] ∧
    (z.db (ascii "child")).map (·.rows.map fun row => row (ascii "a")) = some [some (some 100)] := by
  have hs : SendsAll rawUnit [.insert (ascii "parent") (some 2) [ascii "a"] [[.literal (.sint 3)]], captureId (ascii "@id$9"),
      .stmtExecute tagText [.sint 6], .insert (ascii "child") (some 2) [ascii "a"] [[.variable (ascii "@id$9")]]] [ascii "@id$9"] :=
    .insertRow (show Rows libDur _ _ from rfl) (.raw (show Args libDur _ [.sint 6] from rfl) (.stmt (.insert (show Rows libDur _ _ from rfl)) .done))
  exact ⟨_, ((sends_does hs rawUnit_fine (by simp; decide)).2 serversEx [] serversEx_usual (by simp) (by simp) keysStore _ (agrees_none _) rfl).1,
    by decide +kernel, by decide +kernel⟩

/-- With a prepared statement. -/
example : ∃ z, UnitDoes serversEx [] prepareUnit keysStore.toScope z ∧ z.stmts 7 = none ∧ z.stmts 8 = some tagText ∧
    (z.db (ascii "tag")).map (·.rows.map fun row => row (ascii "a")) = some [some (some 6)] := by
  have hs : SendsAll prepareUnit [.prepare 7 tagText, .execute 7 [.sint 6], .deallocate 7, .prepare 8 tagText] [] :=
    .prepare (.execute (show Args libDur _ [.sint 6] from rfl) (.deallocate (.prepare .done)))
  exact ⟨_, ((sends_does hs prepareUnit_fine (by simp)).2 serversEx [] serversEx_usual (by simp) (by simp) keysStore _ (agrees_none _) rfl).1,
    rfl, rfl, by decide +kernel⟩

theorem plays_ok : ∀ (ms : List ClientMsg) (S : Nat → Server V) (as : List Answer) {x x' : Store V}, as.length = ms.length → (∀ a ∈ as, a = .ok) →
    playOk S ms x = some x' → Plays S (ms.zip as) x x'
  | [], S, as, x, x', hl, _, h => by
    cases h; rw [List.zip_nil_left]; exact .nil
  | m :: ms, S, [], x, x', hl, _, _ => by cases hl
  | m :: ms, S, a :: as, x, x', hl, ha, h => by
    rw [playOk, Option.bind_eq_some_iff] at h
    obtain ⟨x1, h1, h2⟩ := h
    rw [List.zip_cons_cons, ha a (List.mem_cons_self ..)]
    exact .ok h1 (plays_ok ms _ as (by simpa using hl) (fun a h => ha a (List.mem_cons_of_mem _ h)) h2)

/-- There are servers that do it all. -/
example {sp : Bool} {f : Nat → Fate} {s : Session} {b : Bytes} {ms : List ClientMsg} (h : decodeStream b = some ms)
    (hok : ∀ a ∈ (serve sp f ms s).1, a = .ok) {S : Nat → Server V} {x x' : Store V} (hp : playOk S ms x = some x') :
    Works toyCodec sp f S s x b ((serve sp f ms s).1.flatMap answerBytes ++ []) x' := by
  obtain ⟨rrs, hr⟩ := replies_possible (serve sp f ms s).1 []
  exact .done h hr (plays_ok ms S _ (serve_length ..) hok hp)

/-- C89: the table has to have an AUTO_INCREMENT column.  What `InsertRow` sends for a table without one is executed, and what it
returns stands for the last id that was generated for any other row. -/
theorem C89_needs_auto {S : Nat → Server V} {t v : Bytes} {cols : List Bytes} {rs : List (List PExpr)} {x x' : Store V}
    (ha : (S 0).auto t = none) (hv : isVariable v = true) (h : playOk S [.insert t (some 2) cols rs, captureId v] x = some x') :
    x'.vars v = some x.last := by
  rw [playOk, Option.bind_eq_some_iff] at h
  obtain ⟨x1, h1, h2⟩ := h
  rw [playOk, exec_capture _ _ hv, Option.bind_some] at h2
  cases h2
  simp only [Server.exec, Server.explicit, ha, Bool.false_eq_true, if_false, Server.insert, Option.bind_eq_some_iff] at h1
  obtain ⟨tab, _, h1⟩ := h1
  split at h1
  · cases h1
  · obtain ⟨new, _, rfl⟩ := Option.map_eq_some_iff.mp h1
    simp [Server.lastOf, ha]

/-- `id := InsertRow("tag", ["a"], [3]); Insert("child", ["a"], [[id]])`: the child has the id of a stranger -/
example : showTable (playOk serversEx [.insert (ascii "tag") (some 2) [ascii "a"] [[.literal (.sint 3)]], captureId (ascii "@id$9"),
    .insert (ascii "child") (some 2) [ascii "a"] [[.variable (ascii "@id$9")]]] keysStore) "child" = some [(some (some 120), some (some 7))] := by
  decide +kernel

/-! ### statements that end the transaction -/

/-- a statement of the user that commits implicitly -/
def ddlText : Bytes := ascii "CREATE TABLE other (a INT)"

/-- `id := InsertRow("parent", ["a"], [3]); StmtExecute("CREATE TABLE other (a INT)"); Insert("child", ["a"], [[id]])` -/
def ddlUnit : GoUnit := .insertRow (ascii "parent") [ascii "a"] [.val (.int 3)] fun v =>
  .raw ddlText [] (.stmt (.insert (ascii "child") [ascii "a"] [[.var v]]) .done)

def ddlServers : Nat → Server (Option Int) := fun i =>
  { serversEx i with rest := fun x m =>
      match m with
      | .stmtExecute t [] => if t = ddlText then some { x with saved := none } else none
      | _ => none }

/-- what is sent for `Expect(Tx(ddlUnit))` -/
def ddlReq : Bytes := (appended (newPipe 0) (.expect 0 (.tx 0 (progU ddlUnit) fun o => .ret none o) fun o => .ret none o)).getD []

def ddlMsgs : List ClientMsg := (decodeStream ddlReq).getD []

theorem ddlReq_read : decodeStream ddlReq = some ddlMsgs := by
  have h : (decodeStream ddlReq).isSome = true := by decide +kernel
  obtain ⟨ms, h⟩ := Option.isSome_iff_exists.mp h
  rw [ddlMsgs, h]; rfl

attribute [local irreducible] ddlMsgs ddlReq in
/-- C89: the statements of the user have to stay within the transaction.  If one commits implicitly and a later message fails, the
database is neither as before nor as the calls say: here there is a parent without its child, and `Send` returns that as responses. -/
theorem C89_needs_within : ∃ x', Works toyCodec false (failsAt 5) ddlServers freshSession keysStore ddlReq
      (([Answer.ok, .ok, .ok, .ok, .ok, .failed, .skipped, .failed]).flatMap answerBytes ++ []) x' ∧
    showTable (some x'.drop) "parent" = some [(some (some 1), some (some 5)), (some (some 120), some (some 3))] ∧
    showTable (some x'.drop) "child" = some [] := by
  have hp : (playOk ddlServers (ddlMsgs.take 5) keysStore).isSome = true := by decide +kernel
  have ht : showTable ((playOk ddlServers (ddlMsgs.take 5) keysStore).map Store.drop) "parent" =
        some [(some (some 1), some (some 5)), (some (some 120), some (some 3))] ∧
      showTable ((playOk ddlServers (ddlMsgs.take 5) keysStore).map Store.drop) "child" = some [] := by decide +kernel
  obtain ⟨x', e1⟩ := Option.isSome_iff_exists.mp hp
  rw [e1] at ht
  have ha : (serve false (failsAt 5) ddlMsgs freshSession).1 = [.ok, .ok, .ok, .ok, .ok] ++ [.failed, .skipped, .failed] := by decide +kernel
  have hl : ddlMsgs.length = 8 := by decide +kernel
  obtain ⟨rrs, r⟩ := replies_possible ([.ok, .ok, .ok, .ok, .ok] ++ [.failed, .skipped, .failed]) []
  refine ⟨x', .done (ms := ddlMsgs) (rrs := rrs) ddlReq_read (by rw [ha]; exact r) ?_, ht⟩
  rw [ha]
  have := plays_ok (ddlMsgs.take 5) ddlServers [.ok, .ok, .ok, .ok, .ok] (by rw [List.length_take, hl]; rfl) (by simp) e1
  obtain ⟨m0, m1, m2, m3, m4, m5, m6, m7, hg⟩ : ∃ m0 m1 m2 m3 m4 m5 m6 m7, ddlMsgs = [m0, m1, m2, m3, m4, m5, m6, m7] := by
    match ddlMsgs, hl with
    | [m0, m1, m2, m3, m4, m5, m6, m7], _ => exact ⟨_, _, _, _, _, _, _, _, rfl⟩
  rw [hg] at this ⊢
  cases this with
  | ok h0 this =>
  cases this with
  | ok h1 this =>
  cases this with
  | ok h2 this =>
  cases this with
  | ok h3 this =>
  cases this with
  | ok h4 this =>
  cases this
  exact .ok h0 (.ok h1 (.ok h2 (.ok h3 (.ok h4 (.failed (.inl ⟨rfl, rfl⟩) (.skipped (.failed (.inl ⟨rfl, rfl⟩) .nil)))))))

end Verif.Props
