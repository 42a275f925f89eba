import Verif.Props.Sql
import Verif.Props.Units
/-! C85 - C87: from the calls to the tables. -/
namespace Verif.Props
open Verif.Go Verif.Spec Verif.Model Verif.Proof Verif.Spec.Sql

variable {g : Grow} {b b' : Builder}

/-- A server with integers and NULL; operators and functions other than addition give NULL. -/
def intEngine : Engine (Option Int) where
  lit := fun s => match s with
    | .sint i => some i
    | .uint n => some n
    | .bool b => some (if b then 1 else 0)
    | .null => none
    | _ => some 0
  isNull := Option.isNone
  truth := Option.map (· != 0)
  ofTruth := Option.map fun b => if b then 1 else 0
  cmp := fun a b => match a, b with
    | some x, some y => some (if x < y then .lt else if x = y then .eq else .gt)
    | _, _ => none
  prim := fun name vs => match vs with
    | [some x, some y] => some (if name = "+" then some (x + y) else none)
    | _ => some none
  func := fun _ _ => some none
  var := fun _ => some none
  store := fun _ _ v => some v
  lit_null := rfl
  truth_null := by intro v h; cases v with | none => rfl | some _ => cases h
  truth_of := by intro t; cases t with | none => rfl | some b => cases b <;> rfl
  cmp_null := by intro a b h; cases a <;> cases b <;> simp_all

/-- A row with columns `a` and `b`. -/
def rowAB (a b : Option Int) : Sql.Row (Option Int) := fun c => if c = ascii "a" then some a else if c = ascii "b" then some b else none

/-- A database with one table. -/
def dbEx (rows : List (Sql.Row (Option Int))) : Database (Option Int) := fun t => if t = ascii "t" then some ⟨rowAB none none, rows⟩ else none

/-- `a < 5 AND b IN (1, NULL)` -/
def critEx : GoExpr := .binary .and (.binary .lt (.column (ascii "a")) (.val (.int 5))) (.isIn (.column (ascii "b")) [.val (.int 1), .val .nil])

theorem records_unique {c : Call} {ms ms' : List ClientMsg} (h1 : Records growEx builderEx c ms none) (h2 : Records growEx builderEx c ms' none)
    (hd : (after builderEx c).any (fun d => d.length < 1000) = true) : ms = ms' := by
  unfold after at hd
  rcases h1 with h1 | ⟨b1, h1, ⟨r1, r1'⟩, f1, d1, s1⟩
  · rw [h1] at hd; cases hd
  rcases h2 with h2 | ⟨b2, h2, ⟨r2, r2'⟩, f2, d2, s2⟩
  · rw [h1] at h2; cases h2
  rw [h1] at h2
  cases h2
  rw [d1] at d2
  cases List.append_cancel_left d2
  rw [h1] at hd
  have hl : f1.length < 2 ^ 32 := by
    simp only [r1', Option.isNone_none, if_true, Option.any_some, d1, List.length_append, decide_eq_true_eq] at hd
    omega
  have := (s1 hl).symm.trans (s2 hl)
  simpa using this

/-! ### C85 -/

/-- The whole of C85: whatever the constructors build is sent as an expression whose value, in every row and on every server, is
what the constructors say. -/
def C85_full : Prop := ∀ e : GoExpr, regular e = true →
  ∃ x, Sent (built e) x ∧ ∀ (V : Type) (E : Engine V) row, eval E row x = den E row e

/-- C85: exactly when it is. -/
theorem C85_exact (e : GoExpr) (h : regular e = true) :
    ∃ x, Sent (built e) x ∧ ∀ {V : Type} (E : Engine V) row, eval E row x = if served e = true then den E row e else none := by
  obtain ⟨x, hx, _⟩ := built_operand e h
  exact ⟨x, sent_of hx.1 hx.2, fun E row => eval_built E row e h hx.1⟩

/-- C85 without `Regexp` and `NotBetween`, which the server does not know, see `C85_wrong`. -/
theorem C85_partial (e : GoExpr) (h : regular e = true) (hs : served e = true) :
    ∃ x, Sent (built e) x ∧ ∀ {V : Type} (E : Engine V) row, eval E row x = den E row e := by
  obtain ⟨x, h1, h2⟩ := C85_exact e h
  exact ⟨x, h1, fun E row => by rw [h2 E row, if_pos hs]⟩



example : regular critEx = true ∧ served critEx = true := ⟨rfl, rfl⟩
/-- TRUE, FALSE (5 is not less than 5) and UNKNOWN (2 is neither 1 nor, for all one knows, NULL) -/
example : den intEngine (rowAB (some 4) (some 1)) critEx = some (some 1) ∧ den intEngine (rowAB (some 5) (some 1)) critEx = some (some 0) ∧
    den intEngine (rowAB (some 4) (some 2)) critEx = some none := by decide +kernel

/-- `a REGEXP 'x'` has a value but the server does not know the operator. -/
theorem C85_wrong : ¬C85_full := by
  intro h
  have hr : regular (.binary .regexp (.column (ascii "a")) (.val (.str (ascii "x")))) = true := rfl
  obtain ⟨x, h1, h2⟩ := h _ hr
  obtain ⟨y, h3, h4⟩ := C85_exact _ hr
  cases Sent.unique h1 h3 ⟨_, rfl, by decide +kernel⟩
  have := (h2 _ intEngine (rowAB none none)).symm.trans (h4 intEngine (rowAB none none))
  revert this
  decide +kernel

/-! ### C86 -/

/-- The entries of a map, as arguments. -/
def entries (sets : List (Bytes × GoExpr)) : List (Bytes × Val) := sets.map fun s => (s.1, built s.2)

/-- An update on the server. -/
theorem update_exact {t : Bytes} {crit : Option GoExpr} {sets : List (Bytes × GoExpr)} {c : Option PExpr} {ss : List (Bytes × PExpr)}
    {V : Type} {E : Engine V} (hc : ∀ row : Sql.Row V, selects E row c = meets E row crit) (hn : ss = [] ↔ sets = [])
    (hs : ∀ (blank row row' : Sql.Row V), assigns E t blank ss row = some row' ↔ Steps E t blank sets row row')
    (other : Engine V → Database V → ClientMsg → Option (Database V)) (db db' : Database V) :
    execute E other db (.update t (some 2) c ss) = some db' ↔
      ∃ tab rows, db t = some tab ∧ sets ≠ [] ∧ Each (Updated E crit (Steps E t tab.blank sets)) tab.rows rows ∧ db' = withRows db t tab rows := by
  have hrow : ∀ (blank row row' : Sql.Row V), updateRow E t blank c ss row = some row' ↔ Updated E crit (Steps E t blank sets) row row' := by
    intro blank row row'
    rw [updateRow, hc, Updated]
    cases meets E row crit with
    | none => simp
    | some v =>
      cases v
      · simp [eq_comm]
      · simp [hs]
  simp only [Sql.execute, model, if_true, onTable, Option.bind_eq_some_iff]
  constructor
  · rintro ⟨tab, h1, h⟩
    split at h
    · cases h
    · rename_i hne
      obtain ⟨rows, h2, rfl⟩ := Option.map_eq_some_iff.mp h
      exact ⟨tab, rows, h1, fun he => hne (hn.mpr he), (each_iff (hrow tab.blank)).mp (mapM_each.mp h2), rfl⟩
  · rintro ⟨tab, rows, h1, h2, h3, rfl⟩
    refine ⟨tab, h1, ?_⟩
    rw [if_neg fun he => h2 (hn.mp he), mapM_each.mpr ((each_iff (hrow tab.blank)).mpr h3)]
    rfl

/-- C86: `Update` makes the assignments of the map one after the other, in the order in which the map happens to be iterated. -/
theorem C86_exact (hb : Ready b) (t : Bytes) (crit : Option GoExpr) (sets : List (Bytes × GoExpr))
    (hc : ∀ e ∈ crit, regular e = true ∧ served e = true) (hs : ∀ s ∈ sets, okFor s.2 = true) :
    ∃ m, Records g b (.update t (crit.map built) (entries sets)) [m] none ∧
      ∀ {V : Type} (E : Engine V) (other : Engine V → Database V → ClientMsg → Option (Database V)) (db db' : Database V),
        execute E other db m = some db' ↔ ∃ tab rows, db t = some tab ∧ sets ≠ [] ∧
          Each (Updated E crit (Steps E t tab.blank sets)) tab.rows rows ∧ db' = withRows db t tab rows := by
  obtain ⟨c, c1, c2, c3⟩ := built_crit crit hc
  obtain ⟨ss, s1, s2, s3, s4⟩ := built_sets sets hs
  exact ⟨.update t (some 2) c ss, (C22_criteria_partial hb t c1 c2).2.1 _ _ s1 s2,
    fun E other db db' => update_exact (c3 E) s3 (s4 E t) other db db'⟩

/-- C86: `UpdateF` makes its assignments one after the other, in the order of the `Set` calls. -/
theorem C86_updateF (hb : Ready b) (t : Bytes) (crit : Option GoExpr) (sets : List (Bytes × GoExpr)) (err : Option Err)
    (hc : ∀ e ∈ crit, regular e = true ∧ served e = true) (hs : ∀ s ∈ sets, okFor s.2 = true) {o : List Builder} {out : List (Option Val)}
    (h : run g (.updateF t (crit.map built) ((entries sets).map fun s => .set s.1 s.2) err (.ret none [])) [] b = .ok (o, b', out)) :
    ∃ m, Holds b' b.buf.data [m] ∧
      ∀ {V : Type} (E : Engine V) (other : Engine V → Database V → ClientMsg → Option (Database V)) (db db' : Database V),
        execute E other db m = some db' ↔ ∃ tab rows, db t = some tab ∧ sets ≠ [] ∧
          Each (Updated E crit (Steps E t tab.blank sets)) tab.rows rows ∧ db' = withRows db t tab rows := by
  obtain ⟨c, c1, c2, c3⟩ := built_crit crit hc
  obtain ⟨ss, s1, s2, s3, s4⟩ := built_sets sets hs
  exact ⟨.update t (some 2) c ss, C20_updateF hb t c1 s1 err ⟨c2, s2⟩ h,
    fun E other db db' => update_exact (c3 E) s3 (s4 E t) other db db'⟩

/-- The whole of C86: whatever the order `order` in which the map `sets` is iterated, in exactly the rows that meet the criteria
each column of the map comes to have the value that its expression has in the row as it was. -/
def C86_full : Prop := ∀ (g : Grow) (b : Builder), Ready b → ∀ (t : Bytes) (crit : Option GoExpr) (sets order : List (Bytes × GoExpr)),
  order.Perm sets → (sets.map (·.1)).Nodup → (∀ e ∈ crit, regular e = true ∧ served e = true) → (∀ s ∈ sets, okFor s.2 = true) →
  ∃ m, Records g b (.update t (crit.map built) (entries order)) [m] none ∧
    ∀ (V : Type) (E : Engine V) (other : Engine V → Database V → ClientMsg → Option (Database V)) (db db' : Database V),
      execute E other db m = some db' ↔ ∃ tab rows, db t = some tab ∧ sets ≠ [] ∧
        Each (Updated E crit (Simul E t tab.blank sets)) tab.rows rows ∧ db' = withRows db t tab rows

theorem simul_perm {V : Type} {E : Engine V} {t : Bytes} {blank : Sql.Row V} {sets order : List (Bytes × GoExpr)} (h : order.Perm sets)
    (row row' : Sql.Row V) : Simul E t blank order row row' ↔ Simul E t blank sets row row' :=
  ⟨fun s => ⟨fun x hx => s.set x (h.mem_iff.mpr hx), fun c hc => s.rest c fun x hx => hc x (h.mem_iff.mp hx)⟩,
    fun s => ⟨fun x hx => s.set x (h.mem_iff.mp hx), fun c hc => s.rest c fun x hx => hc x (h.mem_iff.mpr hx)⟩⟩

/-- C86 for maps none of whose expressions reads a column that another entry sets.  Missing: the other maps, for which the order
matters, see `C86_wrong`. -/
theorem C86_partial (hb : Ready b) (t : Bytes) (crit : Option GoExpr) {sets order : List (Bytes × GoExpr)}
    (hp : order.Perm sets) (hn : (sets.map (·.1)).Nodup) (hi : Independent sets)
    (hc : ∀ e ∈ crit, regular e = true ∧ served e = true) (hs : ∀ s ∈ sets, okFor s.2 = true) :
    ∃ m, Records g b (.update t (crit.map built) (entries order)) [m] none ∧
      ∀ {V : Type} (E : Engine V) (other : Engine V → Database V → ClientMsg → Option (Database V)) (db db' : Database V),
        execute E other db m = some db' ↔ ∃ tab rows, db t = some tab ∧ sets ≠ [] ∧
          Each (Updated E crit (Simul E t tab.blank sets)) tab.rows rows ∧ db' = withRows db t tab rows := by
  obtain ⟨m, h1, h2⟩ := C86_exact (g := g) hb t crit order hc fun s hs' => hs s (hp.mem_iff.mp hs')
  refine ⟨m, h1, fun E other db db' => (h2 E other db db').trans ?_⟩
  have hn' : (order.map (·.1)).Nodup := (hp.map _).nodup_iff.mpr hn
  have hi' : Independent order := fun s h s' h' => hi s (hp.mem_iff.mp h) s' (hp.mem_iff.mp h')
  have key : ∀ tab : Table _, ∀ rows, Each (Updated E crit (Steps E t tab.blank order)) tab.rows rows ↔
      Each (Updated E crit (Simul E t tab.blank sets)) tab.rows rows := fun tab rows =>
    each_iff fun row row' => by
      simp only [Updated, steps_simul E order hn' hi', simul_perm hp]
  have he : order ≠ [] ↔ sets ≠ [] := by
    constructor
    · rintro h rfl; exact h hp.eq_nil
    · rintro h rfl; exact h hp.symm.eq_nil
  simp only [key, he]

/-- `a = a + 1, b = NULL`, in either order -/
example : Independent [(ascii "a", .binary .add (.column (ascii "a")) (.val (.int 1))), (ascii "b", .val .nil)] := by
  intro s hs s' hs' h
  simp at hs hs'
  rcases hs with rfl | rfl <;> rcases hs' with rfl | rfl <;> simp [reads] at h ⊢
  · revert h; decide

def swapEx : List (Bytes × GoExpr) := [(ascii "a", .column (ascii "b")), (ascii "b", .column (ascii "a"))]

theorem swap_ab : Steps intEngine (ascii "t") (rowAB none none) swapEx (rowAB (some 1) (some 2)) (rowAB (some 2) (some 2)) := by
  have h : ∀ row' : Sql.Row (Option Int), row' = rowAB (some 2) (some 2) →
      Steps intEngine (ascii "t") (rowAB none none) swapEx (rowAB (some 1) (some 2)) row' → 
      Steps intEngine (ascii "t") (rowAB none none) swapEx (rowAB (some 1) (some 2)) (rowAB (some 2) (some 2)) := fun _ h h' => h ▸ h'
  refine h _ ?_ (.set (w := some 2) (by decide) ⟨some 2, by simp only [denFor, den]; decide, rfl⟩
    (.set (w := some 2) (by decide) ⟨some 2, by simp only [denFor, den]; decide, rfl⟩ .done))
  funext x
  simp only [rowAB]
  by_cases ha : x = ascii "a" <;> by_cases hb : x = ascii "b" <;> simp [ha, hb]

theorem swap_ba : Steps intEngine (ascii "t") (rowAB none none) swapEx.reverse (rowAB (some 1) (some 2)) (rowAB (some 1) (some 1)) := by
  have h : ∀ row' : Sql.Row (Option Int), row' = rowAB (some 1) (some 1) →
      Steps intEngine (ascii "t") (rowAB none none) swapEx.reverse (rowAB (some 1) (some 2)) row' → 
      Steps intEngine (ascii "t") (rowAB none none) swapEx.reverse (rowAB (some 1) (some 2)) (rowAB (some 1) (some 1)) := fun _ h h' => h ▸ h'
  refine h _ ?_ (.set (w := some 1) (by decide) ⟨some 1, by simp only [denFor, den]; decide, rfl⟩
    (.set (w := some 1) (by decide) ⟨some 1, by simp only [denFor, den]; decide, rfl⟩ .done))
  funext x
  simp only [rowAB]
  by_cases ha : x = ascii "a" <;> by_cases hb : x = ascii "b" <;> simp [ha, hb]

/-- With `a` = 1 and `b` = 2, the map `a: b, b: a` leaves 2 in both columns or 1 in both, as it happens, and never swaps them. -/
theorem C86_wrong : ¬C86_full ∧ ∀ (g : Grow) (b : Builder), Ready b → ∀ order left, (order = swapEx ∧ left = some 2) ∨ (order = swapEx.reverse ∧ left = some 1) →
    ∃ m, Records g b (.update (ascii "t") none (entries order)) [m] none ∧ ∀ other,
      execute intEngine other (dbEx [rowAB (some 1) (some 2)]) m =
        some (withRows (dbEx [rowAB (some 1) (some 2)]) (ascii "t") ⟨rowAB none none, [rowAB (some 1) (some 2)]⟩
          [rowAB left left]) := by
  have hdb : dbEx [rowAB (some 1) (some 2)] (ascii "t") = some ⟨rowAB none none, [rowAB (some 1) (some 2)]⟩ := rfl
  have key : ∀ (g : Grow) (b : Builder), Ready b → ∀ order left, (order = swapEx ∧ left = some 2) ∨ (order = swapEx.reverse ∧ left = some 1) →
    ∃ m, Records g b (.update (ascii "t") none (entries order)) [m] none ∧ ∀ other,
      execute intEngine other (dbEx [rowAB (some 1) (some 2)]) m =
        some (withRows (dbEx [rowAB (some 1) (some 2)]) (ascii "t") ⟨rowAB none none, [rowAB (some 1) (some 2)]⟩
          [rowAB left left]) := by
    intro g b hb order left ho
    obtain ⟨m, h1, h2⟩ := C86_exact (g := g) hb (ascii "t") none order (by simp) (by
      rcases ho with ⟨rfl, _⟩ | ⟨rfl, _⟩ <;> intro s hs <;> simp [swapEx] at hs <;> rcases hs with rfl | rfl <;> rfl)
    refine ⟨m, h1, fun other => (h2 intEngine other _ _).mpr ⟨_, _, hdb, ?_, .cons (.inl ⟨rfl, ?_⟩) .nil, rfl⟩⟩
    · rcases ho with ⟨rfl, _⟩ | ⟨rfl, _⟩ <;> simp [swapEx]
    · rcases ho with ⟨rfl, rfl⟩ | ⟨rfl, rfl⟩
      · exact swap_ab
      · exact swap_ba
  refine ⟨fun h => ?_, key⟩
  have hb : Ready builderEx := ⟨rfl, rfl⟩
  obtain ⟨m, m1, m2⟩ := key growEx builderEx hb swapEx _ (.inl ⟨rfl, rfl⟩)
  obtain ⟨m', m1', m2'⟩ := h growEx builderEx hb (ascii "t") none swapEx swapEx (.refl _) (by decide) (by simp) (by
    intro s hs; simp [swapEx] at hs; rcases hs with rfl | rfl <;> rfl)
  cases records_unique m1 m1' (by decide +kernel)
  obtain ⟨tab, rows, h1, _, h2, h3⟩ := (m2' _ intEngine (fun _ _ _ => none) _ _).mp (m2 fun _ _ _ => none)
  cases hdb.symm.trans h1
  have h4 := congrFun h3 (ascii "t")
  simp only [withRows, if_true, Option.some.injEq, Table.mk.injEq, true_and] at h4
  subst h4
  cases h2 with
  | cons h2 _ =>
    rcases h2 with ⟨_, h2⟩ | ⟨h2, _⟩
    · obtain ⟨_, w, ⟨v, hv, hw⟩, h6⟩ := h2.set (ascii "b", .column (ascii "a")) (by simp [swapEx])
      rw [show denFor intEngine (rowAB none none) (rowAB (some 1) (some 2)) (ascii "b") (.column (ascii "a")) = some (some 1) from by
        simp only [denFor, den]; decide] at hv
      cases hv
      cases hw
      revert h6
      decide
    · cases h2

/-! ### C87 -/

theorem built_rows (cols : List Bytes) : ∀ (data : List (List GoExpr)), (∀ es ∈ data, es.length = cols.length) →
    (∀ es ∈ data, ∀ e ∈ es, okFor e = true) → ∃ rs, Rows libDur (data.map (·.map built)) rs ∧ (∀ r ∈ rs, ∀ x ∈ r, varsShort x = true) ∧
      (rs = [] ↔ data = []) ∧
      ∀ {V : Type} (E : Engine V) (t : Bytes) (blank : Sql.Row V) (new : List (Sql.Row V)),
        Each (fun r row => insertRow E t blank cols r = some row) rs new ↔
        Each (fun es row => cols.Nodup ∧ es ≠ [] ∧ Steps E t blank (cols.zip es) blank row) data new
  | [], _, _ => ⟨[], rfl, by simp, by simp, fun E t blank new =>
      ⟨fun h => by cases h; exact .nil, fun h => by cases h; exact .nil⟩⟩
  | es :: data, hl, h => by
    obtain ⟨xs, x1, x2, x3, x4⟩ := built_row cols es (hl _ (List.mem_cons_self ..)) (h _ (List.mem_cons_self ..))
    obtain ⟨rs, r1, r2, _, r3⟩ := built_rows cols data (fun es h => hl es (List.mem_cons_of_mem _ h)) fun es h' => h es (List.mem_cons_of_mem _ h')
    have hlen := hl _ (List.mem_cons_self ..)
    have hne : xs ≠ [] ↔ es ≠ [] := by
      rw [← List.length_pos_iff, ← List.length_pos_iff, x3]
    refine ⟨xs :: rs, ?_, ?_, by simp, fun E t blank new => ?_⟩
    · simp only [Rows, List.map_cons] at r1 ⊢
      rw [r1, show List.map (exprOf libDur fmtTime) (es.map built) = xs.map some from x1]
    · intro r hr
      rcases List.mem_cons.mp hr with rfl | hr
      · exact x2
      · exact r2 r hr
    · have hrow : ∀ row, insertRow E t blank cols xs = some row ↔ cols.Nodup ∧ es ≠ [] ∧ Steps E t blank (cols.zip es) blank row := by
        intro row
        rw [insertRow, ← x4 E t blank row]
        by_cases hd : cols.Nodup
        · by_cases he : xs = []
          · rw [if_neg (by simp [he])]
            exact ⟨fun h => (by cases h), fun h => absurd he (hne.mpr h.2.1)⟩
          · rw [if_pos ⟨by omega, hd, he⟩]
            simp [hd, hne.mp he]
        · rw [if_neg (by simp [hd])]
          simp [hd]
      constructor
      · intro h; cases h with | cons h1 h2 => exact .cons ((hrow _).mp h1) ((r3 E t blank _).mp h2)
      · intro h; cases h with | cons h1 h2 => exact .cons ((hrow _).mpr h1) ((r3 E t blank _).mpr h2)

/-- An insert on the server. -/
theorem insert_exact {t : Bytes} {cols : List Bytes} {data : List (List GoExpr)} {rs : List (List PExpr)} {V : Type} {E : Engine V}
    (hn : rs = [] ↔ data = [])
    (hr : ∀ (blank : Sql.Row V) new, Each (fun r row => insertRow E t blank cols r = some row) rs new ↔
        Each (fun es row => cols.Nodup ∧ es ≠ [] ∧ Steps E t blank (cols.zip es) blank row) data new)
    (other : Engine V → Database V → ClientMsg → Option (Database V)) (db db' : Database V) :
    execute E other db (.insert t (some 2) cols rs) = some db' ↔ ∃ tab new, db t = some tab ∧ data ≠ [] ∧
      Each (fun es row => cols.Nodup ∧ es ≠ [] ∧ Steps E t tab.blank (cols.zip es) tab.blank row) data new ∧
      db' = withRows db t tab (tab.rows ++ new) := by
  simp only [Sql.execute, model, if_true, onTable, Option.bind_eq_some_iff]
  constructor
  · rintro ⟨tab, h1, h⟩
    split at h
    · cases h
    · rename_i hne
      obtain ⟨new, h2, rfl⟩ := Option.map_eq_some_iff.mp h
      exact ⟨tab, new, h1, fun he => hne (hn.mpr he), (hr tab.blank new).mp (mapM_each.mp h2), rfl⟩
  · rintro ⟨tab, new, h1, h2, h3, rfl⟩
    refine ⟨tab, h1, ?_⟩
    rw [if_neg fun he => h2 (hn.mp he), mapM_each.mpr ((hr tab.blank new).mpr h3)]
    rfl

theorem each_simul {V : Type} {E : Engine V} {t : Bytes} {blank : Sql.Row V} {cols : List Bytes} : ∀ {data : List (List GoExpr)}
    {new : List (Sql.Row V)}, (∀ es ∈ data, es.length = cols.length) → (∀ es ∈ data, Independent (cols.zip es)) → 
    (Each (fun es row => cols.Nodup ∧ es ≠ [] ∧ Steps E t blank (cols.zip es) blank row) data new ↔
    Each (fun es row => cols.Nodup ∧ es ≠ [] ∧ Simul E t blank (cols.zip es) blank row) data new)
  | [], new, _, _ => ⟨fun h => by cases h; exact .nil, fun h => by cases h; exact .nil⟩
  | es :: data, new, hl, hi => by
    have ih := @each_simul V E t blank cols data
    have hl' : ∀ es ∈ data, es.length = cols.length := fun es h => hl es (List.mem_cons_of_mem _ h)
    have hi' : ∀ es ∈ data, Independent (cols.zip es) := fun es h => hi es (List.mem_cons_of_mem _ h)
    have hs : cols.Nodup → ∀ row, Steps E t blank (cols.zip es) blank row ↔ Simul E t blank (cols.zip es) blank row := fun hd row =>
      steps_simul E _ (by rw [List.map_fst_zip (by have := hl es (List.mem_cons_self ..); omega)]; exact hd) (hi es (List.mem_cons_self ..)) _ _
    constructor
    · intro h; cases h with | cons h1 h2 => exact .cons ⟨h1.1, h1.2.1, (hs h1.1 _).mp h1.2.2⟩ ((ih hl' hi').mp h2)
    · intro h; cases h with | cons h1 h2 => exact .cons ⟨h1.1, h1.2.1, (hs h1.1 _).mpr h1.2.2⟩ ((ih hl' hi').mpr h2)

/-- C87: `Insert` appends one row for each of the given ones (provided there is one, and the columns are given once), with the given
values in the given columns and the defaults in all others; and if one of the values cannot be computed or does not fit, it changes
nothing.  (`Independent`: no value reads a column that another value is for.) -/
theorem C87_insert (hb : Ready b) (t : Bytes) (cols : List Bytes) (data : List (List GoExpr)) (hl : ∀ es ∈ data, es.length = cols.length)
    (hi : ∀ es ∈ data, Independent (cols.zip es)) (hs : ∀ es ∈ data, ∀ e ∈ es, okFor e = true) :
    ∃ m, Records g b (.insert t cols (data.map (·.map built))) [m] none ∧
      ∀ {V : Type} (E : Engine V) (other : Engine V → Database V → ClientMsg → Option (Database V)) (db db' : Database V),
        execute E other db m = some db' ↔ ∃ tab new, db t = some tab ∧ data ≠ [] ∧
          Each (fun es row => cols.Nodup ∧ es ≠ [] ∧ Simul E t tab.blank (cols.zip es) tab.blank row) data new ∧
          db' = withRows db t tab (tab.rows ++ new) := by
  obtain ⟨rs, r1, r2, r3, r4⟩ := built_rows cols data hl hs
  refine ⟨.insert t (some 2) cols rs, (C18_insert (b' := b) (r := none) hb t cols _).2 ?_ rs r1 r2, fun E other db db' => ?_⟩
  · intro row hr
    obtain ⟨es, he, rfl⟩ := List.mem_map.mp hr
    rw [List.length_map, hl es he]
  · rw [insert_exact r3 (r4 E t)]
    simp only [each_simul hl hi]

/-- C87: so does `InsertRow` with its row, with a second message to keep the generated id. -/
theorem C87_insertRow (hb : Ready b) (t : Bytes) (cols : List Bytes) (es : List GoExpr) (hl : es.length = cols.length)
    (hi : Independent (cols.zip es)) (hs : ∀ e ∈ es, okFor e = true) :
    b.step g (.insertRow t cols (es.map built)) = .error .oom ∨
    ∃ m v, Records g b (.insertRow t cols (es.map built)) [m, captureId v] (some (.variable v)) ∧
      ∀ {V : Type} (E : Engine V) (other : Engine V → Database V → ClientMsg → Option (Database V)) (db db' : Database V),
        execute E other db m = some db' ↔ ∃ tab row, db t = some tab ∧ cols.Nodup ∧ es ≠ [] ∧
          Simul E t tab.blank (cols.zip es) tab.blank row ∧ db' = withRows db t tab (tab.rows ++ [row]) := by
  obtain ⟨rs, r1, r2, r3, r4⟩ := built_rows cols [es] (by simpa using hl) (by simpa using hs)
  obtain ⟨xs, rfl⟩ : ∃ xs, rs = [xs] := by
    have := congrArg List.length (show List.map _ _ = List.map _ _ from r1)
    simp only [List.length_map, List.length_singleton] at this
    exact List.length_eq_one_iff.mp this.symm
  have x1 : Spec.Row libDur (es.map built) xs := by simpa [Rows, Spec.Row] using r1
  rcases C19_insertRow (g := g) hb t cols _ x1 (r2 xs (by simp)) with h | ⟨v, h⟩
  · exact .inl h
  · refine .inr ⟨_, v, h, fun E other db db' => ?_⟩
    rw [insert_exact r3 (r4 E t)]
    simp only [each_simul (data := [es]) (cols := cols) (by simpa using hl) (by simpa using hi)]
    constructor
    · rintro ⟨tab, new, h1, _, h2, rfl⟩
      cases h2 with
      | cons h2 h3 => cases h3; exact ⟨tab, _, h1, h2.1, h2.2.1, h2.2.2, rfl⟩
    · rintro ⟨tab, row, h1, h2, h3, h4, rfl⟩
      exact ⟨tab, [row], h1, by simp, .cons ⟨h2, h3, h4⟩ .nil, rfl⟩

/-- A delete on the server. -/
theorem delete_exact {t : Bytes} {crit : Option GoExpr} {c : Option PExpr} {V : Type} {E : Engine V}
    (c3 : ∀ row : Sql.Row V, selects E row c = meets E row crit) (other : Engine V → Database V → ClientMsg → Option (Database V))
    (ho : TakesTable other) (db db' : Database V) :
    execute E other db (.delete t none c) = some db' ↔ ∃ tab, db t = some tab ∧ (∀ row ∈ tab.rows, meets E row crit ≠ none) ∧
      db' = withRows db t tab (tab.rows.filter fun row => meets E row crit != some true) := by
  have key : ∀ (rows : List (Sql.Row _)) sel, rows.mapM (fun row => selects E row c) = some sel ↔
      (∀ row ∈ rows, meets E row crit ≠ none) ∧ sel = rows.map fun row => meets E row crit == some true := by
    intro rows
    induction rows with
    | nil => intro sel; simp [eq_comm]
    | cons row rows ih =>
      intro sel
      rw [List.mapM_cons, c3]
      cases hm : meets E row crit with
      | none => simp [hm]
      | some v =>
        constructor
        · intro h
          obtain ⟨sel', h1, h2⟩ := Option.bind_eq_some_iff.mp (show (rows.mapM fun row => selects E row c).bind (fun s => some ((v == true) :: s)) = some sel by
            rw [← h]; cases v <;> rfl)
          cases h2
          obtain ⟨h3, h4⟩ := (ih sel').mp h1
          refine ⟨?_, ?_⟩
          · intro r hr
            rcases List.mem_cons.mp hr with rfl | hr
            · simp [hm]
            · exact h3 r hr
          · rw [List.map_cons, hm, ← h4]; cases v <;> rfl
        · rintro ⟨h1, rfl⟩
          have := (ih _).mpr ⟨fun r hr => h1 r (List.mem_cons_of_mem _ hr), rfl⟩
          rw [List.map_cons, hm]
          simp only [Option.bind_eq_bind, Option.bind_some]
          rw [this]; cases v <;> rfl
  have filt : ∀ rows : List (Sql.Row _), ((rows.zip (rows.map fun row => meets E row crit == some true)).filterMap
      fun r => if r.2 then none else some r.1) = rows.filter fun row => meets E row crit != some true := by
    intro rows
    induction rows with
    | nil => rfl
    | cons row rows ih =>
      simp only [List.map_cons, List.zip_cons_cons, List.filterMap_cons, List.filter_cons, ih]
      cases hm : (meets E row crit == some true) <;> simp [bne, hm]
  rw [Sql.execute, if_neg (by simp [model]), ho]
  simp only [onTable, Option.bind_eq_some_iff]
  constructor
  · rintro ⟨tab, h1, h⟩
    obtain ⟨sel, h2, rfl⟩ := Option.map_eq_some_iff.mp h
    obtain ⟨h3, rfl⟩ := (key _ _).mp h2
    exact ⟨tab, h1, h3, by rw [filt]⟩
  · rintro ⟨tab, h1, h2, rfl⟩
    refine ⟨tab, h1, ?_⟩
    rw [(key _ _).mpr ⟨h2, rfl⟩, Option.map_some, filt]

/-- C87: `Delete` removes exactly the rows for which the criteria are true, if the server takes TABLE for the data model that is
missing.  Missing: other servers, see `C87_wrong`. -/
theorem C87_delete_partial (hb : Ready b) (t : Bytes) (crit : Option GoExpr) (hc : ∀ e ∈ crit, regular e = true ∧ served e = true) :
    ∃ m, Records g b (.delete t (crit.map built)) [m] none ∧ model m = none ∧
      ∀ {V : Type} (E : Engine V) (other : Engine V → Database V → ClientMsg → Option (Database V)),
        TakesTable other → ∀ db db' : Database V,
        execute E other db m = some db' ↔ ∃ tab, db t = some tab ∧ (∀ row ∈ tab.rows, meets E row crit ≠ none) ∧
          db' = withRows db t tab (tab.rows.filter fun row => meets E row crit != some true) := by
  obtain ⟨c, c1, c2, c3⟩ := built_crit crit hc
  exact ⟨.delete t none c, (C22_criteria_partial hb t c1 c2).2.2, rfl, fun E other ho db db' => delete_exact (c3 E) other ho db db'⟩

/-- What `Delete` ought to do, on every server. -/
def C87_full : Prop := ∀ (g : Grow) (b : Builder), Ready b → ∀ (t : Bytes) (crit : Option GoExpr),
  (∀ e ∈ crit, regular e = true ∧ served e = true) → ∃ m, Records g b (.delete t (crit.map built)) [m] none ∧
    ∀ (V : Type) (E : Engine V) (other : Engine V → Database V → ClientMsg → Option (Database V)) (db db' : Database V),
      execute E other db m = some db' ↔ ∃ tab, db t = some tab ∧ (∀ row ∈ tab.rows, meets E row crit ≠ none) ∧
        db' = withRows db t tab (tab.rows.filter fun row => meets E row crit != some true)

/-- A server that wants the data model to be declared deletes nothing. -/
theorem C87_wrong : ¬C87_full := by
  intro h
  have hb : Ready builderEx := ⟨rfl, rfl⟩
  obtain ⟨m, m1, m2⟩ := h growEx builderEx hb (ascii "t") none (by simp)
  obtain ⟨m', m1', m3, _⟩ := C87_delete_partial (g := growEx) hb (ascii "t") none (by simp)
  cases records_unique m1 m1' (by decide +kernel)
  have := (m2 _ intEngine (fun _ _ _ => none) (dbEx []) _).mpr ⟨⟨rowAB none none, []⟩, rfl, by simp, rfl⟩
  rw [Sql.execute, m3, if_neg (by simp)] at this
  cases this

/-- The rows of the example that are deleted: the criteria are true of the first only. -/
example : [rowAB (some 4) (some 1), rowAB (some 5) (some 1), rowAB (some 4) (some 2)].map (fun row => meets intEngine row (some critEx)) =
    [some true, some false, some false] := by decide +kernel
example : ∀ es ∈ [[GoExpr.val (.int 1), .dflt], [.binary .add (.val (.int 1)) (.val (.int 2)), .val .nil]],
    Independent ([ascii "a", ascii "b"].zip es) ∧ ∀ e ∈ es, okFor e = true := by
  simp only [List.mem_cons, List.not_mem_nil, or_false, forall_eq_or_imp, forall_eq]
  refine ⟨⟨?_, rfl, rfl⟩, ⟨?_, rfl, rfl⟩⟩ <;>
  · intro s hs s' hs' h
    simp at hs
    rcases hs with rfl | rfl <;> simp [reads] at h

end Verif.Props
