import Verif.Props.Tables
import Verif.Props.Nested
/-! C88: a unit of work, from the calls to the tables. -/
namespace Verif.Props
open Verif.Go Verif.Spec Verif.Model Verif.Proof Verif.Spec.Sql

/-- The calls as a program. -/
def progOf : List GoStmt → Prog
  | [] => .ret none []
  | .insert t cols data :: l => .call (.insert t cols (data.map (·.map built))) fun _ => progOf l
  | .insertF t cols data :: l => .insertF t cols (data.map fun es => .row (es.map built)) none (progOf l)
  | .update t crit sets :: l => .call (.update t (crit.map built) (entries sets)) fun _ => progOf l
  | .updateF t crit sets :: l => .updateF t (crit.map built) ((entries sets).map fun s => .set s.1 s.2) none (progOf l)
  | .delete t crit :: l => .call (.delete t (crit.map built)) fun _ => progOf l

/-- Expressions that the server knows, rows of the right length, no value that reads a column that another one is for, and a map has
a key at most once. -/
def fine : GoStmt → Prop
  | .insert _ cols data => ∀ es ∈ data, es.length = cols.length ∧ Independent (cols.zip es) ∧ ∀ e ∈ es, okFor e = true
  | .insertF _ cols data => ∀ es ∈ data, es.length = cols.length ∧ Independent (cols.zip es) ∧ ∀ e ∈ es, okFor e = true
  | .update _ crit sets => (∀ e ∈ crit, regular e = true ∧ served e = true) ∧ (∀ s ∈ sets, okFor s.2 = true) ∧ (sets.map (·.1)).Nodup ∧
      Independent sets
  | .updateF _ crit sets => (∀ e ∈ crit, regular e = true ∧ served e = true) ∧ ∀ s ∈ sets, okFor s.2 = true
  | .delete _ crit => ∀ e ∈ crit, regular e = true ∧ served e = true

/-- the message of a call, and what the server does with it -/
def Is (s : GoStmt) (m : ClientMsg) : Prop :=
  Readable m ∧ fixedKind m = some .change ∧ isBlock m = false ∧ ∀ {V : Type} (E : Engine V) (other : Engine V → Database V → ClientMsg → Option (Database V)),
    TakesTable other → ∀ db db' : Database V, execute E other db m = some db' ↔ s.Does E db db'

theorem is_insert {t : Bytes} {cols : List Bytes} {data : List (List GoExpr)} {rs : List (List PExpr)}
    (h : ∀ es ∈ data, es.length = cols.length ∧ Independent (cols.zip es) ∧ ∀ e ∈ es, okFor e = true)
    (hr : Rows libDur (data.map (·.map built)) rs) : Is (.insert t cols data) (.insert t (some 2) cols rs) := by
  obtain ⟨rs', r1, r2, r3, r4⟩ := built_rows cols data (fun es he => (h es he).1) fun es he => (h es he).2.2
  cases rows_unique hr r1
  refine ⟨r2, rfl, rfl, fun E other _ db db' => ?_⟩
  rw [insert_exact r3 (r4 E t)]
  simp only [each_simul (fun es he => (h es he).1) (fun es he => (h es he).2.1)]
  exact Iff.rfl

theorem is_update {t : Bytes} {crit : Option GoExpr} {sets : List (Bytes × GoExpr)} {c : Option PExpr} {ss : List (Bytes × PExpr)}
    (hc : ∀ e ∈ crit, regular e = true ∧ served e = true) (hs : ∀ s ∈ sets, okFor s.2 = true)
    (h1 : Crit libDur (crit.map built) c) (h2 : Sets libDur (entries sets) ss) : Is (.updateF t crit sets) (.update t (some 2) c ss) := by
  obtain ⟨c', c1, c2, c3⟩ := built_crit crit hc
  obtain ⟨ss', s1, s2, s3, s4⟩ := built_sets sets hs
  cases crit_unique h1 c1
  cases sets_unique h2 s1
  exact ⟨⟨c2, s2⟩, rfl, rfl, fun E other _ db db' => update_exact (c3 E) s3 (s4 E t) other db db'⟩

theorem is_delete {t : Bytes} {crit : Option GoExpr} {c : Option PExpr} (hc : ∀ e ∈ crit, regular e = true ∧ served e = true)
    (h1 : Crit libDur (crit.map built) c) : Is (.delete t crit) (.delete t none c) := by
  obtain ⟨c', c1, c2, c3⟩ := built_crit crit hc
  cases crit_unique h1 c1
  exact ⟨c2, rfl, rfl, fun E other ho db db' => delete_exact (c3 E) other ho db db'⟩

/-- What a sequence of calls records. -/
theorem exec_stmts {n : Nat} : ∀ (l : List GoStmt), (∀ s ∈ l, fine s) → ∀ {ms ms' : List ClientMsg} {out : List (Option Val)} {vs : List Bytes},
    Exec libDur n (progOf l) (.ok ms) (.ok ms') out vs → ∃ ns, ms' = ms ++ ns ∧ Each Is l ns
  | [], _, ms, ms', out, vs, h => by
    rw [progOf] at h
    cases h
    exact ⟨[], by simp, .nil⟩
  | s :: l, hf, ms, ms', out, vs, h => by
    have hs := hf s (List.mem_cons_self ..)
    have ih := @exec_stmts n l fun s h => hf s (List.mem_cons_of_mem _ h)
    cases s with
    | insert t cols data =>
      rw [progOf] at h
      cases h with
      | call ha hk =>
        cases ha with
        | insert _ hr =>
          obtain ⟨ns, rfl, hn⟩ := ih hk
          exact ⟨_ :: ns, by simp, .cons (is_insert hs hr) hn⟩
      | callFail _ _ hk => exact absurd (exec_error hk _ rfl) (by simp)
    | insertF t cols data =>
      rw [progOf] at h
      have e : ∀ data : List (List GoExpr), rowArgs (data.map fun es => RowStep.row (es.map built)) = data.map (·.map built) := by
        intro data
        induction data with
        | nil => rfl
        | cons es data ih => simpa [rowArgs] using ih
      cases h with
      | insertF _ hr hk =>
        rw [e data] at hr
        obtain ⟨ns, rfl, hn⟩ := ih hk
        exact ⟨_ :: ns, by simp, .cons (is_insert hs hr) hn⟩
      | insertFFail _ _ _ hk => exact absurd (exec_error hk _ rfl) (by simp)
    | update t crit sets =>
      rw [progOf] at h
      cases h with
      | call ha hk =>
        cases ha with
        | update h1 h2 =>
          obtain ⟨ns, rfl, hn⟩ := ih hk
          obtain ⟨a1, a2, a3, a4⟩ := is_update (t := t) hs.1 hs.2.1 h1 h2
          refine ⟨.update t (some 2) _ _ :: ns, by rw [List.append_assoc]; rfl, .cons ?_ hn⟩
          refine ⟨a1, a2, a3, fun E other ho db db' => (a4 E other ho db db').trans ?_⟩
          have key : ∀ blank (rows rows' : List (Sql.Row _)), Each (Updated E crit (Steps E t blank sets)) rows rows' ↔
              Each (Updated E crit (Simul E t blank sets)) rows rows' := fun blank rows rows' =>
            each_iff fun row row' => by simp only [Updated, steps_simul E sets hs.2.2.1 hs.2.2.2]
          simp only [GoStmt.Does, key]
      | callFail _ _ hk => exact absurd (exec_error hk _ rfl) (by simp)
    | updateF t crit sets =>
      rw [progOf] at h
      have e : setArgs ((entries sets).map fun s => SetStep.set s.1 s.2) = entries sets := by
        simp only [setArgs, List.filterMap_map]
        exact List.filterMap_some
      cases h with
      | updateF _ h1 h2 hk =>
        rw [e] at h2
        obtain ⟨ns, rfl, hn⟩ := ih hk
        exact ⟨_ :: ns, by simp, .cons (is_update hs.1 hs.2 h1 h2) hn⟩
      | updateFFail _ _ _ hk => exact absurd (exec_error hk _ rfl) (by simp)
    | delete t crit =>
      rw [progOf] at h
      cases h with
      | call ha hk =>
        cases ha with
        | delete h1 =>
          obtain ⟨ns, rfl, hn⟩ := ih hk
          exact ⟨_ :: ns, by simp, .cons (is_delete hs h1) hn⟩
      | callFail _ _ hk => exact absurd (exec_error hk _ rfl) (by simp)

variable {V : Type}

theorem each_replay {other : Engine V → Database V → ClientMsg → Option (Database V)} : ∀ {l : List GoStmt} {ns : List ClientMsg}, Each Is l ns →
    ∀ (E : Nat → Engine V), TakesTable other → ∀ db db',
    replay other E ns db = some db' ↔ AllDo E l db db'
  | _, _, .nil, E, _, db, db' => by
    rw [replay]
    exact ⟨fun h => by cases h; exact .nil, fun h => by cases h; rfl⟩
  | _, _, .cons h1 h2, E, ho, db, db' => by
    rw [replay, Option.bind_eq_some_iff]
    have ih := each_replay h2 (fun i => E (i + 1)) ho
    constructor
    · rintro ⟨db1, h3, h4⟩
      exact .cons ((h1.2.2.2 (E 0) other ho _ _).mp h3) ((ih _ _).mp h4)
    · intro h
      cases h with
      | cons h3 h4 => exact ⟨_, (h1.2.2.2 (E 0) other ho _ _).mpr h3, (ih _ _).mpr h4⟩

theorem replay_append {other : Engine V → Database V → ClientMsg → Option (Database V)} : ∀ (l l' : List ClientMsg) (E : Nat → Engine V) (db : Database V),
    replay other E (l ++ l') db = (replay other E l db).bind (replay other (fun i => E (l.length + i)) l')
  | [], l', E, db => by simp [replay]
  | m :: l, l', E, db => by
    rw [List.cons_append, replay, replay, Option.bind_assoc]
    congr 1
    funext db1
    rw [replay_append l l']
    congr 1
    funext db2
    congr 1
    funext i
    congr 1
    simp only [List.length_cons]; omega

theorem changes_all {l : List GoStmt} {ns : List ClientMsg} (h : Each Is l ns) : ∀ f : Nat → Fate, changes f ns = ns := by
  induction h with
  | nil => intro f; rfl
  | cons h1 _ ih =>
    intro f
    rw [changes, if_pos (by rw [Fate.of, h1.2.1]; rfl), ih]
    rfl

theorem each_mem {α β : Type} {R : α → β → Prop} {l : List α} {l' : List β} (h : Each R l l') : ∀ b ∈ l', ∃ a ∈ l, R a b := by
  induction h with
  | nil => simp
  | cons h1 _ ih =>
    intro b hb
    rcases List.mem_cons.mp hb with rfl | hb
    · exact ⟨_, List.mem_cons_self .., h1⟩
    · obtain ⟨a, ha, hr⟩ := ih b hb
      exact ⟨a, List.mem_cons_of_mem _ ha, hr⟩

theorem stmts_leave : ∀ l : List GoStmt, Leaves false (progOf l)
  | [] => by rw [progOf]; exact .ret
  | .insert .. :: l => by rw [progOf]; exact .call (fun _ _ h => by cases h) fun _ => stmts_leave l
  | .insertF .. :: l => by rw [progOf]; exact .insertF (stmts_leave l)
  | .update .. :: l => by rw [progOf]; exact .call (fun _ _ h => by cases h) fun _ => stmts_leave l
  | .updateF .. :: l => by rw [progOf]; exact .updateF (stmts_leave l)
  | .delete .. :: l => by rw [progOf]; exact .call (fun _ _ h => by cases h) fun _ => stmts_leave l

/-- **C88.** A unit of work of the form the README recommends, made of calls that change tables, sent on a connection in any state of
its life to a server of which nothing is assumed but that it takes TABLE for a missing data model: the database (as it results from
the durable changes of the session) is afterwards either as it was before, or as the calls say, one after the other.  If `Send` returns
responses, they tell which.  (`E i`: the server by the time of the i-th durable change.) -/
theorem C88_end_to_end {g : Grow} {b b' : Builder} {l : List GoStmt} {o : List Builder} {out : List (Option Val)} (hb : Ready b)
    (h0 : b.buf.data = []) (op : UInt8) (level : BitVec 64) (hf : ∀ s ∈ l, fine s)
    (h : run g (.expect op (.tx level (progOf l) fun o => .ret none o) fun o => .ret none o) [] b = .ok (o, b', out))
    {bs : Bytes} (hbs : b'.send = .ok (.ok bs)) (hsize : bs.length < 2 ^ 32) (hop : op.toNat ≤ 1)
    {cd : Codec} {spreads : Bool} {script : Nat → Fate} {s s' : Session} {w : World} {c : Conn} (hcd : RejectsHeaders cd) (hlife : Life cd c.r)
    (hidle : Idle s) (hserve : Serves cd spreads script s bs c.r.pending s')
    {other : Engine V → Database V → ClientMsg → Option (Database V)} {E : Nat → Engine V}
    (ho : TakesTable other) {db0 db : Database V} (hdb : replay other E s.durable db0 = some db) :
    ∃ w' c' rrs e, Conn.send cd w c bs = .ok (w', c', rrs, e) ∧
      (let before := replay other E s'.durable db0 = some db
       let after := ∀ db', replay other E s'.durable db0 = some db' ↔ AllDo (fun i => E (s.durable.length + i)) l db db'
       (before ∨ after) ∧ (e = none → ((∀ r ∈ rrs, r = .ok) → after) ∧ ((∃ r ∈ rrs, r ≠ .ok) → before))) := by
  obtain ⟨opening, ms, vs, _, hx, hall⟩ := C75_end_to_end hb h0 op level (stmts_leave l) h hbs hsize hop
  obtain ⟨ns, hms, hn⟩ := exec_stmts l hf hx
  rw [List.nil_append] at hms
  subst hms
  have hin := each_mem hn
  obtain ⟨w', c', rrs, e, h1, h2, h3⟩ := hall cd spreads script s s' w c (fun m hm => by obtain ⟨_, _, hi⟩ := hin m hm; exact hi.1)
    (fun i m hm hk => by
      obtain ⟨_, _, hi⟩ := hin m (List.mem_of_getElem? hm)
      rw [hi.2.1] at hk; cases hk)
    (.inr fun m hm => by obtain ⟨_, _, hi⟩ := hin m hm; exact hi.2.2.1) hcd hlife hidle hserve
  have hch := changes_all hn fun i => script (1 + (opening.length + i))
  rw [hch] at h2 h3
  have hb1 : s'.durable = s.durable → replay other E s'.durable db0 = some db := fun h => by rw [h, hdb]
  have ha1 : s'.durable = s.durable ++ ms → ∀ db', replay other E s'.durable db0 = some db' ↔ AllDo (fun i => E (s.durable.length + i)) l db db' := by
    intro h db'
    rw [h, replay_append, hdb, Option.bind_some]
    exact each_replay hn _ ho _ _
  refine ⟨w', c', rrs, e, h1, h2.imp hb1 ha1, fun he => ?_⟩
  obtain ⟨_, h4, h5⟩ := h3 he
  exact ⟨fun hr => ha1 (h4 hr).1, fun hr => hb1 (h5 hr)⟩

/-- `Delete("t", b = 1)`, then `UpdateF("t", nil, a = b, b = a)`: one row is deleted and in the other `a` is overwritten -/
def stmtsEx : List GoStmt := [.delete (ascii "t") (some (.binary .eq (.column (ascii "b")) (.val (.int 1)))), .updateF (ascii "t") none swapEx]

example : ∀ s ∈ stmtsEx, fine s := by
  intro s hs
  simp only [stmtsEx, List.mem_cons, List.not_mem_nil, or_false] at hs
  rcases hs with rfl | rfl
  · intro e he; cases he; exact ⟨rfl, rfl⟩
  · refine ⟨by simp, fun s hs => ?_⟩
    simp [swapEx] at hs
    rcases hs with rfl | rfl <;> rfl

example : ∃ db', AllDo (fun _ => intEngine) stmtsEx (dbEx [rowAB (some 7) (some 1), rowAB (some 1) (some 2)]) db' ∧
    db' (ascii "t") = some ⟨rowAB none none, [rowAB (some 2) (some 2)]⟩ :=
  ⟨_, .cons ⟨_, rfl, by
      intro row hr
      simp only [List.mem_cons, List.not_mem_nil, or_false] at hr
      rcases hr with rfl | rfl <;> decide +kernel, rfl⟩
    (.cons ⟨_, [rowAB (some 2) (some 2)], rfl, by simp [swapEx], by
      have : ([rowAB (some 7) (some 1), rowAB (some 1) (some 2)].filter fun row =>
          meets intEngine row (some (.binary .eq (.column (ascii "b")) (.val (.int 1)))) != some true) = [rowAB (some 1) (some 2)] := by
        have h1 : meets intEngine (rowAB (some 7) (some 1)) (some (.binary .eq (.column (ascii "b")) (.val (.int 1)))) = some true := by decide +kernel
        have h2 : meets intEngine (rowAB (some 1) (some 2)) (some (.binary .eq (.column (ascii "b")) (.val (.int 1)))) = some false := by decide +kernel
        rw [List.filter_cons, h1, List.filter_cons, h2]; rfl
      rw [this]
      exact .cons (.inl ⟨rfl, swap_ab⟩) .nil, rfl⟩ .nil), rfl⟩

end Verif.Props
