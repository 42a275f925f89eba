import Verif.Spec.Prepared
import Verif.Props.Ids
import Verif.Props.PoolCases
/-! C68: `Execute` runs the statement that was prepared. -/
namespace Verif.Props
open Verif.Go Verif.Spec Verif.Model Verif.Proof

variable {g : Grow} {b b' : Builder} {body : Prog} {o : List Builder} {out : List (Option Val)}

theorem tableAfter_append (d : Bool) (a c : List (ClientMsg × Answer)) (x : Table) : tableAfter d (a ++ c) x = tableAfter d c (tableAfter d a x) := by
  induction a generalizing x with
  | nil => rfl
  | cons m a ih => exact ih _

theorem lastWord_snoc (id : Nat) (ms : List ClientMsg) (m : ClientMsg) : lastWord id (ms ++ [m]) =
    match m with
    | .prepare i t => if i = id then some (some t) else lastWord id ms
    | .deallocate i => if i = id then some none else lastWord id ms
    | _ => lastWord id ms := by
  simp only [lastWord, List.reverse_append, List.reverse_cons, List.reverse_nil, List.nil_append, List.cons_append, List.find?_cons]
  cases m with
  | prepare i t =>
    by_cases h : i = id
    · simp [h]
    · have hn : (i == id) = false := beq_eq_false_iff_ne.mpr h
      simp only [hn, if_neg h]
  | deallocate i =>
    by_cases h : i = id
    · simp [h]
    · have hn : (i == id) = false := beq_eq_false_iff_ne.mpr h
      simp only [hn, if_neg h]
  | _ => rfl

/-- After messages that all succeeded the table says what they said last. -/
theorem tableAfter_ok (d : Bool) (ms : List ClientMsg) (x : Table) (id : Nat) :
    tableAfter d (ms.map fun m => (m, .ok)) x id = (lastWord id ms).getD (x id) := by
  suffices h : ∀ (n : Nat) (ms : List ClientMsg), ms.length = n → tableAfter d (ms.map fun m => (m, .ok)) x id = (lastWord id ms).getD (x id) from h _ ms rfl
  intro n
  induction n with
  | zero => intro ms h; rw [List.length_eq_zero_iff.mp h]; rfl
  | succ n ih =>
    intro ms h
    obtain ⟨ms, m, rfl⟩ : ∃ ms' m, ms = ms' ++ [m] := ⟨ms.dropLast, ms.getLast (by intro h'; rw [h'] at h; cases h), (List.dropLast_concat_getLast _).symm⟩
    have := ih ms (by simpa using h)
    rw [List.map_append, tableAfter_append, lastWord_snoc]
    simp only [List.map_cons, List.map_nil, tableAfter]
    cases m with
    | prepare i t =>
      simp only [Table.after, Table.put]
      by_cases h : i = id
      · simp [h]
      · rw [if_neg (fun e => h e.symm), if_neg h]; exact this
    | deallocate i =>
      simp only [Table.after, Table.put]
      by_cases h : i = id
      · simp [h]
      · rw [if_neg (fun e => h e.symm), if_neg h]; exact this
    | _ => exact this

/-- The whole of **C68**: a call of the pool that executes a statement prepared by an earlier call (which has returned without an
error) runs that statement. -/
def C68_full : Prop := ∀ (n : Nat) (l1 l2 : List Pool.Ev) (s : Pool.State) (t1 t2 c id : Nat) (text : Bytes) (unit : Nat → List ClientMsg),
  Pool.Run (Pool.init n) (l1 ++ .callSend t2 :: l2 ++ [.begin t2 c]) s → .callSend t1 ∈ l1 → .ret t1 .ok ∈ l1 → unit t1 = [.prepare id text] → unit t2 = [.execute id []] →
  (∀ t, t ≠ t1 → Silent id (unit t)) → poolTables unit (l1 ++ .callSend t2 :: l2) c id = some text

/-- **C68** within a unit of work.  In `ExpectFailOnError(body)`, wherever the session executes (successfully or not) an Execute,
its number stands for what the messages of the body before it said last: the statement of the last Prepare of that number,
none after a Deallocate, and what the session had before only if the body says nothing about it; whatever the server did, and
whether or not a failing Prepare drops the old statement.  Missing: numbers prepared in an earlier unit of work
(`C68_sequential_partial`, `C68_wrong`).  For bodies with further blocks see C50. -/
theorem C68_partial (hb : Ready b) (op : UInt8)
    (h : run g (.expect op body fun o => .ret none o) [] b = .ok (o, b', out)) (he : b'.err = none) :
    ∃ ms vs, Exec libDur 1 body (.ok []) (.ok ms) out vs ∧
      (op.toNat ≤ 1 → (∀ m ∈ ms, Readable m) → Holds b' b.buf.data (blockOf op.toNat ms)) ∧
      ∀ spreads drops script s x, (spreads = true ∨ ∀ m ∈ ms, isBlock m = false) →
        ∀ j id args, ms[j]? = some (.execute id args) → (serve spreads script (blockOf op.toNat ms) s).1[j + 1]? ≠ some .skipped →
          tableAt spreads drops script (blockOf op.toNat ms) s x (j + 1) id = (lastWord id (ms.take j)).getD (x id) := by
  obtain ⟨ms, ks, hx, hnd, h1, h2, h3⟩ := block_run hb op h he
  refine ⟨ms, _, hx, h3, fun sp d script s x hs j id args hm hex => ?_⟩
  have hok := executed_all_ok h1 h2 hs hm rfl hex
  have hjl : j < ms.length := (List.getElem?_eq_some_iff.mp hm).1
  have hlen : (serve sp script (blockOf op.toNat ms) s).1.length = (blockOf op.toNat ms).length := serve_length ..
  have hbl : (blockOf op.toNat ms).length = ms.length + 2 := by simp [blockOf]
  have hzip : ((blockOf op.toNat ms).zip (serve sp script (blockOf op.toNat ms) s).1).take (j + 1) =
      ((blockOf op.toNat ms).take (j + 1)).map fun m => (m, .ok) := by
    apply List.ext_getElem
    · simp only [List.length_take, List.length_zip, List.length_map]; omega
    · intro n h1 h2
      simp only [List.getElem_take, List.getElem_zip, List.getElem_map, Prod.mk.injEq, true_and]
      simp only [List.length_take, List.length_zip] at h1
      exact hok _ (List.mem_take_iff_getElem.mpr ⟨n, by omega, rfl⟩)
  have htake : (blockOf op.toNat ms).take (j + 1) = .expectOpen op.toNat [(1, ascii "1")] :: ms.take j := by
    rw [blockOf, List.cons_append, List.take_succ_cons, List.take_append_of_le_length (by omega)]
  rw [tableAt, hzip, htake, List.map_cons, tableAfter, show x.after d (.expectOpen op.toNat [(1, ascii "1")]) .ok = x from rfl, tableAfter_ok]

/-! ### one call after the other -/

theorem running_unfinished {n : Nat} {l : List Pool.Ev} {s : Pool.State} {t : Nat} (h : Pool.Run (Pool.init n) l s) (hh : Spec.Pool.running (s.pc t)) :
    t ∈ Spec.Pool.unfinished l := by
  have hr : ∀ r, Pool.Ev.ret t r ∉ l := fun r hr => by rw [ret_done h hr] at hh; exact hh
  have hr' : Spec.Pool.returned t l = false := by
    simp only [Spec.Pool.returned, List.any_eq_false]
    intro e he
    cases e with
    | ret t' r => simp only [beq_iff_eq]; rintro rfl; exact hr r he
    | _ => simp
  have hc : Pool.Ev.callSend t ∈ l ∨ Pool.Ev.callClose t ∈ l := by
    clear hr hr'
    generalize hi : Pool.init n = s0 at h
    induction h with
    | nil => subst hi; exact absurd hh (by simp [Pool.init, Spec.Pool.running])
    | @snoc s' s'' l e h hs ih =>
      simp only [List.mem_append, List.mem_singleton]
      by_cases hp : Spec.Pool.running (s'.pc t)
      · rcases ih hp with a | a <;> simp [a]
      · by_cases ht : t = e.thread
        · subst ht
          cases hs <;> simp_all [Pool.Ev.thread, Pool.State.goto, Spec.Pool.running]
        · rw [pc_other hs ht] at hh
          exact absurd hh hp
  simp only [Spec.Pool.unfinished, List.mem_filterMap]
  rcases hc with hc | hc
  · exact ⟨_, hc, by simp [hr']⟩
  · exact ⟨_, hc, by simp [hr']⟩

/-- The only connection, if any, is in the pool. -/
def Home (s : Pool.State) : Prop := s.queue = [] ∧ s.next = 0 ∨ s.queue = [0] ∧ s.next = 1

/-- At most one call is running, on the only connection. -/
structure Solo (s : Pool.State) (l : List Pool.Ev) : Prop where
  opn : s.closed = false
  fresh : s.next = 0 → begun l = []
  active : ∃ t, (∀ t', t' ≠ t → ¬Spec.Pool.running (s.pc t')) ∧
    match s.pc t with
    | .idle | .look | .ret _ | .done _ => Home s
    | .dial => s.queue = [] ∧ s.next = 0
    | .got c | .busy c | .put c => c = 0 ∧ s.queue = [] ∧ s.next = 1
    | _ => False

theorem begun_snoc (l : List Pool.Ev) (e : Pool.Ev) : begun (l ++ [e]) = begun l ++ begun [e] := by simp [begun]

theorem solo_step {s s' : Pool.State} {l : List Pool.Ev} {e : Pool.Ev} (h : Solo s l) (hn : 1 ≤ s.cap) (hs : Pool.Step s e s')
    (h1 : ∀ t, e = .callSend t → ∀ t', ¬Spec.Pool.running (s.pc t')) (h2 : ∀ t, e ≠ .callClose t) (h3 : ∀ t c, e ≠ .finish t c false) : Solo s' (l ++ [e]) := by
  obtain ⟨ho, hf, t, hq, hm⟩ := h
  have other : ∀ {t0 : Nat} {p : Pool.Pc}, s.pc t0 = p → Spec.Pool.running p → t0 = t := fun {t0 p} hp hr =>
    Classical.byContradiction fun hne => hq t0 hne (hp ▸ hr)
  have keep : ∀ {p : Pool.Pc} {t' : Nat}, t' ≠ t → ¬Spec.Pool.running ((s.goto t p).pc t') := fun {p t'} hne => by
    simp only [Pool.State.goto, if_neg hne]; exact hq t' hne
  cases hs with
  | @callSend t0 hp =>
    refine ⟨ho, by simpa [begun, Pool.State.goto] using hf, t0, fun t' hne => ?_, ?_⟩
    · simp only [Pool.State.goto, if_neg hne]; exact h1 t0 rfl t'
    · simp only [Pool.State.goto, if_true]
      have := h1 t0 rfl t
      revert hm this
      cases s.pc t <;> simp [Spec.Pool.running, Home]
  | callClose => exact absurd rfl (h2 _)
  | cancel => exact ⟨ho, by simpa [begun, Pool.State.goto] using hf, t, hq, hm⟩
  | failed => exact absurd rfl (h3 _ _)
  | @take t0 c q hp hc =>
    obtain rfl := other hp trivial
    rw [hp] at hm
    rcases hm with ⟨a, -⟩ | ⟨a, b⟩
    · rw [a] at hc; cases hc
    · rw [a] at hc
      cases hc
      exact ⟨ho, by simpa [begun, Pool.State.goto] using hf, t0, fun t' hne => keep hne, by simp [Pool.State.goto, b]⟩
  | lookClosed hp _ hc => rw [ho] at hc; cases hc
  | @lookCtx t0 hp =>
    obtain rfl := other hp trivial
    rw [hp] at hm
    exact ⟨ho, by simpa [begun, Pool.State.goto] using hf, t0, fun t' hne => keep hne, by simpa [Pool.State.goto, Home] using hm⟩
  | @miss t0 hp hc =>
    obtain rfl := other hp trivial
    rw [hp] at hm
    refine ⟨ho, by simpa [begun, Pool.State.goto] using hf, t0, fun t' hne => keep hne, ?_⟩
    rcases hm with ⟨a, b⟩ | ⟨a, -⟩
    · simp [Pool.State.goto, a, b]
    · rw [a] at hc; cases hc
  | @opened t0 hp =>
    obtain rfl := other hp trivial
    rw [hp] at hm
    exact ⟨ho, by simp [Pool.State.goto], t0, fun t' hne => keep hne, by simp [Pool.State.goto, hm.1, hm.2]⟩
  | @notOpened t0 hp =>
    obtain rfl := other hp trivial
    rw [hp] at hm
    exact ⟨ho, by simpa [begun, Pool.State.goto] using hf, t0, fun t' hne => keep hne, by simpa [Pool.State.goto, Home] using .inl hm⟩
  | @begin t0 c hp =>
    obtain rfl := other hp trivial
    rw [hp] at hm
    exact ⟨ho, fun h => absurd (hm.2.2.symm.trans h) (by decide), t0, fun t' hne => keep hne, by simpa [Pool.State.goto] using hm⟩
  | @sent t0 c hp =>
    obtain rfl := other hp trivial
    rw [hp] at hm
    exact ⟨ho, by simpa [begun, Pool.State.goto] using hf, t0, fun t' hne => keep hne, by simpa [Pool.State.goto] using hm⟩
  | @put t0 c hp =>
    obtain rfl := other hp trivial
    rw [hp] at hm
    obtain ⟨rfl, a, b⟩ := hm
    exact ⟨ho, by simpa [begun, Pool.State.goto] using hf, t0, fun t' hne => keep hne, by simp [Pool.State.goto, Home, a, b]⟩
  | putClosed _ hc => rw [ho] at hc; cases hc
  | @putFull t0 c hp _ hl =>
    obtain rfl := other hp trivial
    rw [hp] at hm
    rw [hm.2.1] at hl
    exact absurd (Nat.le_trans hn hl) (by decide)
  | @ret t0 r hp =>
    obtain rfl := other hp trivial
    rw [hp] at hm
    exact ⟨ho, by simpa [begun, Pool.State.goto] using hf, t0, fun t' hne => keep hne, by simpa [Pool.State.goto, Home] using hm⟩
  | closeBad hp | closeFull hp | drainTake hp | drainClosed hp | drainCtx hp | drainEmpty hp | closeDrop hp | shut hp | shutClosed hp =>
    obtain rfl := other hp trivial
    rw [hp] at hm
    exact hm.elim

theorem solo_run {n : Nat} {l : List Pool.Ev} {s : Pool.State} (hn : 1 ≤ n) (h : Pool.Run (Pool.init n) l s) (h1 : OneByOne l) (h2 : ∀ t, .callClose t ∉ l)
    (h3 : ∀ t c, .finish t c false ∉ l) : Solo s l := by
  generalize hi : Pool.init n = s0 at h
  induction h with
  | nil => subst hi; exact ⟨rfl, fun _ => rfl, 0, fun _ _ => by simp [Pool.init, Spec.Pool.running], .inl ⟨rfl, rfl⟩⟩
  | @snoc s' s'' l e h hs ih =>
    have hsolo := ih (fun l1 t l2 hl => h1 l1 t (l2 ++ [e]) (by simp [hl])) (fun t ht => h2 t (by simp [ht])) (fun t c ht => h3 t c (by simp [ht]))
    subst hi
    refine solo_step hsolo (by rw [cap_run h]; exact hn) hs (fun t he t' hr => ?_) (fun t he => h2 t (by simp [he])) (fun t c he => h3 t c (by simp [he]))
    have := running_unfinished h hr
    rw [h1 l t [] (by rw [he])] at this
    cases this

theorem lastWord_append (id : Nat) (a c : List ClientMsg) : lastWord id (a ++ c) = (lastWord id c).or (lastWord id a) := by
  simp only [lastWord, List.reverse_append, List.find?_append]
  cases List.find? _ c.reverse with
  | none => simp only [Option.none_or]
  | some m => cases m <;> simp only [Option.some_or]

theorem poolTables_snoc (unit : Nat → List ClientMsg) (l : List Pool.Ev) (e : Pool.Ev) : poolTables unit (l ++ [e]) =
    match e with
    | .opened _ c => fun c' => if c' = c then fun _ => none else poolTables unit l c'
    | .begin t c => fun c' => if c' = c then tableAfter true ((unit t).map fun m => (m, .ok)) (poolTables unit l c) else poolTables unit l c'
    | _ => poolTables unit l := by
  rw [poolTables, List.foldl_append]; rfl

/-- The one connection has been told everything. -/
theorem solo_tables {n : Nat} {l : List Pool.Ev} {s : Pool.State} (hn : 1 ≤ n) (h : Pool.Run (Pool.init n) l s) (h1 : OneByOne l) (h2 : ∀ t, .callClose t ∉ l)
    (h3 : ∀ t c, .finish t c false ∉ l) (unit : Nat → List ClientMsg) (id : Nat) : poolTables unit l 0 id = (lastWord id ((begun l).flatMap unit)).getD none := by
  generalize hi : Pool.init n = s0 at h
  induction h with
  | nil => rfl
  | @snoc s' s'' l e h hs ih =>
    have h1' : OneByOne l := fun l1 t l2 hl => h1 l1 t (l2 ++ [e]) (by simp [hl])
    have h2' : ∀ t, .callClose t ∉ l := fun t ht => h2 t (by simp [ht])
    have h3' : ∀ t c, .finish t c false ∉ l := fun t c ht => h3 t c (by simp [ht])
    have hr := ih h1' h2' h3'
    subst hi
    have hsolo := solo_run hn h h1' h2' h3'
    obtain ⟨-, hf, t, hq, hm⟩ := hsolo
    have other : ∀ {t0 : Nat} {p : Pool.Pc}, s'.pc t0 = p → Spec.Pool.running p → t0 = t := fun {t0 p} hp hr =>
      Classical.byContradiction fun hne => hq t0 hne (hp ▸ hr)
    rw [poolTables_snoc, begun_snoc, List.flatMap_append]
    cases hs with
    | @opened t0 hp =>
      obtain rfl := other hp trivial
      rw [hp] at hm
      rw [hf hm.2]
      simp [hm.2, begun, lastWord]
    | @begin t0 c hp =>
      obtain rfl := other hp trivial
      rw [hp] at hm
      obtain ⟨rfl, -, -⟩ := hm
      simp only [if_true, tableAfter_ok, hr, begun, List.filterMap_cons, List.filterMap_nil, List.flatMap_cons, List.flatMap_nil, List.append_nil, lastWord_append]
      cases lastWord id (unit t0) <;> rfl
    | _ => simpa [begun] using hr

/-- **C68** over the pool, for a program that makes its calls one after the other on a pool that keeps at least one
connection, as long as no `Send` fails and the pool is not closed: they all use the same connection, and an Execute runs the
statement prepared by the earlier call. -/
theorem C68_sequential_partial {n : Nat} {l1 l2 : List Pool.Ev} {s : Pool.State} {t1 t2 c id : Nat} {text : Bytes} {unit : Nat → List ClientMsg} (hn : 1 ≤ n)
    (h : Pool.Run (Pool.init n) (l1 ++ .callSend t2 :: l2 ++ [.begin t2 c]) s) (hs : .callSend t1 ∈ l1) (hr : .ret t1 .ok ∈ l1)
    (hu : lastWord id (unit t1) = some (some text)) (ho : ∀ t, t ≠ t1 → Silent id (unit t))
    (h1 : OneByOne (l1 ++ .callSend t2 :: l2)) (h2 : ∀ t, .callClose t ∉ l1 ++ .callSend t2 :: l2)
    (h3 : ∀ t c, .finish t c false ∉ l1 ++ .callSend t2 :: l2) :
    c = 0 ∧ poolTables unit (l1 ++ .callSend t2 :: l2) c id = some text := by
  obtain ⟨s1, ha, hb⟩ := Proof.Pool.run_cut h _ _ rfl
  obtain ⟨s0, ha0, -⟩ := Proof.Pool.run_cut ha l1 _ rfl
  obtain ⟨-, -, t, hq, hm⟩ := solo_run hn ha h1 h2 h3
  obtain rfl : c = 0 := by
    cases step_of_run hb rfl with
    | begin hp =>
      obtain rfl : t2 = t := Classical.byContradiction fun hne => hq t2 hne (by rw [hp]; trivial)
      rw [hp] at hm
      exact hm.1
  refine ⟨rfl, ?_⟩
  rw [solo_tables hn ha h1 h2 h3]
  have hbeg : t1 ∈ begun (l1 ++ .callSend t2 :: l2) := by
    obtain ⟨x, hx⟩ : ∃ x, Pool.Ev.begin t1 x ∈ Spec.Pool.deeds t1 l1 := by
      have := C57_send ha0 hs hr
      generalize Spec.Pool.deeds t1 l1 = w at this
      cases this with
      | @ok x g e hg he => exact ⟨x, by simp⟩
    simp only [begun, List.mem_filterMap]
    exact ⟨_, List.mem_append_left _ (List.mem_filter.mp hx).1, rfl⟩
  have : ∀ ts : List Nat, t1 ∈ ts → lastWord id (ts.flatMap unit) = some (some text) := by
    intro ts
    induction ts with
    | nil => intro h; cases h
    | cons a ts ih =>
      intro hmem
      rw [List.flatMap_cons, lastWord_append]
      by_cases hin : t1 ∈ ts
      · rw [ih hin]; rfl
      · obtain rfl : t1 = a := by simpa [hin] using hmem
        have : lastWord id (ts.flatMap unit) = none := by
          clear ih hmem
          induction ts with
          | nil => rfl
          | cons y ts ih =>
            rw [List.flatMap_cons, lastWord_append, ih (fun h => hin (List.mem_cons_of_mem _ h)), ho y (fun e => hin (by simp [e]))]; rfl
        rw [this, hu]; rfl
  rw [this _ hbeg]; rfl

/-! ### whatever the calls -/

theorem begin_next {n : Nat} {l : List Pool.Ev} {s : Pool.State} {t c : Nat} (h : Pool.Run (Pool.init n) l s) (hb : .begin t c ∈ l) : c < s.next := by
  generalize hi : Pool.init n = s0 at h
  induction h with
  | nil => cases hb
  | @snoc s' s'' l e h hs ih =>
    subst hi
    have mono : s'.next ≤ s''.next := by cases hs <;> simp [Pool.State.goto]
    rcases List.mem_append.mp hb with hb | hb
    · exact Nat.lt_of_lt_of_le (ih hb) mono
    · obtain rfl := List.mem_singleton.mp hb
      cases hs with
      | begin hp =>
        obtain ⟨st, -, hw⟩ := (Proof.Pool.inv_run (Proof.Pool.inv_init n) h).where c
        have hh : Spec.Pool.holds (s'.pc t) = some c := by rw [hp]; rfl
        cases hw with
        | absent _ _ h3 => exact absurd hh (h3 t)
        | queued a => exact a
        | held a => exact a
        | closed a => exact a

theorem no_begin {s s' : Pool.State} {l : List Pool.Ev} {t c : Nat} {r : Pool.Res} (h : Pool.Run s l s') (hb : .begin t c ∈ l) (hd : s.pc t = .done r) : False := by
  have stays : ∀ {l : List Pool.Ev} {s' : Pool.State}, Pool.Run s l s' → s'.pc t = .done r ∧ .begin t c ∉ l := by
    intro l s' h
    induction h with
    | nil => exact ⟨hd, by simp⟩
    | @snoc s1 s2 l e h hs ih =>
      obtain ⟨h1, h2⟩ := ih
      by_cases ht : t = e.thread
      · subst ht
        cases hs <;> simp_all [Pool.Ev.thread]
      · refine ⟨by rw [pc_other hs ht]; exact h1, ?_⟩
        simp only [List.mem_append, List.mem_singleton, not_or]
        exact ⟨h2, fun he => ht (by rw [← he]; rfl)⟩
  exact (stays h).2 hb

/-- **C68**, whatever the calls and their interleaving: a number stands for what the units of work sent over the same connection said
last about it. -/
theorem C68_tables {n : Nat} {l : List Pool.Ev} {s : Pool.State} (h : Pool.Run (Pool.init n) l s) (unit : Nat → List ClientMsg) (c id : Nat) :
    poolTables unit l c id = (lastWord id ((begunOn c l).flatMap unit)).getD none := by
  generalize hi : Pool.init n = s0 at h
  induction h with
  | nil => rfl
  | @snoc s' s'' l e h hs ih =>
    have hr := ih
    subst hi
    rw [poolTables_snoc, show begunOn c (l ++ [e]) = begunOn c l ++ begunOn c [e] by simp [begunOn], List.flatMap_append]
    cases hs with
    | @opened t0 hp =>
      dsimp only
      by_cases hc : c = s'.next
      · have : begunOn c l = [] := by
          refine List.filterMap_eq_nil_iff.2 fun e he => ?_
          cases e with
          | begin t c' =>
            have := begin_next h he
            exact if_neg (by omega)
          | _ => rfl
        rw [if_pos hc, this]; rfl
      · rw [if_neg hc, hr]; simp [begunOn]
    | @begin t0 c0 hp =>
      dsimp only
      by_cases hc : c = c0
      · subst hc
        simp only [if_true, tableAfter_ok, hr, begunOn, List.filterMap_cons, List.filterMap_nil, List.flatMap_cons, List.flatMap_nil, List.append_nil, lastWord_append]
        cases lastWord id (unit t0) <;> rfl
      · rw [if_neg hc, hr]
        simp [begunOn, Ne.symm hc]
    | _ => simpa [begunOn] using hr

/-- **C68**, exactly: an Execute runs the statement that an earlier call has prepared if and only if it is sent over the connection which that
call used. -/
theorem C68_exact {n : Nat} {l1 l2 : List Pool.Ev} {s : Pool.State} {t1 t2 c id : Nat} {text : Bytes} {unit : Nat → List ClientMsg}
    (h : Pool.Run (Pool.init n) (l1 ++ .callSend t2 :: l2 ++ [.begin t2 c]) s) (hs : .callSend t1 ∈ l1) (hr : .ret t1 .ok ∈ l1)
    (hu : lastWord id (unit t1) = some (some text)) (ho : ∀ t, t ≠ t1 → Silent id (unit t)) :
    poolTables unit (l1 ++ .callSend t2 :: l2) c id = some text ↔ .begin t1 c ∈ l1 := by
  obtain ⟨s1, ha, -⟩ := Proof.Pool.run_cut h _ _ rfl
  obtain ⟨s0, ha0, hb0⟩ := Proof.Pool.run_cut ha l1 _ rfl
  have hend := ret_done ha0 hr
  have hin : t1 ∈ begunOn c (l1 ++ .callSend t2 :: l2) ↔ .begin t1 c ∈ l1 := by
    simp only [begunOn, List.mem_filterMap]
    constructor
    · rintro ⟨e, he, h1⟩
      cases e with
      | begin t c' =>
        dsimp only at h1
        split at h1
        · rename_i hcc
          subst hcc
          obtain rfl := Option.some.inj h1
          rcases List.mem_append.mp he with he | he
          · exact he
          · exact (no_begin hb0 he hend).elim
        · cases h1
      | _ => cases h1
    · exact fun he => ⟨_, List.mem_append_left _ he, if_pos rfl⟩
  have key : ∀ ts : List Nat, lastWord id (ts.flatMap unit) = if t1 ∈ ts then some (some text) else none := by
    intro ts
    induction ts with
    | nil => rfl
    | cons a ts ih =>
      rw [List.flatMap_cons, lastWord_append, ih]
      by_cases hin : t1 ∈ ts
      · rw [if_pos hin, if_pos (List.mem_cons_of_mem _ hin)]; rfl
      · rw [if_neg hin]
        by_cases ha : a = t1
        · subst ha
          rw [hu, if_pos (by simp)]; rfl
        · rw [ho a ha, if_neg (by simp [hin, Ne.symm ha])]; rfl
  rw [C68_tables ha, key, ← hin]
  split <;> simp_all

/-- Two `Send`s at once have made two connections.  Then one `Send` after the other, by the same client: the pool takes the
connections in turn. -/
def turnsEvs : List Pool.Ev :=
  [.callSend 0, .miss 0, .opened 0 0, .begin 0 0, .finish 0 0 true, .callSend 1, .miss 1, .opened 1 1, .begin 1 1, .finish 1 1 true, .put 0 0, .ret 0 .ok, .put 1 1, .ret 1 .ok,
    .callSend 2, .take 2 0, .begin 2 0, .finish 2 0 true, .put 2 0, .ret 2 .ok]

/-- **C68** is false: the pool sends the second of two units of work over another connection, where the number stands for
nothing, or for something else. -/
theorem C68_wrong : ¬C68_full := by
  intro hf
  have ho : outcome 2 (almost 0 ++ almost 1 ++ [.go 0, .go 0, .go 1, .go 1] ++ [.send 2, .go 2, .go 2, .go 2, .go 2, .go 2] ++ [.send 3, .go 3, .go 3]) =
      some (turnsEvs ++ .callSend 3 :: [.take 3 1] ++ [.begin 3 1], [0], false) := by decide +kernel
  obtain ⟨s, -, hr, -, -⟩ := outcome_run ho
  have := hf 2 turnsEvs [.take 3 1] s 2 3 1 7 (ascii "DELETE FROM t") (fun t => if t = 2 then [.prepare 7 (ascii "DELETE FROM t")] else if t = 3 then [.execute 7 []] else [])
    hr (by decide) (by decide) rfl rfl (fun t ht => by
      simp only [if_neg ht]
      split <;> rfl)
  revert this
  decide +kernel

/-- For `C68_exact`: in the execution of `C68_wrong` call 2 has used connection 0, and call 3 has got connection 1. -/
example : Pool.Ev.begin 2 1 ∉ turnsEvs ∧ Pool.Ev.begin 2 0 ∈ turnsEvs ∧ begunOn 0 turnsEvs = [0, 2] ∧ begunOn 1 turnsEvs = [1] := by decide

/-- Another client has used the number on that connection: then its statement is run. -/
theorem C68_other_wrong : ∃ s, Pool.Run (Pool.init 2) (turnsEvs ++ .callSend 3 :: [.take 3 1] ++ [.begin 3 1]) s ∧
    let unit : Nat → List ClientMsg := fun t =>
      if t = 1 then [.prepare 7 (ascii "DELETE FROM t")] else if t = 2 then [.prepare 7 (ascii "SELECT 1")] else if t = 3 then [.execute 7 []] else []
    poolTables unit (turnsEvs ++ .callSend 3 :: [.take 3 1]) 1 7 = some (ascii "DELETE FROM t") := by
  have ho : outcome 2 (almost 0 ++ almost 1 ++ [.go 0, .go 0, .go 1, .go 1] ++ [.send 2, .go 2, .go 2, .go 2, .go 2, .go 2] ++ [.send 3, .go 3, .go 3]) =
      some (turnsEvs ++ .callSend 3 :: [.take 3 1] ++ [.begin 3 1], [0], false) := by decide +kernel
  obtain ⟨s, -, hr, -, -⟩ := outcome_run ho
  exact ⟨s, hr, by decide +kernel⟩

/-! ### cases -/

/-- For `C68_sequential_partial`: two calls, one after the other, on a pool of two. -/
def inTurnEvs : List Pool.Ev := [.callSend 0, .miss 0, .opened 0 0, .begin 0 0, .finish 0 0 true, .put 0 0, .ret 0 .ok]

example : ∃ s, Pool.Run (Pool.init 2) (inTurnEvs ++ .callSend 1 :: [.take 1 0] ++ [.begin 1 0]) s ∧ OneByOne (inTurnEvs ++ .callSend 1 :: [.take 1 0]) ∧
    poolTables (fun t => if t = 0 then [.prepare 7 (ascii "SELECT 1")] else if t = 1 then [.execute 7 []] else []) (inTurnEvs ++ .callSend 1 :: [.take 1 0]) 0 7 =
      some (ascii "SELECT 1") := by
  have ho : outcome 2 (almost 0 ++ [.go 0, .go 0] ++ [.send 1, .go 1, .go 1]) = some (inTurnEvs ++ .callSend 1 :: [.take 1 0] ++ [.begin 1 0], [], false) := by decide +kernel
  obtain ⟨s, -, hr, -, -⟩ := outcome_run ho
  refine ⟨s, hr, fun l1 t l2 hl => ?_, by decide +kernel⟩
  have : ∀ k, (inTurnEvs ++ .callSend 1 :: [.take 1 0])[k]? = some (.callSend t) → k = 0 ∨ k = 7 := by
    intro k
    match k with
    | 0 | 1 | 2 | 3 | 4 | 5 | 6 | 7 | 8 => simp [inTurnEvs]
    | k + 9 => simp [inTurnEvs]
  have hk := this l1.length (by rw [hl]; simp)
  have hl1 : l1 = (inTurnEvs ++ Pool.Ev.callSend 1 :: [Pool.Ev.take 1 0]).take l1.length := by rw [hl]; simp
  rcases hk with e | e <;> rw [e] at hl1 <;> rw [hl1] <;> decide

/-- `Prepare(7, "DELETE FROM t"); Execute(7)` -/
def prepEx : Prog := .call (.prepare 7 (ascii "DELETE FROM t")) fun _ => .call (.execute 7 []) fun _ => .ret none []

example : kindsOf (appended builderEx (.expect 0 prepEx fun o => .ret none o)) = some [24, 40, 41, 25] := by decide +kernel

def prepMsgs : List ClientMsg := [.prepare 7 (ascii "DELETE FROM t"), .execute 7 []]

/-- The session had another statement under the number; what is run is the new one, -/
example : tableAt false false (failsAt 9) (blockOf 0 prepMsgs) freshSession (fun _ => some (ascii "SELECT 1")) 2 7 = some (ascii "DELETE FROM t") ∧
    lastWord 7 (prepMsgs.take 1) = some (some (ascii "DELETE FROM t")) := by decide

/-- and if it cannot be prepared none is run, even if the old one is kept. -/
example : (serve false (failsAt 1) (blockOf 0 prepMsgs) freshSession).1 = [.ok, .failed, .skipped, .failed] ∧
    tableAt false false (failsAt 1) (blockOf 0 prepMsgs) freshSession (fun _ => some (ascii "SELECT 1")) 2 7 = some (ascii "SELECT 1") := by decide

/-- Without the block the old one is run by a server that keeps it. -/
theorem C68_needs_block : ∃ script, (serve true script prepMsgs freshSession).1 = [.failed, .ok] ∧
    tableAt true false script prepMsgs freshSession (fun _ => some (ascii "SELECT 1")) 1 7 = some (ascii "SELECT 1") :=
  ⟨fun j => ⟨if j = 0 then .error else .success, .session⟩, by decide, by decide⟩

end Verif.Props
