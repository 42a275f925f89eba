import Verif.Proof.Ids
import Verif.Props.Server
/-! C61: the variable returned by InsertRow stands for the id of its row. -/
namespace Verif.Props
open Verif.Go Verif.Spec Verif.Model Verif.Proof

variable {g : Grow} {b b' : Builder} {body : Prog} {o : List Builder} {out : List (Option Val)}

/-- The messages of a block. -/
def blockOf (op : Nat) (ms : List ClientMsg) : List ClientMsg := .expectOpen op [(1, ascii "1")] :: ms ++ [.expectClose]

theorem block_run (hb : Ready b) (op : UInt8)
    (h : run g (.expect op body fun o => .ret none o) [] b = .ok (o, b', out)) (he : b'.err = none) :
    ∃ (ms : List ClientMsg) (ks : List Nat), Exec libDur 1 body (.ok []) (.ok ms) out (ks.map idVariable) ∧ (ks.map idVariable).Nodup ∧
      openBlocks 0 ms = some 0 ∧ NoErrorBlocks ms ∧
      (op.toNat ≤ 1 → (∀ m ∈ ms, Readable m) → Holds b' b.buf.data (blockOf op.toNat ms)) := by
  obtain ⟨st, ks, h1, h2, h5⟩ := run_ready hb h
  have hnd := h5.nodup
  have h1' := exec_good h1
  generalize hv : ks.map idVariable = vs at h1 hnd
  cases h1 with
  | expect hx hk' =>
    cases hk'
    rw [List.append_nil] at hv hnd
    obtain ⟨new, e, hp⟩ := exec_append hx _ _ rfl rfl
    have hp := hp []
    obtain ⟨h3, h4⟩ := exec_blocks hp _ _ rfl rfl 0 rfl (fun _ _ hm => by cases hm)
    refine ⟨new, ks, hv ▸ hp, hv ▸ hnd, h3, h4, fun hop hr => ?_⟩
    rw [e] at h2 h1'
    have e : [] ++ [ClientMsg.expectOpen op.toNat [(1, ascii "1")]] ++ new ++ [.expectClose] = blockOf op.toNat new := by simp [blockOf]
    rw [e] at h2 h1'
    apply h2.holds
    intro m hm
    refine h1' _ _ rfl rfl (by simp) m hm ?_
    simp only [blockOf, List.cons_append, List.mem_cons, List.mem_append, List.not_mem_nil, or_false] at hm
    rcases hm with rfl | hm | rfl
    · exact hop
    · exact hr m hm
    · trivial
  | expectFail hx hk' =>
    cases hk'
    rw [show b'.err = some _ from h2.2] at he; cases he

/-- In a block, a message is executed only if all before it were answered OK. -/
theorem executed_all_ok {sp : Bool} {f : Nat → Fate} {op : Nat} {ms : List ClientMsg} {s : Session} (hb : openBlocks 0 ms = some 0)
    (hn : NoErrorBlocks ms) (hs : sp = true ∨ ∀ m ∈ ms, isBlock m = false) {j : Nat} {m : ClientMsg} (hm : ms[j]? = some m)
    (hp : isBlock m = false) (hx : (serve sp f (blockOf op ms) s).1[j + 1]? ≠ some .skipped) :
    ∀ a ∈ (serve sp f (blockOf op ms) s).1.take (j + 1), a = .ok := by
  obtain ⟨hj, hmj⟩ := List.getElem?_eq_some_iff.mp hm
  have e : blockOf op ms = (.expectOpen op [(1, ascii "1")] :: ms.take j) ++ (m :: (ms.drop (j + 1) ++ [.expectClose])) := by
    have h1 : ms = ms.take j ++ m :: ms.drop (j + 1) := by
      conv => lhs; rw [← List.take_append_drop j ms]
      rw [← List.getElem_cons_drop hj, hmj]
    conv => lhs; rw [blockOf, h1]
    simp
  rw [e, serve_append, serve_cons (m := m)] at hx ⊢
  have hl : (serve sp f (.expectOpen op [(1, ascii "1")] :: ms.take j) s).1.length = j + 1 := by
    rw [serve_length]; simp; omega
  rw [List.take_append_of_le_length (by omega), List.take_of_length_le (by omega)]
  rw [List.getElem?_append_right (by omega), hl, Nat.sub_self, List.getElem?_cons_zero, serveOne_plain hp] at hx
  rw [serve_cons, serveOne_open] at hx ⊢
  obtain ⟨d, hd⟩ := openBlocks_take hb j
  have h0 : Inside s.blocks 0 { s with blocks := ⟨true, s.failed⟩ :: s.blocks } := ⟨[⟨true, s.failed⟩], rfl, rfl, by simp, by simp⟩
  obtain ⟨_, hf⟩ := serve_inside (sp := sp) (ms.take j) (fun i => f (i + 1)) _ 0 h0 hd
    (fun op conds hm => hn op conds (List.mem_of_mem_take hm)) (hs.imp id fun h m hm => h m (List.mem_of_mem_take hm))
  simp only at hx ⊢
  rw [hf] at hx
  have hs0 : ({ s with blocks := ⟨true, s.failed⟩ :: s.blocks } : Session).failed = s.failed := rfl
  rw [hs0] at hx
  intro a ha
  cases hsf : s.failed with
  | true => rw [hsf] at hx; simp at hx
  | false =>
    rw [hsf] at ha hx
    rcases List.mem_cons.mp ha with rfl | ha
    · rfl
    · rcases hany : (serve sp (fun i => f (i + 1)) (ms.take j) { s with blocks := ⟨true, false⟩ :: s.blocks }).1.any (fun a => decide (a ≠ .ok)) with _ | _
      · simpa using List.any_eq_false.mp hany a ha
      · rw [hany] at hx; simp at hx

/-- What is read of the variable `v` returned by a call of `InsertRow`: when the session executes any later message of the
block, the variable has the value that the insert of that call generated. -/
def OwnId (op : Nat) (ms : List ClientMsg) (v : Bytes) : Prop :=
  ∃ i t cols es, ms[i]? = some (.insert t (some 2) cols [es]) ∧ ms[i + 1]? = some (captureId v) ∧
    ∀ spreads script ids s x, (spreads = true ∨ ∀ m ∈ ms, isBlock m = false) → LeavesIds ids →
      ∀ j m, i + 1 < j → ms[j]? = some m → isBlock m = false →
        (serve spreads script (blockOf op ms) s).1[j + 1]? ≠ some .skipped →
        (varsAt spreads script ids (blockOf op ms) s x (j + 1)).user v = some (ids (i + 1)).generated

/-- C61: in `ExpectFailOnError(body)`, wherever the session executes (successfully or not) a message that follows a call of
`InsertRow`, the variable which that call returned holds the id generated for its row, whatever the server did, whatever
ids it generated, and whatever the session's variables were before.  The statements of the user leave variables named
`@id$...` alone; for bodies with further blocks see C50. -/
theorem C61_own_id (hb : Ready b) (op : UInt8)
    (h : run g (.expect op body fun o => .ret none o) [] b = .ok (o, b', out)) (he : b'.err = none) (hc : NoCapture body) :
    ∃ ms vs, Exec libDur 1 body (.ok []) (.ok ms) out vs ∧
      (op.toNat ≤ 1 → (∀ m ∈ ms, Readable m) → Holds b' b.buf.data (blockOf op.toNat ms)) ∧
      ∀ v ∈ vs, OwnId op.toNat ms v := by
  obtain ⟨ms, ks, hx, hnd, h1, h2, h3⟩ := block_run hb op h he
  refine ⟨ms, _, hx, h3, fun v hv => ?_⟩
  have hid : ∀ v ∈ ks.map idVariable, isIdName v = true ∧ isVariable v = true := by
    intro v hv
    obtain ⟨k, _, rfl⟩ := List.mem_map.mp hv
    exact idVariable_name k
  obtain ⟨hv1, hv2⟩ := hid v hv
  obtain ⟨pre, t, cols, es, post, e⟩ := exec_rows hx _ _ rfl rfl v hv
  have hcap := exec_caps hx hc hid _ _ rfl rfl
  rw [show caps [] = [] from rfl, List.nil_append] at hcap
  have hpost : ∀ m ∈ post, captured m ≠ some v := by
    intro m hm hmc
    have h4 : v ∈ caps post := by
      rw [caps, List.mem_filter, List.mem_filterMap]
      exact ⟨⟨m, hm, hmc⟩, hv1⟩
    rw [← hcap, e, caps_append, show (.insert t (some 2) cols [es] :: captureId v :: post : List ClientMsg) = [.insert t (some 2) cols [es]] ++ ([captureId v] ++ post) from rfl,
      caps_append, caps_append, show caps [captureId v] = [v] by simp [caps, captured_id hv2, hv1]] at hnd
    have := (List.nodup_append.mp hnd).2.1
    have := (List.nodup_append.mp this).2.1
    simp [h4] at this
  refine ⟨pre.length, t, cols, es, by simp [e], by rw [e, List.getElem?_append_right (by omega)]; simp, ?_⟩
  intro sp script ids s x hs hids j m hj hm hp hex
  have hok := executed_all_ok h1 h2 hs hm hp hex
  have hjl : j < ms.length := (List.getElem?_eq_some_iff.mp hm).1
  have hlen : (serve sp script (blockOf op.toNat ms) s).1.length = (blockOf op.toNat ms).length := serve_length ..
  have hbl : (blockOf op.toNat ms).length = ms.length + 2 := by simp [blockOf]
  have hzip : ((blockOf op.toNat ms).zip (serve sp script (blockOf op.toNat ms) s).1).take (j + 1) =
      ((blockOf op.toNat ms).take (j + 1)).map fun m => (m, .ok) := by
    apply List.ext_getElem
    · simp only [List.length_take, List.length_zip, List.length_map]; omega
    · intro n h1 h2
      simp only [List.getElem_take, List.getElem_zip, List.getElem_map, Prod.mk.injEq, true_and]
      simp only [List.length_take, List.length_zip] at h1
      exact hok _ (List.mem_take_iff_getElem.mpr ⟨n, by omega, rfl⟩)
  have htake : (blockOf op.toNat ms).take (j + 1) = (.expectOpen op.toNat [(1, ascii "1")] :: pre) ++
      ([.insert t (some 2) cols [es], captureId v] ++ post.take (j - pre.length - 2)) := by
    rw [blockOf, List.cons_append, List.take_succ_cons, List.take_append_of_le_length (by omega), e, List.take_append,
      List.take_of_length_le (by omega)]
    obtain ⟨q, hq⟩ : ∃ q, j - pre.length = q + 2 := ⟨j - pre.length - 2, by omega⟩
    rw [hq]
    simp
  rw [varsAt, hzip, htake, List.map_append, varsAfter_append, List.map_append, varsAfter_append]
  rw [varsAfter_keeps hv1 _ _ _ (fun i => hids _)]
  · refine (varsAfter_row hv2 _ _).trans ?_
    simp
  · intro y hy
    obtain ⟨m, hm, rfl⟩ := List.mem_map.mp hy
    exact hpost m (List.mem_of_mem_take hm)

/-! ### cases -/

/-- `id := InsertRow("parent", ["a"], [1]); InsertRow("child", ["p"], [id])` -/
def idsEx : Prog := .call (.insertRow (ascii "parent") [ascii "a"] [.int 1]) fun id =>
  .call (.insertRow (ascii "child") [ascii "p"] [id.getD .nil]) fun _ => .ret none [id]

/-- the tag of each message that was read -/
def kindsOf (bs : Option Bytes) : Option (List UInt8) := (bs.bind readFrames).map (·.map Prod.fst)

example : kindsOf (appended builderEx (.expect 0 idsEx fun o => .ret none o)) = some [24, 18, 12, 18, 12, 25] := by decide +kernel

example : NoCapture idsEx :=
  .call (fun _ _ _ h => by cases h) fun _ => .call (fun _ _ _ h => by cases h) fun _ => .ret

/-- ids from 100 on; nothing else touches variables -/
def idsFrom (n : Nat) : Nat → IdFate := fun i => ⟨n + i, id⟩

example (n : Nat) : LeavesIds (idsFrom n) := fun _ _ _ _ => rfl

def parentEx : ClientMsg := .insert (ascii "parent") (some 2) [ascii "a"] [[.literal (.sint 1)]]
def childEx (v : Bytes) : ClientMsg := .insert (ascii "child") (some 2) [ascii "p"] [[.variable v]]

/-- a session where someone has already inserted a row, with id 7, into another table -/
def usedVars : Vars := ⟨7, fun _ => none⟩

/-- the child is inserted with the parent's id, -/
example : (varsAt false (failsAt 9) (idsFrom 100) (blockOf 0 [parentEx, captureId (ascii "@id$5"), childEx (ascii "@id$5")]) freshSession usedVars 3).user (ascii "@id$5") =
    some 101 := by decide

/-- or not at all. -/
example : (serve false (failsAt 1) (blockOf 0 [parentEx, captureId (ascii "@id$5"), childEx (ascii "@id$5")]) freshSession).1 =
    [.ok, .failed, .skipped, .skipped, .failed] := by decide

/-- C61: the block is needed.  In a transaction alone, if the insert of the parent fails, the child is inserted all the same,
with the id of another row, and committed. -/
theorem C61_needs_block : ∃ script ids, LeavesIds ids ∧
    let ms := [sql "START TRANSACTION", parentEx, captureId (ascii "@id$5"), childEx (ascii "@id$5"), sql "COMMIT"]
    (serve true script ms freshSession).1 = [.ok, .failed, .ok, .ok, .ok] ∧
    (serve true script ms freshSession).2.durable = [childEx (ascii "@id$5")] ∧
    (varsAt true script ids ms freshSession usedVars 3).user (ascii "@id$5") = some 7 :=
  ⟨fun j => ⟨if j = 1 then .error else .success, .session⟩, idsFrom 100, fun _ _ _ _ => rfl, by decide, rfl, by decide⟩

end Verif.Props
