import Verif.Props.System
import Verif.Proof.Torn
/-! C76 in terms of the bytes on the connections. -/
namespace Verif.Props
open Verif.Go Verif.Model Verif.Spec Verif.Proof Verif.Model.PoolConn Verif.Spec.PoolConn Verif.Proof.PoolConn

/-! ### streams of messages -/

theorem frames_fuel : ∀ (f f' : Nat) (b : Bytes), b.length ≤ f → b.length ≤ f' → readFramesAux f b = readFramesAux f' b := by
  intro f
  induction f with
  | zero =>
    intro f' b h _
    obtain rfl := List.length_eq_zero_iff.mp (Nat.le_zero.mp h)
    cases f' <;> rfl
  | succ f ih =>
    intro f' b h h'
    cases b with
    | nil => cases f' <;> rfl
    | cons x b =>
      cases f' with
      | zero => simp at h'
      | succ f' =>
        rw [readFramesAux, readFramesAux]
        cases hr : readFrame (x :: b) with
        | none => rfl
        | some y =>
          have := (readFrame_shorter hr).1
          dsimp only
          rw [ih f' y.2 (by omega) (by omega)]

theorem frames_cons {b rest : Bytes} {fr : UInt8 × Bytes} (h : readFrame b = some (fr, rest)) : readFrames b = (readFrames rest).map (fr :: ·) := by
  have hl := (readFrame_shorter h).1
  cases b with
  | nil => simp at hl
  | cons x b =>
    rw [readFrames, List.length_cons, readFramesAux, h]
    dsimp only
    rw [readFrames, frames_fuel b.length rest.length rest (by simp at hl; omega) (Nat.le_refl _)]
    cases readFramesAux rest.length rest <;> rfl

theorem frames_append (k : Nat) : ∀ {a : Bytes} {x : List (UInt8 × Bytes)}, a.length ≤ k → readFrames a = some x → ∀ b,
    readFrames (a ++ b) = (readFrames b).map (x ++ ·) := by
  induction k with
  | zero =>
    intro a x hk ha b
    obtain rfl := List.length_eq_zero_iff.mp (Nat.le_zero.mp hk)
    cases ha
    simp
  | succ k ih =>
    intro a x hk ha b
    cases a with
    | nil => cases ha; simp
    | cons y a =>
      cases hr : readFrame (y :: a) with
      | none => rw [readFrames, List.length_cons, readFramesAux, hr] at ha; cases ha
      | some z =>
        obtain ⟨fr, rest⟩ := z
        rw [frames_cons hr, Option.map_eq_some_iff] at ha
        obtain ⟨x', hx, rfl⟩ := ha
        have := (readFrame_shorter hr).1
        rw [frames_cons (readFrame_more b hr), ih (by omega) hx b, Option.map_map]
        rfl

theorem decode_append {a : Bytes} {x : List ClientMsg} (ha : decodeStream a = some x) (b : Bytes) : decodeStream (a ++ b) = (decodeStream b).map (x ++ ·) := by
  rw [decodeStream, Option.bind_eq_some_iff] at ha
  obtain ⟨fs, h1, h2⟩ := ha
  rw [decodeStream, frames_append _ (Nat.le_refl _) h1, decodeStream]
  cases hb : readFrames b with
  | none => rfl
  | some gs =>
    simp only [Option.map_some, Option.bind_some, List.foldr_append]
    generalize List.foldr _ (some []) gs = r
    clear h1
    induction fs generalizing x with
    | nil => cases h2; cases r <;> rfl
    | cons fr fs ih =>
      simp only [List.foldr_cons] at h2 ⊢
      split at h2
      · rename_i e1 e2
        cases h2
        rw [ih e2]
        cases r with
        | none => simp
        | some r => simp [e1]
      · cases h2

theorem decode_prefix {a b : Bytes} {x y : List ClientMsg} (h : a <+: b) (ha : decodeStream a = some x) (hb : decodeStream b = some y) : x <+: y := by
  obtain ⟨t, rfl⟩ := h
  rw [decode_append ha, Option.map_eq_some_iff] at hb
  obtain ⟨z, -, rfl⟩ := hb
  exact List.prefix_append _ _

theorem readP_suffix (cd : Codec) (ct : UInt8) (size : Nat) (E : IOErr) (p : Bytes) : (readP cd ct size E p).1 <:+ p := by
  fun_induction readP cd ct size E p with
  | case1 => exact List.suffix_refl _
  | case2 => exact List.drop_suffix _ _
  | case3 => exact List.drop_suffix _ _
  | case4 => exact List.nil_suffix
  | case5 => exact List.drop_suffix _ _
  | case6 => dsimp only; split <;> exact List.drop_suffix _ _
  | case7 => rename_i ih; exact ih.trans (List.drop_suffix _ _)

theorem readAllP_suffix (cd : Codec) (size : Nat) (E : IOErr) : ∀ (cts : List UInt8) (p : Bytes), (readAllP cd size E cts p).1 <:+ p := by
  intro cts
  induction cts with
  | nil => intro p; exact List.suffix_refl _
  | cons ct cts ih =>
    intro p
    have h := readP_suffix cd ct size E p
    rw [readAllP]
    split
    · rename_i p' rr he
      rw [he] at h
      exact (ih p').trans h
    · rename_i p' rr e he
      rw [he] at h
      exact h

theorem send_suffix {cd : Codec} {w w' : World} {c c' : Conn} {b : Bytes} {fs : List (UInt8 × Bytes)} {rs : List Response} {e : Option ConnErr}
    (hl : Life cd c.r) (hb : readFrames b = some fs) (h : Conn.send cd w c b = .ok (w', c', rs, e)) : c'.r.pending <:+ c.r.pending := by
  obtain ⟨i1, i2, i3⟩ := life_inv hl
  obtain ⟨r', rs', e', h1, -, -, h2⟩ := readAll_spec cd hb i1 (by omega) i3
  rw [Conn.send] at h
  split at h
  · cases h; exact List.suffix_refl _
  · rw [h1] at h
    cases h
    have := readAllP_suffix cd c.r.size c.r.src.err (fs.map Prod.fst) c.r.pending
    rwa [h2] at this

variable {cd : Codec} {k : Connector} {req : Nat → Bytes} {n : Nat} {conn : Nat → World × Conn} {l : List Act} {s : State}

/-- What the client has read of a connection contains the answers to the calls that were served. -/
theorem exchange_tail (hcd : RejectsHeaders cd) (hreq : ∀ t, ∃ fs, readFrames (req t) = some fs) (h : Run cd k req (init n conn) l s) :
    ∀ {t c : Nat} {w : World} {x : Conn}, Act.opened t c w x ∈ l →
    ∃ rest, Exchange cd req x.r.pending (served c l) rest ∧ (s.conn c).2.r.pending <:+ rest := by
  induction h with
  | nil => simp
  | @snoc s s' l a hr hs ih =>
    intro t0 c w x hm0
    have hI := cinv_run hcd hreq (.snoc hr hs) hm0
    by_cases hF : Failed c (l ++ [a])
    case neg =>
      obtain ⟨rest, h1, h2⟩ := hI.stream
      exact ⟨rest, h1, by rw [h2 hF]; exact List.suffix_refl _⟩
    case pos =>
      obtain ⟨st, st', g1, g2⟩ := stages hr hs c
      by_cases hop : Act.opened t0 c w x ∈ l
      case neg =>
        -- the connection is new
        exfalso
        have ha : a = .opened t0 c w x := by
          rcases List.mem_append.mp hm0 with h | h
          · exact absurd h hop
          · exact (List.mem_singleton.mp h).symm
        subst ha
        have hst : st = .absent := by
          simp only [Act.ev, Spec.Pool.advance, if_true] at g2
          split at g2
          · assumption
          · cases g2
        subst hst
        obtain ⟨t, rs, e, hm⟩ := hF
        rcases List.mem_append.mp hm with h | h
        · exact absurd rfl (stage_absent g1 _ (mem_ev h))
        · simp at h
      case pos =>
        obtain ⟨rest, h1, h2⟩ := ih hop
        by_cases ha : ∃ t rs e, a = .finish t c rs e
        · obtain ⟨t, rs, e, rfl⟩ := ha
          have hst : st = .busy t := by
            simp only [Act.ev, Spec.Pool.advance, if_true] at g2
            split at g2
            · assumption
            · cases g2
          subst hst
          cases e with
          | none =>
            exfalso
            obtain ⟨t', rs', e', hm⟩ := hF
            rcases List.mem_append.mp hm with h | h
            · exact stage_notFailed g1 (t' := t') (mem_ev h)
            · simp at h
          | some e =>
            cases hs with
            | finish h hsend =>
              obtain ⟨fs, hfs⟩ := hreq t
              have := send_suffix (cinv_run hcd hreq hr hop).life hfs hsend
              refine ⟨rest, ?_, ?_⟩
              · rw [served_snoc]; simpa [served] using h1
              · simpa using this.trans h2
        · have hsv : served c [a] = [] := by
            cases a with
            | finish t c' rs e =>
              cases e <;> simp [served]
              rintro rfl
              exact ha ⟨_, _, _, rfl⟩
            | _ => simp [served]
          refine ⟨rest, by rw [served_snoc, hsv]; simpa using h1, ?_⟩
          cases hs with
          | @opened _ t c' w' x' h ho =>
            by_cases hc : c = c'
            · exfalso
              subst hc
              have hst : st = .absent := by
                simp only [Act.ev, Spec.Pool.advance, if_true] at g2
                split at g2
                · assumption
                · cases g2
              subst hst
              exact absurd rfl (stage_absent g1 _ (mem_ev hop))
            · simpa [hc] using h2
          | @finish _ t c' =>
            by_cases hc : c = c'
            · exact absurd ⟨_, _, _, by rw [hc]⟩ ha
            · simpa [hc] using h2
          | @close _ t c' h =>
            by_cases hc : c = c'
            · subst hc; simpa using h2
            · simpa [hc] using h2
          | ret h => exact h2
          | other h he => exact h2

theorem answeredAll_split {cts : List UInt8} {p rest : Bytes} {rs : List Response} (h : AnsweredAll cd cts p rs rest) :
    ∃ a, p = a ++ rest ∧ ∀ q, AnsweredAll cd cts (a ++ q) rs q := by
  induction h with
  | nil => exact ⟨[], rfl, fun q => .nil q⟩
  | cons h he _ ih =>
    obtain ⟨a, rfl, ih⟩ := ih
    obtain ⟨c, rfl, -, h⟩ := answered_split h
    exact ⟨c ++ a, by simp, fun q => by rw [List.append_assoc]; exact .cons (h _) he (ih q)⟩

theorem exchange_cut {p rest : Bytes} {hist : List (Nat × List Response)} (h : Exchange cd req p hist rest) :
    ∃ a, p = a ++ rest ∧ ∀ q, Exchange cd req (a ++ q) hist q := by
  induction h with
  | nil => exact ⟨[], rfl, fun q => .nil q⟩
  | cons hf ha _ ih =>
    obtain ⟨a, rfl, ih⟩ := ih
    obtain ⟨c, rfl, h⟩ := answeredAll_split ha
    exact ⟨c ++ a, by simp, fun q => by rw [List.append_assoc]; exact .cons hf (h _) (ih q)⟩

theorem taken_exchange (hcd : RejectsHeaders cd) (hreq : ∀ t, ∃ fs, readFrames (req t) = some fs) (h : Run cd k req (init n conn) l s)
    {t c : Nat} {w : World} {x : Conn} (ho : Act.opened t c w x ∈ l) : ∃ rest, Exchange cd req (taken x (s.conn c).2) (served c l) rest := by
  obtain ⟨rest, h1, d, rfl⟩ := exchange_tail hcd hreq h ho
  obtain ⟨a, ha, h2⟩ := exchange_cut h1
  have : taken x (s.conn c).2 = a ++ d := by
    rw [taken, ha]
    have : (a ++ (d ++ (s.conn c).2.r.pending)).length - (s.conn c).2.r.pending.length = (a ++ d).length := by simp; omega
    rw [this, ← List.append_assoc, List.take_left]
  exact ⟨d, by rw [this]; exact h2 d⟩

/-! ### the messages belong to calls -/

/-- The answers read by the client, and those given by the server. -/
theorem replies_split {as : List Answer} {rrs : List Response} {full rest : Bytes} (h : Replies cd as rrs full rest) (hn : ∀ rr r, ¬Answered cd rest rr r) :
    ∀ {cts : List UInt8} {rs : List Response} {p p' : Bytes}, AnsweredAll cd cts p rs p' → p <+: full →
    cts.length ≤ as.length ∧ Replies cd (as.take cts.length) rs p p' ∧
    ∃ rrs' full', Replies cd (as.drop cts.length) rrs' full' rest ∧ p' <+: full' := by
  induction h with
  | nil bs =>
    intro cts rs p p' ha hp
    obtain ⟨t, rfl⟩ := hp
    cases ha with
    | nil => exact ⟨Nat.le_refl _, .nil _, [], _, .nil _, List.prefix_append _ _⟩
    | cons h _ _ => exact absurd (answered_more h t) (hn _ _)
  | @cons a as bs bs' rest rr rrs h hst hs ih =>
    intro cts rs p p' ha hp
    cases ha with
    | nil => exact ⟨Nat.zero_le _, .nil _, _, _, .cons h hst hs, hp⟩
    | @cons ct cts _ _ _ _ _ h' _ ha' =>
      obtain ⟨t, rfl⟩ := hp
      obtain ⟨rfl, rfl⟩ := answered_det h (answered_more h' t)
      obtain ⟨i1, i2, rrs', full', i3, i4⟩ := ih hn ha' (List.prefix_append _ _)
      exact ⟨by simpa using i1, .cons h' hst i2, rrs', full', by simpa using i3, i4⟩

/-- call number `i` among these -/
def nth (H : List (Nat × Option (List Response))) (i : Nat) : Nat := (H[i]?.map Prod.fst).getD 0

/-- the number of messages in front of call number `i` -/
def ahead (msgs : Nat → List ClientMsg) (H : List (Nat × Option (List Response))) (i : Nat) : Nat := ((H.take i).flatMap fun y => msgs y.1).length

/-- the calls, by numbers from `base` on -/
def numbered (hist : List (Nat × Option (List Response))) (base : Nat) : List (Nat × Option (List Response)) :=
  (hist.zipIdx base).map fun y => (y.2, y.1.2)

theorem attends_tends {sp : Bool} {script : Nat → Fate} {msgs : Nat → List ClientMsg} (hd : ∀ t, decodeStream (req t) = some (msgs t))
    {H : List (Nat × Option (List Response))} : ∀ (hist : List (Nat × Option (List Response))) (base : Nat) {p full rest : Bytes}
    {rrs : List Response} {ms : List ClientMsg} {s : Session}, hist = H.drop base → Heard cd req p hist →
    ms <+: (hist.flatMap fun y => msgs y.1) → Replies cd (serve sp (fun j => script (ahead msgs H base + j)) ms s).1 rrs full rest →
    (∀ rr r, ¬Answered cd rest rr r) → p <+: full →
    Heard cd (fun i => req (nth H i)) p (numbered hist base) ∧
    ∃ s', Tends cd sp (fun i j => script (ahead msgs H i + j)) (fun i => req (nth H i)) s p ((numbered hist base).map Prod.fst) s' ∧
      s'.durable = (serve sp (fun j => script (ahead msgs H base + j)) ms s).2.durable := by
  intro hist
  induction hist with
  | nil =>
    intro base p full rest rrs ms s _ _ hp _ _ _
    obtain rfl := List.prefix_nil.mp hp
    exact ⟨.nil _, s, .idle _ _, rfl⟩
  | cons y hist ih =>
    intro base p full rest rrs ms s hH hh hms hr hn hp
    have hget : H[base]? = some y := by
      have := congrArg (·[0]?) hH
      simpa using this.symm
    have hnth : nth H base = y.1 := by rw [nth, hget]; rfl
    have hrest : hist = H.drop (base + 1) := by
      have := congrArg List.tail hH
      simpa using this
    cases hh with
    | failed p t =>
      have hnum : numbered [(t, none)] base = [(base, none)] := rfl
      rw [hnum]
      refine ⟨.failed _ _, ?_⟩
      obtain ⟨k, hk⟩ : ∃ k, ms = (msgs t).take k := by
        simp only [List.flatMap_cons, List.flatMap_nil, List.append_nil] at hms
        exact ⟨ms.length, (List.prefix_iff_eq_take.mp hms)⟩
      rw [hk] at hr
      rw [hk]
      refine ⟨_, .last (.lost (k := k) (show decodeStream (req (nth H base)) = some (msgs t) by rw [hnth]; exact hd t) hr hn hp), rfl⟩
    | @cons _ p' t rs fs _ hf ha hh =>
      obtain ⟨fs', hfs, hlen⟩ := stream_frames (hd t)
      rw [hf] at hfs
      cases hfs
      obtain ⟨q1, q2, rrs', full', q3, q4⟩ := replies_split hr hn ha hp
      rw [List.length_map, hlen, serve_length] at q1
      rw [List.length_map, hlen] at q2 q3
      simp only [List.flatMap_cons] at hms
      obtain ⟨ms2, rfl⟩ : ∃ ms2, ms = msgs t ++ ms2 := by
        have h1 : msgs t <+: msgs t ++ hist.flatMap fun y => msgs y.1 := List.prefix_append _ _
        obtain ⟨ms2, h⟩ := List.prefix_of_prefix_length_le h1 hms q1
        exact ⟨ms2, h.symm⟩
      have hms2 : ms2 <+: hist.flatMap fun y => msgs y.1 := by
        obtain ⟨z, hz⟩ := hms
        rw [List.append_assoc] at hz
        exact ⟨z, List.append_cancel_left hz⟩
      have hoff : ∀ j, ahead msgs H base + ((msgs t).length + j) = ahead msgs H (base + 1) + j := by
        intro j
        rw [ahead, ahead, List.take_add_one, hget]
        simp; omega
      rw [serve_append] at q2 q3
      rw [serve_append]
      simp only [hoff] at q2 q3 ⊢
      have hl : (serve sp (fun j => script (ahead msgs H base + j)) (msgs t) s).1.length = (msgs t).length := serve_length _ _ _
      rw [List.take_append_of_le_length (by omega), List.take_of_length_le (by omega)] at q2
      rw [List.drop_append_of_le_length (by omega), List.drop_of_length_le (by omega), List.nil_append] at q3
      obtain ⟨i1, s', i2, i3⟩ := ih (base + 1) hrest hh hms2 q3 hn q4
      have hnum : numbered ((t, some rs) :: hist) base = (base, some rs) :: numbered hist (base + 1) := rfl
      rw [hnum]
      have hfr : readFrames (req (nth H base)) = some fs := by rw [hnth]; exact hf
      have hde : decodeStream (req (nth H base)) = some (msgs t) := by rw [hnth]; exact hd t
      exact ⟨.cons hfr ha i1, s', .next hde q2 i2, i3⟩

theorem decode_calls {msgs : Nat → List ClientMsg} (hd : ∀ t, decodeStream (req t) = some (msgs t)) (H : List (Nat × Option (List Response))) :
    decodeStream (H.flatMap fun y => req y.1) = some (H.flatMap fun y => msgs y.1) := by
  induction H with
  | nil => rfl
  | cons y H ih => rw [List.flatMap_cons, decode_append (hd y.1), ih]; rfl

/-- What was written to a connection are the requests of the calls that used it, the last perhaps in part. -/
theorem written_calls (hcd : RejectsHeaders cd) (hreq : ∀ t, ∃ fs, readFrames (req t) = some fs) (h : Run cd k req (init n conn) l s)
    {t c : Nat} {w : World} {x : Conn} (ho : Act.opened t c w x ∈ l) :
    written ((s.conn c).1.log.drop w.log.length) <+: (ended c l).flatMap fun y => req y.1 := by
  obtain ⟨part, tail, h1, h2, h3, h4⟩ := (cinv_run hcd hreq h ho).log
  obtain ⟨last, e1, e2, e3⟩ := ended_form h c
  have hw : ∀ a b, written (a ++ b) = written a ++ written b := fun a b => by simp [written]
  have htail : written tail = [] := by
    by_cases hc : Closed c l
    · rw [h2 hc]; rfl
    · rw [h3 hc]; rfl
  have hserved : written ((served c l).map fun y => Event.wrote x.transport (req y.1)) = (served c l).flatMap fun y => req y.1 := by
    simp [written, List.flatMap_map]
  rw [h4, List.append_assoc, List.append_assoc, List.drop_left, hw, hw, htail, List.append_nil, hserved, e1, List.flatMap_append, List.flatMap_map]
  refine List.prefix_append_right_inj _ |>.mpr ?_
  rcases h1 with rfl | ⟨t', rs, e, b, hm, hb, rfl⟩
  · exact List.nil_prefix
  · have hmem : (t', none) ∈ ended c l := by
      rw [ended, List.mem_filterMap]
      exact ⟨_, hm, by simp⟩
    rw [e1, List.mem_append] at hmem
    rcases hmem with hmem | hmem
    · simp at hmem
    · rcases e3 with rfl | ⟨t'', rfl⟩
      · cases hmem
      · simp only [List.mem_singleton, Prod.mk.injEq, and_true] at hmem
        subst hmem
        simpa [written] using hb

/-- **C76**, partial, in terms of bytes: behind a connection there is a server that executes the messages it gets, up to some
point, and answers them.  It knows nothing but the bytes written to the connection so far (`Attends`).  If the calls of the
pool ask for units of work, what has become durable in its session is, for each call that used the connection, in turn, as in
`C76_partial`. -/
theorem C76_wire_partial {sp : Bool} {script : Nat → Fate} {op : Nat → Nat} {opening : Nat → List String} {body : Nat → List ClientMsg}
    (hcd : RejectsHeaders cd) (hreq : ∀ t, decodeStream (req t) = some (guarded (op t) (opening t) (body t)))
    (hopen : ∀ t, ∃ level, txOpening level = some (opening t)) (hbody : ∀ t, openBlocks 0 (body t) = some 0 ∧ NoErrorBlocks (body t))
    (hsp : ∀ t, sp = true ∨ ∀ m ∈ body t, isBlock m = false) (hst : ∀ t i, Steady (fun j => script (i + j)) (body t))
    (h : Run cd k req (init n conn) l s) {t0 c : Nat} {w : World} {x : Conn} (ho : Act.opened t0 c w x ∈ l) {s0 s' : Session} (hs : Idle s0)
    (hT : Attends cd sp script s0 (written ((s.conn c).1.log.drop w.log.length)) (taken x (s.conn c).2) s') :
    ∃ pieces : List (List ClientMsg), pieces.length = (ended c l).length ∧ s'.durable = s0.durable ++ pieces.flatten ∧
      ∀ (i : Nat) t r piece, (ended c l)[i]? = some (t, r) → pieces[i]? = some piece →
        Kept r (i + 1 = (ended c l).length)
          (changes (fun j => script (ahead (fun t => guarded (op t) (opening t) (body t)) (ended c l) i + (1 + ((opening t).length + j)))) (body t)) piece := by
  have hfr : ∀ t, ∃ fs, readFrames (req t) = some fs := fun t => (stream_frames (hreq t)).imp fun _ h => h.1
  obtain ⟨b1, ms, rrs, full, rest, hb, hd, hr, hn, hp, hs'⟩ := hT
  have hms := decode_prefix (hb.trans (written_calls hcd hfr h ho)) hd (decode_calls hreq _)
  obtain ⟨q, hx⟩ := taken_exchange hcd hfr h ho
  obtain ⟨tail, e1, -, e2⟩ := ended_form h c
  have hh : Heard cd req (taken x (s.conn c).2) (ended c l) := e1 ▸ exchange_heard hx e2
  obtain ⟨g1, s1, g2, g3⟩ := attends_tends (H := ended c l) hreq (ended c l) 0 (script := script) (s := s0) rfl hh hms
    (by simpa [ahead] using hr) hn hp
  let J : Nat → Job := fun i => ⟨op (nth (ended c l) i), opening (nth (ended c l) i), body (nth (ended c l) i),
    fun j => script (ahead (fun t => guarded (op t) (opening t) (body t)) (ended c l) i + j), false⟩
  have hJ : Units sp (fun i => req (nth (ended c l) i)) J := fun i =>
    ⟨hreq _, ⟨hopen _, (hbody _).1, (hbody _).2, by
      have := hst (nth (ended c l) i) (ahead (fun t => guarded (op t) (opening t) (body t)) (ended c l) i + (1 + (opening (nth (ended c l) i)).length))
      simp only [Nat.add_assoc] at this
      exact this, hsp _⟩, rfl⟩
  obtain ⟨first, pieces, k1, -, k2, k3, k4⟩ := tends_kept hJ g2 hs.1 _ rfl g1
  have hlen : (numbered (ended c l) 0).length = (ended c l).length := by simp [numbered]
  obtain rfl : first = [] := by
    rcases k1 with k1 | ⟨q, k1, -⟩
    · exact k1
    · rw [hs.2] at k1; cases k1
  refine ⟨pieces, by rw [k2, hlen], ?_, ?_⟩
  · have : s'.durable = s1.durable := by
      rw [g3]
      have e : (fun j => script (ahead (fun t => guarded (op t) (opening t) (body t)) (ended c l) 0 + j)) = script := by simp [ahead]
      rw [e]
      rcases hs' with rfl | rfl <;> rfl
    rw [this]
    simpa using k3
  · intro i t r piece hi hpi
    have hi' : (numbered (ended c l) 0)[i]? = some (i, r) := by simp [numbered, hi]
    have := k4 i i r piece hi' hpi
    rw [hlen] at this
    have hnth : nth (ended c l) i = t := by rw [nth, hi]; rfl
    simp only [J, hnth] at this
    exact this

/-! ### a case -/

def logOf : Act → Option (List Event × Bytes)
  | .opened _ _ w x => some (w.log, x.r.pending)
  | _ => none

set_option synthInstance.maxSize 1024 in
theorem doSys_wire : (playC connCodec poolK reqSys envSys initPool doSys).map (fun y =>
      ((y.1.filterMap logOf).map (fun z => written ((y.2.conn 0).1.log.drop z.1.length)),
        (y.1.filterMap openedOn).map (fun z => z.2.2.take (z.2.2.length - (y.2.conn 0).2.r.pending.length)),
        (y.1.filterMap openedOn).map (fun z => (z.1, z.2.1)), ended 0 y.1)) =
    some ([reqSys 0 ++ reqSys 1], [answers0 ++ answers1], [(0, 0)],
      [(0, some [.ok, .ok, .ok, errSys, errSys, errSys]), (1, some [.ok, .ok, .ok, .ok, .ok, .ok])]) := by
  decide +kernel

theorem wire_sys : ∃ l s t w x, Run connCodec poolK reqSys initPool l s ∧ Act.opened t 0 w x ∈ l ∧
    written ((s.conn 0).1.log.drop w.log.length) = reqSys 0 ++ reqSys 1 ∧ taken x (s.conn 0).2 = answers0 ++ answers1 ∧
    ended 0 l = [(0, some [.ok, .ok, .ok, errSys, errSys, errSys]), (1, some [.ok, .ok, .ok, .ok, .ok, .ok])] := by
  have h := doSys_wire
  rw [Option.map_eq_some_iff] at h
  obtain ⟨⟨l, s⟩, h1, h2⟩ := h
  simp only [Prod.mk.injEq] at h2
  obtain ⟨h2, h3, h4, h5⟩ := h2
  have hE : ∀ c, Streams (envSys c) := fun c => envEx_streams _ (by simp) (by simp [deniesEx])
  have hrun : Run connCodec poolK reqSys initPool l s := playC_run (env := envSys) (fun _ => rfl) hE h1
  have m1 : (0, 0) ∈ (l.filterMap openedOn).map (fun z => (z.1, z.2.1)) := by rw [h4]; simp
  obtain ⟨z, hz, he⟩ := List.mem_map.mp m1
  obtain ⟨a, ha, hf⟩ := List.mem_filterMap.mp hz
  cases a with
  | opened t c w x =>
    simp only [openedOn, Option.some.injEq] at hf
    subst hf
    simp only [Prod.mk.injEq] at he
    obtain ⟨rfl, rfl⟩ := he
    refine ⟨l, s, _, w, x, hrun, ha, ?_, ?_, h5⟩
    · have : written ((s.conn 0).1.log.drop w.log.length) ∈ (l.filterMap logOf).map (fun z => written ((s.conn 0).1.log.drop z.1.length)) :=
        List.mem_map.mpr ⟨(w.log, x.r.pending), List.mem_filterMap.mpr ⟨_, ha, rfl⟩, rfl⟩
      rw [h2] at this
      simpa using this
    · have : taken x (s.conn 0).2 ∈ (l.filterMap openedOn).map (fun z => z.2.2.take (z.2.2.length - (s.conn 0).2.r.pending.length)) :=
        List.mem_map.mpr ⟨_, hz, rfl⟩
      rw [h3] at this
      simpa using this
  | _ => cases hf

/-- The server behind it: the fourth message fails. -/
theorem attends_sys (sp : Bool) : Attends connCodec sp (failsAt 3) freshSession (reqSys 0 ++ reqSys 1) (answers0 ++ answers1) endSys := by
  have hd : decodeStream (reqSys 0 ++ reqSys 1) = some (guarded 0 ["START TRANSACTION"] [deleteEx, insertEx] ++
      guarded 0 ["START TRANSACTION"] [deleteEx, insertEx]) := by
    rw [decode_append (jobSys_units sp 0).1, show decodeStream (reqSys 1) = _ from (jobSys_units sp 1).1]
    rfl
  have e : serve sp (failsAt 3) (guarded 0 ["START TRANSACTION"] [deleteEx, insertEx] ++
      guarded 0 ["START TRANSACTION"] [deleteEx, insertEx]) freshSession =
      ([.ok, .ok, .ok, .failed, .skipped, .failed] ++ [.ok, .ok, .ok, .ok, .ok, .ok], endSys) := by cases sp <;> rfl
  obtain ⟨rrs, hr⟩ := replies_sys ([.ok, .ok, .ok, .failed, .skipped, .failed] ++ [.ok, .ok, .ok, .ok, .ok, .ok]) []
  refine ⟨_, _, rrs, _, [], List.prefix_refl _, hd, by rw [e]; exact hr, ?_, ?_, .inl (by rw [e])⟩
  · intro rr r h
    obtain ⟨c, hc, hl, -⟩ := answered_split h
    have := congrArg List.length hc
    simp at this
    omega
  · rw [List.append_nil, List.flatMap_append]
    exact List.prefix_refl _

/-- The hypotheses of `C76_wire_partial` are met. -/
example : ∃ p0 p1, endSys.durable = p0 ++ p1 ∧ p1 = [deleteEx, insertEx] := by
  obtain ⟨l, s, t, w, x, hr, ho, h1, h2, h3⟩ := wire_sys
  obtain ⟨pieces, k1, k2, k3⟩ := C76_wire_partial (sp := true) (script := failsAt 3) (op := fun _ => 0) (opening := fun _ => ["START TRANSACTION"])
    (body := fun _ => [deleteEx, insertEx]) connCodec_rejects (fun t => (jobSys_units true t).1) (fun _ => ⟨0, rfl⟩)
    (fun _ => ⟨rfl, fun _ _ h => by simp [deleteEx, insertEx] at h⟩) (fun _ => .inl rfl) (fun _ _ => ⟨.inl rfl, .inl rfl, trivial⟩)
    hr ho (s0 := freshSession) ⟨rfl, rfl⟩ (by rw [h1, h2]; exact attends_sys true)
  rw [h3] at k1 k3
  obtain ⟨p0, p1, rfl⟩ : ∃ a b, pieces = [a, b] := by
    match pieces, k1 with
    | [a, b], _ => exact ⟨a, b, rfl⟩
  exact ⟨p0, p1, by simpa [freshSession] using k2, (k3 1 1 _ p1 rfl rfl).2.1 _ rfl (by simp)⟩

end Verif.Props
