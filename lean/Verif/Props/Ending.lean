import Verif.Spec.Ending
import Verif.Props.Connection
/-! C83: what the error of a cut stream says. -/
namespace Verif.Props
open Verif.Go Verif.Spec Verif.Model Verif.Proof

variable {cd : Codec} {w w' : World} {c c' : Conn} {b : Bytes} {rs : List Response}

/-- **C83**, as it should be: whatever was answered before, if the stream ends before the answer to a message is complete,
`Send` returns the responses so far, `nil` for that message, and an error from which the caller can tell whether the stream
ended between messages or within one. -/
def C83_full : Prop :=
  ∀ (cd : Codec) (w : World) (c : Conn) (b : Bytes) (fs fs' : List (UInt8 × Bytes)) (f m : UInt8 × Bytes) (mid tail : Bytes) (before : List Response),
    Writable w → Life cd c.r → readFrames b = some (fs ++ f :: fs') → AnsweredAll cd (fs.map Prod.fst) c.r.pending before mid →
    Skips cd mid tail → Begun tail m →
    ∃ w' c', Conn.send cd w c b = .ok (w', c', before ++ [.ok], some (.read (.io (endOf c.r.src.err tail))))

/-- What the code says instead. -/
def saysEnd (E : IOErr) (tail : Bytes) (m : UInt8 × Bytes) : IOErr :=
  if E = .eof ∧ 5 < tail.length ∧ 4096 < m.2.length then .unexpectedEOF else E

theorem begun_noframe {tail : Bytes} {m : UInt8 × Bytes} (h : Begun tail m) : readFrame tail = none := by
  obtain ⟨more, hm, h⟩ := h
  cases hq : readFrame tail with
  | none => rfl
  | some x =>
    have := readFrame_append (m := x.1) (rest := x.2) hq more
    rw [h] at this
    simp only [Option.some.injEq, Prod.mk.injEq] at this
    exact absurd (List.append_eq_nil_iff.mp this.2.symm).2 hm

theorem readP_begun (cd : Codec) (ct : UInt8) (E : IOErr) {tail : Bytes} {m : UInt8 × Bytes} (h : Begun tail m) :
    (readP cd ct 4096 E tail).2 = (.ok, some (.io (saysEnd E tail m))) := by
  have hn := begun_noframe h
  obtain ⟨more, hm, h⟩ := h
  obtain ⟨h1, h2, h3, h4, h5⟩ := readFrame_iff.mp h
  rw [readP]
  by_cases hl : tail.length < 5
  · rw [if_pos hl, saysEnd, if_neg (by omega)]
  · rw [le32_append (by omega)] at h2 h3 h4
    have hlen : m.2.length = le32 tail - 1 := by rw [h4, List.length_take]; omega
    have hs : (tail.drop 5).length < le32 tail - 1 := by
      apply Nat.lt_of_not_le
      intro hle
      have := readFrame_iff.mpr ⟨by omega, h2, hle, rfl, rfl⟩
      rw [hn] at this
      cases this
    rw [if_neg hl]
    dsimp only
    rw [if_neg (by omega), if_pos hs, saysEnd, hlen]
    by_cases hz : le32 tail - 1 ≤ 4096
    · rw [if_pos hz, if_neg (by omega)]
    · rw [if_neg hz, shortErr]
      by_cases hE : E = .eof
      · by_cases h5 : tail.length = 5
        · rw [if_pos hE, if_pos (by simp [h5]), if_neg (by omega)]; simp [hE]
        · rw [if_pos hE, if_neg (by simp; omega), if_pos ⟨hE, by omega, by omega⟩]
      · rw [if_neg hE, if_neg (by simp [hE])]

theorem readP_skips (cd : Codec) (ct : UInt8) (E : IOErr) {bs tail : Bytes} (h : Skips cd bs tail) :
    readP cd ct 4096 E bs = readP cd ct 4096 E tail := by
  induction h with
  | done => rfl
  | more hf hm _ ih => rw [readP_frame cd ct _ E hf, act_intermediate cd ct hm hf]; exact ih

/-- **C83**, what is true: the responses are as they should be, and so is the error unless the stream ended (`io.EOF`) within a
message.  Then it is `io.ErrUnexpectedEOF` only for messages of more than 4096 bytes of which something came behind the
header, and `io.EOF` for all others. -/
theorem C83_exact (hw : Writable w) (hc : Life cd c.r) {fs fs' : List (UInt8 × Bytes)} {f m : UInt8 × Bytes}
    (hb : readFrames b = some (fs ++ f :: fs')) {mid tail : Bytes} {before : List Response}
    (ha : AnsweredAll cd (fs.map Prod.fst) c.r.pending before mid) (hs : Skips cd mid tail) (ht : Begun tail m) :
    ∃ w' c', Conn.send cd w c b = .ok (w', c', before ++ [.ok], some (.read (.io (saysEnd c.r.src.err tail m)))) := by
  obtain ⟨r', rs, e, h1, h2⟩ := send_ok cd hw hc hb
  have h4 : (readAllP cd 4096 c.r.src.err (f.1 :: fs'.map Prod.fst) mid).2 = ([.ok], some (.io (saysEnd c.r.src.err tail m))) := by
    have := readP_begun cd f.1 c.r.src.err ht
    rw [← readP_skips cd f.1 c.r.src.err hs] at this
    rw [readAllP]
    obtain ⟨p', rr', e', hq⟩ : ∃ p' rr e, readP cd f.1 4096 c.r.src.err mid = (p', rr, e) := ⟨_, _, _, rfl⟩
    rw [hq] at this ⊢
    cases this
    rfl
  rw [(life_inv hc).2.1, List.map_append, List.map_cons, readAllP_append cd _ _ ha] at h2
  have h5 := congrArg Prod.snd h2
  simp only [h4] at h5
  cases h5
  exact ⟨_, _, h1⟩

/-- **C83**, part: the error is as it should be if the network reports something else than the end of the stream, if the stream ends
between messages, and within messages of more than 4096 bytes behind their headers.  Missing: all other messages, for which the
code says `io.EOF`. -/
theorem C83_partial (hw : Writable w) (hc : Life cd c.r) {fs fs' : List (UInt8 × Bytes)} {f m : UInt8 × Bytes}
    (hb : readFrames b = some (fs ++ f :: fs')) {mid tail : Bytes} {before : List Response}
    (ha : AnsweredAll cd (fs.map Prod.fst) c.r.pending before mid) (hs : Skips cd mid tail) (ht : Begun tail m)
    (hok : c.r.src.err ≠ .eof ∨ tail = [] ∨ 5 < tail.length ∧ 4096 < m.2.length) :
    ∃ w' c', Conn.send cd w c b = .ok (w', c', before ++ [.ok], some (.read (.io (endOf c.r.src.err tail)))) := by
  obtain ⟨w', c', h⟩ := C83_exact hw hc hb ha hs ht
  refine ⟨w', c', ?_⟩
  rw [h, endOf, saysEnd]
  rcases hok with h | h | ⟨h, h'⟩
  · simp [h]
  · simp [h]
  · have : tail ≠ [] := by rintro rfl; simp at h
    simp [h, h', this]

/-- The first two bytes of an Ok, then the end of the stream. -/
def cutEx : Conn := Conn.new .tcp ⟨[[1, 0]], .eof, false⟩

/-- **C83** is false: the stream ends within the header of a message, and `Send` says `io.EOF`. -/
theorem C83_wrong : ¬C83_full := by
  intro h
  obtain ⟨w', c', h⟩ := h toyCodec calm cutEx [1, 0, 0, 0, 12] [] [] (12, []) (0, []) [1, 0] [1, 0] [] ⟨rfl, rfl⟩
    (.new _ _ (by simp)) (by decide +kernel) (.nil _) (.done _) ⟨[0, 0, 0], by simp, by decide +kernel⟩
  have : (Conn.send toyCodec calm cutEx [1, 0, 0, 0, 12]).toOption.map (·.2.2.2) = some (some (.read (.io .eof))) := by decide +kernel
  rw [h] at this
  cases this

/-- The hypotheses of `C83_exact` are met: two messages, the first is answered; a notice, and five bytes of a row announced as
6000 bytes, one of them of the payload: here `Send` says `io.ErrUnexpectedEOF`, and `io.EOF` without that byte. -/
def rowEx (cut : Bytes) : Conn := Conn.new .tcp ⟨[[1, 0, 0, 0, 0], [2, 0, 0, 0, 11, 7] ++ cut], .eof, false⟩

example : ((List.range 3).map fun k => (Conn.send toyCodec calm (rowEx ([112, 23, 0, 0, 13, 9].take (4 + k))) [1, 0, 0, 0, 12, 1, 0, 0, 0, 12]).toOption.map
      (fun x => (x.2.2.1, x.2.2.2))) =
    [some ([.ok, .ok], some (.read (.io .eof))), some ([.ok, .ok], some (.read (.io .eof))),
      some ([.ok, .ok], some (.read (.io .unexpectedEOF)))] := by decide +kernel

/-- A stream that ends within a payload begins a message. -/
theorem begun_of_short {p : Bytes} (h5 : 5 ≤ p.length) (h1 : 1 ≤ le32 p) (hs : (p.drop 5).length < le32 p - 1) : ∃ m, Begun p m := by
  refine ⟨_, List.replicate (le32 p - 1 - (p.drop 5).length) 0, ?_, readFrame_iff.mpr ⟨by simp; omega, ?_, ?_, rfl, ?_⟩⟩
  · intro h
    have := congrArg List.length h
    simp at this hs
    omega
  · rw [le32_append (by omega)]; exact h1
  · rw [le32_append (by omega)]; simp at hs ⊢; omega
  · rw [le32_append (by omega)]
    symm
    apply List.drop_eq_nil_of_le
    simp at hs ⊢
    omega

example : AnsweredAll toyCodec [12] (rowEx [112, 23, 0, 0, 13, 9]).r.pending [.ok] [2, 0, 0, 0, 11, 7, 112, 23, 0, 0, 13, 9] ∧
    Skips toyCodec [2, 0, 0, 0, 11, 7, 112, 23, 0, 0, 13, 9] [112, 23, 0, 0, 13, 9] ∧ ∃ m, Begun [112, 23, 0, 0, 13, 9] m :=
  ⟨.cons (.last (m := (0, [])) (by decide +kernel) (.ok (.inl rfl))) id (.nil _),
    .more (m := (11, [7])) (by decide +kernel) (by simp [Intermediate]) (.done _),
    begun_of_short (by decide) (by decide) (by decide)⟩

/-! ### C84 -/

theorem le32_zero {p : Bytes} (h5 : 5 ≤ p.length) (h : le32 p < 1) : ∃ t rest, p = 0 :: 0 :: 0 :: 0 :: t :: rest := by
  match p, h5 with
  | a :: b :: c :: d :: t :: r, _ =>
    rw [le32_cons] at h
    have ea : a = 0 := UInt8.toNat_inj.mp (by show a.toNat = 0; omega)
    have eb : b = 0 := UInt8.toNat_inj.mp (by show b.toNat = 0; omega)
    have ec : c = 0 := UInt8.toNat_inj.mp (by show c.toNat = 0; omega)
    have ed : d = 0 := UInt8.toNat_inj.mp (by show d.toNat = 0; omega)
    exact ⟨t, r, by simp [ea, eb, ec, ed]⟩

theorem readP_cause (hcd : RejectsHeaders cd) (ct : UInt8) (E : IOErr) (k : Nat) : ∀ {p rest : Bytes} {rr : Response} {e : ReadErr}, p.length ≤ k →
    readP cd ct 4096 E p = (rest, rr, some e) → ∃ tail, Skips cd p tail ∧ Cause cd ct E tail e := by
  induction k with
  | zero =>
    intro p rest rr e hk h
    rw [readP, if_pos (by omega)] at h
    cases h
    exact ⟨p, .done p, .header (by omega)⟩
  | succ k ih =>
    intro p rest rr e hk h
    cases hf : readFrame p with
    | none =>
      by_cases h5 : p.length < 5
      · rw [readP, if_pos h5] at h
        cases h
        exact ⟨p, .done p, .header h5⟩
      · by_cases h1 : le32 p < 1
        · obtain ⟨t, r, rfl⟩ := le32_zero (by omega) h1
          rw [readP, if_neg h5] at h
          dsimp only at h
          rw [if_pos h1] at h
          cases h
          exact ⟨_, .done _, .zero t r⟩
        · have hs : (p.drop 5).length < le32 p - 1 := by
            apply Nat.lt_of_not_le
            intro hle
            have := readFrame_iff.mpr ⟨by omega, by omega, hle, rfl, rfl⟩
            rw [hf] at this
            cases this
          obtain ⟨m, hm⟩ := begun_of_short (by omega) (by omega) hs
          have := readP_begun cd ct E hm
          rw [h] at this
          cases this
          exact ⟨p, .done p, .payload (by omega) hm⟩
    | some mr =>
      obtain ⟨m, r1⟩ := mr
      rw [readP_frame cd ct _ E hf] at h
      obtain ⟨t, q⟩ := m
      have hseen : q = [] → seen p (t, q) = [1, 0, 0, 0, t] := fun hq => seen_empty hf hq
      have hseen' : q ≠ [] → seen p (t, q) = q := fun hq => if_neg hq
      have none_of : ∀ {α : Type} (f : Bytes → Option α), (∀ t, f [1, 0, 0, 0, t] = none) → f (seen p (t, q)) = none → q = [] ∨ f q = none := by
        intro α f _ hn
        by_cases hq : q = []
        · exact .inl hq
        · rw [hseen' hq] at hn; exact .inr hn
      have some_of : ∀ {α : Type} (f : Bytes → Option α) {x : α}, (∀ t, f [1, 0, 0, 0, t] = none) → f (seen p (t, q)) = some x → q ≠ [] ∧ f q = some x := by
        intro α f x h0 hn
        by_cases hq : q = []
        · rw [hseen hq, h0] at hn; cases hn
        · rw [hseen' hq] at hn; exact ⟨hq, hn⟩
      have typ : ∀ {n : Nat}, n < 256 → t.toNat = n → t = UInt8.ofNat n := fun hn h => (toNat_eq hn).mp h
      cases ha : act cd ct t.toNat (seen p (t, q)) with
      | next =>
        rw [ha] at h
        have hs := (readFrame_shorter hf).1
        obtain ⟨tail, a, b⟩ := ih (by omega) h
        exact ⟨tail, .more hf (next_intermediate hcd hf ha) a, b⟩
      | stuck e' =>
        rw [ha] at h
        cases h
        unfold act at ha
        split at ha
        · cases ha
        split at ha
        · rename_i h12
          obtain rfl := typ (by omega) h12
          split at ha
          · cases ha
          · rename_i hc
            cases ha
            refine ⟨p, .done p, .columnMeta hf ?_⟩
            by_cases hq : q = []
            · exact .inl hq
            · rw [hseen' hq] at hc; exact .inr (by simpa using hc)
        · repeat' (split at ha)
          all_goals cases ha
      | done rr' e' =>
        rw [ha] at h
        cases h
        unfold act at ha
        split at ha
        · cases ha
        split at ha
        · split at ha <;> cases ha
        split at ha
        · rename_i h1
          obtain rfl := typ (by omega) h1
          split at ha
          · rename_i hn
            cases ha
            exact ⟨p, .done p, .badError hf (none_of _ (fun t => (hcd t).1) hn)⟩
          · rename_i x hx
            obtain ⟨g1, g2⟩ := some_of _ (fun t => (hcd t).1) hx
            split at ha
            · rename_i hfat
              cases ha
              exact ⟨p, .done p, .error hf g1 g2 (.inl (isFatal_iff.mp hfat))⟩
            · split at ha
              · rename_i hct
                cases ha
                refine ⟨p, .done p, .error hf g1 g2 (.inr ?_)⟩
                rcases hct with h | h | h <;> simp [h]
              · cases ha
        split at ha
        · cases ha
        split at ha
        · rename_i h3
          obtain rfl := typ (by omega) h3
          split at ha
          · rename_i hct
            cases ha
            exact ⟨p, .done p, .unasked hf hct⟩
          · rename_i hct
            have hct : ct = 4 := by simpa using hct
            split at ha
            · rename_i hn
              cases ha
              exact ⟨p, .done p, .badContinue hf hct (none_of _ (fun t => (hcd t).2.2) hn)⟩
            · rename_i x hx
              cases ha
              obtain ⟨g1, g2⟩ := some_of _ (fun t => (hcd t).2.2) hx
              exact ⟨p, .done p, .challenge hf hct g1 g2⟩
        · cases ha

theorem cause_readP (hcd : RejectsHeaders cd) (ct : UInt8) (E : IOErr) {tail : Bytes} {e : ReadErr} (h : Cause cd ct E tail e) :
    (readP cd ct 4096 E tail).2.2 = some e := by
  have hseen : ∀ {p rest q : Bytes} {t : UInt8}, readFrame p = some ((t, q), rest) → seen p (t, q) = if q = [] then [1, 0, 0, 0, t] else q := by
    intro p rest q t hf
    split
    · rename_i hq; exact seen_empty hf hq
    · rename_i hq; exact if_neg hq
  cases h with
  | header h => rw [readP, if_pos h]
  | payload h5 h => rw [readP_begun cd ct E h]; rfl
  | zero t rest =>
    rw [readP, if_neg (by simp)]
    dsimp only
    rw [if_pos (by rw [le32_cons]; decide)]
  | @columnMeta _ _ q hf h =>
    have : cd.columnMeta (seen tail (12, q)) = false := by
      rw [hseen hf]
      split
      · exact (hcd 12).2.1
      · rename_i hq; exact h.resolve_left hq
    rw [readP_frame cd ct _ E hf]
    simp [act, this]
  | @badError _ _ q hf h =>
    have : cd.error (seen tail (1, q)) = none := by
      rw [hseen hf]
      split
      · exact (hcd 1).1
      · rename_i hq; exact h.resolve_left hq
    rw [readP_frame cd ct _ E hf]
    simp [act, this]
  | error hf hp h he =>
    have ht := act_terminal cd ct (.error hp h) hf
    rw [readP_frame cd ct _ E hf, ht]
    exact if_pos he
  | unasked hf h =>
    rw [readP_frame cd ct _ E hf]
    simp [act, h]
  | @badContinue _ _ q hf hc h =>
    have : cd.authContinue (seen tail (3, q)) = none := by
      rw [hseen hf]
      split
      · exact (hcd 3).2.2
      · rename_i hq; exact h.resolve_left hq
    rw [readP_frame cd ct _ E hf]
    simp [act, this, hc]
  | @challenge _ _ q _ hf hc hp h =>
    have : seen tail (3, q) = _ := if_neg hp
    rw [readP_frame cd ct _ E hf]
    simp [act, this, hc, h]

/-- The response that goes with an error is the error of the server, if it is one. -/
theorem readP_rr {ct : UInt8} {size : Nat} {E : IOErr} {p p' : Bytes} {rr : Response} {e : ReadErr} (h : readP cd ct size E p = (p', rr, some e))
    (se : SrvError) : rr = .error se ↔ e = .mysqlx se := by
  fun_induction readP cd ct size E p with
  | case1 => cases h; simp
  | case2 => cases h; simp
  | case3 => cases h; simp
  | case4 => cases h; simp
  | case5 p _ _ _ _ rr' e' ha =>
    cases h
    unfold act at ha
    repeat' (split at ha)
    all_goals cases ha
    all_goals simp
  | case6 p _ _ _ _ e' ha =>
    cases h
    unfold act at ha
    repeat' (split at ha)
    all_goals cases ha
    all_goals simp
  | case7 _ _ _ _ _ _ ih => exact ih h

theorem readAllP_error (hcd : RejectsHeaders cd) {E : IOErr} {e : ReadErr} {rest : Bytes} : ∀ {fs : List (UInt8 × Bytes)} {p : Bytes} {rs : List Response},
    readAllP cd 4096 E (fs.map Prod.fst) p = (rest, rs, some e) →
    ∃ done f todo before rr mid tail, fs = done ++ f :: todo ∧ rs = before ++ [rr] ∧ AnsweredAll cd (done.map Prod.fst) p before mid ∧
      Skips cd mid tail ∧ Cause cd f.1 E tail e := by
  intro fs
  induction fs with
  | nil => intro p rs h; cases h
  | cons f fs ih =>
    intro p rs h
    rw [List.map_cons, readAllP] at h
    obtain ⟨p', rr, e', hp⟩ : ∃ p' rr e, readP cd f.1 4096 E p = (p', rr, e) := ⟨_, _, _, rfl⟩
    rw [hp] at h
    cases e' with
    | some e' =>
      cases h
      obtain ⟨tail, a, b⟩ := readP_cause hcd f.1 E p.length (Nat.le_refl _) hp
      exact ⟨[], f, fs, [], rr, p, tail, rfl, rfl, .nil p, a, b⟩
    | none =>
      dsimp only at h
      obtain ⟨q, rs', e'', hq⟩ : ∃ q rs e, readAllP cd 4096 E (fs.map Prod.fst) p' = (q, rs, e) := ⟨_, _, _, rfl⟩
      rw [hq] at h
      cases h
      obtain ⟨done, f', todo, before, rr', mid, tail, rfl, rfl, a, b, d⟩ := ih hq
      obtain ⟨x, y⟩ := read_answered hcd f.1 4096 E p.length (Nat.le_refl _) hp (.inl rfl)
      refine ⟨f :: done, f', todo, rr :: before, rr', mid, tail, rfl, rfl, .cons x ?_ a, b, d⟩
      cases rr with
      | ok => exact id
      | error e => intro he; unfold Ends at he; rw [endErr, if_pos he] at y; cases y

/-- **C84.** An error of `Send` says what the server did, whatever it sends, in whatever pieces, and however the stream ends.  If
`Send` fails after the request was written, there is a first message without a proper answer: those before it were answered,
and their answers are the responses; behind the intermediate messages of its answer comes what the error says. -/
theorem C84_cause (hcd : RejectsHeaders cd) (hw : Writable w) (hc : Life cd c.r) {fs : List (UInt8 × Bytes)} (hb : readFrames b = some fs)
    {x : ConnErr} (h : Conn.send cd w c b = .ok (w', c', rs, some x)) :
    ∃ e done f todo before rr mid tail, x = .read e ∧ fs = done ++ f :: todo ∧ rs = before ++ [rr] ∧
      AnsweredAll cd (done.map Prod.fst) c.r.pending before mid ∧ Skips cd mid tail ∧ Cause cd f.1 c.r.src.err tail e := by
  obtain ⟨r', rs', e, h1, h2⟩ := send_ok cd hw hc hb
  rw [h] at h1
  simp only [Except.ok.injEq, Prod.mk.injEq] at h1
  obtain ⟨-, -, rfl, h1⟩ := h1
  cases e with
  | none => cases h1
  | some e =>
    cases h1
    rw [(life_inv hc).2.1] at h2
    obtain ⟨done, f, todo, before, rr, mid, tail, h⟩ := readAllP_error hcd h2
    exact ⟨e, done, f, todo, before, rr, mid, tail, rfl, h⟩

/-- Two messages; the second is answered with a row and a challenge that nobody asked for: the request was for statements. -/
def oddEx : Conn := Conn.new .tcp ⟨[[1, 0, 0, 0, 17, 2, 0, 0], [0, 13, 5, 3, 0, 0, 0, 3, 10, 1]], .eof, false⟩

example : (Conn.send toyCodec calm oddEx [1, 0, 0, 0, 12, 1, 0, 0, 0, 12]).toOption.map (fun x => (x.2.2.1, x.2.2.2)) =
    some ([.ok, .ok], some (.read .unexpectedContinue)) := by decide +kernel

example : AnsweredAll toyCodec [12] oddEx.r.pending [.ok] [2, 0, 0, 0, 13, 5, 3, 0, 0, 0, 3, 10, 1] ∧
    Skips toyCodec [2, 0, 0, 0, 13, 5, 3, 0, 0, 0, 3, 10, 1] [3, 0, 0, 0, 3, 10, 1] ∧
    Cause toyCodec 12 .eof [3, 0, 0, 0, 3, 10, 1] .unexpectedContinue :=
  ⟨.cons (.last (m := (17, [])) (by decide +kernel) (.ok (.inr (.inr rfl)))) id (.nil _),
    .more (m := (13, [5])) (by decide +kernel) (by simp [Intermediate]) (.done _),
    .unasked (p := [10, 1]) (rest := []) (by decide +kernel) (by decide)⟩

/-- **C84**, conversely: whatever of this the server does, `Send` says so, and the responses are those before it and one more. -/
theorem C84_said (hcd : RejectsHeaders cd) (hw : Writable w) (hc : Life cd c.r) {done todo : List (UInt8 × Bytes)} {f : UInt8 × Bytes}
    (hb : readFrames b = some (done ++ f :: todo)) {mid tail : Bytes} {before : List Response} {e : ReadErr}
    (ha : AnsweredAll cd (done.map Prod.fst) c.r.pending before mid) (hs : Skips cd mid tail) (he : Cause cd f.1 c.r.src.err tail e) :
    ∃ w' c' rr, Conn.send cd w c b = .ok (w', c', before ++ [rr], some (.read e)) ∧ ∀ se, rr = .error se ↔ e = .mysqlx se := by
  obtain ⟨r', rs, e', h1, h2⟩ := send_ok cd hw hc hb
  have hq := cause_readP hcd f.1 c.r.src.err he
  rw [← readP_skips cd f.1 c.r.src.err hs] at hq
  obtain ⟨p', rr, e'', hp⟩ : ∃ p' rr e, readP cd f.1 4096 c.r.src.err mid = (p', rr, e) := ⟨_, _, _, rfl⟩
  rw [hp] at hq
  cases hq
  have h4 : readAllP cd 4096 c.r.src.err (f.1 :: todo.map Prod.fst) mid = (p', [rr], some e) := by rw [readAllP, hp]
  rw [(life_inv hc).2.1, List.map_append, List.map_cons, readAllP_append cd _ _ ha, h4] at h2
  cases h2
  refine ⟨_, _, rr, h1, fun se => ?_⟩
  exact readP_rr hp se

end Verif.Props
