import Verif.Proof.Calendar
import Verif.Props.Values
/-! C80, C81: which instant a server takes a `time.Time` for, and which time span a `time.Duration`. -/
namespace Verif.Props
open Verif.Go Verif.Spec Verif.Model Verif.Proof Verif.Spec.Calendar Verif.Proof.Calendar

variable {g : Grow} {p : Slice} {tag : UInt8}

/-- The whole of C80: the server takes each time for the instant it is. -/
def C80_full : Prop := ∀ (g : Grow) (p : Slice) (tag : UInt8), SmallTag tag → ∀ (t : GoTime) («at» zone session : Int), Shows t «at» zone →
  ∃ text : Bytes, understood session text = some «at» ∧
    Writes (appendAny g p tag (.time t)) p (fun bs => AnyField tag.toNat bs (.octets text none)) ∧
    Writes (appendExpr g p tag (.time t)) p (fun bs => ExprField tag.toNat bs (.literal (.octets text none)))

theorem understood_fmt {t : GoTime} {«at» zone : Int} (session : Int) (h : Shows t «at» zone) :
    understood session (fmtTime t) = some («at» + (zone - session) * 1000000000) := by
  obtain ⟨y, hy, hp, rfl⟩ := h
  obtain ⟨p1, p2, p3, p4, p5, p6, p7⟩ := hp
  unfold understood
  rw [readDateTime_fmt t, hy]
  simp only
  rw [if_pos ⟨p1, p2, p3, p4, p5, p6⟩]
  simp only [instant, Option.some.injEq]
  generalize dayNumber y t.month.val t.day.val = k
  omega

/-- **C80** (exactly) The server takes a time for an instant that is off by as much as the clocks of the time's location are ahead of those of
the session. -/
theorem C80_shift (ht : SmallTag tag) {t : GoTime} {«at» zone : Int} (session : Int) (h : Shows t «at» zone) :
    ∃ text : Bytes, understood session text = some («at» + (zone - session) * 1000000000) ∧
      Writes (appendAny g p tag (.time t)) p (fun bs => AnyField tag.toNat bs (.octets text none)) ∧
      Writes (appendExpr g p tag (.time t)) p (fun bs => ExprField tag.toNat bs (.literal (.octets text none))) := by
  refine ⟨fmtTime t, understood_fmt session h, scalar_writes ht rfl ?_⟩
  have := fmtTime_length t
  simp only [textLen]; omega

/-- **C80** for times in a location whose clocks show the time of the session.  Missing: all others, see `C80_wrong`. -/
theorem C80_partial (ht : SmallTag tag) {t : GoTime} {«at» zone : Int} (h : Shows t «at» zone) :
    ∃ text : Bytes, understood zone text = some «at» ∧
      Writes (appendAny g p tag (.time t)) p (fun bs => AnyField tag.toNat bs (.octets text none)) ∧
      Writes (appendExpr g p tag (.time t)) p (fun bs => ExprField tag.toNat bs (.literal (.octets text none))) := by
  obtain ⟨text, h1, h2⟩ := C80_shift (g := g) (p := p) ht zone h
  refine ⟨text, ?_, h2⟩
  rw [h1, Int.sub_self, Int.zero_mul, Int.add_zero]

/-- 2020-02-29 23:30:00.5 in UTC -/
def utcTime : GoTime := ⟨2020, 2, 29, 23, 30, 0, 500000000⟩
/-- and a quarter of an hour before, in a location one hour ahead -/
def cetTime : GoTime := ⟨2020, 3, 1, 0, 15, 0, 500000000⟩

theorem utcTime_shows : Shows utcTime 1583019000500000000 0 := by
  refine ⟨2020, by decide, ⟨by decide, by decide, by decide, by decide, by decide, by decide, by decide⟩, ?_⟩
  decide +kernel

theorem cetTime_shows : Shows cetTime 1583018100500000000 3600 := by
  refine ⟨2020, by decide, ⟨by decide, by decide, by decide, by decide, by decide, by decide, by decide⟩, ?_⟩
  decide +kernel

/-- 1970-01-01 is where Unix time begins, and 2001-09-09 01:46:40 is one thousand million seconds later. -/
example : instant 0 1970 1 1 0 0 0 0 = 0 ∧ instant 0 2001 9 9 1 46 40 0 = 1000000000 * 1000000000 := by decide +kernel

/-- what was written has one meaning -/
theorem time_text {t : GoTime} {text : Bytes}
    (h : Writes (appendAny grow0 ⟨[], []⟩ 2 (.time t)) ⟨[], []⟩ (fun bs => AnyField (2 : UInt8).toNat bs (.octets text none)))
    (hw : written (appendAny grow0 ⟨[], []⟩ 2 (.time t)) ≠ none) : text = fmtTime t := by
  have h' := (scalar_writes (g := grow0) (p := ⟨[], []⟩) (tag := 2) ⟨by decide, by decide⟩ (v := .time t) (s := .octets (fmtTime t) none) rfl
    (by have := fmtTime_length t; simp only [textLen]; omega)).1
  rcases h with hw1 | ⟨bs, sp, hw1, b1, hb1, hd1⟩
  · rw [hw1] at hw; exact absurd rfl hw
  rcases h' with hw2 | ⟨bs', sp', hw2, b2, hb2, hd2⟩
  · rw [hw1] at hw2; cases hw2
  rw [hw1] at hw2; cases hw2
  rw [hb1] at hb2; cases hb2
  rw [hd1] at hd2; cases hd2
  rfl

/-- **C80** is false: in a session with time zone UTC, a time in a location one hour ahead is taken for an hour later. -/
theorem C80_wrong : ¬C80_full := by
  intro hf
  obtain ⟨text, h1, h2, -⟩ := hf grow0 ⟨[], []⟩ 2 ⟨by decide, by decide⟩ cetTime _ _ 0 cetTime_shows
  rw [time_text h2 (by decide +kernel), understood_fmt 0 cetTime_shows] at h1
  cases h1

/-- **C80** Times in locations whose clocks show the same keep their order: the one that is earlier has the lesser text (byte by byte),
and the texts are equal only if the instants are. -/
theorem C80_order (ht : SmallTag tag) {t u : GoTime} {a b zone : Int} (h1 : Shows t a zone) (h2 : Shows u b zone) :
    ∃ text text' : Bytes, (textLess text text' = true ↔ a < b) ∧ (text = text' ↔ a = b) ∧
      Writes (appendAny g p tag (.time t)) p (fun bs => AnyField tag.toNat bs (.octets text none)) ∧
      Writes (appendExpr g p tag (.time t)) p (fun bs => ExprField tag.toNat bs (.literal (.octets text none))) ∧
      Writes (appendAny g p tag (.time u)) p (fun bs => AnyField tag.toNat bs (.octets text' none)) ∧
      Writes (appendExpr g p tag (.time u)) p (fun bs => ExprField tag.toNat bs (.literal (.octets text' none))) := by
  have w : ∀ t : GoTime, Writes (appendAny g p tag (.time t)) p (fun bs => AnyField tag.toNat bs (.octets (fmtTime t) none)) ∧
      Writes (appendExpr g p tag (.time t)) p (fun bs => ExprField tag.toNat bs (.literal (.octets (fmtTime t) none))) := by
    intro t
    refine scalar_writes ht rfl ?_
    have := fmtTime_length t
    simp only [textLen]; omega
  refine ⟨fmtTime t, fmtTime u, ?_, ?_, (w t).1, (w t).2, (w u).1, (w u).2⟩
  · obtain ⟨y, hy, hp, rfl⟩ := h1
    obtain ⟨z, hz, hq, rfl⟩ := h2
    rw [fmt_less hy hz hp.year hq.year]
    exact (earlier_iff hp hq).1
  · constructor
    · intro he
      have e1 := understood_fmt 0 h1
      rw [he, understood_fmt 0 h2] at e1
      simp only [Option.some.injEq] at e1
      omega
    · rintro rfl
      obtain ⟨y, hy, hp, rfl⟩ := h1
      obtain ⟨z, hz, hq, he⟩ := h2
      have := ((earlier_iff hp hq).2).mpr he
      simp only [List.cons.injEq, Fin.val_inj] at this
      obtain ⟨rfl, m1, m2, m3, m4, m5, m6, -⟩ := this
      obtain ⟨ty, tm, td, th, tmi, ts, tn⟩ := t
      obtain ⟨uy, um, ud, uh, umi, us, un⟩ := u
      simp only at m1 m2 m3 m4 m5 m6 hy hz
      have : ty = uy := BitVec.eq_of_toInt_eq (hy.trans hz.symm)
      subst this m1 m2 m3 m4 m5 m6
      rfl

/-- The order of all times. -/
def C80_order_full : Prop := ∀ (g : Grow) (p : Slice) (tag : UInt8), SmallTag tag → ∀ (t u : GoTime) (a b zone zone' : Int),
  Shows t a zone → Shows u b zone' → ∃ text text' : Bytes, (textLess text text' = true ↔ a < b) ∧
    Writes (appendAny g p tag (.time t)) p (fun bs => AnyField tag.toNat bs (.octets text none)) ∧
    Writes (appendAny g p tag (.time u)) p (fun bs => AnyField tag.toNat bs (.octets text' none))

/-- Of times in different locations the earlier one may have the greater text: the server compares, sorts and finds them wrongly. -/
theorem C80_order_wrong : ¬C80_order_full := by
  intro hf
  obtain ⟨text, text', h, h1, h2⟩ := hf grow0 ⟨[], []⟩ 2 ⟨by decide, by decide⟩ cetTime utcTime _ _ _ _ cetTime_shows utcTime_shows
  rw [time_text h1 (by decide +kernel), time_text h2 (by decide +kernel)] at h
  exact absurd (h.mpr (by decide)) (by decide +kernel)

theorem last_day : daysToYear 10000 = 3652425 := by decide +kernel

/-- Every instant of the years 0 to 9999 (by the clocks of the location) is shown by exactly one reading, so the theorems above are about all
of them. -/
theorem C80_covers (zone «at» : Int) (h1 : -719528 * 86400 * 1000000000 ≤ «at» + zone * 1000000000)
    (h2 : «at» + zone * 1000000000 < (3652425 - 719528) * 86400 * 1000000000) :
    ∃ t : GoTime, Shows t «at» zone ∧ ∀ u, Shows u «at» zone → u = t := by
  obtain ⟨y, m, d, h, mi, s, ns, hp, he⟩ := reading zone «at» h1 (by rw [last_day]; exact h2)
  have hd : d < 100 := by
    have h3 := hp.day.2
    have : monthDays y m ≤ 31 := by unfold monthDays; repeat' split
                                    all_goals decide
    omega
  have hy : (BitVec.ofNat 64 y).toInt = y := by
    rw [BitVec.toInt_eq_toNat_of_lt] <;> simp only [BitVec.toNat_ofNat] <;> have := hp.year <;> omega
  have hs : Shows ⟨BitVec.ofNat 64 y, ⟨m, by have := hp.month; omega⟩, ⟨d, hd⟩, ⟨h, by have := hp.hour; omega⟩, ⟨mi, by have := hp.min; omega⟩,
      ⟨s, by have := hp.sec; omega⟩, ⟨ns, hp.nsec⟩⟩ «at» zone := ⟨y, hy, hp, he⟩
  refine ⟨_, hs, fun u hu => ?_⟩
  obtain ⟨z, hz, hq, he'⟩ := hu
  have := ((earlier_iff hq hp).2).mpr (he'.symm.trans he)
  simp only [List.cons.injEq] at this
  obtain ⟨rfl, m1, m2, m3, m4, m5, m6, -⟩ := this
  obtain ⟨uy, um, ud, uh, umi, us, un⟩ := u
  simp only at m1 m2 m3 m4 m5 m6 hz
  simp only [GoTime.mk.injEq]
  exact ⟨BitVec.eq_of_toInt_eq (hz.trans hy.symm), Fin.ext m1, Fin.ext m2, Fin.ext m3, Fin.ext m4, Fin.ext m5, Fin.ext m6⟩

/-- The whole of C81: the server takes each duration for the time span it is. -/
def C81_full : Prop := ∀ (g : Grow) (p : Slice) (tag : UInt8), SmallTag tag → ∀ d : BitVec 64, ∃ text : Bytes, span text = some d.toInt ∧
    Writes (appendAny g p tag (.duration d)) p (fun bs => AnyField tag.toNat bs (.octets text none)) ∧
    Writes (appendExpr g p tag (.duration d)) p (fun bs => ExprField tag.toNat bs (.literal (.octets text none)))

/-- **C81** (exactly) Of every duration the server gets the whole seconds if they are less than 839 hours in either direction, and something that
is no TIME if not. -/
theorem C81_exact (ht : SmallTag tag) (d : BitVec 64) : ∃ text : Bytes,
    span text = (if d.toInt.natAbs < 3020400 * 1000000000 then some (d.toInt.tdiv 1000000000 * 1000000000) else none) ∧
    Writes (appendAny g p tag (.duration d)) p (fun bs => AnyField tag.toNat bs (.octets text none)) ∧
    Writes (appendExpr g p tag (.duration d)) p (fun bs => ExprField tag.toNat bs (.literal (.octets text none))) := by
  by_cases hd : d = BitVec.intMin 64
  · subst hd
    exact ⟨ascii "-18446744073706989569:29:00", by decide +kernel, scalar_writes ht rfl (by decide)⟩
  · obtain ⟨text, h1, h2⟩ := C07_duration_exact_partial (g := g) (p := p) ht d hd
    refine ⟨text, ?_, h2⟩
    have hq : -3020399 ≤ d.toInt.tdiv 1000000000 ∧ d.toInt.tdiv 1000000000 ≤ 3020399 ↔ d.toInt.natAbs < 3020400 * 1000000000 := by
      generalize d.toInt = k
      rcases Int.le_total 0 k with hk | hk
      · rw [Int.tdiv_eq_ediv_of_nonneg hk]; omega
      · rw [show k = -(-k) by omega, Int.neg_tdiv, Int.tdiv_eq_ediv_of_nonneg (by omega)]; omega
    simp only [span, h1, hq]

/-- **C81** for whole seconds of less than 839 hours.  Missing: fractions of a second are dropped, and longer durations are no TIME, see
`C81_wrong`. -/
theorem C81_partial (ht : SmallTag tag) (d : BitVec 64) (hs : 1000000000 ∣ d.toInt) (hr : d.toInt.natAbs < 3020400 * 1000000000) :
    ∃ text : Bytes, span text = some d.toInt ∧
    Writes (appendAny g p tag (.duration d)) p (fun bs => AnyField tag.toNat bs (.octets text none)) ∧
    Writes (appendExpr g p tag (.duration d)) p (fun bs => ExprField tag.toNat bs (.literal (.octets text none))) := by
  obtain ⟨text, h1, h2⟩ := C81_exact (g := g) (p := p) ht d
  refine ⟨text, ?_, h2⟩
  rw [h1, if_pos hr, Int.tdiv_mul_cancel hs]

/-- minus 838 hours, 59 minutes and 59 seconds -/
example : (1000000000 : Int) ∣ (BitVec.ofInt 64 (-3020399000000000)).toInt ∧ (BitVec.ofInt 64 (-3020399000000000)).toInt.natAbs < 3020400 * 1000000000 := by
  decide +kernel
example : span (ascii "-838:59:59") = some (-3020399000000000) ∧ span (ascii "839:00:00") = none := by decide +kernel

/-- **C81** is false: 1.5 s arrives as 1 s. -/
theorem C81_wrong : ¬C81_full := by
  intro hf
  obtain ⟨text, h1, h2, -⟩ := hf grow0 ⟨[], []⟩ 2 ⟨by decide, by decide⟩ 1500000000#64
  have hs := (scalar_writes (g := grow0) (p := ⟨[], []⟩) (tag := 2) ⟨by decide, by decide⟩ (v := .duration 1500000000#64)
    (s := .octets (ascii "0:00:01") none) (by decide +kernel) (by decide)).1
  rcases h2 with hw | ⟨bs, sp, hw, b1, hb1, hd1⟩
  · have : written (appendAny grow0 ⟨[], []⟩ 2 (.duration 1500000000#64)) ≠ none := by decide +kernel
    rw [hw] at this; exact this rfl
  rcases hs with hs | ⟨bs', sp', hs, b2, hb2, hd2⟩
  · rw [hw] at hs; cases hs
  rw [hw] at hs; cases hs
  rw [hb1] at hb2; cases hb2
  rw [hd1] at hd2; cases hd2
  revert h1; decide +kernel

end Verif.Props
