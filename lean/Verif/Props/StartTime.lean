import Verif.Spec.StartTime
import Verif.Lemmas.Overlap

/-!
# C79: the time of day of `start` and `end`

`pd.date_range` keeps the time of day of its start, so a calendar constructed with a start that is not a midnight
has sessions, opens, closes and breaks that are all late by it, and cannot be constructed at all if a special
open or close falls into the range.
-/

namespace TC.Props
open Spec

variable {cfg : Config} {start stop stop' : Int} {b b' : Built}

/-- C79: whatever the times of day of start and end, the labels of a constructed calendar increase, and they are
the trading days at the start's time of day, from start to end.  One case is special: if the start is on a
trading day, the end is not and has an earlier time of day, then the last trading day up to the end is missing. -/
theorem c79_labels (h : build cfg start stop = .ok b) :
    b.cal.sessions.Pairwise (· < ·) ∧ ∀ l, l ∈ b.cal.sessions ↔
      ∃ d, l = d * DAY + start % DAY ∧ start ≤ l ∧ l ≤ stop ∧ TradingDay cfg d ∧
        (TradingDay cfg (start / DAY) → ¬ TradingDay cfg (stop / DAY) → stop % DAY < start % DAY →
          ∃ d', d < d' ∧ d' ≤ stop / DAY ∧ TradingDay cfg d') := by
  obtain ⟨sch, hs, hc, -⟩ := build_parts h
  rw [hc]
  exact schedule_labels_any hs

/-- From Thursday 10:30 to Saturday 9:00 there is one session of the 24/5 calendar, Friday's is missing; to
Saturday 10:30 there are two, and the same if the start is a Wednesday midnight. -/
example :
    (build weekdayCalendar (hm 10 30) (2 * DAY + hm 9 0)).toOption.map (fun b => b.cal.sessions) =
      some [hm 10 30] ∧
    (build weekdayCalendar (hm 10 30) (2 * DAY + hm 10 30)).toOption.map (fun b => b.cal.sessions) =
      some [hm 10 30, DAY + hm 10 30] ∧
    (build weekdayCalendar 0 (2 * DAY + hm 9 0)).toOption.map (fun b => b.cal.sessions) = some [0, DAY] := by
  refine ⟨?_, ?_, ?_⟩ <;> decide +kernel

/-- C79: the calendar is an ordered list of non-overlapping sessions whatever the time of day of the start, so the
theorems about queries (C12-C32) apply to it. -/
theorem c79_regular (h : build cfg start stop = .ok b) (ho : Ordered cfg) (hz : Tame cfg.tz)
    (hlow : NP_NAT + 3 * DAY ≤ start) :
    b.cal = Cal.ofSessions (rowsOf b.cal) ∧ rowsOf b.cal ≠ [] ∧
    (∀ s ∈ rowsOf b.cal, s.open < s.close ∧
      ∀ x y, s.brk = some (x, y) → s.open < x ∧ x < y ∧ y ≤ s.close) ∧
    (rowsOf b.cal).Pairwise (fun s s' => s.label < s'.label ∧ s.close < s'.open) ∧
    Regular (rowsOf b.cal) := by
  have hne := build_rows_ne h
  obtain ⟨sch, hs, hc, -⟩ := build_parts h
  obtain ⟨hreg, hoc, -⟩ := schedule_regular_any hs ho hz hlow
  have hof := (schedule_rows_any hs (ho.tablesFit hz hlow)).1
  rw [hc] at hne ⊢
  exact ⟨hof.symm, hne, fun s hs => ⟨hoc s hs, (hreg.ok s hs).2.2⟩, hreg.labels.and hreg.times, hreg⟩

theorem late_of_standard {z : Tz} {table : TimeTable} {k d late l u : Int} (hl : l = d * DAY + late)
    (h : StandardTime z table k l u) : LateTime z table k d late u := by
  subst hl
  obtain ⟨t, ht, hu⟩ := h
  refine ⟨t, ht, ?_⟩
  have e : (d + k) * DAY + t + late = d * DAY + late + k * DAY + t := by rw [Int.add_mul]; omega
  rw [e]
  exact hu

theorem not_special_of_late (h : build cfg start stop = .ok b) (ho : Ordered cfg) (hz : Tame cfg.tz)
    (hs : MidnightSpecials cfg) (hlow : NP_NAT + 3 * DAY ≤ start) (hn : ¬ DAY ∣ start) {l u : Int} :
    ¬ SpecialOpen cfg start stop l u ∧ ¬ SpecialClose cfg start stop l u := by
  obtain ⟨so, sc, -, -, -, -, -, -, h7⟩ := build_special_labels_any h ho hz hlow
  have key : ∀ l, DAY ∣ l → l ∉ b.cal.sessions := by
    intro l hl hmem
    obtain ⟨d, hd, -⟩ := ((c79_labels h).2 l).1 hmem
    apply hn
    have : DAY ∣ start % DAY := by
      rw [hd] at hl
      exact (Int.dvd_add_right (Int.dvd_mul_left _ _)).1 hl
    rw [← Int.emod_add_mul_ediv start DAY]
    exact Int.dvd_add this (Int.dvd_mul_right _ _)
  exact ⟨fun hu => key l (hs start stop l _ (.inl hu.choose_spec.1)) (h7 l u (.inl hu)),
    fun hu => key l (hs start stop l _ (.inr hu.choose_spec.1)) (h7 l u (.inr hu))⟩

/-- C79: if a calendar is constructed with a start that is not a midnight, all its sessions are late by the
start's time of day, label, open, close and break alike, and it has no early closes and no late opens. -/
theorem c79_late (h : build cfg start stop = .ok b) (ho : Ordered cfg) (hz : Tame cfg.tz)
    (hs : MidnightSpecials cfg) (hlow : NP_NAT + 3 * DAY ≤ start) (hn : ¬ DAY ∣ start) :
    b.earlyCloses = [] ∧ b.lateOpens = [] ∧
    ∀ s ∈ rowsOf b.cal, ∃ d, LateSession cfg (start % DAY) d s := by
  have hno := fun l u => not_special_of_late h ho hz hs hlow hn (l := l) (u := u)
  obtain ⟨so, sc, e1, e2, -, -, h5, h6, -⟩ := build_special_labels_any h ho hz hlow
  have z1 : so = [] := List.eq_nil_iff_forall_not_mem.2 fun ⟨l, u⟩ hm => (hno l u).1 ((h5 l u).1 hm)
  have z2 : sc = [] := List.eq_nil_iff_forall_not_mem.2 fun ⟨l, u⟩ hm => (hno l u).2 ((h6 l u).1 hm)
  refine ⟨by rw [e2, z2]; rfl, by rw [e1, z1]; rfl, fun s hmem => ?_⟩
  have hl : s.label ∈ b.cal.sessions := by
    rw [← rowsOf_labels]; exact List.mem_map.2 ⟨s, hmem, rfl⟩
  obtain ⟨d, hd, -, -, ht, -⟩ := ((c79_labels h).2 _).1 hl
  obtain ⟨sch, hsch, hc, -⟩ := build_parts h
  have f := (schedule_rows_any hsch (ho.tablesFit hz hlow)).2 s (hc ▸ hmem)
  refine ⟨d, ht, hd, late_of_standard hd (f.openStandard fun u => (hno _ u).1),
    late_of_standard hd (f.closeStandard fun u => (hno _ u).2), f.brkNone, fun bt et hb he => ?_⟩
  obtain ⟨x, y, hx, h1, h2⟩ := f.brkStandard (fun u => (hno _ u).2) bt et hb he
  exact ⟨x, y, hx, late_of_standard hd h1, late_of_standard hd h2⟩

/-- The demo calendar, started at 1:00 on day 0 and ended before its first early close: everything is an hour
late. -/
example : (build demoConfig (hm 1 0) (4 * DAY + hm 1 0)).toOption.map (fun b => rowsOf b.cal) =
      some [⟨hm 1 0, hm 15 31, some (hm 18 1, hm 19 0), hm 22 0⟩,
        ⟨DAY + hm 1 0, DAY + hm 15 31, some (DAY + hm 18 1, DAY + hm 19 0), DAY + hm 22 0⟩,
        ⟨4 * DAY + hm 1 0, 4 * DAY + hm 15 31, some (4 * DAY + hm 18 1, 4 * DAY + hm 19 0),
          4 * DAY + hm 22 0⟩] ∧
    Ordered demoConfig ∧ Tame demoConfig.tz ∧ NP_NAT + 3 * DAY ≤ hm 1 0 ∧ ¬ DAY ∣ hm 1 0 :=
  ⟨by decide +kernel, demo_ordered, demo_tame, by decide, by decide⟩

theorem midnight_demo : MidnightSpecials demoConfig := by
  intro start stop l t h
  rcases h with (⟨cal, h, -⟩ | ⟨ds, h, -⟩) | ⟨cal, h, hl⟩ | ⟨ds, h, hl⟩
  · simp [demoConfig] at h
  · simp [demoConfig] at h
  · simp only [demoConfig, List.mem_singleton, Prod.mk.injEq] at h
    rw [h.2] at hl
    have := (List.mem_filter.1 hl).1
    simp only [List.mem_cons, List.not_mem_nil, or_false] at this
    rcases this with rfl | rfl <;> exact Int.dvd_mul_left _ _
  · simp only [demoConfig, List.mem_singleton, Prod.mk.injEq] at h
    rw [h.2] at hl
    simp only [List.mem_cons, List.not_mem_nil, or_false] at hl
    subst hl
    exact Int.dvd_mul_left _ _

/-- C79: with a start that is not a midnight no calendar is constructed if a special open or close of the class
falls into the range. -/
theorem c79_refused (ho : Ordered cfg) (hz : Tame cfg.tz) (hs : MidnightSpecials cfg)
    (hlow : NP_NAT + 3 * DAY ≤ start) (hn : ¬ DAY ∣ start) {l u : Int}
    (hu : SpecialOpen cfg start stop l u ∨ SpecialClose cfg start stop l u) :
    ∃ e, build cfg start stop = .error e := by
  cases h : build cfg start stop with
  | error e => exact ⟨e, rfl⟩
  | ok b =>
    have := not_special_of_late h ho hz hs hlow hn (l := l) (u := u)
    exact absurd hu (not_or.2 this)

/-- The demo calendar over the same two weeks, started at midnight and at 1:00. -/
example : build demoConfig 0 (14 * DAY) = .ok demoBuilt ∧
    build demoConfig (hm 1 0) (14 * DAY) = .error (.valueError "Special dates are not trading days.") ∧
    demoBuilt.earlyCloses = [7 * DAY, 12 * DAY] :=
  ⟨demo_build, by decide +kernel, by decide⟩

theorem applied_end {z : Tz} {rules : List (Int × HolidayFn)} {adHoc : List (Int × List Int)}
    (hr : ∀ e ∈ rules, ∃ P : Int → Prop, ∀ s e' l, l ∈ e.2 s e' ↔ P l ∧ s ≤ l ∧ l ≤ e')
    (hmid : ∀ s e l t, SpecialTime rules adHoc s e l t → DAY ∣ l) (hday : stop / DAY = stop' / DAY)
    {l u : Int} (h : Applied z rules adHoc start stop l u) (hu : u ≤ stop') :
    Applied z rules adHoc start stop' l u := by
  obtain ⟨t, ht, ho, h1, -⟩ := h
  have hd := hmid _ _ _ _ ht
  refine ⟨t, ?_, ho, h1, hu⟩
  rcases ht with ⟨cal, hc, hl⟩ | ⟨ds, hc, hl⟩
  · obtain ⟨P, hP⟩ := hr _ hc
    obtain ⟨p, q, r⟩ := (hP _ _ _).1 hl
    refine .inl ⟨cal, hc, (hP _ _ _).2 ⟨p, q, ?_⟩⟩
    obtain ⟨k, rfl⟩ := hd
    simp only [DAY] at *
    omega
  · exact .inr ⟨ds, hc, hl⟩

/-- C79: with a midnight start, the time of day of the end makes no difference as long as no special open or close
falls between the two ends: same sessions with the same times, same early closes and late opens. -/
theorem c79_end (ho : Ordered cfg) (hz : Tame cfg.tz) (hone : OneSpecial cfg) (hs : MidnightSpecials cfg)
    (hm : DAY ∣ start) (hlow : NP_NAT + 3 * DAY ≤ start) (hday : stop / DAY = stop' / DAY)
    (h : build cfg start stop = .ok b) (h' : build cfg start stop' = .ok b')
    (hno : ∀ l u, SpecialOpen cfg start stop l u ∨ SpecialClose cfg start stop l u → u ≤ stop')
    (hno' : ∀ l u, SpecialOpen cfg start stop' l u ∨ SpecialClose cfg start stop' l u → u ≤ stop) :
    b.cal = b'.cal ∧ (∀ l, l ∈ b.earlyCloses ↔ l ∈ b'.earlyCloses) ∧
      ∀ l, l ∈ b.lateOpens ↔ l ∈ b'.lateOpens := by
  have mO : ∀ s e l t, SpecialTime cfg.specialOpens cfg.specialOpensAdhoc s e l t → DAY ∣ l :=
    fun s e l t k => hs s e l t (.inl k)
  have mC : ∀ s e l t, SpecialTime cfg.specialCloses cfg.specialClosesAdhoc s e l t → DAY ∣ l :=
    fun s e l t k => hs s e l t (.inr k)
  have hO : ∀ l u, SpecialOpen cfg start stop l u ↔ SpecialOpen cfg start stop' l u := fun l u =>
    ⟨fun k => applied_end hone.opens mO hday k (hno l u (.inl k)),
      fun k => applied_end hone.opens mO hday.symm k (hno' l u (.inl k))⟩
  have hC : ∀ l u, SpecialClose cfg start stop l u ↔ SpecialClose cfg start stop' l u := fun l u =>
    ⟨fun k => applied_end hone.closes mC hday k (hno l u (.inr k)),
      fun k => applied_end hone.closes mC hday.symm k (hno' l u (.inr k))⟩
  have hwf := ho.wellFormed hz hm hlow
  have g := c38_regular h ho hz hm hlow
  have g' := c38_regular h' ho hz hm hlow
  have hsess : b.cal.sessions = b'.cal.sessions := by
    obtain ⟨sch, hsc, hc, -⟩ := build_parts h
    obtain ⟨sch', hsc', hc', -⟩ := build_parts h'
    have k := schedule_labels hsc hm
    have k' := schedule_labels hsc' hm
    rw [hc, hc']
    refine sorted_ext k.1 k'.1 fun l => ?_
    rw [k.2, k'.2]
    constructor
    · rintro ⟨d, rfl, q, r, s⟩
      exact ⟨d, rfl, q, by simp only [DAY] at *; omega, s⟩
    · rintro ⟨d, rfl, q, r, s⟩
      exact ⟨d, rfl, q, by simp only [DAY] at *; omega, s⟩
  have hlen : (rowsOf b.cal).length = (rowsOf b'.cal).length := by
    rw [← List.length_map (f := (·.label)), rowsOf_labels, hsess, ← rowsOf_labels, List.length_map]
  have hrows : rowsOf b.cal = rowsOf b'.cal := by
    refine List.ext_getElem hlen fun i h1 h2 => ?_
    have hl : (rowsOf b.cal)[i].label = (rowsOf b'.cal)[i].label := by
      have e1 : ((rowsOf b.cal).map (·.label))[i]? = ((rowsOf b'.cal).map (·.label))[i]? := by
        rw [rowsOf_labels, rowsOf_labels, hsess]
      rw [List.getElem?_eq_getElem (by simpa using h1), List.getElem?_eq_getElem (by simpa using h2)] at e1
      simpa using e1
    exact rows_eq ho hone (row_facts h hwf _ (List.getElem_mem _)) (row_facts h' hwf _ (List.getElem_mem _))
      hl (hO _) (hC _)
  have c := c41_lists h ho hz hm hlow
  have c' := c41_lists h' ho hz hm hlow
  refine ⟨by rw [g.1, g'.1, hrows], fun l => ?_, fun l => ?_⟩
  · rw [c.2.2.2, c'.2.2.2, hsess]
    simp only [hC]
  · rw [c.2.2.1, c'.2.2.1, hsess]
    simp only [hO]

theorem oneSpecial_demo : OneSpecial demoConfig := by
  have key : ∀ s e l t, SpecialTime demoConfig.specialCloses demoConfig.specialClosesAdhoc s e l t →
      (t = hm 12 30 ∧ (l = 7 * DAY ∨ l = 14 * DAY)) ∨ (t = hm 13 0 ∧ l = 12 * DAY) := by
    rintro s e l t (⟨cal, h, hl⟩ | ⟨ds, h, hl⟩)
    · simp only [demoConfig, List.mem_singleton, Prod.mk.injEq] at h
      rw [h.2] at hl
      have := (List.mem_filter.1 hl).1
      simp only [List.mem_cons, List.not_mem_nil, or_false] at this
      exact .inl ⟨h.1, this⟩
    · simp only [demoConfig, List.mem_singleton, Prod.mk.injEq] at h
      rw [h.2] at hl
      simp only [List.mem_cons, List.not_mem_nil, or_false] at hl
      exact .inr ⟨h.1, hl⟩
  refine ⟨fun e he => by simp [demoConfig] at he, fun e he => ?_, ?_, fun s e l t t' h h' => ?_⟩
  · simp only [demoConfig, List.mem_singleton] at he
    subst he
    exact ⟨fun l => l ∈ [7 * DAY, 14 * DAY], fun s e' l => by
      simp only [List.mem_filter, Bool.and_eq_true, decide_eq_true_eq]⟩
  · rintro s e l t t' (⟨_, h, -⟩ | ⟨_, h, -⟩) <;> simp [demoConfig] at h
  · rcases key _ _ _ _ h with ⟨a, b⟩ | ⟨a, b⟩ <;> rcases key _ _ _ _ h' with ⟨c, d⟩ | ⟨c, d⟩
    · rw [a, c]
    · simp only [DAY] at *; omega
    · simp only [DAY] at *; omega
    · rw [a, c]

/-- The demo calendar up to midnight and up to 9:00 of day 14, before that day's special close: the same.  Up to
17:00, after it: the last session closes early. -/
example : build demoConfig 0 (14 * DAY) = .ok demoBuilt ∧ build demoConfig 0 (14 * DAY + hm 9 0) = .ok demoBuilt ∧
    (∀ l u, SpecialOpen demoConfig 0 (14 * DAY + hm 9 0) l u ∨
      SpecialClose demoConfig 0 (14 * DAY + hm 9 0) l u → u ≤ 14 * DAY) ∧
    (build demoConfig 0 (14 * DAY + hm 17 0)).toOption.map (·.earlyCloses) =
      some [7 * DAY, 12 * DAY, 14 * DAY] := by
  have hb : build demoConfig 0 (14 * DAY + hm 9 0) = .ok demoBuilt := by decide +kernel
  refine ⟨demo_build, hb, fun l u hu => ?_, by decide +kernel⟩
  have c := c41_lists hb demo_ordered demo_tame (Int.dvd_zero _) (by decide)
  have near : ∀ {w v : Int}, OnlyInstant demoConfig.tz w v → v ≤ w + DAY := fun h => by
    have := only_near demo_tame h
    omega
  rcases hu with hu | hu
  · obtain ⟨t, h, -⟩ := hu
    rcases h with ⟨_, h, -⟩ | ⟨_, h, -⟩ <;> simp [demoConfig] at h
  · have hmem := (c.2.2.2 l).2 ⟨(build_special_labels hb demo_ordered demo_tame (Int.dvd_zero _)
      (by decide)).choose_spec.choose_spec.2.2.2.2.2.2 l u (.inr hu), u, hu⟩
    obtain ⟨t, h, ho, -⟩ := hu
    have ht : t ≤ hm 13 0 := by
      rcases h with ⟨_, h, -⟩ | ⟨_, h, -⟩ <;> simp only [demoConfig, List.mem_singleton, Prod.mk.injEq] at h <;>
        rw [h.1] <;> decide
    have hl : l ≤ 12 * DAY := by
      simp only [demoBuilt, List.mem_cons, List.not_mem_nil, or_false] at hmem
      rcases hmem with rfl | rfl <;> decide
    have := near ho
    simp only [DAY, TC.hm] at *
    omega

end TC.Props
