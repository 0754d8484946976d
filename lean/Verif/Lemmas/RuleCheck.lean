import Verif.Model.Exchange
import Verif.Lemmas.HolidayCheck

/-!
# Decidable checks on holiday rules

`Rule.hits` decides whether a rule has a holiday on a given day; `apart` and `weekdaysB` are checks
on the data of rules that settle questions for all years at once.
-/

namespace TC
open Spec

/-! ### Tables of observances -/

/-- The week table of an observance that has one (an upper bound for those that also drop dates). -/
def Obs.table : Obs → Option WeekTable
  | .sundayToMonday => some [[0], [0], [0], [0], [0], [0], [1]]
  | .weekendToMonday | .nextMonday => some [[0], [0], [0], [0], [0], [2], [1]]
  | .nextMondayOrTuesday => some [[1], [0], [0], [0], [0], [2], [2]]
  | .previousFriday => some [[0], [0], [0], [0], [0], [-1], [-2]]
  | .nearestWorkday => some [[0], [0], [0], [0], [0], [-1], [1]]
  | .previousWorkday => some [[-3], [-1], [-1], [-1], [-1], [-1], [-2]]
  | .fourDayWeekend => some [[0], [0, -1], [0], [0, 1], [0], [0], [0]]
  | .nearestMondayXbue | .culturalDiversity => some [[0], [-1], [-2], [4], [3], [2], [1]]
  | .notYear _ | .boxingDayObs => some [[0], [0], [0], [0], [0], [0], [0]]
  | .nearestMondayXsgo => some [[0], [-1], [-2], [-3], [3], [0], [0]]
  | .tuesdayAndWednesdayToFriday => some [[0], [-4], [2], [0], [0], [0], [0]]
  | .weekendToMondayExcept _ => some [[0], [0], [0], [0], [0], [2], [1]]
  | .nextMondayOrTuesdayExcept _ => some [[1], [0], [0], [0], [0], [2], [2]]
  | .songkranLastDay => some [[1], [0], [0], [0], [0], [0], [1]]
  | .sundayToTuesday => some [[0], [0], [0], [0], [0], [0], [2]]
  | .sundayToWednesday => some [[0], [0], [0], [0], [0], [0], [3]]
  | .onlyFriday => some [[], [], [], [], [0], [], []]
  | .taiwanMakeup => some [[0], [0, -1], [0], [0, 1], [0], [0, -1], [0, 1]]
  | .nextMondayOffset => some [[0], [6], [5], [4], [3], [2], [1]]
  | .processQueenBirthday | .followingTuesdayEveryFourYears
  | .goodFridayUnlessChristmasNyeFriday => none

theorem byTable_refl (u : Int) : ByTable [[0], [0], [0], [0], [0], [0], [0]] u u := by
  rw [byTable_iff]
  rcases weekday_cases u with h | h | h | h | h | h | h <;> rw [h] <;>
    exact ⟨[0], rfl, by simp⟩

theorem obs_table {o : Obs} {t : WeekTable} (ht : o.table = some t) {u d : Int}
    (h : d ∈ o.apply u) : ByTable t u d := by
  have ho : o ≠ .followingTuesdayEveryFourYears := by rintro rfl; simp [Obs.table] at ht
  have hc := (obs_iff o ho u d).1 h
  cases o <;> simp only [Obs.table, Option.some.injEq, reduceCtorEq] at ht <;> subst ht <;>
    simp only [Contributes] at hc
  case culturalDiversity => exact hc.1
  case notYear => rw [hc.1]; exact byTable_refl u
  case boxingDayObs => rw [hc]; exact byTable_refl u
  case weekendToMondayExcept => exact hc.1
  case nextMondayOrTuesdayExcept => exact hc.1
  case taiwanMakeup =>
    rcases hc with rfl | ⟨hc, _⟩
    · rw [byTable_iff]
      rcases weekday_cases d with h | h | h | h | h | h | h <;> rw [h] <;>
        exact ⟨_, rfl, by simp⟩
    · rw [byTable_iff] at hc ⊢
      obtain ⟨l, hl, hm⟩ := hc
      rcases weekday_cases u with h | h | h | h | h | h | h <;> rw [h] at hl ⊢ <;>
        (simp at hl; subst hl; refine ⟨_, rfl, ?_⟩; simp at hm ⊢; try omega)
  all_goals exact hc

/-! ### Day-of-year spans -/

/-- Bounds of the entries of a week table. -/
def WeekTable.bounds (t : WeekTable) : Int × Int :=
  (t.flatten.foldl min 0, t.flatten.foldl max 0)

theorem foldl_min_le (l : List Int) (a : Int) : l.foldl min a ≤ a ∧ ∀ k ∈ l, l.foldl min a ≤ k := by
  induction l generalizing a with
  | nil => simp
  | cons x l ih =>
    simp only [List.foldl_cons]
    have := ih (min a x)
    refine ⟨by omega, ?_⟩
    intro k hk
    rcases List.mem_cons.1 hk with rfl | hk
    · omega
    · exact this.2 k hk

theorem le_foldl_max (l : List Int) (a : Int) : a ≤ l.foldl max a ∧ ∀ k ∈ l, k ≤ l.foldl max a := by
  induction l generalizing a with
  | nil => simp
  | cons x l ih =>
    simp only [List.foldl_cons]
    have := ih (max a x)
    refine ⟨by omega, ?_⟩
    intro k hk
    rcases List.mem_cons.1 hk with rfl | hk
    · omega
    · exact this.2 k hk

theorem table_bounds {t : WeekTable} {u d : Int} (h : ByTable t u d) :
    u + (WeekTable.bounds t).1 ≤ d ∧ d ≤ u + (WeekTable.bounds t).2 := by
  rw [byTable_iff] at h
  obtain ⟨l, hl, hm⟩ := h
  have hmem : d - u ∈ t.flatten := List.mem_flatten.2 ⟨l, List.mem_of_getElem? hl, hm⟩
  have h1 := (foldl_min_le t.flatten 0).2 _ hmem
  have h2 := (le_foldl_max t.flatten 0).2 _ hmem
  unfold WeekTable.bounds
  simp only
  omega

/-- Day of the year (from 0) of the reference date in a common year. -/
def Rule.refDay (r : Rule) : Int := daysBeforeMonth 1 r.month + (r.day - 1)

theorem refDay_bounds (r : Rule) (y : Int) :
    jan1 y + r.refDay ≤ dayOf y r.month r.day ∧
    dayOf y r.month r.day ≤ jan1 y + r.refDay + (if isLeap y then 1 else 0) := by
  unfold Rule.refDay dayOf daysBeforeMonth
  have h1 : isLeap 1 = false := by decide
  rw [h1]
  generalize (match r.month with
    | 1 => (0 : Int) | 2 => 31 | 3 => 59 | 4 => 90 | 5 => 120 | 6 => 151 | 7 => 181 | 8 => 212
    | 9 => 243 | 10 => 273 | 11 => 304 | 12 => 334 | _ => 365) = b
  by_cases h : isLeap y <;> by_cases h2 : 2 < r.month <;> simp [h, h2] <;> omega

/-- An interval of days of the year (from 0) within which all holidays of the rule fall, in the year
of their reference date; `none` if the rule's data do not show one. -/
def Rule.span (r : Rule) : Option (Int × Int) :=
  let fromRef := fun (b : Int × Int) =>
    if 0 ≤ r.refDay + b.1 ∧ r.refDay + b.2 ≤ 364 then
      some (r.refDay + b.1, r.refDay + b.2 + 1) else none
  match r.year with
  | some _ => none
  | none =>
    match r.observance with
    | some o => match o.table with
      | some t => fromRef (WeekTable.bounds t)
      | none => none
    | none => match r.offsets with
      | .easter :: os => match spreads os with
        | some b => if r.month = 1 ∧ r.day = 1 ∧ -79 ≤ b.1 ∧ b.2 ≤ 250 then
            some (79 + b.1, 115 + b.2) else none
        | none => none
      | os => match spreads os with
        | some b => fromRef b
        | none => none

theorem easter_doy (y : Int) : jan1 y + 79 ≤ easter y ∧ easter y ≤ jan1 y + 115 := by
  have h := easter_in_year y
  have h1 := jan1_succ y
  have : (if isLeap y then (1 : Int) else 0) ≤ 1 := by split <;> omega
  omega

theorem span_sound {r : Rule} (hg : GoodRule r) {a b : Int} (hs : r.span = some (a, b)) {y d : Int}
    (hd : d ∈ r.ofYear y) : yearOf d = y ∧ jan1 y + a ≤ d ∧ d ≤ jan1 y + b := by
  have hj := jan1_succ y
  have hleap : (if isLeap y then (1 : Int) else 0) = 0 ∨ (if isLeap y then (1 : Int) else 0) = 1 := by
    split <;> simp
  have href := refDay_bounds r y
  have hfin : ∀ lo hi : Int, 0 ≤ r.refDay + lo → r.refDay + hi ≤ 364 →
      dayOf y r.month r.day + lo ≤ d → d ≤ dayOf y r.month r.day + hi →
      yearOf d = y ∧ jan1 y + (r.refDay + lo) ≤ d ∧ d ≤ jan1 y + (r.refDay + hi + 1) := by
    intro lo hi h1 h2 h3 h4
    refine ⟨?_, by omega, by omega⟩
    rw [yearOf_eq_iff]
    omega
  have hmem := (List.mem_filter.1 hd).1
  unfold Rule.span at hs
  cases hy : r.year with
  | some y' => simp [hy] at hs
  | none =>
  simp only [hy] at hs
  unfold Rule.applyRule at hmem
  cases ho : r.observance with
  | some o =>
    simp only [ho] at hs hmem
    cases ht : o.table with
    | none => simp [ht] at hs
    | some t =>
      simp only [ht] at hs
      split at hs
      · rename_i hb
        simp only [Option.some.injEq, Prod.mk.injEq] at hs
        obtain ⟨rfl, rfl⟩ := hs
        have := table_bounds (obs_table ht hmem)
        exact hfin _ _ hb.1 hb.2 this.1 this.2
      · simp at hs
  | none =>
    simp only [ho, List.mem_singleton] at hs hmem
    split at hs
    · rename_i os hoff
      split at hs
      · rename_i b' hb
        split at hs
        · rename_i hc
          simp only [Option.some.injEq, Prod.mk.injEq] at hs
          obtain ⟨rfl, rfl⟩ := hs
          obtain ⟨h1, h2, h3, h4⟩ := hc
          have hsp := spreads_sound (fun o' ho' => hg.offsets o' (by
            rw [hoff]; exact List.mem_cons_of_mem _ ho')) hb (Offset.apply .easter (dayOf y 1 1))
          rw [hoff, List.foldl_cons, h1, h2] at hmem
          rw [← hmem] at hsp
          have hy1 : yearOf (dayOf y 1 1) = y := (toDate_monthStart (by omega) (by omega)).1
          have he := easter_doy y
          have hlt : dayOf y 1 1 < easter y := by
            have : dayOf y 1 1 = jan1 y := by unfold dayOf daysBeforeMonth; simp
            omega
          have hap : Offset.apply .easter (dayOf y 1 1) = easter y := by
            show nextAnnual easter _ = _
            unfold nextAnnual
            rw [hy1, if_pos hlt]
          rw [hap] at hsp
          refine ⟨?_, by omega, by omega⟩
          have := easter_plus (y := y) (k := d - easter y) (by omega) (by omega)
          rwa [show easter y + (d - easter y) = d by omega] at this
        · simp at hs
      · simp at hs
    · split at hs
      · rename_i b' hb
        split at hs
        · rename_i hc
          simp only [Option.some.injEq, Prod.mk.injEq] at hs
          obtain ⟨rfl, rfl⟩ := hs
          have := spreads_sound hg.offsets hb (dayOf y r.month r.day)
          rw [← hmem] at this
          exact hfin _ _ hc.1 hc.2 this.1 this.2
        · simp at hs
      · simp at hs

/-! ### Deciding whether a day is a holiday -/

/-- Does the rule have a holiday on day `d`? -/
def Rule.hits (r : Rule) (d : Int) : Bool :=
  match r.year with
  | some y => d == dayOf y r.month r.day
  | none => r.inBounds d &&
      match r.span with
      | some (a, b) =>
          let y := yearOf d
          let k := d - jan1 y
          decide (a ≤ k) && decide (k ≤ b) && (r.ofYear y).contains d
      | none => [yearOf d - 1, yearOf d, yearOf d + 1].any fun y => (r.ofYear y).contains d

theorem hits_iff {r : Rule} (hg : GoodRule r) (hn : Near r) (d : Int) :
    r.hits d = true ↔ IsHoliday r d := by
  unfold Rule.hits
  cases hy : r.year with
  | some y => rw [isHoliday_year hg hy]; simp
  | none =>
  have hh : IsHoliday r d ↔ (∃ y, d ∈ r.ofYear y) ∧ r.inBounds d = true := by
    unfold IsHoliday
    rw [hy, inBounds_iff]
    simp only [ofYear_iff hg]
  simp only
  rw [hh, Bool.and_eq_true, and_comm]
  refine and_congr_left fun _ => ?_
  cases hs : r.span with
  | some p =>
    obtain ⟨a, b⟩ := p
    simp only [Bool.and_eq_true, decide_eq_true_iff, List.contains_iff_mem]
    constructor
    · rintro ⟨_, h⟩; exact ⟨_, h⟩
    · rintro ⟨y, h⟩
      obtain ⟨rfl, h1, h2⟩ := span_sound hg hs h
      exact ⟨⟨by omega, by omega⟩, h⟩
  | none =>
    simp only [List.any_eq_true, List.contains_iff_mem]
    constructor
    · rintro ⟨y, _, h⟩; exact ⟨y, h⟩
    · rintro ⟨y, h⟩
      obtain ⟨y₁, y₂, hk, hin, h1, h2⟩ := hn y d ((ofYear_iff hg y d).1 h)
      rw [inYear_iff] at hin
      refine ⟨y₁, ?_, (ofYear_iff hg y₁ d).2 hk⟩
      simp only [List.mem_cons, List.not_mem_nil, or_false]
      omega

/-! ### Rules without common days -/

/-- The rule's first and last possible day. -/
def Rule.first (r : Rule) : Option Int :=
  match r.year with | some y => some (dayOf y r.month r.day) | none => r.startDate
def Rule.last (r : Rule) : Option Int :=
  match r.year with | some y => some (dayOf y r.month r.day) | none => r.endDate

theorem first_le {r : Rule} (hg : GoodRule r) {d : Int} (h : IsHoliday r d) :
    (∀ s, r.first = some s → s ≤ d) ∧ ∀ e, r.last = some e → d ≤ e := by
  unfold Rule.first Rule.last
  cases hy : r.year with
  | some y =>
    rw [isHoliday_year hg hy] at h
    simp only [Option.some.injEq, forall_eq']
    omega
  | none =>
    unfold IsHoliday at h
    rw [hy] at h
    exact h.2

theorem mem_dayRange (a b d : Int) : d ∈ dayRange a b ↔ a ≤ d ∧ d ≤ b := mem_yearRange a b d

/-- The last day of `r` is before the first one of `s`, or the overlap of the two periods is short and
contains no common holiday. -/
def Rule.endsBefore (r s : Rule) : Bool :=
  match r.last, s.first with
  | some e, some f => decide (e < f + 3) && (dayRange f e).all fun d => !(r.hits d && s.hits d)
  | _, _ => false

/-- The rules have no common holiday: their periods or their days of the year do not overlap. -/
def Rule.apart (r s : Rule) : Bool :=
  r.endsBefore s || s.endsBefore r ||
  match r.span, s.span with
  | some a, some b => decide (a.2 < b.1) || decide (b.2 < a.1)
  | _, _ => false

theorem endsBefore_sound {r s : Rule} (hr : GoodRule r) (hs : GoodRule s) (nr : Near r) (ns : Near s)
    (h : r.endsBefore s = true) (d : Int) : ¬ (IsHoliday r d ∧ IsHoliday s d) := by
  rintro ⟨h1, h2⟩
  unfold Rule.endsBefore at h
  split at h
  · rename_i e f he hf
    have a := (first_le hr h1).2 e he
    have b := (first_le hs h2).1 f hf
    rw [Bool.and_eq_true] at h
    have := List.all_eq_true.1 h.2 d ((mem_dayRange f e d).2 ⟨b, a⟩)
    rw [(hits_iff hr nr d).2 h1, (hits_iff hs ns d).2 h2] at this
    simp at this
  · simp at h

theorem isHoliday_ofYear {r : Rule} (hg : GoodRule r) {a b d : Int} (hs : r.span = some (a, b))
    (h : IsHoliday r d) : jan1 (yearOf d) + a ≤ d ∧ d ≤ jan1 (yearOf d) + b := by
  have hy : r.year = none := by
    unfold Rule.span at hs
    cases hy : r.year with
    | none => rfl
    | some y => simp [hy] at hs
  unfold IsHoliday at h
  rw [hy] at h
  obtain ⟨⟨y, hk⟩, _⟩ := h
  obtain ⟨rfl, h1, h2⟩ := span_sound hg hs ((ofYear_iff hg y d).2 hk)
  exact ⟨h1, h2⟩

theorem apart_sound {r s : Rule} (hr : GoodRule r) (hs : GoodRule s) (nr : Near r) (ns : Near s)
    (h : r.apart s = true) (d : Int) : ¬ (IsHoliday r d ∧ IsHoliday s d) := by
  unfold Rule.apart at h
  rw [Bool.or_eq_true, Bool.or_eq_true] at h
  rcases h with (h | h) | h
  · exact endsBefore_sound hr hs nr ns h d
  · intro hh; exact endsBefore_sound hs hr ns nr h d ⟨hh.2, hh.1⟩
  · rintro ⟨h1, h2⟩
    split at h
    · rename_i a b ha hb
      have k1 := isHoliday_ofYear hr (a := a.1) (b := a.2) ha h1
      have k2 := isHoliday_ofYear hs (a := b.1) (b := b.2) hb h2
      rw [Bool.or_eq_true, decide_eq_true_iff, decide_eq_true_iff] at h
      omega
    · simp at h

/-! ### Weekdays of a rule's holidays -/

/-- The weekday after applying an offset to a date of weekday `w` (`none`: unknown). -/
def Offset.weekdayAfter (w : Option Int) : Offset → Option Int
  | .days n => w.map fun w => (w + n) % 7
  | .easter => some 6
  | .annual _ => none
  | .weekday wd _ => some wd
  | .weekOfMonth _ wd => some wd
  | .lastWeekOfMonth wd => some wd

theorem weekdayAfter_sound {o : Offset} (hg : GoodOffset o) {w : Option Int} {u : Int}
    (hw : ∀ v, w = some v → weekday u = v) (v : Int) (hv : o.weekdayAfter w = some v) :
    weekday (o.apply u) = v := by
  cases o with
  | days n =>
    simp only [Offset.weekdayAfter, Option.map_eq_some_iff] at hv
    obtain ⟨a, ha, rfl⟩ := hv
    have := hw a ha
    simp only [Offset.apply]
    unfold weekday at *
    omega
  | easter =>
    simp only [Offset.weekdayAfter, Option.some.injEq] at hv
    subst hv
    rcases yearOf_nextEaster u with h | h <;> simp only [Offset.apply, h] <;> exact easter_sunday _
  | annual f => simp [Offset.weekdayAfter] at hv
  | weekday wd n =>
    simp only [Offset.weekdayAfter, Option.some.injEq] at hv
    subst hv
    have := (offset_moves hg u _).1 rfl
    exact (weekday_iff _ _).1 this.1
  | weekOfMonth week wd =>
    simp only [Offset.weekdayAfter, Option.some.injEq] at hv
    subst hv
    obtain ⟨⟨y, m, k, _, h, _⟩, _⟩ := (offset_moves hg u _).1 rfl
    exact (weekday_iff _ _).1 h
  | lastWeekOfMonth wd =>
    simp only [Offset.weekdayAfter, Option.some.injEq] at hv
    subst hv
    obtain ⟨⟨y, m, k, _, h, _⟩, _⟩ := (offset_moves hg u _).1 rfl
    exact (weekday_iff _ _).1 h

theorem weekdaysAfter_sound {os : List Offset} (hg : ∀ o ∈ os, GoodOffset o) {w : Option Int}
    {u : Int} (hw : ∀ v, w = some v → weekday u = v) (v : Int)
    (hv : os.foldl (fun w o => o.weekdayAfter w) w = some v) :
    weekday (os.foldl (fun d o => o.apply d) u) = v := by
  induction os generalizing w u with
  | nil => exact hw v hv
  | cons o os ih =>
    simp only [List.foldl_cons] at hv ⊢
    exact ih (fun o' h => hg o' (List.mem_cons_of_mem _ h))
      (fun v' h => weekdayAfter_sound (hg o List.mem_cons_self) hw v' h) hv

/-- All holidays of the rule, in every year, fall on the weekdays `ws`. -/
def Rule.weekdaysB (r : Rule) (ws : List Int) : Bool :=
  match r.year with
  | some y => ws.contains (weekday (dayOf y r.month r.day))
  | none =>
    (match r.daysOfWeek with | some l => l.all ws.contains | none => false) ||
    match r.observance with
    | some o => match o.table with
      | some t => (List.range 7).all fun w =>
          match t[w]? with
          | some l => l.all fun k => ws.contains ((w + k) % 7)
          | none => true
      | none => false
    | none => match r.offsets.foldl (fun w o => o.weekdayAfter w) none with
      | some w => ws.contains w
      | none => false

theorem weekdays_sound {r : Rule} (hg : GoodRule r) {ws : List Int} (h : r.weekdaysB ws = true)
    {d : Int} (hd : IsHoliday r d) : weekday d ∈ ws := by
  unfold Rule.weekdaysB at h
  cases hy : r.year with
  | some y =>
    rw [isHoliday_year hg hy] at hd
    rw [hy] at h
    simp only [List.contains_iff_mem] at h
    rw [hd]; exact h
  | none =>
  rw [hy] at h
  simp only [Bool.or_eq_true] at h
  unfold IsHoliday at hd
  rw [hy] at hd
  obtain ⟨⟨y, hk⟩, _⟩ := hd
  have hmem := (ofYear_iff hg y d).2 hk
  obtain ⟨hm, ha⟩ := List.mem_filter.1 hmem
  rcases h with h | h
  · unfold Rule.allowsDay at ha
    cases hw : r.daysOfWeek with
    | none => simp [hw] at h
    | some l =>
      simp only [hw] at h ha
      have := List.all_eq_true.1 h (weekday d) (List.contains_iff_mem.1 ha)
      exact List.contains_iff_mem.1 this
  · unfold Rule.applyRule at hm
    cases ho : r.observance with
    | some o =>
      simp only [ho] at h hm
      cases ht : o.table with
      | none => simp [ht] at h
      | some t =>
        simp only [ht] at h
        have hb := obs_table ht hm
        rw [byTable_iff] at hb
        obtain ⟨l, hl, hkm⟩ := hb
        have hr := weekday_range (dayOf y r.month r.day)
        have h1 := List.all_eq_true.1 h (weekday (dayOf y r.month r.day)).toNat
          (List.mem_range.2 (by omega))
        rw [hl] at h1
        simp only at h1
        have h2 := List.contains_iff_mem.1 (List.all_eq_true.1 h1 _ hkm)
        have e : (((weekday (dayOf y r.month r.day)).toNat : Int) + (d - dayOf y r.month r.day)) % 7
            = weekday d := by
          rw [Int.toNat_of_nonneg hr.1]
          unfold weekday
          omega
        rwa [e] at h2
    | none =>
      simp only [ho, List.mem_singleton] at h hm
      split at h
      · rename_i w hw
        have := weekdaysAfter_sound hg.offsets (w := none) (u := dayOf y r.month r.day)
          (fun v hv => by simp at hv) w hw
        rw [hm, this]
        exact List.contains_iff_mem.1 h
      · simp at h

end TC
