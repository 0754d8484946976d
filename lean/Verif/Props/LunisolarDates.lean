import Verif.Spec.LunisolarDates
import Verif.Props.Precomputed
import Verif.Props.LunisolarCal

/-!
# The commands of `etc/lunisolar` that print dates (C77)

From complete runs over the same minutes to the text that is printed, for all longitudes and all ways to compare
them, under the conditions of C65 on the events.
-/

namespace TC.Props
open Spec Spec.Lunisolar Tcal TestCsv Lunisolar

/-! ### The text -/

theorem weekdayName_eq {d w : Int} (h : IsWeekday d w) : weekdayName d = (dayName w).toList := by
  have hw := (weekday_iff d w).1 h
  obtain ⟨h0, h6, -⟩ := h
  unfold weekdayName
  rw [hw]
  obtain h | h | h | h | h | h | h : w = 0 ∨ w = 1 ∨ w = 2 ∨ w = 3 ∨ w = 4 ∨ w = 5 ∨ w = 6 := by omega
  all_goals subst h; decide

theorem shows_of {days : List Int} {f : Int → Str} {weekday : Bool}
    (h : ∀ d ∈ days, ∃ line, DateLine d weekday line ∧ f d = line ++ ['\n']) :
    ShowsDates days weekday (days.flatMap f) := by
  induction days with
  | nil => exact ⟨[], rfl, by simp, rfl⟩
  | cons d days ih =>
    obtain ⟨line, h1, h2⟩ := h d (List.mem_cons_self ..)
    obtain ⟨lines, h3, h4, h5⟩ := ih fun d hd => h d (List.mem_cons_of_mem _ hd)
    refine ⟨line :: lines, by simp [h3], fun k e l he hl => ?_, ?_⟩
    · cases k with
      | zero =>
        simp only [List.getElem?_cons_zero, Option.some.injEq] at he hl
        subst he hl
        exact h1
      | succ k =>
        simp only [List.getElem?_cons_succ] at he hl
        exact h4 k e l he hl
    · rw [List.flatMap_cons, List.map_cons, List.flatten_cons, ← h5, h2]
      have : "\n".toList = ['\n'] := by decide
      rw [this]

theorem str_blank : " ".toList = [' '] := by decide

/-- `print_dates` prints each date in its line; the weekday, if asked for, if pandas still has `weekday_name`. -/
theorem c77_print_dates {days : List Int} (hy : ∀ d ∈ days, ∀ date, DayNumber date d → 0 ≤ date.year)
    (weekday : Bool) :
    (∃ text, printDates true days weekday = .ok text ∧ ShowsDates days weekday text) ∧
    (∃ text, printDates false days false = .ok text ∧ ShowsDates days false text) ∧
    printDates false days true = .error .attributeError := by
  have hy : ∀ d ∈ days, 0 ≤ yearOf d := fun d hd =>
    hy d hd (toDate d) ((dayNumber_iff _ _).2 ⟨toDate_valid d, dayOf_toDate d⟩)
  have hplain : ShowsDates days false (days.flatMap fun d => dateText d ++ ['\n']) :=
    shows_of fun d hd => ⟨_, ⟨_, dateText_of (hy d hd), fun _ => rfl, (by intro h; cases h)⟩, rfl⟩
  refine ⟨?_, ⟨_, rfl, hplain⟩, rfl⟩
  cases weekday with
  | false => exact ⟨_, rfl, hplain⟩
  | true =>
    refine ⟨_, rfl, shows_of fun d hd => ?_⟩
    have hw : IsWeekday d (TC.weekday d) := (weekday_iff d _).2 rfl
    refine ⟨_, ⟨_, dateText_of (hy d hd), (by intro h; cases h), fun _ => ⟨_, hw, rfl⟩⟩, ?_⟩
    rw [← weekdayName_eq hw, str_blank]
    simp

example : printDates true [18291, 18652] true =
    .ok "2020-01-30 Thursday\n2021-01-25 Monday\n".toList := by decide +kernel
example : printDates false [18291, 18652] false = .ok "2020-01-30\n2021-01-25\n".toList := by decide +kernel

/-! ### The events -/

theorem atPhase_eq {β : Type} (lt : β → β → Bool) (dist : List β) (minutes : List Int) :
    minutesAtPhase lt dist minutes = calculateNewMoon lt (fun _ => true) dist minutes := by
  unfold minutesAtPhase calculateNewMoon
  rw [List.filter_eq_self.mpr]
  intro i hi
  obtain ⟨k, a, b, c, rfl, _, g2, _⟩ := (c65_local_cmp lt dist i).mp hi
  rw [g2]; rfl

theorem closest_of {α β : Type} (lt : β → β → Bool) (f : α → β) {sun : Int → α} {start e : Int} {vs : List α}
    {ms : List Int} (hm : EachMinute start e ms) (hs : BelongTo sun vs ms) (hlen : vs.length = ms.length)
    (hse : start ≤ e) :
    ∃ ss, minutesAtPhase lt (vs.map f) ms = .ok ss ∧ Closest lt (fun m => f (sun m)) start e ss := by
  obtain ⟨ss, h1, h2, h3⟩ := newMoons_of (fun a _ => f a) lt (fun _ => true) hm hs hs rfl
  rw [List.zipWith_self] at h1
  have he : start + (vs.length : Int) = e := by
    rw [hlen, each_unique hm, minuteRange_length]; omega
  rw [he] at h3
  refine ⟨ss, by rw [atPhase_eq]; exact h1, h2, fun m => ?_⟩
  rw [h3]
  simp only [and_true]

theorem NewMoons_unique {β : Type} {lt : β → β → Bool} {close : β → Bool} {dist : Int → β} {start stop : Int}
    {xs ys : List Int} (hx : NewMoons lt close dist start stop xs) (hy : NewMoons lt close dist start stop ys) :
    xs = ys := by
  have hp : xs.Perm ys := by
    rw [List.perm_ext_iff_of_nodup (hx.1.imp fun h => Int.ne_of_lt h) (hy.1.imp fun h => Int.ne_of_lt h)]
    intro m
    rw [hx.2, hy.2]
  exact hp.eq_of_pairwise (le := (· < ·)) (fun a b _ _ h1 h2 => by omega) hx.1 hy.1

theorem Closest_unique {β : Type} {lt : β → β → Bool} {dist : Int → β} {start stop : Int}
    {xs ys : List Int} (hx : Closest lt dist start stop xs) (hy : Closest lt dist start stop ys) : xs = ys := by
  refine NewMoons_unique (lt := lt) (close := fun _ => true) (dist := dist) (start := start) (stop := stop)
    ⟨hx.1, fun m => ?_⟩ ⟨hy.1, fun m => ?_⟩
  · rw [hx.2]; simp only [and_true]
  · rw [hy.2]; simp only [and_true]

theorem Events_unique {α β : Type} {S : Sky α β} {sun moon : Int → α} {start stop : Int} {a b c a' b' c' : List Int}
    (h : Events S sun moon start stop a b c) (h' : Events S sun moon start stop a' b' c') :
    a = a' ∧ b = b' ∧ c = c' := by
  obtain ⟨x, y, z, h1, h2, h3, rfl, rfl, rfl⟩ := h
  obtain ⟨x', y', z', h1', h2', h3', rfl, rfl, rfl⟩ := h'
  obtain rfl := NewMoons_unique h1 h1'
  obtain rfl := Closest_unique h2 h2'
  obtain rfl := Closest_unique h3 h3'
  exact ⟨rfl, rfl, rfl⟩

theorem skyData_ok {α β : Type} (S : Sky α β) (sun moon : Int → α) {start stop : Int} (hr : ProperRun start stop)
    {d d' : Dir α} (hd : NoUnderscore d) (hd' : NoUnderscore d') {solar lunar : Dir α}
    (hs : solar.Perm (simulate sun start stop d)) (hl : lunar.Perm (simulate moon start stop d'))
    {nm ss zs : List Int} (he : Events S sun moon start stop nm ss zs) : skyData S solar lunar = .ok (nm, ss, zs) := by
  obtain ⟨moons, m1, m2⟩ := c76_moons S.dist S.lt S.close sun moon hr hd hd' hs hl
  obtain ⟨vs, ms, e1, e2, l1, b1⟩ := c76_round_trip sun hr hd [] hs
  have hle := Int.le_of_lt hr.1
  obtain ⟨sol, s1, s2⟩ := closest_of S.lt S.solstice e2 b1 l1 hle
  obtain ⟨zh, z1, z2⟩ := closest_of S.lt S.zhongqi e2 b1 l1 hle
  have he' : Events S sun moon start stop (instants moons) (instants sol) (instants (zh.drop 1)) :=
    ⟨_, _, _, m2, s2, z2, rfl, rfl, by rw [List.drop_one]; rfl⟩
  obtain ⟨rfl, rfl, rfl⟩ := Events_unique he he'
  unfold skyData
  simp only [m1, e1, s1, z1, bind, Except.bind]
  rfl

theorem shanghai_east (u : Int) : 0 ≤ Zones.asiaShanghai.offsetAt u := by
  have hall : ∀ e ∈ Zones.asiaShanghai.trans, 0 ≤ e.2 := by decide +kernel
  rcases offsetAt_inForce clear_asiaShanghai.tame u with ⟨before, s, after, h, -, -⟩ | ⟨h, -⟩
  · exact hall _ (by rw [h]; exact List.mem_append_right _ (List.mem_cons_self ..))
  · rw [h]; decide +kernel

/-- The dates in China have a year. -/
theorem chineseDate_year {m d : Int} (hm : FourDigitYear m) (h : chineseDate (m * 60000000000) ≤ d) {date : Date}
    (hd : DayNumber date d) : 0 ≤ date.year := by
  obtain ⟨hv, rfl⟩ := (dayNumber_iff _ _).1 hd
  have h0 := (fourDigitYear_day hm).1
  have hle : m / 1440 ≤ dayOf date.year date.month date.day := by
    refine Int.le_trans ?_ h
    unfold chineseDate
    have := shanghai_east (m * 60000000000)
    have hD : DAY = 86400000000000 := rfl
    rw [hD]
    omega
  have h1 := yearOf_mono hle
  rw [yearOf_dayOf hv] at h1
  omega

theorem events_year {α β : Type} {S : Sky α β} {sun moon : Int → α} {start stop : Int} (hr : ProperRun start stop)
    {nm ss zs : List Int} (he : Events S sun moon start stop nm ss zs) {u : Int} (hu : u ∈ nm) {d : Int}
    (h : chineseDate u ≤ d) : ∀ date, DayNumber date d → 0 ≤ date.year := by
  obtain ⟨ms, -, -, hm, -, -, rfl, -⟩ := he
  obtain ⟨m, hm', rfl⟩ := List.mem_map.1 hu
  obtain ⟨h1, h2, -⟩ := (hm.2 m).1 hm'
  exact fun date => chineseDate_year (hr.2 m (by omega) (by omega)) h

/-- `chinese-new-year` prints the dates in China of the new moons that begin a year, in order.  The weekday, if
asked for, if pandas still has `weekday_name`. -/
theorem c77_new_year {α β : Type} (S : Sky α β) (sun moon : Int → α) {start stop : Int} (hr : ProperRun start stop)
    {d d' : Dir α} (hd : NoUnderscore d) (hd' : NoUnderscore d') {solar lunar : Dir α}
    (hs : solar.Perm (simulate sun start stop d)) (hl : lunar.Perm (simulate moon start stop d'))
    {nm ss zs : List Int} (he : Events S sun moon start stop nm ss zs) (hu : Usable nm ss zs) (named weekday : Bool)
    (hw : weekday = true → named = true) :
    ∃ text days, chineseNewYear S named solar lunar weekday = .ok text ∧ ShowsDates days weekday text ∧
      days.Pairwise (· < ·) ∧
      ∀ x, x ∈ days ↔ ∃ j m, nm[j]? = some m ∧ NewYearMonth nm ss zs j ∧ DateInChina m x := by
  obtain ⟨years, y1, y2, y3⟩ := c65_new_year hu
  have hmem : ∀ m ∈ years, m ∈ nm := fun m hm => by
    obtain ⟨j, hj, -⟩ := (y3 m).1 hm
    exact List.mem_of_getElem? hj
  obtain ⟨⟨t1, p1, q1⟩, ⟨t2, p2, q2⟩, -⟩ := c77_print_dates (days := years.map chineseDate) (by
    intro x hx
    obtain ⟨m, hm, rfl⟩ := List.mem_map.1 hx
    exact events_year hr he (hmem m hm) (Int.le_refl _)) weekday
  have hprint : ∃ text, printDates named (years.map chineseDate) weekday = .ok text ∧
      ShowsDates (years.map chineseDate) weekday text := by
    cases named with
    | true => exact ⟨t1, p1, q1⟩
    | false =>
      cases weekday with
      | true => exact absurd (hw rfl) (by simp)
      | false => exact ⟨t2, p2, q2⟩
  obtain ⟨text, h1, h2⟩ := hprint
  refine ⟨text, years.map chineseDate, ?_, h2, ?_, fun x => ?_⟩
  · unfold chineseNewYear
    simp only [skyData_ok S sun moon hr hd hd' hs hl he, y1, bind, Except.bind, h1]
  · rw [List.pairwise_map]
    refine y2.imp_of_mem fun {a b} ha hb hab => ?_
    obtain ⟨i, hi, -⟩ := (y3 a).1 ha
    obtain ⟨j, hj, -⟩ := (y3 b).1 hb
    obtain ⟨hi', rfl⟩ := List.getElem?_eq_some_iff.1 hi
    obtain ⟨hj', rfl⟩ := List.getElem?_eq_some_iff.1 hj
    have hij : i < j := by
      rcases Nat.lt_trichotomy i j with h | h | h
      · exact h
      · subst h; omega
      · have := (List.pairwise_iff_getElem.1 hu.moons j i hj' hi' h).1
        omega
    have := (List.pairwise_iff_getElem.1 hu.moons i j hi' hj' hij).2
    rw [notLater_iff] at this
    omega
  · rw [List.mem_map]
    constructor
    · rintro ⟨m, hm, rfl⟩
      obtain ⟨j, h1, h2⟩ := (y3 m).1 hm
      exact ⟨j, m, h1, h2, (dateInChina_iff _ _).2 rfl⟩
    · rintro ⟨j, m, h1, h2, h3⟩
      exact ⟨m, (y3 m).2 ⟨j, h1, h2⟩, (dateInChina_iff _ _).1 h3⟩

/-- `china-buddhas-birthday`, `dragon-boat-festival`, `mid-autumn-festival` and `double-ninth-festival` print, for
each year that begins in the data, the festival's day in its month, leap months not counted; if the data end before
that month of a year begins, they raise `IndexError`. -/
theorem c77_festival {α β : Type} (S : Sky α β) (sun moon : Int → α) {start stop : Int} (hr : ProperRun start stop)
    {d d' : Dir α} (hd : NoUnderscore d) (hd' : NoUnderscore d') {solar lunar : Dir α}
    (hs : solar.Perm (simulate sun start stop d)) (hl : lunar.Perm (simulate moon start stop d'))
    {nm ss zs : List Int} (he : Events S sun moon start stop nm ss zs) (hu : Usable nm ss zs) (named weekday : Bool)
    (hw : weekday = true → named = true) {f : Festival} {n : Nat} {day : Int} (hf : Observed f n day) :
    ∃ years : List Nat, years.Pairwise (· < ·) ∧ (∀ j, j ∈ years ↔ NewYearMonth nm ss zs j) ∧
      ((∃ text days, festival S named f solar lunar weekday = .ok text ∧ ShowsDates days weekday text ∧
        days.length = years.length ∧
        ∀ (k j : Nat) (x : Int), years[k]? = some j → days[k]? = some x →
          ∃ i m, KthAfter (Numbered nm ss zs) n j i ∧ nm[i]? = some m ∧ DateInChina m (x - (day - 1))) ∨
      ((∃ j ∈ years, ∀ i, ¬ KthAfter (Numbered nm ss zs) n j i) ∧
        festival S named f solar lunar weekday = .error .indexError)) := by
  have hmd : f.monthDay = ((n : Int) + 1, day) ∧ 1 ≤ day := by cases hf <;> decide
  obtain ⟨years, y1, y2, y3⟩ := c65_nth_day hu n day
  refine ⟨years, y1, y2, ?_⟩
  unfold festival
  rw [hmd.1]
  rcases y3 with ⟨-, days, z1, z2, z3⟩ | ⟨z1, z2⟩
  · left
    obtain ⟨⟨t1, p1, q1⟩, ⟨t2, p2, q2⟩, -⟩ := c77_print_dates (days := days) (by
      intro x hx
      obtain ⟨k, hk, rfl⟩ := List.getElem_of_mem hx
      obtain ⟨i, m, -, hm, hdate⟩ := z3 k years[k] days[k] (List.getElem?_eq_getElem (by omega))
        (List.getElem?_eq_getElem hk)
      rw [dateInChina_iff] at hdate
      exact events_year hr he (List.mem_of_getElem? hm) (by omega)) weekday
    have hprint : ∃ text, printDates named days weekday = .ok text ∧ ShowsDates days weekday text := by
      cases named with
      | true => exact ⟨t1, p1, q1⟩
      | false =>
        cases weekday with
        | true => exact absurd (hw rfl) (by simp)
        | false => exact ⟨t2, p2, q2⟩
    obtain ⟨text, h1, h2⟩ := hprint
    refine ⟨text, days, ?_, h2, z2, z3⟩
    simp only [skyData_ok S sun moon hr hd hd' hs hl he, z1, bind, Except.bind, h1]
  · right
    refine ⟨z1, ?_⟩
    simp only [skyData_ok S sun moon hr hd hd' hs hl he, z2, bind, Except.bind]

/-- `qingming-festival` prints the dates in China of the minutes at which the sun is nearest to its longitude, in
order. -/
theorem c77_qingming {α β : Type} (S : Sky α β) (sun : Int → α) {start stop : Int} (hr : ProperRun start stop)
    {d : Dir α} (hd : NoUnderscore d) {solar : Dir α} (hs : solar.Perm (simulate sun start stop d))
    (named weekday : Bool) (hw : weekday = true → named = true) :
    ∃ text days ms, qingmingFestival S named solar weekday = .ok text ∧ ShowsDates days weekday text ∧
      Closest S.lt (fun m => S.qingming (sun m)) start stop ms ∧ days.length = ms.length ∧
      ∀ (k : Nat) m x, ms[k]? = some m → days[k]? = some x → DateInChina (m * 60000000000) x := by
  obtain ⟨vs, minutes, e1, e2, l1, b1⟩ := c76_round_trip sun hr hd [] hs
  obtain ⟨ms, s1, s2⟩ := closest_of S.lt S.qingming e2 b1 l1 (Int.le_of_lt hr.1)
  obtain ⟨⟨t1, p1, q1⟩, ⟨t2, p2, q2⟩, -⟩ := c77_print_dates (days := (instants ms).map chineseDate) (by
    intro x hx
    obtain ⟨u, hu, rfl⟩ := List.mem_map.1 hx
    obtain ⟨m, hm, rfl⟩ := List.mem_map.1 hu
    obtain ⟨g1, g2, -⟩ := (s2.2 m).1 hm
    exact fun date => chineseDate_year (hr.2 m (by omega) (by omega)) (Int.le_refl _)) weekday
  have hprint : ∃ text, printDates named ((instants ms).map chineseDate) weekday = .ok text ∧
      ShowsDates ((instants ms).map chineseDate) weekday text := by
    cases named with
    | true => exact ⟨t1, p1, q1⟩
    | false =>
      cases weekday with
      | true => exact absurd (hw rfl) (by simp)
      | false => exact ⟨t2, p2, q2⟩
  obtain ⟨text, h1, h2⟩ := hprint
  refine ⟨text, (instants ms).map chineseDate, ms, ?_, h2, s2, by simp [instants], fun k m x hm hx => ?_⟩
  · unfold qingmingFestival
    simp only [e1, s1, bind, Except.bind, h1]
  · unfold instants at hx
    rw [List.map_map, List.getElem?_map, hm] at hx
    exact (dateInChina_iff _ _).2 (Option.some.inj hx)

/-- `chinese-cal` with a month and a year prints that month of the year that begins in the year asked for; with a
year only, the twelve months of it.  The grids are those of C71. -/
theorem c77_chinese_cal {α β : Type} (S : Sky α β) (sun moon : Int → α) {start stop : Int} (hr : ProperRun start stop)
    {d d' : Dir α} (hd : NoUnderscore d) (hd' : NoUnderscore d') {solar lunar : Dir α}
    (hs : solar.Perm (simulate sun start stop d)) (hl : lunar.Perm (simulate moon start stop d'))
    {nm ss zs : List Int} (he : Events S sun moon start stop nm ss zs) (hu : Usable nm ss zs) {y : Int} {j : Nat}
    (hj : YearBegins nm ss zs y j) :
    (∀ (n i i' : Nat) (m m' a b : Int), KthAfter (Numbered nm ss zs) n j i → KthAfter (Numbered nm ss zs) 1 i i' →
      nm[i]? = some m → nm[i']? = some m' → DateInChina m a → DateInChina m' b →
      ∃ lines, chineseCalFrom S solar lunar (n + 1) (some y) = .ok (printed lines ++ ['\n']) ∧
        LunarMonthLines a b (n + 1) (decide (30 < b - a)) (some y) lines) ∧
    ∀ (idx : Nat → Nat) (first : Nat → Int), (∀ n, n ≤ 12 → KthAfter (Numbered nm ss zs) n j (idx n) ∧
        ∃ m, nm[idx n]? = some m ∧ DateInChina m (first n)) →
      ∃ text, chineseCalFrom S solar lunar y none = .ok text ∧ ShowsLunarYear first y text := by
  have hsky := skyData_ok S sun moon hr hd hd' hs hl he
  have h : ∀ month year, chineseCalFrom S solar lunar month year = chineseCal nm ss zs month year := by
    intro month year
    unfold chineseCalFrom
    simp only [hsky, bind, Except.bind]
  simp only [h]
  exact ⟨fun n i i' m m' a b h1 h2 h3 h4 h5 h6 => c71_month hu hj h1 h2 h3 h4 h5 h6, fun idx first hi => c71_year hu hj hi⟩

/-- Finding: with the version of pandas that the project fixes (1.1.3, without `weekday_name`) the option
`--weekday` raises `AttributeError`, whatever the data, if there is no other exception. -/
theorem c77_weekday {α β : Type} (S : Sky α β) (solar lunar : Dir α) (f : Festival) :
    (∃ e, chineseNewYear S false solar lunar true = .error e) ∧
    (∃ e, qingmingFestival S false solar true = .error e) ∧
    (∃ e, festival S false f solar lunar true = .error e) ∧
    (∀ text, chineseNewYear S false solar lunar false = .ok text →
      chineseNewYear S false solar lunar true = .error .attributeError) ∧
    (∀ text, qingmingFestival S false solar false = .ok text →
      qingmingFestival S false solar true = .error .attributeError) ∧
    ∀ text, festival S false f solar lunar false = .ok text →
      festival S false f solar lunar true = .error .attributeError := by
  have hone : ∀ (p : Py (List Int)), (∃ e, (p >>= fun x => printDates false x true) = .error e) ∧
      ∀ text, (p >>= fun x => printDates false x false) = .ok text →
        (p >>= fun x => printDates false x true) = .error .attributeError := by
    intro p
    cases p with
    | error e => exact ⟨⟨e, rfl⟩, fun _ h => by cases h⟩
    | ok x => exact ⟨⟨_, rfl⟩, fun _ _ => rfl⟩
  have e1 : ∀ w, chineseNewYear S false solar lunar w = ((skyData S solar lunar >>= fun x =>
      calculateNewYear x.1 x.2.1 x.2.2 >>= fun y => .ok (y.map chineseDate)) >>= fun x => printDates false x w) := by
    intro w
    unfold chineseNewYear
    simp only [bind, Except.bind]
    cases skyData S solar lunar with
    | error e => rfl
    | ok x =>
      obtain ⟨x, y, z⟩ := x
      simp only
      cases calculateNewYear x y z <;> rfl
  have e2 : ∀ w, qingmingFestival S false solar w = ((load solar >>= fun x =>
      minutesAtPhase S.lt (x.1.map S.qingming) x.2 >>= fun y => .ok ((instants y).map chineseDate)) >>=
      fun x => printDates false x w) := by
    intro w
    unfold qingmingFestival
    simp only [bind, Except.bind]
    cases load solar with
    | error e => rfl
    | ok x =>
      obtain ⟨x, y⟩ := x
      simp only
      cases minutesAtPhase S.lt (x.map S.qingming) y <;> rfl
  have e3 : ∀ w, festival S false f solar lunar w = ((skyData S solar lunar >>= fun x =>
      nthDayOfNthMonth x.1 x.2.1 x.2.2 f.monthDay.1 f.monthDay.2) >>= fun x => printDates false x w) := by
    intro w
    unfold festival
    simp only [bind, Except.bind]
    cases skyData S solar lunar with
    | error e => rfl
    | ok x => rfl
  rw [e1, e1, e2, e2, e3, e3]
  exact ⟨(hone _).1, (hone _).1, (hone _).1, (hone _).2, (hone _).2, (hone _).2⟩

/-! ### A case

The events of C65 (28 new moons, a month without zhongqi in a sui of thirteen months and one in a sui of twelve), in
minutes; a longitude is the minute itself, and the distance is 0 at the events and 1 elsewhere. -/

def skyAt (i k : Int) : Int := i * 30 * 1440 + 1000000 + k * 1440
def skyMoons : List Int := (List.range 28).map fun (i : Nat) => skyAt i 0
def skySolstices : List Int := [skyAt 1 10, skyAt 14 10, skyAt 26 10]
/-- With the one that is dropped. -/
def skyZhongqi : List Int :=
  (skyAt 0 (-10)) :: ((List.range 28).filter fun i => i != 5 && i != 20).map fun (i : Nat) => skyAt i 10
def skyCase : Sky Int Nat where
  dist a _ := if a ∈ skyMoons then 0 else 1
  lt a b := decide (a < b)
  close a := decide (a = 0)
  solstice a := if a ∈ skySolstices then 0 else 1
  zhongqi a := if a ∈ skyZhongqi then 0 else 1
  qingming a := if a = skyAt 4 5 then 0 else 1

theorem sky_marked {ms : List Int} (h : ms.Pairwise fun a b => a + 1 < b) {start stop : Int}
    (hb : ∀ m ∈ ms, start < m ∧ m + 1 < stop) :
    Closest (fun a b : Nat => decide (a < b)) (fun m => if m ∈ ms then 0 else 1) start stop ms := by
  refine ⟨h.imp fun h => by omega, fun m => ?_⟩
  have hnot : ∀ x y, x ∈ ms → y ∈ ms → x + 1 ≠ y := by
    intro x y hx hy he
    obtain ⟨i, hi, rfl⟩ := List.getElem_of_mem hx
    obtain ⟨j, hj, rfl⟩ := List.getElem_of_mem hy
    rcases Nat.lt_trichotomy i j with hij | hij | hij
    · have := List.pairwise_iff_getElem.1 h i j hi hj hij; omega
    · subst hij; omega
    · have := List.pairwise_iff_getElem.1 h j i hj hi hij; omega
  constructor
  · intro hm
    have h1 : m - 1 ∉ ms := fun hc => hnot _ _ hc hm (by omega)
    have h2 : m + 1 ∉ ms := fun hc => hnot _ _ hm hc rfl
    refine ⟨(hb m hm).1, (hb m hm).2, ?_, ?_⟩ <;> simp [hm, h1, h2]
  · rintro ⟨-, -, h1, -⟩
    apply Classical.byContradiction
    intro hm
    simp only [hm, if_false, decide_eq_true_eq] at h1
    split at h1 <;> omega

theorem sky_events : Events skyCase (fun m => m) (fun m => m) 900000 2209600 (skyMoons.map (· * 60000000000))
    (skySolstices.map (· * 60000000000)) (skyZhongqi.tail.map (· * 60000000000)) := by
  have hm := sky_marked (ms := skyMoons) (start := 900000) (stop := 2209600) (by decide +kernel) (by decide +kernel)
  refine ⟨skyMoons, skySolstices, skyZhongqi, ⟨hm.1, fun m => ?_⟩,
    sky_marked (by decide +kernel) (by decide +kernel), sky_marked (by decide +kernel) (by decide +kernel), rfl, rfl, rfl⟩
  constructor
  · intro h
    obtain ⟨h1, h2, h3, h4⟩ := (hm.2 m).1 h
    exact ⟨h1, h2, h3, h4, by simp [skyCase, h]⟩
  · rintro ⟨h1, h2, h3, h4, -⟩
    exact (hm.2 m).2 ⟨h1, h2, h3, h4⟩

theorem sky_usable : Usable (skyMoons.map (· * 60000000000)) (skySolstices.map (· * 60000000000))
    (skyZhongqi.tail.map (· * 60000000000)) := usable_of (by decide +kernel)

theorem sky_run : ProperRun 900000 2209600 :=
  ⟨by decide, fun m h1 h2 => longRun_four (by omega) (by omega)⟩

example := c77_new_year skyCase (fun m => m) (fun m => m) sky_run (d := []) (d' := []) (by simp [NoUnderscore])
  (by simp [NoUnderscore]) (.refl _) (.refl _) sky_events sky_usable true true (fun _ => rfl)
example := c77_festival skyCase (fun m => m) (fun m => m) sky_run (d := []) (d' := []) (by simp [NoUnderscore])
  (by simp [NoUnderscore]) (.refl _) (.refl _) sky_events sky_usable false false (by simp) .buddhasBirthday
theorem sky_begins : YearBegins (skyMoons.map (· * 60000000000)) (skySolstices.map (· * 60000000000))
    (skyZhongqi.tail.map (· * 60000000000)) 1972 3 := by
  rw [show skyMoons.map (· * 60000000000) = caseMoons by decide +kernel,
    show skySolstices.map (· * 60000000000) = caseSolstices by decide +kernel,
    show skyZhongqi.tail.map (· * 60000000000) = caseZhongqi by decide +kernel]
  exact case_year

example := c77_chinese_cal skyCase (fun m => m) (fun m => m) sky_run (d := []) (d' := []) (by simp [NoUnderscore])
  (by simp [NoUnderscore]) (.refl _) (.refl _) sky_events sky_usable sky_begins
example := c77_qingming skyCase (fun m => m) sky_run (d := []) (by simp [NoUnderscore]) (.refl _) false false (by simp)
/-- The two years of the case, from its events on. -/
example : (calculateNewYear (skyMoons.map (· * 60000000000)) (skySolstices.map (· * 60000000000))
    (skyZhongqi.tail.map (· * 60000000000)) >>= fun y => printDates true (y.map chineseDate) true) =
    .ok "1972-02-24 Thursday\n1973-03-20 Tuesday\n".toList := by decide +kernel
example : (chineseNewYear skyCase true [] [] false) =
    .error (.valueError "need at least one array to concatenate") := by decide +kernel

end TC.Props
