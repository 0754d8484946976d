import Verif.Spec.Moons
import Verif.Lemmas.Feasts
import Verif.Props.RuleBooks

/-!
# C90: the tables of festivals agree with the calendars they are written in
-/

namespace TC.Props
open Spec

set_option maxRecDepth 100000

/-- Decides `NearMoon`. -/
def nearB (early late k d : Int) : Bool :=
  decide (10962590000 + 29530589 * k - early ≤ 1000000 * d) && decide (1000000 * d ≤ 10962590000 + 29530589 * k + late)

theorem nearB_iff (early late k d : Int) : nearB early late k d = true ↔ NearMoon early late k d := by
  simp [nearB, NearMoon]

/-- The moon next to day `d`. -/
def moonAt (d : Int) : Int := (1000000 * d - 10962590000 + 14765294) / 29530589

/-- C90: a day is near one moon only, so months cannot be mistaken for each other. -/
theorem c90_one_moon {early late k k' d : Int} (hs : early + late < 29530589) (h : NearMoon early late k d)
    (h' : NearMoon early late k' d) : k = k' := by
  unfold NearMoon at *
  omega

theorem entry_at {table : List Int} {y₀ : Int} {n : Nat}
    (h : table.map yearOf = (List.range n).map fun (i : Nat) => y₀ + i) {i : Nat} (hi : i < n) :
    EntryOf table (y₀ + i) (table.getD i 0) := by
  have hl : table.length = n := by simpa using congrArg List.length h
  have hy : ∀ j (hj : j < table.length), yearOf table[j] = y₀ + j := by
    intro j hj
    have := congrArg (·[j]?) h
    simp [hj, hl ▸ hj] at this
    exact this
  have hi' : i < table.length := by omega
  have e : table.getD i 0 = table[i] := by simp [List.getD, hi']
  rw [e]
  refine ⟨List.getElem_mem _, (inYear_iff _ _).2 (hy i hi'), fun d' hd' hy' => ?_⟩
  obtain ⟨j, hj, rfl⟩ := List.mem_iff_getElem.1 hd'
  have h1 := hy j hj
  have h2 := (inYear_iff _ _).1 hy'
  obtain rfl : i = j := by omega
  rfl

/-- Each festival is recorded once for each year. -/
theorem chinese_years : LunisolarHolidays.chineseLunarNewYearDates.map yearOf =
      (List.range 90).map (fun (i : Nat) => 1960 + (i : Int)) ∧
    (LunisolarHolidays.chineseBuddhasBirthdayDates.map yearOf =
      (List.range 91).map fun (i : Nat) => 1959 + (i : Int)) ∧
    (LunisolarHolidays.dragonBoatFestivalDates.map yearOf =
      (List.range 90).map fun (i : Nat) => 1960 + (i : Int)) ∧
    (LunisolarHolidays.midAutumnFestivalDates.map yearOf =
      (List.range 90).map fun (i : Nat) => 1960 + (i : Int)) ∧
    (LunisolarHolidays.doubleNinthFestivalDates.map yearOf =
      (List.range 91).map fun (i : Nat) => 1959 + (i : Int)) ∧
    (LunisolarHolidays.qingmingFestivalDates.map yearOf =
      (List.range 90).map fun (i : Nat) => 1960 + (i : Int)) := by
  decide +kernel

/-- For each year the last month that is known to be before the leap month, `0` without one. -/
def chineseLeaps : List Nat :=
  [5, 0, 0, 4, 0, 0, 1, 0, 5, 0, 0, 5, 0, 0, 4, 0, 8, 0, 0, 5, 0, 0, 4, 0, 9, 0, 0, 5, 0, 0, 5, 0, 0, 1, 0, 8, 0, 0, 5,
   0, 0, 4, 0, 0, 1, 0, 5, 0, 0, 5, 0, 0, 4, 0, 9, 0, 0, 5, 0, 0, 4, 0, 0, 1, 0, 5, 0, 0, 5, 0, 0, 1, 0, 9, 0, 0, 5, 0,
   0, 5, 0, 0, 1, 0, 5, 0, 0, 5, 0, 0]

/-- The moon of the new year of 1960 + `i`. -/
def chineseFirst (i : Nat) : Int := moonAt (LunisolarHolidays.chineseLunarNewYearDates.getD i 0)

theorem chinese_check : ((List.range 90).all fun i => i == 74 ||
    (nearB 1300000 900000 (chineseMoon (chineseFirst i) (chineseLeaps.getD i 0) 1)
        (LunisolarHolidays.chineseLunarNewYearDates.getD i 0 - (1 - 1)) &&
      nearB 1300000 900000 (chineseMoon (chineseFirst i) (chineseLeaps.getD i 0) 4)
        (LunisolarHolidays.chineseBuddhasBirthdayDates.getD (i + 1) 0 - (8 - 1)) &&
      nearB 1300000 900000 (chineseMoon (chineseFirst i) (chineseLeaps.getD i 0) 5)
        (LunisolarHolidays.dragonBoatFestivalDates.getD i 0 - (5 - 1)) &&
      nearB 1300000 900000 (chineseMoon (chineseFirst i) (chineseLeaps.getD i 0) 8)
        (LunisolarHolidays.midAutumnFestivalDates.getD i 0 - (15 - 1)) &&
      nearB 1300000 900000 (chineseMoon (chineseFirst i) (chineseLeaps.getD i 0) 9)
        (LunisolarHolidays.doubleNinthFestivalDates.getD (i + 1) 0 - (9 - 1)) &&
      decide (chineseLeaps.getD i 0 ≤ 12) &&
      (i == 89 || nearB 1300000 900000 (chineseMoon (chineseFirst i) (chineseLeaps.getD i 0) 13)
        (LunisolarHolidays.chineseLunarNewYearDates.getD (i + 1) 0 - (1 - 1))))) = true := by
  decide +kernel

/-- C90: in every year from 1960 to 2049 but 2034 the festivals of the Chinese calendar are recorded, once each, on the
days of the lunar months they are named after, with one leap month in the year or none, which also gives the next new
year. -/
theorem c90_chinese {y : Int} (h0 : 1960 ≤ y) (h1 : y ≤ 2049) (h2 : y ≠ 2034) :
    ∃ (k : Int) (leap : Nat), leap ≤ 12 ∧
      (∀ f ∈ chineseFestivals, ∃ d, EntryOf f.1 y d ∧ ChineseDate k leap f.2.1 f.2.2 d) ∧
      (y < 2049 → ∃ d, EntryOf LunisolarHolidays.chineseLunarNewYearDates (y + 1) d ∧ ChineseDate k leap 13 1 d) := by
  obtain ⟨i, hi, rfl⟩ : ∃ i : Nat, i < 90 ∧ y = 1960 + i := ⟨(y - 1960).toNat, by omega, by omega⟩
  have hc := List.all_eq_true.1 chinese_check i (List.mem_range.2 hi)
  have hne : (i == 74) = false := by
    rw [beq_eq_false_iff_ne]
    omega
  rw [hne, Bool.false_or] at hc
  simp only [Bool.and_eq_true, Bool.or_eq_true, nearB_iff, decide_eq_true_iff] at hc
  obtain ⟨⟨⟨⟨⟨⟨c1, c2⟩, c3⟩, c4⟩, c5⟩, c6⟩, c7⟩ := hc
  obtain ⟨e1, e2, e3, e4, e5, -⟩ := chinese_years
  refine ⟨chineseFirst i, chineseLeaps.getD i 0, c6, ?_, fun hy => ?_⟩
  · have s : (1960 : Int) + i = 1959 + (i + 1 : Nat) := by omega
    intro f hf
    simp only [chineseFestivals, List.mem_cons, List.not_mem_nil, or_false] at hf
    rcases hf with rfl | rfl | rfl | rfl | rfl
    · exact ⟨_, entry_at e1 hi, c1⟩
    · exact ⟨_, s ▸ entry_at e2 (i := i + 1) (by omega), c2⟩
    · exact ⟨_, entry_at e3 hi, c3⟩
    · exact ⟨_, entry_at e4 hi, c4⟩
    · exact ⟨_, s ▸ entry_at e5 (i := i + 1) (by omega), c5⟩
  · have s : (1960 : Int) + i + 1 = 1960 + (i + 1 : Nat) := by omega
    rcases c7 with h | h
    · rw [beq_iff_eq] at h
      omega
    · exact ⟨_, s ▸ entry_at e1 (i := i + 1) (by omega), h⟩

/-- The festivals recorded for 2034. -/
theorem chinese_2034 : EntryOf LunisolarHolidays.chineseLunarNewYearDates 2034 (dayOf 2034 2 19) ∧
    EntryOf LunisolarHolidays.chineseBuddhasBirthdayDates 2034 (dayOf 2034 4 26) ∧
    EntryOf LunisolarHolidays.dragonBoatFestivalDates 2034 (dayOf 2034 5 22) ∧
    EntryOf LunisolarHolidays.midAutumnFestivalDates 2034 (dayOf 2034 8 28) ∧
    EntryOf LunisolarHolidays.doubleNinthFestivalDates 2034 (dayOf 2034 9 21) := by
  obtain ⟨e1, e2, e3, e4, e5, -⟩ := chinese_years
  refine ⟨?_, ?_, ?_, ?_, ?_⟩
  · exact entry_at e1 (i := 74) (by omega)
  · exact entry_at e2 (i := 75) (by omega)
  · exact entry_at e3 (i := 74) (by omega)
  · exact entry_at e4 (i := 74) (by omega)
  · exact entry_at e5 (i := 75) (by omega)

/-- C90: in 2034 the tables contradict each other: whichever leap month the year has, none of the four later festivals
is in the month it is named after, counted from the new year of the table.  Without a leap month before them they are
all a month early. -/
theorem c90_2034 {k : Int} {leap : Nat} {d : Int}
    (hd : EntryOf LunisolarHolidays.chineseLunarNewYearDates 2034 d) (hk : ChineseDate k leap 1 1 d) :
    ∀ f ∈ chineseFestivals, f.2.1 ≠ 1 → ∃ d, EntryOf f.1 2034 d ∧ ¬ ChineseDate k leap f.2.1 f.2.2 d ∧
      ChineseDate k 0 (f.2.1 - 1) f.2.2 d := by
  obtain ⟨e1, e2, e3, e4, e5⟩ := chinese_2034
  obtain rfl := e1.2.2 d hd.1 hd.2.1
  have hk' : k = moonAt (dayOf 2034 2 19) := by
    refine c90_one_moon (by decide) (?_ : NearMoon 1300000 900000 k (dayOf 2034 2 19 - (1 - 1))) ?_
    · unfold ChineseDate chineseMoon at hk
      rw [if_neg (by omega)] at hk
      simpa using hk
    · rw [← nearB_iff]
      decide
  rw [show moonAt (dayOf 2034 2 19) = 422 by decide] at hk'
  subst hk'
  have hl : ∀ m : Nat, 422 + (m : Int) - 1 ≤ chineseMoon 422 leap m := by
    intro m
    unfold chineseMoon
    split <;> omega
  have no : ∀ (m : Nat) (n d : Int), 1000000 * (d - (n - 1)) < 10962590000 - 1300000 + 29530589 * (421 + (m : Int)) →
      ¬ ChineseDate 422 leap m n d := by
    intro m n d h hc
    have h1 := hl m
    have h2 := hc.1
    omega
  intro f hf hne
  simp only [chineseFestivals, List.mem_cons, List.not_mem_nil, or_false] at hf
  rcases hf with rfl | rfl | rfl | rfl | rfl
  · exact absurd rfl hne
  · exact ⟨_, e2, no 4 8 _ (by decide), (nearB_iff _ _ _ _).1 (by decide)⟩
  · exact ⟨_, e3, no 5 5 _ (by decide), (nearB_iff _ _ _ _).1 (by decide)⟩
  · exact ⟨_, e4, no 8 15 _ (by decide), (nearB_iff _ _ _ _).1 (by decide)⟩
  · exact ⟨_, e5, no 9 9 _ (by decide), (nearB_iff _ _ _ _).1 (by decide)⟩

theorem open_of_trades {x : Exchange} (hg : GoodRules x.regular) {d : Int} (h : x.tradesB d = true) : OpenOn x d :=
  fun _ _ _ _ hb hm h1 h2 => (sessions_iff hg hb hm h1 h2).2 ((tradesB_iff hg d).1 h)

theorem closed_of_trades {x : Exchange} (hg : GoodRules x.regular) {d : Int} (h : x.tradesB d = false) : ClosedOn x d := by
  intro _ _ _ _ hb hm h1 h2 hs
  have := (tradesB_iff hg d).2 ((sessions_iff hg hb hm h1 h2).1 hs)
  rw [h] at this
  cases this

/-- C90: so in 2034 Hong Kong is closed on weekdays that are no festivals and open on Buddha's birthday, the dragon boat
festival, the day after the mid-autumn festival and the double ninth festival. -/
theorem c90_hong_kong :
    ClosedOn Xhkg.exchange (dayOf 2034 4 26) ∧ ClosedOn Xhkg.exchange (dayOf 2034 5 22) ∧
    ClosedOn Xhkg.exchange (dayOf 2034 8 29) ∧ ClosedOn Xhkg.exchange (dayOf 2034 9 21) ∧
    (OpenOn Xhkg.exchange (dayOf 2034 5 25) ∧ ChineseDate 422 0 4 8 (dayOf 2034 5 25)) ∧
    (OpenOn Xhkg.exchange (dayOf 2034 6 20) ∧ ChineseDate 422 0 5 5 (dayOf 2034 6 20)) ∧
    (OpenOn Xhkg.exchange (dayOf 2034 9 28) ∧ ChineseDate 422 0 8 16 (dayOf 2034 9 28)) ∧
    (OpenOn Xhkg.exchange (dayOf 2034 10 20) ∧ ChineseDate 422 0 9 9 (dayOf 2034 10 20)) := by
  have g := rules_of_check xhkg_check
  refine ⟨closed_of_trades g (by decide +kernel), closed_of_trades g (by decide +kernel),
    closed_of_trades g (by decide +kernel), closed_of_trades g (by decide +kernel),
    ⟨open_of_trades g (by decide +kernel), (nearB_iff _ _ _ _).1 (by decide)⟩,
    ⟨open_of_trades g (by decide +kernel), (nearB_iff _ _ _ _).1 (by decide)⟩,
    ⟨open_of_trades g (by decide +kernel), (nearB_iff _ _ _ _).1 (by decide)⟩,
    ⟨open_of_trades g (by decide +kernel), (nearB_iff _ _ _ _).1 (by decide)⟩⟩

/-- C90: and Taipei on the dragon boat and the mid-autumn festival. -/
theorem c90_taipei :
    ClosedOn Xtai.exchange (dayOf 2034 5 22) ∧ ClosedOn Xtai.exchange (dayOf 2034 8 28) ∧
    (OpenOn Xtai.exchange (dayOf 2034 6 20) ∧ ChineseDate 422 0 5 5 (dayOf 2034 6 20)) ∧
    (OpenOn Xtai.exchange (dayOf 2034 9 27) ∧ ChineseDate 422 0 8 15 (dayOf 2034 9 27)) := by
  have g := rules_of_check xtai_check
  exact ⟨closed_of_trades g (by decide +kernel), closed_of_trades g (by decide +kernel),
    ⟨open_of_trades g (by decide +kernel), (nearB_iff _ _ _ _).1 (by decide)⟩,
    ⟨open_of_trades g (by decide +kernel), (nearB_iff _ _ _ _).1 (by decide)⟩⟩

/-- C90: the tomb-sweeping festival is recorded on April 4 or 5, once for each year from 1960 to 2049. -/
theorem c90_qingming {y : Int} (h0 : 1960 ≤ y) (h1 : y ≤ 2049) :
    ∃ d, EntryOf LunisolarHolidays.qingmingFestivalDates y d ∧
      (DayNumber ⟨y, 4, 4⟩ d ∨ DayNumber ⟨y, 4, 5⟩ d) := by
  obtain ⟨i, hi, rfl⟩ : ∃ i : Nat, i < 90 ∧ y = 1960 + i := ⟨(y - 1960).toNat, by omega, by omega⟩
  have hc : ((List.range 90).all fun i =>
      LunisolarHolidays.qingmingFestivalDates.getD i 0 == dayOf (1960 + i) 4 4 ||
      LunisolarHolidays.qingmingFestivalDates.getD i 0 == dayOf (1960 + i) 4 5) = true := by decide +kernel
  have := List.all_eq_true.1 hc i (List.mem_range.2 hi)
  rw [Bool.or_eq_true, beq_iff_eq, beq_iff_eq] at this
  exact ⟨_, entry_at chinese_years.2.2.2.2.2 hi,
    this.imp (fun h => (dn (by decide) _ _).2 h) (fun h => (dn (by decide) _ _).2 h)⟩

/-! ### The Islamic calendar -/

theorem islamic_yearly_check : (islamicYearly.all fun e =>
    e.1.dates.map (fun d => moonAt (d - (e.1.day - 1))) ==
      (List.range (e.2.2 - e.2.1 + 1).toNat).map (fun (i : Nat) => islamicMoon (e.2.1 + i) e.1.month) &&
    e.1.dates.all fun d => nearB e.1.early e.1.late (moonAt (d - (e.1.day - 1))) (d - (e.1.day - 1))) = true := by
  decide +kernel

/-- C90: the tables with an entry for each Islamic year have exactly one for each, at the festival. -/
theorem c90_islamic {t : IslamicTable} {h₀ h₁ : Int} (ht : (t, h₀, h₁) ∈ islamicYearly) :
    (∀ h, h₀ ≤ h → h ≤ h₁ → ∃ d ∈ t.dates, t.In h d) ∧
    t.dates.length = h₁ - h₀ + 1 ∧
    ∀ d ∈ t.dates, ∃ h, h₀ ≤ h ∧ h ≤ h₁ ∧ t.In h d := by
  have hc := List.all_eq_true.1 islamic_yearly_check _ ht
  simp only [Bool.and_eq_true, beq_iff_eq] at hc
  obtain ⟨hm, hn⟩ := hc
  have hle : h₀ ≤ h₁ := by
    simp only [islamicYearly, List.mem_cons, List.not_mem_nil, or_false, Prod.mk.injEq] at ht
    rcases ht with ⟨-, rfl, rfl⟩ | ⟨-, rfl, rfl⟩ | ⟨-, rfl, rfl⟩ | ⟨-, rfl, rfl⟩ | ⟨-, rfl, rfl⟩ | ⟨-, rfl, rfl⟩ |
      ⟨-, rfl, rfl⟩ | ⟨-, rfl, rfl⟩ <;> decide
  have near : ∀ d ∈ t.dates, ∀ h, moonAt (d - (t.day - 1)) = islamicMoon h t.month → t.In h d := by
    intro d hd h e
    have := (nearB_iff _ _ _ _).1 (List.all_eq_true.1 hn d hd)
    rw [e] at this
    exact this
  refine ⟨fun h h1 h2 => ?_, ?_, fun d hd => ?_⟩
  · have : islamicMoon h t.month ∈ t.dates.map fun d => moonAt (d - (t.day - 1)) := by
      rw [hm]
      refine List.mem_map.2 ⟨(h - h₀).toNat, List.mem_range.2 (by omega), ?_⟩
      congr 1
      omega
    obtain ⟨d, hd, e⟩ := List.mem_map.1 this
    exact ⟨d, hd, near d hd h e⟩
  · have := congrArg List.length hm
    simp only [List.length_map, List.length_range] at this
    omega
  · have : moonAt (d - (t.day - 1)) ∈ t.dates.map fun d => moonAt (d - (t.day - 1)) := List.mem_map_of_mem hd
    rw [hm] at this
    obtain ⟨i, hi, e⟩ := List.mem_map.1 this
    rw [List.mem_range] at hi
    exact ⟨h₀ + i, by omega, by omega, near d hd _ e.symm⟩

/-- C90: the prophet's birthday in Malaysia is recorded for each Islamic year from 1401 to 1471 but 1436, when it was on
Saturday 2015-01-03. -/
theorem c90_mawlid :
    (∀ h, 1401 ≤ h → h ≤ 1471 → h ≠ 1436 → ∃ d ∈ mawlidTable.dates, mawlidTable.In h d) ∧
    (∀ d ∈ mawlidTable.dates, ∃ h, 1401 ≤ h ∧ h ≤ 1471 ∧ mawlidTable.In h d) ∧
    (∀ d ∈ mawlidTable.dates, ¬ mawlidTable.In 1436 d) ∧
    mawlidTable.In 1436 (dayOf 2015 1 3) ∧ IsWeekday (dayOf 2015 1 3) 5 := by
  have hc : (((List.range 71).all fun (i : Nat) => i == 35 ||
      mawlidTable.dates.any fun d => nearB mawlidTable.early mawlidTable.late (islamicMoon (1401 + i) mawlidTable.month)
        (d - (mawlidTable.day - 1))) &&
      (mawlidTable.dates.all fun d => (List.range 71).any fun (i : Nat) => nearB mawlidTable.early mawlidTable.late
        (islamicMoon (1401 + i) mawlidTable.month) (d - (mawlidTable.day - 1))) &&
      (mawlidTable.dates.all fun d => !nearB mawlidTable.early mawlidTable.late (islamicMoon 1436 mawlidTable.month)
        (d - (mawlidTable.day - 1)))) = true := by
    decide +kernel
  simp only [Bool.and_eq_true] at hc
  obtain ⟨⟨c1, c2⟩, c3⟩ := hc
  refine ⟨fun h h1 h2 h3 => ?_, fun d hd => ?_, fun d hd hin => ?_, (nearB_iff _ _ _ _).1 (by decide),
    (weekday_iff _ _).2 (by decide)⟩
  · obtain ⟨i, hi, rfl⟩ : ∃ i : Nat, i < 71 ∧ h = 1401 + i := ⟨(h - 1401).toNat, by omega, by omega⟩
    have := List.all_eq_true.1 c1 i (List.mem_range.2 hi)
    rw [Bool.or_eq_true, beq_iff_eq] at this
    rcases this with h | h
    · omega
    · obtain ⟨d, hd, hn⟩ := List.any_eq_true.1 h
      exact ⟨d, hd, (nearB_iff _ _ _ _).1 hn⟩
  · obtain ⟨i, hi, hn⟩ := List.any_eq_true.1 (List.all_eq_true.1 c2 d hd)
    rw [List.mem_range] at hi
    exact ⟨1401 + i, by omega, by omega, (nearB_iff _ _ _ _).1 hn⟩
  · have := List.all_eq_true.1 c3 d hd
    rw [(nearB_iff _ _ _ _).2 hin] at this
    cases this

/-- C90: every day off that Jakarta and Karachi record for an Islamic festival belongs to it. -/
theorem c90_days_off {t : IslamicTable} (ht : t ∈ islamicDaysOff) {d : Int} (hd : d ∈ t.dates) : ∃ h, t.In h d := by
  have hc : (islamicDaysOff.all fun t => t.dates.all fun d =>
      nearB t.early t.late (islamicMoon (1421 + (moonAt (d - (t.day - 1)) - t.month - 2) / 12) t.month)
        (d - (t.day - 1))) = true := by
    decide +kernel
  exact ⟨_, (nearB_iff _ _ _ _).1 (List.all_eq_true.1 (List.all_eq_true.1 hc t ht) d hd)⟩

/-- C90: so does every day recorded for the night journey but 2012-05-18, which is in the month before. -/
theorem c90_isra {d : Int} (hd : d ∈ israTable.dates) :
    (d ≠ dayOf 2012 5 18 → ∃ h, israTable.In h d) ∧ (d = dayOf 2012 5 18 → ∀ h, ¬ israTable.In h d) := by
  have hc : (israTable.dates.all fun d => d == dayOf 2012 5 18 ||
      nearB israTable.early israTable.late (islamicMoon (1421 + (moonAt (d - 26) - 9) / 12) 7) (d - 26)) = true := by
    decide +kernel
  refine ⟨fun hne => ?_, ?_⟩
  · have := List.all_eq_true.1 hc d hd
    rw [Bool.or_eq_true, beq_iff_eq] at this
    rcases this with h | h
    · exact absurd h hne
    · exact ⟨_, (nearB_iff _ _ _ _).1 h⟩
  · rintro rfl h ⟨h1, h2⟩
    simp only [israTable, islamicMoon] at h1 h2
    rw [show dayOf 2012 5 18 = 15478 by decide] at h1 h2
    omega

/-! ### The Thai calendar -/

theorem thai_years : (XbkkHolidays.makhaBucha.map yearOf = (List.range 40).map fun (i : Nat) => 1981 + (i : Int)) ∧
    (XbkkHolidays.vesak.map yearOf = (List.range 40).map fun (i : Nat) => 1981 + (i : Int)) ∧
    (XbkkHolidays.asanhaBucha.map yearOf = (List.range 40).map fun (i : Nat) => 1981 + (i : Int)) := by
  decide +kernel

/-- C90: the three Buddhist holidays of Bangkok are recorded once for each year from 1981 to 2020, at full moon and
three and two months apart. -/
theorem c90_thai {y : Int} (h0 : 1981 ≤ y) (h1 : y ≤ 2020) :
    ∃ k d₁ d₂ d₃, EntryOf XbkkHolidays.makhaBucha y d₁ ∧ EntryOf XbkkHolidays.vesak y d₂ ∧
      EntryOf XbkkHolidays.asanhaBucha y d₃ ∧ FullMoon k d₁ ∧ FullMoon (k + 3) d₂ ∧ FullMoon (k + 5) d₃ := by
  obtain ⟨i, hi, rfl⟩ : ∃ i : Nat, i < 40 ∧ y = 1981 + i := ⟨(y - 1981).toNat, by omega, by omega⟩
  have hc : ((List.range 40).all fun i =>
      nearB 900000 2500000 (moonAt (XbkkHolidays.makhaBucha.getD i 0 - 14)) (XbkkHolidays.makhaBucha.getD i 0 - 14) &&
      nearB 900000 2500000 (moonAt (XbkkHolidays.makhaBucha.getD i 0 - 14) + 3) (XbkkHolidays.vesak.getD i 0 - 14) &&
      nearB 900000 2500000 (moonAt (XbkkHolidays.makhaBucha.getD i 0 - 14) + 5)
        (XbkkHolidays.asanhaBucha.getD i 0 - 14)) = true := by
    decide +kernel
  have := List.all_eq_true.1 hc i (List.mem_range.2 hi)
  simp only [Bool.and_eq_true, nearB_iff] at this
  obtain ⟨⟨a, b⟩, c⟩ := this
  obtain ⟨e1, e2, e3⟩ := thai_years
  exact ⟨_, _, _, _, entry_at e1 hi, entry_at e2 hi, entry_at e3 hi, a, b, c⟩

/-! ### Equinoxes -/

theorem equinox_years :
    (XtksHolidays.vernalEquinoxes.map yearOf = (List.range 22).map fun (i : Nat) => 2000 + (i : Int)) ∧
    (XtksHolidays.autumnalEquinoxes.map yearOf = (List.range 22).map fun (i : Nat) => 2000 + (i : Int)) := by
  decide +kernel

theorem dn_day {y m k : Int} (h : (m = 3 ∧ 19 ≤ k ∧ k ≤ 22) ∨ (m = 9 ∧ 21 ≤ k ∧ k ≤ 24)) (d : Int) :
    DayNumber ⟨y, m, k⟩ d ↔ d = dayOf y m k := by
  refine dn ?_ _ _
  have : k = 19 ∨ k = 20 ∨ k = 21 ∨ k = 22 ∨ k = 23 ∨ k = 24 := by omega
  rcases h with ⟨rfl, _⟩ | ⟨rfl, _⟩ <;> rcases this with rfl | rfl | rfl | rfl | rfl | rfl <;> decide

theorem vernalDay_range {y : Int} (h0 : 2000 ≤ y) (h1 : y ≤ 2099) : 19 ≤ vernalDay y ∧ vernalDay y ≤ 22 := by
  unfold vernalDay
  omega

theorem autumnalDay_range {y : Int} (h0 : 2000 ≤ y) (h1 : y ≤ 2099) : 21 ≤ autumnalDay y ∧ autumnalDay y ≤ 24 := by
  unfold autumnalDay
  omega

/-- C90: the equinoxes of 2000 to 2021 are recorded by the formula, those on a Sunday on the Monday after. -/
theorem c90_equinoxes {y : Int} (h0 : 2000 ≤ y) (h1 : y ≤ 2021) {u v : Int}
    (hu : DayNumber ⟨y, 3, vernalDay y⟩ u) (hv : DayNumber ⟨y, 9, autumnalDay y⟩ v) :
    (∃ d, EntryOf XtksHolidays.vernalEquinoxes y d ∧ MadeUp u d) ∧
    ∃ d, EntryOf XtksHolidays.autumnalEquinoxes y d ∧ MadeUp v d := by
  obtain rfl := (dn_day (.inl ⟨rfl, vernalDay_range h0 (by omega)⟩) u).1 hu
  obtain rfl := (dn_day (.inr ⟨rfl, autumnalDay_range h0 (by omega)⟩) v).1 hv
  obtain ⟨i, hi, rfl⟩ : ∃ i : Nat, i < 22 ∧ y = 2000 + i := ⟨(y - 2000).toNat, by omega, by omega⟩
  have hc : ((List.range 22).all fun (i : Nat) =>
      (XtksHolidays.vernalEquinoxes.getD i 0 == dayOf (2000 + i) 3 (vernalDay (2000 + i)) +
        if weekday (dayOf (2000 + i) 3 (vernalDay (2000 + i))) = 6 then 1 else 0) &&
      (XtksHolidays.autumnalEquinoxes.getD i 0 == dayOf (2000 + i) 9 (autumnalDay (2000 + i)) +
        if weekday (dayOf (2000 + i) 9 (autumnalDay (2000 + i))) = 6 then 1 else 0)) = true := by
    decide +kernel
  have := List.all_eq_true.1 hc i (List.mem_range.2 hi)
  rw [Bool.and_eq_true, beq_iff_eq, beq_iff_eq] at this
  refine ⟨⟨_, entry_at equinox_years.1 hi, ?_⟩, ⟨_, entry_at equinox_years.2 hi, ?_⟩⟩
  · rw [this.1]
    unfold MadeUp
    rw [weekday_iff]
    split <;> simp_all
  · rw [this.2]
    unfold MadeUp
    rw [weekday_iff]
    split <;> simp_all

/-- C90: later equinoxes are not recorded: from 2022 to 2099 Tokyo is open on both, on weekdays. -/
theorem c90_tokyo {y : Int} (h0 : 2022 ≤ y) (h1 : y ≤ 2099) {d : Int} (hw : Weekday d)
    (hd : DayNumber ⟨y, 3, vernalDay y⟩ d ∨ DayNumber ⟨y, 9, autumnalDay y⟩ d) : OpenOn Xtks.exchange d := by
  have hc : ((List.range 78).all fun (i : Nat) =>
      (decide (4 < weekday (dayOf (2022 + i) 3 (vernalDay (2022 + i)))) ||
        Xtks.exchange.tradesB (dayOf (2022 + i) 3 (vernalDay (2022 + i)))) &&
      (decide (4 < weekday (dayOf (2022 + i) 9 (autumnalDay (2022 + i)))) ||
        Xtks.exchange.tradesB (dayOf (2022 + i) 9 (autumnalDay (2022 + i))))) = true := by
    decide +kernel
  obtain ⟨i, hi, rfl⟩ : ∃ i : Nat, i < 78 ∧ y = 2022 + i := ⟨(y - 2022).toNat, by omega, by omega⟩
  have := List.all_eq_true.1 hc i (List.mem_range.2 hi)
  simp only [Bool.and_eq_true, Bool.or_eq_true, decide_eq_true_iff] at this
  rw [weekday_5] at hw
  refine open_of_trades (rules_of_check xtks_check) ?_
  rcases hd with hd | hd
  · obtain rfl := (dn_day (.inl ⟨rfl, vernalDay_range (by omega) (by omega)⟩) d).1 hd
    rcases this.1 with h | h
    · omega
    · exact h
  · obtain rfl := (dn_day (.inr ⟨rfl, autumnalDay_range (by omega) (by omega)⟩) d).1 hd
    rcases this.2 with h | h
    · omega
    · exact h

/-! ### Cases -/

/-- Hypotheses met: the equinox of 2022 was on Monday, March 21; the one of 2010 on Sunday, March 21. -/
example : DayNumber ⟨2022, 3, vernalDay 2022⟩ (dayOf 2022 3 21) ∧ Weekday (dayOf 2022 3 21) ∧
    DayNumber ⟨2010, 3, vernalDay 2010⟩ (dayOf 2010 3 21) ∧ MadeUp (dayOf 2010 3 21) (dayOf 2010 3 22) := by
  refine ⟨(dn_day (by decide) _).2 (by decide), (weekday_5 _).2 (by decide), (dn_day (by decide) _).2 (by decide),
    .inl ⟨(weekday_iff _ _).2 (by decide), by decide⟩⟩

/-- Hypotheses met: the new year of 2034 is near a moon. -/
example : EntryOf LunisolarHolidays.chineseLunarNewYearDates 2034 (dayOf 2034 2 19) ∧
    ChineseDate 422 0 1 1 (dayOf 2034 2 19) :=
  ⟨chinese_2034.1, (nearB_iff _ _ _ _).1 (by decide)⟩

theorem build_of {x : Exchange} {z : Tz} {first : Int} (hc : ConstructibleFrom x z first []) (hx : x.check [] = true)
    {a o c : Int} (hf : first ≤ a) (h1 : a ≤ o) (h2 : o ≤ c) (ho : x.tradesB o = true) :
    ∃ b, build (x.config z) (a * DAY) (c * DAY) = .ok b := by
  have mono : ∀ a b : Int, a ≤ b → a * DAY ≤ b * DAY := fun a b h => by simp only [DAY]; omega
  obtain ⟨b, hb, -⟩ := (hc (a * DAY) (c * DAY) (mono _ _ hf) (Int.dvd_mul_left ..)).succeeds (by simp)
    ⟨o, mono _ _ h1, mono _ _ h2, (tradesB_iff (rules_of_check hx) o).1 ho⟩
  exact ⟨b, hb⟩

/-- Calendars of Hong Kong, Taipei and Tokyo over ranges with these days exist. -/
example : (∃ b, build (Xhkg.exchange.config Xhkg.zone) (dayOf 2034 1 1 * DAY) (dayOf 2034 12 31 * DAY) = .ok b) ∧
    (∃ b, build (Xtai.exchange.config Xtai.zone) (dayOf 2034 1 1 * DAY) (dayOf 2034 12 31 * DAY) = .ok b) ∧
    (∃ b, build (Xtks.exchange.config Xtks.zone) (dayOf 2022 1 1 * DAY) (dayOf 2022 12 31 * DAY) = .ok b) :=
  ⟨build_of c54_xhkg_zone xhkg_check (o := dayOf 2034 5 25) (by decide) (by decide) (by decide) (by decide +kernel),
    build_of c54_xtai_zone xtai_check (o := dayOf 2034 6 20) (by decide) (by decide) (by decide) (by decide +kernel),
    build_of c54_xtks_zone xtks_check (o := dayOf 2022 3 21) (by decide) (by decide) (by decide) (by decide +kernel)⟩

end TC.Props
