import Verif.Lemmas.Lunisolar
import Verif.Lemmas.BuildSucceeds

/-!
# The months of the script `etc/lunisolar` (C65)

For all arrays of new moons, solstices and zhongqi that are usable.  The case after each theorem has 28 months;
solstices are in months 1, 14 and 26, and months 5 and 20 are without zhongqi: month 5 is in a sui of thirteen
months, month 20 in a sui of twelve.
-/

namespace TC.Props
open Spec Spec.Lunisolar Lunisolar

/-- `local_cmp` finds the places at which the comparison holds with both neighbours. -/
theorem c65_local_cmp {α : Type} (f : α → α → Bool) (arr : List α) (i : Nat) :
    i ∈ localCmp f arr ↔ ∃ k a b c, i = k + 1 ∧ arr[k]? = some a ∧ arr[k + 1]? = some b ∧
      arr[k + 2]? = some c ∧ f b a = true ∧ f b c = true := by
  unfold localCmp
  simp only [List.mem_filter, List.mem_range, List.length_cons, List.length_zipWith, List.length_drop,
    List.length_dropLast, Bool.and_eq_true]
  cases i with
  | zero =>
    simp
  | succ k =>
    simp only [List.getD_eq_getElem?_getD, List.getElem?_cons_succ, Nat.add_right_cancel_iff]
    constructor
    · rintro ⟨h1, h2, h3⟩
      have hk : k + 1 < arr.length := by omega
      have hk2 : k + 2 < arr.length := by
        apply Classical.byContradiction
        intro hn
        rw [List.getElem?_append_right (by simp; omega)] at h3
        have : k + 1 - (List.zipWith f arr.dropLast (arr.drop 1)).length = 0 := by simp; omega
        rw [this] at h3; simp at h3
      rw [List.getElem?_append_left (by simp; omega)] at h3
      refine ⟨k, arr[k], arr[k + 1], arr[k + 2], rfl, by simp, by simp [hk], by simp [hk2], ?_, ?_⟩
      · rw [List.getElem?_eq_getElem (by simp; omega)] at h2
        simpa [Nat.add_comm] using h2
      · rw [List.getElem?_eq_getElem (by simp; omega)] at h3
        simpa [Nat.add_comm, Nat.add_left_comm] using h3
    · rintro ⟨k', a, b, c, rfl, h1, h2, h3, h4, h5⟩
      obtain ⟨hk2, rfl⟩ := List.getElem?_eq_some_iff.mp h3
      obtain ⟨hk1, rfl⟩ := List.getElem?_eq_some_iff.mp h2
      obtain ⟨hk0, rfl⟩ := List.getElem?_eq_some_iff.mp h1
      refine ⟨by omega, ?_, ?_⟩
      · rw [List.getElem?_eq_getElem (by simp; omega)]
        simpa [Nat.add_comm] using h4
      · rw [List.getElem?_append_left (by simp; omega), List.getElem?_eq_getElem (by simp; omega)]
        simpa [Nat.add_comm, Nat.add_left_comm] using h5

example : 3 ∈ localCmp (fun a b : Int => decide (a < b)) [3, 1, 2, 0, 5, 4, 4, 6] :=
  (c65_local_cmp _ _ _).mpr ⟨2, 2, 0, 5, rfl, rfl, rfl, rfl, rfl, rfl⟩

/-- `calculate_new_moon` yields, in order, the minutes at which sun and moon are closer than at the minute
before and the minute after and that pass the threshold. -/
theorem c65_new_moon {α : Type} (lt : α → α → Bool) (close : α → Bool) (diff : List α) (minutes : List Int)
    (hlen : diff.length ≤ minutes.length) (hs : minutes.Pairwise (· < ·)) :
    ∃ moons, calculateNewMoon lt close diff minutes = .ok moons ∧ moons.Pairwise (· < ·) ∧
      ∀ m, m ∈ moons ↔ ∃ k a b c, minutes[k + 1]? = some m ∧ diff[k]? = some a ∧ diff[k + 1]? = some b ∧
        diff[k + 2]? = some c ∧ lt b a = true ∧ lt b c = true ∧ close b = true := by
  have hmem := fun i => c65_local_cmp lt diff i
  have hok : ∀ i ∈ (localCmp lt diff).filter (fun i => (diff[i]?).any close),
      pyIndex minutes (i : Int) = .ok (minutes.getD i 0) ∧ i < minutes.length := by
    intro i hi
    obtain ⟨k, a, b, c, rfl, _, h2, _⟩ := (hmem i).mp (List.mem_filter.mp hi).1
    obtain ⟨h, _⟩ := List.getElem?_eq_some_iff.mp h2
    exact ⟨by rw [pyIndex_nat _ _ (by omega), getD_at], by omega⟩
  refine ⟨_, mapM_ok fun i hi => (hok i hi).1, List.pairwise_map.mpr ?_, fun m => ?_⟩
  · refine List.Pairwise.imp_of_mem (fun _ hb hab => getD_lt hs (hok _ hb).2 hab) ?_
    exact List.Pairwise.filter _ (List.Pairwise.filter _ List.pairwise_lt_range)
  · rw [List.mem_map]
    constructor
    · rintro ⟨i, hi, rfl⟩
      have hlt := (hok i hi).2
      obtain ⟨h1, h2⟩ := List.mem_filter.mp hi
      obtain ⟨k, a, b, c, rfl, g1, g2, g3, g4, g5⟩ := (hmem i).mp h1
      rw [g2] at h2
      exact ⟨k, a, b, c, by rw [List.getElem?_eq_getElem hlt, getD_at hlt], g1, g2, g3, g4, g5, h2⟩
    · rintro ⟨k, a, b, c, hm, g1, g2, g3, g4, g5, g6⟩
      obtain ⟨hlt, rfl⟩ := List.getElem?_eq_some_iff.mp hm
      refine ⟨k + 1, List.mem_filter.mpr ⟨(hmem _).mpr ⟨k, a, b, c, rfl, g1, g2, g3, g4, g5⟩, ?_⟩, getD_at hlt⟩
      rw [g2]; exact g6

example : calculateNewMoon (fun a b : Int => decide (a < b)) (fun a => decide (a < 2)) [3, 1, 3, 2, 5]
    [10, 11, 12, 13, 14] = .ok [11] := by decide +kernel

/-- `minutes_at_phase` likewise, without threshold. -/
theorem c65_minutes_at_phase {α : Type} (lt : α → α → Bool) (dist : List α) (minutes : List Int)
    (hlen : dist.length = minutes.length) (hs : minutes.Pairwise (· < ·)) :
    ∃ ms, minutesAtPhase lt dist minutes = .ok ms ∧ ms.Pairwise (· < ·) ∧
      ∀ m, m ∈ ms ↔ ∃ k a b c, minutes[k + 1]? = some m ∧ dist[k]? = some a ∧ dist[k + 1]? = some b ∧
        dist[k + 2]? = some c ∧ lt b a = true ∧ lt b c = true := by
  obtain ⟨ms, h1, h2, h3⟩ := c65_new_moon lt (fun _ => true) dist minutes (Nat.le_of_eq hlen) hs
  refine ⟨ms, ?_, h2, fun m => by rw [h3]; simp only [and_true]⟩
  rw [← h1]
  unfold minutesAtPhase calculateNewMoon
  rw [List.filter_eq_self.mpr]
  intro i hi
  obtain ⟨k, a, b, c, rfl, _, g2, _⟩ := (c65_local_cmp lt dist i).mp hi
  rw [g2]; rfl

example : minutesAtPhase (fun a b : Int => decide (a < b)) [3, 1, 3, 2, 5] [10, 11, 12, 13, 14] =
    .ok [11, 13] := by decide +kernel

/-- `chinese_month_start` yields the new moons that begin a numbered month, in order, and for each solstice
the place of its month among them. -/
theorem c65_month_starts {newMoons solstices zhongqi : List Int} (h : Usable newMoons solstices zhongqi) :
    ∃ months eleventh, chineseMonthStart newMoons solstices zhongqi = .ok (months, eleventh) ∧
      months.Pairwise (· < ·) ∧
      (∀ m, m ∈ months ↔ ∃ i, newMoons[i]? = some m ∧ ¬ LeapMonth newMoons solstices zhongqi i) ∧
      eleventh.length = solstices.length ∧
      ∀ (j p : Nat) (e : Int), solstices[j]? = some e → eleventh[j]? = some p →
        ∃ i m, InMonth newMoons e i ∧ newMoons[i]? = some m ∧ months[p]? = some m := by
  refine ⟨_, _, chineseMonthStart_kept h, kept_sorted h.sorted, fun m => ?_, by simp, fun j p e hj hp => ?_⟩
  · simp only [List.mem_map]
    constructor
    · rintro ⟨i, hi, rfl⟩
      have hr := (mem_keptList i).mp hi
      exact ⟨i, by simp [List.getD_eq_getElem?_getD, List.getElem?_eq_getElem hr.1], hr.2⟩
    · rintro ⟨i, hi, hl⟩
      obtain ⟨hlt, rfl⟩ := List.getElem?_eq_some_iff.mp hi
      exact ⟨i, (mem_keptList i).mpr ⟨hlt, hl⟩, by simp [List.getD_eq_getElem?_getD, List.getElem?_eq_getElem hlt]⟩
  · have he : e ∈ solstices := List.mem_of_getElem? hj
    have hm := h.month he
    have hr := h.regular ⟨e, he, hm⟩
    rw [List.getElem?_map, hj] at hp
    cases hp
    refine ⟨_, newMoons.getD (pos newMoons e) 0, hm,
      by simp [List.getD_eq_getElem?_getD, List.getElem?_eq_getElem hr.1], ?_⟩
    have := searchLeft_kept h.sorted hr
    rw [List.getElem?_map, this]
    rfl

/-- The case: new moons every thirty days. -/
def caseAt (i k : Int) : Int := i * 30 * DAY + 1000000 * MINUTE + k * DAY
def caseMoons : List Int := (List.range 28).map fun (i : Nat) => caseAt i 0
def caseSolstices : List Int := [caseAt 1 10, caseAt 14 10, caseAt 26 10]
def caseZhongqi : List Int :=
  ((List.range 28).filter fun i => i != 5 && i != 20).map fun (i : Nat) => caseAt i 10

theorem case_usable : Usable caseMoons caseSolstices caseZhongqi := usable_of (by decide +kernel)

example : ∃ e, chineseMonthStart caseMoons caseSolstices caseZhongqi =
    .ok (caseMoons.filter (· != caseAt 5 0), e) := ⟨[1, 13, 25], by decide +kernel⟩

/-- From the month of a solstice to that of the next it is exactly twelve numbered months, if the sui has
twelve months, or thirteen and one is without zhongqi. -/
theorem c65_sui {newMoons solstices zhongqi : List Int} (h : Usable newMoons solstices zhongqi) {a b : Nat}
    (ha : SuiMonth newMoons solstices a) (hb : SuiMonth newMoons solstices b)
    (hab : ∀ k, a < k → k < b → ¬ SuiMonth newMoons solstices k)
    (hl : b = a + 12 ∨ b = a + 13 ∧ ∃ x, a < x ∧ x < b ∧ ¬ HasZhongqi newMoons zhongqi x) :
    KthAfter (Numbered newMoons solstices zhongqi) 12 a b := by
  have hbl := (h.regular hb).1
  rcases hl with rfl | ⟨rfl, x, hx⟩
  · refine kthAfter_run fun x h1 h2 => ?_
    rcases Nat.lt_or_eq_of_le h2 with h3 | rfl
    · exact ⟨by omega, fun hlp => hlp.2.2.1 ⟨a, h1, h3, ha, hb, hab⟩⟩
    · exact h.regular hb
  · -- the first month without zhongqi
    have hfirst : ∃ x, a < x ∧ x < a + 13 ∧ ¬ HasZhongqi newMoons zhongqi x ∧
        ∀ y, a < y → y < x → HasZhongqi newMoons zhongqi y := by
      induction x using Nat.strongRecOn with
      | _ x ih =>
        by_cases hy : ∃ y, a < y ∧ y < x ∧ ¬ HasZhongqi newMoons zhongqi y
        · obtain ⟨y, h1, h2, h3⟩ := hy
          exact ih y h2 ⟨h1, by omega, h3⟩
        · refine ⟨x, hx.1, hx.2.1, hx.2.2, fun y h1 h2 => ?_⟩
          apply Classical.byContradiction
          intro h3
          exact hy ⟨y, h1, h2, h3⟩
    obtain ⟨x, h1, h2, h3, h4⟩ := hfirst
    have hleap : LeapMonth newMoons solstices zhongqi x := by
      refine ⟨by omega, h3, ?_, fun k hk hkz => ⟨a, ?_, by omega, ha⟩⟩
      · rintro ⟨c, c1, c2, c3, c4, c5⟩
        have e1 : c = a := by
          rcases Nat.lt_trichotomy c a with hh | hh | hh
          · exact absurd ha (c5 a hh (by omega))
          · exact hh
          · exact absurd c3 (hab c hh (by omega))
        subst e1
        exact hab (c + 12) (by omega) (by omega) c4
      · rcases Nat.lt_trichotomy k a with hh | hh | hh
        · exact hh
        · exact absurd (h.sui a ha) (hh ▸ hkz)
        · exact absurd (h4 k hh hk) hkz
    have hbefore : ∀ y, a < y → y < x → Numbered newMoons solstices zhongqi y := fun y g1 g2 =>
      ⟨by omega, fun hlp => hlp.2.1 (h4 y g1 g2)⟩
    have hafter : ∀ y, x < y → y ≤ a + 13 → Numbered newMoons solstices zhongqi y := by
      intro y g1 g2
      rcases Nat.lt_or_eq_of_le g2 with g3 | rfl
      · refine ⟨by omega, fun hlp => ?_⟩
        obtain ⟨s, s1, s2, s3⟩ := hlp.2.2.2 x g1 h3
        exact hab s (by omega) (by omega) s3
      · exact h.regular hb
    have p1 : KthAfter (Numbered newMoons solstices zhongqi) (x - 1 - a) a (x - 1) := by
      have := kthAfter_run (kept := Numbered newMoons solstices zhongqi) (k := x - 1 - a) (i := a)
        fun y g1 g2 => hbefore y g1 (by omega)
      rwa [show a + (x - 1 - a) = x - 1 by omega] at this
    have p2 : KthAfter (Numbered newMoons solstices zhongqi) 1 (x - 1) (x + 1) :=
      ⟨x + 1, by omega, hafter _ (by omega) (by omega), fun y g1 g2 hr => by
        have : y = x := by omega
        subst this; exact hr.2 hleap, rfl⟩
    have p3 : KthAfter (Numbered newMoons solstices zhongqi) (a + 13 - (x + 1)) (x + 1) (a + 13) := by
      have := kthAfter_run (kept := Numbered newMoons solstices zhongqi) (k := a + 13 - (x + 1)) (i := x + 1)
        fun y g1 g2 => hafter y (by omega) (by omega)
      rwa [show x + 1 + (a + 13 - (x + 1)) = a + 13 by omega] at this
    have := kthAfter_add (kthAfter_add p1 p2) p3
    rwa [show x - 1 - a + 1 + (a + 13 - (x + 1)) = 12 by omega] at this

example : KthAfter (Numbered caseMoons caseSolstices caseZhongqi) 12 1 14 :=
  c65_sui case_usable (by decide +kernel) (by decide +kernel)
    (fun k h1 h2 => (by decide +kernel : ∀ k, k < 14 → 1 < k → ¬ SuiMonth caseMoons caseSolstices k) k h2 h1)
    (.inr ⟨rfl, 5, by decide, by decide, by decide +kernel⟩)

example : KthAfter (Numbered caseMoons caseSolstices caseZhongqi) 12 14 26 :=
  c65_sui case_usable (by decide +kernel) (by decide +kernel)
    (fun k h1 h2 => (by decide +kernel : ∀ k, k < 26 → 14 < k → ¬ SuiMonth caseMoons caseSolstices k) k h2 h1)
    (.inl rfl)

/-- `calculate_new_year` yields the new moons of the months in which a year begins, in order. -/
theorem c65_new_year {newMoons solstices zhongqi : List Int} (h : Usable newMoons solstices zhongqi) :
    ∃ years, calculateNewYear newMoons solstices zhongqi = .ok years ∧ years.Pairwise (· < ·) ∧
      ∀ m, m ∈ years ↔ ∃ j, newMoons[j]? = some m ∧ NewYearMonth newMoons solstices zhongqi j := by
  have hlt : ∀ j ∈ yearMonths newMoons solstices zhongqi, j < newMoons.length := fun j hj => by
    obtain ⟨i, hi, hk⟩ := (mem_yearMonths h j).mp hj
    exact (kthAfter_kept (h.regular hi) hk).1
  refine ⟨_, calculateNewYear_years h, List.pairwise_map.mpr ((yearMonths_sorted h).imp_of_mem
    fun _ hb hab => getD_lt h.sorted (hlt _ hb) hab), fun m => ?_⟩
  rw [List.mem_map]
  constructor
  · rintro ⟨j, hj, rfl⟩
    exact ⟨j, by rw [List.getElem?_eq_getElem (hlt j hj), getD_at (hlt j hj)], (mem_yearMonths h j).mp hj⟩
  · rintro ⟨j, hj, hn⟩
    have hm := (mem_yearMonths h j).mpr hn
    exact ⟨j, hm, by rw [List.getElem?_eq_getElem (hlt j hm)] at hj; cases hj; exact getD_at _⟩

example : calculateNewYear caseMoons caseSolstices caseZhongqi = .ok [caseAt 3 0, caseAt 16 0] := by
  decide +kernel

/-- `nth_day_of_nth_chinese_month` yields, for each year that begins in the data, the `day`-th day, counted in
China, of its month number `n + 1`, leap months not counted.  If some year has no such month in the data, it
raises `IndexError`. -/
theorem c65_nth_day {newMoons solstices zhongqi : List Int} (h : Usable newMoons solstices zhongqi)
    (n : Nat) (day : Int) :
    ∃ years : List Nat, years.Pairwise (· < ·) ∧
      (∀ j, j ∈ years ↔ NewYearMonth newMoons solstices zhongqi j) ∧
      (((∀ j ∈ years, ∃ i, KthAfter (Numbered newMoons solstices zhongqi) n j i) ∧
        ∃ dates, nthDayOfNthMonth newMoons solstices zhongqi (n + 1) day = .ok dates ∧
          dates.length = years.length ∧
          ∀ (k j : Nat) (d : Int), years[k]? = some j → dates[k]? = some d →
            ∃ i m, KthAfter (Numbered newMoons solstices zhongqi) n j i ∧ newMoons[i]? = some m ∧
              DateInChina m (d - (day - 1))) ∨
      ((∃ j ∈ years, ∀ i, ¬ KthAfter (Numbered newMoons solstices zhongqi) n j i) ∧
        nthDayOfNthMonth newMoons solstices zhongqi (n + 1) day = .error .indexError)) := by
  refine ⟨_, yearMonths_sorted h, mem_yearMonths h, ?_⟩
  have hnum : ∀ j ∈ yearMonths newMoons solstices zhongqi, Numbered newMoons solstices zhongqi j :=
    fun j hj => by
      obtain ⟨i, hi, hk⟩ := (mem_yearMonths h j).mp hj
      exact kthAfter_kept (h.regular hi) hk
  unfold nthDayOfNthMonth
  rw [chineseMonthStart_kept h, calculateNewYear_years h]
  simp only [bind, Except.bind, Int.add_sub_cancel]
  rw [List.map_map, mapM_map]
  by_cases hall : ∀ j ∈ yearMonths newMoons solstices zhongqi,
      ∃ i, KthAfter (Numbered newMoons solstices zhongqi) n j i
  · refine Or.inl ⟨hall, ?_⟩
    obtain ⟨us, hus⟩ := mapM_exists (xs := yearMonths newMoons solstices zhongqi)
      (f := fun j => pyIndex ((keptList newMoons solstices zhongqi).map (newMoons.getD · 0))
        ((searchLeft ((keptList newMoons solstices zhongqi).map (newMoons.getD · 0)) (newMoons.getD j 0) : Nat) +
          (n : Int))) (fun j hj => by
        rcases pyIndex_kept h.sorted (hnum j hj) n with ⟨i, _, _, hi⟩ | ⟨hn, _⟩
        · exact ⟨_, hi⟩
        · obtain ⟨i, hi⟩ := hall j hj
          exact absurd hi (hn i))
    obtain ⟨hl, hg⟩ := mapM_ok_iff.mp hus
    simp only [Function.comp_def]
    rw [hus]
    refine ⟨_, rfl, by simpa using hl, fun k j d hj hd => ?_⟩
    obtain ⟨hk, rfl⟩ := List.getElem?_eq_some_iff.mp hj
    rw [List.getElem?_map, List.getElem?_eq_getElem (by omega)] at hd
    cases hd
    have hm := List.getElem_mem hk
    rcases pyIndex_kept h.sorted (hnum _ hm) n with ⟨i, h1, h2, h3⟩ | ⟨hn, _⟩
    · refine ⟨i, newMoons.getD i 0, h1, by rw [List.getElem?_eq_getElem h2, getD_at h2], ?_⟩
      have := hg k hk (by omega)
      rw [h3] at this
      injection this with this
      rw [dateInChina_iff, ← this]; dsimp only; omega
    · obtain ⟨i, hi⟩ := hall _ hm
      exact absurd hi (hn i)
  · have hex : ∃ j ∈ yearMonths newMoons solstices zhongqi,
        ∀ i, ¬ KthAfter (Numbered newMoons solstices zhongqi) n j i := by
      apply Classical.byContradiction
      intro hc
      apply hall
      intro j hj
      apply Classical.byContradiction
      intro hi
      exact hc ⟨j, hj, fun i hk => hi ⟨i, hk⟩⟩
    refine Or.inr ⟨hex, ?_⟩
    simp only [Function.comp_def]
    rw [mapM_error (e := .indexError)]
    · intro j hj
      rcases pyIndex_kept h.sorted (hnum j hj) n with ⟨i, _, _, hi⟩ | ⟨_, he⟩
      · exact .inl ⟨_, hi⟩
      · exact .inr he
    · obtain ⟨j, hj, hn⟩ := hex
      rcases pyIndex_kept h.sorted (hnum j hj) n with ⟨i, hi, _⟩ | ⟨_, he⟩
      · exact absurd hi (hn i)
      · exact ⟨j, hj, he⟩

/-- The 8th day of the 4th month: month 5 is no month of the first year, so its 4th month is 7. -/
example : nthDayOfNthMonth caseMoons caseSolstices caseZhongqi 4 8 =
    .ok [chineseDate (caseAt 7 0) + 7, chineseDate (caseAt 19 0) + 7] := by decide +kernel

example : nthDayOfNthMonth caseMoons caseSolstices caseZhongqi 13 1 = .error .indexError := by
  decide +kernel

/-- Why solstices must be followed by another new moon: if the last solstice is in the last month, its index
is -1, and month 20, without zhongqi in a sui of twelve months, is dropped. -/
example : ∃ e, chineseMonthStart (caseMoons.take 27) caseSolstices (caseZhongqi.take 25) =
    .ok ((caseMoons.take 27).filter fun m => m != caseAt 5 0 && m != caseAt 20 0, e) :=
  ⟨[1, 13, 24], by decide +kernel⟩

end TC.Props
