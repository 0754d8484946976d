import Verif.Model.Civil
import Verif.Spec.Civil
import Verif.Lemmas.Build

/-!
# Lemmas on dates: the day-count formulas count days
-/

namespace TC
open Spec

theorem isLeap_iff (y : Int) : isLeap y = true ↔ Leap y := by
  unfold isLeap Leap
  simp only [Bool.and_eq_true, Bool.or_eq_true, beq_iff_eq, bne_iff_ne]
  omega

theorem jan1_1970 : jan1 1970 = 0 := by decide

/-- A year has 365 days, 366 if leap. -/
theorem jan1_succ (y : Int) : jan1 (y + 1) = jan1 y + 365 + (if isLeap y then 1 else 0) := by
  unfold jan1
  by_cases h : isLeap y = true
  · rw [if_pos h]
    rw [isLeap_iff] at h
    unfold Leap at h
    omega
  · rw [if_neg h]
    rw [isLeap_iff] at h
    unfold Leap at h
    omega

theorem jan1_mono {y y' : Int} (h : y ≤ y') : jan1 y + 365 * (y' - y) ≤ jan1 y' := by
  unfold jan1; omega

theorem jan1_lt {y y' : Int} (h : y < y') : jan1 y < jan1 y' := by
  have := jan1_mono (y := y) (y' := y') (by omega)
  omega

theorem jan1_le_iff {y y' : Int} : jan1 y ≤ jan1 y' ↔ y ≤ y' := by
  constructor
  · intro h
    by_cases hlt : y' < y
    · have := jan1_lt hlt; omega
    · omega
  · intro h
    have := jan1_mono h
    omega

/-- The year of a day. -/
theorem yearOf_spec (d : Int) : jan1 (yearOf d) ≤ d ∧ d < jan1 (yearOf d + 1) := by
  unfold yearOf
  simp only [Bool.or_eq_true, beq_iff_eq]
  generalize hn : d + 719162 = n
  generalize ha : n / 146097 = a
  generalize hr : n % 146097 = r
  generalize hb : r / 36524 = b
  generalize hr2 : r % 36524 = r2
  generalize hc : r2 / 1461 = c
  generalize hr3 : r2 % 1461 = r3
  generalize he : r3 / 365 = e
  have h1 : n = 146097 * a + r := by omega
  have h2 : 0 ≤ r ∧ r < 146097 := by omega
  have h3 : r = 36524 * b + r2 := by omega
  have h4 : 0 ≤ r2 ∧ r2 < 36524 := by omega
  have h5 : r2 = 1461 * c + r3 := by omega
  have h6 : 0 ≤ r3 ∧ r3 < 1461 := by omega
  have h7 : 365 * e ≤ r3 ∧ r3 < 365 * e + 365 := by omega
  have hb4 : 0 ≤ b ∧ b ≤ 4 := by omega
  have hc24 : 0 ≤ c ∧ c ≤ 24 := by omega
  have he4 : 0 ≤ e ∧ e ≤ 4 := by omega
  clear ha hr hb hr2 hc hr3 he
  -- January 1 of the year `400 a + 100 b + 4 c + e + 1` for cycle indices in range
  have key : ∀ b c e : Int, 0 ≤ b → b ≤ 3 → 0 ≤ c → c ≤ 24 → 0 ≤ e → e ≤ 3 →
      jan1 (a * 400 + 1 + b * 100 + c * 4 + e)
        = 146097 * a + 36524 * b + 1461 * c + 365 * e - 719162 := by
    intro b c e _ _ _ _ _ _
    unfold jan1
    have q4 : (a * 400 + 1 + b * 100 + c * 4 + e - 1) / 4 = 100 * a + 25 * b + c := by omega
    have q100 : (a * 400 + 1 + b * 100 + c * 4 + e - 1) / 100 = 4 * a + b := by omega
    have q400 : (a * 400 + 1 + b * 100 + c * 4 + e - 1) / 400 = a := by omega
    rw [q4, q100, q400]
    omega
  split
  · next h =>
    by_cases hb' : b = 4
    · -- the last day of the 400-year cycle
      have hr2' : r2 = 0 := by omega
      have hc0 : c = 0 := by omega
      have he0 : e = 0 := by omega
      subst hb' hc0 he0
      have k1 := key 3 24 3 (by omega) (by omega) (by omega) (by omega) (by omega) (by omega)
      have e1 : a * 400 + 1 + 4 * 100 + 0 * 4 + 0 - 1 = a * 400 + 1 + 3 * 100 + 24 * 4 + 3 := by omega
      have k2 := jan1_succ (a * 400 + 1 + 3 * 100 + 24 * 4 + 3)
      have hl : isLeap (a * 400 + 1 + 3 * 100 + 24 * 4 + 3) = true := by
        rw [isLeap_iff]; unfold Leap; omega
      rw [hl, if_pos rfl] at k2
      rw [e1, k2, k1]
      omega
    · -- the last day of a leap year
      have he' : e = 4 := by omega
      subst he'
      have hc' : c ≤ 23 := by omega
      have k1 := key b c 3 (by omega) (by omega) (by omega) (by omega) (by omega) (by omega)
      have e1 : a * 400 + 1 + b * 100 + c * 4 + 4 - 1 = a * 400 + 1 + b * 100 + c * 4 + 3 := by omega
      have k2 := jan1_succ (a * 400 + 1 + b * 100 + c * 4 + 3)
      have hl : isLeap (a * 400 + 1 + b * 100 + c * 4 + 3) = true := by
        rw [isLeap_iff]; unfold Leap; omega
      rw [hl, if_pos rfl] at k2
      rw [e1, k2, k1]
      omega
  · next h =>
    have k1 := key b c e (by omega) (by omega) (by omega) (by omega) (by omega) (by omega)
    have k2 := jan1_succ (a * 400 + 1 + b * 100 + c * 4 + e)
    constructor
    · omega
    · rw [k2, k1]
      split <;> omega

theorem yearOf_eq_iff (d y : Int) : yearOf d = y ↔ jan1 y ≤ d ∧ d < jan1 (y + 1) := by
  have h := yearOf_spec d
  constructor
  · rintro rfl; exact h
  · rintro ⟨h1, h2⟩
    have a : ¬ yearOf d < y := fun hlt => by
      have := (jan1_le_iff (y := yearOf d + 1) (y' := y)).mpr (by omega)
      omega
    have b : ¬ y < yearOf d := fun hlt => by
      have := (jan1_le_iff (y := y + 1) (y' := yearOf d)).mpr (by omega)
      omega
    omega

theorem yearOf_mono {d d' : Int} (h : d ≤ d') : yearOf d ≤ yearOf d' := by
  have h1 := yearOf_spec d
  have h2 := yearOf_spec d'
  by_cases hlt : yearOf d' < yearOf d
  · have := (jan1_le_iff (y := yearOf d' + 1) (y' := yearOf d)).mpr (by omega)
    omega
  · omega

/-! ### Months -/

theorem month_cases {m : Int} (h1 : 1 ≤ m) (h2 : m ≤ 12) :
    m = 1 ∨ m = 2 ∨ m = 3 ∨ m = 4 ∨ m = 5 ∨ m = 6 ∨ m = 7 ∨ m = 8 ∨ m = 9 ∨ m = 10 ∨ m = 11 ∨
      m = 12 := by omega

theorem daysBeforeMonth_succ (y : Int) {m : Int} (h1 : 1 ≤ m) (h2 : m < 12) :
    daysBeforeMonth y (m + 1) = daysBeforeMonth y m + monthLength y m := by
  by_cases hl : Leap y
  · have hl' := (isLeap_iff y).mpr hl
    rcases month_cases h1 (by omega) with h | h | h | h | h | h | h | h | h | h | h | h <;>
      subst h <;> simp_all [daysBeforeMonth, monthLength]
  · have hl' : isLeap y = false := by
      cases h : isLeap y
      · rfl
      · exact absurd ((isLeap_iff y).mp h) hl
    rcases month_cases h1 (by omega) with h | h | h | h | h | h | h | h | h | h | h | h <;>
      subst h <;> simp_all [daysBeforeMonth, monthLength]

theorem daysBeforeMonth_12 (y : Int) :
    daysBeforeMonth y 12 + monthLength y 12 = 365 + (if isLeap y then 1 else 0) := by
  unfold daysBeforeMonth monthLength
  by_cases h : isLeap y <;> simp [h]

theorem dayOf_succ {x : Date} (h : x.Valid) :
    dayOf x.succ.year x.succ.month x.succ.day = dayOf x.year x.month x.day + 1 := by
  obtain ⟨h1, h2, h3, h4⟩ := h
  unfold Date.succ
  split
  · unfold dayOf; simp only; omega
  · split
    · have := daysBeforeMonth_succ x.year h1 (by omega)
      unfold dayOf; simp only; omega
    · have hm : x.month = 12 := by omega
      have hd : x.day = monthLength x.year x.month := by omega
      have a := daysBeforeMonth_12 x.year
      have b := jan1_succ x.year
      have c : daysBeforeMonth (x.year + 1) 1 = 0 := by simp [daysBeforeMonth]
      rw [hm] at *
      unfold dayOf; simp only [c]; omega

theorem monthLength_bounds (y m : Int) : 28 ≤ monthLength y m ∧ monthLength y m ≤ 31 := by
  unfold monthLength
  split
  · split <;> omega
  · split <;> omega

theorem succ_valid {x : Date} (h : x.Valid) : x.succ.Valid := by
  obtain ⟨h1, h2, h3, h4⟩ := h
  have b := monthLength_bounds x.year (x.month + 1)
  have b' := monthLength_bounds (x.year + 1) 1
  unfold Date.succ
  split
  · exact ⟨h1, h2, by simp only; omega, by simp only; omega⟩
  · split
    · exact ⟨by simp only; omega, by simp only; omega, by simp, by simp only; omega⟩
    · exact ⟨by simp, by simp, by simp, by simp only; omega⟩

/-- The day-of-year formula on valid dates: within the year. -/
theorem dayOf_in_year {x : Date} (h : x.Valid) :
    jan1 x.year ≤ dayOf x.year x.month x.day ∧ dayOf x.year x.month x.day < jan1 (x.year + 1) := by
  obtain ⟨h1, h2, h3, h4⟩ := h
  have hb : 0 ≤ daysBeforeMonth x.year x.month ∧
      daysBeforeMonth x.year x.month + monthLength x.year x.month
        ≤ 365 + (if isLeap x.year then 1 else 0) := by
    by_cases hm : x.month = 12
    · rw [hm, daysBeforeMonth_12]
      refine ⟨?_, by omega⟩
      by_cases hl : isLeap x.year = true <;> simp [daysBeforeMonth, hl]
    · unfold daysBeforeMonth monthLength
      by_cases hl : isLeap x.year = true
      · have hl' := (isLeap_iff _).mp hl
        rcases month_cases h1 h2 with h | h | h | h | h | h | h | h | h | h | h | h <;>
          simp [h, hl, hl']
      · have hl' : ¬ Leap x.year := fun h => hl ((isLeap_iff _).mpr h)
        rcases month_cases h1 h2 with h | h | h | h | h | h | h | h | h | h | h | h <;>
          simp [h, hl, hl']
  have := jan1_succ x.year
  unfold dayOf
  omega

theorem yearOf_dayOf {x : Date} (h : x.Valid) : yearOf (dayOf x.year x.month x.day) = x.year :=
  (yearOf_eq_iff _ _).mpr (dayOf_in_year h)

/-! ### Months of a day -/

theorem daysBeforeMonth_mono (y : Int) {m m' : Int} (h1 : 1 ≤ m) (h2 : m < m') (h3 : m' ≤ 12) :
    daysBeforeMonth y m + monthLength y m ≤ daysBeforeMonth y m' := by
  have key : ∀ n : Nat, m + n + 1 ≤ 12 →
      daysBeforeMonth y m + monthLength y m ≤ daysBeforeMonth y (m + n + 1) := by
    intro n
    induction n with
    | zero =>
      intro h
      have := daysBeforeMonth_succ y h1 (by omega)
      simp only [Int.natCast_zero, Int.add_zero]
      omega
    | succ n ih =>
      intro h
      have a := ih (by omega)
      have b := daysBeforeMonth_succ y (m := m + n + 1) (by omega) (by omega)
      have c := monthLength_bounds y (m + n + 1)
      have e : m + (n + 1 : Nat) + 1 = m + n + 1 + 1 := by omega
      rw [e]
      omega
  have := key (m' - m - 1).toNat (by omega)
  have e : m + ((m' - m - 1).toNat : Int) + 1 = m' := by omega
  rwa [e] at this

theorem monthFrom_spec (y k : Int) (hk : 0 ≤ k) : ∀ n : Nat, 1 ≤ n → n ≤ 12 →
    1 ≤ monthFrom y k n ∧ monthFrom y k n ≤ n ∧ daysBeforeMonth y (monthFrom y k n) ≤ k ∧
      ∀ m : Int, monthFrom y k n < m → m ≤ n → k < daysBeforeMonth y m
  | 0, h, _ => absurd h (by omega)
  | 1, _, _ => by
    have h0 : daysBeforeMonth y 1 = 0 := by simp [daysBeforeMonth]
    have e : monthFrom y k 1 = 1 := by
      unfold monthFrom monthFrom
      split <;> rfl
    rw [e]
    refine ⟨by omega, by omega, by omega, fun m a b => ?_⟩
    simp only [Int.natCast_one] at b
    omega
  | n + 2, _, h => by
    unfold monthFrom
    split
    · next hle => exact ⟨by omega, by omega, hle, fun m a b => by omega⟩
    · next hgt =>
      obtain ⟨a, b, c, d⟩ := monthFrom_spec y k hk (n + 1) (by omega) (by omega)
      refine ⟨a, by omega, c, fun m h1 h2 => ?_⟩
      by_cases hm : m = ((n + 1 + 1 : Nat) : Int)
      · rw [hm]; omega
      · exact d m h1 (by omega)

/-- The date of a day number. -/
def toDate (d : Int) : Date := ⟨yearOf d, monthOf d, dayOfMonth d⟩

theorem toDate_valid (d : Int) : (toDate d).Valid := by
  obtain ⟨hy1, hy2⟩ := yearOf_spec d
  obtain ⟨a, b, c, e⟩ := monthFrom_spec (yearOf d) (d - jan1 (yearOf d)) (by omega) 12 (by omega) (by omega)
  have hm : monthOf d = monthFrom (yearOf d) (d - jan1 (yearOf d)) 12 := rfl
  rw [← hm] at a b c e
  refine ⟨a, b, ?_, ?_⟩
  · simp only [toDate, dayOfMonth, dayOf]; omega
  · simp only [toDate, dayOfMonth, dayOf]
    by_cases h12 : monthOf d = 12
    · have := daysBeforeMonth_12 (yearOf d)
      have := jan1_succ (yearOf d)
      rw [h12]
      omega
    · have := daysBeforeMonth_succ (yearOf d) a (by omega)
      have := e (monthOf d + 1) (by omega) (by omega)
      omega

theorem dayOf_toDate (d : Int) :
    dayOf (yearOf d) (monthOf d) (dayOfMonth d) = d := by
  unfold dayOfMonth dayOf
  omega

/-- Valid dates with the same day number are equal. -/
theorem dayOf_inj {x x' : Date} (h : x.Valid) (h' : x'.Valid)
    (heq : dayOf x.year x.month x.day = dayOf x'.year x'.month x'.day) : x = x' := by
  have hy : x.year = x'.year := by rw [← yearOf_dayOf h, ← yearOf_dayOf h', heq]
  obtain ⟨y, m, d⟩ := x
  obtain ⟨y', m', d'⟩ := x'
  simp only at hy
  subst hy
  obtain ⟨a1, a2, a3, a4⟩ := h
  obtain ⟨b1, b2, b3, b4⟩ := h'
  simp only at a1 a2 a3 a4 b1 b2 b3 b4
  simp only [dayOf] at heq
  have hm : m = m' := by
    by_cases hlt : m < m'
    · have := daysBeforeMonth_mono y a1 hlt b2; omega
    · by_cases hgt : m' < m
      · have := daysBeforeMonth_mono y b1 hgt a2; omega
      · omega
  subst hm
  have : d = d' := by omega
  rw [this]

theorem toDate_dayOf {x : Date} (h : x.Valid) : toDate (dayOf x.year x.month x.day) = x :=
  dayOf_inj (toDate_valid _) h (dayOf_toDate _)

theorem toDate_succ (d : Int) : toDate (d + 1) = (toDate d).succ := by
  refine dayOf_inj (toDate_valid _) (succ_valid (toDate_valid _)) ?_
  rw [dayOf_succ (toDate_valid d)]
  simp only [toDate, dayOf_toDate]

/-- **The day-count formulas count days**: `dayOf` is the number of days from 1970-01-01. -/
theorem dayNumber_iff (x : Date) (d : Int) :
    DayNumber x d ↔ x.Valid ∧ dayOf x.year x.month x.day = d := by
  constructor
  · intro h
    induction h with
    | epoch => exact ⟨⟨by decide, by decide, by decide, by decide⟩, by decide⟩
    | next _ ih => exact ⟨succ_valid ih.1, by rw [dayOf_succ ih.1, ih.2]⟩
    | prev hv _ ih => exact ⟨hv, by have := dayOf_succ hv; omega⟩
  · rintro ⟨hv, rfl⟩
    have up : ∀ n : Nat, DayNumber (toDate n) n := by
      intro n
      induction n with
      | zero =>
        have e : toDate ((0 : Nat) : Int) = ⟨1970, 1, 1⟩ := by decide
        rw [e]
        exact .epoch
      | succ n ih =>
        have := DayNumber.next ih
        rw [← toDate_succ] at this
        exact this
    have down : ∀ n : Nat, DayNumber (toDate (-(n : Int))) (-(n : Int)) := by
      intro n
      induction n with
      | zero => exact up 0
      | succ n ih =>
        refine .prev (toDate_valid _) ?_
        rw [← toDate_succ]
        have e : -((n + 1 : Nat) : Int) + 1 = -(n : Int) := by omega
        rw [e]
        exact ih
    have all : ∀ d : Int, DayNumber (toDate d) d := by
      intro d
      by_cases h : 0 ≤ d
      · have := up d.toNat
        rwa [Int.toNat_of_nonneg h] at this
      · have := down (-d).toNat
        have e : -((-d).toNat : Int) = d := by omega
        rwa [e] at this
    have := all (dayOf x.year x.month x.day)
    rwa [toDate_dayOf hv] at this

/-! ### Easter -/

/-- The algorithm's `p` lies between -6 and 28. -/
theorem easterP_range (y : Int) : -6 ≤ easterP y ∧ easterP y ≤ 28 := by
  unfold easterP
  simp only
  generalize hg : y % 19 = g
  generalize hh : (y / 100 - y / 100 / 4 - (8 * (y / 100) + 13) / 25 + 19 * g + 15) % 30 = h
  have hg' : 0 ≤ g ∧ g ≤ 18 := by omega
  have hh' : 0 ≤ h ∧ h ≤ 29 := by omega
  have hi : 0 ≤ h - (h / 28) * (1 - (h / 28) * (29 / (h + 1)) * ((21 - g) / 11)) ∧
      h - (h / 28) * (1 - (h / 28) * (29 / (h + 1)) * ((21 - g) / 11)) ≤ 28 := by
    by_cases h28 : h < 28
    · have e : h / 28 = 0 := by omega
      rw [e]; omega
    · have e : h / 28 = 1 := by omega
      rw [e]
      have e2 : 29 / (h + 1) = 0 ∨ 29 / (h + 1) = 1 := by
        have : h = 28 ∨ h = 29 := by omega
        rcases this with rfl | rfl
        · right; decide
        · left; decide
      have e3 : (21 - g) / 11 = 0 ∨ (21 - g) / 11 = 1 := by omega
      have : h = 28 ∨ h = 29 := by omega
      rcases this with rfl | rfl
      · have e4 : (29 : Int) / (28 + 1) = 1 := by decide
        rw [e4]
        rcases e3 with e3 | e3 <;> rw [e3] <;> decide
      · have e4 : (29 : Int) / (29 + 1) = 0 := by decide
        rw [e4]; simp
  generalize h - (h / 28) * (1 - (h / 28) * (29 / (h + 1)) * ((21 - g) / 11)) = i at hi ⊢
  omega

/-- Easter is `p` days after March 28. -/
theorem easter_eq (y : Int) : easter y = dayOf y 3 28 + easterP y := by
  obtain ⟨h1, h2⟩ := easterP_range y
  unfold easter
  simp only
  generalize easterP y = p at *
  by_cases h : p ≤ 3
  · have e1 : 3 + (p + 26) / 30 = 3 := by omega
    have e2 : 1 + (p + 27 + (p + 6) / 40) % 31 = 28 + p := by omega
    rw [e1, e2]
    unfold dayOf
    omega
  · have e1 : 3 + (p + 26) / 30 = 4 := by omega
    have e2 : 1 + (p + 27 + (p + 6) / 40) % 31 = p - 3 := by omega
    rw [e1, e2]
    have := daysBeforeMonth_succ y (m := 3) (by omega) (by omega)
    have e : monthLength y 3 = 31 := by simp [monthLength]
    simp only [Int.reduceAdd] at this
    unfold dayOf
    omega

/-- Day of the year of March 28. -/
theorem march28 (y : Int) : dayOf y 3 28 = jan1 (y + 1) - 279 := by
  have := jan1_succ y
  unfold dayOf daysBeforeMonth
  by_cases h : isLeap y = true
  · simp [h] at *; omega
  · simp [h] at *; omega

/-- Easter is a Sunday. -/
theorem easter_sunday (y : Int) : weekday (easter y) = 6 := by
  rw [easter_eq, march28]
  unfold weekday easterP jan1
  simp only
  generalize y % 19 = g
  generalize (y / 100 - y / 100 / 4 - (8 * (y / 100) + 13) / 25 + 19 * g + 15) % 30 = h
  generalize h - (h / 28) * (1 - (h / 28) * (29 / (h + 1)) * ((21 - g) / 11)) = i
  have e1 : y + 1 - 1 = y := by omega
  have e2 : y / 100 / 4 = y / 400 := by omega
  rw [e1, e2]
  generalize y / 400 = q
  generalize y / 100 = c
  generalize y / 4 = f
  omega

end TC
