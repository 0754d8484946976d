import Verif.Lemmas.Holiday
import Verif.Model.Hebrew
import Verif.Spec.Hebrew

/-! # The Hebrew calendar -/

namespace TC.Hebrew

theorem leap_iff (h : Int) : leap h = true ↔ Spec.Hebrew.Leap h := by
  unfold leap Spec.Hebrew.Leap
  rw [decide_eq_true_iff]
  have h1 : 0 ≤ h % 19 := by omega
  have h2 : h % 19 < 19 := by omega
  have h3 : (7 * h + 1) % 19 = (7 * (h % 19) + 1) % 19 := by omega
  rw [h3]
  generalize h % 19 = r at *
  clear h3
  have h4 : r = 0 ∨ r = 1 ∨ r = 2 ∨ r = 3 ∨ r = 4 ∨ r = 5 ∨ r = 6 ∨ r = 7 ∨ r = 8 ∨ r = 9 ∨ r = 10 ∨
      r = 11 ∨ r = 12 ∨ r = 13 ∨ r = 14 ∨ r = 15 ∨ r = 16 ∨ r = 17 ∨ r = 18 := by omega
  rcases h4 with rfl | rfl | rfl | rfl | rfl | rfl | rfl | rfl | rfl | rfl | rfl | rfl | rfl | rfl |
    rfl | rfl | rfl | rfl | rfl <;> decide

theorem not_leap_iff (h : Int) : leap h = false ↔ ¬ Spec.Hebrew.Leap h := by
  rw [← leap_iff]; simp

theorem elapsedMonths_succ (h : Int) :
    elapsedMonths (h + 1) = elapsedMonths h + (if leap h then 13 else 12) := by
  unfold elapsedMonths leap
  obtain ⟨q, r, h1, h2, rfl⟩ : ∃ q r, 0 ≤ r ∧ r < 19 ∧ h = 19 * q + r :=
    ⟨h / 19, h % 19, by omega, by omega, by omega⟩
  have h4 : r = 0 ∨ r = 1 ∨ r = 2 ∨ r = 3 ∨ r = 4 ∨ r = 5 ∨ r = 6 ∨ r = 7 ∨ r = 8 ∨ r = 9 ∨ r = 10 ∨
      r = 11 ∨ r = 12 ∨ r = 13 ∨ r = 14 ∨ r = 15 ∨ r = 16 ∨ r = 17 ∨ r = 18 := by omega
  simp only [decide_eq_true_iff]
  rcases h4 with rfl | rfl | rfl | rfl | rfl | rfl | rfl | rfl | rfl | rfl | rfl | rfl | rfl | rfl |
    rfl | rfl | rfl | rfl | rfl <;> split <;> omega

theorem elapsedMonths_one : elapsedMonths 1 = 0 := by decide

theorem monthsBefore_iff (h n : Int) :
    Spec.Hebrew.MonthsBefore h n ↔ 1 ≤ h ∧ n = elapsedMonths h := by
  constructor
  · intro hm
    induction hm with
    | first => exact ⟨by decide, elapsedMonths_one.symm⟩
    | common _ hl ih =>
      rw [elapsedMonths_succ, (not_leap_iff _).2 hl]
      simp; omega
    | leap _ hl ih =>
      rw [elapsedMonths_succ, (leap_iff _).2 hl]
      simp; omega
  · rintro ⟨h1, rfl⟩
    obtain ⟨k, rfl⟩ : ∃ k : Nat, h = 1 + k := ⟨(h - 1).toNat, by omega⟩
    clear h1
    induction k with
    | zero => rw [show (1 + ((0 : Nat) : Int)) = 1 from rfl, elapsedMonths_one]; exact .first
    | succ k ih =>
      rw [show (1 + ((k + 1 : Nat) : Int)) = (1 + (k : Int)) + 1 by omega, elapsedMonths_succ]
      by_cases hl : leap (1 + (k : Int)) = true
      · rw [if_pos hl]; exact .leap ih ((leap_iff _).1 hl)
      · rw [if_neg hl]; exact .common ih fun h => hl ((leap_iff _).2 h)

/-- The split arithmetic of `_elapsed_days` is division of the parts since the start of the calendar. -/
theorem conjunction (m : Int) :
    conjunctionDay m * 25920 + conjunctionParts m = 25920 + 5604 + m * 765433 ∧
    0 ≤ conjunctionParts m ∧ conjunctionParts m < 25920 := by
  unfold conjunctionDay conjunctionParts hoursElapsed partsElapsed
  omega

theorem molad_iff (h D p : Int) :
    Spec.Hebrew.Molad h D p ↔ 1 ≤ h ∧ D = conjunctionDay (elapsedMonths h) ∧
      p = conjunctionParts (elapsedMonths h) := by
  have hc := conjunction (elapsedMonths h)
  unfold Spec.Hebrew.Molad Spec.Hebrew.partsOfDay Spec.Hebrew.lunation Spec.Hebrew.partsOfDay
  constructor
  · rintro ⟨n, hn, h1, h2, h3⟩
    obtain ⟨h4, rfl⟩ := (monthsBefore_iff _ _).1 hn
    refine ⟨h4, ?_, ?_⟩ <;> omega
  · rintro ⟨h1, rfl, rfl⟩
    refine ⟨_, (monthsBefore_iff _ _).2 ⟨h1, rfl⟩, ?_, ?_, ?_⟩ <;> omega

theorem begins_iff (h D : Int) : Spec.Hebrew.Begins h D ↔ 1 ≤ h ∧ D = elapsedDays h := by
  unfold Spec.Hebrew.Begins Spec.Hebrew.Gatarad Spec.Hebrew.Betutakpat Spec.Hebrew.OldMolad
    Spec.Hebrew.Adu Spec.Hebrew.OnDay elapsedDays alternativeDay
  simp only [molad_iff, leap_iff, not_leap_iff, List.contains_cons, List.contains_nil, Bool.or_false,
    Bool.or_eq_true, beq_iff_eq]
  generalize conjunctionDay (elapsedMonths h) = M
  generalize conjunctionParts (elapsedMonths h) = p
  constructor
  · rintro ⟨M', p', D', ⟨h1, rfl, rfl⟩, h2, h3⟩
    refine ⟨h1, ?_⟩
    grind
  · rintro ⟨h1, rfl⟩
    refine ⟨M, p, if (19440 ≤ p ∨ M % 7 = 2 ∧ 9924 ≤ p ∧ ¬Spec.Hebrew.Leap h ∨
      M % 7 = 1 ∧ 16789 ≤ p ∧ Spec.Hebrew.Leap (h - 1)) then M + 1 else M, ⟨h1, rfl, rfl⟩, ?_, ?_⟩ <;>
    grind

theorem roshHashanah_iff (h d : Int) :
    Spec.Hebrew.RoshHashanah h d ↔ 1 ≤ h ∧ d = epoch + elapsedDays h := by
  unfold Spec.Hebrew.RoshHashanah epoch
  rw [begins_iff]
  omega

/-- Bounds of the first day of a year. -/
theorem elapsedDays_bounds (h : Int) :
    conjunctionDay (elapsedMonths h) ≤ elapsedDays h ∧
      elapsedDays h ≤ conjunctionDay (elapsedMonths h) + 2 := by
  unfold elapsedDays alternativeDay
  dsimp only
  repeat' split
  all_goals omega

theorem elapsedDays_weekday (h : Int) :
    elapsedDays h % 7 = 1 ∨ elapsedDays h % 7 = 2 ∨ elapsedDays h % 7 = 4 ∨ elapsedDays h % 7 = 6 := by
  unfold elapsedDays
  simp only [List.contains_cons, List.contains_nil, Bool.or_false, Bool.or_eq_true, beq_iff_eq]
  generalize alternativeDay h = a
  split <;> omega

theorem leap_sparse (h : Int) : leap h = true → leap (h + 1) = false ∧ leap (h - 1) = false := by
  unfold leap
  simp only [decide_eq_true_iff, decide_eq_false_iff_not]
  rw [show 7 * (h + 1) + 1 = (7 * h + 1) + 7 by omega, show 7 * (h - 1) + 1 = (7 * h + 1) - 7 by omega]
  generalize 7 * h + 1 = x
  omega

/-- A day and its parts, and the postponed day: the shape of `elapsedDays`. -/
def postpone (D p : Int) (l l' : Bool) : Int :=
  let a := if 19440 ≤ p ∨ (D % 7 = 2 ∧ 9924 ≤ p ∧ l = false) ∨ (D % 7 = 1 ∧ 16789 ≤ p ∧ l' = true)
    then D + 1 else D
  if a % 7 = 0 ∨ a % 7 = 3 ∨ a % 7 = 5 then a + 1 else a

theorem elapsedDays_eq (h : Int) : elapsedDays h =
    postpone (conjunctionDay (elapsedMonths h)) (conjunctionParts (elapsedMonths h)) (leap h)
      (leap (h - 1)) := by
  unfold elapsedDays alternativeDay postpone
  simp only [List.contains_cons, List.contains_nil, Bool.or_false, Bool.or_eq_true, beq_iff_eq]

set_option maxHeartbeats 2000000 in
/-- A year has 353, 354 or 355 days, or 30 days more in a leap year. -/
theorem daysInYear_cases (h : Int) :
    (leap h = false ∧ (daysInYear h = 353 ∨ daysInYear h = 354 ∨ daysInYear h = 355)) ∨
    (leap h = true ∧ (daysInYear h = 383 ∨ daysInYear h = 384 ∨ daysInYear h = 385)) := by
  unfold daysInYear
  rw [elapsedDays_eq, elapsedDays_eq, elapsedMonths_succ, show h + 1 - 1 = h by omega]
  have hc := conjunction (elapsedMonths h)
  have h7 : ∀ x : Int, ∃ q r, x = 7 * q + r ∧ 0 ≤ r ∧ r < 7 := fun x =>
    ⟨x / 7, x % 7, by omega, by omega, by omega⟩
  rcases hl : leap h with _ | _
  · have hc' := conjunction (elapsedMonths h + 12)
    simp only [Bool.false_eq_true, if_false]
    revert hc hc'
    generalize conjunctionDay (elapsedMonths h) = D
    generalize conjunctionParts (elapsedMonths h) = p
    generalize conjunctionDay (elapsedMonths h + 12) = D'
    generalize conjunctionParts (elapsedMonths h + 12) = p'
    generalize elapsedMonths h = m
    intro ⟨e1, e2, e3⟩ ⟨e4, e5, e6⟩
    have e7 : (D' = D + 354 ∧ p' = p + 9516) ∨ (D' = D + 355 ∧ p' = p + 9516 - 25920) := by omega
    clear e1 e4
    simp only [true_and, false_and, or_false]
    unfold postpone
    simp only [and_true, and_false, or_false, Bool.false_eq_true, reduceCtorEq]
    obtain ⟨q, r, rfl, h1, h2⟩ := h7 D
    have h4 : r = 0 ∨ r = 1 ∨ r = 2 ∨ r = 3 ∨ r = 4 ∨ r = 5 ∨ r = 6 := by omega
    clear h1 h2 h7
    generalize leap (h - 1) = l1
    generalize leap (h + 1) = l2
    rcases e7 with ⟨rfl, rfl⟩ | ⟨rfl, rfl⟩ <;>
    rcases h4 with rfl | rfl | rfl | rfl | rfl | rfl | rfl <;> cases l1 <;> cases l2 <;>
      simp only [and_true, and_false, or_false, Bool.false_eq_true, reduceCtorEq] <;>
      (repeat' split) <;> omega
  · have hc' := conjunction (elapsedMonths h + 13)
    obtain ⟨hs1, hs2⟩ := leap_sparse h hl
    rw [hs1, hs2]
    simp only [if_true]
    revert hc hc'
    generalize conjunctionDay (elapsedMonths h) = D
    generalize conjunctionParts (elapsedMonths h) = p
    generalize conjunctionDay (elapsedMonths h + 13) = D'
    generalize conjunctionParts (elapsedMonths h + 13) = p'
    generalize elapsedMonths h = m
    intro ⟨e1, e2, e3⟩ ⟨e4, e5, e6⟩
    have e7 : (D' = D + 383 ∧ p' = p + 23269) ∨ (D' = D + 384 ∧ p' = p + 23269 - 25920) := by omega
    clear e1 e4
    simp only [true_and, false_and, false_or]
    unfold postpone
    simp only [and_true, and_false, or_false, Bool.false_eq_true, reduceCtorEq]
    obtain ⟨q, r, rfl, h1, h2⟩ := h7 D
    have h4 : r = 0 ∨ r = 1 ∨ r = 2 ∨ r = 3 ∨ r = 4 ∨ r = 5 ∨ r = 6 := by omega
    clear h1 h2 h7
    rcases e7 with ⟨rfl, rfl⟩ | ⟨rfl, rfl⟩ <;>
    rcases h4 with rfl | rfl | rfl | rfl | rfl | rfl | rfl <;>
      (repeat' split) <;> omega

theorem elapsedDays_succ (h : Int) : elapsedDays (h + 1) = elapsedDays h + daysInYear h := by
  unfold daysInYear; omega

theorem elapsedDays_lt {h h' : Int} (hlt : h < h') : elapsedDays h + 353 * (h' - h) ≤ elapsedDays h' := by
  obtain ⟨k, rfl⟩ : ∃ k : Nat, h' = h + k := ⟨(h' - h).toNat, by omega⟩
  clear hlt
  induction k with
  | zero => simp
  | succ k ih =>
    rw [show h + ((k + 1 : Nat) : Int) = (h + k) + 1 by omega, elapsedDays_succ]
    have := daysInYear_cases (h + k)
    omega

/-- The days from the New Year to the first of Nisan, and 177 from there to the next New Year. -/
theorem daysBefore_nisan (h : Int) : daysBefore h 1 (months h) = daysInYear h - 177 := by
  have := daysInYear_cases h
  unfold months
  rcases hl : leap h with _ | _ <;>
    simp only [hl, Bool.false_eq_true, if_true, if_false, List.cons_append, List.nil_append,
      List.append_nil, daysBefore, monthLength, List.contains_cons, List.contains_nil, Bool.or_false] <;>
    simp <;> (repeat' split) <;> simp_all <;> omega

theorem daysBefore_after (h : Int) :
    daysBefore h 2 (months h) = daysInYear h - 147 ∧ daysBefore h 3 (months h) = daysInYear h - 118 ∧
    daysBefore h 5 (months h) = daysInYear h - 59 := by
  have hn := daysBefore_nisan h
  unfold months at *
  rcases hl : leap h with _ | _ <;>
    simp only [hl, Bool.false_eq_true, if_true, if_false, List.cons_append, List.nil_append,
      List.append_nil, daysBefore] at hn ⊢ <;>
    simp only [show ∀ h, monthLength h 1 = 30 from fun _ => rfl, show ∀ h, monthLength h 2 = 29 from fun _ => rfl,
      show ∀ h, monthLength h 3 = 30 from fun _ => rfl, show ∀ h, monthLength h 4 = 29 from fun _ => rfl] <;>
    simp at hn ⊢ <;> omega

theorem daysBefore_adar (h : Int) :
    daysBefore h (if leap h then 13 else 12) (months h) = daysInYear h - 206 := by
  have hn := daysBefore_nisan h
  unfold months at *
  rcases hl : leap h with _ | _ <;>
    simp only [hl, Bool.false_eq_true, if_true, if_false, List.cons_append, List.nil_append,
      List.append_nil, daysBefore] at hn ⊢
  · have : monthLength h 12 = 29 := by unfold monthLength; simp [hl]
    rw [this] at hn
    simp at hn ⊢; omega
  · have : monthLength h 13 = 29 := rfl
    rw [this] at hn
    simp at hn ⊢; omega

theorem daysBefore_tishrei (h : Int) : daysBefore h 7 (months h) = 0 := by
  unfold months
  simp [daysBefore]

theorem dayOf_nisan (h : Int) : dayOf h 1 15 = epoch + elapsedDays (h + 1) - 163 := by
  unfold dayOf; rw [daysBefore_nisan, elapsedDays_succ]; omega

theorem dayOf_iyar (h : Int) : dayOf h 2 4 = epoch + elapsedDays (h + 1) - 144 := by
  unfold dayOf; rw [(daysBefore_after h).1, elapsedDays_succ]; omega

theorem dayOf_sivan (h : Int) : dayOf h 3 6 = epoch + elapsedDays (h + 1) - 113 := by
  unfold dayOf; rw [(daysBefore_after h).2.1, elapsedDays_succ]; omega

theorem dayOf_av (h : Int) : dayOf h 5 9 = epoch + elapsedDays (h + 1) - 51 := by
  unfold dayOf; rw [(daysBefore_after h).2.2, elapsedDays_succ]; omega

theorem dayOf_adar (h : Int) :
    dayOf h (if leap h then 13 else 12) 14 = epoch + elapsedDays (h + 1) - 193 := by
  unfold dayOf; rw [daysBefore_adar, elapsedDays_succ]; omega

theorem dayOf_tishrei (h k : Int) : dayOf h 7 k = epoch + elapsedDays h + (k - 1) := by
  unfold dayOf; rw [daysBefore_tishrei]; omega

/-! ### The year of a day -/

theorem elapsedDays_one : elapsedDays 1 = 1 := by decide

theorem yearDown_eq {e h : Int} (h1 : elapsedDays h ≤ e) (h2 : e < elapsedDays (h + 1)) (n : Nat) :
    ∀ k : Nat, k ≤ n → yearDown e n (h + k) = h := by
  induction n with
  | zero => intro k hk; have : k = 0 := by omega
            subst this; simp [yearDown]
  | succ n ih =>
    intro k hk
    unfold yearDown
    match k with
    | 0 => simp only [show h + ((0 : Nat) : Int) = h by simp]; rw [if_neg (by omega)]
    | k + 1 =>
      have : elapsedDays (h + 1) ≤ elapsedDays (h + (k + 1 : Nat)) := by
        by_cases hk0 : k = 0
        · subst hk0; exact Int.le_refl _
        · have := elapsedDays_lt (h := h + 1) (h' := h + (k + 1 : Nat)) (by omega)
          omega
      rw [if_pos (by omega), show h + ((k + 1 : Nat) : Int) - 1 = h + k by omega]
      exact ih k (by omega)

theorem yearOf_eq {d h : Int} (hh : 1 ≤ h) (h1 : epoch + elapsedDays h ≤ d)
    (h2 : d < epoch + elapsedDays (h + 1)) : yearOf d = h := by
  unfold yearOf
  have hb := elapsedDays_bounds h
  have hc := conjunction (elapsedMonths h)
  have hm : elapsedMonths h = (235 * h - 234) / 19 := rfl
  have hge : h ≤ (d - epoch) / 365 + 2 := by
    revert hc hb
    rw [hm]
    generalize conjunctionParts _ = p
    generalize conjunctionDay _ = D
    intro hb hc
    omega
  dsimp only
  have := yearDown_eq (e := d - epoch) (h := h) (by omega) (by omega) ((d - epoch) / 365 + 2).toNat
    ((d - epoch) / 365 + 2 - h).toNat (by omega)
  rw [show h + (((d - epoch) / 365 + 2 - h).toNat : Int) = (d - epoch) / 365 + 2 by omega] at this
  exact this

end TC.Hebrew

namespace TC.TaseHolidays
open Hebrew

set_option maxHeartbeats 2000000 in
/-- The Hebrew year `y + 3760` begins between 130 and 50 days before January 1 of year `y`. -/
theorem newYear_bounds {y : Int} (h1 : 1 ≤ y) (h2 : y ≤ 9999) :
    jan1 y - 130 ≤ epoch + elapsedDays (y + 3760) ∧ epoch + elapsedDays (y + 3760) ≤ jan1 y - 50 := by
  have hb := elapsedDays_bounds (y + 3760)
  have hc := conjunction (elapsedMonths (y + 3760))
  have hm : elapsedMonths (y + 3760) = (235 * (y + 3760) - 234) / 19 := rfl
  revert hc hb
  rw [hm]
  generalize conjunctionParts _ = p
  generalize conjunctionDay _ = D
  generalize elapsedDays _ = E
  intro hb hc
  unfold jan1 epoch
  omega

theorem hebrewYear_eq {y : Int} (h1 : 1 ≤ y) (h2 : y ≤ 9998) : hebrewYear y = y + 3760 := by
  have ha := newYear_bounds h1 (by omega)
  have hb := newYear_bounds (y := y + 1) (by omega) (by omega)
  rw [show y + 1 + 3760 = y + 3760 + 1 by omega] at hb
  have hs := jan1_succ y
  have hd : TC.dayOf y 1 1 = jan1 y := by unfold TC.dayOf daysBeforeMonth; simp
  unfold hebrewYear
  rw [hd]
  refine yearOf_eq (by omega) (by omega) ?_
  split at hs <;> omega

theorem hebrewYear_eq' {y : Int} (h1 : 0 ≤ y) (h2 : y ≤ 9998) : hebrewYear (y + 1) = y + 3761 := by
  have ha := newYear_bounds (y := y + 1) (by omega) (by omega)
  have hl := elapsedDays_succ (y + 3761)
  have hc := daysInYear_cases (y + 3761)
  have hd : TC.dayOf (y + 1) 1 1 = jan1 (y + 1) := by unfold TC.dayOf daysBeforeMonth; simp
  unfold hebrewYear
  rw [hd]
  rw [show y + 1 + 3760 = y + 3761 by omega] at ha
  exact yearOf_eq (by omega) (by omega) (by omega)

end TC.TaseHolidays
