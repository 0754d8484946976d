import Verif.Lemmas.DayBits
import Verif.Spec.Months

/-! # The months of the closed days of an exchange, as the bits of numbers -/

namespace TC
open Spec

theorem beq_decide (m k : Nat) : Nat.beq m k = decide (m = k) := by
  rw [Bool.eq_iff_iff, Nat.beq_eq, decide_eq_true_eq]

/-- The number of days of month `m` of year `y`, for the kernel. -/
def monthDays (y : Int) (m : Nat) : Nat :=
  bif Nat.beq m 2 then (bif isLeap y then 29 else 28)
  else bif Nat.beq m 4 || (Nat.beq m 6 || (Nat.beq m 9 || Nat.beq m 11)) then 30 else 31

theorem monthDays_eq (y : Int) (m : Nat) : (monthDays y m : Int) = monthLength y m := by
  unfold monthDays monthLength
  simp only [beq_decide, cond_eq_ite, Bool.or_eq_true, decide_eq_true_eq, isLeap_iff]
  repeat' split
  all_goals omega

/-- The lengths of `k` months from month `m` of year `y` on, and the bits of their days, given the bits from the
first day on. -/
def monthWords : Nat → Int → Nat → Nat → List (Nat × Nat)
  | 0, _, _, _ => []
  | k + 1, y, m, n =>
    (monthDays y m, Nat.mod n (Nat.pow 2 (monthDays y m))) ::
      bif Nat.beq m 12 then monthWords k (y + 1) 1 (Nat.shiftRight n (monthDays y m))
      else monthWords k y (m + 1) (Nat.shiftRight n (monthDays y m))

/-- The first day of the month after month `m` of year `y`. -/
theorem month_next (y : Int) {m : Nat} (h1 : 1 ≤ m) (h2 : m ≤ 12) :
    dayOf y m 1 + monthDays y m = if m = 12 then dayOf (y + 1) 1 1 else dayOf y (m + 1 : Nat) 1 := by
  rw [monthDays_eq]
  split
  · rename_i h
    subst h
    have a := daysBeforeMonth_12 y
    have b := jan1_succ y
    have c : daysBeforeMonth (y + 1) 1 = 0 := by simp [daysBeforeMonth]
    unfold dayOf
    rw [c, show ((12 : Nat) : Int) = 12 from rfl]
    split at b <;> rename_i hl <;> simp only [hl, if_true, if_false, Bool.false_eq_true] at a <;> omega
  · have := daysBeforeMonth_succ y (m := m) (by omega) (by omega)
    unfold dayOf
    rw [show ((m + 1 : Nat) : Int) = (m : Int) + 1 from rfl, this]
    omega

theorem month_mono : ∀ (k : Nat) (y : Int) (m : Nat) (y' : Int) (m' : Nat), 1 ≤ m → m ≤ 12 → 1 ≤ m' → m' ≤ 12 →
    12 * y' + m' = 12 * y + m + k → dayOf y m 1 ≤ dayOf y' m' 1 := by
  intro k
  induction k with
  | zero =>
    intro y m y' m' h1 h2 h3 h4 h5
    obtain rfl : y' = y := by omega
    obtain rfl : m' = m := by omega
    omega
  | succ k ih =>
    intro y m y' m' h1 h2 h3 h4 h5
    have hn := month_next y h1 h2
    split at hn
    · have := ih (y + 1) 1 y' m' (by omega) (by omega) h3 h4 (by omega)
      simp only [Int.cast_ofNat_Int] at this
      omega
    · have := ih y (m + 1) y' m' (by omega) (by omega) h3 h4 (by omega)
      omega

theorem mem_monthWords (k : Nat) (y : Int) (m n : Nat) (h1 : 1 ≤ m) (h2 : m ≤ 12) (p : Nat × Nat) :
    p ∈ monthWords k y m n ↔ ∃ (y' : Int) (m' : Nat), 1 ≤ m' ∧ m' ≤ 12 ∧ 12 * y + m ≤ 12 * y' + m' ∧
      12 * y' + m' < 12 * y + m + k ∧
      p = (monthDays y' m', (n >>> (dayOf y' m' 1 - dayOf y m 1).toNat) % 2 ^ monthDays y' m') := by
  induction k generalizing y m n with
  | zero =>
    simp only [monthWords, List.not_mem_nil, false_iff]
    rintro ⟨y', m', -, -, h3, h4, -⟩
    omega
  | succ k ih =>
    have step : ∀ (y₁ : Int) (m₁ : Nat), 1 ≤ m₁ → m₁ ≤ 12 → 12 * y₁ + m₁ = 12 * y + m + 1 →
        dayOf y m 1 + monthDays y m = dayOf y₁ m₁ 1 →
        (p ∈ (monthDays y m, Nat.mod n (Nat.pow 2 (monthDays y m))) ::
          monthWords k y₁ m₁ (Nat.shiftRight n (monthDays y m)) ↔
        ∃ (y' : Int) (m' : Nat), 1 ≤ m' ∧ m' ≤ 12 ∧ 12 * y + m ≤ 12 * y' + m' ∧
          12 * y' + m' < 12 * y + m + (k + 1 : Nat) ∧
          p = (monthDays y' m', (n >>> (dayOf y' m' 1 - dayOf y m 1).toNat) % 2 ^ monthDays y' m')) := by
      intro y₁ m₁ a1 a2 a3 a4
      rw [List.mem_cons, ih y₁ m₁ _ a1 a2]
      have sh : ∀ (y' : Int) (m' : Nat), 1 ≤ m' → m' ≤ 12 → 12 * y₁ + m₁ ≤ 12 * y' + m' →
          (Nat.shiftRight n (monthDays y m)) >>> (dayOf y' m' 1 - dayOf y₁ m₁ 1).toNat =
            n >>> (dayOf y' m' 1 - dayOf y m 1).toNat := by
        intro y' m' b1 b2 b3
        have := month_mono (12 * y' + m' - (12 * y₁ + m₁)).toNat y₁ m₁ y' m' a1 a2 b1 b2 (by omega)
        rw [show Nat.shiftRight n (monthDays y m) = n >>> monthDays y m from rfl, ← Nat.shiftRight_add]
        congr 1
        omega
      constructor
      · rintro (rfl | ⟨y', m', b1, b2, b3, b4, rfl⟩)
        · refine ⟨y, m, h1, h2, by omega, by omega, ?_⟩
          simp only [Int.sub_self, Int.toNat_zero, Nat.shiftRight_zero]
          rfl
        · exact ⟨y', m', b1, b2, by omega, by omega, by rw [sh y' m' b1 b2 b3]⟩
      · rintro ⟨y', m', b1, b2, b3, b4, rfl⟩
        by_cases hz : 12 * y' + m' = 12 * y + m
        · obtain rfl : y' = y := by omega
          obtain rfl : m' = m := by omega
          refine Or.inl ?_
          simp only [Int.sub_self, Int.toNat_zero, Nat.shiftRight_zero]
          rfl
        · exact Or.inr ⟨y', m', b1, b2, by omega, by omega, by rw [sh y' m' b1 b2 (by omega)]⟩
    have hn := month_next y h1 h2
    rw [monthWords]
    have e := beq_decide m 12
    by_cases h12 : m = 12
    · rw [if_pos h12] at hn
      rw [e, decide_eq_true h12, cond_true]
      exact step (y + 1) 1 (by omega) (by omega) (by omega) hn
    · rw [if_neg h12] at hn
      rw [e, decide_eq_false h12, cond_false]
      exact step y (m + 1) (by omega) (by omega) (by omega) hn

theorem ones_iff (w f : Nat) : w % 2 ^ f = 2 ^ f - 1 ↔ ∀ i < f, w.testBit i = true := by
  constructor
  · intro h i hi
    have := Nat.testBit_mod_two_pow w f i
    rw [h, Nat.testBit_two_pow_sub_one] at this
    simpa [hi] using this.symm
  · intro h
    refine Nat.eq_of_testBit_eq fun i => ?_
    rw [Nat.testBit_mod_two_pow, Nat.testBit_two_pow_sub_one]
    by_cases hi : i < f
    · simp [hi, h i hi]
    · simp [hi]

/-- Whether the first `f` bits of the number are set. -/
def onesB (w f : Nat) : Bool := Nat.beq (Nat.mod w (Nat.pow 2 f)) (Nat.sub (Nat.pow 2 f) 1)

theorem onesB_iff (w f : Nat) : onesB w f = true ↔ ∀ i < f, w.testBit i = true := by
  rw [← ones_iff, onesB, Nat.beq_eq]
  rfl

/-- Everything about months, from the lengths and bits of the months; `first` and `last` are one less than the
numbers of the specification. -/
def monthsB (lo hi first last : Nat) (l : List (Nat × Nat)) : Bool :=
  (l.all fun p => Nat.ble lo (zerosByWeek weekTable 4 (Nat.sub p.1 28) p.2) &&
    (Nat.ble (zerosByWeek weekTable 4 (Nat.sub p.1 28) p.2) hi &&
      (!onesB p.2 (first + 1) && !onesB (Nat.shiftRight p.2 (Nat.sub p.1 (last + 1))) (last + 1)))) &&
  ((l.any fun p => Nat.beq (zerosByWeek weekTable 4 (Nat.sub p.1 28) p.2) lo) &&
  ((l.any fun p => Nat.beq (zerosByWeek weekTable 4 (Nat.sub p.1 28) p.2) hi) &&
  ((l.any fun p => onesB p.2 first) &&
    l.any fun p => onesB (Nat.shiftRight p.2 (Nat.sub p.1 last)) last)))

variable {x : Exchange}

theorem monthDays_bounds (y : Int) (m : Nat) : 28 ≤ monthDays y m ∧ monthDays y m ≤ 31 := by
  have := monthLength_bounds y m
  have := monthDays_eq y m
  omega

theorem dayNumber_month {y k d : Int} {m : Nat} (h1 : 1 ≤ m) (h2 : m ≤ 12) :
    DayNumber ⟨y, m, k⟩ d ↔ 1 ≤ k ∧ k ≤ monthDays y m ∧ d = dayOf y m 1 + (k - 1) := by
  rw [dayNumber_iff, monthDays_eq]
  unfold Date.Valid dayOf
  simp only
  omega

/-- The bits of a month of the exchange are its closed days. -/
theorem month_bit (hr : GoodRules x.regular) (hi : x.insideB = true) {y : Int} {m : Nat} (h0 : 1894 ≤ y)
    (h1 : y ≤ 2206) (h2 : 1 ≤ m) (h3 : m ≤ 12) {i : Nat} (hl : i < monthDays y m) :
    ((x.closedBits >>> (dayOf y m 1 + 28000).toNat) % 2 ^ monthDays y m).testBit i = false ↔
      TradesOn x (dayOf y m 1 + i) := by
  have l0 : jan1 1894 ≤ jan1 y := jan1_le_iff.2 h0
  have l1 : jan1 (y + 1) ≤ jan1 2207 := jan1_le_iff.2 (by omega)
  have e0 : jan1 1894 = -27758 := by decide
  have e1 : jan1 2207 = 86562 := by decide
  have hv := dayOf_in_year (x := ⟨y, m, i + 1⟩) ⟨by simp only; omega, by simp only; omega, by simp only; omega,
    by simp only; rw [← monthDays_eq]; omega⟩
  simp only at hv
  have hd : dayOf y m (i + 1) = dayOf y m 1 + i := by unfold dayOf; omega
  have hv1 := dayOf_in_year (x := ⟨y, m, 1⟩) ⟨by simp only; omega, by simp only; omega, by simp only; omega,
    by simp only; rw [← monthDays_eq]; omega⟩
  simp only at hv1
  rw [Nat.testBit_mod_two_pow, Nat.testBit_shiftRight]
  have e : (dayOf y m 1 + 28000).toNat + i = (dayOf y m 1 + i + 28000).toNat := by omega
  rw [e, ← closedBits_testBit hr (fun d hd => by have := inside_of hr hi d hd; omega) (by omega) (by omega)]
  simp [hl]

theorem month_count (hr : GoodRules x.regular) (hi : x.insideB = true) {y : Int} {m : Nat} (h0 : 1894 ≤ y)
    (h1 : y ≤ 2206) (h2 : 1 ≤ m) (h3 : m ≤ 12) : MonthTradingDays (TradesOn x) y m
      (zerosByWeek weekTable 4 (Nat.sub (monthDays y m) 28)
        ((x.closedBits >>> (dayOf y m 1 + 28000).toNat) % 2 ^ monthDays y m)) := by
  have hb := monthDays_bounds y m
  rw [zerosByWeek_eq, show 7 * 4 + Nat.sub (monthDays y m) 28 = monthDays y m from by
    show 7 * 4 + (monthDays y m - 28) = _; omega, zeroBits_eq]
  refine ⟨((List.range (monthDays y m)).map fun (i : Nat) => dayOf y m 1 + i).filter x.tradesB, ?_, ?_, ?_⟩
  · apply List.Pairwise.filter
    rw [List.pairwise_map]
    exact List.pairwise_lt_range.imp (by omega)
  · intro d
    rw [List.mem_filter, tradesB_iff hr, List.mem_map]
    simp only [dayNumber_month h2 h3]
    refine and_congr_left fun _ => ?_
    constructor
    · rintro ⟨i, hi, rfl⟩
      rw [List.mem_range] at hi
      exact ⟨i + 1, by omega, by omega, by omega⟩
    · rintro ⟨k, hk1, hk2, rfl⟩
      exact ⟨(k - 1).toNat, List.mem_range.2 (by omega), by omega⟩
  · symm
    apply countP_range_filter
    intro i hi'
    rw [Bool.eq_iff_iff, tradesB_iff hr, ← month_bit hr hi h0 h1 h2 h3 hi', Bool.not_eq_true']

theorem months_of {y : Int} {k lo hi first last : Nat} (hr : GoodRules x.regular) (hi' : x.insideB = true)
    (hy : 1894 ≤ y) (hk : y + k ≤ 2207) (hf : first < 28) (hl : last < 28)
    (h : monthsB lo hi first last
      (monthWords (12 * k) y 1 (Nat.shiftRight x.closedBits (jan1 y + 28000).toNat)) = true) :
    MonthlyRange (TradesOn x) y (y + k - 1) lo hi (first + 1) (last + 1) := by
  unfold monthsB at h
  simp only [Bool.and_eq_true, Bool.not_eq_true', List.all_eq_true, List.any_eq_true, Nat.ble_eq, Nat.beq_eq] at h
  obtain ⟨hall, ⟨p1, hp1, hlo⟩, ⟨p2, hp2, hhi⟩, ⟨p3, hp3, hfa⟩, p4, hp4, hla⟩ := h
  have hj : dayOf y 1 1 = jan1 y := by unfold dayOf daysBeforeMonth; simp
  have word : ∀ (y' : Int) (m' : Nat), 1 ≤ m' → m' ≤ 12 → y ≤ y' →
      Nat.shiftRight x.closedBits (jan1 y + 28000).toNat >>> (dayOf y' m' 1 - dayOf y (1 : Nat) 1).toNat =
      x.closedBits >>> (dayOf y' m' 1 + 28000).toNat := by
    intro y' m' h1 h2 h3
    have := month_mono (12 * y' + m' - (12 * y + 1)).toNat y 1 y' m' (by omega) (by omega) h1 h2 (by omega)
    have l0 : jan1 1894 ≤ jan1 y := jan1_le_iff.2 hy
    have e0 : jan1 1894 = -27758 := by decide
    have hj' : dayOf y (1 : Nat) 1 = jan1 y := hj
    rw [hj'] at this ⊢
    have sh : ∀ a b c d : Nat, b + c = d → (Nat.shiftRight a b) >>> c = a >>> d := by
      rintro a b c d rfl
      rw [Nat.shiftRight_add]
      rfl
    exact sh _ _ _ _ (by omega)
  have into : ∀ (y' m' : Int), y ≤ y' → y' ≤ y + k - 1 → 1 ≤ m' → m' ≤ 12 → ∃ n : Nat, m' = n ∧ 1 ≤ n ∧ n ≤ 12 ∧
      (monthDays y' n, (x.closedBits >>> (dayOf y' n 1 + 28000).toNat) % 2 ^ monthDays y' n) ∈
        monthWords (12 * k) y 1 (Nat.shiftRight x.closedBits (jan1 y + 28000).toNat) := by
    intro y' m' h1 h2 h3 h4
    refine ⟨m'.toNat, by omega, by omega, by omega, ?_⟩
    rw [mem_monthWords _ _ _ _ (by omega) (by omega)]
    exact ⟨y', m'.toNat, by omega, by omega, by omega, by omega,
      by rw [word y' m'.toNat (by omega) (by omega) h1]⟩
  have back : ∀ p ∈ monthWords (12 * k) y 1 (Nat.shiftRight x.closedBits (jan1 y + 28000).toNat),
      ∃ (y' : Int) (n : Nat), y ≤ y' ∧ y' ≤ y + k - 1 ∧ 1 ≤ n ∧ n ≤ 12 ∧
        p = (monthDays y' n, (x.closedBits >>> (dayOf y' n 1 + 28000).toNat) % 2 ^ monthDays y' n) := by
    intro p hp
    obtain ⟨y', n, h1, h2, h3, h4, rfl⟩ := (mem_monthWords _ _ _ _ (by omega) (by omega) p).1 hp
    exact ⟨y', n, by omega, by omega, h1, h2, by rw [word y' n h1 h2 (by omega)]⟩
  have notOnes : ∀ w f, onesB w f = false → ∃ i < f, w.testBit i = false := by
    intro w f h
    apply Classical.byContradiction
    intro hno
    rw [(onesB_iff w f).2 fun i hi => ?_] at h
    · cases h
    · apply Classical.byContradiction
      intro hb
      exact hno ⟨i, hi, by simpa using hb⟩
  refine ⟨?_, ?_, ?_, ?_, ?_, ?_, ?_⟩
  · intro y' m' h1 h2 h3 h4
    obtain ⟨n, rfl, hn1, hn2, hmem⟩ := into y' m' h1 h2 h3 h4
    obtain ⟨a, b, -⟩ := hall _ hmem
    exact ⟨_, month_count hr hi' (by omega) (by omega) hn1 hn2, a, b⟩
  · obtain ⟨y', n, h1, h2, h3, h4, rfl⟩ := back p1 hp1
    exact ⟨y', n, h1, h2, hlo ▸ month_count hr hi' (by omega) (by omega) h3 h4⟩
  · obtain ⟨y', n, h1, h2, h3, h4, rfl⟩ := back p2 hp2
    exact ⟨y', n, h1, h2, hhi ▸ month_count hr hi' (by omega) (by omega) h3 h4⟩
  · intro y' m' h1 h2 h3 h4
    obtain ⟨n, rfl, hn1, hn2, hmem⟩ := into y' m' h1 h2 h3 h4
    obtain ⟨-, -, a, -⟩ := hall _ hmem
    obtain ⟨i, hi, hb⟩ := notOnes _ _ a
    have hd := monthDays_bounds y' n
    refine ⟨i + 1, dayOf y' n 1 + i, (dayNumber_month hn1 hn2).2 ⟨by omega, by omega, by omega⟩, by omega, ?_⟩
    exact (month_bit hr hi' (by omega) (by omega) hn1 hn2 (by omega)).1 hb
  · obtain ⟨y', n, h1, h2, h3, h4, rfl⟩ := back p3 hp3
    refine ⟨y', n, h1, h2, by omega, by omega, fun j d hd hj ht => ?_⟩
    obtain ⟨a, b, rfl⟩ := (dayNumber_month h3 h4).1 hd
    have hb := (onesB_iff _ _).1 hfa (j - 1).toNat (by omega)
    rw [(month_bit hr hi' (by omega) (by omega) h3 h4 (by omega)).2
      (by rwa [show ((j - 1).toNat : Int) = j - 1 by omega])] at hb
    cases hb
  · intro y' m' h1 h2 h3 h4
    obtain ⟨n, rfl, hn1, hn2, hmem⟩ := into y' m' h1 h2 h3 h4
    obtain ⟨-, -, -, a⟩ := hall _ hmem
    obtain ⟨i, hi, hb⟩ := notOnes _ _ a
    have hd := monthDays_bounds y' n
    simp only at hb
    rw [show Nat.shiftRight _ _ = (_ >>> _ : Nat) from rfl, Nat.testBit_shiftRight,
      show Nat.sub (monthDays y' n) (last + 1) = monthDays y' n - (last + 1) from rfl] at hb
    refine ⟨(monthDays y' n - (last + 1) + i : Nat) + 1, dayOf y' n 1 + (monthDays y' n - (last + 1) + i : Nat),
      (dayNumber_month hn1 hn2).2 ⟨by omega, by omega, by omega⟩, by rw [← monthDays_eq]; omega, ?_⟩
    exact (month_bit hr hi' (by omega) (by omega) hn1 hn2 (by omega)).1 hb
  · obtain ⟨y', n, h1, h2, h3, h4, rfl⟩ := back p4 hp4
    refine ⟨y', n, h1, h2, by omega, by omega, fun j d hd hj ht => ?_⟩
    obtain ⟨a, b, rfl⟩ := (dayNumber_month h3 h4).1 hd
    have hlen := monthDays_bounds y' n
    rw [← monthDays_eq] at hj
    have hb := (onesB_iff _ _).1 hla ((j - 1).toNat - (monthDays y' n - last)) (by omega)
    simp only at hb
    rw [show Nat.shiftRight _ _ = (_ >>> _ : Nat) from rfl, Nat.testBit_shiftRight,
      show Nat.sub (monthDays y' n) last = monthDays y' n - last from rfl,
      show monthDays y' n - last + ((j - 1).toNat - (monthDays y' n - last)) = (j - 1).toNat by omega,
      (month_bit hr hi' (by omega) (by omega) h3 h4 (by omega)).2
      (by rwa [show ((j - 1).toNat : Int) = j - 1 by omega])] at hb
    cases hb

end TC
