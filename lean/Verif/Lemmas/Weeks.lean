import Verif.Lemmas.Months
import Verif.Spec.Weeks

/-! # The weeks of the closed days of an exchange, as the bits of numbers -/

namespace TC
open Spec

/-- The first Monday of year `y`. -/
def firstMonday (y : Int) : Int := jan1 y + (4 - jan1 y) % 7

/-- The number of weeks that begin with a Monday and lie within the years from `y₀` to `y₁`. -/
def weeksWithin (y₀ y₁ : Int) : Nat := ((jan1 (y₁ + 1) - firstMonday y₀) / 7).toNat

theorem weekWithin_iff (y₀ y₁ w : Int) :
    WeekWithin y₀ y₁ w ↔ ∃ i < weeksWithin y₀ y₁, w = firstMonday y₀ + 7 * (i : Int) := by
  have hj : ∀ y a, DayNumber ⟨y, 1, 1⟩ a ↔ a = jan1 y := by
    intro y a
    rw [dayNumber_iff]
    have e : dayOf y 1 1 = jan1 y := by unfold dayOf daysBeforeMonth; simp
    have v : Date.Valid ⟨y, 1, 1⟩ := ⟨by simp, by simp, by simp, by simp [monthLength]⟩
    simp only [e, v, true_and]
    exact eq_comm
  have hz : ∀ y a, DayNumber ⟨y, 12, 31⟩ a ↔ a = jan1 (y + 1) - 1 := by
    intro y a
    rw [dayNumber_iff]
    have v : Date.Valid ⟨y, 12, 31⟩ := ⟨by simp, by simp, by simp, by simp [monthLength]⟩
    have e : dayOf y 12 31 = jan1 (y + 1) - 1 := by
      have a := daysBeforeMonth_12 y
      have b := jan1_succ y
      have c : monthLength y 12 = 31 := by simp [monthLength]
      unfold dayOf
      split at b <;> rename_i hl <;> simp only [hl, if_true, if_false, Bool.false_eq_true] at a <;> omega
    simp only [e, v, true_and]
    exact eq_comm
  unfold WeekWithin
  simp only [hj, hz]
  rw [weekday_iff, weekday]
  unfold weeksWithin firstMonday
  constructor
  · rintro ⟨h, a, z, rfl, rfl, h1, h2⟩
    exact ⟨((w - (jan1 y₀ + (4 - jan1 y₀) % 7)) / 7).toNat, by omega, by omega⟩
  · rintro ⟨i, h, rfl⟩
    exact ⟨by omega, _, _, rfl, rfl, by omega, by omega⟩

/-- `k` words of `s` bits. -/
def words (s : Nat) : Nat → Nat → List Nat
  | 0, _ => []
  | k + 1, n => Nat.mod n (Nat.pow 2 s) :: words s k (Nat.shiftRight n s)

theorem mem_words (s k n a : Nat) : a ∈ words s k n ↔ ∃ i < k, a = (n >>> (s * i)) % 2 ^ s := by
  induction k generalizing n with
  | zero => simp [words]
  | succ k ih =>
    rw [words, List.mem_cons, ih]
    constructor
    · rintro (rfl | ⟨i, hi, rfl⟩)
      · exact ⟨0, by omega, by simp; rfl⟩
      · refine ⟨i + 1, by omega, ?_⟩
        rw [show Nat.shiftRight n s = n >>> s from rfl, ← Nat.shiftRight_add, Nat.mul_succ, Nat.add_comm s]
    · rintro ⟨i, hi, rfl⟩
      rcases i with _ | i
      · exact Or.inl (by simp; rfl)
      · refine Or.inr ⟨i, by omega, ?_⟩
        rw [show Nat.shiftRight n s = n >>> s from rfl, ← Nat.shiftRight_add, Nat.mul_succ, Nat.add_comm s]

/-- The words of `k` weeks, taken from words of 53 weeks. -/
def weekWords (k n : Nat) : List Nat :=
  (words 371 (Nat.div k 53) n).flatMap (words 7 53) ++
    words 7 (Nat.mod k 53) (Nat.shiftRight n (Nat.mul 371 (Nat.div k 53)))

theorem mem_weekWords (k n a : Nat) : a ∈ weekWords k n ↔ ∃ i < k, a = (n >>> (7 * i)) % 2 ^ 7 := by
  unfold weekWords
  rw [List.mem_append, List.mem_flatMap]
  simp only [mem_words]
  rw [show Nat.div k 53 = k / 53 from rfl, show Nat.mod k 53 = k % 53 from rfl,
    show Nat.mul 371 (k / 53) = 371 * (k / 53) from rfl,
    show Nat.shiftRight n (371 * (k / 53)) = n >>> (371 * (k / 53)) from rfl]
  have inner : ∀ i j, j < 53 → (((n >>> (371 * i)) % 2 ^ 371) >>> (7 * j)) % 2 ^ 7 =
      (n >>> (7 * (53 * i + j))) % 2 ^ 7 := by
    intro i j hj
    refine Nat.eq_of_testBit_eq fun t => ?_
    simp only [Nat.testBit_mod_two_pow, Nat.testBit_shiftRight]
    by_cases ht : t < 7
    · have h1 : 7 * j + t < 371 := by omega
      simp only [ht, h1, decide_true, Bool.true_and]
      congr 1
      omega
    · simp [ht]
  constructor
  · rintro (⟨b, ⟨i, hi, rfl⟩, j, hj, rfl⟩ | ⟨j, hj, rfl⟩)
    · exact ⟨53 * i + j, by omega, inner i j hj⟩
    · refine ⟨53 * (k / 53) + j, by omega, ?_⟩
      rw [← Nat.shiftRight_add]
      congr 2
      omega
  · rintro ⟨i, hi, rfl⟩
    by_cases h : i / 53 < k / 53
    · refine Or.inl ⟨_, ⟨i / 53, h, rfl⟩, i % 53, by omega, ?_⟩
      rw [inner _ _ (by omega)]
      congr 3
      omega
    · refine Or.inr ⟨i % 53, by omega, ?_⟩
      rw [← Nat.shiftRight_add]
      congr 2
      omega

/-- Everything about weeks, from the bits of the closed days. -/
def weeksB (y₀ y₁ : Int) (lo hi : Nat) (empty : List Date) (n : Nat) : Bool :=
  let l := (weekWords (weeksWithin y₀ y₁) (Nat.shiftRight n (firstMonday y₀ + 28000).toNat)).map
    (zerosByWeek weekTable 1 0)
  (l.all fun c => Nat.ble lo c && Nat.ble c hi) && (l.any (Nat.beq lo) && (l.any (Nat.beq hi) &&
  (Nat.beq (Nat.land (runBits n 6) (Nat.shiftLeft (Nat.mod (weekBits 1 14) (Nat.pow 2 (7 * weeksWithin y₀ y₁)))
      (firstMonday y₀ + 28000).toNat))
    (dayBits (empty.map fun x => dayOf x.year x.month x.day) 0) &&
  empty.all fun x => decide (1 ≤ x.month ∧ x.month ≤ 12 ∧ 1 ≤ x.day ∧ x.day ≤ monthLength x.year x.month) &&
    decide (-27758 ≤ dayOf x.year x.month x.day))))

variable {x : Exchange}

theorem week_bit (hr : GoodRules x.regular) (hi : x.insideB = true) {d : Int} (h0 : -27758 ≤ d) (h1 : d < 86562) :
    x.closedBits.testBit (d + 28000).toNat = false ↔ TradesOn x d :=
  closedBits_testBit hr (fun d hd => by have := inside_of hr hi d hd; omega) (by omega) (by omega)

theorem week_count (hr : GoodRules x.regular) (hi : x.insideB = true) {w : Int} (h0 : -27758 ≤ w)
    (h1 : w + 7 ≤ 86562) : WeekTradingDays (TradesOn x) w
      (zerosByWeek weekTable 1 0 ((x.closedBits >>> (w + 28000).toNat) % 2 ^ 7)) := by
  rw [zerosByWeek_eq, show 7 * 1 + 0 = 7 from rfl, zeroBits_mod, zeroBits_eq]
  refine ⟨((List.range 7).map fun (i : Nat) => w + i).filter x.tradesB, ?_, ?_, ?_⟩
  · apply List.Pairwise.filter
    rw [List.pairwise_map]
    exact List.pairwise_lt_range.imp (by omega)
  · intro d
    rw [List.mem_filter, tradesB_iff hr, List.mem_map]
    refine and_congr_left fun _ => ?_
    constructor
    · rintro ⟨i, hi, rfl⟩
      rw [List.mem_range] at hi
      omega
    · intro hd
      exact ⟨(d - w).toNat, List.mem_range.2 (by omega), by omega⟩
  · symm
    apply countP_range_filter
    intro i hi'
    rw [Bool.eq_iff_iff, tradesB_iff hr, ← week_bit hr hi (by omega) (by omega), Nat.testBit_shiftRight,
      show (w + i + 28000).toNat = (w + 28000).toNat + i by omega, Bool.not_eq_true']

theorem weeks_of {y₀ y₁ : Int} {lo hi : Nat} {empty : List Date} (hr : GoodRules x.regular)
    (hi' : x.insideB = true) (hy : 1894 ≤ y₀) (hk : y₁ ≤ 2206)
    (h : weeksB y₀ y₁ lo hi empty x.closedBits = true) :
    WeeklyRange (TradesOn x) y₀ y₁ lo hi empty := by
  unfold weeksB at h
  simp only [Bool.and_eq_true, List.all_eq_true, List.any_eq_true, Nat.ble_eq, Nat.beq_eq,
    List.mem_map, decide_eq_true_eq] at h
  obtain ⟨hall, ⟨c1, ⟨a1, ha1, rfl⟩, hlo⟩, ⟨c2, ⟨a2, ha2, rfl⟩, hhi⟩, hempty, hvalid⟩ := h
  have l0 : jan1 1894 ≤ jan1 y₀ := jan1_le_iff.2 hy
  have l1 : jan1 (y₁ + 1) ≤ jan1 2207 := jan1_le_iff.2 (by omega)
  have e0 : jan1 1894 = -27758 := by decide
  have e1 : jan1 2207 = 86562 := by decide
  have bounds : ∀ i < weeksWithin y₀ y₁, -27758 ≤ firstMonday y₀ + 7 * (i : Int) ∧
      firstMonday y₀ + 7 * (i : Int) + 7 ≤ 86562 := by
    unfold weeksWithin firstMonday
    omega
  have f0 : -27758 ≤ firstMonday y₀ := by unfold firstMonday; omega
  have word : ∀ i : Nat, (Nat.shiftRight x.closedBits (firstMonday y₀ + 28000).toNat) >>> (7 * i) =
      x.closedBits >>> (firstMonday y₀ + 7 * (i : Int) + 28000).toNat := by
    intro i
    rw [show Nat.shiftRight x.closedBits (firstMonday y₀ + 28000).toNat =
      x.closedBits >>> (firstMonday y₀ + 28000).toNat from rfl, ← Nat.shiftRight_add]
    congr 1
    omega
  have count : ∀ i < weeksWithin y₀ y₁, WeekTradingDays (TradesOn x) (firstMonday y₀ + 7 * (i : Int))
      (zerosByWeek weekTable 1 0
        ((Nat.shiftRight x.closedBits (firstMonday y₀ + 28000).toNat) >>> (7 * i) % 2 ^ 7)) := by
    intro i hi
    rw [word]
    exact week_count hr hi' (bounds i hi).1 (bounds i hi).2
  rw [mem_weekWords] at ha1 ha2
  obtain ⟨i1, hi1, rfl⟩ := ha1
  obtain ⟨i2, hi2, rfl⟩ := ha2
  have bits : ∀ d : Int, -27758 ≤ d → ((dayBits (empty.map fun x => dayOf x.year x.month x.day) 0).testBit
      (d + 28000).toNat = true ↔ ∃ x ∈ empty, DayNumber x d) := by
    intro d hd
    rw [dayBits_testBit]
    simp only [Nat.zero_testBit, Bool.or_false, List.any_eq_true, List.mem_map, dayNumber_iff, decide_eq_true_eq]
    constructor
    · rintro ⟨e, ⟨z, hz, rfl⟩, he⟩
      have hv := hvalid z hz
      exact ⟨z, hz, hv.1, by omega⟩
    · rintro ⟨z, hz, -, rfl⟩
      exact ⟨_, ⟨z, hz, rfl⟩, rfl⟩
  have lhs : ∀ d : Int, -27758 ≤ d → ((Nat.land (runBits x.closedBits 6)
      (Nat.shiftLeft (Nat.mod (weekBits 1 14) (Nat.pow 2 (7 * weeksWithin y₀ y₁)))
      (firstMonday y₀ + 28000).toNat)).testBit (d + 28000).toNat = true ↔
      WeekWithin y₀ y₁ d ∧ ∀ e, d ≤ e → e < d + 7 → ¬ TradesOn x e) := by
    intro d hd
    rw [show ∀ a b c e : Nat, Nat.land a (Nat.shiftLeft (Nat.mod b (Nat.pow 2 c)) e) = a &&& ((b % 2 ^ c) <<< e) from
      fun _ _ _ _ => rfl, Nat.testBit_and, Nat.testBit_shiftLeft, Nat.testBit_mod_two_pow,
      weekBits_testBit (by decide), Bool.and_eq_true, runBits_testBit, weekWithin_iff]
    simp only [Bool.and_eq_true, decide_eq_true_eq, ge_iff_le]
    have one : ∀ t < 7, (Nat.testBit 1 t = true ↔ t = 0) := by decide
    rw [one _ (Nat.mod_lt _ (by decide))]
    constructor
    · rintro ⟨hrun, h1, h2, h3, h4⟩
      have hw : d = firstMonday y₀ + 7 * ((((d + 28000).toNat - (firstMonday y₀ + 28000).toNat) / 7 : Nat) : Int) := by
        omega
      have hlt : ((d + 28000).toNat - (firstMonday y₀ + 28000).toNat) / 7 < weeksWithin y₀ y₁ := by omega
      have hb := bounds _ hlt
      rw [← hw] at hb
      refine ⟨⟨_, hlt, hw⟩, fun e h5 h6 ht => ?_⟩
      have := hrun (e - d).toNat (by omega)
      rw [show (d + 28000).toNat + (e - d).toNat = (e + 28000).toNat by omega,
        (week_bit hr hi' (by omega) (by omega)).2 ht] at this
      cases this
    · rintro ⟨⟨i, hi, rfl⟩, hno⟩
      have hb := bounds i hi
      refine ⟨fun j hj => ?_, by omega, by omega, ?_, by omega⟩
      · rw [show (firstMonday y₀ + 7 * (i : Int) + 28000).toNat + j =
          (firstMonday y₀ + 7 * (i : Int) + j + 28000).toNat by omega]
        cases hc : x.closedBits.testBit (firstMonday y₀ + 7 * (i : Int) + j + 28000).toNat with
        | true => rfl
        | false =>
          exact absurd ((week_bit hr hi' (by omega) (by omega)).1 hc) (hno _ (by omega) (by omega))
      · simp only [Nat.reducePow]
        omega
  rw [hempty] at lhs
  refine ⟨?_, ⟨_, (weekWithin_iff _ _ _).2 ⟨i1, hi1, rfl⟩, hlo ▸ count i1 hi1⟩,
    ⟨_, (weekWithin_iff _ _ _).2 ⟨i2, hi2, rfl⟩, hhi ▸ count i2 hi2⟩, ?_, ?_⟩
  · intro w hw
    obtain ⟨i, hi, rfl⟩ := (weekWithin_iff _ _ _).1 hw
    exact ⟨_, count i hi, hall _ ⟨_, (mem_weekWords _ _ _).2 ⟨i, hi, rfl⟩, rfl⟩⟩
  · intro w hw
    obtain ⟨i, hi, rfl⟩ := (weekWithin_iff _ _ _).1 hw
    have hb := (bounds i hi).1
    rw [← bits _ hb, lhs _ hb]
    exact ⟨fun h => ⟨hw, h⟩, fun h => h.2⟩
  · intro z hz
    have hv := hvalid z hz
    exact ⟨_, (dayNumber_iff _ _).2 ⟨hv.1, rfl⟩,
      ((lhs _ hv.2).1 ((bits _ hv.2).2 ⟨z, hz, (dayNumber_iff _ _).2 ⟨hv.1, rfl⟩⟩)).1⟩

/-- Months and weeks together, for which the kernel computes the closed days once. -/
theorem months_weeks_of {y : Int} {k lo hi first last : Nat} {y₀ y₁ : Int} {lo' hi' : Nat} {empty : List Date}
    (hr : GoodRules x.regular) (hin : x.insideB = true) (hy : 1894 ≤ y) (hk : y + k ≤ 2207) (hf : first < 28)
    (hl : last < 28) (hy' : 1894 ≤ y₀) (hk' : y₁ ≤ 2206)
    (h : (monthsB lo hi first last
        (monthWords (12 * k) y 1 (Nat.shiftRight x.closedBits (jan1 y + 28000).toNat)) &&
      weeksB y₀ y₁ lo' hi' empty x.closedBits) = true) :
    MonthlyRange (TradesOn x) y (y + k - 1) lo hi (first + 1) (last + 1) ∧
      WeeklyRange (TradesOn x) y₀ y₁ lo' hi' empty := by
  rw [Bool.and_eq_true] at h
  exact ⟨months_of hr hin hy hk hf hl h.1, weeks_of hr hin hy' hk' h.2⟩

end TC
