import Verif.Spec.EarlyYear
import Verif.Lemmas.DayBits
import Verif.Lemmas.Feasts

/-!
# Counting the early closes of a year

The early closes of an exchange are counted as the closures of an exchange that is open every day, with the early
closes as its holidays.
-/

namespace TC
open Spec

/-- An exchange that is closed on the days on which `x` closes early, and open on all others. -/
def Exchange.onlyEarly (x : Exchange) : Exchange :=
  { regular := x.specialRules.map (·.2)
    adhoc := x.specialDays.map (·.2)
    weekdays := [0, 1, 2, 3, 4, 5, 6]
    openTimes := []
    closeTimes := [] }

theorem onlyEarly_iff (x : Exchange) {d : Int} (h0 : 0 ≤ d) (h1 : d ≤ 84370) :
    TradesOn x.onlyEarly d ↔ ¬ HasEarlyClose x d := by
  unfold TradesOn HasEarlyClose Exchange.onlyEarly
  simp only [closesEarly_iff, List.mem_map, not_exists, not_or]
  constructor
  · rintro ⟨-, h2, h3⟩ t
    refine ⟨?_, fun h => h2 (t, d) ⟨h, rfl⟩⟩
    rintro r ⟨hr, hd⟩
    exact h3 h0 h1 r ⟨(t, r), hr, rfl⟩ hd
  · intro h
    refine ⟨?_, ?_, ?_⟩
    · refine ⟨weekday d, ?_, (weekday_iff _ _).2 rfl⟩
      have : 0 ≤ weekday d ∧ weekday d < 7 := by unfold weekday; omega
      simp only [List.mem_cons, List.not_mem_nil, or_false]
      omega
    · rintro ⟨t, d'⟩ ⟨hm, rfl⟩
      exact (h t).2 hm
    · rintro - - r ⟨⟨t, r'⟩, hm, rfl⟩ hd
      exact (h t).1 r' ⟨hm, hd⟩

/-- The numbers of early closes of `k` years from year `y` on. -/
def Exchange.earlyCounts (x : Exchange) (y : Int) (k : Nat) : List Nat :=
  List.zipWith Nat.sub ((List.range k).map fun (i : Nat) => yearLength (y + i))
    (yearCounts weekTable k y (Nat.shiftRight x.onlyEarly.closedBits (jan1 y + 28000).toNat))

theorem complement_days {p q : Int → Prop} {y : Int} {n : Nat} (h : TradingDays p y n)
    (hpq : ∀ d, InYear d y → (p d ↔ ¬ q d)) : TradingDays q y (yearLength y - n) := by
  classical
  obtain ⟨l, hs, hl, rfl⟩ := h
  have hlen := jan1_length y
  have hday : ∀ d, d ∈ (List.range (yearLength y)).map (fun (i : Nat) => jan1 y + i) ↔ InYear d y := by
    intro d
    rw [inYear_jan1, List.mem_map]
    constructor
    · rintro ⟨i, hi, rfl⟩
      rw [List.mem_range] at hi
      omega
    · intro hd
      exact ⟨(d - jan1 y).toNat, List.mem_range.2 (by omega), by omega⟩
  have hsort : ((List.range (yearLength y)).map fun (i : Nat) => jan1 y + i).Pairwise (· < ·) := by
    rw [List.pairwise_map]
    exact List.pairwise_lt_range.imp (by omega)
  generalize hL : (List.range (yearLength y)).map (fun (i : Nat) => jan1 y + i) = L at hday hsort
  have hLl : L.length = yearLength y := by rw [← hL]; simp
  refine ⟨L.filter fun d => decide (q d), hsort.filter _, fun d => ?_, ?_⟩
  · rw [List.mem_filter, hday, decide_eq_true_eq]
  · have e : L.filter (fun d => !decide (q d)) = l := by
      refine sorted_ext (hsort.filter _) hs fun d => ?_
      rw [List.mem_filter, hday, hl]
      refine and_congr_right fun hd => ?_
      rw [hpq d hd]
      simp
    have := List.length_eq_countP_add_countP (l := L) fun d => decide (q d)
    rw [List.countP_eq_length_filter, List.countP_eq_length_filter] at this
    rw [← hLl, ← e]
    simp only [Bool.not_eq_true, Bool.decide_eq_false] at this
    omega

theorem early_counts {x : Exchange} {y : Int} {k : Nat} (hr : GoodRules (x.specialRules.map (·.2)))
    (hi' : x.onlyEarly.insideB = true) (hy : 1970 ≤ y) (hk : y + k ≤ 2201) {i : Nat} (hi : i < k) :
    ∃ h : i < (x.earlyCounts y k).length, TradingDays (HasEarlyClose x) (y + i) (x.earlyCounts y k)[i] := by
  have hlen : (x.earlyCounts y k).length = k := by
    unfold Exchange.earlyCounts
    rw [yearCounts_eq]
    simp
  refine ⟨by omega, ?_⟩
  have e : (x.earlyCounts y k)[i]'(by omega) = yearLength (y + i) - zeroBits (yearLength (y + i))
      (x.onlyEarly.closedBits >>> (jan1 (y + i) + 28000).toNat) := by
    unfold Exchange.earlyCounts
    simp only [yearCounts_eq, List.getElem_zipWith, List.getElem_map, List.getElem_range]
    have l0 : jan1 1970 ≤ jan1 y := jan1_le_iff.2 hy
    have e0 : jan1 1970 = 0 := by decide
    have l1 : jan1 y ≤ jan1 (y + i) := jan1_le_iff.2 (by omega)
    have e : (jan1 y + 28000).toNat + (jan1 (y + i) - jan1 y).toNat = (jan1 (y + i) + 28000).toNat := by omega
    rw [← e, Nat.shiftRight_add]
    rfl
  rw [e]
  refine complement_days (zeroBits_year (x := x.onlyEarly) hr hi' (by omega) (by omega)) fun d hd => ?_
  rw [inYear_jan1] at hd
  have l0 : jan1 1970 ≤ jan1 (y + i) := jan1_le_iff.2 (by omega)
  have e0 : jan1 1970 = 0 := by decide
  have l1 : jan1 (y + i + 1) ≤ jan1 2201 := jan1_le_iff.2 (by omega)
  have e1 : jan1 2201 = 84371 := by decide
  exact onlyEarly_iff x (by omega) (by omega)

theorem early_range {x : Exchange} {bad : List Int} {y : Int} {k lo hi : Nat} (hx : x.check bad = true)
    (hi' : x.onlyEarly.insideB = true) (hy : 1970 ≤ y) (hk : y + k ≤ 2201)
    (h : countsB lo hi (x.earlyCounts y k) = true) :
    YearlyRange (HasEarlyClose x) y (y + k - 1) lo hi := by
  have hr : GoodRules (x.specialRules.map (·.2)) := by
    unfold Exchange.check at hx
    simp only [Bool.and_eq_true] at hx
    exact rules_of hx.1.1.1.2
  have key := fun i (hi : i < k) => early_counts (x := x) hr hi' hy hk hi
  have hlen : (x.earlyCounts y k).length = k := by
    unfold Exchange.earlyCounts
    rw [yearCounts_eq]
    simp
  unfold countsB at h
  simp only [Bool.and_eq_true] at h
  obtain ⟨⟨hall, hlo⟩, hhi⟩ := h
  have some_of : ∀ {c : Nat}, (x.earlyCounts y k).contains c = true →
      ∃ y', y ≤ y' ∧ y' ≤ y + k - 1 ∧ TradingDays (HasEarlyClose x) y' c := by
    intro c hc
    rw [List.contains_iff_mem] at hc
    obtain ⟨i, hi, rfl⟩ := List.getElem_of_mem hc
    rw [hlen] at hi
    obtain ⟨h1, h2⟩ := key i hi
    exact ⟨y + i, by omega, by omega, h2⟩
  refine ⟨fun y' h1 h2 => ?_, some_of hlo, some_of hhi⟩
  obtain ⟨h3, h4⟩ := key (y' - y).toNat (by omega)
  have hm := List.all_eq_true.1 hall _ (List.getElem_mem h3)
  simp only [Bool.and_eq_true, Nat.ble_eq] at hm
  have e : y + ((y' - y).toNat : Int) = y' := by omega
  rw [e] at h4
  exact ⟨_, h4, hm⟩

/-- The numbers of minutes of `k` years from year `y` on; `none` if a year had more early closes than trading days. -/
def Exchange.minuteCounts (x : Exchange) (f s : Nat) (y : Int) (k : Nat) : List (Option Nat) :=
  List.zipWith (fun n e => if Nat.ble e n then some (f * Nat.sub n e + s * e) else none)
    (yearCounts weekTable k y (Nat.shiftRight x.closedBits (jan1 y + 28000).toNat)) (x.earlyCounts y k)

/-- All counts are there, between `lo` and `hi`, and both occur. -/
def minutesB (lo hi : Nat) (l : List (Option Nat)) : Bool :=
  (l.all fun c => match c with | some c => Nat.ble lo c && Nat.ble c hi | none => false) &&
  l.contains (some lo) && l.contains (some hi)

theorem trading_counts {x : Exchange} {y : Int} {k : Nat} (hr : GoodRules x.regular) (hi' : x.insideB = true)
    (hy : 1970 ≤ y) (hk : y + k ≤ 2201) {i : Nat} (hi : i < k) :
    ∃ h : i < (yearCounts weekTable k y (Nat.shiftRight x.closedBits (jan1 y + 28000).toNat)).length,
      TradingDays (TradesOn x) (y + i)
        (yearCounts weekTable k y (Nat.shiftRight x.closedBits (jan1 y + 28000).toNat))[i] := by
  have hlen : (yearCounts weekTable k y (Nat.shiftRight x.closedBits (jan1 y + 28000).toNat)).length = k := by
    rw [yearCounts_eq]
    simp
  refine ⟨by omega, ?_⟩
  simp only [yearCounts_eq, List.getElem_map, List.getElem_range]
  have l0 : jan1 1970 ≤ jan1 y := jan1_le_iff.2 hy
  have e0 : jan1 1970 = 0 := by decide
  have l1 : jan1 y ≤ jan1 (y + i) := jan1_le_iff.2 (by omega)
  have e : (jan1 y + 28000).toNat + (jan1 (y + i) - jan1 y).toNat = (jan1 (y + i) + 28000).toNat := by omega
  have := zeroBits_year hr hi' (y := y + i) (by omega) (by omega)
  rw [← e, Nat.shiftRight_add] at this
  exact this

theorem minutes_range {x : Exchange} {bad : List Int} {y : Int} {k f s lo hi : Nat} (hx : x.check bad = true)
    (hi₁ : x.insideB = true) (hi₂ : x.onlyEarly.insideB = true) (hy : 1970 ≤ y) (hk : y + k ≤ 2201)
    (h : minutesB lo hi (x.minuteCounts f s y k) = true) :
    MinutesRange (TradesOn x) (HasEarlyClose x) f s y (y + k - 1) lo hi := by
  have hr : GoodRules (x.specialRules.map (·.2)) := by
    unfold Exchange.check at hx
    simp only [Bool.and_eq_true] at hx
    exact rules_of hx.1.1.1.2
  have hr' := rules_of_check hx
  have hlen : (x.minuteCounts f s y k).length = k := by
    unfold Exchange.minuteCounts Exchange.earlyCounts
    simp only [yearCounts_eq]
    simp
  have key : ∀ i (hi : i < k) c, (x.minuteCounts f s y k)[i]'(by omega) = some c →
      MinutesOfYear (TradesOn x) (HasEarlyClose x) f s (y + i) c := by
    intro i hi c hc
    obtain ⟨h1, h2⟩ := early_counts (x := x) hr hi₂ hy hk hi
    obtain ⟨h3, h4⟩ := trading_counts hr' hi₁ hy hk hi
    unfold Exchange.minuteCounts at hc
    rw [List.getElem_zipWith] at hc
    split at hc
    · rename_i hle
      rw [Nat.ble_eq] at hle
      cases hc
      refine ⟨_, _, ?_, h2, rfl⟩
      rw [show ∀ a b : Nat, Nat.sub a b = a - b from fun _ _ => rfl, Nat.sub_add_cancel hle]
      exact h4
    · cases hc
  unfold minutesB at h
  simp only [Bool.and_eq_true] at h
  obtain ⟨⟨hall, hlo⟩, hhi⟩ := h
  have some_of : ∀ {c : Nat}, (x.minuteCounts f s y k).contains (some c) = true →
      ∃ y', y ≤ y' ∧ y' ≤ y + k - 1 ∧ MinutesOfYear (TradesOn x) (HasEarlyClose x) f s y' c := by
    intro c hc
    rw [List.contains_iff_mem] at hc
    obtain ⟨i, hi, he⟩ := List.getElem_of_mem hc
    rw [hlen] at hi
    exact ⟨y + i, by omega, by omega, key i hi c he⟩
  refine ⟨fun y' h1 h2 => ?_, some_of hlo, some_of hhi⟩
  have h3 : (y' - y).toNat < k := by omega
  have hm := List.all_eq_true.1 hall _ (List.getElem_mem (show (y' - y).toNat < _ by rw [hlen]; exact h3))
  cases hc : (x.minuteCounts f s y k)[(y' - y).toNat]'(by rw [hlen]; exact h3) with
  | none => rw [hc] at hm; simp at hm
  | some c =>
    rw [hc] at hm
    simp only [Bool.and_eq_true, Nat.ble_eq] at hm
    have h4 := key _ h3 c hc
    rw [show y + ((y' - y).toNat : Int) = y' by omega] at h4
    exact ⟨c, h4, hm⟩

end TC
