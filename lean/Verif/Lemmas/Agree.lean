import Verif.Lemmas.DayBits
import Verif.Spec.Agree

/-! # Comparing the closed days of two exchanges -/

namespace TC
open Spec

variable {x y : Exchange}

theorem trades_outside (hr : GoodRules x.regular) (hi : x.insideB = true) {d : Int} (h : d < -27950 ∨ 86600 < d) :
    TradesOn x d ↔ x.weekdays.contains (weekday d) = true := by
  rw [tradesOn_list hr]
  have : d ∉ x.holidayList := fun hd => by
    have := inside_of hr hi d hd
    omega
  simp [this]

theorem bits_trades (hr : GoodRules x.regular) (hi : x.insideB = true) {d : Int} (h0 : -28000 ≤ d) (h1 : d < 86688) :
    TradesOn x d ↔ x.closedBits.testBit (d + 28000).toNat = false :=
  (closedBits_testBit hr (fun e he => by have := inside_of hr hi e he; omega) h0 h1).symm

/-- The bits from bit `n` on are `v` (0 or 1). -/
def topB (z n v : Nat) : Bool := Nat.shiftRight z n == v

theorem topB_zero {z n : Nat} (h : topB z n 0 = true) {i : Nat} (hi : n ≤ i) : z.testBit i = false := by
  have e : z >>> n = 0 := by simpa [topB] using h
  have := Nat.testBit_shiftRight (i := n) (j := i - n) z
  rw [e, Nat.zero_testBit, show n + (i - n) = i by omega] at this
  exact this.symm

theorem topB_one {z n : Nat} (h : topB z n 1 = true) : z.testBit n = true ∧ ∀ i, n < i → z.testBit i = false := by
  have e : z >>> n = 1 := by simpa [topB] using h
  constructor
  · have := Nat.testBit_shiftRight (i := n) (j := 0) z
    rw [e] at this
    simpa using this.symm
  · intro i hi
    have := Nat.testBit_shiftRight (i := n) (j := i - n) z
    rw [e, show n + (i - n) = i by omega] at this
    rw [← this, ← Bool.not_eq_true, Nat.testBit_one_eq_true_iff_self_eq_zero]
    omega

/-- The days on which one is closed and the other is not. -/
def differing (x y : Exchange) : Nat := Nat.xor x.closedBits y.closedBits

/-- The days on which `y` is closed and `x` is not. -/
def exceptional (x y : Exchange) : Nat := Nat.land y.closedBits (Nat.xor x.closedBits y.closedBits)

theorem differing_bit (hx : GoodRules x.regular) (ix : x.insideB = true) (hy : GoodRules y.regular)
    (iy : y.insideB = true) {d : Int} (h0 : -28000 ≤ d) (h1 : d < 86688) :
    (TradesOn x d ↔ TradesOn y d) ↔ (differing x y).testBit (d + 28000).toNat = false := by
  rw [bits_trades hx ix h0 h1, bits_trades hy iy h0 h1]
  have e : differing x y = x.closedBits ^^^ y.closedBits := rfl
  rw [e, Nat.testBit_xor]
  cases x.closedBits.testBit (d + 28000).toNat <;> cases y.closedBits.testBit (d + 28000).toNat <;> simp

theorem exceptional_bit (hx : GoodRules x.regular) (ix : x.insideB = true) (hy : GoodRules y.regular)
    (iy : y.insideB = true) {d : Int} (h0 : -28000 ≤ d) (h1 : d < 86688) :
    (TradesOn x d → TradesOn y d) ↔ (exceptional x y).testBit (d + 28000).toNat = false := by
  rw [bits_trades hx ix h0 h1, bits_trades hy iy h0 h1]
  have e : exceptional x y = y.closedBits &&& (x.closedBits ^^^ y.closedBits) := rfl
  rw [e, Nat.testBit_and, Nat.testBit_xor]
  cases x.closedBits.testBit (d + 28000).toNat <;> cases y.closedBits.testBit (d + 28000).toNat <;> simp

theorem same_outside (hx : GoodRules x.regular) (ix : x.insideB = true) (hy : GoodRules y.regular)
    (iy : y.insideB = true) (hw : x.weekdays = y.weekdays) {d : Int} (h : ¬ (-28000 ≤ d ∧ d < 86688)) :
    TradesOn x d ↔ TradesOn y d := by
  rw [trades_outside hx ix (by omega), trades_outside hy iy (by omega), hw]

theorem lastDifference_of (hx : GoodRules x.regular) (ix : x.insideB = true) (hy : GoodRules y.regular)
    (iy : y.insideB = true) (hw : x.weekdays = y.weekdays) {d : Int} (h0 : -28000 ≤ d) (h1 : d < 86688)
    (h : topB (differing x y) (d + 28000).toNat 1 = true) : LastDifference (TradesOn x) (TradesOn y) d := by
  obtain ⟨h2, h3⟩ := topB_one h
  constructor
  · rw [differing_bit hx ix hy iy h0 h1, h2]
    decide
  · intro e he
    by_cases hin : -28000 ≤ e ∧ e < 86688
    · rw [differing_bit hx ix hy iy hin.1 hin.2]
      exact h3 _ (by omega)
    · exact same_outside hx ix hy iy hw hin

theorem same_of (hx : GoodRules x.regular) (ix : x.insideB = true) (hy : GoodRules y.regular)
    (iy : y.insideB = true) (hw : x.weekdays = y.weekdays) (h : topB (differing x y) 0 0 = true) (d : Int) :
    TradesOn x d ↔ TradesOn y d := by
  by_cases hin : -28000 ≤ d ∧ d < 86688
  · rw [differing_bit hx ix hy iy hin.1 hin.2]
    exact topB_zero h (Nat.zero_le _)
  · exact same_outside hx ix hy iy hw hin

theorem lastException_of (hx : GoodRules x.regular) (ix : x.insideB = true) (hy : GoodRules y.regular)
    (iy : y.insideB = true) (hw : x.weekdays = y.weekdays) {d : Int} (h0 : -28000 ≤ d) (h1 : d < 86688)
    (h : topB (exceptional x y) (d + 28000).toNat 1 = true) : LastException (TradesOn x) (TradesOn y) d := by
  obtain ⟨h2, h3⟩ := topB_one h
  constructor
  · have hk := exceptional_bit hx ix hy iy h0 h1
    rw [h2] at hk
    apply Classical.byContradiction
    intro hn
    exact Bool.noConfusion (hk.1 fun hp => Classical.byContradiction fun hq => hn ⟨hp, hq⟩)
  · intro e he
    by_cases hin : -28000 ≤ e ∧ e < 86688
    · rw [exceptional_bit hx ix hy iy hin.1 hin.2]
      exact h3 _ (by omega)
    · exact (same_outside hx ix hy iy hw hin).1

theorem within_of (hx : GoodRules x.regular) (ix : x.insideB = true) (hy : GoodRules y.regular)
    (iy : y.insideB = true) (hw : x.weekdays = y.weekdays) (h : topB (exceptional x y) 0 0 = true) (d : Int) :
    TradesOn x d → TradesOn y d := by
  by_cases hin : -28000 ≤ d ∧ d < 86688
  · rw [exceptional_bit hx ix hy iy hin.1 hin.2]
    exact topB_zero h (Nat.zero_le _)
  · exact (same_outside hx ix hy iy hw hin).1

end TC
