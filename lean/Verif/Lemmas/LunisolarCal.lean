import Verif.Lemmas.Lunisolar
import Verif.Lemmas.Tcal
import Verif.Model.LunisolarCal
import Verif.Spec.LunisolarCal

/-! # Lemmas about `chinese-cal` -/

namespace TC.Tcal
open Spec

/-- The grid of `n` cells of two columns after `g` empty places, the cells of a row separated by a blank. -/
theorem gridSep {cell : Nat → Str} (hc : ∀ i, (cell i).length = 2 ∧ ∀ c ∈ cell i, isBreak c = false)
    {new : Nat → Bool} {g : Nat} (hg : 1 ≤ g ∧ g ≤ 7) (hnew : ∀ i, new i = true ↔ (g + i) % 7 = 0)
    (n : Nat) :
    ∃ lines last, List.replicate (3 * (g % 7) - 1) ' ' ++
        (List.range n).flatMap (fun i => [if new i then '\n' else ' '] ++ cell i) =
        printed lines ++ last ∧ lines.length = (g + n - 1) / 7 ∧
      ((g + n) % 7 ≠ 0 → last.length = 3 * ((g + n) % 7) - 1) ∧
      (∀ l ∈ lines ++ [last], l.length ≤ 20 ∧ ∀ c ∈ l, isBreak c = false) ∧
      ∀ r q, column ((lines ++ [last]).getD r []) q =
        if q < 20 ∧ q % 3 < 2 ∧ g ≤ 7 * r + q / 3 ∧ 7 * r + q / 3 < g + n then
          column (cell (7 * r + q / 3 - g)) (q % 3) else ' ' := by
  induction n with
  | zero =>
    refine ⟨[], List.replicate (3 * (g % 7) - 1) ' ', by simp [printed], ?_, ?_, ?_, ?_⟩
    · simp; omega
    · simp
    · intro l hl
      simp only [List.nil_append, List.mem_singleton] at hl
      subst hl
      refine ⟨by simp; omega, fun c hc => ?_⟩
      rw [List.eq_of_mem_replicate hc]; decide
    · intro r q
      rw [if_neg (by omega)]
      cases r with
      | zero => exact column_replicate _ _
      | succ r => rw [getD_beyond (by simp)]; rfl
  | succ n ih =>
    obtain ⟨lines, last, he, hl, hlast, hw, hcol⟩ := ih
    rw [List.range_succ, List.flatMap_append, ← List.append_assoc, he]
    by_cases hn : new n = true
    · have hm := (hnew n).1 hn
      refine ⟨lines ++ [last], cell n, ?_, ?_, ?_, ?_, ?_⟩
      · simp [hn, printed_snoc]
      · simp; omega
      · intro _; rw [(hc n).1]; omega
      · intro l hl'
        rcases List.mem_append.1 hl' with h | h
        · exact hw l h
        · simp only [List.mem_singleton] at h
          subst h
          exact ⟨by rw [(hc n).1]; omega, (hc n).2⟩
      · intro r q
        have hlen : (lines ++ [last]).length = (g + n) / 7 := by simp; omega
        rcases Nat.lt_trichotomy r ((g + n) / 7) with h | h | h
        · rw [getD_append_left (by omega), hcol]
          by_cases hq : q < 20 ∧ q % 3 < 2 ∧ g ≤ 7 * r + q / 3 ∧ 7 * r + q / 3 < g + n
          · rw [if_pos hq, if_pos (by omega)]
          · rw [if_neg hq, if_neg (by omega)]
        · rw [h, ← hlen, getD_append_one, hlen]
          by_cases hq : q < 2
          · rw [if_pos (by omega), show q % 3 = q by omega,
              show 7 * ((g + n) / 7) + q / 3 - g = n by omega]
          · rw [column_beyond (by rw [(hc n).1]; omega), if_neg (by omega)]
        · rw [getD_beyond (by simp at hlen ⊢; omega), if_neg (by omega)]
          rfl
    · have hm : (g + n) % 7 ≠ 0 := fun h => hn ((hnew n).2 h)
      have hll := hlast hm
      refine ⟨lines, last ++ ' ' :: cell n, ?_, ?_, ?_, ?_, ?_⟩
      · simp [hn]
      · omega
      · intro _; rw [List.length_append, List.length_cons, (hc n).1]; omega
      · intro l hl'
        rcases List.mem_append.1 hl' with h | h
        · exact hw l (by simp [h])
        · simp only [List.mem_singleton] at h
          subst h
          refine ⟨by rw [List.length_append, List.length_cons, (hc n).1]; omega, fun c hcm => ?_⟩
          rcases List.mem_append.1 hcm with h | h
          · exact (hw last (by simp)).2 c h
          · rcases List.mem_cons.1 h with rfl | h
            · decide
            · exact (hc n).2 c h
      · intro r q
        have hL : lines.length = (g + n) / 7 := by omega
        have hcol := hcol r q
        rcases Nat.lt_trichotomy r ((g + n) / 7) with h | h | h
        · rw [getD_append_left (by omega)] at hcol ⊢
          rw [hcol]
          by_cases hq : q < 20 ∧ q % 3 < 2 ∧ g ≤ 7 * r + q / 3 ∧ 7 * r + q / 3 < g + n
          · rw [if_pos hq, if_pos (by omega)]
          · rw [if_neg hq, if_neg (by omega)]
        · rw [h, ← hL, getD_append_one] at hcol
          rw [h, ← hL, getD_append_one]
          by_cases h1 : q < last.length
          · rw [column_append_left h1, hcol]
            by_cases hq : q < 20 ∧ q % 3 < 2 ∧ g ≤ 7 * lines.length + q / 3 ∧ 7 * lines.length + q / 3 < g + n
            · rw [if_pos hq, if_pos (by omega)]
            · rw [if_neg hq, if_neg (by omega)]
          · rw [column_append_right (by omega)]
            by_cases h3 : q = last.length
            · rw [if_neg (by omega), h3, Nat.sub_self]; rfl
            · rw [show q - last.length = (q - last.length - 1) + 1 by omega,
                show column (' ' :: cell n) (q - last.length - 1 + 1) = column (cell n) (q - last.length - 1)
                  from by simp [column]]
              by_cases h2 : q < last.length + 3
              · rw [if_pos (by omega), show 7 * lines.length + q / 3 - g = n by omega,
                  show q - last.length - 1 = q % 3 by omega]
              · rw [column_beyond (by rw [(hc n).1]; omega), if_neg (by omega)]
        · rw [getD_beyond (by simp; omega), if_neg (by omega)]
          rfl

end TC.Tcal

namespace TC.Lunisolar
open Spec Spec.Lunisolar Tcal

theorem dayNumber_toDate (x : Date) (d : Int) : DayNumber x d ↔ toDate d = x := by
  rw [dayNumber_iff]
  constructor
  · rintro ⟨h, rfl⟩; exact toDate_dayOf h
  · rintro rfl; exact ⟨toDate_valid d, dayOf_toDate d⟩

theorem utcYear_iff (u y : Int) : UtcYear u y ↔ yearOf (u / DAY) = y := by
  have hD : DAY > 0 := by decide
  constructor
  · rintro ⟨m, k, d, h, h1, h2⟩
    have e : u / DAY = d := by
      apply Int.le_antisymm
      · exact Int.lt_add_one_iff.mp (Int.ediv_lt_of_lt_mul hD h2)
      · exact Int.le_ediv_of_mul_le hD h1
    rw [dayNumber_toDate] at h
    rw [e]
    exact congrArg Date.year h
  · intro h
    refine ⟨monthOf (u / DAY), dayOfMonth (u / DAY), u / DAY, ?_, Int.ediv_mul_le u (by omega),
      Int.lt_ediv_add_one_mul_self u hD⟩
    rw [dayNumber_toDate, ← h]; rfl

theorem kthAfter_unique {kept : Nat → Prop} : ∀ {k i j j' : Nat}, KthAfter kept k i j →
    KthAfter kept k i j' → j = j'
  | 0, _, _, _, h, h' => by cases h; cases h'; rfl
  | k + 1, i, j, j', ⟨a, h1, h2, h3, h4⟩, ⟨b, g1, g2, g3, g4⟩ => by
    have : a = b := by
      rcases Nat.lt_trichotomy a b with h | h | h
      · exact absurd h2 (g3 a h1 h)
      · exact h
      · exact absurd g2 (h3 b g1 h)
    subst this
    exact kthAfter_unique h4 g4

theorem pyIndex_drop {α : Type} (l : List α) (p n : Nat) :
    pyIndex (l.drop p) (n : Int) = pyIndex l ((p : Int) + (n : Int)) := by
  rw [show ((p : Int) + (n : Int)) = ((p + n : Nat) : Int) by omega]
  rcases Nat.lt_or_ge (p + n) l.length with h | h
  · rw [pyIndex_nat _ _ (by simp; omega), pyIndex_nat _ _ h, List.getElem_drop]
  · rw [pyIndex_nat_error _ _ (by simp; omega), pyIndex_nat_error _ _ h]

end TC.Lunisolar
