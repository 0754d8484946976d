import Verif.Model.Smoothing
import Verif.Spec.TerrestrialTime
import Verif.Props.Lunisolar

/-!
# Smoothing (C78)

For all arrays and windows.
-/

namespace TC.Props
open Spec.Lunisolar TC.Lunisolar

theorem windowSum_range {arr : List Int} {w k : Nat} (h : k + w ≤ arr.length) :
    ((List.range w).map fun m => arr.getD (k + m) 0).sum = windowSum arr w k := by
  unfold windowSum
  congr 1
  apply List.ext_getElem
  · simp; omega
  · intro i h1 h2
    simp at h1
    rw [List.getElem_map, List.getElem_range, List.getElem_take, List.getElem_drop, List.getD_eq_getElem?_getD,
      List.getElem?_eq_getElem (by omega), Option.getD_some]

theorem windowSum_step {arr : List Int} {w k : Nat} (h : k + w < arr.length) :
    windowSum arr w (k + 1) - windowSum arr w k = arr[k + w] - arr[k] := by
  have e1 : ((arr.drop k).take (w + 1)).sum = arr[k] + windowSum arr w (k + 1) := by
    rw [List.drop_eq_getElem_cons (by omega), List.take_succ_cons, List.sum_cons, windowSum]
  have e2 : ((arr.drop k).take (w + 1)).sum = windowSum arr w k + arr[k + w] := by
    rw [List.take_succ_eq_append_getElem (by simp; omega), List.sum_append, windowSum, List.getElem_drop]
    simp
  omega

theorem ones_get {w m : Nat} (h : m < w) : (List.replicate w (1 : Int)).getD m 0 = 1 := by
  rw [List.getD_eq_getElem?_getD, List.getElem?_eq_getElem (by simp; omega), Option.getD_some, List.getElem_replicate]

theorem smooth_lt {arr : List Int} {w : Nat} (h0 : 0 < w) (hl : w < arr.length) :
    smooth arr w = .ok ((List.range (arr.length - w + 1)).map (windowSum arr w)) := by
  unfold smooth convolveValid
  rw [if_neg (by omega), if_neg (by simp; omega), if_neg (by omega)]
  simp only [Int.toNat_natCast, List.length_replicate, if_pos hl]
  congr 1
  apply List.map_congr_left
  intro k hk
  rw [List.mem_range] at hk
  rw [← windowSum_range (by omega)]
  congr 1
  apply List.map_congr_left
  intro m hm
  rw [List.mem_range] at hm
  rw [ones_get (by omega), Int.mul_one]

theorem smooth_ge {arr : List Int} {w : Nat} (h0 : 0 < arr.length) (hl : arr.length ≤ w) :
    smooth arr w = .ok (List.replicate (w - arr.length + 1) arr.sum) := by
  unfold smooth convolveValid
  rw [if_neg (by omega), if_neg (by simp; omega), if_neg (by omega)]
  simp only [Int.toNat_natCast, List.length_replicate, if_neg (Nat.not_lt.2 hl)]
  congr 1
  apply List.eq_replicate_iff.2
  refine ⟨by simp, fun b hb => ?_⟩
  obtain ⟨k, hk, rfl⟩ := List.mem_map.1 hb
  rw [List.mem_range] at hk
  rw [← List.sum_reverse_int arr]
  congr 1
  apply List.ext_getElem
  · simp
  · intro i h1 h2
    simp at h1
    rw [List.getElem_map, List.getElem_range, ones_get (by omega), Int.one_mul, List.getElem_reverse,
      List.getD_eq_getElem?_getD, List.getElem?_eq_getElem (by omega), Option.getD_some]

theorem smooth_eq {arr : List Int} {w : Nat} (h0 : 0 < w) (h : w ≤ arr.length) :
    smooth arr w = .ok ((List.range (arr.length - w + 1)).map (windowSum arr w)) := by
  rcases Nat.lt_or_ge w arr.length with hl | hl
  · exact smooth_lt h0 hl
  · obtain rfl : w = arr.length := by omega
    rw [smooth_ge h0 (Nat.le_refl _), Nat.sub_self]
    simp [windowSum, List.range_succ]

/-- Smoothing with a window that fits gives the sum of every window, in order: `len(arr) - window + 1` of them
(finding: not `len(arr) - window // 2` as documented). -/
theorem c78_smooth {arr : List Int} {w : Nat} (h0 : 0 < w) (h : w ≤ arr.length) :
    ∃ s, smooth arr w = .ok s ∧ s.length + w = arr.length + 1 ∧
      ∀ k, k < s.length → s[k]? = some (windowSum arr w k) := by
  refine ⟨_, smooth_eq h0 h, by simp; omega, fun k hk => ?_⟩
  simp at hk
  rw [List.getElem?_map, List.getElem?_range (by omega), Option.map_some]

/-- With a window that does not fit, it gives the sum of all elements again and again; with an empty window or
array it raises. -/
theorem c78_smooth_edges (arr : List Int) (w : Int) :
    (0 < arr.length → arr.length < w → smooth arr w = .ok (List.replicate (w.toNat - arr.length + 1) arr.sum)) ∧
      ((w ≤ 0 ∨ arr = []) → ∃ why, smooth arr w = .error (.valueError why)) := by
  constructor
  · intro h0 h
    have := smooth_ge (w := w.toNat) h0 (by omega)
    rwa [Int.toNat_of_nonneg (by omega)] at this
  · intro h
    unfold smooth convolveValid
    by_cases hw : w < 0
    · exact ⟨_, by rw [if_pos hw]⟩
    · rw [if_neg hw]
      by_cases hz : w.toNat = 0
      · exact ⟨_, by rw [if_pos (by simp [hz])]⟩
      · rw [if_neg (by simpa using hz)]
        rcases h with h | h
        · omega
        · exact ⟨_, by rw [if_pos (by simp [h])]⟩

/-- Places found after smoothing, for a comparison that depends on the difference: those in the middle of a window
for which the comparison holds between the element that enters and the one that leaves, on both sides. -/
theorem c78_smoothed {f : Int → Int → Bool} {p : Int → Prop} (hf : ∀ a b, f a b = true ↔ p (a - b))
    {arr : List Int} {w : Nat} (h0 : 0 < w) (h : w ≤ arr.length) :
    ∃ out, smoothedLocalCmp f arr w = .ok out ∧ ∀ i, i ∈ out ↔ ∃ k a b c d, i = k + 1 + w / 2 ∧
      arr[k]? = some a ∧ arr[k + 1]? = some b ∧ arr[k + w]? = some c ∧ arr[k + 1 + w]? = some d ∧
      p (c - a) ∧ p (b - d) := by
  unfold smoothedLocalCmp
  rw [smooth_eq h0 h]
  refine ⟨_, rfl, fun i => ?_⟩
  have ew : ((w : Int) / 2).toNat = w / 2 := by omega
  rw [ew, List.mem_map]
  have key : ∀ k, ((List.range (arr.length - w + 1)).map (windowSum arr w))[k]? =
      if k + w ≤ arr.length then some (windowSum arr w k) else none := by
    intro k
    rw [List.getElem?_map]
    split
    · rw [List.getElem?_range (by omega), Option.map_some]
    · rw [List.getElem?_eq_none (by simp; omega), Option.map_none]
  constructor
  · rintro ⟨n, hn, rfl⟩
    obtain ⟨k, a, b, c, rfl, ha, hb, hc, h1, h2⟩ := (c65_local_cmp _ _ _).1 hn
    rw [key] at ha hb hc
    have hlen : k + 2 + w ≤ arr.length := Classical.byContradiction fun hn => by
      rw [if_neg hn] at hc; cases hc
    rw [if_pos (by omega)] at ha hb hc
    cases ha; cases hb; cases hc
    refine ⟨k, _, _, _, _, rfl, List.getElem?_eq_getElem (by omega), List.getElem?_eq_getElem (by omega),
      List.getElem?_eq_getElem (by omega), List.getElem?_eq_getElem (by omega), ?_, ?_⟩
    · have := (hf _ _).1 h1
      rwa [windowSum_step (by omega)] at this
    · have := (hf _ _).1 h2
      have e := windowSum_step (arr := arr) (w := w) (k := k + 1) (by omega)
      rw [show k + 1 + 1 = k + 2 from rfl] at e
      rw [show windowSum arr w (k + 1) - windowSum arr w (k + 2) = arr[k + 1] - arr[k + 1 + w] by omega] at this
      exact this
  · rintro ⟨k, a, b, c, d, rfl, ha, hb, hc, hd, h1, h2⟩
    obtain ⟨l1, rfl⟩ := List.getElem?_eq_some_iff.1 ha
    obtain ⟨l2, rfl⟩ := List.getElem?_eq_some_iff.1 hb
    obtain ⟨l3, rfl⟩ := List.getElem?_eq_some_iff.1 hc
    obtain ⟨l4, rfl⟩ := List.getElem?_eq_some_iff.1 hd
    refine ⟨k + 1, (c65_local_cmp _ _ _).2 ⟨k, _, _, _, rfl, by rw [key, if_pos (by omega)],
      by rw [key, if_pos (by omega)], by rw [key, if_pos (by omega)], ?_, ?_⟩, rfl⟩
    · rw [hf, windowSum_step (by omega)]
      exact h1
    · rw [hf]
      have e := windowSum_step (arr := arr) (w := w) (k := k + 1) (by omega)
      rw [show k + 1 + 1 = k + 2 from rfl] at e
      rw [show windowSum arr w (k + 1) - windowSum arr w (k + 2) = arr[k + 1] - arr[k + 1 + w] by omega]
      exact h2

/-- Beside the three: the dip of nine values with a window of three, and a window that does not fit. -/
example : smoothedLocalCmp (fun a b => decide (a < b)) [9, 7, 8, 3, 1, 2, 2, 7, 9] (3 : Nat) = .ok [5] ∧
    smooth [9, 7, 8, 3] (2 : Nat) = .ok [16, 15, 11] ∧ smooth [9, 7] (4 : Nat) = .ok [16, 16, 16] ∧
    (∀ a b : Int, decide (a < b) = true ↔ a - b < 0) :=
  ⟨by decide +kernel, by decide +kernel, by decide +kernel, fun a b => by rw [decide_eq_true_eq]; omega⟩

end TC.Props
