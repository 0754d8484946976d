import Verif.Lemmas.Py
import Verif.Spec.TimeZone

namespace TC
open Spec

theorem DAY_pos : 0 < DAY := by decide

theorem Spec.Tame.sorted {z : Tz} (h : Tame z) : SortedLT (z.trans.map (·.1)) := by
  rw [SortedLT, List.pairwise_map]
  exact h.apart.imp (fun hab => by have := DAY_pos; omega)

/-- The table lookup finds the offset in force. -/
theorem offsetAt_inForce {z : Tz} (h : Tame z) (u : Int) : OffsetInForce z u (z.offsetAt u) := by
  have hs := h.sorted
  have hle := searchRight_le hs.le u
  have hlt := fun i hi => lt_searchRight hs.le u (i := i) hi
  unfold Tz.offsetAt
  generalize searchRight (z.trans.map (·.1)) u = k at hle hlt
  rw [List.length_map] at hle
  cases k with
  | zero =>
    right
    refine ⟨by simp, fun e he => ?_⟩
    obtain ⟨i, hi, rfl⟩ := List.getElem_of_mem he
    have := hlt i (by simpa using hi)
    simp only [List.getElem_map] at this
    omega
  | succ k =>
    left
    have hk : k < z.trans.length := by omega
    refine ⟨z.trans.take k, z.trans[k].1, z.trans.drop (k + 1), ?_, ?_, ?_⟩
    · have : (z.base :: z.trans.map (·.2)).getD (k + 1) 0 = z.trans[k].2 := by
        simp [List.getD, hk]
      rw [this]
      conv => lhs; rw [← List.take_append_drop k z.trans]
      rw [List.drop_eq_getElem_cons hk]
    · have := (hlt k (by simpa using hk)).mp (by omega)
      simpa using this
    · intro e he
      obtain ⟨i, hi, rfl⟩ := List.getElem_of_mem he
      rw [List.length_drop] at hi
      rw [List.getElem_drop]
      have := hlt (k + 1 + i) (by simp; omega)
      simp only [List.getElem_map] at this
      omega

theorem OffsetInForce.unique {z : Tz} (h : Tame z) {u o o' : Int} (ho : OffsetInForce z u o)
    (ho' : OffsetInForce z u o') : o = o' := by
  have hs : z.trans.Pairwise (fun e e' => e.1 < e'.1) :=
    h.apart.imp (fun hab => by have := DAY_pos; omega)
  rcases ho with ⟨b, s, a, he, hsu, ha⟩ | ⟨rfl, hall⟩ <;>
    rcases ho' with ⟨b', s', a', he', hsu', ha'⟩ | ⟨rfl, hall'⟩
  · have hl : b.length = b'.length := by
      rcases Nat.lt_trichotomy b.length b'.length with hl | hl | hl
      · have h1 : z.trans[b'.length]? = some (s', o') := by rw [he']; simp
        rw [he, List.getElem?_append_right (by omega)] at h1
        have : b'.length - b.length = (b'.length - b.length - 1) + 1 := by omega
        rw [this, List.getElem?_cons_succ] at h1
        have := ha _ (List.mem_of_getElem? h1)
        simp at this; omega
      · exact hl
      · have h1 : z.trans[b.length]? = some (s, o) := by rw [he]; simp
        rw [he', List.getElem?_append_right (by omega)] at h1
        have : b.length - b'.length = (b.length - b'.length - 1) + 1 := by omega
        rw [this, List.getElem?_cons_succ] at h1
        have := ha' _ (List.mem_of_getElem? h1)
        simp at this; omega
    have h1 : z.trans[b.length]? = some (s, o) := by rw [he]; simp
    have h2 : z.trans[b'.length]? = some (s', o') := by rw [he']; simp
    rw [hl, h2] at h1
    simp at h1; exact h1.2.symm
  · have := hall' (s, o) (by rw [he]; simp)
    simp at this; omega
  · have := hall (s', o') (by rw [he']; simp)
    simp at this; omega
  · rfl

theorem reads_iff {z : Tz} (h : Tame z) (u w : Int) : Reads z u w ↔ u + z.offsetAt u = w := by
  constructor
  · rintro ⟨o, ho, rfl⟩
    rw [OffsetInForce.unique h ho (offsetAt_inForce h u)]
  · intro hw
    exact ⟨_, offsetAt_inForce h u, hw⟩

theorem offsetAt_bound {z : Tz} (h : Tame z) (u : Int) :
    -DAY < z.offsetAt u ∧ z.offsetAt u < DAY := by
  rcases offsetAt_inForce h u with ⟨b, s, a, he, _, _⟩ | ⟨he, _⟩
  · exact h.offsets (s, z.offsetAt u) (by rw [he]; simp)
  · rw [he]; exact h.base

theorem offsetAt_whole {z : Tz} (h : Tame z) (hw : WholeMinuteZone z) (u : Int) :
    MINUTE ∣ z.offsetAt u := by
  rcases offsetAt_inForce h u with ⟨b, s, a, he, _, _⟩ | ⟨he, _⟩
  · exact hw.2 (s, z.offsetAt u) (by rw [he]; simp)
  · rw [he]; exact hw.1

/-- Within two days there is at most one jump. -/
theorem one_jump {z : Tz} (h : Tame z) {u v w : Int} (huv : u ≤ v) (hvw : v ≤ w)
    (hw : w ≤ u + 2 * DAY) : z.offsetAt u = z.offsetAt v ∨ z.offsetAt v = z.offsetAt w := by
  rcases offsetAt_inForce h v with ⟨b, s, a, he, hsv, ha⟩ | ⟨he, hall⟩
  · by_cases hsu : s ≤ u
    · left
      refine OffsetInForce.unique h (offsetAt_inForce h u) (Or.inl ⟨b, s, a, he, hsu, ?_⟩)
      intro e hea
      have := ha e hea; omega
    · right
      refine OffsetInForce.unique h (Or.inl ⟨b, s, a, he, hsv, ha⟩) ?_
      have : OffsetInForce z w (z.offsetAt v) := by
        refine Or.inl ⟨b, s, a, he, by omega, fun e hea => ?_⟩
        have hap := h.apart
        rw [he, List.pairwise_append] at hap
        have := (List.pairwise_cons.mp hap.2.1).1 e hea
        simp at this
        omega
      rw [OffsetInForce.unique h (offsetAt_inForce h w) this]
      exact Or.inl ⟨b, s, a, he, hsv, ha⟩
  · left
    rw [he]
    refine OffsetInForce.unique h (offsetAt_inForce h u) (Or.inr ⟨rfl, fun e hea => ?_⟩)
    have := hall e hea; omega

/-- An instant that reads `w` is one of the two candidates. -/
theorem reads_candidates {z : Tz} (h : Tame z) {u w : Int} (hr : u + z.offsetAt u = w) :
    u = w - z.offsetAt (w - DAY) ∨ u = w - z.offsetAt (w + DAY) := by
  have hb := offsetAt_bound h u
  rcases one_jump h (u := w - DAY) (v := u) (w := w + DAY) (by omega) (by omega) (by omega) with e | e
  · left; omega
  · right; omega

theorem localize_ok_iff {z : Tz} (h : Tame z) (w u : Int) :
    z.localize w = .ok u ↔ OnlyInstant z w u := by
  simp only [OnlyInstant, reads_iff h]
  unfold Tz.localize
  simp only
  constructor
  · intro hl
    split at hl
    · next hb =>
      split at hl
      · next heq =>
        cases hl
        refine ⟨hb.1, fun u' hu' => ?_⟩
        rcases reads_candidates h hu' with e | e <;> omega
      · cases hl
    · next hb =>
      split at hl
      · next hl1 =>
        cases hl
        refine ⟨hl1, fun u' hu' => ?_⟩
        rcases reads_candidates h hu' with e | e
        · exact e
        · subst e; exact absurd ⟨hl1, hu'⟩ hb
      · next hl1 =>
        split at hl
        · next hr1 =>
          cases hl
          refine ⟨hr1, fun u' hu' => ?_⟩
          rcases reads_candidates h hu' with e | e
          · subst e; exact absurd hu' hl1
          · exact e
        · cases hl
  · rintro ⟨hu, huniq⟩
    split
    · next hb =>
      rw [if_pos ((huniq _ hb.1).trans (huniq _ hb.2).symm), huniq _ hb.1]
    · split
      · next hl1 => rw [huniq _ hl1]
      · split
        · next hr1 => rw [huniq _ hr1]
        · next hl1 hr1 =>
          rcases reads_candidates h hu with e | e
          · subst e; exact absurd hu hl1
          · subst e; exact absurd hu hr1

theorem localize_ambiguous_iff {z : Tz} (h : Tame z) (w : Int) :
    z.localize w = .error .ambiguousTime ↔ ∃ u u', u ≠ u' ∧ Reads z u w ∧ Reads z u' w := by
  simp only [reads_iff h]
  constructor
  · intro hl
    unfold Tz.localize at hl
    simp only at hl
    split at hl
    · next hb =>
      split at hl
      · cases hl
      · next hne => exact ⟨_, _, hne, hb.1, hb.2⟩
    · split at hl
      · cases hl
      · split at hl
        · cases hl
        · cases hl
  · rintro ⟨u, u', hne, hu, hu'⟩
    have key : (w - z.offsetAt (w - DAY)) + z.offsetAt (w - z.offsetAt (w - DAY)) = w ∧
        (w - z.offsetAt (w + DAY)) + z.offsetAt (w - z.offsetAt (w + DAY)) = w ∧
        w - z.offsetAt (w - DAY) ≠ w - z.offsetAt (w + DAY) := by
      rcases reads_candidates h hu with e | e <;> rcases reads_candidates h hu' with e' | e'
      · omega
      · subst e; subst e'; exact ⟨hu, hu', hne⟩
      · subst e; subst e'; exact ⟨hu', hu, fun h => hne h.symm⟩
      · omega
    unfold Tz.localize
    simp only
    rw [if_pos ⟨key.1, key.2.1⟩, if_neg key.2.2]

theorem localize_nonexistent_iff {z : Tz} (h : Tame z) (w : Int) :
    z.localize w = .error .nonExistentTime ↔ ∀ u, ¬ Reads z u w := by
  simp only [reads_iff h]
  constructor
  · intro hl u hu
    unfold Tz.localize at hl
    simp only at hl
    split at hl
    · split at hl <;> cases hl
    · split at hl
      · cases hl
      · next hl1 =>
        split at hl
        · cases hl
        · next hr1 =>
          rcases reads_candidates h hu with e | e
          · subst e; exact hl1 hu
          · subst e; exact hr1 hu
  · intro hall
    unfold Tz.localize
    simp only
    rw [if_neg (fun hb => hall _ hb.1), if_neg (hall _), if_neg (hall _)]

/-- Order of wall-clock readings is order of instants, where the readings are unambiguous. -/
theorem only_lt {z : Tz} (h : Tame z) {w w' u u' : Int} (hu : OnlyInstant z w u)
    (hu' : OnlyInstant z w' u') (hlt : w < w') : u < u' := by
  have h1 := (reads_iff h _ _).mp hu.1
  have h2 := (reads_iff h _ _).mp hu'.1
  apply Decidable.byContradiction
  intro hn
  have hb := offsetAt_bound h u
  have hb' := offsetAt_bound h u'
  -- the later reading would come first: its offset is larger, so it is read again after `u`
  have hv : u' ≤ u := by omega
  have hw : u ≤ w' - z.offsetAt u := by omega
  rcases one_jump h hv hw (by omega) with e | e
  · omega
  · have := hu'.2 (w' - z.offsetAt u) ((reads_iff h _ _).mpr (by omega))
    omega

theorem only_near {z : Tz} (h : Tame z) {w u : Int} (hu : OnlyInstant z w u) :
    w - DAY < u ∧ u < w + DAY := by
  have h1 := (reads_iff h _ _).mp hu.1
  have hb := offsetAt_bound h u
  omega

end TC
