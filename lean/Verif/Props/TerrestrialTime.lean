import Verif.Spec.TerrestrialTime
import Verif.Lemmas.Py
import Verif.Lemmas.Civil

/-!
# Terrestrial Time (C78)

For all times, before, in and after the table.
-/

namespace TC.Props
open Spec Spec.Lunisolar TC.Lunisolar

section Table
variable {l : List (Int × Int)}

theorem starts_sorted (h : l.Pairwise fun a b => a.1 < b.1) : SortedLE (l.map fun c => c.1 * 86400) := by
  rw [SortedLE, List.pairwise_map]
  exact h.imp fun h => by omega

theorem correctionIx_lt (h : l.Pairwise fun a b => a.1 < b.1) (hne : 0 < l.length) (ts : Int) :
    correctionIx l ts < l.length := by
  have := searchRight_le (starts_sorted h) ts
  rw [List.length_map] at this
  unfold correctionIx
  simp only
  split <;> omega

theorem correctionIx_before (h : l.Pairwise fun a b => a.1 < b.1) (hne : 0 < l.length) {ts : Int} {i : Nat}
    (hi : i < correctionIx l ts) :
    (l[i]'(Nat.lt_trans hi (correctionIx_lt h hne ts))).1 * 86400 ≤ ts := by
  have hl := Nat.lt_trans hi (correctionIx_lt h hne ts)
  have hi : i < searchRight (l.map fun c => c.1 * 86400) ts := by
    unfold correctionIx at hi
    simp only at hi
    split at hi <;> omega
  have := (lt_searchRight (starts_sorted h) ts (i := i) (by rw [List.length_map]; exact hl)).1 hi
  rwa [List.getElem_map] at this

theorem correctionIx_here (h : l.Pairwise fun a b => a.1 < b.1) (hne : 0 < l.length) (ts : Int) :
    ts < (l[correctionIx l ts]'(correctionIx_lt h hne ts)).1 * 86400 ∨ correctionIx l ts + 1 = l.length := by
  have hl := correctionIx_lt h hne ts
  by_cases hs : searchRight (l.map fun c => c.1 * 86400) ts = l.length
  · right
    unfold correctionIx
    simp only [hs, if_true]
    omega
  · left
    have e : correctionIx l ts = searchRight (l.map fun c => c.1 * 86400) ts := by
      unfold correctionIx; simp only [if_neg hs]
    have := (lt_searchRight (starts_sorted h) ts (i := correctionIx l ts) (by rw [List.length_map]; exact hl))
    rw [List.getElem_map] at this
    omega

theorem jdTt_eq (h : l.Pairwise fun a b => a.1 < b.1) (hne : 0 < l.length) (ts : Int) :
    jdTt l ts = (ts * 10000 + 2440587 * 864000000 + 432000000) + (l[correctionIx l ts]'(correctionIx_lt h hne ts)).2 := by
  unfold jdTt
  rw [List.getD_eq_getElem?_getD, List.getElem?_eq_getElem (correctionIx_lt h hne ts), Option.getD_some]

theorem split_at {i : Nat} (h : i < l.length) : l = l.take i ++ (l[i].1, l[i].2) :: l.drop (i + 1) := by
  conv => lhs; rw [← List.take_append_drop i l, List.drop_eq_getElem_cons h]

theorem jdTt_next (h : l.Pairwise fun a b => a.1 < b.1) (hne : 0 < l.length) {ts j : Int} (hj : JulianDate ts j) :
    ∃ c, jdTt l ts = j + c ∧ NextInForce l ts c := by
  obtain ⟨d, hd, rfl⟩ := hj
  obtain ⟨-, rfl⟩ := (dayNumber_iff _ _).1 hd
  have hl := correctionIx_lt h hne ts
  have e0 : dayOf 2000 1 1 = 10957 := by decide
  refine ⟨_, ?_, _, _, _, split_at hl, ?_, ?_⟩
  · rw [jdTt_eq h hne]
    simp only [e0]
    omega
  · intro e he
    obtain ⟨i, hi, rfl⟩ := List.getElem_of_mem he
    rw [List.length_take] at hi
    rw [List.getElem_take]
    have := correctionIx_before h hne (ts := ts) (i := i) (by omega)
    omega
  · rcases correctionIx_here h hne ts with h | h
    · left; omega
    · right
      rw [List.drop_eq_nil_iff]
      omega

theorem jdTt_lt (h : l.Pairwise fun a b => a.1 < b.1) (hd : l.Pairwise fun a b => a.2 < b.2 + 10000)
    (hne : 0 < l.length) {ts ts' : Int} (hlt : ts < ts') : jdTt l ts < jdTt l ts' := by
  rw [jdTt_eq h hne, jdTt_eq h hne]
  have h1 := correctionIx_lt h hne ts
  have h2 := correctionIx_lt h hne ts'
  have hle : correctionIx l ts ≤ correctionIx l ts' := by
    apply Classical.byContradiction
    intro hn
    have a := correctionIx_before h hne (ts := ts) (i := correctionIx l ts') (by omega)
    rcases correctionIx_here h hne ts' with b | b <;> omega
  rcases Nat.lt_or_ge (correctionIx l ts) (correctionIx l ts') with hi | hi
  · have := List.pairwise_iff_getElem.1 hd _ _ h1 h2 hi
    omega
  · have e : correctionIx l ts = correctionIx l ts' := by omega
    have : (l[correctionIx l ts]'h1).2 = (l[correctionIx l ts']'h2).2 := by simp only [e]
    omega

theorem nextInForce_mem {ts c : Int} (h : NextInForce l ts c) : ∃ d, (d, c) ∈ l := by
  obtain ⟨b, d, a, rfl, -⟩ := h
  exact ⟨d, by simp⟩

/-- The row of the correction used and the row in force: the same or neighbours. -/
theorem next_of_inForce (h : l.Pairwise fun a b => a.1 < b.1) {ts c c' : Int} (hn : NextInForce l ts c)
    (hf : InForce l ts c') : c = c' ∨ ∃ d d', ((d', c'), (d, c)) ∈ l.zip (l.drop 1) ∧
      ∀ e ∈ l, e.1 * 24 * 60 * 60 ≤ ts → e.1 ≤ d' := by
  obtain ⟨b, d, a, e, hb, ht⟩ := hn
  obtain ⟨b', d', a', e', hd', ha'⟩ := hf
  have hbl : b.length < l.length := by rw [e]; simp
  have hbl' : b'.length < l.length := by rw [e']; simp
  have g : l[b.length] = (d, c) := by simp only [e]; simp
  have g' : l[b'.length] = (d', c') := by simp only [e']; simp
  have hs := List.pairwise_iff_getElem.1 h
  have hle : b.length ≤ b'.length + 1 := by
    apply Classical.byContradiction
    intro hn
    have hlt : b'.length + 1 < b.length := by omega
    have m : l[b'.length + 1]'(by omega) ∈ a' := by
      have : l[b'.length + 1]'(by omega) = a'[0]'(by
          have := congrArg List.length e'; simp at this; omega) := by
        simp only [e']; simp
      rw [this]; exact List.getElem_mem _
    have m2 : l[b'.length + 1]'(by omega) ∈ b := by
      have : l[b'.length + 1]'(by omega) = b[b'.length + 1] := by simp only [e]; rw [List.getElem_append_left hlt]
      rw [this]; exact List.getElem_mem _
    have := ha' _ m
    have := hb _ m2
    omega
  by_cases hlast : b.length = b'.length + 1
  · right
    refine ⟨d, d', List.mem_iff_getElem.2 ⟨b'.length, by simp; omega, ?_⟩, ?_⟩
    · rw [List.getElem_zip, g', List.getElem_drop]
      have : l[1 + b'.length]'(by omega) = l[b.length] := by congr 1; omega
      rw [this, g]
    · intro x hx hts
      rw [e'] at hx
      rcases List.mem_append.1 hx with hx | hx
      · rw [e'] at h
        exact Int.le_of_lt ((List.pairwise_append.1 h).2.2 x hx _ (List.mem_cons_self ..))
      · rcases List.mem_cons.1 hx with rfl | hx
        · exact Int.le_refl _
        · have := ha' x hx
          omega
  · have hle : b.length ≤ b'.length := by omega
    left
    rcases ht with ht | rfl
    · exfalso
      rcases Nat.lt_or_ge b.length b'.length with hlt | hge
      · have := hs _ _ hbl hbl' hlt
        rw [g, g'] at this
        simp only at this
        omega
      · have eb : b.length = b'.length := by omega
        have : l[b.length] = l[b'.length] := by congr 1
        rw [g, g'] at this
        cases this
        omega
    · have eb : b.length = b'.length := by
        have := congrArg List.length e
        simp at this
        omega
      have : l[b.length] = l[b'.length] := by congr 1
      rw [g, g'] at this
      cases this
      rfl

/-- Every row is later than the one before. -/
def risingFrom : Int → List (Int × Int) → Bool
  | _, [] => true
  | m, (d, _) :: r => decide (m < d) && risingFrom d r

theorem rising_pairwise {m : Int} (h : risingFrom m l = true) :
    (∀ e ∈ l, m < e.1) ∧ l.Pairwise fun a b => a.1 < b.1 := by
  induction l generalizing m with
  | nil => exact ⟨fun _ h => (nomatch h), .nil⟩
  | cons x r ih =>
    obtain ⟨d, c⟩ := x
    simp only [risingFrom, Bool.and_eq_true, decide_eq_true_eq] at h
    obtain ⟨h1, h2⟩ := ih h.2
    refine ⟨fun e he => ?_, List.pairwise_cons.2 ⟨h1, h2⟩⟩
    rcases List.mem_cons.1 he with rfl | he
    · exact h.1
    · have := h1 e he
      omega

/-- No correction is smaller by a second than the greatest before. -/
def steadyFrom : Int → List (Int × Int) → Bool
  | _, [] => true
  | m, (_, c) :: r => decide (m < c + 10000) && steadyFrom (max m c) r

theorem steady_pairwise {m : Int} (h : steadyFrom m l = true) :
    (∀ e ∈ l, m < e.2 + 10000) ∧ l.Pairwise fun a b => a.2 < b.2 + 10000 := by
  induction l generalizing m with
  | nil => exact ⟨fun _ h => (nomatch h), .nil⟩
  | cons x r ih =>
    obtain ⟨d, c⟩ := x
    simp only [steadyFrom, Bool.and_eq_true, decide_eq_true_eq] at h
    obtain ⟨h1, h2⟩ := ih h.2
    refine ⟨fun e he => ?_, List.pairwise_cons.2 ⟨fun e he => ?_, h2⟩⟩
    · rcases List.mem_cons.1 he with rfl | he
      · exact h.1
      · have := h1 e he
        omega
    · have := h1 e he
      simp only
      omega

end Table

theorem corrections_sorted : corrections.Pairwise fun a b => a.1 < b.1 :=
  (rising_pairwise (m := -1000000) (by decide +kernel)).2
/-- No later correction is smaller by a second. -/
theorem corrections_drop : corrections.Pairwise fun a b => a.2 < b.2 + 10000 :=
  (steady_pairwise (m := 0) (by decide +kernel)).2
/-- From the second row on a correction differs from the one before by a second at most. -/
theorem corrections_step : ∀ p ∈ corrections.zip (corrections.drop 1), dayOf 1973 2 1 ≤ p.1.1 →
    p.1.2 - 10000 ≤ p.2.2 ∧ p.2.2 ≤ p.1.2 + 10000 := by decide +kernel
theorem corrections_length : 0 < corrections.length := by decide +kernel
theorem corrections_range : ∀ e ∈ corrections, 321840 ≤ e.2 ∧ e.2 ≤ 720000 := by decide +kernel

/-- The Julian date in Terrestrial Time is that of UTC plus a correction of the table, which is at least 32.184 and
at most 72 seconds: that of the first row whose day has not begun, or of the last row. -/
theorem c78_correction {ts j : Int} (h : JulianDate ts j) :
    ∃ c, utcToJdTt ts = j + c ∧ NextInForce corrections ts c ∧ 321840 ≤ c ∧ c ≤ 720000 := by
  obtain ⟨c, e, hn⟩ := jdTt_next corrections_sorted corrections_length h
  obtain ⟨d, hm⟩ := nextInForce_mem hn
  exact ⟨c, e, hn, corrections_range _ hm⟩

/-- A later time has a later Julian date: no step of the table goes back by a second. -/
theorem c78_increasing {ts ts' : Int} (h : ts < ts') : utcToJdTt ts < utcToJdTt ts' :=
  jdTt_lt corrections_sorted corrections_drop corrections_length h

/-- From the second row of the table on, the correction is within a second of that of the row in force. -/
theorem c78_close {ts j d c : Int} (h : JulianDate ts j) (hd : DayNumber ⟨1973, 2, 1⟩ d) (hts : d * 24 * 60 * 60 ≤ ts)
    (hf : InForce corrections ts c) : j + c - 10000 ≤ utcToJdTt ts ∧ utcToJdTt ts ≤ j + c + 10000 := by
  obtain ⟨c', e, hn, -⟩ := c78_correction h
  obtain ⟨-, rfl⟩ := (dayNumber_iff _ _).1 hd
  rw [e]
  have hf' := hf
  rcases next_of_inForce corrections_sorted hn hf with rfl | ⟨d1, d0, hm, hl⟩
  · omega
  · have h2 : (dayOf 1973 2 1, 434724) ∈ corrections := by
      rw [corrections, List.mem_map]
      exact ⟨(1973, 2, 1, 434724), List.mem_cons_of_mem _ (List.mem_cons_self ..), rfl⟩
    have := corrections_step _ hm (hl _ h2 hts)
    simp only at this
    omega

/-- Finding: from the first row to the second, 43.4724 seconds are added though the row in force says 32.184. -/
theorem c78_early {ts j d d' : Int} (h : JulianDate ts j) (hd : DayNumber ⟨1700, 1, 1⟩ d)
    (hd' : DayNumber ⟨1973, 2, 1⟩ d') (h1 : d * 24 * 60 * 60 ≤ ts) (h2 : ts < d' * 24 * 60 * 60) :
    InForce corrections ts 321840 ∧ utcToJdTt ts = j + 434724 := by
  obtain ⟨c, e, ⟨b, x, a, e', hb, hx⟩, -⟩ := c78_correction h
  obtain ⟨-, rfl⟩ := (dayNumber_iff _ _).1 hd
  obtain ⟨-, rfl⟩ := (dayNumber_iff _ _).1 hd'
  simp only at h1 h2
  have hs := corrections_sorted
  have ec : corrections = (dayOf 1700 1 1, 321840) :: (dayOf 1973 2 1, 434724) :: corrections.drop 2 := rfl
  have hlater : ∀ e ∈ corrections.drop 2, dayOf 1973 2 1 < e.1 := by
    rw [ec] at hs
    exact (List.pairwise_cons.1 (List.pairwise_cons.1 hs).2).1
  constructor
  · refine ⟨[], _, _, ec, h1, fun e he => ?_⟩
    rcases List.mem_cons.1 he with rfl | he
    · exact h2
    · have := hlater e he
      omega
  · rw [e]
    have e'' := ec.symm.trans e'
    cases b with
    | nil =>
      rcases hx with hx | rfl
      · simp only [List.nil_append] at e''
        injection e'' with e1 _
        injection e1 with e1 _
        omega
      · simp at e''
    | cons b0 b =>
      injection e'' with e0 e''
      cases b with
      | nil =>
        injection e'' with e1 _
        injection e1 with _ e1
        rw [e1]
      | cons b1 b =>
        injection e'' with e1 _
        have := hb b1 (by simp)
        rw [← e1] at this
        omega

/-- Beside `c78_correction`, `c78_increasing` and `c78_close`: noon of 2000-01-01, 2016-12-31 and 2019-10-16. -/
example : utcToJdTt 946728000 = 2451545 * 864000000 + 638557 ∧ JulianDate 946728000 (2451545 * 864000000) ∧
    (∃ c, InForce corrections 946728000 c) ∧ (946684800 : Int) < 1483142400 ∧ dayOf 1973 2 1 * 24 * 60 * 60 ≤ 946728000 :=
  ⟨by decide +kernel, ⟨10957, (dayNumber_iff _ _).2 ⟨⟨by decide, by decide, by decide, by decide⟩, by decide⟩, by decide⟩,
    ⟨638285, corrections.take 324, 10957, corrections.drop 325, by decide +kernel, by decide, by decide +kernel⟩,
    by decide, by decide⟩
/-- Beside `c78_early`: the epoch. -/
example : utcToJdTt 0 = 2440587 * 864000000 + 432000000 + 434724 ∧
    dayOf 1700 1 1 * 24 * 60 * 60 ≤ 0 ∧ 0 < dayOf 1973 2 1 * 24 * 60 * 60 := by decide +kernel

end TC.Props
