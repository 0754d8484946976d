import Verif.Lemmas.HolidayCheck

/-! # The cache of a holiday calendar is transparent -/

namespace TC
open Spec

theorem filter_insertSorted (p : Int → Bool) {e : Int} {xs : List Int} (h : xs.Pairwise (· ≤ ·)) :
    (insertSorted e xs).filter p = if p e then insertSorted e (xs.filter p) else xs.filter p := by
  induction xs with
  | nil => simp only [insertSorted, List.filter_nil]; split <;> simp [*]
  | cons f rest ih =>
    rw [List.pairwise_cons] at h
    have ih := ih h.2
    have hcons : insertSorted e (f :: rest) =
      if f ≤ e then f :: insertSorted e rest else e :: f :: rest := rfl
    have hcons' : insertSorted e (f :: rest.filter p) =
      if f ≤ e then f :: insertSorted e (rest.filter p) else e :: f :: rest.filter p := rfl
    by_cases hle : f ≤ e
    · rw [hcons, if_pos hle, List.filter_cons, ih]
      by_cases hf : p f = true <;> by_cases he : p e = true <;>
        simp [hf, he, hcons', hle]
    · rw [hcons, if_neg hle]
      have front : ∀ ys : List Int, (∀ y ∈ ys, f ≤ y) → insertSorted e ys = e :: ys := by
        intro ys hys
        cases ys with
        | nil => rfl
        | cons g gs =>
          have := hys g List.mem_cons_self
          simp only [insertSorted]
          rw [if_neg (by omega)]
      rw [List.filter_cons]
      by_cases he : p e = true
      · simp only [he, if_true]
        rw [front]
        intro y hy
        have hy := (List.mem_filter.1 hy).1
        rcases List.mem_cons.1 hy with rfl | hy
        · exact Int.le_refl _
        · exact h.1 y hy
      · simp [he]

theorem filter_sortInts (p : Int → Bool) (xs : List Int) :
    (sortInts xs).filter p = sortInts (xs.filter p) := by
  unfold sortInts
  suffices ∀ (xs acc : List Int), acc.Pairwise (· ≤ ·) →
      (xs.foldl (fun acc e => insertSorted e acc) acc).filter p =
        (xs.filter p).foldl (fun acc e => insertSorted e acc) (acc.filter p) from this xs [] .nil
  intro xs
  induction xs with
  | nil => intro acc _; rfl
  | cons a rest ih =>
    intro acc h
    simp only [List.foldl_cons]
    rw [ih _ (insertSorted_sorted h), filter_insertSorted p h, List.filter_cons]
    split <;> simp

/-- The years `a` to `b`. -/
def yearRange (a b : Int) : List Int :=
  (List.range (b - a + 1).toNat).map (fun (i : Nat) => a + (i : Int))

theorem yearRange_sorted (a b : Int) : SortedLT (yearRange a b) := by
  unfold SortedLT yearRange
  rw [List.pairwise_map]
  exact List.pairwise_lt_range.imp (fun h => by omega)

theorem yearRange_filter {a b c d : Int} (h1 : a ≤ c) (h2 : d ≤ b) :
    (yearRange a b).filter (fun y => decide (c ≤ y) && decide (y ≤ d)) = yearRange c d := by
  apply sorted_ext ((yearRange_sorted a b).filter _) (yearRange_sorted c d)
  intro y
  rw [List.mem_filter, Bool.and_eq_true, decide_eq_true_iff, decide_eq_true_iff]
  unfold yearRange
  rw [mem_yearRange, mem_yearRange]
  omega

theorem flatMap_restrict {f : Int → List Int} {q : Int → Bool} {a b c d : Int} (h1 : a ≤ c)
    (h2 : d ≤ b) (hout : ∀ y, y < c ∨ d < y → ∀ x ∈ f y, q x = false) :
    ((yearRange a b).flatMap f).filter q = ((yearRange c d).flatMap f).filter q := by
  rw [← yearRange_filter h1 h2]
  generalize yearRange a b = L
  induction L with
  | nil => rfl
  | cons y L ih =>
    rw [List.filter_cons]
    by_cases hy : (decide (c ≤ y) && decide (y ≤ d)) = true
    · simp only [hy, if_true, List.flatMap_cons, List.filter_append, ih]
    · rw [if_neg hy, List.flatMap_cons, List.filter_append, ih]
      have : (f y).filter q = [] := by
        rw [List.filter_eq_nil_iff]
        intro x hx
        simp only [Bool.and_eq_true, decide_eq_true_iff] at hy
        rw [hout y (by omega) x hx]
        simp
      rw [this, List.nil_append]

theorem referenceYears_eq (r : Rule) (s e : Int) : r.referenceYears s e =
    yearRange (yearOf (r.startDate.getD (s / DAY)) - 1) (yearOf (r.endDate.getD (e / DAY)) + 1) :=
  rfl

/-- Slicing the dates of a larger window gives those of the smaller one, in the same order. -/
theorem dates_restrict {r : Rule} (hg : GoodRule r) (hn : StrictlyNear r) {a b s e : Int}
    (h1 : a ≤ s) (h2 : e ≤ b) :
    (r.dates a b).filter (fun u => decide (s ≤ u) && decide (u ≤ e)) =
      (r.dates s e).filter (fun u => decide (s ≤ u) && decide (u ≤ e)) := by
  unfold Rule.dates
  cases hy : r.year with
  | some y => rfl
  | none =>
    simp only
    rw [List.filter_map, List.filter_map]
    congr 1
    rw [List.filter_filter, List.filter_filter]
    have e1 : ∀ d, ((((fun u => decide (s ≤ u) && decide (u ≤ e)) ∘ (· * DAY)) d) &&
        (r.inBounds d && decide (a ≤ d * DAY) && decide (d * DAY ≤ b))) =
        (r.inBounds d && decide (s ≤ d * DAY) && decide (d * DAY ≤ e)) := by
      intro d
      rw [Bool.eq_iff_iff]
      simp only [Function.comp, Bool.and_eq_true, decide_eq_true_iff]
      constructor
      · rintro ⟨⟨h, h'⟩, ⟨hb, _⟩, _⟩; exact ⟨⟨hb, h⟩, h'⟩
      · rintro ⟨⟨hb, h⟩, h'⟩; exact ⟨⟨h, h'⟩, ⟨hb, by omega⟩, by omega⟩
    have e2 : ∀ d, ((((fun u => decide (s ≤ u) && decide (u ≤ e)) ∘ (· * DAY)) d) &&
        (r.inBounds d && decide (s ≤ d * DAY) && decide (d * DAY ≤ e))) =
        (r.inBounds d && decide (s ≤ d * DAY) && decide (d * DAY ≤ e)) := by
      intro d
      rw [Bool.eq_iff_iff]
      simp only [Function.comp, Bool.and_eq_true, decide_eq_true_iff]
      constructor
      · rintro ⟨⟨h, h'⟩, ⟨hb, _⟩, _⟩; exact ⟨⟨hb, h⟩, h'⟩
      · rintro ⟨⟨hb, h⟩, h'⟩; exact ⟨⟨h, h'⟩, ⟨hb, h⟩, h'⟩
    simp only [e1, e2]
    rw [referenceYears_eq, referenceYears_eq]
    apply flatMap_restrict
    · have : yearOf (r.startDate.getD (a / DAY)) ≤ yearOf (r.startDate.getD (s / DAY)) := by
        apply yearOf_mono
        cases r.startDate with
        | none => simp only [Option.getD_none, DAY]; omega
        | some x => exact Int.le_refl _
      omega
    · have : yearOf (r.endDate.getD (e / DAY)) ≤ yearOf (r.endDate.getD (b / DAY)) := by
        apply yearOf_mono
        cases r.endDate with
        | none => simp only [Option.getD_none, DAY]; omega
        | some x => exact Int.le_refl _
      omega
    · intro y hy x hx
      rw [← Bool.not_eq_true]
      intro hc
      simp only [Bool.and_eq_true, decide_eq_true_iff] at hc
      obtain ⟨⟨hb, hs⟩, he⟩ := hc
      rw [inBounds_iff] at hb
      rw [ofYear_iff hg] at hx
      obtain ⟨y', hy', hl, hr⟩ := hn y x hx
      rw [inYear_iff] at hy'
      have h3 : yearOf (r.startDate.getD (s / DAY)) ≤ yearOf x := by
        apply yearOf_mono
        cases hs' : r.startDate with
        | none => exact le_day hs
        | some z => exact hb.1 z hs'
      have h4 : yearOf x ≤ yearOf (r.endDate.getD (e / DAY)) := by
        apply yearOf_mono
        cases he' : r.endDate with
        | none => simp only [Option.getD_none, DAY] at *; omega
        | some z => exact hb.2 z he'
      omega

/-- A rule bounded on both sides considers the same years for every window. -/
theorem dates_restrict_bounded {r : Rule} {x z : Int} (hs : r.startDate = some x)
    (he : r.endDate = some z) {a b s e : Int} (h1 : a ≤ s) (h2 : e ≤ b) :
    (r.dates a b).filter (fun u => decide (s ≤ u) && decide (u ≤ e)) =
      (r.dates s e).filter (fun u => decide (s ≤ u) && decide (u ≤ e)) := by
  unfold Rule.dates
  cases hy : r.year with
  | some y => rfl
  | none =>
    simp only
    rw [referenceYears_eq, referenceYears_eq, hs, he]
    simp only [Option.getD_some]
    rw [List.filter_map, List.filter_map]
    congr 1
    rw [List.filter_filter, List.filter_filter]
    congr 1
    funext d
    rw [Bool.eq_iff_iff]
    simp only [Function.comp, Bool.and_eq_true, decide_eq_true_iff]
    constructor
    · rintro ⟨⟨h, h'⟩, ⟨hb, _⟩, _⟩; exact ⟨⟨h, h'⟩, ⟨hb, h⟩, h'⟩
    · rintro ⟨⟨h, h'⟩, ⟨hb, _⟩, _⟩; exact ⟨⟨h, h'⟩, ⟨hb, by omega⟩, by omega⟩

/-- A rule whose dates in a window do not depend on which larger window was evaluated. -/
def Sliceable (r : Rule) : Prop :=
  (GoodRule r ∧ StrictlyNear r) ∨ ∃ x z, r.startDate = some x ∧ r.endDate = some z

theorem Sliceable.restrict {r : Rule} (h : Sliceable r) {a b s e : Int} (h1 : a ≤ s) (h2 : e ≤ b) :
    (r.dates a b).filter (fun u => decide (s ≤ u) && decide (u ≤ e)) =
      (r.dates s e).filter (fun u => decide (s ≤ u) && decide (u ≤ e)) := by
  rcases h with ⟨hg, hn⟩ | ⟨x, z, hs, he⟩
  · exact dates_restrict hg hn h1 h2
  · exact dates_restrict_bounded hs he h1 h2

theorem rulesDates_restrict {rules : List Rule} (h : ∀ r ∈ rules, Sliceable r) {a b s e : Int}
    (h1 : a ≤ s) (h2 : e ≤ b) :
    (rulesDates rules a b).filter (fun u => decide (s ≤ u) && decide (u ≤ e)) =
      holidayCalendar rules s e := by
  unfold holidayCalendar rulesDates
  rw [filter_sortInts, filter_sortInts]
  congr 1
  induction rules with
  | nil => rfl
  | cons r rest ih =>
    simp only [List.flatMap_cons, List.filter_append]
    rw [(h r List.mem_cons_self).restrict h1 h2,
      ih (fun r' hr => h r' (List.mem_cons_of_mem _ hr))]

/-- The invariant of the cache. -/
def HolidayCacheOk (rules : List Rule) : HolidayCache → Prop
  | none => True
  | some c => c.2.2 = rulesDates rules c.1 c.2.1

theorem holidaysCached_step {rules : List Rule} (h : ∀ r ∈ rules, Sliceable r) {c : HolidayCache}
    (hc : HolidayCacheOk rules c) (s e : Int) :
    (holidaysCached rules c s e).1 = holidayCalendar rules s e ∧
      HolidayCacheOk rules (holidaysCached rules c s e).2 := by
  unfold holidaysCached
  cases c with
  | none => exact ⟨rfl, rfl⟩
  | some c =>
    simp only
    by_cases hw : s < c.1 ∨ c.2.1 < e
    · simp only [hw, if_true]; exact ⟨rfl, rfl⟩
    · simp only [hw, if_false]
      refine ⟨?_, hc⟩
      have hc' : c.2.2 = rulesDates rules c.1 c.2.1 := hc
      rw [hc']
      exact rulesDates_restrict h (by omega) (by omega)

end TC
