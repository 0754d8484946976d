import Verif.Py

namespace TC

/-- `xs` is strictly increasing. -/
abbrev SortedLT (xs : List Int) : Prop := xs.Pairwise (· < ·)

theorem bsearch_spec {goRight : Int → Bool} {xs : List Int}
    (mono : ∀ i j, (hi : i < xs.length) → (hj : j < xs.length) → i ≤ j →
      goRight xs[j] = true → goRight xs[i] = true) :
    ∀ (fuel lo hi : Nat), hi - lo ≤ fuel → lo ≤ hi → hi ≤ xs.length →
      (∀ i (h : i < xs.length), i < lo → goRight xs[i] = true) →
      (∀ i (h : i < xs.length), hi ≤ i → goRight xs[i] = false) →
      let k := bsearch goRight xs fuel lo hi
      k ≤ xs.length ∧ ∀ i (h : i < xs.length), (i < k ↔ goRight xs[i] = true) := by
  intro fuel
  induction fuel with
  | zero =>
    intro lo hi hf hle hlen hl hr
    have : lo = hi := by omega
    subst this
    refine ⟨by simpa [bsearch] using hlen, fun i h => ?_⟩
    simp only [bsearch]
    constructor
    · exact hl i h
    · intro hg
      by_cases hc : i < lo
      · exact hc
      · have := hr i h (by omega); simp [this] at hg
  | succ fuel ih =>
    intro lo hi hf hle hlen hl hr
    simp only [bsearch]
    by_cases hlt : lo < hi
    · rw [if_pos hlt]
      have hmid : lo + (hi - lo) / 2 < xs.length := by omega
      have hget : xs.getD (lo + (hi - lo) / 2) 0 = xs[lo + (hi - lo) / 2] := by
        simp [List.getD, hmid]
      rw [hget]
      by_cases hg : goRight xs[lo + (hi - lo) / 2] = true
      · rw [if_pos hg]
        apply ih
        · omega
        · omega
        · exact hlen
        · intro i h hi'
          exact mono i _ h hmid (by omega) hg
        · exact hr
      · rw [if_neg hg]
        apply ih
        · omega
        · omega
        · omega
        · exact hl
        · intro i h hi'
          cases hgi : goRight xs[i] with
          | false => rfl
          | true => exact absurd (mono _ i hmid h hi' hgi) hg
    · rw [if_neg hlt]
      refine ⟨by omega, fun i h => ?_⟩
      constructor
      · exact hl i h
      · intro hg
        by_cases hc : i < lo
        · exact hc
        · have := hr i h (by omega); simp [this] at hg

/-- Weakly sorted. -/
abbrev SortedLE (xs : List Int) : Prop := xs.Pairwise (· ≤ ·)

theorem SortedLT.le {xs : List Int} (h : SortedLT xs) : SortedLE xs :=
  List.Pairwise.imp (fun h => Int.le_of_lt h) h

theorem SortedLE.get_le {xs : List Int} (h : SortedLE xs) {i j : Nat}
    (hi : i < xs.length) (hj : j < xs.length) (hij : i ≤ j) : xs[i] ≤ xs[j] := by
  rcases Nat.lt_or_ge i j with hlt | hge
  · exact List.pairwise_iff_getElem.mp h i j hi hj hlt
  · have : i = j := by omega
    subst this; exact Int.le_refl _

theorem SortedLT.get_lt {xs : List Int} (h : SortedLT xs) {i j : Nat}
    (hi : i < xs.length) (hj : j < xs.length) (hij : i < j) : xs[i] < xs[j] :=
  List.pairwise_iff_getElem.mp h i j hi hj hij

theorem SortedLT.lt_iff {xs : List Int} (h : SortedLT xs) {i j : Nat}
    (hi : i < xs.length) (hj : j < xs.length) : xs[i] < xs[j] ↔ i < j := by
  constructor
  · intro hl
    rcases Nat.lt_trichotomy i j with h1 | h1 | h1
    · exact h1
    · subst h1; omega
    · have := h.get_lt hj hi h1; omega
  · exact h.get_lt hi hj

theorem SortedLT.inj {xs : List Int} (h : SortedLT xs) {i j : Nat}
    (hi : i < xs.length) (hj : j < xs.length) (he : xs[i] = xs[j]) : i = j := by
  rcases Nat.lt_trichotomy i j with h1 | h1 | h1
  · have := h.get_lt hi hj h1; omega
  · exact h1
  · have := h.get_lt hj hi h1; omega

theorem searchLeft_le {xs : List Int} (h : SortedLE xs) (v : Int) :
    searchLeft xs v ≤ xs.length := by
  refine (bsearch_spec (goRight := fun m => decide (m < v)) ?_ xs.length 0 xs.length
    (by omega) (by omega) (by omega) (by intro i _ h; omega) (by intro i h h'; omega)).1
  intro i j hi hj hij hg
  have := h.get_le hi hj hij
  simp only [decide_eq_true_eq] at *
  omega

theorem lt_searchLeft {xs : List Int} (h : SortedLE xs) (v : Int) {i : Nat}
    (hi : i < xs.length) : i < searchLeft xs v ↔ xs[i] < v := by
  have := (bsearch_spec (goRight := fun m => decide (m < v)) ?_ xs.length 0 xs.length
    (by omega) (by omega) (by omega) (by intro i _ h; omega) (by intro i h h'; omega)).2 i hi
  · simpa [searchLeft] using this
  intro i j hi hj hij hg
  have := h.get_le hi hj hij
  simp only [decide_eq_true_eq] at *
  omega

theorem searchRight_le {xs : List Int} (h : SortedLE xs) (v : Int) :
    searchRight xs v ≤ xs.length := by
  refine (bsearch_spec (goRight := fun m => decide (m ≤ v)) ?_ xs.length 0 xs.length
    (by omega) (by omega) (by omega) (by intro i _ h; omega) (by intro i h h'; omega)).1
  intro i j hi hj hij hg
  have := h.get_le hi hj hij
  simp only [decide_eq_true_eq] at *
  omega

theorem lt_searchRight {xs : List Int} (h : SortedLE xs) (v : Int) {i : Nat}
    (hi : i < xs.length) : i < searchRight xs v ↔ xs[i] ≤ v := by
  have := (bsearch_spec (goRight := fun m => decide (m ≤ v)) ?_ xs.length 0 xs.length
    (by omega) (by omega) (by omega) (by intro i _ h; omega) (by intro i h h'; omega)).2 i hi
  · simpa [searchRight] using this
  intro i j hi hj hij hg
  have := h.get_le hi hj hij
  simp only [decide_eq_true_eq] at *
  omega

/-- A value in the list is at the position `searchLeft` returns. -/
theorem searchLeft_getElem {xs : List Int} (h : SortedLT xs) {i : Nat} (hi : i < xs.length) :
    searchLeft xs xs[i] = i := by
  have hle := searchLeft_le h.le xs[i]
  have h1 := lt_searchLeft h.le xs[i] hi
  rcases Nat.lt_trichotomy (searchLeft xs xs[i]) i with h2 | h2 | h2
  · have h3 := lt_searchLeft h.le xs[i] (i := searchLeft xs xs[i]) (by omega)
    have h4 := h.get_lt (i := searchLeft xs xs[i]) (j := i) (by omega) hi h2
    omega
  · exact h2
  · have := h1.mp h2; omega

theorem searchRight_getElem {xs : List Int} (h : SortedLT xs) {i : Nat} (hi : i < xs.length) :
    searchRight xs xs[i] = i + 1 := by
  have hle := searchRight_le h.le xs[i]
  have h1 := (lt_searchRight h.le xs[i] hi).mpr (Int.le_refl _)
  rcases Nat.lt_trichotomy (searchRight xs xs[i]) (i+1) with h2 | h2 | h2
  · omega
  · exact h2
  · have h3 := (lt_searchRight h.le xs[i] (i := i+1) (by omega)).mp h2
    have h4 := h.get_lt (i := i) (j := i+1) (by omega) (by omega) (by omega)
    omega

/-! ### indexing -/

theorem pyIndex_nat {α : Type} (xs : List α) (i : Nat) (h : i < xs.length) :
    pyIndex xs (i : Int) = .ok xs[i] := by
  have h1 : ¬ ((i : Int) < 0) := by omega
  simp only [pyIndex, h1, if_false, Int.toNat_natCast, List.getElem?_eq_getElem h]

theorem pyIndex_nat_error {α : Type} (xs : List α) (i : Nat) (h : xs.length ≤ i) :
    pyIndex xs (i : Int) = .error .indexError := by
  have h1 : ¬ ((i : Int) < 0) := by omega
  simp only [pyIndex, h1, if_false, Int.toNat_natCast, List.getElem?_eq_none h]

theorem pyIndex_of_eq {α : Type} (xs : List α) {i : Int} {n : Nat} (hi : i = n)
    (h : n < xs.length) : pyIndex xs i = .ok xs[n] := by
  subst hi; exact pyIndex_nat xs n h

/-- `xs[-1]` on a non-empty sequence is its last element. -/
theorem pyIndex_neg_one {α : Type} (xs : List α) (h : 0 < xs.length) :
    pyIndex xs (-1) = .ok xs[xs.length - 1] := by
  have h1 : ¬ ((-1 : Int) + xs.length < 0) := by omega
  have h2 : ((-1 : Int) + xs.length).toNat = xs.length - 1 := by omega
  simp only [pyIndex]
  rw [if_pos (by decide : (-1:Int) < 0), if_neg h1, h2]
  rw [List.getElem?_eq_getElem (by omega)]

theorem pySlice_nat {α : Type} (xs : List α) (a b : Nat) (hb : b ≤ xs.length) :
    pySlice xs a b = (xs.drop a).take (b - a) := by
  have ha' : ¬ ((a : Int) < 0) := by omega
  have hb' : ¬ ((b : Int) < 0) := by omega
  simp only [pySlice, sliceBound, ha', hb', if_false, Int.toNat_natCast]
  rw [Nat.min_eq_left hb]
  rcases Nat.lt_or_ge a xs.length with h | h
  · rw [Nat.min_eq_left (by omega)]
  · rw [Nat.min_eq_right h]
    have h1 : xs.drop a = [] := List.drop_eq_nil_of_le h
    simp [h1]

/-! ### slices of sorted lists are filters -/

theorem filter_eq_take_drop {α : Type} (p : α → Bool) : ∀ (xs : List α) (a b : Nat),
    (∀ i (h : i < xs.length), (a ≤ i ∧ i < b) ↔ p xs[i] = true) →
    xs.filter p = (xs.drop a).take (b - a)
  | [], a, b, _ => by simp
  | x :: xs, a, b, h => by
    have h0 := h 0 (by simp)
    have hs : ∀ i (hi : i < xs.length), (a ≤ i+1 ∧ i+1 < b) ↔ p xs[i] = true := by
      intro i hi
      have := h (i+1) (by simpa using hi)
      simpa using this
    cases a with
    | zero =>
      cases b with
      | zero =>
        have h0' : p x = false := by
          cases hp : p x with
          | false => rfl
          | true => have := h0.mpr (by simpa using hp); omega
        rw [List.filter_cons_of_neg (by simp [h0'])]
        rw [filter_eq_take_drop p xs 0 0 (by intro i hi; have := hs i hi; rw [← this]; omega)]
        simp
      | succ b =>
        have h0' : p x = true := by simpa using h0.mp ⟨by omega, by omega⟩
        rw [List.filter_cons_of_pos h0']
        rw [filter_eq_take_drop p xs 0 b (by intro i hi; have := hs i hi; rw [← this]; omega)]
        simp
    | succ a =>
      have h0' : p x = false := by
        cases hp : p x with
        | false => rfl
        | true => have := h0.mpr (by simpa using hp); omega
      rw [List.filter_cons_of_neg (by simp [h0'])]
      rw [filter_eq_take_drop p xs a (b-1) (by intro i hi; have := hs i hi; rw [← this]; omega)]
      simp only [List.drop_succ_cons]
      congr 1
      omega

/-! ### arange -/

theorem mem_arange {start stop step t : Int} (hs : 0 < step) :
    t ∈ arange start stop step ↔ start ≤ t ∧ t < stop ∧ step ∣ (t - start) := by
  simp only [arange, List.mem_map, List.mem_range]
  have hd := Int.ediv_mul_le (stop - start + step - 1) (b := step) (by omega)
  have hd2 := Int.lt_ediv_add_one_mul_self (stop - start + step - 1) hs
  generalize (stop - start + step - 1) / step = q at hd hd2
  constructor
  · rintro ⟨k, hk, rfl⟩
    have hkq : (k : Int) + 1 ≤ q := by omega
    have h1 : ((k : Int) + 1) * step ≤ q * step := Int.mul_le_mul_of_nonneg_right hkq (by omega)
    have h0 : 0 ≤ (k : Int) * step := Int.mul_nonneg (by omega) (by omega)
    rw [Int.add_mul] at h1
    refine ⟨by omega, by omega, ?_⟩
    exact ⟨k, by rw [Int.mul_comm]; omega⟩
  · rintro ⟨h1, h2, m, hm⟩
    have hm0 : 0 ≤ m := by
      rcases Int.lt_or_le m 0 with h | h
      · have : step * m < 0 := Int.mul_neg_of_pos_of_neg hs h
        omega
      · exact h
    have hmq : m < q := by
      rcases Int.lt_or_le m q with h | h
      · exact h
      · have h3 : q * step ≤ m * step := Int.mul_le_mul_of_nonneg_right h (by omega)
        rw [Int.add_mul] at hd2
        rw [Int.mul_comm step m] at hm
        omega
    refine ⟨m.toNat, by omega, ?_⟩
    rw [Int.toNat_of_nonneg hm0, Int.mul_comm]
    omega

theorem arange_sorted {start stop step : Int} (hs : 0 < step) :
    SortedLT (arange start stop step) := by
  unfold arange SortedLT
  rw [List.pairwise_map]
  refine List.Pairwise.imp ?_ List.pairwise_lt_range
  intro a b hab
  have : (a : Int) * step < (b : Int) * step := Int.mul_lt_mul_of_pos_right (by omega) hs
  omega

theorem length_arange (start stop step : Int) :
    (arange start stop step).length = ((stop - start + step - 1) / step).toNat := by
  simp [arange]

end TC
