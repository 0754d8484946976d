import Verif.Lemmas.Py
import Verif.Spec.Abstraction

namespace TC
open Spec

/-! ### generic: next / previous element of a sorted list -/

theorem Spec.IsNext.unique {xs : List Int} {t x y : Int} (hx : IsNext xs t x) (hy : IsNext xs t y) :
    x = y :=
  Int.le_antisymm (hx.2.2 y hy.1 hy.2.1) (hy.2.2 x hx.1 hx.2.1)

theorem Spec.IsPrev.unique {xs : List Int} {t x y : Int} (hx : IsPrev xs t x) (hy : IsPrev xs t y) :
    x = y :=
  Int.le_antisymm (hy.2.2 x hx.1 hx.2.1) (hx.2.2 y hy.1 hy.2.1)

theorem nextVal_cases {xs : List Int} (h : SortedLT xs) (t : Int) :
    (∃ x, (nextDividerIdx xs t >>= pyIndex xs) = .ok x ∧ IsNext xs t x) ∨
    ((nextDividerIdx xs t >>= pyIndex xs) = .error .indexError ∧ ∀ y ∈ xs, y ≤ t) := by
  have hle := searchRight_le h.le t
  rcases Nat.lt_or_ge (searchRight xs t) xs.length with hlt | hge
  · left
    have hk := lt_searchRight h.le t hlt
    have hgt : t < xs[searchRight xs t] := by
      rcases Int.lt_or_le t xs[searchRight xs t] with h1 | h1
      · exact h1
      · have := hk.mpr h1; omega
    refine ⟨xs[searchRight xs t], ?_, List.getElem_mem _, hgt, ?_⟩
    · unfold nextDividerIdx
      simp only [bind, Except.bind, pyIndex_nat _ _ hlt]
      rw [if_neg (by omega)]
      simp only [pure, Except.pure]
      exact pyIndex_nat _ _ hlt
    · intro y hy hty
      obtain ⟨j, hj, rfl⟩ := List.getElem_of_mem hy
      have hkj := lt_searchRight h.le t hj
      exact h.le.get_le hlt hj (by
        rcases Nat.lt_or_ge j (searchRight xs t) with h2 | h2
        · have := hkj.mp h2; omega
        · exact h2)
  · right
    constructor
    · unfold nextDividerIdx
      simp only [bind, Except.bind, pyIndex_nat_error _ _ hge]
    · intro y hy
      obtain ⟨j, hj, rfl⟩ := List.getElem_of_mem hy
      exact (lt_searchRight h.le t hj).mp (by omega)

theorem prevVal_cases {xs : List Int} (h : SortedLT xs) (t : Int) :
    (∃ x, (previousDividerIdx xs t >>= pyIndex xs) = .ok x ∧ IsPrev xs t x) ∨
    ((previousDividerIdx xs t >>= pyIndex xs)
        = .error (.valueError "Cannot go earlier in calendar!") ∧ ∀ y ∈ xs, t ≤ y) := by
  have hle := searchLeft_le h.le t
  rcases Nat.eq_zero_or_pos (searchLeft xs t) with h0 | hpos
  · right
    constructor
    · unfold previousDividerIdx
      simp [h0, bind, Except.bind]
    · intro y hy
      obtain ⟨j, hj, rfl⟩ := List.getElem_of_mem hy
      have := lt_searchLeft h.le t hj
      omega
  · left
    have hlt : searchLeft xs t - 1 < xs.length := by omega
    refine ⟨xs[searchLeft xs t - 1], ?_, List.getElem_mem _, ?_, ?_⟩
    · unfold previousDividerIdx
      simp only [bind, Except.bind]
      rw [if_neg (by omega)]
      exact pyIndex_of_eq xs (by omega) hlt
    · exact (lt_searchLeft h.le t hlt).mp (by omega)
    · intro y hy hyt
      obtain ⟨j, hj, rfl⟩ := List.getElem_of_mem hy
      have := (lt_searchLeft h.le t hj).mpr hyt
      exact h.le.get_le hj hlt (by omega)

theorem nextVal_ok_iff {xs : List Int} (h : SortedLT xs) (t x : Int) :
    (nextDividerIdx xs t >>= pyIndex xs) = .ok x ↔ IsNext xs t x := by
  rcases nextVal_cases h t with ⟨y, h1, h2⟩ | ⟨h1, h2⟩
  · rw [h1]
    constructor
    · intro he; cases he; exact h2
    · intro he; rw [IsNext.unique h2 he]
  · rw [h1]
    constructor
    · intro he; cases he
    · intro he; have := h2 x he.1; have := he.2.1; omega

theorem nextVal_error_iff {xs : List Int} (h : SortedLT xs) (t : Int) (e : PyErr) :
    (nextDividerIdx xs t >>= pyIndex xs) = .error e ↔ (e = .indexError ∧ ∀ y ∈ xs, y ≤ t) := by
  rcases nextVal_cases h t with ⟨y, h1, h2⟩ | ⟨h1, h2⟩
  · rw [h1]
    constructor
    · intro he; cases he
    · intro he; have := he.2 y h2.1; have := h2.2.1; omega
  · rw [h1]
    constructor
    · intro he; cases he; exact ⟨rfl, h2⟩
    · rintro ⟨rfl, _⟩; rfl

theorem prevVal_ok_iff {xs : List Int} (h : SortedLT xs) (t x : Int) :
    (previousDividerIdx xs t >>= pyIndex xs) = .ok x ↔ IsPrev xs t x := by
  rcases prevVal_cases h t with ⟨y, h1, h2⟩ | ⟨h1, h2⟩
  · rw [h1]
    constructor
    · intro he; cases he; exact h2
    · intro he; rw [IsPrev.unique h2 he]
  · rw [h1]
    constructor
    · intro he; cases he
    · intro he; have := h2 x he.1; have := he.2.1; omega

theorem prevVal_error_iff {xs : List Int} (h : SortedLT xs) (t : Int) (e : PyErr) :
    (previousDividerIdx xs t >>= pyIndex xs) = .error e ↔
      (e = .valueError "Cannot go earlier in calendar!" ∧ ∀ y ∈ xs, t ≤ y) := by
  rcases prevVal_cases h t with ⟨y, h1, h2⟩ | ⟨h1, h2⟩
  · rw [h1]
    constructor
    · intro he; cases he
    · intro he; have := he.2 y h2.1; have := h2.2.1; omega
  · rw [h1]
    constructor
    · intro he; cases he; exact ⟨rfl, h2⟩
    · rintro ⟨rfl, _⟩; rfl

/-! ### sorted lists -/

theorem sorted_ext {xs ys : List Int} (hx : SortedLT xs) (hy : SortedLT ys)
    (h : ∀ t, t ∈ xs ↔ t ∈ ys) : xs = ys := by
  induction xs generalizing ys with
  | nil =>
    cases ys with
    | nil => rfl
    | cons y ys => have := (h y).mpr (by simp); simp at this
  | cons x xs ih =>
    cases ys with
    | nil => have := (h x).mp (by simp); simp at this
    | cons y ys =>
      rw [SortedLT, List.pairwise_cons] at hx hy
      have hxy : x = y := by
        have h1 : x ∈ y :: ys := (h x).mp (by simp)
        have h2 : y ∈ x :: xs := (h y).mpr (by simp)
        rcases List.mem_cons.mp h1 with h1 | h1
        · exact h1
        · rcases List.mem_cons.mp h2 with h2 | h2
          · exact h2.symm
          · have := hy.1 x h1; have := hx.1 y h2; omega
      subst hxy
      congr 1
      apply ih hx.2 hy.2
      intro t
      constructor
      · intro ht
        rcases List.mem_cons.mp ((h t).mp (List.mem_cons_of_mem _ ht)) with h1 | h1
        · subst h1; have := hx.1 t ht; omega
        · exact h1
      · intro ht
        rcases List.mem_cons.mp ((h t).mpr (List.mem_cons_of_mem _ ht)) with h1 | h1
        · subst h1; have := hy.1 t ht; omega
        · exact h1

theorem SortedLT.filter {xs : List Int} (h : SortedLT xs) (p : Int → Bool) :
    SortedLT (xs.filter p) := List.Pairwise.filter p h

/-! ### columns of regular sessions -/

theorem Spec.Regular.labels_sorted {ss : List Session} (h : Regular ss) :
    SortedLT (ss.map (·.label)) := by
  rw [SortedLT, List.pairwise_map]; exact h.labels

theorem Spec.Regular.opens_sorted {ss : List Session} (h : Regular ss) :
    SortedLT (ss.map (·.open)) := by
  rw [SortedLT, List.pairwise_map]
  refine h.times.imp_of_mem ?_
  intro a b ha _ hab
  have := (h.ok a ha).2.1; omega

theorem Spec.Regular.closes_sorted {ss : List Session} (h : Regular ss) :
    SortedLT (ss.map (·.close)) := by
  rw [SortedLT, List.pairwise_map]
  refine h.times.imp_of_mem ?_
  intro a b _ hb hab
  have := (h.ok b hb).2.1; omega

theorem Spec.Regular.tail {s : Session} {ss : List Session} (h : Regular (s :: ss)) : Regular ss :=
  ⟨fun x hx => h.ok x (List.mem_cons_of_mem _ hx), (List.pairwise_cons.mp h.labels).2,
    (List.pairwise_cons.mp h.times).2⟩

theorem Spec.Regular.open_le_close {ss : List Session} (h : Regular ss) {i : Nat}
    (hi : i < ss.length) : ss[i].open ≤ ss[i].close := (h.ok _ (List.getElem_mem hi)).2.1

theorem Spec.Regular.close_lt_open {ss : List Session} (h : Regular ss) {i j : Nat}
    (hi : i < ss.length) (hj : j < ss.length) (hij : i < j) : ss[i].close < ss[j].open :=
  List.pairwise_iff_getElem.mp h.times i j hi hj hij

/-- Two sessions spanning the same instant are the same. -/
theorem Spec.Regular.spans_unique {ss : List Session} (h : Regular ss) {s s' : Session}
    (hs : s ∈ ss) (hs' : s' ∈ ss) {t : Int} (ht : s.Spans t) (ht' : s'.Spans t) : s = s' := by
  obtain ⟨i, hi, rfl⟩ := List.getElem_of_mem hs
  obtain ⟨j, hj, rfl⟩ := List.getElem_of_mem hs'
  rcases Nat.lt_trichotomy i j with h1 | h1 | h1
  · have := h.close_lt_open hi hj h1; have := ht.2; have := ht'.1; omega
  · subst h1; rfl
  · have := h.close_lt_open hj hi h1; have := ht'.2; have := ht.1; omega

theorem Spec.Regular.label_inj {ss : List Session} (h : Regular ss) {s s' : Session}
    (hs : s ∈ ss) (hs' : s' ∈ ss) (hl : s.label = s'.label) : s = s' := by
  obtain ⟨i, hi, rfl⟩ := List.getElem_of_mem hs
  obtain ⟨j, hj, rfl⟩ := List.getElem_of_mem hs'
  have := h.labels_sorted.inj (i := i) (j := j) (by simpa using hi) (by simpa using hj)
    (by simpa using hl)
  subst this; rfl

section columns
variable {ss : List Session}

theorem openIdx_spec (h : Regular ss) (t : Int) :
    searchLeft (Cal.ofSessions ss).opens t ≤ ss.length ∧
    ∀ i (hi : i < ss.length), i < searchLeft (Cal.ofSessions ss).opens t ↔ ss[i].open < t := by
  have h1 := searchLeft_le h.opens_sorted.le t
  refine ⟨by simpa [Cal.ofSessions] using h1, fun i hi => ?_⟩
  have := lt_searchLeft h.opens_sorted.le t (i := i) (by simpa using hi)
  simpa [Cal.ofSessions] using this

theorem openIdxR_spec (h : Regular ss) (t : Int) :
    searchRight (Cal.ofSessions ss).opens t ≤ ss.length ∧
    ∀ i (hi : i < ss.length), i < searchRight (Cal.ofSessions ss).opens t ↔ ss[i].open ≤ t := by
  have h1 := searchRight_le h.opens_sorted.le t
  refine ⟨by simpa [Cal.ofSessions] using h1, fun i hi => ?_⟩
  have := lt_searchRight h.opens_sorted.le t (i := i) (by simpa using hi)
  simpa [Cal.ofSessions] using this

theorem closeIdx_spec (h : Regular ss) (t : Int) :
    searchLeft (Cal.ofSessions ss).closes t ≤ ss.length ∧
    ∀ i (hi : i < ss.length), i < searchLeft (Cal.ofSessions ss).closes t ↔ ss[i].close < t := by
  have h1 := searchLeft_le h.closes_sorted.le t
  refine ⟨by simpa [Cal.ofSessions] using h1, fun i hi => ?_⟩
  have := lt_searchLeft h.closes_sorted.le t (i := i) (by simpa using hi)
  simpa [Cal.ofSessions] using this

/-- A session spanning `t` is the one at the close index. -/
theorem spans_closeIdx (h : Regular ss) {t : Int} {i : Nat} (hi : i < ss.length)
    (ht : ss[i].Spans t) : searchLeft (Cal.ofSessions ss).closes t = i := by
  obtain ⟨h1, h2⟩ := closeIdx_spec h t
  rcases Nat.lt_trichotomy (searchLeft (Cal.ofSessions ss).closes t) i with hlt | heq | hgt
  · have h3 := h2 (searchLeft (Cal.ofSessions ss).closes t) (by omega)
    have h4 := h.close_lt_open (i := searchLeft (Cal.ofSessions ss).closes t) (by omega) hi hlt
    have := ht.1
    omega
  · exact heq
  · have := (h2 i hi).mp hgt; have := ht.2; omega

/-- How the two indices used by `is_open_on_minute` relate. -/
theorem idx_cases (h : Regular ss) (t : Int) :
    let oi := searchLeft (Cal.ofSessions ss).opens t
    let ci := searchLeft (Cal.ofSessions ss).closes t
    (oi = ci + 1 ∧ ∃ hi : ci < ss.length, ss[ci].open < t ∧ t ≤ ss[ci].close) ∨
    (oi = ci ∧ ∀ hi : ci < ss.length, t ≤ ss[ci].open) := by
  intro oi ci
  obtain ⟨ho1, ho2⟩ := openIdx_spec h t
  obtain ⟨hc1, hc2⟩ := closeIdx_spec h t
  have h1 : ci ≤ oi := by
    rcases Nat.lt_or_ge oi ci with hlt | hge
    · have hlen : oi < ss.length := by omega
      have := (hc2 oi hlen).mp hlt
      have := ho2 oi hlen
      have := h.open_le_close hlen
      omega
    · exact hge
  have h2 : oi ≤ ci + 1 := by
    rcases Nat.lt_or_ge (ci + 1) oi with hlt | hge
    · have hlen : ci + 1 < ss.length := by omega
      have := (ho2 (ci + 1) hlen).mp hlt
      have := hc2 ci (by omega)
      have := h.close_lt_open (i := ci) (j := ci + 1) (by omega) hlen (by omega)
      omega
    · exact hge
  rcases Nat.eq_or_lt_of_le h1 with heq | hlt
  · right
    refine ⟨heq.symm, fun hi => ?_⟩
    have := ho2 ci hi
    omega
  · left
    have hi : ci < ss.length := by omega
    have hoi : oi = ci + 1 := by omega
    have h3 := (ho2 ci hi).mp (by omega)
    have h4 := hc2 ci hi
    exact ⟨hoi, hi, h3, by omega⟩

end columns

end TC
