import Verif.Lemmas.Minutes

namespace TC
open Spec

theorem getLoc_getElem {xs : List Int} (h : SortedLT xs) {i : Nat} (hi : i < xs.length) :
    getLoc xs xs[i] = .ok i := by
  unfold getLoc
  have : xs.findIdx? (· == xs[i]) = some i := by
    rw [List.findIdx?_eq_some_iff_getElem]
    refine ⟨hi, by simp, fun j hj => ?_⟩
    have := h.get_lt (i := j) (j := i) (by omega) hi hj
    simp; omega
  rw [this]

theorem getLoc_not_mem {xs : List Int} {l : Int} (h : l ∉ xs) : getLoc xs l = .error .keyError := by
  unfold getLoc
  have : xs.findIdx? (· == l) = none := by
    rw [List.findIdx?_eq_none_iff]
    intro x hx
    simp only [beq_eq_false_iff_ne]
    intro he; subst he; exact h hx
  rw [this]

theorem cell_label {ss : List Session} (h : Regular ss) {i : Nat} (hi : i < ss.length)
    (column : List Int) (hc : i < column.length) :
    (Cal.ofSessions ss).cell column ss[i].label = .ok column[i] := by
  unfold Cal.cell
  have hl := getLoc_getElem h.labels_sorted (i := i) (by simpa using hi)
  have he : ss[i].label = (ss.map (·.label))[i]'(by simpa using hi) := by simp
  simp only [Cal.ofSessions]
  rw [he, hl]
  simp only [bind, Except.bind]
  exact pyIndex_nat _ _ hc

theorem cell_not_session {ss : List Session} {l : Int} (h : ∀ s ∈ ss, s.label ≠ l)
    (column : List Int) : (Cal.ofSessions ss).cell column l = .error .keyError := by
  unfold Cal.cell
  rw [getLoc_not_mem (by simpa [Cal.ofSessions] using h)]
  rfl

theorem cell_open {ss : List Session} (h : Regular ss) {s : Session} (hs : s ∈ ss) :
    (Cal.ofSessions ss).cell (Cal.ofSessions ss).opens s.label = .ok s.open := by
  obtain ⟨i, hi, rfl⟩ := List.getElem_of_mem hs
  rw [cell_label h hi _ (by simpa [Cal.ofSessions] using hi)]
  simp [Cal.ofSessions]

theorem cell_close {ss : List Session} (h : Regular ss) {s : Session} (hs : s ∈ ss) :
    (Cal.ofSessions ss).cell (Cal.ofSessions ss).closes s.label = .ok s.close := by
  obtain ⟨i, hi, rfl⟩ := List.getElem_of_mem hs
  rw [cell_label h hi _ (by simpa [Cal.ofSessions] using hi)]
  simp [Cal.ofSessions]

theorem cell_breakStart {ss : List Session} (h : Regular ss) {s : Session} (hs : s ∈ ss) :
    (Cal.ofSessions ss).cell (Cal.ofSessions ss).breakStarts s.label
      = .ok (match s.brk with | none => NP_NAT | some (b, _) => b) := by
  obtain ⟨i, hi, rfl⟩ := List.getElem_of_mem hs
  rw [cell_label h hi _ (by simpa [Cal.ofSessions] using hi)]
  simp [Cal.ofSessions]
  all_goals cases ss[i].brk <;> rfl

theorem cell_breakEnd {ss : List Session} (h : Regular ss) {s : Session} (hs : s ∈ ss) :
    (Cal.ofSessions ss).cell (Cal.ofSessions ss).breakEnds s.label
      = .ok (match s.brk with | none => NP_NAT | some (_, e) => e) := by
  obtain ⟨i, hi, rfl⟩ := List.getElem_of_mem hs
  rw [cell_label h hi _ (by simpa [Cal.ofSessions] using hi)]
  simp [Cal.ofSessions]
  all_goals cases ss[i].brk <;> rfl

/-- A slice between two searchsorted indices is a filter. -/
theorem slice_search {xs : List Int} (h : SortedLE xs) (a b : Int) :
    pySlice xs (searchLeft xs a) (searchRight xs b)
      = xs.filter (fun t => decide (a ≤ t) && decide (t ≤ b)) := by
  rw [pySlice_nat _ _ _ (searchRight_le h b)]
  rw [filter_eq_take_drop _ xs (searchLeft xs a) (searchRight xs b)]
  intro i hi
  have h1 := lt_searchLeft h a hi
  have h2 := lt_searchRight h b hi
  simp only [Bool.and_eq_true, decide_eq_true_eq]
  omega

/-- `minutes_in_range` on any strictly increasing minute list. -/
theorem minutesInRange_eq {c : Cal} (h : SortedLT c.minutes) (a b : Int) :
    ((∃ t ∈ c.minutes, b ≤ t) →
      c.minutesInRange a b = .ok (c.minutes.filter (fun t => decide (a ≤ t) && decide (t ≤ b)))) ∧
    ((∀ t ∈ c.minutes, t < b) → c.minutesInRange a b = .error .indexError) := by
  have hle := searchLeft_le h.le b
  constructor
  · rintro ⟨t, ht, hbt⟩
    obtain ⟨j, hj, rfl⟩ := List.getElem_of_mem ht
    have hlt : searchLeft c.minutes b < c.minutes.length := by
      have := lt_searchLeft h.le b hj; omega
    unfold Cal.minutesInRange
    simp only [pyIndex_nat _ _ hlt, bind, Except.bind, pure, Except.pure]
    have hge : b ≤ c.minutes[searchLeft c.minutes b] := by
      have := lt_searchLeft h.le b hlt; omega
    have hend : (if b = c.minutes[searchLeft c.minutes b] then (searchLeft c.minutes b : Int) + 1
        else (searchLeft c.minutes b : Int)) = (searchRight c.minutes b : Int) := by
      split
      · rename_i he
        have h2 := searchRight_getElem h hlt
        rw [← he] at h2; omega
      · rename_i hne
        have h3 := searchRight_le h.le b
        rcases Nat.lt_trichotomy (searchLeft c.minutes b) (searchRight c.minutes b) with h4 | h4 | h4
        · have := (lt_searchRight h.le b hlt).mp h4; omega
        · omega
        · have h5 := (lt_searchLeft h.le b (i := searchRight c.minutes b) (by omega)).mp h4
          have h6 := (lt_searchRight h.le b (i := searchRight c.minutes b) (by omega)).mpr (by omega)
          omega
    rw [hend, slice_search h.le]
  · intro hall
    have hge : c.minutes.length ≤ searchLeft c.minutes b := by
      rcases Nat.lt_or_ge (searchLeft c.minutes b) c.minutes.length with hlt | hge
      · have h1 := hall _ (List.getElem_mem hlt)
        have := (lt_searchLeft h.le b hlt).mpr h1
        omega
      · exact hge
    unfold Cal.minutesInRange
    simp only [pyIndex_nat_error _ _ hge, bind, Except.bind]

end TC
