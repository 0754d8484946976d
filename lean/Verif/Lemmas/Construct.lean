import Verif.Spec.Construct
import Verif.Lemmas.Named
import Verif.Lemmas.BuildRegular

/-! # Lemmas about the constructors of calendar classes -/

namespace TC
open Spec

/-- `date_range` is sorted whatever the time of day of the start. -/
theorem dateRange_sorted (bus : Int → Bool) (start stop : Int) : SortedLT (dateRange bus start stop) :=
  (dateRange_any bus start stop).1

theorem build_sorted {cfg : Config} {start stop : Int} {b : Built} (h : build cfg start stop = .ok b) :
    SortedLT b.cal.sessions := by
  obtain ⟨sch, hs, hc, _⟩ := build_parts h
  obtain ⟨_, _, _, _, _, _, _, _, _, _, _, _, _, _, _, _, _, _, _, _, _, _, _, hdays⟩ :=
    schedule_parts hs
  rw [hc, hdays]
  exact dateRange_sorted _ _ _

/-- The first and the last session bound all. -/
theorem build_bounds {cfg : Config} {start stop : Int} {b : Built} (h : build cfg start stop = .ok b) :
    b.firstTradingSession ∈ b.cal.sessions ∧ b.lastTradingSession ∈ b.cal.sessions ∧
    ∀ l ∈ b.cal.sessions, b.firstTradingSession ≤ l ∧ l ≤ b.lastTradingSession := by
  have hs := build_sorted h
  obtain ⟨_, _, _, _, hf, hl, _⟩ := build_parts h
  have hp : 0 < b.cal.sessions.length := by
    apply Nat.pos_of_ne_zero
    intro h0
    rw [List.length_eq_zero_iff.1 h0] at hf
    simp [pyIndex] at hf
  have e0 := pyIndex_of_eq b.cal.sessions (i := 0) (n := 0) rfl hp
  have e1 := pyIndex_neg_one b.cal.sessions hp
  rw [e0] at hf
  rw [e1] at hl
  have hf : _ = b.firstTradingSession := Except.ok.inj hf
  have hl : _ = b.lastTradingSession := Except.ok.inj hl
  rw [← hf, ← hl]
  refine ⟨List.getElem_mem _, List.getElem_mem _, fun x hx => ?_⟩
  obtain ⟨i, hi, rfl⟩ := List.getElem_of_mem hx
  have hpw := List.pairwise_iff_getElem.mp hs
  constructor
  · rcases Nat.eq_zero_or_pos i with rfl | h
    · exact Int.le_refl _
    · exact Int.le_of_lt (hpw 0 i hp hi h)
  · by_cases h : i = b.cal.sessions.length - 1
    · subst h; exact Int.le_refl _
    · exact Int.le_of_lt (hpw i _ hi (by omega) (by omega))

theorem npMin_ok {xs : List Int} {m : Int} (h : npMin xs = .ok m) : m ∈ xs ∧ ∀ x ∈ xs, m ≤ x := by
  cases xs with
  | nil => simp [npMin] at h
  | cons a xs =>
    simp only [npMin, Except.ok.injEq] at h
    subst h
    induction xs generalizing a with
    | nil => simp
    | cons b xs ih =>
      simp only [List.foldl_cons]
      obtain ⟨h1, h2⟩ := ih (min a b)
      constructor
      · rcases List.mem_cons.1 h1 with h1 | h1
        · rw [h1]
          rcases (by omega : min a b = a ∨ min a b = b) with h | h <;> rw [h] <;> simp
        · simp [h1]
      · intro x hx
        have h3 := h2 (min a b) (by simp)
        rcases List.mem_cons.1 hx with rfl | hx
        · omega
        · rcases List.mem_cons.1 hx with rfl | hx
          · omega
          · exact h2 x (by simp [hx])

theorem npMax_ok {xs : List Int} {m : Int} (h : npMax xs = .ok m) : m ∈ xs ∧ ∀ x ∈ xs, x ≤ m := by
  cases xs with
  | nil => simp [npMax] at h
  | cons a xs =>
    simp only [npMax, Except.ok.injEq] at h
    subst h
    induction xs generalizing a with
    | nil => simp
    | cons b xs ih =>
      simp only [List.foldl_cons]
      obtain ⟨h1, h2⟩ := ih (max a b)
      constructor
      · rcases List.mem_cons.1 h1 with h1 | h1
        · rw [h1]
          rcases (by omega : max a b = a ∨ max a b = b) with h | h <;> rw [h] <;> simp
        · simp [h1]
      · intro x hx
        have h3 := h2 (max a b) (by simp)
        rcases List.mem_cons.1 hx with rfl | hx
        · omega
        · rcases List.mem_cons.1 hx with rfl | hx
          · omega
          · exact h2 x (by simp [hx])

theorem npMin_exists {xs : List Int} (h : xs ≠ []) : ∃ m, npMin xs = .ok m := by
  cases xs with
  | nil => exact absurd rfl h
  | cons a xs => exact ⟨_, rfl⟩

theorem npMax_exists {xs : List Int} (h : xs ≠ []) : ∃ m, npMax xs = .ok m := by
  cases xs with
  | nil => exact absurd rfl h
  | cons a xs => exact ⟨_, rfl⟩

theorem firstYear_iff {xs : List Int} {m : Int} (h : npMin xs = .ok m) (y : Int) :
    FirstYear xs y ↔ y = yearOf m := by
  obtain ⟨h1, h2⟩ := npMin_ok h
  unfold FirstYear
  simp only [inYear_iff]
  constructor
  · rintro ⟨⟨d, hd, rfl⟩, h4⟩
    have := h4 m h1 _ rfl
    have := yearOf_mono (h2 d hd)
    omega
  · rintro rfl
    exact ⟨⟨m, h1, rfl⟩, fun d hd y' hy => hy ▸ yearOf_mono (h2 d hd)⟩

theorem lastYear_iff {xs : List Int} {m : Int} (h : npMax xs = .ok m) (y : Int) :
    LastYear xs y ↔ y = yearOf m := by
  obtain ⟨h1, h2⟩ := npMax_ok h
  unfold LastYear
  simp only [inYear_iff]
  constructor
  · rintro ⟨⟨d, hd, rfl⟩, h4⟩
    have := h4 m h1 _ rfl
    have := yearOf_mono (h2 d hd)
    omega
  · rintro rfl
    exact ⟨⟨m, h1, rfl⟩, fun d hd y' hy => hy ▸ yearOf_mono (h2 d hd)⟩

theorem recorded_iff {xs : List Int} {lo hi : Int} (hl : npMin xs = .ok lo) (hh : npMax xs = .ok hi)
    (y : Int) : Recorded xs y ↔ yearOf lo ≤ y ∧ y ≤ yearOf hi := by
  obtain ⟨h1, h2⟩ := npMin_ok hl
  obtain ⟨h3, h4⟩ := npMax_ok hh
  unfold Recorded
  simp only [inYear_iff]
  constructor
  · rintro ⟨⟨d, hd, _, rfl, h5⟩, d', hd', _, rfl, h6⟩
    have := yearOf_mono (h2 d hd)
    have := yearOf_mono (h4 d' hd')
    omega
  · rintro ⟨h5, h6⟩
    exact ⟨⟨lo, h1, _, rfl, h5⟩, hi, h3, _, rfl, h6⟩

/-- The final checks are about all sessions. -/
theorem checkYears_ok {cfg : Config} {start stop : Int} {b : Built} (h : build cfg start stop = .ok b)
    (lo hi : Int) : checkYears lo hi b = .ok b ↔
      ∀ l ∈ b.cal.sessions, lo ≤ yearOfInstant l ∧ yearOfInstant l ≤ hi := by
  obtain ⟨h1, h2, h3⟩ := build_bounds h
  have mono : ∀ {a c : Int}, a ≤ c → yearOfInstant a ≤ yearOfInstant c := by
    intro a c hac
    exact yearOf_mono (Int.ediv_le_ediv (by decide) hac)
  unfold checkYears
  constructor
  · intro h l hl
    have := mono (h3 l hl).1
    have := mono (h3 l hl).2
    split at h
    · cases h
    · split at h
      · cases h
      · omega
  · intro h
    have := h _ h1
    have := h _ h2
    rw [if_neg (by omega), if_neg (by omega)]

theorem checkYears_cases (lo hi : Int) (b : Built) :
    checkYears lo hi b = .ok b ∨ ∃ why, checkYears lo hi b = .error (.valueError why) := by
  unfold checkYears
  split
  · exact Or.inr ⟨_, rfl⟩
  · split
    · exact Or.inr ⟨_, rfl⟩
    · exact Or.inl rfl

end TC
