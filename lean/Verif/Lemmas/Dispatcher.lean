import Verif.Model.Dispatcher
import Verif.Spec.Dispatcher

namespace TC
open Spec

namespace Dict
variable {V : Type}

theorem get?_set (d : Dict V) (k : String) (v : V) (k' : String) :
    (d.set k v).get? k' = if k' = k then some v else d.get? k' := by
  induction d with
  | nil => simp [set, get?, eq_comm]
  | cons p rest ih =>
    obtain ⟨a, b⟩ := p
    simp only [set]
    split
    · subst_vars
      simp only [get?]
      grind
    · simp only [get?, ih]
      grind

theorem get?_del (d : Dict V) (k k' : String) :
    (d.del k).get? k' = if k' = k then none else d.get? k' := by
  induction d with
  | nil => simp [del, get?]
  | cons p rest ih =>
    obtain ⟨a, b⟩ := p
    simp only [del, List.filter_cons] at ih ⊢
    by_cases h : a = k
    · simp only [h, ne_eq, not_true_eq_false, decide_false, Bool.false_eq_true, if_false, get?]
      rw [ih]; grind
    · simp only [h, ne_eq, not_false_eq_true, decide_true, if_true, get?]
      rw [ih]; grind

theorem has_iff_mem_keys (d : Dict V) (k : String) : d.has k = true ↔ k ∈ d.keys := by
  induction d with
  | nil => simp [has, get?, keys]
  | cons p rest ih =>
    obtain ⟨a, b⟩ := p
    simp only [has, get?, keys, List.map_cons, List.mem_cons] at ih ⊢
    grind

theorem del_of_not_has {d : Dict V} {k : String} (h : d.has k = false) : d.del k = d := by
  unfold del
  rw [List.filter_eq_self]
  intro p hp
  have : k ∉ d.keys := by rw [← has_iff_mem_keys]; simp [h]
  simp only [ne_eq, decide_eq_true_eq]
  intro he
  exact this (by rw [keys, List.mem_map]; exact ⟨p, hp, he⟩)

theorem del_set_of_not_has {d : Dict V} {k : String} {v : V} (h : d.has k = false) :
    (d.set k v).del k = d := by
  induction d with
  | nil => simp [set, del]
  | cons p rest ih =>
    obtain ⟨a, b⟩ := p
    have ha : a ≠ k := by
      intro he; simp [has, get?, he] at h
    have hr : has rest k = false := by
      simpa [has, get?, ha] using h
    simp only [set, ha, if_false]
    have := ih hr
    simp only [del] at this ⊢
    rw [List.filter_cons_of_pos (by simp [ha]), this]

theorem has_set (d : Dict V) (k : String) (v : V) (k' : String) :
    (d.set k v).has k' = (decide (k' = k) || d.has k') := by
  simp only [has, get?_set]; grind

theorem has_del (d : Dict V) (k k' : String) :
    (d.del k).has k' = (decide (k' ≠ k) && d.has k') := by
  simp only [has, get?_del]; grind

end Dict

theorem mem_dedup {xs : List String} {x : String} : x ∈ dedup xs ↔ x ∈ xs := by
  induction xs with
  | nil => simp [dedup]
  | cons y ys ih => simp only [dedup]; split <;> grind

theorem nodup_dedup (xs : List String) : (dedup xs).Nodup := by
  induction xs with
  | nil => simp [dedup]
  | cons y ys ih =>
    simp only [dedup]
    split
    · exact ih
    · exact List.nodup_cons.mpr ⟨by rw [mem_dedup]; assumption, ih⟩

/-- Resolution is a partial function. -/
theorem ResolvesTo.unique {al : String → Option String} {n r r' : String}
    (h : ResolvesTo al n r) (h' : ResolvesTo al n r') : r = r' := by
  induction h with
  | done hn => cases h' with
    | done _ => rfl
    | step h2 _ => rw [hn] at h2; cases h2
  | step hn _ ih => cases h' with
    | done h2 => rw [hn] at h2; cases h2
    | step h2 h3 => rw [hn] at h2; cases h2; exact ih h3

theorem ResolvesTo.end_none {al : String → Option String} {n r : String}
    (h : ResolvesTo al n r) : al r = none := by
  induction h with
  | done hn => exact hn
  | step _ _ ih => exact ih

theorem isPath_append {al : String → Option String} {xs : List String} {a b : String}
    (h : IsPath al (xs ++ [a])) (hab : al a = some b) : IsPath al (xs ++ [a] ++ [b]) := by
  induction xs with
  | nil => simp [IsPath, hab]
  | cons x xs ih =>
    cases xs with
    | nil => simp only [List.cons_append, List.nil_append, IsPath] at h ⊢; simp [h, hab]
    | cons y ys =>
      simp only [List.cons_append, IsPath] at h ih ⊢
      exact ⟨h.1, ih h.2⟩

/-- Names on a path that loops back never resolve. -/
theorem cyclic_of_loop {al : String → Option String} {pre : List String} {last : String}
    (hp : IsPath al (pre ++ [last])) (hm : last ∈ pre) :
    ∀ r n, ResolvesTo al n r → n ∈ pre → False := by
  -- every name of the path has a successor on the path
  have hsucc : ∀ n ∈ pre, ∃ m ∈ pre, al n = some m := by
    have : ∀ (xs : List String), IsPath al (xs ++ [last]) → (∀ x ∈ xs, x ∈ pre) →
        ∀ n ∈ xs, ∃ m ∈ pre, al n = some m := by
      intro xs
      induction xs with
      | nil => intro _ _ n hn; simp at hn
      | cons x xs ih =>
        intro hpath hsub n hn
        cases xs with
        | nil =>
          simp only [List.cons_append, List.nil_append, IsPath] at hpath
          simp only [List.mem_singleton] at hn
          subst hn
          exact ⟨last, hm, hpath.1⟩
        | cons y ys =>
          simp only [List.cons_append, IsPath] at hpath
          rcases List.mem_cons.mp hn with h | h
          · subst h
            exact ⟨y, hsub y (by simp), hpath.1⟩
          · exact ih (by simpa using hpath.2) (fun z hz => hsub z (List.mem_cons_of_mem _ hz)) n h
    exact this pre hp (fun _ h => h)
  intro r n hr
  induction hr with
  | done hn =>
    intro hmem
    obtain ⟨m, _, h⟩ := hsucc _ hmem
    rw [hn] at h; cases h
  | step hn _ ih =>
    intro hmem
    obtain ⟨m, hm', h⟩ := hsucc _ hmem
    rw [hn] at h; cases h
    exact ih hm'

theorem resolveLoop_spec (al : Dict String) (seen : List String) (name : String)
    (hp : IsPath al.get? (seen ++ [name])) :
    (∃ r, resolveLoop al seen name = .ok r ∧ ResolvesTo al.get? name r) ∨
    (∃ pre last, resolveLoop al seen name = .error (.cyclicCalendarAlias (pre ++ [last])) ∧
      last ∈ pre ∧ IsPath al.get? (pre ++ [last]) ∧ (seen ++ [name]) <+: pre) := by
  fun_induction resolveLoop al seen name with
  | case1 seen name h => exact .inl ⟨name, rfl, .done h⟩
  | case2 seen name next h hmem =>
    refine .inr ⟨seen ++ [name], next, rfl, hmem, isPath_append hp h, List.prefix_rfl⟩
  | case3 seen name next h hmem ih =>
    rcases ih (isPath_append hp h) with ⟨r, h1, h2⟩ | ⟨pre, last, h1, h2, h3, h4⟩
    · exact .inl ⟨r, h1, .step h h2⟩
    · exact .inr ⟨pre, last, h1, h2, h3, (List.prefix_append _ _).trans h4⟩

theorem resolveAlias_cases (s : Registry) (name : String) :
    (∃ r, s.resolveAlias name = .ok r ∧ ResolvesTo s.aliases.get? name r) ∨
    (∃ rep, s.resolveAlias name = .error (.cyclicCalendarAlias rep) ∧
      IsCycleReport s.aliases.get? name rep ∧ Cyclic s.aliases.get? name) := by
  rcases resolveLoop_spec s.aliases [] name (by simp [IsPath]) with
    ⟨r, h1, h2⟩ | ⟨pre, last, h1, h2, h3, h4⟩
  · exact .inl ⟨r, h1, h2⟩
  · have hmem : name ∈ pre := h4.subset (by simp)
    refine .inr ⟨pre ++ [last], h1, ⟨pre, last, rfl, ?_, h2, h3⟩, ?_⟩
    · obtain ⟨t, ht⟩ := h4
      rw [← ht]; rfl
    · rintro ⟨r, hr⟩
      exact cyclic_of_loop h3 h2 r name hr hmem

theorem resolveAlias_ok_iff (s : Registry) (name r : String) :
    s.resolveAlias name = .ok r ↔ ResolvesTo s.aliases.get? name r := by
  rcases resolveAlias_cases s name with ⟨r', h1, h2⟩ | ⟨rep, h1, _, h3⟩
  · rw [h1]
    constructor
    · intro h; cases h; exact h2
    · intro h; rw [ResolvesTo.unique h2 h]
  · rw [h1]
    constructor
    · intro h; cases h
    · intro h; exact absurd ⟨r, h⟩ h3

theorem resolveAlias_error_iff (s : Registry) (name : String) :
    (∃ e, s.resolveAlias name = .error e) ↔ Cyclic s.aliases.get? name := by
  rcases resolveAlias_cases s name with ⟨r', h1, h2⟩ | ⟨rep, h1, _, h3⟩
  · rw [h1]
    constructor
    · rintro ⟨e, h⟩; cases h
    · intro h; exact absurd ⟨r', h2⟩ h
  · rw [h1]; exact ⟨fun _ => h3, fun _ => ⟨_, rfl⟩⟩

end TC
