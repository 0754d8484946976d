import Verif.Spec.Lazyval

/-! # Lemmas about `lazyval` -/

namespace TC.Lazyval
open Spec

variable {κ ν : Type} [DecidableEq κ]

theorem successes_append (k : κ) (a b : List (κ × Py ν)) :
    successes k (a ++ b) = successes k a ++ successes k b := by
  simp [successes]

/-- From state `s` to state `s'`, values were added for keys satisfying `p` only, none was changed, and
each added value comes from the only successful run for its key. -/
structure Grows (p : κ → Prop) (s s' : State κ ν) : Prop where
  outside : ∀ j, ¬ p j → s'.cache j = s.cache j
  kept : ∀ j v, s.cache j = some v → s'.cache j = some v
  runs : ∃ new, s'.runs = s.runs ++ new ∧
    ∀ j, successes j new = if s.cache j = none then (s'.cache j).toList else []

theorem Grows.refl (p : κ → Prop) (s : State κ ν) : Grows p s s := by
  refine ⟨fun _ _ => rfl, fun _ _ h => h, [], by simp, fun j => ?_⟩
  by_cases h : s.cache j = none <;> simp [successes, h]

theorem Grows.trans {p : κ → Prop} {s s' s'' : State κ ν} (h : Grows p s s') (h' : Grows p s' s'') :
    Grows p s s'' := by
  obtain ⟨a1, a2, n1, e1, c1⟩ := h
  obtain ⟨b1, b2, n2, e2, c2⟩ := h'
  refine ⟨fun j hj => (b1 j hj).trans (a1 j hj), fun j v hv => b2 j v (a2 j v hv), n1 ++ n2, ?_, ?_⟩
  · rw [e2, e1, List.append_assoc]
  · intro j
    rw [successes_append, c1, c2]
    by_cases h : s.cache j = none
    · simp only [h, if_true]
      cases h' : s'.cache j with
      | none => simp
      | some v => simp [b2 j v h']
    · obtain ⟨v, hv⟩ := Option.ne_none_iff_exists'.1 h
      simp [h, a2 j v hv]

theorem Grows.mono {p q : κ → Prop} {s s' : State κ ν} (h : Grows p s s') (hpq : ∀ j, p j → q j) :
    Grows q s s' :=
  ⟨fun j hj => h.outside j fun hp => hj (hpq j hp), h.kept, h.runs⟩

theorem runGetter_grows {p : κ → Prop} {rd : κ → State κ ν → State κ ν × Py ν}
    (hrd : ∀ k s, p k → Grows p s (rd k s).1) {g : Getter κ ν} (hg : ReadsOnly p g) (s : State κ ν) :
    Grows p s (runGetter rd g s).1 := by
  induction hg generalizing s with
  | done r => exact Grows.refl p s
  | read hk _ ih => exact (hrd _ s hk).trans (ih _ _)

theorem read_cached {get : κ → List (κ × Py ν) → Getter κ ν} {n : Nat} {k : κ} {s : State κ ν} {v : ν}
    (h : s.cache k = some v) : read get n k s = (s, .ok v) := by
  cases n <;> simp [read, h]

theorem read_grows {get : κ → List (κ × Py ν) → Getter κ ν} {rank : κ → Nat}
    (hr : ∀ k log, ReadsOnly (fun j => rank j < rank k) (get k log)) (n : Nat) (k : κ) (s : State κ ν) :
    Grows (fun j => rank j < rank k ∨ j = k) s (read get n k s).1 ∧
    ∀ v, (read get n k s).2 = .ok v ↔ (read get n k s).1.cache k = some v := by
  induction n generalizing k s with
  | zero =>
    unfold read
    cases h : s.cache k with
    | none => simp [h, Grows.refl]
    | some v => simp [h, Grows.refl]
  | succ n ih =>
    cases h : s.cache k with
    | some v => rw [read_cached h]; simp [h, Grows.refl]
    | none =>
      have hg : Grows (fun j => rank j < rank k) s (runGetter (read get n) (get k s.runs) s).1 := by
        refine runGetter_grows (fun j s hj => (ih j s).1.mono ?_) (hr k s.runs) s
        rintro i (hi | rfl)
        · omega
        · exact hj
      have hk := (hg.outside k (by omega)).trans h
      unfold read
      simp only [h]
      cases hrun : runGetter (read get n) (get k s.runs) s with
      | mk s' r =>
      rw [hrun] at hg hk
      simp only at hg hk
      obtain ⟨new, e, hn⟩ := hg.runs
      cases r with
      | ok v =>
        simp only
        refine ⟨⟨?_, ?_, new ++ [(k, .ok v)], ?_, ?_⟩, by simp [eq_comm]⟩
        · intro j hj
          simp only [not_or] at hj
          simp only [hj.2, if_false]
          exact hg.outside j hj.1
        · intro j w hw
          have : j ≠ k := by rintro rfl; simp [h] at hw
          simp only [this, if_false]
          exact hg.kept j w hw
        · simp [e]
        · intro j
          rw [successes_append, hn]
          by_cases hj : j = k
          · subst hj
            simp [hk, h, successes, Except.toOption]
          · have : ¬ k = j := fun he => hj he.symm
            simp [hj, this, successes]
      | error e' =>
        simp only [reduceCtorEq, hk, implies_true, and_true]
        refine ⟨fun j hj => ?_, hg.kept, new ++ [(k, .error e')], ?_, ?_⟩
        · simp only [not_or] at hj
          exact hg.outside j hj.1
        · simp [e]
        · intro j
          rw [successes_append, hn]
          by_cases hj : k = j <;> simp [successes, hj, Except.toOption]

/-- A state in which each remembered value of `k` is that of the only successful run. -/
def Tidy (k : κ) (s : State κ ν) : Prop := successes k s.runs = (s.cache k).toList

theorem Grows.tidy {p : κ → Prop} {s s' : State κ ν} (h : Grows p s s') {k : κ} (ht : Tidy k s) :
    Tidy k s' := by
  obtain ⟨new, e, hn⟩ := h.runs
  unfold Tidy at *
  rw [e, successes_append, hn, ht]
  cases hk : s.cache k with
  | none => simp
  | some v => simp [h.kept k v hk]

theorem step_tidy {get : κ → List (κ × Py ν) → Getter κ ν} (hr : Ranked get) {limit : Nat}
    {s : State κ ν} {k : κ} {o : Op κ ν} (ho : ¬ Forgets k o) :
    (Tidy k s → Tidy k (step get limit s o).1) ∧
    ∀ v, s.cache k = some v → (step get limit s o).1.cache k = some v := by
  obtain ⟨rank, hr⟩ := hr
  cases o with
  | read j =>
    have := (read_grows hr limit j s).1
    exact ⟨fun h => this.tidy h, fun v h => this.kept k v h⟩
  | assign => exact ⟨id, fun _ => id⟩
  | evict j =>
    simp only [Forgets] at ho
    have hj : ¬ k = j := fun he => ho he.symm
    unfold step Tidy
    cases h : s.cache j <;> simp [hj, h]
  | drop j =>
    simp only [Forgets] at ho
    have hj : ¬ k = j := fun he => ho he.symm
    simp [step, Tidy, hj]

theorem run_tidy {get : κ → List (κ × Py ν) → Getter κ ν} (hr : Ranked get) {limit : Nat}
    {k : κ} {h : List (Op κ ν)} (ho : ∀ o ∈ h, ¬ Forgets k o) (s : State κ ν) :
    (Tidy k s → Tidy k (run get limit s h).1) ∧
    ∀ v, s.cache k = some v → (run get limit s h).1.cache k = some v := by
  induction h generalizing s with
  | nil => exact ⟨id, fun _ => id⟩
  | cons o os ih =>
    have h1 := step_tidy hr (limit := limit) (s := s) (ho o (by simp))
    have h2 := ih (fun o' ho' => ho o' (by simp [ho'])) (step get limit s o).1
    exact ⟨fun h => h2.1 (h1.1 h), fun v h => h2.2 v (h1.2 v h)⟩

theorem run_append (get : κ → List (κ × Py ν) → Getter κ ν) (limit : Nat) (a b : List (Op κ ν))
    (s : State κ ν) : run get limit s (a ++ b) =
      ((run get limit (run get limit s a).1 b).1,
        (run get limit s a).2 ++ (run get limit (run get limit s a).1 b).2) := by
  induction a generalizing s with
  | nil => simp [run]
  | cons o os ih => simp [run, ih]

end TC.Lazyval
