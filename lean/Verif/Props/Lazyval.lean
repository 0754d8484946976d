import Verif.Lemmas.Lazyval

/-!
# C42: `lazyval` computes once per instance and never mixes instances

Histories are arbitrary lists of reads, assignments, explicit deletions and ends of instances, on any
number of descriptors and instances (a key is a descriptor with an instance); getters may raise, behave
differently on every run, and read other lazy values, as long as none asks for its own value
(`Spec.Ranked`).
-/

namespace TC.Props
open Spec Lazyval

variable {κ ν : Type} [DecidableEq κ] {get : κ → List (κ × Py ν) → Getter κ ν} {limit : Nat}

/-- C42.  In any history in which its value is not deleted and its instance does not end, a getter
returns successfully at most once. -/
theorem c42_once (hr : Ranked get) (k : κ) (h : List (Op κ ν)) (ho : ∀ o ∈ h, ¬ Forgets k o) :
    (successes k (run get limit .empty h).1.runs).length ≤ 1 := by
  have := (run_tidy hr (limit := limit) ho .empty).1 (by simp [Tidy, State.empty, successes])
  rw [this]
  cases (run get limit State.empty h).1.cache k <;> simp

/-- C42.  After a read that returned `v` at the end of any history, and any further history in which
the value is not deleted and the instance does not end, a read returns `v` again and runs no getter. -/
theorem c42_same_value (hr : Ranked get) (k : κ) (h h' : List (Op κ ν)) (v : ν)
    (hv : (step get limit (run get limit .empty h).1 (.read k)).2 = .ok (some v))
    (ho : ∀ o ∈ h', ¬ Forgets k o) :
    let s := (run get limit .empty (h ++ [.read k] ++ h')).1
    step get limit s (.read k) = (s, .ok (some v)) := by
  have hk : (step get limit (run get limit .empty h).1 (.read k)).1.cache k = some v := by
    obtain ⟨rank, hr⟩ := hr
    have h2 := (read_grows hr limit k (run get limit .empty h).1).2 v
    unfold step at hv ⊢
    simp only at hv ⊢
    rw [← h2]
    cases hx : (read get limit k (run get limit .empty h).1).2 with
    | ok w => rw [hx] at hv; simpa [Except.map] using hv
    | error e => rw [hx] at hv; simp [Except.map] at hv
  have h3 := (run_tidy hr (limit := limit) ho _).2 v hk
  have e : (run get limit .empty (h ++ [.read k] ++ h')).1 =
      (run get limit (step get limit (run get limit .empty h).1 (.read k)).1 h').1 := by
    simp [run_append, run]
  rw [← e] at h3
  simp only [step, read_cached h3, Except.map]

/-- C42.  The value returned is that of the only successful run of the getter. -/
theorem c42_value_is_computed (hr : Ranked get) (k : κ) (h : List (Op κ ν))
    (ho : ∀ o ∈ h, ¬ Forgets k o) (v : ν)
    (hv : (step get limit (run get limit .empty h).1 (.read k)).2 = .ok (some v)) :
    successes k (step get limit (run get limit .empty h).1 (.read k)).1.runs = [v] := by
  have ht := (run_tidy hr (limit := limit) (h := h ++ [.read k]) (k := k)
    (by intro o ho'; rcases List.mem_append.1 ho' with h1 | h1
        · exact ho o h1
        · simp at h1; subst h1; simp [Forgets]) .empty).1
    (by simp [Tidy, State.empty, successes])
  have e : (run get limit .empty (h ++ [.read k])).1 =
      (step get limit (run get limit .empty h).1 (.read k)).1 := by simp [run_append, run]
  rw [e] at ht
  rw [ht]
  obtain ⟨rank, hr⟩ := hr
  have h2 := (read_grows hr limit k (run get limit .empty h).1).2 v
  have h4 : (read get limit k (run get limit .empty h).1).2 = .ok v := by
    cases hx : (read get limit k (run get limit .empty h).1).2 with
    | ok w => simp only [step] at hv; rw [hx] at hv; simpa [Except.map] using hv
    | error e => simp only [step] at hv; rw [hx] at hv; simp [Except.map] at hv
  simp [step, h2.1 h4]

/-- C42.  A read that raises leaves nothing remembered: the next read runs the getter again. -/
theorem c42_raising_not_cached (hr : Ranked get) (k : κ) (s : State κ ν) (e : PyErr) (hl : 0 < limit)
    (he : (step get limit s (.read k)).2 = .error e) :
    let s' := (step get limit s (.read k)).1
    ∃ new r, (step get limit s' (.read k)).1.runs = s'.runs ++ new ++ [(k, r)] := by
  obtain ⟨rank, hr⟩ := hr
  intro s'
  have hn : s'.cache k = none := by
    have h2 := (read_grows hr limit k s).2
    cases hx : s'.cache k with
    | none => rfl
    | some v =>
      have := (h2 v).2 hx
      simp only [step] at he
      rw [this] at he
      simp [Except.map] at he
  obtain ⟨n, rfl⟩ : ∃ n, limit = n + 1 := ⟨limit - 1, by omega⟩
  have hg : Grows (fun j => rank j < rank k) s' (runGetter (read get n) (get k s'.runs) s').1 := by
    refine runGetter_grows (fun j s hj => (read_grows hr n j s).1.mono ?_) (hr k s'.runs) s'
    rintro i (hi | rfl)
    · omega
    · exact hj
  obtain ⟨new, en, _⟩ := hg.runs
  unfold step Lazyval.read
  simp only [hn]
  cases hrun : runGetter (read get n) (get k s'.runs) s' with
  | mk s2 r =>
    rw [hrun] at en
    cases r with
    | ok v => exact ⟨new, .ok v, by simp only at en; simp [en]⟩
    | error e => exact ⟨new, .error e, by simp only at en; simp [en]⟩

/-- C42.  Assignments raise `AttributeError` and have no effect: without them a history has the same state at the end,
and its other operations the same outcomes. -/
theorem c42_assign (h : List (Op κ ν)) (s : State κ ν) :
    (∀ o r, (o, r) ∈ h.zip (run get limit s h).2 → IsAssignment o → r = .error .attributeError) ∧
    (run get limit s h).1 = (run get limit s (h.filter fun o => decide (¬ IsAssignment o))).1 ∧
    ((h.zip (run get limit s h).2).filter fun e => decide (¬ IsAssignment e.1)).map (·.2) =
      (run get limit s (h.filter fun o => decide (¬ IsAssignment o))).2 := by
  induction h generalizing s with
  | nil => exact ⟨fun _ _ h => absurd h List.not_mem_nil, rfl, rfl⟩
  | cons o os ih =>
    by_cases ha : IsAssignment o
    · have hs : step get limit s o = (s, .error .attributeError) := by
        cases o <;> first | rfl | exact ha.elim
      obtain ⟨i1, i2, i3⟩ := ih s
      simp only [run, hs, List.zip_cons_cons, List.mem_cons, Prod.mk.injEq]
      rw [List.filter_cons_of_neg (by simpa using ha), List.filter_cons_of_neg (by simpa using ha)]
      refine ⟨?_, i2, i3⟩
      rintro o' r (⟨rfl, rfl⟩ | hm) hk
      · rfl
      · exact i1 o' r hm hk
    · obtain ⟨i1, i2, i3⟩ := ih (step get limit s o).1
      rw [List.filter_cons_of_pos (by simpa using ha)]
      simp only [run, List.zip_cons_cons, List.mem_cons, Prod.mk.injEq]
      rw [List.filter_cons_of_pos (by simpa using ha), List.map_cons, i3]
      refine ⟨?_, i2, rfl⟩
      rintro o' r (⟨rfl, rfl⟩ | hm) hk
      · exact absurd hk ha
      · exact i1 o' r hm hk

/-- C42.  Deleting a remembered value makes the next read compute it again; deleting what is not
remembered raises `KeyError` and has no effect. -/
theorem c42_delete (k : κ) (s : State κ ν) (hl : 0 < limit) :
    (∀ s', step get limit s (.evict k) = (s', .ok none) →
      ∃ log r, (step get limit s' (.read k)).1.runs = log ++ [(k, r)]) ∧
    (∀ e, (step get limit s (.evict k)).2 = .error e → e = .keyError ∧
      (step get limit s (.evict k)).1 = s) := by
  obtain ⟨n, rfl⟩ : ∃ n, limit = n + 1 := ⟨limit - 1, by omega⟩
  constructor
  · intro s' h
    have hn : s'.cache k = none := by
      unfold step at h
      cases hk : s.cache k with
      | none => simp [hk] at h
      | some v => simp only [hk, Prod.mk.injEq] at h; rw [← h.1]; simp
    unfold step Lazyval.read
    simp only [hn]
    cases hrun : runGetter (read get n) (get k s'.runs) s' with
    | mk s2 r =>
      cases r with
      | ok v => exact ⟨s2.runs, .ok v, by simp⟩
      | error e => exact ⟨s2.runs, .error e, by simp⟩
  · intro e h
    unfold step at h ⊢
    cases hk : s.cache k with
    | none => simp only [hk] at h ⊢; exact ⟨by simpa [eq_comm] using h, trivial⟩
    | some v => simp [hk] at h

/-- C42.  Instances do not influence each other: if getters share no state, the outcomes of the
operations on `k` are those of the history without all other operations. -/
theorem c42_other_instances (hs : SelfContained get) (k : κ) (h : List (Op κ ν)) :
    ((h.zip (run get limit .empty h).2).filter fun e => decide (about e.1 = k)).map (·.2) =
      (run get limit .empty (h.filter fun o => decide (about o = k))).2 := by
  obtain ⟨f, hf⟩ := hs
  suffices H : ∀ s s' : State κ ν, s.cache k = s'.cache k →
      s.runs.filter (fun e => decide (e.1 = k)) = s'.runs.filter (fun e => decide (e.1 = k)) →
      ((h.zip (run get limit s h).2).filter fun e => decide (about e.1 = k)).map (·.2) =
      (run get limit s' (h.filter fun o => decide (about o = k))).2 from H _ _ rfl rfl
  have own : ∀ n (s s' : State κ ν), s.cache k = s'.cache k →
      s.runs.filter (fun e => decide (e.1 = k)) = s'.runs.filter (fun e => decide (e.1 = k)) →
      (read get n k s).2 = (read get n k s').2 ∧
      (read get n k s).1.cache k = (read get n k s').1.cache k ∧
      (read get n k s).1.runs.filter (fun e => decide (e.1 = k)) =
        (read get n k s').1.runs.filter (fun e => decide (e.1 = k)) := by
    intro n s s' h1 h2
    cases n with
    | zero => unfold Lazyval.read; rw [← h1]; cases h3 : s.cache k <;> simp [h1 ▸ h3, h2, h3]
    | succ n =>
      unfold Lazyval.read
      rw [← h1]
      cases h3 : s.cache k with
      | some v => simp [h1 ▸ h3, h2, h3]
      | none =>
        simp only [hf, h2, runGetter]
        cases f k (List.map (·.2) (List.filter (fun e => decide (e.1 = k)) s'.runs)) <;>
          simp [h1, h2]
  have other : ∀ n j (s : State κ ν), j ≠ k → (read get n j s).1.cache k = s.cache k ∧
      (read get n j s).1.runs.filter (fun e => decide (e.1 = k)) =
        s.runs.filter (fun e => decide (e.1 = k)) := by
    intro n j s hj
    cases n with
    | zero => unfold Lazyval.read; cases s.cache j <;> simp
    | succ n =>
      unfold Lazyval.read
      cases s.cache j with
      | some v => simp
      | none =>
        simp only [hf, runGetter]
        cases f j (List.map (·.2) (List.filter (fun e => decide (e.1 = j)) s.runs)) <;>
          simp [hj, hj.symm]
  induction h with
  | nil => intro s s' _ _; simp [run]
  | cons o os ih =>
    intro s s' h1 h2
    by_cases ho : about o = k
    · have key : (step get limit s o).2 = (step get limit s' o).2 ∧
          (step get limit s o).1.cache k = (step get limit s' o).1.cache k ∧
          (step get limit s o).1.runs.filter (fun e => decide (e.1 = k)) =
            (step get limit s' o).1.runs.filter (fun e => decide (e.1 = k)) := by
        cases o with
        | read j =>
          simp only [about] at ho; subst ho
          have := own limit s s' h1 h2
          simp only [step]
          exact ⟨by rw [this.1], this.2⟩
        | assign j v => exact ⟨rfl, h1, h2⟩
        | evict j =>
          simp only [about] at ho; subst ho
          have h4 := h1
          cases h3 : s.cache j <;> rw [h3] at h4 <;> simp [step, ← h4, h2, h3]
        | drop j =>
          simp only [about] at ho; subst ho
          simp [step, h2]
      have := ih _ _ key.2.1 key.2.2
      simp [run, ho, this, key.1]
    · have key : (step get limit s o).1.cache k = s.cache k ∧
          (step get limit s o).1.runs.filter (fun e => decide (e.1 = k)) =
            s.runs.filter (fun e => decide (e.1 = k)) := by
        cases o with
        | read j => exact other limit j s ho
        | assign j v => exact ⟨rfl, rfl⟩
        | evict j =>
          simp only [about] at ho
          have : ¬ k = j := fun e => ho e.symm
          cases h3 : s.cache j <;> simp [step, this, h3]
        | drop j =>
          simp only [about] at ho
          have : ¬ k = j := fun e => ho e.symm
          simp [step, this]
      have := ih _ s' (key.1.trans h1) (key.2.trans h2)
      simp [run, ho, this]

/-- Finding.  A getter that asks for its own value (key 0 does, on its first run, through its log) can
succeed twice, and the later result replaces the earlier one. -/
theorem c42_reentrant : ∃ get : Nat → List (Nat × Py Nat) → Getter Nat Nat,
    (run get 9 .empty [.read 0]).2 = [.ok (some 8)] ∧
    successes 0 (run get 9 .empty [.read 0]).1.runs = [7, 8] :=
  ⟨fun k log => if k = 1 then .done (.ok 0) else if log = [] then
      .read 1 fun _ => .read 0 fun _ => .done (.ok 8) else .done (.ok 7), by decide, by decide⟩

/-- A getter like those of `TradingCalendar`: key 1 is computed from key 0; key 2 raises the first
time. -/
def exampleGet (k : Nat) (log : List (Nat × Py Nat)) : Getter Nat Nat :=
  if k = 1 then .read 0 fun r => .done (r.map (· + 1))
  else if k = 2 ∧ ∀ e ∈ log, e.1 ≠ 2 then .done (.error .keyError) else .done (.ok (5 + log.length))

/-- The hypotheses of C42 hold of it, and a history shows all kinds of outcomes. -/
example : Ranked exampleGet ∧ (run exampleGet 9 .empty
    [.read 2, .read 1, .assign 1 3, .read 1, .read 2, .read 0, .evict 1, .read 1]).2 =
    [.error .keyError, .ok (some 7), .error .attributeError, .ok (some 7), .ok (some 8), .ok (some 6),
      .ok none, .ok (some 7)] := by
  refine ⟨⟨id, fun k log => ?_⟩, by decide⟩
  unfold exampleGet
  split
  · subst_vars; exact .read (by decide) fun _ => .done _
  · split <;> exact .done _

end TC.Props
