import Verif.Props.CacheThreads

/-!
# C72: a calendar's caches when calls are interrupted

The steps are those of `Model/CacheThreads.lean`; here the calls come one after the other, and each may be given up
after any number of its steps.
-/

namespace TC.Props
open TC TC.Spec
open TC.CacheThreads (Pc Call advance LazyPc lazyAdvance)

/-- The cache and the place of a call of `minute_to_session_label` after `k` steps. -/
def labelSteps (c : Cal) (t : Int) (dir : String) : Nat → Cal.LabelCache × Pc → Cal.LabelCache × Pc
  | 0, p => p
  | k + 1, p => labelSteps c t dir k (advance c p.1 ⟨t, dir, p.2⟩)

/-- The caches that calls, each given up after some of its steps or finished, can leave. -/
inductive LabelHistory (c : Cal) : Cal.LabelCache → Prop
  | start : LabelHistory c none
  | call {cache : Cal.LabelCache} (t : Int) (dir : String) (k : Nat) : LabelHistory c cache →
      LabelHistory c (labelSteps c t dir k (cache, (Call.begin t dir).pc)).1

theorem labelSteps_ok {c : Cal} {t : Int} {dir : String} {k : Nat} {p : Cal.LabelCache × Pc} (h : CacheOk c p.1)
    (hs : ∀ l, p.2 = .store l → c.sessionLabelFresh t "next" = .ok l) : CacheOk c (labelSteps c t dir k p).1 := by
  induction k generalizing p with
  | zero => exact h
  | succ k ih =>
    obtain ⟨cache, pc⟩ := p
    cases pc with
    | look =>
      refine ih (p := advance c cache ⟨t, dir, .look⟩) h ?_
      intro l hl
      simp only [advance] at hl
      split at hl <;> cases hl
    | take =>
      refine ih (p := advance c cache ⟨t, dir, .take⟩) ?_ ?_
      · simp only [advance]
        split <;> exact h
      · intro l hl
        simp only [advance] at hl
        split at hl <;> cases hl
    | compute =>
      refine ih (p := advance c cache ⟨t, dir, .compute⟩) ?_ ?_
      · simp only [advance]
        split
        · split <;> exact h
        · exact h
      · intro l hl
        simp only [advance] at hl
        split at hl
        · rw [fresh_next]
          split at hl
          · cases hl
          · rename_i e
            cases hl
            exact e
        · cases hl
    | store l =>
      refine ih (p := advance c cache ⟨t, dir, .store l⟩) ?_ ?_
      · intro t' l' h'
        cases h'
        exact hs l rfl
      · intro l hl
        cases hl
    | done r => exact ih (p := (cache, .done r)) h (by intro l hl; cases hl)

/-- **C72.**  After any calls of `minute_to_session_label`, each finished or interrupted anywhere, every call
answers as on a fresh calendar. -/
theorem c72_labels {c : Cal} {cache : Cal.LabelCache} (h : LabelHistory c cache) (t : Int) (dir : String) :
    (c.minuteToSessionLabel cache t dir).2 = c.sessionLabelFresh t dir := by
  have key : CacheOk c cache := by
    induction h with
    | start => intro t l h; cases h
    | call t dir k _ ih =>
      refine labelSteps_ok ih ?_
      intro l hl
      simp only [Call.begin] at hl
      split at hl <;> cases hl
  exact (label_step c cache key t dir).1

/-- A call given up before it stores, a call that is finished, and one given up between its two looks at the
cache. -/
example : LabelHistory (Cal.ofSessions demoSessions) (some (MINUTE, 0)) :=
  .call (cache := some (MINUTE, 0)) MINUTE "next" 1
    (.call (cache := none) MINUTE "next" 3 (.call (cache := none) (5 * MINUTE) "next" 2 .start))

/-- The state and the place of a read of a lazy value after `k` steps. -/
def lazySteps {κ ν : Type} [DecidableEq κ] (get : κ → List κ → Py ν) (key : κ) :
    Nat → ((κ → Option ν) × List κ) × LazyPc ν → ((κ → Option ν) × List κ) × LazyPc ν
  | 0, p => p
  | k + 1, p => lazySteps get key k (lazyAdvance get p.1 key p.2)

/-- The states that reads of lazy values, each given up after some of its steps or finished, can leave. -/
inductive LazyHistory {κ ν : Type} [DecidableEq κ] (get : κ → List κ → Py ν) (a : (κ → Option ν) × List κ) :
    (κ → Option ν) × List κ → Prop
  | refl : LazyHistory get a a
  | read {b : (κ → Option ν) × List κ} (key : κ) (k : Nat) : LazyHistory get a b →
      LazyHistory get a (lazySteps get key k (b, .look)).1

variable {κ ν : Type} [DecidableEq κ] {get : κ → List κ → Py ν}

theorem lazySteps_inv {key : κ} {k : Nat} {p : ((κ → Option ν) × List κ) × LazyPc ν}
    (hc : ∀ j v, p.1.1 j = some v → ∃ log, get j log = .ok v)
    (hp : match p.2 with
      | .look => True
      | .compute => p.1.1 key = none
      | .store v => p.1.1 key = none ∧ ∃ log, get key log = .ok v
      | .done r => ∃ log, r = get key log) :
    (∀ j v, (lazySteps get key k p).1.1 j = some v → ∃ log, get j log = .ok v) ∧
    (∀ j v, p.1.1 j = some v → (lazySteps get key k p).1.1 j = some v) ∧
    (match (lazySteps get key k p).2 with
      | .done r => ∃ log, r = get key log
      | _ => True) := by
  induction k generalizing p with
  | zero =>
    refine ⟨hc, fun _ _ h => h, ?_⟩
    obtain ⟨s, pc⟩ := p
    cases pc <;> first | trivial | exact hp
  | succ k ih =>
    obtain ⟨s, pc⟩ := p
    cases pc with
    | look =>
      refine ih (p := lazyAdvance get s key .look) hc ?_
      simp only [lazyAdvance]
      split <;> rename_i e
      · trivial
      · split at e
        · cases e
        · assumption
      · split at e <;> cases e
      · split at e
        · rename_i v hv
          cases e
          obtain ⟨log, hl⟩ := hc key v hv
          exact ⟨log, hl.symm⟩
        · cases e
    | compute =>
      refine ih (p := lazyAdvance get s key .compute) hc ?_
      simp only [lazyAdvance]
      cases hg : get key s.2 with
      | error e => exact ⟨s.2, hg.symm⟩
      | ok v => exact ⟨hp, s.2, hg⟩
    | store v =>
      have := ih (p := lazyAdvance get s key (.store v)) ?_ ?_
      · refine ⟨this.1, fun j w hj => this.2.1 j w ?_, this.2.2⟩
        simp only [lazyAdvance]
        split
        · rename_i e
          rw [e] at hj
          rw [show s.1 key = none from hp.1] at hj
          cases hj
        · exact hj
      · intro j w hj
        simp only [lazyAdvance] at hj
        split at hj
        · rename_i e
          cases hj
          rw [e]
          exact hp.2
        · exact hc j w hj
      · obtain ⟨log, hl⟩ := hp.2
        exact ⟨log, hl.symm⟩
    | done r => exact ih (p := (s, .done r)) hc hp

theorem lazyHistory_ok {a b : (κ → Option ν) × List κ} (h : LazyHistory get a b)
    (ha : ∀ j v, a.1 j = some v → ∃ log, get j log = .ok v) :
    (∀ j v, b.1 j = some v → ∃ log, get j log = .ok v) ∧ ∀ j v, a.1 j = some v → b.1 j = some v := by
  induction h with
  | refl => exact ⟨ha, fun _ _ h => h⟩
  | read key k _ ih =>
    have := lazySteps_inv (get := get) (key := key) (k := k) (p := (_, .look)) ih.1 trivial
    exact ⟨this.1, fun j v hj => this.2.1 j v (ih.2 j v hj)⟩

/-- **C72.**  Lazy values read one after the other, each read finished or interrupted anywhere: a read that ends
gives the result of a run of the getter for its own key, and a value that a read has given is given by every later
one, without another run of the getter. -/
theorem c72_lazyval {b : (κ → Option ν) × List κ} (h : LazyHistory get (fun _ => none, []) b) {key : κ} {k : Nat}
    {b' : (κ → Option ν) × List κ} {r : Py ν} (hr : lazySteps get key k (b, .look) = (b', .done r)) :
    (∃ log, r = get key log) ∧
    ∀ v, r = .ok v → ∀ b'', LazyHistory get b' b'' → lazySteps get key 1 (b'', .look) = (b'', .done (.ok v)) := by
  have hb := (lazyHistory_ok h (by intro j v hj; cases hj)).1
  have inv := lazySteps_inv (get := get) (key := key) (k := k) (p := (b, .look)) hb trivial
  rw [hr] at inv
  refine ⟨inv.2.2, fun v hv b'' hb'' => ?_⟩
  have hin : b'.1 key = some v := by
    subst hv
    have key' : ∀ (k : Nat) (p q : ((κ → Option ν) × List κ) × LazyPc ν), lazySteps get key k p = q →
        (∀ v, p.2 = .done (.ok v) → p.1.1 key = some v) → ∀ v, q.2 = .done (.ok v) → q.1.1 key = some v := by
      intro k
      induction k with
      | zero => rintro p q rfl hp; exact hp
      | succ k ih =>
        intro p q hq hp
        refine ih _ q hq ?_
        obtain ⟨s, pc⟩ := p
        cases pc with
        | look =>
          intro v hv
          simp only [lazyAdvance] at hv ⊢
          split at hv
          · rename_i e; cases hv; exact e
          · cases hv
        | compute =>
          intro v hv
          simp only [lazyAdvance] at hv
          split at hv <;> cases hv
        | store w =>
          intro v hv
          simp only [lazyAdvance] at hv ⊢
          cases hv
          simp
        | done r => exact hp
    exact key' k _ _ hr (by intro v hv; cases hv) v rfl
  have := (lazyHistory_ok hb'' inv.1).2 key v hin
  simp only [lazySteps, lazyAdvance, this]

/-- Two reads are given up, the second after the getter has run; the third gives the value of the second run, and
this is what stays. -/
example : ∃ b, LazyHistory (fun (k : Nat) log => .ok (k, log.length)) (fun _ => none, []) b ∧
    (lazySteps (fun (k : Nat) log => .ok (k, log.length)) 4 3 (b, .look)).1.2 = [4, 4] ∧
    (lazySteps (fun (k : Nat) log => .ok (k, log.length)) 4 3 (b, .look)).1.1 4 = some (4, 1) :=
  ⟨_, .read 4 2 (.read 4 1 .refl), by decide +kernel, by decide +kernel⟩

end TC.Props
