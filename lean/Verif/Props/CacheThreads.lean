import Verif.Model.CacheThreads
import Verif.Props.Queries

/-!
# C70: a calendar's caches under concurrent calls
-/

namespace TC.Props
open TC TC.Spec
open TC.CacheThreads (Pc Call Sys Reach advance LazyPc LazySys LazyReach lazyAdvance)

variable {ss : List Session}

/-- What "next" computes. -/
theorem fresh_next (c : Cal) (t : Int) :
    c.sessionLabelFresh t "next" = pyIndex c.sessions (searchLeft c.closes t) := by
  unfold Cal.sessionLabelFresh Cal.minuteToSessionLabel
  dsimp only
  simp only [if_true]
  cases pyIndex c.sessions (searchLeft c.closes t) <;> rfl

/-- **C70.**  A call of `minute_to_session_label` alone does what it does in the model with one step. -/
theorem c70_alone (c : Cal) (cache : Cal.LabelCache) (t : Int) (dir : String) :
    let step := fun p : Cal.LabelCache × Pc => advance c p.1 ⟨t, dir, p.2⟩
    step (step (step (cache, (Call.begin t dir).pc))) =
      ((c.minuteToSessionLabel cache t dir).1, .done (c.minuteToSessionLabel cache t dir).2) := by
  intro step
  by_cases hd : dir = "next"
  · subst hd
    have hf := fresh_next c t
    unfold Cal.minuteToSessionLabel
    rcases cache with _ | ⟨t', l⟩
    · simp only [step, Call.begin, advance, if_true, Option.map_none, reduceCtorEq, if_false]
      cases pyIndex c.sessions (searchLeft c.closes t) <;> rfl
    · by_cases ht : t' = t
      · subst ht
        simp [step, Call.begin, advance]
      · have ht' : ¬ some t' = some t := fun e => ht (Option.some.inj e)
        simp only [step, Call.begin, advance, if_true, Option.map_some, if_neg ht, if_neg ht']
        cases pyIndex c.sessions (searchLeft c.closes t) <;> rfl
  · have e : c.minuteToSessionLabel cache t dir = (cache, c.sessionLabelFresh t dir) := by
      unfold Cal.sessionLabelFresh Cal.minuteToSessionLabel
      simp only [hd, if_false]
      cases pyIndex c.sessions (searchLeft c.closes t) with
      | error e => rfl
      | ok l =>
        dsimp only
        split
        · rfl
        · split <;> rfl
    rw [e]
    simp only [step, Call.begin, advance, hd, if_false]

/-- Each cached label is that of its minute, and each call is where its own minute brings it, or about to take
what is cached. -/
structure LabelsOk (c : Cal) (b : Sys) : Prop where
  cache : ∀ t l, b.cache = some (t, l) →
    c.sessionLabelFresh t "next" = .ok l ∧ ∃ k ∈ b.calls, k.dt = t ∧ k.direction = "next"
  calls : ∀ k ∈ b.calls, match k.pc with
    | .look => k.direction = "next"
    | .take => k.direction = "next" ∧ b.cache ≠ none
    | .compute => True
    | .store l => k.direction = "next" ∧ c.sessionLabelFresh k.dt "next" = .ok l
    | .done r => r = c.sessionLabelFresh k.dt k.direction ∨ k.direction = "next" ∧
        ∃ k' ∈ b.calls, k'.direction = "next" ∧ r = c.sessionLabelFresh k'.dt "next" ∧ ∃ l, r = .ok l

theorem set_call {l : List Call} {i : Nat} {k : Call} (hi : l[i]? = some k) (p : Pc) {k' : Call} (hk : k' ∈ l) :
    ∃ m ∈ l.set i { k with pc := p }, m.dt = k'.dt ∧ m.direction = k'.direction := by
  obtain ⟨j, hj⟩ := List.mem_iff_getElem?.1 hk
  have hlt := (List.getElem?_eq_some_iff.1 hi).1
  by_cases h : i = j
  · subst h
    rw [hi] at hj
    cases hj
    exact ⟨_, List.mem_set hlt _, rfl, rfl⟩
  · exact ⟨k', List.mem_iff_getElem?.2 ⟨j, by rw [List.getElem?_set_ne h]; exact hj⟩, rfl, rfl⟩

theorem labelsOk_reach {c : Cal} {b : Sys} (h : Reach c ⟨none, []⟩ b) : LabelsOk c b := by
  induction h with
  | refl => exact ⟨fun _ _ h => (by cases h), by simp⟩
  | @call b dt dir _ ih =>
    refine ⟨fun t l hc => ?_, fun k hk => ?_⟩
    · obtain ⟨h1, k, hk, h2⟩ := ih.cache t l hc
      exact ⟨h1, k, List.mem_append_left _ hk, h2⟩
    · rcases List.mem_append.1 hk with hk | hk
      · have := ih.calls k hk
        revert this
        cases k.pc with
        | look => exact id
        | take => exact id
        | compute => exact id
        | store l => exact id
        | done r =>
          exact Or.imp id fun ⟨h1, k', hk', h2⟩ => ⟨h1, k', List.mem_append_left _ hk', h2⟩
      · simp only [List.mem_singleton] at hk
        subst hk
        unfold Call.begin
        dsimp only
        by_cases hd : dir = "next"
        · simp only [hd, if_true]
        · simp only [hd, if_false]
  | @run b i k _ hi ih =>
    have hk := ih.calls k (List.mem_iff_getElem?.2 ⟨i, hi⟩)
    have lift : ∀ p, ∀ k' ∈ b.calls, ∃ m ∈ b.calls.set i { k with pc := p }, m.dt = k'.dt ∧
        m.direction = k'.direction := fun p k' hk' => set_call hi p hk'
    have self : ∀ p, { k with pc := p } ∈ b.calls.set i { k with pc := p } := fun p =>
      List.mem_set (List.getElem?_eq_some_iff.1 hi).1 _
    -- the other calls, once the cache is known not to become empty
    have others : ∀ (cache' : Cal.LabelCache) (p : Pc), (b.cache ≠ none → cache' ≠ none) → ∀ m ∈ b.calls,
        match m.pc with
        | .look => m.direction = "next"
        | .take => m.direction = "next" ∧ cache' ≠ none
        | .compute => True
        | .store l => m.direction = "next" ∧ c.sessionLabelFresh m.dt "next" = .ok l
        | .done r => r = c.sessionLabelFresh m.dt m.direction ∨ m.direction = "next" ∧
            ∃ k' ∈ b.calls.set i { k with pc := p }, k'.direction = "next" ∧
              r = c.sessionLabelFresh k'.dt "next" ∧ ∃ l, r = .ok l := by
      intro cache' p hne m hm
      have := ih.calls m hm
      revert this
      cases m.pc with
      | look => exact id
      | take => exact fun h => ⟨h.1, hne h.2⟩
      | compute => exact id
      | store l => exact id
      | done r =>
        refine Or.imp id fun ⟨h1, k', hk', h2, h3⟩ => ?_
        obtain ⟨m', hm', e1, e2⟩ := lift p k' hk'
        exact ⟨h1, m', hm', by rw [e2, h2], by rw [e1]; exact h3.1, h3.2⟩
    have cacheSame : ∀ p, ∀ t l, b.cache = some (t, l) → c.sessionLabelFresh t "next" = .ok l ∧
        ∃ m ∈ b.calls.set i { k with pc := p }, m.dt = t ∧ m.direction = "next" := by
      intro p t l hc
      obtain ⟨h1, k', hk', h2, h3⟩ := ih.cache t l hc
      obtain ⟨m, hm, e1, e2⟩ := lift p k' hk'
      exact ⟨h1, m, hm, by rw [e1, h2], by rw [e2, h3]⟩
    obtain ⟨dt, dir, pc⟩ := k
    cases pc with
    | look =>
      refine ⟨cacheSame _, fun m hm => ?_⟩
      rcases List.mem_or_eq_of_mem_set hm with hm | rfl
      · exact others b.cache _ id m hm
      · simp only [advance]
        by_cases hc : b.cache.map Prod.fst = some dt
        · simp only [hc, if_true]
          exact ⟨hk, fun e => by rw [e] at hc; cases hc⟩
        · simp only [hc, if_false]
    | take =>
      obtain ⟨hd, hne⟩ := hk
      dsimp only at hd
      subst hd
      cases hc : b.cache with
      | none => exact absurd hc hne
      | some x =>
        obtain ⟨t, l⟩ := x
        have he : advance c (some (t, l)) ⟨dt, "next", .take⟩ = (some (t, l), .done (.ok l)) := rfl
        simp only [he]
        obtain ⟨h1, m', hm', h2, h3⟩ := cacheSame (.done (.ok l)) t l hc
        refine ⟨fun t' l' e => ?_, fun m hm => ?_⟩
        · cases e
          exact ⟨h1, m', hm', h2, h3⟩
        · rcases List.mem_or_eq_of_mem_set hm with hm | rfl
          · exact others (some (t, l)) _ (fun _ => by simp) m hm
          · exact .inr ⟨rfl, m', hm', h3, by rw [h2, h1], l, rfl⟩
    | compute =>
      by_cases hd : dir = "next"
      · subst hd
        have hf := fresh_next c dt
        cases hp : pyIndex c.sessions (searchLeft c.closes dt) with
        | error e =>
          have he : advance c b.cache ⟨dt, "next", .compute⟩ = (b.cache, .done (.error e)) := by
            simp only [advance, if_true, hp]
          simp only [he]
          refine ⟨cacheSame _, fun m hm => ?_⟩
          rcases List.mem_or_eq_of_mem_set hm with hm | rfl
          · exact others b.cache _ id m hm
          · exact .inl (by rw [hf, hp])
        | ok l =>
          have he : advance c b.cache ⟨dt, "next", .compute⟩ = (b.cache, .store l) := by
            simp only [advance, if_true, hp]
          simp only [he]
          refine ⟨cacheSame _, fun m hm => ?_⟩
          rcases List.mem_or_eq_of_mem_set hm with hm | rfl
          · exact others b.cache _ id m hm
          · exact ⟨rfl, by rw [hf, hp]⟩
      · have he : advance c b.cache ⟨dt, dir, .compute⟩ = (b.cache, .done (c.sessionLabelFresh dt dir)) := by
          simp only [advance, hd, if_false]
        simp only [he]
        refine ⟨cacheSame _, fun m hm => ?_⟩
        rcases List.mem_or_eq_of_mem_set hm with hm | rfl
        · exact others b.cache _ id m hm
        · exact .inl rfl
    | store l =>
      obtain ⟨hd, hl⟩ := hk
      dsimp only at hd hl
      subst hd
      have he : advance c b.cache ⟨dt, "next", .store l⟩ = (some (dt, l), .done (.ok l)) := rfl
      simp only [he]
      refine ⟨fun t' l' e => ?_, fun m hm => ?_⟩
      · cases e
        exact ⟨hl, _, self (.done (.ok l)), rfl, rfl⟩
      · rcases List.mem_or_eq_of_mem_set hm with hm | rfl
        · exact others (some (dt, l)) _ (fun _ => by simp) m hm
        · exact .inl hl.symm
    | done r =>
      refine ⟨cacheSame _, fun m hm => ?_⟩
      rcases List.mem_or_eq_of_mem_set hm with hm | rfl
      · exact others b.cache _ id m hm
      · have := others b.cache (.done r) id _ (List.mem_iff_getElem?.2 ⟨i, hi⟩)
        exact this

/-- **C70.**  Calls of `minute_to_session_label` by any number of threads: one with a direction other than
"next" answers as on a fresh calendar; one with "next" answers as on a fresh calendar, or gives the label of a
minute that another call asked about. -/
theorem c70_labels {c : Cal} {b : Sys} (h : Reach c ⟨none, []⟩ b) {k : Call} (hk : k ∈ b.calls) {r : Py Int}
    (hr : k.pc = .done r) :
    r = c.sessionLabelFresh k.dt k.direction ∨ k.direction = "next" ∧
      ∃ k' ∈ b.calls, k'.direction = "next" ∧ r = c.sessionLabelFresh k'.dt "next" ∧ ∃ l, r = .ok l := by
  have := (labelsOk_reach h).calls k hk
  rw [hr] at this
  exact this

/-- **C70.**  So if all calls with "next" are about minutes of one session, or between it and the one before, all
answers are right. -/
theorem c70_one_session {c : Cal} {b : Sys} (h : Reach c ⟨none, []⟩ b) {l : Int}
    (hl : ∀ k ∈ b.calls, k.direction = "next" → c.sessionLabelFresh k.dt "next" = .ok l) {k : Call}
    (hk : k ∈ b.calls) {r : Py Int} (hr : k.pc = .done r) : r = c.sessionLabelFresh k.dt k.direction := by
  rcases c70_labels h hk hr with h' | ⟨h1, k', hk', h2, h3, -⟩
  · exact h'
  · rw [h3, h1, hl k hk h1, hl k' hk' h2]

/-- **C70** (finding).  The answer can be wrong: the cache is read twice, for the minute and for the label, and
another thread may replace it in between.  On every calendar with regular sessions, for minutes of two sessions
with different labels: two calls for the first and one for the second can interleave so that the second call
for the first minute returns the label of the other session. -/
theorem c70_wrong_label (hr : Regular ss) {s s' : Session} (hs : s ∈ ss) (hs' : s' ∈ ss)
    (hne : s.label ≠ s'.label) {t t' : Int} (ht : s.Spans t) (ht' : s'.Spans t') :
    ∃ b, Reach (Cal.ofSessions ss) ⟨none, []⟩ b ∧
      b.calls = [⟨t, "next", .done (.ok s.label)⟩, ⟨t, "next", .done (.ok s'.label)⟩,
        ⟨t', "next", .done (.ok s'.label)⟩] ∧
      (Cal.ofSessions ss).sessionLabelFresh t "next" ≠ .ok s'.label := by
  have f1 : (Cal.ofSessions ss).sessionLabelFresh t "next" = .ok s.label :=
    (c18_next hr t).1 s ((c18_next hr t).2.1 s hs ht)
  have f2 : (Cal.ofSessions ss).sessionLabelFresh t' "next" = .ok s'.label :=
    (c18_next hr t').1 s' ((c18_next hr t').2.1 s' hs' ht')
  have htt : t ≠ t' := by
    intro e
    rw [← e, f1] at f2
    exact hne (Except.ok.inj f2)
  have p1 := fresh_next (Cal.ofSessions ss) t
  have p2 := fresh_next (Cal.ofSessions ss) t'
  rw [f1] at p1
  rw [f2] at p2
  have adv : ∀ {b : Sys} (i : Nat) (k : Call), Reach (Cal.ofSessions ss) ⟨none, []⟩ b → b.calls[i]? = some k →
      ∀ cache' p, advance (Cal.ofSessions ss) b.cache k = (cache', p) →
      Reach (Cal.ofSessions ss) ⟨none, []⟩ ⟨cache', b.calls.set i { k with pc := p }⟩ := by
    intro b i k h hi cache' p e
    have := Reach.run i k h hi
    rw [e] at this
    exact this
  -- the first call
  have r1 := Reach.call t "next" (Reach.refl (c := Cal.ofSessions ss) (a := ⟨none, []⟩))
  have r2 := adv 0 ⟨t, "next", .look⟩ r1 rfl none .compute rfl
  have r3 := adv 0 ⟨t, "next", .compute⟩ r2 rfl none (.store s.label) (by simp only [advance, if_true, ← p1])
  have r4 := adv 0 ⟨t, "next", .store s.label⟩ r3 rfl (some (t, s.label)) (.done (.ok s.label)) rfl
  -- the second finds its minute
  have r5 := Reach.call t "next" r4
  have r6 := adv 1 ⟨t, "next", .look⟩ r5 rfl (some (t, s.label)) .take (by simp [advance])
  -- the third replaces the cache
  have r7 := Reach.call t' "next" r6
  have r8 := adv 2 ⟨t', "next", .look⟩ r7 rfl (some (t, s.label)) .compute (by simp [advance, htt])
  have r9 := adv 2 ⟨t', "next", .compute⟩ r8 rfl (some (t, s.label)) (.store s'.label)
    (by simp only [advance, if_true, ← p2])
  have r10 := adv 2 ⟨t', "next", .store s'.label⟩ r9 rfl (some (t', s'.label)) (.done (.ok s'.label)) rfl
  -- the second takes it
  have r11 := adv 1 ⟨t, "next", .take⟩ r10 rfl (some (t', s'.label)) (.done (.ok s'.label)) rfl
  exact ⟨_, r11, rfl, by rw [f1]; intro e; exact hne (Except.ok.inj e)⟩

/-- Two sessions of the calendar of the examples. -/
example : Regular demoSessions ∧ ∃ s ∈ demoSessions, ∃ s' ∈ demoSessions, s.label ≠ s'.label ∧ s.Spans s.open ∧
    s'.Spans s'.open := by
  refine ⟨demo_regular, ?_⟩
  unfold Session.Spans
  decide +kernel

/-! ### `lazyval` -/

section
variable {κ ν : Type} [DecidableEq κ] {get : κ → List κ → Py ν}

theorem lazy_inv {b : LazySys κ ν} (h : LazyReach get LazySys.start b) :
    (∀ k p, (k, p) ∈ b.reads → match p with
      | .look => True
      | .compute => True
      | .store v => ∃ log, get k log = .ok v
      | .done r => ∃ log, r = get k log) ∧ ∀ k v, b.state.1 k = some v → ∃ log, get k log = .ok v := by
  induction h with
  | refl => exact ⟨by simp [LazySys.start], fun _ _ h => (by cases h)⟩
  | call key _ ih =>
    refine ⟨fun k p hk => ?_, ih.2⟩
    rcases List.mem_append.1 hk with hk | hk
    · exact ih.1 k p hk
    · simp only [List.mem_singleton, Prod.mk.injEq] at hk
      rw [hk.2]
      trivial
  | @run b i key p _ hi ih =>
    have hp := ih.1 key p (List.mem_iff_getElem?.2 ⟨i, hi⟩)
    constructor
    · intro k q hq
      rcases List.mem_or_eq_of_mem_set hq with hq | hq
      · exact ih.1 k q hq
      · simp only [Prod.mk.injEq] at hq
        obtain ⟨rfl, rfl⟩ := hq
        cases p with
        | look =>
          simp only [lazyAdvance]
          cases hc : b.state.1 k with
          | none => trivial
          | some v =>
            obtain ⟨log, hl⟩ := ih.2 k v hc
            exact ⟨log, hl.symm⟩
        | compute =>
          simp only [lazyAdvance]
          cases hg : get k b.state.2 with
          | error e => exact ⟨b.state.2, hg.symm⟩
          | ok v => exact ⟨b.state.2, hg⟩
        | store v =>
          obtain ⟨log, hl⟩ := hp
          exact ⟨log, hl.symm⟩
        | done r => exact hp
    · intro k v hk
      cases p with
      | look => exact ih.2 k v hk
      | compute => exact ih.2 k v hk
      | store w =>
        simp only [lazyAdvance] at hk
        split at hk
        · rename_i e
          subst e
          cases hk
          exact hp
        · exact ih.2 k v hk
      | done r => exact ih.2 k v hk

/-- **C70.**  Lazy values read by any number of threads: each read that finishes gives what some run of the
getter of its own key gave, never another key's value. -/
theorem c70_lazyval {b : LazySys κ ν} (h : LazyReach get LazySys.start b) {k : κ} {r : Py ν}
    (hk : (k, LazyPc.done r) ∈ b.reads) : ∃ log, r = get k log :=
  (lazy_inv h).1 k _ hk

/-- **C70.**  With a getter that gives the same on every run, as those of the calendars do, all threads get
this value, whatever the interleaving. -/
theorem c70_lazyval_same {g : κ → Py ν} {b : LazySys κ ν} (h : LazyReach (fun k _ => g k) LazySys.start b)
    {k : κ} {r : Py ν} (hk : (k, LazyPc.done r) ∈ b.reads) : r = g k :=
  (c70_lazyval h hk).elim fun _ e => e

/-- **C70.**  Once a value is cached and no read of its key is between its look at the cache and its end, the
value stays, and all later reads give this very object. -/
theorem c70_lazyval_settled {a b : LazySys κ ν} {k : κ} {v : ν} (hv : a.state.1 k = some v)
    (hq : ∀ p, (k, p) ∈ a.reads → p = .look ∨ ∃ r, p = .done r) (h : LazyReach get a b) :
    b.state.1 k = some v ∧
    ∀ (i : Nat) (r : Py ν), b.reads[i]? = some (k, .done r) → r = .ok v ∨ a.reads[i]? = some (k, .done r) := by
  suffices H : b.state.1 k = some v ∧ ∀ (i : Nat) (p : LazyPc ν), b.reads[i]? = some (k, p) →
      p = .look ∨ p = .done (.ok v) ∨ ∃ r, p = .done r ∧ a.reads[i]? = some (k, p) by
    refine ⟨H.1, fun i r hi => ?_⟩
    rcases H.2 i _ hi with e | e | ⟨_, _, e⟩
    · cases e
    · cases e
      exact .inl rfl
    · exact .inr e
  induction h with
  | refl =>
    refine ⟨hv, fun i p hi => ?_⟩
    rcases hq p (List.mem_iff_getElem?.2 ⟨i, hi⟩) with e | ⟨r, e⟩
    · exact .inl e
    · exact .inr (.inr ⟨r, e, hi⟩)
  | @call b key _ ih =>
    refine ⟨ih.1, fun i p hi => ?_⟩
    dsimp only at hi
    rw [List.getElem?_append] at hi
    split at hi
    · exact ih.2 i p hi
    · have := List.mem_iff_getElem?.2 ⟨_, hi⟩
      simp only [List.mem_singleton, Prod.mk.injEq] at this
      exact .inl this.2
  | @run b j key p _ hj ih =>
    have hlt := (List.getElem?_eq_some_iff.1 hj).1
    by_cases hk : key = k
    · subst hk
      rcases ih.2 j p hj with e | e | ⟨r, e, ha⟩
      · subst e
        have e : lazyAdvance get b.state key .look = (b.state, .done (.ok v)) := by simp only [lazyAdvance, ih.1]
        simp only [e]
        refine ⟨ih.1, fun i q hi => ?_⟩
        by_cases hij : j = i
        · subst hij
          rw [List.getElem?_set_self hlt] at hi
          cases hi
          exact .inr (.inl rfl)
        · rw [List.getElem?_set_ne hij] at hi
          exact ih.2 i q hi
      all_goals
        subst e
        simp only [lazyAdvance]
        refine ⟨ih.1, fun i q hi => ?_⟩
        by_cases hij : j = i
        · subst hij
          rw [List.getElem?_set_self hlt] at hi
          cases hi
          exact ih.2 j _ hj
        · rw [List.getElem?_set_ne hij] at hi
          exact ih.2 i q hi
    · constructor
      · cases p <;> simp only [lazyAdvance]
        case store => rw [if_neg (Ne.symm hk)]; exact ih.1
        all_goals exact ih.1
      · intro i q hi
        by_cases hij : j = i
        · subst hij
          dsimp only at hi
          rw [List.getElem?_set_self hlt] at hi
          cases hi
          exact absurd rfl hk
        · dsimp only at hi
          rw [List.getElem?_set_ne hij] at hi
          exact ih.2 i q hi

/-- **C70** (finding).  Two threads that read a lazy value for the first time may both run its getter, and each
gets the result of its own run: the value is then not one object for all. -/
theorem c70_lazyval_twice (get : κ → List κ → Py ν) (k : κ) {v w : ν} (hv : get k [] = .ok v)
    (hw : get k [k] = .ok w) :
    ∃ b, LazyReach get LazySys.start b ∧ b.reads = [(k, .done (.ok v)), (k, .done (.ok w))] ∧
      b.state.2 = [k, k] ∧ b.state.1 k = some w := by
  have adv : ∀ {b : LazySys κ ν} (i : Nat) (key : κ) (p : LazyPc ν), LazyReach get LazySys.start b →
      b.reads[i]? = some (key, p) → ∀ s' p', lazyAdvance get b.state key p = (s', p') →
      LazyReach get LazySys.start ⟨s', b.reads.set i (key, p')⟩ := by
    intro b i key p h hi s' p' e
    have := LazyReach.run i key p h hi
    rw [e] at this
    exact this
  have r1 := LazyReach.call k (LazyReach.call k (LazyReach.refl (get := get) (a := LazySys.start)))
  have r2 := adv 0 k .look r1 rfl _ .compute rfl
  have r3 := adv 1 k .look r2 rfl _ .compute rfl
  have r4 := adv 0 k .compute r3 rfl (fun _ => none, [k]) (.store v) (by simp [lazyAdvance, hv, LazySys.start])
  have r5 := adv 1 k .compute r4 rfl (fun _ => none, [k, k]) (.store w) (by simp [lazyAdvance, hw])
  have r6 := adv 0 k (.store v) r5 rfl _ _ rfl
  have r7 := adv 1 k (.store w) r6 rfl _ _ rfl
  exact ⟨_, r7, rfl, rfl, by simp⟩

end

example : (fun (_ : Nat) (log : List Nat) => (.ok log.length : Py Nat)) 0 [] = .ok 0 ∧
    (fun (_ : Nat) (log : List Nat) => (.ok log.length : Py Nat)) 0 [0] = .ok 1 := ⟨rfl, rfl⟩

/-- A settled state: the one that `c70_lazyval_twice` reaches, with a cached value and both reads finished. -/
example : ∃ b : LazySys Nat Nat, LazyReach (fun _ log => .ok log.length) LazySys.start b ∧
    b.state.1 0 = some 1 ∧ (∀ p, (0, p) ∈ b.reads → p = .look ∨ ∃ r, p = .done r) ∧
    (0, LazyPc.done (.ok 0)) ∈ b.reads := by
  obtain ⟨b, h, e, -, hv⟩ := c70_lazyval_twice (fun (_ : Nat) (log : List Nat) => (.ok log.length : Py Nat)) 0
    (v := 0) (w := 1) rfl rfl
  refine ⟨b, h, hv, ?_, by simp [e]⟩
  rw [e]
  intro p hp
  simp only [List.mem_cons, Prod.mk.injEq, true_and, List.not_mem_nil, or_false] at hp
  rcases hp with rfl | rfl <;> exact .inr ⟨_, rfl⟩

end TC.Props
