import Verif.Lemmas.Dispatcher

/-!
# Properties C01-C11: the calendar registry

`s.aliases.get?`, `s.calendars.get?`, `s.factories.get?` are the three dictionaries seen as
partial functions; `ResolvesTo`, `Cyclic`, `IsCycleReport` are in `Verif/Spec/Dispatcher.lean`.
-/

namespace TC.Props
open TC TC.Spec TC.Registry

/-- The alias table as a partial function. -/
abbrev alias (s : Registry) : String → Option String := s.aliases.get?

/-- `n` is known under some role. -/
def Known (s : Registry) (n : String) : Prop :=
  s.calendars.get? n ≠ none ∨ s.factories.get? n ≠ none ∨ s.aliases.get? n ≠ none

/-- Everything the registry records for one name. -/
def entry (s : Registry) (n : String) : Option CalObj × Option Factory × Option String :=
  (s.calendars.get? n, s.factories.get? n, s.aliases.get? n)

/-- The registry is the same apart from the ghost log of factory calls. -/
def SameTables (s s' : Registry) : Prop :=
  s'.calendars = s.calendars ∧ s'.factories = s.factories ∧ s'.aliases = s.aliases

theorem hasCalendar_iff (s : Registry) (n : String) : s.hasCalendar n = true ↔ Known s n := by
  simp [hasCalendar, Known, Dict.has, Option.isSome_iff_ne_none, or_assoc]

theorem hasCalendar_false_iff (s : Registry) (n : String) :
    s.hasCalendar n = false ↔ ¬ Known s n := by
  rw [← hasCalendar_iff]; simp

/-- A registry used in the examples: a cached calendar, a factory, an alias chain, a dangling
alias. -/
def demo : Registry :=
  { calendars := [("XNYS", 7)], factories := [("XNYS", 0), ("XLON", 1)],
    aliases := [("NYSE", "XNYS"), ("NASDAQ", "NYSE"), ("LSE", "XLON"), ("ghost", "nowhere")],
    calls := [0] }

/-- A registry with an alias cycle (not reachable by public calls, but the constructor takes any
alias table). -/
def demoCyclic : Registry :=
  { calendars := [], factories := [], calls := [],
    aliases := [("a", "b"), ("b", "c"), ("c", "b")] }

/-! ## C01 -/

/-- **C01** `resolve_alias` on every alias table: it returns `r` exactly when following the links
ends in `r`; it raises exactly when they never end, and then only `CyclicCalendarAlias` with a
genuine cycle report. -/
theorem c01_resolve_alias (s : Registry) (n : String) :
    (∀ r, s.resolveAlias n = .ok r ↔ ResolvesTo (alias s) n r) ∧
    (∀ e, s.resolveAlias n = .error e →
      ∃ report, e = .cyclicCalendarAlias report ∧ IsCycleReport (alias s) n report) ∧
    ((∃ e, s.resolveAlias n = .error e) ↔ Cyclic (alias s) n) := by
  refine ⟨fun r => resolveAlias_ok_iff s n r, fun e he => ?_, resolveAlias_error_iff s n⟩
  rcases resolveAlias_cases s n with ⟨r, h1, _⟩ | ⟨rep, h1, h2, _⟩
  · rw [h1] at he; cases he
  · rw [h1] at he; cases he; exact ⟨rep, rfl, h2⟩

example : ResolvesTo (alias demo) "NASDAQ" "XNYS" :=
  .step (m := "NYSE") (by decide) (.step (m := "XNYS") (by decide) (.done (by decide)))

example : ∃ e, demoCyclic.resolveAlias "a" = .error e := by
  refine ⟨.cyclicCalendarAlias ["a", "b", "c", "b"], ?_⟩
  simp [resolveAlias, demoCyclic, resolveLoop, Dict.get?]

/-! ## C02 -/

theorem resolvesTo_congr {al al' : String → Option String} (h : ∀ n, al n = al' n)
    {n r : String} (hr : ResolvesTo al n r) : ResolvesTo al' n r := by
  have : al = al' := funext h
  exact this ▸ hr

theorem acyclic_del {al : Dict String} {a : String}
    (h : ∀ n, ∃ r, ResolvesTo al.get? n r) (n : String) :
    ∃ r, ResolvesTo (al.del a).get? n r := by
  obtain ⟨r, hr⟩ := h n
  induction hr with
  | @done n hn => exact ⟨n, .done (by rw [Dict.get?_del]; simp [hn])⟩
  | @step n m r hn _ ih =>
    by_cases hna : n = a
    · exact ⟨n, .done (by rw [Dict.get?_del]; simp [hna])⟩
    · obtain ⟨r', hr'⟩ := ih
      exact ⟨r', .step (by rw [Dict.get?_del, if_neg hna]; exact hn) hr'⟩

theorem acyclic_set {al : Dict String} {a real : String} (ha : al.get? a = none)
    (h : ∀ n, ∃ r, ResolvesTo al.get? n r)
    (hok : ∃ r, ResolvesTo (al.set a real).get? a r) (n : String) :
    ∃ r, ResolvesTo (al.set a real).get? n r := by
  obtain ⟨r, hr⟩ := h n
  induction hr with
  | @done n hn =>
    by_cases hna : n = a
    · rw [hna]; exact hok
    · exact ⟨n, .done (by rw [Dict.get?_set, if_neg hna]; exact hn)⟩
  | @step n m r hn _ ih =>
    have hna : n ≠ a := by intro he; rw [he, ha] at hn; cases hn
    obtain ⟨r', hr'⟩ := ih
    exact ⟨r', .step (by rw [Dict.get?_set, if_neg hna]; exact hn) hr'⟩

theorem aliases_getCalendar (env : FactoryEnv) (s : Registry) (n : String) :
    (s.getCalendar env n).1.aliases = s.aliases := by
  unfold getCalendar
  split
  · rfl
  · split
    · rfl
    · split
      · rfl
      · split <;> rfl

theorem not_cyclic_iff {al : String → Option String} {n : String} :
    ¬ Cyclic al n ↔ ∃ r, ResolvesTo al n r := by
  simp [Cyclic]

theorem acyclic_registerAlias {s : Registry} (h : ∀ n, ∃ r, ResolvesTo (alias s) n r)
    (a real : String) (force : Bool) :
    ∀ n, ∃ r, ResolvesTo (alias (s.registerCalendarAlias a real force).1) n r := by
  have key : ∀ s : Registry, (∀ n, ∃ r, ResolvesTo (alias s) n r) →
      ∀ n, ∃ r, ResolvesTo (alias (if s.hasCalendar a then (s, (.error (.calendarNameCollision a) : Py Unit))
        else
          let s' := { s with aliases := s.aliases.set a real }
          match s'.resolveAlias a with
          | .error e => ({ s' with aliases := s'.aliases.del a }, .error e)
          | .ok _ => (s', .ok ())).1) n r := by
    intro s h
    split
    · exact h
    · rename_i hh
      have hh' : ¬ Known s a := by rw [← hasCalendar_iff]; simpa using hh
      have ha : s.aliases.get? a = none := by
        simp only [Known, not_or, Decidable.not_not] at hh'; exact hh'.2.2
      simp only
      split
      · rename_i e he
        have : (s.aliases.set a real).del a = s.aliases :=
          Dict.del_set_of_not_has (by simp [Dict.has, ha])
        simp only [this]
        exact h
      · rename_i r hr
        have := (resolveAlias_ok_iff _ _ _).mp hr
        exact acyclic_set ha h ⟨r, this⟩
  unfold registerCalendarAlias
  cases force with
  | false => exact key s h
  | true => exact key (s.deregister a) (fun n => acyclic_del h n)

theorem acyclic_step (env : FactoryEnv) {s : Registry}
    (h : ∀ n, ∃ r, ResolvesTo (alias s) n r) (op : Op) :
    ∀ n, ∃ r, ResolvesTo (alias (s.step env op).1) n r := by
  cases op with
  | get m =>
    simp only [step]
    have := aliases_getCalendar env s m
    unfold alias; rw [this]; exact h
  | has m => exact h
  | names => exact h
  | resolve m => exact h
  | registerCal m c f =>
    simp only [step, registerCalendar]
    cases f <;> simp only [Bool.false_eq_true, if_false, if_true] <;> split
    · exact h
    · exact h
    · exact fun n => acyclic_del h n
    · exact fun n => acyclic_del h n
  | registerType m c f =>
    simp only [step, registerCalendarType]
    cases f <;> simp only [Bool.false_eq_true, if_false, if_true] <;> split
    · exact h
    · exact h
    · exact fun n => acyclic_del h n
    · exact fun n => acyclic_del h n
  | registerAlias a r f => exact acyclic_registerAlias h a r f
  | deregister m => exact fun n => acyclic_del h n
  | clear => exact fun n => ⟨n, .done rfl⟩

/-- **C02** (invariant) No history of public calls makes any name's alias chain cyclic. -/
theorem c02_acyclic_history (env : FactoryEnv) (s : Registry)
    (h : ∀ n, ¬ Cyclic (alias s) n) (ops : List Op) :
    ∀ n, ¬ Cyclic (alias (s.run env ops)) n ∧
      ∃ r, (s.run env ops).resolveAlias n = .ok r := by
  have hrun : ∀ (ops : List Op) (s : Registry), (∀ n, ∃ r, ResolvesTo (alias s) n r) →
      ∀ n, ∃ r, ResolvesTo (alias (s.run env ops)) n r := by
    intro ops
    induction ops with
    | nil => intro s h; exact h
    | cons op ops ih => intro s h; exact ih _ (acyclic_step env h op)
  intro n
  obtain ⟨r, hr⟩ := hrun ops s (fun n => not_cyclic_iff.mp (h n)) n
  exact ⟨not_cyclic_iff.mpr ⟨r, hr⟩, r, (resolveAlias_ok_iff _ _ _).mpr hr⟩

/-- Following links in `al` from `n`, with `a` made terminal. -/
abbrev without (al : String → Option String) (a : String) : String → Option String :=
  fun n => if n = a then none else al n

theorem resolves_reroute {al : String → Option String} {a real : String} :
    ∀ {n r}, ResolvesTo (without al a) n r → r ≠ a →
      ResolvesTo (fun n => if n = a then some real else al n) n r := by
  intro n r h
  induction h with
  | @done n hn =>
    intro hra
    refine .done ?_
    simp only [hra, if_false] at hn ⊢
    simpa [without, hra] using hn
  | @step n m r hn _ ih =>
    intro hra
    have hna : n ≠ a := by intro he; simp [without, he] at hn
    exact .step (by simpa [without, hna] using hn) (ih hra)

theorem reroute_cyclic {al : String → Option String} {a real : String}
    (h : ResolvesTo (without al a) real a) :
    Cyclic (fun n => if n = a then some real else al n) a := by
  rintro ⟨r, hr⟩
  -- every name that reaches `a` in `without al a` cannot resolve in the new table
  have key : ∀ n x, ResolvesTo (fun n => if n = a then some real else al n) n x →
      ResolvesTo (without al a) n a → False := by
    intro n x hx
    induction hx with
    | @done n hn =>
      intro hna
      by_cases he : n = a
      · simp [he] at hn
      · simp only [he, if_false] at hn
        cases hna with
        | done _ => exact he rfl
        | step h2 _ => simp [without, he, hn] at h2
    | @step n m x hn _ ih =>
      intro hna
      by_cases he : n = a
      · simp only [he, if_true, Option.some.injEq] at hn
        exact ih (hn ▸ h)
      · simp only [he, if_false] at hn
        cases hna with
        | done _ => exact he rfl
        | step h2 h3 =>
          simp only [without, he, if_false] at h2
          rw [hn] at h2; cases h2
          exact ih h3
  exact key a r hr (.done (by simp [without]))

/-- **C02** (rejection) In an acyclic registry, `register_calendar_alias(a, real)` raises
`CyclicCalendarAlias` exactly when it gets past the collision check and following the existing
aliases (ignoring any old alias `a`) from `real` leads to `a`. -/
theorem c02_alias_rejected_iff (s : Registry) (h : ∀ n, ¬ Cyclic (alias s) n)
    (a real : String) (force : Bool) :
    (∃ report, (s.registerCalendarAlias a real force).2 = .error (.cyclicCalendarAlias report)) ↔
      (force = true ∨ ¬ Known s a) ∧ ResolvesTo (without (alias s) a) real a := by
  have key : ∀ s : Registry, (∀ n, ∃ r, ResolvesTo (alias s) n r) → ¬ Known s a →
      ((∃ report, (let s' := { s with aliases := s.aliases.set a real }
          match s'.resolveAlias a with
          | .error e => ({ s' with aliases := s'.aliases.del a }, (.error e : Py Unit))
          | .ok _ => (s', .ok ())).2 = .error (.cyclicCalendarAlias report)) ↔
        ResolvesTo (without (alias s) a) real a) := by
    intro s h hk
    have ha : s.aliases.get? a = none := by
      simp only [Known, not_or, Decidable.not_not] at hk; exact hk.2.2
    have hwo : without (alias s) a = alias s := by
      funext n; by_cases hn : n = a <;> simp [without, hn, ha, alias]
    have hset : (s.aliases.set a real).get? = (fun n => if n = a then some real else alias s n) := by
      funext n; rw [Dict.get?_set]
    have hcases := resolveAlias_cases { s with aliases := s.aliases.set a real } a
    simp only [hset] at hcases
    rcases hcases with ⟨r, h1, h2⟩ | ⟨rep, h1, _, h3⟩
    · simp only [h1]
      constructor
      · rintro ⟨_, hh⟩; cases hh
      · intro hr; exact absurd ⟨r, h2⟩ (reroute_cyclic hr)
    · simp only [h1]
      refine ⟨fun _ => ?_, fun _ => ⟨rep, rfl⟩⟩
      obtain ⟨r, hr⟩ := h real
      rw [hwo]
      by_cases hra : r = a
      · exact hra ▸ hr
      · exfalso
        refine h3 ⟨r, .step (m := real) (by simp) ?_⟩
        exact resolves_reroute (by rw [hwo]; exact hr) hra
  have h' : ∀ n, ∃ r, ResolvesTo (alias s) n r := fun n => not_cyclic_iff.mp (h n)
  unfold registerCalendarAlias
  cases force with
  | false =>
    simp only [Bool.false_eq_true, if_false, false_or]
    by_cases hk : Known s a
    · rw [if_pos ((hasCalendar_iff s a).mpr hk)]
      simp [hk]
    · rw [if_neg (by rw [hasCalendar_iff]; exact hk)]
      exact (key s h' hk).trans (by simp [hk])
  | true =>
    simp only [if_true, true_or, true_and]
    have hk : ¬ Known (s.deregister a) a := by
      simp [Known, Registry.deregister, Dict.get?_del]
    rw [if_neg (by rw [hasCalendar_iff]; exact hk)]
    refine (key (s.deregister a) (fun n => acyclic_del h' n) hk).trans ?_
    have : without (alias (s.deregister a)) a = without (alias s) a := by
      funext n
      by_cases hn : n = a <;> simp [without, alias, Registry.deregister, Dict.get?_del, hn]
    rw [this]

theorem defaultRegistry_acyclic : ∀ n, ¬ Cyclic (alias defaultRegistry) n := by
  intro n
  rw [not_cyclic_iff]
  have hall : ∀ p ∈ defaultAliases, defaultAliases.get? p.2 = none := by decide
  cases hn : defaultAliases.get? n with
  | none => exact ⟨n, .done hn⟩
  | some m => exact ⟨m, .step hn (.done (hall _ (Dict.get?_mem hn)))⟩

/-- The registry the package starts with meets the hypothesis, so no user of the package can ever
see a cyclic alias, whatever was called before. -/
theorem c02_default (env : FactoryEnv) (ops : List Op) (n : String) :
    ∃ r, (defaultRegistry.run env ops).resolveAlias n = .ok r :=
  (c02_acyclic_history env defaultRegistry defaultRegistry_acyclic ops n).2

example : (∃ report, (defaultRegistry.registerCalendarAlias "XNYS" "NYSE" true).2
    = .error (.cyclicCalendarAlias report)) :=
  (c02_alias_rejected_iff _ defaultRegistry_acyclic _ _ _).mpr
    ⟨.inl rfl, .step (m := "XNYS") (by decide) (.done (by decide))⟩

/-! ## C03 -/

/-- Calls that may remove or replace what is cached for canonical name `c`. -/
def MayDrop (c : String) : Op → Prop
  | .deregister n => n = c
  | .clear => True
  | .registerCal n _ force => n = c ∧ force = true
  | .registerType n _ force => n = c ∧ force = true
  | .registerAlias n _ force => n = c ∧ force = true
  | _ => False

theorem getCalendar_cached {env : FactoryEnv} {s : Registry} {n c : String} {o : CalObj}
    (hr : ResolvesTo (alias s) n c) (hc : s.calendars.get? c = some o) :
    s.getCalendar env n = (s, .ok o) := by
  unfold getCalendar
  rw [(resolveAlias_ok_iff s n c).mpr hr]
  simp [hc]

theorem getCalendar_calendars {env : FactoryEnv} {s : Registry} {n c : String} {o : CalObj}
    (hc : s.calendars.get? c = some o) :
    (s.getCalendar env n).1.calendars.get? c = some o := by
  unfold getCalendar
  split
  · exact hc
  · split
    · exact hc
    · split
      · exact hc
      · split
        · exact hc
        · simp only [Dict.get?_set]
          grind

theorem cached_step (env : FactoryEnv) {s : Registry} {c : String} {o : CalObj}
    (hc : s.calendars.get? c = some o) (op : Op) (hop : ¬ MayDrop c op) :
    (s.step env op).1.calendars.get? c = some o := by
  have hhas : ∀ n, n = c → s.hasCalendar n = true := by
    intro n hn; subst hn; simp [hasCalendar, Dict.has, hc]
  cases op with
  | get m => exact getCalendar_calendars hc
  | has m => exact hc
  | names => exact hc
  | resolve m => exact hc
  | registerCal n x f =>
    simp only [step, registerCalendar]
    cases f with
    | false =>
      simp only [Bool.false_eq_true, if_false]
      split
      · exact hc
      · rename_i hh
        simp only [Dict.get?_set]
        split
        · rename_i he; exact absurd (hhas n he.symm) hh
        · exact hc
    | true =>
      have hn : n ≠ c := by intro he; exact hop ⟨he, rfl⟩
      simp only [if_true]
      split
      · simp only [Registry.deregister, Dict.get?_del, if_neg (Ne.symm hn)]; exact hc
      · simp only [Registry.deregister, Dict.get?_set, Dict.get?_del, if_neg (Ne.symm hn)]; exact hc
  | registerType n x f =>
    simp only [step, registerCalendarType]
    cases f with
    | false =>
      simp only [Bool.false_eq_true, if_false]
      split <;> exact hc
    | true =>
      have hn : n ≠ c := by intro he; exact hop ⟨he, rfl⟩
      simp only [if_true]
      split <;> · simp only [Registry.deregister, Dict.get?_del, if_neg (Ne.symm hn)]; exact hc
  | registerAlias n x f =>
    simp only [step, registerCalendarAlias]
    cases f with
    | false =>
      simp only [Bool.false_eq_true, if_false]
      split
      · exact hc
      · split <;> exact hc
    | true =>
      have hn : n ≠ c := by intro he; exact hop ⟨he, rfl⟩
      simp only [if_true]
      split
      · simp only [Registry.deregister, Dict.get?_del, if_neg (Ne.symm hn)]; exact hc
      · split <;> · simp only [Registry.deregister, Dict.get?_del, if_neg (Ne.symm hn)]; exact hc
  | deregister n =>
    simp only [step, Registry.deregister, Dict.get?_del]
    rw [if_neg (by intro he; exact hop he.symm)]
    exact hc
  | clear => exact absurd trivial hop

/-- **C03** Once `get_calendar(n)` has returned `o` for canonical name `c`, then after any further
history of calls that neither deregisters, force-registers nor clears `c`, `get_calendar` of every
name resolving to `c` returns the same object and leaves the registry untouched — in particular no
factory is run (the ghost call log is part of the state). -/
theorem c03_stable_identity (env : FactoryEnv) (s s₁ : Registry) (n c : String) (o : CalObj)
    (hget : s.getCalendar env n = (s₁, .ok o)) (hres : ResolvesTo (alias s) n c)
    (ops : List Op) (hops : ∀ op ∈ ops, ¬ MayDrop c op)
    (n' : String) (hres' : ResolvesTo (alias (s₁.run env ops)) n' c) :
    (s₁.run env ops).getCalendar env n' = (s₁.run env ops, .ok o) := by
  have h1 : s₁.calendars.get? c = some o := by
    unfold getCalendar at hget
    rw [(resolveAlias_ok_iff s n c).mpr hres] at hget
    simp only at hget
    split at hget
    · rename_i hc; cases hget; exact hc
    · split at hget
      · cases hget
      · split at hget
        · cases hget
        · cases hget; simp [Dict.get?_set]
  have hrun : ∀ (ops : List Op) (s : Registry), s.calendars.get? c = some o →
      (∀ op ∈ ops, ¬ MayDrop c op) → (s.run env ops).calendars.get? c = some o := by
    intro ops
    induction ops with
    | nil => intro s h _; exact h
    | cons op ops ih =>
      intro s h hall
      exact ih _ (cached_step env h op (hall op (by simp)))
        (fun op' h' => hall op' (List.mem_cons_of_mem _ h'))
  exact getCalendar_cached hres' (hrun ops s₁ h1 hops)

/-- Non-vacuity of C03: the default registry, a working factory, a history with other calls. -/
example : ∃ s₁,
    defaultRegistry.getCalendar (fun f log => .ok (1000 + f + log.length)) "LSE" = (s₁, .ok 1028) ∧
    ((s₁.run (fun f log => .ok (1000 + f + log.length))
      [.get "NYSE", .registerAlias "London" "LSE" false, .deregister "LSE"]).getCalendar
        (fun f log => .ok (1000 + f + log.length)) "XLON").2 = .ok 1028 := by
  have hget : ∃ s₁, defaultRegistry.getCalendar (fun f log => .ok (1000 + f + log.length)) "LSE"
      = (s₁, .ok 1028) := by
    refine ⟨{ defaultRegistry with calendars := [("XLON", 1028)], calls := [28] }, ?_⟩
    have h : defaultRegistry.resolveAlias "LSE" = .ok "XLON" :=
      (resolveAlias_ok_iff _ _ _).mpr (.step (m := "XLON") (by decide) (.done (by decide)))
    unfold getCalendar
    rw [h]
    decide
  obtain ⟨s₁, hs⟩ := hget
  refine ⟨s₁, hs, ?_⟩
  have hal : alias s₁ = alias defaultRegistry := by
    have := aliases_getCalendar (fun f log => .ok (1000 + f + log.length)) defaultRegistry "LSE"
    rw [hs] at this
    simp only at this
    simp [alias, this]
  have := c03_stable_identity (fun f log => .ok (1000 + f + log.length)) defaultRegistry s₁ "LSE"
    "XLON" 1028 hs (.step (m := "XLON") (by decide) (.done (by decide)))
    [.get "NYSE", .registerAlias "London" "LSE" false, .deregister "LSE"]
    (by intro op hop; simp at hop; rcases hop with h | h | h <;> subst h <;> simp [MayDrop])
    "XLON"
    (by
      refine .done ?_
      simp only [Registry.run, List.foldl_cons, List.foldl_nil, step, alias]
      simp only [Registry.deregister, Dict.get?_del]
      rw [if_neg (by decide)]
      have h2 : (s₁.getCalendar (fun f log => .ok (1000 + f + log.length)) "NYSE").1.aliases.get? "XLON"
          = none := by
        rw [aliases_getCalendar]; show alias s₁ "XLON" = none; rw [hal]; decide
      generalize (s₁.getCalendar (fun f log => .ok (1000 + f + log.length)) "NYSE").1 = s₂ at h2
      unfold registerCalendarAlias
      simp only [Bool.false_eq_true, if_false]
      split
      · exact h2
      · split
        · simp only [Dict.get?_del, Dict.get?_set, h2]; decide
        · simp only [Dict.get?_set, h2]; decide)
  rw [this]

/-! ## C04 -/

/-- **C04** If `a` resolves to `c`, then `get_calendar(a)` and `get_calendar(c)` leave the same
registry, and give the same result — except that when nothing is registered for `c` each reports
`InvalidCalendarName` with the name that was asked for. -/
theorem c04_alias_transparent (env : FactoryEnv) (s : Registry) (a c : String)
    (h : ResolvesTo (alias s) a c) :
    (s.getCalendar env a).1 = (s.getCalendar env c).1 ∧
    ((s.calendars.get? c = none ∧ s.factories.get? c = none) →
      (s.getCalendar env a).2 = .error (.invalidCalendarName a) ∧
      (s.getCalendar env c).2 = .error (.invalidCalendarName c)) ∧
    (¬ (s.calendars.get? c = none ∧ s.factories.get? c = none) →
      s.getCalendar env a = s.getCalendar env c) := by
  have hc : ResolvesTo (alias s) c c := .done (ResolvesTo.end_none h)
  unfold getCalendar
  rw [(resolveAlias_ok_iff s a c).mpr h, (resolveAlias_ok_iff s c c).mpr hc]
  simp only
  cases h1 : s.calendars.get? c with
  | some o => simp
  | none =>
    cases h2 : s.factories.get? c with
    | none => simp
    | some f => simp

example : ResolvesTo (alias demo) "NASDAQ" "XNYS" ∧ demo.calendars.get? "XNYS" = some 7 :=
  ⟨.step (m := "NYSE") (by decide) (.step (m := "XNYS") (by decide) (.done (by decide))), by decide⟩

example : ResolvesTo (alias demo) "ghost" "nowhere" ∧ demo.calendars.get? "nowhere" = none ∧
    demo.factories.get? "nowhere" = none :=
  ⟨.step (m := "nowhere") (by decide) (.done (by decide)), by decide, by decide⟩

/-! ## C05 -/

theorem not_known_entry {s : Registry} {n : String} (h : ¬ Known s n) :
    s.calendars.get? n = none ∧ s.factories.get? n = none ∧ s.aliases.get? n = none := by
  simpa [Known, not_or] using h

/-- **C05** `register_calendar` without force. -/
theorem c05_register_calendar (s : Registry) (n : String) (c : CalObj) :
    (Known s n → s.registerCalendar n c false = (s, .error (.calendarNameCollision n))) ∧
    (¬ Known s n → (s.registerCalendar n c false).2 = .ok () ∧
      entry (s.registerCalendar n c false).1 n = (some c, none, none) ∧
      ∀ m, m ≠ n → entry (s.registerCalendar n c false).1 m = entry s m) := by
  unfold registerCalendar
  simp only [Bool.false_eq_true, if_false]
  constructor
  · intro h; rw [if_pos ((hasCalendar_iff s n).mpr h)]
  · intro h
    rw [if_neg (by rw [hasCalendar_iff]; exact h)]
    obtain ⟨h1, h2, h3⟩ := not_known_entry h
    refine ⟨rfl, by simp [entry, Dict.get?_set, h2, h3], fun m hm => ?_⟩
    simp [entry, Dict.get?_set, hm]

/-- **C05** `register_calendar_type` without force. -/
theorem c05_register_calendar_type (s : Registry) (n : String) (f : Factory) :
    (Known s n → s.registerCalendarType n f false = (s, .error (.calendarNameCollision n))) ∧
    (¬ Known s n → (s.registerCalendarType n f false).2 = .ok () ∧
      entry (s.registerCalendarType n f false).1 n = (none, some f, none) ∧
      ∀ m, m ≠ n → entry (s.registerCalendarType n f false).1 m = entry s m) := by
  unfold registerCalendarType
  simp only [Bool.false_eq_true, if_false]
  constructor
  · intro h; rw [if_pos ((hasCalendar_iff s n).mpr h)]
  · intro h
    rw [if_neg (by rw [hasCalendar_iff]; exact h)]
    obtain ⟨h1, h2, h3⟩ := not_known_entry h
    refine ⟨rfl, by simp [entry, Dict.get?_set, h1, h3], fun m hm => ?_⟩
    simp [entry, Dict.get?_set, hm]

/-- **C05** `register_calendar_alias` without force: collision iff known, otherwise either the one
entry is added or (cycle) nothing changes. -/
theorem c05_register_calendar_alias (s : Registry) (a real : String) :
    (Known s a → s.registerCalendarAlias a real false = (s, .error (.calendarNameCollision a))) ∧
    (¬ Known s a →
      ((s.registerCalendarAlias a real false).2 = .ok () ∧
        entry (s.registerCalendarAlias a real false).1 a = (none, none, some real) ∧
        ∀ m, m ≠ a → entry (s.registerCalendarAlias a real false).1 m = entry s m) ∨
      ∃ report, s.registerCalendarAlias a real false
        = (s, .error (.cyclicCalendarAlias report))) := by
  unfold registerCalendarAlias
  simp only [Bool.false_eq_true, if_false]
  constructor
  · intro h; rw [if_pos ((hasCalendar_iff s a).mpr h)]
  · intro h
    rw [if_neg (by rw [hasCalendar_iff]; exact h)]
    obtain ⟨h1, h2, h3⟩ := not_known_entry h
    rcases resolveAlias_cases { s with aliases := s.aliases.set a real } a with
      ⟨r, hr, _⟩ | ⟨rep, hr, _, _⟩
    · left
      simp only [hr]
      refine ⟨trivial, by simp [entry, Dict.get?_set, h1, h2], fun m hm => ?_⟩
      simp [entry, Dict.get?_set, hm]
    · right
      simp only [hr]
      refine ⟨rep, ?_⟩
      have : (s.aliases.set a real).del a = s.aliases :=
        Dict.del_set_of_not_has (by simp [Dict.has, h3])
      rw [this]

example : Known demo "LSE" ∧ ¬ Known demo "TSX" := by
  simp [Known, demo, Dict.get?]

/-! ## C06 -/

theorem not_known_deregister (s : Registry) (n : String) : ¬ Known (s.deregister n) n := by
  simp [Known, Registry.deregister, Dict.get?_del]

/-- **C06** After a successful `register_calendar(n, c)` — and a forced one always succeeds —
`get_calendar(n)` returns `c` without running a factory. -/
theorem c06_register_calendar (env : FactoryEnv) (s : Registry) (n : String) (c : CalObj)
    (force : Bool) :
    (force = true → (s.registerCalendar n c force).2 = .ok ()) ∧
    ((s.registerCalendar n c force).2 = .ok () →
      (s.registerCalendar n c force).1.getCalendar env n
        = ((s.registerCalendar n c force).1, .ok c)) := by
  have key : ∀ s : Registry, ¬ Known s n →
      ({ s with calendars := s.calendars.set n c } : Registry).getCalendar env n
        = ({ s with calendars := s.calendars.set n c }, .ok c) := by
    intro s h
    refine getCalendar_cached (c := n) (.done (not_known_entry h).2.2) (by simp [Dict.get?_set])
  constructor
  · rintro rfl
    unfold registerCalendar
    simp only [if_true]
    rw [if_neg (by rw [hasCalendar_iff]; exact not_known_deregister s n)]
  · unfold registerCalendar
    cases force with
    | true =>
      simp only [if_true]
      rw [if_neg (by rw [hasCalendar_iff]; exact not_known_deregister s n)]
      intro _
      exact key _ (not_known_deregister s n)
    | false =>
      simp only [Bool.false_eq_true, if_false]
      by_cases h : Known s n
      · rw [if_pos ((hasCalendar_iff s n).mpr h)]; intro h'; cases h'
      · rw [if_neg (by rw [hasCalendar_iff]; exact h)]
        intro _
        exact key s h

/-- **C06** After a successful `register_calendar_type(n, f)`, `get_calendar(n)` is one call of
`f`; a forced registration always succeeds. -/
theorem c06_register_calendar_type (env : FactoryEnv) (s : Registry) (n : String) (f : Factory)
    (force : Bool) :
    (force = true → (s.registerCalendarType n f force).2 = .ok ()) ∧
    ((s.registerCalendarType n f force).2 = .ok () →
      ((s.registerCalendarType n f force).1.getCalendar env n).2 = env f s.calls ∧
      ((s.registerCalendarType n f force).1.getCalendar env n).1.calls = s.calls ++ [f]) := by
  have key : ∀ s : Registry, ¬ Known s n →
      (({ s with factories := s.factories.set n f } : Registry).getCalendar env n).2
        = env f s.calls ∧
      (({ s with factories := s.factories.set n f } : Registry).getCalendar env n).1.calls
        = s.calls ++ [f] := by
    intro s h
    obtain ⟨h1, h2, h3⟩ := not_known_entry h
    have hr : ({ s with factories := s.factories.set n f } : Registry).resolveAlias n = .ok n :=
      (resolveAlias_ok_iff _ _ _).mpr (.done h3)
    unfold getCalendar
    rw [hr]
    simp only [h1, Dict.get?_set, if_true]
    cases he : env f s.calls <;> simp
  constructor
  · rintro rfl
    unfold registerCalendarType
    simp only [if_true]
    rw [if_neg (by rw [hasCalendar_iff]; exact not_known_deregister s n)]
  · unfold registerCalendarType
    cases force with
    | true =>
      simp only [if_true]
      rw [if_neg (by rw [hasCalendar_iff]; exact not_known_deregister s n)]
      intro _
      exact key _ (not_known_deregister s n)
    | false =>
      simp only [Bool.false_eq_true, if_false]
      by_cases h : Known s n
      · rw [if_pos ((hasCalendar_iff s n).mpr h)]; intro h'; cases h'
      · rw [if_neg (by rw [hasCalendar_iff]; exact h)]
        intro _
        exact key s h

/-- **C06** After a successful `register_calendar_alias(a, real)`, `a` resolves to whatever `real`
resolves to, so `get_calendar(a)` returns what `get_calendar(real)` returns and has the same
effect; a forced registration never reports a collision. -/
theorem c06_register_calendar_alias (env : FactoryEnv) (s : Registry) (a real : String)
    (force : Bool) (s' : Registry) (hs' : (s.registerCalendarAlias a real force) = (s', .ok ())) :
    alias s' a = some real ∧
    (∀ o, (s'.getCalendar env a).2 = .ok o ↔ (s'.getCalendar env real).2 = .ok o) ∧
    (s'.getCalendar env a).1 = (s'.getCalendar env real).1 := by
  have key : ∀ s : Registry, ¬ Known s a →
      (let s' := { s with aliases := s.aliases.set a real }
        match s'.resolveAlias a with
        | .error e => ({ s' with aliases := s'.aliases.del a }, (.error e : Py Unit))
        | .ok _ => (s', .ok ())) = (s', .ok ()) →
      alias s' a = some real ∧ ∃ r, ResolvesTo (alias s') a r := by
    intro s h heq
    rcases resolveAlias_cases { s with aliases := s.aliases.set a real } a with
      ⟨r, hr, h2⟩ | ⟨rep, hr, _, _⟩
    · simp only [hr] at heq
      cases heq
      exact ⟨by simp [alias, Dict.get?_set], r, h2⟩
    · simp only [hr] at heq
      cases heq
  have hmain : alias s' a = some real ∧ ∃ r, ResolvesTo (alias s') a r := by
    unfold registerCalendarAlias at hs'
    cases force with
    | true =>
      simp only [if_true] at hs'
      rw [if_neg (by rw [hasCalendar_iff]; exact not_known_deregister s a)] at hs'
      exact key _ (not_known_deregister s a) hs'
    | false =>
      simp only [Bool.false_eq_true, if_false] at hs'
      by_cases h : Known s a
      · rw [if_pos ((hasCalendar_iff s a).mpr h)] at hs'; cases hs'
      · rw [if_neg (by rw [hasCalendar_iff]; exact h)] at hs'
        exact key s h hs'
  obtain ⟨ha, r, hr⟩ := hmain
  have hreal : ResolvesTo (alias s') real r := by
    cases hr with
    | done h => rw [ha] at h; cases h
    | step h h2 => rw [ha] at h; cases h; exact h2
  obtain ⟨ha1, ha2, ha3⟩ := c04_alias_transparent env s' a r hr
  obtain ⟨hb1, hb2, hb3⟩ := c04_alias_transparent env s' real r hreal
  refine ⟨ha, fun o => ?_, ha1.trans hb1.symm⟩
  by_cases hn : s'.calendars.get? r = none ∧ s'.factories.get? r = none
  · rw [(ha2 hn).1, (hb2 hn).1]
    constructor <;> intro h <;> cases h
  · rw [ha3 hn, hb3 hn]

/-- A forced alias registration never raises `CalendarNameCollision`. -/
theorem c06_force_alias_no_collision (s : Registry) (a real m : String) :
    (s.registerCalendarAlias a real true).2 ≠ .error (.calendarNameCollision m) := by
  unfold registerCalendarAlias
  simp only [if_true]
  rw [if_neg (by rw [hasCalendar_iff]; exact not_known_deregister s a)]
  rcases resolveAlias_cases
      { s.deregister a with aliases := (s.deregister a).aliases.set a real } a with
    ⟨r, hr, _⟩ | ⟨rep, hr, _, _⟩
  · simp only [hr]; intro h; cases h
  · simp only [hr]; intro h; cases h

example : (demo.registerCalendar "NYSE" 99 true).2 = .ok () ∧
    (demo.registerCalendarType "TSX" 3 false).2 = .ok () := by decide

example : ∃ s', demo.registerCalendarAlias "Q" "NASDAQ" false = (s', .ok ()) := by
  refine ⟨{ demo with aliases := demo.aliases ++ [("Q", "NASDAQ")] }, ?_⟩
  have h : ({ demo with aliases := demo.aliases ++ [("Q", "NASDAQ")] } : Registry).resolveAlias "Q"
      = .ok "XNYS" :=
    (resolveAlias_ok_iff _ _ _).mpr (.step (m := "NASDAQ") (by decide)
      (.step (m := "NYSE") (by decide) (.step (m := "XNYS") (by decide) (.done (by decide)))))
  unfold registerCalendarAlias
  simp only [Bool.false_eq_true, if_false]
  rw [if_neg (by decide)]
  have h2 : demo.aliases.set "Q" "NASDAQ" = demo.aliases ++ [("Q", "NASDAQ")] := by decide
  rw [h2, h]

/-! ## C07 -/

/-- **C07** `deregister_calendar(n)` makes `n` unknown — to `has_calendar`, `get_calendar_names`
and `get_calendar` — and changes nothing recorded for any other name. -/
theorem c07_deregister (env : FactoryEnv) (s : Registry) (n : String) :
    (s.deregister n).hasCalendar n = false ∧
    n ∉ (s.deregister n).getCalendarNames ∧
    (s.deregister n).getCalendar env n = (s.deregister n, .error (.invalidCalendarName n)) ∧
    (∀ m, m ≠ n → entry (s.deregister n) m = entry s m) ∧
    (¬ Known s n → s.deregister n = s) := by
  have hk := not_known_deregister s n
  have hk' := not_known_entry hk
  refine ⟨by rw [hasCalendar_false_iff]; exact hk, ?_, ?_, ?_, ?_⟩
  · simp only [getCalendarNames, mem_dedup, List.mem_append, ← Dict.has_iff_mem_keys,
      Dict.has]
    simp [hk'.1, hk'.2.1, hk'.2.2]
  · unfold getCalendar
    rw [(resolveAlias_ok_iff _ _ _).mpr (.done hk'.2.2)]
    simp [hk'.1, hk'.2.1]
  · intro m hm
    simp [entry, Registry.deregister, Dict.get?_del, hm]
  · intro h
    obtain ⟨h1, h2, h3⟩ := not_known_entry h
    unfold Registry.deregister
    rw [Dict.del_of_not_has (by simp [Dict.has, h1]), Dict.del_of_not_has (by simp [Dict.has, h2]),
      Dict.del_of_not_has (by simp [Dict.has, h3])]

/-- **C07** `clear_calendars()` makes every name unknown. -/
theorem c07_clear (env : FactoryEnv) (s : Registry) (n : String) :
    s.clear.hasCalendar n = false ∧ n ∉ s.clear.getCalendarNames ∧
    s.clear.getCalendar env n = (s.clear, .error (.invalidCalendarName n)) := by
  refine ⟨rfl, by simp [getCalendarNames, clear, Dict.keys, dedup], ?_⟩
  unfold getCalendar
  rw [(resolveAlias_ok_iff _ _ _).mpr (.done rfl)]
  rfl

/-! ## C08 -/

/-- **C08** A calendar that can be retrieved is known to `has_calendar`. -/
theorem c08_get_implies_has (env : FactoryEnv) (s : Registry) (n : String) (o : CalObj)
    (h : (s.getCalendar env n).2 = .ok o) : s.hasCalendar n = true := by
  rw [hasCalendar_iff]
  unfold getCalendar at h
  rcases resolveAlias_cases s n with ⟨r, hr, h2⟩ | ⟨rep, hr, _, _⟩
  · rw [hr] at h
    cases h2 with
    | step hn _ => exact .inr (.inr (by rw [hn]; simp))
    | done hn =>
      simp only at h
      split at h
      · rename_i hc; exact .inl (by rw [hc]; simp)
      · split at h
        · cases h
        · rename_i hf; exact .inr (.inl (by rw [hf]; simp))
  · rw [hr] at h; cases h

/-- **C08** Exactly when `get_calendar` fails for want of a calendar: with `c` the end of `n`'s
alias chain, it raises `InvalidCalendarName(n)` if nothing is registered for `c`; otherwise it
returns the cached calendar or whatever the factory does. -/
theorem c08_get_iff (env : FactoryEnv) (s : Registry) (n c : String)
    (h : ResolvesTo (alias s) n c) :
    (s.calendars.get? c = none → s.factories.get? c = none →
      s.getCalendar env n = (s, .error (.invalidCalendarName n))) ∧
    (∀ o, s.calendars.get? c = some o → s.getCalendar env n = (s, .ok o)) ∧
    (∀ f, s.calendars.get? c = none → s.factories.get? c = some f →
      (s.getCalendar env n).2 = env f s.calls) := by
  unfold getCalendar
  rw [(resolveAlias_ok_iff s n c).mpr h]
  refine ⟨fun h1 h2 => by simp [h1, h2], fun o h1 => by simp [h1], fun f h1 h2 => ?_⟩
  simp only [h1, h2]
  cases he : env f s.calls <;> simp

/-- **C08** (finding) `has_calendar` does not imply retrievability: an alias may be registered for
a name nobody knows, starting from the default registry. -/
theorem c08_dangling_alias (env : FactoryEnv) :
    ∃ s', defaultRegistry.registerCalendarAlias "MY" "nowhere" false = (s', .ok ()) ∧
      s'.hasCalendar "MY" = true ∧
      (s'.getCalendar env "MY").2 = .error (.invalidCalendarName "MY") := by
  have hres : ResolvesTo (alias { defaultRegistry with aliases := defaultAliases ++ [("MY", "nowhere")] })
      "MY" "nowhere" := .step (m := "nowhere") (by decide) (.done (by decide))
  refine ⟨{ defaultRegistry with aliases := defaultAliases ++ [("MY", "nowhere")] }, ?_, by decide, ?_⟩
  · unfold registerCalendarAlias
    simp only [Bool.false_eq_true, if_false]
    rw [if_neg (by decide)]
    have h2 : defaultRegistry.aliases.set "MY" "nowhere" = defaultAliases ++ [("MY", "nowhere")] := by
      decide
    rw [h2, (resolveAlias_ok_iff _ _ _).mpr hres]
  · rw [(c08_get_iff env _ _ _ hres).1 (by decide) (by decide)]

/-! ## C09 -/

/-- **C09** `get_calendar_names` lists exactly the known names, each once. -/
theorem c09_names (s : Registry) :
    (∀ n, n ∈ s.getCalendarNames ↔ s.hasCalendar n = true) ∧ s.getCalendarNames.Nodup := by
  constructor
  · intro n
    simp only [getCalendarNames, mem_dedup, List.mem_append, ← Dict.has_iff_mem_keys,
      hasCalendar, Bool.or_eq_true]
  · unfold getCalendarNames
    exact nodup_dedup _

/-! ## C10 -/

/-- The `force` argument of a call (calls without one: `false`). -/
def forced : Op → Bool
  | .registerCal _ _ f => f
  | .registerType _ _ f => f
  | .registerAlias _ _ f => f
  | _ => false

/-- The name a registration call is about. -/
def target : Op → String
  | .registerCal n _ _ => n
  | .registerType n _ _ => n
  | .registerAlias n _ _ => n
  | .deregister n => n
  | .get n => n
  | .has n => n
  | .resolve n => n
  | _ => ""

/-- **C10** Every public call that raises leaves the three tables as they were if it was made
without force; a forced call that raises leaves exactly the state of `deregister_calendar(name)`. -/
theorem c10_failed_calls (env : FactoryEnv) (s : Registry) (op : Op) (e : PyErr)
    (h : (s.step env op).2 = .error e) :
    (forced op = false → SameTables s (s.step env op).1) ∧
    (forced op = true → SameTables (s.deregister (target op)) (s.step env op).1) := by
  cases op with
  | get n =>
    simp only [step, forced]
    refine ⟨fun _ => ?_, fun h => by simp at h⟩
    simp only [step] at h
    unfold getCalendar at h ⊢
    split
    · exact ⟨rfl, rfl, rfl⟩
    · split
      · exact ⟨rfl, rfl, rfl⟩
      · split
        · exact ⟨rfl, rfl, rfl⟩
        · split
          · exact ⟨rfl, rfl, rfl⟩
          · rename_i hr _ hc _ _ hf _ _ he
            simp only [hr, hc, hf, he] at h
            cases h
  | has n => simp [step] at h
  | names => simp [step] at h
  | resolve n => exact ⟨fun _ => ⟨rfl, rfl, rfl⟩, fun h => by simp [forced] at h⟩
  | registerCal n c f =>
    simp only [step, forced, target] at h ⊢
    unfold registerCalendar at h ⊢
    cases f with
    | false =>
      refine ⟨fun _ => ?_, fun h => by simp at h⟩
      simp only [Bool.false_eq_true, if_false] at h ⊢
      split
      · exact ⟨rfl, rfl, rfl⟩
      · rename_i hh; rw [if_neg hh] at h; cases h
    | true =>
      refine ⟨fun h => by simp at h, fun _ => ?_⟩
      simp only [if_true] at h ⊢
      split
      · exact ⟨rfl, rfl, rfl⟩
      · rename_i hh; rw [if_neg hh] at h; cases h
  | registerType n c f =>
    simp only [step, forced, target] at h ⊢
    unfold registerCalendarType at h ⊢
    cases f with
    | false =>
      refine ⟨fun _ => ?_, fun h => by simp at h⟩
      simp only [Bool.false_eq_true, if_false] at h ⊢
      split
      · exact ⟨rfl, rfl, rfl⟩
      · rename_i hh; rw [if_neg hh] at h; cases h
    | true =>
      refine ⟨fun h => by simp at h, fun _ => ?_⟩
      simp only [if_true] at h ⊢
      split
      · exact ⟨rfl, rfl, rfl⟩
      · rename_i hh; rw [if_neg hh] at h; cases h
  | registerAlias n r f =>
    have key : ∀ s : Registry, (if s.hasCalendar n then
          (s, (.error (.calendarNameCollision n) : Py Unit))
        else
          let s' := { s with aliases := s.aliases.set n r }
          match s'.resolveAlias n with
          | .error e => ({ s' with aliases := s'.aliases.del n }, .error e)
          | .ok _ => (s', .ok ())).2.map (fun _ => Out.unit) = .error e →
        SameTables s (if s.hasCalendar n then
          (s, (.error (.calendarNameCollision n) : Py Unit))
        else
          let s' := { s with aliases := s.aliases.set n r }
          match s'.resolveAlias n with
          | .error e => ({ s' with aliases := s'.aliases.del n }, .error e)
          | .ok _ => (s', .ok ())).1 := by
      intro s h
      split
      · exact ⟨rfl, rfl, rfl⟩
      · rename_i hh
        rw [if_neg hh] at h
        rw [hasCalendar_iff] at hh
        simp only at h ⊢
        split
        · refine ⟨rfl, rfl, ?_⟩
          exact Dict.del_set_of_not_has (by simp [Dict.has, (not_known_entry hh).2.2])
        · rename_i hr; simp only [hr] at h; cases h
    simp only [step, forced, target] at h ⊢
    unfold registerCalendarAlias at h ⊢
    cases f with
    | false =>
      exact ⟨fun _ => key s h, fun h => by simp at h⟩
    | true =>
      exact ⟨fun h => by simp at h, fun _ => key (s.deregister n) h⟩
  | deregister n => simp [step] at h
  | clear => simp [step] at h

/-- **C10** (finding) A forced alias registration that is refused as cyclic has already thrown away
the old entry: on the default registry, `register_calendar_alias('XNYS', 'NYSE', force=True)`
raises and `get_calendar('XNYS')`, `get_calendar('NYSE')` no longer work. -/
theorem c10_forced_cycle_loses_entry (env : FactoryEnv) :
    ∃ s' report, defaultRegistry.registerCalendarAlias "XNYS" "NYSE" true
        = (s', .error (.cyclicCalendarAlias report)) ∧
      (s'.getCalendar env "XNYS").2 = .error (.invalidCalendarName "XNYS") := by
  obtain ⟨report, hr⟩ := (c02_alias_rejected_iff _ defaultRegistry_acyclic "XNYS" "NYSE" true).mpr
    ⟨.inl rfl, .step (m := "XNYS") (by decide) (.done (by decide))⟩
  refine ⟨(defaultRegistry.registerCalendarAlias "XNYS" "NYSE" true).1, report,
    by rw [← hr], ?_⟩
  obtain ⟨h1, h2, h3⟩ := (c10_failed_calls env defaultRegistry (.registerAlias "XNYS" "NYSE" true)
    (.cyclicCalendarAlias report) (by simp [step, hr, Except.map])).2 rfl
  simp only [step, target] at h1 h2 h3
  rw [(c08_get_iff env _ "XNYS" "XNYS" (.done (by rw [alias, h3]; decide))).1
    (by rw [h1]; decide) (by rw [h2]; decide)]

/-! ## C11 -/

/-- **C11** In the initial registry every default name and every default alias resolves to a name
with a registered factory. -/
theorem c11_default_names :
    (∀ n ∈ defaultFactoryNames, ResolvesTo (alias defaultRegistry) n n ∧
      ∃ f, defaultRegistry.factories.get? n = some f) ∧
    (∀ p ∈ defaultAliases, ResolvesTo (alias defaultRegistry) p.1 p.2 ∧
      ∃ f, defaultRegistry.factories.get? p.2 = some f) := by
  have h1 : ∀ n ∈ defaultFactoryNames, alias defaultRegistry n = none ∧
      (defaultRegistry.factories.get? n).isSome = true := by decide +kernel
  have h2 : ∀ p ∈ defaultAliases, alias defaultRegistry p.1 = some p.2 ∧
      alias defaultRegistry p.2 = none ∧
      (defaultRegistry.factories.get? p.2).isSome = true := by decide +kernel
  constructor
  · intro n hn
    exact ⟨.done (h1 n hn).1, Option.isSome_iff_exists.mp (h1 n hn).2⟩
  · intro p hp
    obtain ⟨a, b, c⟩ := h2 p hp
    exact ⟨.step a (.done b), Option.isSome_iff_exists.mp c⟩

/-- No name is both an alias and a calendar or factory. -/
def AliasesDisjoint (s : Registry) : Prop :=
  ∀ n, s.aliases.get? n ≠ none → s.calendars.get? n = none ∧ s.factories.get? n = none

theorem disjoint_deregister {s : Registry} (h : AliasesDisjoint s) (m : String) :
    AliasesDisjoint (s.deregister m) := by
  intro n hn
  simp only [Registry.deregister, Dict.get?_del] at hn ⊢
  by_cases hnm : n = m
  · simp [hnm] at hn
  · simp only [hnm, if_false] at hn ⊢; exact h n hn

theorem disjoint_step (env : FactoryEnv) {s : Registry} (h : AliasesDisjoint s) (op : Op) :
    AliasesDisjoint (s.step env op).1 := by
  have hcal : ∀ (s : Registry) n c, AliasesDisjoint s → ¬ Known s n →
      AliasesDisjoint { s with calendars := s.calendars.set n c } := by
    intro s n c h hk m hm
    have hmn : m ≠ n := by
      intro he; subst he; exact hm (not_known_entry hk).2.2
    simp only [Dict.get?_set, hmn, if_false]
    exact h m hm
  have hfac : ∀ (s : Registry) n f, AliasesDisjoint s → ¬ Known s n →
      AliasesDisjoint { s with factories := s.factories.set n f } := by
    intro s n c h hk m hm
    have hmn : m ≠ n := by
      intro he; subst he; exact hm (not_known_entry hk).2.2
    simp only [Dict.get?_set, hmn, if_false]
    exact h m hm
  have hali : ∀ (s : Registry) a r, AliasesDisjoint s → ¬ Known s a →
      AliasesDisjoint (let s' := { s with aliases := s.aliases.set a r }
          match s'.resolveAlias a with
          | .error e => ({ s' with aliases := s'.aliases.del a }, (.error e : Py Unit))
          | .ok _ => (s', .ok ())).1 := by
    intro s a r h hk
    simp only
    split
    · rw [Dict.del_set_of_not_has (by simp [Dict.has, (not_known_entry hk).2.2])]
      exact h
    · intro m hm
      simp only [Dict.get?_set] at hm ⊢
      by_cases hma : m = a
      · subst hma; exact ⟨(not_known_entry hk).1, (not_known_entry hk).2.1⟩
      · simp only [hma, if_false] at hm; exact h m hm
  cases op with
  | get n =>
    simp only [step]
    unfold getCalendar
    split
    · exact h
    · rename_i c hr
      split
      · exact h
      · split
        · exact h
        · split
          · exact h
          · intro m hm
            have hc := ResolvesTo.end_none ((resolveAlias_ok_iff s n c).mp hr)
            have hmc : m ≠ c := by intro he; subst he; exact hm hc
            simp only [Dict.get?_set, hmc, if_false]
            exact h m hm
  | has n => exact h
  | names => exact h
  | resolve n => exact h
  | registerCal n c f =>
    simp only [step]
    unfold registerCalendar
    cases f with
    | false =>
      simp only [Bool.false_eq_true, if_false]
      split
      · exact h
      · rename_i hh; rw [hasCalendar_iff] at hh; exact hcal s n c h hh
    | true =>
      simp only [if_true]
      split
      · exact disjoint_deregister h n
      · rename_i hh; rw [hasCalendar_iff] at hh
        exact hcal _ n c (disjoint_deregister h n) hh
  | registerType n c f =>
    simp only [step]
    unfold registerCalendarType
    cases f with
    | false =>
      simp only [Bool.false_eq_true, if_false]
      split
      · exact h
      · rename_i hh; rw [hasCalendar_iff] at hh; exact hfac s n c h hh
    | true =>
      simp only [if_true]
      split
      · exact disjoint_deregister h n
      · rename_i hh; rw [hasCalendar_iff] at hh
        exact hfac _ n c (disjoint_deregister h n) hh
  | registerAlias n r f =>
    simp only [step]
    unfold registerCalendarAlias
    cases f with
    | false =>
      simp only [Bool.false_eq_true, if_false]
      split
      · exact h
      · rename_i hh; rw [hasCalendar_iff] at hh; exact hali s n r h hh
    | true =>
      simp only [if_true]
      split
      · exact disjoint_deregister h n
      · rename_i hh; rw [hasCalendar_iff] at hh
        exact hali _ n r (disjoint_deregister h n) hh
  | deregister n => exact disjoint_deregister h n
  | clear => intro n hn; simp [step, clear, Dict.get?] at hn

/-- **C11** Aliases and calendar/factory names stay disjoint through every history starting from
the default registry. -/
theorem c11_disjoint_history (env : FactoryEnv) (ops : List Op) :
    AliasesDisjoint (defaultRegistry.run env ops) := by
  have h0 : AliasesDisjoint defaultRegistry := by
    intro n hn
    refine ⟨rfl, ?_⟩
    have hall : ∀ p ∈ defaultAliases, defaultRegistry.factories.get? p.1 = none := by
      decide +kernel
    cases hal : defaultAliases.get? n with
    | none => exact absurd hal hn
    | some m => exact hall _ (Dict.get?_mem hal)
  have hrun : ∀ (ops : List Op) (s : Registry), AliasesDisjoint s →
      AliasesDisjoint (s.run env ops) := by
    intro ops
    induction ops with
    | nil => intro s h; exact h
    | cons op ops ih => intro s h; exact ih _ (disjoint_step env h op)
  exact hrun ops _ h0

end TC.Props
