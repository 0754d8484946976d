import Verif.Props.Dispatcher

/-!
# C87: the order of registrations

Libraries that register calendars are imported in any order.  Dictionaries remember the order of insertion, but no
answer of the registry shows it, and registrations that succeed in one order succeed in every order with the same
effect.
-/

namespace TC.Props
open TC TC.Spec TC.Registry

/-- The two registries record the same for every name, in whatever order, and have called the same factories. -/
def AlikeTables (s s' : Registry) : Prop := (∀ n, entry s' n = entry s n) ∧ s'.calls = s.calls

/-- The same answer or exception; a list of names may come in another order. -/
def SameAnswer (r r' : Py Out) : Prop :=
  r' = r ∨ ∃ l l', r = .ok (.names l) ∧ r' = .ok (.names l') ∧ l'.Perm l

/-- A registration that does not replace anything. -/
def Registers : Op → Prop
  | .registerCal _ _ force => force = false
  | .registerType _ _ force => force = false
  | .registerAlias _ _ force => force = false
  | _ => False

/-- A call that writes one name: any registration, forced or not, or a deregistration. -/
def Writes : Op → Prop
  | .registerCal .. => True
  | .registerType .. => True
  | .registerAlias .. => True
  | .deregister _ => True
  | _ => False

/-- The name that a call writes. -/
def written : Op → String
  | .registerCal n _ _ => n
  | .registerType n _ _ => n
  | .registerAlias n _ _ => n
  | .deregister n => n
  | .get n => n
  | .has n => n
  | .resolve n => n
  | .names => ""
  | .clear => ""

/-- All these calls succeed, one after the other. -/
def Succeed (env : FactoryEnv) (s : Registry) : List Op → Prop
  | [] => True
  | op :: ops => (s.step env op).2 = .ok .unit ∧ Succeed env (s.step env op).1 ops

/-! ### insertion order does not show -/

theorem AlikeTables.get {s s' : Registry} (h : AlikeTables s s') :
    s'.calendars.get? = s.calendars.get? ∧ s'.factories.get? = s.factories.get? ∧
    s'.aliases.get? = s.aliases.get? := by
  refine ⟨funext fun n => ?_, funext fun n => ?_, funext fun n => ?_⟩ <;>
  · have := h.1 n
    simp only [entry, Prod.mk.injEq] at this
    simp [this]

theorem AlikeTables.refl (s : Registry) : AlikeTables s s := ⟨fun _ => rfl, rfl⟩

theorem AlikeTables.symm {s s' : Registry} (h : AlikeTables s s') : AlikeTables s' s := ⟨fun n => (h.1 n).symm, h.2.symm⟩

theorem AlikeTables.trans {s s' s'' : Registry} (h : AlikeTables s s') (h' : AlikeTables s' s'') : AlikeTables s s'' :=
  ⟨fun n => (h'.1 n).trans (h.1 n), h'.2.trans h.2⟩

theorem alike_tables_of {s s' : Registry} (h1 : ∀ n, s'.calendars.get? n = s.calendars.get? n)
    (h2 : ∀ n, s'.factories.get? n = s.factories.get? n) (h3 : ∀ n, s'.aliases.get? n = s.aliases.get? n)
    (h4 : s'.calls = s.calls) : AlikeTables s s' :=
  ⟨fun n => by simp [entry, h1, h2, h3], h4⟩

theorem resolveLoop_congr {al al' : Dict String} (h : al'.get? = al.get?) (seen : List String) (name : String) :
    resolveLoop al' seen name = resolveLoop al seen name := by
  induction seen, name using resolveLoop.induct (al := al) with
  | case1 seen name hn =>
    unfold resolveLoop
    split
    · split
      · rfl
      · next k => rw [hn] at k; cases k
    · next k => rw [h, hn] at k; cases k
  | case2 seen name next hn hin =>
    unfold resolveLoop
    split
    · next k => rw [h, hn] at k; cases k
    · next m k =>
      rw [h, hn] at k
      cases k
      rw [if_pos hin]
      split
      · next k => rw [hn] at k; cases k
      · next m k => rw [hn] at k; cases k; rw [if_pos hin]
  | case3 seen name next hn hin ih =>
    rw [resolveLoop]
    split
    · next k => rw [h, hn] at k; cases k
    · next m k =>
      rw [h, hn] at k
      cases k
      rw [if_neg hin, ih]
      conv => rhs; rw [resolveLoop]
      split
      · next k => rw [hn] at k; cases k
      · next m k => rw [hn] at k; cases k; rw [if_neg hin]

theorem AlikeTables.resolve {s s' : Registry} (h : AlikeTables s s') (n : String) : s'.resolveAlias n = s.resolveAlias n :=
  resolveLoop_congr h.get.2.2 [] n

theorem AlikeTables.has {s s' : Registry} (h : AlikeTables s s') (n : String) : s'.hasCalendar n = s.hasCalendar n := by
  obtain ⟨h1, h2, h3⟩ := h.get
  simp only [hasCalendar, Dict.has, h1, h2, h3]

theorem AlikeTables.deregister {s s' : Registry} (h : AlikeTables s s') (n : String) :
    AlikeTables (s.deregister n) (s'.deregister n) := by
  obtain ⟨h1, h2, h3⟩ := h.get
  refine alike_tables_of ?_ ?_ ?_ h.2 <;> intro m <;> simp only [Registry.deregister, Dict.get?_del, h1, h2, h3]

theorem perm_of_nodup {α : Type} [BEq α] [LawfulBEq α] {xs ys : List α} (hx : xs.Nodup) (hy : ys.Nodup)
    (h : ∀ a, a ∈ xs ↔ a ∈ ys) : xs.Perm ys := by
  rw [List.perm_iff_count]
  intro a
  rw [hx.count, hy.count]
  simp only [h a]

theorem AlikeTables.step (env : FactoryEnv) {s s' : Registry} (h : AlikeTables s s') (op : Op) :
    SameAnswer (s.step env op).2 (s'.step env op).2 ∧ AlikeTables (s.step env op).1 (s'.step env op).1 := by
  obtain ⟨h1, h2, h3⟩ := h.get
  cases op with
  | get n =>
    simp only [Registry.step, getCalendar, h.resolve]
    split
    · exact ⟨.inl rfl, h⟩
    · next c _ =>
      rw [h1]
      split
      · exact ⟨.inl rfl, h⟩
      · rw [h2]
        split
        · exact ⟨.inl rfl, h⟩
        · next f _ =>
          rw [h.2]
          split
          · exact ⟨.inl rfl, alike_tables_of (fun m => by rw [h1]) (fun m => by rw [h2]) (fun m => by rw [h3]) rfl⟩
          · exact ⟨.inl rfl, alike_tables_of (fun m => by simp only [Dict.get?_set, h1]) (fun m => by rw [h2])
              (fun m => by rw [h3]) rfl⟩
  | has n => simp only [Registry.step, h.has]; exact ⟨.inl rfl, h⟩
  | names =>
    refine ⟨.inr ⟨_, _, rfl, rfl, perm_of_nodup (nodup_dedup _) (nodup_dedup _) fun a => ?_⟩, h⟩
    simp only [getCalendarNames, mem_dedup, List.mem_append, ← Dict.has_iff_mem_keys, Dict.has, h1, h2, h3]
  | resolve n => simp only [Registry.step, h.resolve]; exact ⟨.inl rfl, h⟩
  | registerCal n c force =>
    have key : ∀ {s s' : Registry}, AlikeTables s s' →
        SameAnswer (((if s.hasCalendar n then (s, (.error (.calendarNameCollision n) : Py Unit))
            else ({ s with calendars := s.calendars.set n c }, .ok ())).2).map fun _ => .unit)
          (((if s'.hasCalendar n then (s', (.error (.calendarNameCollision n) : Py Unit))
            else ({ s' with calendars := s'.calendars.set n c }, .ok ())).2).map fun _ => .unit) ∧
        AlikeTables (if s.hasCalendar n then (s, (.error (.calendarNameCollision n) : Py Unit))
            else ({ s with calendars := s.calendars.set n c }, .ok ())).1
          (if s'.hasCalendar n then (s', (.error (.calendarNameCollision n) : Py Unit))
            else ({ s' with calendars := s'.calendars.set n c }, .ok ())).1 := by
      intro s s' h
      obtain ⟨h1, h2, h3⟩ := h.get
      rw [h.has]
      split
      · exact ⟨.inl rfl, h⟩
      · exact ⟨.inl rfl, alike_tables_of (fun m => by simp only [Dict.get?_set, h1]) (fun m => by rw [h2])
          (fun m => by rw [h3]) h.2⟩
    simp only [Registry.step, registerCalendar]
    cases force
    · exact key h
    · exact key (h.deregister n)
  | registerType n c force =>
    have key : ∀ {s s' : Registry}, AlikeTables s s' →
        SameAnswer (((if s.hasCalendar n then (s, (.error (.calendarNameCollision n) : Py Unit))
            else ({ s with factories := s.factories.set n c }, .ok ())).2).map fun _ => .unit)
          (((if s'.hasCalendar n then (s', (.error (.calendarNameCollision n) : Py Unit))
            else ({ s' with factories := s'.factories.set n c }, .ok ())).2).map fun _ => .unit) ∧
        AlikeTables (if s.hasCalendar n then (s, (.error (.calendarNameCollision n) : Py Unit))
            else ({ s with factories := s.factories.set n c }, .ok ())).1
          (if s'.hasCalendar n then (s', (.error (.calendarNameCollision n) : Py Unit))
            else ({ s' with factories := s'.factories.set n c }, .ok ())).1 := by
      intro s s' h
      obtain ⟨h1, h2, h3⟩ := h.get
      rw [h.has]
      split
      · exact ⟨.inl rfl, h⟩
      · exact ⟨.inl rfl, alike_tables_of (fun m => by rw [h1]) (fun m => by simp only [Dict.get?_set, h2])
          (fun m => by rw [h3]) h.2⟩
    simp only [Registry.step, registerCalendarType]
    cases force
    · exact key h
    · exact key (h.deregister n)
  | registerAlias a real force =>
    have key : ∀ {s s' : Registry}, AlikeTables s s' →
        SameAnswer (((if s.hasCalendar a then (s, (.error (.calendarNameCollision a) : Py Unit))
            else match { s with aliases := s.aliases.set a real }.resolveAlias a with
              | .error e => ({ s with aliases := (s.aliases.set a real).del a }, .error e)
              | .ok _ => ({ s with aliases := s.aliases.set a real }, .ok ())).2).map fun _ => .unit)
          (((if s'.hasCalendar a then (s', (.error (.calendarNameCollision a) : Py Unit))
            else match { s' with aliases := s'.aliases.set a real }.resolveAlias a with
              | .error e => ({ s' with aliases := (s'.aliases.set a real).del a }, .error e)
              | .ok _ => ({ s' with aliases := s'.aliases.set a real }, .ok ())).2).map fun _ => .unit) ∧
        AlikeTables (if s.hasCalendar a then (s, (.error (.calendarNameCollision a) : Py Unit))
            else match { s with aliases := s.aliases.set a real }.resolveAlias a with
              | .error e => ({ s with aliases := (s.aliases.set a real).del a }, .error e)
              | .ok _ => ({ s with aliases := s.aliases.set a real }, .ok ())).1
          (if s'.hasCalendar a then (s', (.error (.calendarNameCollision a) : Py Unit))
            else match { s' with aliases := s'.aliases.set a real }.resolveAlias a with
              | .error e => ({ s' with aliases := (s'.aliases.set a real).del a }, .error e)
              | .ok _ => ({ s' with aliases := s'.aliases.set a real }, .ok ())).1 := by
      intro s s' h
      obtain ⟨h1, h2, h3⟩ := h.get
      have hset : AlikeTables { s with aliases := s.aliases.set a real } { s' with aliases := s'.aliases.set a real } :=
        alike_tables_of (fun m => by rw [h1]) (fun m => by rw [h2]) (fun m => by simp only [Dict.get?_set, h3]) h.2
      rw [h.has]
      split
      · exact ⟨.inl rfl, h⟩
      · rw [hset.resolve]
        split
        · exact ⟨.inl rfl, alike_tables_of (fun m => by rw [h1]) (fun m => by rw [h2])
            (fun m => by simp only [Dict.get?_del, Dict.get?_set, h3]) h.2⟩
        · exact ⟨.inl rfl, hset⟩
    simp only [Registry.step, registerCalendarAlias]
    cases force
    · exact key h
    · exact key (h.deregister a)
  | deregister n => exact ⟨.inl rfl, h.deregister n⟩
  | clear => exact ⟨.inl rfl, alike_tables_of (fun _ => rfl) (fun _ => rfl) (fun _ => rfl) h.2⟩

/-- C87: registries that record the same for every name answer alike for ever, in whatever order the names were
registered. -/
theorem c87_alike (env : FactoryEnv) {s s' : Registry} (h : AlikeTables s s') (ops : List Op) :
    AlikeTables (s.run env ops) (s'.run env ops) ∧
    ∀ op, SameAnswer ((s.run env ops).step env op).2 ((s'.run env ops).step env op).2 := by
  have key : AlikeTables (s.run env ops) (s'.run env ops) := by
    unfold Registry.run
    induction ops generalizing s s' with
    | nil => exact h
    | cons op ops ih => exact ih (h.step env op).2
  exact ⟨key, fun op => (key.step env op).1⟩

/-- The same two aliases in another order. -/
example : AlikeTables
    { calendars := [("XNYS", 7)], factories := [], aliases := [("NYSE", "XNYS"), ("NASDAQ", "NYSE")], calls := [] }
    { calendars := [("XNYS", 7)], factories := [], aliases := [("NASDAQ", "NYSE"), ("NYSE", "XNYS")], calls := [] } := by
  refine alike_tables_of (fun _ => rfl) (fun _ => rfl) (fun n => ?_) rfl
  simp only [Dict.get?]
  split
  · next h => subst h; rfl
  · rfl

/-! ### writes to different names -/

/-- What is recorded for the name after the call. -/
def recorded : Op → Option CalObj × Option Factory × Option String
  | .registerCal _ c _ => (some c, none, none)
  | .registerType _ f _ => (none, some f, none)
  | .registerAlias _ r _ => (none, none, some r)
  | _ => (none, none, none)

theorem entry_deregister (s : Registry) (n m : String) :
    entry (s.deregister n) m = if m = n then (none, none, none) else entry s m := by
  simp only [entry, Registry.deregister, Dict.get?_del]
  split <;> rfl

theorem not_known_iff {s : Registry} {n : String} : ¬ Known s n ↔ entry s n = (none, none, none) := by
  simp [Known, entry]

theorem write_effect (env : FactoryEnv) {s : Registry} {op : Op} (hw : Writes op)
    (h : (s.step env op).2 = .ok .unit) :
    (∀ m, entry (s.step env op).1 m = if m = written op then recorded op else entry s m) ∧
    (s.step env op).1.calls = s.calls := by
  have hdc : ∀ n, (s.deregister n).calls = s.calls := fun _ => rfl
  cases op with
  | registerCal n c force =>
    have key : ∀ s₀ : Registry, (∀ m, m ≠ n → entry s₀ m = entry s m) → s₀.calls = s.calls →
        (if s₀.hasCalendar n then (s₀, (.error (.calendarNameCollision n) : Py Unit))
          else ({ s₀ with calendars := s₀.calendars.set n c }, .ok ())).2 = .ok () →
        (∀ m, entry (if s₀.hasCalendar n then (s₀, (.error (.calendarNameCollision n) : Py Unit))
          else ({ s₀ with calendars := s₀.calendars.set n c }, .ok ())).1 m =
            if m = n then (some c, none, none) else entry s m) ∧
        (if s₀.hasCalendar n then (s₀, (.error (.calendarNameCollision n) : Py Unit))
          else ({ s₀ with calendars := s₀.calendars.set n c }, .ok ())).1.calls = s.calls := by
      intro s₀ he hc h
      split at h
      · cases h
      · next hk =>
        rw [hasCalendar_iff, not_known_iff] at hk
        rw [if_neg (by rw [hasCalendar_iff, not_known_iff]; exact hk)]
        refine ⟨fun m => ?_, hc⟩
        simp only [entry, Prod.mk.injEq] at hk
        simp only [entry, Dict.get?_set]
        split
        · next e => rw [e, hk.2.1, hk.2.2]
        · next e => exact he m e
    simp only [Registry.step, registerCalendar] at h ⊢
    cases force
    · exact key s (fun _ _ => rfl) rfl (by
        cases hr : (if s.hasCalendar n then (s, (.error (.calendarNameCollision n) : Py Unit))
          else ({ s with calendars := s.calendars.set n c }, .ok ())).2 with
        | ok _ => rfl
        | error e => simp only [Bool.false_eq_true, if_false] at h; rw [hr] at h; cases h)
    · exact key (s.deregister n) (fun m hm => by rw [entry_deregister, if_neg hm]) rfl (by
        cases hr : (if (s.deregister n).hasCalendar n then
            (s.deregister n, (.error (.calendarNameCollision n) : Py Unit))
          else ({ s.deregister n with calendars := (s.deregister n).calendars.set n c }, .ok ())).2 with
        | ok _ => rfl
        | error e => simp only [if_true] at h; rw [hr] at h; cases h)
  | registerType n c force =>
    have key : ∀ s₀ : Registry, (∀ m, m ≠ n → entry s₀ m = entry s m) → s₀.calls = s.calls →
        (if s₀.hasCalendar n then (s₀, (.error (.calendarNameCollision n) : Py Unit))
          else ({ s₀ with factories := s₀.factories.set n c }, .ok ())).2 = .ok () →
        (∀ m, entry (if s₀.hasCalendar n then (s₀, (.error (.calendarNameCollision n) : Py Unit))
          else ({ s₀ with factories := s₀.factories.set n c }, .ok ())).1 m =
            if m = n then (none, some c, none) else entry s m) ∧
        (if s₀.hasCalendar n then (s₀, (.error (.calendarNameCollision n) : Py Unit))
          else ({ s₀ with factories := s₀.factories.set n c }, .ok ())).1.calls = s.calls := by
      intro s₀ he hc h
      split at h
      · cases h
      · next hk =>
        rw [hasCalendar_iff, not_known_iff] at hk
        rw [if_neg (by rw [hasCalendar_iff, not_known_iff]; exact hk)]
        refine ⟨fun m => ?_, hc⟩
        simp only [entry, Prod.mk.injEq] at hk
        simp only [entry, Dict.get?_set]
        split
        · next e => rw [e, hk.1, hk.2.2]
        · next e => exact he m e
    simp only [Registry.step, registerCalendarType] at h ⊢
    cases force
    · exact key s (fun _ _ => rfl) rfl (by
        cases hr : (if s.hasCalendar n then (s, (.error (.calendarNameCollision n) : Py Unit))
          else ({ s with factories := s.factories.set n c }, .ok ())).2 with
        | ok _ => rfl
        | error e => simp only [Bool.false_eq_true, if_false] at h; rw [hr] at h; cases h)
    · exact key (s.deregister n) (fun m hm => by rw [entry_deregister, if_neg hm]) rfl (by
        cases hr : (if (s.deregister n).hasCalendar n then
            (s.deregister n, (.error (.calendarNameCollision n) : Py Unit))
          else ({ s.deregister n with factories := (s.deregister n).factories.set n c }, .ok ())).2 with
        | ok _ => rfl
        | error e => simp only [if_true] at h; rw [hr] at h; cases h)
  | registerAlias a real force =>
    have key : ∀ s₀ : Registry, (∀ m, m ≠ a → entry s₀ m = entry s m) → s₀.calls = s.calls →
        (s₀.registerCalendarAlias a real false).2 = .ok () →
        (∀ m, entry (s₀.registerCalendarAlias a real false).1 m =
            if m = a then (none, none, some real) else entry s m) ∧
        (s₀.registerCalendarAlias a real false).1.calls = s.calls := by
      intro s₀ he hc h
      rcases Classical.em (Known s₀ a) with hk | hk
      · rw [(c05_register_calendar_alias s₀ a real).1 hk] at h; cases h
      · rcases (c05_register_calendar_alias s₀ a real).2 hk with ⟨h1, h2, h3⟩ | ⟨rep, h1⟩
        · refine ⟨fun m => ?_, ?_⟩
          · split
            · next e => rw [e]; exact h2
            · next e => rw [h3 m e]; exact he m e
          · unfold registerCalendarAlias
            simp only [Bool.false_eq_true, if_false]
            split
            · exact hc
            · split <;> exact hc
        · rw [h1] at h; cases h
    have hok : ∀ r : Py Unit, (r.map fun _ => Out.unit) = .ok .unit → r = .ok () := by
      intro r hr
      cases r with
      | ok _ => rfl
      | error e => cases hr
    simp only [Registry.step] at h ⊢
    have e : s.registerCalendarAlias a real force =
        (if force then s.deregister a else s).registerCalendarAlias a real false := by
      cases force <;> rfl
    rw [e] at h ⊢
    cases force
    · exact key s (fun _ _ => rfl) rfl (hok _ h)
    · exact key (s.deregister a) (fun m hm => by rw [entry_deregister, if_neg hm]) rfl (hok _ h)
  | deregister n => exact ⟨fun m => entry_deregister s n m, rfl⟩
  | get n => cases hw
  | has n => cases hw
  | names => cases hw
  | resolve n => cases hw
  | clear => cases hw

/-- C87: two calls that write different names, of whatever kind, have the same effect in both orders, if they succeed
in both. -/
theorem c87_swap (env : FactoryEnv) (s : Registry) {op₁ op₂ : Op} (h₁ : Writes op₁) (h₂ : Writes op₂)
    (hne : written op₁ ≠ written op₂) (h12 : Succeed env s [op₁, op₂]) (h21 : Succeed env s [op₂, op₁]) :
    AlikeTables (s.run env [op₁, op₂]) (s.run env [op₂, op₁]) := by
  obtain ⟨a1, a2, -⟩ := h12
  obtain ⟨b1, b2, -⟩ := h21
  have ea1 := write_effect env h₁ a1
  have ea2 := write_effect env h₂ a2
  have eb1 := write_effect env h₂ b1
  have eb2 := write_effect env h₁ b2
  refine ⟨fun n => ?_, ?_⟩
  · simp only [Registry.run, List.foldl_cons, List.foldl_nil]
    rw [eb2.1, ea2.1, eb1.1, ea1.1]
    split
    · next e => rw [if_neg (by rw [e]; exact hne)]
    · rfl
  · simp only [Registry.run, List.foldl_cons, List.foldl_nil]
    rw [eb2.2, ea2.2, eb1.2, ea1.2]

/-- Replacing one name and deregistering another one. -/
example (env : FactoryEnv) :
    Succeed env demo [.registerAlias "LSE" "XNYS" true, .deregister "XLON"] ∧
    Succeed env demo [.deregister "XLON", .registerAlias "LSE" "XNYS" true] ∧
    written (.registerAlias "LSE" "XNYS" true) ≠ written (.deregister "XLON") := by
  simp [Succeed, Registry.step, registerCalendarAlias, Registry.deregister, hasCalendar, Dict.has, Dict.get?, Dict.set,
    Dict.del, resolveAlias, resolveLoop, Except.map, demo, written]

/-- A forced registration over an alias and an alias in the other direction do not commute: one order is refused. -/
example (env : FactoryEnv) :
    let s : Registry := { calendars := [], factories := [], aliases := [("b", "a")], calls := [] }
    Succeed env s [.registerCal "b" 1 true, .registerAlias "a" "b" false] ∧
    ¬ Succeed env s [.registerAlias "a" "b" false, .registerCal "b" 1 true] := by
  simp [Succeed, Registry.step, registerCalendar, registerCalendarAlias, Registry.deregister, hasCalendar, Dict.has,
    Dict.get?, Dict.set, Dict.del, resolveAlias, resolveLoop, Except.map]

/-! ### any order of registrations -/

theorem acyclic_part {al al' : String → Option String} (hsub : ∀ n m, al n = some m → al' n = some m)
    (h : ∀ n, ∃ r, ResolvesTo al' n r) (n : String) : ∃ r, ResolvesTo al n r := by
  obtain ⟨r, hr⟩ := h n
  induction hr with
  | @done n hn =>
    refine ⟨n, .done ?_⟩
    cases e : al n with
    | none => rfl
    | some m => rw [hsub n m e] at hn; cases hn
  | @step n m r hn _ ih =>
    cases e : al n with
    | none => exact ⟨n, .done e⟩
    | some m' =>
      have := hsub n m' e
      rw [hn] at this
      cases this
      obtain ⟨r', hr'⟩ := ih
      exact ⟨r', .step e hr'⟩

theorem Registers.writes {op : Op} (h : Registers op) : Writes op := by
  cases op <;> first | trivial | exact h

theorem recorded_ne {op : Op} (h : Registers op) : recorded op ≠ (none, none, none) := by
  cases op <;> first | (simp [recorded]; done) | exact h.elim

/-- An unforced registration succeeds only under a name that is not known. -/
theorem registers_unknown (env : FactoryEnv) {s : Registry} {op : Op} (hr : Registers op)
    (h : (s.step env op).2 = .ok .unit) : ¬ Known s (written op) := by
  intro hk
  cases op with
  | registerCal n c f =>
    cases (hr : f = false)
    simp only [Registry.step, (c05_register_calendar s n c).1 hk] at h
    cases h
  | registerType n c f =>
    cases (hr : f = false)
    simp only [Registry.step, (c05_register_calendar_type s n c).1 hk] at h
    cases h
  | registerAlias n c f =>
    cases (hr : f = false)
    simp only [Registry.step, (c05_register_calendar_alias s n c).1 hk] at h
    cases h
  | get n => cases hr
  | has n => cases hr
  | names => cases hr
  | resolve n => cases hr
  | deregister n => cases hr
  | clear => cases hr

/-- An unforced registration succeeds if the name is not known and the links with the new one are among links
without a cycle. -/
theorem registers_succeeds (env : FactoryEnv) {s : Registry} {op : Op} (hr : Registers op)
    (hk : ¬ Known s (written op)) {al : String → Option String} (hal : ∀ n, ∃ r, ResolvesTo al n r)
    (hsub : ∀ n m, (if n = written op then (recorded op).2.2 else alias s n) = some m → al n = some m) :
    (s.step env op).2 = .ok .unit := by
  cases op with
  | registerCal n c f =>
    cases (hr : f = false)
    simp only [Registry.step, ((c05_register_calendar s n c).2 hk).1]
    rfl
  | registerType n c f =>
    cases (hr : f = false)
    simp only [Registry.step, ((c05_register_calendar_type s n c).2 hk).1]
    rfl
  | registerAlias a real f =>
    cases (hr : f = false)
    have hc : s.hasCalendar a = false := (hasCalendar_false_iff s a).2 hk
    obtain ⟨r, hres⟩ := acyclic_part (al := ({ s with aliases := s.aliases.set a real } : Registry).aliases.get?)
      (fun n m h => hsub n m (by rw [Dict.get?_set] at h; exact h)) hal a
    have := (resolveAlias_ok_iff { s with aliases := s.aliases.set a real } a r).2 hres
    simp only [Registry.step, registerCalendarAlias, Bool.false_eq_true, if_false, hc, this]
    rfl
  | get n => cases hr
  | has n => cases hr
  | names => cases hr
  | resolve n => cases hr
  | deregister n => cases hr
  | clear => cases hr

theorem alias_of_entry {s : Registry} (n : String) : alias s n = (entry s n).2.2 := rfl

theorem succeed_swap (env : FactoryEnv) {s : Registry} (hac : ∀ n, ∃ r, ResolvesTo (alias s) n r) {op₁ op₂ : Op}
    (h₁ : Registers op₁) (h₂ : Registers op₂) (h12 : Succeed env s [op₁, op₂]) :
    written op₁ ≠ written op₂ ∧ Succeed env s [op₂, op₁] := by
  obtain ⟨a1, a2, -⟩ := h12
  have ea1 := write_effect env h₁.writes a1
  have ea2 := write_effect env h₂.writes a2
  have k1 := registers_unknown env h₁ a1
  have k2 := registers_unknown env h₂ a2
  have hne : written op₂ ≠ written op₁ := by
    intro e
    rw [not_known_iff, ea1.1, if_pos e] at k2
    exact recorded_ne h₁ k2
  have hac' := acyclic_step env (acyclic_step env hac op₁) op₂
  have kn2 : ¬ Known s (written op₂) := by
    rw [not_known_iff, ea1.1, if_neg hne, ← not_known_iff] at k2
    exact k2
  have none1 : alias s (written op₁) = none := by
    rw [alias_of_entry, not_known_iff.1 k1]
  have b1 : (s.step env op₂).2 = .ok .unit := by
    refine registers_succeeds env h₂ kn2 hac' fun n m hm => ?_
    rw [alias_of_entry, ea2.1, ea1.1]
    split at hm
    · next e => rw [if_pos e]; exact hm
    · next e =>
      rw [if_neg e, if_neg (by rintro rfl; rw [none1] at hm; cases hm)]
      exact hm
  have eb1 := write_effect env h₂.writes b1
  refine ⟨hne.symm, b1, registers_succeeds env h₁ ?_ hac' fun n m hm => ?_, trivial⟩
  · rw [not_known_iff, eb1.1, if_neg hne.symm]
    exact not_known_iff.1 k1
  · rw [alias_of_entry, eb1.1] at hm
    rw [alias_of_entry, ea2.1, ea1.1]
    split at hm
    · next e => rw [if_neg (by rw [e]; exact hne.symm), if_pos e]; exact hm
    · next e => rw [if_neg e]; exact hm

theorem AlikeTables.succeed (env : FactoryEnv) {s s' : Registry} (h : AlikeTables s s') {ops : List Op}
    (hs : Succeed env s ops) : Succeed env s' ops := by
  induction ops generalizing s s' with
  | nil => trivial
  | cons op ops ih =>
    obtain ⟨h1, h2⟩ := hs
    obtain ⟨k1, k2⟩ := h.step env op
    refine ⟨?_, ih k2 h2⟩
    rcases k1 with k | ⟨l, l', e, -⟩
    · rw [k]; exact h1
    · rw [h1] at e; cases e

theorem run_cons (env : FactoryEnv) (s : Registry) (op : Op) (ops : List Op) :
    s.run env (op :: ops) = (s.step env op).1.run env ops := rfl

/-- C87: registrations that replace nothing and succeed in one order succeed in every order, and the registries
are alike afterwards: same answers to every later history (`c87_alike`). -/
theorem c87_any_order (env : FactoryEnv) (s : Registry) (hac : ∀ n, ¬ Cyclic (alias s) n) {ops ops' : List Op}
    (hr : ∀ op ∈ ops, Registers op) (hs : Succeed env s ops) (hp : ops.Perm ops') :
    Succeed env s ops' ∧ AlikeTables (s.run env ops) (s.run env ops') := by
  have hac : ∀ n, ∃ r, ResolvesTo (alias s) n r := fun n => not_cyclic_iff.1 (hac n)
  induction hp generalizing s with
  | nil => exact ⟨trivial, .refl _⟩
  | @cons op l₁ l₂ _ ih =>
    obtain ⟨h1, h2⟩ := hs
    have := ih (s.step env op).1 (fun n => not_cyclic_iff.2 (acyclic_step env hac op n))
      (fun o ho => hr o (List.mem_cons_of_mem _ ho)) h2 (acyclic_step env hac op)
    exact ⟨⟨h1, this.1⟩, this.2⟩
  | swap op₂ op₁ l =>
    obtain ⟨h1, h2, h3⟩ := hs
    have r1 := hr op₁ (by simp)
    have r2 := hr op₂ (by simp)
    obtain ⟨hne, b1, b2, -⟩ := succeed_swap env hac r1 r2 ⟨h1, h2, trivial⟩
    have al := c87_swap env s r1.writes r2.writes hne ⟨h1, h2, trivial⟩ ⟨b1, b2, trivial⟩
    exact ⟨⟨b1, b2, al.succeed env h3⟩, (c87_alike env al l).1⟩
  | trans p _ ih1 ih2 =>
    obtain ⟨s1, a1⟩ := ih1 s (fun n => not_cyclic_iff.2 (hac n)) hr hs hac
    obtain ⟨s2, a2⟩ := ih2 s (fun n => not_cyclic_iff.2 (hac n)) (fun o ho => hr o (p.mem_iff.2 ho)) s1 hac
    exact ⟨s2, a1.trans a2⟩

/-- C87 for the global registry: after any history of public calls, registrations that succeed in one order do so
in any, and no later call can tell the difference. -/
theorem c87_default (env : FactoryEnv) (history ops ops' later : List Op) (op : Op)
    (hr : ∀ op ∈ ops, Registers op) (hs : Succeed env (defaultRegistry.run env history) ops) (hp : ops.Perm ops') :
    Succeed env (defaultRegistry.run env history) ops' ∧
    SameAnswer (((defaultRegistry.run env (history ++ ops ++ later))).step env op).2
      (((defaultRegistry.run env (history ++ ops' ++ later))).step env op).2 := by
  have := c87_any_order env _
    (fun n => (c02_acyclic_history env defaultRegistry defaultRegistry_acyclic history n).1) hr hs hp
  refine ⟨this.1, ?_⟩
  have e : ∀ xs, defaultRegistry.run env (history ++ xs ++ later) =
      ((defaultRegistry.run env history).run env xs).run env later := by
    intro xs
    simp only [Registry.run, List.foldl_append]
  rw [e, e]
  exact (c87_alike env this.2 later).2 op

/-- A calendar, a class, an alias of the class and an alias of that alias, registered in the default registry; the
aliases may come first. -/
example (env : FactoryEnv) :
    Succeed env defaultRegistry [.registerCal "MINE" 3 false, .registerType "KIND" 99 false,
      .registerAlias "SORT" "KIND" false, .registerAlias "CLASS" "SORT" false] ∧
    (∀ op ∈ ([.registerCal "MINE" 3 false, .registerType "KIND" 99 false, .registerAlias "SORT" "KIND" false,
      .registerAlias "CLASS" "SORT" false] : List Op), Registers op) := by
  refine ⟨?_, by simp [Registers]⟩
  simp [Succeed, Registry.step, registerCalendar, registerCalendarType, registerCalendarAlias, hasCalendar, Dict.has,
    Dict.get?, Dict.set, resolveAlias, resolveLoop, Except.map, defaultRegistry, defaultFactoryNames, defaultAliases,
    List.range, List.range.loop]

end TC.Props
