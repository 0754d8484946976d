import Verif.Spec.Interrupted
import Verif.Props.Threads

/-!
# C72: calls that are interrupted
-/

namespace TC.Props
open TC TC.Spec TC.Registry TC.Threads

theorem alone_done {env : FactoryEnv} {s s' : Registry} {p' : Pc} {r : Py Out} (h : Alone env s (.done r) s' p') :
    s' = s ∧ p' = .done r := by
  generalize hp : Pc.done r = p at h
  induction h with
  | refl => subst hp; exact ⟨rfl, rfl⟩
  | step _ ih => subst hp; exact ih rfl

theorem alone_final {env : FactoryEnv} {s s₁ s₂ : Registry} {p p₁ p₂ : Pc} {r r' : Py Out}
    (h : Alone env s p s₁ p₁) (e : p₁ = .done r) (h' : Alone env s p s₂ p₂) (e' : p₂ = .done r') :
    s₁ = s₂ ∧ r = r' := by
  induction h with
  | refl s p =>
    subst e
    obtain ⟨a, b⟩ := alone_done h'
    rw [e'] at b
    cases b
    exact ⟨a.symm, rfl⟩
  | @step s p s₁ p₁ h1 ih =>
    cases h' with
    | refl =>
      subst e'
      obtain ⟨a, b⟩ := alone_done h1
      rw [e] at b
      cases b
      exact ⟨a, rfl⟩
    | step h2 => exact ih e h2

/-- The dispatcher when the checks of the call begin: after `deregister_calendar` if it is forced. -/
def checkedAt (s : Registry) : Op → Registry
  | .registerCal n _ true | .registerType n _ true | .registerAlias n _ true => s.deregister n
  | _ => s

/-- The call asks whether the name is known, and goes on with the payload if not. -/
def Asks (op : Op) (n : String) : Option Payload → Prop
  | none => op = .has n
  | some (.cal c) => ∃ f, op = .registerCal n c f
  | some (.type t) => ∃ f, op = .registerType n t f
  | some (.alias r) => ∃ f, op = .registerAlias n r f

/-- The call removes the name, and goes on with the payload. -/
def Pops (op : Op) (n : String) : Option Payload → Prop
  | none => op = .deregister n
  | some (.cal c) => op = .registerCal n c true
  | some (.type t) => op = .registerType n t true
  | some (.alias r) => op = .registerAlias n r true

/-- Where a call is, and what it has done by then. -/
def During (s : Registry) (op : Op) (s' : Registry) : Pc → Prop
  | .resolveIn .check a _ _ | .resolveAt .check a _ _ | .undo a _ =>
    ∃ r f, op = .registerAlias a r f ∧ (checkedAt s op).hasCalendar a = false ∧
      s' = { checkedAt s op with aliases := (checkedAt s op).aliases.set a r }
  | .resolveIn .user n _ _ | .resolveAt .user n _ _ => op = .resolve n ∧ s' = s
  | .resolveIn .get n _ _ | .resolveAt .get n _ _ | .cached n _ | .factory n _ => op = .get n ∧ s' = s
  | .make _ _ => (∃ n, op = .get n) ∧ s' = s
  | .store _ _ => (∃ n, op = .get n) ∧ ∃ log, s' = { s with calls := log }
  | .has1 n nx => Asks op n nx ∧ s' = checkedAt s op
  | .has2 n nx => Asks op n nx ∧ s' = checkedAt s op ∧ s'.calendars.has n = false
  | .has3 n nx => Asks op n nx ∧ s' = checkedAt s op ∧ s'.calendars.has n = false ∧ s'.factories.has n = false
  | .set n p => Asks op n (some p) ∧ s' = checkedAt s op ∧ s'.hasCalendar n = false
  | .pop1 n nx => Pops op n nx ∧ s' = s
  | .pop2 n nx => Pops op n nx ∧ s' = { s with calendars := s.calendars.del n }
  | .pop3 n nx => Pops op n nx ∧ s' = { s with calendars := s.calendars.del n, factories := s.factories.del n }
  | .names => op = .names ∧ s' = s
  | .clear1 => op = .clear ∧ s' = s
  | .clear2 => op = .clear ∧ s' = { s with calendars := [] }
  | .clear3 => op = .clear ∧ s' = { s with calendars := [], factories := [] }
  | .done _ => True

theorem during_begin (s : Registry) (op : Op) : During s op s (begin op) := by
  cases op with
  | registerCal n c f => cases f <;> simp [begin, During, Asks, Pops, checkedAt]
  | registerType n c f => cases f <;> simp [begin, During, Asks, Pops, checkedAt]
  | registerAlias n c f => cases f <;> simp [begin, During, Asks, Pops, checkedAt]
  | _ => simp [begin, During, Asks, Pops, checkedAt]

theorem during_advance {env : FactoryEnv} {s s' : Registry} {op : Op} {p : Pc} (h : During s op s' p) :
    During s op (advance env s' p).1 (advance env s' p).2 := by
  cases p with
  | resolveIn why asked seen name =>
    simp only [advance]
    cases why <;> split <;> simp_all [During, resolved]
  | resolveAt why asked seen name =>
    simp only [advance]
    cases why <;> split <;> first | trivial | (split <;> simp_all [During, cyclic])
  | cached a c => simp only [advance]; split <;> simp_all [During]
  | factory a c => simp only [advance]; split <;> simp_all [During]
  | make c f =>
    obtain ⟨h1, rfl⟩ := h
    simp only [advance]
    cases env f s'.calls with
    | error e => trivial
    | ok c => exact ⟨h1, _, rfl⟩
  | store c o => trivial
  | has1 n nx =>
    simp only [advance]
    split
    · cases nx <;> trivial
    · simp_all [During]
  | has2 n nx =>
    simp only [advance]
    split
    · cases nx <;> trivial
    · rename_i h'
      exact ⟨h.1, h.2.1, h.2.2, by simpa using h'⟩
  | has3 n nx =>
    simp only [advance]
    split
    · cases nx <;> trivial
    · cases nx with
      | none => trivial
      | some p =>
        rename_i h'
        obtain ⟨h1, h2, h3, h4⟩ := h
        refine ⟨h1, h2, ?_⟩
        simp only [hasCalendar, h3, h4, Bool.false_or]
        simpa using h'
  | set n p =>
    cases p with
    | cal c => trivial
    | type c => trivial
    | alias r =>
      obtain ⟨⟨f, rfl⟩, rfl, h⟩ := h
      exact ⟨r, f, rfl, h, rfl⟩
  | pop1 n nx => obtain ⟨h, rfl⟩ := h; exact ⟨h, rfl⟩
  | pop2 n nx => obtain ⟨h, rfl⟩ := h; exact ⟨h, rfl⟩
  | pop3 n nx =>
    obtain ⟨h, rfl⟩ := h
    cases nx with
    | none => trivial
    | some p =>
      cases p <;> (simp only [Pops] at h; subst h; exact ⟨⟨true, rfl⟩, rfl⟩)
  | undo a e => trivial
  | names => trivial
  | clear1 => obtain ⟨h, rfl⟩ := h; exact ⟨h, rfl⟩
  | clear2 => obtain ⟨h, rfl⟩ := h; exact ⟨h, rfl⟩
  | clear3 => trivial
  | done r => trivial

/-- Every state in which a call can be interrupted. -/
theorem interrupted_cases {env : FactoryEnv} {s s' : Registry} {op : Op} (h : Interrupted env s op s') :
    s' = (s.step env op).1 ∨ ∃ p, During s op s' p ∧ ∀ r, p ≠ .done r := by
  obtain ⟨p, h⟩ := h
  have key : ∀ {s₁ p₁}, During s op s₁ p₁ → ∀ {s₂ p₂}, Alone env s₁ p₁ s₂ p₂ → During s op s₂ p₂ := by
    intro s₁ p₁ hd s₂ p₂ ha
    induction ha with
    | refl => exact hd
    | step _ ih => exact ih (during_advance hd)
  by_cases hp : ∃ r, p = .done r
  · obtain ⟨r, rfl⟩ := hp
    exact .inl (alone_final h rfl (c69_alone env s op) rfl).1
  · exact .inr ⟨p, key (during_begin s op) h, fun r e => hp ⟨r, e⟩⟩

/-! ### What is left behind -/

theorem sameRegistry_calls (s : Registry) (log : List Factory) : SameRegistry { s with calls := log } s :=
  fun _ => rfl

/-- A refused alias is in the table until it is backed out; an accepted one stays. -/
theorem checking_cases {env : FactoryEnv} {s : Registry} {a r : String} {f : Bool}
    (hh : (checkedAt s (.registerAlias a r f)).hasCalendar a = false) :
    let b := checkedAt s (.registerAlias a r f)
    let s' : Registry := { b with aliases := b.aliases.set a r }
    s' = (s.step env (.registerAlias a r f)).1 ∨ CycleLeft b a r s' := by
  intro b s'
  have hb : b = if f = true then s.deregister a else s := by cases f <;> rfl
  have hk : ¬ Known b a := by rw [← hasCalendar_iff, hh]; decide
  simp only [Known, not_or, Decidable.not_not] at hk
  rcases hr : s'.resolveAlias a with e | c
  · right
    refine ⟨by simp only [has3, hk.1, hk.2.1, hk.2.2], ?_, ?_, (resolveAlias_error_iff s' a).1 ⟨e, hr⟩⟩
    · show (b.calendars.get? a, b.factories.get? a, (b.aliases.set a r).get? a) = _
      rw [hk.1, hk.2.1, Dict.get?_set, if_pos rfl]
    · intro n hn
      show (b.calendars.get? n, b.factories.get? n, (b.aliases.set a r).get? n) = _
      rw [Dict.get?_set, if_neg hn]
      rfl
  · left
    simp only [step, registerCalendarAlias, ← hb]
    have : b.hasCalendar a = false := hh
    simp only [this, Bool.false_eq_true, if_false]
    show s' = _
    have hr' : Registry.resolveAlias { b with aliases := b.aliases.set a r } a = .ok c := hr
    rw [hr']

/-- **C72.**  A call that removes nothing is atomic: interrupted anywhere, it has done nothing or all, except that
an alias that is refused because of a cycle may be left in the table. -/
theorem c72_atomic {env : FactoryEnv} {s s' : Registry} {op : Op} (h : Interrupted env s op s')
    (hop : op ≠ .clear ∧ ∀ n, ¬ RemovesName n op) :
    SameRegistry s' s ∨ SameRegistry s' (s.step env op).1 ∨
      ∃ a r, op = .registerAlias a r false ∧ CycleLeft s a r s' := by
  have hc : checkedAt s op = s := by
    cases op with
    | registerCal n c f => cases f with
      | false => rfl
      | true => exact absurd ⟨rfl, rfl⟩ (hop.2 n)
    | registerType n c f => cases f with
      | false => rfl
      | true => exact absurd ⟨rfl, rfl⟩ (hop.2 n)
    | registerAlias n c f => cases f with
      | false => rfl
      | true => exact absurd ⟨rfl, rfl⟩ (hop.2 n)
    | _ => rfl
  have hpop : ∀ n nx, ¬ Pops op n nx := by
    intro n nx hp
    refine hop.2 n ?_
    cases nx with
    | none => simp only [Pops] at hp; subst hp; rfl
    | some p => cases p <;> (simp only [Pops] at hp; subst hp; exact ⟨rfl, rfl⟩)
  have alias_case : ∀ a, (∃ r f, op = .registerAlias a r f ∧ (checkedAt s op).hasCalendar a = false ∧
      s' = { checkedAt s op with aliases := (checkedAt s op).aliases.set a r }) →
      SameRegistry s' s ∨ SameRegistry s' (s.step env op).1 ∨
      ∃ a r, op = .registerAlias a r false ∧ CycleLeft s a r s' := by
    rintro a ⟨r, f, rfl, hh, rfl⟩
    cases f with
    | true => exact absurd ⟨rfl, rfl⟩ (hop.2 a)
    | false =>
      rcases checking_cases (env := env) hh with e | e
      · exact .inr (.inl fun n => by rw [e])
      · exact .inr (.inr ⟨a, r, rfl, e⟩)
  rcases interrupted_cases h with rfl | ⟨p, hp, hd⟩
  · exact .inr (.inl fun _ => rfl)
  · cases p with
    | resolveIn why a sn n =>
      cases why with
      | check => exact alias_case a hp
      | user => obtain ⟨-, rfl⟩ := hp; exact .inl fun _ => rfl
      | get => obtain ⟨-, rfl⟩ := hp; exact .inl fun _ => rfl
    | resolveAt why a sn n =>
      cases why with
      | check => exact alias_case a hp
      | user => obtain ⟨-, rfl⟩ := hp; exact .inl fun _ => rfl
      | get => obtain ⟨-, rfl⟩ := hp; exact .inl fun _ => rfl
    | undo a e => exact alias_case a hp
    | store c o => obtain ⟨-, log, rfl⟩ := hp; exact .inl (sameRegistry_calls s log)
    | has1 n nx => rw [hp.2, hc]; exact .inl fun _ => rfl
    | has2 n nx => rw [hp.2.1, hc]; exact .inl fun _ => rfl
    | has3 n nx => rw [hp.2.1, hc]; exact .inl fun _ => rfl
    | set n p => rw [hp.2.1, hc]; exact .inl fun _ => rfl
    | pop1 n nx => exact absurd hp.1 (hpop n nx)
    | pop2 n nx => exact absurd hp.1 (hpop n nx)
    | pop3 n nx => exact absurd hp.1 (hpop n nx)
    | clear1 => exact absurd hp.1 hop.1
    | clear2 => exact absurd hp.1 hop.1
    | clear3 => exact absurd hp.1 hop.1
    | done r => exact absurd rfl (hd r)
    | cached a c => obtain ⟨-, rfl⟩ := hp; exact .inl fun _ => rfl
    | factory a c => obtain ⟨-, rfl⟩ := hp; exact .inl fun _ => rfl
    | make a c => obtain ⟨-, rfl⟩ := hp; exact .inl fun _ => rfl
    | names => obtain ⟨-, rfl⟩ := hp; exact .inl fun _ => rfl

theorem del_del {V : Type} (d : Dict V) (n : String) : (d.del n).del n = d.del n :=
  Dict.del_of_not_has (by simp [Dict.has_del])

theorem deregister_idem (s : Registry) (n : String) : (s.deregister n).deregister n = s.deregister n := by
  simp only [deregister, del_del]

/-- The states in which a call that removes the name can be interrupted. -/
theorem removes_cases {env : FactoryEnv} {s s' : Registry} {op : Op} {n : String} (h : Interrupted env s op s')
    (hop : RemovesName n op) :
    s' = s ∨ s' = { s with calendars := s.calendars.del n } ∨
      s' = { s with calendars := s.calendars.del n, factories := s.factories.del n } ∨ s' = s.deregister n ∨
      s' = (s.step env op).1 ∨
      ∃ r, op = .registerAlias n r true ∧ CycleLeft (s.deregister n) n r s' ∧
        s' = { s.deregister n with aliases := (s.aliases.del n).set n r } := by
  have hname : ∀ m nx, Pops op m nx → m = n := by
    intro m nx hp
    cases nx with
    | none => simp only [Pops] at hp; subst hp; exact hop
    | some p => cases p <;> (simp only [Pops] at hp; subst hp; exact hop.1)
  have hchk : ∀ m nx, Asks op m nx → checkedAt s op = s.deregister n := by
    intro m nx hp
    cases nx with
    | none => simp only [Asks] at hp; subst hp; exact hop.elim
    | some p =>
      cases p <;> (obtain ⟨f, rfl⟩ := hp; obtain ⟨rfl, rfl⟩ := hop; rfl)
  have alias_case : ∀ a, (∃ r f, op = .registerAlias a r f ∧ (checkedAt s op).hasCalendar a = false ∧
      s' = { checkedAt s op with aliases := (checkedAt s op).aliases.set a r }) →
      s' = (s.step env op).1 ∨
      ∃ r, op = .registerAlias n r true ∧ CycleLeft (s.deregister n) n r s' ∧
        s' = { s.deregister n with aliases := (s.aliases.del n).set n r } := by
    rintro a ⟨r, f, rfl, hh, rfl⟩
    obtain ⟨rfl, rfl⟩ := hop
    rcases checking_cases (env := env) hh with e | e
    · exact .inl e
    · exact .inr ⟨r, rfl, e, rfl⟩
  rcases interrupted_cases h with rfl | ⟨p, hp, hd⟩
  · exact .inr (.inr (.inr (.inr (.inl rfl))))
  · cases p with
    | resolveIn why a sn m =>
      cases why with
      | check => exact .inr (.inr (.inr (.inr (alias_case a hp))))
      | user => obtain ⟨rfl, -⟩ := hp; exact hop.elim
      | get => obtain ⟨rfl, -⟩ := hp; exact hop.elim
    | resolveAt why a sn m =>
      cases why with
      | check => exact .inr (.inr (.inr (.inr (alias_case a hp))))
      | user => obtain ⟨rfl, -⟩ := hp; exact hop.elim
      | get => obtain ⟨rfl, -⟩ := hp; exact hop.elim
    | undo a e => exact .inr (.inr (.inr (.inr (alias_case a hp))))
    | store c o => obtain ⟨⟨m, rfl⟩, -⟩ := hp; exact hop.elim
    | make c o => obtain ⟨⟨m, rfl⟩, -⟩ := hp; exact hop.elim
    | cached a c => obtain ⟨rfl, -⟩ := hp; exact hop.elim
    | factory a c => obtain ⟨rfl, -⟩ := hp; exact hop.elim
    | names => obtain ⟨rfl, -⟩ := hp; exact hop.elim
    | clear1 => obtain ⟨rfl, -⟩ := hp; exact hop.elim
    | clear2 => obtain ⟨rfl, -⟩ := hp; exact hop.elim
    | clear3 => obtain ⟨rfl, -⟩ := hp; exact hop.elim
    | has1 m nx => exact .inr (.inr (.inr (.inl (hp.2.trans (hchk m nx hp.1)))))
    | has2 m nx => exact .inr (.inr (.inr (.inl (hp.2.1.trans (hchk m nx hp.1)))))
    | has3 m nx => exact .inr (.inr (.inr (.inl (hp.2.1.trans (hchk m nx hp.1)))))
    | set m p => exact .inr (.inr (.inr (.inl (hp.2.1.trans (hchk m _ hp.1)))))
    | pop1 m nx => exact .inl hp.2
    | pop2 m nx => rw [hname m nx hp.1] at hp; exact .inr (.inl hp.2)
    | pop3 m nx => rw [hname m nx hp.1] at hp; exact .inr (.inr (.inl hp.2))
    | done r => exact absurd rfl (hd r)

/-- The tables of `s` and `s'` are the same once the name is removed. -/
theorem removes_deregister {env : FactoryEnv} {s s' : Registry} {op : Op} {n : String}
    (h : Interrupted env s op s') (hop : RemovesName n op) : s'.deregister n = s.deregister n := by
  have hfin : (s.step env op).1.deregister n = s.deregister n := by
    have hk : (s.deregister n).hasCalendar n = false := (hasCalendar_false_iff _ n).2 (not_known_deregister s n)
    have h1 : ∀ {V : Type} (d : Dict V) (v : V), ((d.del n).set n v).del n = d.del n := by
      intro V d v
      rw [Dict.del_set_of_not_has (by simp [Dict.has_del])]
    cases op with
    | registerCal m c f =>
      obtain ⟨rfl, rfl⟩ := hop
      simp only [step, registerCalendar, if_true, hk, Bool.false_eq_true, if_false]
      simp only [deregister, h1, del_del]
    | registerType m c f =>
      obtain ⟨rfl, rfl⟩ := hop
      simp only [step, registerCalendarType, if_true, hk, Bool.false_eq_true, if_false]
      simp only [deregister, h1, del_del]
    | registerAlias m r f =>
      obtain ⟨rfl, rfl⟩ := hop
      simp only [step, registerCalendarAlias, if_true, hk, Bool.false_eq_true, if_false]
      split <;> simp only [deregister, h1, del_del]
    | deregister m => rw [show m = n from hop]; exact deregister_idem s n
    | _ => exact hop.elim
  rcases removes_cases h hop with rfl | rfl | rfl | rfl | rfl | ⟨r, -, -, rfl⟩
  · rfl
  · simp only [deregister, del_del]
  · simp only [deregister, del_del]
  · exact deregister_idem s n
  · exact hfin
  · simp only [deregister, del_del]
    rw [Dict.del_set_of_not_has (by simp [Dict.has_del])]

/-- **C72.**  A call that removes a name, alone or to register something else for it, touches no other name,
wherever it is interrupted.  What was there for the name goes in the order calendar, factory, alias; so it is what
it was before or less, unless the call is through, or its alias leads into a cycle. -/
theorem c72_removes {env : FactoryEnv} {s s' : Registry} {op : Op} {n : String} (h : Interrupted env s op s')
    (hop : RemovesName n op) :
    (∀ m, m ≠ n → has3 s' m = has3 s m) ∧
    (Kept (s.calendars.get? n) (s'.calendars.get? n) ∧ Kept (s.factories.get? n) (s'.factories.get? n) ∧
        Kept (s.aliases.get? n) (s'.aliases.get? n) ∧
        (s'.factories.get? n ≠ s.factories.get? n → s'.calendars.get? n = none) ∧
        (s'.aliases.get? n ≠ s.aliases.get? n → s'.calendars.get? n = none ∧ s'.factories.get? n = none) ∨
      SameRegistry s' (s.step env op).1 ∨
      ∃ r, op = .registerAlias n r true ∧ CycleLeft (s.deregister n) n r s') := by
  have hdel : ∀ {V : Type} (d : Dict V) (k : String), (d.del n).get? k = if k = n then none else d.get? k := by
    intro V d k
    rw [Dict.get?_del]
  constructor
  · intro m hm
    have e := removes_deregister h hop
    have hd : ∀ r : Registry, has3 (r.deregister n) m = has3 r m := by
      intro r
      show ((r.calendars.del n).get? m, (r.factories.del n).get? m, (r.aliases.del n).get? m) = _
      simp only [hdel, if_neg hm]
      rfl
    rw [← hd s', e, hd s]
  · rcases removes_cases h hop with rfl | rfl | rfl | rfl | rfl | ⟨r, e, hc, -⟩
    · exact .inl ⟨.inl rfl, .inl rfl, .inl rfl, fun h => absurd rfl h, fun h => absurd rfl h⟩
    · exact .inl ⟨.inr (by simp [hdel]), .inl rfl, .inl rfl, fun h => absurd rfl h, fun h => absurd rfl h⟩
    · exact .inl ⟨.inr (by simp [hdel]), .inr (by simp [hdel]), .inl rfl, fun _ => by simp [hdel],
        fun h => absurd rfl h⟩
    · exact .inl ⟨.inr (by simp [deregister, hdel]), .inr (by simp [deregister, hdel]),
        .inr (by simp [deregister, hdel]), fun _ => by simp [deregister, hdel],
        fun _ => ⟨by simp [deregister, hdel], by simp [deregister, hdel]⟩⟩
    · exact .inr (.inl fun _ => rfl)
    · exact .inr (.inr ⟨r, e, hc⟩)

/-- The states in which `clear_calendars` can be interrupted. -/
theorem clear_cases {env : FactoryEnv} {s s' : Registry} (h : Interrupted env s .clear s') :
    s' = s ∨ s' = { s with calendars := [] } ∨ s' = { s with calendars := [], factories := [] } ∨ s' = s.clear := by
  have hasks : ∀ n nx, ¬ Asks .clear n nx := by
    intro n nx hp
    cases nx with
    | none => cases hp
    | some p => cases p <;> (obtain ⟨_, h⟩ := hp; cases h)
  have hpops : ∀ n nx, ¬ Pops .clear n nx := by
    intro n nx hp
    cases nx with
    | none => cases hp
    | some p => cases p <;> cases hp
  rcases interrupted_cases h with rfl | ⟨p, hp, hd⟩
  · exact .inr (.inr (.inr rfl))
  · cases p with
    | clear1 => exact .inl hp.2
    | clear2 => exact .inr (.inl hp.2)
    | clear3 => exact .inr (.inr (.inl hp.2))
    | done r => exact absurd rfl (hd r)
    | resolveIn why a sn m =>
      cases why
      · cases hp.1
      · cases hp.1
      · obtain ⟨_, _, h, _⟩ := hp; cases h
    | resolveAt why a sn m =>
      cases why
      · cases hp.1
      · cases hp.1
      · obtain ⟨_, _, h, _⟩ := hp; cases h
    | undo a e => obtain ⟨_, _, h, _⟩ := hp; cases h
    | store c o => obtain ⟨⟨m, h⟩, -⟩ := hp; cases h
    | make c o => obtain ⟨⟨m, h⟩, -⟩ := hp; cases h
    | cached a c => cases hp.1
    | factory a c => cases hp.1
    | names => cases hp.1
    | has1 n nx => exact absurd hp.1 (hasks n nx)
    | has2 n nx => exact absurd hp.1 (hasks n nx)
    | has3 n nx => exact absurd hp.1 (hasks n nx)
    | set n p => exact absurd hp.1 (hasks n _)
    | pop1 n nx => exact absurd hp.1 (hpops n nx)
    | pop2 n nx => exact absurd hp.1 (hpops n nx)
    | pop3 n nx => exact absurd hp.1 (hpops n nx)

/-- **C72.**  Interrupted in `clear_calendars`, the dispatcher has lost nothing, all calendars, all calendars and
factories, or everything. -/
theorem c72_clear {env : FactoryEnv} {s s' : Registry} (h : Interrupted env s .clear s') :
    ∃ a b c : Bool, (b = true → a = true) ∧ (c = true → b = true) ∧ ∀ n,
      has3 s' n = (if a then none else s.calendars.get? n, if b then none else s.factories.get? n,
        if c then none else s.aliases.get? n) := by
  rcases clear_cases h with rfl | rfl | rfl | rfl
  · exact ⟨false, false, false, by decide, by decide, fun _ => rfl⟩
  · exact ⟨true, false, false, by decide, by decide, fun _ => rfl⟩
  · exact ⟨true, true, false, by decide, by decide, fun _ => rfl⟩
  · exact ⟨true, true, true, by decide, by decide, fun _ => rfl⟩

/-- **C72.**  Making an interrupted `deregister_calendar`, `clear_calendars` or forced registration again has the
same effect and the same result as if the first call had not been made. -/
theorem c72_again {env : FactoryEnv} {s s' : Registry} {op : Op} (h : Interrupted env s op s')
    (hop : op = .clear ∨ ∃ n, RemovesName n op) : s'.step env op = s.step env op := by
  rcases hop with rfl | ⟨n, hop⟩
  · rcases clear_cases h with rfl | rfl | rfl | rfl <;> rfl
  · have e := removes_deregister h hop
    cases op with
    | registerCal m c f =>
      obtain ⟨rfl, rfl⟩ := hop
      simp only [step, registerCalendar, if_true, e]
    | registerType m c f =>
      obtain ⟨rfl, rfl⟩ := hop
      simp only [step, registerCalendarType, if_true, e]
    | registerAlias m r f =>
      obtain ⟨rfl, rfl⟩ := hop
      simp only [step, registerCalendarAlias, if_true, e]
    | deregister m =>
      rw [show m = n from hop]
      simp only [step, e]
    | _ => exact hop.elim

/-- **C72.**  Making an interrupted `get_calendar` again gives what the first call was to give, as far as the
factory allows: the calendar registered, or one made by the factory of its name; the same error otherwise. -/
theorem c72_get_again {env : FactoryEnv} {s s' : Registry} {n : String} (h : Interrupted env s (.get n) s') :
    GetAnswer env s n (s'.step env (.get n)).2 := by
  have lift : ∀ {s₁ p₁ s₂ p₂}, Alone env s₁ p₁ s₂ p₂ → ∀ {l : List Call} {op : Op},
      Reach env OnlyReads ⟨s, []⟩ ⟨s₁, l ++ [⟨op, p₁⟩]⟩ → Reach env OnlyReads ⟨s, []⟩ ⟨s₂, l ++ [⟨op, p₂⟩]⟩ := by
    intro s₁ p₁ s₂ p₂ ha
    induction ha with
    | refl => exact fun h => h
    | @step s₁ p₁ s₂ p₂ _ ih =>
      intro l op hr
      refine ih ?_
      have := Reach.run (env := env) l.length ⟨op, p₁⟩ hr (by simp)
      simpa using this
  obtain ⟨p, hp⟩ := h
  have r1 : Reach env OnlyReads ⟨s, []⟩ ⟨s', [] ++ [⟨.get n, p⟩]⟩ :=
    lift hp (l := []) (Reach.call (.get n) .refl trivial)
  have r2 : Reach env OnlyReads ⟨s, []⟩ _ := lift (c69_alone env s' (.get n)) (l := [] ++ [⟨.get n, p⟩])
    (Reach.call (.get n) r1 trivial)
  exact (c69_gets env s r2).1 n _ (by simp)

theorem sameRegistry_alias {s s' : Registry} (h : SameRegistry s s') (n : String) : alias s n = alias s' n :=
  congrArg (fun x => x.2.2) (h n)

/-- **C72.**  If no name led into a cycle before, one does after an interrupted call only if that was a
registration of an alias; and then `deregister_calendar` of this alias ends it. -/
theorem c72_cycle {env : FactoryEnv} {s s' : Registry} {op : Op} (h : Interrupted env s op s')
    (hs : ∀ n, ¬ Cyclic (alias s) n) {n : String} (hn : Cyclic (alias s') n) :
    ∃ a r f, op = .registerAlias a r f ∧ ∀ m, ¬ Cyclic (alias (s'.step env (.deregister a)).1) m := by
  have hs' : ∀ n, ∃ r, ResolvesTo (alias s) n r := fun n => not_cyclic_iff.1 (hs n)
  have hfin := acyclic_step env hs' op
  have same : ∀ t : Registry, (∀ n, ∃ r, ResolvesTo (alias t) n r) → SameRegistry s' t → False := by
    intro t ht he
    rw [show alias s' = alias t from funext (sameRegistry_alias he)] at hn
    exact hn (ht n)
  by_cases hclear : op = .clear
  · subst hclear
    obtain ⟨_, _, c, -, -, hc⟩ := c72_clear h
    exfalso
    cases c with
    | false =>
      have : alias s' = alias s := funext fun m => congrArg (fun x => x.2.2) (hc m)
      rw [this] at hn
      exact hs n hn
    | true => exact hn ⟨n, .done (congrArg (fun x => x.2.2) (hc n))⟩
  · by_cases hop : ∃ m, RemovesName m op
    · obtain ⟨m, hop⟩ := hop
      rcases removes_cases h hop with rfl | rfl | rfl | rfl | rfl | ⟨r, e, -, -⟩
      · exact absurd hn (hs n)
      · exact absurd hn (hs n)
      · exact absurd hn (hs n)
      · exact absurd (acyclic_del hs' n) hn
      · exact absurd (hfin n) hn
      · refine ⟨m, r, true, e, fun k hk => hk ?_⟩
        show ∃ x, ResolvesTo (alias (s'.deregister m)) k x
        rw [removes_deregister h hop]
        exact acyclic_del hs' k
    · rcases c72_atomic h ⟨hclear, fun m hm => hop ⟨m, hm⟩⟩ with e | e | ⟨a, r, e, hc⟩
      · exact (same s hs' e).elim
      · exact (same _ hfin e).elim
      · refine ⟨a, r, false, e, fun k hk => hk ?_⟩
        have : alias (s'.deregister a) = alias s := by
          funext m
          show (s'.aliases.del a).get? m = _
          rw [Dict.get?_del]
          split
          · rename_i e'
            rw [e']
            exact (congrArg (fun x => x.2.2) hc.unknown).symm
          · rename_i e'
            exact congrArg (fun x => x.2.2) (hc.others m e')
        show ∃ x, ResolvesTo (alias (s'.deregister a)) k x
        rw [this]
        exact hs' k

/-- A history of calls, each finished or interrupted somewhere. -/
inductive Interruptions (env : FactoryEnv) (s : Registry) : Registry → Prop
  | refl : Interruptions env s s
  | call {s₁ s₂ : Registry} (op : Op) : Interruptions env s s₁ → Interrupted env s₁ op s₂ →
      (∀ a r f, op = .registerAlias a r f → s₂ = (s₁.step env op).1) → Interruptions env s s₂

/-- **C72.**  In a history of any calls, each interrupted anywhere, except that registrations of aliases are not
interrupted, no name ever leads into a cycle. -/
theorem c72_history {env : FactoryEnv} {s s' : Registry} (hs : ∀ n, ¬ Cyclic (alias s) n)
    (h : Interruptions env s s') (n : String) : ∃ r, s'.resolveAlias n = .ok r := by
  have key : ∀ n, ¬ Cyclic (alias s') n := by
    induction h with
    | refl => exact hs
    | @call s₁ s₂ op _ hi ha ih =>
      intro n hn
      obtain ⟨a, r, f, e, -⟩ := c72_cycle hi ih hn
      rw [ha a r f e] at hn
      exact hn (acyclic_step env (fun n => not_cyclic_iff.1 (ih n)) op n)
  obtain ⟨r, hr⟩ := not_cyclic_iff.1 (key n)
  exact ⟨r, (resolveAlias_ok_iff s' n r).2 hr⟩

/-- **C72** (finding).  A forced registration can be interrupted when the old entry is gone and the new one not yet
there: the name is then unknown. -/
theorem c72_lost (env : FactoryEnv) (s : Registry) (n : String) (op : Op)
    (hop : (∃ c, op = .registerCal n c true) ∨ (∃ t, op = .registerType n t true) ∨
      ∃ r, op = .registerAlias n r true) :
    ∃ s', Interrupted env s op s' ∧ ¬ Known s' n ∧
      (s'.step env (.get n)).2 = .error (.invalidCalendarName n) := by
  refine ⟨s.deregister n, ?_, not_known_deregister s n, ?_⟩
  · rcases hop with ⟨c, rfl⟩ | ⟨c, rfl⟩ | ⟨c, rfl⟩
    · exact ⟨_, alone_pop env s n (some (.cal c))⟩
    · exact ⟨_, alone_pop env s n (some (.type c))⟩
    · exact ⟨_, alone_pop env s n (some (.alias c))⟩
  · have hk := not_known_deregister s n
    simp only [Known, not_or, Decidable.not_not] at hk
    have hr : (s.deregister n).resolveAlias n = .ok n := (resolveAlias_ok_iff _ n n).2 (.done hk.2.2)
    simp only [step, getCalendar, hr, hk.1, hk.2.1]
    rfl

/-- **C72** (finding).  The registration of an alias for itself, or any other that is refused because of a cycle,
can be interrupted with the cycle in the table, where it stays: every later `get_calendar` of the alias raises
`CyclicCalendarAlias`. -/
theorem c72_cycle_left (env : FactoryEnv) (s : Registry) (a r : String) {report : List String}
    (h : (s.step env (.registerAlias a r false)).2 = .error (.cyclicCalendarAlias report)) :
    ∃ s', Interrupted env s (.registerAlias a r false) s' ∧ CycleLeft s a r s' ∧
      (s'.step env (.get a)).2 = .error (.cyclicCalendarAlias report) := by
  have hh : s.hasCalendar a = false := by
    cases hc : s.hasCalendar a with
    | false => rfl
    | true => simp [step, registerCalendarAlias, hc, Except.map] at h
  have e : Registry.resolveAlias { s with aliases := s.aliases.set a r } a =
      .error (.cyclicCalendarAlias report) := by
    simp only [step, registerCalendarAlias, Bool.false_eq_true, if_false, hh] at h
    cases hr : Registry.resolveAlias { s with aliases := s.aliases.set a r } a with
    | ok c => rw [hr] at h; cases h
    | error e =>
      rw [hr] at h
      cases h
      rfl
  refine ⟨{ s with aliases := s.aliases.set a r }, ⟨.resolveIn .check a [] a, ?_⟩, ?_, ?_⟩
  · refine Alone.trans (alone_has env s a (some (.alias r))) ?_
    simp only [hh, Bool.false_eq_true, if_false]
    exact Alone.one env s (.set a (.alias r))
  · rcases checking_cases (env := env) (s := s) (a := a) (r := r) (f := false) hh with h' | h'
    · exfalso
      have hc := (resolveAlias_error_iff _ a).1 ⟨_, e⟩
      have h'' : alias s = alias (s.step env (.registerAlias a r false)).1 := by
        simp only [step, registerCalendarAlias, Bool.false_eq_true, if_false, hh, e]
        show _ = ((s.aliases.set a r).del a).get?
        rw [Dict.del_set_of_not_has]
        simp only [hasCalendar, Bool.or_eq_false_iff] at hh
        exact hh.2
      have : alias s a = some r := by
        rw [h'', ← h']
        show (s.aliases.set a r).get? a = _
        rw [Dict.get?_set, if_pos rfl]
      have hk := (hasCalendar_false_iff s a).1 hh
      simp only [Known, not_or, Decidable.not_not] at hk
      rw [show alias s a = none from hk.2.2] at this
      cases this
    · exact h'
  · simp only [step, getCalendar, e]
    rfl

/-! ### Cases -/

/-- The registry the package starts with, after `get_calendar("XNYS")`. -/
def withXnys : Registry := { defaultRegistry with calendars := [("XNYS", 7)] }

/-- A read is interrupted before it stores the calendar it has made; an unforced registration before the
assignment. -/
example : (∃ s', Interrupted (fun _ _ => .ok 5) withXnys (.get "LSE") s' ∧ s'.calls = [28] ∧
      s'.calendars.get? "XLON" = none) ∧
    Interrupted (fun _ _ => .ok 5) withXnys (.registerCal "new" 9 false) withXnys ∧
    Op.get "LSE" ≠ .clear ∧ ∀ n, ¬ RemovesName n (.get "LSE") :=
  ⟨⟨_, ⟨_, .step (.step (.step (.step (.step (.step (.refl _ _))))))⟩, by decide +kernel⟩,
    ⟨_, .step (.step (.refl _ _))⟩, by decide, fun _ h => h⟩

/-- An interrupted `deregister_calendar` of `XNYS`: the calendar is gone, the factory still there, so that the next
`get_calendar` makes another object. -/
example : ∃ s', Interrupted (fun _ _ => .ok 5) withXnys (.deregister "XNYS") s' ∧ RemovesName "XNYS" (.deregister "XNYS") ∧
    s'.calendars.get? "XNYS" = none ∧ s'.factories.get? "XNYS" = some 33 ∧
    (s'.step (fun _ _ => .ok 5) (.get "XNYS")).2 = .ok (.cal 5) :=
  ⟨_, ⟨_, .step (.refl _ _)⟩, rfl, by decide +kernel⟩

example : ∃ s', Interrupted (fun _ _ => .ok 5) withXnys .clear s' ∧ s'.calendars = [] ∧ s'.factories = [] ∧
    s'.aliases = defaultAliases :=
  ⟨_, ⟨_, .step (.step (.refl _ _))⟩, rfl, rfl, rfl⟩

/-- `NYSE → XNYS` is there; the alias `XNYS → NYSE`, forced, is refused, and interrupted the cycle stays. -/
example : ∃ s', Interrupted (fun _ _ => .ok 5) withXnys (.registerAlias "XNYS" "NYSE" true) s' ∧
    (s'.step (fun _ _ => .ok 5) (.get "NASDAQ")).2 =
      .error (.cyclicCalendarAlias ["NASDAQ", "XNYS", "NYSE", "XNYS"]) ∧
    (∀ n, ¬ Cyclic (alias withXnys) n) ∧ Cyclic (alias s') "XNYS" := by
  refine ⟨_, ⟨_, .step (.step (.step (.step (.step (.step (.step (.refl _ _)))))))⟩, by decide +kernel,
    defaultRegistry_acyclic, ?_⟩
  exact (resolveAlias_error_iff _ "XNYS").1 ⟨.cyclicCalendarAlias ["XNYS", "NYSE", "XNYS"], by decide +kernel⟩

example : (withXnys.step (fun _ _ => .ok 5) (.registerAlias "new" "new" false)).2 =
    .error (.cyclicCalendarAlias ["new", "new"]) := by decide +kernel

/-- A history with an interrupted `clear_calendars` and an interrupted forced registration. -/
example : ∃ s', Interruptions (fun _ _ => .ok 5) withXnys s' ∧ s'.calendars = [] ∧
    s'.aliases.get? "NYSE" = none ∧ s'.aliases.get? "LSE" = some "XLON" := by
  refine ⟨_, .call (.registerCal "NYSE" 3 true) (.call .clear .refl ⟨_, .step (.refl _ _)⟩ (by simp))
    ⟨_, .step (.step (.step (.refl _ _)))⟩ (by simp), by decide +kernel⟩

end TC.Props
