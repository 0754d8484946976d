import Verif.Spec.Reentrant
import Verif.Props.Dispatcher

/-! # C89: factories that call the dispatcher -/

namespace TC.Props
open Spec Registry Reentrant

/-! ### Factories that do not -/

/-- C89: for factories that do not call the dispatcher, all is as in C01 to C11. -/
theorem c89_conservative (env : FactoryEnv) (n : Nat) (w : World) (op : Op) :
    (Reentrant.step (fun f log => match env f log with | .ok c => .returns c | .error e => .raises e) (n + 1) w op).1.reg =
        (w.reg.step env op).1 ∧
      (Reentrant.step (fun f log => match env f log with | .ok c => .returns c | .error e => .raises e) (n + 1) w op).2 =
        (w.reg.step env op).2 := by
  cases op
  case get name =>
    simp only [Reentrant.step, stepWith, Registry.step, Reentrant.get, getWith, getCalendar]
    cases w.reg.resolveAlias name with
    | error e => exact ⟨rfl, rfl⟩
    | ok canonical =>
      simp only
      cases w.reg.calendars.get? canonical with
      | some c => exact ⟨rfl, rfl⟩
      | none =>
        simp only
        cases w.reg.factories.get? canonical with
        | none => exact ⟨rfl, rfl⟩
        | some f =>
          simp only
          cases env f w.reg.calls with
          | error e => exact ⟨rfl, rfl⟩
          | ok c => exact ⟨rfl, rfl⟩
  all_goals exact ⟨rfl, rfl⟩

/-! ### Any factories -/

/-- A property of registries that public calls other than `get_calendar` keep, and that does not depend on the cached
calendars and the log of calls, is kept by all calls whatever factories do. -/
theorem get_invariant {env : Scripts} {I : Registry → Prop}
    (hstep : ∀ s op, I s → (∀ m, op ≠ .get m) → I (s.step (fun _ _ => .error .typeError) op).1)
    (hcal : ∀ s : Registry, I s → ∀ cs calls, I { s with calendars := cs, calls := calls }) :
    ∀ (n : Nat) (w : World) (name : String), I w.reg → I (Reentrant.get env n w name).1.reg
  | 0, _, _, h => h
  | n + 1, w, name, h => by
    have hs : ∀ (sc : Script) (w : World), I w.reg → I (runScript (Reentrant.get env n) sc w).1.reg := by
      intro sc
      induction sc with
      | returns c => intro w h; exact h
      | raises e => intro w h; exact h
      | calls op next ih =>
        intro w h
        refine ih _ _ ?_
        cases op
        case get m => exact get_invariant hstep hcal n w m h
        all_goals exact hstep _ _ h (by simp)
    simp only [Reentrant.get, getWith]
    cases w.reg.resolveAlias name with
    | error e => exact h
    | ok canonical =>
      simp only
      cases w.reg.calendars.get? canonical with
      | some c => exact h
      | none =>
        simp only
        cases w.reg.factories.get? canonical with
        | none => exact h
        | some f =>
          simp only
          have := hs (env f w.reg.calls) { w with reg := { w.reg with calls := w.reg.calls ++ [f] } }
            (hcal _ h w.reg.calendars (w.reg.calls ++ [f]))
          split
          · rename_i hr; rw [hr] at this; exact this
          · rename_i w' c hr
            rw [hr] at this
            exact hcal _ this _ w'.reg.calls

/-- C89: whatever factories do with the dispatcher, there is never an alias cycle; so `resolve_alias` always succeeds. -/
theorem c89_acyclic (env : Scripts) (n : Nat) (w : World) (h : ∀ m, ¬ Cyclic (alias w.reg) m) (ops : List Op) :
    ∀ m, ¬ Cyclic (alias (Reentrant.run env n w ops).reg) m := by
  induction ops generalizing w with
  | nil => exact h
  | cons op ops ih =>
    refine ih _ ?_
    simp only [not_cyclic_iff] at h ⊢
    cases op
    case get m =>
      exact get_invariant (I := fun s => ∀ m, ∃ r, ResolvesTo (alias s) m r)
        (fun s op hs _ => acyclic_step _ hs op) (fun s hs _ _ => hs) n w m h
    all_goals exact acyclic_step _ h _

/-- C89: whatever factories do with the dispatcher, what `get_calendar` returns is what it keeps from then on under the
name that the argument stood for when it was called. -/
theorem c89_returned {env : Scripts} {n : Nat} {w w' : World} {name c : String} {o : CalObj}
    (h : Reentrant.get env n w name = (w', .ok o)) (hc : ResolvesTo (alias w.reg) name c) :
    w'.reg.calendars.get? c = some o ∧ ∃ before, w'.answers = before ++ [(name, o)] := by
  cases n with
  | zero => cases h
  | succ n =>
    simp only [Reentrant.get, getWith, (resolveAlias_ok_iff _ _ _).2 hc] at h
    split at h
    · rename_i o' ho
      cases h
      exact ⟨ho, _, rfl⟩
    · split at h
      · cases h
      · split at h
        · cases h
        · cases h
          refine ⟨?_, _, rfl⟩
          rw [Dict.get?_set]
          simp

/-! ### Layered factories -/

theorem later_refl (w : World) : Later w w :=
  ⟨rfl, rfl, fun _ _ h => h, ⟨[], by simp, by simp⟩, ⟨[], by simp, by simp⟩⟩

theorem later_trans {w w' w'' : World} (h : Later w w') (h' : Later w' w'') : Later w w'' := by
  refine ⟨h'.factories.trans h.factories, h'.aliases.trans h.aliases, fun c o hc => h'.calendars c o (h.calendars c o hc),
    ?_, ?_⟩
  · obtain ⟨n1, e1, k1⟩ := h.answers
    obtain ⟨n2, e2, k2⟩ := h'.answers
    refine ⟨n1 ++ n2, by rw [e2, e1, List.append_assoc], fun m o hm => ?_⟩
    rcases List.mem_append.1 hm with hm | hm
    · obtain ⟨c, r1, r2⟩ := k1 m o hm
      exact ⟨c, r1, h'.calendars c o r2⟩
    · obtain ⟨c, r1, r2⟩ := k2 m o hm
      rw [h.aliases] at r1
      exact ⟨c, r1, r2⟩
  · obtain ⟨n1, e1, k1⟩ := h.calls
    obtain ⟨n2, e2, k2⟩ := h'.calls
    refine ⟨n1 ++ n2, by rw [e2, e1, List.append_assoc], fun f hf => ?_⟩
    rcases List.mem_append.1 hf with hf | hf
    · exact k1 f hf
    · obtain ⟨c, r1, r2⟩ := k2 f hf
      rw [h.factories] at r1
      refine ⟨c, r1, ?_⟩
      cases hw : w.reg.calendars.get? c with
      | none => rfl
      | some o => rw [h.calendars c o hw] at r2; cases r2

/-- What a get does among layered factories. -/
structure GetDone (rank : String → Nat) (w w' : World) (name : String) (r : Py CalObj) : Prop where
  later : Later w w'
  /-- calendars of a higher rank are not touched -/
  above : ∀ c, (∀ k, ResolvesTo (alias w.reg) name k → rank k < rank c) →
    w'.reg.calendars.get? c = w.reg.calendars.get? c
  ok : ∀ o, r = .ok o → ∃ k, ResolvesTo (alias w.reg) name k ∧ w'.reg.calendars.get? k = some o
  error : ∀ e, r = .error e → ∀ k, ResolvesTo (alias w.reg) name k → w'.reg.calendars.get? k = none

theorem layered_later {env : Scripts} {w w' : World} {rank : String → Nat} (h : Layered env w.reg rank) (hl : Later w w') :
    Layered env w'.reg rank := by
  intro name f hf log
  rw [hl.factories] at hf
  have := h name f hf log
  rw [hl.aliases]
  exact this

/-- The script of a factory of a name of rank `b`. -/
theorem script_done {env : Scripts} {rank : String → Nat} {n : Nat} {b : Nat} (get : World → String → World × Py CalObj)
    (hget : ∀ w name, Layered env w.reg rank → (∀ k, ResolvesTo (alias w.reg) name k → rank k < n) →
      GetDone rank w (get w name).1 name (get w name).2) (hb : b ≤ n) :
    ∀ (sc : Script) (w : World), Layered env w.reg rank →
      Only (fun op => Looks op ∧ ∀ m, op = .get m → ∀ c, ResolvesTo w.reg.aliases.get? m c → rank c < b) sc →
      Later w (runScript get sc w).1 ∧
      ∀ c, b ≤ rank c → (runScript get sc w).1.reg.calendars.get? c = w.reg.calendars.get? c := by
  intro sc
  induction sc with
  | returns c => intro w _ _; exact ⟨later_refl _, fun _ _ => rfl⟩
  | raises e => intro w _ _; exact ⟨later_refl _, fun _ _ => rfl⟩
  | calls op next ih =>
    rintro w hL ⟨⟨hlook, hrank⟩, hnext⟩
    have hstep : Later w (stepWith get w op).1 ∧
        ∀ c, b ≤ rank c → (stepWith get w op).1.reg.calendars.get? c = w.reg.calendars.get? c := by
      cases op
      case get m =>
        have := hget w m hL (fun k hk => Nat.lt_of_lt_of_le (hrank m rfl k hk) hb)
        exact ⟨this.later, fun c hc => this.above c (fun k hk => Nat.lt_of_lt_of_le (hrank m rfl k hk) hc)⟩
      case has => exact ⟨later_refl _, fun _ _ => rfl⟩
      case names => exact ⟨later_refl _, fun _ _ => rfl⟩
      case resolve => exact ⟨later_refl _, fun _ _ => rfl⟩
      all_goals exact hlook.elim
    have hrest := ih (stepWith get w op).2 (stepWith get w op).1 (layered_later hL hstep.1) (by
      rw [hstep.1.aliases]
      exact hnext _)
    exact ⟨later_trans hstep.1 hrest.1, fun c hc => (hrest.2 c hc).trans (hstep.2 c hc)⟩

theorem get_done {env : Scripts} {rank : String → Nat} : ∀ (n : Nat) (w : World) (name : String),
    Layered env w.reg rank → (∀ k, ResolvesTo (alias w.reg) name k → rank k < n) →
    GetDone rank w (Reentrant.get env n w name).1 name (Reentrant.get env n w name).2
  | 0, w, name, _, hn =>
    ⟨later_refl _, fun _ _ => rfl, fun o ho => (by cases ho), fun e _ k hk => absurd (hn k hk) (by omega)⟩
  | n + 1, w, name, hL, hn => by
    simp only [Reentrant.get, getWith]
    cases hres : w.reg.resolveAlias name with
    | error e =>
      refine ⟨later_refl _, fun _ _ => rfl, fun o ho => (by cases ho), fun e' _ k hk => ?_⟩
      rw [(resolveAlias_ok_iff _ _ _).2 hk] at hres
      cases hres
    | ok c =>
      have hc := (resolveAlias_ok_iff _ _ _).1 hres
      have huniq : ∀ k, ResolvesTo (alias w.reg) name k → k = c := fun k hk => ResolvesTo.unique hk hc
      simp only
      cases hcal : w.reg.calendars.get? c with
      | some o =>
        refine ⟨⟨rfl, rfl, fun _ _ h => h, ⟨[(name, o)], rfl, ?_⟩, ⟨[], by simp, by simp⟩⟩, fun _ _ => rfl,
          fun o' ho => ?_, fun e he => by cases he⟩
        · intro m o' hmo
          simp only [List.mem_cons, Prod.mk.injEq, List.not_mem_nil, or_false] at hmo
          obtain ⟨rfl, rfl⟩ := hmo
          exact ⟨c, hc, hcal⟩
        · cases ho
          exact ⟨c, hc, hcal⟩
      | none =>
        simp only
        cases hf : w.reg.factories.get? c with
        | none =>
          refine ⟨later_refl _, fun _ _ => rfl, fun o ho => (by cases ho), fun e _ k hk => ?_⟩
          rw [huniq k hk]
          exact hcal
        | some f =>
          simp only
          have hl1 : Later w { w with reg := { w.reg with calls := w.reg.calls ++ [f] } } := by
            refine ⟨rfl, rfl, fun _ _ h => h, ⟨[], by simp, by simp⟩, ⟨[f], rfl, fun g hg => ?_⟩⟩
            rw [List.mem_singleton.1 hg]
            exact ⟨c, hf, hcal⟩
          have hsc := script_done (env := env) (rank := rank) (n := n) (b := rank c) (Reentrant.get env n)
            (fun w name hL hn => get_done n w name hL hn) (by have := hn c hc; omega)
            (env f w.reg.calls) { w with reg := { w.reg with calls := w.reg.calls ++ [f] } } (layered_later hL hl1)
            (hL c f hf w.reg.calls)
          generalize hR : runScript (Reentrant.get env n) (env f w.reg.calls)
            { w with reg := { w.reg with calls := w.reg.calls ++ [f] } } = R at hsc
          obtain ⟨w', r⟩ := R
          obtain ⟨hs1, hs2⟩ := hsc
          simp only at hs1 hs2
          have hl := later_trans hl1 hs1
          have hkeep : w'.reg.calendars.get? c = none := by
            rw [hs2 c (Nat.le_refl _)]
            exact hcal
          cases r with
          | error e =>
            refine ⟨hl, fun c' hc' => ?_, fun o ho => (by cases ho), fun e' _ k hk => ?_⟩
            · exact hs2 c' (Nat.le_of_lt (hc' c hc))
            · rw [huniq k hk]
              exact hkeep
          | ok o =>
            have hset : ∀ c', (w'.reg.calendars.set c o).get? c' = if c' = c then some o else w'.reg.calendars.get? c' := by
              intro c'
              rw [Dict.get?_set]
            have hgrow : ∀ c' o', w'.reg.calendars.get? c' = some o' → (w'.reg.calendars.set c o).get? c' = some o' := by
              intro c' o' h
              rw [hset, if_neg]
              · exact h
              · rintro rfl
                rw [hkeep] at h
                cases h
            refine ⟨⟨hl.factories, hl.aliases, fun c' o' h => hgrow _ _ (hl.calendars c' o' h), ?_, hl.calls⟩,
              fun c' hc' => ?_, fun o' ho => ?_, fun e he => by cases he⟩
            · obtain ⟨new, e1, e2⟩ := hl.answers
              refine ⟨new ++ [(name, o)], by simp [e1], fun m o' hmo => ?_⟩
              rcases List.mem_append.1 hmo with hmo | hmo
              · obtain ⟨k, r1, r2⟩ := e2 m o' hmo
                exact ⟨k, r1, hgrow _ _ r2⟩
              · simp only [List.mem_cons, Prod.mk.injEq, List.not_mem_nil, or_false] at hmo
                obtain ⟨rfl, rfl⟩ := hmo
                exact ⟨c, hc, by simp [hset]⟩
            · have := hc' c hc
              simp only [hset]
              rw [if_neg (by rintro rfl; omega)]
              exact hs2 c' (Nat.le_of_lt this)
            · cases ho
              exact ⟨c, hc, by simp [hset]⟩

/-- C89, one call: if factories are layered and there is room for as many calls inside one another as there are layers,
then a `get_calendar` changes no factory, no alias and no calendar that is there, whatever it returns stays, also what
factories got while it ran, and factories are called only for names that have no calendar.  If it raises, there is no
calendar of that name still. -/
theorem c89_get {env : Scripts} {rank : String → Nat} {n : Nat} {w : World} {name : String} (hL : Layered env w.reg rank)
    (hn : ∀ c, rank c < n) :
    Later w (Reentrant.get env n w name).1 ∧
    (∀ o, (Reentrant.get env n w name).2 = .ok o →
      ∃ c, ResolvesTo (alias w.reg) name c ∧ (Reentrant.get env n w name).1.reg.calendars.get? c = some o) ∧
    ∀ e, (Reentrant.get env n w name).2 = .error e → ∀ c, ResolvesTo (alias w.reg) name c →
      (Reentrant.get env n w name).1.reg.calendars.get? c = none :=
  have h := get_done n w name hL (fun k _ => hn k)
  ⟨h.later, h.ok, h.error⟩

theorem run_later {env : Scripts} {rank : String → Nat} {n : Nat} (hn : ∀ c, rank c < n) :
    ∀ (ops : List Op) (w : World), Layered env w.reg rank → (∀ op ∈ ops, Looks op) → Later w (Reentrant.run env n w ops)
  | [], w, _, _ => later_refl w
  | op :: ops, w, hL, hops => by
    have h1 : Later w (Reentrant.step env n w op).1 := by
      have hl := hops op (by simp)
      cases op
      case get m => exact (c89_get hL hn).1
      case has => exact later_refl _
      case names => exact later_refl _
      case resolve => exact later_refl _
      all_goals exact hl.elim
    exact later_trans h1 (run_later hn ops _ (layered_later hL h1) (fun o ho => hops o (by simp [ho])))

/-- C89, identity: among layered factories, all the answers for names that stand for the same calendar are one object,
in a whole history of lookups, whether the caller or a factory asked; and it is what the dispatcher keeps. -/
theorem c89_identity {env : Scripts} {rank : String → Nat} {n : Nat} {w : World} (hn : ∀ c, rank c < n)
    (hL : Layered env w.reg rank) (hk : KeptNames w) {ops : List Op} (hops : ∀ op ∈ ops, Looks op) :
    KeptNames (Reentrant.run env n w ops) ∧
    ∀ m o m' o', (m, o) ∈ (Reentrant.run env n w ops).answers → (m', o') ∈ (Reentrant.run env n w ops).answers →
      SameName w.reg m m' → o = o' := by
  have hl := run_later hn ops w hL hops
  have hkept : KeptNames (Reentrant.run env n w ops) := by
    intro m o hmo
    obtain ⟨new, e, hnew⟩ := hl.answers
    rw [e] at hmo
    rw [hl.aliases]
    rcases List.mem_append.1 hmo with hmo | hmo
    · obtain ⟨c, r1, r2⟩ := hk m o hmo
      exact ⟨c, r1, hl.calendars c o r2⟩
    · exact hnew m o hmo
  refine ⟨hkept, fun m o m' o' h h' hs => ?_⟩
  obtain ⟨c, r1, r2⟩ := hs
  obtain ⟨k, q1, q2⟩ := hkept m o h
  obtain ⟨k', q1', q2'⟩ := hkept m' o' h'
  rw [hl.aliases] at q1 q1'
  rw [ResolvesTo.unique q1 r1] at q2
  rw [ResolvesTo.unique q1' r2] at q2'
  rw [q2] at q2'
  exact Option.some.inj q2'

/-! ### The limit -/

theorem script_limit {env : Scripts} {rank : String → Nat} {b : Nat} {get get' : World → String → World × Py CalObj}
    (hget : ∀ w name, Layered env w.reg rank → (∀ m, ∃ k, ResolvesTo (alias w.reg) m k) →
      (∀ k, ResolvesTo (alias w.reg) name k → rank k < b) → get w name = get' w name ∧ Later w (get w name).1) :
    ∀ (sc : Script) (w : World), Layered env w.reg rank → (∀ m, ∃ k, ResolvesTo (alias w.reg) m k) →
      Only (fun op => Looks op ∧ ∀ m, op = .get m → ∀ c, ResolvesTo w.reg.aliases.get? m c → rank c < b) sc →
      runScript get sc w = runScript get' sc w := by
  intro sc
  induction sc with
  | returns c => intro w _ _ _; rfl
  | raises e => intro w _ _ _; rfl
  | calls op next ih =>
    rintro w hL hac ⟨⟨hlook, hrank⟩, hnext⟩
    have hstep : stepWith get w op = stepWith get' w op ∧ Later w (stepWith get w op).1 := by
      cases op
      case get m =>
        obtain ⟨h1, h2⟩ := hget w m hL hac (hrank m rfl)
        exact ⟨by simp only [stepWith, h1], h2⟩
      case has => exact ⟨rfl, later_refl _⟩
      case names => exact ⟨rfl, later_refl _⟩
      case resolve => exact ⟨rfl, later_refl _⟩
      all_goals exact hlook.elim
    simp only [runScript]
    rw [← hstep.1]
    exact ih _ _ (layered_later hL hstep.2) (by rw [show alias (stepWith get w op).1.reg = alias w.reg from congrArg Dict.get? hstep.2.aliases]; exact hac) (by rw [hstep.2.aliases]; exact hnext _)

theorem get_limit {env : Scripts} {rank : String → Nat} : ∀ (n n' : Nat) (w : World) (name : String),
    Layered env w.reg rank → (∀ m, ∃ k, ResolvesTo (alias w.reg) m k) →
    (∀ k, ResolvesTo (alias w.reg) name k → rank k < n) → (∀ k, ResolvesTo (alias w.reg) name k → rank k < n') →
    Reentrant.get env n w name = Reentrant.get env n' w name
  | 0, _, w, name, _, hac, hn, _ => by
    obtain ⟨k, hk⟩ := hac name
    exact absurd (hn k hk) (by omega)
  | _ + 1, 0, w, name, _, hac, _, hn' => by
    obtain ⟨k, hk⟩ := hac name
    exact absurd (hn' k hk) (by omega)
  | n + 1, n' + 1, w, name, hL, hac, hn, hn' => by
    simp only [Reentrant.get, getWith]
    cases hres : w.reg.resolveAlias name with
    | error e => rfl
    | ok c =>
      have hc := (resolveAlias_ok_iff _ _ _).1 hres
      simp only
      cases hcal : w.reg.calendars.get? c with
      | some o => rfl
      | none =>
        simp only
        cases hf : w.reg.factories.get? c with
        | none => rfl
        | some f =>
          simp only
          have h1 := hn c hc
          have h2 := hn' c hc
          rw [script_limit (env := env) (rank := rank) (b := rank c) (get := Reentrant.get env n)
            (get' := Reentrant.get env n') (fun w name hL hac hb => ⟨get_limit n n' w name hL hac
              (fun k hk => by have := hb k hk; omega) (fun k hk => by have := hb k hk; omega),
              (get_done n w name hL (fun k hk => by have := hb k hk; omega)).later⟩)
            (env f w.reg.calls) { w with reg := { w.reg with calls := w.reg.calls ++ [f] } } hL hac
            (hL c f hf w.reg.calls)]

/-- C89, the interpreter's limit: among layered factories it makes no difference to a `get_calendar` how many calls
inside one another there is room for, if there is room for as many as the rank of the calendar says. -/
theorem c89_limit {env : Scripts} {rank : String → Nat} {n n' : Nat} {w : World} {name c : String}
    (hL : Layered env w.reg rank) (hac : ∀ m, ¬ Cyclic (alias w.reg) m) (hc : ResolvesTo (alias w.reg) name c)
    (hn : rank c < n) (hn' : rank c < n') : Reentrant.get env n w name = Reentrant.get env n' w name :=
  get_limit n n' w name hL (fun m => not_cyclic_iff.1 (hac m)) (fun k hk => by rw [ResolvesTo.unique hk hc]; exact hn)
    (fun k hk => by rw [ResolvesTo.unique hk hc]; exact hn')

/-- C89, circles: if the factories of some calendars, none of which is there yet, each begin by getting another one of
them (or the same) and do not catch `RecursionError`, then getting any of them raises it, at any limit, and no calendar
is added, not even one. -/
theorem c89_circle {env : Scripts} {S : String → Prop} {s : Registry}
    (hS : ∀ c, S c → s.calendars.get? c = none ∧ ∃ f, s.factories.get? c = some f ∧ ∀ log, ∃ m next c',
      env f log = .calls (.get m) next ∧ next (.error .recursionError) = .raises .recursionError ∧
      ResolvesTo (alias s) m c' ∧ S c') :
    ∀ (n : Nat) (w : World) (name c : String), SameTables s w.reg → ResolvesTo (alias s) name c → S c →
      (Reentrant.get env n w name).2 = .error .recursionError ∧ SameTables s (Reentrant.get env n w name).1.reg ∧
      (Reentrant.get env n w name).1.answers = w.answers
  | 0, w, _, _, hw, _, _ => ⟨rfl, hw, rfl⟩
  | n + 1, w, name, c, hw, hc, hSc => by
    obtain ⟨h1, f, hf, hlog⟩ := hS c hSc
    obtain ⟨m, next, c', he, hnext, hm, hSc'⟩ := hlog w.reg.calls
    have hc' : ResolvesTo (alias w.reg) name c := by
      rw [show alias w.reg = alias s from congrArg Dict.get? hw.2.2]
      exact hc
    simp only [Reentrant.get, getWith, (resolveAlias_ok_iff _ _ _).2 hc', hw.1, hw.2.1, h1, hf, he, runScript, stepWith]
    obtain ⟨r1, r2, r3⟩ := c89_circle hS n { w with reg := { w.reg with calls := w.reg.calls ++ [f] } } m c' hw hm hSc'
    rw [← hw.1, ← hw.2.1] at *
    simp only [r1, Except.map, hnext, runScript]
    exact ⟨trivial, r2, r3⟩

/-! ### Examples -/

/-- A calendar `both` that is made from `XNYS` and `XLON`, its factory getting the first by an alias; if it cannot have
the second it raises that. -/
def bothScripts : Scripts
  | 2, _ => .calls (.get "NYSE") fun
    | .error e => .raises e
    | .ok _ => .calls (.get "XLON") fun
      | .error e => .raises e
      | .ok _ => .returns 30
  | f, log => .returns (10 * f + log.length)

def bothWorld : World :=
  { reg := { calendars := [], factories := [("XNYS", 0), ("XLON", 1), ("both", 2)], aliases := [("NYSE", "XNYS")],
             calls := [] }
    answers := [] }

/-- The factories are layered, so the theorems apply. -/
theorem both_layered : Layered bothScripts bothWorld.reg (fun c => if c = "both" then 1 else 0) := by
  intro name f hf log
  have hall : ∀ m ∈ ["NYSE", "XLON"], ∀ c, ResolvesTo bothWorld.reg.aliases.get? m c → c ≠ "both" := by
    intro m hm c hc
    have := (resolveAlias_ok_iff bothWorld.reg m c).2 hc
    rintro rfl
    revert this
    simp only [List.mem_cons, List.not_mem_nil, or_false] at hm
    rcases hm with rfl | rfl <;> decide +kernel
  match f, hf with
  | 2, hf =>
    have : name = "both" := by
      simp only [bothWorld, Dict.get?] at hf
      split at hf
      · cases hf
      · split at hf
        · cases hf
        · split at hf
          · rename_i h; exact h.symm
          · cases hf
    subst this
    refine ⟨⟨trivial, fun m he c hc => ?_⟩, fun a => ?_⟩
    · cases he
      simp [hall _ (by simp) c hc]
    · cases a with
      | error e => trivial
      | ok o =>
        refine ⟨⟨trivial, fun m he c hc => ?_⟩, fun a => ?_⟩
        · cases he
          simp [hall _ (by simp) c hc]
        · cases a <;> trivial
  | 0, _ => trivial
  | 1, _ => trivial
  | f + 3, _ => trivial

/-- Getting it gets all three, and who asks for `NYSE` later gets what the factory got. -/
example : (Reentrant.run bothScripts 5 bothWorld [.get "both", .get "XNYS"]).answers =
    [("NYSE", 1), ("XLON", 12), ("both", 30), ("XNYS", 1)] := by decide +kernel

/-- A factory that gets its own name: the interpreter's limit. -/
def selfScripts : Scripts := fun _ _ => .calls (.get "self") fun
  | .error e => .raises e
  | .ok _ => .returns 1

example : ∀ c, c = "self" → (⟨[], [("self", 0)], [], []⟩ : Registry).calendars.get? c = none ∧
    ∃ f, (⟨[], [("self", 0)], [], []⟩ : Registry).factories.get? c = some f ∧ ∀ log, ∃ m next c',
      selfScripts f log = .calls (.get m) next ∧ next (.error .recursionError) = .raises .recursionError ∧
      ResolvesTo (alias (⟨[], [("self", 0)], [], []⟩ : Registry)) m c' ∧ c' = "self" := by
  rintro c rfl
  exact ⟨rfl, 0, rfl, fun log => ⟨"self", _, "self", rfl, rfl, .done rfl, rfl⟩⟩

/-- Finding: layers are needed.  A factory that gets its own name the first time it is called, and is given what its
second call returns, returns another object, which replaces the first. -/
theorem c89_two_objects :
    (Reentrant.run (fun _ log => if log = [] then .calls (.get "a") (fun _ => .returns 1) else .returns 2) 5
      ⟨⟨[], [("a", 0)], [], []⟩, []⟩ [.get "a", .get "a"]).answers = [("a", 2), ("a", 1), ("a", 1)] := by
  decide +kernel

/-- Finding: a factory that makes its own name an alias, by force, leaves a name that is a calendar and an alias at
once; the calendar is what the first call returns, and the alias what later calls see. -/
theorem c89_two_roles :
    (Reentrant.run (fun f _ => if f = 0 then .calls (.registerAlias "a" "b" true) (fun _ => .returns 1) else .returns 2) 5
      ⟨⟨[], [("a", 0), ("b", 1)], [], []⟩, []⟩ [.get "a", .get "a"]).answers = [("a", 1), ("a", 2)] := by
  decide +kernel

end TC.Props
