import Verif.Spec.Threads
import Verif.Props.Dispatcher

/-!
# C69: the registry under concurrent calls
-/

namespace TC.Props
open TC TC.Spec TC.Registry TC.Threads

/-! ### A call alone -/

theorem Alone.trans {env : FactoryEnv} {s s' s'' : Registry} {p p' p'' : Pc} (h : Alone env s p s' p')
    (h' : Alone env s' p' s'' p'') : Alone env s p s'' p'' := by
  induction h with
  | refl => exact h'
  | step _ ih => exact .step (ih h')

theorem Alone.one (env : FactoryEnv) (s : Registry) (p : Pc) :
    Alone env s p (advance env s p).1 (advance env s p).2 := .step (.refl _ _)

/-- Where a call is after `resolve_alias`. -/
def afterResolve (why : Why) (asked : String) : Py String → Pc
  | .ok r => resolved why asked r
  | .error e => cyclic why asked e

theorem alone_resolve (env : FactoryEnv) (s : Registry) (why : Why) (asked : String) (seen : List String)
    (name : String) : Alone env s (.resolveIn why asked seen name) s
      (afterResolve why asked (resolveLoop s.aliases seen name)) := by
  generalize hal : s.aliases = al
  fun_induction resolveLoop al seen name with
  | case1 seen name h =>
    subst hal
    refine .step ?_
    simp only [advance, Dict.has, h, Option.isSome_none, Bool.false_eq_true, if_false]
    exact .refl _ _
  | case2 seen name next h hmem =>
    subst hal
    refine .step (.step ?_)
    simp only [advance, Dict.has, h, Option.isSome_some, if_true, hmem]
    exact .refl _ _
  | case3 seen name next h hmem ih =>
    refine .step (.step ?_)
    subst hal
    simp only [advance, Dict.has, h, Option.isSome_some, if_true, hmem, if_false]
    exact ih

theorem alone_has (env : FactoryEnv) (s : Registry) (name : String) (next : Option Payload) :
    Alone env s (.has1 name next) s
      (if s.hasCalendar name then found name next
        else match next with
          | none => .done (.ok (.bool false))
          | some p => .set name p) := by
  unfold hasCalendar
  refine .step ?_
  simp only [advance]
  split
  · rename_i h; simp only [h, Bool.true_or, if_true]; exact .refl _ _
  · rename_i h
    refine .step ?_
    simp only [advance]
    split
    · rename_i h'; simp only [h', Bool.true_or, Bool.or_true, if_true]; exact .refl _ _
    · rename_i h'
      simp only [Bool.not_eq_true] at h h'
      simp only [h, h', Bool.false_or]
      exact .step (.refl _ _)

theorem alone_pop (env : FactoryEnv) (s : Registry) (name : String) (next : Option Payload) :
    Alone env s (.pop1 name next) (s.deregister name)
      (match next with
        | none => .done (.ok .unit)
        | some p => .has1 name (some p)) :=
  .step (.step (.step (.refl _ _)))

theorem alone_register (env : FactoryEnv) (s : Registry) (name : String) (p : Payload) (force : Bool) :
    let s' := if force then s.deregister name else s
    Alone env s (if force then .pop1 name (some p) else .has1 name (some p)) s'
      (if s'.hasCalendar name then .done (.error (.calendarNameCollision name)) else .set name p) := by
  intro s'
  cases force with
  | false => exact alone_has env s name (some p)
  | true => exact Alone.trans (alone_pop env s name (some p)) (alone_has env _ name (some p))

/-- **C69.**  A call during which no other runs does what it does in the model with one step for each call,
and with the same result. -/
theorem c69_alone (env : FactoryEnv) (s : Registry) (op : Op) :
    Alone env s (begin op) (s.step env op).1 (.done (s.step env op).2) := by
  cases op with
  | get n =>
    refine Alone.trans (alone_resolve env s .get n [] n) ?_
    simp only [step, getCalendar, resolveAlias]
    cases hr : resolveLoop s.aliases [] n with
    | error e => exact .refl _ _
    | ok c =>
      refine .step ?_
      simp only [afterResolve, resolved, advance]
      cases hc : s.calendars.get? c with
      | some o => exact .refl _ _
      | none =>
        refine .step ?_
        simp only [advance]
        cases hf : s.factories.get? c with
        | none => exact .refl _ _
        | some f =>
          refine .step ?_
          simp only [advance]
          cases he : env f s.calls with
          | error e => exact .refl _ _
          | ok o => exact .step (.refl _ _)
  | has n =>
    refine Alone.trans (alone_has env s n none) ?_
    simp only [step]
    cases s.hasCalendar n <;> exact .refl _ _
  | names => exact .step (.refl _ _)
  | resolve n =>
    refine Alone.trans (alone_resolve env s .user n [] n) ?_
    simp only [step, resolveAlias]
    cases resolveLoop s.aliases [] n <;> exact .refl _ _
  | registerCal n c force =>
    refine Alone.trans (alone_register env s n (.cal c) force) ?_
    simp only [step, registerCalendar]
    generalize (if force = true then s.deregister n else s) = s'
    cases s'.hasCalendar n
    · exact .step (.refl _ _)
    · exact .refl _ _
  | registerType n f force =>
    refine Alone.trans (alone_register env s n (.type f) force) ?_
    simp only [step, registerCalendarType]
    generalize (if force = true then s.deregister n else s) = s'
    cases s'.hasCalendar n
    · exact .step (.refl _ _)
    · exact .refl _ _
  | registerAlias a r force =>
    refine Alone.trans (alone_register env s a (.alias r) force) ?_
    simp only [step, registerCalendarAlias]
    generalize (if force = true then s.deregister a else s) = s'
    cases s'.hasCalendar a
    · refine .step ?_
      simp only [advance, Bool.false_eq_true, if_false, resolveAlias]
      refine Alone.trans (alone_resolve env _ .check a [] a) ?_
      cases hr : resolveLoop (s'.aliases.set a r) [] a with
      | ok c => exact .refl _ _
      | error e =>
        refine .step ?_
        simp only [afterResolve, cyclic, advance, Dict.has_set, decide_true, Bool.true_or, if_true]
        exact .refl _ _
    · exact .refl _ _
  | deregister n => exact alone_pop env s n none
  | clear => exact .step (.step (.step (.refl _ _)))

/-! ### Aliases -/

/-- Following aliases leads from one name to the other. -/
inductive Reaches (al : String → Option String) : String → String → Prop
  | refl (n) : Reaches al n n
  | tail {n m k} : Reaches al n m → al m = some k → Reaches al n k

theorem Reaches.resolves {al : String → Option String} {n m r : String} (h : Reaches al n m)
    (hr : ResolvesTo al m r) : ResolvesTo al n r := by
  induction h with
  | refl => exact hr
  | tail _ hk ih => exact ih (.step hk hr)

theorem Reaches.trans {al : String → Option String} {n m k : String} (h : Reaches al n m)
    (h' : Reaches al m k) : Reaches al n k := by
  induction h' with
  | refl => exact h
  | tail _ hk ih => exact .tail ih hk

/-- Two tables that differ at `b` only are the same for names that do not lead there. -/
theorem reaches_off {al al' : String → Option String} {b n m : String} (hoff : ∀ x, x ≠ b → al x = al' x)
    (hb : ¬ Reaches al' n b) (h : Reaches al n m) : Reaches al' n m := by
  induction h with
  | refl => exact .refl _
  | @tail m k _ hk ih =>
    refine .tail ih ?_
    rw [← hoff m (fun e => hb (e ▸ ih))]
    exact hk

theorem cyclic_off {al al' : String → Option String} {b n : String} (hoff : ∀ x, x ≠ b → al x = al' x)
    (hb : ¬ Reaches al' n b) (h : Cyclic al' n) : Cyclic al n := by
  rintro ⟨r, hr⟩
  apply h
  refine ⟨r, ?_⟩
  have key : ∀ {m r}, ResolvesTo al m r → Reaches al' n m → ResolvesTo al' m r := by
    clear hr
    intro m r hm
    induction hm with
    | @done m hm =>
      intro hr
      exact .done (by rw [← hoff m (fun e => hb (e ▸ hr))]; exact hm)
    | @step m k r hm _ ih =>
      intro hr
      have e : al' m = some k := by rw [← hoff m (fun e => hb (e ▸ hr))]; exact hm
      exact .step e (ih (.tail hr e))
  exact key hr (.refl _)

/-- The call is checking the alias `a` it has set, or about to remove it: from `a` it has come to `cur`. -/
def Guards (al : String → Option String) (n : String) : Pc → Prop
  | .resolveIn .check a _ cur => Reaches al n a ∧ Reaches al a cur
  | .resolveAt .check a _ cur => Reaches al n a ∧ Reaches al a cur
  | .undo a _ => Reaches al n a
  | _ => False

theorem guards_off {al al' : String → Option String} {b n : String} {p : Pc}
    (hoff : ∀ x, x ≠ b → al x = al' x) (hb : ¬ Reaches al' n b) (h : Guards al n p) : Guards al' n p := by
  have key : ∀ {a cur}, Reaches al n a ∧ Reaches al a cur → Reaches al' n a ∧ Reaches al' a cur := by
    rintro a cur ⟨h1, h2⟩
    have h1' := reaches_off hoff hb h1
    exact ⟨h1', reaches_off hoff (fun h => hb (h1'.trans h)) h2⟩
  unfold Guards at h ⊢
  split at h
  · exact key h
  · exact key h
  · exact reaches_off hoff hb h
  · exact h.elim

/-- Whoever follows a cycle is guarded by a call still checking. -/
def Guarded (b : Sys) : Prop := ∀ n, Cyclic (alias b.reg) n → ∃ c ∈ b.calls, Guards (alias b.reg) n c.pc

theorem mem_set_other {α : Type} {l : List α} {i : Nat} {x y : α} (hi : l[i]? = some x) {c : α}
    (hc : c ∈ l) : c ∈ l.set i y ∨ c = x := by
  obtain ⟨j, hj⟩ := List.mem_iff_getElem?.1 hc
  by_cases h : i = j
  · subst h
    rw [hi] at hj
    exact .inr (Option.some.inj hj.symm)
  · exact .inl (List.mem_iff_getElem?.2 ⟨j, by rw [List.getElem?_set_ne h]; exact hj⟩)

theorem mem_set_self' {α : Type} {l : List α} {i : Nat} {x y : α} (hi : l[i]? = some x) : y ∈ l.set i y := by
  have : i < l.length := (List.getElem?_eq_some_iff.1 hi).1
  exact List.mem_set this y

/-- A step that leaves the aliases as they are. -/
theorem guarded_same {env : FactoryEnv} {b : Sys} {i : Nat} {c : Call} (hi : b.calls[i]? = some c)
    (h : Guarded b) (hal : (advance env b.reg c.pc).1.aliases = b.reg.aliases)
    (hc : ∀ n, Cyclic (alias b.reg) n → Guards (alias b.reg) n c.pc →
      Guards (alias b.reg) n (advance env b.reg c.pc).2) :
    Guarded ⟨(advance env b.reg c.pc).1, b.calls.set i ⟨c.op, (advance env b.reg c.pc).2⟩⟩ := by
  intro n hn
  have e : alias (advance env b.reg c.pc).1 = alias b.reg := by unfold alias; rw [hal]
  simp only [e] at hn ⊢
  obtain ⟨d, hd, hg⟩ := h n hn
  rcases mem_set_other (y := ⟨c.op, (advance env b.reg c.pc).2⟩) hi hd with h' | rfl
  · exact ⟨d, h', hg⟩
  · exact ⟨_, mem_set_self' hi, hc n hn hg⟩

/-- A step that changes the alias `x`, and either removes it or begins to check it. -/
theorem guarded_change {env : FactoryEnv} {b : Sys} {i : Nat} {c : Call} (hi : b.calls[i]? = some c)
    (h : Guarded b) (x : String)
    (hoff : ∀ y, y ≠ x → alias b.reg y = alias (advance env b.reg c.pc).1 y)
    (hx : alias (advance env b.reg c.pc).1 x = none ∨
      ∀ n, Reaches (alias (advance env b.reg c.pc).1) n x →
        Guards (alias (advance env b.reg c.pc).1) n (advance env b.reg c.pc).2)
    (hc : ∀ n, Guards (alias b.reg) n c.pc → Reaches (alias b.reg) n x) :
    Guarded ⟨(advance env b.reg c.pc).1, b.calls.set i ⟨c.op, (advance env b.reg c.pc).2⟩⟩ := by
  intro n hn
  dsimp only at hn ⊢
  by_cases hr : Reaches (alias (advance env b.reg c.pc).1) n x
  · rcases hx with hx | hx
    · exact absurd ⟨x, hr.resolves (.done hx)⟩ hn
    · exact ⟨_, mem_set_self' hi, hx n hr⟩
  · obtain ⟨d, hd, hg⟩ := h n (cyclic_off hoff hr hn)
    rcases mem_set_other (y := ⟨c.op, (advance env b.reg c.pc).2⟩) hi hd with h' | rfl
    · exact ⟨d, h', guards_off hoff hr hg⟩
    · exact absurd (reaches_off hoff hr (hc n hg)) hr

theorem guarded_run {env : FactoryEnv} {b : Sys} {i : Nat} {c : Call} (hi : b.calls[i]? = some c)
    (h : Guarded b) :
    Guarded ⟨(advance env b.reg c.pc).1, b.calls.set i ⟨c.op, (advance env b.reg c.pc).2⟩⟩ := by
  obtain ⟨op, pc⟩ := c
  have none_end : ∀ {n a cur : String}, Cyclic (alias b.reg) n → Reaches (alias b.reg) n a ∧
      Reaches (alias b.reg) a cur → alias b.reg cur ≠ none := by
    intro n a cur hn hr he
    exact hn ⟨cur, (hr.1.trans hr.2).resolves (.done he)⟩
  cases pc with
  | resolveIn why asked seen name =>
    refine guarded_same hi h rfl ?_
    intro n hn hg
    cases why with
    | user => exact hg.elim
    | get => exact hg.elim
    | check =>
      have hne := none_end hn hg
      have : b.reg.aliases.has name = true := by
        simp only [Dict.has, Option.isSome_iff_ne_none]; exact hne
      simp only [advance, this, if_true]
      exact hg
  | resolveAt why asked seen name =>
    have hs : (advance env b.reg (.resolveAt why asked seen name)).1 = b.reg := by
      simp only [advance]; split <;> rfl
    refine guarded_same hi h (by rw [hs]) ?_
    intro n hn hg
    cases why with
    | user => exact hg.elim
    | get => exact hg.elim
    | check =>
      have hne := none_end hn hg
      simp only [advance]
      cases hk : b.reg.aliases.get? name with
      | none => exact absurd hk hne
      | some k =>
        dsimp only
        split
        · exact hg.1
        · exact ⟨hg.1, .tail hg.2 hk⟩
  | cached asked canonical =>
    have hs : (advance env b.reg (.cached asked canonical)).1 = b.reg := by
      simp only [advance]; split <;> rfl
    exact guarded_same hi h (by rw [hs]) (fun n _ hg => hg.elim)
  | factory asked canonical =>
    have hs : (advance env b.reg (.factory asked canonical)).1 = b.reg := by
      simp only [advance]; split <;> rfl
    exact guarded_same hi h (by rw [hs]) (fun n _ hg => hg.elim)
  | make canonical f => exact guarded_same hi h rfl (fun n _ hg => hg.elim)
  | store canonical o => exact guarded_same hi h rfl (fun n _ hg => hg.elim)
  | has1 name next => exact guarded_same hi h rfl (fun n _ hg => hg.elim)
  | has2 name next => exact guarded_same hi h rfl (fun n _ hg => hg.elim)
  | has3 name next => exact guarded_same hi h rfl (fun n _ hg => hg.elim)
  | set name p =>
    cases p with
    | cal o => exact guarded_same hi h rfl (fun n _ hg => hg.elim)
    | type f => exact guarded_same hi h rfl (fun n _ hg => hg.elim)
    | alias real =>
      refine guarded_change hi h name ?_ (.inr fun n hr => ⟨hr, .refl _⟩) (fun n hg => hg.elim)
      intro y hy
      simp [advance, alias, Dict.get?_set, hy]
  | pop1 name next => exact guarded_same hi h rfl (fun n _ hg => hg.elim)
  | pop2 name next => exact guarded_same hi h rfl (fun n _ hg => hg.elim)
  | pop3 name next =>
    refine guarded_change hi h name ?_ (.inl ?_) (fun n hg => hg.elim)
    · intro y hy
      simp [advance, alias, Dict.get?_del, hy]
    · simp [advance, alias, Dict.get?_del]
  | undo a e =>
    refine guarded_change hi h a ?_ (.inl ?_) (fun n hg => hg)
    · intro y hy
      simp [advance, alias, Dict.get?_del, hy]
    · simp [advance, alias, Dict.get?_del]
  | names => exact guarded_same hi h rfl (fun n _ hg => hg.elim)
  | clear1 => exact guarded_same hi h rfl (fun n _ hg => hg.elim)
  | clear2 => exact guarded_same hi h rfl (fun n _ hg => hg.elim)
  | clear3 =>
    intro n hn
    exact absurd ⟨n, .done rfl⟩ hn
  | done r => exact guarded_same hi h rfl (fun n _ hg => hg.elim)

/-- Where only a registration of an alias can be. -/
def AliasPc : Pc → Prop
  | .resolveIn .check _ _ _ | .resolveAt .check _ _ _ | .undo _ _ => True
  | .has1 _ (some (.alias _)) | .has2 _ (some (.alias _)) | .has3 _ (some (.alias _)) => True
  | .pop1 _ (some (.alias _)) | .pop2 _ (some (.alias _)) | .pop3 _ (some (.alias _)) => True
  | .set _ (.alias _) => True
  | _ => False

theorem aliasPc_advance {env : FactoryEnv} {s : Registry} {p : Pc} (h : AliasPc (advance env s p).2) :
    AliasPc p := by
  cases p with
  | resolveIn why asked seen name =>
    cases why <;> simp only [advance, resolved] at h <;> split at h <;> first | trivial | exact h.elim
  | resolveAt why asked seen name =>
    cases why with
    | check => trivial
    | user =>
      simp only [advance, Threads.cyclic] at h
      split at h
      · exact h.elim
      · dsimp only at h; split at h <;> exact h.elim
    | get =>
      simp only [advance, Threads.cyclic] at h
      split at h
      · exact h.elim
      · dsimp only at h; split at h <;> exact h.elim
  | cached asked canonical => simp only [advance] at h; split at h <;> exact h.elim
  | factory asked canonical => simp only [advance] at h; split at h <;> exact h.elim
  | make canonical f => simp only [advance] at h; split at h <;> exact h.elim
  | store canonical o => exact h.elim
  | has1 name next =>
    rcases next with _ | (_ | _ | _) <;> simp only [advance, found] at h <;> split at h <;>
      first | trivial | exact h.elim
  | has2 name next =>
    rcases next with _ | (_ | _ | _) <;> simp only [advance, found] at h <;> split at h <;>
      first | trivial | exact h.elim
  | has3 name next =>
    rcases next with _ | (_ | _ | _) <;> simp only [advance, found] at h <;> split at h <;>
      first | trivial | exact h.elim
  | set name p => rcases p with _ | _ | _ <;> first | trivial | exact h.elim
  | pop1 name next => rcases next with _ | (_ | _ | _) <;> first | trivial | exact h.elim
  | pop2 name next => rcases next with _ | (_ | _ | _) <;> first | trivial | exact h.elim
  | pop3 name next => rcases next with _ | (_ | _ | _) <;> first | trivial | exact h.elim
  | undo a e => trivial
  | names => exact h.elim
  | clear1 => exact h.elim
  | clear2 => exact h.elim
  | clear3 => exact h.elim
  | done r => exact h.elim

theorem aliasPc_begin {op : Op} (h : AliasPc (begin op)) : ∃ a r f, op = .registerAlias a r f := by
  cases op with
  | registerAlias a r f => exact ⟨a, r, f, rfl⟩
  | registerCal n c f => cases f <;> exact h.elim
  | registerType n c f => cases f <;> exact h.elim
  | _ => exact h.elim

/-- The calls of a state, with where each is, are those of the begin and new ones. -/
theorem aliasPc_reach {env : FactoryEnv} {allowed : Op → Prop} {a b : Sys} (h : Reach env allowed a b)
    (ha : ∀ c ∈ a.calls, AliasPc c.pc → ∃ x r f, c.op = .registerAlias x r f) :
    ∀ c ∈ b.calls, AliasPc c.pc → ∃ x r f, c.op = .registerAlias x r f := by
  induction h with
  | refl => exact ha
  | call op _ _ ih =>
    intro c hc hp
    rcases List.mem_append.1 hc with hc | hc
    · exact ih c hc hp
    · simp only [List.mem_singleton] at hc
      subst hc
      exact aliasPc_begin hp
  | @run b i d _ hi ih =>
    intro c hc hp
    rcases List.mem_or_eq_of_mem_set hc with hc | rfl
    · exact ih c hc hp
    · exact ih d (List.mem_iff_getElem?.2 ⟨i, hi⟩) (aliasPc_advance hp)

theorem guarded_reach {env : FactoryEnv} {allowed : Op → Prop} {a b : Sys} (h : Reach env allowed a b)
    (ha : Guarded a) : Guarded b := by
  induction h with
  | refl => exact ha
  | call op _ _ ih =>
    intro n hn
    obtain ⟨c, hc, hg⟩ := ih n hn
    exact ⟨c, List.mem_append_left _ hc, hg⟩
  | run i c _ hi ih => exact guarded_run hi ih

/-- **C69.**  However calls interleave on a registry without alias cycles: while a name is on a cycle, a call
that registers an alias is still in progress, and whenever none is, every name resolves. -/
theorem c69_acyclic (env : FactoryEnv) (s : Registry) (h : ∀ n, ¬ Cyclic (alias s) n) {b : Sys}
    (hb : Reach env (fun _ => True) ⟨s, []⟩ b) :
    (∀ n, Cyclic (alias b.reg) n → ∃ c ∈ b.calls, RegisteringAlias c) ∧
    ((∀ c ∈ b.calls, ¬ RegisteringAlias c) → ∀ n, ∃ r, b.reg.resolveAlias n = .ok r) := by
  have key : ∀ n, Cyclic (alias b.reg) n → ∃ c ∈ b.calls, RegisteringAlias c := by
    intro n hn
    obtain ⟨c, hc, hg⟩ := guarded_reach hb (fun n hn => absurd hn (h n)) n hn
    have hp : AliasPc c.pc := by
      revert hg
      unfold Guards
      split <;> intro hg <;> rename_i e <;> first | (rw [e]; trivial) | exact hg.elim
    refine ⟨c, hc, aliasPc_reach hb (by simp) c hc hp, ?_⟩
    rintro ⟨r, hr⟩
    rw [hr] at hp
    exact hp
  refine ⟨key, fun hq n => ?_⟩
  have hn : ¬ Cyclic (alias b.reg) n := fun hn => by
    obtain ⟨c, hc, hr⟩ := key n hn
    exact hq c hc hr
  obtain ⟨r, hr⟩ := not_cyclic_iff.1 hn
  exact ⟨r, (resolveAlias_ok_iff _ _ _).2 hr⟩

/-! ### Calls that only read -/

theorem isPath_last {al : String → Option String} : ∀ {seen : List String} {name n : String},
    IsPath al (seen ++ [name]) → (seen ++ [name]).head? = some n → Reaches al n name
  | [], name, n, _, h => by
    simp only [List.nil_append, List.head?_cons, Option.some.injEq] at h
    rw [h]; exact .refl _
  | [x], name, n, hp, h => by
    simp only [List.cons_append, List.nil_append, List.head?_cons, Option.some.injEq] at h
    subst h
    exact .tail (.refl _) hp.1
  | x :: y :: xs, name, n, hp, h => by
    simp only [List.cons_append, List.head?_cons, Option.some.injEq] at h
    subst h
    have ih : Reaches al y name := isPath_last (seen := y :: xs) hp.2 rfl
    exact (Reaches.tail (.refl _) hp.1).trans ih

/-- Where a call that only reads can be, on the registry `s` it began with. -/
def ReadsAt (env : FactoryEnv) (s : Registry) : Op → Pc → Prop
  | .get n, .resolveIn why asked seen name => why = .get ∧ asked = n ∧
      IsPath (alias s) (seen ++ [name]) ∧ (seen ++ [name]).head? = some n
  | .get n, .resolveAt why asked seen name => why = .get ∧ asked = n ∧ alias s name ≠ none ∧
      ∃ pre, seen = pre ++ [name] ∧ IsPath (alias s) (pre ++ [name]) ∧ (pre ++ [name]).head? = some n
  | .get n, .cached asked c => asked = n ∧ ResolvesTo (alias s) n c
  | .get n, .factory asked c => asked = n ∧ ResolvesTo (alias s) n c ∧ s.calendars.get? c = none
  | .get n, .make c f => ResolvesTo (alias s) n c ∧ s.calendars.get? c = none ∧ s.factories.get? c = some f
  | .get n, .store c o => ResolvesTo (alias s) n c ∧ s.calendars.get? c = none ∧
      ∃ f log, s.factories.get? c = some f ∧ env f log = .ok o
  | .get n, .done r => GetAnswer env s n r
  | .get _, _ => False
  | .has _, .has1 _ none | .has _, .has2 _ none | .has _, .has3 _ none | .has _, .done _ => True
  | .resolve _, .resolveIn .user _ _ _ | .resolve _, .resolveAt .user _ _ _ | .resolve _, .done _ => True
  | .names, .names | .names, .done _ => True
  | _, _ => False

/-- The registry while calls only read: calendars are added, made by the factory of their name. -/
structure Grown (env : FactoryEnv) (s s' : Registry) : Prop where
  aliases : s'.aliases = s.aliases
  factories : s'.factories = s.factories
  kept : ∀ c o, s.calendars.get? c = some o → s'.calendars.get? c = some o
  added : ∀ c o, s.calendars.get? c = none → s'.calendars.get? c = some o →
    ∃ f log, s.factories.get? c = some f ∧ env f log = .ok o

theorem getAnswer_resolved {env : FactoryEnv} {s : Registry} {n c : String} {r : Py Out}
    (hr : ResolvesTo (alias s) n c)
    (h1 : ∀ o, s.calendars.get? c = some o → r = .ok (.cal o))
    (h2 : ∀ f, s.calendars.get? c = none → s.factories.get? c = some f → ∃ log, r = (env f log).map .cal)
    (h3 : s.calendars.get? c = none → s.factories.get? c = none → r = .error (.invalidCalendarName n)) :
    GetAnswer env s n r where
  cached c' o hr' h := by rw [ResolvesTo.unique hr' hr] at h; exact h1 o h
  made c' f hr' h h' := by rw [ResolvesTo.unique hr' hr] at h h'; exact h2 f h h'
  unknown c' hr' h h' := by rw [ResolvesTo.unique hr' hr] at h h'; exact h3 h h'
  cyclic h := absurd ⟨c, hr⟩ h

theorem reads_advance {env : FactoryEnv} {s s' : Registry} (hg : Grown env s s') {op : Op} {p : Pc}
    (h : ReadsAt env s op p) :
    ReadsAt env s op (advance env s' p).2 ∧ Grown env s (advance env s' p).1 := by
  have hal : s'.aliases.get? = alias s := by unfold alias; rw [hg.aliases]
  have hfa : s'.factories.get? = s.factories.get? := by rw [hg.factories]
  cases op with
  | get n =>
    cases p with
    | resolveIn why asked seen name =>
      obtain ⟨rfl, rfl, hp, hh⟩ := h
      refine ⟨?_, hg⟩
      simp only [advance]
      split
      · rename_i hi
        refine ⟨rfl, rfl, ?_, seen, rfl, hp, hh⟩
        rw [← hal, ← Option.isSome_iff_ne_none]
        exact hi
      · rename_i hi
        refine ⟨rfl, (isPath_last hp hh).resolves (.done ?_)⟩
        rw [← hal]
        simpa [Dict.has] using hi
    | resolveAt why asked seen name =>
      obtain ⟨rfl, rfl, hne, pre, rfl, hp, hh⟩ := h
      simp only [advance, hal]
      cases hk : alias s name with
      | none => exact absurd hk hne
      | some k =>
        refine ⟨?_, hg⟩
        dsimp only
        have hp' := isPath_append hp hk
        have hh' : (pre ++ [name] ++ [k]).head? = some asked := by
          rw [List.head?_append, hh]; rfl
        split
        · rename_i hm
          have hcy : Cyclic (alias s) asked := by
            rintro ⟨r, hr⟩
            exact cyclic_of_loop hp' hm r asked hr (List.mem_of_head? hh)
          exact ⟨fun c _ hr => absurd ⟨c, hr⟩ hcy, fun c _ hr => absurd ⟨c, hr⟩ hcy,
            fun c hr => absurd ⟨c, hr⟩ hcy, fun _ => ⟨_, rfl, _, k, rfl, hh', hm, hp'⟩⟩
        · exact ⟨rfl, rfl, hp', hh'⟩
    | cached asked c =>
      obtain ⟨rfl, hr⟩ := h
      simp only [advance]
      cases hc : s.calendars.get? c with
      | some o =>
        rw [hg.kept c o hc]
        refine ⟨getAnswer_resolved hr ?_ ?_ ?_, hg⟩
        · intro o' h'; rw [hc] at h'; cases h'; rfl
        · intro f h'; rw [hc] at h'; cases h'
        · intro h'; rw [hc] at h'; cases h'
      | none =>
        cases hc' : s'.calendars.get? c with
        | none => exact ⟨⟨rfl, hr, hc⟩, hg⟩
        | some o =>
          obtain ⟨f, log, hf, he⟩ := hg.added c o hc hc'
          refine ⟨getAnswer_resolved hr ?_ ?_ ?_, hg⟩
          · intro o' h'; rw [hc] at h'; cases h'
          · intro f' _ h'
            rw [hf] at h'; cases h'
            exact ⟨log, by rw [he]; rfl⟩
          · intro _ h'; rw [hf] at h'; cases h'
    | factory asked c =>
      obtain ⟨rfl, hr, hc⟩ := h
      simp only [advance, hfa]
      cases hf : s.factories.get? c with
      | some f => exact ⟨⟨hr, hc, hf⟩, hg⟩
      | none =>
        refine ⟨getAnswer_resolved hr ?_ ?_ ?_, hg⟩
        · intro o' h'; rw [hc] at h'; cases h'
        · intro f' _ h'; rw [hf] at h'; cases h'
        · intro _ _; rfl
    | make c f =>
      obtain ⟨hr, hc, hf⟩ := h
      refine ⟨?_, ⟨hg.aliases, hg.factories, hg.kept, hg.added⟩⟩
      simp only [advance]
      cases he : env f s'.calls with
      | ok o => exact ⟨hr, hc, f, _, hf, he⟩
      | error e =>
        refine getAnswer_resolved hr ?_ ?_ ?_
        · intro o' h'; rw [hc] at h'; cases h'
        · intro f' _ h'
          rw [hf] at h'; cases h'
          exact ⟨_, by rw [he]; rfl⟩
        · intro _ h'; rw [hf] at h'; cases h'
    | store c o =>
      obtain ⟨hr, hc, f, log, hf, he⟩ := h
      refine ⟨getAnswer_resolved hr ?_ ?_ ?_, ⟨hg.aliases, hg.factories, ?_, ?_⟩⟩
      · intro o' h'; rw [hc] at h'; cases h'
      · intro f' _ h'
        rw [hf] at h'; cases h'
        exact ⟨log, by rw [he]; rfl⟩
      · intro _ h'; rw [hf] at h'; cases h'
      · intro c' o' h'
        have hne : c' ≠ c := fun e => by rw [e, hc] at h'; cases h'
        simp only [advance, Dict.get?_set, hne, if_false]
        exact hg.kept c' o' h'
      · intro c' o' h' h''
        simp only [advance, Dict.get?_set] at h''
        split at h''
        · rename_i e
          subst e
          cases h''
          exact ⟨f, log, hf, he⟩
        · exact hg.added c' o' h' h''
    | done r => exact ⟨h, hg⟩
    | _ => exact h.elim
  | has n =>
    cases p with
    | has1 m next =>
      cases next with
      | none => simp only [advance, found]; split <;> exact ⟨trivial, hg⟩
      | some _ => exact h.elim
    | has2 m next =>
      cases next with
      | none => simp only [advance, found]; split <;> exact ⟨trivial, hg⟩
      | some _ => exact h.elim
    | has3 m next =>
      cases next with
      | none => simp only [advance, found]; split <;> exact ⟨trivial, hg⟩
      | some _ => exact h.elim
    | done r => exact ⟨trivial, hg⟩
    | _ => exact h.elim
  | resolve n =>
    cases p with
    | resolveIn why asked seen name =>
      cases why with
      | user => simp only [advance, resolved]; split <;> exact ⟨trivial, hg⟩
      | _ => exact h.elim
    | resolveAt why asked seen name =>
      cases why with
      | user =>
        simp only [advance, Threads.cyclic]
        split
        · exact ⟨trivial, hg⟩
        · dsimp only; split <;> exact ⟨trivial, hg⟩
      | _ => exact h.elim
    | done r => exact ⟨trivial, hg⟩
    | _ => exact h.elim
  | names =>
    cases p with
    | names => exact ⟨trivial, hg⟩
    | done r => exact ⟨trivial, hg⟩
    | _ => exact h.elim
  | _ => cases p <;> exact h.elim

theorem reads_reach {env : FactoryEnv} {s : Registry} {b : Sys} (h : Reach env OnlyReads ⟨s, []⟩ b) :
    Grown env s b.reg ∧ ∀ c ∈ b.calls, ReadsAt env s c.op c.pc := by
  induction h with
  | refl => exact ⟨⟨rfl, rfl, fun _ _ h => h, fun c o h h' => by rw [h] at h'; cases h'⟩, by simp⟩
  | call op _ hop ih =>
    refine ⟨ih.1, fun c hc => ?_⟩
    rcases List.mem_append.1 hc with hc | hc
    · exact ih.2 c hc
    · simp only [List.mem_singleton] at hc
      subst hc
      cases op with
      | get n => exact ⟨rfl, rfl, trivial, rfl⟩
      | has n => trivial
      | names => trivial
      | resolve n => trivial
      | _ => exact hop.elim
  | @run b i d _ hi ih =>
    have hd : d ∈ b.calls := List.mem_iff_getElem?.2 ⟨i, hi⟩
    obtain ⟨h1, h2⟩ := reads_advance ih.1 (ih.2 d hd)
    refine ⟨h2, fun c hc => ?_⟩
    rcases List.mem_or_eq_of_mem_set hc with hc | rfl
    · exact ih.2 c hc
    · exact h1

/-- **C69.**  However many threads call `get_calendar` (and the other functions that only read) at once, each
call that has finished returned the calendar cached at the beginning, or one that the factory of its name made,
or raised what it would raise alone; and the registry has in addition only calendars made by the factory of
their name. -/
theorem c69_gets (env : FactoryEnv) (s : Registry) {b : Sys} (h : Reach env OnlyReads ⟨s, []⟩ b) :
    (∀ n r, ⟨.get n, .done r⟩ ∈ b.calls → GetAnswer env s n r) ∧
    b.reg.aliases = s.aliases ∧ b.reg.factories = s.factories ∧
    (∀ c o, s.calendars.get? c = some o → b.reg.calendars.get? c = some o) ∧
    (∀ c o, s.calendars.get? c = none → b.reg.calendars.get? c = some o →
      ∃ f log, s.factories.get? c = some f ∧ env f log = .ok o) := by
  obtain ⟨hg, hc⟩ := reads_reach h
  exact ⟨fun n r hm => hc _ hm, hg.aliases, hg.factories, hg.kept, hg.added⟩

/-! ### A calendar that is cached -/

theorem settled_advance {env : FactoryEnv} {s : Registry} {c : String} {o : CalObj}
    (h : s.calendars.get? c = some o) {p : Pc} (hp : ¬ Touches c p) :
    (advance env s p).1.calendars.get? c = some o ∧ ¬ Touches c (advance env s p).2 := by
  have hhas : s.calendars.has c = true := by simp [Dict.has, h]
  cases p with
  | resolveIn why asked seen name =>
    refine ⟨h, ?_⟩
    simp only [advance]
    split
    · exact id
    · cases why <;> exact id
  | resolveAt why asked seen name =>
    simp only [advance]
    split
    · exact ⟨h, id⟩
    · refine ⟨h, ?_⟩
      dsimp only
      split
      · cases why <;> exact id
      · exact id
  | cached asked n =>
    simp only [advance]
    split
    · exact ⟨h, id⟩
    · rename_i hn
      exact ⟨h, fun e => by rw [show n = c from e, h] at hn; cases hn⟩
  | factory asked n =>
    simp only [advance]
    split
    · exact ⟨h, hp⟩
    · exact ⟨h, id⟩
  | make n f =>
    refine ⟨h, ?_⟩
    simp only [advance]
    split
    · exact id
    · exact hp
  | store n o' =>
    have hne : c ≠ n := fun e => hp e.symm
    exact ⟨by simp only [advance, Dict.get?_set, hne, if_false]; exact h, id⟩
  | has1 n next =>
    refine ⟨h, ?_⟩
    simp only [advance]
    split
    · cases next <;> exact id
    · rename_i hn
      rcases next with _ | (_ | _ | _)
      · exact id
      · exact fun e => hn (by rw [show n = c from e]; exact hhas)
      · exact id
      · exact id
  | has2 n next =>
    refine ⟨h, ?_⟩
    simp only [advance]
    split
    · cases next <;> exact id
    · rcases next with _ | (_ | _ | _) <;> first | exact hp | exact id
  | has3 n next =>
    refine ⟨h, ?_⟩
    simp only [advance]
    split
    · cases next <;> exact id
    · rcases next with _ | (_ | _ | _) <;> first | exact hp | exact id
  | set n p =>
    cases p with
    | cal o' =>
      have hne : c ≠ n := fun e => hp e.symm
      exact ⟨by simp only [advance, Dict.get?_set, hne, if_false]; exact h, id⟩
    | type f => exact ⟨h, id⟩
    | alias r => exact ⟨h, id⟩
  | pop1 n next =>
    have hne : c ≠ n := fun e => hp e.symm
    exact ⟨by simp only [advance, Dict.get?_del, hne, if_false]; exact h, id⟩
  | pop2 n next => exact ⟨h, id⟩
  | pop3 n next =>
    refine ⟨h, ?_⟩
    simp only [advance]
    cases next <;> exact id
  | undo a e => exact ⟨h, id⟩
  | names => exact ⟨h, id⟩
  | clear1 => exact absurd trivial hp
  | clear2 => exact ⟨h, id⟩
  | clear3 => exact ⟨h, id⟩
  | done r => exact ⟨h, id⟩

/-- **C69.**  Once a calendar is cached for a name, and no call is past its look for it or about to replace or
remove it, then through all interleavings of further calls that do not remove it (C03) it stays, and every call
that looks it up returns it and runs no factory. -/
theorem c69_settled {env : FactoryEnv} {c : String} {o : CalObj} {a b : Sys} (ha : Settled c o a)
    (h : Reach env (fun op => ¬ MayDrop c op) a b) :
    Settled c o b ∧ ∀ asked, advance env b.reg (.cached asked c) = (b.reg, .done (.ok (.cal o))) := by
  have key : Settled c o b := by
    induction h with
    | refl => exact ha
    | call op _ hop ih =>
      refine ⟨ih.1, fun d hd => ?_⟩
      rcases List.mem_append.1 hd with hd | hd
      · exact ih.2 d hd
      · simp only [List.mem_singleton] at hd
        subst hd
        cases op with
        | get n => exact id
        | has n => exact id
        | names => exact id
        | resolve n => exact id
        | registerCal n x f => cases f <;> first | exact id | exact fun e => hop ⟨e, rfl⟩
        | registerType n x f => cases f <;> first | exact id | exact fun e => hop ⟨e, rfl⟩
        | registerAlias n x f => cases f <;> first | exact id | exact fun e => hop ⟨e, rfl⟩
        | deregister n => exact fun e => hop e
        | clear => exact fun _ => hop trivial
    | @run b i d _ hi ih =>
      have hd : d ∈ b.calls := List.mem_iff_getElem?.2 ⟨i, hi⟩
      obtain ⟨h1, h2⟩ := settled_advance (env := env) ih.1 (ih.2 d hd)
      refine ⟨h1, fun e he => ?_⟩
      rcases List.mem_or_eq_of_mem_set he with he | rfl
      · exact ih.2 e he
      · exact h2
  exact ⟨key, fun asked => by simp only [advance, key.1]⟩

/-- `XNYS` cached, and a call of `get_calendar` under way. -/
example : Settled "XNYS" 7 ⟨⟨[("XNYS", 7)], [("XNYS", 0)], [("NYSE", "XNYS")], [0]⟩,
    [⟨.get "NYSE", .resolveAt .get "NYSE" ["NYSE"] "NYSE"⟩]⟩ :=
  ⟨rfl, by simp [Touches]⟩

/-! ### What can go wrong -/

/-- A schedule: a call begins, or the call with this number does a step. -/
inductive Act where
  | call (op : Op)
  | run (i : Nat)

/-- What it does. -/
def perform (env : FactoryEnv) (b : Sys) : Act → Sys
  | .call op => ⟨b.reg, b.calls ++ [⟨op, begin op⟩]⟩
  | .run i =>
    match b.calls[i]? with
    | none => b
    | some c => ⟨(advance env b.reg c.pc).1, b.calls.set i ⟨c.op, (advance env b.reg c.pc).2⟩⟩

theorem reach_perform {env : FactoryEnv} {allowed : Op → Prop} {a : Sys} : ∀ (acts : List Act) {b : Sys},
    Reach env allowed a b → (∀ op, .call op ∈ acts → allowed op) →
    Reach env allowed a (acts.foldl (perform env) b)
  | [], _, h, _ => h
  | .call op :: acts, _, h, ho =>
    reach_perform acts (.call op h (ho op (by simp))) (fun op' h' => ho op' (by simp [h']))
  | .run i :: acts, b, h, ho => by
    refine reach_perform acts ?_ (fun op' h' => ho op' (by simp [h']))
    unfold perform
    dsimp only
    split
    · exact h
    · rename_i c hc
      exact .run i c h hc

/-- **C69** (finding).  Two threads that ask for the same calendar for the first time may get two different
calendars: each finds none cached, and each calls the factory.  The second is the one that later calls get. -/
theorem c69_two_calendars (env : FactoryEnv) (s : Registry) {n : String} {f : Factory} {o o' : CalObj}
    (h1 : s.aliases.get? n = none) (h2 : s.calendars.get? n = none) (h3 : s.factories.get? n = some f)
    (h4 : env f s.calls = .ok o) (h5 : env f (s.calls ++ [f]) = .ok o') :
    ∃ b, Reach env OnlyReads ⟨s, []⟩ b ∧
      b.calls = [⟨.get n, .done (.ok (.cal o))⟩, ⟨.get n, .done (.ok (.cal o'))⟩] ∧
      b.reg.calendars.get? n = some o' := by
  refine ⟨_, reach_perform [.call (.get n), .call (.get n), .run 0, .run 1, .run 0, .run 1, .run 0, .run 1, .run 0,
    .run 1, .run 0, .run 1] .refl (by simp [OnlyReads]), ?_⟩
  simp [perform, begin, advance, Dict.has, h1, h2, h3, h4, h5, resolved, Dict.get?_set]

/-- On the registry the package starts with, if each call of the class makes another object. -/
example : (alias defaultRegistry "XNYS" = none ∧ defaultRegistry.calendars.get? "XNYS" = none ∧
    defaultRegistry.factories.get? "XNYS" = some 33) ∧
    (fun _ log => .ok log.length : FactoryEnv) 33 [] = .ok 0 ∧
    (fun _ log => .ok log.length : FactoryEnv) 33 [33] = .ok 1 :=
  ⟨⟨rfl, rfl, by decide +kernel⟩, rfl, rfl⟩

/-- **C69** (finding).  Two threads that register different calendars for the same new name, without force, may
both succeed: the first is replaced silently, against C05. -/
theorem c69_collision_missed (env : FactoryEnv) (s : Registry) {n : String} (h : ¬ Known s n) (o o' : CalObj) :
    ∃ b, Reach env (fun op => ∃ x, op = .registerCal n x false) ⟨s, []⟩ b ∧
      b.calls = [⟨.registerCal n o false, .done (.ok .unit)⟩, ⟨.registerCal n o' false, .done (.ok .unit)⟩] ∧
      b.reg.calendars.get? n = some o' := by
  simp only [Known, not_or, Decidable.not_not] at h
  refine ⟨_, reach_perform [.call (.registerCal n o false), .call (.registerCal n o' false), .run 0, .run 0, .run 0,
    .run 1, .run 1, .run 1, .run 0, .run 1] .refl ?_, ?_⟩
  · intro op hop
    simp only [List.mem_cons, Act.call.injEq, List.not_mem_nil, or_false, reduceCtorEq] at hop
    rcases hop with rfl | rfl
    · exact ⟨o, rfl⟩
    · exact ⟨o', rfl⟩
  · simp [perform, begin, advance, Dict.has, h.1, h.2.1, h.2.2, Dict.get?_set]

/-- **C69** (finding).  A `get_calendar` of an alias that another thread removes may raise `KeyError`, which it
never does alone. -/
theorem c69_key_error (env : FactoryEnv) (s : Registry) {n c : String} (h : s.aliases.get? n = some c) :
    ∃ b, Reach env (fun op => op = .get n ∨ op = .deregister n) ⟨s, []⟩ b ∧
      b.calls = [⟨.get n, .done (.error .keyError)⟩, ⟨.deregister n, .done (.ok .unit)⟩] := by
  refine ⟨_, reach_perform [.call (.get n), .call (.deregister n), .run 0, .run 1, .run 1, .run 1, .run 0] .refl ?_, ?_⟩
  · intro op hop
    simp only [List.mem_cons, Act.call.injEq, List.not_mem_nil, or_false, reduceCtorEq] at hop
    exact hop.imp id (fun h => by simpa using h)
  · simp [perform, begin, advance, Dict.has, h, Dict.get?_del]

/-- **C69** (finding).  Two threads that register the aliases `a → b` and `b → a` may both be refused, though
either alone is accepted; and in between `get_calendar(a)` reports a cycle. -/
theorem c69_both_refused (env : FactoryEnv) (s : Registry) {a b : String} (hab : a ≠ b) (ha : ¬ Known s a)
    (hb : ¬ Known s b) :
    ∃ b', Reach env (fun _ => True) ⟨s, []⟩ b' ∧
      b'.calls = [⟨.registerAlias a b false, .done (.error (.cyclicCalendarAlias [a, b, a]))⟩,
        ⟨.registerAlias b a false, .done (.error (.cyclicCalendarAlias [b, a, b]))⟩,
        ⟨.get a, .done (.error (.cyclicCalendarAlias [a, b, a]))⟩] ∧
      (s.step env (.registerAlias a b false)).2 = .ok .unit ∧
      (s.step env (.registerAlias b a false)).2 = .ok .unit := by
  have single : ∀ {x y : String}, x ≠ y → ¬ Known s x → ¬ Known s y →
      (s.step env (.registerAlias x y false)).2 = .ok .unit := by
    intro x y hxy hx hy
    have hy' : alias s y = none := by
      simp only [Known, not_or, Decidable.not_not] at hy; exact hy.2.2
    have hr : ResolvesTo (s.aliases.set x y).get? x y :=
      .step (by simp [Dict.get?_set]) (.done (by rw [Dict.get?_set, if_neg (Ne.symm hxy)]; exact hy'))
    have hr' : resolveLoop (s.aliases.set x y) [] x = .ok y :=
      (resolveAlias_ok_iff { s with aliases := s.aliases.set x y } x y).2 hr
    have hk : s.hasCalendar x = false := (hasCalendar_false_iff s x).2 hx
    simp [step, registerCalendarAlias, hk, resolveAlias, hr', Except.map]
  have h1 := single hab ha hb
  have h2 := single (Ne.symm hab) hb ha
  simp only [Known, not_or, Decidable.not_not] at ha hb
  have hba : b ≠ a := Ne.symm hab
  refine ⟨_, reach_perform [.call (.registerAlias a b false), .call (.registerAlias b a false),
    .run 0, .run 0, .run 0, .run 1, .run 1, .run 1, .run 0, .run 1, .call (.get a), .run 2, .run 2, .run 2, .run 2,
    .run 0, .run 0, .run 0, .run 0, .run 1, .run 1, .run 1, .run 1, .run 0, .run 1] .refl (by simp), ?_, h1, h2⟩
  simp [perform, begin, advance, Dict.has, ha.1, ha.2.1, ha.2.2, hb.1, hb.2.1, hb.2.2, Dict.get?_set, Dict.get?_del,
    Threads.cyclic, hab, hba]

/-- **C69** (finding).  A `register_calendar_alias` that is refused because of a cycle raises `KeyError` instead
of `CyclicCalendarAlias` if another thread has removed the alias before it is backed out. -/
theorem c69_undo_key_error (env : FactoryEnv) (s : Registry) {a : String} (ha : ¬ Known s a) :
    (∃ b, Reach env (fun op => op = .registerAlias a a false ∨ op = .deregister a) ⟨s, []⟩ b ∧
      b.calls = [⟨.registerAlias a a false, .done (.error .keyError)⟩, ⟨.deregister a, .done (.ok .unit)⟩]) ∧
    (s.step env (.registerAlias a a false)).2 = .error (.cyclicCalendarAlias [a, a]) := by
  have hk : s.hasCalendar a = false := (hasCalendar_false_iff s a).2 ha
  simp only [Known, not_or, Decidable.not_not] at ha
  constructor
  · refine ⟨_, reach_perform [.call (.registerAlias a a false), .call (.deregister a), .run 0, .run 0, .run 0, .run 0,
      .run 0, .run 0, .run 1, .run 1, .run 1, .run 0] .refl ?_, ?_⟩
    · intro op hop
      simp only [List.mem_cons, Act.call.injEq, List.not_mem_nil, or_false, reduceCtorEq] at hop
      exact hop
    · simp [perform, begin, advance, Dict.has, ha.1, ha.2.1, ha.2.2, Dict.get?_set, Dict.get?_del, Threads.cyclic]
  · have e : resolveLoop (s.aliases.set a a) [] a = .error (.cyclicCalendarAlias [a, a]) := by
      have h : (s.aliases.set a a).get? a = some a := by simp [Dict.get?_set]
      unfold resolveLoop
      split
      · rename_i hn
        rw [h] at hn
        cases hn
      · rename_i next hn
        rw [h] at hn
        cases hn
        simp
    simp [step, registerCalendarAlias, hk, resolveAlias, e, Except.map]

example : ¬ Known defaultRegistry "A" ∧ ¬ Known defaultRegistry "B" ∧ alias defaultRegistry "NYSE" = some "XNYS" := by
  simp only [← hasCalendar_iff]
  decide +kernel

end TC.Props
