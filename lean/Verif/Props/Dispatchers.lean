import Verif.Spec.Dispatchers
import Verif.Props.Dispatcher

/-!
# C74: several dispatchers, and the dictionaries they are made from
-/

namespace TC.Props
open TC.Spec TC.Dispatchers TC.Registry

/-! ## Who has which dictionary -/

/-- Dispatchers have their factories and aliases for themselves. -/
structure Owned (h : Heap) : Prop where
  held : ∀ r ∈ h.held, r < h.next
  cals : ∀ d ∈ h.disps, d.cals ∈ h.held
  facs : ∀ d ∈ h.disps, d.facs < h.next ∧ d.facs ∉ h.held
  als : ∀ d ∈ h.disps, d.als < h.next ∧ d.als ∉ h.held
  apart : h.disps.Pairwise fun d d' => d.facs ≠ d'.facs ∧ d.als ≠ d'.als

theorem owned_empty : Owned emptyHeap := ⟨by simp [emptyHeap], by simp [emptyHeap], by simp [emptyHeap],
  by simp [emptyHeap], by simp [emptyHeap]⟩

theorem owned_alloc {h : Heap} (o : Owned h) (c : Dict CalObj) (f : Dict Factory) (a : Dict String) :
    Owned (h.alloc c f a) := by
  refine ⟨?_, ?_, ?_, ?_, o.apart⟩ <;> simp only [Heap.alloc, List.mem_append, List.mem_singleton]
  · rintro r (hr | rfl)
    · have := o.held r hr; omega
    · omega
  · exact fun d hd => .inl (o.cals d hd)
  · intro d hd
    have := o.facs d hd
    exact ⟨by omega, by rintro (h | h); exact this.2 h; omega⟩
  · intro d hd
    have := o.als d hd
    exact ⟨by omega, by rintro (h | h); exact this.2 h; omega⟩

theorem owned_construct {h : Heap} (o : Owned h) {c f a : Nat} (hc : c ∈ h.held) :
    Owned (h.construct c f a).1 := by
  refine ⟨?_, ?_, ?_, ?_, ?_⟩ <;> simp only [Heap.construct, List.mem_append, List.mem_singleton]
  · intro r hr
    have := o.held r hr; omega
  · rintro d (hd | rfl)
    · exact o.cals d hd
    · exact hc
  · rintro d (hd | rfl)
    · have := o.facs d hd; exact ⟨by omega, this.2⟩
    · exact ⟨by simp, fun hh => by have := o.held _ hh; simp at this⟩
  · rintro d (hd | rfl)
    · have := o.als d hd; exact ⟨by omega, this.2⟩
    · exact ⟨by simp, fun hh => by have := o.held _ hh; simp at this⟩
  · rw [List.pairwise_append]
    refine ⟨o.apart, by simp, ?_⟩
    intro d hd d' hd'
    simp only [List.mem_singleton] at hd'
    subst hd'
    have h1 := (o.facs d hd).1
    have h2 := (o.als d hd).1
    simp only
    omega

theorem owned_same {h h' : Heap} (o : Owned h) (h1 : h'.next = h.next) (h2 : h'.held = h.held)
    (h3 : h'.disps = h.disps) : Owned h' :=
  ⟨by rw [h1, h2]; exact o.held, by rw [h2, h3]; exact o.cals, by rw [h1, h2, h3]; exact o.facs,
    by rw [h1, h2, h3]; exact o.als, by rw [h3]; exact o.apart⟩

theorem owned_happens {env : FactoryEnv} {h h' : Heap} {e : Event} (o : Owned h) (H : Happens env h e h') :
    Owned h' := by
  cases H with
  | make c f a => exact owned_alloc o c f a
  | change c f a _ => exact owned_same o rfl rfl rfl
  | construct hc => exact owned_construct o hc
  | call op _ => exact owned_same o rfl rfl rfl

theorem owned_program {env : FactoryEnv} {h h' : Heap} {es : List Event} (o : Owned h)
    (H : Program env h es h') : Owned h' := by
  induction H with
  | nil => exact o
  | cons he _ ih => exact ih (owned_happens o he)

theorem owned_reached {env : FactoryEnv} {h : Heap} (H : ReachedBy env h) : Owned h := by
  obtain ⟨es, H⟩ := H
  exact owned_program owned_empty H

theorem Owned.other {h : Heap} (o : Owned h) {d d' : Disp} (hd : d ∈ h.disps) (hd' : d' ∈ h.disps) (hne : d ≠ d') :
    d.facs ≠ d'.facs ∧ d.als ≠ d'.als := by
  have key : ∀ l : List Disp, l.Pairwise (fun d d' => d.facs ≠ d'.facs ∧ d.als ≠ d'.als) → d ∈ l → d' ∈ l →
      d.facs ≠ d'.facs ∧ d.als ≠ d'.als := by
    intro l
    induction l with
    | nil => intro _ h; simp at h
    | cons x l ih =>
      intro hp h1 h2
      rw [List.pairwise_cons] at hp
      simp only [List.mem_cons] at h1 h2
      rcases h1 with rfl | h1 <;> rcases h2 with rfl | h2
      · exact absurd rfl hne
      · exact hp.1 _ h2
      · have := hp.1 _ h1; exact ⟨this.1.symm, this.2.symm⟩
      · exact ih hp.2 h1 h2
  exact key _ o.apart hd hd'

theorem grows {env : FactoryEnv} {h h' : Heap} {e : Event} (H : Happens env h e h') :
    (∀ r ∈ h.held, r ∈ h'.held) ∧ ∀ d ∈ h.disps, d ∈ h'.disps := by
  cases H with
  | make c f a => exact ⟨fun r hr => by simp [Heap.alloc, hr], fun d hd => hd⟩
  | change c f a _ => exact ⟨fun r hr => hr, fun d hd => hd⟩
  | construct hc => exact ⟨fun r hr => hr, fun d hd => by simp [Heap.construct, hd]⟩
  | call op _ => exact ⟨fun r hr => hr, fun d hd => hd⟩

theorem upd_ne {α : Type} {f : Nat → α} {i j : Nat} {v : α} (h : j ≠ i) : upd f i v j = f j := by simp [upd, h]

theorem upd_eq {α : Type} {f : Nat → α} {i : Nat} {v : α} : upd f i v i = v := by simp [upd]

/-- **C74.**  The dictionaries of factories and aliases that dispatchers are made from are copied: whatever is called
on any dispatchers, they stay as they are, unless code that has them changes them. -/
theorem c74_given {env : FactoryEnv} {h h' : Heap} {es : List Event} (hr : ReachedBy env h)
    (H : Program env h es h') {r : Nat} (hh : r ∈ h.held) (hne : ∀ c f a, Event.change r c f a ∉ es) :
    h'.facs r = h.facs r ∧ h'.als r = h.als r := by
  have o := owned_reached hr
  clear hr
  induction H with
  | nil => exact ⟨rfl, rfl⟩
  | @cons h h1 h2 e es he _ ih =>
    have hi := ih ((grows he).1 r hh) (fun c f a hm => hne c f a (by simp [hm])) (owned_happens o he)
    rw [hi.1, hi.2]
    have hlt := o.held r hh
    cases he with
    | make c f a => exact ⟨upd_ne (by omega), upd_ne (by omega)⟩
    | @change r' c f a _ =>
      have : r ≠ r' := by rintro rfl; exact hne c f a (by simp)
      exact ⟨upd_ne this, upd_ne this⟩
    | construct => exact ⟨upd_ne (by omega), upd_ne (by omega)⟩
    | @call d op hd =>
      exact ⟨upd_ne (fun e => (o.facs d hd).2 (e ▸ hh)), upd_ne (fun e => (o.als d hd).2 (e ▸ hh))⟩

/-- **C74.**  The factories and aliases of a dispatcher are changed by calls on this dispatcher only. -/
theorem c74_own {env : FactoryEnv} {h h' : Heap} {es : List Event} (hr : ReachedBy env h)
    (H : Program env h es h') {d : Disp} (hd : d ∈ h.disps) (hne : ∀ op, Event.call d op ∉ es) :
    h'.facs d.facs = h.facs d.facs ∧ h'.als d.als = h.als d.als := by
  have o := owned_reached hr
  clear hr
  induction H with
  | nil => exact ⟨rfl, rfl⟩
  | @cons h h1 h2 e es he _ ih =>
    have hi := ih ((grows he).2 d hd) (fun op hm => hne op (by simp [hm])) (owned_happens o he)
    rw [hi.1, hi.2]
    have hf := o.facs d hd
    have ha := o.als d hd
    cases he with
    | make c f a => exact ⟨upd_ne (by omega), upd_ne (by omega)⟩
    | change c f a hr' =>
      exact ⟨upd_ne (fun e => hf.2 (e ▸ hr')), upd_ne (fun e => ha.2 (e ▸ hr'))⟩
    | construct => exact ⟨upd_ne (by omega), upd_ne (by omega)⟩
    | @call d' op hd' =>
      have : d ≠ d' := by rintro rfl; exact hne op (by simp)
      have := o.other hd hd' this
      exact ⟨upd_ne this.1, upd_ne this.2⟩

/-- **C74.**  A dispatcher is not affected by anything that is done with others, unless they were made from the same
dictionary of calendars, or that dictionary is changed. -/
theorem c74_others {env : FactoryEnv} {h h' : Heap} {es : List Event} (hr : ReachedBy env h)
    (H : Program env h es h') {d : Disp} (hd : d ∈ h.disps)
    (hcall : ∀ d' op, Event.call d' op ∈ es → d'.cals ≠ d.cals)
    (hchange : ∀ c f a, Event.change d.cals c f a ∉ es) : tables h' d = tables h d := by
  have h1 := c74_own hr H hd (fun op hm => hcall d op hm rfl)
  have h2 : h'.cals d.cals = h.cals d.cals := by
    have o := owned_reached hr
    clear hr h1
    induction H with
    | nil => rfl
    | @cons h h1 h2 e es he _ ih =>
      rw [ih ((grows he).2 d hd) (fun d' op hm => hcall d' op (by simp [hm]))
        (fun c f a hm => hchange c f a (by simp [hm])) (owned_happens o he)]
      have hlt := o.held _ (o.cals d hd)
      cases he with
      | make c f a => exact upd_ne (by omega)
      | @change r c f a _ =>
        have : d.cals ≠ r := by rintro e; exact hchange c f a (by simp [e])
        exact upd_ne this
      | construct => rfl
      | @call d' op _ => exact upd_ne (fun e => hcall d' op (by simp) e.symm)
  simp only [tables, h1.1, h1.2, h2]

/-- **C74.**  Dispatchers made from the same dictionary of calendars: a call on one does to the calendars of the other
what it does to its own, and nothing to the factories and aliases of the other. -/
theorem c74_shared {env : FactoryEnv} {h : Heap} (hr : ReachedBy env h) {d d' : Disp} (hd : d ∈ h.disps)
    (hd' : d' ∈ h.disps) (hne : d ≠ d') (hs : d.cals = d'.cals) (op : Op) :
    tables (h.call env d op).1 d' =
      (((h.view d).step env op).1.calendars, (tables h d').2.1, (tables h d').2.2) := by
  have := (owned_reached hr).other hd' hd (Ne.symm hne)
  simp only [tables, Heap.call, Heap.put]
  rw [upd_ne this.1, upd_ne this.2, ← hs, upd_eq]

/-- **C74.**  What one of them makes, the other has: if both resolve the names to the same one, `get_calendar` on the
second gives the calendar that the first gave, and calls no factory. -/
theorem c74_shared_get {env : FactoryEnv} {h : Heap} (hr : ReachedBy env h) {d d' : Disp} (hd : d ∈ h.disps)
    (hd' : d' ∈ h.disps) (hne : d ≠ d') (hs : d.cals = d'.cals) {n n' c : String} {o : CalObj}
    (hn : ResolvesTo (h.als d.als).get? n c) (hn' : ResolvesTo (h.als d'.als).get? n' c)
    (hg : (h.call env d (.get n)).2 = .ok (.cal o)) :
    ((h.call env d (.get n)).1.call env d' (.get n')).2 = .ok (.cal o) ∧
    ((h.call env d (.get n)).1.call env d' (.get n')).1.calls = (h.call env d (.get n)).1.calls := by
  have ht := c74_shared (env := env) hr hd hd' hne hs (.get n)
  simp only [tables, Prod.mk.injEq] at ht
  have hres := (resolveAlias_ok_iff (h.view d) n c).2 hn
  have hcal : ((h.view d).step env (.get n)).1.calendars.get? c = some o := by
    simp only [Heap.call, step] at hg ⊢
    simp only [getCalendar, hres] at hg ⊢
    cases h1 : (h.view d).calendars.get? c with
    | some c' => simp only [h1, Except.map, Except.ok.injEq, Out.cal.injEq] at hg ⊢; exact hg ▸ rfl
    | none =>
      cases h2 : (h.view d).factories.get? c with
      | none => simp [h1, h2, Except.map] at hg
      | some f =>
        cases h3 : env f (h.view d).calls with
        | error e => simp [h1, h2, h3, Except.map] at hg
        | ok c' =>
          simp only [h1, h2, h3, Except.map, Except.ok.injEq, Out.cal.injEq] at hg ⊢
          rw [Dict.get?_set, if_pos rfl, hg]
  have hres' : ((h.call env d (.get n)).1.view d').resolveAlias n' = .ok c := by
    rw [resolveAlias_ok_iff]
    simp only [Heap.view, ht.2.2]
    exact hn'
  have hc' : ((h.call env d (.get n)).1.view d').calendars.get? c = some o := by
    simp only [Heap.view]; rw [ht.1]; exact hcal
  generalize (h.call env d (.get n)).1 = h1 at hres' hc' ⊢
  have e : (h1.view d').getCalendar env n' = (h1.view d', .ok o) := by simp [getCalendar, hres', hc']
  constructor
  · simp [Heap.call, step, e, Except.map]
  · simp only [Heap.call, step, e, Heap.put]
    rfl

/-- **C74** (finding).  `clear_calendars` on one of them removes all calendars of the other: one that was registered
there without a factory is then unknown. -/
theorem c74_shared_clear {env : FactoryEnv} {h : Heap} (hr : ReachedBy env h) {d d' : Disp} (hd : d ∈ h.disps)
    (hd' : d' ∈ h.disps) (hne : d ≠ d') (hs : d.cals = d'.cals) :
    tables (h.call env d .clear).1 d' = ([], (tables h d').2.1, (tables h d').2.2) ∧
    ∀ n c, ResolvesTo (h.als d'.als).get? n c → (h.facs d'.facs).get? c = none →
      ((h.call env d .clear).1.call env d' (.get n)).2 = .error (.invalidCalendarName n) := by
  have ht := c74_shared (env := env) hr hd hd' hne hs .clear
  refine ⟨ht, fun n c hn hf => ?_⟩
  simp only [tables, Prod.mk.injEq] at ht
  have hres' : ((h.call env d .clear).1.view d').resolveAlias n = .ok c := by
    rw [resolveAlias_ok_iff]
    simp only [Heap.view, ht.2.2]
    exact hn
  have hc' : ((h.call env d .clear).1.view d').calendars.get? c = none := by
    simp only [Heap.view]; rw [ht.1]; rfl
  have hf' : ((h.call env d .clear).1.view d').factories.get? c = none := by
    simp only [Heap.view]; rw [ht.2.1]; exact hf
  simp [Heap.call, step] at hres' hc' hf' ⊢
  simp [getCalendar, hres', hc', hf', Except.map]

/-! ## The benchmark -/

/-- The loop of the benchmark on a single dispatcher. -/
def regLoop (env : FactoryEnv) : Registry → List String → Registry × Option PyErr
  | s, [] => (s, none)
  | s, n :: ns =>
    let r := s.getCalendar env n
    match r.2 with
    | .error e => (r.1, some e)
    | .ok _ => regLoop env (r.1.deregister n) ns

theorem upd_same {α : Type} (f : Nat → α) (i : Nat) : upd f i (f i) = f := by
  funext j; simp only [upd]; split <;> simp_all

theorem upd_upd {α : Type} (f : Nat → α) (i : Nat) (v w : α) : upd (upd f i v) i w = upd f i w := by
  funext j; simp only [upd]; split <;> rfl

theorem put_view (h : Heap) (d : Disp) : h.put d (h.view d) = h := by
  simp [Heap.put, Heap.view, upd_same]

theorem view_put (h : Heap) (d : Disp) (s : Registry) : (h.put d s).view d = s := by
  simp [Heap.put, Heap.view, upd_eq]

theorem put_put (h : Heap) (d : Disp) (s s' : Registry) : (h.put d s).put d s' = h.put d s' := by
  simp [Heap.put, upd_upd]

theorem benchLoop_eq (env : FactoryEnv) (d : Disp) {size : Heap → Nat} (hs : ∀ h s, size (h.put d s) = size h) :
    ∀ (names : List String) (h : Heap),
      benchLoop env d size (size h) h names =
        (h.put d (regLoop env (h.view d) names).1,
          match (regLoop env (h.view d) names).2 with
          | none => .finished
          | some e => .raised e) := by
  intro names
  induction names with
  | nil => intro h; simp [benchLoop, regLoop, put_view]
  | cons n names ih =>
    intro h
    simp only [benchLoop, if_true, regLoop, Heap.call, step]
    cases hg : ((h.view d).getCalendar env n).2 with
    | error e => simp [Except.map]
    | ok c =>
      simp only [Except.map]
      have := ih ((h.put d ((h.view d).getCalendar env n).1).put d
        (((h.view d).getCalendar env n).1.deregister n))
      rw [hs, hs] at this
      rw [view_put, this, put_put, view_put, put_put]

/-- The dispatcher in the loop: the factories that were called are those of the names that are through, and of the
calendars that are cached. -/
structure BenchInv (start : List Factory) (A : Dict String) (R : Dict Factory) (D : List Factory) (s : Registry) : Prop where
  aliases : s.aliases = A
  factories : s.factories = R
  nodup : s.calendars.keys.Nodup
  sub : ∀ k ∈ s.calendars.keys, k ∈ R.keys
  calls : ∃ l, s.calls = start ++ l ∧ l.Perm (D ++ s.calendars.keys.map fun k => (R.get? k).getD 0)

theorem keys_set_new {V : Type} {d : Dict V} {k : String} {v : V} (h : k ∉ d.keys) : (d.set k v).keys = d.keys ++ [k] := by
  induction d with
  | nil => rfl
  | cons p d ih =>
    obtain ⟨k', v'⟩ := p
    simp only [Dict.keys, List.map_cons, List.mem_cons, not_or] at h
    simp only [Dict.set, if_neg (Ne.symm h.1), Dict.keys, List.map_cons, List.cons_append]
    rw [← Dict.keys, ← Dict.keys, ih h.2]

theorem keys_del {V : Type} (d : Dict V) (k : String) : (d.del k).keys = d.keys.filter (fun x => decide (x ≠ k)) := by
  simp [Dict.keys, Dict.del, List.filter_map, Function.comp_def]

theorem del_self {V : Type} {d : Dict V} {k : String} (h : k ∉ d.keys) : d.del k = d := by
  apply Dict.del_of_not_has
  rw [Bool.eq_false_iff]
  intro hh
  exact h ((Dict.has_iff_mem_keys d k).1 hh)

theorem get?_none_of {V : Type} {d : Dict V} {k : String} (h : k ∉ d.keys) : d.get? k = none := by
  cases hh : d.get? k with
  | none => rfl
  | some v => exact absurd ((Dict.has_iff_mem_keys d k).1 (by simp [Dict.has, hh])) h

theorem get?_some_of {V : Type} {d : Dict V} {k : String} (h : k ∈ d.keys) : ∃ v, d.get? k = some v ∧ (k, v) ∈ d := by
  have := (Dict.has_iff_mem_keys d k).2 h
  simp only [Dict.has, Option.isSome_iff_exists] at this
  obtain ⟨v, hv⟩ := this
  exact ⟨v, hv, Dict.get?_mem hv⟩

/-- `get_calendar` in the loop. -/
theorem bench_get {env : FactoryEnv} {start : List Factory} {A : Dict String} {R : Dict Factory} {D : List Factory}
    {s : Registry} (I : BenchInv start A R D s) {n c : String} (hn : ResolvesTo A.get? n c) (hc : c ∈ R.keys) :
    (∃ o, (s.getCalendar env n).2 = .ok o ∧ BenchInv start A R D (s.getCalendar env n).1 ∧
      c ∈ (s.getCalendar env n).1.calendars.keys) ∨
    ∃ e, (s.getCalendar env n).2 = .error e ∧ ∃ g ∈ R.map Prod.snd, ∃ log, env g log = .error e := by
  have hres : s.resolveAlias n = .ok c := (resolveAlias_ok_iff s n c).2 (by rw [I.aliases]; exact hn)
  obtain ⟨g, hg, hmem⟩ := get?_some_of hc
  simp only [getCalendar, hres]
  cases h1 : s.calendars.get? c with
  | some o =>
    left
    exact ⟨o, rfl, I, (Dict.has_iff_mem_keys _ _).1 (by simp [Dict.has, h1])⟩
  | none =>
    have hnew : c ∉ s.calendars.keys := fun h => by
      obtain ⟨v, hv, _⟩ := get?_some_of h
      rw [h1] at hv; cases hv
    simp only [I.factories, hg]
    cases h3 : env g s.calls with
    | error e =>
      right
      exact ⟨e, rfl, g, List.mem_map.2 ⟨_, hmem, rfl⟩, _, h3⟩
    | ok o =>
      left
      refine ⟨o, rfl, ⟨I.aliases, rfl, ?_, ?_, ?_⟩, ?_⟩
      · simp only [keys_set_new hnew]
        rw [List.nodup_append]
        exact ⟨I.nodup, by simp, fun a ha b hb => by simp at hb; subst hb; rintro rfl; exact hnew ha⟩
      · intro k hk
        simp only [keys_set_new hnew, List.mem_append, List.mem_singleton] at hk
        rcases hk with hk | rfl
        · exact I.sub k hk
        · exact hc
      · obtain ⟨l, hl, hp⟩ := I.calls
        refine ⟨l ++ [g], by simp [hl], ?_⟩
        simp only [keys_set_new hnew, List.map_append, List.map_cons, List.map_nil, hg, Option.getD_some]
        rw [← List.append_assoc]
        exact hp.append_right _
      · simp [keys_set_new hnew]

theorem bench_aliases {env : FactoryEnv} {start : List Factory} {R : Dict Factory} : ∀ (A : Dict String) (s : Registry),
    BenchInv start A R [] s → (A.keys ++ R.keys).Nodup → (∀ p ∈ A, p.2 ∈ R.keys) →
    ((regLoop env s A.keys).2 = none ∧ BenchInv start [] R [] (regLoop env s A.keys).1) ∨
    ∃ e, (regLoop env s A.keys).2 = some e ∧ ∃ g ∈ R.map Prod.snd, ∃ log, env g log = .error e := by
  intro A
  induction A with
  | nil => intro s I _ _; exact .inl ⟨rfl, I⟩
  | cons p A ih =>
    obtain ⟨k, v⟩ := p
    intro s I hk ht
    have hkeys : Dict.keys ((k, v) :: A) = k :: Dict.keys A := rfl
    rw [hkeys] at hk ⊢
    rw [List.cons_append, List.nodup_cons] at hk
    simp only [List.mem_append, not_or] at hk
    have hv : v ∈ R.keys := ht (k, v) (by simp)
    have hvA : v ∉ Dict.keys A := fun h => (List.nodup_append.1 hk.2).2.2 v h v hv rfl
    have hvk : v ≠ k := fun h => hk.1.2 (h ▸ hv)
    have hn : ResolvesTo (Dict.get? ((k, v) :: A)) k v := by
      refine .step (m := v) (by simp [Dict.get?]) (.done ?_)
      simp [Dict.get?, Ne.symm hvk, get?_none_of hvA]
    simp only [regLoop]
    rcases bench_get (env := env) I hn hv with ⟨o, h1, I', _⟩ | ⟨e, h1, h2⟩
    · simp only [h1]
      apply ih _ _ hk.2 (fun p hp => ht p (by simp [hp]))
      have hkc : k ∉ (s.getCalendar env k).1.calendars.keys := fun h => hk.1.2 (I'.sub k h)
      refine ⟨?_, ?_, ?_, ?_, ?_⟩
      · simp only [deregister, I'.aliases]
        have : Dict.del A k = A := del_self hk.1.1
        simp only [Dict.del] at this ⊢
        rw [List.filter_cons]
        simpa using this
      · simp only [deregister, I'.factories, del_self hk.1.2]
      · simpa only [deregister, del_self hkc] using I'.nodup
      · simpa only [deregister, del_self hkc] using I'.sub
      · simpa only [deregister, del_self hkc] using I'.calls
    · exact .inr ⟨e, by simp [h1], h2⟩

theorem perm_filter_ne {l : List String} (hl : l.Nodup) {k : String} (hk : k ∈ l) :
    l.Perm (k :: l.filter fun x => decide (x ≠ k)) := by
  induction l with
  | nil => simp at hk
  | cons x l ih =>
    rw [List.nodup_cons] at hl
    by_cases h : x = k
    · subst h
      have : l.filter (fun y => decide (y ≠ x)) = l := by
        rw [List.filter_eq_self]
        intro a ha
        simp only [decide_eq_true_eq]
        rintro rfl
        exact hl.1 ha
      rw [List.filter_cons]
      simp only [ne_eq, not_true, decide_false, Bool.false_eq_true, if_false]
      simp only [ne_eq] at this
      rw [this]
    · have hk' : k ∈ l := by simpa [Ne.symm h] using hk
      rw [List.filter_cons]
      simp only [ne_eq, h, not_false_iff, decide_true, if_true]
      exact ((ih hl.2 hk').cons x).trans (.swap k x _)

theorem bench_factories {env : FactoryEnv} {start : List Factory} : ∀ (R : Dict Factory) (D : List Factory) (s : Registry),
    BenchInv start [] R D s → R.keys.Nodup →
    ((regLoop env s R.keys).2 = none ∧ BenchInv start [] [] (D ++ R.map Prod.snd) (regLoop env s R.keys).1) ∨
    ∃ e, (regLoop env s R.keys).2 = some e ∧ ∃ g ∈ R.map Prod.snd, ∃ log, env g log = .error e := by
  intro R
  induction R with
  | nil => intro D s I _; exact .inl ⟨rfl, by rw [List.map_nil, List.append_nil]; exact I⟩
  | cons p R ih =>
    obtain ⟨k, f⟩ := p
    intro D s I hk
    have hkeys : Dict.keys ((k, f) :: R) = k :: Dict.keys R := rfl
    rw [hkeys] at hk ⊢
    rw [List.nodup_cons] at hk
    simp only [regLoop]
    rcases bench_get (env := env) I (n := k) (c := k) (.done rfl) (by simp [hkeys]) with ⟨o, h1, I', hin⟩ | ⟨e, h1, h2⟩
    · simp only [h1]
      have I'' : BenchInv start [] R (D ++ [f]) ((s.getCalendar env k).1.deregister k) := by
        have hf : ∀ x, x ∈ (s.getCalendar env k).1.calendars.keys.filter (fun x => decide (x ≠ k)) →
            (Dict.get? ((k, f) :: R) x).getD 0 = (Dict.get? R x).getD 0 := by
          intro x hx
          simp only [List.mem_filter, decide_eq_true_eq] at hx
          simp [Dict.get?, Ne.symm hx.2]
        refine ⟨?_, ?_, ?_, ?_, ?_⟩
        · simp [deregister, I'.aliases, Dict.del]
        · simp only [deregister, I'.factories]
          have : Dict.del R k = R := del_self hk.1
          simp only [Dict.del] at this ⊢
          rw [List.filter_cons]
          simpa using this
        · simp only [deregister, keys_del]
          exact I'.nodup.filter _
        · intro x hx
          simp only [deregister, keys_del, List.mem_filter, decide_eq_true_eq] at hx
          have := I'.sub x hx.1
          simp only [hkeys, List.mem_cons] at this
          rcases this with h | h
          · exact absurd h hx.2
          · exact h
        · obtain ⟨l, hl, hp⟩ := I'.calls
          refine ⟨l, by simpa [deregister] using hl, hp.trans ?_⟩
          simp only [deregister, keys_del, List.append_assoc, List.singleton_append]
          refine List.Perm.append_left D ?_
          refine ((perm_filter_ne I'.nodup hin).map _).trans ?_
          simp only [List.map_cons]
          rw [List.map_congr_left hf]
          simp [Dict.get?]
      rcases ih (D ++ [f]) _ I'' hk.2 with ⟨h2, h3⟩ | ⟨e, h2, g, hg, h3⟩
      · exact .inl ⟨h2, by simpa [List.append_assoc] using h3⟩
      · exact .inr ⟨e, h2, g, by simp at hg ⊢; exact .inr hg, h3⟩
    · exact .inr ⟨e, by simp [h1], h2⟩

/-- **C74.**  `construct_all_calendars` of the benchmark, for any dictionaries of factories and aliases in which each
alias stands for a factory and no name is both: it changes no other dispatcher and none of the dictionaries; it ends
with the exception of a factory, or it has called every factory once and left its dispatcher empty. -/
theorem c74_bench {env : FactoryEnv} {h : Heap} (hr : ReachedBy env h) {f a : Nat} (hf : f ∈ h.held) (ha : a ∈ h.held)
    (hk : ((h.als a).keys ++ (h.facs f).keys).Nodup) (ht : ∀ p ∈ h.als a, p.2 ∈ (h.facs f).keys) :
    (∀ d ∈ h.disps, tables (constructAll env h f a).1 d = tables h d) ∧
    (∀ r ∈ h.held, (constructAll env h f a).1.cals r = h.cals r ∧ (constructAll env h f a).1.facs r = h.facs r ∧
      (constructAll env h f a).1.als r = h.als r) ∧
    (((constructAll env h f a).2 = .finished ∧
        (∀ d ∈ (constructAll env h f a).1.disps, d ∉ h.disps → tables (constructAll env h f a).1 d = ([], [], [])) ∧
        ∃ l, (constructAll env h f a).1.calls = h.calls ++ l ∧ l.Perm ((h.facs f).map Prod.snd)) ∨
      ∃ e, (constructAll env h f a).2 = .raised e ∧ ∃ g ∈ (h.facs f).map Prod.snd, ∃ log, env g log = .error e) := by
  have o := owned_reached hr
  have hfl := o.held f hf
  have hal := o.held a ha
  -- the dispatcher that is made
  let d : Disp := ⟨h.next, h.next + 1, h.next + 1⟩
  let h1 : Heap := ((h.alloc [] [] []).construct h.next f a).1
  have hd : ((h.alloc [] [] []).construct h.next f a).2 = d := rfl
  have h1f : h1.facs f = h.facs f := by
    show upd (upd h.facs h.next []) (h.next + 1) _ f = _
    rw [upd_ne (by omega), upd_ne (by omega)]
  have h1a : h1.als a = h.als a := by
    show upd (upd h.als h.next []) (h.next + 1) _ a = _
    rw [upd_ne (by omega), upd_ne (by omega)]
  have hv : h1.view d = ⟨[], h.facs f, h.als a, h.calls⟩ := by
    have e1 : h1.cals d.cals = [] := by
      show upd h.cals h.next [] h.next = _
      rw [upd_eq]
    have e2 : h1.facs d.facs = h.facs f := by
      show upd (upd h.facs h.next []) (h.next + 1) (upd h.facs h.next [] f) (h.next + 1) = _
      rw [upd_eq, upd_ne (by omega)]
    have e3 : h1.als d.als = h.als a := by
      show upd (upd h.als h.next []) (h.next + 1) (upd h.als h.next [] a) (h.next + 1) = _
      rw [upd_eq, upd_ne (by omega)]
    show (⟨h1.cals d.cals, h1.facs d.facs, h1.als d.als, h1.calls⟩ : Registry) = _
    rw [e1, e2, e3]
    rfl
  have I0 : BenchInv h.calls (h.als a) (h.facs f) [] (h1.view d) := by
    rw [hv]
    exact ⟨rfl, rfl, by simp [Dict.keys], by simp [Dict.keys], [], by simp, by simp [Dict.keys]⟩
  have sA : ∀ h' s, ((Heap.put h' d s).als a).length = (h'.als a).length := by
    intro h' s
    show (upd h'.als (h.next + 1) _ a).length = _
    rw [upd_ne (by omega)]
  have sF : ∀ h' s, ((Heap.put h' d s).facs f).length = (h'.facs f).length := by
    intro h' s
    show (upd h'.facs (h.next + 1) _ f).length = _
    rw [upd_ne (by omega)]
  have pF : ∀ s, (Heap.put h1 d s).facs f = h.facs f := by
    intro s
    show upd h1.facs (h.next + 1) _ f = _
    rw [upd_ne (by omega), h1f]
  -- what putting something into the new dispatcher leaves alone
  have frameD : ∀ s, ∀ d' ∈ h.disps, tables (h1.put d s) d' = tables h d' := by
    intro s d' hd'
    have c1 := o.held _ (o.cals d' hd')
    have c2 := (o.facs d' hd').1
    have c3 := (o.als d' hd').1
    have e1 : (h1.put d s).cals d'.cals = h.cals d'.cals := by
      show upd (upd h.cals h.next []) h.next _ _ = _
      rw [upd_ne (by omega), upd_ne (by omega)]
    have e2 : (h1.put d s).facs d'.facs = h.facs d'.facs := by
      show upd (upd (upd h.facs h.next []) (h.next + 1) _) (h.next + 1) _ _ = _
      rw [upd_ne (by omega), upd_ne (by omega), upd_ne (by omega)]
    have e3 : (h1.put d s).als d'.als = h.als d'.als := by
      show upd (upd (upd h.als h.next []) (h.next + 1) _) (h.next + 1) _ _ = _
      rw [upd_ne (by omega), upd_ne (by omega), upd_ne (by omega)]
    simp only [tables, e1, e2, e3]
  have frameR : ∀ s, ∀ r ∈ h.held, (h1.put d s).cals r = h.cals r ∧ (h1.put d s).facs r = h.facs r ∧
      (h1.put d s).als r = h.als r := by
    intro s r hr'
    have c1 := o.held _ hr'
    refine ⟨?_, ?_, ?_⟩
    · show upd (upd h.cals h.next []) h.next _ _ = _
      rw [upd_ne (by omega), upd_ne (by omega)]
    · show upd (upd (upd h.facs h.next []) (h.next + 1) _) (h.next + 1) _ _ = _
      rw [upd_ne (by omega), upd_ne (by omega), upd_ne (by omega)]
    · show upd (upd (upd h.als h.next []) (h.next + 1) _) (h.next + 1) _ _ = _
      rw [upd_ne (by omega), upd_ne (by omega), upd_ne (by omega)]
  -- the run
  have run : ∃ s, (constructAll env h f a).1 = h1.put d s ∧
      (((constructAll env h f a).2 = .finished ∧ BenchInv h.calls [] [] ((h.facs f).map Prod.snd) s) ∨
      ∃ e, (constructAll env h f a).2 = .raised e ∧ ∃ g ∈ (h.facs f).map Prod.snd, ∃ log, env g log = .error e) := by
    have eA := benchLoop_eq env d (size := fun h' => (h'.als a).length) sA (h1.als a).keys h1
    have hc : constructAll env h f a =
        (match (benchLoop env d (fun h' => (h'.als a).length) (h1.als a).length h1 (h1.als a).keys).2 with
        | .finished => benchLoop env d (fun h' => (h'.facs f).length)
            ((benchLoop env d (fun h' => (h'.als a).length) (h1.als a).length h1 (h1.als a).keys).1.facs f).length
            (benchLoop env d (fun h' => (h'.als a).length) (h1.als a).length h1 (h1.als a).keys).1
            ((benchLoop env d (fun h' => (h'.als a).length) (h1.als a).length h1 (h1.als a).keys).1.facs f).keys
        | _ => benchLoop env d (fun h' => (h'.als a).length) (h1.als a).length h1 (h1.als a).keys) := rfl
    rw [eA, h1a] at hc
    rcases bench_aliases (env := env) (h.als a) (h1.view d) I0 hk ht with ⟨r1, I1⟩ | ⟨e, r1, r2⟩
    · simp only [r1, pF] at hc
      have eF := benchLoop_eq env d (size := fun h' => (h'.facs f).length) sF (h.facs f).keys
        (h1.put d (regLoop env (h1.view d) (h.als a).keys).1)
      simp only [pF, view_put, put_put] at eF
      rw [eF] at hc
      rw [hc]
      refine ⟨_, rfl, ?_⟩
      rcases bench_factories (env := env) (h.facs f) [] _ I1 (List.nodup_append.1 hk).2.1 with ⟨q1, I2⟩ | ⟨e, q1, q2⟩
      · exact .inl ⟨by simp [q1], by simpa using I2⟩
      · exact .inr ⟨e, by simp [q1], q2⟩
    · simp only [r1] at hc
      rw [hc]
      exact ⟨_, rfl, .inr ⟨e, rfl, r2⟩⟩
  obtain ⟨s, hs, hrun⟩ := run
  rw [hs]
  refine ⟨frameD s, frameR s, ?_⟩
  rcases hrun with ⟨h2, I⟩ | h2
  · left
    refine ⟨h2, ?_, ?_⟩
    · intro d' hd' hnew
      have : d' = d := by
        have : d' ∈ h.disps ++ [d] := hd'
        simp only [List.mem_append, List.mem_singleton] at this
        exact this.resolve_left hnew
      subst this
      have hcal : s.calendars = [] := by
        cases hc : s.calendars with
        | nil => rfl
        | cons p t =>
          have := I.sub p.1 (by simp [hc, Dict.keys])
          simp [Dict.keys] at this
      simp [tables, Heap.put, upd_eq, I.aliases, I.factories, hcal]
    · obtain ⟨l, hl, hp⟩ := I.calls
      have hcal : s.calendars = [] := by
        cases hc : s.calendars with
        | nil => rfl
        | cons p t =>
          have := I.sub p.1 (by simp [hc, Dict.keys])
          simp [Dict.keys] at this
      refine ⟨l, hl, ?_⟩
      simpa [hcal, Dict.keys] using hp
  · exact .inr h2

/-! ## A case -/

/-- The library as imported: dictionary 0 has the default factories and aliases, the global dispatcher is made from
them; `twin` is a second dispatcher made from the same dictionaries. -/
def importedTwice : Heap :=
  (((emptyHeap.alloc [] defaultRegistry.factories defaultAliases).construct 0 0 0).1.construct 0 0 0).1

theorem imported_reached (env : FactoryEnv) : ReachedBy env importedTwice := by
  refine ⟨[.make [] defaultRegistry.factories defaultAliases, .construct 0 0 0, .construct 0 0 0], ?_⟩
  refine .cons (.make _ _ _) (.cons (.construct ?_ ?_ ?_) (.cons (.construct ?_ ?_ ?_) (.nil _))) <;>
    simp [Heap.alloc, Heap.construct, emptyHeap]

example : importedTwice.held = [0] ∧ importedTwice.disps = [⟨0, 1, 1⟩, ⟨0, 2, 2⟩] ∧
    tables importedTwice ⟨0, 2, 2⟩ = ([], defaultRegistry.factories, defaultAliases) := by
  refine ⟨rfl, rfl, rfl⟩

/-- The hypotheses of `c74_shared`, `c74_shared_get` and `c74_shared_clear`. -/
example (env : FactoryEnv) : ReachedBy env importedTwice ∧ (⟨0, 1, 1⟩ : Disp) ∈ importedTwice.disps ∧
    (⟨0, 2, 2⟩ : Disp) ∈ importedTwice.disps ∧ (⟨0, 1, 1⟩ : Disp) ≠ ⟨0, 2, 2⟩ ∧
    ResolvesTo (importedTwice.als 1).get? "NYSE" "XNYS" ∧ ResolvesTo (importedTwice.als 2).get? "BATS" "XNYS" := by
  refine ⟨imported_reached env, by decide, by decide, by decide, ?_, ?_⟩
  · exact .step (m := "XNYS") (by decide +kernel) (.done (by decide +kernel))
  · exact .step (m := "XNYS") (by decide +kernel) (.done (by decide +kernel))

/-- A program for `c74_given`, `c74_own` and `c74_others`: another dictionary, a third dispatcher, calls on it. -/
example (env : FactoryEnv) : ∃ h', Program env importedTwice
    [.make [("mine", 7)] [] [], .construct 3 0 0, .call ⟨3, 4, 4⟩ (.get "mine"), .call ⟨3, 4, 4⟩ .clear] h' := by
  refine ⟨_, .cons (.make _ _ _) (.cons (.construct ?_ ?_ ?_) (.cons (.call _ ?_) (.cons (.call _ ?_) (.nil _))))⟩ <;>
    simp [Heap.alloc, Heap.construct, importedTwice, emptyHeap, Heap.call, Heap.put]

/-- The hypotheses of `c74_bench`. -/
example : 0 ∈ importedTwice.held ∧ ((importedTwice.als 0).keys ++ (importedTwice.facs 0).keys).Nodup ∧
    ∀ p ∈ importedTwice.als 0, p.2 ∈ (importedTwice.facs 0).keys := by
  have e1 : importedTwice.als 0 = defaultAliases := rfl
  have e2 : importedTwice.facs 0 = defaultRegistry.factories := rfl
  rw [e1, e2]
  exact ⟨by decide, by decide +kernel, by decide +kernel⟩

end TC.Props
