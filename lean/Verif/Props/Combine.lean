import Verif.Props.Ranges

/-!
# Property C82: how answers combine

Laws that relate several calls, proved from what C12-C29 say about each of them.
-/

namespace TC.Props
open TC TC.Spec

variable {ss : List Session}

/-! ### order -/

theorem isNext_mono {xs : List Int} {t t' x y : Int} (h : t ≤ t') (hx : IsNext xs t x) (hy : IsNext xs t' y) :
    x ≤ y := hx.2.2 y hy.1 (by have := hy.2.1; omega)

theorem isPrev_mono {xs : List Int} {t t' x y : Int} (h : t ≤ t') (hx : IsPrev xs t x) (hy : IsPrev xs t' y) :
    x ≤ y := hy.2.2 x hx.1 (by have := hx.2.1; omega)

theorem isNext_step {xs : List Int} {t t' x : Int} (hx : IsNext xs t x) (h : t ≤ t') (h' : t' < x) :
    IsNext xs t' x := ⟨hx.1, h', fun y hy h2 => hx.2.2 y hy (by omega)⟩

theorem isPrev_step {xs : List Int} {t t' x : Int} (hx : IsPrev xs t x) (h : t' ≤ t) (h' : x < t') :
    IsPrev xs t' x := ⟨hx.1, h', fun y hy h2 => hx.2.2 y hy (by omega)⟩

theorem isPrev_of_isNext {xs : List Int} {t x : Int} (ht : t ∈ xs) (hx : IsNext xs t x) : IsPrev xs x t :=
  ⟨ht, hx.2.1, fun y hy h => by
    rcases Int.lt_or_le t y with h1 | h1
    · have := hx.2.2 y hy h1; omega
    · exact h1⟩

theorem isNext_of_isPrev {xs : List Int} {t x : Int} (ht : t ∈ xs) (hx : IsPrev xs t x) : IsNext xs x t :=
  ⟨ht, hx.2.1, fun y hy h => by
    rcases Int.lt_or_le y t with h1 | h1
    · have := hx.2.2 y hy h1; omega
    · exact h1⟩

/-- C82: a later instant has no earlier next open, next close or next minute. -/
theorem c82_next_monotone (h : Regular ss) (hw : ∀ s ∈ ss, s.WholeMinutes) {t t' x y : Int} (ht : t ≤ t') :
    ((Cal.ofSessions ss).nextOpen t = .ok x → (Cal.ofSessions ss).nextOpen t' = .ok y → x ≤ y) ∧
    ((Cal.ofSessions ss).nextClose t = .ok x → (Cal.ofSessions ss).nextClose t' = .ok y → x ≤ y) ∧
    ((Cal.ofSessions ss).nextMinute t = .ok x → (Cal.ofSessions ss).nextMinute t' = .ok y → x ≤ y) :=
  ⟨fun h1 h2 => isNext_mono ht (((c12_next_open h t).1 x).1 h1) (((c12_next_open h t').1 y).1 h2),
    fun h1 h2 => isNext_mono ht (((c12_next_close h t).1 x).1 h1) (((c12_next_close h t').1 y).1 h2),
    fun h1 h2 => isNext_mono ht (((c14_next_previous_minute h hw t).1 x).1 h1)
      (((c14_next_previous_minute h hw t').1 y).1 h2)⟩

/-- C82: a later instant has no earlier previous open, previous close or previous minute. -/
theorem c82_previous_monotone (h : Regular ss) (hw : ∀ s ∈ ss, s.WholeMinutes) {t t' x y : Int} (ht : t ≤ t') :
    ((Cal.ofSessions ss).previousOpen t = .ok x → (Cal.ofSessions ss).previousOpen t' = .ok y → x ≤ y) ∧
    ((Cal.ofSessions ss).previousClose t = .ok x → (Cal.ofSessions ss).previousClose t' = .ok y → x ≤ y) ∧
    ((Cal.ofSessions ss).previousMinute t = .ok x → (Cal.ofSessions ss).previousMinute t' = .ok y → x ≤ y) :=
  ⟨fun h1 h2 => isPrev_mono ht (((c13_previous_open h t).1 x).1 h1) (((c13_previous_open h t').1 y).1 h2),
    fun h1 h2 => isPrev_mono ht (((c13_previous_close h t).1 x).1 h1) (((c13_previous_close h t').1 y).1 h2),
    fun h1 h2 => isPrev_mono ht (((c14_next_previous_minute h hw t).2.2.1 x).1 h1)
      (((c14_next_previous_minute h hw t').2.2.1 y).1 h2)⟩

example : Regular demoSessions ∧ (∀ s ∈ demoSessions, s.WholeMinutes) ∧
    (Cal.ofSessions demoSessions).nextOpen (5 * MINUTE) = .ok (10 * MINUTE) ∧
    (Cal.ofSessions demoSessions).nextOpen (10 * MINUTE) = .ok (20 * MINUTE) ∧
    (Cal.ofSessions demoSessions).previousMinute (10 * MINUTE) = .ok (3 * MINUTE) ∧
    (Cal.ofSessions demoSessions).previousMinute (14 * MINUTE) = .ok (12 * MINUTE) :=
  ⟨demo_regular, demo_whole, by decide +kernel, by decide +kernel, by decide +kernel, by decide +kernel⟩

/-- C82: opens and closes form ladders.  Between an instant and its next open the answer stays the same, and from an
open the previous open of the next open leads back; so for closes, and in the other direction. -/
theorem c82_ladder (h : Regular ss) {t t' x : Int} :
    ((Cal.ofSessions ss).nextOpen t = .ok x → t ≤ t' → t' < x → (Cal.ofSessions ss).nextOpen t' = .ok x) ∧
    ((Cal.ofSessions ss).nextClose t = .ok x → t ≤ t' → t' < x → (Cal.ofSessions ss).nextClose t' = .ok x) ∧
    ((Cal.ofSessions ss).previousOpen t = .ok x → t' ≤ t → x < t' → (Cal.ofSessions ss).previousOpen t' = .ok x) ∧
    ((Cal.ofSessions ss).previousClose t = .ok x → t' ≤ t → x < t' →
      (Cal.ofSessions ss).previousClose t' = .ok x) ∧
    (t ∈ ss.map (·.open) → x ∈ ss.map (·.open) →
      ((Cal.ofSessions ss).nextOpen t = .ok x ↔ (Cal.ofSessions ss).previousOpen x = .ok t)) ∧
    (t ∈ ss.map (·.close) → x ∈ ss.map (·.close) →
      ((Cal.ofSessions ss).nextClose t = .ok x ↔ (Cal.ofSessions ss).previousClose x = .ok t)) := by
  have no := fun t x => (c12_next_open h t).1 x
  have nc := fun t x => (c12_next_close h t).1 x
  have po := fun t x => (c13_previous_open h t).1 x
  have pc := fun t x => (c13_previous_close h t).1 x
  simp only [no, nc, po, pc]
  exact ⟨isNext_step, isNext_step, isPrev_step, isPrev_step,
    fun h1 h2 => ⟨isPrev_of_isNext h1, isNext_of_isPrev h2⟩,
    fun h1 h2 => ⟨isPrev_of_isNext h1, isNext_of_isPrev h2⟩⟩

example : (Cal.ofSessions demoSessions).nextOpen (5 * MINUTE) = .ok (10 * MINUTE) ∧
    (Cal.ofSessions demoSessions).nextOpen (9 * MINUTE) = .ok (10 * MINUTE) ∧
    (Cal.ofSessions demoSessions).previousOpen (20 * MINUTE) = .ok (10 * MINUTE) := by decide +kernel

theorem close_lt_open (h : Regular ss) {s s' : Session} (hs : s ∈ ss) (hs' : s' ∈ ss) (hl : s.open < s'.open) :
    s.close < s'.open := by
  obtain ⟨i, hi, rfl⟩ := List.getElem_of_mem hs
  obtain ⟨j, hj, rfl⟩ := List.getElem_of_mem hs'
  have hp := List.pairwise_iff_getElem.1 h.times
  rcases Nat.lt_trichotomy i j with hij | hij | hij
  · exact hp i j hi hj hij
  · subst hij; omega
  · have h1 := hp j i hj hi hij
    have h2 := (h.ok _ (List.getElem_mem hj)).2.1
    omega

theorem same_open (h : Regular ss) {s s' : Session} (hs : s ∈ ss) (hs' : s' ∈ ss) (hl : s.open = s'.open) :
    s = s' := by
  obtain ⟨i, hi, rfl⟩ := List.getElem_of_mem hs
  obtain ⟨j, hj, rfl⟩ := List.getElem_of_mem hs'
  have hp := List.pairwise_iff_getElem.1 h.times
  rcases Nat.lt_trichotomy i j with hij | hij | hij
  · have h1 := hp i j hi hj hij
    have h2 := (h.ok _ (List.getElem_mem hi)).2.1
    omega
  · subst hij; rfl
  · have h1 := hp j i hj hi hij
    have h2 := (h.ok _ (List.getElem_mem hj)).2.1
    omega

/-- C82: an instant is inside a session, its close excluded, exactly when there is a next close and no next open
before it. -/
theorem c82_open_by_next (h : Regular ss) (t : Int) :
    (∃ s ∈ ss, s.open ≤ t ∧ t < s.close) ↔
      ∃ c, (Cal.ofSessions ss).nextClose t = .ok c ∧ ∀ o, (Cal.ofSessions ss).nextOpen t = .ok o → c < o := by
  constructor
  · rintro ⟨s, hs, h1, h2⟩
    refine ⟨s.close, ((c12_next_close h t).1 _).2 ⟨List.mem_map_of_mem hs, h2, fun y hy hy' => ?_⟩, fun o ho => ?_⟩
    · obtain ⟨s', hs', rfl⟩ := List.mem_map.1 hy
      rcases Int.lt_or_le s'.open s.open with k | k
      · have := close_lt_open h hs' hs k; omega
      · rcases Int.lt_or_le s.open s'.open with k2 | k2
        · have := close_lt_open h hs hs' k2; have := (h.ok _ hs').2.1; omega
        · have := same_open h hs hs' (by omega); subst this; exact Int.le_refl _
    · obtain ⟨ho1, ho2, -⟩ := ((c12_next_open h t).1 _).1 ho
      obtain ⟨s', hs', rfl⟩ := List.mem_map.1 ho1
      exact close_lt_open h hs hs' (by omega)
  · rintro ⟨c, hc, hno⟩
    obtain ⟨hc1, hc2, hc3⟩ := ((c12_next_close h t).1 _).1 hc
    obtain ⟨s, hs, rfl⟩ := List.mem_map.1 hc1
    refine ⟨s, hs, ?_, hc2⟩
    rcases Int.lt_or_le t s.open with k | k
    · exfalso
      cases ho : (Cal.ofSessions ss).nextOpen t with
      | ok o =>
        have h1 := hno o ho
        have h2 := (((c12_next_open h t).1 _).1 ho).2.2 s.open (List.mem_map_of_mem hs) k
        have := (h.ok _ hs).2.1
        omega
      | error e =>
        have := ((c12_next_open h t).2 e).1 ho
        have := this.2 s hs
        omega
    · exact k

/-- C82: so `is_open_on_minute(t, ignore_breaks=True)` says yes exactly when `t` is a close, or the next close comes
before any next open. -/
theorem c82_open (h : Regular ss) (t : Int) :
    (Cal.ofSessions ss).isOpenOnMinute t true = .ok true ↔
      (∃ s ∈ ss, t = s.close) ∨
      ∃ c, (Cal.ofSessions ss).nextClose t = .ok c ∧ ∀ o, (Cal.ofSessions ss).nextOpen t = .ok o → c < o := by
  rw [← c82_open_by_next h t]
  obtain ⟨b, hb, hbi⟩ := (c16_is_open_on_minute h t).2
  rw [hb]
  constructor
  · intro hb'
    cases hb'
    obtain ⟨s, hs, h1, h2⟩ := hbi.1 rfl
    rcases Int.lt_or_le t s.close with k | k
    · exact .inr ⟨s, hs, h1, k⟩
    · exact .inl ⟨s, hs, by omega⟩
  · rintro (⟨s, hs, rfl⟩ | ⟨s, hs, h1, h2⟩)
    · rw [hbi.2 ⟨s, hs, (h.ok _ hs).2.1, Int.le_refl _⟩]
    · rw [hbi.2 ⟨s, hs, h1, by omega⟩]

/-- In the break of the second session, and between two sessions. -/
example : (Cal.ofSessions demoSessions).nextClose (13 * MINUTE) = .ok (16 * MINUTE) ∧
    (Cal.ofSessions demoSessions).nextOpen (13 * MINUTE) = .ok (20 * MINUTE) ∧
    (Cal.ofSessions demoSessions).isOpenOnMinute (13 * MINUTE) true = .ok true ∧
    (Cal.ofSessions demoSessions).nextClose (5 * MINUTE) = .ok (16 * MINUTE) ∧
    (Cal.ofSessions demoSessions).nextOpen (5 * MINUTE) = .ok (10 * MINUTE) ∧
    (Cal.ofSessions demoSessions).isOpenOnMinute (5 * MINUTE) true = .ok false := by decide +kernel

/-- C82: `minute_to_session_label` never goes back in time. -/
theorem c82_label_monotone (h : Regular ss) {t t' l l' : Int} (ht : t ≤ t')
    (h1 : (Cal.ofSessions ss).sessionLabelFresh t "next" = .ok l)
    (h2 : (Cal.ofSessions ss).sessionLabelFresh t' "next" = .ok l') : l ≤ l' := by
  have ex : ∀ {t l}, (Cal.ofSessions ss).sessionLabelFresh t "next" = .ok l →
      ∃ s, FirstClosing ss t s ∧ s.label = l := by
    intro t l hl
    rcases Classical.em (∃ s ∈ ss, t ≤ s.close) with k | k
    · obtain ⟨s, hs⟩ := (c18_next h t).2.2.2 k
      rw [(c18_next h t).1 s hs] at hl
      exact ⟨s, hs, by injection hl⟩
    · rw [(c18_next h t).2.2.1 (fun s hs => by
        rcases Int.lt_or_le s.close t with k2 | k2
        · exact k2
        · exact absurd ⟨s, hs, k2⟩ k)] at hl
      cases hl
  obtain ⟨s, hs, rfl⟩ := ex h1
  obtain ⟨s', hs', rfl⟩ := ex h2
  obtain ⟨a1, a2, a3⟩ := hs
  obtain ⟨b1, b2, b3⟩ := hs'
  have hc := a3 s' b1 (by omega)
  obtain ⟨i, hi, rfl⟩ := List.getElem_of_mem a1
  obtain ⟨j, hj, rfl⟩ := List.getElem_of_mem b1
  rcases Nat.lt_trichotomy i j with hij | hij | hij
  · exact Int.le_of_lt (List.pairwise_iff_getElem.1 h.labels i j hi hj hij)
  · subst hij; exact Int.le_refl _
  · have k1 := List.pairwise_iff_getElem.1 h.times j i hj hi hij
    have k2 := (h.ok _ (List.getElem_mem hi)).2.1
    omega

example : (Cal.ofSessions demoSessions).sessionLabelFresh (3 * MINUTE) "next" = .ok 0 ∧
    (Cal.ofSessions demoSessions).sessionLabelFresh (5 * MINUTE) "next" = .ok 100 := by decide +kernel

/-- Of the elements with a property one has the greatest value. -/
theorem exists_greatest_by {α : Type} (P : α → Prop) (f : α → Int) :
    ∀ xs : List α, (∃ x ∈ xs, P x) → ∃ x ∈ xs, P x ∧ ∀ y ∈ xs, P y → f y ≤ f x := by
  intro xs
  induction xs with
  | nil => rintro ⟨x, hx, _⟩; cases hx
  | cons a xs ih =>
    intro h
    rcases Classical.em (∃ x ∈ xs, P x) with k | k
    · obtain ⟨x, hx, hp, hmax⟩ := ih k
      rcases Classical.em (P a ∧ f x ≤ f a) with k2 | k2
      · refine ⟨a, List.mem_cons_self .., k2.1, fun y hy hpy => ?_⟩
        rcases List.mem_cons.1 hy with rfl | hy
        · exact Int.le_refl _
        · have := hmax y hy hpy
          omega
      · refine ⟨x, List.mem_cons_of_mem _ hx, hp, fun y hy hpy => ?_⟩
        rcases List.mem_cons.1 hy with rfl | hy
        · rcases Int.lt_or_le (f x) (f y) with k3 | k3
          · exact absurd ⟨hpy, Int.le_of_lt k3⟩ k2
          · exact k3
        · exact hmax y hy hpy
    · obtain ⟨x, hx, hp⟩ := h
      rcases List.mem_cons.1 hx with rfl | hx
      · refine ⟨x, List.mem_cons_self .., hp, fun y hy hpy => ?_⟩
        rcases List.mem_cons.1 hy with rfl | hy
        · exact Int.le_refl _
        · exact absurd ⟨y, hy, hpy⟩ k
      · exact absurd ⟨x, hx, hp⟩ k

/-- C82: once the first session has opened, direction `"previous"` names the last session that opened by then: it
never goes back in time either, it is never later than direction `"next"`, and the two differ exactly when no session
contains the instant.  (Before the first open it names the last session of the calendar, C19.) -/
theorem c82_label_previous (h : Regular ss) {t t' l l' n : Int} (ht : t ≤ t') (ho : ∃ s ∈ ss, s.open ≤ t)
    (h1 : (Cal.ofSessions ss).sessionLabelFresh t "previous" = .ok l) :
    ((Cal.ofSessions ss).sessionLabelFresh t' "previous" = .ok l' → l ≤ l') ∧
    ((Cal.ofSessions ss).sessionLabelFresh t "next" = .ok n →
      l ≤ n ∧ (l = n ↔ ∃ s ∈ ss, s.open ≤ t ∧ t ≤ s.close)) := by
  have order : ∀ {s s' : Session}, s ∈ ss → s' ∈ ss → s.open ≤ s'.close →
      s = s' ∨ (s.label < s'.label ∧ s.close < s'.open) := by
    intro s s' hs hs' hle
    obtain ⟨i, hi, rfl⟩ := List.getElem_of_mem hs
    obtain ⟨j, hj, rfl⟩ := List.getElem_of_mem hs'
    rcases Nat.lt_trichotomy i j with hij | hij | hij
    · exact .inr ⟨List.pairwise_iff_getElem.1 h.labels i j hi hj hij, h.close_lt_open hi hj hij⟩
    · subst hij; exact .inl rfl
    · have := h.close_lt_open hj hi hij
      omega
  have ex : ∀ {t l}, (∃ s ∈ ss, s.open ≤ t) → (Cal.ofSessions ss).sessionLabelFresh t "previous" = .ok l →
      ∃ s ∈ ss, s.open ≤ t ∧ (∀ s' ∈ ss, s'.open ≤ t → s'.open ≤ s.open) ∧ s.label = l := by
    intro t l ho hl
    rcases Classical.em (∃ s ∈ ss, t ≤ s.close) with k | k
    · obtain ⟨c1, c2, _⟩ := c19_previous h t k
      rcases Classical.em (∃ s ∈ ss, s.Spans t) with k2 | k2
      · obtain ⟨s, hs, hst⟩ := k2
        have e := c1 s hs hst
        rw [hl] at e
        refine ⟨s, hs, hst.1, fun s' hs' ho' => ?_, by injection e with e; exact e.symm⟩
        rcases order hs' hs (by have := hst.2; omega) with rfl | ⟨_, k3⟩
        · exact Int.le_refl _
        · have := (h.ok _ hs').2.1
          omega
      · have closed : ∀ s ∈ ss, s.open ≤ t → s.close < t := fun s hs ho' => by
          rcases Int.lt_or_le s.close t with k3 | k3
          · exact k3
          · exact absurd ⟨s, hs, ho', k3⟩ k2
        have opened : ∀ s ∈ ss, s.close < t → s.open ≤ t := fun s hs hc => by
          have := (h.ok _ hs).2.1
          omega
        obtain ⟨s0, hs0, ho0⟩ := ho
        obtain ⟨s, hs, hsc, hmax⟩ := exists_greatest_by (fun s : Session => s.close < t) (·.close) ss
          ⟨s0, hs0, closed s0 hs0 ho0⟩
        have e := c2 k2 s ⟨hs, hsc, hmax⟩
        rw [hl] at e
        refine ⟨s, hs, opened s hs hsc, fun s' hs' ho' => ?_, by injection e with e; exact e.symm⟩
        have m := hmax s' hs' (closed s' hs' ho')
        rcases order hs' hs (by have := (h.ok _ hs').2.1; omega) with rfl | ⟨_, k3⟩
        · exact Int.le_refl _
        · have := (h.ok _ hs').2.1
          omega
    · rw [(c18_next h t).2.2.1 (fun s hs => by
        rcases Int.lt_or_le s.close t with k2 | k2
        · exact k2
        · exact absurd ⟨s, hs, k2⟩ k)] at hl
      cases hl
  obtain ⟨s, hs, hso, hmax, rfl⟩ := ex ho h1
  refine ⟨fun h2 => ?_, fun h2 => ?_⟩
  · obtain ⟨s', hs', hso', hmax', rfl⟩ := ex ⟨s, hs, by omega⟩ h2
    have m := hmax' s hs (by omega)
    rcases order hs hs' (by have := (h.ok _ hs').2.1; omega) with rfl | ⟨k3, _⟩
    · exact Int.le_refl _
    · exact Int.le_of_lt k3
  · have hlast : ∃ s ∈ ss, t ≤ s.close := by
      rcases Classical.em (∃ s ∈ ss, t ≤ s.close) with k | k
      · exact k
      · rw [(c18_next h t).2.2.1 (fun s hs => by
          rcases Int.lt_or_le s.close t with k2 | k2
          · exact k2
          · exact absurd ⟨s, hs, k2⟩ k)] at h2
        cases h2
    obtain ⟨s', hs'⟩ := (c18_next h t).2.2.2 hlast
    have e := (c18_next h t).1 s' hs'
    rw [h2] at e
    obtain ⟨m1, m2, m3⟩ := hs'
    have e : n = s'.label := by injection e
    subst e
    rcases order hs m1 (by omega) with rfl | ⟨k3, k4⟩
    · exact ⟨Int.le_refl _, fun _ => ⟨s, hs, hso, m2⟩, fun _ => rfl⟩
    · refine ⟨Int.le_of_lt k3, fun e => by omega, ?_⟩
      rintro ⟨q, hq, q1, q2⟩
      have a1 := hmax q hq q1
      have a2 := m3 q hq q2
      rcases order hs hq (by omega) with rfl | ⟨_, k5⟩
      · have := (h.ok _ m1).2.1
        omega
      · have := (h.ok _ hs).2.1
        omega

/-- C82: direction `"none"` gives the label of both other directions whenever it gives one. -/
theorem c82_label_none (h : Regular ss) {t l : Int} (h1 : (Cal.ofSessions ss).sessionLabelFresh t "none" = .ok l) :
    (Cal.ofSessions ss).sessionLabelFresh t "next" = .ok l ∧
    (Cal.ofSessions ss).sessionLabelFresh t "previous" = .ok l := by
  rcases Classical.em (∃ s ∈ ss, t ≤ s.close) with k | k
  · obtain ⟨c1, c2⟩ := c19_none h t k
    rcases Classical.em (∃ s ∈ ss, s.Spans t ∧ ¬ s.InBreak t) with k2 | k2
    · obtain ⟨s, hs, hst, hnb⟩ := k2
      have e := c1 s hs hst hnb
      rw [h1] at e
      rw [(c18_next h t).1 s ((c18_next h t).2.1 s hs hst), (c19_previous h t k).1 s hs hst]
      exact ⟨e.symm, e.symm⟩
    · rw [c2 k2] at h1
      cases h1
  · rw [(c18_next h t).2.2.1 (fun s hs => by
      rcases Int.lt_or_le s.close t with k2 | k2
      · exact k2
      · exact absurd ⟨s, hs, k2⟩ k)] at h1
    cases h1

example : Regular demoSessions ∧ (∃ s ∈ demoSessions, s.open ≤ 4 * MINUTE) ∧
    (Cal.ofSessions demoSessions).sessionLabelFresh (3 * MINUTE) "previous" = .ok 0 ∧
    (Cal.ofSessions demoSessions).sessionLabelFresh (5 * MINUTE) "previous" = .ok 0 ∧
    (Cal.ofSessions demoSessions).sessionLabelFresh (5 * MINUTE) "next" = .ok 100 ∧
    (Cal.ofSessions demoSessions).sessionLabelFresh (3 * MINUTE) "none" = .ok 0 := by
  exact ⟨demo_regular, by decide, by decide +kernel, by decide +kernel, by decide +kernel, by decide +kernel⟩

/-! ### sums -/

theorem filter_split {α : Type} (f : α → Int) (xs : List α) (hs : xs.Pairwise (fun x y => f x < f y)) {a b c : Int}
    (hab : a ≤ b + 1) (hbc : b ≤ c) :
    xs.filter (fun l => decide (a ≤ f l ∧ f l ≤ c)) =
      xs.filter (fun l => decide (a ≤ f l ∧ f l ≤ b)) ++ xs.filter (fun l => decide (b + 1 ≤ f l ∧ f l ≤ c)) := by
  induction xs with
  | nil => rfl
  | cons x xs ih =>
    obtain ⟨h1, h2⟩ := List.pairwise_cons.1 hs
    have ih := ih h2
    rcases Int.lt_or_le b (f x) with k | k
    · have e : xs.filter (fun l => decide (a ≤ f l ∧ f l ≤ b)) = [] := by
        rw [List.filter_eq_nil_iff]
        intro y hy
        have := h1 y hy
        simp only [decide_eq_true_eq]
        omega
      have e2 : (x :: xs).filter (fun l => decide (a ≤ f l ∧ f l ≤ b)) = [] := by
        rw [List.filter_cons_of_neg (by simp only [decide_eq_true_eq]; omega), e]
      rw [e2, List.nil_append]
      apply List.filter_congr
      intro y hy
      rcases List.mem_cons.1 hy with rfl | hy
      · simp only [decide_eq_decide]; omega
      · have := h1 y hy
        simp only [decide_eq_decide]; omega
    · have n1 : (x :: xs).filter (fun l => decide (b + 1 ≤ f l ∧ f l ≤ c)) =
          xs.filter (fun l => decide (b + 1 ≤ f l ∧ f l ≤ c)) :=
        List.filter_cons_of_neg (by simp only [decide_eq_true_eq]; omega)
      rw [n1]
      rcases Int.lt_or_le (f x) a with k2 | k2
      · rw [List.filter_cons_of_neg (by simp only [decide_eq_true_eq]; omega),
          List.filter_cons_of_neg (by simp only [decide_eq_true_eq]; omega), ih]
      · rw [List.filter_cons_of_pos (by simp only [decide_eq_true_eq]; omega),
          List.filter_cons_of_pos (by simp only [decide_eq_true_eq]; omega), ih, List.cons_append]

/-- C82: ranges of sessions and of minutes, and counts of minutes, add up when a range is cut in two. -/
theorem c82_ranges (h : Regular ss) (hw : ∀ s ∈ ss, s.WholeMinutes) {a b c : Int} (hab : a ≤ b + 1) (hbc : b ≤ c) :
    (Cal.ofSessions ss).sessionsInRange a c =
      (Cal.ofSessions ss).sessionsInRange a b ++ (Cal.ofSessions ss).sessionsInRange (b + 1) c ∧
    (∀ ms, (Cal.ofSessions ss).minutesInRange a c = .ok ms →
      ∃ ms₁ ms₂, (Cal.ofSessions ss).minutesInRange a b = .ok ms₁ ∧
        (Cal.ofSessions ss).minutesInRange (b + 1) c = .ok ms₂ ∧ ms = ms₁ ++ ms₂) ∧
    (Cal.ofSessions ss).minutesCountForSessionsInRange a c =
      (Cal.ofSessions ss).minutesCountForSessionsInRange a b +
      (Cal.ofSessions ss).minutesCountForSessionsInRange (b + 1) c := by
  have hS : (Cal.ofSessions ss).sessionsInRange a c =
      (Cal.ofSessions ss).sessionsInRange a b ++ (Cal.ofSessions ss).sessionsInRange (b + 1) c := by
    rw [(c26_sessions_in_range h a c).1, (c26_sessions_in_range h a b).1, (c26_sessions_in_range h (b + 1) c).1]
    exact filter_split (fun x => x) _ h.labels_sorted hab hbc
  refine ⟨hS, fun ms hms => ?_, ?_⟩
  · rcases Classical.em (∃ t ∈ (Cal.ofSessions ss).minutes, c ≤ t) with k | k
    · rw [(c23_minutes_in_range h hw a c).1 k] at hms
      obtain ⟨t, ht, hct⟩ := k
      refine ⟨_, _, (c23_minutes_in_range h hw a b).1 ⟨t, ht, by omega⟩,
        (c23_minutes_in_range h hw (b + 1) c).1 ⟨t, ht, hct⟩, ?_⟩
      injection hms with hms
      rw [← hms]
      exact filter_split (fun x => x) _ (minutes_sorted h hw) hab hbc
    · rw [(c23_minutes_in_range h hw a c).2 (fun t ht => by
        rcases Int.lt_or_le t c with k2 | k2
        · exact k2
        · exact absurd ⟨t, ht, k2⟩ k)] at hms
      cases hms
  · obtain ⟨p, hp, e⟩ := c25_minutes_count h hw a c
    obtain ⟨p1, hp1, e1⟩ := c25_minutes_count h hw a b
    obtain ⟨p2, hp2, e2⟩ := c25_minutes_count h hw (b + 1) c
    rw [hS, List.mapM_append, hp1, hp2] at hp
    have hp : p = p1 ++ p2 := by injection hp with hp; exact hp.symm
    have cut := filter_split (fun s : Session => s.label) (ss.filter (fun s => s.brk.isSome))
      (h.labels.sublist List.filter_sublist) hab hbc
    simp only [List.filter_filter] at cut
    have cut := congrArg List.length cut
    rw [List.length_append] at cut
    rw [e, e1, e2, cut, hp, List.flatten_append, List.length_append]
    omega

example : (Cal.ofSessions demoSessions).minutesInRange (2 * MINUTE) (11 * MINUTE) =
      .ok [2 * MINUTE, 3 * MINUTE, 10 * MINUTE, 11 * MINUTE] ∧
    (Cal.ofSessions demoSessions).minutesInRange (2 * MINUTE) (7 * MINUTE) = .ok [2 * MINUTE, 3 * MINUTE] ∧
    (Cal.ofSessions demoSessions).minutesInRange (7 * MINUTE + 1) (11 * MINUTE) =
      .ok [10 * MINUTE, 11 * MINUTE] := by decide +kernel

/-- C82: distances add up.  A session in the middle is counted twice, so once too often; swapping the ends changes
the sign. -/
theorem c82_distance (h : Regular ss) {a b c : Int} (hab : a ≤ b) (hbc : b ≤ c) :
    (Cal.ofSessions ss).sessionDistance a c =
      (Cal.ofSessions ss).sessionDistance a b + (Cal.ofSessions ss).sessionDistance b c -
        (if b ∈ (Cal.ofSessions ss).sessions then 1 else 0) ∧
    (a ≠ c → (Cal.ofSessions ss).sessionDistance c a = -(Cal.ofSessions ss).sessionDistance a c) := by
  refine ⟨?_, fun hne => ?_⟩
  · rw [(c28_session_distance h a c).1 (by omega), (c28_session_distance h a b).1 hab,
      (c28_session_distance h b c).1 hbc]
    have e1 := congrArg List.length (filter_split (fun x : Int => x) (Cal.ofSessions ss).sessions h.labels_sorted
      (a := a) (b := b) (c := c) (by omega) hbc)
    have e2 := congrArg List.length (filter_split (fun x : Int => x) (Cal.ofSessions ss).sessions h.labels_sorted
      (a := b) (b := b) (c := c) (by omega) hbc)
    rw [List.length_append] at e1 e2
    have e3 : ((Cal.ofSessions ss).sessions.filter (fun l => decide (b ≤ l ∧ l ≤ b))).length =
        if b ∈ (Cal.ofSessions ss).sessions then 1 else 0 := by
      have hs : (Cal.ofSessions ss).sessions.Pairwise (· < ·) := h.labels_sorted
      revert hs
      generalize (Cal.ofSessions ss).sessions = xs
      intro hs
      induction xs with
      | nil => rfl
      | cons x xs ih =>
        obtain ⟨k1, k2⟩ := List.pairwise_cons.1 hs
        by_cases hx : x = b
        · subst hx
          have hn : x ∉ xs := fun k => by have := k1 x k; omega
          have := ih k2
          rw [if_neg hn] at this
          rw [List.filter_cons_of_pos (by simp), List.length_cons, this, if_pos (by simp)]
        · rw [List.filter_cons_of_neg (by simp only [decide_eq_true_eq]; omega), ih k2]
          simp [List.mem_cons, Ne.symm hx, eq_comm (a := b)]
    rw [e3] at e2
    split at e2 <;> split <;> simp_all <;> omega
  · rw [(c28_session_distance h c a).2 (by omega), (c28_session_distance h a c).1 (by omega)]

example : (Cal.ofSessions demoSessions).sessionDistance 0 200 = 3 ∧
    (Cal.ofSessions demoSessions).sessionDistance 0 100 = 2 ∧
    (Cal.ofSessions demoSessions).sessionDistance 100 200 = 2 ∧
    (Cal.ofSessions demoSessions).sessionDistance 200 0 = -3 := by decide +kernel

/-! ### windows -/

/-- C82: windows of sessions can be extended from their last session, and read backwards from it. -/
theorem c82_sessions_window (h : Regular ss) {l l' : Int} {init : List Int} {m : Nat}
    (hw : (Cal.ofSessions ss).sessionsWindow l m = .ok (init ++ [l'])) (hlen : init.length = m) :
    (∀ (n : Nat) vs, (Cal.ofSessions ss).sessionsWindow l' n = .ok vs →
      (Cal.ofSessions ss).sessionsWindow l (m + n : Nat) = .ok (init ++ vs)) ∧
    (Cal.ofSessions ss).sessionsWindow l' (-m) = .ok (init ++ [l']) := by
  by_cases hl : l ∈ (Cal.ofSessions ss).sessions
  · obtain ⟨pre, post, hx⟩ := split_of_mem hl
    have e := (c27_sessions_window h l m).1 pre post hx
    rw [if_pos (by omega), Int.toNat_natCast] at e
    rw [e] at hw
    injection hw with hw
    have hm : m ≤ post.length := by
      have := congrArg List.length hw
      simp only [List.length_cons, List.length_take, List.length_append, List.length_nil] at this
      omega
    have hx' : (Cal.ofSessions ss).sessions = (pre ++ init) ++ l' :: post.drop m := by
      have : pre ++ l :: post = pre ++ (l :: post.take m) ++ post.drop m := by
        rw [List.append_assoc, List.cons_append, List.take_append_drop]
      rw [hx, this, hw]
      simp
    refine ⟨fun n vs hvs => ?_, ?_⟩
    · have e2 := (c27_sessions_window h l' n).1 _ _ hx'
      rw [if_pos (by omega), Int.toNat_natCast] at e2
      rw [e2] at hvs
      injection hvs with hvs
      have e3 := (c27_sessions_window h l (m + n : Nat)).1 pre post hx
      rw [if_pos (by omega), Int.toNat_natCast, List.take_add, ← List.cons_append, hw] at e3
      rw [e3, ← hvs]
      simp
    · have e2 := (c27_sessions_window h l' (-m)).1 _ _ hx'
      rw [e2]
      rcases Nat.eq_zero_or_pos m with k | k
      · subst k
        rw [List.length_eq_zero_iff.1 hlen]
        simp
      · rw [if_neg (by omega)]
        have e3 : (pre ++ init).length - (- -(m : Int)).toNat = pre.length := by
          rw [List.length_append]; omega
        rw [e3, List.drop_left]
  · rw [(c27_sessions_window h l m).2 hl] at hw
    cases hw

example : (Cal.ofSessions demoSessions).sessionsWindow 0 (1 : Nat) = .ok ([0] ++ [100]) ∧
    (Cal.ofSessions demoSessions).sessionsWindow 100 (1 : Nat) = .ok [100, 200] ∧
    (Cal.ofSessions demoSessions).sessionsWindow 100 (-(1 : Nat)) = .ok [0, 100] := by decide +kernel

theorem split_minutes_at {xs : List Int} (hs : xs.Pairwise (· < ·)) {t : Int} (h : ∃ x ∈ xs, x ≤ t) :
    ∃ pre m post, xs = pre ++ m :: post ∧ m ≤ t ∧ ∀ y ∈ post, t < y := by
  induction xs with
  | nil => simp at h
  | cons x xs ih =>
    obtain ⟨h1, h2⟩ := List.pairwise_cons.1 hs
    by_cases k : ∃ y ∈ xs, y ≤ t
    · obtain ⟨pre, m, post, rfl, h3, h4⟩ := ih h2 k
      exact ⟨x :: pre, m, post, rfl, h3, h4⟩
    · refine ⟨[], x, xs, rfl, ?_, fun y hy => ?_⟩
      · obtain ⟨y, hy, hyt⟩ := h
        rcases List.mem_cons.1 hy with rfl | hy
        · exact hyt
        · exact absurd ⟨y, hy, hyt⟩ k
      · rcases Int.lt_or_le t y with k2 | k2
        · exact k2
        · exact absurd ⟨y, hy, k2⟩ k

/-- C82: windows of minutes can be extended from the minute after their last one, and read backwards from their last
one. -/
theorem c82_minutes_window (h : Regular ss) (hwm : ∀ s ∈ ss, s.WholeMinutes) {t x : Int} {init : List Int} {m : Nat}
    (hw : (Cal.ofSessions ss).minutesWindow t m = .ok (init ++ [x])) (hlen : init.length + 1 = m) :
    (∀ (n : Nat) y vs, (Cal.ofSessions ss).nextMinute x = .ok y → (Cal.ofSessions ss).minutesWindow y n = .ok vs →
      (Cal.ofSessions ss).minutesWindow t (m + n : Nat) = .ok (init ++ [x] ++ vs)) ∧
    (Cal.ofSessions ss).minutesWindow x (-m) = .ok (init ++ [x]) := by
  have hs : (Cal.ofSessions ss).minutes.Pairwise (· < ·) := minutes_sorted h hwm
  by_cases hlow : ∃ u ∈ (Cal.ofSessions ss).minutes, u ≤ t
  · by_cases hhigh : ∃ u ∈ (Cal.ofSessions ss).minutes, t ≤ u
    · obtain ⟨pre, u, post, hx, hu, hpost⟩ := split_minutes_at hs hlow
      have hend : u = t ∨ post ≠ [] := by
        obtain ⟨v, hv, hv'⟩ := hhigh
        rw [hx] at hv
        rcases Int.lt_or_le u t with k | k
        · refine .inr ?_
          rintro rfl
          rcases List.mem_append.1 hv with hv | hv
          · rw [hx] at hs
            have := (List.pairwise_append.1 hs).2.2 v hv u (by simp)
            omega
          · simp only [List.mem_cons, List.not_mem_nil, or_false] at hv
            omega
        · exact .inl (by omega)
      have e := ((c29_minutes_window h hwm t m).1 pre u post hx hu hpost hend).1 (by omega)
      rw [Int.toNat_natCast] at e
      rw [e] at hw
      injection hw with hw
      have hm : m ≤ (u :: post).length := by
        have := congrArg List.length hw
        rw [List.length_take, List.length_append, List.length_singleton] at this
        omega
      have hx' : (Cal.ofSessions ss).minutes = (pre ++ init) ++ x :: (u :: post).drop m := by
        have : pre ++ u :: post = pre ++ (u :: post).take m ++ (u :: post).drop m := by
          rw [List.append_assoc, List.take_append_drop]
        rw [hx, this, hw]
        simp
      have hs' := hs
      rw [hx'] at hs'
      have hp := List.pairwise_append.1 hs'
      have hp2 := List.pairwise_cons.1 hp.2.1
      refine ⟨fun n y vs hy hvs => ?_, ?_⟩
      · have hy := ((c14_next_previous_minute h hwm x).1 y).1 hy
        obtain ⟨hy1, hy2, hy3⟩ := hy
        cases hd : (u :: post).drop m with
        | nil =>
          exfalso
          rw [hx', hd] at hy1
          rcases List.mem_append.1 hy1 with k | k
          · have := hp.2.2 y k x (by simp); omega
          · simp only [List.mem_cons, List.not_mem_nil, or_false] at k; omega
        | cons z rest =>
          rw [hd] at hx' hp2
          have hz : z = y := by
            have h1 := hy3 z (by rw [hx']; simp) (hp2.1 z (by simp))
            rw [hx'] at hy1
            rcases List.mem_append.1 hy1 with k | k
            · have := hp.2.2 y k x (by simp); omega
            · rcases List.mem_cons.1 k with k | k
              · omega
              · rcases List.mem_cons.1 k with k | k
                · exact k.symm
                · have := (List.pairwise_cons.1 hp2.2).1 y k; omega
          subst hz
          have hx2 : (Cal.ofSessions ss).minutes = (pre ++ init ++ [x]) ++ z :: rest := by rw [hx']; simp
          have e2 := ((c29_minutes_window h hwm z n).1 _ z rest hx2 (Int.le_refl _)
            (List.pairwise_cons.1 hp2.2).1 (.inl rfl)).1 (by omega)
          rw [Int.toNat_natCast] at e2
          rw [e2] at hvs
          injection hvs with hvs
          have e3 := ((c29_minutes_window h hwm t (m + n : Nat)).1 pre u post hx hu hpost hend).1 (by omega)
          rw [Int.toNat_natCast, List.take_add, hw, hd, hvs] at e3
          exact e3
      · have e2 := ((c29_minutes_window h hwm x (-m)).1 _ x _ hx' (Int.le_refl _) hp2.1 (.inl rfl)).2
          (by omega) (by rw [List.length_append]; omega)
        rw [e2]
        have e3 : (pre ++ init).length + 1 - (- -(m : Int)).toNat = pre.length := by
          rw [List.length_append]; omega
        rw [e3, List.append_assoc, List.drop_left]
    · rw [(c29_minutes_window h hwm t m).2.2 (fun u hu => by
        rcases Int.lt_or_le u t with k | k
        · exact k
        · exact absurd ⟨u, hu, k⟩ hhigh)] at hw
      cases hw
  · by_cases hne : (Cal.ofSessions ss).minutes = []
    · rw [(c29_minutes_window h hwm t m).2.2 (by rw [hne]; simp)] at hw
      cases hw
    · rw [(c29_minutes_window h hwm t m).2.1 hne (fun u hu => by
        rcases Int.lt_or_le t u with k | k
        · exact k
        · exact absurd ⟨u, hu, k⟩ hlow)] at hw
      cases hw

example : (Cal.ofSessions demoSessions).minutesWindow (11 * MINUTE) (2 : Nat) = .ok ([11 * MINUTE] ++ [12 * MINUTE]) ∧
    (Cal.ofSessions demoSessions).nextMinute (12 * MINUTE) = .ok (14 * MINUTE) ∧
    (Cal.ofSessions demoSessions).minutesWindow (14 * MINUTE) (1 : Nat) = .ok [14 * MINUTE] ∧
    (Cal.ofSessions demoSessions).minutesWindow (11 * MINUTE) (3 : Nat) =
      .ok [11 * MINUTE, 12 * MINUTE, 14 * MINUTE] := by decide +kernel

end TC.Props
