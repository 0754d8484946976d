import Verif.Spec.ByClock
import Verif.Lemmas.Clocks
import Verif.Props.Queries
import Verif.Props.Ranges

/-!
# Readings of the clock and instants
-/

namespace TC
open Spec

/-- A reading that happens once divides the earlier readings from the later ones. -/
theorem only_le {z : Tz} (h : Tame z) {w w' u t : Int} (hu : OnlyInstant z w u) (ht : Reads z t w') :
    u ≤ t ↔ w ≤ w' := by
  have h1 := (reads_iff h _ _).mp hu.1
  have h2 := (reads_iff h _ _).mp ht
  have hb := offsetAt_bound h u
  have hb' := offsetAt_bound h t
  constructor
  · intro hle
    apply Decidable.byContradiction
    intro hn
    rcases one_jump h (u := u) (v := t) (w := w - z.offsetAt t) hle (by omega) (by omega) with e | e
    · omega
    · have := hu.2 (w - z.offsetAt t) ((reads_iff h _ _).mpr (by omega))
      omega
  · intro hle
    apply Decidable.byContradiction
    intro hn
    rcases one_jump h (u := w - z.offsetAt t) (v := t) (w := u) (by omega) (by omega) (by omega) with e | e
    · have := hu.2 (w - z.offsetAt t) ((reads_iff h _ _).mpr (by omega))
      omega
    · omega

theorem only_eq {z : Tz} {w w' u : Int} (hz : Tame z) (h : Reads z u w) (h' : Reads z u w') : w = w' := by
  have h1 := (reads_iff hz _ _).mp h
  have h2 := (reads_iff hz _ _).mp h'
  omega

theorem ofSessions_inj : ∀ (ss ss' : List Session), (∀ s ∈ ss, ∀ b e, s.brk = some (b, e) → b ≠ NP_NAT) →
    (∀ s ∈ ss', ∀ b e, s.brk = some (b, e) → b ≠ NP_NAT) → Cal.ofSessions ss = Cal.ofSessions ss' → ss = ss'
  | [], [], _, _, _ => rfl
  | [], s :: l, _, _, h => by simp [Cal.ofSessions] at h
  | s :: l, [], _, _, h => by simp [Cal.ofSessions] at h
  | s :: l, s' :: l', h1, h2, h => by
    simp only [Cal.ofSessions, List.map_cons, Cal.mk.injEq, List.cons.injEq] at h
    obtain ⟨⟨a1, b1⟩, ⟨a2, b2⟩, ⟨a3, b3⟩, ⟨a4, b4⟩, a5, b5⟩ := h
    have ih := ofSessions_inj l l' (fun s hs => h1 s (by simp [hs])) (fun s hs => h2 s (by simp [hs]))
      (by simp only [Cal.ofSessions, Cal.mk.injEq]; exact ⟨b1, b2, b3, b4, b5⟩)
    have g1 := h1 s (by simp)
    have g2 := h2 s' (by simp)
    rw [ih]
    congr 1
    obtain ⟨l1, o1, k1, c1⟩ := s
    obtain ⟨l2, o2, k2, c2⟩ := s'
    simp only at a1 a2 a3 a4 a5 g1 g2
    subst a1 a2 a5
    congr 1
    cases k1 with
    | none =>
      cases k2 with
      | none => rfl
      | some p => exact absurd a3.symm (g2 p.1 p.2 rfl)
    | some p =>
      cases k2 with
      | none => exact absurd a3 (g1 p.1 p.2 rfl)
      | some q => exact congrArg some (Prod.ext a3 a4)

/-- The timetable has one opening and one closing time each day, and breaks after midnight. -/
structure OneTime (T : Timetable) : Prop where
  opens : ∀ d t t', T.opens d t → T.opens d t' → t = t'
  closes : ∀ d t t', T.closes d t → T.closes d t' → t = t'
  breaks : ∀ p, T.breaks = some p → 0 ≤ p.1

theorem byClock_of {x : Exchange} {z : Tz} {first : Int} {bad : List Int} {T : Timetable}
    (hk : KeepsHours x z first bad T) (hc : ConstructibleFrom x z first bad) (hz : Tame z)
    (hT : OneTime T) (hlow : NP_NAT + 3 * DAY ≤ first * DAY) : ByClock x z first bad T := by
  intro start stop b h1 h2 h3 h4 t w hw
  have hB := hc start stop h1 h2
  rcases Classical.em (∃ d, start ≤ d * DAY ∧ d * DAY ≤ stop ∧ TradesOn x d) with hex | hex
  case inr =>
    obtain ⟨why, hw⟩ := hB.empty (fun d h1 h2 h3 => hex ⟨d, h1, h2, h3⟩)
    rw [h4] at hw
    cases hw
  obtain ⟨b', hb', ss, hss, hne, hreg, -, hl, -, -⟩ := hB.succeeds h3 hex
  rw [h4] at hb'
  cases hb'
  obtain ⟨⟨ss', hss', hday⟩, -⟩ := hk start stop b h1 h2 h3 h4
  have hlab : ss.map (·.label) = ss'.map (·.label) := by
    have : b.cal.sessions = b.cal.sessions := rfl
    conv at this => lhs; rw [hss]
    conv at this => rhs; rw [hss']
    exact this
  have hD := DAY_pos
  have hEq : ss = ss' := by
    refine ofSessions_inj ss ss' ?_ ?_ (hss ▸ hss')
    · intro s hs b e hb
      have := hreg.ok s hs
      have := this.2.2 b e hb
      have := (hreg.ok s hs).1
      omega
    · intro s hs b e hb
      obtain ⟨d, hd⟩ := hday s hs
      have hsl : start ≤ s.label := by
        have : s.label ∈ ss.map (·.label) := by rw [hlab]; exact List.mem_map_of_mem hs
        obtain ⟨-, -, h, -⟩ := (hl _).1 this
        exact h
      rcases Classical.em (∃ u, T.EarlyAt z start stop d u) with ⟨u, hu⟩ | hne
      · rw [(hd.early u hu).2] at hb; cases hb
      · have hne : ∀ u, ¬ T.EarlyAt z start stop d u := fun u hu => hne ⟨u, hu⟩
        cases hTb : T.breaks with
        | none => rw [hd.noBreak hTb] at hb; cases hb
        | some p =>
          obtain ⟨u, v, e', hu, -⟩ := hd.breaks hne p hTb
          rw [hb] at e'
          cases e'
          have := only_near hz hu
          have := hT.breaks p hTb
          have := hd.label
          omega
  subst hEq
  clear hss' hlab
  -- the sessions, by day
  have day : ∀ d d' : Int, d * DAY = d' * DAY → d = d' := fun d d' h => by
    simp only [DAY] at h; omega
  have hsess : ∀ s ∈ ss, ∃ d, TradesIn x start stop d ∧ KeepsDay T z start stop d s := by
    intro s hs
    obtain ⟨d, hd⟩ := hday s hs
    obtain ⟨d', e, r1, r2, r3⟩ := (hl s.label).1 (List.mem_map_of_mem hs)
    obtain rfl := day d d' (by rw [← hd.label, e])
    exact ⟨d, ⟨by omega, by omega, r3⟩, hd⟩
  have hdays : ∀ d, TradesIn x start stop d → ∃ s ∈ ss, KeepsDay T z start stop d s := by
    rintro d ⟨r1, r2, r3⟩
    obtain ⟨s, hs, e⟩ := List.mem_map.1 ((hl (d * DAY)).2 ⟨d, rfl, r1, r2, r3⟩)
    obtain ⟨d', hd'⟩ := hday s hs
    obtain rfl := day d d' (by rw [← hd'.label, e])
    exact ⟨s, hs, hd'⟩
  have hopen : ∀ {d s}, KeepsDay T z start stop d s → ∀ o, T.opens d o →
      OnlyInstant z (d * DAY + o) s.open := by
    intro d s hd o ho
    obtain ⟨o', ho', hu⟩ := hd.opens
    rw [hT.opens d o o' ho ho']
    exact hu
  have hclose : ∀ {d s}, KeepsDay T z start stop d s → ∀ c, T.EndsAt z start stop d c →
      OnlyInstant z (d * DAY + c) s.close := by
    intro d s hd c hcl
    rcases hcl with ⟨he, u, hu, hr⟩ | ⟨hne, hcl⟩
    · rw [(hd.early u ⟨c, he, hu, hr⟩).1]
      exact hu
    · obtain ⟨c', hc', hu⟩ := hd.closes hne
      rw [hT.closes d c c' hcl hc']
      exact hu
  have hends : ∀ {d s}, KeepsDay T z start stop d s → ∃ c, T.EndsAt z start stop d c := by
    intro d s hd
    rcases Classical.em (∃ u, T.EarlyAt z start stop d u) with ⟨u, c, hu⟩ | hne
    · exact ⟨c, .inl ⟨hu.1, u, hu.2⟩⟩
    · have hne : ∀ u, ¬ T.EarlyAt z start stop d u := fun u hu => hne ⟨u, hu⟩
      obtain ⟨c, hc, -⟩ := hd.closes hne
      exact ⟨c, .inr ⟨hne, hc⟩⟩
  have hspan : ∀ {d s}, TradesIn x start stop d → KeepsDay T z start stop d s →
      (s.Spans t ↔ HoursOn x z T start stop w d) := by
    intro d s htr hd
    unfold Session.Spans HoursOn
    constructor
    · rintro ⟨s1, s2⟩
      obtain ⟨o, ho, -⟩ := hd.opens
      obtain ⟨c, hc⟩ := hends hd
      refine ⟨htr, ⟨o, ho, (only_le hz (hopen hd o ho) hw).1 s1⟩, c, hc, ?_⟩
      apply Decidable.byContradiction
      intro hn
      have hcc := hclose hd c hc
      have := (only_le hz hcc hw).2 (by omega)
      have e : s.close = t := by omega
      rw [e] at hcc
      have := only_eq hz hcc.1 hw
      omega
    · rintro ⟨-, ⟨o, ho, hle⟩, c, hc, hle'⟩
      refine ⟨(only_le hz (hopen hd o ho) hw).2 hle, ?_⟩
      apply Decidable.byContradiction
      intro hn
      have hcc := hclose hd c hc
      have := (only_le hz hcc hw).1 (by omega)
      have e : d * DAY + c = w := by omega
      rw [e] at hcc
      have := hcc.2 t hw
      omega
  have hlt : ∀ {w' u}, OnlyInstant z w' u → (t < u ↔ w < w') := by
    intro w' u hu
    constructor
    · intro h
      apply Decidable.byContradiction
      intro hn
      have := (only_le hz hu hw).2 (by omega)
      omega
    · intro h
      apply Decidable.byContradiction
      intro hn
      have := (only_le hz hu hw).1 (by omega)
      omega
  have hlt' : ∀ {w' u}, OnlyInstant z w' u → (u < t ↔ w' < w) := by
    intro w' u hu
    constructor
    · intro h
      have := (only_le hz hu hw).1 (by omega)
      apply Decidable.byContradiction
      intro hn
      have e : w' = w := by omega
      subst e
      have := hu.2 t hw
      omega
    · intro h
      have := (only_le hz hu hw).2 (by omega)
      apply Decidable.byContradiction
      intro hn
      have e : u = t := by omega
      subst e
      have := only_eq hz hu.1 hw
      omega
  have hbreak : ∀ {d s}, KeepsDay T z start stop d s → (s.InBreak t ↔ BreakOn z T start stop w d) := by
    intro d s hd
    unfold Session.InBreak BreakOn
    constructor
    · rintro ⟨u, v, hb, r1, r2⟩
      have hne : ∀ u, ¬ T.EarlyAt z start stop d u := fun u hu => by
        rw [(hd.early u hu).2] at hb; cases hb
      refine ⟨hne, ?_⟩
      cases hTb : T.breaks with
      | none => rw [hd.noBreak hTb] at hb; cases hb
      | some p =>
        obtain ⟨u', v', e', hu, hv⟩ := hd.breaks hne p hTb
        rw [hb] at e'
        cases e'
        exact ⟨p, rfl, (only_le hz hu hw).1 r1, (hlt hv).1 r2⟩
    · rintro ⟨hne, p, hTb, r1, r2⟩
      obtain ⟨u, v, e, hu, hv⟩ := hd.breaks hne p hTb
      exact ⟨u, v, e, (only_le hz hu hw).2 r1, (hlt hv).2 r2⟩
  -- opens and closes, as instants and as readings
  have hopens : ∀ u, u ∈ ss.map (·.open) ↔ ∃ w', OpenReading x T start stop w' ∧ OnlyInstant z w' u := by
    intro u
    rw [List.mem_map]
    constructor
    · rintro ⟨s, hs, rfl⟩
      obtain ⟨d, htr, hd⟩ := hsess s hs
      obtain ⟨o, ho, hu⟩ := hd.opens
      exact ⟨_, ⟨d, o, htr, ho, rfl⟩, hu⟩
    · rintro ⟨w', ⟨d, o, htr, ho, rfl⟩, hu⟩
      obtain ⟨s, hs, hd⟩ := hdays d htr
      exact ⟨s, hs, hu.2 _ (hopen hd o ho).1⟩
  have hcloses : ∀ u, u ∈ ss.map (·.close) ↔
      ∃ w', CloseReading x z T start stop w' ∧ OnlyInstant z w' u := by
    intro u
    rw [List.mem_map]
    constructor
    · rintro ⟨s, hs, rfl⟩
      obtain ⟨d, htr, hd⟩ := hsess s hs
      obtain ⟨c, hc⟩ := hends hd
      exact ⟨_, ⟨d, c, htr, hc, rfl⟩, hclose hd c hc⟩
    · rintro ⟨w', ⟨d, c, htr, hc, rfl⟩, hu⟩
      obtain ⟨s, hs, hd⟩ := hdays d htr
      exact ⟨s, hs, hu.2 _ (hclose hd c hc).1⟩
  have hopens' : ∀ w', OpenReading x T start stop w' → ∃ u, OnlyInstant z w' u := by
    rintro w' ⟨d, o, htr, ho, rfl⟩
    obtain ⟨s, hs, hd⟩ := hdays d htr
    exact ⟨_, hopen hd o ho⟩
  have hcloses' : ∀ w', CloseReading x z T start stop w' → ∃ u, OnlyInstant z w' u := by
    rintro w' ⟨d, c, htr, hc, rfl⟩
    obtain ⟨s, hs, hd⟩ := hdays d htr
    exact ⟨_, hclose hd c hc⟩
  have mono : ∀ {w1 w2 u1 u2}, OnlyInstant z w1 u1 → OnlyInstant z w2 u2 → (u1 ≤ u2 ↔ w1 ≤ w2) :=
    fun h1 h2 => only_le hz h1 h2.1
  have next : ∀ (xs : List Int) (P : Int → Prop), (∀ u, u ∈ xs ↔ ∃ w', P w' ∧ OnlyInstant z w' u) →
      (∀ w', P w' → ∃ u, OnlyInstant z w' u) → ∀ u, IsNext xs t u ↔ NextReading z P w u := by
    intro xs P hxs hP u
    unfold IsNext NextReading
    constructor
    · rintro ⟨hu, hlt1, hmin⟩
      obtain ⟨w', hPw, hi⟩ := (hxs u).1 hu
      refine ⟨w', hPw, (hlt hi).1 hlt1, fun w'' hPw'' hlt2 => ?_, hi⟩
      obtain ⟨u'', hi''⟩ := hP w'' hPw''
      exact (mono hi hi'').1 (hmin u'' ((hxs u'').2 ⟨w'', hPw'', hi''⟩) ((hlt hi'').2 hlt2))
    · rintro ⟨w', hPw, hlt1, hmin, hi⟩
      refine ⟨(hxs u).2 ⟨w', hPw, hi⟩, (hlt hi).2 hlt1, fun u'' hu'' hlt2 => ?_⟩
      obtain ⟨w'', hPw'', hi''⟩ := (hxs u'').1 hu''
      exact (mono hi hi'').2 (hmin w'' hPw'' ((hlt hi'').1 hlt2))
  have prev : ∀ (xs : List Int) (P : Int → Prop), (∀ u, u ∈ xs ↔ ∃ w', P w' ∧ OnlyInstant z w' u) →
      (∀ w', P w' → ∃ u, OnlyInstant z w' u) → ∀ u, IsPrev xs t u ↔ PreviousReading z P w u := by
    intro xs P hxs hP u
    unfold IsPrev PreviousReading
    constructor
    · rintro ⟨hu, hlt1, hmin⟩
      obtain ⟨w', hPw, hi⟩ := (hxs u).1 hu
      refine ⟨w', hPw, (hlt' hi).1 hlt1, fun w'' hPw'' hlt2 => ?_, hi⟩
      obtain ⟨u'', hi''⟩ := hP w'' hPw''
      exact (mono hi'' hi).1 (hmin u'' ((hxs u'').2 ⟨w'', hPw'', hi''⟩) ((hlt' hi'').2 hlt2))
    · rintro ⟨w', hPw, hlt1, hmin, hi⟩
      refine ⟨(hxs u).2 ⟨w', hPw, hi⟩, (hlt' hi).2 hlt1, fun u'' hu'' hlt2 => ?_⟩
      obtain ⟨w'', hPw'', hi''⟩ := (hxs u'').1 hu''
      exact (mono hi'' hi).2 (hmin w'' hPw'' ((hlt' hi'').1 hlt2))
  have all : ∀ (f : Session → Int) (P : Int → Prop),
      (∀ u, u ∈ ss.map f ↔ ∃ w', P w' ∧ OnlyInstant z w' u) → (∀ w', P w' → ∃ u, OnlyInstant z w' u) →
      ((∀ s ∈ ss, f s ≤ t) ↔ ∀ w', P w' → w' ≤ w) ∧ ((∀ s ∈ ss, t ≤ f s) ↔ ∀ w', P w' → w ≤ w') ∧
      ((∀ s ∈ ss, f s < t) ↔ ∀ w', P w' → w' < w) := by
    intro f P hxs hP
    have fwd : ∀ w', P w' → ∃ s ∈ ss, OnlyInstant z w' (f s) := by
      intro w' hPw
      obtain ⟨u, hu⟩ := hP w' hPw
      obtain ⟨s, hs, rfl⟩ := List.mem_map.1 ((hxs u).2 ⟨w', hPw, hu⟩)
      exact ⟨s, hs, hu⟩
    have bwd : ∀ s ∈ ss, ∃ w', P w' ∧ OnlyInstant z w' (f s) := fun s hs =>
      (hxs _).1 (List.mem_map_of_mem hs)
    refine ⟨⟨fun h w' hPw => ?_, fun h s hs => ?_⟩, ⟨fun h w' hPw => ?_, fun h s hs => ?_⟩,
      ⟨fun h w' hPw => ?_, fun h s hs => ?_⟩⟩
    · obtain ⟨s, hs, hi⟩ := fwd w' hPw
      exact (only_le hz hi hw).1 (h s hs)
    · obtain ⟨w', hPw, hi⟩ := bwd s hs
      exact (only_le hz hi hw).2 (h w' hPw)
    · obtain ⟨s, hs, hi⟩ := fwd w' hPw
      have := h s hs
      have := hlt' hi
      omega
    · obtain ⟨w', hPw, hi⟩ := bwd s hs
      have := h w' hPw
      have := hlt' hi
      omega
    · obtain ⟨s, hs, hi⟩ := fwd w' hPw
      exact (hlt' hi).1 (h s hs)
    · obtain ⟨w', hPw, hi⟩ := bwd s hs
      exact (hlt' hi).2 (h w' hPw)
  have ao := all (·.open) _ hopens hopens'
  have ac := all (·.close) _ hcloses hcloses'
  have q := Props.c16_is_open_on_minute hreg t
  have no := Props.c12_next_open hreg t
  have nc := Props.c12_next_close hreg t
  have po := Props.c13_previous_open hreg t
  have pc := Props.c13_previous_close hreg t
  rw [hss]
  refine ⟨?_, ?_, ?_, ?_, ?_, ?_, ?_, ?_, ?_, ?_, ?_, ?_⟩
  · obtain ⟨r, hr, e⟩ := q.1
    refine ⟨r, hr, e.trans ⟨?_, ?_⟩⟩
    · rintro ⟨s, hs, h5, h6⟩
      obtain ⟨d, htr, hd⟩ := hsess s hs
      exact ⟨d, (hspan htr hd).1 h5, fun h => h6 ((hbreak hd).2 h)⟩
    · rintro ⟨d, h5, h6⟩
      obtain ⟨s, hs, hd⟩ := hdays d h5.1
      exact ⟨s, hs, (hspan h5.1 hd).2 h5, fun h => h6 ((hbreak hd).1 h)⟩
  · obtain ⟨r, hr, e⟩ := q.2
    refine ⟨r, hr, e.trans ⟨?_, ?_⟩⟩
    · rintro ⟨s, hs, h5⟩
      obtain ⟨d, htr, hd⟩ := hsess s hs
      exact ⟨d, (hspan htr hd).1 h5⟩
    · rintro ⟨d, h5⟩
      obtain ⟨s, hs, hd⟩ := hdays d h5.1
      exact ⟨s, hs, (hspan h5.1 hd).2 h5⟩
  · exact fun u => (no.1 u).trans (next _ _ hopens hopens' u)
  · exact fun e => (no.2 e).trans (and_congr Iff.rfl ao.1)
  · exact fun u => (nc.1 u).trans (next _ _ hcloses hcloses' u)
  · exact fun e => (nc.2 e).trans (and_congr Iff.rfl ac.1)
  · exact fun u => (po.1 u).trans (prev _ _ hopens hopens' u)
  · exact fun e => (po.2 e).trans (and_congr Iff.rfl ao.2.1)
  · exact fun u => (pc.1 u).trans (prev _ _ hcloses hcloses' u)
  · exact fun e => (pc.2 e).trans (and_congr Iff.rfl ac.2.1)
  · rintro d ⟨htr, ⟨c, hc, hle⟩, hmin⟩
    obtain ⟨s, hs, hd⟩ := hdays d htr
    rw [← hd.label]
    refine (Props.c18_next hreg t).1 s ⟨hs, ?_, fun s' hs' hle' => ?_⟩
    · have := hlt' (hclose hd c hc); omega
    · obtain ⟨d', htr', hd'⟩ := hsess s' hs'
      obtain ⟨c', hc'⟩ := hends hd'
      have hcl' := hclose hd' c' hc'
      have := hmin d' c' htr' hc' (by have := hlt' hcl'; omega)
      rcases Classical.em (s = s') with rfl | hne'
      · omega
      · apply Decidable.byContradiction
        intro hn
        -- the sessions are in the same order by label and by time
        have hpw := hreg.labels.and hreg.times
        have : ∀ s1 ∈ ss, ∀ s2 ∈ ss, s1.label < s2.label → s1.close < s2.open := by
          intro s1 h1 s2 h2 hlt
          obtain ⟨i, hi, rfl⟩ := List.mem_iff_getElem.1 h1
          obtain ⟨j, hj, rfl⟩ := List.mem_iff_getElem.1 h2
          rcases Nat.lt_trichotomy i j with hij | rfl | hij
          · exact List.pairwise_iff_getElem.1 hreg.times i j hi hj hij
          · omega
          · have := List.pairwise_iff_getElem.1 hreg.labels j i hj hi hij
            omega
        have hlabels : s.label ≤ s'.label := by
          rw [hd.label, hd'.label]
          exact Int.mul_le_mul_of_nonneg_right (by omega) (by omega)
        rcases Int.lt_or_eq_of_le hlabels with hlt2 | heq
        · have h5 := this s hs s' hs' hlt2
          have h6 := (hreg.ok s' hs').2.1
          omega
        · obtain ⟨i, hi, rfl⟩ := List.mem_iff_getElem.1 hs
          obtain ⟨j, hj, rfl⟩ := List.mem_iff_getElem.1 hs'
          rcases Nat.lt_trichotomy i j with hij | rfl | hij
          · have := List.pairwise_iff_getElem.1 hreg.labels i j hi hj hij
            omega
          · exact hne' rfl
          · have := List.pairwise_iff_getElem.1 hreg.labels j i hj hi hij
            omega
  · intro h dir
    exact (Props.c18_next hreg t).2.2.1 (ac.2.2.2 h) dir

theorem oneTime_daily {o c : Int} {E : Int → Int → Prop} : OneTime (Hours.daily o c E) where
  opens := by rintro d t t' rfl rfl; rfl
  closes := by rintro d t t' rfl rfl; rfl
  breaks := by rintro p h; cases h

theorem changed_unique {y m k a b : Int} (d t t' : Int) (h : Hours.changed y m k a b d t)
    (h' : Hours.changed y m k a b d t') : t = t' := by
  obtain ⟨c, hc, h⟩ := h
  obtain ⟨c', hc', h'⟩ := h'
  have e1 := ((dayNumber_iff _ _).1 hc).2
  have e2 := ((dayNumber_iff _ _).1 hc').2
  omega

theorem santiago_unique (d t t' : Int) (h : Hours.santiago.closes d t) (h' : Hours.santiago.closes d t') :
    t = t' := by
  obtain ⟨y, m, k, hd, h1, h2⟩ := h
  obtain ⟨y', m', k', hd', h1', h2'⟩ := h'
  obtain ⟨v1, e1⟩ := (dayNumber_iff _ _).1 hd
  obtain ⟨v2, e2⟩ := (dayNumber_iff _ _).1 hd'
  have e3 := toDate_dayOf v1
  have e4 := toDate_dayOf v2
  rw [e1] at e3
  rw [e2, e3] at e4
  cases e4
  by_cases hc : 1980 ≤ y ∧ y < 2050 ∧ 3 ≤ m ∧ m ≤ 10
  · rw [h1 hc, h1' hc]
  · rw [h2 hc, h2' hc]

/-- A case: the calendar for 2019 can be built, and is open at the instant. -/
theorem clock_case {x : Exchange} {z : Tz} {d u : Int} {first : Int} {bad : List Int} {T : Timetable}
    (hk : ByClock x z first bad T) (hc : ConstructibleFrom x z first bad) (hz : Tame z)
    (hf : first ≤ dayOf 2019 1 1) (hb : ∀ d ∈ bad, d < dayOf 2019 1 1 ∨ dayOf 2019 12 31 < d)
    (h : OpensAt x z d u) :
    ∃ b w, build (x.config z) (dayOf 2019 1 1 * DAY) (dayOf 2019 12 31 * DAY) = .ok b ∧ Reads z u w ∧
      b.cal.isOpenOnMinute u = .ok true ∧
      ∃ d, HoursOn x z T (dayOf 2019 1 1 * DAY) (dayOf 2019 12 31 * DAY) w d := by
  have mono : ∀ a b : Int, a ≤ b → a * DAY ≤ b * DAY := fun a b h => by simp only [DAY]; omega
  have mono' : ∀ a b : Int, a < b → a * DAY < b * DAY := fun a b h => by simp only [DAY]; omega
  have hdv : DAY ∣ dayOf 2019 1 1 * DAY := Int.dvd_mul_left ..
  have hbad := fun d hd => (hb d hd).imp (mono' d _) (mono' _ d)
  obtain ⟨b, ss, s, hbuild, hss, hs, -, hu⟩ := h
  have hB := hc (dayOf 2019 1 1 * DAY) (dayOf 2019 12 31 * DAY) (mono _ _ hf) hdv
  have hex : ∃ d, dayOf 2019 1 1 * DAY ≤ d * DAY ∧ d * DAY ≤ dayOf 2019 12 31 * DAY ∧ TradesOn x d := by
    apply Classical.byContradiction
    intro hex
    obtain ⟨why, hw⟩ := hB.empty (fun d h1 h2 h3 => hex ⟨d, h1, h2, h3⟩)
    rw [hbuild] at hw
    cases hw
  obtain ⟨b', hb', ss', hss', -, hreg, -⟩ := hB.succeeds hbad hex
  rw [hbuild] at hb'
  cases hb'
  have hop : ss.map (·.open) = ss'.map (·.open) := by
    have : b.cal.opens = b.cal.opens := rfl
    conv at this => lhs; rw [hss]
    conv at this => rhs; rw [hss']
    exact this
  have hmem : s.open ∈ ss.map (·.open) := List.mem_map_of_mem hs
  rw [hop] at hmem
  obtain ⟨s', hs', e⟩ := List.mem_map.1 hmem
  have ho := (Props.c31_accessors hreg hs').2.2.2.2.2.1
  rw [e, hu, ← hss'] at ho
  have hr : Reads z u (u + z.offsetAt u) := (reads_iff hz _ _).2 rfl
  refine ⟨b, _, hbuild, hr, ho, ?_⟩
  obtain ⟨r, hr', hiff⟩ := (hk _ _ b (mono _ _ hf) hdv hbad hbuild u _ hr).isOpen
  rw [ho] at hr'
  cases hr'
  obtain ⟨d, hd, -⟩ := hiff.1 rfl
  exact ⟨d, hd⟩

end TC
