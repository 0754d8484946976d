import Verif.Lemmas.Feasts
import Verif.Spec.Hours

/-! # Comparing the times of an exchange with a timetable -/

namespace TC
open Spec

/-! ### Tables of times -/

theorem timeInEffect_append (p : TimeTable) (x t l u : Int) :
    TimeInEffect (p ++ [(some x, t)]) l u ↔ (x ≤ l ∧ u = t) ∨ (l < x ∧ TimeInEffect p l u) := by
  constructor
  · rintro ⟨b, s, a, he, hs, ha⟩
    rcases List.eq_nil_or_concat a with rfl | ⟨a', e, rfl⟩
    · have := (List.append_inj' he rfl).2
      simp only [List.cons.injEq, Prod.mk.injEq, and_true] at this
      exact .inl ⟨hs x this.1.symm, this.2.symm⟩
    · rw [List.concat_eq_append] at *
      rw [show b ++ (s, u) :: (a' ++ [e]) = (b ++ (s, u) :: a') ++ [e] by simp] at he
      obtain ⟨h1, h2⟩ := List.append_inj' he rfl
      simp only [List.cons.injEq, and_true] at h2
      obtain ⟨x', hx, hl⟩ := ha e (by simp)
      rw [← h2] at hx
      cases hx
      exact .inr ⟨hl, b, s, a', h1, hs, fun e' he' => ha e' (by simp [he'])⟩
  · rintro (⟨h, rfl⟩ | ⟨h, b, s, a, rfl, hs, ha⟩)
    · exact ⟨p, some x, [], rfl, fun y hy => by cases hy; exact h, by simp⟩
    · refine ⟨b, s, a ++ [(some x, t)], by simp, hs, fun e he => ?_⟩
      rcases List.mem_append.1 he with he | he
      · exact ha e he
      · simp only [List.mem_singleton] at he
        subst he
        exact ⟨x, rfl, h⟩

theorem timeInEffect_one (t l u : Int) : TimeInEffect [(none, t)] l u ↔ u = t := by
  constructor
  · intro h
    obtain ⟨e, he, rfl⟩ := TimeInEffect.mem h
    simp only [List.mem_singleton] at he
    rw [he]
  · rintro rfl
    exact ⟨[], none, [], rfl, by simp, by simp⟩

theorem timeInEffect_two (t t' x l u : Int) :
    TimeInEffect [(none, t), (some x, t')] l u ↔ (x ≤ l ∧ u = t') ∨ (l < x ∧ u = t) := by
  have := timeInEffect_append [(none, t)] x t' l u
  rw [timeInEffect_one] at this
  exact this

/-! ### Calendars -/

/-- An exchange keeps a timetable if its tables agree with it. -/
theorem hours_of {x : Exchange} {z : Tz} {first : Int} {bad : List Int} {T : Timetable}
    (hc : ConstructibleFrom x z first bad) (he : ∀ d t, ClosesEarly x d t ↔ T.early d t)
    (ho : ∀ d t, TimeInEffect x.openTimes (d * DAY) t → T.opens d (x.openOffset * DAY + t))
    (hcl : ∀ d t, TimeInEffect x.closeTimes (d * DAY) t → T.closes d (x.closeOffset * DAY + t))
    (hb : x.breakStartTimes = T.breaks.map fun p => [(none, p.1)])
    (hb' : x.breakEndTimes = T.breaks.map fun p => [(none, p.2)]) : KeepsHours x z first bad T := by
  intro start stop b hs hm hbad hbuild
  have hB := hc start stop hs hm
  rcases Classical.em (∃ d, start ≤ d * DAY ∧ d * DAY ≤ stop ∧ TradesOn x d) with hex | hex
  case inr =>
    obtain ⟨why, hw⟩ := hB.empty (fun d h1 h2 h3 => hex ⟨d, h1, h2, h3⟩)
    rw [hbuild] at hw
    cases hw
  obtain ⟨b', hb2, ss, hss, -, -, -, hl, ht, hearly⟩ := hB.succeeds hbad hex
  rw [hbuild] at hb2
  cases hb2
  have day : ∀ d d' : Int, d * DAY = d' * DAY → d = d' := fun d d' h => by
    simp only [DAY] at h; omega
  have key : ∀ d u, start ≤ d * DAY → d * DAY ≤ stop →
      (EarlyClose x z start stop (d * DAY) u ↔ T.EarlyAt z start stop d u) := by
    intro d u h1 h2
    constructor
    · rintro ⟨d', t, hd, -, -, h3, h4⟩
      obtain rfl := day _ _ hd
      exact ⟨t, (he _ _).1 h3, h4⟩
    · rintro ⟨t, h3, h4⟩
      exact ⟨d, t, rfl, h1, h2, (he _ _).2 h3, h4⟩
  refine ⟨⟨ss, hss, fun s hs => ?_⟩, fun l => ?_⟩
  · obtain ⟨d, hd, h1, h2, -⟩ := (hl s.label).1 (List.mem_map.2 ⟨s, hs, rfl⟩)
    have hk := ht s hs
    rw [hd] at h1 h2
    refine ⟨d, hd, ?_, ?_, ?_, ?_, ?_⟩
    · obtain ⟨t, h3, h4⟩ := hk.opens
      rw [hd] at h3 h4
      exact ⟨_, ho d t h3, by rw [← Int.add_assoc]; exact h4⟩
    · intro u hu
      exact hk.early u (by rw [hd]; exact (key d u h1 h2).2 hu)
    · intro hn
      obtain ⟨t, h3, h4⟩ := hk.closes fun u hu => hn u ((key d u h1 h2).1 (by rw [← hd]; exact hu))
      rw [hd] at h3 h4
      exact ⟨_, hcl d t h3, by rw [← Int.add_assoc]; exact h4⟩
    · intro hn p hp
      rw [hp] at hb hb'
      obtain ⟨u, v, hbrk, ⟨t, h3, h4⟩, t', h5, h6⟩ :=
        hk.breaks (fun u hu => hn u ((key d u h1 h2).1 (by rw [← hd]; exact hu))) _ _ hb hb'
      rw [timeInEffect_one] at h3 h5
      subst h3 h5
      rw [hd] at h4 h6
      exact ⟨u, v, hbrk, h4, h6⟩
    · intro hn
      rw [hn] at hb
      exact hk.noBreaks hb
  · rw [hearly]
    constructor
    · rintro ⟨u, d, t, rfl, h1, h2, h3, h4⟩
      exact ⟨d, u, rfl, h1, h2, t, (he _ _).1 h3, h4⟩
    · rintro ⟨d, u, rfl, h1, h2, hu⟩
      exact ⟨u, (key d u h1 h2).2 hu⟩

/-- The common case: the same hours every day. -/
theorem daily_of {x : Exchange} {z : Tz} {first o c : Int} {bad : List Int} {E : Int → Int → Prop}
    (hc : ConstructibleFrom x z first bad) (he : ∀ d t, ClosesEarly x d t ↔ E d t)
    (ho : x.openTimes = [(none, o - x.openOffset * DAY)]) (hcl : x.closeTimes = [(none, c)])
    (hco : x.closeOffset = 0) (hb : x.breakStartTimes = none) (hb' : x.breakEndTimes = none) :
    KeepsHours x z first bad (Hours.daily o c E) := by
  refine hours_of hc he (fun d t h => ?_) (fun d t h => ?_) hb hb'
  · rw [ho, timeInEffect_one] at h
    show _ = _
    omega
  · rw [hcl, timeInEffect_one] at h
    show _ = _
    rw [hco]
    omega

/-- An exchange without early closes. -/
theorem never_early {x : Exchange} (h1 : x.specialCloses = []) (h2 : x.specialClosesAdhoc = []) (d t : Int) :
    ClosesEarly x d t ↔ False := by
  unfold ClosesEarly
  simp [h1, h2]

theorem changed_of {table : TimeTable} {y m k t t' : Int} (h : everyYear m k = true)
    (ht : table = [(none, t), (some (dayOf y m k * DAY), t')]) (d u : Int)
    (hu : TimeInEffect table (d * DAY) u) : Hours.changed y m k t t' d (0 * DAY + u) := by
  rw [ht, timeInEffect_two] at hu
  refine ⟨dayOf y m k, (dn h _ _).2 rfl, ?_⟩
  simp only [DAY] at *
  omega

theorem always_of {table : TimeTable} {t : Int} (ht : table = [(none, t)]) (d u : Int)
    (hu : TimeInEffect table (d * DAY) u) : Hours.always t d (0 * DAY + u) := by
  rw [ht, timeInEffect_one] at hu
  show _ = _
  omega

theorem changed_at {y m k t t' d u : Int} (h : everyYear m k = true) (hd : dayOf y m k ≤ d)
    (hc : Hours.changed y m k t t' d u) : u = t' := by
  obtain ⟨c, h1, h2⟩ := hc
  rw [dn h] at h1
  omega

/-! ### Closing times by season -/

/-- A day is on or after the first of a month iff its month is. -/
theorem firstOf_le {y m : Int} (h1 : 1 ≤ m) (h2 : m ≤ 12) {x : Date} {d : Int} (hx : DayNumber x d) :
    dayOf y m 1 ≤ d ↔ y < x.year ∨ y = x.year ∧ m ≤ x.month := by
  obtain ⟨hv, hd⟩ := (dayNumber_iff x d).1 hx
  have hy := yearOf_spec d
  rw [← hd, yearOf_dayOf hv, hd] at hy
  have hf : Date.Valid ⟨y, m, 1⟩ := ⟨h1, h2, Int.le_refl 1, by
    have := monthLength_bounds y m
    show 1 ≤ monthLength y m
    omega⟩
  have hy' := yearOf_spec (dayOf y m 1)
  have e : yearOf (dayOf y m 1) = y := yearOf_dayOf (x := ⟨y, m, 1⟩) hf
  rw [e] at hy'
  constructor
  · intro h
    have : y ≤ x.year := by
      have := (jan1_le_iff (y := x.year + 1) (y' := y))
      omega
    by_cases he : y = x.year
    · refine .inr ⟨he, ?_⟩
      by_cases hm : m ≤ x.month
      · exact hm
      · subst he
        have := daysBeforeMonth_mono x.year hv.1 (show x.month < m by omega) h2
        have := hv.2.2.2
        unfold dayOf at h hd
        omega
    · omega
  · rintro (h | ⟨rfl, h⟩)
    · have := (jan1_le_iff (y := y + 1) (y' := x.year)).2 (by omega)
      omega
    · have := hv.2.2.1
      unfold dayOf at *
      by_cases hm : m = x.month
      · rw [hm]; omega
      · have := daysBeforeMonth_mono x.year h1 (show m < x.month by omega) hv.2.1
        have := monthLength_bounds x.year m
        omega

theorem santiago_table (n : Nat) {x : Date} {d : Int} (hx : DayNumber x d) (t : Int) :
    TimeInEffect ((none, hm 17 0) :: (List.range n).flatMap fun (i : Nat) =>
      [(some (dayOf (1980 + (i : Int)) 3 1 * DAY), hm 16 0),
       (some (dayOf (1980 + (i : Int)) 11 1 * DAY), hm 17 0)]) (d * DAY) t ↔
      (1980 ≤ x.year ∧ x.year < 1980 + n ∧ 3 ≤ x.month ∧ x.month ≤ 10 → t = hm 16 0) ∧
      (¬ (1980 ≤ x.year ∧ x.year < 1980 + n ∧ 3 ≤ x.month ∧ x.month ≤ 10) → t = hm 17 0) := by
  have mono : ∀ a : Int, a * DAY ≤ d * DAY ↔ a ≤ d := fun a => by simp only [DAY]; omega
  have mono' : ∀ a : Int, d * DAY < a * DAY ↔ ¬ a ≤ d := fun a => by simp only [DAY]; omega
  induction n with
  | zero =>
    simp only [List.range_zero, List.flatMap_nil, timeInEffect_one]
    constructor
    · rintro rfl; exact ⟨fun h => by omega, fun _ => rfl⟩
    · rintro ⟨_, h⟩; exact h (by omega)
  | succ n ih =>
    rw [List.range_succ, List.flatMap_append, ← List.cons_append, List.flatMap_cons, List.flatMap_nil,
      List.append_nil]
    rw [show ∀ (p : TimeTable) (a b : Option Int × Int), p ++ [a, b] = (p ++ [a]) ++ [b] by simp,
      timeInEffect_append, timeInEffect_append, propext ih, mono, mono', mono, mono',
      firstOf_le (by decide) (by decide) hx, firstOf_le (by decide) (by decide) hx]
    have := (((dayNumber_iff x d).1 hx).1).2.1
    generalize hm 16 0 = a
    generalize hm 17 0 = b
    constructor
    · intro h
      constructor <;> intro h' <;> omega
    · rintro ⟨h, h'⟩
      by_cases hc : 1980 ≤ x.year ∧ x.year < 1980 + (n + 1 : Nat) ∧ 3 ≤ x.month ∧ x.month ≤ 10
      · have := h hc; omega
      · have := h' hc; omega

/-! ### Cases -/

theorem early_case {x : Exchange} {bad : List Int} (h : x.check bad = true) {d t : Int}
    (hd : ((x.specialCloses.any fun e => e.1 == t && e.2.any fun r => r.hits d) ||
      x.specialClosesAdhoc.any fun e => e.1 == t && e.2.contains d) = true) : ClosesEarly x d t := by
  unfold Exchange.check at h
  simp only [Bool.and_eq_true] at h
  have hg := rules_of h.1.1.1.2
  simp only [Bool.or_eq_true, List.any_eq_true, Bool.and_eq_true, beq_iff_eq, List.contains_iff_mem] at hd
  rcases hd with ⟨e, he, rfl, r, hr, hh⟩ | ⟨e, he, rfl, hh⟩
  · have hm : r ∈ x.specialRules.map (·.2) := List.mem_map.2 ⟨(e.1, r),
      List.mem_flatMap.2 ⟨e, he, List.mem_map.2 ⟨r, hr, rfl⟩⟩, rfl⟩
    exact .inl ⟨e.2, he, r, hr, (hits_iff (hg.1 r hm) (hg.2 r hm) d).1 hh⟩
  · exact .inr ⟨e.2, he, hh⟩

theorem opens_of {x : Exchange} {z : Tz} {first : Int} {bad : List Int} {T : Timetable}
    (hk : KeepsHours x z first bad T) (hc : ConstructibleFrom x z first bad) (hx : GoodRules x.regular)
    {d u o : Int} (hd : x.tradesB d = true) (hf : first ≤ dayOf 2019 1 1)
    (hr : dayOf 2019 1 1 ≤ d ∧ d ≤ dayOf 2019 12 31)
    (hb : ∀ d ∈ bad, d < dayOf 2019 1 1 ∨ dayOf 2019 12 31 < d) (ho : ∀ t, T.opens d t → t = o)
    (hu : u + z.offsetAt u = d * DAY + o) (hz : Tame z) :
    OpensAt x z d u := by
  have mono : ∀ a b : Int, a ≤ b → a * DAY ≤ b * DAY := fun a b h => by simp only [DAY]; omega
  have mono' : ∀ a b : Int, a < b → a * DAY < b * DAY := fun a b h => by simp only [DAY]; omega
  have hd := (tradesB_iff hx d).1 hd
  have hdv : DAY ∣ dayOf 2019 1 1 * DAY := Int.dvd_mul_left ..
  have hbad := fun d hd => (hb d hd).imp (mono' d _) (mono' _ d)
  obtain ⟨b, hbuild, ss, hss, -, -, -, hl, -⟩ :=
    (hc (dayOf 2019 1 1 * DAY) (dayOf 2019 12 31 * DAY) (mono _ _ hf) hdv).succeeds hbad
      ⟨d, mono _ _ hr.1, mono _ _ hr.2, hd⟩
  obtain ⟨⟨ss', hss', hkd⟩, -⟩ := hk _ _ b (mono _ _ hf) hdv hbad hbuild
  have hlab : ss.map (·.label) = ss'.map (·.label) := by
    have : b.cal.sessions = b.cal.sessions := rfl
    conv at this => lhs; rw [hss]
    conv at this => rhs; rw [hss']
    exact this
  have := (hl (d * DAY)).2 ⟨d, rfl, mono _ _ hr.1, mono _ _ hr.2, hd⟩
  rw [hlab] at this
  obtain ⟨s, hs, hsd⟩ := List.mem_map.1 this
  refine ⟨b, ss', s, hbuild, hss', hs, hsd, ?_⟩
  obtain ⟨d', hk'⟩ := hkd s hs
  have hl' := hk'.label
  have : d' = d := by rw [hsd] at hl'; simp only [DAY] at hl'; omega
  subst this
  obtain ⟨t, ht, hi⟩ := hk'.opens
  rw [ho t ht] at hi
  exact (hi.2 u ((reads_iff hz u _).2 hu)).symm

end TC
