import Verif.Lemmas.RuleCheck
import Verif.Lemmas.BuildSucceeds
import Verif.Lemmas.Ordered
import Verif.Spec.Exchange

/-!
# A decidable check for `Constructible`

The check looks at the data of an exchange only; its soundness covers all zones, ranges and years.
-/

namespace TC
open Spec

/-! ### Trading days -/

theorem day_ediv (a : Int) : a * DAY / DAY = a :=
  Int.mul_ediv_cancel _ (by decide)

theorem tradingDay_iff {x : Exchange} (h : GoodRules x.regular) (z : Tz) (d : Int) :
    TradingDay (x.config z) d ↔ TradesOn x d := by
  unfold TradingDay TradesOn Exchange.config
  obtain ⟨hg, hn⟩ := h
  simp only [List.contains_iff_mem, Option.some.injEq, forall_eq', List.mem_map,
    forall_exists_index, and_imp, forall_apply_eq_imp_iff₂, day_ediv]
  refine and_congr ?_ (and_congr ?_ ?_)
  · constructor
    · rintro ⟨w, h1, h2⟩; exact ⟨w, h2, h1⟩
    · rintro ⟨w, h1, h2⟩; exact ⟨w, h2, h1⟩
  · constructor
    · intro h hd; exact h d hd rfl
    · rintro h a ha rfl; exact h ha
  · constructor
    · intro h h0 h1 r hr hd
      refine h (d * DAY) ((mem_holidayCalendar hg hn _ _ _).2
        ⟨by simp only [DAY] at *; omega, by simp only [DAY] at *; omega, r, hr, d, rfl, hd⟩) ?_
      exact day_ediv d
    · intro h u hu
      obtain ⟨h1, h2, r, hr, k, rfl, hk⟩ := (mem_holidayCalendar hg hn _ _ _).1 hu
      rw [day_ediv]
      rintro rfl
      exact h (by simp only [DAY] at *; omega) (by simp only [DAY] at *; omega) r hr hk

theorem label_iff {x : Exchange} (h : GoodRules x.regular) (z : Tz) (start stop l : Int) :
    SessionLabel (x.config z) start stop l ↔
      ∃ d, l = d * DAY ∧ start ≤ l ∧ l ≤ stop ∧ TradesOn x d := by
  unfold SessionLabel
  simp only [tradingDay_iff h]

/-- Decides `TradesOn`. -/
def Exchange.tradesB (x : Exchange) (d : Int) : Bool :=
  x.weekdays.contains (weekday d) && !x.adhoc.contains d &&
  (!(decide (0 ≤ d) && decide (d ≤ 84370)) || x.regular.all fun r => !r.hits d)

theorem tradesB_iff {x : Exchange} (h : GoodRules x.regular) (d : Int) :
    x.tradesB d = true ↔ TradesOn x d := by
  obtain ⟨hg, hn⟩ := h
  unfold Exchange.tradesB TradesOn
  rw [Bool.and_eq_true, Bool.and_eq_true, List.contains_iff_mem, and_assoc]
  refine and_congr ?_ (and_congr ?_ ?_)
  · have := weekday_exists d (fun w => w ∈ x.weekdays)
    rw [← this]
    constructor
    · rintro ⟨w, h1, h2⟩; exact ⟨w, h2, h1⟩
    · rintro ⟨w, h1, h2⟩; exact ⟨w, h2, h1⟩
  · simp
  · rw [Bool.or_eq_true, List.all_eq_true]
    have hh : (∀ r ∈ x.regular, (!r.hits d) = true) ↔ ∀ r ∈ x.regular, ¬ IsHoliday r d := by
      refine forall_congr' fun r => forall_congr' fun hr => ?_
      rw [← hits_iff (hg r hr) (hn r hr) d]
      simp
    rw [hh]
    simp only [Bool.not_eq_true', Bool.and_eq_false_iff, decide_eq_false_iff_not]
    constructor
    · rintro (h | h) h0 h1
      · omega
      · exact h
    · intro h
      by_cases h0 : 0 ≤ d ∧ d ≤ 84370
      · exact Or.inr (h h0.1 h0.2)
      · exact Or.inl (by omega)

/-! ### Special closes -/

/-- The special rules with their times. -/
def Exchange.specialRules (x : Exchange) : List (Int × Rule) :=
  x.specialCloses.flatMap fun e => e.2.map fun r => (e.1, r)

/-- The ad-hoc special days with their times. -/
def Exchange.specialDays (x : Exchange) : List (Int × Int) :=
  x.specialClosesAdhoc.flatMap fun e => e.2.map fun d => (e.1, d)

theorem closesEarly_iff (x : Exchange) (d t : Int) :
    ClosesEarly x d t ↔ (∃ r, (t, r) ∈ x.specialRules ∧ IsHoliday r d) ∨ (t, d) ∈ x.specialDays := by
  unfold ClosesEarly Exchange.specialRules Exchange.specialDays
  simp only [List.mem_flatMap, List.mem_map, Prod.mk.injEq, Prod.exists]
  refine or_congr ?_ ?_
  · constructor
    · rintro ⟨rs, h1, r, hr, hd⟩
      exact ⟨r, ⟨t, rs, h1, r, hr, rfl, rfl⟩, hd⟩
    · rintro ⟨r, ⟨t', rs, h1, r', hr, rfl, rfl⟩, hd⟩
      exact ⟨rs, h1, r', hr, hd⟩
  · constructor
    · rintro ⟨ds, h1, h2⟩
      exact ⟨t, ds, h1, d, h2, rfl, rfl⟩
    · rintro ⟨t', ds, h1, d', h2, rfl, rfl⟩
      exact ⟨ds, h1, h2⟩

/-- The holidays of the rule from 1970 to 2200. -/
def Rule.windowDates (s : Rule) : List Int :=
  (match s.year with
  | some y => [dayOf y s.month s.day]
  | none => ((dayRange 1969 2201).flatMap s.ofYear).filter s.inBounds).filter
    fun d => decide (0 ≤ d) && decide (d ≤ 84370)

theorem yearOf_window {d : Int} (h0 : 0 ≤ d) (h1 : d ≤ 84370) : 1970 ≤ yearOf d ∧ yearOf d ≤ 2200 := by
  have hs := yearOf_spec d
  have e0 : jan1 1970 = 0 := by decide
  have e1 : jan1 2201 = 84371 := by decide
  constructor
  · apply Decidable.byContradiction
    intro hc
    have : jan1 (yearOf d + 1) ≤ jan1 1970 := jan1_le_iff.2 (by omega)
    omega
  · apply Decidable.byContradiction
    intro hc
    have : jan1 2201 ≤ jan1 (yearOf d) := jan1_le_iff.2 (by omega)
    omega

theorem mem_windowDates {s : Rule} (hg : GoodRule s) (hn : Near s) {d : Int} (h : IsHoliday s d)
    (h0 : 0 ≤ d) (h1 : d ≤ 84370) : d ∈ s.windowDates := by
  unfold Rule.windowDates
  rw [List.mem_filter]
  refine ⟨?_, by simp [h0, h1]⟩
  cases hy : s.year with
  | some y =>
    rw [isHoliday_year hg hy] at h
    simp [h]
  | none =>
    unfold IsHoliday at h
    rw [hy] at h
    obtain ⟨⟨y, hk⟩, hb⟩ := h
    simp only
    rw [List.mem_filter, inBounds_iff]
    refine ⟨?_, hb⟩
    obtain ⟨y₁, y₂, hk₁, hin, a, b⟩ := hn y d hk
    rw [inYear_iff] at hin
    have := yearOf_window h0 h1
    exact List.mem_flatMap.2 ⟨y₁, (mem_dayRange _ _ _).2 (by omega), (ofYear_iff hg y₁ d).2 hk₁⟩

/-! ### The check -/

/-- A time of day from 8:00 to 21:00. -/
def daytimeB (t : Int) : Bool := decide (hm 8 0 ≤ t) && decide (t ≤ hm 21 0)

/-- The standard and special times of the exchange are daytime, ordered, and breaks are paired. -/
def Exchange.timesB (x : Exchange) : Bool :=
  orderedB (x.config ⟨0, []⟩) && (x.breakStartTimes.isSome == x.breakEndTimes.isSome) &&
  (x.openOffset == 0 || x.openOffset == -1) && x.closeOffset == 0 &&
  (x.openTimes.all fun e => daytimeB e.2) && (x.closeTimes.all fun e => daytimeB e.2) &&
  (tableTimes x.breakStartTimes).all daytimeB && (tableTimes x.breakEndTimes).all daytimeB &&
  (x.specialCloses.all fun e => daytimeB e.1) && (x.specialClosesAdhoc.all fun e => daytimeB e.1)

/-- Special closes fall on trading days, other than on the days `bad`. -/
def Exchange.specialsB (x : Exchange) (bad : List Int) : Bool :=
  (x.specialRules.all fun s =>
    s.2.weekdaysB x.weekdays &&
    (x.adhoc.all fun d => bad.contains d || !s.2.hits d) &&
    let rs := x.regular.filter fun r => !s.2.apart r
    rs.isEmpty || s.2.windowDates.all fun d => bad.contains d || rs.all fun r => !r.hits d) &&
  x.specialDays.all fun p => bad.contains p.2 || x.tradesB p.2

/-- No day has two different special closes. -/
def Exchange.uniqueB (x : Exchange) : Bool :=
  (x.specialRules.all fun s => x.specialRules.all fun s' => s.1 == s'.1 || s.2.apart s'.2) &&
  (x.specialRules.all fun s => x.specialDays.all fun p => s.1 == p.1 || !s.2.hits p.2) &&
  (x.specialDays.all fun p => x.specialDays.all fun q => p.2 != q.2 || p.1 == q.1)

/-- The check: rules are well-formed, times in order, special closes on trading days other than the
days `bad`, unique, and the days `bad` no trading days. -/
def Exchange.check (x : Exchange) (bad : List Int) : Bool :=
  x.timesB && rulesB x.regular && (rulesB (x.specialRules.map (·.2))) && x.specialsB bad &&
  x.uniqueB && bad.all fun d => !x.tradesB d

theorem daytime_of {t : Int} (h : daytimeB t = true) : hm 8 0 ≤ t ∧ t ≤ hm 21 0 := by
  simpa [daytimeB] using h

theorem timesB_ordered {x : Exchange} (h : x.timesB = true) (z : Tz) : Ordered (x.config z) := by
  unfold Exchange.timesB at h
  simp only [Bool.and_eq_true] at h
  have : orderedB (x.config z) = true := h.1.1.1.1.1.1.1.1.1
  exact ordered_of this

theorem specialRule_mem {x : Exchange} (hr : GoodRules (x.specialRules.map (·.2))) {t : Int}
    {rules : List Rule} (h : (t, rules) ∈ x.specialCloses) :
    (∀ r ∈ rules, GoodRule r) ∧ ∀ r ∈ rules, Near r := by
  obtain ⟨hg, hn⟩ := hr
  have hm : ∀ r ∈ rules, r ∈ x.specialRules.map (·.2) := by
    intro r hr
    refine List.mem_map.2 ⟨(t, r), ?_, rfl⟩
    exact List.mem_flatMap.2 ⟨_, h, List.mem_map.2 ⟨r, hr, rfl⟩⟩
  exact ⟨fun r hr => hg r (hm r hr), fun r hr => hn r (hm r hr)⟩

/-- What `SpecialTime` says about an exchange. -/
theorem specialTime_exchange {x : Exchange} (hr : GoodRules (x.specialRules.map (·.2))) (z : Tz)
    {start stop l t : Int} :
    SpecialTime (x.config z).specialCloses (x.config z).specialClosesAdhoc start stop l t ↔
      ∃ d, l = d * DAY ∧
        ((start ≤ l ∧ l ≤ stop ∧ ∃ r, (t, r) ∈ x.specialRules ∧ IsHoliday r d) ∨
          (t, d) ∈ x.specialDays) := by
  unfold SpecialTime Exchange.config Exchange.specialRules Exchange.specialDays
  simp only [List.mem_map, List.mem_flatMap, Prod.mk.injEq, Prod.exists]
  constructor
  · rintro (⟨cal, ⟨t', rules, hm, rfl, rfl⟩, hl⟩ | ⟨dates, ⟨t', days, hm, rfl, rfl⟩, hl⟩)
    · obtain ⟨hg, hn⟩ := specialRule_mem hr hm
      obtain ⟨h1, h2, r, hr', d, rfl, hd⟩ := (mem_holidayCalendar hg hn _ _ _).1 hl
      exact ⟨d, rfl, Or.inl ⟨h1, h2, r, ⟨t', rules, hm, r, hr', rfl, rfl⟩, hd⟩⟩
    · obtain ⟨d, hd, rfl⟩ := List.mem_map.1 hl
      exact ⟨d, rfl, Or.inr ⟨t', days, hm, d, hd, rfl, rfl⟩⟩
  · rintro ⟨d, rfl, ⟨h1, h2, r, ⟨t', rules, hm, r', hr', rfl, rfl⟩, hd⟩ |
      ⟨t', days, hm, d', hd, rfl, rfl⟩⟩
    · obtain ⟨hg, hn⟩ := specialRule_mem hr hm
      exact Or.inl ⟨_, ⟨t', rules, hm, rfl, rfl⟩,
        (mem_holidayCalendar hg hn _ _ _).2 ⟨h1, h2, r', hr', d, rfl, hd⟩⟩
    · exact Or.inr ⟨_, ⟨t', days, hm, rfl, rfl⟩, List.mem_map.2 ⟨d', hd, rfl⟩⟩

theorem specialDays_mem {x : Exchange} {t d : Int} (h : (t, d) ∈ x.specialDays) :
    ∃ e ∈ x.specialClosesAdhoc, e.1 = t ∧ d ∈ e.2 := by
  unfold Exchange.specialDays at h
  simp only [List.mem_map, List.mem_flatMap, Prod.mk.injEq] at h
  obtain ⟨e, he, d', hd, rfl, rfl⟩ := h
  exact ⟨e, he, rfl, hd⟩

theorem specialRules_mem {x : Exchange} {t : Int} {r : Rule} (h : (t, r) ∈ x.specialRules) :
    ∃ e ∈ x.specialCloses, e.1 = t ∧ r ∈ e.2 := by
  unfold Exchange.specialRules at h
  simp only [List.mem_map, List.mem_flatMap, Prod.mk.injEq] at h
  obtain ⟨e, he, d', hd, rfl, rfl⟩ := h
  exact ⟨e, he, rfl, hd⟩

theorem exchange_readable {x : Exchange} (ht : x.timesB = true)
    (hr : GoodRules x.regular) (hs : GoodRules (x.specialRules.map (·.2))) {z : Tz}
    {start stop : Int} (hz : ZoneFits x z start stop) : Readable (x.config z) start stop := by
  unfold Exchange.timesB at ht
  simp only [Bool.and_eq_true, Bool.or_eq_true, beq_iff_eq, List.all_eq_true] at ht
  obtain ⟨⟨⟨⟨⟨⟨⟨⟨⟨_, hp⟩, hoo⟩, hco⟩, hot⟩, hct⟩, hbs⟩, hbe⟩, hsc⟩, hsa⟩ := ht
  have day : ∀ {l : Int}, SessionLabel (x.config z) start stop l →
      ∃ d, l = d * DAY ∧ start ≤ l ∧ l ≤ stop := by
    intro l hl
    obtain ⟨d, rfl, h1, h2, _⟩ := (label_iff hr z start stop l).1 hl
    exact ⟨d, rfl, h1, h2⟩
  have std : ∀ {l t k : Int}, SessionLabel (x.config z) start stop l → daytimeB t = true →
      (k = 0 ∨ k = -1) → ∃ u, OnlyInstant z (l + k * DAY + t) u := by
    intro l t k hl h hk
    obtain ⟨d, rfl, h1, h2⟩ := day hl
    have := daytime_of h
    have hc := hz.clear (d + k) (by simp only [DAY] at *; omega) (by simp only [DAY] at *; omega) t
      this.1 this.2
    rwa [show (d + k) * DAY + t = d * DAY + k * DAY + t by rw [Int.add_mul]] at hc
  constructor
  · intro l t hl hte
    obtain ⟨e, he, rfl⟩ := TimeInEffect.mem hte
    exact std hl (hot e he) hoo
  · intro l t hl hte
    obtain ⟨e, he, rfl⟩ := TimeInEffect.mem hte
    exact std hl (hct e he) (Or.inl hco)
  · intro l t table hl hb hte
    obtain ⟨e, he, rfl⟩ := TimeInEffect.mem hte
    refine std hl (hbs e.2 ?_) (Or.inl rfl)
    have hb : x.breakStartTimes = some table := hb
    rw [hb]
    exact List.mem_map.2 ⟨e, he, rfl⟩
  · intro l t table hl hb hte
    obtain ⟨e, he, rfl⟩ := TimeInEffect.mem hte
    refine std hl (hbe e.2 ?_) (Or.inl rfl)
    have hb : x.breakEndTimes = some table := hb
    rw [hb]
    exact List.mem_map.2 ⟨e, he, rfl⟩
  · rintro l t (⟨cal, hm, _⟩ | ⟨ds, hm, _⟩)
    · exact absurd hm List.not_mem_nil
    · exact absurd hm List.not_mem_nil
  · intro l t hst
    obtain ⟨d, rfl, ⟨h1, h2, r, hm, _⟩ | hm⟩ := (specialTime_exchange hs z).1 hst
    · obtain ⟨e, he, rfl, _⟩ := specialRules_mem hm
      have := daytime_of (hsc e he)
      exact hz.clear d (by simp only [DAY] at *; omega) h2 _ this.1 this.2
    · obtain ⟨e, he, rfl, hd⟩ := specialDays_mem hm
      have := daytime_of (hsa e he)
      exact hz.clearAdhoc e he d hd _ this.1 this.2
  · show x.breakStartTimes.isSome ↔ x.breakEndTimes.isSome
    rw [hp]

theorem special_trades {x : Exchange} {bad : List Int} (hr : GoodRules x.regular)
    (hs : GoodRules (x.specialRules.map (·.2))) (h : x.specialsB bad = true) {d t : Int}
    (hc : ClosesEarly x d t) (hb : d ∉ bad) : TradesOn x d := by
  obtain ⟨hg, hn⟩ := hr
  obtain ⟨hg', hn'⟩ := hs
  unfold Exchange.specialsB at h
  rw [Bool.and_eq_true, List.all_eq_true, List.all_eq_true] at h
  rw [closesEarly_iff] at hc
  rcases hc with ⟨r, hm, hd⟩ | hm
  · have h1 := h.1 _ hm
    simp only [Bool.and_eq_true, Bool.or_eq_true, List.all_eq_true] at h1
    obtain ⟨⟨hw, ha⟩, hreg⟩ := h1
    have hmm : r ∈ x.specialRules.map (·.2) := List.mem_map.2 ⟨_, hm, rfl⟩
    have gr := hg' r hmm
    have nr := hn' r hmm
    refine ⟨⟨weekday d, weekdays_sound gr hw hd, (weekday_iff _ _).2 rfl⟩, ?_, ?_⟩
    · intro hda
      rcases ha d hda with h | h
      · exact hb (List.contains_iff_mem.1 h)
      · rw [(hits_iff gr nr d).2 hd] at h
        simp at h
    · intro h0 h1 r' hr' hd'
      by_cases hap : r.apart r' = true
      · exact apart_sound gr (hg r' hr') nr (hn r' hr') hap d ⟨hd, hd'⟩
      · have hmem : r' ∈ x.regular.filter fun r' => !r.apart r' := by
          rw [List.mem_filter]
          exact ⟨hr', by simpa using hap⟩
        rcases hreg with h | h
        · rw [List.isEmpty_iff] at h
          rw [h] at hmem
          simp at hmem
        · rcases h d (mem_windowDates gr nr hd h0 h1) with h | h
          · exact hb (List.contains_iff_mem.1 h)
          · have := h r' hmem
            rw [(hits_iff (hg r' hr') (hn r' hr') d).2 hd'] at this
            simp at this
  · have h1 := h.2 _ hm
    simp only [Bool.or_eq_true] at h1
    rcases h1 with h | h
    · exact absurd (List.contains_iff_mem.1 h) hb
    · exact (tradesB_iff ⟨hg, hn⟩ d).1 h

theorem special_unique {x : Exchange} (hs : GoodRules (x.specialRules.map (·.2)))
    (h : x.uniqueB = true) {d t t' : Int} (h1 : ClosesEarly x d t) (h2 : ClosesEarly x d t') :
    t = t' := by
  obtain ⟨hg, hn⟩ := hs
  unfold Exchange.uniqueB at h
  simp only [Bool.and_eq_true, List.all_eq_true, Bool.or_eq_true, beq_iff_eq, bne_iff_ne,
    Bool.not_eq_true'] at h
  obtain ⟨⟨hrr, hrd⟩, hdd⟩ := h
  rw [closesEarly_iff] at h1 h2
  have mm : ∀ {t : Int} {r : Rule}, (t, r) ∈ x.specialRules → r ∈ x.specialRules.map (·.2) :=
    fun hm => List.mem_map.2 ⟨_, hm, rfl⟩
  rcases h1 with ⟨r, hm, hd⟩ | hm <;> rcases h2 with ⟨r', hm', hd'⟩ | hm'
  · rcases hrr _ hm _ hm' with h | h
    · exact h
    · exact absurd ⟨hd, hd'⟩ (apart_sound (hg r (mm hm)) (hg r' (mm hm')) (hn r (mm hm))
        (hn r' (mm hm')) h d)
  · rcases hrd _ hm _ hm' with h | h
    · exact h
    · simp only at h
      rw [(hits_iff (hg r (mm hm)) (hn r (mm hm)) d).2 hd] at h
      simp at h
  · rcases hrd _ hm' _ hm with h | h
    · exact h.symm
    · simp only at h
      rw [(hits_iff (hg r' (mm hm')) (hn r' (mm hm')) d).2 hd'] at h
      simp at h
  · rcases hdd _ hm _ hm' with h | h
    · exact absurd rfl h
    · exact h

theorem OnlyInstant.unique {z : Tz} {w u u' : Int} (h : OnlyInstant z w u)
    (h' : OnlyInstant z w u') : u = u' := h'.2 u h.1

/-- An applied special close of an exchange. -/
theorem applied_exchange {x : Exchange} (hs : GoodRules (x.specialRules.map (·.2))) {z : Tz}
    {start stop : Int} (hz : ZoneFits x z start stop) (hmid : DAY ∣ start) {l u : Int} :
    SpecialClose (x.config z) start stop l u ↔
      ∃ d t, l = d * DAY ∧ start ≤ l ∧ l ≤ stop ∧ ClosesEarly x d t ∧ OnlyInstant z (l + t) u ∧
        start ≤ u ∧ u ≤ stop := by
  unfold SpecialClose Applied
  simp only [specialTime_exchange hs z, closesEarly_iff]
  constructor
  · rintro ⟨t, ⟨d, rfl, ⟨h1, h2, r, hm, hd⟩ | hm⟩, ho, h3, h4⟩
    · exact ⟨d, t, rfl, h1, h2, Or.inl ⟨r, hm, hd⟩, ho, h3, h4⟩
    · obtain ⟨e, he, rfl, hd⟩ := specialDays_mem hm
      have hsd := hz.sameDay e he d hd u ho
      obtain ⟨k, rfl⟩ := hmid
      exact ⟨d, e.1, rfl, by simp only [DAY] at *; omega, by omega, Or.inr hm, ho, h3, h4⟩
  · rintro ⟨d, t, rfl, h1, h2, ⟨r, hm, hd⟩ | hm, ho, h3, h4⟩
    · exact ⟨t, ⟨d, rfl, Or.inl ⟨h1, h2, r, hm, hd⟩⟩, ho, h3, h4⟩
    · exact ⟨t, ⟨d, rfl, Or.inr hm⟩, ho, h3, h4⟩

theorem constructible_good {x : Exchange} {bad : List Int} (ht : x.timesB = true)
    (hr : GoodRules x.regular) (hs : GoodRules (x.specialRules.map (·.2)))
    (hsp : x.specialsB bad = true) (hu : x.uniqueB = true)
    (hbad : (bad.all fun d => !x.tradesB d) = true) : Constructible x bad := by
  have hord := timesB_ordered ht
  have noOpen : ∀ {z : Tz} {start stop l u : Int}, ¬ SpecialOpen (x.config z) start stop l u := by
    rintro z start stop l u ⟨t, (⟨cal, hm, _⟩ | ⟨ds, hm, _⟩), _⟩
    · exact absurd hm List.not_mem_nil
    · exact absurd hm List.not_mem_nil
  intro z start stop hz hmid hlow
  refine ⟨?_, ?_, fun hno => ?_⟩
  · intro hb ⟨d0, hd0, hd0', htr⟩
    have hfit : SpecialsFit (x.config z) start stop := by
      refine ⟨?_, ?_, ?_⟩
      · rintro l u (h | h)
        · exact absurd h noOpen
        · obtain ⟨d, t, rfl, h1, h2, hc, _⟩ := (applied_exchange hs hz hmid).1 h
          refine (label_iff hr z start stop _).2 ⟨d, rfl, h1, h2, special_trades hr hs hsp hc ?_⟩
          intro hd
          have := hb d hd
          omega
      · intro l u u' h _; exact absurd h noOpen
      · intro l u u' h h'
        obtain ⟨d, t, rfl, _, _, hc, ho, _⟩ := (applied_exchange hs hz hmid).1 h
        obtain ⟨d', t', he, _, _, hc', ho', _⟩ := (applied_exchange hs hz hmid).1 h'
        have : d = d' := by simp only [DAY] at he; omega
        subst this
        have := special_unique hs hu hc hc'
        subst this
        exact OnlyInstant.unique ho ho'
    obtain ⟨b, hbd⟩ := build_succeeds (hord z) hz.tame hmid hlow (exchange_readable ht hr hs hz) hfit
      ⟨d0 * DAY, (label_iff hr z start stop _).2 ⟨d0, rfl, hd0, hd0', htr⟩⟩
    refine ⟨b, hbd, rowsOf b.cal, ?_⟩
    have hne := build_rows_ne hbd
    obtain ⟨sch, hsch, hc, _⟩ := build_parts hbd
    obtain ⟨hreg, hoc, _⟩ := schedule_regular hsch (hord z) hz.tame hmid hlow
    have hof := (schedule_rows hsch ((hord z).wellFormed hz.tame hmid hlow)).1
    have hlab := schedule_labels hsch hmid
    rw [hc] at hne ⊢
    have hclose : ∀ s u, SpecialClose (x.config z) start stop s u ↔
        EarlyClose x z start stop s u := fun s u => applied_exchange hs hz hmid
    refine ⟨hof.symm, hne, hreg, hoc, ?_, fun s hs' => ?_, fun l => ?_⟩
    rotate_left
    · have f := (schedule_rows hsch ((hord z).wellFormed hz.tame hmid hlow)).2 s hs'
      have hno : (∀ u, ¬ EarlyClose x z start stop s.label u) →
          ∀ u, ¬ SpecialClose (x.config z) start stop s.label u :=
        fun h u hu => h u ((hclose _ _).1 hu)
      refine ⟨f.openStandard fun u => noOpen, fun u hu => ?_, fun h => f.closeStandard (hno h),
        fun h bt et hb he => ?_, f.brkNone⟩
      · have hu' := (hclose _ _).2 hu
        exact ⟨hfit.closeUnique _ _ _ (f.closeSpecial u hu') hu', f.brkSpecial u hu'⟩
      · obtain ⟨u, v, h1, ⟨t1, h2, h3⟩, ⟨t2, h4, h5⟩⟩ := f.brkStandard (hno h) bt et hb he
        exact ⟨u, v, h1, ⟨t1, h2, by simpa [Exchange.config] using h3⟩,
          ⟨t2, h4, by simpa [Exchange.config] using h5⟩⟩
    · obtain ⟨so, sc, h1, h2, _, _, _, h6, h7⟩ := build_special_labels hbd (hord z) hz.tame hmid hlow
      rw [h2]
      constructor
      · intro hl
        obtain ⟨⟨l', u⟩, he, rfl⟩ := List.mem_map.mp hl
        exact ⟨u, (hclose _ _).1 ((h6 _ _).mp he)⟩
      · rintro ⟨u, hu⟩
        exact List.mem_map.mpr ⟨(l, u), (h6 _ _).mpr ((hclose _ _).2 hu), rfl⟩
    intro s
    have e : (rowsOf sch.cal).map (·.label) = sch.cal.sessions := by
      have := congrArg Cal.sessions hof
      simpa [Cal.ofSessions] using this
    rw [e, hlab.2]
    have := label_iff hr z start stop s
    unfold SessionLabel at this
    rw [← this]
  · intro d hd t u hc ho h1 h2 h3 h4
    have hfail := schedule_fails (cfg := x.config z) ((hord z).wellFormed hz.tame hmid hlow)
      (exchange_readable ht hr hs hz) ⟨d * DAY, u,
        Or.inr ((applied_exchange hs hz hmid).2 ⟨d, t, rfl, h1, h2, hc, ho, h3, h4⟩), by
        intro hl
        obtain ⟨d', he, _, _, htr⟩ := (label_iff hr z start stop _).1 hl
        have : d = d' := by simp only [DAY] at he; omega
        subst this
        have hb := List.all_eq_true.1 hbad d hd
        rw [(tradesB_iff hr d).2 htr] at hb
        simp at hb⟩
    unfold build
    rw [hfail]
    rfl
  · refine build_empty (cfg := x.config z) ((hord z).wellFormed hz.tame hmid hlow)
      (exchange_readable ht hr hs hz) fun l hl => ?_
    obtain ⟨d, rfl, h1, h2, h3⟩ := (label_iff hr z start stop l).1 hl
    exact hno d h1 h2 h3

theorem constructible_of {x : Exchange} {bad : List Int} (h : x.check bad = true) :
    Constructible x bad := by
  unfold Exchange.check at h
  simp only [Bool.and_eq_true] at h
  obtain ⟨⟨⟨⟨⟨ht, hr⟩, hs⟩, hsp⟩, hu⟩, hbad⟩ := h
  exact constructible_good ht (rules_of hr) (rules_of hs) hsp hu hbad

theorem trades_of {x : Exchange} {bad : List Int} (h : x.check bad = true) {d : Int}
    (hd : x.tradesB d = true) : TradesOn x d := by
  unfold Exchange.check at h
  simp only [Bool.and_eq_true] at h
  exact (tradesB_iff (rules_of h.1.1.1.1.2) d).1 hd

theorem early_trades_of {x : Exchange} {bad : List Int} (h : x.check bad = true) {d t : Int}
    (hc : ClosesEarly x d t) (hb : d ∉ bad) : TradesOn x d := by
  unfold Exchange.check at h
  simp only [Bool.and_eq_true] at h
  obtain ⟨⟨⟨⟨⟨_, hr⟩, hs⟩, hsp⟩, _⟩, _⟩ := h
  exact special_trades (rules_of hr) (rules_of hs) hsp hc hb

/-- The labels of a calendar that was built. -/
theorem Spec.Builds.labels {x : Exchange} {z : Tz} {start stop : Int} (h : Builds x z [] start stop)
    {b : Built} (hb : build (x.config z) start stop = .ok b) (l : Int) :
    l ∈ b.cal.sessions ↔ ∃ d, l = d * DAY ∧ start ≤ l ∧ l ≤ stop ∧ TradesOn x d := by
  by_cases he : ∃ d, start ≤ d * DAY ∧ d * DAY ≤ stop ∧ TradesOn x d
  · obtain ⟨b', hb', ss, hss, _, _, _, hl, _⟩ := h.succeeds (by simp) he
    rw [hb] at hb'
    cases hb'
    rw [hss]
    exact hl l
  · obtain ⟨why, hw⟩ := h.empty (fun d h1 h2 h3 => he ⟨d, h1, h2, h3⟩)
    rw [hb] at hw
    cases hw

end TC
