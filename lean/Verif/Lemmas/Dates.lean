import Verif.Spec.Dates
import Verif.Lemmas.SessionLength
import Verif.Lemmas.ByClock

/-! # When the date of a minute names its session -/

namespace TC
open Spec

theorem showsDate_unique {s w d d' : Int} (h : ShowsDate s w d) (h' : ShowsDate s w d') : d = d' := by
  unfold ShowsDate at *
  simp only [DAY] at *
  omega

/-- The times of the timetable, `s` later, are on the day of the session. -/
def withinDayB (os cs es : List Int) (s : Int) : Bool :=
  os.all (fun o => decide (0 ≤ o + s ∧ o + s < DAY)) && (cs ++ es).all fun c => decide (c + s < DAY)

theorem ends_lt {T : Timetable} {os cs es : List Int} {s : Int} (hT : TimesIn T os cs es) (h : withinDayB os cs es s = true)
    {z : Tz} {start stop d c : Int} (hc : T.EndsAt z start stop d c) : c + s < DAY := by
  have h := List.all_eq_true.1 ((Bool.and_eq_true _ _).mp h).2 c
  simp only [decide_eq_true_iff] at h
  rcases hc with ⟨he, -⟩ | ⟨-, hc⟩
  · exact h (List.mem_append_right _ (hT.early d c he))
  · exact h (List.mem_append_left _ (hT.closes d c hc))

theorem hours_date {x : Exchange} {z : Tz} {T : Timetable} {os cs es : List Int} {s : Int} (hT : TimesIn T os cs es)
    (h : withinDayB os cs es s = true) {start stop w d : Int} (hd : HoursOn x z T start stop w d) : ShowsDate s w d := by
  obtain ⟨-, ⟨o, ho, h1⟩, c, hc, h2⟩ := hd
  have h3 := ends_lt hT h hc
  have h4 := of_decide_eq_true (List.all_eq_true.1 ((Bool.and_eq_true _ _).mp h).1 o (hT.opens d o ho))
  unfold ShowsDate
  simp only [DAY] at *
  omega

theorem label_of_hours {x : Exchange} {z : Tz} {T : Timetable} {os cs es : List Int} {s : Int} (hT : TimesIn T os cs es)
    (h : withinDayB os cs es s = true) {start stop t w d : Int} {c : Cal}
    (ha : AnswersByClock x z T start stop c t w) (hd : HoursOn x z T start stop w d) :
    c.sessionLabelFresh t "next" = .ok (d * DAY) := by
  have hs := hours_date hT h hd
  obtain ⟨h0, -, e, he, h2⟩ := hd
  refine ha.label d ⟨h0, ⟨e, he, h2⟩, fun d' c' _ hc' hw => ?_⟩
  have := ends_lt hT h hc'
  unfold ShowsDate at hs
  simp only [DAY] at *
  omega

theorem localDates_of {x : Exchange} {z : Tz} {first : Int} {bad : List Int} {T : Timetable} {os cs es : List Int} {s : Int}
    (hc : ByClock x z first bad T) (hT : TimesIn T os cs es) (h : withinDayB os cs es s = true) :
    LocalDates x z first bad s := by
  intro start stop b h1 h2 h3 hb t w hw hopen d hd
  have ha := hc start stop b h1 h2 h3 hb t w hw
  obtain ⟨r, hr, hi⟩ := ha.isOpenIgnoringBreaks
  rw [hopen] at hr
  cases hr
  obtain ⟨d', hd'⟩ := hi.1 rfl
  rw [showsDate_unique hd (hours_date hT h hd')]
  exact label_of_hours hT h ha hd'

/-- From day `d` on the offsets of the zone are between `lo` and `hi`. -/
def offsetsFromB (z : Tz) (d lo hi : Int) : Bool :=
  decide (lo ≤ z.offsetAt (d * DAY) ∧ z.offsetAt (d * DAY) ≤ hi) &&
    z.trans.all fun e => decide (e.1 ≤ d * DAY) || decide (lo ≤ e.2 ∧ e.2 ≤ hi)

theorem offset_bounds {z : Tz} (hz : Tame z) {d lo hi : Int} (h : offsetsFromB z d lo hi = true) {u o : Int}
    (hu : d * DAY ≤ u) (ho : OffsetInForce z u o) : lo ≤ o ∧ o ≤ hi := by
  obtain ⟨h1, h2⟩ := (Bool.and_eq_true _ _).mp h
  have h1 := of_decide_eq_true h1
  rcases ho with ⟨before, s, after, he, hs, ha⟩ | ⟨he, ha⟩
  · by_cases hsd : s ≤ d * DAY
    · have : OffsetInForce z (d * DAY) o := .inl ⟨before, s, after, he, hsd, fun e hea => by have := ha e hea; omega⟩
      rw [OffsetInForce.unique hz this (offsetAt_inForce hz _)]
      exact h1
    · have := List.all_eq_true.1 h2 (s, o) (by rw [he]; simp)
      simp only [Bool.or_eq_true, decide_eq_true_iff] at this
      rcases this with h | h
      · exact absurd h hsd
      · exact h
  · have : OffsetInForce z (d * DAY) o := .inr ⟨he, fun e hea => by have := ha e hea; omega⟩
    rw [OffsetInForce.unique hz this (offsetAt_inForce hz _)]
    exact h1

/-- The times of the timetable, less an offset between `lo` and `hi`, `s` later, are on the day of the session. -/
def withinUtcB (os cs es : List Int) (lo hi s : Int) : Bool :=
  os.all (fun o => decide (hi ≤ o + s)) && (cs ++ es).all fun c => decide (c + s < DAY + lo)

theorem utcDates_of {x : Exchange} {z : Tz} {first : Int} {bad : List Int} {T : Timetable} {os cs es : List Int}
    {s s' d₀ : Int} (lo hi : Int) (hc : ByClock x z first bad T) (hz : Tame z) (hT : TimesIn T os cs es)
    (h : withinDayB os cs es s' = true) (ho : offsetsFromB z d₀ lo hi = true) (hw : withinUtcB os cs es lo hi s = true) :
    UtcDates x z first bad d₀ s := by
  intro start stop b h1 h2 h3 hb t ht hopen d hd
  have hin := offsetAt_inForce hz t
  have hr : Reads z t (t + z.offsetAt t) := ⟨_, hin, rfl⟩
  have hbd := offset_bounds hz ho ht hin
  have ha := hc start stop b h1 h2 h3 hb t _ hr
  obtain ⟨r, hr, hi'⟩ := ha.isOpenIgnoringBreaks
  rw [hopen] at hr
  cases hr
  obtain ⟨d', hd'⟩ := hi'.1 rfl
  have hl := label_of_hours hT h ha hd'
  obtain ⟨-, ⟨o, hoo, g1⟩, c, hcc, g2⟩ := hd'
  obtain ⟨w1, w2⟩ := (Bool.and_eq_true _ _).mp hw
  have g3 := of_decide_eq_true (List.all_eq_true.1 w1 o (hT.opens d' o hoo))
  have g4 : c + s < DAY + lo := by
    have w2 := List.all_eq_true.1 w2 c
    simp only [decide_eq_true_iff] at w2
    rcases hcc with ⟨he, -⟩ | ⟨-, hc⟩
    · exact w2 (List.mem_append_right _ (hT.early d' c he))
    · exact w2 (List.mem_append_left _ (hT.closes d' c hc))
  have : ShowsDate s t d' := by
    unfold ShowsDate
    simp only [DAY] at *
    omega
  rw [showsDate_unique hd this]
  exact hl

/-- A trading day is open at its opening, with its own label. -/
theorem session_opens {x : Exchange} {z : Tz} {first : Int} {bad : List Int} {T : Timetable} {os cs es : List Int} {s : Int}
    (hk : KeepsHours x z first bad T) (hc : ConstructibleFrom x z first bad) (hclk : ByClock x z first bad T)
    (hT : TimesIn T os cs es) (h : withinDayB os cs es s = true) {start stop : Int} {b : Built} (h1 : first * DAY ≤ start)
    (h2 : DAY ∣ start) (h3 : ∀ d ∈ bad, d * DAY < start ∨ stop < d * DAY) (hb : build (x.config z) start stop = .ok b)
    {d : Int} (hd : TradesOn x d) (h4 : start ≤ d * DAY) (h5 : d * DAY ≤ stop) :
    ∃ t o, T.opens d o ∧ OnlyInstant z (d * DAY + o) t ∧ b.cal.isOpenOnMinute t true = .ok true ∧
      b.cal.sessionLabelFresh t "next" = .ok (d * DAY) := by
  obtain ⟨b', hb', ss, hss, -, hreg, -, hl, -⟩ := (hc start stop h1 h2).succeeds h3 ⟨d, h4, h5, hd⟩
  rw [hb] at hb'
  cases hb'
  obtain ⟨⟨ss', hss', hkd⟩, -⟩ := hk start stop b h1 h2 h3 hb
  have hlab : ss.map (·.label) = ss'.map (·.label) := by
    have : b.cal.sessions = b.cal.sessions := rfl
    conv at this => lhs; rw [hss]
    conv at this => rhs; rw [hss']
    exact this
  have hop : ss'.map (·.open) = ss.map (·.open) := by
    have : b.cal.opens = b.cal.opens := rfl
    conv at this => lhs; rw [hss']
    conv at this => rhs; rw [hss]
    exact this
  have hmem := (hl (d * DAY)).2 ⟨d, rfl, h4, h5, hd⟩
  rw [hlab] at hmem
  obtain ⟨r, hr, hrd⟩ := List.mem_map.1 hmem
  obtain ⟨d', hk'⟩ := hkd r hr
  have hl' := hk'.label
  have : d' = d := by rw [hrd] at hl'; simp only [DAY] at hl'; omega
  subst this
  obtain ⟨o, ho, hi⟩ := hk'.opens
  have hmem : r.open ∈ ss'.map (·.open) := List.mem_map_of_mem hr
  rw [hop] at hmem
  obtain ⟨r', hr', e⟩ := List.mem_map.1 hmem
  have hopen := (Props.c31_accessors hreg hr').2.2.2.2.2.1
  rw [e, ← hss] at hopen
  have ha := hclk start stop b h1 h2 h3 hb r.open _ hi.1
  obtain ⟨v, hv, hvi⟩ := ha.isOpen
  rw [hopen] at hv
  cases hv
  obtain ⟨d'', hh, -⟩ := hvi.1 rfl
  obtain ⟨v, hv, hvi⟩ := ha.isOpenIgnoringBreaks
  have hvt := hvi.2 ⟨d'', hh⟩
  subst hvt
  have hw : ShowsDate s (d' * DAY + o) d' := by
    have h4 := of_decide_eq_true (List.all_eq_true.1 ((Bool.and_eq_true _ _).mp h).1 o (hT.opens d' o ho))
    unfold ShowsDate
    simp only [DAY] at *
    omega
  have hdd := showsDate_unique (hours_date hT h hh) hw
  subst hdd
  exact ⟨r.open, o, ho, hi, hv, label_of_hours hT h ha hh⟩

/-- At the opening the offset is more than the local time of day: it is the day before in UTC. -/
theorem dayBefore_of {x : Exchange} {z : Tz} {first : Int} {bad : List Int} {T : Timetable} {os cs es : List Int} {s d : Int}
    (hk : KeepsHours x z first bad T) (hc : ConstructibleFrom x z first bad) (hclk : ByClock x z first bad T)
    (hT : TimesIn T os cs es) (h : withinDayB os cs es s = true) (hd : TradesOn x d)
    (ho : ∀ o t, T.opens d o → first * DAY ≤ d * DAY → OnlyInstant z (d * DAY + o) t → d * DAY - DAY ≤ t ∧ t < d * DAY) :
    OpensDayBefore x z first bad d := by
  intro start stop b h1 h2 h3 hb h4 h5
  obtain ⟨t, o, hto, hi, g1, g2⟩ := session_opens hk hc hclk hT h h1 h2 h3 hb hd h4 h5
  refine ⟨t, g1, g2, ?_⟩
  have := ho o t hto (by omega) hi
  unfold ShowsDate
  simp only [DAY] at *
  omega

/-- On a certain day. -/
theorem dayBefore_on {x : Exchange} {z : Tz} {first : Int} {bad : List Int} {T : Timetable} {os cs es : List Int} {s d : Int}
    (u : Int) (hk : KeepsHours x z first bad T) (hc : ConstructibleFrom x z first bad) (hclk : ByClock x z first bad T)
    (hT : TimesIn T os cs es) (h : withinDayB os cs es s = true) (hx : GoodRules x.regular) (hz : Tame z)
    (hd : x.tradesB d = true) (hu : (os.all fun o => decide (u + z.offsetAt u = d * DAY + o)) = true)
    (hr : d * DAY - DAY ≤ u ∧ u < d * DAY) : OpensDayBefore x z first bad d := by
  refine dayBefore_of hk hc hclk hT h ((tradesB_iff hx d).1 hd) fun o t hto _ hi => ?_
  have := of_decide_eq_true (List.all_eq_true.1 hu o (hT.opens d o hto))
  rw [← hi.2 u ((reads_iff hz u _).2 this)]
  exact hr

/-- Always. -/
theorem dayBefore_always {x : Exchange} {z : Tz} {first : Int} {bad : List Int} {T : Timetable} {os cs es : List Int}
    {s : Int} (lo hi : Int) (hk : KeepsHours x z first bad T) (hc : ConstructibleFrom x z first bad)
    (hclk : ByClock x z first bad T) (hT : TimesIn T os cs es) (h : withinDayB os cs es s = true) (hz : Tame z)
    (hof : offsetsFromB z (first - 3) lo hi = true)
    (hb : (os.all fun o => decide (-DAY ≤ o ∧ o < lo ∧ hi ≤ o + DAY)) = true) {d : Int} (hd : TradesOn x d) :
    OpensDayBefore x z first bad d := by
  refine dayBefore_of hk hc hclk hT h hd fun o t hto hfd hin => ?_
  obtain ⟨off, hoff, he⟩ := hin.1
  have h1 := of_decide_eq_true (List.all_eq_true.1 hb o (hT.opens d o hto))
  have h3 := offsetAt_bound hz t
  rw [← OffsetInForce.unique hz hoff (offsetAt_inForce hz t)] at h3
  have h4 := offset_bounds hz hof (u := t) (by simp only [DAY] at *; omega) hoff
  simp only [DAY] at *
  omega

/-- A case: the calendar for 2019 can be built, and on its day `d` it opens when the clocks show that date. -/
theorem date_case {x : Exchange} {z : Tz} {first : Int} {bad : List Int} {T : Timetable} {os cs es : List Int} {s : Int} (d : Int)
    (hk : KeepsHours x z first bad T) (hc : ConstructibleFrom x z first bad) (hclk : ByClock x z first bad T)
    (hT : TimesIn T os cs es) (h : withinDayB os cs es s = true) (hx : GoodRules x.regular) (hd : x.tradesB d = true)
    (hf : first ≤ dayOf 2019 1 1) (hr : dayOf 2019 1 1 ≤ d ∧ d ≤ dayOf 2019 12 31)
    (hb : ∀ d ∈ bad, d < dayOf 2019 1 1 ∨ dayOf 2019 12 31 < d) :
    ∃ b t w, build (x.config z) (dayOf 2019 1 1 * DAY) (dayOf 2019 12 31 * DAY) = .ok b ∧ Reads z t w ∧
      b.cal.isOpenOnMinute t true = .ok true ∧ ShowsDate s w d := by
  have mono : ∀ a b : Int, a ≤ b → a * DAY ≤ b * DAY := fun a b h => by simp only [DAY]; omega
  have mono' : ∀ a b : Int, a < b → a * DAY < b * DAY := fun a b h => by simp only [DAY]; omega
  have hdv : DAY ∣ dayOf 2019 1 1 * DAY := Int.dvd_mul_left ..
  have hbad := fun d hd => (hb d hd).imp (mono' d _) (mono' _ d)
  have hd' := (tradesB_iff hx d).1 hd
  obtain ⟨b, hbuild, -⟩ := (hc (dayOf 2019 1 1 * DAY) (dayOf 2019 12 31 * DAY) (mono _ _ hf) hdv).succeeds hbad
    ⟨d, mono _ _ hr.1, mono _ _ hr.2, hd'⟩
  obtain ⟨t, o, ho, hi, hopen, -⟩ :=
    session_opens hk hc hclk hT h (mono _ _ hf) hdv hbad hbuild hd' (mono _ _ hr.1) (mono _ _ hr.2)
  refine ⟨b, t, _, hbuild, hi.1, hopen, ?_⟩
  have h4 := of_decide_eq_true (List.all_eq_true.1 ((Bool.and_eq_true _ _).mp h).1 o (hT.opens d o ho))
  unfold ShowsDate
  simp only [DAY] at *
  omega

end TC
