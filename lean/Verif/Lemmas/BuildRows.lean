import Verif.Lemmas.BuildTimes

namespace TC
open Spec

/-- The stages of a successful construction of the schedule. -/
theorem schedule_parts {cfg : Config} {start stop : Int} {b : Schedule}
    (h : buildSchedule cfg start stop = .ok b) :
    ∃ opens0 bs0 be0 closes0 bs be,
      groupTimes b.cal.sessions cfg.openTimes cfg.tz cfg.openOffset = .ok opens0 ∧
      groupTimesOpt b.cal.sessions cfg.breakStartTimes cfg.tz = .ok bs0 ∧
      groupTimesOpt b.cal.sessions cfg.breakEndTimes cfg.tz = .ok be0 ∧
      groupTimes b.cal.sessions cfg.closeTimes cfg.tz cfg.closeOffset = .ok closes0 ∧
      specialDates cfg.specialOpens cfg.specialOpensAdhoc cfg.tz start stop
        = .ok b.specialOpens ∧
      specialDates cfg.specialCloses cfg.specialClosesAdhoc cfg.tz start stop
        = .ok b.specialCloses ∧
      overwriteSpecialDates b.cal.sessions opens0 b.specialOpens = .ok b.cal.opens ∧
      overwriteSpecialDates b.cal.sessions closes0 b.specialCloses = .ok b.cal.closes ∧
      removeBreaksForSpecialDates b.cal.sessions bs0 b.specialCloses = .ok bs ∧
      removeBreaksForSpecialDates b.cal.sessions be0 b.specialCloses = .ok be ∧
      b.cal.breakStarts = bs.getD (b.cal.sessions.map fun _ => NP_NAT) ∧
      b.cal.breakEnds = be.getD (b.cal.sessions.map fun _ => NP_NAT) ∧
      b.cal.opens.length = b.cal.sessions.length ∧
      b.cal.breakStarts.length = b.cal.sessions.length ∧
      b.cal.breakEnds.length = b.cal.sessions.length ∧
      b.cal.closes.length = b.cal.sessions.length ∧
      checkBreaksMatch b.cal.breakStarts b.cal.breakEnds = .ok () ∧
      b.cal.sessions = dateRange cfg.isBusinessDay start stop := by
  unfold buildSchedule at h
  simp only [bind_ok_iff] at h
  obtain ⟨opens0, h1, bs0, h2, be0, h3, closes0, h4, so, h5, sc, h6, opens, h7, closes, h8, bs, h9,
    be, h10, h⟩ := h
  split at h
  · cases h
  · next hl =>
    simp only [bind_ok_iff] at h
    obtain ⟨u, h11, h17⟩ := h
    simp only [not_or, ne_eq, Decidable.not_not] at hl
    cases h17
    exact ⟨opens0, bs0, be0, closes0, bs, be, h1, h2, h3, h4, h5, h6, h7, h8, h9, h10, rfl,
      rfl, hl.1, hl.2.1, hl.2.2.1, hl.2.2.2, h11, rfl⟩

/-- The stages of a successful construction. -/
theorem build_parts {cfg : Config} {start stop : Int} {b : Built} (h : build cfg start stop = .ok b) :
    ∃ sch, buildSchedule cfg start stop = .ok sch ∧ b.cal = sch.cal ∧
      (∃ ms, computeAllMinutes b.cal.opens b.cal.breakStarts b.cal.breakEnds b.cal.closes = .ok ms) ∧
      pyIndex b.cal.sessions 0 = .ok b.firstTradingSession ∧
      pyIndex b.cal.sessions (-1) = .ok b.lastTradingSession ∧
      mapToLabels b.cal sch.specialOpens = .ok b.lateOpens ∧
      mapToLabels b.cal sch.specialCloses = .ok b.earlyCloses := by
  unfold build at h
  simp only [bind_ok_iff] at h
  obtain ⟨sch, h1, ms, h12, first, h13, last, h14, lo, h15, ec, h16, h17⟩ := h
  cases h17
  exact ⟨sch, h1, rfl, ⟨ms, h12⟩, h13, h14, h15, h16⟩

theorem mem_rowsOf {c : Cal} {s : Session} (h : s ∈ rowsOf c) :
    ∃ i, i < c.sessions.length ∧ s = { label := c.sessions.getD i 0
                                       «open» := c.opens.getD i 0
                                       brk := if c.breakStarts.getD i 0 = NP_NAT then none
                                         else some (c.breakStarts.getD i 0, c.breakEnds.getD i 0)
                                       close := c.closes.getD i 0 } := by
  unfold rowsOf at h
  rw [List.mem_map] at h
  obtain ⟨i, hi, rfl⟩ := h
  exact ⟨i, List.mem_range.mp hi, rfl⟩

theorem checkBreaksMatch_ok {bs be : List Int} (h : checkBreaksMatch bs be = .ok ())
    {i : Nat} (hi : i < bs.length) (hi' : i < be.length) : bs[i] = NP_NAT ↔ be[i] = NP_NAT := by
  unfold checkBreaksMatch at h
  split at h
  · next ha =>
    rw [List.all_eq_true] at ha
    have hz : i < (bs.zip be).length := by rw [List.length_zip]; omega
    have := ha ((bs.zip be)[i]) (List.getElem_mem hz)
    rw [List.getElem_zip] at this
    simp only [beq_iff_eq] at this
    have h2 : (NP_NAT = bs[i]) ↔ (NP_NAT = be[i]) := by
      have := congrArg (· = true) this
      simpa using this
    constructor
    · intro e; exact (h2.mp e.symm).symm
    · intro e; exact (h2.mpr e.symm).symm
  · cases h

theorem ofSessions_rowsOf {c : Cal} (ho : c.opens.length = c.sessions.length)
    (hbs : c.breakStarts.length = c.sessions.length)
    (hbe : c.breakEnds.length = c.sessions.length) (hc : c.closes.length = c.sessions.length)
    (hm : checkBreaksMatch c.breakStarts c.breakEnds = .ok ()) :
    Cal.ofSessions (rowsOf c) = c := by
  have hlen : (rowsOf c).length = c.sessions.length := by simp [rowsOf]
  unfold Cal.ofSessions
  cases c with
  | mk sessions opens breakStarts breakEnds closes =>
    simp only at *
    congr 1
    · apply List.ext_getElem
      · simp [hlen]
      · intro i h1 h2
        simp [rowsOf, h2]
    · apply List.ext_getElem
      · simp [hlen, ho]
      · intro i h1 h2
        simp [rowsOf, h2]
    · apply List.ext_getElem
      · simp [hlen, hbs]
      · intro i h1 h2
        simp only [rowsOf, List.getElem_map, List.getElem_range]
        by_cases he : breakStarts[i] = NP_NAT
        · simp [h2, he]
        · simp [h2, he]
    · apply List.ext_getElem
      · simp [hlen, hbe]
      · intro i h1 h2
        have hi : i < breakStarts.length := by omega
        have := checkBreaksMatch_ok hm hi h2
        simp only [rowsOf, List.getElem_map, List.getElem_range]
        by_cases he : breakStarts[i] = NP_NAT
        · simp [hi, he, this.mp he]
        · simp [hi, h2, he]
    · apply List.ext_getElem
      · simp [hlen, hc]
      · intro i h1 h2
        simp [rowsOf, h2]

theorem standard_of_group {days : List Int} (hs : SortedLT days) {table : TimeTable}
    (hv : ValidTable table) {z : Tz} (hz : Tame z) {offset : Int} {col : List Int}
    (h : groupTimes days table z offset = .ok col) {i : Nat} (hi : i < days.length)
    (hi' : i < col.length) : StandardTime z table offset days[i] col[i] := by
  rw [groupTimes_eq hs hv, mapM_ok_iff] at h
  have := h.2 i hi hi'
  rw [localize_ok_iff hz, ← Int.add_assoc] at this
  exact ⟨_, timeAt_inEffect hv _, this⟩

/-- The facts about one row of the built schedule. -/
structure RowFacts (cfg : Config) (start stop : Int) (s : Session) : Prop where
  openSpecial : ∀ u, SpecialOpen cfg start stop s.label u →
    SpecialOpen cfg start stop s.label s.open
  openStandard : (∀ u, ¬ SpecialOpen cfg start stop s.label u) →
    StandardTime cfg.tz cfg.openTimes cfg.openOffset s.label s.open
  closeSpecial : ∀ u, SpecialClose cfg start stop s.label u →
    SpecialClose cfg start stop s.label s.close
  closeStandard : (∀ u, ¬ SpecialClose cfg start stop s.label u) →
    StandardTime cfg.tz cfg.closeTimes cfg.closeOffset s.label s.close
  brkSpecial : ∀ u, SpecialClose cfg start stop s.label u → s.brk = none
  brkStandard : (∀ u, ¬ SpecialClose cfg start stop s.label u) →
    ∀ bt et, cfg.breakStartTimes = some bt → cfg.breakEndTimes = some et →
      ∃ b e, s.brk = some (b, e) ∧ StandardTime cfg.tz bt 0 s.label b ∧
        StandardTime cfg.tz et 0 s.label e
  brkNone : cfg.breakStartTimes = none → s.brk = none
  brkBoth : (∀ u, ¬ SpecialClose cfg start stop s.label u) →
    (cfg.breakStartTimes.isSome ↔ cfg.breakEndTimes.isSome)

theorem standard_gt_nat {cfg : Config} {start : Int} (hz : Tame cfg.tz)
    (hlow : NP_NAT + 3 * DAY ≤ start) {table : TimeTable} (ht : ∀ e ∈ table, -DAY ≤ e.2)
    {label u : Int} (hl : start ≤ label) (h : StandardTime cfg.tz table 0 label u) : u ≠ NP_NAT := by
  obtain ⟨t, hte, hu⟩ := h
  obtain ⟨e, he, rfl⟩ := TimeInEffect.mem hte
  have := only_near hz hu
  have := ht e he
  have := DAY_pos
  omega

/-- One break column: `NaT` on special closes and without a table, the standard time otherwise. -/
theorem break_column {labels : List Int} (hs : SortedLT labels) {z : Tz} (hz : Tame z)
    {times : Option TimeTable} (hv : ∀ table, times = some table → ValidTable table)
    {sc : List (Int × Int)} {col0 col1 : Option (List Int)}
    (hg : groupTimesOpt labels times z = .ok col0)
    (hr : removeBreaksForSpecialDates labels col0 sc = .ok col1)
    {col : List Int} (hcol : col = col1.getD (labels.map fun _ => NP_NAT))
    (hlen : col.length = labels.length) {i : Nat} (hi : i < labels.length) :
    ((∃ e ∈ sc, e.1 = labels[i]) → col[i] = NP_NAT) ∧
    (times = none → col[i] = NP_NAT) ∧
    ((∀ e ∈ sc, e.1 ≠ labels[i]) → ∀ table, times = some table →
      StandardTime z table 0 labels[i] col[i]) := by
  cases times with
  | none =>
    cases hg
    cases hr
    subst hcol
    simp
  | some table =>
    unfold groupTimesOpt at hg
    simp only [map_ok_iff] at hg
    obtain ⟨c0, hg, rfl⟩ := hg
    have hc1 : ∃ c1, col1 = some c1 := by
      unfold removeBreaksForSpecialDates at hr
      simp only at hr
      split at hr
      · cases hr; exact ⟨_, rfl⟩
      · split at hr
        · cases hr
        · split at hr
          · cases hr
          · cases hr; exact ⟨_, rfl⟩
    obtain ⟨c1, rfl⟩ := hc1
    simp only [Option.getD_some] at hcol
    subst hcol
    obtain ⟨hl, hrow⟩ := removeBreaks_spec hs hr hlen
    refine ⟨fun he => ?_, (fun h => by cases h), fun hno table' ht => ?_⟩
    · rcases hrow i hi with ⟨_, h⟩ | ⟨hno, _⟩
      · exact h
      · obtain ⟨e, he, heq⟩ := he
        exact absurd heq (hno e he)
    · cases ht
      rcases hrow i hi with ⟨⟨e, he, heq⟩, _⟩ | ⟨_, h⟩
      · exact absurd heq (hno e he)
      · rw [h]
        exact standard_of_group hs (hv _ rfl) hz hg hi (by omega)

theorem schedule_rows_any {cfg : Config} {start stop : Int} {b : Schedule}
    (h : buildSchedule cfg start stop = .ok b) (hwf : TablesFit cfg start) :
    Cal.ofSessions (rowsOf b.cal) = b.cal ∧ ∀ s ∈ rowsOf b.cal, RowFacts cfg start stop s := by
  obtain ⟨opens0, bs0, be0, closes0, bs, be, h1, h2, h3, h4, h5, h6, h7, h8, h9, h10, hbs,
    hbe, lo, lbs, lbe, lc, hchk, hdays⟩ := schedule_parts h
  generalize b.specialOpens = so at *
  generalize b.specialCloses = sc at *
  refine ⟨ofSessions_rowsOf lo lbs lbe lc hchk, fun s hsm => ?_⟩
  obtain ⟨hsort, hmem⟩ := dateRange_any cfg.isBusinessDay start stop
  rw [← hdays] at hsort hmem
  obtain ⟨_, hso⟩ := specialDates_spec hwf.tz h5
  obtain ⟨_, hsc⟩ := specialDates_spec hwf.tz h6
  obtain ⟨i, hi, hs⟩ := mem_rowsOf hsm
  obtain ⟨_, lo0, hrow⟩ := overwrite_spec hsort h7 lo
  obtain ⟨_, lc0, hrowc⟩ := overwrite_spec hsort h8 lc
  have hlab : s.label = b.cal.sessions[i] := by rw [hs]; simp [hi]
  have hop : s.open = b.cal.opens[i] := by rw [hs]; simp [hi, lo]
  have hcl : s.close = b.cal.closes[i] := by rw [hs]; simp [hi, lc]
  have hbk : s.brk = if b.cal.breakStarts[i] = NP_NAT then none
      else some (b.cal.breakStarts[i], b.cal.breakEnds[i]) := by
    rw [hs]; simp [hi, lbs, lbe]
  have hge : start ≤ s.label := by
    obtain ⟨k, hk, hk', _⟩ := (hmem s.label).mp (by rw [hlab]; exact List.getElem_mem _)
    exact hk'
  have hbsf := break_column hsort hwf.tz hwf.breakStartTable h2 h9 hbs lbs hi
  have hbef := break_column hsort hwf.tz hwf.breakEndTable h3 h10 hbe lbe hi
  rw [← hlab] at hbsf hbef
  have hmatch := checkBreaksMatch_ok hchk (i := i) (by omega) (by omega)
  have spc : (∃ u, SpecialClose cfg start stop s.label u) ↔ ∃ e ∈ sc, e.1 = s.label := by
    constructor
    · rintro ⟨u, hu⟩
      exact ⟨(s.label, u), (hsc _ _).mpr hu, rfl⟩
    · rintro ⟨⟨l, u⟩, he, rfl⟩
      exact ⟨u, (hsc _ _).mp he⟩
  have nsp : (∀ u, ¬ SpecialClose cfg start stop s.label u) → ∀ e ∈ sc, e.1 ≠ s.label :=
    fun hn e he heq => by
      obtain ⟨u, hu⟩ := spc.mpr ⟨e, he, heq⟩
      exact hn u hu
  have bsNe : (∀ u, ¬ SpecialClose cfg start stop s.label u) → ∀ bt, cfg.breakStartTimes = some bt →
      b.cal.breakStarts[i] ≠ NP_NAT := fun hn bt hbt =>
    standard_gt_nat hwf.tz hwf.low (fun e he => hwf.breakStartLow _ ⟨bt, hbt, e, he, rfl⟩) hge
      (hbsf.2.2 (nsp hn) bt hbt)
  have beNe : (∀ u, ¬ SpecialClose cfg start stop s.label u) → ∀ bt, cfg.breakEndTimes = some bt →
      b.cal.breakEnds[i] ≠ NP_NAT := fun hn bt hbt =>
    standard_gt_nat hwf.tz hwf.low (fun e he => hwf.breakEndLow _ ⟨bt, hbt, e, he, rfl⟩) hge
      (hbef.2.2 (nsp hn) bt hbt)
  constructor
  · intro u hu
    rw [hop]
    rcases hrow i hi with ⟨e, he, h1, h2⟩ | ⟨hno, _⟩
    · have := (hso e.1 e.2).mp he
      rw [h2, hlab, ← h1]; exact this
    · exact absurd hlab (hno _ ((hso s.label u).mpr hu))
  · intro hn
    rw [hop, hlab]
    rcases hrow i hi with ⟨e, he, h1, h2⟩ | ⟨_, hr⟩
    · exact absurd ((hso e.1 e.2).mp he) (by rw [h1, ← hlab]; exact hn _)
    · rw [hr]
      exact standard_of_group hsort hwf.openTable hwf.tz h1 hi (by omega)
  · intro u hu
    rw [hcl]
    rcases hrowc i hi with ⟨e, he, h1, h2⟩ | ⟨hno, _⟩
    · have := (hsc e.1 e.2).mp he
      rw [h2, hlab, ← h1]; exact this
    · exact absurd hlab (hno _ ((hsc s.label u).mpr hu))
  · intro hn
    rw [hcl, hlab]
    rcases hrowc i hi with ⟨e, he, h1, h2⟩ | ⟨_, hr⟩
    · exact absurd ((hsc e.1 e.2).mp he) (by rw [h1, ← hlab]; exact hn _)
    · rw [hr]
      exact standard_of_group hsort hwf.closeTable hwf.tz h4 hi (by omega)
  · intro u hu
    rw [hbk, if_pos (hbsf.1 (spc.mp ⟨u, hu⟩))]
  · intro hn bt et hbt het
    rw [hbk, if_neg (bsNe hn bt hbt)]
    exact ⟨_, _, rfl, hbsf.2.2 (nsp hn) bt hbt, hbef.2.2 (nsp hn) et het⟩
  · intro hn
    rw [hbk, if_pos (hbsf.2.1 hn)]
  · intro hn
    constructor
    · intro hsome
      obtain ⟨bt, hbt⟩ := Option.isSome_iff_exists.mp hsome
      cases het : cfg.breakEndTimes with
      | some _ => rfl
      | none => exact absurd (hmatch.mpr (hbef.2.1 het)) (bsNe hn bt hbt)
    · intro hsome
      obtain ⟨bt, hbt⟩ := Option.isSome_iff_exists.mp hsome
      cases het : cfg.breakStartTimes with
      | some _ => rfl
      | none => exact absurd (hmatch.mp (hbsf.2.1 het)) (beNe hn bt hbt)

theorem schedule_rows {cfg : Config} {start stop : Int} {b : Schedule}
    (h : buildSchedule cfg start stop = .ok b) (hwf : WellFormed cfg start) :
    Cal.ofSessions (rowsOf b.cal) = b.cal ∧ ∀ s ∈ rowsOf b.cal, RowFacts cfg start stop s :=
  schedule_rows_any h hwf.toTablesFit

end TC
