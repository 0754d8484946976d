import Verif.Lemmas.BuildRegular

namespace TC
open Spec

theorem mapM_exists {α β : Type} {f : α → Py β} : ∀ {xs : List α},
    (∀ x ∈ xs, ∃ y, f x = .ok y) → ∃ ys, xs.mapM f = .ok ys
  | [], _ => ⟨[], rfl⟩
  | x :: xs, h => by
    obtain ⟨y, hy⟩ := h x (by simp)
    obtain ⟨ys, hys⟩ := mapM_exists (xs := xs) (fun x' hx' => h x' (List.mem_cons_of_mem _ hx'))
    refine ⟨y :: ys, ?_⟩
    rw [List.mapM_cons, hy, hys]
    rfl

theorem group_exists {days : List Int} (hs : SortedLT days) {table : TimeTable}
    (hv : ValidTable table) {z : Tz} (hz : Tame z) {offset : Int}
    (h : ∀ l ∈ days, ∀ t, TimeInEffect table l t → ∃ u, OnlyInstant z (l + offset * DAY + t) u) :
    ∃ col, groupTimes days table z offset = .ok col ∧ col.length = days.length := by
  rw [groupTimes_eq hs hv]
  obtain ⟨col, hcol⟩ := mapM_exists (xs := days)
    (f := fun d => z.localize (d + (offset * DAY + timeAt table d))) (fun d hd => by
      obtain ⟨u, hu⟩ := h d hd _ (timeAt_inEffect hv d)
      refine ⟨u, ?_⟩
      rw [localize_ok_iff hz, ← Int.add_assoc]
      exact hu)
  exact ⟨col, hcol, (mapM_ok_iff.mp hcol).1⟩

theorem groupOpt_exists {days : List Int} (hs : SortedLT days) {times : Option TimeTable}
    (hv : ∀ table, times = some table → ValidTable table) {z : Tz} (hz : Tame z)
    (h : ∀ table, times = some table → ∀ l ∈ days, ∀ t, TimeInEffect table l t →
      ∃ u, OnlyInstant z (l + 0 * DAY + t) u) :
    ∃ col, groupTimesOpt days times z = .ok col ∧ ∀ c, col = some c → c.length = days.length := by
  cases times with
  | none => exact ⟨none, rfl, by simp⟩
  | some table =>
    obtain ⟨col, hcol, hl⟩ := group_exists hs (hv table rfl) hz (h table rfl)
    refine ⟨some col, ?_, fun c hc => by cases hc; exact hl⟩
    unfold groupTimesOpt
    simp only
    rw [hcol]
    rfl

theorem specialDates_exists {rules : List (Int × HolidayFn)} {adHoc : List (Int × List Int)}
    {z : Tz} (hz : Tame z) {start stop : Int}
    (h : ∀ l t, SpecialTime rules adHoc start stop l t → ∃ u, OnlyInstant z (l + t) u) :
    ∃ sp, specialDates rules adHoc z start stop = .ok sp := by
  unfold specialDates
  obtain ⟨reg, hreg⟩ := mapM_exists (xs := rules)
    (f := fun c => scheduledSpecialTimes c.2 start stop c.1 z) (fun c hc => by
      unfold scheduledSpecialTimes daysAtTime
      obtain ⟨ts, hts⟩ := mapM_exists (xs := c.2 start stop)
        (f := fun d => z.localize (d + (0 * DAY + c.1))) (fun d hd => by
          obtain ⟨u, hu⟩ := h d c.1 (Or.inl ⟨c.2, hc, hd⟩)
          refine ⟨u, ?_⟩
          rw [localize_ok_iff hz]
          simpa using hu)
      simp only [hts]
      exact ⟨_, rfl⟩)
  obtain ⟨adh, hadh⟩ := mapM_exists (xs := adHoc)
    (f := fun c => adHocSpecialTimes c.2 c.1 z) (fun c hc => by
      unfold adHocSpecialTimes daysAtTime
      obtain ⟨ts, hts⟩ := mapM_exists (xs := c.2)
        (f := fun d => z.localize (d + (0 * DAY + c.1))) (fun d hd => by
          obtain ⟨u, hu⟩ := h d c.1 (Or.inr ⟨c.2, hc, hd⟩)
          refine ⟨u, ?_⟩
          rw [localize_ok_iff hz]
          simpa using hu)
      simp only [hts]
      exact ⟨_, rfl⟩)
  simp only [hreg, hadh, bind, Except.bind]
  split
  · exact ⟨_, rfl⟩
  · exact ⟨_, rfl⟩

theorem overwrite_exists {labels column : List Int} (hl : labels.length = column.length)
    {sp : List (Int × Int)} (hin : ∀ e ∈ sp, e.1 ∈ labels) (hs : SortedLT labels) :
    ∃ column', overwriteSpecialDates labels column sp = .ok column' ∧
      column'.length = labels.length := by
  unfold overwriteSpecialDates
  split
  · exact ⟨_, rfl, hl.symm⟩
  · rw [if_neg (by simpa using hl)]
    simp only
    split
    · next hm =>
      obtain ⟨l, hl', hn⟩ := getIndexer_missing hm
      obtain ⟨e, he, rfl⟩ := List.mem_map.mp hl'
      exact absurd (hin e he) hn
    · obtain ⟨h1, _⟩ := assign_rows hs hl sp (·.2) hin
      exact ⟨_, rfl, by rw [h1]; exact hl.symm⟩

theorem overwrite_missing {labels column : List Int} (hl : labels.length = column.length)
    {sp : List (Int × Int)} (hin : ∃ e ∈ sp, e.1 ∉ labels) :
    overwriteSpecialDates labels column sp
      = .error (.valueError "Special dates are not trading days.") := by
  obtain ⟨e, he, hn⟩ := hin
  unfold overwriteSpecialDates
  rw [if_neg (by rintro rfl; simp at he), if_neg (by simpa using hl)]
  simp only
  split
  · rfl
  · next hm =>
    exact absurd (getIndexer_no_missing (by simpa using hm) e.1 (List.mem_map.mpr ⟨e, he, rfl⟩)) hn

theorem remove_exists {labels : List Int} {column : Option (List Int)}
    (hl : ∀ c, column = some c → c.length = labels.length)
    {sp : List (Int × Int)} (hin : ∀ e ∈ sp, e.1 ∈ labels) (hs : SortedLT labels) :
    ∃ column', removeBreaksForSpecialDates labels column sp = .ok column' ∧
      (column'.getD (labels.map fun _ => NP_NAT)).length = labels.length := by
  cases column with
  | none => exact ⟨none, rfl, by simp⟩
  | some c =>
    have hlc := (hl c rfl).symm
    unfold removeBreaksForSpecialDates
    simp only
    split
    · exact ⟨_, rfl, by simpa using hlc.symm⟩
    · rw [if_neg (by simpa using hlc)]
      split
      · next hm =>
        obtain ⟨l, hl', hn⟩ := getIndexer_missing hm
        obtain ⟨e, he, rfl⟩ := List.mem_map.mp hl'
        exact absurd (hin e he) hn
      · obtain ⟨h1, _⟩ := assign_rows hs hlc sp (fun _ => NP_NAT) hin
        have e2 : (getIndexer labels (sp.map (·.1))).map (fun _ => NP_NAT)
            = sp.map (fun _ => NP_NAT) := by simp [getIndexer, List.map_map, Function.comp_def]
        refine ⟨_, rfl, ?_⟩
        rw [e2]
        simp only [Option.getD_some]
        rw [h1]; exact hlc.symm

theorem checkBreaksMatch_of {bs be : List Int} (hl : bs.length = be.length)
    (h : ∀ i (hi : i < bs.length), bs[i] = NP_NAT ↔ be[i] = NP_NAT) :
    checkBreaksMatch bs be = .ok () := by
  unfold checkBreaksMatch
  rw [if_pos]
  rw [List.all_eq_true]
  intro p hp
  obtain ⟨i, hi, rfl⟩ := List.getElem_of_mem hp
  rw [List.length_zip] at hi
  rw [List.getElem_zip]
  have := h i (by omega)
  simp only [beq_iff_eq]
  by_cases hb : bs[i]'(by omega) = NP_NAT
  · simp [hb, this.mp hb]
  · have hb2 : ¬ be[i]'(by omega) = NP_NAT := fun h2 => hb (this.mpr h2)
    have e1 : (NP_NAT == bs[i]'(by omega)) = false := by
      simp only [beq_eq_false_iff_ne]; exact fun h => hb h.symm
    have e2 : (NP_NAT == be[i]'(by omega)) = false := by
      simp only [beq_eq_false_iff_ne]; exact fun h => hb2 h.symm
    rw [e1, e2]

/-- The first stages succeed when all clock readings are unambiguous. -/
theorem stages_exist {cfg : Config} {start stop : Int} (hwf : WellFormed cfg start)
    (hr : Readable cfg start stop) :
    let days := dateRange cfg.isBusinessDay start stop
    (SortedLT days ∧ ∀ l, l ∈ days ↔ SessionLabel cfg start stop l) ∧
    ∃ opens0 bs0 be0 closes0 so sc,
      (groupTimes days cfg.openTimes cfg.tz cfg.openOffset = .ok opens0 ∧
        opens0.length = days.length) ∧
      (groupTimesOpt days cfg.breakStartTimes cfg.tz = .ok bs0 ∧
        ∀ c, bs0 = some c → c.length = days.length) ∧
      (groupTimesOpt days cfg.breakEndTimes cfg.tz = .ok be0 ∧
        ∀ c, be0 = some c → c.length = days.length) ∧
      (groupTimes days cfg.closeTimes cfg.tz cfg.closeOffset = .ok closes0 ∧
        closes0.length = days.length) ∧
      specialDates cfg.specialOpens cfg.specialOpensAdhoc cfg.tz start stop = .ok so ∧
      specialDates cfg.specialCloses cfg.specialClosesAdhoc cfg.tz start stop = .ok sc := by
  intro days
  obtain ⟨hs, hm0⟩ := dateRange_spec cfg.isBusinessDay (stop := stop) hwf.midnight
  have hm : ∀ l, l ∈ days ↔ SessionLabel cfg start stop l := by
    intro l
    rw [hm0]
    unfold SessionLabel
    simp only [isBusinessDay_iff]
  refine ⟨⟨hs, hm⟩, ?_⟩
  obtain ⟨opens0, h1⟩ := group_exists hs hwf.openTable hwf.tz
    (fun l hl t ht => hr.opens l t ((hm l).mp hl) ht)
  obtain ⟨closes0, h2⟩ := group_exists hs hwf.closeTable hwf.tz
    (fun l hl t ht => hr.closes l t ((hm l).mp hl) ht)
  obtain ⟨bs0, h3⟩ := groupOpt_exists hs hwf.breakStartTable hwf.tz
    (fun table he l hl t ht => hr.breakStarts l t table ((hm l).mp hl) he ht)
  obtain ⟨be0, h4⟩ := groupOpt_exists hs hwf.breakEndTable hwf.tz
    (fun table he l hl t ht => hr.breakEnds l t table ((hm l).mp hl) he ht)
  obtain ⟨so, h5⟩ := specialDates_exists hwf.tz hr.specialOpens
  obtain ⟨sc, h6⟩ := specialDates_exists hwf.tz hr.specialCloses
  exact ⟨opens0, bs0, be0, closes0, so, sc, h1, h3, h4, h2, h5, h6⟩

theorem schedule_succeeds {cfg : Config} {start stop : Int} (hwf : WellFormed cfg start)
    (hr : Readable cfg start stop)
    (hf : ∀ l u, SpecialOpen cfg start stop l u ∨ SpecialClose cfg start stop l u →
      SessionLabel cfg start stop l) :
    ∃ sch, buildSchedule cfg start stop = .ok sch := by
  obtain ⟨⟨hs, hm⟩, opens0, bs0, be0, closes0, so, sc, ⟨h1, l1⟩, ⟨h2, l2⟩, ⟨h3, l3⟩, ⟨h4, l4⟩, h5, h6⟩ :=
    stages_exist hwf hr
  obtain ⟨_, hso⟩ := specialDates_spec hwf.tz h5
  obtain ⟨_, hsc⟩ := specialDates_spec hwf.tz h6
  have hino : ∀ e ∈ so, e.1 ∈ dateRange cfg.isBusinessDay start stop := fun e he =>
    (hm _).mpr (hf _ _ (Or.inl ((hso e.1 e.2).mp he)))
  have hinc : ∀ e ∈ sc, e.1 ∈ dateRange cfg.isBusinessDay start stop := fun e he =>
    (hm _).mpr (hf _ _ (Or.inr ((hsc e.1 e.2).mp he)))
  obtain ⟨opens, h7, l7⟩ := overwrite_exists l1.symm hino hs
  obtain ⟨closes, h8, l8⟩ := overwrite_exists l4.symm hinc hs
  obtain ⟨bs, h9, l9⟩ := remove_exists l2 hinc hs
  obtain ⟨be, h10, l10⟩ := remove_exists l3 hinc hs
  have hchk : checkBreaksMatch
      (bs.getD ((dateRange cfg.isBusinessDay start stop).map fun _ => NP_NAT))
      (be.getD ((dateRange cfg.isBusinessDay start stop).map fun _ => NP_NAT)) = .ok () := by
    refine checkBreaksMatch_of (l9.trans l10.symm) (fun i hi => ?_)
    have hi' : i < (dateRange cfg.isBusinessDay start stop).length := by omega
    have f1 := break_column hs hwf.tz hwf.breakStartTable h2 h9 rfl l9 hi'
    have f2 := break_column hs hwf.tz hwf.breakEndTable h3 h10 rfl l10 hi'
    have hge : start ≤ (dateRange cfg.isBusinessDay start stop)[i] := by
      obtain ⟨d, hd, h, _⟩ := (hm _).mp (List.getElem_mem hi')
      exact h
    by_cases hsp : ∃ e ∈ sc, e.1 = (dateRange cfg.isBusinessDay start stop)[i]
    · exact iff_of_true (f1.1 hsp) (f2.1 hsp)
    · have hno : ∀ e ∈ sc, e.1 ≠ (dateRange cfg.isBusinessDay start stop)[i] :=
        fun e he heq => hsp ⟨e, he, heq⟩
      cases hb : cfg.breakStartTimes with
      | none =>
        have : cfg.breakEndTimes = none := by
          cases he : cfg.breakEndTimes with
          | none => rfl
          | some t => exact absurd (hr.paired.mpr (by rw [he]; rfl)) (by rw [hb]; simp)
        exact iff_of_true (f1.2.1 hb) (f2.2.1 this)
      | some bt =>
        obtain ⟨et, het⟩ := Option.isSome_iff_exists.mp (hr.paired.mp (by rw [hb]; rfl))
        refine iff_of_false ?_ ?_
        · exact standard_gt_nat hwf.tz hwf.low
            (fun e he => hwf.breakStartLow _ ⟨bt, hb, e, he, rfl⟩) hge (f1.2.2 hno bt hb)
        · exact standard_gt_nat hwf.tz hwf.low
            (fun e he => hwf.breakEndLow _ ⟨et, het, e, he, rfl⟩) hge (f2.2.2 hno et het)
  unfold buildSchedule
  simp only [h1, h2, h3, h4, h5, h6, h7, h8, h9, h10, bind, Except.bind]
  rw [if_neg (by simp only [not_or, ne_eq, Decidable.not_not]; exact ⟨l7, l9, l10, l8⟩), hchk]
  exact ⟨_, rfl⟩

/-- A special date that is not a session: construction raises `ValueError`. -/
theorem schedule_fails {cfg : Config} {start stop : Int} (hwf : WellFormed cfg start)
    (hr : Readable cfg start stop)
    (hf : ∃ l u, (SpecialOpen cfg start stop l u ∨ SpecialClose cfg start stop l u) ∧
      ¬ SessionLabel cfg start stop l) :
    buildSchedule cfg start stop
      = .error (.valueError "Special dates are not trading days.") := by
  obtain ⟨⟨hs, hm⟩, opens0, bs0, be0, closes0, so, sc, ⟨h1, l1⟩, ⟨h2, l2⟩, ⟨h3, l3⟩, ⟨h4, l4⟩, h5, h6⟩ :=
    stages_exist hwf hr
  obtain ⟨_, hso⟩ := specialDates_spec hwf.tz h5
  obtain ⟨_, hsc⟩ := specialDates_spec hwf.tz h6
  unfold buildSchedule
  simp only [h1, h2, h3, h4, h5, h6, bind, Except.bind]
  by_cases hbad : ∃ e ∈ so, e.1 ∉ dateRange cfg.isBusinessDay start stop
  · rw [overwrite_missing l1.symm hbad]
  · have hino : ∀ e ∈ so, e.1 ∈ dateRange cfg.isBusinessDay start stop := fun e he =>
      Decidable.byContradiction fun hn => hbad ⟨e, he, hn⟩
    obtain ⟨opens, h7, l7⟩ := overwrite_exists l1.symm hino hs
    have hbadc : ∃ e ∈ sc, e.1 ∉ dateRange cfg.isBusinessDay start stop := by
      obtain ⟨l, u, hu | hu, hn⟩ := hf
      · exact absurd ((hm l).mp (hino (l, u) ((hso l u).mpr hu))) hn
      · exact ⟨(l, u), (hsc l u).mpr hu, fun hmem => hn ((hm l).mp hmem)⟩
    simp only [h7, overwrite_missing l4.symm hbadc]

theorem minutePieces_cons (o b e c : Int) (os bs es cs : List Int) :
    minutePieces (o :: os) (b :: bs) (e :: es) (c :: cs) ≠ [] := by
  unfold minutePieces
  split <;> simp

theorem minutePieces_ne {ss : List Session} (hne : ss ≠ []) :
    minutePieces (Cal.ofSessions ss).opens (Cal.ofSessions ss).breakStarts
      (Cal.ofSessions ss).breakEnds (Cal.ofSessions ss).closes ≠ [] := by
  cases ss with
  | nil => exact absurd rfl hne
  | cons s ss => exact minutePieces_cons _ _ _ _ _ _ _ _

/-- Construction succeeds on ordered, readable configurations whose special times fit. -/
theorem build_succeeds {cfg : Config} {start stop : Int} (ho : Ordered cfg) (hz : Tame cfg.tz)
    (hmid : DAY ∣ start) (hlow : NP_NAT + 3 * DAY ≤ start) (hr : Readable cfg start stop)
    (hf : SpecialsFit cfg start stop) (hne : ∃ l, SessionLabel cfg start stop l) :
    ∃ b, build cfg start stop = .ok b := by
  have hwf := ho.wellFormed hz hmid hlow
  obtain ⟨sch, hsch⟩ := schedule_succeeds hwf hr hf.sessions
  obtain ⟨hof, hrows⟩ := schedule_rows hsch hwf
  obtain ⟨hreg, hoc, _⟩ := schedule_regular hsch ho hz hmid hlow
  obtain ⟨hsort, hmem⟩ := schedule_labels hsch hmid
  obtain ⟨_, _, _, _, _, _, _, _, _, _, h5, h6, _⟩ := schedule_parts hsch
  obtain ⟨hsos, hso⟩ := specialDates_spec hz h5
  obtain ⟨hscs, hsc⟩ := specialDates_spec hz h6
  have hrne : rowsOf sch.cal ≠ [] := by
    obtain ⟨l, hl⟩ := hne
    have : l ∈ sch.cal.sessions := (hmem l).mpr hl
    rw [← rowsOf_labels] at this
    intro hnil
    rw [hnil] at this
    simp at this
  have hpos : 0 < sch.cal.sessions.length := by
    rw [← rowsOf_labels, List.length_map]; exact List.length_pos_iff.mpr hrne
  have hday : ∀ l u, SpecialOpen cfg start stop l u ∨ SpecialClose cfg start stop l u →
      ∃ d, l = d * DAY := fun l u h => by
    obtain ⟨d, hd, _⟩ := hf.sessions l u h; exact ⟨d, hd⟩
  have hoex : ∃ o, OpenWall cfg o := by
    obtain ⟨t, rest, he, _⟩ := ho.openTable
    exact ⟨_, Or.inl ⟨(none, t), by rw [he]; simp, rfl⟩⟩
  have hcex : ∃ c, CloseWall cfg c := by
    obtain ⟨t, rest, he, _⟩ := ho.closeTable
    exact ⟨_, Or.inl ⟨(none, t), by rw [he]; simp, rfl⟩⟩
  have hlo : ∃ ls, mapToLabels sch.cal sch.specialOpens = .ok ls := by
    rw [← hof]
    refine (mapToLabels_ok_iff hreg hrne).mpr ⟨?_, ?_⟩
    · rw [List.pairwise_map]
      refine List.Pairwise.imp_of_mem ?_ hsos
      rintro ⟨l, u⟩ ⟨l', u'⟩ h1 h2 hle
      simp only at hle ⊢
      have hu := (hso l u).mp h1
      have hu' := (hso l' u').mp h2
      rcases Int.lt_or_eq_of_le hle with hlt | rfl
      · obtain ⟨o, hwo, huo⟩ := SpecialOpen.wall hu
        obtain ⟨o', hwo', huo'⟩ := SpecialOpen.wall hu'
        obtain ⟨c, hc⟩ := hcex
        have a1 := (ho.openClose o c hwo hc).1
        have a2 := (ho.openClose o' c hwo' hc).2
        obtain ⟨d, rfl⟩ := hday l u (Or.inl hu)
        obtain ⟨d', rfl⟩ := hday l' u' (Or.inl hu')
        exact Int.le_of_lt (only_lt hz huo huo' (by simp only [DAY] at *; omega))
      · rw [hf.openUnique l u u' hu hu']
        exact Int.le_refl _
    · rintro ⟨l, u⟩ he
      have hu := (hso l u).mp he
      obtain ⟨⟨s0, hs0, rfl⟩, _⟩ := special_session hsch ho hz hmid hlow (Or.inl hu)
      have := (hrows s0 hs0).openSpecial u hu
      rw [hf.openUnique _ _ _ hu this]
      exact ⟨s0, hs0, Int.le_refl _, Int.le_of_lt (hoc s0 hs0)⟩
  have hec : ∃ ls, mapToLabels sch.cal sch.specialCloses = .ok ls := by
    rw [← hof]
    refine (mapToLabels_ok_iff hreg hrne).mpr ⟨?_, ?_⟩
    · rw [List.pairwise_map]
      refine List.Pairwise.imp_of_mem ?_ hscs
      rintro ⟨l, u⟩ ⟨l', u'⟩ h1 h2 hle
      simp only at hle ⊢
      have hu := (hsc l u).mp h1
      have hu' := (hsc l' u').mp h2
      rcases Int.lt_or_eq_of_le hle with hlt | rfl
      · obtain ⟨c, hwc, huc⟩ := SpecialClose.wall hu
        obtain ⟨c', hwc', huc'⟩ := SpecialClose.wall hu'
        obtain ⟨o, hwo⟩ := hoex
        have a1 := (ho.openClose o c hwo hwc).2
        have a2 := (ho.openClose o c' hwo hwc').1
        obtain ⟨d, rfl⟩ := hday l u (Or.inr hu)
        obtain ⟨d', rfl⟩ := hday l' u' (Or.inr hu')
        exact Int.le_of_lt (only_lt hz huc huc' (by simp only [DAY] at *; omega))
      · rw [hf.closeUnique l u u' hu hu']
        exact Int.le_refl _
    · rintro ⟨l, u⟩ he
      have hu := (hsc l u).mp he
      obtain ⟨⟨s0, hs0, rfl⟩, _⟩ := special_session hsch ho hz hmid hlow (Or.inr hu)
      have := (hrows s0 hs0).closeSpecial u hu
      rw [hf.closeUnique _ _ _ hu this]
      exact ⟨s0, hs0, Int.le_of_lt (hoc s0 hs0), Int.le_refl _⟩
  obtain ⟨lo, hlo⟩ := hlo
  obtain ⟨ec, hec⟩ := hec
  have hmin : ∃ ms, computeAllMinutes sch.cal.opens sch.cal.breakStarts sch.cal.breakEnds
      sch.cal.closes = .ok ms := by
    rw [← hof]
    unfold computeAllMinutes npConcatenate
    rw [if_neg (minutePieces_ne hrne)]
    exact ⟨_, rfl⟩
  obtain ⟨ms, hmin⟩ := hmin
  have hfst := pyIndex_of_eq sch.cal.sessions (i := 0) (n := 0) rfl hpos
  have hlst := pyIndex_neg_one sch.cal.sessions hpos
  unfold build
  simp only [hsch, hmin, hfst, hlst, hlo, hec, bind, Except.bind]
  exact ⟨_, rfl⟩

/-- A range without any trading day cannot be built. -/
theorem build_empty {cfg : Config} {start stop : Int} (hwf : WellFormed cfg start)
    (hr : Readable cfg start stop) (hno : ∀ l, ¬ SessionLabel cfg start stop l) :
    ∃ why, build cfg start stop = .error (.valueError why) := by
  by_cases hsp : ∃ l u, SpecialOpen cfg start stop l u ∨ SpecialClose cfg start stop l u
  · obtain ⟨l, u, hu⟩ := hsp
    have := schedule_fails hwf hr ⟨l, u, hu, hno l⟩
    exact ⟨"Special dates are not trading days.", by
      unfold build; simp only [this, bind, Except.bind]⟩
  · obtain ⟨sch, hsch⟩ := schedule_succeeds hwf hr (fun l u hu => absurd ⟨l, u, hu⟩ hsp)
    obtain ⟨hof, _⟩ := schedule_rows hsch hwf
    obtain ⟨_, hmem⟩ := schedule_labels hsch hwf.midnight
    have hnil : sch.cal.sessions = [] := by
      cases he : sch.cal.sessions with
      | nil => rfl
      | cons x xs =>
        exact absurd ((hmem x).mp (by rw [he]; simp)) (hno x)
    have hr : rowsOf sch.cal = [] := by
      rw [← List.length_eq_zero_iff, ← List.length_map (f := (·.label)), rowsOf_labels, hnil]; rfl
    have : computeAllMinutes sch.cal.opens sch.cal.breakStarts sch.cal.breakEnds sch.cal.closes
        = .error (.valueError "need at least one array to concatenate") := by
      rw [← hof, hr]; rfl
    exact ⟨"need at least one array to concatenate", by
      unfold build; simp only [hsch, this, bind, Except.bind]⟩

end TC
