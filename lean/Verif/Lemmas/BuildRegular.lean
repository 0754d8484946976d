import Verif.Lemmas.BuildRows
import Verif.Props.Queries

namespace TC
open Spec

theorem Spec.Ordered.tablesFit {cfg : Config} (h : Ordered cfg) (hz : Tame cfg.tz) {start : Int}
    (hlow : NP_NAT + 3 * DAY ≤ start) : TablesFit cfg start := by
  have hopen : ∃ o, OpenWall cfg o := by
    obtain ⟨t, rest, he, _⟩ := h.openTable
    exact ⟨_, Or.inl ⟨(none, t), by rw [he]; simp, rfl⟩⟩
  obtain ⟨o, ho⟩ := hopen
  have hol := h.openLow o ho
  exact
    { tz := hz, openTable := h.openTable, closeTable := h.closeTable
      breakStartTable := h.breakStartTable, breakEndTable := h.breakEndTable, low := hlow
      breakStartLow := fun b hb => by have := h.openBreak o b ho (Or.inl hb); omega
      breakEndLow := fun b hb => by have := h.openBreak o b ho (Or.inr hb); omega }

theorem Spec.Ordered.wellFormed {cfg : Config} (h : Ordered cfg) (hz : Tame cfg.tz) {start : Int}
    (hm : DAY ∣ start) (hlow : NP_NAT + 3 * DAY ≤ start) : WellFormed cfg start :=
  { h.tablesFit hz hlow with midnight := hm }

theorem SpecialOpen.wall {cfg : Config} {start stop l u : Int}
    (h : SpecialOpen cfg start stop l u) : ∃ o, OpenWall cfg o ∧ OnlyInstant cfg.tz (l + o) u := by
  obtain ⟨t, hst, hu, _⟩ := h
  refine ⟨t, ?_, hu⟩
  rcases hst with ⟨cal, hc, _⟩ | ⟨ds, hc, _⟩
  · exact Or.inr (Or.inl ⟨_, hc, rfl⟩)
  · exact Or.inr (Or.inr ⟨_, hc, rfl⟩)

theorem SpecialClose.wall {cfg : Config} {start stop l u : Int}
    (h : SpecialClose cfg start stop l u) :
    ∃ c, CloseWall cfg c ∧ OnlyInstant cfg.tz (l + c) u := by
  obtain ⟨t, hst, hu, _⟩ := h
  refine ⟨t, ?_, hu⟩
  rcases hst with ⟨cal, hc, _⟩ | ⟨ds, hc, _⟩
  · exact Or.inr (Or.inl ⟨_, hc, rfl⟩)
  · exact Or.inr (Or.inr ⟨_, hc, rfl⟩)

theorem RowFacts.openWall {cfg : Config} {start stop : Int} {s : Session}
    (h : RowFacts cfg start stop s) :
    ∃ o, OpenWall cfg o ∧ OnlyInstant cfg.tz (s.label + o) s.open := by
  by_cases hs : ∃ u, SpecialOpen cfg start stop s.label u
  · obtain ⟨u, hu⟩ := hs
    exact SpecialOpen.wall (h.openSpecial u hu)
  · obtain ⟨t, ht, hu⟩ := h.openStandard (fun u hu => hs ⟨u, hu⟩)
    obtain ⟨e, he, rfl⟩ := TimeInEffect.mem ht
    exact ⟨_, Or.inl ⟨e, he, rfl⟩, by rw [← Int.add_assoc]; exact hu⟩

theorem RowFacts.closeWall {cfg : Config} {start stop : Int} {s : Session}
    (h : RowFacts cfg start stop s) :
    ∃ c, CloseWall cfg c ∧ OnlyInstant cfg.tz (s.label + c) s.close := by
  by_cases hs : ∃ u, SpecialClose cfg start stop s.label u
  · obtain ⟨u, hu⟩ := hs
    exact SpecialClose.wall (h.closeSpecial u hu)
  · obtain ⟨t, ht, hu⟩ := h.closeStandard (fun u hu => hs ⟨u, hu⟩)
    obtain ⟨e, he, rfl⟩ := TimeInEffect.mem ht
    exact ⟨_, Or.inl ⟨e, he, rfl⟩, by rw [← Int.add_assoc]; exact hu⟩

/-- A break, if there is one, comes from the tables, and the close is then a standard one. -/
theorem RowFacts.brkWall {cfg : Config} {start stop : Int} {s : Session}
    (h : RowFacts cfg start stop s) {b e : Int} (hb : s.brk = some (b, e)) :
    ∃ wb we wc, BreakStartWall cfg wb ∧ BreakEndWall cfg we ∧ StandardCloseWall cfg wc ∧
      OnlyInstant cfg.tz (s.label + wb) b ∧ OnlyInstant cfg.tz (s.label + we) e ∧
      OnlyInstant cfg.tz (s.label + wc) s.close := by
  have hn : ∀ u, ¬ SpecialClose cfg start stop s.label u := fun u hu => by
    rw [h.brkSpecial u hu] at hb; cases hb
  have h1 : cfg.breakStartTimes.isSome := by
    cases hc : cfg.breakStartTimes with
    | some _ => rfl
    | none => rw [h.brkNone hc] at hb; cases hb
  have h2 := (h.brkBoth hn).mp h1
  obtain ⟨bt, hbt⟩ := Option.isSome_iff_exists.mp h1
  obtain ⟨et, het⟩ := Option.isSome_iff_exists.mp h2
  obtain ⟨b', e', hbe, ⟨tb, htb, hub⟩, ⟨te, hte, hue⟩⟩ := h.brkStandard hn bt et hbt het
  rw [hbe] at hb
  cases hb
  obtain ⟨tc, htc, huc⟩ := h.closeStandard hn
  obtain ⟨eb, heb, rfl⟩ := TimeInEffect.mem htb
  obtain ⟨ee, hee, rfl⟩ := TimeInEffect.mem hte
  obtain ⟨ec, hec, rfl⟩ := TimeInEffect.mem htc
  refine ⟨eb.2, ee.2, _, ⟨bt, hbt, eb, heb, rfl⟩, ⟨et, het, ee, hee, rfl⟩, ⟨ec, hec, rfl⟩, ?_, ?_,
    by rw [← Int.add_assoc]; exact huc⟩
  · simpa using hub
  · simpa using hue

theorem rowsOf_labels (c : Cal) : (rowsOf c).map (·.label) = c.sessions := by
  apply List.ext_getElem
  · simp [rowsOf]
  · intro i h1 h2
    simp [rowsOf, h2]

theorem schedule_labels_any {cfg : Config} {start stop : Int} {b : Schedule}
    (h : buildSchedule cfg start stop = .ok b) :
    SortedLT b.cal.sessions ∧ ∀ l, l ∈ b.cal.sessions ↔
      ∃ d, l = d * DAY + start % DAY ∧ start ≤ l ∧ l ≤ stop ∧ TradingDay cfg d ∧
        (TradingDay cfg (start / DAY) → ¬ TradingDay cfg (stop / DAY) → stop % DAY < start % DAY →
          ∃ d', d < d' ∧ d' ≤ stop / DAY ∧ TradingDay cfg d') := by
  obtain ⟨_, _, _, _, _, _, _, _, _, _, _, _, _, _, _, _, _, _, _, _, _, _, _, hdays⟩ :=
    schedule_parts h
  obtain ⟨h1, h2⟩ := dateRange_any cfg.isBusinessDay start stop
  rw [hdays]
  refine ⟨h1, fun l => ?_⟩
  rw [h2]
  simp only [← isBusinessDay_iff, Bool.not_eq_true]

theorem schedule_labels {cfg : Config} {start stop : Int} {b : Schedule}
    (h : buildSchedule cfg start stop = .ok b) (hm : DAY ∣ start) :
    SortedLT b.cal.sessions ∧ ∀ l, l ∈ b.cal.sessions ↔
      ∃ d, l = d * DAY ∧ start ≤ l ∧ l ≤ stop ∧ TradingDay cfg d := by
  obtain ⟨_, _, _, _, _, _, _, _, _, _, _, _, _, _, _, _, _, _, _, _, _, _, _, hdays⟩ :=
    schedule_parts h
  obtain ⟨h1, h2⟩ := dateRange_spec cfg.isBusinessDay (stop := stop) hm
  rw [hdays]
  refine ⟨h1, fun l => ?_⟩
  rw [h2]
  simp only [isBusinessDay_iff]

theorem Spec.OnlyInstant.whole {z : Tz} (hz : Tame z) (hw : WholeMinuteZone z) {w u : Int}
    (hu : OnlyInstant z w u) (hd : MINUTE ∣ w) : MINUTE ∣ u := by
  have h1 := (reads_iff hz _ _).mp hu.1
  have h2 := offsetAt_whole hz hw u
  have : u = w - z.offsetAt u := by omega
  rw [this]
  exact Int.dvd_sub hd h2

theorem MINUTE_dvd_DAY : MINUTE ∣ DAY := by decide

/-- Built schedules are regular. -/
theorem schedule_regular_any {cfg : Config} {start stop : Int} {b : Schedule}
    (h : buildSchedule cfg start stop = .ok b) (ho : Ordered cfg) (hz : Tame cfg.tz)
    (hlow : NP_NAT + 3 * DAY ≤ start) :
    Regular (rowsOf b.cal) ∧ (∀ s ∈ rowsOf b.cal, s.open < s.close) ∧
    (MINUTE ∣ start → WholeMinuteZone cfg.tz → WholeMinuteTimes cfg → ∀ s ∈ rowsOf b.cal, s.WholeMinutes) := by
  obtain ⟨hof, hrows⟩ := schedule_rows_any h (ho.tablesFit hz hlow)
  obtain ⟨hsort, hmem⟩ := schedule_labels_any h
  have hlab : ∀ s ∈ rowsOf b.cal, ∃ d, s.label = d * DAY + start % DAY ∧ start ≤ s.label := by
    intro s hs
    have : s.label ∈ b.cal.sessions := by
      rw [← rowsOf_labels]; exact List.mem_map.mpr ⟨s, hs, rfl⟩
    obtain ⟨d, hd, h1, _⟩ := (hmem _).mp this
    exact ⟨d, hd, h1⟩
  have hsl : (rowsOf b.cal).Pairwise (fun s s' => s.label < s'.label) := by
    have := hsort
    rw [← rowsOf_labels, SortedLT, List.pairwise_map] at this
    exact this
  have hoc : ∀ s ∈ rowsOf b.cal, s.open < s.close := by
    intro s hs
    obtain ⟨o, hwo, huo⟩ := (hrows s hs).openWall
    obtain ⟨c, hwc, huc⟩ := (hrows s hs).closeWall
    exact only_lt hz huo huc (by have := (ho.openClose o c hwo hwc).1; omega)
  refine ⟨⟨fun s hs => ⟨?_, ?_, fun bb ee hb => ?_⟩, hsl, ?_⟩, hoc, fun hms hwz hwt s hs => ?_⟩
  · obtain ⟨o, hwo, huo⟩ := (hrows s hs).openWall
    have := only_near hz huo
    have := ho.openLow o hwo
    obtain ⟨_, _, _⟩ := hlab s hs
    have := DAY_pos
    omega
  · exact Int.le_of_lt (hoc s hs)
  · obtain ⟨o, hwo, huo⟩ := (hrows s hs).openWall
    obtain ⟨wb, we, wc, h1, h2, h3, h4, h5, h6⟩ := (hrows s hs).brkWall hb
    refine ⟨only_lt hz huo h4 (by have := ho.openBreak o wb hwo (Or.inl h1); omega),
      only_lt hz h4 h5 (by have := ho.breaks wb we h1 h2; omega), ?_⟩
    have hle := ho.breakClose we wc h2 h3
    by_cases he : we = wc
    · subst he
      rw [h5.2 _ h6.1]
      exact Int.le_refl _
    · exact Int.le_of_lt (only_lt hz h5 h6 (by omega))
  · refine List.Pairwise.imp_of_mem ?_ hsl
    intro s s' hs hs' hlt
    obtain ⟨c, hwc, huc⟩ := (hrows s hs).closeWall
    obtain ⟨o, hwo, huo⟩ := (hrows s' hs').openWall
    obtain ⟨d, hd, _⟩ := hlab s hs
    obtain ⟨d', hd', _⟩ := hlab s' hs'
    have hcl := (ho.openClose o c hwo hwc).2
    refine only_lt hz huc huo ?_
    have : s.label + DAY ≤ s'.label := by
      rw [hd, hd'] at hlt ⊢
      simp only [DAY] at *
      omega
    omega
  · obtain ⟨o, hwo, huo⟩ := (hrows s hs).openWall
    obtain ⟨c, hwc, huc⟩ := (hrows s hs).closeWall
    obtain ⟨d, hd, _⟩ := hlab s hs
    have hld : MINUTE ∣ s.label := by
      rw [hd]
      exact Int.dvd_add (Int.dvd_mul_of_dvd_right MINUTE_dvd_DAY)
        (by rw [Int.emod_def]; exact Int.dvd_sub hms (Int.dvd_mul_of_dvd_left MINUTE_dvd_DAY))
    refine ⟨huo.whole hz hwz (Int.dvd_add hld (hwt.opens o hwo)),
      huc.whole hz hwz (Int.dvd_add hld (hwt.closes c hwc)), fun bb ee hb => ?_⟩
    obtain ⟨wb, we, wc, h1, h2, h3, h4, h5, h6⟩ := (hrows s hs).brkWall hb
    exact ⟨h4.whole hz hwz (Int.dvd_add hld (hwt.breakStarts wb h1)),
      h5.whole hz hwz (Int.dvd_add hld (hwt.breakEnds we h2))⟩

theorem schedule_regular {cfg : Config} {start stop : Int} {b : Schedule}
    (h : buildSchedule cfg start stop = .ok b) (ho : Ordered cfg) (hz : Tame cfg.tz) (hm : DAY ∣ start)
    (hlow : NP_NAT + 3 * DAY ≤ start) :
    Regular (rowsOf b.cal) ∧ (∀ s ∈ rowsOf b.cal, s.open < s.close) ∧
    (WholeMinuteZone cfg.tz → WholeMinuteTimes cfg → ∀ s ∈ rowsOf b.cal, s.WholeMinutes) :=
  have k := schedule_regular_any h ho hz hlow
  ⟨k.1, k.2.1, k.2.2 (Int.dvd_trans MINUTE_dvd_DAY hm)⟩

/-! ### early closes, late opens -/

theorem exists_firstBad {ss : List Session} : ∀ {index : List Int},
    (¬ ∀ t ∈ index, ∃ s ∈ ss, s.Spans t) → ∃ t, Props.FirstBad ss index t
  | [], h => absurd (by simp) h
  | t :: rest, h => by
    by_cases ht : ∃ s ∈ ss, s.Spans t
    · obtain ⟨u, pre, post, he, h1, h2⟩ := exists_firstBad (ss := ss) (index := rest) (fun hall =>
        h (fun t' ht' => by
          rcases List.mem_cons.mp ht' with rfl | h'
          · exact ht
          · exact hall t' h'))
      refine ⟨u, t :: pre, post, by rw [he]; rfl, fun v hv => ?_, h2⟩
      rcases List.mem_cons.mp hv with rfl | h'
      · exact ht
      · exact h1 v h'
    · exact ⟨t, [], rest, rfl, by simp, ht⟩

theorem mapToLabels_ok_iff {ss : List Session} (h : Regular ss) (hne : ss ≠ [])
    {sp : List (Int × Int)} :
    (∃ ls, mapToLabels (Cal.ofSessions ss) sp = .ok ls) ↔
      (sp.map (·.2)).Pairwise (· ≤ ·) ∧ ∀ e ∈ sp, ∃ s ∈ ss, s.Spans e.2 := by
  unfold mapToLabels
  constructor
  · intro hl
    have hp : (sp.map (·.2)).Pairwise (· ≤ ·) := by
      apply Decidable.byContradiction
      intro hn
      obtain ⟨why, hw⟩ := (Props.c21_rejects h hne _).1 hn
      obtain ⟨ls, hl⟩ := hl
      rw [hw] at hl; cases hl
    have hall : ∀ t ∈ sp.map (·.2), ∃ s ∈ ss, s.Spans t := by
      apply Decidable.byContradiction
      intro hn
      obtain ⟨t, ht⟩ := exists_firstBad hn
      obtain ⟨ls, hl⟩ := hl
      by_cases hlast : ∃ s ∈ ss, t ≤ s.close
      · obtain ⟨why, hw⟩ := ((Props.c21_rejects h hne _).2 hp t ht).1 hlast
        rw [hw] at hl; cases hl
      · have hw := ((Props.c21_rejects h hne _).2 hp t ht).2 (fun s hs => by
          apply Decidable.byContradiction
          intro hc
          exact hlast ⟨s, hs, by omega⟩)
        rw [hw] at hl; cases hl
    exact ⟨hp, fun e he => hall e.2 (List.mem_map.mpr ⟨e, he, rfl⟩)⟩
  · rintro ⟨hp, hall⟩
    obtain ⟨ls, hls, _⟩ := Props.c21_agrees h (sp.map (·.2)) hp (fun t ht => by
      obtain ⟨e, he, rfl⟩ := List.mem_map.mp ht
      exact hall e he)
    exact ⟨ls, by rw [hls]⟩

theorem mapToLabels_eq {ss : List Session} (h : Regular ss) (hne : ss ≠ [])
    {sp : List (Int × Int)} {ls : List Int}
    (hok : mapToLabels (Cal.ofSessions ss) sp = .ok ls)
    (hlab : ∀ e ∈ sp, ∀ s ∈ ss, s.Spans e.2 → s.label = e.1) : ls = sp.map (·.1) := by
  obtain ⟨hp, hall⟩ := (mapToLabels_ok_iff h hne).mp ⟨ls, hok⟩
  obtain ⟨ls', hls, hlen, hg⟩ := Props.c21_agrees h (sp.map (·.2)) hp (fun t ht => by
    obtain ⟨e, he, rfl⟩ := List.mem_map.mp ht
    exact hall e he)
  unfold mapToLabels at hok
  rw [hls] at hok
  cases hok
  apply List.ext_getElem
  · simpa using hlen
  · intro i h1 h2
    have hi : i < sp.length := by simpa using h2
    have hz : i < ((sp.map (·.2)).zip ls).length := by rw [List.length_zip]; simp; omega
    obtain ⟨_, _, s, hs, hsp, hl⟩ := hg _ (List.getElem_mem hz)
    rw [List.getElem_zip] at hsp hl
    simp only [List.getElem_map] at hsp hl ⊢
    rw [← hl]
    exact hlab sp[i] (List.getElem_mem _) s hs hsp

/-- Which session an applied special time falls into. -/
theorem special_session_any {cfg : Config} {start stop : Int} {b : Schedule}
    (h : buildSchedule cfg start stop = .ok b) (ho : Ordered cfg) (hz : Tame cfg.tz)
    (hlow : NP_NAT + 3 * DAY ≤ start) {l u : Int}
    (hu : SpecialOpen cfg start stop l u ∨ SpecialClose cfg start stop l u) :
    (∃ s0 ∈ rowsOf b.cal, s0.label = l) ∧ ∀ s ∈ rowsOf b.cal, s.Spans u → s.label = l := by
  obtain ⟨hof, hrows⟩ := schedule_rows_any h (ho.tablesFit hz hlow)
  obtain ⟨hreg, hoc, _⟩ := schedule_regular_any h ho hz hlow
  obtain ⟨hsort, hmem⟩ := schedule_labels_any h
  obtain ⟨opens0, bs0, be0, closes0, bs, be, h1, h2, h3, h4, h5, h6, h7, h8, h9, h10, hbs,
    hbe, lo, lbs, lbe, lc, hchk, hdays⟩ := schedule_parts h
  obtain ⟨hsos, hso⟩ := specialDates_spec hz h5
  obtain ⟨hscs, hsc⟩ := specialDates_spec hz h6
  obtain ⟨hino, _⟩ := overwrite_spec hsort h7 lo
  obtain ⟨hinc, _⟩ := overwrite_spec hsort h8 lc
  have hrow : ∀ l ∈ b.cal.sessions, ∃ s ∈ rowsOf b.cal, s.label = l := by
    intro l hl
    rw [← rowsOf_labels] at hl
    obtain ⟨s, hs, he⟩ := List.mem_map.mp hl
    exact ⟨s, hs, he⟩
  have hday : ∀ s ∈ rowsOf b.cal, ∃ d, s.label = d * DAY + start % DAY := by
    intro s hs
    have : s.label ∈ b.cal.sessions := by
      rw [← rowsOf_labels]; exact List.mem_map.mpr ⟨s, hs, rfl⟩
    obtain ⟨d, hd, _⟩ := (hmem _).mp this
    exact ⟨d, hd⟩
  have hgap : ∀ s ∈ rowsOf b.cal, ∀ s' ∈ rowsOf b.cal, s.label < s'.label →
      s.label + DAY ≤ s'.label := by
    intro s hs s' hs' hlt
    obtain ⟨d, hd⟩ := hday s hs
    obtain ⟨d', hd'⟩ := hday s' hs'
    rw [hd, hd'] at hlt ⊢
    simp only [DAY] at *
    omega
  rcases hu with hu | hu
  · have he := (hso l u).mpr hu
    obtain ⟨s0, hs0, rfl⟩ := hrow _ (hino _ he)
    refine ⟨⟨s0, hs0, rfl⟩, ?_⟩
    rintro s hs ⟨hsp1, hsp2⟩
    obtain ⟨o, hwo, huo⟩ := SpecialOpen.wall hu
    obtain ⟨c0, hwc0, huc0⟩ := (hrows s0 hs0).closeWall
    have hu0 : u < s0.close := only_lt hz huo huc0 (by
      have := (ho.openClose o c0 hwo hwc0).1; omega)
    simp only at *
    rcases Int.lt_trichotomy s.label s0.label with hlt | heq | hlt
    · obtain ⟨c, hwc, huc⟩ := (hrows s hs).closeWall
      have := only_lt hz huc huo (by
        have := (ho.openClose o c hwo hwc).2
        have := hgap s hs s0 hs0 hlt
        omega)
      omega
    · exact heq
    · have := hreg.close_lt_of_label hs0 hs hlt
      omega
  · have he := (hsc l u).mpr hu
    obtain ⟨s0, hs0, rfl⟩ := hrow _ (hinc _ he)
    refine ⟨⟨s0, hs0, rfl⟩, ?_⟩
    rintro s hs ⟨hsp1, hsp2⟩
    obtain ⟨c, hwc, huc⟩ := SpecialClose.wall hu
    obtain ⟨o0, hwo0, huo0⟩ := (hrows s0 hs0).openWall
    have hu0 : s0.open < u := only_lt hz huo0 huc (by
      have := (ho.openClose o0 c hwo0 hwc).1; omega)
    simp only at *
    rcases Int.lt_trichotomy s.label s0.label with hlt | heq | hlt
    · have := hreg.close_lt_of_label hs hs0 hlt
      omega
    · exact heq
    · obtain ⟨o, hwo, huo⟩ := (hrows s hs).openWall
      have := only_lt hz huc huo (by
        have := (ho.openClose o c hwo hwc).2
        have := hgap s0 hs0 s hs hlt
        omega)
      omega

theorem special_session {cfg : Config} {start stop : Int} {b : Schedule}
    (h : buildSchedule cfg start stop = .ok b) (ho : Ordered cfg) (hz : Tame cfg.tz) (_hm : DAY ∣ start)
    (hlow : NP_NAT + 3 * DAY ≤ start) {l u : Int}
    (hu : SpecialOpen cfg start stop l u ∨ SpecialClose cfg start stop l u) :
    (∃ s0 ∈ rowsOf b.cal, s0.label = l) ∧ ∀ s ∈ rowsOf b.cal, s.Spans u → s.label = l :=
  special_session_any h ho hz hlow hu

theorem build_rows_ne {cfg : Config} {start stop : Int} {b : Built}
    (h : build cfg start stop = .ok b) : rowsOf b.cal ≠ [] := by
  obtain ⟨sch, hs, hc, hmin, hfirst, hlast, hlate, hearly⟩ := build_parts h
  intro hnil
  have : b.cal.sessions = [] := by rw [← rowsOf_labels, hnil]; rfl
  rw [this] at hfirst
  cases hfirst

theorem build_special_labels_any {cfg : Config} {start stop : Int} {b : Built}
    (h : build cfg start stop = .ok b) (ho : Ordered cfg) (hz : Tame cfg.tz)
    (hlow : NP_NAT + 3 * DAY ≤ start) :
    ∃ so sc : List (Int × Int),
      b.lateOpens = so.map (·.1) ∧ b.earlyCloses = sc.map (·.1) ∧
      so.Pairwise (fun a b => a.1 ≤ b.1) ∧ sc.Pairwise (fun a b => a.1 ≤ b.1) ∧
      (∀ l u, (l, u) ∈ so ↔ SpecialOpen cfg start stop l u) ∧
      (∀ l u, (l, u) ∈ sc ↔ SpecialClose cfg start stop l u) ∧
      (∀ l u, SpecialOpen cfg start stop l u ∨ SpecialClose cfg start stop l u →
        l ∈ b.cal.sessions) := by
  have hne := build_rows_ne h
  obtain ⟨sch, hsch, hc, hmin, hfirst, hlast, hlate, hearly⟩ := build_parts h
  rw [hc] at hne hlate hearly ⊢
  obtain ⟨hof, hrows⟩ := schedule_rows_any hsch (ho.tablesFit hz hlow)
  obtain ⟨hreg, hoc, _⟩ := schedule_regular_any hsch ho hz hlow
  obtain ⟨_, _, _, _, _, _, _, _, _, _, h5, h6, _⟩ := schedule_parts hsch
  obtain ⟨hsos, hso⟩ := specialDates_spec hz h5
  obtain ⟨hscs, hsc⟩ := specialDates_spec hz h6
  rw [← hof] at hlate hearly
  refine ⟨_, _, mapToLabels_eq hreg hne hlate ?_, mapToLabels_eq hreg hne hearly ?_, hsos, hscs, hso,
    hsc, ?_⟩
  · rintro ⟨l, u⟩ he s hs hsp
    exact (special_session_any hsch ho hz hlow (Or.inl ((hso l u).mp he))).2 s hs hsp
  · rintro ⟨l, u⟩ he s hs hsp
    exact (special_session_any hsch ho hz hlow (Or.inr ((hsc l u).mp he))).2 s hs hsp
  · rintro l u hu
    obtain ⟨⟨s0, hs0, rfl⟩, _⟩ := special_session_any hsch ho hz hlow hu
    rw [← rowsOf_labels]
    exact List.mem_map.mpr ⟨s0, hs0, rfl⟩

theorem build_special_labels {cfg : Config} {start stop : Int} {b : Built}
    (h : build cfg start stop = .ok b) (ho : Ordered cfg) (hz : Tame cfg.tz) (_hm : DAY ∣ start)
    (hlow : NP_NAT + 3 * DAY ≤ start) :
    ∃ so sc : List (Int × Int),
      b.lateOpens = so.map (·.1) ∧ b.earlyCloses = sc.map (·.1) ∧
      so.Pairwise (fun a b => a.1 ≤ b.1) ∧ sc.Pairwise (fun a b => a.1 ≤ b.1) ∧
      (∀ l u, (l, u) ∈ so ↔ SpecialOpen cfg start stop l u) ∧
      (∀ l u, (l, u) ∈ sc ↔ SpecialClose cfg start stop l u) ∧
      (∀ l u, SpecialOpen cfg start stop l u ∨ SpecialClose cfg start stop l u →
        l ∈ b.cal.sessions) :=
  build_special_labels_any h ho hz hlow

end TC
