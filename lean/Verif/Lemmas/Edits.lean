import Verif.Spec.Edits
import Verif.Lemmas.Overlap

namespace TC
open Spec Props

variable {cfg cfg' : Config} {start stop lo hi : Int}

theorem mapM_ok_mem {α β : Type} {f : α → Py β} {xs : List α} {ys : List β} (h : xs.mapM f = .ok ys) {x : α}
    (hx : x ∈ xs) : ∃ y, f x = .ok y := by
  obtain ⟨hlen, hg⟩ := mapM_ok_iff.1 h
  obtain ⟨i, hi, rfl⟩ := List.getElem_of_mem hx
  exact ⟨_, hg i hi (by omega)⟩

theorem group_readable {days : List Int} (hs : SortedLT days) {table : TimeTable} (hv : ValidTable table) {z : Tz}
    (hz : Tame z) {k : Int} {col : List Int} (h : groupTimes days table z k = .ok col) {l t : Int} (hl : l ∈ days)
    (ht : TimeInEffect table l t) : ∃ u, OnlyInstant z (l + k * DAY + t) u := by
  rw [groupTimes_eq hs hv] at h
  obtain ⟨u, hu⟩ := mapM_ok_mem h hl
  rw [localize_ok_iff hz, ← Int.add_assoc] at hu
  obtain ⟨t₀, -, hu₀⟩ := c34_time_unique hv l
  rw [hu₀ t ht, ← hu₀ _ (timeAt_inEffect hv l)]
  exact ⟨u, hu⟩

theorem groupOpt_readable {days : List Int} (hs : SortedLT days) {times : Option TimeTable} {table : TimeTable}
    (he : times = some table) (hv : ValidTable table) {z : Tz} (hz : Tame z) {col : Option (List Int)}
    (h : groupTimesOpt days times z = .ok col) {l t : Int} (hl : l ∈ days) (ht : TimeInEffect table l t) :
    ∃ u, OnlyInstant z (l + 0 * DAY + t) u := by
  subst he
  unfold groupTimesOpt at h
  simp only at h
  cases hg : groupTimes days table z with
  | error e => rw [hg] at h; cases h
  | ok c => exact group_readable hs hv hz hg hl ht

theorem specials_readable {rules : List (Int × HolidayFn)} {adHoc : List (Int × List Int)} {z : Tz} (hz : Tame z)
    {sp : List (Int × Int)} (h : specialDates rules adHoc z start stop = .ok sp) {l t : Int}
    (ht : SpecialTime rules adHoc start stop l t) : ∃ u, OnlyInstant z (l + t) u := by
  unfold specialDates at h
  rw [bind_ok_iff] at h
  obtain ⟨reg, hreg, h⟩ := h
  rw [bind_ok_iff] at h
  obtain ⟨adh, hadh, -⟩ := h
  rcases ht with ⟨cal, hc, hl⟩ | ⟨ds, hc, hl⟩
  · obtain ⟨y, hy⟩ := mapM_ok_mem hreg hc
    unfold scheduledSpecialTimes daysAtTime at hy
    rw [bind_ok_iff] at hy
    obtain ⟨times, hts, -⟩ := hy
    obtain ⟨u, hu⟩ := mapM_ok_mem hts hl
    rw [localize_ok_iff hz] at hu
    exact ⟨u, by simpa using hu⟩
  · obtain ⟨y, hy⟩ := mapM_ok_mem hadh hc
    unfold adHocSpecialTimes daysAtTime at hy
    rw [bind_ok_iff] at hy
    obtain ⟨times, hts, -⟩ := hy
    obtain ⟨u, hu⟩ := mapM_ok_mem hts hl
    rw [localize_ok_iff hz] at hu
    exact ⟨u, by simpa using hu⟩

/-- Where construction succeeds, every clock reading could be interpreted. -/
theorem readable_of_build {b : Built} (hb : build cfg start stop = .ok b) (ho : Ordered cfg) (hz : Tame cfg.tz)
    (hm : DAY ∣ start) (hp : PairedBreaks cfg) : Readable cfg start stop := by
  obtain ⟨sch, hs, hc, -⟩ := build_parts hb
  obtain ⟨hsort, hmem⟩ := schedule_labels hs hm
  obtain ⟨_, _, _, _, _, _, h1, h2, h3, h4, h5, h6, -⟩ := schedule_parts hs
  have hin : ∀ l, SessionLabel cfg start stop l → l ∈ sch.cal.sessions := fun l hl => (hmem l).2 hl
  exact ⟨fun l t hl ht => group_readable hsort ho.openTable hz h1 (hin l hl) ht,
    fun l t hl ht => group_readable hsort ho.closeTable hz h4 (hin l hl) ht,
    fun l t table hl he ht => groupOpt_readable hsort he (ho.breakStartTable _ he) hz h2 (hin l hl) ht,
    fun l t table hl he ht => groupOpt_readable hsort he (ho.breakEndTable _ he) hz h3 (hin l hl) ht,
    fun l t ht => specials_readable hz h5 ht, fun l t ht => specials_readable hz h6 ht, hp⟩

theorem applied_congr {z z' : Tz} (hz : z' = z) {rules rules' : List (Int × HolidayFn)}
    {adHoc adHoc' : List (Int × List Int)} {l : Int}
    (h : ∀ t, SpecialTime rules' adHoc' start stop l t ↔ SpecialTime rules adHoc start stop l t) (u : Int) :
    Applied z' rules' adHoc' start stop l u ↔ Applied z rules adHoc start stop l u := by
  subst hz
  exact exists_congr fun t => and_congr_left' (h t)

theorem standard_congr {z z' : Tz} (hz : z' = z) {table table' : TimeTable} {k k' l : Int} (hk : k' = k)
    (h : ∀ t, TimeInEffect table' l t ↔ TimeInEffect table l t) {u : Int} (hu : StandardTime z' table' k' l u) :
    StandardTime z table k l u := by
  subst hz
  subst hk
  obtain ⟨t, ht, ho⟩ := hu
  exact ⟨t, (h t).1 ht, ho⟩

/-- What is known of a row depends on what the class configures for its date only. -/
theorem RowFacts.transfer {s : Session} (h : SameAt cfg cfg' start stop s.label) (f : RowFacts cfg' start stop s) :
    RowFacts cfg start stop s := by
  have hO : ∀ u, SpecialOpen cfg' start stop s.label u ↔ SpecialOpen cfg start stop s.label u :=
    applied_congr h.tz h.specialOpens
  have hC : ∀ u, SpecialClose cfg' start stop s.label u ↔ SpecialClose cfg start stop s.label u :=
    applied_congr h.tz h.specialCloses
  have hn : (∀ u, ¬ SpecialClose cfg start stop s.label u) → ∀ u, ¬ SpecialClose cfg' start stop s.label u :=
    fun h u hu => h u ((hC u).1 hu)
  constructor
  · exact fun u hu => (hO _).1 (f.openSpecial u ((hO u).2 hu))
  · exact fun hno => standard_congr h.tz h.openOffset h.opens (f.openStandard fun u hu => hno u ((hO u).1 hu))
  · exact fun u hu => (hC _).1 (f.closeSpecial u ((hC u).2 hu))
  · exact fun hno => standard_congr h.tz h.closeOffset h.closes (f.closeStandard (hn hno))
  · exact fun u hu => f.brkSpecial u ((hC u).2 hu)
  · intro hno bt et hbt het
    obtain ⟨bt', hbt'⟩ := Option.isSome_iff_exists.1 (h.hasBreakStarts.2 (by rw [hbt]; rfl))
    obtain ⟨et', het'⟩ := Option.isSome_iff_exists.1 (h.hasBreakEnds.2 (by rw [het]; rfl))
    obtain ⟨x, y, h1, h2, h3⟩ := f.brkStandard (hn hno) bt' et' hbt' het'
    exact ⟨x, y, h1, standard_congr h.tz rfl (h.breakStarts _ _ hbt hbt') h2,
      standard_congr h.tz rfl (h.breakEnds _ _ het het') h3⟩
  · intro hbt
    refine f.brkNone ?_
    cases hb : cfg'.breakStartTimes with
    | none => rfl
    | some t =>
      have := h.hasBreakStarts.1 (by rw [hb]; rfl)
      rw [hbt] at this
      cases this
  · exact fun hno => h.hasBreakStarts.symm.trans ((f.brkBoth (hn hno)).trans h.hasBreakEnds)

theorem mem_rows_label {b : Built} (hb : build cfg start stop = .ok b) (hm : DAY ∣ start)
    (hwf : WellFormed cfg start) (l : Int) :
    (∃ s ∈ rowsOf b.cal, s.label = l) ↔ SessionLabel cfg start stop l := by
  obtain ⟨sch, hs, hc, -⟩ := build_parts hb
  have hmem := (schedule_labels hs hm).2 l
  rw [← hc, ← (c34_rows hb hwf).2, List.mem_map] at hmem
  exact hmem

theorem row_of_edit {b b' : Built} (h : Steady cfg) (h' : Steady cfg') (hb : build cfg start stop = .ok b)
    (hb' : build cfg' start stop = .ok b') (hm : DAY ∣ start) (hlow : NP_NAT + 3 * DAY ≤ start) {s s' : Session}
    (hs : s ∈ rowsOf b.cal) (hs' : s' ∈ rowsOf b'.cal) (hl : s.label = s'.label)
    (hsame : SameAt cfg cfg' start stop s.label) : s = s' := by
  have f := row_facts hb (h.ordered.wellFormed h.tame hm hlow) s hs
  have f' := row_facts hb' (h'.ordered.wellFormed h'.tame hm hlow) s' hs'
  exact rows_eq h.ordered h.special f (f'.transfer (hl ▸ hsame)) hl (fun _ => Iff.rfl) fun _ => Iff.rfl

theorem Spec.SameAt.symm {l : Int} (h : SameAt cfg cfg' start stop l) : SameAt cfg' cfg start stop l :=
  ⟨h.tz.symm, h.openOffset.symm, h.closeOffset.symm, h.hasBreakStarts.symm, h.hasBreakEnds.symm,
    fun t => (h.opens t).symm, fun t => (h.closes t).symm, fun _ _ a b t => (h.breakStarts _ _ b a t).symm,
    fun _ _ a b t => (h.breakEnds _ _ b a t).symm, fun t => (h.specialOpens t).symm,
    fun t => (h.specialCloses t).symm⟩

theorem row_in_edit {b b' : Built} (h : Steady cfg) (h' : Steady cfg') (hb : build cfg start stop = .ok b)
    (hb' : build cfg' start stop = .ok b') (hm : DAY ∣ start) (hlow : NP_NAT + 3 * DAY ≤ start) {s : Session}
    (hs : s ∈ rowsOf b.cal) (hd : SessionLabel cfg' start stop s.label)
    (hsame : SameAt cfg cfg' start stop s.label) : s ∈ rowsOf b'.cal := by
  obtain ⟨s', hs', e⟩ := (mem_rows_label hb' hm (h'.ordered.wellFormed h'.tame hm hlow) _).2 hd
  rw [row_of_edit h h' hb hb' hm hlow hs hs' e.symm hsame]
  exact hs'

theorem SessionLabel.same {l : Int} (hd : ∀ d, lo ≤ d * DAY → d * DAY ≤ hi → TradingDay cfg d → TradingDay cfg' d)
    (h1 : lo ≤ l) (h2 : l ≤ hi) (h : SessionLabel cfg start stop l) : SessionLabel cfg' start stop l := by
  obtain ⟨d, rfl, a, b, c⟩ := h
  exact ⟨d, rfl, a, b, hd d h1 h2 c⟩

theorem agree_of_edit {b b' : Built} (h : Steady cfg) (h' : Steady cfg') (hb : build cfg start stop = .ok b)
    (hb' : build cfg' start stop = .ok b') (hm : DAY ∣ start) (hlow : NP_NAT + 3 * DAY ≤ start)
    (hd : ∀ d, lo ≤ d * DAY → d * DAY ≤ hi → (TradingDay cfg d ↔ TradingDay cfg' d))
    (hsame : ∀ l, lo ≤ l → l ≤ hi → SameAt cfg cfg' start stop l) :
    Agree b b' (lo + 3 * DAY) (hi - 2 * DAY) := by
  have hp := DAY_pos
  have hwf := h.ordered.wellFormed h.tame hm hlow
  have hwf' := h'.ordered.wellFormed h'.tame hm hlow
  have hC : Common (rowsOf b.cal) (rowsOf b'.cal) (lo + 3 * DAY) (hi - 2 * DAY) := by
    intro s hhi hlo
    constructor
    · intro hs
      have := row_near h.ordered h.tame h.openHigh (row_facts hb hwf s hs)
      have h1 : lo ≤ s.label := by omega
      have h2 : s.label ≤ hi := by omega
      exact row_in_edit h h' hb hb' hm hlow hs
        (SessionLabel.same (fun d a c => (hd d a c).1) h1 h2 ((mem_rows_label hb hm hwf _).1 ⟨s, hs, rfl⟩))
        (hsame _ h1 h2)
    · intro hs
      have := row_near h'.ordered h'.tame h'.openHigh (row_facts hb' hwf' s hs)
      have h1 : lo ≤ s.label := by omega
      have h2 : s.label ≤ hi := by omega
      exact row_in_edit h' h hb' hb hm hlow hs
        (SessionLabel.same (fun d a c => (hd d a c).2) h1 h2 ((mem_rows_label hb' hm hwf' _).1 ⟨s, hs, rfl⟩))
        (hsame _ h1 h2).symm
  obtain ⟨e, -, -, -, hr⟩ := c38_regular hb h.ordered h.tame hm hlow
  obtain ⟨e', -, -, -, hr'⟩ := c38_regular hb' h'.ordered h'.tame hm hlow
  have hw := c38_whole_minutes hb h.ordered h.tame hm hlow h.zoneMinutes h.timeMinutes
  have hw' := c38_whole_minutes hb' h'.ordered h'.tame hm hlow h'.zoneMinutes h'.timeMinutes
  constructor
  · rw [e, e']
    exact sameAnswers_of hC hr hr' hw hw'
  · intro l hl1 hl2
    have k1 : lo ≤ l := by omega
    have k2 : l ≤ hi := by omega
    have hs : l ∈ b.cal.sessions ↔ l ∈ b'.cal.sessions := by
      rw [← (c34_rows hb hwf).2, ← (c34_rows hb' hwf').2, List.mem_map, List.mem_map,
        mem_rows_label hb hm hwf, mem_rows_label hb' hm hwf']
      exact ⟨SessionLabel.same (fun d a c => (hd d a c).1) k1 k2,
        SessionLabel.same (fun d a c => (hd d a c).2) k1 k2⟩
    have hs' := hsame l k1 k2
    obtain ⟨-, -, a1, a2⟩ := c41_lists hb h.ordered h.tame hm hlow
    obtain ⟨-, -, b1, b2⟩ := c41_lists hb' h'.ordered h'.tame hm hlow
    rw [a1, a2, b1, b2, hs]
    exact ⟨and_congr_right fun _ => exists_congr fun u => (applied_congr hs'.tz hs'.specialCloses u).symm,
      and_congr_right fun _ => exists_congr fun u => (applied_congr hs'.tz hs'.specialOpens u).symm⟩

/-! ### a new entry at the end of a table -/

theorem timeInEffect_append_before {table : TimeTable} {day t l t' : Int} (hl : l < day) :
    TimeInEffect (table ++ [(some day, t)]) l t' ↔ TimeInEffect table l t' := by
  constructor
  · rintro ⟨bef, s, aft, e, h1, h2⟩
    rcases List.eq_nil_or_concat aft with rfl | ⟨aft', x, rfl⟩
    · obtain ⟨-, e⟩ := List.append_inj' e rfl
      cases e
      have := h1 day rfl
      omega
    · have e' : table ++ [(some day, t)] = (bef ++ (s, t') :: aft') ++ [x] := by rw [e]; simp
      obtain ⟨e1, -⟩ := List.append_inj' e' rfl
      exact ⟨bef, s, aft', e1, h1, fun e he => h2 e (by simp [he])⟩
  · rintro ⟨bef, s, aft, rfl, h1, h2⟩
    refine ⟨bef, s, aft ++ [(some day, t)], by simp, h1, fun e he => ?_⟩
    rcases List.mem_append.1 he with he | he
    · exact h2 e he
    · rw [List.mem_singleton.1 he]
      exact ⟨day, rfl, hl⟩

theorem timeInEffect_append_after {table : TimeTable} {day t l : Int} (hl : day ≤ l) :
    TimeInEffect (table ++ [(some day, t)]) l t :=
  ⟨table, some day, [], rfl, fun x hx => by cases hx; exact hl, fun _ h => by cases h⟩

end TC
