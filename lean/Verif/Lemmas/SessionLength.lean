import Verif.Spec.SessionLength
import Verif.Lemmas.ByClock
import Verif.Lemmas.ZoneCheck
import Verif.Props.Gaps

/-! # The length of sessions -/

namespace TC
open Spec Props

/-- Between two instants with different offsets there is a change. -/
theorem exists_change {z : Tz} : ∀ (n : Nat) (u : Int), z.offsetAt u ≠ z.offsetAt (u + n) →
    ∃ s, u < s ∧ s ≤ u + n ∧ z.offsetAt (s - 1) = z.offsetAt u ∧ z.offsetAt s ≠ z.offsetAt u
  | 0, u, h => absurd (by simp) h
  | n + 1, u, h => by
    by_cases he : z.offsetAt u = z.offsetAt (u + n)
    · refine ⟨u + (n + 1 : Nat), by omega, Int.le_refl _, ?_, fun e => h e.symm⟩
      rw [he]
      congr 1
      omega
    · obtain ⟨s, h1, h2, h3⟩ := exists_change n u he
      exact ⟨s, h1, by omega, h3⟩

/-- If each reading from `w₁` to `w₂` happens once, as much time passes as the clock says. -/
theorem elapsed {z : Tz} (h : Tame z) {w₁ w₂ u₁ u₂ : Int} (hw : w₁ ≤ w₂) (hfar : w₂ - w₁ ≤ DAY)
    (h1 : OnlyInstant z w₁ u₁) (h2 : OnlyInstant z w₂ u₂)
    (hall : ∀ w, w₁ ≤ w → w ≤ w₂ → ∃ u, OnlyInstant z w u) : u₂ - u₁ = w₂ - w₁ := by
  have hD := DAY_pos
  have e1 := (reads_iff h _ _).mp h1.1
  have e2 := (reads_iff h _ _).mp h2.1
  have hle : u₁ ≤ u₂ := (only_le h h1 h2.1).2 hw
  have b1 := offsetAt_bound h u₁
  have b2 := offsetAt_bound h u₂
  by_cases he : z.offsetAt u₁ = z.offsetAt u₂
  · omega
  exfalso
  have hnear : u₂ ≤ u₁ + 2 * DAY := by
    apply Decidable.byContradiction
    intro hn
    have inside : ∀ v, u₁ ≤ v → v < u₂ → w₁ ≤ v + z.offsetAt v ∧ v + z.offsetAt v < w₂ := by
      intro v v1 v2
      have hr : Reads z v (v + z.offsetAt v) := (reads_iff h _ _).mpr rfl
      have r1 := (only_le h h1 hr).1 v1
      have r2 : ¬ u₂ ≤ v := by omega
      rw [only_le h h2 hr] at r2
      omega
    have i1 := inside (u₁ + DAY) (by omega) (by omega)
    have i2 := inside (u₁ + 2 * DAY) (by omega) (by omega)
    rcases one_jump h (u := u₁) (v := u₁ + DAY) (w := u₁ + 2 * DAY) (by omega) (by omega) (by omega) with e | e
    · omega
    · omega
  obtain ⟨s, s1, s2, s3, s4⟩ := exists_change (z := z) (u₂ - u₁).toNat u₁ (by
    rw [show u₁ + ((u₂ - u₁).toNat : Int) = u₂ by omega]; exact he)
  rw [show u₁ + ((u₂ - u₁).toNat : Int) = u₂ by omega] at s2
  have before : ∀ v, u₁ ≤ v → v < s → z.offsetAt v = z.offsetAt u₁ := by
    intro v v1 v2
    rcases one_jump h (u := u₁) (v := v) (w := s - 1) v1 (by omega) (by omega) with e | e
    · exact e.symm
    · rw [e, s3]
  have after : ∀ v, s ≤ v → v ≤ u₂ → z.offsetAt v = z.offsetAt u₂ := by
    have es : z.offsetAt s = z.offsetAt u₂ := by
      rcases one_jump h (u := u₁) (v := s) (w := u₂) (by omega) s2 hnear with e | e
      · exact absurd e.symm s4
      · exact e
    intro v v1 v2
    rcases one_jump h (u := s) (v := v) (w := u₂) v1 v2 (by omega) with e | e
    · rw [← e, es]
    · exact e
  rcases Int.lt_or_gt_of_ne he with hlt | hgt
  · -- clocks go forward: the reading at the change is skipped
    obtain ⟨u, hu⟩ := hall (s + z.offsetAt u₁) (by omega) (by omega)
    have r1 : u₁ ≤ u := (only_le h h1 hu.1).2 (by omega)
    have r2 : u ≤ u₂ := (only_le h hu h2.1).2 (by omega)
    have r := (reads_iff h _ _).mp hu.1
    by_cases hs : u < s
    · rw [before u r1 hs] at r; omega
    · rw [after u (by omega) r2] at r; omega
  · -- clocks go back: a reading happens twice
    have ls := after s (Int.le_refl _) s2
    by_cases hc : u₁ + z.offsetAt u₁ ≤ s + z.offsetAt u₂
    · obtain ⟨u, hu⟩ := hall (s + z.offsetAt u₂) (by omega) (by omega)
      have q1 := hu.2 s ((reads_iff h _ _).mpr (by rw [ls]))
      have q2 := hu.2 (s + z.offsetAt u₂ - z.offsetAt u₁) ((reads_iff h _ _).mpr (by
        rw [before (s + z.offsetAt u₂ - z.offsetAt u₁) (by omega) (by omega)]; omega))
      omega
    · have q := h1.2 (w₁ - z.offsetAt u₂) ((reads_iff h _ _).mpr (by
        rw [after (w₁ - z.offsetAt u₂) (by omega) (by omega)]; omega))
      omega

theorem length_sessMin_none {s : Session} (hb : s.brk = none) (hw : s.WholeMinutes) (hoc : s.open ≤ s.close) :
    ((sessMin s).length : Int) * MINUTE = s.close - s.open + MINUTE := by
  obtain ⟨h1, h2, -⟩ := hw
  simp only [sessMin, hb, length_arange]
  simp only [MINUTE] at *
  omega

theorem length_sessMin_some {s : Session} {u v : Int} (hb : s.brk = some (u, v)) (hw : s.WholeMinutes)
    (h1 : s.open ≤ u) (h2 : v ≤ s.close) :
    ((sessMin s).length : Int) * MINUTE = (u - s.open + MINUTE) + (s.close - v + MINUTE) := by
  obtain ⟨h3, h4, h5⟩ := hw
  obtain ⟨h6, h7⟩ := h5 u v hb
  simp only [sessMin, hb, length_arange, List.length_append]
  simp only [MINUTE] at *
  omega

/-- The readings of the timetable lie between `lo` and `hi`, and are in order. -/
structure Within (T : Timetable) (lo hi : Int) : Prop where
  opens : ∀ d o, T.opens d o → lo ≤ o
  closes : ∀ d o c, T.opens d o → T.closes d c → o ≤ c ∧ c ≤ hi
  early : ∀ d o t, T.opens d o → T.early d t → o ≤ t ∧ t ≤ hi
  breaks : ∀ d o c p, T.opens d o → T.closes d c → T.breaks = some p → o ≤ p.1 ∧ p.1 ≤ p.2 ∧ p.2 ≤ c

/-- The rows of a calendar that keeps a timetable. -/
theorem keeps_rows {x : Exchange} {z : Tz} {first : Int} {bad : List Int} {T : Timetable}
    (hk : KeepsHours x z first bad T) (hc : ConstructibleFrom x z first bad) (hst : Steady (x.config z))
    (hT : OneTime T) (hlow : NP_NAT + 3 * DAY ≤ first * DAY) {start stop : Int} {b : Built} (h1 : first * DAY ≤ start)
    (h2 : DAY ∣ start) (h3 : ∀ d ∈ bad, d * DAY < start ∨ stop < d * DAY)
    (h4 : build (x.config z) start stop = .ok b) :
    ∃ ss, b.cal = Cal.ofSessions ss ∧ Regular ss ∧ (∀ s ∈ ss, s.WholeMinutes) ∧ (∀ s ∈ ss, s.open < s.close) ∧
      ∀ s ∈ ss, ∃ d, s.label = d * DAY ∧ start ≤ s.label ∧ s.label ≤ stop ∧ TradesOn x d ∧
        KeepsDay T z start stop d s := by
  have hz : Tame z := hst.tame
  have hD := DAY_pos
  have hB := hc start stop h1 h2
  rcases Classical.em (∃ d, start ≤ d * DAY ∧ d * DAY ≤ stop ∧ TradesOn x d) with hex | hex
  case inr =>
    obtain ⟨why, hw⟩ := hB.empty (fun d h1 h2 h3 => hex ⟨d, h1, h2, h3⟩)
    rw [h4] at hw
    cases hw
  obtain ⟨b', hb', ss, hss, hne, hreg, hoc, hl, -, -⟩ := hB.succeeds h3 hex
  rw [h4] at hb'
  cases hb'
  obtain ⟨⟨ss', hss', hday⟩, -⟩ := hk start stop b h1 h2 h3 h4
  obtain ⟨hof, hreg2, hwm⟩ := gap_regular hst h4 h2 (by omega)
  have nat : ∀ {ss : List Session}, Regular ss → ∀ s ∈ ss, ∀ b e, s.brk = some (b, e) → b ≠ NP_NAT := by
    intro ss hr s hs b e hb
    have := (hr.ok s hs).2.2 b e hb
    have := (hr.ok s hs).1
    omega
  have e0 : rowsOf b.cal = ss := ofSessions_inj _ _ (nat hreg2) (nat hreg) (hof ▸ hss)
  rw [e0] at hwm
  have hlab : ss.map (·.label) = ss'.map (·.label) := by
    have : b.cal.sessions = b.cal.sessions := rfl
    conv at this => lhs; rw [hss]
    conv at this => rhs; rw [hss']
    exact this
  have hEq : ss = ss' := by
    refine ofSessions_inj ss ss' (nat hreg) ?_ (hss ▸ hss')
    intro s hs b e hb
    obtain ⟨d, hd⟩ := hday s hs
    have hsl : start ≤ s.label := by
      have : s.label ∈ ss.map (·.label) := by rw [hlab]; exact List.mem_map_of_mem hs
      obtain ⟨-, -, h, -⟩ := (hl _).1 this
      exact h
    rcases Classical.em (∃ u, T.EarlyAt z start stop d u) with ⟨u, hu⟩ | hne
    · rw [(hd.early u hu).2] at hb; cases hb
    · have hne : ∀ u, ¬ T.EarlyAt z start stop d u := fun u hu => hne ⟨u, hu⟩
      cases hTb : T.breaks with
      | none => rw [hd.noBreak hTb] at hb; cases hb
      | some p =>
        obtain ⟨u, v, e', hu, -⟩ := hd.breaks hne p hTb
        rw [hb] at e'
        cases e'
        have := only_near hz hu
        have := hT.breaks p hTb
        have := hd.label
        omega
  subst hEq
  refine ⟨ss, hss, hreg, hwm, hoc, fun s hs => ?_⟩
  obtain ⟨d, hd⟩ := hday s hs
  have hld := hd.label
  obtain ⟨d', hd', hr1, hr2, htr⟩ := (hl s.label).1 (List.mem_map_of_mem hs)
  have hdd : d' = d := by
    rw [hd'] at hld
    simp only [DAY] at hld
    omega
  subst hdd
  exact ⟨d', hd', hr1, hr2, htr, hd⟩

theorem keepsLength_of {x : Exchange} {z : Tz} {first lo hi : Int} {bad odd : List Int} {T : Timetable}
    (hk : KeepsHours x z first bad T) (hc : ConstructibleFrom x z first bad) (hst : Steady (x.config z))
    (hT : OneTime T) (hW : Within T lo hi) (hspan : hi - lo ≤ DAY) (hlow : NP_NAT + 3 * DAY ≤ first * DAY)
    (hclear : ∀ d, first ≤ d → TradesOn x d → d ∉ odd → ∀ t, lo ≤ t → t ≤ hi → ∃ u, OnlyInstant z (d * DAY + t) u) :
    KeepsLength x z first bad odd T := by
  intro start stop b h1 h2 h3 h4 l hlb
  have hz : Tame z := hst.tame
  have hD := DAY_pos
  obtain ⟨-, hearly⟩ := hk start stop b h1 h2 h3 h4
  obtain ⟨ss, hss, hreg, hwm, hoc, hday⟩ := keeps_rows hk hc hst hT hlow h1 h2 h3 h4
  have hlb' : l ∈ ss.map (·.label) := by
    rw [hss] at hlb
    exact hlb
  obtain ⟨s, hs, rfl⟩ := List.mem_map.1 hlb'
  obtain ⟨d', hd', hr1, hr2, htr, hd⟩ := hday s hs
  have hfd : first ≤ d' := by
    rw [hd'] at hr1
    simp only [DAY] at *
    omega
  refine ⟨d', sessMin s, hd', ?_, fun hodd => ?_⟩
  · rw [hss]
    exact minutesForSession_eq hreg hwm hs
  obtain ⟨o, ho, huo⟩ := hd.opens
  have hclr := hclear d' hfd htr hodd
  have span : ∀ {t t' u u' : Int}, lo ≤ t → t ≤ t' → t' ≤ hi → OnlyInstant z (d' * DAY + t) u →
      OnlyInstant z (d' * DAY + t') u' → u' - u = t' - t := by
    intro t t' u u' g1 g2 g3 g4 g5
    have := elapsed hz (by omega) (by omega) g4 g5 (fun w w1 w2 => by
      obtain ⟨u, hu⟩ := hclr (w - d' * DAY) (by omega) (by omega)
      exact ⟨u, by rwa [show d' * DAY + (w - d' * DAY) = w by omega] at hu⟩)
    omega
  have hE : s.label ∈ b.earlyCloses ↔ ∃ u, T.EarlyAt z start stop d' u := by
    rw [hearly]
    constructor
    · rintro ⟨d, u, he, -, -, hu⟩
      have : d = d' := by
        rw [hd'] at he
        simp only [DAY] at he
        omega
      subst this
      exact ⟨u, hu⟩
    · rintro ⟨u, hu⟩
      exact ⟨d', u, hd', hr1, hr2, hu⟩
  have hok := hreg.ok s hs
  have hle := hoc s hs
  constructor
  · intro hno
    rw [hE] at hno
    have hno : ∀ u, ¬ T.EarlyAt z start stop d' u := fun u hu => hno ⟨u, hu⟩
    obtain ⟨c, hcl, huc⟩ := hd.closes hno
    have w1 := hW.opens d' o ho
    have w2 := hW.closes d' o c ho hcl
    refine ⟨o, c, ho, hcl, fun hnb => ?_, fun p hp => ?_⟩
    · rw [length_sessMin_none (hd.noBreak hnb) (hwm s hs) (by omega)]
      have := span w1 w2.1 w2.2 huo huc
      omega
    · obtain ⟨u, v, hbrk, hu, hv⟩ := hd.breaks hno p hp
      have w3 := hW.breaks d' o c p ho hcl hp
      have q1 := span w1 w3.1 (by omega) huo hu
      have q2 := span (by omega) w3.2.2 w2.2 hv huc
      rw [length_sessMin_some hbrk (hwm s hs) (by omega) (by omega)]
      omega
  · intro hyes
    obtain ⟨u, hu⟩ := hE.1 hyes
    obtain ⟨hcu, hbn⟩ := hd.early u hu
    obtain ⟨t, het, hut, -, -⟩ := hu
    have w1 := hW.opens d' o ho
    have w2 := hW.early d' o t ho het
    refine ⟨o, t, ho, het, ?_⟩
    rw [length_sessMin_none hbn (hwm s hs) (by omega), hcu]
    have := span w1 w2.1 w2.2 huo hut
    omega

/-! ### Clocks from the evening before -/

/-- The gap or overlap from `a` to `b` is empty, ends before day `first`, or lies in the night to a Sunday or to a day
of `odd`. -/
def weekendB (first : Int) (odd : List Int) (a b : Int) : Bool :=
  decide (b ≤ a) || decide (b ≤ first * DAY - hm 7 0) ||
    (decide (b ≤ a / DAY * DAY + hm 8 0) && (weekday (a / DAY) == 6 || odd.contains (a / DAY)))

theorem weekendB_sound {first a b : Int} {odd : List Int} (h : weekendB first odd a b = true) {d t : Int}
    (hd : first ≤ d) (hw : weekday d ≠ 6) (ho : d ∉ odd) (h1 : -hm 7 0 ≤ t) (h2 : t ≤ hm 18 0) :
    d * DAY + t < a ∨ b ≤ d * DAY + t := by
  unfold weekendB at h
  simp only [Bool.or_eq_true, Bool.and_eq_true, decide_eq_true_eq, beq_iff_eq, List.contains_iff_mem] at h
  have e1 : hm 8 0 = 28800000000000 := by decide
  have e2 : hm 18 0 = 64800000000000 := by decide
  have e3 : hm 7 0 = 25200000000000 := by decide
  rw [e1, e3] at h
  rw [e2] at h2
  rw [e3] at h1
  rcases h with (h | h) | ⟨h, h'⟩
  · omega
  · simp only [DAY] at *
    omega
  · have hne : a / DAY ≠ d := by
      rintro rfl
      rcases h' with h' | h'
      · exact hw h'
      · exact ho h'
    simp only [DAY] at *
    omega

def weekendsB (first : Int) (odd : List Int) (p : Int) : List (Int × Int) → Bool
  | [] => true
  | e :: rest => weekendB first odd (e.1 + min p e.2) (e.1 + max p e.2) && weekendsB first odd e.2 rest

theorem weekendsB_sound {first d t : Int} {odd : List Int} (hd : first ≤ d) (hw : weekday d ≠ 6) (ho : d ∉ odd)
    (h1 : -hm 7 0 ≤ t) (h2 : t ≤ hm 18 0) :
    ∀ (l : List (Int × Int)) (p : Int), weekendsB first odd p l = true → clearAt (d * DAY + t) p l
  | [], _, _ => trivial
  | e :: rest, p, h => by
    unfold weekendsB at h
    rw [Bool.and_eq_true] at h
    refine ⟨?_, weekendsB_sound hd hw ho h1 h2 rest _ h.2⟩
    have := weekendB_sound h.1 hd hw ho h1 h2
    omega

/-- Clear from the evening before a trading day of an exchange that does not trade on Sundays. -/
theorem evening_clear {x : Exchange} {z : Tz} {first : Int} {odd : List Int} (hz : Tame z)
    (h : weekendsB first odd z.base z.trans = true) (hx : (6 : Int) ∉ x.weekdays) (d : Int) (hd : first ≤ d)
    (ht : TradesOn x d) (ho : d ∉ odd) (t : Int) (h1 : -hm 7 0 ≤ t) (h2 : t ≤ hm 18 0) :
    ∃ u, OnlyInstant z (d * DAY + t) u := by
  obtain ⟨w, hw, hi⟩ := ht.1
  have := (weekday_iff _ _).1 hi
  refine clear_only hz (weekendsB_sound hd ?_ ho h1 h2 _ _ h)
  rintro h6
  rw [h6] at this
  exact hx (this ▸ hw)

/-- Clear in daytime. -/
theorem day_clear {x : Exchange} {z : Tz} {first first' : Int} (h : ClearFrom z first') (hf : first' ≤ first) (d : Int)
    (hd : first ≤ d) (_ : TradesOn x d) (_ : d ∉ ([] : List Int)) (t : Int) (h1 : hm 8 0 ≤ t) (h2 : t ≤ hm 21 0) :
    ∃ u, OnlyInstant z (d * DAY + t) u := h.clear d (by omega) t h1 h2

/-! ### Timetables with finitely many times -/

/-- The times of the timetable are among those listed. -/
structure TimesIn (T : Timetable) (os cs es : List Int) : Prop where
  opens : ∀ d o, T.opens d o → o ∈ os
  closes : ∀ d c, T.closes d c → c ∈ cs
  early : ∀ d t, T.early d t → t ∈ es

/-- The times are in order between `lo` and `hi`, and the lengths are among those listed. -/
def lengthsB (os cs es : List Int) (brk : Option (Int × Int)) (lo hi : Int) (full short : List Nat) : Bool :=
  os.all fun o => decide (lo ≤ o) &&
    (cs.all fun c => decide (o ≤ c) && decide (c ≤ hi) &&
      match brk with
      | none => full.any fun n => decide (n * MINUTE = c - o + MINUTE)
      | some p => decide (o ≤ p.1) && decide (p.1 ≤ p.2) && decide (p.2 ≤ c) &&
          full.any fun n => decide (n * MINUTE = (p.1 - o + MINUTE) + (c - p.2 + MINUTE))) &&
    es.all fun t => decide (o ≤ t) && decide (t ≤ hi) && short.any fun n => decide (n * MINUTE = t - o + MINUTE)

theorem lengthsB_sound {T : Timetable} {os cs es : List Int} {lo hi : Int} {full short : List Nat}
    (hT : TimesIn T os cs es) (h : lengthsB os cs es T.breaks lo hi full short = true) :
    Within T lo hi ∧ (∀ d n, FullLength T d n → n ∈ full) ∧ ∀ d n, ShortLength T d n → n ∈ short := by
  unfold lengthsB at h
  simp only [List.all_eq_true, Bool.and_eq_true, decide_eq_true_eq] at h
  have same : ∀ (n m : Nat) (k : Int), n * MINUTE = k → m * MINUTE = k → n = m := fun n m k h1 h2 => by
    simp only [MINUTE] at h1 h2
    omega
  refine ⟨⟨fun d o ho => (h o (hT.opens d o ho)).1.1, fun d o c ho hc => ?_, fun d o t ho ht => ?_,
    fun d o c p ho hc hp => ?_⟩, fun d n => ?_, fun d n => ?_⟩
  · exact ((h o (hT.opens d o ho)).1.2 c (hT.closes d c hc)).1
  · exact ((h o (hT.opens d o ho)).2 t (hT.early d t ht)).1
  · have := ((h o (hT.opens d o ho)).1.2 c (hT.closes d c hc)).2
    rw [hp] at this
    simp only [Bool.and_eq_true, decide_eq_true_eq] at this
    omega
  · rintro ⟨o, c, ho, hc, h1, h2⟩
    have := ((h o (hT.opens d o ho)).1.2 c (hT.closes d c hc)).2
    cases hb : T.breaks with
    | none =>
      rw [hb] at this
      simp only [List.any_eq_true, decide_eq_true_eq] at this
      obtain ⟨m, hmem, hm'⟩ := this
      rw [same n m _ (h1 hb) hm']
      exact hmem
    | some p =>
      rw [hb] at this
      simp only [Bool.and_eq_true, List.any_eq_true, decide_eq_true_eq] at this
      obtain ⟨-, m, hmem, hm'⟩ := this
      rw [same n m _ (h2 p hb) hm']
      exact hmem
  · rintro ⟨o, t, ho, ht, h1⟩
    have := ((h o (hT.opens d o ho)).2 t (hT.early d t ht)).2
    simp only [List.any_eq_true, decide_eq_true_eq] at this
    obtain ⟨m, hmem, hm'⟩ := this
    rw [same n m _ h1 hm']
    exact hmem

theorem changed_in {y m k t t' d u : Int} (h : Hours.changed y m k t t' d u) : u ∈ [t, t'] := by
  obtain ⟨-, -, ⟨-, rfl⟩ | ⟨-, rfl⟩⟩ := h <;> simp

theorem always_in {t d u : Int} (h : Hours.always t d u) : u ∈ [t] := by
  rw [show u = t from h]
  simp

theorem book_in {early : List (Int × Book)} {single : List (Int × List (Int × Int × Int))} {d t : Int}
    (h : EarlyByBook early single d t) : t ∈ early.map (·.1) ++ single.map (·.1) := by
  rcases h with ⟨e, he, rfl, -⟩ | ⟨e, he, rfl, -⟩
  · exact List.mem_append_left _ (List.mem_map_of_mem he)
  · exact List.mem_append_right _ (List.mem_map_of_mem (f := (·.1)) he)

theorem feasts_in {early : List (Int × Book)} {feasts : List (Int × Feast)} {but : List (Int × Int × Int)} {d t : Int}
    (h : EarlyForFeasts early feasts but d t) : t ∈ early.map (·.1) ++ feasts.map (·.1) := by
  rcases h with ⟨e, he, rfl, -⟩ | ⟨⟨e, he, rfl, -⟩, -⟩
  · exact List.mem_append_left _ (List.mem_map_of_mem he)
  · exact List.mem_append_right _ (List.mem_map_of_mem (f := (·.1)) he)

theorem daily_in {o c : Int} {E : Int → Int → Prop} {es : List Int} (h : ∀ d t, E d t → t ∈ es) :
    TimesIn (Hours.daily o c E) [o] [c] es :=
  ⟨fun d _ => always_in (d := d), fun d _ => always_in (d := d), h⟩

/-- The common case: everything happens in daytime. -/
theorem sessionLengths_of {x : Exchange} {z : Tz} {first first' : Int} {bad : List Int} {T : Timetable}
    {os cs es : List Int} {full short : List Nat}
    (hk : KeepsHours x z first bad T) (hc : ConstructibleFrom x z first bad) (hst : Steady (x.config z))
    (hT : OneTime T) (hlow : NP_NAT + 3 * DAY ≤ first * DAY) (hz : ClearFrom z first') (hf : first' ≤ first)
    (hin : TimesIn T os cs es)
    (h : lengthsB os cs es T.breaks (hm 8 0) (hm 21 0) full short = true) :
    SessionLengths x z first bad [] T full short := by
  obtain ⟨h1, h2, h3⟩ := lengthsB_sound hin h
  exact ⟨keepsLength_of hk hc hst hT h1 (by decide) hlow (day_clear hz hf), h2, h3⟩

/-- Sessions that open the evening before. -/
theorem sessionLengths_evening {x : Exchange} {z : Tz} {first : Int} {bad odd : List Int} {T : Timetable}
    {os cs es : List Int} {full short : List Nat}
    (hk : KeepsHours x z first bad T) (hc : ConstructibleFrom x z first bad) (hst : Steady (x.config z))
    (hT : OneTime T) (hlow : NP_NAT + 3 * DAY ≤ first * DAY) (hw : weekendsB first odd z.base z.trans = true)
    (hx : (6 : Int) ∉ x.weekdays) (hspan : lo ≥ - hm 7 0 ∧ hi ≤ hm 18 0 ∧ hi - lo ≤ DAY) (hin : TimesIn T os cs es)
    (h : lengthsB os cs es T.breaks lo hi full short = true) :
    SessionLengths x z first bad odd T full short := by
  obtain ⟨h1, h2, h3⟩ := lengthsB_sound hin h
  exact ⟨keepsLength_of hk hc hst hT h1 hspan.2.2 hlow
    (fun d hd ht ho t t1 t2 => evening_clear hst.tame hw hx d hd ht ho t (by omega) (by omega)), h2, h3⟩

end TC
