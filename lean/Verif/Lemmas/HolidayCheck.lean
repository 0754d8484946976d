import Verif.Lemmas.Holiday

/-! # Decidable checks for the hypotheses of the holiday-rule theorems -/

namespace TC
open Spec

/-- Sufficient check for `GoodOffset`. -/
def goodOffsetB : Offset → Bool
  | .weekday wd n => decide (0 ≤ wd ∧ wd < 7 ∧ n ≠ 0)
  | .weekOfMonth week wd => decide (0 ≤ week ∧ week ≤ 3 ∧ 0 ≤ wd ∧ wd < 7)
  | .lastWeekOfMonth wd => decide (0 ≤ wd ∧ wd < 7)
  | _ => true

/-- Sufficient check for `GoodRule`. -/
def goodRuleB (r : Rule) : Bool :=
  decide (1 ≤ r.month ∧ r.month ≤ 12 ∧ 1 ≤ r.day ∧ r.day ≤ monthLength 1 r.month) &&
  r.offsets.all goodOffsetB &&
  (match r.daysOfWeek with | none => true | some ws => ws.all fun w => decide (0 ≤ w ∧ w < 7))

theorem goodOffset_of {o : Offset} (h : goodOffsetB o = true) : GoodOffset o := by
  cases o <;> simp [goodOffsetB, GoodOffset] at h ⊢ <;> exact h

theorem goodRule_of {r : Rule} (h : goodRuleB r = true) : GoodRule r := by
  unfold goodRuleB at h
  simp only [Bool.and_eq_true, decide_eq_true_iff] at h
  obtain ⟨⟨⟨h1, h2, h3, h4⟩, ho⟩, hw⟩ := h
  refine ⟨?_, ?_, ?_⟩
  · intro y
    refine ⟨h1, h2, h3, Int.le_trans h4 ?_⟩
    simp only
    unfold monthLength
    have hl : ¬ Leap 1 := by decide
    rw [if_neg hl]
    repeat' split
    all_goals omega
  · intro o hmem
    exact goodOffset_of (List.all_eq_true.1 ho o hmem)
  · intro ws hws w hmem
    rw [hws] at hw
    simp only at hw
    simpa using List.all_eq_true.1 hw w hmem

/-- Interval of the displacement of an offset. -/
def spread : Offset → Option (Int × Int)
  | .days n => some (n, n)
  | .weekday _ n => some (if 0 < n then (7 * (n - 1), 7 * n - 1) else (7 * n + 1, 7 * (n + 1)))
  | .weekOfMonth _ _ => some (1, 62)
  | .lastWeekOfMonth _ => some (1, 62)
  | _ => none

def spreads : List Offset → Option (Int × Int)
  | [] => some (0, 0)
  | o :: os => match spread o, spreads os with
    | some a, some b => some (a.1 + b.1, a.2 + b.2)
    | _, _ => none

/-- Sufficient check that offsets lead from a date to the same or an adjacent year. -/
def offsetsNearB : List Offset → Bool
  | .easter :: os => match spreads os with
    | some b => decide (-79 ≤ b.1) && decide (b.2 ≤ 250)
    | none => false
  | os => match spreads os with
    | some b => decide (-365 ≤ b.1) && decide (b.2 ≤ 365)
    | none => false

theorem addWeekOfMonth_bounds {week : Int} (hw : 0 ≤ week ∧ week ≤ 3) (wd u : Int) :
    u < addWeekOfMonth week wd u ∧ addWeekOfMonth week wd u ≤ u + 62 := by
  rw [addWeekOfMonth_eq]
  have hm := (month_of u).2.2.1
  have hn := next_bounds u
  split
  · have := nthFrom_bounds week wd (u - dayOfMonth u + 1); omega
  · have := nthFrom_bounds week wd (nextMonthStart u); omega

theorem addLastWeekOfMonth_bounds (wd u : Int) :
    u < addLastWeekOfMonth wd u ∧ addLastWeekOfMonth wd u ≤ u + 62 := by
  unfold addLastWeekOfMonth
  have e1 : lastWeekdayOfMonth wd u = lastBefore wd (nextMonthStart u) := rfl
  have e2 : lastWeekdayOfMonth wd (nextMonthStart u) =
    lastBefore wd (nextMonthStart (nextMonthStart u)) := rfl
  rw [e1, e2]
  have hn := next_bounds u
  have hn' := next_bounds (nextMonthStart u)
  have hs := monthStart_spaced (monthStart_next u) (monthStart_next (nextMonthStart u)) hn'.1
  split
  · have := lastBefore_bounds wd (nextMonthStart u); omega
  · have := lastBefore_bounds wd (nextMonthStart (nextMonthStart u)); omega

theorem spread_sound {o : Offset} (hg : GoodOffset o) {a : Int × Int} (h : spread o = some a)
    (u : Int) : u + a.1 ≤ o.apply u ∧ o.apply u ≤ u + a.2 := by
  cases o with
  | days n =>
    simp only [spread, Option.some.injEq] at h
    subst h
    simp only [Offset.apply]; omega
  | easter => simp [spread] at h
  | annual f => simp [spread] at h
  | weekday wd n =>
    simp only [spread, Option.some.injEq] at h
    simp only [GoodOffset] at hg
    simp only [Offset.apply, addWeekday]
    subst h
    split
    · simp only; unfold weekday; omega
    · simp only; unfold weekday; omega
  | weekOfMonth week wd =>
    simp only [spread, Option.some.injEq] at h
    subst h
    have := addWeekOfMonth_bounds ⟨hg.1, hg.2.1⟩ wd u
    simp only [Offset.apply]; omega
  | lastWeekOfMonth wd =>
    simp only [spread, Option.some.injEq] at h
    subst h
    have := addLastWeekOfMonth_bounds wd u
    simp only [Offset.apply]; omega

theorem spreads_sound {os : List Offset} (hg : ∀ o ∈ os, GoodOffset o) {a : Int × Int}
    (h : spreads os = some a) (u : Int) :
    u + a.1 ≤ os.foldl (fun d o => o.apply d) u ∧ os.foldl (fun d o => o.apply d) u ≤ u + a.2 := by
  induction os generalizing u a with
  | nil =>
    simp only [spreads, Option.some.injEq] at h
    subst h
    simp
  | cons o os ih =>
    simp only [spreads] at h
    split at h
    · rename_i b c hb hc
      simp only [Option.some.injEq] at h
      subst h
      have h1 := spread_sound (hg o List.mem_cons_self) hb u
      have h2 := ih (fun o' ho => hg o' (List.mem_cons_of_mem _ ho)) hc (o.apply u)
      simp only [List.foldl_cons]
      omega
    · simp at h

theorem yearOf_near {u d : Int} (h1 : u - 365 ≤ d) (h2 : d ≤ u + 365) :
    yearOf u - 1 ≤ yearOf d ∧ yearOf d ≤ yearOf u + 1 := by
  have hu := yearOf_spec u
  have hd := yearOf_spec d
  have a := jan1_succ (yearOf u)
  have b := jan1_succ (yearOf u - 1)
  have c := jan1_succ (yearOf u + 1)
  have e1 : yearOf u - 1 + 1 = yearOf u := by omega
  rw [e1] at b
  have e2 : jan1 (yearOf u - 1) < jan1 (yearOf d + 1) := by split at b <;> omega
  have e3 : jan1 (yearOf d) < jan1 (yearOf u + 1 + 1) := by split at c <;> omega
  constructor
  · apply Decidable.byContradiction
    intro hc
    have : jan1 (yearOf d + 1) ≤ jan1 (yearOf u - 1) := jan1_le_iff.2 (by omega)
    omega
  · apply Decidable.byContradiction
    intro hc
    have : jan1 (yearOf u + 1 + 1) ≤ jan1 (yearOf d) := jan1_le_iff.2 (by omega)
    omega

theorem yearOf_nextEaster (u : Int) : nextAnnual easter u = easter (yearOf u) ∨
    nextAnnual easter u = easter (yearOf u + 1) := by
  unfold nextAnnual; split <;> simp

theorem easter_plus {y k : Int} (h1 : -79 ≤ k) (h2 : k ≤ 250) : yearOf (easter y + k) = y := by
  rw [yearOf_eq_iff]
  have := easter_in_year y
  omega

theorem offsetsNear_sound {os : List Offset} (hg : ∀ o ∈ os, GoodOffset o)
    (h : offsetsNearB os = true) (u : Int) :
    yearOf u - 1 ≤ yearOf (os.foldl (fun d o => o.apply d) u) ∧
    yearOf (os.foldl (fun d o => o.apply d) u) ≤ yearOf u + 1 := by
  unfold offsetsNearB at h
  split at h
  · rename_i os'
    split at h
    · rename_i b hb
      rw [Bool.and_eq_true, decide_eq_true_iff, decide_eq_true_iff] at h
      have hs := spreads_sound (fun o' ho => hg o' (List.mem_cons_of_mem _ ho)) hb
        (Offset.apply .easter u)
      simp only [List.foldl_cons]
      have he : Offset.apply .easter u = nextAnnual easter u := rfl
      have hy : ∀ y, Offset.apply .easter u = easter y →
          yearOf (List.foldl (fun d o => o.apply d) (Offset.apply .easter u) os') = y := by
        intro y hy
        have hk : List.foldl (fun d o => o.apply d) (Offset.apply .easter u) os' =
          easter y + (List.foldl (fun d o => o.apply d) (Offset.apply .easter u) os' - easter y) := by
          omega
        rw [hk]
        apply easter_plus <;> omega
      rcases yearOf_nextEaster u with h' | h'
      · rw [hy _ (he.trans h')]; omega
      · rw [hy _ (he.trans h')]; omega
    · simp at h
  · split at h
    · rename_i b hb
      rw [Bool.and_eq_true, decide_eq_true_iff, decide_eq_true_iff] at h
      have hs := spreads_sound hg hb u
      exact yearOf_near (by omega) (by omega)
    · simp at h

theorem obs_near {o : Obs} (ho : o ≠ .followingTuesdayEveryFourYears) {u d : Int}
    (h : d ∈ o.apply u) : yearOf u - 1 ≤ yearOf d ∧ yearOf d ≤ yearOf u + 1 := by
  have tbl : ∀ t : WeekTable, t.all (fun l => l.all fun k => decide (-6 ≤ k ∧ k ≤ 6)) = true →
      ByTable t u d → u - 6 ≤ d ∧ d ≤ u + 6 := by
    intro t ht hb
    rw [byTable_iff] at hb
    obtain ⟨l, hl, hd⟩ := hb
    have h1 := List.all_eq_true.1 ht l (List.mem_of_getElem? hl)
    have h2 := List.all_eq_true.1 h1 _ hd
    rw [decide_eq_true_iff] at h2
    omega
  have fin : u - 62 ≤ d ∧ d ≤ u + 62 → yearOf u - 1 ≤ yearOf d ∧ yearOf d ≤ yearOf u + 1 :=
    fun h => yearOf_near (by omega) (by omega)
  have fin6 : u - 6 ≤ d ∧ d ≤ u + 6 → yearOf u - 1 ≤ yearOf d ∧ yearOf d ≤ yearOf u + 1 :=
    fun h => yearOf_near (by omega) (by omega)
  have hc := (obs_iff o ho u d).1 h
  cases o with
  | followingTuesdayEveryFourYears => exact absurd rfl ho
  | goodFridayUnlessChristmasNyeFriday =>
    simp only [Obs.apply, goodFridayUnlessChristmasNyeFriday] at h
    split at h
    · simp only [List.mem_singleton] at h
      rcases yearOf_nextEaster u with h' | h'
      · rw [h, h', easter_plus (by omega) (by omega)]; omega
      · rw [h, h', easter_plus (by omega) (by omega)]; omega
    · simp at h
  | processQueenBirthday =>
    simp only [Obs.apply, List.mem_singleton] at h
    apply fin
    rw [h]
    unfold processQueenBirthday
    repeat' split
    · unfold addWeekday weekday; simp; omega
    · unfold sundayToMonday; split <;> omega
    · have := addWeekOfMonth_bounds (week := 3) (by omega) 0 u; omega
    · have := addWeekOfMonth_bounds (week := 1) (by omega) 0 u; omega
    · have := addWeekOfMonth_bounds (week := 2) (by omega) 0 u; omega
  | boxingDayObs => exact fin6 (by simp only [Contributes] at hc; omega)
  | notYear y => exact fin6 (by simp only [Contributes] at hc; omega)
  | taiwanMakeup =>
    rcases hc with rfl | hc
    · exact fin6 (by omega)
    · exact fin6 (tbl _ (by decide) hc.1)
  | culturalDiversity => exact fin6 (tbl _ (by decide) hc.1)
  | weekendToMondayExcept ys => exact fin6 (tbl _ (by decide) hc.1)
  | nextMondayOrTuesdayExcept ys => exact fin6 (tbl _ (by decide) hc.1)
  | _ => exact fin6 (tbl _ (by decide) hc)

/-- Sufficient check for `StrictlyNear`. -/
def strictlyNearB (r : Rule) : Bool :=
  match r.observance with
  | some o => decide (o ≠ .followingTuesdayEveryFourYears)
  | none => offsetsNearB r.offsets

theorem applyRule_near {r : Rule} (hg : GoodRule r) (h : strictlyNearB r = true) {y d : Int}
    (hd : d ∈ r.applyRule (dayOf y r.month r.day)) : y - 1 ≤ yearOf d ∧ yearOf d ≤ y + 1 := by
  have hy := yearOf_dayOf (hg.date y)
  simp only at hy
  unfold strictlyNearB at h
  unfold Rule.applyRule at hd
  cases ho : r.observance with
  | some o =>
    simp only [ho, decide_eq_true_iff] at h hd
    have := obs_near h hd
    rw [hy] at this
    exact this
  | none =>
    simp only [ho, List.mem_singleton] at h hd
    have := offsetsNear_sound hg.offsets h (dayOf y r.month r.day)
    rw [← hd, hy] at this
    exact this

theorem strictlyNear_of {r : Rule} (hg : GoodRule r) (h : strictlyNearB r = true) :
    StrictlyNear r := by
  intro y d hk
  rw [← ofYear_iff hg] at hk
  have hd := (List.mem_filter.1 hk).1
  exact ⟨yearOf d, (inYear_iff _ _).2 rfl, applyRule_near hg h hd⟩

theorem near_of_strictly {r : Rule} (h : StrictlyNear r) : Near r := by
  intro y d hk
  obtain ⟨y', hy, h1, h2⟩ := h y d hk
  exact ⟨y, y', hk, hy, h1, h2⟩

/-- The election-day rule is near although its reference dates move up to three years. -/
theorem near_quadrennial {r : Rule} (hg : GoodRule r)
    (ho : r.observance = some .followingTuesdayEveryFourYears) : Near r := by
  intro y d hk
  obtain ⟨u, hu, hc, hw⟩ := hk
  simp only [ho] at hc
  simp only [Contributes] at hc
  obtain ⟨y₁, m₁, k₁, y', v, hv₁, hd₁, h4, hy1, hy2, hv', hd', hwk, h1, h2⟩ := hc
  have hu := (dayNumber_iff _ _).1 hu
  have hd₁ := (dayNumber_iff _ _).1 hd₁
  have heq := dayOf_inj hv₁ (hg.date y) (hd₁.2.trans hu.2.symm)
  simp only [Date.mk.injEq] at heq
  obtain ⟨rfl, rfl, rfl⟩ := heq
  refine ⟨y', yearOf d, ⟨v, hd', ?_, hw⟩, (inYear_iff _ _).2 rfl, ?_⟩
  · simp only [ho, Contributes]
    exact ⟨y', _, _, y', v, hv', hd', h4, by omega, by omega, hv', hd', hwk, h1, h2⟩
  · have hy := yearOf_dayOf hv'
    rw [((dayNumber_iff _ _).1 hd').2] at hy
    have := yearOf_near (u := v) (d := d) (by omega) (by omega)
    simp only at hy
    omega

/-- Sufficient check for `Near`. -/
def nearB (r : Rule) : Bool :=
  strictlyNearB r || decide (r.observance = some .followingTuesdayEveryFourYears)

theorem near_of {r : Rule} (hg : GoodRule r) (h : nearB r = true) : Near r := by
  unfold nearB at h
  rw [Bool.or_eq_true, decide_eq_true_iff] at h
  rcases h with h | h
  · exact near_of_strictly (strictlyNear_of hg h)
  · exact near_quadrennial hg h

/-- All rules of a list pass the checks. -/
def rulesB (rules : List Rule) : Bool := rules.all fun r => goodRuleB r && nearB r

/-- Rules pandas accepts, each holiday near its reference date. -/
def GoodRules (rules : List Rule) : Prop := (∀ r ∈ rules, GoodRule r) ∧ ∀ r ∈ rules, Near r

theorem rules_of {rules : List Rule} (h : rulesB rules = true) : GoodRules rules := by
  have := List.all_eq_true.1 h
  constructor
  · intro r hr
    have := this r hr
    rw [Bool.and_eq_true] at this
    exact goodRule_of this.1
  · intro r hr
    have := this r hr
    rw [Bool.and_eq_true] at this
    exact near_of (goodRule_of this.1) this.2

end TC
