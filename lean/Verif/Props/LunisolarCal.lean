import Verif.Lemmas.LunisolarCal
import Verif.Props.Tcal
import Verif.Props.Lunisolar

/-!
# C71: the lunar months printed by `chinese-cal`
-/

namespace TC.Props
open Spec Spec.Lunisolar Tcal TC.Lunisolar

/-! ### Headings -/

theorem rstrip_center {s : Str} (hne : s ≠ []) (h : ∀ c, s.getLast? = some c → isSpace c = false) (n : Nat) :
    rstrip (center s n) = List.replicate ((n - s.length) / 2) ' ' ++ s := by
  unfold center
  rw [rstrip_append_blanks, rstrip_self]
  intro c hc
  rw [List.getLast?_append] at hc
  cases hx : s.getLast? with
  | none => exact absurd (List.getLast?_eq_none_iff.1 hx) hne
  | some x => rw [hx] at hc; exact h c (by rw [hx]; simpa using hc)

/-- The text is not empty and does not end in white space. -/
def Solid (s : Str) : Prop := s ≠ [] ∧ ∀ c, s.getLast? = some c → isSpace c = false

theorem Solid.append (a : Str) {b : Str} (h : Solid b) : Solid (a ++ b) := by
  refine ⟨by simp [h.1], fun c hc => ?_⟩
  rw [List.getLast?_append] at hc
  cases hx : b.getLast? with
  | none => exact absurd (List.getLast?_eq_none_iff.1 hx) h.1
  | some x => rw [hx] at hc; exact h.2 c (by rw [hx]; simpa using hc)

theorem solid_decimal (n : Int) : Solid (decimal n) :=
  ⟨decimal_ne_nil n, fun _ hc => (decimal_plain (List.mem_of_getLast? hc)).1⟩

theorem solid_monthName (m : Int) : Solid (monthName m).toList :=
  ⟨(monthName_plain m).1, fun c hc => ((monthName_plain m).2.2 c (List.mem_of_getLast? hc)).1⟩

theorem solid_lunarTitle (n : Int) (plus : Bool) (year : Option Int) : Solid (lunarTitle n plus year) := by
  unfold lunarTitle
  simp only [← decimal_eq]
  cases year with
  | some y => exact Solid.append _ (Solid.append [' '] (solid_decimal y))
  | none =>
    simp only [List.append_nil]
    cases plus with
    | true => exact Solid.append _ ⟨by decide, by decide⟩
    | false =>
      simp only [Bool.false_eq_true, if_false, List.append_nil]
      exact Solid.append _ (solid_decimal n)

theorem gregorianMonth_of (d : Int) : gregorianMonth d = (monthName (monthOf d)).toList := by
  have h := toDate_valid d
  exact months_get _ ⟨h.1, h.2.1⟩

/-! ### The grid -/

theorem dayOfMonth_bounds (d : Int) : 1 ≤ dayOfMonth d ∧ dayOfMonth d ≤ 31 := by
  have h := toDate_valid d
  have h3 := h.2.2.1
  have h4 := h.2.2.2
  have := monthLength_bounds (yearOf d) (monthOf d)
  simp only [toDate] at h3 h4
  omega

theorem twoDigits_plain : ∀ i : Fin 31, ∀ c ∈ twoDigits ((i.1 : Int) + 1), isBreak c = false := by decide

theorem rjust_two (d : Int) : rjust (decimal (dayOfMonth d)) 2 = twoDigits (dayOfMonth d) := by
  have := dayOfMonth_bounds d
  have := rjust_day ⟨(dayOfMonth d - 1).toNat, by omega⟩
  simp only [show (((dayOfMonth d - 1).toNat : Nat) : Int) + 1 = dayOfMonth d by omega] at this
  exact this

/-- C71.  The rendering of one lunar month. -/
theorem c71_render_month (y : Int) (months : List Int) (n : Nat) {s t a b : Int} (hs : months[n]? = some s)
    (ht : months[n + 1]? = some t) (ha : DateInChina s a) (hb : DateInChina t b) (hab : a < b) (py : Bool) :
    ∃ lines, renderLunarMonth y months (n + 1) py = .ok (printed lines) ∧
      LunarMonthLines a b (n + 1) (decide (30 < b - a)) (if py then some y else none) lines := by
  rw [dateInChina_iff] at ha hb
  subst ha hb
  generalize ea : chineseDate s = a at *
  generalize eb : chineseDate t = b at *
  obtain ⟨N, hN, hN0⟩ : ∃ N : Nat, b - a = N ∧ 0 < N := ⟨(b - a).toNat, by omega, by omega⟩
  have hwf : 0 ≤ weekday a ∧ weekday a ≤ 6 := by unfold weekday; omega
  obtain ⟨g, hg, hg7, hgm⟩ : ∃ g : Nat, (1 ≤ g ∧ g ≤ 7) ∧ (g % 7 : Nat) = (weekday a + 1) % 7 ∧
      ((weekday a = 6 → g = 7) ∧ (weekday a ≠ 6 → (g : Int) = weekday a + 1)) := by
    by_cases h : weekday a = 6
    · exact ⟨7, by decide, by rw [h]; decide, fun _ => rfl, fun h' => absurd h h'⟩
    · refine ⟨(weekday a + 1).toNat, by omega, by omega, fun h' => absurd h' h, fun _ => by omega⟩
  have hcell : ∀ i : Nat, (twoDigits (dayOfMonth (a + i))).length = 2 ∧
      ∀ c ∈ twoDigits (dayOfMonth (a + i)), isBreak c = false := by
    intro i
    refine ⟨rfl, ?_⟩
    have hd := dayOfMonth_bounds (a + i)
    have := twoDigits_plain ⟨(dayOfMonth (a + i) - 1).toNat, by omega⟩
    simp only [show (((dayOfMonth (a + i) - 1).toNat : Nat) : Int) + 1 = dayOfMonth (a + i) by omega] at this
    exact this
  have hnew : ∀ i : Nat, decide (weekday (a + i) = 6) = true ↔ (g + i) % 7 = 0 := by
    intro i
    rw [decide_eq_true_eq]
    unfold weekday at *
    omega
  obtain ⟨lines, last, hbody, hlen, -, hwidth, hcol⟩ := gridSep hcell hg hnew N
  have hdays : lunarDays a b = (List.range N).map fun (i : Nat) => a + i := by
    unfold lunarDays; rw [hN, Int.toNat_natCast]
  have hflat : (lunarDays a b).flatMap lunarDayText =
      (List.range N).flatMap fun (i : Nat) =>
        [if decide (weekday (a + i) = 6) then '\n' else ' '] ++ twoDigits (dayOfMonth (a + i)) := by
    rw [hdays, List.flatMap_map]
    simp only [List.flatMap]
    congr 1
    apply List.map_congr_left
    intro i hi
    unfold lunarDayText
    rw [rjust_two]
    simp only [decide_eq_true_eq]
  have hdlen : (lunarDays a b).length = N := by rw [hdays]; simp
  have hfirst : pyIndex (lunarDays a b) 0 = .ok a := by
    have := pyIndex_nat (lunarDays a b) 0 (by omega)
    simp only [hdays, List.getElem_map, List.getElem_range] at this
    rw [hdays]
    simpa using this
  have hlast : pyIndex (lunarDays a b) (-1) = .ok (b - 1) := by
    rw [pyIndex_neg_one _ (by omega)]
    simp only [hdays, List.getElem_map, List.getElem_range, List.length_map, List.length_range]
    congr 1
    omega
  refine ⟨(List.replicate ((20 - (lunarTitle (n + 1) (decide (30 < b - a))
      (if py then some y else none)).length) / 2) ' ' ++ lunarTitle (n + 1) (decide (30 < b - a))
      (if py then some y else none)) :: (List.replicate ((20 - ((monthName (monthOf a)).toList ++ ['-'] ++
      (monthName (monthOf (b - 1))).toList).length) / 2) ' ' ++ ((monthName (monthOf a)).toList ++ ['-'] ++
      (monthName (monthOf (b - 1))).toList)) :: "Su Mo Tu We Th Fr Sa".toList :: (lines ++ [last]), ?_, ?_⟩
  · unfold renderLunarMonth
    have i1 : pyIndex months ((n : Int) + 1 - 1) = pure s := by
      obtain ⟨h1, rfl⟩ := List.getElem?_eq_some_iff.mp hs
      exact pyIndex_of_eq _ (by omega) h1
    have i2 : pyIndex months ((n : Int) + 1) = pure t := by
      obtain ⟨h1, rfl⟩ := List.getElem?_eq_some_iff.mp ht
      exact pyIndex_of_eq _ (by omega) h1
    rw [i1, i2]
    simp only [pure_bind, ea, eb]
    rw [hfirst, hlast, hflat, hdlen]
    simp only [show ∀ x : Int, (Except.ok x : Py Int) = pure x from fun _ => rfl, pure_bind]
    have htitle : "Lunar Month ".toList ++ decimal ((n : Int) + 1) ++
        (if N > 30 then "(+)".toList else []) ++ (if py = true then ' ' :: decimal y else []) =
        lunarTitle (n + 1) (decide (30 < b - a)) (if py then some y else none) := by
      unfold lunarTitle
      simp only [← decimal_eq]
      rw [hN]
      have : (decide ((30 : Int) < (N : Int)) = true) ↔ N > 30 := by rw [decide_eq_true_eq]; omega
      simp only [this]
      cases py <;> rfl
    have hso := solid_lunarTitle (n + 1) (decide (30 < b - a)) (if py then some y else none)
    have hmo : Solid ((monthName (monthOf a)).toList ++ ['-'] ++ (monthName (monthOf (b - 1))).toList) :=
      Solid.append _ (solid_monthName _)
    rw [htitle, gregorianMonth_of, gregorianMonth_of, rstrip_center hso.1 hso.2, rstrip_center hmo.1 hmo.2]
    have hblank : blanks (3 * ((weekday a + 1) % 7) - 1) = List.replicate (3 * (g % 7) - 1) ' ' := by
      unfold blanks
      congr 1
      omega
    rw [hblank, List.append_assoc _ (List.replicate (3 * (g % 7) - 1) ' '), hbody]
    simp [printed, pure, Except.pure]
  · refine ⟨_, _, _, fun d => ((g + (d - a)) / 7).toNat, rfl, rfl, ?_, ?_⟩
    · intro y1 m1 k1 y2 m2 k2 h1 h2
      rw [dayNumber_toDate] at h1 h2
      have e1 : monthOf a = m1 := congrArg Date.month h1
      have e2 : monthOf (b - 1) = m2 := congrArg Date.month h2
      rw [e1, e2]; rfl
    · refine ⟨fun l hl => ⟨(hwidth l hl).1, fun c hc => (isBreak_false c).mp ((hwidth l hl).2 c hc)⟩, ?_, ?_, ?_, ?_, ?_⟩
      · rw [weekday_iff]
        constructor
        · intro h6; have := hgm.1 h6; omega
        · intro h6; have := hgm.2 h6; omega
      · intro d h1 h2
        rw [weekday_iff]
        unfold weekday at *
        constructor
        · intro h6; omega
        · intro h6; omega
      · simp only [List.length_append, hlen, List.length_cons, List.length_nil]
        omega
      · intro d w y' m' k h1 h2 hw hd i hi
        rw [weekday_iff] at hw
        rw [dayNumber_toDate] at hd
        have hk : dayOfMonth d = k := congrArg Date.day hd
        obtain ⟨j, rfl⟩ : ∃ j : Nat, d = a + j := ⟨(d - a).toNat, by omega⟩
        have hcw : lunarColumn w = 3 * ((g + j) % 7) := by
          unfold lunarColumn
          congr 1
          subst hw
          unfold weekday at *
          omega
        have hrow : ((g + (a + (j : Int) - a)) / 7).toNat = (g + j) / 7 := by omega
        have hdiv : (3 * ((g + j) % 7) + i) / 3 = (g + j) % 7 := by omega
        have hidx : 7 * ((g + j) / 7) + (g + j) % 7 = g + j := by omega
        simp only [hrow, hcw]
        rw [hcol, hdiv, hidx, if_pos ⟨by omega, by omega, by omega, by omega⟩, show g + j - g = j by omega,
          show (3 * ((g + j) % 7) + i) % 3 = i by omega, hk]
        rfl
      · intro r q h
        rw [hcol]
        split
        · rename_i hq
          exfalso
          obtain ⟨j, hj⟩ : ∃ j, 7 * r + q / 3 = g + j := ⟨7 * r + q / 3 - g, by omega⟩
          refine h (a + j) _ (by omega) (by omega) ((weekday_iff _ _).2 rfl) ⟨by omega, ?_⟩
          have hcw : lunarColumn (weekday (a + j)) = 3 * ((g + j) % 7) := by
            unfold lunarColumn
            congr 1
            unfold weekday at *
            omega
          rw [hcw]
          omega
        · rfl

/-! ### The command -/

theorem kthAfter_le {kept : Nat → Prop} : ∀ {k i j : Nat}, KthAfter kept k i j → i + k ≤ j
  | 0, _, _, h => by cases h; omega
  | _ + 1, _, _, ⟨_, h1, _, _, h4⟩ => by have := kthAfter_le h4; omega

/-- The list that `chinese_cal` passes on: the months from the beginning of the year. -/
theorem given_of {nm ss zs : List Int} (h : Usable nm ss zs) {y : Int} {j : Nat}
    (hj : YearBegins nm ss zs y j) :
    ∃ rest, ((yearMonths nm ss zs).map (nm.getD · 0)).filter (fun u => decide (yearOf (u / DAY) = y)) =
      nm.getD j 0 :: rest := by
  obtain ⟨h1, ⟨m, hm, hy⟩, h3⟩ := hj
  have hs := (yearMonths_sorted h).filter fun i => decide (yearOf (nm.getD i 0 / DAY) = y)
  have hlt : ∀ i ∈ yearMonths nm ss zs, i < nm.length := fun i hi => by
    obtain ⟨i', hi', hk⟩ := (mem_yearMonths h i).mp hi
    exact (kthAfter_kept (h.regular hi') hk).1
  have hjm : nm.getD j 0 = m := by
    obtain ⟨hl, rfl⟩ := List.getElem?_eq_some_iff.mp hm
    exact getD_at hl
  have hmem : j ∈ (yearMonths nm ss zs).filter fun i => decide (yearOf (nm.getD i 0 / DAY) = y) := by
    rw [List.mem_filter, decide_eq_true_eq, hjm]
    exact ⟨(mem_yearMonths h j).mpr h1, (utcYear_iff _ _).mp hy⟩
  rw [List.filter_map]
  simp only [Function.comp_def]
  generalize hL : ((yearMonths nm ss zs).filter fun i => decide (yearOf (nm.getD i 0 / DAY) = y)) = L at *
  cases L with
  | nil => cases hmem
  | cons a r =>
    have ha : a ∈ (yearMonths nm ss zs).filter fun i => decide (yearOf (nm.getD i 0 / DAY) = y) := by
      rw [hL]; exact List.mem_cons_self
    rw [List.mem_filter, decide_eq_true_eq] at ha
    have hal := hlt a ha.1
    have : a = j := by
      rcases List.mem_cons.1 hmem with e | e
      · exact e.symm
      · have := (List.pairwise_cons.1 hs).1 j e
        exact absurd ((utcYear_iff _ _).mpr ha.2) (h3 a _ this ((mem_yearMonths h a).mp ha.1)
          (by rw [List.getElem?_eq_getElem hal, getD_at hal]))
    subst this
    exact ⟨r.map (nm.getD · 0), rfl⟩

/-- The instants from the beginning of the year, month by month. -/
noncomputable def fromYear (nm ss zs : List Int) (j : Nat) : List Int :=
  ((keptList nm ss zs).map (nm.getD · 0)).drop
    (searchLeft ((keptList nm ss zs).map (nm.getD · 0)) (nm.getD j 0))

theorem newYear_numbered {nm ss zs : List Int} (h : Usable nm ss zs) {j : Nat}
    (hj : NewYearMonth nm ss zs j) : Numbered nm ss zs j := by
  obtain ⟨i, hi, hk⟩ := hj
  exact kthAfter_kept (h.regular hi) hk

theorem fromYear_some {nm ss zs : List Int} (h : Usable nm ss zs) {j n i : Nat} {m : Int}
    (hj : NewYearMonth nm ss zs j) (hi : KthAfter (Numbered nm ss zs) n j i) (hm : nm[i]? = some m) :
    (fromYear nm ss zs j)[n]? = some m := by
  have hs := searchLeft_kept h.sorted (newYear_numbered h hj)
  have := (getElem?_kthAfter (keptList_sorted nm ss zs) mem_keptList (k := n) (j := i) hs).mpr hi
  rw [fromYear, List.getElem?_drop, (kept_getElem? this).1, hm]

theorem fromYear_none {nm ss zs : List Int} (h : Usable nm ss zs) {j n : Nat}
    (hj : NewYearMonth nm ss zs j) (hi : ∀ i, ¬ KthAfter (Numbered nm ss zs) n j i) :
    (fromYear nm ss zs j)[n]? = none := by
  have hs := searchLeft_kept h.sorted (newYear_numbered h hj)
  rw [fromYear, List.getElem?_drop, List.getElem?_map]
  cases hx : (keptList nm ss zs)[searchLeft ((keptList nm ss zs).map (nm.getD · 0)) (nm.getD j 0) + n]? with
  | none => rfl
  | some i =>
    exact absurd ((getElem?_kthAfter (keptList_sorted nm ss zs) mem_keptList (k := n) (j := i) hs).mp hx) (hi i)

theorem chineseCal_one {nm ss zs : List Int} (h : Usable nm ss zs) {y : Int} {j : Nat}
    (hj : YearBegins nm ss zs y j) (month : Int) : chineseCal nm ss zs month (some y) =
      (renderLunarMonth y (fromYear nm ss zs j) month true >>= fun text => pure (text ++ ['\n'])) := by
  obtain ⟨rest, hr⟩ := given_of h hj
  unfold chineseCal
  rw [chineseMonthStart_kept h, calculateNewYear_years h]
  simp only [bind, Except.bind, Option.getD_some, Option.isNone_some, hr]
  rfl

theorem chineseCal_full {nm ss zs : List Int} (h : Usable nm ss zs) {y : Int} {j : Nat}
    (hj : YearBegins nm ss zs y j) : chineseCal nm ss zs y none = (do
      let monthStrings ← [0, 1, 2, 3].mapM fun row => [0, 1, 2].mapM fun column =>
        renderLunarMonth y (fromYear nm ss zs j) (row * 3 + column + 1) false
      let rows ← monthStrings.mapM fun cs => concatLunar cs 20
      return rstrip (center (decimal y) 66 ++ ['\n']) ++ ['\n'] ++ join ['\n', '\n'] rows ++ ['\n']) := by
  obtain ⟨rest, hr⟩ := given_of h hj
  unfold chineseCal
  rw [chineseMonthStart_kept h, calculateNewYear_years h]
  simp only [bind, Except.bind, Option.getD_none, Option.isNone_none, hr]
  rfl

theorem dates_lt {nm ss zs : List Int} (h : Usable nm ss zs) {i i' : Nat} {m m' a b : Int} (hi : i < i')
    (hm : nm[i]? = some m) (hm' : nm[i']? = some m') (ha : DateInChina m a) (hb : DateInChina m' b) : a < b := by
  rw [dateInChina_iff] at ha hb
  obtain ⟨h1, rfl⟩ := List.getElem?_eq_some_iff.mp hm
  obtain ⟨h2, rfl⟩ := List.getElem?_eq_some_iff.mp hm'
  have := (List.pairwise_iff_getElem.mp h.moons i i' h1 h2 hi).2
  rw [notLater_iff] at this
  omega

/-- C71.  `chinese-cal n+1 y` prints the month number `n + 1` of the year, leap months not counted (numbers after
12 go on into the next year): its days are those in China from its new moon to the day before the next numbered
month, so a leap month is printed with the month before it. -/
theorem c71_month {nm ss zs : List Int} (h : Usable nm ss zs) {y : Int} {j n i i' : Nat} {m m' a b : Int}
    (hj : YearBegins nm ss zs y j) (hi : KthAfter (Numbered nm ss zs) n j i)
    (hi' : KthAfter (Numbered nm ss zs) 1 i i') (hm : nm[i]? = some m) (hm' : nm[i']? = some m')
    (ha : DateInChina m a) (hb : DateInChina m' b) :
    ∃ lines, chineseCal nm ss zs (n + 1) (some y) = .ok (printed lines ++ ['\n']) ∧
      LunarMonthLines a b (n + 1) (decide (30 < b - a)) (some y) lines := by
  have hlt : i < i' := kthAfter_le hi'
  obtain ⟨lines, h1, h2⟩ := c71_render_month y (fromYear nm ss zs j) n (fromYear_some h hj.1 hi hm)
    (fromYear_some h hj.1 (kthAfter_add hi hi') hm') ha hb (dates_lt h hlt hm hm' ha hb) true
  refine ⟨lines, ?_, h2⟩
  rw [chineseCal_one h hj, h1]
  rfl

/-- C71.  The mark `(+)` of `c71_month` says that a leap month is printed with the month, if the new moons are 29
or 30 days apart. -/
theorem c71_leap {nm ss zs : List Int} (h : Usable nm ss zs)
    (hgap : ∀ i m m' a b, nm[i]? = some m → nm[i + 1]? = some m' → DateInChina m a → DateInChina m' b →
      29 ≤ b - a ∧ b - a ≤ 30) {y : Int} {j n i i' : Nat} (hj : YearBegins nm ss zs y j)
    (hi : KthAfter (Numbered nm ss zs) n j i) (hi' : KthAfter (Numbered nm ss zs) 1 i i') :
    ∃ title rest, chineseCal nm ss zs (n + 1) (some y) = .ok (printed (title :: rest) ++ ['\n']) ∧
      (LeapMonth nm ss zs (i + 1) → Centred (lunarTitle (n + 1) true (some y)) 20 title) ∧
      (¬ LeapMonth nm ss zs (i + 1) → Centred (lunarTitle (n + 1) false (some y)) 20 title) := by
  have hnum' : Numbered nm ss zs i' := kthAfter_kept (kthAfter_kept (newYear_numbered h hj.1) hi) hi'
  have hlt : i + 1 ≤ i' := kthAfter_le hi'
  have hl' : i' < nm.length := hnum'.1
  have hstep : ∀ k, i + k < nm.length → ∃ m m', nm[i]? = some m ∧ nm[i + k]? = some m' ∧
      29 * (k : Int) ≤ chineseDate m' - chineseDate m ∧ chineseDate m' - chineseDate m ≤ 30 * (k : Int) := by
    intro k
    induction k with
    | zero => intro hk; exact ⟨_, _, List.getElem?_eq_getElem (by omega), List.getElem?_eq_getElem (by omega),
        by simp, by simp⟩
    | succ k ih =>
      intro hk
      obtain ⟨m, m', h1, h2, h3, h4⟩ := ih (by omega)
      have := hgap (i + k) m' nm[i + (k + 1)] _ _ h2
        (by rw [show i + k + 1 = i + (k + 1) by omega]; exact List.getElem?_eq_getElem (by omega))
        ((dateInChina_iff _ _).mpr rfl) ((dateInChina_iff _ _).mpr rfl)
      exact ⟨m, nm[i + (k + 1)], h1, List.getElem?_eq_getElem (by omega), by omega, by omega⟩
  obtain ⟨m, m', hm, hm', h3, h4⟩ := hstep (i' - i) (by omega)
  rw [show i + (i' - i) = i' by omega] at hm'
  obtain ⟨lines, hl, title, months, rows, row, rfl, ht, -⟩ := c71_month h hj hi hi' hm hm'
    ((dateInChina_iff _ _).mpr rfl) ((dateInChina_iff _ _).mpr rfl)
  refine ⟨title, _, hl, fun hleap => ?_, fun hleap => ?_⟩
  · have hne : i' ≠ i + 1 := fun e => hnum'.2 (e ▸ hleap)
    rwa [decide_eq_true (by omega)] at ht
  · have he : i' = i + 1 := by
      obtain ⟨x, h1, h2, h5, h6⟩ := hi'
      cases h6
      apply Classical.byContradiction
      intro hne
      exact h5 (i + 1) (by omega) (by omega) ⟨by omega, hleap⟩
    subst he
    rwa [decide_eq_false (by omega)] at ht

theorem render_missing {y : Int} {months : List Int} {n : Nat} (h : months[n + 1]? = none) (py : Bool) :
    renderLunarMonth y months (n + 1) py = .error .indexError := by
  have h1 : months.length ≤ n + 1 := List.getElem?_eq_none_iff.mp h
  unfold renderLunarMonth
  have i2 : pyIndex months ((n : Int) + 1) = .error .indexError := pyIndex_nat_error months (n + 1) h1
  rw [show (n : Int) + 1 - 1 = n by omega, i2]
  rcases Nat.lt_or_ge n months.length with h2 | h2
  · rw [pyIndex_nat _ _ h2]; rfl
  · rw [pyIndex_nat_error _ _ h2]; rfl

/-- C71.  If the data end before the month does, `chinese-cal` raises `IndexError`. -/
theorem c71_month_missing {nm ss zs : List Int} (h : Usable nm ss zs) {y : Int} {j n : Nat}
    (hj : YearBegins nm ss zs y j) (hi : ∀ i, ¬ KthAfter (Numbered nm ss zs) (n + 1) j i) :
    chineseCal nm ss zs (n + 1) (some y) = .error .indexError := by
  rw [chineseCal_one h hj, render_missing (fromYear_none h hj.1 hi)]
  rfl

/-- C71.  If no year of the data begins in the year asked for, `chinese-cal` raises `ValueError`. -/
theorem c71_year_missing {nm ss zs : List Int} (h : Usable nm ss zs) (y month : Int)
    (hy : ∀ j m, NewYearMonth nm ss zs j → nm[j]? = some m → ¬ UtcYear m y) (year : Option Int)
    (harg : year = some y ∨ year = none ∧ month = y) :
    chineseCal nm ss zs month year =
      .error (.valueError ("data does not contain " ++ toString y)) := by
  rw [show toString y = String.ofList (decimal y) by rw [decimal_eq]; simp [numeral]]
  have hf : ((yearMonths nm ss zs).map (nm.getD · 0)).filter (fun u => decide (yearOf (u / DAY) = y)) = [] := by
    rw [List.filter_eq_nil_iff]
    intro u hu hc
    obtain ⟨j, hj, rfl⟩ := List.mem_map.1 hu
    have hn := (mem_yearMonths h j).mp hj
    have hl := (newYear_numbered h hn).1
    exact hy j (nm.getD j 0) hn (by rw [List.getElem?_eq_getElem hl, getD_at hl])
      ((utcYear_iff _ _).mpr (by simpa using hc))
  have he : year.getD month = y := by
    rcases harg with rfl | ⟨rfl, rfl⟩ <;> rfl
  unfold chineseCal
  rw [chineseMonthStart_kept h, calculateNewYear_years h]
  simp only [bind, Except.bind, he, hf]

/-- C71.  There is no month 0: `IndexError`. -/
theorem c71_month_zero {nm ss zs : List Int} (h : Usable nm ss zs) {y : Int} {j : Nat}
    (hj : YearBegins nm ss zs y j) : chineseCal nm ss zs 0 (some y) = .error .indexError := by
  rw [chineseCal_one h hj]
  obtain ⟨m, hm, -⟩ := hj.2.1
  have h0 := fromYear_some h hj.1 (n := 0) (i := j) rfl hm
  have hl : 0 < (fromYear nm ss zs j).length := by
    obtain ⟨hh, -⟩ := List.getElem?_eq_some_iff.mp h0; exact hh
  have hle : chineseDate (fromYear nm ss zs j)[0] ≤
      chineseDate (fromYear nm ss zs j)[(fromYear nm ss zs j).length - 1] := by
    have hx : (fromYear nm ss zs j)[(fromYear nm ss zs j).length - 1]? =
        some (fromYear nm ss zs j)[(fromYear nm ss zs j).length - 1] := List.getElem?_eq_getElem (by omega)
    have hex : ∃ i, KthAfter (Numbered nm ss zs) ((fromYear nm ss zs j).length - 1) j i := by
      apply Classical.byContradiction
      intro hc
      rw [fromYear_none h hj.1 fun i hi => hc ⟨i, hi⟩] at hx
      cases hx
    obtain ⟨i, hi⟩ := hex
    have hn := (kthAfter_kept (newYear_numbered h hj.1) hi).1
    have hy := fromYear_some h hj.1 hi (List.getElem?_eq_getElem hn)
    rw [hy] at hx
    injection hx with hx
    rw [List.getElem?_eq_getElem hl] at h0
    injection h0 with h0
    rw [← hx, h0]
    rcases Nat.lt_or_eq_of_le (kthAfter_le hi) with hlt | he
    · exact Int.le_of_lt (dates_lt h (by omega : j < i) hm (List.getElem?_eq_getElem hn)
        ((dateInChina_iff _ _).mpr rfl) ((dateInChina_iff _ _).mpr rfl))
    · rcases Nat.lt_or_ge j i with hji | hji
      · exact Int.le_of_lt (dates_lt h hji hm (List.getElem?_eq_getElem hn)
          ((dateInChina_iff _ _).mpr rfl) ((dateInChina_iff _ _).mpr rfl))
      · have : j = i := by omega
        subst this
        rw [List.getElem?_eq_getElem hn] at hm
        injection hm with hm
        rw [hm]; exact Int.le_refl _
  have hd : lunarDays (chineseDate (fromYear nm ss zs j)[(fromYear nm ss zs j).length - 1])
      (chineseDate (fromYear nm ss zs j)[0]) = [] := by
    unfold lunarDays
    rw [Int.toNat_of_nonpos (by omega)]; rfl
  unfold renderLunarMonth
  rw [show (0 : Int) - 1 = -1 by omega, pyIndex_neg_one _ hl, pyIndex_of_eq _ (n := 0) (by omega) hl]
  simp only [bind, Except.bind, hd]
  rfl

/-! ### The whole year -/

theorem lunarTitle_plain : ∀ (n : Fin 12) (plus : Bool), (lunarTitle ((n.1 : Nat) + 1) plus none).length ≤ 20 ∧
    ∀ c ∈ lunarTitle ((n.1 : Nat) + 1) plus none, isBreak c = false := by decide +kernel

theorem lunarLines_plain {a b : Int} {n : Nat} (hn : n < 12) {plus : Bool} {lines : List Str}
    (h : LunarMonthLines a b (n + 1) plus none lines) :
    ∀ l ∈ lines, l.length ≤ 20 ∧ ∀ c ∈ l, ¬ LineEnd c := by
  obtain ⟨title, months, rows, row, rfl, ht, hm, hg⟩ := h
  have hpad : ∀ (k : Nat) (s : Str), s.length ≤ 20 → (∀ c ∈ s, isBreak c = false) →
      k ≤ 20 - s.length → (List.replicate k ' ' ++ s).length ≤ 20 ∧
        ∀ c ∈ List.replicate k ' ' ++ s, ¬ LineEnd c := by
    intro k s h1 h2 h3
    refine ⟨by simp; omega, fun c hc => ?_⟩
    rcases List.mem_append.1 hc with hc | hc
    · rw [List.eq_of_mem_replicate hc, ← isBreak_false]; decide
    · exact (isBreak_false c).mp (h2 c hc)
  intro l hl
  rcases List.mem_cons.1 hl with rfl | hl
  · have := lunarTitle_plain ⟨n, hn⟩ plus
    rw [ht]
    exact hpad _ _ this.1 this.2 (by omega)
  · rcases List.mem_cons.1 hl with rfl | hl
    · have := hm _ _ _ _ _ _ ((dayNumber_toDate _ _).mpr rfl) ((dayNumber_toDate _ _).mpr rfl)
      rw [this]
      have h1 := monthName_plain (monthOf a)
      have h2 := monthName_plain (monthOf (b - 1))
      refine hpad _ _ ?_ ?_ (by omega)
      · simp only [List.length_append, List.length_cons, List.length_nil]
        omega
      · intro c hc
        rcases List.mem_append.1 hc with hc | hc
        · rcases List.mem_append.1 hc with hc | hc
          · exact (h1.2.2 c hc).2
          · rw [List.mem_singleton.1 hc]; decide
        · exact (h2.2.2 c hc).2
    · rcases List.mem_cons.1 hl with rfl | hl
      · simp only [← isBreak_false]; decide
      · exact hg.width l hl

/-- C71.  `chinese-cal y` prints the twelve months of the year, month `n + 1` with the days from its new moon to
the day before the next numbered month. -/
theorem c71_year {nm ss zs : List Int} (h : Usable nm ss zs) {y : Int} {j : Nat}
    (hj : YearBegins nm ss zs y j) {idx : Nat → Nat} {start : Nat → Int}
    (hi : ∀ n, n ≤ 12 → KthAfter (Numbered nm ss zs) n j (idx n) ∧
      ∃ m, nm[idx n]? = some m ∧ DateInChina m (start n)) :
    ∃ text, chineseCal nm ss zs y none = .ok text ∧ ShowsLunarYear start y text := by
  have hmonth : ∀ n : Nat, ∃ lines : List Str, n < 12 →
      renderLunarMonth y (fromYear nm ss zs j) (n + 1) false = .ok (printed lines) ∧
      LunarMonthLines (start n) (start (n + 1)) (n + 1) (decide (30 < start (n + 1) - start n)) none lines := by
    intro n
    by_cases hn : n < 12
    · obtain ⟨k1, m1, e1, d1⟩ := hi n (by omega)
      obtain ⟨k2, m2, e2, d2⟩ := hi (n + 1) (by omega)
      have hlt : idx n < idx (n + 1) := by
        -- the next numbered month is later
        rcases Nat.lt_or_ge (idx n) (idx (n + 1)) with hh | hh
        · exact hh
        · exfalso
          have hs := searchLeft_kept h.sorted (newYear_numbered h hj.1)
          have g1 := (getElem?_kthAfter (keptList_sorted nm ss zs) mem_keptList hs).mpr k1
          have g2 := (getElem?_kthAfter (keptList_sorted nm ss zs) mem_keptList hs).mpr k2
          obtain ⟨l1, e1⟩ := List.getElem?_eq_some_iff.mp g1
          obtain ⟨l2, e2⟩ := List.getElem?_eq_some_iff.mp g2
          have := List.pairwise_iff_getElem.mp (keptList_sorted nm ss zs) _ _ l1 l2 (by omega)
          omega
      obtain ⟨lines, h1, h2⟩ := c71_render_month y (fromYear nm ss zs j) n (fromYear_some h hj.1 k1 e1)
        (fromYear_some h hj.1 k2 e2) d1 d2 (dates_lt h hlt e1 e2 d1 d2) false
      exact ⟨lines, fun _ => ⟨h1, h2⟩⟩
    · exact ⟨[], fun h => absurd h hn⟩
  obtain ⟨p, hp⟩ := Classical.axiomOfChoice hmonth
  have hquarter : ∀ q : Nat, ∃ quarter : List Str, q < 4 →
      concatLunar [printed (p (3 * q)), printed (p (3 * q + 1)), printed (p (3 * q + 2))] 20 =
        .ok (join ['\n'] quarter) ∧
      (∀ i, i < 3 → (p (3 * q + i)).length ≤ quarter.length) ∧
      (∃ i, i < 3 ∧ (p (3 * q + i)).length = quarter.length) ∧
      ∀ r line, quarter[r]? = some line → Shows line (sideBySide
          [p (3 * q), p (3 * q + 1), p (3 * q + 2)] 20 r) := by
    intro q
    by_cases hq : q < 4
    · obtain ⟨rows, h1, h2, ⟨e, he, h4⟩, h3⟩ := c52_concat_lines
        ([0, 1, 2].map fun i => (printed (p (3 * q + i)), p (3 * q + i))) 20 (by simp)
        (by
          intro e he
          obtain ⟨m, -, rfl⟩ := List.mem_map.1 he
          exact Or.inl rfl)
        (by
          intro e he
          obtain ⟨i, hi, rfl⟩ := List.mem_map.1 he
          simp at hi
          exact lunarLines_plain (n := 3 * q + i) (by omega) (hp (3 * q + i) (by omega)).2)
      rw [← join_eq] at h1
      refine ⟨rows, fun _ => ⟨h1, fun i hi => ?_, ?_, h3⟩⟩
      · exact h2 (printed (p (3 * q + i)), p (3 * q + i)) (List.mem_map.2 ⟨i, by simp; omega, rfl⟩)
      · obtain ⟨i, hi, rfl⟩ := List.mem_map.1 he
        exact ⟨i, by simp at hi; omega, h4⟩
    · exact ⟨[], fun h => absurd h hq⟩
  obtain ⟨quarter, hqs⟩ := Classical.axiomOfChoice hquarter
  have hso := solid_decimal y
  have htitle : rstrip (center (decimal y) 66 ++ ['\n']) =
      List.replicate ((66 - (decimal y).length) / 2) ' ' ++ decimal y := by
    have e : ∀ a : Str, rstrip (a ++ ['\n']) = rstrip a := by
      intro a
      unfold rstrip
      rw [List.reverse_append]
      simp [isSpace]
    rw [e, rstrip_center hso.1 hso.2]
  refine ⟨List.replicate ((66 - (decimal y).length) / 2) ' ' ++ decimal y ++ ['\n'] ++
      join ['\n', '\n'] [join ['\n'] (quarter 0), join ['\n'] (quarter 1), join ['\n'] (quarter 2),
        join ['\n'] (quarter 3)] ++ ['\n'], ?_, p, quarter, fun n hn => (hp n hn).2, ⟨_, rfl, by simp only [decimal_eq, join_eq]⟩,
    fun q hq => (hqs q hq).2⟩
  rw [← htitle, chineseCal_full h hj]
  have hr : ∀ n : Nat, n < 12 → ∀ k : Int, k = n + 1 →
      renderLunarMonth y (fromYear nm ss zs j) k false = pure (printed (p n)) :=
    fun n hn k hk => hk ▸ (hp n hn).1
  have hc0 := (hqs 0 (by decide)).1
  have hc1 := (hqs 1 (by decide)).1
  have hc2 := (hqs 2 (by decide)).1
  have hc3 := (hqs 3 (by decide)).1
  simp only [List.mapM_cons, List.mapM_nil, Int.reduceMul, Int.reduceAdd]
  rw [hr 0 (by decide) 1 (by decide)]
  rw [hr 1 (by decide) 2 (by decide)]
  rw [hr 2 (by decide) 3 (by decide)]
  rw [hr 3 (by decide) 4 (by decide)]
  rw [hr 4 (by decide) 5 (by decide)]
  rw [hr 5 (by decide) 6 (by decide)]
  rw [hr 6 (by decide) 7 (by decide)]
  rw [hr 7 (by decide) 8 (by decide)]
  rw [hr 8 (by decide) 9 (by decide)]
  rw [hr 9 (by decide) 10 (by decide)]
  rw [hr 10 (by decide) 11 (by decide)]
  rw [hr 11 (by decide) 12 (by decide)]
  simp only [pure_bind, List.mapM_cons, List.mapM_nil]
  simp only [Nat.reduceMul, Nat.reduceAdd] at hc0 hc1 hc2 hc3 ⊢
  rw [hc0, hc1, hc2, hc3]
  rfl

theorem render_cases {nm ss zs : List Int} (h : Usable nm ss zs) {j : Nat} (hj : NewYearMonth nm ss zs j)
    (y : Int) (n : Nat) : (∃ text, renderLunarMonth y (fromYear nm ss zs j) (n + 1) false = .ok text) ∨
      renderLunarMonth y (fromYear nm ss zs j) (n + 1) false = .error .indexError := by
  by_cases hx : (∃ i, KthAfter (Numbered nm ss zs) n j i) ∧ ∃ i, KthAfter (Numbered nm ss zs) (n + 1) j i
  · obtain ⟨⟨i, hi⟩, i', hi'⟩ := hx
    have hs := searchLeft_kept h.sorted (newYear_numbered h hj)
    have g1 := (getElem?_kthAfter (keptList_sorted nm ss zs) mem_keptList hs).mpr hi
    have g2 := (getElem?_kthAfter (keptList_sorted nm ss zs) mem_keptList hs).mpr hi'
    obtain ⟨l1, e1⟩ := List.getElem?_eq_some_iff.mp g1
    obtain ⟨l2, e2⟩ := List.getElem?_eq_some_iff.mp g2
    have hlt := List.pairwise_iff_getElem.mp (keptList_sorted nm ss zs) _ _ l1 l2 (by omega)
    have hl' := (kthAfter_kept (newYear_numbered h hj) hi').1
    have q1 : nm[i]? = some nm[i] := List.getElem?_eq_getElem (by omega)
    have q2 : nm[i']? = some nm[i'] := List.getElem?_eq_getElem hl'
    obtain ⟨lines, h1, -⟩ := c71_render_month y (fromYear nm ss zs j) n (fromYear_some h hj hi q1)
      (fromYear_some h hj hi' q2) ((dateInChina_iff _ _).mpr rfl) ((dateInChina_iff _ _).mpr rfl)
      (dates_lt h (by omega : i < i') q1 q2 ((dateInChina_iff _ _).mpr rfl) ((dateInChina_iff _ _).mpr rfl)) false
    exact .inl ⟨_, h1⟩
  · refine .inr (render_missing ?_ false)
    by_cases hy : ∃ i, KthAfter (Numbered nm ss zs) (n + 1) j i
    · have hz : ∀ i, ¬ KthAfter (Numbered nm ss zs) n j i := fun i hi => hx ⟨⟨i, hi⟩, hy⟩
      have := List.getElem?_eq_none_iff.mp (fromYear_none h hj hz)
      exact List.getElem?_eq_none (by omega)
    · exact fromYear_none h hj fun i hi => hy ⟨i, hi⟩

/-- C71.  If the data end before the year does, `chinese-cal` raises `IndexError`. -/
theorem c71_year_incomplete {nm ss zs : List Int} (h : Usable nm ss zs) {y : Int} {j : Nat}
    (hj : YearBegins nm ss zs y j) (hi : ∀ i, ¬ KthAfter (Numbered nm ss zs) 12 j i) :
    chineseCal nm ss zs y none = .error .indexError := by
  rw [chineseCal_full h hj]
  have hcol : ∀ row ∈ ([0, 1, 2, 3] : List Int), ∀ column ∈ ([0, 1, 2] : List Int),
      (∃ text, renderLunarMonth y (fromYear nm ss zs j) (row * 3 + column + 1) false = .ok text) ∨
        renderLunarMonth y (fromYear nm ss zs j) (row * 3 + column + 1) false = .error .indexError := by
    intro row hrow column hcolumn
    simp only [List.mem_cons, List.not_mem_nil, or_false] at hrow hcolumn
    obtain ⟨n, hn⟩ : ∃ n : Nat, row * 3 + column = n := ⟨(row * 3 + column).toNat, by omega⟩
    rw [hn]
    exact render_cases h hj.1 y n
  have hlast : renderLunarMonth y (fromYear nm ss zs j) (3 * 3 + 2 + 1) false = .error .indexError :=
    render_missing (n := 11) (fromYear_none h hj.1 hi) false
  have : ([0, 1, 2, 3] : List Int).mapM (fun row => ([0, 1, 2] : List Int).mapM fun column =>
      renderLunarMonth y (fromYear nm ss zs j) (row * 3 + column + 1) false) = .error .indexError := by
    have hin : ∀ row ∈ ([0, 1, 2, 3] : List Int), (∃ l, ([0, 1, 2] : List Int).mapM (fun column =>
        renderLunarMonth y (fromYear nm ss zs j) (row * 3 + column + 1) false) = .ok l) ∨
        ([0, 1, 2] : List Int).mapM (fun column =>
          renderLunarMonth y (fromYear nm ss zs j) (row * 3 + column + 1) false) = .error .indexError := by
      intro row hrow
      by_cases hx : ∃ c ∈ ([0, 1, 2] : List Int),
          renderLunarMonth y (fromYear nm ss zs j) (row * 3 + c + 1) false = .error .indexError
      · exact .inr (mapM_error (hcol row hrow) hx)
      · exact .inl (mapM_exists fun c hc => (hcol row hrow c hc).resolve_right fun he => hx ⟨c, hc, he⟩)
    refine mapM_error hin ⟨3, by simp, mapM_error (hcol 3 (by simp)) ⟨2, by simp, hlast⟩⟩
  rw [this]
  rfl

/-! ### The case of C65: months of thirty days, month 5 a leap month -/

theorem case_numbered {i : Nat} (hi : i < 28) (h : HasZhongqi caseMoons caseZhongqi i) :
    Numbered caseMoons caseSolstices caseZhongqi i := ⟨by simpa [caseMoons] using hi, fun hl => hl.2.1 h⟩

theorem case_zhongqi : ∀ i, i < 28 → i ≠ 5 → i ≠ 20 → HasZhongqi caseMoons caseZhongqi i := by decide +kernel

theorem case_leap : LeapMonth caseMoons caseSolstices caseZhongqi 5 := by
  refine ⟨by decide, by decide +kernel, ?_, fun k hk hz => absurd (case_zhongqi k (by omega) (by omega) (by omega)) hz⟩
  rintro ⟨a, h1, -, h3, h4, -⟩
  exact (by decide +kernel : ∀ a, a < 5 → ¬ (SuiMonth caseMoons caseSolstices a ∧
    SuiMonth caseMoons caseSolstices (a + 12))) a h1 ⟨h3, h4⟩

theorem case_year : YearBegins caseMoons caseSolstices caseZhongqi 1972 3 := by
  refine ⟨⟨1, by decide +kernel, kthAfter_run (k := 2) (i := 1) fun x h1 h2 =>
    case_numbered (by omega) (case_zhongqi x (by omega) (by omega) (by omega))⟩,
    ⟨caseAt 3 0, by decide +kernel, (utcYear_iff _ _).mpr (by decide +kernel)⟩, ?_⟩
  rintro i m hi ⟨k, hk, hk'⟩ -
  have := kthAfter_le hk'
  obtain rfl : k = 0 := by omega
  exact absurd hk (by decide +kernel)

theorem case_run {k i : Nat} (h : (i + k < 5 ∨ 5 ≤ i) ∧ i + k < 20) :
    KthAfter (Numbered caseMoons caseSolstices caseZhongqi) k i (i + k) :=
  kthAfter_run fun x h1 h2 => case_numbered (by omega) (case_zhongqi x (by omega) (by omega) (by omega))

theorem case_over : KthAfter (Numbered caseMoons caseSolstices caseZhongqi) 1 4 6 :=
  ⟨6, by omega, case_numbered (by omega) (case_zhongqi 6 (by omega) (by omega) (by omega)),
    fun x h1 h2 hx => by
      obtain rfl : x = 5 := by omega
      exact hx.2 case_leap, rfl⟩

/-- The second month of 1972, with the leap month after it. -/
example : ∃ lines, chineseCal caseMoons caseSolstices caseZhongqi 2 (some 1972) = .ok (printed lines ++ ['\n']) ∧
    LunarMonthLines (chineseDate (caseAt 4 0)) (chineseDate (caseAt 6 0)) 2 true (some 1972) lines := by
  have := c71_month case_usable case_year (n := 1) (m := caseAt 4 0) (m' := caseAt 6 0)
    (case_run (k := 1) (i := 3) (by omega)) case_over (by decide +kernel) (by decide +kernel)
    ((dateInChina_iff _ _).mpr rfl) ((dateInChina_iff _ _).mpr rfl)
  rwa [show decide (30 < chineseDate (caseAt 6 0) - chineseDate (caseAt 4 0)) = true by decide +kernel] at this

example : (chineseCal caseMoons caseSolstices caseZhongqi 2 (some 1972)).toOption.map String.ofList = some
 "Lunar Month 2(+) 1972
     March-May
Su Mo Tu We Th Fr Sa
                  25
26 27 28 29 30 31  1
 2  3  4  5  6  7  8
 9 10 11 12 13 14 15
16 17 18 19 20 21 22
23 24 25 26 27 28 29
30  1  2  3  4  5  6
 7  8  9 10 11 12 13
14 15 16 17 18 19 20
21 22 23

" := by decide +kernel

/-- The new moons of the case are thirty days apart. -/
theorem case_gap (i : Nat) (m m' a b : Int) (h : caseMoons[i]? = some m) (h' : caseMoons[i + 1]? = some m')
    (ha : DateInChina m a) (hb : DateInChina m' b) : 29 ≤ b - a ∧ b - a ≤ 30 := by
  rw [dateInChina_iff] at ha hb
  have hi : i < 27 := by
    obtain ⟨hh, -⟩ := List.getElem?_eq_some_iff.mp h'
    have : caseMoons.length = 28 := by decide
    omega
  have key : ∀ i, i < 27 → 29 ≤ chineseDate (caseMoons.getD (i + 1) 0) - chineseDate (caseMoons.getD i 0) ∧
      chineseDate (caseMoons.getD (i + 1) 0) - chineseDate (caseMoons.getD i 0) ≤ 30 := by decide +kernel
  have := key i hi
  rw [List.getD_eq_getElem?_getD, List.getD_eq_getElem?_getD, h, h'] at this
  simp only [Option.getD_some] at this
  omega

example : ∃ title rest, chineseCal caseMoons caseSolstices caseZhongqi 2 (some 1972) =
      .ok (printed (title :: rest) ++ ['\n']) ∧ Centred "Lunar Month 2(+) 1972".toList 20 title := by
  obtain ⟨t, r, h1, h2, -⟩ := c71_leap case_usable case_gap case_year (n := 1)
    (case_run (k := 1) (i := 3) (by omega)) case_over
  exact ⟨t, r, h1, h2 case_leap⟩

/-- The year 1972, from month 3 to month 16; month 5 has no number. -/
example : ∃ text, chineseCal caseMoons caseSolstices caseZhongqi 1972 none = .ok text ∧
    ShowsLunarYear (fun n => chineseDate (caseAt (if n ≤ 1 then n + 3 else n + 4 : Nat) 0)) 1972 text := by
  refine c71_year case_usable case_year (idx := fun n => if n ≤ 1 then n + 3 else n + 4) fun n hn => ⟨?_, ?_⟩
  · split
    · rw [Nat.add_comm]; exact case_run (by omega)
    · have := kthAfter_add (kthAfter_add (case_run (k := 1) (i := 3) (by omega)) case_over)
        (case_run (k := n - 2) (i := 6) (by omega))
      rwa [show 1 + 1 + (n - 2) = n by omega, show 6 + (n - 2) = n + 4 by omega] at this
  · refine ⟨caseAt (if n ≤ 1 then n + 3 else n + 4 : Nat) 0, ?_, (dateInChina_iff _ _).mpr rfl⟩
    exact (by decide +kernel : ∀ n : Nat, n ≤ 12 → caseMoons[if n ≤ 1 then n + 3 else n + 4]? =
      some (caseAt (if n ≤ 1 then n + 3 else n + 4 : Nat) 0)) n hn

/-- Errors: the data end; the year does not begin in the data; month 0. -/
example : chineseCal caseMoons caseSolstices caseZhongqi 30 (some 1972) = .error .indexError ∧
    chineseCal caseMoons caseSolstices caseZhongqi 1973 none = .error .indexError ∧
    chineseCal caseMoons caseSolstices caseZhongqi 1 (some 1971) =
      .error (.valueError "data does not contain 1971") ∧
    chineseCal caseMoons caseSolstices caseZhongqi 0 (some 1972) = .error .indexError := by decide +kernel

/-- Month 14 is the second month of the next year, but the heading has the year asked for. -/
example : ((chineseCal caseMoons caseSolstices caseZhongqi 14 (some 1972)).toOption.map fun t =>
    String.ofList (t.takeWhile (· ≠ '\n'))) = some "Lunar Month 14 1972" := by decide +kernel

end TC.Props
