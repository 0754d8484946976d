import Verif.Lemmas.Tcal
import Verif.Lemmas.Named

/-!
# C51, C52: the command line calendar
-/

namespace TC.Props
open Spec Tcal

/-! ## C52 -/

theorem padded_part {lines : List Str} {width m r : Nat} (hl : ∀ l ∈ lines, l.length ≤ width) :
    let part := (lines ++ List.replicate (m - lines.length) (blanks width)).getD r []
    (part ++ blanks (width - part.length)).length = width ∧
    ∀ c, column (part ++ blanks (width - part.length)) c = column (lines.getD r []) c := by
  intro part
  have hp : part.length ≤ width ∧ ∀ c, column part c = column (lines.getD r []) c := by
    by_cases hr : r < lines.length
    · have e : part = lines.getD r [] := by
        simp [part, List.getD_eq_getElem?_getD, List.getElem?_append_left hr]
      rw [e]
      refine ⟨?_, fun _ => rfl⟩
      rw [List.getD_eq_getElem?_getD, List.getElem?_eq_getElem hr]
      exact hl _ (List.getElem_mem _)
    · have e0 : lines.getD r [] = [] := by
        rw [List.getD_eq_getElem?_getD, List.getElem?_eq_none (by omega)]; rfl
      rw [e0]
      have e : part = blanks width ∨ part = [] := by
        simp only [part, List.getD_eq_getElem?_getD, List.getElem?_append_right (Nat.le_of_not_lt hr),
          List.getElem?_replicate]
        split <;> simp
      rcases e with e | e <;> rw [e]
      · refine ⟨by simp [blanks], fun c => ?_⟩
        rw [blanks, column_replicate]; rfl
      · simp
  refine ⟨?_, fun c => ?_⟩
  · simp only [blanks, List.length_append, List.length_replicate]
    omega
  · rw [blanks, column_padded, hp.2]

/-- C52.  `_concat_lines` puts any number of blocks of lines side by side: the result has as many rows
as the tallest block, and row `r` shows the `r`-th lines of all blocks, each in its own `width`
columns, three columns apart, up to trailing white space. -/
theorem c52_concat_lines (bs : List (Str × List Str)) (width : Nat) (hne : bs ≠ [])
    (ht : ∀ e ∈ bs, HasLines e.1 e.2)
    (hl : ∀ e ∈ bs, ∀ l ∈ e.2, l.length ≤ width ∧ ∀ c ∈ l, ¬ LineEnd c) :
    ∃ rows, concatLines (bs.map (·.1)) width = .ok (['\n'].intercalate rows) ∧
      (∀ e ∈ bs, e.2.length ≤ rows.length) ∧ (∃ e ∈ bs, e.2.length = rows.length) ∧
      ∀ r row, rows[r]? = some row → Shows row (sideBySide (bs.map (·.2)) width r) := by
  simp only [← join_eq]
  have hs : (bs.map (·.1)).map splitlines = bs.map (·.2) := by
    rw [List.map_map]
    apply List.map_congr_left
    intro e he
    exact splitlines_of (ht e he) fun l hl' c hc => (isBreak_false c).mpr ((hl e he l hl').2 c hc)
  obtain ⟨m, hm, hm1, hm2⟩ : ∃ m, maxLen ((bs.map (·.2)).map List.length) = .ok m ∧
      (∀ e ∈ bs, e.2.length ≤ m) ∧ ∃ e ∈ bs, e.2.length = m := by
    cases bs with
    | nil => exact absurd rfl hne
    | cons b bs =>
      have := foldl_max ((bs.map (·.2)).map List.length) b.2.length
      refine ⟨_, rfl, ?_, ?_⟩
      · intro e he
        rcases List.mem_cons.1 he with rfl | he
        · exact this.1.1
        · exact this.1.2 _ (by simp; exact ⟨e.1, e.2, he, rfl⟩)
      · have h3 := this.2
        simp only [List.mem_cons, List.mem_map] at h3
        rcases h3 with h3 | ⟨l, ⟨e, he, rfl⟩, h3⟩
        · exact ⟨b, by simp, h3.symm⟩
        · exact ⟨e, by simp [he], h3⟩
  unfold concatLines
  simp only [hs, hm]
  rw [show (Except.ok m : Py Nat) = pure m from rfl]
  simp only [pure_bind]
  refine ⟨_, rfl, ?_⟩
  have hz := zipAll_of (n := m) (lists := (bs.map (·.2)).map fun lines =>
    lines ++ List.replicate (m - lines.length) (blanks width)) (by simpa using hne) (by
      intro l hl'
      simp only [List.mem_map] at hl'
      obtain ⟨_, ⟨e, he, rfl⟩, rfl⟩ := hl'
      have := hm1 e he
      simp
      omega)
  rw [hz]
  refine ⟨by simpa using hm1, by simpa using hm2, ?_⟩
  intro r row hr
  simp only [List.map_map, List.getElem?_map, List.getElem?_range', Option.map_eq_some_iff] at hr
  obtain ⟨i, hi, rfl⟩ := hr
  have hi : i = r := by
    rw [List.getElem?_range] at hi
    · simpa using hi.symm
    · apply Classical.byContradiction
      intro hn
      rw [List.getElem?_eq_none (by simpa using hn)] at hi
      simp at hi
  subst hi
  simp only [Function.comp_apply, List.map_map]
  have hw : ∀ p ∈ bs.map (fun e => (e.2 ++ List.replicate (m - e.2.length) (blanks width)).getD i [] ++
      blanks (width - ((e.2 ++ List.replicate (m - e.2.length) (blanks width)).getD i []).length)),
      p.length = width := by
    intro p hp
    obtain ⟨e, he, rfl⟩ := List.mem_map.1 hp
    exact (padded_part fun l hl' => (hl e he l hl').1).1
  have hcol : ∀ q, column (join [' ', ' ', ' '] (bs.map (fun e =>
      (e.2 ++ List.replicate (m - e.2.length) (blanks width)).getD i [] ++
      blanks (width - ((e.2 ++ List.replicate (m - e.2.length) (blanks width)).getD i []).length)))) q =
      sideBySide (bs.map (·.2)) width i q := by
    intro q
    rw [column_join hw]
    unfold sideBySide
    split
    · simp only [List.getD_eq_getElem?_getD, List.getElem?_map]
      cases hb : bs[q / (width + 3)]? with
      | none => simp
      | some e =>
        have he := List.mem_of_getElem? hb
        have := (padded_part (m := m) (r := i) fun l hl' => (hl e he l hl').1).2 (q % (width + 3))
        simp only [List.getD_eq_getElem?_getD] at this
        simpa using this
    · rfl
  refine rstrip_shows (fun q _ => ?_) (fun q hq => ?_)
  · rw [← hcol]; rfl
  · rw [← hcol q]
    have := column_beyond hq
    have e : column _ q = ' ' := this
    exact (congrArg isSpace e).trans (by decide)

/-- C52.  With no block at all, and only then, `_concat_lines` raises an error, a `ValueError`. -/
theorem c52_empty (strings : List Str) (width : Int) (e : PyErr) :
    concatLines strings width = .error e ↔
      strings = [] ∧ e = .valueError "max() arg is an empty sequence" := by
  cases strings with
  | nil =>
    have : concatLines [] width = .error (.valueError "max() arg is an empty sequence") := rfl
    rw [this]
    simp [eq_comm]
  | cons a l =>
    simp only [List.cons_ne_nil, false_and, iff_false]
    intro h
    simp [concatLines, maxLen, bind, Except.bind, pure, Except.pure] at h

/-- Two blocks of different height, one without final newline. -/
example : concatLines ["ab\nc\n".toList, "de".toList] 3 = .ok "ab    de\nc".toList ∧
    HasLines "ab\nc\n".toList ["ab".toList, "c".toList] ∧ HasLines "de".toList ["de".toList] := by
  refine ⟨by decide, .inl rfl, .inr ⟨rfl, by decide⟩⟩

/-! ## C51 -/

theorem rstrip_append_blanks (a : Str) (n : Nat) : rstrip (a ++ List.replicate n ' ') = rstrip a := by
  induction n with
  | zero => simp
  | succ n ih =>
    rw [List.replicate_succ', ← List.append_assoc, ← ih]
    unfold rstrip
    rw [List.reverse_append]
    simp [List.dropWhile_cons, isSpace]

theorem rstrip_self {a : Str} (h : ∀ c, a.getLast? = some c → isSpace c = false) : rstrip a = a := by
  rcases List.eq_nil_or_concat a with rfl | ⟨b, c, rfl⟩
  · rfl
  · rw [List.concat_eq_append] at *
    have := h c (by simp)
    unfold rstrip
    rw [List.reverse_append]
    simp [List.dropWhile_cons, this]

theorem digits_plain {n : Nat} {c : Char} (h : c ∈ Nat.toDigits 10 n) :
    isSpace c = false ∧ isBreak c = false := by
  have := Nat.isDigit_of_mem_toDigits (by decide) (by decide) h
  unfold Char.isDigit at this
  simp only [Bool.and_eq_true, decide_eq_true_eq] at this
  have h1 : 48 ≤ c.toNat := this.1
  have h2 : c.toNat ≤ 57 := this.2
  unfold isSpace isBreak
  simp only [Bool.or_eq_false_iff, Bool.and_eq_false_iff, decide_eq_false_iff_not, beq_eq_false_iff_ne]
  omega

theorem decimal_plain {n : Int} {c : Char} (h : c ∈ decimal n) :
    isSpace c = false ∧ isBreak c = false := by
  unfold decimal at h
  split at h
  · rcases List.mem_cons.1 h with rfl | h
    · decide
    · exact digits_plain h
  · exact digits_plain h

theorem decimal_ne_nil (n : Int) : decimal n ≠ [] := by
  unfold decimal
  split
  · simp
  · exact Nat.toDigits_ne_nil

theorem rjust_day : ∀ i : Fin 31, rjust (decimal ((i.1 : Int) + 1)) 2 =
    [if ((i.1 : Int) + 1) < 10 then ' ' else digit (((i.1 : Int) + 1) / 10),
      digit (((i.1 : Int) + 1) % 10)] := by decide

theorem dayCell_plain : ∀ (b : Bool) (i : Fin 31), ∀ c ∈ dayCell b ((i.1 : Int) + 1),
    isBreak c = false := by decide

theorem months_get (m : Int) (h : 1 ≤ m ∧ m ≤ 12) :
    months.getD (m - 1).toNat [] = (monthName m).toList := by
  obtain ⟨h1, h2⟩ := h
  have : m = 1 ∨ m = 2 ∨ m = 3 ∨ m = 4 ∨ m = 5 ∨ m = 6 ∨ m = 7 ∨ m = 8 ∨ m = 9 ∨ m = 10 ∨ m = 11 ∨
    m = 12 := by omega
  rcases this with h | h | h | h | h | h | h | h | h | h | h | h <;> subst h <;> decide

theorem monthName_plain (m : Int) : (monthName m).toList ≠ [] ∧ (monthName m).toList.length ≤ 9 ∧
    ∀ c ∈ (monthName m).toList, isSpace c = false ∧ isBreak c = false := by
  unfold monthName
  repeat' split
  all_goals decide

theorem monthTitle_plain (y m : Int) (py : Bool) :
    (∀ c, (monthTitle y m py).getLast? = some c → isSpace c = false) ∧
    ∀ c ∈ monthTitle y m py, isBreak c = false := by
  have hn := monthName_plain m
  unfold monthTitle
  rw [← decimal_eq]
  cases py with
  | false =>
    simp only [Bool.false_eq_true, if_false, List.append_nil]
    exact ⟨fun c hc => (hn.2.2 c (List.mem_of_getLast? hc)).1, fun c hc => (hn.2.2 c hc).2⟩
  | true =>
    simp only [if_true]
    have hd := decimal_ne_nil y
    constructor
    · intro c hc
      rw [List.getLast?_append, List.getLast?_cons] at hc
      obtain ⟨x, hx⟩ : ∃ x, (decimal y).getLast? = some x := by
        cases h : (decimal y).getLast? with
        | none => exact absurd (List.getLast?_eq_none_iff.1 h) hd
        | some x => exact ⟨x, rfl⟩
      rw [hx] at hc
      simp at hc
      subst hc
      exact (decimal_plain (List.mem_of_getLast? hx)).1
    · intro c hc
      rcases List.mem_append.1 hc with h | h
      · exact (hn.2.2 c h).2
      · rcases List.mem_cons.1 h with rfl | h
        · decide
        · exact (decimal_plain h).2

/-- C51.  The rendering of a month consists of a centred heading, the names of the weekdays, and the grid
of the month: every day once, in the columns of its weekday, in brackets exactly if the calendar has no
session that day. -/
theorem c51_render_month (isSession : Int → Bool) (y m : Int) (hm : 1 ≤ m ∧ m ≤ 12) (py : Bool) :
    ∃ rows row, renderMonth isSession y m py = .ok (printed
      ((List.replicate ((28 - (monthTitle y m py).length) / 2) ' ' ++ monthTitle y m py) ::
        " Su  Mo  Tu  We  Th  Fr  Sa".toList :: rows)) ∧
      MonthGrid isSession y m rows row := by
  have hb := monthLength_bounds y m
  have hend := next_month y m hm.1 hm.2
  have hwf : 0 ≤ weekday (dayOf y m 1) ∧ weekday (dayOf y m 1) ≤ 6 := by unfold weekday; omega
  obtain ⟨N, hN⟩ : ∃ N : Nat, monthLength y m = N := ⟨(monthLength y m).toNat, by omega⟩
  have hdays : monthDays y m = .ok ((List.range N).map fun (i : Nat) => dayOf y m 1 + i) := by
    unfold monthDays
    rw [if_neg (by omega), ← hend, hN]
    simp only [show dayOf y m 1 + (N : Int) - dayOf y m 1 = N by omega, Int.toNat_natCast]
  obtain ⟨g, hg, hg7, hgm⟩ : ∃ g : Nat, (1 ≤ g ∧ g ≤ 7) ∧ (g % 7 : Nat) = (weekday (dayOf y m 1) + 1) % 7 ∧
      ((weekday (dayOf y m 1) = 6 → g = 7) ∧ (weekday (dayOf y m 1) ≠ 6 →
        (g : Int) = weekday (dayOf y m 1) + 1)) := by
    by_cases h : weekday (dayOf y m 1) = 6
    · exact ⟨7, by decide, by rw [h]; decide, fun _ => rfl, fun h' => absurd h h'⟩
    · refine ⟨(weekday (dayOf y m 1) + 1).toNat, by omega, by omega, fun h' => absurd h' h, fun _ => by omega⟩
  -- day number and row of the `i`-th day
  have hday : ∀ i : Nat, i < N → dayOfMonth (dayOf y m 1 + i) = i + 1 := by
    intro i hi
    have hv : Date.Valid ⟨y, m, i + 1⟩ := ⟨hm.1, hm.2, by simp only; omega, by simp only; omega⟩
    have e : dayOf y m (i + 1) = dayOf y m 1 + i := by rw [dayOf_one]; omega
    have h1 := toDate_valid (dayOf y m 1 + i)
    have h2 := dayOf_toDate (dayOf y m 1 + i)
    have := dayOf_inj h1 hv (by simp only [toDate] at h2 ⊢; rw [e]; exact h2)
    simp only [toDate, Date.mk.injEq] at this
    exact this.2.2
  let cell : Nat → Str := fun i =>
    if i < 31 then dayCell (isSession (dayOf y m 1 + i)) ((i : Int) + 1) else [' ', ' ', ' ', ' ']
  have hcell : ∀ i, (cell i).length = 4 ∧ ∀ c ∈ cell i, isBreak c = false := by
    intro i
    simp only [cell]
    split
    · rename_i h
      exact ⟨rfl, dayCell_plain _ ⟨i, h⟩⟩
    · exact ⟨rfl, by decide⟩
  have htext : ∀ i : Nat, i < N → dayText isSession (dayOf y m 1 + i) =
      (if decide (weekday (dayOf y m 1 + i) = 6) then ['\n'] else []) ++ cell i := by
    intro i hi
    unfold dayText
    rw [hday i hi, rjust_day ⟨i, by omega⟩]
    simp only [cell, show i < 31 by omega, if_true, dayCell, decide_eq_true_eq]
    simp
  have hflat : ((List.range N).map fun (i : Nat) => dayOf y m 1 + i).flatMap (dayText isSession) =
      (List.range N).flatMap fun (i : Nat) =>
        (if decide (weekday (dayOf y m 1 + i) = 6) then ['\n'] else []) ++ cell i := by
    rw [List.flatMap_map]
    simp only [List.flatMap]
    congr 1
    apply List.map_congr_left
    intro i hi
    exact htext i (List.mem_range.1 hi)
  have hnew : ∀ i : Nat, decide (weekday (dayOf y m 1 + i) = 6) = true ↔ (g + i) % 7 = 0 := by
    intro i
    rw [decide_eq_true_eq]
    unfold weekday at *
    omega
  obtain ⟨lines, last, hbody, hlen, -, hwidth, hcol⟩ := grid hcell hg hnew N
  have htitle : rstrip (center (monthTitle y m py) 28) =
      List.replicate ((28 - (monthTitle y m py).length) / 2) ' ' ++ monthTitle y m py := by
    unfold center
    rw [rstrip_append_blanks, rstrip_self]
    intro c hc
    apply (monthTitle_plain y m py).1
    have hne : monthTitle y m py ≠ [] := by
      unfold monthTitle; simp [(monthName_plain m).1]
    rw [List.getLast?_append] at hc
    cases hx : (monthTitle y m py).getLast? with
    | none => exact absurd (List.getLast?_eq_none_iff.1 hx) hne
    | some x => rw [hx] at hc; simpa using hc
  refine ⟨lines ++ [last], fun k => ((g + k - 1) / 7).toNat, ?_, ?_⟩
  · unfold renderMonth
    rw [hdays]
    rw [show (Except.ok ((List.range N).map fun (i : Nat) => dayOf y m 1 + i) : Py (List Int)) = pure _
      from rfl]
    simp only [pure_bind, months_get m hm]
    rw [show (monthName m).toList ++ (if py = true then ' ' :: decimal y else []) = monthTitle y m py
      from by rw [decimal_eq]; rfl, htitle, hflat]
    have hhead : ((List.range N).map fun (i : Nat) => dayOf y m 1 + i).headD 0 = dayOf y m 1 := by
      obtain ⟨M, rfl⟩ : ∃ M, N = M + 1 := ⟨N - 1, by omega⟩
      simp [List.range_succ_eq_map]
    have hblank : blanks (4 * ((weekday (dayOf y m 1) + 1) % 7)) = List.replicate (4 * (g % 7)) ' ' := by
      unfold blanks
      congr 1
      omega
    rw [hhead, hblank]
    simp only [List.append_assoc] at hbody ⊢
    rw [← List.append_assoc (List.replicate (4 * (g % 7)) ' '), hbody]
    simp [printed, pure, Except.pure]
  · have hdn : ∀ {k d : Int}, DayNumber ⟨y, m, k⟩ d → 1 ≤ k ∧ k ≤ N ∧ d = dayOf y m 1 + (k - 1) := by
      intro k d h
      obtain ⟨hv, e⟩ := (dayNumber_iff _ _).1 h
      have h3 := hv.2.2.1; have h4 := hv.2.2.2
      rw [dayOf_one] at e
      simp only at h3 h4 e
      exact ⟨h3, by omega, by omega⟩
    refine ⟨fun l hl => ⟨(hwidth l hl).1, fun c hc => (isBreak_false c).mp ((hwidth l hl).2 c hc)⟩, ?_, ?_, ?_, ?_, ?_⟩
    · intro d h
      obtain ⟨_, _, rfl⟩ := hdn h
      rw [weekday_iff]
      have : (dayOf y m 1 + (1 - 1) : Int) = dayOf y m 1 := by omega
      rw [this]
      constructor
      · intro h6; have := hgm.1 h6; omega
      · intro h6; have := hgm.2 h6; omega
    · intro k d hk h
      obtain ⟨_, _, rfl⟩ := hdn h
      rw [weekday_iff]
      unfold weekday at *
      constructor
      · intro h6; omega
      · intro h6; omega
    · simp only [List.length_append, hlen, List.length_cons, List.length_nil, hN]
      omega
    · intro k d w h hw i hi
      obtain ⟨h1, h2, rfl⟩ := hdn h
      rw [weekday_iff] at hw
      obtain ⟨j, rfl⟩ : ∃ j : Nat, k = (j : Int) + 1 := ⟨(k - 1).toNat, by omega⟩
      have hcw : weekdayColumn w = 4 * ((g + j) % 7) := by
        unfold weekdayColumn
        congr 1
        subst hw
        unfold weekday at *
        omega
      have hrow : ((g + ((j : Int) + 1) - 1) / 7).toNat = (g + j) / 7 := by omega
      have hpos : 4 * ((g + j) % 7) + i < 28 := by omega
      have hdiv : (4 * ((g + j) % 7) + i) / 4 = (g + j) % 7 := by omega
      have hidx : 7 * ((g + j) / 7) + (g + j) % 7 = g + j := by omega
      simp only [hrow, hcw]
      rw [hcol, hdiv, hidx, if_pos ⟨hpos, by omega, by omega⟩, show g + j - g = j by omega,
        show (4 * ((g + j) % 7) + i) % 4 = i by omega]
      simp only [cell, show j < 31 by omega, if_true, column]
      rw [show dayOf y m 1 + ((j : Int) + 1 - 1) = dayOf y m 1 + j by omega]
    · intro r q h
      rw [hcol]
      split
      · rename_i hq
        exfalso
        obtain ⟨j, hj⟩ : ∃ j, 7 * r + q / 4 = g + j := ⟨7 * r + q / 4 - g, by omega⟩
        have hjN : j < N := by omega
        have hv : DayNumber ⟨y, m, (j : Int) + 1⟩ (dayOf y m 1 + j) := by
          rw [dayNumber_iff]
          refine ⟨⟨hm.1, hm.2, by simp only; omega, by simp only; omega⟩, ?_⟩
          simp only
          rw [dayOf_one]
          omega
        refine h _ _ _ hv ((weekday_iff _ _).2 rfl) ⟨by omega, ?_⟩
        have hcw : weekdayColumn (weekday (dayOf y m 1 + j)) = 4 * ((g + j) % 7) := by
          unfold weekdayColumn
          congr 1
          unfold weekday at *
          omega
        rw [hcw]
        omega
      · rfl

/-- C51.  There is no other month. -/
theorem c51_bad_month (isSession : Int → Bool) (y m : Int) (hm : ¬ (1 ≤ m ∧ m ≤ 12)) (py : Bool) :
    ∃ e, renderMonth isSession y m py = .error e := by
  refine ⟨.valueError "could not parse", ?_⟩
  unfold renderMonth monthDays
  rw [if_pos (by omega)]
  rfl

theorem monthBlock_plain {isSession : Int → Bool} {y m : Int} {rows : List Str} {row : Int → Nat}
    (h : MonthGrid isSession y m rows row) :
    ∀ l ∈ monthBlock y m rows, l.length ≤ 28 ∧ ∀ c ∈ l, ¬ LineEnd c := by
  intro l hl
  rcases List.mem_cons.1 hl with rfl | hl
  · constructor
    · have := (monthName_plain m).2.1
      simp only [monthTitle, Bool.false_eq_true, if_false, List.append_nil, List.length_append,
        List.length_replicate]
      omega
    · intro c hc
      rcases List.mem_append.1 hc with hc | hc
      · rw [List.eq_of_mem_replicate hc, ← isBreak_false]; decide
      · exact (isBreak_false c).mp ((monthTitle_plain y m false).2 c hc)
  · rcases List.mem_cons.1 hl with rfl | hl
    · simp only [← isBreak_false]; decide
    · exact h.width l hl

/-- C51.  The rendering of a year: the year as heading, then the four quarters, each showing the headings
and grids of its three months side by side. -/
theorem c51_render_year (isSession : Int → Bool) (y : Int) :
    ∃ text, renderYear isSession y = .ok text ∧ ShowsYear isSession y text := by
  have hmonth : ∀ m : Int, ∃ p : List Str × (Int → Nat), 1 ≤ m ∧ m ≤ 12 →
      renderMonth isSession y m false = .ok (printed (monthBlock y m p.1)) ∧
      MonthGrid isSession y m p.1 p.2 := by
    intro m
    by_cases hm : 1 ≤ m ∧ m ≤ 12
    · obtain ⟨rows, row, h⟩ := c51_render_month isSession y m hm false
      exact ⟨(rows, row), fun _ => h⟩
    · exact ⟨([], fun _ => 0), fun h => absurd h hm⟩
  obtain ⟨p, hp⟩ := Classical.axiomOfChoice hmonth
  have hquarter : ∀ q : Int, ∃ quarter : List Str, 0 ≤ q ∧ q ≤ 3 →
      concatLines [printed (monthBlock y (3 * q + 1) (p (3 * q + 1)).1),
        printed (monthBlock y (3 * q + 2) (p (3 * q + 2)).1),
        printed (monthBlock y (3 * q + 3) (p (3 * q + 3)).1)] 28 = .ok (join ['\n'] quarter) ∧
      (∀ m, 3 * q + 1 ≤ m ∧ m ≤ 3 * q + 3 → (monthBlock y m (p m).1).length ≤ quarter.length) ∧
      (∃ m, (3 * q + 1 ≤ m ∧ m ≤ 3 * q + 3) ∧ (monthBlock y m (p m).1).length = quarter.length) ∧
      ∀ r line, quarter[r]? = some line → Shows line (sideBySide
          [monthBlock y (3 * q + 1) (p (3 * q + 1)).1, monthBlock y (3 * q + 2) (p (3 * q + 2)).1,
            monthBlock y (3 * q + 3) (p (3 * q + 3)).1] 28 r) := by
    intro q
    by_cases hq : 0 ≤ q ∧ q ≤ 3
    · obtain ⟨rows, h1, h2, ⟨e, he, h4⟩, h3⟩ := c52_concat_lines
        ([3 * q + 1, 3 * q + 2, 3 * q + 3].map fun m =>
          (printed (monthBlock y m (p m).1), monthBlock y m (p m).1)) 28 (by simp)
        (by
          intro e he
          obtain ⟨m, -, rfl⟩ := List.mem_map.1 he
          exact Or.inl rfl)
        (by
          intro e he
          obtain ⟨m, hm, rfl⟩ := List.mem_map.1 he
          refine monthBlock_plain (hp m ?_).2
          simp at hm
          omega)
      rw [← join_eq] at h1
      refine ⟨rows, fun _ => ⟨h1, fun m hm => ?_, ?_, h3⟩⟩
      case refine_2 =>
        obtain ⟨m, hm, rfl⟩ := List.mem_map.1 he
        refine ⟨m, ?_, h4⟩
        simp at hm
        omega
      exact h2 (printed (monthBlock y m (p m).1), monthBlock y m (p m).1)
        (List.mem_map.2 ⟨m, by simp; omega, rfl⟩)
    · exact ⟨[], fun h => absurd h hq⟩
  obtain ⟨quarter, hqs⟩ := Classical.axiomOfChoice hquarter
  have htitle : rstrip (center (decimal y) 88 ++ ['\n']) =
      List.replicate ((88 - (decimal y).length) / 2) ' ' ++ decimal y := by
    have e : ∀ a : Str, rstrip (a ++ ['\n']) = rstrip a := by
      intro a
      unfold rstrip
      rw [List.reverse_append]
      simp [List.dropWhile_cons, isSpace]
    rw [e]
    unfold center
    rw [rstrip_append_blanks, rstrip_self]
    intro c hc
    rw [List.getLast?_append] at hc
    cases hx : (decimal y).getLast? with
    | none => exact absurd (List.getLast?_eq_none_iff.1 hx) (decimal_ne_nil y)
    | some x =>
      rw [hx] at hc
      simp at hc
      subst hc
      exact (decimal_plain (List.mem_of_getLast? hx)).1
  refine ⟨List.replicate ((88 - (decimal y).length) / 2) ' ' ++ decimal y ++ ['\n'] ++
      join ['\n', '\n'] [join ['\n'] (quarter 0), join ['\n'] (quarter 1), join ['\n'] (quarter 2),
        join ['\n'] (quarter 3)] ++ ['\n'], ?_, fun m => (p m).1, fun m => (p m).2, quarter,
    fun m hm => (hp m hm).2, by simp only [decimal_eq, join_eq], fun q hq => (hqs q hq).2⟩
  rw [← htitle]
  have hr : ∀ m : Int, 1 ≤ m ∧ m ≤ 12 → renderMonth isSession y m false =
      pure (printed (monthBlock y m (p m).1)) := fun m hm => (hp m hm).1
  have hc0 := (hqs 0 (by decide)).1
  have hc1 := (hqs 1 (by decide)).1
  have hc2 := (hqs 2 (by decide)).1
  have hc3 := (hqs 3 (by decide)).1
  unfold renderYear yearStrings
  simp only [List.mapM_cons, List.mapM_nil, Int.reduceMul, Int.reduceAdd]
  rw [hr 1 (by decide)]
  rw [hr 2 (by decide)]
  rw [hr 3 (by decide)]
  rw [hr 4 (by decide)]
  rw [hr 5 (by decide)]
  rw [hr 6 (by decide)]
  rw [hr 7 (by decide)]
  rw [hr 8 (by decide)]
  rw [hr 9 (by decide)]
  rw [hr 10 (by decide)]
  rw [hr 11 (by decide)]
  rw [hr 12 (by decide)]
  simp only [pure_bind, List.mapM_cons, List.mapM_nil]
  simp only [Int.reduceMul, Int.reduceAdd] at hc0 hc1 hc2 hc3 ⊢
  rw [hc0, hc1, hc2, hc3]
  rfl

/-- C51 and C52 are about, among others, February 2026, which starts on a Sunday. -/
example : (renderMonth (fun d => decide (weekday d < 5)) 2026 2 true).toOption.map String.ofList = some
 "       February 2026
 Su  Mo  Tu  We  Th  Fr  Sa

[ 1]  2   3   4   5   6 [ 7]
[ 8]  9  10  11  12  13 [14]
[15] 16  17  18  19  20 [21]
[22] 23  24  25  26  27 [28]
" := by decide +kernel

end TC.Props
