import Verif.Spec.Tcal
import Verif.Lemmas.Py

/-! # Lemmas about `tcal` -/

namespace TC.Tcal
open Spec

theorem decimal_eq (n : Int) : decimal n = numeral n := by
  unfold decimal numeral
  cases n with
  | ofNat m =>
    simp [toString, Int.repr, Nat.repr]
  | negSucc m =>
    simp [toString, Int.repr, Nat.repr]
theorem join_eq (sep : Str) (l : List Str) : join sep l = sep.intercalate l := by
  induction l with
  | nil => rfl
  | cons a l ih =>
    cases l with
    | nil => simp [join, List.intercalate]
    | cons b l => simp [join, ih, List.intercalate, List.intersperse]

theorem isSpace_iff (c : Char) : isSpace c = true ↔ WhiteSpace c := by
  unfold isSpace WhiteSpace
  simp only [Bool.or_eq_true, Bool.and_eq_true, decide_eq_true_eq, beq_iff_eq, List.mem_cons, List.not_mem_nil,
    or_false]
  omega

theorem isBreak_iff (c : Char) : isBreak c = true ↔ LineEnd c := by
  unfold isBreak LineEnd
  simp only [Bool.or_eq_true, Bool.and_eq_true, decide_eq_true_eq, beq_iff_eq, List.mem_cons, List.not_mem_nil,
    or_false]
  omega

theorem isSpace_false (c : Char) : isSpace c = false ↔ ¬ WhiteSpace c := by
  rw [← isSpace_iff, Bool.not_eq_true]

theorem isBreak_false (c : Char) : isBreak c = false ↔ ¬ LineEnd c := by
  rw [← isBreak_iff, Bool.not_eq_true]

theorem splitLoop_line {l : Str} (h : ∀ c ∈ l, isBreak c = false) (cur rest : Str) :
    splitLoop cur (l ++ '\n' :: rest) = (cur.reverse ++ l) :: splitLoop [] rest := by
  induction l generalizing cur with
  | nil => rw [List.nil_append, splitLoop]; · simp [isBreak]
           · intro cs h; simp at h
  | cons c l ih =>
    have hc := h c (by simp)
    have ih := ih (fun c' hc' => h c' (by simp [hc'])) (c :: cur)
    rw [List.cons_append, splitLoop]
    · simp [hc, ih]
    · rintro cs rfl; simp [isBreak] at hc

theorem splitLoop_last {l : Str} (h : ∀ c ∈ l, isBreak c = false) (cur : Str) :
    splitLoop cur l = if cur.reverse ++ l = [] then [] else [cur.reverse ++ l] := by
  induction l generalizing cur with
  | nil => simp [splitLoop]
  | cons c l ih =>
    have hc := h c (by simp)
    have ih := ih (fun c' hc' => h c' (by simp [hc'])) (c :: cur)
    rw [splitLoop]
    · simp [hc, ih]
    · rintro cs rfl; simp [isBreak] at hc

theorem splitlines_printed {lines : List Str} (h : ∀ l ∈ lines, ∀ c ∈ l, isBreak c = false) :
    splitlines (printed lines) = lines := by
  unfold splitlines printed
  induction lines with
  | nil => simp [splitLoop]
  | cons l ls ih =>
    have := ih fun l' hl' => h l' (by simp [hl'])
    simp only [List.map_cons, List.flatten_cons, List.append_assoc, List.singleton_append]
    rw [splitLoop_line (h l (by simp)), this]
    simp

theorem printed_append (a b : List Str) : printed (a ++ b) = printed a ++ printed b := by
  simp [printed]

theorem splitLoop_printed_append {lines : List Str} (h : ∀ l ∈ lines, ∀ c ∈ l, isBreak c = false)
    (rest : Str) : splitLoop [] (printed lines ++ rest) = lines ++ splitLoop [] rest := by
  unfold printed
  induction lines with
  | nil => simp
  | cons l ls ih =>
    have := ih fun l' hl' => h l' (by simp [hl'])
    simp only [List.map_cons, List.flatten_cons, List.append_assoc, List.cons_append,
      List.nil_append]
    rw [splitLoop_line (h l (by simp)), this]
    simp

theorem splitlines_of {text : Str} {lines : List Str} (ht : HasLines text lines)
    (h : ∀ l ∈ lines, ∀ c ∈ l, isBreak c = false) : splitlines text = lines := by
  rcases ht with rfl | ⟨ht, hl⟩
  · exact splitlines_printed h
  · rcases List.eq_nil_or_concat lines with rfl | ⟨ls, l, rfl⟩
    · simp [printed] at ht
    · rw [List.concat_eq_append] at *
      have hne : l ≠ [] := by simpa using hl
      have e : text = printed ls ++ l := by
        rw [printed_append, show printed [l] = l ++ ['\n'] by simp [printed], ← List.append_assoc] at ht
        exact List.append_cancel_right ht
      rw [e, splitlines, splitLoop_printed_append (fun l' hl' => h l' (by simp [hl'])),
        splitLoop_last (h l (by simp))]
      simp [hne]

theorem rstrip_spec (s : Str) : ∃ t, s = rstrip s ++ t ∧ (∀ c ∈ t, isSpace c = true) ∧
    ∀ c, (rstrip s).getLast? = some c → isSpace c = false := by
  unfold rstrip
  refine ⟨(s.reverse.takeWhile isSpace).reverse, ?_, ?_, ?_⟩
  · rw [← List.reverse_append, List.takeWhile_append_dropWhile, List.reverse_reverse]
  · intro c hc
    rw [List.mem_reverse] at hc
    exact (List.all_eq_true.1 List.all_takeWhile) c hc
  · intro c hc
    rw [List.getLast?_reverse] at hc
    have := List.head?_dropWhile_not isSpace s.reverse
    rw [hc] at this
    simpa using this

theorem rstrip_shows {s : Str} {f : Nat → Char} (h : ∀ q, q < s.length → column s q = f q)
    (h' : ∀ q, s.length ≤ q → isSpace (f q) = true) : Shows (rstrip s) f := by
  obtain ⟨t, hs, ht, hl⟩ := rstrip_spec s
  have hlen : s.length = (rstrip s).length + t.length := by
    conv => lhs; rw [hs]
    simp
  have hcol : ∀ q, column s q = if q < (rstrip s).length then column (rstrip s) q
      else column t (q - (rstrip s).length) := by
    intro q
    conv => lhs; rw [hs]
    unfold column
    split
    · rename_i h1
      simp [List.getD_eq_getElem?_getD, List.getElem?_append_left h1]
    · rename_i h1
      simp [List.getD_eq_getElem?_getD, List.getElem?_append_right (Nat.le_of_not_lt h1)]
  refine ⟨fun q hq => ?_, fun q hq => (isSpace_iff _).mp ?_, fun c hc => (isSpace_false c).mp (hl c hc)⟩
  · rw [← h q (by omega), hcol, if_pos hq]
  · by_cases hq' : q < s.length
    · rw [← h q hq', hcol, if_neg (by omega)]
      unfold column
      have hb : q - (rstrip s).length < t.length := by omega
      rw [List.getD_eq_getElem?_getD, List.getElem?_eq_getElem hb]
      exact ht _ (List.getElem_mem _)
    · exact h' q (by omega)

theorem column_append_left {a b : Str} {q : Nat} (h : q < a.length) : column (a ++ b) q = column a q := by
  simp [column, List.getD_eq_getElem?_getD, List.getElem?_append_left h]

theorem column_append_right {a b : Str} {q : Nat} (h : a.length ≤ q) :
    column (a ++ b) q = column b (q - a.length) := by
  simp [column, List.getD_eq_getElem?_getD, List.getElem?_append_right h]

theorem column_replicate (n q : Nat) : column (List.replicate n ' ') q = ' ' := by
  simp only [column, List.getD_eq_getElem?_getD, List.getElem?_replicate]
  split <;> rfl

theorem column_beyond {a : Str} {q : Nat} (h : a.length ≤ q) : column a q = ' ' := by
  simp [column, List.getD_eq_getElem?_getD, List.getElem?_eq_none h]

theorem column_padded (a : Str) (n q : Nat) : column (a ++ List.replicate n ' ') q = column a q := by
  by_cases h : q < a.length
  · exact column_append_left h
  · rw [column_append_right (by omega), column_replicate, column_beyond (by omega)]

/-- The columns of parts of equal width joined by three blanks. -/
theorem column_join {w : Nat} {parts : List Str} (h : ∀ p ∈ parts, p.length = w) (q : Nat) :
    column (join [' ', ' ', ' '] parts) q =
      if q % (w + 3) < w then column (parts.getD (q / (w + 3)) []) (q % (w + 3)) else ' ' := by
  induction parts generalizing q with
  | nil => simp [join, column]
  | cons p ps ih =>
    have hp := h p (by simp)
    cases ps with
    | nil =>
      simp only [join]
      by_cases hq : q < w + 3
      · rw [Nat.mod_eq_of_lt hq, Nat.div_eq_of_lt hq]
        simp only [List.getD_cons_zero]
        split
        · rfl
        · exact column_beyond (by omega)
      · rw [column_beyond (by omega)]
        have : 0 < q / (w + 3) := Nat.div_pos (by omega) (by omega)
        obtain ⟨j, hj⟩ : ∃ j, q / (w + 3) = j + 1 := ⟨_, (Nat.succ_pred_eq_of_pos this).symm⟩
        rw [hj]
        simp [column]
    | cons p' ps =>
      have ih := ih fun x hx => h x (by simp [hx])
      simp only [join]
      by_cases hq : q < w + 3
      · rw [Nat.mod_eq_of_lt hq, Nat.div_eq_of_lt hq]
        simp only [List.getD_cons_zero]
        rw [column_append_left (by simp [hp]; omega)]
        split
        · exact column_append_left (by omega)
        · rw [column_append_right (by omega)]
          exact column_replicate 3 _
      · rw [column_append_right (by simp [hp]; omega)]
        have hl : (p ++ [' ', ' ', ' ']).length = w + 3 := by simp [hp]
        rw [hl, ih]
        have e : q = (q - (w + 3)) + (w + 3) := by omega
        have e1 : q % (w + 3) = (q - (w + 3)) % (w + 3) := by
          conv => lhs; rw [e]
          exact Nat.add_mod_right _ _
        have e2 : q / (w + 3) = (q - (w + 3)) / (w + 3) + 1 := by
          conv => lhs; rw [e]
          exact Nat.add_div_right _ (by omega)
        rw [e1, e2]
        simp

theorem length_join {w : Nat} {parts : List Str} (h : ∀ p ∈ parts, p.length = w) {q : Nat}
    (hq : (join [' ', ' ', ' '] parts).length ≤ q) :
    (if q % (w + 3) < w then column (parts.getD (q / (w + 3)) []) (q % (w + 3)) else ' ') = ' ' := by
  rw [← column_join h, column_beyond hq]

theorem foldl_max (ns : List Nat) (n : Nat) :
    (n ≤ ns.foldl max n ∧ ∀ x ∈ ns, x ≤ ns.foldl max n) ∧ ns.foldl max n ∈ n :: ns := by
  induction ns generalizing n with
  | nil => simp
  | cons m ms ih =>
    obtain ⟨⟨h1, h2⟩, h3⟩ := ih (max n m)
    simp only [List.foldl_cons]
    refine ⟨⟨by omega, fun x hx => ?_⟩, ?_⟩
    · rcases List.mem_cons.1 hx with rfl | hx
      · omega
      · exact h2 x hx
    · rcases List.mem_cons.1 h3 with h3 | h3
      · rw [h3]
        rcases Nat.le_total n m with h | h
        · rw [Nat.max_eq_right h]; simp
        · rw [Nat.max_eq_left h]; simp
      · simp [h3]

theorem zipAll_of {lists : List (List Str)} {n : Nat} (hne : lists ≠ []) (h : ∀ l ∈ lists, l.length = n) :
    zipAll lists = (List.range n).map fun i => lists.map fun l => l.getD i [] := by
  unfold zipAll
  have : (lists.map List.length).min?.getD 0 = n := by
    have e : lists.map List.length = List.replicate lists.length n := by
      rw [List.eq_replicate_iff]
      refine ⟨by simp, fun b hb => ?_⟩
      obtain ⟨l, hl, rfl⟩ := List.mem_map.1 hb
      exact h l hl
    rw [e, List.min?_replicate_of_pos (by exact List.length_pos_iff.2 hne)]
    rfl
  rw [this]

end TC.Tcal

namespace TC.Tcal
open Spec

theorem getD_append_left {a b : List Str} {r : Nat} (h : r < a.length) :
    (a ++ b).getD r [] = a.getD r [] := by
  simp [List.getD_eq_getElem?_getD, List.getElem?_append_left h]

theorem getD_append_one {a : List Str} {l : Str} : (a ++ [l]).getD a.length [] = l := by
  simp [List.getD_eq_getElem?_getD]

theorem getD_beyond {a : List Str} {r : Nat} (h : a.length ≤ r) : a.getD r [] = [] := by
  simp [List.getD_eq_getElem?_getD, List.getElem?_eq_none h]

theorem printed_snoc (a : List Str) (l : Str) : printed (a ++ [l]) = printed a ++ l ++ ['\n'] := by
  simp [printed]

/-- The grid of `n` cells after `g` empty places. -/
theorem grid {cell : Nat → Str} (hc : ∀ i, (cell i).length = 4 ∧ ∀ c ∈ cell i, isBreak c = false)
    {new : Nat → Bool} {g : Nat} (hg : 1 ≤ g ∧ g ≤ 7) (hnew : ∀ i, new i = true ↔ (g + i) % 7 = 0)
    (n : Nat) :
    ∃ lines last, List.replicate (4 * (g % 7)) ' ' ++
        (List.range n).flatMap (fun i => (if new i then ['\n'] else []) ++ cell i) =
        printed lines ++ last ∧ lines.length = (g + n - 1) / 7 ∧
      ((g + n) % 7 ≠ 0 → last.length = 4 * ((g + n) % 7)) ∧
      (∀ l ∈ lines ++ [last], l.length ≤ 28 ∧ ∀ c ∈ l, isBreak c = false) ∧
      ∀ r q, column ((lines ++ [last]).getD r []) q =
        if q < 28 ∧ g ≤ 7 * r + q / 4 ∧ 7 * r + q / 4 < g + n then
          column (cell (7 * r + q / 4 - g)) (q % 4) else ' ' := by
  induction n with
  | zero =>
    refine ⟨[], List.replicate (4 * (g % 7)) ' ', by simp [printed], ?_, ?_, ?_, ?_⟩
    · simp; omega
    · simp
    · intro l hl
      simp only [List.nil_append, List.mem_singleton] at hl
      subst hl
      refine ⟨by simp; omega, fun c hc => ?_⟩
      rw [List.eq_of_mem_replicate hc]; decide
    · intro r q
      rw [if_neg (by omega)]
      cases r with
      | zero => exact column_replicate _ _
      | succ r => rw [getD_beyond (by simp)]; rfl
  | succ n ih =>
    obtain ⟨lines, last, he, hl, hlast, hw, hcol⟩ := ih
    rw [List.range_succ, List.flatMap_append, ← List.append_assoc, he]
    by_cases hn : new n = true
    · have hm := (hnew n).1 hn
      refine ⟨lines ++ [last], cell n, ?_, ?_, ?_, ?_, ?_⟩
      · simp [hn, printed_snoc]
      · simp; omega
      · intro _; rw [(hc n).1]; omega
      · intro l hl'
        rcases List.mem_append.1 hl' with h | h
        · exact hw l h
        · simp only [List.mem_singleton] at h
          subst h
          exact ⟨by rw [(hc n).1]; omega, (hc n).2⟩
      · intro r q
        have hlen : (lines ++ [last]).length = (g + n) / 7 := by simp; omega
        rcases Nat.lt_trichotomy r ((g + n) / 7) with h | h | h
        · rw [getD_append_left (by omega), hcol]
          by_cases hq : q < 28 ∧ g ≤ 7 * r + q / 4 ∧ 7 * r + q / 4 < g + n
          · rw [if_pos hq, if_pos (by omega)]
          · rw [if_neg hq, if_neg (by omega)]
        · rw [h, ← hlen, getD_append_one, hlen]
          by_cases hq : q < 4
          · rw [if_pos (by omega), show q % 4 = q by omega,
              show 7 * ((g + n) / 7) + q / 4 - g = n by omega]
          · rw [column_beyond (by rw [(hc n).1]; omega), if_neg (by omega)]
        · rw [getD_beyond (by simp at hlen ⊢; omega), if_neg (by omega)]
          rfl
    · have hm : (g + n) % 7 ≠ 0 := fun h => hn ((hnew n).2 h)
      have hll := hlast hm
      refine ⟨lines, last ++ cell n, ?_, ?_, ?_, ?_, ?_⟩
      · simp [hn]
      · omega
      · intro _; rw [List.length_append, (hc n).1]; omega
      · intro l hl'
        rcases List.mem_append.1 hl' with h | h
        · exact hw l (by simp [h])
        · simp only [List.mem_singleton] at h
          subst h
          refine ⟨by rw [List.length_append, (hc n).1]; omega, fun c hcm => ?_⟩
          rcases List.mem_append.1 hcm with h | h
          · exact (hw last (by simp)).2 c h
          · exact (hc n).2 c h
      · intro r q
        have hL : lines.length = (g + n) / 7 := by omega
        have hcol := hcol r q
        rcases Nat.lt_trichotomy r ((g + n) / 7) with h | h | h
        · rw [getD_append_left (by omega)] at hcol ⊢
          rw [hcol]
          by_cases hq : q < 28 ∧ g ≤ 7 * r + q / 4 ∧ 7 * r + q / 4 < g + n
          · rw [if_pos hq, if_pos (by omega)]
          · rw [if_neg hq, if_neg (by omega)]
        · rw [h, ← hL, getD_append_one] at hcol
          rw [h, ← hL, getD_append_one]
          by_cases h1 : q < last.length
          · rw [column_append_left h1, hcol]
            by_cases hq : q < 28 ∧ g ≤ 7 * lines.length + q / 4 ∧ 7 * lines.length + q / 4 < g + n
            · rw [if_pos hq, if_pos (by omega)]
            · rw [if_neg hq, if_neg (by omega)]
          · rw [column_append_right (by omega)]
            by_cases h2 : q < last.length + 4
            · rw [if_pos (by omega), show 7 * lines.length + q / 4 - g = n by omega,
                show q - last.length = q % 4 by omega]
            · rw [column_beyond (by rw [(hc n).1]; omega), if_neg (by omega)]
        · rw [getD_beyond (by simp; omega), if_neg (by omega)]
          rfl

end TC.Tcal
