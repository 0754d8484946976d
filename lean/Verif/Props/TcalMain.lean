import Verif.Props.Tcal
import Verif.Props.Defaults
import Verif.Spec.TcalMain

/-!
# C62: the command `tcal`
-/

namespace TC.Props
open Spec Tcal

/-! ### Integers -/

theorem intSpace_iff (c : Char) : intSpace c = true ↔ LiteralSpace c := by
  unfold intSpace isSpace LiteralSpace
  simp only [Bool.and_eq_true, Bool.or_eq_true, decide_eq_true_eq, beq_iff_eq, Bool.not_eq_true',
    Bool.and_eq_false_iff, decide_eq_false_iff_not, List.mem_cons, List.not_mem_nil, or_false]
  omega

theorem digitOf_iff (w : World) (c : Char) (k : Nat) : digitOf w c = some k ↔ DigitValue w c k := by
  have small : ∀ j, ['0', '1', '2', '3', '4', '5', '6', '7', '8', '9'][j]? = some c ↔
      ('0' ≤ c ∧ c ≤ '9') ∧ c.toNat - 48 = j := by
    intro j
    constructor
    · intro h
      have hj := (List.getElem?_eq_some_iff.1 h).1
      simp only [List.length_cons, List.length_nil] at hj
      match j, hj with
      | 0, _ | 1, _ | 2, _ | 3, _ | 4, _ | 5, _ | 6, _ | 7, _ | 8, _ | 9, _ => cases h; decide
    · rintro ⟨⟨h1, h2⟩, rfl⟩
      have h1' : 48 ≤ c.toNat := h1
      have h2' : c.toNat ≤ 57 := h2
      have hc : ∀ n, c.toNat = n → c = Char.ofNat n := fun n hn => by rw [← hn, Char.ofNat_toNat]
      have : c.toNat = 48 ∨ c.toNat = 49 ∨ c.toNat = 50 ∨ c.toNat = 51 ∨ c.toNat = 52 ∨ c.toNat = 53 ∨
        c.toNat = 54 ∨ c.toNat = 55 ∨ c.toNat = 56 ∨ c.toNat = 57 := by omega
      rcases this with h | h | h | h | h | h | h | h | h | h <;> rw [hc _ h] <;> rfl
  have space : 128 ≤ c.toNat → (isSpace c = true ↔ LiteralSpace c) := by
    intro h
    rw [← intSpace_iff]
    unfold intSpace
    simp only [Bool.and_eq_true, Bool.not_eq_true', Bool.and_eq_false_iff, decide_eq_false_iff_not]
    exact ⟨fun h' => ⟨h', by omega⟩, And.left⟩
  unfold DigitValue digitOf
  rw [small]
  split
  · rename_i hc
    have h2 : c.toNat ≤ 57 := hc.2
    exact ⟨fun e => .inl ⟨hc, Option.some.inj e⟩, fun e => e.elim (fun e => congrArg some e.2) fun e => by omega⟩
  · rename_i hc
    by_cases hn : c.toNat < 128
    · rw [if_pos (.inl hn)]
      exact ⟨fun e => (by cases e), fun e => e.elim (fun e => absurd e.1 hc) fun e => by omega⟩
    · have hs := space (by omega)
      by_cases hsp : isSpace c = true
      · rw [if_pos (.inr hsp)]
        exact ⟨fun e => (by cases e), fun e => e.elim (fun e => absurd e.1 hc) fun e => absurd (hs.1 hsp) e.2.1⟩
      · rw [if_neg (by simp [hn, hsp])]
        exact ⟨fun e => .inr ⟨by omega, fun h => hsp (hs.2 h), e⟩,
          fun e => e.elim (fun e => absurd e.1 hc) fun e => e.2.2⟩

theorem digit_not_space {w : World} {c : Char} {k : Nat} (h : digitOf w c = some k) :
    intSpace c = false ∧ c ≠ '_' ∧ c ≠ '+' ∧ c ≠ '-' := by
  have hne : ∀ x : Char, digitOf w x = none → c ≠ x := by
    rintro x hx rfl
    rw [hx] at h
    cases h
  refine ⟨?_, hne _ (by simp [digitOf]), hne _ (by simp [digitOf]), hne _ (by simp [digitOf])⟩
  unfold digitOf at h
  split at h
  · rename_i hc
    have h1 : 48 ≤ c.toNat := hc.1
    have h2 : c.toNat ≤ 57 := hc.2
    unfold intSpace isSpace
    simp only [Bool.and_eq_false_iff, Bool.or_eq_false_iff, decide_eq_false_iff_not, beq_eq_false_iff_ne]
    left
    omega
  · split at h
    · cases h
    · rename_i hc
      simp only [not_or, Bool.not_eq_true] at hc
      simp [intSpace, hc.2]

theorem scan_digit {w : World} {n k : Nat} {c : Char} (h : digitOf w c = some k) (t : Str) :
    scanDigits w n (c :: t) = scanDigits w (10 * n + k) t := by
  cases t <;> simp [scanDigits, h]

theorem scan_apart {w : World} {n k : Nat} {c : Char} (h : digitOf w c = some k) (t : Str) :
    scanDigits w n ('_' :: c :: t) = scanDigits w (10 * n + k) t := by
  have : digitOf w '_' = none := by simp [digitOf]
  simp [scanDigits, this, h]

theorem scan_space {w : World} {n : Nat} {t : Str} (h : ∀ c ∈ t, intSpace c = true) :
    scanDigits w n t = (n, t) := by
  have hd : ∀ c, intSpace c = true → digitOf w c = none ∧ c ≠ '_' := by
    intro c hc
    refine ⟨?_, by rintro rfl; revert hc; decide⟩
    cases e : digitOf w c with
    | none => rfl
    | some k => rw [(digit_not_space e).1] at hc; cases hc
  match t with
  | [] => rfl
  | [c] => simp [scanDigits, (hd c (h c (by simp))).1]
  | c :: c' :: cs => simp [scanDigits, (hd c (h c (by simp))).1, (hd c (h c (by simp))).2]

theorem digits_scan {w : World} {body : Str} {v : Nat} (h : Digits (DigitValue w) body v) :
    ∃ c cs k, body = c :: cs ∧ digitOf w c = some k ∧
      ∀ t, scanDigits w k (cs ++ t) = scanDigits w v t := by
  induction h with
  | one hc => exact ⟨_, [], _, rfl, (digitOf_iff ..).2 hc, fun _ => rfl⟩
  | @more s n c' k' _ hc ih =>
    obtain ⟨c, cs, k, rfl, hk, ih⟩ := ih
    refine ⟨c, cs ++ [c'], k, rfl, hk, fun t => ?_⟩
    rw [List.append_assoc, ih]
    exact scan_digit ((digitOf_iff ..).2 hc) t
  | @apart s n c' k' _ hc ih =>
    obtain ⟨c, cs, k, rfl, hk, ih⟩ := ih
    refine ⟨c, cs ++ ['_', c'], k, rfl, hk, fun t => ?_⟩
    rw [List.append_assoc, ih]
    exact scan_apart ((digitOf_iff ..).2 hc) t

theorem scan_sound {w : World} (n : Nat) (s pre : Str) (h : Digits (DigitValue w) pre n) :
    ∃ body, s = body ++ (scanDigits w n s).2 ∧ Digits (DigitValue w) (pre ++ body) (scanDigits w n s).1 := by
  induction n, s using scanDigits.induct (w := w) generalizing pre with
  | case1 n => exact ⟨[], by simp [scanDigits], by simpa [scanDigits] using h⟩
  | case2 n c k hk => exact ⟨[c], by simp [scanDigits, hk], by simpa [scanDigits, hk] using h.more ((digitOf_iff ..).1 hk)⟩
  | case3 n c hk => exact ⟨[], by simp [scanDigits, hk], by simpa [scanDigits, hk] using h⟩
  | case4 n c c' cs k hk ih =>
    obtain ⟨body, h1, h2⟩ := ih _ (h.more ((digitOf_iff ..).1 hk))
    refine ⟨c :: body, ?_, ?_⟩
    · rw [scan_digit hk, List.cons_append, ← h1]
    · rw [scan_digit hk]; simpa using h2
  | case5 n c' cs k hk hu ih =>
    obtain ⟨body, h1, h2⟩ := ih _ (h.apart ((digitOf_iff ..).1 hk))
    refine ⟨'_' :: c' :: body, ?_, ?_⟩
    · rw [scan_apart hk, List.cons_append, List.cons_append, ← h1]
    · rw [scan_apart hk]; simpa using h2
  | case6 n c' cs hu hk => exact ⟨[], by simp [scanDigits, hu, hk], by simpa [scanDigits, hu, hk] using h⟩
  | case7 n c c' cs hk hc =>
    exact ⟨[], by simp [scanDigits, hk, hc], by simpa [scanDigits, hk, hc] using h⟩

/-- C62.  `int` accepts exactly the integer literals and yields their value. -/
theorem c62_int (w : World) (s : Str) (n : Int) : pyInt w s = some n ↔ IntLiteral w s n := by
  constructor
  · intro h
    unfold pyInt at h
    simp only at h
    generalize hs1 : List.dropWhile intSpace s = s1 at h
    have hs : s = s.takeWhile intSpace ++ s1 := by rw [← hs1]; exact List.takeWhile_append_dropWhile.symm
    have hb : ∀ c ∈ s.takeWhile intSpace, intSpace c = true := fun c hc => by
      have := List.all_takeWhile (p := intSpace) (l := s)
      exact List.all_eq_true.1 this c hc
    -- sign
    obtain ⟨sign, s2, h2, hsign, hneg⟩ : ∃ sign s2, s1 = sign ++ s2 ∧
        (if s1.head? = some '-' ∨ s1.head? = some '+' then s1.tail else s1) = s2 ∧
        ((sign = [] ∧ (s1.head? == some '-') = false) ∨ (sign = ['+'] ∧ (s1.head? == some '-') = false) ∨
          (sign = ['-'] ∧ (s1.head? == some '-') = true)) := by
      cases s1 with
      | nil => exact ⟨[], [], rfl, by simp, .inl ⟨rfl, by simp⟩⟩
      | cons a t =>
        by_cases h1 : a = '-'
        · subst h1; exact ⟨['-'], t, rfl, by simp, .inr (.inr ⟨rfl, by simp⟩)⟩
        · by_cases h2 : a = '+'
          · subst h2; exact ⟨['+'], t, rfl, by simp, .inr (.inl ⟨rfl, by simp⟩)⟩
          · exact ⟨[], a :: t, rfl, by simp [h1, h2], .inl ⟨rfl, by simp [h1]⟩⟩
    rw [hsign] at h
    cases s2 with
    | nil => cases h
    | cons c cs =>
      simp only at h
      cases hk : digitOf w c with
      | none => rw [hk] at h; cases h
      | some k =>
        rw [hk] at h
        simp only at h
        split at h
        · rename_i hall
          obtain ⟨body, h3, h4⟩ := scan_sound (w := w) k cs [c] (.one ((digitOf_iff ..).1 hk))
          refine ⟨s.takeWhile intSpace, sign, c :: body, (scanDigits w k cs).2, (scanDigits w k cs).1, ?_,
            fun c hc => (intSpace_iff c).1 (hb c hc),
            fun c hc => (intSpace_iff c).1 (List.all_eq_true.1 hall c hc), h4, ?_⟩
          · rw [List.append_assoc, List.append_assoc, List.cons_append, ← h3, ← h2, ← hs]
          · rcases hneg with ⟨e, hn⟩ | ⟨e, hn⟩ | ⟨e, hn⟩ <;> rw [hn] at h <;> simp at h <;> simp [e, h]
        · cases h
  · rintro ⟨before, sign, body, after, v, rfl, hb, ha, hd, hn⟩
    replace hb : ∀ c ∈ before, intSpace c = true := fun c hc => (intSpace_iff c).2 (hb c hc)
    replace ha : ∀ c ∈ after, intSpace c = true := fun c hc => (intSpace_iff c).2 (ha c hc)
    obtain ⟨c, cs, k, rfl, hk, hscan⟩ := digits_scan hd
    have hc := digit_not_space hk
    have hdrop : (before ++ sign ++ (c :: cs) ++ after).dropWhile intSpace =
        sign ++ (c :: cs) ++ after := by
      rw [List.append_assoc, List.append_assoc, List.dropWhile_append_of_pos hb]
      rcases hn with ⟨rfl, -⟩ | ⟨rfl, -⟩ | ⟨rfl, -⟩
      · simp [hc.1]
      · simp [show intSpace '+' = false by decide]
      · simp [show intSpace '-' = false by decide]
    have hsc : scanDigits w k (cs ++ after) = (v, after) := by rw [hscan, scan_space ha]
    have hall : after.all intSpace = true := List.all_eq_true.2 ha
    unfold pyInt
    simp only [hdrop]
    rcases hn with ⟨rfl, rfl⟩ | ⟨rfl, rfl⟩ | ⟨rfl, rfl⟩
    · simp [hc.2, hk, hsc, hall]
    · simp [hk, hsc, hall]
    · simp [hk, hsc, hall]

/-- Space, sign, leading zeros and underscores are accepted; two underscores, a space behind the sign, or a
bare sign are not. -/
example (w : World) :
    pyInt w " +1_999\n".toList = some 1999 ∧ pyInt w "-007".toList = some (-7) ∧
    pyInt w "1__9".toList = none ∧ pyInt w "- 7".toList = none ∧ pyInt w "+".toList = none := by
  refine ⟨?_, ?_, ?_, ?_, ?_⟩ <;> rfl

/-! ### Periods -/

theorem intArg_ok {w : World} {v : Str} {name : String} {n : Int} :
    intArg w v name = .ok n ↔ IntLiteral w v n := by
  rw [← c62_int]
  unfold intArg
  cases pyInt w v <;> simp

theorem period_ok {w : World} {argv0 : Str} {rest : List Str} {p : Int × Option Int} :
    period w argv0 rest = .ok p ↔ Asks w rest p.1 p.2 := by
  obtain ⟨y, mo⟩ := p
  constructor
  · intro h
    match rest with
    | [] => cases h; exact .now
    | [t] =>
      simp only [period] at h
      cases hy : intArg w t "YEAR" with
      | error e => rw [hy] at h; cases h
      | ok n => rw [hy] at h; cases h; exact .year (intArg_ok.1 hy)
    | [t, u] =>
      simp only [period] at h
      cases hm : intArg w t "MONTH" with
      | error e => rw [hm] at h; cases h
      | ok m =>
        rw [hm] at h
        cases hy : intArg w u "YEAR" with
        | error e => rw [hy] at h; cases h
        | ok n => rw [hy] at h; cases h; exact .month (intArg_ok.1 hm) (intArg_ok.1 hy)
    | _ :: _ :: _ :: _ => cases h
  · intro h
    cases h with
    | now => rfl
    | year h => simp only [period, intArg_ok.2 h]; rfl
    | month h1 h2 => simp only [period, intArg_ok.2 h1, intArg_ok.2 h2]; rfl

theorem render_ok (isSession : Int → Bool) (y : Int) {mo : Option Int}
    (hm : ∀ m, mo = some m → 1 ≤ m ∧ m ≤ 12) :
    ∃ text, render isSession y mo = .ok text ∧ ShowsPeriod isSession y mo text := by
  cases mo with
  | none => exact c51_render_year isSession y
  | some m =>
    obtain ⟨rows, row, h1, h2⟩ := c51_render_month isSession y m (hm m rfl) true
    refine ⟨_, ?_, rows, row, rfl, h2⟩
    simp only [render, h1]
    rfl

theorem render_bad (isSession : Int → Bool) (y m : Int) (hm : ¬ (1 ≤ m ∧ m ≤ 12)) :
    ∃ e, render isSession y (some m) = .error e := by
  obtain ⟨e, he⟩ := c51_bad_month isSession y m hm true
  exact ⟨e, by simp only [render, he]; rfl⟩

theorem asksHelp_iff (argv : List Str) :
    AsksHelp argv ↔ "--help".toList ∈ argv ∨ "-h".toList ∈ argv := by
  have e : ∀ (a : Str) (s : String), String.ofList a = s ↔ a = s.toList := by
    intro a s
    constructor
    · rintro rfl; simp
    · rintro rfl; simp
  simp only [AsksHelp, e]
  constructor
  · rintro ⟨a, ha, rfl | rfl⟩
    · exact .inl ha
    · exact .inr ha
  · rintro (h | h)
    · exact ⟨_, h, .inl rfl⟩
    · exact ⟨_, h, .inr rfl⟩

theorem main_cons {w : World} {s : Registry} {argv0 name : Str} {rest : List Str}
    (hh : ¬ AsksHelp (argv0 :: name :: rest)) :
    main w s (argv0 :: name :: rest) =
      let r := s.getCalendar w.env (String.ofList name)
      match r.2 with
      | .error e => (r.1, .exits (w.str e))
      | .ok c =>
        match period w argv0 rest with
        | .error msg => (r.1, .exits msg)
        | .ok p =>
          match render (fun d => (w.content c).cal.isSession (d * DAY)) p.1 p.2 with
          | .error e => (r.1, .raises e)
          | .ok out => (r.1, .prints out) := by
  rw [asksHelp_iff, not_or] at hh
  simp only [main]
  rw [if_neg (by simp only [reduceCtorEq, false_or, not_or]; exact hh)]
  rfl

/-! ### `main` -/

/-- C62.  Without arguments, and if any of them asks for help, `tcal` prints its usage, leaves the registry
alone and exits with an error. -/
theorem c62_usage (w : World) (s : Registry) (argv0 : Str) (args : List Str)
    (h : args = [] ∨ AsksHelp (argv0 :: args)) :
    main w s (argv0 :: args) =
      (s, .exits ("usage: ".toList ++ argv0 ++ " CALENDAR [[[DAY] MONTH] YEAR]".toList)) := by
  rw [asksHelp_iff] at h
  simp only [main]
  rw [if_pos h]
  rfl

/-- C62.  If `get_calendar` finds the calendar and the other arguments ask for a month or a year, `tcal`
prints that month or year, with exactly the days in brackets that are no sessions of the calendar; of the
registry it changes only what `get_calendar` does. -/
theorem c62_prints (w : World) (s : Registry) {argv0 name : Str} {rest : List Str} {c : CalObj} {y : Int}
    {mo : Option Int} (hh : ¬ AsksHelp (argv0 :: name :: rest))
    (hc : (s.getCalendar w.env (String.ofList name)).2 = .ok c) (ha : Asks w rest y mo)
    (hm : ∀ m, mo = some m → 1 ≤ m ∧ m ≤ 12) :
    ∃ text isSession, main w s (argv0 :: name :: rest) =
        ((s.getCalendar w.env (String.ofList name)).1, .prints text) ∧
      (∀ d, isSession d = true ↔ d * DAY ∈ (w.content c).cal.sessions) ∧
      ShowsPeriod isSession y mo text := by
  obtain ⟨text, h1, h2⟩ := render_ok (fun d => (w.content c).cal.isSession (d * DAY)) y hm
  refine ⟨text, _, ?_, fun d => ?_, h2⟩
  · rw [main_cons hh]
    simp only [hc, (period_ok (p := (y, mo))).2 ha, h1]
  · simp [Cal.isSession]

/-- C62.  Nothing else makes it print a calendar. -/
theorem c62_only (w : World) (s : Registry) {argv : List Str} {text : Str}
    (h : (main w s argv).2 = .prints text) :
    ¬ AsksHelp argv ∧ ∃ argv0 name rest c y mo, argv = argv0 :: name :: rest ∧
      (s.getCalendar w.env (String.ofList name)).2 = .ok c ∧ Asks w rest y mo ∧
      ∀ m, mo = some m → 1 ≤ m ∧ m ≤ 12 := by
  match argv with
  | [] => cases h
  | [a] => rw [c62_usage w s a [] (.inl rfl)] at h; cases h
  | argv0 :: name :: rest =>
    rcases Classical.em (AsksHelp (argv0 :: name :: rest)) with hh | hh
    · rw [c62_usage w s argv0 _ (.inr hh)] at h; cases h
    · refine ⟨hh, argv0, name, rest, ?_⟩
      rw [main_cons hh] at h
      simp only at h
      split at h
      · cases h
      · rename_i c hc
        split at h
        · cases h
        · rename_i p hp
          refine ⟨c, p.1, p.2, rfl, hc, period_ok.1 hp, fun m hm => ?_⟩
          rcases Classical.em (1 ≤ m ∧ m ≤ 12) with h' | h'
          · exact h'
          · obtain ⟨e, he⟩ := render_bad (fun d => (w.content c).cal.isSession (d * DAY)) p.1 m h'
            rw [hm, he] at h
            cases h

/-- C62.  If `get_calendar` raises, `tcal` exits with the text of the exception, whatever else is asked. -/
theorem c62_no_calendar (w : World) (s : Registry) {argv0 name : Str} {rest : List Str} {e : PyErr}
    (hh : ¬ AsksHelp (argv0 :: name :: rest))
    (hc : (s.getCalendar w.env (String.ofList name)).2 = .error e) :
    main w s (argv0 :: name :: rest) =
      ((s.getCalendar w.env (String.ofList name)).1, .exits (w.str e)) := by
  rw [main_cons hh]
  simp only [hc]

/-- C62.  If the calendar is found but the arguments ask for no period, `tcal` exits with a message: that
the month, or else the year, is no integer, or its usage if there are too many arguments. -/
theorem c62_no_period (w : World) (s : Registry) {argv0 name : Str} {rest : List Str} {c : CalObj}
    (hh : ¬ AsksHelp (argv0 :: name :: rest))
    (hc : (s.getCalendar w.env (String.ofList name)).2 = .ok c) (ha : ∀ y mo, ¬ Asks w rest y mo) :
    ∃ msg, main w s (argv0 :: name :: rest) =
        ((s.getCalendar w.env (String.ofList name)).1, .exits msg) ∧
      (3 ≤ rest.length → msg = "usage: ".toList ++ argv0 ++ " CALENDAR [[[DAY] MONTH] YEAR]".toList) ∧
      (∀ t, rest = [t] → msg = "YEAR must be an integer, got: ".toList ++ w.repr t) ∧
      ∀ t u, rest = [t, u] →
        ((∀ n, ¬ IntLiteral w t n) → msg = "MONTH must be an integer, got: ".toList ++ w.repr t) ∧
        ((∃ n, IntLiteral w t n) → msg = "YEAR must be an integer, got: ".toList ++ w.repr u) := by
  have bad : ∀ v name, (∀ n, ¬ IntLiteral w v n) →
      intArg w v name = .error (name.toList ++ " must be an integer, got: ".toList ++ w.repr v) := by
    intro v name h
    unfold intArg
    cases hv : pyInt w v with
    | none => rfl
    | some n => exact absurd ((c62_int w v n).1 hv) (h n)
  obtain ⟨msg, hp⟩ : ∃ msg, period w argv0 rest = .error msg := by
    cases hp : period w argv0 rest with
    | error msg => exact ⟨msg, rfl⟩
    | ok p => exact absurd (period_ok.1 hp) (ha _ _)
  refine ⟨msg, ?_, ?_, ?_, ?_⟩
  · rw [main_cons hh]
    simp only [hc, hp]
  · intro hl
    match rest with
    | _ :: _ :: _ :: _ => cases hp; rfl
    | [] | [_] | [_, _] => simp at hl
  · rintro t rfl
    have : intArg w t "YEAR" = _ := bad t "YEAR" fun n hn => ha _ _ (.year hn)
    simp only [period, this] at hp
    cases hp
    rfl
  · rintro t u rfl
    constructor
    · intro h
      have : intArg w t "MONTH" = _ := bad t "MONTH" h
      simp only [period, this] at hp
      cases hp
      rfl
    · rintro ⟨n, hn⟩
      have : intArg w u "YEAR" = _ := bad u "YEAR" fun k hk => ha _ _ (.month hn hk)
      simp only [period, this, intArg_ok.2 hn] at hp
      cases hp
      rfl

/-- C62.  A month outside 1 to 12 makes `tcal` fail with an exception. -/
theorem c62_bad_month (w : World) (s : Registry) {argv0 name : Str} {rest : List Str} {c : CalObj} {y m : Int}
    (hh : ¬ AsksHelp (argv0 :: name :: rest))
    (hc : (s.getCalendar w.env (String.ofList name)).2 = .ok c) (ha : Asks w rest y (some m))
    (hm : ¬ (1 ≤ m ∧ m ≤ 12)) :
    ∃ e, (main w s (argv0 :: name :: rest)).2 = .raises e := by
  obtain ⟨e, he⟩ := render_bad (fun d => (w.content c).cal.isSession (d * DAY)) y m hm
  refine ⟨e, ?_⟩
  rw [main_cons hh]
  simp only [hc, (period_ok (p := (y, some m))).2 ha, he]

/-- C62.  For the name or an alias of a default calendar, after any calls that spare the default names,
`tcal` prints the month or year asked for, and the days without brackets are exactly the trading days of
the exchange in the calendar's default range. -/
theorem c62_default {w : World} {now : Int} (hr : Realizes now w.env w.content)
    (hnow : dayOf 2019 10 16 * DAY ≤ now) (ops : List Registry.Op) (hops : ∀ op ∈ ops, Spares op)
    {r : String} {cls : CalendarClass} (hcls : (r, cls) ∈ defaultClasses)
    {argv0 name : Str} {rest : List Str}
    (hn : String.ofList name = r ∨ (String.ofList name, r) ∈ defaultAliases) (hin : InTime now r)
    {y : Int} {mo : Option Int} (hh : ¬ AsksHelp (argv0 :: name :: rest)) (ha : Asks w rest y mo)
    (hm : ∀ m, mo = some m → 1 ≤ m ∧ m ≤ 12) :
    ∃ text isSession,
      (main w (defaultRegistry.run w.env ops) (argv0 :: name :: rest)).2 = .prints text ∧
      (∀ d, isSession d = true ↔ ClassCovers now cls d ∧ ClassTrades cls d) ∧
      ShowsPeriod isSession y mo text := by
  obtain ⟨c, hc, ho⟩ := c58_get_calendar_offers hr hnow ops hops hcls hn hin
  obtain ⟨text, f, h1, h2, h3⟩ := c62_prints w (defaultRegistry.run w.env ops) hh hc ha hm
  refine ⟨text, f, by rw [h1], fun d => ?_, h3⟩
  rw [h2, offers_sessions ho]
  constructor
  · rintro ⟨d', e, h⟩
    have : d = d' := by simp only [DAY] at e; omega
    exact this ▸ h
  · intro h
    exact ⟨d, rfl, h⟩

/-- `tcal NYSE 2 2026`: the hypotheses on the arguments hold, and `NYSE` is an alias of `XNYS`. -/
example (w : World) :
    ¬ AsksHelp ["tcal".toList, "NYSE".toList, "2".toList, "2026".toList] ∧
    Asks w ["2".toList, "2026".toList] 2026 (some 2) ∧
    (String.ofList "NYSE".toList, "XNYS") ∈ defaultAliases := by
  refine ⟨by rw [asksHelp_iff]; decide, .month ((c62_int _ _ _).1 rfl) ((c62_int _ _ _).1 rfl), by decide⟩

/-- A run on a registry with one calendar, whose only session is 2026-02-02. -/
example : ∃ w : World, ∃ s : Registry,
    (main w s (["tcal", "ONE", "02", "2026"].map String.toList)).2 = .prints
      "       February 2026
 Su  Mo  Tu  We  Th  Fr  Sa

[ 1]  2 [ 3][ 4][ 5][ 6][ 7]
[ 8][ 9][10][11][12][13][14]
[15][16][17][18][19][20][21]
[22][23][24][25][26][27][28]

".toList ∧
    (main w s (["tcal", "TWO", "02", "2026"].map String.toList)).2 = .exits "no TWO".toList ∧
    (main w s (["tcal", "ONE", "Feb", "2026"].map String.toList)).2 =
      .exits "MONTH must be an integer, got: 'Feb'".toList ∧
    (∃ e, (main w s (["tcal", "ONE", "13", "2026"].map String.toList)).2 = .raises e) := by
  refine ⟨{ env := fun _ _ => .error .keyError
            content := fun _ => ⟨Cal.ofSessions [⟨dayOf 2026 2 2 * DAY, 0, none, 1⟩], 0, 0, [], []⟩
            year := 2026, month := 2
            str := fun e => match e with | .invalidCalendarName n => "no ".toList ++ n.toList | _ => []
            repr := fun v => '\'' :: v ++ ['\''], decimal := fun _ => none },
    ⟨[("ONE", 0)], [], [], []⟩, by decide +kernel, by decide +kernel, by decide +kernel,
    .valueError "could not parse", by decide +kernel⟩

end TC.Props
