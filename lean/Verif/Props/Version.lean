import Verif.Spec.Version
import Verif.Lemmas.Tcal

/-!
# Property C68: the version of the package
-/

namespace TC.Props
open TC TC.Spec TC.Version
open TC.Tcal (Str isSpace isSpace_false)

/-! ### Texts -/

theorem span_append {α : Type} {p : α → Bool} {a b : List α} (ha : ∀ c ∈ a, p c = true)
    (hb : ∀ c, b.head? = some c → p c = false) :
    (a ++ b).takeWhile p = a ∧ (a ++ b).dropWhile p = b := by
  induction a with
  | nil =>
    cases b with
    | nil => simp
    | cons c b => simp [hb c rfl]
  | cons x a ih =>
    have hx := ha x (by simp)
    obtain ⟨h1, h2⟩ := ih (fun c hc => ha c (by simp [hc]))
    simp [hx, h1, h2]

theorem takeWhile_true {α : Type} {p : α → Bool} {a : List α} {c : α} (h : c ∈ a.takeWhile p) : p c = true := by
  induction a with
  | nil => simp at h
  | cons x a ih =>
    rw [List.takeWhile_cons] at h
    split at h
    · rcases List.mem_cons.1 h with rfl | h
      · assumption
      · exact ih h
    · simp at h

/-- `strip` for any set of characters. -/
def trim (p : Char → Bool) (s : Str) : Str := ((s.dropWhile p).reverse.dropWhile p).reverse

theorem trim_core {p : Char → Bool} {a s b : Str} (ha : ∀ c ∈ a, p c = true) (hb : ∀ c ∈ b, p c = true)
    (h1 : ∃ c, s.head? = some c ∧ p c = false) (h2 : ∃ c, s.getLast? = some c ∧ p c = false) :
    trim p (a ++ s ++ b) = s := by
  obtain ⟨x, hx, px⟩ := h1
  obtain ⟨y, hy, py⟩ := h2
  unfold trim
  have e1 : (a ++ (s ++ b)).dropWhile p = s ++ b := (span_append ha (by
    intro c hc
    cases s with
    | nil => simp at hx
    | cons d s => simp at hx hc; rw [← hc, hx, px])).2
  rw [List.append_assoc, e1, List.reverse_append]
  have e2 : (b.reverse ++ s.reverse).dropWhile p = s.reverse := (span_append (by simpa using hb) (by
    intro c hc
    rw [List.head?_reverse, hy] at hc
    cases hc
    exact py)).2
  rw [e2, List.reverse_reverse]

theorem strip_eq (s : Str) : strip s = trim isSpace s := rfl

theorem asciiSpace_isSpace {c : Char} (h : isSpace c = false) : asciiSpace c = false := by
  unfold isSpace at h
  unfold asciiSpace
  simp only [Bool.or_eq_false_iff, Bool.and_eq_false_iff, decide_eq_false_iff_not, beq_eq_false_iff_ne] at h ⊢
  omega

theorem _root_.TC.Spec.Word.ends {s : Str} (h : Word s) :
    (∃ c, s.head? = some c ∧ isSpace c = false) ∧ ∃ c, s.getLast? = some c ∧ isSpace c = false := by
  obtain ⟨h1, h2⟩ := h
  constructor
  · cases s with
    | nil => exact absurd rfl h1
    | cons c s => exact ⟨c, rfl, (isSpace_false c).mpr (h2 c (by simp))⟩
  · exact ⟨s.getLast h1, List.getLast?_eq_some_getLast h1, (isSpace_false _).mpr (h2 _ (List.getLast_mem h1))⟩

theorem _root_.TC.Spec.Word.append {s t : Str} (h : Word s) (h' : Word t) : Word (s ++ t) :=
  ⟨by simp [h.1], fun c hc => (List.mem_append.1 hc).elim (h.2 c) (h'.2 c)⟩

theorem _root_.TC.Spec.Hex.word {s : Str} (h : Hex s) : Word s := by
  refine ⟨h.1, fun c hc => ?_⟩
  have := h.2 c hc
  revert this
  have : ∀ c ∈ "0123456789abcdef".toList, ¬ WhiteSpace c := by decide
  exact this c

theorem _root_.TC.Spec.Hex.isHex {s : Str} (h : Hex s) : ∀ c ∈ s, isHex c = true := by
  intro c hc
  have : ∀ c ∈ "0123456789abcdef".toList, Version.isHex c = true := by decide
  exact this c (h.2 c hc)

theorem inDecimal_eq (n : Nat) : inDecimal n = Nat.toDigits 10 n := by
  unfold inDecimal
  rw [Nat.toString_eq_ofList_toDigits, String.toList_ofList]

theorem inDecimal_ne (n : Nat) : inDecimal n ≠ [] := by
  rw [inDecimal_eq]; exact Nat.toDigits_ne_nil

theorem inDecimal_digit {n : Nat} {c : Char} (h : c ∈ inDecimal n) : '0' ≤ c ∧ c ≤ '9' := by
  rw [inDecimal_eq] at h
  have := Nat.isDigit_of_mem_toDigits (by decide) (by decide) h
  unfold Char.isDigit at this
  simpa [Char.le_def] using this

theorem digit_ascii {dec : Char → Option Nat} {c : Char} (h : '0' ≤ c ∧ c ≤ '9') :
    digit dec c = some (c.toNat - 48) := by
  unfold Version.digit; rw [if_pos h]

theorem digit_none {dec : Char → Option Nat} {c : Char} (h : ¬ ('0' ≤ c ∧ c ≤ '9')) (h' : c.toNat < 128) :
    digit dec c = none := by
  unfold Version.digit; rw [if_neg h, if_pos h']

theorem inDecimal_word (n : Nat) : Word (inDecimal n) := by
  refine ⟨inDecimal_ne n, fun c hc => ?_⟩
  obtain ⟨h1, h2⟩ := inDecimal_digit hc
  have h1 : 48 ≤ c.toNat := h1
  have h2 : c.toNat ≤ 57 := h2
  unfold WhiteSpace
  simp only [List.mem_cons, List.not_mem_nil, or_false]
  omega

theorem intOf_inDecimal (dec : Char → Option Nat) (n : Nat) : intOf dec (inDecimal n) = some n := by
  unfold intOf
  have hall : (inDecimal n).all (fun c => (digit dec c).isSome) = true := by
    rw [List.all_eq_true]
    intro c hc
    rw [digit_ascii (inDecimal_digit hc)]
    rfl
  rw [if_pos ⟨inDecimal_ne n, hall⟩]
  congr 1
  have key : ∀ (l : Str) (init : Nat), (∀ c ∈ l, '0' ≤ c ∧ c ≤ '9') →
      l.foldl (fun n c => 10 * n + (digit dec c).getD 0) init = Nat.ofDigitChars 10 l init := by
    intro l
    induction l with
    | nil => intro init _; simp
    | cons c l ih =>
      intro init h
      rw [List.foldl_cons, Nat.ofDigitChars_cons, ih _ (fun c hc => h c (by simp [hc]))]
      rw [digit_ascii (h c (by simp))]
      rfl
  rw [key _ _ (fun c hc => inDecimal_digit hc), inDecimal_eq]
  exact Nat.ofDigitChars_ten_toDigits

/-! ### What `git describe` prints -/

theorem matchRest_eq (dec : Char → Option Nat) (n : Nat) {hex : Str} (hh : Hex hex) :
    matchRest dec ("-".toList ++ inDecimal n ++ "-g".toList ++ hex) = some (inDecimal n, hex) := by
  have e : "-".toList ++ inDecimal n ++ "-g".toList ++ hex = '-' :: (inDecimal n ++ ('-' :: 'g' :: hex)) := by
    simp
  rw [e]
  obtain ⟨h1, h2⟩ := span_append (p := fun c => (digit dec c).isSome) (a := inDecimal n) (b := '-' :: 'g' :: hex)
    (fun c hc => by rw [digit_ascii (inDecimal_digit hc)]; rfl)
    (fun c hc => by cases hc; rw [digit_none (by decide) (by decide)]; rfl)
  obtain ⟨h3, h4⟩ := span_append (p := isHex) (a := hex) (b := []) hh.isHex (by simp)
  rw [List.append_nil] at h3 h4
  simp only [matchRest, h1, h2, h3, h4]
  rw [if_pos ⟨inDecimal_ne n, hh.1, by simp⟩]

theorem matchRest_sound {dec : Char → Option Nat} {r ds hex : Str} (h : matchRest dec r = some (ds, hex)) :
    ∃ tail, r = "-".toList ++ ds ++ "-g".toList ++ hex ++ tail ∧ (tail = [] ∨ tail = ['\n']) ∧ ds ≠ [] ∧
      (∀ c ∈ ds, (digit dec c).isSome) ∧ hex ≠ [] ∧ ∀ c ∈ hex, isHex c = true := by
  unfold matchRest at h
  split at h
  · rename_i r
    dsimp only at h
    split at h
    · rename_i hx hdrop
      split at h
      · rename_i hc
        cases h
        obtain ⟨h1, h2, h3⟩ := hc
        refine ⟨_, ?_, h3, h1, fun c hc => ?_, h2, fun c hc => ?_⟩
        · have e1 := List.takeWhile_append_dropWhile (p := fun c => (digit dec c).isSome) (l := r)
          rw [hdrop] at e1
          have e2 := List.takeWhile_append_dropWhile (p := isHex) (l := hx)
          simp only [List.append_assoc, e2]
          simpa using e1.symm
        · exact (takeWhile_true (p := fun c => (digit dec c).isSome) hc)
        · exact (takeWhile_true hc)
      · cases h
    · cases h
  · cases h

theorem dash_digit (dec : Char → Option Nat) : digit dec '-' = none := digit_none (by decide) (by decide)

theorem matchRest_dashes {dec : Char → Option Nat} {r ds hex : Str} (h : matchRest dec r = some (ds, hex)) :
    r.count '-' = 2 := by
  obtain ⟨tail, rfl, h1, -, h2, -, h3⟩ := matchRest_sound h
  have e1 : ds.count '-' = 0 := by
    rw [List.count_eq_zero]
    intro hc
    have := h2 _ hc
    rw [dash_digit] at this
    cases this
  have e2 : hex.count '-' = 0 := by
    rw [List.count_eq_zero]
    intro hc
    have := h3 _ hc
    revert this; decide
  have e3 : tail.count '-' = 0 := by rcases h1 with rfl | rfl <;> decide
  simp [List.count_append, e1, e2, e3]

theorem matchDescribe_eq (dec : Char → Option Nat) {tag hex : Str} (n : Nat) (ht : Word tag) (hh : Hex hex) :
    let s := tag ++ ("-".toList ++ inDecimal n ++ "-g".toList ++ hex)
    matchDescribe dec s s.length = some (tag, inDecimal n, hex) := by
  intro s
  have hlt : tag.length ≤ s.length := by simp [s]
  have hpos : 0 < tag.length := List.length_pos_iff.2 ht.1
  have htake : s.take tag.length = tag := by simp [s]
  have hdrop : s.drop tag.length = "-".toList ++ inDecimal n ++ "-g".toList ++ hex := by simp [s]
  have hhere : ∀ m, m + 1 = tag.length → matchDescribe dec s (m + 1) = some (tag, inDecimal n, hex) := by
    intro m hm
    unfold matchDescribe
    rw [hm, htake, hdrop, matchRest_eq dec n hh]
    have : tag.all (· != '\n') = true := by
      rw [List.all_eq_true]
      intro c hc
      have := ht.2 c hc
      rw [bne_iff_ne]
      rintro rfl
      exact absurd this (by decide)
    rw [if_pos this]
  have hbeyond : ∀ m, tag.length < m → matchRest dec (s.drop m) = none := by
    intro m hm
    have e : s.drop m = (inDecimal n ++ "-g".toList ++ hex).drop (m - tag.length - 1) := by
      have : m = tag.length + (1 + (m - tag.length - 1)) := by omega
      rw [this, ← List.drop_drop, hdrop, ← List.drop_drop]
      congr 1
      omega
    cases hr : matchRest dec (s.drop m) with
    | none => rfl
    | some p =>
      obtain ⟨ds, hx⟩ := p
      have h2 := matchRest_dashes hr
      rw [e] at h2
      have h3 := (List.drop_sublist (m - tag.length - 1) (inDecimal n ++ "-g".toList ++ hex)).count_le '-'
      have e1 : (inDecimal n).count '-' = 0 := by
        rw [List.count_eq_zero]
        intro hc
        exact absurd (inDecimal_digit hc) (by decide)
      have e2 : hex.count '-' = 0 := by
        rw [List.count_eq_zero]
        intro hc
        have := hh.isHex _ hc
        revert this; decide
      rw [List.count_append, List.count_append, e1, e2] at h3
      have : ("-g".toList).count '-' = 1 := by decide
      omega
  have main : ∀ k, matchDescribe dec s (tag.length + k) = some (tag, inDecimal n, hex) := by
    intro k
    induction k with
    | zero =>
      obtain ⟨m, hm⟩ : ∃ m, m + 1 = tag.length := ⟨tag.length - 1, by omega⟩
      rw [Nat.add_zero, ← hm]
      exact hhere m hm
    | succ k ih =>
      rw [← Nat.add_assoc]
      unfold matchDescribe
      rw [hbeyond (tag.length + k + 1) (by omega)]
      simp only [ih, ite_self]
  have : s.length = tag.length + (s.length - tag.length) := by omega
  rw [this]
  exact main _

/-- The ends of the text are not white space. -/
def Ends (s : Str) : Prop :=
  (∃ c, s.head? = some c ∧ isSpace c = false) ∧ ∃ c, s.getLast? = some c ∧ isSpace c = false

theorem strip_ends {s : Str} (h : Ends s) : strip s = s := by
  have := trim_core (p := isSpace) (a := []) (b := []) (s := s) (by simp) (by simp) h.1 h.2
  rw [List.nil_append, List.append_nil] at this
  exact this

theorem runCommand_ends {s : Str} (h : Ends s) : runCommand (.exits 0 (s ++ ['\n'])) = (some s, some 0) := by
  obtain ⟨⟨x, hx, px⟩, y, hy, py⟩ := h
  have := trim_core (p := asciiSpace) (a := []) (b := ['\n']) (s := s) (by simp) (by decide)
    ⟨x, hx, asciiSpace_isSpace px⟩ ⟨y, hy, asciiSpace_isSpace py⟩
  rw [List.nil_append] at this
  unfold trim at this
  simp only [runCommand, this, ne_eq, not_true_eq_false, if_false]

/-- **C68.**  Of the output of a command that succeeds, tabs, line feeds, vertical tabs, form feeds, carriage returns and
blanks are taken off at both ends, and nothing else; a command that fails has no output. -/
theorem c68_output {a s b : Str} (ha : ∀ c ∈ a, c.toNat ∈ [9, 10, 11, 12, 13, 32])
    (hb : ∀ c ∈ b, c.toNat ∈ [9, 10, 11, 12, 13, 32])
    (h1 : ∃ c, s.head? = some c ∧ c.toNat ∉ [9, 10, 11, 12, 13, 32])
    (h2 : ∃ c, s.getLast? = some c ∧ c.toNat ∉ [9, 10, 11, 12, 13, 32]) :
    runCommand (.exits 0 (a ++ s ++ b)) = (some s, some 0) ∧
    ∀ code, code ≠ 0 → runCommand (.exits code (a ++ s ++ b)) = (none, some code) := by
  have hin : ∀ c : Char, asciiSpace c = decide (c.toNat ∈ [9, 10, 11, 12, 13, 32]) := by
    intro c
    rw [Bool.eq_iff_iff, asciiSpace]
    simp only [Bool.or_eq_true, Bool.and_eq_true, decide_eq_true_eq, beq_iff_eq, List.mem_cons, List.not_mem_nil,
      or_false]
    omega
  obtain ⟨x, hx, px⟩ := h1
  obtain ⟨y, hy, py⟩ := h2
  have := trim_core (p := asciiSpace) (a := a) (b := b) (s := s) (fun c hc => by rw [hin]; simpa using ha c hc)
    (fun c hc => by rw [hin]; simpa using hb c hc) ⟨x, hx, by rw [hin]; simpa using px⟩ ⟨y, hy, by rw [hin]; simpa using py⟩
  unfold trim at this
  refine ⟨by simp only [runCommand, this, ne_eq, not_true_eq_false, if_false], fun code hc => ?_⟩
  simp [runCommand, hc]

example : runCommand (.exits 0 "\tv1.2\u00a0x\r\n".toList) = (some "v1.2\u00a0x".toList, some 0) := by decide

theorem ends_append {a b m : Str} (ha : Word a) (hb : Word b) : Ends (a ++ m ++ b) := by
  obtain ⟨⟨x, hx, px⟩, -⟩ := ha.ends
  obtain ⟨-, y, hy, py⟩ := hb.ends
  refine ⟨⟨x, ?_, px⟩, y, ?_, py⟩
  · rw [List.append_assoc, List.head?_append, hx]; rfl
  · rw [List.getLast?_append, hy]; rfl

theorem replaceOnce_eq {old : Char} {new a b : Str} (h : old ∉ a) :
    replaceOnce old new (a ++ old :: b) = a ++ new ++ b := by
  induction a with
  | nil => simp [replaceOnce]
  | cons c a ih =>
    have : c ≠ old := fun e => h (by simp [e])
    simp [replaceOnce, this, ih (fun hm => h (by simp [hm]))]

theorem Word.blank {s : Str} (h : Word s) : ' ' ∉ s := fun hm => absurd (h.2 _ hm) (by decide)

/-- **C68.**  Dates as git writes them become ISO 8601 dates. -/
theorem c68_date {day time zone : Str} (h1 : Word day) (h2 : Word time) (h3 : Word zone) :
    isoDate (day ++ [' '] ++ time ++ [' '] ++ zone) = day ++ ['T'] ++ time ++ zone := by
  unfold isoDate
  have e : day ++ [' '] ++ time ++ [' '] ++ zone = day ++ ([' '] ++ time ++ [' ']) ++ zone := by simp
  rw [e, strip_ends (ends_append h1 h3)]
  have e : day ++ ([' '] ++ time ++ [' ']) ++ zone = day ++ ' ' :: (time ++ [' '] ++ zone) := by simp
  rw [e, replaceOnce_eq (Word.blank h1)]
  have e : day ++ ['T'] ++ (time ++ [' '] ++ zone) = (day ++ ['T'] ++ time) ++ ' ' :: zone := by simp
  rw [e, replaceOnce_eq]
  · simp
  · simp [Word.blank h1, Word.blank h2]

example : isoDate " 2019-10-11 01:20:00 +0000\n".toList = "2019-10-11T01:20:00+0000".toList := by decide

theorem word_dash (c : Checkout) (h : c.Valid) : Word c.described := by
  unfold Checkout.described
  have hd : ∀ s : Str, Word s → Word (s ++ if c.dirty then "-dirty".toList else []) := by
    intro s hs
    cases c.dirty with
    | true => exact hs.append ⟨by decide, by decide⟩
    | false => simpa using hs
  apply hd
  cases ht : c.tag with
  | none => exact h.hex.word
  | some t =>
    exact (((h.tag t ht).append ⟨by decide, by decide⟩).append (inDecimal_word _)).append
      ⟨by decide, by decide⟩ |>.append h.hex.word

theorem dirty_suffix {s : Str} (h : ∃ c, s.getLast? = some c ∧ c ≠ 'y') :
    "-dirty".toList.isSuffixOf s = false := by
  obtain ⟨c, hc, hy⟩ := h
  rw [Bool.eq_false_iff]
  intro hs
  obtain ⟨t, rfl⟩ := List.isSuffixOf_iff_suffix.1 hs
  rw [List.getLast?_append] at hc
  simp at hc
  exact hy hc.symm

theorem Hex.last {s a : Str} (h : Hex s) : ∃ c, (a ++ s).getLast? = some c ∧ c ≠ 'y' := by
  refine ⟨s.getLast h.1, ?_, ?_⟩
  · rw [List.getLast?_append, List.getLast?_eq_some_getLast h.1]; rfl
  · have := h.2 _ (List.getLast_mem h.1)
    intro e
    rw [e] at this
    revert this
    decide

/-- The dictionary of a checkout. -/
def piecesOf (tagPrefix : Str) (c : Checkout) : Pieces :=
  { long := c.full, short := c.shortName, error := none, dirty := c.dirty,
    closestTag := c.tag.map (·.drop tagPrefix.length), distance := c.distance,
    date := some (c.day ++ ['T'] ++ c.time ++ c.zone) }

/-- **C68.**  From what git answers, `git_pieces_from_vcs` recovers the state of the checkout: the tag (which
may have hyphens, and look like the rest), the distance, the names of the commit, whether there are changes,
and the date. -/
theorem c68_pieces (dec : Char → Option Nat) {tagPrefix : Str} {git : Git} {c : Checkout} (hv : c.Valid)
    (ha : Answers git c) (hp : ∀ t, c.tag = some t → tagPrefix.isPrefixOf t = true) :
    gitPieces dec tagPrefix git = .ok (piecesOf tagPrefix c) := by
  obtain ⟨out, hg⟩ := ha.gitDir
  have hw := word_dash c hv
  have hdate := c68_date hv.day hv.time hv.zone
  have hde : Ends (c.day ++ [' '] ++ c.time ++ [' '] ++ c.zone) := by
    have := ends_append (m := [' '] ++ c.time ++ [' ']) hv.day hv.zone
    simpa using this
  have r1 : (runCommand git.gitDir).2 = some 0 := by rw [hg]; rfl
  have r2 : (runCommand git.describe).1 = some c.described := by rw [ha.describe, runCommand_ends hw.ends]
  have r3 : (runCommand git.head).1 = some c.full := by rw [ha.head, runCommand_ends hv.full.word.ends]
  have r4 : (runCommand git.date).1 = some (c.day ++ [' '] ++ c.time ++ [' '] ++ c.zone) := by
    rw [ha.date, runCommand_ends hde]
  have s2 : strip c.described = c.described := strip_ends hw.ends
  have s3 : strip c.full = c.full := strip_ends hv.full.word.ends
  -- the part before `-dirty`
  have hsplit : ∃ core, c.described = core ++ (if c.dirty then "-dirty".toList else []) ∧
      (core = match c.tag with
        | some t => t ++ ("-".toList ++ inDecimal c.distance ++ "-g".toList ++ c.hex)
        | none => c.hex) ∧ ∃ x, core.getLast? = some x ∧ x ≠ 'y' := by
    refine ⟨_, rfl, ?_, ?_⟩
    · cases c.tag <;> simp
    · cases c.tag with
      | none => exact Hex.last (a := []) hv.hex
      | some t => exact Hex.last hv.hex
  obtain ⟨core, hc, hcore, hlast⟩ := hsplit
  have hdirty : "-dirty".toList.isSuffixOf c.described = c.dirty := by
    rw [hc]
    cases hd : c.dirty with
    | true => exact List.isSuffixOf_iff_suffix.2 ⟨core, by simp⟩
    | false => simp only [Bool.false_eq_true, if_false, List.append_nil]; exact dirty_suffix hlast
  have hgd : (if c.dirty = true then c.described.take (c.described.length - 6) else c.described) = core := by
    rw [hc]
    cases c.dirty with
    | true => simp
    | false => simp
  unfold gitPieces
  simp only [r1, r2, r3, r4, s2, s3, hdirty, hgd, hdate, bind, Except.bind, pure, Except.pure]
  cases ht : c.tag with
  | none =>
    rw [ht] at hcore
    simp only at hcore
    have hno : '-' ∉ core := by
      rw [hcore]
      intro hm
      have := hv.hex.2 _ hm
      revert this; decide
    have r5 : (runCommand git.count).1 = some (inDecimal c.distance) := by
      rw [ha.count ht, runCommand_ends (inDecimal_word _).ends]
    simp [hno, r5, intOf_inDecimal, piecesOf, Checkout.shortName, ht]
  | some t =>
    rw [ht] at hcore
    simp only at hcore
    have hyes : '-' ∈ core := by rw [hcore]; simp
    have hm := matchDescribe_eq dec c.distance (hv.tag t ht) hv.hex
    simp only [← hcore] at hm
    simp [hyes, hm, hp t ht, intOf_inDecimal, piecesOf, Checkout.shortName, ht]

/-- A checkout three commits after the tag `v1-2-gab`, with changes. -/
def demoCheckout : Checkout :=
  { tag := some "v1-2-gab".toList, distance := 3, hex := "0dec0de".toList, full := "0dec0de5".toList, dirty := true,
    day := "2019-10-11".toList, time := "01:20:00".toList, zone := "+0000".toList }

theorem demoCheckout_valid : demoCheckout.Valid where
  tag := by rintro t h; cases h; exact ⟨by decide, by decide⟩
  hex := ⟨by decide, by decide⟩
  full := ⟨by decide, by decide⟩
  day := ⟨by decide, by decide⟩
  time := ⟨by decide, by decide⟩
  zone := ⟨by decide, by decide⟩

/-- git's answers for it. -/
def demoGit : Git :=
  { gitDir := .exits 0 ".git\n".toList
    describe := .exits 0 "v1-2-gab-3-g0dec0de-dirty\n".toList
    head := .exits 0 "0dec0de5\n".toList
    count := .fails
    date := .exits 0 "2019-10-11 01:20:00 +0000\n".toList }

theorem demoGit_answers : Answers demoGit demoCheckout where
  gitDir := ⟨_, rfl⟩
  describe := congrArg (Run.exits 0) (by decide +kernel)
  head := congrArg (Run.exits 0) (by decide +kernel)
  count := by intro h; cases h
  date := congrArg (Run.exits 0) (by decide +kernel)

/-! ### The version of a checkout -/

theorem piecesOf_tag {c : Checkout} (hv : c.Valid) : (piecesOf [] c).tag = c.tag := by
  unfold Pieces.tag piecesOf
  cases ht : c.tag with
  | none => rfl
  | some t =>
    have := (hv.tag t ht).1
    cases t with
    | nil => exact absurd rfl this
    | cons x t => rfl

theorem decimal_eq (n : Nat) : decimal n = inDecimal n := (inDecimal_eq n).symm

theorem versionOf_render {c : Checkout} (hv : c.Valid) : VersionOf c (renderPep440 (piecesOf [] c)) := by
  unfold renderPep440
  rw [piecesOf_tag hv]
  have e : (decimal c.distance ++ ".g".toList ++ c.shortName) ++ (if c.dirty = true then ".dirty".toList else []) =
      c.place := by
    rw [decimal_eq]; rfl
  cases ht : c.tag with
  | none =>
    change VersionOf c ("0+untagged.".toList ++ decimal c.distance ++ ".g".toList ++ c.shortName ++
        (if c.dirty = true then ".dirty".toList else []))
    have : "0+untagged.".toList ++ decimal c.distance ++ ".g".toList ++ c.shortName ++
        (if c.dirty = true then ".dirty".toList else []) = "0+untagged.".toList ++ c.place := by
      rw [← e]; simp
    rw [this]
    exact .untagged ht
  | some t =>
    change VersionOf c (if c.distance ≠ 0 ∨ c.dirty = true then
      t ++ plusOrDot t ++ (decimal c.distance ++ ".g".toList ++ c.shortName) ++
        (if c.dirty = true then ".dirty".toList else []) else t)
    split
    · rename_i h
      rw [List.append_assoc, e]
      unfold plusOrDot
      split
      · rename_i hp
        exact .betweenLocal ht h hp
      · rename_i hp
        exact .between ht h hp
    · rename_i h
      have h1 : c.distance = 0 := Classical.byContradiction fun hn => h (.inl hn)
      have h2 : c.dirty = false := by
        cases hd : c.dirty with
        | false => rfl
        | true => exact absurd (.inr hd) h
      exact .release ht h1 h2

/-- **C68.**  The version of an installation from a checkout. -/
theorem c68_version {w : World} (hk : w.keywords = unexpanded) {file : Str} (hf : w.file = some file)
    {c : Checkout} (hv : c.Valid) (ha : Answers (w.git (dirname (dirname file))) c) :
    ∃ v, getVersions w = .ok { version := v, fullRevision := some c.full, dirty := some c.dirty, error := none,
                               date := some (c.day ++ ['T'] ++ c.time ++ c.zone) } ∧ VersionOf c v := by
  refine ⟨_, ?_, versionOf_render hv⟩
  have h1 : versionsFromKeywords w.dec w.keywords tagPrefix = .error .notThisMethod := by
    rw [hk]; rfl
  have h2 := c68_pieces w.dec (tagPrefix := tagPrefix) hv ha (fun t _ => by simp [tagPrefix])
  unfold getVersions
  rw [h1, hf]
  simp only [h2, bind, Except.bind, ne_eq, not_true_eq_false, if_false]
  rfl

example : VersionOf demoCheckout "v1-2-gab+3.g0dec0de.dirty".toList :=
  VersionOf.between (t := "v1-2-gab".toList) rfl (.inr rfl) (by decide)

/-- **C68.**  With style `git-describe-long`, the version is what git printed. -/
theorem c68_round_trip {c : Checkout} (hv : c.Valid) :
    render (piecesOf [] c) "git-describe-long" = .ok
      { version := match c.tag with
          | some _ => c.described
          | none => c.full.take 7 ++ (if c.dirty then "-dirty".toList else []),
        fullRevision := some c.full, dirty := some c.dirty, error := none,
        date := some (c.day ++ ['T'] ++ c.time ++ c.zone) } := by
  have e : renderGitDescribeLong (piecesOf [] c) = match c.tag with
          | some _ => c.described
          | none => c.full.take 7 ++ (if c.dirty then "-dirty".toList else []) := by
    unfold renderGitDescribeLong
    rw [piecesOf_tag hv]
    cases ht : c.tag with
    | none => simp [piecesOf, Checkout.shortName, ht]
    | some t => simp [piecesOf, Checkout.shortName, Checkout.described, ht, decimal_eq]
  rw [← e]
  rfl

/-- A text with a first and a second part, the first without the character between them, has only one such
partition. -/
theorem partition_unique {x : Char} : ∀ {a a' b b' : Str}, x ∉ a → x ∉ a' → a ++ x :: b = a' ++ x :: b' →
    a = a' ∧ b = b'
  | [], [], _, _, _, _, h => by simpa using h
  | [], c :: a', _, _, _, h', h => by
    simp only [List.nil_append, List.cons_append, List.cons.injEq] at h
    exact absurd h.1 (fun e => h' (by simp [e]))
  | c :: a, [], _, _, h', _, h => by
    simp only [List.nil_append, List.cons_append, List.cons.injEq] at h
    exact absurd h.1.symm (fun e => h' (by simp [e]))
  | c :: a, c' :: a', _, _, h1, h2, h => by
    simp only [List.cons_append, List.cons.injEq] at h
    obtain ⟨e1, e2⟩ := partition_unique (fun hm => h1 (by simp [hm])) (fun hm => h2 (by simp [hm])) h.2
    exact ⟨by rw [h.1, e1], e2⟩

theorem inDecimal_inj {m n : Nat} (h : inDecimal m = inDecimal n) : m = n := by
  have h1 := intOf_inDecimal (fun _ => none) m
  rw [h, intOf_inDecimal] at h1
  simpa using h1.symm

theorem shortName_chars {c : Checkout} (hv : c.Valid) : ∀ x ∈ c.shortName, x ∈ "0123456789abcdef".toList := by
  unfold Checkout.shortName
  cases c.tag with
  | some t => exact hv.hex.2
  | none => exact fun x hx => hv.full.2 x (List.mem_of_mem_take hx)

theorem place_inj {c c' : Checkout} (hv : c.Valid) (hv' : c'.Valid) (h : c.place = c'.place) :
    c.distance = c'.distance ∧ c.shortName = c'.shortName ∧ c.dirty = c'.dirty := by
  have dec_dot : ∀ n, '.' ∉ inDecimal n := fun n hm => absurd (inDecimal_digit hm) (by decide)
  have e : ∀ c : Checkout, c.place = inDecimal c.distance ++ '.' :: ('g' :: (c.shortName ++
      (if c.dirty then ".dirty".toList else []))) := by
    intro c; unfold Checkout.place; simp
  rw [e, e] at h
  obtain ⟨h1, h2⟩ := partition_unique (dec_dot _) (dec_dot _) h
  have hx : ∀ {c : Checkout}, c.Valid → '.' ∉ c.shortName := fun hv hm => by
    have := shortName_chars hv _ hm
    revert this; decide
  have h3 : c.shortName ++ (if c.dirty then ".dirty".toList else []) =
      c'.shortName ++ (if c'.dirty then ".dirty".toList else []) := by simpa using h2
  refine ⟨inDecimal_inj h1, ?_⟩
  have hcount : ∀ {c : Checkout}, c.Valid → (c.shortName ++ (if c.dirty then ".dirty".toList else [])).count '.' =
      if c.dirty then 1 else 0 := by
    intro c hv
    rw [List.count_append, List.count_eq_zero.2 (hx hv)]
    cases c.dirty <;> decide
  have hd : c.dirty = c'.dirty := by
    have h4 := hcount hv
    rw [h3, hcount hv'] at h4
    revert h4
    cases c.dirty <;> cases c'.dirty <;> simp
  rw [hd] at h3
  exact ⟨List.append_cancel_right h3, hd⟩

/-- **C68.**  Different states have different versions: for tags without a plus sign, the version determines
the tag, how many commits ago it was and whether there are uncommitted changes, and, unless it is a release,
the commit. -/
theorem c68_distinct {c c' : Checkout} (hv : c.Valid) (hv' : c'.Valid) {v : Str} (h : VersionOf c v)
    (h' : VersionOf c' v) (hp : ∀ t, c.tag = some t → '+' ∉ t) (hp' : ∀ t, c'.tag = some t → '+' ∉ t) :
    c.tag = c'.tag ∧ c.dirty = c'.dirty ∧ (c.tag ≠ none → c.distance = c'.distance) ∧
      (c.distance ≠ 0 ∨ c.dirty = true ∨ c.tag = none → c.shortName = c'.shortName ∧ c.distance = c'.distance) := by
  have key : ∀ {a a' b b' : Str}, '+' ∉ a → '+' ∉ a' → a ++ "+".toList ++ b = a' ++ "+".toList ++ b' →
      a = a' ∧ b = b' := by
    intro a a' b b' h1 h2 h3
    exact partition_unique h1 h2 (by simpa using h3)
  have hu : ∀ (c c' : Checkout), "untagged.".toList ++ c.place ≠ c'.place := by
    intro c c' e
    have : ∃ x y, inDecimal c'.distance = x :: y := by
      cases hd : inDecimal c'.distance with
      | nil => exact absurd hd (inDecimal_ne _)
      | cons x y => exact ⟨x, y, rfl⟩
    obtain ⟨x, y, hx⟩ := this
    have hd := inDecimal_digit (n := c'.distance) (c := x) (by rw [hx]; simp)
    unfold Checkout.place at e
    rw [hx] at e
    simp only [String.reduceToList, List.cons_append, List.cons.injEq] at e
    rw [← e.1] at hd
    exact absurd hd (by decide)
  have eu : ∀ c : Checkout, "0+untagged.".toList ++ c.place = "0".toList ++ "+".toList ++ ("untagged.".toList ++ c.place) := by
    intro c; simp
  cases h with
  | release h1 h2 h3 =>
    cases h' with
    | release k1 k2 k3 => simp [h1, h2, h3, k1, k2, k3]
    | between k1 k2 k3 => exact absurd (by simp) (hp _ h1)
    | betweenLocal k1 k2 k3 => exact absurd k3 (hp' _ k1)
    | untagged k1 => exact absurd (by simp) (hp _ h1)
  | betweenLocal h1 h2 h3 => exact absurd h3 (hp _ h1)
  | between h1 h2 h3 =>
    rename_i t
    generalize hvv : t ++ "+".toList ++ c.place = v at h'
    cases h' with
    | release k1 k2 k3 => exact absurd (by rw [← hvv]; simp) (hp' _ k1)
    | between k1 k2 k3 =>
      obtain ⟨e1, e2⟩ := key h3 k3 hvv
      obtain ⟨e3, e4, e5⟩ := place_inj hv hv' e2
      exact ⟨by rw [h1, k1, e1], e5, fun _ => e3, fun _ => ⟨e4, e3⟩⟩
    | betweenLocal k1 k2 k3 => exact absurd k3 (hp' _ k1)
    | untagged k1 =>
      rw [eu] at hvv
      exact absurd (key h3 (by decide) hvv).2.symm (hu _ _)
  | untagged h1 =>
    generalize hvv : "0+untagged.".toList ++ c.place = v at h'
    cases h' with
    | release k1 k2 k3 => exact absurd (by rw [← hvv]; simp) (hp' _ k1)
    | between k1 k2 k3 =>
      rw [eu] at hvv
      exact absurd (key (by decide) k3 hvv).2 (hu _ _)
    | betweenLocal k1 k2 k3 => exact absurd k3 (hp' _ k1)
    | untagged k1 =>
      have e2 := List.append_cancel_left hvv
      obtain ⟨e3, e4, e5⟩ := place_inj hv hv' e2
      exact ⟨by rw [h1, k1], e5, fun _ => e3, fun _ => ⟨e4, e3⟩⟩

/-- With a plus sign in the tag this is false: a release with the tag `1+2.gab` and a state two commits after
the tag `1` have the same version. -/
example :
    let c : Checkout := { demoCheckout with tag := some "1+2.gab".toList, distance := 0, dirty := false }
    let c' : Checkout := { demoCheckout with tag := some "1".toList, distance := 2, hex := "ab".toList, dirty := false }
    VersionOf c "1+2.gab".toList ∧ VersionOf c' "1+2.gab".toList ∧ c.tag ≠ c'.tag :=
  ⟨.release rfl rfl rfl, VersionOf.between (t := "1".toList) rfl (.inl (by decide)) (by decide), by decide⟩

theorem render_styled {c : Checkout} (hv : c.Valid)
    {style : String} {v : Str} (h : StyledVersion c style v) :
    render (piecesOf [] c) style = .ok
      { version := v, fullRevision := some c.full, dirty := some c.dirty, error := none,
        date := some (c.day ++ ['T'] ++ c.time ++ c.zone) } := by
  have ht := piecesOf_tag hv
  cases h with
  | preRelease h1 h2 =>
    have e : renderPep440Pre (piecesOf [] c) = v := by
      unfold renderPep440Pre; rw [ht, h1]; simp [piecesOf, h2]
    rw [← e]; rfl
  | pre h1 h2 =>
    refine Eq.trans (b := Except.ok _) rfl (congrArg (fun x => Except.ok (Info.mk x _ _ _ _)) ?_)
    change renderPep440Pre (piecesOf [] c) = _
    unfold renderPep440Pre; rw [ht, h1]; simp [piecesOf, h2, decimal_eq]
  | preNoTag h1 =>
    refine Eq.trans (b := Except.ok _) rfl (congrArg (fun x => Except.ok (Info.mk x _ _ _ _)) ?_)
    change renderPep440Pre (piecesOf [] c) = _
    unfold renderPep440Pre; rw [ht, h1]; simp [piecesOf, decimal_eq]
  | postRelease h1 h2 h3 =>
    refine Eq.trans (b := Except.ok _) rfl (congrArg (fun x => Except.ok (Info.mk x _ _ _ _)) ?_)
    change renderPep440Post (piecesOf [] c) = _
    unfold renderPep440Post; rw [ht, h1]; simp [piecesOf, h2, h3]
  | post h1 h2 h3 =>
    refine Eq.trans (b := Except.ok _) rfl (congrArg (fun x => Except.ok (Info.mk x _ _ _ _)) ?_)
    change renderPep440Post (piecesOf [] c) = _
    unfold renderPep440Post; rw [ht, h1]
    have h2' : (piecesOf [] c).distance ≠ 0 ∨ (piecesOf [] c).dirty = true := h2
    simp only [if_pos h2']
    simp [piecesOf, decimal_eq, plusOrDot, h3, Checkout.mark]
  | postLocal h1 h2 h3 =>
    refine Eq.trans (b := Except.ok _) rfl (congrArg (fun x => Except.ok (Info.mk x _ _ _ _)) ?_)
    change renderPep440Post (piecesOf [] c) = _
    unfold renderPep440Post; rw [ht, h1]
    have h2' : (piecesOf [] c).distance ≠ 0 ∨ (piecesOf [] c).dirty = true := h2
    simp only [if_pos h2']
    simp [piecesOf, decimal_eq, plusOrDot, h3, Checkout.mark]
  | postNoTag h1 =>
    refine Eq.trans (b := Except.ok _) rfl (congrArg (fun x => Except.ok (Info.mk x _ _ _ _)) ?_)
    change renderPep440Post (piecesOf [] c) = _
    unfold renderPep440Post; rw [ht, h1]; simp [piecesOf, decimal_eq, Checkout.mark]
  | oldRelease h1 h2 h3 =>
    refine Eq.trans (b := Except.ok _) rfl (congrArg (fun x => Except.ok (Info.mk x _ _ _ _)) ?_)
    change renderPep440Old (piecesOf [] c) = _
    unfold renderPep440Old; rw [ht, h1]; simp [piecesOf, h2, h3]
  | old h1 h2 =>
    refine Eq.trans (b := Except.ok _) rfl (congrArg (fun x => Except.ok (Info.mk x _ _ _ _)) ?_)
    change renderPep440Old (piecesOf [] c) = _
    unfold renderPep440Old; rw [ht, h1]
    have h2' : (piecesOf [] c).distance ≠ 0 ∨ (piecesOf [] c).dirty = true := h2
    simp only [if_pos h2']
    simp [piecesOf, decimal_eq, Checkout.mark]
  | oldNoTag h1 =>
    refine Eq.trans (b := Except.ok _) rfl (congrArg (fun x => Except.ok (Info.mk x _ _ _ _)) ?_)
    change renderPep440Old (piecesOf [] c) = _
    unfold renderPep440Old; rw [ht, h1]; simp [piecesOf, decimal_eq, Checkout.mark]
  | describeRelease h1 h2 =>
    refine Eq.trans (b := Except.ok _) rfl (congrArg (fun x => Except.ok (Info.mk x _ _ _ _)) ?_)
    change renderGitDescribe (piecesOf [] c) = _
    unfold renderGitDescribe; rw [ht, h1]; simp [piecesOf, h2, Checkout.mark]
  | describe h1 h2 =>
    refine Eq.trans (b := Except.ok _) rfl (congrArg (fun x => Except.ok (Info.mk x _ _ _ _)) ?_)
    change renderGitDescribe (piecesOf [] c) = _
    unfold renderGitDescribe Checkout.described; rw [ht, h1]
    simp [piecesOf, h2, decimal_eq, Checkout.shortName, h1]
  | describeNoTag h1 =>
    refine Eq.trans (b := Except.ok _) rfl (congrArg (fun x => Except.ok (Info.mk x _ _ _ _)) ?_)
    change renderGitDescribe (piecesOf [] c) = _
    unfold renderGitDescribe; rw [ht, h1]; simp [piecesOf, Checkout.mark, Checkout.shortName, h1]

theorem styled_exists (c : Checkout) :
    ∀ style ∈ ["pep440-pre", "pep440-post", "pep440-old", "git-describe"], ∃ v, StyledVersion c style v := by
  intro style hs
  have hd : (c.distance = 0 ∧ c.dirty = false) ∨ (c.distance ≠ 0 ∨ c.dirty = true) := by
    cases c.dirty with
    | true => exact .inr (.inr rfl)
    | false =>
      by_cases h : c.distance = 0
      · exact .inl ⟨h, rfl⟩
      · exact .inr (.inl h)
  simp only [List.mem_cons, List.not_mem_nil, or_false] at hs
  cases ht : c.tag with
  | none =>
    rcases hs with rfl | rfl | rfl | rfl
    · exact ⟨_, .preNoTag ht⟩
    · exact ⟨_, .postNoTag ht⟩
    · exact ⟨_, .oldNoTag ht⟩
    · exact ⟨_, .describeNoTag ht⟩
  | some t =>
    rcases hs with rfl | rfl | rfl | rfl
    · by_cases h : c.distance = 0
      · exact ⟨_, .preRelease ht h⟩
      · exact ⟨_, .pre ht h⟩
    · rcases hd with ⟨h1, h2⟩ | h
      · exact ⟨_, .postRelease ht h1 h2⟩
      · by_cases hp : '+' ∈ t
        · exact ⟨_, .postLocal ht h hp⟩
        · exact ⟨_, .post ht h hp⟩
    · rcases hd with ⟨h1, h2⟩ | h
      · exact ⟨_, .oldRelease ht h1 h2⟩
      · exact ⟨_, .old ht h⟩
    · by_cases h : c.distance = 0
      · exact ⟨_, .describeRelease ht h⟩
      · exact ⟨_, .describe ht h⟩

/-- **C68.**  The other styles. -/
theorem c68_styles (dec : Char → Option Nat) {git : Git} {c : Checkout} (hv : c.Valid) (ha : Answers git c)
    {style : String} {v : Str} (h : StyledVersion c style v) :
    (gitPieces dec [] git >>= fun p => render p style) = .ok
      { version := v, fullRevision := some c.full, dirty := some c.dirty, error := none,
        date := some (c.day ++ ['T'] ++ c.time ++ c.zone) } := by
  rw [c68_pieces dec hv ha (by simp)]
  exact render_styled hv h

/-- **C68.**  In each of these styles, a checkout has exactly one version. -/
theorem c68_styled (c : Checkout) (hv : c.Valid) :
    ∀ style ∈ ["pep440-pre", "pep440-post", "pep440-old", "git-describe"],
      ∃ v, StyledVersion c style v ∧ ∀ u, StyledVersion c style u → u = v := by
  intro style hs
  obtain ⟨v, h⟩ := styled_exists c style hs
  refine ⟨v, h, fun u hu => ?_⟩
  have := (render_styled hv hu).symm.trans (render_styled hv h)
  cases this
  rfl

example : ∃ v, StyledVersion demoCheckout "pep440-post" v ∧ ∀ u, StyledVersion demoCheckout "pep440-post" u → u = v :=
  c68_styled _ demoCheckout_valid _ (by decide)

/-- Each style has a version of the checkout above. -/
example : StyledVersion demoCheckout "pep440-pre" "v1-2-gab.post.dev3".toList ∧
    StyledVersion demoCheckout "pep440-post" "v1-2-gab.post3.dev0+g0dec0de".toList ∧
    StyledVersion demoCheckout "pep440-old" "v1-2-gab.post3.dev0".toList ∧
    StyledVersion demoCheckout "git-describe" "v1-2-gab-3-g0dec0de-dirty".toList :=
  ⟨StyledVersion.pre (t := "v1-2-gab".toList) rfl (by decide),
    StyledVersion.post (t := "v1-2-gab".toList) rfl (.inr rfl) (by decide),
    StyledVersion.old (t := "v1-2-gab".toList) rfl (.inr rfl),
    StyledVersion.describe (c := demoCheckout) (t := "v1-2-gab".toList) rfl (by decide)⟩

/-- **C68.**  The empty style and `default` are `pep440`; with one that does not exist, there is an error. -/
theorem c68_default_style (dec : Char → Option Nat) {git : Git} {c : Checkout} (hv : c.Valid) (ha : Answers git c) :
    (∀ style ∈ ["", "default", "pep440"], ∃ v, VersionOf c v ∧ (gitPieces dec [] git >>= fun p => render p style) = .ok
      { version := v, fullRevision := some c.full, dirty := some c.dirty, error := none,
        date := some (c.day ++ ['T'] ++ c.time ++ c.zone) }) ∧
    ∀ style, style ∉ ["", "default", "pep440", "pep440-pre", "pep440-post", "pep440-old", "git-describe",
      "git-describe-long"] → (gitPieces dec [] git >>= fun p => render p style) = .error .valueError := by
  rw [c68_pieces dec hv ha (by simp)]
  constructor
  · intro style hs
    refine ⟨_, versionOf_render hv, ?_⟩
    simp only [List.mem_cons, List.not_mem_nil, or_false] at hs
    rcases hs with rfl | rfl | rfl <;> rfl
  · intro style hs
    simp only [List.mem_cons, List.not_mem_nil, or_false, not_or] at hs
    obtain ⟨h1, h2, h3, h4, h5, h6, h7, h8⟩ := hs
    have e : ¬ (style = "" ∨ style = "default") := by
      rintro (h | h)
      · exact h1 h
      · exact h2 h
    simp only [bind, Except.bind, render, piecesOf, if_neg e, if_neg h3, if_neg h4, if_neg h5, if_neg h6, if_neg h7, if_neg h8]

/-- `calver` is no style. -/
example : (gitPieces (fun _ => none) [] demoGit >>= fun p => render p "calver") = .error .valueError :=
  (c68_default_style _ demoCheckout_valid demoGit_answers).2 _ (by decide)

theorem matchDescribe_sound {dec : Char → Option Nat} {s : Str} : ∀ {n : Nat} {tag ds hex : Str},
    matchDescribe dec s n = some (tag, ds, hex) →
      ∃ rest, s = tag ++ rest ∧ tag ≠ [] ∧ matchRest dec rest = some (ds, hex)
  | 0, _, _, _, h => by simp [matchDescribe] at h
  | n + 1, tag, ds, hex, h => by
    unfold matchDescribe at h
    split at h
    · split at h
      · rename_i hm
        cases h
        refine ⟨_, (List.take_append_drop _ _).symm, ?_, hm⟩
        intro e
        have : s = [] := by
          cases s with
          | nil => rfl
          | cons c s => simp at e
        rw [this] at hm
        simp [matchRest] at hm
      · exact matchDescribe_sound h
    · exact matchDescribe_sound h

/-- **C68.**  If git describes a checkout by something with a hyphen that is not of the form TAG-NUMBER-gHEX,
the version is "unknown", with an error. -/
theorem c68_unparseable (dec : Char → Option Nat) {git : Git} {text full : Str} (ht : Ends text) (hf : Ends full)
    (hg : ∃ out, git.gitDir = .exits 0 out) (h1 : git.describe = .exits 0 (text ++ ['\n']))
    (h2 : git.head = .exits 0 (full ++ ['\n'])) (hdirty : ∀ s, text ≠ s ++ "-dirty".toList) (hdash : '-' ∈ text)
    (hno : ∀ tag ds hex, text = tag ++ "-".toList ++ ds ++ "-g".toList ++ hex → tag = [] ∨ ds = [] ∨ hex = [] ∨
      (∃ c ∈ ds, digit dec c = none) ∨ ∃ c ∈ hex, c ∉ "0123456789abcdef".toList) (style : String) :
    ∃ e, (gitPieces dec tagPrefix git >>= fun p => render p style) = .ok
      { version := "unknown".toList, fullRevision := some full, dirty := none, error := some e, date := none } := by
  obtain ⟨out, hg⟩ := hg
  have r1 : (runCommand git.gitDir).2 = some 0 := by rw [hg]; rfl
  have r2 : (runCommand git.describe).1 = some text := by rw [h1, runCommand_ends ht]
  have r3 : (runCommand git.head).1 = some full := by rw [h2, runCommand_ends hf]
  have s2 : strip text = text := strip_ends ht
  have s3 : strip full = full := strip_ends hf
  have hd : "-dirty".toList.isSuffixOf text = false := by
    rw [Bool.eq_false_iff]
    intro hs
    obtain ⟨t, e⟩ := List.isSuffixOf_iff_suffix.1 hs
    exact hdirty t e.symm
  have hm : matchDescribe dec text text.length = none := by
    cases hm : matchDescribe dec text text.length with
    | none => rfl
    | some p =>
      obtain ⟨tag, ds, hex⟩ := p
      obtain ⟨rest, e1, e2, e3⟩ := matchDescribe_sound hm
      obtain ⟨tail, e4, e5, e6, e7, e8, e9⟩ := matchRest_sound e3
      have htail : tail = [] := by
        rcases e5 with e5 | e5
        · exact e5
        · obtain ⟨-, y, hy, py⟩ := ht
          rw [e1, e4, e5, ← List.append_assoc, List.getLast?_append] at hy
          simp at hy
          rw [← hy] at py
          exact absurd py (by decide)
      rw [htail, List.append_nil] at e4
      rcases hno tag ds hex (by rw [e1, e4]; simp) with h | h | h | ⟨c, hc, h⟩ | ⟨c, hc, h⟩
      · exact absurd h e2
      · exact absurd h e6
      · exact absurd h e8
      · have := e7 c hc
        rw [h] at this
        cases this
      · have hx := e9 c hc
        refine absurd ?_ h
        unfold isHex at hx
        simp only [decide_eq_true_eq] at hx
        have key : ∀ n : Fin 128, (48 ≤ n.val ∧ n.val ≤ 57) ∨ (97 ≤ n.val ∧ n.val ≤ 102) →
            Char.ofNat n.val ∈ "0123456789abcdef".toList := by decide
        have hb : (48 ≤ c.toNat ∧ c.toNat ≤ 57) ∨ (97 ≤ c.toNat ∧ c.toNat ≤ 102) := hx
        have := key ⟨c.toNat, by omega⟩ hb
        rwa [Char.ofNat_toNat] at this
  refine ⟨unparseable text, ?_⟩
  unfold gitPieces
  simp only [r1, r2, r3, s2, s3, hd, bind, Except.bind, pure, Except.pure]
  simp [hdash, hm, render]

/-- A text with a hyphen, but not of that form. -/
example : ∀ tag ds hex : Str, "1.0-beta".toList = tag ++ "-".toList ++ ds ++ "-g".toList ++ hex →
    tag = [] ∨ ds = [] ∨ hex = [] ∨ (∃ c ∈ ds, digit (fun _ => none) c = none) ∨
      ∃ c ∈ hex, c ∉ "0123456789abcdef".toList := by
  intro tag ds hex h
  have h1 : ("1.0-beta".toList).count '-' = 1 := by decide
  rw [h] at h1
  simp [List.count_append] at h1
  omega

/-! ### Keywords -/

theorem splitOn_one {x : Char} {r : Str} (h : x ∉ r) : splitOn x r = [r] := by
  induction r with
  | nil => rfl
  | cons c r ih =>
    have hc : c ≠ x := fun e => h (by simp [e])
    simp [splitOn, hc, ih (fun hm => h (by simp [hm]))]

theorem splitOn_append {x : Char} {r s : Str} (h : x ∉ r) : splitOn x (r ++ x :: s) = r :: splitOn x s := by
  induction r with
  | nil => simp [splitOn]
  | cons c r ih =>
    have hc : c ≠ x := fun e => h (by simp [e])
    simp [splitOn, hc, ih (fun hm => h (by simp [hm]))]

theorem RefName.ends {r : Str} (h : RefName r) : Ends r := by
  obtain ⟨⟨x, hx, px⟩, ⟨y, hy, py⟩, -⟩ := h
  exact ⟨⟨x, hx, (isSpace_false x).mpr px⟩, y, hy, (isSpace_false y).mpr py⟩

theorem strip_blank {r : Str} (h : RefName r) : strip (' ' :: r) = r := by
  have := trim_core (p := isSpace) (a := [' ']) (b := []) (s := r) (by decide) (by simp) (RefName.ends h).1
    (RefName.ends h).2
  rw [List.append_nil] at this
  exact this

theorem split_refs : ∀ (refs : List Str), refs ≠ [] → (∀ r ∈ refs, RefName r) →
    (splitOn ',' (", ".toList.intercalate refs)).map strip = refs ∧
    (splitOn ',' (' ' :: ", ".toList.intercalate refs)).map strip = refs
  | [], h, _ => absurd rfl h
  | [r], _, h => by
    have hr := h r (by simp)
    have h1 : ',' ∉ r := fun hm => (hr.chars _ hm).1 rfl
    have h2 : ',' ∉ ' ' :: r := by simp [h1]
    simp only [List.intercalate_singleton]
    rw [splitOn_one h1, splitOn_one h2]
    exact ⟨by simp [strip_ends (RefName.ends hr)], by simp [strip_blank hr]⟩
  | r :: r' :: rs, _, h => by
    have hr := h r (by simp)
    have h1 : ',' ∉ r := fun hm => (hr.chars _ hm).1 rfl
    have h2 : ',' ∉ ' ' :: r := by simp [h1]
    obtain ⟨-, ih⟩ := split_refs (r' :: rs) (by simp) (fun x hx => h x (by simp [hx]))
    have e : ", ".toList.intercalate (r :: r' :: rs) = r ++ ',' :: (' ' :: ", ".toList.intercalate (r' :: rs)) := by
      simp [List.intercalate]
    rw [e]
    constructor
    · rw [splitOn_append h1, List.map_cons, ih, strip_ends (RefName.ends hr)]
    · rw [← List.cons_append, splitOn_append h2, List.map_cons, ih, strip_blank hr]

theorem intercalate_ends : ∀ (refs : List Str), refs ≠ [] → (∀ r ∈ refs, RefName r) →
    (∃ c, (", ".toList.intercalate refs).head? = some c ∧ c ≠ '(' ∧ c ≠ ')') ∧
    ∃ c, (", ".toList.intercalate refs).getLast? = some c ∧ c ≠ '(' ∧ c ≠ ')'
  | [], h, _ => absurd rfl h
  | [r], _, h => by
    have hr := h r (by simp)
    obtain ⟨x, hx, -⟩ := hr.first
    obtain ⟨y, hy, -⟩ := hr.last
    simp only [List.intercalate_singleton]
    exact ⟨⟨x, hx, (hr.chars _ (List.mem_of_head? hx)).2⟩, y, hy, (hr.chars _ (List.mem_of_getLast? hy)).2⟩
  | r :: r' :: rs, _, h => by
    have hr := h r (by simp)
    obtain ⟨x, hx, -⟩ := hr.first
    obtain ⟨-, y, hy, py⟩ := intercalate_ends (r' :: rs) (by simp) (fun x hx => h x (by simp [hx]))
    have e : ", ".toList.intercalate (r :: r' :: rs) = (r ++ ", ".toList) ++ ", ".toList.intercalate (r' :: rs) := by
      simp [List.intercalate]
    rw [e]
    refine ⟨⟨x, ?_, (hr.chars _ (List.mem_of_head? hx)).2⟩, y, ?_, py⟩
    · rw [List.append_assoc, List.head?_append, hx]; rfl
    · rw [List.getLast?_append, hy]; rfl

theorem sortStr_head : ∀ (xs : List Str), xs ≠ [] →
    ∃ h t, sortStr xs = h :: t ∧ h ∈ xs ∧ ∀ y ∈ xs, ¬ y < h
  | [], h => absurd rfl h
  | [x], _ => ⟨x, [], rfl, by simp, by simp [List.lt_irrefl]⟩
  | x :: x' :: xs, _ => by
    obtain ⟨h, t, h1, h2, h3⟩ := sortStr_head (x' :: xs) (by simp)
    have e : sortStr (x :: x' :: xs) = insertStr x (sortStr (x' :: xs)) := rfl
    rw [e, h1]
    unfold insertStr
    split
    · rename_i hlt
      refine ⟨x, _, rfl, by simp, fun y hy hyx => ?_⟩
      rcases List.mem_cons.1 hy with rfl | hy
      · exact List.lt_irrefl _ hyx
      · exact h3 y hy (List.lt_trans hyx hlt)
    · rename_i hlt
      refine ⟨h, _, rfl, List.mem_cons_of_mem _ h2, fun y hy hyx => ?_⟩
      rcases List.mem_cons.1 hy with rfl | hy
      · exact hlt hyx
      · exact h3 y hy hyx

/-- **C68.**  In an archive made by git, the version is the first in alphabetical order of the tags at the
commit (if none is marked as a tag, of the names with a digit); without one, it is `0+unknown`, with an
error.  It comes with the full name of the commit, and with its date in the first case. -/
theorem c68_keywords (dec : Char → Option Nat) {refs : List Str} (hne : refs ≠ []) (hr : ∀ r ∈ refs, RefName r)
    {full day time zone : Str} (hf : Word full) (h1 : Word day) (h2 : Word time) (h3 : Word zone) :
    let k : Keywords := ⟨refnames refs, full, day ++ [' '] ++ time ++ [' '] ++ zone⟩
    let tag := IsTag (fun c => (digit dec c).isSome = true) refs
    (∀ t, Least tag t → versionsFromKeywords dec k tagPrefix = .ok
      { version := t, fullRevision := some full, dirty := some false, error := none,
        date := some (day ++ ['T'] ++ time ++ zone) }) ∧
    ((∀ t, ¬ tag t) → versionsFromKeywords dec k tagPrefix = .ok
      { version := "0+unknown".toList, fullRevision := some full, dirty := some false,
        error := some "no suitable tags".toList, date := none }) := by
  intro k tag
  have e1 : strip (refnames refs) = "(".toList ++ ", ".toList.intercalate refs ++ ")".toList := by
    have := trim_core (p := isSpace) (a := [' ']) (b := [])
      (s := "(".toList ++ ", ".toList.intercalate refs ++ ")".toList) (by decide) (by simp)
      ⟨'(', by simp, by decide⟩ ⟨')', by rw [List.getLast?_append]; rfl, by decide⟩
    rw [List.append_nil] at this
    rw [strip_eq, ← this]
    congr 1
  obtain ⟨⟨x, hx, px⟩, y, hy, py⟩ := intercalate_ends refs hne hr
  have e2 : stripChars ['(', ')'] ("(".toList ++ ", ".toList.intercalate refs ++ ")".toList) =
      ", ".toList.intercalate refs :=
    trim_core (p := fun c => decide (c ∈ ['(', ')'])) (a := "(".toList) (b := ")".toList) (by decide) (by decide)
      ⟨x, hx, by simp [px]⟩ ⟨y, hy, by simp [py]⟩
  have e3 := (split_refs refs hne hr).1
  have hpre : ("$Format".toList.isPrefixOf ("(".toList ++ ", ".toList.intercalate refs ++ ")".toList)) = false := by
    simp [List.isPrefixOf]
  have hmem : ∀ t, tag t ↔ t ∈ (let tags := (refs.filter fun r => "tag: ".toList.isPrefixOf r).map fun r => r.drop 5
      if tags = [] then refs.filter fun r => r.any fun c => (digit dec c).isSome else tags) := by
    intro t
    have hm1 : ∀ u, u ∈ ((refs.filter fun r => "tag: ".toList.isPrefixOf r).map fun r => r.drop 5) ↔
        "tag: ".toList ++ u ∈ refs := by
      intro u
      simp only [List.mem_map, List.mem_filter, List.isPrefixOf_iff_prefix]
      constructor
      · rintro ⟨r, ⟨h1, s, rfl⟩, rfl⟩
        have : ("tag: ".toList ++ s).drop 5 = s := by simp
        rw [this]; exact h1
      · intro h
        exact ⟨_, ⟨h, List.prefix_append _ _⟩, by simp⟩
    have hm2 : ∀ u, u ∈ (refs.filter fun r => r.any fun c => (digit dec c).isSome) ↔
        u ∈ refs ∧ ∃ c ∈ u, (digit dec c).isSome = true := by
      intro u; simp [List.mem_filter]
    dsimp only
    split
    · rename_i h0
      rw [hm2]
      have hno : ∀ u, "tag: ".toList ++ u ∉ refs := by
        intro u hu
        have := (hm1 u).2 hu
        rw [h0] at this
        simp at this
      show IsTag _ _ _ ↔ _
      unfold IsTag
      constructor
      · rintro (h | ⟨-, h, h'⟩)
        · exact absurd h (hno t)
        · exact ⟨h, h'⟩
      · rintro ⟨h, h'⟩
        exact .inr ⟨hno, h, h'⟩
    · rename_i h0
      rw [hm1]
      show IsTag _ _ _ ↔ _
      unfold IsTag
      constructor
      · rintro (h | ⟨h, -⟩)
        · exact h
        · exfalso
          apply h0
          cases hl : ((refs.filter fun r => "tag: ".toList.isPrefixOf r).map fun r => r.drop 5) with
          | nil => rfl
          | cons u us => exact absurd ((hm1 u).1 (by rw [hl]; simp)) (h u)
      · exact .inl
  have hfull : strip full = full := strip_ends hf.ends
  have hdate := c68_date h1 h2 h3
  have hfind : ∀ xs : List Str, xs.find? (fun r => tagPrefix.isPrefixOf r) = xs.head? := by
    intro xs; cases xs <;> simp [tagPrefix]
  unfold versionsFromKeywords
  simp only [k, e1, e2, e3, hpre, hfull, hdate, Bool.false_eq_true, if_false, hfind]
  dsimp only at hmem
  generalize (if (refs.filter fun r => "tag: ".toList.isPrefixOf r).map (fun r => r.drop 5) = [] then
    refs.filter fun r => r.any fun c => (digit dec c).isSome
    else (refs.filter fun r => "tag: ".toList.isPrefixOf r).map (fun r => r.drop 5)) = tags at hmem ⊢
  constructor
  · intro t ht
    have hne : tags ≠ [] := List.ne_nil_of_mem ((hmem t).1 ht.1)
    obtain ⟨h, rest, s1, s2, s3⟩ := sortStr_head tags hne
    have : h = t := by
      refine List.le_antisymm (s3 t ((hmem t).1 ht.1)) (ht.2 h ((hmem h).2 s2))
    rw [s1, List.head?_cons]
    simp [this, tagPrefix]
  · intro hno
    have : tags = [] := by
      cases tags with
      | nil => rfl
      | cons u us => exact absurd ((hmem u).2 (by simp)) (hno u)
    rw [this]
    rfl

/-- The keywords of an archive of a commit with two tags and a branch. -/
example : Least (IsTag (fun c => (digit (fun _ => none) c).isSome = true)
      ["HEAD -> release-2".toList, "tag: 1.10.0".toList, "tag: 1.9.0".toList]) "1.10.0".toList ∧
    (∀ r ∈ ["HEAD -> release-2".toList, "tag: 1.10.0".toList, "tag: 1.9.0".toList], RefName r) := by
  refine ⟨⟨.inl (by decide), ?_⟩, ?_⟩
  · rintro u (h | ⟨h, -⟩)
    · simp at h
      rcases h with rfl | rfl <;> decide
    · exact absurd (by decide) (h "1.9.0".toList)
  · intro r hr
    simp only [List.mem_cons, List.not_mem_nil, or_false] at hr
    rcases hr with rfl | rfl | rfl
    · exact ⟨⟨_, rfl, by decide⟩, ⟨_, rfl, by decide⟩, by decide⟩
    · exact ⟨⟨_, rfl, by decide⟩, ⟨_, rfl, by decide⟩, by decide⟩
    · exact ⟨⟨_, rfl, by decide⟩, ⟨_, rfl, by decide⟩, by decide⟩

/-- **C68.**  An archive of a commit with no reference to it has no version. -/
theorem c68_no_refs (dec : Char → Option Nat) {full : Str} (hf : Word full) (date : Str) :
    versionsFromKeywords dec ⟨[], full, date⟩ tagPrefix = .ok
      { version := "0+unknown".toList, fullRevision := some full, dirty := some false,
        error := some "no suitable tags".toList, date := none } := by
  have hfull : strip full = full := strip_ends hf.ends
  have e : versionsFromKeywords dec ⟨[], full, date⟩ tagPrefix = .ok
      { version := "0+unknown".toList, fullRevision := some (strip full), dirty := some false,
        error := some "no suitable tags".toList, date := none } := rfl
  rw [e, hfull]

/-! ### The directory -/

theorem pathOf_cons : ∀ (n : Str) (ds : List Str), ds ≠ [] → pathOf (n :: ds) = pathOf ds ++ '/' :: n
  | n, [], h => absurd rfl h
  | n, d :: ds, _ => by simp [pathOf]

theorem all_ne_slash {n : Str} (h : FileName n) : ∀ c ∈ n.reverse, (c != '/') = true := by
  intro c hc
  have : c ≠ '/' := fun e => h.2 (by rw [← e]; simpa using hc)
  simpa using this

theorem base_dir {a n : Str} (h : FileName n) : basename (a ++ '/' :: n) = n ∧
    ((a ++ '/' :: n).reverse.dropWhile (· != '/')).reverse = a ++ ['/'] := by
  have e : (a ++ '/' :: n).reverse = n.reverse ++ '/' :: a.reverse := by simp
  have hd : ∀ x : Str, (n.reverse ++ '/' :: x).takeWhile (· != '/') = n.reverse ∧
      (n.reverse ++ '/' :: x).dropWhile (· != '/') = '/' :: x := by
    intro x
    rw [List.takeWhile_append_of_pos (all_ne_slash h), List.dropWhile_append_of_pos (all_ne_slash h)]
    simp
  constructor
  · unfold basename
    rw [e, (hd _).1, List.reverse_reverse]
  · rw [e, (hd _).2]; simp

theorem basename_path {n : Str} (h : FileName n) (ds : List Str) : basename (pathOf (n :: ds)) = n := by
  cases ds with
  | nil => exact (base_dir (a := []) h).1
  | cons d ds => rw [pathOf_cons _ _ (by simp)]; exact (base_dir h).1

theorem pathOf_last : ∀ (ds : List Str), ds ≠ [] → (∀ d ∈ ds, FileName d) →
    ∃ s c, pathOf ds = s ++ [c] ∧ c ≠ '/' := by
  intro ds hne hd
  cases ds with
  | nil => exact absurd rfl hne
  | cons d ds =>
    have h := hd d (by simp)
    have hs : d = d.dropLast ++ [d.getLast h.1] := (List.dropLast_concat_getLast h.1).symm
    have hc : d.getLast h.1 ≠ '/' := fun e => h.2 (by rw [← e]; exact List.getLast_mem _)
    cases ds with
    | nil => exact ⟨'/' :: d.dropLast, d.getLast h.1, by
        show '/' :: d = _
        rw [List.cons_append, ← hs], hc⟩
    | cons d' ds => exact ⟨pathOf (d' :: ds) ++ '/' :: d.dropLast, d.getLast h.1, by
        rw [pathOf_cons _ _ (by simp), List.append_assoc, List.cons_append, ← hs], hc⟩

theorem dirname_path {n : Str} (h : FileName n) {ds : List Str} (hd : ∀ d ∈ ds, FileName d) :
    dirname (pathOf (n :: ds)) = pathOf ds := by
  unfold dirname
  cases ds with
  | nil =>
    have e : pathOf [n] = [] ++ '/' :: n := rfl
    rw [e, (base_dir h).2]
    rfl
  | cons d ds =>
    rw [pathOf_cons _ _ (by simp), (base_dir h).2]
    obtain ⟨s, c, hs, hc⟩ := pathOf_last (d :: ds) (by simp) hd
    rw [hs]
    have hall : (s ++ [c] ++ ['/']).all (· == '/') = false := by simp [hc]
    simp [hall, hc]

theorem not_prefix {pre n : Str} (h : ∀ u, n ≠ pre ++ u) : pre.isPrefixOf n = false := by
  cases hp : pre.isPrefixOf n with
  | false => rfl
  | true =>
    obtain ⟨u, hu⟩ := List.isPrefixOf_iff_prefix.1 hp
    exact absurd hu.symm (h u)

theorem parentLoop_first {pre : Str} : ∀ (n : Nat) (ds : List Str), (∀ d ∈ ds, FileName d) → ∀ v,
    FirstWith pre (ds.take n) v → parentLoop pre n (pathOf ds) = .ok
      { version := v, fullRevision := none, dirty := some false, error := none, date := none }
  | 0, ds, _, v, ⟨b, a, h, _⟩ => by simp at h
  | n + 1, [], _, v, ⟨b, a, h, _⟩ => by simp at h
  | n + 1, d :: ds, hd, v, ⟨b, a, h, hb⟩ => by
    have hf := hd d (by simp)
    have hds : ∀ x ∈ ds, FileName x := fun x hx => hd x (by simp [hx])
    unfold parentLoop
    simp only [basename_path hf, dirname_path hf hds]
    cases b with
    | nil =>
      simp only [List.take_succ_cons, List.nil_append, List.cons.injEq] at h
      obtain ⟨rfl, -⟩ := h
      have : pre.isPrefixOf (pre ++ v) = true := List.isPrefixOf_iff_prefix.2 (List.prefix_append _ _)
      simp [this]
    | cons x b =>
      simp only [List.take_succ_cons, List.cons_append, List.cons.injEq] at h
      obtain ⟨rfl, h⟩ := h
      rw [not_prefix (hb d (by simp))]
      exact parentLoop_first n ds hds v ⟨b, a, h, fun y hy => hb y (by simp [hy])⟩

theorem parentLoop_none {pre : Str} (hp : pre ≠ []) : ∀ (n : Nat) (ds : List Str), (∀ d ∈ ds, FileName d) →
    (∀ d ∈ ds.take n, ∀ u, d ≠ pre ++ u) → parentLoop pre n (pathOf ds) = .error .notThisMethod
  | 0, _, _, _ => rfl
  | n + 1, [], _, _ => by
    unfold parentLoop
    have e : basename (pathOf []) = [] := rfl
    have e' : dirname (pathOf []) = pathOf [] := rfl
    have : pre.isPrefixOf [] = false := not_prefix (by simp [hp])
    simp only [e, e', this, Bool.false_eq_true, if_false]
    exact parentLoop_none hp n [] (by simp) (by simp)
  | n + 1, d :: ds, hd, h => by
    have hf := hd d (by simp)
    have hds : ∀ x ∈ ds, FileName x := fun x hx => hd x (by simp [hx])
    unfold parentLoop
    simp only [basename_path hf, dirname_path hf hds, not_prefix (h d (by simp)), Bool.false_eq_true, if_false]
    exact parentLoop_none hp n ds hds (fun x hx => h x (by simp [hx]))

theorem run_failed {r : Run} (h : Failed r) : (runCommand r).1 = none ∧ (runCommand r).2 ≠ some 0 := by
  rcases h with rfl | ⟨code, out, rfl, hc⟩
  · simp [runCommand]
  · simp [runCommand, hc]

theorem gitPieces_noGit (dec : Char → Option Nat) (tagPrefix : Str) {git : Git} (h : NoGit git) :
    gitPieces dec tagPrefix git = .error .notThisMethod := by
  unfold gitPieces
  by_cases h0 : (runCommand git.gitDir).2 ≠ some 0
  · simp only [if_pos h0]; rfl
  · simp only [if_neg h0]
    rcases h with h | h | h
    · exact absurd (run_failed h).2 h0
    · rw [(run_failed h).1]; rfl
    · cases (runCommand git.describe).1 with
      | none => rfl
      | some x => rw [(run_failed h).1]; rfl

/-- A repository without commits: `git describe` and `git rev-parse HEAD` exit with 128. -/
example : NoGit ⟨.exits 0 ".git\n".toList, .exits 128 [], .exits 128 "HEAD\n".toList, .exits 128 [], .exits 128 []⟩ :=
  .inr (.inl (.inr ⟨128, [], rfl, by decide⟩))

/-- **C68.**  Without keywords and if git cannot describe the directory, the version is read off the directory: the package's parent
directory, its parent and its grandparent are tried in this order, and the first whose name begins with
`calendars-` gives the rest of its name; if none does, the version is `0+unknown`, with an error. -/
theorem c68_directory {w : World} (hk : w.keywords = unexpanded) {file pkg : Str} {dirs : List Str}
    (hn : ∀ d ∈ file :: pkg :: dirs, FileName d) (hf : w.file = some (pathOf (file :: pkg :: dirs)))
    (hg : NoGit (w.git (pathOf dirs))) :
    (∀ v, FirstWith "calendars-".toList (dirs.take 3) v → getVersions w = .ok
      { version := v, fullRevision := none, dirty := some false, error := none, date := none }) ∧
    ((∀ d ∈ dirs.take 3, ∀ v, d ≠ "calendars-".toList ++ v) → getVersions w = .ok
      { version := "0+unknown".toList, fullRevision := none, dirty := none,
        error := some "unable to compute version".toList, date := none }) := by
  have h1 : versionsFromKeywords w.dec w.keywords tagPrefix = .error .notThisMethod := by
    rw [hk]; rfl
  have hdirs : ∀ d ∈ dirs, FileName d := fun d hd => hn d (by simp [hd])
  have hroot : dirname (dirname (pathOf (file :: pkg :: dirs))) = pathOf dirs := by
    rw [dirname_path (hn _ (by simp)) (fun d hd => hn d (List.mem_cons_of_mem _ hd)),
      dirname_path (hn _ (by simp)) hdirs]
  have h2 : gitPieces w.dec tagPrefix (w.git (pathOf dirs)) = .error .notThisMethod := by
    exact gitPieces_noGit _ _ hg
  constructor
  · intro v hv
    have h3 : versionsFromParentdir parentdirPrefix (pathOf dirs) = _ := parentLoop_first 3 dirs hdirs v hv
    unfold getVersions
    simp only [h1, hf, hroot, h2, h3, bind, Except.bind, ne_eq, not_true_eq_false, if_false]
  · intro hv
    have h3 : versionsFromParentdir parentdirPrefix (pathOf dirs) = _ :=
      parentLoop_none (by decide) 3 dirs hdirs hv
    unfold getVersions
    simp only [h1, hf, hroot, h2, h3, bind, Except.bind, ne_eq, not_true_eq_false, if_false]
    rfl

/-- The directory of an unpacked source distribution of this project is `trading_calendars-` and the version:
it does not begin with `calendars-`, and the version is not found; under another name it would be. -/
example : (∀ d ∈ ["trading_calendars-1.11.0".toList, "src".toList, "home".toList].take 3, ∀ v,
      d ≠ "calendars-".toList ++ v) ∧
    FirstWith "calendars-".toList (["src".toList, "calendars-1.11.0".toList, "home".toList].take 3)
      "1.11.0".toList ∧
    (∀ d ∈ ["_version.py".toList, "calendars".toList, "src".toList, "calendars-1.11.0".toList, "home".toList],
      FileName d) ∧
    pathOf ["_version.py".toList, "calendars".toList, "src".toList] = "/src/calendars/_version.py".toList := by
  refine ⟨?_, ⟨["src".toList], ["home".toList], by decide, ?_⟩, by unfold FileName; decide, by decide⟩
  · intro d hd v e
    have : "calendars-".toList.isPrefixOf d = true := by
      rw [e]; exact List.isPrefixOf_iff_prefix.2 (List.prefix_append _ _)
    revert this
    simp only [List.mem_cons, List.take, List.not_mem_nil, or_false] at hd
    rcases hd with rfl | rfl | rfl <;> decide
  · intro d hd v e
    have : "calendars-".toList.isPrefixOf d = true := by
      rw [e]; exact List.isPrefixOf_iff_prefix.2 (List.prefix_append _ _)
    revert this
    simp only [List.mem_singleton] at hd
    subst hd
    decide

/-- **C68.**  Expanded keywords are the answer, whatever git and the directory say; without keywords and
without `__file__`, the version is `0+unknown`. -/
theorem c68_order (w : World) :
    (∀ i, versionsFromKeywords w.dec w.keywords tagPrefix = .ok i → getVersions w = .ok i) ∧
    (w.keywords = unexpanded → w.file = none → getVersions w = .ok
      { version := "0+unknown".toList, fullRevision := none, dirty := none,
        error := some "unable to find root of source tree".toList, date := none }) := by
  constructor
  · intro i h
    unfold getVersions
    rw [h]
  · intro hk hf
    have h1 : versionsFromKeywords w.dec w.keywords tagPrefix = .error .notThisMethod := by
      rw [hk]; rfl
    unfold getVersions
    rw [h1, hf]
    rfl

example : (versionsFromKeywords (fun _ => none) ⟨" (HEAD -> master, tag: 1.11.0)".toList, "ab12".toList,
    "2020-01-01 00:00:00 +0000".toList⟩ tagPrefix).toOption.map (·.version) = some "1.11.0".toList := by decide

end TC.Props
