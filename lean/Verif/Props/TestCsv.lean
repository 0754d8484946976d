import Verif.Lemmas.TestCsv
import Verif.Props.Overlap

/-!
# C75: the CSV files of the exchange calendar tests

`etc/make_trading_calendar_test_csv.py` writes the sessions of a calendar, with their opens and closes, to a
file named after it, from which they can be read back.
-/

namespace TC.Props
open Spec Tcal TestCsv

/-! ### The text -/

theorem take_drop_map {ss : List Session} (i : Nat) :
    ((ss.map rowOf).drop (i * chunkSize)).take chunkSize = ((ss.drop (i * chunkSize)).take chunkSize).map rowOf := by
  simp only [List.map_take, List.map_drop]

theorem chunkText_shows {P : Option Nat → Prop} {ss : List Session} (h4 : ∀ s ∈ ss, s.FourDigits)
    (hP : ss ≠ [] → P (formOf ((ss.map rowOf).flatMap fun r => [r.2.1, r.2.2]))) :
    ShowsRows P ss (chunkText (ss.map rowOf)) := by
  by_cases h : ss = []
  · subst h
    exact .nil
  · refine (chunk_shows (form := formOf ((ss.map rowOf).flatMap fun r => [r.2.1, r.2.2])) h4 ?_).mono ?_
    · intro s hs
      constructor <;> refine fits_formOf (List.mem_flatMap.2 ⟨rowOf s, List.mem_map_of_mem hs, ?_⟩) <;>
        simp [rowOf]
    · rintro f rfl
      exact hP h

theorem csvText_shows {P : Option Nat → Prop} {ss : List Session} (h4 : ∀ s ∈ ss, s.FourDigits)
    (hP : ∀ ss', ss' ≠ [] → (∀ s ∈ ss', s ∈ ss) →
      P (formOf ((ss'.map rowOf).flatMap fun r => [r.2.1, r.2.2]))) :
    ShowsFile P ss (csvText (Cal.ofSessions ss)) := by
  unfold csvText
  rw [rows_ofSessions]
  refine ⟨_, ?_, rfl⟩
  have key : ∀ n, ShowsRows P (((List.range n).map fun i => (ss.drop (i * chunkSize)).take chunkSize).flatten)
      (((List.range n).map fun i => chunkText (((ss.map rowOf).drop (i * chunkSize)).take chunkSize)).flatten) := by
    intro n
    induction n with
    | zero => exact .nil
    | succ n ih =>
      rw [List.range_succ, List.map_append, List.map_append, List.flatten_append, List.flatten_append]
      refine ih.append ?_
      simp only [List.map_cons, List.map_nil, List.flatten_cons, List.flatten_nil, List.append_nil]
      rw [take_drop_map]
      have hsub : ∀ s ∈ (ss.drop (n * chunkSize)).take chunkSize, s ∈ ss := fun s hs =>
        List.mem_of_mem_drop (List.mem_of_mem_take hs)
      exact chunkText_shows (fun s hs => h4 s (hsub s hs)) (fun h => hP _ h hsub)
  have := key ((ss.map rowOf).length / chunkSize + 1)
  have e : ((List.range ((ss.map rowOf).length / chunkSize + 1)).map
      fun i => (ss.drop (i * chunkSize)).take chunkSize).flatten = ss := by
    have aux : ∀ n, ((List.range n).map fun i => (ss.drop (i * chunkSize)).take chunkSize).flatten =
        ss.take (n * chunkSize) := by
      intro n
      induction n with
      | zero => simp
      | succ n ih =>
        rw [List.range_succ, List.map_append, List.flatten_append, ih, Nat.succ_mul, List.take_add]
        simp
    rw [aux]
    apply List.take_of_length_le
    simp only [List.length_map]
    unfold chunkSize
    omega
  rw [e] at this
  simpa only [chunked, List.map_map, Function.comp_def] using this

/-- C75: the file has one line per session, in the order of the calendar, each with the date of the label
and the exact open and close, in one of the forms that pandas knows (a date alone, or with the time of day,
with 0, 3, 6 or 9 digits below the second). -/
theorem c75_file {ss : List Session} (h4 : ∀ s ∈ ss, s.FourDigits) :
    ShowsFile (· ∈ [none, some 0, some 3, some 6, some 9]) ss (csvText (Cal.ofSessions ss)) := by
  refine csvText_shows h4 fun ss' _ _ => ?_
  unfold formOf
  repeat' split
  all_goals simp

/-- The session of 2019-10-16 in New York, and one to the millisecond. -/
def csvSessions : List Session :=
  [⟨dayOf 2019 10 16 * DAY, dayOf 2019 10 16 * DAY + hm 13 31, none, dayOf 2019 10 16 * DAY + hm 20 0⟩,
   ⟨dayOf 2019 10 17 * DAY, dayOf 2019 10 17 * DAY + hm 13 31, none,
    dayOf 2019 10 17 * DAY + hm 20 0 + 7000000⟩]

theorem csvSessions_four : ∀ s ∈ csvSessions, s.FourDigits := by
  have hday : DayNumber ⟨1000, 1, 1⟩ (dayOf 1000 1 1) :=
    (dayNumber_iff _ _).2 ⟨⟨by decide, by decide, by decide, by decide⟩, rfl⟩
  intro s hs
  simp only [csvSessions, List.mem_cons, List.not_mem_nil, or_false] at hs
  rcases hs with rfl | rfl <;>
    exact ⟨⟨_, hday, by decide +kernel⟩, ⟨_, hday, by decide +kernel⟩, ⟨_, hday, by decide +kernel⟩⟩

/-- The file of the two sessions. -/
example : (∀ s ∈ csvSessions, s.FourDigits) ∧ csvText (Cal.ofSessions csvSessions) =
    (",market_open,market_close\n" ++
      "2019-10-16,2019-10-16 13:31:00.000,2019-10-16 20:00:00.000\n" ++
      "2019-10-17,2019-10-17 13:31:00.000,2019-10-17 20:00:00.007\n").toList :=
  ⟨csvSessions_four, by decide +kernel⟩

/-- C75: with times on whole seconds, and no session from midnight to midnight, every line has the form
`2019-10-16,2019-10-16 13:31:00,2019-10-16 20:00:00`. -/
theorem c75_seconds {ss : List Session} (h4 : ∀ s ∈ ss, s.FourDigits)
    (hw : ∀ s ∈ ss, 1000000000 ∣ s.open ∧ 1000000000 ∣ s.close)
    (hm : ∀ s ∈ ss, ¬ (DAY ∣ s.open ∧ DAY ∣ s.close)) :
    ShowsFile (· = some 0) ss (csvText (Cal.ofSessions ss)) := by
  refine csvText_shows h4 fun ss' hne hsub => ?_
  have hin : ∀ v ∈ (ss'.map rowOf).flatMap (fun r => [r.2.1, r.2.2]), 1000000000 ∣ v := by
    intro v hv
    obtain ⟨r, hr, hv⟩ := List.mem_flatMap.1 hv
    obtain ⟨s, hs, rfl⟩ := List.mem_map.1 hr
    have := hw s (hsub s hs)
    simp only [rowOf, List.mem_cons, List.not_mem_nil, or_false] at hv
    rcases hv with rfl | rfl
    · exact this.1
    · exact this.2
  have hany : ∀ p : Int → Bool, (∀ v, 1000000000 ∣ v → p v = false) →
      ((ss'.map rowOf).flatMap (fun r => [r.2.1, r.2.2])).any p = false := by
    intro p hp
    rw [List.any_eq_false]
    intro v hv
    simp [hp v (hin v hv)]
  unfold formOf
  rw [if_neg, hany, hany, hany]
  · rfl
  · intro v hv; simp only [bne_eq_false_iff_eq]; omega
  · intro v hv; simp only [bne_eq_false_iff_eq]; omega
  · intro v hv; simp only [bne_eq_false_iff_eq]; omega
  · intro hall
    cases ss' with
    | nil => exact hne rfl
    | cons s ss' =>
      refine hm s (hsub s (by simp)) ?_
      rw [List.all_eq_true] at hall
      have h1 := hall s.open (by simp [rowOf])
      have h2 := hall s.close (by simp [rowOf])
      exact ⟨Int.dvd_of_emod_eq_zero (by simpa using h1), Int.dvd_of_emod_eq_zero (by simpa using h2)⟩

/-- The file of the first session. -/
example : (∀ s ∈ csvSessions.take 1, s.FourDigits) ∧
    (∀ s ∈ csvSessions.take 1, 1000000000 ∣ s.open ∧ 1000000000 ∣ s.close) ∧
    (∀ s ∈ csvSessions.take 1, ¬ (DAY ∣ s.open ∧ DAY ∣ s.close)) ∧
    csvText (Cal.ofSessions (csvSessions.take 1)) = (",market_open,market_close\n" ++
      "2019-10-16,2019-10-16 13:31:00,2019-10-16 20:00:00\n").toList :=
  ⟨fun s hs => csvSessions_four s (List.mem_of_mem_take hs), by decide +kernel, by decide +kernel,
    by decide +kernel⟩

/-- C75: nothing is lost: whatever calendars, in whatever forms, lead to the same file have the same
sessions, opens and closes. -/
theorem c75_round_trip {ss ss' : List Session} (h4 : ∀ s ∈ ss, s.FourDigits) (h4' : ∀ s ∈ ss', s.FourDigits)
    (hl : ∀ s ∈ ss, DAY ∣ s.label) (hl' : ∀ s ∈ ss', DAY ∣ s.label)
    (h : csvText (Cal.ofSessions ss) = csvText (Cal.ofSessions ss')) :
    ss.map (fun s => (s.label, s.open, s.close)) = ss'.map (fun s => (s.label, s.open, s.close)) := by
  obtain ⟨t, ht, e⟩ := c75_file h4
  obtain ⟨t', ht', e'⟩ := c75_file h4'
  rw [e, e', List.append_cancel_left_eq] at h
  subst h
  have := ht.unique ht'
  have back : ∀ {ss : List Session}, (∀ s ∈ ss, DAY ∣ s.label) →
      ss.map (fun s => (s.label, s.open, s.close)) =
        (ss.map (fun s => (s.label / DAY, s.open, s.close))).map (fun r => (r.1 * DAY, r.2.1, r.2.2)) := by
    intro ss hl
    rw [List.map_map]
    refine List.map_congr_left fun s hs => ?_
    simp only [Function.comp_def, Int.ediv_mul_cancel (hl s hs)]
  rw [back hl, back hl', this]

/-- C75: and the file can only be read in one way. -/
theorem c75_reading {P P' : Option Nat → Prop} {ss ss' : List Session} {text : Str}
    (h : ShowsFile P ss text) (h' : ShowsFile P' ss' text)
    (hl : ∀ s ∈ ss, DAY ∣ s.label) (hl' : ∀ s ∈ ss', DAY ∣ s.label) :
    ss.map (·.label) = ss'.map (·.label) ∧ ss.map (·.open) = ss'.map (·.open) ∧
      ss.map (·.close) = ss'.map (·.close) := by
  obtain ⟨t, ht, rfl⟩ := h
  obtain ⟨t', ht', e⟩ := h'
  rw [List.append_cancel_left_eq] at e
  subst e
  have := ht.unique ht'
  have h1 : ∀ {ss : List Session}, (∀ s ∈ ss, DAY ∣ s.label) → ss.map (·.label) =
      (ss.map (fun s => (s.label / DAY, s.open, s.close))).map (fun r => r.1 * DAY) := by
    intro ss hl
    rw [List.map_map]
    refine List.map_congr_left fun s hs => ?_
    simp only [Function.comp_def, Int.ediv_mul_cancel (hl s hs)]
  have h2 : ∀ ss : List Session, ss.map (·.open) =
      (ss.map (fun s => (s.label / DAY, s.open, s.close))).map (fun r => r.2.1) := by
    intro ss; rw [List.map_map]; rfl
  have h3 : ∀ ss : List Session, ss.map (·.close) =
      (ss.map (fun s => (s.label / DAY, s.open, s.close))).map (fun r => r.2.2) := by
    intro ss; rw [List.map_map]; rfl
  exact ⟨by rw [h1 hl, h1 hl', this], by rw [h2, h2, this], by rw [h3, h3, this]⟩

/-- The labels of the two sessions are midnights; a break would not be in the file. -/
example : (∀ s ∈ csvSessions, s.FourDigits) ∧ (∀ s ∈ csvSessions, DAY ∣ s.label) ∧
    csvText (Cal.ofSessions csvSessions) = csvText (Cal.ofSessions (csvSessions.map fun s =>
      { s with brk := some (s.open + hm 1 0, s.open + hm 2 0) })) :=
  ⟨csvSessions_four, by decide +kernel, by decide +kernel⟩

/-! ### The destination -/

theorem splitSlash_part {p : Str} (h : '/' ∉ p) (r : Str) : splitSlash (p ++ '/' :: r) = p :: splitSlash r := by
  induction p with
  | nil => simp [splitSlash]
  | cons c p ih =>
    simp only [List.mem_cons, not_or] at h
    simp only [List.cons_append, splitSlash]
    rw [if_neg (Ne.symm h.1), ih h.2]

theorem splitSlash_last {p : Str} (h : '/' ∉ p) : splitSlash p = [p] := by
  induction p with
  | nil => rfl
  | cons c p ih =>
    simp only [List.mem_cons, not_or] at h
    simp only [splitSlash]
    rw [if_neg (Ne.symm h.1), ih h.2]

theorem splitSlash_absolute {parts : List Str} (h : ∀ p ∈ parts, '/' ∉ p) :
    splitSlash (absolute parts) = [] :: parts := by
  induction parts with
  | nil => rfl
  | cons p ps ih =>
    have hp := h p (by simp)
    have e : absolute (p :: ps) = '/' :: (p ++ absolute ps) := by simp [absolute]
    rw [e, splitSlash, if_pos rfl]
    cases ps with
    | nil =>
      have : absolute [] = [] := rfl
      rw [this, List.append_nil, splitSlash_last hp]
    | cons q qs =>
      have ih := ih (fun p hp => h p (by simp [hp]))
      have e' : absolute (q :: qs) = '/' :: (q ++ absolute qs) := by simp [absolute]
      rw [e'] at ih ⊢
      rw [splitSlash_part hp]
      rw [splitSlash, if_pos rfl] at ih
      simp only [List.cons.injEq, true_and] at ih
      rw [ih]

theorem joinSlash_absolute {parts : List Str} (h : parts ≠ []) : '/' :: joinSlash parts = absolute parts := by
  induction parts with
  | nil => exact absurd rfl h
  | cons p ps ih =>
    cases ps with
    | nil => simp [joinSlash, absolute]
    | cons q qs =>
      have := ih (by simp)
      simp only [joinSlash]
      rw [this]
      simp [absolute]

theorem normStep_proper {acc : List Str} {p : Str} (h : ProperPart p) : normStep 1 acc p = acc ++ [p] := by
  obtain ⟨h1, h2, h3, h4⟩ := h
  simp [normStep, h1, h3, h4]

theorem norm_proper {parts : List Str} (h : ∀ p ∈ parts, ProperPart p) (acc : List Str) :
    parts.foldl (normStep 1) acc = acc ++ parts := by
  induction parts generalizing acc with
  | nil => simp
  | cons p ps ih =>
    rw [List.foldl_cons, normStep_proper (h p (by simp)), ih (fun p hp => h p (by simp [hp]))]
    simp

theorem str_tests : "../tests/resources/".toList = "..".toList ++ ('/' :: ("tests".toList ++ ('/' ::
    ("resources".toList ++ ['/'])))) := by decide +kernel

theorem proper_tests : ProperPart "tests".toList := by
  refine ⟨?_, ?_, ?_, ?_⟩ <;> decide +kernel

theorem proper_resources : ProperPart "resources".toList := by
  refine ⟨?_, ?_, ?_, ?_⟩ <;> decide +kernel

theorem absolute_append (a b : List Str) : absolute (a ++ b) = absolute a ++ absolute b := by
  simp [absolute]

/-- C75: if the script is in the directory `etc` of the project, and the name of the calendar in small letters
(with the ending) names a file, possibly in a directory, then the file is that one in `tests/resources`. -/
theorem c75_destination (w : CaseMaps) {root file : List Str} {etc name : Str} (hr : ∀ p ∈ root, ProperPart p)
    (he : ProperPart etc) (hf : ∀ p ∈ file, ProperPart p)
    (hn : absolute file = '/' :: (w.lower name ++ ".csv".toList)) :
    destination w (absolute (root ++ [etc])) name =
      absolute (root ++ ["tests".toList, "resources".toList] ++ file) := by
  have hdots : "..".toList = ['.', '.'] := by decide
  have hall : ∀ p ∈ root ++ [etc], ProperPart p := by
    intro p hp
    rcases List.mem_append.1 hp with hp | hp
    · exact hr p hp
    · rw [List.mem_singleton.1 hp]; exact he
  -- the joined path
  have hne : absolute (root ++ [etc]) ≠ [] := by
    rw [absolute_append]
    simp [absolute]
  have hlast : (absolute (root ++ [etc])).getLast? ≠ some '/' := by
    rw [absolute_append]
    simp only [absolute, List.map_cons, List.map_nil, List.flatten_cons, List.flatten_nil, List.append_nil]
    obtain ⟨h1, h2, -⟩ := he
    rw [List.getLast?_append, List.getLast?_cons_of_ne_nil h1, List.getLast?_eq_some_getLast h1]
    intro hc
    apply h2
    have := List.getLast_mem h1
    simp only [Option.or, Option.some.injEq] at hc
    rwa [hc] at this
  have hjoin : joinPath (absolute (root ++ [etc])) ("../tests/resources/".toList ++ (w.lower name ++ ".csv".toList))
      = absolute (root ++ [etc] ++ ["..".toList, "tests".toList, "resources".toList] ++ file) := by
    unfold joinPath
    rw [if_neg, if_neg]
    · rw [absolute_append, absolute_append, hn, str_tests]
      simp [absolute]
    · rintro (h | h)
      · exact hne h
      · exact hlast h
    · rw [str_tests, hdots]
      simp
  unfold destination
  rw [hjoin]
  -- its parts
  have hslash : ∀ p ∈ root ++ [etc] ++ ["..".toList, "tests".toList, "resources".toList] ++ file, '/' ∉ p := by
    intro p hp
    rcases List.mem_append.1 hp with hp | hp
    · rcases List.mem_append.1 hp with hp | hp
      · exact (hall p hp).2.1
      · simp only [List.mem_cons, List.not_mem_nil, or_false] at hp
        rcases hp with rfl | rfl | rfl
        · rw [hdots]; simp
        · exact proper_tests.2.1
        · exact proper_resources.2.1
    · exact (hf p hp).2.1
  have hone : ∀ parts : List Str, (∃ p ps, parts = p :: ps ∧ ProperPart p) →
      initialSlashes (absolute parts) = 1 := by
    rintro _ ⟨p, ps, rfl, h1, h2, -⟩
    cases p with
    | nil => exact absurd rfl h1
    | cons c p =>
      have e : absolute ((c :: p) :: ps) = '/' :: c :: (p ++ absolute ps) := by simp [absolute]
      rw [e]
      have hc : c ≠ '/' := by rintro rfl; simp at h2
      unfold initialSlashes
      split
      · rfl
      · rename_i heq
        simp only [List.cons.injEq] at heq
        exact absurd heq.2.1 hc
      · rfl
      · rename_i h
        exact absurd rfl (h _)
  have hfirst : ∃ p ps, root ++ [etc] ++ ["..".toList, "tests".toList, "resources".toList] ++ file = p :: ps ∧
      ProperPart p := by
    cases root with
    | nil => exact ⟨etc, _, rfl, he⟩
    | cons p ps => exact ⟨p, _, rfl, hr p (by simp)⟩
  unfold normpath
  simp only [hone _ hfirst, splitSlash_absolute hslash]
  have hfold : ([] :: (root ++ [etc] ++ ["..".toList, "tests".toList, "resources".toList] ++ file)).foldl
      (normStep 1) [] = root ++ ["tests".toList, "resources".toList] ++ file := by
    rw [List.foldl_cons]
    have h0 : normStep 1 [] [] = [] := by simp [normStep]
    rw [h0, List.foldl_append, List.foldl_append, norm_proper hall, List.nil_append, List.foldl_cons]
    have hup : normStep 1 (root ++ [etc]) "..".toList = root := by
      rw [hdots]
      unfold normStep
      rw [if_neg (by simp), if_neg]
      · simp
      · have := he.2.2.2
        simp [this]
    rw [hup, List.foldl_cons, normStep_proper proper_tests, List.foldl_cons, normStep_proper proper_resources,
      List.foldl_nil, norm_proper hf]
    simp
  rw [hfold]
  simp only [List.replicate_one, List.singleton_append]
  rw [joinSlash_absolute (by simp)]
  rw [if_neg]
  rw [absolute_append, absolute_append]
  simp [absolute]


/-! ### Capitals -/

theorem ascii_case : ∀ n : Nat, n < 128 →
    ((97 ≤ n ∧ n ≤ 122) → (Char.ofNat (n - 32)).toNat = n - 32) ∧
    ((65 ≤ n ∧ n ≤ 90) → (Char.ofNat (n + 32)).toNat = n + 32) := by decide

theorem char_ext {a b : Char} (h : a.toNat = b.toNat) : a = b := by
  rw [← Char.ofNat_toNat a, ← Char.ofNat_toNat b, h]

theorem sameLetters_ascii {s t : Str} (h : SameLetters s t) : ∀ c ∈ s, c.toNat < 128 := by
  induction s generalizing t with
  | nil => simp
  | cons a s ih =>
    cases t with
    | nil => exact h.elim
    | cons b t =>
      intro c hc
      rcases List.mem_cons.1 hc with rfl | hc
      · exact h.1.1
      · exact ih h.2 c hc

theorem upper_sameLetters {s t : Str} (h : SameLetters s t) (ht : NoSmall t) : s.map upperAscii = t := by
  induction s generalizing t with
  | nil =>
    cases t with
    | nil => rfl
    | cons => exact h.elim
  | cons a s ih =>
    cases t with
    | nil => exact h.elim
    | cons b t =>
      obtain ⟨⟨ha, hb, hab⟩, hr⟩ := h
      have hb' := ht b (by simp)
      rw [List.map_cons, ih hr (fun c hc => ht c (by simp [hc]))]
      congr 1
      unfold upperAscii
      split
      · rename_i h1
        apply char_ext
        rw [(ascii_case a.toNat ha).1 h1]
        rcases hab with rfl | ⟨k, hk, h⟩ <;> omega
      · rename_i h1
        rcases hab with rfl | ⟨k, hk, h⟩
        · rfl
        · exfalso; omega

theorem lower_sameLetters {s t u : Str} (h : SameLetters s u) (h' : SameLetters t u) (ht : NoCapitals t) :
    s.map lowerAscii = t := by
  induction s generalizing t u with
  | nil =>
    cases u with
    | nil =>
      cases t with
      | nil => rfl
      | cons => exact h'.elim
    | cons => exact h.elim
  | cons a s ih =>
    cases u with
    | nil => exact h.elim
    | cons b u =>
      cases t with
      | nil => exact h'.elim
      | cons d t =>
        obtain ⟨⟨ha, hb, hab⟩, hr⟩ := h
        obtain ⟨⟨hd, -, hdb⟩, hr'⟩ := h'
        have hd' := ht d (by simp)
        rw [List.map_cons, ih hr hr' (fun c hc => ht c (by simp [hc]))]
        congr 1
        unfold lowerAscii
        split
        · rename_i h1
          apply char_ext
          rw [(ascii_case a.toNat ha).2 h1]
          rcases hab with rfl | ⟨k, hk, h⟩ <;> rcases hdb with rfl | ⟨k', hk', h'⟩ <;> omega
        · rename_i h1
          apply char_ext
          rcases hab with rfl | ⟨k, hk, h⟩ <;> rcases hdb with rfl | ⟨k', hk', h'⟩ <;> omega

/-! ### The default calendars -/

/-- The check that all opens and closes of the class are written with a time of day, and that it starts
late enough. -/
def writableB (cls : CalendarClass) : Bool :=
  ((closeWalls (classConfig cls)).all fun c =>
    ((classConfig cls).tz.base :: (classConfig cls).tz.trans.map (·.2)).all fun o => (c - o) % DAY != 0) &&
  match cls with
  | .exchange _ _ start => decide (dayOf 1900 1 1 * DAY ≤ start) && decide (start % DAY = 0)
  | .precomputed x _ => x.adhoc.all fun d => decide (dayOf 1900 1 1 ≤ d)
  | _ => true

theorem writable_default : ∀ e ∈ defaultClasses, writableB e.2 = true := by
  rw [← List.all_eq_true (p := fun e : String × CalendarClass => writableB e.2)]
  decide +kernel

theorem construct_build {name : String} {cls : CalendarClass} (h : (name, cls) ∈ defaultClasses) {now : Int}
    {b : Built} (hb : cls.construct now = .ok b) :
    ∃ start stop, build (classConfig cls) start stop = .ok b ∧ DAY ∣ start ∧ dayOf 1900 1 1 * DAY ≤ start := by
  have hw := writable_default _ h
  unfold writableB at hw
  rw [Bool.and_eq_true] at hw
  replace hw := hw.2
  cases cls with
  | exchange x z s =>
    simp only [Bool.and_eq_true, decide_eq_true_eq] at hw
    exact ⟨_, _, hb, Int.dvd_of_emod_eq_zero hw.2, hw.1⟩
  | precomputed x z =>
    simp only [List.all_eq_true, decide_eq_true_eq] at hw
    simp only [CalendarClass.construct, Exchange.precomputedInit] at hb
    obtain ⟨m, hm, hb⟩ := bind_ok_iff.1 hb
    obtain ⟨m', -, hb⟩ := bind_ok_iff.1 hb
    refine ⟨_, _, (checked.1 hb).1, Int.dvd_mul_left _ _, ?_⟩
    have h1 := hw m (npMin_ok hm).1
    have h2 := yearOf_mono h1
    have e : yearOf (dayOf 1900 1 1) = 1900 := by decide
    rw [e] at h2
    have h3 := jan1_le_iff.2 h2
    have hj : ∀ y, dayOf y 1 1 = jan1 y := by intro y; simp [dayOf, daysBeforeMonth]
    simp only [Option.getD_none, hj]
    exact Int.mul_le_mul_of_nonneg_right h3 (by decide)
  | hongKong =>
    simp only [CalendarClass.construct] at hb
    rw [xhkg_eq, checked] at hb
    exact ⟨_, _, hb.1, Int.dvd_mul_left _ _, by decide +kernel⟩
  | simple cfg => exact ⟨_, _, hb, Int.dvd_mul_left _ _, by decide +kernel⟩

theorem default_rows {name : String} {cls : CalendarClass} (h : (name, cls) ∈ defaultClasses) {now : Int}
    {b : Built} (hb : cls.construct now = .ok b) :
    b.cal = Cal.ofSessions (rowsOf b.cal) ∧ ∀ s ∈ rowsOf b.cal, s.FourDigits ∧
      (1000000000 ∣ s.open ∧ 1000000000 ∣ s.close) ∧ ¬ DAY ∣ s.close := by
  obtain ⟨start, stop, hbuild, hm, hstart⟩ := construct_build h hb
  have st := steady_default h
  have hlow : NP_NAT + 3 * DAY ≤ start := by
    have : NP_NAT + 3 * DAY ≤ dayOf 1900 1 1 * DAY := by decide +kernel
    omega
  obtain ⟨e, -, hoc, -, hreg⟩ := c38_regular hbuild st.ordered st.tame hm hlow
  have hwm := c38_whole_minutes hbuild st.ordered st.tame hm hlow st.zoneMinutes st.timeMinutes
  have hwf := st.ordered.wellFormed st.tame hm hlow
  refine ⟨e, fun s hs => ?_⟩
  have hf := row_facts hbuild hwf s hs
  have hl : s.label ∈ b.cal.sessions := by
    rw [← (c34_rows hbuild hwf).2]
    exact List.mem_map_of_mem hs
  rw [(c33_sessions hbuild hm).2] at hl
  have hnear := row_near st.ordered st.tame st.openHigh hf
  have hopen := (hoc s hs).1
  have hY : dayOf 1000 1 1 * DAY ≤ dayOf 1900 1 1 * DAY - 2 * DAY := by decide +kernel
  have hday : DayNumber ⟨1000, 1, 1⟩ (dayOf 1000 1 1) :=
    (dayNumber_iff _ _).2 ⟨⟨by decide, by decide, by decide, by decide⟩, rfl⟩
  have hp := DAY_pos
  refine ⟨⟨⟨_, hday, by omega⟩, ⟨_, hday, by omega⟩, ⟨_, hday, by omega⟩⟩, ?_, ?_⟩
  · have hd : (1000000000 : Int) ∣ MINUTE := by decide
    exact ⟨Int.dvd_trans hd (hwm s hs).1, Int.dvd_trans hd (hwm s hs).2.1⟩
  · intro hc
    obtain ⟨c, hcw, hu⟩ := hf.closeWall
    have h1 := (reads_iff st.tame _ _).mp hu.1
    have hw := writable_default _ h
    unfold writableB at hw
    rw [Bool.and_eq_true, List.all_eq_true] at hw
    have h2 := List.all_eq_true.1 (hw.1 c ((closeWall_iff _ _).1 hcw)) ((classConfig cls).tz.offsetAt s.close) (by
      rcases offsetAt_inForce st.tame s.close with ⟨x, y, z, he, _, _⟩ | ⟨he, _⟩
      · rw [List.mem_cons]
        right
        rw [he]
        simp
      · rw [he]; simp)
    simp only [bne_iff_ne, ne_eq] at h2
    apply h2
    have hld : DAY ∣ s.label := by
      obtain ⟨d, hd, -⟩ := hl.2.2
      rw [hd]
      exact Int.dvd_mul_left _ _
    apply Int.emod_eq_zero_of_dvd
    have : c - (classConfig cls).tz.offsetAt s.close = s.close - s.label := by omega
    rw [this]
    exact Int.dvd_sub hc hld

/-- The check that a name is in capitals, and names a file. -/
def capitalB (n : String) : Bool :=
  n == "us_futures" || n.toList.all fun c => decide (c.toNat < 128) && !decide (97 ≤ c.toNat ∧ c.toNat ≤ 122)

theorem capital_default {n : String} (h : DefaultName n) : capitalB n = true := by
  have h1 : (defaultClasses.map (·.1)).all capitalB = true := by decide +kernel
  have h2 : (defaultAliases.map (·.1)).all capitalB = true := by decide +kernel
  rw [List.all_eq_true] at h1 h2
  rcases h with ⟨cls, h⟩ | ⟨r, h⟩
  · exact h1 n (List.mem_map.2 ⟨_, h, rfl⟩)
  · exact h2 n (List.mem_map.2 ⟨_, h, rfl⟩)

/-- The check that a name, in small letters and with the ending, names a file. -/
def fileB (n : String) : Bool :=
  (splitSlash (n.toList.map lowerAscii ++ ".csv".toList)).all fun p =>
    !p.isEmpty && !p.contains '/' && p != ['.'] && p != ['.', '.']

theorem file_default {n : String} (h : DefaultName n) : fileB n = true := by
  have h1 : (defaultClasses.map (·.1)).all fileB = true := by decide +kernel
  have h2 : (defaultAliases.map (·.1)).all fileB = true := by decide +kernel
  rw [List.all_eq_true] at h1 h2
  rcases h with ⟨cls, h⟩ | ⟨r, h⟩
  · exact h1 n (List.mem_map.2 ⟨_, h, rfl⟩)
  · exact h2 n (List.mem_map.2 ⟨_, h, rfl⟩)

theorem absolute_split (s : Str) : absolute (splitSlash s) = '/' :: s := by
  induction s with
  | nil => rfl
  | cons c s ih =>
    unfold splitSlash
    split
    · rename_i h
      subst h
      have : absolute ([] :: splitSlash s) = '/' :: absolute (splitSlash s) := by simp [absolute]
      rw [this, ih]
    · split
      · rename_i h
        rw [h] at ih
        cases ih
      · rename_i p ps h
        rw [h] at ih
        simp only [absolute, List.map_cons, List.flatten_cons, List.cons_append, List.cons.injEq, true_and] at ih ⊢
        exact ih

theorem sameLetters_refl {s : Str} (h : ∀ c ∈ s, c.toNat < 128) : SameLetters s s := by
  induction s with
  | nil => trivial
  | cons a s ih =>
    have := h a (by simp)
    exact ⟨⟨this, this, .inl rfl⟩, ih fun c hc => h c (by simp [hc])⟩

/-- C75: with any spelling `arg` of a default name or alias `n` other than `us_futures`, the script prints
the path of the file, which is `n` in small letters in the directory `tests/resources` of the project, and
writes to it the sessions of the calendar that the class offers, one on each line, with their opens and
closes to the second. -/
theorem c75_default {w : CaseMaps} {env : FactoryEnv} {now : Int} {content : CalObj → Built}
    (hr : Realizes now env content) (hnow : dayOf 2019 10 16 * DAY ≤ now) {n r : String} {cls : CalendarClass}
    (hcls : (r, cls) ∈ defaultClasses) (hn : n = r ∨ (n, r) ∈ defaultAliases) (hin : InTime now r)
    (hus : n ≠ "us_futures") {root : List Str} {etc : Str} (hroot : ∀ p ∈ root, ProperPart p)
    (hetc : ProperPart etc) {prog arg low : Str} {rest : List Str} (harg : SameLetters arg n.toList)
    (hlow : SameLetters low n.toList) (hsmall : NoCapitals low) :
    ∃ b ss path text, script w env content defaultRegistry (absolute (root ++ [etc])) (prog :: arg :: rest) =
        .ok ⟨"Writing test CSV file to ".toList ++ path ++ "\n".toList, path, text⟩ ∧
      path = absolute (root ++ ["tests".toList, "resources".toList]) ++ "/".toList ++ low ++ ".csv".toList ∧
      Offers now cls b ∧ b.cal = Cal.ofSessions ss ∧ ShowsFile (· = some 0) ss text := by
  have hdef : DefaultName n := by
    rcases hn with rfl | hn
    · exact .inl ⟨cls, hcls⟩
    · exact .inr ⟨r, hn⟩
  have hcap := capital_default hdef
  unfold capitalB at hcap
  simp only [Bool.or_eq_true, beq_iff_eq, hus, false_or, List.all_eq_true, Bool.and_eq_true,
    decide_eq_true_eq, Bool.not_eq_true', decide_eq_false_iff_not] at hcap
  have hup : w.upper arg = n.toList := by
    rw [w.upper_ascii arg (sameLetters_ascii harg)]
    exact upper_sameLetters harg fun c hc => (hcap c hc).2
  have hlo : w.lower arg = low := by
    rw [w.lower_ascii arg (sameLetters_ascii harg)]
    exact lower_sameLetters harg hlow hsmall
  have hlow' : n.toList.map lowerAscii = low :=
    lower_sameLetters (sameLetters_refl fun c hc => (hcap c hc).1) hlow hsmall
  have hfile := file_default hdef
  unfold fileB at hfile
  rw [hlow', List.all_eq_true] at hfile
  have hdest := c75_destination w (file := splitSlash (low ++ ".csv".toList)) (name := arg) hroot hetc
    (by
      intro p hp
      have := hfile p hp
      simp only [Bool.and_eq_true, Bool.not_eq_true', bne_iff_ne, ne_eq] at this
      obtain ⟨⟨⟨h1, h2⟩, h3⟩, h4⟩ := this
      refine ⟨?_, ?_, h3, h4⟩
      · rintro rfl
        cases h1
      · intro hm
        rw [List.contains_iff_mem.2 hm] at h2
        cases h2)
    (by rw [hlo, absolute_split])
  obtain ⟨b, hb, ho⟩ := c58_constructs hnow hcls hin
  have hget := c58_get_calendar (n := n) hr [] (by simp) hcls hn
  rw [hb] at hget
  simp only [Registry.run, List.foldl_nil] at hget
  obtain ⟨e, hrows⟩ := default_rows hcls hb
  refine ⟨b, rowsOf b.cal, destination w (absolute (root ++ [etc])) arg, csvText b.cal, ?_, ?_, ho, e, ?_⟩
  · unfold script
    simp only [List.getElem?_cons_succ, List.getElem?_cons_zero]
    rw [hup, String.ofList_toList]
    generalize (defaultRegistry.getCalendar env n).2 = res at hget
    cases res with
    | error e => cases hget
    | ok c =>
      cases hget
      simp only [List.append_assoc]
      rfl
  · rw [hdest, absolute_append, absolute_split]
    have : "/".toList = ['/'] := by decide
    rw [this]
    simp
  · have := c75_seconds (fun s hs => (hrows s hs).1) (fun s hs => (hrows s hs).2.1)
      fun s hs h => (hrows s hs).2.2 h.2
    rwa [← e] at this

/-- C75, a finding: the calendar `us_futures` cannot be written: whatever the spelling, the name that the
script looks up is unknown. -/
theorem c75_us_futures {w : CaseMaps} {env : FactoryEnv} {content : CalObj → Built} {etc prog arg : Str}
    {rest : List Str} (harg : SameLetters arg "us_futures".toList) :
    script w env content defaultRegistry etc (prog :: arg :: rest) =
      .error (.invalidCalendarName "US_FUTURES") := by
  have hus : SameLetters arg "US_FUTURES".toList := by
    have key : ∀ {s t u : Str}, SameLetters s t → t.map upperAscii = u → (∀ c ∈ t, c.toNat < 128) →
        SameLetters s u := by
      intro s
      induction s with
      | nil =>
        intro t u h e _
        cases t with
        | nil => subst e; trivial
        | cons => exact h.elim
      | cons a s ih =>
        intro t u h e ht
        cases t with
        | nil => exact h.elim
        | cons b t =>
          subst e
          obtain ⟨⟨ha, hb, hab⟩, hr⟩ := h
          refine ⟨?_, ih hr rfl fun c hc => ht c (by simp [hc])⟩
          unfold upperAscii
          split
          · rename_i h1
            have h2 := (ascii_case b.toNat hb).1 h1
            refine ⟨ha, by omega, ?_⟩
            rcases hab with rfl | ⟨k, hk, h⟩
            · exact .inr ⟨a.toNat - 97, by omega, .inl ⟨by omega, by omega⟩⟩
            · left
              apply char_ext
              omega
          · exact ⟨ha, hb, hab⟩
    exact key harg (by decide +kernel) (by decide +kernel)
  have hup : w.upper arg = "US_FUTURES".toList := by
    rw [w.upper_ascii arg (sameLetters_ascii harg)]
    exact upper_sameLetters hus (by unfold NoSmall; decide +kernel)
  unfold script
  simp only [List.getElem?_cons_succ, List.getElem?_cons_zero]
  rw [hup, String.ofList_toList]
  have h1 : defaultRegistry.resolveAlias "US_FUTURES" = .ok "US_FUTURES" := by decide +kernel
  have h2 : defaultRegistry.calendars.get? "US_FUTURES" = none := by decide +kernel
  have h3 : defaultRegistry.factories.get? "US_FUTURES" = none := by decide +kernel
  have : (defaultRegistry.getCalendar env "US_FUTURES").2 = .error (.invalidCalendarName "US_FUTURES") := by
    unfold Registry.getCalendar
    rw [h1]
    simp only
    rw [h2]
    simp only
    rw [h3]
  rw [this]

/-- C75: without a name the script raises `IndexError` and writes nothing; and a name that the dispatcher
refuses leads to the dispatcher's exception, and again nothing is written. -/
theorem c75_refused {w : CaseMaps} {env : FactoryEnv} {content : CalObj → Built} {reg : Registry} {etc : Str}
    {prog : Str} : script w env content reg etc [prog] = .error .indexError ∧
    ∀ {arg : Str} {rest : List Str} {e : PyErr} {n : String}, SameLetters arg n.toList → NoSmall n.toList →
      (reg.getCalendar env n).2 = .error e →
      script w env content reg etc (prog :: arg :: rest) = .error e := by
  refine ⟨rfl, ?_⟩
  intro arg rest e n harg hn h
  have hup : w.upper arg = n.toList := by
    rw [w.upper_ascii arg (sameLetters_ascii harg)]
    exact upper_sameLetters harg hn
  unfold script
  simp only [List.getElem?_cons_succ, List.getElem?_cons_zero]
  rw [hup, String.ofList_toList, h]

/-- Case maps that leave everything outside ASCII alone. -/
def plainCases : CaseMaps :=
  ⟨fun s => s.map upperAscii, fun s => s.map lowerAscii, fun _ _ => rfl, fun _ _ => rfl⟩

/-- The script in `/home/me/etc`: for `XNYS`, and for `24/7`, whose file is in a directory of its own (a
finding: the file that the tests read is `24-7.csv`). -/
example : absolute ["xnys.csv".toList] = '/' :: (plainCases.lower "XNYS".toList ++ ".csv".toList) ∧
    (∀ p ∈ ["home".toList, "me".toList, "etc".toList, "xnys.csv".toList, "24".toList, "7.csv".toList],
      ProperPart p) ∧
    destination plainCases "/home/me/etc".toList "XNYS".toList =
      "/home/me/tests/resources/xnys.csv".toList ∧
    destination plainCases "/home/me/etc".toList "24/7".toList =
      "/home/me/tests/resources/24/7.csv".toList := by
  refine ⟨by decide +kernel, ?_, by decide +kernel, by decide +kernel⟩
  unfold ProperPart
  decide +kernel

theorem sameLetter_small (a b : Char) (k : Nat) (hk : k < 26) (ha : a.toNat = 97 + k) (hb : b.toNat = 65 + k) :
    SameLetter a b := ⟨by omega, by omega, .inr ⟨k, hk, .inl ⟨ha, hb⟩⟩⟩

/-- `nYsE` is a spelling of `NYSE`, an alias of `XNYS`; there are factories that construct the default
classes (see C58). -/
example : SameLetters "nYsE".toList "NYSE".toList ∧ SameLetters "nyse".toList "NYSE".toList ∧
    NoCapitals "nyse".toList ∧ ("NYSE", "XNYS") ∈ defaultAliases ∧
    ("XNYS", CalendarClass.exchange Xnys.exchange Xnys.zone startDefault) ∈ defaultClasses ∧
    InTime (dayOf 2020 1 1 * DAY) "XNYS" ∧ SameLetters "Us_Futures".toList "us_futures".toList := by
  have e1 : "nYsE".toList = ['n', 'Y', 's', 'E'] := by decide
  have e2 : "NYSE".toList = ['N', 'Y', 'S', 'E'] := by decide
  have e3 : "nyse".toList = ['n', 'y', 's', 'e'] := by decide
  have e4 : "Us_Futures".toList = ['U', 's', '_', 'F', 'u', 't', 'u', 'r', 'e', 's'] := by decide
  have e5 : "us_futures".toList = ['u', 's', '_', 'f', 'u', 't', 'u', 'r', 'e', 's'] := by decide
  have same : ∀ {c : Char}, c.toNat < 128 → SameLetter c c := fun h => ⟨h, h, .inl rfl⟩
  have big : ∀ (a b : Char) (k : Nat), k < 26 → a.toNat = 65 + k → b.toNat = 97 + k → SameLetter a b :=
    fun a b k hk ha hb => ⟨by omega, by omega, .inr ⟨k, hk, .inr ⟨ha, hb⟩⟩⟩
  rw [e1, e2, e3, e4, e5]
  refine ⟨⟨sameLetter_small _ _ 13 (by decide) (by decide) (by decide), same (by decide),
      sameLetter_small _ _ 18 (by decide) (by decide) (by decide), same (by decide), trivial⟩,
    ⟨sameLetter_small _ _ 13 (by decide) (by decide) (by decide),
      sameLetter_small _ _ 24 (by decide) (by decide) (by decide),
      sameLetter_small _ _ 18 (by decide) (by decide) (by decide),
      sameLetter_small _ _ 4 (by decide) (by decide) (by decide), trivial⟩,
    by unfold NoCapitals; decide, by simp [defaultAliases], by simp [defaultClasses],
    ⟨by decide, by decide, by decide⟩,
    ⟨big _ _ 20 (by decide) (by decide) (by decide), same (by decide), same (by decide),
      big _ _ 5 (by decide) (by decide) (by decide), same (by decide), same (by decide), same (by decide),
      same (by decide), same (by decide), same (by decide), trivial⟩⟩

/-- `nowhere` is no calendar. -/
example : NoSmall "NOWHERE".toList ∧ ∀ env : FactoryEnv,
    (defaultRegistry.getCalendar env "NOWHERE").2 = .error (.invalidCalendarName "NOWHERE") := by
  refine ⟨by unfold NoSmall; decide +kernel, fun env => ?_⟩
  have h1 : defaultRegistry.resolveAlias "NOWHERE" = .ok "NOWHERE" := by decide +kernel
  have h2 : defaultRegistry.calendars.get? "NOWHERE" = none := by decide +kernel
  have h3 : defaultRegistry.factories.get? "NOWHERE" = none := by decide +kernel
  unfold Registry.getCalendar
  rw [h1]
  simp only
  rw [h2]
  simp only
  rw [h3]

end TC.Props
