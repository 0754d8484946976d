import Verif.Spec.VersioneerSetup
import Verif.Lemmas.Versioneer

/-! # Lines and words as `versioneer.py` finds them -/

namespace TC.Versioneer
open TC.Tcal (Str isSpace)
open TC.Props (linesOf_one linesOf_append)

/-! ### Lines -/

theorem linesOf_shape (t : Str) : ∃ l ls, linesOf t = l :: ls ∧ t = l ++ ls.flatMap (fun x => '\n' :: x) ∧
    ∀ x ∈ linesOf t, '\n' ∉ x := by
  induction t with
  | nil => exact ⟨[], [], rfl, rfl, by simp [linesOf]⟩
  | cons c t ih =>
    obtain ⟨l, ls, e, ht, hn⟩ := ih
    rw [e] at hn
    by_cases hc : c = '\n'
    · subst hc
      refine ⟨[], l :: ls, by simp [linesOf, e], by simp [ht], ?_⟩
      simp only [linesOf, e, if_true]
      intro x hx
      rcases List.mem_cons.1 hx with rfl | hx
      · simp
      · exact hn x hx
    · refine ⟨c :: l, ls, by simp [linesOf, e, hc], by simp [ht], ?_⟩
      simp only [linesOf, e, hc, if_false]
      intro x hx
      rcases List.mem_cons.1 hx with rfl | hx
      · have := hn l List.mem_cons_self
        simp only [List.mem_cons, not_or]
        exact ⟨fun h => hc h.symm, this⟩
      · exact hn x (List.mem_cons_of_mem _ hx)

theorem hasLine_of {t l : Str} (h : l ∈ linesOf t) : HasLine t l := by
  obtain ⟨l0, ls, e, ht, hn⟩ := linesOf_shape t
  refine ⟨hn l h, ?_⟩
  rw [e] at h
  rcases List.mem_cons.1 h with rfl | h
  · refine ⟨[], ls.flatMap fun x => '\n' :: x, by simpa using ht, .inl rfl, ?_⟩
    cases ls with
    | nil => exact .inl rfl
    | cons x ls => exact .inr ⟨_, by rw [List.flatMap_cons]; rfl⟩
  · obtain ⟨p, q, rfl⟩ := List.append_of_mem h
    refine ⟨l0 ++ p.flatMap (fun x => '\n' :: x) ++ ['\n'], q.flatMap fun x => '\n' :: x, ?_, .inr ⟨_, rfl⟩, ?_⟩
    · rw [ht]; simp
    · cases q with
      | nil => exact .inl rfl
      | cons x q => exact .inr ⟨_, by rw [List.flatMap_cons]; rfl⟩

/-! ### Words -/

theorem hasWord_prepend {c : Char} (hc : isSpace c = true) (p : Str) {s w : Str} (h : HasWord s w) :
    HasWord (p ++ c :: s) w := by
  obtain ⟨hw, a, b, rfl, ha, hb⟩ := h
  refine ⟨hw, p ++ c :: a, b, by simp, .inr ?_, hb⟩
  rcases ha with rfl | ⟨a', d, rfl, hd⟩
  · exact ⟨p, c, by simp, hc⟩
  · exact ⟨p ++ c :: a', d, by simp, hd⟩

theorem hasWord_append {s w z : Str} (h : HasWord s w) (hz : ∀ c ∈ z, isSpace c = true) : HasWord (s ++ z) w := by
  obtain ⟨hw, a, b, rfl, ha, hb⟩ := h
  refine ⟨hw, a, b ++ z, by simp, ha, ?_⟩
  rcases hb with rfl | ⟨c, b', rfl, hc⟩
  · cases z with
    | nil => exact .inl rfl
    | cons c z => exact .inr ⟨c, z, rfl, hz c List.mem_cons_self⟩
  · exact .inr ⟨c, b' ++ z, rfl, hc⟩

theorem wordsLoop_sound {cur s w : Str} (hcur : ∀ c ∈ cur, isSpace c = false) (h : w ∈ wordsLoop cur s) :
    HasWord (cur ++ s) w := by
  induction s generalizing cur with
  | nil =>
    simp only [wordsLoop] at h
    split at h
    · simp at h
    · rename_i hne
      rw [List.mem_singleton] at h
      subst h
      exact ⟨⟨hne, hcur⟩, [], [], by simp, .inl rfl, .inl rfl⟩
  | cons c s ih =>
    simp only [wordsLoop] at h
    split at h
    · rename_i hc
      split at h
      · rename_i he
        subst he
        have := ih (by simp) h
        exact hasWord_prepend hc [] (by simpa using this)
      · rename_i hne
        rcases List.mem_cons.1 h with rfl | h
        · exact ⟨⟨hne, hcur⟩, [], c :: s, by simp, .inl rfl, .inr ⟨c, s, rfl, hc⟩⟩
        · exact hasWord_prepend hc cur (by simpa using ih (by simp) h)
    · rename_i hc
      have := ih (cur := cur ++ [c]) (by
        intro d hd
        rcases List.mem_append.1 hd with hd | hd
        · exact hcur d hd
        · rw [List.mem_singleton] at hd; subst hd; simpa using hc) h
      simpa using this

theorem hasWord_of {s w : Str} (h : w ∈ wordsOf s) : HasWord s w := by
  simpa using wordsLoop_sound (cur := []) (by simp) h

theorem wordsLoop_word {v : Str} (hv : ∀ c ∈ v, isSpace c = false) (cur r : Str) :
    wordsLoop cur (v ++ r) = wordsLoop (cur ++ v) r := by
  induction v generalizing cur with
  | nil => simp
  | cons c v ih =>
    have hc : isSpace c = false := hv c List.mem_cons_self
    simp only [List.cons_append, wordsLoop, hc, Bool.false_eq_true, if_false]
    rw [ih fun d hd => hv d (List.mem_cons_of_mem _ hd)]
    simp

/-- A word at the beginning, with white space or nothing behind it. -/
theorem wordsOf_word {v r : Str} (hv : Word v) (hr : r = [] ∨ ∃ c r', r = c :: r' ∧ isSpace c = true) :
    wordsOf (v ++ r) = v :: wordsOf r := by
  unfold wordsOf
  rw [wordsLoop_word hv.2, List.nil_append]
  rcases hr with rfl | ⟨c, r', rfl, hc⟩
  · simp [wordsLoop, hv.1]
  · simp [wordsLoop, hc, hv.1]

theorem wordsOf_space {c : Char} (hc : isSpace c = true) (s : Str) : wordsOf (c :: s) = wordsOf s := by
  simp [wordsOf, wordsLoop, hc]

theorem wordsOf_single {v : Str} (hv : Word v) : wordsOf v = [v] := by
  have := wordsOf_word hv (r := []) (.inl rfl)
  simpa [wordsOf, wordsLoop] using this

theorem word_include : Word "include".toList := ⟨by decide, by decide⟩
theorem word_exportSubst : Word "export-subst".toList := ⟨by decide, by decide⟩
theorem word_versioneer : Word "versioneer.py".toList := ⟨by decide, by decide⟩

theorem wordsOf_include (r : Str) : (wordsOf ("include ".toList ++ r)).drop 1 = wordsOf r := by
  have e : "include ".toList ++ r = "include".toList ++ (' ' :: r) := by
    simp
  rw [e, wordsOf_word word_include (.inr ⟨' ', r, rfl, by decide⟩), wordsOf_space (by decide)]
  rfl

/-! ### Stripping -/

theorem rstrip_split (s : Str) : ∃ z, s = Tcal.rstrip s ++ z ∧ ∀ c ∈ z, isSpace c = true := by
  refine ⟨(s.reverse.takeWhile isSpace).reverse, ?_, ?_⟩
  · unfold Tcal.rstrip
    rw [← List.reverse_append, List.takeWhile_append_dropWhile, List.reverse_reverse]
  · intro c hc
    rw [List.mem_reverse] at hc
    exact List.all_eq_true.1 List.all_takeWhile c hc

theorem strip_split (s : Str) : ∃ a z, s = a ++ Version.strip s ++ z ∧ (∀ c ∈ a, isSpace c = true) ∧
    ∀ c ∈ z, isSpace c = true := by
  obtain ⟨z, hz, hz'⟩ := rstrip_split (s.dropWhile isSpace)
  refine ⟨s.takeWhile isSpace, z, ?_, fun c hc => List.all_eq_true.1 List.all_takeWhile c hc, hz'⟩
  unfold Version.strip
  rw [List.append_assoc, ← hz, List.takeWhile_append_dropWhile]

/-! ### What is there already -/

theorem included_of {t w : Str} (h : w ∈ simpleIncludes t) : Included t w := by
  unfold simpleIncludes at h
  obtain ⟨l, hl, hw⟩ := List.mem_flatMap.1 h
  unfold lineIncludes at hw
  split at hw
  · rename_i hp
    obtain ⟨r, rfl⟩ := List.isPrefixOf_iff_prefix.1 hp
    rw [wordsOf_include] at hw
    exact ⟨r, hasLine_of hl, hasWord_of hw⟩
  · simp at hw

theorem includes_word {t w : Str} (h : w ∈ simpleIncludes t) : Word w := by
  obtain ⟨r, -, hw⟩ := included_of h
  exact hw.1

theorem linesOf_ended {t x : Str} (ht : Ended t) (hx : '\n' ∉ x) :
    ∃ ls, linesOf t = ls ++ [[]] ∧ linesOf (t ++ (x ++ ['\n'])) = ls ++ [x] ++ [[]] := by
  have e : linesOf (x ++ ['\n']) = [x] ++ [[]] := by
    rw [linesOf_append, linesOf_one hx]; rfl
  rcases ht with rfl | ⟨s, rfl⟩
  · exact ⟨[], rfl, by simpa using e⟩
  · refine ⟨linesOf s, by rw [linesOf_append]; rfl, ?_⟩
    have : s ++ ['\n'] ++ (x ++ ['\n']) = s ++ '\n' :: (x ++ ['\n']) := by simp
    rw [this, linesOf_append, e]
    simp

theorem word_noNewline {w : Str} (hw : Word w) : '\n' ∉ w := fun h => by
  have := hw.2 _ h
  simp [isSpace] at this

theorem lineIncludes_nil : lineIncludes [] = [] := by decide

theorem lineIncludes_include {w : Str} (hw : Word w) : lineIncludes ("include ".toList ++ w) = [w] := by
  unfold lineIncludes
  rw [if_pos (List.isPrefixOf_iff_prefix.2 (List.prefix_append _ _)), wordsOf_include, wordsOf_single hw]

theorem include_noNewline {w : Str} (hw : Word w) : '\n' ∉ "include ".toList ++ w := by
  intro h
  rcases List.mem_append.1 h with h | h
  · exact absurd h (by decide)
  · exact word_noNewline hw h

theorem includes_append {t w : Str} (ht : Ended t) (hw : Word w) :
    simpleIncludes (t ++ ("include ".toList ++ w ++ ['\n'])) = simpleIncludes t ++ [w] := by
  obtain ⟨ls, e1, e2⟩ := linesOf_ended ht (include_noNewline hw)
  unfold simpleIncludes
  rw [e1, e2, List.flatMap_append, List.flatMap_append, List.flatMap_append, List.flatMap_cons, List.flatMap_cons,
    List.flatMap_nil, lineIncludes_nil, lineIncludes_include hw]
  simp

theorem takeWhile_split (s : Str) : ∃ x r, s = x ++ r ∧ (∀ c ∈ x, isSpace c = false) ∧
    (r = [] ∨ ∃ c r', r = c :: r' ∧ isSpace c = true) := by
  induction s with
  | nil => exact ⟨[], [], rfl, by simp, .inl rfl⟩
  | cons c s ih =>
    by_cases hc : isSpace c = true
    · exact ⟨[], c :: s, rfl, by simp, .inr ⟨c, s, rfl, hc⟩⟩
    · obtain ⟨x, r, rfl, hx, hr⟩ := ih
      refine ⟨c :: x, r, rfl, ?_, hr⟩
      intro d hd
      rcases List.mem_cons.1 hd with rfl | hd
      · simpa using hc
      · exact hx d hd

theorem marked_of {t source : Str} (hs : Word source) (h : attributePresent source t = true) : Marked t source := by
  unfold attributePresent at h
  obtain ⟨l, hl, hp⟩ := List.any_eq_true.1 h
  rw [Bool.and_eq_true] at hp
  obtain ⟨rest, hrest⟩ := List.isPrefixOf_iff_prefix.1 hp.1
  have hc := List.contains_iff_mem.1 hp.2
  obtain ⟨x, r, hxr, hx, hr⟩ := takeWhile_split rest
  obtain ⟨a, z, hsplit, ha, hz⟩ := strip_split l
  have hw : Word (source ++ x) := ⟨by simp [hs.1], fun c hc => by
    rcases List.mem_append.1 hc with hc | hc
    · exact hs.2 c hc
    · exact hx c hc⟩
  rw [← hrest, hxr, ← List.append_assoc, wordsOf_word hw hr] at hc
  refine ⟨a, x, r ++ z, ?_, ha, hx, hasWord_append (hasWord_of hc) hz⟩
  have e : a ++ source ++ x ++ (r ++ z) = l := by
    conv => rhs; rw [hsplit, ← hrest, hxr]
    simp
  rw [e]
  exact hasLine_of hl

theorem present_append {t source : Str} (ht : Ended t) (hs : Word source) :
    attributePresent source (t ++ (source ++ " export-subst".toList ++ ['\n'])) = true := by
  obtain ⟨ls, -, e2⟩ := linesOf_ended (x := source ++ " export-subst".toList) ht (by
    have := word_noNewline hs
    simp [this])
  have hstrip : Version.strip (source ++ " export-subst".toList) = source ++ " export-subst".toList := by
    obtain ⟨c, s, rfl⟩ : ∃ c s, source = c :: s := by
      cases source with
      | nil => exact absurd rfl hs.1
      | cons c s => exact ⟨c, s, rfl⟩
    have hc := hs.2 c List.mem_cons_self
    unfold Version.strip Tcal.rstrip
    rw [List.cons_append, List.dropWhile_cons_of_neg (by simp [hc])]
    have e : (c :: (s ++ " export-subst".toList)).reverse =
        't' :: (("sbus-tropxe ".toList ++ s.reverse) ++ [c]) := by simp
    rw [e, List.dropWhile_cons_of_neg (by decide), ← e, List.reverse_reverse]
  have hw : wordsOf (source ++ " export-subst".toList) = [source, "export-subst".toList] := by
    have e : " export-subst".toList = ' ' :: "export-subst".toList := by decide
    rw [e, wordsOf_word hs (.inr ⟨' ', "export-subst".toList, rfl, by decide⟩), wordsOf_space (by decide),
      wordsOf_single word_exportSubst]
  unfold attributePresent
  rw [e2]
  simp only [List.any_append, List.any_cons, List.any_nil, hstrip, hw, Bool.or_false]
  have hp : source.isPrefixOf (source ++ " export-subst".toList) = true :=
    List.isPrefixOf_iff_prefix.2 (List.prefix_append _ _)
  rw [hp]
  simp

theorem hasSub_append (sub a : Str) : hasSub sub (a ++ sub) = true := by
  induction a with
  | nil =>
    cases sub with
    | nil => rfl
    | cons c s =>
      simp only [List.nil_append, hasSub, Bool.or_eq_true]
      exact .inl (List.isPrefixOf_iff_prefix.2 (List.prefix_refl _))
  | cons c a ih => simp only [List.cons_append, hasSub, ih, Bool.or_true]

theorem hasSub_of {sub s : Str} (h : hasSub sub s = true) : ∃ a b, s = a ++ sub ++ b := by
  induction s with
  | nil =>
    obtain ⟨b, hb⟩ := List.isPrefixOf_iff_prefix.1 h
    exact ⟨[], b, by simpa using hb.symm⟩
  | cons c s ih =>
    simp only [hasSub, Bool.or_eq_true] at h
    rcases h with h | h
    · obtain ⟨b, hb⟩ := List.isPrefixOf_iff_prefix.1 h
      exact ⟨[], b, by simpa using hb.symm⟩
    · obtain ⟨a, b, rfl⟩ := ih h
      exact ⟨c :: a, b, by simp⟩

end TC.Versioneer
