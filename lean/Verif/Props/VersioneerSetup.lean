import Verif.Lemmas.VersioneerSetup

/-!
# C97: installing versioneer again
-/

namespace TC.Props
open TC.Versioneer
open TC.Tcal (Str isSpace)

variable {c : Section} {t : Project}

theorem ended_append (a : Str) {x : Str} (hx : x ≠ []) (he : Ended x) : Ended (a ++ x) := by
  rcases he with rfl | ⟨s, rfl⟩
  · exact absurd rfl hx
  · exact .inr ⟨a ++ s, by simp⟩

theorem lineText (w : Str) : "include ".toList ++ w ++ "\n".toList = "include ".toList ++ w ++ ['\n'] := rfl

theorem versioneerLine : "include versioneer.py\n".toList = "include ".toList ++ "versioneer.py".toList ++ ['\n'] := by
  decide

/-- The text of the manifest afterwards. -/
theorem manifest_text (source : Str) (m : Option Str) :
    textOf (setupManifest source m) = textOf m ++
      ((if (simpleIncludes (textOf m)).contains "versioneer.py".toList then []
        else "include ".toList ++ "versioneer.py".toList ++ ['\n']) ++
       (if (simpleIncludes (textOf m)).contains source then [] else "include ".toList ++ source ++ ['\n'])) := by
  unfold setupManifest
  rw [versioneerLine]
  simp only [textOf]
  by_cases h1 : (simpleIncludes (m.getD [])).contains "versioneer.py".toList = true <;>
    by_cases h2 : (simpleIncludes (m.getD [])).contains source = true <;>
    simp only [h1, h2, if_true, if_false, Bool.false_eq_true, Option.getD_some, List.append_nil, List.nil_append,
      List.append_assoc] <;> rfl

theorem manifest_same {source : Str} {m : Option Str} (h1 : "versioneer.py".toList ∈ simpleIncludes (textOf m))
    (h2 : source ∈ simpleIncludes (textOf m)) : setupManifest source m = m := by
  unfold setupManifest
  simp only [textOf] at h1 h2
  simp only [List.contains_iff_mem.2 h1, List.contains_iff_mem.2 h2, if_true]

theorem manifest_done {source : Str} (hs : Word source) {m : Option Str} (hm : Ended (textOf m)) :
    "versioneer.py".toList ∈ simpleIncludes (textOf (setupManifest source m)) ∧
    source ∈ simpleIncludes (textOf (setupManifest source m)) ∧
    ∀ w ∈ simpleIncludes (textOf m), w ∈ simpleIncludes (textOf (setupManifest source m)) := by
  rw [manifest_text]
  have hm' : Ended (textOf m ++ ("include ".toList ++ "versioneer.py".toList ++ ['\n'])) :=
    ended_append _ (by decide) (.inr ⟨_, rfl⟩)
  split
  · rename_i h1
    have h1 := List.contains_iff_mem.1 h1
    split
    · rename_i h2
      have h2 := List.contains_iff_mem.1 h2
      simpa using ⟨h1, h2⟩
    · rw [List.nil_append, includes_append hm hs]
      exact ⟨List.mem_append_left _ h1, by simp, fun w hw => List.mem_append_left _ hw⟩
  · split
    · rename_i h2
      have h2 := List.contains_iff_mem.1 h2
      rw [List.append_nil, includes_append hm word_versioneer]
      exact ⟨by simp, List.mem_append_left _ h2, fun w hw => List.mem_append_left _ hw⟩
    · rw [← List.append_assoc, includes_append hm' hs, includes_append hm word_versioneer]
      exact ⟨by simp, by simp, fun w hw => List.mem_append_left _ (List.mem_append_left _ hw)⟩

theorem manifest_ended (source : Str) (m : Option Str) :
    setupManifest source m = m ∨ Ended (textOf (setupManifest source m)) := by
  by_cases h1 : "versioneer.py".toList ∈ simpleIncludes (textOf m)
  · by_cases h2 : source ∈ simpleIncludes (textOf m)
    · exact .inl (manifest_same h1 h2)
    · right
      rw [manifest_text, if_neg (fun h => h2 (List.contains_iff_mem.1 h)), ← List.append_assoc]
      exact ended_append _ (by simp) (.inr ⟨_, rfl⟩)
  · right
    rw [manifest_text, if_neg (fun h => h1 (List.contains_iff_mem.1 h))]
    split
    · rw [List.append_nil]; exact ended_append _ (by decide) (.inr ⟨_, rfl⟩)
    · rw [← List.append_assoc]; exact ended_append _ (by simp) (.inr ⟨_, rfl⟩)

theorem attributes_text (source : Str) (a : Option Str) :
    textOf (setupAttributes source a) = textOf a ++
      (if attributePresent source (textOf a) then [] else source ++ " export-subst".toList ++ ['\n']) := by
  have e : " export-subst\n".toList = " export-subst".toList ++ ['\n'] := by decide
  unfold setupAttributes
  rw [e]
  simp only [textOf]
  by_cases h : attributePresent source (a.getD []) = true <;>
    simp only [h, if_true, if_false, Bool.false_eq_true, Option.getD_some, List.append_nil, List.append_assoc]

theorem attributes_done {source : Str} (hs : Word source) {a : Option Str} (ha : Ended (textOf a)) :
    attributePresent source (textOf (setupAttributes source a)) = true := by
  rw [attributes_text]
  split
  · rename_i h; rw [List.append_nil]; exact h
  · exact present_append ha hs

theorem attributes_same {source : Str} {a : Option Str} (h : attributePresent source (textOf a) = true) :
    setupAttributes source a = a := by
  unfold setupAttributes
  simp only [textOf] at h
  rw [if_pos h]

theorem attributes_ended (source : Str) (a : Option Str) :
    setupAttributes source a = a ∨ Ended (textOf (setupAttributes source a)) := by
  by_cases h : attributePresent source (textOf a) = true
  · exact .inl (attributes_same h)
  · right
    rw [attributes_text, if_neg h]
    exact ended_append _ (by simp) (.inr ⟨_, rfl⟩)

theorem init_twice (i : Option Str) : setupInit (setupInit i) = setupInit i := by
  cases i with
  | none => rfl
  | some old =>
    simp only [setupInit]
    split
    · rfl
    · rw [if_pos (hasSub_append _ _)]

/-- **Nothing is lost**: the version file is written anew, the other files only grow at their ends, and a file
`__init__.py` is not created. -/
theorem c97_kept : (doSetup c t).versionFile = some c.long ∧
    ((doSetup c t).initPy.isSome = t.initPy.isSome) ∧
    (∃ x, textOf (doSetup c t).initPy = textOf t.initPy ++ x) ∧
    (∃ x, textOf (doSetup c t).manifest = textOf t.manifest ++ x) ∧
    ∃ x, textOf (doSetup c t).attributes = textOf t.attributes ++ x := by
  refine ⟨rfl, ?_, ?_, ⟨_, manifest_text c.source t.manifest⟩, ⟨_, attributes_text c.source t.attributes⟩⟩
  · cases h : t.initPy <;> simp [doSetup, h, setupInit]
  · cases h : t.initPy with
    | none => exact ⟨[], by simp [doSetup, h, setupInit, textOf]⟩
    | some old =>
      simp only [doSetup, h, setupInit, textOf, Option.getD_some]
      split
      · exact ⟨[], by simp⟩
      · exact ⟨_, rfl⟩

theorem included_kept {m x w : Str} (hm : Ended m) (h : Included m w) : Included (m ++ x) w := by
  obtain ⟨r, ⟨hn, a, b, rfl, ha, hb⟩, hw⟩ := h
  refine ⟨r, ⟨hn, a, b ++ x, by simp, ha, ?_⟩, hw⟩
  rcases hb with rfl | ⟨b', rfl⟩
  · exfalso
    have hne : ("include ".toList ++ r) ≠ [] := by simp
    generalize "include ".toList ++ r = l at hn hm hne
    rw [List.append_nil] at hm
    rcases hm with h | ⟨s, h⟩
    · exact hne (List.append_eq_nil_iff.1 h).2
    · obtain ⟨l', d, rfl⟩ : ∃ l' d, l = l' ++ [d] := ⟨_, _, (List.dropLast_concat_getLast hne).symm⟩
      rw [← List.append_assoc] at h
      have := List.append_inj_right' h rfl
      simp only [List.cons.injEq, and_true] at this
      subst this
      simp at hn
  · exact .inr ⟨b' ++ x, rfl⟩

/-- **What it is for**: when the files consist of complete lines, then afterwards the manifest includes `versioneer.py`
and the version file, and whatever it included before; the version file is marked in `.gitattributes`; and
`__init__.py`, if there is one, has the snippet. -/
theorem c97_done (hs : Word c.source) (hm : Ended (textOf t.manifest)) (ha : Ended (textOf t.attributes)) :
    Included (textOf (doSetup c t).manifest) "versioneer.py".toList ∧
    Included (textOf (doSetup c t).manifest) c.source ∧
    (∀ w, Included (textOf t.manifest) w → Included (textOf (doSetup c t).manifest) w) ∧
    Marked (textOf (doSetup c t).attributes) c.source ∧
    ∀ i, (doSetup c t).initPy = some i → ∃ a b, i = a ++ initSnippet ++ b := by
  obtain ⟨h1, h2, -⟩ := manifest_done hs hm
  refine ⟨included_of h1, included_of h2, ?_, marked_of hs (attributes_done hs ha), ?_⟩
  · intro w hw
    obtain ⟨x, hx⟩ := (c97_kept (c := c) (t := t)).2.2.2.1
    rw [hx]
    exact included_kept hm hw
  · intro i hi
    cases h : t.initPy with
    | none => simp [doSetup, h, setupInit] at hi
    | some old =>
      simp only [doSetup, h, setupInit, Option.some.injEq] at hi
      split at hi
      · rename_i hsub
        subst hi
        exact hasSub_of hsub
      · exact ⟨old, [], by rw [← hi, List.append_nil]⟩

/-- **Again is no change**: when the files consist of complete lines and the path has no white space, a second run
changes nothing. -/
theorem c97_again (hs : Word c.source) (hm : Ended (textOf t.manifest)) (ha : Ended (textOf t.attributes)) :
    doSetup c (doSetup c t) = doSetup c t := by
  obtain ⟨h1, h2, -⟩ := manifest_done hs hm
  have e1 := manifest_same h1 h2
  have e2 := attributes_same (attributes_done hs ha)
  have e3 := init_twice t.initPy
  simp only [doSetup, Project.mk.injEq, true_and]
  exact ⟨e3, e1, e2⟩

/-- **It settles**: whatever the files are, a third run changes nothing. -/
theorem c97_settles (hs : Word c.source) :
    doSetup c (doSetup c (doSetup c t)) = doSetup c (doSetup c t) := by
  have e1 : setupManifest c.source (setupManifest c.source (setupManifest c.source t.manifest)) =
      setupManifest c.source (setupManifest c.source t.manifest) := by
    rcases manifest_ended c.source t.manifest with h | h
    · simp only [h]
    · obtain ⟨h1, h2, -⟩ := manifest_done hs h
      exact manifest_same h1 h2
  have e2 : setupAttributes c.source (setupAttributes c.source (setupAttributes c.source t.attributes)) =
      setupAttributes c.source (setupAttributes c.source t.attributes) := by
    rcases attributes_ended c.source t.attributes with h | h
    · simp only [h]
    · exact attributes_same (attributes_done hs h)
  simp only [doSetup, Project.mk.injEq, true_and]
  exact ⟨init_twice _, e1, e2⟩

/-- **White space in the path**: then it never settles, every run makes the manifest longer. -/
theorem c97_grows {d : Char} (hd : d ∈ c.source) (hsp : isSpace d = true) :
    (textOf t.manifest).length < (textOf (doSetup c t).manifest).length := by
  have hn : ¬ (simpleIncludes (textOf t.manifest)).contains c.source = true := by
    intro h
    have := (includes_word (List.contains_iff_mem.1 h)).2 d hd
    simp [hsp] at this
  simp only [doSetup]
  rw [manifest_text, if_neg hn, List.length_append, List.length_append, List.length_append (bs := ['\n']),
    List.length_singleton]
  omega

/-- The settings of this repository, and its files as far as they matter: a first run adds the line that is missing in
`.gitattributes`, where the pattern is `calendars/_version.py`. -/
def ownSection : Section := { source := "trading_calendars/_version.py".toList, long := [] }

def ownProject : Project :=
  { versionFile := some [], initPy := some ("x\n".toList ++ initSnippet)
    manifest := some "include LICENSE\n\ninclude etc/requirements*.txt\n\ninclude tests/resources *.csv\ninclude versioneer.py\ninclude trading_calendars/_version.py\n".toList
    attributes := some "calendars/_version.py export-subst\n".toList }

example : Word ownSection.source ∧ Ended (textOf ownProject.manifest) ∧ Ended (textOf ownProject.attributes) ∧
    (doSetup ownSection ownProject).manifest = ownProject.manifest ∧
    (doSetup ownSection ownProject).initPy = ownProject.initPy ∧
    (doSetup ownSection ownProject).attributes =
      some "calendars/_version.py export-subst\ntrading_calendars/_version.py export-subst\n".toList :=
  ⟨⟨by decide, by decide⟩, .inr ⟨(textOf ownProject.manifest).dropLast, by decide +kernel⟩,
    .inr ⟨(textOf ownProject.attributes).dropLast, by decide +kernel⟩, by decide +kernel, by decide +kernel,
    by decide +kernel⟩

/-- A manifest that does not end with a line feed: the last line is spoiled, `LICENSE` is no longer included. -/
example :
    setupManifest "p/_version.py".toList (some "include LICENSE".toList) =
      some "include LICENSEinclude versioneer.py\ninclude p/_version.py\n".toList ∧
    simpleIncludes "include LICENSE".toList = ["LICENSE".toList] ∧
    simpleIncludes "include LICENSEinclude versioneer.py\ninclude p/_version.py\n".toList =
      ["LICENSEinclude".toList, "versioneer.py".toList, "p/_version.py".toList] := by
  refine ⟨by decide +kernel, by decide +kernel, by decide +kernel⟩

/-- One for which the second run is a change as well, and the third is not. -/
example :
    let m₁ := setupManifest "p/_version.py".toList (some "graft docs".toList)
    let m₂ := setupManifest "p/_version.py".toList m₁
    m₁ = some "graft docsinclude versioneer.py\ninclude p/_version.py\n".toList ∧
    m₂ = some "graft docsinclude versioneer.py\ninclude p/_version.py\ninclude versioneer.py\n".toList ∧
    setupManifest "p/_version.py".toList m₂ = m₂ := by
  refine ⟨by decide +kernel, by decide +kernel, by decide +kernel⟩

/-- A line for another file whose name only begins like that of the version file counts as well. -/
example : setupAttributes "p/_version.py".toList (some "p/_version.py.orig export-subst\n".toList) =
    some "p/_version.py.orig export-subst\n".toList := by
  decide +kernel

/-- A path with a blank. -/
example : setupManifest "my pkg/_version.py".toList (setupManifest "my pkg/_version.py".toList none) =
    some "include versioneer.py\ninclude my pkg/_version.py\ninclude my pkg/_version.py\n".toList := by
  decide +kernel

end TC.Props
