import Verif.Spec.VersioneerScan
import Verif.Props.VersioneerSetup

/-!
# The exit status of `python versioneer.py setup` (C100)
-/

namespace TC.Props
open TC.Versioneer
open TC.Tcal (Str)

theorem hasSub_prefix (p b : Str) : hasSub p (p ++ b) = true := by
  cases p with
  | nil => cases b <;> simp [hasSub]
  | cons c p => simp [hasSub]

theorem hasSub_cons {p s : Str} (c : Char) (h : hasSub p s = true) : hasSub p (c :: s) = true := by
  simp only [hasSub, h, Bool.or_true]

theorem hasSub_within (p a b : Str) : hasSub p (a ++ p ++ b) = true := by
  induction a with
  | nil => exact hasSub_prefix p b
  | cons c a ih => exact hasSub_cons c ih

theorem linesOf_start {p : Str} (hp : '\n' ∉ p) (b : Str) :
    ∃ l ls, linesOf (p ++ b) = (p ++ l) :: ls := by
  induction p with
  | nil =>
    obtain ⟨l, ls, e, -⟩ := linesOf_shape b
    exact ⟨l, ls, e⟩
  | cons c p ih =>
    simp only [List.mem_cons, not_or] at hp
    obtain ⟨l, ls, e⟩ := ih hp.2
    refine ⟨l, ls, ?_⟩
    simp only [List.cons_append, linesOf, e]
    rw [if_neg (Ne.symm hp.1)]

/-- Whether a text without line feed occurs is seen line by line. -/
theorem occurs_lines {p : Str} (hp : '\n' ∉ p) (t : Str) :
    (linesOf t).any (hasSub p) = true ↔ ∃ a b, t = a ++ p ++ b := by
  rw [List.any_eq_true]
  constructor
  · rintro ⟨l, hl, hs⟩
    obtain ⟨-, a, b, rfl, -⟩ := hasLine_of hl
    obtain ⟨a', b', rfl⟩ := hasSub_of hs
    exact ⟨a ++ a', b' ++ b, by simp only [List.append_assoc]⟩
  · rintro ⟨a, b, rfl⟩
    induction a with
    | nil =>
      obtain ⟨l, ls, e⟩ := linesOf_start hp b
      exact ⟨p ++ l, by rw [List.nil_append, e]; exact List.mem_cons_self, hasSub_prefix p l⟩
    | cons c a ih =>
      obtain ⟨l, hl, hs⟩ := ih
      obtain ⟨l0, ls, e, -⟩ := linesOf_shape (a ++ p ++ b)
      rw [e] at hl
      simp only [List.cons_append, linesOf, e]
      by_cases hc : c = '\n'
      · rw [if_pos hc]
        exact ⟨l, List.mem_cons_of_mem _ hl, hs⟩
      · rw [if_neg hc]
        rcases List.mem_cons.1 hl with rfl | hl
        · exact ⟨c :: l, List.mem_cons_self, hasSub_cons c hs⟩
        · exact ⟨l, List.mem_cons_of_mem _ hl, hs⟩

theorem scanLine_eq (s : Scan) (l : Str) : scanLine s l =
    { imports := s.imports || hasSub "import versioneer".toList l
      cmdclass := s.cmdclass || hasSub "versioneer.get_cmdclass()".toList l
      getVersion := s.getVersion || hasSub "versioneer.get_version()".toList l
      setters := s.setters || (hasSub "versioneer.VCS".toList l || hasSub "versioneer.versionfile_source".toList l) } := by
  unfold scanLine
  generalize hasSub "import versioneer".toList l = b1
  generalize hasSub "versioneer.get_cmdclass()".toList l = b2
  generalize hasSub "versioneer.get_version()".toList l = b3
  generalize hasSub "versioneer.VCS".toList l = b4
  generalize hasSub "versioneer.versionfile_source".toList l = b5
  obtain ⟨i, c, g, st⟩ := s
  cases b1 <;> cases b2 <;> cases b3 <;> cases b4 <;> cases b5 <;> simp

theorem scan_eq (ls : List Str) (s : Scan) : ls.foldl scanLine s =
    { imports := s.imports || ls.any (hasSub "import versioneer".toList)
      cmdclass := s.cmdclass || ls.any (hasSub "versioneer.get_cmdclass()".toList)
      getVersion := s.getVersion || ls.any (hasSub "versioneer.get_version()".toList)
      setters := s.setters ||
        (ls.any (hasSub "versioneer.VCS".toList) || ls.any (hasSub "versioneer.versionfile_source".toList)) } := by
  induction ls generalizing s with
  | nil => simp
  | cons l ls ih =>
    rw [List.foldl_cons, ih, scanLine_eq]
    simp only [List.any_cons, Scan.mk.injEq, Bool.or_assoc, true_and]
    generalize hasSub "versioneer.VCS".toList l = b4
    generalize hasSub "versioneer.versionfile_source".toList l = b5
    generalize ls.any (hasSub "versioneer.VCS".toList) = b6
    cases b4 <;> cases b5 <;> cases b6 <;> simp

theorem size_three (s : Scan) : s.size = 3 ↔ s.imports = true ∧ s.cmdclass = true ∧ s.getVersion = true := by
  obtain ⟨i, c, g, st⟩ := s
  cases i <;> cases c <;> cases g <;> simp [Scan.size]

/-- C100: the number of errors is 0, 1 or 2: one, if one of the three uses is missing anywhere in `setup.py`, and one, if
there are outdated settings anywhere in it. -/
theorem c100_scan (text : Str) :
    (scanSetupPy text = 0 ↔ Uses text ∧ ¬ Outdated text) ∧
    (scanSetupPy text = 2 ↔ ¬ Uses text ∧ Outdated text) ∧ scanSetupPy text ≤ 2 := by
  have h1 := occurs_lines (p := "import versioneer".toList) (by decide) text
  have h2 := occurs_lines (p := "versioneer.get_cmdclass()".toList) (by decide) text
  have h3 := occurs_lines (p := "versioneer.get_version()".toList) (by decide) text
  have h4 := occurs_lines (p := "versioneer.VCS".toList) (by decide) text
  have h5 := occurs_lines (p := "versioneer.versionfile_source".toList) (by decide) text
  unfold Uses Outdated Occurs
  rw [← h1, ← h2, ← h3, ← h4, ← h5]
  unfold scanSetupPy
  simp only [scan_eq, Bool.false_or]
  generalize (linesOf text).any (hasSub "import versioneer".toList) = b1
  generalize (linesOf text).any (hasSub "versioneer.get_cmdclass()".toList) = b2
  generalize (linesOf text).any (hasSub "versioneer.get_version()".toList) = b3
  generalize (linesOf text).any (hasSub "versioneer.VCS".toList) = b4
  generalize (linesOf text).any (hasSub "versioneer.versionfile_source".toList) = b5
  cases b1 <;> cases b2 <;> cases b3 <;> cases b4 <;> cases b5 <;> simp [Scan.size]

/-- C100: `python versioneer.py setup` ends with status 0 exactly if `setup.py` uses versioneer and has no outdated
settings, and with 1 otherwise. -/
theorem c100_exit (c : Section) (t : Project) (text : Str) :
    ((setupMain c t text).2 = 0 ↔ Uses text ∧ ¬ Outdated text) ∧
    ((setupMain c t text).2 = 1 ↔ ¬ (Uses text ∧ ¬ Outdated text)) := by
  rw [← (c100_scan text).1]
  unfold setupMain
  simp only [Nat.zero_add]
  by_cases h : scanSetupPy text = 0 <;> simp [h]

/-- C100: a run that ends with status 1 has done its work.  After `setup.py` is mended the next run ends with status 0 and
changes no file. -/
theorem c100_mended {c : Section} {t : Project} {text text' : Str} (hs : Word c.source) (hm : Ended (textOf t.manifest))
    (ha : Ended (textOf t.attributes)) (h : ¬ Uses text) (hu : Uses text') (ho : ¬ Outdated text') :
    (setupMain c t text).2 = 1 ∧
    Included (textOf (setupMain c t text).1.manifest) c.source ∧
    setupMain c (setupMain c t text).1 text' = ((setupMain c t text).1, 0) := by
  refine ⟨(c100_exit c t text).2.2 fun g => h g.1, (c97_done hs hm ha).2.1, ?_⟩
  refine Prod.ext ?_ ((c100_exit c _ text').1.2 ⟨hu, ho⟩)
  exact c97_again hs hm ha

/-- C100: more text never makes a use missing, nor outdated settings disappear: comments count as well. -/
theorem c100_more (a text b : Str) : (Uses text → Uses (a ++ text ++ b)) ∧ (Outdated text → Outdated (a ++ text ++ b)) ∧
    (¬ Outdated (a ++ text ++ b) → Uses text → scanSetupPy (a ++ text ++ b) = 0) := by
  have key : ∀ p, Occurs p text → Occurs p (a ++ text ++ b) := by
    rintro p ⟨x, y, rfl⟩
    exact ⟨a ++ x, y ++ b, by simp only [List.append_assoc]⟩
  have hu : Uses text → Uses (a ++ text ++ b) := fun h => ⟨key _ h.1, key _ h.2.1, key _ h.2.2⟩
  exact ⟨hu, fun h => h.imp (key _) (key _), fun ho h => (c100_scan _).1.2 ⟨hu h, ho⟩⟩

/-- The three lines of this repository's `setup.py` (lines 21, 69 and 70) are enough, also in a comment. -/
example : scanSetupPy ("import versioneer\n        cmdclass=versioneer.get_cmdclass(),\n" ++
      "        version=versioneer.get_version(),\n").toList = 0 ∧
    scanSetupPy "# import versioneer versioneer.get_cmdclass() versioneer.get_version()".toList = 0 ∧
    scanSetupPy "from versioneer import get_version\nversioneer.VCS = 'git'\n".toList = 2 := by decide +kernel

/-- A project without any of the files and an empty `setup.py`: the first run ends with status 1 and makes the manifest;
with the three lines in `setup.py` the next one ends with 0. -/
example : (setupMain ⟨"a/_version.py".toList, []⟩ ⟨none, none, none, none⟩ []).2 = 1 ∧
    setupMain ⟨"a/_version.py".toList, []⟩ (setupMain ⟨"a/_version.py".toList, []⟩ ⟨none, none, none, none⟩ []).1
      "import versioneer; versioneer.get_cmdclass(); versioneer.get_version()".toList =
      ((setupMain ⟨"a/_version.py".toList, []⟩ ⟨none, none, none, none⟩ []).1, 0) := by
  have hz : scanSetupPy "import versioneer; versioneer.get_cmdclass(); versioneer.get_version()".toList = 0 := by
    decide +kernel
  obtain ⟨hu, ho⟩ := (c100_scan _).1.1 hz
  have hn : ¬ Uses [] := by
    rintro ⟨⟨a, b, h⟩, -⟩
    have := congrArg List.length h
    simp at this
  have h := c100_mended (c := ⟨"a/_version.py".toList, []⟩) (t := ⟨none, none, none, none⟩) ⟨by decide, by decide +kernel⟩
    (.inl rfl) (.inl rfl) hn hu ho
  exact ⟨h.1, h.2.2⟩

end TC.Props
