import Verif.Spec.VersioneerConfig
import Verif.Props.VersioneerScan
import Verif.Props.Version

/-!
# Reading `setup.cfg`, and setup without a complete section in it (C101)
-/

namespace TC.Props
open TC.Versioneer
open TC.Tcal (Str isSpace)

set_option maxRecDepth 10000

theorem cfgLines_append (a b : List Str) (σ : CfgState) : cfgLines (a ++ b) σ =
    match cfgLines a σ with
    | .error e => .error e
    | .ok σ => cfgLines b σ := by
  induction a generalizing σ with
  | nil => rfl
  | cons l a ih =>
    simp only [List.cons_append, cfgLines]
    cases cfgLine σ l with
    | error e => rfl
    | ok σ => exact ih σ

theorem continued_keys (σ : CfgState) (l : Str) : (σ.continued l).options.map (·.1) = σ.options.map (·.1) ∧
    (σ.continued l).sections = σ.sections ∧ (σ.continued l).bad = σ.bad ∧ (σ.continued l).current = σ.current := by
  unfold CfgState.continued
  split <;> simp_all

/-- What a header does to the state. -/
def entered (σ : CfgState) : CfgState :=
  { σ with sections := "versioneer".toList :: σ.sections, current := some "versioneer".toList, opened := false, indent := 0 }

theorem cfgLine_header (σ : CfgState) (h : "versioneer".toList ∉ σ.sections) :
    cfgLine σ "[versioneer]".toList = .ok (entered σ) := by
  have e1 : Version.strip "[versioneer]".toList = '[' :: "versioneer]".toList := by decide
  have e2 : ("[versioneer]".toList.takeWhile isSpace).length = 0 := by decide
  have e3 : sectionName ('[' :: "versioneer]".toList) = some "versioneer".toList := by decide
  have e4 : ("versioneer".toList = "DEFAULT".toList) = False := by simp
  unfold cfgLine
  simp only [e1, e2, e3, Nat.not_lt_zero, and_false, if_false, h, e4]
  rw [if_neg (by decide)]
  rfl

theorem cfgLine_comment (σ : CfgState) {l : Str} (h : '#' ∈ (Version.strip l).head?) : cfgLine σ l = .ok σ := by
  unfold cfgLine
  cases e : Version.strip l with
  | nil => rw [e] at h; simp at h
  | cons c s =>
    rw [e] at h
    simp only [List.head?_cons, Option.mem_def, Option.some.injEq] at h
    simp [h]

theorem cfgLine_blank (σ : CfgState) : cfgLine σ [] = .ok (σ.continued []) := rfl

theorem sample_lines (text : Str) : linesOf (text ++ sampleConfig) = linesOf text ++
    ["# See the docstring in versioneer.py for instructions. Note that you must".toList,
     "# re-run 'versioneer.py setup' after changing this section, and commit the".toList, "# resulting files.".toList, [],
     "[versioneer]".toList, "#VCS = git".toList, "#style = pep440".toList, "#versionfile_source =".toList,
     "#versionfile_build =".toList, "#tag_prefix =".toList, "#parentdir_prefix =".toList, [], []] := by
  have : sampleConfig = '\n' :: sampleConfig.tail := by decide
  rw [this, linesOf_append]
  rfl

/-- The sample adds an empty section. -/
theorem sample_state {text : Str} {σ : CfgState} (h : parseCfg text = .ok σ) (hn : "versioneer".toList ∉ σ.sections) :
    parseCfg (text ++ sampleConfig) = .ok (entered (σ.continued [])) := by
  unfold parseCfg at h ⊢
  rw [sample_lines, cfgLines_append]
  revert h
  cases cfgLines (linesOf text) {} with
  | error e => simp
  | ok τ =>
    intro h
    have hb : τ.bad = false ∧ τ = σ := by
      simp only at h
      cases hb : τ.bad <;> simp_all
    obtain ⟨hb, rfl⟩ := hb
    have hc := continued_keys τ []
    have h5 := cfgLine_header (τ.continued []) (by rw [hc.2.1]; exact hn)
    simp only [cfgLines, cfgLine_blank, h5,
      cfgLine_comment _ (l := "# See the docstring in versioneer.py for instructions. Note that you must".toList) (by decide),
      cfgLine_comment _ (l := "# re-run 'versioneer.py setup' after changing this section, and commit the".toList) (by decide),
      cfgLine_comment _ (l := "# resulting files.".toList) (by decide), cfgLine_comment _ (l := "#VCS = git".toList) (by decide),
      cfgLine_comment _ (l := "#style = pep440".toList) (by decide),
      cfgLine_comment _ (l := "#versionfile_source =".toList) (by decide),
      cfgLine_comment _ (l := "#versionfile_build =".toList) (by decide),
      cfgLine_comment _ (l := "#tag_prefix =".toList) (by decide),
      cfgLine_comment _ (l := "#parentdir_prefix =".toList) (by decide)]
    have e : ∀ ρ : CfgState, (entered ρ).continued [] = entered ρ := fun _ => rfl
    simp only [e]
    have : (entered (τ.continued [])).bad = false := by
      show (τ.continued []).bad = false
      rw [hc.2.2.1, hb]
    simp [this]

/-- A state of the parser in which the options belong to sections that were read, and `DEFAULT` was not. -/
def Tidy (σ : CfgState) : Prop :=
  (∀ s, σ.current = some s → s ∈ σ.sections) ∧ (∀ k ∈ σ.options.map (·.1), k.1 ∈ σ.sections) ∧
    "DEFAULT".toList ∉ σ.sections

theorem tidy_line {σ τ : CfgState} {l : Str} (h : Tidy σ) (hl : sectionName (Version.strip l) ≠ some "DEFAULT".toList)
    (he : cfgLine σ l = .ok τ) : Tidy τ := by
  have hc := continued_keys σ
  have hcont : ∀ x, Tidy (σ.continued x) := by
    intro x
    obtain ⟨h1, h2, -, h4⟩ := hc x
    unfold Tidy
    rw [h1, h2, h4]
    exact h
  unfold cfgLine at he
  revert he hl
  cases Version.strip l with
  | nil => rintro - ⟨⟩; exact hcont _
  | cons c s =>
    intro hl he
    simp only at he
    split at he
    · cases he; exact h
    · split at he
      · cases he; exact hcont _
      · split at he
        · rename_i name hname
          split at he
          · cases he
          · split at he
            · rename_i hd
              exact absurd (by rw [hname, hd]) hl
            · cases he
              rename_i hnot hd
              refine ⟨?_, ?_, ?_⟩
              · rintro s ⟨⟩; exact List.mem_cons_self
              · intro k hk; exact List.mem_cons_of_mem _ (h.2.1 k hk)
              · intro hm
                rcases List.mem_cons.1 hm with hm | hm
                · exact hd hm.symm
                · exact h.2.2 hm
        · split at he
          · cases he
          · cases he; exact h
          · rename_i sect key val hcur _
            split at he
            · cases he
            · cases he
              refine ⟨h.1, ?_, h.2.2⟩
              intro k hk
              simp only [List.map_cons, List.mem_cons] at hk
              rcases hk with rfl | hk
              · exact h.1 _ hcur
              · exact h.2.1 k hk

theorem tidy_lines {ls : List Str} {σ τ : CfgState} (h : Tidy σ)
    (hl : ∀ l ∈ ls, sectionName (Version.strip l) ≠ some "DEFAULT".toList) (he : cfgLines ls σ = .ok τ) : Tidy τ := by
  induction ls generalizing σ with
  | nil => cases he; exact h
  | cons l ls ih =>
    unfold cfgLines at he
    cases hs : cfgLine σ l with
    | error e => rw [hs] at he; cases he
    | ok ρ =>
      rw [hs] at he
      exact ih (tidy_line h (hl l List.mem_cons_self) hs) (fun x hx => hl x (List.mem_cons_of_mem _ hx)) he

theorem sectionName_occurs {s name : Str} (h : sectionName s = some name) : ∃ b, s = '[' :: (name ++ ']' :: b) := by
  unfold sectionName at h
  split at h
  · rename_i s
    simp only at h
    split at h
    · cases h
    · rename_i hn
      simp only [not_or] at hn
      cases h
      have e := List.takeWhile_append_dropWhile (p := fun c => decide (c ≠ ']')) (l := s)
      cases hd : s.dropWhile (fun c => decide (c ≠ ']')) with
      | nil =>
        rw [hd, List.append_nil] at e
        exact absurd e hn.2
      | cons c b =>
        have hc := List.head?_dropWhile_not (fun c => decide (c ≠ ']')) s
        rw [hd] at hc e
        simp only [List.head?_cons, decide_not, Bool.not_eq_false', decide_eq_true_eq] at hc
        subst hc
        refine ⟨b, ?_⟩
        rw [e]
  · cases h

/-- A line that is the header of `DEFAULT`. -/
theorem default_occurs {text l : Str} (hl : l ∈ linesOf text) (hn : sectionName (Version.strip l) = some "DEFAULT".toList) :
    Occurs "[DEFAULT]" text := by
  obtain ⟨b, hb⟩ := sectionName_occurs hn
  obtain ⟨-, a, z, rfl, -⟩ := hasLine_of hl
  obtain ⟨a', z', e', -⟩ := strip_split l
  refine ⟨a ++ a', b ++ z' ++ z, ?_⟩
  rw [hb] at e'
  rw [e']
  have : "[DEFAULT]".toList = '[' :: ("DEFAULT".toList ++ [']']) := by decide
  rw [this]
  simp only [List.append_assoc, List.cons_append, List.nil_append]

theorem tidy_start : Tidy {} := by
  refine ⟨?_, ?_, ?_⟩
  · intro s h; cases h
  · intro k h; cases h
  · intro h; cases h

/-- A text without `[DEFAULT]` is read without it. -/
theorem tidy_of {text : Str} {σ : CfgState} (hd : ¬ Occurs "[DEFAULT]" text) (h : parseCfg text = .ok σ) : Tidy σ := by
  unfold parseCfg at h
  cases hs : cfgLines (linesOf text) {} with
  | error e => rw [hs] at h; cases h
  | ok τ =>
    rw [hs] at h
    have e : τ = σ := by
      simp only at h
      split at h
      · cases h
      · cases h; rfl
    subst e
    exact tidy_lines tidy_start (fun l hl hn => hd (default_occurs hl hn)) hs

theorem get_cases (σ : CfgState) (key : String) : (∃ v, σ.get key = .ok v) ∨ σ.get key = .error .interpolation := by
  unfold CfgState.get interpolated
  cases σ.find? key with
  | none => exact .inl ⟨_, rfl⟩
  | some v =>
    by_cases h : '%' ∈ v
    · right; simp [h, Except.map]
    · left; exact ⟨some v, by simp [h, Except.map]⟩

/-- Once the section is there, reading it raises neither of the errors on which the sample is appended. -/
theorem readConfig_section {text : Str} {σ : CfgState} (h : parseCfg text = .ok σ) (hs : "versioneer".toList ∈ σ.sections) :
    readConfig (some text) ≠ .error .environment ∧ readConfig (some text) ≠ .error .noSection := by
  have : (∃ c, readConfig (some text) = .ok c) ∨ readConfig (some text) = .error .noOption ∨
      readConfig (some text) = .error .interpolation := by
    unfold readConfig
    simp only [h, hs, not_true_eq_false, if_false, bind, Except.bind, pure, Except.pure]
    cases hv : σ.find? "vcs" with
    | none => right; left; rfl
    | some v =>
      unfold interpolated
      by_cases hp : '%' ∈ v
      · right; right; simp [hp]
      · simp only [hp, if_false]
        rcases get_cases σ "style" with ⟨v1, h1⟩ | h1
        · rcases get_cases σ "versionfile_source" with ⟨v2, h2⟩ | h2
          · rcases get_cases σ "versionfile_build" with ⟨v3, h3⟩ | h3
            · rcases get_cases σ "tag_prefix" with ⟨v4, h4⟩ | h4
              · rcases get_cases σ "parentdir_prefix" with ⟨v5, h5⟩ | h5
                · rcases get_cases σ "verbose" with ⟨v6, h6⟩ | h6
                  · left; simp only [h1, h2, h3, h4, h5, h6]; exact ⟨_, rfl⟩
                  · right; right; simp only [h1, h2, h3, h4, h5, h6]
                · right; right; simp only [h1, h2, h3, h4, h5]
              · right; right; simp only [h1, h2, h3, h4]
            · right; right; simp only [h1, h2, h3]
          · right; right; simp only [h1, h2]
        · right; right; simp only [h1]
  rcases this with ⟨c, h⟩ | h | h <;> rw [h] <;> simp

/-- The files for which the sample is appended: there is no `setup.cfg`, or it can be read and has no section. -/
theorem append_cases {f : Option Str} (h : readConfig f = .error .environment ∨ readConfig f = .error .noSection) :
    ∃ σ, parseCfg (f.getD []) = .ok σ ∧ "versioneer".toList ∉ σ.sections := by
  cases f with
  | none => exact ⟨_, rfl, by decide⟩
  | some text =>
    simp only [Option.getD_some]
    cases hp : parseCfg text with
    | error e =>
      have : e = .parsing := by
        unfold parseCfg at hp
        have hl : ∀ ls σ e, cfgLines ls σ = .error e → e = .parsing := by
          intro ls
          induction ls with
          | nil => intro σ e h; cases h
          | cons l ls ih =>
            intro σ e h
            unfold cfgLines at h
            cases hs : cfgLine σ l with
            | ok ρ => rw [hs] at h; exact ih _ _ h
            | error e' =>
              rw [hs] at h
              cases h
              unfold cfgLine at hs
              simp only at hs
              repeat' split at hs
              all_goals first | cases hs; rfl | cases hs
        cases hc : cfgLines (linesOf text) {} with
        | error e' => rw [hc] at hp; cases hp; exact hl _ _ _ hc
        | ok σ =>
          rw [hc] at hp
          simp only at hp
          split at hp
          · cases hp; rfl
          · cases hp
      subst this
      have : readConfig (some text) = .error .parsing := by
        unfold readConfig
        simp only [hp, bind, Except.bind]
      rw [this] at h
      simp at h
    | ok σ =>
      refine ⟨σ, rfl, fun hs => ?_⟩
      have := readConfig_section hp hs
      rcases h with h | h
      · exact this.1 h
      · exact this.2 h

theorem sample_read {f : Option Str} (h : readConfig f = .error .environment ∨ readConfig f = .error .noSection) :
    readConfig (some (f.getD [] ++ sampleConfig)) ≠ .error .environment ∧
    readConfig (some (f.getD [] ++ sampleConfig)) ≠ .error .noSection := by
  obtain ⟨σ, h1, h2⟩ := append_cases h
  exact readConfig_section (sample_state h1 h2) (by simp [entered])

theorem lookup_none {k : Str × Str} : ∀ {os : List ((Str × Str) × List Str)}, k ∉ os.map (·.1) → os.lookup k = none
  | [], _ => rfl
  | (k', v) :: os, h => by
    simp only [List.map_cons, List.mem_cons, not_or] at h
    rw [List.lookup_cons]
    have : (k == k') = false := by simpa using h.1
    rw [this]
    exact lookup_none h.2

/-- C101: `setup.cfg` is changed by no run but the first, whatever is in it and whatever the runs end with. -/
theorem c101_once (long : VConfig → Str) (r : Root) :
    (doSetupRoot long (doSetupRoot long r).1).1.setupCfg = (doSetupRoot long r).1.setupCfg := by
  have key : ∀ r : Root, readConfig r.setupCfg ≠ .error .environment → readConfig r.setupCfg ≠ .error .noSection →
      (doSetupRoot long r).1.setupCfg = r.setupCfg := by
    intro r h1 h2
    unfold doSetupRoot
    split
    · exact absurd ‹_› h1
    · exact absurd ‹_› h2
    · rfl
    · rfl
    · split
      · rfl
      · split <;> rfl
  by_cases h : readConfig r.setupCfg = .error .environment ∨ readConfig r.setupCfg = .error .noSection
  · have e : (doSetupRoot long r).1.setupCfg = some (r.setupCfg.getD [] ++ sampleConfig) := by
      unfold doSetupRoot
      rcases h with h | h <;> simp only [h]
    have := sample_read h
    exact key _ (by rw [e]; exact this.1) (by rw [e]; exact this.2)
  · simp only [not_or] at h
    have e := key r h.1 h.2
    exact key _ (by rw [e]; exact h.1) (by rw [e]; exact h.2)

/-- C101: a run that changes `setup.cfg` appends the sample to it, changes nothing else and ends with status 1.  If the file
had no `[DEFAULT]`, the next run ends with status 1 as well, and changes nothing. -/
theorem c101_appended (long : VConfig → Str) {r : Root} (h : (doSetupRoot long r).1.setupCfg ≠ r.setupCfg) :
    doSetupRoot long r = (⟨some (r.setupCfg.getD [] ++ sampleConfig), r.project⟩, .ok 1) ∧
    (¬ Occurs "[DEFAULT]" (r.setupCfg.getD []) →
      doSetupRoot long (doSetupRoot long r).1 = ((doSetupRoot long r).1, .ok 1)) := by
  have hc : readConfig r.setupCfg = .error .environment ∨ readConfig r.setupCfg = .error .noSection := by
    apply Classical.byContradiction
    intro hn
    simp only [not_or] at hn
    apply h
    unfold doSetupRoot
    split
    · exact absurd ‹_› hn.1
    · exact absurd ‹_› hn.2
    · rfl
    · rfl
    · split
      · rfl
      · split <;> rfl
  have e : doSetupRoot long r = (⟨some (r.setupCfg.getD [] ++ sampleConfig), r.project⟩, .ok 1) := by
    unfold doSetupRoot
    rcases hc with h | h <;> simp only [h]
  refine ⟨e, fun hd => ?_⟩
  obtain ⟨σ, h1, h2⟩ := append_cases hc
  have ht := tidy_of hd h1
  have hk := (continued_keys σ []).1
  have hf : (entered (σ.continued [])).find? "vcs" = none := by
    have n : ∀ s : Str, s ∉ σ.sections → ((entered (σ.continued [])).options).lookup (s, "vcs".toList) = none := by
      intro s hs
      apply lookup_none
      show _ ∉ (σ.continued []).options.map (·.1)
      rw [hk]
      exact fun hm => hs (ht.2.1 _ hm)
    unfold CfgState.find?
    rw [n _ h2, n _ ht.2.2]
  have hr : readConfig (some (r.setupCfg.getD [] ++ sampleConfig)) = .error .noOption := by
    unfold readConfig
    have hm : "versioneer".toList ∈ (entered (σ.continued [])).sections := List.mem_cons_self
    simp only [sample_state h1 h2, hm, hf, not_true_eq_false, if_false, bind, Except.bind]
  rw [e]
  unfold doSetupRoot
  simp only [hr]

/-- C101: the status is 0 or 1, or an exception is raised.  With status 1, and with any exception but `KeyError`, the files
of the project are as before. -/
theorem c101_untouched (long : VConfig → Str) (r : Root) :
    ((doSetupRoot long r).2 = .ok 0 ∨ (doSetupRoot long r).2 = .ok 1 ∨ ∃ e, (doSetupRoot long r).2 = .error e) ∧
    ((doSetupRoot long r).2 ≠ .ok 0 → (doSetupRoot long r).2 ≠ .error .keyError → (doSetupRoot long r).1.project = r.project) := by
  unfold doSetupRoot
  split
  · simp
  · simp
  · simp
  · simp
  · split
    · simp
    · split <;> simp

/-- C101: a kind of version control other than git raises `KeyError`, and leaves the version file empty. -/
theorem c101_emptied (long : VConfig → Str) {r : Root} {c : VConfig} {source : Str} (h : readConfig r.setupCfg = .ok c)
    (hs : c.source = some source) (hv : c.vcs ≠ "git".toList) :
    doSetupRoot long r = (⟨r.setupCfg, { r.project with versionFile := some [] }⟩, .error .keyError) := by
  unfold doSetupRoot
  simp only [h, hs]
  rw [if_neg hv]

/-- C101: with git, the run does what `doSetup` does, with the settings read. -/
theorem c101_done (long : VConfig → Str) {r : Root} {c : VConfig} {source : Str} (h : readConfig r.setupCfg = .ok c)
    (hs : c.source = some source) (hv : c.vcs = "git".toList) :
    doSetupRoot long r = (⟨r.setupCfg, doSetup ⟨source, long c⟩ r.project⟩, .ok 0) := by
  unfold doSetupRoot
  simp only [h, hs]
  rw [if_pos hv]

/-! ### Values are read back -/

theorem strip_plain {v : Str} (h : Plain v) : Version.strip v = v := by
  cases v with
  | nil => rfl
  | cons c v =>
    refine strip_ends ⟨⟨c, rfl, h.2.2.1 c rfl⟩, ?_⟩
    cases e : (c :: v).getLast? with
    | none => simp at e
    | some x => exact ⟨x, rfl, h.2.2.2 x e⟩

theorem strip_blank_plain {v : Str} (h : Plain v) : Version.strip (' ' :: v) = v := by
  have : Version.strip (' ' :: v) = Version.strip v := by
    unfold Version.strip
    rw [List.dropWhile_cons, if_pos (by decide)]
  rw [this, strip_plain h]

theorem join_plain {v : Str} (h : Plain v) : joinValue [v] = v := by
  have e : joinValue [v] = Tcal.rstrip v := by simp [joinValue, List.intercalate]
  rw [e]
  have := strip_plain h
  unfold Version.strip at this
  cases v with
  | nil => rfl
  | cons c v =>
    rw [List.dropWhile_cons, if_neg (by rw [h.2.2.1 c rfl]; decide)] at this
    exact this

/-- The name of an option as it stands in the layout. -/
def NameOk (n : Str) : Prop :=
  (∀ c ∈ n, c ≠ '=' ∧ c ≠ ':' ∧ isSpace c = false) ∧ (∃ c s, n = c :: s ∧ c ≠ '#' ∧ c ≠ ';' ∧ c ≠ '[')

theorem optionLine_of {n v : Str} (hn : NameOk n) (w : Str) (hw : Version.strip w = v) :
    optionLine (n ++ ' ' :: '=' :: w) = some (n.map Char.toLower, v) := by
  have e : (n ++ ' ' :: '=' :: w).takeWhile (fun c => c ≠ '=' && c ≠ ':') = n ++ [' '] := by
    rw [List.takeWhile_append_of_pos (fun c hc => by simp [(hn.1 c hc).1, (hn.1 c hc).2.1])]
    rw [List.takeWhile_cons, if_pos (by decide), List.takeWhile_cons, if_neg (by decide)]
  have er : Tcal.rstrip (n ++ [' ']) = n := by
    obtain ⟨c, s, rfl, -⟩ := hn.2
    have := strip_ends (s := c :: s) ⟨⟨c, rfl, (hn.1 c List.mem_cons_self).2.2⟩, by
      cases e : (c :: s).getLast? with
      | none => simp at e
      | some x => exact ⟨x, rfl, (hn.1 x (List.mem_of_getLast? e)).2.2⟩⟩
    unfold Version.strip Tcal.rstrip at *
    rw [List.dropWhile_cons, if_neg (by rw [(hn.1 c List.mem_cons_self).2.2]; decide)] at this
    rw [List.reverse_append, List.reverse_cons, List.reverse_nil, List.nil_append, List.singleton_append,
      List.dropWhile_cons, if_pos (by decide), this]
  unfold optionLine
  simp only [e, er]
  have ed : (n ++ ' ' :: '=' :: w).drop (n ++ [' ']).length = '=' :: w := by
    rw [show n ++ ' ' :: '=' :: w = (n ++ [' ']) ++ '=' :: w by simp]
    exact List.drop_left
  rw [ed]
  simp only [hw]

/-- What a line of the layout does to the state. -/
theorem cfgLine_option {σ : CfgState} {n v sect : Str} (hn : NameOk n) (hv : Plain v) (hc : σ.current = some sect)
    (hk : (sect, n.map Char.toLower) ∉ σ.options.map (·.1)) :
    cfgLine σ (n ++ " = ".toList ++ v) = .ok { σ with
      options := ((sect, n.map Char.toLower), [v]) :: σ.options, opened := true, indent := 0 } := by
  obtain ⟨c, s, rfl, h1, h2, h3⟩ := id hn.2
  have hsp := (hn.1 c List.mem_cons_self).2.2
  -- the stripped line
  have est : ∃ w, Version.strip (c :: s ++ " = ".toList ++ v) = c :: (s ++ ' ' :: '=' :: w) ∧ Version.strip w = v := by
    cases v with
    | nil =>
      refine ⟨[], ?_, rfl⟩
      have := trim_core (p := isSpace) (a := []) (b := [' ']) (s := c :: (s ++ [' ', '='])) (by simp) (by decide)
        ⟨c, rfl, hsp⟩ ⟨'=', by
          rw [show c :: (s ++ [' ', '=']) = (c :: (s ++ [' '])) ++ ['='] by simp]; exact List.getLast?_concat, by decide⟩
      rw [← strip_eq] at this
      rw [← this]
      simp
    | cons x v =>
      refine ⟨' ' :: x :: v, ?_, strip_blank_plain hv⟩
      have hl : ∃ y, (x :: v).getLast? = some y := by
        cases e : (x :: v).getLast? with
        | none => simp at e
        | some y => exact ⟨y, rfl⟩
      obtain ⟨y, hy⟩ := hl
      have := strip_ends (s := c :: s ++ " = ".toList ++ x :: v) ⟨⟨c, rfl, hsp⟩, ⟨y, by
        rw [List.getLast?_append, hy]; rfl, hv.2.2.2 y hy⟩⟩
      rw [this]
      simp
  obtain ⟨w, ew, hw⟩ := est
  have ei : ((c :: s ++ " = ".toList ++ v).takeWhile isSpace).length = 0 := by
    simp only [List.cons_append]
    rw [List.takeWhile_cons, if_neg (by rw [hsp]; decide)]
    rfl
  have en : sectionName (c :: (s ++ ' ' :: '=' :: w)) = none := by
    unfold sectionName
    split
    · rename_i heq
      simp only [List.cons.injEq] at heq
      exact absurd heq.1 h3
    · rfl
  have eo := optionLine_of hn w hw
  simp only [List.cons_append] at eo
  unfold cfgLine
  simp only [ew, ei, en, eo, hc, Nat.not_lt_zero, and_false, if_false]
  rw [if_neg (by simp [h1, h2]), if_neg hk]
  simp

theorem nameOk_vcs : NameOk "VCS".toList := ⟨by decide, _, _, rfl, by decide, by decide, by decide⟩
theorem nameOk_style : NameOk "style".toList := ⟨by decide, _, _, rfl, by decide, by decide, by decide⟩
theorem nameOk_source : NameOk "versionfile_source".toList := ⟨by decide, _, _, rfl, by decide, by decide, by decide⟩
theorem nameOk_build : NameOk "versionfile_build".toList := ⟨by decide, _, _, rfl, by decide, by decide, by decide⟩
theorem nameOk_tag : NameOk "tag_prefix".toList := ⟨by decide, _, _, rfl, by decide, by decide, by decide⟩
theorem nameOk_parentdir : NameOk "parentdir_prefix".toList := ⟨by decide, _, _, rfl, by decide, by decide, by decide⟩

theorem section_lines {v1 v2 v3 v4 v5 v6 : Str} (h1 : Plain v1) (h2 : Plain v2) (h3 : Plain v3) (h4 : Plain v4)
    (h5 : Plain v5) (h6 : Plain v6) : linesOf (sectionText v1 v2 v3 v4 v5 v6) =
    ["[versioneer]".toList, "VCS".toList ++ " = ".toList ++ v1, "style".toList ++ " = ".toList ++ v2,
      "versionfile_source".toList ++ " = ".toList ++ v3, "versionfile_build".toList ++ " = ".toList ++ v4,
      "tag_prefix".toList ++ " = ".toList ++ v5, "parentdir_prefix".toList ++ " = ".toList ++ v6] := by
  have n : ∀ {a v : Str}, '\n' ∉ a → Plain v → '\n' ∉ a ++ v := by
    intro a v ha hv hm
    rcases List.mem_append.1 hm with hm | hm
    · exact ha hm
    · exact hv.1 hm
  have e : sectionText v1 v2 v3 v4 v5 v6 = "[versioneer]".toList ++ '\n' :: ("VCS = ".toList ++ v1 ++ '\n' ::
      ("style = ".toList ++ v2 ++ '\n' :: ("versionfile_source = ".toList ++ v3 ++ '\n' ::
      ("versionfile_build = ".toList ++ v4 ++ '\n' :: ("tag_prefix = ".toList ++ v5 ++ '\n' ::
      ("parentdir_prefix = ".toList ++ v6)))))) := by
    unfold sectionText
    have s0 : "[versioneer]\nVCS = ".toList = "[versioneer]".toList ++ '\n' :: "VCS = ".toList := by decide
    have s1 : "\nstyle = ".toList = '\n' :: "style = ".toList := by decide
    have s2 : "\nversionfile_source = ".toList = '\n' :: "versionfile_source = ".toList := by decide
    have s3 : "\nversionfile_build = ".toList = '\n' :: "versionfile_build = ".toList := by decide
    have s4 : "\ntag_prefix = ".toList = '\n' :: "tag_prefix = ".toList := by decide
    have s5 : "\nparentdir_prefix = ".toList = '\n' :: "parentdir_prefix = ".toList := by decide
    rw [s0, s1, s2, s3, s4, s5]
    simp only [List.append_assoc, List.cons_append]
  rw [e, linesOf_append, linesOf_append, linesOf_append, linesOf_append, linesOf_append, linesOf_append,
    linesOf_one (by decide), linesOf_one (n (by decide) h1), linesOf_one (n (by decide) h2), linesOf_one (n (by decide) h3),
    linesOf_one (n (by decide) h4), linesOf_one (n (by decide) h5), linesOf_one (n (by decide) h6)]
  rfl

/-- The key of an option of the section. -/
def keyOf (k : String) : Str × Str := ("versioneer".toList, k.toList)

theorem find_of {σ : CfgState} {key : String} {v : Str} (hv : Plain v) (h : σ.options.lookup (keyOf key) = some [v]) :
    σ.find? key = some v := by
  unfold CfgState.find?
  unfold keyOf at h
  rw [h]
  simp only [join_plain hv]

theorem get_of {σ : CfgState} {key : String} {v : Str} (hv : Plain v) (h : σ.options.lookup (keyOf key) = some [v]) :
    σ.get key = .ok (some v) := by
  unfold CfgState.get interpolated
  rw [find_of hv h]
  simp [hv.2.1, Except.map]

theorem lookup_skip {k k' : Str × Str} {v : List Str} {os : List ((Str × Str) × List Str)} (h : (k == k') = false) :
    ((k', v) :: os).lookup k = os.lookup k := by
  rw [List.lookup_cons, h]

theorem lookup_here {k : Str × Str} {v : List Str} {os : List ((Str × Str) × List Str)} :
    ((k, v) :: os).lookup k = some v := by
  rw [List.lookup_cons, beq_self_eq_true]

/-- The options of the section. -/
def sixOptions (v1 v2 v3 v4 v5 v6 : Str) : List ((Str × Str) × List Str) :=
  [(keyOf "parentdir_prefix", [v6]), (keyOf "tag_prefix", [v5]), (keyOf "versionfile_build", [v4]),
    (keyOf "versionfile_source", [v3]), (keyOf "style", [v2]), (keyOf "vcs", [v1])]

theorem six_keys {v1 v2 v3 v4 v5 v6 : Str} : ∀ k ∈ (sixOptions v1 v2 v3 v4 v5 v6).map (·.1), k.1 = "versioneer".toList := by
  have : ∀ k ∈ [keyOf "parentdir_prefix", keyOf "tag_prefix", keyOf "versionfile_build", keyOf "versionfile_source",
      keyOf "style", keyOf "vcs"], k.1 = "versioneer".toList := by decide
  exact this

/-- What the lines of the section do to the state. -/
theorem section_state {σ : CfgState} {v1 v2 v3 v4 v5 v6 : Str} (hn : "versioneer".toList ∉ σ.sections) (ht : Tidy σ)
    (h1 : Plain v1) (h2 : Plain v2) (h3 : Plain v3) (h4 : Plain v4) (h5 : Plain v5) (h6 : Plain v6) :
    ∃ ρ, cfgLines (linesOf (sectionText v1 v2 v3 v4 v5 v6)) σ = .ok ρ ∧ ρ.bad = σ.bad ∧
      ρ.sections = "versioneer".toList :: σ.sections ∧ ρ.options = sixOptions v1 v2 v3 v4 v5 v6 ++ σ.options := by
  have hno : ∀ k : Str × Str, k.1 = "versioneer".toList → k ∉ σ.options.map (·.1) := by
    intro k hk hm
    exact hn (hk ▸ ht.2.1 k hm)
  rw [section_lines h1 h2 h3 h4 h5 h6]
  simp only [cfgLines]
  rw [cfgLine_header σ hn]
  have step : ∀ {ρ : CfgState} {n v : Str}, NameOk n → Plain v → ρ.current = some "versioneer".toList →
      ("versioneer".toList, n.map Char.toLower) ∉ ρ.options.map (·.1) →
      ∃ ρ', cfgLine ρ (n ++ " = ".toList ++ v) = .ok ρ' ∧ ρ'.current = some "versioneer".toList ∧
        ρ'.sections = ρ.sections ∧ ρ'.bad = ρ.bad ∧
        ρ'.options = (("versioneer".toList, n.map Char.toLower), [v]) :: ρ.options :=
    fun hn hv hc hk => ⟨_, cfgLine_option hn hv hc hk, hc, rfl, rfl, rfl⟩
  obtain ⟨ρ1, e1, c1, s1, b1, o1⟩ := step (ρ := entered σ) nameOk_vcs h1 rfl (hno _ rfl)
  obtain ⟨ρ2, e2, c2, s2, b2, o2⟩ := step (ρ := ρ1) nameOk_style h2 c1 (by
    rw [o1]
    simp only [List.map_cons, List.mem_cons, not_or]
    exact ⟨by decide, hno _ rfl⟩)
  obtain ⟨ρ3, e3, c3, s3, b3, o3⟩ := step (ρ := ρ2) nameOk_source h3 c2 (by
    rw [o2, o1]
    simp only [List.map_cons, List.mem_cons, not_or]
    exact ⟨by decide, by decide, hno _ rfl⟩)
  obtain ⟨ρ4, e4, c4, s4, b4, o4⟩ := step (ρ := ρ3) nameOk_build h4 c3 (by
    rw [o3, o2, o1]
    simp only [List.map_cons, List.mem_cons, not_or]
    exact ⟨by decide, by decide, by decide, hno _ rfl⟩)
  obtain ⟨ρ5, e5, c5, s5, b5, o5⟩ := step (ρ := ρ4) nameOk_tag h5 c4 (by
    rw [o4, o3, o2, o1]
    simp only [List.map_cons, List.mem_cons, not_or]
    exact ⟨by decide, by decide, by decide, by decide, hno _ rfl⟩)
  obtain ⟨ρ6, e6, c6, s6, b6, o6⟩ := step (ρ := ρ5) nameOk_parentdir h6 c5 (by
    rw [o5, o4, o3, o2, o1]
    simp only [List.map_cons, List.mem_cons, not_or]
    exact ⟨by decide, by decide, by decide, by decide, by decide, hno _ rfl⟩)
  refine ⟨ρ6, ?_, ?_, ?_, ?_⟩
  · simp only [e1, e2, e3, e4, e5, e6]
  · rw [b6, b5, b4, b3, b2, b1]
    rfl
  · rw [s6, s5, s4, s3, s2, s1]
    rfl
  · rw [o6, o5, o4, o3, o2, o1]
    rfl

/-- Options of other sections than `versioneer` and `DEFAULT`. -/
def Foreign (os : List ((Str × Str) × List Str)) : Prop :=
  ∀ k ∈ os.map (·.1), k.1 ≠ "versioneer".toList ∧ k.1 ≠ "DEFAULT".toList

theorem foreign_of {σ : CfgState} (hn : "versioneer".toList ∉ σ.sections) (ht : Tidy σ) : Foreign σ.options :=
  fun k hk => ⟨fun h => hn (h ▸ ht.2.1 k hk), fun h => ht.2.2 (h ▸ ht.2.1 k hk)⟩

/-- What is read from the section among others. -/
theorem read_six {text v1 v2 v3 v4 v5 v6 tag : Str} {ρ : CfgState} {P Q : List ((Str × Str) × List Str)}
    (hρ : parseCfg text = .ok ρ) (hs : "versioneer".toList ∈ ρ.sections)
    (ho : ρ.options = P ++ (sixOptions v1 v2 v3 v4 v5 v6 ++ Q)) (hP : Foreign P) (hQ : Foreign Q)
    (h1 : Plain v1) (h2 : Plain v2) (h3 : Plain v3) (h4 : Plain v4) (h5 : Plain v5) (h6 : Plain v6) (ht : Means v5 tag) :
    readConfig (some text) =
      .ok { vcs := v1, style := v2, source := some v3, build := some v4, tagPrefix := some tag, parentdirPrefix := some v6,
            verbose := none } := by
  have hv : ∀ key, ρ.options.lookup (keyOf key) = (sixOptions v1 v2 v3 v4 v5 v6 ++ Q).lookup (keyOf key) := by
    intro key
    rw [ho, List.lookup_append, lookup_none (os := P) fun hm => (hP _ hm).1 rfl]
    rfl
  have l6 : ρ.options.lookup (keyOf "parentdir_prefix") = some [v6] := by rw [hv]; exact lookup_here
  have l5 : ρ.options.lookup (keyOf "tag_prefix") = some [v5] := by
    rw [hv]; exact (lookup_skip (by decide)).trans lookup_here
  have l4 : ρ.options.lookup (keyOf "versionfile_build") = some [v4] := by
    rw [hv]; exact (lookup_skip (by decide)).trans ((lookup_skip (by decide)).trans lookup_here)
  have l3 : ρ.options.lookup (keyOf "versionfile_source") = some [v3] := by
    rw [hv]
    exact (lookup_skip (by decide)).trans ((lookup_skip (by decide)).trans ((lookup_skip (by decide)).trans lookup_here))
  have l2 : ρ.options.lookup (keyOf "style") = some [v2] := by
    rw [hv]
    exact (lookup_skip (by decide)).trans ((lookup_skip (by decide)).trans ((lookup_skip (by decide)).trans
      ((lookup_skip (by decide)).trans lookup_here)))
  have l1 : ρ.options.lookup (keyOf "vcs") = some [v1] := by
    rw [hv]
    exact (lookup_skip (by decide)).trans ((lookup_skip (by decide)).trans ((lookup_skip (by decide)).trans
      ((lookup_skip (by decide)).trans ((lookup_skip (by decide)).trans lookup_here))))
  have six : ∀ k : Str × Str, (k == keyOf "parentdir_prefix") = false → (k == keyOf "tag_prefix") = false →
      (k == keyOf "versionfile_build") = false → (k == keyOf "versionfile_source") = false → (k == keyOf "style") = false →
      (k == keyOf "vcs") = false → (sixOptions v1 v2 v3 v4 v5 v6 ++ Q).lookup k = Q.lookup k :=
    fun k a b c d e f => (lookup_skip a).trans ((lookup_skip b).trans ((lookup_skip c).trans ((lookup_skip d).trans
      ((lookup_skip e).trans (lookup_skip f)))))
  have l0 : ρ.get "verbose" = .ok none := by
    have hnone : ρ.find? "verbose" = none := by
      have a : ρ.options.lookup ("versioneer".toList, "verbose".toList) = none := by
        rw [show ("versioneer".toList, "verbose".toList) = keyOf "verbose" from rfl, hv,
          six _ (by decide) (by decide) (by decide) (by decide) (by decide) (by decide)]
        exact lookup_none fun hm => (hQ _ hm).1 rfl
      have b : ρ.options.lookup ("DEFAULT".toList, "verbose".toList) = none := by
        rw [ho, List.lookup_append, lookup_none (os := P) fun hm => (hP _ hm).2 rfl,
          six _ (by decide) (by decide) (by decide) (by decide) (by decide) (by decide),
          lookup_none (os := Q) fun hm => (hQ _ hm).2 rfl]
        rfl
      unfold CfgState.find?
      rw [a, b]
    unfold CfgState.get
    rw [hnone]
  unfold readConfig
  simp only [hρ, hs, find_of h1 l1, get_of h2 l2, get_of h3 l3, get_of h4 l4, get_of h5 l5, get_of h6 l6, l0, interpolated,
    h1.2.1, not_true_eq_false, if_false, bind, Except.bind, pure, Except.pure, Option.getD_some]
  congr 2
  cases ht with
  | single => decide
  | double => decide
  | plain ha hb => rw [if_neg (by simpa using ⟨ha, hb⟩)]

/-! ### A section in the middle of a file -/

/-- The state `σ'` is the state `σ` with other sections `S` and their options `O` read before, after `B` and `Q`. -/
structure Beside (B S : List Str) (Q O : List ((Str × Str) × List Str)) (σ σ' : CfgState) : Prop where
  sections : ∃ A, σ.sections = A ++ B ∧ σ'.sections = A ++ (S ++ B)
  options : ∃ P, σ.options = P ++ Q ∧ σ'.options = P ++ (O ++ Q) ∧ (σ.opened = true → P ≠ [])
  current : σ'.current = σ.current
  opened : σ'.opened = σ.opened
  indent : σ'.indent = σ.indent
  bad : σ'.bad = σ.bad

theorem beside_continued {B S Q O} {σ σ' : CfgState} (h : Beside B S Q O σ σ') (l : Str) :
    Beside B S Q O (σ.continued l) (σ'.continued l) := by
  obtain ⟨⟨A, s1, s2⟩, ⟨P, o1, o2, n1⟩, c1, p1, i1, b1⟩ := h
  obtain ⟨ss, os, cu, op, ind, bd⟩ := σ
  obtain ⟨ss', os', cu', op', ind', bd'⟩ := σ'
  simp only at s1 s2 o1 o2 c1 p1 i1 b1 n1
  subst s1 s2 o1 o2 c1 p1 i1 b1
  cases op' with
  | false => exact ⟨⟨A, rfl, rfl⟩, ⟨P, rfl, rfl, by simp [CfgState.continued]⟩, rfl, rfl, rfl, rfl⟩
  | true =>
    cases P with
    | nil => exact absurd rfl (n1 rfl)
    | cons o P => exact ⟨⟨A, rfl, rfl⟩, ⟨(o.1, o.2 ++ [l]) :: P, rfl, rfl, by simp⟩, rfl, rfl, rfl, rfl⟩

theorem beside_line {B S Q O} {σ σ' τ : CfgState} {l : Str} (h : Beside B S Q O σ σ') (ht : Tidy σ)
    (hO : ∀ k ∈ O.map (·.1), k.1 ∈ S) (hl : sectionName (Version.strip l) ≠ some "DEFAULT".toList)
    (he : cfgLine σ l = .ok τ) (hS : ∀ s ∈ τ.sections, s ∉ S) : ∃ τ', cfgLine σ' l = .ok τ' ∧ Beside B S Q O τ τ' := by
  have hcont := beside_continued h
  unfold cfgLine at he ⊢
  revert he hl
  cases Version.strip l with
  | nil => rintro - ⟨⟩; exact ⟨_, rfl, hcont _⟩
  | cons c s =>
    intro hl he
    simp only at he ⊢
    split at he
    · rename_i hc
      cases he
      rw [if_pos hc]
      exact ⟨_, rfl, h⟩
    · rename_i hc
      rw [if_neg hc, h.opened, h.indent]
      split at he
      · rename_i ho
        cases he
        rw [if_pos ho]
        exact ⟨_, rfl, hcont _⟩
      · rename_i ho
        rw [if_neg ho]
        split at he
        · rename_i name hname
          split at he
          · cases he
          · rename_i hnot
            split at he
            · rename_i hd
              exact absurd (by rw [hname, hd]) hl
            · rename_i hd
              cases he
              have hnS := hS name List.mem_cons_self
              obtain ⟨A, s1, s2⟩ := h.sections
              obtain ⟨P, o1, o2, -⟩ := h.options
              have hn' : name ∉ σ'.sections := by
                rw [s2]
                rw [s1] at hnot
                simp only [List.mem_append, not_or] at hnot ⊢
                exact ⟨hnot.1, hnS, hnot.2⟩
              rw [if_neg hn', if_neg hd]
              exact ⟨_, rfl, ⟨name :: A, by rw [s1]; rfl, by rw [s2]; rfl⟩, ⟨P, o1, o2, by simp⟩, rfl, rfl, rfl, h.bad⟩
        · rename_i hname
          simp only [h.current]
          split at he
          · cases he
          · cases he
            rename_i h1 h2
            simp only [h1]
            exact ⟨_, rfl, h.sections, h.options, by simp, rfl, rfl, rfl⟩
          · rename_i sect key val hcur hopt
            simp only [hcur]
            split at he
            · cases he
            · rename_i hk
              cases he
              have hsS : sect ∉ S := hS sect (ht.1 sect hcur)
              obtain ⟨P, o1, o2, -⟩ := h.options
              have hk' : (sect, key) ∉ σ'.options.map (·.1) := by
                rw [o2]
                rw [o1] at hk
                simp only [List.map_append, List.mem_append, not_or] at hk ⊢
                exact ⟨hk.1, fun hm => hsS (hO _ hm), hk.2⟩
              rw [if_neg hk']
              exact ⟨_, rfl, h.sections, ⟨_ :: P, by rw [o1]; rfl, by rw [o2]; rfl, by simp⟩, by simp [hcur], rfl, rfl,
                by simp [h.bad]⟩

theorem cfgLine_sections {σ τ : CfgState} {l : Str} (he : cfgLine σ l = .ok τ) : ∀ s ∈ σ.sections, s ∈ τ.sections := by
  intro s hs
  have hc := fun x => (continued_keys σ x).2.1
  unfold cfgLine at he
  simp only at he
  repeat' split at he
  all_goals first
    | (cases he; done)
    | (cases he; first | exact hs | (rw [hc]; exact hs) | exact List.mem_cons_of_mem _ hs)

theorem cfgLines_sections {ls : List Str} {σ τ : CfgState} (he : cfgLines ls σ = .ok τ) :
    ∀ s ∈ σ.sections, s ∈ τ.sections := by
  induction ls generalizing σ with
  | nil => cases he; exact fun _ h => h
  | cons l ls ih =>
    unfold cfgLines at he
    cases hs : cfgLine σ l with
    | error e => rw [hs] at he; cases he
    | ok ρ =>
      rw [hs] at he
      exact fun s h => ih he s (cfgLine_sections hs s h)

theorem beside_lines {B S Q O} {ls : List Str} {σ σ' τ : CfgState} (h : Beside B S Q O σ σ') (ht : Tidy σ)
    (hO : ∀ k ∈ O.map (·.1), k.1 ∈ S) (hl : ∀ l ∈ ls, sectionName (Version.strip l) ≠ some "DEFAULT".toList)
    (he : cfgLines ls σ = .ok τ) (hS : ∀ s ∈ τ.sections, s ∉ S) :
    ∃ τ', cfgLines ls σ' = .ok τ' ∧ Beside B S Q O τ τ' := by
  induction ls generalizing σ σ' with
  | nil => cases he; exact ⟨_, rfl, h⟩
  | cons l ls ih =>
    unfold cfgLines at he ⊢
    cases hs : cfgLine σ l with
    | error e => rw [hs] at he; cases he
    | ok ρ =>
      rw [hs] at he
      have hsec := cfgLines_sections he
      obtain ⟨ρ', hρ, hb⟩ := beside_line h ht hO (hl l List.mem_cons_self) hs fun s h => hS s (hsec s h)
      rw [hρ]
      exact ih hb (tidy_line ht (hl l List.mem_cons_self) hs) (fun x hx => hl x (List.mem_cons_of_mem _ hx)) he

/-- C101: a section in the layout of the documentation, appended to a file that can be read, without section `versioneer`
and without `[DEFAULT]`, is read as its values; two quotation marks are read as the empty prefix of tags. -/
theorem c101_read {before v1 v2 v3 v4 v5 v6 tag : Str} (hb : readConfig (some before) = .error .noSection)
    (hd : ¬ Occurs "[DEFAULT]" before) (h1 : Plain v1) (h2 : Plain v2) (h3 : Plain v3) (h4 : Plain v4) (h5 : Plain v5)
    (h6 : Plain v6) (ht : Means v5 tag) :
    readConfig (some (before ++ '\n' :: sectionText v1 v2 v3 v4 v5 v6)) =
      .ok { vcs := v1, style := v2, source := some v3, build := some v4, tagPrefix := some tag, parentdirPrefix := some v6,
            verbose := none } := by
  obtain ⟨σ, hp, hn⟩ := append_cases (.inr hb)
  simp only [Option.getD_some] at hp
  have htidy := tidy_of hd hp
  obtain ⟨ρ, hc, hbad, hs, ho⟩ := section_state hn htidy h1 h2 h3 h4 h5 h6
  refine read_six (ρ := ρ) (P := []) ?_ (by rw [hs]; exact List.mem_cons_self) ho (by intro k hk; cases hk)
    (foreign_of hn htidy) h1 h2 h3 h4 h5 h6 ht
  unfold parseCfg at hp ⊢
  rw [linesOf_append, cfgLines_append]
  cases hl : cfgLines (linesOf before) {} with
  | error e => rw [hl] at hp; cases hp
  | ok τ =>
    rw [hl] at hp
    have : τ.bad = false ∧ τ = σ := by
      simp only at hp
      cases hb : τ.bad <;> simp_all
    obtain ⟨hb, rfl⟩ := this
    simp only [hc]
    rw [hbad, hb]
    rfl

/-- C101: of a section with nothing but the kind of version control, appended to such a file, the style is read as empty
and the rest as `None`. -/
theorem c101_only_vcs {before v : Str} (hb : readConfig (some before) = .error .noSection)
    (hd : ¬ Occurs "[DEFAULT]" before) (hv : Plain v) :
    readConfig (some (before ++ '\n' :: ("[versioneer]\nVCS = ".toList ++ v))) =
      .ok { vcs := v, style := [], source := none, build := none, tagPrefix := none, parentdirPrefix := none,
            verbose := none } := by
  obtain ⟨σ, hp, hn⟩ := append_cases (.inr hb)
  simp only [Option.getD_some] at hp
  have htidy := tidy_of hd hp
  have hf := foreign_of hn htidy
  have el : linesOf ("[versioneer]\nVCS = ".toList ++ v) = ["[versioneer]".toList, "VCS".toList ++ " = ".toList ++ v] := by
    have e : "[versioneer]\nVCS = ".toList ++ v = "[versioneer]".toList ++ '\n' :: ("VCS = ".toList ++ v) := by
      have : "[versioneer]\nVCS = ".toList = "[versioneer]".toList ++ '\n' :: "VCS = ".toList := by decide
      rw [this]
      simp only [List.append_assoc, List.cons_append]
    rw [e, linesOf_append, linesOf_one (by decide), linesOf_one (a := "VCS = ".toList ++ v)]
    · rfl
    · intro hm
      rcases List.mem_append.1 hm with hm | hm
      · exact absurd hm (by decide)
      · exact hv.1 hm
  have hρ : ∃ ρ, parseCfg (before ++ '\n' :: ("[versioneer]\nVCS = ".toList ++ v)) = .ok ρ ∧
      "versioneer".toList ∈ ρ.sections ∧ ρ.options = (keyOf "vcs", [v]) :: σ.options := by
    unfold parseCfg at hp ⊢
    rw [linesOf_append, el, cfgLines_append]
    cases hl : cfgLines (linesOf before) {} with
    | error e => rw [hl] at hp; cases hp
    | ok τ =>
      rw [hl] at hp
      have : τ.bad = false ∧ τ = σ := by
        simp only at hp
        cases hb : τ.bad <;> simp_all
      obtain ⟨hbad, rfl⟩ := this
      have e := cfgLine_option (σ := entered τ) (sect := "versioneer".toList) nameOk_vcs hv rfl
        (fun hm => (hf _ hm).1 rfl)
      simp only [cfgLines, cfgLine_header τ hn, e]
      have : (entered τ).bad = false := hbad
      rw [this]
      exact ⟨_, rfl, List.mem_cons_self, rfl⟩
  obtain ⟨ρ, hρ, hs, ho⟩ := hρ
  have hnone : ∀ key, (keyOf key == keyOf "vcs") = false → (("DEFAULT".toList, key.toList) == keyOf "vcs") = false →
      ρ.get key = .ok none := by
    intro key h1 h2
    have a : ρ.options.lookup ("versioneer".toList, key.toList) = none := by
      rw [ho]
      exact (lookup_skip h1).trans (lookup_none fun hm => (hf _ hm).1 rfl)
    have b : ρ.options.lookup ("DEFAULT".toList, key.toList) = none := by
      rw [ho]
      exact (lookup_skip h2).trans (lookup_none fun hm => (hf _ hm).2 rfl)
    unfold CfgState.get CfgState.find?
    rw [a, b]
  have hvcs : ρ.find? "vcs" = some v := find_of hv (by rw [ho]; exact lookup_here)
  unfold readConfig
  simp only [hρ, hs, hvcs, hnone "style" (by decide) (by decide), hnone "versionfile_source" (by decide) (by decide),
    hnone "versionfile_build" (by decide) (by decide), hnone "tag_prefix" (by decide) (by decide),
    hnone "parentdir_prefix" (by decide) (by decide), hnone "verbose" (by decide) (by decide), interpolated, hv.2.1,
    not_true_eq_false, if_false, bind, Except.bind, pure, Except.pure, Option.getD_none]
  rfl

theorem sectionName_header {name : Str} (hne : name ≠ []) (hname : ']' ∉ name) (x : Str) :
    sectionName ('[' :: (name ++ ']' :: x)) = some name := by
  have e : (name ++ ']' :: x).takeWhile (fun c => decide (c ≠ ']')) = name := by
    rw [List.takeWhile_append_of_pos (fun c hc => by
      simp only [ne_eq, decide_not, Bool.not_eq_eq_eq_not, Bool.not_true, decide_eq_false_iff_not]
      exact fun h => hname (h ▸ hc)), List.takeWhile_cons, if_neg (by decide), List.append_nil]
  unfold sectionName
  simp only [e]
  rw [if_neg]
  rintro (h | h)
  · exact hne h
  · have := congrArg List.length h
    simp only [List.length_append, List.length_cons] at this
    omega

/-- What a header at the start of a line does to a state. -/
theorem cfgLine_name {σ τ : CfgState} {name x : Str} (hne : name ≠ []) (hname : ']' ∉ name)
    (hdef : name ≠ "DEFAULT".toList) (he : cfgLine σ ('[' :: (name ++ ']' :: x)) = .ok τ) :
    name ∉ σ.sections ∧ τ = { σ with sections := name :: σ.sections, current := some name, opened := false, indent := 0 } ∧
      ∀ σ' : CfgState, name ∉ σ'.sections → cfgLine σ' ('[' :: (name ++ ']' :: x)) =
        .ok { σ' with sections := name :: σ'.sections, current := some name, opened := false, indent := 0 } := by
  have es : ∃ y, Version.strip ('[' :: (name ++ ']' :: x)) = '[' :: (name ++ ']' :: y) := by
    obtain ⟨a, z, e, ha, hz⟩ := strip_split ('[' :: (name ++ ']' :: x))
    cases a with
    | cons c a =>
      rw [List.cons_append, List.cons_append, List.cons.injEq] at e
      have := ha c List.mem_cons_self
      rw [← e.1] at this
      exact absurd this (by decide)
    | nil =>
      rw [List.nil_append] at e
      -- the bracket is not among the white space at the end
      have key : ∀ (p s z y : Str), p ++ ']' :: y = s ++ z → (∀ c ∈ z, isSpace c = true) → ∃ w, s = p ++ ']' :: w := by
        intro p
        induction p with
        | nil =>
          intro s z y h hz
          cases s with
          | nil =>
            rw [List.nil_append, List.nil_append] at h
            exact absurd (hz ']' (by rw [← h]; exact List.mem_cons_self)) (by decide)
          | cons c s =>
            rw [List.nil_append, List.cons_append, List.cons.injEq] at h
            exact ⟨s, by rw [← h.1]; rfl⟩
        | cons d p ih =>
          intro s z y h hz
          cases s with
          | nil =>
            rw [List.nil_append] at h
            exact absurd (hz ']' (by rw [← h]; simp)) (by decide)
          | cons c s =>
            rw [List.cons_append, List.cons_append, List.cons.injEq] at h
            obtain ⟨w, hw⟩ := ih s z y h.2 hz
            exact ⟨w, by rw [hw, ← h.1]; rfl⟩
      exact key ('[' :: name) _ z x e hz
  obtain ⟨y, es⟩ := es
  have ei : (('[' :: (name ++ ']' :: x)).takeWhile isSpace).length = 0 := by
    rw [List.takeWhile_cons, if_neg (by decide)]
    rfl
  have step : ∀ ρ : CfgState, cfgLine ρ ('[' :: (name ++ ']' :: x)) = if name ∈ ρ.sections then .error .parsing else
      .ok { ρ with sections := name :: ρ.sections, current := some name, opened := false, indent := 0 } := by
    intro ρ
    unfold cfgLine
    simp only [es, ei, sectionName_header hne hname, Nat.not_lt_zero, and_false, if_false]
    rw [if_neg (by decide), if_neg hdef]
  rw [step] at he
  split at he
  · cases he
  · rename_i hm
    cases he
    refine ⟨hm, rfl, fun σ' h' => ?_⟩
    rw [step, if_neg h']

/-- C101: the same within a file.  What comes after the section begins with the header of another one, and the file
without the section can be read and has no `[DEFAULT]`. -/
theorem c101_within {before name rest v1 v2 v3 v4 v5 v6 tag : Str} (hne : name ≠ []) (hname : ']' ∉ name)
    (hline : '\n' ∉ name) (hb : readConfig (some (before ++ '\n' :: '[' :: (name ++ ']' :: rest))) = .error .noSection)
    (hd : ¬ Occurs "[DEFAULT]" (before ++ '\n' :: '[' :: (name ++ ']' :: rest))) (h1 : Plain v1) (h2 : Plain v2)
    (h3 : Plain v3) (h4 : Plain v4) (h5 : Plain v5) (h6 : Plain v6) (ht : Means v5 tag) :
    readConfig (some (before ++ '\n' :: (sectionText v1 v2 v3 v4 v5 v6 ++ '\n' :: '[' :: (name ++ ']' :: rest)))) =
      .ok { vcs := v1, style := v2, source := some v3, build := some v4, tagPrefix := some tag, parentdirPrefix := some v6,
            verbose := none } := by
  obtain ⟨τ, hp, hn⟩ := append_cases (.inr hb)
  simp only [Option.getD_some] at hp
  have htidy := tidy_of hd hp
  have hnodef : ∀ l ∈ linesOf (before ++ '\n' :: '[' :: (name ++ ']' :: rest)),
      sectionName (Version.strip l) ≠ some "DEFAULT".toList := fun l hl hs => hd (default_occurs hl hs)
  have hdef : name ≠ "DEFAULT".toList := by
    rintro rfl
    refine hd ⟨before ++ ['\n'], rest, ?_⟩
    have : "[DEFAULT]".toList = '[' :: ("DEFAULT".toList ++ [']']) := by decide
    rw [this]
    simp only [List.append_assoc, List.cons_append, List.nil_append]
  obtain ⟨x, ls, el⟩ : ∃ x ls, linesOf ('[' :: (name ++ ']' :: rest)) = ('[' :: (name ++ ']' :: x)) :: ls := by
    obtain ⟨x, ls, e⟩ := linesOf_start (p := '[' :: (name ++ [']'])) (by simpa using hline) rest
    refine ⟨x, ls, ?_⟩
    simpa using e
  rw [linesOf_append, el] at hnodef
  unfold parseCfg at hp
  rw [linesOf_append, el, cfgLines_append] at hp
  cases hl : cfgLines (linesOf before) {} with
  | error e => rw [hl] at hp; cases hp
  | ok σ =>
    rw [hl] at hp
    simp only [cfgLines] at hp
    have tσ : Tidy σ := tidy_lines tidy_start
      (fun l hl => hnodef l (List.mem_append_left _ hl)) hl
    cases hh : cfgLine σ ('[' :: (name ++ ']' :: x)) with
    | error e => rw [hh] at hp; cases hp
    | ok σ1 =>
      rw [hh] at hp
      simp only at hp
      obtain ⟨hm, eσ, hstep⟩ := cfgLine_name hne hname hdef hh
      have tσ1 : Tidy σ1 := tidy_line tσ (hnodef _ (by simp)) hh
      cases hr : cfgLines ls σ1 with
      | error e => rw [hr] at hp; cases hp
      | ok τ' =>
        rw [hr] at hp
        have : τ'.bad = false ∧ τ' = τ := by
          simp only at hp
          cases hb : τ'.bad <;> simp_all
        obtain ⟨hbad, rfl⟩ := this
        have hsub := cfgLines_sections hr
        have hnσ1 : "versioneer".toList ∉ σ1.sections := fun h => hn (hsub _ h)
        have hnσ : "versioneer".toList ∉ σ.sections := by
          intro h
          apply hnσ1
          rw [eσ]
          exact List.mem_cons_of_mem _ h
        obtain ⟨ρ, hc, hbρ, hsρ, hoρ⟩ := section_state hnσ tσ h1 h2 h3 h4 h5 h6
        have hmρ : name ∉ ρ.sections := by
          rw [hsρ]
          intro h
          rcases List.mem_cons.1 h with h | h
          · apply hnσ1
            rw [eσ, ← h]
            exact List.mem_cons_self
          · exact hm h
        have hbeside : Beside σ.sections ["versioneer".toList] σ.options (sixOptions v1 v2 v3 v4 v5 v6) σ1
            { ρ with sections := name :: ρ.sections, current := some name, opened := false, indent := 0 } := by
          rw [eσ]
          exact ⟨⟨[name], rfl, by rw [hsρ]; rfl⟩, ⟨[], rfl, hoρ, by simp⟩, rfl, rfl, rfl, hbρ⟩
        obtain ⟨τ', hτ, hB⟩ := beside_lines hbeside tσ1 (by
            intro k hk
            rw [six_keys k hk]
            exact List.mem_cons_self)
          (fun l hl => hnodef l (List.mem_append_right _ (List.mem_cons_of_mem _ hl))) hr (by
            intro s hs h
            rw [List.mem_singleton] at h
            exact hn (h ▸ hs))
        obtain ⟨P, o1, o2, -⟩ := hB.options
        obtain ⟨A, s1, s2⟩ := hB.sections
        have hf := foreign_of hn htidy
        rw [o1] at hf
        refine read_six (ρ := τ') (P := P) (Q := σ.options) ?_ (by rw [s2]; simp) o2
          (fun k hk => hf k (by rw [List.map_append]; exact List.mem_append_left _ hk))
          (fun k hk => hf k (by rw [List.map_append]; exact List.mem_append_right _ hk)) h1 h2 h3 h4 h5 h6 ht
        unfold parseCfg
        rw [linesOf_append, linesOf_append, el, cfgLines_append, hl]
        simp only
        rw [cfgLines_append, hc]
        simp only [cfgLines, hstep ρ hmρ, hτ]
        rw [hB.bad, hbad]
        rfl

/-! ### Cases that meet the hypotheses -/

/-- `setup.cfg` of this repository. -/
def repoSetupCfg : Str :=
  "[metadata]\ndescription-file = README.md\nlicense_file = LICENSE\n\n[tool:pytest]\n".toList ++
  "addopts = -v --durations=15\n\n# See the docstring in versioneer.py for instructions. Note that you must\n".toList ++
  "# re-run 'versioneer.py setup' after changing this section, and commit the\n# resulting files.\n".toList ++
  "[versioneer]\nVCS = git\nstyle = pep440\nversionfile_source = trading_calendars/_version.py\n".toList ++
  "versionfile_build = trading_calendars/_version.py\ntag_prefix = \"\"\n".toList ++
  "parentdir_prefix = trading_calendars-\n\n[flake8]\nexclude =\n    .git,\n    __pycache__,\n    versioneer.py\n".toList

/-- C101 for the file of this repository: the settings that the other models of versioneer use. -/
theorem c101_repo : readConfig (some repoSetupCfg) = .ok
    { vcs := "git".toList, style := style.toList, source := some versionfileSource.toList,
      build := some versionfileSource.toList, tagPrefix := some tagPrefix, parentdirPrefix := some parentdirPrefix,
      verbose := none } := by decide +kernel

/-- A file with two other sections, and no final line feed. -/
example : readConfig (some "[metadata]\nlicense_file = LICENSE\n[flake8]\nexclude =\n  .git".toList) = .error .noSection ∧
    ¬ Occurs "[DEFAULT]" "[metadata]\nlicense_file = LICENSE\n[flake8]\nexclude =\n  .git".toList ∧
    readConfig (some ("[metadata]\nlicense_file = LICENSE".toList ++ '\n' :: '[' :: ("flake8".toList ++ ']' ::
      "\nexclude =\n  .git".toList))) = .error .noSection ∧
    Plain "git".toList ∧ Plain "\"\"".toList ∧ Means "\"\"".toList [] := by
  refine ⟨by decide +kernel, ?_, by decide +kernel, ?_, ?_, .double⟩
  · intro h
    have := (occurs_lines (p := "[DEFAULT]".toList) (by decide) _).2 h
    revert this
    decide +kernel
  · exact ⟨by decide, by decide, fun c h => by cases h; decide, fun c h => by cases h; decide⟩
  · exact ⟨by decide, by decide, fun c h => by cases h; decide, fun c h => by cases h; decide⟩

/-- The first run on such a file changes it, and on no file at all; with Mercurial in the section, the settings can be
read. -/
example (long : VConfig → Str) (p : Project) :
    (doSetupRoot long ⟨some "[metadata]\nlicense_file = LICENSE".toList, p⟩).1.setupCfg ≠
      some "[metadata]\nlicense_file = LICENSE".toList ∧
    (doSetupRoot long ⟨none, p⟩).1.setupCfg ≠ none ∧
    (readConfig (some "[versioneer]\nVCS = hg\nversionfile_source = a/_version.py\n".toList)).toOption.map
      (fun c => (c.vcs, c.source)) = some ("hg".toList, some "a/_version.py".toList) := by
  have h : readConfig (some "[metadata]\nlicense_file = LICENSE".toList) = .error .noSection := by decide +kernel
  refine ⟨?_, ?_, by decide +kernel⟩
  · unfold doSetupRoot
    simp only [h]
    decide +kernel
  · unfold doSetupRoot
    simp [readConfig]

end TC.Props
