import Verif.Lemmas.Versioneer

/-!
# C95: the version that `setup.py` finds, writes and the package reads
-/

namespace TC.Props
open Spec Versioneer
open TC.Version (Info Git World Keywords strip versionsFromKeywords gitPieces render getVersions versionsFromParentdir parentLoop)
open TC.Tcal (Str isSpace isSpace_iff)

set_option maxRecDepth 100000

/-- **C95.**  What `setup.py` writes into a distribution, it reads back, whatever characters it has. -/
theorem c95_file (i : Info) : versionsFromFile (some (shortFile i)) = .ok i := by
  have e : shortFile i = shortHead ++ '\n' :: (dumps (dictOf i) ++ ['\n'] ++ shortTail) := by
    simp [shortFile]
  unfold versionsFromFile searchJson
  simp only [e, head_search]
  rw [beforeLast_append (by decide +kernel)]
  have h : loads (dumpsWith escapeChar (dictOf i) ++ ['\n']) = some (dictOf i) :=
    loads_of (by simp [dictOf]) (back_escape i)
  simp only [dumps, h, Option.bind_some, infoOf_dictOf]

/-- A version with a quotation mark, an apostrophe, a letter outside ASCII and a character beyond 65536. -/
example : versionsFromFile (some (shortFile
    { version := "1\"'é😀".toList, fullRevision := some "0dec0de".toList, dirty := some true, error := none, date := none })) =
    .ok { version := "1\"'é😀".toList, fullRevision := some "0dec0de".toList, dirty := some true, error := none, date := none } :=
  c95_file _

/-! ### Trees with a written file -/

/-- **C95.**  In a distribution, `setup.py` finds the versions that were written into it, whatever git says there (a
repository around the unpacked distribution, say), wherever the distribution lies. -/
theorem c95_tree {i : Info} {t : Tree} (h : t.versionFile = some (shortFile i)) : setupVersions t = .ok i := by
  unfold setupVersions
  rw [h, getKeywords_shortFile, c95_file]
  rfl

/-- The version of a release. -/
def demoInfo : Info :=
  { version := "1.2".toList, fullRevision := none, dirty := some false, error := none, date := none }

/-- A distribution of it, unpacked in the repository of `demoGit`, which has another version. -/
def demoTree : Tree :=
  ⟨fun _ => none, some (shortFile demoInfo), "/home/user/trading_calendars-7".toList, demoGit⟩

example : setupVersions demoTree = .ok demoInfo := c95_tree rfl

theorem madeFrom_eq {i : Info} {text : Str} (h : MadeFrom i text) : text = shortFile i := by
  induction h with
  | first => rfl
  | again _ hf hs ih =>
    rw [ih] at hf
    rw [c95_tree hf] at hs
    cases hs
    rfl

/-- **C95.**  Distributions and builds made of distributions and builds, any number of times, in any place, have the
versions of the first; a package with plain versions says so when it is imported. -/
theorem c95_made {i : Info} {text : Str} (h : MadeFrom i text) :
    versionsFromFile (some text) = .ok i ∧ (PlainInfo i → importVersions text = some i) := by
  rw [madeFrom_eq h]
  exact ⟨c95_file i, import_shortFile⟩

theorem plain_of {s : Str} (h : ∀ c ∈ s, 32 ≤ c.toNat ∧ c.toNat < 0x10000 ∧ c ≠ '"' ∧ c ≠ '\\' ∧ c ≠ '\'') : Plain s where
  chars := fun c hc => ⟨(h c hc).1, (h c hc).2.1, (h c hc).2.2.1, (h c hc).2.2.2.1⟩
  apostrophes := by
    rintro a b rfl
    exact (h '\'' (by simp)).2.2.2.2 rfl

theorem demoInfo_plain : PlainInfo demoInfo := by
  refine ⟨plain_of (by decide), ?_, ?_, ?_⟩ <;> intro s hs <;> cases hs

/-- Built from a distribution. -/
example : ∃ text, MadeFrom demoInfo text ∧ importVersions text = some demoInfo :=
  have h : MadeFrom demoInfo (shortFile demoInfo) := .again .first (t := demoTree) rfl (c95_tree rfl)
  ⟨_, h, (c95_made h).2 demoInfo_plain⟩

/-- A quotation mark in a tag, which git allows: the file has the right version, but the package cannot be imported. -/
theorem c95_quotation_mark : ∃ i : Info, i.version = "1\"0".toList ∧ versionsFromFile (some (shortFile i)) = .ok i ∧
    importVersions (shortFile i) = none :=
  ⟨{ version := "1\"0".toList, fullRevision := none, dirty := some false, error := none, date := none }, rfl, c95_file _,
    by decide +kernel⟩

/-! ### Trees with keywords -/

theorem untilLastQuote_of (s : Str) : untilLastQuote (s ++ ['"']) = some s := by
  induction s with
  | nil => rfl
  | cons c s ih => rw [List.cons_append, untilLastQuote, ih]

theorem searchQuoted_of {a : Str} (h : '=' ∉ a) (s : Str) : searchQuoted (a ++ '=' :: ' ' :: '"' :: (s ++ ['"'])) = some s := by
  induction a with
  | nil =>
    have e : (' ' :: '"' :: (s ++ ['"'])).dropWhile isSpace = '"' :: (s ++ ['"']) :=
      (span_append (p := isSpace) (a := [' ']) (b := '"' :: (s ++ ['"'])) (by decide)
        (by intro c hc; simp only [List.head?_cons, Option.some.injEq] at hc; rw [← hc]; decide)).2
    rw [List.nil_append, searchQuoted, if_pos rfl, e]
    simp only [untilLastQuote_of]
  | cons c a ih =>
    simp only [List.mem_cons, not_or] at h
    rw [List.cons_append, searchQuoted, if_neg (fun e => h.1 e.symm), ih h.2]

/-- The line that assigns to `n`. -/
def lineOf (n s : Str) : Str := [' ', ' ', ' ', ' '] ++ (n ++ [' ', '=', ' ', '"'] ++ s ++ ['"'])

theorem entry_line {n m : String} (hn : '=' ∉ n.toList) (hh : n.toList.head? = some 'g') (hl : 5 ≤ n.toList.length)
    (hm : m = n ∨ 5 ≤ m.toList.length ∧ m.toList.take 5 ≠ n.toList.take 5) (old : Option Str) (s : Str) :
    entryAfter m old (lineOf n.toList s) = if m = n then some s else old := by
  have hstrip : strip (lineOf n.toList s) = n.toList ++ [' ', '=', ' ', '"'] ++ s ++ ['"'] := by
    have := trim_core (p := isSpace) (a := [' ', ' ', ' ', ' ']) (b := [])
      (s := n.toList ++ [' ', '=', ' ', '"'] ++ s ++ ['"']) (by decide) (by simp)
      ⟨'g', by rw [List.append_assoc, List.append_assoc, List.head?_append, hh]; rfl, by decide⟩
      ⟨'"', List.getLast?_concat, by decide⟩
    rw [List.append_nil] at this
    exact this
  have hq : searchQuoted (lineOf n.toList s) = some s := by
    have := searchQuoted_of (a := [' ', ' ', ' ', ' '] ++ n.toList ++ [' ']) (by
      simp only [List.mem_append, not_or]
      exact ⟨⟨by decide, hn⟩, by decide⟩) s
    rw [← this]
    simp [lineOf]
  have hb : " =".toList = [' ', '='] := by decide
  unfold entryAfter
  rw [hstrip, hq, hb]
  by_cases e : m = n
  · subst e
    rw [if_pos rfl, if_pos (List.isPrefixOf_iff_prefix.2 ⟨[' ', '"'] ++ s ++ ['"'], by simp⟩)]
  · obtain ⟨h1, h2⟩ := hm.resolve_left e
    rw [if_neg e, if_neg]
    intro hp
    obtain ⟨u, hu⟩ := List.isPrefixOf_iff_prefix.1 hp
    refine h2 ?_
    have := congrArg (List.take 5) hu
    rw [List.append_assoc, List.append_assoc, List.append_assoc, List.take_append_of_le_length h1,
      List.take_append_of_le_length hl] at this
    exact this

theorem getKeywords_of {k : Keywords} {text : Str} (h : KeywordFile k text) :
    getKeywords (some text) = ⟨some k.refnames, some k.full, some k.date⟩ := by
  obtain ⟨before, after, e, hl⟩ := h.lines
  have l1 : "    git_refnames = \"".toList ++ k.refnames ++ ['"'] = lineOf "git_refnames".toList k.refnames := by
    have : "    git_refnames = \"".toList = [' ', ' ', ' ', ' '] ++ ("git_refnames".toList ++ [' ', '=', ' ', '"']) := by
      decide
    rw [this]; simp [lineOf]
  have l2 : "    git_full = \"".toList ++ k.full ++ ['"'] = lineOf "git_full".toList k.full := by
    have : "    git_full = \"".toList = [' ', ' ', ' ', ' '] ++ ("git_full".toList ++ [' ', '=', ' ', '"']) := by
      decide
    rw [this]; simp [lineOf]
  have l3 : "    git_date = \"".toList ++ k.date ++ ['"'] = lineOf "git_date".toList k.date := by
    have : "    git_date = \"".toList = [' ', ' ', ' ', ' '] ++ ("git_date".toList ++ [' ', '=', ' ', '"']) := by
      decide
    rw [this]; simp [lineOf]
  rw [l1, l2, l3] at e
  have hmem : ∀ n s : Str, '\n' ∉ n → '\n' ∉ s → '\n' ∉ lineOf n s := by
    intro n s hn hs
    simp only [lineOf, List.mem_append, not_or]
    exact ⟨by decide, ⟨⟨hn, by decide⟩, hs⟩, by decide⟩
  have hlines : linesOf text = before ++ [lineOf "git_refnames".toList k.refnames,
      lineOf "git_full".toList k.full, lineOf "git_date".toList k.date] ++ after := by
    rw [e]
    refine linesOf_joined (by simp) fun l hm => ?_
    simp only [List.mem_append, List.mem_cons, List.not_mem_nil, or_false] at hm
    rcases hm with (hm | hm | hm | hm) | hm
    · exact (hl l (by simp [hm])).1
    · rw [hm]; exact hmem _ _ (by decide) h.refnames
    · rw [hm]; exact hmem _ _ (by decide) h.full
    · rw [hm]; exact hmem _ _ (by decide) h.date
    · exact (hl l (by simp [hm])).1
  unfold getKeywords
  simp only
  rw [hlines, List.foldl_append, List.foldl_append,
    fold_idle (ls := before) (fun l hm => idle_of (hl l (by simp [hm])).2),
    fold_idle (ls := after) (fun l hm => idle_of (hl l (by simp [hm])).2)]
  have r := fun (m : String) hm => entry_line (n := "git_refnames") (m := m) (by decide) (by decide) (by decide) hm
  have f := fun (m : String) hm => entry_line (n := "git_full") (m := m) (by decide) (by decide) (by decide) hm
  have d := fun (m : String) hm => entry_line (n := "git_date") (m := m) (by decide) (by decide) (by decide) hm
  have r1 := r "git_refnames" (.inl rfl)
  have r2 := r "git_full" (.inr (by decide))
  have r3 := r "git_date" (.inr (by decide))
  have f1 := f "git_refnames" (.inr (by decide))
  have f2 := f "git_full" (.inl rfl)
  have f3 := f "git_date" (.inr (by decide))
  have d1 := d "git_refnames" (.inr (by decide))
  have d2 := d "git_full" (.inr (by decide))
  have d3 := d "git_date" (.inl rfl)
  simp only [List.foldl_cons, List.foldl_nil, r1, r2, r3, f1, f2, f3, d1, d2, d3, String.reduceEq, if_true, if_false]

theorem noFile_of {k : Keywords} {text : Str} (h : KeywordFile k text) : versionsFromFile (some text) = .error notThisMethod := by
  have find : ∀ (p s r : Str), p ≠ [] → afterFirst p s = some r → ∃ a, s = a ++ p ++ r := by
    intro p s r hp hs
    induction s with
    | nil =>
      simp only [afterFirst, after?] at hs
      split at hs
      · rename_i h'
        have := List.isPrefixOf_iff_prefix.1 h'
        exact absurd (List.prefix_nil.1 this) hp
      · cases hs
    | cons c s ih =>
      unfold afterFirst at hs
      cases ha : after? p (c :: s) with
      | some r' =>
        rw [ha] at hs
        cases hs
        unfold after? at ha
        split at ha
        · rename_i h'
          obtain ⟨u, hu⟩ := List.isPrefixOf_iff_prefix.1 h'
          refine ⟨[], ?_⟩
          rw [← hu, List.drop_left] at ha
          cases ha
          exact hu.symm
        · cases ha
      | none =>
        rw [ha] at hs
        obtain ⟨a, e⟩ := ih hs
        exact ⟨c :: a, by rw [e]; rfl⟩
  have none1 : ∀ p : String, p.toList = "version_json = '''\n".toList ∨ p.toList = "version_json = '''\r\n".toList →
      searchJson p text = none := by
    intro p hp
    unfold searchJson
    cases ha : afterFirst p.toList text with
    | none => rfl
    | some r =>
      exfalso
      obtain ⟨a, e⟩ := find _ _ _ (by rcases hp with e | e <;> rw [e] <;> decide) ha
      rcases hp with e' | e'
      · exact h.noJson a ("\n".toList ++ r) (by rw [e, e']; simp)
      · exact h.noJson a ("\r\n".toList ++ r) (by rw [e, e']; simp)
  unfold versionsFromFile
  simp only [none1 _ (.inl rfl), none1 _ (.inr rfl)]

theorem not_assigns {l : Str} (h : (l.dropWhile isSpace).head? ≠ some 'g') : ¬ Assigns l := by
  rintro ⟨a, b, ha, hl⟩
  have hd : ∀ p : Str, p.head? = some 'g' → l = a ++ p ++ b → (l.dropWhile isSpace).head? = some 'g' := by
    intro p hp e
    have hpb : (p ++ b).head? = some 'g' := by
      cases p with
      | nil => cases hp
      | cons c p => simpa using hp
    rw [e, List.append_assoc, (span_append (p := isSpace) (a := a) (b := p ++ b) (fun c hc => (isSpace_iff c).2 (ha c hc))
      (fun c hc => by rw [hpb] at hc; cases hc; decide)).2, hpb]
  rcases hl with hl | hl | hl <;> exact h (hd _ rfl hl)

/-- A file with keywords. -/
def demoText (k : Keywords) : Str := linesJoined ["def get_keywords():".toList,
  "    git_refnames = \"".toList ++ k.refnames ++ ['"'], "    git_full = \"".toList ++ k.full ++ ['"'],
  "    git_date = \"".toList ++ k.date ++ ['"'], "    return 0".toList]

theorem demoText_of {k : Keywords} (h1 : '\n' ∉ k.refnames) (h2 : '\n' ∉ k.full) (h3 : '\n' ∉ k.date)
    (h : 'v' ∉ demoText k) : KeywordFile k (demoText k) where
  lines := by
    refine ⟨["def get_keywords():".toList], ["    return 0".toList], rfl, fun l hl => ?_⟩
    simp only [List.cons_append, List.nil_append, List.mem_cons, List.not_mem_nil, or_false] at hl
    rcases hl with rfl | rfl
    · exact ⟨by decide, not_assigns (by decide)⟩
    · exact ⟨by decide, not_assigns (by decide)⟩
  refnames := h1
  full := h2
  date := h3
  noJson := by
    intro a b e
    rw [e] at h
    exact h (by simp)

/-- **C95.**  In a tree with expanded keywords, `setup.py` finds the same versions as the package itself there, whatever
git and the directory say. -/
theorem c95_keywords {k : Keywords} {text : Str} (h : KeywordFile k text)
    (he : ∀ a b, (∀ c ∈ a, WhiteSpace c) → k.refnames ≠ a ++ "$Format".toList ++ b) {t : Tree}
    (ht : t.versionFile = some text) {w : World} (hw : w.keywords = k) (hd : w.dec = t.dec) :
    ∃ i, setupVersions t = .ok i ∧ getVersions w = .ok i := by
  have hf : "$Format".toList.isPrefixOf (strip k.refnames) = false := by
    cases hp : "$Format".toList.isPrefixOf (strip k.refnames) with
    | false => rfl
    | true =>
      exfalso
      obtain ⟨b, hb⟩ := (List.isPrefixOf_iff_prefix.1 hp).trans (strip_prefix k.refnames)
      refine he (k.refnames.takeWhile isSpace) b (fun c hc => (isSpace_iff c).1 (takeWhile_true hc)) ?_
      rw [List.append_assoc, hb, List.takeWhile_append_dropWhile]
  have hi : ∃ i, versionsFromKeywords t.dec k [] = .ok i := by
    unfold versionsFromKeywords
    simp only [hf, Bool.false_eq_true, if_false]
    split <;> exact ⟨_, rfl⟩
  obtain ⟨i, hi⟩ := hi
  refine ⟨i, ?_, (c68_order w).1 i (by rw [hw, hd]; exact hi)⟩
  unfold setupVersions
  rw [ht, getKeywords_of h]
  have : fromKeywords t.dec ⟨some k.refnames, some k.full, some k.date⟩ tagPrefix = .ok i := by
    have hne : ¬ ((⟨some k.refnames, some k.full, some k.date⟩ : Found) = {}) := by
      intro e; cases e
    simp only [fromKeywords, if_neg hne, hf, Bool.false_eq_true, if_false, Option.getD_some, tagPrefix, hi]
    rfl
  rw [this]

/-- The keywords of an archive of a release. -/
def demoKeywords : Keywords := ⟨" (HEAD -> master, tag: 1.11.0)".toList, "ab12".toList, "2020-01-01 00:00:00 +0000".toList⟩

theorem demoKeywords_file : KeywordFile demoKeywords (demoText demoKeywords) :=
  demoText_of (by decide) (by decide) (by decide) (by decide +kernel)

example : ∃ i, setupVersions ⟨fun _ => none, some (demoText demoKeywords), "/tmp/calendars-3".toList, demoGit⟩ = .ok i ∧
    getVersions { dec := fun _ => none, keywords := demoKeywords, file := none, git := fun _ => demoGit } = .ok i := by
  refine c95_keywords demoKeywords_file (fun a b _ e => ?_) rfl rfl rfl
  have : '$' ∈ demoKeywords.refnames := by rw [e]; simp
  revert this
  decide

theorem unexpanded_setup {text : Str} (h : KeywordFile Version.unexpanded text) {t : Tree}
    (ht : t.versionFile = some text) :
    setupVersions t = match (gitPieces t.dec tagPrefix t.git >>= fun p => render p style) with
      | .ok i => .ok i
      | .error e =>
        if e ≠ .notThisMethod then .error (.version e)
        else match versionsFromParentdir parentdirPrefix t.root with
          | .ok i => .ok i
          | .error e => if e ≠ .notThisMethod then .error (.version e) else .ok unknown := by
  have h1 : fromKeywords t.dec ⟨some Version.unexpanded.refnames, some Version.unexpanded.full,
      some Version.unexpanded.date⟩ tagPrefix = .error notThisMethod := rfl
  unfold setupVersions
  rw [ht, getKeywords_of h, h1, noFile_of h]
  rfl

/-- The versions of a checkout. -/
def checkoutInfo (c : Checkout) (v : Str) : Info :=
  { version := v, fullRevision := some c.full, dirty := some c.dirty, error := none,
    date := some (c.day ++ ['T'] ++ c.time ++ c.zone) }

theorem hex_plain {s : Str} (h : ∀ c ∈ s, c ∈ "0123456789abcdef".toList) :
    ∀ c ∈ s, 32 ≤ c.toNat ∧ c.toNat < 0x10000 ∧ c ≠ '"' ∧ c ≠ '\\' ∧ c ≠ '\'' := by
  intro c hc
  have : ∀ c ∈ "0123456789abcdef".toList, 32 ≤ c.toNat ∧ c.toNat < 0x10000 ∧ c ≠ '"' ∧ c ≠ '\\' ∧ c ≠ '\'' := by decide
  exact this c (h c hc)

theorem place_plain {c : Checkout} (hv : c.Valid) :
    ∀ x ∈ c.place, 32 ≤ x.toNat ∧ x.toNat < 0x10000 ∧ x ≠ '"' ∧ x ≠ '\\' ∧ x ≠ '\'' := by
  intro x hx
  have lit : ∀ x ∈ ".g.dirty".toList, 32 ≤ x.toNat ∧ x.toNat < 0x10000 ∧ x ≠ '"' ∧ x ≠ '\\' ∧ x ≠ '\'' := by decide
  simp only [Checkout.place, List.mem_append] at hx
  rcases hx with ((hx | hx) | hx) | hx
  · obtain ⟨h1, h2⟩ := inDecimal_digit hx
    have h1' : 48 ≤ x.toNat := h1
    have h2' : x.toNat ≤ 57 := h2
    refine ⟨by omega, by omega, ?_, ?_, ?_⟩ <;> rintro rfl <;> revert h1' h2' <;> decide
  · refine lit x ?_
    revert hx
    simp
    rintro (rfl | rfl) <;> simp
  · exact hex_plain (shortName_chars hv) x hx
  · split at hx
    · exact lit x (by revert hx; simp; rintro (rfl | rfl | rfl | rfl | rfl | rfl) <;> simp)
    · cases hx

theorem plain_sep {a b : Str} {x : Char} (ha : Plain a) (hb : Plain b) (hx : Plain [x]) (h : x ≠ '\'') : Plain (a ++ x :: b) where
  chars := by
    intro c hc
    rcases List.mem_append.1 hc with hc | hc
    · exact ha.chars c hc
    · rcases List.mem_cons.1 hc with rfl | hc
      · exact hx.chars c (by simp)
      · exact hb.chars c hc
  apostrophes := by
    rw [← triple_iff, triple_sep h, (triple_iff _).2 ha.apostrophes, (triple_iff _).2 hb.apostrophes]
    rfl

theorem version_plain {c : Checkout} (hv : c.Valid) (ht : ∀ t, c.tag = some t → Plain t) {v : Str} (h : VersionOf c v) :
    Plain v := by
  have hp := plain_of (place_plain hv)
  cases h with
  | release h _ _ => exact ht _ h
  | between h _ _ =>
    rw [List.append_assoc]
    exact plain_sep (ht _ h) hp (plain_of (by decide)) (by decide)
  | betweenLocal h _ _ =>
    rw [List.append_assoc]
    exact plain_sep (ht _ h) hp (plain_of (by decide)) (by decide)
  | untagged _ =>
    have : "0+untagged.".toList ++ c.place = "0+untagged".toList ++ '.' :: c.place := rfl
    rw [this]
    exact plain_sep (plain_of (by decide)) hp (plain_of (by decide)) (by decide)

/-- **C95.**  From a checkout, `setup.py` finds the version of the checkout; with a plain tag, this is the version that
the package reports when it is imported from a distribution or build made of the checkout, or of one made of that, and so
on. -/
theorem c95_checkout {text : Str} (h : KeywordFile Version.unexpanded text) {t : Tree} (ht : t.versionFile = some text)
    {c : Checkout} (hv : c.Valid) (ha : Answers t.git c) : ∃ v, VersionOf c v ∧
      setupVersions t = .ok (checkoutInfo c v) ∧
      ((∀ g, c.tag = some g → Plain g) → (∀ x ∈ c.day ++ c.time ++ c.zone, x ∈ "0123456789-+:".toList) →
        ∀ text', MadeFrom (checkoutInfo c v) text' → importVersions text' = some (checkoutInfo c v)) := by
  refine ⟨_, versionOf_render hv, ?_, ?_⟩
  · have h2 := c68_pieces t.dec (tagPrefix := tagPrefix) hv ha (fun t _ => by simp [tagPrefix])
    rw [unexpanded_setup h ht]
    simp only [h2, bind, Except.bind]
    rfl
  · intro hg hd text' hm
    refine (c95_made hm).2 ⟨version_plain hv hg (versionOf_render hv), ?_, ?_, ?_⟩
    · intro s hs
      cases hs
      exact plain_of (hex_plain hv.full.2)
    · intro s hs
      cases hs
    · intro s hs
      cases hs
      refine plain_of fun x hx => ?_
      have lit : ∀ x ∈ 'T' :: "0123456789-+:".toList, 32 ≤ x.toNat ∧ x.toNat < 0x10000 ∧ x ≠ '"' ∧ x ≠ '\\' ∧ x ≠ '\'' := by
        decide
      refine lit x ?_
      simp only [List.mem_append, List.mem_singleton] at hx
      rcases hx with ((hx | hx) | hx) | hx
      · exact List.mem_cons_of_mem _ (hd x (by simp [hx]))
      · rw [hx]; exact List.mem_cons_self
      · exact List.mem_cons_of_mem _ (hd x (by simp [hx]))
      · exact List.mem_cons_of_mem _ (hd x (by simp [hx]))

theorem unexpanded_file : KeywordFile Version.unexpanded (demoText Version.unexpanded) :=
  demoText_of (by decide) (by decide) (by decide) (by decide +kernel)

/-- The demonstration checkout: a distribution of it says so. -/
example : ∃ v, VersionOf demoCheckout v ∧ importVersions (shortFile (checkoutInfo demoCheckout v)) =
    some (checkoutInfo demoCheckout v) := by
  obtain ⟨v, h1, -, h2⟩ := c95_checkout unexpanded_file (t := ⟨fun _ => none, some (demoText Version.unexpanded), [], demoGit⟩)
    rfl demoCheckout_valid demoGit_answers
  exact ⟨v, h1, h2 (by rintro g h; cases h; exact plain_of (by decide)) (by decide +kernel) _ .first⟩

/-! ### Archives -/

/-- **C95.**  Without git, in a tree that `git archive` made, `setup.py` reads the version off the directory: that of the
tree, its parent and its grandparent are tried in this order, and the first whose name begins with `trading_calendars-`
gives the rest of its name; if none does, the version is `0+unknown`.  The tags at the commit do not matter. -/
theorem c95_directory {k : Keywords} {text : Str} (h : KeywordFile (archivedKeywords k) text) {t : Tree}
    (ht : t.versionFile = some text) (hg : NoGit t.git) {dirs : List Str} (hn : ∀ d ∈ dirs, FileName d)
    (hr : t.root = pathOf dirs) :
    (∀ v, FirstWith "trading_calendars-".toList (dirs.take 3) v → setupVersions t = .ok
      { version := v, fullRevision := none, dirty := some false, error := none, date := none }) ∧
    ((∀ d ∈ dirs.take 3, ∀ v, d ≠ "trading_calendars-".toList ++ v) → setupVersions t = .ok
      { version := "0+unknown".toList, fullRevision := none, dirty := none,
        error := some "unable to compute version".toList, date := none }) := by
  have hu := unexpanded_setup (h : KeywordFile Version.unexpanded text) ht
  simp only [gitPieces_noGit t.dec tagPrefix hg, bind, Except.bind, ne_eq, not_true_eq_false, if_false] at hu
  constructor
  · intro v hv
    have := parentLoop_first 3 dirs hn v hv
    rw [hu, hr]
    unfold versionsFromParentdir parentdirPrefix
    rw [this]
  · intro hv
    have := parentLoop_none (by decide) 3 dirs hn hv
    rw [hu, hr]
    unfold versionsFromParentdir parentdirPrefix
    rw [this]
    rfl

/-- **C95.**  In a directory `trading_calendars-V`, where `git archive --prefix` puts it, `setup.py` finds `V` in such an
archive, but the package imported from there says `0+unknown` (unless a directory around it begins with `calendars-`),
even if the commit has tags. -/
theorem c95_archive {k : Keywords} {text : Str} (h : KeywordFile (archivedKeywords k) text) {t : Tree}
    (ht : t.versionFile = some text) (hg : NoGit t.git) {v file pkg : Str} {dirs : List Str}
    (hn : ∀ d ∈ file :: pkg :: ("trading_calendars-".toList ++ v) :: dirs, FileName d)
    (hr : t.root = pathOf (("trading_calendars-".toList ++ v) :: dirs))
    (hc : ∀ d ∈ dirs.take 2, ∀ u, d ≠ "calendars-".toList ++ u) {w : World} (hw : w.keywords = archivedKeywords k)
    (hf : w.file = some (pathOf (file :: pkg :: ("trading_calendars-".toList ++ v) :: dirs)))
    (hwg : w.git t.root = t.git) :
    setupVersions t = .ok { version := v, fullRevision := none, dirty := some false, error := none, date := none } ∧
    getVersions w = .ok { version := "0+unknown".toList, fullRevision := none, dirty := none,
                          error := some "unable to compute version".toList, date := none } := by
  constructor
  · refine (c95_directory h ht hg (fun d hd => hn d (by simp only [List.mem_cons] at hd ⊢; exact .inr (.inr hd))) hr).1 v ?_
    exact ⟨[], dirs.take 2, rfl, by simp⟩
  · refine (c68_directory (hw.trans rfl) hn hf (by rw [← hr, hwg]; exact hg)).2 ?_
    intro d hd u e
    simp only [List.take_succ_cons, List.mem_cons] at hd
    rcases hd with rfl | hd
    · cases e
    · exact hc d hd u e

/-- An archive of the release 1.11.0, unpacked in `/src`. -/
example : setupVersions ⟨fun _ => none, some (demoText Version.unexpanded), "/src/trading_calendars-1.11.0".toList,
      ⟨.fails, .fails, .fails, .fails, .fails⟩⟩ =
      .ok { version := "1.11.0".toList, fullRevision := none, dirty := some false, error := none, date := none } ∧
    getVersions ⟨fun _ => none, archivedKeywords demoKeywords,
        some "/src/trading_calendars-1.11.0/trading_calendars/_version.py".toList, fun _ => ⟨.fails, .fails, .fails, .fails, .fails⟩⟩ =
      .ok { version := "0+unknown".toList, fullRevision := none, dirty := none,
            error := some "unable to compute version".toList, date := none } := by
  refine c95_archive (k := demoKeywords) (file := "_version.py".toList) (pkg := "trading_calendars".toList)
    (dirs := ["src".toList]) unexpanded_file rfl (.inl (.inl rfl)) ?_ rfl ?_ rfl rfl rfl
  · intro d hd
    simp only [List.mem_cons, List.not_mem_nil, or_false] at hd
    rcases hd with rfl | rfl | rfl | rfl <;> exact ⟨by decide, by decide⟩
  · intro d hd u e
    simp only [List.take_succ_cons, List.take_nil, List.mem_singleton] at hd
    subst hd
    cases e

end TC.Props
