import Verif.Spec.Versioneer
import Verif.Props.Version

/-!
# What `json` writes and reads, and the searches through `_version.py`
-/

namespace TC.Props
open Spec Versioneer
open TC.Version (Info Git Keywords strip versionsFromKeywords gitPieces render)
open TC.Tcal (Str isSpace isSpace_iff)

set_option maxRecDepth 100000

/-! ### Strings of JSON -/

theorem hexValue_digit : ∀ k < 16, hexValue (Nat.digitChar k) = some k := by decide

theorem hexOf_hex4 {n : Nat} (h : n < 65536) : hexOf (Nat.digitChar (n / 4096 % 16)) (Nat.digitChar (n / 256 % 16))
    (Nat.digitChar (n / 16 % 16)) (Nat.digitChar (n % 16)) = some n := by
  unfold hexOf
  rw [hexValue_digit _ (by omega), hexValue_digit _ (by omega), hexValue_digit _ (by omega),
    hexValue_digit _ (by omega)]
  simp only [Option.some.injEq]
  omega

/-- The character is read back from the text that `e` writes for it. -/
def ReadBack (e : Char → Str) (c : Char) : Prop :=
  1 ≤ (e c).length ∧ ∀ n r, scanString (n + 1) (e c ++ r) = (scanString n r).map fun p => (c :: p.1, p.2)

theorem char_range (c : Char) : c.toNat < 0xD800 ∨ 0xDFFF < c.toNat ∧ c.toNat < 0x110000 := c.valid

theorem readBack_escape (c : Char) : ReadBack escapeChar c := by
  have hr := char_range c
  refine ⟨?_, fun n r => ?_⟩
  · unfold escapeChar
    repeat' split
    all_goals simp [hex4]
  unfold escapeChar
  split
  · subst c; rfl
  split
  · subst c; rfl
  split
  · subst c; rfl
  split
  · subst c; rfl
  split
  · subst c; rfl
  split
  · rename_i h; rw [← Char.ofNat_toNat c, h]; rfl
  split
  · rename_i h; rw [← Char.ofNat_toNat c, h]; rfl
  split
  · rename_i h1 h2 _ _ _ _ _ h
    have : ¬ c.toNat < 32 := by omega
    simp [scanString, h1, h2, this]
  split
  · rename_i h
    have e := hexOf_hex4 (n := c.toNat) (by omega)
    have h1 : ¬ (0xD800 ≤ c.toNat ∧ c.toNat < 0xDC00) := by omega
    have h2 : ¬ (0xDC00 ≤ c.toNat ∧ c.toNat < 0xE000) := by omega
    simp only [hex4, List.cons_append, List.nil_append]
    rw [scanString]
    simp only [Char.reduceEq, if_true, if_false, e, h1, h2, Char.ofNat_toNat]
  · rename_i h
    have hx : c.toNat - 0x10000 < 0x100000 := by omega
    generalize hg : c.toNat - 0x10000 = x at *
    have e1 := hexOf_hex4 (n := 0xD800 + x / 1024) (by omega)
    have e2 := hexOf_hex4 (n := 0xDC00 + x % 1024) (by omega)
    have h1 : 0xD800 ≤ 0xD800 + x / 1024 ∧ 0xD800 + x / 1024 < 0xDC00 := by omega
    have h2 : 0xDC00 ≤ 0xDC00 + x % 1024 ∧ 0xDC00 + x % 1024 < 0xE000 := by omega
    have h3 : 0x10000 + (0xD800 + x / 1024 - 0xD800) * 1024 + (0xDC00 + x % 1024 - 0xDC00) = c.toNat := by omega
    simp only [hex4, List.cons_append, List.nil_append]
    rw [scanString]
    simp only [Char.reduceEq, if_true, if_false, e1, e2, h1, h2, h3, Char.ofNat_toNat, and_self]

theorem readBack_plain {c : Char} (h : 32 ≤ c.toNat ∧ c ≠ '"' ∧ c ≠ '\\') : ReadBack (fun c => [c]) c := by
  refine ⟨Nat.le_refl 1, fun n r => ?_⟩
  have : ¬ c.toNat < 32 := by omega
  simp [scanString, h.2.1, h.2.2, this]

theorem flatMap_length {e : Char → Str} {s : Str} (h : ∀ c ∈ s, ReadBack e c) : s.length ≤ (s.flatMap e).length := by
  induction s with
  | nil => simp
  | cons c s ih =>
    have h1 := (h c (by simp)).1
    have h2 := ih fun d hd => h d (by simp [hd])
    simp only [List.flatMap_cons, List.length_cons, List.length_append]
    omega

theorem scanString_of {e : Char → Str} {s : Str} (h : ∀ c ∈ s, ReadBack e c) {n : Nat} (hn : s.length < n) (r : Str) :
    scanString n (s.flatMap e ++ '"' :: r) = some (s, r) := by
  induction s generalizing n with
  | nil =>
    obtain ⟨n, rfl⟩ : ∃ k, n = k + 1 := ⟨n - 1, by simp at hn; omega⟩
    rfl
  | cons c s ih =>
    obtain ⟨n, rfl⟩ : ∃ k, n = k + 1 := ⟨n - 1, by simp at hn; omega⟩
    rw [List.flatMap_cons, List.append_assoc, (h c (by simp)).2,
      ih (fun d hd => h d (by simp [hd])) (by simp at hn; omega)]
    rfl

theorem scanString_len {e : Char → Str} {s : Str} (h : ∀ c ∈ s, ReadBack e c) (r : Str) :
    scanString (s.flatMap e ++ '"' :: r).length (s.flatMap e ++ '"' :: r) = some (s, r) := by
  refine scanString_of h ?_ r
  have := flatMap_length h
  simp only [List.length_append, List.length_cons]
  omega

/-! ### Dictionaries -/

/-- All characters of the value are read back. -/
def ValueBack (e : Char → Str) : Json → Prop
  | .str s => ∀ c ∈ s, ReadBack e c
  | _ => True

theorem scanValue_of {e : Char → Str} {v : Json} (h : ValueBack e v) (r : Str) :
    scanValue (dumpsValue e v ++ r) = some (v, r) := by
  cases v with
  | null => rfl
  | bool b => cases b <;> rfl
  | str s =>
    simp only [dumpsValue, List.cons_append, List.nil_append, List.append_assoc, scanValue]
    rw [scanString_len h]
    rfl

theorem skipSpace_value {e : Char → Str} (v : Json) (r : Str) :
    skipSpace (' ' :: (dumpsValue e v ++ r)) = dumpsValue e v ++ r := by
  cases v with
  | null => rfl
  | bool b => cases b <;> rfl
  | str s => rfl

theorem scanEntries_of {e : Char → Str} {d : List (Str × Json)} (hd : d ≠ [])
    (h : ∀ p ∈ d, (∀ c ∈ p.1, ReadBack e c) ∧ ValueBack e p.2) {n : Nat} (hn : d.length ≤ n) {s r : Str}
    (hs : skipSpace s = dumpsEntries e d ++ ("\n}".toList ++ r)) : scanEntries n s = some (d, r) := by
  induction d generalizing n s with
  | nil => exact absurd rfl hd
  | cons p d ih =>
    obtain ⟨k, v⟩ := p
    obtain ⟨n, rfl⟩ : ∃ j, n = j + 1 := ⟨n - 1, by simp at hn; omega⟩
    obtain ⟨hk, hv⟩ := h (k, v) (by simp)
    unfold scanEntries
    rw [hs]
    cases d with
    | nil =>
      have e1 : dumpsEntries e [(k, v)] ++ ("\n}".toList ++ r) =
          '"' :: (k.flatMap e ++ '"' :: ':' :: ' ' :: (dumpsValue e v ++ ('\n' :: '}' :: r))) := by
        simp [dumpsEntries, dumpsValue]
      rw [e1]
      simp only [scanString_len hk]
      rw [show skipSpace (':' :: ' ' :: (dumpsValue e v ++ ('\n' :: '}' :: r))) =
        ':' :: ' ' :: (dumpsValue e v ++ ('\n' :: '}' :: r)) from rfl]
      simp only [skipSpace_value, scanValue_of hv]
      rfl
    | cons q d =>
      have e1 : dumpsEntries e ((k, v) :: q :: d) ++ ("\n}".toList ++ r) =
          '"' :: (k.flatMap e ++ '"' :: ':' :: ' ' :: (dumpsValue e v ++ (',' :: '\n' :: ' ' ::
            (dumpsEntries e (q :: d) ++ ("\n}".toList ++ r))))) := by
        simp [dumpsEntries, dumpsValue]
      rw [e1]
      simp only [scanString_len hk]
      rw [show ∀ t, skipSpace (':' :: t) = ':' :: t from fun _ => rfl]
      simp only [skipSpace_value, scanValue_of hv]
      rw [show ∀ t, skipSpace (',' :: t) = ',' :: t from fun _ => rfl]
      simp only
      rw [ih (by simp) (fun p hp => h p (by simp only [List.mem_cons] at hp ⊢; exact .inr hp))
        (by simp at hn ⊢; omega) (s := '\n' :: ' ' :: (dumpsEntries e (q :: d) ++ ("\n}".toList ++ r)))]
      · rfl
      · have : ∃ t, dumpsEntries e (q :: d) ++ ("\n}".toList ++ r) = '"' :: t := by
          obtain ⟨k', v'⟩ := q
          cases d <;> simp [dumpsEntries, dumpsValue]
        obtain ⟨t, ht⟩ := this
        rw [ht]
        rfl

theorem dumpsEntries_length {e : Char → Str} (d : List (Str × Json)) : d.length ≤ (dumpsEntries e d).length := by
  induction d with
  | nil => simp [dumpsEntries]
  | cons p d ih =>
    obtain ⟨k, v⟩ := p
    cases d with
    | nil =>
      simp only [dumpsEntries, dumpsValue, List.length_append, List.length_cons, List.length_nil]
      omega
    | cons q d =>
      simp only [dumpsEntries, dumpsValue, List.length_append, List.length_cons, List.length_nil] at ih ⊢
      omega

theorem loads_of {e : Char → Str} {d : List (Str × Json)} (hd : d ≠ [])
    (h : ∀ p ∈ d, (∀ c ∈ p.1, ReadBack e c) ∧ ValueBack e p.2) : loads (dumpsWith e d ++ ['\n']) = some d := by
  unfold loads
  have e1 : dumpsWith e d ++ ['\n'] = '{' :: '\n' :: ' ' :: (dumpsEntries e d ++ ("\n}".toList ++ ['\n'])) := by
    simp [dumpsWith]
  rw [e1, show ∀ t, skipSpace ('{' :: t) = '{' :: t from fun _ => rfl]
  simp only
  rw [scanEntries_of (s := '\n' :: ' ' :: (dumpsEntries e d ++ ("\n}".toList ++ ['\n']))) hd h (r := ['\n'])]
  · rfl
  · have := dumpsEntries_length (e := e) d
    simp only [List.length_cons, List.length_append]
    omega
  · have : ∃ t, dumpsEntries e d ++ ("\n}".toList ++ ['\n']) = '"' :: t := by
      cases d with
      | nil => exact absurd rfl hd
      | cons q d =>
        obtain ⟨k', v'⟩ := q
        cases d <;> simp [dumpsEntries, dumpsValue]
    obtain ⟨t, ht⟩ := this
    rw [ht]
    rfl

theorem infoOf_dictOf (i : Info) : infoOf (dictOf i) = some i := by
  obtain ⟨v, f, b, e, t⟩ := i
  cases f <;> cases b <;> cases e <;> cases t <;> rfl

theorem back_escape (i : Info) : ∀ p ∈ dictOf i, (∀ c ∈ p.1, ReadBack escapeChar c) ∧ ValueBack escapeChar p.2 := by
  intro p _
  refine ⟨fun c _ => readBack_escape c, ?_⟩
  cases p.2 with
  | str s => exact fun c _ => readBack_escape c
  | _ => trivial

/-! ### The file -/

theorem head_search (r : Str) : afterFirst "version_json = '''\n".toList (shortHead ++ '\n' :: r) = some r := by rfl

theorem beforeLast_append {p b : Str} (h : beforeLast p b = some []) (a : Str) : beforeLast p (a ++ b) = some a := by
  induction a with
  | nil => exact h
  | cons c a ih => rw [List.cons_append, beforeLast, ih]

/-! ### Lines -/

theorem linesOf_one {a : Str} (h : '\n' ∉ a) : linesOf a = [a] := by
  induction a with
  | nil => rfl
  | cons c a ih =>
    simp only [List.mem_cons, not_or] at h
    have : ¬ c = '\n' := fun e => h.1 e.symm
    simp [linesOf, ih h.2, this]

theorem linesOf_append (a b : Str) : linesOf (a ++ '\n' :: b) = linesOf a ++ linesOf b := by
  have ne : ∀ s : Str, ∃ l ls, linesOf s = l :: ls := by
    intro s
    induction s with
    | nil => exact ⟨_, _, rfl⟩
    | cons c s ih =>
      obtain ⟨l, ls, e⟩ := ih
      simp only [linesOf, e]
      split <;> exact ⟨_, _, rfl⟩
  induction a with
  | nil =>
    obtain ⟨l, ls, e⟩ := ne b
    simp [linesOf, e]
  | cons c a ih =>
    obtain ⟨l, ls, e⟩ := ne a
    obtain ⟨l', ls', e'⟩ := ne b
    simp only [List.cons_append, linesOf, ih, e]
    split <;> simp

theorem linesOf_joined : ∀ {ls : List Str}, ls ≠ [] → (∀ l ∈ ls, '\n' ∉ l) → linesOf (linesJoined ls) = ls
  | [], h, _ => absurd rfl h
  | [l], _, h => by
    have : linesJoined [l] = l := by simp [linesJoined, List.intercalate]
    rw [this, linesOf_one (h l (by simp))]
  | l :: m :: ls, _, h => by
    have e : linesJoined (l :: m :: ls) = l ++ '\n' :: linesJoined (m :: ls) := by
      simp [linesJoined, List.intercalate, List.intersperse]
    rw [e, linesOf_append, linesOf_one (h l (by simp)),
      linesOf_joined (by simp) (fun x hx => h x (by simp only [List.mem_cons] at hx ⊢; exact .inr hx))]
    rfl

theorem strip_prefix (s : Str) : strip s <+: s.dropWhile isSpace := by
  unfold Version.strip Tcal.rstrip
  have h := List.dropWhile_suffix isSpace (l := (s.dropWhile isSpace).reverse)
  obtain ⟨t, ht⟩ := h
  refine ⟨t.reverse, ?_⟩
  rw [← List.reverse_append, ht, List.reverse_reverse]

/-- The line changes none of the entries. -/
def Idle (l : Str) : Prop :=
  ∀ old, entryAfter "git_refnames" old l = old ∧ entryAfter "git_full" old l = old ∧ entryAfter "git_date" old l = old

theorem idle_of {l : Str} (h : ¬ Assigns l) : Idle l := by
  have key : ∀ name : String, (name = "git_refnames" ∨ name = "git_full" ∨ name = "git_date") →
      (name.toList ++ " =".toList).isPrefixOf (strip l) = false := by
    intro name hn
    cases hp : (name.toList ++ " =".toList).isPrefixOf (strip l) with
    | false => rfl
    | true =>
      exfalso
      obtain ⟨b, hb⟩ := (List.isPrefixOf_iff_prefix.1 hp).trans (strip_prefix l)
      refine h ⟨l.takeWhile isSpace, b, fun c hc => (isSpace_iff c).1 (takeWhile_true hc), ?_⟩
      have e : l = l.takeWhile isSpace ++ (name.toList ++ " =".toList) ++ b := by
        rw [List.append_assoc, hb, List.takeWhile_append_dropWhile]
      rcases hn with rfl | rfl | rfl
      · exact .inl e
      · exact .inr (.inl e)
      · exact .inr (.inr e)
  intro old
  unfold entryAfter
  rw [key _ (.inl rfl), key _ (.inr (.inl rfl)), key _ (.inr (.inr rfl))]
  simp

/-- The step of the loop. -/
theorem fold_idle {ls : List Str} (h : ∀ l ∈ ls, Idle l) (k : Found) : ls.foldl (fun k line =>
      { refnames := entryAfter "git_refnames" k.refnames line
        full := entryAfter "git_full" k.full line
        date := entryAfter "git_date" k.date line : Found }) k = k := by
  induction ls generalizing k with
  | nil => rfl
  | cons l ls ih =>
    rw [List.foldl_cons, (h l (by simp) _).1, (h l (by simp) _).2.1, (h l (by simp) _).2.2]
    exact ih (fun x hx => h x (by simp [hx])) _

/-! ### The lines of the written file -/

theorem escape_ascii (c d : Char) (h : d ∈ escapeChar c) : 32 ≤ d.toNat ∧ d.toNat ≤ 126 := by
  have hx : ∀ k, 32 ≤ (Nat.digitChar (k % 16)).toNat ∧ (Nat.digitChar (k % 16)).toNat ≤ 126 := by
    intro k
    have : ∀ j < 16, 32 ≤ (Nat.digitChar j).toNat ∧ (Nat.digitChar j).toNat ≤ 126 := by decide
    exact this _ (by omega)
  have h4 : ∀ n, ∀ d ∈ hex4 n, 32 ≤ d.toNat ∧ d.toNat ≤ 126 := by
    intro n d hd
    simp only [hex4, List.mem_cons, List.not_mem_nil, or_false] at hd
    rcases hd with rfl | rfl | rfl | rfl <;> exact hx _
  have hs : ∀ d ∈ ['\\', 'u'], 32 ≤ d.toNat ∧ d.toNat ≤ 126 := by decide
  unfold escapeChar at h
  repeat' split at h
  · revert d; decide
  · revert d; decide
  · revert d; decide
  · revert d; decide
  · revert d; decide
  · revert d; decide
  · revert d; decide
  · rename_i h'; simp only [List.mem_singleton] at h; subst h; exact h'
  · rcases List.mem_append.1 h with h | h
    · exact hs _ h
    · exact h4 _ _ h
  · rcases List.mem_append.1 h with h | h
    · rcases List.mem_append.1 h with h | h
      · exact hs _ h
      · exact h4 _ _ h
    · rcases List.mem_append.1 h with h | h
      · exact hs _ h
      · exact h4 _ _ h

theorem value_line (v : Json) : '\n' ∉ dumpsValue escapeChar v := by
  cases v with
  | null => decide
  | bool b => cases b <;> decide
  | str s =>
    intro h
    simp only [dumpsValue, List.cons_append, List.nil_append, List.mem_cons, List.mem_append, List.mem_flatMap,
      List.not_mem_nil, or_false] at h
    rcases h with h | ⟨c, -, h⟩ | h
    · revert h; decide
    · exact absurd (escape_ascii _ _ h) (by decide)
    · revert h; decide

theorem entry_idle (s : Str) : Idle (' ' :: '"' :: s) := by
  refine idle_of fun ⟨a, b, ha, h⟩ => ?_
  have h' : ∃ t, ' ' :: '"' :: s = a ++ 'g' :: t := by
    rcases h with h | h | h
    · exact ⟨_, h.trans (by rw [List.append_assoc]; rfl)⟩
    · exact ⟨_, h.trans (by rw [List.append_assoc]; rfl)⟩
    · exact ⟨_, h.trans (by rw [List.append_assoc]; rfl)⟩
  obtain ⟨t, h'⟩ := h'
  match a, ha, h' with
  | [], _, h' => simp at h'
  | [_], _, h' => simp at h'
  | x :: y :: a, ha, h' =>
    simp only [List.cons_append, List.cons.injEq] at h'
    have := ha y (by simp)
    rw [← h'.2.1] at this
    revert this
    decide

theorem concrete_idle {ls : List Str} (h : ls.all (fun l => !("git_refnames =".toList.isPrefixOf (strip l)) &&
    !("git_full =".toList.isPrefixOf (strip l)) && !("git_date =".toList.isPrefixOf (strip l))) = true) :
    ∀ l ∈ ls, Idle l := by
  intro l hl old
  have := List.all_eq_true.1 h l hl
  simp only [Bool.and_eq_true, Bool.not_eq_true'] at this
  obtain ⟨⟨h1, h2⟩, h3⟩ := this
  have e1 : "git_refnames".toList ++ " =".toList = "git_refnames =".toList := by decide
  have e2 : "git_full".toList ++ " =".toList = "git_full =".toList := by decide
  have e3 : "git_date".toList ++ " =".toList = "git_date =".toList := by decide
  unfold entryAfter
  rw [e1, e2, e3, h1, h2, h3]
  simp

theorem getKeywords_shortFile (i : Info) : getKeywords (some (shortFile i)) = {} := by
  unfold getKeywords
  refine fold_idle ?_ _
  have line : ∀ (k : Str) (v : Json) (z : Str), '\n' ∉ k → '\n' ∉ z →
      linesOf (' ' :: '"' :: (k ++ '"' :: ':' :: ' ' :: (dumpsValue escapeChar v ++ z))) =
        [' ' :: '"' :: (k ++ '"' :: ':' :: ' ' :: (dumpsValue escapeChar v ++ z))] := by
    intro k v z hk hz
    refine linesOf_one ?_
    simp only [List.mem_cons, List.mem_append, not_or]
    exact ⟨by decide, by decide, hk, by decide, by decide, by decide, value_line v, hz⟩
  have e : shortFile i = shortHead ++ '\n' :: ("{".toList ++ '\n' ::
      ((' ' :: '"' :: ("date".toList ++ '"' :: ':' :: ' ' :: (dumpsValue escapeChar (jsonOf i.date) ++ [',']))) ++ '\n' ::
      ((' ' :: '"' :: ("dirty".toList ++ '"' :: ':' :: ' ' ::
        (dumpsValue escapeChar (match i.dirty with | none => .null | some b => .bool b) ++ [',']))) ++ '\n' ::
      ((' ' :: '"' :: ("error".toList ++ '"' :: ':' :: ' ' :: (dumpsValue escapeChar (jsonOf i.error) ++ [',']))) ++ '\n' ::
      ((' ' :: '"' :: ("full-revisionid".toList ++ '"' :: ':' :: ' ' ::
        (dumpsValue escapeChar (jsonOf i.fullRevision) ++ [',']))) ++ '\n' ::
      ((' ' :: '"' :: ("version".toList ++ '"' :: ':' :: ' ' :: (dumpsValue escapeChar (.str i.version) ++ []))) ++ '\n' ::
      ("}".toList ++ '\n' :: shortTail))))))) := by
    have k1 : "date".toList.flatMap escapeChar = "date".toList := by decide +kernel
    have k2 : "dirty".toList.flatMap escapeChar = "dirty".toList := by decide +kernel
    have k3 : "error".toList.flatMap escapeChar = "error".toList := by decide +kernel
    have k4 : "full-revisionid".toList.flatMap escapeChar = "full-revisionid".toList := by decide +kernel
    have k5 : "version".toList.flatMap escapeChar = "version".toList := by decide +kernel
    have c1 : ": ".toList = [':', ' '] := by decide
    have c2 : ",\n ".toList = [',', '\n', ' '] := by decide
    have c3 : "{\n ".toList = ['{', '\n', ' '] := by decide
    have c4 : "\n}".toList = ['\n', '}'] := by decide
    have c5 : "{".toList = ['{'] := by decide
    have c6 : "}".toList = ['}'] := by decide
    have q : ∀ (k : Str), dumpsValue escapeChar (.str k) = '"' :: (k.flatMap escapeChar ++ ['"']) := fun _ => rfl
    unfold shortFile dumps dumpsWith dictOf
    simp only [dumpsEntries, q "date".toList, q "dirty".toList, q "error".toList, q "full-revisionid".toList,
      q "version".toList, k1, k2, k3, k4, k5, c1, c2, c3, c4, c5, c6, List.append_assoc, List.cons_append,
      List.nil_append]
    all_goals cases i.dirty <;> rfl
  rw [e]
  simp only [linesOf_append]
  rw [line _ _ _ (by decide) (by decide), line _ _ _ (by decide) (by decide), line _ _ _ (by decide) (by decide),
    line _ _ _ (by decide) (by decide), line _ _ _ (by decide) (by decide)]
  intro l hl
  simp only [List.mem_append, List.mem_singleton] at hl
  rcases hl with hl | hl | rfl | rfl | rfl | rfl | rfl | hl | hl
  · exact concrete_idle (ls := linesOf shortHead) (by decide +kernel) l hl
  · exact concrete_idle (ls := linesOf "{".toList) (by decide +kernel) l hl
  · exact entry_idle _
  · exact entry_idle _
  · exact entry_idle _
  · exact entry_idle _
  · exact entry_idle _
  · exact concrete_idle (ls := linesOf "}".toList) (by decide +kernel) l hl
  · exact concrete_idle (ls := linesOf shortTail) (by decide +kernel) l hl

/-! ### Three apostrophes -/

/-- Whether there are three apostrophes in a row. -/
def triple : Str → Bool
  | [] => false
  | c :: s => "'''".toList.isPrefixOf (c :: s) || triple s

theorem triple_cons {x : Char} (h : x ≠ '\'') (s : Str) : triple (x :: s) = triple s := by
  have : ("'''".toList.isPrefixOf (x :: s)) = false := by
    change ('\'' == x && _) = false
    have : ('\'' == x) = false := by simpa using fun e => h e.symm
    rw [this]; rfl
  rw [triple, this]; rfl

theorem prefix_three (c : Char) (s : Str) : "'''".toList.isPrefixOf (c :: s) =
    ('\'' == c && ("''".toList.isPrefixOf s)) := rfl

theorem prefix_sep {x : Char} (h : x ≠ '\'') (a b : Str) : "''".toList.isPrefixOf (a ++ x :: b) = "''".toList.isPrefixOf a := by
  have hx : ('\'' == x) = false := by simpa using fun e => h e.symm
  match a with
  | [] => change ('\'' == x && _) = false; rw [hx]; rfl
  | [c] =>
    change ('\'' == c && ('\'' == x && _)) = ('\'' == c && false)
    rw [hx]; simp
  | c :: d :: a => rfl

theorem triple_sep {x : Char} (h : x ≠ '\'') (a b : Str) : triple (a ++ x :: b) = (triple a || triple b) := by
  induction a with
  | nil => rw [List.nil_append, triple_cons h]; rfl
  | cons c a ih =>
    rw [List.cons_append, triple, triple, ih, prefix_three, prefix_three, prefix_sep h, Bool.or_assoc]

theorem triple_iff (s : Str) : triple s = false ↔ ∀ a b, s ≠ a ++ "'''".toList ++ b := by
  induction s with
  | nil => simp [triple]
  | cons c s ih =>
    rw [triple, Bool.or_eq_false_iff, ih]
    constructor
    · rintro ⟨h1, h2⟩ a b e
      cases a with
      | nil =>
        have : "'''".toList.isPrefixOf (c :: s) = true := List.isPrefixOf_iff_prefix.2 ⟨b, e.symm⟩
        rw [h1] at this
        exact absurd this (by simp)
      | cons d a => exact h2 a b (by simpa using (List.cons.inj e).2)
    · intro h
      refine ⟨not_prefix fun u => ?_, fun a b e => h (c :: a) b (by rw [e]; rfl)⟩
      exact h [] u

/-! ### The literal -/

/-- The text without escapes. -/
def bare (c : Char) : Str := [c]

/-- A character in the file. -/
def inFile (c : Char) : Str := if c = '\n' ∨ c = '"' then [c] else escapeChar c

/-- A character that Python reads from its text in the file. -/
def Legible (c : Char) : Prop := c = '\n' ∨ 32 ≤ c.toNat ∧ c.toNat < 0x10000 ∧ c ≠ '\\'

theorem inFile_cases {c : Char} (h : Legible c) : (inFile c = [c] ∧ c ≠ '\\') ∨
    (inFile c = ['\\', 'u'] ++ hex4 c.toNat ∧ 126 < c.toNat ∧ c.toNat < 0x10000) := by
  unfold inFile
  split
  · rename_i h'
    exact .inl ⟨rfl, by rcases h' with rfl | rfl <;> decide⟩
  · rename_i h'
    obtain ⟨n1, n2⟩ := not_or.1 h'
    rcases h with rfl | ⟨h1, h2, h3⟩
    · exact absurd rfl n1
    · have r : c ≠ '\r' := by rintro rfl; revert h1; decide
      have t : c ≠ '\t' := by rintro rfl; revert h1; decide
      unfold escapeChar
      rw [if_neg n2, if_neg h3, if_neg n1, if_neg r, if_neg t, if_neg (by omega), if_neg (by omega)]
      split
      · exact .inl ⟨rfl, h3⟩
      · exact .inr ⟨rfl, by omega, h2⟩

theorem inFile_quote {c : Char} (h : Legible c) (s : Str) : "''".toList.isPrefixOf (inFile c ++ s) = true →
    c = '\'' ∧ "'".toList.isPrefixOf s = true := by
  intro hp
  rcases inFile_cases h with ⟨e, -⟩ | ⟨e, -⟩
  · rw [e] at hp
    change ('\'' == c && _) = true at hp
    rw [Bool.and_eq_true, beq_iff_eq] at hp
    exact ⟨hp.1.symm, hp.2⟩
  · rw [e] at hp
    exact absurd hp (by intro h; cases h)

theorem inFile_quote1 {c : Char} (h : Legible c) (s : Str) : "'".toList.isPrefixOf (inFile c ++ s) = true → c = '\'' := by
  intro hp
  rcases inFile_cases h with ⟨e, -⟩ | ⟨e, -⟩
  · rw [e] at hp
    change ('\'' == c && _) = true at hp
    rw [Bool.and_eq_true, beq_iff_eq] at hp
    exact hp.1.symm
  · rw [e] at hp
    exact absurd hp (by intro h; cases h)

/-- The text, followed by a line feed, is read back. -/
theorem scanLiteral_of {x : Str} (hl : ∀ c ∈ x, Legible c) (ht : triple x = false) (r : Str) {n : Nat}
    (hn : x.length + 1 < n) :
    scanLiteral n (x.flatMap inFile ++ '\n' :: ("'''".toList ++ r)) = some (x ++ ['\n'], r) := by
  induction x generalizing n with
  | nil =>
    obtain ⟨n, rfl⟩ : ∃ k, n = k + 2 := ⟨n - 2, by simp at hn; omega⟩
    rfl
  | cons c x ih =>
    obtain ⟨n, rfl⟩ : ∃ k, n = k + 1 := ⟨n - 1, by simp at hn; omega⟩
    rw [triple, Bool.or_eq_false_iff] at ht
    have hx : ∀ d ∈ x, Legible d := fun d hd => hl d (by simp [hd])
    have hc := hl c (by simp)
    have ih := ih hx ht.2 (n := n) (by simp at hn; omega)
    rw [List.flatMap_cons, List.append_assoc]
    generalize hs : x.flatMap inFile ++ '\n' :: ("'''".toList ++ r) = s at ih ⊢
    rcases inFile_cases hc with ⟨e, h1⟩ | ⟨e, h1, h2⟩
    · rw [e]
      have hp : "'''".toList.isPrefixOf (c :: s) = false := by
        cases hp : "'''".toList.isPrefixOf (c :: s) with
        | false => rfl
        | true =>
          exfalso
          rw [prefix_three, Bool.and_eq_true, beq_iff_eq] at hp
          obtain ⟨hc', hp⟩ := hp
          rw [← hs] at hp
          match x, hx, ht with
          | [], _, _ => revert hp; simp
          | [d], hx, _ =>
            rw [List.flatMap_cons, List.append_assoc] at hp
            have := (inFile_quote (hx d (by simp)) _ hp).2
            revert this; simp
          | d :: f :: x, hx, ht =>
            rw [List.flatMap_cons, List.append_assoc] at hp
            obtain ⟨hd, hp⟩ := inFile_quote (hx d (by simp)) _ hp
            rw [List.flatMap_cons, List.append_assoc] at hp
            have hf := inFile_quote1 (hx f (by simp)) _ hp
            rw [← hc', hd, hf] at ht
            exact absurd ht.1 (by simp)
      rw [List.singleton_append]
      unfold scanLiteral
      simp only [hp, Bool.false_eq_true, if_false, h1, ih, Option.map_some, List.cons_append]
    · rw [e]
      have e' := hexOf_hex4 (n := c.toNat) h2
      have hr := char_range c
      have h3 : ¬ (0xD800 ≤ c.toNat ∧ c.toNat < 0xE000) := by omega
      simp only [hex4, List.cons_append, List.nil_append]
      rw [scanLiteral]
      have hp : ∀ t, "'''".toList.isPrefixOf ('\\' :: t) = false := fun t => rfl
      simp only [hp, Bool.false_eq_true, if_true, if_false, e', h3, Char.ofNat_toNat, ih]
      rfl

/-! ### The text of the dictionary -/

theorem flatMap_bare (s : Str) : s.flatMap bare = s := by
  induction s with
  | nil => rfl
  | cons c s ih => rw [List.flatMap_cons, ih]; rfl

/-- What `Plain` says of the characters. -/
def PlainChar (c : Char) : Prop := 32 ≤ c.toNat ∧ c.toNat < 0x10000 ∧ c ≠ '"' ∧ c ≠ '\\'

/-- The text of the value is plain. -/
def PlainValue : Json → Prop
  | .str s => (∀ c ∈ s, PlainChar c) ∧ triple s = false
  | _ => True

theorem inFile_plain {s : Str} (h : ∀ c ∈ s, PlainChar c) : s.flatMap inFile = s.flatMap escapeChar := by
  induction s with
  | nil => rfl
  | cons c s ih =>
    have hc := h c (by simp)
    have : c ≠ '\n' := by rintro rfl; exact absurd hc.1 (by decide)
    rw [List.flatMap_cons, List.flatMap_cons, ih fun d hd => h d (by simp [hd]), inFile, if_neg]
    rintro (h' | h')
    · exact this h'
    · exact hc.2.2.1 h'

theorem value_file {v : Json} (h : PlainValue v) : dumpsValue escapeChar v = (dumpsValue bare v).flatMap inFile := by
  cases v with
  | null => decide +kernel
  | bool b => cases b <;> decide +kernel
  | str s =>
    simp only [dumpsValue, flatMap_bare, List.flatMap_append, inFile_plain h.1]
    rfl

theorem value_legible {v : Json} (h : PlainValue v) : ∀ c ∈ dumpsValue bare v, Legible c := by
  have dec : ∀ s : Str, (∀ c ∈ s, 32 ≤ c.toNat ∧ c.toNat < 0x10000 ∧ c ≠ '\\') → ∀ c ∈ s, Legible c :=
    fun s h c hc => .inr (h c hc)
  cases v with
  | null => exact dec _ (by decide)
  | bool b => cases b <;> exact dec _ (by decide)
  | str s =>
    intro c hc
    simp only [dumpsValue, flatMap_bare, List.cons_append, List.nil_append, List.mem_cons, List.mem_append,
      List.not_mem_nil, or_false] at hc
    rcases hc with rfl | hc | rfl
    · exact .inr (by decide)
    · have := h.1 c hc
      exact .inr ⟨this.1, this.2.1, this.2.2.2⟩
    · exact .inr (by decide)

theorem value_triple {v : Json} (h : PlainValue v) {x : Char} (hx : x ≠ '\'') (r : Str) :
    triple (dumpsValue bare v ++ x :: r) = triple r := by
  rw [triple_sep hx]
  have : triple (dumpsValue bare v) = false := by
    cases v with
    | null => decide
    | bool b => cases b <;> decide
    | str s =>
      simp only [dumpsValue, flatMap_bare, List.cons_append, List.nil_append]
      rw [triple_cons (by decide), triple_sep (by decide), h.2]
      rfl
  rw [this]; rfl

/-- Plain dictionaries: the keys and the values are. -/
def PlainDict (d : List (Str × Json)) : Prop := ∀ p ∈ d, PlainValue (.str p.1) ∧ PlainValue p.2

theorem entries_file {d : List (Str × Json)} (h : PlainDict d) :
    dumpsEntries escapeChar d = (dumpsEntries bare d).flatMap inFile ∧ (∀ c ∈ dumpsEntries bare d, Legible c) ∧
      ∀ x r, x ≠ '\'' → triple (dumpsEntries bare d ++ x :: r) = triple r := by
  have c1 : (": ".toList).flatMap inFile = ": ".toList := by decide +kernel
  have c2 : (",\n ".toList).flatMap inFile = ",\n ".toList := by decide +kernel
  have l1 : ∀ c ∈ ": ".toList, Legible c := by unfold Legible; decide
  have l2 : ∀ c ∈ ",\n ".toList, Legible c := by unfold Legible; decide
  induction d with
  | nil => exact ⟨rfl, by simp [dumpsEntries], fun x r hx => triple_cons hx r⟩
  | cons p d ih =>
    obtain ⟨k, v⟩ := p
    obtain ⟨hk, hv⟩ := h (k, v) (by simp)
    obtain ⟨ih1, ih2, ih3⟩ := ih fun p hp => h p (by simp [hp])
    have e : ∀ s, ": ".toList ++ s = ':' :: ' ' :: s := fun _ => rfl
    have e' : ∀ s, ",\n ".toList ++ s = ',' :: '\n' :: ' ' :: s := fun _ => rfl
    cases d with
    | nil =>
      simp only [dumpsEntries]
      refine ⟨?_, ?_, ?_⟩
      · rw [value_file hk, value_file hv, List.flatMap_append, List.flatMap_append, c1]
      · intro c hc
        rcases List.mem_append.1 hc with hc | hc
        · rcases List.mem_append.1 hc with hc | hc
          · exact value_legible hk c hc
          · exact l1 c hc
        · exact value_legible hv c hc
      · intro x r hx
        rw [List.append_assoc, List.append_assoc, e, value_triple hk (by decide), triple_cons (by decide),
          value_triple hv hx]
    | cons q d =>
      simp only [dumpsEntries]
      refine ⟨?_, ?_, ?_⟩
      · rw [value_file hk, value_file hv, ih1]
        simp only [List.flatMap_append, c1, c2]
      · intro c hc
        simp only [List.mem_append] at hc
        rcases hc with (((hc | hc) | hc) | hc) | hc
        · exact value_legible hk c hc
        · exact l1 c hc
        · exact value_legible hv c hc
        · exact l2 c hc
        · exact ih2 c hc
      · intro x r hx
        simp only [List.append_assoc]
        rw [e, e', value_triple hk (by decide), triple_cons (by decide), value_triple hv (by decide),
          triple_cons (by decide), triple_cons (by decide), ih3 x r hx]

theorem plainValue_of {s : Str} (h : Plain s) : PlainValue (.str s) := ⟨h.chars, (triple_iff s).2 h.apostrophes⟩

theorem plainDict_of {i : Info} (h : PlainInfo i) : PlainDict (dictOf i) := by
  have key : ∀ k ∈ ["date".toList, "dirty".toList, "error".toList, "full-revisionid".toList, "version".toList],
      PlainValue (.str k) := by unfold PlainValue PlainChar; decide +kernel
  have opt : ∀ o : Option Str, (∀ s, o = some s → Plain s) → PlainValue (jsonOf o) := by
    intro o ho
    cases o with
    | none => trivial
    | some s => exact plainValue_of (ho s rfl)
  intro p hp
  simp only [dictOf, List.mem_cons, List.not_mem_nil, or_false] at hp
  rcases hp with rfl | rfl | rfl | rfl | rfl
  · exact ⟨key _ (by simp), opt _ h.date⟩
  · refine ⟨key _ (by simp), ?_⟩
    cases i.dirty <;> trivial
  · exact ⟨key _ (by simp), opt _ h.error⟩
  · exact ⟨key _ (by simp), opt _ h.full⟩
  · exact ⟨key _ (by simp), plainValue_of h.version⟩

theorem loads_bare {d : List (Str × Json)} (hd : d ≠ []) (h : PlainDict d) :
    loads ('\n' :: (dumpsWith bare d ++ ['\n'])) = some d := by
  have : loads ('\n' :: (dumpsWith bare d ++ ['\n'])) = loads (dumpsWith bare d ++ ['\n']) := rfl
  rw [this]
  have hc : ∀ v, PlainValue v → ValueBack bare v := by
    intro v hv
    cases v with
    | str s => exact fun c hc => readBack_plain ⟨(hv.1 c hc).1, (hv.1 c hc).2.2.1, (hv.1 c hc).2.2.2⟩
    | _ => trivial
  exact loads_of hd fun p hp => ⟨hc (.str p.1) (h p hp).1, hc _ (h p hp).2⟩

theorem import_shortFile {i : Info} (h : PlainInfo i) : importVersions (shortFile i) = some i := by
  have hd := plainDict_of h
  obtain ⟨h1, h2, h3⟩ := entries_file hd
  have e : shortFile i = shortHead ++ ('\n' :: (dumps (dictOf i) ++ '\n' :: ("'''".toList ++ shortTail.drop 3))) := by
    have : "'''".toList ++ shortTail.drop 3 = shortTail := by decide +kernel
    rw [this]
    simp [shortFile]
  have ea : ∀ p r : Str, after? p (p ++ r) = some r := by
    intro p r
    unfold after?
    rw [if_pos (List.isPrefixOf_iff_prefix.2 (List.prefix_append _ _)), List.drop_left]
  unfold importVersions
  rw [e, ea]
  simp only
  have c1 : ("{\n ".toList).flatMap inFile = "{\n ".toList := by decide +kernel
  have c2 : ("\n}".toList).flatMap inFile = "\n}".toList := by decide +kernel
  have l1 : ∀ c ∈ "{\n ".toList, Legible c := by unfold Legible; decide
  have l2 : ∀ c ∈ "\n}".toList, Legible c := by unfold Legible; decide
  have ef : '\n' :: (dumps (dictOf i) ++ '\n' :: ("'''".toList ++ shortTail.drop 3)) =
      ('\n' :: dumpsWith bare (dictOf i)).flatMap inFile ++ '\n' :: ("'''".toList ++ shortTail.drop 3) := by
    simp only [dumps, dumpsWith, h1, List.flatMap_cons, List.flatMap_append, c1, c2]
    rfl
  have hlen : ('\n' :: dumpsWith bare (dictOf i)).length ≤ (('\n' :: dumpsWith bare (dictOf i)).flatMap inFile).length := by
    have : ∀ c, 1 ≤ (inFile c).length := by
      intro c
      unfold inFile
      split
      · simp
      · exact (readBack_escape c).1
    generalize '\n' :: dumpsWith bare (dictOf i) = s
    induction s with
    | nil => simp
    | cons c s ih =>
      have := this c
      simp only [List.flatMap_cons, List.length_cons, List.length_append]
      omega
  have hs := scanLiteral_of (x := '\n' :: dumpsWith bare (dictOf i)) (by
      intro c hc
      simp only [dumpsWith, List.mem_cons, List.mem_append] at hc
      rcases hc with rfl | (hc | hc) | hc
      · exact .inl rfl
      · exact l1 c (by simpa using hc)
      · exact h2 c hc
      · exact l2 c (by simpa using hc))
    (by
      have : '\n' :: dumpsWith bare (dictOf i) = '\n' :: '{' :: '\n' :: ' ' :: (dumpsEntries bare (dictOf i) ++ '\n' :: ['}']) := by
        simp [dumpsWith]
      rw [this, triple_cons (by decide), triple_cons (by decide), triple_cons (by decide), triple_cons (by decide),
        h3 _ _ (by decide)]
      decide)
    (shortTail.drop 3) (n := (('\n' :: dumpsWith bare (dictOf i)).flatMap inFile ++ '\n' :: ("'''".toList ++ shortTail.drop 3)).length)
    (by
      have : "'''".toList.length = 3 := by decide
      simp only [List.length_append, List.length_cons] at hlen ⊢
      omega)
  rw [ef, hs]
  simp only
  rw [if_pos (by decide +kernel), List.cons_append, loads_bare (by simp [dictOf]) hd, Option.bind_some, infoOf_dictOf]

end TC.Props
