import Verif.Spec.Errors
import Verif.Props.Dispatcher
import Verif.Props.TcalMain

/-!
# C73: what the exceptions of the library say
-/

namespace TC.Props
open TC.Spec TC.Errors TC.Registry
open TC.Tcal (Str)

/-! ## `str.format` -/

theorem fl_plain {kw : List (Str × Str)} {c : Char} (h : c ≠ '{') (h' : c ≠ '}') (t : Str) :
    formatLoop kw none (c :: t) = (formatLoop kw none t).map (c :: ·) := by
  rw [formatLoop.eq_def]
  split <;> simp_all

theorem fl_open2 (kw : List (Str × Str)) (t : Str) :
    formatLoop kw none ('{' :: '{' :: t) = (formatLoop kw none t).map ('{' :: ·) := by
  rw [formatLoop]

theorem fl_close2 (kw : List (Str × Str)) (t : Str) :
    formatLoop kw none ('}' :: '}' :: t) = (formatLoop kw none t).map ('}' :: ·) := by
  rw [formatLoop]

theorem fl_open (kw : List (Str × Str)) {c : Char} (h : c ≠ '{') (t : Str) :
    formatLoop kw none ('{' :: c :: t) = formatLoop kw (some []) (c :: t) := by
  rw [formatLoop.eq_def]
  split <;> simp_all
  next h _ e => exact absurd e.1.symm h

theorem fl_name (kw : List (Str × Str)) (r : Str) : ∀ (n acc : Str), '}' ∉ n →
    formatLoop kw (some acc) (n ++ '}' :: r) =
      match kw.lookup (acc ++ n) with
      | none => .error .keyError
      | some v => (formatLoop kw none r).map (v ++ ·) := by
  intro n
  induction n with
  | nil => intro acc _; simp only [List.nil_append, List.append_nil]; rw [formatLoop]; rfl
  | cons c n ih =>
    intro acc h
    simp only [List.mem_cons, not_or] at h
    have e : formatLoop kw (some acc) (c :: (n ++ '}' :: r)) = formatLoop kw (some (acc ++ [c])) (n ++ '}' :: r) := by
      rw [formatLoop.eq_def]
      split <;> simp_all
    rw [List.cons_append, e, ih _ h.2]
    simp

theorem fl_place (kw : List (Str × Str)) (r : Str) {n : Str} (h : ArgName n) :
    formatLoop kw none (['{'] ++ n ++ ['}'] ++ r) =
      match kw.lookup n with
      | none => .error .keyError
      | some v => (formatLoop kw none r).map (v ++ ·) := by
  obtain ⟨hne, ho, hc⟩ := h
  match n, hne with
  | c :: n, _ =>
    simp only [List.mem_cons, not_or] at ho
    have := fl_name kw r (c :: n) [] hc
    simp only [List.nil_append] at this
    rw [← this]
    simp only [List.cons_append, List.nil_append, List.append_assoc]
    exact fl_open kw (fun h => ho.1 h.symm) _

theorem fl_text (kw : List (Str × Str)) (r : Str) (t : Str) :
    formatLoop kw none (t.flatMap (fun c => if c = '{' ∨ c = '}' then [c, c] else [c]) ++ r) =
      (formatLoop kw none r).map (t ++ ·) := by
  induction t with
  | nil =>
    simp only [List.flatMap_nil, List.nil_append]
    cases formatLoop kw none r <;> rfl
  | cons c t ih =>
    simp only [List.flatMap_cons, List.append_assoc]
    by_cases h : c = '{'
    · subst h
      simp only [true_or, if_true, List.cons_append, List.nil_append]
      rw [fl_open2, ih]
      cases formatLoop kw none r <;> rfl
    · by_cases h' : c = '}'
      · subst h'
        simp only [or_true, if_true, List.cons_append, List.nil_append]
        rw [fl_close2, ih]
        cases formatLoop kw none r <;> rfl
      · simp only [h, h', or_self, if_false, List.cons_append, List.nil_append]
        rw [fl_plain h h', ih]
        cases formatLoop kw none r <;> rfl

/-- **C73.**  The text of an exception whose class has a message made of texts and places, for any message and any
arguments: the arguments stand in their places as they are, braces in them too. -/
theorem c73_format {ps : List Piece} {s : Str} {x : Exc} (hp : ∀ n, Piece.place n ∈ ps → ArgName n)
    (hm : x.msg = some (writtenPieces ps)) (h : Says (fun n => x.kwargs.lookup n) ps s) : x.str = .ok s := by
  have main : ∀ {ps : List Piece} {s : Str}, Says (fun n => x.kwargs.lookup n) ps s →
      (∀ n, Piece.place n ∈ ps → ArgName n) → formatLoop x.kwargs none (writtenPieces ps) = .ok s := by
    intro ps s h
    induction h with
    | done => intro _; rfl
    | @text t s ps _ ih =>
      intro hp
      have := ih fun n hn => hp n (by simp [hn])
      simp only [writtenPieces, List.flatMap_cons] at this ⊢
      rw [fl_text, this]; rfl
    | @place n v s ps hv _ ih =>
      intro hp
      have := ih fun n hn => hp n (by simp [hn])
      simp only [writtenPieces, List.flatMap_cons] at this ⊢
      rw [fl_place _ _ (hp n (by simp)), this]
      simp only [hv]; rfl
  simp only [Exc.str, hm, format]
  exact main h hp

example : ∃ (ps : List Piece) (s : Str) (x : Exc), (∀ n, Piece.place n ∈ ps → ArgName n) ∧
    x.msg = some (writtenPieces ps) ∧ Says (fun n => x.kwargs.lookup n) ps s ∧ s = "{a} is {name}!".toList :=
  ⟨[.text "{a} is ".toList, .place "n".toList, .text "!".toList], "{a} is {name}!".toList,
    { msg := some "{{a}} is {n}!".toList, kwargs := [("n".toList, "{name}".toList)] },
    by intro n hn; simp at hn; subst hn; exact ⟨by decide, by decide, by decide⟩, by decide +kernel,
    .text (s := "{name}!".toList) (.place (v := "{name}".toList) (s := "!".toList) (by decide +kernel) (.text (s := []) .done)), rfl⟩

/-- **C73.**  If there is no argument for a place, reading the text raises `KeyError`. -/
theorem c73_missing {ps : List Piece} {x : Exc} (hp : ∀ n, Piece.place n ∈ ps → ArgName n)
    (hm : x.msg = some (writtenPieces ps)) {n : Str} (hn : Piece.place n ∈ ps) (h : x.kwargs.lookup n = none) :
    x.str = .error .keyError := by
  have main : ∀ ps : List Piece, (∀ n, Piece.place n ∈ ps → ArgName n) → Piece.place n ∈ ps →
      formatLoop x.kwargs none (writtenPieces ps) = .error .keyError := by
    intro ps
    induction ps with
    | nil => intro _ h; simp at h
    | cons p ps ih =>
      intro hp hn
      have hp' : ∀ n, Piece.place n ∈ ps → ArgName n := fun n hn => hp n (by simp [hn])
      cases p with
      | text t =>
        simp only [List.mem_cons, reduceCtorEq, false_or] at hn
        have := ih hp' hn
        simp only [writtenPieces, List.flatMap_cons] at this ⊢
        rw [fl_text, this]; rfl
      | place m =>
        simp only [writtenPieces, List.flatMap_cons]
        rw [fl_place _ _ (hp m (by simp))]
        cases hl : x.kwargs.lookup m with
        | none => rfl
        | some v =>
          have hne : n ≠ m := by rintro rfl; simp [h] at hl
          have := ih hp' (by simpa [hne] using hn)
          simp only [writtenPieces] at this
          simp only [this]; rfl
  simp only [Exc.str, hm, format]
  exact main ps hp hn

example : (Exc.str { msg := some "no {this}".toList, kwargs := [] }) = .error .keyError := by decide +kernel

/-! ## `repr` -/

theorem hexNumber_value {ds : Str} {n : Nat} (h : HexNumber ds n) :
    n = ds.foldl (fun a c => 16 * a + (if c.toNat < 58 then c.toNat - 48 else c.toNat - 87)) 0 := by
  induction h with
  | nil => rfl
  | @snoc ds n k c _ hd ih =>
    rw [List.foldl_append, ← ih]
    simp only [List.foldl_cons, List.foldl_nil]
    rcases hd with ⟨h1, h2⟩ | ⟨h1, h2, h3⟩
    · rw [if_pos (by omega)]; omega
    · rw [if_neg (by omega)]; omega

theorem charToNat_inj {c d : Char} (h : c.toNat = d.toNat) : c = d := by
  rw [← Char.ofNat_toNat c, h, Char.ofNat_toNat]

/-- A literal ends at its closing quote, and denotes one string. -/
theorem literalBody_unique {q : Char} (hq : q ≠ '\\') {t s : Str} (h : LiteralBody q t s) :
    ∀ {t' s' r r' : Str}, LiteralBody q t' s' → t ++ q :: r = t' ++ q :: r' → t = t' ∧ s = s' ∧ r = r' := by
  induction h with
  | nil =>
    intro t' s' r r' h' e
    cases h' with
    | nil => simp at e; exact ⟨rfl, rfl, e⟩
    | plain h1 => simp at e; exact absurd e.1.symm h1
    | escaped => simp at e; exact absurd e.1 hq
    | number => simp at e; exact absurd e.1 hq
  | @plain c t s h1 h2 h3 h4 _ ih =>
    intro t' s' r r' h' e
    cases h' with
    | nil => simp at e; exact absurd e.1 h1
    | plain g1 g2 g3 g4 g =>
      simp at e
      obtain ⟨rfl, e⟩ := e
      obtain ⟨rfl, rfl, rfl⟩ := ih g e
      exact ⟨rfl, rfl, rfl⟩
    | escaped => simp at e; exact absurd e.1 h2
    | number => simp at e; exact absurd e.1 h2
  | @escaped k c t s hk _ ih =>
    intro t' s' r r' h' e
    cases h' with
    | nil => simp at e; exact absurd e.1.symm hq
    | plain g1 g2 => simp at e; exact absurd e.1.symm g2
    | @escaped k' c' t' s' hk' g =>
      simp at e
      obtain ⟨rfl, e⟩ := e
      obtain ⟨rfl, rfl, rfl⟩ := ih g e
      have : c = c' := by
        simp only [List.mem_cons, Prod.mk.injEq, List.not_mem_nil, or_false] at hk hk'
        rcases hk with ⟨rfl, rfl⟩ | ⟨rfl, rfl⟩ | ⟨rfl, rfl⟩ | ⟨rfl, rfl⟩ | ⟨rfl, rfl⟩ | ⟨rfl, rfl⟩ <;>
          rcases hk' with ⟨h, rfl⟩ | ⟨h, rfl⟩ | ⟨h, rfl⟩ | ⟨h, rfl⟩ | ⟨h, rfl⟩ | ⟨h, rfl⟩ <;>
          first | rfl | exact absurd h (by decide)
      exact ⟨rfl, by rw [this], rfl⟩
    | @number k' w c' ds t' s' hk' =>
      simp at e
      obtain ⟨rfl, e⟩ := e
      simp only [List.mem_cons, Prod.mk.injEq, List.not_mem_nil, or_false] at hk hk'
      rcases hk' with ⟨rfl, _⟩ | ⟨rfl, _⟩ | ⟨rfl, _⟩ <;> simp at hk
  | @number k w c ds t s hk hl hn _ ih =>
    intro t' s' r r' h' e
    cases h' with
    | nil => simp at e; exact absurd e.1.symm hq
    | plain g1 g2 => simp at e; exact absurd e.1.symm g2
    | @escaped k' c' t' s' hk' g =>
      simp at e
      obtain ⟨rfl, e⟩ := e
      simp only [List.mem_cons, Prod.mk.injEq, List.not_mem_nil, or_false] at hk hk'
      rcases hk with ⟨rfl, _⟩ | ⟨rfl, _⟩ | ⟨rfl, _⟩ <;> simp at hk'
    | @number k' w' c' ds' t' s' hk' hl' hn' g =>
      simp only [List.cons_append, List.cons.injEq, true_and, List.append_assoc] at e
      obtain ⟨rfl, e⟩ := e
      have hw : w = w' := by
        simp only [List.mem_cons, Prod.mk.injEq, List.not_mem_nil, or_false] at hk hk'
        rcases hk with ⟨rfl, rfl⟩ | ⟨rfl, rfl⟩ | ⟨rfl, rfl⟩ <;>
          rcases hk' with ⟨h, rfl⟩ | ⟨h, rfl⟩ | ⟨h, rfl⟩ <;> first | rfl | exact absurd h (by decide)
      obtain ⟨rfl, e2⟩ := List.append_inj e (by rw [hl, hl', hw])
      obtain ⟨rfl, rfl, rfl⟩ := ih g e2
      have : c = c' := charToNat_inj ((hexNumber_value hn).trans (hexNumber_value hn').symm)
      exact ⟨rfl, by rw [this], rfl⟩

theorem literal_unique {l s l' s' r r' : Str} (h : StringLiteral l s) (h' : StringLiteral l' s')
    (e : l ++ r = l' ++ r') : l = l' ∧ s = s' ∧ r = r' := by
  obtain ⟨q, t, hq, rfl, hb⟩ := h
  obtain ⟨q', t', hq', rfl, hb'⟩ := h'
  simp only [List.cons_append, List.append_assoc, List.nil_append, List.cons.injEq] at e
  obtain ⟨rfl, e⟩ := e
  have hne : q ≠ '\\' := by rcases hq with rfl | rfl <;> decide
  obtain ⟨rfl, rfl, rfl⟩ := literalBody_unique hne hb hb' e
  exact ⟨rfl, rfl, rfl⟩

theorem hexNumber_hex : ∀ (w n : Nat), n < 16 ^ w → HexNumber (hex w n) n ∧ (hex w n).length = w ∧
    ∀ c ∈ hex w n, 48 ≤ c.toNat ∧ c.toNat < 127 := by
  intro w
  induction w with
  | zero => intro n h; simp at h; subst h; exact ⟨.nil, rfl, by simp [hex]⟩
  | succ w ih =>
    intro n h
    obtain ⟨h1, h2, h3⟩ := ih (n / 16) (by rw [Nat.pow_succ] at h; omega)
    have hlt : (if n % 16 < 10 then 48 + n % 16 else 87 + n % 16) < 127 := by split <;> omega
    have hc : (Char.ofNat (if n % 16 < 10 then 48 + n % 16 else 87 + n % 16)).toNat =
        if n % 16 < 10 then 48 + n % 16 else 87 + n % 16 := by
      have : ∀ m : Fin 16, (Char.ofNat (if m.val < 10 then 48 + m.val else 87 + m.val)).toNat =
          if m.val < 10 then 48 + m.val else 87 + m.val := by decide
      exact this ⟨n % 16, by omega⟩
    refine ⟨?_, by simp [hex, h2], ?_⟩
    · have : n = 16 * (n / 16) + n % 16 := by omega
      rw [hex]
      conv => rhs; rw [this]
      refine .snoc h1 ?_
      unfold HexDigit
      rw [hc]
      split
      · exact .inl ⟨by omega, rfl⟩
      · exact .inr ⟨by omega, by omega, rfl⟩
    · intro c hm
      simp only [hex, List.mem_append, List.mem_singleton] at hm
      rcases hm with hm | rfl
      · exact h3 c hm
      · rw [hc]; exact ⟨by split <;> omega, hlt⟩

theorem char_lt (c : Char) : c.toNat < 16 ^ 8 := by
  have := c.valid
  have h : c.toNat = c.val.toNat := rfl
  rw [h]
  rcases this with h | h <;> omega

theorem reprChar_spec (printable : Char → Bool) {q : Char} (hq : q = '\'' ∨ q = '"') (c : Char) :
    (∀ t s, LiteralBody q t s → LiteralBody q (reprChar printable q c ++ t) (c :: s)) ∧
    ∀ d ∈ reprChar printable q c, CanShow printable d := by
  have ascii : ∀ d : Char, 32 ≤ d.toNat → d.toNat < 127 → CanShow printable d := fun d h h' => .inl ⟨h, h'⟩
  have bs : CanShow printable '\\' := ascii _ (by decide) (by decide)
  have num : ∀ (k : Char) (w : Nat), (k, w) ∈ [('x', 2), ('u', 4), ('U', 8)] → c.toNat < 16 ^ w →
      (∀ t s, LiteralBody q t s → LiteralBody q (('\\' :: k :: hex w c.toNat) ++ t) (c :: s)) ∧
      ∀ d ∈ '\\' :: k :: hex w c.toNat, CanShow printable d := by
    intro k w hk hw
    obtain ⟨h1, h2, h3⟩ := hexNumber_hex w c.toNat hw
    refine ⟨fun t s h => .number hk h2 h1 h, ?_⟩
    intro d hd
    simp only [List.mem_cons] at hd
    rcases hd with rfl | rfl | hd
    · exact bs
    · simp only [List.mem_cons, Prod.mk.injEq, List.not_mem_nil, or_false] at hk
      rcases hk with ⟨rfl, _⟩ | ⟨rfl, _⟩ | ⟨rfl, _⟩ <;> exact ascii _ (by decide) (by decide)
    · exact ascii _ (by have := (h3 d hd).1; omega) (h3 d hd).2
  have esc : ∀ e : Char, (e, c) ∈ [('\\', '\\'), ('\'', '\''), ('"', '"'), ('t', Char.ofNat 9),
        ('n', Char.ofNat 10), ('r', Char.ofNat 13)] →
      (∀ t s, LiteralBody q t s → LiteralBody q (['\\', e] ++ t) (c :: s)) ∧
      ∀ d ∈ ['\\', e], CanShow printable d := by
    intro e he
    refine ⟨fun t s h => .escaped he h, ?_⟩
    intro d hd
    simp only [List.mem_cons, List.not_mem_nil, or_false] at hd
    rcases hd with rfl | rfl
    · exact bs
    · simp only [List.mem_cons, Prod.mk.injEq, List.not_mem_nil, or_false] at he
      rcases he with ⟨rfl, _⟩ | ⟨rfl, _⟩ | ⟨rfl, _⟩ | ⟨rfl, _⟩ | ⟨rfl, _⟩ | ⟨rfl, _⟩ <;>
        exact ascii _ (by decide) (by decide)
  unfold reprChar
  split
  next h =>
    apply esc
    rcases h with rfl | rfl
    · rcases hq with rfl | rfl <;> simp
    · simp
  next h1 =>
  split
  next h => subst h; exact esc 't' (by decide)
  next h2 =>
  split
  next h => subst h; exact esc 'n' (by decide)
  next h3 =>
  split
  next h => subst h; exact esc 'r' (by decide)
  next h4 =>
  have self : CanShow printable c → (∀ t s, LiteralBody q t s → LiteralBody q ([c] ++ t) (c :: s)) ∧
      ∀ d ∈ [c], CanShow printable d := fun hs =>
    ⟨fun t s h => .plain (fun e => h1 (.inl e)) (fun e => h1 (.inr e)) h3 h4 h, by simpa using hs⟩
  split
  next h => exact num 'x' 2 (by simp) (by omega)
  next h5 =>
  split
  next h => exact self (ascii _ (by omega) h)
  next h6 =>
  split
  next h => exact self (.inr ⟨by omega, h⟩)
  next h7 =>
  split
  next h => exact num 'x' 2 (by simp) (by omega)
  next h8 =>
  split
  next h => exact num 'u' 4 (by simp) (by omega)
  next h9 => exact num 'U' 8 (by simp) (char_lt c)

/-- **C73.**  `repr` of any string is a literal for it, and has only characters that can be shown: no line breaks,
quotes that are not escaped, or control characters, whatever is in the string. -/
theorem c73_repr (printable : Char → Bool) (s : Str) :
    StringLiteral (pyRepr printable s) s ∧ ∀ c ∈ pyRepr printable s, CanShow printable c := by
  have hq : (if '\'' ∈ s ∧ '"' ∉ s then '"' else '\'') = '\'' ∨ (if '\'' ∈ s ∧ '"' ∉ s then '"' else '\'') = '"' := by
    split
    · exact .inr rfl
    · exact .inl rfl
  simp only [pyRepr]
  generalize (if '\'' ∈ s ∧ '"' ∉ s then '"' else '\'') = q at hq
  constructor
  · refine ⟨q, _, hq, rfl, ?_⟩
    induction s with
    | nil => exact .nil
    | cons c s ih => exact (reprChar_spec printable hq c).1 _ _ ih
  · have hcq : CanShow printable q := by rcases hq with rfl | rfl <;> exact .inl (by decide)
    intro c hc
    simp only [List.mem_cons, List.mem_append, List.mem_flatMap, List.not_mem_nil, or_false] at hc
    rcases hc with rfl | ⟨d, _, hd⟩ | rfl
    · exact hcq
    · exact (reprChar_spec printable hq d).2 c hd
    · exact hcq

example : pyRepr (fun _ => false) "it's\n\\ é".toList = "\"it's\\n\\\\ \\xe9\"".toList := by decide +kernel

/-! ## The texts of the three exceptions -/

theorem str_one {pre name suf msg : Str} (v : Str) (hn : ArgName name)
    (hm : msg = writtenPieces [.text pre, .place name, .text suf]) :
    Exc.str { msg := some msg, kwargs := [(name, v)] } = .ok (pre ++ v ++ suf) := by
  apply c73_format (ps := [.text pre, .place name, .text suf])
  · intro m hm; simp at hm; subst hm; exact hn
  · rw [hm]
  · have := Says.text (arg := fun m => List.lookup m [(name, v)]) (t := pre)
      (.place (n := name) (v := v) (by simp) (.text (t := suf) .done))
    simpa only [List.append_assoc, List.append_nil] using this

theorem textOf_invalid (printable : Char → Bool) (n : String) (text : Str) :
    TextOf printable (.invalidCalendarName n) text ↔ text = unknownText n := by
  have : (Exc.str { msg := some invalidCalendarNameMsg, kwargs := [("calendar_name".toList, n.toList)] }) =
      .ok (unknownText n) := by
    exact str_one (pre := "The requested TradingCalendar, ".toList) (suf := ", does not exist.".toList) _ ⟨by decide, by decide, by decide⟩
      (by decide +kernel)
  constructor
  · rintro ⟨x, hx, h⟩
    simp only [excOf, Option.some.injEq] at hx
    subst hx
    rw [this] at h
    exact (Except.ok.inj h).symm
  · rintro rfl
    exact ⟨_, rfl, this⟩

theorem textOf_collision (printable : Char → Bool) (n : String) (text : Str) :
    TextOf printable (.calendarNameCollision n) text ↔ text = takenText n := by
  have : (Exc.str { msg := some calendarNameCollisionMsg, kwargs := [("calendar_name".toList, n.toList)] }) =
      .ok (takenText n) := by
    exact str_one (pre := "A calendar with the name ".toList) (suf := " is already registered.".toList) _ ⟨by decide, by decide, by decide⟩
      (by decide +kernel)
  constructor
  · rintro ⟨x, hx, h⟩
    simp only [excOf, Option.some.injEq] at hx
    subst hx
    rw [this] at h
    exact (Except.ok.inj h).symm
  · rintro rfl
    exact ⟨_, rfl, this⟩

theorem cycleText_eq (printable : Char → Bool) (report : List String) :
    cycleText printable report = " -> ".toList.intercalate (report.map fun k => pyRepr printable k.toList) := by
  induction report with
  | nil => rfl
  | cons k ks ih =>
    cases ks with
    | nil => simp [cycleText, List.intercalate, List.intersperse]
    | cons k' ks =>
      rw [cycleText, ih]
      · simp [List.intercalate, List.intersperse]
      · simp

theorem textOf_cyclic (printable : Char → Bool) (report : List String) (text : Str) :
    TextOf printable (.cyclicCalendarAlias report) text ↔
      text = "Cycle in calendar aliases: [".toList ++ cycleText printable report ++ "]".toList := by
  have : (Exc.str { msg := some cyclicCalendarAliasMsg, kwargs := [("cycle".toList, cycleText printable report)] }) =
      .ok ("Cycle in calendar aliases: [".toList ++ cycleText printable report ++ "]".toList) := by
    exact str_one (pre := "Cycle in calendar aliases: [".toList) (suf := "]".toList) _ ⟨by decide, by decide, by decide⟩
      (by decide +kernel)
  constructor
  · rintro ⟨x, hx, h⟩
    simp only [excOf, Option.some.injEq] at hx
    subst hx
    rw [this] at h
    exact (Except.ok.inj h).symm
  · rintro rfl
    exact ⟨_, rfl, this⟩

theorem cycleText_spec {printable : Char → Bool} {report : List String} {text : Str}
    (h : TextOf printable (.cyclicCalendarAlias report) text) : CycleText printable report text := by
  rw [textOf_cyclic, cycleText_eq] at h
  refine ⟨_, h, by simp, ?_, ?_⟩
  · intro i l n hl hn
    simp only [List.getElem?_map, hn, Option.map_some, Option.some.injEq] at hl
    subst hl
    exact (c73_repr printable n.toList).1
  · intro l hl c hc
    simp only [List.mem_map] at hl
    obtain ⟨k, _, rfl⟩ := hl
    exact (c73_repr printable k.toList).2 c hc

/-- **C73.**  The names in the text of a `CyclicCalendarAlias` can be read off it: texts for different cycles are
different, whatever quotes, arrows or brackets are in the names. -/
theorem c73_cycle_read {printable : Char → Bool} {report report' : List String} {text : Str}
    (h : CycleText printable report text) (h' : CycleText printable report' text) : report = report' := by
  obtain ⟨ls, rfl, hlen, hl, _⟩ := h
  obtain ⟨ls', e, hlen', hl', _⟩ := h'
  have e : " -> ".toList.intercalate ls ++ "]".toList = " -> ".toList.intercalate ls' ++ "]".toList := by
    simpa only [List.append_assoc, List.append_cancel_left_eq] using e
  have key : ∀ (ls ls' : List Str) (report report' : List String), ls.length = report.length →
      ls'.length = report'.length →
      (∀ (i : Nat) (l : Str) (n : String), ls[i]? = some l → report[i]? = some n → StringLiteral l n.toList) →
      (∀ (i : Nat) (l : Str) (n : String), ls'[i]? = some l → report'[i]? = some n → StringLiteral l n.toList) →
      " -> ".toList.intercalate ls ++ "]".toList = " -> ".toList.intercalate ls' ++ "]".toList → report = report' := by
    intro ls
    induction ls with
    | nil =>
      intro ls' report report' hlen hlen' hl hl' e
      cases report with
      | cons => simp at hlen
      | nil =>
        cases ls' with
        | nil => cases report' with
          | nil => rfl
          | cons => simp at hlen'
        | cons l ls' =>
          cases report' with
          | nil => simp at hlen'
          | cons n report' =>
            obtain ⟨q, t, hq, rfl, _⟩ := hl' 0 _ _ rfl rfl
            cases ls' <;> simp [List.intercalate, List.intersperse] at e <;>
              (rcases hq with rfl | rfl <;> simp at e)
    | cons l ls ih =>
      intro ls' report report' hlen hlen' hl hl' e
      cases report with
      | nil => simp at hlen
      | cons n report =>
        have hn := hl 0 _ _ rfl rfl
        cases ls' with
        | nil =>
          obtain ⟨q, t, hq, rfl, _⟩ := hn
          cases ls <;> simp [List.intercalate, List.intersperse] at e <;>
            (rcases hq with rfl | rfl <;> simp at e)
        | cons l' ls' =>
          cases report' with
          | nil => simp at hlen'
          | cons n' report' =>
            have hn' := hl' 0 _ _ rfl rfl
            have more : ∀ (l : Str) (ls : List Str), " -> ".toList.intercalate (l :: ls) ++ "]".toList =
                l ++ (match ls with | [] => "]".toList | _ => " -> ".toList ++ (" -> ".toList.intercalate ls ++ "]".toList)) := by
              intro l ls
              cases ls <;> simp [List.intercalate, List.intersperse]
            rw [more, more] at e
            obtain ⟨rfl, h1, h2⟩ := literal_unique hn hn' e
            have hnn : n = n' := String.toList_inj.1 h1
            subst hnn
            cases ls with
            | nil =>
              cases ls' with
              | nil =>
                cases report <;> cases report' <;> simp_all
              | cons => simp at h2
            | cons a as =>
              cases ls' with
              | nil => simp at h2
              | cons b bs =>
                simp only [List.append_cancel_left_eq] at h2
                rw [ih (b :: bs) report report' (by simpa using hlen) (by simpa using hlen')
                  (fun i l n h h' => hl (i + 1) l n h h') (fun i l n h h' => hl' (i + 1) l n h h') h2]
  exact key ls ls' report report' hlen hlen' hl hl' e

example (printable : Char → Bool) : ∃ text, CycleText printable ["a", "b' -> 'c", "a"] text ∧
    text ≠ "Cycle in calendar aliases: ['a' -> 'b' -> 'c' -> 'a']".toList := by
  refine ⟨_, cycleText_spec ((textOf_cyclic printable _ _).2 rfl), ?_⟩
  simp [cycleText, pyRepr, reprChar]

/-- **C73.**  `get_calendar` of a name that leads to one with neither calendar nor factory names the name that was
asked for, as it is. -/
theorem c73_unknown (printable : Char → Bool) (env : FactoryEnv) {s : Registry} {n c : String}
    (hr : ResolvesTo (alias s) n c) (hc : s.calendars.get? c = none) (hf : s.factories.get? c = none) :
    ∃ e, (s.step env (.get n)).2 = .error e ∧ ∀ text, TextOf printable e text ↔ text = unknownText n := by
  refine ⟨.invalidCalendarName n, ?_, textOf_invalid printable n⟩
  have := (resolveAlias_ok_iff s n c).2 hr
  simp [step, getCalendar, this, hc, hf, Except.map]

example : ResolvesTo (alias defaultRegistry) "X{Y}Z" "X{Y}Z" ∧ defaultRegistry.calendars.get? "X{Y}Z" = none ∧
    defaultRegistry.factories.get? "X{Y}Z" = none :=
  ⟨.done (by decide +kernel), by decide +kernel, by decide +kernel⟩

/-- **C73.**  A registration that is refused because the name is taken says so about the name, as it is. -/
theorem c73_taken (printable : Char → Bool) (env : FactoryEnv) {s : Registry} {n : String} (hk : Known s n)
    (op : Op) (hop : (∃ c, op = .registerCal n c false) ∨ (∃ f, op = .registerType n f false) ∨
      ∃ r, op = .registerAlias n r false) :
    ∃ e, (s.step env op).2 = .error e ∧ ∀ text, TextOf printable e text ↔ text = takenText n := by
  refine ⟨.calendarNameCollision n, ?_, textOf_collision printable n⟩
  have := (hasCalendar_iff s n).2 hk
  rcases hop with ⟨c, rfl⟩ | ⟨f, rfl⟩ | ⟨r, rfl⟩ <;>
    simp [step, registerCalendar, registerCalendarType, registerCalendarAlias, this, Except.map]

example : Known defaultRegistry "XNYS" := (hasCalendar_iff _ _).1 (by decide +kernel)

/-- **C73.**  The text about a cycle: the names that are followed from the one asked for up to the first that comes
again, as string literals, with arrows between them. -/
theorem c73_cyclic (printable : Char → Bool) (env : FactoryEnv) {s : Registry} {n : String}
    (hc : Cyclic (alias s) n) (op : Op) (hop : op = .get n ∨ op = .resolve n) :
    ∃ e report, (s.step env op).2 = .error e ∧ IsCycleReport (alias s) n report ∧
      (∃ text, TextOf printable e text) ∧ ∀ text, TextOf printable e text → CycleText printable report text := by
  obtain ⟨e, he⟩ := (resolveAlias_error_iff s n).2 hc
  obtain ⟨report, rfl, hrep⟩ := (c01_resolve_alias s n).2.1 e he
  refine ⟨_, report, ?_, hrep, ⟨_, (textOf_cyclic printable report _).2 rfl⟩, fun text => cycleText_spec⟩
  rcases hop with rfl | rfl <;> simp [step, getCalendar, he, Except.map]

example : Cyclic (alias demoCyclic) "a" :=
  (resolveAlias_error_iff _ _).1 ⟨.cyclicCalendarAlias ["a", "b", "c", "b"], by
    simp [resolveAlias, demoCyclic, resolveLoop, Dict.get?]⟩

/-- **C73.**  An alias that is refused because of a cycle: the text shows the cycle there would be. -/
theorem c73_refused (printable : Char → Bool) (env : FactoryEnv) {s : Registry} {a r : String} {report : List String}
    (h : (s.step env (.registerAlias a r false)).2 = .error (.cyclicCalendarAlias report)) :
    IsCycleReport (fun n => if n = a then some r else alias s n) a report ∧
      (∃ text, TextOf printable (.cyclicCalendarAlias report) text) ∧
      ∀ text, TextOf printable (.cyclicCalendarAlias report) text → CycleText printable report text := by
  refine ⟨?_, ⟨_, (textOf_cyclic printable report _).2 rfl⟩, fun text => cycleText_spec⟩
  simp only [step, registerCalendarAlias, Bool.false_eq_true, if_false] at h
  split at h
  · simp [Except.map] at h
  · cases hr : resolveAlias { s with aliases := s.aliases.set a r } a with
    | ok _ => simp [hr, Except.map] at h
    | error e =>
      simp only [hr, Except.map, Except.error.injEq] at h
      obtain ⟨rep, hrep, hcyc⟩ := (c01_resolve_alias _ _).2.1 e hr
      rw [hrep] at h
      cases h
      have : alias { s with aliases := s.aliases.set a r } = fun n => if n = a then some r else alias s n := by
        funext n; simp [alias, Dict.get?_set]
      rwa [this] at hcyc

example : (defaultRegistry.step (fun _ _ => .ok 0) (.registerAlias "me" "me" false)).2 =
    .error (.cyclicCalendarAlias ["me", "me"]) := by
  decide +kernel

/-- **C73.**  The text tells which exception it is and what it is about. -/
theorem c73_tells {printable : Char → Bool} {e e' : PyErr} {text : Str} (h : TextOf printable e text)
    (h' : TextOf printable e' text) : e = e' := by
  have kind : ∀ {e : PyErr} {text : Str}, TextOf printable e text → (∃ n, e = .invalidCalendarName n) ∨
      (∃ n, e = .calendarNameCollision n) ∨ ∃ r, e = .cyclicCalendarAlias r := by
    rintro e text ⟨x, hx, _⟩
    cases e <;> simp [excOf] at hx <;> simp
  have first : ∀ {e : PyErr} {text : Str}, TextOf printable e text →
      text.head? = match e with | .invalidCalendarName _ => some 'T' | .calendarNameCollision _ => some 'A' | _ => some 'C' := by
    intro e text h
    have ex : ∀ {c : Char} {l a b : Str}, l.head? = some c → (l ++ a ++ b).head? = some c := by
      intro c l a b h; cases l <;> simp_all
    rcases kind h with ⟨n, rfl⟩ | ⟨n, rfl⟩ | ⟨r, rfl⟩
    · rw [(textOf_invalid _ _ _).1 h]; exact ex (by decide +kernel)
    · rw [(textOf_collision _ _ _).1 h]; exact ex (by decide +kernel)
    · rw [(textOf_cyclic _ _ _).1 h]; exact ex (by decide +kernel)
  have mid : ∀ {p a b q : Str}, p ++ a ++ q = p ++ b ++ q → a = b := by
    intro p a b q h
    rwa [List.append_cancel_right_eq, List.append_cancel_left_eq] at h
  have f := first h
  have f' := first h'
  rcases kind h with ⟨n, rfl⟩ | ⟨n, rfl⟩ | ⟨r, rfl⟩ <;> rcases kind h' with ⟨n', rfl⟩ | ⟨n', rfl⟩ | ⟨r', rfl⟩ <;>
    simp only [f, Option.some.injEq, Char.reduceEq] at f'
  · have := ((textOf_invalid _ _ _).1 h).symm.trans ((textOf_invalid _ _ _).1 h')
    unfold unknownText at this
    rw [String.toList_inj.1 (mid this)]
  · have := ((textOf_collision _ _ _).1 h).symm.trans ((textOf_collision _ _ _).1 h')
    unfold takenText at this
    rw [String.toList_inj.1 (mid this)]
  · rw [c73_cycle_read (cycleText_spec h) (cycleText_spec h')]

/-- What can happen to an exception object: `message` or `str(...)` is read, or somebody changes `kwargs`. -/
inductive ExcHistory : Exc → Exc → Prop where
  | none (x : Exc) : ExcHistory x x
  | read {x y : Exc} : ExcHistory x y → ExcHistory x y.readMessage.1
  | assign {x y : Exc} (kwargs : List (Str × Str)) : ExcHistory x y → ExcHistory x { y with kwargs := kwargs }

/-- **C73.**  `message` is the text at the time it is first read without error, and stays so, even if the
arguments are changed; `str` is always the text for the present arguments. -/
theorem c73_message {x y : Exc} {m : Str} (hx : x.message = none) (h : x.readMessage.2 = .ok m)
    (hy : ExcHistory x.readMessage.1 y) : x.str = .ok m ∧ y.readMessage = (y, .ok m) ∧
      y.str = Exc.str { msg := x.msg, kwargs := y.kwargs } := by
  have e : x.str = .ok m ∧ x.readMessage.1 = { x with message := some m } := by
    unfold Exc.readMessage at h ⊢
    rw [hx] at h ⊢
    cases hs : x.str with
    | error e => rw [hs] at h; cases h
    | ok v => rw [hs] at h; cases h; exact ⟨rfl, rfl⟩
  have inv : y.message = some m ∧ y.msg = x.msg := by
    rw [e.2] at hy
    clear h e hx
    induction hy with
    | none => exact ⟨rfl, rfl⟩
    | read _ ih =>
      simp only [Exc.readMessage, ih.1]
      exact ⟨trivial, ih.2⟩
    | assign k _ ih => exact ih
  refine ⟨e.1, ?_, ?_⟩
  · simp [Exc.readMessage, inv.1]
  · simp [Exc.str, inv.2]

example : ∃ x : Exc, x.message = none ∧ x.readMessage.2 = .ok (takenText "XNYS") :=
  ⟨{ msg := some calendarNameCollisionMsg, kwargs := [("calendar_name".toList, "XNYS".toList)] }, rfl,
    by decide +kernel⟩

/-- **C73.**  The base class has no message: reading the text raises `AttributeError`, and so does reading `message`
however often it is read. -/
theorem c73_base (kwargs : List (Str × Str)) (n : Nat) :
    let x : Exc := { msg := none, kwargs := kwargs }
    x.str = .error .attributeError ∧
    (Nat.repeat (fun y : Exc => y.readMessage.1) n x).readMessage = (x, .error .attributeError) := by
  intro x
  have h1 : x.readMessage = (x, .error .attributeError) := rfl
  have h2 : Nat.repeat (fun y : Exc => y.readMessage.1) n x = x := by
    induction n with
    | zero => rfl
    | succ n ih => rw [Nat.repeat, ih, h1]
  rw [h2]
  exact ⟨rfl, h1⟩

/-- **C73.**  The command line tool shows this text, if the calendar is not known. -/
theorem c73_tcal (printable : Char → Bool) (w : Tcal.World)
    (hw : ∀ e text, TextOf printable e text → w.str e = text) {s : Registry} {argv0 name : Str} {rest : List Str}
    (hh : ¬ AsksHelp (argv0 :: name :: rest)) {c : String} (hr : ResolvesTo (alias s) (String.ofList name) c)
    (hc : s.calendars.get? c = none) (hf : s.factories.get? c = none) :
    Tcal.main w s (argv0 :: name :: rest) = (s, .exits (unknownText (String.ofList name))) := by
  have := (resolveAlias_ok_iff s _ c).2 hr
  have hg : s.getCalendar w.env (String.ofList name) = (s, .error (.invalidCalendarName (String.ofList name))) := by
    simp [getCalendar, this, hc, hf]
  rw [c62_no_calendar w s hh (by rw [hg]), hg,
    hw (.invalidCalendarName (String.ofList name)) _ ((textOf_invalid printable _ _).2 rfl)]

end TC.Props
