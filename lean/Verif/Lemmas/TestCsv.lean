import Verif.Lemmas.Civil
import Verif.Spec.TestCsv

/-! # Lemmas about the CSV files of the exchange calendar tests -/

namespace TC
open Spec Tcal TestCsv

/-! ### Digits -/

theorem digitChar_value : ∀ k, k < 10 → digitValue (Nat.digitChar k) = some k := by decide

theorem digitChar_zero : ∀ k, k < 10 → Nat.digitChar k = '0' → k = 0 := by decide

theorem digitsValue_append (s : Str) (c : Char) :
    digitsValue (s ++ [c]) = 10 * digitsValue s + (digitValue c).getD 0 := by
  simp [digitsValue]

theorem digitsValue_zeros (k : Nat) (s : Str) : digitsValue (List.replicate k '0' ++ s) = digitsValue s := by
  unfold digitsValue
  rw [List.foldl_append]
  congr 1
  induction k with
  | zero => rfl
  | succ k ih =>
    rw [List.replicate_succ, List.foldl_cons]
    exact ih

theorem toDigits_facts (n : Nat) : (∀ c ∈ Nat.toDigits 10 n, (digitValue c).isSome) ∧
    digitsValue (Nat.toDigits 10 n) = n ∧ (0 < n → (Nat.toDigits 10 n).head? ≠ some '0') := by
  induction n using Nat.strongRecOn with
  | ind n ih =>
    rw [Nat.toDigits_eq_if (by decide)]
    by_cases h : n < 10
    · rw [if_pos h]
      have hv := digitChar_value n h
      refine ⟨by simp [hv], by simp [digitsValue, hv], fun h0 he => ?_⟩
      have := digitChar_zero n h (by simpa using he)
      omega
    · rw [if_neg h]
      obtain ⟨h1, h2, h3⟩ := ih (n / 10) (by omega)
      have hv := digitChar_value (n % 10) (by omega)
      refine ⟨?_, ?_, fun _ => ?_⟩
      · intro c hc
        rcases List.mem_append.1 hc with hc | hc
        · exact h1 c hc
        · rw [List.mem_singleton.1 hc, hv]; rfl
      · rw [digitsValue_append, h2, hv]
        simp only [Option.getD_some]
        omega
      · rw [List.head?_append]
        have := h3 (by omega)
        generalize hd : (Nat.toDigits 10 (n / 10)).head? = o at this
        cases o with
        | none => exact absurd (List.head?_eq_none_iff.1 hd) Nat.toDigits_ne_nil
        | some c => simpa using this

theorem padded_zeroPad {w : Nat} (hw : 0 < w) {n : Int} (hn : 0 ≤ n) : Padded w n (zeroPad w n) := by
  obtain ⟨k, rfl⟩ := Int.eq_ofNat_of_zero_le hn
  obtain ⟨h1, h2, h3⟩ := toDigits_facts k
  have e : decimal (k : Int) = Nat.toDigits 10 k := by
    unfold decimal
    rw [if_neg (by omega)]
    rfl
  unfold zeroPad
  rw [e]
  refine ⟨?_, ?_, ?_⟩
  · intro c hc
    rcases List.mem_append.1 hc with hc | hc
    · rw [(List.mem_replicate.1 hc).2]; decide
    · exact h1 c hc
  · rw [digitsValue_zeros, h2]
  · by_cases hl : (Nat.toDigits 10 k).length ≤ w
    · left
      simp only [List.length_append, List.length_replicate]
      omega
    · right
      have hz : w - (Nat.toDigits 10 k).length = 0 := by omega
      rw [hz]
      refine ⟨by simp; omega, ?_⟩
      simp only [List.replicate_zero, List.nil_append]
      refine h3 ?_
      by_cases h0 : k = 0
      · subst h0
        simp at hl
        omega
      · omega

theorem Spec.Padded.unique {w w' : Nat} {n n' : Int} {s : Str} (h : Padded w n s) (h' : Padded w' n' s) : n = n' := by
  rw [← h.2.1, ← h'.2.1]

theorem Spec.Padded.digits {w : Nat} {n : Int} {s : Str} (h : Padded w n s) {c : Char} (hc : digitValue c = none) :
    c ∉ s := by
  intro hm
  have := h.1 c hm
  rw [hc] at this
  cases this

/-- A part up to the first separator is determined. -/
theorem sep_unique {c : Char} {a a' r r' : Str} (h : c ∉ a) (h' : c ∉ a') (e : a ++ c :: r = a' ++ c :: r') :
    a = a' ∧ r = r' := by
  induction a generalizing a' with
  | nil =>
    cases a' with
    | nil => simpa using e
    | cons x a' => simp at e; simp [e.1] at h'
  | cons x a ih =>
    cases a' with
    | nil => simp at e; simp [e.1] at h
    | cons x' a' =>
      simp only [List.cons_append, List.cons.injEq] at e
      simp only [List.mem_cons, not_or] at h h'
      obtain ⟨h1, h2⟩ := ih h.2 h'.2 e.2
      exact ⟨by rw [e.1, h1], h2⟩

/-! ### Dates -/

theorem str_dash : "-".toList = ['-'] := by decide
theorem str_colon : ":".toList = [':'] := by decide
theorem str_comma : ",".toList = [','] := by decide
theorem str_blank : " ".toList = [' '] := by decide
theorem str_newline : "\n".toList = ['\n'] := by decide

theorem fourDigits_day {v : Int} (h : FourDigits v) : 1000 ≤ yearOf (v / DAY) := by
  obtain ⟨d, hd, hv⟩ := h
  obtain ⟨hval, rfl⟩ := (dayNumber_iff _ _).1 hd
  have h1 : dayOf 1000 1 1 ≤ v / DAY := (Int.le_ediv_iff_mul_le DAY_pos).2 hv
  have h2 := yearOf_mono h1
  have h3 := yearOf_dayOf hval
  simp only at h3
  omega

theorem dateText_of {d : Int} (h : 0 ≤ yearOf d) : DateText d (dateText d) := by
  have hv := toDate_valid d
  refine ⟨toDate d, _, _, _, (dayNumber_iff _ _).2 ⟨hv, dayOf_toDate d⟩, padded_zeroPad (by decide) h,
    padded_zeroPad (by decide) ?_, padded_zeroPad (by decide) ?_, ?_⟩
  · have := hv.1; omega
  · have := hv.2.2.1; omega
  · simp only [str_dash, dateText, toDate]
    simp

theorem Spec.DateText.unique {d d' : Int} {s : Str} (h : DateText d s) (h' : DateText d' s) : d = d' := by
  obtain ⟨x, y, m, dd, h1, h2, h3, h4, e⟩ := h
  obtain ⟨x', y', m', dd', h1', h2', h3', h4', e'⟩ := h'
  rw [e] at e'
  simp only [str_dash, List.append_assoc, List.singleton_append] at e'
  have hd : digitValue '-' = none := by decide
  obtain ⟨rfl, e2⟩ := sep_unique (h2.digits hd) (h2'.digits hd) e'
  obtain ⟨rfl, rfl⟩ := sep_unique (h3.digits hd) (h3'.digits hd) e2
  rw [dayNumber_iff] at h1 h1'
  rw [← h1.2, ← h1'.2, h2.unique h2', h3.unique h3', h4.unique h4']

theorem Spec.DateText.clear {d : Int} {s : Str} (h : DateText d s) {c : Char} (hc : digitValue c = none)
    (hc' : c ≠ '-') : c ∉ s := by
  obtain ⟨x, y, m, dd, -, h2, h3, h4, rfl⟩ := h
  simp only [str_dash, List.append_assoc, List.mem_append, List.mem_singleton, not_or]
  exact ⟨h2.digits hc, hc', h3.digits hc, hc', h4.digits hc⟩

/-! ### Times -/

theorem fractionText_of {k : Nat} (hk : k = 0 ∨ k = 3 ∨ k = 6 ∨ k = 9) {v : Int}
    (hv : v % 10 ^ (9 - k) = 0) : FractionText k (v % 1000000000) (fraction k v) := by
  unfold fraction
  by_cases h0 : k = 0
  · subst h0
    rw [if_pos rfl]
    exact .inl ⟨rfl, rfl, by simpa using hv⟩
  · rw [if_neg h0]
    right
    have hp : Padded k (v % 1000000000 / 10 ^ (9 - k)) (zeroPad k (v % 1000000000 / 10 ^ (9 - k))) := by
      refine padded_zeroPad (by omega) ?_
      rcases hk with rfl | rfl | rfl | rfl <;> simp only [Nat.reduceSub, Int.reducePow] <;> omega
    refine ⟨_, by omega, rfl, ?_, hp.1, ?_⟩
    · rcases hp.2.2 with h | ⟨h, -⟩
      · exact h
      · exfalso
        unfold zeroPad at h
        simp only [List.length_append, List.length_replicate] at h
        have hlen : (decimal (v % 1000000000 / 10 ^ (9 - k))).length ≤ k := by
          unfold decimal
          rw [if_neg (by rcases hk with rfl | rfl | rfl | rfl <;> simp only [Nat.reduceSub, Int.reducePow] <;> omega)]
          refine (Nat.length_toDigits_le_iff (by decide) (by omega)).2 ?_
          rcases hk with rfl | rfl | rfl | rfl <;> simp only [Nat.reduceSub, Int.reducePow, Nat.reducePow] <;> omega
        omega
    · rw [hp.2.1]
      rcases hk with rfl | rfl | rfl | rfl <;> simp only [Nat.reduceSub, Int.reducePow] at hv ⊢ <;> omega

/-- The form shows the instant exactly. -/
def Fits : Form → Int → Prop
  | none, v => v % DAY = 0
  | some k, v => (k = 0 ∨ k = 3 ∨ k = 6 ∨ k = 9) ∧ v % 10 ^ (9 - k) = 0

theorem fits_formOf {vs : List Int} {v : Int} (hv : v ∈ vs) : Fits (formOf vs) v := by
  have hall : ∀ {p : Int → Bool}, ¬ vs.any p = true → p v = false := by
    intro p h
    cases hp : p v
    · rfl
    · exact absurd (List.any_eq_true.2 ⟨v, hv, hp⟩) h
  unfold formOf
  split
  · rename_i h
    simpa [Fits] using List.all_eq_true.1 h v hv
  · split
    · exact ⟨by simp, by simp only [Nat.reduceSub, Int.reducePow]; omega⟩
    · rename_i h1
      have a1 := hall h1
      simp only [bne_eq_false_iff_eq] at a1
      split
      · exact ⟨by simp, by simpa using a1⟩
      · rename_i h2
        have a2 := hall h2
        simp only [bne_eq_false_iff_eq] at a2
        split
        · exact ⟨by simp, by simp only [Nat.reduceSub, Int.reducePow]; omega⟩
        · rename_i h3
          have a3 := hall h3
          simp only [bne_eq_false_iff_eq] at a3
          exact ⟨by simp, by simp only [Nat.reduceSub, Int.reducePow]; omega⟩

theorem stampText_of {form : Form} {v : Int} (hv : FourDigits v) (hf : Fits form v) :
    StampText form v (stampText form v) := by
  have hy := fourDigits_day hv
  have hD : DAY = 86400000000000 := rfl
  cases form with
  | none =>
    exact ⟨v / DAY, by simp only [Fits, hD] at hf ⊢; omega, dateText_of (by omega)⟩
  | some k =>
    obtain ⟨hk, hf⟩ := hf
    refine ⟨v / DAY, _, _, by rw [hD]; omega, by rw [hD]; omega, dateText_of (by omega), ⟨v % DAY / 3600000000000,
      v % 3600000000000 / 60000000000, v % 60000000000 / 1000000000, v % 1000000000, _, _, _, _, by rw [hD]; omega,
      by omega, by omega, by omega, by omega, by omega, by omega, padded_zeroPad (by decide) (by rw [hD]; omega),
      padded_zeroPad (by decide) (by omega), padded_zeroPad (by decide) (by omega), fractionText_of hk hf,
      rfl⟩, ?_⟩
    simp only [stampText, str_colon, str_blank]
    simp

theorem Spec.FractionText.clear {k : Nat} {n : Int} {s : Str} (h : FractionText k n s) {c : Char}
    (hc : digitValue c = none) (hc' : c ≠ '.') : c ∉ s := by
  rcases h with ⟨-, rfl, -⟩ | ⟨f, -, rfl, -, h, -⟩
  · simp
  · intro hm
    rcases List.mem_cons.1 hm with rfl | hm
    · exact hc' rfl
    · have := h c hm
      rw [hc] at this
      cases this

theorem Spec.FractionText.unique {k k' : Nat} {n n' : Int} {s s' f f' : Str} {w w' : Nat} {x x' : Int}
    (hs : Padded w x s) (hs' : Padded w' x' s') (h : FractionText k n f) (h' : FractionText k' n' f')
    (e : s ++ f = s' ++ f') : x = x' ∧ n = n' := by
  have hd : digitValue '.' = none := by decide
  rcases h with ⟨-, rfl, rfl⟩ | ⟨g, hk, rfl, hl, -, rfl⟩
  · rcases h' with ⟨-, rfl, rfl⟩ | ⟨g', -, rfl, -⟩
    · simp only [List.append_nil] at e
      subst e
      exact ⟨hs.unique hs', rfl⟩
    · exfalso
      apply hs.digits hd
      rw [List.append_nil] at e
      rw [e]
      simp
  · rcases h' with ⟨-, rfl, rfl⟩ | ⟨g', -, rfl, hl', -, rfl⟩
    · exfalso
      apply hs'.digits hd
      rw [List.append_nil] at e
      rw [← e]
      simp
    · obtain ⟨rfl, rfl⟩ := sep_unique (hs.digits hd) (hs'.digits hd) e
      exact ⟨hs.unique hs', by rw [← hl, ← hl']⟩

theorem Spec.TimeText.unique {k k' : Nat} {v v' : Int} {s : Str} (h : TimeText k v s) (h' : TimeText k' v' s) :
    v % DAY = v' % DAY := by
  obtain ⟨h, m, sec, n, hs, ms, ss, f, e, -, -, -, -, -, -, h1, h2, h3, h4, es⟩ := h
  obtain ⟨h', m', sec', n', hs', ms', ss', f', e', -, -, -, -, -, -, h1', h2', h3', h4', es'⟩ := h'
  rw [es] at es'
  simp only [str_colon, List.append_assoc, List.singleton_append] at es'
  have hd : digitValue ':' = none := by decide
  obtain ⟨rfl, es1⟩ := sep_unique (h1.digits hd) (h1'.digits hd) es'
  obtain ⟨rfl, es2⟩ := sep_unique (h2.digits hd) (h2'.digits hd) es1
  obtain ⟨e3, e4⟩ := FractionText.unique h3 h3' h4 h4' es2
  rw [e, e', h1.unique h1', h2.unique h2', e3, e4]

theorem Spec.TimeText.clear {k : Nat} {v : Int} {s : Str} (h : TimeText k v s) {c : Char}
    (hc : digitValue c = none) (h1 : c ≠ '.') (h2 : c ≠ ':') : c ∉ s := by
  obtain ⟨h, m, sec, n, hs, ms, ss, f, -, -, -, -, -, -, -, a1, a2, a3, a4, rfl⟩ := h
  simp only [str_colon, List.append_assoc, List.mem_append, List.mem_singleton, not_or]
  exact ⟨a1.digits hc, h2, a2.digits hc, h2, a3.digits hc, a4.clear hc h1⟩

theorem Spec.StampText.clear {form : Option Nat} {v : Int} {s : Str} (h : StampText form v s) {c : Char}
    (hc : digitValue c = none) (h1 : c ≠ '.') (h2 : c ≠ ':') (h3 : c ≠ '-') (h4 : c ≠ ' ') : c ∉ s := by
  cases form with
  | none =>
    obtain ⟨d, -, h⟩ := h
    exact h.clear hc h3
  | some k =>
    obtain ⟨d, a, b, -, -, ha, hb, rfl⟩ := h
    simp only [str_blank, List.append_assoc, List.mem_append, List.mem_singleton, not_or]
    exact ⟨ha.clear hc h3, h4, hb.clear hc h1 h2⟩

theorem Spec.StampText.unique {form form' : Option Nat} {v v' : Int} {s : Str} (h : StampText form v s)
    (h' : StampText form' v' s) : v = v' := by
  have hb : digitValue ' ' = none := by decide
  have hD : DAY = 86400000000000 := rfl
  cases form with
  | none =>
    obtain ⟨d, rfl, h⟩ := h
    cases form' with
    | none =>
      obtain ⟨d', rfl, h'⟩ := h'
      rw [h.unique h']
    | some k =>
      obtain ⟨d', a, b, -, -, -, -, e⟩ := h'
      exfalso
      apply h.clear hb (by decide)
      rw [e]
      simp [str_blank]
  | some k =>
    obtain ⟨d, a, b, h1, h2, h3, h4, rfl⟩ := h
    cases form' with
    | none =>
      obtain ⟨d', rfl, h'⟩ := h'
      exfalso
      apply h'.clear hb (by decide)
      simp [str_blank]
    | some k' =>
      obtain ⟨d', a', b', h1', h2', h3', h4', e⟩ := h'
      simp only [str_blank, List.append_assoc, List.singleton_append] at e
      obtain ⟨rfl, rfl⟩ := sep_unique (h3.clear hb (by decide)) (h3'.clear hb (by decide)) e
      have e1 := h3.unique h3'
      have e2 := h4.unique h4'
      subst e1
      rw [hD] at h1 h2 h1' h2' e2
      omega

/-! ### Files -/

theorem Spec.ShowsRows.unique {P P' : Option Nat → Prop} {ss ss' : List Session} {text : Str}
    (h : ShowsRows P ss text) (h' : ShowsRows P' ss' text) :
    ss.map (fun s => (s.label / DAY, s.open, s.close)) = ss'.map (fun s => (s.label / DAY, s.open, s.close)) := by
  have hc : digitValue ',' = none := by decide
  have hn : digitValue '\n' = none := by decide
  have hD : DAY = 86400000000000 := rfl
  induction h generalizing ss' with
  | nil =>
    generalize ht : ([] : Str) = t at h'
    cases h' with
    | nil => rfl
    | cons => simp [str_comma] at ht
  | @cons s ss form d a b c text hP h1 h2 ha hb hcl hr ih =>
    generalize ht : a ++ ",".toList ++ b ++ ",".toList ++ c ++ "\n".toList ++ text = t at h'
    cases h' with
    | nil => simp [str_comma] at ht
    | @cons s' ss' form' d' a' b' c' text' hP' h1' h2' ha' hb' hcl' hr' =>
      simp only [str_comma, str_newline, List.append_assoc, List.singleton_append] at ht
      obtain ⟨rfl, ht1⟩ := sep_unique (ha.clear hc (by decide)) (ha'.clear hc (by decide)) ht
      obtain ⟨rfl, ht2⟩ := sep_unique (hb.clear hc (by decide) (by decide) (by decide) (by decide))
        (hb'.clear hc (by decide) (by decide) (by decide) (by decide)) ht1
      obtain ⟨rfl, rfl⟩ := sep_unique (hcl.clear hn (by decide) (by decide) (by decide) (by decide))
        (hcl'.clear hn (by decide) (by decide) (by decide) (by decide)) ht2
      have e1 := ha.unique ha'
      have e2 := hb.unique hb'
      have e3 := hcl.unique hcl'
      simp only [List.map_cons, List.cons.injEq, Prod.mk.injEq]
      rw [hD] at h1 h2 h1' h2' ⊢
      exact ⟨⟨by omega, e2, e3⟩, ih hr'⟩

theorem Spec.ShowsRows.append {P : Option Nat → Prop} {ss ss' : List Session} {text text' : Str}
    (h : ShowsRows P ss text) (h' : ShowsRows P ss' text') : ShowsRows P (ss ++ ss') (text ++ text') := by
  induction h with
  | nil => exact h'
  | cons hP h1 h2 ha hb hc _ ih =>
    have := ShowsRows.cons hP h1 h2 ha hb hc ih
    simpa only [List.append_assoc, List.cons_append] using this

theorem Spec.ShowsRows.mono {P Q : Option Nat → Prop} (hPQ : ∀ f, P f → Q f) {ss : List Session} {text : Str}
    (h : ShowsRows P ss text) : ShowsRows Q ss text := by
  induction h with
  | nil => exact .nil
  | cons hP h1 h2 ha hb hc _ ih => exact .cons (hPQ _ hP) h1 h2 ha hb hc ih

/-- The row of a session. -/
def rowOf (s : Session) : Row := (s.label, s.open, s.close)

theorem rows_ofSessions (ss : List Session) : rows (Cal.ofSessions ss) = ss.map rowOf := by
  induction ss with
  | nil => rfl
  | cons s ss ih =>
    simp only [rows, Cal.ofSessions, List.map_cons, List.zip_cons_cons] at ih ⊢
    rw [ih]
    rfl

theorem chunk_shows {form : Form} {ss : List Session} (h4 : ∀ s ∈ ss, s.FourDigits)
    (hf : ∀ s ∈ ss, Fits form s.open ∧ Fits form s.close) :
    ShowsRows (· = form) ss ((ss.map rowOf).map (lineText form)).flatten := by
  have hD : DAY = 86400000000000 := rfl
  induction ss with
  | nil => exact .nil
  | cons s ss ih =>
    have ih := ih (fun s hs => h4 s (by simp [hs])) (fun s hs => hf s (by simp [hs]))
    obtain ⟨a1, a2, a3⟩ := h4 s (by simp)
    obtain ⟨b1, b2⟩ := hf s (by simp)
    have := ShowsRows.cons (P := (· = form)) (s := s) rfl (d := s.label / DAY) (by rw [hD]; omega) (by rw [hD]; omega)
      (dateText_of (by have := fourDigits_day a1; omega)) (stampText_of a2 b1) (stampText_of a3 b2) ih
    simp only [str_comma, str_newline] at this
    simpa [lineText, rowOf] using this

theorem chunked_flatten_aux (rs : List Row) (n : Nat) :
    ((List.range n).map fun i => (rs.drop (i * chunkSize)).take chunkSize).flatten = rs.take (n * chunkSize) := by
  induction n with
  | zero => simp
  | succ n ih =>
    rw [List.range_succ, List.map_append, List.flatten_append, ih, Nat.succ_mul, List.take_add]
    simp

theorem chunked_flatten (rs : List Row) : (chunked rs).flatten = rs := by
  unfold chunked
  rw [chunked_flatten_aux]
  apply List.take_of_length_le
  unfold chunkSize
  omega

end TC
