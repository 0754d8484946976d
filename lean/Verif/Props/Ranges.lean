import Verif.Lemmas.Ranges
import Verif.Model.UsFutures
import Verif.Props.Queries

/-!
# Properties C22-C32: ranges, windows, session navigation, execution minutes
-/

namespace TC.Props
open TC TC.Spec

variable {ss : List Session}

/-! ## C22 -/

/-- **C22** `minutes_for_session(s)` is the part of `all_minutes` in `[open(s), close(s)]`, i.e. the
session's own minutes in order; each of them is looked up to `s`, in every direction except that
direction `"none"` refuses the minute starting a break.  Non-sessions raise `KeyError`. -/
theorem c22_minutes_for_session (h : Regular ss) (hw : ∀ s ∈ ss, s.WholeMinutes) :
    (∀ s ∈ ss, ∃ ms, (Cal.ofSessions ss).minutesForSession s.label = .ok ms ∧
      ms.Pairwise (· < ·) ∧ (∀ t, t ∈ ms ↔ s.IsMinute t) ∧
      ms = (Cal.ofSessions ss).minutes.filter (fun t => decide (s.open ≤ t ∧ t ≤ s.close)) ∧
      ∀ t ∈ ms, (Cal.ofSessions ss).sessionLabelFresh t "next" = .ok s.label ∧
        (Cal.ofSessions ss).sessionLabelFresh t "previous" = .ok s.label ∧
        (¬ s.BreakStart t → (Cal.ofSessions ss).sessionLabelFresh t "none" = .ok s.label)) ∧
    (∀ l, (∀ s ∈ ss, s.label ≠ l) →
      (Cal.ofSessions ss).minutesForSession l = .error .keyError) := by
  constructor
  · intro s hs
    refine ⟨_, minutesForSession_eq h hw hs, sessMin_sorted (h.ok s hs) (hw s hs),
      mem_sessMin (hw s hs), ?_, ?_⟩
    · rw [← filter_span_eq h hw hs]
      congr 1; funext t; simp
    · intro t ht
      have hm := (mem_sessMin (hw s hs) t).mp ht
      have hsp := isMinute_spans (h.ok s hs) hm
      refine ⟨(c18_next h t).1 s ((c18_next h t).2.1 s hs hsp),
        (c19_previous h t ⟨s, hs, hsp.2⟩).1 s hs hsp, fun hnb => ?_⟩
      refine (c19_none h t ⟨s, hs, hsp.2⟩).1 s hs hsp ?_
      rintro ⟨b, e, hb, h1, h2⟩
      obtain ⟨_, hm⟩ := hm
      rw [hb] at hm
      have h3 := (h.ok s hs).2.2 b e hb
      simp only at hm
      have : b = t := by omega
      subst this
      exact hnb ⟨e, hb⟩
  · intro l hl
    unfold Cal.minutesForSession
    rw [cell_not_session hl]; rfl

/-- **C22** Concatenating `minutes_for_session` over all sessions gives `all_minutes`. -/
theorem c22_partition (h : Regular ss) (hw : ∀ s ∈ ss, s.WholeMinutes) :
    ∃ pieces, (Cal.ofSessions ss).sessions.mapM (Cal.ofSessions ss).minutesForSession = .ok pieces ∧
      pieces.flatten = (Cal.ofSessions ss).minutes := by
  refine ⟨ss.map sessMin, ?_, ?_⟩
  · show (ss.map (·.label)).mapM _ = _
    rw [mapM_map]
    exact mapM_ok (fun s hs => minutesForSession_eq h hw hs)
  · rw [minutes_ofSessions h.ok]; rfl

example : (Cal.ofSessions demoSessions).minutesForSession 100
    = .ok [10 * MINUTE, 11 * MINUTE, 12 * MINUTE, 14 * MINUTE, 15 * MINUTE, 16 * MINUTE] := by
  decide +kernel

/-! ## C23 -/

/-- **C23** `minutes_in_range(a, b)` is exactly the exchange minutes in `[a, b]`, unless `b` is after
the last exchange minute, when it raises `IndexError`. -/
theorem c23_minutes_in_range (h : Regular ss) (hw : ∀ s ∈ ss, s.WholeMinutes) (a b : Int) :
    ((∃ t ∈ (Cal.ofSessions ss).minutes, b ≤ t) →
      (Cal.ofSessions ss).minutesInRange a b
        = .ok ((Cal.ofSessions ss).minutes.filter (fun t => decide (a ≤ t ∧ t ≤ b)))) ∧
    ((∀ t ∈ (Cal.ofSessions ss).minutes, t < b) →
      (Cal.ofSessions ss).minutesInRange a b = .error .indexError) := by
  have := minutesInRange_eq (minutes_sorted h hw) a b
  refine ⟨fun hex => ?_, this.2⟩
  rw [this.1 hex]
  congr 2; funext t; simp

example : ∃ t ∈ (Cal.ofSessions demoSessions).minutes, 13 * MINUTE ≤ t :=
  ⟨14 * MINUTE, by decide +kernel, by decide⟩

example : (Cal.ofSessions demoSessions).minutesInRange (2 * MINUTE) (13 * MINUTE)
    = .ok [2 * MINUTE, 3 * MINUTE, 10 * MINUTE, 11 * MINUTE, 12 * MINUTE] := by decide +kernel

/-! ## C24 -/

/-- **C24** For sessions `a`, `b`: `minutes_for_sessions_in_range(a, b)` is the concatenation of
`minutes_for_session` over `sessions_in_range(a, b)` (empty if `b < a`); a label that is not a
session raises `KeyError`. -/
theorem c24_minutes_for_sessions (h : Regular ss) (hw : ∀ s ∈ ss, s.WholeMinutes) :
    (∀ s₁ ∈ ss, ∀ s₂ ∈ ss, ∃ pieces,
      ((Cal.ofSessions ss).sessionsInRange s₁.label s₂.label).mapM
        (Cal.ofSessions ss).minutesForSession = .ok pieces ∧
      (Cal.ofSessions ss).minutesForSessionsInRange s₁.label s₂.label = .ok pieces.flatten) ∧
    (∀ a b, (∀ s ∈ ss, s.label ≠ a) ∨ (∀ s ∈ ss, s.label ≠ b) →
      (Cal.ofSessions ss).minutesForSessionsInRange a b = .error .keyError) := by
  constructor
  · intro s₁ hs₁ s₂ hs₂
    refine ⟨(rangeOf ss s₁.label s₂.label).map sessMin, ?_, ?_⟩
    · rw [sessionsInRange_eq h, mapM_map]
      exact mapM_ok (fun s hs => minutesForSession_eq h hw (List.mem_filter.mp hs).1)
    · unfold Cal.minutesForSessionsInRange Cal.openAndCloseForSession Cal.sessionOpen
        Cal.sessionClose
      rw [cell_open h hs₁, cell_close h hs₁, cell_open h hs₂, cell_close h hs₂]
      simp only [bind, Except.bind, pure, Except.pure]
      rw [minutesInRange_session_window h hw hs₂ _ _ (Int.le_refl _)]
      congr 1
      have hr : Regular (rangeOf ss s₁.label s₂.label) := h.filter _
      have hwr : ∀ s ∈ rangeOf ss s₁.label s₂.label, s.WholeMinutes :=
        fun s hs => hw s (List.mem_filter.mp hs).1
      have hflat : ((rangeOf ss s₁.label s₂.label).map sessMin).flatten
          = (Cal.ofSessions (rangeOf ss s₁.label s₂.label)).minutes := by
        rw [minutes_ofSessions hr.ok]; rfl
      rw [hflat]
      refine sorted_ext ((minutes_sorted h hw).filter _) (minutes_sorted hr hwr) ?_
      intro t
      rw [List.mem_filter, mem_minutes h.ok hw, mem_minutes hr.ok hwr]
      simp only [Bool.and_eq_true, decide_eq_true_eq]
      constructor
      · rintro ⟨⟨s, hs, hm⟩, h1, h2⟩
        have hsp := isMinute_spans (h.ok s hs) hm
        refine ⟨s, List.mem_filter.mpr ⟨hs, ?_⟩, hm⟩
        simp only [Bool.and_eq_true, decide_eq_true_eq]
        constructor
        · rcases Int.lt_or_le s.label s₁.label with h3 | h3
          · have := h.close_lt_of_label hs hs₁ h3
            have := hsp.2; omega
          · exact h3
        · rcases Int.lt_or_le s₂.label s.label with h3 | h3
          · have := h.close_lt_of_label hs₂ hs h3
            have := hsp.1; omega
          · exact h3
      · rintro ⟨s, hs, hm⟩
        obtain ⟨hs, hl⟩ := List.mem_filter.mp hs
        simp only [Bool.and_eq_true, decide_eq_true_eq] at hl
        have hsp := isMinute_spans (h.ok s hs) hm
        refine ⟨⟨s, hs, hm⟩, ?_, ?_⟩
        · rcases Int.lt_or_eq_of_le hl.1 with h3 | h3
          · have := h.close_lt_of_label hs₁ hs h3
            have := (h.ok s₁ hs₁).2.1
            have := hsp.1; omega
          · have := h.label_inj hs₁ hs h3
            subst this; exact hsp.1
        · rcases Int.lt_or_eq_of_le hl.2 with h3 | h3
          · have := h.close_lt_of_label hs hs₂ h3
            have := (h.ok s₂ hs₂).2.1
            have := hsp.2; omega
          · have := h.label_inj hs hs₂ h3
            subst this; exact hsp.2
  · rintro a b hab
    unfold Cal.minutesForSessionsInRange Cal.openAndCloseForSession Cal.sessionOpen Cal.sessionClose
    by_cases ha : ∀ s ∈ ss, s.label ≠ a
    · rw [cell_not_session ha]; rfl
    · have hb : ∀ s ∈ ss, s.label ≠ b := hab.resolve_left ha
      obtain ⟨s, hs, he⟩ : ∃ s ∈ ss, s.label = a := by
        refine Classical.byContradiction fun hn => ha fun s hs he => hn ⟨s, hs, he⟩
      subst he
      rw [cell_open h hs, cell_close h hs, cell_not_session hb]
      rfl

example : (Cal.ofSessions demoSessions).minutesForSessionsInRange 0 100
    = .ok ([1, 2, 3, 10, 11, 12, 14, 15, 16].map (· * MINUTE)) := by decide +kernel

/-! ## C25 -/

/-- **C25** `minutes_count_for_sessions_in_range(a, b)` is the number of minutes that
`minutes_for_session` lists over `sessions_in_range(a, b)`, less one for each of those sessions that
has a break.  In particular it is exact for sessions without breaks. -/
theorem c25_minutes_count (h : Regular ss) (hw : ∀ s ∈ ss, s.WholeMinutes) (a b : Int) :
    ∃ pieces, ((Cal.ofSessions ss).sessionsInRange a b).mapM
        (Cal.ofSessions ss).minutesForSession = .ok pieces ∧
      (Cal.ofSessions ss).minutesCountForSessionsInRange a b
        = (pieces.flatten.length : Int)
          - (ss.filter (fun s => decide (a ≤ s.label ∧ s.label ≤ b) && s.brk.isSome)).length := by
  refine ⟨(rangeOf ss a b).map sessMin, ?_, ?_⟩
  · rw [sessionsInRange_eq h, mapM_map]
    exact mapM_ok (fun s hs => minutesForSession_eq h hw (List.mem_filter.mp hs).1)
  · unfold Cal.minutesCountForSessionsInRange sliceIndexer
    rw [minutesPerSession_ofSessions]
    simp only [pySlice_map]
    have : pySlice ss (searchLeft (Cal.ofSessions ss).sessions a)
        (searchRight (Cal.ofSessions ss).sessions b) = rangeOf ss a b := slice_sessions h a b
    rw [this]
    have hfil : ss.filter (fun s => decide (a ≤ s.label ∧ s.label ≤ b) && s.brk.isSome)
        = (rangeOf ss a b).filter (fun s => s.brk.isSome) := by
      rw [rangeOf, List.filter_filter]
      congr 1; funext s; simp [Bool.and_comm]
    rw [hfil]
    have hr : ∀ s ∈ rangeOf ss a b, s ∈ ss := fun s hs => (List.mem_filter.mp hs).1
    revert hr
    generalize rangeOf ss a b = rs
    intro hr
    induction rs with
    | nil => simp
    | cons s rs ih =>
      have hs := hr s (by simp)
      have := ih (fun s' hs' => hr s' (List.mem_cons_of_mem _ hs'))
      simp only [List.map_cons, List.sum_cons, List.flatten_cons, List.length_append] at this ⊢
      rw [this, sessionMinuteCount_eq (h.ok s hs) (hw s hs)]
      cases hb : s.brk.isSome
      · rw [List.filter_cons_of_neg (by simp [hb])]
        simp; omega
      · have hf : List.filter (fun s : Session => s.brk.isSome) (s :: rs)
            = s :: List.filter (fun s => s.brk.isSome) rs := List.filter_cons_of_pos hb
        rw [hf, if_pos rfl, List.length_cons]
        omega

/-- **C25** For ranges of sessions without breaks the count is exact. -/
theorem c25_no_breaks (h : Regular ss) (hw : ∀ s ∈ ss, s.WholeMinutes) {s₁ s₂ : Session}
    (hs₁ : s₁ ∈ ss) (hs₂ : s₂ ∈ ss)
    (hnb : ∀ s ∈ ss, s₁.label ≤ s.label → s.label ≤ s₂.label → s.brk = none) :
    ∃ ms, (Cal.ofSessions ss).minutesForSessionsInRange s₁.label s₂.label = .ok ms ∧
      (Cal.ofSessions ss).minutesCountForSessionsInRange s₁.label s₂.label = ms.length := by
  obtain ⟨p, hp, hc⟩ := c25_minutes_count h hw s₁.label s₂.label
  obtain ⟨p', hp', hm⟩ := (c24_minutes_for_sessions h hw).1 s₁ hs₁ s₂ hs₂
  have : p = p' := by rw [hp] at hp'; cases hp'; rfl
  subst this
  refine ⟨_, hm, ?_⟩
  rw [hc]
  have : ss.filter (fun s => decide (s₁.label ≤ s.label ∧ s.label ≤ s₂.label) && s.brk.isSome)
      = [] := by
    rw [List.filter_eq_nil_iff]
    intro s hs
    simp only [Bool.and_eq_true, decide_eq_true_eq, not_and]
    rintro ⟨h1, h2⟩
    simp [hnb s hs h1 h2]
  rw [this]; simp

/-- **C25** (finding) With a break the count is wrong. -/
theorem c25_break_undercounts : ∃ (ss : List Session) (a b : Int) (ms : List Int), Regular ss ∧
    (∀ s ∈ ss, s.WholeMinutes) ∧
    (Cal.ofSessions ss).minutesForSessionsInRange a b = .ok ms ∧
    (Cal.ofSessions ss).minutesCountForSessionsInRange a b ≠ ms.length :=
  ⟨demoSessions, 0, 100, _, demo_regular, demo_whole, rfl, by decide +kernel⟩

/-! ## C26 -/

/-- **C26** `sessions_in_range`, `session_opens_in_range`, `session_closes_in_range` select exactly
the sessions with label in `[a, b]`, for any labels. -/
theorem c26_sessions_in_range (h : Regular ss) (a b : Int) :
    (Cal.ofSessions ss).sessionsInRange a b
      = (Cal.ofSessions ss).sessions.filter (fun l => decide (a ≤ l ∧ l ≤ b)) ∧
    (Cal.ofSessions ss).sessionOpensInRange a b
      = (ss.filter (fun s => decide (a ≤ s.label ∧ s.label ≤ b))).map (·.open) ∧
    (Cal.ofSessions ss).sessionClosesInRange a b
      = (ss.filter (fun s => decide (a ≤ s.label ∧ s.label ≤ b))).map (·.close) := by
  have hf : rangeOf ss a b = ss.filter (fun s => decide (a ≤ s.label ∧ s.label ≤ b)) := by
    unfold rangeOf; congr 1; funext s; simp
  have hsl := slice_sessions h a b
  refine ⟨?_, ?_, ?_⟩
  · rw [sessionsInRange_eq h, hf]
    simp only [Cal.ofSessions, List.filter_map]
    rfl
  · rw [← hf]
    unfold Cal.sessionOpensInRange sliceIndexer
    simp only [Cal.ofSessions, pySlice_map]
    rw [hsl]; rfl
  · rw [← hf]
    unfold Cal.sessionClosesInRange sliceIndexer
    simp only [Cal.ofSessions, pySlice_map]
    rw [hsl]; rfl

example : (Cal.ofSessions demoSessions).sessionsInRange (-5) 150 = [0, 100] := by decide +kernel

/-! ## C27 -/

theorem getLoc_split {xs pre post : List Int} {l : Int} (h : SortedLT xs)
    (hx : xs = pre ++ l :: post) : getLoc xs l = .ok pre.length := by
  subst hx
  have := getLoc_getElem h (i := pre.length) (by simp)
  simpa using this

/-- Every session label splits the session list. -/
theorem split_of_mem {xs : List Int} {l : Int} (h : l ∈ xs) : ∃ pre post, xs = pre ++ l :: post :=
  List.append_of_mem h

/-- **C27** `sessions_window(l, n)`: with `pre` the sessions before `l` and `post` those after it,
`n >= 0` gives `l` and the next `n` (or all) of `post`, `n < 0` the last `-n` (or all) of `pre` and
`l`.  A non-session raises `KeyError`. -/
theorem c27_sessions_window (h : Regular ss) (l n : Int) :
    (∀ pre post, (Cal.ofSessions ss).sessions = pre ++ l :: post →
      (Cal.ofSessions ss).sessionsWindow l n
        = .ok (if 0 ≤ n then l :: post.take n.toNat
          else pre.drop (pre.length - (-n).toNat) ++ [l])) ∧
    (l ∉ (Cal.ofSessions ss).sessions →
      (Cal.ofSessions ss).sessionsWindow l n = .error .keyError) := by
  constructor
  · intro pre post hx
    have hs : SortedLT (Cal.ofSessions ss).sessions := h.labels_sorted
    unfold Cal.sessionsWindow
    rw [getLoc_split hs hx, hx]
    simp only [Except.map, bind, Except.bind, pure, Except.pure]
    congr 1
    by_cases hn : 0 ≤ n
    · obtain ⟨k, rfl⟩ := Int.eq_ofNat_of_zero_le hn
      rw [if_pos hn]
      have e1 : max 0 (Int.ofNat pre.length + (k : Int)) = ((pre.length + k : Nat) : Int) := by
        simp only [Int.ofNat_eq_natCast]; omega
      rw [e1]
      have e2 : min (Int.ofNat pre.length) ((pre.length + k : Nat) : Int) = (pre.length : Nat) := by
        simp only [Int.ofNat_eq_natCast]; omega
      have e3 : max (Int.ofNat pre.length) ((pre.length + k : Nat) : Int) + 1
          = ((pre.length + k + 1 : Nat) : Int) := by
        simp only [Int.ofNat_eq_natCast]; omega
      rw [e2, e3]
      simp only [pySlice, sliceBound]
      rw [if_neg (by omega), if_neg (by omega)]
      simp only [Int.toNat_natCast]
      have e4 : min pre.length (pre ++ l :: post).length = pre.length := by simp
      rw [e4]
      simp only [List.length_append, List.length_cons, List.drop_left]
      rw [show min (pre.length + k + 1) (pre.length + (post.length + 1)) - pre.length
          = min k post.length + 1 by omega]
      rw [List.take_succ_cons]
      congr 1
      rcases Nat.le_total k post.length with h1 | h1
      · rw [Nat.min_eq_left h1]
      · rw [Nat.min_eq_right h1, List.take_of_length_le h1, List.take_of_length_le (Nat.le_refl _)]
    · rw [if_neg hn]
      obtain ⟨k, hk⟩ : ∃ k : Nat, -n = k := Int.eq_ofNat_of_zero_le (by omega)
      have hn' : n = -(k : Int) := by omega
      subst hn'
      have e1 : max 0 (Int.ofNat pre.length + -(k : Int)) = ((pre.length - k : Nat) : Int) := by
        simp only [Int.ofNat_eq_natCast]; omega
      rw [e1]
      have e2 : min (Int.ofNat pre.length) ((pre.length - k : Nat) : Int)
          = ((pre.length - k : Nat) : Int) := by
        simp only [Int.ofNat_eq_natCast]; omega
      have e3 : max (Int.ofNat pre.length) ((pre.length - k : Nat) : Int) + 1
          = ((pre.length + 1 : Nat) : Int) := by
        simp only [Int.ofNat_eq_natCast]; omega
      rw [e2, e3, pySlice_nat _ _ _ (by simp)]
      have e4 : (-(-(k : Int))).toNat = k := by omega
      rw [e4]
      rw [List.drop_append, List.take_append]
      have e5 : (pre.drop (pre.length - k)).length = pre.length - (pre.length - k) := by simp
      have e6 : pre.length + 1 - (pre.length - k) = (pre.drop (pre.length - k)).length + 1 := by
        rw [e5]; omega
      rw [e6]
      rw [show pre.length - k - pre.length = 0 by omega]
      simp
      rw [List.take_of_length_le (by simp)]
  · intro hl
    unfold Cal.sessionsWindow
    rw [getLoc_not_mem hl]; rfl

example : (Cal.ofSessions demoSessions).sessions = [0] ++ 100 :: [200] := rfl
example : (Cal.ofSessions demoSessions).sessionsWindow 100 (-7) = .ok [0, 100] := by decide +kernel

/-! ## C28 -/

/-- **C28** `session_distance` is the signed, inclusive number of sessions in the range. -/
theorem c28_session_distance (h : Regular ss) (a b : Int) :
    (a ≤ b → (Cal.ofSessions ss).sessionDistance a b
      = ((Cal.ofSessions ss).sessions.filter (fun l => decide (a ≤ l ∧ l ≤ b))).length) ∧
    (b < a → (Cal.ofSessions ss).sessionDistance a b
      = -(((Cal.ofSessions ss).sessions.filter (fun l => decide (b ≤ l ∧ l ≤ a))).length : Int)) := by
  have hs : SortedLE (Cal.ofSessions ss).sessions := h.labels_sorted.le
  have key : ∀ a b : Int, a ≤ b →
      ((searchRight (Cal.ofSessions ss).sessions b : Int)
        - (searchLeft (Cal.ofSessions ss).sessions a : Int))
      = (((Cal.ofSessions ss).sessions.filter (fun l => decide (a ≤ l ∧ l ≤ b))).length : Int) := by
    intro a b hab
    have h1 := (c26_sessions_in_range h a b).1
    rw [← h1]
    unfold Cal.sessionsInRange sliceIndexer
    simp only
    have hle := searchRight_le hs b
    rw [pySlice_nat _ _ _ hle, List.length_take, List.length_drop]
    have hmono : searchLeft (Cal.ofSessions ss).sessions a
        ≤ searchRight (Cal.ofSessions ss).sessions b := by
      rcases Nat.lt_or_ge (searchRight (Cal.ofSessions ss).sessions b)
        (searchLeft (Cal.ofSessions ss).sessions a) with h2 | h2
      · have hll := searchLeft_le hs a
        have h3 := (lt_searchLeft hs a (i := searchRight (Cal.ofSessions ss).sessions b)
          (by omega)).mp h2
        have h4 := (lt_searchRight hs b (i := searchRight (Cal.ofSessions ss).sessions b)
          (by omega)).mpr (by omega)
        omega
      · exact h2
    omega
  constructor
  · intro hab
    unfold Cal.sessionDistance
    have : ¬ b < a := by omega
    simp only [this, decide_false, Bool.false_eq_true, if_false]
    exact key a b hab
  · intro hba
    unfold Cal.sessionDistance
    simp only [hba, decide_true, if_true]
    rw [key b a (by omega)]

/-- **C28** The distance minus one is the `sessions_window` count that spans the range. -/
theorem c28_window (h : Regular ss) {a b : Int} (ha : a ∈ (Cal.ofSessions ss).sessions)
    (hb : b ∈ (Cal.ofSessions ss).sessions) (hab : a ≤ b) :
    (Cal.ofSessions ss).sessionsWindow a ((Cal.ofSessions ss).sessionDistance a b - 1)
      = .ok ((Cal.ofSessions ss).sessionsInRange a b) := by
  have hs : SortedLT (Cal.ofSessions ss).sessions := h.labels_sorted
  obtain ⟨pre, post, hx⟩ := split_of_mem ha
  have hfil : (Cal.ofSessions ss).sessions.filter (fun l => decide (a ≤ l ∧ l ≤ b))
      = a :: post.filter (fun l => decide (l ≤ b)) := by
    rw [hx] at hs ⊢
    have hs' := List.pairwise_append.mp hs
    rw [List.filter_append]
    have h1 : pre.filter (fun l => decide (a ≤ l ∧ l ≤ b)) = [] := by
      rw [List.filter_eq_nil_iff]
      intro x hx'
      have := hs'.2.2 x hx' a (by simp)
      simp; omega
    rw [h1, List.nil_append, List.filter_cons_of_pos (by simp [hab])]
    congr 1
    apply List.filter_congr
    intro x hx'
    have := (List.pairwise_cons.mp hs'.2.1).1 x hx'
    simp; omega
  have hd := (c28_session_distance h a b).1 hab
  rw [(c27_sessions_window h a _).1 pre post hx, (c26_sessions_in_range h a b).1, hd, hfil]
  simp only [List.length_cons]
  rw [if_pos (by omega)]
  congr 2
  have e : (((post.filter (fun l => decide (l ≤ b))).length + 1 : Nat) - 1 : Int).toNat
      = (post.filter (fun l => decide (l ≤ b))).length := by omega
  rw [e]
  -- in a sorted list, filtering by an upper bound is taking a prefix
  have hsp : SortedLT post := by
    rw [hx] at hs
    exact (List.pairwise_cons.mp (List.pairwise_append.mp hs).2.1).2
  clear hfil hd hx e
  induction post with
  | nil => rfl
  | cons p post ih =>
    by_cases hp : p ≤ b
    · rw [List.filter_cons_of_pos (by simp [hp]), List.length_cons, List.take_succ_cons,
        ih (List.pairwise_cons.mp hsp).2]
    · have : (p :: post).filter (fun l => decide (l ≤ b)) = [] := by
        rw [List.filter_eq_nil_iff]
        intro x hx'
        rcases List.mem_cons.mp hx' with rfl | h1
        · simpa using hp
        · have := (List.pairwise_cons.mp hsp).1 x h1
          simp; omega
      rw [this]; rfl

example : (Cal.ofSessions demoSessions).sessionDistance 0 200 = 3 ∧
    (Cal.ofSessions demoSessions).sessionDistance 200 0 = -3 ∧
    (Cal.ofSessions demoSessions).sessionDistance 100 100 = 1 := by decide +kernel

/-! ## C29 -/

/-- The start position `minutes_window` settles on. -/
theorem minutesWindow_start (h : Regular ss) (hw : ∀ s ∈ ss, s.WholeMinutes) {t m : Int}
    {pre post : List Int} (hx : (Cal.ofSessions ss).minutes = pre ++ m :: post) (hm : m ≤ t)
    (hpost : ∀ x ∈ post, t < x) (hend : m = t ∨ post ≠ []) (n : Int) :
    (Cal.ofSessions ss).minutesWindow t n
      = .ok (if n < 0 then pySlice (pre ++ m :: post) ((pre.length : Int) + n + 1)
            ((pre.length : Int) + 1)
          else pySlice (pre ++ m :: post) (pre.length : Int) ((pre.length : Int) + n)) := by
  have hs := minutes_sorted h hw
  rw [hx] at hs
  have hlen : (pre ++ m :: post).length = pre.length + 1 + post.length := by simp; omega
  have hgm : (pre ++ m :: post)[pre.length]'(by omega) = m := by simp
  have hidx : ∃ i : Nat, searchLeft (pre ++ m :: post) t = i ∧
      (∃ v, pyIndex (pre ++ m :: post) (i : Int) = .ok v ∧
        (if v ≠ t then (i : Int) - 1 else (i : Int)) = pre.length) := by
    by_cases hmt : m = t
    · subst hmt
      refine ⟨pre.length, ?_, m, ?_, by simp⟩
      · have := searchLeft_getElem hs (i := pre.length) (by omega)
        rwa [hgm] at this
      · rw [pyIndex_nat _ _ (by omega), hgm]
    · have hpne := hend.resolve_left hmt
      have hpl : 0 < post.length := List.length_pos_iff.mpr hpne
      have hgp : (pre ++ m :: post)[pre.length + 1]'(by omega) = post[0] := by
        simp [List.getElem_append]
      have hp0 := hpost _ (List.getElem_mem hpl)
      have h1 := (lt_searchLeft hs.le t (i := pre.length) (by omega)).mpr (by rw [hgm]; omega)
      have h2 := lt_searchLeft hs.le t (i := pre.length + 1) (by omega)
      rw [hgp] at h2
      refine ⟨pre.length + 1, by omega, post[0], ?_, ?_⟩
      · rw [pyIndex_nat _ _ (by omega), hgp]
      · rw [if_pos (by omega)]; omega
  obtain ⟨i, hi, v, hv, hst⟩ := hidx
  unfold Cal.minutesWindow
  rw [hx, hi]
  simp only [hv, bind, Except.bind, hst]
  rw [if_neg (by omega)]
  by_cases hn : n < 0
  · rw [if_pos (by omega), if_pos hn]; rfl
  · rw [if_neg (by omega), if_neg hn]; rfl

/-- **C29** Let `m` be the last exchange minute at or before `t` (`pre` before it, `post` after it).
For `n >= 0` the window is the first `n` (or all) minutes from `m` on; for `n < 0` with at least
`-n` minutes up to `m`, the `-n` minutes ending with `m`.  Before the first minute: `KeyError`;
after the last: `IndexError`. -/
theorem c29_minutes_window (h : Regular ss) (hw : ∀ s ∈ ss, s.WholeMinutes) (t n : Int) :
    (∀ pre m post, (Cal.ofSessions ss).minutes = pre ++ m :: post → m ≤ t →
      (∀ x ∈ post, t < x) → (m = t ∨ post ≠ []) →
      (0 ≤ n → (Cal.ofSessions ss).minutesWindow t n = .ok ((m :: post).take n.toNat)) ∧
      (n < 0 → -n ≤ pre.length + 1 → (Cal.ofSessions ss).minutesWindow t n
        = .ok ((pre ++ [m]).drop (pre.length + 1 - (-n).toNat)))) ∧
    ((Cal.ofSessions ss).minutes ≠ [] → (∀ x ∈ (Cal.ofSessions ss).minutes, t < x) →
      (Cal.ofSessions ss).minutesWindow t n = .error .keyError) ∧
    ((∀ x ∈ (Cal.ofSessions ss).minutes, x < t) →
      (Cal.ofSessions ss).minutesWindow t n = .error .indexError) := by
  have hs := minutes_sorted h hw
  refine ⟨?_, ?_, ?_⟩
  · intro pre m post hx hm hpost hend
    have key := minutesWindow_start h hw hx hm hpost hend n
    constructor
    · intro hn
      obtain ⟨k, rfl⟩ := Int.eq_ofNat_of_zero_le hn
      rw [key, if_neg (by omega)]
      congr 1
      have e : (pre.length : Int) + (k : Int) = ((pre.length + k : Nat) : Int) := by omega
      rw [e]
      simp only [pySlice, sliceBound]
      rw [if_neg (by omega), if_neg (by omega)]
      simp only [Int.toNat_natCast]
      have e4 : min pre.length (pre ++ m :: post).length = pre.length := by simp
      rw [e4]
      simp only [List.length_append, List.length_cons, List.drop_left]
      rw [show min (pre.length + k) (pre.length + (post.length + 1)) - pre.length
          = min k (m :: post).length by rw [List.length_cons]; omega]
      rcases Nat.le_total k (m :: post).length with h1 | h1
      · rw [Nat.min_eq_left h1]
      · rw [Nat.min_eq_right h1, List.take_of_length_le h1, List.take_of_length_le (Nat.le_refl _)]
    · intro hn hle
      rw [key, if_pos hn]
      congr 1
      obtain ⟨k, hk⟩ : ∃ k : Nat, -n = k := Int.eq_ofNat_of_zero_le (by omega)
      have e1 : (pre.length : Int) + n + 1 = ((pre.length + 1 - k : Nat) : Int) := by omega
      have e2 : (pre.length : Int) + 1 = ((pre.length + 1 : Nat) : Int) := by omega
      rw [e1, e2, pySlice_nat _ _ _ (by simp), hk]
      simp only [Int.toNat_natCast]
      have e3 : pre ++ m :: post = (pre ++ [m]) ++ post := by simp
      rw [e3, List.drop_append_of_le_length (by simp), List.take_append_of_le_length (by simp),
        List.take_of_length_le (by simp)]
  · intro hne hall
    have hlen : 0 < (Cal.ofSessions ss).minutes.length := List.length_pos_iff.mpr hne
    have h0 : searchLeft (Cal.ofSessions ss).minutes t = 0 := by
      rcases Nat.eq_zero_or_pos (searchLeft (Cal.ofSessions ss).minutes t) with h1 | h1
      · exact h1
      · have := (lt_searchLeft hs.le t hlen).mp h1
        have := hall _ (List.getElem_mem hlen)
        omega
    have h1 := hall _ (List.getElem_mem hlen)
    unfold Cal.minutesWindow
    simp only [h0, pyIndex_nat _ _ hlen, bind, Except.bind]
    rw [if_pos (by omega : (Cal.ofSessions ss).minutes[0] ≠ t), if_pos (by omega)]
  · intro hall
    have hge : (Cal.ofSessions ss).minutes.length ≤ searchLeft (Cal.ofSessions ss).minutes t := by
      rcases Nat.lt_or_ge (searchLeft (Cal.ofSessions ss).minutes t)
        (Cal.ofSessions ss).minutes.length with h1 | h1
      · have h2 := hall _ (List.getElem_mem h1)
        have := (lt_searchLeft hs.le t h1).mpr h2
        omega
      · exact h1
    unfold Cal.minutesWindow
    simp only [pyIndex_nat_error _ _ hge, bind, Except.bind]

/-- **C29** (finding) With more minutes requested than are available before `t`, the negative slice
start wraps around: the result is not the truncated window, and can even be empty. -/
theorem c29_negative_window_wraps : ∃ (ss : List Session) (t n : Int), Regular ss ∧
    (∀ s ∈ ss, s.WholeMinutes) ∧ n < 0 ∧ t ∈ (Cal.ofSessions ss).minutes ∧
    (Cal.ofSessions ss).minutesWindow t n = .ok [] :=
  ⟨demoSessions, 2 * MINUTE, -3, demo_regular, demo_whole, by decide, by decide +kernel,
    by decide +kernel⟩

/-- **C29** Exact behaviour of the wrap-around: for `-n` greater than the `i + 1` minutes available,
the window starts at position `max(0, len + i + 1 + n)` instead of `0`. -/
theorem c29_negative_overrun (h : Regular ss) (hw : ∀ s ∈ ss, s.WholeMinutes) {t m n : Int}
    {pre post : List Int} (hx : (Cal.ofSessions ss).minutes = pre ++ m :: post) (hm : m ≤ t)
    (hpost : ∀ x ∈ post, t < x) (hend : m = t ∨ post ≠ []) (hn : pre.length + 1 < -n) :
    (Cal.ofSessions ss).minutesWindow t n
      = .ok ((pre ++ [m]).drop
          ((Cal.ofSessions ss).minutes.length + pre.length + 1 - (-n).toNat)) := by
  rw [minutesWindow_start h hw hx hm hpost hend n, if_pos (by omega), hx]
  congr 1
  obtain ⟨k, hk⟩ : ∃ k : Nat, -n = k := Int.eq_ofNat_of_zero_le (by omega)
  rw [hk]
  simp only [Int.toNat_natCast, pySlice, sliceBound]
  rw [if_pos (by omega : (pre.length : Int) + n + 1 < 0),
    if_neg (by omega : ¬ (pre.length : Int) + 1 < 0)]
  have e1 : ((pre.length : Int) + n + 1 + ((pre ++ m :: post).length : Nat)).toNat
      = (pre ++ m :: post).length + pre.length + 1 - k := by omega
  have e2 : min ((pre.length : Int) + 1).toNat (pre ++ m :: post).length = pre.length + 1 := by
    rw [List.length_append, List.length_cons]; omega
  rw [e1, e2]
  generalize (pre ++ m :: post).length + pre.length + 1 - k = d
  have e3 : pre ++ m :: post = (pre ++ [m]) ++ post := by simp
  rw [e3, List.drop_append, List.take_append]
  simp only [List.length_drop, List.length_append, List.length_singleton]
  rw [Nat.sub_self, List.take_zero, List.append_nil, List.take_of_length_le (by simp)]

example : (Cal.ofSessions demoSessions).minutesWindow (13 * MINUTE) (-3)
    = .ok [10 * MINUTE, 11 * MINUTE, 12 * MINUTE] ∧
    (Cal.ofSessions demoSessions).minutesWindow (13 * MINUTE) 2
    = .ok [12 * MINUTE, 14 * MINUTE] := by decide +kernel

/-! ## C30 -/

/-- **C30** Adjacent sessions `a`, `b`: `next_session_label(a) = b` and
`previous_session_label(b) = a`; the last (first) session raises `ValueError`, a non-session
`KeyError`. -/
theorem c30_step (h : Regular ss) :
    (∀ pre a b post, (Cal.ofSessions ss).sessions = pre ++ a :: b :: post →
      (Cal.ofSessions ss).nextSessionLabel a = .ok b ∧
      (Cal.ofSessions ss).previousSessionLabel b = .ok a) ∧
    (∀ pre a, (Cal.ofSessions ss).sessions = pre ++ [a] →
      ∃ why, (Cal.ofSessions ss).nextSessionLabel a = .error (.valueError why)) ∧
    (∀ a post, (Cal.ofSessions ss).sessions = a :: post →
      ∃ why, (Cal.ofSessions ss).previousSessionLabel a = .error (.valueError why)) ∧
    (∀ l, l ∉ (Cal.ofSessions ss).sessions →
      (Cal.ofSessions ss).nextSessionLabel l = .error .keyError ∧
      (Cal.ofSessions ss).previousSessionLabel l = .error .keyError) := by
  have hs : SortedLT (Cal.ofSessions ss).sessions := h.labels_sorted
  refine ⟨?_, ?_, ?_, ?_⟩
  · intro pre a b post hx
    have hx' : (Cal.ofSessions ss).sessions = (pre ++ [a]) ++ b :: post := by rw [hx]; simp
    constructor
    · unfold Cal.nextSessionLabel
      rw [getLoc_split hs hx]
      simp only [bind, Except.bind]
      have : pyIndex (Cal.ofSessions ss).sessions ((pre.length : Int) + 1) = .ok b := by
        rw [hx, pyIndex_of_eq _ (n := pre.length + 1) (by omega) (by simp)]
        simp [List.getElem_append]
      rw [this]; rfl
    · unfold Cal.previousSessionLabel
      rw [getLoc_split hs hx']
      simp only [bind, Except.bind]
      rw [if_neg (by simp)]
      rw [hx, pyIndex_of_eq _ (n := pre.length) (by simp) (by simp)]
      simp
  · intro pre a hx
    refine ⟨"There is no next session as this is the end of the exchange calendar.", ?_⟩
    unfold Cal.nextSessionLabel
    rw [getLoc_split hs hx]
    simp only [bind, Except.bind]
    have : pyIndex (Cal.ofSessions ss).sessions ((pre.length : Int) + 1) = .error .indexError := by
      rw [show (pre.length : Int) + 1 = ((pre.length + 1 : Nat) : Int) by omega]
      exact pyIndex_nat_error _ _ (by rw [hx]; simp)
    rw [this]
    simp only
    rw [if_pos (by rw [hx]; simp)]
  · intro a post hx
    refine ⟨"There is no previous session as this is the beginning of the exchange calendar.", ?_⟩
    unfold Cal.previousSessionLabel
    rw [getLoc_split hs (pre := []) hx]
    simp only [bind, Except.bind, List.length_nil, if_true]
  · intro l hl
    unfold Cal.nextSessionLabel Cal.previousSessionLabel
    rw [getLoc_not_mem hl]
    exact ⟨rfl, rfl⟩

/-- **C30** `next_session_label` / `previous_session_label` are the nearest sessions. -/
theorem c30_nearest (h : Regular ss) (a b : Int) (ha : a ∈ (Cal.ofSessions ss).sessions) :
    ((Cal.ofSessions ss).nextSessionLabel a = .ok b ↔
      IsNext (Cal.ofSessions ss).sessions a b) ∧
    ((Cal.ofSessions ss).previousSessionLabel a = .ok b ↔
      IsPrev (Cal.ofSessions ss).sessions a b) := by
  have hs : SortedLT (Cal.ofSessions ss).sessions := h.labels_sorted
  obtain ⟨h1, h2, h3, _⟩ := c30_step h
  obtain ⟨pre, post, hx⟩ := split_of_mem ha
  have hs' := hs
  rw [hx] at hs'
  obtain ⟨hp1, hp2, hp3⟩ := List.pairwise_append.mp hs'
  have hp4 := List.pairwise_cons.mp hp2
  constructor
  · cases post with
    | nil =>
      obtain ⟨why, hw⟩ := h2 pre a hx
      rw [hw]
      constructor
      · intro h; cases h
      · rintro ⟨hb, hab, _⟩
        rw [hx] at hb
        rcases List.mem_append.mp hb with h4 | h4
        · have := hp3 b h4 a (by simp); omega
        · simp at h4; omega
    | cons c post =>
      have hn : IsNext (Cal.ofSessions ss).sessions a c := by
        refine ⟨by rw [hx]; simp, hp4.1 c (by simp), ?_⟩
        intro y hy hay
        rw [hx] at hy
        rcases List.mem_append.mp hy with h4 | h4
        · have := hp3 y h4 a (by simp); omega
        · rcases List.mem_cons.mp h4 with h5 | h5
          · omega
          · rcases List.mem_cons.mp h5 with h6 | h6
            · omega
            · have := (List.pairwise_cons.mp hp4.2).1 y h6; omega
      rw [(h1 pre a c post hx).1]
      constructor
      · intro h; cases h; exact hn
      · intro hb; rw [hn.unique hb]
  · rcases List.eq_nil_or_concat pre with rfl | ⟨pre', c, rfl⟩
    · obtain ⟨why, hw⟩ := h3 a post hx
      rw [hw]
      constructor
      · intro h; cases h
      · rintro ⟨hb, hab, _⟩
        rw [hx] at hb
        rcases List.mem_cons.mp hb with h4 | h4
        · omega
        · have := hp4.1 b h4; omega
    · have hn : IsPrev (Cal.ofSessions ss).sessions a c := by
        refine ⟨by rw [hx]; simp, hp3 c (by simp) a (by simp), ?_⟩
        intro y hy hay
        rw [hx] at hy
        rcases List.mem_append.mp hy with h4 | h4
        · simp only [List.concat_eq_append] at h4 hp1
          rcases List.mem_append.mp h4 with h5 | h5
          · have := (List.pairwise_append.mp hp1).2.2 y h5 c (by simp); omega
          · simp at h5; omega
        · rcases List.mem_cons.mp h4 with h5 | h5
          · omega
          · have := hp4.1 y h5; omega
      rw [(h1 pre' c a post (by rw [hx]; simp)).2]
      constructor
      · intro h; cases h; exact hn
      · intro hb; rw [hn.unique hb]

example : (Cal.ofSessions demoSessions).sessions = [0] ++ 100 :: 200 :: [] := rfl
example : (Cal.ofSessions demoSessions).nextSessionLabel 100 = .ok 200 ∧
    (Cal.ofSessions demoSessions).previousSessionLabel 200 = .ok 100 := by decide +kernel

/-! ## C31 -/

/-- **C31** Accessors of a session agree with each other, with `is_session`, `is_open_on_minute` and
`minute_to_session_label`; no other session has the same open or close. -/
theorem c31_accessors (h : Regular ss) {s : Session} (hs : s ∈ ss) :
    (Cal.ofSessions ss).isSession s.label = true ∧
    (Cal.ofSessions ss).sessionOpen s.label = .ok s.open ∧
    (Cal.ofSessions ss).sessionClose s.label = .ok s.close ∧
    (Cal.ofSessions ss).openAndCloseForSession s.label = .ok (s.open, s.close) ∧
    (Cal.ofSessions ss).breakStartAndEndForSession s.label
      = .ok ((s.brk.map (·.1)).getD NP_NAT, (s.brk.map (·.2)).getD NP_NAT) ∧
    (Cal.ofSessions ss).isOpenOnMinute s.open = .ok true ∧
    (Cal.ofSessions ss).isOpenOnMinute s.close = .ok true ∧
    (∀ dir ∈ ["next", "previous", "none"],
      (Cal.ofSessions ss).sessionLabelFresh s.open dir = .ok s.label ∧
      (Cal.ofSessions ss).sessionLabelFresh s.close dir = .ok s.label) ∧
    (∀ s' ∈ ss, s'.label = s.label ∨ s'.open = s.open ∨ s'.close = s.close → s' = s) := by
  have hok := h.ok s hs
  have hso : s.Spans s.open := ⟨Int.le_refl _, hok.2.1⟩
  have hsc : s.Spans s.close := ⟨hok.2.1, Int.le_refl _⟩
  have hbo : ¬ s.InBreak s.open := by
    rintro ⟨b, e, hb, h1, _⟩; have := hok.2.2 b e hb; omega
  have hbc : ¬ s.InBreak s.close := by
    rintro ⟨b, e, hb, _, h1⟩; have := hok.2.2 b e hb; omega
  have hopen : ∀ t, s.Spans t → ¬ s.InBreak t →
      (Cal.ofSessions ss).isOpenOnMinute t = .ok true := by
    intro t h1 h2
    obtain ⟨⟨b, hb, hbi⟩, _⟩ := c16_is_open_on_minute h t
    rw [hb, hbi.mpr ⟨s, hs, h1, h2⟩]
  have hlab : ∀ t, s.Spans t → ¬ s.InBreak t → ∀ dir ∈ ["next", "previous", "none"],
      (Cal.ofSessions ss).sessionLabelFresh t dir = .ok s.label := by
    intro t h1 h2 dir hd
    simp only [List.mem_cons, List.not_mem_nil, or_false] at hd
    rcases hd with rfl | rfl | rfl
    · exact (c18_next h t).1 s ((c18_next h t).2.1 s hs h1)
    · exact (c19_previous h t ⟨s, hs, h1.2⟩).1 s hs h1
    · exact (c19_none h t ⟨s, hs, h1.2⟩).1 s hs h1 h2
  refine ⟨?_, cell_open h hs, cell_close h hs, ?_, ?_, hopen _ hso hbo, hopen _ hsc hbc,
    fun dir hd => ⟨hlab _ hso hbo dir hd, hlab _ hsc hbc dir hd⟩, ?_⟩
  · unfold Cal.isSession
    rw [List.contains_iff_mem]
    exact List.mem_map_of_mem hs
  · unfold Cal.openAndCloseForSession Cal.sessionOpen Cal.sessionClose
    rw [cell_open h hs, cell_close h hs]; rfl
  · unfold Cal.breakStartAndEndForSession Cal.sessionBreakStart Cal.sessionBreakEnd
    rw [cell_breakStart h hs, cell_breakEnd h hs]
    cases s.brk with
    | none => rfl
    | some p => rfl
  · rintro s' hs' (he | he | he)
    · exact h.label_inj hs' hs he
    · exact h.spans_unique hs' hs (t := s.open)
        ⟨by omega, by have := (h.ok s' hs').2.1; omega⟩ hso
    · exact h.spans_unique hs' hs (t := s.close)
        ⟨by have := (h.ok s' hs').2.1; omega, by omega⟩ hsc

/-- **C31** Non-sessions: `is_session` is `False` and every accessor raises `KeyError`. -/
theorem c31_non_session {l : Int} (hl : ∀ s ∈ ss, s.label ≠ l) :
    (Cal.ofSessions ss).isSession l = false ∧
    (Cal.ofSessions ss).sessionOpen l = .error .keyError ∧
    (Cal.ofSessions ss).sessionClose l = .error .keyError ∧
    (Cal.ofSessions ss).sessionBreakStart l = .error .keyError ∧
    (Cal.ofSessions ss).sessionBreakEnd l = .error .keyError ∧
    (Cal.ofSessions ss).openAndCloseForSession l = .error .keyError ∧
    (Cal.ofSessions ss).breakStartAndEndForSession l = .error .keyError := by
  refine ⟨?_, cell_not_session hl _, cell_not_session hl _, cell_not_session hl _,
    cell_not_session hl _, ?_, ?_⟩
  · unfold Cal.isSession
    cases hc : (Cal.ofSessions ss).sessions.contains l with
    | false => rfl
    | true =>
      rw [List.contains_iff_mem] at hc
      obtain ⟨s, hs, he⟩ := List.mem_map.mp hc
      exact absurd he (hl s hs)
  · unfold Cal.openAndCloseForSession Cal.sessionOpen
    rw [cell_not_session hl]; rfl
  · unfold Cal.breakStartAndEndForSession Cal.sessionBreakStart
    rw [cell_not_session hl]; rfl

example : ∀ s ∈ demoSessions, s.label ≠ 50 := by decide

/-! ## C32 -/

/-- **C32** `execution_minutes_for_session` for any execution window that ends no later than the
session's close: exactly the exchange minutes in it. -/
theorem c32_execution_window (h : Regular ss) (hw : ∀ s ∈ ss, s.WholeMinutes)
    (fromOpen fromClose : Int → Int) {s : Session} (hs : s ∈ ss)
    (hc : fromClose s.close ≤ s.close) :
    (Cal.ofSessions ss).executionMinutesForSession fromOpen fromClose s.label
      = .ok ((Cal.ofSessions ss).minutes.filter
          (fun t => decide (fromOpen s.open ≤ t ∧ t ≤ fromClose s.close))) := by
  unfold Cal.executionMinutesForSession
  rw [cell_open h hs, cell_close h hs]
  simp only [bind, Except.bind]
  rw [minutesInRange_session_window h hw hs _ _ hc]
  congr 2; funext t; simp

/-- **C32** By default the execution minutes of a session are all its minutes. -/
theorem c32_default (c : Cal) (l : Int) :
    c.executionMinutesForSession defaultFromOpen defaultFromClose l = c.minutesForSession l := rfl

/-- **C32** For `us_futures` they are the session's minutes from 12h30 after the open to 1h before
the close. -/
theorem c32_us_futures (h : Regular ss) (hw : ∀ s ∈ ss, s.WholeMinutes) {s : Session}
    (hs : s ∈ ss) :
    ∃ ms, (Cal.ofSessions ss).executionMinutesForSession usFuturesFromOpen usFuturesFromClose
        s.label = .ok ms ∧ ms.Pairwise (· < ·) ∧
      ∀ t, t ∈ ms ↔ s.IsMinute t ∧ s.open + (12 * 60 + 30) * MINUTE ≤ t
        ∧ t ≤ s.close - 60 * MINUTE := by
  refine ⟨_, c32_execution_window h hw _ _ hs ?_, (minutes_sorted h hw).filter _, ?_⟩
  · simp only [usFuturesFromClose, HOUR, MINUTE]; omega
  · intro t
    rw [List.mem_filter, mem_minutes h.ok hw]
    simp only [decide_eq_true_eq]
    have e1 : usFuturesFromOpen s.open = s.open + (12 * 60 + 30) * MINUTE := rfl
    have e2 : usFuturesFromClose s.close = s.close - 60 * MINUTE := rfl
    rw [e1, e2]
    constructor
    · rintro ⟨⟨s', hs', hm⟩, h1, h2⟩
      have hm60 := MINUTE_pos
      have := h.spans_unique hs' hs (isMinute_spans (h.ok s' hs') hm) ⟨by omega, by omega⟩
      subst this
      exact ⟨hm, h1, h2⟩
    · rintro ⟨hm, h1, h2⟩
      exact ⟨⟨s, hs, hm⟩, h1, h2⟩

/-- **C32** `execution_minutes_for_sessions_in_range` concatenates the sessions' execution minutes;
with no session in the range it raises `ValueError` (numpy refuses to concatenate nothing). -/
theorem c32_sessions_in_range (h : Regular ss) (hw : ∀ s ∈ ss, s.WholeMinutes)
    (fromOpen fromClose : Int → Int) (hc : ∀ s ∈ ss, fromClose s.close ≤ s.close) (a b : Int) :
    ∃ pieces, ((Cal.ofSessions ss).sessionsInRange a b).mapM
        ((Cal.ofSessions ss).executionMinutesForSession fromOpen fromClose) = .ok pieces ∧
      ((Cal.ofSessions ss).sessionsInRange a b ≠ [] →
        (Cal.ofSessions ss).executionMinutesForSessionsInRange fromOpen fromClose a b
          = .ok pieces.flatten) ∧
      ((Cal.ofSessions ss).sessionsInRange a b = [] → ∃ why,
        (Cal.ofSessions ss).executionMinutesForSessionsInRange fromOpen fromClose a b
          = .error (.valueError why)) := by
  have hm : ((Cal.ofSessions ss).sessionsInRange a b).mapM
      ((Cal.ofSessions ss).executionMinutesForSession fromOpen fromClose)
      = .ok ((rangeOf ss a b).map (fun s => (Cal.ofSessions ss).minutes.filter
          (fun t => decide (fromOpen s.open ≤ t ∧ t ≤ fromClose s.close)))) := by
    rw [sessionsInRange_eq h, mapM_map]
    refine mapM_ok (fun s hs => ?_)
    have hs' := (List.mem_filter.mp hs).1
    exact c32_execution_window h hw fromOpen fromClose hs' (hc s hs')
  refine ⟨_, hm, ?_, ?_⟩
  · intro hne
    unfold Cal.executionMinutesForSessionsInRange
    rw [collect_eq_mapM, hm]
    simp only [bind, Except.bind, npConcatenate]
    rw [sessionsInRange_eq h] at hne
    rw [if_neg]
    intro h0
    apply hne
    rw [List.map_eq_nil_iff] at h0
    rw [h0]; rfl
  · intro he
    unfold Cal.executionMinutesForSessionsInRange
    rw [collect_eq_mapM, he]
    exact ⟨_, rfl⟩

example : ∃ s ∈ demoSessions, usFuturesFromClose s.close ≤ s.close :=
  ⟨_, List.mem_cons_self .., by decide⟩

end TC.Props
