import Verif.Lemmas.Index

/-!
# Properties C12-C21: opens, closes, minutes, session lookup

`Cal.ofSessions ss` is the calendar with sessions `ss` (see `Verif/Spec/Abstraction.lean`);
`Regular ss` says the sessions are ordered and do not overlap.  The non-vacuity witness is
`demoSessions` (three sessions, one with a break), `demo_regular`, `demo_whole`.
-/

namespace TC.Props
open TC TC.Spec

variable {ss : List Session}

/-! ## C12 -/

/-- **C12** `next_open(t)` is the smallest open greater than `t`; `IndexError` iff there is none. -/
theorem c12_next_open (h : Regular ss) (t : Int) :
    (∀ x, (Cal.ofSessions ss).nextOpen t = .ok x ↔ IsNext (ss.map (·.open)) t x) ∧
    (∀ e, (Cal.ofSessions ss).nextOpen t = .error e ↔ e = .indexError ∧ ∀ s ∈ ss, s.open ≤ t) := by
  refine ⟨fun x => nextVal_ok_iff h.opens_sorted t x, fun e => ?_⟩
  refine (nextVal_error_iff h.opens_sorted t e).trans ?_
  simp

/-- **C12** `next_close(t)`. -/
theorem c12_next_close (h : Regular ss) (t : Int) :
    (∀ x, (Cal.ofSessions ss).nextClose t = .ok x ↔ IsNext (ss.map (·.close)) t x) ∧
    (∀ e, (Cal.ofSessions ss).nextClose t = .error e ↔
      e = .indexError ∧ ∀ s ∈ ss, s.close ≤ t) := by
  refine ⟨fun x => nextVal_ok_iff h.closes_sorted t x, fun e => ?_⟩
  refine (nextVal_error_iff h.closes_sorted t e).trans ?_
  simp

example : Regular demoSessions ∧ IsNext (demoSessions.map (·.open)) (10 * MINUTE) (20 * MINUTE) :=
  ⟨demo_regular, by decide, by decide, by decide⟩

example : (Cal.ofSessions demoSessions).nextOpen (10 * MINUTE) = .ok (20 * MINUTE) := by
  decide +kernel

/-! ## C13 -/

/-- **C13** `previous_open(t)` is the greatest open smaller than `t`; `ValueError` iff there is
none. -/
theorem c13_previous_open (h : Regular ss) (t : Int) :
    (∀ x, (Cal.ofSessions ss).previousOpen t = .ok x ↔ IsPrev (ss.map (·.open)) t x) ∧
    (∀ e, (Cal.ofSessions ss).previousOpen t = .error e ↔
      e = .valueError "Cannot go earlier in calendar!" ∧ ∀ s ∈ ss, t ≤ s.open) := by
  refine ⟨fun x => prevVal_ok_iff h.opens_sorted t x, fun e => ?_⟩
  refine (prevVal_error_iff h.opens_sorted t e).trans ?_
  simp

/-- **C13** `previous_close(t)`. -/
theorem c13_previous_close (h : Regular ss) (t : Int) :
    (∀ x, (Cal.ofSessions ss).previousClose t = .ok x ↔ IsPrev (ss.map (·.close)) t x) ∧
    (∀ e, (Cal.ofSessions ss).previousClose t = .error e ↔
      e = .valueError "Cannot go earlier in calendar!" ∧ ∀ s ∈ ss, t ≤ s.close) := by
  refine ⟨fun x => prevVal_ok_iff h.closes_sorted t x, fun e => ?_⟩
  refine (prevVal_error_iff h.closes_sorted t e).trans ?_
  simp

example : IsPrev (demoSessions.map (·.close)) (20 * MINUTE) (16 * MINUTE) :=
  ⟨by decide, by decide, by decide⟩

/-! ## C14 -/

/-- **C14** `next_minute` / `previous_minute` are the nearest exchange minutes. -/
theorem c14_next_previous_minute (h : Regular ss) (hw : ∀ s ∈ ss, s.WholeMinutes) (t : Int) :
    (∀ x, (Cal.ofSessions ss).nextMinute t = .ok x ↔ IsNext (Cal.ofSessions ss).minutes t x) ∧
    (∀ e, (Cal.ofSessions ss).nextMinute t = .error e ↔
      e = .indexError ∧ ∀ m ∈ (Cal.ofSessions ss).minutes, m ≤ t) ∧
    (∀ x, (Cal.ofSessions ss).previousMinute t = .ok x ↔ IsPrev (Cal.ofSessions ss).minutes t x) ∧
    (∀ e, (Cal.ofSessions ss).previousMinute t = .error e ↔
      e = .valueError "Cannot go earlier in calendar!" ∧
        ∀ m ∈ (Cal.ofSessions ss).minutes, t ≤ m) := by
  have hs := minutes_sorted h hw
  exact ⟨fun x => nextVal_ok_iff hs t x, fun e => nextVal_error_iff hs t e,
    fun x => prevVal_ok_iff hs t x, fun e => prevVal_error_iff hs t e⟩

/-- **C14** On exchange minutes, stepping forward then back (or back then forward) returns to the
start. -/
theorem c14_inverse (h : Regular ss) (hw : ∀ s ∈ ss, s.WholeMinutes) (m m' : Int)
    (hm : m ∈ (Cal.ofSessions ss).minutes) (hm' : m' ∈ (Cal.ofSessions ss).minutes) :
    (Cal.ofSessions ss).nextMinute m = .ok m' ↔ (Cal.ofSessions ss).previousMinute m' = .ok m := by
  obtain ⟨h1, _, h3, _⟩ := c14_next_previous_minute h hw m
  obtain ⟨_, _, h3', _⟩ := c14_next_previous_minute h hw m'
  rw [h1, h3']
  constructor
  · rintro ⟨_, h5, h6⟩
    refine ⟨hm, h5, fun y hy hym => ?_⟩
    rcases Int.lt_or_le m y with h7 | h7
    · have := h6 y hy h7; omega
    · exact h7
  · rintro ⟨_, h5, h6⟩
    refine ⟨hm', h5, fun y hy hym => ?_⟩
    rcases Int.lt_or_le y m' with h7 | h7
    · have := h6 y hy h7; omega
    · exact h7

example : (Cal.ofSessions demoSessions).nextMinute (16 * MINUTE) = .ok (20 * MINUTE) := by
  decide +kernel

/-! ## C15 -/

/-- **C15** `all_minutes` is strictly increasing and consists exactly of the sessions' minutes;
`compute_all_minutes` returns it, and raises (`ValueError`) only for a calendar without sessions. -/
theorem c15_all_minutes (h : Regular ss) (hw : ∀ s ∈ ss, s.WholeMinutes) :
    (Cal.ofSessions ss).minutes.Pairwise (· < ·) ∧
    (∀ t, t ∈ (Cal.ofSessions ss).minutes ↔ ∃ s ∈ ss, s.IsMinute t) ∧
    (ss ≠ [] → computeAllMinutes (Cal.ofSessions ss).opens (Cal.ofSessions ss).breakStarts
        (Cal.ofSessions ss).breakEnds (Cal.ofSessions ss).closes
          = .ok (Cal.ofSessions ss).minutes) ∧
    (ss = [] → ∃ why, computeAllMinutes (Cal.ofSessions ss).opens (Cal.ofSessions ss).breakStarts
        (Cal.ofSessions ss).breakEnds (Cal.ofSessions ss).closes = .error (.valueError why)) := by
  refine ⟨minutes_sorted h hw, mem_minutes h.ok hw, ?_, ?_⟩
  · intro hne
    unfold computeAllMinutes npConcatenate
    rw [if_neg]
    · rfl
    · cases ss with
      | nil => exact absurd rfl hne
      | cons s ss =>
        simp only [Cal.ofSessions, List.map_cons, minutePieces]
        split <;> split <;> simp_all
  · rintro rfl
    exact ⟨_, rfl⟩

example : (Cal.ofSessions demoSessions).minutes.map (· / MINUTE)
    = [1, 2, 3, 10, 11, 12, 14, 15, 16, 20, 21] := by decide +kernel

/-! ## C16 -/

/-- **C16** `is_open_on_minute(t)` never raises; it is `True` exactly when `t` lies in some session
outside its break; with `ignore_breaks=True` exactly when it lies in some session. -/
theorem c16_is_open_on_minute (h : Regular ss) (t : Int) :
    (∃ b, (Cal.ofSessions ss).isOpenOnMinute t = .ok b ∧
      (b = true ↔ ∃ s ∈ ss, s.Spans t ∧ ¬ s.InBreak t)) ∧
    (∃ b, (Cal.ofSessions ss).isOpenOnMinute t true = .ok b ∧
      (b = true ↔ ∃ s ∈ ss, s.Spans t)) := by
  have hidx := idx_cases h t
  simp only at hidx
  rcases hidx with ⟨ho, hi, h1, h2⟩ | ⟨ho, hn⟩
  · -- inside session number `ci`, after its open
    have hsp : ss[searchLeft (Cal.ofSessions ss).closes t].Spans t := ⟨by omega, h2⟩
    have hmem : ss[searchLeft (Cal.ofSessions ss).closes t] ∈ ss := List.getElem_mem hi
    have huniq : ∀ s ∈ ss, s.Spans t → s = ss[searchLeft (Cal.ofSessions ss).closes t] :=
      fun s hs hst => h.spans_unique hs hmem hst hsp
    have hne : ((searchLeft (Cal.ofSessions ss).opens t : Nat) : Int)
        ≠ (searchLeft (Cal.ofSessions ss).closes t : Nat) := by omega
    have hpred : ((searchLeft (Cal.ofSessions ss).opens t : Nat) : Int) - 1
        = (searchLeft (Cal.ofSessions ss).closes t : Nat) := by omega
    constructor
    · have hbs : (Cal.ofSessions ss).breakStarts.length = ss.length := by simp [Cal.ofSessions]
      have hbe : (Cal.ofSessions ss).breakEnds.length = ss.length := by simp [Cal.ofSessions]
      unfold Cal.isOpenOnMinute
      simp only [hne, ne_eq, not_false_eq_true, if_true, Bool.false_eq_true, if_false]
      rw [hpred, pyIndex_nat _ _ (by omega), pyIndex_nat _ _ (by omega)]
      simp only [bind, Except.bind, pure, Except.pure]
      cases hb : ss[searchLeft (Cal.ofSessions ss).closes t].brk with
      | none =>
        have e1 : (Cal.ofSessions ss).breakStarts[searchLeft (Cal.ofSessions ss).closes t]'(by omega)
            = NP_NAT := by simp [Cal.ofSessions]; simp [Cal.ofSessions] at hb; simp [hb]
        have e2 : (Cal.ofSessions ss).breakEnds[searchLeft (Cal.ofSessions ss).closes t]'(by omega)
            = NP_NAT := by simp [Cal.ofSessions]; simp [Cal.ofSessions] at hb; simp [hb]
        rw [e1, e2, if_neg (by omega)]
        refine ⟨true, rfl, ?_⟩
        simp only [true_iff]
        refine ⟨_, hmem, hsp, ?_⟩
        rintro ⟨b, e, he, _⟩
        rw [hb] at he; cases he
      | some p =>
        obtain ⟨b, e⟩ := p
        have e1 : (Cal.ofSessions ss).breakStarts[searchLeft (Cal.ofSessions ss).closes t]'(by omega)
            = b := by simp [Cal.ofSessions]; simp [Cal.ofSessions] at hb; simp [hb]
        have e2 : (Cal.ofSessions ss).breakEnds[searchLeft (Cal.ofSessions ss).closes t]'(by omega)
            = e := by simp [Cal.ofSessions]; simp [Cal.ofSessions] at hb; simp [hb]
        rw [e1, e2]
        by_cases hin : b ≤ t ∧ t < e
        · rw [if_pos hin]
          refine ⟨false, rfl, ?_⟩
          simp only [Bool.false_eq_true, false_iff]
          rintro ⟨s, hs, hst, hnb⟩
          have := huniq s hs hst
          subst this
          exact hnb ⟨b, e, hb, hin.1, hin.2⟩
        · rw [if_neg hin]
          refine ⟨true, rfl, ?_⟩
          simp only [true_iff]
          refine ⟨_, hmem, hsp, ?_⟩
          rintro ⟨b', e', he, h3, h4⟩
          rw [hb] at he; cases he
          exact hin ⟨h3, h4⟩
    · unfold Cal.isOpenOnMinute
      simp only [hne, ne_eq, not_false_eq_true, if_true]
      exact ⟨true, rfl, by simp only [true_iff]; exact ⟨_, hmem, hsp⟩⟩
  · -- the two indices agree: at most the open itself
    have heq : ((searchLeft (Cal.ofSessions ss).opens t : Nat) : Int)
        = (searchLeft (Cal.ofSessions ss).closes t : Nat) := by omega
    have hlen : (Cal.ofSessions ss).opens.length = ss.length := by simp [Cal.ofSessions]
    have key : ∀ ign, ∃ b, (Cal.ofSessions ss).isOpenOnMinute t ign = .ok b ∧
        (b = true ↔ ∃ hi : searchLeft (Cal.ofSessions ss).closes t < ss.length,
          t = ss[searchLeft (Cal.ofSessions ss).closes t].open) := by
      intro ign
      unfold Cal.isOpenOnMinute
      simp only [heq, ne_eq, not_true_eq_false, if_false]
      rcases Nat.lt_or_ge (searchLeft (Cal.ofSessions ss).closes t) ss.length with hlt | hge
      · rw [pyIndex_nat _ _ (by omega)]
        refine ⟨_, rfl, ?_⟩
        simp only [decide_eq_true_eq]
        constructor
        · intro he; exact ⟨hlt, by simpa [Cal.ofSessions] using he⟩
        · rintro ⟨_, he⟩; simpa [Cal.ofSessions] using he
      · rw [pyIndex_nat_error _ _ (by omega)]
        refine ⟨false, rfl, ?_⟩
        simp only [Bool.false_eq_true, false_iff]
        rintro ⟨hlt, _⟩; omega
    have hspan : ∀ s ∈ ss, s.Spans t →
        ∃ hi : searchLeft (Cal.ofSessions ss).closes t < ss.length,
          t = ss[searchLeft (Cal.ofSessions ss).closes t].open ∧
          s = ss[searchLeft (Cal.ofSessions ss).closes t] := by
      intro s hs hst
      obtain ⟨i, hi, rfl⟩ := List.getElem_of_mem hs
      have hci := spans_closeIdx h hi hst
      have hlt : searchLeft (Cal.ofSessions ss).closes t < ss.length := by omega
      refine ⟨hlt, ?_, by simp [hci]⟩
      have h1 := hn hlt
      have h2 : ss[searchLeft (Cal.ofSessions ss).closes t].open ≤ t := by
        have h3 := hst.1
        simpa [hci] using h3
      omega
    have hopen : ∀ hi : searchLeft (Cal.ofSessions ss).closes t < ss.length,
        t = ss[searchLeft (Cal.ofSessions ss).closes t].open →
        ss[searchLeft (Cal.ofSessions ss).closes t].Spans t ∧
        ¬ ss[searchLeft (Cal.ofSessions ss).closes t].InBreak t := by
      intro hi he
      have hok := h.ok _ (List.getElem_mem hi)
      refine ⟨⟨by omega, by have := hok.2.1; omega⟩, ?_⟩
      rintro ⟨b, e, hb, h3, _⟩
      have := (hok.2.2 b e hb).1
      omega
    constructor
    · obtain ⟨b, h1, h2⟩ := key false
      refine ⟨b, h1, h2.trans ?_⟩
      constructor
      · rintro ⟨hi, he⟩
        exact ⟨_, List.getElem_mem hi, hopen hi he⟩
      · rintro ⟨s, hs, hst, _⟩
        obtain ⟨hi, he, _⟩ := hspan s hs hst
        exact ⟨hi, he⟩
    · obtain ⟨b, h1, h2⟩ := key true
      refine ⟨b, h1, h2.trans ?_⟩
      constructor
      · rintro ⟨hi, he⟩
        exact ⟨_, List.getElem_mem hi, (hopen hi he).1⟩
      · rintro ⟨s, hs, hst⟩
        obtain ⟨hi, he, _⟩ := hspan s hs hst
        exact ⟨hi, he⟩

example : [0, 1, 3, 4, 10, 11, 12, 13, 14, 16, 17, 21, 22].map
    (fun m => (Cal.ofSessions demoSessions).isOpenOnMinute (m * MINUTE))
    = [.ok false, .ok true, .ok true, .ok false, .ok true, .ok true, .ok false, .ok false, .ok true,
       .ok true, .ok false, .ok true, .ok false] := by decide +kernel

/-! ## C17 -/

/-- **C17** At whole minutes, the market is open exactly at those minutes of `all_minutes` that do
not start a break. -/
theorem c17_open_iff_minute (h : Regular ss) (hw : ∀ s ∈ ss, s.WholeMinutes) (t : Int)
    (ht : MINUTE ∣ t) :
    (Cal.ofSessions ss).isOpenOnMinute t = .ok true ↔
      t ∈ (Cal.ofSessions ss).minutes ∧ ∀ s ∈ ss, ¬ s.BreakStart t := by
  obtain ⟨⟨b, hb, hbi⟩, _⟩ := c16_is_open_on_minute h t
  have h1 : (Cal.ofSessions ss).isOpenOnMinute t = .ok true ↔ b = true := by
    rw [hb]; simp
  rw [h1, hbi, mem_minutes h.ok hw]
  constructor
  · rintro ⟨s, hs, hsp, hnb⟩
    refine ⟨⟨s, hs, dvd_sub_of_whole ht (hw s hs).1, ?_⟩, ?_⟩
    · cases hbr : s.brk with
      | none => exact hsp
      | some p =>
        obtain ⟨b, e⟩ := p
        simp only
        rcases Int.lt_or_le b t with h2 | h2
        · rcases Int.lt_or_le t e with h3 | h3
          · exact absurd ⟨b, e, hbr, by omega, h3⟩ hnb
          · exact .inr ⟨h3, hsp.2⟩
        · exact .inl ⟨hsp.1, h2⟩
    · rintro s' hs' ⟨e, he⟩
      have hok := (h.ok s' hs').2.2 t e he
      have hsp' : s'.Spans t := ⟨by omega, by omega⟩
      have := h.spans_unique hs hs' hsp hsp'
      subst this
      exact hnb ⟨t, e, he, Int.le_refl _, hok.2.1⟩
  · rintro ⟨⟨s, hs, hm⟩, hnb⟩
    have hsp := isMinute_spans (h.ok s hs) hm
    refine ⟨s, hs, hsp, ?_⟩
    rintro ⟨b, e, hbr, h2, h3⟩
    have hok := (h.ok s hs).2.2 b e hbr
    obtain ⟨_, hm⟩ := hm
    rw [hbr] at hm
    simp only at hm
    have : b = t := by omega
    subst this
    exact hnb s hs ⟨e, hbr⟩

/-- **C17** Without breaks, `is_open_on_minute` and `all_minutes` agree exactly. -/
theorem c17_no_breaks (h : Regular ss) (hw : ∀ s ∈ ss, s.WholeMinutes)
    (hnb : ∀ s ∈ ss, s.brk = none) (t : Int) (ht : MINUTE ∣ t) :
    (Cal.ofSessions ss).isOpenOnMinute t = .ok true ↔ t ∈ (Cal.ofSessions ss).minutes := by
  rw [c17_open_iff_minute h hw t ht]
  refine ⟨fun h => h.1, fun hm => ⟨hm, ?_⟩⟩
  rintro s hs ⟨e, he⟩
  rw [hnb s hs] at he; cases he

/-- **C17** (finding) The minute at which a break starts is listed in `all_minutes` and yet
reported closed. -/
theorem c17_break_start_minute (h : Regular ss) (hw : ∀ s ∈ ss, s.WholeMinutes) {s : Session}
    (hs : s ∈ ss) {t : Int} (hb : s.BreakStart t) :
    t ∈ (Cal.ofSessions ss).minutes ∧ (Cal.ofSessions ss).isOpenOnMinute t = .ok false := by
  obtain ⟨e, he⟩ := hb
  have hok := (h.ok s hs).2.2 t e he
  have hwb := (hw s hs).2.2 t e he
  refine ⟨(mem_minutes h.ok hw t).mpr ⟨s, hs, dvd_sub_of_whole hwb.1 (hw s hs).1, ?_⟩, ?_⟩
  · rw [he]; exact .inl ⟨by omega, Int.le_refl _⟩
  · obtain ⟨⟨b, hb, _⟩, _⟩ := c16_is_open_on_minute h t
    cases b with
    | false => exact hb
    | true =>
      exact absurd ⟨e, he⟩ (((c17_open_iff_minute h hw t hwb.1).mp hb).2 s hs)

example : ∃ s ∈ demoSessions, s.BreakStart (12 * MINUTE) :=
  ⟨_, List.mem_cons_of_mem _ (List.mem_cons_self ..), 14 * MINUTE, rfl⟩

/-! ## C18, C19: `minute_to_session_label` on a fresh calendar -/

/-- `s` is the first session whose close is at or after `t`. -/
def FirstClosing (ss : List Session) (t : Int) (s : Session) : Prop :=
  s ∈ ss ∧ t ≤ s.close ∧ ∀ s' ∈ ss, t ≤ s'.close → s.close ≤ s'.close

/-- `s` is the last session that closed before `t`. -/
def LastClosed (ss : List Session) (t : Int) (s : Session) : Prop :=
  s ∈ ss ∧ s.close < t ∧ ∀ s' ∈ ss, s'.close < t → s'.close ≤ s.close

theorem closeIdx_first (h : Regular ss) (t : Int)
    (hi : searchLeft (Cal.ofSessions ss).closes t < ss.length) :
    FirstClosing ss t ss[searchLeft (Cal.ofSessions ss).closes t] := by
  obtain ⟨_, h2⟩ := closeIdx_spec h t
  refine ⟨List.getElem_mem hi, ?_, ?_⟩
  · have := h2 _ hi; omega
  · intro s' hs' hts
    obtain ⟨j, hj, rfl⟩ := List.getElem_of_mem hs'
    have h3 := h2 j hj
    rcases Nat.eq_or_lt_of_le (show searchLeft (Cal.ofSessions ss).closes t ≤ j by omega) with h4 | h4
    · simp [h4]
    · have h5 := h.close_lt_open hi hj h4
      have h6 := h.open_le_close hj
      omega

theorem closeIdx_last (h : Regular ss) (t : Int)
    (hp : 0 < searchLeft (Cal.ofSessions ss).closes t) :
    ∃ hi : searchLeft (Cal.ofSessions ss).closes t - 1 < ss.length,
      LastClosed ss t ss[searchLeft (Cal.ofSessions ss).closes t - 1] := by
  obtain ⟨h1, h2⟩ := closeIdx_spec h t
  have hi : searchLeft (Cal.ofSessions ss).closes t - 1 < ss.length := by omega
  refine ⟨hi, List.getElem_mem hi, (h2 _ hi).mp (by omega), ?_⟩
  intro s' hs' hts
  obtain ⟨j, hj, rfl⟩ := List.getElem_of_mem hs'
  have h3 := (h2 j hj).mpr hts
  rcases Nat.eq_or_lt_of_le (show j ≤ searchLeft (Cal.ofSessions ss).closes t - 1 by omega) with h4 | h4
  · simp [h4]
  · have h5 := h.close_lt_open hj hi h4
    have h6 := h.open_le_close hi
    omega

theorem FirstClosing.unique {t : Int} {s s' : Session} (h : Regular ss)
    (h1 : FirstClosing ss t s) (h2 : FirstClosing ss t s') : s = s' := by
  have ha := h1.2.2 s' h2.1 h2.2.1
  have hb := h2.2.2 s h1.1 h1.2.1
  have hc : s.close = s'.close := by omega
  exact h.spans_unique h1.1 h2.1 (t := s.close) ⟨(h.ok s h1.1).2.1, Int.le_refl _⟩
    ⟨by have := (h.ok s' h2.1).2.1; omega, by omega⟩

theorem LastClosed.unique {t : Int} {s s' : Session} (h : Regular ss)
    (h1 : LastClosed ss t s) (h2 : LastClosed ss t s') : s = s' := by
  have ha := h1.2.2 s' h2.1 h2.2.1
  have hb := h2.2.2 s h1.1 h1.2.1
  have hc : s.close = s'.close := by omega
  exact h.spans_unique h1.1 h2.1 (t := s.close) ⟨(h.ok s h1.1).2.1, Int.le_refl _⟩
    ⟨by have := (h.ok s' h2.1).2.1; omega, by omega⟩

theorem sessions_getElem {i : Nat} (hi : i < ss.length) :
    pyIndex (Cal.ofSessions ss).sessions (i : Int) = .ok ss[i].label := by
  rw [pyIndex_nat _ _ (by simpa [Cal.ofSessions] using hi)]
  simp [Cal.ofSessions]

theorem sessions_getElem_error {i : Nat} (hi : ss.length ≤ i) :
    pyIndex (Cal.ofSessions ss).sessions (i : Int) = .error .indexError :=
  pyIndex_nat_error _ _ (by simpa [Cal.ofSessions] using hi)

theorem closeIdx_eq_of_first (h : Regular ss) {t : Int} {s : Session} (hf : FirstClosing ss t s) :
    ∃ hi : searchLeft (Cal.ofSessions ss).closes t < ss.length,
      ss[searchLeft (Cal.ofSessions ss).closes t] = s := by
  obtain ⟨j, hj, rfl⟩ := List.getElem_of_mem hf.1
  obtain ⟨_, h2⟩ := closeIdx_spec h t
  have h3 := h2 j hj
  have h4 := hf.2.1
  have hi : searchLeft (Cal.ofSessions ss).closes t < ss.length := by omega
  exact ⟨hi, (closeIdx_first h t hi).unique h hf⟩

theorem closeIdx_ge_of_all (h : Regular ss) {t : Int} (hall : ∀ s ∈ ss, s.close < t) :
    ss.length ≤ searchLeft (Cal.ofSessions ss).closes t := by
  rcases Nat.lt_or_ge (searchLeft (Cal.ofSessions ss).closes t) ss.length with h1 | h1
  · have := (closeIdx_first h t h1).2.1
    have := hall _ (List.getElem_mem h1)
    omega
  · exact h1

/-- **C18** Direction `"next"`: the label of the first session closing at or after `t` — the session
containing `t` if there is one, the next session otherwise. -/
theorem c18_next (h : Regular ss) (t : Int) :
    (∀ s, FirstClosing ss t s →
      (Cal.ofSessions ss).sessionLabelFresh t "next" = .ok s.label) ∧
    (∀ s ∈ ss, s.Spans t → FirstClosing ss t s) ∧
    ((∀ s ∈ ss, s.close < t) →
      ∀ dir, (Cal.ofSessions ss).sessionLabelFresh t dir = .error .indexError) ∧
    ((∃ s ∈ ss, t ≤ s.close) → ∃ s, FirstClosing ss t s) := by
  refine ⟨?_, ?_, ?_, ?_⟩
  · intro s hf
    obtain ⟨hi, he⟩ := closeIdx_eq_of_first h hf
    unfold Cal.sessionLabelFresh Cal.minuteToSessionLabel
    simp [sessions_getElem hi, he]
  · intro s hs hst
    refine ⟨hs, hst.2, fun s' hs' hts => ?_⟩
    rcases Int.lt_or_le s'.close s.close with h1 | h1
    · obtain ⟨i, hi, rfl⟩ := List.getElem_of_mem hs
      obtain ⟨j, hj, rfl⟩ := List.getElem_of_mem hs'
      have hij : j < i := by
        rcases Nat.lt_or_ge j i with h2 | h2
        · exact h2
        · rcases Nat.eq_or_lt_of_le h2 with h3 | h3
          · subst h3; omega
          · have := h.close_lt_open hi hj h3
            have := h.open_le_close hj
            omega
      have := h.close_lt_open hj hi hij
      have := hst.1
      omega
    · exact h1
  · intro hall dir
    have hge := closeIdx_ge_of_all h hall
    unfold Cal.sessionLabelFresh Cal.minuteToSessionLabel
    simp [sessions_getElem_error hge]
  · rintro ⟨s, hs, hts⟩
    obtain ⟨j, hj, rfl⟩ := List.getElem_of_mem hs
    obtain ⟨_, h2⟩ := closeIdx_spec h t
    have := h2 j hj
    exact ⟨_, closeIdx_first h t (by omega)⟩

example : [0, 1, 3, 4, 13, 16, 17, 21].map (fun m =>
      (Cal.ofSessions demoSessions).sessionLabelFresh (m * MINUTE) "next")
    = [.ok 0, .ok 0, .ok 0, .ok 100, .ok 100, .ok 100, .ok 200, .ok 200] := by decide +kernel

/-- **C19** Direction `"previous"`, exactly: the containing session if there is one; otherwise, for
`t` not after the last close, the last session that closed before `t`; and (deviation) for `t`
before the first open the LAST session of the calendar. After the last close: `c18_next`. -/
theorem c19_previous (h : Regular ss) (t : Int) (hlast : ∃ s ∈ ss, t ≤ s.close) :
    (∀ s ∈ ss, s.Spans t → (Cal.ofSessions ss).sessionLabelFresh t "previous" = .ok s.label) ∧
    ((¬ ∃ s ∈ ss, s.Spans t) → ∀ s, LastClosed ss t s →
      (Cal.ofSessions ss).sessionLabelFresh t "previous" = .ok s.label) ∧
    ((∀ s ∈ ss, t < s.open) → ∀ hne : ss ≠ [],
      (Cal.ofSessions ss).sessionLabelFresh t "previous" = .ok (ss.getLast hne).label) := by
  obtain ⟨_, b, hb, hbi⟩ := c16_is_open_on_minute h t
  obtain ⟨s₀, hs₀⟩ := (c18_next h t).2.2.2 hlast
  obtain ⟨hi, he⟩ := closeIdx_eq_of_first h hs₀
  have hopen : ∀ s ∈ ss, s.Spans t → s = s₀ := fun s hs hst =>
    ((c18_next h t).2.1 s hs hst).unique h hs₀
  have hval : (Cal.ofSessions ss).sessionLabelFresh t "previous"
      = if b then .ok s₀.label else
        pyIndex (Cal.ofSessions ss).sessions ((searchLeft (Cal.ofSessions ss).closes t : Int) - 1) := by
    unfold Cal.sessionLabelFresh Cal.minuteToSessionLabel
    simp only [sessions_getElem hi, he]
    rw [hb]
    cases b <;> simp [bind, Except.bind, pure, Except.pure]
  refine ⟨?_, ?_, ?_⟩
  · intro s hs hst
    have := hopen s hs hst
    subst this
    have : b = true := hbi.mpr ⟨s, hs, hst⟩
    rw [hval, if_pos this]
  · intro hno s hlc
    have hbf : b = false := by
      cases b with
      | false => rfl
      | true => exact absurd (hbi.mp rfl) hno
    have hp : 0 < searchLeft (Cal.ofSessions ss).closes t := by
      obtain ⟨j, hj, rfl⟩ := List.getElem_of_mem hlc.1
      have := ((closeIdx_spec h t).2 j hj).mpr hlc.2.1
      omega
    obtain ⟨hi', hl'⟩ := closeIdx_last h t hp
    have := hl'.unique h hlc
    rw [hval, hbf]
    simp only [Bool.false_eq_true, if_false]
    have hcast : ((searchLeft (Cal.ofSessions ss).closes t : Nat) : Int) - 1
        = ((searchLeft (Cal.ofSessions ss).closes t - 1 : Nat) : Int) := by omega
    rw [hcast, sessions_getElem hi', this]
  · intro hall hne
    have hno : ¬ ∃ s ∈ ss, s.Spans t := by
      rintro ⟨s, hs, hst⟩
      have := hall s hs; have := hst.1; omega
    have hbf : b = false := by
      cases b with
      | false => rfl
      | true => exact absurd (hbi.mp rfl) hno
    have h0 : searchLeft (Cal.ofSessions ss).closes t = 0 := by
      rcases Nat.eq_zero_or_pos (searchLeft (Cal.ofSessions ss).closes t) with h1 | h1
      · exact h1
      · have h2 := ((closeIdx_spec h t).2 0 (by omega)).mp h1
        have h3 := hall _ (List.getElem_mem (show 0 < ss.length by omega))
        have h4 := h.open_le_close (show 0 < ss.length by omega)
        omega
    have hlen : 0 < ss.length := by omega
    rw [hval, hbf, h0]
    simp only [Bool.false_eq_true, if_false]
    have hm1 : ((0 : Nat) : Int) - 1 = -1 := by omega
    rw [hm1, pyIndex_neg_one _ (by simpa [Cal.ofSessions] using hlen)]
    simp [Cal.ofSessions, List.getLast_eq_getElem]

/-- **C19** (finding) The documented meaning of `"previous"` fails before the first open: the code
answers with the last session, which is in the future. -/
theorem c19_previous_wraps : ∃ (ss : List Session) (t l : Int), Regular ss ∧
    (Cal.ofSessions ss).sessionLabelFresh t "previous" = .ok l ∧
    ∀ s ∈ ss, s.label = l → t < s.open :=
  ⟨demoSessions, 0, 200, demo_regular, by decide +kernel, by decide⟩

/-- **C19** Direction `"none"`: the containing session when the market is open at `t`, `ValueError`
when it is closed (outside all sessions, or in a break), for `t` not after the last close. -/
theorem c19_none (h : Regular ss) (t : Int) (hlast : ∃ s ∈ ss, t ≤ s.close) :
    (∀ s ∈ ss, s.Spans t → ¬ s.InBreak t →
      (Cal.ofSessions ss).sessionLabelFresh t "none" = .ok s.label) ∧
    ((¬ ∃ s ∈ ss, s.Spans t ∧ ¬ s.InBreak t) →
      (Cal.ofSessions ss).sessionLabelFresh t "none"
        = .error (.valueError "The given dt is not an exchange minute!")) := by
  obtain ⟨⟨b, hb, hbi⟩, _⟩ := c16_is_open_on_minute h t
  obtain ⟨s₀, hs₀⟩ := (c18_next h t).2.2.2 hlast
  obtain ⟨hi, he⟩ := closeIdx_eq_of_first h hs₀
  have hval : (Cal.ofSessions ss).sessionLabelFresh t "none"
      = if b then .ok s₀.label else
        .error (.valueError "The given dt is not an exchange minute!") := by
    unfold Cal.sessionLabelFresh Cal.minuteToSessionLabel
    simp only [sessions_getElem hi, he]
    rw [hb]
    cases b <;> simp [bind, Except.bind, pure, Except.pure]
  constructor
  · intro s hs hst hnb
    have := ((c18_next h t).2.1 s hs hst).unique h hs₀
    subst this
    rw [hval, if_pos (hbi.mpr ⟨s, hs, hst, hnb⟩)]
  · intro hno
    have hbf : b = false := by
      cases b with
      | false => rfl
      | true => exact absurd (hbi.mp rfl) hno
    rw [hval, hbf]; simp

/-- **C19** Any other direction string raises `ValueError` (for `t` not after the last close). -/
theorem c19_invalid (h : Regular ss) (t : Int) (hlast : ∃ s ∈ ss, t ≤ s.close) (dir : String)
    (h1 : dir ≠ "next") (h2 : dir ≠ "previous") (h3 : dir ≠ "none") :
    ∃ why, (Cal.ofSessions ss).sessionLabelFresh t dir = .error (.valueError why) := by
  obtain ⟨s₀, hs₀⟩ := (c18_next h t).2.2.2 hlast
  obtain ⟨hi, he⟩ := closeIdx_eq_of_first h hs₀
  refine ⟨"Invalid direction parameter", ?_⟩
  unfold Cal.sessionLabelFresh Cal.minuteToSessionLabel
  simp [sessions_getElem hi, h1, h2, h3]

example : Regular demoSessions ∧ (∃ s ∈ demoSessions, 13 * MINUTE ≤ s.close) ∧
    (∃ s ∈ demoSessions, s.Spans (13 * MINUTE) ∧ s.InBreak (13 * MINUTE)) :=
  ⟨demo_regular, by decide, _, List.mem_cons_of_mem _ (List.mem_cons_self ..), by decide,
    12 * MINUTE, 14 * MINUTE, rfl, by decide, by decide⟩

/-! ## C20 -/

/-- The results of a sequence of `minute_to_session_label` calls on one calendar object whose cache
holds `cache`. -/
def labelCalls (c : Cal) (cache : Cal.LabelCache) : List (Int × String) → List (Py Int)
  | [] => []
  | (t, dir) :: rest =>
      let r := c.minuteToSessionLabel cache t dir
      r.2 :: labelCalls c r.1 rest

/-- A cache entry is truthful. -/
def CacheOk (c : Cal) (cache : Cal.LabelCache) : Prop :=
  ∀ t l, cache = some (t, l) → c.sessionLabelFresh t "next" = .ok l

theorem label_step (c : Cal) (cache : Cal.LabelCache) (hc : CacheOk c cache) (t : Int)
    (dir : String) :
    (c.minuteToSessionLabel cache t dir).2 = c.sessionLabelFresh t dir ∧
    CacheOk c (c.minuteToSessionLabel cache t dir).1 := by
  by_cases hd : dir = "next"
  · subst hd
    cases cache with
    | none =>
      refine ⟨rfl, ?_⟩
      intro t' l' he
      unfold Cal.minuteToSessionLabel at he
      simp only [if_true] at he
      split at he
      · rename_i e heq; cases he
      · rename_i v heq
        simp only [Option.some.injEq, Prod.mk.injEq] at he
        obtain ⟨rfl, rfl⟩ := he
        unfold Cal.sessionLabelFresh Cal.minuteToSessionLabel
        simp only [if_true, heq]
    | some p =>
      obtain ⟨t', l'⟩ := p
      by_cases ht : t' = t
      · subst ht
        have hl := hc t' l' rfl
        unfold Cal.minuteToSessionLabel
        simp only [if_true]
        exact ⟨hl.symm, hc⟩
      · unfold Cal.minuteToSessionLabel
        simp only [if_true, ht, if_false]
        unfold Cal.sessionLabelFresh Cal.minuteToSessionLabel
        simp only [if_true]
        split
        · rename_i e heq; exact ⟨rfl, hc⟩
        · rename_i v heq
          refine ⟨rfl, ?_⟩
          intro t'' l'' he
          simp only [Option.some.injEq, Prod.mk.injEq] at he
          obtain ⟨rfl, rfl⟩ := he
          unfold Cal.sessionLabelFresh Cal.minuteToSessionLabel
          simp only [if_true, heq]
  · unfold Cal.sessionLabelFresh Cal.minuteToSessionLabel
    simp only [hd, if_false]
    split
    · exact ⟨rfl, hc⟩
    · split
      · exact ⟨rfl, hc⟩
      · split
        · exact ⟨rfl, hc⟩
        · exact ⟨rfl, hc⟩

/-- **C20** The cache is invisible: in every history of calls on any calendar (regular or not),
each call returns or raises exactly what it would on a freshly built calendar. -/
theorem c20_cache_transparent (c : Cal) (calls : List (Int × String)) :
    labelCalls c none calls = calls.map (fun p => c.sessionLabelFresh p.1 p.2) := by
  have key : ∀ (calls : List (Int × String)) (cache : Cal.LabelCache), CacheOk c cache →
      labelCalls c cache calls = calls.map (fun p => c.sessionLabelFresh p.1 p.2) := by
    intro calls
    induction calls with
    | nil => intro _ _; rfl
    | cons p rest ih =>
      intro cache hc
      obtain ⟨t, dir⟩ := p
      obtain ⟨h1, h2⟩ := label_step c cache hc t dir
      simp only [labelCalls, List.map_cons]
      rw [h1, ih _ h2]
  exact key calls none (by intro t l h; cases h)

example : labelCalls (Cal.ofSessions demoSessions) none
      [(MINUTE, "next"), (MINUTE, "next"), (5 * MINUTE, "previous"), (MINUTE, "none"),
       (99 * MINUTE, "next")]
    = [.ok 0, .ok 0, .ok 0, .ok 0, .error .indexError] := by decide +kernel

/-! ## C21 -/

theorem isMonotonic_iff (xs : List Int) :
    Cal.isMonotonicIncreasing xs = true ↔ xs.Pairwise (· ≤ ·) := by
  induction xs with
  | nil => simp [Cal.isMonotonicIncreasing]
  | cons a xs ih =>
    cases xs with
    | nil => simp [Cal.isMonotonicIncreasing]
    | cons b rest =>
      simp only [Cal.isMonotonicIncreasing, Bool.and_eq_true, decide_eq_true_eq, ih]
      rw [List.pairwise_cons (l := b :: rest)]
      constructor
      · rintro ⟨h1, h2⟩
        refine ⟨?_, h2⟩
        intro y hy
        rcases List.mem_cons.mp hy with h3 | h3
        · omega
        · have := (List.pairwise_cons.mp h2).1 y h3; omega
      · rintro ⟨h1, h2⟩
        exact ⟨h1 b (by simp), h2⟩

/-- The two indices `minute_index_to_session_labels` compares agree exactly on instants inside a
session. -/
theorem match_iff (h : Regular ss) (t : Int) :
    ((searchRight (Cal.ofSessions ss).opens t : Int) - 1
      = (searchLeft (Cal.ofSessions ss).closes t : Int)) ↔ ∃ s ∈ ss, s.Spans t := by
  obtain ⟨ho1, ho2⟩ := openIdxR_spec h t
  obtain ⟨hc1, hc2⟩ := closeIdx_spec h t
  constructor
  · intro he
    have hi : searchLeft (Cal.ofSessions ss).closes t < ss.length := by omega
    refine ⟨_, List.getElem_mem hi, (ho2 _ hi).mp (by omega), ?_⟩
    have := hc2 _ hi; omega
  · rintro ⟨s, hs, hst⟩
    obtain ⟨i, hi, rfl⟩ := List.getElem_of_mem hs
    have hci := spans_closeIdx h hi hst
    have h1 := (ho2 i hi).mpr hst.1
    rcases Nat.lt_or_ge (i + 1) (searchRight (Cal.ofSessions ss).opens t) with h2 | h2
    · have h3 := (ho2 (i+1) (by omega)).mp h2
      have h4 := h.close_lt_open (i := i) (j := i + 1) hi (by omega) (by omega)
      have := hst.2
      omega
    · omega

/-- **C21** (agreement) For a sorted index of instants each inside a session, the vectorised lookup
returns, position by position, what `minute_to_session_label` returns (for `"next"` and
`"previous"`). -/
theorem c21_agrees (h : Regular ss) (index : List Int) (hsorted : index.Pairwise (· ≤ ·))
    (hin : ∀ t ∈ index, ∃ s ∈ ss, s.Spans t) :
    ∃ labels, (Cal.ofSessions ss).minuteIndexToSessionLabels index = .ok labels ∧
      labels.length = index.length ∧
      ∀ p ∈ index.zip labels,
        (Cal.ofSessions ss).sessionLabelFresh p.1 "next" = .ok p.2 ∧
        (Cal.ofSessions ss).sessionLabelFresh p.1 "previous" = .ok p.2 ∧
        ∃ s ∈ ss, s.Spans p.1 ∧ s.label = p.2 := by
  unfold Cal.minuteIndexToSessionLabels
  rw [(isMonotonic_iff index).mpr hsorted]
  simp only [Bool.not_true, Bool.false_eq_true, if_false]
  have hm : ((index.map (fun t => (searchRight (Cal.ofSessions ss).opens t : Int) - 1)).zip
      (index.map (fun t => (searchLeft (Cal.ofSessions ss).closes t : Int)))).filter
        (fun p => p.1 ≠ p.2) = [] := by
    rw [List.filter_eq_nil_iff]
    intro p hp
    rw [List.zip_map'] at hp
    obtain ⟨t, ht, rfl⟩ := List.mem_map.mp hp
    simp [(match_iff h t).mpr (hin t ht)]
  rw [hm]
  simp only
  clear hsorted hm
  induction index with
  | nil => exact ⟨[], by simp, rfl, by simp⟩
  | cons t rest ih =>
    obtain ⟨labels, h1, h2, h3⟩ := ih (fun t' ht' => hin t' (List.mem_cons_of_mem _ ht'))
    obtain ⟨s, hs, hst⟩ := hin t (by simp)
    have hidx := (match_iff h t).mpr ⟨s, hs, hst⟩
    have hf := (c18_next h t).2.1 s hs hst
    obtain ⟨hi, he⟩ := closeIdx_eq_of_first h hf
    refine ⟨s.label :: labels, ?_, by simp [h2], ?_⟩
    · simp only [List.map_cons, List.foldr_cons]
      rw [h1, hidx, sessions_getElem hi, he]
      rfl
    · intro p hp
      rw [List.zip_cons_cons] at hp
      rcases List.mem_cons.mp hp with hp | hp
      · subst hp
        exact ⟨(c18_next h t).1 s hf, (c19_previous h t ⟨s, hs, hst.2⟩).1 s hs hst, s, hs, hst, rfl⟩
      · exact h3 p hp

/-- The first instant of `index` in no session, if any. -/
def FirstBad (ss : List Session) (index : List Int) (t : Int) : Prop :=
  ∃ pre post, index = pre ++ t :: post ∧ (∀ u ∈ pre, ∃ s ∈ ss, s.Spans u) ∧ ¬ ∃ s ∈ ss, s.Spans t

/-- **C21** (rejection) An unsorted index raises `ValueError`; a sorted index with an instant in no
session raises `ValueError`, or `IndexError` when the first such instant is after the last close. -/
theorem c21_rejects (h : Regular ss) (hne : ss ≠ []) (index : List Int) :
    (¬ index.Pairwise (· ≤ ·) →
      ∃ why, (Cal.ofSessions ss).minuteIndexToSessionLabels index = .error (.valueError why)) ∧
    (index.Pairwise (· ≤ ·) → ∀ t, FirstBad ss index t →
      ((∃ s ∈ ss, t ≤ s.close) →
        ∃ why, (Cal.ofSessions ss).minuteIndexToSessionLabels index = .error (.valueError why)) ∧
      ((∀ s ∈ ss, s.close < t) →
        (Cal.ofSessions ss).minuteIndexToSessionLabels index = .error .indexError)) := by
  have hlen : 0 < ss.length := List.length_pos_iff.mpr hne
  constructor
  · intro hns
    unfold Cal.minuteIndexToSessionLabels
    have : Cal.isMonotonicIncreasing index = false := by
      cases hm : Cal.isMonotonicIncreasing index with
      | false => rfl
      | true => exact absurd ((isMonotonic_iff index).mp hm) hns
    rw [this]
    exact ⟨_, rfl⟩
  · intro hsorted t hbad
    obtain ⟨pre, post, hix, hpre, hno⟩ := hbad
    have hval : (Cal.ofSessions ss).minuteIndexToSessionLabels index = (do
        let _ ← pyIndex (Cal.ofSessions ss).opens
          ((searchRight (Cal.ofSessions ss).opens t : Int) - 1)
        let _ ← pyIndex (Cal.ofSessions ss).opens
          ((searchRight (Cal.ofSessions ss).opens t : Int) - 1 + 1)
        (.error (.valueError "non-market minutes in minute_index_to_session_labels") :
          Py (List Int))) := by
      unfold Cal.minuteIndexToSessionLabels
      rw [(isMonotonic_iff index).mpr hsorted]
      simp only [Bool.not_true, Bool.false_eq_true, if_false]
      have hm : ((index.map (fun t => (searchRight (Cal.ofSessions ss).opens t : Int) - 1)).zip
          (index.map (fun t => (searchLeft (Cal.ofSessions ss).closes t : Int)))).filter
            (fun p => p.1 ≠ p.2)
          = ((searchRight (Cal.ofSessions ss).opens t : Int) - 1,
              (searchLeft (Cal.ofSessions ss).closes t : Int)) ::
            ((post.map (fun t => ((searchRight (Cal.ofSessions ss).opens t : Int) - 1,
              (searchLeft (Cal.ofSessions ss).closes t : Int)))).filter (fun p => p.1 ≠ p.2)) := by
        rw [List.zip_map', hix, List.map_append, List.filter_append, List.map_cons]
        have hp : (pre.map (fun t => ((searchRight (Cal.ofSessions ss).opens t : Int) - 1,
            (searchLeft (Cal.ofSessions ss).closes t : Int)))).filter (fun p => p.1 ≠ p.2) = [] := by
          rw [List.filter_eq_nil_iff]
          intro p hp
          obtain ⟨u, hu, rfl⟩ := List.mem_map.mp hp
          simp [(match_iff h u).mpr (hpre u hu)]
        rw [hp, List.nil_append, List.filter_cons_of_pos]
        simp only [ne_eq, decide_not, Bool.not_eq_eq_eq_not, Bool.not_true, decide_eq_false_iff_not]
        exact fun he => hno ((match_iff h t).mp he)
      rw [hm]
    obtain ⟨ho1, ho2⟩ := openIdxR_spec h t
    have holen : (Cal.ofSessions ss).opens.length = ss.length := by simp [Cal.ofSessions]
    have hprev : ∃ v, pyIndex (Cal.ofSessions ss).opens
        ((searchRight (Cal.ofSessions ss).opens t : Int) - 1) = .ok v := by
      rcases Nat.eq_zero_or_pos (searchRight (Cal.ofSessions ss).opens t) with h0 | hp
      · rw [h0]
        have hm1 : ((0 : Nat) : Int) - 1 = -1 := by omega
        rw [hm1]
        exact ⟨_, pyIndex_neg_one _ (by omega)⟩
      · exact ⟨_, pyIndex_of_eq _ (n := searchRight (Cal.ofSessions ss).opens t - 1) (by omega)
          (by omega)⟩
    obtain ⟨v, hv⟩ := hprev
    have hsucc : ((searchRight (Cal.ofSessions ss).opens t : Nat) : Int) - 1 + 1
        = (searchRight (Cal.ofSessions ss).opens t : Nat) := by omega
    constructor
    · rintro ⟨s, hs, hts⟩
      have hlt : searchRight (Cal.ofSessions ss).opens t < ss.length := by
        obtain ⟨j, hj, rfl⟩ := List.getElem_of_mem hs
        have hj' := ho2 j hj
        rcases Nat.lt_or_ge j (searchRight (Cal.ofSessions ss).opens t) with h1 | h1
        · exact absurd ⟨_, hs, hj'.mp h1, hts⟩ hno
        · omega
      rw [hval, hv, hsucc]
      simp only [bind, Except.bind]
      rw [pyIndex_nat _ _ (by omega)]
      exact ⟨_, rfl⟩
    · intro hall
      have hge : ss.length ≤ searchRight (Cal.ofSessions ss).opens t := by
        rcases Nat.lt_or_ge (searchRight (Cal.ofSessions ss).opens t) ss.length with h1 | h1
        · have h2 := ho2 _ h1
          have h3 := hall _ (List.getElem_mem h1)
          have h4 := h.open_le_close h1
          omega
        · exact h1
      rw [hval, hv, hsucc]
      simp only [bind, Except.bind]
      rw [pyIndex_nat_error _ _ (by omega)]

example : (Cal.ofSessions demoSessions).minuteIndexToSessionLabels
      [MINUTE, MINUTE, 3 * MINUTE, 13 * MINUTE, 21 * MINUTE] = .ok [0, 0, 0, 100, 200] := by
  decide +kernel

example : FirstBad demoSessions [MINUTE, 5 * MINUTE] (5 * MINUTE) := by
  refine ⟨[MINUTE], [], rfl, ?_, ?_⟩
  · intro u hu
    simp only [List.mem_singleton] at hu
    subst hu
    exact ⟨_, List.mem_cons_self .., by decide⟩
  · rintro ⟨s, hs, h1, h2⟩
    simp only [demoSessions, List.mem_cons, List.not_mem_nil, or_false] at hs
    rcases hs with rfl | rfl | rfl <;> revert h1 h2 <;> decide

end TC.Props
