import Verif.Lemmas.Index

namespace TC
open Spec

variable {ss : List Session}

theorem pySlice_map {α β : Type} (f : α → β) (xs : List α) (a b : Int) :
    pySlice (xs.map f) a b = (pySlice xs a b).map f := by
  simp [pySlice, List.map_take, List.map_drop]

theorem Spec.Regular.sublist {ss ss' : List Session} (h : Regular ss) (hs : ss'.Sublist ss) :
    Regular ss' :=
  ⟨fun s hm => h.ok s (hs.subset hm), h.labels.sublist hs, h.times.sublist hs⟩

theorem Spec.Regular.filter (h : Regular ss) (p : Session → Bool) : Regular (ss.filter p) :=
  h.sublist List.filter_sublist

/-- Sessions are ordered by label as they are by time. -/
theorem Spec.Regular.close_lt_of_label (h : Regular ss) {s s' : Session} (hs : s ∈ ss)
    (hs' : s' ∈ ss) (hl : s.label < s'.label) : s.close < s'.open := by
  obtain ⟨i, hi, rfl⟩ := List.getElem_of_mem hs
  obtain ⟨j, hj, rfl⟩ := List.getElem_of_mem hs'
  have hij : i < j := by
    rcases Nat.lt_trichotomy i j with h1 | h1 | h1
    · exact h1
    · subst h1; omega
    · have := List.pairwise_iff_getElem.mp h.labels j i hj hi h1
      omega
  exact h.close_lt_open hi hj hij

/-- The rows `schedule.loc[a:b]` selects. -/
theorem slice_sessions (h : Regular ss) (a b : Int) :
    pySlice ss (searchLeft (ss.map (·.label)) a) (searchRight (ss.map (·.label)) b)
      = ss.filter (fun s => decide (a ≤ s.label) && decide (s.label ≤ b)) := by
  have hs := h.labels_sorted.le
  have hle := searchRight_le hs b
  rw [pySlice_nat _ _ _ (by simpa using hle)]
  rw [filter_eq_take_drop _ ss (searchLeft (ss.map (·.label)) a) (searchRight (ss.map (·.label)) b)]
  intro i hi
  have h1 := lt_searchLeft hs a (i := i) (by simpa using hi)
  have h2 := lt_searchRight hs b (i := i) (by simpa using hi)
  simp only [List.getElem_map] at h1 h2
  simp only [Bool.and_eq_true, decide_eq_true_eq]
  omega

/-- The sessions with label in `[a, b]`. -/
def rangeOf (ss : List Session) (a b : Int) : List Session :=
  ss.filter (fun s => decide (a ≤ s.label) && decide (s.label ≤ b))

theorem sessionsInRange_eq (h : Regular ss) (a b : Int) :
    (Cal.ofSessions ss).sessionsInRange a b = (rangeOf ss a b).map (·.label) := by
  unfold Cal.sessionsInRange sliceIndexer
  simp only [Cal.ofSessions, pySlice_map]
  rw [slice_sessions h]; rfl

theorem minutesInRange_session_window (h : Regular ss) (hw : ∀ s ∈ ss, s.WholeMinutes)
    {s : Session} (hs : s ∈ ss) (a b : Int) (hb : b ≤ s.close) :
    (Cal.ofSessions ss).minutesInRange a b
      = .ok ((Cal.ofSessions ss).minutes.filter (fun t => decide (a ≤ t) && decide (t ≤ b))) := by
  refine (minutesInRange_eq (minutes_sorted h hw) a b).1 ⟨s.close, ?_, hb⟩
  exact (mem_minutes h.ok hw _).mpr ⟨s, hs, close_isMinute (h.ok s hs) (hw s hs)⟩

theorem filter_span_eq (h : Regular ss) (hw : ∀ s ∈ ss, s.WholeMinutes) {s : Session}
    (hs : s ∈ ss) :
    (Cal.ofSessions ss).minutes.filter (fun t => decide (s.open ≤ t) && decide (t ≤ s.close))
      = sessMin s := by
  refine sorted_ext ((minutes_sorted h hw).filter _) (sessMin_sorted (h.ok s hs) (hw s hs)) ?_
  intro t
  rw [List.mem_filter, mem_minutes h.ok hw, mem_sessMin (hw s hs)]
  simp only [Bool.and_eq_true, decide_eq_true_eq]
  constructor
  · rintro ⟨⟨s', hs', hm⟩, h1, h2⟩
    have := h.spans_unique hs' hs (isMinute_spans (h.ok s' hs') hm) ⟨h1, h2⟩
    subst this; exact hm
  · intro hm
    exact ⟨⟨s, hs, hm⟩, isMinute_spans (h.ok s hs) hm⟩

theorem minutesForSession_eq (h : Regular ss) (hw : ∀ s ∈ ss, s.WholeMinutes) {s : Session}
    (hs : s ∈ ss) : (Cal.ofSessions ss).minutesForSession s.label = .ok (sessMin s) := by
  unfold Cal.minutesForSession
  rw [cell_open h hs, cell_close h hs]
  simp only [bind, Except.bind]
  rw [minutesInRange_session_window h hw hs _ _ (Int.le_refl _), filter_span_eq h hw hs]

/-- `mapM` of a function that succeeds everywhere. -/
theorem mapM_ok {α β : Type} {f : α → Py β} {g : α → β} :
    ∀ {xs : List α}, (∀ x ∈ xs, f x = .ok (g x)) → xs.mapM f = .ok (xs.map g)
  | [], _ => rfl
  | x :: xs, h => by
    rw [List.mapM_cons, h x (by simp), mapM_ok (fun y hy => h y (List.mem_cons_of_mem _ hy))]
    rfl

theorem collect_eq_mapM (f : Int → Py (List Int)) : ∀ xs, Cal.collect f xs = xs.mapM f
  | [] => rfl
  | x :: xs => by rw [Cal.collect, List.mapM_cons, collect_eq_mapM f xs]

theorem mapM_map {α β γ : Type} (f : β → Py γ) (g : α → β) : ∀ xs : List α,
    (xs.map g).mapM f = xs.mapM (fun x => f (g x))
  | [] => rfl
  | x :: xs => by rw [List.map_cons, List.mapM_cons, List.mapM_cons, mapM_map f g xs]

theorem minutesPerSession_ofSessions (ss : List Session) :
    Cal.minutesPerSession (Cal.ofSessions ss).opens (Cal.ofSessions ss).breakStarts
        (Cal.ofSessions ss).breakEnds (Cal.ofSessions ss).closes
      = ss.map (fun s => match s.brk with
          | none => Cal.sessionMinuteCount s.open NP_NAT NP_NAT s.close
          | some (b, e) => Cal.sessionMinuteCount s.open b e s.close) := by
  induction ss with
  | nil => rfl
  | cons s ss ih =>
    simp only [Cal.ofSessions, List.map_cons, Cal.minutesPerSession] at ih ⊢
    rw [ih]
    congr 1
    cases s.brk with
    | none => rfl
    | some p => rfl

/-- The count of one session: its number of minutes, less one if it has a break. -/
theorem sessionMinuteCount_eq {s : Session} (hok : s.Ok) (hw : s.WholeMinutes) :
    (match s.brk with
      | none => Cal.sessionMinuteCount s.open NP_NAT NP_NAT s.close
      | some (b, e) => Cal.sessionMinuteCount s.open b e s.close)
      = ((sessMin s).length : Int) - (if s.brk.isSome then 1 else 0) := by
  obtain ⟨⟨o, ho⟩, ⟨cl, hcl⟩, hbw⟩ := hw
  obtain ⟨hn, hoc, hb⟩ := hok
  cases hbr : s.brk with
  | none =>
    simp only [sessMin, hbr, length_arange, Cal.sessionMinuteCount]
    simp only [MINUTE] at *
    simp
    omega
  | some p =>
    obtain ⟨b, e⟩ := p
    obtain ⟨⟨b', hb'⟩, ⟨e', he'⟩⟩ := hbw b e hbr
    obtain ⟨h1, h2, h3⟩ := hb b e hbr
    have hbn : ¬ (b = NP_NAT ∨ e = NP_NAT) := by omega
    simp only [sessMin, hbr, length_arange, Cal.sessionMinuteCount, List.length_append, hbn,
      if_false, Option.isSome_some, if_true]
    simp only [MINUTE] at *
    omega

end TC
