import Verif.Spec.Overlap
import Verif.Props.Queries
import Verif.Props.Ranges
import Verif.Props.Build
import Verif.Lemmas.ExchangeCheck

/-!
# Calendars over overlapping ranges: lemmas
-/

namespace TC
open Spec Props

/-- The sessions that have to do with the time from `lo` to `hi` are in both lists or in none. -/
def Common (ss ss' : List Session) (lo hi : Int) : Prop :=
  ∀ s, (s.label ≤ hi ∨ s.open ≤ hi) → (lo ≤ s.label ∨ lo ≤ s.close) → (s ∈ ss ↔ s ∈ ss')

theorem Common.symm {ss ss' : List Session} {lo hi : Int} (h : Common ss ss' lo hi) : Common ss' ss lo hi :=
  fun s h1 h2 => (h s h1 h2).symm

theorem labels_ext {xs ys : List Session} (hx : xs.Pairwise (fun s s' => s.label < s'.label))
    (hy : ys.Pairwise (fun s s' => s.label < s'.label)) (h : ∀ s, s ∈ xs ↔ s ∈ ys) : xs = ys := by
  induction xs generalizing ys with
  | nil =>
    cases ys with
    | nil => rfl
    | cons y ys => have := (h y).mpr (by simp); simp at this
  | cons x xs ih =>
    cases ys with
    | nil => have := (h x).mp (by simp); simp at this
    | cons y ys =>
      rw [List.pairwise_cons] at hx hy
      have hxy : x = y := by
        have h1 : x ∈ y :: ys := (h x).mp (by simp)
        have h2 : y ∈ x :: xs := (h y).mpr (by simp)
        rcases List.mem_cons.mp h1 with h1 | h1
        · exact h1
        · rcases List.mem_cons.mp h2 with h2 | h2
          · exact h2.symm
          · have := hy.1 x h1; have := hx.1 y h2; omega
      subst hxy
      congr 1
      apply ih hx.2 hy.2
      intro t
      constructor
      · intro ht
        rcases List.mem_cons.mp ((h t).mp (List.mem_cons_of_mem _ ht)) with h1 | h1
        · subst h1; have := hx.1 t ht; omega
        · exact h1
      · intro ht
        rcases List.mem_cons.mp ((h t).mpr (List.mem_cons_of_mem _ ht)) with h1 | h1
        · subst h1; have := hy.1 t ht; omega
        · exact h1

variable {ss ss' : List Session} {lo hi : Int}

theorem Common.range (hC : Common ss ss' lo hi) (h : Regular ss) (h' : Regular ss') {a e : Int}
    (ha : lo ≤ a) (he : e ≤ hi) :
    ss.filter (fun s => decide (a ≤ s.label ∧ s.label ≤ e)) =
      ss'.filter (fun s => decide (a ≤ s.label ∧ s.label ≤ e)) := by
  refine labels_ext (h.labels.filter _) (h'.labels.filter _) fun s => ?_
  simp only [List.mem_filter, decide_eq_true_eq]
  refine and_congr_left fun hs => hC s (Or.inl (by omega)) (Or.inl (by omega))

theorem Common.sessions (hC : Common ss ss' lo hi) {l : Int} (h1 : lo ≤ l) (h2 : l ≤ hi) :
    l ∈ (Cal.ofSessions ss).sessions ↔ l ∈ (Cal.ofSessions ss').sessions := by
  simp only [Cal.ofSessions, List.mem_map]
  exact exists_congr fun s => and_congr_left fun e =>
    hC s (Or.inl (by omega)) (Or.inl (by omega))

/-- `next_…` over column `f`, which lies between open and close. -/
theorem Common.next {f : Session → Int} (hC : Common ss ss' lo hi) (h : Regular ss) (h' : Regular ss')
    (hf : ∀ s, s.Ok → s.open ≤ f s ∧ f s ≤ s.close) {t u : Int} (ht : lo ≤ t) (hu : u ≤ hi)
    (hn : IsNext (ss.map f) t u) : IsNext (ss'.map f) t u := by
  obtain ⟨hm, h1, h2⟩ := hn
  obtain ⟨s, hs, rfl⟩ := List.mem_map.1 hm
  have := hf s (h.ok s hs)
  refine ⟨List.mem_map.2 ⟨s, (hC s (Or.inr (by omega)) (Or.inr (by omega))).1 hs, rfl⟩, h1, ?_⟩
  intro y hy hty
  obtain ⟨s', hs', rfl⟩ := List.mem_map.1 hy
  have := hf s' (h'.ok s' hs')
  apply Decidable.byContradiction
  intro hlt
  exact hlt (h2 _ (List.mem_map_of_mem ((hC s' (Or.inr (by omega)) (Or.inr (by omega))).2 hs')) hty)

theorem Common.prev {f : Session → Int} (hC : Common ss ss' lo hi) (h : Regular ss) (h' : Regular ss')
    (hf : ∀ s, s.Ok → s.open ≤ f s ∧ f s ≤ s.close) {t u : Int} (ht : t ≤ hi) (hu : lo ≤ u)
    (hn : IsPrev (ss.map f) t u) : IsPrev (ss'.map f) t u := by
  obtain ⟨hm, h1, h2⟩ := hn
  obtain ⟨s, hs, rfl⟩ := List.mem_map.1 hm
  have := hf s (h.ok s hs)
  refine ⟨List.mem_map.2 ⟨s, (hC s (Or.inr (by omega)) (Or.inr (by omega))).1 hs, rfl⟩, h1, ?_⟩
  intro y hy hty
  obtain ⟨s', hs', rfl⟩ := List.mem_map.1 hy
  have := hf s' (h'.ok s' hs')
  apply Decidable.byContradiction
  intro hlt
  exact hlt (h2 _ (List.mem_map_of_mem ((hC s' (Or.inr (by omega)) (Or.inr (by omega))).2 hs')) hty)

theorem minute_between {s : Session} (hs : s.Ok) {t : Int} (h : s.IsMinute t) :
    s.open ≤ t ∧ t ≤ s.close := by
  obtain ⟨-, h⟩ := h
  cases hb : s.brk with
  | none => rw [hb] at h; exact h
  | some p =>
    obtain ⟨b, e⟩ := p
    rw [hb] at h
    have := hs.2.2 b e hb
    simp only at h
    omega

theorem Common.minutes (hC : Common ss ss' lo hi) (h : Regular ss) (h' : Regular ss')
    (hw : ∀ s ∈ ss, s.WholeMinutes) (hw' : ∀ s ∈ ss', s.WholeMinutes) {t : Int} (h1 : lo ≤ t)
    (h2 : t ≤ hi) (hm : t ∈ (Cal.ofSessions ss).minutes) : t ∈ (Cal.ofSessions ss').minutes := by
  rw [(c15_all_minutes h hw).2.1] at hm
  rw [(c15_all_minutes h' hw').2.1]
  obtain ⟨s, hs, hst⟩ := hm
  have := minute_between (h.ok s hs) hst
  exact ⟨s, (hC s (Or.inr (by omega)) (Or.inr (by omega))).1 hs, hst⟩

theorem Common.nextMinute (hC : Common ss ss' lo hi) (h : Regular ss) (h' : Regular ss')
    (hw : ∀ s ∈ ss, s.WholeMinutes) (hw' : ∀ s ∈ ss', s.WholeMinutes) {t u : Int} (ht : lo ≤ t)
    (hu : u ≤ hi) (hn : IsNext (Cal.ofSessions ss).minutes t u) :
    IsNext (Cal.ofSessions ss').minutes t u := by
  obtain ⟨hm, h1, h2⟩ := hn
  refine ⟨hC.minutes h h' hw hw' (by omega) (by omega) hm, h1, fun y hy hty => ?_⟩
  apply Decidable.byContradiction
  intro hlt
  exact hlt (h2 _ (hC.symm.minutes h' h hw' hw (by omega) (by omega) hy) hty)

theorem Common.prevMinute (hC : Common ss ss' lo hi) (h : Regular ss) (h' : Regular ss')
    (hw : ∀ s ∈ ss, s.WholeMinutes) (hw' : ∀ s ∈ ss', s.WholeMinutes) {t u : Int} (ht : t ≤ hi)
    (hu : lo ≤ u) (hn : IsPrev (Cal.ofSessions ss).minutes t u) :
    IsPrev (Cal.ofSessions ss').minutes t u := by
  obtain ⟨hm, h1, h2⟩ := hn
  refine ⟨hC.minutes h h' hw hw' (by omega) (by omega) hm, h1, fun y hy hty => ?_⟩
  apply Decidable.byContradiction
  intro hlt
  exact hlt (h2 _ (hC.symm.minutes h' h hw' hw (by omega) (by omega) hy) hty)

theorem Common.open_ (hC : Common ss ss' lo hi) (h : Regular ss) (h' : Regular ss') {t : Int}
    (h1 : lo ≤ t) (h2 : t ≤ hi) (ib : Bool) :
    (Cal.ofSessions ss).isOpenOnMinute t ib = (Cal.ofSessions ss').isOpenOnMinute t ib := by
  obtain ⟨⟨r, hr, hri⟩, r2, hr2, hri2⟩ := c16_is_open_on_minute h t
  obtain ⟨⟨q, hq, hqi⟩, q2, hq2, hqi2⟩ := c16_is_open_on_minute h' t
  have key : ∀ P : Session → Prop, (∃ s ∈ ss, s.Spans t ∧ P s) ↔ ∃ s ∈ ss', s.Spans t ∧ P s := by
    intro P
    refine exists_congr fun s => ?_
    constructor
    · rintro ⟨hs, hp, hP⟩
      obtain ⟨p1, p2⟩ := hp
      exact ⟨(hC s (Or.inr (by omega)) (Or.inr (by omega))).1 hs, ⟨p1, p2⟩, hP⟩
    · rintro ⟨hs, hp, hP⟩
      obtain ⟨p1, p2⟩ := hp
      exact ⟨(hC s (Or.inr (by omega)) (Or.inr (by omega))).2 hs, ⟨p1, p2⟩, hP⟩
  cases ib with
  | false =>
    have e : r = q := Bool.eq_iff_iff.2 (by rw [hri, hqi]; exact key _)
    rw [show (Cal.ofSessions ss).isOpenOnMinute t false = .ok r from hr,
      show (Cal.ofSessions ss').isOpenOnMinute t false = .ok q from hq, e]
  | true =>
    have e : r2 = q2 := Bool.eq_iff_iff.2 (by
      rw [hri2, hqi2]
      have := key (fun _ => True)
      simpa using this)
    rw [hr2, hq2, e]

theorem Common.label_ (hC : Common ss ss' lo hi) (h : Regular ss) (h' : Regular ss') {t l : Int}
    (h1 : lo ≤ t) (h2 : l ≤ hi) (hl : (Cal.ofSessions ss).sessionLabelFresh t "next" = .ok l) :
    (Cal.ofSessions ss').sessionLabelFresh t "next" = .ok l := by
  obtain ⟨a1, -, a3, a4⟩ := c18_next h t
  rcases Classical.em (∃ s ∈ ss, t ≤ s.close) with hex | hex
  case inr =>
    have := a3 (fun s hs => by
      apply Decidable.byContradiction
      intro hn
      exact hex ⟨s, hs, by omega⟩) "next"
    rw [this] at hl
    cases hl
  obtain ⟨s, hs⟩ := a4 hex
  rw [a1 s hs] at hl
  cases hl
  obtain ⟨hs1, hs2, hs3⟩ := hs
  have hm := (hC s (Or.inl h2) (Or.inr (by omega))).1 hs1
  refine (c18_next h' t).1 s ⟨hm, hs2, fun s' hs' ht' => ?_⟩
  apply Decidable.byContradiction
  intro hlt
  have hlab : s'.label < s.label := by
    obtain ⟨i, hi, rfl⟩ := List.getElem_of_mem hs'
    obtain ⟨j, hj, rfl⟩ := List.getElem_of_mem hm
    have hp := List.pairwise_iff_getElem.1 h'.labels
    have hq := List.pairwise_iff_getElem.1 h'.times
    rcases Nat.lt_trichotomy i j with hij | hij | hij
    · exact hp i j hi hj hij
    · subst hij; omega
    · have := hq j i hj hi hij
      have := (h'.ok _ (List.getElem_mem hi)).2.1
      omega
  exact hlt (hs3 s' ((hC s' (Or.inl (by omega)) (Or.inr (by omega))).2 hs') ht')

theorem Common.labelNone (hC : Common ss ss' lo hi) (h : Regular ss) (h' : Regular ss') {t l : Int}
    (h1 : lo ≤ t) (h2 : t ≤ hi) (hl : (Cal.ofSessions ss).sessionLabelFresh t "none" = .ok l) :
    (Cal.ofSessions ss').sessionLabelFresh t "none" = .ok l := by
  rcases Classical.em (∃ s ∈ ss, t ≤ s.close) with hex | hex
  case inr =>
    have := (c18_next h t).2.2.1 (fun s hs => by
      apply Decidable.byContradiction
      intro hn
      exact hex ⟨s, hs, by omega⟩) "none"
    rw [this] at hl
    cases hl
  obtain ⟨b1, b2⟩ := c19_none h t hex
  rcases Classical.em (∃ s ∈ ss, s.Spans t ∧ ¬ s.InBreak t) with ⟨s, hs, hsp, hnb⟩ | hno
  case inr => rw [b2 hno] at hl; cases hl
  rw [b1 s hs hsp hnb] at hl
  cases hl
  have hsp' := hsp
  obtain ⟨p1, p2⟩ := hsp
  have hm := (hC s (Or.inr (by omega)) (Or.inr (by omega))).1 hs
  exact (c19_none h' t ⟨s, hm, p2⟩).1 s hm hsp' hnb

theorem Common.minutesForSession (hC : Common ss ss' lo hi) (h : Regular ss) (h' : Regular ss')
    (hw : ∀ s ∈ ss, s.WholeMinutes) (hw' : ∀ s ∈ ss', s.WholeMinutes) {l : Int} (h1 : lo ≤ l)
    (h2 : l ≤ hi) : (Cal.ofSessions ss).minutesForSession l = (Cal.ofSessions ss').minutesForSession l := by
  obtain ⟨a1, a2⟩ := c22_minutes_for_session h hw
  obtain ⟨b1, b2⟩ := c22_minutes_for_session h' hw'
  rcases Classical.em (∃ s ∈ ss, s.label = l) with ⟨s, hs, rfl⟩ | hno
  · have hm := (hC s (Or.inl h2) (Or.inl h1)).1 hs
    obtain ⟨ms, e1, e2, e3, -⟩ := a1 s hs
    obtain ⟨ms', f1, f2, f3, -⟩ := b1 s hm
    rw [e1, f1, sorted_ext e2 f2 (fun t => by rw [e3, f3])]
  · rw [a2 l (fun s hs e => hno ⟨s, hs, e⟩),
      b2 l (fun s hs e => hno ⟨s, (hC s (Or.inl (by omega)) (Or.inl (by omega))).2 hs, e⟩)]

/-- Calendars whose sessions around a stretch of time are the same agree on it. -/
theorem sameAnswers_of (hC : Common ss ss' lo hi) (h : Regular ss) (h' : Regular ss')
    (hw : ∀ s ∈ ss, s.WholeMinutes) (hw' : ∀ s ∈ ss', s.WholeMinutes) :
    SameAnswers (Cal.ofSessions ss) (Cal.ofSessions ss') lo hi := by
  have cell : ∀ l, lo ≤ l → l ≤ hi → (∃ s ∈ ss, s ∈ ss' ∧ s.label = l) ∨
      ((∀ s ∈ ss, s.label ≠ l) ∧ ∀ s ∈ ss', s.label ≠ l) := by
    intro l h1 h2
    rcases Classical.em (∃ s ∈ ss, s.label = l) with ⟨s, hs, rfl⟩ | hno
    · exact Or.inl ⟨s, hs, (hC s (Or.inl h2) (Or.inl h1)).1 hs, rfl⟩
    · exact Or.inr ⟨fun s hs e => hno ⟨s, hs, e⟩,
        fun s hs e => hno ⟨s, (hC s (Or.inl (by omega)) (Or.inl (by omega))).2 hs, e⟩⟩
  have inRange : ∀ a e, lo ≤ a → e ≤ hi → (Cal.ofSessions ss).sessionsInRange a e =
      (Cal.ofSessions ss').sessionsInRange a e := by
    intro a e ha he
    rw [(c26_sessions_in_range h a e).1, (c26_sessions_in_range h' a e).1]
    refine sorted_ext (h.labels_sorted.filter _) (h'.labels_sorted.filter _) fun l => ?_
    simp only [List.mem_filter, decide_eq_true_eq]
    exact and_congr_left fun hl => hC.sessions (by omega) (by omega)
  have oo : ∀ s : Session, s.Ok → s.open ≤ s.open ∧ s.open ≤ s.close := fun s hs =>
    ⟨Int.le_refl _, hs.2.1⟩
  have cc : ∀ s : Session, s.Ok → s.open ≤ s.close ∧ s.close ≤ s.close := fun s hs =>
    ⟨hs.2.1, Int.le_refl _⟩
  constructor
  · intro l h1 h2
    rcases cell l h1 h2 with ⟨s, hs, hs', rfl⟩ | ⟨hn, hn'⟩
    · rw [(c31_accessors h hs).1, (c31_accessors h' hs').1]
    · rw [(c31_non_session hn).1, (c31_non_session hn').1]
  · intro l h1 h2
    rcases cell l h1 h2 with ⟨s, hs, hs', rfl⟩ | ⟨hn, hn'⟩
    · rw [(c31_accessors h hs).2.2.2.1, (c31_accessors h' hs').2.2.2.1]
    · rw [(c31_non_session hn).2.2.2.2.2.1, (c31_non_session hn').2.2.2.2.2.1]
  · intro l h1 h2
    rcases cell l h1 h2 with ⟨s, hs, hs', rfl⟩ | ⟨hn, hn'⟩
    · rw [(c31_accessors h hs).2.2.2.2.1, (c31_accessors h' hs').2.2.2.2.1]
    · rw [(c31_non_session hn).2.2.2.2.2.2, (c31_non_session hn').2.2.2.2.2.2]
  · exact inRange
  · intro a e ha he
    rw [(c26_sessions_in_range h a e).2.1, (c26_sessions_in_range h' a e).2.1, hC.range h h' ha he]
  · intro a e ha he
    rw [(c26_sessions_in_range h a e).2.2, (c26_sessions_in_range h' a e).2.2, hC.range h h' ha he]
  · intro a e h1 h2 h3 h4
    have key : ∀ a e, lo ≤ a → e ≤ hi →
        (Cal.ofSessions ss).sessions.filter (fun l => decide (a ≤ l ∧ l ≤ e)) =
          (Cal.ofSessions ss').sessions.filter (fun l => decide (a ≤ l ∧ l ≤ e)) := by
      intro a e ha he
      rw [← (c26_sessions_in_range h a e).1, ← (c26_sessions_in_range h' a e).1, inRange a e ha he]
    obtain ⟨p1, p2⟩ := c28_session_distance h a e
    obtain ⟨q1, q2⟩ := c28_session_distance h' a e
    rcases Int.lt_or_le e a with hae | hae
    · rw [p2 hae, q2 hae, key e a h3 h2]
    · rw [p1 hae, q1 hae, key a e h1 h4]
  · have key : ∀ {ss ss' : List Session}, Common ss ss' lo hi → Regular ss → Regular ss' →
        ∀ a l, lo ≤ a → a ≤ hi → l ≤ hi → (Cal.ofSessions ss).nextSessionLabel a = .ok l →
          (Cal.ofSessions ss').nextSessionLabel a = .ok l := by
      intro ss ss' hC h h' a l h1 h2 h3 hn
      rcases Classical.em (a ∈ (Cal.ofSessions ss).sessions) with ha | ha
      case inr => rw [((c30_step h).2.2.2 a ha).1] at hn; cases hn
      have ha' := (hC.sessions h1 h2).1 ha
      rw [(c30_nearest h a l ha).1] at hn
      rw [(c30_nearest h' a l ha').1]
      obtain ⟨m1, m2, m3⟩ := hn
      refine ⟨(hC.sessions (by omega) h3).1 m1, m2, fun y hy hay => ?_⟩
      apply Decidable.byContradiction
      intro hlt
      exact hlt (m3 y ((hC.sessions (by omega) (by omega)).2 hy) hay)
    exact fun a l h1 h2 h3 => ⟨key hC h h' a l h1 h2 h3, key hC.symm h' h a l h1 h2 h3⟩
  · have key : ∀ {ss ss' : List Session}, Common ss ss' lo hi → Regular ss → Regular ss' →
        ∀ a l, lo ≤ a → a ≤ hi → lo ≤ l → (Cal.ofSessions ss).previousSessionLabel a = .ok l →
          (Cal.ofSessions ss').previousSessionLabel a = .ok l := by
      intro ss ss' hC h h' a l h1 h2 h3 hn
      rcases Classical.em (a ∈ (Cal.ofSessions ss).sessions) with ha | ha
      case inr => rw [((c30_step h).2.2.2 a ha).2] at hn; cases hn
      have ha' := (hC.sessions h1 h2).1 ha
      rw [(c30_nearest h a l ha).2] at hn
      rw [(c30_nearest h' a l ha').2]
      obtain ⟨m1, m2, m3⟩ := hn
      refine ⟨(hC.sessions h3 (by omega)).1 m1, m2, fun y hy hay => ?_⟩
      apply Decidable.byContradiction
      intro hlt
      exact hlt (m3 y ((hC.sessions (by omega) (by omega)).2 hy) hay)
    exact fun a l h1 h2 h3 => ⟨key hC h h' a l h1 h2 h3, key hC.symm h' h a l h1 h2 h3⟩
  · exact fun t ib h1 h2 => hC.open_ h h' h1 h2 ib
  · intro t u h1 h2
    rw [(c12_next_open h t).1, (c12_next_open h' t).1]
    exact ⟨hC.next h h' oo h1 h2, hC.symm.next h' h oo h1 h2⟩
  · intro t u h1 h2
    rw [(c12_next_close h t).1, (c12_next_close h' t).1]
    exact ⟨hC.next h h' cc h1 h2, hC.symm.next h' h cc h1 h2⟩
  · intro t u h1 h2
    rw [(c14_next_previous_minute h hw t).1, (c14_next_previous_minute h' hw' t).1]
    exact ⟨hC.nextMinute h h' hw hw' h1 h2, hC.symm.nextMinute h' h hw' hw h1 h2⟩
  · intro t u h1 h2
    rw [(c13_previous_open h t).1, (c13_previous_open h' t).1]
    exact ⟨hC.prev h h' oo h1 h2, hC.symm.prev h' h oo h1 h2⟩
  · intro t u h1 h2
    rw [(c13_previous_close h t).1, (c13_previous_close h' t).1]
    exact ⟨hC.prev h h' cc h1 h2, hC.symm.prev h' h cc h1 h2⟩
  · intro t u h1 h2
    rw [(c14_next_previous_minute h hw t).2.2.1, (c14_next_previous_minute h' hw' t).2.2.1]
    exact ⟨hC.prevMinute h h' hw hw' h1 h2, hC.symm.prevMinute h' h hw' hw h1 h2⟩
  · exact fun t l h1 h2 => ⟨hC.label_ h h' h1 h2, hC.symm.label_ h' h h1 h2⟩
  · exact fun t l h1 h2 => ⟨hC.labelNone h h' h1 h2, hC.symm.labelNone h' h h1 h2⟩
  · exact fun l h1 h2 => hC.minutesForSession h h' hw hw' h1 h2
  · intro a e h1 h2 h3 h4
    obtain ⟨p1, p2⟩ := c24_minutes_for_sessions h hw
    obtain ⟨q1, q2⟩ := c24_minutes_for_sessions h' hw'
    rcases cell a h1 h2 with ⟨s, hs, hs', rfl⟩ | ⟨hn, hn'⟩
    case inr => rw [p2 a e (Or.inl hn), q2 a e (Or.inl hn')]
    rcases cell e h3 h4 with ⟨s₂, hs₂, hs₂', rfl⟩ | ⟨hn, hn'⟩
    case inr => rw [p2 _ e (Or.inr hn), q2 _ e (Or.inr hn')]
    obtain ⟨ps, e1, e2⟩ := p1 s hs s₂ hs₂
    obtain ⟨qs, f1, f2⟩ := q1 s hs' s₂ hs₂'
    rw [e2, f2]
    rw [inRange _ _ h1 h4] at e1
    have : ps = qs := by
      have hcong : ((Cal.ofSessions ss').sessionsInRange s.label s₂.label).mapM
          (Cal.ofSessions ss).minutesForSession =
        ((Cal.ofSessions ss').sessionsInRange s.label s₂.label).mapM
          (Cal.ofSessions ss').minutesForSession := by
        refine mapM_congr fun l hl => ?_
        rw [(c26_sessions_in_range h' _ _).1] at hl
        simp only [List.mem_filter, decide_eq_true_eq] at hl
        exact hC.minutesForSession h h' hw hw' (by omega) (by omega)
      rw [hcong, f1] at e1
      cases e1
      rfl
    rw [this]
  · intro a e h1 h2
    obtain ⟨ps, e1, e2⟩ := c25_minutes_count h hw a e
    obtain ⟨qs, f1, f2⟩ := c25_minutes_count h' hw' a e
    rw [inRange _ _ h1 h2] at e1
    have hps : ps = qs := by
      have hcong : ((Cal.ofSessions ss').sessionsInRange a e).mapM (Cal.ofSessions ss).minutesForSession =
        ((Cal.ofSessions ss').sessionsInRange a e).mapM (Cal.ofSessions ss').minutesForSession := by
        refine mapM_congr fun l hl => ?_
        rw [(c26_sessions_in_range h' _ _).1] at hl
        simp only [List.mem_filter, decide_eq_true_eq] at hl
        exact hC.minutesForSession h h' hw hw' (by omega) (by omega)
      rw [hcong, f1] at e1
      cases e1
      rfl
    have hfil : ∀ ss : List Session,
        (ss.filter (fun s => decide (a ≤ s.label ∧ s.label ≤ e) && s.brk.isSome)) =
          (ss.filter (fun s => decide (a ≤ s.label ∧ s.label ≤ e))).filter (·.brk.isSome) := by
      intro ss
      rw [List.filter_filter]
      exact List.filter_congr fun s _ => Bool.and_comm _ _
    rw [e2, f2, hps, hfil ss, hfil ss', hC.range h h' h1 h2]
  · intro a e ms ms' h1 h2 hm hm'
    obtain ⟨p1, p2⟩ := c23_minutes_in_range h hw a e
    obtain ⟨q1, q2⟩ := c23_minutes_in_range h' hw' a e
    rcases Classical.em (∃ t ∈ (Cal.ofSessions ss).minutes, e ≤ t) with hx | hx
    case inr =>
      rw [p2 (fun t ht => by
        apply Decidable.byContradiction
        intro hn
        exact hx ⟨t, ht, by omega⟩)] at hm
      cases hm
    rcases Classical.em (∃ t ∈ (Cal.ofSessions ss').minutes, e ≤ t) with hx' | hx'
    case inr =>
      rw [q2 (fun t ht => by
        apply Decidable.byContradiction
        intro hn
        exact hx' ⟨t, ht, by omega⟩)] at hm'
      cases hm'
    rw [p1 hx] at hm
    rw [q1 hx'] at hm'
    cases hm
    cases hm'
    refine sorted_ext ((c15_all_minutes h hw).1.filter _) ((c15_all_minutes h' hw').1.filter _) fun t => ?_
    simp only [List.mem_filter, decide_eq_true_eq]
    exact and_congr_left fun ht => ⟨hC.minutes h h' hw hw' (by omega) (by omega),
      hC.symm.minutes h' h hw' hw (by omega) (by omega)⟩

/-! ### Built calendars -/

/-- Special times do not depend on a window that contains the date. -/
theorem specialTime_window {rules : List (Int × HolidayFn)} {adHoc : List (Int × List Int)}
    (hP : ∀ e ∈ rules, ∃ P : Int → Prop, ∀ s e' l, l ∈ e.2 s e' ↔ P l ∧ s ≤ l ∧ l ≤ e')
    {start stop start' stop' l t : Int} (h1 : start' ≤ l) (h2 : l ≤ stop')
    (h : SpecialTime rules adHoc start stop l t) : SpecialTime rules adHoc start' stop' l t := by
  rcases h with ⟨cal, hm, hl⟩ | h
  · obtain ⟨P, hP⟩ := hP _ hm
    exact Or.inl ⟨cal, hm, (hP _ _ _).2 ⟨((hP _ _ _).1 hl).1, h1, h2⟩⟩
  · exact Or.inr h

theorem applied_window {z : Tz} {rules : List (Int × HolidayFn)} {adHoc : List (Int × List Int)}
    (hP : ∀ e ∈ rules, ∃ P : Int → Prop, ∀ s e' l, l ∈ e.2 s e' ↔ P l ∧ s ≤ l ∧ l ≤ e')
    {start stop start' stop' l u : Int} (h1 : start' ≤ l) (h2 : l ≤ stop') (h3 : start' ≤ u)
    (h4 : u ≤ stop') (h : Applied z rules adHoc start stop l u) : Applied z rules adHoc start' stop' l u := by
  obtain ⟨t, ht, ho, -⟩ := h
  exact ⟨t, specialTime_window hP h1 h2 ht, ho, h3, h4⟩

theorem applied_unique {z : Tz} {rules : List (Int × HolidayFn)} {adHoc : List (Int × List Int)}
    {start stop l : Int} (hu : ∀ t t', SpecialTime rules adHoc start stop l t →
      SpecialTime rules adHoc start stop l t' → t = t') {u u' : Int}
    (h : Applied z rules adHoc start stop l u) (h' : Applied z rules adHoc start stop l u') : u = u' := by
  obtain ⟨t, ht, ho, -⟩ := h
  obtain ⟨t', ht', ho', -⟩ := h'
  rw [hu t t' ht ht'] at ho
  exact OnlyInstant.unique ho ho'

theorem standard_unique {z : Tz} {table : TimeTable} (hv : ValidTable table) {k l u u' : Int}
    (h : StandardTime z table k l u) (h' : StandardTime z table k l u') : u = u' := by
  obtain ⟨t, ht, ho⟩ := h
  obtain ⟨t', ht', ho'⟩ := h'
  obtain ⟨t₀, -, hu⟩ := c34_time_unique hv l
  rw [hu t ht] at ho
  rw [hu t' ht'] at ho'
  exact OnlyInstant.unique ho ho'

variable {cfg : Config} {start stop start' stop' : Int}

/-- Two rows of the same session, with the same special times applied, are equal. -/
theorem rows_eq (ho : Ordered cfg) (hone : OneSpecial cfg) {s s' : Session}
    (f : RowFacts cfg start stop s) (f' : RowFacts cfg start' stop' s') (hl : s.label = s'.label)
    (hO : ∀ u, SpecialOpen cfg start stop s.label u ↔ SpecialOpen cfg start' stop' s.label u)
    (hC : ∀ u, SpecialClose cfg start stop s.label u ↔ SpecialClose cfg start' stop' s.label u) :
    s = s' := by
  have e1 : s.open = s'.open := by
    rcases Classical.em (∃ u, SpecialOpen cfg start stop s.label u) with ⟨u, hu⟩ | hno
    · have a := f.openSpecial u hu
      have b := f'.openSpecial u (hl ▸ (hO u).1 hu)
      rw [← hl] at b
      exact applied_unique (hone.openUnique _ _ _) a ((hO _).2 b)
    · have a := f.openStandard (fun u hu => hno ⟨u, hu⟩)
      have b := f'.openStandard (fun u hu => hno ⟨u, (hO u).2 (hl ▸ hu)⟩)
      rw [← hl] at b
      exact standard_unique ho.openTable a b
  have e2 : s.close = s'.close ∧ s.brk = s'.brk := by
    rcases Classical.em (∃ u, SpecialClose cfg start stop s.label u) with ⟨u, hu⟩ | hno
    · have a := f.closeSpecial u hu
      have hu' : SpecialClose cfg start' stop' s'.label u := hl ▸ (hC u).1 hu
      have b := f'.closeSpecial u hu'
      rw [← hl] at b
      exact ⟨applied_unique (hone.closeUnique _ _ _) a ((hC _).2 b),
        (f.brkSpecial u hu).trans (f'.brkSpecial u hu').symm⟩
    · have n : ∀ u, ¬ SpecialClose cfg start stop s.label u := fun u hu => hno ⟨u, hu⟩
      have n' : ∀ u, ¬ SpecialClose cfg start' stop' s'.label u :=
        fun u hu => hno ⟨u, (hC u).2 (hl ▸ hu)⟩
      have a := f.closeStandard n
      have b := f'.closeStandard n'
      rw [← hl] at b
      refine ⟨standard_unique ho.closeTable a b, ?_⟩
      cases hbs : cfg.breakStartTimes with
      | none => rw [f.brkNone hbs, f'.brkNone hbs]
      | some bt =>
        obtain ⟨et, het⟩ := Option.isSome_iff_exists.mp ((f.brkBoth n).mp (by rw [hbs]; rfl))
        obtain ⟨p, q, h1, h2, h3⟩ := f.brkStandard n bt et hbs het
        obtain ⟨p', q', h1', h2', h3'⟩ := f'.brkStandard n' bt et hbs het
        rw [← hl] at h2' h3'
        rw [h1, h1', standard_unique (ho.breakStartTable _ hbs) h2 h2',
          standard_unique (ho.breakEndTable _ het) h3 h3']
  cases s
  cases s'
  simp only at hl e1 e2
  simp [hl, e1, e2.1, e2.2]

/-- The instants of a session are near its label. -/
theorem special_near (ho : Ordered cfg) (hz : Tame cfg.tz) (hup : ∀ o, OpenWall cfg o → o ≤ DAY)
    (hex : ∃ o, OpenWall cfg o) {l u : Int} :
    (SpecialOpen cfg start stop l u ∨ SpecialClose cfg start stop l u) →
      l - 2 * DAY ≤ u ∧ u ≤ l + 3 * DAY := by
  have := DAY_pos
  rintro (h | h)
  · obtain ⟨o, ho', hu⟩ := SpecialOpen.wall h
    have := only_near hz hu
    have := ho.openLow o ho'
    have := hup o ho'
    omega
  · obtain ⟨c, hc, hu⟩ := SpecialClose.wall h
    obtain ⟨o, ho'⟩ := hex
    have := only_near hz hu
    have := ho.openClose o c ho' hc
    have := ho.openLow o ho'
    have := hup o ho'
    omega

theorem row_near (ho : Ordered cfg) (hz : Tame cfg.tz) (hup : ∀ o, OpenWall cfg o → o ≤ DAY)
    {s : Session} (f : RowFacts cfg start stop s) :
    s.label - 2 * DAY ≤ s.open ∧ s.close ≤ s.label + 3 * DAY := by
  have := DAY_pos
  obtain ⟨o, ho', hu⟩ := f.openWall
  obtain ⟨c, hc, hv⟩ := f.closeWall
  have := only_near hz hu
  have := only_near hz hv
  have := ho.openLow o ho'
  have := hup o ho'
  have := ho.openClose o c ho' hc
  omega

theorem openWall_exists (ho : Ordered cfg) : ∃ o, OpenWall cfg o := by
  obtain ⟨t, rest, e, -⟩ := ho.openTable
  exact ⟨_, Or.inl ⟨(none, t), by rw [e]; simp, rfl⟩⟩

theorem special_iff (ho : Ordered cfg) (hz : Tame cfg.tz) (hone : OneSpecial cfg)
    (hup : ∀ o, OpenWall cfg o → o ≤ DAY) {l : Int} (h1 : start + 2 * DAY ≤ l) (h2 : l + 3 * DAY ≤ stop)
    (h1' : start' + 2 * DAY ≤ l) (h2' : l + 3 * DAY ≤ stop') :
    (∀ u, SpecialOpen cfg start stop l u ↔ SpecialOpen cfg start' stop' l u) ∧
    (∀ u, SpecialClose cfg start stop l u ↔ SpecialClose cfg start' stop' l u) := by
  have hp := DAY_pos
  have hex := openWall_exists ho
  refine ⟨fun u => ⟨fun h => ?_, fun h => ?_⟩, fun u => ⟨fun h => ?_, fun h => ?_⟩⟩
  · have := special_near ho hz hup hex (Or.inl h)
    exact applied_window hone.opens (by omega) (by omega) (by omega) (by omega) h
  · have := special_near ho hz hup hex (Or.inl h)
    exact applied_window hone.opens (by omega) (by omega) (by omega) (by omega) h
  · have := special_near ho hz hup hex (Or.inr h)
    exact applied_window hone.closes (by omega) (by omega) (by omega) (by omega) h
  · have := special_near ho hz hup hex (Or.inr h)
    exact applied_window hone.closes (by omega) (by omega) (by omega) (by omega) h

/-- A session well inside both ranges is in both calendars, with the same times. -/
theorem row_common {b b' : Built} (hb : build cfg start stop = .ok b)
    (hb' : build cfg start' stop' = .ok b') (ho : Ordered cfg) (hz : Tame cfg.tz)
    (hone : OneSpecial cfg) (hup : ∀ o, OpenWall cfg o → o ≤ DAY) (hm : DAY ∣ start)
    (hm' : DAY ∣ start') (hlow : NP_NAT + 3 * DAY ≤ start) (hlow' : NP_NAT + 3 * DAY ≤ start')
    {s : Session} (hs : s ∈ rowsOf b.cal) (h1 : start + 2 * DAY ≤ s.label)
    (h2 : s.label + 3 * DAY ≤ stop) (h1' : start' + 2 * DAY ≤ s.label)
    (h2' : s.label + 3 * DAY ≤ stop') : s ∈ rowsOf b'.cal := by
  have hp := DAY_pos
  have hwf := ho.wellFormed hz hm hlow
  have hwf' := ho.wellFormed hz hm' hlow'
  have hl : s.label ∈ b.cal.sessions := by
    rw [← (c34_rows hb hwf).2]
    exact List.mem_map_of_mem hs
  have hl' : s.label ∈ b'.cal.sessions := by
    rw [(c33_sessions hb' hm').2]
    rw [(c33_sessions hb hm).2] at hl
    exact ⟨by omega, by omega, hl.2.2⟩
  rw [← (c34_rows hb' hwf').2] at hl'
  obtain ⟨s', hs', e⟩ := List.mem_map.1 hl'
  obtain ⟨hO, hC⟩ := special_iff ho hz hone hup h1 h2 h1' h2'
  rw [rows_eq ho hone (row_facts hb hwf s hs) (row_facts hb' hwf' s' hs') e.symm hO hC]
  exact hs'

theorem rows_common {b b' : Built} (hb : build cfg start stop = .ok b)
    (hb' : build cfg start' stop' = .ok b') (ho : Ordered cfg) (hz : Tame cfg.tz)
    (hone : OneSpecial cfg) (hup : ∀ o, OpenWall cfg o → o ≤ DAY) (hm : DAY ∣ start)
    (hm' : DAY ∣ start') (hlow : NP_NAT + 3 * DAY ≤ start) (hlow' : NP_NAT + 3 * DAY ≤ start')
    (h1 : start + 5 * DAY ≤ lo) (h2 : hi + 5 * DAY ≤ stop) (h1' : start' + 5 * DAY ≤ lo)
    (h2' : hi + 5 * DAY ≤ stop') : Common (rowsOf b.cal) (rowsOf b'.cal) lo hi := by
  have hp := DAY_pos
  intro s hhi hlo
  constructor
  · intro hs
    have := row_near ho hz hup (row_facts hb (ho.wellFormed hz hm hlow) s hs)
    exact row_common hb hb' ho hz hone hup hm hm' hlow hlow' hs (by omega) (by omega) (by omega) (by omega)
  · intro hs
    have := row_near ho hz hup (row_facts hb' (ho.wellFormed hz hm' hlow') s hs)
    exact row_common hb' hb ho hz hone hup hm' hm hlow' hlow hs (by omega) (by omega) (by omega) (by omega)

theorem agree_of {b b' : Built} (hb : build cfg start stop = .ok b)
    (hb' : build cfg start' stop' = .ok b') (ho : Ordered cfg) (hz : Tame cfg.tz)
    (hwz : WholeMinuteZone cfg.tz) (hwt : WholeMinuteTimes cfg)
    (hone : OneSpecial cfg) (hup : ∀ o, OpenWall cfg o → o ≤ DAY) (hm : DAY ∣ start)
    (hm' : DAY ∣ start') (hlow : NP_NAT + 3 * DAY ≤ start) (hlow' : NP_NAT + 3 * DAY ≤ start')
    (h1 : start + 5 * DAY ≤ lo) (h2 : hi + 5 * DAY ≤ stop) (h1' : start' + 5 * DAY ≤ lo)
    (h2' : hi + 5 * DAY ≤ stop') : Agree b b' lo hi := by
  have hp := DAY_pos
  have hC := rows_common hb hb' ho hz hone hup hm hm' hlow hlow' h1 h2 h1' h2'
  obtain ⟨e, -, -, -, hr⟩ := c38_regular hb ho hz hm hlow
  obtain ⟨e', -, -, -, hr'⟩ := c38_regular hb' ho hz hm' hlow'
  have hw := c38_whole_minutes hb ho hz hm hlow hwz hwt
  have hw' := c38_whole_minutes hb' ho hz hm' hlow' hwz hwt
  constructor
  · rw [e, e']
    exact sameAnswers_of hC hr hr' hw hw'
  · intro l hl1 hl2
    have hs : l ∈ b.cal.sessions ↔ l ∈ b'.cal.sessions := by
      rw [(c33_sessions hb hm).2, (c33_sessions hb' hm').2]
      exact ⟨fun h => ⟨by omega, by omega, h.2.2⟩, fun h => ⟨by omega, by omega, h.2.2⟩⟩
    obtain ⟨hO, hC⟩ := special_iff ho hz hone hup (l := l) (start := start) (start' := start')
      (stop := stop) (stop' := stop') (by omega) (by omega) (by omega) (by omega)
    obtain ⟨-, -, a1, a2⟩ := c41_lists hb ho hz hm hlow
    obtain ⟨-, -, b1, b2⟩ := c41_lists hb' ho hz hm' hlow'
    rw [a1, a2, b1, b2, hs]
    exact ⟨and_congr_right fun _ => exists_congr hC, and_congr_right fun _ => exists_congr hO⟩

theorem agree_refl (b : Built) (lo hi : Int) : Agree b b lo hi := by
  refine ⟨?_, fun _ _ _ => ⟨Iff.rfl, Iff.rfl⟩⟩
  constructor <;> intros
  all_goals first
    | rfl
    | (rename_i h h'; rw [h] at h'; cases h'; rfl)

/-! ### Exchanges -/

/-- The decidable check behind `Steady`, apart from the special times. -/
def steadySpecialsB (cfg : Config) : Bool :=
  decide (MINUTE ∣ cfg.tz.base) && (cfg.tz.trans.all fun e => decide (MINUTE ∣ e.2)) &&
  wholeMinuteTimesB cfg && (openWalls cfg).all fun o => decide (o ≤ DAY)

theorem steady_of {cfg : Config} (ho : Ordered cfg) (hz : Tame cfg.tz) (hone : OneSpecial cfg)
    (h : steadySpecialsB cfg = true) : Steady cfg := by
  unfold steadySpecialsB at h
  simp only [Bool.and_eq_true, List.all_eq_true, decide_eq_true_eq] at h
  exact ⟨ho, hz, ⟨h.1.1.1, h.1.1.2⟩, wholeMinuteTimes_of h.1.2, hone,
    fun o ho => h.2 o ((openWall_iff _ _).1 ho)⟩

theorem oneSpecial_none {cfg : Config} (h1 : cfg.specialOpens = []) (h2 : cfg.specialOpensAdhoc = [])
    (h3 : cfg.specialCloses = []) (h4 : cfg.specialClosesAdhoc = []) : OneSpecial cfg := by
  constructor
  · simp [h1]
  · simp [h3]
  · simp [SpecialTime, h1, h2]
  · simp [SpecialTime, h3, h4]

theorem oneSpecial_exchange {x : Exchange} (hs : GoodRules (x.specialRules.map (·.2)))
    (hu : x.uniqueB = true) (z : Tz) : OneSpecial (x.config z) := by
  constructor
  · simp [Exchange.config]
  · intro e he
    simp only [Exchange.config, List.mem_map] at he
    obtain ⟨⟨t, rules⟩, hm, rfl⟩ := he
    obtain ⟨hg, hn⟩ := specialRule_mem hs hm
    refine ⟨fun l => ∃ r ∈ rules, ∃ d, l = d * DAY ∧ IsHoliday r d, fun s e l => ?_⟩
    rw [mem_holidayCalendar hg hn]
    constructor
    · rintro ⟨h1, h2, r, hr, d, rfl, hd⟩; exact ⟨⟨r, hr, d, rfl, hd⟩, h1, h2⟩
    · rintro ⟨⟨r, hr, d, rfl, hd⟩, h1, h2⟩; exact ⟨h1, h2, r, hr, d, rfl, hd⟩
  · simp [SpecialTime, Exchange.config]
  · intro s e l t t' h h'
    rw [specialTime_exchange hs] at h h'
    have key : ∀ {t}, (∃ d, l = d * DAY ∧ ((s ≤ l ∧ l ≤ e ∧ ∃ r, (t, r) ∈ x.specialRules ∧ IsHoliday r d) ∨
        (t, d) ∈ x.specialDays)) → ClosesEarly x (l / DAY) t := by
      rintro t ⟨d, rfl, h⟩
      rw [day_ediv, closesEarly_iff]
      exact h.imp (fun h => h.2.2) id
    exact special_unique hs hu (key h) (key h')

theorem steady_exchange {x : Exchange} {bad : List Int} {z : Tz} (h : x.check bad = true) (hz : Tame z)
    (hm : steadySpecialsB (x.config z) = true) : Steady (x.config z) := by
  unfold Exchange.check at h
  simp only [Bool.and_eq_true] at h
  obtain ⟨⟨⟨⟨⟨ht, -⟩, hs⟩, -⟩, hu⟩, -⟩ := h
  exact steady_of (timesB_ordered ht z) hz (oneSpecial_exchange (rules_of hs) hu z) hm

end TC
