import Verif.Lemmas.Calendar

namespace TC
open Spec

theorem MINUTE_pos : 0 < MINUTE := by decide

/-- The minutes `compute_all_minutes` generates for one session. -/
def sessMin (s : Session) : List Int :=
  match s.brk with
  | none => arange s.open (s.close + MINUTE) MINUTE
  | some (b, e) => arange s.open (b + MINUTE) MINUTE ++ arange e (s.close + MINUTE) MINUTE

theorem minutes_ofSessions {ss : List Session} (h : ∀ s ∈ ss, s.Ok) :
    (Cal.ofSessions ss).minutes = ss.flatMap sessMin := by
  unfold Cal.minutes Cal.ofSessions
  induction ss with
  | nil => simp [minutePieces]
  | cons s ss ih =>
    have hs := h s (by simp)
    have ih' := ih (fun x hx => h x (List.mem_cons_of_mem _ hx))
    simp only [List.map_cons, minutePieces, List.flatMap_cons]
    rw [List.flatten_append]
    rw [ih']
    congr 1
    unfold sessMin
    cases hb : s.brk with
    | none => simp
    | some p =>
      obtain ⟨b, e⟩ := p
      have := (hs.2.2 b e hb).1
      have := hs.1
      simp only
      rw [if_pos (by omega)]
      simp

/-- Division facts: between whole minutes `x < y + MINUTE` and `x ≤ y` coincide. -/
theorem lt_add_minute_iff {o t y : Int} (h1 : MINUTE ∣ (t - o)) (h2 : MINUTE ∣ (y - o)) :
    t < y + MINUTE ↔ t ≤ y := by
  have h3 : MINUTE ∣ (t - y) := by
    have := Int.dvd_sub h1 h2
    have he : t - o - (y - o) = t - y := by omega
    rwa [he] at this
  constructor
  · intro h
    rcases Int.lt_or_le y t with hlt | hge
    · have := Int.le_of_dvd (by omega) h3
      omega
    · exact hge
  · intro h; have := MINUTE_pos; omega

theorem dvd_sub_of_whole {a b : Int} (ha : MINUTE ∣ a) (hb : MINUTE ∣ b) : MINUTE ∣ (a - b) :=
  Int.dvd_sub ha hb

theorem mem_sessMin {s : Session} (hw : s.WholeMinutes) (t : Int) :
    t ∈ sessMin s ↔ s.IsMinute t := by
  obtain ⟨ho, hc, hb⟩ := hw
  unfold sessMin Session.IsMinute
  cases hbr : s.brk with
  | none =>
    simp only [mem_arange MINUTE_pos]
    constructor
    · rintro ⟨h1, h2, h3⟩
      exact ⟨h3, h1, (lt_add_minute_iff h3 (dvd_sub_of_whole hc ho)).mp h2⟩
    · rintro ⟨h3, h1, h2⟩
      exact ⟨h1, (lt_add_minute_iff h3 (dvd_sub_of_whole hc ho)).mpr h2, h3⟩
  | some p =>
    obtain ⟨b, e⟩ := p
    obtain ⟨hb1, he1⟩ := hb b e hbr
    have heo : MINUTE ∣ (e - s.open) := dvd_sub_of_whole he1 ho
    simp only [List.mem_append, mem_arange MINUTE_pos]
    constructor
    · rintro (⟨h1, h2, h3⟩ | ⟨h1, h2, h3⟩)
      · exact ⟨h3, .inl ⟨h1, (lt_add_minute_iff h3 (dvd_sub_of_whole hb1 ho)).mp h2⟩⟩
      · have h4 : MINUTE ∣ (t - s.open) := by
          have := Int.dvd_add h3 heo
          have heq : t - e + (e - s.open) = t - s.open := by omega
          rwa [heq] at this
        exact ⟨h4, .inr ⟨h1, (lt_add_minute_iff h3 (dvd_sub_of_whole hc he1)).mp h2⟩⟩
    · rintro ⟨h3, (⟨h1, h2⟩ | ⟨h1, h2⟩)⟩
      · exact .inl ⟨h1, (lt_add_minute_iff h3 (dvd_sub_of_whole hb1 ho)).mpr h2, h3⟩
      · have h4 : MINUTE ∣ (t - e) := by
          have := Int.dvd_sub h3 heo
          have heq : t - s.open - (e - s.open) = t - e := by omega
          rwa [heq] at this
        exact .inr ⟨h1, (lt_add_minute_iff h4 (dvd_sub_of_whole hc he1)).mpr h2, h4⟩

theorem isMinute_spans {s : Session} (hok : s.Ok) {t : Int} (h : s.IsMinute t) : s.Spans t := by
  obtain ⟨_, h⟩ := h
  cases hb : s.brk with
  | none => rw [hb] at h; exact h
  | some p =>
    obtain ⟨b, e⟩ := p
    rw [hb] at h
    simp only at h
    have := hok.2.2 b e hb
    rcases h with h | h
    · exact ⟨h.1, by omega⟩
    · exact ⟨by omega, h.2⟩

theorem sessMin_sorted {s : Session} (hok : s.Ok) (hw : s.WholeMinutes) : SortedLT (sessMin s) := by
  unfold sessMin
  cases hb : s.brk with
  | none => exact arange_sorted MINUTE_pos
  | some p =>
    obtain ⟨b, e⟩ := p
    simp only
    rw [SortedLT, List.pairwise_append]
    refine ⟨arange_sorted MINUTE_pos, arange_sorted MINUTE_pos, ?_⟩
    intro x hx y hy
    rw [mem_arange MINUTE_pos] at hx hy
    have := hok.2.2 b e hb
    have hwb := hw.2.2 b e hb
    have := (lt_add_minute_iff hx.2.2 (dvd_sub_of_whole hwb.1 hw.1)).mp hx.2.1
    omega

theorem mem_minutes {ss : List Session} (hok : ∀ s ∈ ss, s.Ok) (hw : ∀ s ∈ ss, s.WholeMinutes)
    (t : Int) : t ∈ (Cal.ofSessions ss).minutes ↔ ∃ s ∈ ss, s.IsMinute t := by
  rw [minutes_ofSessions hok, List.mem_flatMap]
  constructor
  · rintro ⟨s, hs, ht⟩; exact ⟨s, hs, (mem_sessMin (hw s hs) t).mp ht⟩
  · rintro ⟨s, hs, ht⟩; exact ⟨s, hs, (mem_sessMin (hw s hs) t).mpr ht⟩

theorem minutes_sorted {ss : List Session} (h : Regular ss) (hw : ∀ s ∈ ss, s.WholeMinutes) :
    SortedLT (Cal.ofSessions ss).minutes := by
  rw [minutes_ofSessions h.ok]
  induction ss with
  | nil => simp
  | cons s ss ih =>
    rw [List.flatMap_cons, SortedLT, List.pairwise_append]
    refine ⟨sessMin_sorted (h.ok s (by simp)) (hw s (by simp)),
      ih h.tail (fun x hx => hw x (List.mem_cons_of_mem _ hx)), ?_⟩
    intro x hx y hy
    obtain ⟨s', hs', hy⟩ := List.mem_flatMap.mp hy
    have h1 := isMinute_spans (h.ok s (by simp)) ((mem_sessMin (hw s (by simp)) x).mp hx)
    have h2 := isMinute_spans (h.ok s' (List.mem_cons_of_mem _ hs'))
      ((mem_sessMin (hw s' (List.mem_cons_of_mem _ hs')) y).mp hy)
    have h3 := (List.pairwise_cons.mp h.times).1 s' hs'
    have := h1.2; have := h2.1
    omega

theorem open_isMinute {s : Session} (hok : s.Ok) : s.IsMinute s.open := by
  refine ⟨by simp, ?_⟩
  cases hb : s.brk with
  | none => exact ⟨Int.le_refl _, hok.2.1⟩
  | some p =>
    obtain ⟨b, e⟩ := p
    have := hok.2.2 b e hb
    exact .inl ⟨Int.le_refl _, by omega⟩

theorem close_isMinute {s : Session} (hok : s.Ok) (hw : s.WholeMinutes) : s.IsMinute s.close := by
  refine ⟨dvd_sub_of_whole hw.2.1 hw.1, ?_⟩
  cases hb : s.brk with
  | none => exact ⟨hok.2.1, Int.le_refl _⟩
  | some p =>
    obtain ⟨b, e⟩ := p
    have := hok.2.2 b e hb
    exact .inr ⟨by omega, Int.le_refl _⟩

end TC
