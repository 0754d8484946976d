import Verif.Spec.Together
import Verif.Lemmas.ByClock
import Verif.Lemmas.Clocks
import Verif.Props.Gaps
import Verif.Props.Queries

/-! # Lemmas for markets that are open at the same time -/

namespace TC
open Spec Spec.Books Spec.Hours Props

/-! ## Clocks -/

/-- The same law, `δ` further ahead. -/
def shiftYears (δ : Int) (p : ClockYears) : ClockYears := { p with std := p.std + δ }

theorem ahead_shift {ps : List ClockYears} {δ d k : Int} (h : Ahead ps d k) :
    Ahead (ps.map (shiftYears δ)) d (k + δ) := by
  obtain ⟨p, hp, y, m, n, h1, h2, h3, h4⟩ := h
  refine ⟨shiftYears δ p, List.mem_map_of_mem hp, y, m, n, h1, h2, h3, ?_⟩
  rcases h4 with ⟨h5, rfl⟩ | ⟨r, h5, ⟨h6, rfl⟩ | ⟨h6, rfl⟩⟩
  · exact .inl ⟨h5, rfl⟩
  · exact .inr ⟨r, h5, .inl ⟨h6, by simp only [shiftYears]; omega⟩⟩
  · exact .inr ⟨r, h5, .inr ⟨h6, rfl⟩⟩

theorem yearOf_dayNumber (d : Int) : ∃ m n, DayNumber ⟨yearOf d, m, n⟩ d :=
  ⟨_, _, (dayNumber_iff (toDate d) d).2 ⟨toDate_valid d, dayOf_toDate d⟩⟩

/-- Within the years of a law the clock is standard time or an hour ahead of it. -/
theorem years_ahead (p : ClockYears) {d : Int} (h1 : p.first ≤ yearOf d) (h2 : ∀ l, p.last = some l → yearOf d ≤ l) :
    ∃ k, p.Ahead d k ∧ p.std ≤ k ∧ k ≤ p.std + hm 1 0 := by
  obtain ⟨m, n, h⟩ := yearOf_dayNumber d
  cases hr : p.rule with
  | none => exact ⟨p.std, ⟨_, m, n, h, h1, h2, .inl ⟨hr, rfl⟩⟩, by simp only [hm]; omega⟩
  | some r =>
    rcases Classical.em (r.Summer (yearOf d) d) with hs | hs
    · exact ⟨p.std + hm 1 0, ⟨_, m, n, h, h1, h2, .inr ⟨r, hr, .inl ⟨hs, rfl⟩⟩⟩, by simp only [hm]; omega⟩
    · exact ⟨p.std, ⟨_, m, n, h, h1, h2, .inr ⟨r, hr, .inr ⟨hs, rfl⟩⟩⟩, by simp only [hm]; omega⟩

theorem europe_ahead {std f d : Int} (h : jan1 f ≤ d) :
    ∃ k, Ahead (Clocks.europe std f) d k ∧ std ≤ k ∧ k ≤ std + hm 1 0 := by
  have hy : f ≤ yearOf d := by
    have := yearOf_mono h
    rwa [(yearOf_eq_iff _ f).2 ⟨Int.le_refl _, by have := jan1_succ f; split at this <;> omega⟩] at this
  rcases Int.lt_or_le 2037 (yearOf d) with h2 | h2
  · obtain ⟨k, h3, h4⟩ := years_ahead { first := 2038, std } (d := d) h2 (fun l h => by cases h)
    exact ⟨k, ⟨_, by simp [Clocks.europe], h3⟩, h4⟩
  · obtain ⟨k, h3, h4⟩ := years_ahead { first := f, last := some 2037, std, rule := some Clocks.lastSundays } (d := d) hy
      (fun l h => by cases h; exact h2)
    exact ⟨k, ⟨_, by simp [Clocks.europe], h3⟩, h4⟩

theorem northAmerica_ahead {std d : Int} (h : jan1 1976 ≤ d) :
    ∃ k, Ahead (Clocks.northAmerica std) d k ∧ std ≤ k ∧ k ≤ std + hm 1 0 := by
  have hy : 1976 ≤ yearOf d := by
    have := yearOf_mono h
    rwa [(yearOf_eq_iff _ 1976).2 ⟨Int.le_refl _, by have := jan1_succ 1976; split at this <;> omega⟩] at this
  have key : ∃ p ∈ Clocks.northAmerica std, p.std = std ∧ p.first ≤ yearOf d ∧ ∀ l, p.last = some l → yearOf d ≤ l := by
    unfold Clocks.northAmerica
    rcases Int.lt_or_le 2037 (yearOf d) with h1 | h1
    · exact ⟨_, .tail _ (.tail _ (.tail _ (.head _))), rfl, h1, fun l h => by cases h⟩
    rcases Int.lt_or_le 2006 (yearOf d) with h2 | h2
    · exact ⟨_, .tail _ (.tail _ (.head _)), rfl, h2, fun l h => by cases h; exact h1⟩
    rcases Int.lt_or_le 1986 (yearOf d) with h3 | h3
    · exact ⟨_, .tail _ (.head _), rfl, h3, fun l h => by cases h; exact h2⟩
    exact ⟨_, .head _, rfl, hy, fun l h => by cases h; exact h3⟩
  obtain ⟨p, hp, hstd, h1, h2⟩ := key
  obtain ⟨k, h3, h4⟩ := years_ahead p h1 h2
  exact ⟨k, ⟨p, hp, h3⟩, by rw [hstd] at h4; exact h4⟩

/-! ## Sessions of one day -/

theorem day_within {o₁ c₁ o₂ c₂ : Int} {E₁ E₂ a₁ a₂ : Int → Int → Prop} {start stop d : Int} {s₁ s₂ : Session}
    (f₁ : KeepsUtcDay (Hours.daily o₁ c₁ E₁) a₁ start stop d s₁)
    (f₂ : KeepsUtcDay (Hours.daily o₂ c₂ E₂) a₂ start stop d s₂) (hd : start ≤ d * DAY)
    {i₁ i₂ k₁ k₂ : Int} (hi₁ : a₁ (d + o₁ / DAY) i₁) (hi₂ : a₂ (d + o₂ / DAY) i₂) (hk₁ : a₁ d k₁) (hk₂ : a₂ d k₂)
    (ho : o₂ - i₂ ≤ o₁ - i₁) (hc : c₁ - k₁ ≤ c₂ - k₂)
    (he₁ : ∀ t, E₁ d t → t ≤ c₁)
    (he₂ : ∀ t, E₂ d t → c₁ - k₁ ≤ t - k₂ ∨ ∃ t', E₁ d t' ∧ t' - k₁ ≤ t - k₂ ∧ 0 ≤ t' - k₁) :
    s₂.open ≤ s₁.open ∧ s₁.close ≤ s₂.close := by
  constructor
  · obtain ⟨t, rfl, h1⟩ := f₁.opens
    obtain ⟨t, rfl, h2⟩ := f₂.opens
    rw [h1 _ hi₁, h2 _ hi₂]
    omega
  have hup : s₁.close ≤ d * DAY + c₁ - k₁ := by
    rcases Classical.em (∃ t, E₁ d t ∧ start ≤ d * DAY + t - k₁ ∧ d * DAY + t - k₁ ≤ stop) with ⟨t, ht, h1, h2⟩ | hn
    · have := he₁ t ht
      rw [(f₁.early t k₁ ht hk₁ h1 h2).1]
      omega
    · obtain ⟨⟨t, rfl, h1⟩, -⟩ := f₁.closes k₁ hk₁ fun t ht h => hn ⟨t, ht, h⟩
      omega
  rcases Classical.em (∃ t, E₂ d t ∧ start ≤ d * DAY + t - k₂ ∧ d * DAY + t - k₂ ≤ stop) with ⟨t, ht, h1, h2⟩ | hn
  · rw [(f₂.early t k₂ ht hk₂ h1 h2).1]
    rcases he₂ t ht with h | ⟨t', ht', h3, h4⟩
    · omega
    · rw [(f₁.early t' k₁ ht' hk₁ (by omega) (by omega)).1]
      omega
  · obtain ⟨⟨t, rfl, h1⟩, -⟩ := f₂.closes k₂ hk₂ fun t ht h => hn ⟨t, ht, h⟩
    omega

/-! ## Calendars -/

variable {start stop : Int} {b₁ b₂ : Built}

theorem rows_of_utc {x : Exchange} {z : Tz} {first : Int} {bad : List Int} {T : Timetable} {a : Int → Int → Prop}
    (hk : KeepsUtc x z first bad T a) (hst : Steady (x.config z)) (hT : T.breaks = none)
    (hb : build (x.config z) start stop = .ok b₁) (hm : DAY ∣ start) (hf : first * DAY ≤ start)
    (hlow : NP_NAT + 3 * DAY ≤ start) (hbad : ∀ d ∈ bad, d * DAY < start ∨ stop < d * DAY) :
    ∃ ss, b₁.cal = Cal.ofSessions ss ∧ Regular ss ∧ ∀ s ∈ ss, s.brk = none ∧ ∃ d, KeepsUtcDay T a start stop d s := by
  obtain ⟨ss, h1, h2⟩ := hk start stop b₁ hf hm hbad hb
  obtain ⟨h3, h4, -⟩ := gap_regular hst hb hm hlow
  have : rowsOf b₁.cal = ss := by
    refine ofSessions_inj _ _ ?_ ?_ (h3.symm.trans h1)
    · intro s hs p q hpq
      have h5 := h4.ok s hs
      have h6 := h5.2.2 p q hpq
      have h7 := h5.1
      omega
    · intro s hs p q hpq
      obtain ⟨d, hd⟩ := h2 s hs
      rw [hd.noBreak hT] at hpq
      cases hpq
  refine ⟨ss, h1, this ▸ h4, fun s hs => ?_⟩
  obtain ⟨d, hd⟩ := h2 s hs
  exact ⟨hd.noBreak hT, d, hd⟩

theorem open_within {T₁ T₂ : Timetable} {a₁ a₂ : Int → Int → Prop} {c₁ c₂ : Cal} {ss₁ ss₂ : List Session}
    (e₁ : c₁ = Cal.ofSessions ss₁) (r₁ : Regular ss₁)
    (f₁ : ∀ s ∈ ss₁, s.brk = none ∧ ∃ d, KeepsUtcDay T₁ a₁ start stop d s)
    (e₂ : c₂ = Cal.ofSessions ss₂) (r₂ : Regular ss₂)
    (f₂ : ∀ s ∈ ss₂, s.brk = none ∧ ∃ d, KeepsUtcDay T₂ a₂ start stop d s)
    (hl : ∀ l ∈ c₁.sessions, l ∈ c₂.sessions)
    (hd : ∀ d s₁ s₂, d * DAY ∈ c₁.sessions → KeepsUtcDay T₁ a₁ start stop d s₁ →
      KeepsUtcDay T₂ a₂ start stop d s₂ → s₂.open ≤ s₁.open ∧ s₁.close ≤ s₂.close) : OpenWithin c₁ c₂ := by
  intro t
  rw [e₁, e₂]
  obtain ⟨⟨x₁, hx₁, hi₁⟩, -⟩ := c16_is_open_on_minute r₁ t
  obtain ⟨⟨x₂, hx₂, hi₂⟩, -⟩ := c16_is_open_on_minute r₂ t
  rw [hx₁, hx₂]
  intro h
  cases h
  obtain ⟨s₁, hs₁, hsp, -⟩ := hi₁.1 rfl
  have hm1 : s₁.label ∈ c₁.sessions := by rw [e₁]; exact List.mem_map_of_mem (f := (·.label)) hs₁
  have hm2 := hl _ hm1
  rw [e₂] at hm2
  obtain ⟨s₂, hs₂, hlab⟩ := List.mem_map.1 hm2
  obtain ⟨-, d₁, g₁⟩ := f₁ s₁ hs₁
  obtain ⟨hb2, d₂, g₂⟩ := f₂ s₂ hs₂
  have : d₂ = d₁ := by
    have h1 := g₁.label
    have h2 := g₂.label
    simp only [DAY] at h1 h2
    omega
  subst this
  have := hd _ s₁ s₂ (g₁.label ▸ hm1) g₁ g₂
  refine congrArg _ (hi₂.2 ⟨s₂, hs₂, ⟨by have := hsp.1; omega, by have := hsp.2; omega⟩, ?_⟩)
  rintro ⟨p, q, hpq, -⟩
  rw [hb2] at hpq
  cases hpq

theorem rows_same : ∀ (ss ss' : List Session), ss.map (·.label) = ss'.map (·.label) →
    (∀ s ∈ ss, ∀ s' ∈ ss', s.label = s'.label → s = s') → ss = ss'
  | [], [], _, _ => rfl
  | [], _ :: _, h, _ => by simp at h
  | _ :: _, [], h, _ => by simp at h
  | s :: ss, s' :: ss', h, hs => by
    simp only [List.map_cons, List.cons.injEq] at h
    rw [hs s (by simp) s' (by simp) h.1,
      rows_same ss ss' h.2 fun u hu u' hu' => hs u (by simp [hu]) u' (by simp [hu'])]

end TC
