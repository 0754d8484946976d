import Verif.Lemmas.EarlyYear
import Verif.Props.Gaps
import Verif.Props.SessionLength

/-! # The early closes of a year in a calendar -/

namespace TC.Props
open Spec

/-- A calendar of an exchange lists an early close, not at the ends of its range, exactly on the days that have one. -/
theorem listed_early {x : Exchange} {z : Tz} {first first' : Int} {bad : List Int} {start stop : Int} {b : Built}
    (hx : x.check bad = true) (hcl : ClearFrom z first') (hff : first' ≤ first)
    (hcf : ConstructibleFrom x z first bad) (h1 : first * DAY ≤ start) (hmid : DAY ∣ start)
    (hbad : ∀ d ∈ bad, d * DAY < start ∨ stop < d * DAY) (hb : build (x.config z) start stop = .ok b) {d : Int}
    (ha : start + DAY ≤ d * DAY) (hc : (d + 2) * DAY ≤ stop) : d * DAY ∈ b.earlyCloses ↔ HasEarlyClose x d := by
  have hB := hcf start stop h1 hmid
  have hsome : ∃ d, start ≤ d * DAY ∧ d * DAY ≤ stop ∧ TradesOn x d := by
    apply Classical.byContradiction
    intro hno
    obtain ⟨why, hw⟩ := hB.empty fun d g1 g2 g3 => hno ⟨d, g1, g2, g3⟩
    rw [hb] at hw
    cases hw
  obtain ⟨b', hb', ss, -, -, -, -, -, -, hE⟩ := hB.succeeds hbad hsome
  rw [hb] at hb'
  cases hb'
  rw [hE]
  unfold Exchange.check at hx
  simp only [Bool.and_eq_true] at hx
  have ht := hx.1.1.1.1.1
  unfold Exchange.timesB at ht
  simp only [Bool.and_eq_true, List.all_eq_true] at ht
  obtain ⟨⟨-, hsc⟩, hsa⟩ := ht
  constructor
  · rintro ⟨u, d', t, hd, -, -, he, -⟩
    have : d = d' := by simp only [DAY] at hd; omega
    exact ⟨t, this ▸ he⟩
  · rintro ⟨t, he⟩
    have hday : hm 8 0 ≤ t ∧ t ≤ hm 21 0 := by
      rcases he with ⟨rules, hr, -⟩ | ⟨days, hr, -⟩
      · exact daytime_of (hsc _ hr)
      · exact daytime_of (hsa _ hr)
    obtain ⟨u, hu⟩ := hcl.clear d (by simp only [DAY] at *; omega) t hday.1 hday.2
    have hn := only_near hcl.tame hu
    have e8 : hm 8 0 = 28800000000000 := by decide
    have e21 : hm 21 0 = 75600000000000 := by decide
    refine ⟨u, d, t, rfl, ?_, ?_, he, hu, ?_, ?_⟩ <;> simp only [DAY] at * <;> omega

/-- The number of early closes among the sessions of a year. -/
theorem early_year {x : Exchange} {z : Tz} {first first' : Int} {bad : List Int} {start stop : Int} {b : Built}
    (hst : Steady (x.config z)) (hx : x.check bad = true) (hcl : ClearFrom z first') (hff : first' ≤ first)
    (hcf : ConstructibleFrom x z first bad) (hlow : NP_NAT + 3 * DAY ≤ start) (h1 : first * DAY ≤ start)
    (hmid : DAY ∣ start) (hbad : ∀ d ∈ bad, d * DAY < start ∨ stop < d * DAY)
    (hb : build (x.config z) start stop = .ok b) {y d₀ d₁ : Int} (hd₀ : DayNumber ⟨y, 1, 1⟩ d₀)
    (hd₁ : DayNumber ⟨y, 12, 31⟩ d₁) (ha : start + DAY ≤ d₀ * DAY) (hc : (d₁ + 2) * DAY ≤ stop) {n : Nat}
    (hn : TradingDays (HasEarlyClose x) y n) :
    ((b.cal.sessionsInRange (d₀ * DAY) (d₁ * DAY)).filter fun l => l ∈ b.earlyCloses).length = n := by
  obtain ⟨hof, hreg, hwm⟩ := gap_regular hst hb hmid hlow
  obtain ⟨l, hs, hl, rfl⟩ := hn
  have e0 : d₀ = jan1 y := (dayNumber_jan1 _ _).1 hd₀
  have e1 : d₁ = jan1 (y + 1) - 1 := (dayNumber_dec31 _ _).1 hd₁
  have hlist := fun (d : Int) ha hc => listed_early hx hcl hff hcf h1 hmid hbad hb (d := d) ha hc
  have hsub := fun l => ((c41_lists hb hst.ordered hst.tame hmid hlow).2.2.2 l).1
  have hdays : ∀ l ∈ b.cal.sessions, ∃ d, l = d * DAY := by
    intro l hl
    obtain ⟨d, hd, -⟩ := (gap_labels (trades := TradingDay (x.config z)) hb hmid (fun _ => Iff.rfl) l).1 hl
    exact ⟨d, hd⟩
  suffices hlen : (b.cal.sessionsInRange (d₀ * DAY) (d₁ * DAY)).filter (fun l => l ∈ b.earlyCloses) = l.map (· * DAY) by
    rw [hlen, List.length_map]
  have hmem : ∀ u, u ∈ b.cal.sessionsInRange (d₀ * DAY) (d₁ * DAY) ↔
      u ∈ b.cal.sessions ∧ d₀ * DAY ≤ u ∧ u ≤ d₁ * DAY := by
    intro u
    rw [hof, (c26_sessions_in_range hreg _ _).1, List.mem_filter, decide_eq_true_eq]
  have hss : SortedLT (b.cal.sessionsInRange (d₀ * DAY) (d₁ * DAY)) := by
    rw [hof, (c26_sessions_in_range hreg _ _).1]
    exact hreg.labels_sorted.filter _
  refine sorted_ext (hss.filter _) ?_ fun u => ?_
  · rw [SortedLT, List.pairwise_map]
    exact hs.imp (fun {a b} h => by simp only [DAY]; omega)
  · rw [List.mem_filter, hmem, List.mem_map, decide_eq_true_eq]
    simp only [hl, inYear_jan1]
    constructor
    · rintro ⟨⟨g1, g2, g3⟩, g4⟩
      obtain ⟨d, rfl⟩ := hdays u g1
      exact ⟨d, ⟨by simp only [DAY] at *; omega,
        (hlist d (by simp only [DAY] at *; omega) (by simp only [DAY] at *; omega)).1 g4⟩, rfl⟩
    · rintro ⟨d, ⟨g1, g2⟩, rfl⟩
      have g4 := (hlist d (by simp only [DAY] at *; omega) (by simp only [DAY] at *; omega)).2 g2
      exact ⟨⟨(hsub _ g4).1, by simp only [DAY]; omega, by simp only [DAY]; omega⟩, g4⟩

/-- A calendar without special closes lists no early close. -/
theorem no_early {cfg : Config} {start stop : Int} {b : Built} (hst : Steady cfg) (hb : build cfg start stop = .ok b)
    (hmid : DAY ∣ start) (hlow : NP_NAT + 3 * DAY ≤ start) (h1 : cfg.specialCloses = []) (h2 : cfg.specialClosesAdhoc = []) :
    b.earlyCloses = [] := by
  apply List.eq_nil_iff_forall_not_mem.2
  intro l hl
  obtain ⟨-, u, t, hu, -⟩ := ((c41_lists hb hst.ordered hst.tame hmid hlow).2.2.2 _).1 hl
  rw [h1, h2] at hu
  rcases hu with ⟨cal, hm, _⟩ | ⟨ds, hm, _⟩
  · exact absurd hm List.not_mem_nil
  · exact absurd hm List.not_mem_nil

end TC.Props
