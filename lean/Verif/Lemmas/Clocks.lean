import Verif.Spec.Clocks
import Verif.Lemmas.Hours
import Verif.Lemmas.ZonesClear

/-!
# A decidable check that a zone's table obeys clock laws
-/

namespace TC
open Spec

/-- No offset but `o` from instant `u` to instant `v`. -/
def steadyB (z : Tz) (u v o : Int) : Bool :=
  offsetFrom z.base z.trans u == o && z.trans.all fun e => decide (e.1 ≤ u) || decide (v < e.1) || e.2 == o

theorem steady_from : ∀ (l : List (Int × Int)) (p u v o w : Int),
    l.Pairwise (fun e e' => e.1 + 2 * DAY ≤ e'.1) → offsetFrom p l u = o →
    (∀ e ∈ l, e.1 ≤ u ∨ v < e.1 ∨ e.2 = o) → u ≤ w → w ≤ v → offsetFrom p l w = o
  | [], _, _, _, _, _, _, h, _, _, _ => h
  | e :: rest, p, u, v, o, w, hp, h, hall, h1, h2 => by
    have hD := DAY_pos
    rw [List.pairwise_cons] at hp
    have hrest : ∀ e ∈ rest, e.1 ≤ u ∨ v < e.1 ∨ e.2 = o := fun e' he' => hall e' (by simp [he'])
    unfold offsetFrom at h ⊢
    by_cases hu : u < e.1
    · rw [if_pos hu] at h
      by_cases hw : w < e.1
      · rw [if_pos hw]; exact h
      · rw [if_neg hw]
        have he : e.2 = o := by
          rcases hall e (by simp) with h' | h' | h'
          · omega
          · omega
          · exact h'
        refine steady_from rest e.2 u v o w hp.2 ?_ hrest h1 h2
        rw [offsetFrom_early rest e.2 u fun e' he' => by have := hp.1 e' he'; omega]
        exact he
    · rw [if_neg hu] at h
      rw [if_neg (by omega)]
      exact steady_from rest e.2 u v o w hp.2 h hrest h1 h2

theorem steadyB_reads {z : Tz} (hz : Tame z) {u v o : Int} (h : steadyB z u v o = true) {w : Int}
    (h1 : u ≤ w) (h2 : w ≤ v) : Reads z w (w + o) := by
  unfold steadyB at h
  simp only [Bool.and_eq_true, beq_iff_eq, List.all_eq_true, Bool.or_eq_true, decide_eq_true_eq] at h
  rw [reads_from hz, steady_from z.trans z.base u v o w hz.apart h.1
    (fun e he => by have := h.2 e he; grind) h1 h2]

/-- The clock is `o` ahead of UTC by day from day `lo` until the day before `hi`. -/
def daysB (z : Tz) (lo hi o : Int) : Bool :=
  decide (hi ≤ lo) || steadyB z (lo * DAY + hm 8 0 - o) ((hi - 1) * DAY + hm 21 0 - o) o

theorem daysB_reads {z : Tz} (hz : Tame z) {lo hi o : Int} (h : daysB z lo hi o = true) {d t : Int}
    (h1 : lo ≤ d) (h2 : d < hi) (h3 : hm 8 0 ≤ t) (h4 : t ≤ hm 21 0) :
    Reads z (d * DAY + t - o) (d * DAY + t) := by
  unfold daysB at h
  simp only [Bool.or_eq_true, decide_eq_true_eq] at h
  rcases h with h | h
  · omega
  · have := steadyB_reads hz h (w := d * DAY + t - o) (by simp only [DAY]; omega)
      (by simp only [DAY]; omega)
    rwa [show d * DAY + t - o + o = d * DAY + t by omega] at this

/-- From day `lo` on. -/
def sinceB (z : Tz) (lo o : Int) : Bool :=
  let u := lo * DAY + hm 8 0 - o
  offsetFrom z.base z.trans u == o && z.trans.all fun e => decide (e.1 ≤ u) || e.2 == o

theorem sinceB_reads {z : Tz} (hz : Tame z) {lo o : Int} (h : sinceB z lo o = true) {d t : Int}
    (h1 : lo ≤ d) (h3 : hm 8 0 ≤ t) :
    Reads z (d * DAY + t - o) (d * DAY + t) := by
  have : steadyB z (lo * DAY + hm 8 0 - o) (d * DAY + t - o) o = true := by
    unfold sinceB at h
    unfold steadyB
    simp only [Bool.and_eq_true, List.all_eq_true, Bool.or_eq_true, decide_eq_true_eq] at h ⊢
    exact ⟨h.1, fun e he => (h.2 e he).elim (fun h => .inl (.inl h)) .inr⟩
  have := steadyB_reads hz this (w := d * DAY + t - o) (by simp only [DAY]; omega) (by omega)
  rwa [show d * DAY + t - o + o = d * DAY + t by omega] at this

/-! ### Dates of the laws -/

/-- The day of `OnOrAfter`. -/
def onOrAfter (y : Int) (x : Int × Int × Int) : Int :=
  dayOf y x.1 x.2.1 + (x.2.2 - weekday (dayOf y x.1 x.2.1)) % 7

def goodB (x : Int × Int × Int) : Bool :=
  decide (1 ≤ x.1 ∧ x.1 ≤ 12 ∧ 1 ≤ x.2.1 ∧ x.2.1 ≤ 28 ∧ 0 ≤ x.2.2 ∧ x.2.2 ≤ 6)

theorem onOrAfter_iff {y : Int} {x : Int × Int × Int} (h : goodB x = true) (a : Int) :
    OnOrAfter y x a ↔ a = onOrAfter y x := by
  simp only [goodB, decide_eq_true_eq] at h
  have hv : Date.Valid ⟨y, x.1, x.2.1⟩ := by
    refine ⟨h.1, h.2.1, h.2.2.1, ?_⟩
    show x.2.1 ≤ monthLength y x.1
    unfold monthLength
    split
    · split <;> omega
    · split <;> omega
  unfold OnOrAfter onOrAfter
  constructor
  · rintro ⟨c, hc, h1, h2, h3⟩
    obtain ⟨-, rfl⟩ := (dayNumber_iff _ _).1 hc
    rw [weekday_iff] at h3
    generalize dayOf y x.1 x.2.1 = c at *
    unfold weekday at *
    omega
  · rintro rfl
    refine ⟨_, (dayNumber_iff _ _).2 ⟨hv, rfl⟩, ?_⟩
    rw [weekday_iff]
    simp only
    generalize dayOf y x.1 x.2.1 = c at *
    unfold weekday
    omega

/-- One year of a law. -/
def yearB (z : Tz) (std : Int) (r : ClockRule) (y : Int) : Bool :=
  let a := onOrAfter y r.forward
  let b := onOrAfter y r.back
  let lo := dayOf y 1 1
  let hi := dayOf (y + 1) 1 1
  goodB r.forward && goodB r.back &&
    ((decide (a < b) && daysB z lo a std && daysB z a b (std + hm 1 0) && daysB z b hi std) ||
     (decide (b < a) && daysB z lo b (std + hm 1 0) && daysB z b a std && daysB z a hi (std + hm 1 0)))

theorem yearB_reads {z : Tz} (hz : Tame z) {std : Int} {r : ClockRule} {y : Int}
    (h : yearB z std r y = true) {d t : Int} (h1 : dayOf y 1 1 ≤ d) (h2 : d < dayOf (y + 1) 1 1)
    (h3 : hm 8 0 ≤ t) (h4 : t ≤ hm 21 0) :
    (r.Summer y d → Reads z (d * DAY + t - (std + hm 1 0)) (d * DAY + t)) ∧
    (¬ r.Summer y d → Reads z (d * DAY + t - std) (d * DAY + t)) := by
  unfold yearB at h
  simp only [Bool.and_eq_true, Bool.or_eq_true, decide_eq_true_eq] at h
  obtain ⟨⟨hg1, hg2⟩, h⟩ := h
  have hS : r.Summer y d ↔ (onOrAfter y r.forward < onOrAfter y r.back ∧ onOrAfter y r.forward ≤ d ∧
      d < onOrAfter y r.back) ∨ (onOrAfter y r.back < onOrAfter y r.forward ∧
      (d < onOrAfter y r.back ∨ onOrAfter y r.forward ≤ d)) := by
    unfold ClockRule.Summer
    simp only [onOrAfter_iff hg1, onOrAfter_iff hg2]
    constructor
    · rintro ⟨a, b, rfl, rfl, h⟩; exact h
    · intro h; exact ⟨_, _, rfl, rfl, h⟩
  rw [hS]
  generalize onOrAfter y r.forward = a at *
  generalize onOrAfter y r.back = b at *
  rcases h with ⟨⟨⟨hab, s1⟩, s2⟩, s3⟩ | ⟨⟨⟨hab, s1⟩, s2⟩, s3⟩
  · constructor
    · intro hs
      exact daysB_reads hz s2 (by omega) (by omega) h3 h4
    · intro hs
      by_cases hd : d < a
      · exact daysB_reads hz s1 h1 hd h3 h4
      · exact daysB_reads hz s3 (by omega) h2 h3 h4
  · constructor
    · intro hs
      by_cases hd : d < b
      · exact daysB_reads hz s1 h1 hd h3 h4
      · exact daysB_reads hz s3 (by omega) h2 h3 h4
    · intro hs
      exact daysB_reads hz s2 (by omega) (by omega) h3 h4

/-- The years of one law, the zone being clear by day from day `first` on. -/
def lawB (z : Tz) (first : Int) (p : ClockYears) : Bool :=
  decide (first ≤ dayOf p.first 1 1) &&
    match p.rule, p.last with
    | none, none => sinceB z (dayOf p.first 1 1) p.std
    | none, some l => daysB z (dayOf p.first 1 1) (dayOf (l + 1) 1 1) p.std
    | some r, some l => (List.range (l - p.first + 1).toNat).all fun (i : Nat) => yearB z p.std r (p.first + i)
    | some _, none => false

theorem lawB_reads {z : Tz} (hz : Tame z) {first : Int} {p : ClockYears} (h : lawB z first p = true)
    {d t k : Int} (h3 : hm 8 0 ≤ t) (h4 : t ≤ hm 21 0) (hk : p.Ahead d k) :
    first ≤ d ∧ Reads z (d * DAY + t - k) (d * DAY + t) := by
  obtain ⟨y, m, n, hd, hy1, hy2, hk⟩ := hk
  have hlo : ∀ a, a ≤ y → dayOf a 1 1 ≤ d := fun a ha => (ge_year hd a).2 ha
  have hhi : ∀ a, y < a → d < dayOf a 1 1 := fun a ha => by
    have := (ge_year hd a).1
    apply Classical.byContradiction
    intro hc
    have : a ≤ y := this (by omega)
    omega
  unfold lawB at h
  simp only [Bool.and_eq_true, decide_eq_true_eq] at h
  refine ⟨by have := hlo _ hy1; omega, ?_⟩
  rcases hk with ⟨hr, rfl⟩ | ⟨r, hr, hk⟩
  · cases hl : p.last with
    | none =>
      simp only [hr, hl] at h
      exact sinceB_reads hz h.2 (hlo _ hy1) h3
    | some l =>
      simp only [hr, hl] at h
      have := hy2 l hl
      exact daysB_reads hz h.2 (hlo _ hy1) (hhi _ (by omega)) h3 h4
  · cases hl : p.last with
    | none => simp [hr, hl] at h
    | some l =>
      simp only [hr, hl, List.all_eq_true, List.mem_range] at h
      have hyl := hy2 l hl
      have hy := h.2 (y - p.first).toNat (by omega)
      rw [show p.first + ((y - p.first).toNat : Int) = y by omega] at hy
      have := yearB_reads hz hy (hlo _ (Int.le_refl y)) (hhi _ (by omega)) h3 h4
      rcases hk with ⟨hs, rfl⟩ | ⟨hs, rfl⟩
      · exact this.1 hs
      · exact this.2 hs

/-- A zone clear by day that passes the check obeys the laws. -/
theorem clock_of {z : Tz} {first : Int} (hc : ClearFrom z first) {ps : List ClockYears}
    (h : ps.all (lawB z first) = true) : ClockObeys z ps := by
  rintro d t k h3 h4 ⟨p, hp, hk⟩
  obtain ⟨hd, hr⟩ := lawB_reads hc.tame (List.all_eq_true.1 h p hp) h3 h4 hk
  obtain ⟨u, hu⟩ := hc.clear d hd t h3 h4
  rw [hu.2 _ hr]
  exact hu

/-! ### Timetables in UTC -/

/-- Times of day between 8:00 and 21:00. -/
def Daytime (t : Int) : Prop := hm 8 0 ≤ t ∧ t ≤ hm 21 0

instance (t : Int) : Decidable (Daytime t) := by unfold Daytime; infer_instance

/-- All times of the timetable are between 8:00 and 21:00, on the day itself or the day before. -/
structure DaytimeTable (T : Timetable) : Prop where
  opens : ∀ d t, T.opens d t → Daytime (t % DAY)
  closes : ∀ d t, T.closes d t → Daytime t
  early : ∀ d t, T.early d t → Daytime t
  breaks : ∀ p, T.breaks = some p → Daytime p.1 ∧ Daytime p.2

theorem utc_of {x : Exchange} {z : Tz} {first : Int} {bad : List Int} {T : Timetable} {ps : List ClockYears}
    (hk : KeepsHours x z first bad T) (hT : DaytimeTable T) (hz : ClockObeys z ps) :
    KeepsUtc x z first bad T (Ahead ps) := by
  intro start stop b h1 h2 h3 h4
  obtain ⟨⟨ss, hss, hday⟩, -⟩ := hk start stop b h1 h2 h3 h4
  refine ⟨ss, hss, fun s hs => ?_⟩
  obtain ⟨d, hd⟩ := hday s hs
  have ea : ∀ k, Ahead ps d k → ∀ u, T.EarlyAt z start stop d u ↔
      ∃ t, T.early d t ∧ u = d * DAY + t - k ∧ start ≤ u ∧ u ≤ stop := by
    intro k hka u
    constructor
    · rintro ⟨t, ht, hu, hr⟩
      have := hT.early d t ht
      exact ⟨t, ht, (hu.2 _ (hz d t k this.1 this.2 hka).1).symm, hr⟩
    · rintro ⟨t, ht, rfl, hr⟩
      have := hT.early d t ht
      exact ⟨t, ht, hz d t k this.1 this.2 hka, hr⟩
  refine ⟨d, hd.label, ?_, ?_, ?_, hd.noBreak⟩
  · obtain ⟨t, ht, hu⟩ := hd.opens
    refine ⟨t, ht, fun k hka => ?_⟩
    have hdt := hT.opens d t ht
    have := hz _ _ k hdt.1 hdt.2 hka
    have e : (d + t / DAY) * DAY + t % DAY = d * DAY + t := by
      rw [Int.add_mul]
      have := Int.mul_ediv_add_emod t DAY
      rw [Int.mul_comm] at this
      omega
    rw [e] at this
    exact this.2 _ hu.1
  · intro t k ht hka hr1 hr2
    exact hd.early _ ((ea k hka _).2 ⟨t, ht, rfl, hr1, hr2⟩)
  · intro k hka hno
    have hne : ∀ u, ¬ T.EarlyAt z start stop d u := by
      intro u hu
      obtain ⟨t, ht, rfl, hr⟩ := (ea k hka u).1 hu
      exact hno t ht hr
    refine ⟨?_, fun p hp => ?_⟩
    · obtain ⟨t, ht, hu⟩ := hd.closes hne
      have := hT.closes d t ht
      exact ⟨t, ht, (hz d t k this.1 this.2 hka).2 _ hu.1⟩
    · obtain ⟨u, v, e, hu, hv⟩ := hd.breaks hne p hp
      obtain ⟨hp1, hp2⟩ := hT.breaks p hp
      rw [e, (hz d _ k hp1.1 hp1.2 hka).2 _ hu.1, (hz d _ k hp2.1 hp2.2 hka).2 _ hv.1]

theorem daytime_book {early : List (Int × Book)} {single : List (Int × List (Int × Int × Int))}
    (h1 : ∀ e ∈ early, Daytime e.1) (h2 : ∀ e ∈ single, Daytime e.1) (d t : Int)
    (h : EarlyByBook early single d t) : Daytime t := by
  rcases h with ⟨e, he, rfl, -⟩ | ⟨e, he, rfl, -⟩
  · exact h1 e he
  · exact h2 e he

theorem daytime_feasts {early : List (Int × Book)} {feasts : List (Int × Feast)}
    {but : List (Int × Int × Int)} (h1 : ∀ e ∈ early, Daytime e.1) (h2 : ∀ e ∈ feasts, Daytime e.1)
    (d t : Int) (h : EarlyForFeasts early feasts but d t) : Daytime t := by
  rcases h with ⟨e, he, rfl, -⟩ | ⟨⟨e, he, rfl, -⟩, -⟩
  · exact h1 e he
  · exact h2 e he

theorem daytime_daily {o c : Int} {E : Int → Int → Prop} (ho : Daytime (o % DAY)) (hc : Daytime c)
    (hE : ∀ d t, E d t → Daytime t) : DaytimeTable (Hours.daily o c E) where
  opens := by rintro d t rfl; exact ho
  closes := by rintro d t rfl; exact hc
  early := hE
  breaks := by rintro p h; cases h

theorem daytime_changed {y m k t t' : Int} (h1 : Daytime t) (h2 : Daytime t') (d u : Int)
    (h : Hours.changed y m k t t' d u) : Daytime u := by
  obtain ⟨c, -, ⟨-, rfl⟩ | ⟨-, rfl⟩⟩ := h
  · exact h1
  · exact h2

/-- On every day of the years of a law the clock is ahead by exactly one offset. -/
theorem ahead_of {p : ClockYears} {y m n d : Int} (hd : DayNumber ⟨y, m, n⟩ d) (h1 : p.first ≤ y)
    (h2 : ∀ l, p.last = some l → y ≤ l) : ∃ k, p.Ahead d k := by
  cases hr : p.rule with
  | none => exact ⟨_, y, m, n, hd, h1, h2, .inl ⟨hr, rfl⟩⟩
  | some r =>
    rcases Classical.em (r.Summer y d) with hs | hs
    · exact ⟨_, y, m, n, hd, h1, h2, .inr ⟨r, hr, .inl ⟨hs, rfl⟩⟩⟩
    · exact ⟨_, y, m, n, hd, h1, h2, .inr ⟨r, hr, .inr ⟨hs, rfl⟩⟩⟩

instance (x : Date) : Decidable x.Valid := by unfold Date.Valid; infer_instance

/-- A check that clocks are ahead by `k` on day `d`. -/
def aheadB (ps : List ClockYears) (y m n k : Int) : Bool :=
  let d := dayOf y m n
  decide (Date.Valid ⟨y, m, n⟩) && ps.any fun p => decide (p.first ≤ y) && p.last.all (fun l => decide (y ≤ l)) &&
    match p.rule with
    | none => k == p.std
    | some r =>
      let a := onOrAfter y r.forward
      let b := onOrAfter y r.back
      goodB r.forward && goodB r.back &&
      if (a < b ∧ a ≤ d ∧ d < b) ∨ (b < a ∧ (d < b ∨ a ≤ d)) then k == p.std + hm 1 0 else k == p.std

theorem ahead_case {ps : List ClockYears} {y m n k : Int} (h : aheadB ps y m n k = true) :
    Ahead ps (dayOf y m n) k := by
  unfold aheadB at h
  simp only [Bool.and_eq_true, decide_eq_true_eq, List.any_eq_true] at h
  obtain ⟨hv, p, hp, ⟨h1, h2⟩, h⟩ := h
  refine ⟨p, hp, y, m, n, (dayNumber_iff _ _).2 ⟨hv, rfl⟩, h1, fun l hl => ?_, ?_⟩
  · simpa [hl] using h2
  · cases hr : p.rule with
    | none => left; simpa [hr] using h
    | some r =>
      right
      refine ⟨r, rfl, ?_⟩
      simp only [hr, Bool.and_eq_true] at h
      obtain ⟨⟨hg1, hg2⟩, h⟩ := h
      unfold ClockRule.Summer
      simp only [onOrAfter_iff hg1, onOrAfter_iff hg2]
      split at h
      · left
        exact ⟨⟨_, _, rfl, rfl, by assumption⟩, by simpa using h⟩
      · right
        refine ⟨?_, by simpa using h⟩
        rintro ⟨a, b, rfl, rfl, h'⟩
        contradiction

theorem ahead_unique {p : ClockYears} {d k k' : Int} (h : p.Ahead d k) (h' : p.Ahead d k') : k = k' := by
  obtain ⟨y, m, n, hd, -, -, h⟩ := h
  obtain ⟨y', m', n', hd', -, -, h'⟩ := h'
  have hy : y = y' := by
    have e1 := (ge_year hd y').1
    have e2 := (ge_year hd' y).1
    have e3 := (ge_year hd y).2 (Int.le_refl _)
    have e4 := (ge_year hd' y').2 (Int.le_refl _)
    have e5 : y' ≤ y := e1 e4
    have e6 : y ≤ y' := e2 e3
    omega
  subst hy
  rcases h with ⟨hr, rfl⟩ | ⟨r, hr, h⟩
  · rcases h' with ⟨-, rfl⟩ | ⟨r', hr', -⟩
    · rfl
    · rw [hr] at hr'; cases hr'
  · rcases h' with ⟨hr', -⟩ | ⟨r', hr', h'⟩
    · rw [hr] at hr'; cases hr'
    · rw [hr] at hr'
      cases hr'
      grind

theorem daytime_open {P : Int → Int → Prop} (h : ∀ d t, P d t → Daytime t) (d t : Int) (ht : P d t) :
    Daytime (t % DAY) := by
  have hd := h d t ht
  have e : t % DAY = t := by
    have h8 : hm 8 0 = 28800000000000 := by decide
    have h21 : hm 21 0 = 75600000000000 := by decide
    unfold Daytime at hd
    simp only [DAY]
    omega
  rw [e]
  exact hd

theorem daytime_santiago (d t : Int) (h : Hours.santiago.closes d t) : Daytime t := by
  obtain ⟨y, m, k, -, h1, h2⟩ := h
  by_cases hc : 1980 ≤ y ∧ y < 2050 ∧ 3 ≤ m ∧ m ≤ 10
  · rw [h1 hc]; decide
  · rw [h2 hc]; decide

end TC
