import Verif.Lemmas.BuildSucceeds

/-!
# A decision procedure for `Ordered`, and zones without transitions
-/

namespace TC
open Spec

def openWalls (cfg : Config) : List Int :=
  cfg.openTimes.map (fun e => cfg.openOffset * DAY + e.2) ++ cfg.specialOpens.map (·.1)
    ++ cfg.specialOpensAdhoc.map (·.1)

def standardCloseWalls (cfg : Config) : List Int :=
  cfg.closeTimes.map (fun e => cfg.closeOffset * DAY + e.2)

def closeWalls (cfg : Config) : List Int :=
  standardCloseWalls cfg ++ cfg.specialCloses.map (·.1) ++ cfg.specialClosesAdhoc.map (·.1)

def tableTimes (t : Option TimeTable) : List Int := (t.getD []).map (·.2)

theorem openWall_iff (cfg : Config) (o : Int) : OpenWall cfg o ↔ o ∈ openWalls cfg := by
  simp only [OpenWall, openWalls, List.mem_append, List.mem_map, or_assoc, eq_comm]

theorem standardCloseWall_iff (cfg : Config) (c : Int) :
    StandardCloseWall cfg c ↔ c ∈ standardCloseWalls cfg := by
  simp only [StandardCloseWall, standardCloseWalls, List.mem_map, eq_comm]

theorem closeWall_iff (cfg : Config) (c : Int) : CloseWall cfg c ↔ c ∈ closeWalls cfg := by
  simp only [CloseWall, closeWalls, standardCloseWall_iff, List.mem_append, List.mem_map, or_assoc,
    eq_comm]

theorem breakStartWall_iff (cfg : Config) (b : Int) :
    BreakStartWall cfg b ↔ b ∈ tableTimes cfg.breakStartTimes := by
  unfold BreakStartWall tableTimes
  cases cfg.breakStartTimes <;> simp [eq_comm]

theorem breakEndWall_iff (cfg : Config) (b : Int) :
    BreakEndWall cfg b ↔ b ∈ tableTimes cfg.breakEndTimes := by
  unfold BreakEndWall tableTimes
  cases cfg.breakEndTimes <;> simp [eq_comm]

def increasingB : Option Int → List (Option Int × Int) → Bool
  | _, [] => true
  | prev, (some x, _) :: rest =>
      (match prev with | none => true | some p => decide (p < x)) && increasingB (some x) rest
  | _, (none, _) :: _ => false

def validTableB : TimeTable → Bool
  | (none, _) :: rest => increasingB none rest
  | _ => false

theorem increasingB_spec : ∀ {rest : TimeTable} {prev : Option Int}, increasingB prev rest = true →
    (∀ e ∈ rest, ∃ x, e.1 = some x ∧ ∀ p, prev = some p → p < x) ∧
    rest.Pairwise (fun e e' => ∀ x x', e.1 = some x → e'.1 = some x' → x < x')
  | [], _, _ => by simp
  | (none, t) :: rest, prev, h => by simp [increasingB] at h
  | (some x, t) :: rest, prev, h => by
    unfold increasingB at h
    rw [Bool.and_eq_true] at h
    obtain ⟨h1, h2⟩ := increasingB_spec h.2
    have hp : ∀ p, prev = some p → p < x := by
      rintro p rfl
      simpa using h.1
    refine ⟨fun e he => ?_, List.pairwise_cons.mpr ⟨fun e he => ?_, h2⟩⟩
    · rcases List.mem_cons.mp he with rfl | he
      · exact ⟨x, rfl, hp⟩
      · obtain ⟨y, hy, hlt⟩ := h1 e he
        refine ⟨y, hy, fun p h => ?_⟩
        have a := hlt x rfl
        have b := hp p h
        omega
    · intro a b ha hb
      cases ha
      obtain ⟨y, hy, hlt⟩ := h1 e he
      rw [hy] at hb
      cases hb
      exact hlt _ rfl

theorem validTable_of {t : TimeTable} (h : validTableB t = true) : ValidTable t := by
  unfold validTableB at h
  split at h
  · next t0 rest =>
    obtain ⟨h1, h2⟩ := increasingB_spec h
    exact ⟨t0, rest, rfl, fun e he => by obtain ⟨x, hx, _⟩ := h1 e he; rw [hx]; rfl, h2⟩
  · cases h

/-- The decidable check behind `Ordered`. -/
def orderedB (cfg : Config) : Bool :=
  validTableB cfg.openTimes && validTableB cfg.closeTimes &&
  (cfg.breakStartTimes.all validTableB) && (cfg.breakEndTimes.all validTableB) &&
  (openWalls cfg).all (fun o => decide (-DAY ≤ o)) &&
  (openWalls cfg).all (fun o => (closeWalls cfg).all fun c => decide (o < c) && decide (c < o + DAY)) &&
  (openWalls cfg).all (fun o =>
    (tableTimes cfg.breakStartTimes ++ tableTimes cfg.breakEndTimes).all fun b => decide (o < b)) &&
  (tableTimes cfg.breakStartTimes).all (fun b =>
    (tableTimes cfg.breakEndTimes).all fun e => decide (b < e)) &&
  (tableTimes cfg.breakEndTimes).all (fun e =>
    (standardCloseWalls cfg).all fun c => decide (e ≤ c))

theorem ordered_of {cfg : Config} (h : orderedB cfg = true) : Ordered cfg := by
  unfold orderedB at h
  simp only [Bool.and_eq_true, List.all_eq_true, decide_eq_true_eq] at h
  obtain ⟨⟨⟨⟨⟨⟨⟨⟨h1, h2⟩, h3⟩, h4⟩, h5⟩, h6⟩, h7⟩, h8⟩, h9⟩ := h
  refine ⟨validTable_of h1, validTable_of h2, fun t ht => ?_, fun t ht => ?_, fun o ho => ?_,
    fun o c ho hc => ?_, fun o b ho hb => ?_, fun b e hb he => ?_, fun e c he hc => ?_⟩
  · rw [ht] at h3; exact validTable_of h3
  · rw [ht] at h4; exact validTable_of h4
  · exact h5 o ((openWall_iff _ _).mp ho)
  · exact h6 o ((openWall_iff _ _).mp ho) c ((closeWall_iff _ _).mp hc)
  · refine h7 o ((openWall_iff _ _).mp ho) b (List.mem_append.mpr ?_)
    rw [breakStartWall_iff, breakEndWall_iff] at hb
    exact hb
  · exact h8 b ((breakStartWall_iff _ _).mp hb) e ((breakEndWall_iff _ _).mp he)
  · exact h9 e ((breakEndWall_iff _ _).mp he) c ((standardCloseWall_iff _ _).mp hc)

/-- The decidable check behind `WholeMinuteTimes`. -/
def wholeMinuteTimesB (cfg : Config) : Bool :=
  (openWalls cfg ++ closeWalls cfg ++ tableTimes cfg.breakStartTimes
    ++ tableTimes cfg.breakEndTimes).all fun t => decide (MINUTE ∣ t)

theorem wholeMinuteTimes_of {cfg : Config} (h : wholeMinuteTimesB cfg = true) :
    WholeMinuteTimes cfg := by
  unfold wholeMinuteTimesB at h
  simp only [List.all_eq_true, decide_eq_true_eq, List.mem_append] at h
  refine ⟨fun t ht => h t ?_, fun t ht => h t ?_, fun t ht => h t ?_, fun t ht => h t ?_⟩
  · exact Or.inl (Or.inl (Or.inl ((openWall_iff _ _).mp ht)))
  · exact Or.inl (Or.inl (Or.inr ((closeWall_iff _ _).mp ht)))
  · exact Or.inl (Or.inr ((breakStartWall_iff _ _).mp ht))
  · exact Or.inr ((breakEndWall_iff _ _).mp ht)

/-- The decidable check behind `Tame`. -/
def tameB (z : Tz) : Bool :=
  decide (-DAY < z.base) && decide (z.base < DAY) &&
  z.trans.all (fun e => decide (-DAY < e.2) && decide (e.2 < DAY)) &&
  decide (z.trans.Pairwise (fun e e' => e.1 + 2 * DAY ≤ e'.1))

theorem tame_of {z : Tz} (h : tameB z = true) : Tame z := by
  unfold tameB at h
  simp only [Bool.and_eq_true, List.all_eq_true, decide_eq_true_eq] at h
  exact ⟨h.1.1, h.1.2, h.2⟩

/-- In a zone without transitions every reading names exactly one instant. -/
theorem fixed_only (base w u : Int) : OnlyInstant ⟨base, []⟩ w u ↔ u = w - base := by
  have hr : ∀ v, Reads ⟨base, []⟩ v w ↔ v + base = w := by
    intro v
    unfold Reads OffsetInForce
    simp
  unfold OnlyInstant
  simp only [hr]
  constructor
  · rintro ⟨h, _⟩; omega
  · rintro rfl; exact ⟨by omega, fun v hv => by omega⟩

theorem fixed_tame {base : Int} (h1 : -DAY < base) (h2 : base < DAY) : Tame ⟨base, []⟩ :=
  ⟨⟨h1, h2⟩, by simp, by simp⟩

theorem fixed_readable {cfg : Config} {base : Int} (hz : cfg.tz = ⟨base, []⟩)
    (hp : cfg.breakStartTimes.isSome ↔ cfg.breakEndTimes.isSome) (start stop : Int) :
    Readable cfg start stop := by
  constructor <;> (try exact hp) <;> intros <;> rw [hz] <;>
    exact ⟨_, (fixed_only _ _ _).mpr rfl⟩

/-- The dates and times of day of all special times, for the given window. -/
def specialTimes (rules : List (Int × HolidayFn)) (adHoc : List (Int × List Int))
    (start stop : Int) : List (Int × Int) :=
  (rules.map fun c => (c.2 start stop).map fun l => (l, c.1)).flatten ++
    (adHoc.map fun c => c.2.map fun l => (l, c.1)).flatten

theorem specialTime_iff (rules : List (Int × HolidayFn)) (adHoc : List (Int × List Int))
    (start stop l t : Int) :
    SpecialTime rules adHoc start stop l t ↔ (l, t) ∈ specialTimes rules adHoc start stop := by
  unfold SpecialTime specialTimes
  simp only [List.mem_append, List.mem_flatten, List.mem_map]
  constructor
  · rintro (⟨cal, h1, h2⟩ | ⟨ds, h1, h2⟩)
    · exact Or.inl ⟨_, ⟨(t, cal), h1, rfl⟩, List.mem_map.mpr ⟨l, h2, rfl⟩⟩
    · exact Or.inr ⟨_, ⟨(t, ds), h1, rfl⟩, List.mem_map.mpr ⟨l, h2, rfl⟩⟩
  · rintro (⟨_, ⟨⟨t', cal⟩, h1, rfl⟩, h2⟩ | ⟨_, ⟨⟨t', ds⟩, h1, rfl⟩, h2⟩)
    · obtain ⟨l', h3, h4⟩ := List.mem_map.mp h2
      cases h4
      exact Or.inl ⟨cal, h1, h3⟩
    · obtain ⟨l', h3, h4⟩ := List.mem_map.mp h2
      cases h4
      exact Or.inr ⟨ds, h1, h3⟩

def readsB (z : Tz) (w : Int) : Bool := match z.localize w with | .ok _ => true | .error _ => false

theorem readsB_only {z : Tz} (hz : Tame z) {w : Int} (h : readsB z w = true) :
    ∃ u, OnlyInstant z w u := by
  unfold readsB at h
  split at h
  · next u hu => exact ⟨u, (localize_ok_iff hz w u).mp hu⟩
  · cases h

/-- A decidable sufficient check for `Readable`. -/
def readableB (cfg : Config) (start stop : Int) : Bool :=
  (dateRange cfg.isBusinessDay start stop).all (fun l =>
    cfg.openTimes.all (fun e => readsB cfg.tz (l + cfg.openOffset * DAY + e.2)) &&
    cfg.closeTimes.all (fun e => readsB cfg.tz (l + cfg.closeOffset * DAY + e.2)) &&
    (tableTimes cfg.breakStartTimes).all (fun t => readsB cfg.tz (l + 0 * DAY + t)) &&
    (tableTimes cfg.breakEndTimes).all (fun t => readsB cfg.tz (l + 0 * DAY + t))) &&
  (specialTimes cfg.specialOpens cfg.specialOpensAdhoc start stop).all
    (fun p => readsB cfg.tz (p.1 + p.2)) &&
  (specialTimes cfg.specialCloses cfg.specialClosesAdhoc start stop).all
    (fun p => readsB cfg.tz (p.1 + p.2)) &&
  (cfg.breakStartTimes.isSome == cfg.breakEndTimes.isSome)

theorem sessionLabel_iff {cfg : Config} {start : Int} (hm : DAY ∣ start) (stop l : Int) :
    SessionLabel cfg start stop l ↔ l ∈ dateRange cfg.isBusinessDay start stop := by
  rw [(dateRange_spec cfg.isBusinessDay (stop := stop) hm).2]
  unfold SessionLabel
  simp only [isBusinessDay_iff]

theorem readable_of {cfg : Config} {start stop : Int} (hz : Tame cfg.tz) (hm : DAY ∣ start)
    (h : readableB cfg start stop = true) : Readable cfg start stop := by
  unfold readableB at h
  simp only [Bool.and_eq_true, List.all_eq_true, beq_iff_eq] at h
  obtain ⟨⟨⟨h1, h2⟩, h3⟩, h4⟩ := h
  have hmemS : ∀ l table t, cfg.breakStartTimes = some table → TimeInEffect table l t →
      t ∈ tableTimes cfg.breakStartTimes := fun l table t he ht => by
    obtain ⟨e, hm, rfl⟩ := TimeInEffect.mem ht
    unfold tableTimes
    rw [he]
    exact List.mem_map.mpr ⟨e, hm, rfl⟩
  have hmemE : ∀ l table t, cfg.breakEndTimes = some table → TimeInEffect table l t →
      t ∈ tableTimes cfg.breakEndTimes := fun l table t he ht => by
    obtain ⟨e, hm, rfl⟩ := TimeInEffect.mem ht
    unfold tableTimes
    rw [he]
    exact List.mem_map.mpr ⟨e, hm, rfl⟩
  refine ⟨fun l t hl ht => ?_, fun l t hl ht => ?_, fun l t table hl he ht => ?_,
    fun l t table hl he ht => ?_, fun l t ht => ?_, fun l t ht => ?_, by rw [h4]⟩
  · obtain ⟨e, he, rfl⟩ := TimeInEffect.mem ht
    exact readsB_only hz ((h1 l ((sessionLabel_iff hm _ _).mp hl)).1.1.1 e he)
  · obtain ⟨e, he, rfl⟩ := TimeInEffect.mem ht
    exact readsB_only hz ((h1 l ((sessionLabel_iff hm _ _).mp hl)).1.1.2 e he)
  · exact readsB_only hz ((h1 l ((sessionLabel_iff hm _ _).mp hl)).1.2 t (hmemS l table t he ht))
  · exact readsB_only hz ((h1 l ((sessionLabel_iff hm _ _).mp hl)).2 t (hmemE l table t he ht))
  · exact readsB_only hz (h2 _ ((specialTime_iff _ _ _ _ _ _).mp ht))
  · exact readsB_only hz (h3 _ ((specialTime_iff _ _ _ _ _ _).mp ht))

/-- A decidable sufficient check for `SpecialsFit`: all special dates are sessions and no date has two
times. -/
def specialsFitB (cfg : Config) (start stop : Int) : Bool :=
  let so := specialTimes cfg.specialOpens cfg.specialOpensAdhoc start stop
  let sc := specialTimes cfg.specialCloses cfg.specialClosesAdhoc start stop
  (so ++ sc).all (fun p => (dateRange cfg.isBusinessDay start stop).contains p.1) &&
  so.all (fun p => so.all fun q => (p.1 != q.1) || (p.2 == q.2)) &&
  sc.all (fun p => sc.all fun q => (p.1 != q.1) || (p.2 == q.2))

theorem specialsFit_of {cfg : Config} {start stop : Int} (hm : DAY ∣ start)
    (h : specialsFitB cfg start stop = true) : SpecialsFit cfg start stop := by
  unfold specialsFitB at h
  simp only [Bool.and_eq_true, List.all_eq_true, Bool.or_eq_true, bne_iff_ne, beq_iff_eq,
    List.contains_iff_mem, List.mem_append] at h
  obtain ⟨⟨h1, h2⟩, h3⟩ := h
  refine ⟨?_, ?_, ?_⟩
  · rintro l u (⟨t, ht, _⟩ | ⟨t, ht, _⟩) <;> rw [specialTime_iff] at ht <;>
      rw [sessionLabel_iff hm]
    · exact h1 (l, t) (Or.inl ht)
    · exact h1 (l, t) (Or.inr ht)
  · rintro l u u' ⟨t, ht, hu, _⟩ ⟨t', ht', hu', _⟩
    rw [specialTime_iff] at ht ht'
    rcases h2 _ ht _ ht' with h | h
    · exact absurd rfl h
    · simp only at h; subst h; exact hu'.2 u hu.1
  · rintro l u u' ⟨t, ht, hu, _⟩ ⟨t', ht', hu', _⟩
    rw [specialTime_iff] at ht ht'
    rcases h3 _ ht _ ht' with h | h
    · exact absurd rfl h
    · simp only at h; subst h; exact hu'.2 u hu.1

end TC
