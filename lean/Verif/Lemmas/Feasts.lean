import Verif.Lemmas.Books
import Verif.Spec.Feasts

/-!
# Comparing the tables of an exchange with feasts and single closures
-/

namespace TC
open Spec

/-- The days the feast gives off. -/
def Spec.Feast.days (f : Feast) : List Int :=
  (f.dates.filter fun e =>
    (match f.first with | some a => decide (a ≤ e.1) | none => true) &&
    (match f.final with | some b => decide (e.1 ≤ b) | none => true)).flatMap fun e =>
      let u := dayOf e.1 e.2.1 e.2.2
      ((f.off[(weekday u).toNat]?).getD []).map (u + ·)

/-- All dates exist. -/
def datesOkB (l : List (Int × Int × Int)) : Bool := l.all fun e => everyYear e.2.1 e.2.2

theorem byTable_days (t : WeekTable) (u d : Int) :
    ByTable t u d ↔ d ∈ ((t[(weekday u).toNat]?).getD []).map (u + ·) := by
  have : 0 ≤ weekday u := by unfold weekday; omega
  unfold ByTable
  simp only [weekday_iff, List.mem_map]
  constructor
  · rintro ⟨w, hw, l, hl, hd⟩
    have : (weekday u).toNat = w := by omega
    rw [this, hl]
    exact ⟨d - u, hd, by omega⟩
  · rintro ⟨n, hn, rfl⟩
    refine ⟨(weekday u).toNat, by omega, ?_⟩
    cases h : t[(weekday u).toNat]? with
    | none => rw [h] at hn; simp at hn
    | some l => rw [h] at hn; exact ⟨l, rfl, by rw [show u + n - u = n by omega]; exact hn⟩

theorem feast_days {f : Feast} (h : datesOkB f.dates = true) (d : Int) : f.On d ↔ d ∈ f.days := by
  unfold Feast.On Feast.days
  simp only [List.mem_flatMap, List.mem_filter, Bool.and_eq_true]
  constructor
  · rintro ⟨e, he, h1, h2, u, hu, ht⟩
    have hv := List.all_eq_true.1 h e he
    rw [dn hv] at hu
    subst hu
    refine ⟨e, ⟨he, ?_, ?_⟩, (byTable_days _ _ _).1 ht⟩
    · cases hf : f.first with
      | none => rfl
      | some a => simpa [hf] using h1 a hf
    · cases hf : f.final with
      | none => rfl
      | some a => simpa [hf] using h2 a hf
  · rintro ⟨e, ⟨he, h1, h2⟩, ht⟩
    have hv := List.all_eq_true.1 h e he
    refine ⟨e, he, ?_, ?_, dayOf e.1 e.2.1 e.2.2, (dn hv _ _).2 rfl, (byTable_days _ _ _).2 ht⟩
    · intro a ha
      simpa [ha] using h1
    · intro a ha
      simpa [ha] using h2

/-- All the days off. -/
def daysOff (feasts : List Feast) (closures : List (Int × Int × Int)) : List Int :=
  (closures.map fun e => dayOf e.1 e.2.1 e.2.2) ++ feasts.flatMap Feast.days

/-- The day needs no table: a weekend or a regular holiday. -/
def Exchange.closedB (x : Exchange) (d : Int) : Bool :=
  decide (weekday d > 4) || (decide (0 ≤ d) && decide (d ≤ 84370) && x.regular.any fun r => r.hits d)

/-- The days from 1970 on, as bits of a number. -/
def bits : List Int → Nat
  | [] => 0
  | d :: l => if 0 ≤ d then Nat.lor (Nat.shiftLeft 1 d.toNat) (bits l) else bits l

/-- Fast membership for days from 1970 on. -/
def memB (l : List Int) (d : Int) : Bool := decide (0 ≤ d) && Nat.testBit (bits l) d.toNat

theorem bits_mem {l : List Int} {d : Int} (h0 : 0 ≤ d) (h : Nat.testBit (bits l) d.toNat = true) :
    d ∈ l := by
  induction l with
  | nil => simp [bits] at h
  | cons e l ih =>
    unfold bits at h
    split at h
    · have h : ((1 <<< e.toNat ||| bits l).testBit d.toNat) = true := h
      rw [Nat.testBit_or, Bool.or_eq_true, Nat.one_shiftLeft, Nat.testBit_two_pow] at h
      rcases h with h | h
      · have : e.toNat = d.toNat := by simpa using h
        have : d = e := by omega
        simp [this]
      · exact List.mem_cons_of_mem _ (ih h)
    · exact List.mem_cons_of_mem _ (ih h)

theorem memB_sound {l : List Int} {d : Int} (h : memB l d = true) : d ∈ l := by
  unfold memB at h
  simp only [Bool.and_eq_true, decide_eq_true_eq] at h
  exact bits_mem h.1 h.2

/-- The table of the exchange has the days off of the feasts and single closures, up to days on which
the exchange is closed anyway. -/
def feastsB (x : Exchange) (feasts : List Feast) (closures : List (Int × Int × Int)) : Bool :=
  datesOkB closures && (feasts.all fun f => datesOkB f.dates) &&
  (let off := daysOff feasts closures
   (x.adhoc.all fun d => decide (d < 0) || memB off d || x.closedB d) &&
   (off.all fun d => decide (d < 0) || memB x.adhoc d || x.closedB d))

theorem daysOff_iff {feasts : List Feast} {closures : List (Int × Int × Int)}
    (h1 : datesOkB closures = true) (h2 : (feasts.all fun f => datesOkB f.dates) = true) (d : Int) :
    d ∈ daysOff feasts closures ↔ OnDates closures d ∨ ∃ f ∈ feasts, f.On d := by
  unfold daysOff OnDates
  simp only [List.mem_append, List.mem_map, List.mem_flatMap]
  refine or_congr ?_ ?_
  · constructor
    · rintro ⟨e, he, rfl⟩
      exact ⟨e, he, (dn (List.all_eq_true.1 h1 e he) _ _).2 rfl⟩
    · rintro ⟨e, he, hd⟩
      exact ⟨e, he, ((dn (List.all_eq_true.1 h1 e he) _ _).1 hd).symm⟩
  · constructor
    · rintro ⟨f, hf, hd⟩
      exact ⟨f, hf, (feast_days (List.all_eq_true.1 h2 f hf) d).2 hd⟩
    · rintro ⟨f, hf, hd⟩
      exact ⟨f, hf, (feast_days (List.all_eq_true.1 h2 f hf) d).1 hd⟩

theorem closed_sound {x : Exchange} (h : GoodRules x.regular) {d : Int} (hc : x.closedB d = true)
    (hw : Weekday d) (hr : ∀ r ∈ x.regular, ¬ IsHoliday r d) : False := by
  unfold Exchange.closedB at hc
  simp only [Bool.or_eq_true, Bool.and_eq_true, decide_eq_true_eq, List.any_eq_true] at hc
  rcases hc with hc | ⟨_, r, hr', hh⟩
  · obtain ⟨w, h0, h4, hw⟩ := hw
    rw [weekday_iff] at hw
    omega
  · exact hr r hr' ((hits_iff (h.1 r hr') (h.2 r hr') d).1 hh)

theorem feasts_of {x : Exchange} {H : Int → Int → Prop} {feasts : List Feast}
    {closures : List (Int × Int × Int)} (hg : rulesB x.regular = true)
    (hw : x.weekdays = [0, 1, 2, 3, 4]) (ha : feastsB x feasts closures = true)
    (hh : ∀ d, 0 ≤ d → ((∃ r ∈ x.regular, IsHoliday r d) ↔ ∃ y, H y d)) :
    FollowsFeasts x H feasts closures := by
  intro z start stop b hb hm d h1 h2 h3 h4
  rw [sessions_iff (rules_of hg) hb hm h1 h2]
  unfold feastsB at ha
  simp only [Bool.and_eq_true, List.all_eq_true, Bool.or_eq_true, decide_eq_true_eq] at ha
  obtain ⟨⟨ha1, ha2⟩, ha3', ha4'⟩ := ha
  have ha3 : d ∈ x.adhoc → d ∈ daysOff feasts closures ∨ x.closedB d = true := fun hm => by
    rcases ha3' d hm with (h | h) | h
    · omega
    · exact .inl (memB_sound h)
    · exact .inr h
  have ha4 : d ∈ daysOff feasts closures → d ∈ x.adhoc ∨ x.closedB d = true := fun hm => by
    rcases ha4' d hm with (h | h) | h
    · omega
    · exact .inl (memB_sound h)
    · exact .inr h
  have hd := daysOff_iff ha1 (List.all_eq_true.2 ha2) d
  have hH := hh d h3
  unfold TradesOn
  rw [hw, weekday_mem]
  constructor
  · rintro ⟨hw, hn, hr⟩
    have hr := hr h3 h4
    have hoff : d ∉ daysOff feasts closures := fun hmem =>
      (ha4 hmem).elim hn fun hc => closed_sound (rules_of hg) hc hw hr
    rw [hd] at hoff
    refine ⟨hw, fun h => hoff (.inl h), fun f hf hon => hoff (.inr ⟨f, hf, hon⟩), fun y hy => ?_⟩
    obtain ⟨r, hr', hi⟩ := hH.2 ⟨y, hy⟩
    exact hr r hr' hi
  · rintro ⟨hw, hn, hf, hy⟩
    have hr : ∀ r ∈ x.regular, ¬ IsHoliday r d := fun r hr hi => by
      obtain ⟨y, h⟩ := hH.1 ⟨r, hr, hi⟩
      exact hy y h
    refine ⟨hw, fun hmem => ?_, fun _ _ => hr⟩
    rcases ha3 hmem with hoff | hc
    · rcases hd.1 hoff with h | ⟨f, hf', hon⟩
      · exact hn h
      · exact hf f hf' hon
    · exact closed_sound (rules_of hg) hc hw hr

/-- The days of a list of early closes, all existing. -/
def earlyDatesB (single : List (Int × List (Int × Int × Int))) (adhoc : List (Int × List Int)) : Bool :=
  single.length == adhoc.length &&
  ((single.zip adhoc).all fun p => p.1.1 == p.2.1 && datesB p.1.2 p.2.2)

/-- The special closes are those of the books. -/
def earlyBooksB (early : List (Int × Book)) (rules : List (Int × List Rule)) : Bool :=
  early.length == rules.length &&
  ((early.zip rules).all fun p => p.1.1 == p.2.1 && sameB p.2.2 p.1.2)

theorem zip_iff {α β : Type} {P : α → Prop} {Q : β → Prop} {R : α → β → Bool}
    (h : ∀ a b, R a b = true → (P a ↔ Q b)) :
    ∀ {l : List α} {m : List β}, l.length = m.length → ((l.zip m).all fun p => R p.1 p.2) = true →
      ((∃ a ∈ l, P a) ↔ ∃ b ∈ m, Q b)
  | [], [], _, _ => by simp
  | [], _ :: _, hl, _ => by simp at hl
  | _ :: _, [], hl, _ => by simp at hl
  | a :: l, b :: m, hl, hz => by
      simp only [List.zip_cons_cons, List.all_cons, Bool.and_eq_true] at hz
      have := zip_iff h (l := l) (m := m) (by simpa using hl) hz.2
      simp only [List.mem_cons, exists_eq_or_imp, h a b hz.1, this]

theorem closesEarly_eq (x : Exchange) (d t : Int) :
    ClosesEarly x d t ↔
      (∃ p ∈ x.specialCloses, p.1 = t ∧ ∃ r ∈ p.2, IsHoliday r d) ∨
      ∃ p ∈ x.specialClosesAdhoc, p.1 = t ∧ d ∈ p.2 := by
  unfold ClosesEarly
  constructor
  · rintro (⟨rules, h, h'⟩ | ⟨days, h, h'⟩)
    · exact .inl ⟨_, h, rfl, h'⟩
    · exact .inr ⟨_, h, rfl, h'⟩
  · rintro (⟨⟨_, rules⟩, h, rfl, h'⟩ | ⟨⟨_, days⟩, h, rfl, h'⟩)
    · exact .inl ⟨_, h, h'⟩
    · exact .inr ⟨_, h, h'⟩

theorem earlyBooks_iff {x : Exchange} {early : List (Int × Book)}
    (h : earlyBooksB early x.specialCloses = true) (d t : Int) :
    (∃ p ∈ x.specialCloses, p.1 = t ∧ ∃ r ∈ p.2, IsHoliday r d) ↔
      ∃ e ∈ early, e.1 = t ∧ ∃ y, e.2.Holiday y d := by
  unfold earlyBooksB at h
  simp only [Bool.and_eq_true, beq_iff_eq] at h
  refine (zip_iff (R := fun (a : Int × Book) (b : Int × List Rule) => a.1 == b.1 && sameB b.2 a.2)
    (fun a b hr => ?_) h.1 h.2).symm
  simp only [Bool.and_eq_true, beq_iff_eq] at hr
  rw [hr.1, same_iff hr.2]

theorem early_of {x : Exchange} {early : List (Int × Book)}
    {single : List (Int × List (Int × Int × Int))}
    (h1 : earlyBooksB early x.specialCloses = true)
    (h2 : earlyDatesB single x.specialClosesAdhoc = true) : ClosesEarlyBy x early single := by
  intro d t
  rw [closesEarly_eq, earlyBooks_iff h1]
  refine or_congr_right ?_
  unfold earlyDatesB at h2
  simp only [Bool.and_eq_true, beq_iff_eq] at h2
  refine (zip_iff (R := fun (a : Int × List (Int × Int × Int)) (b : Int × List Int) =>
    a.1 == b.1 && datesB a.2 b.2) (fun a b hr => ?_) h2.1 h2.2).symm
  simp only [Bool.and_eq_true, beq_iff_eq] at hr
  rw [hr.1, onDates_iff hr.2]

/-- The ad-hoc early closes are those for the feasts except the given days. -/
def earlyFeastsB (feasts : List (Int × Feast)) (but : List (Int × Int × Int))
    (adhoc : List (Int × List Int)) : Bool :=
  datesOkB but && (feasts.all fun e => datesOkB e.2.dates) &&
  (let butDays := but.map fun e => dayOf e.1 e.2.1 e.2.2
   (adhoc.all fun p => p.2.all fun d => !butDays.contains d &&
      feasts.any fun e => e.1 == p.1 && e.2.days.contains d) &&
   (feasts.all fun e => e.2.days.all fun d => butDays.contains d ||
      adhoc.any fun p => e.1 == p.1 && p.2.contains d))

theorem earlyFeasts_of {x : Exchange} {early : List (Int × Book)} {feasts : List (Int × Feast)}
    {but : List (Int × Int × Int)} (h1 : earlyBooksB early x.specialCloses = true)
    (h2 : earlyFeastsB feasts but x.specialClosesAdhoc = true) :
    ClosesEarlyForFeasts x early feasts but := by
  intro d t
  rw [closesEarly_eq, earlyBooks_iff h1]
  refine or_congr_right ?_
  unfold earlyFeastsB at h2
  simp only [Bool.and_eq_true, List.all_eq_true, Bool.or_eq_true, List.contains_iff_mem,
    Bool.not_eq_true', List.any_eq_true, beq_iff_eq] at h2
  obtain ⟨⟨ho, hf⟩, ha, hb⟩ := h2
  have hbut : OnDates but d ↔ d ∈ but.map fun e => dayOf e.1 e.2.1 e.2.2 := by
    have := daysOff_iff (feasts := []) ho rfl d
    simp only [daysOff, List.flatMap_nil, List.append_nil, List.not_mem_nil, false_and, exists_false,
      or_false] at this
    exact this.symm
  rw [hbut]
  constructor
  · rintro ⟨p, hp, rfl, hd⟩
    obtain ⟨hn, e, he, het, hed⟩ := ha p hp d hd
    refine ⟨⟨e, he, het, (feast_days (hf e he) d).2 hed⟩, fun hc => ?_⟩
    rw [List.contains_iff_mem.2 hc] at hn
    cases hn
  · rintro ⟨⟨e, he, rfl, hd⟩, hn⟩
    rcases hb e he d ((feast_days (hf e he) d).1 hd) with hc | ⟨p, hp, hpt, hpd⟩
    · exact absurd hc hn
    · exact ⟨p, hp, hpt.symm, hpd⟩

/-! ### Orthodox Easter -/

/-- The dates `dateutil` computes are counted from March 28. -/
theorem monthDay_eq (y p : Int) (h1 : 4 ≤ p) (h2 : p ≤ 57) :
    dayOf y (3 + (p + 26) / 30) (1 + (p + 27 + (p + 6) / 40) % 31) = dayOf y 3 28 + p := by
  have e3 := daysBeforeMonth_succ y (m := 3) (by omega) (by omega)
  have e4 := daysBeforeMonth_succ y (m := 4) (by omega) (by omega)
  have l3 : monthLength y 3 = 31 := by simp [monthLength]
  have l4 : monthLength y 4 = 30 := by simp [monthLength]
  simp only [Int.reduceAdd] at e3 e4
  by_cases h : p ≤ 33
  · have m1 : 3 + (p + 26) / 30 = 4 := by omega
    have m2 : 1 + (p + 27 + (p + 6) / 40) % 31 = p - 3 := by omega
    rw [m1, m2]
    unfold dayOf
    omega
  · have m1 : 3 + (p + 26) / 30 = 5 := by omega
    have m2 : 1 + (p + 27 + (p + 6) / 40) % 31 = p - 33 := by omega
    rw [m1, m2]
    unfold dayOf
    omega

/-- `dateutil` computes Orthodox Easter, in the years for which it claims to. -/
theorem orthodoxEaster_iff (y d : Int) (h1 : 1583 ≤ y) (h2 : y ≤ 4099) :
    OrthodoxEaster y d ↔ d = orthodoxEaster y := by
  have hi0 : 0 ≤ (19 * (y % 19) + 15) % 30 := by omega
  have hi1 : (19 * (y % 19) + 15) % 30 ≤ 29 := by omega
  have he : (if y > 1600 then 10 + y / 100 - 16 - (y / 100 - 16) / 4 else 10) =
      y / 100 - y / 100 / 4 - 2 := by
    split <;> omega
  have hm : orthodoxEaster y = jan1 (y + 1) - 279 + ((19 * (y % 19) + 15) % 30 -
      (y + y / 4 + (19 * (y % 19) + 15) % 30) % 7 + (y / 100 - y / 100 / 4 - 2)) := by
    unfold orthodoxEaster
    simp only [he]
    rw [monthDay_eq y _ (by omega) (by omega), march28]
  have h0 : ∀ u0, DayNumber ⟨1900, 4, 3⟩ u0 ↔ u0 = -25475 := by
    intro u0
    rw [dn (by decide)]
    rw [show dayOf 1900 4 3 = -25475 by decide]
  rw [hm]
  unfold OrthodoxEaster JulianMarch21 jan1
  simp only [weekday_iff, h0, exists_eq_left]
  generalize (19 * (y % 19) + 15) % 30 = i at *
  unfold weekday
  have e1 : y + 1 - 1 = y := by omega
  have e2 : y / 100 / 4 = y / 400 := by omega
  rw [e1, e2]
  generalize y / 400 = q
  generalize y / 100 = c
  generalize y / 4 = f
  constructor
  · rintro ⟨hw, h3, h4⟩
    omega
  · rintro rfl
    exact ⟨by omega, by omega, by omega⟩

/-! ### Holidays among the single closures -/

/-- Like `follows_of`, for an exchange some of whose holidays `O` are among its single closures. -/
theorem follows_split {x : Exchange} {H O : Int → Int → Prop} {closures : List (Int × Int × Int)}
    (hg : rulesB x.regular = true) (hw : x.weekdays = [0, 1, 2, 3, 4])
    (ha : ∀ d, d ∈ x.adhoc ↔ OnDates closures d ∨ ∃ y, O y d)
    (hh : ∀ d, 0 ≤ d → ((∃ r ∈ x.regular, IsHoliday r d) ↔ ∃ y, H y d)) :
    FollowsBook x (fun y d => H y d ∨ O y d) closures := by
  intro z start stop b hb hm d h1 h2 h3 h4
  rw [sessions_iff (rules_of hg) hb hm h1 h2]
  unfold TradesOn
  rw [hw, weekday_mem, ha]
  refine and_congr_right fun _ => ?_
  have := hh d h3
  constructor
  · rintro ⟨ha, h⟩
    refine ⟨fun h => ha (.inl h), ?_⟩
    rintro y (hy | hy)
    · obtain ⟨r, hr, hd⟩ := this.2 ⟨y, hy⟩
      exact h h3 h4 r hr hd
    · exact ha (.inr ⟨y, hy⟩)
  · rintro ⟨hn, h⟩
    refine ⟨?_, fun _ _ r hr hd => ?_⟩
    · rintro (hc | ⟨y, hy⟩)
      · exact hn hc
      · exact h y (.inr hy)
    · obtain ⟨y, hy⟩ := this.1 ⟨r, hr, hd⟩
      exact h y (.inl hy)

/-! ### Cases -/

theorem rules_of_check {x : Exchange} {bad : List Int} (h : x.check bad = true) :
    GoodRules x.regular := by
  unfold Exchange.check at h
  simp only [Bool.and_eq_true] at h
  exact rules_of h.1.1.1.1.2

theorem case_of {x : Exchange} {z : Tz} {first : Int} {bad : List Int}
    (hc : ConstructibleFrom x z first bad) (hx : x.check bad = true) {h o : Int}
    (hh : x.tradesB h = false) (ho : x.tradesB o = true) (hf : first ≤ dayOf 2019 1 1)
    (hr : (dayOf 2019 1 1 ≤ o ∧ o ≤ dayOf 2019 12 31) ∧ dayOf 2019 1 1 ≤ h ∧ h ≤ dayOf 2019 12 31)
    (hb : ∀ d ∈ bad, d < dayOf 2019 1 1 ∨ dayOf 2019 12 31 < d) : HasCase x z h o := by
  have hg := rules_of_check hx
  have mono : ∀ a b : Int, a ≤ b → a * DAY ≤ b * DAY := fun a b h => by simp only [DAY]; omega
  have mono' : ∀ a b : Int, a < b → a * DAY < b * DAY := fun a b h => by simp only [DAY]; omega
  have ho := (tradesB_iff hg o).1 ho
  have hd : DAY ∣ dayOf 2019 1 1 * DAY := Int.dvd_mul_left ..
  obtain ⟨b, hbuild, -⟩ := (hc (dayOf 2019 1 1 * DAY) (dayOf 2019 12 31 * DAY) (mono _ _ hf) hd).succeeds
    (fun d hd => (hb d hd).imp (mono' _ _) (mono' _ _)) ⟨o, mono _ _ hr.1.1, mono _ _ hr.1.2, ho⟩
  refine ⟨b, hbuild, ?_, ?_⟩
  · rw [sessions_iff hg hbuild hd (mono _ _ hr.2.1) (mono _ _ hr.2.2), ← tradesB_iff hg, hh]
    simp
  · exact (sessions_iff hg hbuild hd (mono _ _ hr.1.1) (mono _ _ hr.1.2)).2 ho

end TC
