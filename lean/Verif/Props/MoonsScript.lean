import Verif.Spec.Moons
import Verif.Props.Lunisolar
import Verif.Props.Moons

/-!
# C90: the tables of 2034 are not what the script computes
-/

namespace TC.Props
open Spec Spec.Lunisolar TC.Lunisolar

theorem kthAfter_ge {kept : Nat → Prop} : ∀ {n j i : Nat}, KthAfter kept n j i → j + n ≤ i
  | 0, _, _, h => by cases h; omega
  | n + 1, j, i, ⟨i', h1, _, _, h⟩ => by have := kthAfter_ge h; omega

theorem nat_sorted_ext {xs ys : List Nat} (hx : xs.Pairwise (· < ·)) (hy : ys.Pairwise (· < ·))
    (h : ∀ j, j ∈ xs ↔ j ∈ ys) : xs = ys := by
  have e : xs.map Int.ofNat = ys.map Int.ofNat := by
    refine sorted_ext (List.pairwise_map.2 (hx.imp fun h => Int.ofNat_lt.2 h))
      (List.pairwise_map.2 (hy.imp fun h => Int.ofNat_lt.2 h)) fun a => ?_
    simp only [List.mem_map, h]
  have := congrArg (List.map Int.toNat) e
  simpa [List.map_map, Function.comp_def] using this

theorem spaced_moons {nm : List Int} (hs : ∀ (i : Nat) a b, nm[i]? = some a → nm[i + 1]? = some b →
    ∀ x y, DateInChina a x → DateInChina b y → x + 29 ≤ y) {j : Nat} {u x : Int} (hj : nm[j]? = some u)
    (hx : DateInChina u x) : ∀ (k : Nat) (v y : Int), nm[j + k]? = some v → DateInChina v y → x + 29 * k ≤ y := by
  intro k
  induction k with
  | zero =>
    intro v y hv hy
    rw [Nat.add_zero, hj] at hv
    cases hv
    rw [dateInChina_iff] at hx hy
    omega
  | succ k ih =>
    intro v y hv hy
    obtain ⟨w, hw⟩ : ∃ w, nm[j + k]? = some w := by
      obtain ⟨h, -⟩ := List.getElem?_eq_some_iff.1 hv
      exact ⟨_, List.getElem?_eq_getElem (by omega)⟩
    have h1 := ih w _ hw ((dateInChina_iff _ _).2 rfl)
    have h2 := hs (j + k) w v hw hv _ y ((dateInChina_iff _ _).2 rfl) hy
    omega

/-- C90: for any usable data with new moons at least 29 days apart, the day the script computes for month `n + 1` is in
a month that begins at least `n` times 29 days after the new year it computes. -/
theorem c90_script {nm ss zs : List Int} (h : Usable nm ss zs)
    (hs : ∀ (i : Nat) a b, nm[i]? = some a → nm[i + 1]? = some b →
      ∀ x y, DateInChina a x → DateInChina b y → x + 29 ≤ y)
    {n : Nat} {day : Int} {ny dates : List Int} (hy : calculateNewYear nm ss zs = .ok ny)
    (hd : nthDayOfNthMonth nm ss zs (n + 1) day = .ok dates) :
    ny.length = dates.length ∧
    ∀ {k : Nat} {u x d : Int}, ny[k]? = some u → DateInChina u x → dates[k]? = some d →
      x + 29 * n ≤ d - (day - 1) := by
  obtain ⟨js, s1, s2, h3⟩ := c65_nth_day h n day
  have ej : js = yearMonths nm ss zs := nat_sorted_ext s1 (yearMonths_sorted h) fun j => by rw [s2, mem_yearMonths h]
  rw [calculateNewYear_years h, ← ej] at hy
  cases hy
  rcases h3 with ⟨-, ds, e, hl, hall⟩ | ⟨-, e⟩
  · rw [e] at hd
    cases hd
    refine ⟨by simp [hl], fun {k u x d} hu hx hk => ?_⟩
    rw [List.getElem?_map] at hu
    obtain ⟨j, hj, rfl⟩ := Option.map_eq_some_iff.1 hu
    obtain ⟨i, m, ha, hm, hdate⟩ := hall k j d hj hk
    have hge := kthAfter_ge ha
    obtain ⟨hi, -⟩ := List.getElem?_eq_some_iff.1 hm
    have hju : nm[j]? = some (nm.getD j 0) := by
      rw [List.getElem?_eq_getElem (by omega), getD_at (by omega)]
    have h4 := spaced_moons hs hju hx (i - j) m _ (by rw [show j + (i - j) = i by omega]; exact hm) hdate
    have h5 : 29 * (n : Int) ≤ 29 * ((i - j : Nat) : Int) := by omega
    omega
  · rw [e] at hd
    cases hd

/-- C90: so no such data give the script the dates the tables have for 2034: with the new year of the table none of the
four later festivals is where the table has it. -/
theorem c90_not_the_script {nm ss zs : List Int} (h : Usable nm ss zs)
    (hs : ∀ (i : Nat) a b, nm[i]? = some a → nm[i + 1]? = some b →
      ∀ x y, DateInChina a x → DateInChina b y → x + 29 ≤ y)
    {ny dates : List Int} (hy : calculateNewYear nm ss zs = .ok ny) {f : List Int × Nat × Int}
    (hf : f ∈ chineseFestivals) (hne : f.2.1 ≠ 1)
    (hd : nthDayOfNthMonth nm ss zs f.2.1 f.2.2 = .ok dates) {k : Nat} {u x d e : Int}
    (hk : ny[k]? = some u) (hx : DateInChina u x) (hk' : dates[k]? = some e)
    (h1 : EntryOf LunisolarHolidays.chineseLunarNewYearDates 2034 x) (h2 : EntryOf f.1 2034 d) : e ≠ d := by
  rintro rfl
  obtain ⟨e1, e2, e3, e4, e5⟩ := chinese_2034
  obtain rfl := e1.2.2 x h1.1 h1.2.1
  simp only [chineseFestivals, List.mem_cons, List.not_mem_nil, or_false] at hf
  rcases hf with rfl | rfl | rfl | rfl | rfl
  · exact absurd rfl hne
  · obtain rfl := e2.2.2 e h2.1 h2.2.1
    exact absurd ((c90_script h hs (n := 3) hy hd).2 hk hx hk') (by decide)
  · obtain rfl := e3.2.2 e h2.1 h2.2.1
    exact absurd ((c90_script h hs (n := 4) hy hd).2 hk hx hk') (by decide)
  · obtain rfl := e4.2.2 e h2.1 h2.2.1
    exact absurd ((c90_script h hs (n := 7) hy hd).2 hk hx hk') (by decide)
  · obtain rfl := e5.2.2 e h2.1 h2.2.1
    exact absurd ((c90_script h hs (n := 8) hy hd).2 hk hx hk') (by decide)

/-! ### The case: new moons, solstices and zhongqi of 2033 and 2034 (to a few minutes) -/

/-- An instant by its date and time in UTC. -/
def instant (y m d h n : Int) : Int := dayOf y m d * DAY + (60 * h + n) * MINUTE

def moons2034 : List Int :=
  [instant 2033 11 22 1 39, instant 2033 12 21 18 46, instant 2034 1 20 10 1, instant 2034 2 18 23 10,
   instant 2034 3 20 10 14, instant 2034 4 18 19 26, instant 2034 5 18 3 12, instant 2034 6 16 10 26,
   instant 2034 7 15 18 15, instant 2034 8 14 3 53, instant 2034 9 12 16 13, instant 2034 10 12 7 32,
   instant 2034 11 11 1 16, instant 2034 12 10 20 14, instant 2035 1 9 15 2]

def solstices2034 : List Int := [instant 2033 12 21 13 45, instant 2034 12 21 19 33]

def zhongqi2034 : List Int :=
  [instant 2033 11 22 0 15, instant 2033 12 21 13 45, instant 2034 1 20 0 27, instant 2034 2 18 14 30,
   instant 2034 3 20 13 17, instant 2034 4 20 0 3, instant 2034 5 20 22 56, instant 2034 6 21 6 44,
   instant 2034 7 22 17 36, instant 2034 8 23 0 47, instant 2034 9 22 22 39, instant 2034 10 23 8 16,
   instant 2034 11 22 6 4, instant 2034 12 21 19 33]

theorem usable2034 : Usable moons2034 solstices2034 zhongqi2034 := usable_of (by decide +kernel)

theorem spaced2034 : ∀ (i : Nat) a b, moons2034[i]? = some a → moons2034[i + 1]? = some b →
    ∀ x y, DateInChina a x → DateInChina b y → x + 29 ≤ y := by
  intro i a b ha hb x y hx hy
  rw [dateInChina_iff] at hx hy
  subst hx hy
  have hc : ((moons2034.zip (moons2034.drop 1)).all fun p => decide (chineseDate p.1 + 29 ≤ chineseDate p.2)) = true := by
    decide +kernel
  have hm : (a, b) ∈ moons2034.zip (moons2034.drop 1) := by
    refine List.mem_of_getElem? (i := i) ?_
    rw [List.getElem?_zip_eq_some, List.getElem?_drop, Nat.add_comm 1 i]
    exact ⟨ha, hb⟩
  exact of_decide_eq_true (List.all_eq_true.1 hc _ hm)

/-- Hypotheses met by the sky of that year: the new year is the one of the table, and the script puts the festivals a
month later than the tables. -/
example : calculateNewYear moons2034 solstices2034 zhongqi2034 = .ok [instant 2034 2 18 23 10] ∧
    chineseDate (instant 2034 2 18 23 10) = dayOf 2034 2 19 ∧
    nthDayOfNthMonth moons2034 solstices2034 zhongqi2034 4 8 = .ok [dayOf 2034 5 25] ∧
    nthDayOfNthMonth moons2034 solstices2034 zhongqi2034 5 5 = .ok [dayOf 2034 6 20] ∧
    nthDayOfNthMonth moons2034 solstices2034 zhongqi2034 8 15 = .ok [dayOf 2034 9 27] ∧
    nthDayOfNthMonth moons2034 solstices2034 zhongqi2034 9 9 = .ok [dayOf 2034 10 20] := by
  decide +kernel

end TC.Props
