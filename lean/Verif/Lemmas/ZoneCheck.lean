import Verif.Lemmas.ExchangeCheck

/-!
# A decidable check for `ZoneFits`

The check reads the transition table of a zone once; its soundness covers every day from a given
first day on.
-/

namespace TC
open Spec

/-- The offset in force at `u`, by one pass over the table. -/
def offsetFrom (p : Int) : List (Int × Int) → Int → Int
  | [], _ => p
  | e :: rest, u => if u < e.1 then p else offsetFrom e.2 rest u

theorem offsetFrom_inForce : ∀ (l : List (Int × Int)) (p u : Int),
    l.Pairwise (fun e e' => e.1 + 2 * DAY ≤ e'.1) →
    (∃ before s after, l = before ++ (s, offsetFrom p l u) :: after ∧ s ≤ u ∧
      ∀ e ∈ after, u < e.1) ∨ (offsetFrom p l u = p ∧ ∀ e ∈ l, u < e.1)
  | [], p, u, _ => Or.inr ⟨rfl, by simp⟩
  | e :: rest, p, u, hp => by
    have hD := DAY_pos
    rw [List.pairwise_cons] at hp
    unfold offsetFrom
    by_cases h : u < e.1
    · rw [if_pos h]
      refine Or.inr ⟨rfl, fun e' he' => ?_⟩
      rcases List.mem_cons.1 he' with rfl | he'
      · exact h
      · have := hp.1 e' he'
        omega
    · rw [if_neg h]
      rcases offsetFrom_inForce rest e.2 u hp.2 with ⟨b, s, a, he, hs, ha⟩ | ⟨he, ha⟩
      · refine Or.inl ⟨e :: b, s, a, ?_, hs, ha⟩
        simp only [List.cons_append]
        exact congrArg _ he
      · refine Or.inl ⟨[], e.1, rest, ?_, by omega, ha⟩
        rw [he]; rfl

theorem reads_from {z : Tz} (h : Tame z) (u w : Int) :
    Reads z u w ↔ u + offsetFrom z.base z.trans u = w := by
  have hf : OffsetInForce z u (offsetFrom z.base z.trans u) := by
    rcases offsetFrom_inForce z.trans z.base u h.apart with h | h
    · exact Or.inl h
    · exact Or.inr h
  constructor
  · rintro ⟨o, ho, rfl⟩
    rw [OffsetInForce.unique h ho hf]
  · intro hw
    exact ⟨_, hf, hw⟩

/-- Reading `w` is outside the gap or overlap of every transition. -/
def clearAt (w p : Int) : List (Int × Int) → Prop
  | [] => True
  | e :: rest => ((w < e.1 + p ∧ w < e.1 + e.2) ∨ (e.1 + p ≤ w ∧ e.1 + e.2 ≤ w)) ∧
      clearAt w e.2 rest

theorem offsetFrom_early : ∀ (l : List (Int × Int)) (p u : Int), (∀ e ∈ l, u < e.1) →
    offsetFrom p l u = p
  | [], _, _, _ => rfl
  | e :: rest, p, u, h => by
    unfold offsetFrom
    rw [if_pos (h e (by simp))]

theorem offsetFrom_bound : ∀ (l : List (Int × Int)) (p u : Int), -DAY < p →
    (∀ e ∈ l, -DAY < e.2) → -DAY < offsetFrom p l u
  | [], _, _, hp, _ => hp
  | e :: rest, p, u, hp, h => by
    unfold offsetFrom
    split
    · exact hp
    · exact offsetFrom_bound rest _ _ (h e (by simp)) fun e' he' => h e' (by simp [he'])

theorem clear_unique : ∀ (l : List (Int × Int)) (p w : Int),
    l.Pairwise (fun e e' => e.1 + 2 * DAY ≤ e'.1) → (∀ e ∈ l, -DAY < e.2 ∧ e.2 < DAY) →
    clearAt w p l → ∃ u, u + offsetFrom p l u = w ∧ ∀ u', u' + offsetFrom p l u' = w → u' = u
  | [], p, w, _, _, _ => ⟨w - p, by simp only [offsetFrom]; omega, fun u' h => by
      simp only [offsetFrom] at h; omega⟩
  | e :: rest, p, w, hp, hb, hc => by
    have hD := DAY_pos
    rw [List.pairwise_cons] at hp
    obtain ⟨hw, hc⟩ := hc
    have hb' : ∀ e ∈ rest, -DAY < e.2 ∧ e.2 < DAY := fun e' he' => hb e' (by simp [he'])
    have he := hb e (by simp)
    rcases hw with ⟨h1, h2⟩ | ⟨h1, h2⟩
    · refine ⟨w - p, ?_, fun u' hu' => ?_⟩
      · unfold offsetFrom
        rw [if_pos (by omega)]
        omega
      · unfold offsetFrom at hu'
        by_cases h : u' < e.1
        · rw [if_pos h] at hu'; omega
        · rw [if_neg h] at hu'
          exfalso
          cases rest with
          | nil => simp only [offsetFrom] at hu'; omega
          | cons f rest' =>
            by_cases hf : u' < f.1
            · unfold offsetFrom at hu'
              rw [if_pos hf] at hu'
              omega
            · have h3 := hp.1 f (by simp)
              have h4 := offsetFrom_bound (f :: rest') e.2 u' he.1 fun e' he' => (hb' e' he').1
              omega
    · obtain ⟨u, hu, huu⟩ := clear_unique rest e.2 w hp.2 hb' hc
      have hlate : ∀ v, v < e.1 → offsetFrom e.2 rest v = e.2 := fun v hv =>
        offsetFrom_early rest e.2 v fun e' he' => by have := hp.1 e' he'; omega
      have hue : ¬ u < e.1 := fun h => by
        rw [hlate u h] at hu; omega
      refine ⟨u, ?_, fun u' hu' => ?_⟩
      · unfold offsetFrom
        rw [if_neg hue]
        exact hu
      · unfold offsetFrom at hu'
        by_cases h : u' < e.1
        · rw [if_pos h] at hu'; omega
        · rw [if_neg h] at hu'
          exact huu u' hu'

theorem clear_only {z : Tz} (h : Tame z) {w : Int} (hc : clearAt w z.base z.trans) :
    ∃ u, OnlyInstant z w u := by
  obtain ⟨u, hu, huu⟩ := clear_unique z.trans z.base w h.apart h.offsets hc
  exact ⟨u, (reads_from h u w).2 hu, fun u' hu' => huu u' ((reads_from h u' w).1 hu')⟩

/-- The gap or overlap from `a` to `b` is empty, ends before 8:00 of day `first`, or misses the daytime. -/
def nightB (first a b : Int) : Bool :=
  decide (b ≤ a) || decide (b ≤ first * DAY + hm 8 0) ||
    decide (((b - 1 - hm 8 0) / DAY) * DAY + hm 21 0 < a)

theorem nightB_sound {first a b : Int} (h : nightB first a b = true) {d t : Int} (hd : first ≤ d)
    (h1 : hm 8 0 ≤ t) (h2 : t ≤ hm 21 0) : d * DAY + t < a ∨ b ≤ d * DAY + t := by
  unfold nightB at h
  simp only [Bool.or_eq_true, decide_eq_true_eq] at h
  have e1 : hm 8 0 = 28800000000000 := by decide
  have e2 : hm 21 0 = 75600000000000 := by decide
  simp only [DAY, e1, e2] at *
  omega

def clearFromB (first p : Int) : List (Int × Int) → Bool
  | [] => true
  | e :: rest => nightB first (e.1 + min p e.2) (e.1 + max p e.2) && clearFromB first e.2 rest

theorem clearFromB_sound {first d t : Int} (hd : first ≤ d) (h1 : hm 8 0 ≤ t) (h2 : t ≤ hm 21 0) :
    ∀ (l : List (Int × Int)) (p : Int), clearFromB first p l = true → clearAt (d * DAY + t) p l
  | [], _, _ => trivial
  | e :: rest, p, h => by
    unfold clearFromB at h
    rw [Bool.and_eq_true] at h
    refine ⟨?_, clearFromB_sound hd h1 h2 rest _ h.2⟩
    have := nightB_sound h.1 hd h1 h2
    omega

/-- Consecutive transitions are two days apart. -/
def chainB : List (Int × Int) → Bool
  | a :: b :: rest => decide (a.1 + 2 * DAY ≤ b.1) && chainB (b :: rest)
  | _ => true

theorem chainB_sound : ∀ (l : List (Int × Int)), chainB l = true →
    l.Pairwise (fun e e' => e.1 + 2 * DAY ≤ e'.1)
  | [], _ => .nil
  | [a], _ => by simp
  | a :: b :: rest, h => by
    have hD := DAY_pos
    simp only [chainB, Bool.and_eq_true, decide_eq_true_eq] at h
    have ih := chainB_sound (b :: rest) h.2
    rw [List.pairwise_cons]
    refine ⟨fun e he => ?_, ih⟩
    rw [List.pairwise_cons] at ih
    rcases List.mem_cons.1 he with rfl | he
    · exact h.1
    · have := ih.1 e he
      omega

def zoneB (z : Tz) (first : Int) : Bool :=
  decide (-DAY < z.base) && decide (z.base < DAY) &&
  z.trans.all (fun e => decide (-DAY < e.2) && decide (e.2 < DAY)) && chainB z.trans &&
  clearFromB first z.base z.trans

/-- Zone `z` is well-behaved, and clear in daytime from day `first` on. -/
structure ClearFrom (z : Tz) (first : Int) : Prop where
  tame : Tame z
  clear : ∀ d, first ≤ d → DaytimeClear z d

theorem clearFrom_of {z : Tz} {first : Int} (h : zoneB z first = true) : ClearFrom z first := by
  unfold zoneB at h
  simp only [Bool.and_eq_true, List.all_eq_true, decide_eq_true_eq] at h
  have ht : Tame z := ⟨h.1.1.1, h.1.1.2, chainB_sound _ h.1.2⟩
  exact ⟨ht, fun d hd t h1 h2 => clear_only ht (clearFromB_sound hd h1 h2 _ _ h.2)⟩

/-- The ad-hoc special closes lie after `first`, and on the same day in UTC. -/
def adhocB (x : Exchange) (z : Tz) (first : Int) : Bool :=
  x.specialClosesAdhoc.all fun e => e.2.all fun d => decide (first ≤ d) &&
    match z.localize (d * DAY + e.1) with
    | .ok u => decide (d * DAY ≤ u) && decide (u < d * DAY + DAY)
    | .error _ => false

theorem zoneFits_of {x : Exchange} {z : Tz} {first start stop : Int} (hc : ClearFrom z first)
    (ha : adhocB x z first = true) (hs : (first + 1) * DAY ≤ start) : ZoneFits x z start stop := by
  unfold adhocB at ha
  simp only [List.all_eq_true, Bool.and_eq_true, decide_eq_true_eq] at ha
  refine ⟨hc.tame, fun d h _ => hc.clear d ?_, fun e he d hd => hc.clear d (ha e he d hd).1,
    fun e he d hd u hu => ?_⟩
  · simp only [DAY] at *; omega
  · have h := (ha e he d hd).2
    rw [(localize_ok_iff hc.tame _ _).2 hu] at h
    simp only [Bool.and_eq_true, decide_eq_true_eq] at h
    exact h

theorem constructibleFrom_of {x : Exchange} {bad : List Int} (h : Constructible x bad) {z : Tz}
    {first : Int} (hc : ClearFrom z first) (ha : adhocB x z first = true)
    (hlow : NP_NAT + 3 * DAY ≤ (first + 1) * DAY) : ConstructibleFrom x z (first + 1) bad :=
  fun start stop hs hmid =>
    h z start stop (zoneFits_of hc ha hs) hmid (Int.le_trans hlow hs)

end TC
