import Verif.Model.Lunisolar
import Verif.Spec.Lunisolar
import Verif.Lemmas.ZonesClear
import Verif.Lemmas.Ranges
import Verif.Lemmas.Build

/-! # Lemmas for the months of the Chinese calendar -/

namespace TC.Lunisolar
open Spec Spec.Lunisolar Classical

/-! ### Dates -/

theorem dateInChina_iff (u d : Int) : DateInChina u d ↔ chineseDate u = d := by
  have hz := clear_asiaShanghai.tame
  unfold DateInChina chineseDate
  constructor
  · rintro ⟨w, hw, h1, h2⟩
    have := (reads_iff hz _ _).mp hw
    simp only [DAY] at *; omega
  · intro h
    refine ⟨_, (reads_iff hz _ _).mpr rfl, ?_, ?_⟩ <;> (simp only [DAY] at *; omega)

theorem notLater_iff (a b : Int) : NotLater a b ↔ chineseDate a ≤ chineseDate b := by
  unfold NotLater
  constructor
  · rintro ⟨d, e, h1, h2, h⟩
    rw [dateInChina_iff] at h1 h2; omega
  · intro h
    exact ⟨_, _, (dateInChina_iff _ _).mpr rfl, (dateInChina_iff _ _).mpr rfl, h⟩

/-! ### The loop -/

/-- Position `i` is strictly between two neighbouring positions of `S` that are twelve apart. -/
def In12 (S : List Nat) (i : Nat) : Prop :=
  ∃ a, a < i ∧ i < a + 12 ∧ a ∈ S ∧ a + 12 ∈ S ∧ ∀ k, a < k → k < a + 12 → k ∉ S

/-- The leap rule for positions: `P` are those without zhongqi. -/
def LeapAt (S : List Nat) (P : Nat → Prop) (i : Nat) : Prop :=
  P i ∧ ¬ In12 S i ∧ ∀ k, k < i → P k → ∃ s, k < s ∧ s ≤ i ∧ s ∈ S

/-- The first position of `P` after the last one of `S` decides whether a leap month was seen. -/
theorem seen_iff {S : List Nat} {P : Nat → Prop} {i : Nat} (hi : i ∉ S) (h12 : ¬ In12 S i) :
    (∃ k, k < i ∧ LeapAt S P k ∧ ∀ s ∈ S, k < s → i ≤ s) ↔
      ¬ ∀ k, k < i → P k → ∃ s, k < s ∧ s ≤ i ∧ s ∈ S := by
  constructor
  · rintro ⟨k, hk, hl, hs⟩ h
    obtain ⟨s, h1, h2, h3⟩ := h k hk hl.1
    have := hs s h3 h1
    have : s = i := by omega
    exact hi (this ▸ h3)
  · intro h
    have key : ∀ k, k < i → P k → (¬ ∃ s, k < s ∧ s ≤ i ∧ s ∈ S) →
        ∃ k, k < i ∧ LeapAt S P k ∧ ∀ s ∈ S, k < s → i ≤ s := by
      intro k
      induction k using Nat.strongRecOn with
      | _ k ih =>
        intro hk hp hn
        by_cases hf : ∀ k', k' < k → P k' → ∃ s, k' < s ∧ s ≤ k ∧ s ∈ S
        · refine ⟨k, hk, ⟨hp, ?_, hf⟩, fun s hs hks => ?_⟩
          · rintro ⟨a, h1, h2, h3, h4, h5⟩
            refine h12 ⟨a, by omega, ?_, h3, h4, h5⟩
            by_cases hh : i < a + 12
            · exact hh
            · exact absurd ⟨a + 12, h2, by omega, h4⟩ hn
          · by_cases hh : i ≤ s
            · exact hh
            · exact absurd ⟨s, hks, by omega, hs⟩ hn
        · have hf' : ∃ k', k' < k ∧ P k' ∧ ¬ ∃ s, k' < s ∧ s ≤ k ∧ s ∈ S := by
            apply Classical.byContradiction
            intro hc
            apply hf
            intro k' h1 h2
            apply Classical.byContradiction
            intro h3
            exact hc ⟨k', h1, h2, h3⟩
          obtain ⟨k', h1, h2, h3⟩ := hf'
          refine ih k' h1 (by omega) h2 ?_
          rintro ⟨s, h4, h5, h6⟩
          by_cases hh : s ≤ k
          · exact h3 ⟨s, h4, hh, h6⟩
          · exact hn ⟨s, by omega, h5, h6⟩
    apply Classical.byContradiction
    intro hc
    apply h
    intro k hk hp
    apply Classical.byContradiction
    intro hn
    exact hc (key k hk hp hn)

/-- Where the loop stands among the solstice months before round `i`. -/
def Place (pr : Nat → Int × Int) (S : List Nat) (i : Nat) (st : Loop) : Prop :=
  ∃ D R : List Nat, S = D ++ R ∧ (∀ s ∈ D, s < i) ∧ (∀ s ∈ R, i ≤ s) ∧
    ((∃ (s : Nat) (R' : List Nat), R = s :: R' ∧ st.next = pr s ∧ st.rest = R'.map pr ∧
        ((D = [] ∧ st.prev = (s : Int) - 13) ∨ ∃ (D' : List Nat) (a : Nat), D = D' ++ [a] ∧ st.prev = (a : Int))) ∨
      (R = [] ∧ ∃ (D' : List Nat) (a : Nat), D = D' ++ [a] ∧ st.next = pr a ∧ st.rest = [] ∧ st.prev = (a : Int)))

structure Inv (val : Nat → Int) (S : List Nat) (P : Nat → Prop) (i : Nat) (st : Loop) : Prop where
  out : st.out = ((List.range i).filter fun k => decide (¬ LeapAt S P k)).map val
  seen : st.seen = true ↔ ∃ k, k < i ∧ LeapAt S P k ∧ ∀ s ∈ S, k < s → i ≤ s
  place : Place (fun j => ((j : Int), val j)) S i st

theorem inv_step {val : Nat → Int} {S : List Nat} {P : Nat → Prop} {i n : Nat} {st : Loop}
    {possible : Int → Bool} (hS : S.Pairwise (· < ·)) (hn : ∀ s ∈ S, s < n) (hi : i < n)
    (inj : ∀ a b, a < n → b < n → val a = val b → a = b)
    (hp : possible (val i) = true ↔ P i) (hs : ∀ s ∈ S, ¬ P s) (h : Inv val S P i st) :
    Inv val S P (i + 1) (st.step possible (val i)) := by
  obtain ⟨D, R, rfl, hD, hR, hpl⟩ := h.place
  have hSD := List.pairwise_append.mp hS
  -- the position is a solstice month exactly if it is the next one
  have hmem : i ∈ D ++ R ↔ val i = st.next.2 := by
    rcases hpl with ⟨s, R', rfl, hnx, _, _⟩ | ⟨rfl, D', a, rfl, hnx, _, _⟩
    · rw [hnx]
      constructor
      · intro hm
        rcases List.mem_append.mp hm with hm | hm
        · exact absurd (hD _ hm) (by omega)
        · rcases List.mem_cons.mp hm with rfl | hm
          · rfl
          · have h1 := (List.pairwise_cons.mp hSD.2.1).1 i hm
            have h2 := hR s (by simp)
            omega
      · intro hv
        have := inj i s hi (hn s (by simp)) hv
        subst this; simp
    · rw [hnx]
      constructor
      · intro hm
        have := hD i (by simpa using hm)
        omega
      · intro hv
        have := inj i a hi (hn a (by simp)) hv
        subst this; simp
  have hskip : (possible (val i) && !(if val i = st.next.2 then false else st.seen) &&
      decide (st.next.1 - st.prev ≠ 12)) = decide (LeapAt (D ++ R) P i) := by
    by_cases hm : i ∈ D ++ R
    · have h1 : possible (val i) = false := by
        have := hs i hm
        cases hq : possible (val i)
        · rfl
        · exact absurd (hp.mp hq) this
      have h2 : ¬ LeapAt (D ++ R) P i := fun hl => hs i hm hl.1
      simp [h1, h2]
    · have hv : ¬ val i = st.next.2 := fun hv => hm (hmem.mpr hv)
      have hd : st.next.1 - st.prev = 12 ↔ In12 (D ++ R) i := by
        rcases hpl with ⟨s, R', rfl, hnx, _, hpv⟩ | ⟨rfl, D', a, rfl, hnx, _, hpv⟩
        · have hsi : i < s := by
            have h2 := hR s (by simp)
            have : i ≠ s := fun he => hm (by subst he; simp)
            omega
          have hafter : ∀ t ∈ D ++ s :: R', i < t → s ≤ t := by
            intro t ht hit
            rcases List.mem_append.mp ht with ht | ht
            · exact absurd (hD t ht) (by omega)
            · rcases List.mem_cons.mp ht with rfl | ht
              · omega
              · have := (List.pairwise_cons.mp hSD.2.1).1 t ht; omega
          rcases hpv with ⟨rfl, hpv⟩ | ⟨D', a, rfl, hpv⟩
          · rw [hnx, hpv]
            constructor
            · intro hh; simp only at hh; omega
            · rintro ⟨a, h1, h2, h3, h4, h5⟩
              have := hR a (by simpa using h3)
              omega
          · have hai : a < i := hD a (by simp)
            have hbefore : ∀ t ∈ (D' ++ [a]) ++ s :: R', t < i → t ≤ a := by
              intro t ht hti
              rcases List.mem_append.mp ht with ht | ht
              · rcases List.mem_append.mp ht with ht | ht
                · have := (List.pairwise_append.mp hSD.1).2.2 t ht a (by simp); omega
                · simp at ht; omega
              · exact absurd (hR t ht) (by omega)
            rw [hnx, hpv]
            constructor
            · intro hh
              simp only at hh
              have hsa : s = a + 12 := by omega
              refine ⟨a, hai, by omega, by simp, by rw [← hsa]; simp, fun k h1 h2 hk => ?_⟩
              rcases Nat.lt_trichotomy k i with h3 | h3 | h3
              · have := hbefore k hk h3; omega
              · exact hm (h3 ▸ hk)
              · have := hafter k hk h3; omega
            · rintro ⟨b, h1, h2, h3, h4, h5⟩
              have e1 := hbefore b h3 h1
              have e2 := hafter (b + 12) h4 h2
              have e3 : a ≤ b := by
                by_cases hh : a ≤ b
                · exact hh
                · exact absurd (by simp) (h5 a (by omega) (by omega))
              have e4 : b + 12 ≤ s := by
                by_cases hh : b + 12 ≤ s
                · exact hh
                · exact absurd (by simp) (h5 s (by omega) (by omega))
              simp only; omega
        · rw [hnx, hpv]
          constructor
          · intro hh; simp only at hh; omega
          · rintro ⟨b, h1, h2, h3, h4, h5⟩
            have := hD (b + 12) (by simpa using h4)
            omega
      rw [if_neg hv, Bool.eq_iff_iff]
      simp only [Bool.and_eq_true, decide_eq_true_eq, Bool.not_eq_true', ← Bool.not_eq_true, hp, h.seen, ne_eq, hd]
      by_cases h12 : In12 (D ++ R) i
      · simp [h12, LeapAt]
      · rw [seen_iff hm h12]
        simp only [LeapAt, h12, not_false_eq_true, and_true, true_and, Classical.not_not]
  refine ⟨?_, ?_, ?_⟩
  · show (if _ then st.out else st.out ++ [val i]) = _
    rw [hskip, h.out, List.range_succ, List.filter_append, List.map_append]
    by_cases hl : LeapAt (D ++ R) P i <;> simp [hl]
  · show (if _ then true else _) = true ↔ _
    rw [hskip]
    by_cases hl : LeapAt (D ++ R) P i
    · simp only [hl, decide_true, if_true, true_iff]
      exact ⟨i, by omega, hl, fun s _ h => h⟩
    · simp only [hl, decide_false, Bool.false_eq_true, if_false]
      by_cases hm : i ∈ D ++ R
      · rw [if_pos (hmem.mp hm)]
        simp only [Bool.false_eq_true, false_iff]
        rintro ⟨k, h1, h2, h3⟩
        rcases Nat.lt_or_eq_of_le (Nat.le_of_lt_succ h1) with h4 | rfl
        · have := h3 i hm h4; omega
        · exact hl h2
      · rw [if_neg (fun hv => hm (hmem.mpr hv)), h.seen]
        constructor
        · rintro ⟨k, h1, h2, h3⟩
          refine ⟨k, by omega, h2, fun s h4 h5 => ?_⟩
          have := h3 s h4 h5
          have : s ≠ i := fun he => hm (he ▸ h4)
          omega
        · rintro ⟨k, h1, h2, h3⟩
          rcases Nat.lt_or_eq_of_le (Nat.le_of_lt_succ h1) with h4 | rfl
          · exact ⟨k, h4, h2, fun s h5 h6 => by have := h3 s h5 h6; omega⟩
          · exact absurd h2 hl
  · by_cases hm : i ∈ D ++ R
    · have hv := hmem.mp hm
      rcases hpl with ⟨s, R', rfl, hnx, hrs, hpv⟩ | ⟨rfl, D', a, rfl, hnx, hrs, hpv⟩
      · have his : i = s := inj i s hi (hn s (by simp)) (by rw [hv, hnx])
        subst his
        have hlt := (List.pairwise_cons.mp hSD.2.1).1
        refine ⟨D ++ [i], R', by simp, ?_, fun t ht => hlt t ht, ?_⟩
        · intro t ht
          rcases List.mem_append.mp ht with ht | ht
          · have := hD t ht; omega
          · simp at ht; omega
        · cases R' with
          | nil =>
            refine Or.inr ⟨rfl, D, i, rfl, ?_, ?_, ?_⟩ <;> simp [Loop.step, hrs, hnx]
          | cons t R'' =>
            refine Or.inl ⟨t, R'', rfl, ?_, ?_, Or.inr ⟨D, i, rfl, ?_⟩⟩ <;> simp [Loop.step, hrs, hnx]
      · have := hD i (by simpa using hm); omega
    · have hv : ¬ val i = st.next.2 := fun hv => hm (hmem.mpr hv)
      refine ⟨D, R, rfl, fun t ht => by have := hD t ht; omega, fun t ht => ?_, ?_⟩
      · have h1 := hR t ht
        have : t ≠ i := fun he => hm (by subst he; simp [ht])
        omega
      · simpa [Loop.step, hv] using hpl

/-! ### The month of an event -/

theorem inMonth_iff {nm : List Int} {e : Int} {i : Nat} : InMonth nm e i ↔
    (∃ h : i < nm.length, chineseDate nm[i] ≤ chineseDate e) ∧
      ∀ j (h : j < nm.length), i < j → chineseDate e < chineseDate nm[j] := by
  unfold InMonth
  simp only [notLater_iff, Int.not_le]
  constructor
  · rintro ⟨⟨m, h1, h2⟩, h3⟩
    obtain ⟨h, rfl⟩ := List.getElem?_eq_some_iff.mp h1
    exact ⟨⟨h, h2⟩, fun j hj hij => h3 j _ hij (List.getElem?_eq_getElem hj)⟩
  · rintro ⟨⟨h, h2⟩, h3⟩
    refine ⟨⟨_, List.getElem?_eq_getElem h, h2⟩, fun j m hij hm => ?_⟩
    obtain ⟨hj, rfl⟩ := List.getElem?_eq_some_iff.mp hm
    exact h3 j hj hij

theorem inMonth_unique {nm : List Int} {e : Int} {i j : Nat} (h1 : InMonth nm e i) (h2 : InMonth nm e j) :
    i = j := by
  rw [inMonth_iff] at h1 h2
  obtain ⟨⟨a1, b1⟩, c1⟩ := h1
  obtain ⟨⟨a2, b2⟩, c2⟩ := h2
  rcases Nat.lt_trichotomy i j with h | h | h
  · have := c1 j a2 h; omega
  · exact h
  · have := c2 i a1 h; omega

theorem monthIndex_of {nm : List Int} {e : Int}
    (hm : nm.Pairwise fun a b => chineseDate a < chineseDate b)
    (hc : ∃ m, nm.head? = some m ∧ chineseDate m ≤ chineseDate e) :
    ∃ i, i < nm.length ∧ InMonth nm e i ∧
      ((monthIndex nm e = .ok (i : Int)) ∨
        (monthIndex nm e = .ok (-1) ∧ i + 1 = nm.length ∧ ∀ m ∈ nm, chineseDate m ≤ chineseDate e)) := by
  obtain ⟨m0, hh, h0⟩ := hc
  have hpos : 0 < nm.length := by
    cases nm with
    | nil => simp at hh
    | cons a l => simp
  have h0' : chineseDate nm[0] ≤ chineseDate e := by
    rw [List.head?_eq_getElem?, List.getElem?_eq_getElem hpos] at hh
    cases hh; exact h0
  have hne : nm.map (fun m => decide (chineseDate e < chineseDate m)) ≠ [] := by
    intro h; rw [List.map_eq_nil_iff] at h; subst h; simp at hpos
  have hlt := List.pairwise_iff_getElem.mp hm
  cases hf : (nm.map fun m => decide (chineseDate e < chineseDate m)).findIdx? id with
  | none =>
    have hall : ∀ m ∈ nm, chineseDate m ≤ chineseDate e := by
      intro m hmm
      have := List.findIdx?_eq_none_iff.mp hf (decide (chineseDate e < chineseDate m))
        (List.mem_map.mpr ⟨m, hmm, rfl⟩)
      simpa using this
    refine ⟨nm.length - 1, by omega, inMonth_iff.mpr ⟨⟨by omega, hall _ (List.getElem_mem _)⟩,
      fun j hj h => by omega⟩, Or.inr ⟨?_, by omega, hall⟩⟩
    simp only [monthIndex, argmax, if_neg hne, hf]
    rfl
  | some k =>
    obtain ⟨hk, hk1, hk2⟩ := List.findIdx?_eq_some_iff_getElem.mp hf
    simp only [List.length_map] at hk
    simp only [List.getElem_map, id, decide_eq_true_eq] at hk1 hk2
    have hk0 : k ≠ 0 := by
      rintro rfl; omega
    refine ⟨k - 1, by omega, inMonth_iff.mpr ⟨⟨by omega, ?_⟩, fun j hj h => ?_⟩, Or.inl ?_⟩
    · have := hk2 (k - 1) (by omega); omega
    · rcases Nat.lt_or_eq_of_le (show k ≤ j by omega) with h | rfl
      · have := hlt k j hk hj h; omega
      · exact hk1
    · simp only [monthIndex, argmax, if_neg hne, hf]
      show Except.ok _ = _
      congr 1
      simp only [Option.getD_some]; omega

/-! ### The whole function -/

/-- The position of the month of an event. -/
noncomputable def pos (nm : List Int) (e : Int) : Nat := if h : ∃ i, InMonth nm e i then choose h else 0

theorem pos_of {nm : List Int} {e : Int} {i : Nat} (h : InMonth nm e i) : pos nm e = i := by
  have hx : ∃ i, InMonth nm e i := ⟨i, h⟩
  unfold pos
  rw [dif_pos hx]
  exact inMonth_unique (choose_spec hx) h

theorem inv_foldl {val : Nat → Int} {S : List Nat} {P : Nat → Prop} {possible : Int → Bool} {nm : List Int}
    {st : Loop} (hval : ∀ i (h : i < nm.length), nm[i] = val i) (hS : S.Pairwise (· < ·))
    (hn : ∀ s ∈ S, s < nm.length) (inj : ∀ a b, a < nm.length → b < nm.length → val a = val b → a = b)
    (hp : ∀ i, i < nm.length → (possible (val i) = true ↔ P i)) (hs : ∀ s ∈ S, ¬ P s)
    (h0 : Inv val S P 0 st) : ∀ i, i ≤ nm.length →
      Inv val S P i ((nm.take i).foldl (Loop.step possible) st)
  | 0, _ => by simpa using h0
  | i + 1, hi => by
    have ih := inv_foldl hval hS hn inj hp hs h0 i (by omega)
    rw [List.take_add_one, List.getElem?_eq_getElem (by omega), List.foldl_append, hval i (by omega)]
    exact inv_step hS hn (by omega) inj (hp i (by omega)) hs ih

theorem leapAt_iff {nm ss zs : List Int} {S : List Nat} (hS : ∀ i, i ∈ S ↔ SuiMonth nm ss i) {i : Nat}
    (hi : i < nm.length) : LeapAt S (fun i => ¬ HasZhongqi nm zs i) i ↔ LeapMonth nm ss zs i := by
  unfold LeapAt LeapMonth In12 InSuiOfTwelve
  simp only [hS, hi, true_and]

/-- What `chinese_month_start` computes: the new moons that do not begin a leap month, and the positions of the
months of the solstices among them. -/
theorem chineseMonthStart_of {nm ss zs : List Int} (h : Usable nm ss zs) :
    chineseMonthStart nm ss zs =
      .ok (((List.range nm.length).filter fun i => decide (¬ LeapMonth nm ss zs i)).map (nm.getD · 0),
        ss.map fun e => searchLeft
          (((List.range nm.length).filter fun i => decide (¬ LeapMonth nm ss zs i)).map (nm.getD · 0))
          (nm.getD (pos nm e) 0)) := by
  have hdate : nm.Pairwise fun a b => chineseDate a < chineseDate b :=
    h.moons.imp fun hab => by have := hab.2; rw [notLater_iff] at this; omega
  have hsort : nm.Pairwise (· < ·) := h.moons.imp fun hab => hab.1
  have hcov : ∀ e, e ∈ ss ∨ e ∈ zs → ∃ m, nm.head? = some m ∧ chineseDate m ≤ chineseDate e := by
    intro e he
    obtain ⟨m, h1, h2⟩ := h.covered e he
    exact ⟨m, h1, (notLater_iff _ _).mp h2⟩
  have hpos : ∀ e, e ∈ ss ∨ e ∈ zs → InMonth nm e (pos nm e) := by
    intro e he
    obtain ⟨i, _, h2, _⟩ := monthIndex_of hdate (hcov e he)
    rw [pos_of h2]; exact h2
  have hlen : ∀ e, e ∈ ss ∨ e ∈ zs → pos nm e < nm.length := fun e he => (inMonth_iff.mp (hpos e he)).1.1
  have hget : ∀ i, i < nm.length → pyIndex nm (i : Int) = .ok (nm.getD i 0) := by
    intro i hi
    rw [pyIndex_nat nm i hi]; simp [List.getD_eq_getElem?_getD, List.getElem?_eq_getElem hi]
  have hsui : ∀ e ∈ ss, monthIndex nm e = .ok ((pos nm e : Nat) : Int) := by
    intro e he
    obtain ⟨i, _, h2, h3 | ⟨_, _, h5⟩⟩ := monthIndex_of hdate (hcov e (.inl he))
    · rw [pos_of h2]; exact h3
    · obtain ⟨m, hm, hn⟩ := h.followed e he
      rw [notLater_iff] at hn
      exact absurd (h5 m hm) hn
  have hz : ∀ e ∈ zs, ∃ k, monthIndex nm e = .ok k ∧ pyIndex nm k = .ok (nm.getD (pos nm e) 0) := by
    intro e he
    obtain ⟨i, h1, h2, h3 | ⟨h3, h4, _⟩⟩ := monthIndex_of hdate (hcov e (.inr he))
    · exact ⟨_, h3, by rw [pos_of h2]; exact hget i h1⟩
    · refine ⟨_, h3, ?_⟩
      have : nm.length - 1 = i := by omega
      rw [pos_of h2, pyIndex_neg_one nm (by omega)]
      simp [List.getD_eq_getElem?_getD, List.getElem?_eq_getElem h1, this]
  -- the four arrays
  have e1 : ss.mapM (monthIndex nm) = .ok (ss.map fun e => ((pos nm e : Nat) : Int)) := mapM_ok hsui
  have e2 : (ss.map fun e => ((pos nm e : Nat) : Int)).mapM
      (fun i => (do return (i, ← pyIndex nm i) : Py (Int × Int))) =
      .ok (ss.map fun e => (((pos nm e : Nat) : Int), nm.getD (pos nm e) 0)) := by
    rw [mapM_map]
    refine mapM_ok fun e he => ?_
    rw [hget _ (hlen e (.inl he))]; rfl
  let g : Int → Int := fun e => match monthIndex nm e with | .ok k => k | .error _ => 0
  have e3 : zs.mapM (monthIndex nm) = .ok (zs.map g) := mapM_ok fun e he => by
    obtain ⟨k, hk, _⟩ := hz e he
    simp only [g, hk]
  have e4 : (zs.map g).mapM (pyIndex nm) = .ok (zs.map fun e => nm.getD (pos nm e) 0) := by
    rw [mapM_map]
    refine mapM_ok fun e he => ?_
    obtain ⟨k, hk, hk'⟩ := hz e he
    simp only [g, hk]; exact hk'
  let S : List Nat := ss.map (pos nm)
  have hS : ∀ i, i ∈ S ↔ SuiMonth nm ss i := by
    intro i
    simp only [S, List.mem_map, SuiMonth]
    exact ⟨fun ⟨e, he, hi⟩ => ⟨e, he, hi ▸ hpos e (.inl he)⟩, fun ⟨e, he, hi⟩ => ⟨e, he, pos_of hi⟩⟩
  have hSsort : S.Pairwise (· < ·) := by
    refine List.pairwise_map.mpr (h.inOrder.imp_of_mem fun ha hb hab => ?_)
    exact hab _ _ (hpos _ (.inl ha)) (hpos _ (.inl hb))
  have hSlen : ∀ s ∈ S, s < nm.length := by
    intro s hs
    obtain ⟨e, he, rfl⟩ := List.mem_map.mp hs
    exact hlen e (.inl he)
  have hinj : ∀ a b, a < nm.length → b < nm.length → nm.getD a 0 = nm.getD b 0 → a = b := by
    intro a b ha hb hab
    simp only [List.getD_eq_getElem?_getD, List.getElem?_eq_getElem ha, List.getElem?_eq_getElem hb,
      Option.getD_some] at hab
    have hlt := List.pairwise_iff_getElem.mp hsort
    rcases Nat.lt_trichotomy a b with hh | hh | hh
    · have := hlt a b ha hb hh; omega
    · exact hh
    · have := hlt b a hb ha hh; omega
  have hposs : ∀ i, i < nm.length →
      ((!(zs.map fun e => nm.getD (pos nm e) 0).contains (nm.getD i 0)) = true ↔ ¬ HasZhongqi nm zs i) := by
    intro i hi
    rw [Bool.not_eq_true', ← Bool.not_eq_true, List.contains_iff_mem, List.mem_map]
    refine not_congr ⟨?_, ?_⟩
    · rintro ⟨e, he, hee⟩
      have := hinj _ _ (hlen e (.inr he)) hi hee
      exact ⟨e, he, this ▸ hpos e (.inr he)⟩
    · rintro ⟨e, he, hee⟩
      exact ⟨e, he, by rw [pos_of hee]⟩
  unfold chineseMonthStart
  rw [e1]
  simp only [bind, Except.bind] at e2 ⊢
  rw [e2]
  simp only [e3, e4]
  obtain ⟨e0, es, rfl⟩ : ∃ e0 es, ss = e0 :: es := by
    cases ss with
    | nil => exact absurd rfl h.nonempty
    | cons a l => exact ⟨a, l, rfl⟩
  have h0 : Inv (nm.getD · 0) S (fun i => ¬ HasZhongqi nm zs i) 0
      { next := (((pos nm e0 : Nat) : Int), nm.getD (pos nm e0) 0), prev := ((pos nm e0 : Nat) : Int) - 13,
        rest := es.map fun e => (((pos nm e : Nat) : Int), nm.getD (pos nm e) 0), seen := false, out := [] } := by
    refine ⟨by simp, by simp, [], S, by simp, by simp, by simp, Or.inl ⟨pos nm e0, es.map (pos nm), rfl, rfl, ?_,
      Or.inl ⟨rfl, rfl⟩⟩⟩
    simp [List.map_map, Function.comp_def]
  have hfin := inv_foldl (possible := fun m => !(zs.map fun e => nm.getD (pos nm e) 0).contains m)
    (fun i hi => by simp [List.getD_eq_getElem?_getD, List.getElem?_eq_getElem hi]) hSsort hSlen hinj
    hposs (fun s hs => fun hn => hn (h.sui s ((hS s).mp hs))) h0 nm.length
    (Nat.le_refl _)
  rw [List.take_length] at hfin
  have hout := hfin.out
  have hfil : (List.range nm.length).filter (fun k => decide (¬ LeapAt S (fun i => ¬ HasZhongqi nm zs i) k)) =
      (List.range nm.length).filter fun i => decide (¬ LeapMonth nm (e0 :: es) zs i) := by
    refine List.filter_congr fun i hi => ?_
    rw [List.mem_range] at hi
    exact decide_eq_decide.mpr (not_congr (leapAt_iff hS hi))
  rw [hfil] at hout
  simp only [List.map_cons, hout, List.map_map, Function.comp_def]
  rfl

/-! ### Counting months -/

theorem kthAfter_add {kept : Nat → Prop} {l : Nat} : ∀ {k i j m : Nat}, KthAfter kept k i j →
    KthAfter kept l j m → KthAfter kept (k + l) i m
  | 0, i, j, m, h, h' => by cases h; simpa using h'
  | k + 1, i, j, m, ⟨i', h1, h2, h3, h4⟩, h' => by
    rw [Nat.add_right_comm]
    exact ⟨i', h1, h2, h3, kthAfter_add h4 h'⟩

theorem kthAfter_run {kept : Nat → Prop} : ∀ {k i : Nat}, (∀ x, i < x → x ≤ i + k → kept x) →
    KthAfter kept k i (i + k)
  | 0, _, _ => rfl
  | k + 1, i, h => by
    refine ⟨i + 1, by omega, h _ (by omega) (by omega), fun x h1 h2 => by omega, ?_⟩
    have := kthAfter_run (k := k) (i := i + 1) fun x h1 h2 => h x (by omega) (by omega)
    rwa [show i + (k + 1) = i + 1 + k by omega]

theorem kthAfter_kept {kept : Nat → Prop} : ∀ {k i j : Nat}, kept i → KthAfter kept k i j → kept j
  | 0, _, _, h, h' => by cases h'; exact h
  | _ + 1, _, _, _, ⟨_, _, h2, _, h4⟩ => kthAfter_kept h2 h4

/-- Places in a sorted list count its elements. -/
theorem getElem?_kthAfter {K : List Nat} {kept : Nat → Prop} (hK : K.Pairwise (· < ·))
    (hm : ∀ x, x ∈ K ↔ kept x) : ∀ {k p i j : Nat}, K[p]? = some i →
      (K[p + k]? = some j ↔ KthAfter kept k i j)
  | 0, p, i, j, h => by simp [h, KthAfter]
  | k + 1, p, i, j, h => by
    obtain ⟨hp, rfl⟩ := List.getElem?_eq_some_iff.mp h
    have hlt := List.pairwise_iff_getElem.mp hK
    constructor
    · intro h'
      obtain ⟨hq, _⟩ := List.getElem?_eq_some_iff.mp h'
      have hp1 : p + 1 < K.length := by omega
      refine ⟨K[p + 1], hlt _ _ hp hp1 (by omega), (hm _).mp (List.getElem_mem _), ?_, ?_⟩
      · intro x h1 h2 hx
        obtain ⟨q, hq, rfl⟩ := List.getElem_of_mem ((hm x).mpr hx)
        have a1 : p < q := by
          rcases Nat.lt_trichotomy p q with hh | hh | hh
          · exact hh
          · subst hh; omega
          · have := hlt _ _ hq hp hh; omega
        have a2 : q < p + 1 := by
          rcases Nat.lt_trichotomy q (p + 1) with hh | hh | hh
          · exact hh
          · subst hh; omega
          · have := hlt _ _ hp1 hq hh; omega
        omega
      · rw [← getElem?_kthAfter hK hm (List.getElem?_eq_getElem hp1)]
        rwa [show p + 1 + k = p + (k + 1) by omega]
    · rintro ⟨i', h1, h2, h3, h4⟩
      obtain ⟨q, hq, rfl⟩ := List.getElem_of_mem ((hm i').mpr h2)
      have a1 : p < q := by
        rcases Nat.lt_trichotomy p q with hh | hh | hh
        · exact hh
        · subst hh; omega
        · have := hlt _ _ hq hp hh; omega
      have a2 : q = p + 1 := by
        apply Classical.byContradiction
        intro hne
        exact h3 K[p + 1] (hlt _ _ hp (by omega) (by omega)) (hlt _ _ (by omega) hq (by omega))
          ((hm _).mp (List.getElem_mem _))
      subst a2
      rw [← getElem?_kthAfter hK hm (List.getElem?_eq_getElem hq)] at h4
      rwa [show p + (k + 1) = p + 1 + k by omega]

/-! ### The numbered months as a list -/

theorem getD_at {α : Type} {l : List α} {i : Nat} {d : α} (h : i < l.length) : l.getD i d = l[i] := by
  simp [List.getD_eq_getElem?_getD, List.getElem?_eq_getElem h]

/-- The positions of the numbered months. -/
noncomputable def keptList (nm ss zs : List Int) : List Nat :=
  (List.range nm.length).filter fun i => decide (¬ LeapMonth nm ss zs i)

theorem keptList_sorted (nm ss zs : List Int) : (keptList nm ss zs).Pairwise (· < ·) :=
  List.Pairwise.filter _ List.pairwise_lt_range

theorem mem_keptList {nm ss zs : List Int} (i : Nat) : i ∈ keptList nm ss zs ↔ Numbered nm ss zs i := by
  simp [keptList, Numbered]

theorem getD_lt {nm : List Int} (h : nm.Pairwise (· < ·)) {i j : Nat} (hj : j < nm.length) (hij : i < j) :
    nm.getD i 0 < nm.getD j 0 := by
  have := List.pairwise_iff_getElem.mp h i j (by omega) hj hij
  simpa [List.getD_eq_getElem?_getD, List.getElem?_eq_getElem hj,
    List.getElem?_eq_getElem (show i < nm.length by omega)] using this

theorem kept_sorted {nm ss zs : List Int} (h : nm.Pairwise (· < ·)) :
    ((keptList nm ss zs).map (nm.getD · 0)).Pairwise (· < ·) :=
  List.pairwise_map.mpr ((keptList_sorted nm ss zs).imp_of_mem fun _ hb hab =>
    getD_lt h ((mem_keptList _).mp hb).1 hab)

theorem _root_.TC.Spec.Lunisolar.Usable.sorted {nm ss zs : List Int} (h : Usable nm ss zs) : nm.Pairwise (· < ·) :=
  h.moons.imp fun hab => hab.1

theorem _root_.TC.Spec.Lunisolar.Usable.month {nm ss zs : List Int} (h : Usable nm ss zs) {e : Int} (he : e ∈ ss) :
    InMonth nm e (pos nm e) := by
  have hdate : nm.Pairwise fun a b => chineseDate a < chineseDate b :=
    h.moons.imp fun hab => by have := hab.2; rw [notLater_iff] at this; omega
  obtain ⟨m, h1, h2⟩ := h.covered e (.inl he)
  obtain ⟨i, _, h4, _⟩ := monthIndex_of hdate ⟨m, h1, (notLater_iff _ _).mp h2⟩
  rw [pos_of h4]; exact h4

/-- A month with a solstice is numbered. -/
theorem _root_.TC.Spec.Lunisolar.Usable.regular {nm ss zs : List Int} (h : Usable nm ss zs) {i : Nat} (hi : SuiMonth nm ss i) :
    Numbered nm ss zs i := by
  obtain ⟨e, he, hm⟩ := hi
  exact ⟨(inMonth_iff.mp hm).1.1, fun hl => hl.2.1 (h.sui i ⟨e, he, hm⟩)⟩

/-- The search finds the place of a numbered month. -/
theorem searchLeft_kept {nm ss zs : List Int} (h : nm.Pairwise (· < ·)) {i : Nat} (hi : Numbered nm ss zs i) :
    (keptList nm ss zs)[searchLeft ((keptList nm ss zs).map (nm.getD · 0)) (nm.getD i 0)]? = some i := by
  obtain ⟨p, hp, rfl⟩ := List.getElem_of_mem ((mem_keptList i).mpr hi)
  have := searchLeft_getElem (kept_sorted (ss := ss) (zs := zs) h) (i := p) (by simpa using hp)
  rw [List.getElem_map] at this
  rw [this]; exact List.getElem?_eq_getElem hp

theorem chineseMonthStart_kept {nm ss zs : List Int} (h : Usable nm ss zs) :
    chineseMonthStart nm ss zs = .ok ((keptList nm ss zs).map (nm.getD · 0),
      ss.map fun e => searchLeft ((keptList nm ss zs).map (nm.getD · 0)) (nm.getD (pos nm e) 0)) :=
  chineseMonthStart_of h

theorem kept_getElem? {nm ss zs : List Int} {p i : Nat} (h : (keptList nm ss zs)[p]? = some i) :
    ((keptList nm ss zs).map (nm.getD · 0))[p]? = nm[i]? ∧ i < nm.length := by
  have hi := ((mem_keptList i).mp (List.mem_of_getElem? h)).1
  rw [List.getElem?_map, h]
  simp [List.getD_eq_getElem?_getD, List.getElem?_eq_getElem hi, hi]

/-- The places of the new years among the numbered months. -/
noncomputable def newYearPlaces (nm ss zs : List Int) : List Nat :=
  ((ss.map fun e => searchLeft ((keptList nm ss zs).map (nm.getD · 0)) (nm.getD (pos nm e) 0)).map
    (· + 2)).filter (· < ((keptList nm ss zs).map (nm.getD · 0)).length)

theorem calculateNewYear_of {nm ss zs : List Int} (h : Usable nm ss zs) :
    calculateNewYear nm ss zs =
      .ok ((newYearPlaces nm ss zs).map (((keptList nm ss zs).map (nm.getD · 0)).getD · 0)) := by
  unfold calculateNewYear
  rw [chineseMonthStart_kept h]
  refine mapM_ok fun i hi => ?_
  have hi' := (List.mem_filter.mp hi).2
  simp only [decide_eq_true_eq] at hi'
  rw [pyIndex_nat _ i hi']
  exact congrArg _ (getD_at hi').symm

theorem newYearPlaces_iff {nm ss zs : List Int} (h : Usable nm ss zs) {p : Nat} :
    p ∈ newYearPlaces nm ss zs ↔ ∃ j, (keptList nm ss zs)[p]? = some j ∧ NewYearMonth nm ss zs j := by
  unfold newYearPlaces
  simp only [List.mem_filter, List.mem_map, List.length_map, decide_eq_true_eq, List.map_map,
    Function.comp_def]
  constructor
  · rintro ⟨⟨e, he, rfl⟩, hp⟩
    have hm := h.month he
    have hs := searchLeft_kept h.sorted (h.regular ⟨e, he, hm⟩)
    refine ⟨_, List.getElem?_eq_getElem hp, _, ⟨e, he, hm⟩, ?_⟩
    exact (getElem?_kthAfter (keptList_sorted _ _ _) mem_keptList hs).mp (List.getElem?_eq_getElem hp)
  · rintro ⟨j, hj, i, ⟨e, he, hm⟩, hk⟩
    have hs := searchLeft_kept h.sorted (h.regular ⟨e, he, hm⟩)
    have h2 := (getElem?_kthAfter (keptList_sorted _ _ _) mem_keptList hs).mpr hk
    have heq := ((keptList_sorted nm ss zs).imp Nat.ne_of_lt : (keptList nm ss zs).Nodup)
    obtain ⟨hp, hp'⟩ := List.getElem?_eq_some_iff.mp hj
    have := (List.getElem?_inj hp heq).mp (hj.trans h2.symm)
    exact ⟨⟨e, he, by rw [pos_of hm]; exact this.symm⟩, hp⟩

theorem newYearPlaces_sorted {nm ss zs : List Int} (h : Usable nm ss zs) :
    (newYearPlaces nm ss zs).Pairwise (· < ·) := by
  refine List.Pairwise.filter _ ?_
  rw [List.map_map, List.pairwise_map]
  refine h.inOrder.imp_of_mem fun {a b} ha hb hab => ?_
  have h1 := h.month ha
  have h2 := h.month hb
  have hlt := hab _ _ h1 h2
  have s1 := searchLeft_kept h.sorted (h.regular ⟨a, ha, h1⟩)
  have s2 := searchLeft_kept h.sorted (h.regular ⟨b, hb, h2⟩)
  obtain ⟨p1, q1⟩ := List.getElem?_eq_some_iff.mp s1
  obtain ⟨p2, q2⟩ := List.getElem?_eq_some_iff.mp s2
  have hp := List.pairwise_iff_getElem.mp (keptList_sorted nm ss zs)
  simp only [Function.comp_def]
  generalize hA : searchLeft ((keptList nm ss zs).map (nm.getD · 0)) (nm.getD (pos nm a) 0) = A at *
  generalize hB : searchLeft ((keptList nm ss zs).map (nm.getD · 0)) (nm.getD (pos nm b) 0) = B at *
  rcases Nat.lt_trichotomy A B with hh | hh | hh
  · omega
  · subst hh; omega
  · have := hp _ _ p2 p1 hh; omega

/-- The months in which years begin. -/
noncomputable def yearMonths (nm ss zs : List Int) : List Nat :=
  (newYearPlaces nm ss zs).map ((keptList nm ss zs).getD · 0)

theorem place_lt {nm ss zs : List Int} {p : Nat} (h : p ∈ newYearPlaces nm ss zs) :
    p < (keptList nm ss zs).length := by
  have := (List.mem_filter.mp h).2
  simpa using this

theorem mem_yearMonths {nm ss zs : List Int} (h : Usable nm ss zs) (j : Nat) :
    j ∈ yearMonths nm ss zs ↔ NewYearMonth nm ss zs j := by
  unfold yearMonths
  rw [List.mem_map]
  constructor
  · rintro ⟨p, hp, rfl⟩
    obtain ⟨j, hj, hn⟩ := (newYearPlaces_iff h).mp hp
    rw [List.getD_eq_getElem?_getD, hj]; exact hn
  · intro hn
    obtain ⟨i, hi, hk⟩ := hn
    have hr := kthAfter_kept (h.regular hi) hk
    obtain ⟨p, hp, rfl⟩ := List.getElem_of_mem ((mem_keptList j).mpr hr)
    exact ⟨p, (newYearPlaces_iff h).mpr ⟨_, List.getElem?_eq_getElem hp, i, hi, hk⟩, getD_at hp⟩

theorem yearMonths_sorted {nm ss zs : List Int} (h : Usable nm ss zs) :
    (yearMonths nm ss zs).Pairwise (· < ·) := by
  refine List.pairwise_map.mpr ((newYearPlaces_sorted h).imp_of_mem fun ha hb hab => ?_)
  rw [getD_at (place_lt ha), getD_at (place_lt hb)]
  exact List.pairwise_iff_getElem.mp (keptList_sorted nm ss zs) _ _ _ _ hab

theorem getD_map_kept {nm ss zs : List Int} {p : Nat} (hp : p < (keptList nm ss zs).length) :
    ((keptList nm ss zs).map (nm.getD · 0)).getD p 0 = nm.getD ((keptList nm ss zs).getD p 0) 0 := by
  rw [getD_at (by simpa using hp), getD_at hp, List.getElem_map]

theorem calculateNewYear_years {nm ss zs : List Int} (h : Usable nm ss zs) :
    calculateNewYear nm ss zs = .ok ((yearMonths nm ss zs).map (nm.getD · 0)) := by
  rw [calculateNewYear_of h, yearMonths, List.map_map]
  congr 1
  exact List.map_congr_left fun p hp => getD_map_kept (place_lt hp)

/-- Looking up the `n`-th month after a numbered one. -/
theorem pyIndex_kept {nm ss zs : List Int} (h : nm.Pairwise (· < ·)) {j : Nat} (hj : Numbered nm ss zs j)
    (n : Nat) : (∃ i, KthAfter (Numbered nm ss zs) n j i ∧ i < nm.length ∧
        pyIndex ((keptList nm ss zs).map (nm.getD · 0))
          ((searchLeft ((keptList nm ss zs).map (nm.getD · 0)) (nm.getD j 0) : Nat) + (n : Int)) =
            .ok (nm.getD i 0)) ∨
      ((∀ i, ¬ KthAfter (Numbered nm ss zs) n j i) ∧
        pyIndex ((keptList nm ss zs).map (nm.getD · 0))
          ((searchLeft ((keptList nm ss zs).map (nm.getD · 0)) (nm.getD j 0) : Nat) + (n : Int)) =
            .error .indexError) := by
  have hs := searchLeft_kept h hj
  generalize searchLeft ((keptList nm ss zs).map (nm.getD · 0)) (nm.getD j 0) = p at *
  have hk := fun i => getElem?_kthAfter (keptList_sorted nm ss zs) mem_keptList (k := n) (j := i) hs
  rcases Nat.lt_or_ge (p + n) (keptList nm ss zs).length with hlt | hge
  · refine Or.inl ⟨(keptList nm ss zs)[p + n], (hk _).mp (List.getElem?_eq_getElem hlt),
      ((mem_keptList _).mp (List.getElem_mem _)).1, ?_⟩
    rw [pyIndex_of_eq _ (n := p + n) (by omega) (by simpa using hlt), List.getElem_map]
  · refine Or.inr ⟨fun i hi => ?_, ?_⟩
    · have := (hk i).mpr hi
      rw [List.getElem?_eq_none hge] at this; cases this
    · rw [show ((p : Int) + (n : Int)) = ((p + n : Nat) : Int) by omega]
      exact pyIndex_nat_error _ _ (by simpa using hge)

/-- `mapM` of a function with one possible exception. -/
theorem mapM_error {α β : Type} {f : α → Py β} {e : PyErr} : ∀ {xs : List α},
    (∀ x ∈ xs, (∃ y, f x = .ok y) ∨ f x = .error e) → (∃ x ∈ xs, f x = .error e) → xs.mapM f = .error e
  | [], _, ⟨_, h, _⟩ => by cases h
  | x :: xs, h, h' => by
    rw [List.mapM_cons]
    rcases h x (by simp) with ⟨y, hy⟩ | hx
    · rw [hy]
      have : ∃ x ∈ xs, f x = .error e := by
        obtain ⟨x', hm, hx'⟩ := h'
        rcases List.mem_cons.mp hm with rfl | hm
        · rw [hy] at hx'; cases hx'
        · exact ⟨x', hm, hx'⟩
      have := mapM_error (fun x' hm => h x' (List.mem_cons_of_mem _ hm)) this
      show (xs.mapM f >>= fun ys => pure (y :: ys)) = _
      rw [this]; rfl
    · rw [hx]; rfl

/-! ### A check of the hypotheses -/

/-- Decides `Usable` for given data. -/
def usableB (nm ss zs : List Int) : Bool :=
  decide (nm.Pairwise fun a b => a < b ∧ chineseDate a < chineseDate b) && !ss.isEmpty &&
  decide (ss.Pairwise fun a b => ∃ m ∈ nm, chineseDate a < chineseDate m ∧ chineseDate m ≤ chineseDate b) &&
  ss.all (fun e => nm.any fun m => decide (chineseDate e < chineseDate m)) &&
  (ss ++ zs).all (fun e => nm.head?.any fun m => decide (chineseDate m ≤ chineseDate e)) &&
  ss.all fun e => zs.any fun z =>
    nm.all fun m => decide (chineseDate m ≤ chineseDate e ↔ chineseDate m ≤ chineseDate z)

theorem usable_of {nm ss zs : List Int} (h : usableB nm ss zs = true) : Usable nm ss zs := by
  unfold usableB at h
  simp only [Bool.and_eq_true, decide_eq_true_eq, List.all_eq_true, List.any_eq_true, List.mem_append,
    Bool.not_eq_true', List.isEmpty_eq_false_iff, Option.any_eq_true] at h
  obtain ⟨⟨⟨⟨⟨h1, h2⟩, h3⟩, h4⟩, h5⟩, h6⟩ := h
  refine ⟨h1.imp fun hab => ⟨hab.1, by rw [notLater_iff]; omega⟩, h3.imp fun hab i j hi hj => ?_, h2,
    fun e he => ?_, fun e he => ?_, ?_⟩
  · obtain ⟨m, hm, ha, hb⟩ := hab
    obtain ⟨k, hk, rfl⟩ := List.getElem_of_mem hm
    rw [inMonth_iff] at hi hj
    have e1 : i < k := by
      rcases Nat.lt_or_ge i k with hh | hh
      · exact hh
      · have := hi.1.2
        rcases Nat.lt_or_eq_of_le hh with hh | rfl
        · have := (List.pairwise_iff_getElem.mp h1 k i hk hi.1.1 hh).2; omega
        · omega
    have e2 : k ≤ j := by
      rcases Nat.lt_or_ge j k with hh | hh
      · have := hj.2 k hk hh; omega
      · exact hh
    omega
  · obtain ⟨m, hm, hh⟩ := h4 e he
    exact ⟨m, hm, by rw [notLater_iff]; omega⟩
  · obtain ⟨m, hm, hh⟩ := h5 e he
    exact ⟨m, hm, (notLater_iff _ _).mpr hh⟩
  · rintro i ⟨e, he, hm⟩
    obtain ⟨z, hz, hh⟩ := h6 e he
    rw [inMonth_iff] at hm
    refine ⟨z, hz, inMonth_iff.mpr ⟨⟨hm.1.1, (hh _ (List.getElem_mem _)).mp hm.1.2⟩, fun j hj hij => ?_⟩⟩
    have a1 := hm.2 j hj hij
    have a2 := hh _ (List.getElem_mem hj)
    omega

/-- Decides `InMonth`. -/
def inMonthB (nm : List Int) (e : Int) (i : Nat) : Bool :=
  (nm[i]?).any (fun m => decide (chineseDate m ≤ chineseDate e)) &&
    (nm.drop (i + 1)).all fun m => decide (chineseDate e < chineseDate m)

theorem inMonthB_iff {nm : List Int} {e : Int} {i : Nat} : inMonthB nm e i = true ↔ InMonth nm e i := by
  rw [inMonth_iff]
  unfold inMonthB
  simp only [Bool.and_eq_true, Option.any_eq_true, decide_eq_true_eq, List.all_eq_true]
  constructor
  · rintro ⟨⟨m, h1, h2⟩, h3⟩
    obtain ⟨h, rfl⟩ := List.getElem?_eq_some_iff.mp h1
    refine ⟨⟨h, h2⟩, fun j hj hij => h3 _ ?_⟩
    rw [List.mem_drop_iff_getElem]
    exact ⟨j - (i + 1), by omega, by congr 1; omega⟩
  · rintro ⟨⟨h, h2⟩, h3⟩
    refine ⟨⟨_, List.getElem?_eq_getElem h, h2⟩, fun m hm => ?_⟩
    obtain ⟨j, hj, rfl⟩ := List.mem_drop_iff_getElem.mp hm
    exact h3 _ _ (by omega)

instance (nm : List Int) (e : Int) (i : Nat) : Decidable (InMonth nm e i) :=
  decidable_of_iff _ inMonthB_iff

instance (nm ss : List Int) (i : Nat) : Decidable (SuiMonth nm ss i) :=
  inferInstanceAs (Decidable (∃ e ∈ ss, InMonth nm e i))

instance (nm zs : List Int) (i : Nat) : Decidable (HasZhongqi nm zs i) :=
  inferInstanceAs (Decidable (∃ e ∈ zs, InMonth nm e i))

end TC.Lunisolar
