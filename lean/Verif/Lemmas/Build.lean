import Verif.Lemmas.TimeZone
import Verif.Lemmas.Ranges
import Verif.Spec.Build

namespace TC
open Spec

/-! ### Monad plumbing -/

theorem bind_ok_iff {α β : Type} {x : Py α} {f : α → Py β} {b : β} :
    (x >>= f) = .ok b ↔ ∃ a, x = .ok a ∧ f a = .ok b := by
  cases x with
  | error e => simp [bind, Except.bind]
  | ok a => simp [bind, Except.bind]

theorem map_ok_iff {α β : Type} {x : Py α} {f : α → β} {b : β} :
    x.map f = .ok b ↔ ∃ a, x = .ok a ∧ f a = b := by
  cases x with
  | error e => simp [Except.map]
  | ok a => simp [Except.map]

theorem mapM_ok_iff {α β : Type} {f : α → Py β} : ∀ {xs : List α} {ys : List β},
    xs.mapM f = .ok ys ↔
      ys.length = xs.length ∧ ∀ i (h : i < xs.length) (h' : i < ys.length), f xs[i] = .ok ys[i]
  | [], ys => by
    rw [List.mapM_nil]
    constructor
    · intro h; cases h; simp
    · rintro ⟨h, _⟩
      have : ys = [] := List.length_eq_zero_iff.mp (by simpa using h)
      subst this; rfl
  | x :: xs, ys => by
    rw [List.mapM_cons, bind_ok_iff]
    constructor
    · rintro ⟨y, hy, h⟩
      rw [bind_ok_iff] at h
      obtain ⟨ys', hys, h⟩ := h
      cases h
      obtain ⟨hl, hg⟩ := mapM_ok_iff.mp hys
      refine ⟨by simp [hl], fun i h h' => ?_⟩
      cases i with
      | zero => exact hy
      | succ i => exact hg i (by simpa using h) (by simpa using h')
    · rintro ⟨hl, hg⟩
      cases ys with
      | nil => simp at hl
      | cons y ys =>
        refine ⟨y, hg 0 (by simp) (by simp), ?_⟩
        rw [bind_ok_iff]
        refine ⟨ys, mapM_ok_iff.mpr ⟨by simpa using hl, fun i h h' => ?_⟩, rfl⟩
        exact hg (i + 1) (by simpa using h) (by simpa using h')

theorem mem_zip_mapM {α β : Type} {f : α → Py β} {xs : List α} {ys : List β}
    (h : xs.mapM f = .ok ys) (x : α) (y : β) :
    (x, y) ∈ xs.zip ys ↔ x ∈ xs ∧ f x = .ok y := by
  obtain ⟨hl, hg⟩ := mapM_ok_iff.mp h
  constructor
  · intro hm
    obtain ⟨i, hi, he⟩ := List.getElem_of_mem hm
    rw [List.getElem_zip] at he
    rw [List.length_zip] at hi
    cases he
    exact ⟨List.getElem_mem _, hg i (by omega) (by omega)⟩
  · rintro ⟨hm, hf⟩
    obtain ⟨i, hi, rfl⟩ := List.getElem_of_mem hm
    have := hg i hi (by omega)
    rw [this] at hf
    cases hf
    have hz : i < (xs.zip ys).length := by rw [List.length_zip]; omega
    have : (xs.zip ys)[i] = (xs[i], ys[i]) := List.getElem_zip
    rw [← this]
    exact List.getElem_mem _

theorem mapM_mem {α β : Type} {f : α → Py β} {xs : List α} {ys : List β}
    (h : xs.mapM f = .ok ys) {y : β} : y ∈ ys ↔ ∃ x ∈ xs, f x = .ok y := by
  obtain ⟨hl, hg⟩ := mapM_ok_iff.mp h
  constructor
  · intro hy
    obtain ⟨i, hi, rfl⟩ := List.getElem_of_mem hy
    exact ⟨xs[i]'(by omega), List.getElem_mem _, hg i (by omega) hi⟩
  · rintro ⟨x, hx, hf⟩
    have := (mem_zip_mapM h x y).mpr ⟨hx, hf⟩
    exact (List.of_mem_zip this).2

/-! ### Business days -/

theorem scanForward_some {bus : Int → Bool} : ∀ {n : Nat} {d d' : Int},
    scanForward bus n d = some d' →
      d ≤ d' ∧ d' < d + n ∧ bus d' = true ∧ ∀ k, d ≤ k → k < d' → bus k = false
  | 0, d, d', h => by simp [scanForward] at h
  | n + 1, d, d', h => by
    unfold scanForward at h
    split at h
    · next hb =>
      cases h
      exact ⟨by omega, by omega, hb, fun k h1 h2 => by omega⟩
    · next hb =>
      obtain ⟨h1, h2, h3, h4⟩ := scanForward_some h
      refine ⟨by omega, by omega, h3, fun k hk hk' => ?_⟩
      by_cases he : k = d
      · subst he; simpa using hb
      · exact h4 k (by omega) hk'

theorem scanForward_none {bus : Int → Bool} : ∀ {n : Nat} {d : Int},
    scanForward bus n d = none → ∀ k, d ≤ k → k < d + n → bus k = false
  | 0, d, h, k, h1, h2 => by omega
  | n + 1, d, h, k, h1, h2 => by
    unfold scanForward at h
    split at h
    · cases h
    · next hb =>
      by_cases he : k = d
      · subst he; simpa using hb
      · exact scanForward_none h k (by omega) (by omega)

theorem scanBackward_some {bus : Int → Bool} : ∀ {n : Nat} {d d' : Int},
    scanBackward bus n d = some d' →
      d' ≤ d ∧ d - n < d' ∧ bus d' = true ∧ ∀ k, d' < k → k ≤ d → bus k = false
  | 0, d, d', h => by simp [scanBackward] at h
  | n + 1, d, d', h => by
    unfold scanBackward at h
    split at h
    · next hb =>
      cases h
      exact ⟨by omega, by omega, hb, fun k h1 h2 => by omega⟩
    · next hb =>
      obtain ⟨h1, h2, h3, h4⟩ := scanBackward_some h
      refine ⟨by omega, by omega, h3, fun k hk hk' => ?_⟩
      by_cases he : k = d
      · subst he; simpa using hb
      · exact h4 k hk (by omega)

theorem scanBackward_none {bus : Int → Bool} : ∀ {n : Nat} {d : Int},
    scanBackward bus n d = none → ∀ k, d - n < k → k ≤ d → bus k = false
  | 0, d, h, k, h1, h2 => by omega
  | n + 1, d, h, k, h1, h2 => by
    unfold scanBackward at h
    split at h
    · cases h
    · next hb =>
      by_cases he : k = d
      · subst he; simpa using hb
      · exact scanBackward_none h k (by omega) (by omega)

theorem generateDays_spec {bus : Int → Bool} {tod stop : Int} : ∀ {n : Nat} {d : Int},
    bus d = true → (∀ k : Int, k * DAY + tod ≤ stop → k < d + n) →
    SortedLT (generateDays bus tod stop n d) ∧
      ∀ l, l ∈ generateDays bus tod stop n d ↔
        ∃ k, l = k * DAY + tod ∧ d ≤ k ∧ bus k = true ∧ l ≤ stop
  | 0, d, hb, hn => by
    refine ⟨List.Pairwise.nil, fun l => ?_⟩
    simp only [generateDays, List.not_mem_nil, false_iff]
    rintro ⟨k, rfl, h1, h2, h3⟩
    have := hn k h3
    omega
  | n + 1, d, hb, hn => by
    unfold generateDays
    split
    · next hd =>
      split
      · next d' hs =>
        obtain ⟨h1, h2, h3, h4⟩ := scanForward_some hs
        obtain ⟨ihs, ihm⟩ := generateDays_spec (n := n) (d := d') h3
          (fun k hk => by have := hn k hk; omega)
        refine ⟨List.pairwise_cons.mpr ⟨fun l hl => ?_, ihs⟩, fun l => ?_⟩
        · obtain ⟨k, rfl, hk, _, _⟩ := (ihm l).mp hl
          simp only [DAY]; omega
        · rw [List.mem_cons, ihm]
          constructor
          · rintro (rfl | ⟨k, rfl, hk, hbk, hle⟩)
            · exact ⟨d, rfl, by omega, hb, hd⟩
            · exact ⟨k, rfl, by omega, hbk, hle⟩
          · rintro ⟨k, rfl, hk, hbk, hle⟩
            by_cases he : k = d
            · left; subst he; rfl
            · right
              refine ⟨k, rfl, ?_, hbk, hle⟩
              apply Decidable.byContradiction
              intro hlt
              have := h4 k (by omega) (by omega)
              simp [this] at hbk
      · next hs =>
        have h4 := scanForward_none hs
        refine ⟨by simp, fun l => ?_⟩
        rw [List.mem_singleton]
        constructor
        · rintro rfl
          exact ⟨d, rfl, by omega, hb, hd⟩
        · rintro ⟨k, rfl, hk, hbk, hle⟩
          by_cases he : k = d
          · subst he; rfl
          · have := hn k hle
            have := h4 k (by omega) (by omega)
            simp [this] at hbk
    · next hd =>
      refine ⟨List.Pairwise.nil, fun l => ?_⟩
      simp only [List.not_mem_nil, false_iff]
      rintro ⟨k, rfl, hk, _, hle⟩
      simp only [DAY] at *
      omega

/-- `date_range`: the business days of the range, in order, at the time of day of the start.  The last one is left
out if the start is on a business day, the end is not, and its time of day is before that of the start. -/
theorem dateRange_any (bus : Int → Bool) (start stop : Int) :
    SortedLT (dateRange bus start stop) ∧
      ∀ l, l ∈ dateRange bus start stop ↔
        ∃ k, l = k * DAY + start % DAY ∧ start ≤ l ∧ l ≤ stop ∧ bus k = true ∧
          (bus (start / DAY) = true → bus (stop / DAY) = false → stop % DAY < start % DAY →
            ∃ k', k < k' ∧ k' ≤ stop / DAY ∧ bus k' = true) := by
  have hs := Int.emod_nonneg start (b := DAY) (by decide)
  have hs' := Int.emod_lt_of_pos start (b := DAY) (by decide)
  have hsm := Int.mul_ediv_add_emod start DAY
  have hm := Int.emod_nonneg stop (b := DAY) (by decide)
  have hm' := Int.emod_lt_of_pos stop (b := DAY) (by decide)
  have hdm := Int.mul_ediv_add_emod stop DAY
  unfold dateRange
  simp only
  generalize start / DAY = sd at *
  generalize start % DAY = st at *
  generalize stop / DAY = ed at *
  generalize stop % DAY = et at *
  split
  · next hsd =>
    split
    · next d1 hb =>
      obtain ⟨b1, b2, b3, b4⟩ := scanBackward_some hb
      obtain ⟨hs, hmem⟩ := generateDays_spec (bus := bus) (tod := st) (stop := d1 * DAY + et)
        (n := (ed - sd + 1).toNat) (d := sd) hsd (fun k hk => by simp only [DAY] at *; omega)
      refine ⟨hs, fun l => ?_⟩
      rw [hmem]
      constructor
      · rintro ⟨k, rfl, hk, hbk, hle⟩
        refine ⟨k, rfl, ?_, ?_, hbk, fun _ _ hlt => ⟨d1, ?_, by omega, b3⟩⟩
        · simp only [DAY] at *; omega
        · simp only [DAY] at *; omega
        · simp only [DAY] at *; omega
      · rintro ⟨k, rfl, ha, hb', hbk, hlast⟩
        refine ⟨k, rfl, ?_, hbk, ?_⟩
        · simp only [DAY] at *; omega
        · have hkd : k ≤ d1 := by
            apply Decidable.byContradiction
            intro hlt
            have := b4 k (by omega) (by simp only [DAY] at *; omega)
            simp [this] at hbk
          by_cases hlt : et < st
          · cases hbe : bus ed with
            | true =>
              have : d1 = ed := by
                apply Decidable.byContradiction
                intro hne
                have := b4 ed (by omega) (by omega)
                rw [hbe] at this
                cases this
              subst this
              simp only [DAY] at *; omega
            | false =>
              obtain ⟨k', g1, g2, g3⟩ := hlast hsd hbe hlt
              have : k' ≤ d1 := by
                apply Decidable.byContradiction
                intro hlt
                have := b4 k' (by omega) (by omega)
                simp [this] at g3
              simp only [DAY] at *; omega
          · simp only [DAY] at *; omega
    · next hb =>
      refine ⟨List.Pairwise.nil, fun l => ?_⟩
      simp only [List.not_mem_nil, false_iff]
      rintro ⟨k, rfl, ha, hb', hbk, -⟩
      have := scanBackward_none hb k (by simp only [DAY] at *; omega) (by simp only [DAY] at *; omega)
      rw [hbk] at this
      cases this
  · next hsd =>
    split
    · next d0 hf =>
      obtain ⟨f1, f2, f3, f4⟩ := scanForward_some hf
      obtain ⟨hs, hmem⟩ := generateDays_spec (bus := bus) (tod := st) (stop := stop)
        (n := (ed - sd + 1).toNat) (d := d0) f3 (fun k hk => by simp only [DAY] at *; omega)
      refine ⟨hs, fun l => ?_⟩
      rw [hmem]
      constructor
      · rintro ⟨k, rfl, hk, hbk, hle⟩
        exact ⟨k, rfl, by simp only [DAY] at *; omega, hle, hbk, fun h => absurd h hsd⟩
      · rintro ⟨k, rfl, ha, hb', hbk, -⟩
        refine ⟨k, rfl, ?_, hbk, hb'⟩
        apply Decidable.byContradiction
        intro hlt
        have := f4 k (by simp only [DAY] at *; omega) (by omega)
        simp [this] at hbk
    · next hf =>
      refine ⟨List.Pairwise.nil, fun l => ?_⟩
      simp only [List.not_mem_nil, false_iff]
      rintro ⟨k, rfl, ha, hb', hbk, -⟩
      have := scanForward_none hf k (by simp only [DAY] at *; omega) (by simp only [DAY] at *; omega)
      rw [hbk] at this
      cases this

/-- `date_range` from a midnight start: exactly the business days of the range, in order. -/
theorem dateRange_spec (bus : Int → Bool) {start stop : Int} (hst : DAY ∣ start) :
    SortedLT (dateRange bus start stop) ∧
      ∀ l, l ∈ dateRange bus start stop ↔
        ∃ k, l = k * DAY ∧ start ≤ l ∧ l ≤ stop ∧ bus k = true := by
  obtain ⟨h1, h2⟩ := dateRange_any bus start stop
  refine ⟨h1, fun l => ?_⟩
  rw [h2, Int.emod_eq_zero_of_dvd hst]
  have hm := Int.emod_nonneg stop (b := DAY) (by decide)
  constructor
  · rintro ⟨k, rfl, a, b, c, -⟩
    exact ⟨k, by omega, a, b, c⟩
  · rintro ⟨k, rfl, a, b, c⟩
    exact ⟨k, by omega, a, b, c, fun _ _ h => by omega⟩

theorem weekday_iff (d w : Int) : IsWeekday d w ↔ weekday d = w := by
  unfold IsWeekday weekday
  constructor
  · rintro ⟨h0, h6, k, rfl⟩
    omega
  · rintro rfl
    exact ⟨by omega, by omega, (d + 3) / 7, by omega⟩

theorem weekday_exists (d : Int) (p : Int → Prop) :
    (∃ w, IsWeekday d w ∧ p w) ↔ p (weekday d) := by
  constructor
  · rintro ⟨w, hw, hp⟩
    rw [(weekday_iff d w).mp hw]; exact hp
  · intro hp
    exact ⟨_, (weekday_iff d _).mpr rfl, hp⟩

theorem isBusinessDay_iff (cfg : Config) (d : Int) :
    cfg.isBusinessDay d = true ↔ TradingDay cfg d := by
  unfold Config.isBusinessDay TradingDay Config.holidays HOLIDAYS_START HOLIDAYS_END
  rw [weekday_exists d (fun w => cfg.weekmask w = true)]
  rw [Bool.and_eq_true, Bool.not_eq_true', ← Bool.not_eq_true, List.contains_iff_mem,
    List.mem_map]
  refine and_congr_right fun _ => ?_
  constructor
  · intro hn
    refine ⟨fun h hh he => hn ⟨h, by simp [hh], he⟩, fun cal hc h hh he => hn ⟨h, ?_, he⟩⟩
    rw [hc]; simp [hh]
  · rintro ⟨ha, hr⟩ ⟨h, hh, he⟩
    rw [List.mem_append] at hh
    rcases hh with hh | hh
    · exact ha h hh he
    · cases hc : cfg.regularHolidays with
      | none => rw [hc] at hh; simp at hh
      | some cal => rw [hc] at hh; exact hr cal hc h hh he

end TC
