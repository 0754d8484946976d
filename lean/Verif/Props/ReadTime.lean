import Verif.Lemmas.Precomputed

/-!
# Property C76, continued: which names are read as minutes

`c76_read_time` describes exactly what is read, so that no other name can be taken for a minute.
-/

namespace TC.Props
open TC Spec Spec.Lunisolar Tcal TestCsv Lunisolar

theorem value_of_digit {c : Char} {k : Int} (h : digit c = some k) :
    ∃ n : Nat, digitValue c = some n ∧ k = n := by
  have hc : c ∈ ['0', '1', '2', '3', '4', '5', '6', '7', '8', '9'] := by
    unfold digit at h
    split at h
    · rename_i hr
      have key : ∀ n, 48 ≤ n → n ≤ 57 → Char.ofNat n ∈ ['0', '1', '2', '3', '4', '5', '6', '7', '8', '9'] := by
        intro n h1 h2
        have : n = 48 ∨ n = 49 ∨ n = 50 ∨ n = 51 ∨ n = 52 ∨ n = 53 ∨ n = 54 ∨ n = 55 ∨ n = 56 ∨ n = 57 := by omega
        rcases this with rfl | rfl | rfl | rfl | rfl | rfl | rfl | rfl | rfl | rfl <;> decide
      have := key c.toNat hr.1 hr.2
      rwa [Char.ofNat_toNat] at this
    · cases h
  have key : ∀ c ∈ ['0', '1', '2', '3', '4', '5', '6', '7', '8', '9'], (digitValue c).isSome = true := by decide
  obtain ⟨n, hn⟩ := Option.isSome_iff_exists.1 (key c hc)
  rw [digit_of_value hn] at h
  injection h with h
  exact ⟨n, hn, h.symm⟩

theorem digits_of_read {s : Str} {n r : Int} (h : readDigits n s = some r) : ∀ c ∈ s, (digitValue c).isSome := by
  induction s generalizing n with
  | nil => simp
  | cons c s ih =>
    rw [readDigits] at h
    cases hk : digit c with
    | none => rw [hk] at h; cases h
    | some k =>
      rw [hk, Option.bind_some] at h
      obtain ⟨j, hj, -⟩ := value_of_digit hk
      intro x hx
      rcases List.mem_cons.1 hx with rfl | hx
      · rw [hj]; rfl
      · exact ih h x hx

theorem readDigits_iff {s : Str} {r : Int} : readDigits 0 s = some r ↔ Padded s.length r s := by
  refine ⟨fun h => ?_, readDigits_padded⟩
  have hd := digits_of_read h
  refine ⟨hd, ?_, .inl rfl⟩
  have := readDigits_of hd 0
  rw [show ((0 : Nat) : Int) = 0 by rfl, h] at this
  injection this with this
  exact this.symm

theorem readDate_iff {s : Str} {d : Int} : readDate s = some d ↔ s.length = 10 ∧ DateText d s := by
  constructor
  · intro h
    unfold readDate at h
    split at h
    · rename_i y1 y2 y3 y4 m1 m2 d1 d2
      cases hy : readDigits 0 [y1, y2, y3, y4] with
      | none => rw [hy] at h; cases h
      | some y =>
        cases hm : readDigits 0 [m1, m2] with
        | none => rw [hy, hm] at h; cases h
        | some m =>
          cases hd : readDigits 0 [d1, d2] with
          | none => rw [hy, hm, hd] at h; cases h
          | some dd =>
            rw [hy, hm, hd] at h
            simp only [Option.bind_some] at h
            split at h
            · rename_i hv
              injection h with h
              rw [month_days hv.1 hv.2.1] at hv
              exact ⟨rfl, ⟨y, m, dd⟩, [y1, y2, y3, y4], [m1, m2], [d1, d2], (dayNumber_iff _ _).2 ⟨hv, h⟩,
                readDigits_iff.1 hy, readDigits_iff.1 hm, readDigits_iff.1 hd, rfl⟩
            · cases h
    · cases h
  · rintro ⟨hlen, ⟨y, m, dd⟩, a, b, c, hd, ha, hb, hc, rfl⟩
    obtain ⟨hv, rfl⟩ := (dayNumber_iff _ _).1 hd
    have e : "-".toList = ['-'] := by decide
    rw [e] at hlen ⊢
    simp only [List.length_append, List.length_singleton] at hlen
    have la : 4 ≤ a.length := by rcases ha.2.2 with k | k <;> omega
    have lb : 2 ≤ b.length := by rcases hb.2.2 with k | k <;> omega
    have lc : 2 ≤ c.length := by rcases hc.2.2 with k | k <;> omega
    obtain ⟨a1, a2, a3, a4, rfl⟩ := four_of (s := a) (by omega)
    obtain ⟨b1, b2, rfl⟩ := two_of (s := b) (by omega)
    obtain ⟨c1, c2, rfl⟩ := two_of (s := c) (by omega)
    show readDate [a1, a2, a3, a4, '-', b1, b2, '-', c1, c2] = some _
    unfold readDate
    simp only
    rw [readDigits_padded ha, readDigits_padded hb, readDigits_padded hc]
    simp only [Option.bind_some]
    have hv' : 1 ≤ m ∧ m ≤ 12 ∧ 1 ≤ dd ∧ dd ≤ monthLength y m := hv
    rw [month_days hv'.1 hv'.2.1, if_pos hv']

theorem readClock_iff {s : Str} {n : Int} : readClock s = some n ↔ s.length = 5 ∧ ∃ h k hs ks,
    n = h * 60 + k ∧ 0 ≤ h ∧ h < 24 ∧ 0 ≤ k ∧ k < 60 ∧ Padded 2 h hs ∧ Padded 2 k ks ∧ s = hs ++ ':' :: ks := by
  constructor
  · intro h
    unfold readClock at h
    split at h
    · rename_i h1 h2 m1 m2
      cases hy : readDigits 0 [h1, h2] with
      | none => rw [hy] at h; cases h
      | some y =>
        cases hm : readDigits 0 [m1, m2] with
        | none => rw [hy, hm] at h; cases h
        | some m =>
          rw [hy, hm] at h
          simp only [Option.bind_some] at h
          split at h
          · rename_i hv
            injection h with h
            have p1 := readDigits_iff.1 hy
            have p2 := readDigits_iff.1 hm
            exact ⟨rfl, y, m, _, _, h.symm, by have := p1.2.1; omega, hv.1, by have := p2.2.1; omega, hv.2, p1, p2,
              rfl⟩
          · cases h
    · cases h
  · rintro ⟨hlen, h, k, a, b, rfl, h0, h1, k0, k1, ha, hb, rfl⟩
    simp only [List.length_append, List.length_cons] at hlen
    have la : 2 ≤ a.length := by rcases ha.2.2 with k | k <;> omega
    have lb : 2 ≤ b.length := by rcases hb.2.2 with k | k <;> omega
    obtain ⟨a1, a2, rfl⟩ := two_of (s := a) (by omega)
    obtain ⟨b1, b2, rfl⟩ := two_of (s := b) (by omega)
    show readClock [a1, a2, ':', b1, b2] = some _
    unfold readClock
    simp only
    rw [readDigits_padded ha, readDigits_padded hb]
    simp only [Option.bind_some]
    rw [if_pos ⟨h1, k1⟩]

/-- C76: text is read as a minute exactly when it names that minute; anything else is refused. -/
theorem c76_read_time (s : Str) :
    (∀ m, readTime s = .ok m ↔ TimeText m s) ∧
    ((∀ m, ¬ TimeText m s) → readTime s = .error (.valueError "Error parsing datetime string")) := by
  have key : ∀ m, readTime s = .ok m ↔ TimeText m s := by
    intro m
    unfold readTime
    simp only
    by_cases hl : s.length = 10
    · rw [if_pos hl]
      constructor
      · intro h
        cases hd : readDate s with
        | none => rw [hd] at h; cases h
        | some d =>
          rw [hd] at h
          injection h with h
          have h : d * 1440 = m := h
          exact .inl ⟨hl, d, (readDate_iff.1 hd).2, by omega⟩
      · rintro (⟨-, d, hd, rfl⟩ | ⟨hl', -⟩)
        · rw [readDate_iff.2 ⟨hl, hd⟩]
          simp only [Option.map_some]
          congr 1
          omega
        · omega
    · rw [if_neg hl]
      constructor
      · intro h
        cases hd : readDate (s.take 10) with
        | none => rw [hd] at h; cases h
        | some d =>
          rw [hd, Option.bind_some] at h
          have hx := readDate_iff.1 hd
          cases hr : s.drop 10 with
          | nil => rw [hr] at h; cases h
          | cons c r =>
            rw [hr] at h
            simp only at h
            split at h
            · rename_i n ht
              split at ht
              · rename_i hc
                cases hk : readClock r with
                | none => rw [hk] at ht; cases ht
                | some q =>
                  rw [hk] at ht
                  injection ht with ht
                  injection h with h
                  have ht : d * 1440 + q = n := ht
                  obtain ⟨hlen, hh, k, hs, ks, rfl, h0, h1, k0, k1, ph, pk, rfl⟩ := readClock_iff.1 hk
                  have es : s = s.take 10 ++ c :: (hs ++ ':' :: ks) := by rw [← hr, List.take_append_drop]
                  refine .inr ⟨?_, d, hh, k, s.take 10, hs, ks, c, by omega, h0, h1, k0, k1, hx.2, ph, pk, hc, es⟩
                  have h2 := congrArg List.length es
                  rw [List.length_append, hx.1, List.length_cons, hlen] at h2
                  exact h2
              · cases ht
            · cases h
      · rintro (⟨hl', -⟩ | ⟨hl', d, hh, k, a, hs, ks, c, rfl, h0, h1, k0, k1, hd, ph, pk, hc, rfl⟩)
        · exact absurd hl' hl
        · have la : 10 ≤ a.length := by
            obtain ⟨dt, y, m, dd, -, p1, p2, p3, rfl⟩ := hd
            have e : "-".toList = ['-'] := by decide
            rw [e]
            simp only [List.length_append, List.length_singleton]
            have : 4 ≤ y.length := by rcases p1.2.2 with k | k <;> omega
            have : 2 ≤ m.length := by rcases p2.2.2 with k | k <;> omega
            have : 2 ≤ dd.length := by rcases p3.2.2 with k | k <;> omega
            omega
          have lh : 2 ≤ hs.length := by rcases ph.2.2 with k | k <;> omega
          have lk : 2 ≤ ks.length := by rcases pk.2.2 with k | k <;> omega
          simp only [List.length_append, List.length_cons] at hl'
          have ea : a.length = 10 := by omega
          have et : (a ++ c :: (hs ++ ':' :: ks)).take 10 = a := by rw [← ea, List.take_left]
          have ed : (a ++ c :: (hs ++ ':' :: ks)).drop 10 = c :: (hs ++ ':' :: ks) := by rw [← ea, List.drop_left]
          have ec : readClock (hs ++ ':' :: ks) = some (hh * 60 + k) :=
            readClock_iff.2 ⟨by simp only [List.length_append, List.length_cons]; omega, hh, k, hs, ks, rfl, h0, h1,
              k0, k1, ph, pk, rfl⟩
          rw [et, ed, readDate_iff.2 ⟨ea, hd⟩, Option.bind_some]
          simp only [if_pos hc, ec, Option.map_some]
          congr 1
          omega
  refine ⟨key, fun hn => ?_⟩
  cases h : readTime s with
  | ok m => exact absurd ((key m).1 h) (hn m)
  | error e =>
    unfold readTime at h
    simp only at h
    split at h
    · cases h
    · exact h.symm

/-- A date alone, a date and a time, and two texts that are neither: no 24th hour, no 29 February 2019. -/
example : readTime "1970-01-02".toList = .ok 1440 ∧ readTime "1970-01-02 01:01".toList = .ok 1501 ∧
    (∀ m, ¬ TimeText m "1970-01-02T24:00".toList) ∧ (∀ m, ¬ TimeText m "2019-02-29".toList) :=
  ⟨by decide +kernel, by decide +kernel,
    fun m hm => absurd (((c76_read_time _).1 m).2 hm) (by
      rw [show readTime "1970-01-02T24:00".toList = .error (.valueError "Error parsing datetime string") by
        decide +kernel]
      exact nofun),
    fun m hm => absurd (((c76_read_time _).1 m).2 hm) (by
      rw [show readTime "2019-02-29".toList = .error (.valueError "Error parsing datetime string") by
        decide +kernel]
      exact nofun)⟩

end TC.Props
