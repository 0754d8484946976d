import Verif.Lemmas.Precomputed
import Verif.Props.Lunisolar

/-!
# The files with precomputed longitudes of `etc/lunisolar` (C76)

For all longitudes, ranges of minutes, directories and orders in which a directory is listed, and for all points
at which runs were interrupted.  The cases after the theorems are a run of three days, from 2019-12-30 to
2020-01-02, and one of 400 days, which is saved in two blocks.
-/

namespace TC.Props
open Spec Spec.Lunisolar Tcal TestCsv Lunisolar

/-- 2019-12-30T00:00. -/
def runStart : Int := 26294400
/-- A longitude that differs from minute to minute. -/
def runEl (m : Int) : Int := m * 7 % 1000

theorem longRun_four {m : Int} (h : 0 ≤ m) (h' : m < 50000000) : FourDigitYear m :=
  ⟨dayOf 0 1 1, dayOf 10000 1 1, (dayNumber_iff _ _).2 ⟨⟨by decide, by decide, by decide, by decide⟩, rfl⟩, (dayNumber_iff _ _).2 ⟨⟨by decide, by decide, by decide, by decide⟩, rfl⟩, by
    have : dayOf 0 1 1 = -719528 := by decide
    omega, by
    have : dayOf 10000 1 1 = 2932897 := by decide
    omega⟩

theorem longRun {n : Nat} (h : 0 < n) (h' : n < 10000000) : ProperRun runStart (runStart + n) :=
  ⟨by omega, fun m h1 h2 => longRun_four (by unfold runStart at h1; omega) (by unfold runStart at h2; omega)⟩

/-- The name of a file tells the first and the last of its minutes, and its content is their longitudes; no file
is for more than a year of 365 days, and each minute is in exactly one file. -/
theorem c76_files {α : Type} (el : Int → α) {start stop : Int} (hr : ProperRun start stop) :
    (∀ e ∈ simulate el start stop [], ∃ a b ta tb, start ≤ a ∧ a ≤ b ∧ b < stop ∧ b - a < 365 * 24 * 60 ∧
      MinuteText a ta ∧ MinuteText b tb ∧ e.1 = ta ++ "_".toList ++ tb ∧
      ∃ ms, EachMinute a (b + 1) ms ∧ e.2 = ms.map el) ∧
    ∀ m, start ≤ m → m < stop → ∃ e, e ∈ simulate el start stop [] ∧
      (∃ a b ta tb, a ≤ m ∧ m ≤ b ∧ MinuteText a ta ∧ MinuteText b tb ∧ e.1 = ta ++ "_".toList ++ tb) ∧
      ∀ e' ∈ simulate el start stop [], ∀ a b ta tb, a ≤ m → m ≤ b → MinuteText a ta → MinuteText b tb →
        e'.1 = ta ++ "_".toList ++ tb → e' = e := by
  have hd : simulate el start stop [] = (runPieces el start stop (blockCount start stop) none).map fileOf :=
    simulate_nil hr
  have hp : runPieces el start stop (blockCount start stop) none =
      (List.range (blockCount start stop)).map (pieceAt el start stop) := by
    simp [runPieces, lastPiece]
  have hle := Int.le_of_lt hr.1
  have hname : ∀ i, i < blockCount start stop → ∃ ta tb, MinuteText (blockAt start stop i) ta ∧
      MinuteText (blockAt start stop (i + 1) - 1) tb ∧
      (fileOf (pieceAt el start stop i)).1 = ta ++ "_".toList ++ tb := by
    intro i hi
    have h4 := runPieces_four (el := el) hr (k := blockCount start stop) (p := none) (x := pieceAt el start stop i)
      (by rw [hp]; exact List.mem_map_of_mem (List.mem_range.2 hi))
    refine ⟨_, _, minuteText_of (fourDigitYear_day h4.1).1, minuteText_of (fourDigitYear_day h4.2).1, ?_⟩
    rw [str_underscore, List.append_assoc]
    rfl
  rw [hd, hp, List.map_map]
  constructor
  · intro e he
    obtain ⟨i, hi, rfl⟩ := List.mem_map.1 he
    rw [List.mem_range] at hi
    obtain ⟨ta, tb, h1, h2, h3⟩ := hname i hi
    have hlt := blockAt_lt hi
    have a := blockAt_le hle i
    have b := blockAt_le hle (i + 1)
    refine ⟨_, _, ta, tb, a.1, by omega, by omega, ?_, h1, h2, h3, _, minuteRange_each _ _, ?_⟩
    · unfold blockAt blockSize; omega
    · rw [show blockAt start stop (i + 1) - 1 + 1 = blockAt start stop (i + 1) by omega]
      rfl
  · intro m h1 h2
    -- the block of the minute
    have hi : ((m - start).toNat / blockSize) < blockCount start stop := by unfold blockCount blockSize; omega
    have hm : blockAt start stop ((m - start).toNat / blockSize) ≤ m ∧
        m < blockAt start stop ((m - start).toNat / blockSize + 1) := by unfold blockAt blockSize; omega
    generalize (m - start).toNat / blockSize = i at hi hm
    refine ⟨_, List.mem_map.2 ⟨i, List.mem_range.2 hi, rfl⟩, ?_, ?_⟩
    · obtain ⟨ta, tb, g1, g2, g3⟩ := hname i hi
      exact ⟨_, _, ta, tb, hm.1, by omega, g1, g2, g3⟩
    · intro e' he' a b ta tb ha hb hta htb hn
      obtain ⟨j, hj, rfl⟩ := List.mem_map.1 he'
      rw [List.mem_range] at hj
      obtain ⟨ta', tb', g1, g2, g3⟩ := hname j hj
      simp only [Function.comp_apply] at hn ⊢
      rw [g3, str_underscore, List.append_assoc, List.append_assoc, List.singleton_append, List.singleton_append] at hn
      obtain ⟨rfl, rfl⟩ := sep_unique g1.clear hta.clear hn
      have e1 := g1.unique hta
      have e2 := g2.unique htb
      have hij : j = i := by
        rcases Nat.lt_trichotomy j i with h | h | h
        · have := blockAt_mono (start := start) (stop := stop) (show j + 1 ≤ i by omega)
          omega
        · exact h
        · have := blockAt_mono (start := start) (stop := stop) (show i + 1 ≤ j by omega)
          omega
      rw [hij]

example := c76_files runEl (longRun (n := 4320) (by decide) (by decide))
example : (simulate runEl runStart (runStart + 3) []) =
    [("2019-12-30T00:00_2019-12-30T00:02".toList, [800, 807, 814])] := by decide +kernel

/-- Whatever interrupted earlier runs with the same options, after a run that was not interrupted each minute is
loaded once and in order, with its longitude.  Files without underscore do not matter. -/
theorem c76_round_trip {α : Type} (el : Int → α) {start stop : Int} (hr : ProperRun start stop) {d : Dir α}
    (hd : NoUnderscore d) (attempts : List (Nat × Option Nat)) {listed : Dir α}
    (hl : listed.Perm (simulate el start stop (attempts.foldl (fun d a => interrupted el start stop a.1 a.2 d) d))) :
    ∃ values minutes, load listed = .ok (values, minutes) ∧ EachMinute start stop minutes ∧
      values.length = minutes.length ∧ BelongTo el values minutes := by
  have hle := Int.le_of_lt hr.1
  have hn : 0 < blockCount start stop := by have := hr.1; unfold blockCount blockSize; omega
  have hp : runPieces el start stop (blockCount start stop) none =
      (List.range (blockCount start stop)).map (pieceAt el start stop) := by
    simp [runPieces, lastPiece]
  have hend : runEnd start stop (blockCount start stop) none = blockCount start stop := by simp [runEnd]
  rw [simulate_eq, interrupted_eq,
    putAll_eq (names_nodup (fun x => runPieces_four hr) (runPieces_sorted el start stop _ _))] at hl
  obtain ⟨t, -, hv⟩ := runPieces_values el hle (blockCount start stop) none
  refine ⟨_, _, load_sorted hl ?_ (fun x => runPieces_four hr) (runPieces_sorted el start stop _ _) ?_, ?_, ?_, ?_⟩
  · intro e he
    obtain ⟨h1, h2⟩ := List.mem_filter.1 he
    rcases attempts_names hr attempts h1 with h | ⟨i, hi, h⟩
    · exact hd e h
    · exfalso
      simp only [decide_eq_true_eq] at h2
      refine h2 ?_
      rw [h, List.map_map]
      refine List.mem_map.2 ⟨pieceAt el start stop i, ?_, rfl⟩
      rw [hp]
      exact List.mem_map_of_mem (List.mem_range.2 hi)
  · rw [hp]
    intro h
    have := congrArg List.length h
    simp at this
    omega
  · rw [runPieces_minutes el hle, hend, blockAt_count hle]
    exact minuteRange_each _ _
  · rw [hv rfl, runPieces_minutes el hle]
    simp
  · rw [hv rfl, runPieces_minutes el hle]
    have := belongTo_take el (minuteRange start (blockAt start stop (runEnd start stop (blockCount start stop) none)))
      (minuteRange start (blockAt start stop (runEnd start stop (blockCount start stop) none))).length
    rwa [List.take_of_length_le (by simp)] at this

/-- The case: interrupted in the second block, then in the first, then run to the end, beside another file. -/
example := c76_round_trip runEl (longRun (n := 576000) (by decide) (by decide))
  (d := [("README".toList, [])]) (by intro e he; simp at he; subst he; decide) [(1, some 17), (0, some 3), (0, none)]
  (.refl _)
example : load [("b".toList, [9]), ("2019-12-30T00:02_2019-12-30T00:03".toList, [814, 821]),
    ("2019-12-30T00:00_2019-12-30T00:01".toList, [800, 807])] =
    .ok ([800, 807, 814, 821], [26294400, 26294401, 26294402, 26294403]) := by decide +kernel

/-- A run that was interrupted for the first time: what is loaded is a part of the minutes from the start on, in
order, and each longitude is that of its minute.  Unless the last file was being written there is a longitude for
each minute.  At least the minutes of the first file are loaded, and, of more than one, a single longitude only if
it was interrupted after the first one. -/
theorem c76_interrupted {α : Type} (el : Int → α) {start stop : Int} (hr : ProperRun start stop) {d : Dir α}
    (hd : NoUnderscore d) (k : Nat) (p : Option Nat) (hkp : 0 < k ∨ p.isSome) {listed : Dir α}
    (hl : listed.Perm (interrupted el start stop k p d)) :
    ∃ e values minutes, load listed = .ok (values, minutes) ∧ start < e ∧ e ≤ stop ∧ EachMinute start e minutes ∧
      BelongTo el values minutes ∧ (p = none → values.length = minutes.length) ∧
      (e = stop ∨ start + 365 * 24 * 60 ≤ e) ∧
      (start + 1 < stop → (values.length = 1 ↔ k = 0 ∧ p = some 1)) := by
  have hle := Int.le_of_lt hr.1
  have hn : 0 < blockCount start stop := by have := hr.1; unfold blockCount blockSize; omega
  have hend : 0 < runEnd start stop k p := by
    unfold runEnd
    split
    · omega
    · rename_i h
      rcases hkp with h' | h'
      · omega
      · have : ¬ k < blockCount start stop := fun hk => h ⟨h', hk⟩
        omega
  rw [interrupted_eq,
    putAll_eq (names_nodup (fun x => runPieces_four hr) (runPieces_sorted el start stop _ _))] at hl
  obtain ⟨t, ht, hv⟩ := runPieces_values el hle k p
  refine ⟨blockAt start stop (runEnd start stop k p), _, _,
    load_sorted hl (fun e he => hd e (List.mem_filter.1 he).1) (fun x => runPieces_four hr)
      (runPieces_sorted el start stop _ _) ?_, ?_, (blockAt_le hle _).2, ?_, ?_, ?_, ?_,
    fun h => one_value el h k p⟩
  · intro h
    have := congrArg List.length (runPieces_spans el start stop k p)
    rw [h] at this
    simp at this
    omega
  · have h1 := (blockAt_lt hn).1
    rw [blockAt_zero hle] at h1
    have := blockAt_mono (start := start) (stop := stop) (show 0 + 1 ≤ runEnd start stop k p by omega)
    omega
  · rw [runPieces_minutes el hle]
    exact minuteRange_each _ _
  · rw [ht, runPieces_minutes el hle]
    exact belongTo_take _ _ _
  · intro h
    rw [hv h, runPieces_minutes el hle]
    simp
  · have := blockAt_mono (start := start) (stop := stop) (show 1 ≤ runEnd start stop k p by omega)
    have h1 : blockAt start stop 1 = min stop (start + 365 * 24 * 60) := by
      unfold blockAt blockSize
      omega
    have h2 := (blockAt_le hle (runEnd start stop k p)).2
    omega

example := c76_interrupted runEl (longRun (n := 576000) (by decide) (by decide)) (d := []) (by simp [NoUnderscore])
  1 (some 17) (.inl (by decide)) (.refl _)

/-- If nothing was written yet, or there is nothing to compute, loading raises `ValueError`. -/
theorem c76_nothing {α : Type} {listed : Dir α} (h : NoUnderscore listed) :
    ∃ msg, load listed = .error (.valueError msg) := by
  obtain ⟨es, hp, -, hl⟩ := load_files (L := listed) (junk := listed) (es := []) (by simp) h (by simp)
  rw [hl, if_pos (by simpa using hp)]
  exact ⟨_, rfl⟩

example : ∃ msg, load [("README".toList, [1])] = .error (.valueError msg) :=
  c76_nothing (by intro e he; simp at he; subst he; decide)

/-- A run from where another one stopped: each minute of both is loaded once and in order. -/
theorem c76_resumed {α : Type} (el : Int → α) {start mid stop : Int} (hr : ProperRun start mid)
    (hr' : ProperRun mid stop) {d : Dir α} (hd : NoUnderscore d) {listed : Dir α}
    (hl : listed.Perm (simulate el mid stop (simulate el start mid d))) :
    ∃ values minutes, load listed = .ok (values, minutes) ∧ EachMinute start stop minutes ∧
      values.length = minutes.length ∧ BelongTo el values minutes := by
  have hle := Int.le_of_lt hr.1
  have hle' := Int.le_of_lt hr'.1
  have hn : 0 < blockCount start mid := by have := hr.1; unfold blockCount blockSize; omega
  have hend : ∀ a b : Int, runEnd a b (blockCount a b) none = blockCount a b := by simp [runEnd]
  rw [simulate_eq, simulate_eq, interrupted_eq, interrupted_eq] at hl
  have e : putAll (putAll d ((runPieces el start mid (blockCount start mid) none).map fileOf))
      ((runPieces el mid stop (blockCount mid stop) none).map fileOf) =
      putAll d ((runPieces el start mid (blockCount start mid) none ++
        runPieces el mid stop (blockCount mid stop) none).map fileOf) := by
    unfold putAll
    rw [List.map_append, List.foldl_append]
  have h4 : ∀ x ∈ runPieces el start mid (blockCount start mid) none ++
      runPieces el mid stop (blockCount mid stop) none, FourDigitYear x.1 ∧ FourDigitYear (x.2.1 - 1) := by
    intro x hx
    rcases List.mem_append.1 hx with h | h
    · exact runPieces_four hr h
    · exact runPieces_four hr' h
  have hs : (runPieces el start mid (blockCount start mid) none ++
      runPieces el mid stop (blockCount mid stop) none).Pairwise fun a b => a.1 < b.1 := by
    rw [List.pairwise_append]
    refine ⟨runPieces_sorted .., runPieces_sorted .., fun x hx y hy => ?_⟩
    obtain ⟨i, hi, -, h1, -⟩ := runPieces_mem hx
    obtain ⟨j, hj, -, h2, -⟩ := runPieces_mem hy
    have g1 := (blockAt_lt hi).1
    have g2 := (blockAt_le hle (i + 1)).2
    have g3 := (blockAt_le hle' j).1
    omega
  rw [e, putAll_eq (names_nodup h4 hs)] at hl
  obtain ⟨-, -, hv⟩ := runPieces_values el hle (blockCount start mid) none
  obtain ⟨-, -, hv'⟩ := runPieces_values el hle' (blockCount mid stop) none
  have hv := hv rfl
  have hv' := hv' rfl
  rw [hend, blockAt_count hle] at hv
  rw [hend, blockAt_count hle'] at hv'
  refine ⟨_, _, load_sorted hl (fun e he => hd e (List.mem_filter.1 he).1) h4 hs ?_, ?_, ?_, ?_⟩
  · intro h
    have := congrArg List.length h
    simp [runPieces] at this
    omega
  all_goals
    rw [show ((runPieces el start mid (blockCount start mid) none ++
        runPieces el mid stop (blockCount mid stop) none).map fun x => minuteRange x.1 x.2.1).flatten =
        minuteRange start stop by
      rw [List.map_append, List.flatten_append, runPieces_minutes el hle, runPieces_minutes el hle', hend, hend,
        blockAt_count hle, blockAt_count hle', minuteRange_append hle hle']]
  · exact minuteRange_each _ _
  · rw [List.map_append, List.flatten_append, hv, hv', ← List.map_append, minuteRange_append hle hle']
    simp
  · rw [List.map_append, List.flatten_append, hv, hv', ← List.map_append, minuteRange_append hle hle']
    have := belongTo_take el (minuteRange start stop) (minuteRange start stop).length
    rwa [List.take_of_length_le (by simp)] at this

example := c76_resumed runEl (longRun (n := 576000) (by decide) (by decide)) (stop := runStart + 600000)
  ⟨by decide, fun m h1 h2 => longRun_four (by unfold runStart at h1; omega) (by unfold runStart at h2; omega)⟩
  (d := []) (by simp [NoUnderscore]) (.refl _)

/-- Finding: a run to a later `--stop` leaves the last file of the earlier run, unless that is for a whole year
of 365 days; its minutes are then loaded twice. -/
theorem c76_extended {α : Type} (el : Int → α) {start stop stop' : Int} (hr : ProperRun start stop')
    (h1 : start < stop) (h2 : stop < stop') {listed : Dir α}
    (hl : listed.Perm (simulate el start stop' (simulate el start stop []))) :
    ∃ values minutes, load listed = .ok (values, minutes) ∧
      if (365 * 24 * 60 : Int) ∣ stop - start then
        EachMinute start stop' minutes ∧ values.length = minutes.length ∧ BelongTo el values minutes
      else ∃ a, start ≤ a ∧ a < stop ∧ ∀ m, minutes.count m =
        if start ≤ m ∧ m < a then 1 else if a ≤ m ∧ m < stop then 2 else if stop ≤ m ∧ m < stop' then 1 else 0 := by
  have h0 : (365 * 24 * 60 : Int) = 525600 := by decide
  have hr1 : ProperRun start stop := ⟨h1, fun m a b => hr.2 m a (by omega)⟩
  have hle : start ≤ stop' := by omega
  have hn : 0 < blockCount start stop' := by unfold blockCount blockSize; omega
  have hmin : ((runPieces el start stop' (blockCount start stop') none).map fun x => minuteRange x.1 x.2.1).flatten =
      minuteRange start stop' := by
    rw [runPieces_minutes el hle, runEnd_full, blockAt_count hle]
  have hval : ((runPieces el start stop' (blockCount start stop') none).map (·.2.2)).flatten =
      (minuteRange start stop').map el := by
    obtain ⟨-, -, hv⟩ := runPieces_values el hle (blockCount start stop') none
    rw [hv rfl, runEnd_full, blockAt_count hle]
  have hne : runPieces el start stop' (blockCount start stop') none ≠ [] := by
    rw [runPieces_full]
    intro h
    have := congrArg List.length h
    simp at this
    omega
  rw [extended_dir el hr h1 h2] at hl
  rw [h0]
  by_cases hd : (525600 : Int) ∣ stop - start
  · rw [if_pos hd] at hl
    refine ⟨_, _, load_sorted (junk := []) hl (by simp [NoUnderscore]) (fun x => runPieces_four hr)
      (runPieces_sorted ..) hne, ?_⟩
    rw [if_pos hd, hmin, hval]
    exact ⟨minuteRange_each _ _, by simp, belongTo_map _ _⟩
  · rw [if_neg hd] at hl
    have hq : (stop - start).toNat / blockSize < blockCount start stop := by
      unfold blockCount blockSize; omega
    have hlast := blockAt_lt hq
    have hstop : blockAt start stop ((stop - start).toNat / blockSize + 1) = stop := by
      unfold blockAt blockSize; omega
    have hb := blockAt_le (Int.le_of_lt h1) ((stop - start).toNat / blockSize)
    generalize (stop - start).toNat / blockSize = q at *
    rw [List.singleton_append, ← List.map_cons, ← List.nil_append (List.map fileOf _)] at hl
    obtain ⟨es, hp, -, hld⟩ := load_files hl
      (by simp [NoUnderscore]) (by
        intro x hx
        rcases List.mem_cons.1 hx with rfl | hx
        · exact runPieces_four hr1 (k := blockCount start stop) (p := none)
            (by rw [runPieces_full]; exact List.mem_map_of_mem (List.mem_range.2 hq))
        · exact runPieces_four hr hx)
    rw [if_neg (by
      rintro rfl
      exact absurd hp.symm.eq_nil (List.cons_ne_nil _ _))] at hld
    refine ⟨_, _, hld, ?_⟩
    rw [if_neg hd]
    refine ⟨blockAt start stop q, hb.1, by omega, fun m => ?_⟩
    have hperm : (es.map fun x => minuteRange x.1 x.2.1).flatten.Perm
        (minuteRange (blockAt start stop q) stop ++ minuteRange start stop') := by
      refine (hp.map _).flatten.trans (List.Perm.of_eq ?_)
      rw [List.map_cons, List.flatten_cons, hmin]
      show minuteRange (blockAt start stop q) (blockAt start stop (q + 1)) ++ minuteRange start stop' = _
      rw [hstop]
    rw [hperm.count_eq, List.count_append, count_minuteRange, count_minuteRange]
    split <;> split <;> (try split) <;> (try split) <;> omega

example := c76_extended runEl (longRun (n := 600000) (by decide) (by decide)) (stop := runStart + 576000)
  (by decide) (by decide) (.refl _)
/-- Three minutes, then five: the first three are loaded twice. -/
example : load (simulate runEl runStart (runStart + 5) (simulate runEl runStart (runStart + 3) [])) =
    .ok ([800, 807, 814, 800, 807, 814, 821, 828],
      [26294400, 26294401, 26294402, 26294400, 26294401, 26294402, 26294403, 26294404]) := by decide +kernel

/-- Finding: a second run over the same minutes that is interrupted while it writes the first of several files
leaves that file shorter; the longitudes of the later files are then taken for those of earlier minutes. -/
theorem c76_misplaced {α : Type} (el : Int → α) {start stop : Int} (hr : ProperRun start stop)
    (hlong : start + 365 * 24 * 60 < stop) {p : Nat} (hp : p < 365 * 24 * 60) {listed : Dir α}
    (hl : listed.Perm (interrupted el start stop 0 (some p) (simulate el start stop []))) :
    ∃ values minutes, load listed = .ok (values, minutes) ∧ EachMinute start stop minutes ∧
      minutes[p]? = some (start + p) ∧ values[p]? = some (el (start + 365 * 24 * 60)) := by
  have h0 : (365 * 24 * 60 : Int) = (blockSize : Nat) := by decide
  have h0' : 365 * 24 * 60 = blockSize := by decide
  rw [h0] at hlong ⊢
  rw [h0'] at hp
  have hle := Int.le_of_lt hr.1
  have hb0 := blockAt_zero hle
  have hb1 : blockAt start stop 1 = start + (blockSize : Nat) := by unfold blockAt; simp; omega
  have hc : 1 < blockCount start stop := by unfold blockCount blockSize at *; omega
  obtain ⟨n, hn⟩ : ∃ n, blockCount start stop = n + 1 := ⟨blockCount start stop - 1, by omega⟩
  -- the files
  have hfull : runPieces el start stop (blockCount start stop) none =
      pieceAt el start stop 0 :: (List.range n).map (fun i => pieceAt el start stop (i + 1)) := by
    rw [runPieces_full, hn, List.range_succ_eq_map, List.map_cons, List.map_map]
    rfl
  have hshort : runPieces el start stop 0 (some p) = [(start, start + (blockSize : Nat),
      ((minuteRange start (start + (blockSize : Nat))).map el).take p)] := by
    unfold runPieces lastPiece
    simp only [Nat.zero_min, List.range_zero, List.map_nil, List.nil_append, if_pos (show 0 < blockCount start stop by omega), Nat.zero_add,
      hb0, hb1]
  have hsorted := runPieces_sorted el start stop (blockCount start stop) none
  have hfour : ∀ x ∈ runPieces el start stop (blockCount start stop) none,
      FourDigitYear x.1 ∧ FourDigitYear (x.2.1 - 1) := fun x => runPieces_four hr
  have hname : (fileOf (pieceAt el start stop 0)).1 = (fileOf (start, start + ((blockSize : Nat) : Int),
      ((minuteRange start (start + (blockSize : Nat))).map el).take p)).1 := by
    unfold fileOf pieceAt
    simp only [hb0, hb1, Nat.zero_add]
  have hnd := names_nodup hfour hsorted
  rw [hfull] at hsorted hfour hnd
  have hdir : interrupted el start stop 0 (some p) (simulate el start stop []) =
      ((List.range n).map (fun i => pieceAt el start stop (i + 1))).map fileOf ++
      [fileOf (start, start + ((blockSize : Nat) : Int),
        ((minuteRange start (start + (blockSize : Nat))).map el).take p)] := by
    rw [interrupted_eq, simulate_nil hr, hfull, hshort, putAll_eq (by simp)]
    congr 1
    rw [List.map_cons, List.map_cons, List.nodup_cons] at hnd
    rw [List.map_cons (f := fileOf) (a := pieceAt el start stop 0), List.filter_cons_of_neg]
    · rw [List.filter_eq_self]
      intro e he
      simp only [List.map_cons, List.map_nil, List.mem_singleton, decide_eq_true_eq, ← hname]
      intro h
      exact hnd.1 (h ▸ List.mem_map_of_mem he)
    · simp only [List.map_cons, List.map_nil, List.mem_singleton, decide_eq_true_eq, ← hname, not_true_eq_false,
        not_false_eq_true]
  rw [hdir] at hl
  have hl' : listed.Perm ([] ++ ((start, start + ((blockSize : Nat) : Int),
      ((minuteRange start (start + (blockSize : Nat))).map el).take p) ::
      (List.range n).map (fun i => pieceAt el start stop (i + 1))).map fileOf) := by
    refine hl.trans (List.perm_append_comm.trans ?_)
    rw [List.map_cons]
    exact .refl _
  have hrest : ((List.range n).map (fun i => pieceAt el start stop (i + 1))).map (·.2.2) =
      ((List.range n).map fun i => minuteRange (blockAt start stop (i + 1)) (blockAt start stop (i + 1 + 1))).map
        (List.map el) := by
    rw [List.map_map, List.map_map]
    rfl
  have hflat : (minuteRange start (start + (blockSize : Nat)) ++
      ((List.range n).map fun i => minuteRange (blockAt start stop (i + 1)) (blockAt start stop (i + 1 + 1))).flatten) =
      minuteRange start stop := by
    have := blocks_flatten hle (n + 1)
    rw [← hn, blockAt_count hle, hn, List.range_succ_eq_map, List.map_cons, List.map_map, List.flatten_cons, hb0,
      Nat.zero_add, hb1] at this
    exact this
  refine ⟨_, _, load_sorted hl' (by simp [NoUnderscore]) ?_ ?_ (by simp), ?_, ?_, ?_⟩
  · intro x hx
    rcases List.mem_cons.1 hx with rfl | hx
    · have := hfour _ (List.mem_cons_self ..)
      unfold pieceAt at this
      simp only [hb0, hb1, Nat.zero_add] at this
      exact this
    · exact hfour x (List.mem_cons_of_mem _ hx)
  · rw [List.pairwise_cons] at hsorted ⊢
    refine ⟨fun x hx => ?_, hsorted.2⟩
    have := hsorted.1 x hx
    unfold pieceAt at this
    rwa [hb0] at this
  · rw [List.map_cons, List.map_map, List.flatten_cons]
    have := minuteRange_each start stop
    rw [← hflat] at this
    exact this
  · rw [List.map_cons, List.map_map, List.flatten_cons]
    have : (minuteRange start stop)[p]? = some (start + p) := minuteRange_get (by omega)
    rw [← hflat] at this
    exact this
  · rw [List.map_cons, List.flatten_cons, hrest, ← List.map_flatten]
    have hlen : (((minuteRange start (start + (blockSize : Nat))).map el).take p).length = p := by
      rw [List.length_take, List.length_map, minuteRange_length]; omega
    rw [List.getElem?_append_right (Nat.le_of_eq hlen)]
    simp only [hlen, Nat.sub_self]
    have hdrop : ((List.range n).map fun i => minuteRange (blockAt start stop (i + 1)) (blockAt start stop (i + 1 + 1))).flatten
        = minuteRange (start + (blockSize : Nat)) stop := by
      have := minuteRange_drop start stop blockSize
      rw [← hflat, List.drop_left' (by rw [minuteRange_length]; omega)] at this
      exact this
    rw [hdrop, List.getElem?_map, minuteRange_get (by omega)]
    simp

example := c76_misplaced runEl (longRun (n := 576000) (by decide) (by decide)) (by decide) (p := 17) (by decide)
  (.refl _)

/-- Finding: any other file with an underscore in its name is taken for a block, as the one that the Finder of
macOS leaves in directories it has shown. -/
theorem c76_foreign {α : Type} {listed : Dir α} {c : List α} (h : (".DS_Store".toList, c) ∈ listed) :
    ∃ msg, load listed = .error (.valueError msg) := by
  have hv : ∀ s, (∃ t, readTime s = .ok t) ∨
      readTime s = .error (.valueError "Error parsing datetime string") := by
    intro s
    unfold readTime
    simp only
    split
    · exact .inl ⟨_, rfl⟩
    · exact .inr rfl
  have hk : (listed.filterMap fun e => (nameParts e.1).map fun g => (g, e.2)).mapM
      (fun f => do return (← readTime f.1.1, f)) =
      (.error (.valueError "Error parsing datetime string") : Py (List (Int × (Str × Str) × List α))) := by
    refine mapM_error (fun f _ => ?_) ⟨((".DS".toList, "Store".toList), c), ?_, ?_⟩
    · rcases hv f.1.1 with ⟨t, ht⟩ | ht
      · exact .inl ⟨(t, f), by rw [ht]; rfl⟩
      · exact .inr (by rw [ht]; rfl)
    · rw [List.mem_filterMap]
      exact ⟨_, h, by
        have : nameParts ".DS_Store".toList = some (".DS".toList, "Store".toList) := by decide +kernel
        simp only [this]; rfl⟩
    · have : readTime ".DS".toList = .error (.valueError "Error parsing datetime string") := by decide +kernel
      simp only [this]
      rfl
  unfold load
  simp only [bind, Except.bind] at hk ⊢
  rw [hk]
  exact ⟨_, rfl⟩

example : ∃ msg, load [("2019-12-30T00:00_2019-12-30T00:01".toList, [800, 807]), (".DS_Store".toList, [])] =
    .error (.valueError msg) := c76_foreign (c := []) (by simp)

/-! ### New moons -/

theorem newMoons_of {α β : Type} (dist : α → α → β) (lt : β → β → Bool) (close : β → Bool) {sun moon : Int → α}
    {start e : Int} {vs vl : List α} {ms : List Int} (hm : EachMinute start e ms) (hs : BelongTo sun vs ms)
    (hl : BelongTo moon vl ms) (hlen : vs.length = vl.length) :
    ∃ moons, calculateNewMoon lt close (List.zipWith dist vs vl) ms = .ok moons ∧
      NewMoons lt close (fun m => dist (sun m) (moon m)) start (start + vs.length) moons := by
  obtain rfl := each_unique hm
  have hz : (List.zipWith dist vs vl).length = vs.length := by rw [List.length_zipWith, hlen, Nat.min_self]
  obtain ⟨moons, h1, h2, h3⟩ := c65_new_moon lt close (List.zipWith dist vs vl) (minuteRange start e)
    (by rw [hz]; exact hs.1) hm.1
  refine ⟨moons, h1, h2, fun m => ?_⟩
  have hle := hs.1
  rw [minuteRange_length] at hle
  -- the distance at a place is that of the minute
  have hd : ∀ k : Nat, k < vs.length → (List.zipWith dist vs vl)[k]? =
      some (dist (sun (start + k)) (moon (start + k))) := by
    intro k hk
    obtain ⟨a, ha⟩ : ∃ a, vs[k]? = some a := ⟨vs[k], List.getElem?_eq_getElem hk⟩
    obtain ⟨b, hb⟩ : ∃ b, vl[k]? = some b := ⟨vl[k], List.getElem?_eq_getElem (by omega)⟩
    have hk' : (minuteRange start e)[k]? = some (start + k) := minuteRange_get (by omega)
    rw [List.getElem?_zipWith, ha, hb, hs.2 k a _ ha hk', hl.2 k b _ hb hk']
  have hn : ∀ k : Nat, ∀ x, (List.zipWith dist vs vl)[k]? = some x → k < vs.length := by
    intro k x hx
    have := (List.getElem?_eq_some_iff.1 hx).1
    omega
  rw [h3]
  constructor
  · rintro ⟨k, a, b, c, g1, g2, g3, g4, g5, g6, g7⟩
    have hk := hn _ _ g4
    rw [minuteRange_get (by omega)] at g1
    obtain rfl := Option.some.inj g1
    rw [hd _ (by omega)] at g2 g3 g4
    obtain rfl := Option.some.inj g2
    obtain rfl := Option.some.inj g3
    obtain rfl := Option.some.inj g4
    refine ⟨by omega, by omega, ?_, ?_, g7⟩
    · rw [show start + ((k + 1 : Nat) : Int) - 1 = start + (k : Int) by omega]; exact g5
    · rw [show start + ((k + 1 : Nat) : Int) + 1 = start + ((k + 2 : Nat) : Int) by omega]; exact g6
  · rintro ⟨g1, g2, g3, g4, g5⟩
    obtain ⟨k, rfl⟩ : ∃ k : Nat, m = start + ((k + 1 : Nat) : Int) := ⟨(m - start - 1).toNat, by omega⟩
    rw [show start + ((k + 1 : Nat) : Int) - 1 = start + (k : Int) by omega] at g3
    rw [show start + ((k + 1 : Nat) : Int) + 1 = start + ((k + 2 : Nat) : Int) by omega] at g4
    exact ⟨k, _, _, _, minuteRange_get (by omega), hd _ (by omega), hd _ (by omega), hd _ (by omega), g3, g4, g5⟩

theorem same_all {a b : Int} (h : a < b) :
    ∃ same, elementwise (fun x y : Int => decide (x = y)) (minuteRange a b) (minuteRange a b) = .ok same ∧
      same.all id = true := by
  rcases same_minutes h h with ⟨msg, hm⟩ | ⟨same, h1, h2⟩
  · rw [elementwise_same _ rfl] at hm
    cases hm
  · exact ⟨same, h1, h2.2 ⟨rfl, rfl⟩⟩

/-- From complete runs over the same minutes the new moons are loaded: in order, the minutes at which sun and moon
are closer than in the minute before and in the minute after, and close. -/
theorem c76_moons {α β : Type} (dist : α → α → β) (lt : β → β → Bool) (close : β → Bool) (sun moon : Int → α)
    {start stop : Int} (hr : ProperRun start stop) {d d' : Dir α} (hd : NoUnderscore d) (hd' : NoUnderscore d')
    {solar lunar : Dir α} (hs : solar.Perm (simulate sun start stop d))
    (hl : lunar.Perm (simulate moon start stop d')) :
    ∃ moons, loadNewMoons dist lt close solar lunar = .ok moons ∧
      NewMoons lt close (fun m => dist (sun m) (moon m)) start stop moons := by
  obtain ⟨vs, ms, e1, m1, l1, b1⟩ := c76_round_trip sun hr hd [] hs
  obtain ⟨vl, ml, e2, m2, l2, b2⟩ := c76_round_trip moon hr hd' [] hl
  obtain rfl : ml = ms := (each_unique m2).trans (each_unique m1).symm
  obtain ⟨moons, h1, h2⟩ := newMoons_of dist lt close m1 b1 b2 (by omega)
  obtain ⟨same, h3, h4⟩ := same_all hr.1
  rw [← each_unique m1] at h3
  refine ⟨moons, ?_, ?_⟩
  · unfold loadNewMoons
    simp only [e1, e2, bind, Except.bind, h3, h4, elementwise_same dist (show vs.length = vl.length by omega), h1]
    rfl
  · have : start + (vs.length : Int) = stop := by
      have := hr.1
      rw [l1, each_unique m1, minuteRange_length]
      omega
    rwa [this] at h2

example := c76_moons (fun a b : Int => a - b) (fun a b => decide (a < b)) (fun a => decide (a < 3)) runEl
  (fun m => m * 5 % 13) (longRun (n := 576000) (by decide) (by decide)) (d := [("README".toList, [])]) (d' := [])
  (by intro e he; simp at he; subst he; decide) (by simp [NoUnderscore]) (.refl _) (.refl _)
/-- Sun and moon are closest at 2019-12-30T00:02. -/
example : loadNewMoons (fun a b : Int => Int.natAbs (a - b)) (fun a b => decide (a < b)) (fun a => decide (a < 3))
    (simulate (fun m => m - runStart) runStart (runStart + 5) [])
    (simulate (fun m => 3 * (m - runStart) - 4) runStart (runStart + 5) []) = .ok [26294402] := by decide +kernel

/-- From complete runs over different minutes nothing is loaded: it raises `ValueError`. -/
theorem c76_mismatch {α β : Type} (dist : α → α → β) (lt : β → β → Bool) (close : β → Bool) (sun moon : Int → α)
    {start stop start' stop' : Int} (hr : ProperRun start stop) (hr' : ProperRun start' stop')
    (hne : start ≠ start' ∨ stop ≠ stop') {d d' : Dir α} (hd : NoUnderscore d) (hd' : NoUnderscore d')
    {solar lunar : Dir α} (hs : solar.Perm (simulate sun start stop d))
    (hl : lunar.Perm (simulate moon start' stop' d')) :
    ∃ msg, loadNewMoons dist lt close solar lunar = .error (.valueError msg) := by
  obtain ⟨vs, ms, e1, m1, l1, b1⟩ := c76_round_trip sun hr hd [] hs
  obtain ⟨vl, ml, e2, m2, l2, b2⟩ := c76_round_trip moon hr' hd' [] hl
  obtain rfl := each_unique m1
  obtain rfl := each_unique m2
  unfold loadNewMoons
  rcases same_minutes hr.1 hr'.1 with ⟨msg, h⟩ | ⟨same, h, h'⟩
  · simp only [e1, e2, bind, Except.bind, h]
    exact ⟨_, rfl⟩
  · have h'' : same.all id = false := by
      rw [Bool.eq_false_iff]
      intro hc
      have := h'.1 hc
      omega
    simp only [e1, e2, bind, Except.bind, h, h'']
    exact ⟨_, rfl⟩

example := c76_mismatch (fun a b : Int => a - b) (fun a b => decide (a < b)) (fun a => decide (a < 3)) runEl
  (fun m => m * 5 % 13) (longRun (n := 576000) (by decide) (by decide)) (longRun (n := 5) (by decide) (by decide))
  (.inr (by decide)) (d := []) (d' := []) (by simp [NoUnderscore]) (by simp [NoUnderscore]) (.refl _) (.refl _)

/-- From runs that were interrupted for the first time, or one of them, either nothing is loaded, with
`ValueError`, or the new moons in a part of the minutes from the start on; unless one was interrupted after the
first longitude. -/
theorem c76_moons_interrupted {α β : Type} (dist : α → α → β) (lt : β → β → Bool) (close : β → Bool)
    (sun moon : Int → α) {start stop : Int} (hr : ProperRun start stop) (hmore : start + 1 < stop) {d d' : Dir α}
    (hd : NoUnderscore d) (hd' : NoUnderscore d') {k k' : Nat} {p p' : Option Nat} (hkp : ¬(k = 0 ∧ p = some 1))
    (hkp' : ¬(k' = 0 ∧ p' = some 1)) {solar lunar : Dir α} (hs : solar.Perm (interrupted sun start stop k p d))
    (hl : lunar.Perm (interrupted moon start stop k' p' d')) :
    (∃ msg, loadNewMoons dist lt close solar lunar = .error (.valueError msg)) ∨
    ∃ moons e, e ≤ stop ∧ loadNewMoons dist lt close solar lunar = .ok moons ∧
      NewMoons lt close (fun m => dist (sun m) (moon m)) start e moons := by
  -- nothing saved
  have hnone : ∀ (el : Int → α) (d : Dir α) k p (listed : Dir α), NoUnderscore d → ¬(0 < k ∨ p.isSome) →
      listed.Perm (interrupted el start stop k p d) → ∃ msg, load listed = .error (.valueError msg) := by
    intro el d k p listed hd hn hp
    obtain ⟨hk, hp'⟩ := not_or.1 hn
    obtain rfl : k = 0 := by omega
    obtain rfl : p = none := by cases p <;> simp_all
    rw [interrupted_none, List.take_zero, List.foldl_nil] at hp
    exact c76_nothing fun e he => hd e (hp.subset he)
  unfold loadNewMoons
  by_cases hk : 0 < k ∨ p.isSome
  case neg =>
    obtain ⟨msg, h⟩ := hnone sun d k p solar hd hk hs
    left
    simp only [h, bind, Except.bind]
    exact ⟨_, rfl⟩
  obtain ⟨e1, vs, ms, h1, lo1, up1, m1, b1, -, -, one1⟩ := c76_interrupted sun hr hd k p hk hs
  by_cases hk' : 0 < k' ∨ p'.isSome
  case neg =>
    obtain ⟨msg, h⟩ := hnone moon d' k' p' lunar hd' hk' hl
    left
    simp only [h1, h, bind, Except.bind]
    exact ⟨_, rfl⟩
  obtain ⟨e2, vl, ml, h2, lo2, up2, m2, b2, -, -, one2⟩ := c76_interrupted moon hr hd' k' p' hk' hl
  have n1 : vs.length ≠ 1 := fun h => hkp ((one1 hmore).1 h)
  have n2 : vl.length ≠ 1 := fun h => hkp' ((one2 hmore).1 h)
  obtain rfl := each_unique m1
  obtain rfl := each_unique m2
  rcases same_minutes lo1 lo2 with ⟨msg, h⟩ | ⟨same, h, h'⟩
  · left
    simp only [h1, h2, bind, Except.bind, h]
    exact ⟨_, rfl⟩
  · cases hall : same.all id with
    | false =>
      left
      simp only [h1, h2, bind, Except.bind, h, hall]
      exact ⟨_, rfl⟩
    | true =>
      obtain ⟨-, rfl⟩ := h'.1 hall
      by_cases hlen : vs.length = vl.length
      · right
        obtain ⟨moons, g1, g2⟩ := newMoons_of dist lt close m1 b1 b2 hlen
        refine ⟨moons, _, ?_, ?_, g2⟩
        · have := b1.1
          rw [minuteRange_length] at this
          omega
        · simp only [h1, h2, bind, Except.bind, h, hall, elementwise_same dist hlen, g1]
          rfl
      · left
        obtain ⟨msg, g⟩ := elementwise_differ dist hlen n1 n2
        simp only [h1, h2, bind, Except.bind, h, hall, g]
        exact ⟨_, rfl⟩

example := c76_moons_interrupted (fun a b : Int => a - b) (fun a b => decide (a < b)) (fun a => decide (a < 3)) runEl
  (fun m => m * 5 % 13) (longRun (n := 576000) (by decide) (by decide)) (by decide) (d := []) (d' := [])
  (by simp [NoUnderscore]) (by simp [NoUnderscore]) (k := 1) (k' := 1) (p := some 17) (p' := none) (by simp) (by simp)
  (.refl _) (.refl _)

/-- Finding: if the run for the sun was interrupted after the first longitude, and all minutes are in one file,
the moon is compared with the sun of the first minute throughout. -/
theorem c76_broadcast {α β : Type} (dist : α → α → β) (lt : β → β → Bool) (close : β → Bool) (sun moon : Int → α)
    {start stop : Int} (hr : ProperRun start stop) (hmore : start + 1 < stop) (hone : stop ≤ start + 365 * 24 * 60)
    {d d' : Dir α} (hd : NoUnderscore d) (hd' : NoUnderscore d') {solar lunar : Dir α}
    (hs : solar.Perm (interrupted sun start stop 0 (some 1) d)) (hl : lunar.Perm (simulate moon start stop d')) :
    ∃ moons, loadNewMoons dist lt close solar lunar = .ok moons ∧
      NewMoons lt close (fun m => dist (sun start) (moon m)) start stop moons := by
  obtain ⟨e1, vs, ms, h1, lo1, up1, m1, b1, -, he, one1⟩ := c76_interrupted sun hr hd 0 (some 1) (.inr rfl) hs
  obtain ⟨vl, ml, h2, m2, l2, b2⟩ := c76_round_trip moon hr hd' [] hl
  obtain rfl : e1 = stop := by omega
  obtain rfl := each_unique m1
  obtain rfl := each_unique m2
  have hv : vs.length = 1 := (one1 hmore).2 ⟨rfl, rfl⟩
  obtain ⟨v, rfl⟩ := List.length_eq_one_iff.1 hv
  obtain rfl : v = sun start := by
    have := b1.2 0 v (start + (0 : Nat)) rfl (minuteRange_get (by omega))
    rwa [Int.natCast_zero, Int.add_zero] at this
  obtain ⟨same, h3, h4⟩ := same_all hr.1
  have hrep : BelongTo (fun _ => sun start) (List.replicate vl.length (sun start)) (minuteRange start e1) := by
    refine ⟨by rw [List.length_replicate]; omega, fun i v m hv _ => ?_⟩
    rw [List.getElem?_replicate] at hv
    split at hv
    · exact (Option.some.inj hv).symm
    · cases hv
  obtain ⟨moons, g1, g2⟩ := newMoons_of dist lt close m2 hrep b2 (List.length_replicate ..)
  have hz : List.zipWith dist (List.replicate vl.length (sun start)) vl = vl.map (dist (sun start)) := by
    apply List.ext_getElem?
    intro i
    rw [List.getElem?_zipWith, List.getElem?_map, List.getElem?_replicate]
    by_cases hi : i < vl.length
    · rw [if_pos hi, List.getElem?_eq_getElem hi]
      rfl
    · rw [if_neg hi, List.getElem?_eq_none (by omega)]
      rfl
  refine ⟨moons, ?_, ?_⟩
  · rw [hz] at g1
    unfold loadNewMoons
    simp only [h1, h2, bind, Except.bind, h3, h4, elementwise_one, g1]
    rfl
  · rw [List.length_replicate, l2, minuteRange_length] at g2
    rwa [show start + ((e1 - start).toNat : Int) = e1 by omega] at g2

example := c76_broadcast (fun a b : Int => a - b) (fun a b => decide (a < b)) (fun a => decide (a < 3)) runEl
  (fun m => m * 5 % 13) (longRun (n := 4320) (by decide) (by decide)) (by decide) (by decide) (d := []) (d' := [])
  (by simp [NoUnderscore]) (by simp [NoUnderscore]) (.refl _) (.refl _)

end TC.Props
