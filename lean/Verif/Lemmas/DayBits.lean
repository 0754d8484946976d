import Verif.Lemmas.ExchangeCheck
import Verif.Lemmas.Named
import Verif.Spec.Gaps

/-!
# The closed days of an exchange as the bits of a number

Bit `i` stands for day `i - 28000`; the number covers 114688 days, from 1893 to 2207, so that the holidays
of an exchange are all inside.  The kernel computes with such numbers quickly.
-/

namespace TC
open Spec

/-- Bits `i < 7 * 2 ^ k` are those of `p` at `i % 7`. -/
def weekBits (p : Nat) : Nat → Nat
  | 0 => p
  | k + 1 => weekBits p k ||| (weekBits p k) <<< (7 * 2 ^ k)

theorem weekBits_testBit {p : Nat} (hp : p < 2 ^ 7) (k i : Nat) :
    (weekBits p k).testBit i = (decide (i < 7 * 2 ^ k) && p.testBit (i % 7)) := by
  induction k generalizing i with
  | zero =>
    by_cases h : i < 7
    · simp [weekBits, h, Nat.mod_eq_of_lt h]
    · have : p.testBit i = false := Nat.testBit_lt_two_pow (Nat.lt_of_lt_of_le hp
        (Nat.pow_le_pow_right (by decide) (by omega)))
      simp [weekBits, h, this]
  | succ k ih =>
    rw [weekBits, Nat.testBit_or, Nat.testBit_shiftLeft, ih, ih]
    have e : 7 * 2 ^ (k + 1) = 7 * 2 ^ k + 7 * 2 ^ k := by rw [Nat.pow_succ]; omega
    generalize hn : 2 ^ k = n at *
    by_cases h : i < 7 * n
    · have h1 : ¬ (i ≥ 7 * n) := by omega
      have h2 : i < 7 * 2 ^ (k + 1) := by omega
      simp [h, h1, h2]
    · by_cases h2 : i < 7 * n + 7 * n
      · have h3 : i ≥ 7 * n := by omega
        have h4 : i - 7 * n < 7 * n := by omega
        have h5 : (i - 7 * n) % 7 = i % 7 := by omega
        have h6 : i < 7 * 2 ^ (k + 1) := by omega
        simp [h, h3, h4, h5, h6]
      · have h4 : ¬ (i - 7 * n < 7 * n) := by omega
        have h6 : ¬ (i < 7 * 2 ^ (k + 1)) := by omega
        simp [h, h4, h6]

theorem one_shift_testBit (i j : Nat) : (1 <<< i).testBit j = decide (i = j) := by
  rw [Nat.one_shiftLeft, Nat.testBit_two_pow]

/-- Bit `i` if `b`. -/
def bitIf (b : Bool) (i : Nat) : Nat := if b then 1 <<< i else 0

theorem bitIf_testBit (b : Bool) (i j : Nat) : (bitIf b i).testBit j = (b && decide (i = j)) := by
  cases b
  · simp [bitIf]
  · simp only [bitIf, if_true, one_shift_testBit, Bool.true_and]

/-- The bits of the weekdays on which the exchange is closed; day `-28000` was a Thursday. -/
def maskBits (ws : List Int) : Nat :=
  (List.range 7).foldr (fun (i : Nat) n => bitIf (!ws.contains (((i : Int) + 3) % 7)) i ||| n) 0

theorem maskBits_testBit (ws : List Int) {i : Nat} (hi : i < 7) :
    (maskBits ws).testBit i = !ws.contains (((i : Int) + 3) % 7) := by
  have key : ∀ l : List Nat, (l.foldr (fun (i : Nat) n =>
      bitIf (!ws.contains (((i : Int) + 3) % 7)) i ||| n) 0).testBit i =
      (l.contains i && !ws.contains (((i : Int) + 3) % 7)) := by
    intro l
    induction l with
    | nil => simp
    | cons a l ih =>
      rw [List.foldr_cons, Nat.testBit_or, ih, List.contains_cons, bitIf_testBit]
      by_cases ha : i = a
      · subst ha
        rw [decide_eq_true rfl, beq_self_eq_true, Bool.and_true, Bool.true_or, Bool.true_and]
        cases (!ws.contains (((i : Int) + 3) % 7)) <;> simp
      · have hab : (i == a) = false := by simp [ha]
        rw [hab, Bool.false_or, decide_eq_false (Ne.symm ha), Bool.and_false, Bool.false_or]
  have := key (List.range 7)
  unfold maskBits
  rw [this]
  have : (List.range 7).contains i = true := by simp [hi]
  rw [this, Bool.true_and]

theorem maskBits_lt (ws : List Int) : maskBits ws < 2 ^ 7 := by
  have key : ∀ l : List Nat, (∀ i ∈ l, i < 7) → (l.foldr (fun (i : Nat) n =>
      bitIf (!ws.contains (((i : Int) + 3) % 7)) i ||| n) 0) < 2 ^ 7 := by
    intro l hl
    induction l with
    | nil => simp
    | cons a l ih =>
      rw [List.foldr_cons]
      refine Nat.or_lt_two_pow ?_ (ih fun i hi => hl i (List.mem_cons_of_mem _ hi))
      unfold bitIf
      split
      · rw [Nat.one_shiftLeft]
        exact Nat.pow_lt_pow_right (by decide) (hl a List.mem_cons_self)
      · exact Nat.two_pow_pos 7
  exact key _ fun i hi => List.mem_range.1 hi

/-- The days of the list, added to the bits `n`. -/
def dayBits (ds : List Int) (n : Nat) : Nat := ds.foldr (fun d n => 1 <<< (d + 28000).toNat ||| n) n

theorem dayBits_testBit (ds : List Int) (n i : Nat) :
    (dayBits ds n).testBit i = (ds.any (fun d => decide ((d + 28000).toNat = i)) || n.testBit i) := by
  unfold dayBits
  induction ds with
  | nil => simp
  | cons d ds ih => rw [List.foldr_cons, Nat.testBit_or, ih, one_shift_testBit, List.any_cons, Bool.or_assoc]

/-- The first and the last year for which the rule has to be evaluated. -/
def Rule.firstYear (s : Rule) : Int := match s.startDate with | none => 1969 | some d => max 1969 (yearOf d - 1)

@[inherit_doc Rule.firstYear]
def Rule.lastYear (s : Rule) : Int := match s.endDate with | none => 2201 | some d => min 2201 (yearOf d + 1)

/-- The first of January from 1969 to 2201. -/
def januaryTable : List Int :=
  [-365, 0, 365, 730, 1096, 1461, 1826, 2191, 2557, 2922, 3287, 3652, 4018, 4383, 4748, 5113, 5479, 5844,
   6209, 6574, 6940, 7305, 7670, 8035, 8401, 8766, 9131, 9496, 9862, 10227, 10592, 10957, 11323, 11688, 12053,
   12418, 12784, 13149, 13514, 13879, 14245, 14610, 14975, 15340, 15706, 16071, 16436, 16801, 17167, 17532,
   17897, 18262, 18628, 18993, 19358, 19723, 20089, 20454, 20819, 21184, 21550, 21915, 22280, 22645, 23011,
   23376, 23741, 24106, 24472, 24837, 25202, 25567, 25933, 26298, 26663, 27028, 27394, 27759, 28124, 28489,
   28855, 29220, 29585, 29950, 30316, 30681, 31046, 31411, 31777, 32142, 32507, 32872, 33238, 33603, 33968,
   34333, 34699, 35064, 35429, 35794, 36160, 36525, 36890, 37255, 37621, 37986, 38351, 38716, 39082, 39447,
   39812, 40177, 40543, 40908, 41273, 41638, 42004, 42369, 42734, 43099, 43465, 43830, 44195, 44560, 44926,
   45291, 45656, 46021, 46387, 46752, 47117, 47482, 47847, 48212, 48577, 48942, 49308, 49673, 50038, 50403,
   50769, 51134, 51499, 51864, 52230, 52595, 52960, 53325, 53691, 54056, 54421, 54786, 55152, 55517, 55882,
   56247, 56613, 56978, 57343, 57708, 58074, 58439, 58804, 59169, 59535, 59900, 60265, 60630, 60996, 61361,
   61726, 62091, 62457, 62822, 63187, 63552, 63918, 64283, 64648, 65013, 65379, 65744, 66109, 66474, 66840,
   67205, 67570, 67935, 68301, 68666, 69031, 69396, 69762, 70127, 70492, 70857, 71223, 71588, 71953, 72318,
   72684, 73049, 73414, 73779, 74145, 74510, 74875, 75240, 75606, 75971, 76336, 76701, 77067, 77432, 77797,
   78162, 78528, 78893, 79258, 79623, 79989, 80354, 80719, 81084, 81450, 81815, 82180, 82545, 82911, 83276,
   83641, 84006, 84371]

/-- The first of March from 1969 to 2201. -/
def marchTable : List Int :=
  [-306, 59, 424, 790, 1155, 1520, 1885, 2251, 2616, 2981, 3346, 3712, 4077, 4442, 4807, 5173, 5538, 5903,
   6268, 6634, 6999, 7364, 7729, 8095, 8460, 8825, 9190, 9556, 9921, 10286, 10651, 11017, 11382, 11747, 12112,
   12478, 12843, 13208, 13573, 13939, 14304, 14669, 15034, 15400, 15765, 16130, 16495, 16861, 17226, 17591,
   17956, 18322, 18687, 19052, 19417, 19783, 20148, 20513, 20878, 21244, 21609, 21974, 22339, 22705, 23070,
   23435, 23800, 24166, 24531, 24896, 25261, 25627, 25992, 26357, 26722, 27088, 27453, 27818, 28183, 28549,
   28914, 29279, 29644, 30010, 30375, 30740, 31105, 31471, 31836, 32201, 32566, 32932, 33297, 33662, 34027,
   34393, 34758, 35123, 35488, 35854, 36219, 36584, 36949, 37315, 37680, 38045, 38410, 38776, 39141, 39506,
   39871, 40237, 40602, 40967, 41332, 41698, 42063, 42428, 42793, 43159, 43524, 43889, 44254, 44620, 44985,
   45350, 45715, 46081, 46446, 46811, 47176, 47541, 47906, 48271, 48636, 49002, 49367, 49732, 50097, 50463,
   50828, 51193, 51558, 51924, 52289, 52654, 53019, 53385, 53750, 54115, 54480, 54846, 55211, 55576, 55941,
   56307, 56672, 57037, 57402, 57768, 58133, 58498, 58863, 59229, 59594, 59959, 60324, 60690, 61055, 61420,
   61785, 62151, 62516, 62881, 63246, 63612, 63977, 64342, 64707, 65073, 65438, 65803, 66168, 66534, 66899,
   67264, 67629, 67995, 68360, 68725, 69090, 69456, 69821, 70186, 70551, 70917, 71282, 71647, 72012, 72378,
   72743, 73108, 73473, 73839, 74204, 74569, 74934, 75300, 75665, 76030, 76395, 76761, 77126, 77491, 77856,
   78222, 78587, 78952, 79317, 79683, 80048, 80413, 80778, 81144, 81509, 81874, 82239, 82605, 82970, 83335,
   83700, 84065, 84430]

/-- The Easter Sundays from 1969 to 2201. -/
def easterTable : List Int :=
  [-270, 87, 465, 822, 1207, 1564, 1914, 2299, 2656, 3006, 3391, 3748, 4126, 4483, 4840, 5225, 5575, 5932,
   6317, 6667, 7024, 7409, 7759, 8144, 8501, 8858, 9236, 9593, 9950, 10328, 10685, 11070, 11427, 11777, 12162,
   12519, 12869, 13254, 13611, 13961, 14346, 14703, 15088, 15438, 15795, 16180, 16530, 16887, 17272, 17622,
   18007, 18364, 18721, 19099, 19456, 19813, 20198, 20548, 20905, 21290, 21640, 22025, 22382, 22732, 23117,
   23474, 23824, 24209, 24566, 24951, 25301, 25658, 26043, 26393, 26750, 27135, 27492, 27842, 28227, 28584,
   28962, 29319, 29676, 30061, 30411, 30768, 31153, 31503, 31888, 32245, 32595, 32980, 33337, 33687, 34072,
   34429, 34786, 35164, 35521, 35906, 36263, 36613, 36998, 37355, 37705, 38090, 38447, 38825, 39182, 39539,
   39924, 40274, 40631, 41016, 41366, 41723, 42108, 42458, 42843, 43200, 43557, 43935, 44292, 44649, 45027,
   45384, 45769, 46126, 46476, 46861, 47218, 47568, 47953, 48310, 48660, 49045, 49402, 49780, 50137, 50494,
   50879, 51229, 51586, 51971, 52321, 52706, 53063, 53413, 53798, 54155, 54505, 54890, 55247, 55604, 55982,
   56339, 56724, 57081, 57431, 57816, 58173, 58523, 58908, 59265, 59643, 60000, 60357, 60742, 61092, 61449,
   61834, 62184, 62541, 62926, 63276, 63661, 64018, 64375, 64753, 65110, 65467, 65845, 66202, 66587, 66944,
   67294, 67679, 68036, 68386, 68771, 69128, 69478, 69863, 70220, 70605, 70955, 71312, 71697, 72047, 72404,
   72789, 73139, 73524, 73881, 74238, 74616, 74973, 75330, 75715, 76065, 76422, 76807, 77157, 77542, 77899,
   78249, 78634, 78991, 79341, 79726, 80083, 80468, 80818, 81175, 81560, 81910, 82267, 82652, 83009, 83359,
   83744, 84101, 84479]

theorem easterTable_eq : (dayRange 1969 2201).map easter = easterTable := by decide +kernel

theorem januaryTable_eq : (dayRange 1969 2201).map jan1 = januaryTable := by decide +kernel

theorem marchTable_eq : (dayRange 1969 2201).map (fun y => dayOf y 3 1) = marchTable := by decide +kernel

/-- The entries of one of the tables for the years of the rule. -/
def Rule.entries (s : Rule) (table : List Int) : List Int :=
  (table.drop (s.firstYear - 1969).toNat).take (s.lastYear - s.firstYear + 1).toNat

theorem entries_mem {s : Rule} {f : Int → Int} {table : List Int} (h : (dayRange 1969 2201).map f = table)
    (u : Int) : u ∈ s.entries table ↔ ∃ y, s.firstYear ≤ y ∧ y ≤ s.lastYear ∧ u = f y := by
  have hf : 1969 ≤ s.firstYear := by unfold Rule.firstYear; split <;> omega
  have hl : s.lastYear ≤ 2201 := by unfold Rule.lastYear; split <;> omega
  subst h
  unfold Rule.entries dayRange
  rw [List.map_map, List.mem_iff_getElem]
  simp only [List.length_take, List.length_drop, List.length_map, List.length_range, List.getElem_take,
    List.getElem_drop, List.getElem_map, List.getElem_range, Function.comp]
  constructor
  · rintro ⟨i, hi, rfl⟩
    refine ⟨1969 + (((s.firstYear - 1969).toNat + i : Nat) : Int), by omega, by omega, rfl⟩
  · rintro ⟨y, h1, h2, rfl⟩
    refine ⟨(y - s.firstYear).toNat, by omega, ?_⟩
    congr 1
    omega

/-- The reference dates of the rule. -/
def Rule.refDates (s : Rule) : List Int :=
  if s.month ≤ 2 then (s.entries januaryTable).map (· + (daysBeforeMonth 1 s.month + (s.day - 1)))
  else (s.entries marchTable).map (· + (daysBeforeMonth 1 s.month - 59 + (s.day - 1)))

theorem mem_refDates (s : Rule) (u : Int) :
    u ∈ s.refDates ↔ ∃ y, s.firstYear ≤ y ∧ y ≤ s.lastYear ∧ u = dayOf y s.month s.day := by
  have l1 : isLeap 1 = false := by decide
  unfold Rule.refDates
  split
  · rename_i hm
    simp only [List.mem_map, entries_mem januaryTable_eq]
    constructor
    · rintro ⟨v, ⟨y, h1, h2, rfl⟩, rfl⟩
      refine ⟨y, h1, h2, ?_⟩
      have e : decide (2 < s.month) = false := by simp; omega
      unfold dayOf daysBeforeMonth
      rw [e]; simp; omega
    · rintro ⟨y, h1, h2, rfl⟩
      refine ⟨_, ⟨y, h1, h2, rfl⟩, ?_⟩
      have e : decide (2 < s.month) = false := by simp; omega
      unfold dayOf daysBeforeMonth
      rw [e]; simp; omega
  · rename_i hm
    have key : ∀ y, dayOf y 3 1 + (daysBeforeMonth 1 s.month - 59 + (s.day - 1)) = dayOf y s.month s.day := by
      intro y
      have e : decide (2 < s.month) = true := by simp; omega
      unfold dayOf daysBeforeMonth
      rw [e, l1]
      have e3 : decide ((2 : Int) < 3) = true := by decide
      simp only [e3, Bool.true_and, Bool.and_false]
      generalize (match s.month with
        | 1 => 0 | 2 => 31 | 3 => 59 | 4 => 90 | 5 => 120 | 6 => 151 | 7 => 181 | 8 => 212
        | 9 => 243 | 10 => 273 | 11 => 304 | 12 => 334 | _ => (365 : Int)) = k
      split <;> simp <;> omega
    simp only [List.mem_map, entries_mem marchTable_eq]
    constructor
    · rintro ⟨v, ⟨y, h1, h2, rfl⟩, rfl⟩
      exact ⟨y, h1, h2, key y⟩
    · rintro ⟨y, h1, h2, rfl⟩
      exact ⟨_, ⟨y, h1, h2, rfl⟩, key y⟩

/-- The holidays of the rule by the reference dates, by the table of Easter Sundays if it is a number of days
after Easter. -/
def Rule.observedDates (s : Rule) : List Int :=
  match s.observance, s.offsets with
  | none, [.easter, .days n] =>
    if s.month = 1 ∧ s.day = 1 then (s.entries easterTable).map (· + n) else s.refDates.flatMap s.applyRule
  | none, [] => s.refDates
  | _, _ => s.refDates.flatMap s.applyRule

theorem applyRule_easter {s : Rule} {n : Int} (ho : s.observance = none) (hf : s.offsets = [.easter, .days n])
    (y : Int) : s.applyRule (dayOf y 1 1) = [easter y + n] := by
  unfold Rule.applyRule
  rw [ho, hf]
  simp only [List.foldl_cons, List.foldl_nil, Offset.apply]
  have hy1 : yearOf (dayOf y 1 1) = y := (toDate_monthStart (by omega) (by omega)).1
  have hlt : dayOf y 1 1 < easter y := by
    have := easter_in_year y
    have : dayOf y 1 1 = jan1 y := by unfold dayOf daysBeforeMonth; simp
    omega
  unfold nextAnnual
  rw [hy1, if_pos hlt]

theorem mem_observedDates (s : Rule) (d : Int) : d ∈ s.observedDates ↔
    ∃ y, s.firstYear ≤ y ∧ y ≤ s.lastYear ∧ d ∈ s.applyRule (dayOf y s.month s.day) := by
  have plain : d ∈ s.refDates.flatMap s.applyRule ↔
      ∃ y, s.firstYear ≤ y ∧ y ≤ s.lastYear ∧ d ∈ s.applyRule (dayOf y s.month s.day) := by
    simp only [List.mem_flatMap, mem_refDates]
    constructor
    · rintro ⟨u, ⟨y, h1, h2, rfl⟩, h⟩
      exact ⟨y, h1, h2, h⟩
    · rintro ⟨y, h1, h2, h⟩
      exact ⟨_, ⟨y, h1, h2, rfl⟩, h⟩
  unfold Rule.observedDates
  split
  · rename_i n ho hf
    split
    · rename_i hmd
      rw [hmd.1, hmd.2]
      simp only [applyRule_easter ho hf, List.mem_singleton, List.mem_map, entries_mem easterTable_eq]
      constructor
      · rintro ⟨u, ⟨y, h1, h2, rfl⟩, rfl⟩
        exact ⟨y, h1, h2, rfl⟩
      · rintro ⟨y, h1, h2, rfl⟩
        exact ⟨_, ⟨y, h1, h2, rfl⟩, rfl⟩
    · exact plain
  · rename_i ho hf
    rw [mem_refDates]
    have e : ∀ u, s.applyRule u = [u] := by
      intro u
      unfold Rule.applyRule
      rw [ho, hf]
      rfl
    simp only [e, List.mem_singleton]
  · exact plain

/-- The holidays of the rule from 1970 to 2200. -/
def Rule.quickDates (s : Rule) : List Int :=
  (match s.year with
  | some y => [dayOf y s.month s.day]
  | none => (s.observedDates.filter s.allowsDay).filter s.inBounds).filter
    fun d => decide (0 ≤ d) && decide (d ≤ 84370)

theorem mem_quickDates {s : Rule} (hg : GoodRule s) (hn : Near s) (d : Int) :
    d ∈ s.quickDates ↔ IsHoliday s d ∧ 0 ≤ d ∧ d ≤ 84370 := by
  unfold Rule.quickDates
  rw [List.mem_filter]
  simp only [Bool.and_eq_true, decide_eq_true_eq]
  refine and_congr_left fun hw => ?_
  cases hy : s.year with
  | some y => simp [isHoliday_year hg hy]
  | none =>
    unfold IsHoliday
    simp only [hy]
    rw [List.mem_filter, inBounds_iff, List.mem_filter, mem_observedDates]
    refine and_congr_left fun hb => ?_
    have hk : ∀ y, KeptOn s y d ↔ d ∈ s.applyRule (dayOf y s.month s.day) ∧ s.allowsDay d = true := by
      intro y
      rw [← ofYear_iff hg y d, Rule.ofYear, List.mem_filter]
    constructor
    · rintro ⟨⟨y, -, -, h1⟩, h2⟩
      exact ⟨y, (hk y).2 ⟨h1, h2⟩⟩
    · rintro ⟨y, h⟩
      obtain ⟨y₁, y₂, hk₁, hin, a, b⟩ := hn y d h
      rw [inYear_iff] at hin
      have := yearOf_window hw.1 hw.2
      obtain ⟨h1, h2⟩ := (hk y₁).1 hk₁
      refine ⟨⟨y₁, ?_, ?_, h1⟩, h2⟩
      · unfold Rule.firstYear
        split
        · omega
        · rename_i e he
          have := yearOf_mono (hb.1 e he)
          omega
      · unfold Rule.lastYear
        split
        · omega
        · rename_i e he
          have := yearOf_mono (hb.2 e he)
          omega

/-- The holidays of the exchange, regular and ad hoc. -/
def Exchange.holidayList (x : Exchange) : List Int := x.adhoc ++ x.regular.flatMap Rule.quickDates

/-- The closed days of the exchange. -/
def Exchange.closedBits (x : Exchange) : Nat := dayBits x.holidayList (weekBits (maskBits x.weekdays) 14)

theorem tradesOn_list {x : Exchange} (h : GoodRules x.regular) (d : Int) :
    TradesOn x d ↔ x.weekdays.contains (weekday d) = true ∧ d ∉ x.holidayList := by
  obtain ⟨hg, hn⟩ := h
  unfold TradesOn Exchange.holidayList
  rw [List.mem_append, List.mem_flatMap, not_or, List.contains_iff_mem]
  refine and_congr ?_ (and_congr Iff.rfl ?_)
  · rw [← weekday_exists d (fun w => w ∈ x.weekdays)]
    exact ⟨fun ⟨w, a, b⟩ => ⟨w, b, a⟩, fun ⟨w, a, b⟩ => ⟨w, b, a⟩⟩
  · constructor
    · rintro hh ⟨r, hr, hd⟩
      obtain ⟨k, h0, h1⟩ := (mem_quickDates (hg r hr) (hn r hr) d).1 hd
      exact hh h0 h1 r hr k
    · intro hh h0 h1 r hr k
      exact hh ⟨r, hr, (mem_quickDates (hg r hr) (hn r hr) d).2 ⟨k, h0, h1⟩⟩

/-- A day of the window is a trading day exactly if its bit is not set. -/
theorem closedBits_testBit {x : Exchange} (h : GoodRules x.regular) (hl : ∀ d ∈ x.holidayList, -28000 ≤ d)
    {d : Int} (h0 : -28000 ≤ d) (h1 : d < 86688) :
    x.closedBits.testBit (d + 28000).toNat = false ↔ TradesOn x d := by
  rw [tradesOn_list h, Exchange.closedBits, dayBits_testBit, weekBits_testBit (maskBits_lt _),
    maskBits_testBit _ (Nat.mod_lt _ (by decide))]
  have e1 : (d + 28000).toNat < 7 * 2 ^ 14 := by simp only [Nat.reducePow]; omega
  have e2 : ((((d + 28000).toNat % 7 : Nat) : Int) + 3) % 7 = weekday d := by
    unfold weekday; omega
  rw [e2]
  simp only [e1, decide_true, Bool.true_and, Bool.or_eq_false_iff, Bool.not_eq_false']
  rw [and_comm]
  refine and_congr Iff.rfl ?_
  rw [List.any_eq_false]
  constructor
  · intro hh hd
    exact hh d hd (by simp)
  · intro hh d' hd' he
    have := hl d' hd'
    have : d' = d := by
      have := of_decide_eq_true he
      omega
    exact hh (this ▸ hd')

/-! ### Runs of closed days -/

/-- Bit `i` is set if the bits `i` to `i + k` of `n` are. -/
def runBits (n : Nat) : Nat → Nat
  | 0 => n
  | k + 1 => runBits n k &&& (n >>> (k + 1))

theorem runBits_testBit (n k i : Nat) : (runBits n k).testBit i = true ↔ ∀ j ≤ k, n.testBit (i + j) = true := by
  induction k with
  | zero =>
    rw [runBits]
    constructor
    · intro h j hj
      obtain rfl : j = 0 := by omega
      exact h
    · intro h
      exact h 0 (by omega)
  | succ k ih =>
    rw [runBits, Nat.testBit_and, Bool.and_eq_true, ih, Nat.testBit_shiftRight]
    constructor
    · rintro ⟨h1, h2⟩ j hj
      rcases Nat.lt_or_ge k j with h | h
      · obtain rfl : j = k + 1 := by omega
        rw [Nat.add_comm]
        exact h2
      · exact h1 j h
    · intro h
      refine ⟨fun j hj => h j (by omega), ?_⟩
      rw [Nat.add_comm]
      exact h (k + 1) (by omega)

/-- The ad-hoc holidays are far from the ends of the window. -/
def Exchange.insideB (x : Exchange) : Bool := x.adhoc.all fun d => decide (-27950 ≤ d) && decide (d ≤ 86600)

theorem inside_of {x : Exchange} (hr : GoodRules x.regular) (h : x.insideB = true) :
    ∀ d ∈ x.holidayList, -27950 ≤ d ∧ d ≤ 86600 := by
  intro d hd
  rcases List.mem_append.1 hd with h1 | h1
  · have := List.all_eq_true.1 h d h1
    simpa using this
  · obtain ⟨r, hr', h2⟩ := List.mem_flatMap.1 h1
    have := ((mem_quickDates (hr.1 r hr') (hr.2 r hr') d).1 h2).2
    omega

/-- No run of `g + 1` closed days, `g ≤ 40`. -/
def gapB (ws : List Int) (g n : Nat) : Bool :=
  decide (g ≤ 40) &&
  ((List.range 7).all fun i => (List.range (g + 1)).any fun j => ws.contains (((i : Int) + j) % 7)) &&
  runBits n g == 0

theorem gap_of {x : Exchange} {g : Nat} (hr : GoodRules x.regular) (hi : x.insideB = true)
    (h : gapB x.weekdays g x.closedBits = true) (d : Int) : ∃ e, d ≤ e ∧ e ≤ d + g ∧ TradesOn x e := by
  have hl := inside_of hr hi
  unfold gapB at h
  simp only [Bool.and_eq_true, List.all_eq_true, decide_eq_true_eq, List.any_eq_true, beq_iff_eq] at h
  obtain ⟨⟨hg, hw⟩, h0⟩ := h
  by_cases hin : -28000 ≤ d ∧ d < 86640
  · apply Classical.byContradiction
    intro hno
    have : (runBits x.closedBits g).testBit (d + 28000).toNat = true := by
      rw [runBits_testBit]
      intro j hj
      apply Classical.byContradiction
      intro hb
      have e : (d + 28000).toNat + j = (d + j + 28000).toNat := by omega
      rw [e] at hb
      refine hno ⟨d + j, by omega, by omega, ?_⟩
      exact (closedBits_testBit hr (fun d hd => by have := hl d hd; omega) (by omega) (by omega)).1
        (by simpa using hb)
    rw [h0] at this
    simp at this
  · obtain ⟨j, hj, hc⟩ := hw (weekday d).toNat (List.mem_range.2 (by unfold weekday; omega))
    rw [List.mem_range] at hj
    refine ⟨d + j, by omega, by omega, (tradesOn_list hr _).2 ⟨?_, fun hd => ?_⟩⟩
    · have : (((weekday d).toNat : Int) + j) % 7 = weekday (d + j) := by unfold weekday; omega
      rw [← this]
      exact hc
    · have := hl _ hd
      omega

theorem closedBits_lt {x : Exchange} (hr : GoodRules x.regular) (hi : x.insideB = true) {i : Nat}
    (h : x.closedBits.testBit i = true) : i < 7 * 2 ^ 14 := by
  rw [Exchange.closedBits, dayBits_testBit, weekBits_testBit (maskBits_lt _), Bool.or_eq_true, List.any_eq_true] at h
  rcases h with ⟨d, hd, he⟩ | h
  · have := inside_of hr hi d hd
    have := of_decide_eq_true he
    simp only [Nat.reducePow]
    omega
  · rw [Bool.and_eq_true] at h
    exact of_decide_eq_true h.1

theorem run_of {x : Exchange} {g : Nat} (hr : GoodRules x.regular) (hi : x.insideB = true)
    (h : runBits x.closedBits g ≠ 0) : ∃ d : Int, ∀ e : Int, d ≤ e → e ≤ d + g → ¬ TradesOn x e := by
  obtain ⟨i, h⟩ := Nat.exists_testBit_of_ne_zero h
  rw [runBits_testBit] at h
  refine ⟨(i : Int) - 28000, fun e h1 h2 ht => ?_⟩
  have hb := h (e - ((i : Int) - 28000)).toNat (by omega)
  have hlt := closedBits_lt hr hi hb
  simp only [Nat.reducePow] at hlt
  have e1 : i + (e - ((i : Int) - 28000)).toNat = (e + 28000).toNat := by omega
  rw [e1] at hb hlt
  rw [(closedBits_testBit hr (fun d hd => by have := inside_of hr hi d hd; omega) (by omega) (by omega)).2 ht] at hb
  simp at hb

/-! ### Counting trading days -/

/-- The number of unset bits among the first `k`. -/
def zeroBits : Nat → Nat → Nat
  | 0, _ => 0
  | k + 1, n => (1 - n % 2) + zeroBits k (n / 2)

theorem zeroBits_eq (k n : Nat) : zeroBits k n = (List.range k).countP fun i => !n.testBit i := by
  induction k generalizing n with
  | zero => rfl
  | succ k ih =>
    rw [zeroBits, ih, List.range_succ_eq_map, List.countP_cons, List.countP_map]
    have e : ((fun i => !n.testBit i) ∘ Nat.succ) = fun i => !(n / 2).testBit i := by
      funext i
      simp [Nat.testBit_succ]
    rw [e, Nat.add_comm]
    congr 1
    rw [Nat.testBit_zero]
    rcases Nat.mod_two_eq_zero_or_one n with h | h <;> simp [h]

/-- Octal digit `i` is the number of unset bits among the seven of `i < 128`. -/
def weekTable : Nat := (List.range 128).foldr (fun i t => zeroBits 7 i + 8 * t) 0

theorem weekTable_get : ∀ i < 128, (weekTable >>> (3 * i)) % 8 = zeroBits 7 i := by decide +kernel

/-- The number of unset bits among the first `7 * w + r`, with the table `t`. -/
def zerosByWeek (t : Nat) : Nat → Nat → Nat → Nat
  | 0, r, n => zeroBits r n
  | w + 1, r, n => Nat.add (Nat.mod (Nat.shiftRight t (Nat.mul 3 (Nat.mod n 128))) 8)
      (zerosByWeek t w r (Nat.shiftRight n 7))

theorem zeroBits_add (a b n : Nat) : zeroBits (a + b) n = zeroBits a n + zeroBits b (n >>> a) := by
  induction a generalizing n with
  | zero => simp [zeroBits]
  | succ a ih =>
    rw [Nat.add_right_comm, zeroBits, zeroBits, ih, Nat.add_assoc]
    congr 2
    rw [Nat.add_comm a 1, Nat.shiftRight_add]
    rfl

theorem zeroBits_mod (k n : Nat) : zeroBits k (n % 2 ^ k) = zeroBits k n := by
  rw [zeroBits_eq, zeroBits_eq]
  apply List.countP_congr
  intro i hi
  rw [List.mem_range] at hi
  simp [Nat.testBit_mod_two_pow, hi]

theorem zerosByWeek_eq (w r n : Nat) : zerosByWeek weekTable w r n = zeroBits (7 * w + r) n := by
  induction w generalizing n with
  | zero => simp [zerosByWeek]
  | succ w ih =>
    have e : 7 * (w + 1) + r = 7 + (7 * w + r) := by omega
    rw [zerosByWeek, ih, e, zeroBits_add 7]
    have := weekTable_get (n % 128) (Nat.mod_lt _ (by decide))
    have h2 := zeroBits_mod 7 n
    rw [show (2 : Nat) ^ 7 = 128 from rfl] at h2
    rw [← h2, ← this]
    rfl

/-- The numbers of trading days of `k` years from year `y` on, given the bits of the closed days from the
first of January of year `y` on. -/
def yearCounts (t : Nat) : Nat → Int → Nat → List Nat
  | 0, _, _ => []
  | k + 1, y, n =>
    if isLeap y then zerosByWeek t 52 2 n :: yearCounts t k (y + 1) (Nat.shiftRight n 366)
    else zerosByWeek t 52 1 n :: yearCounts t k (y + 1) (Nat.shiftRight n 365)

/-- The number of days of year `y`. -/
def yearLength (y : Int) : Nat := if isLeap y then 366 else 365

theorem jan1_length (y : Int) : jan1 (y + 1) = jan1 y + yearLength y := by
  rw [jan1_succ, yearLength]
  split <;> omega

theorem yearCounts_eq (k : Nat) (y : Int) (n : Nat) : yearCounts weekTable k y n =
    (List.range k).map fun (i : Nat) => zeroBits (yearLength (y + i)) (n >>> (jan1 (y + i) - jan1 y).toNat) := by
  induction k generalizing y n with
  | zero => rfl
  | succ k ih =>
    have e : yearCounts weekTable (k + 1) y n =
        zeroBits (yearLength y) n :: yearCounts weekTable k (y + 1) (n >>> yearLength y) := by
      unfold yearLength
      rw [yearCounts]
      split
      · rw [zerosByWeek_eq]; rfl
      · rw [zerosByWeek_eq]; rfl
    rw [e, ih, List.range_succ_eq_map, List.map_cons, List.map_map]
    congr 1
    · simp
    · refine List.map_congr_left fun i _ => ?_
      have e1 : y + 1 + (i : Int) = y + (i.succ : Nat) := by omega
      have hmono : jan1 (y + 1) ≤ jan1 (y + (i.succ : Nat)) := jan1_le_iff.2 (by omega)
      have hl := jan1_length y
      simp only [Function.comp]
      rw [e1, ← Nat.shiftRight_add]
      congr 2
      omega

theorem countP_range_filter (p : Nat → Bool) (k : Nat) (a : Int) (q : Int → Bool)
    (h : ∀ i < k, p i = q (a + i)) :
    (List.range k).countP p = (((List.range k).map fun (i : Nat) => a + i).filter q).length := by
  rw [← List.countP_eq_length_filter, List.countP_map]
  apply List.countP_congr
  intro i hi
  rw [List.mem_range] at hi
  rw [h i hi]
  rfl

theorem zeroBits_year {x : Exchange} (hr : GoodRules x.regular) (hi : x.insideB = true) {y : Int}
    (h0 : 1894 ≤ y) (h1 : y ≤ 2206) :
    TradingDays (TradesOn x) y (zeroBits (yearLength y) (x.closedBits >>> (jan1 y + 28000).toNat)) := by
  have l0 : jan1 1894 ≤ jan1 y := jan1_le_iff.2 h0
  have l1 : jan1 (y + 1) ≤ jan1 2207 := jan1_le_iff.2 (by omega)
  have e0 : jan1 1894 = -27758 := by decide
  have e1 : jan1 2207 = 86562 := by decide
  have hl := jan1_length y
  refine ⟨((List.range (yearLength y)).map fun (i : Nat) => jan1 y + i).filter x.tradesB, ?_, ?_, ?_⟩
  · apply List.Pairwise.filter
    rw [List.pairwise_map]
    exact List.pairwise_lt_range.imp (by omega)
  · intro d
    rw [List.mem_filter, tradesB_iff hr, inYear_jan1, List.mem_map]
    refine and_congr_left fun _ => ?_
    constructor
    · rintro ⟨i, hi, rfl⟩
      rw [List.mem_range] at hi
      omega
    · intro hd
      exact ⟨(d - jan1 y).toNat, List.mem_range.2 (by omega), by omega⟩
  · rw [zeroBits_eq]
    symm
    apply countP_range_filter
    intro i hi'
    rw [Nat.testBit_shiftRight, Bool.eq_iff_iff, tradesB_iff hr]
    have e : (jan1 y + 28000).toNat + i = (jan1 y + i + 28000).toNat := by omega
    rw [e, ← closedBits_testBit hr (fun d hd => by have := inside_of hr hi d hd; omega) (by omega) (by omega)]
    simp

/-- The counts of the years from `y` on are between `lo` and `hi`, which both occur. -/
def countsB (lo hi : Nat) (l : List Nat) : Bool :=
  (l.all fun c => Nat.ble lo c && Nat.ble c hi) && l.contains lo && l.contains hi

/-- Everything about closures and yearly counts, from the bits of the closed days. -/
def statsB (ws : List Int) (g : Nat) (y : Int) (k lo hi n : Nat) : Bool :=
  gapB ws (g + 1) n && runBits n g != 0 &&
  countsB lo hi (yearCounts weekTable k y (Nat.shiftRight n (jan1 y + 28000).toNat))

theorem stats_of {x : Exchange} {g : Nat} {y : Int} {k lo hi : Nat} (hr : GoodRules x.regular)
    (hi' : x.insideB = true) (hy : 1894 ≤ y) (hk : y + k ≤ 2207)
    (h : statsB x.weekdays g y k lo hi x.closedBits = true) :
    LongestClosure (TradesOn x) (g + 1) ∧ YearlyRange (TradesOn x) y (y + k - 1) lo hi := by
  unfold statsB countsB at h
  simp only [Bool.and_eq_true, bne_iff_ne] at h
  obtain ⟨⟨hg, hn⟩, ⟨hall, hlo⟩, hhi⟩ := h
  have key : ∀ i < k, TradingDays (TradesOn x) (y + i) (zeroBits (yearLength (y + i))
      ((Nat.shiftRight x.closedBits (jan1 y + 28000).toNat) >>> (jan1 (y + i) - jan1 y).toNat)) := by
    intro i hi
    have := zeroBits_year hr hi' (y := y + i) (by omega) (by omega)
    have l0 : jan1 1894 ≤ jan1 y := jan1_le_iff.2 hy
    have e0 : jan1 1894 = -27758 := by decide
    have l1 : jan1 y ≤ jan1 (y + i) := jan1_le_iff.2 (by omega)
    have e : (jan1 y + 28000).toNat + (jan1 (y + i) - jan1 y).toNat = (jan1 (y + i) + 28000).toNat := by omega
    rw [← e, Nat.shiftRight_add] at this
    exact this
  rw [yearCounts_eq] at hall hlo hhi
  refine ⟨⟨gap_of hr hi' hg, ?_⟩, ⟨fun y' h1 h2 => ?_, ?_, ?_⟩⟩
  · obtain ⟨d, hd⟩ := run_of hr hi' hn
    exact ⟨d, fun e h1 h2 => hd e h1 (by omega)⟩
  · have hm := List.all_eq_true.1 hall _ (List.mem_map_of_mem (a := (y' - y).toNat) (List.mem_range.2 (by omega)))
    have hk := key (y' - y).toNat (by omega)
    simp only [Bool.and_eq_true, Nat.ble_eq] at hm
    have e : y + ((y' - y).toNat : Int) = y' := by omega
    rw [e] at hm hk
    exact ⟨_, hk, hm⟩
  · rw [List.contains_iff_mem, List.mem_map] at hlo
    obtain ⟨i, h1, h2⟩ := hlo
    rw [List.mem_range] at h1
    exact ⟨y + i, by omega, by omega, h2 ▸ key i h1⟩
  · rw [List.contains_iff_mem, List.mem_map] at hhi
    obtain ⟨i, h1, h2⟩ := hhi
    rw [List.mem_range] at h1
    exact ⟨y + i, by omega, by omega, h2 ▸ key i h1⟩

end TC
