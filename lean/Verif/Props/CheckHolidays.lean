import Verif.Spec.CheckHolidays
import Verif.Props.Build
import Verif.Props.Ranges
import Verif.Props.Defaults

/-!
# Property C67: the comparison of the calendars with a holiday key
-/

namespace TC.Props
open TC TC.Spec TC.CheckHolidays

/-! ### The key -/

theorem nodup_eraseDups (xs : List Int) : xs.eraseDups.Nodup := by
  generalize hn : xs.length = n
  induction n using Nat.strongRecOn generalizing xs with
  | _ n ih =>
    cases xs with
    | nil => simp
    | cons a as =>
      rw [List.eraseDups_cons, List.nodup_cons]
      have hlen : (as.filter fun b => !b == a).length < n := by
        have := List.length_filter_le (fun b => !b == a) as
        simp only [List.length_cons] at hn
        omega
      exact ⟨by simp [List.mem_eraseDups], ih _ hlen _ rfl⟩

theorem foldl_min_spec : ∀ (xs : List Int) (x : Int),
    xs.foldl min x ∈ x :: xs ∧ ∀ y ∈ x :: xs, xs.foldl min x ≤ y
  | [], x => by simp
  | z :: zs, x => by
    obtain ⟨h1, h2⟩ := foldl_min_spec zs (min x z)
    simp only [List.foldl_cons]
    refine ⟨?_, fun y hy => ?_⟩
    · rcases List.mem_cons.1 h1 with h | h
      · rw [h]
        rcases Int.min_def x z ▸ (by split <;> simp : (if x ≤ z then x else z) = x ∨ (if x ≤ z then x else z) = z) with h | h <;>
          simp [Int.min_def, h]
      · simp [h]
    · have h3 := h2 (min x z) (by simp)
      rcases List.mem_cons.1 hy with rfl | hy
      · omega
      · rcases List.mem_cons.1 hy with rfl | hy
        · omega
        · exact h2 y (by simp [hy])

theorem foldl_max_spec : ∀ (xs : List Int) (x : Int),
    xs.foldl max x ∈ x :: xs ∧ ∀ y ∈ x :: xs, y ≤ xs.foldl max x
  | [], x => by simp
  | z :: zs, x => by
    obtain ⟨h1, h2⟩ := foldl_max_spec zs (max x z)
    simp only [List.foldl_cons]
    refine ⟨?_, fun y hy => ?_⟩
    · rcases List.mem_cons.1 h1 with h | h
      · rw [h]
        rcases Int.max_def x z ▸ (by split <;> simp : (if x ≤ z then z else x) = x ∨ (if x ≤ z then z else x) = z) with h | h <;>
          simp [Int.max_def, h]
      · simp [h]
    · have h3 := h2 (max x z) (by simp)
      rcases List.mem_cons.1 hy with rfl | hy
      · omega
      · rcases List.mem_cons.1 hy with rfl | hy
        · omega
        · exact h2 y (by simp [hy])

theorem dropX (cs : List Char) : ∃ k, cs = List.replicate k 'X' ++ cs.dropWhile (· == 'X') ∧
    (cs.dropWhile (· == 'X')).head? ≠ some 'X' := by
  induction cs with
  | nil => exact ⟨0, by simp⟩
  | cons c cs ih =>
    obtain ⟨k, h1, h2⟩ := ih
    by_cases hc : c = 'X'
    · subst hc
      refine ⟨k + 1, ?_, ?_⟩
      · simp only [List.dropWhile_cons, beq_self_eq_true, if_true, List.replicate_succ, List.cons_append]
        rw [← h1]
      · simpa [List.dropWhile_cons] using h2
    · refine ⟨0, ?_, ?_⟩ <;> simp [List.dropWhile_cons, hc]

theorem dropX_unique {cs rest : List Char} : ∀ {k : Nat}, cs = List.replicate k 'X' ++ rest →
    rest.head? ≠ some 'X' → cs.dropWhile (· == 'X') = rest := by
  intro k
  induction k generalizing cs with
  | zero =>
    intro e h
    simp only [List.replicate_zero, List.nil_append] at e
    subst e
    cases cs with
    | nil => rfl
    | cons c r => simp at h; simp [List.dropWhile_cons, h]
  | succ k ih =>
    rintro rfl h
    simp only [List.replicate_succ, List.cons_append, List.dropWhile_cons, beq_self_eq_true, if_true]
    exact ih rfl h

/-- **C67.**  The name looked up in the key is the one given for the purpose, if any; else the calendar's
name, without its leading X if that is asked for. -/
theorem c67_code (a : Args) (name code : String) : csvCode a name = code ↔ LookedUp a name code := by
  have key : ∀ (h : a.answerName = none ∨ a.answerName = some ""), csvCode a name = csvCode.fromName a name := by
    intro h
    unfold csvCode
    rcases h with h | h <;> simp [h]
  constructor
  · rintro rfl
    by_cases h : a.answerName = none ∨ a.answerName = some ""
    · rw [key h]
      unfold csvCode.fromName
      cases hs : a.stripX with
      | false => exact .plain h hs
      | true =>
        obtain ⟨k, h1, h2⟩ := dropX name.toList
        exact .stripped (k := k) h hs (by simpa using h1) (by simpa using h2)
    · cases hn : a.answerName with
      | none => simp [hn] at h
      | some n =>
        have hne : n ≠ "" := by simpa [hn] using h
        have : csvCode a name = n := by unfold csvCode; simp [hn, hne]
        rw [this]
        exact .given hn hne
  · intro h
    cases h with
    | given h1 h2 => unfold csvCode; simp [h1, h2]
    | plain h1 h2 => rw [key h1]; simp [csvCode.fromName, h2]
    | stripped h1 h2 h3 h4 =>
      rw [key h1]
      simp only [csvCode.fromName, h2, if_true]
      rw [dropX_unique h3 h4]
      exact String.ofList_toList

/-- `XNYS` is looked up as `NYS`, and `XX` as the empty name. -/
example (rows : List (String × Int)) : LookedUp ⟨rows, true, none, 0, []⟩ "XNYS" "NYS" ∧
    LookedUp ⟨rows, true, some "", 0, []⟩ "XX" "" ∧ LookedUp ⟨rows, true, some "NYX", 0, []⟩ "XPAR" "NYX" :=
  ⟨(c67_code _ _ _).1 rfl, (c67_code _ _ _).1 rfl, (c67_code _ _ _).1 rfl⟩

theorem mem_keyHolidays {a : Args} {name : String} {t : Int} : t ∈ keyHolidays a name ↔ KeyFor a name t := by
  unfold keyHolidays KeyFor
  simp only [List.mem_eraseDups, List.mem_map, List.mem_filter, beq_iff_eq]
  constructor
  · rintro ⟨⟨c, t⟩, ⟨h1, h2⟩, rfl⟩
    exact ⟨c, (c67_code _ _ _).1 h2.symm, h1⟩
  · rintro ⟨c, h1, h2⟩
    exact ⟨(c, t), ⟨h2, ((c67_code _ _ _).2 h1).symm⟩, rfl⟩

/-- **C67.**  The calendars are visited in alphabetical order, each of the registered ones once. -/
theorem c67_names : defaultCalendarNames.Pairwise (· < ·) ∧
    ∀ n, n ∈ defaultCalendarNames ↔ ∃ cls, (n, cls) ∈ defaultClasses := by
  refine ⟨by decide +kernel, fun n => ?_⟩
  have h : ∀ n, n ∈ defaultCalendarNames ↔ n ∈ defaultFactoryNames := by
    intro n
    unfold defaultCalendarNames
    generalize defaultFactoryNames = xs
    induction xs with
    | nil => simp
    | cons x xs ih =>
      have hins : ∀ (ys : List String) (x n : String), n ∈ insertName x ys ↔ n = x ∨ n ∈ ys := by
        intro ys x n
        induction ys with
        | nil => simp [insertName]
        | cons y ys ih =>
          unfold insertName
          split
          · simp
          · simp only [List.mem_cons, ih]
            constructor
            · rintro (h | h | h) <;> simp [h]
            · rintro (h | h | h) <;> simp [h]
      simp only [List.foldr_cons, hins, ih, List.mem_cons]
  rw [h, ← c58_names, List.mem_map]
  constructor
  · rintro ⟨⟨m, cls⟩, hm, rfl⟩; exact ⟨cls, hm⟩
  · rintro ⟨cls, hm⟩; exact ⟨_, hm, rfl⟩

/-! ### One calendar -/

theorem weekday5 (d : Int) : decide (weekday d < 5) = true ↔ ¬ Weekend d := by
  unfold Weekend
  rw [weekday_iff, weekday_iff, decide_eq_true_iff]
  unfold weekday
  omega

theorem mem_difference {xs ys : List Int} {x : Int} : x ∈ difference xs ys ↔ x ∈ xs ∧ x ∉ ys := by
  simp [difference]

theorem map_div_lists {xs : List Int} (hs : SortedLT xs) (hd : ∀ x ∈ xs, DAY ∣ x) {P : Int → Prop}
    (hP : ∀ d, d * DAY ∈ xs ↔ P d) : ListsDays P (xs.map (· / DAY)) := by
  have hpos : (0 : Int) < DAY := by decide
  refine ⟨?_, fun d => ?_⟩
  · rw [List.pairwise_map]
    refine List.Pairwise.imp_of_mem (fun {x y} hx hy hlt => ?_) hs
    obtain ⟨i, rfl⟩ := hd x hx
    obtain ⟨j, rfl⟩ := hd y hy
    simp only [DAY] at *
    omega
  · rw [← hP, List.mem_map]
    constructor
    · rintro ⟨x, hx, rfl⟩
      rw [Int.ediv_mul_cancel (hd x hx)]
      exact hx
    · intro h
      exact ⟨_, h, by simp only [DAY]; omega⟩

theorem listing_eq (h : Line) (xs : List Int) :
    (if xs.length ≠ 0 then h :: xs.map (fun s => Line.date (s / DAY)) else []) =
      Listing h (xs.map (· / DAY)) := by
  unfold Listing
  cases xs with
  | nil => simp
  | cons x xs => simp [Function.comp_def]

/-- **C67.**  The report on a calendar whose sessions are labelled by days: the days of the range that key
and calendar have in common on which the calendar trades, though the key has them or they are at a weekend;
the weekdays of that range on which it is closed, though the key does not have them; and that the calendar
matches the key, if there are none. -/
theorem c67_report {ss : List Session} (h : Regular ss) (hne : ss ≠ [])
    (hday : ∀ s ∈ ss, DAY ∣ s.label) {a : Args} (hw : WholeDays a) (cls name : String) :
    ∃ lines, checkOne a (Cal.ofSessions ss) cls name = (lines, none) ∧
      Report (KeyFor a name) (· ∈ ss.map (·.label)) a.minDate cls name lines := by
  have hsess : (Cal.ofSessions ss).sessions = ss.map (·.label) := rfl
  have hnd : (keyHolidays a name).Nodup := nodup_eraseDups _
  have hkd : ∀ t, KeyFor a name t → DAY ∣ t := by
    rintro t ⟨c, -, hm⟩; exact hw.1 _ hm
  have hmem : ∀ t, t ∈ keyHolidays a name ↔ KeyFor a name t := fun t => mem_keyHolidays
  unfold checkOne
  generalize hk : keyHolidays a name = ks at *
  cases ks with
  | nil => exact ⟨_, rfl, .nothing fun t ht => by simpa using (hmem t).2 ht⟩
  | cons k ks =>
    obtain ⟨f, l, hf, hl, hfm, hlm, hfl⟩ :=
      (c33_first_last (Cal.ofSessions ss) h.labels_sorted).2 (by rw [hsess]; simpa using hne)
    simp only [hf, hl]
    rw [hsess] at hfm hlm hfl
    obtain ⟨m1, m2⟩ := foldl_min_spec ks k
    obtain ⟨x1, x2⟩ := foldl_max_spec ks k
    generalize ks.foldl min k = kmin at *
    generalize ks.foldl max k = kmax at *
    have hsd : ∀ l, l ∈ ss.map (·.label) → DAY ∣ l := by
      intro l hl
      obtain ⟨s, hs, rfl⟩ := List.mem_map.1 hl
      exact hday s hs
    generalize hstart : max (max f kmin) a.minDate = start
    generalize hstop : min l kmax = stop
    have dstart : DAY ∣ start := by
      have h1 := hsd f hfm
      have h2 := hkd kmin ((hmem _).1 m1)
      have h3 := hw.2
      have : start = f ∨ start = kmin ∨ start = a.minDate := by omega
      rcases this with e | e | e <;> rw [e] <;> assumption
    have dstop : DAY ∣ stop := by
      have h1 := hsd l hlm
      have h2 := hkd kmax ((hmem _).1 x1)
      have : stop = l ∨ stop = kmax := by omega
      rcases this with e | e <;> rw [e] <;> assumption
    have hnb : ∀ t, NotBefore (KeyFor a name) (· ∈ ss.map (·.label)) a.minDate t ↔ start ≤ t := by
      intro t
      constructor
      · rintro ⟨⟨s, hs, hst⟩, ⟨u, hu, hut⟩, hmt⟩
        have := (hfl s hs).1
        have := m2 u ((hmem u).2 hu)
        omega
      · intro ht
        exact ⟨⟨f, hfm, by omega⟩, ⟨kmin, (hmem _).1 m1, by omega⟩, by omega⟩
    have hna : ∀ t, NotAfter (KeyFor a name) (· ∈ ss.map (·.label)) t ↔ t ≤ stop := by
      intro t
      constructor
      · rintro ⟨⟨s, hs, hst⟩, u, hu, hut⟩
        have := (hfl s hs).2
        have := x2 u ((hmem u).2 hu)
        omega
      · intro ht
        exact ⟨⟨l, hlm, by omega⟩, kmax, (hmem _).1 x1, by omega⟩
    have hcmp : ∀ d, Compared (KeyFor a name) (· ∈ ss.map (·.label)) a.minDate d ↔
        start ≤ d * DAY ∧ d * DAY ≤ stop := by
      intro d; unfold Compared; rw [hnb, hna]
    obtain ⟨b1, b2⟩ := dateRange_spec (fun d => decide (weekday d < 5)) (stop := stop) dstart
    have hact : (Cal.ofSessions ss).sessionsInRange start stop =
        (ss.map (·.label)).filter (fun l => decide (start ≤ l ∧ l ≤ stop)) :=
      (c26_sessions_in_range h start stop).1
    have hbus : ∀ t, t ∈ businessDays start stop ↔
        ∃ d, t = d * DAY ∧ start ≤ t ∧ t ≤ stop ∧ ¬ Weekend d := by
      intro t
      unfold businessDays
      rw [b2]
      simp only [weekday5]
    have hinj : ∀ d d' : Int, d * DAY = d' * DAY → d = d' := by
      intro d d' e; simp only [DAY] at e; omega
    have hOpen := map_div_lists
      (xs := difference ((Cal.ofSessions ss).sessionsInRange start stop)
        (difference (businessDays start stop) (k :: ks)))
      (P := OpenAgainstKey (KeyFor a name) (· ∈ ss.map (·.label)) a.minDate)
      (List.Pairwise.filter _ (by rw [hact]; exact List.Pairwise.filter _ h.labels_sorted))
      (fun x hx => hsd x (by
        have := (mem_difference.1 hx).1
        rw [hact, List.mem_filter] at this
        exact this.1)) (by
        intro d
        rw [mem_difference, hact, List.mem_filter, decide_eq_true_iff, mem_difference, hmem, hbus]
        unfold OpenAgainstKey
        rw [hcmp]
        constructor
        · rintro ⟨⟨h1, h2⟩, h3⟩
          refine ⟨h2, h1, ?_⟩
          by_cases hkey : KeyFor a name (d * DAY)
          · exact .inl hkey
          · refine .inr (Classical.byContradiction fun hwk => h3 ⟨⟨d, rfl, h2.1, h2.2, hwk⟩, hkey⟩)
        · rintro ⟨h1, h2, h3⟩
          refine ⟨⟨h2, h1⟩, ?_⟩
          rintro ⟨⟨d', e, -, -, h4⟩, h5⟩
          rw [← hinj _ _ e] at h4
          rcases h3 with h3 | h3
          · exact h5 h3
          · exact h4 h3)
    have hClosed := map_div_lists
      (xs := difference (difference (businessDays start stop) (k :: ks))
        ((Cal.ofSessions ss).sessionsInRange start stop))
      (P := ClosedAgainstKey (KeyFor a name) (· ∈ ss.map (·.label)) a.minDate)
      (List.Pairwise.filter _ (List.Pairwise.filter _ b1))
      (fun x hx => by
        obtain ⟨d, rfl, -⟩ := (hbus x).1 (mem_difference.1 (mem_difference.1 hx).1).1
        exact Int.dvd_mul_left _ _) (by
        intro d
        rw [mem_difference, hact, List.mem_filter, decide_eq_true_iff, mem_difference, hmem, hbus]
        unfold ClosedAgainstKey
        rw [hcmp]
        constructor
        · rintro ⟨⟨⟨d', e, h1, h2, h3⟩, h4⟩, h5⟩
          rw [← hinj _ _ e] at h3
          exact ⟨⟨h1, h2⟩, fun h6 => h5 ⟨h6, h1, h2⟩, h4, h3⟩
        · rintro ⟨⟨h1, h2⟩, h3, h4, h5⟩
          exact ⟨⟨⟨d, rfl, h1, h2, h5⟩, h4⟩, fun h6 => h3 h6.1⟩)
    refine ⟨_, rfl, ?_⟩
    simp only [checkRange, listing_eq]
    generalize difference ((Cal.ofSessions ss).sessionsInRange start stop)
        (difference (businessDays start stop) (k :: ks)) = A at *
    generalize difference (difference (businessDays start stop) (k :: ks))
        ((Cal.ofSessions ss).sessionsInRange start stop) = B at *
    have e : ∀ xs : List Int, xs.length = 0 ↔ xs.map (· / DAY) = [] := by
      intro xs; cases xs <;> simp
    simp only [e]
    have es : start / DAY * DAY = start := Int.ediv_mul_cancel dstart
    have et : stop / DAY * DAY = stop := Int.ediv_mul_cancel dstop
    exact .compared ⟨_, hnd, rfl, hmem⟩ (by simp) (by rw [es, hnb]; omega) (by rw [es]; exact fun t ht => (hnb t).1 ht)
      (by rw [et, hna]; omega) (by rw [et]; exact fun t ht => (hna t).1 ht) hOpen hClosed

/-- A calendar with sessions on 1970-01-01 to -03 and -05 (Thursday to Saturday and Monday), a key that has
the first and the fifth of January: the session on Saturday and that on Monday are reported, and nothing
under the other heading. -/
example :
    let ss : List Session := [0, 1, 2, 4].map fun d => ⟨d * DAY, d * DAY + MINUTE, none, d * DAY + 2 * MINUTE⟩
    let a : Args := ⟨[("NYS", 0), ("LON", 3 * DAY), ("NYS", 4 * DAY), ("NYS", 0)], true, none, 1 * DAY, []⟩
    Regular ss ∧ (∀ s ∈ ss, DAY ∣ s.label) ∧ WholeDays a ∧
    checkOne a (Cal.ofSessions ss) "XNYSExchangeCalendar" "XNYS" =
      ([.checking 2 "XNYSExchangeCalendar" "XNYS" 1 4, .tradingDays "XNYS", .date 2, .date 4, .blank], none) := by
  refine ⟨⟨?_, by decide, by decide⟩, by decide, ⟨by decide, by decide⟩, by decide +kernel⟩
  intro s hs
  simp at hs
  rcases hs with rfl | rfl | rfl | rfl <;> simp [Session.Ok, NP_NAT, MINUTE, DAY]

/-- **C67.**  What a report says: that the calendar matches the key, if and only if the key has something on
it and on every day of the common range the calendar has a session exactly if the day is a weekday that the
key does not have. -/
theorem c67_matches {key sessions : Int → Prop} {minDate : Int} {cls name : String} {lines : List Line}
    (h : Report key sessions minDate cls name lines) :
    .matches name ∈ lines ↔ (∃ t, key t) ∧
      ∀ d, Compared key sessions minDate d → (sessions (d * DAY) ↔ ¬ Weekend d ∧ ¬ key (d * DAY)) := by
  cases h with
  | nothing h =>
    refine ⟨fun hm => by simp at hm, ?_⟩
    rintro ⟨⟨t, ht⟩, -⟩
    exact absurd ht (h t)
  | @compared n first last opens closed hn hpos h3 h4 h5 h6 ho hc =>
    have hl : ∀ (hd : Line) (ds : List Int), hd ≠ .matches name → .matches name ∉ Listing hd ds := by
      intro hd ds hne
      unfold Listing
      split
      · simp
      · simp [hne.symm]
    have hkey : ∃ t, key t := by
      obtain ⟨xs, -, hlen, hx⟩ := hn
      cases xs with
      | nil => simp at hlen; omega
      | cons x xs => exact ⟨x, (hx x).1 (by simp)⟩
    have e : Line.matches name ∈ [Line.checking n cls name first last] ++ Listing (.tradingDays name) opens
          ++ Listing (.closedDays name) closed ++ (if opens = [] ∧ closed = [] then [.matches name] else [])
          ++ [.blank] ↔ opens = [] ∧ closed = [] := by
      simp only [List.mem_append, hl (.tradingDays name) opens (by simp), hl (.closedDays name) closed (by simp)]
      split <;> simp_all
    rw [e]
    constructor
    · rintro ⟨h1, h2⟩
      refine ⟨hkey, fun d hd => ⟨fun hs => ⟨fun hw => ?_, fun hk => ?_⟩, fun ⟨hw, hk⟩ => ?_⟩⟩
      · have := (ho.2 d).2 ⟨hd, hs, .inr hw⟩
        simp [h1] at this
      · have := (ho.2 d).2 ⟨hd, hs, .inl hk⟩
        simp [h1] at this
      · refine Classical.byContradiction fun hs => ?_
        have := (hc.2 d).2 ⟨hd, hs, hk, hw⟩
        simp [h2] at this
    · rintro ⟨-, h⟩
      constructor
      · cases opens with
        | nil => rfl
        | cons d ds =>
          obtain ⟨h1, h2, h3⟩ := (ho.2 d).1 (by simp)
          have := (h d h1).1 h2
          rcases h3 with h3 | h3
          · exact absurd h3 this.2
          · exact absurd h3 this.1
      · cases closed with
        | nil => rfl
        | cons d ds =>
          obtain ⟨h1, h2, h3, h4⟩ := (hc.2 d).1 (by simp)
          exact absurd ((h d h1).2 ⟨h4, h3⟩) h2

/-- Every key that ends before the minimum date "matches": here one whose only date is a session. -/
example :
    let ss : List Session := [0, 1].map fun d => ⟨d * DAY, d * DAY + MINUTE, none, d * DAY + 2 * MINUTE⟩
    checkOne ⟨[("XNYS", 0)], false, none, 1 * DAY, []⟩ (Cal.ofSessions ss) "XNYSExchangeCalendar" "XNYS" =
      ([.checking 1 "XNYSExchangeCalendar" "XNYS" 1 0, .matches "XNYS", .blank], none) := by
  decide +kernel

theorem businessDays_tod {start stop t : Int} (h : t ∈ businessDays start stop) : t % DAY = start % DAY := by
  obtain ⟨k, rfl, -⟩ := ((dateRange_any _ start stop).2 t).1 h
  simp only [DAY]
  omega

/-- **C67.**  A minimum date with a time of day, if it is what determines the start of the range, makes the
comparison useless: every session in the range is reported as a holiday of the key. -/
theorem c67_time_of_day {ss : List Session} (h : Regular ss) (hday : ∀ s ∈ ss, DAY ∣ s.label)
    {start stop : Int} (htod : ¬ DAY ∣ start) (holidays : List Int) (cls name : String) :
    ∃ closed, checkRange start stop holidays (Cal.ofSessions ss) cls name =
      [.checking holidays.length cls name (start / DAY) (stop / DAY)]
      ++ Listing (.tradingDays name) (((ss.map (·.label)).filter fun l => decide (start ≤ l ∧ l ≤ stop)).map (· / DAY))
      ++ Listing (.closedDays name) closed
      ++ (if ((ss.map (·.label)).filter fun l => decide (start ≤ l ∧ l ≤ stop)) = [] ∧ closed = []
          then [.matches name] else []) := by
  have hact : (Cal.ofSessions ss).sessionsInRange start stop =
      (ss.map (·.label)).filter (fun l => decide (start ≤ l ∧ l ≤ stop)) :=
    (c26_sessions_in_range h start stop).1
  have hno : ∀ l, l ∈ (ss.map (·.label)).filter (fun l => decide (start ≤ l ∧ l ≤ stop)) →
      l ∉ difference (businessDays start stop) holidays := by
    intro l hl hb
    obtain ⟨s, hs, rfl⟩ := List.mem_map.1 (List.mem_filter.1 hl).1
    have h1 := businessDays_tod (mem_difference.1 hb).1
    have h2 := hday s hs
    apply htod
    rw [Int.dvd_iff_emod_eq_zero] at h2 ⊢
    omega
  refine ⟨(difference (difference (businessDays start stop) holidays)
    ((ss.map (·.label)).filter fun l => decide (start ≤ l ∧ l ≤ stop))).map (· / DAY), ?_⟩
  unfold checkRange
  simp only [hact, listing_eq]
  have e : difference ((ss.map (·.label)).filter fun l => decide (start ≤ l ∧ l ≤ stop))
      (difference (businessDays start stop) holidays) =
      (ss.map (·.label)).filter fun l => decide (start ≤ l ∧ l ≤ stop) := by
    conv => lhs; unfold difference
    rw [List.filter_eq_self]
    intro l hl
    exact decide_eq_true (hno l hl)
  rw [e]
  have e2 : ∀ xs : List Int, xs.length = 0 ↔ xs = [] := fun xs => List.length_eq_zero_iff
  simp only [e2, List.map_eq_nil_iff]

/-- Noon of 1970-01-01: the session of the second, which the key does not have, is reported. -/
example :
    let ss : List Session := [0, 1].map fun d => ⟨d * DAY, d * DAY + MINUTE, none, d * DAY + 2 * MINUTE⟩
    checkOne ⟨[("XNYS", 0), ("XNYS", 2 * DAY)], false, none, hm 12 0, []⟩ (Cal.ofSessions ss)
        "XNYSExchangeCalendar" "XNYS" =
      ([.checking 2 "XNYSExchangeCalendar" "XNYS" 0 1, .tradingDays "XNYS", .date 1, .closedDays "XNYS",
        .date 0, .blank], none) ∧ ¬ DAY ∣ hm 12 0 ∧ ∀ s ∈ ss, DAY ∣ s.label := by
  decide +kernel

/-! ### All calendars -/

theorem report_offers {now : Int} {cls : CalendarClass} {b : Built} (ho : Offers now cls b) {a : Args}
    (hw : WholeDays a) (cname name : String) :
    ∃ lines, checkOne a b.cal cname name = (lines, none) ∧
      Report (KeyFor a name) (ClassSession now cls) a.minDate cname name lines := by
  obtain ⟨ss, h1, h2, h3, -, h5, -⟩ := ho
  have e : (· ∈ ss.map (·.label)) = ClassSession now cls := by
    funext t
    exact propext (h5 t)
  obtain ⟨lines, hl, hr⟩ := c67_report h3 h2 (fun s hs => by
    obtain ⟨d, hd, -⟩ := (h5 s.label).1 (List.mem_map.2 ⟨s, hs, rfl⟩)
    rw [hd]
    exact Int.dvd_mul_left _ _) hw cname name
  rw [e] at hr
  exact ⟨lines, by rw [h1]; exact hl, hr⟩

theorem run_append_get {env : FactoryEnv} {s : Registry} (ops : List Registry.Op) (name : String) :
    ((s.run env ops).getCalendar env name).1 = s.run env (ops ++ [.get name]) := by
  simp [Registry.run, Registry.step]

theorem loop_default {w : World} {now : Int} (hr : Realizes now w.env w.content)
    (hnow : dayOf 2019 10 16 * DAY ≤ now) {a : Args} (hw : WholeDays a) (rest : List String) :
    ∀ (names : List String) (ops : List Registry.Op), (∀ op ∈ ops, Spares op) →
      (∀ n ∈ names, ∃ cls, (n, cls) ∈ defaultClasses) → (∀ n ∈ names, Selected a n → InTime now n) →
      ∃ (blocks : List (String × List Line)) (ops' : List Registry.Op), (∀ op ∈ ops', Spares op) ∧
        blocks.map Prod.fst = names.filter (fun n => decide (a.calendars = [] ∨ n ∈ a.calendars)) ∧
        (∀ p ∈ blocks, DefaultReport w now a p.1 p.2) ∧
        loop w a (defaultRegistry.run w.env ops) (names ++ rest) =
          (blocks.flatMap Prod.snd ++ (loop w a (defaultRegistry.run w.env ops') rest).1,
            (loop w a (defaultRegistry.run w.env ops') rest).2)
  | [], ops, hops, _, _ => ⟨[], ops, hops, rfl, by simp, by simp⟩
  | name :: names, ops, hops, hd, hin => by
    by_cases hs : a.calendars = [] ∨ name ∈ a.calendars
    · obtain ⟨cls, hcls⟩ := hd name (by simp)
      have hint := hin name (by simp) hs
      obtain ⟨c, hc, ho⟩ := c58_get_calendar_offers hr hnow ops hops hcls (.inl rfl) hint
      have hcc := c58_get_calendar hr ops hops hcls (n := name) (.inl rfl)
      rw [hc] at hcc
      obtain ⟨lines, hl, hrep⟩ := report_offers ho hw (w.className c) name
      obtain ⟨blocks, ops', h1, h2, h3, h4⟩ := loop_default hr hnow hw rest names (ops ++ [.get name])
        (by
          intro op hop
          rcases List.mem_append.1 hop with hop | hop
          · exact hops op hop
          · simp at hop; subst hop; trivial)
        (fun n hn => hd n (by simp [hn])) (fun n hn => hin n (by simp [hn]))
      refine ⟨(name, lines) :: blocks, ops', h1, by simp [hs, h2], ?_, ?_⟩
      · intro p hp
        rcases List.mem_cons.1 hp with rfl | hp
        · exact ⟨cls, c, hcls, hcc.symm, hrep⟩
        · exact h3 p hp
      · have hcond : ¬ (a.calendars ≠ [] ∧ name ∉ a.calendars) := by
          rintro ⟨h1, h2⟩
          rcases hs with h | h
          · exact h1 h
          · exact h2 h
        simp only [List.cons_append, loop, if_neg hcond, hc, hl, run_append_get, h4, List.flatMap_cons,
          List.append_assoc]
    · obtain ⟨blocks, ops', h1, h2, h3, h4⟩ := loop_default hr hnow hw rest names ops hops
        (fun n hn => hd n (by simp [hn])) (fun n hn => hin n (by simp [hn]))
      refine ⟨blocks, ops', h1, by simp [hs, h2], h3, ?_⟩
      have hcond : a.calendars ≠ [] ∧ name ∉ a.calendars := ⟨fun h => hs (.inl h), fun h => hs (.inr h)⟩
      simp only [List.cons_append, loop, if_pos hcond, h4]

/-- **C67.**  The script reports on each of the selected calendars, in alphabetical order, after any calls
that spare the default names; the sessions it compares with the key are the trading days of the exchange in
the calendar's default range. -/
theorem c67_run {w : World} {now : Int} (hr : Realizes now w.env w.content)
    (hnow : dayOf 2019 10 16 * DAY ≤ now) (ops : List Registry.Op) (hops : ∀ op ∈ ops, Spares op)
    {a : Args} (hw : WholeDays a)
    (hin : ∀ n cls, (n, cls) ∈ defaultClasses → Selected a n → InTime now n) :
    ∃ blocks : List (String × List Line),
      checkHolidays w a (defaultRegistry.run w.env ops) = (blocks.flatMap Prod.snd, none) ∧
      (blocks.map Prod.fst).Pairwise (· < ·) ∧
      (∀ n, n ∈ blocks.map Prod.fst ↔ (∃ cls, (n, cls) ∈ defaultClasses) ∧ Selected a n) ∧
      ∀ p ∈ blocks, DefaultReport w now a p.1 p.2 := by
  obtain ⟨blocks, ops', -, h2, h3, h4⟩ := loop_default hr hnow hw [] defaultCalendarNames ops hops
    (fun n hn => (c67_names.2 n).1 hn)
    (fun n hn hs => by obtain ⟨cls, hc⟩ := (c67_names.2 n).1 hn; exact hin n cls hc hs)
  refine ⟨blocks, ?_, ?_, ?_, h3⟩
  · rw [List.append_nil] at h4
    unfold checkHolidays
    rw [h4]
    simp [loop]
  · rw [h2]
    exact c67_names.1.filter _
  · intro n
    rw [h2, List.mem_filter, c67_names.2, decide_eq_true_iff]
    rfl

/-- **C67.**  A calendar that cannot be constructed ends the script: those before it in the alphabet are
reported on, then the exception is raised, and those after it are not checked. -/
theorem c67_stops {w : World} {now : Int} (hr : Realizes now w.env w.content)
    (hnow : dayOf 2019 10 16 * DAY ≤ now) (ops : List Registry.Op) (hops : ∀ op ∈ ops, Spares op)
    {a : Args} (hw : WholeDays a) {name : String} {cls : CalendarClass} {e : PyErr}
    (hcls : (name, cls) ∈ defaultClasses) (hsel : Selected a name) (he : cls.construct now = .error e)
    (hin : ∀ n cls, (n, cls) ∈ defaultClasses → Selected a n → n < name → InTime now n) :
    ∃ blocks : List (String × List Line),
      checkHolidays w a (defaultRegistry.run w.env ops) = (blocks.flatMap Prod.snd, some e) ∧
      (blocks.map Prod.fst).Pairwise (· < ·) ∧
      (∀ n, n ∈ blocks.map Prod.fst ↔ (∃ cls, (n, cls) ∈ defaultClasses) ∧ Selected a n ∧ n < name) ∧
      ∀ p ∈ blocks, DefaultReport w now a p.1 p.2 := by
  obtain ⟨pre, post, hsplit⟩ := List.append_of_mem ((c67_names.2 name).2 ⟨cls, hcls⟩)
  have hsorted := c67_names.1
  rw [hsplit, List.pairwise_append] at hsorted
  obtain ⟨s1, s2, s3⟩ := hsorted
  have hpre : ∀ n, n ∈ pre ↔ (∃ cls, (n, cls) ∈ defaultClasses) ∧ n < name := by
    intro n
    rw [← c67_names.2, hsplit]
    constructor
    · intro h
      exact ⟨by simp [h], s3 n h name (by simp)⟩
    · rintro ⟨h1, h2⟩
      rcases List.mem_append.1 h1 with h | h
      · exact h
      · rcases List.mem_cons.1 h with rfl | h
        · exact absurd h2 (String.lt_irrefl _)
        · exact absurd (String.lt_trans h2 ((List.pairwise_cons.1 s2).1 n h)) (String.lt_irrefl _)
  obtain ⟨blocks, ops', h1, h2, h3, h4⟩ := loop_default hr hnow hw (name :: post) pre ops hops
    (fun n hn => ((hpre n).1 hn).1)
    (fun n hn hs => by obtain ⟨⟨cls, hc⟩, hlt⟩ := (hpre n).1 hn; exact hin n cls hc hs hlt)
  have hg := c58_get_calendar hr ops' h1 hcls (n := name) (.inl rfl)
  rw [he] at hg
  refine ⟨blocks, ?_, ?_, ?_, h3⟩
  · unfold checkHolidays
    rw [hsplit, h4]
    have hcond : ¬ (a.calendars ≠ [] ∧ name ∉ a.calendars) := by
      rintro ⟨h1, h2⟩
      rcases hsel with h | h
      · exact h1 h
      · exact h2 h
    have hge : ((defaultRegistry.run w.env ops').getCalendar w.env name).2 = .error e := by
      generalize ((defaultRegistry.run w.env ops').getCalendar w.env name).2 = r at hg
      cases r with
      | error e' => cases hg; rfl
      | ok c => cases hg
    simp only [loop, if_neg hcond, hge, List.append_nil]
  · rw [h2]
    exact s1.filter _
  · intro n
    rw [h2, List.mem_filter, hpre, decide_eq_true_iff]
    unfold Selected
    constructor
    · rintro ⟨⟨h1, h2⟩, h3⟩; exact ⟨h1, h3, h2⟩
    · rintro ⟨h1, h3, h2⟩; exact ⟨⟨h1, h2⟩, h3⟩

/-- In June 2021 every calendar can be constructed, so the hypothesis of `c67_run` holds whatever is
selected; from 2028-02-14 on that of `c67_stops` holds for XKLS, for instance. -/
example (a : Args) : (let now := dayOf 2021 6 15 * DAY + hm 13 37
    dayOf 2019 10 16 * DAY ≤ now ∧ ∀ n cls, (n, cls) ∈ defaultClasses → Selected a n → InTime now n) ∧
    (let now := dayOf 2028 3 1 * DAY
      ∃ cls e, ("XKLS", cls) ∈ defaultClasses ∧ cls.construct now = .error e ∧
      ∀ n cls, (n, cls) ∈ defaultClasses → Selected a n → n < "XKLS" → InTime now n) := by
  refine ⟨⟨by decide, fun n cls _ _ => ⟨fun _ => by decide, fun _ => by decide, fun _ => by decide⟩⟩,
    .exchange Xkls.exchange Xkls.zone startDefault, _, by simp [defaultClasses], c58_xkls_fails (by decide),
    fun n cls _ _ hlt => ⟨?_, fun _ => by decide, fun _ => by decide⟩⟩
  rintro rfl
  exact absurd hlt (String.lt_irrefl _)

end TC.Props
