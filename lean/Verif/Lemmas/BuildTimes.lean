import Verif.Lemmas.Build

namespace TC
open Spec

/-! ### `_group_times` -/

/-- The time a table prescribes on date `d` (lemma-level function; the specification is
`TimeInEffect`). -/
def timeAt : TimeTable → Int → Int
  | [], _ => 0
  | [(_, t)], _ => t
  | (_, t) :: (s', t') :: rest, d =>
      if (match s' with | some x => decide (d < x) | none => false) then t
      else timeAt ((s', t') :: rest) d

/-- Chain condition: the head starts at `s`, the rest have increasing start dates beyond it. -/
def Chain (s : Option Int) (rest : TimeTable) : Prop :=
  (∀ e ∈ rest, ∃ x, e.1 = some x ∧ ∀ y, s = some y → y < x) ∧
    rest.Pairwise (fun e e' => ∀ x x', e.1 = some x → e'.1 = some x' → x < x')

theorem Chain.tail {s : Option Int} {e : Option Int × Int} {rest : TimeTable}
    (h : Chain s (e :: rest)) : Chain e.1 rest := by
  obtain ⟨h1, h2⟩ := h
  rw [List.pairwise_cons] at h2
  refine ⟨fun e' he' => ?_, h2.2⟩
  obtain ⟨x, hx, _⟩ := h1 e' (List.mem_cons_of_mem _ he')
  exact ⟨x, hx, fun y hy => h2.1 e' he' y x hy hx⟩

theorem filter_split {x : Int} {p : Int → Bool} (hp : ∀ d, x ≤ d → p d = true) :
    ∀ {days : List Int}, SortedLT days →
    days.filter (fun d => p d && decide (d < x)) ++ days.filter (fun d => decide (x ≤ d))
      = days.filter p
  | [], _ => rfl
  | d :: days, hs => by
    rw [SortedLT, List.pairwise_cons] at hs
    have ih := filter_split hp hs.2
    by_cases hdx : d < x
    · rw [List.filter_cons_of_neg (p := fun d => decide (x ≤ d)) (by simpa using hdx)]
      cases hd : p d with
      | true =>
        rw [List.filter_cons_of_pos (by simp [hd, hdx]), List.filter_cons_of_pos hd,
          List.cons_append, ih]
      | false =>
        rw [List.filter_cons_of_neg (by simp [hd]), List.filter_cons_of_neg (by simp [hd]), ih]
    · -- from here on all days are at or after `x`
      have hge : ∀ d' ∈ d :: days, x ≤ d' := by
        intro d' hd'
        rcases List.mem_cons.mp hd' with rfl | h
        · omega
        · have := hs.1 d' h; omega
      have e1 : List.filter (fun d' => p d' && decide (d' < x)) (d :: days) = [] := by
        rw [List.filter_eq_nil_iff]
        intro d' hd'
        have := hge d' hd'
        have : ¬ d' < x := by omega
        simp [this]
      rw [e1, List.nil_append]
      apply List.filter_congr
      intro d' hd'
      have h1 := hge d' hd'
      rw [hp d' h1]
      simp [h1]

theorem selection_split {days : List Int} (hs : SortedLT days) {s : Option Int} {x : Int}
    (hsx : ∀ y, s = some y → y < x) :
    selection days s (some x) ++ selection days (some x) none = selection days s none := by
  unfold selection
  simp only [Bool.and_true]
  refine filter_split (fun d hd => ?_) hs
  cases s with
  | none => rfl
  | some y => have := hsx y rfl; simp; omega

theorem mapM_congr {α β : Type} {f g : α → Py β} {xs : List α} (h : ∀ x ∈ xs, f x = g x) :
    xs.mapM f = xs.mapM g := by
  induction xs with
  | nil => rfl
  | cons x xs ih =>
    rw [List.mapM_cons, List.mapM_cons, h x (by simp),
      ih (fun y hy => h y (List.mem_cons_of_mem _ hy))]

theorem mapM_append' {α β : Type} (f : α → Py β) (xs ys : List α) :
    (xs ++ ys).mapM f = (do let a ← xs.mapM f; let b ← ys.mapM f; return a ++ b) := by
  rw [List.mapM_append]

/-- The pieces of a chain of table entries, glued together. -/
theorem group_chain {days : List Int} (hs : SortedLT days) (z : Tz) (offset : Int) :
    ∀ (rest : TimeTable) (s : Option Int) (t : Int), Chain s rest →
    ((slidingWindow2 ((s, t) :: rest ++ [(none, 0)])).mapM fun w =>
        daysAtTime (selection days w.1.1 w.2.1) w.1.2 z offset).map List.flatten
      = (selection days s none).mapM
          (fun d => z.localize (d + (offset * DAY + timeAt ((s, t) :: rest) d)))
  | [], s, t, _ => by
    simp only [List.cons_append, List.nil_append, slidingWindow2, List.mapM_cons, List.mapM_nil,
      daysAtTime, timeAt]
    cases (selection days s none).mapM (fun d => z.localize (d + (offset * DAY + t))) with
    | error e => rfl
    | ok a => simp [bind, Except.bind, pure, Except.pure, Except.map]
  | (s', t') :: rest, s, t, hc => by
    have ih := group_chain hs z offset rest s' t' hc.tail
    obtain ⟨x, hx, hsx⟩ := hc.1 (s', t') (by simp)
    simp only at hx
    subst hx
    simp only [List.cons_append, slidingWindow2, List.mapM_cons] at ih ⊢
    rw [← selection_split hs hsx, mapM_append']
    have e1 : (selection days s (some x)).mapM
          (fun d => z.localize (d + (offset * DAY + timeAt ((s, t) :: (some x, t') :: rest) d)))
        = daysAtTime (selection days s (some x)) t z offset := by
      unfold daysAtTime
      apply mapM_congr
      intro d hd
      unfold selection at hd
      rw [List.mem_filter] at hd
      have : d < x := by
        have := hd.2; simp at this; exact this.2
      simp [timeAt, this]
    have e2 : (selection days (some x) none).mapM
          (fun d => z.localize (d + (offset * DAY + timeAt ((s, t) :: (some x, t') :: rest) d)))
        = (selection days (some x) none).mapM
          (fun d => z.localize (d + (offset * DAY + timeAt ((some x, t') :: rest) d))) := by
      apply mapM_congr
      intro d hd
      unfold selection at hd
      rw [List.mem_filter] at hd
      have : ¬ d < x := by
        have := hd.2; simp at this; omega
      simp [timeAt, this]
    rw [e1, e2, ← ih]
    cases daysAtTime (selection days s (some x)) t z offset with
    | error e => rfl
    | ok a =>
      simp only [bind, Except.bind]
      generalize (List.mapM (m := Except PyErr) _ _ : Py (List (List Int))) = r
      cases r with
      | error e => rfl
      | ok b => rfl

theorem validTable_chain {table : TimeTable} (h : ValidTable table) :
    ∃ t rest, table = (none, t) :: rest ∧ Chain none rest := by
  obtain ⟨t, rest, rfl, h1, h2⟩ := h
  refine ⟨t, rest, rfl, fun e he => ?_, h2⟩
  obtain ⟨x, hx⟩ := Option.isSome_iff_exists.mp (h1 e he)
  exact ⟨x, hx, fun y hy => by cases hy⟩

/-- `_group_times` on a valid table maps each day to its standard time. -/
theorem groupTimes_eq {days : List Int} (hs : SortedLT days) {table : TimeTable}
    (hv : ValidTable table) (z : Tz) (offset : Int) :
    groupTimes days table z offset
      = days.mapM (fun d => z.localize (d + (offset * DAY + timeAt table d))) := by
  obtain ⟨t, rest, rfl, hc⟩ := validTable_chain hv
  have h := group_chain hs z offset rest none t hc
  have hsel : selection days none none = days := by
    unfold selection; exact List.filter_eq_self.mpr (by simp)
  rw [hsel] at h
  rw [← h]
  unfold groupTimes
  -- there is at least one window
  have hne : ∃ w ws, slidingWindow2 ((none, t) :: rest ++ [((none : Option Int), (0 : Int))]) = w :: ws := by
    cases rest with
    | nil => exact ⟨_, _, rfl⟩
    | cons e rest => exact ⟨_, _, rfl⟩
  obtain ⟨w, ws, hw⟩ := hne
  simp only [hw, List.mapM_cons]
  cases daysAtTime (selection days w.1.1 w.2.1) w.1.2 z offset with
  | error e => rfl
  | ok a =>
    simp only [bind, Except.bind]
    generalize (List.mapM (m := Except PyErr) _ _ : Py (List (List Int))) = r
    cases r with
    | error e => rfl
    | ok b => rfl

theorem timeAt_inEffect_aux (d : Int) : ∀ (rest : TimeTable) (s : Option Int) (t : Int),
    Chain s rest → (∀ x, s = some x → x ≤ d) → TimeInEffect ((s, t) :: rest) d (timeAt ((s, t) :: rest) d)
  | [], s, t, _, hs => ⟨[], s, [], rfl, hs, by simp⟩
  | (s', t') :: rest, s, t, hc, hs => by
    obtain ⟨x, hx, hsx⟩ := hc.1 (s', t') (by simp)
    simp only at hx
    subst hx
    by_cases hd : d < x
    · refine ⟨[], s, (some x, t') :: rest, by simp [timeAt, hd], hs, fun e he => ?_⟩
      rcases List.mem_cons.mp he with rfl | he
      · exact ⟨x, rfl, hd⟩
      · obtain ⟨y, hy, hxy⟩ := hc.tail.1 e he
        exact ⟨y, hy, by have := hxy x rfl; omega⟩
    · obtain ⟨b, s2, a, he, h1, h2⟩ := timeAt_inEffect_aux d rest (some x) t' hc.tail
        (fun y hy => by cases hy; omega)
      refine ⟨(s, t) :: b, s2, a, ?_, h1, h2⟩
      have : timeAt ((s, t) :: (some x, t') :: rest) d = timeAt ((some x, t') :: rest) d := by
        simp [timeAt, hd]
      rw [this, List.cons_append, ← he]

theorem timeAt_inEffect {table : TimeTable} (hv : ValidTable table) (d : Int) :
    TimeInEffect table d (timeAt table d) := by
  obtain ⟨t, rest, rfl, hc⟩ := validTable_chain hv
  exact timeAt_inEffect_aux d rest none t hc (fun x hx => by cases hx)

theorem TimeInEffect.mem {table : TimeTable} {d t : Int} (h : TimeInEffect table d t) :
    ∃ e ∈ table, e.2 = t := by
  obtain ⟨b, s, a, rfl, _⟩ := h
  exact ⟨(s, t), by simp, rfl⟩

/-! ### Special dates -/

theorem mem_insertByLabel {e f : Int × Int} : ∀ {xs : List (Int × Int)},
    f ∈ insertByLabel e xs ↔ f = e ∨ f ∈ xs
  | [] => by simp [insertByLabel]
  | g :: xs => by
    unfold insertByLabel
    split
    · rw [List.mem_cons, mem_insertByLabel, List.mem_cons]
      constructor
      · rintro (h | h | h) <;> simp [h]
      · rintro (h | h | h) <;> simp [h]
    · simp

theorem insertByLabel_sorted {e : Int × Int} : ∀ {xs : List (Int × Int)},
    xs.Pairwise (fun a b => a.1 ≤ b.1) → (insertByLabel e xs).Pairwise (fun a b => a.1 ≤ b.1)
  | [], _ => by simp [insertByLabel]
  | g :: xs, h => by
    rw [List.pairwise_cons] at h
    unfold insertByLabel
    split
    · next hge =>
      refine List.pairwise_cons.mpr ⟨fun f hf => ?_, insertByLabel_sorted h.2⟩
      rcases mem_insertByLabel.mp hf with rfl | hf
      · exact hge
      · exact h.1 f hf
    · next hge =>
      refine List.pairwise_cons.mpr ⟨fun f hf => ?_, List.pairwise_cons.mpr h⟩
      rcases List.mem_cons.mp hf with rfl | hf
      · omega
      · have := h.1 f hf; omega

theorem sortByLabel_aux : ∀ (xs acc : List (Int × Int)),
    acc.Pairwise (fun a b => a.1 ≤ b.1) →
    (xs.foldl (fun acc e => insertByLabel e acc) acc).Pairwise (fun a b => a.1 ≤ b.1) ∧
      ∀ f, f ∈ xs.foldl (fun acc e => insertByLabel e acc) acc ↔ f ∈ xs ∨ f ∈ acc
  | [], acc, h => ⟨h, fun f => by simp⟩
  | e :: xs, acc, h => by
    obtain ⟨h1, h2⟩ := sortByLabel_aux xs (insertByLabel e acc) (insertByLabel_sorted h)
    refine ⟨h1, fun f => ?_⟩
    rw [List.foldl_cons, h2, mem_insertByLabel, List.mem_cons]
    constructor
    · rintro (h | h | h) <;> simp [h]
    · rintro ((h | h) | h) <;> simp [h]

theorem sortByLabel_sorted (xs : List (Int × Int)) :
    (sortByLabel xs).Pairwise (fun a b => a.1 ≤ b.1) :=
  (sortByLabel_aux xs [] List.Pairwise.nil).1

theorem mem_sortByLabel {f : Int × Int} {xs : List (Int × Int)} :
    f ∈ sortByLabel xs ↔ f ∈ xs := by
  have := (sortByLabel_aux xs [] List.Pairwise.nil).2 f
  simpa [sortByLabel] using this

/-- What `_special_dates` returns when it does not raise. -/
theorem specialDates_spec {rules : List (Int × HolidayFn)} {adHoc : List (Int × List Int)} {z : Tz}
    (hz : Tame z) {start stop : Int} {sp : List (Int × Int)}
    (h : specialDates rules adHoc z start stop = .ok sp) :
    sp.Pairwise (fun a b => a.1 ≤ b.1) ∧
      ∀ l u, (l, u) ∈ sp ↔ Applied z rules adHoc start stop l u := by
  unfold specialDates at h
  rw [bind_ok_iff] at h
  obtain ⟨reg, hreg, h⟩ := h
  rw [bind_ok_iff] at h
  obtain ⟨adh, hadh, h⟩ := h
  have hmem : ∀ l u, (l, u) ∈ (reg ++ adh).flatten ↔
      ∃ t, SpecialTime rules adHoc start stop l t ∧ OnlyInstant z (l + t) u := by
    intro l u
    rw [List.mem_flatten]
    constructor
    · rintro ⟨piece, hp, hlu⟩
      rw [List.mem_append] at hp
      rcases hp with hp | hp
      · obtain ⟨⟨t, cal⟩, hc, hf⟩ := (mapM_mem hreg).mp hp
        unfold scheduledSpecialTimes daysAtTime at hf
        rw [bind_ok_iff] at hf
        obtain ⟨times, ht, hf⟩ := hf
        cases hf
        obtain ⟨h1, h2⟩ := (mem_zip_mapM ht l u).mp hlu
        refine ⟨t, Or.inl ⟨cal, hc, h1⟩, ?_⟩
        rw [localize_ok_iff hz] at h2
        simpa using h2
      · obtain ⟨⟨t, ds⟩, hc, hf⟩ := (mapM_mem hadh).mp hp
        unfold adHocSpecialTimes daysAtTime at hf
        rw [bind_ok_iff] at hf
        obtain ⟨times, ht, hf⟩ := hf
        cases hf
        obtain ⟨h1, h2⟩ := (mem_zip_mapM ht l u).mp hlu
        refine ⟨t, Or.inr ⟨ds, hc, h1⟩, ?_⟩
        rw [localize_ok_iff hz] at h2
        simpa using h2
    · rintro ⟨t, hst, hu⟩
      rw [← localize_ok_iff hz] at hu
      rcases hst with ⟨cal, hc, hl⟩ | ⟨ds, hc, hl⟩
      · obtain ⟨hlen, hg⟩ := mapM_ok_iff.mp hreg
        obtain ⟨i, hi, he⟩ := List.getElem_of_mem hc
        have hf := hg i hi (by omega)
        refine ⟨reg[i]'(by omega), by simp, ?_⟩
        rw [he] at hf
        unfold scheduledSpecialTimes daysAtTime at hf
        rw [bind_ok_iff] at hf
        obtain ⟨times, ht, hf⟩ := hf
        have hf : (cal start stop).zip times = reg[i]'(by omega) := by
          injection hf
        rw [← hf]
        refine (mem_zip_mapM ht l u).mpr ⟨hl, ?_⟩
        simpa using hu
      · obtain ⟨hlen, hg⟩ := mapM_ok_iff.mp hadh
        obtain ⟨i, hi, he⟩ := List.getElem_of_mem hc
        have hf := hg i hi (by omega)
        refine ⟨adh[i]'(by omega), by simp, ?_⟩
        rw [he] at hf
        unfold adHocSpecialTimes daysAtTime at hf
        rw [bind_ok_iff] at hf
        obtain ⟨times, ht, hf⟩ := hf
        have hf : ds.zip times = adh[i]'(by omega) := by injection hf
        rw [← hf]
        refine (mem_zip_mapM ht l u).mpr ⟨hl, ?_⟩
        simpa using hu
  simp only at h
  have hap : ∀ l u, Applied z rules adHoc start stop l u ↔
      (l, u) ∈ (reg ++ adh).flatten ∧ start ≤ u ∧ u ≤ stop := by
    intro l u
    rw [hmem]
    constructor
    · rintro ⟨t, h1, h2, h3⟩; exact ⟨⟨t, h1, h2⟩, h3⟩
    · rintro ⟨⟨t, h1, h2⟩, h3⟩; exact ⟨t, h1, h2, h3⟩
  split at h
  · next hnil =>
    cases h
    refine ⟨List.Pairwise.nil, fun l u => ?_⟩
    rw [hap, hnil]; simp
  · cases h
    refine ⟨(sortByLabel_sorted _).sublist List.filter_sublist, fun l u => ?_⟩
    rw [List.mem_filter, mem_sortByLabel, hap]
    simp

/-! ### Overwriting -/

/-- Fancy assignment: each position ends with one of the values assigned to it, or unchanged. -/
theorem fancyAssign_spec : ∀ (ps : List (Int × Int)) (values : List Int),
    let r := fancyAssign values (ps.map (·.1)) (ps.map (·.2))
    r.length = values.length ∧ ∀ (i : Nat) (h : i < values.length) (h' : i < r.length),
      ((∃ p ∈ ps, p.1.toNat = i ∧ r[i] = p.2) ∨ ((∀ p ∈ ps, p.1.toNat ≠ i) ∧ r[i] = values[i]))
  | [], values => ⟨rfl, fun i h h' => Or.inr ⟨by simp, rfl⟩⟩
  | p :: ps, values => by
    obtain ⟨hl, hg⟩ := fancyAssign_spec ps (values.set p.1.toNat p.2)
    simp only [List.map_cons, fancyAssign]
    refine ⟨by rw [hl, List.length_set], fun i h h' => ?_⟩
    rcases hg i (by simpa using h) h' with ⟨q, hq, hqi, hr⟩ | ⟨hno, hr⟩
    · exact Or.inl ⟨q, List.mem_cons_of_mem _ hq, hqi, hr⟩
    · by_cases hp : p.1.toNat = i
      · left
        refine ⟨p, by simp, hp, ?_⟩
        rw [hr, List.getElem_set, if_pos hp]
      · right
        refine ⟨fun q hq => ?_, ?_⟩
        · rcases List.mem_cons.mp hq with rfl | hq
          · exact hp
          · exact hno q hq
        · rw [hr, List.getElem_set, if_neg hp]

theorem getIndexer_no_missing {labels ls : List Int}
    (h : (getIndexer labels ls).contains (-1) = false) : ∀ l ∈ ls, l ∈ labels := by
  intro l hl
  apply Decidable.byContradiction
  intro hn
  have : (-1 : Int) ∈ getIndexer labels ls := by
    unfold getIndexer
    rw [List.mem_map]
    refine ⟨l, hl, ?_⟩
    have : labels.findIdx? (· == l) = none := by
      rw [List.findIdx?_eq_none_iff]
      intro x hx
      simp only [beq_eq_false_iff_ne, ne_eq]
      rintro rfl; exact hn hx
    rw [this]
  rw [← List.contains_iff_mem] at this
  rw [this] at h
  cases h

theorem getIndexer_missing {labels ls : List Int}
    (h : (getIndexer labels ls).contains (-1) = true) : ∃ l ∈ ls, l ∉ labels := by
  rw [List.contains_iff_mem] at h
  unfold getIndexer at h
  rw [List.mem_map] at h
  obtain ⟨l, hl, he⟩ := h
  refine ⟨l, hl, fun hm => ?_⟩
  split at he
  · omega
  · next hn =>
    rw [List.findIdx?_eq_none_iff] at hn
    have := hn l hm
    simp at this

theorem indexer_toNat {labels : List Int} (hs : SortedLT labels) {i : Nat} (hi : i < labels.length)
    {l : Int} (hl : l ∈ labels) :
    (match labels.findIdx? (· == l) with | some i => (i : Int) | none => -1).toNat = i ↔
      l = labels[i] := by
  obtain ⟨j, hj, rfl⟩ := List.getElem_of_mem hl
  have hg := getLoc_getElem hs hj
  unfold getLoc at hg
  split at hg
  · next k hk =>
    cases hg
    simp only [hk, Int.toNat_natCast]
    constructor
    · rintro rfl; rfl
    · intro he; exact hs.inj hj hi he
  · cases hg

/-- Assigning along `get_indexer`: row `i` gets one of the values given for its label. -/
theorem assign_rows {labels column : List Int} (hs : SortedLT labels)
    (hlen : labels.length = column.length) (sp : List (Int × Int)) (f : Int × Int → Int)
    (hin : ∀ e ∈ sp, e.1 ∈ labels) :
    let r := fancyAssign column (getIndexer labels (sp.map (·.1))) (sp.map f)
    r.length = column.length ∧
      ∀ (i : Nat) (h : i < labels.length) (hc : i < column.length) (h' : i < r.length),
        (∃ e ∈ sp, e.1 = labels[i] ∧ r[i] = f e) ∨
        ((∀ e ∈ sp, e.1 ≠ labels[i]) ∧ r[i] = column[i]) := by
  let idx : Int → Int := fun l =>
    match labels.findIdx? (· == l) with | some i => (i : Int) | none => -1
  let ps : List (Int × Int) := sp.map (fun e => (idx e.1, f e))
  have e1 : ps.map (·.1) = getIndexer labels (sp.map (·.1)) := by
    simp only [ps, getIndexer, List.map_map]; rfl
  have e2 : ps.map (·.2) = sp.map f := by simp [ps, List.map_map, Function.comp_def]
  have hsp := fancyAssign_spec ps column
  rw [e1, e2] at hsp
  obtain ⟨hl, hg⟩ := hsp
  refine ⟨hl, fun i h hc h' => ?_⟩
  rcases hg i hc h' with ⟨p, hp, hpi, hr⟩ | ⟨hno, hr⟩
  · left
    obtain ⟨e, he, rfl⟩ := List.mem_map.mp hp
    exact ⟨e, he, (indexer_toNat hs h (hin e he)).mp hpi, hr⟩
  · right
    refine ⟨fun e he heq => ?_, hr⟩
    exact hno _ (List.mem_map.mpr ⟨e, he, rfl⟩) ((indexer_toNat hs h (hin e he)).mpr heq)

theorem overwrite_spec {labels column column' : List Int} {sp : List (Int × Int)}
    (hs : SortedLT labels) (h : overwriteSpecialDates labels column sp = .ok column')
    (hlen : column'.length = labels.length) :
    (∀ e ∈ sp, e.1 ∈ labels) ∧
      ∃ hl : column.length = labels.length, ∀ (i : Nat) (hi : i < labels.length),
        (∃ e ∈ sp, e.1 = labels[i] ∧ column'[i] = e.2) ∨
        ((∀ e ∈ sp, e.1 ≠ labels[i]) ∧ column'[i] = column[i]) := by
  unfold overwriteSpecialDates at h
  split at h
  · next hnil =>
    cases h
    subst hnil
    exact ⟨by simp, hlen, fun i hi => Or.inr ⟨by simp, rfl⟩⟩
  · split at h
    · cases h
    · next hl =>
      simp only at h
      split at h
      · cases h
      · next hm =>
        simp only [ne_eq, Decidable.not_not] at hl
        have hin : ∀ e ∈ sp, e.1 ∈ labels := fun e he =>
          getIndexer_no_missing (by simpa using hm) e.1 (List.mem_map.mpr ⟨e, he, rfl⟩)
        obtain ⟨_, hg⟩ := assign_rows hs hl sp (·.2) hin
        cases h
        exact ⟨hin, hl.symm, fun i hi => hg i hi (by omega) (by omega)⟩

theorem removeBreaks_spec {labels column column' : List Int} {sp : List (Int × Int)}
    (hs : SortedLT labels)
    (h : removeBreaksForSpecialDates labels (some column) sp = .ok (some column'))
    (hlen : column'.length = labels.length) :
      ∃ hl : column.length = labels.length, ∀ (i : Nat) (hi : i < labels.length),
        ((∃ e ∈ sp, e.1 = labels[i]) ∧ column'[i] = NP_NAT) ∨
        ((∀ e ∈ sp, e.1 ≠ labels[i]) ∧ column'[i] = column[i]) := by
  unfold removeBreaksForSpecialDates at h
  simp only at h
  split at h
  · next hnil =>
    cases h
    subst hnil
    exact ⟨hlen, fun i hi => Or.inr ⟨by simp, rfl⟩⟩
  · split at h
    · cases h
    · next hl =>
      split at h
      · cases h
      · next hm =>
        simp only [ne_eq, Decidable.not_not] at hl
        have hin : ∀ e ∈ sp, e.1 ∈ labels := fun e he =>
          getIndexer_no_missing (by simpa using hm) e.1 (List.mem_map.mpr ⟨e, he, rfl⟩)
        obtain ⟨_, hg⟩ := assign_rows hs hl sp (fun _ => NP_NAT) hin
        have e2 : (getIndexer labels (sp.map (·.1))).map (fun _ => NP_NAT)
            = sp.map (fun _ => NP_NAT) := by simp [getIndexer, List.map_map, Function.comp_def]
        rw [e2] at h
        cases h
        refine ⟨hl.symm, fun i hi => ?_⟩
        rcases hg i hi (by omega) (by omega) with ⟨e, he, h1, h2⟩ | h
        · exact Or.inl ⟨⟨e, he, h1⟩, h2⟩
        · exact Or.inr h

end TC
