import Verif.Spec.Machine
import Verif.Lemmas.BuildRegular

namespace TC
open Spec

theorem Py.ok_bind {α β : Type} (a : α) (f : α → Py β) : ((.ok a : Py α) >>= f) = f a := rfl

theorem mapM_congr' {α β : Type} {f g : α → Py β} : ∀ {xs : List α}, (∀ x ∈ xs, f x = g x) →
    xs.mapM f = xs.mapM g
  | [], _ => rfl
  | x :: xs, h => by
    rw [List.mapM_cons, List.mapM_cons, h x (by simp), mapM_congr' (fun y hy => h y (by simp [hy]))]

theorem mapM_ok_map {α β : Type} {f : α → Py β} {g : α → β} : ∀ {xs : List α}, (∀ x ∈ xs, f x = .ok (g x)) →
    xs.mapM f = .ok (xs.map g)
  | [], _ => rfl
  | x :: xs, h => by
    rw [List.mapM_cons, h x (by simp), mapM_ok_map (fun y hy => h y (by simp [hy]))]
    rfl

theorem mapM_map' {α β γ : Type} (f : β → Py γ) (g : α → β) : ∀ xs : List α,
    (xs.map g).mapM f = xs.mapM (fun x => f (g x))
  | [] => rfl
  | x :: xs => by rw [List.map_cons, List.mapM_cons, List.mapM_cons, mapM_map' f g xs]

theorem bind_congr_ok {α β : Type} {x : Py α} {f g : α → Py β} (h : ∀ a, x = .ok a → f a = g a) :
    (x >>= f) = (x >>= g) := by
  cases x with
  | error e => rfl
  | ok a => exact h a rfl

variable {M : Machine}

theorem localizeM_eq (hM : Exact M) {z : Tz} (hz : Tame z) {wall : Int}
    (h1 : -9223372036854775808 + 3 * DAY ≤ wall) (h2 : wall ≤ 9223372036854775807 - 2 * DAY) :
    z.localizeM M wall = z.localize wall := by
  have hD : DAY = 86400000000000 := rfl
  have o1 := offsetAt_bound hz (wall - DAY)
  have o2 := offsetAt_bound hz (wall + DAY)
  have o3 := offsetAt_bound hz (wall - z.offsetAt (wall - DAY))
  have o4 := offsetAt_bound hz (wall - z.offsetAt (wall + DAY))
  unfold Tz.localizeM
  rw [hM.sub wall DAY ⟨by omega, by omega⟩ ⟨by omega, by omega⟩ ⟨by omega, by omega⟩, Py.ok_bind,
    hM.add wall DAY ⟨by omega, by omega⟩ ⟨by omega, by omega⟩ ⟨by omega, by omega⟩, Py.ok_bind,
    hM.sub wall _ ⟨by omega, by omega⟩ ⟨by omega, by omega⟩ ⟨by omega, by omega⟩, Py.ok_bind,
    hM.add _ _ ⟨by omega, by omega⟩ ⟨by omega, by omega⟩ ⟨by omega, by omega⟩, Py.ok_bind,
    hM.sub wall _ ⟨by omega, by omega⟩ ⟨by omega, by omega⟩ ⟨by omega, by omega⟩, Py.ok_bind,
    hM.add _ _ ⟨by omega, by omega⟩ ⟨by omega, by omega⟩ ⟨by omega, by omega⟩, Py.ok_bind]
  rfl

theorem daysAtTimeM_eq (hM : Exact M) {z : Tz} (hz : Tame z) {days : List Int} (hd : ∀ d ∈ days, InsideInt64 d)
    {t k : Int} (ht : -DAY ≤ k * DAY + t ∧ k * DAY + t ≤ 2 * DAY) :
    daysAtTimeM M days t z k = daysAtTime days t z k := by
  have hD : DAY = 86400000000000 := rfl
  unfold daysAtTimeM daysAtTime
  rw [hM.lit _ ⟨by omega, by omega⟩, Py.ok_bind,
    mapM_ok_map (g := fun d => d + (k * DAY + t)) (fun d hdm => ?_), Py.ok_bind, mapM_map']
  · refine mapM_congr' fun d hdm => ?_
    have := hd d hdm
    unfold InsideInt64 at this
    exact localizeM_eq hM hz (by omega) (by omega)
  · have := hd d hdm
    unfold InsideInt64 at this
    exact hM.add _ _ ⟨by omega, by omega⟩ ⟨by omega, by omega⟩ ⟨by omega, by omega⟩

theorem slidingWindow2_mem {α : Type} : ∀ {xs : List α} {e : α} {w : α × α},
    w ∈ slidingWindow2 (xs ++ [e]) → w.1 ∈ xs
  | [], _, _, h => by simp [slidingWindow2] at h
  | [x], _, _, h => by
    simp only [List.singleton_append, slidingWindow2, List.mem_singleton] at h
    simp [h]
  | x :: y :: rest, e, w, h => by
    simp only [List.cons_append, slidingWindow2] at h
    rcases List.mem_cons.1 h with rfl | h
    · simp
    · exact List.mem_cons_of_mem _ (slidingWindow2_mem (xs := y :: rest) h)

theorem groupTimesM_eq (hM : Exact M) {z : Tz} (hz : Tame z) {days : List Int} (hd : ∀ d ∈ days, InsideInt64 d)
    {table : TimeTable} {k : Int} (ht : ∀ e ∈ table, -DAY ≤ k * DAY + e.2 ∧ k * DAY + e.2 ≤ 2 * DAY) :
    groupTimesM M days table z k = groupTimes days table z k := by
  unfold groupTimesM groupTimes
  have e : (slidingWindow2 (table ++ [(none, 0)])).mapM (fun w =>
      daysAtTimeM M (selection days w.1.1 w.2.1) w.1.2 z k) = (slidingWindow2 (table ++ [(none, 0)])).mapM (fun w =>
      daysAtTime (selection days w.1.1 w.2.1) w.1.2 z k) :=
    mapM_congr' fun w hw => daysAtTimeM_eq hM hz (fun d hdm => hd d (List.mem_filter.1 hdm).1)
      (ht _ (slidingWindow2_mem hw))
  rw [e]
  rfl

theorem groupTimesOptM_eq (hM : Exact M) {z : Tz} (hz : Tame z) {days : List Int} (hd : ∀ d ∈ days, InsideInt64 d)
    {table : Option TimeTable} (ht : ∀ t, table = some t → ∀ e ∈ t, -DAY ≤ e.2 ∧ e.2 ≤ 2 * DAY) :
    groupTimesOptM M days table z = groupTimesOpt days table z := by
  cases table with
  | none => rfl
  | some t =>
    simp only [groupTimesOptM, groupTimesOpt]
    rw [groupTimesM_eq hM hz hd fun e he => by have := ht t rfl e he; omega]

theorem specialDatesM_eq (hM : Exact M) {z : Tz} (hz : Tame z) {rules : List (Int × HolidayFn)}
    {adHoc : List (Int × List Int)} {start stop : Int}
    (hd : ∀ l t, SpecialTime rules adHoc start stop l t → InsideInt64 l)
    (ht : ∀ t, (∃ e ∈ rules, t = e.1) ∨ (∃ e ∈ adHoc, t = e.1) → -DAY ≤ t ∧ t ≤ 2 * DAY) :
    specialDatesM M rules adHoc z start stop = specialDates rules adHoc z start stop := by
  unfold specialDatesM specialDates
  have e1 : rules.mapM (fun c => scheduledSpecialTimesM M c.2 start stop c.1 z) =
      rules.mapM (fun c => scheduledSpecialTimes c.2 start stop c.1 z) := by
    refine mapM_congr' fun e he => ?_
    unfold scheduledSpecialTimesM scheduledSpecialTimes
    simp only
    rw [daysAtTimeM_eq hM hz (fun d hdm => hd d e.1 (.inl ⟨_, he, hdm⟩))
      (by have := ht e.1 (.inl ⟨e, he, rfl⟩); omega)]
  have e2 : adHoc.mapM (fun c => adHocSpecialTimesM M c.2 c.1 z) =
      adHoc.mapM (fun c => adHocSpecialTimes c.2 c.1 z) := by
    refine mapM_congr' fun e he => ?_
    unfold adHocSpecialTimesM adHocSpecialTimes
    rw [daysAtTimeM_eq hM hz (fun d hdm => hd d e.1 (.inr ⟨_, he, hdm⟩))
      (by have := ht e.1 (.inr ⟨e, he, rfl⟩); omega)]
  rw [e1, e2]

theorem dateRange_inside {bus : Int → Bool} {start stop : Int} (h1 : InsideInt64 start) (h2 : InsideInt64 stop) :
    ∀ d ∈ dateRange bus start stop, InsideInt64 d := by
  intro d hd
  obtain ⟨k, -, h3, h4, -⟩ := ((dateRange_any bus start stop).2 d).1 hd
  exact ⟨Int.le_trans h1.1 h3, Int.le_trans h4 h2.2⟩

theorem buildScheduleM_eq (hM : Exact M) {cfg : Config} (hz : Tame cfg.tz) (hn : NearTimes cfg)
    (hd : DatesInside cfg) {start stop : Int} (h1 : InsideInt64 start) (h2 : InsideInt64 stop) :
    buildScheduleM M cfg start stop = buildSchedule cfg start stop := by
  have hi := dateRange_inside (bus := cfg.isBusinessDay) h1 h2
  unfold buildScheduleM buildSchedule
  simp only
  rw [groupTimesM_eq hM hz hi (fun e he => hn.opens _ (.inl ⟨e, he, rfl⟩)),
    groupTimesOptM_eq hM hz hi (fun t ht e he => hn.breakStarts _ ⟨t, ht, e, he, rfl⟩),
    groupTimesOptM_eq hM hz hi (fun t ht e he => hn.breakEnds _ ⟨t, ht, e, he, rfl⟩),
    groupTimesM_eq hM hz hi (fun e he => hn.closes _ (.inl ⟨e, he, rfl⟩)),
    specialDatesM_eq hM hz (fun l t h => hd _ _ l t h1 h2 (.inl h)) (fun t h => hn.opens t (.inr h)),
    specialDatesM_eq hM hz (fun l t h => hd _ _ l t h1 h2 (.inr h)) (fun t h => hn.closes t (.inr h))]

/-! ### minutes -/

theorem arangeM_eq (hM : Exact M) {a b : Int} (ha : FitsInt64 a) (hb : FitsInt64 b) (hlo : a ≤ b)
    (hd : b - a ≤ 20 * DAY) : arangeM M a b MINUTE = .ok (arange a b MINUTE) := by
  have hD : DAY = 86400000000000 := rfl
  have hN : MINUTE = 60000000000 := rfl
  unfold FitsInt64 at ha hb
  unfold arangeM arange
  rw [hM.sub b a hb ha ⟨by omega, by omega⟩, Py.ok_bind]
  refine mapM_ok_map fun k hk => ?_
  have hk := List.mem_range.1 hk
  have hle : (k : Int) * MINUTE ≤ b - a := by
    rw [hN] at *
    omega
  have h0 : 0 ≤ (k : Int) * MINUTE := by rw [hN]; omega
  rw [hM.mul _ _ ⟨by omega, by rw [hN] at hle; omega⟩ ⟨by omega, by omega⟩ ⟨by omega, by omega⟩, Py.ok_bind,
    hM.add _ _ ha ⟨by omega, by omega⟩ ⟨by omega, by omega⟩]

/-- What the minutes of one session need. -/
structure Modest (s : Session) : Prop where
  open_ : -9223372036854775808 < s.open ∧ s.open ≤ 9223372036854775807 - DAY
  close : -9223372036854775808 < s.close ∧ s.close ≤ 9223372036854775807 - DAY
  order : s.open ≤ s.close ∧ s.close ≤ s.open + 9 * DAY
  brk : ∀ b e, s.brk = some (b, e) → s.open ≤ b ∧ b ≤ e ∧ e ≤ s.close

theorem minutePiecesM_eq (hM : Exact M) : ∀ {ss : List Session}, (∀ s ∈ ss, Modest s) →
    minutePiecesM M (Cal.ofSessions ss).opens (Cal.ofSessions ss).breakStarts (Cal.ofSessions ss).breakEnds
      (Cal.ofSessions ss).closes =
    .ok (minutePieces (Cal.ofSessions ss).opens (Cal.ofSessions ss).breakStarts (Cal.ofSessions ss).breakEnds
      (Cal.ofSessions ss).closes)
  | [], _ => rfl
  | s :: ss, h => by
    have ih := minutePiecesM_eq hM (ss := ss) fun t ht => h t (by simp [ht])
    have hD : DAY = 86400000000000 := rfl
    have hN : MINUTE = 60000000000 := rfl
    obtain ⟨ho, hc, hord, hb⟩ := h s (by simp)
    unfold Cal.ofSessions at ih ⊢
    simp only [List.map_cons, minutePiecesM, minutePieces] at ih ⊢
    rw [ih]
    cases hbrk : s.brk with
    | none =>
      simp only [sessionPiecesM, ne_eq, not_true_eq_false, if_false]
      rw [hM.add _ _ ⟨by omega, by omega⟩ ⟨by omega, by omega⟩ ⟨by omega, by omega⟩]
      simp only [Py.ok_bind]
      rw [arangeM_eq hM ⟨by omega, by omega⟩ ⟨by omega, by omega⟩ (by omega) (by omega)]
      rfl
    | some p =>
      obtain ⟨b, e⟩ := p
      have hh := hb b e hbrk
      have hne : b ≠ NP_NAT := by simp only [NP_NAT]; omega
      simp only [sessionPiecesM, ne_eq, hne, not_false_eq_true, if_true]
      rw [hM.add b _ ⟨by omega, by omega⟩ ⟨by omega, by omega⟩ ⟨by omega, by omega⟩]
      simp only [Py.ok_bind]
      rw [arangeM_eq hM ⟨by omega, by omega⟩ ⟨by omega, by omega⟩ (by omega) (by omega)]
      simp only [Py.ok_bind]
      rw [hM.add _ _ ⟨by omega, by omega⟩ ⟨by omega, by omega⟩ ⟨by omega, by omega⟩]
      simp only [Py.ok_bind]
      rw [arangeM_eq hM ⟨by omega, by omega⟩ ⟨by omega, by omega⟩ (by omega) (by omega)]
      rfl

theorem rows_modest {cfg : Config} {start stop : Int} {b : Schedule}
    (h : buildSchedule cfg start stop = .ok b) (ho : Ordered cfg) (hz : Tame cfg.tz) (hn : NearTimes cfg)
    (h1 : InsideInt64 start) (h2 : InsideInt64 stop) : ∀ s ∈ rowsOf b.cal, Modest s := by
  have hD : DAY = 86400000000000 := rfl
  have hlow : NP_NAT + 3 * DAY ≤ start := by have := h1.1; simp only [NP_NAT]; omega
  obtain ⟨hof, hrows⟩ := schedule_rows_any h (ho.tablesFit hz hlow)
  obtain ⟨hreg, hoc, -⟩ := schedule_regular_any h ho hz hlow
  intro s hs
  have hl : s.label ∈ b.cal.sessions := by
    rw [← rowsOf_labels]; exact List.mem_map.2 ⟨s, hs, rfl⟩
  obtain ⟨d, -, hl1, hl2, -⟩ := ((schedule_labels_any h).2 _).1 hl
  obtain ⟨o, hwo, huo⟩ := (hrows s hs).openWall
  obtain ⟨c, hwc, huc⟩ := (hrows s hs).closeWall
  have n1 := only_near hz huo
  have n2 := only_near hz huc
  have b1 := hn.opens o hwo
  have b2 := hn.closes c hwc
  have a1 := h1.1
  have a2 := h2.2
  have k := hoc s hs
  refine ⟨⟨by omega, by omega⟩, ⟨by omega, by omega⟩, ⟨by omega, by omega⟩, fun x y hxy => ?_⟩
  have := (hreg.ok s hs).2.2 x y hxy
  omega

theorem buildM_eq (hM : Exact M) {cfg : Config} (ho : Ordered cfg) (hz : Tame cfg.tz) (hn : NearTimes cfg)
    (hd : DatesInside cfg) {start stop : Int} (h1 : InsideInt64 start) (h2 : InsideInt64 stop) :
    buildM M cfg start stop = build cfg start stop := by
  have hD : DAY = 86400000000000 := rfl
  have hlow : NP_NAT + 3 * DAY ≤ start := by have := h1.1; simp only [NP_NAT]; omega
  unfold buildM build
  rw [buildScheduleM_eq hM hz hn hd h1 h2]
  refine bind_congr_ok fun sch hsch => ?_
  have hof := (schedule_rows_any hsch (ho.tablesFit hz hlow)).1
  have hm := minutePiecesM_eq hM (rows_modest hsch ho hz hn h1 h2)
  rw [hof] at hm
  simp only [computeAllMinutesM, computeAllMinutes]
  rw [hm]
  rfl

/-! ### counting minutes -/

/-- The number of minutes of a session. -/
def countOf (s : Session) : Int :=
  Cal.sessionMinuteCount s.open ((s.brk.map (·.1)).getD NP_NAT) ((s.brk.map (·.2)).getD NP_NAT) s.close

theorem minutesPerSession_eq (ss : List Session) :
    Cal.minutesPerSession (Cal.ofSessions ss).opens (Cal.ofSessions ss).breakStarts (Cal.ofSessions ss).breakEnds
      (Cal.ofSessions ss).closes = ss.map countOf := by
  induction ss with
  | nil => rfl
  | cons s ss ih =>
    unfold Cal.ofSessions at ih ⊢
    simp only [List.map_cons, Cal.minutesPerSession] at ih ⊢
    rw [ih]
    unfold countOf
    cases s.brk <;> rfl

theorem countOf_bound {s : Session} (h : Modest s) :
    1 ≤ countOf s ∧ countOf s * MINUTE ≤ s.close - s.open + MINUTE := by
  have hN : MINUTE = 60000000000 := rfl
  obtain ⟨ho, hc, hord, hb⟩ := h
  unfold countOf Cal.sessionMinuteCount
  cases hbrk : s.brk with
  | none =>
    simp only [Option.map_none, Option.getD_none, true_or, if_true]
    rw [hN]
    omega
  | some p =>
    obtain ⟨b, e⟩ := p
    have hh := hb b e hbrk
    have h1 : ¬ (b = NP_NAT ∨ e = NP_NAT) := by simp only [NP_NAT]; omega
    simp only [Option.map_some, Option.getD_some, h1, if_false]
    rw [hN]
    omega

theorem counts_sum {hi : Int} : ∀ {ss : List Session} {lo : Int}, (∀ s ∈ ss, Modest s) →
    (∀ s ∈ ss, lo ≤ s.open ∧ s.close ≤ hi) → ss.Pairwise (fun s s' => s.close + MINUTE ≤ s'.open) →
    lo ≤ hi + MINUTE → (ss.map countOf).sum * MINUTE ≤ hi + MINUTE - lo
  | [], lo, _, _, _, h => by simp; omega
  | s :: ss, lo, hm, hb, hp, h => by
    rw [List.pairwise_cons] at hp
    have h1 := countOf_bound (hm s (by simp))
    have h2 := hb s (by simp)
    have ih := counts_sum (hi := hi) (ss := ss) (lo := s.close + MINUTE) (fun t ht => hm t (by simp [ht]))
      (fun t ht => ⟨hp.1 t ht, (hb t (by simp [ht])).2⟩) hp.2 (by omega)
    rw [List.map_cons, List.sum_cons, Int.add_mul]
    omega

theorem minutesPerSessionM_eq (hM : Exact M) : ∀ {ss : List Session}, (∀ s ∈ ss, Modest s) →
    minutesPerSessionM M (Cal.ofSessions ss).opens (Cal.ofSessions ss).breakStarts (Cal.ofSessions ss).breakEnds
      (Cal.ofSessions ss).closes = .ok (ss.map countOf)
  | [], _ => rfl
  | s :: ss, h => by
    have ih := minutesPerSessionM_eq hM (ss := ss) fun t ht => h t (by simp [ht])
    have hD : DAY = 86400000000000 := rfl
    have hN : MINUTE = 60000000000 := rfl
    obtain ⟨ho, hc, hord, hb⟩ := h s (by simp)
    unfold Cal.ofSessions at ih ⊢
    simp only [List.map_cons, minutesPerSessionM] at ih ⊢
    rw [ih]
    unfold countOf sessionMinuteCountM Cal.sessionMinuteCount
    cases hbrk : s.brk with
    | none =>
      simp only [Option.map_none, Option.getD_none, true_or, if_true]
      rw [hM.sub s.close s.open ⟨by omega, by omega⟩ ⟨by omega, by omega⟩ ⟨by omega, by omega⟩]
      simp only [Py.ok_bind]
      rw [hM.sub _ 0 ⟨by omega, by omega⟩ ⟨by omega, by omega⟩ ⟨by omega, by omega⟩]
      simp only [Py.ok_bind]
      rw [hM.fadd _ 1 ⟨by rw [hN]; omega, by rw [hN]; omega⟩ ⟨by omega, by omega⟩
        ⟨by rw [hN]; omega, by rw [hN]; omega⟩]
      rfl
    | some p =>
      obtain ⟨b, e⟩ := p
      have hh := hb b e hbrk
      have h1 : ¬ (b = NP_NAT ∨ e = NP_NAT) := by simp only [NP_NAT]; omega
      simp only [Option.map_some, Option.getD_some, h1, if_false]
      rw [hM.sub s.close s.open ⟨by omega, by omega⟩ ⟨by omega, by omega⟩ ⟨by omega, by omega⟩]
      simp only [Py.ok_bind]
      rw [hM.sub e b ⟨by omega, by omega⟩ ⟨by omega, by omega⟩ ⟨by omega, by omega⟩]
      simp only [Py.ok_bind]
      rw [hM.sub _ _ ⟨by omega, by omega⟩ ⟨by omega, by omega⟩ ⟨by omega, by omega⟩]
      simp only [Py.ok_bind]
      rw [hM.fadd _ 1 ⟨by rw [hN]; omega, by rw [hN]; omega⟩ ⟨by omega, by omega⟩
        ⟨by rw [hN]; omega, by rw [hN]; omega⟩]
      rfl

theorem sum_nonneg_ints : ∀ {ns : List Int}, (∀ n ∈ ns, 0 ≤ n) → 0 ≤ ns.sum
  | [], _ => by simp
  | n :: ns, h => by
    have := h n (by simp)
    have := sum_nonneg_ints (ns := ns) fun m hm => h m (by simp [hm])
    rw [List.sum_cons]
    omega

theorem sumM_eq (hM : Exact M) : ∀ {ns : List Int} {acc : Int}, (∀ n ∈ ns, 0 ≤ n) → 0 ≤ acc →
    acc + ns.sum ≤ 9007199254740992 → sumM M ns acc = .ok (acc + ns.sum)
  | [], acc, _, _, _ => by simp [sumM]
  | n :: ns, acc, hn, ha, hs => by
    have h0 := hn n (by simp)
    have hns : 0 ≤ ns.sum := sum_nonneg_ints fun m hm => hn m (by simp [hm])
    rw [List.sum_cons] at hs ⊢
    unfold sumM
    rw [hM.fadd _ _ ⟨by omega, by omega⟩ ⟨by omega, by omega⟩ ⟨by omega, by omega⟩, Py.ok_bind,
      sumM_eq hM (fun m hm => hn m (by simp [hm])) (by omega) (by omega), Int.add_assoc]

theorem sum_slice_le {ns : List Int} (h : ∀ n ∈ ns, 0 ≤ n) (a b : Int) : (pySlice ns a b).sum ≤ ns.sum := by
  unfold pySlice
  simp only
  generalize sliceBound ns.length a = i
  generalize sliceBound ns.length b - i = j
  have e1 : ns.sum = (ns.take i).sum + (ns.drop i).sum := by
    rw [← List.sum_append, List.take_append_drop]
  have e2 : (ns.drop i).sum = ((ns.drop i).take j).sum + ((ns.drop i).drop j).sum := by
    rw [← List.sum_append, List.take_append_drop]
  have k1 : 0 ≤ (ns.take i).sum := sum_nonneg_ints fun n hn => h n (List.mem_of_mem_take hn)
  have k2 : 0 ≤ ((ns.drop i).drop j).sum :=
    sum_nonneg_ints fun n hn => h n (List.mem_of_mem_drop (List.mem_of_mem_drop hn))
  omega

theorem minutesCountM_eq (hM : Exact M) {ss : List Session} (hm : ∀ s ∈ ss, Modest s) (hr : Regular ss)
    (hw : ∀ s ∈ ss, s.WholeMinutes) (start stop : Int) :
    minutesCountM M (Cal.ofSessions ss) start stop =
      .ok ((Cal.ofSessions ss).minutesCountForSessionsInRange start stop) := by
  have hD : DAY = 86400000000000 := rfl
  have hN : MINUTE = 60000000000 := rfl
  have hgap : ss.Pairwise (fun s s' => s.close + MINUTE ≤ s'.open) := by
    refine List.Pairwise.imp_of_mem ?_ hr.times
    intro s s' hs hs' hlt
    obtain ⟨x, hx⟩ := (hw s hs).2.1
    obtain ⟨y, hy⟩ := (hw s' hs').1
    rw [hN] at *
    omega
  have hpos : ∀ n ∈ ss.map countOf, 0 ≤ n := by
    intro n hn
    obtain ⟨s, hs, rfl⟩ := List.mem_map.1 hn
    have := (countOf_bound (hm s hs)).1
    omega
  have htot := counts_sum (hi := 9223372036854775807 - DAY) (lo := -9223372036854775808) hm
    (fun s hs => ⟨Int.le_of_lt (hm s hs).open_.1, (hm s hs).close.2⟩) hgap (by omega)
  have hsl := sum_slice_le hpos
  unfold minutesCountM Cal.minutesCountForSessionsInRange
  rw [minutesPerSessionM_eq hM hm, minutesPerSession_eq, Py.ok_bind]
  simp only
  have hle := hsl ((sliceIndexer (Cal.ofSessions ss).sessions start stop).1 : Int)
    ((sliceIndexer (Cal.ofSessions ss).sessions start stop).2 : Int)
  rw [sumM_eq hM, Int.zero_add]
  · intro n hn
    unfold pySlice at hn
    exact hpos n (List.mem_of_mem_drop (List.mem_of_mem_take hn))
  · exact Int.le_refl 0
  · rw [hN] at htot
    omega

end TC
