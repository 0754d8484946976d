import Verif.Lemmas.Agree
import Verif.Lemmas.Feasts
import Verif.Props.Gaps

/-!
# C85: markets with the same days
-/

namespace TC.Props
open Spec

set_option maxRecDepth 100000

theorem bits_euronext :
    topB (differing Xams.exchange Xbru.exchange) (dayOf 2001 4 30 + 28000).toNat 1 = true ∧
    topB (differing Xams.exchange Xpar.exchange) (dayOf 2001 4 30 + 28000).toNat 1 = true ∧
    topB (differing Xams.exchange Xlis.exchange) (dayOf 2002 12 24 + 28000).toNat 1 = true ∧
    topB (differing Xams.exchange Xmad.exchange) (dayOf 2010 12 31 + 28000).toNat 1 = true := by
  decide +kernel

theorem bits_europe1 :
    topB (exceptional Asex.exchange Xams.exchange) (dayOf 2001 12 31 + 28000).toNat 1 = true ∧
    topB (exceptional Xetr.exchange Xams.exchange) (dayOf 2001 6 4 + 28000).toNat 1 = true ∧
    topB (exceptional Xhel.exchange Xams.exchange) (dayOf 2001 6 4 + 28000).toNat 1 = true ∧
    topB (exceptional Xice.exchange Xams.exchange) (dayOf 2001 4 30 + 28000).toNat 1 = true ∧
    topB (exceptional Xjse.exchange Xams.exchange) (dayOf 2001 12 31 + 28000).toNat 1 = true ∧
    topB (differing Xetr.exchange Xfra.exchange) 0 0 = true := by
  decide +kernel

theorem bits_europe2 :
    topB (exceptional Xmil.exchange Xams.exchange) (dayOf 2001 6 4 + 28000).toNat 1 = true ∧
    topB (exceptional Xosl.exchange Xams.exchange) (dayOf 2001 4 30 + 28000).toNat 1 = true ∧
    topB (exceptional Xsto.exchange Xams.exchange) (dayOf 2001 4 30 + 28000).toNat 1 = true ∧
    topB (exceptional Xswx.exchange Xams.exchange) (dayOf 2001 4 30 + 28000).toNat 1 = true ∧
    topB (exceptional Xwar.exchange Xams.exchange) (dayOf 2001 12 31 + 28000).toNat 1 = true ∧
    topB (exceptional Xwbo.exchange Xams.exchange) (dayOf 2001 4 30 + 28000).toNat 1 = true := by
  decide +kernel

theorem bits_us :
    topB (differing Cmes.exchange Iepa.exchange) (dayOf 2012 10 29 + 28000).toNat 1 = true ∧
    topB (differing Cmes.exchange UsFuturesCalendar.exchange) (dayOf 2018 12 5 + 28000).toNat 1 = true ∧
    topB (exceptional Xnys.exchange Xcbf.exchange) (dayOf 1970 2 16 + 28000).toNat 1 = true ∧
    topB (exceptional Xnys.exchange Iepa.exchange) 0 0 = true ∧
    topB (exceptional Iepa.exchange Cmes.exchange) 0 0 = true ∧
    topB (exceptional Cmes.exchange UsFuturesCalendar.exchange) 0 0 = true ∧
    topB (exceptional Xswx.exchange UsFuturesCalendar.exchange) 0 0 = true := by
  decide +kernel

theorem nodup_keys_unique {α : Type} {l : List (String × α)} {k : String} {a b : α} (h : (l.map Prod.fst).Nodup)
    (ha : (k, a) ∈ l) (hb : (k, b) ∈ l) : a = b := by
  induction l with
  | nil => cases ha
  | cons p l ih =>
    rw [List.map_cons, List.nodup_cons] at h
    rcases List.mem_cons.1 ha with e | h1
    · rcases List.mem_cons.1 hb with e' | h2
      · exact (Prod.mk.inj (e.trans e'.symm)).2
      · subst e
        exact absurd (List.mem_map_of_mem (f := Prod.fst) h2) h.1
    · rcases List.mem_cons.1 hb with e' | h2
      · subst e'
        exact absurd (List.mem_map_of_mem (f := Prod.fst) h1) h.1
      · exact ih h.2 h1 h2

theorem class_unique {name : String} {cls cls' : CalendarClass} (h : (name, cls) ∈ defaultClasses)
    (h' : (name, cls') ∈ defaultClasses) : cls = cls' := by
  have hn : (defaultClasses.map Prod.fst).Nodup := by decide +kernel
  exact nodup_keys_unique hn h h'

theorem inside_asex : Asex.exchange.insideB = true := by decide +kernel
theorem inside_cmes : Cmes.exchange.insideB = true := by decide +kernel
theorem inside_iepa : Iepa.exchange.insideB = true := by decide +kernel
theorem inside_usFuturesCalendar : UsFuturesCalendar.exchange.insideB = true := by decide +kernel
theorem inside_xams : Xams.exchange.insideB = true := by decide +kernel
theorem inside_xbru : Xbru.exchange.insideB = true := by decide +kernel
theorem inside_xcbf : Xcbf.exchange.insideB = true := by decide +kernel
theorem inside_xetr : Xetr.exchange.insideB = true := by decide +kernel
theorem inside_xfra : Xfra.exchange.insideB = true := by decide +kernel
theorem inside_xhel : Xhel.exchange.insideB = true := by decide +kernel
theorem inside_xice : Xice.exchange.insideB = true := by decide +kernel
theorem inside_xjse : Xjse.exchange.insideB = true := by decide +kernel
theorem inside_xlis : Xlis.exchange.insideB = true := by decide +kernel
theorem inside_xmad : Xmad.exchange.insideB = true := by decide +kernel
theorem inside_xmil : Xmil.exchange.insideB = true := by decide +kernel
theorem inside_xnys : Xnys.exchange.insideB = true := by decide +kernel
theorem inside_xosl : Xosl.exchange.insideB = true := by decide +kernel
theorem inside_xpar : Xpar.exchange.insideB = true := by decide +kernel
theorem inside_xsto : Xsto.exchange.insideB = true := by decide +kernel
theorem inside_xswx : Xswx.exchange.insideB = true := by decide +kernel
theorem inside_xwar : Xwar.exchange.insideB = true := by decide +kernel
theorem inside_xwbo : Xwbo.exchange.insideB = true := by decide +kernel

/-- C85: markets with the same days after a last difference. -/
theorem c85_same_since {m n : String} {clsM clsN : CalendarClass} (hM : (m, clsM) ∈ defaultClasses)
    (hN : (n, clsN) ∈ defaultClasses) {x : Date}
    (h : (m, n, x) ∈ sameSince) {d : Int} (hd : DayNumber x d) :
    LastDifference (ClassTrades clsM) (ClassTrades clsN) d := by
  simp only [sameSince, List.mem_cons, List.not_mem_nil, or_false, Prod.mk.injEq] at h
  rcases h with ⟨rfl, rfl, rfl⟩ | ⟨rfl, rfl, rfl⟩ | ⟨rfl, rfl, rfl⟩ | ⟨rfl, rfl, rfl⟩ | ⟨rfl, rfl, rfl⟩ | ⟨rfl, rfl, rfl⟩
  · obtain rfl := class_unique hM (cls' := .exchange Cmes.exchange Cmes.zone startDefault) (by simp [defaultClasses])
    obtain rfl := class_unique hN (cls' := .exchange Iepa.exchange Iepa.zone startDefault) (by simp [defaultClasses])
    obtain rfl := (dn (by decide) _ _).1 hd
    exact lastDifference_of (rules_of_check cmes_check) inside_cmes (rules_of_check iepa_check) inside_iepa (by decide) (by decide +kernel) (by decide +kernel) bits_us.1
  · obtain rfl := class_unique hM (cls' := .exchange Cmes.exchange Cmes.zone startDefault) (by simp [defaultClasses])
    obtain rfl := class_unique hN (cls' := .exchange UsFuturesCalendar.exchange UsFuturesCalendar.zone start2000) (by simp [defaultClasses])
    obtain rfl := (dn (by decide) _ _).1 hd
    exact lastDifference_of (rules_of_check cmes_check) inside_cmes (rules_of_check usFuturesCalendar_check) inside_usFuturesCalendar (by decide) (by decide +kernel) (by decide +kernel) bits_us.2.1
  · obtain rfl := class_unique hM (cls' := .exchange Xams.exchange Xams.zone startDefault) (by simp [defaultClasses])
    obtain rfl := class_unique hN (cls' := .exchange Xbru.exchange Xbru.zone startDefault) (by simp [defaultClasses])
    obtain rfl := (dn (by decide) _ _).1 hd
    exact lastDifference_of (rules_of_check xams_check) inside_xams (rules_of_check xbru_check) inside_xbru (by decide) (by decide +kernel) (by decide +kernel) bits_euronext.1
  · obtain rfl := class_unique hM (cls' := .exchange Xams.exchange Xams.zone startDefault) (by simp [defaultClasses])
    obtain rfl := class_unique hN (cls' := .exchange Xpar.exchange Xpar.zone startDefault) (by simp [defaultClasses])
    obtain rfl := (dn (by decide) _ _).1 hd
    exact lastDifference_of (rules_of_check xams_check) inside_xams (rules_of_check xpar_check) inside_xpar (by decide) (by decide +kernel) (by decide +kernel) bits_euronext.2.1
  · obtain rfl := class_unique hM (cls' := .exchange Xams.exchange Xams.zone startDefault) (by simp [defaultClasses])
    obtain rfl := class_unique hN (cls' := .exchange Xlis.exchange Xlis.zone startDefault) (by simp [defaultClasses])
    obtain rfl := (dn (by decide) _ _).1 hd
    exact lastDifference_of (rules_of_check xams_check) inside_xams (rules_of_check xlis_check) inside_xlis (by decide) (by decide +kernel) (by decide +kernel) bits_euronext.2.2.1
  · obtain rfl := class_unique hM (cls' := .exchange Xams.exchange Xams.zone startDefault) (by simp [defaultClasses])
    obtain rfl := class_unique hN (cls' := .exchange Xmad.exchange Xmad.zone startDefault) (by simp [defaultClasses])
    obtain rfl := (dn (by decide) _ _).1 hd
    exact lastDifference_of (rules_of_check xams_check) inside_xams (rules_of_check xmad_check) inside_xmad (by decide) (by decide +kernel) (by decide +kernel) bits_euronext.2.2.2

/-- C85: markets that trade only when another one does, after a last exception. -/
theorem c85_within_since {m n : String} {clsM clsN : CalendarClass} (hM : (m, clsM) ∈ defaultClasses)
    (hN : (n, clsN) ∈ defaultClasses) {x : Date}
    (h : (m, n, x) ∈ withinSince) {d : Int} (hd : DayNumber x d) :
    LastException (ClassTrades clsM) (ClassTrades clsN) d := by
  simp only [withinSince, List.mem_cons, List.not_mem_nil, or_false, Prod.mk.injEq] at h
  rcases h with ⟨rfl, rfl, rfl⟩ | ⟨rfl, rfl, rfl⟩ | ⟨rfl, rfl, rfl⟩ | ⟨rfl, rfl, rfl⟩ | ⟨rfl, rfl, rfl⟩ | ⟨rfl, rfl, rfl⟩ | ⟨rfl, rfl, rfl⟩ | ⟨rfl, rfl, rfl⟩ | ⟨rfl, rfl, rfl⟩ | ⟨rfl, rfl, rfl⟩ | ⟨rfl, rfl, rfl⟩ | ⟨rfl, rfl, rfl⟩
  · obtain rfl := class_unique hM (cls' := .exchange Xnys.exchange Xnys.zone startDefault) (by simp [defaultClasses])
    obtain rfl := class_unique hN (cls' := .exchange Xcbf.exchange Xcbf.zone startDefault) (by simp [defaultClasses])
    obtain rfl := (dn (by decide) _ _).1 hd
    exact lastException_of (rules_of_check xnys_check) inside_xnys (rules_of_check xcbf_check) inside_xcbf (by decide) (by decide +kernel) (by decide +kernel) bits_us.2.2.1
  · obtain rfl := class_unique hM (cls' := .exchange Asex.exchange Asex.zone startDefault) (by simp [defaultClasses])
    obtain rfl := class_unique hN (cls' := .exchange Xams.exchange Xams.zone startDefault) (by simp [defaultClasses])
    obtain rfl := (dn (by decide) _ _).1 hd
    exact lastException_of (rules_of_check asex_check) inside_asex (rules_of_check xams_check) inside_xams (by decide) (by decide +kernel) (by decide +kernel) bits_europe1.1
  · obtain rfl := class_unique hM (cls' := .exchange Xetr.exchange Xetr.zone startDefault) (by simp [defaultClasses])
    obtain rfl := class_unique hN (cls' := .exchange Xams.exchange Xams.zone startDefault) (by simp [defaultClasses])
    obtain rfl := (dn (by decide) _ _).1 hd
    exact lastException_of (rules_of_check xetr_check) inside_xetr (rules_of_check xams_check) inside_xams (by decide) (by decide +kernel) (by decide +kernel) bits_europe1.2.1
  · obtain rfl := class_unique hM (cls' := .exchange Xhel.exchange Xhel.zone startDefault) (by simp [defaultClasses])
    obtain rfl := class_unique hN (cls' := .exchange Xams.exchange Xams.zone startDefault) (by simp [defaultClasses])
    obtain rfl := (dn (by decide) _ _).1 hd
    exact lastException_of (rules_of_check xhel_check) inside_xhel (rules_of_check xams_check) inside_xams (by decide) (by decide +kernel) (by decide +kernel) bits_europe1.2.2.1
  · obtain rfl := class_unique hM (cls' := .exchange Xice.exchange Xice.zone startDefault) (by simp [defaultClasses])
    obtain rfl := class_unique hN (cls' := .exchange Xams.exchange Xams.zone startDefault) (by simp [defaultClasses])
    obtain rfl := (dn (by decide) _ _).1 hd
    exact lastException_of (rules_of_check xice_check) inside_xice (rules_of_check xams_check) inside_xams (by decide) (by decide +kernel) (by decide +kernel) bits_europe1.2.2.2.1
  · obtain rfl := class_unique hM (cls' := .exchange Xjse.exchange Xjse.zone startDefault) (by simp [defaultClasses])
    obtain rfl := class_unique hN (cls' := .exchange Xams.exchange Xams.zone startDefault) (by simp [defaultClasses])
    obtain rfl := (dn (by decide) _ _).1 hd
    exact lastException_of (rules_of_check xjse_check) inside_xjse (rules_of_check xams_check) inside_xams (by decide) (by decide +kernel) (by decide +kernel) bits_europe1.2.2.2.2.1
  · obtain rfl := class_unique hM (cls' := .exchange Xmil.exchange Xmil.zone startDefault) (by simp [defaultClasses])
    obtain rfl := class_unique hN (cls' := .exchange Xams.exchange Xams.zone startDefault) (by simp [defaultClasses])
    obtain rfl := (dn (by decide) _ _).1 hd
    exact lastException_of (rules_of_check xmil_check) inside_xmil (rules_of_check xams_check) inside_xams (by decide) (by decide +kernel) (by decide +kernel) bits_europe2.1
  · obtain rfl := class_unique hM (cls' := .exchange Xosl.exchange Xosl.zone startDefault) (by simp [defaultClasses])
    obtain rfl := class_unique hN (cls' := .exchange Xams.exchange Xams.zone startDefault) (by simp [defaultClasses])
    obtain rfl := (dn (by decide) _ _).1 hd
    exact lastException_of (rules_of_check xosl_check) inside_xosl (rules_of_check xams_check) inside_xams (by decide) (by decide +kernel) (by decide +kernel) bits_europe2.2.1
  · obtain rfl := class_unique hM (cls' := .exchange Xsto.exchange Xsto.zone startDefault) (by simp [defaultClasses])
    obtain rfl := class_unique hN (cls' := .exchange Xams.exchange Xams.zone startDefault) (by simp [defaultClasses])
    obtain rfl := (dn (by decide) _ _).1 hd
    exact lastException_of (rules_of_check xsto_check) inside_xsto (rules_of_check xams_check) inside_xams (by decide) (by decide +kernel) (by decide +kernel) bits_europe2.2.2.1
  · obtain rfl := class_unique hM (cls' := .exchange Xswx.exchange Xswx.zone startDefault) (by simp [defaultClasses])
    obtain rfl := class_unique hN (cls' := .exchange Xams.exchange Xams.zone startDefault) (by simp [defaultClasses])
    obtain rfl := (dn (by decide) _ _).1 hd
    exact lastException_of (rules_of_check xswx_check) inside_xswx (rules_of_check xams_check) inside_xams (by decide) (by decide +kernel) (by decide +kernel) bits_europe2.2.2.2.1
  · obtain rfl := class_unique hM (cls' := .exchange Xwar.exchange Xwar.zone startDefault) (by simp [defaultClasses])
    obtain rfl := class_unique hN (cls' := .exchange Xams.exchange Xams.zone startDefault) (by simp [defaultClasses])
    obtain rfl := (dn (by decide) _ _).1 hd
    exact lastException_of (rules_of_check xwar_check) inside_xwar (rules_of_check xams_check) inside_xams (by decide) (by decide +kernel) (by decide +kernel) bits_europe2.2.2.2.2.1
  · obtain rfl := class_unique hM (cls' := .exchange Xwbo.exchange Xwbo.zone startDefault) (by simp [defaultClasses])
    obtain rfl := class_unique hN (cls' := .exchange Xams.exchange Xams.zone startDefault) (by simp [defaultClasses])
    obtain rfl := (dn (by decide) _ _).1 hd
    exact lastException_of (rules_of_check xwbo_check) inside_xwbo (rules_of_check xams_check) inside_xams (by decide) (by decide +kernel) (by decide +kernel) bits_europe2.2.2.2.2.2

/-- C85: markets with the same days. -/
theorem c85_same_always {m n : String} {clsM clsN : CalendarClass} (hM : (m, clsM) ∈ defaultClasses)
    (hN : (n, clsN) ∈ defaultClasses)
    (h : (m, n) ∈ sameAlways) (d : Int) :
    ClassTrades clsM d ↔ ClassTrades clsN d := by
  simp only [sameAlways, List.mem_cons, List.not_mem_nil, or_false, Prod.mk.injEq] at h
  obtain ⟨rfl, rfl⟩ := h
  · obtain rfl := class_unique hM (cls' := .exchange Xetr.exchange Xetr.zone startDefault) (by simp [defaultClasses])
    obtain rfl := class_unique hN (cls' := .exchange Xfra.exchange Xfra.zone startDefault) (by simp [defaultClasses])
    exact same_of (rules_of_check xetr_check) inside_xetr (rules_of_check xfra_check) inside_xfra (by decide) bits_europe1.2.2.2.2.2 d

/-- C85: markets that trade only when another one does. -/
theorem c85_within_always {m n : String} {clsM clsN : CalendarClass} (hM : (m, clsM) ∈ defaultClasses)
    (hN : (n, clsN) ∈ defaultClasses)
    (h : (m, n) ∈ withinAlways) (d : Int) :
    ClassTrades clsM d → ClassTrades clsN d := by
  simp only [withinAlways, List.mem_cons, List.not_mem_nil, or_false, Prod.mk.injEq] at h
  rcases h with ⟨rfl, rfl⟩ | ⟨rfl, rfl⟩ | ⟨rfl, rfl⟩ | ⟨rfl, rfl⟩
  · obtain rfl := class_unique hM (cls' := .exchange Xnys.exchange Xnys.zone startDefault) (by simp [defaultClasses])
    obtain rfl := class_unique hN (cls' := .exchange Iepa.exchange Iepa.zone startDefault) (by simp [defaultClasses])
    exact within_of (rules_of_check xnys_check) inside_xnys (rules_of_check iepa_check) inside_iepa (by decide) bits_us.2.2.2.1 d
  · obtain rfl := class_unique hM (cls' := .exchange Iepa.exchange Iepa.zone startDefault) (by simp [defaultClasses])
    obtain rfl := class_unique hN (cls' := .exchange Cmes.exchange Cmes.zone startDefault) (by simp [defaultClasses])
    exact within_of (rules_of_check iepa_check) inside_iepa (rules_of_check cmes_check) inside_cmes (by decide) bits_us.2.2.2.2.1 d
  · obtain rfl := class_unique hM (cls' := .exchange Cmes.exchange Cmes.zone startDefault) (by simp [defaultClasses])
    obtain rfl := class_unique hN (cls' := .exchange UsFuturesCalendar.exchange UsFuturesCalendar.zone start2000) (by simp [defaultClasses])
    exact within_of (rules_of_check cmes_check) inside_cmes (rules_of_check usFuturesCalendar_check) inside_usFuturesCalendar (by decide) bits_us.2.2.2.2.2.1 d
  · obtain rfl := class_unique hM (cls' := .exchange Xswx.exchange Xswx.zone startDefault) (by simp [defaultClasses])
    obtain rfl := class_unique hN (cls' := .exchange UsFuturesCalendar.exchange UsFuturesCalendar.zone start2000) (by simp [defaultClasses])
    exact within_of (rules_of_check xswx_check) inside_xswx (rules_of_check usFuturesCalendar_check) inside_usFuturesCalendar (by decide) bits_us.2.2.2.2.2.2 d

variable {start stop : Int} {b₁ b₂ : Built}

/-- C85: classes with the same trading days in the range have calendars with the same sessions. -/
theorem c85_sessions {cfg₁ cfg₂ : Config} (h₁ : build cfg₁ start stop = .ok b₁) (h₂ : build cfg₂ start stop = .ok b₂)
    (hmid : DAY ∣ start)
    (hs : ∀ d, start ≤ d * DAY → d * DAY ≤ stop → (TradingDay cfg₁ d ↔ TradingDay cfg₂ d)) :
    b₁.cal.sessions = b₂.cal.sessions := by
  obtain ⟨s₁, e₁, c₁, -⟩ := build_parts h₁
  obtain ⟨s₂, e₂, c₂, -⟩ := build_parts h₂
  rw [c₁, c₂]
  refine sorted_ext (schedule_labels e₁ hmid).1 (schedule_labels e₂ hmid).1 fun l => ?_
  rw [(schedule_labels e₁ hmid).2, (schedule_labels e₂ hmid).2]
  constructor
  · rintro ⟨d, rfl, h3, h4, h5⟩
    exact ⟨d, rfl, h3, h4, (hs d h3 h4).1 h5⟩
  · rintro ⟨d, rfl, h3, h4, h5⟩
    exact ⟨d, rfl, h3, h4, (hs d h3 h4).2 h5⟩

/-- C85: a class that trades only when another one does has no other sessions. -/
theorem c85_subset {cfg₁ cfg₂ : Config} (h₁ : build cfg₁ start stop = .ok b₁) (h₂ : build cfg₂ start stop = .ok b₂)
    (hmid : DAY ∣ start)
    (hs : ∀ d, start ≤ d * DAY → d * DAY ≤ stop → TradingDay cfg₁ d → TradingDay cfg₂ d) :
    ∀ l ∈ b₁.cal.sessions, l ∈ b₂.cal.sessions := by
  obtain ⟨s₁, e₁, c₁, -⟩ := build_parts h₁
  obtain ⟨s₂, e₂, c₂, -⟩ := build_parts h₂
  rw [c₁, c₂]
  intro l
  rw [(schedule_labels e₁ hmid).2, (schedule_labels e₂ hmid).2]
  rintro ⟨d, rfl, h3, h4, h5⟩
  exact ⟨d, rfl, h3, h4, hs d h3 h4 h5⟩

section
variable {m n : String} {clsM clsN : CalendarClass}

/-- C85 for calendars of two default names constructed for the same range: their sessions are the same if the
range begins after the last difference, and every session of the first is one of the second if it begins after the
last exception. -/
theorem c85_calendars (hM : (m, clsM) ∈ defaultClasses) (hN : (n, clsN) ∈ defaultClasses)
    (h₁ : clsM.constructFor start stop = .ok b₁) (h₂ : clsN.constructFor start stop = .ok b₂) (hmid : DAY ∣ start) :
    ((m, n) ∈ sameAlways → b₁.cal.sessions = b₂.cal.sessions) ∧
    (∀ x d, (m, n, x) ∈ sameSince → DayNumber x d → d * DAY < start → b₁.cal.sessions = b₂.cal.sessions) ∧
    ((m, n) ∈ withinAlways → ∀ l ∈ b₁.cal.sessions, l ∈ b₂.cal.sessions) ∧
    (∀ x d, (m, n, x) ∈ withinSince → DayNumber x d → d * DAY < start →
      ∀ l ∈ b₁.cal.sessions, l ∈ b₂.cal.sessions) := by
  have k₁ := constructFor_build h₁
  have k₂ := constructFor_build h₂
  have t₁ := classTrades_iff hM
  have t₂ := classTrades_iff hN
  refine ⟨fun h => ?_, fun x d h hd hs => ?_, fun h => ?_, fun x d h hd hs => ?_⟩
  · refine c85_sessions k₁ k₂ hmid fun e _ _ => ?_
    rw [t₁, t₂]
    exact c85_same_always hM hN h e
  · refine c85_sessions k₁ k₂ hmid fun e h3 _ => ?_
    rw [t₁, t₂]
    exact (c85_same_since hM hN h hd).2 e (by simp only [DAY] at *; omega)
  · refine c85_subset k₁ k₂ hmid fun e _ _ => ?_
    rw [t₁, t₂]
    exact c85_within_always hM hN h e
  · refine c85_subset k₁ k₂ hmid fun e h3 _ => ?_
    rw [t₁, t₂]
    exact (c85_within_since hM hN h hd).2 e (by simp only [DAY] at *; omega)

/-- C85: the last difference matters: calendars constructed for a range that contains that day differ. -/
theorem c85_differ (hM : (m, clsM) ∈ defaultClasses) (hN : (n, clsN) ∈ defaultClasses)
    (h₁ : clsM.constructFor start stop = .ok b₁) (h₂ : clsN.constructFor start stop = .ok b₂) (hmid : DAY ∣ start)
    {x : Date} {d : Int} (hx : (m, n, x) ∈ sameSince) (hd : DayNumber x d) (h3 : start ≤ d * DAY)
    (h4 : d * DAY ≤ stop) : b₁.cal.sessions ≠ b₂.cal.sessions := by
  intro he
  have g₁ := gap_labels (constructFor_build h₁) hmid (classTrades_iff hM) (d * DAY)
  have g₂ := gap_labels (constructFor_build h₂) hmid (classTrades_iff hN) (d * DAY)
  rw [he] at g₁
  have hk := (c85_same_since hM hN hx hd).1
  refine hk ⟨fun hp => ?_, fun hp => ?_⟩
  · obtain ⟨e, h5, -, -, h6⟩ := g₂.1 (g₁.2 ⟨d, rfl, h3, h4, hp⟩)
    have : e = d := by simp only [DAY] at h5; omega
    exact this ▸ h6
  · obtain ⟨e, h5, -, -, h6⟩ := g₁.1 (g₂.2 ⟨d, rfl, h3, h4, hp⟩)
    have : e = d := by simp only [DAY] at h5; omega
    exact this ▸ h6

end

/-- Amsterdam and Paris in 2019. -/
example : ∃ b₁ b₂, (CalendarClass.exchange Xams.exchange Xams.zone startDefault).constructFor (dayOf 2019 1 1 * DAY)
      (dayOf 2019 12 31 * DAY) = .ok b₁ ∧
    (CalendarClass.exchange Xpar.exchange Xpar.zone startDefault).constructFor (dayOf 2019 1 1 * DAY)
      (dayOf 2019 12 31 * DAY) = .ok b₂ ∧ b₁.cal.sessions = b₂.cal.sessions := by
  obtain ⟨b₁, h₁, -⟩ := (c54_xams_zone (dayOf 2019 1 1 * DAY) (dayOf 2019 12 31 * DAY) (by decide +kernel)
    (Int.dvd_mul_left _ _)).succeeds (by decide +kernel) ⟨dayOf 2019 10 16, by decide +kernel, by decide +kernel,
      trades_of xams_check (by decide +kernel)⟩
  obtain ⟨b₂, h₂, -⟩ := (c54_xpar_zone (dayOf 2019 1 1 * DAY) (dayOf 2019 12 31 * DAY) (by decide +kernel)
    (Int.dvd_mul_left _ _)).succeeds (by decide +kernel) ⟨dayOf 2019 10 16, by decide +kernel, by decide +kernel,
      trades_of xpar_check (by decide +kernel)⟩
  refine ⟨b₁, b₂, h₁, h₂, ?_⟩
  exact (c85_calendars (m := "XAMS") (n := "XPAR") (clsM := .exchange Xams.exchange Xams.zone startDefault)
    (clsN := .exchange Xpar.exchange Xpar.zone startDefault) (by simp [defaultClasses]) (by simp [defaultClasses])
    h₁ h₂ (Int.dvd_mul_left _ _)).2.1 ⟨2001, 4, 30⟩ (dayOf 2001 4 30) (by simp [sameSince]) ((dn (by decide) _ _).2 rfl)
    (by decide +kernel)

end TC.Props
