import Verif.Lemmas.Overlap
import Verif.Spec.Overlap
import Verif.Props.Defaults

/-!
# C66: the range of a calendar does not change its answers

Two calendars of the same class, constructed for different ranges, give the same answers about the time well
inside both.
-/

namespace TC.Props
open Spec

variable {cfg : Config} {start stop start' stop' lo hi : Int} {b b' : Built}

/-- C66: for every class whose special times do not depend on the range, calendars constructed for two
ranges agree on the time at least five days inside both: the same sessions with the same opens, closes and
breaks, the same answers to every query, the same early closes and late opens. -/
theorem c66_overlap (h : Steady cfg) (hb : build cfg start stop = .ok b)
    (hb' : build cfg start' stop' = .ok b') (hm : DAY ∣ start) (hm' : DAY ∣ start')
    (hlow : NP_NAT + 3 * DAY ≤ start) (hlow' : NP_NAT + 3 * DAY ≤ start')
    (h1 : start + 5 * DAY ≤ lo) (h1' : start' + 5 * DAY ≤ lo) (h2 : hi + 5 * DAY ≤ stop)
    (h2' : hi + 5 * DAY ≤ stop') : Agree b b' lo hi :=
  agree_of hb hb' h.ordered h.tame h.zoneMinutes h.timeMinutes h.special h.openHigh hm hm' hlow hlow'
    h1 h2 h1' h2'

/-- C66, exactly: a session of both calendars has the same times in both if the same special open and
close, if any, lie in both ranges. -/
theorem c66_row (h : Steady cfg) (hb : build cfg start stop = .ok b)
    (hb' : build cfg start' stop' = .ok b') (hm : DAY ∣ start) (hm' : DAY ∣ start')
    (hlow : NP_NAT + 3 * DAY ≤ start) (hlow' : NP_NAT + 3 * DAY ≤ start')
    {s s' : Session} (hs : s ∈ rowsOf b.cal) (hs' : s' ∈ rowsOf b'.cal) (hl : s.label = s'.label)
    (hO : ∀ u, SpecialOpen cfg start stop s.label u ↔ SpecialOpen cfg start' stop' s.label u)
    (hC : ∀ u, SpecialClose cfg start stop s.label u ↔ SpecialClose cfg start' stop' s.label u) :
    s = s' :=
  rows_eq h.ordered h.special (row_facts hb (h.ordered.wellFormed h.tame hm hlow) s hs)
    (row_facts hb' (h.ordered.wellFormed h.tame hm' hlow') s' hs') hl hO hC

/-- The session of Monday, day 4, of the 24/5 calendar, constructed up to day 4 and up to day 6. -/
example : Steady weekdayCalendar ∧
    (build weekdayCalendar 0 (4 * DAY)).toOption.map (fun b => rowsOf b.cal) =
      some [⟨0, 0, none, hm 23 59⟩, ⟨DAY, DAY, none, DAY + hm 23 59⟩,
        ⟨4 * DAY, 4 * DAY, none, 4 * DAY + hm 23 59⟩] ∧
    (build weekdayCalendar (3 * DAY) (6 * DAY)).toOption.map (fun b => (rowsOf b.cal).head?) =
      some (some ⟨4 * DAY, 4 * DAY, none, 4 * DAY + hm 23 59⟩) ∧
    ∀ start stop l u, ¬ SpecialOpen weekdayCalendar start stop l u ∧
      ¬ SpecialClose weekdayCalendar start stop l u :=
  ⟨steady_of (ordered_of (by decide)) (tame_of (by decide)) (oneSpecial_none rfl rfl rfl rfl) (by decide),
    by decide +kernel, by decide +kernel,
    fun _ _ _ _ => by simp [SpecialOpen, SpecialClose, Applied, SpecialTime, weekdayCalendar]⟩

/-- The configuration of the class. -/
def classConfig : CalendarClass → Config
  | .exchange x z _ => x.config z
  | .precomputed x z => x.config z
  | .hongKong => Xhkg.exchange.config Xhkg.zone
  | .simple cfg => cfg

theorem steady_default {name : String} {cls : CalendarClass} (h : (name, cls) ∈ defaultClasses) :
    Steady (classConfig cls) := by
  simp only [defaultClasses, List.mem_cons, List.not_mem_nil, or_false, Prod.mk.injEq] at h
  rcases h with ⟨rfl, rfl⟩ | ⟨rfl, rfl⟩ | ⟨rfl, rfl⟩ | ⟨rfl, rfl⟩ | ⟨rfl, rfl⟩ | ⟨rfl, rfl⟩ | ⟨rfl, rfl⟩ | ⟨rfl, rfl⟩ | ⟨rfl, rfl⟩ | ⟨rfl, rfl⟩ | ⟨rfl, rfl⟩ | ⟨rfl, rfl⟩ | ⟨rfl, rfl⟩ | ⟨rfl, rfl⟩ | ⟨rfl, rfl⟩ | ⟨rfl, rfl⟩ | ⟨rfl, rfl⟩ | ⟨rfl, rfl⟩ | ⟨rfl, rfl⟩ | ⟨rfl, rfl⟩ | ⟨rfl, rfl⟩ | ⟨rfl, rfl⟩ | ⟨rfl, rfl⟩ | ⟨rfl, rfl⟩ | ⟨rfl, rfl⟩ | ⟨rfl, rfl⟩ | ⟨rfl, rfl⟩ | ⟨rfl, rfl⟩ | ⟨rfl, rfl⟩ | ⟨rfl, rfl⟩ | ⟨rfl, rfl⟩ | ⟨rfl, rfl⟩ | ⟨rfl, rfl⟩ | ⟨rfl, rfl⟩ | ⟨rfl, rfl⟩ | ⟨rfl, rfl⟩ | ⟨rfl, rfl⟩ | ⟨rfl, rfl⟩ | ⟨rfl, rfl⟩ | ⟨rfl, rfl⟩ | ⟨rfl, rfl⟩ | ⟨rfl, rfl⟩ | ⟨rfl, rfl⟩ | ⟨rfl, rfl⟩ | ⟨rfl, rfl⟩ | ⟨rfl, rfl⟩ | ⟨rfl, rfl⟩ | ⟨rfl, rfl⟩ | ⟨rfl, rfl⟩ | ⟨rfl, rfl⟩ | ⟨rfl, rfl⟩ | ⟨rfl, rfl⟩ | ⟨rfl, rfl⟩
  · exact steady_exchange asex_check clear_europeAthens.tame (by decide +kernel)
  · exact steady_exchange bvmf_check clear_americaSaoPaulo.tame (by decide +kernel)
  · exact steady_exchange cmes_check clear_americaChicago.tame (by decide +kernel)
  · exact steady_exchange iepa_check clear_americaNewYork.tame (by decide +kernel)
  · exact steady_exchange xams_check clear_europeAmsterdam.tame (by decide +kernel)
  · exact steady_exchange xasx_check clear_australiaSydney.tame (by decide +kernel)
  · exact steady_exchange xbkk_check clear_asiaBangkok.tame (by decide +kernel)
  · exact steady_exchange xbog_check clear_americaNewYork.tame (by decide +kernel)
  · exact steady_exchange xbom_check clear_asiaCalcutta.tame (by decide +kernel)
  · exact steady_exchange xbru_check clear_europeBrussels.tame (by decide +kernel)
  · exact steady_exchange xbud_check clear_europeBudapest.tame (by decide +kernel)
  · exact steady_exchange xbue_check clear_americaArgentinaBuenosAires.tame (by decide +kernel)
  · exact steady_exchange xcbf_check clear_americaChicago.tame (by decide +kernel)
  · exact steady_exchange xcse_check clear_europeCopenhagen.tame (by decide +kernel)
  · exact steady_exchange xdub_check clear_europeDublin.tame (by decide +kernel)
  · exact steady_exchange xfra_check clear_cet.tame (by decide +kernel)
  · exact steady_exchange xetr_check clear_cet.tame (by decide +kernel)
  · exact steady_exchange xhel_check clear_europeHelsinki.tame (by decide +kernel)
  · exact steady_exchange xhkg_check clear_asiaHongKong.tame (by decide +kernel)
  · exact steady_exchange xice_check clear_atlanticReykjavik.tame (by decide +kernel)
  · exact steady_exchange xidx_check clear_asiaJakarta.tame (by decide +kernel)
  · exact steady_exchange xist_check clear_europeIstanbul.tame (by decide +kernel)
  · exact steady_exchange xjse_check clear_africaJohannesburg.tame (by decide +kernel)
  · exact steady_exchange xkar_check clear_asiaKarachi.tame (by decide +kernel)
  · exact steady_exchange xkls_check clear_asiaKualaLumpur.tame (by decide +kernel)
  · exact steady_exchange xkrx_check clear_asiaSeoul.tame (by decide +kernel)
  · exact steady_exchange xlim_check clear_americaLima.tame (by decide +kernel)
  · exact steady_exchange xlis_check clear_europeLisbon.tame (by decide +kernel)
  · exact steady_exchange xlon_check clear_europeLondon.tame (by decide +kernel)
  · exact steady_exchange xmad_check clear_europeMadrid.tame (by decide +kernel)
  · exact steady_exchange xmex_check clear_americaMexicoCity.tame (by decide +kernel)
  · exact steady_exchange xmil_check clear_europeRome.tame (by decide +kernel)
  · exact steady_exchange xmos_check clear_europeMoscow.tame (by decide +kernel)
  · exact steady_exchange xnys_check clear_americaNewYork.tame (by decide +kernel)
  · exact steady_exchange xnze_check clear_nz.tame (by decide +kernel)
  · exact steady_exchange xosl_check clear_europeOslo.tame (by decide +kernel)
  · exact steady_exchange xpar_check clear_europeParis.tame (by decide +kernel)
  · exact steady_exchange xphs_check clear_asiaManila.tame (by decide +kernel)
  · exact steady_exchange xpra_check clear_europePrague.tame (by decide +kernel)
  · exact steady_exchange xses_check clear_asiaSingapore.tame (by decide +kernel)
  · exact steady_exchange xsgo_check clear_americaSantiago.tame (by decide +kernel)
  · exact steady_exchange xshg_check clear_asiaShanghai.tame (by decide +kernel)
  · exact steady_exchange xsto_check clear_europeStockholm.tame (by decide +kernel)
  · exact steady_exchange xswx_check clear_europeZurich.tame (by decide +kernel)
  · exact steady_of (timesB_ordered (by decide) _) clear_asiaTelAviv.tame (oneSpecial_exchange
      ⟨by simp [Xtae.exchange, Exchange.specialRules], by simp [Xtae.exchange, Exchange.specialRules]⟩
      (by decide) _) (by decide +kernel)
  · exact steady_exchange xtai_check clear_asiaTaipei.tame (by decide +kernel)
  · exact steady_exchange xtks_check clear_asiaTokyo.tame (by decide +kernel)
  · exact steady_exchange xtse_check clear_americaToronto.tame (by decide +kernel)
  · exact steady_exchange xwar_check clear_europeWarsaw.tame (by decide +kernel)
  · exact steady_exchange xwbo_check clear_europeVienna.tame (by decide +kernel)
  · exact steady_exchange usFuturesCalendar_check clear_americaNewYork.tame (by decide +kernel)
  · exact steady_of (ordered_of (by decide)) (tame_of (by decide)) (oneSpecial_none rfl rfl rfl rfl)
      (by decide)
  · exact steady_of (ordered_of (by decide)) (tame_of (by decide)) (oneSpecial_none rfl rfl rfl rfl)
      (by decide)

theorem constructFor_build {cls : CalendarClass} (h : cls.constructFor start stop = .ok b) :
    build (classConfig cls) start stop = .ok b := by
  cases cls with
  | exchange x z s => exact h
  | precomputed x z =>
    simp only [CalendarClass.constructFor, Exchange.precomputedInit] at h
    obtain ⟨m, -, h⟩ := bind_ok_iff.1 h
    obtain ⟨m', -, h⟩ := bind_ok_iff.1 h
    exact (checked.1 h).1
  | hongKong =>
    simp only [CalendarClass.constructFor] at h
    rw [xhkg_eq] at h
    exact (checked.1 h).1
  | simple cfg => exact h

/-- C66 for the calendars of the library: calling any of the default classes with two ranges yields
calendars that agree on the time at least five days inside both. -/
theorem c66_default {name : String} {cls : CalendarClass} (h : (name, cls) ∈ defaultClasses)
    (hb : cls.constructFor start stop = .ok b) (hb' : cls.constructFor start' stop' = .ok b')
    (hm : DAY ∣ start) (hm' : DAY ∣ start') (hlow : NP_NAT + 3 * DAY ≤ start)
    (hlow' : NP_NAT + 3 * DAY ≤ start') (h1 : start + 5 * DAY ≤ lo) (h1' : start' + 5 * DAY ≤ lo)
    (h2 : hi + 5 * DAY ≤ stop) (h2' : hi + 5 * DAY ≤ stop') : Agree b b' lo hi :=
  c66_overlap (steady_default h) (constructFor_build hb) (constructFor_build hb') hm hm' hlow hlow' h1 h1'
    h2 h2'

/-- XNYS called for 2019-2020 and for 2018-2021 agrees with itself from 2019-01-07 to 2020-12-20. -/
example : ∃ b b' : Built,
    (CalendarClass.exchange Xnys.exchange Xnys.zone startDefault).constructFor (dayOf 2019 1 1 * DAY)
      (dayOf 2020 12 31 * DAY) = .ok b ∧
    (CalendarClass.exchange Xnys.exchange Xnys.zone startDefault).constructFor (dayOf 2018 1 1 * DAY)
      (dayOf 2021 12 31 * DAY) = .ok b' ∧
    Agree b b' (dayOf 2019 1 7 * DAY) (dayOf 2020 12 20 * DAY) := by
  have hd : TradesOn Xnys.exchange (dayOf 2019 10 16) := trades_of xnys_check (by decide +kernel)
  obtain ⟨b, hb, -⟩ := (c54_xnys_zone (dayOf 2019 1 1 * DAY) (dayOf 2020 12 31 * DAY) (by decide +kernel)
    (Int.dvd_mul_left _ _)).succeeds (by decide +kernel) ⟨_, by decide +kernel, by decide +kernel, hd⟩
  obtain ⟨b', hb', -⟩ := (c54_xnys_zone (dayOf 2018 1 1 * DAY) (dayOf 2021 12 31 * DAY) (by decide +kernel)
    (Int.dvd_mul_left _ _)).succeeds (by decide +kernel) ⟨_, by decide +kernel, by decide +kernel, hd⟩
  have hm : ("XNYS", CalendarClass.exchange Xnys.exchange Xnys.zone startDefault) ∈ defaultClasses := by
    simp [defaultClasses]
  refine ⟨b, b', hb, hb', c66_default hm (start := dayOf 2019 1 1 * DAY) (stop := dayOf 2020 12 31 * DAY)
    (start' := dayOf 2018 1 1 * DAY) (stop' := dayOf 2021 12 31 * DAY) hb hb' (Int.dvd_mul_left _ _)
    (Int.dvd_mul_left _ _) ?_ ?_ ?_ ?_ ?_ ?_⟩ <;> decide +kernel

/-- Without the margin it is false: the session of day 14 closes at 16:30 in the calendar that ends on day
15, at 20:00 in the one that ends on day 14. -/
example : build demoConfig 0 (14 * DAY) = .ok demoBuilt ∧
    demoBuilt.cal.openAndCloseForSession (14 * DAY) = .ok (14 * DAY + hm 14 1, 14 * DAY + hm 20 0) ∧
    (build demoConfig 0 (15 * DAY)).toOption.map (fun b => b.cal.openAndCloseForSession (14 * DAY)) =
      some (.ok (14 * DAY + hm 14 1, 14 * DAY + hm 16 30)) := by
  exact ⟨demo_build, by decide +kernel, by decide +kernel⟩

/-- C66 for calendars constructed without arguments: importing the library at two different instants
changes nothing in the answers up to 360 days after the earlier one. -/
theorem c66_import {name : String} {cls : CalendarClass} (h : (name, cls) ∈ defaultClasses)
    {now now' : Int} (hb : cls.construct now = .ok b) (hb' : cls.construct now' = .ok b')
    (hlo : dayOf 2000 1 6 * DAY ≤ lo) (h2 : hi ≤ now + 360 * DAY) (h2' : hi ≤ now' + 360 * DAY) :
    Agree b b' lo hi := by
  have e1 : dayOf 2000 1 6 = 10962 := by decide
  have e2 : dayOf 1990 1 1 = 7305 := by decide
  have e3 : dayOf 2000 1 1 = 10957 := by decide
  have key : ∀ start, start = startDefault ∨ start = start2000 → ∀ cfg, Steady cfg →
      build cfg start (endDefault now) = .ok b → build cfg start (endDefault now') = .ok b' →
      Agree b b' lo hi := by
    intro start hs cfg hst k k'
    have hmid : DAY ∣ start := by rcases hs with rfl | rfl <;> exact Int.dvd_mul_left _ _
    have hl : NP_NAT + 3 * DAY ≤ start := by rcases hs with rfl | rfl <;> decide
    have ha : start + 5 * DAY ≤ lo := by
      rcases hs with rfl | rfl <;> simp only [startDefault, start2000, DAY, e1, e2, e3] at * <;> omega
    exact c66_overlap hst k k' hmid hmid hl hl ha ha (by simp only [endDefault, DAY] at *; omega)
      (by simp only [endDefault, DAY] at *; omega)
  have hst := steady_default h
  have hstart : ∀ x z s, cls = .exchange x z s → s = startDefault ∨ s = start2000 := by
    intro x z s hc
    subst hc
    simp only [defaultClasses, List.mem_cons, List.not_mem_nil, or_false, Prod.mk.injEq,
      CalendarClass.exchange.injEq, reduceCtorEq, and_false, false_or] at h
    omega
  cases cls with
  | exchange x z s => exact key s (hstart x z s rfl) _ hst hb hb'
  | precomputed x z =>
    have : b = b' := by
      simp only [CalendarClass.construct] at hb hb'
      rw [hb] at hb'
      cases hb'
      rfl
    subst this
    exact agree_refl b lo hi
  | hongKong =>
    simp only [CalendarClass.construct] at hb hb'
    rw [xhkg_eq, checked] at hb hb'
    exact key _ (.inl rfl) _ hst hb.1 hb'.1
  | simple cfg => exact key _ (.inl rfl) _ hst hb hb'

/-- The calendar of London, with the library imported at the end of 2019 and half a year later. -/
example : ∃ b b' : Built,
    (CalendarClass.exchange Xlon.exchange Xlon.zone startDefault).construct (dayOf 2019 12 1 * DAY + 1) =
      .ok b ∧
    (CalendarClass.exchange Xlon.exchange Xlon.zone startDefault).construct (dayOf 2020 6 1 * DAY + 2) =
      .ok b' ∧
    Agree b b' (dayOf 2000 1 6 * DAY) (dayOf 2020 11 25 * DAY) := by
  have hm : ("XLON", CalendarClass.exchange Xlon.exchange Xlon.zone startDefault) ∈ defaultClasses := by
    simp [defaultClasses]
  obtain ⟨b, hb, -⟩ := c58_constructs (now := dayOf 2019 12 1 * DAY + 1) (by decide) hm
    ⟨by decide, by decide, by decide⟩
  obtain ⟨b', hb', -⟩ := c58_constructs (now := dayOf 2020 6 1 * DAY + 2) (by decide) hm
    ⟨by decide, by decide, by decide⟩
  exact ⟨b, b', hb, hb', c66_import hm hb hb' (by decide) (by decide) (by decide)⟩

end TC.Props
