import Verif.Props.Construct
import Verif.Props.Hebrew
import Verif.Props.Build
import Verif.Props.Dispatcher
import Verif.Spec.Defaults

/-!
# C58: the default calendars

What `get_calendar` returns for every default name and alias: a calendar with the trading days of the
class, as long as the range from the default start to a year after the import can be built.
-/

namespace TC.Props
open Spec

theorem offers_exchange {x : Exchange} {z : Tz} {first start now : Int} {bad : List Int}
    (hc : ConstructibleFrom x z first bad) (hf : first * DAY ≤ start) (hmid : DAY ∣ start)
    (hbad : ∀ d ∈ bad, d * DAY < start ∨ now + 365 * DAY < d * DAY)
    (ht : ∃ d, start ≤ d * DAY ∧ d * DAY ≤ now + 365 * DAY ∧ TradesOn x d) :
    ∃ b, (CalendarClass.exchange x z start).construct now = .ok b ∧
      Offers now (.exchange x z start) b := by
  obtain ⟨b, hb, ss, h1, h2, h3, h4, h5, h6, -⟩ := (hc start (now + 365 * DAY) hf hmid).succeeds hbad ht
  refine ⟨b, hb, ss, h1, h2, h3, h4, fun l => (h5 l).trans ?_, h6⟩
  constructor
  · rintro ⟨d, rfl, h7, h8, h9⟩; exact ⟨d, rfl, ⟨h7, h8⟩, h9⟩
  · rintro ⟨d, rfl, ⟨h7, h8⟩, h9⟩; exact ⟨d, rfl, h7, h8, h9⟩

/-- From 1990 (or 2000) on, with 2019-10-16 or 2019-02-03 in the range. -/
theorem offers_default {x : Exchange} {z : Tz} {first start now d : Int} {bad : List Int}
    (hc : ConstructibleFrom x z first bad) (hnow : dayOf 2019 10 16 * DAY ≤ now)
    (hf : first * DAY ≤ start) (hs : start = startDefault ∨ start = start2000)
    (hbad : ∀ d ∈ bad, d * DAY < start ∨ now + 365 * DAY < d * DAY)
    (hd : dayOf 2019 1 1 ≤ d) (hd' : d ≤ dayOf 2019 10 16) (ht : TradesOn x d) :
    ∃ b, (CalendarClass.exchange x z start).construct now = .ok b ∧
      Offers now (.exchange x z start) b := by
  have e1 : dayOf 2019 10 16 = 18185 := by decide
  have e2 : dayOf 2019 1 1 = 17897 := by decide
  have e3 : dayOf 1990 1 1 = 7305 := by decide
  have e4 : dayOf 2000 1 1 = 10957 := by decide
  refine offers_exchange hc hf ?_ hbad ⟨d, ?_, ?_, ht⟩
  · rcases hs with rfl | rfl <;> exact Int.dvd_mul_left _ _
  · rcases hs with rfl | rfl <;> simp only [startDefault, start2000, DAY, e3, e4] at * <;> omega
  · simp only [DAY] at *; omega

theorem offers_precomputed {x : Exchange} {z : Tz} {first y y' lo hi : Int} (now : Int)
    (hc : ConstructibleFrom x z first []) (hl : npMin x.adhoc = .ok lo) (hh : npMax x.adhoc = .ok hi)
    (hy : yearOf lo = y) (hy' : yearOf hi = y') (hf : first ≤ dayOf y 1 1)
    (ht : ∃ d, dayOf y 1 1 ≤ d ∧ d ≤ dayOf y' 12 31 ∧ TradesOn x d) :
    ∃ b, (CalendarClass.precomputed x z).construct now = .ok b ∧ Offers now (.precomputed x z) b := by
  obtain ⟨-, b, hb, hlab⟩ := coversYears_of hc hl hh hy hy' hf ht
  subst hy hy'
  have hb' := hb
  rw [precomputed_eq hl hh, checked] at hb'
  simp only [Option.getD_none] at hb'
  obtain ⟨d, hd1, hd2, hd⟩ := ht
  obtain ⟨b', hb1, ss, h1, h2, h3, h4, h5, h6, -⟩ :=
    (hc (dayOf (yearOf lo) 1 1 * DAY) (dayOf (yearOf hi) 12 31 * DAY)
      (by simp only [DAY]; omega) (Int.dvd_mul_left _ _)).succeeds (by simp)
      ⟨d, by simp only [DAY]; omega, by simp only [DAY]; omega, hd⟩
  have e : b' = b := by rw [hb'.1] at hb1; exact (Except.ok.inj hb1).symm
  subst e
  refine ⟨b', hb, ss, h1, h2, h3, h4, fun l => ?_, fun s hs y y' d d' hy hy' hd hd' => ?_⟩
  · have := hlab l
    rw [h1] at this
    refine this.trans ?_
    simp only [ClassCovers, ClassTrades, recorded_iff hl hh]
    constructor
    · rintro ⟨d, yl, rfl, a1, a2, a3, a4⟩; exact ⟨d, rfl, ⟨yl, a1, a2, a3⟩, a4⟩
    · rintro ⟨d, rfl, ⟨yl, a1, a2, a3⟩, a4⟩; exact ⟨d, yl, rfl, a1, a2, a3, a4⟩
  · rw [firstYear_iff hl] at hy
    rw [lastYear_iff hh] at hy'
    have e1 := ((dayNumber_iff _ _).1 hd).2
    have e2 := ((dayNumber_iff _ _).1 hd').2
    simp only [← hy, ← hy'] at h6
    simp only at e1 e2
    rw [← e1, ← e2]
    exact h6 s hs

theorem year2049 {d : Int} : dayOf 1990 1 1 ≤ d → d < dayOf 2050 1 1 → 1960 ≤ yearOf d ∧ yearOf d ≤ 2049 := by
  intro h1 h2
  have e1 : yearOf (dayOf 1990 1 1) = 1990 := by decide +kernel
  have e2 : yearOf (dayOf 2050 1 1 - 1) = 2049 := by decide +kernel
  have := yearOf_mono h1
  have := yearOf_mono (d := d) (d' := dayOf 2050 1 1 - 1) (by omega)
  omega

theorem hongkong_build {now : Int} (hnow : dayOf 2019 10 16 * DAY ≤ now) :
    ∃ b, build (Xhkg.exchange.config Xhkg.zone) startDefault (now + 365 * DAY) = .ok b ∧
      Offers now .hongKong b := by
  have e1 : dayOf 2019 10 16 = 18185 := by decide
  have e3 : dayOf 1990 1 1 = 7305 := by decide
  obtain ⟨b, hb, ss, h1, h2, h3, h4, h5, h6, -⟩ :=
    (c54_xhkg_zone startDefault (now + 365 * DAY) (by decide +kernel)
      (Int.dvd_mul_left _ _)).succeeds (by simp)
    ⟨dayOf 2019 10 16, by decide +kernel, by simp only [DAY] at *; omega,
      trades_of xhkg_check (by decide +kernel)⟩
  refine ⟨b, hb, ss, h1, h2, h3, h4, fun l => (h5 l).trans ?_, h6⟩
  simp only [ClassCovers, ClassTrades, startDefault]
  constructor
  · rintro ⟨d, rfl, h7, h8, h9⟩; exact ⟨d, rfl, ⟨by simp only [DAY] at *; omega, h8⟩, h9⟩
  · rintro ⟨d, rfl, ⟨h7, h8⟩, h9⟩; exact ⟨d, rfl, by simp only [DAY] at *; omega, h8, h9⟩

theorem offers_sessions {now : Int} {cls : CalendarClass} {b : Built} (h : Offers now cls b) (l : Int) :
    l ∈ b.cal.sessions ↔ ∃ d, l = d * DAY ∧ ClassCovers now cls d ∧ ClassTrades cls d := by
  obtain ⟨ss, h1, -, -, -, h5, -⟩ := h
  rw [h1]
  exact h5 l

theorem offers_hongkong {now : Int} (hnow : dayOf 2019 10 16 * DAY ≤ now)
    (hin : now + 365 * DAY < dayOf 2050 1 1 * DAY) :
    ∃ b, CalendarClass.hongKong.construct now = .ok b ∧ Offers now .hongKong b := by
  obtain ⟨b, hb, ho⟩ := hongkong_build hnow
  refine ⟨b, ?_, ho⟩
  simp only [CalendarClass.construct, endDefault]
  rw [xhkg_eq, checked]
  refine ⟨hb, fun l hl => ?_⟩
  obtain ⟨d, rfl, ⟨h1, h2⟩, -⟩ := (offers_sessions ho l).1 hl
  unfold yearOfInstant
  rw [day_ediv]
  exact year2049 h1 (by simp only [DAY] at *; omega)

theorem offers_simple {cfg : Config} {now : Int} (hnow : dayOf 2019 10 16 * DAY ≤ now)
    (h : cfg = { alwaysOpen with weekmask := cfg.weekmask })
    (hw : ∀ d, IsWeekday d 2 → ∃ w, IsWeekday d w ∧ cfg.weekmask w = true) :
    ∃ b, (CalendarClass.simple cfg).construct now = .ok b ∧ Offers now (.simple cfg) b := by
  have e1 : dayOf 2019 10 16 = 18185 := by decide
  have e3 : dayOf 1990 1 1 = 7305 := by decide
  have hday : ∀ l, SessionLabel cfg startDefault (now + 365 * DAY) l ↔ ∃ d, l = d * DAY ∧
      ClassCovers now (.simple cfg) d ∧ ClassTrades (.simple cfg) d := by
    intro l
    rw [h]
    simp only [SessionLabel, TradingDay, ClassCovers, ClassTrades, alwaysOpen, startDefault]
    constructor
    · rintro ⟨d, rfl, h1, h2, h3, -⟩
      exact ⟨d, rfl, ⟨by simp only [DAY] at *; omega, h2⟩, h3⟩
    · rintro ⟨d, rfl, ⟨h1, h2⟩, h3⟩
      exact ⟨d, rfl, by simp only [DAY] at *; omega, h2, h3, by simp, by simp⟩
  obtain ⟨b, hb, -, h1, h2, h3, h4⟩ := utc_build (cfg := cfg) (start := startDefault)
    (stop := now + 365 * DAY) (by rw [h]; rfl) (by rw [h]; rfl) (by rw [h]; rfl) (by rw [h]; rfl)
    (by rw [h]; rfl) (by rw [h]; rfl) (by rw [h]; rfl) ⟨by rw [h]; rfl, by rw [h]; rfl⟩
    ⟨by rw [h]; rfl, by rw [h]; rfl⟩ (Int.dvd_mul_left _ _) (by decide)
    ⟨dayOf 2019 10 16 * DAY, (hday _).2 ⟨_, rfl, ⟨by decide, by simp only [DAY] at *; omega⟩,
      hw _ ((weekday_iff _ _).2 (by decide))⟩⟩
  refine ⟨b, hb, rowsOf b.cal, h1, build_rows_ne hb, h2, fun s hs => ?_, fun l => (h3 l).trans (hday l),
    fun s hs => h4 s hs⟩
  obtain ⟨a1, a2, -⟩ := h4 s hs
  simp only [hm] at *
  omega

/-- The calendar class can be constructed by default and offers its trading days. -/
def Default (now : Int) (name : String) (cls : CalendarClass) : Prop :=
  InTime now name → ∃ b, cls.construct now = .ok b ∧ Offers now cls b

theorem default_asex {now : Int} (hnow : dayOf 2019 10 16 * DAY ≤ now) :
    Default now "ASEX" (.exchange Asex.exchange Asex.zone startDefault) := fun _ =>
  offers_default (d := dayOf 2019 10 16) c54_asex_zone hnow (by decide) (.inl rfl) (by simp)
    (by decide) (by decide) (trades_of asex_check (by decide +kernel))

theorem default_bvmf {now : Int} (hnow : dayOf 2019 10 16 * DAY ≤ now) :
    Default now "BVMF" (.exchange Bvmf.exchange Bvmf.zone startDefault) := fun _ =>
  offers_default (d := dayOf 2019 10 16) c54_bvmf_zone hnow (by decide) (.inl rfl) (by simp)
    (by decide) (by decide) (trades_of bvmf_check (by decide +kernel))

theorem default_cmes {now : Int} (hnow : dayOf 2019 10 16 * DAY ≤ now) :
    Default now "CMES" (.exchange Cmes.exchange Cmes.zone startDefault) := fun _ =>
  offers_default (d := dayOf 2019 10 16) c54_cmes_zone hnow (by decide) (.inl rfl) (by simp)
    (by decide) (by decide) (trades_of cmes_check (by decide +kernel))

theorem default_iepa {now : Int} (hnow : dayOf 2019 10 16 * DAY ≤ now) :
    Default now "IEPA" (.exchange Iepa.exchange Iepa.zone startDefault) := fun _ =>
  offers_default (d := dayOf 2019 10 16) c54_iepa_zone hnow (by decide) (.inl rfl) (by simp)
    (by decide) (by decide) (trades_of iepa_check (by decide +kernel))

theorem default_xams {now : Int} (hnow : dayOf 2019 10 16 * DAY ≤ now) :
    Default now "XAMS" (.exchange Xams.exchange Xams.zone startDefault) := fun _ =>
  offers_default (d := dayOf 2019 10 16) c54_xams_zone hnow (by decide) (.inl rfl) (by simp)
    (by decide) (by decide) (trades_of xams_check (by decide +kernel))

theorem default_xasx {now : Int} (hnow : dayOf 2019 10 16 * DAY ≤ now) :
    Default now "XASX" (.exchange Xasx.exchange Xasx.zone startDefault) := fun _ =>
  offers_default (d := dayOf 2019 10 16) c54_xasx_zone hnow (by decide) (.inl rfl) (by simp)
    (by decide) (by decide) (trades_of xasx_check (by decide +kernel))

theorem default_xbkk {now : Int} (hnow : dayOf 2019 10 16 * DAY ≤ now) :
    Default now "XBKK" (.exchange Xbkk.exchange Xbkk.zone startDefault) := fun _ =>
  offers_default (d := dayOf 2019 10 16) c54_xbkk_zone hnow (by decide) (.inl rfl) (by simp)
    (by decide) (by decide) (trades_of xbkk_check (by decide +kernel))

theorem default_xbog {now : Int} (hnow : dayOf 2019 10 16 * DAY ≤ now) :
    Default now "XBOG" (.exchange Xbog.exchange Xbog.zone startDefault) := fun _ =>
  offers_default (d := dayOf 2019 10 16) c54_xbog_zone hnow (by decide) (.inl rfl) (by simp)
    (by decide) (by decide) (trades_of xbog_check (by decide +kernel))

theorem default_xbom {now : Int} (_hnow : dayOf 2019 10 16 * DAY ≤ now) :
    Default now "XBOM" (.precomputed Xbom.exchange Xbom.zone) := fun _ =>
  offers_precomputed (lo := dayOf 1997 1 23) (hi := dayOf 2020 12 25) now c54_xbom_zone
    (by decide +kernel) (by decide +kernel) rfl rfl (by decide +kernel)
    ⟨dayOf 2019 10 16, by decide +kernel, by decide +kernel, trades_of xbom_check (by decide +kernel)⟩

theorem default_xbru {now : Int} (hnow : dayOf 2019 10 16 * DAY ≤ now) :
    Default now "XBRU" (.exchange Xbru.exchange Xbru.zone startDefault) := fun _ =>
  offers_default (d := dayOf 2019 10 16) c54_xbru_zone hnow (by decide) (.inl rfl) (by simp)
    (by decide) (by decide) (trades_of xbru_check (by decide +kernel))

theorem default_xbud {now : Int} (hnow : dayOf 2019 10 16 * DAY ≤ now) :
    Default now "XBUD" (.exchange Xbud.exchange Xbud.zone startDefault) := fun _ =>
  offers_default (d := dayOf 2019 10 16) c54_xbud_zone hnow (by decide) (.inl rfl) (by simp)
    (by decide) (by decide) (trades_of xbud_check (by decide +kernel))

theorem default_xbue {now : Int} (hnow : dayOf 2019 10 16 * DAY ≤ now) :
    Default now "XBUE" (.exchange Xbue.exchange Xbue.zone startDefault) := fun _ =>
  offers_default (d := dayOf 2019 10 16) c54_xbue_zone hnow (by decide) (.inl rfl) (by simp)
    (by decide) (by decide) (trades_of xbue_check (by decide +kernel))

theorem default_xcbf {now : Int} (hnow : dayOf 2019 10 16 * DAY ≤ now) :
    Default now "XCBF" (.exchange Xcbf.exchange Xcbf.zone startDefault) := fun _ =>
  offers_default (d := dayOf 2019 10 16) c54_xcbf_zone hnow (by decide) (.inl rfl) (by simp)
    (by decide) (by decide) (trades_of xcbf_check (by decide +kernel))

theorem default_xcse {now : Int} (hnow : dayOf 2019 10 16 * DAY ≤ now) :
    Default now "XCSE" (.exchange Xcse.exchange Xcse.zone startDefault) := fun _ =>
  offers_default (d := dayOf 2019 10 16) c54_xcse_zone hnow (by decide) (.inl rfl) (by simp)
    (by decide) (by decide) (trades_of xcse_check (by decide +kernel))

theorem default_xdub {now : Int} (hnow : dayOf 2019 10 16 * DAY ≤ now) :
    Default now "XDUB" (.exchange Xdub.exchange Xdub.zone startDefault) := fun _ =>
  offers_default (d := dayOf 2019 10 16) c54_xdub_zone hnow (by decide) (.inl rfl) (by simp)
    (by decide) (by decide) (trades_of xdub_check (by decide +kernel))

theorem default_xfra {now : Int} (hnow : dayOf 2019 10 16 * DAY ≤ now) :
    Default now "XFRA" (.exchange Xfra.exchange Xfra.zone startDefault) := fun _ =>
  offers_default (d := dayOf 2019 10 16) c54_xfra_zone hnow (by decide) (.inl rfl) (by simp)
    (by decide) (by decide) (trades_of xfra_check (by decide +kernel))

theorem default_xetr {now : Int} (hnow : dayOf 2019 10 16 * DAY ≤ now) :
    Default now "XETR" (.exchange Xetr.exchange Xetr.zone startDefault) := fun _ =>
  offers_default (d := dayOf 2019 10 16) c54_xetr_zone hnow (by decide) (.inl rfl) (by simp)
    (by decide) (by decide) (trades_of xetr_check (by decide +kernel))

theorem default_xhel {now : Int} (hnow : dayOf 2019 10 16 * DAY ≤ now) :
    Default now "XHEL" (.exchange Xhel.exchange Xhel.zone startDefault) := fun _ =>
  offers_default (d := dayOf 2019 10 16) c54_xhel_zone hnow (by decide) (.inl rfl) (by simp)
    (by decide) (by decide) (trades_of xhel_check (by decide +kernel))

theorem default_xhkg {now : Int} (hnow : dayOf 2019 10 16 * DAY ≤ now) :
    Default now "XHKG" (.hongKong) := fun hin =>
  offers_hongkong hnow (hin.2.2 rfl)

theorem default_xice {now : Int} (hnow : dayOf 2019 10 16 * DAY ≤ now) :
    Default now "XICE" (.exchange Xice.exchange Xice.zone startDefault) := fun _ =>
  offers_default (d := dayOf 2019 10 16) c54_xice_zone hnow (by decide) (.inl rfl) (by simp)
    (by decide) (by decide) (trades_of xice_check (by decide +kernel))

theorem default_xidx {now : Int} (hnow : dayOf 2019 10 16 * DAY ≤ now) :
    Default now "XIDX" (.exchange Xidx.exchange Xidx.zone startDefault) := fun _ =>
  offers_default (d := dayOf 2019 10 16) c54_xidx_zone hnow (by decide) (.inl rfl) (by simp)
    (by decide) (by decide) (trades_of xidx_check (by decide +kernel))

theorem default_xist {now : Int} (hnow : dayOf 2019 10 16 * DAY ≤ now) :
    Default now "XIST" (.exchange Xist.exchange Xist.zone startDefault) := fun hin =>
  offers_default (d := dayOf 2019 10 16) c54_xist_zone hnow (by decide) (.inl rfl) (by
      intro d hd
      simp only [List.mem_cons, List.not_mem_nil, or_false] at hd
      subst hd
      exact .inr (hin.2.1 rfl))
    (by decide) (by decide) (trades_of xist_check (by decide +kernel))

theorem default_xjse {now : Int} (hnow : dayOf 2019 10 16 * DAY ≤ now) :
    Default now "XJSE" (.exchange Xjse.exchange Xjse.zone startDefault) := fun _ =>
  offers_default (d := dayOf 2019 10 16) c54_xjse_zone hnow (by decide) (.inl rfl) (by simp)
    (by decide) (by decide) (trades_of xjse_check (by decide +kernel))

theorem default_xkar {now : Int} (hnow : dayOf 2019 10 16 * DAY ≤ now) :
    Default now "XKAR" (.exchange Xkar.exchange Xkar.zone startDefault) := fun _ =>
  offers_default (d := dayOf 2019 10 16) c54_xkar_zone hnow (by decide) (.inl rfl) (by simp)
    (by decide) (by decide) (trades_of xkar_check (by decide +kernel))

theorem default_xkls {now : Int} (hnow : dayOf 2019 10 16 * DAY ≤ now) :
    Default now "XKLS" (.exchange Xkls.exchange Xkls.zone startDefault) := fun hin =>
  offers_default (d := dayOf 2019 10 16) c54_xkls_zone hnow (by decide) (.inl rfl) (by
      have h1 := hin.1 rfl
      have e1 : dayOf 2029 2 13 < dayOf 2031 1 23 := by decide
      have e2 : dayOf 2029 2 13 < dayOf 2049 2 1 := by decide
      intro d hd
      simp only [List.mem_cons, List.not_mem_nil, or_false] at hd
      rcases hd with rfl | rfl | rfl | rfl
      · exact .inl (by decide)
      · exact .inr h1
      · exact .inr (by simp only [DAY] at *; omega)
      · exact .inr (by simp only [DAY] at *; omega))
    (by decide) (by decide) (trades_of xkls_check (by decide +kernel))

theorem default_xkrx {now : Int} (_hnow : dayOf 2019 10 16 * DAY ≤ now) :
    Default now "XKRX" (.precomputed Xkrx.exchange Xkrx.zone) := fun _ =>
  offers_precomputed (lo := dayOf 1986 1 1) (hi := dayOf 2021 12 31) now c54_xkrx_zone
    (by decide +kernel) (by decide +kernel) rfl rfl (by decide +kernel)
    ⟨dayOf 2019 10 16, by decide +kernel, by decide +kernel, trades_of xkrx_check (by decide +kernel)⟩

theorem default_xlim {now : Int} (hnow : dayOf 2019 10 16 * DAY ≤ now) :
    Default now "XLIM" (.exchange Xlim.exchange Xlim.zone startDefault) := fun _ =>
  offers_default (d := dayOf 2019 10 16) c54_xlim_zone hnow (by decide) (.inl rfl) (by simp)
    (by decide) (by decide) (trades_of xlim_check (by decide +kernel))

theorem default_xlis {now : Int} (hnow : dayOf 2019 10 16 * DAY ≤ now) :
    Default now "XLIS" (.exchange Xlis.exchange Xlis.zone startDefault) := fun _ =>
  offers_default (d := dayOf 2019 10 16) c54_xlis_zone hnow (by decide) (.inl rfl) (by simp)
    (by decide) (by decide) (trades_of xlis_check (by decide +kernel))

theorem default_xlon {now : Int} (hnow : dayOf 2019 10 16 * DAY ≤ now) :
    Default now "XLON" (.exchange Xlon.exchange Xlon.zone startDefault) := fun _ =>
  offers_default (d := dayOf 2019 10 16) c54_xlon_zone hnow (by decide) (.inl rfl) (by simp)
    (by decide) (by decide) (trades_of xlon_check (by decide +kernel))

theorem default_xmad {now : Int} (hnow : dayOf 2019 10 16 * DAY ≤ now) :
    Default now "XMAD" (.exchange Xmad.exchange Xmad.zone startDefault) := fun _ =>
  offers_default (d := dayOf 2019 10 16) c54_xmad_zone hnow (by decide) (.inl rfl) (by simp)
    (by decide) (by decide) (trades_of xmad_check (by decide +kernel))

theorem default_xmex {now : Int} (hnow : dayOf 2019 10 16 * DAY ≤ now) :
    Default now "XMEX" (.exchange Xmex.exchange Xmex.zone startDefault) := fun _ =>
  offers_default (d := dayOf 2019 10 16) c54_xmex_zone hnow (by decide) (.inl rfl) (by simp)
    (by decide) (by decide) (trades_of xmex_check (by decide +kernel))

theorem default_xmil {now : Int} (hnow : dayOf 2019 10 16 * DAY ≤ now) :
    Default now "XMIL" (.exchange Xmil.exchange Xmil.zone startDefault) := fun _ =>
  offers_default (d := dayOf 2019 10 16) c54_xmil_zone hnow (by decide) (.inl rfl) (by simp)
    (by decide) (by decide) (trades_of xmil_check (by decide +kernel))

theorem default_xmos {now : Int} (hnow : dayOf 2019 10 16 * DAY ≤ now) :
    Default now "XMOS" (.exchange Xmos.exchange Xmos.zone startDefault) := fun _ =>
  offers_default (d := dayOf 2019 10 16) c54_xmos_zone hnow (by decide) (.inl rfl) (by simp)
    (by decide) (by decide) (trades_of xmos_check (by decide +kernel))

theorem default_xnys {now : Int} (hnow : dayOf 2019 10 16 * DAY ≤ now) :
    Default now "XNYS" (.exchange Xnys.exchange Xnys.zone startDefault) := fun _ =>
  offers_default (d := dayOf 2019 10 16) c54_xnys_zone hnow (by decide) (.inl rfl) (by
      intro d hd
      simp only [List.mem_cons, List.not_mem_nil, or_false] at hd
      rcases hd with rfl | rfl
      · exact .inl (by decide)
      · exact .inl (by decide))
    (by decide) (by decide) (trades_of xnys_check (by decide +kernel))

theorem default_xnze {now : Int} (hnow : dayOf 2019 10 16 * DAY ≤ now) :
    Default now "XNZE" (.exchange Xnze.exchange Xnze.zone startDefault) := fun _ =>
  offers_default (d := dayOf 2019 10 16) c54_xnze_zone hnow (by decide) (.inl rfl) (by simp)
    (by decide) (by decide) (trades_of xnze_check (by decide +kernel))

theorem default_xosl {now : Int} (hnow : dayOf 2019 10 16 * DAY ≤ now) :
    Default now "XOSL" (.exchange Xosl.exchange Xosl.zone startDefault) := fun _ =>
  offers_default (d := dayOf 2019 10 16) c54_xosl_zone hnow (by decide) (.inl rfl) (by simp)
    (by decide) (by decide) (trades_of xosl_check (by decide +kernel))

theorem default_xpar {now : Int} (hnow : dayOf 2019 10 16 * DAY ≤ now) :
    Default now "XPAR" (.exchange Xpar.exchange Xpar.zone startDefault) := fun _ =>
  offers_default (d := dayOf 2019 10 16) c54_xpar_zone hnow (by decide) (.inl rfl) (by simp)
    (by decide) (by decide) (trades_of xpar_check (by decide +kernel))

theorem default_xphs {now : Int} (hnow : dayOf 2019 10 16 * DAY ≤ now) :
    Default now "XPHS" (.exchange Xphs.exchange Xphs.zone startDefault) := fun _ =>
  offers_default (d := dayOf 2019 10 16) c54_xphs_zone hnow (by decide) (.inl rfl) (by simp)
    (by decide) (by decide) (trades_of xphs_check (by decide +kernel))

theorem default_xpra {now : Int} (hnow : dayOf 2019 10 16 * DAY ≤ now) :
    Default now "XPRA" (.exchange Xpra.exchange Xpra.zone startDefault) := fun _ =>
  offers_default (d := dayOf 2019 10 16) c54_xpra_zone hnow (by decide) (.inl rfl) (by simp)
    (by decide) (by decide) (trades_of xpra_check (by decide +kernel))

theorem default_xses {now : Int} (_hnow : dayOf 2019 10 16 * DAY ≤ now) :
    Default now "XSES" (.precomputed Xses.exchange Xses.zone) := fun _ =>
  offers_precomputed (lo := dayOf 1986 1 1) (hi := dayOf 2020 12 25) now c54_xses_zone
    (by decide +kernel) (by decide +kernel) rfl rfl (by decide +kernel)
    ⟨dayOf 2019 10 16, by decide +kernel, by decide +kernel, trades_of xses_check (by decide +kernel)⟩

theorem default_xsgo {now : Int} (hnow : dayOf 2019 10 16 * DAY ≤ now) :
    Default now "XSGO" (.exchange Xsgo.exchange Xsgo.zone startDefault) := fun _ =>
  offers_default (d := dayOf 2019 10 16) c54_xsgo_zone hnow (by decide) (.inl rfl) (by simp)
    (by decide) (by decide) (trades_of xsgo_check (by decide +kernel))

theorem default_xshg {now : Int} (_hnow : dayOf 2019 10 16 * DAY ≤ now) :
    Default now "XSHG" (.precomputed Xshg.exchange Xshg.zone) := fun _ =>
  offers_precomputed (lo := dayOf 1999 1 1) (hi := dayOf 2025 10 4) now c54_xshg_zone
    (by decide +kernel) (by decide +kernel) rfl rfl (by decide +kernel)
    ⟨dayOf 2019 10 16, by decide +kernel, by decide +kernel, trades_of xshg_check (by decide +kernel)⟩

theorem default_xsto {now : Int} (hnow : dayOf 2019 10 16 * DAY ≤ now) :
    Default now "XSTO" (.exchange Xsto.exchange Xsto.zone startDefault) := fun _ =>
  offers_default (d := dayOf 2019 10 16) c54_xsto_zone hnow (by decide) (.inl rfl) (by simp)
    (by decide) (by decide) (trades_of xsto_check (by decide +kernel))

theorem default_xswx {now : Int} (hnow : dayOf 2019 10 16 * DAY ≤ now) :
    Default now "XSWX" (.exchange Xswx.exchange Xswx.zone startDefault) := fun _ =>
  offers_default (d := dayOf 2019 10 16) c54_xswx_zone hnow (by decide) (.inl rfl) (by simp)
    (by decide) (by decide) (trades_of xswx_check (by decide +kernel))

theorem default_xtae {now : Int} (hnow : dayOf 2019 10 16 * DAY ≤ now) :
    Default now "XTAE" (.exchange Xtae.exchange Xtae.zone startDefault) := fun _ =>
  offers_default (d := dayOf 2019 2 3) c54_xtae_zone hnow (by decide) (.inl rfl) (by simp)
    (by decide) (by decide) ((tradesB_iff xtae_good _).1 (by decide +kernel))

theorem default_xtai {now : Int} (hnow : dayOf 2019 10 16 * DAY ≤ now) :
    Default now "XTAI" (.exchange Xtai.exchange Xtai.zone startDefault) := fun _ =>
  offers_default (d := dayOf 2019 10 16) c54_xtai_zone hnow (by decide) (.inl rfl) (by simp)
    (by decide) (by decide) (trades_of xtai_check (by decide +kernel))

theorem default_xtks {now : Int} (hnow : dayOf 2019 10 16 * DAY ≤ now) :
    Default now "XTKS" (.exchange Xtks.exchange Xtks.zone start2000) := fun _ =>
  offers_default (d := dayOf 2019 10 16) c54_xtks_zone hnow (by decide) (.inr rfl) (by simp)
    (by decide) (by decide) (trades_of xtks_check (by decide +kernel))

theorem default_xtse {now : Int} (hnow : dayOf 2019 10 16 * DAY ≤ now) :
    Default now "XTSE" (.exchange Xtse.exchange Xtse.zone startDefault) := fun _ =>
  offers_default (d := dayOf 2019 10 16) c54_xtse_zone hnow (by decide) (.inl rfl) (by simp)
    (by decide) (by decide) (trades_of xtse_check (by decide +kernel))

theorem default_xwar {now : Int} (hnow : dayOf 2019 10 16 * DAY ≤ now) :
    Default now "XWAR" (.exchange Xwar.exchange Xwar.zone startDefault) := fun _ =>
  offers_default (d := dayOf 2019 10 16) c54_xwar_zone hnow (by decide) (.inl rfl) (by simp)
    (by decide) (by decide) (trades_of xwar_check (by decide +kernel))

theorem default_xwbo {now : Int} (hnow : dayOf 2019 10 16 * DAY ≤ now) :
    Default now "XWBO" (.exchange Xwbo.exchange Xwbo.zone startDefault) := fun _ =>
  offers_default (d := dayOf 2019 10 16) c54_xwbo_zone hnow (by decide) (.inl rfl) (by simp)
    (by decide) (by decide) (trades_of xwbo_check (by decide +kernel))

theorem default_us_futures {now : Int} (hnow : dayOf 2019 10 16 * DAY ≤ now) :
    Default now "us_futures" (.exchange UsFuturesCalendar.exchange UsFuturesCalendar.zone start2000) := fun _ =>
  offers_default (d := dayOf 2019 10 16) c54_usFuturesCalendar_zone hnow (by decide) (.inr rfl) (by simp)
    (by decide) (by decide) (trades_of usFuturesCalendar_check (by decide +kernel))

theorem default_247 {now : Int} (hnow : dayOf 2019 10 16 * DAY ≤ now) :
    Default now "24/7" (.simple alwaysOpen) := fun _ =>
  offers_simple hnow rfl fun d hd => ⟨2, hd, by decide⟩

theorem default_245 {now : Int} (hnow : dayOf 2019 10 16 * DAY ≤ now) :
    Default now "24/5" (.simple weekdayCalendar) := fun _ =>
  offers_simple hnow rfl fun d hd => ⟨2, hd, by decide⟩

/-- C58.  The classes are those registered by `calendar_utils.py`, under these names. -/
theorem c58_names : defaultClasses.map Prod.fst = defaultFactoryNames := by decide

/-- C58.  Every default class can be called without arguments, whenever the module is imported from
2019-10-16 on (for XKLS, XIST and XHKG: up to some day), and yields a calendar with exactly the trading
days from its default start to a year after the import (for precomputed holidays: of the recorded
years), which keep the timetable of the exchange. -/
theorem c58_constructs {now : Int} (hnow : dayOf 2019 10 16 * DAY ≤ now) {name : String}
    {cls : CalendarClass} (h : (name, cls) ∈ defaultClasses) (hin : InTime now name) :
    ∃ b, cls.construct now = .ok b ∧ Offers now cls b := by
  simp only [defaultClasses, List.mem_cons, List.not_mem_nil, or_false, Prod.mk.injEq] at h
  rcases h with ⟨rfl, rfl⟩ | ⟨rfl, rfl⟩ | ⟨rfl, rfl⟩ | ⟨rfl, rfl⟩ | ⟨rfl, rfl⟩ | ⟨rfl, rfl⟩ | ⟨rfl, rfl⟩ | ⟨rfl, rfl⟩ | ⟨rfl, rfl⟩ | ⟨rfl, rfl⟩ | ⟨rfl, rfl⟩ | ⟨rfl, rfl⟩ | ⟨rfl, rfl⟩ | ⟨rfl, rfl⟩ | ⟨rfl, rfl⟩ | ⟨rfl, rfl⟩ | ⟨rfl, rfl⟩ | ⟨rfl, rfl⟩ | ⟨rfl, rfl⟩ | ⟨rfl, rfl⟩ | ⟨rfl, rfl⟩ | ⟨rfl, rfl⟩ | ⟨rfl, rfl⟩ | ⟨rfl, rfl⟩ | ⟨rfl, rfl⟩ | ⟨rfl, rfl⟩ | ⟨rfl, rfl⟩ | ⟨rfl, rfl⟩ | ⟨rfl, rfl⟩ | ⟨rfl, rfl⟩ | ⟨rfl, rfl⟩ | ⟨rfl, rfl⟩ | ⟨rfl, rfl⟩ | ⟨rfl, rfl⟩ | ⟨rfl, rfl⟩ | ⟨rfl, rfl⟩ | ⟨rfl, rfl⟩ | ⟨rfl, rfl⟩ | ⟨rfl, rfl⟩ | ⟨rfl, rfl⟩ | ⟨rfl, rfl⟩ | ⟨rfl, rfl⟩ | ⟨rfl, rfl⟩ | ⟨rfl, rfl⟩ | ⟨rfl, rfl⟩ | ⟨rfl, rfl⟩ | ⟨rfl, rfl⟩ | ⟨rfl, rfl⟩ | ⟨rfl, rfl⟩ | ⟨rfl, rfl⟩ | ⟨rfl, rfl⟩ | ⟨rfl, rfl⟩ | ⟨rfl, rfl⟩
  · exact default_asex hnow hin
  · exact default_bvmf hnow hin
  · exact default_cmes hnow hin
  · exact default_iepa hnow hin
  · exact default_xams hnow hin
  · exact default_xasx hnow hin
  · exact default_xbkk hnow hin
  · exact default_xbog hnow hin
  · exact default_xbom hnow hin
  · exact default_xbru hnow hin
  · exact default_xbud hnow hin
  · exact default_xbue hnow hin
  · exact default_xcbf hnow hin
  · exact default_xcse hnow hin
  · exact default_xdub hnow hin
  · exact default_xfra hnow hin
  · exact default_xetr hnow hin
  · exact default_xhel hnow hin
  · exact default_xhkg hnow hin
  · exact default_xice hnow hin
  · exact default_xidx hnow hin
  · exact default_xist hnow hin
  · exact default_xjse hnow hin
  · exact default_xkar hnow hin
  · exact default_xkls hnow hin
  · exact default_xkrx hnow hin
  · exact default_xlim hnow hin
  · exact default_xlis hnow hin
  · exact default_xlon hnow hin
  · exact default_xmad hnow hin
  · exact default_xmex hnow hin
  · exact default_xmil hnow hin
  · exact default_xmos hnow hin
  · exact default_xnys hnow hin
  · exact default_xnze hnow hin
  · exact default_xosl hnow hin
  · exact default_xpar hnow hin
  · exact default_xphs hnow hin
  · exact default_xpra hnow hin
  · exact default_xses hnow hin
  · exact default_xsgo hnow hin
  · exact default_xshg hnow hin
  · exact default_xsto hnow hin
  · exact default_xswx hnow hin
  · exact default_xtae hnow hin
  · exact default_xtai hnow hin
  · exact default_xtks hnow hin
  · exact default_xtse hnow hin
  · exact default_xwar hnow hin
  · exact default_xwbo hnow hin
  · exact default_us_futures hnow hin
  · exact default_247 hnow hin
  · exact default_245 hnow hin

/-- On 2021-06-15 (any time of the day) no limit is reached. -/
example : let now := dayOf 2021 6 15 * DAY + hm 13 37
    dayOf 2019 10 16 * DAY ≤ now ∧ InTime now "XKLS" ∧ InTime now "XIST" ∧ InTime now "XHKG" ∧
    ("XKLS", CalendarClass.exchange Xkls.exchange Xkls.zone startDefault) ∈ defaultClasses := by
  refine ⟨by decide, ⟨fun _ => by decide, by decide, by decide⟩, ⟨by decide, fun _ => by decide, by decide⟩,
    ⟨by decide, by decide, fun _ => by decide⟩, ?_⟩
  simp [defaultClasses]

/-! ### The limits -/

/-- C58.  From 2028-02-14, 4:30 UTC on (the range then reaches the half day of 2029-02-13, on which the
tables also list a closure) calling `XKLSExchangeCalendar` without arguments raises `ValueError`. -/
theorem c58_xkls_fails {now : Int} (hnow : dayOf 2029 2 13 * DAY + hm 4 30 ≤ now + 365 * DAY) :
    (CalendarClass.exchange Xkls.exchange Xkls.zone startDefault).construct now =
      .error (.valueError "Special dates are not trading days.") := by
  have hu : OnlyInstant Xkls.zone (dayOf 2029 2 13 * DAY + hm 12 30)
      (dayOf 2029 2 13 * DAY + hm 4 30) :=
    (localize_ok_iff clear_asiaKualaLumpur.tame _ _).1 (by decide +kernel)
  have e1 : dayOf 2029 2 13 = 21593 := by decide
  refine (c54_xkls_zone startDefault (now + 365 * DAY) (by decide) (Int.dvd_mul_left _ _)).refuses
    (dayOf 2029 2 13) (by simp) (hm 12 30) _ (.inr ⟨_, List.mem_cons_self, by decide +kernel⟩) hu
    (by decide) ?_ (by decide) hnow
  simp only [hm, DAY] at *; omega

/-- C58.  The same for `XISTExchangeCalendar` from 2028-04-23, 9:30 UTC on. -/
theorem c58_xist_fails {now : Int} (hnow : dayOf 2029 4 23 * DAY + hm 9 30 ≤ now + 365 * DAY) :
    (CalendarClass.exchange Xist.exchange Xist.zone startDefault).construct now =
      .error (.valueError "Special dates are not trading days.") := by
  have hu : OnlyInstant Xist.zone (dayOf 2029 4 23 * DAY + hm 12 30)
      (dayOf 2029 4 23 * DAY + hm 9 30) :=
    (localize_ok_iff clear_europeIstanbul.tame _ _).1 (by decide +kernel)
  have e1 : dayOf 2029 4 23 = 21662 := by decide
  refine (c54_xist_zone startDefault (now + 365 * DAY) (by decide) (Int.dvd_mul_left _ _)).refuses
    (dayOf 2029 4 23) (by simp) (hm 12 30) _ (.inr ⟨_, List.mem_cons_self, by decide +kernel⟩) hu
    (by decide) ?_ (by decide) hnow
  simp only [hm, DAY] at *; omega

/-- C58.  `XHKGExchangeCalendar` cannot be constructed by default once the range reaches the first trading
day of 2050, because the lunisolar tables end in 2049. -/
theorem c58_xhkg_fails {now : Int} (hnow : dayOf 2050 1 3 * DAY ≤ now + 365 * DAY) :
    ∃ why, CalendarClass.hongKong.construct now = .error (.valueError why) := by
  have e1 : dayOf 2050 1 3 = 29222 := by decide
  have e2 : dayOf 2019 10 16 = 18185 := by decide
  obtain ⟨b, hb, ho⟩ := hongkong_build (now := now) (by simp only [DAY] at *; omega)
  simp only [CalendarClass.construct, endDefault]
  rw [xhkg_eq]
  refine refused hb fun h => ?_
  have := (h (dayOf 2050 1 3 * DAY) ((offers_sessions ho _).2 ⟨dayOf 2050 1 3, rfl,
    ⟨by decide, hnow⟩, trades_of xhkg_check (by decide +kernel)⟩)).2
  revert this
  decide +kernel

/-- The three hypotheses hold in 2051; the first not yet in 2028-02-14, 4:29 UTC. -/
example : dayOf 2029 2 13 * DAY + hm 4 30 ≤ dayOf 2051 1 1 * DAY + 365 * DAY ∧
    dayOf 2029 4 23 * DAY + hm 9 30 ≤ dayOf 2051 1 1 * DAY + 365 * DAY ∧
    dayOf 2050 1 3 * DAY ≤ dayOf 2051 1 1 * DAY + 365 * DAY ∧
    dayOf 2029 2 13 * DAY + hm 4 30 ≤ dayOf 2028 2 14 * DAY + hm 4 30 + 365 * DAY ∧
    ¬ dayOf 2029 2 13 * DAY + hm 4 30 ≤ dayOf 2028 2 14 * DAY + hm 4 29 + 365 * DAY := by decide

/-! ### From the registry to the calendar -/

/-- The default names keep their factories, their calendars and the default aliases. -/
structure Intact (now : Int) (content : CalObj → Built) (s : Registry) : Prop where
  factory : ∀ (i : Nat) n cls, defaultClasses[i]? = some (n, cls) → s.factories.get? n = some i
  noAlias : ∀ n cls, (n, cls) ∈ defaultClasses → s.aliases.get? n = none
  alias : ∀ a r, (a, r) ∈ defaultAliases → s.aliases.get? a = some r
  cached : ∀ n cls c, (n, cls) ∈ defaultClasses → s.calendars.get? n = some c →
    cls.construct now = .ok (content c)

theorem default_factories : ∀ i : Nat, i < 53 →
    ∃ n, (defaultClasses.map Prod.fst)[i]? = some n ∧ defaultRegistry.factories.get? n = some i := by
  decide

theorem default_aliases : (∀ p ∈ defaultAliases, defaultRegistry.aliases.get? p.1 = some p.2) ∧
    ∀ n ∈ defaultFactoryNames, defaultRegistry.aliases.get? n = none := by
  decide

theorem intact_default (now : Int) (content : CalObj → Built) :
    Intact now content defaultRegistry where
  factory := by
    intro i n cls h
    have hi : i < 53 := (List.getElem?_eq_some_iff.1 h).1
    obtain ⟨n', h1, h2⟩ := default_factories i hi
    rw [List.getElem?_map, h] at h1
    cases h1
    exact h2
  noAlias := by
    intro n cls h
    exact default_aliases.2 n (by rw [← c58_names]; exact List.mem_map.2 ⟨_, h, rfl⟩)
  alias := fun a r h => default_aliases.1 (a, r) h
  cached := fun n cls c _ h => by simp [defaultRegistry, Dict.get?] at h

theorem index_of {n : String} {cls : CalendarClass} (h : (n, cls) ∈ defaultClasses) :
    ∃ i : Nat, defaultClasses[i]? = some (n, cls) := by
  obtain ⟨i, h1, h2⟩ := List.mem_iff_getElem.1 h
  exact ⟨i, by rw [List.getElem?_eq_some_iff]; exact ⟨h1, h2⟩⟩

/-- A default name resolves to itself, a default alias to its target. -/
theorem intact_resolves {now : Int} {content : CalObj → Built} {s : Registry}
    (h : Intact now content s) {n r : String} {cls : CalendarClass} (hr : (r, cls) ∈ defaultClasses)
    (hn : n = r ∨ (n, r) ∈ defaultAliases) : s.resolveAlias n = .ok r := by
  rw [resolveAlias_ok_iff]
  rcases hn with rfl | hn
  · exact .done (h.noAlias n cls hr)
  · exact .step (h.alias n r hn) (.done (h.noAlias r cls hr))

theorem intact_known {now : Int} {content : CalObj → Built} {s : Registry}
    (h : Intact now content s) {n : String} (hn : DefaultName n) : s.hasCalendar n = true := by
  rw [hasCalendar_iff]
  rcases hn with ⟨cls, hn⟩ | ⟨r, hn⟩
  · obtain ⟨i, hi⟩ := index_of hn
    exact .inr (.inl (by rw [h.factory i n cls hi]; simp))
  · exact .inr (.inr (by rw [h.alias n r hn]; simp))

/-- Changing entries of other names only. -/
theorem Intact.change {now : Int} {content : CalObj → Built} {s s' : Registry}
    (h : Intact now content s) {m : String} (hm : ¬ DefaultName m)
    (hf : ∀ n, n ≠ m → s'.factories.get? n = s.factories.get? n)
    (ha : ∀ n, n ≠ m → s'.aliases.get? n = s.aliases.get? n)
    (hc : ∀ n, n ≠ m → s'.calendars.get? n = s.calendars.get? n) : Intact now content s' where
  factory := by
    intro i n cls hi
    rw [hf n (by rintro rfl; exact hm (.inl ⟨cls, List.mem_of_getElem? hi⟩))]
    exact h.factory i n cls hi
  noAlias := by
    intro n cls hi
    rw [ha n (by rintro rfl; exact hm (.inl ⟨cls, hi⟩))]
    exact h.noAlias n cls hi
  alias := by
    intro a r hi
    rw [ha a (by rintro rfl; exact hm (.inr ⟨r, hi⟩))]
    exact h.alias a r hi
  cached := by
    intro n cls c hi
    rw [hc n (by rintro rfl; exact hm (.inl ⟨cls, hi⟩))]
    exact h.cached n cls c hi

theorem Intact.deregister {now : Int} {content : CalObj → Built} {s : Registry}
    (h : Intact now content s) {m : String} (hm : ¬ DefaultName m) : Intact now content (s.deregister m) := by
  refine h.change hm ?_ ?_ ?_ <;> intro n hn <;>
    simp only [Registry.deregister, Dict.get?_del, if_neg hn]

theorem intact_get {env : FactoryEnv} {now : Int} {content : CalObj → Built} {s : Registry}
    (hr : Realizes now env content) (h : Intact now content s) (n : String) :
    Intact now content (s.getCalendar env n).1 := by
  unfold Registry.getCalendar
  split
  · exact h
  · rename_i r _
    split
    · exact h
    · split
      · exact h
      · rename_i f hf
        split
        · exact ⟨h.factory, h.noAlias, h.alias, h.cached⟩
        · rename_i c hc
          refine ⟨h.factory, h.noAlias, h.alias, fun m cls c' hm hc' => ?_⟩
          simp only [Dict.get?_set] at hc'
          split at hc'
          · rename_i e
            subst e
            cases hc'
            obtain ⟨i, hi⟩ := index_of hm
            have := h.factory i _ cls hi
            rw [hf] at this
            cases this
            exact (hr _ _ cls s.calls hi).1 _ hc
          · exact h.cached m cls c' hm hc'

theorem intact_step {env : FactoryEnv} {now : Int} {content : CalObj → Built} {s : Registry}
    (hr : Realizes now env content) (h : Intact now content s) (op : Registry.Op) (hop : Spares op) :
    Intact now content (s.step env op).1 := by
  have hset : ∀ {V : Type} (d : Dict V) (m n : String) (v : V), n ≠ m → (d.set m v).get? n = d.get? n := by
    intro V d m n v hn
    rw [Dict.get?_set, if_neg hn]
  have hdel : ∀ {V : Type} (d : Dict V) (m n : String), n ≠ m → (d.del m).get? n = d.get? n := by
    intro V d m n hn
    rw [Dict.get?_del, if_neg hn]
  have hforce : ∀ (m : String) (f : Bool), (f = true → ¬ DefaultName m) →
      Intact now content (if f then s.deregister m else s) := by
    intro m f hf
    split
    · rename_i e; exact h.deregister (hf e)
    · exact h
  cases op with
  | get n => exact intact_get hr h n
  | has n => exact h
  | names => exact h
  | resolve n => exact h
  | registerCal n c f =>
    have h' := hforce n f hop
    simp only [Registry.step]
    unfold Registry.registerCalendar
    generalize (if f = true then s.deregister n else s) = s' at h' ⊢
    simp only
    split
    · exact h'
    · rename_i hk
      exact h'.change (fun hd => hk (intact_known h' hd)) (fun _ _ => rfl) (fun _ _ => rfl)
        (fun m hm => hset _ _ _ _ hm)
  | registerType n t f =>
    have h' := hforce n f hop
    simp only [Registry.step]
    unfold Registry.registerCalendarType
    generalize (if f = true then s.deregister n else s) = s' at h' ⊢
    simp only
    split
    · exact h'
    · rename_i hk
      exact h'.change (fun hd => hk (intact_known h' hd)) (fun m hm => hset _ _ _ _ hm) (fun _ _ => rfl)
        (fun _ _ => rfl)
  | registerAlias a r f =>
    have h' := hforce a f hop
    simp only [Registry.step]
    unfold Registry.registerCalendarAlias
    generalize (if f = true then s.deregister a else s) = s' at h' ⊢
    simp only
    split
    · exact h'
    · rename_i hk
      have hd : ¬ DefaultName a := fun hd => hk (intact_known h' hd)
      split
      · exact h'.change hd (fun _ _ => rfl)
          (fun m hm => by rw [hdel _ _ _ hm]; exact hset _ _ _ _ hm) (fun _ _ => rfl)
      · exact h'.change hd (fun _ _ => rfl) (fun m hm => hset _ _ _ _ hm) (fun _ _ => rfl)
  | deregister n => exact h.deregister hop
  | clear => exact absurd hop id

theorem intact_run {env : FactoryEnv} {now : Int} {content : CalObj → Built}
    (hr : Realizes now env content) : ∀ (ops : List Registry.Op) {s : Registry},
    Intact now content s → (∀ op ∈ ops, Spares op) → Intact now content (s.run env ops)
  | [], _, h, _ => h
  | op :: ops, s, h, hops => by
    have h1 := intact_step hr h op (hops op (by simp))
    exact intact_run hr ops h1 fun o ho => hops o (by simp [ho])

/-- C58.  After any history of calls that take no default name away, `get_calendar` of a default name or
alias yields what calling the class without arguments yields: the same content, or the same exception. -/
theorem c58_get_calendar {env : FactoryEnv} {now : Int} {content : CalObj → Built}
    (hr : Realizes now env content) (ops : List Registry.Op) (hops : ∀ op ∈ ops, Spares op)
    {n r : String} {cls : CalendarClass} (hcls : (r, cls) ∈ defaultClasses)
    (hn : n = r ∨ (n, r) ∈ defaultAliases) :
    ((defaultRegistry.run env ops).getCalendar env n).2.map content = cls.construct now := by
  have h := intact_run hr ops (intact_default now content) hops
  generalize defaultRegistry.run env ops = s at h
  have hres := intact_resolves h hcls hn
  obtain ⟨i, hi⟩ := index_of hcls
  have hf := h.factory i r cls hi
  unfold Registry.getCalendar
  rw [hres]
  simp only
  split
  · rename_i c hc
    exact (h.cached r cls c hcls hc).symm
  · rw [hf]
    simp only
    obtain ⟨h1, h2⟩ := hr i r cls s.calls hi
    split
    · rename_i e he
      exact (h2 e he).symm
    · rename_i c hc
      exact (h1 c hc).symm

/-- C58.  So it returns a calendar with exactly the trading days of the class. -/
theorem c58_get_calendar_offers {env : FactoryEnv} {now : Int} {content : CalObj → Built}
    (hr : Realizes now env content) (hnow : dayOf 2019 10 16 * DAY ≤ now) (ops : List Registry.Op)
    (hops : ∀ op ∈ ops, Spares op) {n r : String} {cls : CalendarClass}
    (hcls : (r, cls) ∈ defaultClasses) (hn : n = r ∨ (n, r) ∈ defaultAliases) (hin : InTime now r) :
    ∃ c, ((defaultRegistry.run env ops).getCalendar env n).2 = .ok c ∧ Offers now cls (content c) := by
  obtain ⟨b, hb, ho⟩ := c58_constructs hnow hcls hin
  have h := c58_get_calendar hr ops hops hcls hn
  rw [hb] at h
  generalize ((defaultRegistry.run env ops).getCalendar env n).2 = res at h
  cases res with
  | error e => cases h
  | ok c =>
    cases h
    exact ⟨c, rfl, ho⟩

/-- Factories that call the classes, an object being the number of its class; and a history with a forced
registration, a failing registration, an alias and a deregistration.  `NYSE` is an alias of `XNYS`. -/
example (now : Int) : ∃ env content, Realizes now env content ∧
    (∀ op ∈ [Registry.Op.get "XLON", .registerType "XLON" 99 false, .registerCal "MINE" 7 true,
      .registerAlias "NY" "NYSE" false, .deregister "MINE", .names], Spares op) ∧
    ("XNYS", CalendarClass.exchange Xnys.exchange Xnys.zone startDefault) ∈ defaultClasses ∧
    ("NYSE", "XNYS") ∈ defaultAliases := by
  have hmine : ¬ DefaultName "MINE" := by
    rintro (⟨cls, h⟩ | ⟨r, h⟩)
    · have : "MINE" ∈ defaultClasses.map Prod.fst := List.mem_map.2 ⟨_, h, rfl⟩
      revert this
      decide
    · have : "MINE" ∈ defaultAliases.map Prod.fst := List.mem_map.2 ⟨_, h, rfl⟩
      revert this
      decide
  refine ⟨fun i _ => match defaultClasses[i]? with
      | some (_, cls) => (cls.construct now).map fun _ => i
      | none => .error (.valueError "no such class"),
    fun i => match defaultClasses[i]? with
      | some (_, cls) => (cls.construct now).toOption.getD ⟨Cal.ofSessions [], 0, 0, [], []⟩
      | none => ⟨Cal.ofSessions [], 0, 0, [], []⟩, ?_, ?_, ?_, by decide⟩
  · intro i n cls log hi
    simp only [hi]
    cases hc : cls.construct now with
    | error e => simp [Except.map]
    | ok b =>
      simp only [Except.map]
      refine ⟨fun c h => ?_, fun e h => by cases h⟩
      cases h
      simp [hi, hc, Except.toOption]
  · intro op hop
    simp only [List.mem_cons, List.not_mem_nil, or_false] at hop
    rcases hop with rfl | rfl | rfl | rfl | rfl | rfl <;> simp [Spares, hmine]
  · simp [defaultClasses]

end TC.Props
