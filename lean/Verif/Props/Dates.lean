import Verif.Lemmas.Dates
import Verif.Props.SessionLength

/-!
# When the date of a minute names its session (C93)

For each exchange: while the market is open the session label is the date on the clocks of the city, and for most also the
date in UTC.
-/

namespace TC.Props
open Spec Spec.Books Spec.Hours

set_option maxRecDepth 100000

/-- C93 for `ASEXExchangeCalendar`. -/
theorem c93_asex : LocalDates Asex.exchange Zones.europeAthens (dayOf 1979 4 3) [] 0 ∧
    UtcDates Asex.exchange Zones.europeAthens (dayOf 1979 4 3) [] (dayOf 1979 4 3) 0 :=
  ⟨localDates_of c64_asex ⟨fun d _ => always_in (d := d), fun _ _ => changed_in, (fun _ _ h => absurd h id : ∀ d t, False → t ∈ [])⟩ (by decide +kernel),
    utcDates_of (s' := 0) (hm 2 0) (hm 3 0) c64_asex clear_europeAthens.tame ⟨fun d _ => always_in (d := d), fun _ _ => changed_in, (fun _ _ h => absurd h id : ∀ d t, False → t ∈ [])⟩ (by decide +kernel)
      (by decide +kernel) (by decide +kernel)⟩

example : ∃ b t w, build (Asex.exchange.config Zones.europeAthens) (dayOf 2019 1 1 * DAY) (dayOf 2019 12 31 * DAY) = .ok b ∧ Reads Zones.europeAthens t w ∧
    b.cal.isOpenOnMinute t true = .ok true ∧ ShowsDate 0 w (dayOf 2019 10 16) :=
  date_case (dayOf 2019 10 16) c61_asex c54_asex_zone c64_asex ⟨fun d _ => always_in (d := d), fun _ _ => changed_in, (fun _ _ h => absurd h id : ∀ d t, False → t ∈ [])⟩ (by decide +kernel)
    (rules_of_check asex_check) (by decide +kernel) (by decide) (by decide) (by decide)

/-- C93 for `BVMFExchangeCalendar`. -/
theorem c93_bvmf : LocalDates Bvmf.exchange Zones.americaSaoPaulo (dayOf 1931 10 5) [] 0 ∧
    UtcDates Bvmf.exchange Zones.americaSaoPaulo (dayOf 1931 10 5) [] (dayOf 1931 10 5) 0 :=
  ⟨localDates_of c64_bvmf ⟨fun d _ => always_in (d := d), fun _ _ => changed_in, (fun _ _ h => absurd h id : ∀ d t, False → t ∈ [])⟩ (by decide +kernel),
    utcDates_of (s' := 0) (-hm 3 0) (-hm 2 0) c64_bvmf clear_americaSaoPaulo.tame ⟨fun d _ => always_in (d := d), fun _ _ => changed_in, (fun _ _ h => absurd h id : ∀ d t, False → t ∈ [])⟩ (by decide +kernel)
      (by decide +kernel) (by decide +kernel)⟩

example : ∃ b t w, build (Bvmf.exchange.config Zones.americaSaoPaulo) (dayOf 2019 1 1 * DAY) (dayOf 2019 12 31 * DAY) = .ok b ∧ Reads Zones.americaSaoPaulo t w ∧
    b.cal.isOpenOnMinute t true = .ok true ∧ ShowsDate 0 w (dayOf 2019 10 16) :=
  date_case (dayOf 2019 10 16) c61_bvmf c54_bvmf_zone c64_bvmf ⟨fun d _ => always_in (d := d), fun _ _ => changed_in, (fun _ _ h => absurd h id : ∀ d t, False → t ∈ [])⟩ (by decide +kernel)
    (rules_of_check bvmf_check) (by decide +kernel) (by decide) (by decide) (by decide)

/-- C93 for `CMESExchangeCalendar`: the session opens the evening before. -/
theorem c93_cmes : LocalDates Cmes.exchange Zones.americaChicago (dayOf 1901 12 15) [] (hm 6 59) ∧
    ∀ d, TradesOn Cmes.exchange d → OpensDayBefore Cmes.exchange Zones.americaChicago (dayOf 1901 12 15) [] d :=
  ⟨localDates_of c64_cmes (daily_in fun _ _ => book_in) (by decide +kernel),
    fun _ => dayBefore_always (s := (hm 6 59)) (-hm 6 0) (-hm 4 0) c61_cmes c54_cmes_zone c64_cmes (daily_in fun _ _ => book_in) (by decide +kernel) clear_americaChicago.tame
      (by decide +kernel) (by decide +kernel)⟩

example : ∃ b t w, build (Cmes.exchange.config Zones.americaChicago) (dayOf 2019 1 1 * DAY) (dayOf 2019 12 31 * DAY) = .ok b ∧ Reads Zones.americaChicago t w ∧
    b.cal.isOpenOnMinute t true = .ok true ∧ ShowsDate (hm 6 59) w (dayOf 2019 10 16) :=
  date_case (dayOf 2019 10 16) c61_cmes c54_cmes_zone c64_cmes (daily_in fun _ _ => book_in) (by decide +kernel)
    (rules_of_check cmes_check) (by decide +kernel) (by decide) (by decide) (by decide)

/-- C93 for `IEPAExchangeCalendar`. -/
theorem c93_iepa : LocalDates Iepa.exchange Zones.americaNewYork (dayOf 1901 12 15) [] (hm 4 0) ∧
    UtcDates Iepa.exchange Zones.americaNewYork (dayOf 1901 12 15) [] (dayOf 1901 12 15) 0 :=
  ⟨localDates_of c64_iepa (daily_in fun _ _ => book_in) (by decide +kernel),
    utcDates_of (s' := (hm 4 0)) (-hm 5 0) (-hm 4 0) c64_iepa clear_americaNewYork.tame (daily_in fun _ _ => book_in) (by decide +kernel)
      (by decide +kernel) (by decide +kernel)⟩

example : ∃ b t w, build (Iepa.exchange.config Zones.americaNewYork) (dayOf 2019 1 1 * DAY) (dayOf 2019 12 31 * DAY) = .ok b ∧ Reads Zones.americaNewYork t w ∧
    b.cal.isOpenOnMinute t true = .ok true ∧ ShowsDate (hm 4 0) w (dayOf 2019 10 16) :=
  date_case (dayOf 2019 10 16) c61_iepa c54_iepa_zone c64_iepa (daily_in fun _ _ => book_in) (by decide +kernel)
    (rules_of_check iepa_check) (by decide +kernel) (by decide) (by decide) (by decide)

/-- C93 for `QuantopianUSFuturesCalendar`: the session opens the evening before. -/
theorem c93_usFuturesCalendar : LocalDates UsFuturesCalendar.exchange Zones.americaNewYork (dayOf 1901 12 15) [] (hm 5 59) ∧
    ∀ d, TradesOn UsFuturesCalendar.exchange d → OpensDayBefore UsFuturesCalendar.exchange Zones.americaNewYork (dayOf 1901 12 15) [] d :=
  ⟨localDates_of c64_usFuturesCalendar (daily_in (es := []) fun _ _ h => absurd h id) (by decide +kernel),
    fun _ => dayBefore_always (s := (hm 5 59)) (-hm 5 0) (-hm 4 0) c61_usFuturesCalendar c54_usFuturesCalendar_zone c64_usFuturesCalendar (daily_in (es := []) fun _ _ h => absurd h id) (by decide +kernel) clear_americaNewYork.tame
      (by decide +kernel) (by decide +kernel)⟩

example : ∃ b t w, build (UsFuturesCalendar.exchange.config Zones.americaNewYork) (dayOf 2019 1 1 * DAY) (dayOf 2019 12 31 * DAY) = .ok b ∧ Reads Zones.americaNewYork t w ∧
    b.cal.isOpenOnMinute t true = .ok true ∧ ShowsDate (hm 5 59) w (dayOf 2019 10 16) :=
  date_case (dayOf 2019 10 16) c61_usFuturesCalendar c54_usFuturesCalendar_zone c64_usFuturesCalendar (daily_in (es := []) fun _ _ h => absurd h id) (by decide +kernel)
    (rules_of_check usFuturesCalendar_check) (by decide +kernel) (by decide) (by decide) (by decide)

/-- C93 for `XAMSExchangeCalendar`. -/
theorem c93_xams : LocalDates Xams.exchange Zones.europeAmsterdam (dayOf 1700 1 2) [] 0 ∧
    UtcDates Xams.exchange Zones.europeAmsterdam (dayOf 1700 1 2) [] (dayOf 1700 1 2) 0 :=
  ⟨localDates_of c64_xams (daily_in fun _ _ => book_in) (by decide +kernel),
    utcDates_of (s' := 0) (hm 0 20) (hm 2 0) c64_xams clear_europeAmsterdam.tame (daily_in fun _ _ => book_in) (by decide +kernel)
      (by decide +kernel) (by decide +kernel)⟩

example : ∃ b t w, build (Xams.exchange.config Zones.europeAmsterdam) (dayOf 2019 1 1 * DAY) (dayOf 2019 12 31 * DAY) = .ok b ∧ Reads Zones.europeAmsterdam t w ∧
    b.cal.isOpenOnMinute t true = .ok true ∧ ShowsDate 0 w (dayOf 2019 10 16) :=
  date_case (dayOf 2019 10 16) c61_xams c54_xams_zone c64_xams (daily_in fun _ _ => book_in) (by decide +kernel)
    (rules_of_check xams_check) (by decide +kernel) (by decide) (by decide) (by decide)

/-- C93 for `XASXExchangeCalendar`: in summer the session opens on the day before in UTC; twelve hours later UTC shows its date. -/
theorem c93_xasx : LocalDates Xasx.exchange Zones.australiaSydney (dayOf 1700 1 2) [] 0 ∧
    UtcDates Xasx.exchange Zones.australiaSydney (dayOf 1700 1 2) [] (dayOf 1700 1 2) (hm 12 0) ∧
    OpensDayBefore Xasx.exchange Zones.australiaSydney (dayOf 1700 1 2) [] (dayOf 2019 10 16) :=
  ⟨localDates_of c64_xasx (daily_in fun _ _ => book_in) (by decide +kernel),
    utcDates_of (s' := 0) (hm 10 0) (hm 11 0) c64_xasx clear_australiaSydney.tame (daily_in fun _ _ => book_in) (by decide +kernel)
      (by decide +kernel) (by decide +kernel),
    dayBefore_on (s := 0) (dayOf 2019 10 15 * DAY + hm 23 1) c61_xasx c54_xasx_zone c64_xasx (daily_in fun _ _ => book_in) (by decide +kernel)
      (rules_of_check xasx_check) clear_australiaSydney.tame (by decide +kernel) (by decide +kernel) (by decide +kernel)⟩

example : ∃ b t w, build (Xasx.exchange.config Zones.australiaSydney) (dayOf 2019 1 1 * DAY) (dayOf 2019 12 31 * DAY) = .ok b ∧ Reads Zones.australiaSydney t w ∧
    b.cal.isOpenOnMinute t true = .ok true ∧ ShowsDate 0 w (dayOf 2019 10 16) :=
  date_case (dayOf 2019 10 16) c61_xasx c54_xasx_zone c64_xasx (daily_in fun _ _ => book_in) (by decide +kernel)
    (rules_of_check xasx_check) (by decide +kernel) (by decide) (by decide) (by decide)

/-- C93 for `XBKKExchangeCalendar`. -/
theorem c93_xbkk : LocalDates Xbkk.exchange Zones.asiaBangkok (dayOf 1700 1 2) [] 0 ∧
    UtcDates Xbkk.exchange Zones.asiaBangkok (dayOf 1700 1 2) [] (dayOf 1700 1 2) 0 :=
  ⟨localDates_of c64_xbkk (daily_in (es := []) fun _ _ h => absurd h id) (by decide +kernel),
    utcDates_of (s' := 0) (hm 6 42) (hm 7 0) c64_xbkk clear_asiaBangkok.tame (daily_in (es := []) fun _ _ h => absurd h id) (by decide +kernel)
      (by decide +kernel) (by decide +kernel)⟩

example : ∃ b t w, build (Xbkk.exchange.config Zones.asiaBangkok) (dayOf 2019 1 1 * DAY) (dayOf 2019 12 31 * DAY) = .ok b ∧ Reads Zones.asiaBangkok t w ∧
    b.cal.isOpenOnMinute t true = .ok true ∧ ShowsDate 0 w (dayOf 2019 10 16) :=
  date_case (dayOf 2019 10 16) c61_xbkk c54_xbkk_zone c64_xbkk (daily_in (es := []) fun _ _ h => absurd h id) (by decide +kernel)
    (rules_of_check xbkk_check) (by decide +kernel) (by decide) (by decide) (by decide)

/-- C93 for `XBOGExchangeCalendar`. -/
theorem c93_xbog : LocalDates Xbog.exchange Zones.americaNewYork (dayOf 1901 12 15) [] 0 ∧
    UtcDates Xbog.exchange Zones.americaNewYork (dayOf 1901 12 15) [] (dayOf 1901 12 15) 0 :=
  ⟨localDates_of c64_xbog (daily_in (es := []) fun _ _ h => absurd h id) (by decide +kernel),
    utcDates_of (s' := 0) (-hm 5 0) (-hm 4 0) c64_xbog clear_americaNewYork.tame (daily_in (es := []) fun _ _ h => absurd h id) (by decide +kernel)
      (by decide +kernel) (by decide +kernel)⟩

example : ∃ b t w, build (Xbog.exchange.config Zones.americaNewYork) (dayOf 2019 1 1 * DAY) (dayOf 2019 12 31 * DAY) = .ok b ∧ Reads Zones.americaNewYork t w ∧
    b.cal.isOpenOnMinute t true = .ok true ∧ ShowsDate 0 w (dayOf 2019 10 16) :=
  date_case (dayOf 2019 10 16) c61_xbog c54_xbog_zone c64_xbog (daily_in (es := []) fun _ _ h => absurd h id) (by decide +kernel)
    (rules_of_check xbog_check) (by decide +kernel) (by decide) (by decide) (by decide)

/-- C93 for `XBOMExchangeCalendar`. -/
theorem c93_xbom : LocalDates Xbom.exchange Zones.asiaCalcutta (dayOf 1700 1 2) [] 0 ∧
    UtcDates Xbom.exchange Zones.asiaCalcutta (dayOf 1700 1 2) [] (dayOf 1700 1 2) 0 :=
  ⟨localDates_of c64_xbom (daily_in (es := []) fun _ _ h => absurd h id) (by decide +kernel),
    utcDates_of (s' := 0) (hm 5 21) (hm 6 30) c64_xbom clear_asiaCalcutta.tame (daily_in (es := []) fun _ _ h => absurd h id) (by decide +kernel)
      (by decide +kernel) (by decide +kernel)⟩

example : ∃ b t w, build (Xbom.exchange.config Zones.asiaCalcutta) (dayOf 2019 1 1 * DAY) (dayOf 2019 12 31 * DAY) = .ok b ∧ Reads Zones.asiaCalcutta t w ∧
    b.cal.isOpenOnMinute t true = .ok true ∧ ShowsDate 0 w (dayOf 2019 10 16) :=
  date_case (dayOf 2019 10 16) c61_xbom c54_xbom_zone c64_xbom (daily_in (es := []) fun _ _ h => absurd h id) (by decide +kernel)
    (rules_of_check xbom_check) (by decide +kernel) (by decide) (by decide) (by decide)

/-- C93 for `XBRUExchangeCalendar`. -/
theorem c93_xbru : LocalDates Xbru.exchange Zones.europeBrussels (dayOf 1918 11 13) [] 0 ∧
    UtcDates Xbru.exchange Zones.europeBrussels (dayOf 1918 11 13) [] (dayOf 1918 11 13) 0 :=
  ⟨localDates_of c64_xbru (daily_in fun _ _ => book_in) (by decide +kernel),
    utcDates_of (s' := 0) (hm 0 0) (hm 2 0) c64_xbru clear_europeBrussels.tame (daily_in fun _ _ => book_in) (by decide +kernel)
      (by decide +kernel) (by decide +kernel)⟩

example : ∃ b t w, build (Xbru.exchange.config Zones.europeBrussels) (dayOf 2019 1 1 * DAY) (dayOf 2019 12 31 * DAY) = .ok b ∧ Reads Zones.europeBrussels t w ∧
    b.cal.isOpenOnMinute t true = .ok true ∧ ShowsDate 0 w (dayOf 2019 10 16) :=
  date_case (dayOf 2019 10 16) c61_xbru c54_xbru_zone c64_xbru (daily_in fun _ _ => book_in) (by decide +kernel)
    (rules_of_check xbru_check) (by decide +kernel) (by decide) (by decide) (by decide)

/-- C93 for `XBUDExchangeCalendar`. -/
theorem c93_xbud : LocalDates Xbud.exchange Zones.europeBudapest (dayOf 1700 1 2) [] 0 ∧
    UtcDates Xbud.exchange Zones.europeBudapest (dayOf 1700 1 2) [] (dayOf 1700 1 2) 0 :=
  ⟨localDates_of c64_xbud (daily_in (es := []) fun _ _ h => absurd h id) (by decide +kernel),
    utcDates_of (s' := 0) (hm 1 0) (hm 2 0) c64_xbud clear_europeBudapest.tame (daily_in (es := []) fun _ _ h => absurd h id) (by decide +kernel)
      (by decide +kernel) (by decide +kernel)⟩

example : ∃ b t w, build (Xbud.exchange.config Zones.europeBudapest) (dayOf 2019 1 1 * DAY) (dayOf 2019 12 31 * DAY) = .ok b ∧ Reads Zones.europeBudapest t w ∧
    b.cal.isOpenOnMinute t true = .ok true ∧ ShowsDate 0 w (dayOf 2019 10 16) :=
  date_case (dayOf 2019 10 16) c61_xbud c54_xbud_zone c64_xbud (daily_in (es := []) fun _ _ h => absurd h id) (by decide +kernel)
    (rules_of_check xbud_check) (by decide +kernel) (by decide) (by decide) (by decide)

/-- C93 for `XBUEExchangeCalendar`. -/
theorem c93_xbue : LocalDates Xbue.exchange Zones.americaArgentinaBuenosAires (dayOf 1901 12 15) [] 0 ∧
    UtcDates Xbue.exchange Zones.americaArgentinaBuenosAires (dayOf 1901 12 15) [] (dayOf 1901 12 15) 0 :=
  ⟨localDates_of c64_xbue (daily_in fun _ _ => book_in) (by decide +kernel),
    utcDates_of (s' := 0) (-hm 4 17) (-hm 2 0) c64_xbue clear_americaArgentinaBuenosAires.tame (daily_in fun _ _ => book_in) (by decide +kernel)
      (by decide +kernel) (by decide +kernel)⟩

example : ∃ b t w, build (Xbue.exchange.config Zones.americaArgentinaBuenosAires) (dayOf 2019 1 1 * DAY) (dayOf 2019 12 31 * DAY) = .ok b ∧ Reads Zones.americaArgentinaBuenosAires t w ∧
    b.cal.isOpenOnMinute t true = .ok true ∧ ShowsDate 0 w (dayOf 2019 10 16) :=
  date_case (dayOf 2019 10 16) c61_xbue c54_xbue_zone c64_xbue (daily_in fun _ _ => book_in) (by decide +kernel)
    (rules_of_check xbue_check) (by decide +kernel) (by decide) (by decide) (by decide)

/-- C93 for `XCBFExchangeCalendar`. -/
theorem c93_xcbf : LocalDates Xcbf.exchange Zones.americaChicago (dayOf 1901 12 15) [] 0 ∧
    UtcDates Xcbf.exchange Zones.americaChicago (dayOf 1901 12 15) [] (dayOf 1901 12 15) 0 :=
  ⟨localDates_of c64_xcbf (daily_in fun _ _ => book_in) (by decide +kernel),
    utcDates_of (s' := 0) (-hm 6 0) (-hm 5 0) c64_xcbf clear_americaChicago.tame (daily_in fun _ _ => book_in) (by decide +kernel)
      (by decide +kernel) (by decide +kernel)⟩

example : ∃ b t w, build (Xcbf.exchange.config Zones.americaChicago) (dayOf 2019 1 1 * DAY) (dayOf 2019 12 31 * DAY) = .ok b ∧ Reads Zones.americaChicago t w ∧
    b.cal.isOpenOnMinute t true = .ok true ∧ ShowsDate 0 w (dayOf 2019 10 16) :=
  date_case (dayOf 2019 10 16) c61_xcbf c54_xcbf_zone c64_xcbf (daily_in fun _ _ => book_in) (by decide +kernel)
    (rules_of_check xcbf_check) (by decide +kernel) (by decide) (by decide) (by decide)

/-- C93 for `XCSEExchangeCalendar`. -/
theorem c93_xcse : LocalDates Xcse.exchange Zones.europeCopenhagen (dayOf 1700 1 2) [] 0 ∧
    UtcDates Xcse.exchange Zones.europeCopenhagen (dayOf 1700 1 2) [] (dayOf 1700 1 2) 0 :=
  ⟨localDates_of c64_xcse (daily_in (es := []) fun _ _ h => absurd h id) (by decide +kernel),
    utcDates_of (s' := 0) (hm 0 50) (hm 2 0) c64_xcse clear_europeCopenhagen.tame (daily_in (es := []) fun _ _ h => absurd h id) (by decide +kernel)
      (by decide +kernel) (by decide +kernel)⟩

example : ∃ b t w, build (Xcse.exchange.config Zones.europeCopenhagen) (dayOf 2019 1 1 * DAY) (dayOf 2019 12 31 * DAY) = .ok b ∧ Reads Zones.europeCopenhagen t w ∧
    b.cal.isOpenOnMinute t true = .ok true ∧ ShowsDate 0 w (dayOf 2019 10 16) :=
  date_case (dayOf 2019 10 16) c61_xcse c54_xcse_zone c64_xcse (daily_in (es := []) fun _ _ h => absurd h id) (by decide +kernel)
    (rules_of_check xcse_check) (by decide +kernel) (by decide) (by decide) (by decide)

/-- C93 for `XDUBExchangeCalendar`. -/
theorem c93_xdub : LocalDates Xdub.exchange Zones.europeDublin (dayOf 1700 1 2) [] 0 ∧
    UtcDates Xdub.exchange Zones.europeDublin (dayOf 1700 1 2) [] (dayOf 1700 1 2) 0 :=
  ⟨localDates_of c64_xdub (daily_in fun _ _ => book_in) (by decide +kernel),
    utcDates_of (s' := 0) (-hm 0 25) (hm 1 0) c64_xdub clear_europeDublin.tame (daily_in fun _ _ => book_in) (by decide +kernel)
      (by decide +kernel) (by decide +kernel)⟩

example : ∃ b t w, build (Xdub.exchange.config Zones.europeDublin) (dayOf 2019 1 1 * DAY) (dayOf 2019 12 31 * DAY) = .ok b ∧ Reads Zones.europeDublin t w ∧
    b.cal.isOpenOnMinute t true = .ok true ∧ ShowsDate 0 w (dayOf 2019 10 16) :=
  date_case (dayOf 2019 10 16) c61_xdub c54_xdub_zone c64_xdub (daily_in fun _ _ => book_in) (by decide +kernel)
    (rules_of_check xdub_check) (by decide +kernel) (by decide) (by decide) (by decide)

/-- C93 for `XETRExchangeCalendar`. -/
theorem c93_xetr : LocalDates Xetr.exchange Zones.cet (dayOf 1700 1 2) [] 0 ∧
    UtcDates Xetr.exchange Zones.cet (dayOf 1700 1 2) [] (dayOf 1700 1 2) 0 :=
  ⟨localDates_of c64_xetr (daily_in fun _ _ => book_in) (by decide +kernel),
    utcDates_of (s' := 0) (hm 1 0) (hm 2 0) c64_xetr clear_cet.tame (daily_in fun _ _ => book_in) (by decide +kernel)
      (by decide +kernel) (by decide +kernel)⟩

example : ∃ b t w, build (Xetr.exchange.config Zones.cet) (dayOf 2019 1 1 * DAY) (dayOf 2019 12 31 * DAY) = .ok b ∧ Reads Zones.cet t w ∧
    b.cal.isOpenOnMinute t true = .ok true ∧ ShowsDate 0 w (dayOf 2019 10 16) :=
  date_case (dayOf 2019 10 16) c61_xetr c54_xetr_zone c64_xetr (daily_in fun _ _ => book_in) (by decide +kernel)
    (rules_of_check xetr_check) (by decide +kernel) (by decide) (by decide) (by decide)

/-- C93 for `XFRAExchangeCalendar`. -/
theorem c93_xfra : LocalDates Xfra.exchange Zones.cet (dayOf 1700 1 2) [] 0 ∧
    UtcDates Xfra.exchange Zones.cet (dayOf 1700 1 2) [] (dayOf 1700 1 2) 0 :=
  ⟨localDates_of c64_xfra (daily_in fun _ _ => book_in) (by decide +kernel),
    utcDates_of (s' := 0) (hm 1 0) (hm 2 0) c64_xfra clear_cet.tame (daily_in fun _ _ => book_in) (by decide +kernel)
      (by decide +kernel) (by decide +kernel)⟩

example : ∃ b t w, build (Xfra.exchange.config Zones.cet) (dayOf 2019 1 1 * DAY) (dayOf 2019 12 31 * DAY) = .ok b ∧ Reads Zones.cet t w ∧
    b.cal.isOpenOnMinute t true = .ok true ∧ ShowsDate 0 w (dayOf 2019 10 16) :=
  date_case (dayOf 2019 10 16) c61_xfra c54_xfra_zone c64_xfra (daily_in fun _ _ => book_in) (by decide +kernel)
    (rules_of_check xfra_check) (by decide +kernel) (by decide) (by decide) (by decide)

/-- C93 for `XHELExchangeCalendar`. -/
theorem c93_xhel : LocalDates Xhel.exchange Zones.europeHelsinki (dayOf 1700 1 2) [] 0 ∧
    UtcDates Xhel.exchange Zones.europeHelsinki (dayOf 1700 1 2) [] (dayOf 1700 1 2) 0 :=
  ⟨localDates_of c64_xhel (daily_in (es := []) fun _ _ h => absurd h id) (by decide +kernel),
    utcDates_of (s' := 0) (hm 1 40) (hm 3 0) c64_xhel clear_europeHelsinki.tame (daily_in (es := []) fun _ _ h => absurd h id) (by decide +kernel)
      (by decide +kernel) (by decide +kernel)⟩

example : ∃ b t w, build (Xhel.exchange.config Zones.europeHelsinki) (dayOf 2019 1 1 * DAY) (dayOf 2019 12 31 * DAY) = .ok b ∧ Reads Zones.europeHelsinki t w ∧
    b.cal.isOpenOnMinute t true = .ok true ∧ ShowsDate 0 w (dayOf 2019 10 16) :=
  date_case (dayOf 2019 10 16) c61_xhel c54_xhel_zone c64_xhel (daily_in (es := []) fun _ _ h => absurd h id) (by decide +kernel)
    (rules_of_check xhel_check) (by decide +kernel) (by decide) (by decide) (by decide)

/-- C93 for `XHKGExchangeCalendar`. -/
theorem c93_xhkg : LocalDates Xhkg.exchange Zones.asiaHongKong (dayOf 1700 1 2) [] 0 ∧
    UtcDates Xhkg.exchange Zones.asiaHongKong (dayOf 1700 1 2) [] (dayOf 1700 1 2) 0 :=
  ⟨localDates_of c64_xhkg ⟨fun _ _ => changed_in, fun d _ => always_in (d := d), fun _ _ => feasts_in⟩ (by decide +kernel),
    utcDates_of (s' := 0) (hm 7 37) (hm 9 0) c64_xhkg clear_asiaHongKong.tame ⟨fun _ _ => changed_in, fun d _ => always_in (d := d), fun _ _ => feasts_in⟩ (by decide +kernel)
      (by decide +kernel) (by decide +kernel)⟩

example : ∃ b t w, build (Xhkg.exchange.config Zones.asiaHongKong) (dayOf 2019 1 1 * DAY) (dayOf 2019 12 31 * DAY) = .ok b ∧ Reads Zones.asiaHongKong t w ∧
    b.cal.isOpenOnMinute t true = .ok true ∧ ShowsDate 0 w (dayOf 2019 10 16) :=
  date_case (dayOf 2019 10 16) c61_xhkg c54_xhkg_zone c64_xhkg ⟨fun _ _ => changed_in, fun d _ => always_in (d := d), fun _ _ => feasts_in⟩ (by decide +kernel)
    (rules_of_check xhkg_check) (by decide +kernel) (by decide) (by decide) (by decide)

/-- C93 for `XICEExchangeCalendar`. -/
theorem c93_xice : LocalDates Xice.exchange Zones.atlanticReykjavik (dayOf 1700 1 2) [] 0 ∧
    UtcDates Xice.exchange Zones.atlanticReykjavik (dayOf 1700 1 2) [] (dayOf 1700 1 2) 0 :=
  ⟨localDates_of c64_xice (daily_in (es := []) fun _ _ h => absurd h id) (by decide +kernel),
    utcDates_of (s' := 0) (-hm 1 28) (hm 0 0) c64_xice clear_atlanticReykjavik.tame (daily_in (es := []) fun _ _ h => absurd h id) (by decide +kernel)
      (by decide +kernel) (by decide +kernel)⟩

example : ∃ b t w, build (Xice.exchange.config Zones.atlanticReykjavik) (dayOf 2019 1 1 * DAY) (dayOf 2019 12 31 * DAY) = .ok b ∧ Reads Zones.atlanticReykjavik t w ∧
    b.cal.isOpenOnMinute t true = .ok true ∧ ShowsDate 0 w (dayOf 2019 10 16) :=
  date_case (dayOf 2019 10 16) c61_xice c54_xice_zone c64_xice (daily_in (es := []) fun _ _ h => absurd h id) (by decide +kernel)
    (rules_of_check xice_check) (by decide +kernel) (by decide) (by decide) (by decide)

/-- C93 for `XIDXExchangeCalendar`. -/
theorem c93_xidx : LocalDates Xidx.exchange Zones.asiaJakarta (dayOf 1700 1 2) [] 0 ∧
    UtcDates Xidx.exchange Zones.asiaJakarta (dayOf 1700 1 2) [] (dayOf 1700 1 2) 0 :=
  ⟨localDates_of c64_xidx (daily_in (es := []) fun _ _ h => absurd h id) (by decide +kernel),
    utcDates_of (s' := 0) (hm 7 0) (hm 9 0) c64_xidx clear_asiaJakarta.tame (daily_in (es := []) fun _ _ h => absurd h id) (by decide +kernel)
      (by decide +kernel) (by decide +kernel)⟩

example : ∃ b t w, build (Xidx.exchange.config Zones.asiaJakarta) (dayOf 2019 1 1 * DAY) (dayOf 2019 12 31 * DAY) = .ok b ∧ Reads Zones.asiaJakarta t w ∧
    b.cal.isOpenOnMinute t true = .ok true ∧ ShowsDate 0 w (dayOf 2019 10 16) :=
  date_case (dayOf 2019 10 16) c61_xidx c54_xidx_zone c64_xidx (daily_in (es := []) fun _ _ h => absurd h id) (by decide +kernel)
    (rules_of_check xidx_check) (by decide +kernel) (by decide) (by decide) (by decide)

/-- C93 for `XISTExchangeCalendar`. -/
theorem c93_xist : LocalDates Xist.exchange Zones.europeIstanbul (dayOf 1700 1 2) [dayOf 2029 4 23] 0 ∧
    UtcDates Xist.exchange Zones.europeIstanbul (dayOf 1700 1 2) [dayOf 2029 4 23] (dayOf 1700 1 2) 0 :=
  ⟨localDates_of c64_xist (daily_in fun _ _ => feasts_in) (by decide +kernel),
    utcDates_of (s' := 0) (hm 1 56) (hm 4 0) c64_xist clear_europeIstanbul.tame (daily_in fun _ _ => feasts_in) (by decide +kernel)
      (by decide +kernel) (by decide +kernel)⟩

example : ∃ b t w, build (Xist.exchange.config Zones.europeIstanbul) (dayOf 2019 1 1 * DAY) (dayOf 2019 12 31 * DAY) = .ok b ∧ Reads Zones.europeIstanbul t w ∧
    b.cal.isOpenOnMinute t true = .ok true ∧ ShowsDate 0 w (dayOf 2019 10 16) :=
  date_case (dayOf 2019 10 16) c61_xist c54_xist_zone c64_xist (daily_in fun _ _ => feasts_in) (by decide +kernel)
    (rules_of_check xist_check) (by decide +kernel) (by decide) (by decide) (by decide)

/-- C93 for `XJSEExchangeCalendar`. -/
theorem c93_xjse : LocalDates Xjse.exchange Zones.africaJohannesburg (dayOf 1700 1 2) [] 0 ∧
    UtcDates Xjse.exchange Zones.africaJohannesburg (dayOf 1700 1 2) [] (dayOf 1700 1 2) 0 :=
  ⟨localDates_of c64_xjse (daily_in (es := []) fun _ _ h => absurd h id) (by decide +kernel),
    utcDates_of (s' := 0) (hm 1 30) (hm 3 0) c64_xjse clear_africaJohannesburg.tame (daily_in (es := []) fun _ _ h => absurd h id) (by decide +kernel)
      (by decide +kernel) (by decide +kernel)⟩

example : ∃ b t w, build (Xjse.exchange.config Zones.africaJohannesburg) (dayOf 2019 1 1 * DAY) (dayOf 2019 12 31 * DAY) = .ok b ∧ Reads Zones.africaJohannesburg t w ∧
    b.cal.isOpenOnMinute t true = .ok true ∧ ShowsDate 0 w (dayOf 2019 10 16) :=
  date_case (dayOf 2019 10 16) c61_xjse c54_xjse_zone c64_xjse (daily_in (es := []) fun _ _ h => absurd h id) (by decide +kernel)
    (rules_of_check xjse_check) (by decide +kernel) (by decide) (by decide) (by decide)

/-- C93 for `XKARExchangeCalendar`. -/
theorem c93_xkar : LocalDates Xkar.exchange Zones.asiaKarachi (dayOf 1700 1 2) [] 0 ∧
    UtcDates Xkar.exchange Zones.asiaKarachi (dayOf 1700 1 2) [] (dayOf 1700 1 2) 0 :=
  ⟨localDates_of c64_xkar (daily_in (es := []) fun _ _ h => absurd h id) (by decide +kernel),
    utcDates_of (s' := 0) (hm 4 28) (hm 6 30) c64_xkar clear_asiaKarachi.tame (daily_in (es := []) fun _ _ h => absurd h id) (by decide +kernel)
      (by decide +kernel) (by decide +kernel)⟩

example : ∃ b t w, build (Xkar.exchange.config Zones.asiaKarachi) (dayOf 2019 1 1 * DAY) (dayOf 2019 12 31 * DAY) = .ok b ∧ Reads Zones.asiaKarachi t w ∧
    b.cal.isOpenOnMinute t true = .ok true ∧ ShowsDate 0 w (dayOf 2019 10 16) :=
  date_case (dayOf 2019 10 16) c61_xkar c54_xkar_zone c64_xkar (daily_in (es := []) fun _ _ h => absurd h id) (by decide +kernel)
    (rules_of_check xkar_check) (by decide +kernel) (by decide) (by decide) (by decide)

/-- C93 for `XKLSExchangeCalendar`. -/
theorem c93_xkls : LocalDates Xkls.exchange Zones.asiaKualaLumpur (dayOf 1700 1 2) [dayOf 1984 2 1, dayOf 2029 2 13, dayOf 2031 1 23, dayOf 2049 2 1] 0 ∧
    UtcDates Xkls.exchange Zones.asiaKualaLumpur (dayOf 1700 1 2) [dayOf 1984 2 1, dayOf 2029 2 13, dayOf 2031 1 23, dayOf 2049 2 1] (dayOf 1700 1 2) 0 :=
  ⟨localDates_of c64_xkls (daily_in fun _ _ => feasts_in) (by decide +kernel),
    utcDates_of (s' := 0) (hm 6 47) (hm 9 0) c64_xkls clear_asiaKualaLumpur.tame (daily_in fun _ _ => feasts_in) (by decide +kernel)
      (by decide +kernel) (by decide +kernel)⟩

example : ∃ b t w, build (Xkls.exchange.config Zones.asiaKualaLumpur) (dayOf 2019 1 1 * DAY) (dayOf 2019 12 31 * DAY) = .ok b ∧ Reads Zones.asiaKualaLumpur t w ∧
    b.cal.isOpenOnMinute t true = .ok true ∧ ShowsDate 0 w (dayOf 2019 10 16) :=
  date_case (dayOf 2019 10 16) c61_xkls c54_xkls_zone c64_xkls (daily_in fun _ _ => feasts_in) (by decide +kernel)
    (rules_of_check xkls_check) (by decide +kernel) (by decide) (by decide) (by decide)

/-- C93 for `XKRXExchangeCalendar`: not in the summers of 1987 and 1988, when the session opens on the day before in UTC. -/
theorem c93_xkrx : LocalDates Xkrx.exchange Zones.asiaSeoul (dayOf 1700 1 2) [] 0 ∧
    UtcDates Xkrx.exchange Zones.asiaSeoul (dayOf 1700 1 2) [] (dayOf 1988 10 9) 0 ∧
    OpensDayBefore Xkrx.exchange Zones.asiaSeoul (dayOf 1700 1 2) [] (dayOf 1988 6 1) :=
  ⟨localDates_of c64_xkrx (daily_in (es := []) fun _ _ h => absurd h id) (by decide +kernel),
    utcDates_of (s' := 0) (hm 9 0) (hm 9 0) c64_xkrx clear_asiaSeoul.tame (daily_in (es := []) fun _ _ h => absurd h id) (by decide +kernel)
      (by decide +kernel) (by decide +kernel),
    dayBefore_on (s := 0) (dayOf 1988 5 31 * DAY + hm 23 1) c61_xkrx c54_xkrx_zone c64_xkrx (daily_in (es := []) fun _ _ h => absurd h id) (by decide +kernel)
      (rules_of_check xkrx_check) clear_asiaSeoul.tame (by decide +kernel) (by decide +kernel) (by decide +kernel)⟩

example : ∃ b t w, build (Xkrx.exchange.config Zones.asiaSeoul) (dayOf 2019 1 1 * DAY) (dayOf 2019 12 31 * DAY) = .ok b ∧ Reads Zones.asiaSeoul t w ∧
    b.cal.isOpenOnMinute t true = .ok true ∧ ShowsDate 0 w (dayOf 2019 10 16) :=
  date_case (dayOf 2019 10 16) c61_xkrx c54_xkrx_zone c64_xkrx (daily_in (es := []) fun _ _ h => absurd h id) (by decide +kernel)
    (rules_of_check xkrx_check) (by decide +kernel) (by decide) (by decide) (by decide)

/-- C93 for `XLIMExchangeCalendar`. -/
theorem c93_xlim : LocalDates Xlim.exchange Zones.americaLima (dayOf 1901 12 15) [] 0 ∧
    UtcDates Xlim.exchange Zones.americaLima (dayOf 1901 12 15) [] (dayOf 1901 12 15) 0 :=
  ⟨localDates_of c64_xlim (daily_in (es := []) fun _ _ h => absurd h id) (by decide +kernel),
    utcDates_of (s' := 0) (-hm 5 9) (-hm 4 0) c64_xlim clear_americaLima.tame (daily_in (es := []) fun _ _ h => absurd h id) (by decide +kernel)
      (by decide +kernel) (by decide +kernel)⟩

example : ∃ b t w, build (Xlim.exchange.config Zones.americaLima) (dayOf 2019 1 1 * DAY) (dayOf 2019 12 31 * DAY) = .ok b ∧ Reads Zones.americaLima t w ∧
    b.cal.isOpenOnMinute t true = .ok true ∧ ShowsDate 0 w (dayOf 2019 10 16) :=
  date_case (dayOf 2019 10 16) c61_xlim c54_xlim_zone c64_xlim (daily_in (es := []) fun _ _ h => absurd h id) (by decide +kernel)
    (rules_of_check xlim_check) (by decide +kernel) (by decide) (by decide) (by decide)

/-- C93 for `XLISExchangeCalendar`. -/
theorem c93_xlis : LocalDates Xlis.exchange Zones.europeLisbon (dayOf 1700 1 2) [] 0 ∧
    UtcDates Xlis.exchange Zones.europeLisbon (dayOf 1700 1 2) [] (dayOf 1700 1 2) 0 :=
  ⟨localDates_of c64_xlis (daily_in fun _ _ => book_in) (by decide +kernel),
    utcDates_of (s' := 0) (-hm 0 37) (hm 2 0) c64_xlis clear_europeLisbon.tame (daily_in fun _ _ => book_in) (by decide +kernel)
      (by decide +kernel) (by decide +kernel)⟩

example : ∃ b t w, build (Xlis.exchange.config Zones.europeLisbon) (dayOf 2019 1 1 * DAY) (dayOf 2019 12 31 * DAY) = .ok b ∧ Reads Zones.europeLisbon t w ∧
    b.cal.isOpenOnMinute t true = .ok true ∧ ShowsDate 0 w (dayOf 2019 10 16) :=
  date_case (dayOf 2019 10 16) c61_xlis c54_xlis_zone c64_xlis (daily_in fun _ _ => book_in) (by decide +kernel)
    (rules_of_check xlis_check) (by decide +kernel) (by decide) (by decide) (by decide)

/-- C93 for `XLONExchangeCalendar`. -/
theorem c93_xlon : LocalDates Xlon.exchange Zones.europeLondon (dayOf 1901 12 15) [] 0 ∧
    UtcDates Xlon.exchange Zones.europeLondon (dayOf 1901 12 15) [] (dayOf 1901 12 15) 0 :=
  ⟨localDates_of c64_xlon (daily_in fun _ _ => book_in) (by decide +kernel),
    utcDates_of (s' := 0) (hm 0 0) (hm 2 0) c64_xlon clear_europeLondon.tame (daily_in fun _ _ => book_in) (by decide +kernel)
      (by decide +kernel) (by decide +kernel)⟩

example : ∃ b t w, build (Xlon.exchange.config Zones.europeLondon) (dayOf 2019 1 1 * DAY) (dayOf 2019 12 31 * DAY) = .ok b ∧ Reads Zones.europeLondon t w ∧
    b.cal.isOpenOnMinute t true = .ok true ∧ ShowsDate 0 w (dayOf 2019 10 16) :=
  date_case (dayOf 2019 10 16) c61_xlon c54_xlon_zone c64_xlon (daily_in fun _ _ => book_in) (by decide +kernel)
    (rules_of_check xlon_check) (by decide +kernel) (by decide) (by decide) (by decide)

/-- C93 for `XMADExchangeCalendar`. -/
theorem c93_xmad : LocalDates Xmad.exchange Zones.europeMadrid (dayOf 1901 12 15) [] 0 ∧
    UtcDates Xmad.exchange Zones.europeMadrid (dayOf 1901 12 15) [] (dayOf 1901 12 15) 0 :=
  ⟨localDates_of c64_xmad (daily_in fun _ _ => book_in) (by decide +kernel),
    utcDates_of (s' := 0) (hm 0 0) (hm 2 0) c64_xmad clear_europeMadrid.tame (daily_in fun _ _ => book_in) (by decide +kernel)
      (by decide +kernel) (by decide +kernel)⟩

example : ∃ b t w, build (Xmad.exchange.config Zones.europeMadrid) (dayOf 2019 1 1 * DAY) (dayOf 2019 12 31 * DAY) = .ok b ∧ Reads Zones.europeMadrid t w ∧
    b.cal.isOpenOnMinute t true = .ok true ∧ ShowsDate 0 w (dayOf 2019 10 16) :=
  date_case (dayOf 2019 10 16) c61_xmad c54_xmad_zone c64_xmad (daily_in fun _ _ => book_in) (by decide +kernel)
    (rules_of_check xmad_check) (by decide +kernel) (by decide) (by decide) (by decide)

/-- C93 for `XMEXExchangeCalendar`. -/
theorem c93_xmex : LocalDates Xmex.exchange Zones.americaMexicoCity (dayOf 1700 1 2) [] 0 ∧
    UtcDates Xmex.exchange Zones.americaMexicoCity (dayOf 1700 1 2) [] (dayOf 1700 1 2) 0 :=
  ⟨localDates_of c64_xmex (daily_in (es := []) fun _ _ h => absurd h id) (by decide +kernel),
    utcDates_of (s' := 0) (-hm 7 0) (-hm 5 0) c64_xmex clear_americaMexicoCity.tame (daily_in (es := []) fun _ _ h => absurd h id) (by decide +kernel)
      (by decide +kernel) (by decide +kernel)⟩

example : ∃ b t w, build (Xmex.exchange.config Zones.americaMexicoCity) (dayOf 2019 1 1 * DAY) (dayOf 2019 12 31 * DAY) = .ok b ∧ Reads Zones.americaMexicoCity t w ∧
    b.cal.isOpenOnMinute t true = .ok true ∧ ShowsDate 0 w (dayOf 2019 10 16) :=
  date_case (dayOf 2019 10 16) c61_xmex c54_xmex_zone c64_xmex (daily_in (es := []) fun _ _ h => absurd h id) (by decide +kernel)
    (rules_of_check xmex_check) (by decide +kernel) (by decide) (by decide) (by decide)

/-- C93 for `XMILExchangeCalendar`. -/
theorem c93_xmil : LocalDates Xmil.exchange Zones.europeRome (dayOf 1700 1 2) [] 0 ∧
    UtcDates Xmil.exchange Zones.europeRome (dayOf 1700 1 2) [] (dayOf 1700 1 2) 0 :=
  ⟨localDates_of c64_xmil (daily_in (es := []) fun _ _ h => absurd h id) (by decide +kernel),
    utcDates_of (s' := 0) (hm 0 50) (hm 2 0) c64_xmil clear_europeRome.tame (daily_in (es := []) fun _ _ h => absurd h id) (by decide +kernel)
      (by decide +kernel) (by decide +kernel)⟩

example : ∃ b t w, build (Xmil.exchange.config Zones.europeRome) (dayOf 2019 1 1 * DAY) (dayOf 2019 12 31 * DAY) = .ok b ∧ Reads Zones.europeRome t w ∧
    b.cal.isOpenOnMinute t true = .ok true ∧ ShowsDate 0 w (dayOf 2019 10 16) :=
  date_case (dayOf 2019 10 16) c61_xmil c54_xmil_zone c64_xmil (daily_in (es := []) fun _ _ h => absurd h id) (by decide +kernel)
    (rules_of_check xmil_check) (by decide +kernel) (by decide) (by decide) (by decide)

/-- C93 for `XMOSExchangeCalendar`. -/
theorem c93_xmos : LocalDates Xmos.exchange Zones.europeMoscow (dayOf 1700 1 2) [] 0 ∧
    UtcDates Xmos.exchange Zones.europeMoscow (dayOf 1700 1 2) [] (dayOf 1700 1 2) 0 :=
  ⟨localDates_of c64_xmos (daily_in (es := []) fun _ _ h => absurd h id) (by decide +kernel),
    utcDates_of (s' := 0) (hm 2 0) (hm 5 0) c64_xmos clear_europeMoscow.tame (daily_in (es := []) fun _ _ h => absurd h id) (by decide +kernel)
      (by decide +kernel) (by decide +kernel)⟩

example : ∃ b t w, build (Xmos.exchange.config Zones.europeMoscow) (dayOf 2019 1 1 * DAY) (dayOf 2019 12 31 * DAY) = .ok b ∧ Reads Zones.europeMoscow t w ∧
    b.cal.isOpenOnMinute t true = .ok true ∧ ShowsDate 0 w (dayOf 2019 10 16) :=
  date_case (dayOf 2019 10 16) c61_xmos c54_xmos_zone c64_xmos (daily_in (es := []) fun _ _ h => absurd h id) (by decide +kernel)
    (rules_of_check xmos_check) (by decide +kernel) (by decide) (by decide) (by decide)

/-- C93 for `XNYSExchangeCalendar`. -/
theorem c93_xnys : LocalDates Xnys.exchange Zones.americaNewYork (dayOf 1901 12 15) [dayOf 1945 12 24, dayOf 1956 12 24] 0 ∧
    UtcDates Xnys.exchange Zones.americaNewYork (dayOf 1901 12 15) [dayOf 1945 12 24, dayOf 1956 12 24] (dayOf 1901 12 15) 0 :=
  ⟨localDates_of c64_xnys (daily_in fun _ _ => book_in) (by decide +kernel),
    utcDates_of (s' := 0) (-hm 5 0) (-hm 4 0) c64_xnys clear_americaNewYork.tame (daily_in fun _ _ => book_in) (by decide +kernel)
      (by decide +kernel) (by decide +kernel)⟩

example : ∃ b t w, build (Xnys.exchange.config Zones.americaNewYork) (dayOf 2019 1 1 * DAY) (dayOf 2019 12 31 * DAY) = .ok b ∧ Reads Zones.americaNewYork t w ∧
    b.cal.isOpenOnMinute t true = .ok true ∧ ShowsDate 0 w (dayOf 2019 10 16) :=
  date_case (dayOf 2019 10 16) c61_xnys c54_xnys_zone c64_xnys (daily_in fun _ _ => book_in) (by decide +kernel)
    (rules_of_check xnys_check) (by decide +kernel) (by decide) (by decide) (by decide)

/-- C93 for `XNZEExchangeCalendar`: the session opens on the day before in UTC; twelve hours later UTC shows its date. -/
theorem c93_xnze : LocalDates Xnze.exchange Zones.nz (dayOf 1901 12 16) [] 0 ∧
    UtcDates Xnze.exchange Zones.nz (dayOf 1901 12 16) [] (dayOf 1901 12 16) (hm 12 0) ∧
    ∀ d, TradesOn Xnze.exchange d → OpensDayBefore Xnze.exchange Zones.nz (dayOf 1901 12 16) [] d :=
  ⟨localDates_of c64_xnze (daily_in fun _ _ => book_in) (by decide +kernel),
    utcDates_of (s' := 0) (hm 11 30) (hm 13 0) c64_xnze clear_nz.tame (daily_in fun _ _ => book_in) (by decide +kernel)
      (by decide +kernel) (by decide +kernel),
    fun _ => dayBefore_always (s := 0) (hm 11 30) (hm 13 0) c61_xnze c54_xnze_zone c64_xnze (daily_in fun _ _ => book_in) (by decide +kernel) clear_nz.tame
      (by decide +kernel) (by decide +kernel)⟩

example : ∃ b t w, build (Xnze.exchange.config Zones.nz) (dayOf 2019 1 1 * DAY) (dayOf 2019 12 31 * DAY) = .ok b ∧ Reads Zones.nz t w ∧
    b.cal.isOpenOnMinute t true = .ok true ∧ ShowsDate 0 w (dayOf 2019 10 16) :=
  date_case (dayOf 2019 10 16) c61_xnze c54_xnze_zone c64_xnze (daily_in fun _ _ => book_in) (by decide +kernel)
    (rules_of_check xnze_check) (by decide +kernel) (by decide) (by decide) (by decide)

/-- C93 for `XOSLExchangeCalendar`. -/
theorem c93_xosl : LocalDates Xosl.exchange Zones.europeOslo (dayOf 1700 1 2) [] 0 ∧
    UtcDates Xosl.exchange Zones.europeOslo (dayOf 1700 1 2) [] (dayOf 1700 1 2) 0 :=
  ⟨localDates_of c64_xosl (daily_in fun _ _ => book_in) (by decide +kernel),
    utcDates_of (s' := 0) (hm 0 43) (hm 2 0) c64_xosl clear_europeOslo.tame (daily_in fun _ _ => book_in) (by decide +kernel)
      (by decide +kernel) (by decide +kernel)⟩

example : ∃ b t w, build (Xosl.exchange.config Zones.europeOslo) (dayOf 2019 1 1 * DAY) (dayOf 2019 12 31 * DAY) = .ok b ∧ Reads Zones.europeOslo t w ∧
    b.cal.isOpenOnMinute t true = .ok true ∧ ShowsDate 0 w (dayOf 2019 10 16) :=
  date_case (dayOf 2019 10 16) c61_xosl c54_xosl_zone c64_xosl (daily_in fun _ _ => book_in) (by decide +kernel)
    (rules_of_check xosl_check) (by decide +kernel) (by decide) (by decide) (by decide)

/-- C93 for `XPARExchangeCalendar`. -/
theorem c93_xpar : LocalDates Xpar.exchange Zones.europeParis (dayOf 1700 1 2) [] 0 ∧
    UtcDates Xpar.exchange Zones.europeParis (dayOf 1700 1 2) [] (dayOf 1700 1 2) 0 :=
  ⟨localDates_of c64_xpar (daily_in fun _ _ => book_in) (by decide +kernel),
    utcDates_of (s' := 0) (hm 0 0) (hm 2 0) c64_xpar clear_europeParis.tame (daily_in fun _ _ => book_in) (by decide +kernel)
      (by decide +kernel) (by decide +kernel)⟩

example : ∃ b t w, build (Xpar.exchange.config Zones.europeParis) (dayOf 2019 1 1 * DAY) (dayOf 2019 12 31 * DAY) = .ok b ∧ Reads Zones.europeParis t w ∧
    b.cal.isOpenOnMinute t true = .ok true ∧ ShowsDate 0 w (dayOf 2019 10 16) :=
  date_case (dayOf 2019 10 16) c61_xpar c54_xpar_zone c64_xpar (daily_in fun _ _ => book_in) (by decide +kernel)
    (rules_of_check xpar_check) (by decide +kernel) (by decide) (by decide) (by decide)

/-- C93 for `XPHSExchangeCalendar`. -/
theorem c93_xphs : LocalDates Xphs.exchange Zones.asiaManila (dayOf 1901 12 15) [] 0 ∧
    UtcDates Xphs.exchange Zones.asiaManila (dayOf 1901 12 15) [] (dayOf 1901 12 15) 0 :=
  ⟨localDates_of c64_xphs (daily_in (es := []) fun _ _ h => absurd h id) (by decide +kernel),
    utcDates_of (s' := 0) (hm 8 0) (hm 9 0) c64_xphs clear_asiaManila.tame (daily_in (es := []) fun _ _ h => absurd h id) (by decide +kernel)
      (by decide +kernel) (by decide +kernel)⟩

example : ∃ b t w, build (Xphs.exchange.config Zones.asiaManila) (dayOf 2019 1 1 * DAY) (dayOf 2019 12 31 * DAY) = .ok b ∧ Reads Zones.asiaManila t w ∧
    b.cal.isOpenOnMinute t true = .ok true ∧ ShowsDate 0 w (dayOf 2019 10 16) :=
  date_case (dayOf 2019 10 16) c61_xphs c54_xphs_zone c64_xphs (daily_in (es := []) fun _ _ h => absurd h id) (by decide +kernel)
    (rules_of_check xphs_check) (by decide +kernel) (by decide) (by decide) (by decide)

/-- C93 for `XPRAExchangeCalendar`. -/
theorem c93_xpra : LocalDates Xpra.exchange Zones.europePrague (dayOf 1700 1 2) [] 0 ∧
    UtcDates Xpra.exchange Zones.europePrague (dayOf 1700 1 2) [] (dayOf 1700 1 2) 0 :=
  ⟨localDates_of c64_xpra (daily_in (es := []) fun _ _ h => absurd h id) (by decide +kernel),
    utcDates_of (s' := 0) (hm 0 0) (hm 2 0) c64_xpra clear_europePrague.tame (daily_in (es := []) fun _ _ h => absurd h id) (by decide +kernel)
      (by decide +kernel) (by decide +kernel)⟩

example : ∃ b t w, build (Xpra.exchange.config Zones.europePrague) (dayOf 2019 1 1 * DAY) (dayOf 2019 12 31 * DAY) = .ok b ∧ Reads Zones.europePrague t w ∧
    b.cal.isOpenOnMinute t true = .ok true ∧ ShowsDate 0 w (dayOf 2019 10 16) :=
  date_case (dayOf 2019 10 16) c61_xpra c54_xpra_zone c64_xpra (daily_in (es := []) fun _ _ h => absurd h id) (by decide +kernel)
    (rules_of_check xpra_check) (by decide +kernel) (by decide) (by decide) (by decide)

/-- C93 for `XSESExchangeCalendar`. -/
theorem c93_xses : LocalDates Xses.exchange Zones.asiaSingapore (dayOf 1700 1 2) [] 0 ∧
    UtcDates Xses.exchange Zones.asiaSingapore (dayOf 1700 1 2) [] (dayOf 1700 1 2) 0 :=
  ⟨localDates_of c64_xses (daily_in (es := []) fun _ _ h => absurd h id) (by decide +kernel),
    utcDates_of (s' := 0) (hm 6 55) (hm 9 0) c64_xses clear_asiaSingapore.tame (daily_in (es := []) fun _ _ h => absurd h id) (by decide +kernel)
      (by decide +kernel) (by decide +kernel)⟩

example : ∃ b t w, build (Xses.exchange.config Zones.asiaSingapore) (dayOf 2019 1 1 * DAY) (dayOf 2019 12 31 * DAY) = .ok b ∧ Reads Zones.asiaSingapore t w ∧
    b.cal.isOpenOnMinute t true = .ok true ∧ ShowsDate 0 w (dayOf 2019 10 16) :=
  date_case (dayOf 2019 10 16) c61_xses c54_xses_zone c64_xses (daily_in (es := []) fun _ _ h => absurd h id) (by decide +kernel)
    (rules_of_check xses_check) (by decide +kernel) (by decide) (by decide) (by decide)

/-- C93 for `XSGOExchangeCalendar`. -/
theorem c93_xsgo : LocalDates Xsgo.exchange Zones.americaSantiago (dayOf 1700 1 2) [] 0 ∧
    UtcDates Xsgo.exchange Zones.americaSantiago (dayOf 1700 1 2) [] (dayOf 1700 1 2) 0 :=
  ⟨localDates_of c64_xsgo ⟨fun d _ => always_in (d := d), fun _ _ => santiago_in, fun _ _ => book_in⟩ (by decide +kernel),
    utcDates_of (s' := 0) (-hm 5 0) (-hm 3 0) c64_xsgo clear_americaSantiago.tame ⟨fun d _ => always_in (d := d), fun _ _ => santiago_in, fun _ _ => book_in⟩ (by decide +kernel)
      (by decide +kernel) (by decide +kernel)⟩

example : ∃ b t w, build (Xsgo.exchange.config Zones.americaSantiago) (dayOf 2019 1 1 * DAY) (dayOf 2019 12 31 * DAY) = .ok b ∧ Reads Zones.americaSantiago t w ∧
    b.cal.isOpenOnMinute t true = .ok true ∧ ShowsDate 0 w (dayOf 2019 10 16) :=
  date_case (dayOf 2019 10 16) c61_xsgo c54_xsgo_zone c64_xsgo ⟨fun d _ => always_in (d := d), fun _ _ => santiago_in, fun _ _ => book_in⟩ (by decide +kernel)
    (rules_of_check xsgo_check) (by decide +kernel) (by decide) (by decide) (by decide)

/-- C93 for `XSHGExchangeCalendar`. -/
theorem c93_xshg : LocalDates Xshg.exchange Zones.asiaShanghai (dayOf 1700 1 2) [] 0 ∧
    UtcDates Xshg.exchange Zones.asiaShanghai (dayOf 1700 1 2) [] (dayOf 1700 1 2) 0 :=
  ⟨localDates_of c64_xshg (daily_in (es := []) fun _ _ h => absurd h id) (by decide +kernel),
    utcDates_of (s' := 0) (hm 8 0) (hm 9 0) c64_xshg clear_asiaShanghai.tame (daily_in (es := []) fun _ _ h => absurd h id) (by decide +kernel)
      (by decide +kernel) (by decide +kernel)⟩

example : ∃ b t w, build (Xshg.exchange.config Zones.asiaShanghai) (dayOf 2019 1 1 * DAY) (dayOf 2019 12 31 * DAY) = .ok b ∧ Reads Zones.asiaShanghai t w ∧
    b.cal.isOpenOnMinute t true = .ok true ∧ ShowsDate 0 w (dayOf 2019 10 16) :=
  date_case (dayOf 2019 10 16) c61_xshg c54_xshg_zone c64_xshg (daily_in (es := []) fun _ _ h => absurd h id) (by decide +kernel)
    (rules_of_check xshg_check) (by decide +kernel) (by decide) (by decide) (by decide)

/-- C93 for `XSTOExchangeCalendar`. -/
theorem c93_xsto : LocalDates Xsto.exchange Zones.europeStockholm (dayOf 1700 1 2) [] 0 ∧
    UtcDates Xsto.exchange Zones.europeStockholm (dayOf 1700 1 2) [] (dayOf 1700 1 2) 0 :=
  ⟨localDates_of c64_xsto (daily_in fun _ _ => book_in) (by decide +kernel),
    utcDates_of (s' := 0) (hm 1 0) (hm 2 0) c64_xsto clear_europeStockholm.tame (daily_in fun _ _ => book_in) (by decide +kernel)
      (by decide +kernel) (by decide +kernel)⟩

example : ∃ b t w, build (Xsto.exchange.config Zones.europeStockholm) (dayOf 2019 1 1 * DAY) (dayOf 2019 12 31 * DAY) = .ok b ∧ Reads Zones.europeStockholm t w ∧
    b.cal.isOpenOnMinute t true = .ok true ∧ ShowsDate 0 w (dayOf 2019 10 16) :=
  date_case (dayOf 2019 10 16) c61_xsto c54_xsto_zone c64_xsto (daily_in fun _ _ => book_in) (by decide +kernel)
    (rules_of_check xsto_check) (by decide +kernel) (by decide) (by decide) (by decide)

/-- C93 for `XSWXExchangeCalendar`. -/
theorem c93_xswx : LocalDates Xswx.exchange Zones.europeZurich (dayOf 1700 1 2) [] 0 ∧
    UtcDates Xswx.exchange Zones.europeZurich (dayOf 1700 1 2) [] (dayOf 1700 1 2) 0 :=
  ⟨localDates_of c64_xswx (daily_in (es := []) fun _ _ h => absurd h id) (by decide +kernel),
    utcDates_of (s' := 0) (hm 0 34) (hm 2 0) c64_xswx clear_europeZurich.tame (daily_in (es := []) fun _ _ h => absurd h id) (by decide +kernel)
      (by decide +kernel) (by decide +kernel)⟩

example : ∃ b t w, build (Xswx.exchange.config Zones.europeZurich) (dayOf 2019 1 1 * DAY) (dayOf 2019 12 31 * DAY) = .ok b ∧ Reads Zones.europeZurich t w ∧
    b.cal.isOpenOnMinute t true = .ok true ∧ ShowsDate 0 w (dayOf 2019 10 16) :=
  date_case (dayOf 2019 10 16) c61_xswx c54_xswx_zone c64_xswx (daily_in (es := []) fun _ _ h => absurd h id) (by decide +kernel)
    (rules_of_check xswx_check) (by decide +kernel) (by decide) (by decide) (by decide)

/-- C93 for `XTAEExchangeCalendar`. -/
theorem c93_xtae : LocalDates Xtae.exchange Zones.asiaTelAviv (dayOf 1700 1 2) [] 0 ∧
    UtcDates Xtae.exchange Zones.asiaTelAviv (dayOf 1700 1 2) [] (dayOf 1700 1 2) 0 :=
  ⟨localDates_of c64_xtae (daily_in (es := []) fun _ _ h => absurd h id) (by decide +kernel),
    utcDates_of (s' := 0) (hm 2 0) (hm 4 0) c64_xtae clear_asiaTelAviv.tame (daily_in (es := []) fun _ _ h => absurd h id) (by decide +kernel)
      (by decide +kernel) (by decide +kernel)⟩

example : ∃ b t w, build (Xtae.exchange.config Zones.asiaTelAviv) (dayOf 2019 1 1 * DAY) (dayOf 2019 12 31 * DAY) = .ok b ∧ Reads Zones.asiaTelAviv t w ∧
    b.cal.isOpenOnMinute t true = .ok true ∧ ShowsDate 0 w (dayOf 2019 10 16) :=
  date_case (dayOf 2019 10 16) c61_xtae c54_xtae_zone c64_xtae (daily_in (es := []) fun _ _ h => absurd h id) (by decide +kernel)
    xtae_good (by decide +kernel) (by decide) (by decide) (by decide)

/-- C93 for `XTAIExchangeCalendar`. -/
theorem c93_xtai : LocalDates Xtai.exchange Zones.asiaTaipei (dayOf 1700 1 2) [] 0 ∧
    UtcDates Xtai.exchange Zones.asiaTaipei (dayOf 1700 1 2) [] (dayOf 1700 1 2) 0 :=
  ⟨localDates_of c64_xtai (daily_in (es := []) fun _ _ h => absurd h id) (by decide +kernel),
    utcDates_of (s' := 0) (hm 8 0) (hm 9 0) c64_xtai clear_asiaTaipei.tame (daily_in (es := []) fun _ _ h => absurd h id) (by decide +kernel)
      (by decide +kernel) (by decide +kernel)⟩

example : ∃ b t w, build (Xtai.exchange.config Zones.asiaTaipei) (dayOf 2019 1 1 * DAY) (dayOf 2019 12 31 * DAY) = .ok b ∧ Reads Zones.asiaTaipei t w ∧
    b.cal.isOpenOnMinute t true = .ok true ∧ ShowsDate 0 w (dayOf 2019 10 16) :=
  date_case (dayOf 2019 10 16) c61_xtai c54_xtai_zone c64_xtai (daily_in (es := []) fun _ _ h => absurd h id) (by decide +kernel)
    (rules_of_check xtai_check) (by decide +kernel) (by decide) (by decide) (by decide)

/-- C93 for `XTKSExchangeCalendar`: not in the summers of 1948 to 1951, when the session opens on the day before in UTC. -/
theorem c93_xtks : LocalDates Xtks.exchange Zones.asiaTokyo (dayOf 1700 1 2) [] 0 ∧
    UtcDates Xtks.exchange Zones.asiaTokyo (dayOf 1700 1 2) [] (dayOf 1951 9 9) 0 ∧
    OpensDayBefore Xtks.exchange Zones.asiaTokyo (dayOf 1700 1 2) [] (dayOf 1950 6 1) :=
  ⟨localDates_of c64_xtks (daily_in (es := []) fun _ _ h => absurd h id) (by decide +kernel),
    utcDates_of (s' := 0) (hm 9 0) (hm 9 0) c64_xtks clear_asiaTokyo.tame (daily_in (es := []) fun _ _ h => absurd h id) (by decide +kernel)
      (by decide +kernel) (by decide +kernel),
    dayBefore_on (s := 0) (dayOf 1950 5 31 * DAY + hm 23 1) c61_xtks c54_xtks_zone c64_xtks (daily_in (es := []) fun _ _ h => absurd h id) (by decide +kernel)
      (rules_of_check xtks_check) clear_asiaTokyo.tame (by decide +kernel) (by decide +kernel) (by decide +kernel)⟩

example : ∃ b t w, build (Xtks.exchange.config Zones.asiaTokyo) (dayOf 2019 1 1 * DAY) (dayOf 2019 12 31 * DAY) = .ok b ∧ Reads Zones.asiaTokyo t w ∧
    b.cal.isOpenOnMinute t true = .ok true ∧ ShowsDate 0 w (dayOf 2019 10 16) :=
  date_case (dayOf 2019 10 16) c61_xtks c54_xtks_zone c64_xtks (daily_in (es := []) fun _ _ h => absurd h id) (by decide +kernel)
    (rules_of_check xtks_check) (by decide +kernel) (by decide) (by decide) (by decide)

/-- C93 for `XTSEExchangeCalendar`. -/
theorem c93_xtse : LocalDates Xtse.exchange Zones.americaToronto (dayOf 1901 12 15) [] 0 ∧
    UtcDates Xtse.exchange Zones.americaToronto (dayOf 1901 12 15) [] (dayOf 1901 12 15) 0 :=
  ⟨localDates_of c64_xtse (daily_in fun _ _ => book_in) (by decide +kernel),
    utcDates_of (s' := 0) (-hm 5 0) (-hm 4 0) c64_xtse clear_americaToronto.tame (daily_in fun _ _ => book_in) (by decide +kernel)
      (by decide +kernel) (by decide +kernel)⟩

example : ∃ b t w, build (Xtse.exchange.config Zones.americaToronto) (dayOf 2019 1 1 * DAY) (dayOf 2019 12 31 * DAY) = .ok b ∧ Reads Zones.americaToronto t w ∧
    b.cal.isOpenOnMinute t true = .ok true ∧ ShowsDate 0 w (dayOf 2019 10 16) :=
  date_case (dayOf 2019 10 16) c61_xtse c54_xtse_zone c64_xtse (daily_in fun _ _ => book_in) (by decide +kernel)
    (rules_of_check xtse_check) (by decide +kernel) (by decide) (by decide) (by decide)

/-- C93 for `XWARExchangeCalendar`. -/
theorem c93_xwar : LocalDates Xwar.exchange Zones.europeWarsaw (dayOf 1700 1 2) [] 0 ∧
    UtcDates Xwar.exchange Zones.europeWarsaw (dayOf 1700 1 2) [] (dayOf 1700 1 2) 0 :=
  ⟨localDates_of c64_xwar (daily_in (es := []) fun _ _ h => absurd h id) (by decide +kernel),
    utcDates_of (s' := 0) (hm 1 0) (hm 3 0) c64_xwar clear_europeWarsaw.tame (daily_in (es := []) fun _ _ h => absurd h id) (by decide +kernel)
      (by decide +kernel) (by decide +kernel)⟩

example : ∃ b t w, build (Xwar.exchange.config Zones.europeWarsaw) (dayOf 2019 1 1 * DAY) (dayOf 2019 12 31 * DAY) = .ok b ∧ Reads Zones.europeWarsaw t w ∧
    b.cal.isOpenOnMinute t true = .ok true ∧ ShowsDate 0 w (dayOf 2019 10 16) :=
  date_case (dayOf 2019 10 16) c61_xwar c54_xwar_zone c64_xwar (daily_in (es := []) fun _ _ h => absurd h id) (by decide +kernel)
    (rules_of_check xwar_check) (by decide +kernel) (by decide) (by decide) (by decide)

/-- C93 for `XWBOExchangeCalendar`. -/
theorem c93_xwbo : LocalDates Xwbo.exchange Zones.europeVienna (dayOf 1700 1 2) [] 0 ∧
    UtcDates Xwbo.exchange Zones.europeVienna (dayOf 1700 1 2) [] (dayOf 1700 1 2) 0 :=
  ⟨localDates_of c64_xwbo (daily_in (es := []) fun _ _ h => absurd h id) (by decide +kernel),
    utcDates_of (s' := 0) (hm 1 0) (hm 2 0) c64_xwbo clear_europeVienna.tame (daily_in (es := []) fun _ _ h => absurd h id) (by decide +kernel)
      (by decide +kernel) (by decide +kernel)⟩

example : ∃ b t w, build (Xwbo.exchange.config Zones.europeVienna) (dayOf 2019 1 1 * DAY) (dayOf 2019 12 31 * DAY) = .ok b ∧ Reads Zones.europeVienna t w ∧
    b.cal.isOpenOnMinute t true = .ok true ∧ ShowsDate 0 w (dayOf 2019 10 16) :=
  date_case (dayOf 2019 10 16) c61_xwbo c54_xwbo_zone c64_xwbo (daily_in (es := []) fun _ _ h => absurd h id) (by decide +kernel)
    (rules_of_check xwbo_check) (by decide +kernel) (by decide) (by decide) (by decide)

end TC.Props
