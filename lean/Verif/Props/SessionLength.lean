import Verif.Lemmas.SessionLength
import Verif.Props.ByClock

/-!
# How many minutes a session has (C88)

For each exchange: in every calendar built, `minutes_for_session` of a session has the length that the documented
hours give, whatever the clock of the city does.
-/

namespace TC.Props
open Spec Spec.Books Spec.Hours

set_option maxRecDepth 100000

theorem santiago_in {d t : Int} (h : Hours.santiago.closes d t) : t ∈ [hm 16 0, hm 17 0] := by
  obtain ⟨y, m, k, -, h1, h2⟩ := h
  by_cases hc : 1980 ≤ y ∧ y < 2050 ∧ 3 ≤ m ∧ m ≤ 10
  · rw [h1 hc]; simp
  · rw [h2 hc]; simp

/-- C88 for `ASEXExchangeCalendar`. -/
theorem c88_asex : SessionLengths Asex.exchange Zones.europeAthens (dayOf 1979 4 3) [] []
    Hours.athens [420, 440] [] :=
  sessionLengths_of c61_asex c54_asex_zone (steady_exchange asex_check clear_europeAthens.tame (by decide +kernel))
    ⟨by rintro d t t' rfl rfl; rfl, changed_unique, fun _ h => by cases h⟩ (by decide) clear_europeAthens (by decide) ⟨fun d _ => always_in (d := d), fun _ _ => changed_in, (fun _ _ h => absurd h id : ∀ d t, False → t ∈ [])⟩ (by decide +kernel)

/-- C88 for `BVMFExchangeCalendar`. -/
theorem c88_bvmf : SessionLengths Bvmf.exchange Zones.americaSaoPaulo (dayOf 1931 10 5) [] []
    Hours.saoPaulo [420, 480] [] :=
  sessionLengths_of c61_bvmf c54_bvmf_zone (steady_exchange bvmf_check clear_americaSaoPaulo.tame (by decide +kernel))
    ⟨by rintro d t t' rfl rfl; rfl, changed_unique, fun _ h => by cases h⟩ (by decide) clear_americaSaoPaulo (by decide) ⟨fun d _ => always_in (d := d), fun _ _ => changed_in, (fun _ _ h => absurd h id : ∀ d t, False → t ∈ [])⟩ (by decide +kernel)

/-- C88 for `CMESExchangeCalendar`. -/
theorem c88_cmes : SessionLengths Cmes.exchange Zones.americaChicago (dayOf 1901 12 15) [] [dayOf 1942 2 9]
    Hours.cme [1440] [1140] :=
  sessionLengths_evening (lo := -hm 7 0) (hi := hm 17 0) c61_cmes c54_cmes_zone (steady_exchange cmes_check clear_americaChicago.tame (by decide +kernel))
    oneTime_daily (by decide) (by decide +kernel) (by decide) (by decide) (daily_in fun _ _ => book_in) (by decide +kernel)

/-- C88 for `IEPAExchangeCalendar`. -/
theorem c88_iepa : SessionLengths Iepa.exchange Zones.americaNewYork (dayOf 1901 12 15) [] [dayOf 1942 2 9]
    Hours.ice [1320] [1020] :=
  sessionLengths_evening (lo := -hm 4 0) (hi := hm 18 0) c61_iepa c54_iepa_zone (steady_exchange iepa_check clear_americaNewYork.tame (by decide +kernel))
    oneTime_daily (by decide) (by decide +kernel) (by decide) (by decide) (daily_in fun _ _ => book_in) (by decide +kernel)

/-- C88 for `QuantopianUSFuturesCalendar`. -/
theorem c88_usFuturesCalendar : SessionLengths UsFuturesCalendar.exchange Zones.americaNewYork (dayOf 1901 12 15) [] [dayOf 1942 2 9]
    Hours.usFutures [1440] [] :=
  sessionLengths_evening (lo := -hm 6 0) (hi := hm 18 0) c61_usFuturesCalendar c54_usFuturesCalendar_zone (steady_exchange usFuturesCalendar_check clear_americaNewYork.tame (by decide +kernel))
    oneTime_daily (by decide) (by decide +kernel) (by decide) (by decide) (daily_in (es := []) fun _ _ h => absurd h id) (by decide +kernel)

/-- C88 for `XAMSExchangeCalendar`. -/
theorem c88_xams : SessionLengths Xams.exchange Zones.europeAmsterdam (dayOf 1700 1 2) [] []
    (Hours.daily (hm 9 1) (hm 17 30) (EarlyByBook euronextEarly [])) [510] [305] :=
  sessionLengths_of c61_xams c54_xams_zone (steady_exchange xams_check clear_europeAmsterdam.tame (by decide +kernel))
    oneTime_daily (by decide) clear_europeAmsterdam (by decide) (daily_in fun _ _ => book_in) (by decide +kernel)

/-- C88 for `XASXExchangeCalendar`. -/
theorem c88_xasx : SessionLengths Xasx.exchange Zones.australiaSydney (dayOf 1700 1 2) [] []
    (Hours.daily (hm 10 1) (hm 16 0) (EarlyByBook sydneyEarly [])) [360] [250] :=
  sessionLengths_of c61_xasx c54_xasx_zone (steady_exchange xasx_check clear_australiaSydney.tame (by decide +kernel))
    oneTime_daily (by decide) clear_australiaSydney (by decide) (daily_in fun _ _ => book_in) (by decide +kernel)

/-- C88 for `XBKKExchangeCalendar`. -/
theorem c88_xbkk : SessionLengths Xbkk.exchange Zones.asiaBangkok (dayOf 1700 1 2) [] []
    (Hours.daily (hm 10 1) (hm 16 30)) [390] [] :=
  sessionLengths_of c61_xbkk c54_xbkk_zone (steady_exchange xbkk_check clear_asiaBangkok.tame (by decide +kernel))
    oneTime_daily (by decide) clear_asiaBangkok (by decide) (daily_in (es := []) fun _ _ h => absurd h id) (by decide +kernel)

/-- C88 for `XBOGExchangeCalendar`. -/
theorem c88_xbog : SessionLengths Xbog.exchange Zones.americaNewYork (dayOf 1901 12 15) [] []
    (Hours.daily (hm 9 31) (hm 16 0)) [390] [] :=
  sessionLengths_of c61_xbog c54_xbog_zone (steady_exchange xbog_check clear_americaNewYork.tame (by decide +kernel))
    oneTime_daily (by decide) clear_americaNewYork (by decide) (daily_in (es := []) fun _ _ h => absurd h id) (by decide +kernel)

/-- C88 for `XBOMExchangeCalendar`. -/
theorem c88_xbom : SessionLengths Xbom.exchange Zones.asiaCalcutta (dayOf 1700 1 2) [] []
    (Hours.daily (hm 9 16) (hm 15 30)) [375] [] :=
  sessionLengths_of c61_xbom c54_xbom_zone (steady_exchange xbom_check clear_asiaCalcutta.tame (by decide +kernel))
    oneTime_daily (by decide) clear_asiaCalcutta (by decide) (daily_in (es := []) fun _ _ h => absurd h id) (by decide +kernel)

/-- C88 for `XBRUExchangeCalendar`. -/
theorem c88_xbru : SessionLengths Xbru.exchange Zones.europeBrussels (dayOf 1918 11 13) [] []
    (Hours.daily (hm 9 1) (hm 17 30) (EarlyByBook euronextEarly [])) [510] [305] :=
  sessionLengths_of c61_xbru c54_xbru_zone (steady_exchange xbru_check clear_europeBrussels.tame (by decide +kernel))
    oneTime_daily (by decide) clear_europeBrussels (by decide) (daily_in fun _ _ => book_in) (by decide +kernel)

/-- C88 for `XBUDExchangeCalendar`. -/
theorem c88_xbud : SessionLengths Xbud.exchange Zones.europeBudapest (dayOf 1700 1 2) [] []
    (Hours.daily (hm 9 1) (hm 17 0)) [480] [] :=
  sessionLengths_of c61_xbud c54_xbud_zone (steady_exchange xbud_check clear_europeBudapest.tame (by decide +kernel))
    oneTime_daily (by decide) clear_europeBudapest (by decide) (daily_in (es := []) fun _ _ h => absurd h id) (by decide +kernel)

/-- C88 for `XBUEExchangeCalendar`. -/
theorem c88_xbue : SessionLengths Xbue.exchange Zones.americaArgentinaBuenosAires (dayOf 1901 12 15) [] []
    (Hours.daily (hm 11 1) (hm 17 0) (EarlyByBook buenosAiresEarly [])) [360] [120] :=
  sessionLengths_of c61_xbue c54_xbue_zone (steady_exchange xbue_check clear_americaArgentinaBuenosAires.tame (by decide +kernel))
    oneTime_daily (by decide) clear_americaArgentinaBuenosAires (by decide) (daily_in fun _ _ => book_in) (by decide +kernel)

/-- C88 for `XCBFExchangeCalendar`. -/
theorem c88_xcbf : SessionLengths Xcbf.exchange Zones.americaChicago (dayOf 1901 12 15) [] []
    (Hours.daily (hm 8 31) (hm 15 15) (EarlyByBook cboeEarly [])) [405] [225] :=
  sessionLengths_of c61_xcbf c54_xcbf_zone (steady_exchange xcbf_check clear_americaChicago.tame (by decide +kernel))
    oneTime_daily (by decide) clear_americaChicago (by decide) (daily_in fun _ _ => book_in) (by decide +kernel)

/-- C88 for `XCSEExchangeCalendar`. -/
theorem c88_xcse : SessionLengths Xcse.exchange Zones.europeCopenhagen (dayOf 1700 1 2) [] []
    (Hours.daily (hm 9 1) (hm 17 0)) [480] [] :=
  sessionLengths_of c61_xcse c54_xcse_zone (steady_exchange xcse_check clear_europeCopenhagen.tame (by decide +kernel))
    oneTime_daily (by decide) clear_europeCopenhagen (by decide) (daily_in (es := []) fun _ _ h => absurd h id) (by decide +kernel)

/-- C88 for `XDUBExchangeCalendar`. -/
theorem c88_xdub : SessionLengths Xdub.exchange Zones.europeDublin (dayOf 1700 1 2) [] []
    (Hours.daily (hm 8 1) (hm 16 28) (EarlyByBook dublinEarly dublinSingle)) [508] [268] :=
  sessionLengths_of c61_xdub c54_xdub_zone (steady_exchange xdub_check clear_europeDublin.tame (by decide +kernel))
    oneTime_daily (by decide) clear_europeDublin (by decide) (daily_in fun _ _ => book_in) (by decide +kernel)

/-- C88 for `XETRExchangeCalendar`. -/
theorem c88_xetr : SessionLengths Xetr.exchange Zones.cet (dayOf 1700 1 2) [] []
    (Hours.daily (hm 9 1) (hm 17 30) (EarlyByBook xetraEarly [])) [510] [300] :=
  sessionLengths_of c61_xetr c54_xetr_zone (steady_exchange xetr_check clear_cet.tame (by decide +kernel))
    oneTime_daily (by decide) clear_cet (by decide) (daily_in fun _ _ => book_in) (by decide +kernel)

/-- C88 for `XFRAExchangeCalendar`. -/
theorem c88_xfra : SessionLengths Xfra.exchange Zones.cet (dayOf 1700 1 2) [] []
    (Hours.daily (hm 9 1) (hm 17 30) (EarlyByBook frankfurtEarly [])) [510] [210] :=
  sessionLengths_of c61_xfra c54_xfra_zone (steady_exchange xfra_check clear_cet.tame (by decide +kernel))
    oneTime_daily (by decide) clear_cet (by decide) (daily_in fun _ _ => book_in) (by decide +kernel)

/-- C88 for `XHELExchangeCalendar`. -/
theorem c88_xhel : SessionLengths Xhel.exchange Zones.europeHelsinki (dayOf 1700 1 2) [] []
    (Hours.daily (hm 10 1) (hm 18 30)) [510] [] :=
  sessionLengths_of c61_xhel c54_xhel_zone (steady_exchange xhel_check clear_europeHelsinki.tame (by decide +kernel))
    oneTime_daily (by decide) clear_europeHelsinki (by decide) (daily_in (es := []) fun _ _ h => absurd h id) (by decide +kernel)

/-- C88 for `XHKGExchangeCalendar`. -/
theorem c88_xhkg : SessionLengths Xhkg.exchange Zones.asiaHongKong (dayOf 1700 1 2) [] []
    Hours.hongKong [302, 332] [120, 150, 180] :=
  sessionLengths_of c61_xhkg c54_xhkg_zone (steady_exchange xhkg_check clear_asiaHongKong.tame (by decide +kernel))
    ⟨changed_unique, by rintro d t t' rfl rfl; rfl, by rintro p h; cases h; decide⟩ (by decide) clear_asiaHongKong (by decide) ⟨fun _ _ => changed_in, fun d _ => always_in (d := d), fun _ _ => feasts_in⟩ (by decide +kernel)

/-- C88 for `XICEExchangeCalendar`. -/
theorem c88_xice : SessionLengths Xice.exchange Zones.atlanticReykjavik (dayOf 1700 1 2) [] []
    (Hours.daily (hm 9 31) (hm 15 30)) [360] [] :=
  sessionLengths_of c61_xice c54_xice_zone (steady_exchange xice_check clear_atlanticReykjavik.tame (by decide +kernel))
    oneTime_daily (by decide) clear_atlanticReykjavik (by decide) (daily_in (es := []) fun _ _ h => absurd h id) (by decide +kernel)

/-- C88 for `XIDXExchangeCalendar`. -/
theorem c88_xidx : SessionLengths Xidx.exchange Zones.asiaJakarta (dayOf 1700 1 2) [] []
    (Hours.daily (hm 9 1) (hm 15 50)) [410] [] :=
  sessionLengths_of c61_xidx c54_xidx_zone (steady_exchange xidx_check clear_asiaJakarta.tame (by decide +kernel))
    oneTime_daily (by decide) clear_asiaJakarta (by decide) (daily_in (es := []) fun _ _ h => absurd h id) (by decide +kernel)

/-- C88 for `XISTExchangeCalendar`. -/
theorem c88_xist : SessionLengths Xist.exchange Zones.europeIstanbul (dayOf 1700 1 2) [dayOf 2029 4 23] []
    (Hours.daily (hm 10 1) (hm 18 0) (EarlyForFeasts istanbulEarly istanbulEves istanbulFullEves)) [480] [150] :=
  sessionLengths_of c61_xist c54_xist_zone (steady_exchange xist_check clear_europeIstanbul.tame (by decide +kernel))
    oneTime_daily (by decide) clear_europeIstanbul (by decide) (daily_in fun _ _ => feasts_in) (by decide +kernel)

/-- C88 for `XJSEExchangeCalendar`. -/
theorem c88_xjse : SessionLengths Xjse.exchange Zones.africaJohannesburg (dayOf 1700 1 2) [] []
    (Hours.daily (hm 9 1) (hm 17 0)) [480] [] :=
  sessionLengths_of c61_xjse c54_xjse_zone (steady_exchange xjse_check clear_africaJohannesburg.tame (by decide +kernel))
    oneTime_daily (by decide) clear_africaJohannesburg (by decide) (daily_in (es := []) fun _ _ h => absurd h id) (by decide +kernel)

/-- C88 for `XKARExchangeCalendar`. -/
theorem c88_xkar : SessionLengths Xkar.exchange Zones.asiaKarachi (dayOf 1700 1 2) [] []
    (Hours.daily (hm 9 33) (hm 15 30)) [358] [] :=
  sessionLengths_of c61_xkar c54_xkar_zone (steady_exchange xkar_check clear_asiaKarachi.tame (by decide +kernel))
    oneTime_daily (by decide) clear_asiaKarachi (by decide) (daily_in (es := []) fun _ _ h => absurd h id) (by decide +kernel)

/-- C88 for `XKLSExchangeCalendar`. -/
theorem c88_xkls : SessionLengths Xkls.exchange Zones.asiaKualaLumpur (dayOf 1700 1 2) [dayOf 1984 2 1, dayOf 2029 2 13, dayOf 2031 1 23, dayOf 2049 2 1] []
    (Hours.daily (hm 9 1) (hm 17 0) (EarlyForFeasts [] kualaLumpurEves kualaLumpurFullEves)) [480] [210] :=
  sessionLengths_of c61_xkls c54_xkls_zone (steady_exchange xkls_check clear_asiaKualaLumpur.tame (by decide +kernel))
    oneTime_daily (by decide) clear_asiaKualaLumpur (by decide) (daily_in fun _ _ => feasts_in) (by decide +kernel)

/-- C88 for `XKRXExchangeCalendar`. -/
theorem c88_xkrx : SessionLengths Xkrx.exchange Zones.asiaSeoul (dayOf 1700 1 2) [] []
    (Hours.daily (hm 9 1) (hm 15 30)) [390] [] :=
  sessionLengths_of c61_xkrx c54_xkrx_zone (steady_exchange xkrx_check clear_asiaSeoul.tame (by decide +kernel))
    oneTime_daily (by decide) clear_asiaSeoul (by decide) (daily_in (es := []) fun _ _ h => absurd h id) (by decide +kernel)

/-- C88 for `XLIMExchangeCalendar`. -/
theorem c88_xlim : SessionLengths Xlim.exchange Zones.americaLima (dayOf 1901 12 15) [] []
    (Hours.daily (hm 9 1) (hm 16 0)) [420] [] :=
  sessionLengths_of c61_xlim c54_xlim_zone (steady_exchange xlim_check clear_americaLima.tame (by decide +kernel))
    oneTime_daily (by decide) clear_americaLima (by decide) (daily_in (es := []) fun _ _ h => absurd h id) (by decide +kernel)

/-- C88 for `XLISExchangeCalendar`. -/
theorem c88_xlis : SessionLengths Xlis.exchange Zones.europeLisbon (dayOf 1700 1 2) [] []
    (Hours.daily (hm 8 1) (hm 16 30) (EarlyByBook lisbonEarly [])) [510] [305] :=
  sessionLengths_of c61_xlis c54_xlis_zone (steady_exchange xlis_check clear_europeLisbon.tame (by decide +kernel))
    oneTime_daily (by decide) clear_europeLisbon (by decide) (daily_in fun _ _ => book_in) (by decide +kernel)

/-- C88 for `XLONExchangeCalendar`. -/
theorem c88_xlon : SessionLengths Xlon.exchange Zones.europeLondon (dayOf 1901 12 15) [] []
    (Hours.daily (hm 8 1) (hm 16 30) (EarlyByBook londonEarly [])) [510] [270] :=
  sessionLengths_of c61_xlon c54_xlon_zone (steady_exchange xlon_check clear_europeLondon.tame (by decide +kernel))
    oneTime_daily (by decide) clear_europeLondon (by decide) (daily_in fun _ _ => book_in) (by decide +kernel)

/-- C88 for `XMADExchangeCalendar`. -/
theorem c88_xmad : SessionLengths Xmad.exchange Zones.europeMadrid (dayOf 1901 12 15) [] []
    (Hours.daily (hm 9 1) (hm 17 30) (EarlyByBook madridEarly [])) [510] [300] :=
  sessionLengths_of c61_xmad c54_xmad_zone (steady_exchange xmad_check clear_europeMadrid.tame (by decide +kernel))
    oneTime_daily (by decide) clear_europeMadrid (by decide) (daily_in fun _ _ => book_in) (by decide +kernel)

/-- C88 for `XMEXExchangeCalendar`. -/
theorem c88_xmex : SessionLengths Xmex.exchange Zones.americaMexicoCity (dayOf 1700 1 2) [] []
    (Hours.daily (hm 8 31) (hm 15 0)) [390] [] :=
  sessionLengths_of c61_xmex c54_xmex_zone (steady_exchange xmex_check clear_americaMexicoCity.tame (by decide +kernel))
    oneTime_daily (by decide) clear_americaMexicoCity (by decide) (daily_in (es := []) fun _ _ h => absurd h id) (by decide +kernel)

/-- C88 for `XMILExchangeCalendar`. -/
theorem c88_xmil : SessionLengths Xmil.exchange Zones.europeRome (dayOf 1700 1 2) [] []
    (Hours.daily (hm 9 1) (hm 17 30)) [510] [] :=
  sessionLengths_of c61_xmil c54_xmil_zone (steady_exchange xmil_check clear_europeRome.tame (by decide +kernel))
    oneTime_daily (by decide) clear_europeRome (by decide) (daily_in (es := []) fun _ _ h => absurd h id) (by decide +kernel)

/-- C88 for `XMOSExchangeCalendar`. -/
theorem c88_xmos : SessionLengths Xmos.exchange Zones.europeMoscow (dayOf 1700 1 2) [] []
    (Hours.daily (hm 10 1) (hm 18 45)) [525] [] :=
  sessionLengths_of c61_xmos c54_xmos_zone (steady_exchange xmos_check clear_europeMoscow.tame (by decide +kernel))
    oneTime_daily (by decide) clear_europeMoscow (by decide) (daily_in (es := []) fun _ _ h => absurd h id) (by decide +kernel)

/-- C88 for `XNYSExchangeCalendar`. -/
theorem c88_xnys : SessionLengths Xnys.exchange Zones.americaNewYork (dayOf 1901 12 15) [dayOf 1945 12 24, dayOf 1956 12 24] []
    (Hours.daily (hm 9 31) (hm 16 0) (EarlyByBook newYorkEarly newYorkSingle)) [390] [210, 270] :=
  sessionLengths_of c61_xnys c54_xnys_zone (steady_exchange xnys_check clear_americaNewYork.tame (by decide +kernel))
    oneTime_daily (by decide) clear_americaNewYork (by decide) (daily_in fun _ _ => book_in) (by decide +kernel)

/-- C88 for `XNZEExchangeCalendar`. -/
theorem c88_xnze : SessionLengths Xnze.exchange Zones.nz (dayOf 1901 12 16) [] []
    (Hours.daily (hm 10 1) (hm 16 45) (EarlyByBook wellingtonEarly [])) [405] [165] :=
  sessionLengths_of c61_xnze c54_xnze_zone (steady_exchange xnze_check clear_nz.tame (by decide +kernel))
    oneTime_daily (by decide) clear_nz (by decide) (daily_in fun _ _ => book_in) (by decide +kernel)

/-- C88 for `XOSLExchangeCalendar`. -/
theorem c88_xosl : SessionLengths Xosl.exchange Zones.europeOslo (dayOf 1700 1 2) [] []
    (Hours.daily (hm 9 1) (hm 16 20) (EarlyByBook osloEarly [])) [440] [240] :=
  sessionLengths_of c61_xosl c54_xosl_zone (steady_exchange xosl_check clear_europeOslo.tame (by decide +kernel))
    oneTime_daily (by decide) clear_europeOslo (by decide) (daily_in fun _ _ => book_in) (by decide +kernel)

/-- C88 for `XPARExchangeCalendar`. -/
theorem c88_xpar : SessionLengths Xpar.exchange Zones.europeParis (dayOf 1700 1 2) [] []
    (Hours.daily (hm 9 1) (hm 17 30) (EarlyByBook euronextEarly [])) [510] [305] :=
  sessionLengths_of c61_xpar c54_xpar_zone (steady_exchange xpar_check clear_europeParis.tame (by decide +kernel))
    oneTime_daily (by decide) clear_europeParis (by decide) (daily_in fun _ _ => book_in) (by decide +kernel)

/-- C88 for `XPHSExchangeCalendar`. -/
theorem c88_xphs : SessionLengths Xphs.exchange Zones.asiaManila (dayOf 1901 12 15) [] []
    (Hours.daily (hm 9 31) (hm 15 30)) [360] [] :=
  sessionLengths_of c61_xphs c54_xphs_zone (steady_exchange xphs_check clear_asiaManila.tame (by decide +kernel))
    oneTime_daily (by decide) clear_asiaManila (by decide) (daily_in (es := []) fun _ _ h => absurd h id) (by decide +kernel)

/-- C88 for `XPRAExchangeCalendar`. -/
theorem c88_xpra : SessionLengths Xpra.exchange Zones.europePrague (dayOf 1700 1 2) [] []
    (Hours.daily (hm 9 1) (hm 16 20)) [440] [] :=
  sessionLengths_of c61_xpra c54_xpra_zone (steady_exchange xpra_check clear_europePrague.tame (by decide +kernel))
    oneTime_daily (by decide) clear_europePrague (by decide) (daily_in (es := []) fun _ _ h => absurd h id) (by decide +kernel)

/-- C88 for `XSESExchangeCalendar`. -/
theorem c88_xses : SessionLengths Xses.exchange Zones.asiaSingapore (dayOf 1700 1 2) [] []
    (Hours.daily (hm 9 1) (hm 17 0)) [480] [] :=
  sessionLengths_of c61_xses c54_xses_zone (steady_exchange xses_check clear_asiaSingapore.tame (by decide +kernel))
    oneTime_daily (by decide) clear_asiaSingapore (by decide) (daily_in (es := []) fun _ _ h => absurd h id) (by decide +kernel)

/-- C88 for `XSGOExchangeCalendar`. -/
theorem c88_xsgo : SessionLengths Xsgo.exchange Zones.americaSantiago (dayOf 1700 1 2) [] []
    Hours.santiago [390, 450] [180, 240] :=
  sessionLengths_of c61_xsgo c54_xsgo_zone (steady_exchange xsgo_check clear_americaSantiago.tame (by decide +kernel))
    ⟨by rintro d t t' rfl rfl; rfl, santiago_unique, fun _ h => by cases h⟩ (by decide) clear_americaSantiago (by decide) ⟨fun d _ => always_in (d := d), fun _ _ => santiago_in, fun _ _ => book_in⟩ (by decide +kernel)

/-- C88 for `XSHGExchangeCalendar`. -/
theorem c88_xshg : SessionLengths Xshg.exchange Zones.asiaShanghai (dayOf 1700 1 2) [] []
    (Hours.daily (hm 9 31) (hm 15 0)) [330] [] :=
  sessionLengths_of c61_xshg c54_xshg_zone (steady_exchange xshg_check clear_asiaShanghai.tame (by decide +kernel))
    oneTime_daily (by decide) clear_asiaShanghai (by decide) (daily_in (es := []) fun _ _ h => absurd h id) (by decide +kernel)

/-- C88 for `XSTOExchangeCalendar`. -/
theorem c88_xsto : SessionLengths Xsto.exchange Zones.europeStockholm (dayOf 1700 1 2) [] []
    (Hours.daily (hm 9 1) (hm 17 30) (EarlyByBook stockholmEarly [])) [510] [240] :=
  sessionLengths_of c61_xsto c54_xsto_zone (steady_exchange xsto_check clear_europeStockholm.tame (by decide +kernel))
    oneTime_daily (by decide) clear_europeStockholm (by decide) (daily_in fun _ _ => book_in) (by decide +kernel)

/-- C88 for `XSWXExchangeCalendar`. -/
theorem c88_xswx : SessionLengths Xswx.exchange Zones.europeZurich (dayOf 1700 1 2) [] []
    (Hours.daily (hm 9 1) (hm 17 30)) [510] [] :=
  sessionLengths_of c61_xswx c54_xswx_zone (steady_exchange xswx_check clear_europeZurich.tame (by decide +kernel))
    oneTime_daily (by decide) clear_europeZurich (by decide) (daily_in (es := []) fun _ _ h => absurd h id) (by decide +kernel)

/-- C88 for `XTAEExchangeCalendar`. -/
theorem c88_xtae : SessionLengths Xtae.exchange Zones.asiaTelAviv (dayOf 1700 1 2) [] []
    (Hours.daily (hm 10 0) (hm 17 15)) [436] [] :=
  sessionLengths_of c61_xtae c54_xtae_zone (steady_of (timesB_ordered (by decide) _) clear_asiaTelAviv.tame (oneSpecial_exchange
      ⟨by simp [Xtae.exchange, Exchange.specialRules], by simp [Xtae.exchange, Exchange.specialRules]⟩
      (by decide) _) (by decide +kernel))
    oneTime_daily (by decide) clear_asiaTelAviv (by decide) (daily_in (es := []) fun _ _ h => absurd h id) (by decide +kernel)

/-- C88 for `XTAIExchangeCalendar`. -/
theorem c88_xtai : SessionLengths Xtai.exchange Zones.asiaTaipei (dayOf 1700 1 2) [] []
    (Hours.daily (hm 9 1) (hm 13 30)) [270] [] :=
  sessionLengths_of c61_xtai c54_xtai_zone (steady_exchange xtai_check clear_asiaTaipei.tame (by decide +kernel))
    oneTime_daily (by decide) clear_asiaTaipei (by decide) (daily_in (es := []) fun _ _ h => absurd h id) (by decide +kernel)

/-- C88 for `XTKSExchangeCalendar`. -/
theorem c88_xtks : SessionLengths Xtks.exchange Zones.asiaTokyo (dayOf 1700 1 2) [] []
    (Hours.daily (hm 9 1) (hm 15 0)) [360] [] :=
  sessionLengths_of c61_xtks c54_xtks_zone (steady_exchange xtks_check clear_asiaTokyo.tame (by decide +kernel))
    oneTime_daily (by decide) clear_asiaTokyo (by decide) (daily_in (es := []) fun _ _ h => absurd h id) (by decide +kernel)

/-- C88 for `XTSEExchangeCalendar`. -/
theorem c88_xtse : SessionLengths Xtse.exchange Zones.americaToronto (dayOf 1901 12 15) [] []
    (Hours.daily (hm 9 31) (hm 16 0) (EarlyByBook torontoEarly [])) [390] [210] :=
  sessionLengths_of c61_xtse c54_xtse_zone (steady_exchange xtse_check clear_americaToronto.tame (by decide +kernel))
    oneTime_daily (by decide) clear_americaToronto (by decide) (daily_in fun _ _ => book_in) (by decide +kernel)

/-- C88 for `XWARExchangeCalendar`. -/
theorem c88_xwar : SessionLengths Xwar.exchange Zones.europeWarsaw (dayOf 1700 1 2) [] []
    (Hours.daily (hm 9 1) (hm 17 0)) [480] [] :=
  sessionLengths_of c61_xwar c54_xwar_zone (steady_exchange xwar_check clear_europeWarsaw.tame (by decide +kernel))
    oneTime_daily (by decide) clear_europeWarsaw (by decide) (daily_in (es := []) fun _ _ h => absurd h id) (by decide +kernel)

/-- C88 for `XWBOExchangeCalendar`. -/
theorem c88_xwbo : SessionLengths Xwbo.exchange Zones.europeVienna (dayOf 1700 1 2) [] []
    (Hours.daily (hm 9 1) (hm 17 30)) [510] [] :=
  sessionLengths_of c61_xwbo c54_xwbo_zone (steady_exchange xwbo_check clear_europeVienna.tame (by decide +kernel))
    oneTime_daily (by decide) clear_europeVienna (by decide) (daily_in (es := []) fun _ _ h => absurd h id) (by decide +kernel)

/-! ### By name -/

theorem has_of {x : Exchange} {z : Tz} {first start stop : Int} {bad odd : List Int} {T : Timetable}
    {full short : List Nat} {b : Built} (h : SessionLengths x z first bad odd T full short) (h1 : first * DAY ≤ start)
    (hmid : DAY ∣ start) (hbad : ∀ d ∈ bad, d * DAY < start ∨ stop < d * DAY)
    (hb : build (x.config z) start stop = .ok b) (l : Int) (hl : l ∈ b.cal.sessions) :
    ∃ ms, b.cal.minutesForSession l = .ok ms ∧ ((∀ d ∈ odd, l ≠ d * DAY) →
      (l ∉ b.earlyCloses → ms.length ∈ full) ∧ (l ∈ b.earlyCloses → ms.length ∈ short)) := by
  obtain ⟨d, ms, rfl, hms, hlen⟩ := h.keeps start stop b h1 hmid hbad hb l hl
  refine ⟨ms, hms, fun hodd => ?_⟩
  obtain ⟨r1, r2⟩ := hlen (fun hd => hodd d hd rfl)
  exact ⟨fun hn => h.full d _ (r1 hn), fun hy => h.short d _ (r2 hy)⟩

theorem entry_eq {a a' : Int} {b b' c c' : List Int} {d d' e e' : List Nat}
    (h : some (a, b, c, d, e) = some (a', b', c', d', e')) : a = a' ∧ b = b' ∧ c = c' ∧ d = d' ∧ e = e' := by
  cases h
  exact ⟨rfl, rfl, rfl, rfl, rfl⟩

theorem simple_length {cfg : Config} {start stop : Int} {b : Built}
    (h : cfg = { alwaysOpen with weekmask := cfg.weekmask }) (hst : Steady cfg) (h1 : dayOf 1700 1 2 * DAY ≤ start) (hmid : DAY ∣ start)
    (hb : build cfg start stop = .ok b) (l : Int) (hl : l ∈ b.cal.sessions) :
    ∃ ms, b.cal.minutesForSession l = .ok ms ∧ ((∀ d ∈ ([] : List Int), l ≠ d * DAY) →
      (l ∉ b.earlyCloses → ms.length ∈ [1440]) ∧ (l ∈ b.earlyCloses → ms.length ∈ ([] : List Nat))) := by
  have hlow : NP_NAT + 3 * DAY ≤ start := by
    have : NP_NAT + 3 * DAY ≤ dayOf 1700 1 2 * DAY := by decide
    omega
  have hsess : SessionLabel cfg start stop l := by
    obtain ⟨sch, hsch, hc', _⟩ := build_parts hb
    rw [hc'] at hl
    exact ((schedule_labels hsch hmid).2 l).1 hl
  obtain ⟨b', hb', -, hof, hreg, hlab, hrow⟩ := utc_build (cfg := cfg) (start := start) (stop := stop) (by rw [h]; rfl)
    (by rw [h]; rfl) (by rw [h]; rfl) (by rw [h]; rfl) (by rw [h]; rfl) (by rw [h]; rfl) (by rw [h]; rfl)
    ⟨by rw [h]; rfl, by rw [h]; rfl⟩ ⟨by rw [h]; rfl, by rw [h]; rfl⟩ hmid hlow ⟨l, hsess⟩
  rw [hb] at hb'
  cases hb'
  obtain ⟨-, -, hwm⟩ := gap_regular hst hb hmid hlow
  obtain ⟨s, hs, rfl⟩ := List.mem_map.1 ((hlab l).2 hsess)
  obtain ⟨e1, e2, e3⟩ := hrow s hs
  refine ⟨sessMin s, by rw [hof]; exact minutesForSession_eq hreg hwm hs, fun _ => ⟨fun _ => ?_, fun hy => ?_⟩⟩
  · have := length_sessMin_none e3 (hwm s hs) (by rw [e1, e2]; exact Int.le_add_of_nonneg_right (by decide))
    rw [e1, e2] at this
    simp only [MINUTE, hm] at this
    simp only [List.mem_singleton]
    omega
  · obtain ⟨-, u, t, hu, -⟩ := ((c41_lists hb hst.ordered hst.tame hmid hlow).2.2.2 _).1 hy
    rw [h] at hu
    rcases hu with ⟨_, hu, _⟩ | ⟨_, hu, _⟩ <;> simp [alwaysOpen] at hu

/-- C88 for the calendars of the library by name: `minutes_for_session` of every session has one of the lengths that the
table lists for regular sessions, or one of those for early closes if the session is in `early_closes`. -/
theorem c88_default {name : String} {cls : CalendarClass} (h : (name, cls) ∈ defaultClasses)
    {first start stop : Int} {bad odd : List Int} {full short : List Nat} {b : Built}
    (ht : lengthTable.lookup name = some (first, bad, odd, full, short)) (hb : cls.constructFor start stop = .ok b)
    (h1 : first * DAY ≤ start) (hmid : DAY ∣ start) (hbad : ∀ d ∈ bad, d * DAY < start ∨ stop < d * DAY) :
    ∀ l ∈ b.cal.sessions, ∃ ms, b.cal.minutesForSession l = .ok ms ∧ ((∀ d ∈ odd, l ≠ d * DAY) →
      (l ∉ b.earlyCloses → ms.length ∈ full) ∧ (l ∈ b.earlyCloses → ms.length ∈ short)) := by
  have hb' := constructFor_build hb
  clear hb
  simp only [defaultClasses, List.mem_cons, List.not_mem_nil, or_false, Prod.mk.injEq] at h
  rcases h with ⟨rfl, rfl⟩ | ⟨rfl, rfl⟩ | ⟨rfl, rfl⟩ | ⟨rfl, rfl⟩ | ⟨rfl, rfl⟩ | ⟨rfl, rfl⟩ | ⟨rfl, rfl⟩ | ⟨rfl, rfl⟩ | ⟨rfl, rfl⟩ | ⟨rfl, rfl⟩ | ⟨rfl, rfl⟩ | ⟨rfl, rfl⟩ | ⟨rfl, rfl⟩ | ⟨rfl, rfl⟩ | ⟨rfl, rfl⟩ | ⟨rfl, rfl⟩ | ⟨rfl, rfl⟩ | ⟨rfl, rfl⟩ | ⟨rfl, rfl⟩ | ⟨rfl, rfl⟩ | ⟨rfl, rfl⟩ | ⟨rfl, rfl⟩ | ⟨rfl, rfl⟩ | ⟨rfl, rfl⟩ | ⟨rfl, rfl⟩ | ⟨rfl, rfl⟩ | ⟨rfl, rfl⟩ | ⟨rfl, rfl⟩ | ⟨rfl, rfl⟩ | ⟨rfl, rfl⟩ | ⟨rfl, rfl⟩ | ⟨rfl, rfl⟩ | ⟨rfl, rfl⟩ | ⟨rfl, rfl⟩ | ⟨rfl, rfl⟩ | ⟨rfl, rfl⟩ | ⟨rfl, rfl⟩ | ⟨rfl, rfl⟩ | ⟨rfl, rfl⟩ | ⟨rfl, rfl⟩ | ⟨rfl, rfl⟩ | ⟨rfl, rfl⟩ | ⟨rfl, rfl⟩ | ⟨rfl, rfl⟩ | ⟨rfl, rfl⟩ | ⟨rfl, rfl⟩ | ⟨rfl, rfl⟩ | ⟨rfl, rfl⟩ | ⟨rfl, rfl⟩ | ⟨rfl, rfl⟩ | ⟨rfl, rfl⟩ | ⟨rfl, rfl⟩ | ⟨rfl, rfl⟩
  · have e : lengthTable.lookup "ASEX" = some (dayOf 1979 4 3, [], [], [420, 440], []) := by decide +kernel
    obtain ⟨rfl, rfl, rfl, rfl, rfl⟩ := entry_eq (e.symm.trans ht)
    simp only [classConfig] at hb'
    exact has_of c88_asex h1 hmid hbad hb'
  · have e : lengthTable.lookup "BVMF" = some (dayOf 1931 10 5, [], [], [420, 480], []) := by decide +kernel
    obtain ⟨rfl, rfl, rfl, rfl, rfl⟩ := entry_eq (e.symm.trans ht)
    simp only [classConfig] at hb'
    exact has_of c88_bvmf h1 hmid hbad hb'
  · have e : lengthTable.lookup "CMES" = some (dayOf 1901 12 15, [], [dayOf 1942 2 9], [1440], [1140]) := by decide +kernel
    obtain ⟨rfl, rfl, rfl, rfl, rfl⟩ := entry_eq (e.symm.trans ht)
    simp only [classConfig] at hb'
    exact has_of c88_cmes h1 hmid hbad hb'
  · have e : lengthTable.lookup "IEPA" = some (dayOf 1901 12 15, [], [dayOf 1942 2 9], [1320], [1020]) := by decide +kernel
    obtain ⟨rfl, rfl, rfl, rfl, rfl⟩ := entry_eq (e.symm.trans ht)
    simp only [classConfig] at hb'
    exact has_of c88_iepa h1 hmid hbad hb'
  · have e : lengthTable.lookup "XAMS" = some (dayOf 1700 1 2, [], [], [510], [305]) := by decide +kernel
    obtain ⟨rfl, rfl, rfl, rfl, rfl⟩ := entry_eq (e.symm.trans ht)
    simp only [classConfig] at hb'
    exact has_of c88_xams h1 hmid hbad hb'
  · have e : lengthTable.lookup "XASX" = some (dayOf 1700 1 2, [], [], [360], [250]) := by decide +kernel
    obtain ⟨rfl, rfl, rfl, rfl, rfl⟩ := entry_eq (e.symm.trans ht)
    simp only [classConfig] at hb'
    exact has_of c88_xasx h1 hmid hbad hb'
  · have e : lengthTable.lookup "XBKK" = some (dayOf 1700 1 2, [], [], [390], []) := by decide +kernel
    obtain ⟨rfl, rfl, rfl, rfl, rfl⟩ := entry_eq (e.symm.trans ht)
    simp only [classConfig] at hb'
    exact has_of c88_xbkk h1 hmid hbad hb'
  · have e : lengthTable.lookup "XBOG" = some (dayOf 1901 12 15, [], [], [390], []) := by decide +kernel
    obtain ⟨rfl, rfl, rfl, rfl, rfl⟩ := entry_eq (e.symm.trans ht)
    simp only [classConfig] at hb'
    exact has_of c88_xbog h1 hmid hbad hb'
  · have e : lengthTable.lookup "XBOM" = some (dayOf 1700 1 2, [], [], [375], []) := by decide +kernel
    obtain ⟨rfl, rfl, rfl, rfl, rfl⟩ := entry_eq (e.symm.trans ht)
    simp only [classConfig] at hb'
    exact has_of c88_xbom h1 hmid hbad hb'
  · have e : lengthTable.lookup "XBRU" = some (dayOf 1918 11 13, [], [], [510], [305]) := by decide +kernel
    obtain ⟨rfl, rfl, rfl, rfl, rfl⟩ := entry_eq (e.symm.trans ht)
    simp only [classConfig] at hb'
    exact has_of c88_xbru h1 hmid hbad hb'
  · have e : lengthTable.lookup "XBUD" = some (dayOf 1700 1 2, [], [], [480], []) := by decide +kernel
    obtain ⟨rfl, rfl, rfl, rfl, rfl⟩ := entry_eq (e.symm.trans ht)
    simp only [classConfig] at hb'
    exact has_of c88_xbud h1 hmid hbad hb'
  · have e : lengthTable.lookup "XBUE" = some (dayOf 1901 12 15, [], [], [360], [120]) := by decide +kernel
    obtain ⟨rfl, rfl, rfl, rfl, rfl⟩ := entry_eq (e.symm.trans ht)
    simp only [classConfig] at hb'
    exact has_of c88_xbue h1 hmid hbad hb'
  · have e : lengthTable.lookup "XCBF" = some (dayOf 1901 12 15, [], [], [405], [225]) := by decide +kernel
    obtain ⟨rfl, rfl, rfl, rfl, rfl⟩ := entry_eq (e.symm.trans ht)
    simp only [classConfig] at hb'
    exact has_of c88_xcbf h1 hmid hbad hb'
  · have e : lengthTable.lookup "XCSE" = some (dayOf 1700 1 2, [], [], [480], []) := by decide +kernel
    obtain ⟨rfl, rfl, rfl, rfl, rfl⟩ := entry_eq (e.symm.trans ht)
    simp only [classConfig] at hb'
    exact has_of c88_xcse h1 hmid hbad hb'
  · have e : lengthTable.lookup "XDUB" = some (dayOf 1700 1 2, [], [], [508], [268]) := by decide +kernel
    obtain ⟨rfl, rfl, rfl, rfl, rfl⟩ := entry_eq (e.symm.trans ht)
    simp only [classConfig] at hb'
    exact has_of c88_xdub h1 hmid hbad hb'
  · have e : lengthTable.lookup "XFRA" = some (dayOf 1700 1 2, [], [], [510], [210]) := by decide +kernel
    obtain ⟨rfl, rfl, rfl, rfl, rfl⟩ := entry_eq (e.symm.trans ht)
    simp only [classConfig] at hb'
    exact has_of c88_xfra h1 hmid hbad hb'
  · have e : lengthTable.lookup "XETR" = some (dayOf 1700 1 2, [], [], [510], [300]) := by decide +kernel
    obtain ⟨rfl, rfl, rfl, rfl, rfl⟩ := entry_eq (e.symm.trans ht)
    simp only [classConfig] at hb'
    exact has_of c88_xetr h1 hmid hbad hb'
  · have e : lengthTable.lookup "XHEL" = some (dayOf 1700 1 2, [], [], [510], []) := by decide +kernel
    obtain ⟨rfl, rfl, rfl, rfl, rfl⟩ := entry_eq (e.symm.trans ht)
    simp only [classConfig] at hb'
    exact has_of c88_xhel h1 hmid hbad hb'
  · have e : lengthTable.lookup "XHKG" = some (dayOf 1700 1 2, [], [], [302, 332], [120, 150, 180]) := by decide +kernel
    obtain ⟨rfl, rfl, rfl, rfl, rfl⟩ := entry_eq (e.symm.trans ht)
    simp only [classConfig] at hb'
    exact has_of c88_xhkg h1 hmid hbad hb'
  · have e : lengthTable.lookup "XICE" = some (dayOf 1700 1 2, [], [], [360], []) := by decide +kernel
    obtain ⟨rfl, rfl, rfl, rfl, rfl⟩ := entry_eq (e.symm.trans ht)
    simp only [classConfig] at hb'
    exact has_of c88_xice h1 hmid hbad hb'
  · have e : lengthTable.lookup "XIDX" = some (dayOf 1700 1 2, [], [], [410], []) := by decide +kernel
    obtain ⟨rfl, rfl, rfl, rfl, rfl⟩ := entry_eq (e.symm.trans ht)
    simp only [classConfig] at hb'
    exact has_of c88_xidx h1 hmid hbad hb'
  · have e : lengthTable.lookup "XIST" = some (dayOf 1700 1 2, [dayOf 2029 4 23], [], [480], [150]) := by decide +kernel
    obtain ⟨rfl, rfl, rfl, rfl, rfl⟩ := entry_eq (e.symm.trans ht)
    simp only [classConfig] at hb'
    exact has_of c88_xist h1 hmid hbad hb'
  · have e : lengthTable.lookup "XJSE" = some (dayOf 1700 1 2, [], [], [480], []) := by decide +kernel
    obtain ⟨rfl, rfl, rfl, rfl, rfl⟩ := entry_eq (e.symm.trans ht)
    simp only [classConfig] at hb'
    exact has_of c88_xjse h1 hmid hbad hb'
  · have e : lengthTable.lookup "XKAR" = some (dayOf 1700 1 2, [], [], [358], []) := by decide +kernel
    obtain ⟨rfl, rfl, rfl, rfl, rfl⟩ := entry_eq (e.symm.trans ht)
    simp only [classConfig] at hb'
    exact has_of c88_xkar h1 hmid hbad hb'
  · have e : lengthTable.lookup "XKLS" = some (dayOf 1700 1 2, [dayOf 1984 2 1, dayOf 2029 2 13, dayOf 2031 1 23, dayOf 2049 2 1], [], [480], [210]) := by decide +kernel
    obtain ⟨rfl, rfl, rfl, rfl, rfl⟩ := entry_eq (e.symm.trans ht)
    simp only [classConfig] at hb'
    exact has_of c88_xkls h1 hmid hbad hb'
  · have e : lengthTable.lookup "XKRX" = some (dayOf 1700 1 2, [], [], [390], []) := by decide +kernel
    obtain ⟨rfl, rfl, rfl, rfl, rfl⟩ := entry_eq (e.symm.trans ht)
    simp only [classConfig] at hb'
    exact has_of c88_xkrx h1 hmid hbad hb'
  · have e : lengthTable.lookup "XLIM" = some (dayOf 1901 12 15, [], [], [420], []) := by decide +kernel
    obtain ⟨rfl, rfl, rfl, rfl, rfl⟩ := entry_eq (e.symm.trans ht)
    simp only [classConfig] at hb'
    exact has_of c88_xlim h1 hmid hbad hb'
  · have e : lengthTable.lookup "XLIS" = some (dayOf 1700 1 2, [], [], [510], [305]) := by decide +kernel
    obtain ⟨rfl, rfl, rfl, rfl, rfl⟩ := entry_eq (e.symm.trans ht)
    simp only [classConfig] at hb'
    exact has_of c88_xlis h1 hmid hbad hb'
  · have e : lengthTable.lookup "XLON" = some (dayOf 1901 12 15, [], [], [510], [270]) := by decide +kernel
    obtain ⟨rfl, rfl, rfl, rfl, rfl⟩ := entry_eq (e.symm.trans ht)
    simp only [classConfig] at hb'
    exact has_of c88_xlon h1 hmid hbad hb'
  · have e : lengthTable.lookup "XMAD" = some (dayOf 1901 12 15, [], [], [510], [300]) := by decide +kernel
    obtain ⟨rfl, rfl, rfl, rfl, rfl⟩ := entry_eq (e.symm.trans ht)
    simp only [classConfig] at hb'
    exact has_of c88_xmad h1 hmid hbad hb'
  · have e : lengthTable.lookup "XMEX" = some (dayOf 1700 1 2, [], [], [390], []) := by decide +kernel
    obtain ⟨rfl, rfl, rfl, rfl, rfl⟩ := entry_eq (e.symm.trans ht)
    simp only [classConfig] at hb'
    exact has_of c88_xmex h1 hmid hbad hb'
  · have e : lengthTable.lookup "XMIL" = some (dayOf 1700 1 2, [], [], [510], []) := by decide +kernel
    obtain ⟨rfl, rfl, rfl, rfl, rfl⟩ := entry_eq (e.symm.trans ht)
    simp only [classConfig] at hb'
    exact has_of c88_xmil h1 hmid hbad hb'
  · have e : lengthTable.lookup "XMOS" = some (dayOf 1700 1 2, [], [], [525], []) := by decide +kernel
    obtain ⟨rfl, rfl, rfl, rfl, rfl⟩ := entry_eq (e.symm.trans ht)
    simp only [classConfig] at hb'
    exact has_of c88_xmos h1 hmid hbad hb'
  · have e : lengthTable.lookup "XNYS" = some (dayOf 1901 12 15, [dayOf 1945 12 24, dayOf 1956 12 24], [], [390], [210, 270]) := by decide +kernel
    obtain ⟨rfl, rfl, rfl, rfl, rfl⟩ := entry_eq (e.symm.trans ht)
    simp only [classConfig] at hb'
    exact has_of c88_xnys h1 hmid hbad hb'
  · have e : lengthTable.lookup "XNZE" = some (dayOf 1901 12 16, [], [], [405], [165]) := by decide +kernel
    obtain ⟨rfl, rfl, rfl, rfl, rfl⟩ := entry_eq (e.symm.trans ht)
    simp only [classConfig] at hb'
    exact has_of c88_xnze h1 hmid hbad hb'
  · have e : lengthTable.lookup "XOSL" = some (dayOf 1700 1 2, [], [], [440], [240]) := by decide +kernel
    obtain ⟨rfl, rfl, rfl, rfl, rfl⟩ := entry_eq (e.symm.trans ht)
    simp only [classConfig] at hb'
    exact has_of c88_xosl h1 hmid hbad hb'
  · have e : lengthTable.lookup "XPAR" = some (dayOf 1700 1 2, [], [], [510], [305]) := by decide +kernel
    obtain ⟨rfl, rfl, rfl, rfl, rfl⟩ := entry_eq (e.symm.trans ht)
    simp only [classConfig] at hb'
    exact has_of c88_xpar h1 hmid hbad hb'
  · have e : lengthTable.lookup "XPHS" = some (dayOf 1901 12 15, [], [], [360], []) := by decide +kernel
    obtain ⟨rfl, rfl, rfl, rfl, rfl⟩ := entry_eq (e.symm.trans ht)
    simp only [classConfig] at hb'
    exact has_of c88_xphs h1 hmid hbad hb'
  · have e : lengthTable.lookup "XPRA" = some (dayOf 1700 1 2, [], [], [440], []) := by decide +kernel
    obtain ⟨rfl, rfl, rfl, rfl, rfl⟩ := entry_eq (e.symm.trans ht)
    simp only [classConfig] at hb'
    exact has_of c88_xpra h1 hmid hbad hb'
  · have e : lengthTable.lookup "XSES" = some (dayOf 1700 1 2, [], [], [480], []) := by decide +kernel
    obtain ⟨rfl, rfl, rfl, rfl, rfl⟩ := entry_eq (e.symm.trans ht)
    simp only [classConfig] at hb'
    exact has_of c88_xses h1 hmid hbad hb'
  · have e : lengthTable.lookup "XSGO" = some (dayOf 1700 1 2, [], [], [390, 450], [180, 240]) := by decide +kernel
    obtain ⟨rfl, rfl, rfl, rfl, rfl⟩ := entry_eq (e.symm.trans ht)
    simp only [classConfig] at hb'
    exact has_of c88_xsgo h1 hmid hbad hb'
  · have e : lengthTable.lookup "XSHG" = some (dayOf 1700 1 2, [], [], [330], []) := by decide +kernel
    obtain ⟨rfl, rfl, rfl, rfl, rfl⟩ := entry_eq (e.symm.trans ht)
    simp only [classConfig] at hb'
    exact has_of c88_xshg h1 hmid hbad hb'
  · have e : lengthTable.lookup "XSTO" = some (dayOf 1700 1 2, [], [], [510], [240]) := by decide +kernel
    obtain ⟨rfl, rfl, rfl, rfl, rfl⟩ := entry_eq (e.symm.trans ht)
    simp only [classConfig] at hb'
    exact has_of c88_xsto h1 hmid hbad hb'
  · have e : lengthTable.lookup "XSWX" = some (dayOf 1700 1 2, [], [], [510], []) := by decide +kernel
    obtain ⟨rfl, rfl, rfl, rfl, rfl⟩ := entry_eq (e.symm.trans ht)
    simp only [classConfig] at hb'
    exact has_of c88_xswx h1 hmid hbad hb'
  · have e : lengthTable.lookup "XTAE" = some (dayOf 1700 1 2, [], [], [436], []) := by decide +kernel
    obtain ⟨rfl, rfl, rfl, rfl, rfl⟩ := entry_eq (e.symm.trans ht)
    simp only [classConfig] at hb'
    exact has_of c88_xtae h1 hmid hbad hb'
  · have e : lengthTable.lookup "XTAI" = some (dayOf 1700 1 2, [], [], [270], []) := by decide +kernel
    obtain ⟨rfl, rfl, rfl, rfl, rfl⟩ := entry_eq (e.symm.trans ht)
    simp only [classConfig] at hb'
    exact has_of c88_xtai h1 hmid hbad hb'
  · have e : lengthTable.lookup "XTKS" = some (dayOf 1700 1 2, [], [], [360], []) := by decide +kernel
    obtain ⟨rfl, rfl, rfl, rfl, rfl⟩ := entry_eq (e.symm.trans ht)
    simp only [classConfig] at hb'
    exact has_of c88_xtks h1 hmid hbad hb'
  · have e : lengthTable.lookup "XTSE" = some (dayOf 1901 12 15, [], [], [390], [210]) := by decide +kernel
    obtain ⟨rfl, rfl, rfl, rfl, rfl⟩ := entry_eq (e.symm.trans ht)
    simp only [classConfig] at hb'
    exact has_of c88_xtse h1 hmid hbad hb'
  · have e : lengthTable.lookup "XWAR" = some (dayOf 1700 1 2, [], [], [480], []) := by decide +kernel
    obtain ⟨rfl, rfl, rfl, rfl, rfl⟩ := entry_eq (e.symm.trans ht)
    simp only [classConfig] at hb'
    exact has_of c88_xwar h1 hmid hbad hb'
  · have e : lengthTable.lookup "XWBO" = some (dayOf 1700 1 2, [], [], [510], []) := by decide +kernel
    obtain ⟨rfl, rfl, rfl, rfl, rfl⟩ := entry_eq (e.symm.trans ht)
    simp only [classConfig] at hb'
    exact has_of c88_xwbo h1 hmid hbad hb'
  · have e : lengthTable.lookup "us_futures" = some (dayOf 1901 12 15, [], [dayOf 1942 2 9], [1440], []) := by decide +kernel
    obtain ⟨rfl, rfl, rfl, rfl, rfl⟩ := entry_eq (e.symm.trans ht)
    simp only [classConfig] at hb'
    exact has_of c88_usFuturesCalendar h1 hmid hbad hb'
  · have e : lengthTable.lookup "24/7" = some (dayOf 1700 1 2, [], [], [1440], []) := by decide +kernel
    obtain ⟨rfl, rfl, rfl, rfl, rfl⟩ := entry_eq (e.symm.trans ht)
    simp only [classConfig] at hb'
    exact simple_length rfl (steady_of (ordered_of (by decide)) (tame_of (by decide))
      (oneSpecial_none rfl rfl rfl rfl) (by decide)) h1 hmid hb'
  · have e : lengthTable.lookup "24/5" = some (dayOf 1700 1 2, [], [], [1440], []) := by decide +kernel
    obtain ⟨rfl, rfl, rfl, rfl, rfl⟩ := entry_eq (e.symm.trans ht)
    simp only [classConfig] at hb'
    exact simple_length rfl (steady_of (ordered_of (by decide)) (tame_of (by decide))
      (oneSpecial_none rfl rfl rfl rfl) (by decide)) h1 hmid hb'

/-- C88: every default calendar is in the table. -/
theorem c88_every {name : String} {cls : CalendarClass} (h : (name, cls) ∈ defaultClasses) :
    ∃ first bad odd full short, lengthTable.lookup name = some (first, bad, odd, full, short) := by
  have hall : (defaultClasses.map Prod.fst).all (fun n => (lengthTable.lookup n).isSome) = true := by
    decide +kernel
  have := List.all_eq_true.1 hall name (List.mem_map_of_mem (f := Prod.fst) h)
  obtain ⟨⟨a, b, c, d, e⟩, hx⟩ := Option.isSome_iff_exists.1 this
  exact ⟨a, b, c, d, e, hx⟩

/-- C88: the days left out in New York and Chicago are to be left out.  In the night to Monday, February 9, 1942, clocks
went forward to war time, so that every us_futures calendar with that session has an hour less for it. -/
theorem c88_war_time {start stop : Int} {b : Built} (h1 : dayOf 1901 12 15 * DAY ≤ start) (hmid : DAY ∣ start)
    (hb : build (UsFuturesCalendar.exchange.config Zones.americaNewYork) start stop = .ok b)
    (hl : dayOf 1942 2 9 * DAY ∈ b.cal.sessions) :
    ∃ ms, b.cal.minutesForSession (dayOf 1942 2 9 * DAY) = .ok ms ∧ ms.length = 1380 := by
  have hst : Steady (UsFuturesCalendar.exchange.config Zones.americaNewYork) :=
    steady_exchange usFuturesCalendar_check clear_americaNewYork.tame (by decide +kernel)
  obtain ⟨ss, hss, hreg, hwm, hoc, hday⟩ := keeps_rows c61_usFuturesCalendar c54_usFuturesCalendar_zone hst
    oneTime_daily (by decide) h1 hmid (by simp) hb
  rw [hss] at hl
  obtain ⟨s, hs, he⟩ := List.mem_map.1 hl
  obtain ⟨d, hd, -, -, -, hk⟩ := hday s hs
  have hdd : d = dayOf 1942 2 9 := by
    rw [hd] at he
    simp only [DAY] at he
    omega
  subst hdd
  refine ⟨sessMin s, by rw [hss, ← he]; exact minutesForSession_eq hreg hwm hs, ?_⟩
  obtain ⟨o, ho, huo⟩ := hk.opens
  obtain ⟨c, hc, huc⟩ := hk.closes (by rintro u ⟨t, ht, -⟩; exact ht)
  rw [show o = hm 18 1 - DAY from ho] at huo
  rw [show c = hm 18 0 from hc] at huc
  have e1 := huo.2 (dayOf 1942 2 8 * DAY + hm 23 1)
    ((reads_iff clear_americaNewYork.tame _ _).2 (by decide +kernel))
  have e2 := huc.2 (dayOf 1942 2 9 * DAY + hm 22 0)
    ((reads_iff clear_americaNewYork.tame _ _).2 (by decide +kernel))
  have := length_sessMin_none (hk.noBreak rfl) (hwm s hs) (Int.le_of_lt (hoc s hs))
  rw [← e1, ← e2, show dayOf 1942 2 9 * DAY + hm 22 0 - (dayOf 1942 2 8 * DAY + hm 23 1) + MINUTE = 1380 * MINUTE by
    decide +kernel] at this
  simp only [MINUTE] at this
  omega

/-- The us_futures calendar for 1942 can be built and has that session. -/
example : ∃ b, build (UsFuturesCalendar.exchange.config Zones.americaNewYork) (dayOf 1942 1 1 * DAY)
      (dayOf 1942 12 31 * DAY) = .ok b ∧ dayOf 1942 2 9 * DAY ∈ b.cal.sessions := by
  have hd : TradesOn UsFuturesCalendar.exchange (dayOf 1942 2 9) := trades_of usFuturesCalendar_check (by decide +kernel)
  obtain ⟨b, hb, ss, hss, -, -, -, hl, -⟩ := (c54_usFuturesCalendar_zone (dayOf 1942 1 1 * DAY) (dayOf 1942 12 31 * DAY)
    (by decide +kernel) (Int.dvd_mul_left _ _)).succeeds (by simp) ⟨_, by decide +kernel, by decide +kernel, hd⟩
  refine ⟨b, hb, ?_⟩
  rw [hss]
  exact (hl _).2 ⟨_, rfl, by decide +kernel, by decide +kernel, hd⟩

/-- XNYS for 2019: Wednesday, October 16 is a session; it has 390 minutes if it does not close early. -/
example : ∃ b ms, (CalendarClass.exchange Xnys.exchange Xnys.zone startDefault).constructFor (dayOf 2019 1 1 * DAY)
      (dayOf 2019 12 31 * DAY) = .ok b ∧ dayOf 2019 10 16 * DAY ∈ b.cal.sessions ∧
    b.cal.minutesForSession (dayOf 2019 10 16 * DAY) = .ok ms ∧
    (dayOf 2019 10 16 * DAY ∉ b.earlyCloses → ms.length = 390) := by
  have hd : TradesOn Xnys.exchange (dayOf 2019 10 16) := trades_of xnys_check (by decide +kernel)
  obtain ⟨b, hb, ss, hss, -, -, -, hl, -⟩ := (c54_xnys_zone (dayOf 2019 1 1 * DAY) (dayOf 2019 12 31 * DAY)
    (by decide +kernel) (Int.dvd_mul_left _ _)).succeeds (by decide +kernel) ⟨_, by decide +kernel, by decide +kernel, hd⟩
  have hmem : dayOf 2019 10 16 * DAY ∈ b.cal.sessions := by
    rw [hss]
    exact (hl _).2 ⟨_, rfl, by decide +kernel, by decide +kernel, hd⟩
  obtain ⟨ms, hms, hlen⟩ := c88_default (name := "XNYS") (cls := .exchange Xnys.exchange Xnys.zone startDefault)
    (by simp [defaultClasses]) (show lengthTable.lookup "XNYS" = some (dayOf 1901 12 15,
      [dayOf 1945 12 24, dayOf 1956 12 24], [], [390], [210, 270]) by decide +kernel) hb (by decide +kernel)
    (Int.dvd_mul_left _ _) (by decide +kernel) _ hmem
  exact ⟨b, ms, hb, hmem, hms, fun hn => by simpa using (hlen (by simp)).1 hn⟩

/-! ### Ranges -/

theorem mem_of_lookup {β : Type} {k : String} {v : β} : ∀ {l : List (String × β)}, l.lookup k = some v → (k, v) ∈ l
  | (k', v') :: l, h => by
    rw [List.lookup_cons] at h
    split at h
    · rename_i hk
      cases h
      rw [eq_of_beq hk]
      exact List.mem_cons_self
    · exact List.mem_cons_of_mem _ (mem_of_lookup h)

theorem length_of_mapM {α β : Type} {f : α → Py β} {xs : List α} {ys : List β} (h : xs.mapM f = .ok ys) :
    ys.length = xs.length := (mapM_ok_iff.1 h).1

theorem sum_bounds {lo hi : Nat} : ∀ (pieces : List (List Int)), (∀ p ∈ pieces, lo ≤ p.length ∧ p.length ≤ hi) →
    lo * pieces.length ≤ pieces.flatten.length ∧ pieces.flatten.length ≤ hi * pieces.length
  | [], _ => by simp
  | p :: ps, h => by
    have h1 := h p (by simp)
    have h2 := sum_bounds ps (fun q hq => h q (by simp [hq]))
    simp only [List.flatten_cons, List.length_append, List.length_cons, Nat.mul_succ]
    omega

/-- The minutes counted in a range are those of its sessions, where there are no breaks. -/
theorem counted_pieces {name : String} {cls : CalendarClass} (h : (name, cls) ∈ defaultClasses) (hne : name ≠ "XHKG")
    {first start stop : Int} {bad odd : List Int} {full short : List Nat} {b : Built}
    (ht : lengthTable.lookup name = some (first, bad, odd, full, short)) (hb : cls.constructFor start stop = .ok b)
    (h1 : first * DAY ≤ start) (hmid : DAY ∣ start) (hbad : ∀ d ∈ bad, d * DAY < start ∨ stop < d * DAY) {a e : Int}
    (hodd : ∀ d ∈ odd, d * DAY < a ∨ e < d * DAY) :
    ∃ pieces, (b.cal.sessionsInRange a e).mapM b.cal.minutesForSession = .ok pieces ∧
      b.cal.minutesCountForSessionsInRange a e = pieces.flatten.length ∧
      ∀ l ∈ b.cal.sessionsInRange a e, ∃ ms, b.cal.minutesForSession l = .ok ms ∧
        (l ∉ b.earlyCloses → ms.length ∈ full) ∧ (l ∈ b.earlyCloses → ms.length ∈ short) := by
  have hlen := c88_default h ht hb h1 hmid hbad
  have hb' := constructFor_build hb
  have hst := steady_default h
  have hlow : NP_NAT + 3 * DAY ≤ start := by
    have : ∀ p ∈ lengthTable, NP_NAT + 3 * DAY ≤ p.2.1 * DAY := by decide +kernel
    have := this _ (mem_of_lookup ht)
    simp only at this
    omega
  obtain ⟨hof, hreg, hwm⟩ := gap_regular hst hb' hmid hlow
  have hnb : (classConfig cls).breakStartTimes = none := by
    have : ∀ p ∈ defaultClasses, p.1 ≠ "XHKG" → (classConfig p.2).breakStartTimes = none := by
      simp only [defaultClasses, List.forall_mem_cons]
      refine ⟨?_, ?_, ?_, ?_, ?_, ?_, ?_, ?_, ?_, ?_, ?_, ?_, ?_, ?_, ?_, ?_, ?_, ?_, ?_, ?_, ?_, ?_, ?_, ?_, ?_, ?_, ?_,
        ?_, ?_, ?_, ?_, ?_, ?_, ?_, ?_, ?_, ?_, ?_, ?_, ?_, ?_, ?_, ?_, ?_, ?_, ?_, ?_, ?_, ?_, ?_, ?_, ?_, ?_, ?_⟩
      case refine_19 => intro h; exact absurd rfl h
      all_goals first | exact fun _ => rfl | simp
    exact this _ h hne
  have hrow := row_facts hb' (hst.ordered.wellFormed hst.tame hmid hlow)
  obtain ⟨pieces, hp, hc⟩ := c25_minutes_count hreg hwm a e
  have hzero : (rowsOf b.cal).filter (fun s => decide (a ≤ s.label ∧ s.label ≤ e) && s.brk.isSome) = [] := by
    rw [List.filter_eq_nil_iff]
    intro s hs
    simp [(hrow s hs).brkNone hnb]
  rw [hzero, ← hof] at hc
  rw [← hof] at hp
  refine ⟨pieces, hp, by simpa using hc, fun l hl => ?_⟩
  rw [hof, sessionsInRange_eq hreg] at hl
  obtain ⟨s, hs, rfl⟩ := List.mem_map.1 hl
  obtain ⟨hs, hr⟩ := List.mem_filter.1 hs
  simp only [Bool.and_eq_true, decide_eq_true_eq] at hr
  obtain ⟨ms, hms, hn⟩ := hlen s.label (by rw [hof]; exact List.mem_map_of_mem hs)
  exact ⟨ms, hms, hn (fun d hd he => by have := hodd d hd; omega)⟩

/-- C88 for `minutes_count_for_sessions_in_range`: if every length that the table lists lies between `lo` and `hi`, then
so many minutes per session are counted, where XHKG is left out for its breaks, which the function does not count
right (C25).  If the table lists one length only, the count is that number times the number of sessions. -/
theorem c88_count {name : String} {cls : CalendarClass} (h : (name, cls) ∈ defaultClasses) (hne : name ≠ "XHKG")
    {first start stop : Int} {bad odd : List Int} {full short : List Nat} {b : Built}
    (ht : lengthTable.lookup name = some (first, bad, odd, full, short)) (hb : cls.constructFor start stop = .ok b)
    (h1 : first * DAY ≤ start) (hmid : DAY ∣ start) (hbad : ∀ d ∈ bad, d * DAY < start ∨ stop < d * DAY)
    {lo hi : Nat} (hlo : ∀ n ∈ full ++ short, lo ≤ n ∧ n ≤ hi) {a e : Int}
    (hodd : ∀ d ∈ odd, d * DAY < a ∨ e < d * DAY) :
    (lo * (b.cal.sessionsInRange a e).length : Nat) ≤ b.cal.minutesCountForSessionsInRange a e ∧
    b.cal.minutesCountForSessionsInRange a e ≤ (hi * (b.cal.sessionsInRange a e).length : Nat) := by
  obtain ⟨pieces, hp, hc, hl⟩ := counted_pieces h hne ht hb h1 hmid hbad hodd
  have hs := sum_bounds pieces (lo := lo) (hi := hi) (by
    intro p hpm
    obtain ⟨l, hlm, hpl⟩ := (mapM_mem hp).1 hpm
    obtain ⟨ms, hms, r1, r2⟩ := hl l hlm
    rw [hms] at hpl
    cases hpl
    rcases Classical.em (l ∈ b.earlyCloses) with hy | hy
    · exact hlo _ (List.mem_append_right _ (r2 hy))
    · exact hlo _ (List.mem_append_left _ (r1 hy)))
  rw [length_of_mapM hp] at hs
  omega

theorem sum_two {f : Int → Py (List Int)} {E : Int → Prop} [DecidablePred E] {n m : Nat} : ∀ {ls : List Int}
    {pieces : List (List Int)}, ls.mapM f = .ok pieces →
    (∀ l ∈ ls, ∃ ms, f l = .ok ms ∧ (¬ E l → ms.length = n) ∧ (E l → ms.length = m)) →
    pieces.flatten.length = n * (ls.filter fun l => ¬ E l).length + m * (ls.filter fun l => E l).length
  | [], pieces, hp, _ => by cases hp; rfl
  | l :: ls, pieces, hp, h => by
    rw [List.mapM_cons, bind_ok_iff] at hp
    obtain ⟨ms, hms, hp⟩ := hp
    rw [bind_ok_iff] at hp
    obtain ⟨ps, hps, hp⟩ := hp
    cases hp
    have ih := sum_two hps (fun k hk => h k (by simp [hk]))
    obtain ⟨ms', hms', r1, r2⟩ := h l (by simp)
    rw [hms] at hms'
    cases hms'
    by_cases hE : E l
    · simp only [List.flatten_cons, List.length_append, ih, r2 hE]
      simp [hE, Nat.mul_add]
      omega
    · simp only [List.flatten_cons, List.length_append, ih, r1 hE]
      simp [hE, Nat.mul_add]
      omega

/-- C88: where full sessions have one length and early closes have one, `minutes_count_for_sessions_in_range` is exactly
so many minutes for each full session of the range and so many for each early close. -/
theorem c88_count_exact {name : String} {cls : CalendarClass} (h : (name, cls) ∈ defaultClasses) (hne : name ≠ "XHKG")
    {first start stop : Int} {bad odd : List Int} {full short : List Nat} {b : Built}
    (ht : lengthTable.lookup name = some (first, bad, odd, full, short)) (hb : cls.constructFor start stop = .ok b)
    (h1 : first * DAY ≤ start) (hmid : DAY ∣ start) (hbad : ∀ d ∈ bad, d * DAY < start ∨ stop < d * DAY)
    {n m : Nat} (hfull : ∀ k ∈ full, k = n) (hshort : ∀ k ∈ short, k = m) {a e : Int}
    (hodd : ∀ d ∈ odd, d * DAY < a ∨ e < d * DAY) :
    b.cal.minutesCountForSessionsInRange a e =
      (n * ((b.cal.sessionsInRange a e).filter fun l => l ∉ b.earlyCloses).length +
       m * ((b.cal.sessionsInRange a e).filter fun l => l ∈ b.earlyCloses).length : Nat) := by
  obtain ⟨pieces, hp, hc, hl⟩ := counted_pieces h hne ht hb h1 hmid hbad hodd
  rw [hc, sum_two (E := fun l => l ∈ b.earlyCloses) hp (fun l hlm => by
    obtain ⟨ms, hms, r1, r2⟩ := hl l hlm
    exact ⟨ms, hms, fun hy => hfull _ (r1 hy), fun hy => hshort _ (r2 hy)⟩)]

/-- XLON for 2019 can be constructed; 510 minutes are counted for each full session and 270 for each early close. -/
example : ∃ b, (CalendarClass.exchange Xlon.exchange Xlon.zone startDefault).constructFor (dayOf 2019 1 1 * DAY)
      (dayOf 2019 12 31 * DAY) = .ok b ∧ ∀ a e, b.cal.minutesCountForSessionsInRange a e =
        (510 * ((b.cal.sessionsInRange a e).filter fun l => l ∉ b.earlyCloses).length +
         270 * ((b.cal.sessionsInRange a e).filter fun l => l ∈ b.earlyCloses).length : Nat) := by
  have hd : TradesOn Xlon.exchange (dayOf 2019 10 16) := trades_of xlon_check (by decide +kernel)
  obtain ⟨b, hb, -⟩ := (c54_xlon_zone (dayOf 2019 1 1 * DAY) (dayOf 2019 12 31 * DAY)
    (by decide +kernel) (Int.dvd_mul_left _ _)).succeeds (by simp) ⟨_, by decide +kernel, by decide +kernel, hd⟩
  exact ⟨b, hb, fun a e => c88_count_exact (name := "XLON") (cls := .exchange Xlon.exchange Xlon.zone startDefault)
    (by simp [defaultClasses]) (by decide) (show lengthTable.lookup "XLON" = some (dayOf 1901 12 15, [], [], [510], [270])
      by decide +kernel) hb (by decide +kernel) (Int.dvd_mul_left _ _) (by simp) (by simp) (by simp) (by simp)⟩

end TC.Props
