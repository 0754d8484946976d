import Verif.Props.ClockZones
import Verif.Props.Hours

/-!
# Hours in UTC (C63)

Every calendar keeps its hours in UTC, with the summer time of its city.  Each theorem is followed by a case:
a day of summer time and one of standard time, or one day where there is no summer time.
-/

namespace TC.Props
open Spec Spec.Books Spec.Hours

/-- C63 for `ASEXExchangeCalendar`. -/
theorem c63_asex : KeepsUtc Asex.exchange Zones.europeAthens (dayOf 1979 4 3) []
    Hours.athens (Ahead (Clocks.europe (hm 2 0))) :=
  utc_of c61_asex ⟨by rintro d t rfl; decide, daytime_changed (by decide) (by decide), fun _ _ h => h.elim,
    fun _ h => by cases h⟩ c63_clock_europeAthens

example : Ahead (Clocks.europe (hm 2 0)) (dayOf 2024 1 15) (hm 2 0) := ahead_case (by decide +kernel)
example : Ahead (Clocks.europe (hm 2 0)) (dayOf 2024 7 15) (hm 3 0) := ahead_case (by decide +kernel)

/-- C63 for `BVMFExchangeCalendar`. -/
theorem c63_bvmf : KeepsUtc Bvmf.exchange Zones.americaSaoPaulo (dayOf 1931 10 5) []
    Hours.saoPaulo (Ahead (Clocks.brazil)) :=
  utc_of c61_bvmf ⟨by rintro d t rfl; decide, daytime_changed (by decide) (by decide), fun _ _ h => h.elim,
    fun _ h => by cases h⟩ c63_clock_americaSaoPaulo

example : Ahead (Clocks.brazil) (dayOf 2024 1 15) (hm (-3) 0) := ahead_case (by decide +kernel)

/-- C63 for `CMESExchangeCalendar`. -/
theorem c63_cmes : KeepsUtc Cmes.exchange Zones.americaChicago (dayOf 1901 12 15) []
    Hours.cme (Ahead (Clocks.northAmerica (hm (-6) 0))) :=
  utc_of c61_cmes (daytime_daily (by decide) (by decide) (daytime_book (by decide) (by decide))) c63_clock_americaChicago

example : Ahead (Clocks.northAmerica (hm (-6) 0)) (dayOf 2024 1 15) (hm (-6) 0) := ahead_case (by decide +kernel)
example : Ahead (Clocks.northAmerica (hm (-6) 0)) (dayOf 2024 7 15) (hm (-5) 0) := ahead_case (by decide +kernel)

/-- C63 for `IEPAExchangeCalendar`. -/
theorem c63_iepa : KeepsUtc Iepa.exchange Zones.americaNewYork (dayOf 1901 12 15) []
    Hours.ice (Ahead (Clocks.northAmerica (hm (-5) 0))) :=
  utc_of c61_iepa (daytime_daily (by decide) (by decide) (daytime_book (by decide) (by decide))) c63_clock_americaNewYork

example : Ahead (Clocks.northAmerica (hm (-5) 0)) (dayOf 2024 1 15) (hm (-5) 0) := ahead_case (by decide +kernel)
example : Ahead (Clocks.northAmerica (hm (-5) 0)) (dayOf 2024 7 15) (hm (-4) 0) := ahead_case (by decide +kernel)

/-- C63 for `QuantopianUSFuturesCalendar`. -/
theorem c63_usFuturesCalendar : KeepsUtc UsFuturesCalendar.exchange Zones.americaNewYork (dayOf 1901 12 15) []
    Hours.usFutures (Ahead (Clocks.northAmerica (hm (-5) 0))) :=
  utc_of c61_usFuturesCalendar (daytime_daily (by decide) (by decide) (fun _ _ h => h.elim)) c63_clock_americaNewYork

example : Ahead (Clocks.northAmerica (hm (-5) 0)) (dayOf 2024 1 15) (hm (-5) 0) := ahead_case (by decide +kernel)
example : Ahead (Clocks.northAmerica (hm (-5) 0)) (dayOf 2024 7 15) (hm (-4) 0) := ahead_case (by decide +kernel)

/-- C63 for `XAMSExchangeCalendar`. -/
theorem c63_xams : KeepsUtc Xams.exchange Zones.europeAmsterdam (dayOf 1700 1 2) []
    (Hours.daily (hm 9 1) (hm 17 30) (EarlyByBook euronextEarly [])) (Ahead (Clocks.europe (hm 1 0))) :=
  utc_of c61_xams (daytime_daily (by decide) (by decide) (daytime_book (by decide) (by decide))) c63_clock_europeAmsterdam

example : Ahead (Clocks.europe (hm 1 0)) (dayOf 2024 1 15) (hm 1 0) := ahead_case (by decide +kernel)
example : Ahead (Clocks.europe (hm 1 0)) (dayOf 2024 7 15) (hm 2 0) := ahead_case (by decide +kernel)

/-- C63 for `XASXExchangeCalendar`. -/
theorem c63_xasx : KeepsUtc Xasx.exchange Zones.australiaSydney (dayOf 1700 1 2) []
    (Hours.daily (hm 10 1) (hm 16 0) (EarlyByBook sydneyEarly [])) (Ahead (Clocks.sydney)) :=
  utc_of c61_xasx (daytime_daily (by decide) (by decide) (daytime_book (by decide) (by decide))) c63_clock_australiaSydney

example : Ahead (Clocks.sydney) (dayOf 2024 1 15) (hm 11 0) := ahead_case (by decide +kernel)
example : Ahead (Clocks.sydney) (dayOf 2024 7 15) (hm 10 0) := ahead_case (by decide +kernel)

/-- C63 for `XBKKExchangeCalendar`. -/
theorem c63_xbkk : KeepsUtc Xbkk.exchange Zones.asiaBangkok (dayOf 1700 1 2) []
    (Hours.daily (hm 10 1) (hm 16 30)) (Ahead (Clocks.fixed 1970 (hm 7 0))) :=
  utc_of c61_xbkk (daytime_daily (by decide) (by decide) (fun _ _ h => h.elim)) c63_clock_asiaBangkok

example : Ahead (Clocks.fixed 1970 (hm 7 0)) (dayOf 2024 1 15) (hm 7 0) := ahead_case (by decide +kernel)

/-- C63 for `XBOGExchangeCalendar`. -/
theorem c63_xbog : KeepsUtc Xbog.exchange Zones.americaNewYork (dayOf 1901 12 15) []
    (Hours.daily (hm 9 31) (hm 16 0)) (Ahead (Clocks.northAmerica (hm (-5) 0))) :=
  utc_of c61_xbog (daytime_daily (by decide) (by decide) (fun _ _ h => h.elim)) c63_clock_americaNewYork

example : Ahead (Clocks.northAmerica (hm (-5) 0)) (dayOf 2024 1 15) (hm (-5) 0) := ahead_case (by decide +kernel)
example : Ahead (Clocks.northAmerica (hm (-5) 0)) (dayOf 2024 7 15) (hm (-4) 0) := ahead_case (by decide +kernel)

/-- C63 for `XBOMExchangeCalendar`. -/
theorem c63_xbom : KeepsUtc Xbom.exchange Zones.asiaCalcutta (dayOf 1700 1 2) []
    (Hours.daily (hm 9 16) (hm 15 30)) (Ahead (Clocks.fixed 1970 (hm 5 30))) :=
  utc_of c61_xbom (daytime_daily (by decide) (by decide) (fun _ _ h => h.elim)) c63_clock_asiaCalcutta

example : Ahead (Clocks.fixed 1970 (hm 5 30)) (dayOf 2024 1 15) (hm 5 30) := ahead_case (by decide +kernel)

/-- C63 for `XBRUExchangeCalendar`. -/
theorem c63_xbru : KeepsUtc Xbru.exchange Zones.europeBrussels (dayOf 1918 11 13) []
    (Hours.daily (hm 9 1) (hm 17 30) (EarlyByBook euronextEarly [])) (Ahead (Clocks.europe (hm 1 0))) :=
  utc_of c61_xbru (daytime_daily (by decide) (by decide) (daytime_book (by decide) (by decide))) c63_clock_europeBrussels

example : Ahead (Clocks.europe (hm 1 0)) (dayOf 2024 1 15) (hm 1 0) := ahead_case (by decide +kernel)
example : Ahead (Clocks.europe (hm 1 0)) (dayOf 2024 7 15) (hm 2 0) := ahead_case (by decide +kernel)

/-- C63 for `XBUDExchangeCalendar`. -/
theorem c63_xbud : KeepsUtc Xbud.exchange Zones.europeBudapest (dayOf 1700 1 2) []
    (Hours.daily (hm 9 1) (hm 17 0)) (Ahead (Clocks.europe (hm 1 0))) :=
  utc_of c61_xbud (daytime_daily (by decide) (by decide) (fun _ _ h => h.elim)) c63_clock_europeBudapest

example : Ahead (Clocks.europe (hm 1 0)) (dayOf 2024 1 15) (hm 1 0) := ahead_case (by decide +kernel)
example : Ahead (Clocks.europe (hm 1 0)) (dayOf 2024 7 15) (hm 2 0) := ahead_case (by decide +kernel)

/-- C63 for `XBUEExchangeCalendar`. -/
theorem c63_xbue : KeepsUtc Xbue.exchange Zones.americaArgentinaBuenosAires (dayOf 1901 12 15) []
    (Hours.daily (hm 11 1) (hm 17 0) (EarlyByBook buenosAiresEarly [])) (Ahead (Clocks.argentina)) :=
  utc_of c61_xbue (daytime_daily (by decide) (by decide) (daytime_book (by decide) (by decide))) c63_clock_americaArgentinaBuenosAires

example : Ahead (Clocks.argentina) (dayOf 2024 1 15) (hm (-3) 0) := ahead_case (by decide +kernel)

/-- C63 for `XCBFExchangeCalendar`. -/
theorem c63_xcbf : KeepsUtc Xcbf.exchange Zones.americaChicago (dayOf 1901 12 15) []
    (Hours.daily (hm 8 31) (hm 15 15) (EarlyByBook cboeEarly [])) (Ahead (Clocks.northAmerica (hm (-6) 0))) :=
  utc_of c61_xcbf (daytime_daily (by decide) (by decide) (daytime_book (by decide) (by decide))) c63_clock_americaChicago

example : Ahead (Clocks.northAmerica (hm (-6) 0)) (dayOf 2024 1 15) (hm (-6) 0) := ahead_case (by decide +kernel)
example : Ahead (Clocks.northAmerica (hm (-6) 0)) (dayOf 2024 7 15) (hm (-5) 0) := ahead_case (by decide +kernel)

/-- C63 for `XCSEExchangeCalendar`. -/
theorem c63_xcse : KeepsUtc Xcse.exchange Zones.europeCopenhagen (dayOf 1700 1 2) []
    (Hours.daily (hm 9 1) (hm 17 0)) (Ahead (Clocks.europe (hm 1 0))) :=
  utc_of c61_xcse (daytime_daily (by decide) (by decide) (fun _ _ h => h.elim)) c63_clock_europeCopenhagen

example : Ahead (Clocks.europe (hm 1 0)) (dayOf 2024 1 15) (hm 1 0) := ahead_case (by decide +kernel)
example : Ahead (Clocks.europe (hm 1 0)) (dayOf 2024 7 15) (hm 2 0) := ahead_case (by decide +kernel)

/-- C63 for `XDUBExchangeCalendar`. -/
theorem c63_xdub : KeepsUtc Xdub.exchange Zones.europeDublin (dayOf 1700 1 2) []
    (Hours.daily (hm 8 1) (hm 16 28) (EarlyByBook dublinEarly dublinSingle)) (Ahead (Clocks.europe 0)) :=
  utc_of c61_xdub (daytime_daily (by decide) (by decide) (daytime_book (by decide) (by decide))) c63_clock_europeDublin

example : Ahead (Clocks.europe 0) (dayOf 2024 1 15) 0 := ahead_case (by decide +kernel)
example : Ahead (Clocks.europe 0) (dayOf 2024 7 15) (hm 1 0) := ahead_case (by decide +kernel)

/-- C63 for `XETRExchangeCalendar`. -/
theorem c63_xetr : KeepsUtc Xetr.exchange Zones.cet (dayOf 1700 1 2) []
    (Hours.daily (hm 9 1) (hm 17 30) (EarlyByBook xetraEarly [])) (Ahead (Clocks.europe (hm 1 0))) :=
  utc_of c61_xetr (daytime_daily (by decide) (by decide) (daytime_book (by decide) (by decide))) c63_clock_cet

example : Ahead (Clocks.europe (hm 1 0)) (dayOf 2024 1 15) (hm 1 0) := ahead_case (by decide +kernel)
example : Ahead (Clocks.europe (hm 1 0)) (dayOf 2024 7 15) (hm 2 0) := ahead_case (by decide +kernel)

/-- C63 for `XFRAExchangeCalendar`. -/
theorem c63_xfra : KeepsUtc Xfra.exchange Zones.cet (dayOf 1700 1 2) []
    (Hours.daily (hm 9 1) (hm 17 30) (EarlyByBook frankfurtEarly [])) (Ahead (Clocks.europe (hm 1 0))) :=
  utc_of c61_xfra (daytime_daily (by decide) (by decide) (daytime_book (by decide) (by decide))) c63_clock_cet

example : Ahead (Clocks.europe (hm 1 0)) (dayOf 2024 1 15) (hm 1 0) := ahead_case (by decide +kernel)
example : Ahead (Clocks.europe (hm 1 0)) (dayOf 2024 7 15) (hm 2 0) := ahead_case (by decide +kernel)

/-- C63 for `XHELExchangeCalendar`. -/
theorem c63_xhel : KeepsUtc Xhel.exchange Zones.europeHelsinki (dayOf 1700 1 2) []
    (Hours.daily (hm 10 1) (hm 18 30)) (Ahead (Clocks.europe (hm 2 0))) :=
  utc_of c61_xhel (daytime_daily (by decide) (by decide) (fun _ _ h => h.elim)) c63_clock_europeHelsinki

example : Ahead (Clocks.europe (hm 2 0)) (dayOf 2024 1 15) (hm 2 0) := ahead_case (by decide +kernel)
example : Ahead (Clocks.europe (hm 2 0)) (dayOf 2024 7 15) (hm 3 0) := ahead_case (by decide +kernel)

/-- C63 for `XHKGExchangeCalendar`. -/
theorem c63_xhkg : KeepsUtc Xhkg.exchange Zones.asiaHongKong (dayOf 1700 1 2) []
    Hours.hongKong (Ahead (Clocks.fixed 1980 (hm 8 0))) :=
  utc_of c61_xhkg ⟨daytime_open (daytime_changed (by decide) (by decide)), by rintro d t rfl; decide,
    daytime_feasts (by decide) (by decide), by rintro p h; cases h; decide⟩ c63_clock_asiaHongKong

example : Ahead (Clocks.fixed 1980 (hm 8 0)) (dayOf 2024 1 15) (hm 8 0) := ahead_case (by decide +kernel)

/-- C63 for `XICEExchangeCalendar`. -/
theorem c63_xice : KeepsUtc Xice.exchange Zones.atlanticReykjavik (dayOf 1700 1 2) []
    (Hours.daily (hm 9 31) (hm 15 30)) (Ahead (Clocks.fixed 1970 0)) :=
  utc_of c61_xice (daytime_daily (by decide) (by decide) (fun _ _ h => h.elim)) c63_clock_atlanticReykjavik

example : Ahead (Clocks.fixed 1970 0) (dayOf 2024 1 15) 0 := ahead_case (by decide +kernel)

/-- C63 for `XIDXExchangeCalendar`. -/
theorem c63_xidx : KeepsUtc Xidx.exchange Zones.asiaJakarta (dayOf 1700 1 2) []
    (Hours.daily (hm 9 1) (hm 15 50)) (Ahead (Clocks.fixed 1970 (hm 7 0))) :=
  utc_of c61_xidx (daytime_daily (by decide) (by decide) (fun _ _ h => h.elim)) c63_clock_asiaJakarta

example : Ahead (Clocks.fixed 1970 (hm 7 0)) (dayOf 2024 1 15) (hm 7 0) := ahead_case (by decide +kernel)

/-- C63 for `XISTExchangeCalendar`. -/
theorem c63_xist : KeepsUtc Xist.exchange Zones.europeIstanbul (dayOf 1700 1 2) [dayOf 2029 4 23]
    (Hours.daily (hm 10 1) (hm 18 0) (EarlyForFeasts istanbulEarly istanbulEves istanbulFullEves)) (Ahead (Clocks.turkey)) :=
  utc_of c61_xist (daytime_daily (by decide) (by decide) (daytime_feasts (by decide) (by decide))) c63_clock_europeIstanbul

example : Ahead (Clocks.turkey) (dayOf 2024 1 15) (hm 3 0) := ahead_case (by decide +kernel)

/-- C63 for `XJSEExchangeCalendar`. -/
theorem c63_xjse : KeepsUtc Xjse.exchange Zones.africaJohannesburg (dayOf 1700 1 2) []
    (Hours.daily (hm 9 1) (hm 17 0)) (Ahead (Clocks.fixed 1970 (hm 2 0))) :=
  utc_of c61_xjse (daytime_daily (by decide) (by decide) (fun _ _ h => h.elim)) c63_clock_africaJohannesburg

example : Ahead (Clocks.fixed 1970 (hm 2 0)) (dayOf 2024 1 15) (hm 2 0) := ahead_case (by decide +kernel)

/-- C63 for `XKARExchangeCalendar`. -/
theorem c63_xkar : KeepsUtc Xkar.exchange Zones.asiaKarachi (dayOf 1700 1 2) []
    (Hours.daily (hm 9 33) (hm 15 30)) (Ahead (Clocks.pakistan)) :=
  utc_of c61_xkar (daytime_daily (by decide) (by decide) (fun _ _ h => h.elim)) c63_clock_asiaKarachi

example : Ahead (Clocks.pakistan) (dayOf 2024 1 15) (hm 5 0) := ahead_case (by decide +kernel)

/-- C63 for `XKLSExchangeCalendar`. -/
theorem c63_xkls : KeepsUtc Xkls.exchange Zones.asiaKualaLumpur (dayOf 1700 1 2) [dayOf 1984 2 1, dayOf 2029 2 13, dayOf 2031 1 23, dayOf 2049 2 1]
    (Hours.daily (hm 9 1) (hm 17 0) (EarlyForFeasts [] kualaLumpurEves kualaLumpurFullEves)) (Ahead (Clocks.fixed 1982 (hm 8 0))) :=
  utc_of c61_xkls (daytime_daily (by decide) (by decide) (daytime_feasts (by decide) (by decide))) c63_clock_asiaKualaLumpur

example : Ahead (Clocks.fixed 1982 (hm 8 0)) (dayOf 2024 1 15) (hm 8 0) := ahead_case (by decide +kernel)

/-- C63 for `XKRXExchangeCalendar`. -/
theorem c63_xkrx : KeepsUtc Xkrx.exchange Zones.asiaSeoul (dayOf 1700 1 2) []
    (Hours.daily (hm 9 1) (hm 15 30)) (Ahead (Clocks.fixed 1989 (hm 9 0))) :=
  utc_of c61_xkrx (daytime_daily (by decide) (by decide) (fun _ _ h => h.elim)) c63_clock_asiaSeoul

example : Ahead (Clocks.fixed 1989 (hm 9 0)) (dayOf 2024 1 15) (hm 9 0) := ahead_case (by decide +kernel)

/-- C63 for `XLIMExchangeCalendar`. -/
theorem c63_xlim : KeepsUtc Xlim.exchange Zones.americaLima (dayOf 1901 12 15) []
    (Hours.daily (hm 9 1) (hm 16 0)) (Ahead (Clocks.fixed 1995 (hm (-5) 0))) :=
  utc_of c61_xlim (daytime_daily (by decide) (by decide) (fun _ _ h => h.elim)) c63_clock_americaLima

example : Ahead (Clocks.fixed 1995 (hm (-5) 0)) (dayOf 2024 1 15) (hm (-5) 0) := ahead_case (by decide +kernel)

/-- C63 for `XLISExchangeCalendar`. -/
theorem c63_xlis : KeepsUtc Xlis.exchange Zones.europeLisbon (dayOf 1700 1 2) []
    (Hours.daily (hm 8 1) (hm 16 30) (EarlyByBook lisbonEarly [])) (Ahead (Clocks.europe 0 1997)) :=
  utc_of c61_xlis (daytime_daily (by decide) (by decide) (daytime_book (by decide) (by decide))) c63_clock_europeLisbon

example : Ahead (Clocks.europe 0 1997) (dayOf 2024 1 15) 0 := ahead_case (by decide +kernel)
example : Ahead (Clocks.europe 0 1997) (dayOf 2024 7 15) (hm 1 0) := ahead_case (by decide +kernel)

/-- C63 for `XLONExchangeCalendar`. -/
theorem c63_xlon : KeepsUtc Xlon.exchange Zones.europeLondon (dayOf 1901 12 15) []
    (Hours.daily (hm 8 1) (hm 16 30) (EarlyByBook londonEarly [])) (Ahead (Clocks.europe 0)) :=
  utc_of c61_xlon (daytime_daily (by decide) (by decide) (daytime_book (by decide) (by decide))) c63_clock_europeLondon

example : Ahead (Clocks.europe 0) (dayOf 2024 1 15) 0 := ahead_case (by decide +kernel)
example : Ahead (Clocks.europe 0) (dayOf 2024 7 15) (hm 1 0) := ahead_case (by decide +kernel)

/-- C63 for `XMADExchangeCalendar`. -/
theorem c63_xmad : KeepsUtc Xmad.exchange Zones.europeMadrid (dayOf 1901 12 15) []
    (Hours.daily (hm 9 1) (hm 17 30) (EarlyByBook madridEarly [])) (Ahead (Clocks.europe (hm 1 0))) :=
  utc_of c61_xmad (daytime_daily (by decide) (by decide) (daytime_book (by decide) (by decide))) c63_clock_europeMadrid

example : Ahead (Clocks.europe (hm 1 0)) (dayOf 2024 1 15) (hm 1 0) := ahead_case (by decide +kernel)
example : Ahead (Clocks.europe (hm 1 0)) (dayOf 2024 7 15) (hm 2 0) := ahead_case (by decide +kernel)

/-- C63 for `XMEXExchangeCalendar`. -/
theorem c63_xmex : KeepsUtc Xmex.exchange Zones.americaMexicoCity (dayOf 1700 1 2) []
    (Hours.daily (hm 8 31) (hm 15 0)) (Ahead (Clocks.mexico)) :=
  utc_of c61_xmex (daytime_daily (by decide) (by decide) (fun _ _ h => h.elim)) c63_clock_americaMexicoCity

example : Ahead (Clocks.mexico) (dayOf 2024 1 15) (hm (-6) 0) := ahead_case (by decide +kernel)

/-- C63 for `XMILExchangeCalendar`. -/
theorem c63_xmil : KeepsUtc Xmil.exchange Zones.europeRome (dayOf 1700 1 2) []
    (Hours.daily (hm 9 1) (hm 17 30)) (Ahead (Clocks.europe (hm 1 0))) :=
  utc_of c61_xmil (daytime_daily (by decide) (by decide) (fun _ _ h => h.elim)) c63_clock_europeRome

example : Ahead (Clocks.europe (hm 1 0)) (dayOf 2024 1 15) (hm 1 0) := ahead_case (by decide +kernel)
example : Ahead (Clocks.europe (hm 1 0)) (dayOf 2024 7 15) (hm 2 0) := ahead_case (by decide +kernel)

/-- C63 for `XMOSExchangeCalendar`. -/
theorem c63_xmos : KeepsUtc Xmos.exchange Zones.europeMoscow (dayOf 1700 1 2) []
    (Hours.daily (hm 10 1) (hm 18 45)) (Ahead (Clocks.moscow)) :=
  utc_of c61_xmos (daytime_daily (by decide) (by decide) (fun _ _ h => h.elim)) c63_clock_europeMoscow

example : Ahead (Clocks.moscow) (dayOf 2024 1 15) (hm 3 0) := ahead_case (by decide +kernel)

/-- C63 for `XNYSExchangeCalendar`. -/
theorem c63_xnys : KeepsUtc Xnys.exchange Zones.americaNewYork (dayOf 1901 12 15) [dayOf 1945 12 24, dayOf 1956 12 24]
    (Hours.daily (hm 9 31) (hm 16 0) (EarlyByBook newYorkEarly newYorkSingle)) (Ahead (Clocks.northAmerica (hm (-5) 0))) :=
  utc_of c61_xnys (daytime_daily (by decide) (by decide) (daytime_book (by decide) (by decide))) c63_clock_americaNewYork

example : Ahead (Clocks.northAmerica (hm (-5) 0)) (dayOf 2024 1 15) (hm (-5) 0) := ahead_case (by decide +kernel)
example : Ahead (Clocks.northAmerica (hm (-5) 0)) (dayOf 2024 7 15) (hm (-4) 0) := ahead_case (by decide +kernel)

/-- C63 for `XNZEExchangeCalendar`. -/
theorem c63_xnze : KeepsUtc Xnze.exchange Zones.nz (dayOf 1901 12 16) []
    (Hours.daily (hm 10 1) (hm 16 45) (EarlyByBook wellingtonEarly [])) (Ahead (Clocks.newZealand)) :=
  utc_of c61_xnze (daytime_daily (by decide) (by decide) (daytime_book (by decide) (by decide))) c63_clock_nz

example : Ahead (Clocks.newZealand) (dayOf 2024 1 15) (hm 13 0) := ahead_case (by decide +kernel)
example : Ahead (Clocks.newZealand) (dayOf 2024 7 15) (hm 12 0) := ahead_case (by decide +kernel)

/-- C63 for `XOSLExchangeCalendar`. -/
theorem c63_xosl : KeepsUtc Xosl.exchange Zones.europeOslo (dayOf 1700 1 2) []
    (Hours.daily (hm 9 1) (hm 16 20) (EarlyByBook osloEarly [])) (Ahead (Clocks.europe (hm 1 0))) :=
  utc_of c61_xosl (daytime_daily (by decide) (by decide) (daytime_book (by decide) (by decide))) c63_clock_europeOslo

example : Ahead (Clocks.europe (hm 1 0)) (dayOf 2024 1 15) (hm 1 0) := ahead_case (by decide +kernel)
example : Ahead (Clocks.europe (hm 1 0)) (dayOf 2024 7 15) (hm 2 0) := ahead_case (by decide +kernel)

/-- C63 for `XPARExchangeCalendar`. -/
theorem c63_xpar : KeepsUtc Xpar.exchange Zones.europeParis (dayOf 1700 1 2) []
    (Hours.daily (hm 9 1) (hm 17 30) (EarlyByBook euronextEarly [])) (Ahead (Clocks.europe (hm 1 0))) :=
  utc_of c61_xpar (daytime_daily (by decide) (by decide) (daytime_book (by decide) (by decide))) c63_clock_europeParis

example : Ahead (Clocks.europe (hm 1 0)) (dayOf 2024 1 15) (hm 1 0) := ahead_case (by decide +kernel)
example : Ahead (Clocks.europe (hm 1 0)) (dayOf 2024 7 15) (hm 2 0) := ahead_case (by decide +kernel)

/-- C63 for `XPHSExchangeCalendar`. -/
theorem c63_xphs : KeepsUtc Xphs.exchange Zones.asiaManila (dayOf 1901 12 15) []
    (Hours.daily (hm 9 31) (hm 15 30)) (Ahead (Clocks.fixed 1991 (hm 8 0))) :=
  utc_of c61_xphs (daytime_daily (by decide) (by decide) (fun _ _ h => h.elim)) c63_clock_asiaManila

example : Ahead (Clocks.fixed 1991 (hm 8 0)) (dayOf 2024 1 15) (hm 8 0) := ahead_case (by decide +kernel)

/-- C63 for `XPRAExchangeCalendar`. -/
theorem c63_xpra : KeepsUtc Xpra.exchange Zones.europePrague (dayOf 1700 1 2) []
    (Hours.daily (hm 9 1) (hm 16 20)) (Ahead (Clocks.europe (hm 1 0))) :=
  utc_of c61_xpra (daytime_daily (by decide) (by decide) (fun _ _ h => h.elim)) c63_clock_europePrague

example : Ahead (Clocks.europe (hm 1 0)) (dayOf 2024 1 15) (hm 1 0) := ahead_case (by decide +kernel)
example : Ahead (Clocks.europe (hm 1 0)) (dayOf 2024 7 15) (hm 2 0) := ahead_case (by decide +kernel)

/-- C63 for `XSESExchangeCalendar`. -/
theorem c63_xses : KeepsUtc Xses.exchange Zones.asiaSingapore (dayOf 1700 1 2) []
    (Hours.daily (hm 9 1) (hm 17 0)) (Ahead (Clocks.fixed 1982 (hm 8 0))) :=
  utc_of c61_xses (daytime_daily (by decide) (by decide) (fun _ _ h => h.elim)) c63_clock_asiaSingapore

example : Ahead (Clocks.fixed 1982 (hm 8 0)) (dayOf 2024 1 15) (hm 8 0) := ahead_case (by decide +kernel)

/-- C63 for `XSGOExchangeCalendar`. -/
theorem c63_xsgo : KeepsUtc Xsgo.exchange Zones.americaSantiago (dayOf 1700 1 2) []
    Hours.santiago (Ahead (Clocks.chile)) :=
  utc_of c61_xsgo ⟨by rintro d t rfl; decide, daytime_santiago, daytime_book (by decide) (by decide),
    fun _ h => by cases h⟩ c63_clock_americaSantiago

example : Ahead (Clocks.chile) (dayOf 2024 1 15) (hm (-3) 0) := ahead_case (by decide +kernel)
example : Ahead (Clocks.chile) (dayOf 2024 7 15) (hm (-4) 0) := ahead_case (by decide +kernel)

/-- C63 for `XSHGExchangeCalendar`. -/
theorem c63_xshg : KeepsUtc Xshg.exchange Zones.asiaShanghai (dayOf 1700 1 2) []
    (Hours.daily (hm 9 31) (hm 15 0)) (Ahead (Clocks.fixed 1992 (hm 8 0))) :=
  utc_of c61_xshg (daytime_daily (by decide) (by decide) (fun _ _ h => h.elim)) c63_clock_asiaShanghai

example : Ahead (Clocks.fixed 1992 (hm 8 0)) (dayOf 2024 1 15) (hm 8 0) := ahead_case (by decide +kernel)

/-- C63 for `XSTOExchangeCalendar`. -/
theorem c63_xsto : KeepsUtc Xsto.exchange Zones.europeStockholm (dayOf 1700 1 2) []
    (Hours.daily (hm 9 1) (hm 17 30) (EarlyByBook stockholmEarly [])) (Ahead (Clocks.europe (hm 1 0))) :=
  utc_of c61_xsto (daytime_daily (by decide) (by decide) (daytime_book (by decide) (by decide))) c63_clock_europeStockholm

example : Ahead (Clocks.europe (hm 1 0)) (dayOf 2024 1 15) (hm 1 0) := ahead_case (by decide +kernel)
example : Ahead (Clocks.europe (hm 1 0)) (dayOf 2024 7 15) (hm 2 0) := ahead_case (by decide +kernel)

/-- C63 for `XSWXExchangeCalendar`. -/
theorem c63_xswx : KeepsUtc Xswx.exchange Zones.europeZurich (dayOf 1700 1 2) []
    (Hours.daily (hm 9 1) (hm 17 30)) (Ahead (Clocks.europe (hm 1 0))) :=
  utc_of c61_xswx (daytime_daily (by decide) (by decide) (fun _ _ h => h.elim)) c63_clock_europeZurich

example : Ahead (Clocks.europe (hm 1 0)) (dayOf 2024 1 15) (hm 1 0) := ahead_case (by decide +kernel)
example : Ahead (Clocks.europe (hm 1 0)) (dayOf 2024 7 15) (hm 2 0) := ahead_case (by decide +kernel)

/-- C63 for `XTAEExchangeCalendar`. -/
theorem c63_xtae : KeepsUtc Xtae.exchange Zones.asiaTelAviv (dayOf 1700 1 2) []
    (Hours.daily (hm 10 0) (hm 17 15)) (Ahead (Clocks.israel)) :=
  utc_of c61_xtae (daytime_daily (by decide) (by decide) (fun _ _ h => h.elim)) c63_clock_asiaTelAviv

example : Ahead (Clocks.israel) (dayOf 2024 1 15) (hm 2 0) := ahead_case (by decide +kernel)
example : Ahead (Clocks.israel) (dayOf 2024 7 15) (hm 3 0) := ahead_case (by decide +kernel)

/-- C63 for `XTAIExchangeCalendar`. -/
theorem c63_xtai : KeepsUtc Xtai.exchange Zones.asiaTaipei (dayOf 1700 1 2) []
    (Hours.daily (hm 9 1) (hm 13 30)) (Ahead (Clocks.fixed 1980 (hm 8 0))) :=
  utc_of c61_xtai (daytime_daily (by decide) (by decide) (fun _ _ h => h.elim)) c63_clock_asiaTaipei

example : Ahead (Clocks.fixed 1980 (hm 8 0)) (dayOf 2024 1 15) (hm 8 0) := ahead_case (by decide +kernel)

/-- C63 for `XTKSExchangeCalendar`. -/
theorem c63_xtks : KeepsUtc Xtks.exchange Zones.asiaTokyo (dayOf 1700 1 2) []
    (Hours.daily (hm 9 1) (hm 15 0)) (Ahead (Clocks.fixed 1970 (hm 9 0))) :=
  utc_of c61_xtks (daytime_daily (by decide) (by decide) (fun _ _ h => h.elim)) c63_clock_asiaTokyo

example : Ahead (Clocks.fixed 1970 (hm 9 0)) (dayOf 2024 1 15) (hm 9 0) := ahead_case (by decide +kernel)

/-- C63 for `XTSEExchangeCalendar`. -/
theorem c63_xtse : KeepsUtc Xtse.exchange Zones.americaToronto (dayOf 1901 12 15) []
    (Hours.daily (hm 9 31) (hm 16 0) (EarlyByBook torontoEarly [])) (Ahead (Clocks.northAmerica (hm (-5) 0))) :=
  utc_of c61_xtse (daytime_daily (by decide) (by decide) (daytime_book (by decide) (by decide))) c63_clock_americaToronto

example : Ahead (Clocks.northAmerica (hm (-5) 0)) (dayOf 2024 1 15) (hm (-5) 0) := ahead_case (by decide +kernel)
example : Ahead (Clocks.northAmerica (hm (-5) 0)) (dayOf 2024 7 15) (hm (-4) 0) := ahead_case (by decide +kernel)

/-- C63 for `XWARExchangeCalendar`. -/
theorem c63_xwar : KeepsUtc Xwar.exchange Zones.europeWarsaw (dayOf 1700 1 2) []
    (Hours.daily (hm 9 1) (hm 17 0)) (Ahead (Clocks.europe (hm 1 0))) :=
  utc_of c61_xwar (daytime_daily (by decide) (by decide) (fun _ _ h => h.elim)) c63_clock_europeWarsaw

example : Ahead (Clocks.europe (hm 1 0)) (dayOf 2024 1 15) (hm 1 0) := ahead_case (by decide +kernel)
example : Ahead (Clocks.europe (hm 1 0)) (dayOf 2024 7 15) (hm 2 0) := ahead_case (by decide +kernel)

/-- C63 for `XWBOExchangeCalendar`. -/
theorem c63_xwbo : KeepsUtc Xwbo.exchange Zones.europeVienna (dayOf 1700 1 2) []
    (Hours.daily (hm 9 1) (hm 17 30)) (Ahead (Clocks.europe (hm 1 0))) :=
  utc_of c61_xwbo (daytime_daily (by decide) (by decide) (fun _ _ h => h.elim)) c63_clock_europeVienna

example : Ahead (Clocks.europe (hm 1 0)) (dayOf 2024 1 15) (hm 1 0) := ahead_case (by decide +kernel)
example : Ahead (Clocks.europe (hm 1 0)) (dayOf 2024 7 15) (hm 2 0) := ahead_case (by decide +kernel)

end TC.Props
