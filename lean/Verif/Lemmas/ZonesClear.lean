import Verif.Lemmas.ZoneCheck
import Verif.Lemmas.Civil
import Verif.Model.Zones

/-! The zones of the calendars change their clocks at night only, from the given day on.  Written by
`tools/gen_props.py`. -/

namespace TC

theorem clear_africaJohannesburg : ClearFrom Zones.africaJohannesburg (dayOf 1700 1 1) :=
  clearFrom_of (by decide +kernel)

theorem clear_americaArgentinaBuenosAires : ClearFrom Zones.americaArgentinaBuenosAires (dayOf 1901 12 14) :=
  clearFrom_of (by decide +kernel)

theorem clear_americaChicago : ClearFrom Zones.americaChicago (dayOf 1901 12 14) :=
  clearFrom_of (by decide +kernel)

theorem clear_americaLima : ClearFrom Zones.americaLima (dayOf 1901 12 14) :=
  clearFrom_of (by decide +kernel)

theorem clear_americaMexicoCity : ClearFrom Zones.americaMexicoCity (dayOf 1700 1 1) :=
  clearFrom_of (by decide +kernel)

theorem clear_americaNewYork : ClearFrom Zones.americaNewYork (dayOf 1901 12 14) :=
  clearFrom_of (by decide +kernel)

theorem clear_americaSantiago : ClearFrom Zones.americaSantiago (dayOf 1700 1 1) :=
  clearFrom_of (by decide +kernel)

theorem clear_americaSaoPaulo : ClearFrom Zones.americaSaoPaulo (dayOf 1931 10 4) :=
  clearFrom_of (by decide +kernel)

theorem clear_americaToronto : ClearFrom Zones.americaToronto (dayOf 1901 12 14) :=
  clearFrom_of (by decide +kernel)

theorem clear_asiaBangkok : ClearFrom Zones.asiaBangkok (dayOf 1700 1 1) :=
  clearFrom_of (by decide +kernel)

theorem clear_asiaCalcutta : ClearFrom Zones.asiaCalcutta (dayOf 1700 1 1) :=
  clearFrom_of (by decide +kernel)

theorem clear_asiaHongKong : ClearFrom Zones.asiaHongKong (dayOf 1700 1 1) :=
  clearFrom_of (by decide +kernel)

theorem clear_asiaJakarta : ClearFrom Zones.asiaJakarta (dayOf 1700 1 1) :=
  clearFrom_of (by decide +kernel)

theorem clear_asiaKarachi : ClearFrom Zones.asiaKarachi (dayOf 1700 1 1) :=
  clearFrom_of (by decide +kernel)

theorem clear_asiaKualaLumpur : ClearFrom Zones.asiaKualaLumpur (dayOf 1700 1 1) :=
  clearFrom_of (by decide +kernel)

theorem clear_asiaManila : ClearFrom Zones.asiaManila (dayOf 1901 12 14) :=
  clearFrom_of (by decide +kernel)

theorem clear_asiaSeoul : ClearFrom Zones.asiaSeoul (dayOf 1700 1 1) :=
  clearFrom_of (by decide +kernel)

theorem clear_asiaShanghai : ClearFrom Zones.asiaShanghai (dayOf 1700 1 1) :=
  clearFrom_of (by decide +kernel)

theorem clear_asiaSingapore : ClearFrom Zones.asiaSingapore (dayOf 1700 1 1) :=
  clearFrom_of (by decide +kernel)

theorem clear_asiaTaipei : ClearFrom Zones.asiaTaipei (dayOf 1700 1 1) :=
  clearFrom_of (by decide +kernel)

theorem clear_asiaTelAviv : ClearFrom Zones.asiaTelAviv (dayOf 1700 1 1) :=
  clearFrom_of (by decide +kernel)

theorem clear_asiaTokyo : ClearFrom Zones.asiaTokyo (dayOf 1700 1 1) :=
  clearFrom_of (by decide +kernel)

theorem clear_atlanticReykjavik : ClearFrom Zones.atlanticReykjavik (dayOf 1700 1 1) :=
  clearFrom_of (by decide +kernel)

theorem clear_australiaSydney : ClearFrom Zones.australiaSydney (dayOf 1700 1 1) :=
  clearFrom_of (by decide +kernel)

theorem clear_cet : ClearFrom Zones.cet (dayOf 1700 1 1) :=
  clearFrom_of (by decide +kernel)

theorem clear_europeAmsterdam : ClearFrom Zones.europeAmsterdam (dayOf 1700 1 1) :=
  clearFrom_of (by decide +kernel)

theorem clear_europeAthens : ClearFrom Zones.europeAthens (dayOf 1979 4 2) :=
  clearFrom_of (by decide +kernel)

theorem clear_europeBrussels : ClearFrom Zones.europeBrussels (dayOf 1918 11 12) :=
  clearFrom_of (by decide +kernel)

theorem clear_europeBudapest : ClearFrom Zones.europeBudapest (dayOf 1700 1 1) :=
  clearFrom_of (by decide +kernel)

theorem clear_europeCopenhagen : ClearFrom Zones.europeCopenhagen (dayOf 1700 1 1) :=
  clearFrom_of (by decide +kernel)

theorem clear_europeDublin : ClearFrom Zones.europeDublin (dayOf 1700 1 1) :=
  clearFrom_of (by decide +kernel)

theorem clear_europeHelsinki : ClearFrom Zones.europeHelsinki (dayOf 1700 1 1) :=
  clearFrom_of (by decide +kernel)

theorem clear_europeIstanbul : ClearFrom Zones.europeIstanbul (dayOf 1700 1 1) :=
  clearFrom_of (by decide +kernel)

theorem clear_europeLisbon : ClearFrom Zones.europeLisbon (dayOf 1700 1 1) :=
  clearFrom_of (by decide +kernel)

theorem clear_europeLondon : ClearFrom Zones.europeLondon (dayOf 1901 12 14) :=
  clearFrom_of (by decide +kernel)

theorem clear_europeMadrid : ClearFrom Zones.europeMadrid (dayOf 1901 12 14) :=
  clearFrom_of (by decide +kernel)

theorem clear_europeMoscow : ClearFrom Zones.europeMoscow (dayOf 1700 1 1) :=
  clearFrom_of (by decide +kernel)

theorem clear_europeOslo : ClearFrom Zones.europeOslo (dayOf 1700 1 1) :=
  clearFrom_of (by decide +kernel)

theorem clear_europeParis : ClearFrom Zones.europeParis (dayOf 1700 1 1) :=
  clearFrom_of (by decide +kernel)

theorem clear_europePrague : ClearFrom Zones.europePrague (dayOf 1700 1 1) :=
  clearFrom_of (by decide +kernel)

theorem clear_europeRome : ClearFrom Zones.europeRome (dayOf 1700 1 1) :=
  clearFrom_of (by decide +kernel)

theorem clear_europeStockholm : ClearFrom Zones.europeStockholm (dayOf 1700 1 1) :=
  clearFrom_of (by decide +kernel)

theorem clear_europeVienna : ClearFrom Zones.europeVienna (dayOf 1700 1 1) :=
  clearFrom_of (by decide +kernel)

theorem clear_europeWarsaw : ClearFrom Zones.europeWarsaw (dayOf 1700 1 1) :=
  clearFrom_of (by decide +kernel)

theorem clear_europeZurich : ClearFrom Zones.europeZurich (dayOf 1700 1 1) :=
  clearFrom_of (by decide +kernel)

theorem clear_nz : ClearFrom Zones.nz (dayOf 1901 12 15) :=
  clearFrom_of (by decide +kernel)

end TC
