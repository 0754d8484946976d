import Verif.Lemmas.Clocks

/-!
# Clocks (C63)

The time zones of the exchanges obey the laws of `Spec.Clocks`.  Each theorem is followed by a case: a day of summer time and
one of standard time, or one day where there is no summer time.
-/

namespace TC.Props
open Spec Spec.Books Spec.Hours

set_option maxRecDepth 100000

/-- C63: on every day of the years of a law the law gives an offset, and only one. -/
theorem c63_ahead_unique (p : ClockYears) (y m n d : Int) (hd : DayNumber ⟨y, m, n⟩ d) (h1 : p.first ≤ y)
    (h2 : ∀ l, p.last = some l → y ≤ l) : ∃ k, p.Ahead d k ∧ ∀ k', p.Ahead d k' → k' = k := by
  obtain ⟨k, hk⟩ := ahead_of hd h1 h2
  exact ⟨k, hk, fun k' hk' => ahead_unique hk' hk⟩

example : ∃ k, ({ first := 2000, std := hm 1 0, rule := some Clocks.lastSundays } : ClockYears).Ahead
    (dayOf 2019 7 1) k :=
  (c63_ahead_unique _ 2019 7 1 _ ((dayNumber_iff _ _).2 ⟨by decide, rfl⟩) (by decide) (by simp)).imp
    fun _ h => h.1

/-- C63 for this time zone. -/
theorem c63_clock_africaJohannesburg : ClockObeys Zones.africaJohannesburg (Clocks.fixed 1970 (hm 2 0)) :=
  clock_of clear_africaJohannesburg (by decide +kernel)

example : Ahead (Clocks.fixed 1970 (hm 2 0)) (dayOf 2024 1 15) (hm 2 0) := ahead_case (by decide +kernel)

/-- C63 for this time zone. -/
theorem c63_clock_americaArgentinaBuenosAires : ClockObeys Zones.americaArgentinaBuenosAires (Clocks.argentina) :=
  clock_of clear_americaArgentinaBuenosAires (by decide +kernel)

example : Ahead (Clocks.argentina) (dayOf 2024 1 15) (hm (-3) 0) := ahead_case (by decide +kernel)

/-- C63 for this time zone. -/
theorem c63_clock_americaChicago : ClockObeys Zones.americaChicago (Clocks.northAmerica (hm (-6) 0)) :=
  clock_of clear_americaChicago (by decide +kernel)

example : Ahead (Clocks.northAmerica (hm (-6) 0)) (dayOf 2024 1 15) (hm (-6) 0) := ahead_case (by decide +kernel)
example : Ahead (Clocks.northAmerica (hm (-6) 0)) (dayOf 2024 7 15) (hm (-5) 0) := ahead_case (by decide +kernel)

/-- C63 for this time zone. -/
theorem c63_clock_americaLima : ClockObeys Zones.americaLima (Clocks.fixed 1995 (hm (-5) 0)) :=
  clock_of clear_americaLima (by decide +kernel)

example : Ahead (Clocks.fixed 1995 (hm (-5) 0)) (dayOf 2024 1 15) (hm (-5) 0) := ahead_case (by decide +kernel)

/-- C63 for this time zone. -/
theorem c63_clock_americaMexicoCity : ClockObeys Zones.americaMexicoCity (Clocks.mexico) :=
  clock_of clear_americaMexicoCity (by decide +kernel)

example : Ahead (Clocks.mexico) (dayOf 2024 1 15) (hm (-6) 0) := ahead_case (by decide +kernel)

/-- C63 for this time zone. -/
theorem c63_clock_americaNewYork : ClockObeys Zones.americaNewYork (Clocks.northAmerica (hm (-5) 0)) :=
  clock_of clear_americaNewYork (by decide +kernel)

example : Ahead (Clocks.northAmerica (hm (-5) 0)) (dayOf 2024 1 15) (hm (-5) 0) := ahead_case (by decide +kernel)
example : Ahead (Clocks.northAmerica (hm (-5) 0)) (dayOf 2024 7 15) (hm (-4) 0) := ahead_case (by decide +kernel)

/-- C63 for this time zone. -/
theorem c63_clock_americaSantiago : ClockObeys Zones.americaSantiago (Clocks.chile) :=
  clock_of clear_americaSantiago (by decide +kernel)

example : Ahead (Clocks.chile) (dayOf 2024 1 15) (hm (-3) 0) := ahead_case (by decide +kernel)
example : Ahead (Clocks.chile) (dayOf 2024 7 15) (hm (-4) 0) := ahead_case (by decide +kernel)

/-- C63 for this time zone. -/
theorem c63_clock_americaSaoPaulo : ClockObeys Zones.americaSaoPaulo (Clocks.brazil) :=
  clock_of clear_americaSaoPaulo (by decide +kernel)

example : Ahead (Clocks.brazil) (dayOf 2024 1 15) (hm (-3) 0) := ahead_case (by decide +kernel)

/-- C63 for this time zone. -/
theorem c63_clock_americaToronto : ClockObeys Zones.americaToronto (Clocks.northAmerica (hm (-5) 0)) :=
  clock_of clear_americaToronto (by decide +kernel)

example : Ahead (Clocks.northAmerica (hm (-5) 0)) (dayOf 2024 1 15) (hm (-5) 0) := ahead_case (by decide +kernel)
example : Ahead (Clocks.northAmerica (hm (-5) 0)) (dayOf 2024 7 15) (hm (-4) 0) := ahead_case (by decide +kernel)

/-- C63 for this time zone. -/
theorem c63_clock_asiaBangkok : ClockObeys Zones.asiaBangkok (Clocks.fixed 1970 (hm 7 0)) :=
  clock_of clear_asiaBangkok (by decide +kernel)

example : Ahead (Clocks.fixed 1970 (hm 7 0)) (dayOf 2024 1 15) (hm 7 0) := ahead_case (by decide +kernel)

/-- C63 for this time zone. -/
theorem c63_clock_asiaCalcutta : ClockObeys Zones.asiaCalcutta (Clocks.fixed 1970 (hm 5 30)) :=
  clock_of clear_asiaCalcutta (by decide +kernel)

example : Ahead (Clocks.fixed 1970 (hm 5 30)) (dayOf 2024 1 15) (hm 5 30) := ahead_case (by decide +kernel)

/-- C63 for this time zone. -/
theorem c63_clock_asiaHongKong : ClockObeys Zones.asiaHongKong (Clocks.fixed 1980 (hm 8 0)) :=
  clock_of clear_asiaHongKong (by decide +kernel)

example : Ahead (Clocks.fixed 1980 (hm 8 0)) (dayOf 2024 1 15) (hm 8 0) := ahead_case (by decide +kernel)

/-- C63 for this time zone. -/
theorem c63_clock_asiaJakarta : ClockObeys Zones.asiaJakarta (Clocks.fixed 1970 (hm 7 0)) :=
  clock_of clear_asiaJakarta (by decide +kernel)

example : Ahead (Clocks.fixed 1970 (hm 7 0)) (dayOf 2024 1 15) (hm 7 0) := ahead_case (by decide +kernel)

/-- C63 for this time zone. -/
theorem c63_clock_asiaKarachi : ClockObeys Zones.asiaKarachi (Clocks.pakistan) :=
  clock_of clear_asiaKarachi (by decide +kernel)

example : Ahead (Clocks.pakistan) (dayOf 2024 1 15) (hm 5 0) := ahead_case (by decide +kernel)

/-- C63 for this time zone. -/
theorem c63_clock_asiaKualaLumpur : ClockObeys Zones.asiaKualaLumpur (Clocks.fixed 1982 (hm 8 0)) :=
  clock_of clear_asiaKualaLumpur (by decide +kernel)

example : Ahead (Clocks.fixed 1982 (hm 8 0)) (dayOf 2024 1 15) (hm 8 0) := ahead_case (by decide +kernel)

/-- C63 for this time zone. -/
theorem c63_clock_asiaManila : ClockObeys Zones.asiaManila (Clocks.fixed 1991 (hm 8 0)) :=
  clock_of clear_asiaManila (by decide +kernel)

example : Ahead (Clocks.fixed 1991 (hm 8 0)) (dayOf 2024 1 15) (hm 8 0) := ahead_case (by decide +kernel)

/-- C63 for this time zone. -/
theorem c63_clock_asiaSeoul : ClockObeys Zones.asiaSeoul (Clocks.fixed 1989 (hm 9 0)) :=
  clock_of clear_asiaSeoul (by decide +kernel)

example : Ahead (Clocks.fixed 1989 (hm 9 0)) (dayOf 2024 1 15) (hm 9 0) := ahead_case (by decide +kernel)

/-- C63 for this time zone. -/
theorem c63_clock_asiaShanghai : ClockObeys Zones.asiaShanghai (Clocks.fixed 1992 (hm 8 0)) :=
  clock_of clear_asiaShanghai (by decide +kernel)

example : Ahead (Clocks.fixed 1992 (hm 8 0)) (dayOf 2024 1 15) (hm 8 0) := ahead_case (by decide +kernel)

/-- C63 for this time zone. -/
theorem c63_clock_asiaSingapore : ClockObeys Zones.asiaSingapore (Clocks.fixed 1982 (hm 8 0)) :=
  clock_of clear_asiaSingapore (by decide +kernel)

example : Ahead (Clocks.fixed 1982 (hm 8 0)) (dayOf 2024 1 15) (hm 8 0) := ahead_case (by decide +kernel)

/-- C63 for this time zone. -/
theorem c63_clock_asiaTaipei : ClockObeys Zones.asiaTaipei (Clocks.fixed 1980 (hm 8 0)) :=
  clock_of clear_asiaTaipei (by decide +kernel)

example : Ahead (Clocks.fixed 1980 (hm 8 0)) (dayOf 2024 1 15) (hm 8 0) := ahead_case (by decide +kernel)

/-- C63 for this time zone. -/
theorem c63_clock_asiaTelAviv : ClockObeys Zones.asiaTelAviv (Clocks.israel) :=
  clock_of clear_asiaTelAviv (by decide +kernel)

example : Ahead (Clocks.israel) (dayOf 2024 1 15) (hm 2 0) := ahead_case (by decide +kernel)
example : Ahead (Clocks.israel) (dayOf 2024 7 15) (hm 3 0) := ahead_case (by decide +kernel)

/-- C63 for this time zone. -/
theorem c63_clock_asiaTokyo : ClockObeys Zones.asiaTokyo (Clocks.fixed 1970 (hm 9 0)) :=
  clock_of clear_asiaTokyo (by decide +kernel)

example : Ahead (Clocks.fixed 1970 (hm 9 0)) (dayOf 2024 1 15) (hm 9 0) := ahead_case (by decide +kernel)

/-- C63 for this time zone. -/
theorem c63_clock_atlanticReykjavik : ClockObeys Zones.atlanticReykjavik (Clocks.fixed 1970 0) :=
  clock_of clear_atlanticReykjavik (by decide +kernel)

example : Ahead (Clocks.fixed 1970 0) (dayOf 2024 1 15) 0 := ahead_case (by decide +kernel)

/-- C63 for this time zone. -/
theorem c63_clock_australiaSydney : ClockObeys Zones.australiaSydney (Clocks.sydney) :=
  clock_of clear_australiaSydney (by decide +kernel)

example : Ahead (Clocks.sydney) (dayOf 2024 1 15) (hm 11 0) := ahead_case (by decide +kernel)
example : Ahead (Clocks.sydney) (dayOf 2024 7 15) (hm 10 0) := ahead_case (by decide +kernel)

/-- C63 for this time zone. -/
theorem c63_clock_cet : ClockObeys Zones.cet (Clocks.europe (hm 1 0)) :=
  clock_of clear_cet (by decide +kernel)

example : Ahead (Clocks.europe (hm 1 0)) (dayOf 2024 1 15) (hm 1 0) := ahead_case (by decide +kernel)
example : Ahead (Clocks.europe (hm 1 0)) (dayOf 2024 7 15) (hm 2 0) := ahead_case (by decide +kernel)

/-- C63 for this time zone. -/
theorem c63_clock_europeAmsterdam : ClockObeys Zones.europeAmsterdam (Clocks.europe (hm 1 0)) :=
  clock_of clear_europeAmsterdam (by decide +kernel)

example : Ahead (Clocks.europe (hm 1 0)) (dayOf 2024 1 15) (hm 1 0) := ahead_case (by decide +kernel)
example : Ahead (Clocks.europe (hm 1 0)) (dayOf 2024 7 15) (hm 2 0) := ahead_case (by decide +kernel)

/-- C63 for this time zone. -/
theorem c63_clock_europeAthens : ClockObeys Zones.europeAthens (Clocks.europe (hm 2 0)) :=
  clock_of clear_europeAthens (by decide +kernel)

example : Ahead (Clocks.europe (hm 2 0)) (dayOf 2024 1 15) (hm 2 0) := ahead_case (by decide +kernel)
example : Ahead (Clocks.europe (hm 2 0)) (dayOf 2024 7 15) (hm 3 0) := ahead_case (by decide +kernel)

/-- C63 for this time zone. -/
theorem c63_clock_europeBrussels : ClockObeys Zones.europeBrussels (Clocks.europe (hm 1 0)) :=
  clock_of clear_europeBrussels (by decide +kernel)

example : Ahead (Clocks.europe (hm 1 0)) (dayOf 2024 1 15) (hm 1 0) := ahead_case (by decide +kernel)
example : Ahead (Clocks.europe (hm 1 0)) (dayOf 2024 7 15) (hm 2 0) := ahead_case (by decide +kernel)

/-- C63 for this time zone. -/
theorem c63_clock_europeBudapest : ClockObeys Zones.europeBudapest (Clocks.europe (hm 1 0)) :=
  clock_of clear_europeBudapest (by decide +kernel)

example : Ahead (Clocks.europe (hm 1 0)) (dayOf 2024 1 15) (hm 1 0) := ahead_case (by decide +kernel)
example : Ahead (Clocks.europe (hm 1 0)) (dayOf 2024 7 15) (hm 2 0) := ahead_case (by decide +kernel)

/-- C63 for this time zone. -/
theorem c63_clock_europeCopenhagen : ClockObeys Zones.europeCopenhagen (Clocks.europe (hm 1 0)) :=
  clock_of clear_europeCopenhagen (by decide +kernel)

example : Ahead (Clocks.europe (hm 1 0)) (dayOf 2024 1 15) (hm 1 0) := ahead_case (by decide +kernel)
example : Ahead (Clocks.europe (hm 1 0)) (dayOf 2024 7 15) (hm 2 0) := ahead_case (by decide +kernel)

/-- C63 for this time zone. -/
theorem c63_clock_europeDublin : ClockObeys Zones.europeDublin (Clocks.europe 0) :=
  clock_of clear_europeDublin (by decide +kernel)

example : Ahead (Clocks.europe 0) (dayOf 2024 1 15) 0 := ahead_case (by decide +kernel)
example : Ahead (Clocks.europe 0) (dayOf 2024 7 15) (hm 1 0) := ahead_case (by decide +kernel)

/-- C63 for this time zone. -/
theorem c63_clock_europeHelsinki : ClockObeys Zones.europeHelsinki (Clocks.europe (hm 2 0)) :=
  clock_of clear_europeHelsinki (by decide +kernel)

example : Ahead (Clocks.europe (hm 2 0)) (dayOf 2024 1 15) (hm 2 0) := ahead_case (by decide +kernel)
example : Ahead (Clocks.europe (hm 2 0)) (dayOf 2024 7 15) (hm 3 0) := ahead_case (by decide +kernel)

/-- C63 for this time zone. -/
theorem c63_clock_europeIstanbul : ClockObeys Zones.europeIstanbul (Clocks.turkey) :=
  clock_of clear_europeIstanbul (by decide +kernel)

example : Ahead (Clocks.turkey) (dayOf 2024 1 15) (hm 3 0) := ahead_case (by decide +kernel)

/-- C63 for this time zone. -/
theorem c63_clock_europeLisbon : ClockObeys Zones.europeLisbon (Clocks.europe 0 1997) :=
  clock_of clear_europeLisbon (by decide +kernel)

example : Ahead (Clocks.europe 0 1997) (dayOf 2024 1 15) 0 := ahead_case (by decide +kernel)
example : Ahead (Clocks.europe 0 1997) (dayOf 2024 7 15) (hm 1 0) := ahead_case (by decide +kernel)

/-- C63 for this time zone. -/
theorem c63_clock_europeLondon : ClockObeys Zones.europeLondon (Clocks.europe 0) :=
  clock_of clear_europeLondon (by decide +kernel)

example : Ahead (Clocks.europe 0) (dayOf 2024 1 15) 0 := ahead_case (by decide +kernel)
example : Ahead (Clocks.europe 0) (dayOf 2024 7 15) (hm 1 0) := ahead_case (by decide +kernel)

/-- C63 for this time zone. -/
theorem c63_clock_europeMadrid : ClockObeys Zones.europeMadrid (Clocks.europe (hm 1 0)) :=
  clock_of clear_europeMadrid (by decide +kernel)

example : Ahead (Clocks.europe (hm 1 0)) (dayOf 2024 1 15) (hm 1 0) := ahead_case (by decide +kernel)
example : Ahead (Clocks.europe (hm 1 0)) (dayOf 2024 7 15) (hm 2 0) := ahead_case (by decide +kernel)

/-- C63 for this time zone. -/
theorem c63_clock_europeMoscow : ClockObeys Zones.europeMoscow (Clocks.moscow) :=
  clock_of clear_europeMoscow (by decide +kernel)

example : Ahead (Clocks.moscow) (dayOf 2024 1 15) (hm 3 0) := ahead_case (by decide +kernel)

/-- C63 for this time zone. -/
theorem c63_clock_europeOslo : ClockObeys Zones.europeOslo (Clocks.europe (hm 1 0)) :=
  clock_of clear_europeOslo (by decide +kernel)

example : Ahead (Clocks.europe (hm 1 0)) (dayOf 2024 1 15) (hm 1 0) := ahead_case (by decide +kernel)
example : Ahead (Clocks.europe (hm 1 0)) (dayOf 2024 7 15) (hm 2 0) := ahead_case (by decide +kernel)

/-- C63 for this time zone. -/
theorem c63_clock_europeParis : ClockObeys Zones.europeParis (Clocks.europe (hm 1 0)) :=
  clock_of clear_europeParis (by decide +kernel)

example : Ahead (Clocks.europe (hm 1 0)) (dayOf 2024 1 15) (hm 1 0) := ahead_case (by decide +kernel)
example : Ahead (Clocks.europe (hm 1 0)) (dayOf 2024 7 15) (hm 2 0) := ahead_case (by decide +kernel)

/-- C63 for this time zone. -/
theorem c63_clock_europePrague : ClockObeys Zones.europePrague (Clocks.europe (hm 1 0)) :=
  clock_of clear_europePrague (by decide +kernel)

example : Ahead (Clocks.europe (hm 1 0)) (dayOf 2024 1 15) (hm 1 0) := ahead_case (by decide +kernel)
example : Ahead (Clocks.europe (hm 1 0)) (dayOf 2024 7 15) (hm 2 0) := ahead_case (by decide +kernel)

/-- C63 for this time zone. -/
theorem c63_clock_europeRome : ClockObeys Zones.europeRome (Clocks.europe (hm 1 0)) :=
  clock_of clear_europeRome (by decide +kernel)

example : Ahead (Clocks.europe (hm 1 0)) (dayOf 2024 1 15) (hm 1 0) := ahead_case (by decide +kernel)
example : Ahead (Clocks.europe (hm 1 0)) (dayOf 2024 7 15) (hm 2 0) := ahead_case (by decide +kernel)

/-- C63 for this time zone. -/
theorem c63_clock_europeStockholm : ClockObeys Zones.europeStockholm (Clocks.europe (hm 1 0)) :=
  clock_of clear_europeStockholm (by decide +kernel)

example : Ahead (Clocks.europe (hm 1 0)) (dayOf 2024 1 15) (hm 1 0) := ahead_case (by decide +kernel)
example : Ahead (Clocks.europe (hm 1 0)) (dayOf 2024 7 15) (hm 2 0) := ahead_case (by decide +kernel)

/-- C63 for this time zone. -/
theorem c63_clock_europeVienna : ClockObeys Zones.europeVienna (Clocks.europe (hm 1 0)) :=
  clock_of clear_europeVienna (by decide +kernel)

example : Ahead (Clocks.europe (hm 1 0)) (dayOf 2024 1 15) (hm 1 0) := ahead_case (by decide +kernel)
example : Ahead (Clocks.europe (hm 1 0)) (dayOf 2024 7 15) (hm 2 0) := ahead_case (by decide +kernel)

/-- C63 for this time zone. -/
theorem c63_clock_europeWarsaw : ClockObeys Zones.europeWarsaw (Clocks.europe (hm 1 0)) :=
  clock_of clear_europeWarsaw (by decide +kernel)

example : Ahead (Clocks.europe (hm 1 0)) (dayOf 2024 1 15) (hm 1 0) := ahead_case (by decide +kernel)
example : Ahead (Clocks.europe (hm 1 0)) (dayOf 2024 7 15) (hm 2 0) := ahead_case (by decide +kernel)

/-- C63 for this time zone. -/
theorem c63_clock_europeZurich : ClockObeys Zones.europeZurich (Clocks.europe (hm 1 0)) :=
  clock_of clear_europeZurich (by decide +kernel)

example : Ahead (Clocks.europe (hm 1 0)) (dayOf 2024 1 15) (hm 1 0) := ahead_case (by decide +kernel)
example : Ahead (Clocks.europe (hm 1 0)) (dayOf 2024 7 15) (hm 2 0) := ahead_case (by decide +kernel)

/-- C63 for this time zone. -/
theorem c63_clock_nz : ClockObeys Zones.nz (Clocks.newZealand) :=
  clock_of clear_nz (by decide +kernel)

example : Ahead (Clocks.newZealand) (dayOf 2024 1 15) (hm 13 0) := ahead_case (by decide +kernel)
example : Ahead (Clocks.newZealand) (dayOf 2024 7 15) (hm 12 0) := ahead_case (by decide +kernel)

end TC.Props
