import Verif.Lemmas.EarlyYearCount
import Verif.Props.EarlyYear1
import Verif.Props.EarlyYear2
import Verif.Props.EarlyYear3
import Verif.Props.EarlyYear4

/-!
# Early closes and minutes of a year (C98)

Written by `tools/gen_early.py` from `tools/EarlyYear.in`.
-/

namespace TC.Props
open Spec

theorem not_early {x : Exchange} (h1 : x.specialCloses = []) (h2 : x.specialClosesAdhoc = []) (d : Int) :
    ¬ HasEarlyClose x d := by
  rintro ⟨t, ⟨rules, hm, -⟩ | ⟨days, hm, -⟩⟩
  · rw [h1] at hm
    exact absurd hm List.not_mem_nil
  · rw [h2] at hm
    exact absurd hm List.not_mem_nil

theorem none_year {cfg : Config} {start stop : Int} {b : Built} (hst : Steady cfg) (hb : build cfg start stop = .ok b)
    (hmid : DAY ∣ start) (hlow : NP_NAT + 3 * DAY ≤ start) (h1 : cfg.specialCloses = [])
    (h2 : cfg.specialClosesAdhoc = []) {p : Int → Prop} (hp : ∀ d, ¬ p d) {y : Int} {n : Nat} (hn : TradingDays p y n)
    {ls : List Int} : (ls.filter fun l => l ∈ b.earlyCloses).length = n := by
  obtain ⟨l, -, hl, rfl⟩ := hn
  rw [no_early hst hb hmid hlow h1 h2]
  have : l = [] := List.eq_nil_iff_forall_not_mem.2 fun d hd => hp d ((hl d).1 hd).2
  subst this
  simp

theorem row_eq {a a' b b' : Int} {c c' d d' : Nat} (h : some (a, b, c, d) = some (a', b', c', d')) :
    a = a' ∧ b = b' ∧ c = c' ∧ d = d' := by
  cases h
  exact ⟨rfl, rfl, rfl, rfl⟩

theorem entry6_eq {f f' s s' : Nat} {a a' b b' : Int} {c c' d d' : Nat}
    (h : some (f, s, a, b, c, d) = some (f', s', a', b', c', d')) :
    f = f' ∧ s = s' ∧ a = a' ∧ b = b' ∧ c = c' ∧ d = d' := by
  cases h
  exact ⟨rfl, rfl, rfl, rfl, rfl, rfl⟩

theorem table_low {name : String} {first start : Int} {bad odd : List Int} {full short : List Nat}
    (ht : lengthTable.lookup name = some (first, bad, odd, full, short)) (h1 : first * DAY ≤ start) :
    NP_NAT + 3 * DAY ≤ start := by
  have : ∀ p ∈ lengthTable, NP_NAT + 3 * DAY ≤ p.2.1 * DAY := by decide +kernel
  have := this _ (mem_of_lookup ht)
  simp only at this
  omega

/-- C98: in a calendar of the library the sessions of a year that `early_closes` lists are as many as the year has days
with an early close by the rules, if the range has a day more before the year and two days more after it. -/
theorem c98_listed {name : String} {cls : CalendarClass} (h : (name, cls) ∈ defaultClasses)
    {first start stop : Int} {bad odd : List Int} {full short : List Nat} {b : Built}
    (ht : lengthTable.lookup name = some (first, bad, odd, full, short)) (hb : cls.constructFor start stop = .ok b)
    (h1 : first * DAY ≤ start) (hmid : DAY ∣ start) (hbad : ∀ d ∈ bad, d * DAY < start ∨ stop < d * DAY)
    {y d₀ d₁ : Int} (hd₀ : DayNumber ⟨y, 1, 1⟩ d₀) (hd₁ : DayNumber ⟨y, 12, 31⟩ d₁) (ha : start + DAY ≤ d₀ * DAY)
    (hc : (d₁ + 2) * DAY ≤ stop) {n : Nat} (hn : TradingDays (ClassEarly cls) y n) :
    ((b.cal.sessionsInRange (d₀ * DAY) (d₁ * DAY)).filter fun l => l ∈ b.earlyCloses).length = n := by
  have hb' := constructFor_build hb
  have hst := steady_default h
  have hlow := table_low ht h1
  clear hb
  simp only [defaultClasses, List.mem_cons, List.not_mem_nil, or_false, Prod.mk.injEq] at h
  rcases h with ⟨rfl, rfl⟩ | ⟨rfl, rfl⟩ | ⟨rfl, rfl⟩ | ⟨rfl, rfl⟩ | ⟨rfl, rfl⟩ | ⟨rfl, rfl⟩ | ⟨rfl, rfl⟩ | ⟨rfl, rfl⟩ | ⟨rfl, rfl⟩ | ⟨rfl, rfl⟩ | ⟨rfl, rfl⟩ | ⟨rfl, rfl⟩ | ⟨rfl, rfl⟩ | ⟨rfl, rfl⟩ | ⟨rfl, rfl⟩ | ⟨rfl, rfl⟩ | ⟨rfl, rfl⟩ | ⟨rfl, rfl⟩ | ⟨rfl, rfl⟩ | ⟨rfl, rfl⟩ | ⟨rfl, rfl⟩ | ⟨rfl, rfl⟩ | ⟨rfl, rfl⟩ | ⟨rfl, rfl⟩ | ⟨rfl, rfl⟩ | ⟨rfl, rfl⟩ | ⟨rfl, rfl⟩ | ⟨rfl, rfl⟩ | ⟨rfl, rfl⟩ | ⟨rfl, rfl⟩ | ⟨rfl, rfl⟩ | ⟨rfl, rfl⟩ | ⟨rfl, rfl⟩ | ⟨rfl, rfl⟩ | ⟨rfl, rfl⟩ | ⟨rfl, rfl⟩ | ⟨rfl, rfl⟩ | ⟨rfl, rfl⟩ | ⟨rfl, rfl⟩ | ⟨rfl, rfl⟩ | ⟨rfl, rfl⟩ | ⟨rfl, rfl⟩ | ⟨rfl, rfl⟩ | ⟨rfl, rfl⟩ | ⟨rfl, rfl⟩ | ⟨rfl, rfl⟩ | ⟨rfl, rfl⟩ | ⟨rfl, rfl⟩ | ⟨rfl, rfl⟩ | ⟨rfl, rfl⟩ | ⟨rfl, rfl⟩ | ⟨rfl, rfl⟩ | ⟨rfl, rfl⟩
  · exact none_year hst hb' hmid hlow rfl rfl (not_early rfl rfl) hn
  · exact none_year hst hb' hmid hlow rfl rfl (not_early rfl rfl) hn
  · have e : lengthTable.lookup "CMES" = some (dayOf 1901 12 15, [], [dayOf 1942 2 9], [1440], [1140]) := by decide +kernel
    obtain ⟨rfl, rfl, rfl, rfl, rfl⟩ := entry_eq (e.symm.trans ht)
    exact early_year hst cmes_check clear_americaChicago (by decide) c54_cmes_zone hlow h1 hmid hbad hb' hd₀ hd₁ ha hc hn
  · have e : lengthTable.lookup "IEPA" = some (dayOf 1901 12 15, [], [dayOf 1942 2 9], [1320], [1020]) := by decide +kernel
    obtain ⟨rfl, rfl, rfl, rfl, rfl⟩ := entry_eq (e.symm.trans ht)
    exact early_year hst iepa_check clear_americaNewYork (by decide) c54_iepa_zone hlow h1 hmid hbad hb' hd₀ hd₁ ha hc hn
  · have e : lengthTable.lookup "XAMS" = some (dayOf 1700 1 2, [], [], [510], [305]) := by decide +kernel
    obtain ⟨rfl, rfl, rfl, rfl, rfl⟩ := entry_eq (e.symm.trans ht)
    exact early_year hst xams_check clear_europeAmsterdam (by decide) c54_xams_zone hlow h1 hmid hbad hb' hd₀ hd₁ ha hc hn
  · have e : lengthTable.lookup "XASX" = some (dayOf 1700 1 2, [], [], [360], [250]) := by decide +kernel
    obtain ⟨rfl, rfl, rfl, rfl, rfl⟩ := entry_eq (e.symm.trans ht)
    exact early_year hst xasx_check clear_australiaSydney (by decide) c54_xasx_zone hlow h1 hmid hbad hb' hd₀ hd₁ ha hc hn
  · exact none_year hst hb' hmid hlow rfl rfl (not_early rfl rfl) hn
  · exact none_year hst hb' hmid hlow rfl rfl (not_early rfl rfl) hn
  · exact none_year hst hb' hmid hlow rfl rfl (not_early rfl rfl) hn
  · have e : lengthTable.lookup "XBRU" = some (dayOf 1918 11 13, [], [], [510], [305]) := by decide +kernel
    obtain ⟨rfl, rfl, rfl, rfl, rfl⟩ := entry_eq (e.symm.trans ht)
    exact early_year hst xbru_check clear_europeBrussels (by decide) c54_xbru_zone hlow h1 hmid hbad hb' hd₀ hd₁ ha hc hn
  · exact none_year hst hb' hmid hlow rfl rfl (not_early rfl rfl) hn
  · have e : lengthTable.lookup "XBUE" = some (dayOf 1901 12 15, [], [], [360], [120]) := by decide +kernel
    obtain ⟨rfl, rfl, rfl, rfl, rfl⟩ := entry_eq (e.symm.trans ht)
    exact early_year hst xbue_check clear_americaArgentinaBuenosAires (by decide) c54_xbue_zone hlow h1 hmid hbad hb' hd₀ hd₁ ha hc hn
  · have e : lengthTable.lookup "XCBF" = some (dayOf 1901 12 15, [], [], [405], [225]) := by decide +kernel
    obtain ⟨rfl, rfl, rfl, rfl, rfl⟩ := entry_eq (e.symm.trans ht)
    exact early_year hst xcbf_check clear_americaChicago (by decide) c54_xcbf_zone hlow h1 hmid hbad hb' hd₀ hd₁ ha hc hn
  · exact none_year hst hb' hmid hlow rfl rfl (not_early rfl rfl) hn
  · have e : lengthTable.lookup "XDUB" = some (dayOf 1700 1 2, [], [], [508], [268]) := by decide +kernel
    obtain ⟨rfl, rfl, rfl, rfl, rfl⟩ := entry_eq (e.symm.trans ht)
    exact early_year hst xdub_check clear_europeDublin (by decide) c54_xdub_zone hlow h1 hmid hbad hb' hd₀ hd₁ ha hc hn
  · have e : lengthTable.lookup "XFRA" = some (dayOf 1700 1 2, [], [], [510], [210]) := by decide +kernel
    obtain ⟨rfl, rfl, rfl, rfl, rfl⟩ := entry_eq (e.symm.trans ht)
    exact early_year hst xfra_check clear_cet (by decide) c54_xfra_zone hlow h1 hmid hbad hb' hd₀ hd₁ ha hc hn
  · have e : lengthTable.lookup "XETR" = some (dayOf 1700 1 2, [], [], [510], [300]) := by decide +kernel
    obtain ⟨rfl, rfl, rfl, rfl, rfl⟩ := entry_eq (e.symm.trans ht)
    exact early_year hst xetr_check clear_cet (by decide) c54_xetr_zone hlow h1 hmid hbad hb' hd₀ hd₁ ha hc hn
  · exact none_year hst hb' hmid hlow rfl rfl (not_early rfl rfl) hn
  · have e : lengthTable.lookup "XHKG" = some (dayOf 1700 1 2, [], [], [302, 332], [120, 150, 180]) := by decide +kernel
    obtain ⟨rfl, rfl, rfl, rfl, rfl⟩ := entry_eq (e.symm.trans ht)
    exact early_year hst xhkg_check clear_asiaHongKong (by decide) c54_xhkg_zone hlow h1 hmid hbad hb' hd₀ hd₁ ha hc hn
  · exact none_year hst hb' hmid hlow rfl rfl (not_early rfl rfl) hn
  · exact none_year hst hb' hmid hlow rfl rfl (not_early rfl rfl) hn
  · have e : lengthTable.lookup "XIST" = some (dayOf 1700 1 2, [dayOf 2029 4 23], [], [480], [150]) := by decide +kernel
    obtain ⟨rfl, rfl, rfl, rfl, rfl⟩ := entry_eq (e.symm.trans ht)
    exact early_year hst xist_check clear_europeIstanbul (by decide) c54_xist_zone hlow h1 hmid hbad hb' hd₀ hd₁ ha hc hn
  · exact none_year hst hb' hmid hlow rfl rfl (not_early rfl rfl) hn
  · exact none_year hst hb' hmid hlow rfl rfl (not_early rfl rfl) hn
  · have e : lengthTable.lookup "XKLS" = some (dayOf 1700 1 2, [dayOf 1984 2 1, dayOf 2029 2 13, dayOf 2031 1 23, dayOf 2049 2 1], [], [480], [210]) := by decide +kernel
    obtain ⟨rfl, rfl, rfl, rfl, rfl⟩ := entry_eq (e.symm.trans ht)
    exact early_year hst xkls_check clear_asiaKualaLumpur (by decide) c54_xkls_zone hlow h1 hmid hbad hb' hd₀ hd₁ ha hc hn
  · exact none_year hst hb' hmid hlow rfl rfl (not_early rfl rfl) hn
  · exact none_year hst hb' hmid hlow rfl rfl (not_early rfl rfl) hn
  · have e : lengthTable.lookup "XLIS" = some (dayOf 1700 1 2, [], [], [510], [305]) := by decide +kernel
    obtain ⟨rfl, rfl, rfl, rfl, rfl⟩ := entry_eq (e.symm.trans ht)
    exact early_year hst xlis_check clear_europeLisbon (by decide) c54_xlis_zone hlow h1 hmid hbad hb' hd₀ hd₁ ha hc hn
  · have e : lengthTable.lookup "XLON" = some (dayOf 1901 12 15, [], [], [510], [270]) := by decide +kernel
    obtain ⟨rfl, rfl, rfl, rfl, rfl⟩ := entry_eq (e.symm.trans ht)
    exact early_year hst xlon_check clear_europeLondon (by decide) c54_xlon_zone hlow h1 hmid hbad hb' hd₀ hd₁ ha hc hn
  · have e : lengthTable.lookup "XMAD" = some (dayOf 1901 12 15, [], [], [510], [300]) := by decide +kernel
    obtain ⟨rfl, rfl, rfl, rfl, rfl⟩ := entry_eq (e.symm.trans ht)
    exact early_year hst xmad_check clear_europeMadrid (by decide) c54_xmad_zone hlow h1 hmid hbad hb' hd₀ hd₁ ha hc hn
  · exact none_year hst hb' hmid hlow rfl rfl (not_early rfl rfl) hn
  · exact none_year hst hb' hmid hlow rfl rfl (not_early rfl rfl) hn
  · exact none_year hst hb' hmid hlow rfl rfl (not_early rfl rfl) hn
  · have e : lengthTable.lookup "XNYS" = some (dayOf 1901 12 15, [dayOf 1945 12 24, dayOf 1956 12 24], [], [390], [210, 270]) := by decide +kernel
    obtain ⟨rfl, rfl, rfl, rfl, rfl⟩ := entry_eq (e.symm.trans ht)
    exact early_year hst xnys_check clear_americaNewYork (by decide) c54_xnys_zone hlow h1 hmid hbad hb' hd₀ hd₁ ha hc hn
  · have e : lengthTable.lookup "XNZE" = some (dayOf 1901 12 16, [], [], [405], [165]) := by decide +kernel
    obtain ⟨rfl, rfl, rfl, rfl, rfl⟩ := entry_eq (e.symm.trans ht)
    exact early_year hst xnze_check clear_nz (by decide) c54_xnze_zone hlow h1 hmid hbad hb' hd₀ hd₁ ha hc hn
  · have e : lengthTable.lookup "XOSL" = some (dayOf 1700 1 2, [], [], [440], [240]) := by decide +kernel
    obtain ⟨rfl, rfl, rfl, rfl, rfl⟩ := entry_eq (e.symm.trans ht)
    exact early_year hst xosl_check clear_europeOslo (by decide) c54_xosl_zone hlow h1 hmid hbad hb' hd₀ hd₁ ha hc hn
  · have e : lengthTable.lookup "XPAR" = some (dayOf 1700 1 2, [], [], [510], [305]) := by decide +kernel
    obtain ⟨rfl, rfl, rfl, rfl, rfl⟩ := entry_eq (e.symm.trans ht)
    exact early_year hst xpar_check clear_europeParis (by decide) c54_xpar_zone hlow h1 hmid hbad hb' hd₀ hd₁ ha hc hn
  · exact none_year hst hb' hmid hlow rfl rfl (not_early rfl rfl) hn
  · exact none_year hst hb' hmid hlow rfl rfl (not_early rfl rfl) hn
  · exact none_year hst hb' hmid hlow rfl rfl (not_early rfl rfl) hn
  · have e : lengthTable.lookup "XSGO" = some (dayOf 1700 1 2, [], [], [390, 450], [180, 240]) := by decide +kernel
    obtain ⟨rfl, rfl, rfl, rfl, rfl⟩ := entry_eq (e.symm.trans ht)
    exact early_year hst xsgo_check clear_americaSantiago (by decide) c54_xsgo_zone hlow h1 hmid hbad hb' hd₀ hd₁ ha hc hn
  · exact none_year hst hb' hmid hlow rfl rfl (not_early rfl rfl) hn
  · have e : lengthTable.lookup "XSTO" = some (dayOf 1700 1 2, [], [], [510], [240]) := by decide +kernel
    obtain ⟨rfl, rfl, rfl, rfl, rfl⟩ := entry_eq (e.symm.trans ht)
    exact early_year hst xsto_check clear_europeStockholm (by decide) c54_xsto_zone hlow h1 hmid hbad hb' hd₀ hd₁ ha hc hn
  · exact none_year hst hb' hmid hlow rfl rfl (not_early rfl rfl) hn
  · exact none_year hst hb' hmid hlow rfl rfl (not_early rfl rfl) hn
  · exact none_year hst hb' hmid hlow rfl rfl (not_early rfl rfl) hn
  · exact none_year hst hb' hmid hlow rfl rfl (not_early rfl rfl) hn
  · have e : lengthTable.lookup "XTSE" = some (dayOf 1901 12 15, [], [], [390], [210]) := by decide +kernel
    obtain ⟨rfl, rfl, rfl, rfl, rfl⟩ := entry_eq (e.symm.trans ht)
    exact early_year hst xtse_check clear_americaToronto (by decide) c54_xtse_zone hlow h1 hmid hbad hb' hd₀ hd₁ ha hc hn
  · exact none_year hst hb' hmid hlow rfl rfl (not_early rfl rfl) hn
  · exact none_year hst hb' hmid hlow rfl rfl (not_early rfl rfl) hn
  · exact none_year hst hb' hmid hlow rfl rfl (not_early rfl rfl) hn
  · exact none_year hst hb' hmid hlow rfl rfl (fun _ h => h) hn
  · exact none_year hst hb' hmid hlow rfl rfl (fun _ h => h) hn

/-- C98: the table of early closes for the classes of the library. -/
theorem c98_table {name : String} {cls : CalendarClass} (h : (name, cls) ∈ defaultClasses)
    {lo hi : Nat} {y₀ y₁ : Int} (ht : earlyTable.lookup name = some (y₀, y₁, lo, hi)) :
    YearlyRange (ClassEarly cls) y₀ y₁ lo hi := by
  simp only [defaultClasses, List.mem_cons, List.not_mem_nil, or_false, Prod.mk.injEq] at h
  rcases h with ⟨rfl, rfl⟩ | ⟨rfl, rfl⟩ | ⟨rfl, rfl⟩ | ⟨rfl, rfl⟩ | ⟨rfl, rfl⟩ | ⟨rfl, rfl⟩ | ⟨rfl, rfl⟩ | ⟨rfl, rfl⟩ | ⟨rfl, rfl⟩ | ⟨rfl, rfl⟩ | ⟨rfl, rfl⟩ | ⟨rfl, rfl⟩ | ⟨rfl, rfl⟩ | ⟨rfl, rfl⟩ | ⟨rfl, rfl⟩ | ⟨rfl, rfl⟩ | ⟨rfl, rfl⟩ | ⟨rfl, rfl⟩ | ⟨rfl, rfl⟩ | ⟨rfl, rfl⟩ | ⟨rfl, rfl⟩ | ⟨rfl, rfl⟩ | ⟨rfl, rfl⟩ | ⟨rfl, rfl⟩ | ⟨rfl, rfl⟩ | ⟨rfl, rfl⟩ | ⟨rfl, rfl⟩ | ⟨rfl, rfl⟩ | ⟨rfl, rfl⟩ | ⟨rfl, rfl⟩ | ⟨rfl, rfl⟩ | ⟨rfl, rfl⟩ | ⟨rfl, rfl⟩ | ⟨rfl, rfl⟩ | ⟨rfl, rfl⟩ | ⟨rfl, rfl⟩ | ⟨rfl, rfl⟩ | ⟨rfl, rfl⟩ | ⟨rfl, rfl⟩ | ⟨rfl, rfl⟩ | ⟨rfl, rfl⟩ | ⟨rfl, rfl⟩ | ⟨rfl, rfl⟩ | ⟨rfl, rfl⟩ | ⟨rfl, rfl⟩ | ⟨rfl, rfl⟩ | ⟨rfl, rfl⟩ | ⟨rfl, rfl⟩ | ⟨rfl, rfl⟩ | ⟨rfl, rfl⟩ | ⟨rfl, rfl⟩ | ⟨rfl, rfl⟩ | ⟨rfl, rfl⟩
  · rw [show earlyTable.lookup "ASEX" = none by decide +kernel] at ht
    cases ht
  · rw [show earlyTable.lookup "BVMF" = none by decide +kernel] at ht
    cases ht
  · have e : earlyTable.lookup "CMES" = some (1990, 2200, 6, 8) := by decide +kernel
    obtain ⟨rfl, rfl, rfl, rfl⟩ := row_eq (e.symm.trans ht)
    exact c98_cmes
  · have e : earlyTable.lookup "IEPA" = some (1990, 2200, 5, 6) := by decide +kernel
    obtain ⟨rfl, rfl, rfl, rfl⟩ := row_eq (e.symm.trans ht)
    exact c98_iepa
  · have e : earlyTable.lookup "XAMS" = some (1990, 2200, 0, 2) := by decide +kernel
    obtain ⟨rfl, rfl, rfl, rfl⟩ := row_eq (e.symm.trans ht)
    exact c98_xams
  · have e : earlyTable.lookup "XASX" = some (1990, 2200, 0, 2) := by decide +kernel
    obtain ⟨rfl, rfl, rfl, rfl⟩ := row_eq (e.symm.trans ht)
    exact c98_xasx
  · rw [show earlyTable.lookup "XBKK" = none by decide +kernel] at ht
    cases ht
  · rw [show earlyTable.lookup "XBOG" = none by decide +kernel] at ht
    cases ht
  · rw [show earlyTable.lookup "XBOM" = none by decide +kernel] at ht
    cases ht
  · have e : earlyTable.lookup "XBRU" = some (1990, 2200, 0, 2) := by decide +kernel
    obtain ⟨rfl, rfl, rfl, rfl⟩ := row_eq (e.symm.trans ht)
    exact c98_xbru
  · rw [show earlyTable.lookup "XBUD" = none by decide +kernel] at ht
    cases ht
  · have e : earlyTable.lookup "XBUE" = some (1990, 2200, 0, 2) := by decide +kernel
    obtain ⟨rfl, rfl, rfl, rfl⟩ := row_eq (e.symm.trans ht)
    exact c98_xbue
  · have e : earlyTable.lookup "XCBF" = some (1990, 2200, 0, 1) := by decide +kernel
    obtain ⟨rfl, rfl, rfl, rfl⟩ := row_eq (e.symm.trans ht)
    exact c98_xcbf
  · rw [show earlyTable.lookup "XCSE" = none by decide +kernel] at ht
    cases ht
  · have e : earlyTable.lookup "XDUB" = some (1990, 2200, 0, 3) := by decide +kernel
    obtain ⟨rfl, rfl, rfl, rfl⟩ := row_eq (e.symm.trans ht)
    exact c98_xdub
  · have e : earlyTable.lookup "XFRA" = some (1990, 2200, 0, 1) := by decide +kernel
    obtain ⟨rfl, rfl, rfl, rfl⟩ := row_eq (e.symm.trans ht)
    exact c98_xfra
  · have e : earlyTable.lookup "XETR" = some (1990, 2200, 0, 1) := by decide +kernel
    obtain ⟨rfl, rfl, rfl, rfl⟩ := row_eq (e.symm.trans ht)
    exact c98_xetr
  · rw [show earlyTable.lookup "XHEL" = none by decide +kernel] at ht
    cases ht
  · have e : earlyTable.lookup "XHKG" = some (1990, 2049, 0, 3) := by decide +kernel
    obtain ⟨rfl, rfl, rfl, rfl⟩ := row_eq (e.symm.trans ht)
    exact c98_xhkg
  · rw [show earlyTable.lookup "XICE" = none by decide +kernel] at ht
    cases ht
  · rw [show earlyTable.lookup "XIDX" = none by decide +kernel] at ht
    cases ht
  · have e : earlyTable.lookup "XIST" = some (1990, 2200, 0, 3) := by decide +kernel
    obtain ⟨rfl, rfl, rfl, rfl⟩ := row_eq (e.symm.trans ht)
    exact c98_xist
  · rw [show earlyTable.lookup "XJSE" = none by decide +kernel] at ht
    cases ht
  · rw [show earlyTable.lookup "XKAR" = none by decide +kernel] at ht
    cases ht
  · have e : earlyTable.lookup "XKLS" = some (1990, 2200, 0, 3) := by decide +kernel
    obtain ⟨rfl, rfl, rfl, rfl⟩ := row_eq (e.symm.trans ht)
    exact c98_xkls
  · rw [show earlyTable.lookup "XKRX" = none by decide +kernel] at ht
    cases ht
  · rw [show earlyTable.lookup "XLIM" = none by decide +kernel] at ht
    cases ht
  · have e : earlyTable.lookup "XLIS" = some (1990, 2200, 0, 2) := by decide +kernel
    obtain ⟨rfl, rfl, rfl, rfl⟩ := row_eq (e.symm.trans ht)
    exact c98_xlis
  · have e : earlyTable.lookup "XLON" = some (1990, 2200, 1, 2) := by decide +kernel
    obtain ⟨rfl, rfl, rfl, rfl⟩ := row_eq (e.symm.trans ht)
    exact c98_xlon
  · have e : earlyTable.lookup "XMAD" = some (1990, 2200, 0, 2) := by decide +kernel
    obtain ⟨rfl, rfl, rfl, rfl⟩ := row_eq (e.symm.trans ht)
    exact c98_xmad
  · rw [show earlyTable.lookup "XMEX" = none by decide +kernel] at ht
    cases ht
  · rw [show earlyTable.lookup "XMIL" = none by decide +kernel] at ht
    cases ht
  · rw [show earlyTable.lookup "XMOS" = none by decide +kernel] at ht
    cases ht
  · have e : earlyTable.lookup "XNYS" = some (1990, 2200, 1, 4) := by decide +kernel
    obtain ⟨rfl, rfl, rfl, rfl⟩ := row_eq (e.symm.trans ht)
    exact c98_xnys
  · have e : earlyTable.lookup "XNZE" = some (1990, 2200, 0, 2) := by decide +kernel
    obtain ⟨rfl, rfl, rfl, rfl⟩ := row_eq (e.symm.trans ht)
    exact c98_xnze
  · have e : earlyTable.lookup "XOSL" = some (1990, 2200, 0, 1) := by decide +kernel
    obtain ⟨rfl, rfl, rfl, rfl⟩ := row_eq (e.symm.trans ht)
    exact c98_xosl
  · have e : earlyTable.lookup "XPAR" = some (1990, 2200, 0, 2) := by decide +kernel
    obtain ⟨rfl, rfl, rfl, rfl⟩ := row_eq (e.symm.trans ht)
    exact c98_xpar
  · rw [show earlyTable.lookup "XPHS" = none by decide +kernel] at ht
    cases ht
  · rw [show earlyTable.lookup "XPRA" = none by decide +kernel] at ht
    cases ht
  · rw [show earlyTable.lookup "XSES" = none by decide +kernel] at ht
    cases ht
  · have e : earlyTable.lookup "XSGO" = some (1990, 2200, 1, 4) := by decide +kernel
    obtain ⟨rfl, rfl, rfl, rfl⟩ := row_eq (e.symm.trans ht)
    exact c98_xsgo
  · rw [show earlyTable.lookup "XSHG" = none by decide +kernel] at ht
    cases ht
  · have e : earlyTable.lookup "XSTO" = some (1990, 2200, 3, 5) := by decide +kernel
    obtain ⟨rfl, rfl, rfl, rfl⟩ := row_eq (e.symm.trans ht)
    exact c98_xsto
  · rw [show earlyTable.lookup "XSWX" = none by decide +kernel] at ht
    cases ht
  · rw [show earlyTable.lookup "XTAE" = none by decide +kernel] at ht
    cases ht
  · rw [show earlyTable.lookup "XTAI" = none by decide +kernel] at ht
    cases ht
  · rw [show earlyTable.lookup "XTKS" = none by decide +kernel] at ht
    cases ht
  · have e : earlyTable.lookup "XTSE" = some (1990, 2200, 0, 1) := by decide +kernel
    obtain ⟨rfl, rfl, rfl, rfl⟩ := row_eq (e.symm.trans ht)
    exact c98_xtse
  · rw [show earlyTable.lookup "XWAR" = none by decide +kernel] at ht
    cases ht
  · rw [show earlyTable.lookup "XWBO" = none by decide +kernel] at ht
    cases ht
  · rw [show earlyTable.lookup "us_futures" = none by decide +kernel] at ht
    cases ht
  · rw [show earlyTable.lookup "24/7" = none by decide +kernel] at ht
    cases ht
  · rw [show earlyTable.lookup "24/5" = none by decide +kernel] at ht
    cases ht

/-- C98: the table of minutes for the classes of the library. -/
theorem c98_minutes_table {name : String} {cls : CalendarClass} (h : (name, cls) ∈ defaultClasses)
    {f s lo hi : Nat} {y₀ y₁ : Int} (ht : minutesTable.lookup name = some (f, s, y₀, y₁, lo, hi)) :
    MinutesRange (ClassTrades cls) (ClassEarly cls) f s y₀ y₁ lo hi := by
  simp only [defaultClasses, List.mem_cons, List.not_mem_nil, or_false, Prod.mk.injEq] at h
  rcases h with ⟨rfl, rfl⟩ | ⟨rfl, rfl⟩ | ⟨rfl, rfl⟩ | ⟨rfl, rfl⟩ | ⟨rfl, rfl⟩ | ⟨rfl, rfl⟩ | ⟨rfl, rfl⟩ | ⟨rfl, rfl⟩ | ⟨rfl, rfl⟩ | ⟨rfl, rfl⟩ | ⟨rfl, rfl⟩ | ⟨rfl, rfl⟩ | ⟨rfl, rfl⟩ | ⟨rfl, rfl⟩ | ⟨rfl, rfl⟩ | ⟨rfl, rfl⟩ | ⟨rfl, rfl⟩ | ⟨rfl, rfl⟩ | ⟨rfl, rfl⟩ | ⟨rfl, rfl⟩ | ⟨rfl, rfl⟩ | ⟨rfl, rfl⟩ | ⟨rfl, rfl⟩ | ⟨rfl, rfl⟩ | ⟨rfl, rfl⟩ | ⟨rfl, rfl⟩ | ⟨rfl, rfl⟩ | ⟨rfl, rfl⟩ | ⟨rfl, rfl⟩ | ⟨rfl, rfl⟩ | ⟨rfl, rfl⟩ | ⟨rfl, rfl⟩ | ⟨rfl, rfl⟩ | ⟨rfl, rfl⟩ | ⟨rfl, rfl⟩ | ⟨rfl, rfl⟩ | ⟨rfl, rfl⟩ | ⟨rfl, rfl⟩ | ⟨rfl, rfl⟩ | ⟨rfl, rfl⟩ | ⟨rfl, rfl⟩ | ⟨rfl, rfl⟩ | ⟨rfl, rfl⟩ | ⟨rfl, rfl⟩ | ⟨rfl, rfl⟩ | ⟨rfl, rfl⟩ | ⟨rfl, rfl⟩ | ⟨rfl, rfl⟩ | ⟨rfl, rfl⟩ | ⟨rfl, rfl⟩ | ⟨rfl, rfl⟩ | ⟨rfl, rfl⟩ | ⟨rfl, rfl⟩
  · rw [show minutesTable.lookup "ASEX" = none by decide +kernel] at ht
    cases ht
  · rw [show minutesTable.lookup "BVMF" = none by decide +kernel] at ht
    cases ht
  · have e : minutesTable.lookup "CMES" = some (1440, 1140, 1990, 2200, 367680, 371160) := by decide +kernel
    obtain ⟨rfl, rfl, rfl, rfl, rfl, rfl⟩ := entry6_eq (e.symm.trans ht)
    exact c98_cmes_minutes
  · have e : minutesTable.lookup "IEPA" = some (1320, 1020, 1990, 2200, 337440, 340380) := by decide +kernel
    obtain ⟨rfl, rfl, rfl, rfl, rfl, rfl⟩ := entry6_eq (e.symm.trans ht)
    exact c98_iepa_minutes
  · have e : minutesTable.lookup "XAMS" = some (510, 305, 1990, 2200, 127805, 131680) := by decide +kernel
    obtain ⟨rfl, rfl, rfl, rfl, rfl, rfl⟩ := entry6_eq (e.symm.trans ht)
    exact c98_xams_minutes
  · have e : minutesTable.lookup "XASX" = some (360, 250, 1990, 2200, 90500, 91800) := by decide +kernel
    obtain ⟨rfl, rfl, rfl, rfl, rfl, rfl⟩ := entry6_eq (e.symm.trans ht)
    exact c98_xasx_minutes
  · rw [show minutesTable.lookup "XBKK" = none by decide +kernel] at ht
    cases ht
  · rw [show minutesTable.lookup "XBOG" = none by decide +kernel] at ht
    cases ht
  · rw [show minutesTable.lookup "XBOM" = none by decide +kernel] at ht
    cases ht
  · have e : minutesTable.lookup "XBRU" = some (510, 305, 1990, 2200, 127805, 131680) := by decide +kernel
    obtain ⟨rfl, rfl, rfl, rfl, rfl, rfl⟩ := entry6_eq (e.symm.trans ht)
    exact c98_xbru_minutes
  · rw [show minutesTable.lookup "XBUD" = none by decide +kernel] at ht
    cases ht
  · have e : minutesTable.lookup "XBUE" = some (360, 120, 1990, 2200, 84840, 91080) := by decide +kernel
    obtain ⟨rfl, rfl, rfl, rfl, rfl, rfl⟩ := entry6_eq (e.symm.trans ht)
    exact c98_xbue_minutes
  · have e : minutesTable.lookup "XCBF" = some (405, 225, 1990, 2200, 101070, 103275) := by decide +kernel
    obtain ⟨rfl, rfl, rfl, rfl, rfl, rfl⟩ := entry6_eq (e.symm.trans ht)
    exact c98_xcbf_minutes
  · rw [show minutesTable.lookup "XCSE" = none by decide +kernel] at ht
    cases ht
  · have e : minutesTable.lookup "XDUB" = some (508, 268, 1990, 2200, 127804, 129568) := by decide +kernel
    obtain ⟨rfl, rfl, rfl, rfl, rfl, rfl⟩ := entry6_eq (e.symm.trans ht)
    exact c98_xdub_minutes
  · have e : minutesTable.lookup "XFRA" = some (510, 210, 1990, 2200, 127710, 131070) := by decide +kernel
    obtain ⟨rfl, rfl, rfl, rfl, rfl, rfl⟩ := entry6_eq (e.symm.trans ht)
    exact c98_xfra_minutes
  · have e : minutesTable.lookup "XETR" = some (510, 300, 1990, 2200, 127800, 131070) := by decide +kernel
    obtain ⟨rfl, rfl, rfl, rfl, rfl, rfl⟩ := entry6_eq (e.symm.trans ht)
    exact c98_xetr_minutes
  · rw [show minutesTable.lookup "XHEL" = none by decide +kernel] at ht
    cases ht
  · rw [show minutesTable.lookup "XHKG" = none by decide +kernel] at ht
    cases ht
  · rw [show minutesTable.lookup "XICE" = none by decide +kernel] at ht
    cases ht
  · rw [show minutesTable.lookup "XIDX" = none by decide +kernel] at ht
    cases ht
  · have e : minutesTable.lookup "XIST" = some (480, 150, 1990, 2200, 117570, 123360) := by decide +kernel
    obtain ⟨rfl, rfl, rfl, rfl, rfl, rfl⟩ := entry6_eq (e.symm.trans ht)
    exact c98_xist_minutes
  · rw [show minutesTable.lookup "XJSE" = none by decide +kernel] at ht
    cases ht
  · rw [show minutesTable.lookup "XKAR" = none by decide +kernel] at ht
    cases ht
  · have e : minutesTable.lookup "XKLS" = some (480, 210, 1990, 2200, 116100, 123840) := by decide +kernel
    obtain ⟨rfl, rfl, rfl, rfl, rfl, rfl⟩ := entry6_eq (e.symm.trans ht)
    exact c98_xkls_minutes
  · rw [show minutesTable.lookup "XKRX" = none by decide +kernel] at ht
    cases ht
  · rw [show minutesTable.lookup "XLIM" = none by decide +kernel] at ht
    cases ht
  · have e : minutesTable.lookup "XLIS" = some (510, 305, 1990, 2200, 125255, 131680) := by decide +kernel
    obtain ⟨rfl, rfl, rfl, rfl, rfl, rfl⟩ := entry6_eq (e.symm.trans ht)
    exact c98_xlis_minutes
  · have e : minutesTable.lookup "XLON" = some (510, 270, 1990, 2200, 127530, 129060) := by decide +kernel
    obtain ⟨rfl, rfl, rfl, rfl, rfl, rfl⟩ := entry6_eq (e.symm.trans ht)
    exact c98_xlon_minutes
  · have e : minutesTable.lookup "XMAD" = some (510, 300, 1990, 2200, 126990, 131670) := by decide +kernel
    obtain ⟨rfl, rfl, rfl, rfl, rfl, rfl⟩ := entry6_eq (e.symm.trans ht)
    exact c98_xmad_minutes
  · rw [show minutesTable.lookup "XMEX" = none by decide +kernel] at ht
    cases ht
  · rw [show minutesTable.lookup "XMIL" = none by decide +kernel] at ht
    cases ht
  · rw [show minutesTable.lookup "XMOS" = none by decide +kernel] at ht
    cases ht
  · rw [show minutesTable.lookup "XNYS" = none by decide +kernel] at ht
    cases ht
  · have e : minutesTable.lookup "XNZE" = some (405, 165, 1990, 2200, 100770, 102465) := by decide +kernel
    obtain ⟨rfl, rfl, rfl, rfl, rfl, rfl⟩ := entry6_eq (e.symm.trans ht)
    exact c98_xnze_minutes
  · have e : minutesTable.lookup "XOSL" = some (440, 240, 1990, 2200, 109360, 111560) := by decide +kernel
    obtain ⟨rfl, rfl, rfl, rfl, rfl, rfl⟩ := entry6_eq (e.symm.trans ht)
    exact c98_xosl_minutes
  · have e : minutesTable.lookup "XPAR" = some (510, 305, 1990, 2200, 128315, 131680) := by decide +kernel
    obtain ⟨rfl, rfl, rfl, rfl, rfl, rfl⟩ := entry6_eq (e.symm.trans ht)
    exact c98_xpar_minutes
  · rw [show minutesTable.lookup "XPHS" = none by decide +kernel] at ht
    cases ht
  · rw [show minutesTable.lookup "XPRA" = none by decide +kernel] at ht
    cases ht
  · rw [show minutesTable.lookup "XSES" = none by decide +kernel] at ht
    cases ht
  · rw [show minutesTable.lookup "XSGO" = none by decide +kernel] at ht
    cases ht
  · rw [show minutesTable.lookup "XSHG" = none by decide +kernel] at ht
    cases ht
  · have e : minutesTable.lookup "XSTO" = some (510, 240, 1990, 2200, 125910, 128190) := by decide +kernel
    obtain ⟨rfl, rfl, rfl, rfl, rfl, rfl⟩ := entry6_eq (e.symm.trans ht)
    exact c98_xsto_minutes
  · rw [show minutesTable.lookup "XSWX" = none by decide +kernel] at ht
    cases ht
  · rw [show minutesTable.lookup "XTAE" = none by decide +kernel] at ht
    cases ht
  · rw [show minutesTable.lookup "XTAI" = none by decide +kernel] at ht
    cases ht
  · rw [show minutesTable.lookup "XTKS" = none by decide +kernel] at ht
    cases ht
  · have e : minutesTable.lookup "XTSE" = some (390, 210, 1990, 2200, 97500, 98670) := by decide +kernel
    obtain ⟨rfl, rfl, rfl, rfl, rfl, rfl⟩ := entry6_eq (e.symm.trans ht)
    exact c98_xtse_minutes
  · rw [show minutesTable.lookup "XWAR" = none by decide +kernel] at ht
    cases ht
  · rw [show minutesTable.lookup "XWBO" = none by decide +kernel] at ht
    cases ht
  · rw [show minutesTable.lookup "us_futures" = none by decide +kernel] at ht
    cases ht
  · rw [show minutesTable.lookup "24/7" = none by decide +kernel] at ht
    cases ht
  · rw [show minutesTable.lookup "24/5" = none by decide +kernel] at ht
    cases ht

/-- C98 for calendars of the library: how many early closes a year has. -/
theorem c98_default {name : String} {cls : CalendarClass} (h : (name, cls) ∈ defaultClasses)
    {first start stop : Int} {bad odd : List Int} {full short : List Nat} {b : Built}
    (ht : lengthTable.lookup name = some (first, bad, odd, full, short)) {y₀ y₁ : Int} {lo hi : Nat}
    (he : earlyTable.lookup name = some (y₀, y₁, lo, hi)) (hb : cls.constructFor start stop = .ok b)
    (h1 : first * DAY ≤ start) (hmid : DAY ∣ start) (hbad : ∀ d ∈ bad, d * DAY < start ∨ stop < d * DAY)
    {y d₀ d₁ : Int} (hy₀ : y₀ ≤ y) (hy₁ : y ≤ y₁) (hd₀ : DayNumber ⟨y, 1, 1⟩ d₀) (hd₁ : DayNumber ⟨y, 12, 31⟩ d₁)
    (ha : start + DAY ≤ d₀ * DAY) (hc : (d₁ + 2) * DAY ≤ stop) :
    lo ≤ ((b.cal.sessionsInRange (d₀ * DAY) (d₁ * DAY)).filter fun l => l ∈ b.earlyCloses).length ∧
    ((b.cal.sessionsInRange (d₀ * DAY) (d₁ * DAY)).filter fun l => l ∈ b.earlyCloses).length ≤ hi := by
  obtain ⟨n, hn, hlo, hhi⟩ := (c98_table h he).within y hy₀ hy₁
  rw [c98_listed h ht hb h1 hmid hbad hd₀ hd₁ ha hc hn]
  exact ⟨hlo, hhi⟩

/-- C98: a calendar of the library that is not in the table has no early closes. -/
theorem c98_others {name : String} {cls : CalendarClass} (h : (name, cls) ∈ defaultClasses)
    (he : earlyTable.lookup name = none) {start stop : Int} {b : Built} (hb : cls.constructFor start stop = .ok b)
    (hmid : DAY ∣ start) (hlow : NP_NAT + 3 * DAY ≤ start) : b.earlyCloses = [] := by
  have hb' := constructFor_build hb
  have hst := steady_default h
  clear hb
  simp only [defaultClasses, List.mem_cons, List.not_mem_nil, or_false, Prod.mk.injEq] at h
  rcases h with ⟨rfl, rfl⟩ | ⟨rfl, rfl⟩ | ⟨rfl, rfl⟩ | ⟨rfl, rfl⟩ | ⟨rfl, rfl⟩ | ⟨rfl, rfl⟩ | ⟨rfl, rfl⟩ | ⟨rfl, rfl⟩ | ⟨rfl, rfl⟩ | ⟨rfl, rfl⟩ | ⟨rfl, rfl⟩ | ⟨rfl, rfl⟩ | ⟨rfl, rfl⟩ | ⟨rfl, rfl⟩ | ⟨rfl, rfl⟩ | ⟨rfl, rfl⟩ | ⟨rfl, rfl⟩ | ⟨rfl, rfl⟩ | ⟨rfl, rfl⟩ | ⟨rfl, rfl⟩ | ⟨rfl, rfl⟩ | ⟨rfl, rfl⟩ | ⟨rfl, rfl⟩ | ⟨rfl, rfl⟩ | ⟨rfl, rfl⟩ | ⟨rfl, rfl⟩ | ⟨rfl, rfl⟩ | ⟨rfl, rfl⟩ | ⟨rfl, rfl⟩ | ⟨rfl, rfl⟩ | ⟨rfl, rfl⟩ | ⟨rfl, rfl⟩ | ⟨rfl, rfl⟩ | ⟨rfl, rfl⟩ | ⟨rfl, rfl⟩ | ⟨rfl, rfl⟩ | ⟨rfl, rfl⟩ | ⟨rfl, rfl⟩ | ⟨rfl, rfl⟩ | ⟨rfl, rfl⟩ | ⟨rfl, rfl⟩ | ⟨rfl, rfl⟩ | ⟨rfl, rfl⟩ | ⟨rfl, rfl⟩ | ⟨rfl, rfl⟩ | ⟨rfl, rfl⟩ | ⟨rfl, rfl⟩ | ⟨rfl, rfl⟩ | ⟨rfl, rfl⟩ | ⟨rfl, rfl⟩ | ⟨rfl, rfl⟩ | ⟨rfl, rfl⟩ | ⟨rfl, rfl⟩
  all_goals first
    | exact no_early hst hb' hmid hlow rfl rfl
    | exact absurd he (by decide +kernel)

theorem no_late {cfg : Config} {start stop : Int} {b : Built} (hst : Steady cfg) (hb : build cfg start stop = .ok b)
    (hmid : DAY ∣ start) (hlow : NP_NAT + 3 * DAY ≤ start) (h1 : cfg.specialOpens = [])
    (h2 : cfg.specialOpensAdhoc = []) : b.lateOpens = [] := by
  refine List.eq_nil_iff_forall_not_mem.2 fun l hl => ?_
  obtain ⟨-, u, t, hu, -⟩ := ((c41_lists hb hst.ordered hst.tame hmid hlow).2.2.1 l).1 hl
  rcases hu with ⟨f, hf, -⟩ | ⟨f, hf, -⟩
  · rw [h1] at hf
    exact absurd hf List.not_mem_nil
  · rw [h2] at hf
    exact absurd hf List.not_mem_nil

/-- C98: no calendar of the library has late opens. -/
theorem c98_no_late_opens {name : String} {cls : CalendarClass} (h : (name, cls) ∈ defaultClasses) {start stop : Int}
    {b : Built} (hb : cls.constructFor start stop = .ok b) (hmid : DAY ∣ start) (hlow : NP_NAT + 3 * DAY ≤ start) :
    b.lateOpens = [] := by
  have hb' := constructFor_build hb
  have hst := steady_default h
  clear hb
  simp only [defaultClasses, List.mem_cons, List.not_mem_nil, or_false, Prod.mk.injEq] at h
  rcases h with ⟨rfl, rfl⟩ | ⟨rfl, rfl⟩ | ⟨rfl, rfl⟩ | ⟨rfl, rfl⟩ | ⟨rfl, rfl⟩ | ⟨rfl, rfl⟩ | ⟨rfl, rfl⟩ | ⟨rfl, rfl⟩ | ⟨rfl, rfl⟩ | ⟨rfl, rfl⟩ | ⟨rfl, rfl⟩ | ⟨rfl, rfl⟩ | ⟨rfl, rfl⟩ | ⟨rfl, rfl⟩ | ⟨rfl, rfl⟩ | ⟨rfl, rfl⟩ | ⟨rfl, rfl⟩ | ⟨rfl, rfl⟩ | ⟨rfl, rfl⟩ | ⟨rfl, rfl⟩ | ⟨rfl, rfl⟩ | ⟨rfl, rfl⟩ | ⟨rfl, rfl⟩ | ⟨rfl, rfl⟩ | ⟨rfl, rfl⟩ | ⟨rfl, rfl⟩ | ⟨rfl, rfl⟩ | ⟨rfl, rfl⟩ | ⟨rfl, rfl⟩ | ⟨rfl, rfl⟩ | ⟨rfl, rfl⟩ | ⟨rfl, rfl⟩ | ⟨rfl, rfl⟩ | ⟨rfl, rfl⟩ | ⟨rfl, rfl⟩ | ⟨rfl, rfl⟩ | ⟨rfl, rfl⟩ | ⟨rfl, rfl⟩ | ⟨rfl, rfl⟩ | ⟨rfl, rfl⟩ | ⟨rfl, rfl⟩ | ⟨rfl, rfl⟩ | ⟨rfl, rfl⟩ | ⟨rfl, rfl⟩ | ⟨rfl, rfl⟩ | ⟨rfl, rfl⟩ | ⟨rfl, rfl⟩ | ⟨rfl, rfl⟩ | ⟨rfl, rfl⟩ | ⟨rfl, rfl⟩ | ⟨rfl, rfl⟩ | ⟨rfl, rfl⟩ | ⟨rfl, rfl⟩
  all_goals exact no_late hst hb' hmid hlow rfl rfl

theorem length_of_days {cfg : Config} {trades : Int → Prop} {start stop : Int} {b : Built} (h : Steady cfg)
    (hb : build cfg start stop = .ok b) (hm : DAY ∣ start) (hlow : NP_NAT + 3 * DAY ≤ start)
    (ht : ∀ d, TradingDay cfg d ↔ trades d) {y d₀ d₁ : Int} {n : Nat} (hn : TradingDays trades y n)
    (hd₀ : DayNumber ⟨y, 1, 1⟩ d₀) (hd₁ : DayNumber ⟨y, 12, 31⟩ d₁) (ha : start ≤ d₀ * DAY) (hc : d₁ * DAY ≤ stop) :
    (b.cal.sessionsInRange (d₀ * DAY) (d₁ * DAY)).length = n := by
  have hy : YearlyRange trades y y n n :=
    ⟨fun y' h1 h2 => by
      have : y' = y := by omega
      exact ⟨n, this ▸ hn, Nat.le_refl _, Nat.le_refl _⟩,
     ⟨y, Int.le_refl _, Int.le_refl _, hn⟩, ⟨y, Int.le_refl _, Int.le_refl _, hn⟩⟩
  have := c84_year h hb hm hlow ht hy (Int.le_refl _) (Int.le_refl _) hd₀ hd₁ ha hc
  omega

/-- C98: where full sessions have one length and early closes have one, `minutes_count_for_sessions_in_range` over a year
is exactly the number of minutes by the rules. -/
theorem c98_minutes {name : String} {cls : CalendarClass} (h : (name, cls) ∈ defaultClasses) (hne : name ≠ "XHKG")
    {first start stop : Int} {bad odd : List Int} {full short : List Nat} {b : Built}
    (ht : lengthTable.lookup name = some (first, bad, odd, full, short)) (hb : cls.constructFor start stop = .ok b)
    (h1 : first * DAY ≤ start) (hmid : DAY ∣ start) (hbad : ∀ d ∈ bad, d * DAY < start ∨ stop < d * DAY)
    {f s : Nat} (hf : ∀ k ∈ full, k = f) (hs : ∀ k ∈ short, k = s)
    {y d₀ d₁ : Int} (hd₀ : DayNumber ⟨y, 1, 1⟩ d₀) (hd₁ : DayNumber ⟨y, 12, 31⟩ d₁)
    (hodd : ∀ d ∈ odd, d < d₀ ∨ d₁ < d) (ha : start + DAY ≤ d₀ * DAY) (hc : (d₁ + 2) * DAY ≤ stop) {k : Nat}
    (hk : MinutesOfYear (ClassTrades cls) (ClassEarly cls) f s y k) :
    b.cal.minutesCountForSessionsInRange (d₀ * DAY) (d₁ * DAY) = k := by
  obtain ⟨n, e, hn, he, rfl⟩ := hk
  have hst := steady_default h
  have hlow := table_low ht h1
  have hE := c98_listed h ht hb h1 hmid hbad hd₀ hd₁ ha hc he
  have hT := length_of_days hst (constructFor_build hb) hmid hlow (classTrades_iff h) hn hd₀ hd₁
    (by simp only [DAY] at *; omega) (by simp only [DAY] at *; omega)
  rw [c88_count_exact h hne ht hb h1 hmid hbad hf hs (fun d hd => by
    have := hodd d hd
    simp only [DAY]
    omega)]
  have hsum := List.length_eq_countP_add_countP (l := b.cal.sessionsInRange (d₀ * DAY) (d₁ * DAY))
    fun l => decide (l ∈ b.earlyCloses)
  rw [List.countP_eq_length_filter, List.countP_eq_length_filter] at hsum
  simp only [decide_eq_true_eq] at hsum
  rw [hE] at hsum ⊢
  have : ((b.cal.sessionsInRange (d₀ * DAY) (d₁ * DAY)).filter fun l => l ∉ b.earlyCloses).length = n := by omega
  rw [this]

/-- C98 for calendars of the library: the number of minutes that `minutes_count_for_sessions_in_range` gives for a
year. -/
theorem c98_minutes_default {name : String} {cls : CalendarClass} (h : (name, cls) ∈ defaultClasses)
    {first start stop : Int} {bad odd : List Int} {full short : List Nat} {b : Built}
    (ht : lengthTable.lookup name = some (first, bad, odd, full, short)) {f s lo hi : Nat} {y₀ y₁ : Int}
    (he : minutesTable.lookup name = some (f, s, y₀, y₁, lo, hi)) (hb : cls.constructFor start stop = .ok b)
    (h1 : first * DAY ≤ start) (hmid : DAY ∣ start) (hbad : ∀ d ∈ bad, d * DAY < start ∨ stop < d * DAY)
    {y d₀ d₁ : Int} (hy₀ : y₀ ≤ y) (hy₁ : y ≤ y₁) (hd₀ : DayNumber ⟨y, 1, 1⟩ d₀) (hd₁ : DayNumber ⟨y, 12, 31⟩ d₁)
    (ha : start + DAY ≤ d₀ * DAY) (hc : (d₁ + 2) * DAY ≤ stop) :
    (lo : Int) ≤ b.cal.minutesCountForSessionsInRange (d₀ * DAY) (d₁ * DAY) ∧
    b.cal.minutesCountForSessionsInRange (d₀ * DAY) (d₁ * DAY) ≤ hi := by
  have hfits : ∀ p ∈ minutesTable, ∀ q ∈ lengthTable, q.1 = p.1 → p.1 ≠ "XHKG" ∧
      (∀ d ∈ q.2.2.2.1, d < dayOf 1990 1 1) ∧ (∀ k ∈ q.2.2.2.2.1, k = p.2.1) ∧ (∀ k ∈ q.2.2.2.2.2, k = p.2.2.1) ∧
      1990 ≤ p.2.2.2.1 := by decide +kernel
  obtain ⟨hne, hodd, hf, hs, hyr⟩ := hfits _ (mem_of_lookup he) _ (mem_of_lookup ht) rfl
  simp only at hne hodd hf hs hyr
  obtain ⟨k, hk, hlo, hhi⟩ := (c98_minutes_table h he).within y hy₀ hy₁
  have e0 : d₀ = jan1 y := (dayNumber_jan1 _ _).1 hd₀
  have l0 : jan1 1990 ≤ jan1 y := jan1_le_iff.2 (by omega)
  have e1 : jan1 1990 = dayOf 1990 1 1 := by decide +kernel
  rw [c98_minutes h hne ht hb h1 hmid hbad hf hs hd₀ hd₁ (fun d hd => by have := hodd d hd; omega) ha hc hk]
  omega

/-- XLON from 2018 to 2020 can be constructed; 2019 has one or two early closes, and from 127530 to 129060 minutes. -/
example : ∃ b, (CalendarClass.exchange Xlon.exchange Xlon.zone startDefault).constructFor (dayOf 2018 1 1 * DAY)
      (dayOf 2020 12 31 * DAY) = .ok b ∧
    127530 ≤ b.cal.minutesCountForSessionsInRange (dayOf 2019 1 1 * DAY) (dayOf 2019 12 31 * DAY) ∧
    b.cal.minutesCountForSessionsInRange (dayOf 2019 1 1 * DAY) (dayOf 2019 12 31 * DAY) ≤ 129060 ∧
    1 ≤ ((b.cal.sessionsInRange (dayOf 2019 1 1 * DAY) (dayOf 2019 12 31 * DAY)).filter
      fun l => l ∈ b.earlyCloses).length := by
  have hd : TradesOn Xlon.exchange (dayOf 2019 10 16) := trades_of xlon_check (by decide +kernel)
  obtain ⟨b, hb, -⟩ := (c54_xlon_zone (dayOf 2018 1 1 * DAY) (dayOf 2020 12 31 * DAY)
    (by decide +kernel) (Int.dvd_mul_left _ _)).succeeds (by simp) ⟨_, by decide +kernel, by decide +kernel, hd⟩
  have hl : lengthTable.lookup "XLON" = some (dayOf 1901 12 15, [], [], [510], [270]) := by decide +kernel
  have hin : ("XLON", CalendarClass.exchange Xlon.exchange Xlon.zone startDefault) ∈ defaultClasses := by
    simp [defaultClasses]
  have hd₀ : DayNumber ⟨2019, 1, 1⟩ (dayOf 2019 1 1) := (dayNumber_iff _ _).2 (by decide +kernel)
  have hd₁ : DayNumber ⟨2019, 12, 31⟩ (dayOf 2019 12 31) := (dayNumber_iff _ _).2 (by decide +kernel)
  have hm := c98_minutes_default hin hl (show minutesTable.lookup "XLON" = some (510, 270, 1990, 2200, 127530, 129060) by
    decide +kernel) hb (by decide +kernel) (Int.dvd_mul_left _ _) (by simp) (by decide) (by decide) hd₀ hd₁
    (by decide +kernel) (by decide +kernel)
  have he := c98_default hin hl (show earlyTable.lookup "XLON" = some (1990, 2200, 1, 2) by decide +kernel) hb
    (by decide +kernel) (Int.dvd_mul_left _ _) (by simp) (by decide) (by decide) hd₀ hd₁ (by decide +kernel)
    (by decide +kernel)
  exact ⟨b, hb, hm.1, hm.2, he.1⟩

/-- New Zealand's calendar has early closes, that of Iceland has none. -/
example : HasEarlyClose Xnze.exchange (dayOf 2019 12 24) ∧ earlyTable.lookup "XICE" = none := by
  refine ⟨?_, by decide +kernel⟩
  apply Classical.byContradiction
  intro hno
  exact absurd ((onlyEarly_iff Xnze.exchange (d := dayOf 2019 12 24) (by decide +kernel) (by decide +kernel)).2 hno) (by
    rw [← tradesB_iff (rules_of (by decide +kernel))]
    decide +kernel)

end TC.Props
