import Verif.Lemmas.DayBits
import Verif.Lemmas.Feasts
import Verif.Props.Exchanges3
import Verif.Props.Exchanges4

/-!
# Closures and yearly numbers of trading days (C84), part 3 of 4

The longest closure of each exchange, among all days, and the least and the greatest number of trading days of
a year.  The kernel evaluates a check, which `Lemmas/DayBits` proves sound, on the exchange's rules.

Written by `tools/gen_gaps.py`.
-/

namespace TC.Props
open Spec

set_option maxRecDepth 100000

/-- C84 for `CMES`. -/
theorem c84_cmes : LongestClosure (TradesOn Cmes.exchange) 4 ∧
    YearlyRange (TradesOn Cmes.exchange) 1990 2200 257 259 :=
  stats_of (g := 3) (k := 211) (rules_of_check cmes_check) (by decide +kernel) (by decide) (by decide) (by decide +kernel)

/-- C84 for `XBKK`. -/
theorem c84_xbkk : LongestClosure (TradesOn Xbkk.exchange) 5 ∧
    YearlyRange (TradesOn Xbkk.exchange) 1990 2200 242 249 :=
  stats_of (g := 4) (k := 211) (rules_of_check xbkk_check) (by decide +kernel) (by decide) (by decide) (by decide +kernel)

/-- C84 for `XBUD`. -/
theorem c84_xbud : LongestClosure (TradesOn Xbud.exchange) 6 ∧
    YearlyRange (TradesOn Xbud.exchange) 1990 2200 244 254 :=
  stats_of (g := 5) (k := 211) (rules_of_check xbud_check) (by decide +kernel) (by decide) (by decide) (by decide +kernel)

/-- C84 for `XDUB`. -/
theorem c84_xdub : LongestClosure (TradesOn Xdub.exchange) 5 ∧
    YearlyRange (TradesOn Xdub.exchange) 1990 2200 252 256 :=
  stats_of (g := 4) (k := 211) (rules_of_check xdub_check) (by decide +kernel) (by decide) (by decide) (by decide +kernel)

/-- C84 for `XHKG`. -/
theorem c84_xhkg : LongestClosure (TradesOn Xhkg.exchange) 6 ∧
    YearlyRange (TradesOn Xhkg.exchange) 1990 2049 243 249 :=
  stats_of (g := 5) (k := 60) (rules_of_check xhkg_check) (by decide +kernel) (by decide) (by decide) (by decide +kernel)

/-- C84 for `XJSE`. -/
theorem c84_xjse : LongestClosure (TradesOn Xjse.exchange) 5 ∧
    YearlyRange (TradesOn Xjse.exchange) 1990 2200 248 252 :=
  stats_of (g := 4) (k := 211) (rules_of_check xjse_check) (by decide +kernel) (by decide) (by decide) (by decide +kernel)

/-- C84 for `XLIM`. -/
theorem c84_xlim : LongestClosure (TradesOn Xlim.exchange) 5 ∧
    YearlyRange (TradesOn Xlim.exchange) 1990 2200 248 253 :=
  stats_of (g := 4) (k := 211) (rules_of_check xlim_check) (by decide +kernel) (by decide) (by decide) (by decide +kernel)

/-- C84 for `XMEX`. -/
theorem c84_xmex : LongestClosure (TradesOn Xmex.exchange) 4 ∧
    YearlyRange (TradesOn Xmex.exchange) 1990 2200 251 257 :=
  stats_of (g := 3) (k := 211) (rules_of_check xmex_check) (by decide +kernel) (by decide) (by decide) (by decide +kernel)

/-- C84 for `XNZE`. -/
theorem c84_xnze : LongestClosure (TradesOn Xnze.exchange) 16 ∧
    YearlyRange (TradesOn Xnze.exchange) 1990 2200 249 253 :=
  stats_of (g := 15) (k := 211) (rules_of_check xnze_check) (by decide +kernel) (by decide) (by decide) (by decide +kernel)

/-- C84 for `XPRA`. -/
theorem c84_xpra : LongestClosure (TradesOn Xpra.exchange) 5 ∧
    YearlyRange (TradesOn Xpra.exchange) 1990 2200 249 253 :=
  stats_of (g := 4) (k := 211) (rules_of_check xpra_check) (by decide +kernel) (by decide) (by decide) (by decide +kernel)

/-- C84 for `XSTO`. -/
theorem c84_xsto : LongestClosure (TradesOn Xsto.exchange) 5 ∧
    YearlyRange (TradesOn Xsto.exchange) 1990 2200 249 254 :=
  stats_of (g := 4) (k := 211) (rules_of_check xsto_check) (by decide +kernel) (by decide) (by decide) (by decide +kernel)

/-- C84 for `XTSE`. -/
theorem c84_xtse : LongestClosure (TradesOn Xtse.exchange) 4 ∧
    YearlyRange (TradesOn Xtse.exchange) 1990 2200 250 253 :=
  stats_of (g := 3) (k := 211) (rules_of_check xtse_check) (by decide +kernel) (by decide) (by decide) (by decide +kernel)

end TC.Props
