import Verif.Lemmas.DayBits
import Verif.Lemmas.Feasts
import Verif.Props.Exchanges1
import Verif.Props.Exchanges2
import Verif.Props.Exchanges4

/-!
# Closures and yearly numbers of trading days (C84), part 4 of 4

The longest closure of each exchange, among all days, and the least and the greatest number of trading days of
a year.  The kernel evaluates a check, which `Lemmas/DayBits` proves sound, on the exchange's rules.

Written by `tools/gen_gaps.py`.
-/

namespace TC.Props
open Spec

set_option maxRecDepth 100000

/-- C84 for `IEPA`. -/
theorem c84_iepa : LongestClosure (TradesOn Iepa.exchange) 4 ∧
    YearlyRange (TradesOn Iepa.exchange) 1990 2200 257 259 :=
  stats_of (g := 3) (k := 211) (rules_of_check iepa_check) (by decide +kernel) (by decide) (by decide) (by decide +kernel)

/-- C84 for `XBOG`. -/
theorem c84_xbog : LongestClosure (TradesOn Xbog.exchange) 5 ∧
    YearlyRange (TradesOn Xbog.exchange) 1990 2200 242 246 :=
  stats_of (g := 4) (k := 211) (rules_of_check xbog_check) (by decide +kernel) (by decide) (by decide) (by decide +kernel)

/-- C84 for `XBUE`. -/
theorem c84_xbue : LongestClosure (TradesOn Xbue.exchange) 12 ∧
    YearlyRange (TradesOn Xbue.exchange) 1990 2200 237 253 :=
  stats_of (g := 11) (k := 211) (rules_of_check xbue_check) (by decide +kernel) (by decide) (by decide) (by decide +kernel)

/-- C84 for `XFRA`. -/
theorem c84_xfra : LongestClosure (TradesOn Xfra.exchange) 5 ∧
    YearlyRange (TradesOn Xfra.exchange) 1990 2200 251 257 :=
  stats_of (g := 4) (k := 211) (rules_of_check xfra_check) (by decide +kernel) (by decide) (by decide) (by decide +kernel)

/-- C84 for `XICE`. -/
theorem c84_xice : LongestClosure (TradesOn Xice.exchange) 5 ∧
    YearlyRange (TradesOn Xice.exchange) 1990 2200 247 252 :=
  stats_of (g := 4) (k := 211) (rules_of_check xice_check) (by decide +kernel) (by decide) (by decide) (by decide +kernel)

/-- C84 for `XKAR`. -/
theorem c84_xkar : LongestClosure (TradesOn Xkar.exchange) 10 ∧
    YearlyRange (TradesOn Xkar.exchange) 1990 2200 241 260 :=
  stats_of (g := 9) (k := 211) (rules_of_check xkar_check) (by decide +kernel) (by decide) (by decide) (by decide +kernel)

/-- C84 for `XLIS`. -/
theorem c84_xlis : LongestClosure (TradesOn Xlis.exchange) 5 ∧
    YearlyRange (TradesOn Xlis.exchange) 1990 2200 246 259 :=
  stats_of (g := 4) (k := 211) (rules_of_check xlis_check) (by decide +kernel) (by decide) (by decide) (by decide +kernel)

/-- C84 for `XMIL`. -/
theorem c84_xmil : LongestClosure (TradesOn Xmil.exchange) 5 ∧
    YearlyRange (TradesOn Xmil.exchange) 1990 2200 252 257 :=
  stats_of (g := 4) (k := 211) (rules_of_check xmil_check) (by decide +kernel) (by decide) (by decide) (by decide +kernel)

/-- C84 for `XOSL`. -/
theorem c84_xosl : LongestClosure (TradesOn Xosl.exchange) 5 ∧
    YearlyRange (TradesOn Xosl.exchange) 1990 2200 249 254 :=
  stats_of (g := 4) (k := 211) (rules_of_check xosl_check) (by decide +kernel) (by decide) (by decide) (by decide +kernel)

/-- C84 for `XSES`. -/
theorem c84_xses : LongestClosure (TradesOn Xses.exchange) 5 ∧
    YearlyRange (TradesOn Xses.exchange) 1986 2020 248 254 :=
  stats_of (g := 4) (k := 35) (rules_of_check xses_check) (by decide +kernel) (by decide) (by decide) (by decide +kernel)

/-- C84 for `XSWX`. -/
theorem c84_xswx : LongestClosure (TradesOn Xswx.exchange) 5 ∧
    YearlyRange (TradesOn Xswx.exchange) 1990 2200 249 254 :=
  stats_of (g := 4) (k := 211) (rules_of_check xswx_check) (by decide +kernel) (by decide) (by decide) (by decide +kernel)

/-- C84 for `XWAR`. -/
theorem c84_xwar : LongestClosure (TradesOn Xwar.exchange) 5 ∧
    YearlyRange (TradesOn Xwar.exchange) 1990 2200 247 255 :=
  stats_of (g := 4) (k := 211) (rules_of_check xwar_check) (by decide +kernel) (by decide) (by decide) (by decide +kernel)

end TC.Props
