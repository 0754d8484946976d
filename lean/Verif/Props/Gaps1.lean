import Verif.Lemmas.DayBits
import Verif.Lemmas.Feasts
import Verif.Props.Exchanges1
import Verif.Props.Exchanges2

/-!
# Closures and yearly numbers of trading days (C84), part 1 of 4

The longest closure of each exchange, among all days, and the least and the greatest number of trading days of
a year.  The kernel evaluates a check, which `Lemmas/DayBits` proves sound, on the exchange's rules.

Written by `tools/gen_gaps.py`.
-/

namespace TC.Props
open Spec

set_option maxRecDepth 100000

/-- C84 for `ASEX`. -/
theorem c84_asex : LongestClosure (TradesOn Asex.exchange) 37 ∧
    YearlyRange (TradesOn Asex.exchange) 1990 2200 223 255 :=
  stats_of (g := 36) (k := 211) (rules_of_check asex_check) (by decide +kernel) (by decide) (by decide) (by decide +kernel)

/-- C84 for `XAMS`. -/
theorem c84_xams : LongestClosure (TradesOn Xams.exchange) 4 ∧
    YearlyRange (TradesOn Xams.exchange) 1990 2200 251 259 :=
  stats_of (g := 3) (k := 211) (rules_of_check xams_check) (by decide +kernel) (by decide) (by decide) (by decide +kernel)

/-- C84 for `XBOM`. -/
theorem c84_xbom : LongestClosure (TradesOn Xbom.exchange) 5 ∧
    YearlyRange (TradesOn Xbom.exchange) 1997 2020 242 257 :=
  stats_of (g := 4) (k := 24) (rules_of_check xbom_check) (by decide +kernel) (by decide) (by decide) (by decide +kernel)

/-- C84 for `XCBF`. -/
theorem c84_xcbf : LongestClosure (TradesOn Xcbf.exchange) 4 ∧
    YearlyRange (TradesOn Xcbf.exchange) 1990 2200 250 255 :=
  stats_of (g := 3) (k := 211) (rules_of_check xcbf_check) (by decide +kernel) (by decide) (by decide) (by decide +kernel)

/-- C84 for `XETR`. -/
theorem c84_xetr : LongestClosure (TradesOn Xetr.exchange) 5 ∧
    YearlyRange (TradesOn Xetr.exchange) 1990 2200 251 257 :=
  stats_of (g := 4) (k := 211) (rules_of_check xetr_check) (by decide +kernel) (by decide) (by decide) (by decide +kernel)

/-- C84 for `XIDX`. -/
theorem c84_xidx : LongestClosure (TradesOn Xidx.exchange) 11 ∧
    YearlyRange (TradesOn Xidx.exchange) 1990 2200 238 257 :=
  stats_of (g := 10) (k := 211) (rules_of_check xidx_check) (by decide +kernel) (by decide) (by decide) (by decide +kernel)

/-- C84 for `XKLS`. -/
theorem c84_xkls : LongestClosure (TradesOn Xkls.exchange) 6 ∧
    YearlyRange (TradesOn Xkls.exchange) 1990 2200 243 258 :=
  stats_of (g := 5) (k := 211) (rules_of_check xkls_check) (by decide +kernel) (by decide) (by decide) (by decide +kernel)

/-- C84 for `XLON`. -/
theorem c84_xlon : LongestClosure (TradesOn Xlon.exchange) 4 ∧
    YearlyRange (TradesOn Xlon.exchange) 1990 2200 251 254 :=
  stats_of (g := 3) (k := 211) (rules_of_check xlon_check) (by decide +kernel) (by decide) (by decide) (by decide +kernel)

/-- C84 for `XMOS`. -/
theorem c84_xmos : LongestClosure (TradesOn Xmos.exchange) 11 ∧
    YearlyRange (TradesOn Xmos.exchange) 1990 2200 244 253 :=
  stats_of (g := 10) (k := 211) (rules_of_check xmos_check) (by decide +kernel) (by decide) (by decide) (by decide +kernel)

/-- C84 for `XPAR`. -/
theorem c84_xpar : LongestClosure (TradesOn Xpar.exchange) 4 ∧
    YearlyRange (TradesOn Xpar.exchange) 1990 2200 252 259 :=
  stats_of (g := 3) (k := 211) (rules_of_check xpar_check) (by decide +kernel) (by decide) (by decide) (by decide +kernel)

/-- C84 for `XSGO`. -/
theorem c84_xsgo : LongestClosure (TradesOn Xsgo.exchange) 5 ∧
    YearlyRange (TradesOn Xsgo.exchange) 1990 2200 245 253 :=
  stats_of (g := 4) (k := 211) (rules_of_check xsgo_check) (by decide +kernel) (by decide) (by decide) (by decide +kernel)

/-- C84 for `XTAI`. -/
theorem c84_xtai : LongestClosure (TradesOn Xtai.exchange) 11 ∧
    YearlyRange (TradesOn Xtai.exchange) 1990 2200 241 257 :=
  stats_of (g := 10) (k := 211) (rules_of_check xtai_check) (by decide +kernel) (by decide) (by decide) (by decide +kernel)

/-- C84 for `XWBO`. -/
theorem c84_xwbo : LongestClosure (TradesOn Xwbo.exchange) 5 ∧
    YearlyRange (TradesOn Xwbo.exchange) 1990 2200 246 255 :=
  stats_of (g := 4) (k := 211) (rules_of_check xwbo_check) (by decide +kernel) (by decide) (by decide) (by decide +kernel)

end TC.Props
