import Verif.Lemmas.DayBits
import Verif.Lemmas.Feasts
import Verif.Props.Exchanges1
import Verif.Props.Exchanges2
import Verif.Props.Exchanges3

/-!
# Closures and yearly numbers of trading days (C84), part 2 of 4

The longest closure of each exchange, among all days, and the least and the greatest number of trading days of
a year.  The kernel evaluates a check, which `Lemmas/DayBits` proves sound, on the exchange's rules.

Written by `tools/gen_gaps.py`.
-/

namespace TC.Props
open Spec

set_option maxRecDepth 100000

/-- C84 for `BVMF`. -/
theorem c84_bvmf : LongestClosure (TradesOn Bvmf.exchange) 4 ∧
    YearlyRange (TradesOn Bvmf.exchange) 1990 2200 245 251 :=
  stats_of (g := 3) (k := 211) (rules_of_check bvmf_check) (by decide +kernel) (by decide) (by decide) (by decide +kernel)

/-- C84 for `XASX`. -/
theorem c84_xasx : LongestClosure (TradesOn Xasx.exchange) 5 ∧
    YearlyRange (TradesOn Xasx.exchange) 1990 2200 252 255 :=
  stats_of (g := 4) (k := 211) (rules_of_check xasx_check) (by decide +kernel) (by decide) (by decide) (by decide +kernel)

/-- C84 for `XBRU`. -/
theorem c84_xbru : LongestClosure (TradesOn Xbru.exchange) 4 ∧
    YearlyRange (TradesOn Xbru.exchange) 1990 2200 251 259 :=
  stats_of (g := 3) (k := 211) (rules_of_check xbru_check) (by decide +kernel) (by decide) (by decide) (by decide +kernel)

/-- C84 for `XCSE`. -/
theorem c84_xcse : LongestClosure (TradesOn Xcse.exchange) 5 ∧
    YearlyRange (TradesOn Xcse.exchange) 1990 2200 248 253 :=
  stats_of (g := 4) (k := 211) (rules_of_check xcse_check) (by decide +kernel) (by decide) (by decide) (by decide +kernel)

/-- C84 for `XHEL`. -/
theorem c84_xhel : LongestClosure (TradesOn Xhel.exchange) 5 ∧
    YearlyRange (TradesOn Xhel.exchange) 1990 2200 250 253 :=
  stats_of (g := 4) (k := 211) (rules_of_check xhel_check) (by decide +kernel) (by decide) (by decide) (by decide +kernel)

/-- C84 for `XIST`. -/
theorem c84_xist : LongestClosure (TradesOn Xist.exchange) 10 ∧
    YearlyRange (TradesOn Xist.exchange) 1990 2200 246 257 :=
  stats_of (g := 9) (k := 211) (rules_of_check xist_check) (by decide +kernel) (by decide) (by decide) (by decide +kernel)

/-- C84 for `XKRX`. -/
theorem c84_xkrx : LongestClosure (TradesOn Xkrx.exchange) 10 ∧
    YearlyRange (TradesOn Xkrx.exchange) 1986 2021 241 253 :=
  stats_of (g := 9) (k := 36) (rules_of_check xkrx_check) (by decide +kernel) (by decide) (by decide) (by decide +kernel)

/-- C84 for `XMAD`. -/
theorem c84_xmad : LongestClosure (TradesOn Xmad.exchange) 5 ∧
    YearlyRange (TradesOn Xmad.exchange) 1990 2200 249 259 :=
  stats_of (g := 4) (k := 211) (rules_of_check xmad_check) (by decide +kernel) (by decide) (by decide) (by decide +kernel)

/-- C84 for `XNYS`. -/
theorem c84_xnys : LongestClosure (TradesOn Xnys.exchange) 11 ∧
    YearlyRange (TradesOn Xnys.exchange) 1990 2200 248 254 :=
  stats_of (g := 10) (k := 211) (rules_of_check xnys_check) (by decide +kernel) (by decide) (by decide) (by decide +kernel)

/-- C84 for `XPHS`. -/
theorem c84_xphs : LongestClosure (TradesOn Xphs.exchange) 11 ∧
    YearlyRange (TradesOn Xphs.exchange) 1990 2200 240 261 :=
  stats_of (g := 10) (k := 211) (rules_of_check xphs_check) (by decide +kernel) (by decide) (by decide) (by decide +kernel)

/-- C84 for `XSHG`. -/
theorem c84_xshg : LongestClosure (TradesOn Xshg.exchange) 19 ∧
    YearlyRange (TradesOn Xshg.exchange) 1999 2025 237 251 :=
  stats_of (g := 18) (k := 27) (rules_of_check xshg_check) (by decide +kernel) (by decide) (by decide) (by decide +kernel)

/-- C84 for `XTKS`. -/
theorem c84_xtks : LongestClosure (TradesOn Xtks.exchange) 10 ∧
    YearlyRange (TradesOn Xtks.exchange) 2000 2200 241 249 :=
  stats_of (g := 9) (k := 201) (rules_of_check xtks_check) (by decide +kernel) (by decide) (by decide) (by decide +kernel)

/-- C84 for `us_futures`. -/
theorem c84_usFuturesCalendar : LongestClosure (TradesOn UsFuturesCalendar.exchange) 3 ∧
    YearlyRange (TradesOn UsFuturesCalendar.exchange) 2000 2200 257 259 :=
  stats_of (g := 2) (k := 201) (rules_of_check usFuturesCalendar_check) (by decide +kernel) (by decide) (by decide) (by decide +kernel)

end TC.Props
