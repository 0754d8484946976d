import Verif.Lemmas.Weeks
import Verif.Lemmas.Feasts
import Verif.Props.Exchanges1
import Verif.Props.Exchanges4

/-!
# The trading days of a month (C94) and of a week (C96), part 4 of 8

The kernel evaluates a check, which `Lemmas/Weeks` proves sound, on the exchange's rules.

Written by `tools/gen_months.py`.
-/

namespace TC.Props
open Spec

set_option maxRecDepth 100000

/-- The check for `IEPA`. -/
theorem months_weeks_iepa : MonthlyRange (TradesOn Iepa.exchange) 1990 2200 19 23 4 4 ∧
    WeeklyRange (TradesOn Iepa.exchange) 1990 2200 3 5 [] :=
  months_weeks_of (k := 211) (rules_of_check iepa_check) (by decide +kernel) (by decide) (by decide) (by decide)
    (by decide) (by decide) (by decide) (by decide +kernel)

/-- C94 for `IEPA`. -/
theorem c94_iepa : MonthlyRange (TradesOn Iepa.exchange) 1990 2200 19 23 4 4 := months_weeks_iepa.1

/-- C96 for `IEPA`. -/
theorem c96_iepa : WeeklyRange (TradesOn Iepa.exchange) 1990 2200 3 5 [] := months_weeks_iepa.2

/-- The check for `XBUE`. -/
theorem months_weeks_xbue : MonthlyRange (TradesOn Xbue.exchange) 1990 2200 14 23 6 6 ∧
    WeeklyRange (TradesOn Xbue.exchange) 1990 2200 0 5
    [⟨2002, 1, 7⟩, ⟨2002, 4, 22⟩] :=
  months_weeks_of (k := 211) (rules_of_check xbue_check) (by decide +kernel) (by decide) (by decide) (by decide)
    (by decide) (by decide) (by decide) (by decide +kernel)

/-- C94 for `XBUE`. -/
theorem c94_xbue : MonthlyRange (TradesOn Xbue.exchange) 1990 2200 14 23 6 6 := months_weeks_xbue.1

/-- C96 for `XBUE`. -/
theorem c96_xbue : WeeklyRange (TradesOn Xbue.exchange) 1990 2200 0 5
    [⟨2002, 1, 7⟩, ⟨2002, 4, 22⟩] := months_weeks_xbue.2

/-- The check for `XICE`. -/
theorem months_weeks_xice : MonthlyRange (TradesOn Xice.exchange) 1990 2200 16 23 6 6 ∧
    WeeklyRange (TradesOn Xice.exchange) 1990 2200 2 5 [] :=
  months_weeks_of (k := 211) (rules_of_check xice_check) (by decide +kernel) (by decide) (by decide) (by decide)
    (by decide) (by decide) (by decide) (by decide +kernel)

/-- C94 for `XICE`. -/
theorem c94_xice : MonthlyRange (TradesOn Xice.exchange) 1990 2200 16 23 6 6 := months_weeks_xice.1

/-- C96 for `XICE`. -/
theorem c96_xice : WeeklyRange (TradesOn Xice.exchange) 1990 2200 2 5 [] := months_weeks_xice.2

/-- The check for `XLIS`. -/
theorem months_weeks_xlis : MonthlyRange (TradesOn Xlis.exchange) 1990 2200 17 23 5 5 ∧
    WeeklyRange (TradesOn Xlis.exchange) 1990 2200 2 5 [] :=
  months_weeks_of (k := 211) (rules_of_check xlis_check) (by decide +kernel) (by decide) (by decide) (by decide)
    (by decide) (by decide) (by decide) (by decide +kernel)

/-- C94 for `XLIS`. -/
theorem c94_xlis : MonthlyRange (TradesOn Xlis.exchange) 1990 2200 17 23 5 5 := months_weeks_xlis.1

/-- C96 for `XLIS`. -/
theorem c96_xlis : WeeklyRange (TradesOn Xlis.exchange) 1990 2200 2 5 [] := months_weeks_xlis.2

/-- The check for `XOSL`. -/
theorem months_weeks_xosl : MonthlyRange (TradesOn Xosl.exchange) 1990 2200 17 23 6 6 ∧
    WeeklyRange (TradesOn Xosl.exchange) 1990 2200 2 5 [] :=
  months_weeks_of (k := 211) (rules_of_check xosl_check) (by decide +kernel) (by decide) (by decide) (by decide)
    (by decide) (by decide) (by decide) (by decide +kernel)

/-- C94 for `XOSL`. -/
theorem c94_xosl : MonthlyRange (TradesOn Xosl.exchange) 1990 2200 17 23 6 6 := months_weeks_xosl.1

/-- C96 for `XOSL`. -/
theorem c96_xosl : WeeklyRange (TradesOn Xosl.exchange) 1990 2200 2 5 [] := months_weeks_xosl.2

/-- The check for `XSWX`. -/
theorem months_weeks_xswx : MonthlyRange (TradesOn Xswx.exchange) 1990 2200 17 23 5 5 ∧
    WeeklyRange (TradesOn Xswx.exchange) 1990 2200 2 5 [] :=
  months_weeks_of (k := 211) (rules_of_check xswx_check) (by decide +kernel) (by decide) (by decide) (by decide)
    (by decide) (by decide) (by decide) (by decide +kernel)

/-- C94 for `XSWX`. -/
theorem c94_xswx : MonthlyRange (TradesOn Xswx.exchange) 1990 2200 17 23 5 5 := months_weeks_xswx.1

/-- C96 for `XSWX`. -/
theorem c96_xswx : WeeklyRange (TradesOn Xswx.exchange) 1990 2200 2 5 [] := months_weeks_xswx.2

end TC.Props
