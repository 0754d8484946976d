import Verif.Lemmas.Weeks
import Verif.Lemmas.Feasts
import Verif.Props.Exchanges1
import Verif.Props.Exchanges2

/-!
# The trading days of a month (C94) and of a week (C96), part 1 of 8

The kernel evaluates a check, which `Lemmas/Weeks` proves sound, on the exchange's rules.

Written by `tools/gen_months.py`.
-/

namespace TC.Props
open Spec

set_option maxRecDepth 100000

/-- The check for `ASEX`. -/
theorem months_weeks_asex : MonthlyRange (TradesOn Asex.exchange) 2016 2200 18 23 5 5 ∧
    WeeklyRange (TradesOn Asex.exchange) 1990 2200 0 5
    [⟨2015, 6, 29⟩, ⟨2015, 7, 6⟩, ⟨2015, 7, 13⟩, ⟨2015, 7, 20⟩, ⟨2015, 7, 27⟩] :=
  months_weeks_of (k := 185) (rules_of_check asex_check) (by decide +kernel) (by decide) (by decide) (by decide)
    (by decide) (by decide) (by decide) (by decide +kernel)

/-- C94 for `ASEX`. -/
theorem c94_asex : MonthlyRange (TradesOn Asex.exchange) 2016 2200 18 23 5 5 := months_weeks_asex.1

/-- C96 for `ASEX`. -/
theorem c96_asex : WeeklyRange (TradesOn Asex.exchange) 1990 2200 0 5
    [⟨2015, 6, 29⟩, ⟨2015, 7, 6⟩, ⟨2015, 7, 13⟩, ⟨2015, 7, 20⟩, ⟨2015, 7, 27⟩] := months_weeks_asex.2

/-- The check for `XBOM`. -/
theorem months_weeks_xbom : MonthlyRange (TradesOn Xbom.exchange) 1997 2020 17 23 4 4 ∧
    WeeklyRange (TradesOn Xbom.exchange) 1997 2020 2 5 [] :=
  months_weeks_of (k := 24) (rules_of_check xbom_check) (by decide +kernel) (by decide) (by decide) (by decide)
    (by decide) (by decide) (by decide) (by decide +kernel)

/-- C94 for `XBOM`. -/
theorem c94_xbom : MonthlyRange (TradesOn Xbom.exchange) 1997 2020 17 23 4 4 := months_weeks_xbom.1

/-- C96 for `XBOM`. -/
theorem c96_xbom : WeeklyRange (TradesOn Xbom.exchange) 1997 2020 2 5 [] := months_weeks_xbom.2

/-- The check for `XETR`. -/
theorem months_weeks_xetr : MonthlyRange (TradesOn Xetr.exchange) 1990 2200 17 23 5 5 ∧
    WeeklyRange (TradesOn Xetr.exchange) 1990 2200 2 5 [] :=
  months_weeks_of (k := 211) (rules_of_check xetr_check) (by decide +kernel) (by decide) (by decide) (by decide)
    (by decide) (by decide) (by decide) (by decide +kernel)

/-- C94 for `XETR`. -/
theorem c94_xetr : MonthlyRange (TradesOn Xetr.exchange) 1990 2200 17 23 5 5 := months_weeks_xetr.1

/-- C96 for `XETR`. -/
theorem c96_xetr : WeeklyRange (TradesOn Xetr.exchange) 1990 2200 2 5 [] := months_weeks_xetr.2

/-- The check for `XKLS`. -/
theorem months_weeks_xkls : MonthlyRange (TradesOn Xkls.exchange) 1990 2200 16 23 6 5 ∧
    WeeklyRange (TradesOn Xkls.exchange) 1990 2200 1 5 [] :=
  months_weeks_of (k := 211) (rules_of_check xkls_check) (by decide +kernel) (by decide) (by decide) (by decide)
    (by decide) (by decide) (by decide) (by decide +kernel)

/-- C94 for `XKLS`. -/
theorem c94_xkls : MonthlyRange (TradesOn Xkls.exchange) 1990 2200 16 23 6 5 := months_weeks_xkls.1

/-- C96 for `XKLS`. -/
theorem c96_xkls : WeeklyRange (TradesOn Xkls.exchange) 1990 2200 1 5 [] := months_weeks_xkls.2

/-- The check for `XMOS`. -/
theorem months_weeks_xmos : MonthlyRange (TradesOn Xmos.exchange) 1990 2200 15 23 12 4 ∧
    WeeklyRange (TradesOn Xmos.exchange) 1990 2200 0 5
    [⟨2005, 1, 3⟩, ⟨2006, 1, 2⟩, ⟨2007, 1, 1⟩, ⟨2007, 12, 31⟩, ⟨2009, 1, 5⟩,
      ⟨2010, 1, 4⟩, ⟨2011, 1, 3⟩, ⟨2012, 12, 31⟩] :=
  months_weeks_of (k := 211) (rules_of_check xmos_check) (by decide +kernel) (by decide) (by decide) (by decide)
    (by decide) (by decide) (by decide) (by decide +kernel)

/-- C94 for `XMOS`. -/
theorem c94_xmos : MonthlyRange (TradesOn Xmos.exchange) 1990 2200 15 23 12 4 := months_weeks_xmos.1

/-- C96 for `XMOS`. -/
theorem c96_xmos : WeeklyRange (TradesOn Xmos.exchange) 1990 2200 0 5
    [⟨2005, 1, 3⟩, ⟨2006, 1, 2⟩, ⟨2007, 1, 1⟩, ⟨2007, 12, 31⟩, ⟨2009, 1, 5⟩,
      ⟨2010, 1, 4⟩, ⟨2011, 1, 3⟩, ⟨2012, 12, 31⟩] := months_weeks_xmos.2

/-- The check for `XSGO`. -/
theorem months_weeks_xsgo : MonthlyRange (TradesOn Xsgo.exchange) 1990 2200 17 23 5 4 ∧
    WeeklyRange (TradesOn Xsgo.exchange) 1990 2200 2 5 [] :=
  months_weeks_of (k := 211) (rules_of_check xsgo_check) (by decide +kernel) (by decide) (by decide) (by decide)
    (by decide) (by decide) (by decide) (by decide +kernel)

/-- C94 for `XSGO`. -/
theorem c94_xsgo : MonthlyRange (TradesOn Xsgo.exchange) 1990 2200 17 23 5 4 := months_weeks_xsgo.1

/-- C96 for `XSGO`. -/
theorem c96_xsgo : WeeklyRange (TradesOn Xsgo.exchange) 1990 2200 2 5 [] := months_weeks_xsgo.2

/-- The check for `XWBO`. -/
theorem months_weeks_xwbo : MonthlyRange (TradesOn Xwbo.exchange) 1990 2200 17 23 5 5 ∧
    WeeklyRange (TradesOn Xwbo.exchange) 1990 2200 2 5 [] :=
  months_weeks_of (k := 211) (rules_of_check xwbo_check) (by decide +kernel) (by decide) (by decide) (by decide)
    (by decide) (by decide) (by decide) (by decide +kernel)

/-- C94 for `XWBO`. -/
theorem c94_xwbo : MonthlyRange (TradesOn Xwbo.exchange) 1990 2200 17 23 5 5 := months_weeks_xwbo.1

/-- C96 for `XWBO`. -/
theorem c96_xwbo : WeeklyRange (TradesOn Xwbo.exchange) 1990 2200 2 5 [] := months_weeks_xwbo.2

end TC.Props
