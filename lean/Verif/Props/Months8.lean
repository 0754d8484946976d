import Verif.Lemmas.Weeks
import Verif.Lemmas.Feasts
import Verif.Props.Exchanges1
import Verif.Props.Exchanges2

/-!
# The trading days of a month (C94) and of a week (C96), part 8 of 8

The kernel evaluates a check, which `Lemmas/Weeks` proves sound, on the exchange's rules.

Written by `tools/gen_months.py`.
-/

namespace TC.Props
open Spec

set_option maxRecDepth 100000

/-- The check for `XBOG`. -/
theorem months_weeks_xbog : MonthlyRange (TradesOn Xbog.exchange) 1990 2200 18 23 5 5 ∧
    WeeklyRange (TradesOn Xbog.exchange) 1990 2200 2 5 [] :=
  months_weeks_of (k := 211) (rules_of_check xbog_check) (by decide +kernel) (by decide) (by decide) (by decide)
    (by decide) (by decide) (by decide) (by decide +kernel)

/-- C94 for `XBOG`. -/
theorem c94_xbog : MonthlyRange (TradesOn Xbog.exchange) 1990 2200 18 23 5 5 := months_weeks_xbog.1

/-- C96 for `XBOG`. -/
theorem c96_xbog : WeeklyRange (TradesOn Xbog.exchange) 1990 2200 2 5 [] := months_weeks_xbog.2

/-- The check for `XFRA`. -/
theorem months_weeks_xfra : MonthlyRange (TradesOn Xfra.exchange) 1990 2200 17 23 5 5 ∧
    WeeklyRange (TradesOn Xfra.exchange) 1990 2200 2 5 [] :=
  months_weeks_of (k := 211) (rules_of_check xfra_check) (by decide +kernel) (by decide) (by decide) (by decide)
    (by decide) (by decide) (by decide) (by decide +kernel)

/-- C94 for `XFRA`. -/
theorem c94_xfra : MonthlyRange (TradesOn Xfra.exchange) 1990 2200 17 23 5 5 := months_weeks_xfra.1

/-- C96 for `XFRA`. -/
theorem c96_xfra : WeeklyRange (TradesOn Xfra.exchange) 1990 2200 2 5 [] := months_weeks_xfra.2

/-- The check for `XKAR`. -/
theorem months_weeks_xkar : MonthlyRange (TradesOn Xkar.exchange) 1990 2200 15 23 6 6 ∧
    WeeklyRange (TradesOn Xkar.exchange) 1990 2200 0 5
    [⟨2006, 10, 23⟩] :=
  months_weeks_of (k := 211) (rules_of_check xkar_check) (by decide +kernel) (by decide) (by decide) (by decide)
    (by decide) (by decide) (by decide) (by decide +kernel)

/-- C94 for `XKAR`. -/
theorem c94_xkar : MonthlyRange (TradesOn Xkar.exchange) 1990 2200 15 23 6 6 := months_weeks_xkar.1

/-- C96 for `XKAR`. -/
theorem c96_xkar : WeeklyRange (TradesOn Xkar.exchange) 1990 2200 0 5
    [⟨2006, 10, 23⟩] := months_weeks_xkar.2

/-- The check for `XMIL`. -/
theorem months_weeks_xmil : MonthlyRange (TradesOn Xmil.exchange) 1990 2200 17 23 5 5 ∧
    WeeklyRange (TradesOn Xmil.exchange) 1990 2200 2 5 [] :=
  months_weeks_of (k := 211) (rules_of_check xmil_check) (by decide +kernel) (by decide) (by decide) (by decide)
    (by decide) (by decide) (by decide) (by decide +kernel)

/-- C94 for `XMIL`. -/
theorem c94_xmil : MonthlyRange (TradesOn Xmil.exchange) 1990 2200 17 23 5 5 := months_weeks_xmil.1

/-- C96 for `XMIL`. -/
theorem c96_xmil : WeeklyRange (TradesOn Xmil.exchange) 1990 2200 2 5 [] := months_weeks_xmil.2

/-- The check for `XSES`. -/
theorem months_weeks_xses : MonthlyRange (TradesOn Xses.exchange) 1986 2020 18 23 4 5 ∧
    WeeklyRange (TradesOn Xses.exchange) 1986 2020 2 5 [] :=
  months_weeks_of (k := 35) (rules_of_check xses_check) (by decide +kernel) (by decide) (by decide) (by decide)
    (by decide) (by decide) (by decide) (by decide +kernel)

/-- C94 for `XSES`. -/
theorem c94_xses : MonthlyRange (TradesOn Xses.exchange) 1986 2020 18 23 4 5 := months_weeks_xses.1

/-- C96 for `XSES`. -/
theorem c96_xses : WeeklyRange (TradesOn Xses.exchange) 1986 2020 2 5 [] := months_weeks_xses.2

/-- The check for `XWAR`. -/
theorem months_weeks_xwar : MonthlyRange (TradesOn Xwar.exchange) 1990 2200 17 23 5 5 ∧
    WeeklyRange (TradesOn Xwar.exchange) 1990 2200 2 5 [] :=
  months_weeks_of (k := 211) (rules_of_check xwar_check) (by decide +kernel) (by decide) (by decide) (by decide)
    (by decide) (by decide) (by decide) (by decide +kernel)

/-- C94 for `XWAR`. -/
theorem c94_xwar : MonthlyRange (TradesOn Xwar.exchange) 1990 2200 17 23 5 5 := months_weeks_xwar.1

/-- C96 for `XWAR`. -/
theorem c96_xwar : WeeklyRange (TradesOn Xwar.exchange) 1990 2200 2 5 [] := months_weeks_xwar.2

end TC.Props
