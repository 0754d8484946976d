import Verif.Lemmas.Weeks
import Verif.Lemmas.Feasts
import Verif.Props.Exchanges3

/-!
# The trading days of a month (C94) and of a week (C96), part 6 of 8

The kernel evaluates a check, which `Lemmas/Weeks` proves sound, on the exchange's rules.

Written by `tools/gen_months.py`.
-/

namespace TC.Props
open Spec

set_option maxRecDepth 100000

/-- The check for `XASX`. -/
theorem months_weeks_xasx : MonthlyRange (TradesOn Xasx.exchange) 1990 2200 17 23 5 5 ∧
    WeeklyRange (TradesOn Xasx.exchange) 1990 2200 2 5 [] :=
  months_weeks_of (k := 211) (rules_of_check xasx_check) (by decide +kernel) (by decide) (by decide) (by decide)
    (by decide) (by decide) (by decide) (by decide +kernel)

/-- C94 for `XASX`. -/
theorem c94_xasx : MonthlyRange (TradesOn Xasx.exchange) 1990 2200 17 23 5 5 := months_weeks_xasx.1

/-- C96 for `XASX`. -/
theorem c96_xasx : WeeklyRange (TradesOn Xasx.exchange) 1990 2200 2 5 [] := months_weeks_xasx.2

/-- The check for `XCSE`. -/
theorem months_weeks_xcse : MonthlyRange (TradesOn Xcse.exchange) 1990 2200 17 23 6 6 ∧
    WeeklyRange (TradesOn Xcse.exchange) 1990 2200 2 5 [] :=
  months_weeks_of (k := 211) (rules_of_check xcse_check) (by decide +kernel) (by decide) (by decide) (by decide)
    (by decide) (by decide) (by decide) (by decide +kernel)

/-- C94 for `XCSE`. -/
theorem c94_xcse : MonthlyRange (TradesOn Xcse.exchange) 1990 2200 17 23 6 6 := months_weeks_xcse.1

/-- C96 for `XCSE`. -/
theorem c96_xcse : WeeklyRange (TradesOn Xcse.exchange) 1990 2200 2 5 [] := months_weeks_xcse.2

/-- The check for `XIST`. -/
theorem months_weeks_xist : MonthlyRange (TradesOn Xist.exchange) 1990 2200 14 23 6 11 ∧
    WeeklyRange (TradesOn Xist.exchange) 1990 2200 0 5
    [⟨2003, 2, 10⟩, ⟨2003, 11, 24⟩, ⟨2006, 1, 9⟩, ⟨2029, 4, 23⟩] :=
  months_weeks_of (k := 211) (rules_of_check xist_check) (by decide +kernel) (by decide) (by decide) (by decide)
    (by decide) (by decide) (by decide) (by decide +kernel)

/-- C94 for `XIST`. -/
theorem c94_xist : MonthlyRange (TradesOn Xist.exchange) 1990 2200 14 23 6 11 := months_weeks_xist.1

/-- C96 for `XIST`. -/
theorem c96_xist : WeeklyRange (TradesOn Xist.exchange) 1990 2200 0 5
    [⟨2003, 2, 10⟩, ⟨2003, 11, 24⟩, ⟨2006, 1, 9⟩, ⟨2029, 4, 23⟩] := months_weeks_xist.2

/-- The check for `XMAD`. -/
theorem months_weeks_xmad : MonthlyRange (TradesOn Xmad.exchange) 1990 2200 16 23 5 5 ∧
    WeeklyRange (TradesOn Xmad.exchange) 1990 2200 2 5 [] :=
  months_weeks_of (k := 211) (rules_of_check xmad_check) (by decide +kernel) (by decide) (by decide) (by decide)
    (by decide) (by decide) (by decide) (by decide +kernel)

/-- C94 for `XMAD`. -/
theorem c94_xmad : MonthlyRange (TradesOn Xmad.exchange) 1990 2200 16 23 5 5 := months_weeks_xmad.1

/-- C96 for `XMAD`. -/
theorem c96_xmad : WeeklyRange (TradesOn Xmad.exchange) 1990 2200 2 5 [] := months_weeks_xmad.2

/-- The check for `XPHS`. -/
theorem months_weeks_xphs : MonthlyRange (TradesOn Xphs.exchange) 1990 2200 17 23 5 8 ∧
    WeeklyRange (TradesOn Xphs.exchange) 1990 2200 0 5
    [⟨2008, 12, 29⟩] :=
  months_weeks_of (k := 211) (rules_of_check xphs_check) (by decide +kernel) (by decide) (by decide) (by decide)
    (by decide) (by decide) (by decide) (by decide +kernel)

/-- C94 for `XPHS`. -/
theorem c94_xphs : MonthlyRange (TradesOn Xphs.exchange) 1990 2200 17 23 5 8 := months_weeks_xphs.1

/-- C96 for `XPHS`. -/
theorem c96_xphs : WeeklyRange (TradesOn Xphs.exchange) 1990 2200 0 5
    [⟨2008, 12, 29⟩] := months_weeks_xphs.2

/-- The check for `XTKS`. -/
theorem months_weeks_xtks : MonthlyRange (TradesOn Xtks.exchange) 2000 2200 18 23 7 5 ∧
    WeeklyRange (TradesOn Xtks.exchange) 2000 2200 0 5
    [⟨2019, 4, 29⟩] :=
  months_weeks_of (k := 201) (rules_of_check xtks_check) (by decide +kernel) (by decide) (by decide) (by decide)
    (by decide) (by decide) (by decide) (by decide +kernel)

/-- C94 for `XTKS`. -/
theorem c94_xtks : MonthlyRange (TradesOn Xtks.exchange) 2000 2200 18 23 7 5 := months_weeks_xtks.1

/-- C96 for `XTKS`. -/
theorem c96_xtks : WeeklyRange (TradesOn Xtks.exchange) 2000 2200 0 5
    [⟨2019, 4, 29⟩] := months_weeks_xtks.2

end TC.Props
