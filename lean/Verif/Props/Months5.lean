import Verif.Lemmas.Weeks
import Verif.Lemmas.Feasts
import Verif.Props.Exchanges2

/-!
# The trading days of a month (C94) and of a week (C96), part 5 of 8

The kernel evaluates a check, which `Lemmas/Weeks` proves sound, on the exchange's rules.

Written by `tools/gen_months.py`.
-/

namespace TC.Props
open Spec

set_option maxRecDepth 100000

/-- The check for `XAMS`. -/
theorem months_weeks_xams : MonthlyRange (TradesOn Xams.exchange) 1990 2200 18 23 5 5 ∧
    WeeklyRange (TradesOn Xams.exchange) 1990 2200 3 5 [] :=
  months_weeks_of (k := 211) (rules_of_check xams_check) (by decide +kernel) (by decide) (by decide) (by decide)
    (by decide) (by decide) (by decide) (by decide +kernel)

/-- C94 for `XAMS`. -/
theorem c94_xams : MonthlyRange (TradesOn Xams.exchange) 1990 2200 18 23 5 5 := months_weeks_xams.1

/-- C96 for `XAMS`. -/
theorem c96_xams : WeeklyRange (TradesOn Xams.exchange) 1990 2200 3 5 [] := months_weeks_xams.2

/-- The check for `XCBF`. -/
theorem months_weeks_xcbf : MonthlyRange (TradesOn Xcbf.exchange) 1990 2200 19 23 4 4 ∧
    WeeklyRange (TradesOn Xcbf.exchange) 1990 2200 3 5 [] :=
  months_weeks_of (k := 211) (rules_of_check xcbf_check) (by decide +kernel) (by decide) (by decide) (by decide)
    (by decide) (by decide) (by decide) (by decide +kernel)

/-- C94 for `XCBF`. -/
theorem c94_xcbf : MonthlyRange (TradesOn Xcbf.exchange) 1990 2200 19 23 4 4 := months_weeks_xcbf.1

/-- C96 for `XCBF`. -/
theorem c96_xcbf : WeeklyRange (TradesOn Xcbf.exchange) 1990 2200 3 5 [] := months_weeks_xcbf.2

/-- The check for `XIDX`. -/
theorem months_weeks_xidx : MonthlyRange (TradesOn Xidx.exchange) 1990 2200 13 23 10 10 ∧
    WeeklyRange (TradesOn Xidx.exchange) 1990 2200 0 5
    [⟨2003, 11, 24⟩, ⟨2004, 11, 15⟩, ⟨2006, 10, 23⟩, ⟨2011, 8, 29⟩, ⟨2013, 8, 5⟩,
      ⟨2014, 7, 28⟩, ⟨2016, 7, 4⟩, ⟨2017, 6, 26⟩, ⟨2018, 6, 11⟩, ⟨2019, 6, 3⟩] :=
  months_weeks_of (k := 211) (rules_of_check xidx_check) (by decide +kernel) (by decide) (by decide) (by decide)
    (by decide) (by decide) (by decide) (by decide +kernel)

/-- C94 for `XIDX`. -/
theorem c94_xidx : MonthlyRange (TradesOn Xidx.exchange) 1990 2200 13 23 10 10 := months_weeks_xidx.1

/-- C96 for `XIDX`. -/
theorem c96_xidx : WeeklyRange (TradesOn Xidx.exchange) 1990 2200 0 5
    [⟨2003, 11, 24⟩, ⟨2004, 11, 15⟩, ⟨2006, 10, 23⟩, ⟨2011, 8, 29⟩, ⟨2013, 8, 5⟩,
      ⟨2014, 7, 28⟩, ⟨2016, 7, 4⟩, ⟨2017, 6, 26⟩, ⟨2018, 6, 11⟩, ⟨2019, 6, 3⟩] := months_weeks_xidx.2

/-- The check for `XLON`. -/
theorem months_weeks_xlon : MonthlyRange (TradesOn Xlon.exchange) 1990 2200 18 23 5 5 ∧
    WeeklyRange (TradesOn Xlon.exchange) 1990 2200 2 5 [] :=
  months_weeks_of (k := 211) (rules_of_check xlon_check) (by decide +kernel) (by decide) (by decide) (by decide)
    (by decide) (by decide) (by decide) (by decide +kernel)

/-- C94 for `XLON`. -/
theorem c94_xlon : MonthlyRange (TradesOn Xlon.exchange) 1990 2200 18 23 5 5 := months_weeks_xlon.1

/-- C96 for `XLON`. -/
theorem c96_xlon : WeeklyRange (TradesOn Xlon.exchange) 1990 2200 2 5 [] := months_weeks_xlon.2

/-- The check for `XPAR`. -/
theorem months_weeks_xpar : MonthlyRange (TradesOn Xpar.exchange) 1990 2200 18 23 5 5 ∧
    WeeklyRange (TradesOn Xpar.exchange) 1990 2200 3 5 [] :=
  months_weeks_of (k := 211) (rules_of_check xpar_check) (by decide +kernel) (by decide) (by decide) (by decide)
    (by decide) (by decide) (by decide) (by decide +kernel)

/-- C94 for `XPAR`. -/
theorem c94_xpar : MonthlyRange (TradesOn Xpar.exchange) 1990 2200 18 23 5 5 := months_weeks_xpar.1

/-- C96 for `XPAR`. -/
theorem c96_xpar : WeeklyRange (TradesOn Xpar.exchange) 1990 2200 3 5 [] := months_weeks_xpar.2

/-- The check for `XTAI`. -/
theorem months_weeks_xtai : MonthlyRange (TradesOn Xtai.exchange) 1990 2200 12 23 11 11 ∧
    WeeklyRange (TradesOn Xtai.exchange) 1990 2200 0 5
    [⟨1998, 1, 26⟩, ⟨2001, 1, 22⟩, ⟨2002, 2, 11⟩, ⟨2004, 1, 19⟩, ⟨2005, 2, 7⟩,
      ⟨2007, 2, 19⟩, ⟨2008, 2, 4⟩, ⟨2009, 1, 26⟩, ⟨2010, 2, 15⟩, ⟨2011, 1, 31⟩, ⟨2012, 1, 23⟩, ⟨2013, 2, 11⟩,
      ⟨2015, 2, 16⟩, ⟨2016, 2, 8⟩, ⟨2019, 2, 4⟩, ⟨2025, 1, 27⟩, ⟨2028, 1, 24⟩, ⟨2032, 2, 9⟩, ⟨2042, 1, 20⟩] :=
  months_weeks_of (k := 211) (rules_of_check xtai_check) (by decide +kernel) (by decide) (by decide) (by decide)
    (by decide) (by decide) (by decide) (by decide +kernel)

/-- C94 for `XTAI`. -/
theorem c94_xtai : MonthlyRange (TradesOn Xtai.exchange) 1990 2200 12 23 11 11 := months_weeks_xtai.1

/-- C96 for `XTAI`. -/
theorem c96_xtai : WeeklyRange (TradesOn Xtai.exchange) 1990 2200 0 5
    [⟨1998, 1, 26⟩, ⟨2001, 1, 22⟩, ⟨2002, 2, 11⟩, ⟨2004, 1, 19⟩, ⟨2005, 2, 7⟩,
      ⟨2007, 2, 19⟩, ⟨2008, 2, 4⟩, ⟨2009, 1, 26⟩, ⟨2010, 2, 15⟩, ⟨2011, 1, 31⟩, ⟨2012, 1, 23⟩, ⟨2013, 2, 11⟩,
      ⟨2015, 2, 16⟩, ⟨2016, 2, 8⟩, ⟨2019, 2, 4⟩, ⟨2025, 1, 27⟩, ⟨2028, 1, 24⟩, ⟨2032, 2, 9⟩, ⟨2042, 1, 20⟩] := months_weeks_xtai.2

end TC.Props
