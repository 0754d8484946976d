import Verif.Lemmas.Weeks
import Verif.Lemmas.Feasts
import Verif.Props.Exchanges1
import Verif.Props.Exchanges2
import Verif.Props.Exchanges3

/-!
# The trading days of a month (C94) and of a week (C96), part 2 of 8

The kernel evaluates a check, which `Lemmas/Weeks` proves sound, on the exchange's rules.

Written by `tools/gen_months.py`.
-/

namespace TC.Props
open Spec

set_option maxRecDepth 100000

/-- The check for `BVMF`. -/
theorem months_weeks_bvmf : MonthlyRange (TradesOn Bvmf.exchange) 1990 2200 18 23 5 5 ∧
    WeeklyRange (TradesOn Bvmf.exchange) 1990 2200 3 5 [] :=
  months_weeks_of (k := 211) (rules_of_check bvmf_check) (by decide +kernel) (by decide) (by decide) (by decide)
    (by decide) (by decide) (by decide) (by decide +kernel)

/-- C94 for `BVMF`. -/
theorem c94_bvmf : MonthlyRange (TradesOn Bvmf.exchange) 1990 2200 18 23 5 5 := months_weeks_bvmf.1

/-- C96 for `BVMF`. -/
theorem c96_bvmf : WeeklyRange (TradesOn Bvmf.exchange) 1990 2200 3 5 [] := months_weeks_bvmf.2

/-- The check for `XBRU`. -/
theorem months_weeks_xbru : MonthlyRange (TradesOn Xbru.exchange) 1990 2200 18 23 5 5 ∧
    WeeklyRange (TradesOn Xbru.exchange) 1990 2200 3 5 [] :=
  months_weeks_of (k := 211) (rules_of_check xbru_check) (by decide +kernel) (by decide) (by decide) (by decide)
    (by decide) (by decide) (by decide) (by decide +kernel)

/-- C94 for `XBRU`. -/
theorem c94_xbru : MonthlyRange (TradesOn Xbru.exchange) 1990 2200 18 23 5 5 := months_weeks_xbru.1

/-- C96 for `XBRU`. -/
theorem c96_xbru : WeeklyRange (TradesOn Xbru.exchange) 1990 2200 3 5 [] := months_weeks_xbru.2

/-- The check for `XHEL`. -/
theorem months_weeks_xhel : MonthlyRange (TradesOn Xhel.exchange) 1990 2200 16 23 5 5 ∧
    WeeklyRange (TradesOn Xhel.exchange) 1990 2200 2 5 [] :=
  months_weeks_of (k := 211) (rules_of_check xhel_check) (by decide +kernel) (by decide) (by decide) (by decide)
    (by decide) (by decide) (by decide) (by decide +kernel)

/-- C94 for `XHEL`. -/
theorem c94_xhel : MonthlyRange (TradesOn Xhel.exchange) 1990 2200 16 23 5 5 := months_weeks_xhel.1

/-- C96 for `XHEL`. -/
theorem c96_xhel : WeeklyRange (TradesOn Xhel.exchange) 1990 2200 2 5 [] := months_weeks_xhel.2

/-- The check for `XKRX`. -/
theorem months_weeks_xkrx : MonthlyRange (TradesOn Xkrx.exchange) 1986 2021 16 23 10 8 ∧
    WeeklyRange (TradesOn Xkrx.exchange) 1986 2021 0 5
    [⟨1986, 12, 29⟩, ⟨1987, 12, 28⟩, ⟨1992, 12, 28⟩, ⟨2017, 10, 2⟩] :=
  months_weeks_of (k := 36) (rules_of_check xkrx_check) (by decide +kernel) (by decide) (by decide) (by decide)
    (by decide) (by decide) (by decide) (by decide +kernel)

/-- C94 for `XKRX`. -/
theorem c94_xkrx : MonthlyRange (TradesOn Xkrx.exchange) 1986 2021 16 23 10 8 := months_weeks_xkrx.1

/-- C96 for `XKRX`. -/
theorem c96_xkrx : WeeklyRange (TradesOn Xkrx.exchange) 1986 2021 0 5
    [⟨1986, 12, 29⟩, ⟨1987, 12, 28⟩, ⟨1992, 12, 28⟩, ⟨2017, 10, 2⟩] := months_weeks_xkrx.2

/-- The check for `XNYS`. -/
theorem months_weeks_xnys : MonthlyRange (TradesOn Xnys.exchange) 1990 2200 15 23 4 4 ∧
    WeeklyRange (TradesOn Xnys.exchange) 1990 2200 1 5 [] :=
  months_weeks_of (k := 211) (rules_of_check xnys_check) (by decide +kernel) (by decide) (by decide) (by decide)
    (by decide) (by decide) (by decide) (by decide +kernel)

/-- C94 for `XNYS`. -/
theorem c94_xnys : MonthlyRange (TradesOn Xnys.exchange) 1990 2200 15 23 4 4 := months_weeks_xnys.1

/-- C96 for `XNYS`. -/
theorem c96_xnys : WeeklyRange (TradesOn Xnys.exchange) 1990 2200 1 5 [] := months_weeks_xnys.2

/-- The check for `XSHG`. -/
theorem months_weeks_xshg : MonthlyRange (TradesOn Xshg.exchange) 1999 2025 7 23 14 20 ∧
    WeeklyRange (TradesOn Xshg.exchange) 1999 2025 0 5
    [⟨1999, 2, 15⟩, ⟨1999, 2, 22⟩, ⟨2000, 1, 31⟩, ⟨2000, 2, 7⟩, ⟨2000, 5, 1⟩,
      ⟨2000, 10, 2⟩, ⟨2001, 1, 22⟩, ⟨2001, 1, 29⟩, ⟨2001, 10, 1⟩, ⟨2002, 2, 11⟩, ⟨2002, 2, 18⟩,
      ⟨2002, 9, 30⟩, ⟨2003, 2, 3⟩, ⟨2003, 5, 5⟩, ⟨2004, 1, 19⟩, ⟨2004, 5, 3⟩, ⟨2005, 2, 7⟩, ⟨2005, 5, 2⟩,
      ⟨2005, 10, 3⟩, ⟨2006, 1, 30⟩, ⟨2006, 5, 1⟩, ⟨2006, 10, 2⟩, ⟨2007, 2, 19⟩, ⟨2007, 10, 1⟩, ⟨2008, 9, 29⟩,
      ⟨2009, 1, 26⟩, ⟨2010, 2, 15⟩, ⟨2011, 10, 3⟩, ⟨2012, 1, 23⟩, ⟨2012, 10, 1⟩, ⟨2013, 2, 11⟩, ⟨2016, 2, 8⟩,
      ⟨2016, 10, 3⟩, ⟨2017, 10, 2⟩, ⟨2018, 10, 1⟩, ⟨2019, 2, 4⟩, ⟨2023, 1, 23⟩] :=
  months_weeks_of (k := 27) (rules_of_check xshg_check) (by decide +kernel) (by decide) (by decide) (by decide)
    (by decide) (by decide) (by decide) (by decide +kernel)

/-- C94 for `XSHG`. -/
theorem c94_xshg : MonthlyRange (TradesOn Xshg.exchange) 1999 2025 7 23 14 20 := months_weeks_xshg.1

/-- C96 for `XSHG`. -/
theorem c96_xshg : WeeklyRange (TradesOn Xshg.exchange) 1999 2025 0 5
    [⟨1999, 2, 15⟩, ⟨1999, 2, 22⟩, ⟨2000, 1, 31⟩, ⟨2000, 2, 7⟩, ⟨2000, 5, 1⟩,
      ⟨2000, 10, 2⟩, ⟨2001, 1, 22⟩, ⟨2001, 1, 29⟩, ⟨2001, 10, 1⟩, ⟨2002, 2, 11⟩, ⟨2002, 2, 18⟩,
      ⟨2002, 9, 30⟩, ⟨2003, 2, 3⟩, ⟨2003, 5, 5⟩, ⟨2004, 1, 19⟩, ⟨2004, 5, 3⟩, ⟨2005, 2, 7⟩, ⟨2005, 5, 2⟩,
      ⟨2005, 10, 3⟩, ⟨2006, 1, 30⟩, ⟨2006, 5, 1⟩, ⟨2006, 10, 2⟩, ⟨2007, 2, 19⟩, ⟨2007, 10, 1⟩, ⟨2008, 9, 29⟩,
      ⟨2009, 1, 26⟩, ⟨2010, 2, 15⟩, ⟨2011, 10, 3⟩, ⟨2012, 1, 23⟩, ⟨2012, 10, 1⟩, ⟨2013, 2, 11⟩, ⟨2016, 2, 8⟩,
      ⟨2016, 10, 3⟩, ⟨2017, 10, 2⟩, ⟨2018, 10, 1⟩, ⟨2019, 2, 4⟩, ⟨2023, 1, 23⟩] := months_weeks_xshg.2

/-- The check for `us_futures`. -/
theorem months_weeks_usFuturesCalendar : MonthlyRange (TradesOn UsFuturesCalendar.exchange) 2000 2200 19 23 4 4 ∧
    WeeklyRange (TradesOn UsFuturesCalendar.exchange) 2000 2200 4 5 [] :=
  months_weeks_of (k := 201) (rules_of_check usFuturesCalendar_check) (by decide +kernel) (by decide) (by decide) (by decide)
    (by decide) (by decide) (by decide) (by decide +kernel)

/-- C94 for `us_futures`. -/
theorem c94_usFuturesCalendar : MonthlyRange (TradesOn UsFuturesCalendar.exchange) 2000 2200 19 23 4 4 := months_weeks_usFuturesCalendar.1

/-- C96 for `us_futures`. -/
theorem c96_usFuturesCalendar : WeeklyRange (TradesOn UsFuturesCalendar.exchange) 2000 2200 4 5 [] := months_weeks_usFuturesCalendar.2

end TC.Props
