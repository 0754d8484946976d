import Verif.Lemmas.Feasts
import Verif.Props.Exchanges1
import Verif.Props.Exchanges2
import Verif.Props.Exchanges3
import Verif.Props.Exchanges4

/-!
# Holiday lists of the exchanges (C59), part 2 of 2

For each exchange: however its calendar was constructed, the sessions from 1970 to 2200 are exactly the
Mondays to Fridays that are no holiday by its list (`Spec.BookList`), not off for a feast of a lunar
calendar (`Spec.Feasts`) and no single closure.  Each theorem is followed by a case: a holiday that is no
session and an ordinary day that is one, in the calendar for 2019.
-/

namespace TC.Props
open Spec Spec.Books

set_option maxRecDepth 100000

/-- C59 for `XKRXExchangeCalendar`. -/
theorem c59_xkrx : FollowsFeasts Xkrx.exchange (fun _ _ => False) [] Feasts.seoulHolidays :=
  feasts_of (by decide) rfl (by decide +kernel) (by simp [Xkrx.exchange])

example : HasCase Xkrx.exchange Xkrx.zone (dayOf 2019 1 1) (dayOf 2019 10 16) :=
  case_of c54_xkrx_zone xkrx_check (by decide +kernel) (by decide +kernel) (by decide) (by decide)
    (by decide)

/-- C59 for `XLIMExchangeCalendar`. -/
theorem c59_xlim : FollowsBook Xlim.exchange lima.Holiday limaClosures :=
  follows_of (by decide) rfl (by decide +kernel) (same1970_iff (by decide +kernel))

example : HasCase Xlim.exchange Xlim.zone (dayOf 2019 1 1) (dayOf 2019 10 16) :=
  case_of c54_xlim_zone xlim_check (by decide +kernel) (by decide +kernel) (by decide) (by decide)
    (by decide)

/-- C59 for `XLISExchangeCalendar`. -/
theorem c59_xlis : FollowsBook Xlis.exchange lisbon.Holiday [] :=
  follows_of (by decide) rfl (by decide +kernel) (same1970_iff (by decide +kernel))

example : HasCase Xlis.exchange Xlis.zone (dayOf 2019 1 1) (dayOf 2019 10 16) :=
  case_of c54_xlis_zone xlis_check (by decide +kernel) (by decide +kernel) (by decide) (by decide)
    (by decide)

/-- C59 for `XMADExchangeCalendar`. -/
theorem c59_xmad : FollowsBook Xmad.exchange madrid.Holiday [] :=
  follows_of (by decide) rfl (by decide +kernel) (same1970_iff (by decide +kernel))

example : HasCase Xmad.exchange Xmad.zone (dayOf 2019 1 1) (dayOf 2019 10 16) :=
  case_of c54_xmad_zone xmad_check (by decide +kernel) (by decide +kernel) (by decide) (by decide)
    (by decide)

/-- C59 for `XMEXExchangeCalendar`. -/
theorem c59_xmex : FollowsBook Xmex.exchange mexico.Holiday mexicoClosures :=
  follows_of (by decide) rfl (by decide +kernel) (same1970_iff (by decide +kernel))

example : HasCase Xmex.exchange Xmex.zone (dayOf 2019 1 1) (dayOf 2019 10 16) :=
  case_of c54_xmex_zone xmex_check (by decide +kernel) (by decide +kernel) (by decide) (by decide)
    (by decide)

/-- C59 for `XMILExchangeCalendar`. -/
theorem c59_xmil : FollowsBook Xmil.exchange milan.Holiday [] :=
  follows_of (by decide) rfl (by decide +kernel) (same1970_iff (by decide +kernel))

example : HasCase Xmil.exchange Xmil.zone (dayOf 2019 1 1) (dayOf 2019 10 16) :=
  case_of c54_xmil_zone xmil_check (by decide +kernel) (by decide +kernel) (by decide) (by decide)
    (by decide)

/-- C59 for `XMOSExchangeCalendar`. -/
theorem c59_xmos : FollowsBook Xmos.exchange moscow.Holiday moscowClosures :=
  follows_of (by decide) rfl (by decide +kernel) (same1970_iff (by decide +kernel))

example : HasCase Xmos.exchange Xmos.zone (dayOf 2019 6 12) (dayOf 2019 10 16) :=
  case_of c54_xmos_zone xmos_check (by decide +kernel) (by decide +kernel) (by decide) (by decide)
    (by decide)

/-- C59 for `XNZEExchangeCalendar`. -/
theorem c59_xnze : FollowsBook Xnze.exchange wellington.Holiday wellingtonClosures :=
  follows_of (by decide) rfl (by decide +kernel) (same1970_iff (by decide +kernel))

example : HasCase Xnze.exchange Xnze.zone (dayOf 2019 1 1) (dayOf 2019 10 16) :=
  case_of c54_xnze_zone xnze_check (by decide +kernel) (by decide +kernel) (by decide) (by decide)
    (by decide)

/-- C59 for `XOSLExchangeCalendar`. -/
theorem c59_xosl : FollowsBook Xosl.exchange oslo.Holiday [] :=
  follows_of (by decide) rfl (by decide +kernel) (same1970_iff (by decide +kernel))

example : HasCase Xosl.exchange Xosl.zone (dayOf 2019 1 1) (dayOf 2019 10 16) :=
  case_of c54_xosl_zone xosl_check (by decide +kernel) (by decide +kernel) (by decide) (by decide)
    (by decide)

/-- C59 for `XPARExchangeCalendar`. -/
theorem c59_xpar : FollowsBook Xpar.exchange paris.Holiday [] :=
  follows_of (by decide) rfl (by decide +kernel) (same1970_iff (by decide +kernel))

example : HasCase Xpar.exchange Xpar.zone (dayOf 2019 1 1) (dayOf 2019 10 16) :=
  case_of c54_xpar_zone xpar_check (by decide +kernel) (by decide +kernel) (by decide) (by decide)
    (by decide)

/-- C59 for `XPHSExchangeCalendar`. -/
theorem c59_xphs : FollowsFeasts Xphs.exchange manila.Holiday manilaFeasts manilaDays :=
  feasts_of (by decide) rfl (by decide +kernel) (same1970_iff (by decide +kernel))

example : HasCase Xphs.exchange Xphs.zone (dayOf 2019 1 1) (dayOf 2019 10 16) :=
  case_of c54_xphs_zone xphs_check (by decide +kernel) (by decide +kernel) (by decide) (by decide)
    (by decide)

/-- C59 for `XPRAExchangeCalendar`. -/
theorem c59_xpra : FollowsBook Xpra.exchange prague.Holiday pragueClosures :=
  follows_of (by decide) rfl (by decide +kernel) (same1970_iff (by decide +kernel))

example : HasCase Xpra.exchange Xpra.zone (dayOf 2019 1 1) (dayOf 2019 10 16) :=
  case_of c54_xpra_zone xpra_check (by decide +kernel) (by decide +kernel) (by decide) (by decide)
    (by decide)

/-- C59 for `XSESExchangeCalendar`. -/
theorem c59_xses : FollowsFeasts Xses.exchange (fun _ _ => False) [] Feasts.singaporeHolidays :=
  feasts_of (by decide) rfl (by decide +kernel) (by simp [Xses.exchange])

example : HasCase Xses.exchange Xses.zone (dayOf 2019 1 1) (dayOf 2019 10 16) :=
  case_of c54_xses_zone xses_check (by decide +kernel) (by decide +kernel) (by decide) (by decide)
    (by decide)

/-- C59 for `XSGOExchangeCalendar`. -/
theorem c59_xsgo : FollowsBook Xsgo.exchange santiago.Holiday santiagoClosures :=
  follows_of (by decide) rfl (by decide +kernel) (same1970_iff (by decide +kernel))

example : HasCase Xsgo.exchange Xsgo.zone (dayOf 2019 1 1) (dayOf 2019 10 16) :=
  case_of c54_xsgo_zone xsgo_check (by decide +kernel) (by decide +kernel) (by decide) (by decide)
    (by decide)

/-- C59 for `XSHGExchangeCalendar`. -/
theorem c59_xshg : FollowsFeasts Xshg.exchange (fun _ _ => False) [] Feasts.shanghaiHolidays :=
  feasts_of (by decide) rfl (by decide +kernel) (by simp [Xshg.exchange])

example : HasCase Xshg.exchange Xshg.zone (dayOf 2019 1 1) (dayOf 2019 10 16) :=
  case_of c54_xshg_zone xshg_check (by decide +kernel) (by decide +kernel) (by decide) (by decide)
    (by decide)

/-- C59 for `XSTOExchangeCalendar`. -/
theorem c59_xsto : FollowsBook Xsto.exchange stockholm.Holiday [] :=
  follows_of (by decide) rfl (by decide +kernel) (same1970_iff (by decide +kernel))

example : HasCase Xsto.exchange Xsto.zone (dayOf 2019 1 1) (dayOf 2019 10 16) :=
  case_of c54_xsto_zone xsto_check (by decide +kernel) (by decide +kernel) (by decide) (by decide)
    (by decide)

/-- C59 for `XSWXExchangeCalendar`. -/
theorem c59_xswx : FollowsBook Xswx.exchange zurich.Holiday [] :=
  follows_of (by decide) rfl (by decide +kernel) (same1970_iff (by decide +kernel))

example : HasCase Xswx.exchange Xswx.zone (dayOf 2019 1 1) (dayOf 2019 10 16) :=
  case_of c54_xswx_zone xswx_check (by decide +kernel) (by decide +kernel) (by decide) (by decide)
    (by decide)

/-- C59 for `XTAIExchangeCalendar`. -/
theorem c59_xtai : FollowsFeasts Xtai.exchange taipei.Holiday taipeiFeasts taipeiDays :=
  feasts_of (by decide) rfl (by decide +kernel) (same1970_iff (by decide +kernel))

example : HasCase Xtai.exchange Xtai.zone (dayOf 2019 1 1) (dayOf 2019 10 16) :=
  case_of c54_xtai_zone xtai_check (by decide +kernel) (by decide +kernel) (by decide) (by decide)
    (by decide)

/-- C59 for `XTKSExchangeCalendar`. -/
theorem c59_xtks : FollowsBook Xtks.exchange tokyo.Holiday tokyoClosures :=
  follows_of (by decide) rfl (by decide +kernel) (same1970_iff (by decide +kernel))

example : HasCase Xtks.exchange Xtks.zone (dayOf 2019 1 1) (dayOf 2019 10 16) :=
  case_of c54_xtks_zone xtks_check (by decide +kernel) (by decide +kernel) (by decide) (by decide)
    (by decide)

/-- C59 for `XTSEExchangeCalendar`. -/
theorem c59_xtse : FollowsBook Xtse.exchange toronto.Holiday torontoClosures :=
  follows_of (by decide) rfl (by decide +kernel) (same1970_iff (by decide +kernel))

example : HasCase Xtse.exchange Xtse.zone (dayOf 2019 1 1) (dayOf 2019 10 16) :=
  case_of c54_xtse_zone xtse_check (by decide +kernel) (by decide +kernel) (by decide) (by decide)
    (by decide)

/-- C59 for `XWARExchangeCalendar`. -/
theorem c59_xwar : FollowsBook Xwar.exchange warsaw.Holiday warsawClosures :=
  follows_of (by decide) rfl (by decide +kernel) (same1970_iff (by decide +kernel))

example : HasCase Xwar.exchange Xwar.zone (dayOf 2019 1 1) (dayOf 2019 10 16) :=
  case_of c54_xwar_zone xwar_check (by decide +kernel) (by decide +kernel) (by decide) (by decide)
    (by decide)

/-- C59 for `XWBOExchangeCalendar`. -/
theorem c59_xwbo : FollowsBook Xwbo.exchange vienna.Holiday [] :=
  follows_of (by decide) rfl (by decide +kernel) (same1970_iff (by decide +kernel))

example : HasCase Xwbo.exchange Xwbo.zone (dayOf 2019 1 1) (dayOf 2019 10 16) :=
  case_of c54_xwbo_zone xwbo_check (by decide +kernel) (by decide +kernel) (by decide) (by decide)
    (by decide)

end TC.Props
