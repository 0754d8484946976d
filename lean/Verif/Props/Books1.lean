import Verif.Lemmas.Feasts
import Verif.Props.Exchanges1
import Verif.Props.Exchanges2
import Verif.Props.Exchanges3
import Verif.Props.Exchanges4

/-!
# Holiday lists of the exchanges (C59), part 1 of 2

For each exchange: however its calendar was constructed, the sessions from 1970 to 2200 are exactly the
Mondays to Fridays that are no holiday by its list (`Spec.BookList`), not off for a feast of a lunar
calendar (`Spec.Feasts`) and no single closure.  Each theorem is followed by a case: a holiday that is no
session and an ordinary day that is one, in the calendar for 2019.
-/

namespace TC.Props
open Spec Spec.Books

set_option maxRecDepth 100000

/-! ### Athens -/

/-- The dates of Orthodox Easter used by ASEX are right, as are those of every year from 1583 to 4099:
`easter(year, method=EASTER_ORTHODOX)` is the Sunday after the Julian full moon. -/
theorem c59_orthodoxEaster (y d : Int) (h1 : 1583 ≤ y) (h2 : y ≤ 4099) :
    OrthodoxEaster y d ↔ d = orthodoxEaster y := orthodoxEaster_iff y d h1 h2

example : OrthodoxEaster 2019 (dayOf 2019 4 28) ∧ ¬ OrthodoxEaster 2019 (dayOf 2019 4 21) := by
  rw [c59_orthodoxEaster _ _ (by decide) (by decide), c59_orthodoxEaster _ _ (by decide) (by decide)]
  decide +kernel

theorem asex_moved (d n : Int) : d ∈ Asex.orthodoxEaster.map (· + n) ↔
    ∃ y, 1980 ≤ y ∧ y ≤ 2020 ∧ OrthodoxEaster y (d - n) := by
  simp only [Asex.orthodoxEaster, List.mem_map, List.mem_range]
  constructor
  · rintro ⟨_, ⟨i, hi, rfl⟩, rfl⟩
    refine ⟨1980 + i, by omega, by omega, ?_⟩
    rw [orthodoxEaster_iff _ _ (by omega) (by omega)]
    omega
  · rintro ⟨y, h1, h2, h⟩
    rw [orthodoxEaster_iff _ _ (by omega) (by omega)] at h
    refine ⟨_, ⟨(y - 1980).toNat, by omega, rfl⟩, ?_⟩
    rw [show 1980 + ((y - 1980).toNat : Int) = y by omega]
    omega

/-- C59 for `ASEXExchangeCalendar`. -/
theorem c59_asex : FollowsBook Asex.exchange AthensHoliday athensClosures := by
  refine follows_split (H := athens.Holiday) (by decide) rfl (fun d => ?_)
    (same1970_iff (by decide +kernel))
  have h := onDates_iff (l := athensClosures) (ds := Asex.debtCrisisHolidays ++ Asex.miscAdhocHolidays)
    (by decide +kernel) d
  have e1 := asex_moved d (-2)
  have e2 := asex_moved d 1
  have e3 := asex_moved d 50
  have e4 := asex_moved d (-48)
  rw [show d - -2 = d + 2 by omega] at e1
  rw [show d - -48 = d + 48 by omega] at e4
  show d ∈ _ ++ _ ++ _ ++ _ ++ _ ++ _ ↔ _
  simp only [List.mem_append] at h ⊢
  rw [h, Asex.orthodoxGoodFriday, Asex.orthodoxEasterMonday, Asex.orthodoxWhitMonday,
    Asex.orthodoxAshMonday]
  simp only [Int.sub_eq_add_neg] at *
  rw [e1, e2, e3, e4]
  constructor
  · rintro ((((h | ⟨y, h1, h2, h⟩) | ⟨y, h1, h2, h⟩) | ⟨y, h1, h2, h⟩) | ⟨y, h1, h2, h⟩)
    · exact .inl h
    · exact .inr ⟨y, h1, h2, .inr (.inl h)⟩
    · exact .inr ⟨y, h1, h2, .inr (.inr (.inl h))⟩
    · exact .inr ⟨y, h1, h2, .inr (.inr (.inr h))⟩
    · exact .inr ⟨y, h1, h2, .inl h⟩
  · rintro (h | ⟨y, h1, h2, h | h | h | h⟩)
    · exact .inl (.inl (.inl (.inl h)))
    · exact .inr ⟨y, h1, h2, h⟩
    · exact .inl (.inl (.inl (.inr ⟨y, h1, h2, h⟩)))
    · exact .inl (.inl (.inr ⟨y, h1, h2, h⟩))
    · exact .inl (.inr ⟨y, h1, h2, h⟩)

example : HasCase Asex.exchange Asex.zone (dayOf 2019 4 26) (dayOf 2019 10 16) :=
  case_of c54_asex_zone asex_check (by decide +kernel) (by decide +kernel) (by decide) (by decide)
    (by decide)

/-! ### CBOE futures -/

theorem nearest_friday (y : Int) : (∀ c, NearestWorkday y 12 25 c → ¬ IsWeekday c 4) ↔
    ¬ IsWeekday (dayOf y 12 25) 4 ∧ ¬ IsWeekday (dayOf y 12 25) 5 := by
  unfold NearestWorkday
  simp only [dn (show everyYear 12 25 = true by decide), weekday_iff]
  constructor
  · intro h
    refine ⟨fun hc => h _ (.inl ⟨rfl, by omega, by omega⟩) hc, fun hc => ?_⟩
    have : weekday (dayOf y 12 25 - 1) = 4 := by unfold weekday at *; omega
    exact h (dayOf y 12 25 - 1) (.inr (.inl ⟨by omega, this⟩)) this
  · rintro ⟨h1, h2⟩ c (⟨rfl, _⟩ | ⟨h3, h4⟩ | ⟨h3, h4⟩) h5
    · exact h1 h5
    · rw [← h3] at h2; unfold weekday at *; omega
    · omega

theorem newYear_friday (y : Int) : (∀ n, SundayToMonday y 1 1 n → ¬ IsWeekday n 4) ↔
    ¬ IsWeekday (dayOf y 1 1) 4 := by
  unfold SundayToMonday
  simp only [dn (show everyYear 1 1 = true by decide), weekday_iff]
  constructor
  · intro h hc
    exact h _ (.inl ⟨rfl, by omega⟩) hc
  · rintro h1 c (⟨rfl, _⟩ | ⟨h3, h4⟩) h5
    · exact h1 h5
    · omega

/-- C59 for `XCBFExchangeCalendar`. -/
theorem c59_xcbf : FollowsBook Xcbf.exchange CboeFuturesHoliday cboeFuturesClosures := by
  refine follows_of (by decide) rfl (by decide +kernel) fun d h0 => ?_
  have h1 := same1970_iff (rs := Xcbf.regular.eraseIdx 3) (b := cboeFutures) (by decide +kernel) d h0
  have h2 := holiday_goodFridayUnless (r := Xcbf.goodFridayUnlessChristmasNYEFriday) rfl rfl rfl rfl rfl
    rfl rfl d
  have h3 : (∃ r ∈ Xcbf.exchange.regular, IsHoliday r d) ↔
      (∃ r ∈ Xcbf.regular.eraseIdx 3, IsHoliday r d) ∨
        IsHoliday Xcbf.goodFridayUnlessChristmasNYEFriday d := by
    simp only [Xcbf.exchange, Xcbf.regular, List.eraseIdx, List.mem_cons, List.not_mem_nil, or_false,
      exists_eq_or_imp, exists_eq_left]
    grind
  rw [h3, h1, h2, ← exists_or]
  refine exists_congr fun y => or_congr Iff.rfl ?_
  rw [← newYear_friday, ← and_assoc (a := ¬ IsWeekday (dayOf y 12 25) 4), ← nearest_friday]

example : HasCase Xcbf.exchange Xcbf.zone (dayOf 2019 4 19) (dayOf 2019 10 16) :=
  case_of c54_xcbf_zone xcbf_check (by decide +kernel) (by decide +kernel) (by decide) (by decide)
    (by decide)

/-! ### Other exchanges -/

/-- C59 for `BVMFExchangeCalendar`. -/
theorem c59_bvmf : FollowsBook Bvmf.exchange saoPaulo.Holiday saoPauloClosures :=
  follows_of (by decide) rfl (by decide +kernel) (same1970_iff (by decide +kernel))

example : HasCase Bvmf.exchange Bvmf.zone (dayOf 2019 1 1) (dayOf 2019 10 16) :=
  case_of c54_bvmf_zone bvmf_check (by decide +kernel) (by decide +kernel) (by decide) (by decide)
    (by decide)

/-- C59 for `QuantopianUSFuturesCalendar`. -/
theorem c59_usFuturesCalendar : FollowsBook UsFuturesCalendar.exchange usFutures.Holiday [] :=
  follows_of (by decide) rfl (by decide +kernel) (same1970_iff (by decide +kernel))

example : HasCase UsFuturesCalendar.exchange UsFuturesCalendar.zone (dayOf 2019 1 1) (dayOf 2019 10 16) :=
  case_of c54_usFuturesCalendar_zone usFuturesCalendar_check (by decide +kernel) (by decide +kernel) (by decide) (by decide)
    (by decide)

/-- C59 for `XASXExchangeCalendar`. -/
theorem c59_xasx : FollowsBook Xasx.exchange sydney.Holiday sydneyClosures :=
  follows_of (by decide) rfl (by decide +kernel) (same1970_iff (by decide +kernel))

example : HasCase Xasx.exchange Xasx.zone (dayOf 2019 1 1) (dayOf 2019 10 16) :=
  case_of c54_xasx_zone xasx_check (by decide +kernel) (by decide +kernel) (by decide) (by decide)
    (by decide)

/-- C59 for `XBKKExchangeCalendar`. -/
theorem c59_xbkk : FollowsFeasts Xbkk.exchange bangkok.Holiday bangkokFeasts bangkokDays :=
  feasts_of (by decide) rfl (by decide +kernel) (same1970_iff (by decide +kernel))

example : HasCase Xbkk.exchange Xbkk.zone (dayOf 2019 1 1) (dayOf 2019 10 16) :=
  case_of c54_xbkk_zone xbkk_check (by decide +kernel) (by decide +kernel) (by decide) (by decide)
    (by decide)

/-- C59 for `XBOGExchangeCalendar`. -/
theorem c59_xbog : FollowsBook Xbog.exchange bogota.Holiday [] :=
  follows_of (by decide) rfl (by decide +kernel) (same1970_iff (by decide +kernel))

example : HasCase Xbog.exchange Xbog.zone (dayOf 2019 1 1) (dayOf 2019 10 16) :=
  case_of c54_xbog_zone xbog_check (by decide +kernel) (by decide +kernel) (by decide) (by decide)
    (by decide)

/-- C59 for `XBOMExchangeCalendar`. -/
theorem c59_xbom : FollowsFeasts Xbom.exchange (fun _ _ => False) [] Feasts.mumbaiHolidays :=
  feasts_of (by decide) rfl (by decide +kernel) (by simp [Xbom.exchange])

example : HasCase Xbom.exchange Xbom.zone (dayOf 2019 10 2) (dayOf 2019 10 16) :=
  case_of c54_xbom_zone xbom_check (by decide +kernel) (by decide +kernel) (by decide) (by decide)
    (by decide)

/-- C59 for `XBRUExchangeCalendar`. -/
theorem c59_xbru : FollowsBook Xbru.exchange brussels.Holiday [] :=
  follows_of (by decide) rfl (by decide +kernel) (same1970_iff (by decide +kernel))

example : HasCase Xbru.exchange Xbru.zone (dayOf 2019 1 1) (dayOf 2019 10 16) :=
  case_of c54_xbru_zone xbru_check (by decide +kernel) (by decide +kernel) (by decide) (by decide)
    (by decide)

/-- C59 for `XBUDExchangeCalendar`. -/
theorem c59_xbud : FollowsBook Xbud.exchange budapest.Holiday [] :=
  follows_of (by decide) rfl (by decide +kernel) (same1970_iff (by decide +kernel))

example : HasCase Xbud.exchange Xbud.zone (dayOf 2019 1 1) (dayOf 2019 10 16) :=
  case_of c54_xbud_zone xbud_check (by decide +kernel) (by decide +kernel) (by decide) (by decide)
    (by decide)

/-- C59 for `XBUEExchangeCalendar`. -/
theorem c59_xbue : FollowsBook Xbue.exchange buenosAires.Holiday buenosAiresClosures :=
  follows_of (by decide) rfl (by decide +kernel) (same1970_iff (by decide +kernel))

example : HasCase Xbue.exchange Xbue.zone (dayOf 2019 1 1) (dayOf 2019 10 16) :=
  case_of c54_xbue_zone xbue_check (by decide +kernel) (by decide +kernel) (by decide) (by decide)
    (by decide)

/-- C59 for `XCSEExchangeCalendar`. -/
theorem c59_xcse : FollowsBook Xcse.exchange copenhagen.Holiday [] :=
  follows_of (by decide) rfl (by decide +kernel) (same1970_iff (by decide +kernel))

example : HasCase Xcse.exchange Xcse.zone (dayOf 2019 1 1) (dayOf 2019 10 16) :=
  case_of c54_xcse_zone xcse_check (by decide +kernel) (by decide +kernel) (by decide) (by decide)
    (by decide)

/-- C59 for `XDUBExchangeCalendar`. -/
theorem c59_xdub : FollowsBook Xdub.exchange dublin.Holiday dublinClosures :=
  follows_of (by decide) rfl (by decide +kernel) (same1970_iff (by decide +kernel))

example : HasCase Xdub.exchange Xdub.zone (dayOf 2019 1 1) (dayOf 2019 10 16) :=
  case_of c54_xdub_zone xdub_check (by decide +kernel) (by decide +kernel) (by decide) (by decide)
    (by decide)

/-- C59 for `XETRExchangeCalendar`. -/
theorem c59_xetr : FollowsBook Xetr.exchange frankfurt.Holiday frankfurtClosures :=
  follows_of (by decide) rfl (by decide +kernel) (same1970_iff (by decide +kernel))

example : HasCase Xetr.exchange Xetr.zone (dayOf 2019 1 1) (dayOf 2019 10 16) :=
  case_of c54_xetr_zone xetr_check (by decide +kernel) (by decide +kernel) (by decide) (by decide)
    (by decide)

/-- C59 for `XFRAExchangeCalendar`. -/
theorem c59_xfra : FollowsBook Xfra.exchange frankfurt.Holiday frankfurtClosures :=
  follows_of (by decide) rfl (by decide +kernel) (same1970_iff (by decide +kernel))

example : HasCase Xfra.exchange Xfra.zone (dayOf 2019 1 1) (dayOf 2019 10 16) :=
  case_of c54_xfra_zone xfra_check (by decide +kernel) (by decide +kernel) (by decide) (by decide)
    (by decide)

/-- C59 for `XHELExchangeCalendar`. -/
theorem c59_xhel : FollowsBook Xhel.exchange helsinki.Holiday [] :=
  follows_of (by decide) rfl (by decide +kernel) (same1970_iff (by decide +kernel))

example : HasCase Xhel.exchange Xhel.zone (dayOf 2019 1 1) (dayOf 2019 10 16) :=
  case_of c54_xhel_zone xhel_check (by decide +kernel) (by decide +kernel) (by decide) (by decide)
    (by decide)

/-- C59 for `XHKGExchangeCalendar`. -/
theorem c59_xhkg : FollowsFeasts Xhkg.exchange hongKong.Holiday hongKongFeasts hongKongDays :=
  feasts_of (by decide) rfl (by decide +kernel) (same1970_iff (by decide +kernel))

example : HasCase Xhkg.exchange Xhkg.zone (dayOf 2019 1 1) (dayOf 2019 10 16) :=
  case_of c54_xhkg_zone xhkg_check (by decide +kernel) (by decide +kernel) (by decide) (by decide)
    (by decide)

/-- C59 for `XICEExchangeCalendar`. -/
theorem c59_xice : FollowsBook Xice.exchange reykjavik.Holiday [] :=
  follows_of (by decide) rfl (by decide +kernel) (same1970_iff (by decide +kernel))

example : HasCase Xice.exchange Xice.zone (dayOf 2019 1 1) (dayOf 2019 10 16) :=
  case_of c54_xice_zone xice_check (by decide +kernel) (by decide +kernel) (by decide) (by decide)
    (by decide)

/-- C59 for `XIDXExchangeCalendar`. -/
theorem c59_xidx : FollowsFeasts Xidx.exchange jakarta.Holiday jakartaFeasts jakartaDays :=
  feasts_of (by decide) rfl (by decide +kernel) (same1970_iff (by decide +kernel))

example : HasCase Xidx.exchange Xidx.zone (dayOf 2019 1 1) (dayOf 2019 10 16) :=
  case_of c54_xidx_zone xidx_check (by decide +kernel) (by decide +kernel) (by decide) (by decide)
    (by decide)

/-- C59 for `XISTExchangeCalendar`. -/
theorem c59_xist :
    FollowsFeasts Xist.exchange istanbul.Holiday istanbulFeasts Feasts.istanbulClosures :=
  feasts_of (by decide) rfl (by decide +kernel) (same1970_iff (by decide +kernel))

example : HasCase Xist.exchange Xist.zone (dayOf 2019 1 1) (dayOf 2019 10 16) :=
  case_of c54_xist_zone xist_check (by decide +kernel) (by decide +kernel) (by decide) (by decide)
    (by decide)

/-- C59 for `XJSEExchangeCalendar`. -/
theorem c59_xjse : FollowsBook Xjse.exchange johannesburg.Holiday johannesburgClosures :=
  follows_of (by decide) rfl (by decide +kernel) (same1970_iff (by decide +kernel))

example : HasCase Xjse.exchange Xjse.zone (dayOf 2019 1 1) (dayOf 2019 10 16) :=
  case_of c54_xjse_zone xjse_check (by decide +kernel) (by decide +kernel) (by decide) (by decide)
    (by decide)

/-- C59 for `XKARExchangeCalendar`. -/
theorem c59_xkar : FollowsFeasts Xkar.exchange karachi.Holiday [] karachiDays :=
  feasts_of (by decide) rfl (by decide +kernel) (same1970_iff (by decide +kernel))

example : HasCase Xkar.exchange Xkar.zone (dayOf 2019 8 14) (dayOf 2019 10 16) :=
  case_of c54_xkar_zone xkar_check (by decide +kernel) (by decide +kernel) (by decide) (by decide)
    (by decide)

/-- C59 for `XKLSExchangeCalendar`. -/
theorem c59_xkls :
    FollowsFeasts Xkls.exchange kualaLumpur.Holiday kualaLumpurFeasts Feasts.kualaLumpurClosures :=
  feasts_of (by decide) rfl (by decide +kernel) (same1970_iff (by decide +kernel))

example : HasCase Xkls.exchange Xkls.zone (dayOf 2019 1 1) (dayOf 2019 10 16) :=
  case_of c54_xkls_zone xkls_check (by decide +kernel) (by decide +kernel) (by decide) (by decide)
    (by decide)

end TC.Props
