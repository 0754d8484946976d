import Verif.Spec.Recorded

/-! # Specification vocabulary: where recorded dates end -/

namespace TC.Spec

/-- From the year after `last` on, up to 2200, the sessions of `x` are the weekdays that are neither off for one of the
feasts nor a holiday of the list, without any single closures. -/
def OnlyAfter (x : Exchange) (holiday : Int → Int → Prop) (feasts : List Feast) (last : Int) : Prop :=
  ∀ z start stop b, build (x.config z) start stop = .ok b → DAY ∣ start →
    ∀ d y, start ≤ d * DAY → d * DAY ≤ stop → InYear d y → last < y → 1970 ≤ y → y ≤ 2200 →
      (d * DAY ∈ b.cal.sessions ↔ Weekday d ∧ (∀ f ∈ feasts, ¬ f.On d) ∧ ∀ y, ¬ holiday y d)

/-- The year `last` has a closure that is neither due to the feasts nor to the list: `OnlyAfter` holds from no earlier
year on. -/
def RecordedIn (x : Exchange) (holiday : Int → Int → Prop) (feasts : List Feast) (last : Int) : Prop :=
  ∃ d, InYear d last ∧ Weekday d ∧ ClosedOn x d ∧ (∀ f ∈ feasts, ¬ f.On d) ∧ ∀ y, ¬ holiday y d

/-- Both. -/
def EndsIn (x : Exchange) (holiday : Int → Int → Prop) (feasts : List Feast) (last : Int) : Prop :=
  OnlyAfter x holiday feasts last ∧ RecordedIn x holiday feasts last

namespace Books

/-- The feasts of Kuala Lumpur whose tables go beyond 2020: Chinese new year and the Islamic ones. -/
def kualaLumpurLasting : List Feast :=
  [{ dates := Feasts.lunarNewYear, off := [[0, 1], [0, 1], [0, 1], [0, 1], [0, 1], [0, 2], [1, 2]] },
   { dates := Feasts.eidAlFitrMalaysia, off := [[0, 1], [0, 1], [0, 1], [0, 1], [0, 1], [0, 2], [1, 2]] },
   { dates := Feasts.nuzulMalaysia, off := sundayToMonday }, { dates := Feasts.eidAlAdhaMalaysia, off := sundayToMonday },
   { dates := Feasts.muharramMalaysia, off := sundayToMonday }, { dates := Feasts.mawlidMalaysia, off := sundayToMonday }]

end Books

end TC.Spec
