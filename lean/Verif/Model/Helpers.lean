import Verif.Py

/-!
# Model of `trading_calendars/calendar_helpers.py`
-/

namespace TC

/-- `next_divider_idx`, `calendar_helpers.py` lines 9-18.  `dividers[divider_idx]` may raise
`IndexError`. -/
def nextDividerIdx (dividers : List Int) (minuteVal : Int) : Py Int := do
  let dividerIdx : Int := searchRight dividers minuteVal
  let target ← pyIndex dividers dividerIdx
  if minuteVal = target then
    return dividerIdx + 1
  else
    return dividerIdx

/-- `previous_divider_idx`, `calendar_helpers.py` lines 21-28. -/
def previousDividerIdx (dividers : List Int) (minuteVal : Int) : Py Int :=
  let dividerIdx : Int := searchLeft dividers minuteVal
  if dividerIdx = 0 then .error (.valueError "Cannot go earlier in calendar!")
  else .ok (dividerIdx - 1)

/-- The loop of `compute_all_minutes`, `calendar_helpers.py` lines 42-68: the pieces, session by session (`zip` stops at
the shortest column). -/
def minutePieces : (opens breakStarts breakEnds closes : List Int) → List (List Int)
  | o :: os, bs :: bss, be :: bes, c :: cs =>
      (if bs ≠ NP_NAT then
        [arange o (bs + MINUTE) MINUTE, arange be (c + MINUTE) MINUTE]
      else
        [arange o (c + MINUTE) MINUTE]) ++ minutePieces os bss bes cs
  | _, _, _, _ => []

/-- `np.concatenate(pieces)`: raises `ValueError` on an empty list of arrays (`calendar_helpers.py` line 69). -/
def npConcatenate (pieces : List (List Int)) : Py (List Int) :=
  if pieces = [] then .error (.valueError "need at least one array to concatenate")
  else .ok pieces.flatten

/-- `compute_all_minutes`, `calendar_helpers.py` lines 31-70. -/
def computeAllMinutes (opens breakStarts breakEnds closes : List Int) : Py (List Int) :=
  npConcatenate (minutePieces opens breakStarts breakEnds closes)

end TC
