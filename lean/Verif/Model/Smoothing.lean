import Verif.Model.Lunisolar

/-!
# Smoothing in `/repo/etc/lunisolar`

Exact arithmetic instead of floating point; the means are multiplied by the window, so that they are integers.
-/

namespace TC.Lunisolar

/-- `np.convolve(a, v, mode='valid')` as in numpy 1.19 (called in `etc/lunisolar` line 95): the shorter array slides
reversed along the longer one, without overhang. -/
def convolveValid (a v : List Int) : Py (List Int) :=
  if a.length = 0 then .error (.valueError "a cannot be empty")
  else if v.length = 0 then .error (.valueError "v cannot be empty")
  else
    let (a, v) := if a.length < v.length then (v, a) else (a, v)
    .ok ((List.range (a.length - v.length + 1)).map fun n =>
      ((List.range v.length).map fun m => a.getD (n + m) 0 * v.getD (v.length - 1 - m) 0).sum)

/-- `smooth`, `etc/lunisolar` lines 80-95, times the window (`np.ones(window)` instead of
`np.ones(window) / window`); `np.ones` raises for a negative window. -/
def smooth (arr : List Int) (window : Int) : Py (List Int) :=
  if window < 0 then .error (.valueError "negative dimensions are not allowed")
  else convolveValid (List.replicate window.toNat 1) arr

/-- `smoothed_local_cmp`, `etc/lunisolar` lines 137-156.  `f` compares the sums; `<` and `>` compare the means
alike. -/
def smoothedLocalCmp (f : Int → Int → Bool) (arr : List Int) (window : Int) : Py (List Nat) := do
  let s ← smooth arr window
  .ok ((localCmp f s).map fun i => i + (window / 2).toNat)

end TC.Lunisolar
