/-!
# The years in which a calendar of the library can start and end

A `Timestamp` can express days from 1677-09-22 to 2262-04-11.  Rules of special closes are expanded from the year
before the start to the year after the end.
-/

namespace TC.Spec

/-- Classes with a special close that has no first date, early in the year and late in the year. -/
def startLimited : List (String × Int) :=
  [("CMES", 1679), ("IEPA", 1679), ("XSGO", 1679), ("XSTO", 1679),
   ("XAMS", 1678), ("XBRU", 1678), ("XBUE", 1678), ("XHKG", 1678), ("XIST", 1678), ("XLIS", 1678), ("XLON", 1678),
   ("XNYS", 1678), ("XPAR", 1678)]

/-- Classes with a special close that has no last date. -/
def endLimited : List (String × Int) :=
  [("CMES", 2260), ("IEPA", 2260), ("XAMS", 2260), ("XASX", 2260), ("XBRU", 2260), ("XBUE", 2260), ("XCBF", 2260),
   ("XDUB", 2260), ("XETR", 2260), ("XFRA", 2260), ("XHKG", 2260), ("XIST", 2260), ("XLIS", 2260), ("XLON", 2260),
   ("XMAD", 2260), ("XNYS", 2260), ("XNZE", 2260), ("XPAR", 2260), ("XSGO", 2260), ("XSTO", 2260), ("XTSE", 2260),
   ("XOSL", 2261)]

/-- The first year in which the class of the given name can start. -/
def firstYear (name : String) : Int := (startLimited.lookup name).getD 1677

/-- The last year in which the class of the given name can end. -/
def lastYear (name : String) : Int := (endLimited.lookup name).getD 2262

end TC.Spec
