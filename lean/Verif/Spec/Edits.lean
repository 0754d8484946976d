import Verif.Spec.Overlap

/-!
# Two classes that configure the same for some dates

What a maintainer changes: a holiday is added to a class, an early close, or new trading hours from some day on.
-/

namespace TC.Spec

/-- The two classes configure the same times for date `l`: the same zone, the same times of day in effect, the same
special times.  (Whether the date is a trading day is another matter.) -/
structure SameAt (cfg cfg' : Config) (start stop l : Int) : Prop where
  tz : cfg'.tz = cfg.tz
  openOffset : cfg'.openOffset = cfg.openOffset
  closeOffset : cfg'.closeOffset = cfg.closeOffset
  hasBreakStarts : cfg'.breakStartTimes.isSome ↔ cfg.breakStartTimes.isSome
  hasBreakEnds : cfg'.breakEndTimes.isSome ↔ cfg.breakEndTimes.isSome
  opens : ∀ t, TimeInEffect cfg'.openTimes l t ↔ TimeInEffect cfg.openTimes l t
  closes : ∀ t, TimeInEffect cfg'.closeTimes l t ↔ TimeInEffect cfg.closeTimes l t
  breakStarts : ∀ table table', cfg.breakStartTimes = some table → cfg'.breakStartTimes = some table' →
    ∀ t, TimeInEffect table' l t ↔ TimeInEffect table l t
  breakEnds : ∀ table table', cfg.breakEndTimes = some table → cfg'.breakEndTimes = some table' →
    ∀ t, TimeInEffect table' l t ↔ TimeInEffect table l t
  specialOpens : ∀ t, SpecialTime cfg'.specialOpens cfg'.specialOpensAdhoc start stop l t ↔
    SpecialTime cfg.specialOpens cfg.specialOpensAdhoc start stop l t
  specialCloses : ∀ t, SpecialTime cfg'.specialCloses cfg'.specialClosesAdhoc start stop l t ↔
    SpecialTime cfg.specialCloses cfg.specialClosesAdhoc start stop l t

/-- Breaks have both a start and an end, or there are none. -/
def PairedBreaks (cfg : Config) : Prop := cfg.breakStartTimes.isSome ↔ cfg.breakEndTimes.isSome

/-- The class with one more closed day, in nanoseconds. -/
def withHoliday (cfg : Config) (day : Int) : Config :=
  { cfg with adhocHolidays := cfg.adhocHolidays ++ [day] }

/-- The class with one more early close. -/
def withEarlyClose (cfg : Config) (day t : Int) : Config :=
  { cfg with specialClosesAdhoc := cfg.specialClosesAdhoc ++ [(t, [day])] }

/-- The class with one more late open. -/
def withLateOpen (cfg : Config) (day t : Int) : Config :=
  { cfg with specialOpensAdhoc := cfg.specialOpensAdhoc ++ [(t, [day])] }

/-- The class with new trading hours from a day on. -/
def withHours (cfg : Config) (day openTime closeTime : Int) : Config :=
  { cfg with openTimes := cfg.openTimes ++ [(some day, openTime)]
             closeTimes := cfg.closeTimes ++ [(some day, closeTime)] }

/-- The class with another weekmask and other holidays. -/
def withDays (cfg : Config) (weekmask : Int → Bool) (regular : Option HolidayFn) (adhoc : List Int) : Config :=
  { cfg with weekmask := weekmask, regularHolidays := regular, adhocHolidays := adhoc }

end TC.Spec
