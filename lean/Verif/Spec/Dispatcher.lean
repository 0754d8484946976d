/-!
# Specification vocabulary for the calendar registry

Written independently of the model: an alias table is just a partial function on names.
-/

namespace TC.Spec

/-- Following alias links from `n` ends in `r`, which is not itself an alias. -/
inductive ResolvesTo (alias : String → Option String) : String → String → Prop
  | done {n} : alias n = none → ResolvesTo alias n n
  | step {n m r} : alias n = some m → ResolvesTo alias m r → ResolvesTo alias n r

/-- The alias chain starting at `n` never leaves the alias table. -/
def Cyclic (alias : String → Option String) (n : String) : Prop := ¬ ∃ r, ResolvesTo alias n r

/-- `path` is a sequence of names, each the alias target of the one before. -/
def IsPath (alias : String → Option String) : List String → Prop
  | a :: b :: rest => alias a = some b ∧ IsPath alias (b :: rest)
  | _ => True

/-- A cycle report for `n`: a path of alias links starting at `n` whose last name already occurs
earlier in it. -/
def IsCycleReport (alias : String → Option String) (n : String) (report : List String) : Prop :=
  ∃ pre last, report = pre ++ [last] ∧ report.head? = some n ∧ last ∈ pre ∧ IsPath alias report

end TC.Spec
