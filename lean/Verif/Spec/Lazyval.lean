import Verif.Model.Lazyval

/-! # Specification vocabulary for `lazyval` -/

namespace TC.Spec
open Lazyval

variable {κ ν : Type}

/-- The getter reads only lazy values satisfying `p`. -/
inductive ReadsOnly (p : κ → Prop) : Getter κ ν → Prop
  | done (r) : ReadsOnly p (.done r)
  | read {k next} : p k → (∀ r, ReadsOnly p (next r)) → ReadsOnly p (.read k next)

/-- Lazy values are ranked, and every getter reads only values of lower rank: no getter asks for its own
value, directly or through others. -/
def Ranked (get : κ → List (κ × Py ν) → Getter κ ν) : Prop :=
  ∃ rank : κ → Nat, ∀ k log, ReadsOnly (fun j => rank j < rank k) (get k log)

/-- The operation removes the remembered value of `k`: explicit deletion, or the end of the instance. -/
def Forgets (k : κ) : Op κ ν → Prop
  | .evict j => j = k
  | .drop j => j = k
  | _ => False

/-- The operation assigns to a lazy value. -/
def IsAssignment : Op κ ν → Prop
  | .assign _ _ => True
  | _ => False

instance : DecidablePred (IsAssignment : Op κ ν → Prop)
  | .assign _ _ => .isTrue trivial
  | .read _ => .isFalse id
  | .evict _ => .isFalse id
  | .drop _ => .isFalse id

/-- The runs of `k`'s getter that returned a value. -/
def successes [DecidableEq κ] (k : κ) (runs : List (κ × Py ν)) : List ν :=
  runs.filterMap fun e => if e.1 = k then e.2.toOption else none

/-- The lazy value an operation is about. -/
def about : Op κ ν → κ
  | .read k => k
  | .assign k _ => k
  | .evict k => k
  | .drop k => k

/-- Getters that read no other lazy value, and whose behaviour depends on earlier runs for the same key
only: instances share no state. -/
def SelfContained [DecidableEq κ] (get : κ → List (κ × Py ν) → Getter κ ν) : Prop :=
  ∃ f : κ → List (Py ν) → Py ν, ∀ k log,
    get k log = .done (f k ((log.filter fun e => decide (e.1 = k)).map (·.2)))

end TC.Spec
