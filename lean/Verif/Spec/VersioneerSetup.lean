import Verif.Model.VersioneerSetup

/-!
# Lines and words of the files that versioneer appends to
-/

namespace TC.Versioneer
open TC.Tcal (Str isSpace)

/-- The text consists of complete lines. -/
def Ended (t : Str) : Prop := t = [] ∨ ∃ s, t = s ++ ['\n']

/-- The text has the line `l`. -/
def HasLine (t l : Str) : Prop :=
  '\n' ∉ l ∧ ∃ a b, t = a ++ l ++ b ∧ Ended a ∧ (b = [] ∨ ∃ b', b = '\n' :: b')

/-- A word: not empty, without white space. -/
def Word (w : Str) : Prop := w ≠ [] ∧ ∀ c ∈ w, isSpace c = false

/-- The word `w` stands in the line `l`, with white space or an end of the line on either side. -/
def HasWord (l w : Str) : Prop :=
  Word w ∧ ∃ a b, l = a ++ w ++ b ∧ (a = [] ∨ ∃ a' c, a = a' ++ [c] ∧ isSpace c = true) ∧
    (b = [] ∨ ∃ c b', b = c :: b' ∧ isSpace c = true)

/-- The manifest includes the path `w`: a line that begins with `include` and a blank has it among its other words. -/
def Included (t w : Str) : Prop := ∃ r, HasLine t ("include ".toList ++ r) ∧ HasWord r w

/-- A line of the attributes begins, after white space, with the path, and has `export-subst` behind its first word. -/
def Marked (t source : Str) : Prop :=
  ∃ s x r : Str, HasLine t (s ++ source ++ x ++ r) ∧ (∀ c ∈ s, isSpace c = true) ∧ (∀ c ∈ x, isSpace c = false) ∧
    HasWord r "export-subst".toList

/-- The text of a file; a missing file is empty. -/
def textOf (f : Option Str) : Str := f.getD []

end TC.Versioneer
