import Verif.Model.Errors

/-!
# Specification vocabulary for the texts of exceptions
-/

namespace TC.Spec
open TC.Errors
open TC.Tcal (Str)

/-- A piece of a message: text as it is, or a place for the argument of that name. -/
inductive Piece where
  | text (t : Str)
  | place (name : Str)
  deriving DecidableEq

/-- The message that is written for the pieces: braces in texts are doubled. -/
def writtenPieces (ps : List Piece) : Str :=
  ps.flatMap fun
    | .text t => t.flatMap fun c => if c = '{' ∨ c = '}' then [c, c] else [c]
    | .place n => ['{'] ++ n ++ ['}']

/-- Names of arguments: identifiers, in any case without braces and not empty. -/
def ArgName (n : Str) : Prop := n ≠ [] ∧ '{' ∉ n ∧ '}' ∉ n

/-- `s` is what the pieces say with the arguments put in their places as they are. -/
inductive Says (arg : Str → Option Str) : List Piece → Str → Prop where
  | done : Says arg [] []
  | text {t s : Str} {ps : List Piece} : Says arg ps s → Says arg (.text t :: ps) (t ++ s)
  | place {n v s : Str} {ps : List Piece} : arg n = some v → Says arg ps s → Says arg (.place n :: ps) (v ++ s)

/-- The value of a digit of a hexadecimal number in lower case. -/
def HexDigit (c : Char) (k : Nat) : Prop := k < 10 ∧ c.toNat = 48 + k ∨ 10 ≤ k ∧ k < 16 ∧ c.toNat = 87 + k

/-- The digits denote the number. -/
inductive HexNumber : Str → Nat → Prop where
  | nil : HexNumber [] 0
  | snoc {ds : Str} {n k : Nat} {c : Char} : HexNumber ds n → HexDigit c k → HexNumber (ds ++ [c]) (16 * n + k)

/-- What stands between the quotes `q` of a string literal, and the string it denotes. -/
inductive LiteralBody (q : Char) : Str → Str → Prop where
  | nil : LiteralBody q [] []
  /-- a character that stands for itself -/
  | plain {c : Char} {t s : Str} : c ≠ q → c ≠ '\\' → c ≠ '\n' → c ≠ '\r' → LiteralBody q t s →
      LiteralBody q (c :: t) (c :: s)
  /-- a backslash and a character -/
  | escaped {e c : Char} {t s : Str} :
      (e, c) ∈ [('\\', '\\'), ('\'', '\''), ('"', '"'), ('t', Char.ofNat 9), ('n', Char.ofNat 10), ('r', Char.ofNat 13)] →
      LiteralBody q t s → LiteralBody q ('\\' :: e :: t) (c :: s)
  /-- a backslash, a letter and the number of the character in hexadecimal -/
  | number {k : Char} {w : Nat} {c : Char} {ds t s : Str} : (k, w) ∈ [('x', 2), ('u', 4), ('U', 8)] →
      ds.length = w → HexNumber ds c.toNat → LiteralBody q t s → LiteralBody q ('\\' :: k :: (ds ++ t)) (c :: s)

/-- `l` is a literal for the string `s`. -/
def StringLiteral (l s : Str) : Prop :=
  ∃ q t, (q = '\'' ∨ q = '"') ∧ l = q :: (t ++ [q]) ∧ LiteralBody q t s

/-- Characters that can be shown: the printable ones of ASCII, and those given outside. -/
def CanShow (printable : Char → Bool) (c : Char) : Prop :=
  32 ≤ c.toNat ∧ c.toNat < 127 ∨ 127 < c.toNat ∧ printable c = true

/-- The text of a `CyclicCalendarAlias` with this report: literals of the names, with arrows between them. -/
def CycleText (printable : Char → Bool) (report : List String) (text : Str) : Prop :=
  ∃ ls : List Str, text = "Cycle in calendar aliases: [".toList ++ " -> ".toList.intercalate ls ++ "]".toList ∧
    ls.length = report.length ∧
    (∀ (i : Nat) (l : Str) (n : String), ls[i]? = some l → report[i]? = some n → StringLiteral l n.toList) ∧
    ∀ l ∈ ls, ∀ c ∈ l, CanShow printable c

/-- `str(e)` is `text`, for an exception of the library. -/
def TextOf (printable : Char → Bool) (e : PyErr) (text : Str) : Prop :=
  ∃ x, excOf printable e = some x ∧ x.str = .ok text

/-- The text about a name that is not known. -/
def unknownText (n : String) : Str :=
  "The requested TradingCalendar, ".toList ++ n.toList ++ ", does not exist.".toList

/-- The text about a name that is taken. -/
def takenText (n : String) : Str :=
  "A calendar with the name ".toList ++ n.toList ++ " is already registered.".toList

end TC.Spec
