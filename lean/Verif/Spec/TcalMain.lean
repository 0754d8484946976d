import Verif.Spec.Tcal
import Verif.Model.TcalMain

/-! # Specification vocabulary for the arguments of `tcal` -/

namespace TC.Spec
open Tcal

/-- White space around an integer literal: tab, line feed, vertical tab, form feed, carriage return, space,
and the further space characters of Unicode. -/
def LiteralSpace (c : Char) : Prop :=
  c.toNat ∈ [9, 10, 11, 12, 13, 32, 133, 160, 5760, 8192, 8193, 8194, 8195, 8196, 8197, 8198, 8199, 8200, 8201,
    8202, 8232, 8233, 8239, 8287, 12288]

/-- `c` is a decimal digit of value `k`: one of the ASCII digits, or one of the others, whose values are those
of the Unicode tables that `w` stands for. -/
def DigitValue (w : World) (c : Char) (k : Nat) : Prop :=
  ['0', '1', '2', '3', '4', '5', '6', '7', '8', '9'][k]? = some c ∨
    128 ≤ c.toNat ∧ ¬ LiteralSpace c ∧ w.decimal c = some k

/-- `s` consists of decimal digits, between which there may be single underscores, and denotes `n`. -/
inductive Digits (value : Char → Nat → Prop) : Str → Nat → Prop
  | one {c k} : value c k → Digits value [c] k
  | more {s n c k} : Digits value s n → value c k → Digits value (s ++ [c]) (10 * n + k)
  | apart {s n c k} : Digits value s n → value c k → Digits value (s ++ ['_', c]) (10 * n + k)

/-- `s` denotes the integer `n`: digits with an optional sign, white space around. -/
def IntLiteral (w : World) (s : Str) (n : Int) : Prop :=
  ∃ before sign body after v, s = before ++ sign ++ body ++ after ∧
    (∀ c ∈ before, LiteralSpace c) ∧ (∀ c ∈ after, LiteralSpace c) ∧ Digits (DigitValue w) body v ∧
    ((sign = [] ∧ n = v) ∨ (sign = ['+'] ∧ n = v) ∨ (sign = ['-'] ∧ n = -v))

/-- The arguments behind the calendar's name ask for month `mo` of year `y`, or for all of year `y`. -/
inductive Asks (w : World) : List Str → (y : Int) → (mo : Option Int) → Prop
  | now : Asks w [] w.year (some w.month)
  | year {t y} : IntLiteral w t y → Asks w [t] y none
  | month {t u m y} : IntLiteral w t m → IntLiteral w u y → Asks w [t, u] y (some m)

/-- The text shows the period asked for. -/
def ShowsPeriod (isSession : Int → Bool) (y : Int) : Option Int → Str → Prop
  | some m => ShowsMonth isSession y m
  | none => ShowsYear isSession y

/-- One of the arguments (or the program's name) asks for help. -/
def AsksHelp (argv : List Str) : Prop := ∃ a ∈ argv, String.ofList a = "--help" ∨ String.ofList a = "-h"

end TC.Spec
