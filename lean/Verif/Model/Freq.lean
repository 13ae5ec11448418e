import Mathlib.Data.Nat.Digits.Defs

/-!
# Frequency strings

Mirrors `to_offset`, `openamundsen/util.py:299-332`. Strings are lists of characters. What pandas makes of the resulting
string is not modelled.
-/

namespace Verif.Freq

/-- Result: an exception, the offsets created directly, or the string passed to pandas. -/
inductive Res
  | error
  | monthEnd
  | yearEnd
  | pandas (s : List Char)
  deriving DecidableEq

/-- The digits of a natural number, as printed. -/
def digitChars : List Char := ['0', '1', '2', '3', '4', '5', '6', '7', '8', '9']

def showNat (n : ℕ) : List Char :=
  if n = 0 then ['0'] else ((Nat.digits 10 n).reverse).map fun d => digitChars.getD d '0'

def showInt (n : ℤ) : List Char := if n < 0 then '-' :: showNat n.natAbs else showNat n.natAbs

/-- `int(...)` of a string of digits. -/
def parseNat (s : List Char) : Option ℕ :=
  if s ≠ [] ∧ ∀ c ∈ s, c ∈ digitChars then
    some (Nat.ofDigits 10 ((s.map fun c => digitChars.idxOf c).reverse))
  else none

/-- `int(...)`; white space and underscores are not modelled. -/
def parseInt : List Char → Option ℤ
  | '-' :: s => (parseNat s).map fun n : ℕ => -(n : ℤ)
  | '+' :: s => (parseNat s).map fun n : ℕ => (n : ℤ)
  | s => (parseNat s).map fun n : ℕ => (n : ℤ)

/-- Replacement of the aliases, `util.py:314-325`; `none`: exception. -/
def replaced (s : List Char) : Option (List Char) :=
  match s.getLast? with
  | none => none
  | some c =>
    if c = 'D' ∨ c = 'd' then
      if s.dropLast = [] then some (showInt (24 * 1) ++ ['h'])
      else (parseInt s.dropLast).map fun n => showInt (24 * n) ++ ['h']
    else if c = 'H' then some (s.dropLast ++ ['h'])
    else if c = 'M' then some (s.dropLast ++ ['M', 'E'])
    else if c = 'Y' then some (s.dropLast ++ ['Y', 'E'])
    else some s

/-- `to_offset` of a string, `util.py:314-332`. -/
def toOffset (s : List Char) : Res :=
  match replaced s with
  | none => .error
  | some r => if r = ['M', 'E'] then .monthEnd else if r = ['Y', 'E'] then .yearEnd else .pandas r

end Verif.Freq
