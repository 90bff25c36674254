import Verif.Py.Err
import Mathlib.Data.Real.Basic

/-!
# Python strings

A string is the list of its characters.  Only ASCII white space is considered; `int` and `float` accept an optional sign
and plain digits (no underscores, exponents, `inf` or `nan`).
-/

namespace Verif.Py

/-- ASCII white space, as removed by `str.strip` and used by `str.split`. -/
def isSpace (c : Char) : Bool := c == ' ' || c == '\t' || c == '\n' || c == '\r' || c == '\x0b' || c == '\x0c'

/-- `s[a:b]` with nonnegative bounds. -/
def slice (s : List Char) (a b : ℕ) : List Char := (s.take b).drop a

/-- `s.strip()`. -/
def strip (s : List Char) : List Char := ((s.dropWhile isSpace).reverse.dropWhile isSpace).reverse

/-- `s.split()`: the maximal runs of non-space characters. -/
def splitWs : List Char → List (List Char)
  | [] => []
  | c :: cs =>
    if isSpace c then splitWs cs
    else match cs with
      | [] => [[c]]
      | c' :: _ => if isSpace c' then [c] :: splitWs cs else
        match splitWs cs with
        | [] => [[c]]
        | w :: ws => (c :: w) :: ws

/-- The value of a decimal digit. -/
def digitVal (c : Char) : Option ℕ := if '0' ≤ c ∧ c ≤ '9' then some (c.toNat - 48) else none

/-- The digits of a string, if it consists of digits only. -/
def digits (s : List Char) : Option (List ℕ) := s.mapM digitVal

/-- The number written by a list of decimal digits, most significant first. -/
def ofDigits (ds : List ℕ) : ℕ := ds.foldl (fun n d => 10 * n + d) 0

/-- The number written by a nonempty string of digits. -/
def natOf (s : List Char) : Option ℕ := if s = [] then none else (digits s).map ofDigits

/-- `int(s)`; `ValueError` when `s` is not an integer. -/
def pyInt (s : List Char) : Except PyErr ℤ :=
  match strip s with
  | '-' :: t => match natOf t with
    | some n => .ok (-(n : ℤ))
    | none => .error .valueError
  | '+' :: t => match natOf t with
    | some n => .ok n
    | none => .error .valueError
  | t => match natOf t with
    | some n => .ok n
    | none => .error .valueError

/-- `s.zfill(w)`: zeros are inserted on the left, after a sign. -/
def zfill (w : ℕ) (s : List Char) : List Char :=
  match s with
  | '-' :: t => '-' :: (List.replicate (w - s.length) '0' ++ t)
  | '+' :: t => '+' :: (List.replicate (w - s.length) '0' ++ t)
  | _ => List.replicate (w - s.length) '0' ++ s

/-- The unsigned part of `float(s)`: digits, optionally a point and more digits, at least one digit in all. -/
noncomputable def unsignedFloat (s : List Char) : Option ℝ :=
  let ip := s.takeWhile (· ≠ '.')
  match s.dropWhile (· ≠ '.') with
  | [] => (natOf ip).map fun n => (n : ℝ)
  | _ :: fp =>
    if ip = [] ∧ fp = [] then none
    else do
      let i ← digits ip
      let f ← digits fp
      pure ((ofDigits i : ℝ) + (ofDigits f : ℝ) / 10 ^ fp.length)

/-- `float(s)`; `ValueError` when `s` is not a decimal number. -/
noncomputable def pyFloat (s : List Char) : Except PyErr ℝ :=
  match strip s with
  | '-' :: t => match unsignedFloat t with
    | some x => .ok (-x)
    | none => .error .valueError
  | '+' :: t => match unsignedFloat t with
    | some x => .ok x
    | none => .error .valueError
  | t => match unsignedFloat t with
    | some x => .ok x
    | none => .error .valueError

end Verif.Py
