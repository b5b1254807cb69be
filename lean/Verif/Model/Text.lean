import Mathlib.Data.Rat.Floor
import Mathlib.Data.Int.Log
import Mathlib.Algebra.Order.Floor.Defs

/-!
Text as Python handles it in `kriging_tools.py`: lines, `str.split`, the format specifications used by the writers
(`{:<10n}`, `{:<w.2f}`, `{:<13.4f}`, `13.7E`) and `int()`, `float()` used by the readers.

Numbers are exact rationals: every finite double is one. Formatting rounds the exact value half to even, as Python
does; reading returns the exact decimal value of the text, where Python returns the nearest double.
-/

namespace PyKrige

/-- A string or the contents of a text file, after newline translation. -/
abbrev Text := List Char

/-- A Python float as far as printing and reading is concerned. Simplification: a negative zero is not told apart from
zero. -/
inductive Flt
  | num (q : ℚ)
  | inf (neg : Bool)
  | nan
  deriving DecidableEq, Repr

/-! ### Lines and words -/

/-- The lines of a file, without the newline characters (`f.readline()` until it returns `''`). -/
def readLines (t : Text) : List Text :=
  if t = [] then [] else t.takeWhile (· ≠ '\n') :: readLines ((t.dropWhile (· ≠ '\n')).drop 1)
termination_by t.length
decreasing_by
  rename_i h
  have h1 : (t.dropWhile (· ≠ '\n')).length ≤ t.length := (List.dropWhile_suffix _).length_le
  have h2 : 0 < t.length := List.length_pos_iff.2 h
  simp only [List.length_drop]
  omega

/-- `s.split()`: the maximal runs of non-blank characters. Simplification: blanks are space, tab, newline and carriage
return (`Char.isWhitespace`); Python knows more. -/
def pySplit : Text → List Text
  | [] => []
  | c :: t => if c.isWhitespace then pySplit t else
      (c :: t.takeWhile (!·.isWhitespace)) :: pySplit (t.dropWhile (!·.isWhitespace))
termination_by t => t.length
decreasing_by
  · simp
  · have : (t.dropWhile (!·.isWhitespace)).length ≤ t.length := (List.dropWhile_suffix _).length_le
    simp only [List.length_cons]
    omega

/-- `s.split(c)` for one character `c`. -/
def splitOn (c : Char) : Text → List Text
  | [] => [[]]
  | d :: t => if d = c then [] :: splitOn c t else
      match splitOn c t with
      | w :: r => (d :: w) :: r
      | [] => [[d]]

/-- `needle in hay`. -/
def contains (needle : Text) : Text → Bool
  | [] => needle.isEmpty
  | c :: t => needle.isPrefixOf (c :: t) || contains needle t

/-! ### Formatting -/

/-- `{:<w}`: left-aligned in a field of at least `w` characters. -/
def padRight (w : ℕ) (t : Text) : Text := t ++ List.replicate (w - t.length) ' '

/-- `{:>w}` (numbers are right-aligned by default). -/
def padLeft (w : ℕ) (t : Text) : Text := List.replicate (w - t.length) ' ' ++ t

/-- `str(n)` for a natural number. -/
def natText (n : ℕ) : Text :=
  if n < 10 then [Nat.digitChar n] else natText (n / 10) ++ [Nat.digitChar (n % 10)]
termination_by n
decreasing_by omega

/-- The last `k` decimal digits of `n`. -/
def fixedDigits : ℕ → ℕ → Text
  | 0, _ => []
  | k + 1, n => fixedDigits k (n / 10) ++ [Nat.digitChar (n % 10)]

/-- Nearest natural number, ties to even. -/
def roundEven (q : ℚ) : ℕ :=
  let f := ⌊q⌋₊
  if q - f < 1 / 2 then f else if 1 / 2 < q - f then f + 1 else if f % 2 = 0 then f else f + 1

/-- `format(q, '.kf')`. -/
def fmtFixed (k : ℕ) (q : ℚ) : Text :=
  let N := roundEven (|q| * 10 ^ k)
  (if q < 0 then ['-'] else []) ++ natText (N / 10 ^ k) ++ '.' :: fixedDigits k (N % 10 ^ k)

/-- `format(v, '.kf')`. -/
def fltFixed (k : ℕ) : Flt → Text
  | .num q => fmtFixed k q
  | .inf true => "-inf".toList
  | .inf false => "inf".toList
  | .nan => "nan".toList

/-- Decimal exponent and 8-digit mantissa of `|q|`, `q ≠ 0`. -/
def sciParts (q : ℚ) : ℤ × ℕ :=
  let e := Int.log 10 |q|
  let N := roundEven (|q| / 10 ^ (e - 7))
  if N = 10 ^ 8 then (e + 1, 10 ^ 7) else (e, N)

/-- The exponent: sign and at least two digits. -/
def expText (e : ℤ) : Text :=
  (if e < 0 then '-' else '+') :: (if e.natAbs < 10 then '0' :: natText e.natAbs else natText e.natAbs)

/-- `format(q, '.7E')`. -/
def fmtSci (q : ℚ) : Text :=
  let p := if q = 0 then (0, 0) else sciParts q
  (if q < 0 then ['-'] else []) ++ natText (p.2 / 10 ^ 7) ++ '.' :: fixedDigits 7 (p.2 % 10 ^ 7) ++ 'E' :: expText p.1

/-- `format(v, '.7E')`. -/
def fltSci : Flt → Text
  | .num q => fmtSci q
  | .inf true => "-INF".toList
  | .inf false => "INF".toList
  | .nan => "NAN".toList

/-! ### Reading numbers -/

/-- The number written by a list of digits. -/
def digitsValue (t : Text) : ℕ := t.foldl (fun n c => 10 * n + (c.toNat - 48)) 0

/-- A nonempty list of digits. -/
def parseNat (t : Text) : Option ℕ :=
  if t ≠ [] ∧ t.all Char.isDigit = true then some (digitsValue t) else none

/-- `int(s)`. Simplification: groups separated by underscores, and surrounding blanks, are refused. -/
def parseInt : Text → Option ℤ
  | '-' :: t => (parseNat t).map fun n : ℕ => -(n : ℤ)
  | '+' :: t => (parseNat t).map fun n : ℕ => (n : ℤ)
  | t => (parseNat t).map fun n : ℕ => (n : ℤ)

/-- Digits, a point, an exponent. -/
def parseUnsigned (t : Text) : Option ℚ :=
  let a := t.takeWhile Char.isDigit
  let t1 := t.dropWhile Char.isDigit
  let b := match t1 with
    | '.' :: r => r.takeWhile Char.isDigit
    | _ => []
  let t2 := match t1 with
    | '.' :: r => r.dropWhile Char.isDigit
    | _ => t1
  if a = [] ∧ b = [] then none else
  let m : ℚ := digitsValue (a ++ b) / 10 ^ b.length
  match t2 with
  | [] => some m
  | c :: r => if c = 'e' ∨ c = 'E' then (parseInt r).map fun e => m * 10 ^ e else none

def lower (t : Text) : Text := t.map Char.toLower

/-- A float without its sign. -/
def parseAbs (neg : Bool) (t : Text) : Option Flt :=
  if lower t = "nan".toList then some .nan
  else if lower t = "inf".toList ∨ lower t = "infinity".toList then some (.inf neg)
  else (parseUnsigned t).map fun q => .num (if neg then -q else q)

/-- `float(s)`. Same simplification as `parseInt`. -/
def parseFloat : Text → Option Flt
  | '-' :: t => parseAbs true t
  | '+' :: t => parseAbs false t
  | t => parseAbs false t

end PyKrige
