import Verif.Model.Text
import Mathlib.Algebra.Group.Int.Even

/-! What the grid files should preserve (C32, C33, C34). -/

namespace PyKrige.Spec

/-- `r` is `q` rounded to `k` decimals, ties to an even last digit. -/
structure Rounded (k : ℕ) (q r : ℚ) : Prop where
  near : |r - q| ≤ 1 / (2 * 10 ^ k)
  decimal : ∃ m : ℤ, r = m / 10 ^ k ∧ (|r - q| = 1 / (2 * 10 ^ k) → Even m)

/-- A float as it comes back from a file with `k` decimals: finite numbers rounded, the others unchanged. -/
inductive RoundedFlt (k : ℕ) : Flt → Flt → Prop
  | num {q r : ℚ} : Rounded k q r → RoundedFlt k (.num q) (.num r)
  | inf (b : Bool) : RoundedFlt k (.inf b) (.inf b)
  | nan : RoundedFlt k .nan .nan

/-- `r` is `q` rounded to `k + 1` significant digits. -/
structure RoundedSig (k : ℕ) (q r : ℚ) : Prop where
  zero : q = 0 → r = 0
  digits : q ≠ 0 → ∃ e m : ℤ, (10 : ℚ) ^ e ≤ |q| ∧ |q| < 10 ^ (e + 1) ∧ r = m * 10 ^ (e - k) ∧
    |r - q| ≤ 10 ^ (e - k) / 2 ∧ (|r - q| = 10 ^ (e - k) / 2 → Even m)

/-- The node coordinates of a regular axis. -/
def axis (a d : ℚ) (n : ℕ) : List ℚ := (List.range n).map fun i : ℕ => a + i * d

/-- A file: lines, then the rest. -/
def fileOf (lines : List Text) (body : Text) : Text := (lines.flatMap fun l => l ++ ['\n']) ++ body

/-- Values that a field of 16 characters holds with a blank to spare. -/
def FitsAsc : Flt → Prop
  | .num q => -(10 ^ 11 - 1 / 200) < q ∧ q < 10 ^ 12 - 1 / 200
  | _ => True

/-- Values that fill a field of 16 characters. -/
def FillsAsc : Flt → Prop
  | .num q => q ≤ -(10 ^ 11 - 1 / 200) ∨ 10 ^ 12 - 1 / 200 ≤ q
  | _ => False

/-- A float as it comes back from scientific notation with `k` decimals. -/
inductive RoundedSigFlt (k : ℕ) : Flt → Flt → Prop
  | num {q r : ℚ} : RoundedSig k q r → RoundedSigFlt k (.num q) (.num r)
  | inf (b : Bool) : RoundedSigFlt k (.inf b) (.inf b)
  | nan : RoundedSigFlt k .nan .nan

/-- How a value comes back from a ZMAP file: undefined values as the no-data value, sizes of at least a million with 8
significant digits, others with 4 decimals. -/
inductive ZmapValue (noData : Flt) : Flt → Flt → Prop
  | nan {w : Flt} : RoundedSigFlt 7 noData w → ZmapValue noData .nan w
  | inf (b : Bool) : ZmapValue noData (.inf b) (.inf b)
  | large {q r : ℚ} : 10 ^ 6 ≤ |q| → RoundedSig 7 q r → ZmapValue noData (.num q) (.num r)
  | small {q r : ℚ} : |q| < 10 ^ 6 → Rounded 4 q r → ZmapValue noData (.num q) (.num r)

end PyKrige.Spec
