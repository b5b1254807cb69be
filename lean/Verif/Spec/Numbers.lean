import Verif.Model.Text
import Verif.Lemmas.Text

/-!
# Numbers and lines of numbers as text, independent of the program
-/

namespace PyKrige.Spec

/-- Decimal digits `d₁ … dₖ` and the number they denote. -/
inductive DigitsAre : Text → ℕ → Prop
  | none : DigitsAre [] 0
  | digit {a : Text} {n d : ℕ} : DigitsAre a n → d < 10 → DigitsAre (a ++ [Nat.digitChar d]) (10 * n + d)

/-- An integer: digits, perhaps with a sign in front. -/
inductive IntText : Text → ℤ → Prop
  | plain {t : Text} {n : ℕ} : t ≠ [] → DigitsAre t n → IntText t n
  | plus {t : Text} {n : ℕ} : t ≠ [] → DigitsAre t n → IntText ('+' :: t) n
  | minus {t : Text} {n : ℕ} : t ≠ [] → DigitsAre t n → IntText ('-' :: t) (-n)

/-- Digits, perhaps with a decimal point before, between or after them. -/
inductive Mantissa : Text → ℚ → Prop
  | whole {a : Text} {n : ℕ} : a ≠ [] → DigitsAre a n → Mantissa a n
  | point {a b : Text} {n m : ℕ} : a ≠ [] ∨ b ≠ [] → DigitsAre a n → DigitsAre b m →
      Mantissa (a ++ '.' :: b) (n + m / 10 ^ b.length)

/-- A number without sign, perhaps with a power of ten. -/
inductive UnsignedText : Text → ℚ → Prop
  | plain {t : Text} {q : ℚ} : Mantissa t q → UnsignedText t q
  | power {t e : Text} {c : Char} {q : ℚ} {k : ℤ} : Mantissa t q → c = 'e' ∨ c = 'E' → IntText e k →
      UnsignedText (t ++ c :: e) (q * 10 ^ k)

/-- A floating point number without its sign; the words for undefined and infinite numbers in any letter case. -/
inductive AbsText (neg : Bool) : Text → Flt → Prop
  | num {t : Text} {q : ℚ} : UnsignedText t q → AbsText neg t (.num (if neg then -q else q))
  | nan {t : Text} : t.map Char.toLower = "nan".toList → AbsText neg t .nan
  | inf {t : Text} : t.map Char.toLower = "inf".toList ∨ t.map Char.toLower = "infinity".toList → AbsText neg t (.inf neg)

/-- A floating point number, perhaps with a sign in front. -/
inductive FltText : Text → Flt → Prop
  | plain {t : Text} {f : Flt} : AbsText false t f → FltText t f
  | plus {t : Text} {f : Flt} : AbsText false t f → FltText ('+' :: t) f
  | minus {t : Text} {f : Flt} : AbsText true t f → FltText ('-' :: t) f

/-- The words of a text: blanks between them and perhaps around them. -/
inductive Words : Text → List Text → Prop
  | none {b : Text} : Blank b → Words b []
  | last {b w : Text} : Blank b → Word w → Words (b ++ w) [w]
  | word {b w t : Text} {c : Char} {ws : List Text} : Blank b → Word w → c.isWhitespace = true → Words t ws →
      Words (b ++ w ++ c :: t) (w :: ws)

/-- A word in the body of an ASC grid: a number, anything else counts as undefined. -/
def Cell (w : Text) (f : Flt) : Prop := FltText w f ∨ f = .nan ∧ ∀ g, ¬ FltText w g

/-- A line of the body of an ASC grid: words, perhaps followed by a comment that begins with `#`. -/
def RowText (l : Text) (row : List Flt) : Prop :=
  '\n' ∉ l ∧ ∃ content comment ws, l = content ++ comment ∧ '#' ∉ content ∧ (comment = [] ∨ comment.head? = some '#') ∧
    Words content ws ∧ List.Forall₂ Cell ws row

end PyKrige.Spec
