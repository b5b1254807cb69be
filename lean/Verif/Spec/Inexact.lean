import Verif.Model.Inexact

/-!
# Inexact linear algebra: what the theorems of C78 say
-/

namespace PyKrige.Spec
noncomputable section
open Matrix

/-- Exact routines. -/
def exactArith : Arith where
  inv A := scipyInv A
  pinv A := .ok (scipyPinv A)
  pinvh A := .ok (scipyPinvh A)
  solve A b := scipySolve A b
  dgesv A b := PyKrige.dgesv A b
  dot x y := ∑ i, x i * y i

/-- Routines of growing precision: each inverse, pseudo-inverse and solution that exists is in the end computed without an
exception and as closely as one wants, though not at the same rate for all matrices; the error of an inner product
of `k` terms is in the end at most `ε` times the sum of the absolute values of its terms. -/
structure Accurate (ar : ℕ → Arith) : Prop where
  inv : ∀ {k : ℕ} (A B : Matrix (Fin k) (Fin k) ℝ), scipyInv A = .ok B → ∀ ε > 0, ∃ M, ∀ m ≥ M,
    ∃ B', (ar m).inv A = .ok B' ∧ ∀ i j, |B' i j - B i j| ≤ ε
  pinv : ∀ {k : ℕ} (A : Matrix (Fin k) (Fin k) ℝ), ∀ ε > 0, ∃ M, ∀ m ≥ M,
    ∃ B', (ar m).pinv A = .ok B' ∧ ∀ i j, |B' i j - scipyPinv A i j| ≤ ε
  pinvh : ∀ {k : ℕ} (A : Matrix (Fin k) (Fin k) ℝ), ∀ ε > 0, ∃ M, ∀ m ≥ M,
    ∃ B', (ar m).pinvh A = .ok B' ∧ ∀ i j, |B' i j - scipyPinvh A i j| ≤ ε
  solve : ∀ {k : ℕ} (A : Matrix (Fin k) (Fin k) ℝ) (b x : Fin k → ℝ), scipySolve A b = .ok x → ∀ ε > 0, ∃ M, ∀ m ≥ M,
    ∃ x', (ar m).solve A b = .ok x' ∧ ∀ i, |x' i - x i| ≤ ε
  dgesv : ∀ {k : ℕ} (A : Matrix (Fin k) (Fin k) ℝ) (b x : Fin k → ℝ), PyKrige.dgesv A b = .ok x → ∀ ε > 0, ∃ M, ∀ m ≥ M,
    ∃ x', (ar m).dgesv A b = .ok x' ∧ ∀ i, |x' i - x i| ≤ ε
  dot : ∀ k : ℕ, ∀ ε > 0, ∃ M, ∀ m ≥ M, ∀ x y : Fin k → ℝ, |(ar m).dot x y - ∑ i, x i * y i| ≤ ε * ∑ i, |x i * y i|

/-- No entry exceeds `1 / δ` in absolute value. -/
def Scaled (δ : ℝ) {k : ℕ} (A : Matrix (Fin k) (Fin k) ℝ) : Prop := ∀ i j, |A i j| ≤ 1 / δ

/-- Routines of one machine, of accuracy `δ`: they return without an exception and with errors of at most `δ` whenever the
entries of the matrix and of its exact inverse or pseudo-inverse (so the condition number, too) are bounded by `1 / δ`; an inner
product of at most `1 / δ` terms has an error of at most `δ` times the sum of the absolute values of its terms. Nothing is
known about ill-conditioned systems. -/
structure AccurateTo (δ : ℝ) (ar : Arith) : Prop where
  inv : ∀ {k : ℕ} (A B : Matrix (Fin k) (Fin k) ℝ), scipyInv A = .ok B → Scaled δ A → Scaled δ B →
    ∃ B', ar.inv A = .ok B' ∧ ∀ i j, |B' i j - B i j| ≤ δ
  pinv : ∀ {k : ℕ} (A : Matrix (Fin k) (Fin k) ℝ), Scaled δ A → Scaled δ (scipyPinv A) →
    ∃ B', ar.pinv A = .ok B' ∧ ∀ i j, |B' i j - scipyPinv A i j| ≤ δ
  pinvh : ∀ {k : ℕ} (A : Matrix (Fin k) (Fin k) ℝ), Scaled δ A → Scaled δ (scipyPinvh A) →
    ∃ B', ar.pinvh A = .ok B' ∧ ∀ i j, |B' i j - scipyPinvh A i j| ≤ δ
  solve : ∀ {k : ℕ} (A : Matrix (Fin k) (Fin k) ℝ) (b x : Fin k → ℝ), scipySolve A b = .ok x → Scaled δ A → Scaled δ A⁻¹ →
    (∀ i, |b i| ≤ 1 / δ) → (∀ i, |x i| ≤ 1 / δ) → ∃ x', ar.solve A b = .ok x' ∧ ∀ i, |x' i - x i| ≤ δ
  dgesv : ∀ {k : ℕ} (A : Matrix (Fin k) (Fin k) ℝ) (b x : Fin k → ℝ), PyKrige.dgesv A b = .ok x → Scaled δ A →
    Scaled δ A⁻¹ → (∀ i, |b i| ≤ 1 / δ) → (∀ i, |x i| ≤ 1 / δ) → ∃ x', ar.dgesv A b = .ok x' ∧ ∀ i, |x' i - x i| ≤ δ
  dot : ∀ {k : ℕ} (x y : Fin k → ℝ), k ≤ 1 / δ → |ar.dot x y - ∑ i, x i * y i| ≤ δ * ∑ i, |x i * y i|

/-- Two entries of a result: both masked, or numbers that differ by at most `ε`. -/
def EntryWithin (ε : ℝ) (a b : Option ℝ) : Prop :=
  (a = none ∧ b = none) ∨ ∃ u v, a = some u ∧ b = some v ∧ |u - v| ≤ ε

/-- Two results have the same shape and the same masked entries, and their estimates and variances differ by at most `ε`. -/
structure ResultWithin (ε : ℝ) (r r' : ExecResult) : Prop where
  shape : r.shape = r'.shape
  z : List.Forall₂ (EntryWithin ε) r.z r'.z
  ss : List.Forall₂ (EntryWithin ε) r.ss r'.ss

/-- The computations `f 0`, `f 1`, … return in the end, with results as close to `r` as one wants. -/
def TendsToResult (f : ℕ → Py ExecResult) (r : ExecResult) : Prop :=
  ∀ ε > 0, ∃ M, ∀ m ≥ M, ∃ r', f m = .ok r' ∧ ResultWithin ε r' r

end
end PyKrige.Spec
