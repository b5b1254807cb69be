import Mathlib.LinearAlgebra.Matrix.NonsingularInverse
import Mathlib.LinearAlgebra.Matrix.ToLinearEquiv
import Mathlib.Tactic.Ring
import Mathlib.Tactic.Linarith
import Verif.Spec.Kriging
import Verif.Model.LinAlg

/-!
The kriging matrix over the index type `ι ⊕ κ ⊕ Unit` and its relation to the textbook equations.
-/

set_option linter.unusedSectionVars false

namespace PyKrige
noncomputable section
open Matrix Spec

variable {ι κ : Type} [Fintype ι] [Fintype κ] [DecidableEq ι] [DecidableEq κ]

/-- The kriging matrix `[[-G, Fᵀ, 1], [F, 0, 0], [1, 0, 0]]`. -/
def krigMat (G : ι → ι → ℝ) (F : κ → ι → ℝ) : Matrix (ι ⊕ κ ⊕ Unit) (ι ⊕ κ ⊕ Unit) ℝ
  | .inl i, .inl j => -G i j
  | .inl i, .inr (.inl l) => F l i
  | .inl _, .inr (.inr _) => 1
  | .inr (.inl l), .inl i => F l i
  | .inr (.inl _), .inr _ => 0
  | .inr (.inr _), .inl _ => 1
  | .inr (.inr _), .inr _ => 0

/-- The right-hand side `(-g, f, c)`. -/
def krigRhs (g : ι → ℝ) (f : κ → ℝ) (c : ℝ) : ι ⊕ κ ⊕ Unit → ℝ
  | .inl i => -g i
  | .inr (.inl l) => f l
  | .inr (.inr _) => c

/-- Weights, drift multipliers and Lagrange multiplier packed into one vector. -/
def packX (w : ι → ℝ) (ν : κ → ℝ) (μ : ℝ) : ι ⊕ κ ⊕ Unit → ℝ
  | .inl i => w i
  | .inr (.inl l) => ν l
  | .inr (.inr _) => μ

def wOf (x : ι ⊕ κ ⊕ Unit → ℝ) : ι → ℝ := fun i => x (.inl i)
def nuOf (x : ι ⊕ κ ⊕ Unit → ℝ) : κ → ℝ := fun l => x (.inr (.inl l))
def muOf (x : ι ⊕ κ ⊕ Unit → ℝ) : ℝ := x (.inr (.inr ()))

@[simp] theorem wOf_pack (w : ι → ℝ) (ν : κ → ℝ) (μ : ℝ) : wOf (packX w ν μ) = w := rfl
@[simp] theorem nuOf_pack (w : ι → ℝ) (ν : κ → ℝ) (μ : ℝ) : nuOf (packX w ν μ) = ν := rfl
@[simp] theorem muOf_pack (w : ι → ℝ) (ν : κ → ℝ) (μ : ℝ) : muOf (packX w ν μ) = μ := rfl

theorem pack_eta (x : ι ⊕ κ ⊕ Unit → ℝ) : packX (wOf x) (nuOf x) (muOf x) = x := by
  funext k; rcases k with i | l | ⟨⟩ <;> rfl

theorem krigMat_mulVec_iff (G : ι → ι → ℝ) (F : κ → ι → ℝ) (g : ι → ℝ) (f : κ → ℝ) (c : ℝ)
    (x : ι ⊕ κ ⊕ Unit → ℝ) :
    krigMat G F *ᵥ x = krigRhs g f c ↔ KrigingEqs G F g f c (wOf x) (nuOf x) (muOf x) := by
  have e1 : ∀ i, (krigMat G F *ᵥ x) (.inl i) =
      -∑ j, G i j * wOf x j + ∑ l, F l i * nuOf x l + muOf x := by
    intro i
    simp [Matrix.mulVec, dotProduct, Fintype.sum_sum_type, krigMat, wOf, nuOf, muOf, add_assoc]
  have e2 : ∀ l, (krigMat G F *ᵥ x) (.inr (.inl l)) = ∑ i, F l i * wOf x i := by
    intro l
    simp [Matrix.mulVec, dotProduct, Fintype.sum_sum_type, krigMat, wOf]
  have e3 : (krigMat G F *ᵥ x) (.inr (.inr ())) = ∑ i, wOf x i := by
    simp [Matrix.mulVec, dotProduct, Fintype.sum_sum_type, krigMat, wOf]
  constructor
  · intro h
    refine ⟨fun i => ?_, fun l => ?_, ?_⟩
    · have := congrFun h (.inl i); rw [e1] at this; simp only [krigRhs] at this; linarith
    · have := congrFun h (.inr (.inl l)); rw [e2] at this; exact this
    · have := congrFun h (.inr (.inr ())); rw [e3] at this; exact this
  · intro h
    funext k
    rcases k with i | l | ⟨⟩
    · rw [e1]; have := h.stationary i; simp only [krigRhs]; linarith
    · rw [e2]; exact h.drift l
    · rw [e3]; exact h.unbiased

theorem krigRhs_zero : (krigRhs 0 0 0 : ι ⊕ κ ⊕ Unit → ℝ) = 0 := by
  funext k; rcases k with i | l | ⟨⟩ <;> simp [krigRhs]

/-- Invertibility of the matrix is regularity of the equations. -/
theorem regular_iff_det (G : ι → ι → ℝ) (F : κ → ι → ℝ) :
    Regular G F ↔ (krigMat G F).det ≠ 0 := by
  rw [ne_eq, ← Matrix.exists_mulVec_eq_zero_iff]
  constructor
  · rintro h ⟨v, hv, hv0⟩
    rw [← krigRhs_zero, krigMat_mulVec_iff] at hv0
    obtain ⟨h1, h2, h3⟩ := h _ _ _ hv0
    apply hv
    rw [← pack_eta v, h1, h2, h3]
    funext k; rcases k with i | l | ⟨⟩ <;> rfl
  · intro h w ν μ he
    have := (krigMat_mulVec_iff G F 0 0 0 (packX w ν μ)).2 he
    rw [krigRhs_zero] at this
    by_contra hne
    refine h ⟨packX w ν μ, fun h0 => hne ?_, this⟩
    refine ⟨?_, ?_, ?_⟩
    · funext i; exact congrFun h0 (.inl i)
    · funext l; exact congrFun h0 (.inr (.inl l))
    · exact congrFun h0 (.inr (.inr ()))

/-- The solution computed with the inverse satisfies the kriging equations. -/
theorem inv_solves {G : ι → ι → ℝ} {F : κ → ι → ℝ} (h : (krigMat G F).det ≠ 0) (g : ι → ℝ)
    (f : κ → ℝ) (c : ℝ) :
    KrigingEqs G F g f c (wOf ((krigMat G F)⁻¹ *ᵥ krigRhs g f c))
      (nuOf ((krigMat G F)⁻¹ *ᵥ krigRhs g f c)) (muOf ((krigMat G F)⁻¹ *ᵥ krigRhs g f c)) := by
  rw [← krigMat_mulVec_iff, Matrix.mulVec_mulVec, Matrix.mul_nonsing_inv _ (by simpa using h),
    Matrix.one_mulVec]

theorem Spec.KrigingEqs.linear {G : ι → ι → ℝ} {F : κ → ι → ℝ} {g g' : ι → ℝ} {f f' : κ → ℝ} {c c' : ℝ}
    {w w' : ι → ℝ} {ν ν' : κ → ℝ} {μ μ' : ℝ} (a b : ℝ) (h : KrigingEqs G F g f c w ν μ)
    (h' : KrigingEqs G F g' f' c' w' ν' μ') :
    KrigingEqs G F (a • g + b • g') (a • f + b • f') (a * c + b * c') (a • w + b • w')
      (a • ν + b • ν') (a * μ + b * μ') := by
  refine ⟨fun i => ?_, fun l => ?_, ?_⟩
  · have h1 := h.stationary i
    have h2 := h'.stationary i
    simp only [Pi.add_apply, Pi.smul_apply, smul_eq_mul, mul_add, Finset.sum_add_distrib,
      mul_left_comm _ a, mul_left_comm _ b, ← Finset.mul_sum]
    rw [← h1, ← h2]; ring
  · have h1 := h.drift l
    have h2 := h'.drift l
    simp only [Pi.add_apply, Pi.smul_apply, smul_eq_mul, mul_add, Finset.sum_add_distrib,
      mul_left_comm _ a, mul_left_comm _ b, ← Finset.mul_sum]
    rw [← h1, ← h2]
  · have h1 := h.unbiased
    have h2 := h'.unbiased
    simp only [Pi.add_apply, Pi.smul_apply, smul_eq_mul, Finset.sum_add_distrib, ← Finset.mul_sum]
    rw [← h1, ← h2]

/-- Uniqueness of the kriging solution. -/
theorem Spec.KrigingEqs.unique {G : ι → ι → ℝ} {F : κ → ι → ℝ} (hr : Regular G F) {g : ι → ℝ}
    {f : κ → ℝ} {c : ℝ} {w w' : ι → ℝ} {ν ν' : κ → ℝ} {μ μ' : ℝ} (h : KrigingEqs G F g f c w ν μ)
    (h' : KrigingEqs G F g f c w' ν' μ') : w = w' ∧ ν = ν' ∧ μ = μ' := by
  have := KrigingEqs.linear 1 (-1) h h'
  have e : KrigingEqs G F 0 0 0 (w - w') (ν - ν') (μ - μ') := by
    convert this using 1 <;> first | (funext _; simp [sub_eq_add_neg]) | ring_nf
  obtain ⟨h1, h2, h3⟩ := hr _ _ _ e
  exact ⟨sub_eq_zero.1 h1, sub_eq_zero.1 h2, sub_eq_zero.1 h3⟩

/-- The pair (estimate, variance) computed from a solution vector. -/
def answerOf (z g : ι → ℝ) (f : κ → ℝ) (x : ι ⊕ κ ⊕ Unit → ℝ) : ℝ × ℝ :=
  (estimate (wOf x) z, krigingVariance g f (wOf x) (nuOf x) (muOf x))

/-- The code's `∑ x * -b`. -/
theorem sum_neg_rhs (g : ι → ℝ) (f : κ → ℝ) (x : ι ⊕ κ ⊕ Unit → ℝ) :
    ∑ k, x k * -krigRhs g f 1 k = krigingVariance g f (wOf x) (nuOf x) (muOf x) := by
  simp [Fintype.sum_sum_type, krigRhs, krigingVariance, wOf, nuOf, muOf]
  ring

end
end PyKrige
