import Mathlib.Analysis.Matrix.Spectrum
import Mathlib.Algebra.Order.Star.Real
import Verif.Model.LinAlg

/-!
The Moore-Penrose inverse: existence, uniqueness, equivariance.
-/

set_option linter.unusedSectionVars false

namespace PyKrige
noncomputable section
open Matrix

variable {ι κ : Type} [Fintype ι] [DecidableEq ι] [Fintype κ] [DecidableEq κ]

theorem IsPinv.unique {a p q : Matrix ι ι ℝ} (hp : IsPinv a p) (hq : IsPinv a q) : p = q := by
  have h1 : a * p = a * q := by
    calc a * p = (a * p)ᵀ := hp.ap_symm.symm
      _ = ((a * q * a) * p)ᵀ := by rw [hq.apa]
      _ = ((a * q) * (a * p))ᵀ := by rw [Matrix.mul_assoc]
      _ = (a * p)ᵀ * (a * q)ᵀ := by rw [Matrix.transpose_mul]
      _ = (a * p) * (a * q) := by rw [hp.ap_symm, hq.ap_symm]
      _ = (a * p * a) * q := by simp only [Matrix.mul_assoc]
      _ = a * q := by rw [hp.apa]
  have h2 : p * a = q * a := by
    calc p * a = (p * a)ᵀ := hp.pa_symm.symm
      _ = (p * (a * q * a))ᵀ := by rw [hq.apa]
      _ = ((p * a) * (q * a))ᵀ := by simp only [Matrix.mul_assoc]
      _ = (q * a)ᵀ * (p * a)ᵀ := by rw [Matrix.transpose_mul]
      _ = (q * a) * (p * a) := by rw [hp.pa_symm, hq.pa_symm]
      _ = q * (a * p * a) := by simp only [Matrix.mul_assoc]
      _ = q * a := by rw [hp.apa]
  calc p = p * a * p := hp.pap.symm
    _ = q * a * p := by rw [h2]
    _ = q * (a * p) := by rw [Matrix.mul_assoc]
    _ = q * (a * q) := by rw [h1]
    _ = q * a * q := by rw [Matrix.mul_assoc]
    _ = q := hq.pap

theorem IsPinv.symm_of_symm {a r : Matrix ι ι ℝ} (hr : IsPinv a r) (hs : aᵀ = a) : rᵀ = r := by
  refine IsPinv.unique (a := a) ⟨?_, ?_, ?_, ?_⟩ hr
  · have := congrArg Matrix.transpose hr.apa
    rwa [Matrix.transpose_mul, Matrix.transpose_mul, hs, ← Matrix.mul_assoc] at this
  · have := congrArg Matrix.transpose hr.pap
    rwa [Matrix.transpose_mul, Matrix.transpose_mul, hs, ← Matrix.mul_assoc] at this
  · have := hr.pa_symm
    rw [Matrix.transpose_mul, hs] at this
    rw [this, Matrix.transpose_mul, hs, this]
  · have := hr.ap_symm
    rw [Matrix.transpose_mul, hs] at this
    rw [this, Matrix.transpose_mul, hs, this]

theorem isPinv_exists_of_symm {a : Matrix ι ι ℝ} (ha : aᵀ = a) : ∃ p, IsPinv a p := by
  have hh : a.IsHermitian := by
    unfold Matrix.IsHermitian; rw [Matrix.conjTranspose_eq_transpose_of_trivial]; exact ha
  set U : Matrix ι ι ℝ := (hh.eigenvectorUnitary : Matrix ι ι ℝ) with hU
  set D : Matrix ι ι ℝ := Matrix.diagonal hh.eigenvalues with hD
  set E : Matrix ι ι ℝ := Matrix.diagonal (fun i => (hh.eigenvalues i)⁻¹) with hE
  have hUU : Uᵀ * U = 1 := by
    have := (Matrix.mem_unitaryGroup_iff').1 hh.eigenvectorUnitary.2
    rwa [Matrix.star_eq_conjTranspose, Matrix.conjTranspose_eq_transpose_of_trivial] at this
  have spec : a = U * D * Uᵀ := by
    have := hh.spectral_theorem
    rw [Unitary.conjStarAlgAut_apply] at this
    rw [this]
    simp [hU, hD, Matrix.star_eq_conjTranspose, Matrix.conjTranspose_eq_transpose_of_trivial]
  have hDED : D * E * D = D := by
    simp only [hD, hE, Matrix.diagonal_mul_diagonal]; congr 1; funext i
    by_cases h : hh.eigenvalues i = 0 <;> simp [h]
  have hEDE : E * D * E = E := by
    simp only [hD, hE, Matrix.diagonal_mul_diagonal]; congr 1; funext i
    by_cases h : hh.eigenvalues i = 0 <;> simp [h]
  have hDE : (D * E)ᵀ = D * E := by simp [hD, hE, Matrix.diagonal_mul_diagonal]
  have hED : (E * D)ᵀ = E * D := by simp [hD, hE, Matrix.diagonal_mul_diagonal]
  have m : ∀ X Y : Matrix ι ι ℝ, (U * X * Uᵀ) * (U * Y * Uᵀ) = U * (X * Y) * Uᵀ := by
    intro X Y
    calc (U * X * Uᵀ) * (U * Y * Uᵀ) = U * X * (Uᵀ * U) * Y * Uᵀ := by
          simp only [Matrix.mul_assoc]
      _ = U * (X * Y) * Uᵀ := by rw [hUU]; simp only [Matrix.mul_one, Matrix.mul_assoc]
  have t : ∀ X : Matrix ι ι ℝ, (U * X * Uᵀ)ᵀ = U * Xᵀ * Uᵀ := by
    intro X; simp only [Matrix.transpose_mul, Matrix.transpose_transpose, Matrix.mul_assoc]
  refine ⟨U * E * Uᵀ, ?_, ?_, ?_, ?_⟩
  · rw [spec, m, m, hDED]
  · rw [spec, m, m, hEDE]
  · rw [spec, m, t, hDE]
  · rw [spec, m, t, hED]

/-- Every square real matrix has a Moore-Penrose inverse. -/
theorem isPinv_exists (a : Matrix ι ι ℝ) : ∃ p, IsPinv a p := by
  have hs : (aᵀ * a)ᵀ = aᵀ * a := by rw [Matrix.transpose_mul, Matrix.transpose_transpose]
  obtain ⟨r, hr⟩ := isPinv_exists_of_symm hs
  have key : a * (r * (aᵀ * a)) = a := by
    have h0 : (a * (1 - r * (aᵀ * a)))ᵀ * (a * (1 - r * (aᵀ * a))) = 0 := by
      have : aᵀ * (a * (1 - r * (aᵀ * a))) = 0 := by
        rw [← Matrix.mul_assoc, Matrix.mul_sub, Matrix.mul_one, ← Matrix.mul_assoc, hr.apa, sub_self]
      rw [Matrix.transpose_mul, Matrix.mul_assoc, this, Matrix.mul_zero]
    have h1 : a * (1 - r * (aᵀ * a)) = 0 := by
      have := (Matrix.conjTranspose_mul_self_eq_zero (A := a * (1 - r * (aᵀ * a)))).1
      rw [Matrix.conjTranspose_eq_transpose_of_trivial] at this
      exact this h0
    rw [Matrix.mul_sub, Matrix.mul_one, sub_eq_zero] at h1
    exact h1.symm
  have rs : rᵀ = r := by
    exact hr.symm_of_symm hs
  refine ⟨r * aᵀ, ?_, ?_, ?_, ?_⟩
  · simp only [Matrix.mul_assoc] at *; exact key
  · have := hr.pap; simp only [Matrix.mul_assoc] at *
    calc r * (aᵀ * (a * (r * aᵀ))) = (r * (aᵀ * (a * r))) * aᵀ := by simp only [Matrix.mul_assoc]
      _ = r * aᵀ := by rw [this]
  · rw [Matrix.transpose_mul, Matrix.transpose_mul, Matrix.transpose_transpose, rs, Matrix.mul_assoc]
  · rw [Matrix.mul_assoc]; exact hr.pa_symm

theorem scipyPinv_isPinv (a : Matrix ι ι ℝ) : IsPinv a (scipyPinv a) := by
  unfold scipyPinv
  rw [dif_pos (isPinv_exists a)]
  exact Classical.choose_spec (isPinv_exists a)

theorem scipyPinv_eq {a p : Matrix ι ι ℝ} (h : IsPinv a p) : scipyPinv a = p :=
  (scipyPinv_isPinv a).unique h

/-- For an invertible matrix the pseudo-inverse is the inverse. -/
theorem scipyPinv_of_det {a : Matrix ι ι ℝ} (h : a.det ≠ 0) : scipyPinv a = a⁻¹ := by
  have hu : IsUnit a.det := by simpa using h
  refine scipyPinv_eq ⟨?_, ?_, ?_, ?_⟩
  · rw [Matrix.mul_nonsing_inv _ hu, Matrix.one_mul]
  · rw [Matrix.nonsing_inv_mul _ hu, Matrix.one_mul]
  · rw [Matrix.mul_nonsing_inv _ hu, Matrix.transpose_one]
  · rw [Matrix.nonsing_inv_mul _ hu, Matrix.transpose_one]

/-- Relabelling rows and columns relabels the pseudo-inverse. -/
theorem scipyPinv_submatrix (a : Matrix κ κ ℝ) (e : ι ≃ κ) :
    scipyPinv (a.submatrix e e) = (scipyPinv a).submatrix e e := by
  have h := scipyPinv_isPinv a
  refine scipyPinv_eq ⟨?_, ?_, ?_, ?_⟩
  · rw [Matrix.submatrix_mul_equiv, Matrix.submatrix_mul_equiv, h.apa]
  · rw [Matrix.submatrix_mul_equiv, Matrix.submatrix_mul_equiv, h.pap]
  · rw [Matrix.submatrix_mul_equiv, Matrix.transpose_submatrix, h.ap_symm]
  · rw [Matrix.submatrix_mul_equiv, Matrix.transpose_submatrix, h.pa_symm]

/-- The pseudo-inverse solves every solvable system. -/
theorem scipyPinv_solves (a : Matrix ι ι ℝ) {x b : ι → ℝ} (h : a *ᵥ x = b) :
    a *ᵥ (scipyPinv a *ᵥ b) = b := by
  rw [← h, Matrix.mulVec_mulVec, Matrix.mulVec_mulVec,
    (scipyPinv_isPinv a).apa]

theorem scipyPinv_symm {a : Matrix ι ι ℝ} (h : aᵀ = a) : (scipyPinv a)ᵀ = scipyPinv a :=
  (scipyPinv_isPinv a).symm_of_symm h

theorem scipyPinvh_of_symm {N : ℕ} {a : Matrix (Fin N) (Fin N) ℝ} (h : aᵀ = a) :
    scipyPinvh a = scipyPinv a := by
  unfold scipyPinvh
  congr 1
  funext i j
  simp only [Matrix.of_apply]
  split
  · rfl
  · exact congrFun (congrFun h i) j

end
end PyKrige
