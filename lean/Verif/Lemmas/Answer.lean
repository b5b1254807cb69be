import Verif.Lemmas.KrigMat
import Verif.Lemmas.Pinv
import Verif.Model.Frontend
import Verif.Lemmas.Py

/-!
From the code's matrices (indexed by `Fin N`) to the kriging matrix over `Fin n ⊕ Fin L ⊕ Unit`, and the
answer (estimate, variance) at one point.
-/

set_option linter.unusedSectionVars false

namespace PyKrige
noncomputable section
open Matrix Spec

variable {ι κ : Type} [Fintype ι] [Fintype κ] [DecidableEq ι] [DecidableEq κ]

/-- Positions in the code's matrix: data first, then drifts, then the unbiasedness row. -/
def idx (n L N : ℕ) (h : N = n + L + 1) : Fin n ⊕ Fin L ⊕ Unit ≃ Fin N where
  toFun
    | .inl i => ⟨i.val, by omega⟩
    | .inr (.inl l) => ⟨n + l.val, by omega⟩
    | .inr (.inr _) => ⟨n + L, by omega⟩
  invFun j :=
    if h1 : j.val < n then .inl ⟨j.val, h1⟩
    else if h2 : j.val < n + L then .inr (.inl ⟨j.val - n, by omega⟩)
    else .inr (.inr ())
  left_inv k := by
    rcases k with i | l | ⟨⟩ <;> simp
  right_inv j := by
    apply Fin.ext
    by_cases h1 : j.val < n
    · simp [h1]
    · by_cases h2 : j.val < n + L
      · simp [h1, h2]; omega
      · simp [h1, h2]; omega

@[simp] theorem idx_inl (n L N : ℕ) (h : N = n + L + 1) (i : Fin n) :
    idx n L N h (.inl i) = ⟨i.val, by omega⟩ := rfl
@[simp] theorem idx_inr_inl (n L N : ℕ) (h : N = n + L + 1) (l : Fin L) :
    idx n L N h (.inr (.inl l)) = ⟨n + l.val, by omega⟩ := rfl
@[simp] theorem idx_inr_inr (n L N : ℕ) (h : N = n + L + 1) (u : Unit) :
    idx n L N h (.inr (.inr u)) = ⟨n + L, by omega⟩ := rfl

/-- The inverse used: pseudo-inverse or inverse. -/
def krigInv (pseudo : Bool) (M : Matrix ι ι ℝ) : Matrix ι ι ℝ :=
  if pseudo then scipyPinv M else M⁻¹

/-- Estimate and variance at a point. -/
def krigAnswer (pseudo : Bool) (G : ι → ι → ℝ) (F : κ → ι → ℝ) (z g : ι → ℝ) (f : κ → ℝ) : ℝ × ℝ :=
  answerOf z g f (krigInv pseudo (krigMat G F) *ᵥ krigRhs g f 1)

/-- Does kriging with this matrix succeed? -/
def Solvable (pseudo : Bool) (G : ι → ι → ℝ) (F : κ → ι → ℝ) : Prop :=
  pseudo = true ∨ Regular G F

theorem krigInv_submatrix {N : Type} [Fintype N] [DecidableEq N] (pseudo : Bool)
    (a : Matrix N N ℝ) (e : ι ≃ N) :
    krigInv pseudo (a.submatrix e e) = (krigInv pseudo a).submatrix e e := by
  unfold krigInv
  split
  · exact scipyPinv_submatrix a e
  · exact Matrix.inv_submatrix_equiv a e e

/-- The code computes `x = a_inv @ b`, `∑ x[:n] * Z`, `∑ x * -b`; relabelled, this is `krigAnswer`. -/
theorem code_answer {n L N : ℕ} (h : N = n + L + 1) (pseudo : Bool) {a : Matrix (Fin N) (Fin N) ℝ}
    {b : Fin N → ℝ} {G : Fin n → Fin n → ℝ} {F : Fin L → Fin n → ℝ} {g : Fin n → ℝ} {f : Fin L → ℝ}
    (ha : a.submatrix (idx n L N h) (idx n L N h) = krigMat G F)
    (hb : b ∘ idx n L N h = krigRhs g f 1) (z : Fin n → ℝ) :
    (∑ k : Fin n, (krigInv pseudo a *ᵥ b) ⟨k.val, by omega⟩ * z k,
      ∑ k, (krigInv pseudo a *ᵥ b) k * -b k) = krigAnswer pseudo G F z g f := by
  have hx : (krigInv pseudo a *ᵥ b) ∘ idx n L N h =
      krigInv pseudo (krigMat G F) *ᵥ krigRhs g f 1 := by
    rw [← ha, krigInv_submatrix, ← hb, Matrix.submatrix_mulVec_equiv]
    simp [Function.comp_assoc]
  unfold krigAnswer answerOf
  rw [← hx, ← sum_neg_rhs, ← hb]
  refine Prod.ext ?_ ?_
  · rfl
  · exact (Equiv.sum_comp (idx n L N h) fun k => (krigInv pseudo a *ᵥ b) k * -b k).symm

theorem det_eq_of_submatrix {n L N : ℕ} (h : N = n + L + 1) {a : Matrix (Fin N) (Fin N) ℝ}
    {G : Fin n → Fin n → ℝ} {F : Fin L → Fin n → ℝ}
    (ha : a.submatrix (idx n L N h) (idx n L N h) = krigMat G F) :
    a.det = (krigMat G F).det := by
  rw [← ha, Matrix.det_submatrix_equiv_self]

theorem transpose_krigMat {G : ι → ι → ℝ} {F : κ → ι → ℝ} (hG : ∀ i j, G i j = G j i) :
    (krigMat G F)ᵀ = krigMat G F := by
  funext r c
  rcases r with i | l | ⟨⟩ <;> rcases c with j | m | ⟨⟩ <;> simp [krigMat]
  exact hG _ _

theorem transpose_of_submatrix {n L N : ℕ} (h : N = n + L + 1) {a : Matrix (Fin N) (Fin N) ℝ}
    {G : Fin n → Fin n → ℝ} {F : Fin L → Fin n → ℝ} (hG : ∀ i j, G i j = G j i)
    (ha : a.submatrix (idx n L N h) (idx n L N h) = krigMat G F) : aᵀ = a := by
  have := transpose_krigMat (F := F) hG
  rw [← ha, Matrix.transpose_submatrix] at this
  funext r c
  have := congrFun (congrFun this ((idx n L N h).symm r)) ((idx n L N h).symm c)
  simpa using this

open Classical in
/-- What the Python backends' inversion does to a kriging matrix. -/
theorem invertPython_eq {n L N : ℕ} (h : N = n + L + 1) {a : Matrix (Fin N) (Fin N) ℝ}
    {G : Fin n → Fin n → ℝ} {F : Fin L → Fin n → ℝ} (hG : ∀ i j, G i j = G j i)
    (ha : a.submatrix (idx n L N h) (idx n L N h) = krigMat G F) (pseudo : Bool) (t : String)
    (ht : t ∈ ["pinv", "pinvh"]) :
    invertPython pseudo t a =
      if Solvable pseudo G F then .ok (krigInv pseudo a) else .error .linAlgError := by
  unfold invertPython
  cases pseudo with
  | true =>
    simp only [Solvable, true_or, if_true, krigInv, P_INV]
    simp only [List.mem_cons, List.not_mem_nil, or_false] at ht
    rcases ht with rfl | rfl
    · simp
    · simp [scipyPinvh_of_symm (transpose_of_submatrix h hG ha)]
  | false =>
    simp only [Solvable, Bool.false_eq_true, false_or, if_false, krigInv, scipyInv,
      regular_iff_det, det_eq_of_submatrix h ha]
    split <;> simp_all

open Classical in
theorem invertC_eq {n L N : ℕ} (h : N = n + L + 1) {a : Matrix (Fin N) (Fin N) ℝ}
    {G : Fin n → Fin n → ℝ} {F : Fin L → Fin n → ℝ} (hG : ∀ i j, G i j = G j i)
    (ha : a.submatrix (idx n L N h) (idx n L N h) = krigMat G F) (pseudo : Bool) (t : String)
    (ht : t ∈ ["pinv", "pinvh"]) :
    invertC pseudo t a =
      if Solvable pseudo G F then .ok (krigInv pseudo a) else .error .linAlgError := by
  rw [← invertPython_eq h hG ha pseudo t ht]
  unfold invertC invertPython
  simp only [List.mem_cons, List.not_mem_nil, or_false] at ht
  rcases ht with rfl | rfl <;> simp [P_INV]

/-- `krigAnswer` without pseudo-inverse is *the* solution of the kriging equations. -/
theorem krigAnswer_spec {G : ι → ι → ℝ} {F : κ → ι → ℝ} (hr : Regular G F) (z g : ι → ℝ)
    (f : κ → ℝ) : ∃ w ν μ, KrigingEqs G F g f 1 w ν μ ∧
      krigAnswer false G F z g f = (estimate w z, krigingVariance g f w ν μ) :=
  ⟨_, _, _, inv_solves ((regular_iff_det G F).1 hr) g f 1, rfl⟩

theorem krigInv_of_regular {G : ι → ι → ℝ} {F : κ → ι → ℝ} (hr : Regular G F) (pseudo : Bool) :
    krigInv pseudo (krigMat G F) = (krigMat G F)⁻¹ := by
  unfold krigInv
  split
  · exact scipyPinv_of_det ((regular_iff_det G F).1 hr)
  · rfl

theorem krigAnswer_of_regular {G : ι → ι → ℝ} {F : κ → ι → ℝ} (hr : Regular G F) (pseudo : Bool)
    (z g : ι → ℝ) (f : κ → ℝ) : krigAnswer pseudo G F z g f = krigAnswer false G F z g f := by
  unfold krigAnswer
  rw [krigInv_of_regular hr, krigInv_of_regular hr]

/-- Any solution of a regular system gives the answer. -/
theorem krigAnswer_eq {G : ι → ι → ℝ} {F : κ → ι → ℝ} (hr : Regular G F) (pseudo : Bool)
    {z g : ι → ℝ} {f : κ → ℝ} {w : ι → ℝ} {ν : κ → ℝ} {μ : ℝ} (h : KrigingEqs G F g f 1 w ν μ) :
    krigAnswer pseudo G F z g f = (estimate w z, krigingVariance g f w ν μ) := by
  rw [krigAnswer_of_regular hr]
  obtain ⟨w', ν', μ', h', e⟩ := krigAnswer_spec hr z g f
  obtain ⟨rfl, rfl, rfl⟩ := h.unique hr h'
  exact e

/-- With the pseudo-inverse: whenever the equations have a solution, the computed one is one. -/
theorem pinv_solves {G : ι → ι → ℝ} {F : κ → ι → ℝ} {g : ι → ℝ} {f : κ → ℝ} {w : ι → ℝ}
    {ν : κ → ℝ} {μ : ℝ} (h : KrigingEqs G F g f 1 w ν μ) (z : ι → ℝ) :
    ∃ w ν μ, KrigingEqs G F g f 1 w ν μ ∧
      krigAnswer true G F z g f = (estimate w z, krigingVariance g f w ν μ) := by
  refine ⟨_, _, _, (krigMat_mulVec_iff G F g f 1 (scipyPinv (krigMat G F) *ᵥ krigRhs g f 1)).1 ?_, rfl⟩
  exact scipyPinv_solves _ ((krigMat_mulVec_iff G F g f 1 (packX w ν μ)).2 h)

end
end PyKrige
