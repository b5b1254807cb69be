import Verif.Model.Ilr
import Mathlib.LinearAlgebra.Matrix.NonsingularInverse
import Mathlib.Algebra.BigOperators.Field
import Mathlib.Tactic.Linarith
import Mathlib.Tactic.FieldSimp
import Mathlib.Tactic.Ring

/-! The rows of the Helmert matrix are orthonormal and orthogonal to the constants. -/

namespace PyKrige
noncomputable section

/-- The sum of a row against values. -/
theorem helmert_sum {m : ℕ} (r : Fin m) (g : ℕ → ℝ) :
    ∑ j, helmert m r j * g j.val =
      ((∑ j ∈ Finset.range (r.val + 1), g j) - ((r.val : ℝ) + 1) * g (r.val + 1)) / √(((r.val : ℝ) + 1) * ((r.val : ℝ) + 2)) := by
  have e : ∀ j : Fin (m + 1), helmert m r j * g j.val =
      (fun j : ℕ => (if j < r.val + 1 then 1 else if j = r.val + 1 then -((r.val : ℝ) + 1) else 0) * g j) j.val /
        √(((r.val : ℝ) + 1) * ((r.val : ℝ) + 2)) := by
    intro j
    unfold helmert
    ring
  rw [Finset.sum_congr rfl fun j _ => e j, ← Finset.sum_div,
    Fin.sum_univ_eq_sum_range (fun j : ℕ => (if j < r.val + 1 then 1 else if j = r.val + 1 then -((r.val : ℝ) + 1) else 0) * g j)]
  congr 1
  have hsub : Finset.range (r.val + 1 + 1) ⊆ Finset.range (m + 1) := by
    intro a ha
    rw [Finset.mem_range] at ha ⊢
    have := r.isLt
    omega
  rw [← Finset.sum_subset hsub, Finset.sum_range_succ]
  · rw [if_neg (lt_irrefl _), if_pos rfl]
    have : ∑ j ∈ Finset.range (r.val + 1), (if j < r.val + 1 then 1 else if j = r.val + 1 then -((r.val : ℝ) + 1) else 0) * g j =
        ∑ j ∈ Finset.range (r.val + 1), g j := by
      refine Finset.sum_congr rfl fun j hj => ?_
      rw [if_pos (Finset.mem_range.1 hj), one_mul]
    rw [this]
    ring
  · intro j _ hj
    rw [Finset.mem_range] at hj
    rw [if_neg (by omega), if_neg (by omega), zero_mul]

theorem helmert_norm_pos (r : ℕ) : 0 < √(((r : ℝ) + 1) * ((r : ℝ) + 2)) := Real.sqrt_pos.2 (by positivity)

/-- Rows sum to zero. -/
theorem helmert_row_sum {m : ℕ} (r : Fin m) : ∑ j, helmert m r j = 0 := by
  have h := helmert_sum r fun _ => 1
  simp only [mul_one, Finset.sum_const, Finset.card_range, nsmul_eq_mul] at h
  rw [h]
  push_cast
  simp

theorem helmert_mul_aux {m : ℕ} {r s : Fin m} (h : r ≤ s) :
    ∑ j, helmert m r j * helmert m s j = if r = s then 1 else 0 := by
  have hs := helmert_norm_pos s.val
  have h0 := helmert_sum r fun j => (if j < s.val + 1 then 1 else if j = s.val + 1 then -((s.val : ℝ) + 1) else 0) /
    √(((s.val : ℝ) + 1) * ((s.val : ℝ) + 2))
  have e : ∀ j : Fin (m + 1), (if j.val < s.val + 1 then (1 : ℝ) else if j.val = s.val + 1 then -((s.val : ℝ) + 1) else 0) /
    √(((s.val : ℝ) + 1) * ((s.val : ℝ) + 2)) = helmert m s j := fun _ => rfl
  simp only [e] at h0
  rw [h0]
  have hrs : r.val ≤ s.val := h
  have h1 : ∑ j ∈ Finset.range (r.val + 1), (if j < s.val + 1 then (1 : ℝ) else if j = s.val + 1 then -((s.val : ℝ) + 1) else 0) /
      √(((s.val : ℝ) + 1) * ((s.val : ℝ) + 2)) = ((r.val : ℝ) + 1) / √(((s.val : ℝ) + 1) * ((s.val : ℝ) + 2)) := by
    rw [← Finset.sum_div]
    congr 1
    rw [Finset.sum_congr rfl fun j hj => if_pos (by have := Finset.mem_range.1 hj; omega)]
    simp
  rw [h1]
  by_cases hE : r = s
  · subst hE
    rw [if_neg (lt_irrefl _), if_pos rfl, if_pos rfl]
    have hsq := Real.mul_self_sqrt (show 0 ≤ ((r.val : ℝ) + 1) * ((r.val : ℝ) + 2) by positivity)
    rw [div_eq_one_iff_eq hs.ne']
    field_simp
    rw [← pow_two] at hsq
    rw [hsq]
    ring
  · have hlt : r.val < s.val := lt_of_le_of_ne hrs fun h => hE (Fin.ext h)
    rw [if_neg hE, if_pos (by omega)]
    ring

/-- Rows are orthonormal. -/
theorem helmert_orthonormal {m : ℕ} (r s : Fin m) : ∑ j, helmert m r j * helmert m s j = if r = s then 1 else 0 := by
  rcases le_total r s with h | h
  · exact helmert_mul_aux h
  · rw [Finset.sum_congr rfl fun j _ => mul_comm _ _, helmert_mul_aux h]
    by_cases hE : r = s
    · rw [if_pos hE, if_pos hE.symm]
    · rw [if_neg hE, if_neg (Ne.symm hE)]

/-- The full Helmert matrix. -/
def helmertFull (m : ℕ) : Matrix (Fin (m + 1)) (Fin (m + 1)) ℝ :=
  Matrix.of (Fin.cons (fun _ => 1 / √((m : ℝ) + 1)) (helmert m))

theorem helmertFull_orthogonal (m : ℕ) : helmertFull m * (helmertFull m).transpose = 1 := by
  have hpos : 0 < √((m : ℝ) + 1) := Real.sqrt_pos.2 (by positivity)
  have hsq := Real.mul_self_sqrt (show 0 ≤ (m : ℝ) + 1 by positivity)
  ext r s
  rw [Matrix.mul_apply, Matrix.one_apply]
  refine Fin.cases ?_ (fun r => ?_) r <;> refine Fin.cases ?_ (fun s => ?_) s
  · simp only [helmertFull, Matrix.transpose_apply, Matrix.of_apply, Fin.cons_zero, Finset.sum_const, Finset.card_univ,
      Fintype.card_fin, nsmul_eq_mul, if_true]
    push_cast
    field_simp
    rw [pow_two, hsq]
  · simp only [helmertFull, Matrix.transpose_apply, Matrix.of_apply, Fin.cons_zero, Fin.cons_succ]
    rw [← Finset.mul_sum, helmert_row_sum, mul_zero, if_neg (Fin.succ_ne_zero s).symm]
  · simp only [helmertFull, Matrix.transpose_apply, Matrix.of_apply, Fin.cons_zero, Fin.cons_succ]
    rw [← Finset.sum_mul, helmert_row_sum, zero_mul, if_neg (Fin.succ_ne_zero r)]
  · simp only [helmertFull, Matrix.transpose_apply, Matrix.of_apply, Fin.cons_succ]
    rw [helmert_orthonormal]
    simp [Fin.succ_inj]

/-- Columns: the projection away from the constants. -/
theorem helmert_columns {m : ℕ} (i j : Fin (m + 1)) :
    ∑ r, helmert m r i * helmert m r j = (if i = j then 1 else 0) - 1 / ((m : ℝ) + 1) := by
  have hsq := Real.mul_self_sqrt (show 0 ≤ (m : ℝ) + 1 by positivity)
  have h0 : (helmertFull m).transpose * helmertFull m = 1 := mul_eq_one_comm.1 (helmertFull_orthogonal m)
  have h := congrArg (fun M : Matrix _ _ ℝ => M i j) h0
  rw [Matrix.mul_apply, Matrix.one_apply, Fin.sum_univ_succ] at h
  simp only [helmertFull, Matrix.transpose_apply, Matrix.of_apply, Fin.cons_succ, Fin.cons_zero] at h
  rw [← h]
  have : 1 / √((m : ℝ) + 1) * (1 / √((m : ℝ) + 1)) = 1 / ((m : ℝ) + 1) := by
    rw [div_mul_div_comm, hsq, one_mul]
  rw [this]
  ring

end
end PyKrige
