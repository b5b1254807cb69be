import Verif.Spec.Inexact
import Mathlib.Algebra.Order.Archimedean.Real.Basic
import Mathlib.Algebra.Order.BigOperators.Group.Finset
import Mathlib.Tactic.Linarith
import Mathlib.Tactic.Positivity
import Mathlib.Tactic.FieldSimp

/-! From machines of accuracy `1 / (m + 1)` to a sequence of growing precision. -/

namespace PyKrige
noncomputable section
open Matrix Spec

theorem exists_scaled {k : ℕ} (A : Matrix (Fin k) (Fin k) ℝ) :
    ∃ M : ℕ, ∀ m ≥ M, Scaled (1 / ((m : ℝ) + 1)) A := by
  obtain ⟨M, hM⟩ := exists_nat_ge (∑ i, ∑ j, |A i j|)
  refine ⟨M, fun m hm i j => ?_⟩
  have h1 : |A i j| ≤ ∑ j, |A i j| := Finset.single_le_sum (f := fun j => |A i j|) (fun _ _ => abs_nonneg _) (Finset.mem_univ j)
  have h2 : ∑ j, |A i j| ≤ ∑ i, ∑ j, |A i j| :=
    Finset.single_le_sum (f := fun i => ∑ j, |A i j|) (fun _ _ => Finset.sum_nonneg fun _ _ => abs_nonneg _) (Finset.mem_univ i)
  have h3 : (M : ℝ) ≤ m := by exact_mod_cast hm
  rw [one_div_one_div]
  linarith

theorem exists_scaled_vec {k : ℕ} (x : Fin k → ℝ) : ∃ M : ℕ, ∀ m ≥ M, ∀ i, |x i| ≤ 1 / (1 / ((m : ℝ) + 1)) := by
  obtain ⟨M, hM⟩ := exists_nat_ge (∑ i, |x i|)
  refine ⟨M, fun m hm i => ?_⟩
  have h1 : |x i| ≤ ∑ i, |x i| := Finset.single_le_sum (f := fun i => |x i|) (fun _ _ => abs_nonneg _) (Finset.mem_univ i)
  have h3 : (M : ℝ) ≤ m := by exact_mod_cast hm
  rw [one_div_one_div]
  linarith

theorem exists_fine {ε : ℝ} (hε : 0 < ε) : ∃ M : ℕ, ∀ m ≥ M, 1 / ((m : ℝ) + 1) ≤ ε := by
  obtain ⟨M, hM⟩ := exists_nat_ge (1 / ε)
  refine ⟨M, fun m hm => ?_⟩
  have h3 : (M : ℝ) ≤ m := by exact_mod_cast hm
  rw [one_div_le (by positivity) hε]
  linarith

theorem accurate_of {ar : ℕ → Arith} (h : ∀ m : ℕ, AccurateTo (1 / ((m : ℝ) + 1)) (ar m)) : Accurate ar where
  inv A B hB ε hε := by
    obtain ⟨M1, h1⟩ := exists_scaled A
    obtain ⟨M2, h2⟩ := exists_scaled B
    obtain ⟨M3, h3⟩ := exists_fine hε
    refine ⟨max M1 (max M2 M3), fun m hm => ?_⟩
    obtain ⟨B', e, hd⟩ := (h m).inv A B hB (h1 m (by omega)) (h2 m (by omega))
    exact ⟨B', e, fun i j => (hd i j).trans (h3 m (by omega))⟩
  pinv A ε hε := by
    obtain ⟨M1, h1⟩ := exists_scaled A
    obtain ⟨M2, h2⟩ := exists_scaled (scipyPinv A)
    obtain ⟨M3, h3⟩ := exists_fine hε
    refine ⟨max M1 (max M2 M3), fun m hm => ?_⟩
    obtain ⟨B', e, hd⟩ := (h m).pinv A (h1 m (by omega)) (h2 m (by omega))
    exact ⟨B', e, fun i j => (hd i j).trans (h3 m (by omega))⟩
  pinvh A ε hε := by
    obtain ⟨M1, h1⟩ := exists_scaled A
    obtain ⟨M2, h2⟩ := exists_scaled (scipyPinvh A)
    obtain ⟨M3, h3⟩ := exists_fine hε
    refine ⟨max M1 (max M2 M3), fun m hm => ?_⟩
    obtain ⟨B', e, hd⟩ := (h m).pinvh A (h1 m (by omega)) (h2 m (by omega))
    exact ⟨B', e, fun i j => (hd i j).trans (h3 m (by omega))⟩
  solve A b x hx ε hε := by
    obtain ⟨M1, h1⟩ := exists_scaled A
    obtain ⟨M2, h2⟩ := exists_scaled A⁻¹
    obtain ⟨M3, h3⟩ := exists_fine hε
    obtain ⟨M4, h4⟩ := exists_scaled_vec b
    obtain ⟨M5, h5⟩ := exists_scaled_vec x
    refine ⟨max M1 (max M2 (max M3 (max M4 M5))), fun m hm => ?_⟩
    obtain ⟨B', e, hd⟩ := (h m).solve A b x hx (h1 m (by omega)) (h2 m (by omega)) (h4 m (by omega)) (h5 m (by omega))
    exact ⟨B', e, fun i => (hd i).trans (h3 m (by omega))⟩
  dgesv A b x hx ε hε := by
    obtain ⟨M1, h1⟩ := exists_scaled A
    obtain ⟨M2, h2⟩ := exists_scaled A⁻¹
    obtain ⟨M3, h3⟩ := exists_fine hε
    obtain ⟨M4, h4⟩ := exists_scaled_vec b
    obtain ⟨M5, h5⟩ := exists_scaled_vec x
    refine ⟨max M1 (max M2 (max M3 (max M4 M5))), fun m hm => ?_⟩
    obtain ⟨B', e, hd⟩ := (h m).dgesv A b x hx (h1 m (by omega)) (h2 m (by omega)) (h4 m (by omega)) (h5 m (by omega))
    exact ⟨B', e, fun i => (hd i).trans (h3 m (by omega))⟩
  dot k ε hε := by
    obtain ⟨M3, h3⟩ := exists_fine hε
    refine ⟨max k M3, fun m hm x y => ((h m).dot x y ?_).trans
      (mul_le_mul_of_nonneg_right (h3 m (by omega)) (Finset.sum_nonneg fun _ _ => abs_nonneg _))⟩
    have : (k : ℝ) ≤ m := by exact_mod_cast (le_max_left k M3).trans hm
    rw [one_div_one_div]
    linarith

end
end PyKrige
