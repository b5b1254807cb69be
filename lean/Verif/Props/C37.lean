import Verif.Lemmas.Helmert
import Mathlib.Data.Fin.VecNotation
import Mathlib.Tactic.NormNum

/-!
C37: the ilr transform is invertible.

On compositions with parts of at least machine epsilon `inverse_ilr_transformation` undoes `ilr_transformation` up to the
scale of the composition, and conversely; it always returns positive parts that sum to one; the transform does not depend
on the scale of the composition and is an isometry for the log-ratios of its parts.
-/

namespace PyKrige
noncomputable section

theorem machineEps_pos : 0 < machineEps := by unfold machineEps; positivity

section
variable {N m : ℕ}

/-- The exponent of the inverse transform: logarithms up to their mean. -/
theorem ilr_back (p : Fin N → Fin (m + 1) → ℝ) (i : Fin N) (j : Fin (m + 1)) :
    ∑ r, ilrTransformation p i r * -helmert m r j =
      Real.log (max (p i j) machineEps) - (∑ l, Real.log (max (p i l) machineEps)) / ((m : ℝ) + 1) := by
  have e : ∀ r, ilrTransformation p i r * -helmert m r j =
      ∑ l, Real.log (max (p i l) machineEps) * (helmert m r l * helmert m r j) := by
    intro r
    unfold ilrTransformation
    rw [Finset.sum_mul]
    refine Finset.sum_congr rfl fun l _ => ?_
    ring
  rw [Finset.sum_congr rfl fun r _ => e r, Finset.sum_comm]
  simp only [← Finset.mul_sum, helmert_columns, mul_sub, Finset.sum_sub_distrib]
  congr 1
  · rw [Finset.sum_eq_single j]
    · rw [if_pos rfl, mul_one]
    · intro l _ hl; rw [if_neg hl, mul_zero]
    · intro h; exact absurd (Finset.mem_univ _) h
  · rw [← Finset.sum_mul]
    ring

/-- The inverse of a transform, in general: the composition with small parts raised to machine epsilon, closed. -/
theorem C37_inverse_of (p : Fin N → Fin (m + 1) → ℝ) (i : Fin N) (j : Fin (m + 1)) :
    inverseIlr (ilrTransformation p) i j = max (p i j) machineEps / ∑ l, max (p i l) machineEps := by
  have hpos : ∀ l, 0 < max (p i l) machineEps := fun l => lt_max_of_lt_right machineEps_pos
  unfold inverseIlr closure
  simp only [ilr_back, Real.exp_sub, Real.exp_log (hpos _)]
  rw [← Finset.sum_div, one_mul, div_div_div_cancel_right₀ (Real.exp_ne_zero _)]

/-- A composition comes back with its parts divided by their sum. -/
theorem C37_inverse_ilr {p : Fin N → Fin (m + 1) → ℝ} (h : ∀ i j, machineEps ≤ p i j) (i : Fin N) (j : Fin (m + 1)) :
    inverseIlr (ilrTransformation p) i j = p i j / ∑ l, p i l := by
  rw [C37_inverse_of]
  simp only [max_eq_left (h i _)]

/-- A closed composition comes back. -/
theorem C37_inverse_ilr_closed {p : Fin N → Fin (m + 1) → ℝ} (h : ∀ i j, machineEps ≤ p i j) (hs : ∀ i, ∑ l, p i l = 1) :
    inverseIlr (ilrTransformation p) = p := by
  funext i j
  rw [C37_inverse_ilr h, hs, div_one]

/-- The parts are positive. -/
theorem C37_positive (v : Fin N → Fin m → ℝ) (i : Fin N) (j : Fin (m + 1)) : 0 < inverseIlr v i j := by
  unfold inverseIlr closure
  rw [one_mul]
  exact div_pos (Real.exp_pos _) (Finset.sum_pos (fun _ _ => Real.exp_pos _) ⟨j, Finset.mem_univ j⟩)

/-- The parts sum to one. -/
theorem C37_sum_one (v : Fin N → Fin m → ℝ) (i : Fin N) : ∑ j, inverseIlr v i j = 1 := by
  unfold inverseIlr closure
  simp only [one_mul]
  rw [← Finset.sum_div]
  exact div_self (Finset.sum_pos (fun _ _ => Real.exp_pos _) ⟨0, Finset.mem_univ _⟩).ne'

/-- `closure`: data with a sum other than zero are scaled so that they sum to `k`, and keep their proportions. -/
theorem C37_closure {D : ℕ} (data : Fin N → Fin D → ℝ) (k : ℝ) (i : Fin N) (h : ∑ l, data i l ≠ 0) :
    ∑ j, closure data k i j = k ∧ ∀ j l, closure data k i j * data i l = closure data k i l * data i j := by
  unfold closure
  constructor
  · rw [← Finset.sum_div, ← Finset.mul_sum, mul_div_assoc, div_self h, mul_one]
  · intro j l
    ring

/-- Coordinates come back, unless the composition has a part below machine epsilon. -/
theorem C37_ilr_inverse {v : Fin N → Fin m → ℝ} (i : Fin N) (h : ∀ j, machineEps ≤ inverseIlr v i j) (r : Fin m) :
    ilrTransformation (inverseIlr v) i r = v i r := by
  have hS : 0 < ∑ l, Real.exp (∑ r, v i r * -helmert m r l) :=
    Finset.sum_pos (fun _ _ => Real.exp_pos _) ⟨0, Finset.mem_univ _⟩
  unfold ilrTransformation
  have e : ∀ j, Real.log (max (inverseIlr v i j) machineEps) * -helmert m r j =
      (∑ s, v i s * (helmert m s j * helmert m r j)) +
        Real.log (∑ l, Real.exp (∑ r, v i r * -helmert m r l)) * helmert m r j := by
    intro j
    rw [max_eq_left (h j)]
    unfold inverseIlr closure
    rw [one_mul, Real.log_div (Real.exp_ne_zero _) hS.ne', Real.log_exp, sub_mul, Finset.sum_mul]
    rw [sub_eq_add_neg, ← mul_neg, neg_neg]
    congr 1
    refine Finset.sum_congr rfl fun s _ => ?_
    ring
  rw [Finset.sum_congr rfl fun j _ => e j, Finset.sum_add_distrib, ← Finset.mul_sum, helmert_row_sum, mul_zero, add_zero,
    Finset.sum_comm]
  simp only [← Finset.mul_sum, helmert_orthonormal]
  rw [Finset.sum_eq_single r]
  · rw [if_pos rfl, mul_one]
  · intro s _ hs; rw [if_neg hs, mul_zero]
  · intro h; exact absurd (Finset.mem_univ _) h

/-- Scaling a composition does not change its transform. -/
theorem C37_scale {p : Fin N → Fin (m + 1) → ℝ} {c : Fin N → ℝ} (hc : ∀ i, 0 < c i) (h : ∀ i j, machineEps ≤ p i j)
    (h' : ∀ i j, machineEps ≤ c i * p i j) : ilrTransformation (fun i j => c i * p i j) = ilrTransformation p := by
  funext i r
  unfold ilrTransformation
  have e : ∀ j, Real.log (max (c i * p i j) machineEps) * -helmert m r j =
      Real.log (max (p i j) machineEps) * -helmert m r j + -Real.log (c i) * helmert m r j := by
    intro j
    rw [max_eq_left (h' i j), max_eq_left (h i j), Real.log_mul (hc i).ne' (machineEps_pos.trans_le (h i j)).ne']
    ring
  rw [Finset.sum_congr rfl fun j _ => e j, Finset.sum_add_distrib, ← Finset.mul_sum, helmert_row_sum, mul_zero, add_zero]

/-- The transform is an isometry: the squared distance of two transforms is that of the log-ratios of the compositions
(the Aitchison distance). -/
theorem C37_isometry {p q : Fin N → Fin (m + 1) → ℝ} (hp : ∀ i j, machineEps ≤ p i j) (hq : ∀ i j, machineEps ≤ q i j)
    (i : Fin N) :
    ∑ r, (ilrTransformation p i r - ilrTransformation q i r) ^ 2 =
      (∑ j, ∑ l, (Real.log (p i j / p i l) - Real.log (q i j / q i l)) ^ 2) / (2 * ((m : ℝ) + 1)) := by
  have pp : ∀ j, p i j ≠ 0 := fun j => (machineEps_pos.trans_le (hp i j)).ne'
  have qp : ∀ j, q i j ≠ 0 := fun j => (machineEps_pos.trans_le (hq i j)).ne'
  set u : Fin (m + 1) → ℝ := fun j => Real.log (p i j) - Real.log (q i j) with hu
  have e1 : ∀ r, ilrTransformation p i r - ilrTransformation q i r = -∑ j, helmert m r j * u j := by
    intro r
    unfold ilrTransformation
    simp only [max_eq_left (hp i _), max_eq_left (hq i _)]
    rw [← Finset.sum_sub_distrib, ← Finset.sum_neg_distrib]
    refine Finset.sum_congr rfl fun j _ => ?_
    rw [hu]
    ring
  have e2 : ∑ r, (ilrTransformation p i r - ilrTransformation q i r) ^ 2 = ∑ j, u j ^ 2 - (∑ j, u j) ^ 2 / ((m : ℝ) + 1) := by
    have : ∀ r, (ilrTransformation p i r - ilrTransformation q i r) ^ 2 =
        ∑ j, ∑ l, u j * u l * (helmert m r j * helmert m r l) := by
      intro r
      rw [e1, neg_sq, pow_two, Finset.sum_mul_sum]
      refine Finset.sum_congr rfl fun j _ => Finset.sum_congr rfl fun l _ => ?_
      ring
    rw [Finset.sum_congr rfl fun r _ => this r, Finset.sum_comm]
    have h2 : ∀ j, ∑ r, ∑ l, u j * u l * (helmert m r j * helmert m r l) = u j ^ 2 - u j * (∑ l, u l) / ((m : ℝ) + 1) := by
      intro j
      rw [Finset.sum_comm]
      simp only [← Finset.mul_sum, helmert_columns, mul_sub, Finset.sum_sub_distrib]
      congr 1
      · rw [Finset.sum_eq_single j]
        · rw [if_pos rfl]; ring
        · intro l _ hl; rw [if_neg (Ne.symm hl), mul_zero]
        · intro h; exact absurd (Finset.mem_univ _) h
      · rw [← Finset.sum_mul, ← Finset.mul_sum]
        ring
    rw [Finset.sum_congr rfl fun j _ => h2 j, Finset.sum_sub_distrib, ← Finset.sum_div, ← Finset.sum_mul, ← pow_two]
  have e3 : ∑ j, ∑ l, (Real.log (p i j / p i l) - Real.log (q i j / q i l)) ^ 2 =
      2 * ((m : ℝ) + 1) * ∑ j, u j ^ 2 - 2 * (∑ j, u j) ^ 2 := by
    have h1 : ∀ j l, (Real.log (p i j / p i l) - Real.log (q i j / q i l)) ^ 2 = u j ^ 2 + u l ^ 2 - 2 * (u j * u l) := by
      intro j l
      rw [Real.log_div (pp j) (pp l), Real.log_div (qp j) (qp l), hu]
      ring
    simp only [h1, Finset.sum_sub_distrib, Finset.sum_add_distrib, Finset.sum_const, Finset.card_univ, Fintype.card_fin,
      nsmul_eq_mul, ← Finset.mul_sum, ← Finset.sum_mul]
    push_cast
    ring
  rw [e2, e3]
  field_simp

/-- Parts of zero (as in the encoding of a class) are raised to machine epsilon, but keep their order: the larger of two
parts stays the larger one. -/
theorem C37_order {p : Fin N → Fin (m + 1) → ℝ} {i : Fin N} {j l : Fin (m + 1)} (h : p i j < p i l) (h' : machineEps < p i l) :
    inverseIlr (ilrTransformation p) i j < inverseIlr (ilrTransformation p) i l := by
  rw [C37_inverse_of, C37_inverse_of]
  refine div_lt_div_of_pos_right ?_ (Finset.sum_pos (fun _ _ => lt_max_of_lt_right machineEps_pos) ⟨0, Finset.mem_univ _⟩)
  rw [max_eq_left h'.le]
  exact max_lt h h'

end

/-! ### A concrete composition -/

theorem machineEps_small : machineEps ≤ 1 / 8 := by
  unfold machineEps
  rw [zpow_neg, ← one_div]
  exact one_div_le_one_div_of_le (by norm_num) (by norm_num)

/-- Three parts, closed. -/
example : inverseIlr (ilrTransformation fun _ : Fin 1 => ![1 / 8, 3 / 8, 1 / 2]) = fun _ => ![1 / 8, 3 / 8, 1 / 2] := by
  refine C37_inverse_ilr_closed (fun _ j => ?_) fun _ => ?_
  · refine Fin.cases ?_ (fun j => Fin.cases ?_ (fun j => Fin.cases ?_ (fun j => j.elim0) j) j) j <;> refine machineEps_small.trans ?_
    · exact le_refl (1 / 8 : ℝ)
    · show (1 / 8 : ℝ) ≤ 3 / 8
      norm_num
    · show (1 / 8 : ℝ) ≤ 1 / 2
      norm_num
  · rw [Fin.sum_univ_three]
    show (1 / 8 : ℝ) + 3 / 8 + 1 / 2 = 1
    norm_num

/-- Three parts of sum 2. -/
example : inverseIlr (ilrTransformation fun _ : Fin 1 => ![1 / 4, 3 / 4, 1]) = fun _ => ![1 / 8, 3 / 8, 1 / 2] := by
  have h : ∀ j, machineEps ≤ (![1 / 4, 3 / 4, 1] : Fin 3 → ℝ) j := by
    intro j
    refine Fin.cases ?_ (fun j => Fin.cases ?_ (fun j => Fin.cases ?_ (fun j => j.elim0) j) j) j <;> refine machineEps_small.trans ?_
    · show (1 / 8 : ℝ) ≤ 1 / 4
      norm_num
    · show (1 / 8 : ℝ) ≤ 3 / 4
      norm_num
    · show (1 / 8 : ℝ) ≤ 1
      norm_num
  funext i j
  rw [C37_inverse_ilr (fun _ j => h j), Fin.sum_univ_three]
  refine Fin.cases ?_ (fun j => Fin.cases ?_ (fun j => Fin.cases ?_ (fun j => j.elim0) j) j) j
  · show (1 / 4 : ℝ) / (1 / 4 + 3 / 4 + 1) = 1 / 8
    norm_num
  · show (3 / 4 : ℝ) / (1 / 4 + 3 / 4 + 1) = 3 / 8
    norm_num
  · refine Fin.cases ?_ (fun j => j.elim0) j
    show (1 : ℝ) / (1 / 4 + 3 / 4 + 1) = 1 / 2
    norm_num

/-- The origin, whose composition has equal parts. -/
example : ilrTransformation (inverseIlr fun _ : Fin 1 => (fun _ : Fin 3 => (0 : ℝ))) = fun _ _ => 0 := by
  funext i r
  refine C37_ilr_inverse i (fun j => ?_) r
  simp only [inverseIlr, closure, zero_mul, Finset.sum_const_zero, Real.exp_zero]
  refine machineEps_small.trans ?_
  norm_num

end
end PyKrige
