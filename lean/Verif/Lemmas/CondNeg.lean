import Mathlib.Analysis.Matrix.Order
import Mathlib.Analysis.SpecialFunctions.Exp
import Mathlib.Analysis.Normed.Algebra.Exponential
import Mathlib.Analysis.SpecialFunctions.Exponential
import Mathlib.Topology.Instances.Matrix
import Mathlib.LinearAlgebra.Matrix.NonsingularInverse
import Verif.Spec.Valid

/-!
Conditionally negative semidefinite tables: algebra and Schoenberg's theorem.
-/

set_option linter.unusedSectionVars false

namespace PyKrige
noncomputable section
open Matrix Spec

variable {ι : Type} [Fintype ι]

/-- The quadratic form of a table. -/
def quad (G : ι → ι → ℝ) (c : ι → ℝ) : ℝ := ∑ i, ∑ j, c i * c j * G i j

theorem quad_dot (G : ι → ι → ℝ) (c : ι → ℝ) : quad G c = c ⬝ᵥ (Matrix.of G *ᵥ c) := by
  simp only [quad, dotProduct, mulVec, Matrix.of_apply, Finset.mul_sum]
  exact Finset.sum_congr rfl fun i _ => Finset.sum_congr rfl fun j _ => by ring

theorem quad_add (G H : ι → ι → ℝ) (c : ι → ℝ) : quad (fun i j => G i j + H i j) c = quad G c + quad H c := by
  simp only [quad, mul_add, Finset.sum_add_distrib]

theorem quad_smul (a : ℝ) (G : ι → ι → ℝ) (c : ι → ℝ) : quad (fun i j => a * G i j) c = a * quad G c := by
  simp only [quad, Finset.mul_sum]
  exact Finset.sum_congr rfl fun i _ => Finset.sum_congr rfl fun j _ => by ring

theorem quad_sum {κ : Type} (s : Finset κ) (G : κ → ι → ι → ℝ) (c : ι → ℝ) :
    quad (fun i j => ∑ k ∈ s, G k i j) c = ∑ k ∈ s, quad (G k) c := by
  simp only [quad, Finset.mul_sum]
  rw [Finset.sum_comm]
  conv_rhs => rw [Finset.sum_comm]
  rw [Finset.sum_comm]
  refine Finset.sum_congr rfl fun i _ => ?_
  rw [Finset.sum_comm]

theorem quad_left (u : ι → ℝ) (c : ι → ℝ) : quad (fun i _ => u i) c = (∑ i, c i * u i) * ∑ i, c i := by
  rw [Finset.sum_mul_sum]
  exact Finset.sum_congr rfl fun i _ => Finset.sum_congr rfl fun j _ => by ring

theorem quad_right (u : ι → ℝ) (c : ι → ℝ) : quad (fun _ j => u j) c = (∑ i, c i) * ∑ i, c i * u i := by
  rw [Finset.sum_mul_sum]
  exact Finset.sum_congr rfl fun i _ => Finset.sum_congr rfl fun j _ => by ring

theorem quad_const (a : ℝ) (c : ι → ℝ) : quad (fun _ _ => a) c = a * (∑ i, c i) ^ 2 := by
  rw [quad_left, ← Finset.sum_mul]; ring

open Classical in
theorem quad_diag (a : ℝ) (c : ι → ℝ) : quad (fun i j => if i = j then a else 0) c = a * ∑ i, c i ^ 2 := by
  simp only [quad, mul_ite, mul_zero, Finset.sum_ite_eq, Finset.mem_univ, if_true, Finset.mul_sum]
  exact Finset.sum_congr rfl fun i _ => by ring

/-- Positive semidefinite tables. -/
def PSD (K : ι → ι → ℝ) : Prop := (Matrix.of K).PosSemidef

theorem psd_iff {K : ι → ι → ℝ} : PSD K ↔ (∀ i j, K i j = K j i) ∧ ∀ c, 0 ≤ quad K c := by
  unfold PSD
  rw [posSemidef_iff_dotProduct_mulVec]
  refine and_congr ⟨fun h i j => ?_, fun h => ?_⟩ (forall_congr' fun c => by rw [quad_dot]; rfl)
  · have := congrFun (congrFun h j) i
    simpa [Matrix.conjTranspose_apply] using this
  · ext i j; simp [Matrix.conjTranspose_apply, h i j]

theorem PSD.pow {K : ι → ι → ℝ} (h : PSD K) (k : ℕ) : PSD fun i j => K i j ^ k := by
  induction k with
  | zero =>
    rw [psd_iff]
    refine ⟨fun i j => by simp, fun c => ?_⟩
    simp only [pow_zero]
    rw [quad_const, one_mul]; positivity
  | succ k ih =>
    have := Matrix.PosSemidef.hadamard ih h
    have e : Matrix.of (fun i j => K i j ^ (k + 1)) = Matrix.of (fun i j => K i j ^ k) ⊙ Matrix.of K := by
      ext i j; simp [pow_succ]
    unfold PSD
    rw [e]; exact this

/-- The series of the entrywise exponential. -/
theorem quad_exp_hasSum (K : ι → ι → ℝ) (s : ℝ) (c : ι → ℝ) :
    HasSum (fun k : ℕ => s ^ k / k.factorial * quad (fun i j => K i j ^ k) c)
      (quad (fun i j => Real.exp (s * K i j)) c) := by
  have h : ∀ i j, HasSum (fun k : ℕ => c i * c j * ((s * K i j) ^ k / k.factorial))
      (c i * c j * Real.exp (s * K i j)) := fun i j => by
    rw [Real.exp_eq_exp_ℝ]
    exact (NormedSpace.expSeries_div_hasSum_exp (s * K i j)).mul_left _
  have := hasSum_sum fun i (_ : i ∈ Finset.univ) => hasSum_sum fun j (_ : j ∈ Finset.univ) => h i j
  refine this.congr_fun fun k => ?_
  simp only [quad, Finset.mul_sum, mul_pow]
  exact Finset.sum_congr rfl fun i _ => Finset.sum_congr rfl fun j _ => by ring

theorem PSD.exp {K : ι → ι → ℝ} (h : PSD K) {s : ℝ} (hs : 0 ≤ s) : PSD fun i j => Real.exp (s * K i j) := by
  rw [psd_iff]
  refine ⟨fun i j => by rw [(psd_iff.1 h).1 i j], fun c => ?_⟩
  exact (quad_exp_hasSum K s c).nonneg fun k => mul_nonneg (by positivity) ((psd_iff.1 (h.pow k)).2 c)

/-- If the form of the entrywise exponential vanishes at one vector for one `s > 0`, it does for all `s`. -/
theorem PSD.exp_zero {K : ι → ι → ℝ} (h : PSD K) {s : ℝ} (hs : 0 < s) {c : ι → ℝ}
    (h0 : quad (fun i j => Real.exp (s * K i j)) c = 0) (t : ℝ) :
    quad (fun i j => Real.exp (t * K i j)) c = 0 := by
  have hsum := quad_exp_hasSum K s c
  rw [h0] at hsum
  have hk : ∀ k, quad (fun i j => K i j ^ k) c = 0 := fun k => by
    have := (hasSum_zero_iff_of_nonneg fun k => mul_nonneg (by positivity : 0 ≤ s ^ k / k.factorial)
      ((psd_iff.1 (h.pow k)).2 c)).1 hsum
    have := congrFun this k
    rcases mul_eq_zero.1 this with h1 | h1
    · exact absurd h1 (by positivity)
    · exact h1
  have ht := quad_exp_hasSum K t c
  simp only [hk, mul_zero] at ht
  exact ht.unique hasSum_zero

section schoenberg

/-- The table centred at `a`. -/
theorem Spec.CondNeg.centred {G : ι → ι → ℝ} (h : CondNeg G) (a : ι) :
    PSD fun i j => G i a + G a j - G i j - G a a := by
  classical
  rw [psd_iff]
  refine ⟨fun i j => by rw [h.symm i a, h.symm a j, h.symm i j]; ring, fun c => ?_⟩
  have key := h.contrast (fun i => c i - if i = a then ∑ j, c j else 0) (by simp)
  set S := ∑ j, c j with hS
  have e1 : ∀ i j, (c i - if i = a then S else 0) * (c j - if j = a then S else 0) * G i j =
      c i * c j * G i j - (if j = a then S * (c i * G i j) else 0) - (if i = a then S * (c j * G i j) else 0) +
        (if i = a then (if j = a then S * S * G i j else 0) else 0) := by
    intro i j; split_ifs <;> ring
  have e2 : quad (fun i j => G i a + G a j - G i j - G a a) c =
      -(∑ i, ∑ j, (c i - if i = a then S else 0) * (c j - if j = a then S else 0) * G i j) := by
    simp only [e1, Finset.sum_add_distrib, Finset.sum_sub_distrib, Finset.sum_ite_eq', Finset.mem_univ, if_true,
      ← Finset.mul_sum]
    have e3 : ∀ i, (∑ j, if i = a then S * (c j * G i j) else 0) = if i = a then S * ∑ j, c j * G i j else 0 := by
      intro i; split_ifs <;> simp [Finset.mul_sum]
    have e4 : ∀ i, (∑ j, if i = a then (if j = a then S * S * G i j else 0) else 0) =
        if i = a then S * S * G i a else 0 := by
      intro i; split_ifs <;> simp
    simp only [e3, e4, Finset.sum_ite_eq', Finset.mem_univ, if_true]
    have e5 : quad (fun i j => G i a + G a j - G i j - G a a) c =
        quad (fun i _ => G i a) c + quad (fun _ j => G a j) c - quad G c - quad (fun _ _ => G a a) c := by
      simp only [quad, ← Finset.sum_add_distrib, ← Finset.sum_sub_distrib]
      exact Finset.sum_congr rfl fun i _ => Finset.sum_congr rfl fun j _ => by ring
    rw [e5, quad_left, quad_right, quad_const, ← hS]
    unfold quad
    ring
  rw [e2]
  linarith

theorem quad_exp_split (G : ι → ι → ℝ) (h : ∀ i j, G i j = G j i) (a : ι) (t : ℝ) (c : ι → ℝ) :
    quad (fun i j => Real.exp (-(t * G i j))) c = Real.exp (t * G a a) * 
      quad (fun i j => Real.exp (t * (G i a + G a j - G i j - G a a))) fun i => c i * Real.exp (-(t * G i a)) := by
  simp only [quad, Finset.mul_sum]
  refine Finset.sum_congr rfl fun i _ => Finset.sum_congr rfl fun j _ => ?_
  have : Real.exp (-(t * G i j)) = Real.exp (t * G a a) * (Real.exp (-(t * G i a)) * Real.exp (-(t * G j a)) *
      Real.exp (t * (G i a + G a j - G i j - G a a))) := by
    rw [← Real.exp_add, ← Real.exp_add, ← Real.exp_add, h a j]
    congr 1; ring
  rw [this]; ring

/-- Schoenberg: the exponential of a valid variogram is a covariance. -/
theorem Spec.CondNeg.exp {G : ι → ι → ℝ} (h : CondNeg G) {t : ℝ} (ht : 0 ≤ t) :
    PSD fun i j => Real.exp (-(t * G i j)) := by
  rw [psd_iff]
  refine ⟨fun i j => by rw [h.symm i j], fun c => ?_⟩
  rcases isEmpty_or_nonempty ι with _ | ⟨⟨a⟩⟩
  · simp [quad]
  · rw [quad_exp_split G h.symm a]
    exact mul_nonneg (Real.exp_pos _).le ((psd_iff.1 ((h.centred a).exp ht)).2 _)

open Filter Topology in
/-- Strict version: positive off the diagonal, zero on it. -/
theorem Spec.CondNeg.exp_pos {G : ι → ι → ℝ} (h : CondNeg G) (h0 : ∀ i, G i i = 0) (hpos : ∀ i j, i ≠ j → 0 < G i j)
    {t : ℝ} (ht : 0 < t) {c : ι → ℝ} (hc : c ≠ 0) : 0 < quad (fun i j => Real.exp (-(t * G i j))) c := by
  classical
  refine lt_of_le_of_ne ((psd_iff.1 (h.exp ht.le)).2 c) fun he => ?_
  obtain ⟨a, ha⟩ := Function.ne_iff.1 hc
  have hz : ∀ u, quad (fun i j => Real.exp (u * (G i a + G a j - G i j - G a a)))
      (fun i => c i * Real.exp (-(t * G i a))) = 0 := by
    refine fun u => (h.centred a).exp_zero ht ?_ u
    have := quad_exp_split G h.symm a t c
    rw [← he] at this
    rcases mul_eq_zero.1 this.symm with h1 | h1
    · exact absurd h1 (Real.exp_pos _).ne'
    · exact h1
  -- for large `u` the matrix is close to the identity
  have hlim : Tendsto (fun u : ℝ => Matrix.of fun i j => Real.exp (-(u * G i j))) atTop (𝓝 (1 : Matrix ι ι ℝ)) := by
    refine tendsto_pi_nhds.2 fun i => tendsto_pi_nhds.2 fun j => ?_
    by_cases hij : i = j
    · subst hij
      simp [h0]
    · rw [Matrix.one_apply_ne hij]
      exact Real.tendsto_exp_neg_atTop_nhds_zero.comp (tendsto_id.atTop_mul_const (hpos i j hij))
  have hdet := (Continuous.matrix_det (A := fun M : Matrix ι ι ℝ => M) continuous_id).continuousAt.tendsto.comp hlim
  rw [Matrix.det_one] at hdet
  obtain ⟨u, hu, hu1⟩ := ((hdet.eventually_ne one_ne_zero).and (eventually_gt_atTop (0 : ℝ))).exists
  -- at this `u` the form is definite, yet vanishes
  set d : ι → ℝ := fun i => c i * Real.exp (-(t * G i a)) * Real.exp (u * G i a) with hd
  have hq : quad (fun i j => Real.exp (-(u * G i j))) d = 0 := by
    rw [quad_exp_split G h.symm a u d]
    have : (fun i => d i * Real.exp (-(u * G i a))) = fun i => c i * Real.exp (-(t * G i a)) := by
      funext i
      rw [hd, mul_assoc (c i * _), ← Real.exp_add]
      simp
    rw [this, hz, mul_zero]
  have hP : (Matrix.of fun i j => Real.exp (-(u * G i j))).PosSemidef := h.exp hu1.le
  have hm : (Matrix.of fun i j => Real.exp (-(u * G i j))) *ᵥ d = 0 := by
    rw [quad_dot] at hq
    exact (hP.dotProduct_mulVec_zero_iff d).1 hq
  have hd0 : d = 0 := Matrix.eq_zero_of_mulVec_eq_zero hu hm
  have := congrFun hd0 a
  simp only [hd, Pi.zero_apply, mul_eq_zero, (Real.exp_pos _).ne', or_false] at this
  exact ha this

end schoenberg

end
end PyKrige
