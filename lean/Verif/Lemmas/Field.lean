import Verif.Spec.Field
import Verif.Spec.Best
import Verif.Lemmas.Blue
import Mathlib.Algebra.QuadraticDiscriminant

/-! Lemmas for C70. -/

namespace PyKrige
noncomputable section
open Spec

variable {P : Type} {dist : P → P → ℝ} {γ : ℝ → ℝ} {f g : P → ℝ} {E E' : ℝ}

theorem contrastVariance_eq {ι : Type} [Fintype ι] (p : ι → P) (c : ι → ℝ) :
    contrastVariance dist γ p c = -quad (semivar γ fun i j => dist (p i) (p j)) c := rfl

/-- The table of data and prediction point, away from the data. -/
theorem semivar_option {n : ℕ} (hd : ∀ p q, dist p q = dist q p) (x : Fin n → P) (p : P) :
    (semivar γ fun i j : Option (Fin n) => dist (i.elim p x) (j.elim p x)) =
      withPoint (semivar γ fun i j => dist (x i) (x j)) fun i => γ (dist p (x i)) := by
  funext a b
  cases a <;> cases b
  · simp [withPoint, semivar]
  · simp [withPoint, semivar]
  · simp [withPoint, semivar, hd]
  · simp [withPoint, semivar]

/-- The squared error of the best prediction is at most the roughness times the variance. -/
theorem Spec.IsBlue.error_sq_le {n : ℕ} {S : Set (Fin n)} {x : Fin n → P} {p : P} {D : Fin n → List ℝ} {fd : List ℝ}
    {z : Fin n → ℝ} {est var : ℝ} (hd : ∀ p q, dist p q = dist q p)
    (h : IsBlue S (semivar γ fun i j => dist (x i) (x j)) (fun i => γ (dist p (x i))) D fd z est var)
    (hf : RoughAtMost dist γ f E) {β : ℕ → ℝ} {L : ℕ}
    (hz : ∀ i, z i = f (x i) + ∑ l ∈ Finset.range L, β l * (D i).getD l 0) :
    (f p + ∑ l ∈ Finset.range L, β l * fd.getD l 0 - est) ^ 2 ≤ E * var := by
  obtain ⟨w, hw, rfl, rfl⟩ := h.exists_weights
  have h1 := hf (Option (Fin n)) (fun o => o.elim p x) (fun o => o.elim (-1) w)
    (by rw [Fintype.sum_option]; simp [hw.sum_one])
  rw [contrastVariance_eq, semivar_option hd, quad_withPoint, neg_neg, Fintype.sum_option] at h1
  have e : f p + ∑ l ∈ Finset.range L, β l * fd.getD l 0 - ∑ i, w i * z i =
      -((none : Option (Fin n)).elim (-1) w * f ((none : Option (Fin n)).elim p x) +
        ∑ i : Fin n, (some i : Option (Fin n)).elim (-1) w * f ((some i : Option (Fin n)).elim p x)) := by
    simp only [Option.elim]
    have : ∑ i, w i * z i = ∑ i, w i * f (x i) + ∑ l ∈ Finset.range L, β l * fd.getD l 0 := by
      simp only [hz, mul_add, Finset.sum_add_distrib]
      congr 1
      calc ∑ i, w i * ∑ l ∈ Finset.range L, β l * (D i).getD l 0
          = ∑ i, ∑ l ∈ Finset.range L, β l * (w i * (D i).getD l 0) :=
            Finset.sum_congr rfl fun i _ => by
              rw [Finset.mul_sum]; exact Finset.sum_congr rfl fun l _ => by ring
        _ = ∑ l ∈ Finset.range L, ∑ i, β l * (w i * (D i).getD l 0) := Finset.sum_comm
        _ = _ := Finset.sum_congr rfl fun l _ => by rw [← Finset.mul_sum, hw.drift]
    rw [this]; ring
  rw [e, neg_sq]
  exact h1

/-! ### Which fields are smooth -/

theorem roughAtMost_const (hv : ValidOn dist γ) (a : ℝ) (hE : 0 ≤ E) : RoughAtMost dist γ (fun _ => a) E := by
  intro ι _ p c hc
  rw [← Finset.sum_mul, hc]
  simpa using mul_nonneg hE (hv ι p c hc)

theorem Spec.RoughAtMost.mono (hv : ValidOn dist γ) (hf : RoughAtMost dist γ f E) (h : E ≤ E') : RoughAtMost dist γ f E' :=
  fun ι _ p c hc => (hf ι p c hc).trans (mul_le_mul_of_nonneg_right h (hv ι p c hc))

theorem Spec.RoughAtMost.smul (a : ℝ) (hf : RoughAtMost dist γ f E) : RoughAtMost dist γ (fun q => a * f q) (a ^ 2 * E) := by
  intro ι _ p c hc
  have e : ∑ i, c i * (a * f (p i)) = a * ∑ i, c i * f (p i) := by
    rw [Finset.mul_sum]; exact Finset.sum_congr rfl fun i _ => by ring
  rw [e, mul_pow, mul_assoc]
  exact mul_le_mul_of_nonneg_left (hf ι p c hc) (sq_nonneg a)

/-- The square root of the roughness is a seminorm. -/
theorem Spec.RoughAtMost.add (hv : ValidOn dist γ) {a b : ℝ} (ha : 0 ≤ a) (hb : 0 ≤ b) (hf : RoughAtMost dist γ f (a ^ 2))
    (hg : RoughAtMost dist γ g (b ^ 2)) : RoughAtMost dist γ (fun q => f q + g q) ((a + b) ^ 2) := by
  intro ι _ p c hc
  have hV := hv ι p c hc
  have h1 := hf ι p c hc
  have h2 := hg ι p c hc
  set V := contrastVariance dist γ p c
  obtain ⟨r, hr, e⟩ : ∃ r : ℝ, 0 ≤ r ∧ V = r ^ 2 := ⟨Real.sqrt V, Real.sqrt_nonneg _, (Real.sq_sqrt hV).symm⟩
  rw [e] at h1 h2 ⊢
  simp only [mul_add, Finset.sum_add_distrib]
  rw [← mul_pow] at h1 h2 ⊢
  have h3 := abs_le_of_sq_le_sq' h1 (mul_nonneg ha hr)
  have h4 := abs_le_of_sq_le_sq' h2 (mul_nonneg hb hr)
  apply sq_le_sq'
  · nlinarith [h3.1, h4.1]
  · nlinarith [h3.2, h4.2]

theorem semivar_comp_inj {ι κ : Type} (D : κ → κ → ℝ) {s : ι → κ} (hs : Function.Injective s) (i j : ι) :
    semivar γ D (s i) (s j) = semivar γ (fun i j => D (s i) (s j)) i j := by
  unfold semivar
  by_cases h : i = j
  · rw [if_pos h, if_pos (congrArg s h)]
  · rw [if_neg h, if_neg fun e => h (hs e)]

theorem semivar_ne {κ : Type} (D : κ → κ → ℝ) {i j : κ} (h : i ≠ j) : semivar γ D i j = γ (D i j) := by
  unfold semivar; exact if_neg h

/-- The cross variance of two contrasts. -/
theorem cross_sq_le (hv : ValidOn dist γ) (hd : ∀ p q, dist p q = dist q p) {ι κ : Type} [Fintype ι] [Fintype κ]
    (p : ι → P) (q : κ → P) {c : ι → ℝ} {a : κ → ℝ} (hc : ∑ i, c i = 0) (ha : ∑ j, a j = 0) :
    (∑ i, c i * ∑ j, a j * γ (dist (p i) (q j))) ^ 2 ≤ contrastVariance dist γ q a * contrastVariance dist γ p c := by
  set A := contrastVariance dist γ q a with hA
  set C := contrastVariance dist γ p c with hC
  set B := ∑ i, c i * ∑ j, a j * γ (dist (p i) (q j)) with hB
  have key : ∀ t : ℝ, 0 ≤ A * (t * t) + (-2 * B) * t + C := by
    intro t
    have h := hv (ι ⊕ κ) (Sum.elim p q) (Sum.elim c fun j => t * a j)
      (by rw [Fintype.sum_sum_type]; simp [hc, ← Finset.mul_sum, ha])
    have e : contrastVariance dist γ (Sum.elim p q) (Sum.elim c fun j => t * a j) = A * (t * t) + (-2 * B) * t + C := by
      simp only [contrastVariance, Fintype.sum_sum_type, Sum.elim_inl, Sum.elim_inr, Finset.sum_add_distrib]
      have e1 : ∑ i, ∑ j, c i * c j * semivar γ (fun i j => dist (Sum.elim p q i) (Sum.elim p q j)) (Sum.inl i) (Sum.inl j) =
          -C := by
        rw [hC, contrastVariance, neg_neg]
        refine Finset.sum_congr rfl fun i _ => Finset.sum_congr rfl fun j _ => ?_
        rw [semivar_comp_inj _ Sum.inl_injective]; rfl
      have e2 : ∑ i, ∑ j, c i * (t * a j) *
          semivar γ (fun i j => dist (Sum.elim p q i) (Sum.elim p q j)) (Sum.inl i) (Sum.inr j) = t * B := by
        rw [hB, Finset.mul_sum]
        refine Finset.sum_congr rfl fun i _ => ?_
        rw [Finset.mul_sum, Finset.mul_sum]
        refine Finset.sum_congr rfl fun j _ => ?_
        rw [semivar_ne _ (by simp), Sum.elim_inl, Sum.elim_inr]; ring
      have e3 : ∑ j, ∑ i, t * a j * c i *
          semivar γ (fun i j => dist (Sum.elim p q i) (Sum.elim p q j)) (Sum.inr j) (Sum.inl i) = t * B := by
        rw [← e2, Finset.sum_comm]
        refine Finset.sum_congr rfl fun i _ => Finset.sum_congr rfl fun j _ => ?_
        rw [semivar_ne _ (by simp), semivar_ne _ (by simp), Sum.elim_inl, Sum.elim_inr, hd (q j) (p i)]; ring
      have e4 : ∑ i, ∑ j, t * a i * (t * a j) *
          semivar γ (fun i j => dist (Sum.elim p q i) (Sum.elim p q j)) (Sum.inr i) (Sum.inr j) = -(A * (t * t)) := by
        rw [hA, contrastVariance, neg_mul, neg_neg, Finset.sum_mul]
        refine Finset.sum_congr rfl fun i _ => ?_
        rw [Finset.sum_mul]
        refine Finset.sum_congr rfl fun j _ => ?_
        rw [semivar_comp_inj _ Sum.inr_injective]; simp only [Sum.elim_inr]; ring
      rw [e1, e2, e3, e4]; ring
    rwa [e] at h
  have := discrim_le_zero key
  unfold discrim at this
  nlinarith

/-- Sums of variogram functions around fixed places, with coefficients of sum zero. -/
theorem roughAtMost_kernels (hv : ValidOn dist γ) (hd : ∀ p q, dist p q = dist q p) {κ : Type} [Fintype κ] (q : κ → P)
    {a : κ → ℝ} (ha : ∑ j, a j = 0) : RoughAtMost dist γ (fun p => ∑ j, a j * γ (dist p (q j))) (contrastVariance dist γ q a) :=
  fun _ _ p _ hc => cross_sq_le hv hd p q hc ha

/-- For every best prediction there is a field for which the bound is attained. -/
theorem Spec.IsBlue.exists_worst {n : ℕ} {S : Set (Fin n)} {x : Fin n → P} {p : P} {z : Fin n → ℝ} {est var : ℝ}
    (hv : ValidOn dist γ) (hd : ∀ p q, dist p q = dist q p) (h0 : ∀ q, γ (dist q q) = 0)
    (h : IsBlue S (semivar γ fun i j => dist (x i) (x j)) (fun i => γ (dist p (x i))) (fun _ => []) [] z est var) :
    ∃ w, Unbiased S (fun _ => []) [] w ∧
      var = errorVariance (semivar γ fun i j => dist (x i) (x j)) (fun i => γ (dist p (x i))) w ∧
      ∃ f, RoughAtMost dist γ f var ∧ f p - ∑ i, w i * f (x i) = var := by
  obtain ⟨w, hw, -, hvar⟩ := h.exists_weights
  refine ⟨w, hw, hvar, fun r => ∑ o : Option (Fin n), (o.elim (-1) w) * γ (dist r (o.elim p x)), ?_, ?_⟩
  · have := roughAtMost_kernels hv hd (fun o : Option (Fin n) => o.elim p x) (a := fun o => o.elim (-1) w)
      (by rw [Fintype.sum_option]; simp [hw.sum_one])
    rwa [contrastVariance_eq, semivar_option hd, quad_withPoint, neg_neg, ← hvar] at this
  · rw [hvar, errorVariance]
    have e : ∀ i j, semivar γ (fun i j => dist (x i) (x j)) i j = γ (dist (x i) (x j)) := fun i j => by
      unfold semivar
      split
      · next h => subst h; rw [h0]
      · rfl
    simp only [Fintype.sum_option, Option.elim, e, h0, hd _ p, mul_add, Finset.sum_add_distrib, Finset.mul_sum]
    have e1 : ∑ i, w i * (-1 * γ (dist p (x i))) = -∑ i, w i * γ (dist p (x i)) := by
      rw [← Finset.sum_neg_distrib]; exact Finset.sum_congr rfl fun i _ => by ring
    have e2 : ∑ i, ∑ j, w i * (w j * γ (dist (x i) (x j))) = ∑ i, ∑ j, w i * w j * γ (dist (x i) (x j)) :=
      Finset.sum_congr rfl fun i _ => Finset.sum_congr rfl fun j _ => by ring
    rw [e1, e2, ← Finset.mul_sum]
    ring

/-- Two best predictions of a smooth field from the same data agree. -/
theorem errorVariance_mid {n : ℕ} (G : Fin n → Fin n → ℝ) (g u w : Fin n → ℝ) :
    errorVariance G g u + errorVariance G g w - 2 * errorVariance G g (fun i => (u i + w i) / 2) =
      -(1 / 2) * quad G fun i => u i - w i := by
  have e1 : ∑ i, u i * g i + ∑ i, w i * g i = 2 * ∑ i, (u i + w i) / 2 * g i := by
    rw [Finset.mul_sum, ← Finset.sum_add_distrib]
    exact Finset.sum_congr rfl fun i _ => by ring
  have e2 : ∑ i, ∑ j, u i * u j * G i j + ∑ i, ∑ j, w i * w j * G i j -
      2 * ∑ i, ∑ j, (u i + w i) / 2 * ((u j + w j) / 2) * G i j = (1 / 2) * quad G fun i => u i - w i := by
    simp only [quad, Finset.mul_sum, ← Finset.sum_add_distrib, ← Finset.sum_sub_distrib]
    exact Finset.sum_congr rfl fun i _ => Finset.sum_congr rfl fun j _ => by ring
  unfold errorVariance
  linarith

theorem Spec.IsBlue.same_smooth {n : ℕ} {S : Set (Fin n)} {x : Fin n → P} {g : Fin n → ℝ} {z z' : Fin n → ℝ}
    {est var est' var' : ℝ} (hf : RoughAtMost dist γ f E) (hE : 0 ≤ E)
    (h : IsBlue S (semivar γ fun i j => dist (x i) (x j)) g (fun _ => []) [] z est var)
    (h' : IsBlue S (semivar γ fun i j => dist (x i) (x j)) g (fun _ => []) [] z' est' var')
    {w : Fin n → ℝ} (hw : Unbiased S (fun _ => []) [] w) (hvar : var = errorVariance (semivar γ fun i j => dist (x i) (x j)) g w)
    (hz' : ∀ i, z' i = f (x i)) : var' = var ∧ est' = ∑ i, w i * f (x i) := by
  obtain ⟨u, hu, he', hvar'⟩ := h'.exists_weights
  have h1 : var ≤ var' := by rw [hvar']; exact h.best u hu
  have h2 : var' ≤ var := by rw [hvar]; exact h'.best w hw
  refine ⟨le_antisymm h2 h1, ?_⟩
  have hm : Unbiased S (fun _ => []) [] (fun i => (u i + w i) / 2) := by
    refine ⟨fun i hi => by rw [hu.support i hi, hw.support i hi]; norm_num, ?_, fun l => by simp⟩
    rw [← Finset.sum_div, Finset.sum_add_distrib, hu.sum_one, hw.sum_one]; norm_num
  have h3 := h.best _ hm
  have h4 := errorVariance_mid (semivar γ fun i j => dist (x i) (x j)) g u w
  rw [← hvar, ← hvar'] at h4
  have h5 : contrastVariance dist γ x (fun i => u i - w i) ≤ 0 := by
    rw [contrastVariance_eq]; linarith
  have h6 := hf (Fin n) x (fun i => u i - w i) (by rw [Finset.sum_sub_distrib, hu.sum_one, hw.sum_one, sub_self])
  have h7 : (∑ i, (u i - w i) * f (x i)) ^ 2 ≤ 0 := h6.trans (mul_nonpos_of_nonneg_of_nonpos hE h5)
  have h8 : ∑ i, (u i - w i) * f (x i) = 0 := pow_eq_zero_iff (two_ne_zero) |>.1 (le_antisymm h7 (sq_nonneg _))
  rw [he']
  simp only [hz']
  simp only [sub_mul, Finset.sum_sub_distrib] at h8
  linarith

end
end PyKrige
