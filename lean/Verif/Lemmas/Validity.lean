import Verif.Lemmas.PowerCND
import Verif.Lemmas.Balls
import Verif.Model.VariogramModels

/-!
The built-in variograms (but the hole effect) are valid in up to three dimensions.
-/

set_option linter.unusedSectionVars false
set_option linter.unusedVariables false

namespace PyKrige
noncomputable section
open Spec

section algebra
variable {ι κ : Type} [Fintype ι] [Fintype κ]

theorem condNeg_iff {G : ι → ι → ℝ} : CondNeg G ↔ (∀ i j, G i j = G j i) ∧ ∀ c, ∑ i, c i = 0 → quad G c ≤ 0 :=
  ⟨fun h => ⟨h.symm, h.contrast⟩, fun h => ⟨h.1, h.2⟩⟩

theorem strictCondNeg_iff {G : ι → ι → ℝ} :
    StrictCondNeg G ↔ (∀ i j, G i j = G j i) ∧ ∀ c, ∑ i, c i = 0 → c ≠ 0 → quad G c < 0 :=
  ⟨fun h => ⟨h.symm, h.contrast⟩, fun h => ⟨h.1, h.2⟩⟩

theorem Spec.StrictCondNeg.condNeg {G : ι → ι → ℝ} (h : StrictCondNeg G) : CondNeg G := by
  refine ⟨h.symm, fun c hc => ?_⟩
  by_cases h0 : c = 0
  · subst h0; simp
  · exact (h.contrast c hc h0).le

theorem Spec.CondNeg.smul {G : ι → ι → ℝ} (h : CondNeg G) {a : ℝ} (ha : 0 ≤ a) : CondNeg fun i j => a * G i j := by
  rw [condNeg_iff] at h ⊢
  refine ⟨fun i j => by rw [h.1], fun c hc => ?_⟩
  rw [quad_smul]
  exact mul_nonpos_of_nonneg_of_nonpos ha (h.2 c hc)

theorem Spec.StrictCondNeg.smul {G : ι → ι → ℝ} (h : StrictCondNeg G) {a : ℝ} (ha : 0 < a) :
    StrictCondNeg fun i j => a * G i j := by
  rw [strictCondNeg_iff] at h ⊢
  refine ⟨fun i j => by rw [h.1], fun c hc hne => ?_⟩
  rw [quad_smul]
  exact mul_neg_of_pos_of_neg ha (h.2 c hc hne)

/-- The sill minus a covariance. -/
theorem PSD.sub {K : ι → ι → ℝ} (h : PSD K) (a : ℝ) : CondNeg fun i j => a - K i j := by
  rw [condNeg_iff]
  have h' := psd_iff.1 h
  refine ⟨fun i j => by rw [h'.1], fun c hc => ?_⟩
  have : quad (fun i j => a - K i j) c = quad (fun _ _ => a) c + (-1) * quad K c := by
    rw [← quad_smul, ← quad_add]
    congr 1; funext i j; ring
  rw [this, quad_const, hc]
  have := h'.2 c
  nlinarith

theorem strict_sub {K : ι → ι → ℝ} (hs : ∀ i j, K i j = K j i) (h : ∀ c, c ≠ 0 → 0 < quad K c) (a : ℝ) :
    StrictCondNeg fun i j => a - K i j := by
  rw [strictCondNeg_iff]
  refine ⟨fun i j => by rw [hs], fun c hc hne => ?_⟩
  have : quad (fun i j => a - K i j) c = quad (fun _ _ => a) c + (-1) * quad K c := by
    rw [← quad_smul, ← quad_add]
    congr 1; funext i j; ring
  rw [this, quad_const, hc]
  have := h c hne
  nlinarith

/-- Several locations may be the same. -/
theorem Spec.CondNeg.comap {G : κ → κ → ℝ} (h : CondNeg G) (f : ι → κ) : CondNeg fun i j => G (f i) (f j) := by
  classical
  rw [condNeg_iff] at h ⊢
  refine ⟨fun i j => h.1 _ _, fun c hc => ?_⟩
  set b : κ → ℝ := fun k => ∑ i, if f i = k then c i else 0 with hb
  have h1 : ∀ φ : κ → ℝ, ∑ k, b k * φ k = ∑ i, c i * φ (f i) := fun φ => by
    simp only [hb, Finset.sum_mul]
    rw [Finset.sum_comm]
    refine Finset.sum_congr rfl fun i _ => ?_
    simp [ite_mul]
  have h2 : quad (fun i j => G (f i) (f j)) c = quad G b := by
    unfold quad
    have e1 : ∀ k, ∑ l, b k * b l * G k l = b k * ∑ l, b l * G k l := fun k => by
      rw [Finset.mul_sum]; exact Finset.sum_congr rfl fun l _ => by ring
    simp only [e1, h1 fun l => G _ l]
    rw [h1 fun k => ∑ i, c i * G k (f i)]
    refine Finset.sum_congr rfl fun i _ => ?_
    rw [Finset.mul_sum]; exact Finset.sum_congr rfl fun l _ => by ring
  rw [h2]
  refine h.2 b ?_
  have := h1 fun _ => 1
  simp only [mul_one] at this
  rw [this, hc]

theorem Spec.StrictCondNeg.comap {G : κ → κ → ℝ} (h : StrictCondNeg G) {f : ι → κ} (hf : Function.Injective f) :
    StrictCondNeg fun i j => G (f i) (f j) := by
  classical
  rw [strictCondNeg_iff] at h ⊢
  refine ⟨fun i j => h.1 _ _, fun c hc hne => ?_⟩
  set b : κ → ℝ := fun k => ∑ i, if f i = k then c i else 0 with hb
  have h1 : ∀ φ : κ → ℝ, ∑ k, b k * φ k = ∑ i, c i * φ (f i) := fun φ => by
    simp only [hb, Finset.sum_mul]
    rw [Finset.sum_comm]
    refine Finset.sum_congr rfl fun i _ => ?_
    simp [ite_mul]
  have h2 : quad (fun i j => G (f i) (f j)) c = quad G b := by
    unfold quad
    have e1 : ∀ k, ∑ l, b k * b l * G k l = b k * ∑ l, b l * G k l := fun k => by
      rw [Finset.mul_sum]; exact Finset.sum_congr rfl fun l _ => by ring
    simp only [e1, h1 fun l => G _ l]
    rw [h1 fun k => ∑ i, c i * G k (f i)]
    refine Finset.sum_congr rfl fun i _ => ?_
    rw [Finset.mul_sum]; exact Finset.sum_congr rfl fun l _ => by ring
  rw [h2]
  refine h.2 b ?_ ?_
  · have := h1 fun _ => 1
    simp only [mul_one] at this
    rw [this, hc]
  · intro hb0
    apply hne
    funext i
    have : b (f i) = c i := by simp [hb, hf.eq_iff]
    rw [← this, hb0]; rfl

open Classical in
/-- Adding a nugget. -/
theorem semivar_quad {γ : ℝ → ℝ} {d : ι → ι → ℝ} {B : ι → ι → ℝ} {c0 : ℝ} (h0 : ∀ i, B i i = 0)
    (h : ∀ i j, i ≠ j → γ (d i j) = B i j + c0) {c : ι → ℝ} (hc : ∑ i, c i = 0) :
    quad (semivar γ d) c = quad B c - c0 * ∑ i, c i ^ 2 := by
  have e : semivar γ d = fun i j => (B i j + c0) + (if i = j then -c0 else 0) := by
    funext i j
    unfold semivar
    split_ifs with hij
    · subst hij; rw [h0]; ring
    · rw [h i j hij]; ring
  rw [e, quad_add (fun i j => B i j + c0), quad_add, quad_const, quad_diag, hc]
  ring

theorem semivar_symm {γ : ℝ → ℝ} {d : ι → ι → ℝ} (hd : ∀ i j, d i j = d j i) (i j : ι) :
    semivar γ d i j = semivar γ d j i := by
  unfold semivar
  by_cases h : i = j
  · subst h; rfl
  · rw [if_neg h, if_neg (Ne.symm h), hd]

theorem condNeg_semivar {γ : ℝ → ℝ} {d : ι → ι → ℝ} {B : ι → ι → ℝ} {c0 : ℝ} (hd : ∀ i j, d i j = d j i)
    (h0 : ∀ i, B i i = 0) (h : ∀ i j, i ≠ j → γ (d i j) = B i j + c0) (hc0 : 0 ≤ c0) (hB : CondNeg B) :
    CondNeg (semivar γ d) := by
  rw [condNeg_iff] at hB ⊢
  refine ⟨semivar_symm hd, fun c hc => ?_⟩
  rw [semivar_quad h0 h hc]
  have := hB.2 c hc
  have : 0 ≤ ∑ i, c i ^ 2 := Finset.sum_nonneg fun i _ => sq_nonneg _
  nlinarith

theorem strictCondNeg_semivar {γ : ℝ → ℝ} {d : ι → ι → ℝ} {B : ι → ι → ℝ} {c0 : ℝ} (hd : ∀ i j, d i j = d j i)
    (h0 : ∀ i, B i i = 0) (h : ∀ i j, i ≠ j → γ (d i j) = B i j + c0) (hc0 : 0 ≤ c0) (hB : CondNeg B)
    (hs : StrictCondNeg B ∨ 0 < c0) : StrictCondNeg (semivar γ d) := by
  rw [condNeg_iff] at hB
  rw [strictCondNeg_iff]
  refine ⟨semivar_symm hd, fun c hc hne => ?_⟩
  rw [semivar_quad h0 h hc]
  have h1 := hB.2 c hc
  have h2 : 0 ≤ ∑ i, c i ^ 2 := Finset.sum_nonneg fun i _ => sq_nonneg _
  rcases hs with hs | hs
  · have := (strictCondNeg_iff.1 hs).2 c hc hne
    nlinarith
  · have : 0 < ∑ i, c i ^ 2 := by
      obtain ⟨i, hi⟩ := Function.ne_iff.1 hne
      exact Finset.sum_pos' (fun i _ => sq_nonneg _) ⟨i, Finset.mem_univ _, by
        have hi : c i ≠ 0 := hi
        positivity⟩
    nlinarith

end algebra

section builtin
variable {ι : Type} [Fintype ι]

/-- `γ` is a valid variogram in three dimensions. -/
def Valid3 (γ : ℝ → ℝ) : Prop :=
  ∀ (ι : Type) [Fintype ι] (x : ι → E3), CondNeg (semivar γ fun i j => ‖x i - x j‖)

/-- ... and separates locations. -/
def StrictlyValid3 (γ : ℝ → ℝ) : Prop :=
  ∀ (ι : Type) [Fintype ι] (x : ι → E3), Function.Injective x → StrictCondNeg (semivar γ fun i j => ‖x i - x j‖)

/-- ... even at one place. -/
def StronglyValid3 (γ : ℝ → ℝ) : Prop :=
  ∀ (ι : Type) [Fintype ι] (x : ι → E3), StrictCondNeg (semivar γ fun i j => ‖x i - x j‖)

theorem linear_valid {a c : ℝ} (ha : 0 ≤ a) (hc : 0 ≤ c) : Valid3 (linearFormula a c) := fun ι _ x =>
  condNeg_semivar (fun i j => norm_sub_rev _ _) (B := fun i j => a * ‖x i - x j‖) (by simp)
    (fun i j _ => rfl) hc ((condNeg_dist x).smul ha)

theorem linear_strict {a c : ℝ} (ha : 0 < a) (hc : 0 ≤ c) : StrictlyValid3 (linearFormula a c) := fun ι _ x hx =>
  strictCondNeg_semivar (fun i j => norm_sub_rev _ _) (B := fun i j => a * ‖x i - x j‖) (by simp)
    (fun i j _ => rfl) hc ((condNeg_dist x).smul ha.le) (Or.inl ((strictCondNeg_dist hx).smul ha))

theorem linear_strong {a c : ℝ} (ha : 0 ≤ a) (hc : 0 < c) : StronglyValid3 (linearFormula a c) := fun ι _ x =>
  strictCondNeg_semivar (fun i j => norm_sub_rev _ _) (B := fun i j => a * ‖x i - x j‖) (by simp)
    (fun i j _ => rfl) hc.le ((condNeg_dist x).smul ha) (Or.inr hc)

variable {a p c : ℝ}

theorem power_valid (ha : 0 ≤ a) (h0 : 0 < p) (h2 : p < 2) (hc : 0 ≤ c) : Valid3 (powerFormula a p c) := fun ι _ x =>
  condNeg_semivar (fun i j => norm_sub_rev _ _) (B := fun i j => a * ‖x i - x j‖ ^ p)
    (by simp [Real.zero_rpow h0.ne']) (fun i j _ => rfl) hc ((condNeg_dist_rpow x h0 h2).smul ha)

theorem power_strict (ha : 0 < a) (h0 : 0 < p) (h2 : p < 2) (hc : 0 ≤ c) : StrictlyValid3 (powerFormula a p c) :=
  fun ι _ x hx => strictCondNeg_semivar (fun i j => norm_sub_rev _ _) (B := fun i j => a * ‖x i - x j‖ ^ p)
    (by simp [Real.zero_rpow h0.ne']) (fun i j _ => rfl) hc ((condNeg_dist_rpow x h0 h2).smul ha.le)
    (Or.inl ((strictCondNeg_dist_rpow hx h0 h2).smul ha))

theorem power_strong (ha : 0 ≤ a) (h0 : 0 < p) (h2 : p < 2) (hc : 0 < c) : StronglyValid3 (powerFormula a p c) :=
  fun ι _ x => strictCondNeg_semivar (fun i j => norm_sub_rev _ _) (B := fun i j => a * ‖x i - x j‖ ^ p)
    (by simp [Real.zero_rpow h0.ne']) (fun i j _ => rfl) hc.le ((condNeg_dist_rpow x h0 h2).smul ha) (Or.inr hc)

theorem exp_form {G : ι → ι → ℝ} (h : CondNeg G) {t : ℝ} (ht : 0 ≤ t) :
    CondNeg fun i j => 1 - Real.exp (-(t * G i j)) := (h.exp ht).sub 1

theorem exp_form_strict {G : ι → ι → ℝ} (h : CondNeg G) (h0 : ∀ i, G i i = 0) (hp : ∀ i j, i ≠ j → 0 < G i j)
    {t : ℝ} (ht : 0 < t) : StrictCondNeg fun i j => 1 - Real.exp (-(t * G i j)) :=
  strict_sub (fun i j => by rw [h.symm]) (fun c hc => h.exp_pos h0 hp ht hc) 1

theorem gaussian_eq {r : ℝ} (d : ℝ) : gaussianFormula a r c d =
    a * (1 - Real.exp (-(1 / (r * 4 / 7) ^ 2 * d ^ 2))) + c := by
  unfold gaussianFormula
  congr 5
  ring

theorem exponential_eq {r : ℝ} (d : ℝ) : exponentialFormula a r c d =
    a * (1 - Real.exp (-(1 / (r / 3) * d))) + c := by
  unfold exponentialFormula
  congr 5
  ring

variable {r : ℝ}

theorem gaussian_valid (ha : 0 ≤ a) (hc : 0 ≤ c) : Valid3 (gaussianFormula a r c) := fun ι _ x =>
  condNeg_semivar (fun i j => norm_sub_rev _ _)
    (B := fun i j => a * (1 - Real.exp (-(1 / (r * 4 / 7) ^ 2 * ‖x i - x j‖ ^ 2)))) (by simp)
    (fun i j _ => gaussian_eq _) hc ((exp_form (condNeg_sqdist x) (by positivity)).smul ha)

theorem gaussian_strict (ha : 0 < a) (hr : 0 < r) (hc : 0 ≤ c) : StrictlyValid3 (gaussianFormula a r c) :=
  fun ι _ x hx => strictCondNeg_semivar (fun i j => norm_sub_rev _ _)
    (B := fun i j => a * (1 - Real.exp (-(1 / (r * 4 / 7) ^ 2 * ‖x i - x j‖ ^ 2)))) (by simp)
    (fun i j _ => gaussian_eq _) hc ((exp_form (condNeg_sqdist x) (by positivity)).smul ha.le)
    (Or.inl ((exp_form_strict (condNeg_sqdist x) (by simp)
      (fun i j hij => by have := norm_pos_iff.2 (sub_ne_zero.2 (hx.ne hij)); positivity) (by positivity)).smul ha))

theorem gaussian_strong (ha : 0 ≤ a) (hc : 0 < c) : StronglyValid3 (gaussianFormula a r c) := fun ι _ x =>
  strictCondNeg_semivar (fun i j => norm_sub_rev _ _)
    (B := fun i j => a * (1 - Real.exp (-(1 / (r * 4 / 7) ^ 2 * ‖x i - x j‖ ^ 2)))) (by simp)
    (fun i j _ => gaussian_eq _) hc.le ((exp_form (condNeg_sqdist x) (by positivity)).smul ha) (Or.inr hc)

theorem exponential_valid (ha : 0 ≤ a) (hr : 0 < r) (hc : 0 ≤ c) : Valid3 (exponentialFormula a r c) := fun ι _ x =>
  condNeg_semivar (fun i j => norm_sub_rev _ _)
    (B := fun i j => a * (1 - Real.exp (-(1 / (r / 3) * ‖x i - x j‖)))) (by simp)
    (fun i j _ => exponential_eq _) hc ((exp_form (condNeg_dist x) (by positivity)).smul ha)

theorem exponential_strict (ha : 0 < a) (hr : 0 < r) (hc : 0 ≤ c) : StrictlyValid3 (exponentialFormula a r c) :=
  fun ι _ x hx => strictCondNeg_semivar (fun i j => norm_sub_rev _ _)
    (B := fun i j => a * (1 - Real.exp (-(1 / (r / 3) * ‖x i - x j‖)))) (by simp)
    (fun i j _ => exponential_eq _) hc ((exp_form (condNeg_dist x) (by positivity)).smul ha.le)
    (Or.inl ((exp_form_strict (condNeg_dist x) (by simp)
      (fun i j hij => norm_pos_iff.2 (sub_ne_zero.2 (hx.ne hij))) (by positivity)).smul ha))

theorem exponential_strong (ha : 0 ≤ a) (hr : 0 < r) (hc : 0 < c) : StronglyValid3 (exponentialFormula a r c) :=
  fun ι _ x => strictCondNeg_semivar (fun i j => norm_sub_rev _ _)
    (B := fun i j => a * (1 - Real.exp (-(1 / (r / 3) * ‖x i - x j‖)))) (by simp)
    (fun i j _ => exponential_eq _) hc.le ((exp_form (condNeg_dist x) (by positivity)).smul ha) (Or.inr hc)

theorem spherical_eq (hr : 0 < r) (x y : E3) : sphericalFormula a r c ‖x - y‖ =
    a * (1 - 6 / (Real.pi * r ^ 3) * overlap (r / 2) x y) + c := by
  have hpi := Real.pi_pos
  unfold sphericalFormula
  split_ifs with h
  · rw [overlap_near (by positivity) (by linarith)]
    field_simp
    ring
  · rw [overlap_far (by linarith)]
    ring

theorem spherical_base (ha : 0 ≤ a) (hr : 0 < r) (x : ι → E3) :
    CondNeg fun i j => a * (1 - 6 / (Real.pi * r ^ 3) * overlap (r / 2) (x i) (x j)) := by
  refine (PSD.sub (K := fun i j => 6 / (Real.pi * r ^ 3) * overlap (r / 2) (x i) (x j)) ?_ 1).smul ha
  have := psd_iff.1 (psd_overlap (r / 2) x)
  have hpi := Real.pi_pos
  rw [psd_iff]
  refine ⟨fun i j => by rw [this.1], fun c => ?_⟩
  rw [quad_smul]
  exact mul_nonneg (by positivity) (this.2 c)

theorem spherical_base_zero (hr : 0 < r) (x : E3) : a * (1 - 6 / (Real.pi * r ^ 3) * overlap (r / 2) x x) = 0 := by
  have hpi := Real.pi_pos
  rw [overlap_near (by positivity) (by simp; positivity)]
  simp only [sub_self, norm_zero]
  field_simp
  ring

theorem spherical_valid (ha : 0 ≤ a) (hr : 0 < r) (hc : 0 ≤ c) : Valid3 (sphericalFormula a r c) := fun ι _ x =>
  condNeg_semivar (fun i j => norm_sub_rev _ _) (fun i => spherical_base_zero hr _)
    (fun i j _ => spherical_eq hr _ _) hc (spherical_base ha hr x)

theorem spherical_strict (ha : 0 < a) (hr : 0 < r) (hc : 0 ≤ c) : StrictlyValid3 (sphericalFormula a r c) :=
  fun ι _ x hx => by
    refine strictCondNeg_semivar (fun i j => norm_sub_rev _ _) (fun i => spherical_base_zero hr _)
      (fun i j _ => spherical_eq hr _ _) hc (spherical_base ha.le hr x) (Or.inl ?_)
    refine (strict_sub (K := fun i j => 6 / (Real.pi * r ^ 3) * overlap (r / 2) (x i) (x j)) ?_ ?_ 1).smul ha
    · intro i j; rw [(psd_iff.1 (psd_overlap (r / 2) x)).1]
    · intro b hb
      have hpi := Real.pi_pos
      rw [quad_smul]
      exact mul_pos (by positivity) (overlap_pos (by positivity) hx hb)

theorem spherical_strong (ha : 0 ≤ a) (hr : 0 < r) (hc : 0 < c) : StronglyValid3 (sphericalFormula a r c) :=
  fun ι _ x => strictCondNeg_semivar (fun i j => norm_sub_rev _ _) (fun i => spherical_base_zero hr _)
    (fun i j _ => spherical_eq hr _ _) hc.le (spherical_base ha hr x) (Or.inr hc)

end builtin

end
end PyKrige
