import Verif.Spec.Sums
import Verif.Props.C27
import Verif.Props.C28
import Verif.Examples.Use3

/-!
# C80: sums, means and differences of estimates

The sum of estimates at several locations with any coefficients (the mean of a grid, the difference between two places) is
the best linear unbiased prediction of the same sum of the true values.  No moving window: different windows use different
data.
-/

set_option linter.unusedSectionVars false

namespace PyKrige
noncomputable section
open Matrix Spec

variable {n : ℕ} {κ : Type} [Fintype κ]

/-- The best weights are orthogonal to all weights that predict nothing. -/
theorem Spec.IsBlue.orthogonal {G : Fin n → Fin n → ℝ} (hG : CondNeg G) {g : Fin n → ℝ} {D : Fin n → List ℝ} {f : List ℝ}
    {z : Fin n → ℝ} {est var : ℝ} (h : IsBlue Set.univ G g D f z est var) :
    ∃ w, Unbiased Set.univ D f w ∧ est = ∑ i, w i * z i ∧ var = errorVariance G g w ∧
      ∀ v : Fin n → ℝ, ∑ i, v i = 0 → (∀ l : ℕ, ∑ i, v i * (D i).getD l 0 = 0) →
        ∑ i, v i * g i = ∑ i, ∑ j, v i * w j * G i j := by
  obtain ⟨w, hw, he, hv⟩ := h.exists_weights
  refine ⟨w, hw, he, hv, fun v h0 hd => ?_⟩
  have key : ∀ t : ℝ, 0 ≤ 2 * t * (∑ i, v i * g i - ∑ i, ∑ j, v i * w j * G i j) - t ^ 2 * quad G v := by
    intro t
    have hu : Unbiased Set.univ D f (fun i => w i + t * v i) := by
      refine ⟨fun i hi => (hi trivial).elim, ?_, fun l => ?_⟩
      · rw [Finset.sum_add_distrib, ← Finset.mul_sum, h0, hw.sum_one, mul_zero, add_zero]
      · simp only [add_mul, Finset.sum_add_distrib, mul_assoc, ← Finset.mul_sum, hd l, hw.drift l, mul_zero, add_zero]
    have h1 := h.best _ hu
    rw [hv] at h1
    have h2 := errorVariance_sub G hG.symm g (fun i => w i + t * v i) w
    simp only [add_sub_cancel_left] at h2
    have e1 : ∑ i, t * v i * g i = t * ∑ i, v i * g i := by
      rw [Finset.mul_sum]; exact Finset.sum_congr rfl fun i _ => by ring
    have e2 : ∑ i, ∑ j, t * v i * w j * G i j = t * ∑ i, ∑ j, v i * w j * G i j := by
      simp only [Finset.mul_sum]
      exact Finset.sum_congr rfl fun i _ => Finset.sum_congr rfl fun j _ => by ring
    have e3 : quad G (fun i => t * v i) = t ^ 2 * quad G v := by
      unfold quad
      simp only [Finset.mul_sum]
      exact Finset.sum_congr rfl fun i _ => Finset.sum_congr rfl fun j _ => by ring
    rw [e1, e2, e3] at h2
    linarith
  generalize hA : ∑ i, v i * g i - ∑ i, ∑ j, v i * w j * G i j = A at key
  have hq : quad G v ≤ 0 := hG.contrast v h0
  have : A = 0 := by
    by_contra hne
    by_cases hq0 : quad G v = 0
    · have := key (-A)
      rw [hq0] at this
      nlinarith [mul_self_pos.2 hne]
    · have hq' : quad G v < 0 := lt_of_le_of_ne hq hq0
      have := key (A / quad G v)
      have e : 2 * (A / quad G v) * A - (A / quad G v) ^ 2 * quad G v = A ^ 2 / quad G v := by
        field_simp
        ring
      rw [e] at this
      have h3 : A ^ 2 / quad G v < 0 := div_neg_of_pos_of_neg (by positivity) hq'
      linarith
  linarith

theorem sumError_eq (G : Fin n → Fin n → ℝ) (g : κ → Fin n → ℝ) (H : κ → κ → ℝ) (c : κ → ℝ) (u : Fin n → ℝ) :
    sumError G g H c u = errorVariance G (fun i => ∑ k, c k * g k i) u - ∑ k, ∑ l, c k * c l * H k l := by
  unfold sumError errorVariance
  congr 3
  rw [Finset.sum_comm]
  refine Finset.sum_congr rfl fun i _ => ?_
  rw [Finset.mul_sum]
  exact Finset.sum_congr rfl fun k _ => by ring

/-- The quadratic form of the joint table at the error of a prediction. -/
theorem quad_withPlaces (G : Fin n → Fin n → ℝ) (g : κ → Fin n → ℝ) (H : κ → κ → ℝ) (c : κ → ℝ) (u : Fin n → ℝ) :
    quad (withPlaces G g H) (Sum.elim (fun i => -u i) c) = -sumError G g H c u := by
  unfold quad sumError
  simp only [Fintype.sum_sum_type, Sum.elim_inl, Sum.elim_inr, withPlaces]
  have e1 : ∑ i, ((∑ j, -u i * -u j * G i j) + ∑ k, -u i * c k * g k i) =
      ∑ i, ∑ j, u i * u j * G i j - ∑ k, ∑ i, c k * u i * g k i := by
    rw [Finset.sum_add_distrib, Finset.sum_comm (s := Finset.univ (α := κ)), sub_eq_add_neg, ← Finset.sum_neg_distrib]
    congr 1
    · exact Finset.sum_congr rfl fun i _ => Finset.sum_congr rfl fun j _ => by ring
    · refine Finset.sum_congr rfl fun i _ => ?_
      rw [← Finset.sum_neg_distrib]
      exact Finset.sum_congr rfl fun j _ => by ring
  have e2 : ∑ k, ((∑ i, c k * -u i * g k i) + ∑ l, c k * c l * H k l) =
      ∑ k, ∑ l, c k * c l * H k l - ∑ k, ∑ i, c k * u i * g k i := by
    rw [Finset.sum_add_distrib, sub_eq_add_neg, ← Finset.sum_neg_distrib, add_comm]
    congr 1
    refine Finset.sum_congr rfl fun i _ => ?_
    rw [← Finset.sum_neg_distrib]
    exact Finset.sum_congr rfl fun j _ => by ring
  rw [e1, e2]
  ring

/-- A valid variogram gives a mean of errors at most the mean of their variances. -/
theorem quad_mean {ι : Type} [Fintype ι] {T : ι → ι → ℝ} (hT : CondNeg T) (e : κ → ι → ℝ) (he : ∀ k, ∑ a, e k a = 0)
    {c : κ → ℝ} (hc : ∀ k, 0 ≤ c k) (h1 : ∑ k, c k = 1) :
    ∑ k, c k * quad T (e k) ≤ quad T (fun a => ∑ k, c k * e k a) := by
  set m : ι → ℝ := fun a => ∑ k, c k * e k a with hm
  have hm0 : ∑ a, m a = 0 := by
    rw [hm, Finset.sum_comm]
    refine Finset.sum_eq_zero fun k _ => ?_
    rw [← Finset.mul_sum, he, mul_zero]
  have hk : ∀ k, quad T (e k) ≤ 2 * ∑ a, ∑ b, e k a * m b * T a b - quad T m := by
    intro k
    have h0 : quad T (fun a => e k a - m a) ≤ 0 := hT.contrast _ (by rw [Finset.sum_sub_distrib, he, hm0, sub_zero])
    have hsw : ∑ a, ∑ b, m a * e k b * T a b = ∑ a, ∑ b, e k a * m b * T a b := by
      rw [Finset.sum_comm]
      exact Finset.sum_congr rfl fun a _ => Finset.sum_congr rfl fun b _ => by rw [hT.symm]; ring
    have e1 : quad T (fun a => e k a - m a) = quad T (e k) - ∑ a, ∑ b, e k a * m b * T a b -
        ∑ a, ∑ b, m a * e k b * T a b + quad T m := by
      simp only [quad, ← Finset.sum_add_distrib, ← Finset.sum_sub_distrib]
      exact Finset.sum_congr rfl fun a _ => Finset.sum_congr rfl fun b _ => by ring
    rw [e1, hsw] at h0
    linarith
  have e2 : ∑ k, c k * ∑ a, ∑ b, e k a * m b * T a b = quad T m := by
    unfold quad
    simp only [Finset.mul_sum]
    rw [Finset.sum_comm]
    refine Finset.sum_congr rfl fun a _ => ?_
    rw [Finset.sum_comm]
    refine Finset.sum_congr rfl fun b _ => ?_
    rw [hm]
    dsimp only
    rw [Finset.sum_mul, Finset.sum_mul]
    exact Finset.sum_congr rfl fun k _ => by ring
  calc ∑ k, c k * quad T (e k) ≤ ∑ k, c k * (2 * ∑ a, ∑ b, e k a * m b * T a b - quad T m) :=
        Finset.sum_le_sum fun k _ => mul_le_mul_of_nonneg_left (hk k) (hc k)
    _ = 2 * ∑ k, c k * ∑ a, ∑ b, e k a * m b * T a b - (∑ k, c k) * quad T m := by
        rw [Finset.mul_sum, Finset.sum_mul, ← Finset.sum_sub_distrib]
        exact Finset.sum_congr rfl fun k _ => by ring
    _ = quad T m := by rw [e2, h1]; ring

open Classical in
/-- Sums of best predictions. -/
theorem Spec.IsBlue.sum {G : Fin n → Fin n → ℝ} (hG : CondNeg G) {g : κ → Fin n → ℝ} {D : Fin n → List ℝ} {f : κ → List ℝ}
    {z : Fin n → ℝ} {est var : κ → ℝ} (h : ∀ k, IsBlue Set.univ G (g k) D (f k) z (est k) (var k)) (H : κ → κ → ℝ) (c : κ → ℝ) :
    ∃ err, IsBestSum G g H D f z c (∑ k, c k * est k) err ∧
      (CondNeg (withPlaces G g H) → 0 ≤ err ∧
        ((∀ k, H k k = 0) → (∀ k, 0 ≤ c k) → ∑ k, c k = 1 → err ≤ ∑ k, c k * var k)) := by
  choose w hw he hvar ho using fun k => (h k).orthogonal hG
  have hW : UnbiasedSum D f c (fun i => ∑ k, c k * w k i) := by
    constructor
    · rw [Finset.sum_comm]
      refine Finset.sum_congr rfl fun k _ => ?_
      rw [← Finset.mul_sum, (hw k).sum_one, mul_one]
    · intro l
      simp only [Finset.sum_mul]
      rw [Finset.sum_comm]
      refine Finset.sum_congr rfl fun k _ => ?_
      rw [← (hw k).drift l, Finset.mul_sum]
      exact Finset.sum_congr rfl fun i _ => by ring
  refine ⟨_, ⟨⟨_, hW, ?_, rfl⟩, fun u hu => ?_⟩, fun hT => ⟨?_, fun hH hc h1 => ?_⟩⟩
  · simp only [Finset.sum_mul]
    rw [Finset.sum_comm]
    refine Finset.sum_congr rfl fun k _ => ?_
    rw [he k, Finset.mul_sum]
    exact Finset.sum_congr rfl fun i _ => by ring
  · rw [sumError_eq, sumError_eq]
    have h0 : ∑ i, (u i - ∑ k, c k * w k i) = 0 := by rw [Finset.sum_sub_distrib, hu.total, hW.total, sub_self]
    have hd : ∀ l : ℕ, ∑ i, (u i - ∑ k, c k * w k i) * (D i).getD l 0 = 0 := fun l => by
      simp only [sub_mul, Finset.sum_sub_distrib]
      rw [hu.drift l, hW.drift l, sub_self]
    have h1 := errorVariance_sub G hG.symm (fun i => ∑ k, c k * g k i) u (fun i => ∑ k, c k * w k i)
    have h2 : quad G (fun i => u i - ∑ k, c k * w k i) ≤ 0 := hG.contrast _ h0
    have h3 : ∑ i, (u i - ∑ k, c k * w k i) * ∑ k, c k * g k i =
        ∑ i, ∑ j, (u i - ∑ k, c k * w k i) * (∑ k, c k * w k j) * G i j := by
      have h4 : ∀ v : Fin n → ℝ, ∑ i, v i = 0 → (∀ l : ℕ, ∑ i, v i * (D i).getD l 0 = 0) →
          ∑ i, v i * ∑ k, c k * g k i = ∑ i, ∑ j, v i * (∑ k, c k * w k j) * G i j := by
        intro v h0 hd
        have e1 : ∑ i, v i * ∑ k, c k * g k i = ∑ k, c k * ∑ i, v i * g k i := by
          simp only [Finset.mul_sum]
          rw [Finset.sum_comm]
          exact Finset.sum_congr rfl fun k _ => Finset.sum_congr rfl fun i _ => by ring
        have e2 : ∑ i, ∑ j, v i * (∑ k, c k * w k j) * G i j = ∑ k, c k * ∑ i, ∑ j, v i * w k j * G i j := by
          simp only [Finset.mul_sum, Finset.sum_mul]
          rw [Finset.sum_congr rfl fun i _ => Finset.sum_comm, Finset.sum_comm]
          exact Finset.sum_congr rfl fun k _ => Finset.sum_congr rfl fun i _ => Finset.sum_congr rfl fun j _ => by ring
        rw [e1, e2]
        exact Finset.sum_congr rfl fun k _ => by rw [ho k v h0 hd]
      exact h4 _ h0 hd
    linarith


  · have h2 : quad (withPlaces G g H) (Sum.elim (fun i => -∑ k, c k * w k i) c) ≤ 0 := hT.contrast _ (by
      rw [Fintype.sum_sum_type]
      simp only [Sum.elim_inl, Sum.elim_inr]
      rw [Finset.sum_neg_distrib, hW.total, neg_add_cancel])
    rw [quad_withPlaces] at h2
    linarith
  · have h2 := quad_mean hT (fun k => Sum.elim (fun i => -w k i) (Pi.single k 1)) (fun k => by
      rw [Fintype.sum_sum_type]
      simp only [Sum.elim_inl, Sum.elim_inr]
      rw [Finset.sum_neg_distrib, (hw k).sum_one, Finset.sum_pi_single']
      simp) hc h1
    have e1 : (fun a => ∑ k, c k * Sum.elim (fun i => -w k i) (Pi.single k 1) a) =
        Sum.elim (fun i => -∑ k, c k * w k i) c := by
      funext a
      cases a with
      | inl i =>
        simp only [Sum.elim_inl]
        rw [← Finset.sum_neg_distrib]
        exact Finset.sum_congr rfl fun k _ => by ring
      | inr l =>
        simp only [Sum.elim_inr]
        simp [Pi.single_apply]
    have e2 : ∀ k, quad (withPlaces G g H) (Sum.elim (fun i => -w k i) (Pi.single k 1)) = -var k := by
      intro k
      rw [quad_withPlaces, sumError_eq, hvar k]
      simp [Pi.single_apply, hH]
    rw [e1, quad_withPlaces] at h2
    simp only [e2] at h2
    have e3 : ∑ k, c k * -var k = -∑ k, c k * var k := by
      rw [← Finset.sum_neg_distrib]
      exact Finset.sum_congr rfl fun k _ => by ring
    rw [e3] at h2
    linarith

/-! ### The property -/

/-- `OrdinaryKriging`. -/
theorem C80_sum_2d {env : Env} {x y z : Fin n → ℝ} {args : OKArgs} {s : OK n}
    (h : OK.create env x y z args = .ok s) {ea : ExecArgs} (ha : Admissible env args s ea.nClosest)
    (hw : ea.nClosest = none)
    {γ : ℝ → ℝ} (hγ : s.variogramFunction s.params = .ok γ) {exact : Bool} (hex : args.exactValues = .bool exact)
    (hG : CondNeg (semivar γ fun i i' => okDistance args (x i, y i) (x i', y i')))
    {r : ExecResult} (hr : s.execute env ea = .ok r) {j : κ → ℕ} {p : κ → ℝ × ℝ} (hq : ∀ k, queryAt ea (j k) = some (p k))
    (hm : ∀ k, maskedAt ea (j k) = false)
    (hp : args.pseudoInv = false ∨ ∀ k,
      CondNeg (withPoint (semivar γ fun i i' => okDistance args (x i, y i) (x i', y i'))
        (semivarTo exact γ fun i => okDistance args (p k) (x i, y i)))) :
    ∃ est var : κ → ℝ, (∀ k, r.z[j k]? = some (some (est k)) ∧ r.ss[j k]? = some (some (var k))) ∧
      ∀ (H : κ → κ → ℝ) (c : κ → ℝ), ∃ err, IsBestSum (semivar γ fun i i' => okDistance args (x i, y i) (x i', y i'))
        (fun k => semivarTo exact γ fun i => okDistance args (p k) (x i, y i)) H (fun _ => []) (fun _ => []) z c
        (∑ k, c k * est k) err ∧
        (CondNeg (withPlaces (semivar γ fun i i' => okDistance args (x i, y i) (x i', y i'))
            (fun k => semivarTo exact γ fun i => okDistance args (p k) (x i, y i)) H) → 0 ≤ err ∧
          ((∀ k, H k k = 0) → (∀ k, 0 ≤ c k) → ∑ k, c k = 1 → err ≤ ∑ k, c k * var k)) := by
  choose S hS _ est var h1 h2 h3 using fun k => C28_best_2d h ha hγ hex hG hr (hq k) (hm k)
    (hp.imp_right fun h => .inr (h k))
  refine ⟨est, var, fun k => ⟨h1 k, h2 k⟩, fun H c => ?_⟩
  refine Spec.IsBlue.sum hG (var := var) (fun k => ?_) H c
  have := h3 k
  rw [hS k hw] at this
  simpa using this

/-- `OrdinaryKriging3D`. -/
theorem C80_sum_3d {env : Env} {x y z v : Fin n → ℝ} {args : OK3DArgs} {s : OK3D n}
    (h : OK3D.create env x y z v args = .ok s) {ea : ExecArgs3} (hk : KnnSpec env) (hw : ea.nClosest = none)
    {γ : ℝ → ℝ} (hγ : s.variogramFunction s.params = .ok γ) {exact : Bool} (hex : args.exactValues = .bool exact)
    (hG : CondNeg (semivar γ fun i i' => ok3Distance args (x i, y i, z i) (x i', y i', z i')))
    {r : ExecResult} (hr : s.execute env ea = .ok r) {j : κ → ℕ} {p : κ → ℝ × ℝ × ℝ}
    (hq : ∀ k, queryAt3 ea (j k) = some (p k)) (hm : ∀ k, maskedAt3 ea (j k) = false)
    (hp : args.pseudoInv = false ∨ ∀ k,
      CondNeg (withPoint (semivar γ fun i i' => ok3Distance args (x i, y i, z i) (x i', y i', z i'))
        (semivarTo exact γ fun i => ok3Distance args (p k) (x i, y i, z i)))) :
    ∃ est var : κ → ℝ, (∀ k, r.z[j k]? = some (some (est k)) ∧ r.ss[j k]? = some (some (var k))) ∧
      ∀ (H : κ → κ → ℝ) (c : κ → ℝ), ∃ err, IsBestSum (semivar γ fun i i' => ok3Distance args (x i, y i, z i) (x i', y i', z i'))
        (fun k => semivarTo exact γ fun i => ok3Distance args (p k) (x i, y i, z i)) H (fun _ => []) (fun _ => []) v c
        (∑ k, c k * est k) err ∧
        (CondNeg (withPlaces (semivar γ fun i i' => ok3Distance args (x i, y i, z i) (x i', y i', z i'))
            (fun k => semivarTo exact γ fun i => ok3Distance args (p k) (x i, y i, z i)) H) → 0 ≤ err ∧
          ((∀ k, H k k = 0) → (∀ k, 0 ≤ c k) → ∑ k, c k = 1 → err ≤ ∑ k, c k * var k)) := by
  choose S hS _ est var h1 h2 h3 using fun k => C28_best_3d h hk (by rw [hw]; intro k hk; cases hk) hγ hex hG hr (hq k) (hm k)
    (hp.imp_right fun h => .inr (h k))
  refine ⟨est, var, fun k => ⟨h1 k, h2 k⟩, fun H c => ?_⟩
  refine Spec.IsBlue.sum hG (var := var) (fun k => ?_) H c
  have := h3 k
  rw [hS k hw] at this
  simpa using this

/-- `UniversalKriging`.  For specified drift the backend is "vectorized" (C24 tells what "loop" does). -/
theorem C80_sum_uk {env : Env} {x y z : Fin n → ℝ} {args : UKArgs} {s : UK n}
    (h : UK.create env x y z args = .ok s) {ea : UKExecArgs}
    {γ : ℝ → ℝ} (hγ : s.variogramFunction s.params = .ok γ) {exact : Bool} (hex : args.exactValues = .bool exact)
    (hs : "specified" ∈ args.driftTerms → ea.toExec.backend = "vectorized")
    (hG : CondNeg (semivar γ fun i i' => ukDistance args (x i, y i) (x i', y i')))
    {r : ExecResult} (hr : s.execute ea = .ok r) {j : κ → ℕ} {p : κ → ℝ × ℝ}
    (hq : ∀ k, queryAt ea.toExec (j k) = some (p k)) (hm : ∀ k, maskedAt ea.toExec (j k) = false)
    (hp : args.pseudoInv = false ∨ ∀ k,
      CondNeg (withPoint (semivar γ fun i i' => ukDistance args (x i, y i) (x i', y i'))
        (semivarTo exact γ fun i => ukDistance args (p k) (x i, y i))) ∧
      ∃ u, Unbiased Set.univ (fun i => driftTerms2 args s.adjustPoint (specAtDatum args.specifiedDrift i) (x i, y i))
        (driftTerms2 args s.adjustPoint (specAtQuery ea (j k)) (p k)) u) :
    ∃ est var : κ → ℝ, (∀ k, r.z[j k]? = some (some (est k)) ∧ r.ss[j k]? = some (some (var k))) ∧
      ∀ (H : κ → κ → ℝ) (c : κ → ℝ), ∃ err, IsBestSum (semivar γ fun i i' => ukDistance args (x i, y i) (x i', y i'))
        (fun k => semivarTo exact γ fun i => ukDistance args (p k) (x i, y i)) H
        (fun i => driftTerms2 args s.adjustPoint (specAtDatum args.specifiedDrift i) (x i, y i))
        (fun k => driftTerms2 args s.adjustPoint (specAtQuery ea (j k)) (p k)) z c (∑ k, c k * est k) err ∧
        (CondNeg (withPlaces (semivar γ fun i i' => ukDistance args (x i, y i) (x i', y i'))
            (fun k => semivarTo exact γ fun i => ukDistance args (p k) (x i, y i)) H) → 0 ≤ err ∧
          ((∀ k, H k k = 0) → (∀ k, 0 ≤ c k) → ∑ k, c k = 1 → err ≤ ∑ k, c k * var k)) := by
  choose est var h1 h2 h3 using fun k => C28_best_uk h hγ hex hs hG hr (hq k) (hm k) (hp.imp_right fun h => h k)
  exact ⟨est, var, fun k => ⟨h1 k, h2 k⟩, fun H c => Spec.IsBlue.sum hG h3 H c⟩

/-- `UniversalKriging3D`.  For specified drift the backend is "vectorized" (C24 tells what "loop" does). -/
theorem C80_sum_uk3d {env : Env} {x y z v : Fin n → ℝ} {args : UK3DArgs} {s : UK3D n}
    (h : UK3D.create env x y z v args = .ok s) {ea : UK3DExecArgs}
    {γ : ℝ → ℝ} (hγ : s.variogramFunction s.params = .ok γ) {exact : Bool} (hex : args.exactValues = .bool exact)
    (hs : "specified" ∈ args.driftTerms → ea.toExec.backend = "vectorized")
    (hG : CondNeg (semivar γ fun i i' => uk3Distance args (x i, y i, z i) (x i', y i', z i')))
    {r : ExecResult} (hr : s.execute ea = .ok r) {j : κ → ℕ} {p : κ → ℝ × ℝ × ℝ}
    (hq : ∀ k, queryAt3 ea.toExec (j k) = some (p k)) (hm : ∀ k, maskedAt3 ea.toExec (j k) = false)
    (hp : args.pseudoInv = false ∨ ∀ k,
      CondNeg (withPoint (semivar γ fun i i' => uk3Distance args (x i, y i, z i) (x i', y i', z i'))
        (semivarTo exact γ fun i => uk3Distance args (p k) (x i, y i, z i))) ∧
      ∃ u, Unbiased Set.univ (fun i => driftTerms3 args s.adjustPoint (specAtDatum args.specifiedDrift i) (x i, y i, z i))
        (driftTerms3 args s.adjustPoint (specAtQuery3 ea (j k)) (p k)) u) :
    ∃ est var : κ → ℝ, (∀ k, r.z[j k]? = some (some (est k)) ∧ r.ss[j k]? = some (some (var k))) ∧
      ∀ (H : κ → κ → ℝ) (c : κ → ℝ), ∃ err, IsBestSum (semivar γ fun i i' => uk3Distance args (x i, y i, z i) (x i', y i', z i'))
        (fun k => semivarTo exact γ fun i => uk3Distance args (p k) (x i, y i, z i)) H
        (fun i => driftTerms3 args s.adjustPoint (specAtDatum args.specifiedDrift i) (x i, y i, z i))
        (fun k => driftTerms3 args s.adjustPoint (specAtQuery3 ea (j k)) (p k)) v c (∑ k, c k * est k) err ∧
        (CondNeg (withPlaces (semivar γ fun i i' => uk3Distance args (x i, y i, z i) (x i', y i', z i'))
            (fun k => semivarTo exact γ fun i => uk3Distance args (p k) (x i, y i, z i)) H) → 0 ≤ err ∧
          ((∀ k, H k k = 0) → (∀ k, 0 ≤ c k) → ∑ k, c k = 1 → err ≤ ∑ k, c k * var k)) := by
  choose est var h1 h2 h3 using fun k => C28_best_uk3d h hγ hex hs hG hr (hq k) (hm k) (hp.imp_right fun h => h k)
  exact ⟨est, var, fun k => ⟨h1 k, h2 k⟩, fun H c => Spec.IsBlue.sum hG h3 H c⟩

/-! ### Built-in models -/

/-- The semivariances between data and places that are not data, at Euclidean distances. -/
theorem Valid3.withPlaces {γ : ℝ → ℝ} (h : Valid3 γ) {α : Type} {D : α → α → ℝ} {e : α → E3}
    (he : ∀ p q, D p q = ‖e p - e q‖) (x : Fin n → α) (q : κ → α) {exact : Bool}
    (hc : exact = true → ∀ k i, 1 / 10 ^ 10 < D (q k) (x i)) :
    CondNeg (Spec.withPlaces (semivar γ fun i j => D (x i) (x j)) (fun k => semivarTo exact γ fun i => D (q k) (x i))
      (semivar γ fun k l => D (q k) (q l))) := by
  have hs : ∀ p q, D p q = D q p := fun p q => by rw [he, he, norm_sub_rev]
  have hto : ∀ k i, semivarTo exact γ (fun i => D (q k) (x i)) i = γ (D (q k) (x i)) := by
    intro k i
    unfold semivarTo
    rw [if_neg]
    rintro ⟨h1, h2⟩
    exact absurd h2 (not_le.2 (hc h1 k i))
  have key := h.data he (Sum.elim x q)
  have e1 : Spec.withPlaces (semivar γ fun i j => D (x i) (x j)) (fun k => semivarTo exact γ fun i => D (q k) (x i))
      (semivar γ fun k l => D (q k) (q l)) = semivar γ fun a b => D (Sum.elim x q a) (Sum.elim x q b) := by
    funext a b
    cases a with
    | inl i =>
      cases b with
      | inl j =>
        show semivar γ (fun i j => D (x i) (x j)) i j = _
        unfold semivar
        by_cases hij : i = j
        · rw [if_pos hij, if_pos (by rw [hij])]
        · rw [if_neg hij, if_neg (fun e => hij (Sum.inl.inj e))]
          rfl
      | inr k =>
        show semivarTo exact γ (fun i => D (q k) (x i)) i = _
        unfold semivar
        rw [if_neg (by simp), hto, hs]
        rfl
    | inr k =>
      cases b with
      | inl i =>
        show semivarTo exact γ (fun i => D (q k) (x i)) i = _
        unfold semivar
        rw [if_neg (by simp), hto]
        rfl
      | inr l =>
        show semivar γ (fun k l => D (q k) (q l)) k l = _
        unfold semivar
        by_cases hkl : k = l
        · rw [if_pos hkl, if_pos (by rw [hkl])]
        · rw [if_neg hkl, if_neg (fun e => hkl (Sum.inr.inj e))]
          rfl
  rw [e1]
  exact key

theorem semivar_self {γ : ℝ → ℝ} {ι : Type} (d : ι → ι → ℝ) (k : ι) : semivar γ d k k = 0 := by
  unfold semivar
  rw [if_pos rfl]

theorem clear_away {exact : Bool} {γ : ℝ → ℝ} {d : Fin n → ℝ} (h : exact = true → ∀ i, 1 / 10 ^ 10 < d i) : Clear exact γ d :=
  fun he i hi => absurd hi (not_le.2 (h he i))

/-- `OrdinaryKriging`, built-in models: a mean of estimates at places that are not data is the best prediction of the mean, and
its error variance is at most the mean of the returned variances. -/
theorem C80_mean_2d {env : Env} {x y z : Fin n → ℝ} {args : OKArgs} {s : OK n}
    (h : OK.create env x y z args = .ok s) {ea : ExecArgs} (ha : Admissible env args s ea.nClosest)
    (hw : ea.nClosest = none) (hcd : args.coordinatesType = "euclidean")
    {m : String} (hm : args.variogramModel = .name m) (hv : ValidModel m s.params)
    {γ : ℝ → ℝ} (hγ : s.variogramFunction s.params = .ok γ) {exact : Bool} (hex : args.exactValues = .bool exact)
    {r : ExecResult} (hr : s.execute env ea = .ok r) {j : κ → ℕ} {p : κ → ℝ × ℝ}
    (hq : ∀ k, queryAt ea (j k) = some (p k)) (hm' : ∀ k, maskedAt ea (j k) = false)
    (haway : exact = true → ∀ k i, 1 / 10 ^ 10 < okDistance args (p k) (x i, y i)) {c : κ → ℝ} (hc : ∀ k, 0 ≤ c k) (h1 : ∑ k, c k = 1) :
    ∃ (est var : κ → ℝ) (err : ℝ), (∀ k, r.z[j k]? = some (some (est k)) ∧ r.ss[j k]? = some (some (var k))) ∧
      IsBestSum (semivar γ fun i i' => okDistance args (x i, y i) (x i', y i'))
        (fun k => semivarTo exact γ fun i => okDistance args (p k) (x i, y i)) (semivar γ fun k l => okDistance args (p k) (p l))
        (fun _ => []) (fun _ => []) z c (∑ k, c k * est k) err ∧
      0 ≤ err ∧ err ≤ ∑ k, c k * var k := by
  obtain ⟨hmb, -, -, γ', hb, hval, -⟩ := hv.builtin
  obtain ⟨hev, -⟩ := chosen_evaluates hb hmb (OK.create_function h hm)
  obtain rfl : γ = γ' := by rw [hγ] at hev; exact Except.ok.inj hev
  obtain ⟨e, hemb⟩ := okDistance_embed hcd
  have hG := hval.data (D := okDistance args) hemb fun i => (x i, y i)
  have hP := fun k => hval.withPoint' (D := okDistance args) hemb (fun i => (x i, y i)) (p k) (clear_away (γ := γ) fun he => haway he k)
  obtain ⟨est, var, h3, h4⟩ := C80_sum_2d h ha hw hγ hex hG hr hq hm' (.inr hP)
  obtain ⟨err, h5, h6⟩ := h4 (semivar γ fun k l => okDistance args (p k) (p l)) c
  obtain ⟨h7, h8⟩ := h6 (hval.withPlaces (D := okDistance args) hemb (fun i => (x i, y i)) p haway)
  exact ⟨est, var, err, h3, h5, h7, h8 (semivar_self _) hc h1⟩

/-- `OrdinaryKriging3D`. -/
theorem C80_mean_3d {env : Env} {x y z v : Fin n → ℝ} {args : OK3DArgs} {s : OK3D n}
    (h : OK3D.create env x y z v args = .ok s) {ea : ExecArgs3} (hk : KnnSpec env) (hw : ea.nClosest = none)
    {m : String} (hm : args.variogramModel = .name m) (hv : ValidModel m s.params)
    {γ : ℝ → ℝ} (hγ : s.variogramFunction s.params = .ok γ) {exact : Bool} (hex : args.exactValues = .bool exact)
    {r : ExecResult} (hr : s.execute env ea = .ok r) {j : κ → ℕ} {p : κ → ℝ × ℝ × ℝ}
    (hq : ∀ k, queryAt3 ea (j k) = some (p k)) (hm' : ∀ k, maskedAt3 ea (j k) = false)
    (haway : exact = true → ∀ k i, 1 / 10 ^ 10 < ok3Distance args (p k) (x i, y i, z i)) {c : κ → ℝ} (hc : ∀ k, 0 ≤ c k) (h1 : ∑ k, c k = 1) :
    ∃ (est var : κ → ℝ) (err : ℝ), (∀ k, r.z[j k]? = some (some (est k)) ∧ r.ss[j k]? = some (some (var k))) ∧
      IsBestSum (semivar γ fun i i' => ok3Distance args (x i, y i, z i) (x i', y i', z i'))
        (fun k => semivarTo exact γ fun i => ok3Distance args (p k) (x i, y i, z i)) (semivar γ fun k l => ok3Distance args (p k) (p l))
        (fun _ => []) (fun _ => []) v c (∑ k, c k * est k) err ∧
      0 ≤ err ∧ err ≤ ∑ k, c k * var k := by
  obtain ⟨hmb, -, -, γ', hb, hval, -⟩ := hv.builtin
  obtain ⟨hev, -⟩ := chosen_evaluates hb hmb (OK3D.create_function h hm)
  obtain rfl : γ = γ' := by rw [hγ] at hev; exact Except.ok.inj hev
  obtain ⟨e, hemb⟩ := distance3_embed (effAniso args.variogramModel args.aniso)
  have hG := hval.data (D := ok3Distance args) hemb fun i => (x i, y i, z i)
  have hP := fun k => hval.withPoint' (D := ok3Distance args) hemb (fun i => (x i, y i, z i)) (p k) (clear_away (γ := γ) fun he => haway he k)
  obtain ⟨est, var, h3, h4⟩ := C80_sum_3d h hk hw hγ hex hG hr hq hm' (.inr hP)
  obtain ⟨err, h5, h6⟩ := h4 (semivar γ fun k l => ok3Distance args (p k) (p l)) c
  obtain ⟨h7, h8⟩ := h6 (hval.withPlaces (D := ok3Distance args) hemb (fun i => (x i, y i, z i)) p haway)
  exact ⟨est, var, err, h3, h5, h7, h8 (semivar_self _) hc h1⟩

/-- `UniversalKriging`. -/
theorem C80_mean_uk {env : Env} {x y z : Fin n → ℝ} {args : UKArgs} {s : UK n}
    (h : UK.create env x y z args = .ok s) {ea : UKExecArgs} 
    (hs : "specified" ∈ args.driftTerms → ea.toExec.backend = "vectorized")
    {m : String} (hm : args.variogramModel = .name m) (hv : ValidModel m s.params)
    {γ : ℝ → ℝ} (hγ : s.variogramFunction s.params = .ok γ) {exact : Bool} (hex : args.exactValues = .bool exact)
    {r : ExecResult} (hr : s.execute ea = .ok r) {j : κ → ℕ} {p : κ → ℝ × ℝ}
    (hq : ∀ k, queryAt ea.toExec (j k) = some (p k)) (hm' : ∀ k, maskedAt ea.toExec (j k) = false)
    (hu : args.pseudoInv = false ∨ ∀ k,
      ∃ u, Unbiased Set.univ (fun i => driftTerms2 args s.adjustPoint (specAtDatum args.specifiedDrift i) (x i, y i))
        (driftTerms2 args s.adjustPoint (specAtQuery ea (j k)) (p k)) u)
    (haway : exact = true → ∀ k i, 1 / 10 ^ 10 < ukDistance args (p k) (x i, y i)) {c : κ → ℝ} (hc : ∀ k, 0 ≤ c k) (h1 : ∑ k, c k = 1) :
    ∃ (est var : κ → ℝ) (err : ℝ), (∀ k, r.z[j k]? = some (some (est k)) ∧ r.ss[j k]? = some (some (var k))) ∧
      IsBestSum (semivar γ fun i i' => ukDistance args (x i, y i) (x i', y i'))
        (fun k => semivarTo exact γ fun i => ukDistance args (p k) (x i, y i)) (semivar γ fun k l => ukDistance args (p k) (p l))
        (fun i => driftTerms2 args s.adjustPoint (specAtDatum args.specifiedDrift i) (x i, y i)) 
        (fun k => driftTerms2 args s.adjustPoint (specAtQuery ea (j k)) (p k)) z c (∑ k, c k * est k) err ∧
      0 ≤ err ∧ err ≤ ∑ k, c k * var k := by
  obtain ⟨hmb, -, -, γ', hb, hval, -⟩ := hv.builtin
  obtain ⟨hev, -⟩ := chosen_evaluates hb hmb (UK.create_function h hm)
  obtain rfl : γ = γ' := by rw [hγ] at hev; exact Except.ok.inj hev
  obtain ⟨e, hemb⟩ := anisoDist2_embed _ _
  have hG := hval.data (D := ukDistance args) hemb fun i => (x i, y i)
  have hP := fun k => hval.withPoint' (D := ukDistance args) hemb (fun i => (x i, y i)) (p k) (clear_away (γ := γ) fun he => haway he k)
  obtain ⟨est, var, h3, h4⟩ := C80_sum_uk h hγ hex hs hG hr hq hm' (hu.imp_right fun h k => ⟨hP k, h k⟩)
  obtain ⟨err, h5, h6⟩ := h4 (semivar γ fun k l => ukDistance args (p k) (p l)) c
  obtain ⟨h7, h8⟩ := h6 (hval.withPlaces (D := ukDistance args) hemb (fun i => (x i, y i)) p haway)
  exact ⟨est, var, err, h3, h5, h7, h8 (semivar_self _) hc h1⟩

/-- `UniversalKriging3D`. -/
theorem C80_mean_uk3d {env : Env} {x y z v : Fin n → ℝ} {args : UK3DArgs} {s : UK3D n}
    (h : UK3D.create env x y z v args = .ok s) {ea : UK3DExecArgs} 
    (hs : "specified" ∈ args.driftTerms → ea.toExec.backend = "vectorized")
    {m : String} (hm : args.variogramModel = .name m) (hv : ValidModel m s.params)
    {γ : ℝ → ℝ} (hγ : s.variogramFunction s.params = .ok γ) {exact : Bool} (hex : args.exactValues = .bool exact)
    {r : ExecResult} (hr : s.execute ea = .ok r) {j : κ → ℕ} {p : κ → ℝ × ℝ × ℝ}
    (hq : ∀ k, queryAt3 ea.toExec (j k) = some (p k)) (hm' : ∀ k, maskedAt3 ea.toExec (j k) = false)
    (hu : args.pseudoInv = false ∨ ∀ k,
      ∃ u, Unbiased Set.univ (fun i => driftTerms3 args s.adjustPoint (specAtDatum args.specifiedDrift i) (x i, y i, z i))
        (driftTerms3 args s.adjustPoint (specAtQuery3 ea (j k)) (p k)) u)
    (haway : exact = true → ∀ k i, 1 / 10 ^ 10 < uk3Distance args (p k) (x i, y i, z i)) {c : κ → ℝ} (hc : ∀ k, 0 ≤ c k) (h1 : ∑ k, c k = 1) :
    ∃ (est var : κ → ℝ) (err : ℝ), (∀ k, r.z[j k]? = some (some (est k)) ∧ r.ss[j k]? = some (some (var k))) ∧
      IsBestSum (semivar γ fun i i' => uk3Distance args (x i, y i, z i) (x i', y i', z i'))
        (fun k => semivarTo exact γ fun i => uk3Distance args (p k) (x i, y i, z i)) (semivar γ fun k l => uk3Distance args (p k) (p l))
        (fun i => driftTerms3 args s.adjustPoint (specAtDatum args.specifiedDrift i) (x i, y i, z i)) 
        (fun k => driftTerms3 args s.adjustPoint (specAtQuery3 ea (j k)) (p k)) v c (∑ k, c k * est k) err ∧
      0 ≤ err ∧ err ≤ ∑ k, c k * var k := by
  obtain ⟨hmb, -, -, γ', hb, hval, -⟩ := hv.builtin
  obtain ⟨hev, -⟩ := chosen_evaluates hb hmb (UK3D.create_function h hm)
  obtain rfl : γ = γ' := by rw [hγ] at hev; exact Except.ok.inj hev
  obtain ⟨e, hemb⟩ := distance3_embed (effAniso args.variogramModel args.aniso)
  have hG := hval.data (D := uk3Distance args) hemb fun i => (x i, y i, z i)
  have hP := fun k => hval.withPoint' (D := uk3Distance args) hemb (fun i => (x i, y i, z i)) (p k) (clear_away (γ := γ) fun he => haway he k)
  obtain ⟨est, var, h3, h4⟩ := C80_sum_uk3d h hγ hex hs hG hr hq hm' (hu.imp_right fun h k => ⟨hP k, h k⟩)
  obtain ⟨err, h5, h6⟩ := h4 (semivar γ fun k l => uk3Distance args (p k) (p l)) c
  obtain ⟨h7, h8⟩ := h6 (hval.withPlaces (D := uk3Distance args) hemb (fun i => (x i, y i, z i)) p haway)
  exact ⟨est, var, err, h3, h5, h7, h8 (semivar_self _) hc h1⟩

/-! ### The theorems apply: four data with a spherical variogram, two places and their mean -/

namespace Demo

/-- A second place, off the data. -/
def P2' : ℝ × ℝ := (1 / 2, 3 / 2)
def P3' : ℝ × ℝ × ℝ := (1 / 2, 3 / 2, 1)

theorem away_two (i : Fin 4) : 1 / 2 ≤ anisoDist2 1 0 P2' (x4 i, y4 i) := by
  have : anisoDist2 1 0 P2' (x4 i, y4 i) = Real.sqrt ((1 / 2 - x4 i) ^ 2 + (3 / 2 - y4 i) ^ 2) := by
    simp [anisoDist2, rad, P2']
  rw [this]
  apply Real.le_sqrt_of_sq_le
  fin_cases i <;> norm_num [x4, y4]
theorem away_two3 (i : Fin 4) : 1 / 2 ≤ distance3 {} P3' (x4 i, y4 i, z4 i) := by
  have : distance3 {} P3' (x4 i, y4 i, z4 i) = Real.sqrt ((1 / 2 - x4 i) ^ 2 + (3 / 2 - y4 i) ^ 2 + (1 - z4 i) ^ 2) := by
    simp [distance3, rotX, rotY, rotZ, rad, P3']
  rw [this]
  apply Real.le_sqrt_of_sq_le
  fin_cases i <;> norm_num [x4, y4, z4]

/-- The two places and their numbers in the result. -/
abbrev places : Fin 2 → ℝ × ℝ := ![P2, P2']
abbrev places3 : Fin 2 → ℝ × ℝ × ℝ := ![P3, P3']
abbrev slots : Fin 2 → ℕ := fun k => k
/-- The weights of the mean. -/
def half : Fin 2 → ℝ := fun _ => 1 / 2
theorem half_nonneg (k : Fin 2) : 0 ≤ half k := by norm_num [half]
theorem half_sum : ∑ k, half k = 1 := by norm_num [half]
theorem at_two (b : String) (k : Fin 2) : queryAt (pointsCall [P2, P2'] b) (slots k) = some (places k) := by
  fin_cases k <;> simp [queryAt, pointsCall]
theorem at_two3 (b : String) (k : Fin 2) : queryAt3 (pointsCall3 [P3, P3'] b) (slots k) = some (places3 k) := by
  fin_cases k <;> simp [queryAt3, pointsCall3]
theorem off2 (k : Fin 2) (i : Fin 4) : 1 / 10 ^ 10 < anisoDist2 1 0 (places k) (x4 i, y4 i) := by
  fin_cases k
  · exact lt_of_lt_of_le (by norm_num) (awayP2 i)
  · exact lt_of_lt_of_le (by norm_num) (away_two i)
theorem off3 (k : Fin 2) (i : Fin 4) : 1 / 10 ^ 10 < distance3 {} (places3 k) (x4 i, y4 i, z4 i) := by
  fin_cases k
  · exact lt_of_lt_of_le (by norm_num) (awayP3 i)
  · exact lt_of_lt_of_le (by norm_num) (away_two3 i)

example (z : Fin 4 → ℝ) := C80_sum_2d (S2_ok z) (S2_adm z fits_none) rfl (S2_sph z) rfl S2_neg
  (R2_ok z (good_points [P2, P2'] (b := "C") (by simp))) (at_two "C") (fun _ => rfl) (.inl rfl)
example (z : Fin 4 → ℝ) := C80_sum_3d (S3_ok z) stdEnv_knn rfl (S3_sph z) rfl S3_neg
  (R3_ok z (good_points3 [P3, P3'] (b := "loop") (by simp))) (at_two3 "loop") (fun _ => rfl) (.inl rfl)
example (z : Fin 4 → ℝ) := C80_sum_uk (U2_ok z) (U2_sph z) rfl (fun h => absurd h nospec) U2_neg
  (Q2_ok z (good_pointsU [P2, P2'] (b := "loop") (by simp))) (at_two "loop") (fun _ => rfl) (.inl rfl)
example (z : Fin 4 → ℝ) := C80_sum_uk3d (U3_ok z) (U3_sph z) rfl (fun h => absurd h nospec3) U3_neg
  (Q3_ok z (good_pointsU3 [P3, P3'] (b := "loop") (by simp))) (at_two3 "loop") (fun _ => rfl) (.inl rfl)
example (z : Fin 4 → ℝ) := C80_mean_2d (S2_ok z) (S2_adm z fits_none) rfl rfl rfl (S2_params z ▸ sph_valid) (S2_sph z) rfl
  (R2_ok z (good_points [P2, P2'] (b := "C") (by simp))) (at_two "C") (fun _ => rfl) (fun _ => off2) half_nonneg half_sum
example (z : Fin 4 → ℝ) := C80_mean_3d (S3_ok z) stdEnv_knn rfl rfl (S3_params z ▸ sph_valid) (S3_sph z) rfl
  (R3_ok z (good_points3 [P3, P3'] (b := "loop") (by simp))) (at_two3 "loop") (fun _ => rfl) (fun _ => off3) half_nonneg half_sum
example (z : Fin 4 → ℝ) := C80_mean_uk (U2_ok z) (fun h => absurd h nospec) rfl (U2_params z ▸ sph_valid) (U2_sph z) rfl
  (Q2_ok z (good_pointsU [P2, P2'] (b := "loop") (by simp))) (at_two "loop") (fun _ => rfl) (.inl rfl) (fun _ => off2) half_nonneg half_sum
example (z : Fin 4 → ℝ) := C80_mean_uk3d (U3_ok z) (fun h => absurd h nospec3) rfl (U3_params z ▸ sph_valid) (U3_sph z) rfl
  (Q3_ok z (good_pointsU3 [P3, P3'] (b := "loop") (by simp))) (at_two3 "loop") (fun _ => rfl) (.inl rfl) (fun _ => off3) half_nonneg half_sum

end Demo

end
end PyKrige
