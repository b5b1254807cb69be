import Verif.Lemmas.Laws
import Verif.Lemmas.UKDrift
import Verif.Examples.Demo

/-!
# C21: universal kriging reproduces its drift

`combination a coef d = a + ∑ coefₗ dₗ`: if the data values are this combination of the drift terms at the data,
every estimate is the same combination of the drift terms at the query point.  With `regional_linear` every
affine function of the original coordinates is reproduced, whatever the anisotropy.
-/

set_option linter.unusedSectionVars false

namespace PyKrige
noncomputable section
open Matrix Spec

/-- A constant plus a linear combination of drift values (`coef` as long as `d`; missing coefficients count as
zero). -/
def Spec.combination (a : ℝ) (coef d : List ℝ) : ℝ := a + (List.zipWith (· * ·) coef d).sum

theorem zipWith_sum_ofFn {L : ℕ} (coef : List ℝ) (g : Fin L → ℝ) :
    (List.zipWith (· * ·) coef (List.ofFn g)).sum = ∑ l : Fin L, coef.getD l 0 * g l := by
  induction coef generalizing L with
  | nil => simp
  | cons c t ih =>
    cases L with
    | zero => simp
    | succ L =>
      rw [List.ofFn_succ, List.zipWith_cons_cons, List.sum_cons, ih, Fin.sum_univ_succ]
      simp

theorem combination_weights {n L : ℕ} {row : WRow n} {F : Fin L → Fin n → ℝ} {f : Fin L → ℝ}
    (h1 : ∑ i, row.w i = 1) (h2 : ∀ l, ∑ i, row.w i * F l i = f l) (a : ℝ) (coef : List ℝ) {z : Fin n → ℝ}
    (hz : ∀ i, z i = combination a coef (List.ofFn fun l => F l i)) :
    estimate row.w z = combination a coef (List.ofFn f) := by
  unfold estimate combination
  simp only [hz, combination, zipWith_sum_ofFn, mul_add, Finset.sum_add_distrib]
  congr 1
  · rw [← Finset.sum_mul, h1, one_mul]
  · simp only [Finset.mul_sum]
    rw [Finset.sum_comm]
    refine Finset.sum_congr rfl fun l _ => ?_
    rw [← h2 l, Finset.mul_sum]
    exact Finset.sum_congr rfl fun i _ => by ring

/-- `UniversalKriging`: any combination of drift terms.  For specified drift the backend is "vectorized"
(C24 tells what "loop" does). -/
theorem C21_drift_uk {n : ℕ} {env : Env} {x y z : Fin n → ℝ} {args : UKArgs} {s : UK n}
    (h : UK.create env x y z args = .ok s) {ea : UKExecArgs} (hp : args.pseudoInv = false)
    (hs : "specified" ∈ args.driftTerms → ea.toExec.backend = "vectorized") (a : ℝ) (coef : List ℝ)
    (hz : ∀ i, z i = combination a coef
      (driftTerms2 args s.adjustPoint (specAtDatum args.specifiedDrift i) (x i, y i)))
    {r : ExecResult} (hr : s.execute ea = .ok r) {j : ℕ} {v : ℝ} (hv : r.z[j]? = some (some v)) :
    ∃ p, queryAt ea.toExec j = some p ∧
      v = combination a coef (driftTerms2 args s.adjustPoint (specAtQuery ea j) p) := by
  obtain ⟨-, -, hpi, -, -, -, hZ⟩ := UK.create_fields h
  obtain ⟨p, row, hq, -, hF, rfl, -⟩ :=
    (UK.create_weighs h ea).entry (z := s.Z) (lags := s.lags) (stats := s.stats) hr hv
  obtain ⟨γ, L, F, f, -, hk, h1, h2⟩ := hF.args h hq hs
  obtain ⟨w, ν, μ, e⟩ := hk.krigedEqs (Or.inl (hpi.trans hp))
  refine ⟨p, hq, ?_⟩
  rw [hZ, ← h2]
  exact combination_weights e.sum_one e.drift a coef fun i => by rw [hz i, h1 i]

/-- `UniversalKriging3D`. -/
theorem C21_drift_uk3d {n : ℕ} {env : Env} {x y z v : Fin n → ℝ} {args : UK3DArgs} {s : UK3D n}
    (h : UK3D.create env x y z v args = .ok s) {ea : UK3DExecArgs} (hp : args.pseudoInv = false)
    (hs : "specified" ∈ args.driftTerms → ea.toExec.backend = "vectorized") (a : ℝ) (coef : List ℝ)
    (hz : ∀ i, v i = combination a coef
      (driftTerms3 args s.adjustPoint (specAtDatum args.specifiedDrift i) (x i, y i, z i)))
    {r : ExecResult} (hr : s.execute ea = .ok r) {j : ℕ} {e : ℝ} (hv : r.z[j]? = some (some e)) :
    ∃ p, queryAt3 ea.toExec j = some p ∧
      e = combination a coef (driftTerms3 args s.adjustPoint (specAtQuery3 ea j) p) := by
  obtain ⟨-, -, hpi, -, -, -, -, hZ⟩ := UK3D.create_fields h
  obtain ⟨p, row, hq, -, hF, rfl, -⟩ :=
    (UK3D.create_weighs h ea).entry (z := s.VALUES) (lags := s.lags) (stats := s.stats) hr hv
  obtain ⟨γ, L, F, f, -, hk, h1, h2⟩ := hF.args h hq hs
  obtain ⟨w, ν, μ, e⟩ := hk.krigedEqs (Or.inl (hpi.trans hp))
  refine ⟨p, hq, ?_⟩
  rw [hZ, ← h2]
  exact combination_weights e.sum_one e.drift a coef fun i => by rw [hz i, h1 i]

/-! ### Affine functions of the original coordinates -/

theorem adjust2_apply (c : Fin 2 → ℝ) (sc an : ℝ) (p : Fin 2 → ℝ) :
    adjust2 c sc an p 0 = Real.cos (an * Real.pi / 180) * (p 0 - c 0) +
      Real.sin (an * Real.pi / 180) * (p 1 - c 1) + c 0 ∧
    adjust2 c sc an p 1 = sc * (-Real.sin (an * Real.pi / 180) * (p 0 - c 0) +
      Real.cos (an * Real.pi / 180) * (p 1 - c 1)) + c 1 := by
  constructor <;> simp [adjust2, dotProduct, Fin.sum_univ_two, mul_comm]

theorem affine_adjust2 (c : Fin 2 → ℝ) {sc : ℝ} (hs : sc ≠ 0) (an b₀ b₁ : ℝ) :
    ∃ a b b', ∀ p : Fin 2 → ℝ, b₀ * p 0 + b₁ * p 1 = a + (b * adjust2 c sc an p 0 + b' * adjust2 c sc an p 1) := by
  set C := Real.cos (an * Real.pi / 180)
  set S := Real.sin (an * Real.pi / 180)
  have h : C * C + S * S = 1 := by
    have := Real.sin_sq_add_cos_sq (an * Real.pi / 180)
    simp only [C, S]; nlinarith
  refine ⟨b₀ * c 0 + b₁ * c 1 - (b₀ * C + b₁ * S) * c 0 - (-b₀ * S + b₁ * C) / sc * c 1, b₀ * C + b₁ * S,
    (-b₀ * S + b₁ * C) / sc, fun p => ?_⟩
  rw [(adjust2_apply c sc an p).1, (adjust2_apply c sc an p).2]
  change _ = _ + (_ * (C * _ + S * _ + _) + _ * (sc * (-S * _ + C * _) + _))
  have e : (-b₀ * S + b₁ * C) / sc * (sc * (-S * (p 0 - c 0) + C * (p 1 - c 1)) + c 1) =
      (-b₀ * S + b₁ * C) * (-S * (p 0 - c 0) + C * (p 1 - c 1)) + (-b₀ * S + b₁ * C) / sc * c 1 := by
    field_simp
  rw [e]
  linear_combination (-b₀ * p 0 - b₁ * p 1 + b₀ * c 0 + b₁ * c 1) * h

theorem adjust3_eq (c : Fin 3 → ℝ) (sc : Fin 2 → ℝ) (an : Fin 3 → ℝ) : ∃ R : Matrix (Fin 3) (Fin 3) ℝ, R.det = 1 ∧
    ∀ p, adjust3 c sc an p = (!![1, 0, 0; 0, sc 0, 0; 0, 0, sc 1] : Matrix (Fin 3) (Fin 3) ℝ) *ᵥ (R *ᵥ (p - c)) + c := by
  refine ⟨_, ?_, fun p => rfl⟩
  have h : ∀ t : ℝ, Real.cos t * Real.cos t + Real.sin t * Real.sin t = 1 := fun t => by
    have := Real.sin_sq_add_cos_sq t
    nlinarith
  simp only [det_mul, det_fin_three, of_apply, cons_val', cons_val_zero, cons_val_one, cons_val_two, head_cons,
    tail_cons, empty_val', cons_val_fin_one, head_fin_const, Real.cos_neg, Real.sin_neg]
  have h0 := h (an 0 * Real.pi / 180)
  have h1 := h (an 1 * Real.pi / 180)
  have h2 := h (an 2 * Real.pi / 180)
  have hh : (_ * _) * _ = (1 * 1) * (1 : ℝ) := congrArg₂ (· * ·) (congrArg₂ (· * ·) h0 h1) h2
  linear_combination hh

theorem affine_adjust3 (c : Fin 3 → ℝ) {sc : Fin 2 → ℝ} (h0 : sc 0 ≠ 0) (h1 : sc 1 ≠ 0) (an b : Fin 3 → ℝ) :
    ∃ a, ∃ b' : Fin 3 → ℝ, ∀ p, b ⬝ᵥ p = a + b' ⬝ᵥ adjust3 c sc an p := by
  obtain ⟨R, hR, e⟩ := adjust3_eq c sc an
  set S : Matrix (Fin 3) (Fin 3) ℝ := !![1, 0, 0; 0, sc 0, 0; 0, 0, sc 1] with hS
  have hM : IsUnit (S * R).det := by
    rw [det_mul, hR, isUnit_iff_ne_zero, hS, det_fin_three]
    simp [h0, h1]
  refine ⟨b ⬝ᵥ c - (b ᵥ* (S * R)⁻¹) ⬝ᵥ c, b ᵥ* (S * R)⁻¹, fun p => ?_⟩
  have e1 : (b ᵥ* (S * R)⁻¹) ⬝ᵥ ((S * R) *ᵥ (p - c)) = b ⬝ᵥ (p - c) := by
    rw [← dotProduct_mulVec, mulVec_mulVec, nonsing_inv_mul _ hM, one_mulVec]
  rw [e, mulVec_mulVec, dotProduct_add, e1, dotProduct_sub]
  ring

/-- A drift term that is constant on the data makes the system singular. -/
theorem not_regular_of_const {n L : ℕ} {G : Fin n → Fin n → ℝ} {F : Fin L → Fin n → ℝ} {l : Fin L} {c : ℝ}
    (h : ∀ i, F l i = c) : ¬ Regular G F := by
  intro hr
  have := (hr 0 (Pi.single l 1) (-c) ⟨fun i => by simp [Pi.single_apply, h i], by simp, by simp⟩).2.1
  simpa using congrFun this l

theorem ofFn_getD {L : ℕ} (g : Fin L → ℝ) (l : Fin L) (d : ℝ) : (List.ofFn g).getD l d = g l := by
  simp

/-- `UniversalKriging` with regional linear drift reproduces every affine function of the coordinates as given
by the user. -/
theorem C21_affine_uk {n : ℕ} {env : Env} {x y z : Fin n → ℝ} {args : UKArgs} {s : UK n}
    (h : UK.create env x y z args = .ok s) {ea : UKExecArgs} (hp : args.pseudoInv = false)
    (hd : "regional_linear" ∈ args.driftTerms)
    (hs : "specified" ∈ args.driftTerms → ea.toExec.backend = "vectorized") (a b₀ b₁ : ℝ)
    (hz : ∀ i, z i = a + b₀ * x i + b₁ * y i)
    {r : ExecResult} (hr : s.execute ea = .ok r) {j : ℕ} {v : ℝ} (hv : r.z[j]? = some (some v)) :
    ∃ p, queryAt ea.toExec j = some p ∧ v = a + b₀ * p.1 + b₁ * p.2 := by
  have hne : s.anisotropyScaling ≠ 0 := by
    intro h0
    obtain ⟨-, -, hpi, -⟩ := UK.create_fields h
    obtain ⟨p, row, hq, -, hF, -, -⟩ :=
      (UK.create_weighs h ea).entry (z := s.Z) (lags := s.lags) (stats := s.stats) hr hv
    obtain ⟨γ, L, F, f, -, hk, h1, h2⟩ := hF.args h hq hs
    have hl := congrArg List.length h2
    simp only [List.length_ofFn, driftTerms2, if_pos hd, List.length_append, List.length_cons,
      List.length_nil] at hl
    have hL : 1 < L := by omega
    refine not_regular_of_const (l := ⟨1, hL⟩) (c := s.YCENTER) (fun i => ?_)
      (hk.solvable.resolve_left (by rw [hpi, hp]; simp))
    have e := congrArg (fun l => l.getD 1 0) (h1 i)
    simp only [driftTerms2, if_pos hd] at e
    rw [show (1 : ℕ) = ((⟨1, hL⟩ : Fin L) : ℕ) from rfl, ofFn_getD] at e
    rw [id, e]
    simp [UK.adjustPoint, adjust2_apply, h0]
  obtain ⟨a', b, b', hab⟩ := affine_adjust2 ![s.XCENTER, s.YCENTER] hne s.anisotropyAngle b₀ b₁
  have key : ∀ (sv : List ℝ) (p : ℝ × ℝ), a + b₀ * p.1 + b₁ * p.2 =
      combination (a + a') [b, b'] (driftTerms2 args s.adjustPoint sv p) := by
    intro sv p
    have := hab ![p.1, p.2]
    simp only [cons_val_zero, cons_val_one] at this
    simp only [combination, driftTerms2, if_pos hd, List.cons_append, List.nil_append, List.zipWith_cons_cons,
      List.zipWith_nil_left, List.sum_cons, List.sum_nil, UK.adjustPoint]
    linarith
  obtain ⟨p, hq, e⟩ := C21_drift_uk h hp hs (a + a') [b, b'] (fun i => (hz i).trans (key _ (x i, y i))) hr hv
  exact ⟨p, hq, e.trans (key _ p).symm⟩

/-- `UniversalKriging3D` with regional linear drift. -/
theorem C21_affine_uk3d {n : ℕ} {env : Env} {x y z v : Fin n → ℝ} {args : UK3DArgs} {s : UK3D n}
    (h : UK3D.create env x y z v args = .ok s) {ea : UK3DExecArgs} (hp : args.pseudoInv = false)
    (hd : "regional_linear" ∈ args.driftTerms)
    (hs : "specified" ∈ args.driftTerms → ea.toExec.backend = "vectorized") (a b₀ b₁ b₂ : ℝ)
    (hz : ∀ i, v i = a + b₀ * x i + b₁ * y i + b₂ * z i)
    {r : ExecResult} (hr : s.execute ea = .ok r) {j : ℕ} {e : ℝ} (hv : r.z[j]? = some (some e)) :
    ∃ p, queryAt3 ea.toExec j = some p ∧ e = a + b₀ * p.1 + b₁ * p.2.1 + b₂ * p.2.2 := by
  obtain ⟨-, -, hpi, -⟩ := UK3D.create_fields h
  obtain ⟨p, row, hq, -, hF, -, -⟩ :=
    (UK3D.create_weighs h ea).entry (z := s.VALUES) (lags := s.lags) (stats := s.stats) hr hv
  obtain ⟨γ, L, F, f, -, hk, h1, h2⟩ := hF.args h hq hs
  have hl := congrArg List.length h2
  simp only [List.length_ofFn, driftTerms3, if_pos hd, List.length_append, List.length_cons,
    List.length_nil] at hl
  have hL : 2 < L := by omega
  have hreg := hk.solvable.resolve_left (by rw [hpi, hp]; simp)
  have hY : s.aniso.scalingY ≠ 0 := by
    intro h0
    refine not_regular_of_const (l := ⟨1, by omega⟩) (c := s.YCENTER) (fun i => ?_) hreg
    have e := congrArg (fun l => l.getD 1 0) (h1 i)
    simp only [driftTerms3, if_pos hd] at e
    rw [show (1 : ℕ) = ((⟨1, by omega⟩ : Fin L) : ℕ) from rfl, ofFn_getD] at e
    obtain ⟨R, -, eR⟩ := adjust3_eq ![s.XCENTER, s.YCENTER, s.ZCENTER] ![s.aniso.scalingY, s.aniso.scalingZ]
      ![s.aniso.angleX, s.aniso.angleY, s.aniso.angleZ]
    have e' : s.adjustPoint (x i, y i, z i) 1 = s.YCENTER := by
      unfold UK3D.adjustPoint adjustPoint3
      rw [eR]
      generalize R *ᵥ _ = u
      simp [dotProduct, Fin.sum_univ_three, h0]
    rw [id, e]
    simp [e']
  have hZ : s.aniso.scalingZ ≠ 0 := by
    intro h0
    refine not_regular_of_const (l := ⟨2, by omega⟩) (c := s.ZCENTER) (fun i => ?_) hreg
    have e := congrArg (fun l => l.getD 2 0) (h1 i)
    simp only [driftTerms3, if_pos hd] at e
    rw [show (2 : ℕ) = ((⟨2, by omega⟩ : Fin L) : ℕ) from rfl, ofFn_getD] at e
    obtain ⟨R, -, eR⟩ := adjust3_eq ![s.XCENTER, s.YCENTER, s.ZCENTER] ![s.aniso.scalingY, s.aniso.scalingZ]
      ![s.aniso.angleX, s.aniso.angleY, s.aniso.angleZ]
    have e' : s.adjustPoint (x i, y i, z i) 2 = s.ZCENTER := by
      unfold UK3D.adjustPoint adjustPoint3
      rw [eR]
      generalize R *ᵥ _ = u
      simp [dotProduct, Fin.sum_univ_three, h0]
    rw [id, e]
    simp [e']
  obtain ⟨a', b, hab⟩ := affine_adjust3 ![s.XCENTER, s.YCENTER, s.ZCENTER]
    (sc := ![s.aniso.scalingY, s.aniso.scalingZ]) hY hZ ![s.aniso.angleX, s.aniso.angleY, s.aniso.angleZ] ![b₀, b₁, b₂]
  have key : ∀ (sv : List ℝ) (p : ℝ × ℝ × ℝ), a + b₀ * p.1 + b₁ * p.2.1 + b₂ * p.2.2 =
      combination (a + a') [b 0, b 1, b 2] (driftTerms3 args s.adjustPoint sv p) := by
    intro sv p
    have := hab ![p.1, p.2.1, p.2.2]
    simp only [dotProduct, Fin.sum_univ_three, cons_val_zero, cons_val_one, cons_val_two, head_cons, tail_cons,
      cons_val] at this
    simp only [combination, driftTerms3, if_pos hd, List.cons_append, List.nil_append, List.zipWith_cons_cons,
      List.zipWith_nil_left, List.sum_cons, List.sum_nil, UK3D.adjustPoint, adjustPoint3]
    linarith
  obtain ⟨p, hq, e⟩ := C21_drift_uk3d h hp hs (a + a') [b 0, b 1, b 2]
    (fun i => (hz i).trans (key _ (x i, y i, z i))) hr hv
  exact ⟨p, hq, e.trans (key _ p).symm⟩

/-! The hypotheses are met: drift `x`, data `2 + 3 x` at `(0, 0)`, `(1, 0)`. -/

example (c : ℝ) (b : String) (hb : b = "vectorized" ∨ b = "loop") : ∃ s r,
    UK.create stdEnv Demo.X Demo.O ![2, 5] (Demo.uargs c true false) = .ok s ∧
    (∀ i, ![2, 5] i = combination 2 [3] (driftTerms2 (Demo.uargs c true false) s.adjustPoint
      (specAtDatum (Demo.uargs c true false).specifiedDrift i) (Demo.X i, Demo.O i))) ∧
    s.execute { toExec := Demo.pts [(1 / 2, 0), (3, 4)] b } = .ok r := by
  obtain ⟨s, h, hp, hv, hn, hsc, han, -⟩ := Demo.uk ![2, 5] c true false
  obtain ⟨r, hr⟩ := Demo.uk_run h [(1 / 2, 0), (3, 4)] hb
  refine ⟨s, r, h, fun i => ?_, hr⟩
  have : ∀ p : ℝ × ℝ, s.adjustPoint p = ![p.1, p.2] := fun p => by rw [UK.adjustPoint, hsc, han, adjust2_id]
  fin_cases i
  · simp [combination, driftTerms2, Demo.uargs, this, Demo.X]
  · simp [combination, driftTerms2, Demo.uargs, this, Demo.X]; norm_num

end
end PyKrige
