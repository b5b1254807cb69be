import Verif.Lemmas.Shift

/-! Universal kriging with the regional linear drift under affine maps that keep the distances. -/

set_option linter.unusedSectionVars false

namespace PyKrige
noncomputable section
open Matrix Spec

/-- The linear part of the anisotropy correction. -/
def anisoMat2 (sc an : ℝ) : Matrix (Fin 2) (Fin 2) ℝ :=
  !![1, 0; 0, sc] * !![Real.cos (-(an * Real.pi / 180)), -Real.sin (-(an * Real.pi / 180));
    Real.sin (-(an * Real.pi / 180)), Real.cos (-(an * Real.pi / 180))]

theorem adjust2_mat (c p : Fin 2 → ℝ) (sc an : ℝ) : adjust2 c sc an p = anisoMat2 sc an *ᵥ (p - c) + c := by
  unfold adjust2 anisoMat2
  dsimp only
  rw [← Matrix.mulVec_mulVec]

theorem det_anisoMat2 (sc an : ℝ) : (anisoMat2 sc an).det = sc := by
  unfold anisoMat2
  rw [Matrix.det_mul, Matrix.det_fin_two_of, Matrix.det_fin_two_of]
  have := Real.sin_sq_add_cos_sq (-(an * Real.pi / 180))
  linear_combination sc * this

def anisoMat3 (an : Aniso3) : Matrix (Fin 3) (Fin 3) ℝ :=
  !![1, 0, 0; 0, an.scalingY, 0; 0, 0, an.scalingZ] *
  (!![Real.cos (-(an.angleZ * Real.pi / 180)), -Real.sin (-(an.angleZ * Real.pi / 180)), 0;
      Real.sin (-(an.angleZ * Real.pi / 180)), Real.cos (-(an.angleZ * Real.pi / 180)), 0; 0, 0, 1] *
  (!![Real.cos (-(an.angleY * Real.pi / 180)), 0, Real.sin (-(an.angleY * Real.pi / 180)); 0, 1, 0;
      -Real.sin (-(an.angleY * Real.pi / 180)), 0, Real.cos (-(an.angleY * Real.pi / 180))] *
   !![1, 0, 0; 0, Real.cos (-(an.angleX * Real.pi / 180)), -Real.sin (-(an.angleX * Real.pi / 180));
      0, Real.sin (-(an.angleX * Real.pi / 180)), Real.cos (-(an.angleX * Real.pi / 180))]))

theorem adjust3_mat (c p : Fin 3 → ℝ) (an : Aniso3) :
    adjust3 c ![an.scalingY, an.scalingZ] ![an.angleX, an.angleY, an.angleZ] p =
      anisoMat3 an *ᵥ (p - c) + c := by
  unfold adjust3 anisoMat3
  dsimp only
  rw [Matrix.mulVec_mulVec]
  rfl

theorem det_anisoMat3 (an : Aniso3) : (anisoMat3 an).det = an.scalingY * an.scalingZ := by
  unfold anisoMat3
  rw [Matrix.det_mul, Matrix.det_mul, Matrix.det_mul]
  have hx := Real.sin_sq_add_cos_sq (-(an.angleX * Real.pi / 180))
  have hy := Real.sin_sq_add_cos_sq (-(an.angleY * Real.pi / 180))
  have hz := Real.sin_sq_add_cos_sq (-(an.angleZ * Real.pi / 180))
  simp only [Matrix.det_fin_three, Matrix.of_apply, Matrix.cons_val', Matrix.cons_val_zero, Matrix.cons_val_one,
    Matrix.cons_val, Matrix.cons_val_fin_one]
  generalize Real.sin (-(an.angleX * Real.pi / 180)) = s1 at *
  generalize Real.cos (-(an.angleX * Real.pi / 180)) = c1 at *
  generalize Real.sin (-(an.angleY * Real.pi / 180)) = s2 at *
  generalize Real.cos (-(an.angleY * Real.pi / 180)) = c2 at *
  generalize Real.sin (-(an.angleZ * Real.pi / 180)) = s3 at *
  generalize Real.cos (-(an.angleZ * Real.pi / 180)) = c3 at *
  have e1 : c1 * c1 = 1 - s1 * s1 := by linear_combination hx
  have e2 : c2 * c2 = 1 - s2 * s2 := by linear_combination hy
  have e3 : c3 * c3 = 1 - s3 * s3 := by linear_combination hz
  ring_nf
  have f1 : c1 ^ 2 = 1 - s1 ^ 2 := by linear_combination hx
  have f2 : c2 ^ 2 = 1 - s2 ^ 2 := by linear_combination hy
  have f3 : c3 ^ 2 = 1 - s3 ^ 2 := by linear_combination hz
  simp only [f1, f2, f3]
  ring

/-- Kriging with linear drift: the adjusted coordinates matter only up to an invertible affine map. -/
theorem affine_span {n m : ℕ} {A : Matrix (Fin m) (Fin m) ℝ} (hA : A.det ≠ 0) (c : Fin m → ℝ)
    {P P' : Fin n → Fin m → ℝ} {q q' : Fin m → ℝ} (hP : ∀ i, P' i = A *ᵥ P i + c) (hq : q' = A *ᵥ q + c)
    {G : Fin n → Fin n → ℝ} (hr : Regular G fun (k : Fin m) i => P i k) (b b' : Bool) (z g : Fin n → ℝ) :
    (Regular G fun (k : Fin m) i => P' i k) ∧
    krigAnswer b' G (fun (k : Fin m) i => P' i k) z g q' = krigAnswer b G (fun (k : Fin m) i => P i k) z g q := by
  have hu : IsUnit A.det := isUnit_iff_ne_zero.2 hA
  have back : ∀ v v' : Fin m → ℝ, v' = A *ᵥ v + c → v = A⁻¹ *ᵥ v' + -(A⁻¹ *ᵥ c) := by
    intro v v' h
    rw [h, Matrix.mulVec_add, Matrix.mulVec_mulVec, Matrix.nonsing_inv_mul A hu, Matrix.one_mulVec]
    simp
  have hs : SameSpan (fun (k : Fin m) i => P i k) q (fun (k : Fin m) i => P' i k) q' (fun a b => A a b)
      (fun a b => A⁻¹ a b) c (-(A⁻¹ *ᵥ c)) := by
    refine ⟨fun l i => ?_, fun l => ?_, fun l i => ?_, fun l => ?_⟩
    · rw [hP i]; rfl
    · rw [hq]; rfl
    · exact congrFun (back _ _ (hP i)) l
    · exact congrFun (back _ _ hq) l
  have hAB : ∀ l m', ∑ k, A l k * A⁻¹ k m' = if l = m' then 1 else 0 := by
    intro l m'
    have := congrFun (congrFun (Matrix.mul_nonsing_inv A hu) l) m'
    rw [Matrix.mul_apply, Matrix.one_apply] at this
    exact this
  exact ⟨regular_span hs hAB hr, krigAnswer_span hs hAB hr b b' z g⟩

theorem affine_span2 {n : ℕ} {A : Matrix (Fin 2) (Fin 2) ℝ} (hA : A.det ≠ 0) (c : Fin 2 → ℝ)
    {P P' : Fin n → Fin 2 → ℝ} {q q' : Fin 2 → ℝ} (hP : ∀ i, P' i = A *ᵥ P i + c) (hq : q' = A *ᵥ q + c)
    {G : Fin n → Fin n → ℝ} (hr : RegularL G [fun i => P i 0, fun i => P i 1]) (b b' : Bool) (z g : Fin n → ℝ) :
    RegularL G [fun i => P' i 0, fun i => P' i 1] ∧
    krigAnswerL b' G [fun i => P' i 0, fun i => P' i 1] z g [q' 0, q' 1] =
      krigAnswerL b G [fun i => P i 0, fun i => P i 1] z g [q 0, q 1] := by
  have e : ∀ Q : Fin n → Fin 2 → ℝ, (List.get [fun i => Q i 0, fun i => Q i 1] : Fin 2 → Fin n → ℝ) =
      fun (k : Fin 2) i => Q i k := by
    intro Q; funext k i; fin_cases k <;> rfl
  have e' : ∀ u : Fin 2 → ℝ, (fun l : Fin 2 => [u 0, u 1].getD l.val 0) = u := by
    intro u; funext k; fin_cases k <;> rfl
  have h0 : Regular G (List.get [fun i => P i 0, fun i => P i 1] : Fin 2 → Fin n → ℝ) := hr
  rw [e] at h0
  obtain ⟨r1, r2⟩ := affine_span hA c hP hq h0 b b' z g
  have r1' := r1
  rw [← e] at r1'
  refine ⟨r1', ?_⟩
  have h3 : krigAnswer b' G (List.get [fun i => P' i 0, fun i => P' i 1] : Fin 2 → Fin n → ℝ) z g
      (fun l : Fin 2 => [q' 0, q' 1].getD l.val 0) =
    krigAnswer b G (List.get [fun i => P i 0, fun i => P i 1] : Fin 2 → Fin n → ℝ) z g
      (fun l : Fin 2 => [q 0, q 1].getD l.val 0) := by
    rw [e, e, e', e']
    exact r2
  exact h3

theorem affine_span3 {n : ℕ} {A : Matrix (Fin 3) (Fin 3) ℝ} (hA : A.det ≠ 0) (c : Fin 3 → ℝ)
    {P P' : Fin n → Fin 3 → ℝ} {q q' : Fin 3 → ℝ} (hP : ∀ i, P' i = A *ᵥ P i + c) (hq : q' = A *ᵥ q + c)
    {G : Fin n → Fin n → ℝ} (hr : RegularL G [fun i => P i 0, fun i => P i 1, fun i => P i 2]) (b b' : Bool)
    (z g : Fin n → ℝ) :
    RegularL G [fun i => P' i 0, fun i => P' i 1, fun i => P' i 2] ∧
    krigAnswerL b' G [fun i => P' i 0, fun i => P' i 1, fun i => P' i 2] z g [q' 0, q' 1, q' 2] =
      krigAnswerL b G [fun i => P i 0, fun i => P i 1, fun i => P i 2] z g [q 0, q 1, q 2] := by
  have e : ∀ Q : Fin n → Fin 3 → ℝ, (List.get [fun i => Q i 0, fun i => Q i 1, fun i => Q i 2] : Fin 3 → Fin n → ℝ) =
      fun (k : Fin 3) i => Q i k := by
    intro Q; funext k i; fin_cases k <;> rfl
  have e' : ∀ u : Fin 3 → ℝ, (fun l : Fin 3 => [u 0, u 1, u 2].getD l.val 0) = u := by
    intro u; funext k; fin_cases k <;> rfl
  have h0 : Regular G (List.get [fun i => P i 0, fun i => P i 1, fun i => P i 2] : Fin 3 → Fin n → ℝ) := hr
  rw [e] at h0
  obtain ⟨r1, r2⟩ := affine_span hA c hP hq h0 b b' z g
  have r1' := r1
  rw [← e] at r1'
  refine ⟨r1', ?_⟩
  have h3 : krigAnswer b' G (List.get [fun i => P' i 0, fun i => P' i 1, fun i => P' i 2] : Fin 3 → Fin n → ℝ) z g
      (fun l : Fin 3 => [q' 0, q' 1, q' 2].getD l.val 0) =
    krigAnswer b G (List.get [fun i => P i 0, fun i => P i 1, fun i => P i 2] : Fin 3 → Fin n → ℝ) z g
      (fun l : Fin 3 => [q 0, q 1, q 2].getD l.val 0) := by
    rw [e, e, e', e']
    exact r2
  exact h3

/-! ### The constructors -/

/-- `UniversalKriging` without other drift terms than the regional linear one, on locations with the same
distances. -/
theorem UK.create_metric {n : ℕ} {env : Env} {x y z : Fin n → ℝ} {args : UKArgs} {s : UK n}
    (h : UK.create env x y z args = .ok s) (hdt : ∀ t ∈ args.driftTerms, t = "regional_linear")
    (x' y' : Fin n → ℝ) (sc' an' : ℝ)
    (hd : ∀ i j, anisoDist2 (effScaling args.variogramModel args.anisotropyScaling)
        (effAngle args.variogramModel args.anisotropyAngle) (x i, y i) (x j, y j) =
      anisoDist2 (effScaling args.variogramModel sc') (effAngle args.variogramModel an') (x' i, y' i) (x' j, y' j)) :
    ∃ s', UK.create env x' y' z { args with anisotropyScaling := sc', anisotropyAngle := an' } = .ok s' ∧
      s'.variogramFunction = s.variogramFunction ∧ s'.params = s.params ∧ s'.exactValues = s.exactValues ∧
      s'.pseudoInv = s.pseudoInv ∧ s'.pseudoInvType = s.pseudoInvType ∧ s'.Z = s.Z ∧ s'.lags = s.lags ∧
      s'.stats = s.stats ∧ s'.regionalLinear = s.regionalLinear ∧
      (s.pointLog = none ∧ s.externalZ = none ∧ s.specified = none ∧ s.functional = none) ∧
      (s'.pointLog = none ∧ s'.externalZ = none ∧ s'.specified = none ∧ s'.functional = none) := by
  obtain ⟨hp, exact, name, model, fArg, pArg, sc, an, f, fname, xc, yc, vp, lags, ps, stats, ext, plog, spec,
    func, h1, h2, h3, h4, h5, h6, h7, h8, h9, h10, h11, h12, rfl⟩ := UK.create_ok h
  obtain ⟨rfl, rfl, h2'⟩ := UK.resolveModel_eff h2
  have hn := pos_of_midrange h4
  obtain ⟨xc', hx'⟩ := midrange_exists hn x'
  obtain ⟨yc', hy'⟩ := midrange_exists hn y'
  have hsd := sameDist2 xc yc xc' yc' hd
  have h7' := h7
  rw [hsd.initialize] at h7'
  have h8' := h8
  rw [hsd.statistics] at h8'
  have n1 : "external_Z" ∉ args.driftTerms := fun hc => absurd (hdt _ hc) (by decide)
  have n2 : "point_log" ∉ args.driftTerms := fun hc => absurd (hdt _ hc) (by decide)
  have n3 : "specified" ∉ args.driftTerms := fun hc => absurd (hdt _ hc) (by decide)
  have n4 : "functional" ∉ args.driftTerms := fun hc => absurd (hdt _ hc) (by decide)
  simp only [setupExternalZ, if_neg n1, Except.ok.injEq] at h9
  simp only [setupPointLog, if_neg n2, Except.ok.injEq] at h10
  simp only [setupSpecifiedTerm, if_neg n3, Except.ok.injEq] at h11
  simp only [setupFunctionalTerm, if_neg n4, Except.ok.injEq] at h12
  subst h9 h10 h11 h12
  refine ⟨⟨.name name, model, exact, args.pseudoInv, args.pseudoInvType, f, fname, x', y', z, xc', yc',
      effScaling args.variogramModel sc', effAngle args.variogramModel an',
      fun i => adjustData2 x' y' xc' yc' (effScaling args.variogramModel sc') (effAngle args.variogramModel an') i 0,
      fun i => adjustData2 x' y' xc' yc' (effScaling args.variogramModel sc') (effAngle args.variogramModel an') i 1,
      lags, ps, some stats, decide ("regional_linear" ∈ args.driftTerms), none, none, none, none⟩,
    ?_, ?_⟩
  · unfold UK.create
    rw [if_neg (not_not.2 hp)]
    simp only [py_pure, py_ok_bind, h1, h2' sc' an', h3, hx', hy', h6, h7', h8', setupExternalZ, if_neg n1,
      setupPointLog, if_neg n2, setupSpecifiedTerm, if_neg n3, setupFunctionalTerm, if_neg n4]
  · exact ⟨rfl, rfl, rfl, rfl, rfl, rfl, rfl, rfl, rfl, ⟨rfl, rfl, rfl, rfl⟩, rfl, rfl, rfl, rfl⟩

theorem UK3D.create_metric {n : ℕ} {env : Env} {x y z v : Fin n → ℝ} {args : UK3DArgs} {s : UK3D n}
    (h : UK3D.create env x y z v args = .ok s) (hdt : ∀ t ∈ args.driftTerms, t = "regional_linear")
    (x' y' z' : Fin n → ℝ) (an' : Aniso3)
    (hd : ∀ i j, distance3 (effAniso args.variogramModel args.aniso) (x i, y i, z i) (x j, y j, z j) =
      distance3 (effAniso args.variogramModel an') (x' i, y' i, z' i) (x' j, y' j, z' j)) :
    ∃ s', UK3D.create env x' y' z' v { args with aniso := an' } = .ok s' ∧
      s'.variogramFunction = s.variogramFunction ∧ s'.params = s.params ∧ s'.exactValues = s.exactValues ∧
      s'.pseudoInv = s.pseudoInv ∧ s'.pseudoInvType = s.pseudoInvType ∧ s'.VALUES = s.VALUES ∧ s'.lags = s.lags ∧
      s'.stats = s.stats ∧ s'.regionalLinear = s.regionalLinear ∧
      (s.specified = none ∧ s.functional = none) ∧ (s'.specified = none ∧ s'.functional = none) := by
  obtain ⟨hp, exact, name, model, fArg, pArg, an, f, fname, xc, yc, zc, vp, lags, ps, stats, spec, func,
    h1, h2, h3, h4, h5, h6, h7, h8, h9, h10, h11, rfl⟩ := UK3D.create_ok h
  obtain ⟨rfl, h2'⟩ := OK3D.resolveModel_eff h2
  have hn := pos_of_midrange h4
  obtain ⟨xc', hx'⟩ := midrange_exists hn x'
  obtain ⟨yc', hy'⟩ := midrange_exists hn y'
  obtain ⟨zc', hz'⟩ := midrange_exists hn z'
  have hsd := sameDist3 xc yc zc xc' yc' zc' hd
  have h8' := h8
  rw [hsd.initialize] at h8'
  have h9' := h9
  rw [hsd.statistics] at h9'
  have n3 : "specified" ∉ args.driftTerms := fun hc => absurd (hdt _ hc) (by decide)
  have n4 : "functional" ∉ args.driftTerms := fun hc => absurd (hdt _ hc) (by decide)
  simp only [setupSpecifiedTerm, if_neg n3, Except.ok.injEq] at h10
  simp only [setupFunctionalTerm, if_neg n4, Except.ok.injEq] at h11
  subst h10 h11
  refine ⟨⟨.name name, model, exact, args.pseudoInv, args.pseudoInvType, f, fname, x', y', z', v, xc', yc', zc',
      effAniso args.variogramModel an',
      fun i => adjustPoint3 xc' yc' zc' (effAniso args.variogramModel an') (x' i) (y' i) (z' i) 0,
      fun i => adjustPoint3 xc' yc' zc' (effAniso args.variogramModel an') (x' i) (y' i) (z' i) 1,
      fun i => adjustPoint3 xc' yc' zc' (effAniso args.variogramModel an') (x' i) (y' i) (z' i) 2,
      lags, ps, some stats, decide ("regional_linear" ∈ args.driftTerms), none, none⟩,
    ?_, ?_⟩
  · unfold UK3D.create
    rw [if_neg (not_not.2 hp)]
    simp only [py_pure, py_ok_bind, h1, h2' an', h3, hx', hy', hz', h7, h8', h9',
      setupSpecifiedTerm, if_neg n3, setupFunctionalTerm, if_neg n4]
  · exact ⟨rfl, rfl, rfl, rfl, rfl, rfl, rfl, rfl, rfl, ⟨rfl, rfl⟩, rfl, rfl⟩

/-! ### Affine maps -/

theorem affine_conj {m : ℕ} {M M' R : Matrix (Fin m) (Fin m) ℝ} (hM : M.det ≠ 0) (c c' t v : Fin m → ℝ) :
    M' *ᵥ (R *ᵥ v + t - c') + c' =
      (M' * R * M⁻¹) *ᵥ (M *ᵥ (v - c) + c) + (M' *ᵥ (R *ᵥ c + t - c') + c' - (M' * R * M⁻¹) *ᵥ c) := by
  have hu : IsUnit M.det := isUnit_iff_ne_zero.2 hM
  have e : (M' * R * M⁻¹) *ᵥ (M *ᵥ (v - c)) = M' *ᵥ (R *ᵥ (v - c)) := by
    rw [Matrix.mulVec_mulVec, Matrix.mul_assoc (M' * R), Matrix.nonsing_inv_mul M hu, Matrix.mul_one,
      Matrix.mulVec_mulVec]
  rw [Matrix.mulVec_add, e]
  simp only [Matrix.mulVec_add, Matrix.mulVec_sub]
  abel

theorem det_of_keeps {m : ℕ} {M M' R : Matrix (Fin m) (Fin m) ℝ} (hM : M.det ≠ 0)
    (h : ∀ v, (M' * R) *ᵥ v = 0 → M *ᵥ v = 0) : (M' * R * M⁻¹).det ≠ 0 := by
  have h1 : (M' * R).det ≠ 0 := by
    intro h0
    obtain ⟨v, hv, hv0⟩ := Matrix.exists_mulVec_eq_zero_iff.2 h0
    exact hM (Matrix.exists_mulVec_eq_zero_iff.1 ⟨v, hv, h v hv0⟩)
  rw [Matrix.det_mul]
  refine mul_ne_zero h1 ?_
  have := Matrix.isUnit_nonsing_inv_det M (isUnit_iff_ne_zero.2 hM)
  exact this.ne_zero

theorem affine2_vec (R : Matrix (Fin 2) (Fin 2) ℝ) (t p : ℝ × ℝ) :
    ![(affine2 R t p).1, (affine2 R t p).2] = R *ᵥ ![p.1, p.2] + ![t.1, t.2] := by
  funext k
  fin_cases k <;> simp [affine2, Matrix.mulVec, dotProduct, Fin.sum_univ_two]

theorem affine3_vec (R : Matrix (Fin 3) (Fin 3) ℝ) (t p : ℝ × ℝ × ℝ) :
    ![(affine3 R t p).1, (affine3 R t p).2.1, (affine3 R t p).2.2] = R *ᵥ ![p.1, p.2.1, p.2.2] + ![t.1, t.2.1, t.2.2] := by
  funext k
  fin_cases k <;> simp [affine3, Matrix.mulVec, dotProduct, Fin.sum_univ_three]

theorem anisoDist2_zero (sc an : ℝ) (p q : ℝ × ℝ) : anisoDist2 sc an p q = 0 ↔
    anisoMat2 sc an *ᵥ (![p.1, p.2] - ![q.1, q.2]) = 0 := by
  rw [← adjust2_euclid 0 sc an p q, adjust2_mat, adjust2_mat]
  constructor
  · intro h
    have := euclid_eq_zero.1 h
    simp only [sub_zero, add_zero] at this
    rw [Matrix.mulVec_sub, this, sub_self]
  · intro h
    rw [Matrix.mulVec_sub, sub_eq_zero] at h
    simp only [sub_zero, add_zero]
    rw [h]
    unfold euclid; simp

theorem distance3_zero (an : Aniso3) (p q : ℝ × ℝ × ℝ) : distance3 an p q = 0 ↔
    anisoMat3 an *ᵥ (![p.1, p.2.1, p.2.2] - ![q.1, q.2.1, q.2.2]) = 0 := by
  rw [← adjust3_euclid 0 an p q, adjust3_mat, adjust3_mat]
  constructor
  · intro h
    have := euclid_eq_zero.1 h
    simp only [sub_zero, add_zero] at this
    rw [Matrix.mulVec_sub, this, sub_self]
  · intro h
    rw [Matrix.mulVec_sub, sub_eq_zero] at h
    simp only [sub_zero, add_zero]
    rw [h]
    unfold euclid; simp

theorem affine2_det {R : Matrix (Fin 2) (Fin 2) ℝ} {t : ℝ × ℝ} {sc an sc' an' : ℝ}
    (hM : (anisoMat2 sc an).det ≠ 0)
    (hd : ∀ p q, anisoDist2 sc' an' (affine2 R t p) (affine2 R t q) = anisoDist2 sc an p q) :
    (anisoMat2 sc' an' * R * (anisoMat2 sc an)⁻¹).det ≠ 0 := by
  refine det_of_keeps hM fun v hv => ?_
  have h0 := hd (v 0, v 1) (0, 0)
  have ev : ![(v 0, v 1).1, (v 0, v 1).2] -
      ![((0 : ℝ), (0 : ℝ)).1, ((0 : ℝ), (0 : ℝ)).2] = v := by
    funext k; fin_cases k <;> simp
  have e0 : anisoDist2 sc' an' (affine2 R t (v 0, v 1)) (affine2 R t (0, 0)) = 0 := by
    rw [anisoDist2_zero, affine2_vec, affine2_vec, add_sub_add_right_eq_sub, ← Matrix.mulVec_sub,
      Matrix.mulVec_mulVec, ev]
    exact hv
  rw [e0] at h0
  have := (anisoDist2_zero _ _ _ _).1 h0.symm
  rw [ev] at this
  exact this

theorem UK.affine_adjust {n : ℕ} (s s' : UK n) {R : Matrix (Fin 2) (Fin 2) ℝ} {t : ℝ × ℝ}
    (hM : (anisoMat2 s.anisotropyScaling s.anisotropyAngle).det ≠ 0) : ∃ c, ∀ p, s'.adjustPoint (affine2 R t p) =
      (anisoMat2 s'.anisotropyScaling s'.anisotropyAngle * R *
        (anisoMat2 s.anisotropyScaling s.anisotropyAngle)⁻¹) *ᵥ s.adjustPoint p + c := by
  refine ⟨anisoMat2 s'.anisotropyScaling s'.anisotropyAngle *ᵥ (R *ᵥ ![s.XCENTER, s.YCENTER] + ![t.1, t.2] -
      ![s'.XCENTER, s'.YCENTER]) + ![s'.XCENTER, s'.YCENTER] -
      (anisoMat2 s'.anisotropyScaling s'.anisotropyAngle * R *
        (anisoMat2 s.anisotropyScaling s.anisotropyAngle)⁻¹) *ᵥ ![s.XCENTER, s.YCENTER], fun p => ?_⟩
  unfold UK.adjustPoint
  rw [adjust2_mat, adjust2_mat, affine2_vec]
  exact affine_conj hM _ _ _ _

theorem UK.affine_execute {n : ℕ} {s s' : UK n} (hs : s.Placed) (hs' : s'.Placed)
    (ht : s.pseudoInvType ∈ ["pinv", "pinvh"]) (hp : s.pseudoInv = false) {R : Matrix (Fin 2) (Fin 2) ℝ} {t : ℝ × ℝ}
    (hsc : s.anisotropyScaling ≠ 0)
    (hd : ∀ p q, anisoDist2 s'.anisotropyScaling s'.anisotropyAngle (affine2 R t p) (affine2 R t q) =
      anisoDist2 s.anisotropyScaling s.anisotropyAngle p q)
    (hxy : ∀ i, (s'.X_ORIG i, s'.Y_ORIG i) = affine2 R t (s.X_ORIG i, s.Y_ORIG i))
    (e1 : s'.variogramFunction = s.variogramFunction) (e2 : s'.params = s.params)
    (e3 : s'.exactValues = s.exactValues) (e4 : s'.pseudoInv = s.pseudoInv)
    (e5 : s'.pseudoInvType = s.pseudoInvType) (e6 : s'.Z = s.Z) (e7 : s'.regionalLinear = s.regionalLinear)
    (hn : s.pointLog = none ∧ s.externalZ = none ∧ s.specified = none ∧ s.functional = none)
    (hn' : s'.pointLog = none ∧ s'.externalZ = none ∧ s'.specified = none ∧ s'.functional = none)
    {ea ea' : UKExecArgs} (hm : Moved (affine2 R t) ea.toExec ea'.toExec) (hsp : ea'.spec = ea.spec)
    {r : ExecResult} (hr : s.execute ea = .ok r) : s'.execute ea' = .ok r := by
  obtain ⟨a1, a2, a3, a4⟩ := hn
  obtain ⟨b1, b2, b3, b4⟩ := hn'
  have hM : (anisoMat2 s.anisotropyScaling s.anisotropyAngle).det ≠ 0 := by rw [det_anisoMat2]; exact hsc
  have hA := affine2_det hM hd
  obtain ⟨c, hadj⟩ := UK.affine_adjust s s' (R := R) (t := t) hM
  generalize anisoMat2 s'.anisotropyScaling s'.anisotropyAngle * R *
    (anisoMat2 s.anisotropyScaling s.anisotropyAngle)⁻¹ = A at hA hadj
  have hpts : ∀ i, s'.pts i = A *ᵥ s.pts i + c := by
    intro i
    rw [hs'.euclidean, hs.euclidean, hxy, hadj]
  have hD : s'.dataDist = s.dataDist := by
    funext i j
    rw [hs.dataDist, hs'.dataDist, hxy, hxy, hd]
  have hq : ∀ p, s'.queryDist (affine2 R t p) = s.queryDist p := by
    intro p; funext i
    rw [hs.queryDist, hs'.queryDist, hxy, hd]
  have hG : s'.G s.gam = s.G s.gam := by unfold UK.G; rw [hD]
  have hg : ∀ p, s'.g s.gam (affine2 R t p) = s.g s.gam p := by
    intro p; unfold UK.g; rw [hq, e3]
  have hdd : ∀ u : UK n, u.pointLog = none → u.externalZ = none → u.specified = none → u.functional = none →
      u.driftData = if u.regionalLinear then [u.X_ADJUSTED, u.Y_ADJUSTED] else [] := by
    intro u h1 h2 h3 h4
    unfold UK.driftData
    simp [h1, h2, h3, h4]
  have hda : ∀ u : UK n, u.pointLog = none → u.externalZ = none → u.specified = none → u.functional = none →
      ∀ sv zext p, u.driftAt sv zext p = if u.regionalLinear then [u.adjustPoint p 0, u.adjustPoint p 1] else [] := by
    intro u h1 h2 h3 h4 sv zext p
    unfold UK.driftAt
    simp [h1, h2, h3, h4]
  have key : RegularL (s.G s.gam) s.driftData → RegularL (s.G s.gam) s'.driftData ∧
      ∀ (b b' : Bool) (sv : List ℝ) (zext : ℝ) (p : ℝ × ℝ),
        krigAnswerL b' (s.G s.gam) s'.driftData s.Z (s.g s.gam p) (s'.driftAt sv zext (affine2 R t p)) =
        krigAnswerL b (s.G s.gam) s.driftData s.Z (s.g s.gam p) (s.driftAt sv zext p) := by
    intro hr
    rw [hdd s a1 a2 a3 a4] at hr ⊢
    rw [hdd s' b1 b2 b3 b4, e7]
    simp only [hda s a1 a2 a3 a4, hda s' b1 b2 b3 b4, e7]
    cases hrl : s.regionalLinear with
    | false =>
      rw [hrl] at hr
      refine ⟨hr, fun b b' sv zext p => ?_⟩
      have := (Shifted.refl (D := ([] : List (Fin n → ℝ))) (fl := []) rfl).answer hr b b' s.Z (s.g s.gam p)
      exact this
    | true =>
      rw [hrl] at hr
      have eP : ∀ u : UK n, [fun i => u.pts i 0, fun i => u.pts i 1] =
        [u.X_ADJUSTED, u.Y_ADJUSTED] := fun u => rfl
      simp only [if_true] at hr ⊢
      rw [← eP] at hr ⊢
      rw [← eP]
      have k1 : ∀ (b b' : Bool) (p : ℝ × ℝ), _ := fun b b' p =>
        affine_span2 hA c (P := s.pts) (P' := s'.pts) hpts (hadj p) hr b b' s.Z (s.g s.gam p)
      refine ⟨(k1 false false (0, 0)).1, fun b b' sv zext p => ?_⟩
      exact (k1 b b' p).2
  refine UK.transfer (ea := ea) (ea' := ea') ht (by rw [e5]; exact ht) hm hsp e1 e2 (by rw [a3, b3]) ?_ ?_ ?_ ?_ ?_ hr
  · unfold UK.specStart; rw [e7, a1, b1, a2, b2]
  · intro p; unfold UK.extP; rw [a2, b2]
  · intro p; unfold UK.atWell; rw [a1, b1]; simp
  · intro h
    rcases h with h | h
    · exact .inl (e4.trans h)
    · right
      rw [hG]
      exact (key h).1
  · intro sv zext p _ h
    rw [UK.answer_eqL, UK.answer_eqL, hG, hg, e6]
    rcases h with h | h
    · rw [hp] at h; cases h
    · exact (key h).2 _ _ sv zext p

theorem affine3_det {R : Matrix (Fin 3) (Fin 3) ℝ} {t : ℝ × ℝ × ℝ} {an an' : Aniso3}
    (hM : (anisoMat3 an).det ≠ 0)
    (hd : ∀ p q, distance3 an' (affine3 R t p) (affine3 R t q) = distance3 an p q) :
    (anisoMat3 an' * R * (anisoMat3 an)⁻¹).det ≠ 0 := by
  refine det_of_keeps hM fun v hv => ?_
  have h0 := hd (v 0, v 1, v 2) (0, 0, 0)
  have ev : ![(v 0, v 1, v 2).1, (v 0, v 1, v 2).2.1, (v 0, v 1, v 2).2.2] -
      ![((0 : ℝ), (0 : ℝ), (0 : ℝ)).1, ((0 : ℝ), (0 : ℝ), (0 : ℝ)).2.1, ((0 : ℝ), (0 : ℝ), (0 : ℝ)).2.2] = v := by
    funext k; fin_cases k <;> simp
  have e0 : distance3 an' (affine3 R t (v 0, v 1, v 2)) (affine3 R t (0, 0, 0)) = 0 := by
    rw [distance3_zero, affine3_vec, affine3_vec, add_sub_add_right_eq_sub, ← Matrix.mulVec_sub,
      Matrix.mulVec_mulVec, ev]
    exact hv
  rw [e0] at h0
  have := (distance3_zero _ _ _).1 h0.symm
  rw [ev] at this
  exact this

theorem UK3D.affine_adjust {n : ℕ} (s s' : UK3D n) {R : Matrix (Fin 3) (Fin 3) ℝ} {t : ℝ × ℝ × ℝ}
    (hM : (anisoMat3 s.aniso).det ≠ 0) : ∃ c, ∀ p, s'.adjustPoint (affine3 R t p) =
      (anisoMat3 s'.aniso * R * (anisoMat3 s.aniso)⁻¹) *ᵥ s.adjustPoint p + c := by
  refine ⟨anisoMat3 s'.aniso *ᵥ (R *ᵥ ![s.XCENTER, s.YCENTER, s.ZCENTER] + ![t.1, t.2.1, t.2.2] -
      ![s'.XCENTER, s'.YCENTER, s'.ZCENTER]) + ![s'.XCENTER, s'.YCENTER, s'.ZCENTER] -
      (anisoMat3 s'.aniso * R * (anisoMat3 s.aniso)⁻¹) *ᵥ ![s.XCENTER, s.YCENTER, s.ZCENTER], fun p => ?_⟩
  unfold UK3D.adjustPoint adjustPoint3
  rw [adjust3_mat, adjust3_mat, affine3_vec]
  exact affine_conj hM _ _ _ _

theorem UK3D.affine_execute {n : ℕ} {s s' : UK3D n} (hs : s.Placed) (hs' : s'.Placed)
    (ht : s.pseudoInvType ∈ ["pinv", "pinvh"]) (hp : s.pseudoInv = false) {R : Matrix (Fin 3) (Fin 3) ℝ}
    {t : ℝ × ℝ × ℝ} (hsc : s.aniso.scalingY ≠ 0 ∧ s.aniso.scalingZ ≠ 0)
    (hd : ∀ p q, distance3 s'.aniso (affine3 R t p) (affine3 R t q) = distance3 s.aniso p q)
    (hxy : ∀ i, (s'.X_ORIG i, s'.Y_ORIG i, s'.Z_ORIG i) = affine3 R t (s.X_ORIG i, s.Y_ORIG i, s.Z_ORIG i))
    (e1 : s'.variogramFunction = s.variogramFunction) (e2 : s'.params = s.params)
    (e3 : s'.exactValues = s.exactValues) (e4 : s'.pseudoInv = s.pseudoInv)
    (e5 : s'.pseudoInvType = s.pseudoInvType) (e6 : s'.VALUES = s.VALUES) (e7 : s'.regionalLinear = s.regionalLinear)
    (hn : s.specified = none ∧ s.functional = none) (hn' : s'.specified = none ∧ s'.functional = none)
    {ea ea' : UK3DExecArgs} (hm : Moved3 (affine3 R t) ea.toExec ea'.toExec) (hsp : ea'.spec = ea.spec)
    {r : ExecResult} (hr : s.execute ea = .ok r) : s'.execute ea' = .ok r := by
  obtain ⟨a3, a4⟩ := hn
  obtain ⟨b3, b4⟩ := hn'
  have hM : (anisoMat3 s.aniso).det ≠ 0 := by rw [det_anisoMat3]; exact mul_ne_zero hsc.1 hsc.2
  have hA := affine3_det hM hd
  obtain ⟨c, hadj⟩ := UK3D.affine_adjust s s' (R := R) (t := t) hM
  generalize anisoMat3 s'.aniso * R * (anisoMat3 s.aniso)⁻¹ = A at hA hadj
  have hpts : ∀ i, s'.pts i = A *ᵥ s.pts i + c := by
    intro i
    have h1 : s'.pts i = s'.adjustPoint (s'.X_ORIG i, s'.Y_ORIG i, s'.Z_ORIG i) := hs'.euclidean i
    have h2 : s.pts i = s.adjustPoint (s.X_ORIG i, s.Y_ORIG i, s.Z_ORIG i) := hs.euclidean i
    rw [h1, h2, hxy, hadj]
  have hD : s'.dataDist = s.dataDist := by
    funext i j
    rw [hs.dataDist, hs'.dataDist, hxy, hxy, hd]
  have hq : ∀ p, s'.queryDist (affine3 R t p) = s.queryDist p := by
    intro p; funext i
    rw [hs.queryDist, hs'.queryDist, hxy, hd]
  have hG : s'.G s.gam = s.G s.gam := by unfold UK3D.G; rw [hD]
  have hg : ∀ p, s'.g s.gam (affine3 R t p) = s.g s.gam p := by
    intro p; unfold UK3D.g; rw [hq, e3]
  have hdd : ∀ u : UK3D n, u.specified = none → u.functional = none →
      u.driftData = if u.regionalLinear then [u.X_ADJUSTED, u.Y_ADJUSTED, u.Z_ADJUSTED] else [] := by
    intro u h3 h4
    unfold UK3D.driftData
    simp [h3, h4]
  have hda : ∀ u : UK3D n, u.specified = none → u.functional = none →
      ∀ sv p, u.driftAt sv p =
        if u.regionalLinear then [u.adjustPoint p 0, u.adjustPoint p 1, u.adjustPoint p 2] else [] := by
    intro u h3 h4 sv p
    unfold UK3D.driftAt
    simp [h3, h4]
  have key : RegularL (s.G s.gam) s.driftData → RegularL (s.G s.gam) s'.driftData ∧
      ∀ (b b' : Bool) (sv : List ℝ) (p : ℝ × ℝ × ℝ),
        krigAnswerL b' (s.G s.gam) s'.driftData s.VALUES (s.g s.gam p) (s'.driftAt sv (affine3 R t p)) =
        krigAnswerL b (s.G s.gam) s.driftData s.VALUES (s.g s.gam p) (s.driftAt sv p) := by
    intro hr
    rw [hdd s a3 a4] at hr ⊢
    rw [hdd s' b3 b4, e7]
    simp only [hda s a3 a4, hda s' b3 b4, e7]
    cases hrl : s.regionalLinear with
    | false =>
      rw [hrl] at hr
      refine ⟨hr, fun b b' sv p => ?_⟩
      have := (Shifted.refl (D := ([] : List (Fin n → ℝ))) (fl := []) rfl).answer hr b b' s.VALUES (s.g s.gam p)
      exact this
    | true =>
      rw [hrl] at hr
      have eP : ∀ u : UK3D n, [fun i => u.pts i 0, fun i => u.pts i 1, fun i => u.pts i 2] =
        [u.X_ADJUSTED, u.Y_ADJUSTED, u.Z_ADJUSTED] := fun u => rfl
      simp only [if_true] at hr ⊢
      rw [← eP] at hr ⊢
      rw [← eP]
      have k1 : ∀ (b b' : Bool) (p : ℝ × ℝ × ℝ), _ := fun b b' p =>
        affine_span3 hA c (P := s.pts) (P' := s'.pts) hpts (hadj p) hr b b' s.VALUES (s.g s.gam p)
      refine ⟨(k1 false false (0, 0, 0)).1, fun b b' sv p => ?_⟩
      exact (k1 b b' p).2
  refine UK3D.transfer (ea := ea) (ea' := ea') ht (by rw [e5]; exact ht) hm hsp e1 e2 (by rw [a3, b3]) ?_ ?_ ?_ hr
  · unfold UK3D.specStart; rw [e7]
  · intro h
    rcases h with h | h
    · exact .inl (e4.trans h)
    · right
      rw [hG]
      exact (key h).1
  · intro sv p _ h
    rw [UK3D.answer_eqL, UK3D.answer_eqL, hG, hg, e6]
    rcases h with h | h
    · rw [hp] at h; cases h
    · exact (key h).2 _ _ sv p

end
end PyKrige
