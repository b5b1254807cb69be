import Verif.Props.C17
import Verif.Props.C16Angle

/-!
# C17: universal kriging with any drift terms under rotations, reflections and shifts

Wells are moved along with the data; specified drifts keep their values; an external drift or functional drifts must
take, at the moved places, the values they had before.
-/

namespace PyKrige
noncomputable section
open Spec Matrix

/-- The wells after a motion. -/
def Spec.movedWells (T : ℝ × ℝ → ℝ × ℝ) (wells : List (ℝ × ℝ × ℝ)) : List (ℝ × ℝ × ℝ) :=
  wells.map fun w => ((T (w.1, w.2.1)).1, (T (w.1, w.2.1)).2, w.2.2)

theorem comb_two {ι κ : Type} (b : Prop) [Decidable b] {u u' t : ι → List ℝ} (q : ι → κ) {g g' : κ → Fin 2 → ℝ}
    (hA : ∃ (A : Fin 2 → Fin 2 → ℝ) (k : Fin 2 → ℝ), ∀ p l, g' p l = ∑ m, A l m * g p m + k l)
    (h1 : ∀ o, u o = (if b then [g (q o) 0, g (q o) 1] else []) ++ t o)
    (h2 : ∀ o, u' o = (if b then [g' (q o) 0, g' (q o) 1] else []) ++ t o) : CombinationOf u u' := by
  obtain ⟨A, k, hA⟩ := hA
  by_cases hl : b
  · simp only [if_pos hl] at h1 h2
    refine comb_front (k := 2) (fun _ => rfl) (fun _ => rfl) h1 h2 ?_
    have := comb_matrix (f := fun o => g (q o)) (f' := fun o => g' (q o)) A k (fun o l => hA _ _)
    simpa [List.ofFn_succ] using this
  · simp only [if_neg hl] at h1 h2
    have : u' = u := funext fun o => (h2 o).trans (h1 o).symm
    rw [this]
    exact fun l => Submodule.subset_span (Set.mem_insert_of_mem _ ⟨l, rfl⟩)

theorem affine_back {κ : Type} {m : ℕ} {A : Matrix (Fin m) (Fin m) ℝ} (hA : A.det ≠ 0) {c : Fin m → ℝ} {g g' : κ → Fin m → ℝ}
    (h : ∀ p, g' p = A *ᵥ g p + c) : ∀ p, g p = A⁻¹ *ᵥ g' p + -(A⁻¹ *ᵥ c) := by
  intro p
  have hu : IsUnit A.det := isUnit_iff_ne_zero.2 hA
  rw [h p, Matrix.mulVec_add, Matrix.mulVec_mulVec, Matrix.nonsing_inv_mul A hu, Matrix.one_mulVec]
  abel

/-- The drift terms but the regional linear one. -/
def otherTerms (args : UKArgs) (adj : ℝ × ℝ → Fin 2 → ℝ) (sv : List ℝ) (p : ℝ × ℝ) : List ℝ :=
  (if "point_log" ∈ args.driftTerms then (args.pointDrift.getD []).map fun w =>
    -w.2.2 * logDistance (euclid (adj p) (adj (w.1, w.2.1))) else []) ++
  ((if "external_Z" ∈ args.driftTerms then [externalValue args p] else []) ++
  ((if "specified" ∈ args.driftTerms then sv else []) ++
  (if "functional" ∈ args.driftTerms then
    match args.functionalDrift with
    | .list fs => fs.map fun g => g (adj p 0) (adj p 1)
    | .notList => []
   else [])))

theorem driftTerms2_split (args : UKArgs) (adj : ℝ × ℝ → Fin 2 → ℝ) (sv : List ℝ) (p : ℝ × ℝ) :
    driftTerms2 args adj sv p = (if "regional_linear" ∈ args.driftTerms then [adj p 0, adj p 1] else []) ++ otherTerms args adj sv p := by
  unfold driftTerms2 otherTerms
  simp only [List.append_assoc]
  congr!

theorem otherTerms_moved {args args' : UKArgs} {adj adj' : ℝ × ℝ → Fin 2 → ℝ} {sv sv' : List ℝ} {T : ℝ × ℝ → ℝ × ℝ} {q : ℝ × ℝ}
    (hT : args'.driftTerms = args.driftTerms) (hw : args'.pointDrift = args.pointDrift.map (movedWells T))
    (hlog : ∀ q w, euclid (adj' (T q)) (adj' (T w)) = euclid (adj q) (adj w))
    (hsv : "specified" ∈ args.driftTerms → sv' = sv)
    (he : "external_Z" ∈ args.driftTerms → externalValue args' (T q) = externalValue args q)
    (hf : "functional" ∈ args.driftTerms → ∃ fs fs', args.functionalDrift = .list fs ∧ args'.functionalDrift = .list fs' ∧
      (fs'.map fun g => g (adj' (T q) 0) (adj' (T q) 1)) = fs.map fun g => g (adj q 0) (adj q 1)) :
    otherTerms args' adj' sv' (T q) = otherTerms args adj sv q := by
  unfold otherTerms
  rw [hT]
  congr 1
  · by_cases hl : "point_log" ∈ args.driftTerms
    · simp only [if_pos hl]
      rw [hw]
      cases args.pointDrift with
      | none => rfl
      | some wells =>
        simp only [Option.map_some, Option.getD_some, movedWells, List.map_map]
        refine List.map_congr_left fun w _ => ?_
        simp only [Function.comp_apply, Prod.mk.eta, hlog]
    · simp only [if_neg hl]
  congr 1
  · by_cases hl : "external_Z" ∈ args.driftTerms
    · simp only [if_pos hl, he hl]
    · simp only [if_neg hl]
  congr 1
  · by_cases hl : "specified" ∈ args.driftTerms
    · simp only [if_pos hl, hsv hl]
    · simp only [if_neg hl]
  · by_cases hl : "functional" ∈ args.driftTerms
    · simp only [if_pos hl]
      obtain ⟨fs, fs', e1, e2, e3⟩ := hf hl
      simp only [e1, e2]
      exact e3
    · simp only [if_neg hl]

/-- Universal kriging of moved data: `affine2 R t`, together with the new anisotropy, keeps all distances. -/
theorem C17_moved_uk {n : ℕ} {env : Env} {x y z x' y' : Fin n → ℝ} {args args' : UKArgs} {s s' : UK n}
    (h : UK.create env x y z args = .ok s) (h' : UK.create env x' y' z args' = .ok s') (hp : args.pseudoInv = false)
    (hsc : effScaling args.variogramModel args.anisotropyScaling ≠ 0)
    {R : Matrix (Fin 2) (Fin 2) ℝ} {t : ℝ × ℝ} {sc' an' : ℝ} {ext' : Option ExtArg} {ex' ey' : Option (List ℝ)} {fd' : ListArg (ℝ → ℝ → ℝ)}
    (hargs : args' = { args with anisotropyScaling := sc', anisotropyAngle := an', externalDrift := ext', externalDriftX := ex', externalDriftY := ey', functionalDrift := fd', pointDrift := args.pointDrift.map (movedWells (affine2 R t)) })
    (hd : ∀ p q, ukDistance args' (affine2 R t p) (affine2 R t q) = ukDistance args p q)
    (hxy : ∀ i, (x' i, y' i) = affine2 R t (x i, y i))
    (hf : "functional" ∈ args.driftTerms → ∃ fs fs', args.functionalDrift = .list fs ∧ fd' = .list fs' ∧
      ∀ q, (fs'.map fun g => g (s'.adjustPoint (affine2 R t q) 0) (s'.adjustPoint (affine2 R t q) 1)) =
        fs.map fun g => g (s.adjustPoint q 0) (s.adjustPoint q 1))
    {ea ea' : UKExecArgs} (hb : "specified" ∈ args.driftTerms → ea.toExec.backend = "vectorized" ∧ ea'.toExec.backend = "vectorized")
    {r r' : ExecResult} (hr : s.execute ea = .ok r) (hr' : s'.execute ea' = .ok r') {j j' : ℕ} {p : ℝ × ℝ}
    (hq : queryAt ea.toExec j = some p) (hq' : queryAt ea'.toExec j' = some (affine2 R t p))
    (hk : maskedAt ea.toExec j = false) (hk' : maskedAt ea'.toExec j' = false)
    (hsp : "specified" ∈ args.driftTerms → specAtQuery ea' j' = specAtQuery ea j)
    (he : "external_Z" ∈ args.driftTerms → (∀ i, externalValue args' (x' i, y' i) = externalValue args (x i, y i)) ∧
      externalValue args' (affine2 R t p) = externalValue args p) :
    s'.lags = s.lags ∧ s'.params = s.params ∧ s'.stats = s.stats ∧
    ∃ est var, r.z[j]? = some (some est) ∧ r'.z[j']? = some (some est) ∧
      r.ss[j]? = some (some var) ∧ r'.ss[j']? = some (some var) := by
  obtain ⟨exact, hex⟩ : ∃ e, args.exactValues = .bool e := ⟨_, (UK.create_fields h).2.1⟩
  have hT : args'.driftTerms = args.driftTerms := by rw [hargs]
  -- the same variogram
  obtain ⟨g1, g2, g3, g4⟩ : s'.lags = s.lags ∧ s'.params = s.params ∧ s'.stats = s.stats ∧ s'.variogramFunction = s.variogramFunction := by
    obtain ⟨_, exact, name, model, fArg, pArg, sc, an, f, fname, xc, yc, vp, lags, ps, stats, ext, plog, spec,
      func, h1, h2, h3, h4, h5, h6, h7, h8, h9, h10, h11, h12, rfl⟩ := UK.create_ok h
    obtain ⟨_, exact', name', model', fArg', pArg', sc'', an'', f', fname', xc', yc', vp', lags', ps', stats', ext'', plog', spec',
      func', k1, k2, k3, k4, k5, k6, k7, k8, k9, k10, k11, k12, rfl⟩ := UK.create_ok h'
    obtain ⟨rfl, rfl, h2'⟩ := UK.resolveModel_eff h2
    have hd' : ∀ i j, anisoDist2 (effScaling args.variogramModel args.anisotropyScaling) (effAngle args.variogramModel args.anisotropyAngle) (x i, y i) (x j, y j) =
        anisoDist2 (effScaling args.variogramModel sc') (effAngle args.variogramModel an') (x' i, y' i) (x' j, y' j) := by
      intro i j
      have := hd (x i, y i) (x j, y j)
      rw [← hxy, ← hxy, hargs] at this
      exact this.symm
    rw [hargs] at k2 k7 k8
    dsimp only at k2 k7 k8
    rw [h2' sc' an'] at k2
    simp only [Except.ok.injEq, Prod.mk.injEq] at k2
    obtain ⟨rfl, rfl, rfl, rfl, rfl, rfl⟩ := k2
    rw [h3] at k3
    simp only [Except.ok.injEq, Prod.mk.injEq] at k3
    obtain ⟨rfl, rfl⟩ := k3
    rw [h6] at k6
    obtain rfl := Except.ok.inj k6
    have hsd := sameDist2 xc yc xc' yc' hd'
    rw [← hsd.initialize, h7] at k7
    simp only [Except.ok.injEq, Prod.mk.injEq] at k7
    obtain ⟨rfl, rfl⟩ := k7
    rw [← hsd.statistics, h8] at k8
    obtain rfl := Except.ok.inj k8
    exact ⟨rfl, rfl, rfl, rfl⟩
  refine ⟨g1, g2, g3, ?_⟩
  have hb1 := fun t => (hb t).1
  have hb2 : "specified" ∈ args'.driftTerms → ea'.toExec.backend = "vectorized" := fun t => (hb (hT ▸ t)).2
  obtain ⟨γ, hγ⟩ : ∃ γ, s.variogramFunction s.params = .ok γ := by
    obtain ⟨row, hF, -, -⟩ := (UK.create_weighs h ea).at_point (z := s.Z) (lags := s.lags) (stats := s.stats) hr hq hk
    obtain ⟨γ, L, F, f, hγ, -⟩ := hF.args h hq hb1
    exact ⟨γ, hγ⟩
  have hγ' : s'.variogramFunction s'.params = .ok γ := by rw [g4, g2]; exact hγ
  -- the adjusted coordinates
  obtain ⟨a1, a2⟩ := UK.create_aniso h
  obtain ⟨b1, b2⟩ := UK.create_aniso h'
  have hM : (anisoMat2 s.anisotropyScaling s.anisotropyAngle).det ≠ 0 := by rw [det_anisoMat2, a1]; exact hsc
  have hd2 : ∀ p q, anisoDist2 s'.anisotropyScaling s'.anisotropyAngle (affine2 R t p) (affine2 R t q) =
      anisoDist2 s.anisotropyScaling s.anisotropyAngle p q := by
    intro p q
    rw [a1, a2, b1, b2]
    exact hd p q
  have hA := affine2_det hM hd2
  obtain ⟨c, hadj⟩ := UK.affine_adjust s s' (R := R) (t := t) hM
  generalize anisoMat2 s'.anisotropyScaling s'.anisotropyAngle * R *
    (anisoMat2 s.anisotropyScaling s.anisotropyAngle)⁻¹ = A at hA hadj
  have hlog : ∀ q w, euclid (s'.adjustPoint (affine2 R t q)) (s'.adjustPoint (affine2 R t w)) = euclid (s.adjustPoint q) (s.adjustPoint w) := by
    intro q w
    have e := fun (u : UK n) => adjust2_euclid ![u.XCENTER, u.YCENTER] u.anisotropyScaling u.anisotropyAngle
    exact (e s' _ _).trans ((hd2 q w).trans (e s _ _).symm)
  -- the drift terms
  have rest : ∀ (sv sv' : List ℝ), ("specified" ∈ args.driftTerms → sv' = sv) → ∀ (q : ℝ × ℝ), ("external_Z" ∈ args.driftTerms →
      externalValue args' (affine2 R t q) = externalValue args q) → ∃ l : List ℝ,
      driftTerms2 args s.adjustPoint sv q = (if "regional_linear" ∈ args.driftTerms then [s.adjustPoint q 0, s.adjustPoint q 1] else []) ++ l ∧
      driftTerms2 args' s'.adjustPoint sv' (affine2 R t q) =
        (if "regional_linear" ∈ args.driftTerms then [s'.adjustPoint (affine2 R t q) 0, s'.adjustPoint (affine2 R t q) 1] else []) ++ l := by
    intro sv sv' hsv q he
    refine ⟨otherTerms args s.adjustPoint sv q, driftTerms2_split _ _ _ _, ?_⟩
    rw [driftTerms2_split, hT]
    refine congrArg _ (otherTerms_moved hT (T := affine2 R t) (by rw [hargs]) hlog hsv he fun ht => ?_)
    obtain ⟨fs, fs', e1, e2, e3⟩ := hf ht
    exact ⟨fs, fs', e1, by rw [hargs]; exact e2, e3 q⟩
  have hsplit : ∀ o : Option (Fin n), ∃ l : List ℝ,
      driftAt2 args s.adjustPoint x y ea j p o = (if "regional_linear" ∈ args.driftTerms then
        [s.adjustPoint (o.elim p fun i => (x i, y i)) 0, s.adjustPoint (o.elim p fun i => (x i, y i)) 1] else []) ++ l ∧
      driftAt2 args' s'.adjustPoint x' y' ea' j' (affine2 R t p) o = (if "regional_linear" ∈ args.driftTerms then
        [s'.adjustPoint (affine2 R t (o.elim p fun i => (x i, y i))) 0, s'.adjustPoint (affine2 R t (o.elim p fun i => (x i, y i))) 1] else []) ++ l := by
    intro o
    cases o with
    | none => exact rest _ _ (fun ht => hsp ht) _ fun ht => (he ht).2
    | some i =>
      have := rest (specAtDatum args.specifiedDrift i) (specAtDatum args'.specifiedDrift i) (fun _ => by rw [hargs]) (x i, y i)
        fun ht => hxy i ▸ (he ht).1 i
      rw [← hxy] at this
      simpa only [driftAt2, Option.elim, ← hxy] using this
  choose l hl using hsplit
  have c1 : CombinationOf (driftAt2 args s.adjustPoint x y ea j p) (driftAt2 args' s'.adjustPoint x' y' ea' j' (affine2 R t p)) := by
    refine comb_two _ (fun o => o.elim p fun i => (x i, y i)) (g := s.adjustPoint) (g' := fun q => s'.adjustPoint (affine2 R t q))
      ⟨A, c, fun q k => ?_⟩ (fun o => (hl o).1) (fun o => (hl o).2)
    rw [hadj]; rfl
  have c2 : CombinationOf (driftAt2 args' s'.adjustPoint x' y' ea' j' (affine2 R t p)) (driftAt2 args s.adjustPoint x y ea j p) := by
    refine comb_two _ (fun o => o.elim p fun i => (x i, y i)) (g' := s.adjustPoint) (g := fun q => s'.adjustPoint (affine2 R t q))
      ⟨(A⁻¹ : Matrix (Fin 2) (Fin 2) ℝ), -((A⁻¹ : Matrix (Fin 2) (Fin 2) ℝ) *ᵥ c), fun q k => ?_⟩ (fun o => (hl o).2) (fun o => (hl o).1)
    have := congrFun (affine_back hA (g := s.adjustPoint) (g' := fun q => s'.adjustPoint (affine2 R t q)) hadj q) k
    rw [this, Pi.add_apply, Matrix.mulVec, dotProduct]
  obtain ⟨L, F, f, w, ν, μ, u1, u2, u3, u4, u5, u6⟩ := UK.entry_system h hp hb1 hr hq hk hγ hex
  obtain ⟨L', F', f', w', ν', μ', v1, v2, v3, v4, v5, v6⟩ := UK.entry_system h' (by rw [hargs]; exact hp) hb2 hr' hq' hk' hγ'
    (exact := exact) (by rw [hargs]; exact hex)
  simp only [hxy, hd] at v3 v4 v6
  obtain ⟨rfl, e⟩ := KrigingEqs.comb c1 c2 u1 u2 v1 v2 v3 u4 v4
  rw [e] at v6
  exact ⟨_, _, u5, v5, u6, v6⟩

/-- In particular: a rotation, with the direction of the anisotropy and the wells turned along. -/
theorem C17_wells_rotate_uk {n : ℕ} {env : Env} {x y z x' y' : Fin n → ℝ} {args : UKArgs} {s s' : UK n}
    {m : String} (hm : args.variogramModel = .name m) (hsc : args.anisotropyScaling ≠ 0) (hp : args.pseudoInv = false)
    (hdt : ∀ u ∈ args.driftTerms, u = "regional_linear" ∨ u = "point_log") (φ : ℝ) (t : ℝ × ℝ)
    (h : UK.create env x y z args = .ok s)
    (h' : UK.create env x' y' z { args with anisotropyAngle := args.anisotropyAngle + φ, pointDrift := args.pointDrift.map (movedWells (affine2 (rotation φ) t)) } = .ok s')
    (hxy : ∀ i, (x' i, y' i) = affine2 (rotation φ) t (x i, y i)) {ea ea' : UKExecArgs}
    {r r' : ExecResult} (hr : s.execute ea = .ok r) (hr' : s'.execute ea' = .ok r') {j j' : ℕ} {p : ℝ × ℝ}
    (hq : queryAt ea.toExec j = some p) (hq' : queryAt ea'.toExec j' = some (affine2 (rotation φ) t p))
    (hk : maskedAt ea.toExec j = false) (hk' : maskedAt ea'.toExec j' = false) :
    s'.lags = s.lags ∧ s'.params = s.params ∧ s'.stats = s.stats ∧
    ∃ est var, r.z[j]? = some (some est) ∧ r'.z[j']? = some (some est) ∧
      r.ss[j]? = some (some var) ∧ r'.ss[j']? = some (some var) := by
  refine C17_moved_uk h h' hp (by rw [hm]; exact hsc) rfl (fun p q => ?_) hxy (fun hc => ?_) (fun hc => ?_) hr hr' hq hq' hk hk'
    (fun hc => ?_) (fun hc => ?_)
  · unfold ukDistance effScaling effAngle
    simp only [hm]
    exact C17_distance_turns _ _ _ _ _ _
  all_goals exact absurd (hdt _ hc) (by decide)

/-! ### Examples -/

namespace Demo

/-- A well pumping at `w`. -/
def uwell (w : ℝ × ℝ) : UKArgs :=
  { variogramModel := .name "spherical", params := .list [3, 2, 1], driftTerms := ["point_log"], pointDrift := some [(w.1, w.2, -1)] }

theorem uwell_ok (x y z : Fin 4 → ℝ) (w : ℝ × ℝ) (hinj : ∀ i j, (x i, y i) = (x j, y j) → i = j)
    (h0 : (x 0 - w.1) ^ 2 + (y 0 - w.2) ^ 2 = 1) (h1 : (x 1 - w.1) ^ 2 + (y 1 - w.2) ^ 2 = 2) :
    ∃ s, UK.create stdEnv x y z (uwell w) = .ok s ∧
      ∀ p, p ≠ w → ∃ r, s.execute { toExec := pts [p] "loop" } = .ok r := by
  have hs : Separates (listMeaning "spherical" [3, 2, 1]) fun i j => ukDistance (uwell w) (x i, y i) (x j, y j) :=
    .inl ⟨sph_grows, fun i j hij h0 => hij (hinj i j (anisoDist2_eq_zero (sc := 1) one_ne_zero 0 h0))⟩
  obtain ⟨s, h, hps⟩ := C29_create_uk stdEnv (by norm_num) x y z (uwell w) (by simp [uwell]) rfl rfl rfl sph_valid hs
    (fun i hc => by simp [uwell] at hc) (fun hc => by simp [uwell]) (fun hc => by simp [uwell] at hc)
    (fun hc => by simp [uwell] at hc)
  have hadj : ∀ p, s.adjustPoint p = ![p.1, p.2] := fun p => by
    obtain ⟨e1, e2⟩ := UK.create_aniso h
    rw [UK.adjustPoint, e1, e2]
    exact adjust2_id _ _
  have hw := fun p => pts_wellPosed [p] "loop"
  obtain ⟨e1, e2⟩ := UK.create_aniso h
  refine ⟨s, h, fun p hpw => C29_execute_uk h rfl (hps ▸ sph_valid) (hps ▸ hs) (.inr ?_) (hw p).1 (hw p).2
    (fun hc => by simp [uwell] at hc) (.inr ⟨rfl, by simp [uwell], fun j q hq _ hc => ?_⟩)
    (fun j p _ _ hc => by simp [uwell] at hc)⟩
  · intro c d hi
    have i0 := hi 0
    have i1 := hi 1
    simp [driftTerms2, uwell, hadj, euclid, logDistance, h0, h1, Fin.sum_univ_two] at i0 i1
    subst i0
    have hl : Real.log √2 ≠ 0 := (Real.log_pos (by rw [Real.lt_sqrt] <;> norm_num)).ne'
    have c0 : c 0 = 0 := by simpa [hl] using i1
    refine ⟨fun i k hk => ?_, rfl⟩
    have hk : k < 1 := by simpa [driftTerms2, uwell] using hk
    obtain rfl : k = 0 := by omega
    exact c0
  · obtain ⟨-, v, hv, hz⟩ := hc
    simp [uwell] at hv
    subst hv
    have : q = p := by
      simp [queryAt, pts] at hq
      match j, hq with
      | 0, hq => simpa using hq.symm
      | j + 1, hq => simp at hq
    subst this
    rw [e1] at hz
    exact hpw (anisoDist2_eq_zero (sc := 1) one_ne_zero _ hz)

theorem inj4_of {x y : Fin 4 → ℝ} (h : Function.Injective fun i => (x i, y i)) : ∀ i j, (x i, y i) = (x j, y j) → i = j := fun _ _ e => h e

end Demo

/-- Data and well turned by a quarter turn. -/
example (z : Fin 4 → ℝ) (p : ℝ × ℝ) (hp : p ≠ (0, -1)) : ∃ s s' r r' est var,
    UK.create stdEnv Demo.x4 Demo.y4 z (Demo.uwell (0, -1)) = .ok s ∧
    UK.create stdEnv ![0, 0, -1, -1] ![0, 1, 0, 2] z (Demo.uwell (1, 0)) = .ok s' ∧
    s.execute { toExec := Demo.pts [p] "loop" } = .ok r ∧ s'.execute { toExec := Demo.pts [(-p.2, p.1)] "loop" } = .ok r' ∧
    r.z[0]? = some (some est) ∧ r'.z[0]? = some (some est) ∧ r.ss[0]? = some (some var) ∧ r'.ss[0]? = some (some var) := by
  obtain ⟨s, h, hr⟩ := Demo.uwell_ok Demo.x4 Demo.y4 z (0, -1) (Demo.inj4_of Demo.inj4) (by simp [Demo.x4, Demo.y4])
    (by simp [Demo.x4, Demo.y4]; norm_num)
  obtain ⟨s', h', hr'⟩ := Demo.uwell_ok ![0, 0, -1, -1] ![0, 1, 0, 2] z (1, 0) (by
    intro i j e
    fin_cases i <;> fin_cases j <;> first | rfl | (exfalso; simp at e)) (by simp) (by simp; norm_num)
  obtain ⟨r, hr⟩ := hr p hp
  obtain ⟨r', hr'⟩ := hr' (-p.2, p.1) (fun e => hp (by
    obtain ⟨e1, e2⟩ := Prod.mk.inj e
    exact Prod.ext e2 (by simp only; linarith)))
  have hT : ∀ q : ℝ × ℝ, affine2 !![0, -1; 1, 0] (0, 0) q = (-q.2, q.1) := fun q => by simp [affine2]
  obtain ⟨-, -, -, est, var, e1, e2, e3, e4⟩ := C17_moved_uk h h' rfl (by simp [effScaling, Demo.uwell]) (R := !![0, -1; 1, 0]) (t := (0, 0))
    (sc' := 1) (an' := 0) (ext' := none) (ex' := none) (ey' := none) (fd' := .list []) (by simp [Demo.uwell, movedWells, hT]) (fun q q' => by
      simp only [hT]
      unfold ukDistance effScaling effAngle
      simp only [Demo.uwell, C16_plain_2d]
      congr 1
      ring) (fun i => by rw [hT]; fin_cases i <;> simp [Demo.x4, Demo.y4]) (fun hc => by simp [Demo.uwell] at hc)
    (ea := { toExec := Demo.pts [p] "loop" }) (ea' := { toExec := Demo.pts [(-p.2, p.1)] "loop" })
    (fun hc => by simp [Demo.uwell] at hc) hr hr' (j := 0) (j' := 0) (p := p) (by simp [queryAt, Demo.pts])
    (by simp [queryAt, Demo.pts, hT]) rfl rfl (fun hc => by simp [Demo.uwell] at hc) (fun hc => by simp [Demo.uwell] at hc)
  exact ⟨s, s', r, r', est, var, h, h', hr, hr', e1, e2, e3, e4⟩

end
end PyKrige
