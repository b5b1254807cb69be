import Verif.Props.C53
import Verif.Props.C16Turn

/-!
# C16: with scaling 1 the anisotropy angle has no effect on universal kriging either

The adjusted coordinates do turn with the angle, and the regional linear drift is made of them; but the turned
coordinates are combinations of the old ones and constants.
-/

namespace PyKrige
noncomputable section
open Spec

/-- Replacing the first terms by combinations of them. -/
theorem comb_front {ι : Type} {u u' b b' t : ι → List ℝ} {k : ℕ} (l1 : ∀ i, (b i).length = k) (l2 : ∀ i, (b' i).length = k)
    (e1 : ∀ i, u i = b i ++ t i) (e2 : ∀ i, u' i = b' i ++ t i) (hcomb : CombinationOf b b') : CombinationOf u u' := by
  intro l
  by_cases hlt : l < k
  · have := hcomb l
    have e : (fun i => (u' i).getD l 0) = fun i => (b' i).getD l 0 := by
      funext i
      rw [e2, List.getD_append _ _ _ _ (by rw [l2]; exact hlt)]
    rw [e]
    refine Submodule.span_le.2 ?_ this
    rintro φ (rfl | ⟨m, rfl⟩)
    · exact Submodule.subset_span (Set.mem_insert _ _)
    · by_cases hm : m < k
      · refine Submodule.subset_span (Set.mem_insert_of_mem _ ⟨m, ?_⟩)
        funext i
        beta_reduce
        rw [e1, List.getD_append _ _ _ _ (by rw [l1]; exact hm)]
      · have : (fun i => (b i).getD m 0) = 0 := by
          funext i
          rw [List.getD_eq_default _ _ (by rw [l1]; omega)]
          rfl
        simp only [SetLike.mem_coe]
        rw [this]
        exact Submodule.zero_mem _
  · have e : (fun i => (u' i).getD l 0) = fun i => (u i).getD l 0 := by
      funext i
      rw [e1, e2, List.getD_append_right _ _ _ _ (by rw [l2]; omega), List.getD_append_right _ _ _ _ (by rw [l1]; omega), l1, l2]
    rw [e]
    exact Submodule.subset_span (Set.mem_insert_of_mem _ ⟨l, rfl⟩)

/-- Each of finitely many functions is `∑ A l m * b m + c l`. -/
theorem comb_matrix {ι : Type} {k : ℕ} {f f' : ι → Fin k → ℝ} (A : Fin k → Fin k → ℝ) (c : Fin k → ℝ)
    (h : ∀ i l, f' i l = ∑ m, A l m * f i m + c l) :
    CombinationOf (fun i => List.ofFn (f i)) (fun i => List.ofFn (f' i)) := by
  intro l
  by_cases hl : l < k
  · have e : (fun i => (List.ofFn (f' i)).getD l 0) =
        ∑ m, A ⟨l, hl⟩ m • (fun i => (List.ofFn (f i)).getD m.1 0) + c ⟨l, hl⟩ • (1 : ι → ℝ) := by
      funext i
      simp [hl, h, Finset.sum_apply]
    rw [e]
    refine Submodule.add_mem _ (Submodule.sum_mem _ fun m _ => Submodule.smul_mem _ _ ?_) (Submodule.smul_mem _ _ ?_)
    · exact Submodule.subset_span (Set.mem_insert_of_mem _ ⟨m.1, rfl⟩)
    · exact Submodule.subset_span (Set.mem_insert _ _)
  · have e : (fun i => (List.ofFn (f' i)).getD l 0) = (0 : ι → ℝ) := by
      funext i
      simp [hl]
    rw [e]
    exact Submodule.zero_mem _

theorem adjust2_plain_turned (c : Fin 2 → ℝ) (a a' : ℝ) : ∃ (A : Fin 2 → Fin 2 → ℝ) (k : Fin 2 → ℝ),
    ∀ p l, adjust2 c 1 a' p l = ∑ m, A l m * adjust2 c 1 a p m + k l := by
  set C := Real.cos (a * Real.pi / 180) with hC
  set S := Real.sin (a * Real.pi / 180) with hS
  set C' := Real.cos (a' * Real.pi / 180) with hC'
  set S' := Real.sin (a' * Real.pi / 180) with hS'
  have h1 : C ^ 2 + S ^ 2 = 1 := by rw [hC, hS]; exact Real.cos_sq_add_sin_sq _
  refine ⟨![![C' * C + S' * S, S' * C - C' * S], ![C' * S - S' * C, C' * C + S' * S]],
    ![c 0 - ((C' * C + S' * S) * c 0 + (S' * C - C' * S) * c 1), c 1 - ((C' * S - S' * C) * c 0 + (C' * C + S' * S) * c 1)], ?_⟩
  intro p l
  have e : ∀ (b : ℝ) , adjust2 c 1 b p = ![Real.cos (b * Real.pi / 180) * (p 0 - c 0) + Real.sin (b * Real.pi / 180) * (p 1 - c 1) + c 0,
      - Real.sin (b * Real.pi / 180) * (p 0 - c 0) + Real.cos (b * Real.pi / 180) * (p 1 - c 1) + c 1] := by
    intro b
    unfold adjust2
    funext l
    fin_cases l <;> simp [dotProduct, Fin.sum_univ_two]
  rw [e a, e a', ← hC, ← hS, ← hC', ← hS']
  fin_cases l
  · simp [Fin.sum_univ_two]
    linear_combination -(C' * (p 0 - c 0) + S' * (p 1 - c 1)) * h1
  · simp [Fin.sum_univ_two]
    linear_combination -(-S' * (p 0 - c 0) + C' * (p 1 - c 1)) * h1

theorem angle_irrelevant_uk_point {n : ℕ} {env : Env} {x y z : Fin n → ℝ} {args : UKArgs} {s s' : UK n} {an' : ℝ}
    (h : UK.create env x y z args = .ok s) (h' : UK.create env x y z { args with anisotropyAngle := an' } = .ok s')
    {m : String} (hm : args.variogramModel = .name m) (hs : args.anisotropyScaling = 1)
    (hp : args.pseudoInv = false) (hf : "functional" ∉ args.driftTerms)
    {γ : ℝ → ℝ} (hγ : s.variogramFunction s.params = .ok γ) (hγ' : s'.variogramFunction s'.params = .ok γ)
    {ea : UKExecArgs} (hb : "specified" ∈ args.driftTerms → ea.toExec.backend = "vectorized")
    {r r' : ExecResult} (hr : s.execute ea = .ok r) (hr' : s'.execute ea = .ok r') {j : ℕ} {p : ℝ × ℝ}
    (hq : queryAt ea.toExec j = some p) (hk : maskedAt ea.toExec j = false) :
    ∃ est var, r.z[j]? = some (some est) ∧ r'.z[j]? = some (some est) ∧
      r.ss[j]? = some (some var) ∧ r'.ss[j]? = some (some var) := by
  obtain ⟨exact, hex⟩ : ∃ e, args.exactValues = .bool e := ⟨_, (UK.create_fields h).2.1⟩
  obtain ⟨a1, a2⟩ := UK.create_aniso h
  obtain ⟨b1, b2⟩ := UK.create_aniso h'
  obtain ⟨d1, d2⟩ := UK.create_center h
  obtain ⟨e1, e2⟩ := UK.create_center h'
  have ex : s'.XCENTER = s.XCENTER := Except.ok.inj (e1.symm.trans d1)
  have ey : s'.YCENTER = s.YCENTER := Except.ok.inj (e2.symm.trans d2)
  have f1 : s.adjustPoint = fun q => adjust2 ![s.XCENTER, s.YCENTER] 1 args.anisotropyAngle ![q.1, q.2] := by
    funext q
    unfold UK.adjustPoint
    rw [a1, a2, hm, hs]; rfl
  have f2 : s'.adjustPoint = fun q => adjust2 ![s.XCENTER, s.YCENTER] 1 an' ![q.1, q.2] := by
    funext q
    unfold UK.adjustPoint
    rw [b1, b2, ex, ey]
    simp only [hm, hs]; rfl
  have key : ∀ p q, ukDistance { args with anisotropyAngle := an' } p q = ukDistance args p q := by
    intro p q
    unfold ukDistance effScaling effAngle
    simp only [hm, hs, C16_plain_2d]
  have hlog : ∀ q w, euclid (s'.adjustPoint q) (s'.adjustPoint w) = euclid (s.adjustPoint q) (s.adjustPoint w) := by
    intro q w
    rw [f1, f2]
    simp only [adjust2_euclid, C16_plain_2d]
  have rest : ∀ (sv : List ℝ) (q : ℝ × ℝ), ∃ t : List ℝ,
      driftTerms2 args s.adjustPoint sv q = (if "regional_linear" ∈ args.driftTerms then [s.adjustPoint q 0, s.adjustPoint q 1] else []) ++ t ∧
      driftTerms2 { args with anisotropyAngle := an' } s'.adjustPoint sv q =
        (if "regional_linear" ∈ args.driftTerms then [s'.adjustPoint q 0, s'.adjustPoint q 1] else []) ++ t := by
    intro sv q
    refine ⟨(if "point_log" ∈ args.driftTerms then (args.pointDrift.getD []).map fun w =>
      -w.2.2 * logDistance (euclid (s.adjustPoint q) (s.adjustPoint (w.1, w.2.1))) else []) ++
      (if "external_Z" ∈ args.driftTerms then [externalValue args q] else []) ++
      (if "specified" ∈ args.driftTerms then sv else []), ?_, ?_⟩
    · unfold driftTerms2
      rw [if_neg hf]
      simp only [List.append_nil, List.append_assoc]
    · unfold driftTerms2
      simp only [hlog, if_neg hf]
      simp only [List.append_nil, List.append_assoc]
      rfl
  have main : ∀ (u u' : (Option (Fin n)) → List ℝ) (q : Option (Fin n) → ℝ × ℝ) (t : Option (Fin n) → List ℝ) (g g' : ℝ × ℝ → Fin 2 → ℝ),
      (∃ (A : Fin 2 → Fin 2 → ℝ) (k : Fin 2 → ℝ), ∀ p l, g' p l = ∑ m, A l m * g p m + k l) →
      (∀ o, u o = (if "regional_linear" ∈ args.driftTerms then [g (q o) 0, g (q o) 1] else []) ++ t o) →
      (∀ o, u' o = (if "regional_linear" ∈ args.driftTerms then [g' (q o) 0, g' (q o) 1] else []) ++ t o) → CombinationOf u u' := by
    rintro u u' q t g g' ⟨A, k, hA⟩ h1 h2
    by_cases hl : "regional_linear" ∈ args.driftTerms
    · simp only [if_pos hl] at h1 h2
      refine comb_front (k := 2) (fun _ => rfl) (fun _ => rfl) h1 h2 ?_
      have := comb_matrix (f := fun o => g (q o)) (f' := fun o => g' (q o)) A k (fun o l => hA _ _)
      simpa [List.ofFn_succ] using this
    · simp only [if_neg hl] at h1 h2
      have : u' = u := funext fun o => (h2 o).trans (h1 o).symm
      rw [this]
      exact fun l => Submodule.subset_span (Set.mem_insert_of_mem _ ⟨l, rfl⟩)
  have hsplit : ∃ t : Option (Fin n) → List ℝ, ∀ o : Option (Fin n),
      driftAt2 args s.adjustPoint x y ea j p o = (if "regional_linear" ∈ args.driftTerms then
        [s.adjustPoint (o.elim p fun i => (x i, y i)) 0, s.adjustPoint (o.elim p fun i => (x i, y i)) 1] else []) ++ t o ∧
      driftAt2 { args with anisotropyAngle := an' } s'.adjustPoint x y ea j p o = (if "regional_linear" ∈ args.driftTerms then
        [s'.adjustPoint (o.elim p fun i => (x i, y i)) 0, s'.adjustPoint (o.elim p fun i => (x i, y i)) 1] else []) ++ t o := by
    have : ∀ o : Option (Fin n), ∃ t : List ℝ,
        driftAt2 args s.adjustPoint x y ea j p o = (if "regional_linear" ∈ args.driftTerms then
          [s.adjustPoint (o.elim p fun i => (x i, y i)) 0, s.adjustPoint (o.elim p fun i => (x i, y i)) 1] else []) ++ t ∧
        driftAt2 { args with anisotropyAngle := an' } s'.adjustPoint x y ea j p o = (if "regional_linear" ∈ args.driftTerms then
          [s'.adjustPoint (o.elim p fun i => (x i, y i)) 0, s'.adjustPoint (o.elim p fun i => (x i, y i)) 1] else []) ++ t := by
      intro o
      cases o with
      | none => exact rest _ _
      | some i => exact rest _ _
    choose t ht using this
    exact ⟨t, ht⟩
  obtain ⟨t, ht⟩ := hsplit
  have t1 := fun an an' => adjust2_plain_turned ![s.XCENTER, s.YCENTER] an an'
  refine C52_span_uk h h' hp hp key (exact := exact) hex hex hγ hγ' hb hb hr hr' hq hq hk hk ?_ ?_
  · refine main _ _ _ t _ _ ?_ (fun o => (ht o).1) (fun o => (ht o).2)
    obtain ⟨A, k, hA⟩ := t1 args.anisotropyAngle an'
    exact ⟨A, k, fun p l => by rw [f1, f2]; exact hA _ l⟩
  · refine main _ _ _ t _ _ ?_ (fun o => (ht o).2) (fun o => (ht o).1)
    obtain ⟨A, k, hA⟩ := t1 an' args.anisotropyAngle
    exact ⟨A, k, fun p l => by rw [f1, f2]; exact hA _ l⟩

theorem UK.create_other_angle {n : ℕ} {env : Env} {x y z : Fin n → ℝ} {args : UKArgs} {s : UK n}
    (h : UK.create env x y z args = .ok s) {m : String} (hm : args.variogramModel = .name m) (hs : args.anisotropyScaling = 1) (an' : ℝ) :
    ∃ s', UK.create env x y z { args with anisotropyAngle := an' } = .ok s' ∧
      s'.lags = s.lags ∧ s'.params = s.params ∧ s'.stats = s.stats ∧ s'.variogramFunction = s.variogramFunction := by
  obtain ⟨hp, exact, name, model, fArg, pArg, sc, an, f, fname, xc, yc, vp, lags, ps, stats, ext, plog, spec,
    func, h1, h2, h3, h4, h5, h6, h7, h8, h9, h10, h11, h12, rfl⟩ := UK.create_ok h
  obtain ⟨rfl, rfl, h2'⟩ := UK.resolveModel_eff h2
  have h2'' := h2' args.anisotropyScaling an'
  have hsd := sameDist2 (x := x) (y := y) (x' := x) (y' := y) (sc := effScaling args.variogramModel args.anisotropyScaling)
    (an := effAngle args.variogramModel args.anisotropyAngle) (sc' := effScaling args.variogramModel args.anisotropyScaling)
    (an' := effAngle args.variogramModel an') xc yc xc yc (by
      intro i j
      unfold effScaling effAngle
      simp only [hm, hs, C16_plain_2d])
  have h7' := h7
  rw [hsd.initialize] at h7'
  have h8' := h8
  rw [hsd.statistics] at h8'
  obtain ⟨plog', h10'⟩ : ∃ plog', setupPointLog xc yc (effScaling args.variogramModel args.anisotropyScaling)
      (effAngle args.variogramModel an') { args with anisotropyAngle := an', exactValues := .bool exact } = .ok plog' := by
    unfold setupPointLog at h10 ⊢
    by_cases hl : "point_log" ∈ args.driftTerms
    · simp only [if_pos hl] at h10 ⊢
      cases hw : args.pointDrift with
      | none => rw [hw] at h10; simp at h10
      | some wells =>
        rw [hw] at h10
        simp only at h10 ⊢
        split at h10
        · simp at h10
        · rename_i hi
          simp only [if_neg hi]
          exact ⟨_, rfl⟩
    · simp only [if_neg hl]
      exact ⟨_, rfl⟩
  have h9' : setupExternalZ x y { args with anisotropyAngle := an', exactValues := .bool exact } = .ok ext := h9
  refine ⟨⟨.name name, model, exact, args.pseudoInv, args.pseudoInvType, f, fname, x, y, z, xc, yc,
      effScaling args.variogramModel args.anisotropyScaling, effAngle args.variogramModel an',
      fun i => adjustData2 x y xc yc (effScaling args.variogramModel args.anisotropyScaling) (effAngle args.variogramModel an') i 0,
      fun i => adjustData2 x y xc yc (effScaling args.variogramModel args.anisotropyScaling) (effAngle args.variogramModel an') i 1,
      lags, ps, some stats, decide ("regional_linear" ∈ args.driftTerms), plog', ext, spec, func⟩, ?_, rfl, rfl, rfl, rfl⟩
  unfold UK.create
  rw [if_neg (not_not.2 hp)]
  simp only [py_pure, py_ok_bind, h1, h2'', h3, h4, h5, h6, h7', h8', h9', h10', h11, h12]

/-- `UniversalKriging` with scaling 1: another angle gives an object with the same lags, parameters and statistics, and
estimates and variances are the same at every point, for any combination of drift terms without functional ones.
(Functional drifts are functions of the turned coordinates, so they do depend on the angle.) -/
theorem C16_angle_irrelevant_uk {n : ℕ} {env : Env} {x y z : Fin n → ℝ} {args : UKArgs} {s : UK n}
    (h : UK.create env x y z args = .ok s) {m : String} (hm : args.variogramModel = .name m) (hs : args.anisotropyScaling = 1)
    (hp : args.pseudoInv = false) (hf : "functional" ∉ args.driftTerms) (an' : ℝ) :
    ∃ s', UK.create env x y z { args with anisotropyAngle := an' } = .ok s' ∧
      s'.lags = s.lags ∧ s'.params = s.params ∧ s'.stats = s.stats ∧
      ∀ ea, ("specified" ∈ args.driftTerms → ea.toExec.backend = "vectorized") →
        ∀ r r', s.execute ea = .ok r → s'.execute ea = .ok r' →
        ∀ j p, queryAt ea.toExec j = some p → maskedAt ea.toExec j = false →
          ∃ est var, r.z[j]? = some (some est) ∧ r'.z[j]? = some (some est) ∧
            r.ss[j]? = some (some var) ∧ r'.ss[j]? = some (some var) := by
  obtain ⟨s', h', e1, e2, e3, e4⟩ := UK.create_other_angle h hm hs an'
  refine ⟨s', h', e1, e2, e3, fun ea hb r r' hr hr' j p hq hk => ?_⟩
  obtain ⟨γ, hγ⟩ : ∃ γ, s.variogramFunction s.params = .ok γ := by
    obtain ⟨row, hF, -, -⟩ := (UK.create_weighs h ea).at_point (z := s.Z) (lags := s.lags) (stats := s.stats) hr hq hk
    obtain ⟨γ, L, F, f, hγ, -⟩ := hF.args h hq hb
    exact ⟨γ, hγ⟩
  exact angle_irrelevant_uk_point h h' hm hs hp hf hγ (by rw [e4, e2]; exact hγ) hb hr hr' hq hk

/-! ### Examples -/

section Examples
open Demo

/-- Both objects give results, and the same ones. -/
example (z : Fin 4 → ℝ) (an' : ℝ) (p : ℝ × ℝ) : ∃ s' r r' est var,
    UK.create stdEnv x4 y4 z { B2 with anisotropyAngle := an' } = .ok s' ∧
    (U2 z).execute { toExec := pts [p] "loop" } = .ok r ∧ s'.execute { toExec := pts [p] "loop" } = .ok r' ∧
    r.z[0]? = some (some est) ∧ r'.z[0]? = some (some est) ∧ r.ss[0]? = some (some var) ∧ r'.ss[0]? = some (some var) := by
  obtain ⟨s', h', -, -, -, hh⟩ := C16_angle_irrelevant_uk (U2_ok z) (m := "spherical") rfl rfl rfl (by simp [uany]) an'
  obtain ⟨s₁, h₁, -, -, hex⟩ := uany_ok (n := 4) (by norm_num) z sph_valid sph_grows inj4 plane4
  obtain rfl : s₁ = U2 z := Except.ok.inj (h₁.symm.trans (U2_ok z))
  have hw := pts_wellPosed [p] "loop"
  obtain ⟨r, hr⟩ := hex { toExec := pts [p] "loop" } hw.1 hw.2 (.inr rfl)
  have hid : ∀ q : ℝ × ℝ, affine2 1 (0, 0) q = q := fun q => by
    unfold affine2
    simp
  obtain ⟨s₂, h₂, -, -, -, hx⟩ := C17_affine_uk (U2_ok z) (by simp [uany]) rfl (by simp [effScaling, uany]) (sc' := 1) (an' := an')
    (args' := { B2 with anisotropyAngle := an' }) rfl (R := 1) (t := (0, 0)) (by
      intro p q
      simp only [hid]
      unfold ukDistance effScaling effAngle
      simp only [uany, C16_plain_2d]) (x' := x4) (y' := y4) (fun i => (hid _).symm)
  obtain rfl : s₂ = s' := Except.ok.inj (h₂.symm.trans h')
  have hr' := hx { toExec := pts [p] "loop" } { toExec := pts [p] "loop" }
    (by rw [show affine2 1 (0, 0) = id from funext hid]; exact moved_id _) rfl r hr
  obtain ⟨est, var, e1, e2, e3, e4⟩ := hh { toExec := pts [p] "loop" } (by simp [uany]) r r hr hr' 0 p (by simp [queryAt, pts]) rfl
  exact ⟨s₂, r, r, est, var, h', hr, hr', e1, e2, e3, e4⟩

end Examples

end
end PyKrige
