import Verif.Props.C17Wells

/-!
# C17: universal kriging in space with any drift terms under motions of space
-/

namespace PyKrige
noncomputable section
open Spec Matrix

theorem comb_three {ι κ : Type} (b : Prop) [Decidable b] {u u' t : ι → List ℝ} (q : ι → κ) {g g' : κ → Fin 3 → ℝ}
    (hA : ∃ (A : Fin 3 → Fin 3 → ℝ) (k : Fin 3 → ℝ), ∀ p l, g' p l = ∑ m, A l m * g p m + k l)
    (h1 : ∀ o, u o = (if b then [g (q o) 0, g (q o) 1, g (q o) 2] else []) ++ t o)
    (h2 : ∀ o, u' o = (if b then [g' (q o) 0, g' (q o) 1, g' (q o) 2] else []) ++ t o) : CombinationOf u u' := by
  obtain ⟨A, k, hA⟩ := hA
  by_cases hl : b
  · simp only [if_pos hl] at h1 h2
    refine comb_front (k := 3) (fun _ => rfl) (fun _ => rfl) h1 h2 ?_
    have := comb_matrix (f := fun o => g (q o)) (f' := fun o => g' (q o)) A k (fun o l => hA _ _)
    simpa [List.ofFn_succ] using this
  · simp only [if_neg hl] at h1 h2
    have : u' = u := funext fun o => (h2 o).trans (h1 o).symm
    rw [this]
    exact fun l => Submodule.subset_span (Set.mem_insert_of_mem _ ⟨l, rfl⟩)

/-- The drift terms but the regional linear one. -/
def otherTerms3 (args : UK3DArgs) (adj : ℝ × ℝ × ℝ → Fin 3 → ℝ) (sv : List ℝ) (p : ℝ × ℝ × ℝ) : List ℝ :=
  (if "specified" ∈ args.driftTerms then sv else []) ++
  (if "functional" ∈ args.driftTerms then
    match args.functionalDrift with
    | .list fs => fs.map fun g => g (adj p 0) (adj p 1) (adj p 2)
    | .notList => []
   else [])

theorem driftTerms3_split (args : UK3DArgs) (adj : ℝ × ℝ × ℝ → Fin 3 → ℝ) (sv : List ℝ) (p : ℝ × ℝ × ℝ) :
    driftTerms3 args adj sv p = (if "regional_linear" ∈ args.driftTerms then [adj p 0, adj p 1, adj p 2] else []) ++ otherTerms3 args adj sv p := by
  unfold driftTerms3 otherTerms3
  simp only [List.append_assoc]
  congr!

theorem otherTerms3_moved {args args' : UK3DArgs} {adj adj' : ℝ × ℝ × ℝ → Fin 3 → ℝ} {sv sv' : List ℝ} {T : ℝ × ℝ × ℝ → ℝ × ℝ × ℝ} {q : ℝ × ℝ × ℝ}
    (hT : args'.driftTerms = args.driftTerms) (hsv : "specified" ∈ args.driftTerms → sv' = sv)
    (hf : "functional" ∈ args.driftTerms → ∃ fs fs', args.functionalDrift = .list fs ∧ args'.functionalDrift = .list fs' ∧
      (fs'.map fun g => g (adj' (T q) 0) (adj' (T q) 1) (adj' (T q) 2)) = fs.map fun g => g (adj q 0) (adj q 1) (adj q 2)) :
    otherTerms3 args' adj' sv' (T q) = otherTerms3 args adj sv q := by
  unfold otherTerms3
  rw [hT]
  congr 1
  · by_cases hl : "specified" ∈ args.driftTerms
    · simp only [if_pos hl, hsv hl]
    · simp only [if_neg hl]
  · by_cases hl : "functional" ∈ args.driftTerms
    · simp only [if_pos hl]
      obtain ⟨fs, fs', e1, e2, e3⟩ := hf hl
      simp only [e1, e2]
      exact e3
    · simp only [if_neg hl]

/-- Universal kriging of moved data: `affine3 R t`, together with the new anisotropy, keeps all distances. -/
theorem C17_moved_uk3 {n : ℕ} {env : Env} {x y z v x' y' z' : Fin n → ℝ} {args args' : UK3DArgs} {s s' : UK3D n}
    (h : UK3D.create env x y z v args = .ok s) (h' : UK3D.create env x' y' z' v args' = .ok s') (hp : args.pseudoInv = false)
    (hsc : (effAniso args.variogramModel args.aniso).scalingY ≠ 0 ∧ (effAniso args.variogramModel args.aniso).scalingZ ≠ 0)
    {R : Matrix (Fin 3) (Fin 3) ℝ} {t : ℝ × ℝ × ℝ} {an' : Aniso3} {fd' : ListArg (ℝ → ℝ → ℝ → ℝ)}
    (hargs : args' = { args with aniso := an', functionalDrift := fd' })
    (hd : ∀ p q, uk3Distance args' (affine3 R t p) (affine3 R t q) = uk3Distance args p q)
    (hxy : ∀ i, (x' i, y' i, z' i) = affine3 R t (x i, y i, z i))
    (hf : "functional" ∈ args.driftTerms → ∃ fs fs', args.functionalDrift = .list fs ∧ fd' = .list fs' ∧
      ∀ q, (fs'.map fun g => g (s'.adjustPoint (affine3 R t q) 0) (s'.adjustPoint (affine3 R t q) 1) (s'.adjustPoint (affine3 R t q) 2)) =
        fs.map fun g => g (s.adjustPoint q 0) (s.adjustPoint q 1) (s.adjustPoint q 2))
    {ea ea' : UK3DExecArgs} (hb : "specified" ∈ args.driftTerms → ea.toExec.backend = "vectorized" ∧ ea'.toExec.backend = "vectorized")
    {r r' : ExecResult} (hr : s.execute ea = .ok r) (hr' : s'.execute ea' = .ok r') {j j' : ℕ} {p : ℝ × ℝ × ℝ}
    (hq : queryAt3 ea.toExec j = some p) (hq' : queryAt3 ea'.toExec j' = some (affine3 R t p))
    (hk : maskedAt3 ea.toExec j = false) (hk' : maskedAt3 ea'.toExec j' = false)
    (hsp : "specified" ∈ args.driftTerms → specAtQuery3 ea' j' = specAtQuery3 ea j) :
    s'.lags = s.lags ∧ s'.params = s.params ∧ s'.stats = s.stats ∧
    ∃ est var, r.z[j]? = some (some est) ∧ r'.z[j']? = some (some est) ∧
      r.ss[j]? = some (some var) ∧ r'.ss[j']? = some (some var) := by
  obtain ⟨exact, hex⟩ : ∃ e, args.exactValues = .bool e := ⟨_, (UK3D.create_fields h).2.1⟩
  have hT : args'.driftTerms = args.driftTerms := by rw [hargs]
  -- the same variogram
  obtain ⟨g1, g2, g3, g4⟩ : s'.lags = s.lags ∧ s'.params = s.params ∧ s'.stats = s.stats ∧ s'.variogramFunction = s.variogramFunction := by
    obtain ⟨_, exact, name, model, fArg, pArg, an, f, fname, xc, yc, zc, vp, lags, ps, stats, spec, func,
      h1, h2, h3, h4, h5, h6, h7, h8, h9, h10, h11, rfl⟩ := UK3D.create_ok h
    obtain ⟨_, exact', name', model', fArg', pArg', an'', f', fname', xc', yc', zc', vp', lags', ps', stats', spec', func',
      k1, k2, k3, k4, k5, k6, k7, k8, k9, k10, k11, rfl⟩ := UK3D.create_ok h'
    obtain ⟨rfl, h2'⟩ := OK3D.resolveModel_eff h2
    have hd' : ∀ i j, distance3 (effAniso args.variogramModel args.aniso) (x i, y i, z i) (x j, y j, z j) =
        distance3 (effAniso args.variogramModel an') (x' i, y' i, z' i) (x' j, y' j, z' j) := by
      intro i j
      have := hd (x i, y i, z i) (x j, y j, z j)
      rw [← hxy, ← hxy, hargs] at this
      exact this.symm
    rw [hargs] at k2 k8 k9
    dsimp only at k2 k8 k9
    rw [h2' an'] at k2
    simp only [Except.ok.injEq, Prod.mk.injEq] at k2
    obtain ⟨rfl, rfl, rfl, rfl, rfl⟩ := k2
    rw [h3] at k3
    simp only [Except.ok.injEq, Prod.mk.injEq] at k3
    obtain ⟨rfl, rfl⟩ := k3
    rw [h7] at k7
    obtain rfl := Except.ok.inj k7
    have hsd := sameDist3 xc yc zc xc' yc' zc' hd'
    rw [← hsd.initialize, h8] at k8
    simp only [Except.ok.injEq, Prod.mk.injEq] at k8
    obtain ⟨rfl, rfl⟩ := k8
    rw [← hsd.statistics, h9] at k9
    obtain rfl := Except.ok.inj k9
    exact ⟨rfl, rfl, rfl, rfl⟩
  refine ⟨g1, g2, g3, ?_⟩
  have hb1 := fun t => (hb t).1
  have hb2 : "specified" ∈ args'.driftTerms → ea'.toExec.backend = "vectorized" := fun t => (hb (hT ▸ t)).2
  obtain ⟨γ, hγ⟩ : ∃ γ, s.variogramFunction s.params = .ok γ := by
    obtain ⟨row, hF, -, -⟩ := (UK3D.create_weighs h ea).at_point (z := s.VALUES) (lags := s.lags) (stats := s.stats) hr hq hk
    obtain ⟨γ, L, F, f, hγ, -⟩ := hF.args h hq hb1
    exact ⟨γ, hγ⟩
  have hγ' : s'.variogramFunction s'.params = .ok γ := by rw [g4, g2]; exact hγ
  -- the adjusted coordinates
  have a1 := UK3D.create_aniso h
  have b1 := UK3D.create_aniso h'
  have hM : (anisoMat3 s.aniso).det ≠ 0 := by rw [det_anisoMat3, a1]; exact mul_ne_zero hsc.1 hsc.2
  have hd2 : ∀ p q, distance3 s'.aniso (affine3 R t p) (affine3 R t q) = distance3 s.aniso p q := by
    intro p q
    rw [a1, b1]
    exact hd p q
  have hA := affine3_det hM hd2
  obtain ⟨c, hadj⟩ := UK3D.affine_adjust s s' (R := R) (t := t) hM
  generalize anisoMat3 s'.aniso * R * (anisoMat3 s.aniso)⁻¹ = A at hA hadj
  -- the drift terms
  have rest : ∀ (sv sv' : List ℝ), ("specified" ∈ args.driftTerms → sv' = sv) → ∀ (q : ℝ × ℝ × ℝ), ∃ l : List ℝ,
      driftTerms3 args s.adjustPoint sv q = (if "regional_linear" ∈ args.driftTerms then
        [s.adjustPoint q 0, s.adjustPoint q 1, s.adjustPoint q 2] else []) ++ l ∧
      driftTerms3 args' s'.adjustPoint sv' (affine3 R t q) = (if "regional_linear" ∈ args.driftTerms then
        [s'.adjustPoint (affine3 R t q) 0, s'.adjustPoint (affine3 R t q) 1, s'.adjustPoint (affine3 R t q) 2] else []) ++ l := by
    intro sv sv' hsv q
    refine ⟨otherTerms3 args s.adjustPoint sv q, driftTerms3_split _ _ _ _, ?_⟩
    rw [driftTerms3_split, hT]
    refine congrArg _ (otherTerms3_moved hT (T := affine3 R t) hsv fun ht => ?_)
    obtain ⟨fs, fs', e1, e2, e3⟩ := hf ht
    exact ⟨fs, fs', e1, by rw [hargs]; exact e2, e3 q⟩
  have hsplit : ∀ o : Option (Fin n), ∃ l : List ℝ,
      driftAt3 args s.adjustPoint x y z ea j p o = (if "regional_linear" ∈ args.driftTerms then
        [s.adjustPoint (o.elim p fun i => (x i, y i, z i)) 0, s.adjustPoint (o.elim p fun i => (x i, y i, z i)) 1,
          s.adjustPoint (o.elim p fun i => (x i, y i, z i)) 2] else []) ++ l ∧
      driftAt3 args' s'.adjustPoint x' y' z' ea' j' (affine3 R t p) o = (if "regional_linear" ∈ args.driftTerms then
        [s'.adjustPoint (affine3 R t (o.elim p fun i => (x i, y i, z i))) 0, s'.adjustPoint (affine3 R t (o.elim p fun i => (x i, y i, z i))) 1,
          s'.adjustPoint (affine3 R t (o.elim p fun i => (x i, y i, z i))) 2] else []) ++ l := by
    intro o
    cases o with
    | none => exact rest _ _ (fun ht => hsp ht) _
    | some i =>
      have := rest (specAtDatum args.specifiedDrift i) (specAtDatum args'.specifiedDrift i) (fun _ => by rw [hargs]) (x i, y i, z i)
      rw [← hxy] at this
      simpa only [driftAt3, Option.elim, ← hxy] using this
  choose l hl using hsplit
  have c1 : CombinationOf (driftAt3 args s.adjustPoint x y z ea j p) (driftAt3 args' s'.adjustPoint x' y' z' ea' j' (affine3 R t p)) := by
    refine comb_three _ (fun o => o.elim p fun i => (x i, y i, z i)) (g := s.adjustPoint) (g' := fun q => s'.adjustPoint (affine3 R t q))
      ⟨A, c, fun q k => ?_⟩ (fun o => (hl o).1) (fun o => (hl o).2)
    rw [hadj]; rfl
  have c2 : CombinationOf (driftAt3 args' s'.adjustPoint x' y' z' ea' j' (affine3 R t p)) (driftAt3 args s.adjustPoint x y z ea j p) := by
    refine comb_three _ (fun o => o.elim p fun i => (x i, y i, z i)) (g' := s.adjustPoint) (g := fun q => s'.adjustPoint (affine3 R t q))
      ⟨(A⁻¹ : Matrix (Fin 3) (Fin 3) ℝ), -((A⁻¹ : Matrix (Fin 3) (Fin 3) ℝ) *ᵥ c), fun q k => ?_⟩ (fun o => (hl o).2) (fun o => (hl o).1)
    have := congrFun (affine_back hA (g := s.adjustPoint) (g' := fun q => s'.adjustPoint (affine3 R t q)) hadj q) k
    rw [this, Pi.add_apply, Matrix.mulVec, dotProduct]
  obtain ⟨L, F, f, w, ν, μ, u1, u2, u3, u4, u5, u6⟩ := UK3D.entry_system h hp hb1 hr hq hk hγ hex
  obtain ⟨L', F', f', w', ν', μ', v1, v2, v3, v4, v5, v6⟩ := UK3D.entry_system h' (by rw [hargs]; exact hp) hb2 hr' hq' hk' hγ'
    (exact := exact) (by rw [hargs]; exact hex)
  simp only [hxy, hd] at v3 v4 v6
  obtain ⟨rfl, e⟩ := KrigingEqs.comb c1 c2 u1 u2 v1 v2 v3 u4 v4
  rw [e] at v6
  exact ⟨_, _, u5, v5, u6, v6⟩

/-! ### Examples -/

section Examples
open Demo

/-- A reflection and a shift of space. -/
example (v : Fin 4 → ℝ) (p : ℝ × ℝ × ℝ) : ∃ s' r r' est var,
    UK3D.create stdEnv (fun i => z4 i + 1) x4 (fun i => 2 - y4 i) v B3 = .ok s' ∧
    (U3 v).execute { toExec := pts3 [p] "loop" } = .ok r ∧ s'.execute { toExec := pts3 [(p.2.2 + 1, p.1, 2 - p.2.1)] "loop" } = .ok r' ∧
    r.z[0]? = some (some est) ∧ r'.z[0]? = some (some est) ∧ r.ss[0]? = some (some var) ∧ r'.ss[0]? = some (some var) := by
  obtain ⟨s₁, h₁, -, -, hex⟩ := uany3_ok (n := 4) (by norm_num) v sph_valid sph_grows inj4' space4
  obtain rfl : s₁ = U3 v := Except.ok.inj (h₁.symm.trans (U3_ok v))
  have hw := pts_wellPosed3 [p] "loop"
  obtain ⟨r, hr⟩ := hex { toExec := pts3 [p] "loop" } hw.1 hw.2 (.inr rfl)
  have hT : ∀ q : ℝ × ℝ × ℝ, affine3 !![0, 0, 1; 1, 0, 0; 0, -1, 0] (1, 0, 2) q = (q.2.2 + 1, q.1, 2 - q.2.1) := fun q => by
    simp [affine3]; ring
  have hd : ∀ a b, uk3Distance B3 (affine3 !![0, 0, 1; 1, 0, 0; 0, -1, 0] (1, 0, 2) a) (affine3 !![0, 0, 1; 1, 0, 0; 0, -1, 0] (1, 0, 2) b) = uk3Distance B3 a b := by
    intro a b
    simp only [hT]
    unfold uk3Distance effAniso
    simp only [uany3]
    rw [C16_plain_3d rfl rfl, C16_plain_3d rfl rfl]
    congr 1
    ring
  obtain ⟨s', h', -, -, -, hx⟩ := C17_affine_uk3 (U3_ok v) (by simp [uany3]) rfl (by simp [effAniso, uany3]) (an' := B3.aniso) rfl
    (R := !![0, 0, 1; 1, 0, 0; 0, -1, 0]) (t := (1, 0, 2)) hd (x' := fun i => z4 i + 1) (y' := x4) (z' := fun i => 2 - y4 i)
    (fun i => by rw [hT])
  have hr' := hx { toExec := pts3 [p] "loop" } { toExec := pts3 [(p.2.2 + 1, p.1, 2 - p.2.1)] "loop" } (by
    refine ⟨rfl, rfl, rfl, rfl, rfl, rfl, rfl, .inl rfl, ?_⟩
    intro j
    cases j <;> simp [queryAt3, pts3, hT]) rfl r hr
  obtain ⟨-, -, -, est, var, e1, e2, e3, e4⟩ := C17_moved_uk3 (U3_ok v) h' rfl (by simp [effAniso, uany3]) (an' := B3.aniso) (fd' := B3.functionalDrift) rfl hd
    (fun i => by rw [hT]) (fun hc => by simp [uany3] at hc) (fun hc => by simp [uany3] at hc) hr hr' (j := 0) (j' := 0) (p := p)
    (by simp [queryAt3, pts3]) (by simp [queryAt3, pts3, hT]) rfl rfl (fun hc => by simp [uany3] at hc)
  exact ⟨s', r, r, est, var, h', hr, hr', e1, e2, e3, e4⟩

end Examples

end
end PyKrige
