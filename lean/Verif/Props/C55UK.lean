import Verif.Props.C55
import Verif.Props.C52
import Verif.Props.C56

/-!
# C55 for universal kriging: data in a horizontal plane
-/

namespace PyKrige
noncomputable section
open Matrix Spec

namespace Spec

/-- The arguments of `UniversalKriging3D` that say for horizontal planes what `args` says for the plane.  A regional linear
drift in x and y becomes two functional drifts (the regional linear drift of the three-dimensional class has a term in z,
which is constant here). -/
def levelUK (args : UKArgs) (scalingZ : ℝ) : UK3DArgs :=
  { variogramModel := args.variogramModel, params := args.params, variogramFunction := args.variogramFunction
    nlags := args.nlags, weight := args.weight
    aniso := { scalingY := args.anisotropyScaling, scalingZ := scalingZ, angleZ := args.anisotropyAngle }
    driftTerms := "functional" :: (if "specified" ∈ args.driftTerms then ["specified"] else [])
    specifiedDrift := args.specifiedDrift
    functionalDrift := .list ((if "regional_linear" ∈ args.driftTerms then
        [(fun x _ _ => x : ℝ → ℝ → ℝ → ℝ), (fun _ y _ => y : ℝ → ℝ → ℝ → ℝ)] else []) ++
      (if "functional" ∈ args.driftTerms then
        match args.functionalDrift with
        | .list fs => fs.map fun f => (fun x y _ => f x y : ℝ → ℝ → ℝ → ℝ)
        | .notList => []
      else []))
    exactValues := args.exactValues, pseudoInv := args.pseudoInv, pseudoInvType := args.pseudoInvType }

end Spec

theorem midrange_const {n : ℕ} {z₀ c : ℝ} (h : midrange (fun _ : Fin n => z₀) = .ok c) : c = z₀ := by
  have hn := pos_of_midrange h
  obtain ⟨k, rfl⟩ : ∃ k, n = k + 1 := ⟨n - 1, by omega⟩
  have hf : ∀ (k : ℕ) (f : ℝ → ℝ → ℝ), f z₀ z₀ = z₀ → (List.replicate k z₀).foldl f z₀ = z₀ := by
    intro k f hf
    induction k with
    | zero => rfl
    | succ k ih => rw [List.replicate_succ, List.foldl_cons, hf, ih]
  unfold midrange at h
  simp only [List.ofFn_const, List.replicate_succ, amax, amin, py_ok_bind, hf k max (max_self _), hf k min (min_self _),
    py_pure, Except.ok.injEq] at h
  linarith

/-- The distances. -/
theorem C55_distance_level_uk (args : UKArgs) {m : String} (hm : args.variogramModel = .name m) (sz z₀ : ℝ) (p q : ℝ × ℝ) :
    uk3Distance (levelUK args sz) (p.1, p.2, z₀) (q.1, q.2, z₀) = ukDistance args p q := by
  unfold uk3Distance ukDistance levelUK
  simp only [hm, effAniso, effScaling, effAngle]
  unfold distance3 anisoDist2 rotX rotY rotZ
  simp [rad]

theorem level_adjust {n : ℕ} {env : Env} {x y v : Fin n → ℝ} {args : UKArgs} {s : UK n} {s3 : UK3D n} {z₀ sz : ℝ}
    (h : UK.create env x y v args = .ok s) {m : String} (hm : args.variogramModel = .name m)
    (h3 : UK3D.create env x y (fun _ => z₀) v (levelUK args sz) = .ok s3) (p : ℝ × ℝ) :
    s3.adjustPoint (p.1, p.2, z₀) 0 = s.adjustPoint p 0 ∧ s3.adjustPoint (p.1, p.2, z₀) 1 = s.adjustPoint p 1 := by
  obtain ⟨a1, a2⟩ := UK.create_aniso h
  have b1 := UK3D.create_aniso h3
  obtain ⟨d1, d2⟩ := UK.create_center h
  obtain ⟨e1, e2, e3⟩ := UK3D.create_center h3
  rw [d1] at e1; rw [d2] at e2
  unfold UK.adjustPoint UK3D.adjustPoint adjustPoint3 adjust3 adjust2
  rw [b1, a1, a2, ← Except.ok.inj e1, ← Except.ok.inj e2, midrange_const e3]
  simp only [hm, effAniso, effScaling, effAngle, levelUK]
  constructor <;> simp [dotProduct, Fin.sum_univ_three, Fin.sum_univ_two]

/-- The two constructors choose the same variogram. -/
theorem level_create_uk {n : ℕ} {env : Env} {x y v : Fin n → ℝ} {args : UKArgs} {s : UK n} {s3 : UK3D n} {z₀ sz : ℝ}
    (h : UK.create env x y v args = .ok s) {m : String} (hm : args.variogramModel = .name m)
    (h3 : UK3D.create env x y (fun _ => z₀) v (levelUK args sz) = .ok s3) :
    s3.lags = s.lags ∧ s3.params = s.params ∧ s3.stats = s.stats ∧ s3.variogramFunction = s.variogramFunction := by
  obtain ⟨hD, -⟩ := UK.create_dist h
  obtain ⟨hD3, -⟩ := UK3D.create_dist h3
  obtain ⟨hp, exact, name, model, fArg, pArg, sc, an, f, fname, xc, yc, vp, lags, ps, stats, ext, plog, spec,
    func, h1, h2, h3', h4, h5, h6, h7, h8, h9, h10, h11, h12, rfl⟩ := UK.create_ok h
  obtain ⟨hp', exact', name', model', fArg', pArg', an', f', fname', xc', yc', zc', vp', lags', ps', stats', spec', func',
    g1, g2, g3, g4, g5, g6, g7, g8, g9, g10, g11, rfl⟩ := UK3D.create_ok h3
  simp only [levelUK, hm] at g2
  unfold UK.resolveModel at h2
  rw [hm] at h2
  unfold OK3D.resolveModel at g2
  simp only [Except.ok.injEq, Prod.mk.injEq] at g2 h2
  obtain ⟨rfl, rfl, rfl, rfl, rfl, rfl⟩ := h2
  obtain ⟨rfl, rfl, rfl, rfl, rfl⟩ := g2
  rw [h3'] at g3; cases g3
  rw [h6] at g7; cases g7
  have hsd : SameDist "euclidean" (fun i => adjustPoint3 xc' yc' zc' { scalingY := args.anisotropyScaling, scalingZ := sz, angleZ := args.anisotropyAngle } (x i) (y i) z₀)
      (adjustData2 x y xc yc args.anisotropyScaling args.anisotropyAngle) := by
    refine sameDist_euclidean fun i j => ?_
    have := C55_distance_level_uk args hm sz z₀ (x i, y i) (x j, y j)
    unfold uk3Distance ukDistance levelUK at this
    simp only [hm, effAniso, effScaling, effAngle] at this
    unfold adjustPoint3 adjustData2
    rw [adjust3_euclid _ _ (x i, y i, z₀) (x j, y j, z₀), adjust2_euclid _ _ _ (x i, y i) (x j, y j)]
    exact this
  have g8' := hsd.initialize env v m vp f args.nlags args.weight
  have g8'' : initializeVariogramModel env (fun i => adjustPoint3 xc' yc' zc' { scalingY := args.anisotropyScaling, scalingZ := sz, angleZ := args.anisotropyAngle } (x i) (y i) z₀) v m vp f args.nlags args.weight "euclidean" = .ok (lags', ps') := g8
  rw [g8', h7] at g8''
  cases g8''
  have g9' := hsd.statistics v f ps args.pseudoInv
  have g9'' : findStatistics (fun i => adjustPoint3 xc' yc' zc' { scalingY := args.anisotropyScaling, scalingZ := sz, angleZ := args.anisotropyAngle } (x i) (y i) z₀) v f ps "euclidean" args.pseudoInv = .ok stats' := g9
  rw [g9', h8] at g9''
  cases g9''
  exact ⟨rfl, rfl, rfl, rfl⟩

/-- Moving a block of terms to the front. -/
theorem comb_blocks {ι : Type} {a b : ι → List ℝ} {c : ι → List ℝ} {A B : ℕ} (ha : ∀ i, (a i).length = A)
    (hb : ∀ i, (b i).length = B) :
    CombinationOf (fun i => a i ++ b i ++ c i) (fun i => b i ++ (a i ++ c i)) ∧
    CombinationOf (fun i => b i ++ (a i ++ c i)) (fun i => a i ++ b i ++ c i) := by
  have key : ∀ i l, (b i ++ (a i ++ c i)).getD l 0 =
      (a i ++ b i ++ c i).getD (if l < B then l + A else if l < A + B then l - B else l) 0 := by
    intro i l
    have h1 := ha i
    have h2 := hb i
    simp only [List.getD_eq_getElem?_getD, List.getElem?_append, List.length_append, h1, h2]
    split_ifs <;> first | omega | skip
    all_goals (congr 2; try omega)
  have key' : ∀ i l, (a i ++ b i ++ c i).getD l 0 =
      (b i ++ (a i ++ c i)).getD (if l < A then l + B else if l < A + B then l - A else l) 0 := by
    intro i l
    have h1 := ha i
    have h2 := hb i
    simp only [List.getD_eq_getElem?_getD, List.getElem?_append, List.length_append, h1, h2]
    split_ifs <;> first | omega | skip
    all_goals (congr 2; try omega)
  exact ⟨comb_of_mem fun l => .inr ⟨_, fun i => key i l⟩, comb_of_mem fun l => .inr ⟨_, fun i => key' i l⟩⟩

/-- Data and query points in a horizontal plane: `UniversalKriging3D` gives the estimates and variances of
`UniversalKriging`.  Entry `j` of the one call and entry `j'` of the other ask for the same point, with the same specified
drift values. -/
theorem C55_level_uk {n : ℕ} {env : Env} {x y v : Fin n → ℝ} {args : UKArgs} {s : UK n} {s3 : UK3D n} {z₀ sz : ℝ}
    (h : UK.create env x y v args = .ok s) {m : String} (hm : args.variogramModel = .name m)
    (hpl : "point_log" ∉ args.driftTerms) (hez : "external_Z" ∉ args.driftTerms) (hpi : args.pseudoInv = false)
    (h3 : UK3D.create env x y (fun _ => z₀) v (levelUK args sz) = .ok s3)
    {ea : UKExecArgs} {ea3 : UK3DExecArgs}
    (hs : "specified" ∈ args.driftTerms → ea.toExec.backend = "vectorized" ∧ ea3.toExec.backend = "vectorized")
    {r r3 : ExecResult} (hr : s.execute ea = .ok r) (hr3 : s3.execute ea3 = .ok r3) {j j' : ℕ} {p : ℝ × ℝ}
    (hq : queryAt ea.toExec j = some p) (hmk : maskedAt ea.toExec j = false)
    (hq' : queryAt3 ea3.toExec j' = some (p.1, p.2, z₀)) (hmk' : maskedAt3 ea3.toExec j' = false)
    (hsv : "specified" ∈ args.driftTerms → specAtQuery3 ea3 j' = specAtQuery ea j) :
    ∃ est var, r.z[j]? = some (some est) ∧ r3.z[j']? = some (some est) ∧
      r.ss[j]? = some (some var) ∧ r3.ss[j']? = some (some var) := by
  obtain ⟨γ, hγ⟩ := ((UK.create_pw h ea).ok_iff.1 ⟨r, hr⟩).1.vario
  obtain ⟨-, e1, -, e2⟩ := level_create_uk h hm h3
  have hγ' : s3.variogramFunction s3.params = .ok γ := by rw [e1, e2]; exact hγ
  obtain ⟨exact, hex⟩ : ∃ b, args.exactValues = .bool b := by
    obtain ⟨hp, exact, name, model, fArg, pArg, sc, an, f, fname, xc, yc, vp, lags, ps, stats, ext, plog, spec,
      func, h1, h2, h3', h4, h5, h6, h7, h8, h9, h10, h11, h12, rfl⟩ := UK.create_ok h
    exact ⟨exact, h1⟩
  obtain ⟨L, F, f, w, ν, μ, a1, a2, a3, a4, a5, a6⟩ := UK.entry_system h hpi (fun t => (hs t).1) hr hq hmk hγ hex
  obtain ⟨L', F', f', w', ν', μ', b1, b2, b3, b4, b5, b6⟩ := UK3D.entry_system h3 hpi (fun t => by
      refine (hs ?_).2
      simp only [levelUK, List.mem_cons, String.reduceEq, false_or] at t
      split at t
      · assumption
      · simp at t) hr3 hq' hmk' hγ' hex
  have hd := C55_distance_level_uk args hm sz z₀
  have hd1 : (fun i k => uk3Distance (levelUK args sz) (x i, y i, z₀) (x k, y k, z₀)) =
      fun i k => ukDistance args (x i, y i) (x k, y k) := funext fun i => funext fun k => hd (x i, y i) (x k, y k)
  have hd2 : (fun i => uk3Distance (levelUK args sz) (p.1, p.2, z₀) (x i, y i, z₀)) =
      fun i => ukDistance args p (x i, y i) := funext fun i => hd p (x i, y i)
  rw [hd1] at b3 b4
  rw [hd2] at b4 b6
  -- the drift terms
  let A : ℝ × ℝ → List ℝ := fun q => if "regional_linear" ∈ args.driftTerms then [s.adjustPoint q 0, s.adjustPoint q 1] else []
  let C : ℝ × ℝ → List ℝ := fun q => if "functional" ∈ args.driftTerms then
    match args.functionalDrift with
    | .list fs => fs.map fun g => g (s.adjustPoint q 0) (s.adjustPoint q 1)
    | .notList => []
   else []
  let pt : Option (Fin n) → ℝ × ℝ := fun o => match o with | some i => (x i, y i) | none => p
  let B : Option (Fin n) → List ℝ := fun o => if "specified" ∈ args.driftTerms then
    (match o with | some i => specAtDatum args.specifiedDrift i | none => specAtQuery ea j) else []
  have u1 : driftAt2 args s.adjustPoint x y ea j p = fun o => A (pt o) ++ B o ++ C (pt o) := by
    funext o
    cases o <;> simp [driftAt2, driftTerms2, hpl, hez, A, B, C, pt] <;> rfl
  have adj := level_adjust h hm h3
  have t1 : ∀ sv q, driftTerms3 (levelUK args sz) s3.adjustPoint sv (q.1, q.2, z₀) =
      (if "specified" ∈ args.driftTerms then sv else []) ++ (A q ++ C q) := by
    intro sv q
    unfold driftTerms3 levelUK
    simp only [List.mem_cons, String.reduceEq, false_or, true_or, if_true, List.map_append, A, C]
    by_cases c1 : "specified" ∈ args.driftTerms <;> by_cases c2 : "regional_linear" ∈ args.driftTerms <;>
      by_cases c3 : "functional" ∈ args.driftTerms <;> cases args.functionalDrift <;>
      simp [c1, c2, c3, (adj q).1, (adj q).2]
  have u2 : driftAt3 (levelUK args sz) s3.adjustPoint x y (fun _ => z₀) ea3 j' (p.1, p.2, z₀) =
      fun o => B o ++ (A (pt o) ++ C (pt o)) := by
    funext o
    cases o with
    | none =>
      simp only [driftAt3, t1 _ p, B, pt]
      by_cases c1 : "specified" ∈ args.driftTerms
      · rw [if_pos c1, if_pos c1, hsv c1]
      · rw [if_neg c1, if_neg c1]
    | some i => exact t1 _ (x i, y i)
  have hA : ∀ o, (A (pt o)).length = if "regional_linear" ∈ args.driftTerms then 2 else 0 := by
    intro o; simp only [A]; split <;> rfl
  have hC : ∀ o, (C (pt o)).length = (C p).length := by
    intro o; simp only [C]; split
    · cases args.functionalDrift <;> simp
    · rfl
  have hB : ∀ o, (B o).length = (B none).length := by
    intro o
    have l1 : ∀ o, (A (pt o) ++ B o ++ C (pt o)).length = L := by
      intro o
      have := congrFun u1 o
      rw [← this]
      cases o with
      | none => rw [← a2]; simp
      | some i => rw [← a1 i]; simp
    have l2 := l1 o
    have l3 := l1 none
    simp only [List.length_append, hA, hC] at l2 l3
    omega
  obtain ⟨k1, k2⟩ := comb_blocks (a := fun o => A (pt o)) (b := B) (c := fun o => C (pt o)) hA hB
  rw [← u1, ← u2] at k1 k2
  obtain ⟨rfl, e⟩ := KrigingEqs.comb k1 k2 a1 a2 b1 b2 b3 a4 b4
  rw [e] at b6
  exact ⟨_, _, a5, b5, a6, b6⟩

/-- Four data on one level, with a linear trend in x and y. -/
example (v : Fin 4 → ℝ) (z₀ : ℝ) (p : ℝ × ℝ) : ∃ s s3 r r3 est var,
    UK.create stdEnv Demo.x4 Demo.y4 v (Demo.uany "spherical" [3, 2, 1]) = .ok s ∧
    UK3D.create stdEnv Demo.x4 Demo.y4 (fun _ => z₀) v (levelUK (Demo.uany "spherical" [3, 2, 1]) 1) = .ok s3 ∧
    s.execute { toExec := Demo.pts [p] "vectorized" } = .ok r ∧
    s3.execute { toExec := Demo.pts3 [(p.1, p.2, z₀)] "vectorized" } = .ok r3 ∧
    r.z[0]? = some (some est) ∧ r3.z[0]? = some (some est) ∧ r.ss[0]? = some (some var) ∧ r3.ss[0]? = some (some var) := by
  obtain ⟨s, h, -, hadj, hr⟩ := Demo.uany_ok (n := 4) (by norm_num) v Demo.sph_valid Demo.sph_grows Demo.inj4 Demo.plane4
  obtain ⟨r, hr⟩ := hr { toExec := Demo.pts [p] "vectorized" } (Demo.pts_wellPosed _ _).1 (Demo.pts_wellPosed _ _).2 (.inl rfl)
  have hs : Separates (listMeaning "spherical" [3, 2, 1]) fun i j : Fin 4 =>
      uk3Distance (levelUK (Demo.uany "spherical" [3, 2, 1]) 1) (Demo.x4 i, Demo.y4 i, z₀) (Demo.x4 j, Demo.y4 j, z₀) :=
    .inl ⟨Demo.sph_grows, fun i j hij h0 => hij (by
      have := distance3_eq_zero h0
      exact Demo.inj4 (Prod.ext (congrArg (fun p : ℝ × ℝ × ℝ => p.1) this) (congrArg (fun p : ℝ × ℝ × ℝ => p.2.1) this)))⟩
  obtain ⟨s3, h3, hps⟩ := C29_create_uk3d stdEnv (by norm_num) Demo.x4 Demo.y4 (fun _ => z₀) v
    (levelUK (Demo.uany "spherical" [3, 2, 1]) 1) (by simp [Demo.uany, levelUK]) rfl rfl rfl Demo.sph_valid hs
    (fun hc => by simp [Demo.uany, levelUK] at hc) (fun hc => by simp [Demo.uany, levelUK])
  have adj := level_adjust h rfl h3
  obtain ⟨r3, hr3⟩ := C29_execute_uk3d h3 rfl (hps ▸ Demo.sph_valid) (hps ▸ hs) (.inr (by
      intro a b hi
      have e : ∀ i, driftTerms3 (levelUK (Demo.uany "spherical" [3, 2, 1]) 1) s3.adjustPoint
          (specAtDatum (levelUK (Demo.uany "spherical" [3, 2, 1]) 1).specifiedDrift (i : Fin 4)) (Demo.x4 i, Demo.y4 i, z₀) =
          [Demo.x4 i, Demo.y4 i] := by
        intro i
        unfold driftTerms3
        simp [levelUK, Demo.uany, (adj (Demo.x4 i, Demo.y4 i)).1, (adj (Demo.x4 i, Demo.y4 i)).2, hadj]
      simp only [e] at hi ⊢
      obtain ⟨h1, h2, h3⟩ := Demo.plane4 (a 0) (a 1) b fun i => by
        have := hi i
        simp [Finset.sum_range_succ] at this
        exact this
      refine ⟨fun i l hl => ?_, h3⟩
      simp only [List.length_cons, List.length_nil] at hl
      interval_cases l
      · exact h1
      · exact h2))
    (ea := { toExec := Demo.pts3 [(p.1, p.2, z₀)] "vectorized" }) (Demo.pts_wellPosed3 _ _).1 (Demo.pts_wellPosed3 _ _).2
    (fun hc => by simp [Demo.uany, levelUK] at hc) (.inl rfl)
  obtain ⟨est, var, k⟩ := C55_level_uk h rfl (by simp [Demo.uany]) (by simp [Demo.uany]) rfl h3
    (fun hc => by simp [Demo.uany] at hc) hr hr3 (j := 0) (j' := 0) (p := p) rfl rfl rfl rfl (fun hc => by simp [Demo.uany] at hc)
  exact ⟨s, s3, r, r3, est, var, h, h3, hr, hr3, k⟩

end
end PyKrige
