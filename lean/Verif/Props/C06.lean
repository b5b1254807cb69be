import Verif.Lemmas.PWCreate
import Verif.Examples.Demo

/-!
# C06: `exact_values` only matters where a query coincides with a datum and there is a nugget

Constructing with `exact_values=b` instead: every call that succeeded succeeds, and gives the same numbers at
every point whose distance to every datum is more than `1e-10`, or zero if the variogram is 0 at distance 0.
-/

set_option linter.unusedSectionVars false

namespace PyKrige
noncomputable section
open Matrix Spec

theorem semivarTo_irrel {ι : Type} {γ : ℝ → ℝ} {d : ι → ℝ}
    (h : ∀ i, 1 / 10 ^ 10 < d i ∨ d i = 0 ∧ γ 0 = 0) (a b : Bool) : semivarTo a γ d = semivarTo b γ d := by
  have : ∀ c, semivarTo c γ d = fun i => γ (d i) := by
    intro c
    funext i
    unfold semivarTo
    rcases h i with h | ⟨h0, h1⟩
    · rw [if_neg (fun e => absurd e.2 (not_le.2 h))]
    · rw [h0, h1, ite_self]
  rw [this, this]

theorem selAnswer_irrel {n : ℕ} {sel : List (Fin n)} {γ : ℝ → ℝ} {D : Fin n → Fin n → ℝ} {Z d : Fin n → ℝ}
    (h : ∀ i, 1 / 10 ^ 10 < d i ∨ d i = 0 ∧ γ 0 = 0) (a b : Bool) :
    selAnswer sel a γ D Z d = selAnswer sel b γ D Z d := by
  unfold selAnswer
  rw [semivarTo_irrel (d := fun i => d (sel.get i)) (fun i => h (sel.get i)) a b]

/-- `OrdinaryKriging`. -/
theorem C06_exact_irrelevant_2d {n : ℕ} {env : Env} {x y z : Fin n → ℝ} {args : OKArgs} {s : OK n}
    (h : OK.create env x y z args = .ok s) {ea : ExecArgs} (ha : Admissible env args s ea.nClosest)
    (b : Bool) {r : ExecResult} (hr : s.execute env ea = .ok r) :
    ∃ s' r', OK.create env x y z { args with exactValues := .bool b } = .ok s' ∧
      s'.execute env ea = .ok r' ∧ r'.shape = r.shape ∧
      ∀ j p, queryAt ea j = some p →
        (∀ i, 1 / 10 ^ 10 < distance2 args.coordinatesType s.anisotropyScaling s.anisotropyAngle p (x i, y i) ∨
          distance2 args.coordinatesType s.anisotropyScaling s.anisotropyAngle p (x i, y i) = 0 ∧ ∀ γ, s.variogramFunction s.params = .ok γ → γ 0 = 0) →
        r'.z[j]? = r.z[j]? ∧ r'.ss[j]? = r.ss[j]? := by
  have hC := (OK.create_fields h).2.2.2.2.1
  obtain ⟨hpl, hx, hy, hZ⟩ := OK.create_placed h
  have h1 := OK.create_pw h ha
  have h2 := OK.create_pw (OK.create_exact h b) (ea := ea) ⟨ha.knn, ha.noClash, ha.range, ha.window⟩
  obtain ⟨r', hr'⟩ := h1.success h2 hr (fun a => ⟨a.style, a.win, a.vario, a.query, a.noInt, a.backend, a.solvable⟩) (fun _ hv => hv)
  have t1 := h1.table r hr
  have t2 := h2.table r' hr'
  have hvar := (h1.ok_iff.1 ⟨r, hr⟩).1.vario
  refine ⟨_, r', OK.create_exact h b, hr', t2.shape_eq.trans t1.shape_eq.symm, fun j p hq hp => ?_⟩
  obtain ⟨γ, hγ⟩ := hvar
  have hd : ∀ i, 1 / 10 ^ 10 < s.queryDist (s.queryPt p) i ∨ s.queryDist (s.queryPt p) i = 0 ∧ s.gam 0 = 0 := by
    intro i
    rw [hpl.queryDist, hx, hy, hC, OK.gam_eq hγ]
    exact (hp i).imp id fun h => ⟨h.1, h.2 γ hγ⟩
  have e : ({ s with exactValues := b } : OK n).ans env ea.nClosest p = s.ans env ea.nClosest p := by
    unfold OK.ans
    cases ea.nClosest with
    | none => exact congrArg (fun g => krigAnswer s.pseudoInv (s.G s.gam) noF s.Z g 0) (semivarTo_irrel hd _ _)
    | some k => exact selAnswer_irrel hd _ _
  rw [t1.z_eq, t1.ss_eq, t2.z_eq, t2.ss_eq, hq]
  dsimp only [Option.map_some]
  rw [e]
  exact ⟨rfl, rfl⟩

/-- `OrdinaryKriging3D`. -/
theorem C06_exact_irrelevant_3d {n : ℕ} {env : Env} {x y z v : Fin n → ℝ} {args : OK3DArgs} {s : OK3D n}
    (h : OK3D.create env x y z v args = .ok s) {ea : ExecArgs3} (hk : KnnSpec env)
    (hw : WindowFits n ea.nClosest)
    (b : Bool) {r : ExecResult} (hr : s.execute env ea = .ok r) :
    ∃ s' r', OK3D.create env x y z v { args with exactValues := .bool b } = .ok s' ∧
      s'.execute env ea = .ok r' ∧ r'.shape = r.shape ∧
      ∀ j p, queryAt3 ea j = some p →
        (∀ i, 1 / 10 ^ 10 < distance3 s.aniso p (x i, y i, z i) ∨
          distance3 s.aniso p (x i, y i, z i) = 0 ∧ ∀ γ, s.variogramFunction s.params = .ok γ → γ 0 = 0) →
        r'.z[j]? = r.z[j]? ∧ r'.ss[j]? = r.ss[j]? := by
  
  obtain ⟨hpl, hx, hy, hz, hZ⟩ := OK3D.create_placed h
  have h1 := OK3D.create_pw h hk hw
  have h2 := OK3D.create_pw (OK3D.create_exact h b) hk hw
  obtain ⟨r', hr'⟩ := h1.success h2 hr (fun a => ⟨a.style, a.win, a.vario, a.query, a.noInt, a.backend, a.solvable⟩) (fun _ hv => hv)
  have t1 := h1.table r hr
  have t2 := h2.table r' hr'
  have hvar := (h1.ok_iff.1 ⟨r, hr⟩).1.vario
  refine ⟨_, r', OK3D.create_exact h b, hr', t2.shape_eq.trans t1.shape_eq.symm, fun j p hq hp => ?_⟩
  obtain ⟨γ, hγ⟩ := hvar
  have hd : ∀ i, 1 / 10 ^ 10 < s.queryDist (s.queryPt p) i ∨ s.queryDist (s.queryPt p) i = 0 ∧ s.gam 0 = 0 := by
    intro i
    rw [hpl.queryDist, hx, hy, hz, OK3D.gam_eq hγ]
    exact (hp i).imp id fun h => ⟨h.1, h.2 γ hγ⟩
  have e : ({ s with exactValues := b } : OK3D n).ans env ea.nClosest p = s.ans env ea.nClosest p := by
    unfold OK3D.ans
    cases ea.nClosest with
    | none => exact congrArg (fun g => krigAnswer s.pseudoInv (s.G s.gam) noF s.VALUES g 0) (semivarTo_irrel hd _ _)
    | some k => exact selAnswer_irrel hd _ _
  rw [t1.z_eq, t1.ss_eq, t2.z_eq, t2.ss_eq, hq]
  dsimp only [Option.map_some]
  rw [e]
  exact ⟨rfl, rfl⟩

/-- `UniversalKriging`. -/
theorem C06_exact_irrelevant_uk {n : ℕ} {env : Env} {x y z : Fin n → ℝ} {args : UKArgs} {s : UK n}
    (h : UK.create env x y z args = .ok s) {ea : UKExecArgs}
    (b : Bool) {r : ExecResult} (hr : s.execute ea = .ok r) :
    ∃ s' r', UK.create env x y z { args with exactValues := .bool b } = .ok s' ∧
      s'.execute ea = .ok r' ∧ r'.shape = r.shape ∧
      ∀ j p, queryAt ea.toExec j = some p →
        (∀ i, 1 / 10 ^ 10 < anisoDist2 s.anisotropyScaling s.anisotropyAngle p (x i, y i) ∨
          anisoDist2 s.anisotropyScaling s.anisotropyAngle p (x i, y i) = 0 ∧ ∀ γ, s.variogramFunction s.params = .ok γ → γ 0 = 0) →
        r'.z[j]? = r.z[j]? ∧ r'.ss[j]? = r.ss[j]? := by
  
  obtain ⟨hpl, hx, hy, hZ⟩ := UK.create_placed h
  have h1 := UK.create_pw h ea
  have h2 := UK.create_pw (UK.create_exact h b) ea
  obtain ⟨r', hr'⟩ := h1.success h2 hr (fun a => ⟨a.style, a.vario, a.query, a.spec, a.noInt, a.backend, a.solvable⟩) (fun _ hv => hv)
  have t1 := h1.table r hr
  have t2 := h2.table r' hr'
  have hvar := (h1.ok_iff.1 ⟨r, hr⟩).1.vario
  refine ⟨_, r', UK.create_exact h b, hr', t2.shape_eq.trans t1.shape_eq.symm, fun j p hq hp => ?_⟩
  obtain ⟨γ, hγ⟩ := hvar
  have hd : ∀ i, 1 / 10 ^ 10 < s.queryDist p i ∨ s.queryDist p i = 0 ∧ s.gam 0 = 0 := by
    intro i
    rw [hpl.queryDist, hx, hy, UK.gam_eq hγ]
    exact (hp i).imp id fun h => ⟨h.1, h.2 γ hγ⟩
  have e : ({ s with exactValues := b } : UK n).ans ea j p = s.ans ea j p := by
    unfold UK.ans
    exact congrArg (fun g => krigAnswer s.pseudoInv (s.G s.gam) s.F s.Z g (s.f (s.sv ea j) (s.extVal p) p))
      (semivarTo_irrel hd _ _)
  rw [t1.z_eq, t1.ss_eq, t2.z_eq, t2.ss_eq, hq]
  dsimp only [Option.map_some]
  rw [e]
  exact ⟨rfl, rfl⟩

/-- `UniversalKriging3D`. -/
theorem C06_exact_irrelevant_uk3d {n : ℕ} {env : Env} {x y z v : Fin n → ℝ} {args : UK3DArgs} {s : UK3D n}
    (h : UK3D.create env x y z v args = .ok s) {ea : UK3DExecArgs}
    (b : Bool) {r : ExecResult} (hr : s.execute ea = .ok r) :
    ∃ s' r', UK3D.create env x y z v { args with exactValues := .bool b } = .ok s' ∧
      s'.execute ea = .ok r' ∧ r'.shape = r.shape ∧
      ∀ j p, queryAt3 ea.toExec j = some p →
        (∀ i, 1 / 10 ^ 10 < distance3 s.aniso p (x i, y i, z i) ∨
          distance3 s.aniso p (x i, y i, z i) = 0 ∧ ∀ γ, s.variogramFunction s.params = .ok γ → γ 0 = 0) →
        r'.z[j]? = r.z[j]? ∧ r'.ss[j]? = r.ss[j]? := by
  
  obtain ⟨hpl, hx, hy, hz, hZ⟩ := UK3D.create_placed h
  have h1 := UK3D.create_pw h ea
  have h2 := UK3D.create_pw (UK3D.create_exact h b) ea
  obtain ⟨r', hr'⟩ := h1.success h2 hr (fun a => ⟨a.style, a.vario, a.query, a.spec, a.noInt, a.backend, a.solvable⟩) (fun _ hv => hv)
  have t1 := h1.table r hr
  have t2 := h2.table r' hr'
  have hvar := (h1.ok_iff.1 ⟨r, hr⟩).1.vario
  refine ⟨_, r', UK3D.create_exact h b, hr', t2.shape_eq.trans t1.shape_eq.symm, fun j p hq hp => ?_⟩
  obtain ⟨γ, hγ⟩ := hvar
  have hd : ∀ i, 1 / 10 ^ 10 < s.queryDist p i ∨ s.queryDist p i = 0 ∧ s.gam 0 = 0 := by
    intro i
    rw [hpl.queryDist, hx, hy, hz, UK3D.gam_eq hγ]
    exact (hp i).imp id fun h => ⟨h.1, h.2 γ hγ⟩
  have e : ({ s with exactValues := b } : UK3D n).ans ea j p = s.ans ea j p := by
    unfold UK3D.ans
    exact congrArg (fun g => krigAnswer s.pseudoInv (s.G s.gam) s.F s.VALUES g (s.f (s.sv ea j) p))
      (semivarTo_irrel hd _ _)
  rw [t1.z_eq, t1.ss_eq, t2.z_eq, t2.ss_eq, hq]
  dsimp only [Option.map_some]
  rw [e]
  exact ⟨rfl, rfl⟩

/-! A linear variogram without nugget satisfies the second alternative, any point away from the data the
first; the problem of `Examples/Demo.lean` has both kinds of points. -/

example (a b : ℝ) : ∃ s r, OK.create stdEnv Demo.X Demo.O ![a, b] (Demo.args 0 true false) = .ok s ∧
    Admissible stdEnv (Demo.args 0 true false) s none ∧
    s.execute stdEnv (Demo.pts [(1, 0), (3, 0)] "vectorized") = .ok r ∧
    (∀ γ, s.variogramFunction s.params = .ok γ → γ 0 = 0) ∧
    (∀ i, distance2 "euclidean" s.anisotropyScaling s.anisotropyAngle (3, 0) (Demo.X i, Demo.O i) ∈ Set.Icc 2 3) := by
  obtain ⟨s, h, h1, h2, -, h3, h4, -⟩ := Demo.ok ![a, b] 0 true false
  obtain ⟨ha, r, hr⟩ := Demo.ok_run le_rfl h [(1, 0), (3, 0)] (b := "vectorized") (by simp)
  refine ⟨s, r, h, ha, hr, ?_, ?_⟩
  · rw [h1, h2, Demo.vario]
    intro γ hγ
    rw [← Except.ok.inj hγ]; simp
  · intro i
    rw [h3, h4]
    fin_cases i
    · simp [distance2, anisoDist2, rad, Demo.X, Demo.O]; norm_num
    · simp [distance2, anisoDist2, rad, Demo.X, Demo.O]; norm_num

end
end PyKrige
