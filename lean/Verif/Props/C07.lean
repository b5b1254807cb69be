import Verif.Lemmas.Laws
import Verif.Examples.Demo

/-!
# C07: estimates are linear in the data values, variances do not depend on them

With given variogram parameters; changing the sign of the data also with an automatic fit.  `Option.map₂` combines the two numbers of an entry; a masked entry is masked
in all three results.
-/

set_option linter.unusedSectionVars false

namespace PyKrige
noncomputable section
open Matrix Spec

/-- `OrdinaryKriging`: `z` and `z'` two sets of data values. -/
theorem C07_linear_2d {n : ℕ} {env : Env} {x y z : Fin n → ℝ} {args : OKArgs} {s : OK n}
    (h : OK.create env x y z args = .ok s) {ea : ExecArgs} (ha : Admissible env args s ea.nClosest)
    (hg : ParamsGiven args.variogramModel args.params) {r : ExecResult} (hr : s.execute env ea = .ok r)
    (z' : Fin n → ℝ) (a b : ℝ) :
    ∃ s' r' s'' r'', OK.create env x y z' args = .ok s' ∧ s'.execute env ea = .ok r' ∧
      OK.create env x y (fun i => a * z i + b * z' i) args = .ok s'' ∧ s''.execute env ea = .ok r'' ∧
      r'.shape = r.shape ∧ r''.shape = r.shape ∧
      r''.z = List.zipWith (Option.map₂ fun e e' => a * e + b * e') r.z r'.z ∧ r'.ss = r.ss ∧ r''.ss = r.ss := by
  have hZ := (OK.create_fields h).2.2.2.2.2.2.2
  obtain ⟨lags₂, stats₂, h₂⟩ := OK.create_other h z' (Or.inl hg)
  obtain ⟨lags₃, stats₃, h₃⟩ := OK.create_other h (fun i => a * z i + b * z' i) (Or.inl hg)
  obtain ⟨r₂, r₃, h1, h2, h3⟩ := (OK.create_weighs h ha).linear (z₁ := s.Z) (lags₁ := s.lags) (stats₁ := s.stats) hr z' a b
    lags₂ stats₂ lags₃ stats₃
  rw [hZ] at h2
  exact ⟨_, r₂, _, r₃, h₂, h1, h₃, h2, h3⟩

/-- `OrdinaryKriging3D`: `v` and `v'` two sets of data values. -/
theorem C07_linear_3d {n : ℕ} {env : Env} {x y z v : Fin n → ℝ} {args : OK3DArgs} {s : OK3D n}
    (h : OK3D.create env x y z v args = .ok s) {ea : ExecArgs3} (hk : KnnSpec env)
    (hw : WindowFits n ea.nClosest)
    (hg : ParamsGiven args.variogramModel args.params) {r : ExecResult} (hr : s.execute env ea = .ok r)
    (v' : Fin n → ℝ) (a b : ℝ) :
    ∃ s' r' s'' r'', OK3D.create env x y z v' args = .ok s' ∧ s'.execute env ea = .ok r' ∧
      OK3D.create env x y z (fun i => a * v i + b * v' i) args = .ok s'' ∧ s''.execute env ea = .ok r'' ∧
      r'.shape = r.shape ∧ r''.shape = r.shape ∧
      r''.z = List.zipWith (Option.map₂ fun e e' => a * e + b * e') r.z r'.z ∧ r'.ss = r.ss ∧ r''.ss = r.ss := by
  have hZ := (OK3D.create_fields h).2.2.2.2.2.2.2
  obtain ⟨lags₂, stats₂, h₂⟩ := OK3D.create_other h v' (Or.inl hg)
  obtain ⟨lags₃, stats₃, h₃⟩ := OK3D.create_other h (fun i => a * v i + b * v' i) (Or.inl hg)
  obtain ⟨r₂, r₃, h1, h2, h3⟩ := (OK3D.create_weighs h hk hw).linear (z₁ := s.VALUES) (lags₁ := s.lags) (stats₁ := s.stats) hr v' a b
    lags₂ stats₂ lags₃ stats₃
  rw [hZ] at h2
  exact ⟨_, r₂, _, r₃, h₂, h1, h₃, h2, h3⟩

/-- `UniversalKriging`: `z` and `z'` two sets of data values. -/
theorem C07_linear_uk {n : ℕ} {env : Env} {x y z : Fin n → ℝ} {args : UKArgs} {s : UK n}
    (h : UK.create env x y z args = .ok s) {ea : UKExecArgs}
    (hg : ParamsGiven args.variogramModel args.params) {r : ExecResult} (hr : s.execute ea = .ok r)
    (z' : Fin n → ℝ) (a b : ℝ) :
    ∃ s' r' s'' r'', UK.create env x y z' args = .ok s' ∧ s'.execute ea = .ok r' ∧
      UK.create env x y (fun i => a * z i + b * z' i) args = .ok s'' ∧ s''.execute ea = .ok r'' ∧
      r'.shape = r.shape ∧ r''.shape = r.shape ∧
      r''.z = List.zipWith (Option.map₂ fun e e' => a * e + b * e') r.z r'.z ∧ r'.ss = r.ss ∧ r''.ss = r.ss := by
  have hZ := (UK.create_fields h).2.2.2.2.2.2
  obtain ⟨lags₂, stats₂, h₂⟩ := UK.create_other h z' (Or.inl hg)
  obtain ⟨lags₃, stats₃, h₃⟩ := UK.create_other h (fun i => a * z i + b * z' i) (Or.inl hg)
  obtain ⟨r₂, r₃, h1, h2, h3⟩ := (UK.create_weighs h ea).linear (z₁ := s.Z) (lags₁ := s.lags) (stats₁ := s.stats) hr z' a b
    lags₂ stats₂ lags₃ stats₃
  rw [hZ] at h2
  exact ⟨_, r₂, _, r₃, h₂, h1, h₃, h2, h3⟩

/-- `UniversalKriging3D`: `v` and `v'` two sets of data values. -/
theorem C07_linear_uk3d {n : ℕ} {env : Env} {x y z v : Fin n → ℝ} {args : UK3DArgs} {s : UK3D n}
    (h : UK3D.create env x y z v args = .ok s) {ea : UK3DExecArgs}
    (hg : ParamsGiven args.variogramModel args.params) {r : ExecResult} (hr : s.execute ea = .ok r)
    (v' : Fin n → ℝ) (a b : ℝ) :
    ∃ s' r' s'' r'', UK3D.create env x y z v' args = .ok s' ∧ s'.execute ea = .ok r' ∧
      UK3D.create env x y z (fun i => a * v i + b * v' i) args = .ok s'' ∧ s''.execute ea = .ok r'' ∧
      r'.shape = r.shape ∧ r''.shape = r.shape ∧
      r''.z = List.zipWith (Option.map₂ fun e e' => a * e + b * e') r.z r'.z ∧ r'.ss = r.ss ∧ r''.ss = r.ss := by
  have hZ := (UK3D.create_fields h).2.2.2.2.2.2.2
  obtain ⟨lags₂, stats₂, h₂⟩ := UK3D.create_other h v' (Or.inl hg)
  obtain ⟨lags₃, stats₃, h₃⟩ := UK3D.create_other h (fun i => a * v i + b * v' i) (Or.inl hg)
  obtain ⟨r₂, r₃, h1, h2, h3⟩ := (UK3D.create_weighs h ea).linear (z₁ := s.VALUES) (lags₁ := s.lags) (stats₁ := s.stats) hr v' a b
    lags₂ stats₂ lags₃ stats₃
  rw [hZ] at h2
  exact ⟨_, r₂, _, r₃, h₂, h1, h₃, h2, h3⟩

/-- Turning the data upside down turns the estimates upside down and leaves the variances alone, also when the
variogram is fitted automatically: `OrdinaryKriging`. -/
theorem C07_negate_2d {n : ℕ} {env : Env} {x y z : Fin n → ℝ} {args : OKArgs} {s : OK n}
    (h : OK.create env x y z args = .ok s) {ea : ExecArgs} (ha : Admissible env args s ea.nClosest)
    {r : ExecResult} (hr : s.execute env ea = .ok r) :
    ∃ s' r', OK.create env x y (fun i => -z i) args = .ok s' ∧ s'.execute env ea = .ok r' ∧
      r'.shape = r.shape ∧ r'.z = r.z.map (Option.map fun e => -e) ∧ r'.ss = r.ss := by
  have hZ := (OK.create_fields h).2.2.2.2.2.2.2
  obtain ⟨lags, stats, h'⟩ := OK.create_other h (fun i => -z i) (Or.inr fun i j => by ring)
  obtain ⟨r', h1, h2⟩ := (OK.create_weighs h ha).negate (z := s.Z) (lags := s.lags) (stats := s.stats) hr
    lags stats
  rw [hZ] at h1
  exact ⟨_, r', h', h1, h2⟩

/-- Turning the data upside down turns the estimates upside down and leaves the variances alone, also when the
variogram is fitted automatically: `OrdinaryKriging3D`. -/
theorem C07_negate_3d {n : ℕ} {env : Env} {x y z v : Fin n → ℝ} {args : OK3DArgs} {s : OK3D n}
    (h : OK3D.create env x y z v args = .ok s) {ea : ExecArgs3} (hk : KnnSpec env)
    (hw : WindowFits n ea.nClosest)
    {r : ExecResult} (hr : s.execute env ea = .ok r) :
    ∃ s' r', OK3D.create env x y z (fun i => -v i) args = .ok s' ∧ s'.execute env ea = .ok r' ∧
      r'.shape = r.shape ∧ r'.z = r.z.map (Option.map fun e => -e) ∧ r'.ss = r.ss := by
  have hZ := (OK3D.create_fields h).2.2.2.2.2.2.2
  obtain ⟨lags, stats, h'⟩ := OK3D.create_other h (fun i => -v i) (Or.inr fun i j => by ring)
  obtain ⟨r', h1, h2⟩ := (OK3D.create_weighs h hk hw).negate (z := s.VALUES) (lags := s.lags) (stats := s.stats) hr
    lags stats
  rw [hZ] at h1
  exact ⟨_, r', h', h1, h2⟩

/-- Turning the data upside down turns the estimates upside down and leaves the variances alone, also when the
variogram is fitted automatically: `UniversalKriging`. -/
theorem C07_negate_uk {n : ℕ} {env : Env} {x y z : Fin n → ℝ} {args : UKArgs} {s : UK n}
    (h : UK.create env x y z args = .ok s) {ea : UKExecArgs}
    {r : ExecResult} (hr : s.execute ea = .ok r) :
    ∃ s' r', UK.create env x y (fun i => -z i) args = .ok s' ∧ s'.execute ea = .ok r' ∧
      r'.shape = r.shape ∧ r'.z = r.z.map (Option.map fun e => -e) ∧ r'.ss = r.ss := by
  have hZ := (UK.create_fields h).2.2.2.2.2.2
  obtain ⟨lags, stats, h'⟩ := UK.create_other h (fun i => -z i) (Or.inr fun i j => by ring)
  obtain ⟨r', h1, h2⟩ := (UK.create_weighs h ea).negate (z := s.Z) (lags := s.lags) (stats := s.stats) hr
    lags stats
  rw [hZ] at h1
  exact ⟨_, r', h', h1, h2⟩

/-- Turning the data upside down turns the estimates upside down and leaves the variances alone, also when the
variogram is fitted automatically: `UniversalKriging3D`. -/
theorem C07_negate_uk3d {n : ℕ} {env : Env} {x y z v : Fin n → ℝ} {args : UK3DArgs} {s : UK3D n}
    (h : UK3D.create env x y z v args = .ok s) {ea : UK3DExecArgs}
    {r : ExecResult} (hr : s.execute ea = .ok r) :
    ∃ s' r', UK3D.create env x y z (fun i => -v i) args = .ok s' ∧ s'.execute ea = .ok r' ∧
      r'.shape = r.shape ∧ r'.z = r.z.map (Option.map fun e => -e) ∧ r'.ss = r.ss := by
  have hZ := (UK3D.create_fields h).2.2.2.2.2.2.2
  obtain ⟨lags, stats, h'⟩ := UK3D.create_other h (fun i => -v i) (Or.inr fun i j => by ring)
  obtain ⟨r', h1, h2⟩ := (UK3D.create_weighs h ea).negate (z := s.VALUES) (lags := s.lags) (stats := s.stats) hr
    lags stats
  rw [hZ] at h1
  exact ⟨_, r', h', h1, h2⟩

/-! The hypotheses are met (see also C04): the parameters of the example are given. -/

example (a b c : ℝ) (hc : 0 ≤ c) : ∃ s r, OK.create stdEnv Demo.X Demo.O ![a, b] (Demo.args c true false) = .ok s ∧
    Admissible stdEnv (Demo.args c true false) s none ∧
    ParamsGiven (Demo.args c true false).variogramModel (Demo.args c true false).params ∧
    s.execute stdEnv (Demo.pts [(1 / 2, 0), (3, 4)] "C") = .ok r := by
  obtain ⟨s, h, -⟩ := Demo.ok ![a, b] c true false
  obtain ⟨ha, r, hr⟩ := Demo.ok_run hc h [(1 / 2, 0), (3, 4)] (b := "C") (by simp)
  exact ⟨s, r, h, ha, Or.inr (by simp [Demo.args]), hr⟩

example (a b c : ℝ) : ∃ s r,
    UK3D.create stdEnv Demo.X Demo.O Demo.O ![a, b] (Demo.uargs3 c true false) = .ok s ∧
    ParamsGiven (Demo.uargs3 c true false).variogramModel (Demo.uargs3 c true false).params ∧
    s.execute { toExec := Demo.pts3 [(1 / 2, 0, 0), (3, 4, 5)] "vectorized" } = .ok r := by
  obtain ⟨s, h, -⟩ := Demo.uk3 ![a, b] c true false
  obtain ⟨r, hr⟩ := Demo.uk3_run h [(1 / 2, 0, 0), (3, 4, 5)] (b := "vectorized") (by simp)
  exact ⟨s, r, h, Or.inr (by simp [Demo.uargs3]), hr⟩

end
end PyKrige
