import Verif.Lemmas.Laws
import Verif.Examples.Demo

/-!
# C04: kriging is unbiased

If all data values equal `c` every number returned is `c`; adding `c` to all data values adds `c` to every
estimate and changes no variance.  (With `pseudo_inv=True` and a singular matrix this can fail: see
`C39_pinv_not_unbiased`.)  Entries of result arrays are `none` where masked.
-/

set_option linter.unusedSectionVars false

namespace PyKrige
noncomputable section
open Matrix Spec

theorem sameFit_shift {n : ℕ} (vm : ModelArg) (p : ParamArg) (z : Fin n → ℝ) (c : ℝ) :
    SameFit vm p z fun i => z i + c := Or.inr fun i j => by ring

/-- Constant data are reproduced: `OrdinaryKriging`. -/
theorem C04_constant_2d {n : ℕ} {env : Env} {x y z : Fin n → ℝ} {args : OKArgs} {s : OK n}
    (h : OK.create env x y z args = .ok s) {ea : ExecArgs} (ha : Admissible env args s ea.nClosest)
    (hp : args.pseudoInv = false ∨ ea.nClosest ≠ none) {r : ExecResult} (hr : s.execute env ea = .ok r)
    (c : ℝ) (hz : ∀ i, z i = c) : ∀ e ∈ r.z, e = none ∨ e = some c := by
  have hZ := (OK.create_fields h).2.2.2.2.2.2.2
  intro e he
  obtain ⟨j, hj⟩ := List.getElem?_of_mem he
  cases e with
  | none => exact Or.inl rfl
  | some v =>
    right
    rw [(OK.create_weighs h ha).const (fun j p row hF => hF.sum_one (by rwa [(OK.create_fields h).2.2.1]))
      (z := s.Z) (lags := s.lags) (stats := s.stats) hr (by rw [hZ]; exact hz) hj]

/-- Shifting the data shifts the estimates and leaves the variances alone, also when the variogram is fitted
automatically: `OrdinaryKriging`. -/
theorem C04_shift_2d {n : ℕ} {env : Env} {x y z : Fin n → ℝ} {args : OKArgs} {s : OK n}
    (h : OK.create env x y z args = .ok s) {ea : ExecArgs} (ha : Admissible env args s ea.nClosest)
    (hp : args.pseudoInv = false ∨ ea.nClosest ≠ none) {r : ExecResult} (hr : s.execute env ea = .ok r) (c : ℝ) :
    ∃ s' r', OK.create env x y (fun i => z i + c) args = .ok s' ∧ s'.execute env ea = .ok r' ∧
      r'.shape = r.shape ∧ r'.z = r.z.map (Option.map (· + c)) ∧ r'.ss = r.ss := by
  have hZ := (OK.create_fields h).2.2.2.2.2.2.2
  obtain ⟨lags, stats, h'⟩ := OK.create_other h (fun i => z i + c) (sameFit_shift _ _ _ _)
  obtain ⟨r', h1, h2⟩ := (OK.create_weighs h ha).shift (fun j p row hF => hF.sum_one (by rwa [(OK.create_fields h).2.2.1]))
    (z := s.Z) (lags := s.lags) (stats := s.stats) hr c lags stats
  rw [hZ] at h1
  exact ⟨_, r', h', h1, h2⟩

/-- Constant data are reproduced: `OrdinaryKriging3D`. -/
theorem C04_constant_3d {n : ℕ} {env : Env} {x y z v : Fin n → ℝ} {args : OK3DArgs} {s : OK3D n}
    (h : OK3D.create env x y z v args = .ok s) {ea : ExecArgs3} (hk : KnnSpec env)
    (hw : WindowFits n ea.nClosest)
    (hp : args.pseudoInv = false ∨ ea.nClosest ≠ none) {r : ExecResult} (hr : s.execute env ea = .ok r)
    (c : ℝ) (hz : ∀ i, v i = c) : ∀ e ∈ r.z, e = none ∨ e = some c := by
  have hZ := (OK3D.create_fields h).2.2.2.2.2.2.2
  intro e he
  obtain ⟨j, hj⟩ := List.getElem?_of_mem he
  cases e with
  | none => exact Or.inl rfl
  | some v =>
    right
    rw [(OK3D.create_weighs h hk hw).const (fun j p row hF => hF.sum_one (by rwa [(OK3D.create_fields h).2.2.1]))
      (z := s.VALUES) (lags := s.lags) (stats := s.stats) hr (by rw [hZ]; exact hz) hj]

/-- Shifting the data shifts the estimates and leaves the variances alone, also when the variogram is fitted
automatically: `OrdinaryKriging3D`. -/
theorem C04_shift_3d {n : ℕ} {env : Env} {x y z v : Fin n → ℝ} {args : OK3DArgs} {s : OK3D n}
    (h : OK3D.create env x y z v args = .ok s) {ea : ExecArgs3} (hk : KnnSpec env)
    (hw : WindowFits n ea.nClosest)
    (hp : args.pseudoInv = false ∨ ea.nClosest ≠ none) {r : ExecResult} (hr : s.execute env ea = .ok r) (c : ℝ) :
    ∃ s' r', OK3D.create env x y z (fun i => v i + c) args = .ok s' ∧ s'.execute env ea = .ok r' ∧
      r'.shape = r.shape ∧ r'.z = r.z.map (Option.map (· + c)) ∧ r'.ss = r.ss := by
  have hZ := (OK3D.create_fields h).2.2.2.2.2.2.2
  obtain ⟨lags, stats, h'⟩ := OK3D.create_other h (fun i => v i + c) (sameFit_shift _ _ _ _)
  obtain ⟨r', h1, h2⟩ := (OK3D.create_weighs h hk hw).shift (fun j p row hF => hF.sum_one (by rwa [(OK3D.create_fields h).2.2.1]))
    (z := s.VALUES) (lags := s.lags) (stats := s.stats) hr c lags stats
  rw [hZ] at h1
  exact ⟨_, r', h', h1, h2⟩

/-- Constant data are reproduced: `UniversalKriging`. -/
theorem C04_constant_uk {n : ℕ} {env : Env} {x y z : Fin n → ℝ} {args : UKArgs} {s : UK n}
    (h : UK.create env x y z args = .ok s) {ea : UKExecArgs}
    (hp : args.pseudoInv = false) {r : ExecResult} (hr : s.execute ea = .ok r)
    (c : ℝ) (hz : ∀ i, z i = c) : ∀ e ∈ r.z, e = none ∨ e = some c := by
  have hZ := (UK.create_fields h).2.2.2.2.2.2
  intro e he
  obtain ⟨j, hj⟩ := List.getElem?_of_mem he
  cases e with
  | none => exact Or.inl rfl
  | some v =>
    right
    rw [(UK.create_weighs h ea).const (fun j p row hF => hF.sum_one (by rwa [(UK.create_fields h).2.2.1]))
      (z := s.Z) (lags := s.lags) (stats := s.stats) hr (by rw [hZ]; exact hz) hj]

/-- Shifting the data shifts the estimates and leaves the variances alone, also when the variogram is fitted
automatically: `UniversalKriging`. -/
theorem C04_shift_uk {n : ℕ} {env : Env} {x y z : Fin n → ℝ} {args : UKArgs} {s : UK n}
    (h : UK.create env x y z args = .ok s) {ea : UKExecArgs}
    (hp : args.pseudoInv = false) {r : ExecResult} (hr : s.execute ea = .ok r) (c : ℝ) :
    ∃ s' r', UK.create env x y (fun i => z i + c) args = .ok s' ∧ s'.execute ea = .ok r' ∧
      r'.shape = r.shape ∧ r'.z = r.z.map (Option.map (· + c)) ∧ r'.ss = r.ss := by
  have hZ := (UK.create_fields h).2.2.2.2.2.2
  obtain ⟨lags, stats, h'⟩ := UK.create_other h (fun i => z i + c) (sameFit_shift _ _ _ _)
  obtain ⟨r', h1, h2⟩ := (UK.create_weighs h ea).shift (fun j p row hF => hF.sum_one (by rwa [(UK.create_fields h).2.2.1]))
    (z := s.Z) (lags := s.lags) (stats := s.stats) hr c lags stats
  rw [hZ] at h1
  exact ⟨_, r', h', h1, h2⟩

/-- Constant data are reproduced: `UniversalKriging3D`. -/
theorem C04_constant_uk3d {n : ℕ} {env : Env} {x y z v : Fin n → ℝ} {args : UK3DArgs} {s : UK3D n}
    (h : UK3D.create env x y z v args = .ok s) {ea : UK3DExecArgs}
    (hp : args.pseudoInv = false) {r : ExecResult} (hr : s.execute ea = .ok r)
    (c : ℝ) (hz : ∀ i, v i = c) : ∀ e ∈ r.z, e = none ∨ e = some c := by
  have hZ := (UK3D.create_fields h).2.2.2.2.2.2.2
  intro e he
  obtain ⟨j, hj⟩ := List.getElem?_of_mem he
  cases e with
  | none => exact Or.inl rfl
  | some v =>
    right
    rw [(UK3D.create_weighs h ea).const (fun j p row hF => hF.sum_one (by rwa [(UK3D.create_fields h).2.2.1]))
      (z := s.VALUES) (lags := s.lags) (stats := s.stats) hr (by rw [hZ]; exact hz) hj]

/-- Shifting the data shifts the estimates and leaves the variances alone, also when the variogram is fitted
automatically: `UniversalKriging3D`. -/
theorem C04_shift_uk3d {n : ℕ} {env : Env} {x y z v : Fin n → ℝ} {args : UK3DArgs} {s : UK3D n}
    (h : UK3D.create env x y z v args = .ok s) {ea : UK3DExecArgs}
    (hp : args.pseudoInv = false) {r : ExecResult} (hr : s.execute ea = .ok r) (c : ℝ) :
    ∃ s' r', UK3D.create env x y z (fun i => v i + c) args = .ok s' ∧ s'.execute ea = .ok r' ∧
      r'.shape = r.shape ∧ r'.z = r.z.map (Option.map (· + c)) ∧ r'.ss = r.ss := by
  have hZ := (UK3D.create_fields h).2.2.2.2.2.2.2
  obtain ⟨lags, stats, h'⟩ := UK3D.create_other h (fun i => v i + c) (sameFit_shift _ _ _ _)
  obtain ⟨r', h1, h2⟩ := (UK3D.create_weighs h ea).shift (fun j p row hF => hF.sum_one (by rwa [(UK3D.create_fields h).2.2.1]))
    (z := s.VALUES) (lags := s.lags) (stats := s.stats) hr c lags stats
  rw [hZ] at h1
  exact ⟨_, r', h', h1, h2⟩

/-! The hypotheses are met: two data with values `a`, `b`, linear variogram with nugget `c`, two query points. -/

example (a b c : ℝ) (hc : 0 ≤ c) : ∃ s r, OK.create stdEnv Demo.X Demo.O ![a, b] (Demo.args c true false) = .ok s ∧
    Admissible stdEnv (Demo.args c true false) s none ∧
    s.execute stdEnv (Demo.pts [(1 / 2, 0), (3, 4)] "C") = .ok r := by
  obtain ⟨s, h, -⟩ := Demo.ok ![a, b] c true false
  obtain ⟨ha, r, hr⟩ := Demo.ok_run hc h [(1 / 2, 0), (3, 4)] (b := "C") (by simp)
  exact ⟨s, r, h, ha, hr⟩

example (a b c : ℝ) (hc : 0 ≤ c) : ∃ s r,
    OK3D.create stdEnv Demo.X Demo.O Demo.O ![a, b] (Demo.args3 c true false) = .ok s ∧
    s.execute stdEnv (Demo.pts3 [(1 / 2, 0, 0), (3, 4, 5)] "loop") = .ok r := by
  obtain ⟨s, h, -⟩ := Demo.ok3 ![a, b] c true false
  obtain ⟨ha, r, hr⟩ := Demo.ok3_run hc h [(1 / 2, 0, 0), (3, 4, 5)] (b := "loop") (by simp)
  exact ⟨s, r, h, hr⟩

example (a b c : ℝ) : ∃ s r, UK.create stdEnv Demo.X Demo.O ![a, b] (Demo.uargs c true false) = .ok s ∧
    s.execute { toExec := Demo.pts [(1 / 2, 0), (3, 4)] "loop" } = .ok r := by
  obtain ⟨s, h, -⟩ := Demo.uk ![a, b] c true false
  obtain ⟨r, hr⟩ := Demo.uk_run h [(1 / 2, 0), (3, 4)] (b := "loop") (by simp)
  exact ⟨s, r, h, hr⟩

example (a b c : ℝ) : ∃ s r,
    UK3D.create stdEnv Demo.X Demo.O Demo.O ![a, b] (Demo.uargs3 c true false) = .ok s ∧
    s.execute { toExec := Demo.pts3 [(1 / 2, 0, 0), (3, 4, 5)] "vectorized" } = .ok r := by
  obtain ⟨s, h, -⟩ := Demo.uk3 ![a, b] c true false
  obtain ⟨r, hr⟩ := Demo.uk3_run h [(1 / 2, 0, 0), (3, 4, 5)] (b := "vectorized") (by simp)
  exact ⟨s, r, h, hr⟩

end
end PyKrige
