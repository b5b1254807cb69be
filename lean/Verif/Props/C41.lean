import Verif.Props.C40

/-!
# C41: integer query coordinates

The claim "execute with integer coordinate arrays returns the same as with the equal float arrays" is false of the code
for Euclidean coordinates: `C41_raises_*` show that `execute` raises whenever all coordinate arrays are integer (the
in-place subtraction of the centre, core.py:143, cannot cast), `C41_wrong` that the equal float arrays are answered.
`C41_geographic_partial`: on the sphere the claim holds.  `C41_mixed_*_partial`: it holds when at least one coordinate array
is a float array.
-/

namespace PyKrige
noncomputable section
open Spec

/-- The same request with float arrays. -/
def Spec.asFloats (ea : ExecArgs) : ExecArgs :=
  { ea with xpoints := { ea.xpoints with isInt := false }, ypoints := { ea.ypoints with isInt := false } }

/-- The same request with float arrays. -/
def Spec.asFloats3 (ea : ExecArgs3) : ExecArgs3 :=
  { ea with xpoints := { ea.xpoints with isInt := false }, ypoints := { ea.ypoints with isInt := false },
            zpoints := { ea.zpoints with isInt := false } }

/-- `OrdinaryKriging` on the sphere. -/
theorem C41_geographic_partial {n : ℕ} (env : Env) (s : OK n) (hc : s.coordinatesType = "geographic") (ea : ExecArgs) :
    s.execute env ea = s.execute env (asFloats ea) := by
  have h1 : ∀ pts, s.adjustQuery ea pts = s.adjustQuery (asFloats ea) pts := by
    intro pts
    unfold OK.adjustQuery
    rw [if_neg (by rw [hc]; decide), if_neg (by rw [hc]; decide)]
  unfold OK.execute
  simp only [h1]
  rfl

/-- `OrdinaryKriging`: one float array is enough. -/
theorem C41_mixed_2d_partial {n : ℕ} (env : Env) (s : OK n) {ea : ExecArgs} (h : HasFloats ea) :
    s.execute env ea = s.execute env (asFloats ea) := by
  have h1 : ∀ pts, s.adjustQuery ea pts = s.adjustQuery (asFloats ea) pts := by
    intro pts
    unfold OK.adjustQuery
    split
    · rw [if_neg (by intro hc; exact h (by simpa using hc)), if_neg (by simp [asFloats])]
    · rfl
  unfold OK.execute
  simp only [h1]
  rfl

/-- `OrdinaryKriging`: an otherwise well-posed request with integer arrays only is refused. -/
theorem C41_raises_2d {n : ℕ} (env : Env) (s : OK n) {ea : ExecArgs} (hc : s.coordinatesType = "euclidean") (hw : WindowOk ea.nClosest)
    (hq : WellPosed ea) (hi : ¬ HasFloats ea) {γ : ℝ → ℝ} (hγ : s.variogramFunction s.params = .ok γ) :
    s.execute env ea = .error .castingError := by
  have hst := wellPosed_style hq
  obtain ⟨⟨pts, mask⟩, hq'⟩ := (queryPoints_ok_iff ea).2 hq
  have h1 : s.adjustQuery ea pts = .error .castingError := by
    unfold OK.adjustQuery
    have : ea.xpoints.isInt = true ∧ ea.ypoints.isInt = true := by simpa [HasFloats] using hi
    rw [if_pos hc, if_pos (by simp [this])]
  unfold OK.execute
  rw [if_neg (not_not.2 hst)]
  cases hn : ea.nClosest with
  | none =>
    simp only [OK.getKrigingMatrix_eq, hγ, py_pure, py_ok_bind, hq', h1]
    rfl
  | some k =>
    simp only [if_neg (not_le.2 (hw k hn)), OK.getKrigingMatrix_eq, hγ, py_pure, py_ok_bind, hq', h1]
    rfl

/-- `OrdinaryKriging3D`: one float array is enough. -/
theorem C41_mixed_3d_partial {n : ℕ} (env : Env) (s : OK3D n) {ea : ExecArgs3} (h : HasFloats3 ea) :
    s.execute env ea = s.execute env (asFloats3 ea) := by
  have h1 : ∀ pts, s.adjustQuery ea pts = s.adjustQuery (asFloats3 ea) pts := by
    intro pts
    unfold OK3D.adjustQuery
    rw [if_neg (by intro hc; exact h (by simpa [and_assoc] using hc)), if_neg (by simp [asFloats3])]
  unfold OK3D.execute
  simp only [h1]
  rfl

/-- `OrdinaryKriging3D`: an otherwise well-posed request with integer arrays only is refused. -/
theorem C41_raises_3d {n : ℕ} (env : Env) (s : OK3D n) {ea : ExecArgs3}
    (hq : WellPosed3 ea) (hi : ¬ HasFloats3 ea) {γ : ℝ → ℝ} (hγ : s.variogramFunction s.params = .ok γ) :
    s.execute env ea = .error .castingError := by
  have hst := wellPosed_style3 hq
  obtain ⟨⟨pts, mask⟩, hq'⟩ := (queryPoints3_ok_iff ea).2 hq
  have h1 : s.adjustQuery ea pts = .error .castingError := by
    unfold OK3D.adjustQuery
    have : ea.xpoints.isInt = true ∧ ea.ypoints.isInt = true ∧ ea.zpoints.isInt = true := by simpa [HasFloats3] using hi
    rw [if_pos (by simp [this])]
  unfold OK3D.execute
  rw [if_neg (not_not.2 hst)]
  simp only [OK3D.getKrigingMatrix_eq, hγ, py_pure, py_ok_bind, hq', h1]
  rfl

/-- `UniversalKriging`: one float array is enough. -/
theorem C41_mixed_uk_partial {n : ℕ} (s : UK n) {ea : UKExecArgs} (h : HasFloats ea.toExec) :
    s.execute ea = s.execute { ea with toExec := asFloats ea.toExec } := by
  have h1 : (ea.toExec.xpoints.isInt && ea.toExec.ypoints.isInt) = false := by
    rw [Bool.eq_false_iff]
    intro hc; exact h (by simpa [and_assoc] using hc)
  unfold UK.execute UK.executeW
  rw [h1]
  rfl

/-- `UniversalKriging`: an otherwise well-posed request with integer arrays only is refused. -/
theorem C41_raises_uk {n : ℕ} {env : Env} {x y z : Fin n → ℝ} {args : UKArgs} {s : UK n}
    (h : UK.create env x y z args = .ok s) {ea : UKExecArgs} (hs : SpecFits args ea)
    (hq : WellPosed ea.toExec) (hi : ¬ HasFloats ea.toExec) {γ : ℝ → ℝ} (hγ : s.variogramFunction s.params = .ok γ) :
    s.execute ea = .error .castingError := by
  have hst := wellPosed_style hq
  obtain ⟨⟨pts, mask⟩, hq'⟩ := (queryPoints_ok_iff _).2 hq
  obtain ⟨g, hg⟩ := UK.specGrids_ok h hst hs
  have h1 : (ea.toExec.xpoints.isInt && ea.toExec.ypoints.isInt) = true := by
    have : ea.toExec.xpoints.isInt = true ∧ ea.toExec.ypoints.isInt = true := by simpa [HasFloats] using hi
    simp [this]
  unfold UK.execute UK.executeW
  rw [if_neg (not_not.2 hst)]
  simp only [UK.getKrigingMatrix_eq, hγ, py_pure, py_ok_bind, hq', hg, h1, if_true]
  rfl

/-- `UniversalKriging3D`: one float array is enough. -/
theorem C41_mixed_uk3d_partial {n : ℕ} (s : UK3D n) {ea : UK3DExecArgs} (h : HasFloats3 ea.toExec) :
    s.execute ea = s.execute { ea with toExec := asFloats3 ea.toExec } := by
  have h1 : (ea.toExec.xpoints.isInt && ea.toExec.ypoints.isInt && ea.toExec.zpoints.isInt) = false := by
    rw [Bool.eq_false_iff]
    intro hc; exact h (by simpa [and_assoc] using hc)
  unfold UK3D.execute UK3D.executeW
  rw [h1]
  rfl

/-- `UniversalKriging3D`: an otherwise well-posed request with integer arrays only is refused. -/
theorem C41_raises_uk3d {n : ℕ} {env : Env} {x y z v : Fin n → ℝ} {args : UK3DArgs} {s : UK3D n}
    (h : UK3D.create env x y z v args = .ok s) {ea : UK3DExecArgs} (hs : SpecFits3 args ea)
    (hq : WellPosed3 ea.toExec) (hi : ¬ HasFloats3 ea.toExec) {γ : ℝ → ℝ} (hγ : s.variogramFunction s.params = .ok γ) :
    s.execute ea = .error .castingError := by
  have hst := wellPosed_style3 hq
  obtain ⟨⟨pts, mask⟩, hq'⟩ := (queryPoints3_ok_iff _).2 hq
  obtain ⟨g, hg⟩ := UK3D.specGrids_ok h hst hs
  have h1 : (ea.toExec.xpoints.isInt && ea.toExec.ypoints.isInt && ea.toExec.zpoints.isInt) = true := by
    have : ea.toExec.xpoints.isInt = true ∧ ea.toExec.ypoints.isInt = true ∧ ea.toExec.zpoints.isInt = true := by simpa [HasFloats3] using hi
    simp [this]
  unfold UK3D.execute UK3D.executeW
  rw [if_neg (not_not.2 hst)]
  simp only [UK3D.getKrigingMatrix_eq, hγ, py_pure, py_ok_bind, hq', hg, h1, if_true]
  rfl

/-- The claim fails: data at `(0, 0)` and `(1, 0)`, linear variogram.  The query point `(2, 0)` given by floats is answered,
given by integers it is refused. -/
theorem C41_wrong (z : Fin 2 → ℝ) : ∃ (s : OK 2) (ea : ExecArgs) (r : ExecResult),
    OK.create stdEnv Demo.X Demo.O z (Demo.args 0 true false) = .ok s ∧
    s.execute stdEnv (asFloats ea) = .ok r ∧ s.execute stdEnv ea = .error .castingError := by
  obtain ⟨s, h, hp, -⟩ := Demo.ok z 0 true false
  have hct : s.coordinatesType = "euclidean" := (OK.create_fields h).2.2.2.2.1
  have hγ : s.variogramFunction s.params = .ok (linearFormula 1 0) := by
    rw [hp]; exact (chosen_evaluates (builtin_linear.2 rfl) (by simp [builtins]) (OK.create_function h (m := "linear") rfl)).1
  obtain ⟨-, r, hr⟩ := Demo.ok_run le_rfl h [(2, 0)] (b := "vectorized") (.inl rfl)
  let ea : ExecArgs := { style := "points", xpoints := ⟨[2], true⟩, ypoints := ⟨[0], true⟩ }
  have he : asFloats ea = Demo.pts [(2, 0)] "vectorized" := by simp [asFloats, ea, Demo.pts]
  exact ⟨s, ea, r, h, by rw [he]; exact hr, C41_raises_2d stdEnv s hct (by simp [WindowOk, ea])
    (.inr (.inr ⟨rfl, rfl⟩)) (by simp [HasFloats, ea]) hγ⟩

/-- The hypotheses of `C41_mixed_2d_partial` are met by the same request with one float array. -/
example (z : Fin 2 → ℝ) : ∃ (s : OK 2) (r : ExecResult), OK.create stdEnv Demo.X Demo.O z (Demo.args 0 true false) = .ok s ∧
    s.execute stdEnv { style := "points", xpoints := ⟨[2], true⟩, ypoints := ⟨[0], false⟩ } = .ok r := by
  obtain ⟨s, h, hp, -⟩ := Demo.ok z 0 true false
  obtain ⟨-, r, hr⟩ := Demo.ok_run le_rfl h [(2, 0)] (b := "vectorized") (.inl rfl)
  refine ⟨s, r, h, ?_⟩
  rw [C41_mixed_2d_partial stdEnv s (by simp [HasFloats]), ← hr]
  rfl

end
end PyKrige
