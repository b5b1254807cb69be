import Verif.Lemmas.VerboseWalk
import Verif.Examples.Use8

/-!
# C82: verbose output

`verbose=True` changes nothing but what is printed, `verbose=False` prints nothing, and the printed report describes the
object: its numbers are the parameters of the curve the object uses (`Spec.Describes`), the statistics it reports, and
the number of wells.  `LsqSpec` is needed because the report reads the parameters by index: it would raise if the
minimiser returned too few.
-/

namespace PyKrige
noncomputable section
open Spec

/-- `OrdinaryKriging(...)`: silent without `verbose`; with `verbose` the same result, and the report describes it. -/
theorem C82_ok {n : ℕ} (env : Env) (x y z : Fin n → ℝ) (args : OKArgs) :
    OK.createVerbose env x y z args false = ⟨[], OK.create env x y z args⟩ ∧
    (LsqSpec env → (OK.createVerbose env x y z args true).result = OK.create env x y z args ∧
      ∀ s, OK.create env x y z args = .ok s → ∃ name, s.variogramModel = .name name ∧
        modelLine name ∈ (OK.createVerbose env x y z args true).lines ∧
        ∃ curve, Describes name curve (s.variogramFunction s.params) ∧
          numbers (OK.createVerbose env x y z args true).lines = curve ++ statisticsLines s.getStatistics) := by
  have h0 := OK.createVerbose_spec (env := env) x y z args false (by simp)
  refine ⟨?_, fun hl => ?_⟩
  · generalize OK.createVerbose env x y z args false = r at h0
    obtain ⟨l, r⟩ := r
    rw [← h0.1, show l = [] from h0.2.1 rfl]
  · have h1 := OK.createVerbose_spec (env := env) x y z args true fun _ => hl
    exact ⟨h1.1, h1.2.2 rfl⟩

/-- `OrdinaryKriging3D(...)`: silent without `verbose`; with `verbose` the same result, and the report describes it. -/
theorem C82_ok3d {n : ℕ} (env : Env) (x y z val : Fin n → ℝ) (args : OK3DArgs) :
    OK3D.createVerbose env x y z val args false = ⟨[], OK3D.create env x y z val args⟩ ∧
    (LsqSpec env → (OK3D.createVerbose env x y z val args true).result = OK3D.create env x y z val args ∧
      ∀ s, OK3D.create env x y z val args = .ok s → ∃ name, s.variogramModel = .name name ∧
        modelLine name ∈ (OK3D.createVerbose env x y z val args true).lines ∧
        ∃ curve, Describes name curve (s.variogramFunction s.params) ∧
          numbers (OK3D.createVerbose env x y z val args true).lines = curve ++ statisticsLines s.getStatistics) := by
  have h0 := OK3D.createVerbose_spec (env := env) x y z val args false (by simp)
  refine ⟨?_, fun hl => ?_⟩
  · generalize OK3D.createVerbose env x y z val args false = r at h0
    obtain ⟨l, r⟩ := r
    rw [← h0.1, show l = [] from h0.2.1 rfl]
  · have h1 := OK3D.createVerbose_spec (env := env) x y z val args true fun _ => hl
    exact ⟨h1.1, h1.2.2 rfl⟩

/-- `UniversalKriging(...)`: silent without `verbose`; with `verbose` the same result, and the report describes it. -/
theorem C82_uk {n : ℕ} (env : Env) (x y z : Fin n → ℝ) (args : UKArgs) :
    UK.createVerbose env x y z args false = ⟨[], UK.create env x y z args⟩ ∧
    (LsqSpec env → (UK.createVerbose env x y z args true).result = UK.create env x y z args ∧
      ∀ s, UK.create env x y z args = .ok s → ∃ name, s.variogramModel = .name name ∧
        modelLine name ∈ (UK.createVerbose env x y z args true).lines ∧
        ∃ curve, Describes name curve (s.variogramFunction s.params) ∧
          numbers (UK.createVerbose env x y z args true).lines = curve ++ statisticsLines s.getStatistics ++
            wellsLine (if "point_log" ∈ args.driftTerms then args.pointDrift else none)) := by
  have h0 := UK.createVerbose_spec (env := env) x y z args false (by simp)
  refine ⟨?_, fun hl => ?_⟩
  · generalize UK.createVerbose env x y z args false = r at h0
    obtain ⟨l, r⟩ := r
    rw [← h0.1, show l = [] from h0.2.1 rfl]
  · have h1 := UK.createVerbose_spec (env := env) x y z args true fun _ => hl
    exact ⟨h1.1, h1.2.2 rfl⟩

/-- `UniversalKriging3D(...)`: silent without `verbose`; with `verbose` the same result, and the report describes it. -/
theorem C82_uk3d {n : ℕ} (env : Env) (x y z val : Fin n → ℝ) (args : UK3DArgs) :
    UK3D.createVerbose env x y z val args false = ⟨[], UK3D.create env x y z val args⟩ ∧
    (LsqSpec env → (UK3D.createVerbose env x y z val args true).result = UK3D.create env x y z val args ∧
      ∀ s, UK3D.create env x y z val args = .ok s → ∃ name, s.variogramModel = .name name ∧
        modelLine name ∈ (UK3D.createVerbose env x y z val args true).lines ∧
        ∃ curve, Describes name curve (s.variogramFunction s.params) ∧
          numbers (UK3D.createVerbose env x y z val args true).lines = curve ++ statisticsLines s.getStatistics) := by
  have h0 := UK3D.createVerbose_spec (env := env) x y z val args false (by simp)
  refine ⟨?_, fun hl => ?_⟩
  · generalize UK3D.createVerbose env x y z val args false = r at h0
    obtain ⟨l, r⟩ := r
    rw [← h0.1, show l = [] from h0.2.1 rfl]
  · have h1 := UK3D.createVerbose_spec (env := env) x y z val args true fun _ => hl
    exact ⟨h1.1, h1.2.2 rfl⟩

/-- `update_variogram_model`: the same, also for the object that an exception leaves behind. -/
theorem C82_update_ok {n : ℕ} (env : Env) (s : OK n) (u : OKUpdate) :
    OK.updateVerbose env s u false = ([], OK.update env s u) ∧
    (LsqSpec env → (OK.updateVerbose env s u true).2 = OK.update env s u ∧
      ∀ s', OK.update env s u = (.ok (), s') → ∃ name, s'.variogramModel = .name name ∧
        modelLine name ∈ (OK.updateVerbose env s u true).1 ∧
        ∃ curve, Describes name curve (s'.variogramFunction s'.params) ∧
          numbers (OK.updateVerbose env s u true).1 = curve ++ statisticsLines s'.getStatistics) := by
  have h0 := OK.updateVerbose_spec (env := env) s u false (by simp)
  refine ⟨Prod.ext (h0.2.1 rfl) h0.1, fun hl => ?_⟩
  have h1 := OK.updateVerbose_spec (env := env) s u true fun _ => hl
  refine ⟨h1.1, fun s' hs => ?_⟩
  have h2 := h1.2.2 rfl
  rw [hs] at h2
  exact h2 rfl

/-- `update_variogram_model`: the same, also for the object that an exception leaves behind. -/
theorem C82_update_ok3d {n : ℕ} (env : Env) (s : OK3D n) (u : Update3D) :
    OK3D.updateVerbose env s u false = ([], OK3D.update env s u) ∧
    (LsqSpec env → (OK3D.updateVerbose env s u true).2 = OK3D.update env s u ∧
      ∀ s', OK3D.update env s u = (.ok (), s') → ∃ name, s'.variogramModel = .name name ∧
        modelLine name ∈ (OK3D.updateVerbose env s u true).1 ∧
        ∃ curve, Describes name curve (s'.variogramFunction s'.params) ∧
          numbers (OK3D.updateVerbose env s u true).1 = curve ++ statisticsLines s'.getStatistics) := by
  have h0 := OK3D.updateVerbose_spec (env := env) s u false (by simp)
  refine ⟨Prod.ext (h0.2.1 rfl) h0.1, fun hl => ?_⟩
  have h1 := OK3D.updateVerbose_spec (env := env) s u true fun _ => hl
  refine ⟨h1.1, fun s' hs => ?_⟩
  have h2 := h1.2.2 rfl
  rw [hs] at h2
  exact h2 rfl

/-- `update_variogram_model`: the same, also for the object that an exception leaves behind. -/
theorem C82_update_uk {n : ℕ} (env : Env) (s : UK n) (u : OKUpdate) :
    UK.updateVerbose env s u false = ([], UK.update env s u) ∧
    (LsqSpec env → (UK.updateVerbose env s u true).2 = UK.update env s u ∧
      ∀ s', UK.update env s u = (.ok (), s') → ∃ name, s'.variogramModel = .name name ∧
        modelLine name ∈ (UK.updateVerbose env s u true).1 ∧
        ∃ curve, Describes name curve (s'.variogramFunction s'.params) ∧
          numbers (UK.updateVerbose env s u true).1 = curve ++ statisticsLines s'.getStatistics) := by
  have h0 := UK.updateVerbose_spec (env := env) s u false (by simp)
  refine ⟨Prod.ext (h0.2.1 rfl) h0.1, fun hl => ?_⟩
  have h1 := UK.updateVerbose_spec (env := env) s u true fun _ => hl
  refine ⟨h1.1, fun s' hs => ?_⟩
  have h2 := h1.2.2 rfl
  rw [hs] at h2
  exact h2 rfl

/-- `update_variogram_model`: the same, also for the object that an exception leaves behind. -/
theorem C82_update_uk3d {n : ℕ} (env : Env) (s : UK3D n) (u : Update3D) :
    UK3D.updateVerbose env s u false = ([], UK3D.update env s u) ∧
    (LsqSpec env → (UK3D.updateVerbose env s u true).2 = UK3D.update env s u ∧
      ∀ s', UK3D.update env s u = (.ok (), s') → ∃ name, s'.variogramModel = .name name ∧
        modelLine name ∈ (UK3D.updateVerbose env s u true).1 ∧
        ∃ curve, Describes name curve (s'.variogramFunction s'.params) ∧
          numbers (UK3D.updateVerbose env s u true).1 = curve ++ statisticsLines s'.getStatistics) := by
  have h0 := UK3D.updateVerbose_spec (env := env) s u false (by simp)
  refine ⟨Prod.ext (h0.2.1 rfl) h0.1, fun hl => ?_⟩
  have h1 := UK3D.updateVerbose_spec (env := env) s u true fun _ => hl
  refine ⟨h1.1, fun s' hs => ?_⟩
  have h2 := h1.2.2 rfl
  rw [hs] at h2
  exact h2 rfl

/-! ### Examples: the objects of `Examples/Objects.lean`, and a change of the nugget -/

example (z : Fin 4 → ℝ) := ((C82_ok stdEnv Demo.x4 Demo.y4 z Demo.A2).2 stdEnv_lsq).2 _ (Demo.S2_ok z)
example (z : Fin 4 → ℝ) := ((C82_ok stdEnv Demo.x4 Demo.y4 z Demo.A2s).2 stdEnv_lsq).2 _ (Demo.S2s_ok z)
example (v : Fin 4 → ℝ) := ((C82_ok3d stdEnv Demo.x4 Demo.y4 Demo.z4 v Demo.A3).2 stdEnv_lsq).2 _ (Demo.S3_ok v)
example (z : Fin 4 → ℝ) := ((C82_uk stdEnv Demo.x4 Demo.y4 z Demo.B2).2 stdEnv_lsq).2 _ (Demo.U2_ok z)
example (v : Fin 4 → ℝ) := ((C82_uk3d stdEnv Demo.x4 Demo.y4 Demo.z4 v Demo.B3).2 stdEnv_lsq).2 _ (Demo.U3_ok v)

/-- The spherical model with full sill 3, range 2 and nugget 1, without statistics: these four numbers are printed. -/
example (z : Fin 4 → ℝ) : ∃ psill sill range nugget : ℝ, sill = psill + nugget ∧
    numbers (OK.createVerbose stdEnv Demo.x4 Demo.y4 z Demo.A2 true).lines =
      [("Partial Sill:", psill), ("Full Sill:", sill), ("Range:", range), ("Nugget:", nugget)] := by
  obtain ⟨name, hn, -, curve, hc, h⟩ := ((C82_ok stdEnv Demo.x4 Demo.y4 z Demo.A2).2 stdEnv_lsq).2 _ (Demo.S2_ok z)
  have h0 := Demo.S2_ok z
  generalize Demo.S2 z = s at h0 hn hc h
  obtain ⟨hp, exact, name', model, fArg, pArg, sc₀, an₀, f, fname, xc, yc, sc, an, adj, vp, lags, ps, stats,
    h1, h2, h3, h4, h5, h6, h7, rfl⟩ := OK.create_ok h0
  have e1 : stats = none := by simpa [Demo.any, eq_comm] using h7
  have e2 : name' = "spherical" := by
    simp only [OK.resolveModel, Demo.any, Except.ok.injEq, Prod.mk.injEq] at h2
    exact h2.1.symm
  cases hn
  subst e1 e2
  rw [h]
  dsimp only at hc
  generalize f ps = g at hc
  generalize hsp : "spherical" = nm at hc
  cases hc <;> try (exact absurd hsp (by decide))
  next psill sill range nugget hs => exact ⟨psill, sill, range, nugget, hs, by simp [statisticsLines, OK.getStatistics]⟩

example (z : Fin 2 → ℝ) : ∃ s s' : OK 2, OK.create stdEnv Demo.X Demo.O z (Demo.args 1 true false) = .ok s ∧
    OK.update stdEnv s (Demo.nugget 2) = (.ok (), s') ∧ ∃ name, s'.variogramModel = .name name ∧
      modelLine name ∈ (OK.updateVerbose stdEnv s (Demo.nugget 2) true).1 := by
  obtain ⟨s, h, -⟩ := Demo.ok z 1 true false
  obtain ⟨t, h'⟩ := Demo.ok_stats z 2 true false
  obtain ⟨s', hu⟩ := C25_ok_accepts h [] (u := Demo.nugget 2) h'
  have hu : OK.update stdEnv s (Demo.nugget 2) = (.ok (), s') := hu
  obtain ⟨name, hn, hm, -⟩ := ((C82_update_ok stdEnv s (Demo.nugget 2)).2 stdEnv_lsq).2 s' hu
  exact ⟨s, s', h, hu, name, hn, hm⟩

example (z : Fin 2 → ℝ) : ∃ s s' : OK3D 2, OK3D.create stdEnv Demo.X Demo.O Demo.O z (Demo.args3 1 true false) = .ok s ∧
    OK3D.update stdEnv s (Demo.nugget3 2) = (.ok (), s') ∧ ∃ name, s'.variogramModel = .name name ∧
      modelLine name ∈ (OK3D.updateVerbose stdEnv s (Demo.nugget3 2) true).1 := by
  obtain ⟨s, h, -⟩ := Demo.ok3 z 1 true false
  obtain ⟨t, h', -⟩ := Demo.ok3 z 2 true false
  obtain ⟨s', hu⟩ := C25_ok3d_accepts h [] (u := Demo.nugget3 2) h'
  have hu : OK3D.update stdEnv s (Demo.nugget3 2) = (.ok (), s') := hu
  obtain ⟨name, hn, hm, -⟩ := ((C82_update_ok3d stdEnv s (Demo.nugget3 2)).2 stdEnv_lsq).2 s' hu
  exact ⟨s, s', h, hu, name, hn, hm⟩

example (z : Fin 2 → ℝ) : ∃ s s' : UK 2, UK.create stdEnv Demo.X Demo.O z (Demo.uargs 1 true false) = .ok s ∧
    UK.update stdEnv s (Demo.nugget 2) = (.ok (), s') ∧ ∃ name, s'.variogramModel = .name name ∧
      modelLine name ∈ (UK.updateVerbose stdEnv s (Demo.nugget 2) true).1 := by
  obtain ⟨s, h, -⟩ := Demo.uk z 1 true false
  obtain ⟨t, h', -⟩ := Demo.uk z 2 true false
  obtain ⟨s', hu⟩ := C25_uk_accepts h [] (u := Demo.nugget 2) h'
  have hu : UK.update stdEnv s (Demo.nugget 2) = (.ok (), s') := hu
  obtain ⟨name, hn, hm, -⟩ := ((C82_update_uk stdEnv s (Demo.nugget 2)).2 stdEnv_lsq).2 s' hu
  exact ⟨s, s', h, hu, name, hn, hm⟩

example (z : Fin 2 → ℝ) : ∃ s s' : UK3D 2, UK3D.create stdEnv Demo.X Demo.O Demo.O z (Demo.uargs3 1 true false) = .ok s ∧
    UK3D.update stdEnv s (Demo.nugget3 2) = (.ok (), s') ∧ ∃ name, s'.variogramModel = .name name ∧
      modelLine name ∈ (UK3D.updateVerbose stdEnv s (Demo.nugget3 2) true).1 := by
  obtain ⟨s, h, -⟩ := Demo.uk3 z 1 true false
  obtain ⟨t, h', -⟩ := Demo.uk3 z 2 true false
  obtain ⟨s', hu⟩ := C25_uk3d_accepts h [] (u := Demo.nugget3 2) h'
  have hu : UK3D.update stdEnv s (Demo.nugget3 2) = (.ok (), s') := hu
  obtain ⟨name, hn, hm, -⟩ := ((C82_update_uk3d stdEnv s (Demo.nugget3 2)).2 stdEnv_lsq).2 s' hu
  exact ⟨s, s', h, hu, name, hn, hm⟩

end
end PyKrige
