import Verif.Lemmas.PWCreate
import Verif.Lemmas.UKDrift

/-! When universal kriging accepts a point, in terms of the constructor arguments. -/

namespace PyKrige
noncomputable section
open Spec

/-- A point is on a well of the point-log drift. -/
def Spec.AtWell (args : UKArgs) (scaling angle : ℝ) (p : ℝ × ℝ) : Prop :=
  "point_log" ∈ args.driftTerms ∧
    ∃ w ∈ args.pointDrift.getD [], anisoDist2 scaling angle p (w.1, w.2.1) = 0

/-- The external drift, if used, is defined at a point. -/
def Spec.ExternalCovers (args : UKArgs) (p : ℝ × ℝ) : Prop :=
  "external_Z" ∈ args.driftTerms → ∃ v, externalAt args p = .ok v

section
variable {n : ℕ} {env : Env} {x y z : Fin n → ℝ} {args : UKArgs} {s : UK n}

theorem UK.atWell_iff (h : UK.create env x y z args = .ok s) (p : ℝ × ℝ) :
    s.atWell p ↔ Spec.AtWell args s.anisotropyScaling s.anisotropyAngle p := by
  obtain ⟨h1, h2, h3, h4, h5⟩ := UK.create_drift h
  unfold UK.atWell Spec.AtWell
  unfold setupPointLog at h3
  split at h3
  · next ht =>
    cases hw : args.pointDrift with
    | none => rw [hw] at h3; simp at h3
    | some wells =>
      rw [hw] at h3
      replace h3 := (ok_of_ite h3).2
      rw [← h3]
      simp only [Option.getD_some, List.mem_map, ht, true_and]
      have key : ∀ w : ℝ × ℝ × ℝ, Real.sqrt ((s.adjustPoint p 0 - s.adjustPoint (w.1, w.2.1) 0) ^ 2 +
          (s.adjustPoint p 1 - s.adjustPoint (w.1, w.2.1) 1) ^ 2) =
          anisoDist2 s.anisotropyScaling s.anisotropyAngle p (w.1, w.2.1) := by
        intro w
        rw [← adjust2_euclid ![s.XCENTER, s.YCENTER]]
        simp only [euclid, Fin.sum_univ_two]
        rfl
      constructor
      · rintro ⟨w', ⟨w, hw, rfl⟩, h'⟩
        exact ⟨w, hw, by rw [← key]; exact h'⟩
      · rintro ⟨w, hw, h'⟩
        refine ⟨_, ⟨w, hw, rfl⟩, ?_⟩
        rw [← key] at h'; exact h'
  · next ht =>
    simp only [Except.ok.injEq] at h3
    rw [← h3]
    simp [ht]

theorem UK.extP_ok_iff (h : UK.create env x y z args = .ok s) (p : ℝ × ℝ) :
    (∃ v, s.extP p = .ok v) ↔ Spec.ExternalCovers args p := by
  obtain ⟨h1, h2, h3, h4, h5⟩ := UK.create_drift h
  unfold Spec.ExternalCovers
  by_cases ht : "external_Z" ∈ args.driftTerms
  · rw [UK.extP_eq h2 ht]; simp [ht]
  · simp [UK.extP, UK.externalZ_none h2 ht, ht]

theorem UK.specified_none (h : UK.create env x y z args = .ok s) (hs : "specified" ∉ args.driftTerms) :
    s.specified = none := by
  obtain ⟨h1, h2, h3, h4, h5⟩ := UK.create_drift h
  unfold setupSpecifiedTerm at h4
  rw [if_neg hs] at h4
  exact (Except.ok.inj h4).symm

theorem UK.loopSpec_none (hs : s.specified = none) (sp : List (List ℝ)) : s.loopSpec sp = .ok [] := by
  simp [UK.loopSpec, hs]

theorem UK.specGrids_none (hs : s.specified = none) (ea : UKExecArgs) : s.specGrids ea = .ok [] := by
  simp [UK.specGrids, hs]

theorem UK.sv_none (hs : s.specified = none) (ea : UKExecArgs) (j : ℕ) : s.sv ea j = [] := by
  unfold UK.sv
  rw [UK.specs_eq (UK.specGrids_none hs ea), UK.loopSpec_none hs]
  simp [specAt]

/-- Without specified drift, what makes a point acceptable. -/
theorem UK.valid_iff (h : UK.create env x y z args = .ok s) (hs : "specified" ∉ args.driftTerms)
    (ea : UKExecArgs) (p : ℝ × ℝ) : s.Valid ea p ↔ Spec.ExternalCovers args p ∧
      (ea.toExec.backend = "loop" → ¬ Spec.AtWell args s.anisotropyScaling s.anisotropyAngle p) := by
  unfold UK.Valid
  rw [UK.extP_ok_iff h, UK.atWell_iff h, UK.loopSpec_none (UK.specified_none h hs)]
  simp

end

section
variable {n : ℕ} {env : Env} {x y z v : Fin n → ℝ} {args : UK3DArgs} {s : UK3D n}

theorem UK3D.specified_none (h : UK3D.create env x y z v args = .ok s) (hs : "specified" ∉ args.driftTerms) :
    s.specified = none := by
  obtain ⟨h1, h4, h5⟩ := UK3D.create_drift h
  unfold setupSpecifiedTerm at h4
  rw [if_neg hs] at h4
  exact (Except.ok.inj h4).symm

theorem UK3D.loopSpec_none (hs : s.specified = none) (sp : List (List ℝ)) : s.loopSpec sp = .ok [] := by
  simp [UK3D.loopSpec, hs]

theorem UK3D.specGrids_none (hs : s.specified = none) (ea : UK3DExecArgs) : s.specGrids ea = .ok [] := by
  simp [UK3D.specGrids, hs]

theorem UK3D.sv_none (hs : s.specified = none) (ea : UK3DExecArgs) (j : ℕ) : s.sv ea j = [] := by
  unfold UK3D.sv
  rw [UK3D.specs_eq (UK3D.specGrids_none hs ea), UK3D.loopSpec_none hs]
  simp [specAt]

theorem UK3D.valid_none (hs : s.specified = none) (ea : UK3DExecArgs) (p : ℝ × ℝ × ℝ) : s.Valid ea p :=
  fun _ => ⟨[], UK3D.loopSpec_none hs _⟩

end
end
end PyKrige
