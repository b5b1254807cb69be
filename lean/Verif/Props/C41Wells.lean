import Verif.Props.C25

/-!
# C41, wells: integer well coordinates are not the equal floats

`np.array(point_drift)` has an integer dtype if all its entries are Python integers, and the same in-place subtraction
that refuses integer query coordinates then refuses the wells, in the constructor.
-/

namespace PyKrige
noncomputable section
open Spec

/-- Whenever `UniversalKriging` accepts wells given by floats, it refuses the same wells given by integers. -/
theorem C41_raises_wells {n : ℕ} {env : Env} {x y z : Fin n → ℝ} {args : UKArgs} {s : UK n}
    (h : UK.create env x y z args = .ok s) (hw : "point_log" ∈ args.driftTerms) :
    UK.create env x y z { args with pointDriftInt := true } = .error .castingError := by
  obtain ⟨hp, exact, name, model, fArg, pArg, sc, an, f, fname, xc, yc, vp, lags, ps, stats, ext, plog, spec,
    func, h1, h2, h3, h4, h5, h6, h7, h8, h9, h10, h11, h12, rfl⟩ := UK.create_ok h
  have h9' : setupExternalZ x y { args with pointDriftInt := true } = .ok ext := h9
  have h10' : setupPointLog xc yc sc an { args with pointDriftInt := true } = .error .castingError := by
    unfold setupPointLog at h10 ⊢
    rw [if_pos hw] at h10
    refine (if_pos hw).trans ?_
    dsimp only
    cases hd : args.pointDrift with
    | none => rw [hd] at h10; cases h10
    | some w => rfl
  rw [h1] at h9' h10'
  unfold UK.create
  rw [if_neg (not_not.2 hp)]
  simp only [h1, py_pure, py_ok_bind, h2, h3, h4, h5, h6, h7, h8, h9', h10']
  rfl

/-- Without wells the dtype does not matter. -/
theorem C41_no_wells_partial {n : ℕ} (env : Env) (x y z : Fin n → ℝ) {args : UKArgs}
    (hw : "point_log" ∉ args.driftTerms) (b : Bool) :
    UK.create env x y z { args with pointDriftInt := b } = UK.create env x y z args := by
  have e : ∀ xc yc sc an, setupPointLog xc yc sc an { args with pointDriftInt := b } = setupPointLog xc yc sc an args := by
    intro xc yc sc an
    unfold setupPointLog
    rw [if_neg hw]
    exact (if_neg hw).symm
  unfold UK.create
  simp only [e]
  rfl

/-- A well at `(0, 1)` with strength -1: the floats are accepted, the integers are refused. -/
example (z : Fin 2 → ℝ) : (∃ s, UK.create stdEnv Demo.X Demo.O z (Demo.wargs 1) = .ok s) ∧
    UK.create stdEnv Demo.X Demo.O z { Demo.wargs 1 with pointDriftInt := true } = .error .castingError := by
  obtain ⟨s, h, -⟩ := Demo.wuk 1 z
  exact ⟨⟨s, h⟩, C41_raises_wells h (by simp [Demo.wargs])⟩

end
end PyKrige
