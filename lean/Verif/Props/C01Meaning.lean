import Verif.Props.C01
import Verif.Examples.More

/-!
# C01  What a list of variogram parameters means, in every class

The formulas of the documentation, in terms of the numbers the user writes in the list.
-/

namespace PyKrige
noncomputable section

/-- `Spec.Written m l d v`: the variogram model `m` with `variogram_parameters = l` has the value `v` at distance `d`. -/
inductive Spec.Written : String → List ℝ → ℝ → ℝ → Prop
  | linear (slope nugget d : ℝ) : Spec.Written "linear" [slope, nugget] d (slope * d + nugget)
  | power (scale exponent nugget d : ℝ) : Spec.Written "power" [scale, exponent, nugget] d (scale * d ^ exponent + nugget)
  | gaussian (sill range nugget d : ℝ) : Spec.Written "gaussian" [sill, range, nugget] d
      (nugget + (sill - nugget) * (1 - Real.exp (-(d ^ 2) / (4 / 7 * range) ^ 2)))
  | exponential (sill range nugget d : ℝ) : Spec.Written "exponential" [sill, range, nugget] d
      (nugget + (sill - nugget) * (1 - Real.exp (-d / (range / 3))))
  | spherical_in (sill range nugget d : ℝ) (h : d ≤ range) : Spec.Written "spherical" [sill, range, nugget] d
      (nugget + (sill - nugget) * (3 / 2 * (d / range) - 1 / 2 * (d / range) ^ 3))
  | spherical_out (sill range nugget d : ℝ) (h : range ≤ d) (h0 : range ≠ 0) :
      Spec.Written "spherical" [sill, range, nugget] d sill
  | hole_effect (sill range nugget d : ℝ) : Spec.Written "hole-effect" [sill, range, nugget] d
      (nugget + (sill - nugget) * (1 - (1 - d / (range / 3)) * Real.exp (-d / (range / 3))))

theorem written_value {m : String} {l : List ℝ} {d v : ℝ} (hw : Spec.Written m l d v) {fA : FunArg} {f : VFun} {nm : String}
    {vp : Option (List ℝ)} (h2 : chooseFunction m fA = .ok (f, nm)) (h3 : makeVariogramParameterList m (.list l) = .ok vp) :
    ∃ ps γ, vp = some ps ∧ f ps = .ok γ ∧ γ d = v := by
  cases hw <;> simp [makeVariogramParameterList, pyGet] at h3 <;> subst h3 <;>
    simp [chooseFunction, variogramDict] at h2 <;> obtain ⟨rfl, -⟩ := h2 <;> refine ⟨_, _, rfl, rfl, ?_⟩
  · simp [linearFormula]
  · simp [powerFormula]
  · rename_i sill r nug
    simp only [gaussianFormula]; rw [show 4 / 7 * r = r * 4 / 7 by ring]; ring
  · simp only [exponentialFormula]; ring
  · simp only [sphericalFormula, if_pos (by assumption)]
    rename_i r _ _
    by_cases hr : r = 0
    · subst hr; simp
    · field_simp
      ring
  · rename_i r h0 h
    rcases h.lt_or_eq with h | h
    · simp [sphericalFormula, not_le.2 h]
    · subst h
      simp only [sphericalFormula, le_refl, if_true]
      field_simp
      ring
  · simp only [holeEffectFormula]; ring

theorem initialize_written {n d : ℕ} {env : Env} {X : Fin n → Fin d → ℝ} {z : Fin n → ℝ} {m : String} {ps : List ℝ} {f : VFun}
    {nl : ℕ} {w : Bool} {ct : String} {lags : List (ℝ × ℝ)} {ps' : List ℝ}
    (h : initializeVariogramModel env X z m (some ps) f nl w ct = .ok (lags, ps')) : ps' = ps := by
  obtain ⟨ev, -, h⟩ := py_bind_eq_ok.1 h
  simp at h
  repeat' (split at h)
  all_goals simp at h
  exact h.2.symm

/-- Class `OK`: the object evaluates its variogram as the list says. -/
theorem C01_meaning_2d {n : ℕ} {env : Env} {x y z : Fin n → ℝ} {args : OKArgs} {s : OK n} {m : String} {l : List ℝ}
    (h : OK.create env x y z { args with variogramModel := .name m, params := .list l } = .ok s)
    {d v : ℝ} (hw : Spec.Written m l d v) : ∃ γ, s.variogramFunction s.params = .ok γ ∧ γ d = v := by
  obtain ⟨-, _, name, _, _, pArg, _, _, f, _, _, _, _, _, _, vp, _, ps, _, -, h1, h2, -, h3, h4, -, rfl⟩ := OK.create_ok h
  simp only [OK.resolveModel, Except.ok.injEq, Prod.mk.injEq] at h1
  obtain ⟨rfl, -, rfl, rfl, -⟩ := h1
  obtain ⟨ps, γ, rfl, hf, hv⟩ := written_value hw h2 h3
  rw [initialize_written h4]
  exact ⟨γ, hf, hv⟩

/-- Class `OK3D`: the object evaluates its variogram as the list says. -/
theorem C01_meaning_3d {n : ℕ} {env : Env} {x y z val : Fin n → ℝ} {args : OK3DArgs} {s : OK3D n} {m : String} {l : List ℝ}
    (h : OK3D.create env x y z val { args with variogramModel := .name m, params := .list l } = .ok s)
    {d v : ℝ} (hw : Spec.Written m l d v) : ∃ γ, s.variogramFunction s.params = .ok γ ∧ γ d = v := by
  obtain ⟨-, _, name, _, _, pArg, _, f, _, _, _, _, vp, _, ps, _, -, h1, h2, -, -, -, h3, h4, -, rfl⟩ := OK3D.create_ok h
  simp only [OK3D.resolveModel, Except.ok.injEq, Prod.mk.injEq] at h1
  obtain ⟨rfl, -, rfl, rfl, -⟩ := h1
  obtain ⟨ps, γ, rfl, hf, hv⟩ := written_value hw h2 h3
  rw [initialize_written h4]
  exact ⟨γ, hf, hv⟩

/-- Class `UK`: the object evaluates its variogram as the list says. -/
theorem C01_meaning_uk {n : ℕ} {env : Env} {x y z : Fin n → ℝ} {args : UKArgs} {s : UK n} {m : String} {l : List ℝ}
    (h : UK.create env x y z { args with variogramModel := .name m, params := .list l } = .ok s)
    {d v : ℝ} (hw : Spec.Written m l d v) : ∃ γ, s.variogramFunction s.params = .ok γ ∧ γ d = v := by
  obtain ⟨-, _, name, _, _, pArg, _, _, f, _, _, _, vp, _, ps, _, _, _, _, _, -, h1, h2, -, -, h3, h4, -, -, -, -, -, rfl⟩ := UK.create_ok h
  simp only [UK.resolveModel, Except.ok.injEq, Prod.mk.injEq] at h1
  obtain ⟨rfl, -, rfl, rfl, -⟩ := h1
  obtain ⟨ps, γ, rfl, hf, hv⟩ := written_value hw h2 h3
  rw [initialize_written h4]
  exact ⟨γ, hf, hv⟩

/-- Class `UK3D`: the object evaluates its variogram as the list says. -/
theorem C01_meaning_uk3d {n : ℕ} {env : Env} {x y z val : Fin n → ℝ} {args : UK3DArgs} {s : UK3D n} {m : String} {l : List ℝ}
    (h : UK3D.create env x y z val { args with variogramModel := .name m, params := .list l } = .ok s)
    {d v : ℝ} (hw : Spec.Written m l d v) : ∃ γ, s.variogramFunction s.params = .ok γ ∧ γ d = v := by
  obtain ⟨-, _, name, _, _, pArg, _, f, _, _, _, _, vp, _, ps, _, _, _, -, h1, h2, -, -, -, h3, h4, -, -, -, rfl⟩ := UK3D.create_ok h
  simp only [OK3D.resolveModel, Except.ok.injEq, Prod.mk.injEq] at h1
  obtain ⟨rfl, -, rfl, rfl, -⟩ := h1
  obtain ⟨ps, γ, rfl, hf, hv⟩ := written_value hw h2 h3
  rw [initialize_written h4]
  exact ⟨γ, hf, hv⟩

namespace Demo

/-- Four wells and the spherical variogram with sill 3, range 2, nugget 1: at distance 1 the value is `1 + 2 * 11/16`. -/
private theorem written : Spec.Written "spherical" [3, 2, 1] 1 (1 + (3 - 1) * (3 / 2 * (1 / 2) - 1 / 2 * (1 / 2) ^ 3)) :=
  .spherical_in _ _ _ _ (by norm_num)

private theorem written_far : Spec.Written "spherical" [3, 2, 1] 5 3 := .spherical_out _ _ _ _ (by norm_num) (by norm_num)

example (z : Fin 4 → ℝ) : ∃ s γ, OK.create stdEnv x4 y4 z (any "spherical" [3, 2, 1]) = .ok s ∧
    s.variogramFunction s.params = .ok γ ∧ γ 1 = 19 / 8 := by
  obtain ⟨s, h, -⟩ := any_ok (n := 4) (by norm_num) z sph_valid sph_grows inj4
  obtain ⟨γ, hγ, hv⟩ := C01_meaning_2d (args := {}) (m := "spherical") (l := [3, 2, 1]) h written
  exact ⟨s, γ, h, hγ, hv.trans (by norm_num)⟩

example (v : Fin 4 → ℝ) : ∃ s γ, OK3D.create stdEnv x4 y4 z4 v (any3 "spherical" [3, 2, 1]) = .ok s ∧
    s.variogramFunction s.params = .ok γ ∧ γ 5 = 3 := by
  obtain ⟨s, h, -⟩ := any3_ok (n := 4) (by norm_num) v sph_valid sph_grows inj4'
  obtain ⟨γ, hγ, hv⟩ := C01_meaning_3d (args := {}) (m := "spherical") (l := [3, 2, 1]) h written_far
  exact ⟨s, γ, h, hγ, hv⟩

example (z : Fin 4 → ℝ) : ∃ s γ, UK.create stdEnv x4 y4 z (uany "spherical" [3, 2, 1]) = .ok s ∧
    s.variogramFunction s.params = .ok γ ∧ γ 5 = 3 := by
  obtain ⟨s, h, -⟩ := uany_ok (n := 4) (by norm_num) z sph_valid sph_grows inj4 plane4
  obtain ⟨γ, hγ, hv⟩ := C01_meaning_uk (args := uany "spherical" [3, 2, 1]) (m := "spherical") (l := [3, 2, 1]) h written_far
  exact ⟨s, γ, h, hγ, hv⟩

example (v : Fin 4 → ℝ) : ∃ s γ, UK3D.create stdEnv x4 y4 z4 v (uany3 "spherical" [3, 2, 1]) = .ok s ∧
    s.variogramFunction s.params = .ok γ ∧ γ 5 = 3 := by
  obtain ⟨s, h, -⟩ := uany3_ok (n := 4) (by norm_num) v sph_valid sph_grows inj4' space4
  obtain ⟨γ, hγ, hv⟩ := C01_meaning_uk3d (args := uany3 "spherical" [3, 2, 1]) (m := "spherical") (l := [3, 2, 1]) h written_far
  exact ⟨s, γ, h, hγ, hv⟩

end Demo
end
end PyKrige
