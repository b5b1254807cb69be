import Verif.Examples.Use7
import Verif.Props.C19Accept
import Verif.Props.C40

/-! Theorems C27 for automatically fitted variograms applied to concrete objects of all four classes. -/

namespace PyKrige.Demo
noncomputable section
open Spec

theorem away_f (i : Fin 3) : 1 / 10 ^ 10 < anisoDist2 1 0 (2, 0) ((![0, 1, 3] : Fin 3 → ℝ) i, (![0, 0, 0] : Fin 3 → ℝ) i) := away_l i
theorem away_f3 (i : Fin 3) : 1 / 10 ^ 10 < distance3 {} (2, 0, 0) ((![0, 1, 3] : Fin 3 → ℝ) i, (![0, 0, 0] : Fin 3 → ℝ) i, (![0, 0, 0] : Fin 3 → ℝ) i) := away_l3 i


/-- C27 for a fitted variogram: the default model, three data on a line, the pseudo-inverse (OK). -/
example : ∃ s r, OK.create stdEnv ![0, 1, 3] ![0, 0, 0] ![1, 2, 4] { pseudoInv := true } = .ok s ∧
    s.execute stdEnv (pointsCall [(2, 0)] "vectorized") = .ok r ∧ ∀ var, r.ss[0]? = some (some var) → 0 ≤ var := by
  obtain ⟨s, h⟩ := C19_accepted_statistics_ok stdEnv_lsq ![0, 1, 3] ![0, 0, 0] ![1, 2, 4] { pseudoInv := true } rfl (by decide) rfl (by decide) (.inr rfl) (by decide) rfl (.inl rfl)
    (Demo.fit3 ((Demo.line_dist 0 1 (by norm_num)).trans (by norm_num)) ((Demo.line_dist 1 3 (by norm_num)).trans (by norm_num)) _ _)
  obtain ⟨-, S, L, -, -, hb⟩ := C19_bounds_ok h (nm := "linear") rfl (by decide) rfl (by decide) stdEnv_lsq
  obtain ⟨a, c, hps, -⟩ : ∃ a c, s.params = [a, c] ∧ 0 ≤ a ∧ 0 ≤ c ∧ c ≤ S := by simpa [WithinBounds] using hb
  obtain ⟨hev, hname⟩ := chosen_evaluates (builtin_linear.2 rfl : Builtin "linear" [a, c] _) (by decide) (OK.create_function h (m := "linear") rfl)
  rw [← hps] at hev
  have ha : Admissible stdEnv { pseudoInv := true } s none := ⟨stdEnv_knn, trivial, by rw [hps, hname]; simp [RangeOk, variogramFunctionName], fits_none⟩
  obtain ⟨r, hr⟩ := (C40_execute_iff_2d h (ea := pointsCall [(2, 0)] "vectorized") ha hev).2 ⟨.inr (.inr ⟨rfl, by simp [pointsCall]⟩), win_none,
    fun _ => by simp [HasFloats, pointsCall], by simp [Supports, pointsCall], fun _ => .inl rfl, fun k hk => by simp [pointsCall] at hk⟩
  exact ⟨s, r, h, hr, fun var hv => C27_fitted_2d_partial h rfl ha (m := "linear") rfl (by decide) rfl (by decide) stdEnv_lsq (.inr rfl) hev rfl hr (fun p hp _ i hi => by
    simp [queryAt, pointsCall] at hp
    subst hp
    exact absurd hi (not_le.2 (away_f i))) hv⟩

/-- C27 for a fitted variogram: the default model, three data on a line, the pseudo-inverse (OK3D). -/
example : ∃ s r, OK3D.create stdEnv ![0, 1, 3] ![0, 0, 0] ![0, 0, 0] ![1, 2, 4] { pseudoInv := true } = .ok s ∧
    s.execute stdEnv (pointsCall3 [(2, 0, 0)] "vectorized") = .ok r ∧ ∀ var, r.ss[0]? = some (some var) → 0 ≤ var := by
  obtain ⟨s, h⟩ := C19_accepted_ok3 stdEnv_lsq ![0, 1, 3] ![0, 0, 0] ![0, 0, 0] ![1, 2, 4] { pseudoInv := true } rfl (by decide) rfl
    (by decide) rfl (by decide) rfl (Demo.fit3 ((Demo.line_dist3 0 1 (by norm_num)).trans (by norm_num))
      ((Demo.line_dist3 1 3 (by norm_num)).trans (by norm_num)) _ _)
  obtain ⟨-, S, L, -, -, hb⟩ := C19_bounds_ok3 h (nm := "linear") rfl (by decide) rfl (by decide) stdEnv_lsq
  obtain ⟨a, c, hps, -⟩ : ∃ a c, s.params = [a, c] ∧ 0 ≤ a ∧ 0 ≤ c ∧ c ≤ S := by simpa [WithinBounds] using hb
  obtain ⟨hev, hname⟩ := chosen_evaluates (builtin_linear.2 rfl : Builtin "linear" [a, c] _) (by decide) (OK3D.create_function h (m := "linear") rfl)
  rw [← hps] at hev
  obtain ⟨r, hr⟩ := (C40_execute_iff_3d h (ea := pointsCall3 [(2, 0, 0)] "vectorized") stdEnv_knn fits_none hev).2 ⟨.inr (.inr ⟨rfl, by simp [pointsCall3]⟩), win_none,
    by simp [HasFloats3, pointsCall3], .inr ⟨rfl, rfl⟩, fun _ => .inl rfl, fun k hk => by simp [pointsCall3] at hk⟩
  exact ⟨s, r, h, hr, fun var hv => C27_fitted_3d_partial h stdEnv_knn fits_none (m := "linear") rfl (by decide) rfl (by decide) stdEnv_lsq (.inr rfl) hev rfl hr (fun p hp _ i hi => by
    simp [queryAt3, pointsCall3] at hp
    subst hp
    exact absurd hi (not_le.2 (away_f3 i))) hv⟩

/-- C27 for a fitted variogram: the default model, three data on a line, the pseudo-inverse (UK). -/
example : ∃ s r, UK.create stdEnv ![0, 1, 3] ![0, 0, 0] ![1, 2, 4] { pseudoInv := true } = .ok s ∧
    s.execute { toExec := pointsCall [(2, 0)] "vectorized" } = .ok r ∧ ∀ var, r.ss[0]? = some (some var) → 0 ≤ var := by
  obtain ⟨s, h⟩ := C19_accepted_uk stdEnv_lsq ![0, 1, 3] ![0, 0, 0] ![1, 2, 4]
    { pseudoInv := true } rfl (by decide) rfl
    (by decide) rfl (by decide) rfl (Demo.fit3 ((Demo.line_dist 0 1 (by norm_num)).trans (by norm_num))
      ((Demo.line_dist 1 3 (by norm_num)).trans (by norm_num)) _ _) (fun i hc => by simp at hc) (by simp) (by simp) (by simp)
  obtain ⟨-, S, L, -, -, hb⟩ := C19_bounds_uk h (nm := "linear") rfl (by decide) rfl (by decide) stdEnv_lsq
  obtain ⟨a, c, hps, -⟩ : ∃ a c, s.params = [a, c] ∧ 0 ≤ a ∧ 0 ≤ c ∧ c ≤ S := by simpa [WithinBounds] using hb
  obtain ⟨hev, hname⟩ := chosen_evaluates (builtin_linear.2 rfl : Builtin "linear" [a, c] _) (by decide) (UK.create_function h (m := "linear") rfl)
  rw [← hps] at hev
  obtain ⟨r, hr⟩ := (C40_execute_iff_uk h (ea := { toExec := pointsCall [(2, 0)] "vectorized" }) (by simp) hev).2 ⟨.inr (.inr ⟨rfl, by simp [pointsCall]⟩),
    by simp [HasFloats, pointsCall], by simp [SpecFits], .inl rfl, .inl rfl, fun _ _ _ _ => ⟨by simp [ExternalCovers], by simp [pointsCall]⟩⟩
  exact ⟨s, r, h, hr, fun var hv => C27_fitted_uk_partial h (by simp) (m := "linear") rfl (by decide) rfl (by decide) stdEnv_lsq (.inr rfl) hev rfl hr
    (.inr fun _ _ => ⟨![1, 0, 0], ⟨by simp, by simp [Fin.sum_univ_three], by simp [driftTerms2]⟩⟩) (fun p hp _ i hi => by
    simp [queryAt, pointsCall] at hp
    subst hp
    exact absurd hi (not_le.2 (away_f i))) hv⟩

/-- C27 for a fitted variogram: the default model, three data on a line, the pseudo-inverse (UK3D). -/
example : ∃ s r, UK3D.create stdEnv ![0, 1, 3] ![0, 0, 0] ![0, 0, 0] ![1, 2, 4] { pseudoInv := true } = .ok s ∧
    s.execute { toExec := pointsCall3 [(2, 0, 0)] "vectorized" } = .ok r ∧ ∀ var, r.ss[0]? = some (some var) → 0 ≤ var := by
  obtain ⟨s, h⟩ := C19_accepted_uk3 stdEnv_lsq ![0, 1, 3] ![0, 0, 0] ![0, 0, 0] ![1, 2, 4]
    { pseudoInv := true } rfl (by decide) rfl
    (by decide) rfl (by decide) rfl (Demo.fit3 ((Demo.line_dist3 0 1 (by norm_num)).trans (by norm_num))
      ((Demo.line_dist3 1 3 (by norm_num)).trans (by norm_num)) _ _) (by simp) (by simp)
  obtain ⟨-, S, L, -, -, hb⟩ := C19_bounds_uk3 h (nm := "linear") rfl (by decide) rfl (by decide) stdEnv_lsq
  obtain ⟨a, c, hps, -⟩ : ∃ a c, s.params = [a, c] ∧ 0 ≤ a ∧ 0 ≤ c ∧ c ≤ S := by simpa [WithinBounds] using hb
  obtain ⟨hev, hname⟩ := chosen_evaluates (builtin_linear.2 rfl : Builtin "linear" [a, c] _) (by decide) (UK3D.create_function h (m := "linear") rfl)
  rw [← hps] at hev
  obtain ⟨r, hr⟩ := (C40_execute_iff_uk3d h (ea := { toExec := pointsCall3 [(2, 0, 0)] "vectorized" }) (by simp) hev).2 ⟨.inr (.inr ⟨rfl, by simp [pointsCall3]⟩),
    by simp [HasFloats3, pointsCall3], .inl rfl, .inl rfl⟩
  exact ⟨s, r, h, hr, fun var hv => C27_fitted_uk3d_partial h (by simp) (m := "linear") rfl (by decide) rfl (by decide) stdEnv_lsq (.inr rfl) hev rfl hr
    (.inr fun _ _ => ⟨![1, 0, 0], ⟨by simp, by simp [Fin.sum_univ_three], by simp [driftTerms3]⟩⟩) (fun p hp _ i hi => by
    simp [queryAt3, pointsCall3] at hp
    subst hp
    exact absurd hi (not_le.2 (away_f3 i))) hv⟩

end
end PyKrige.Demo
