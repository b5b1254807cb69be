import Verif.Examples.Use2
import Verif.Examples.Use5
import Verif.Examples.Statistics
import Verif.Props.C20
import Verif.Props.C21
import Verif.Props.C22
import Verif.Props.C24
import Verif.Props.C25
import Verif.Props.C26
import Verif.Props.C51
import Verif.Props.C55

/-!
Theorems C20 – C26, C51, C55 applied to the objects of `Objects.lean` and to an object with `enable_statistics=True`.
-/

namespace PyKrige.Demo
noncomputable section
open Spec

/-! An object that computes its statistics. -/
abbrev A2s : OKArgs := { A2 with enableStatistics := true }
theorem sep2 : Separates (listMeaning "spherical" [3, 2, 1]) fun i j => okDistance A2 (x4 i, y4 i) (x4 j, y4 j) :=
  .inl ⟨sph_grows, fun i j hij h0 => hij (inj4 (anisoDist2_eq_zero (sc := 1) one_ne_zero 0 (by
    simpa [okDistance, distance2, any, effScaling, effAngle] using h0)))⟩
abbrev S2s_exists (z : Fin 4 → ℝ) := C29_create_2d stdEnv (n := 4) (by norm_num) x4 y4 z A2s (by simp [any]) rfl rfl rfl rfl sph_valid sep2
def S2s (z : Fin 4 → ℝ) : OK 4 := Classical.choose (S2s_exists z)
theorem S2s_ok (z : Fin 4 → ℝ) : OK.create stdEnv x4 y4 z A2s = .ok (S2s z) := (Classical.choose_spec (S2s_exists z)).1
theorem S2s_params (z : Fin 4 → ℝ) : (S2s z).params = listMeaning "spherical" [3, 2, 1] := (Classical.choose_spec (S2s_exists z)).2
theorem S2s_sph (z : Fin 4 → ℝ) : (S2s z).variogramFunction (S2s z).params = .ok sph :=
  C47_variogram_2d (S2s_ok z) (m := "spherical") rfl (l := [3, 2, 1]) rfl sph_textbook
theorem S2s_adm (z : Fin 4 → ℝ) {nc : Option ℤ} (hnc : WindowFits 4 nc) : Admissible stdEnv A2s (S2s z) nc := by
  have hfun := OK.create_function (S2s_ok z) (m := "spherical") rfl
  obtain ⟨hb, -, -, γ, hγ, -⟩ := sph_valid.builtin
  obtain ⟨-, hname⟩ := chosen_evaluates hγ hb hfun
  exact ⟨stdEnv_knn, trivial, by rw [S2s_params, hname]; exact sph_valid.rangeOk, hnc⟩

/-! C20, C51 -/
example (z : Fin 4 → ℝ) := C20_object_ok (S2s_ok z) rfl (S2s_sph z) (.inl rfl)
example (z : Fin 4 → ℝ) := C51_statistics_ok (S2s_ok z) rfl (S2s_sph z) (.inl rfl)
example (z : Fin 2 → ℝ) := (stats_ok (m := 1) ![![0], ![1]] z (vario 1) false).imp fun _ h => C20_statistics (vario 1) h (.inl rfl)
example (z : Fin 2 → ℝ) := (stats_ok (m := 1) ![![0], ![1]] z (vario 1) false).imp fun _ h => C20_wellformed h
example (z : Fin 2 → ℝ) := (stats_ok (m := 1) ![![0], ![1]] z (vario 1) false).imp fun _ h => C20_causal (n := 1) (by norm_num) h

/-! C25, C51: a change of the nugget -/
example (z : Fin 2 → ℝ) (later : List (Call OKUpdate ExecArgs)) : ∃ s s' fresh : OK 2, OK.create stdEnv X O z (args 1 true false) = .ok s ∧
    OK.update stdEnv (s.run stdEnv [.update (nugget 7)]).2 (nugget 2) = (.ok (), s') ∧
    OK.create stdEnv X O z ((args 1 true false).withUpdate (nugget 2)) = .ok fresh ∧ (s'.run stdEnv later).1 = (fresh.run stdEnv later).1 := by
  obtain ⟨s, h, -⟩ := Demo.ok z 1 true false
  obtain ⟨t, h'⟩ := ok_stats z 2 true false
  obtain ⟨s', hu⟩ := C25_ok_accepts h [.update (nugget 7)] (u := nugget 2) h'
  obtain ⟨fresh, h1, h2⟩ := C25_ok h _ hu
  exact ⟨s, s', fresh, h, hu, h1, h2 later⟩
example (z : Fin 2 → ℝ) (later : List (Call OKUpdate UKExecArgs)) : ∃ s s' fresh : UK 2, UK.create stdEnv X O z (uargs 1 true false) = .ok s ∧
    UK.update stdEnv (s.run stdEnv [.update (nugget 7)]).2 (nugget 2) = (.ok (), s') ∧
    UK.create stdEnv X O z ((uargs 1 true false).withUpdate (nugget 2)) = .ok fresh ∧ (s'.run stdEnv later).1 = (fresh.run stdEnv later).1 := by
  obtain ⟨s, h, -⟩ := Demo.uk z 1 true false
  obtain ⟨t, h', -⟩ := Demo.uk z 2 true false
  obtain ⟨s', hu⟩ := C25_uk_accepts h [.update (nugget 7)] (u := nugget 2) h'
  obtain ⟨fresh, h1, h2⟩ := C25_uk_partial h _ (.inl (by simp [uargs])) hu
  exact ⟨s, s', fresh, h, hu, h1, h2 later⟩
example (v : Fin 2 → ℝ) (later : List (Call Update3D UK3DExecArgs)) : ∃ s s' fresh : UK3D 2, UK3D.create stdEnv X O O v (uargs3 1 true false) = .ok s ∧
    UK3D.update stdEnv (s.run stdEnv [.update (nugget3 7)]).2 (nugget3 2) = (.ok (), s') ∧
    UK3D.create stdEnv X O O v ((uargs3 1 true false).withUpdate (nugget3 2)) = .ok fresh ∧ (s'.run stdEnv later).1 = (fresh.run stdEnv later).1 := by
  obtain ⟨s, h, -⟩ := Demo.uk3 v 1 true false
  obtain ⟨t, h', -⟩ := Demo.uk3 v 2 true false
  obtain ⟨s', hu⟩ := C25_uk3d_accepts h [.update (nugget3 7)] (u := nugget3 2) h'
  obtain ⟨fresh, h1, h2⟩ := C25_uk3d h _ hu
  exact ⟨s, s', fresh, h, hu, h1, h2 later⟩
example (z : Fin 2 → ℝ) (after : List ExecArgs) : ∃ s s' t fresh : OK 2, OK.create stdEnv X O z (args 1 true false) = .ok s ∧
    OK.update stdEnv (s.run stdEnv [.update (nugget 7)]).2 (nugget 2) = (.ok (), s') ∧ t = (s'.run stdEnv (after.map .execute)).2 ∧
    OK.create stdEnv X O z { (args 1 true false).withUpdate (nugget 2) with enableStatistics := true } = .ok fresh ∧
    t.getStatistics = fresh.getStatistics := by
  obtain ⟨s, h, -⟩ := Demo.ok z 1 true false
  obtain ⟨t, h'⟩ := ok_stats z 2 true false
  obtain ⟨s', hu⟩ := C25_ok_accepts h [.update (nugget 7)] (u := nugget 2) h'
  obtain ⟨fresh, h1, h2⟩ := C51_update_ok h _ hu after rfl
  exact ⟨s, s', _, fresh, h, hu, rfl, h1, h2.2.1⟩
example (z : Fin 2 → ℝ) (after : List UKExecArgs) : ∃ s s' t fresh : UK 2, UK.create stdEnv X O z (uargs 1 true false) = .ok s ∧
    UK.update stdEnv (s.run stdEnv [.update (nugget 7)]).2 (nugget 2) = (.ok (), s') ∧ t = (s'.run stdEnv (after.map .execute)).2 ∧
    UK.create stdEnv X O z ((uargs 1 true false).withUpdate (nugget 2)) = .ok fresh ∧ t.getStatistics = fresh.getStatistics := by
  obtain ⟨s, h, -⟩ := Demo.uk z 1 true false
  obtain ⟨t, h', -⟩ := Demo.uk z 2 true false
  obtain ⟨s', hu⟩ := C25_uk_accepts h [.update (nugget 7)] (u := nugget 2) h'
  obtain ⟨fresh, h1, h2⟩ := C51_update_uk h _ hu after rfl
  exact ⟨s, s', _, fresh, h, hu, rfl, h1, h2.2.1⟩
example (v : Fin 2 → ℝ) (after : List UK3DExecArgs) : ∃ s s' t fresh : UK3D 2, UK3D.create stdEnv X O O v (uargs3 1 true false) = .ok s ∧
    UK3D.update stdEnv (s.run stdEnv [.update (nugget3 7)]).2 (nugget3 2) = (.ok (), s') ∧ t = (s'.run stdEnv (after.map .execute)).2 ∧
    UK3D.create stdEnv X O O v ((uargs3 1 true false).withUpdate (nugget3 2)) = .ok fresh ∧ t.getStatistics = fresh.getStatistics := by
  obtain ⟨s, h, -⟩ := Demo.uk3 v 1 true false
  obtain ⟨t, h', -⟩ := Demo.uk3 v 2 true false
  obtain ⟨s', hu⟩ := C25_uk3d_accepts h [.update (nugget3 7)] (u := nugget3 2) h'
  obtain ⟨fresh, h1, h2⟩ := C51_update_uk3d h _ hu after rfl
  exact ⟨s, s', _, fresh, h, hu, rfl, h1, h2.1⟩

/-! C26: a misspelt model name, a parameter list of the wrong length -/
example (z : Fin 4 → ℝ) := C26_ok_model_partial (S2_ok z) [.execute grid32] (u := { variogramModel := .name "gausian" }) (by simp [OKModelUsable, NameUsable, builtins])
example (z : Fin 4 → ℝ) := C26_ok3d_model_partial (S3_ok z) [.execute grid321] (u := { variogramModel := .name "gausian" }) (by simp [ModelUsable3, NameUsable, builtins])
example (z : Fin 4 → ℝ) := C26_uk_model_partial (U2_ok z) [.execute { toExec := grid32 }] (u := { variogramModel := .name "gausian" }) (by simp [UKModelUsable, NameUsable, builtins])
example (z : Fin 4 → ℝ) := C26_uk3d_model_partial (U3_ok z) [.execute { toExec := grid321 }] (u := { variogramModel := .name "gausian" }) (by simp [ModelUsable3, NameUsable, builtins])
example (z : Fin 4 → ℝ) := C26_ok_params_partial (S2_ok z) (m := "spherical") (by simp [builtins]) rfl (u := { variogramModel := .name "spherical", params := .list [1, 2] }) rfl ⟨rfl, rfl⟩ (by simp [ParamsWellFormed])
example (z : Fin 4 → ℝ) := C26_ok3d_params_partial (S3_ok z) (m := "spherical") (by simp [builtins]) rfl (u := { variogramModel := .name "spherical", params := .list [1, 2] }) rfl rfl (by simp [ParamsWellFormed])
example (z : Fin 4 → ℝ) := C26_uk_params_partial (U2_ok z) (m := "spherical") (by simp [builtins]) rfl (u := { variogramModel := .name "spherical", params := .list [1, 2] }) rfl ⟨rfl, rfl⟩ (by simp [ParamsWellFormed])
example (z : Fin 4 → ℝ) := C26_uk3d_params_partial (U3_ok z) (m := "spherical") (by simp [builtins]) rfl (u := { variogramModel := .name "spherical", params := .list [1, 2] }) rfl rfl (by simp [ParamsWellFormed])

/-! C55 -/
example (z : Fin 4 → ℝ) := C55_create_level (S2s_ok z) (m := "spherical") rfl rfl rfl 7 2
example (z : Fin 4 → ℝ) := C55_create_upright (S2s_ok z) (m := "spherical") rfl rfl rfl 7 2
example (z : Fin 4 → ℝ) := (C55_create_upright (S2s_ok z) (m := "spherical") rfl rfl rfl 7 2).imp fun _ h3 =>
  C55_upright (S2s_ok z) (m := "spherical") rfl rfl h3.1 (ea := grid32) (S2s_adm z fits_none) (noTies _ _)

/-! C22 -/
example (z : Fin 4 → ℝ) : ∃ su so, UK.create stdEnv x4 y4 z { B2 with driftTerms := [] } = .ok su ∧ OK.create stdEnv x4 y4 z (sameArgs { B2 with driftTerms := [] }) = .ok so ∧
    su.execute { toExec := grid32 } = so.execute stdEnv grid32 := by
  obtain ⟨so, h⟩ := S2s_exists z
  cases hu : UK.create stdEnv x4 y4 z { B2 with driftTerms := [] } with
  | error e => exact absurd ((C22_create_2d stdEnv x4 y4 z { B2 with driftTerms := [] } (by simp [NoDriftTerms]) e).1 hu) (by
      intro h2; cases h.1.symm.trans h2)
  | ok su => exact ⟨su, so, rfl, h.1, (C22_same_2d (by simp [NoDriftTerms]) hu h.1).1 grid32 .none (.inl rfl) rfl⟩
example (v : Fin 4 → ℝ) : ∃ su so, UK3D.create stdEnv x4 y4 z4 v { B3 with driftTerms := [] } = .ok su ∧ OK3D.create stdEnv x4 y4 z4 v (sameArgs3 { B3 with driftTerms := [] }) = .ok so ∧
    su.execute { toExec := grid321 } = so.execute stdEnv grid321 := by
  have h := S3_ok v
  cases hu : UK3D.create stdEnv x4 y4 z4 v { B3 with driftTerms := [] } with
  | error e => exact absurd ((C22_create_3d stdEnv x4 y4 z4 v { B3 with driftTerms := [] } (by simp [NoDriftTerms]) e).1 hu) (by
      intro h2; cases h.symm.trans h2)
  | ok su => exact ⟨su, _, rfl, h, (C22_same_3d (by simp [NoDriftTerms]) hu h).1 grid321 .none (.inl rfl) rfl⟩

/-! C21: the data are a combination of the drift terms -/
example (a b c : ℝ) {j : ℕ} {v : ℝ} := C21_drift_uk (j := j) (v := v) (U2_ok fun i => a + b * x4 i + c * y4 i) rfl (by simp [uany]) a [b, c] (fun i => by
  obtain ⟨s, h1, -, h2, -⟩ := uany_ok (n := 4) (by norm_num) (fun i => a + b * x4 i + c * y4 i) sph_valid sph_grows inj4 plane4
  rw [U2_ok] at h1
  cases h1
  simp [driftTerms2, uany, h2, combination]
  ring) (Q2_ok _ good_gridU)
example (a b c d : ℝ) {j : ℕ} {v : ℝ} := C21_drift_uk3d (j := j) (e := v) (U3_ok fun i => a + b * x4 i + c * y4 i + d * z4 i) rfl (by simp [uany3]) a [b, c, d] (fun i => by
  obtain ⟨s, h1, -, h2, -⟩ := uany3_ok (n := 4) (by norm_num) (fun i => a + b * x4 i + c * y4 i + d * z4 i) sph_valid sph_grows inj4' space4
  rw [U3_ok] at h1
  cases h1
  simp [driftTerms3, uany3, h2, combination]
  ring) (Q3_ok _ good_gridU3)

/-! C24 -/
example (z : Fin 2 → ℝ) (c : ℝ) : ∃ (s : UK 2) (r : ExecResult), UK.create stdEnv X O z sargs = .ok s ∧
    s.execute (scall [c, c, c] "vectorized") = .ok r ∧ s.execute (scall [c, c, c] "loop") = .ok r := by
  obtain ⟨s, h, -⟩ := suk z
  obtain ⟨r, hr⟩ := suk_run h (v := [c, c, c]) rfl (.inl rfl)
  obtain ⟨r', hr'⟩ := suk_run h (v := [c, c, c]) rfl (.inr rfl)
  have := C24_constant_uk_partial h (by simp [sargs]) (ea := scall [c, c, c] "loop") (fun j j' p p' hj hj' => by
    have hlt : ∀ {j : ℕ} {p : ℝ × ℝ}, queryAt (scall [c, c, c] "loop").toExec j = some p → j < 3 := fun {j p} hj => by
      by_contra hc
      have : ([2, 3, 4] : List ℝ)[j]? = none := by simp; omega
      simp [queryAt, scall, pts, this] at hj
    have h3 : ∀ j < 3, specAtQuery (scall [c, c, c] "loop") j = [c] := fun j hj => by
      interval_cases j <;> simp [specAtQuery, scall, specEntry, pts]
    rw [h3 _ (hlt hj), h3 _ (hlt hj')]) hr' hr
  exact ⟨s, r, h, hr, this ▸ hr'⟩
example (z : Fin 2 → ℝ) (c : ℝ) (r : ExecResult) : ∃ s : UK 2, UK.create stdEnv X O z sargs = .ok s ∧
    s.execute { toExec := pts [(2, 0), (3, 0)] "loop", spec := .list [.d1 [c, c]] } ≠ .ok r := by
  obtain ⟨s, h, -⟩ := suk z
  exact ⟨s, h, C24_loop_fails_uk h (by simp [sargs]) rfl (by simp [queryAt, pts]) ⟨0, (2, 0), by simp [queryAt, pts], rfl⟩ r⟩
example (z : Fin 2 → ℝ) (a b c : ℝ) : ∃ (s : UK 2) (r : ExecResult), UK.create stdEnv X O z sargs = .ok s ∧
    s.execute (scall [a, b, c] "loop") = .ok r ∧ s.execute (scall [c, c, c] "vectorized") = .ok r := by
  obtain ⟨s, h, -⟩ := suk z
  obtain ⟨r, hr⟩ := suk_run h (v := [c, c, c]) rfl (.inl rfl)
  obtain ⟨r', hr'⟩ := suk_run h (v := [a, b, c]) rfl (.inr rfl)
  have := C24_loop_reads_rows_uk h (by simp [sargs]) (ea := scall [a, b, c] "loop") (ea' := scall [c, c, c] "vectorized") rfl rfl (fun j p hj _ l hl => by
    have hj3 : j < 3 := by
      by_contra hc
      have : ([2, 3, 4] : List ℝ)[j]? = none := by simp; omega
      simp [queryAt, scall, pts, this] at hj
    have hl0 : l = 0 := by
      by_contra hc
      refine hl ?_
      have : ([2, 3, 4] : List ℝ)[2 + l]? = none := by simp; omega
      simp [queryAt, scall, pts, firstUKRow, sargs, this]
    subst hl0
    interval_cases j <;> simp [specAtQuery, scall, firstUKRow, sargs, specEntry, pts]) hr' hr
  exact ⟨s, r', h, hr', this ▸ hr⟩

end
end PyKrige.Demo
