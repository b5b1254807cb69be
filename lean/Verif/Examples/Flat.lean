import Verif.Examples.Any

/-!
With a positive nugget the four classes can be used on any data, also on several data at one place: what
`Verif/Examples/Any.lean` says for different places.
-/

namespace PyKrige
noncomputable section
open Spec

namespace Demo

section
variable {n : ℕ} (hn : 2 ≤ n) {x y : Fin n → ℝ} (z : Fin n → ℝ) {m : String} {l : List ℝ}
  (hv : ValidModel m (listMeaning m l)) (hg : PositiveNugget (listMeaning m l))
include hn hv hg

theorem nug_ok :
    ∃ s, OK.create stdEnv x y z (any m l) = .ok s ∧ s.params = listMeaning m l ∧
      (∀ nc, WindowFits n nc → Admissible stdEnv (any m l) s nc) ∧
      ∀ ea : ExecArgs, WellPosed ea → WindowOk ea.nClosest → WindowFits n ea.nClosest → HasFloats ea →
        Supports stdEnv (any m l) ea.nClosest ea.backend → ∃ r, s.execute stdEnv ea = .ok r := by
  have hs : Separates (listMeaning m l) fun i j => okDistance (any m l) (x i, y i) (x j, y j) := .inr hg
  obtain ⟨s, h, hp⟩ := C29_create_2d stdEnv hn x y z (any m l) (by simp [any]) rfl rfl rfl rfl hv hs
  have hfun := OK.create_function h (m := m) rfl
  obtain ⟨hb, -, -, γ, hγ, -⟩ := hv.builtin
  obtain ⟨-, hname⟩ := chosen_evaluates hγ hb hfun
  have ha : ∀ nc, WindowFits n nc → Admissible stdEnv (any m l) s nc := fun nc hnc =>
    ⟨stdEnv_knn, trivial, by rw [hp, hname]; exact hv.rangeOk, hnc⟩
  refine ⟨s, h, hp, ha, fun ea h1 h2 h3 h4 h5 => C29_execute_2d h rfl rfl (hp ▸ hv) (hp ▸ hs) (ha _ h3) h1 h2 h4 h5⟩

end

section
variable {n : ℕ} (hn : 2 ≤ n) {x y z : Fin n → ℝ} (v : Fin n → ℝ) {m : String} {l : List ℝ}
  (hv : ValidModel m (listMeaning m l)) (hg : PositiveNugget (listMeaning m l))
include hn hv hg

theorem nug3_ok :
    ∃ s, OK3D.create stdEnv x y z v (any3 m l) = .ok s ∧ s.params = listMeaning m l ∧
      ∀ ea : ExecArgs3, WellPosed3 ea → WindowOk ea.nClosest → WindowFits n ea.nClosest → HasFloats3 ea →
        (ea.backend = "loop" ∨ (ea.nClosest = none ∧ ea.backend = "vectorized")) → ∃ r, s.execute stdEnv ea = .ok r := by
  have hs : Separates (listMeaning m l) fun i j => ok3Distance (any3 m l) (x i, y i, z i) (x j, y j, z j) :=
    .inr hg
  obtain ⟨s, h, hp⟩ := C29_create_3d stdEnv hn x y z v (any3 m l) (by simp [any3]) rfl rfl rfl hv hs
  exact ⟨s, h, hp, fun ea h1 h2 h3 h4 h5 => C29_execute_3d h rfl (hp ▸ hv) (hp ▸ hs) stdEnv_knn h3 h1 h2 h4 h5⟩

end


section
variable {n : ℕ} (hn : 2 ≤ n) {x y : Fin n → ℝ} (z : Fin n → ℝ) {m : String} {l : List ℝ}
  (hv : ValidModel m (listMeaning m l)) (hg : PositiveNugget (listMeaning m l))
include hn hv hg

theorem unug_ok (hp : Plane x y) :
    ∃ s, UK.create stdEnv x y z (uany m l) = .ok s ∧ s.params = listMeaning m l ∧
      (∀ p, s.adjustPoint p = ![p.1, p.2]) ∧
      ∀ ea : UKExecArgs, WellPosed ea.toExec → HasFloats ea.toExec →
        (ea.toExec.backend = "vectorized" ∨ ea.toExec.backend = "loop") → ∃ r, s.execute ea = .ok r := by
  have hs : Separates (listMeaning m l) fun i j => ukDistance (uany m l) (x i, y i) (x j, y j) :=
    .inr hg
  obtain ⟨s, h, hps⟩ := C29_create_uk stdEnv hn x y z (uany m l) (by simp [uany]) rfl rfl rfl hv hs
    (fun i hc => by simp [uany] at hc) (fun hc => by simp [uany] at hc) (fun hc => by simp [uany] at hc)
    (fun hc => by simp [uany] at hc)
  have hadj : ∀ p, s.adjustPoint p = ![p.1, p.2] := fun p => by
    obtain ⟨e1, e2⟩ := UK.create_aniso h
    rw [UK.adjustPoint, e1, e2]
    exact adjust2_id _ _
  refine ⟨s, h, hps, hadj, fun ea h1 h2 h3 => C29_execute_uk h rfl (hps ▸ hv) (hps ▸ hs) (.inr ?_) h1 h2
    (fun hc => by simp [uany] at hc) (h3.imp id fun h => ⟨h, by simp [uany], fun j p _ _ hc => by simp [AtWell, uany] at hc⟩)
    (fun j p _ _ hc => by simp [uany] at hc)⟩
  intro a b hi
  obtain ⟨h1, h2, h3⟩ := hp (a 0) (a 1) b fun i => by
    have := hi i
    simpa [driftTerms2, uany, hadj, Finset.sum_range_succ] using this
  refine ⟨fun i k hk => ?_, h3⟩
  have hk : k < 2 := by simpa [driftTerms2, uany] using hk
  interval_cases k
  · exact h1
  · exact h2

end

section
variable {n : ℕ} (hn : 2 ≤ n) {x y z : Fin n → ℝ} (v : Fin n → ℝ) {m : String} {l : List ℝ}
  (hv : ValidModel m (listMeaning m l)) (hg : PositiveNugget (listMeaning m l))
include hn hv hg

theorem unug3_ok (hp : Space x y z) :
    ∃ s, UK3D.create stdEnv x y z v (uany3 m l) = .ok s ∧ s.params = listMeaning m l ∧
      (∀ p, s.adjustPoint p = ![p.1, p.2.1, p.2.2]) ∧
      ∀ ea : UK3DExecArgs, WellPosed3 ea.toExec → HasFloats3 ea.toExec →
        (ea.toExec.backend = "vectorized" ∨ ea.toExec.backend = "loop") → ∃ r, s.execute ea = .ok r := by
  have hs : Separates (listMeaning m l) fun i j => uk3Distance (uany3 m l) (x i, y i, z i) (x j, y j, z j) :=
    .inr hg
  obtain ⟨s, h, hps⟩ := C29_create_uk3d stdEnv hn x y z v (uany3 m l) (by simp [uany3]) rfl rfl rfl hv hs
    (fun hc => by simp [uany3] at hc) (fun hc => by simp [uany3] at hc)
  have hadj : ∀ p, s.adjustPoint p = ![p.1, p.2.1, p.2.2] := fun p => by
    have e1 := UK3D.create_aniso h
    rw [UK3D.adjustPoint, e1]
    exact adjust3_id _ _
  refine ⟨s, h, hps, hadj, fun ea h1 h2 h3 => C29_execute_uk3d h rfl (hps ▸ hv) (hps ▸ hs) (.inr ?_) h1 h2
    (fun hc => by simp [uany3] at hc) (h3.imp id fun h => ⟨h, by simp [uany3]⟩)⟩
  intro a b hi
  obtain ⟨h1, h2, h3, h4⟩ := hp (a 0) (a 1) (a 2) b fun i => by
    have := hi i
    simpa [driftTerms3, uany3, hadj, Finset.sum_range_succ] using this
  refine ⟨fun i k hk => ?_, h4⟩
  have hk : k < 3 := by simpa [driftTerms3, uany3] using hk
  interval_cases k
  · exact h1
  · exact h2
  · exact h3

end
end Demo
end
end PyKrige
