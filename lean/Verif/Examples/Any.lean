import Verif.Props.C29

/-!
Any data at different places, any built-in variogram that grows: the constructors and `execute` succeed.  Source of
examples.
-/

set_option linter.unusedSectionVars false

namespace PyKrige
noncomputable section
open Spec

theorem anisoDist2_eq_zero {sc : ℝ} (hsc : sc ≠ 0) (an : ℝ) {p q : ℝ × ℝ} (h : anisoDist2 sc an p q = 0) : p = q := by
  unfold anisoDist2 at h
  dsimp only at h
  rw [Real.sqrt_eq_zero (by positivity)] at h
  have h1 : Real.cos (rad an) * (p.1 - q.1) + Real.sin (rad an) * (p.2 - q.2) = 0 := by
    nlinarith [sq_nonneg (Real.cos (rad an) * (p.1 - q.1) + Real.sin (rad an) * (p.2 - q.2)),
      sq_nonneg (sc * (-Real.sin (rad an) * (p.1 - q.1) + Real.cos (rad an) * (p.2 - q.2)))]
  have h2 : -Real.sin (rad an) * (p.1 - q.1) + Real.cos (rad an) * (p.2 - q.2) = 0 := by
    have : sc * (-Real.sin (rad an) * (p.1 - q.1) + Real.cos (rad an) * (p.2 - q.2)) = 0 := by
      rw [h1] at h
      exact pow_eq_zero_iff (n := 2) (by norm_num) |>.1 (by linarith)
    exact (mul_eq_zero.1 this).resolve_left hsc
  have hc := Real.sin_sq_add_cos_sq (rad an)
  have e1 : p.1 - q.1 = 0 := by
    linear_combination Real.cos (rad an) * h1 - Real.sin (rad an) * h2 - (p.1 - q.1) * hc
  have e2 : p.2 - q.2 = 0 := by
    linear_combination Real.sin (rad an) * h1 + Real.cos (rad an) * h2 - (p.2 - q.2) * hc
  exact Prod.ext (by linarith) (by linarith)

theorem distance3_eq_zero {p q : ℝ × ℝ × ℝ} (h : distance3 {} p q = 0) : p = q := by
  unfold distance3 at h
  simp only [rotX, rotY, rotZ, rad, zero_mul, zero_div, Real.cos_zero, Real.sin_zero, one_mul, add_zero,
    sub_zero, neg_zero, zero_add] at h
  rw [Real.sqrt_eq_zero (by positivity)] at h
  have h1 := sq_nonneg (p - q).1
  have h2 := sq_nonneg (p - q).2.1
  have h3 := sq_nonneg (p - q).2.2
  have e1 : (p - q).1 = 0 := pow_eq_zero_iff (n := 2) (by norm_num) |>.1 (by linarith)
  have e2 : (p - q).2.1 = 0 := pow_eq_zero_iff (n := 2) (by norm_num) |>.1 (by linarith)
  have e3 : (p - q).2.2 = 0 := pow_eq_zero_iff (n := 2) (by norm_num) |>.1 (by linarith)
  have : p - q = 0 := Prod.ext e1 (Prod.ext e2 e3)
  exact sub_eq_zero.1 this

namespace Demo

/-- Constructor arguments: a built-in model with parameters, everything else as by default. -/
def any (m : String) (l : List ℝ) : OKArgs := { variogramModel := .name m, params := .list l }
def any3 (m : String) (l : List ℝ) : OK3DArgs := { variogramModel := .name m, params := .list l }
/-- With regional linear drift. -/
def uany (m : String) (l : List ℝ) : UKArgs :=
  { variogramModel := .name m, params := .list l, driftTerms := ["regional_linear"] }
def uany3 (m : String) (l : List ℝ) : UK3DArgs :=
  { variogramModel := .name m, params := .list l, driftTerms := ["regional_linear"] }

section
variable {n : ℕ} (hn : 2 ≤ n) {x y : Fin n → ℝ} (z : Fin n → ℝ) {m : String} {l : List ℝ}
  (hv : ValidModel m (listMeaning m l)) (hg : Growing (listMeaning m l))
include hn hv hg

theorem any_ok (hd : Function.Injective fun i => (x i, y i)) :
    ∃ s, OK.create stdEnv x y z (any m l) = .ok s ∧ s.params = listMeaning m l ∧
      (∀ nc, WindowFits n nc → Admissible stdEnv (any m l) s nc) ∧
      ∀ ea : ExecArgs, WellPosed ea → WindowOk ea.nClosest → WindowFits n ea.nClosest → HasFloats ea →
        Supports stdEnv (any m l) ea.nClosest ea.backend → ∃ r, s.execute stdEnv ea = .ok r := by
  have hs : Separates (listMeaning m l) fun i j => okDistance (any m l) (x i, y i) (x j, y j) := .inl ⟨hg, fun i j hij h0 => by
    refine hij (hd (anisoDist2_eq_zero (sc := 1) one_ne_zero 0 ?_))
    simpa [okDistance, distance2, any, effScaling, effAngle] using h0⟩
  obtain ⟨s, h, hp⟩ := C29_create_2d stdEnv hn x y z (any m l) (by simp [any]) rfl rfl rfl rfl hv hs
  have hfun := OK.create_function h (m := m) rfl
  obtain ⟨hb, -, -, γ, hγ, -⟩ := hv.builtin
  obtain ⟨-, hname⟩ := chosen_evaluates hγ hb hfun
  have ha : ∀ nc, WindowFits n nc → Admissible stdEnv (any m l) s nc := fun nc hnc =>
    ⟨stdEnv_knn, trivial, by rw [hp, hname]; exact hv.rangeOk, hnc⟩
  refine ⟨s, h, hp, ha, fun ea h1 h2 h3 h4 h5 => C29_execute_2d h rfl rfl (hp ▸ hv) (hp ▸ hs) (ha _ h3) h1 h2 h4 h5⟩

end

section
variable {n : ℕ} (hn : 2 ≤ n) {x y z : Fin n → ℝ} (v : Fin n → ℝ) {m : String} {l : List ℝ}
  (hv : ValidModel m (listMeaning m l)) (hg : Growing (listMeaning m l))
include hn hv hg

theorem any3_ok (hd : Function.Injective fun i => (x i, y i, z i)) :
    ∃ s, OK3D.create stdEnv x y z v (any3 m l) = .ok s ∧ s.params = listMeaning m l ∧
      ∀ ea : ExecArgs3, WellPosed3 ea → WindowOk ea.nClosest → WindowFits n ea.nClosest → HasFloats3 ea →
        (ea.backend = "loop" ∨ (ea.nClosest = none ∧ ea.backend = "vectorized")) → ∃ r, s.execute stdEnv ea = .ok r := by
  have hs : Separates (listMeaning m l) fun i j => ok3Distance (any3 m l) (x i, y i, z i) (x j, y j, z j) :=
    .inl ⟨hg, fun i j hij h0 => hij (hd (distance3_eq_zero h0))⟩
  obtain ⟨s, h, hp⟩ := C29_create_3d stdEnv hn x y z v (any3 m l) (by simp [any3]) rfl rfl rfl hv hs
  exact ⟨s, h, hp, fun ea h1 h2 h3 h4 h5 => C29_execute_3d h rfl (hp ▸ hv) (hp ▸ hs) stdEnv_knn h3 h1 h2 h4 h5⟩

end

/-- The data do not lie on one line. -/
def Plane {n : ℕ} (x y : Fin n → ℝ) : Prop := ∀ a b c : ℝ, (∀ i, a * x i + b * y i + c = 0) → a = 0 ∧ b = 0 ∧ c = 0

/-- The data do not lie in one plane. -/
def Space {n : ℕ} (x y z : Fin n → ℝ) : Prop :=
  ∀ a b c d : ℝ, (∀ i, a * x i + b * y i + c * z i + d = 0) → a = 0 ∧ b = 0 ∧ c = 0 ∧ d = 0

section
variable {n : ℕ} (hn : 2 ≤ n) {x y : Fin n → ℝ} (z : Fin n → ℝ) {m : String} {l : List ℝ}
  (hv : ValidModel m (listMeaning m l)) (hg : Growing (listMeaning m l))
include hn hv hg

theorem uany_ok (hd : Function.Injective fun i => (x i, y i)) (hp : Plane x y) :
    ∃ s, UK.create stdEnv x y z (uany m l) = .ok s ∧ s.params = listMeaning m l ∧
      (∀ p, s.adjustPoint p = ![p.1, p.2]) ∧
      ∀ ea : UKExecArgs, WellPosed ea.toExec → HasFloats ea.toExec →
        (ea.toExec.backend = "vectorized" ∨ ea.toExec.backend = "loop") → ∃ r, s.execute ea = .ok r := by
  have hs : Separates (listMeaning m l) fun i j => ukDistance (uany m l) (x i, y i) (x j, y j) :=
    .inl ⟨hg, fun i j hij h0 => hij (hd (anisoDist2_eq_zero (sc := 1) one_ne_zero 0 h0))⟩
  obtain ⟨s, h, hps⟩ := C29_create_uk stdEnv hn x y z (uany m l) (by simp [uany]) rfl rfl rfl hv hs
    (fun i hc => by simp [uany] at hc) (fun hc => by simp [uany] at hc) (fun hc => by simp [uany] at hc)
    (fun hc => by simp [uany] at hc)
  have hadj : ∀ p, s.adjustPoint p = ![p.1, p.2] := fun p => by
    obtain ⟨e1, e2⟩ := UK.create_aniso h
    rw [UK.adjustPoint, e1, e2]
    exact adjust2_id _ _
  refine ⟨s, h, hps, hadj, fun ea h1 h2 h3 => C29_execute_uk h rfl (hps ▸ hv) (hps ▸ hs) (.inr ?_) h1 h2
    (fun hc => by simp [uany] at hc) (h3.imp id fun h => ⟨h, by simp [uany], fun j p _ _ hc => by simp [AtWell, uany] at hc⟩)
    (fun j p _ _ hc => by simp [uany] at hc)⟩
  intro a b hi
  obtain ⟨h1, h2, h3⟩ := hp (a 0) (a 1) b fun i => by
    have := hi i
    simpa [driftTerms2, uany, hadj, Finset.sum_range_succ] using this
  refine ⟨fun i k hk => ?_, h3⟩
  have hk : k < 2 := by simpa [driftTerms2, uany] using hk
  interval_cases k
  · exact h1
  · exact h2

end

section
variable {n : ℕ} (hn : 2 ≤ n) {x y z : Fin n → ℝ} (v : Fin n → ℝ) {m : String} {l : List ℝ}
  (hv : ValidModel m (listMeaning m l)) (hg : Growing (listMeaning m l))
include hn hv hg

theorem uany3_ok (hd : Function.Injective fun i => (x i, y i, z i)) (hp : Space x y z) :
    ∃ s, UK3D.create stdEnv x y z v (uany3 m l) = .ok s ∧ s.params = listMeaning m l ∧
      (∀ p, s.adjustPoint p = ![p.1, p.2.1, p.2.2]) ∧
      ∀ ea : UK3DExecArgs, WellPosed3 ea.toExec → HasFloats3 ea.toExec →
        (ea.toExec.backend = "vectorized" ∨ ea.toExec.backend = "loop") → ∃ r, s.execute ea = .ok r := by
  have hs : Separates (listMeaning m l) fun i j => uk3Distance (uany3 m l) (x i, y i, z i) (x j, y j, z j) :=
    .inl ⟨hg, fun i j hij h0 => hij (hd (distance3_eq_zero h0))⟩
  obtain ⟨s, h, hps⟩ := C29_create_uk3d stdEnv hn x y z v (uany3 m l) (by simp [uany3]) rfl rfl rfl hv hs
    (fun hc => by simp [uany3] at hc) (fun hc => by simp [uany3] at hc)
  have hadj : ∀ p, s.adjustPoint p = ![p.1, p.2.1, p.2.2] := fun p => by
    have e1 := UK3D.create_aniso h
    rw [UK3D.adjustPoint, e1]
    exact adjust3_id _ _
  refine ⟨s, h, hps, hadj, fun ea h1 h2 h3 => C29_execute_uk3d h rfl (hps ▸ hv) (hps ▸ hs) (.inr ?_) h1 h2
    (fun hc => by simp [uany3] at hc) (h3.imp id fun h => ⟨h, by simp [uany3]⟩)⟩
  intro a b hi
  obtain ⟨h1, h2, h3, h4⟩ := hp (a 0) (a 1) (a 2) b fun i => by
    have := hi i
    simpa [driftTerms3, uany3, hadj, Finset.sum_range_succ] using this
  refine ⟨fun i k hk => ?_, h4⟩
  have hk : k < 3 := by simpa [driftTerms3, uany3] using hk
  interval_cases k
  · exact h1
  · exact h2
  · exact h3

end
end Demo
end
end PyKrige
