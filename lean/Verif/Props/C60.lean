import Verif.Props.C47Unique
import Verif.Props.C30
import Verif.Props.C49
import Verif.Examples.More

/-!
# C60: along a profile, the linear variogram interpolates linearly

If all data and the query point lie on one line (in the distances in use: a straight line with any anisotropy, or an arc of
a great circle) and the variogram is linear without nugget, ordinary kriging is linear interpolation between the two
neighbouring data, and beyond the last datum the value of that datum. The variance is `2 b (τ - t₀) (t₁ - τ) / (t₁ - t₀)`
between data and `2 b` times the distance beyond the last.
-/

set_option linter.unusedSectionVars false

namespace PyKrige
noncomputable section
open Matrix Spec

/-- `P` and `p` lie on a line, at the positions `t` and `τ`: distances are differences of positions. -/
def Spec.Profile {ι α : Type} (dist : α → α → ℝ) (P : ι → α) (t : ι → ℝ) (p : α) (τ : ℝ) : Prop :=
  (∀ i k, dist (P i) (P k) = |t i - t k|) ∧ ∀ i, dist p (P i) = |τ - t i|

/-- With `exact_values`, a query that is not at a datum is more than `1e-10` away from it. -/
def Spec.AtOrAway {ι : Type} (exact : Bool) (d : ι → ℝ) : Prop := exact = true → ∀ i, d i = 0 ∨ 1 / 10 ^ 10 < d i

/-- `i₀` and `i₁` are neighbours: `i₀` before `i₁`, and none of the others in between. -/
def Spec.Neighbours {ι : Type} (t : ι → ℝ) (S : Set ι) (i₀ i₁ : ι) : Prop :=
  i₀ ∈ S ∧ i₁ ∈ S ∧ t i₀ < t i₁ ∧ ∀ i ∈ S, t i ≤ t i₀ ∨ t i₁ ≤ t i

/-- What should come out at `τ`: estimate and variance. -/
def Spec.LinearProfile {ι : Type} (b : ℝ) (t : ι → ℝ) (S : Set ι) (z : ι → ℝ) (τ est var : ℝ) : Prop :=
  (∀ i₀ i₁, Neighbours t S i₀ i₁ → t i₀ ≤ τ → τ ≤ t i₁ →
    est = ((t i₁ - τ) * z i₀ + (τ - t i₀) * z i₁) / (t i₁ - t i₀) ∧
    var = 2 * b * ((τ - t i₀) * (t i₁ - τ) / (t i₁ - t i₀))) ∧
  (∀ i₁ ∈ S, (∀ i ∈ S, t i ≤ t i₁) → t i₁ ≤ τ → est = z i₁ ∧ var = 2 * b * (τ - t i₁)) ∧
  (∀ i₀ ∈ S, (∀ i ∈ S, t i₀ ≤ t i) → τ ≤ t i₀ → est = z i₀ ∧ var = 2 * b * (t i₀ - τ))

section
variable {ι : Type} [Fintype ι] {α : Type} {dist : α → α → ℝ} {P : ι → α} {t : ι → ℝ} {p : α} {τ b : ℝ} {γ : ℝ → ℝ}
  {exact : Bool}

theorem Spec.Profile.semivar (h : Profile dist P t p τ) (hb : ∀ d, 0 ≤ d → γ d = b * d) (i k : ι) :
    semivar γ (fun i k => dist (P i) (P k)) i k = b * |t i - t k| := by
  unfold Spec.semivar
  split
  · next e => rw [e]; simp
  · dsimp only
    rw [h.1, hb _ (abs_nonneg _)]

theorem Spec.Profile.semivarTo (h : Profile dist P t p τ) (hb : ∀ d, 0 ≤ d → γ d = b * d)
    (hc : AtOrAway exact fun i => dist p (P i)) (i : ι) :
    semivarTo exact γ (fun i => dist p (P i)) i = b * |τ - t i| := by
  unfold Spec.semivarTo
  split
  · next e =>
    rcases hc e.1 i with h0 | h0
    · dsimp only at h0
      rw [← h.2, h0, mul_zero]
    · exact absurd e.2 (not_le.2 h0)
  · dsimp only
    rw [h.2, hb _ (abs_nonneg _)]

open Classical in
/-- The weights between two neighbours. -/
theorem Spec.Profile.between (h : Profile dist P t p τ) (hb : ∀ d, 0 ≤ d → γ d = b * d)
    (hc : AtOrAway exact fun i => dist p (P i)) {i₀ i₁ : ι} (hlt : t i₀ < t i₁) (hn : ∀ i, t i ≤ t i₀ ∨ t i₁ ≤ t i)
    (h0 : t i₀ ≤ τ) (h1 : τ ≤ t i₁) :
    OKEqs (Spec.semivar γ fun i k => dist (P i) (P k)) (Spec.semivarTo exact γ fun i => dist p (P i))
      (Pi.single i₀ ((t i₁ - τ) / (t i₁ - t i₀)) + Pi.single i₁ ((τ - t i₀) / (t i₁ - t i₀))) 0 := by
  have hh : t i₁ - t i₀ ≠ 0 := by linarith
  refine ⟨fun i => ?_, fun l => l.elim0, ?_⟩
  · rw [h.semivarTo hb hc]
    simp only [h.semivar hb, Pi.add_apply, mul_add, Finset.sum_add_distrib, Pi.single_apply, mul_ite, mul_zero,
      Finset.sum_ite_eq', Finset.mem_univ, if_true, Finset.univ_eq_empty, Finset.sum_empty, sub_zero]
    rcases hn i with hi | hi
    · rw [abs_of_nonpos (by linarith), abs_of_nonpos (by linarith), abs_of_nonneg (by linarith)]
      field_simp; ring
    · rw [abs_of_nonneg (by linarith), abs_of_nonneg (by linarith), abs_of_nonpos (by linarith)]
      field_simp; ring
  · simp only [Pi.add_apply, Finset.sum_add_distrib, Finset.sum_pi_single', Finset.mem_univ, if_true]
    field_simp; ring

open Classical in
/-- The weights beyond the last datum. -/
theorem Spec.Profile.beyond (h : Profile dist P t p τ) (hb : ∀ d, 0 ≤ d → γ d = b * d)
    (hc : AtOrAway exact fun i => dist p (P i)) {i₁ : ι} (hmax : ∀ i, t i ≤ t i₁) (h1 : t i₁ ≤ τ) :
    OKEqs (Spec.semivar γ fun i k => dist (P i) (P k)) (Spec.semivarTo exact γ fun i => dist p (P i))
      (Pi.single i₁ 1) (-(b * (τ - t i₁))) := by
  refine ⟨fun i => ?_, fun l => l.elim0, ?_⟩
  · rw [h.semivarTo hb hc]
    simp only [h.semivar hb, Pi.single_apply, mul_ite, mul_zero, mul_one,
      Finset.sum_ite_eq', Finset.mem_univ, if_true, Finset.univ_eq_empty, Finset.sum_empty, sub_zero]
    have := hmax i
    rw [abs_of_nonpos (by linarith), abs_of_nonneg (by linarith)]
    ring
  · simp

theorem Spec.Profile.neg (h : Profile dist P t p τ) : Profile dist P (fun i => -t i) p (-τ) :=
  ⟨fun i k => by rw [h.1, ← abs_neg]; congr 1; ring, fun i => by rw [h.2, ← abs_neg]; congr 1; ring⟩

/-- Any function of the data that gives, for every solution of the equations, its estimate and variance. -/
theorem Spec.Profile.linear (h : Profile dist P t p τ) (hb : ∀ d, 0 ≤ d → γ d = b * d)
    (hc : AtOrAway exact fun i => dist p (P i)) {z : ι → ℝ} {est var : ℝ}
    (hu : ∀ w μ, OKEqs (Spec.semivar γ fun i k => dist (P i) (P k)) (Spec.semivarTo exact γ fun i => dist p (P i)) w μ →
      est = estimate w z ∧ var = okVariance (Spec.semivarTo exact γ fun i => dist p (P i)) w μ) :
    LinearProfile b t Set.univ z τ est var := by
  classical
  refine ⟨?_, ?_, ?_⟩
  · rintro i₀ i₁ ⟨-, -, hlt, hn⟩ h0 h1
    have hh : t i₁ - t i₀ ≠ 0 := by linarith
    obtain ⟨e1, e2⟩ := hu _ _ (h.between hb hc hlt (fun i => hn i (Set.mem_univ i)) h0 h1)
    rw [e1, e2]
    unfold estimate okVariance krigingVariance
    simp only [h.semivarTo hb hc, Pi.add_apply, add_mul, Finset.sum_add_distrib, Pi.single_apply, ite_mul, zero_mul,
      Finset.sum_ite_eq', Finset.mem_univ, if_true, Finset.univ_eq_empty, Finset.sum_empty, sub_zero]
    rw [abs_of_nonneg (by linarith), abs_of_nonpos (by linarith)]
    constructor <;> (field_simp; try ring)
  · intro i₁ _ hmax h1
    obtain ⟨e1, e2⟩ := hu _ _ (h.beyond hb hc (fun i => hmax i (Set.mem_univ i)) h1)
    rw [e1, e2]
    unfold estimate okVariance krigingVariance
    simp only [h.semivarTo hb hc, Pi.single_apply, ite_mul, zero_mul, one_mul,
      Finset.sum_ite_eq', Finset.mem_univ, if_true, Finset.univ_eq_empty, Finset.sum_empty, sub_zero]
    rw [abs_of_nonneg (by linarith)]
    exact ⟨trivial, by ring⟩
  · intro i₀ _ hmin h0
    obtain ⟨e1, e2⟩ := hu _ _ (h.neg.beyond hb hc (i₁ := i₀) (fun i => neg_le_neg (hmin i (Set.mem_univ i))) (neg_le_neg h0))
    rw [e1, e2]
    unfold estimate okVariance krigingVariance
    simp only [h.semivarTo hb hc, Pi.single_apply, ite_mul, zero_mul, one_mul,
      Finset.sum_ite_eq', Finset.mem_univ, if_true, Finset.univ_eq_empty, Finset.sum_empty, sub_zero]
    rw [abs_of_nonpos (by linarith)]
    exact ⟨trivial, by ring⟩

/-- From a selection to the selected set. -/
theorem Spec.LinearProfile.image {κ : Type} {sel : κ → ι} {t z : ι → ℝ} {est var : ℝ}
    (h : LinearProfile b (fun k => t (sel k)) Set.univ (fun k => z (sel k)) τ est var) :
    LinearProfile b t (Set.range sel) z τ est var := by
  obtain ⟨h1, h2, h3⟩ := h
  refine ⟨?_, ?_, ?_⟩
  · rintro _ _ ⟨⟨k₀, rfl⟩, ⟨k₁, rfl⟩, hlt, hn⟩
    exact h1 k₀ k₁ ⟨Set.mem_univ _, Set.mem_univ _, hlt, fun i _ => hn _ ⟨i, rfl⟩⟩
  · rintro _ ⟨k₁, rfl⟩ hmax
    exact h2 k₁ (Set.mem_univ _) fun i _ => hmax _ ⟨i, rfl⟩
  · rintro _ ⟨k₁, rfl⟩ hmax
    exact h3 k₁ (Set.mem_univ _) fun i _ => hmax _ ⟨i, rfl⟩

end

/-! ### Which sets of points are profiles -/

/-- A straight line in the plane, with any anisotropy. -/
theorem C60_line_2d {n : ℕ} {args : OKArgs} (he : args.coordinatesType = "euclidean") {x y t : Fin n → ℝ} {a u : ℝ × ℝ} {p : ℝ × ℝ} {τ : ℝ}
    (hx : ∀ i, (x i, y i) = a + t i • u) (hp : p = a + τ • u) :
    Profile (okDistance args) (fun i => (x i, y i)) (fun i => okDistance args u 0 * t i) p (okDistance args u 0 * τ) := by
  have key : ∀ c c' : ℝ, okDistance args (a + c • u) (a + c' • u) = |okDistance args u 0 * c - okDistance args u 0 * c'| := by
    intro c c'
    rw [← mul_sub, abs_mul, abs_of_nonneg (okDistance_nonneg args u 0), ← Real.sqrt_sq_eq_abs]
    unfold okDistance distance2 anisoDist2
    rw [if_pos he, if_pos he, ← Real.sqrt_mul (by positivity)]
    simp
    ring_nf
  exact ⟨fun i k => by dsimp only; rw [hx, hx, key], fun i => by dsimp only; rw [hx, hp, key]⟩

/-- A straight line in space. -/
theorem C60_line_3d {n : ℕ} {args : OK3DArgs} {x y z t : Fin n → ℝ} {a u : ℝ × ℝ × ℝ} {p : ℝ × ℝ × ℝ} {τ : ℝ}
    (hx : ∀ i, (x i, y i, z i) = a + t i • u) (hp : p = a + τ • u) :
    Profile (ok3Distance args) (fun i => (x i, y i, z i)) (fun i => ok3Distance args u 0 * t i) p (ok3Distance args u 0 * τ) := by
  have key : ∀ c c' : ℝ, ok3Distance args (a + c • u) (a + c' • u) = |ok3Distance args u 0 * c - ok3Distance args u 0 * c'| := by
    intro c c'
    rw [← mul_sub, abs_mul, abs_of_nonneg (show 0 ≤ ok3Distance args u 0 from Real.sqrt_nonneg _), ← Real.sqrt_sq_eq_abs]
    unfold ok3Distance distance3 rotX rotY rotZ
    rw [← Real.sqrt_mul (by positivity)]
    simp
    ring_nf
  exact ⟨fun i k => by dsimp only; rw [hx, hx, key], fun i => by dsimp only; rw [hx, hp, key]⟩

/-- A meridian: with geographic coordinates, points of one longitude. -/
theorem C60_meridian {n : ℕ} {args : OKArgs} (he : args.coordinatesType ≠ "euclidean") {x y : Fin n → ℝ} {p : ℝ × ℝ}
    (hx : ∀ i, x i = p.1) (hy : ∀ i, |y i| ≤ 90) (hp : |p.2| ≤ 90) :
    Profile (okDistance args) (fun i => (x i, y i)) y p p.2 := by
  have e : ∀ lat lat' : ℝ, |lat| ≤ 90 → |lat'| ≤ 90 → okDistance args (p.1, lat) (p.1, lat') = |lat - lat'| := by
    intro lat lat' h1 h2
    rw [← C30_meridian p.1 lat lat' h1 h2, C30_angle]
    unfold okDistance distance2
    rw [if_neg he]
    rfl
  exact ⟨fun i k => by dsimp only; rw [hx, hx, e _ _ (hy i) (hy k)], fun i => by dsimp only; rw [hx]; exact e _ _ hp (hy i)⟩

/-! ### What `execute` returns on a profile -/

/-- `OrdinaryKriging`, any variogram that is linear with slope `b` and without nugget, all data. -/
theorem C60_profile_2d {n : ℕ} {env : Env} {x y z : Fin n → ℝ} {args : OKArgs} {s : OK n}
    (h : OK.create env x y z args = .ok s) {ea : ExecArgs} (ha : Admissible env args s ea.nClosest)
    (hw : ea.nClosest = none) (hp : args.pseudoInv = false) {b : ℝ} {γ : ℝ → ℝ} (hγ : s.variogramFunction s.params = .ok γ) (hb : ∀ d, 0 ≤ d → γ d = b * d)
    {exact : Bool} (hex : args.exactValues = .bool exact) {r : ExecResult} (hr : s.execute env ea = .ok r)
    {j : ℕ} {p : ℝ × ℝ} (hq : queryAt ea j = some p) (hm : maskedAt ea j = false)
    {t : Fin n → ℝ} {τ : ℝ} (hl : Profile (okDistance args) (fun i => (x i, y i)) t p τ)
    (hc : AtOrAway exact fun i => okDistance args p (x i, y i)) :
    ∃ est var, r.z[j]? = some (some est) ∧ r.ss[j]? = some (some var) ∧
      LinearProfile b t Set.univ z τ est var := by
  obtain ⟨-, ⟨w, μ, hw'⟩, hu⟩ := C47_unique_2d h ha hw hp hγ hex hr hq hm
  obtain ⟨e2, e3⟩ := hu w μ hw'
  refine ⟨_, _, e2, e3, hl.linear hb hc fun w' μ' hw' => ?_⟩
  obtain ⟨e4, e5⟩ := hu w' μ' hw'
  rw [e2] at e4
  rw [e3] at e5
  exact ⟨Option.some.inj (Option.some.inj e4), Option.some.inj (Option.some.inj e5)⟩

/-- `OrdinaryKriging` with a moving window: the neighbours are looked for in the window only. -/
theorem C60_window_2d {n : ℕ} {env : Env} {x y z : Fin n → ℝ} {args : OKArgs} {s : OK n}
    (h : OK.create env x y z args = .ok s) {ea : ExecArgs} (ha : Admissible env args s ea.nClosest)
    {k : ℕ} (hw : ea.nClosest = some (k : ℤ)) {b : ℝ} {γ : ℝ → ℝ} (hγ : s.variogramFunction s.params = .ok γ) (hb : ∀ d, 0 ≤ d → γ d = b * d)
    {exact : Bool} (hex : args.exactValues = .bool exact) {r : ExecResult} (hr : s.execute env ea = .ok r)
    {j : ℕ} {p : ℝ × ℝ} (hq : queryAt ea j = some p) (hm : maskedAt ea j = false)
    {t : Fin n → ℝ} {τ : ℝ} (hl : Profile (okDistance args) (fun i => (x i, y i)) t p τ)
    (hc : AtOrAway exact fun i => okDistance args p (x i, y i)) :
    ∃ sel : Fin k → Fin n, ∃ est var, Function.Injective sel ∧
      (∀ i l, l ∉ Set.range sel → okDistance args p (x (sel i), y (sel i)) ≤ okDistance args p (x l, y l)) ∧
      r.z[j]? = some (some est) ∧ r.ss[j]? = some (some var) ∧
      LinearProfile b t (Set.range sel) z τ est var := by
  obtain ⟨sel, hinj, hnear, -, ⟨w, μ, hw'⟩, hu⟩ := C47_unique_window_2d h ha hw hγ hex hr hq hm
  obtain ⟨e2, e3⟩ := hu w μ hw'
  have hl' : Profile (okDistance args) (fun i => (x (sel i), y (sel i))) (fun i => t (sel i)) p τ :=
    ⟨fun i k => hl.1 (sel i) (sel k), fun i => hl.2 (sel i)⟩
  refine ⟨sel, _, _, hinj, hnear, e2, e3, Spec.LinearProfile.image ?_⟩
  refine hl'.linear hb (fun e i => hc e (sel i)) fun w' μ' hw' => ?_
  obtain ⟨e4, e5⟩ := hu w' μ' hw'
  rw [e2] at e4
  rw [e3] at e5
  exact ⟨Option.some.inj (Option.some.inj e4), Option.some.inj (Option.some.inj e5)⟩

/-- The same in terms of the arguments: `variogram_model='linear'`, `variogram_parameters=[b, 0]`. -/
theorem C60_linear_2d {n : ℕ} {env : Env} {x y z : Fin n → ℝ} {args : OKArgs} {s : OK n}
    (h : OK.create env x y z args = .ok s) {ea : ExecArgs} (ha : Admissible env args s ea.nClosest)
    (hw : ea.nClosest = none) (hp : args.pseudoInv = false) {b : ℝ} (hv : args.variogramModel = .name "linear") (hb : args.params = .list [b, 0])
    {exact : Bool} (hex : args.exactValues = .bool exact) {r : ExecResult} (hr : s.execute env ea = .ok r)
    {j : ℕ} {p : ℝ × ℝ} (hq : queryAt ea j = some p) (hm : maskedAt ea j = false)
    {t : Fin n → ℝ} {τ : ℝ} (hl : Profile (okDistance args) (fun i => (x i, y i)) t p τ)
    (hc : AtOrAway exact fun i => okDistance args p (x i, y i)) :
    ∃ est var, r.z[j]? = some (some est) ∧ r.ss[j]? = some (some var) ∧
      LinearProfile b t Set.univ z τ est var :=
  C60_profile_2d h ha hw hp (C47_variogram_2d h hv hb (γ := fun d => b * d + 0) (by simp [textbook])) (fun d _ => add_zero _) hex hr hq hm hl hc

/-- The same with a moving window. -/
theorem C60_linear_window_2d {n : ℕ} {env : Env} {x y z : Fin n → ℝ} {args : OKArgs} {s : OK n}
    (h : OK.create env x y z args = .ok s) {ea : ExecArgs} (ha : Admissible env args s ea.nClosest)
    {k : ℕ} (hw : ea.nClosest = some (k : ℤ)) {b : ℝ} (hv : args.variogramModel = .name "linear") (hb : args.params = .list [b, 0])
    {exact : Bool} (hex : args.exactValues = .bool exact) {r : ExecResult} (hr : s.execute env ea = .ok r)
    {j : ℕ} {p : ℝ × ℝ} (hq : queryAt ea j = some p) (hm : maskedAt ea j = false)
    {t : Fin n → ℝ} {τ : ℝ} (hl : Profile (okDistance args) (fun i => (x i, y i)) t p τ)
    (hc : AtOrAway exact fun i => okDistance args p (x i, y i)) :
    ∃ sel : Fin k → Fin n, ∃ est var, Function.Injective sel ∧
      (∀ i l, l ∉ Set.range sel → okDistance args p (x (sel i), y (sel i)) ≤ okDistance args p (x l, y l)) ∧
      r.z[j]? = some (some est) ∧ r.ss[j]? = some (some var) ∧
      LinearProfile b t (Set.range sel) z τ est var :=
  C60_window_2d h ha hw (C47_variogram_2d h hv hb (γ := fun d => b * d + 0) (by simp [textbook])) (fun d _ => add_zero _) hex hr hq hm hl hc

/-- `OrdinaryKriging3D`, any variogram that is linear with slope `b` and without nugget, all data. -/
theorem C60_profile_3d {n : ℕ} {env : Env} {x y z v : Fin n → ℝ} {args : OK3DArgs} {s : OK3D n}
    (h : OK3D.create env x y z v args = .ok s) {ea : ExecArgs3} (hknn : KnnSpec env) (hwf : WindowFits n ea.nClosest)
    (hw : ea.nClosest = none) (hp : args.pseudoInv = false) {b : ℝ} {γ : ℝ → ℝ} (hγ : s.variogramFunction s.params = .ok γ) (hb : ∀ d, 0 ≤ d → γ d = b * d)
    {exact : Bool} (hex : args.exactValues = .bool exact) {r : ExecResult} (hr : s.execute env ea = .ok r)
    {j : ℕ} {p : ℝ × ℝ × ℝ} (hq : queryAt3 ea j = some p) (hm : maskedAt3 ea j = false)
    {t : Fin n → ℝ} {τ : ℝ} (hl : Profile (ok3Distance args) (fun i => (x i, y i, z i)) t p τ)
    (hc : AtOrAway exact fun i => ok3Distance args p (x i, y i, z i)) :
    ∃ est var, r.z[j]? = some (some est) ∧ r.ss[j]? = some (some var) ∧
      LinearProfile b t Set.univ v τ est var := by
  obtain ⟨-, ⟨w, μ, hw'⟩, hu⟩ := C47_unique_3d h hknn hwf hw hp hγ hex hr hq hm
  obtain ⟨e2, e3⟩ := hu w μ hw'
  refine ⟨_, _, e2, e3, hl.linear hb hc fun w' μ' hw' => ?_⟩
  obtain ⟨e4, e5⟩ := hu w' μ' hw'
  rw [e2] at e4
  rw [e3] at e5
  exact ⟨Option.some.inj (Option.some.inj e4), Option.some.inj (Option.some.inj e5)⟩

/-- `OrdinaryKriging3D` with a moving window: the neighbours are looked for in the window only. -/
theorem C60_window_3d {n : ℕ} {env : Env} {x y z v : Fin n → ℝ} {args : OK3DArgs} {s : OK3D n}
    (h : OK3D.create env x y z v args = .ok s) {ea : ExecArgs3} (hknn : KnnSpec env) (hwf : WindowFits n ea.nClosest)
    {k : ℕ} (hw : ea.nClosest = some (k : ℤ)) {b : ℝ} {γ : ℝ → ℝ} (hγ : s.variogramFunction s.params = .ok γ) (hb : ∀ d, 0 ≤ d → γ d = b * d)
    {exact : Bool} (hex : args.exactValues = .bool exact) {r : ExecResult} (hr : s.execute env ea = .ok r)
    {j : ℕ} {p : ℝ × ℝ × ℝ} (hq : queryAt3 ea j = some p) (hm : maskedAt3 ea j = false)
    {t : Fin n → ℝ} {τ : ℝ} (hl : Profile (ok3Distance args) (fun i => (x i, y i, z i)) t p τ)
    (hc : AtOrAway exact fun i => ok3Distance args p (x i, y i, z i)) :
    ∃ sel : Fin k → Fin n, ∃ est var, Function.Injective sel ∧
      (∀ i l, l ∉ Set.range sel → ok3Distance args p (x (sel i), y (sel i), z (sel i)) ≤ ok3Distance args p (x l, y l, z l)) ∧
      r.z[j]? = some (some est) ∧ r.ss[j]? = some (some var) ∧
      LinearProfile b t (Set.range sel) v τ est var := by
  obtain ⟨sel, hinj, hnear, -, ⟨w, μ, hw'⟩, hu⟩ := C47_unique_window_3d h hknn hwf hw hγ hex hr hq hm
  obtain ⟨e2, e3⟩ := hu w μ hw'
  have hl' : Profile (ok3Distance args) (fun i => (x (sel i), y (sel i), z (sel i))) (fun i => t (sel i)) p τ :=
    ⟨fun i k => hl.1 (sel i) (sel k), fun i => hl.2 (sel i)⟩
  refine ⟨sel, _, _, hinj, hnear, e2, e3, Spec.LinearProfile.image ?_⟩
  refine hl'.linear hb (fun e i => hc e (sel i)) fun w' μ' hw' => ?_
  obtain ⟨e4, e5⟩ := hu w' μ' hw'
  rw [e2] at e4
  rw [e3] at e5
  exact ⟨Option.some.inj (Option.some.inj e4), Option.some.inj (Option.some.inj e5)⟩

/-- The same in terms of the arguments: `variogram_model='linear'`, `variogram_parameters=[b, 0]`. -/
theorem C60_linear_3d {n : ℕ} {env : Env} {x y z v : Fin n → ℝ} {args : OK3DArgs} {s : OK3D n}
    (h : OK3D.create env x y z v args = .ok s) {ea : ExecArgs3} (hknn : KnnSpec env) (hwf : WindowFits n ea.nClosest)
    (hw : ea.nClosest = none) (hp : args.pseudoInv = false) {b : ℝ} (hv : args.variogramModel = .name "linear") (hb : args.params = .list [b, 0])
    {exact : Bool} (hex : args.exactValues = .bool exact) {r : ExecResult} (hr : s.execute env ea = .ok r)
    {j : ℕ} {p : ℝ × ℝ × ℝ} (hq : queryAt3 ea j = some p) (hm : maskedAt3 ea j = false)
    {t : Fin n → ℝ} {τ : ℝ} (hl : Profile (ok3Distance args) (fun i => (x i, y i, z i)) t p τ)
    (hc : AtOrAway exact fun i => ok3Distance args p (x i, y i, z i)) :
    ∃ est var, r.z[j]? = some (some est) ∧ r.ss[j]? = some (some var) ∧
      LinearProfile b t Set.univ v τ est var :=
  C60_profile_3d h hknn hwf hw hp (C47_variogram_3d h hv hb (γ := fun d => b * d + 0) (by simp [textbook])) (fun d _ => add_zero _) hex hr hq hm hl hc

/-- The same with a moving window. -/
theorem C60_linear_window_3d {n : ℕ} {env : Env} {x y z v : Fin n → ℝ} {args : OK3DArgs} {s : OK3D n}
    (h : OK3D.create env x y z v args = .ok s) {ea : ExecArgs3} (hknn : KnnSpec env) (hwf : WindowFits n ea.nClosest)
    {k : ℕ} (hw : ea.nClosest = some (k : ℤ)) {b : ℝ} (hv : args.variogramModel = .name "linear") (hb : args.params = .list [b, 0])
    {exact : Bool} (hex : args.exactValues = .bool exact) {r : ExecResult} (hr : s.execute env ea = .ok r)
    {j : ℕ} {p : ℝ × ℝ × ℝ} (hq : queryAt3 ea j = some p) (hm : maskedAt3 ea j = false)
    {t : Fin n → ℝ} {τ : ℝ} (hl : Profile (ok3Distance args) (fun i => (x i, y i, z i)) t p τ)
    (hc : AtOrAway exact fun i => ok3Distance args p (x i, y i, z i)) :
    ∃ sel : Fin k → Fin n, ∃ est var, Function.Injective sel ∧
      (∀ i l, l ∉ Set.range sel → ok3Distance args p (x (sel i), y (sel i), z (sel i)) ≤ ok3Distance args p (x l, y l, z l)) ∧
      r.z[j]? = some (some est) ∧ r.ss[j]? = some (some var) ∧
      LinearProfile b t (Set.range sel) v τ est var :=
  C60_window_3d h hknn hwf hw (C47_variogram_3d h hv hb (γ := fun d => b * d + 0) (by simp [textbook])) (fun d _ => add_zero _) hex hr hq hm hl hc

/-- Two data, three queries: before, between (at a third of the way) and behind. -/
example (a c : ℝ) : ∃ s r, OK.create stdEnv Demo.X Demo.O ![a, c] (Demo.args 0 true false) = .ok s ∧
    s.execute stdEnv (Demo.pts [(-2, 0), (1 / 3, 0), (5, 0)] "C") = .ok r ∧
    r.z[0]? = some (some a) ∧ r.z[1]? = some (some (2 / 3 * a + 1 / 3 * c)) ∧ r.z[2]? = some (some c) ∧
    r.ss[0]? = some (some 4) ∧ r.ss[1]? = some (some (4 / 9)) ∧ r.ss[2]? = some (some 8) := by
  obtain ⟨s, h, -⟩ := Demo.ok ![a, c] 0 true false
  obtain ⟨ha, r, hr⟩ := Demo.ok_run le_rfl h [(-2, 0), (1 / 3, 0), (5, 0)] (b := "C") (.inr (.inr rfl))
  have hd : okDistance (Demo.args 0 true false) (1, 0) 0 = 1 := by
    simp [okDistance, distance2, anisoDist2, Demo.args, effScaling, effAngle, rad]
  have key : ∀ τ : ℝ, AtOrAway true (fun i => okDistance (Demo.args 0 true false) (τ, 0) (Demo.X i, Demo.O i)) → ∀ j,
      queryAt (Demo.pts [(-2, 0), (1 / 3, 0), (5, 0)] "C") j = some (τ, 0) →
      maskedAt (Demo.pts [(-2, 0), (1 / 3, 0), (5, 0)] "C") j = false → ∃ est var, r.z[j]? = some (some est) ∧ r.ss[j]? = some (some var) ∧
      LinearProfile 1 Demo.X Set.univ ![a, c] τ est var := by
    intro τ hc j hq hm
    have hl := C60_line_2d (args := Demo.args 0 true false) rfl (x := Demo.X) (y := Demo.O) (t := Demo.X) (a := 0) (u := (1, 0))
      (p := (τ, 0)) (τ := τ) (by intro i; fin_cases i <;> simp [Demo.X, Demo.O]) (by simp)
    simp only [hd, one_mul] at hl
    exact C60_linear_2d h ha rfl rfl rfl rfl rfl hr hq hm hl hc
  have hdist : ∀ τ u : ℝ, okDistance (Demo.args 0 true false) (τ, 0) (u, 0) = |τ - u| := by
    intro τ u
    simp [okDistance, distance2, anisoDist2, Demo.args, effScaling, effAngle, rad, Real.sqrt_sq_eq_abs]
  have hcl : ∀ τ : ℝ, 1 / 10 ^ 10 < |τ| → 1 / 10 ^ 10 < |τ - 1| →
      AtOrAway true (fun i => okDistance (Demo.args 0 true false) (τ, 0) (Demo.X i, Demo.O i)) := by
    intro τ h0 h1 _ i
    right
    fin_cases i
    · simpa [Demo.X, Demo.O, hdist] using h0
    · simpa [Demo.X, Demo.O, hdist] using h1
  obtain ⟨e0, v0, hz0, hs0, -, -, h0⟩ := key (-2) (hcl _ (by norm_num) (by norm_num)) 0 (by simp [queryAt, Demo.pts]) (by simp [maskedAt, Demo.pts])
  obtain ⟨e1, v1, hz1, hs1, h1, -⟩ := key (1 / 3) (hcl _ (by norm_num) (by norm_num)) 1 (by simp [queryAt, Demo.pts]) (by simp [maskedAt, Demo.pts])
  obtain ⟨e2, v2, hz2, hs2, -, h2, -⟩ := key 5 (hcl _ (by norm_num) (by norm_num)) 2 (by simp [queryAt, Demo.pts]) (by simp [maskedAt, Demo.pts])
  obtain ⟨h0, h0'⟩ := h0 0 trivial (by intro i _; fin_cases i <;> simp [Demo.X]) (by simp [Demo.X])
  obtain ⟨h1, h1'⟩ := h1 0 1 ⟨trivial, trivial, by simp [Demo.X], by intro i _; fin_cases i <;> simp [Demo.X]⟩
    (by norm_num [Demo.X]) (by norm_num [Demo.X])
  obtain ⟨h2, h2'⟩ := h2 1 trivial (by intro i _; fin_cases i <;> simp [Demo.X]) (by norm_num [Demo.X])
  simp [Demo.X] at h0 h1 h2 h0' h1' h2'
  refine ⟨s, r, h, hr, by rw [hz0, h0], ?_, by rw [hz2, h2], ?_, ?_, ?_⟩
  · rw [hz1, h1]; norm_num
  · rw [hs0, h0']; norm_num
  · rw [hs1, h1']; norm_num
  · rw [hs2, h2']; norm_num

end
end PyKrige
