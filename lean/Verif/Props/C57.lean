import Verif.Lemmas.SphereValid
import Verif.Props.C27

/-!
# C57: kriging with geographic coordinates

With `coordinates_type="geographic"` distances are great-circle distances.  For the linear, exponential and spherical models and the
power model with an exponent of at most 1 (`Spec.ValidOnSphere`) everything known from the plane holds: `execute` returns
the best linear unbiased predictor, its variances are not negative, and no system is singular if the model separates
the data (`Spec.SeparatesOnSphere`).  It does not hold for the other models: `C57_power_negative` and
`C57_gaussian_negative` exhibit negative variances, for every exponent between 1 and 2.  Two pairs of opposite data make
the system of the linear model singular (`C57_opposite_singular`).
-/

set_option linter.unusedSectionVars false

namespace PyKrige
noncomputable section
open Matrix Spec

theorem okDistance_sphere' {args : OKArgs} (h : args.coordinatesType = "geographic") : okDistance args = sphereDist := by
  funext p q; exact okDistance_sphere h p q

/-- The best linear unbiased predictor. -/
theorem C57_best {n : ℕ} {env : Env} {x y z : Fin n → ℝ} {args : OKArgs} {s : OK n}
    (h : OK.create env x y z args = .ok s) (hct : args.coordinatesType = "geographic") {ea : ExecArgs}
    (ha : Admissible env args s ea.nClosest) {m : String} (hm : args.variogramModel = .name m)
    (hv : ValidOnSphere m s.params) {γ : ℝ → ℝ} (hγ : s.variogramFunction s.params = .ok γ) {exact : Bool}
    (hex : args.exactValues = .bool exact) {r : ExecResult} (hr : s.execute env ea = .ok r) {j : ℕ} {p : ℝ × ℝ}
    (hq : queryAt ea j = some p) (hmask : maskedAt ea j = false)
    (hp : args.pseudoInv = false ∨ ea.nClosest ≠ none ∨ Clear exact γ fun i => sphereDist p (x i, y i)) :
    ∃ S : Finset (Fin n), (ea.nClosest = none → S = Finset.univ) ∧
      (∀ k : ℕ, ea.nClosest = some (k : ℤ) → S.card = k ∧
        ∀ i ∈ S, ∀ i', i' ∉ S → sphereDist p (x i, y i) ≤ sphereDist p (x i', y i')) ∧
      ∃ est var, r.z[j]? = some (some est) ∧ r.ss[j]? = some (some var) ∧
        IsBlue S (semivar γ fun i i' => sphereDist (x i, y i) (x i', y i'))
          (semivarTo exact γ fun i => sphereDist p (x i, y i)) (fun _ => []) [] z est var := by
  obtain ⟨hv', γ', hb, hval⟩ := hv.builtin
  obtain ⟨hev, -⟩ := chosen_evaluates hb hv'.builtin.1 (OK.create_function h hm)
  obtain rfl : γ = γ' := by rw [hγ] at hev; exact Except.ok.inj hev
  have key := C28_best_2d h ha hγ hex
    (by rw [okDistance_sphere' hct]; exact (hval _ fun i => (x i, y i)).1) hr hq hmask
    (hp.imp_right fun hp => hp.imp_right fun hp => by
      rw [okDistance_sphere' hct]
      exact sphere_withPoint (fun ι _ p => (hval ι p).1) (fun i => (x i, y i)) p hp)
  rw [okDistance_sphere' hct] at key
  exact key

/-- Variances are not negative. -/
theorem C57_nonneg {n : ℕ} {env : Env} {x y z : Fin n → ℝ} {args : OKArgs} {s : OK n}
    (h : OK.create env x y z args = .ok s) (hct : args.coordinatesType = "geographic") {ea : ExecArgs}
    (ha : Admissible env args s ea.nClosest) {m : String} (hm : args.variogramModel = .name m)
    (hv : ValidOnSphere m s.params) {γ : ℝ → ℝ} (hγ : s.variogramFunction s.params = .ok γ) {exact : Bool}
    (hex : args.exactValues = .bool exact) {r : ExecResult} (hr : s.execute env ea = .ok r) {j : ℕ}
    (hcl : ∀ p, queryAt ea j = some p → Clear exact γ fun i => sphereDist p (x i, y i))
    {var : ℝ} (hj : r.ss[j]? = some (some var)) : 0 ≤ var := by
  obtain ⟨hv', γ', hb, hval⟩ := hv.builtin
  obtain ⟨hev, -⟩ := chosen_evaluates hb hv'.builtin.1 (OK.create_function h hm)
  obtain rfl : γ = γ' := by rw [hγ] at hev; exact Except.ok.inj hev
  refine C27_nonneg_2d h ha hγ hex hr (fun p hq => ?_) hj
  rw [okDistance_sphere' hct]
  exact sphere_withPoint (fun ι _ p => (hval ι p).1) (fun i => (x i, y i)) p (hcl p hq)

/-- The linear and exponential models fitted to the data. -/
theorem C57_fitted {n : ℕ} {env : Env} {x y z : Fin n → ℝ} {args : OKArgs} {s : OK n}
    (h : OK.create env x y z args = .ok s) (hct : args.coordinatesType = "geographic") {ea : ExecArgs}
    (ha : Admissible env args s ea.nClosest) {m : String} (hm : args.variogramModel = .name m)
    (hmc : m = "linear" ∨ m = "exponential" ∨ m = "spherical") (hp : args.params = .none) (hn : 0 < args.nlags) (hl : LsqSpec env)
    {γ : ℝ → ℝ} (hγ : s.variogramFunction s.params = .ok γ) {exact : Bool} (hex : args.exactValues = .bool exact)
    {r : ExecResult} (hr : s.execute env ea = .ok r) {j : ℕ}
    (hcl : ∀ p, queryAt ea j = some p → Clear exact γ fun i => sphereDist p (x i, y i))
    {var : ℝ} (hj : r.ss[j]? = some (some var)) : 0 ≤ var := by
  obtain ⟨-, S, L, -, -, hb⟩ := C19_bounds_ok h hm (by rcases hmc with rfl | rfl | rfl <;> simp) hp hn hl
  refine C57_nonneg h hct ha hm ?_ hγ hex hr hcl hj
  unfold WithinBounds at hb
  rcases hmc with rfl | rfl | rfl
  · rw [if_pos rfl] at hb
    obtain ⟨a, c, e', ha, hc, -⟩ := hb
    exact .inl ⟨a, c, rfl, e', ha, hc⟩
  · rw [if_neg (by decide), if_neg (by decide)] at hb
    obtain ⟨a, r, c, e', ha', -, hr0, -, hc, -⟩ := hb
    refine .inr (.inr ⟨a, r, c, .inl rfl, e', ha', lt_of_le_of_ne hr0 fun h0 => ?_, hc⟩)
    have h1 := ha.range
    have hf : s.functionName = variogramFunctionName "exponential" := by
      have hf := OK.create_function h hm
      simp [chooseFunction, variogramDict] at hf
      exact hf.2.symm
    rw [hf, e', ← h0] at h1
    exact h1 (by simp [variogramFunctionName]) (by simp)
  · rw [if_neg (by decide), if_neg (by decide)] at hb
    obtain ⟨a, r, c, e', ha', -, hr0, -, hc, -⟩ := hb
    refine .inr (.inr ⟨a, r, c, .inr rfl, e', ha', lt_of_le_of_ne hr0 fun h0 => ?_, hc⟩)
    have h1 := ha.range
    have hf : s.functionName = variogramFunctionName "spherical" := by
      have hf := OK.create_function h hm
      simp [chooseFunction, variogramDict] at hf
      exact hf.2.symm
    rw [hf, e', ← h0] at h1
    exact h1 (by simp [variogramFunctionName]) (by simp)

/-! ### Solvable systems -/

/-- The constructor, for any built-in model that is strictly conditionally negative definite on the data. -/
theorem geo_create {n : ℕ} (env : Env) (hn : 2 ≤ n) (x y z : Fin n → ℝ) (args : OKArgs)
    (hpt : args.pseudoInvType ∈ ["pinv", "pinvh"]) {b : Bool} (hex : args.exactValues = .bool b)
    (hct : args.coordinatesType = "geographic") {m : String} (hm : args.variogramModel = .name m) {l : List ℝ}
    (hpa : args.params = .list l) (hv : ValidModel m (listMeaning m l)) {γ : ℝ → ℝ} (hb : Builtin m (listMeaning m l) γ)
    (hst : args.enableStatistics = false ∨ StrictCondNeg (semivar γ fun i j => sphereDist (x i, y i) (x j, y j))) :
    ∃ s, OK.create env x y z args = .ok s ∧ s.params = listMeaning m l ∧
      s.variogramFunction (listMeaning m l) = .ok γ ∧ s.functionName = variogramFunctionName m := by
  obtain ⟨hmb, -⟩ := hv.builtin
  obtain ⟨f, hf, hfe⟩ := chooseFunction_builtin hb hmb args.variogramFunction
  obtain ⟨s, hs', e1, e2, hp⟩ := OK.create_of (env := env) (x := x) (y := y) (z := z) hn hpt hex (by rw [hm]; rfl) hf (.inr hct)
    (hpa ▸ makeParams_list hv) (by
      intro X hX
      obtain ⟨lags, hl⟩ := initialize_of_given (env := env) hn (.inr ⟨hct, rfl⟩) X z (makeParams_list hv) f args.nlags
        args.weight
      refine ⟨lags, _, hl, fun he => ?_⟩
      rcases hst with hst | hst
      · rw [hst] at he; cases he
      · refine findStatistics_strict (.inr ⟨hct, rfl⟩) hfe ?_ z
        simp only [hX, okDistance_sphere hct]
        exact hst)
  exact ⟨s, hs', hp _ rfl, e1 ▸ hfe, e2⟩

/-- `execute`, for any variogram that is strictly conditionally negative definite on the data. -/
theorem geo_execute {n : ℕ} {env : Env} {x y z : Fin n → ℝ} {args : OKArgs} {s : OK n}
    (h : OK.create env x y z args = .ok s) (hct : args.coordinatesType = "geographic") {γ : ℝ → ℝ}
    (hγ : s.variogramFunction s.params = .ok γ)
    (hst : StrictCondNeg (semivar γ fun i j => sphereDist (x i, y i) (x j, y j))) {ea : ExecArgs}
    (ha : Admissible env args s ea.nClosest) (hq : WellPosed ea) (hw : WindowOk ea.nClosest)
    (hb : Supports env args ea.nClosest ea.backend) : ∃ r, s.execute env ea = .ok r := by
  have h2 := OK.create_two_le h
  have : Nonempty (Fin n) := ⟨⟨0, by omega⟩⟩
  rw [← okDistance_sphere' hct] at hst
  refine OK.accept h ha hγ hq hw (fun e => absurd (hct.symm.trans e) (by decide)) hb (fun _ => .inr hst.regular_ok)
    fun k hk l hl hlen => selRegular_strict hst hl ?_
  rintro rfl
  have := hw _ hk
  simp at hlen
  omega

/-- The constructor accepts at least two data and the parameters of a separating model. -/
theorem C57_create {n : ℕ} (env : Env) (hn : 2 ≤ n) (x y z : Fin n → ℝ) (args : OKArgs)
    (hpt : args.pseudoInvType ∈ ["pinv", "pinvh"]) {b : Bool} (hex : args.exactValues = .bool b)
    (hct : args.coordinatesType = "geographic") {m : String} (hm : args.variogramModel = .name m) {l : List ℝ}
    (hpa : args.params = .list l) (hv : ValidOnSphere m (listMeaning m l))
    (hs : args.enableStatistics = true → SeparatesOnSphere m (listMeaning m l) fun i => (x i, y i)) :
    ∃ s, OK.create env x y z args = .ok s ∧ s.params = listMeaning m l := by
  obtain ⟨hv', γ, hγ, hval⟩ := hv.builtin
  obtain ⟨s, h1, h2, -⟩ := geo_create env hn x y z args hpt hex hct hm hpa hv' hγ (by
    cases he : args.enableStatistics with
    | false => exact .inl rfl
    | true => exact .inr ((hval _ _).2 (hs he)))
  exact ⟨s, h1, h2⟩

/-- `execute` answers every well-posed request, with all data or with a moving window. -/
theorem C57_execute {n : ℕ} {env : Env} {x y z : Fin n → ℝ} {args : OKArgs} {s : OK n}
    (h : OK.create env x y z args = .ok s) (hct : args.coordinatesType = "geographic") {m : String}
    (hm : args.variogramModel = .name m) (hv : ValidOnSphere m s.params)
    (hs : SeparatesOnSphere m s.params fun i => (x i, y i)) {ea : ExecArgs} (ha : Admissible env args s ea.nClosest)
    (hq : WellPosed ea) (hw : WindowOk ea.nClosest) (hb : Supports env args ea.nClosest ea.backend) :
    ∃ r, s.execute env ea = .ok r := by
  obtain ⟨hv', γ, hγ, hval⟩ := hv.builtin
  obtain ⟨hev, -⟩ := chosen_evaluates hγ hv'.builtin.1 (OK.create_function h hm)
  exact geo_execute h hct hev ((hval _ _).2 hs) ha hq hw hb

/-! ### Opposite data -/

theorem sphereDist_opposite {p q : ℝ × ℝ} (h : onSphere q = -onSphere p) (t : ℝ × ℝ) :
    sphereDist t p + sphereDist t q = 180 := by
  unfold sphereDist
  rw [h, InnerProductGeometry.angle_neg_right]
  field_simp
  ring

/-- Two pairs of opposite data under the linear model without nugget: the system is singular and `execute` returns
nothing. -/
theorem C57_opposite_singular {n : ℕ} {env : Env} {x y z : Fin n → ℝ} {args : OKArgs} {s : OK n}
    (h : OK.create env x y z args = .ok s) (hct : args.coordinatesType = "geographic") (hp : args.pseudoInv = false)
    {slope : ℝ} (hγ : s.variogramFunction s.params = .ok (linearFormula slope 0)) {i j k l : Fin n}
    (hne : i ≠ k ∧ i ≠ l) (hij : onSphere (x j, y j) = -onSphere (x i, y i))
    (hkl : onSphere (x l, y l) = -onSphere (x k, y k)) {ea : ExecArgs} (ha : Admissible env args s ea.nClosest)
    (hn : ea.nClosest = none) (r : ExecResult) : s.execute env ea ≠ .ok r := by
  classical
  intro hr
  have a := ((OK.create_pw h ha).ok_iff.1 ⟨r, hr⟩).1.solvable hn
  rw [OK.gam_eq hγ, (OK.create_fields h).2.2.1, hp] at a
  have a := a.resolve_left (by simp)
  have hij' : i ≠ j := by
    rintro rfl
    have := sphereDist_opposite hij (x i, y i)
    rw [sphereDist_self] at this
    norm_num at this
  have hD : ∀ t t', semivar (linearFormula slope 0) s.dataDist t t' = slope * sphereDist (x t, y t) (x t', y t') := by
    intro t t'
    unfold semivar
    rw [(OK.create_dist h).1, okDistance_sphere hct]
    split_ifs with e
    · subst e; rw [sphereDist_self]; simp
    · simp [linearFormula]
  have hw : ∀ f : Fin n → ℝ, ∑ t, f t * (Pi.single i 1 + Pi.single j 1 - Pi.single k 1 - Pi.single l 1 : Fin n → ℝ) t =
      f i + f j - f k - f l := by
    intro f
    simp only [Pi.sub_apply, Pi.add_apply, mul_sub, mul_add, Finset.sum_sub_distrib, Finset.sum_add_distrib]
    congr 1
    · congr 1
      · congr 1 <;> simp [Pi.single_apply]
      · simp [Pi.single_apply]
    · simp [Pi.single_apply]
  have := a (Pi.single i 1 + Pi.single j 1 - Pi.single k 1 - Pi.single l 1) 0 0 ⟨fun t => by
      rw [hw, hD, hD, hD, hD]
      have h1 := sphereDist_opposite hij (x t, y t)
      have h2 := sphereDist_opposite hkl (x t, y t)
      simp
      linear_combination slope * h1 - slope * h2, fun l => l.elim0, by
      have := hw fun _ => 1
      simp only [one_mul] at this
      simpa using this⟩
  have h1 := congrFun this.1 i
  simp [hij', hne.1, hne.2] at h1

/-! ### Models that are not valid on the sphere -/

namespace Demo

/-- Three data: on the equator at longitude 0, and at the two poles. -/
def polesX : Fin 3 → ℝ := ![0, 0, 0]
def polesY : Fin 3 → ℝ := ![0, 90, -90]

/-- Geographic coordinates and given parameters. -/
def geo (m : String) (l : List ℝ) : OKArgs :=
  { variogramModel := .name m, params := .list l, coordinatesType := "geographic" }

end Demo

theorem sphereDist_eq (p q : ℝ × ℝ) : sphereDist p q = 180 / Real.pi * Real.arccos (Real.sin (rad p.2) * Real.sin (rad q.2) +
    Real.cos (rad p.2) * Real.cos (rad q.2) * Real.cos (rad (p.1 - q.1))) := by
  unfold sphereDist InnerProductGeometry.angle
  rw [norm_onSphere, norm_onSphere, mul_one, div_one, onSphere_eq, onSphere_eq, inner_sphereVec]
  rfl

theorem rad_zero : rad 0 = 0 := by simp [rad]
theorem rad_90 : rad 90 = Real.pi / 2 := by unfold rad; ring
theorem rad_neg_90 : rad (-90) = -(Real.pi / 2) := by unfold rad; ring
theorem rad_180 : rad 180 = Real.pi := by unfold rad; ring

theorem quarter (c : ℝ) (h : c = 0) : 180 / Real.pi * Real.arccos c = 90 := by
  rw [h, Real.arccos_zero]
  have := Real.pi_pos
  field_simp
  norm_num

theorem half (c : ℝ) (h : c = -1) : 180 / Real.pi * Real.arccos c = 180 := by
  rw [h, Real.arccos_neg_one]
  have := Real.pi_pos
  field_simp

theorem poles_data : (fun i j => sphereDist (Demo.polesX i, Demo.polesY i) (Demo.polesX j, Demo.polesY j)) =
    ![![0, 90, 90], ![90, 0, 180], ![90, 180, 0]] := by
  have a : sphereDist (0, 0) (0, 90) = 90 := by
    rw [sphereDist_eq]; exact quarter _ (by simp [rad_zero, rad_90])
  have b : sphereDist (0, 0) (0, -90) = 90 := by
    rw [sphereDist_eq]; exact quarter _ (by simp [rad_zero, rad_neg_90])
  have c : sphereDist (0, 90) (0, -90) = 180 := by
    rw [sphereDist_eq]; exact half _ (by simp [rad_zero, rad_90, rad_neg_90])
  have a' := (sphereDist_comm _ _).trans a
  have b' := (sphereDist_comm _ _).trans b
  have c' := (sphereDist_comm _ _).trans c
  funext i j
  fin_cases i <;> fin_cases j <;> simp [Demo.polesX, Demo.polesY, sphereDist_self, a, b, c, a', b', c']

theorem poles_query : (fun i => sphereDist (180, 0) (Demo.polesX i, Demo.polesY i)) = ![180, 90, 90] := by
  have a : sphereDist (180, 0) (0, 0) = 180 := by
    rw [sphereDist_eq]; exact half _ (by simp [rad_zero, rad_180])
  have b : sphereDist (180, 0) (0, 90) = 90 := by
    rw [sphereDist_eq]; exact quarter _ (by simp [rad_zero, rad_90])
  have c : sphereDist (180, 0) (0, -90) = 90 := by
    rw [sphereDist_eq]; exact quarter _ (by simp [rad_zero, rad_neg_90])
  funext i
  fin_cases i <;> simp [Demo.polesX, Demo.polesY, a, b, c]

theorem poles_strict {γ : ℝ → ℝ} (h1 : 0 < γ 180) (h2 : γ 180 < 4 * γ 90) : StrictCondNeg (semivar γ fun i j =>
    sphereDist (Demo.polesX i, Demo.polesY i) (Demo.polesX j, Demo.polesY j)) := by
  refine ⟨semivar_symm fun i j => sphereDist_comm _ _, fun c hc hne => ?_⟩
  rw [poles_data]
  simp [semivar, Fin.sum_univ_three] at hc ⊢
  have e : c 0 = -(c 1 + c 2) := by linarith
  rw [e]
  by_cases hs : c 1 + c 2 = 0
  · have e2 : c 2 = -c 1 := by linarith
    have hc1 : c 1 ≠ 0 := by
      intro h0
      apply hne
      funext i
      fin_cases i
      · simp [e, e2, h0]
      · exact h0
      · simp [e2, h0]
    rw [e2]
    have := mul_pos (sq_pos_of_ne_zero hc1) h1
    ring_nf at this ⊢
    linarith
  · have := mul_pos (sq_pos_of_ne_zero hs) (sub_pos.2 h2)
    nlinarith [mul_nonneg (sq_nonneg (c 1 - c 2)) h1.le]

/-- Three data and a prediction point, all four on one meridian circle at right angles: if the semivariance at 180 degrees is
more than twice the one at 90 degrees, the returned variance is negative. -/
theorem poles_negative {m : String} {l : List ℝ} (hv : ValidModel m (listMeaning m l)) {γ : ℝ → ℝ}
    (hb : Builtin m (listMeaning m l) γ) (h0 : 0 < γ 90) (h1 : 2 * γ 90 < γ 180) (h2 : γ 180 < 4 * γ 90) (z : Fin 3 → ℝ) :
    ∃ s r var, OK.create stdEnv Demo.polesX Demo.polesY z (Demo.geo m l) = .ok s ∧
      s.execute stdEnv (Demo.pts [(180, 0)] "vectorized") = .ok r ∧ r.ss[0]? = some (some var) ∧ var < 0 := by
  obtain ⟨s, h, hps, hev, hname⟩ := geo_create stdEnv (by norm_num) Demo.polesX Demo.polesY z (Demo.geo m l)
    (by simp [Demo.geo]) (b := true) rfl rfl (m := m) rfl (l := l) rfl hv hb (.inl rfl)
  have hst := poles_strict (γ := γ) (by linarith) h2
  have ha : Admissible stdEnv (Demo.geo m l) s none :=
    ⟨stdEnv_knn, trivial, by rw [hps, hname]; exact hv.rangeOk, by intro k hk; cases hk⟩
  obtain ⟨r, hr⟩ := geo_execute (ea := Demo.pts [(180, 0)] "vectorized") h rfl (hps ▸ hev) hst ha
    (.inr (.inr ⟨rfl, by simp [Demo.pts]⟩)) (by intro k hk; cases hk) (.inr (.inl ⟨rfl, rfl⟩))
  have hq : queryAt (Demo.pts [(180, 0)] "vectorized") 0 = some (180, 0) := by simp [queryAt, Demo.pts]
  have e : okDistance (Demo.geo m l) = sphereDist := okDistance_sphere' rfl
  obtain ⟨S, hS, -, est, var, -, h3, hB⟩ := C28_best_2d (exact := true) h ha (hps ▸ hev) rfl
    (by rw [e]; exact hst.condNeg) hr (j := 0) (p := (180, 0)) hq (by simp [maskedAt, Demo.pts]) (.inl rfl)
  obtain rfl := hS rfl
  rw [e] at hB
  refine ⟨s, r, var, h, hr, h3, ?_⟩
  have := hB.best ![-1, 1, 1] ⟨by simp, by simp [Fin.sum_univ_three], by simp⟩
  rw [poles_data, poles_query] at this
  simp [errorVariance, semivar, semivarTo, Fin.sum_univ_three] at this
  norm_num at this
  linarith

/-- The power model with any exponent between 1 and 2. -/
theorem C57_power_negative (scale exponent : ℝ) (hs : 0 < scale) (h1 : 1 < exponent) (h2 : exponent < 2) (z : Fin 3 → ℝ) :
    ∃ s r var, OK.create stdEnv Demo.polesX Demo.polesY z (Demo.geo "power" [scale, exponent, 0]) = .ok s ∧
      s.execute stdEnv (Demo.pts [(180, 0)] "vectorized") = .ok r ∧ r.ss[0]? = some (some var) ∧ var < 0 := by
  have e : (180 : ℝ) ^ exponent = 2 ^ exponent * 90 ^ exponent := by
    rw [← Real.mul_rpow (by norm_num) (by norm_num)]; norm_num
  have p1 : (2 : ℝ) < 2 ^ exponent := by
    have := Real.rpow_lt_rpow_of_exponent_lt (x := 2) (by norm_num) h1
    rwa [Real.rpow_one] at this
  have p2 : (2 : ℝ) ^ exponent < 4 := by
    have := Real.rpow_lt_rpow_of_exponent_lt (x := 2) (by norm_num) h2
    norm_num at this
    exact this
  have p3 : 0 < scale * (90 : ℝ) ^ exponent := mul_pos hs (Real.rpow_pos_of_pos (by norm_num) _)
  refine poles_negative (γ := powerFormula scale exponent 0) ?_ ?_ ?_ ?_ ?_ z
  · exact .inr (.inl ⟨scale, exponent, 0, rfl, by simp [listMeaning], hs.le, by linarith, h2, le_rfl⟩)
  · simp only [listMeaning, if_pos]
    exact builtin_power.2 rfl
  · simpa [powerFormula] using p3
  · simp only [powerFormula, add_zero, e]
    nlinarith
  · simp only [powerFormula, add_zero, e]
    nlinarith

/-- The gaussian model with a range of at least 240 degrees. -/
theorem C57_gaussian_negative (psill range : ℝ) (hs : 0 < psill) (hr : 240 ≤ range) (z : Fin 3 → ℝ) :
    ∃ s r var, OK.create stdEnv Demo.polesX Demo.polesY z (Demo.geo "gaussian" [psill, range, 0]) = .ok s ∧
      s.execute stdEnv (Demo.pts [(180, 0)] "vectorized") = .ok r ∧ r.ss[0]? = some (some var) ∧ var < 0 := by
  set q : ℝ := Real.exp (-(1 / (range * 4 / 7) ^ 2 * 90 ^ 2)) with hq
  have q1 : q < 1 := by
    rw [hq, Real.exp_lt_one_iff]
    have : 0 < range := by linarith
    have : 0 < 1 / (range * 4 / 7) ^ 2 * 90 ^ 2 := by positivity
    linarith
  have q0 : 56 / 100 ≤ q := by
    have h1 := Real.add_one_le_exp (-(1 / (range * 4 / 7) ^ 2 * 90 ^ 2))
    have h2 : 1 / (range * 4 / 7) ^ 2 * 90 ^ 2 ≤ 44 / 100 := by
      rw [div_mul_eq_mul_div, one_mul, div_le_iff₀ (by positivity)]
      nlinarith
    linarith
  have q4 : Real.exp (-(1 / (range * 4 / 7) ^ 2 * 180 ^ 2)) = q ^ 4 := by
    rw [hq, ← Real.exp_nat_mul]
    congr 1
    push_cast
    ring
  have f1 : gaussianFormula psill range 0 90 = psill * (1 - q) := by rw [gaussian_eq, add_zero]
  have f2 : gaussianFormula psill range 0 180 = psill * (1 - q ^ 4) := by rw [gaussian_eq, add_zero, q4]
  have f3 : 1 - q ^ 4 = (1 - q) * (1 + q + q ^ 2 + q ^ 3) := by ring
  have f4 : 0 < psill * (1 - q) := mul_pos hs (by linarith)
  have q2 : (56 / 100) ^ 2 ≤ q ^ 2 := by gcongr
  have q3 : (56 / 100) ^ 3 ≤ q ^ 3 := by gcongr
  have q2' : q ^ 2 < 1 := by nlinarith
  have q3' : q ^ 3 < 1 := by nlinarith
  refine poles_negative (γ := gaussianFormula psill range 0) ?_ ?_ ?_ ?_ ?_ z
  · exact .inr (.inr ⟨psill, range, 0, by simp, by simp [listMeaning], hs.le, by linarith, le_rfl⟩)
  · have : listMeaning "gaussian" [psill, range, 0] = [psill, range, 0] := by simp [listMeaning]
    rw [this]
    exact builtin_gaussian.2 rfl
  · rw [f1]; exact f4
  · rw [f1, f2, f3, ← mul_assoc]
    nlinarith
  · rw [f1, f2, f3, ← mul_assoc]
    nlinarith

/-- The same three data with an exponential or a spherical variogram: the hypotheses hold and the variance is not negative. -/
example (m : String) (hm : m = "exponential" ∨ m = "spherical") (z : Fin 3 → ℝ) (c : ℝ) (hc : 0 ≤ c) : ∃ s r var,
    OK.create stdEnv Demo.polesX Demo.polesY z (Demo.geo m [1 + c, 50, c]) = .ok s ∧
      s.execute stdEnv (Demo.pts [(180, 0)] "vectorized") = .ok r ∧ r.ss[0]? = some (some var) ∧ 0 ≤ var := by
  have hl : listMeaning m [1 + c, 50, c] = [1, 50, c] := by rcases hm with rfl | rfl <;> simp [listMeaning]
  have hv : ValidOnSphere m [1, 50, c] := .inr (.inr ⟨1, 50, c, hm, rfl, by norm_num, by norm_num, hc⟩)
  have hsep : SeparatesOnSphere m [1, 50, c] fun i => (Demo.polesX i, Demo.polesY i) := by
    refine .inr ⟨⟨1, [50, c], rfl, one_pos⟩, fun i j hij => fun e => ?_, ?_⟩
    · have := congrFun (congrFun poles_data i) j
      beta_reduce at this
      rw [sphereDist_zero.2 e] at this
      fin_cases i <;> fin_cases j <;> simp at hij this
    · rintro (h | ⟨_, _, h, -⟩) <;> rcases hm with rfl | rfl <;> simp at h
  obtain ⟨hv', γ, hb, -⟩ := hv.builtin
  obtain ⟨s, h, hps, hev, hname⟩ := geo_create stdEnv (by norm_num) Demo.polesX Demo.polesY z
    (Demo.geo m [1 + c, 50, c]) (by simp [Demo.geo]) (b := true) rfl rfl (m := m) rfl
    (l := [1 + c, 50, c]) rfl (hl.symm ▸ hv') (γ := γ) (hl.symm ▸ hb) (.inl rfl)
  rw [hl] at hps hev
  have ha : Admissible stdEnv (Demo.geo m [1 + c, 50, c]) s none :=
    ⟨stdEnv_knn, trivial, by rw [hps, hname]; exact hv'.rangeOk, by intro k hk; cases hk⟩
  obtain ⟨r, hr⟩ := C57_execute (ea := Demo.pts [(180, 0)] "vectorized") h rfl (m := m) rfl (hps ▸ hv)
    (hps ▸ hsep) ha (.inr (.inr ⟨rfl, by simp [Demo.pts]⟩)) (by intro k hk; cases hk) (.inr (.inl ⟨rfl, rfl⟩))
  have hq : queryAt (Demo.pts [(180, 0)] "vectorized") 0 = some (180, 0) := by simp [queryAt, Demo.pts]
  have hcl : Clear true γ fun i => sphereDist (180, 0) (Demo.polesX i, Demo.polesY i) := by
    intro _ i hi
    exfalso
    have := congrFun poles_query i
    beta_reduce at this hi
    rw [this] at hi
    fin_cases i <;> simp at hi <;> norm_num at hi
  obtain ⟨S, -, -, est, var, -, h3, -⟩ := C57_best (exact := true) h rfl ha (m := m) rfl (hps ▸ hv)
    (hps ▸ hev) rfl hr hq (by simp [maskedAt, Demo.pts]) (.inl rfl)
  refine ⟨s, r, var, h, hr, h3, C57_nonneg (exact := true) h rfl ha (m := m) rfl (hps ▸ hv) (hps ▸ hev) rfl hr
    (fun p hp => ?_) h3⟩
  obtain rfl : p = (180, 0) := by rw [hq] at hp; exact (Option.some.inj hp).symm
  exact hcl

/-- Four data on a meridian circle at right angles: `execute` never returns under the linear model without nugget. -/
example (z : Fin 4 → ℝ) : ∃ s, OK.create stdEnv ![0, 0, 0, 180] ![0, 90, -90, 0] z (Demo.geo "linear" [1, 0]) = .ok s ∧
    ∀ r, s.execute stdEnv (Demo.pts [(20, 10)] "vectorized") ≠ .ok r := by
  have hv : ValidModel "linear" (listMeaning "linear" [1, 0]) := .inl ⟨1, 0, rfl, rfl, zero_le_one, le_rfl⟩
  obtain ⟨s, h, hps, hev, hname⟩ := geo_create stdEnv (by norm_num) ![0, 0, 0, 180] ![0, 90, -90, 0] z
    (Demo.geo "linear" [1, 0]) (by simp [Demo.geo]) (b := true) rfl rfl (m := "linear") rfl
    (l := [1, 0]) rfl hv (builtin_linear.2 rfl) (.inl rfl)
  refine ⟨s, h, fun r => C57_opposite_singular (slope := 1) h rfl rfl (hps ▸ hev) (i := 0) (j := 3) (k := 1) (l := 2)
    (by decide) ?_ ?_ ⟨stdEnv_knn, trivial, by rw [hps, hname]; exact hv.rangeOk, by intro k hk; cases hk⟩ rfl r⟩
  · ext k
    fin_cases k <;> simp [onSphere, rad_zero, rad_180]
  · ext k
    fin_cases k <;> simp [onSphere, rad_zero, rad_90, rad_neg_90]

end
end PyKrige
