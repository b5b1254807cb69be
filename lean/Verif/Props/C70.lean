import Verif.Lemmas.Field
import Verif.Props.C49
import Verif.Props.C07
import Verif.Props.C54

/-!
# C70: the variance bounds the error, and dense data give the truth

For a field that the variogram calls smooth (`Spec.RoughAtMost`), sampled without error: the squared error of the estimate
is at most the roughness of the field times the kriging variance that `execute` returns, at every query and for every layout
of the data; for ordinary kriging with all data, no smaller bound holds (`C70_sharp_*`).  As the variance is small near a
datum (C49), the estimates come as near to the truth as one likes where the data are dense, uniformly in the data
(`C70_dense_*`).
-/

set_option linter.unusedSectionVars false

namespace PyKrige
noncomputable section
open Matrix Spec

theorem okDistance_comm (args : OKArgs) (p q : ℝ × ℝ) : okDistance args p q = okDistance args q p := distance2_comm _ _ _ _ _

theorem ok3Distance_comm (args : OK3DArgs) (p q : ℝ × ℝ × ℝ) : ok3Distance args p q = ok3Distance args q p :=
  distance3_comm _ _ _

theorem ukDistance_comm (args : UKArgs) (p q : ℝ × ℝ) : ukDistance args p q = ukDistance args q p := anisoDist2_comm _ _ _ _

theorem uk3Distance_comm (args : UK3DArgs) (p q : ℝ × ℝ × ℝ) : uk3Distance args p q = uk3Distance args q p :=
  distance3_comm _ _ _

theorem semivarTo_clear {ι : Type} {exact : Bool} {γ : ℝ → ℝ} {d : ι → ℝ} (h : exact = false ∨ ∀ i, 1 / 10 ^ 10 < d i) :
    semivarTo exact γ d = fun i => γ (d i) := by
  funext i
  unfold semivarTo
  rcases h with rfl | h
  · exact if_neg (by simp)
  · exact if_neg (by simpa using fun _ => h i)

theorem Spec.ValidOn.condNeg {P : Type} {dist : P → P → ℝ} {γ : ℝ → ℝ} (hv : ValidOn dist γ) (hd : ∀ p q, dist p q = dist q p)
    {ι : Type} [Fintype ι] (x : ι → P) : CondNeg (semivar γ fun i j => dist (x i) (x j)) :=
  ⟨fun i j => by
    unfold semivar
    by_cases h : i = j
    · rw [if_pos h, if_pos h.symm]
    · rw [if_neg h, if_neg (Ne.symm h)]; exact congrArg γ (hd _ _), fun c hc => by
    have := hv ι x c hc
    unfold contrastVariance at this
    linarith⟩

/-- The built-in models with admissible parameters are valid at all places of Euclidean space. -/
theorem Valid3.on {γ : ℝ → ℝ} (h : Valid3 γ) {P : Type} {dist : P → P → ℝ} {e : P → E3}
    (he : ∀ p q, dist p q = ‖e p - e q‖) : ValidOn dist γ := fun ι _ p c hc => by
  have := (h.data he p).contrast c hc
  unfold contrastVariance
  linarith

/-- The built-in models with admissible parameters and no nugget: no jump at 0. -/
theorem C70_builtin {m : String} {ps : List ℝ} {γ : ℝ → ℝ} (hv : ValidModel m ps) (hb : Builtin m ps γ) (h0 : γ 0 = 0) :
    NoJump γ := by
  have hc : ContinuousOn γ (Set.Ici 0) := by
    rcases hv with ⟨a, c, rfl, rfl, ha, hc⟩ | ⟨a, p, c, rfl, rfl, ha, h1, h2, hc⟩ | ⟨a, r, c, hm, rfl, ha, hr, hc⟩
    · exact C54_builtin_continuous (a := a) (b := 0) (c := c) (.inl hb)
    · exact C54_builtin_continuous (.inr (.inl ⟨hb, h1.le⟩))
    · exact C54_builtin_continuous (.inr (.inr ⟨hr, _, by simp at hm ⊢; tauto, hb⟩))
  intro η hη
  obtain ⟨δ, hδ, h⟩ := Metric.continuousWithinAt_iff.1 (hc 0 (by simp)) η hη
  refine ⟨δ, hδ, fun d hd hlt => ?_⟩
  have := h (x := d) hd (by rwa [Real.dist_eq, sub_zero, abs_of_nonneg hd])
  rw [Real.dist_eq, h0, sub_zero] at this
  exact (abs_lt.1 this).2

/-! ### Which fields are smooth -/

/-- Sums of variogram functions around finitely many places, the coefficients having the sum zero, plus a constant: their
roughness is the variance of the same combination of values. -/
theorem C70_fields {P : Type} {dist : P → P → ℝ} {γ : ℝ → ℝ} (hv : ValidOn dist γ) (hd : ∀ p q, dist p q = dist q p) {m : ℕ}
    (q : Fin m → P) {a : Fin m → ℝ} (ha : ∑ j, a j = 0) (c : ℝ) :
    RoughAtMost dist γ (fun p => c + ∑ j, a j * γ (dist p (q j)))
      (-∑ i, ∑ j, a i * a j * (if i = j then 0 else γ (dist (q i) (q j)))) := by
  intro ι _ p w hw
  have h := roughAtMost_kernels hv hd q ha ι p w hw
  have e : ∑ i, w i * (c + ∑ j, a j * γ (dist (p i) (q j))) = ∑ i, w i * ∑ j, a j * γ (dist (p i) (q j)) := by
    simp only [mul_add, Finset.sum_add_distrib]
    rw [← Finset.sum_mul, hw]
    ring
  have e2 : (-∑ i, ∑ j, a i * a j * (if i = j then 0 else γ (dist (q i) (q j)))) = contrastVariance dist γ q a := by
    unfold contrastVariance
    refine congrArg Neg.neg (Finset.sum_congr rfl fun i _ => Finset.sum_congr rfl fun j _ => ?_)
    unfold semivar
    by_cases h : i = j
    · rw [if_pos h, if_pos h]
    · rw [if_neg h, if_neg h]
  rw [e, e2]
  exact h

/-- Multiples and sums of smooth fields are smooth (the square root of the roughness obeys the triangle inequality). -/
theorem C70_combine {P : Type} {dist : P → P → ℝ} {γ : ℝ → ℝ} (hv : ValidOn dist γ) {f g : P → ℝ} {E F : ℝ} (hE : 0 ≤ E)
    (hF : 0 ≤ F) (hf : RoughAtMost dist γ f E) (hg : RoughAtMost dist γ g F) (s t : ℝ) :
    RoughAtMost dist γ (fun p => s * f p + t * g p) ((|s| * Real.sqrt E + |t| * Real.sqrt F) ^ 2) := by
  refine (Spec.RoughAtMost.smul s hf |> fun h => ?_ : RoughAtMost dist γ (fun p => s * f p) ((|s| * Real.sqrt E) ^ 2)).add hv
    (by positivity) (by positivity) ?_
  · rwa [mul_pow, sq_abs, Real.sq_sqrt hE]
  · have := Spec.RoughAtMost.smul t hg
    rwa [mul_pow, sq_abs, Real.sq_sqrt hF]


/-! ### `OrdinaryKriging` -/

/-- `OrdinaryKriging`, with or without moving window. -/
theorem C70_error_2d {n : ℕ} {env : Env} {x y z : Fin n → ℝ} {args : OKArgs} {s : OK n}
    (h : OK.create env x y z args = .ok s) {ea : ExecArgs} (ha : Admissible env args s ea.nClosest)
    {γ : ℝ → ℝ} (hγ : s.variogramFunction s.params = .ok γ)
    (hG : CondNeg (semivar γ fun i i' => okDistance args (x i, y i) (x i', y i')))
    {r : ExecResult} (hr : s.execute env ea = .ok r) {j : ℕ} {p : ℝ × ℝ} (hq : queryAt ea j = some p)
    (hm : maskedAt ea j = false) (hp : args.pseudoInv = false ∨ ea.nClosest ≠ none)
    (hfar : args.exactValues = .bool false ∨ ∀ i, 1 / 10 ^ 10 < okDistance args p (x i, y i))
    {f : ℝ × ℝ → ℝ} {E : ℝ} (hf : RoughAtMost (okDistance args) γ f E) (hdata : ∀ i, z i = f (x i, y i)) :
    ∃ est var, r.z[j]? = some (some est) ∧ r.ss[j]? = some (some var) ∧ (f p - est) ^ 2 ≤ E * var := by
  obtain ⟨exact, hex⟩ : ∃ e, args.exactValues = .bool e := ⟨_, (OK.create_fields h).2.1⟩
  have hfar' : exact = false ∨ ∀ i, 1 / 10 ^ 10 < okDistance args p (x i, y i) :=
    hfar.imp_left fun e => by rw [hex] at e; exact BoolArg.bool.inj e
  obtain ⟨S, -, -, est, var, hz, hv, hb⟩ := C28_best_2d h ha hγ hex hG hr hq hm (hp.imp_right .inl)
  refine ⟨est, var, hz, hv, ?_⟩
  rw [semivarTo_clear hfar'] at hb
  have := hb.error_sq_le (dist := okDistance args) (x := fun i => (x i, y i)) (p := p) (β := fun _ => 0) (L := 0)
    (okDistance_comm args) hf (fun i => by simpa using hdata i)
  simpa using this

/-- `OrdinaryKriging` with all data: the error in terms of the distance to a datum. -/
theorem C70_near_2d {n : ℕ} {env : Env} {x y z : Fin n → ℝ} {args : OKArgs} {s : OK n}
    (h : OK.create env x y z args = .ok s) {ea : ExecArgs} (ha : Admissible env args s ea.nClosest)
    (hn : ea.nClosest = none) {γ : ℝ → ℝ} (hγ : s.variogramFunction s.params = .ok γ)
    (hG : CondNeg (semivar γ fun i i' => okDistance args (x i, y i) (x i', y i'))) (hpos : ∀ d, 0 ≤ d → 0 ≤ γ d)
    {r : ExecResult} (hr : s.execute env ea = .ok r) {j : ℕ} {p : ℝ × ℝ} (hq : queryAt ea j = some p)
    (hm : maskedAt ea j = false) (hp : args.pseudoInv = false)
    (hfar : args.exactValues = .bool false ∨ ∀ i, 1 / 10 ^ 10 < okDistance args p (x i, y i))
    {f : ℝ × ℝ → ℝ} {E : ℝ} (hE : 0 ≤ E) (hf : RoughAtMost (okDistance args) γ f E) (hdata : ∀ i, z i = f (x i, y i)) :
    ∃ est, r.z[j]? = some (some est) ∧ ∀ i, (f p - est) ^ 2 ≤ 2 * E * γ (okDistance args p (x i, y i)) := by
  obtain ⟨est, var, hz, hv, hle⟩ := C70_error_2d h ha hγ hG hr hq hm (.inl hp) hfar hf hdata
  obtain ⟨var', hv', hb⟩ := C49_bound_2d h ha hn hγ hG hpos hp hr hq hm
  obtain rfl : var = var' := Option.some.inj (Option.some.inj (hv.symm.trans hv'))
  refine ⟨est, hz, fun i => hle.trans ?_⟩
  nlinarith [mul_le_mul_of_nonneg_left (hb i) hE]

/-- `OrdinaryKriging` with a moving window and a variogram that does not decrease. -/
theorem C70_near_window_2d {n : ℕ} {env : Env} {x y z : Fin n → ℝ} {args : OKArgs} {s : OK n}
    (h : OK.create env x y z args = .ok s) {ea : ExecArgs} (ha : Admissible env args s ea.nClosest)
    {k : ℕ} (hk : ea.nClosest = some (k : ℤ)) {γ : ℝ → ℝ} (hγ : s.variogramFunction s.params = .ok γ)
    (hG : CondNeg (semivar γ fun i i' => okDistance args (x i, y i) (x i', y i'))) (hpos : ∀ d, 0 ≤ d → 0 ≤ γ d)
    (hmono : ∀ d e, 0 ≤ d → d ≤ e → γ d ≤ γ e)
    {r : ExecResult} (hr : s.execute env ea = .ok r) {j : ℕ} {p : ℝ × ℝ} (hq : queryAt ea j = some p)
    (hm : maskedAt ea j = false)
    (hfar : args.exactValues = .bool false ∨ ∀ i, 1 / 10 ^ 10 < okDistance args p (x i, y i))
    {f : ℝ × ℝ → ℝ} {E : ℝ} (hE : 0 ≤ E) (hf : RoughAtMost (okDistance args) γ f E) (hdata : ∀ i, z i = f (x i, y i)) :
    ∃ est, r.z[j]? = some (some est) ∧ ∀ i, (f p - est) ^ 2 ≤ 2 * E * γ (okDistance args p (x i, y i)) := by
  obtain ⟨est, var, hz, hv, hle⟩ := C70_error_2d h ha hγ hG hr hq hm (.inr (by simp [hk])) hfar hf hdata
  obtain ⟨var', hv', hb⟩ := C49_window_2d h ha hk hγ hG hpos hmono hr hq hm
  obtain rfl : var = var' := Option.some.inj (Option.some.inj (hv.symm.trans hv'))
  refine ⟨est, hz, fun i => hle.trans ?_⟩
  nlinarith [mul_le_mul_of_nonneg_left (hb i) hE]

/-- Dense data: for a smooth field and a variogram without nugget there is, for every accuracy wanted, a distance such that
estimates at all places with a datum within that distance are that accurate - for all data sets, of any size. -/
theorem C70_dense_2d {args : OKArgs} {γ : ℝ → ℝ} (hv : ValidOn (okDistance args) γ) (hpos : ∀ d, 0 ≤ d → 0 ≤ γ d) (hj : NoJump γ)
    {f : ℝ × ℝ → ℝ} {E : ℝ} (hE : 0 ≤ E) (hf : RoughAtMost (okDistance args) γ f E) (hp : args.pseudoInv = false) {ε : ℝ} (hε : 0 < ε) :
    ∃ δ, 0 < δ ∧ ∀ (n : ℕ) (env : Env) (x y z : Fin n → ℝ) (s : OK n) (ea : ExecArgs) (r : ExecResult) (j : ℕ) (p : ℝ × ℝ),
      (∀ i, z i = f (x i, y i)) → OK.create env x y z args = .ok s → s.variogramFunction s.params = .ok γ →
      Admissible env args s ea.nClosest → ea.nClosest = none → s.execute env ea = .ok r → queryAt ea j = some p →
      maskedAt ea j = false → (args.exactValues = .bool false ∨ ∀ i, 1 / 10 ^ 10 < okDistance args p (x i, y i)) →
      (∃ i, okDistance args p (x i, y i) < δ) → ∃ est, r.z[j]? = some (some est) ∧ |f p - est| < ε := by
  obtain ⟨δ, hδ, hγδ⟩ := hj (ε ^ 2 / (2 * E + 1)) (by positivity)
  refine ⟨δ, hδ, fun n env x y z s ea r j p hdata h hγ ha hn hr hq hm hfar ⟨i, hi⟩ => ?_⟩
  obtain ⟨est, hz, hle⟩ := C70_near_2d h ha hn hγ (hv.condNeg (okDistance_comm args) fun i => (x i, y i)) hpos hr hq hm hp hfar hE hf hdata
  refine ⟨est, hz, ?_⟩
  have h1 := hle i
  have h2 := hγδ _ (okDistance_nonneg args p (x i, y i)) hi
  have h3 : (f p - est) ^ 2 < ε ^ 2 := by
    rw [lt_div_iff₀ (by positivity)] at h2
    have h4 := hpos _ (okDistance_nonneg args p (x i, y i))
    nlinarith
  exact abs_lt_of_sq_lt_sq h3 hε.le

/-- The bound cannot be improved: for every layout of the data and every query there is a field, of roughness the variance
`var`, whose estimate from the data is wrong by `var` (so the squared error is roughness times variance). -/
theorem C70_sharp_2d {n : ℕ} {env : Env} {x y z : Fin n → ℝ} {args : OKArgs} {s : OK n}
    (h : OK.create env x y z args = .ok s) {ea : ExecArgs} (ha : Admissible env args s ea.nClosest)
    (hn : ea.nClosest = none) (hg : ParamsGiven args.variogramModel args.params)
    {γ : ℝ → ℝ} (hγ : s.variogramFunction s.params = .ok γ)
    (hV : ValidOn (okDistance args) γ) (h0 : ∀ q, γ (okDistance args q q) = 0)
    {r : ExecResult} (hr : s.execute env ea = .ok r) {j : ℕ} {p : ℝ × ℝ} (hq : queryAt ea j = some p)
    (hm : maskedAt ea j = false) (hp : args.pseudoInv = false)
    (hfar : args.exactValues = .bool false ∨ ∀ i, 1 / 10 ^ 10 < okDistance args p (x i, y i)) :
    ∃ var f s' r' est, r.ss[j]? = some (some var) ∧ RoughAtMost (okDistance args) γ f var ∧
      OK.create env x y (fun i => f (x i, y i)) args = .ok s' ∧ s'.execute env ea = .ok r' ∧ r'.ss = r.ss ∧
      r'.z[j]? = some (some est) ∧ f p - est = var := by
  obtain ⟨exact, hex⟩ : ∃ e, args.exactValues = .bool e := ⟨_, (OK.create_fields h).2.1⟩
  have hfar' : exact = false ∨ ∀ i, 1 / 10 ^ 10 < okDistance args p (x i, y i) :=
    hfar.imp_left fun e => by rw [hex] at e; exact BoolArg.bool.inj e
  have hG := hV.condNeg (okDistance_comm args) fun i => (x i, y i)
  obtain ⟨S, hS, -, est, var, hz, hv, hb⟩ := C28_best_2d h ha hγ hex hG hr hq hm (.inl hp)
  obtain rfl := hS hn
  rw [semivarTo_clear hfar'] at hb
  obtain ⟨w, hw, hwv, f, hf, hfw⟩ := hb.exists_worst (dist := okDistance args) (x := fun i => (x i, y i)) (p := p) hV (okDistance_comm args) h0
  obtain ⟨lags', stats', h'⟩ := OK.create_other h (fun i => f (x i, y i)) (Or.inl hg)
  obtain ⟨s₂, r', -, -, e1, hr', -, -, -, -, -, hss, -⟩ := C07_linear_2d h ha hg hr (fun i => f (x i, y i)) 0 0
  obtain rfl : s₂ = _ := Except.ok.inj (e1.symm.trans h')
  obtain ⟨S', hS', -, est', var', hz', hv', hb'⟩ := C28_best_2d h' ⟨ha.knn, ha.noClash, ha.range, ha.window⟩ hγ hex hG hr' hq hm (.inl hp)
  obtain rfl := hS' hn
  rw [semivarTo_clear hfar'] at hb'
  refine ⟨var, f, _, r', est', hv, hf, h', hr', hss, hz', ?_⟩
  obtain ⟨u, hu, hu2⟩ := hb.exists_weights
  have hvar0 : 0 ≤ var := by
    have := hV (Option (Fin n)) (fun o => o.elim p fun i => (x i, y i)) (fun o => o.elim (-1) u)
      (by rw [Fintype.sum_option]; simp [hu.sum_one])
    rwa [contrastVariance_eq, semivar_option (okDistance_comm args), quad_withPoint, neg_neg, ← hu2.2] at this
  obtain ⟨-, he⟩ := Spec.IsBlue.same_smooth (dist := okDistance args) (x := fun i => (x i, y i)) (f := f) hf hvar0 hb hb' hw hwv fun i => rfl
  rw [he]
  exact hfw


/-! ### `OrdinaryKriging3D` -/

/-- `OrdinaryKriging3D`, with or without moving window. -/
theorem C70_error_3d {n : ℕ} {env : Env} {x y z v : Fin n → ℝ} {args : OK3DArgs} {s : OK3D n}
    (h : OK3D.create env x y z v args = .ok s) {ea : ExecArgs3} (hkn : KnnSpec env) (hwin : WindowFits n ea.nClosest)
    {γ : ℝ → ℝ} (hγ : s.variogramFunction s.params = .ok γ)
    (hG : CondNeg (semivar γ fun i i' => ok3Distance args (x i, y i, z i) (x i', y i', z i')))
    {r : ExecResult} (hr : s.execute env ea = .ok r) {j : ℕ} {p : ℝ × ℝ × ℝ} (hq : queryAt3 ea j = some p)
    (hm : maskedAt3 ea j = false) (hp : args.pseudoInv = false ∨ ea.nClosest ≠ none)
    (hfar : args.exactValues = .bool false ∨ ∀ i, 1 / 10 ^ 10 < ok3Distance args p (x i, y i, z i))
    {f : ℝ × ℝ × ℝ → ℝ} {E : ℝ} (hf : RoughAtMost (ok3Distance args) γ f E) (hdata : ∀ i, v i = f (x i, y i, z i)) :
    ∃ est var, r.z[j]? = some (some est) ∧ r.ss[j]? = some (some var) ∧ (f p - est) ^ 2 ≤ E * var := by
  obtain ⟨exact, hex⟩ : ∃ e, args.exactValues = .bool e := ⟨_, (OK3D.create_fields h).2.1⟩
  have hfar' : exact = false ∨ ∀ i, 1 / 10 ^ 10 < ok3Distance args p (x i, y i, z i) :=
    hfar.imp_left fun e => by rw [hex] at e; exact BoolArg.bool.inj e
  obtain ⟨S, -, -, est, var, hz, hv, hb⟩ := C28_best_3d h hkn hwin hγ hex hG hr hq hm (hp.imp_right .inl)
  refine ⟨est, var, hz, hv, ?_⟩
  rw [semivarTo_clear hfar'] at hb
  have := hb.error_sq_le (dist := ok3Distance args) (x := fun i => (x i, y i, z i)) (p := p) (β := fun _ => 0) (L := 0)
    (ok3Distance_comm args) hf (fun i => by simpa using hdata i)
  simpa using this

/-- `OrdinaryKriging3D` with all data: the error in terms of the distance to a datum. -/
theorem C70_near_3d {n : ℕ} {env : Env} {x y z v : Fin n → ℝ} {args : OK3DArgs} {s : OK3D n}
    (h : OK3D.create env x y z v args = .ok s) {ea : ExecArgs3} (hkn : KnnSpec env) (hwin : WindowFits n ea.nClosest)
    (hn : ea.nClosest = none) {γ : ℝ → ℝ} (hγ : s.variogramFunction s.params = .ok γ)
    (hG : CondNeg (semivar γ fun i i' => ok3Distance args (x i, y i, z i) (x i', y i', z i'))) (hpos : ∀ d, 0 ≤ d → 0 ≤ γ d)
    {r : ExecResult} (hr : s.execute env ea = .ok r) {j : ℕ} {p : ℝ × ℝ × ℝ} (hq : queryAt3 ea j = some p)
    (hm : maskedAt3 ea j = false) (hp : args.pseudoInv = false)
    (hfar : args.exactValues = .bool false ∨ ∀ i, 1 / 10 ^ 10 < ok3Distance args p (x i, y i, z i))
    {f : ℝ × ℝ × ℝ → ℝ} {E : ℝ} (hE : 0 ≤ E) (hf : RoughAtMost (ok3Distance args) γ f E) (hdata : ∀ i, v i = f (x i, y i, z i)) :
    ∃ est, r.z[j]? = some (some est) ∧ ∀ i, (f p - est) ^ 2 ≤ 2 * E * γ (ok3Distance args p (x i, y i, z i)) := by
  obtain ⟨est, var, hz, hv, hle⟩ := C70_error_3d h hkn hwin hγ hG hr hq hm (.inl hp) hfar hf hdata
  obtain ⟨var', hv', hb⟩ := C49_bound_3d h hkn hwin hn hγ hG hpos hp hr hq hm
  obtain rfl : var = var' := Option.some.inj (Option.some.inj (hv.symm.trans hv'))
  refine ⟨est, hz, fun i => hle.trans ?_⟩
  nlinarith [mul_le_mul_of_nonneg_left (hb i) hE]

/-- `OrdinaryKriging3D` with a moving window and a variogram that does not decrease. -/
theorem C70_near_window_3d {n : ℕ} {env : Env} {x y z v : Fin n → ℝ} {args : OK3DArgs} {s : OK3D n}
    (h : OK3D.create env x y z v args = .ok s) {ea : ExecArgs3} (hkn : KnnSpec env) (hwin : WindowFits n ea.nClosest)
    {k : ℕ} (hk : ea.nClosest = some (k : ℤ)) {γ : ℝ → ℝ} (hγ : s.variogramFunction s.params = .ok γ)
    (hG : CondNeg (semivar γ fun i i' => ok3Distance args (x i, y i, z i) (x i', y i', z i'))) (hpos : ∀ d, 0 ≤ d → 0 ≤ γ d)
    (hmono : ∀ d e, 0 ≤ d → d ≤ e → γ d ≤ γ e)
    {r : ExecResult} (hr : s.execute env ea = .ok r) {j : ℕ} {p : ℝ × ℝ × ℝ} (hq : queryAt3 ea j = some p)
    (hm : maskedAt3 ea j = false)
    (hfar : args.exactValues = .bool false ∨ ∀ i, 1 / 10 ^ 10 < ok3Distance args p (x i, y i, z i))
    {f : ℝ × ℝ × ℝ → ℝ} {E : ℝ} (hE : 0 ≤ E) (hf : RoughAtMost (ok3Distance args) γ f E) (hdata : ∀ i, v i = f (x i, y i, z i)) :
    ∃ est, r.z[j]? = some (some est) ∧ ∀ i, (f p - est) ^ 2 ≤ 2 * E * γ (ok3Distance args p (x i, y i, z i)) := by
  obtain ⟨est, var, hz, hv, hle⟩ := C70_error_3d h hkn hwin hγ hG hr hq hm (.inr (by simp [hk])) hfar hf hdata
  obtain ⟨var', hv', hb⟩ := C49_window_3d h hkn hwin hk hγ hG hpos hmono hr hq hm
  obtain rfl : var = var' := Option.some.inj (Option.some.inj (hv.symm.trans hv'))
  refine ⟨est, hz, fun i => hle.trans ?_⟩
  nlinarith [mul_le_mul_of_nonneg_left (hb i) hE]

/-- Dense data: for a smooth field and a variogram without nugget there is, for every accuracy wanted, a distance such that
estimates at all places with a datum within that distance are that accurate - for all data sets, of any size. -/
theorem C70_dense_3d {args : OK3DArgs} {γ : ℝ → ℝ} (hv : ValidOn (ok3Distance args) γ) (hpos : ∀ d, 0 ≤ d → 0 ≤ γ d) (hj : NoJump γ)
    {f : ℝ × ℝ × ℝ → ℝ} {E : ℝ} (hE : 0 ≤ E) (hf : RoughAtMost (ok3Distance args) γ f E) (hp : args.pseudoInv = false) {ε : ℝ} (hε : 0 < ε) :
    ∃ δ, 0 < δ ∧ ∀ (n : ℕ) (env : Env) (x y z v : Fin n → ℝ) (s : OK3D n) (ea : ExecArgs3) (r : ExecResult) (j : ℕ) (p : ℝ × ℝ × ℝ),
      (∀ i, v i = f (x i, y i, z i)) → OK3D.create env x y z v args = .ok s → s.variogramFunction s.params = .ok γ →
      KnnSpec env → WindowFits n ea.nClosest → ea.nClosest = none → s.execute env ea = .ok r → queryAt3 ea j = some p →
      maskedAt3 ea j = false → (args.exactValues = .bool false ∨ ∀ i, 1 / 10 ^ 10 < ok3Distance args p (x i, y i, z i)) →
      (∃ i, ok3Distance args p (x i, y i, z i) < δ) → ∃ est, r.z[j]? = some (some est) ∧ |f p - est| < ε := by
  obtain ⟨δ, hδ, hγδ⟩ := hj (ε ^ 2 / (2 * E + 1)) (by positivity)
  refine ⟨δ, hδ, fun n env x y z v s ea r j p hdata h hγ hkn hwin hn hr hq hm hfar ⟨i, hi⟩ => ?_⟩
  obtain ⟨est, hz, hle⟩ := C70_near_3d h hkn hwin hn hγ (hv.condNeg (ok3Distance_comm args) fun i => (x i, y i, z i)) hpos hr hq hm hp hfar hE hf hdata
  refine ⟨est, hz, ?_⟩
  have h1 := hle i
  have h2 := hγδ _ (ok3Distance_nonneg args p (x i, y i, z i)) hi
  have h3 : (f p - est) ^ 2 < ε ^ 2 := by
    rw [lt_div_iff₀ (by positivity)] at h2
    have h4 := hpos _ (ok3Distance_nonneg args p (x i, y i, z i))
    nlinarith
  exact abs_lt_of_sq_lt_sq h3 hε.le

/-- The bound cannot be improved: for every layout of the data and every query there is a field, of roughness the variance
`var`, whose estimate from the data is wrong by `var` (so the squared error is roughness times variance). -/
theorem C70_sharp_3d {n : ℕ} {env : Env} {x y z v : Fin n → ℝ} {args : OK3DArgs} {s : OK3D n}
    (h : OK3D.create env x y z v args = .ok s) {ea : ExecArgs3} (hkn : KnnSpec env) (hwin : WindowFits n ea.nClosest)
    (hn : ea.nClosest = none) (hg : ParamsGiven args.variogramModel args.params)
    {γ : ℝ → ℝ} (hγ : s.variogramFunction s.params = .ok γ)
    (hV : ValidOn (ok3Distance args) γ) (h0 : ∀ q, γ (ok3Distance args q q) = 0)
    {r : ExecResult} (hr : s.execute env ea = .ok r) {j : ℕ} {p : ℝ × ℝ × ℝ} (hq : queryAt3 ea j = some p)
    (hm : maskedAt3 ea j = false) (hp : args.pseudoInv = false)
    (hfar : args.exactValues = .bool false ∨ ∀ i, 1 / 10 ^ 10 < ok3Distance args p (x i, y i, z i)) :
    ∃ var f s' r' est, r.ss[j]? = some (some var) ∧ RoughAtMost (ok3Distance args) γ f var ∧
      OK3D.create env x y z (fun i => f (x i, y i, z i)) args = .ok s' ∧ s'.execute env ea = .ok r' ∧ r'.ss = r.ss ∧
      r'.z[j]? = some (some est) ∧ f p - est = var := by
  obtain ⟨exact, hex⟩ : ∃ e, args.exactValues = .bool e := ⟨_, (OK3D.create_fields h).2.1⟩
  have hfar' : exact = false ∨ ∀ i, 1 / 10 ^ 10 < ok3Distance args p (x i, y i, z i) :=
    hfar.imp_left fun e => by rw [hex] at e; exact BoolArg.bool.inj e
  have hG := hV.condNeg (ok3Distance_comm args) fun i => (x i, y i, z i)
  obtain ⟨S, hS, -, est, var, hz, hv, hb⟩ := C28_best_3d h hkn hwin hγ hex hG hr hq hm (.inl hp)
  obtain rfl := hS hn
  rw [semivarTo_clear hfar'] at hb
  obtain ⟨w, hw, hwv, f, hf, hfw⟩ := hb.exists_worst (dist := ok3Distance args) (x := fun i => (x i, y i, z i)) (p := p) hV (ok3Distance_comm args) h0
  obtain ⟨lags', stats', h'⟩ := OK3D.create_other h (fun i => f (x i, y i, z i)) (Or.inl hg)
  obtain ⟨s₂, r', -, -, e1, hr', -, -, -, -, -, hss, -⟩ := C07_linear_3d h hkn hwin hg hr (fun i => f (x i, y i, z i)) 0 0
  obtain rfl : s₂ = _ := Except.ok.inj (e1.symm.trans h')
  obtain ⟨S', hS', -, est', var', hz', hv', hb'⟩ := C28_best_3d h' hkn hwin hγ hex hG hr' hq hm (.inl hp)
  obtain rfl := hS' hn
  rw [semivarTo_clear hfar'] at hb'
  refine ⟨var, f, _, r', est', hv, hf, h', hr', hss, hz', ?_⟩
  obtain ⟨u, hu, hu2⟩ := hb.exists_weights
  have hvar0 : 0 ≤ var := by
    have := hV (Option (Fin n)) (fun o => o.elim p fun i => (x i, y i, z i)) (fun o => o.elim (-1) u)
      (by rw [Fintype.sum_option]; simp [hu.sum_one])
    rwa [contrastVariance_eq, semivar_option (ok3Distance_comm args), quad_withPoint, neg_neg, ← hu2.2] at this
  obtain ⟨-, he⟩ := Spec.IsBlue.same_smooth (dist := ok3Distance args) (x := fun i => (x i, y i, z i)) (f := f) hf hvar0 hb hb' hw hwv fun i => rfl
  rw [he]
  exact hfw


/-! ### `UniversalKriging` -/

/-- `UniversalKriging`: the field may have a trend, any combination of the drift terms. -/
theorem C70_error_uk {n : ℕ} {env : Env} {x y z : Fin n → ℝ} {args : UKArgs} {s : UK n}
    (h : UK.create env x y z args = .ok s) {ea : UKExecArgs}
    {γ : ℝ → ℝ} (hγ : s.variogramFunction s.params = .ok γ)
    (hs : "specified" ∈ args.driftTerms → ea.toExec.backend = "vectorized")
    (hG : CondNeg (semivar γ fun i i' => ukDistance args (x i, y i) (x i', y i')))
    {r : ExecResult} (hr : s.execute ea = .ok r) {j : ℕ} {p : ℝ × ℝ} (hq : queryAt ea.toExec j = some p)
    (hm : maskedAt ea.toExec j = false) (hp : args.pseudoInv = false)
    (hfar : args.exactValues = .bool false ∨ ∀ i, 1 / 10 ^ 10 < ukDistance args p (x i, y i))
    {f : ℝ × ℝ → ℝ} {E : ℝ} (hf : RoughAtMost (ukDistance args) γ f E) {β : ℕ → ℝ} {L : ℕ}
    (hdata : ∀ i, z i = f (x i, y i) + ∑ l ∈ Finset.range L,
      β l * (driftTerms2 args s.adjustPoint (specAtDatum args.specifiedDrift i) (x i, y i)).getD l 0) :
    ∃ est var, r.z[j]? = some (some est) ∧ r.ss[j]? = some (some var) ∧
      (f p + ∑ l ∈ Finset.range L, β l * (driftTerms2 args s.adjustPoint (specAtQuery ea j) p).getD l 0 - est) ^ 2 ≤ E * var := by
  obtain ⟨exact, hex⟩ : ∃ e, args.exactValues = .bool e := ⟨_, (UK.create_fields h).2.1⟩
  have hfar' : exact = false ∨ ∀ i, 1 / 10 ^ 10 < ukDistance args p (x i, y i) :=
    hfar.imp_left fun e => by rw [hex] at e; exact BoolArg.bool.inj e
  obtain ⟨est, var, hz, hv, hb⟩ := C28_best_uk h hγ hex hs hG hr hq hm (.inl hp)
  refine ⟨est, var, hz, hv, ?_⟩
  rw [semivarTo_clear hfar'] at hb
  exact hb.error_sq_le (dist := ukDistance args) (x := fun i => (x i, y i)) (p := p) (ukDistance_comm args) hf hdata


/-! ### `UniversalKriging3D` -/

/-- `UniversalKriging3D`: the field may have a trend, any combination of the drift terms. -/
theorem C70_error_uk3d {n : ℕ} {env : Env} {x y z v : Fin n → ℝ} {args : UK3DArgs} {s : UK3D n}
    (h : UK3D.create env x y z v args = .ok s) {ea : UK3DExecArgs}
    {γ : ℝ → ℝ} (hγ : s.variogramFunction s.params = .ok γ)
    (hs : "specified" ∈ args.driftTerms → ea.toExec.backend = "vectorized")
    (hG : CondNeg (semivar γ fun i i' => uk3Distance args (x i, y i, z i) (x i', y i', z i')))
    {r : ExecResult} (hr : s.execute ea = .ok r) {j : ℕ} {p : ℝ × ℝ × ℝ} (hq : queryAt3 ea.toExec j = some p)
    (hm : maskedAt3 ea.toExec j = false) (hp : args.pseudoInv = false)
    (hfar : args.exactValues = .bool false ∨ ∀ i, 1 / 10 ^ 10 < uk3Distance args p (x i, y i, z i))
    {f : ℝ × ℝ × ℝ → ℝ} {E : ℝ} (hf : RoughAtMost (uk3Distance args) γ f E) {β : ℕ → ℝ} {L : ℕ}
    (hdata : ∀ i, v i = f (x i, y i, z i) + ∑ l ∈ Finset.range L,
      β l * (driftTerms3 args s.adjustPoint (specAtDatum args.specifiedDrift i) (x i, y i, z i)).getD l 0) :
    ∃ est var, r.z[j]? = some (some est) ∧ r.ss[j]? = some (some var) ∧
      (f p + ∑ l ∈ Finset.range L, β l * (driftTerms3 args s.adjustPoint (specAtQuery3 ea j) p).getD l 0 - est) ^ 2 ≤ E * var := by
  obtain ⟨exact, hex⟩ : ∃ e, args.exactValues = .bool e := ⟨_, (UK3D.create_fields h).2.1⟩
  have hfar' : exact = false ∨ ∀ i, 1 / 10 ^ 10 < uk3Distance args p (x i, y i, z i) :=
    hfar.imp_left fun e => by rw [hex] at e; exact BoolArg.bool.inj e
  obtain ⟨est, var, hz, hv, hb⟩ := C28_best_uk3d h hγ hex hs hG hr hq hm (.inl hp)
  refine ⟨est, var, hz, hv, ?_⟩
  rw [semivarTo_clear hfar'] at hb
  exact hb.error_sq_le (dist := uk3Distance args) (x := fun i => (x i, y i, z i)) (p := p) (uk3Distance_comm args) hf hdata


/-! ### Examples -/

namespace Demo

theorem lin_valid : ValidModel "linear" (listMeaning "linear" [1, 0]) :=
  .inl ⟨1, 0, rfl, by simp [listMeaning], by norm_num, le_refl _⟩

theorem lin_grows : Growing (listMeaning "linear" [1, 0]) := ⟨1, [0], by simp [listMeaning], by norm_num⟩

/-- The field "distance from `a` minus distance from `b`". -/
def coneOf {P : Type} (dist : P → P → ℝ) (a b p : P) : ℝ := dist p a - dist p b

/-- The field "distance from (5, 0) minus distance from (0, 7)". -/
def cone : ℝ × ℝ → ℝ := coneOf (okDistance (any "linear" [1, 0])) (5, 0) (0, 7)

theorem lin_gamma {γ : ℝ → ℝ} (h : Builtin "linear" (listMeaning "linear" [1, 0]) γ) : γ = fun d => d := by
  have e : listMeaning "linear" [1, 0] = [1, 0] := by simp [listMeaning]
  rw [e] at h
  rw [builtin_linear.1 h]
  funext d
  simp [linearFormula]

theorem coneOf_rough {P : Type} {dist : P → P → ℝ} (hd : ∀ p q, dist p q = dist q p) {γ : ℝ → ℝ}
    (h : Builtin "linear" (listMeaning "linear" [1, 0]) γ) (hv : ValidOn dist γ) (a b : P) :
    RoughAtMost dist γ (coneOf dist a b) (2 * dist a b) := by
  have := C70_fields hv hd (m := 2) ![a, b] (a := ![1, -1]) (by simp) 0
  rw [lin_gamma h] at this ⊢
  have e1 : (fun p => (0 : ℝ) + ∑ j, (![1, -1] : Fin 2 → ℝ) j * dist p ((![a, b] : Fin 2 → P) j)) = coneOf dist a b := by
    funext p
    simp [Fin.sum_univ_two, coneOf]
    ring
  have e2 : -∑ i, ∑ j, (![1, -1] : Fin 2 → ℝ) i * (![1, -1] : Fin 2 → ℝ) j * (if i = j then 0 else
      dist ((![a, b] : Fin 2 → P) i) ((![a, b] : Fin 2 → P) j)) = 2 * dist a b := by
    simp [Fin.sum_univ_two]
    rw [hd b a]
    ring
  simpa only [e1, e2] using this

theorem cone_rough {γ : ℝ → ℝ} (h : Builtin "linear" (listMeaning "linear" [1, 0]) γ) (hv : Valid3 γ) :
    RoughAtMost (okDistance (any "linear" [1, 0])) γ cone (2 * okDistance (any "linear" [1, 0]) (5, 0) (0, 7)) := by
  obtain ⟨e, he⟩ := okDistance_embed (args := any "linear" [1, 0]) rfl
  exact coneOf_rough (okDistance_comm _) h (hv.on he) _ _

end Demo

/-- Four samples of the field `Demo.cone`, linear variogram. -/
example (p : ℝ × ℝ) (hfar : ∀ i, 1 / 10 ^ 10 < okDistance (Demo.any "linear" [1, 0]) p (Demo.x4 i, Demo.y4 i)) :
    ∃ s r est var, OK.create stdEnv Demo.x4 Demo.y4 (fun i => Demo.cone (Demo.x4 i, Demo.y4 i)) (Demo.any "linear" [1, 0]) = .ok s ∧
      s.execute stdEnv (Demo.pts [p] "vectorized") = .ok r ∧ r.z[0]? = some (some est) ∧ r.ss[0]? = some (some var) ∧
      (Demo.cone p - est) ^ 2 ≤ 2 * okDistance (Demo.any "linear" [1, 0]) (5, 0) (0, 7) * var := by
  obtain ⟨s, h, hp, ha, hr⟩ := Demo.any_ok (n := 4) (by norm_num) (fun i => Demo.cone (Demo.x4 i, Demo.y4 i)) Demo.lin_valid
    Demo.lin_grows Demo.inj4
  obtain ⟨hb, -, -, γ, hγ, hval, -⟩ := Demo.lin_valid.builtin
  obtain ⟨hev, -⟩ := chosen_evaluates hγ hb (OK.create_function h (m := "linear") rfl)
  obtain ⟨e, he⟩ := okDistance_embed (args := Demo.any "linear" [1, 0]) rfl
  have hw := Demo.pts_wellPosed [p] "vectorized"
  obtain ⟨r, hr⟩ := hr (Demo.pts [p] "vectorized") hw.1 (by intro k hk; cases hk) (by intro k hk; cases hk) hw.2 (.inr (.inl ⟨rfl, rfl⟩))
  rw [← hp] at hev
  obtain ⟨est, var, h1, h2, h3⟩ := C70_error_2d h (ea := Demo.pts [p] "vectorized") (ha _ (by intro k hk; cases hk)) hev
    (hval.data he fun i => (Demo.x4 i, Demo.y4 i)) hr (j := 0) (p := p) (by simp [queryAt, Demo.pts]) rfl (.inl rfl) (.inr hfar)
    (Demo.cone_rough hγ hval) fun i => rfl
  exact ⟨s, r, est, var, h, hr, h1, h2, h3⟩

/-- Dense samples of `Demo.cone`: the accuracy 1/1000 is reached for some distance. -/
example : ∃ δ, 0 < δ ∧ ∀ (n : ℕ) (env : Env) (x y z : Fin n → ℝ) (s : OK n) (ea : ExecArgs) (r : ExecResult) (j : ℕ) (p : ℝ × ℝ),
    (∀ i, z i = Demo.cone (x i, y i)) → OK.create env x y z (Demo.any "linear" [1, 0]) = .ok s →
    s.variogramFunction s.params = .ok (fun d => d) → Admissible env (Demo.any "linear" [1, 0]) s ea.nClosest →
    ea.nClosest = none → s.execute env ea = .ok r → queryAt ea j = some p → maskedAt ea j = false →
    ((Demo.any "linear" [1, 0]).exactValues = .bool false ∨
      ∀ i, 1 / 10 ^ 10 < okDistance (Demo.any "linear" [1, 0]) p (x i, y i)) →
    (∃ i, okDistance (Demo.any "linear" [1, 0]) p (x i, y i) < δ) → ∃ est, r.z[j]? = some (some est) ∧ |Demo.cone p - est| < 1 / 1000 := by
  obtain ⟨hb, -, -, γ, hγ, hval, -⟩ := Demo.lin_valid.builtin
  obtain ⟨e, he⟩ := okDistance_embed (args := Demo.any "linear" [1, 0]) rfl
  obtain rfl := Demo.lin_gamma hγ
  exact C70_dense_2d (hval.on he) (C49_builtin Demo.lin_valid hγ).1 (C70_builtin Demo.lin_valid hγ rfl)
    (mul_nonneg (by norm_num) (okDistance_nonneg _ _ _)) (Demo.cone_rough hγ hval) rfl (by norm_num)

/-- The worst field for four data. -/
example (z : Fin 4 → ℝ) (p : ℝ × ℝ) (hfar : ∀ i, 1 / 10 ^ 10 < okDistance (Demo.any "linear" [1, 0]) p (Demo.x4 i, Demo.y4 i)) :
    ∃ γ var f s' r' est, Builtin "linear" [1, 0] γ ∧ RoughAtMost (okDistance (Demo.any "linear" [1, 0])) γ f var ∧
      OK.create stdEnv Demo.x4 Demo.y4 (fun i => f (Demo.x4 i, Demo.y4 i)) (Demo.any "linear" [1, 0]) = .ok s' ∧
      s'.execute stdEnv (Demo.pts [p] "vectorized") = .ok r' ∧ r'.z[0]? = some (some est) ∧ f p - est = var := by
  obtain ⟨s, h, hp, ha, hr⟩ := Demo.any_ok (n := 4) (by norm_num) z Demo.lin_valid Demo.lin_grows Demo.inj4
  obtain ⟨hb, -, -, γ, hγ, hval, -⟩ := Demo.lin_valid.builtin
  obtain ⟨hev, -⟩ := chosen_evaluates hγ hb (OK.create_function h (m := "linear") rfl)
  obtain ⟨e, he⟩ := okDistance_embed (args := Demo.any "linear" [1, 0]) rfl
  have hw := Demo.pts_wellPosed [p] "vectorized"
  obtain ⟨r, hr⟩ := hr (Demo.pts [p] "vectorized") hw.1 (by intro k hk; cases hk) (by intro k hk; cases hk) hw.2 (.inr (.inl ⟨rfl, rfl⟩))
  rw [← hp] at hev
  obtain ⟨var, f, s', r', est, -, h2, h3, h4, -, h5, h6⟩ := C70_sharp_2d h (ea := Demo.pts [p] "vectorized")
    (ha _ (by intro k hk; cases hk)) rfl (.inr (by simp [Demo.any])) hev
    (hval.on he) (fun q => by rw [he, Demo.lin_gamma hγ]; simp) hr (j := 0) (p := p) (by simp [queryAt, Demo.pts]) rfl rfl (.inr hfar)
  exact ⟨γ, var, f, s', r', est, by simpa [listMeaning] using hγ, h2, h3, h4, h5, h6⟩

/-- Three dimensions, moving window of three of four data. -/
example (a b p : ℝ × ℝ × ℝ) (hfar : ∀ i, 1 / 10 ^ 10 < ok3Distance (Demo.any3 "linear" [1, 0]) p (Demo.x4 i, Demo.y4 i, Demo.z4 i)) :
    ∃ s r est, OK3D.create stdEnv Demo.x4 Demo.y4 Demo.z4
        (fun i => Demo.coneOf (ok3Distance (Demo.any3 "linear" [1, 0])) a b (Demo.x4 i, Demo.y4 i, Demo.z4 i))
        (Demo.any3 "linear" [1, 0]) = .ok s ∧
      s.execute stdEnv { Demo.pts3 [p] "loop" with nClosest := some 3 } = .ok r ∧ r.z[0]? = some (some est) ∧
      ∀ i, (Demo.coneOf (ok3Distance (Demo.any3 "linear" [1, 0])) a b p - est) ^ 2 ≤
        2 * (2 * ok3Distance (Demo.any3 "linear" [1, 0]) a b) *
          ok3Distance (Demo.any3 "linear" [1, 0]) p (Demo.x4 i, Demo.y4 i, Demo.z4 i) := by
  obtain ⟨s, h, hp, hr⟩ := Demo.any3_ok (n := 4) (by norm_num)
    (fun i => Demo.coneOf (ok3Distance (Demo.any3 "linear" [1, 0])) a b (Demo.x4 i, Demo.y4 i, Demo.z4 i)) Demo.lin_valid
    Demo.lin_grows Demo.inj4'
  obtain ⟨hb, -, -, γ, hγ, hval, -⟩ := Demo.lin_valid.builtin
  obtain ⟨hev, -⟩ := chosen_evaluates hγ hb (OK3D.create_function h (m := "linear") rfl)
  obtain ⟨e, he⟩ := distance3_embed (effAniso (Demo.any3 "linear" [1, 0]).variogramModel (Demo.any3 "linear" [1, 0]).aniso)
  have hw := Demo.pts_wellPosed3 [p] "loop"
  obtain ⟨r, hr⟩ := hr { Demo.pts3 [p] "loop" with nClosest := some 3 } hw.1 (by intro k hk; cases hk; norm_num)
    (by intro k hk; cases hk; norm_num) hw.2 (.inl rfl)
  rw [← hp] at hev
  obtain ⟨hpos, hmono⟩ := C49_builtin Demo.lin_valid hγ
  obtain ⟨est, h1, h2⟩ := C70_near_window_3d h (ea := { Demo.pts3 [p] "loop" with nClosest := some 3 }) stdEnv_knn
    (by intro k hk; cases hk; norm_num) (k := 3) rfl hev
    (hval.data (D := ok3Distance (Demo.any3 "linear" [1, 0])) he fun i => (Demo.x4 i, Demo.y4 i, Demo.z4 i)) hpos hmono hr (j := 0)
    (p := p) (by simp [queryAt3, Demo.pts3]) rfl (.inr hfar)
    (mul_nonneg (by norm_num) (ok3Distance_nonneg _ _ _))
    (Demo.coneOf_rough (ok3Distance_comm _) hγ (hval.on he) a b) fun i => rfl
  refine ⟨s, r, est, h, hr, h1, fun i => ?_⟩
  have := h2 i
  rwa [Demo.lin_gamma hγ] at this

/-- Universal kriging of a field with the trend 2x + 3y. -/
example (a b p : ℝ × ℝ) (hfar : ∀ i, 1 / 10 ^ 10 < ukDistance (Demo.uany "linear" [1, 0]) p (Demo.x4 i, Demo.y4 i)) :
    ∃ s r est var, UK.create stdEnv Demo.x4 Demo.y4
        (fun i => Demo.coneOf (ukDistance (Demo.uany "linear" [1, 0])) a b (Demo.x4 i, Demo.y4 i) +
          (2 * Demo.x4 i + 3 * Demo.y4 i)) (Demo.uany "linear" [1, 0]) = .ok s ∧
      s.execute { toExec := Demo.pts [p] "loop" } = .ok r ∧ r.z[0]? = some (some est) ∧ r.ss[0]? = some (some var) ∧
      (Demo.coneOf (ukDistance (Demo.uany "linear" [1, 0])) a b p + (2 * p.1 + 3 * p.2) - est) ^ 2 ≤
        2 * ukDistance (Demo.uany "linear" [1, 0]) a b * var := by
  obtain ⟨s, h, hp, hadj, hr⟩ := Demo.uany_ok (n := 4) (by norm_num)
    (fun i => Demo.coneOf (ukDistance (Demo.uany "linear" [1, 0])) a b (Demo.x4 i, Demo.y4 i) +
      (2 * Demo.x4 i + 3 * Demo.y4 i)) Demo.lin_valid Demo.lin_grows Demo.inj4 Demo.plane4
  obtain ⟨hb, -, -, γ, hγ, hval, -⟩ := Demo.lin_valid.builtin
  obtain ⟨hev, -⟩ := chosen_evaluates hγ hb (UK.create_function h (m := "linear") rfl)
  obtain ⟨e, he⟩ := anisoDist2_embed (effScaling (Demo.uany "linear" [1, 0]).variogramModel (Demo.uany "linear" [1, 0]).anisotropyScaling)
    (effAngle (Demo.uany "linear" [1, 0]).variogramModel (Demo.uany "linear" [1, 0]).anisotropyAngle)
  have hw := Demo.pts_wellPosed [p] "loop"
  obtain ⟨r, hr⟩ := hr { toExec := Demo.pts [p] "loop" } hw.1 hw.2 (.inr rfl)
  rw [← hp] at hev
  obtain ⟨est, var, h1, h2, h3⟩ := C70_error_uk h (ea := { toExec := Demo.pts [p] "loop" }) hev
    (fun hc => by simp [Demo.uany] at hc)
    (hval.data (D := ukDistance (Demo.uany "linear" [1, 0])) he fun i => (Demo.x4 i, Demo.y4 i)) hr (j := 0)
    (p := p) (by simp [queryAt, Demo.pts]) rfl rfl (.inr hfar)
    (Demo.coneOf_rough (ukDistance_comm _) hγ (hval.on he) a b) (β := fun l => if l = 0 then 2 else 3) (L := 2)
    fun i => by simp [driftTerms2, Demo.uany, hadj, Finset.sum_range_succ]
  refine ⟨s, r, est, var, h, hr, h1, h2, ?_⟩
  simpa [driftTerms2, Demo.uany, hadj, Finset.sum_range_succ] using h3

end
end PyKrige
