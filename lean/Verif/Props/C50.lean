import Verif.Props.C47
import Verif.Props.C29
import Verif.Examples.More

/-!
# C50: without spatial correlation, kriging is the mean, respectively least squares regression

With a pure nugget variogram (constant `c > 0`), away from the data: ordinary kriging returns the arithmetic mean of the
data it uses (all, or those in the moving window) with variance `c (1 + 1/n)`; universal kriging returns the value at
the query point of the trend fitted by ordinary least squares, with variance `c (1 + ∑ wᵢ²)` where `w` are the weights
the data have in that regression.
-/

set_option linter.unusedSectionVars false

namespace PyKrige
noncomputable section
open Matrix Spec

/-- The trend `b + ∑ₗ βₗ fₗ` for drift values `f`. -/
def Spec.trendValue {L : ℕ} (b : ℝ) (β : Fin L → ℝ) (f : Fin L → ℝ) : ℝ := b + ∑ l, β l * f l

/-- `b`, `β` minimise the sum of squared residuals; `F l i` is drift `l` at datum `i`. -/
def Spec.LeastSquares {n L : ℕ} (F : Fin L → Fin n → ℝ) (z : Fin n → ℝ) (b : ℝ) (β : Fin L → ℝ) : Prop :=
  ∀ b' β', ∑ i, (z i - trendValue b β fun l => F l i) ^ 2 ≤ ∑ i, (z i - trendValue b' β' fun l => F l i) ^ 2

theorem sum_semivar_const {ι : Type} [Fintype ι] (c : ℝ) (D : ι → ι → ℝ) (w : ι → ℝ) (i : ι) :
    ∑ j, semivar (fun _ => c) D i j * w j = c * (∑ j, w j - w i) := by
  classical
  have : ∀ j, semivar (fun _ => c) D i j * w j = c * w j - if i = j then c * w j else 0 := fun j => by
    unfold semivar
    by_cases h : i = j
    · simp [h]
    · simp [h]
  simp only [this, Finset.sum_sub_distrib, ← Finset.mul_sum, Finset.sum_ite_eq, Finset.mem_univ, if_true]
  ring

/-- The kriging equations of a pure nugget variogram: the weights are in the span of the drift terms. -/
theorem Spec.KrigingEqs.flat {ι κ : Type} [Fintype ι] [Fintype κ] {c : ℝ} {D : ι → ι → ℝ} {F : κ → ι → ℝ} {g : ι → ℝ}
    {f : κ → ℝ} {w : ι → ℝ} {ν : κ → ℝ} {μ : ℝ} (h : KrigingEqs (semivar (fun _ => c) D) F g f 1 w ν μ)
    (hg : ∀ i, g i = c) :
    (∀ i, c * w i = -(μ + ∑ l, ν l * F l i)) ∧ krigingVariance g f w ν μ = c * (1 + ∑ i, w i ^ 2) := by
  have h1 : ∀ i, c * w i = -(μ + ∑ l, ν l * F l i) := fun i => by
    have := h.stationary i
    rw [sum_semivar_const, hg, h.unbiased] at this
    have e : ∑ l, F l i * ν l = ∑ l, ν l * F l i := Finset.sum_congr rfl fun l _ => mul_comm _ _
    rw [e] at this
    linarith
  refine ⟨h1, ?_⟩
  unfold krigingVariance
  have e1 : ∑ i, w i * g i = c := by simp only [hg, ← Finset.sum_mul, h.unbiased, one_mul]
  have e2 : ∑ l, ν l * f l = ∑ i, w i * ∑ l, ν l * F l i := by
    simp only [← h.drift, Finset.mul_sum]
    rw [Finset.sum_comm]
    exact Finset.sum_congr rfl fun l _ => Finset.sum_congr rfl fun i _ => by ring
  have e3 : ∑ i, w i * ∑ l, ν l * F l i = - c * ∑ i, w i ^ 2 - μ := by
    have : ∀ i, w i * ∑ l, ν l * F l i = - c * w i ^ 2 - μ * w i := fun i => by
      have := h1 i
      have e : ∑ l, ν l * F l i = - (c * w i) - μ := by linarith
      rw [e]; ring
    simp only [this, Finset.sum_sub_distrib, ← Finset.mul_sum, h.unbiased, mul_one]
  rw [e1, e2, e3]
  ring

/-- The least squares trend at the prediction point. -/
theorem Spec.KrigingEqs.flat_trend {n L : ℕ} {c : ℝ} (hc : c ≠ 0) {D : Fin n → Fin n → ℝ} {F : Fin L → Fin n → ℝ}
    {g : Fin n → ℝ} {f : Fin L → ℝ} {w : Fin n → ℝ} {ν : Fin L → ℝ} {μ : ℝ}
    (h : KrigingEqs (semivar (fun _ => c) D) F g f 1 w ν μ) (hg : ∀ i, g i = c) {z : Fin n → ℝ} {b : ℝ} {β : Fin L → ℝ}
    (hls : LeastSquares F z b β) : estimate w z = trendValue b β f := by
  obtain ⟨h1, -⟩ := h.flat hg
  set e : Fin n → ℝ := fun i => z i - trendValue b β fun l => F l i with he
  have horth : ∑ i, e i * w i = 0 := by
    have key : ∀ t : ℝ, ∑ i, e i ^ 2 ≤ ∑ i, (e i - t * w i) ^ 2 := fun t => by
      have := hls (b - t * μ / c) (fun l => β l - t * ν l / c)
      refine this.trans (le_of_eq (Finset.sum_congr rfl fun i _ => ?_))
      congr 1
      have hw : w i = -(μ + ∑ l, ν l * F l i) / c := by rw [← h1 i]; field_simp
      rw [he, hw]
      unfold trendValue
      have : ∑ l, (β l - t * ν l / c) * F l i = ∑ l, β l * F l i - t / c * ∑ l, ν l * F l i := by
        rw [Finset.mul_sum, ← Finset.sum_sub_distrib]
        exact Finset.sum_congr rfl fun l _ => by ring
      rw [this]
      ring
    have ex : ∀ t : ℝ, ∑ i, (e i - t * w i) ^ 2 = ∑ i, e i ^ 2 - 2 * t * ∑ i, e i * w i + t ^ 2 * ∑ i, w i ^ 2 := fun t => by
      rw [Finset.mul_sum, Finset.mul_sum, ← Finset.sum_sub_distrib, ← Finset.sum_add_distrib]
      exact Finset.sum_congr rfl fun i _ => by ring
    by_contra hne
    set S := ∑ i, e i * w i
    set Q := ∑ i, w i ^ 2
    have hQ : 0 ≤ Q := Finset.sum_nonneg fun i _ => sq_nonneg _
    have := key (S / (Q + 1))
    rw [ex] at this
    have hS : 0 < S ^ 2 := by positivity
    have h2 : (S / (Q + 1)) ^ 2 * Q = S ^ 2 / (Q + 1) * (Q / (Q + 1)) := by field_simp
    have h3 : Q / (Q + 1) ≤ 1 := by rw [div_le_one (by positivity)]; linarith
    have h4 : 2 * (S / (Q + 1)) * S = 2 * (S ^ 2 / (Q + 1)) := by ring
    have h5 : 0 < S ^ 2 / (Q + 1) := by positivity
    nlinarith
  have ez : ∀ i, w i * z i = e i * w i + w i * b + ∑ l, β l * (F l i * w i) := fun i => by
    rw [he]
    unfold trendValue
    have : ∑ l, β l * (F l i * w i) = (∑ l, β l * F l i) * w i := by
      rw [Finset.sum_mul]; exact Finset.sum_congr rfl fun l _ => by ring
    rw [this]
    ring
  unfold estimate trendValue
  simp only [ez, Finset.sum_add_distrib, horth, ← Finset.sum_mul, h.unbiased]
  rw [Finset.sum_comm]
  simp only [← Finset.mul_sum, h.drift]
  ring

/-- Ordinary kriging: all weights are equal. -/
theorem Spec.KrigingEqs.flat_mean {n L : ℕ} {c : ℝ} (hc : c ≠ 0) {D : Fin n → Fin n → ℝ} {F : Fin L → Fin n → ℝ}
    {g : Fin n → ℝ} {f : Fin L → ℝ} {w : Fin n → ℝ} {ν : Fin L → ℝ} {μ : ℝ} (hL : L = 0)
    (h : KrigingEqs (semivar (fun _ => c) D) F g f 1 w ν μ) (hg : ∀ i, g i = c) (z : Fin n → ℝ) :
    estimate w z = (∑ i, z i) / n ∧ krigingVariance g f w ν μ = c * (1 + 1 / n) := by
  subst hL
  obtain ⟨h1, h2⟩ := h.flat hg
  have hw : ∀ i, w i = -μ / c := fun i => by
    have := h1 i
    simp at this
    field_simp
    linarith
  have hu := h.unbiased
  have hn : (n : ℝ) * (-μ / c) = 1 := by
    simpa [hw] using hu
  have hn0 : (n : ℝ) ≠ 0 := by rintro h0; rw [h0] at hn; simp at hn
  have hw' : ∀ i, w i = 1 / n := fun i => by rw [hw i]; field_simp; field_simp at hn; linarith
  refine ⟨?_, ?_⟩
  · unfold estimate
    simp only [hw', ← Finset.mul_sum]
    ring
  · rw [h2]
    simp only [hw', Finset.sum_const, Finset.card_univ, Fintype.card_fin, nsmul_eq_mul]
    field_simp

/-- A built-in model with slope, scale or psill 0 is constant. -/
theorem C50_flat {m : String} {ps : List ℝ} {γ : ℝ → ℝ} (hv : ValidModel m ps) (hb : Builtin m ps γ)
    (h0 : ps.head? = some 0) : ∃ c, ps.getLast? = some c ∧ γ = fun _ => c := by
  rcases hv with ⟨a, c, rfl, rfl, ha, hc⟩ | ⟨a, p, c, rfl, rfl, ha, h1, h2, hc⟩ | ⟨a, r, c, hm, rfl, ha, hr, hc⟩
  · obtain rfl : a = 0 := by simpa using h0
    refine ⟨c, by simp, ?_⟩
    rw [builtin_linear.1 hb]; funext d; simp [linearFormula]
  · obtain rfl : a = 0 := by simpa using h0
    refine ⟨c, by simp, ?_⟩
    rw [builtin_power.1 hb]; funext d; simp [powerFormula]
  · obtain rfl : a = 0 := by simpa using h0
    refine ⟨c, by simp, ?_⟩
    simp only [List.mem_cons, List.not_mem_nil, or_false] at hm
    rcases hm with rfl | rfl | rfl
    · rw [builtin_gaussian.1 hb]; funext d; simp [gaussianFormula]
    · rw [builtin_exponential.1 hb]; funext d; simp [exponentialFormula]
    · rw [builtin_spherical.1 hb]; funext d; simp [sphericalFormula]

theorem semivarTo_const {ι : Type} {exact : Bool} {c : ℝ} {d : ι → ℝ}
    (h : BoolArg.bool exact = .bool false ∨ ∀ i, 1 / 10 ^ 10 < d i) (i : ι) : semivarTo exact (fun _ => c) d i = c := by
  unfold semivarTo
  rw [if_neg]
  rintro ⟨h1, h2⟩
  rcases h with h | h
  · simp [h1] at h
  · exact absurd h2 (not_le.2 (h i))

/-- `OrdinaryKriging` with all data. -/
theorem C50_mean_2d {n : ℕ} {env : Env} {x y z : Fin n → ℝ} {args : OKArgs} {s : OK n}
    (h : OK.create env x y z args = .ok s) {c : ℝ} (hc : c ≠ 0) (hγ : s.variogramFunction s.params = .ok fun _ => c)
    {ea : ExecArgs} (ha : Admissible env args s ea.nClosest) (hn : ea.nClosest = none) (hp : args.pseudoInv = false)
    {r : ExecResult} (hr : s.execute env ea = .ok r) {j : ℕ} {p : ℝ × ℝ} (hq : queryAt ea j = some p)
    (hfar : args.exactValues = .bool false ∨ ∀ i, 1 / 10 ^ 10 < okDistance args p (x i, y i))
    {t : ℝ} (ht : r.z[j]? = some (some t)) :
    t = (∑ i, z i) / n ∧ r.ss[j]? = some (some (c * (1 + 1 / n))) := by
  obtain ⟨p', γ', exact, w, μ, hq', hγ', hex, he, rfl, hss⟩ := C47_system_2d h ha hn hp hr ht
  obtain rfl : p' = p := by rw [hq] at hq'; exact (Option.some.inj hq').symm
  obtain rfl : γ' = fun _ => c := by rw [hγ] at hγ'; exact (Except.ok.inj hγ').symm
  obtain ⟨h1, h2⟩ := KrigingEqs.flat_mean hc rfl he (semivarTo_const (hex ▸ hfar)) z
  exact ⟨h1, by rw [hss]; exact congrArg (fun v => some (some v)) h2⟩

/-- `OrdinaryKriging` with a moving window: the mean of the `k` nearest data. -/
theorem C50_window_2d {n : ℕ} {env : Env} {x y z : Fin n → ℝ} {args : OKArgs} {s : OK n}
    (h : OK.create env x y z args = .ok s) {c : ℝ} (hc : c ≠ 0) (hγ : s.variogramFunction s.params = .ok fun _ => c)
    {ea : ExecArgs} (ha : Admissible env args s ea.nClosest) {k : ℕ} (hk : ea.nClosest = some (k : ℤ))
    {r : ExecResult} (hr : s.execute env ea = .ok r) {j : ℕ} {p : ℝ × ℝ} (hq : queryAt ea j = some p)
    (hfar : args.exactValues = .bool false ∨ ∀ i, 1 / 10 ^ 10 < okDistance args p (x i, y i))
    {t : ℝ} (ht : r.z[j]? = some (some t)) :
    ∃ S : Finset (Fin n), S.card = k ∧
      (∀ i ∈ S, ∀ i', i' ∉ S → okDistance args p (x i, y i) ≤ okDistance args p (x i', y i')) ∧
      t = (∑ i ∈ S, z i) / k ∧ r.ss[j]? = some (some (c * (1 + 1 / k))) := by
  obtain ⟨p', γ', exact, sel, w, μ, hq', hγ', hex, hinj, hnear, he, rfl, hss⟩ := C47_window_2d h ha hk hr ht
  obtain rfl : p' = p := by rw [hq] at hq'; exact (Option.some.inj hq').symm
  obtain rfl : γ' = fun _ => c := by rw [hγ] at hγ'; exact (Except.ok.inj hγ').symm
  rw [hex] at hfar
  obtain ⟨h1, h2⟩ := KrigingEqs.flat_mean hc rfl he (semivarTo_const (hfar.imp_right fun hf i => hf (sel i)))
    fun i => z (sel i)
  refine ⟨Finset.univ.map ⟨sel, hinj⟩, by simp, ?_, by rw [h1, Finset.sum_map]; rfl,
    by rw [hss]; exact congrArg (fun v => some (some v)) h2⟩
  intro i hi i' hi'
  obtain ⟨a, -, rfl⟩ := Finset.mem_map.1 hi
  exact hnear a i' fun ⟨b, hb⟩ => hi' (Finset.mem_map.2 ⟨b, Finset.mem_univ _, hb⟩)

/-- `OrdinaryKriging3D` with all data. -/
theorem C50_mean_3d {n : ℕ} {env : Env} {x y z v : Fin n → ℝ} {args : OK3DArgs} {s : OK3D n}
    (h : OK3D.create env x y z v args = .ok s) {c : ℝ} (hc : c ≠ 0) (hγ : s.variogramFunction s.params = .ok fun _ => c)
    {ea : ExecArgs3} (hkn : KnnSpec env) (hw : WindowFits n ea.nClosest) (hn : ea.nClosest = none) (hp : args.pseudoInv = false)
    {r : ExecResult} (hr : s.execute env ea = .ok r) {j : ℕ} {p : ℝ × ℝ × ℝ} (hq : queryAt3 ea j = some p)
    (hfar : args.exactValues = .bool false ∨ ∀ i, 1 / 10 ^ 10 < ok3Distance args p (x i, y i, z i))
    {t : ℝ} (ht : r.z[j]? = some (some t)) :
    t = (∑ i, v i) / n ∧ r.ss[j]? = some (some (c * (1 + 1 / n))) := by
  obtain ⟨p', γ', exact, w, μ, hq', hγ', hex, he, rfl, hss⟩ := C47_system_3d h hkn hw hn hp hr ht
  obtain rfl : p' = p := by rw [hq] at hq'; exact (Option.some.inj hq').symm
  obtain rfl : γ' = fun _ => c := by rw [hγ] at hγ'; exact (Except.ok.inj hγ').symm
  obtain ⟨h1, h2⟩ := KrigingEqs.flat_mean hc rfl he (semivarTo_const (hex ▸ hfar)) v
  exact ⟨h1, by rw [hss]; exact congrArg (fun v => some (some v)) h2⟩

/-- `OrdinaryKriging3D` with a moving window: the mean of the `k` nearest data. -/
theorem C50_window_3d {n : ℕ} {env : Env} {x y z v : Fin n → ℝ} {args : OK3DArgs} {s : OK3D n}
    (h : OK3D.create env x y z v args = .ok s) {c : ℝ} (hc : c ≠ 0) (hγ : s.variogramFunction s.params = .ok fun _ => c)
    {ea : ExecArgs3} (hkn : KnnSpec env) (hw : WindowFits n ea.nClosest) {k : ℕ} (hk : ea.nClosest = some (k : ℤ))
    {r : ExecResult} (hr : s.execute env ea = .ok r) {j : ℕ} {p : ℝ × ℝ × ℝ} (hq : queryAt3 ea j = some p)
    (hfar : args.exactValues = .bool false ∨ ∀ i, 1 / 10 ^ 10 < ok3Distance args p (x i, y i, z i))
    {t : ℝ} (ht : r.z[j]? = some (some t)) :
    ∃ S : Finset (Fin n), S.card = k ∧
      (∀ i ∈ S, ∀ i', i' ∉ S → ok3Distance args p (x i, y i, z i) ≤ ok3Distance args p (x i', y i', z i')) ∧
      t = (∑ i ∈ S, v i) / k ∧ r.ss[j]? = some (some (c * (1 + 1 / k))) := by
  obtain ⟨p', γ', exact, sel, w, μ, hq', hγ', hex, hinj, hnear, he, rfl, hss⟩ := C47_window_3d h hkn hw hk hr ht
  obtain rfl : p' = p := by rw [hq] at hq'; exact (Option.some.inj hq').symm
  obtain rfl : γ' = fun _ => c := by rw [hγ] at hγ'; exact (Except.ok.inj hγ').symm
  rw [hex] at hfar
  obtain ⟨h1, h2⟩ := KrigingEqs.flat_mean hc rfl he (semivarTo_const (hfar.imp_right fun hf i => hf (sel i)))
    fun i => v (sel i)
  refine ⟨Finset.univ.map ⟨sel, hinj⟩, by simp, ?_, by rw [h1, Finset.sum_map]; rfl,
    by rw [hss]; exact congrArg (fun v => some (some v)) h2⟩
  intro i hi i' hi'
  obtain ⟨a, -, rfl⟩ := Finset.mem_map.1 hi
  exact hnear a i' fun ⟨b, hb⟩ => hi' (Finset.mem_map.2 ⟨b, Finset.mem_univ _, hb⟩)

/-- `UniversalKriging`: the trend of ANY least squares fit of the drift terms to the data, at the query point; the
variance is the nugget times one plus the sum of the squared weights. -/
theorem C50_trend_uk {n : ℕ} {env : Env} {x y z : Fin n → ℝ} {args : UKArgs} {s : UK n}
    (h : UK.create env x y z args = .ok s) {c : ℝ} (hc : c ≠ 0) (hγ : s.variogramFunction s.params = .ok fun _ => c)
    {ea : UKExecArgs} (hp : args.pseudoInv = false)
    (hs : "specified" ∈ args.driftTerms → ea.toExec.backend = "vectorized")
    {r : ExecResult} (hr : s.execute ea = .ok r) {j : ℕ} {p : ℝ × ℝ} (hq : queryAt ea.toExec j = some p)
    (hfar : args.exactValues = .bool false ∨ ∀ i, 1 / 10 ^ 10 < ukDistance args p (x i, y i))
    {t : ℝ} (ht : r.z[j]? = some (some t)) :
    ∃ L, ∃ F : Fin L → Fin n → ℝ, ∃ f : Fin L → ℝ,
      (∀ i, List.ofFn (fun l => F l i) =
        driftTerms2 args s.adjustPoint (specAtDatum args.specifiedDrift i) (x i, y i)) ∧
      List.ofFn f = driftTerms2 args s.adjustPoint (specAtQuery ea j) p ∧
      (∀ b β, LeastSquares F z b β → t = trendValue b β f) ∧
      ∃ w : Fin n → ℝ, t = ∑ i, w i * z i ∧ r.ss[j]? = some (some (c * (1 + ∑ i, w i ^ 2))) := by
  obtain ⟨p', γ', exact, L, F, f, w, ν, μ, hq', hγ', hex, hF, hf, he, rfl, hss⟩ := C47_system_uk h hp hs hr ht
  obtain rfl : p' = p := by rw [hq] at hq'; exact (Option.some.inj hq').symm
  obtain rfl : γ' = fun _ => c := by rw [hγ] at hγ'; exact (Except.ok.inj hγ').symm
  have hg := semivarTo_const (c := c) (hex ▸ hfar)
  exact ⟨L, F, f, hF, hf, fun b β hls => he.flat_trend hc hg hls, w, rfl, by rw [hss, (he.flat hg).2]⟩

/-- `UniversalKriging3D`: the trend of ANY least squares fit of the drift terms to the data, at the query point; the
variance is the nugget times one plus the sum of the squared weights. -/
theorem C50_trend_uk3d {n : ℕ} {env : Env} {x y z v : Fin n → ℝ} {args : UK3DArgs} {s : UK3D n}
    (h : UK3D.create env x y z v args = .ok s) {c : ℝ} (hc : c ≠ 0) (hγ : s.variogramFunction s.params = .ok fun _ => c)
    {ea : UK3DExecArgs} (hp : args.pseudoInv = false)
    (hs : "specified" ∈ args.driftTerms → ea.toExec.backend = "vectorized")
    {r : ExecResult} (hr : s.execute ea = .ok r) {j : ℕ} {p : ℝ × ℝ × ℝ} (hq : queryAt3 ea.toExec j = some p)
    (hfar : args.exactValues = .bool false ∨ ∀ i, 1 / 10 ^ 10 < uk3Distance args p (x i, y i, z i))
    {t : ℝ} (ht : r.z[j]? = some (some t)) :
    ∃ L, ∃ F : Fin L → Fin n → ℝ, ∃ f : Fin L → ℝ,
      (∀ i, List.ofFn (fun l => F l i) =
        driftTerms3 args s.adjustPoint (specAtDatum args.specifiedDrift i) (x i, y i, z i)) ∧
      List.ofFn f = driftTerms3 args s.adjustPoint (specAtQuery3 ea j) p ∧
      (∀ b β, LeastSquares F v b β → t = trendValue b β f) ∧
      ∃ w : Fin n → ℝ, t = ∑ i, w i * v i ∧ r.ss[j]? = some (some (c * (1 + ∑ i, w i ^ 2))) := by
  obtain ⟨p', γ', exact, L, F, f, w, ν, μ, hq', hγ', hex, hF, hf, he, rfl, hss⟩ := C47_system_uk3d h hp hs hr ht
  obtain rfl : p' = p := by rw [hq] at hq'; exact (Option.some.inj hq').symm
  obtain rfl : γ' = fun _ => c := by rw [hγ] at hγ'; exact (Except.ok.inj hγ').symm
  have hg := semivarTo_const (c := c) (hex ▸ hfar)
  exact ⟨L, F, f, hF, hf, fun b β hls => he.flat_trend hc hg hls, w, rfl, by rw [hss, (he.flat hg).2]⟩

namespace Demo

theorem flat_valid : ValidModel "linear" (listMeaning "linear" [0, 1]) :=
  .inl ⟨0, 1, rfl, rfl, le_refl _, by norm_num⟩

theorem flat_nugget : PositiveNugget (listMeaning "linear" [0, 1]) := ⟨[0], 1, rfl, by norm_num⟩

/-- Four data, linear variogram with slope 0 and nugget 1: the mean and 1 + 1/4 at (5, 5), with all data. -/
example (z : Fin 4 → ℝ) : ∃ s r, OK.create stdEnv x4 y4 z (any "linear" [0, 1]) = .ok s ∧
    s.execute stdEnv (pts [(5, 5)] "vectorized") = .ok r ∧
    r.z[0]? = some (some ((∑ i, z i) / 4)) ∧ r.ss[0]? = some (some (1 * (1 + 1 / 4))) := by
  have hsep : Separates (listMeaning "linear" [0, 1]) fun i j =>
      okDistance (any "linear" [0, 1]) (x4 i, y4 i) (x4 j, y4 j) := .inr flat_nugget
  obtain ⟨s, h, hp⟩ := C29_create_2d stdEnv (by norm_num) x4 y4 z (any "linear" [0, 1]) (by simp [any]) rfl rfl rfl rfl
    flat_valid hsep
  obtain ⟨hb, -, -, γ, hγ, -⟩ := flat_valid.builtin
  obtain ⟨hev, hname⟩ := chosen_evaluates hγ hb (OK.create_function h (m := "linear") rfl)
  obtain ⟨c, hc, rfl⟩ := C50_flat flat_valid hγ rfl
  obtain rfl : c = 1 := by simpa [listMeaning] using hc.symm
  have ha : Admissible stdEnv (any "linear" [0, 1]) s none :=
    ⟨stdEnv_knn, trivial, by rw [hp, hname]; exact flat_valid.rangeOk, by intro k hk; cases hk⟩
  have hw := pts_wellPosed [(5, 5)] "vectorized"
  obtain ⟨r, hr⟩ := C29_execute_2d h rfl rfl (hp ▸ flat_valid) (hp ▸ hsep) (ea := pts [(5, 5)] "vectorized") ha hw.1
    (by intro k hk; cases hk) hw.2 (.inr (.inl ⟨rfl, rfl⟩))
  have hq : queryAt (pts [(5, 5)] "vectorized") 0 = some (5, 5) := by simp [queryAt, pts]
  obtain ⟨row, -, h1, -⟩ := (OK.create_weighs (ea := pts [(5, 5)] "vectorized") h ha).at_point (z := s.Z) (lags := s.lags)
    (stats := s.stats) hr hq rfl
  obtain ⟨e1, e2⟩ := C50_mean_2d h one_ne_zero (hp ▸ hev) (ea := pts [(5, 5)] "vectorized") ha rfl rfl hr hq (.inr fun i => by
    have e : ∀ q : ℝ × ℝ, okDistance (any "linear" [0, 1]) (5, 5) q = Real.sqrt ((5 - q.1) ^ 2 + (5 - q.2) ^ 2) := by
      intro q
      simp [okDistance, distance2, any, effScaling, effAngle, anisoDist2, rad]
    rw [e, Real.lt_sqrt (by norm_num)]
    fin_cases i <;> norm_num [x4, y4]) h1
  rw [e1] at h1
  exact ⟨s, r, h, hr, by exact_mod_cast h1, by exact_mod_cast e2⟩

/-- Data on a plane: the plane is a least squares fit (with residual 0). -/
example : LeastSquares ![x4, y4] (fun i => 7 + 2 * x4 i - 3 * y4 i) 7 ![2, -3] := by
  intro b β
  refine le_trans (le_of_eq ?_) (Finset.sum_nonneg fun i _ => sq_nonneg _)
  refine Finset.sum_eq_zero fun i _ => ?_
  simp [trendValue, Fin.sum_univ_two]
  ring

end Demo

end
end PyKrige
