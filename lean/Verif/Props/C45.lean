import Verif.Model.Core
import Verif.Lemmas.Py
import Verif.Lemmas.Amax

/-!
# C45: the lag weights of the automatic fit

`x` are the lags, `y` the semivariances, `g` is the variogram `f` with the trial parameters.
-/

namespace PyKrige
noncomputable section

/-- With `weight=False` a residual is model minus data. -/
theorem C45_unweighted {f : VFun} {params : List ℝ} {g : ℝ → ℝ} (hg : f params = .ok g) {x y : List ℝ}
    (hl : x.length = y.length) :
    ∃ r, variogramResiduals params x y f false = .ok r ∧ r.length = x.length ∧
      ∀ (i : ℕ) xi yi, x[i]? = some xi → y[i]? = some yi → r[i]? = some (g xi - yi) := by
  refine ⟨List.zipWith (fun xi yi => g xi - yi) x y, ?_, by simp [hl], fun i xi yi h1 h2 => ?_⟩
  · simp [variogramResiduals, hg]
  · simp [List.getElem?_zipWith, h1, h2]

/-- With `weight=True` (and two different lags) a residual is the weighted difference, and the weights form a
strictly decreasing probability vector: positive, of sum 1, smaller for larger lags.  They are values of one
decreasing curve with ceiling `c` that passes through `c / 2` at 70% of the span of the lags. -/
theorem C45_weighted {f : VFun} {params : List ℝ} {g : ℝ → ℝ} (hg : f params = .ok g) {x y : List ℝ}
    (hl : x.length = y.length) {a b : ℝ} (ha : a ∈ x) (hb : b ∈ x) (hab : a < b) :
    ∃ (r : List ℝ) (w : ℝ → ℝ) (c lo hi : ℝ), variogramResiduals params x y f true = .ok r ∧ r.length = x.length ∧
      (∀ (i : ℕ) xi yi, x[i]? = some xi → y[i]? = some yi → r[i]? = some (w xi * (g xi - yi))) ∧
      (∀ t, 0 < w t) ∧ (x.map w).sum = 1 ∧ StrictAnti w ∧ (∀ t, w t < c) ∧
      IsLeast {v | v ∈ x} lo ∧ IsGreatest {v | v ∈ x} hi ∧ w (lo + 0.7 * (hi - lo)) = c / 2 := by
  obtain ⟨hi, h1, h2⟩ := amax_spec ha
  obtain ⟨lo, h3, h4⟩ := amin_spec ha
  have hpos : 0 < hi - lo := by
    have := h2.2 hb
    have := h4.2 ha
    linarith
  set k := 2.1972 / (0.1 * (hi - lo)) with hk
  have kpos : 0 < k := by rw [hk]; positivity
  set L : ℝ → ℝ := fun xi => 1 / (1 + Real.exp (-k * ((0.7 * (hi - lo) + lo) - xi))) with hL
  have Lpos : ∀ t, 0 < L t := fun t => by rw [hL]; positivity
  set S := (x.map L).sum with hS
  have Spos : 0 < S := by
    rw [hS]
    refine List.sum_pos _ (fun v hv => ?_) (by simpa using List.ne_nil_of_mem ha)
    obtain ⟨t, -, rfl⟩ := List.mem_map.1 hv
    exact Lpos t
  have hw : lagWeights x = .ok (x.map fun t => L t / S) := by
    unfold lagWeights
    rw [h1, h3]
    simp only [py_ok_bind, py_pure, List.map_map]
    rfl
  refine ⟨(List.zipWith (fun xi yi => g xi - yi) x y).zipWith (fun r wi => r * wi) (x.map fun t => L t / S),
    fun t => L t / S, 1 / S, lo, hi, ?_, by simp [hl], fun i xi yi e1 e2 => ?_, fun t => by have := Lpos t; positivity,
    ?_, ?_, ?_, h4, h2, ?_⟩
  · simp [variogramResiduals, hg, hw]
  · simp [List.getElem?_zipWith, e1, e2]
    ring
  · have : ∀ l : List ℝ, (l.map fun t => L t / S).sum = (l.map L).sum / S := by
      intro l
      induction l with
      | nil => simp
      | cons t l ih => rw [List.map_cons, List.map_cons, List.sum_cons, List.sum_cons, ih]; ring
    rw [this, ← hS, div_self Spos.ne']
  · intro s t hst
    refine div_lt_div_of_pos_right ?_ Spos
    rw [hL]
    refine one_div_lt_one_div_of_lt (by positivity) ?_
    have : Real.exp (-k * ((0.7 * (hi - lo) + lo) - s)) < Real.exp (-k * ((0.7 * (hi - lo) + lo) - t)) := by
      rw [Real.exp_lt_exp]; nlinarith
    linarith
  · intro t
    refine div_lt_div_of_pos_right ?_ Spos
    rw [hL]
    rw [div_lt_one (by positivity)]
    have := Real.exp_pos (-k * ((0.7 * (hi - lo) + lo) - t))
    linarith
  · have : L (lo + 0.7 * (hi - lo)) = 1 / 2 := by
      rw [hL]
      have : -k * ((0.7 * (hi - lo) + lo) - (lo + 0.7 * (hi - lo))) = 0 := by ring
      beta_reduce
      rw [this, Real.exp_zero]; norm_num
    beta_reduce
    rw [this]; ring

/-- A concrete case. -/
example : ∃ r, variogramResiduals [1, 0] [1, 2, 4] [1, 3, 2] linearVariogramModel true = .ok r ∧ r.length = 3 := by
  obtain ⟨g, hg⟩ : ∃ g, linearVariogramModel [1, 0] = .ok g := ⟨_, rfl⟩
  obtain ⟨r, -, -, -, -, h1, h2, -⟩ := C45_weighted hg (x := [1, 2, 4]) (y := [1, 3, 2]) rfl (a := 1) (b := 2)
    (by simp) (by simp) (by norm_num)
  exact ⟨r, h1, h2⟩

end
end PyKrige
