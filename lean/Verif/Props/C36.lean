import Verif.Model.RK
import Verif.Props.C35Exact

/-!
C36: regression kriging is regression plus kriged residual.

For every regression model: after a successful `fit(p, x, y)`, `predict(q, u)` is what the regression model, fitted to
`(p, y)`, predicts at `q`, plus what a `Krige` object of the same settings, fitted to `x` and the residuals of the training
data, predicts at `u`. Where kriging honours its data, the prediction at a training point is its target. A fit whose
kriging part fails leaves the new regression with the old residuals.
-/

namespace PyKrige
open Spec
noncomputable section

/-- Predictions for one row do not depend on the other rows. -/
def Spec.Rowwise {P : Type} (R : Regressor P) : Prop :=
  ∀ (st : R.State) (m m' : ℕ) (q : Fin m → P) (q' : Fin m' → P) (f : Fin m → ℝ) (f' : Fin m' → ℝ),
    R.predict st q = .ok f → R.predict st q' = .ok f' → ∀ j i, q j = q' i → f j = f' i

section
variable {P : Type} {R : Regressor P} {n m d : ℕ} {env : Env} {k k' : RK R}

theorem addArrays_same {e : List (Option ℝ)} {f : Fin m → ℝ} (h : e.length = m) :
    addArrays e (List.ofFn f) = .ok (List.zipWith (fun a b => a.map (· + b)) e (List.ofFn f)) := by
  unfold addArrays
  rw [if_pos (by rw [h, List.length_ofFn])]

/-- Construction takes only regression models, and any method of `Krige`. -/
theorem C36_init (st : R.State) (args : KrigeArgs) :
    RK.init st args = if R.isRegressor = false then .error .runtimeError
      else if args.method ∈ ["ordinary", "universal", "ordinary3d", "universal3d"] then .ok ⟨st, ⟨args, none⟩⟩
      else .error .valueError := by
  unfold RK.init Krige.init
  by_cases hr : R.isRegressor = true
  · have hr' : ¬R.isRegressor = false := by rw [hr]; decide
    rw [if_pos hr, if_neg hr']
    by_cases hm : args.method ∈ ["ordinary", "universal", "ordinary3d", "universal3d"]
    · rw [if_neg (not_not.2 hm), if_pos hm]; rfl
    · rw [if_pos hm, if_neg hm]; rfl
  · rw [if_neg hr, if_pos (by simpa using hr)]

/-- What a fit does. The regression model is fitted to `(p, y)`; the residual model is a `Krige` object with the settings
given at construction, fitted to `x` and the residuals `y - ŷ`. It succeeds if and only if all this does, and the object
then holds just these two. -/
theorem C36_fit {p : Fin n → P} {x : Fin n → Fin d → ℝ} {y : Fin n → ℝ} :
    k.fit env p x y = (.ok (), k') ↔ ∃ fitted : Fin n → ℝ, R.fit k.state p y = (.ok (), k'.state) ∧
      R.predict k'.state p = .ok fitted ∧
      Krige.fit env ⟨k.krige.args, none⟩ x (fun i => y i - fitted i) = (.ok (), k'.krige) := by
  have hforget : ∀ (y : Fin n → ℝ) (K : Krige), k.krige.fit env x y = (.ok (), K) ↔
      Krige.fit env ⟨k.krige.args, none⟩ x y = (.ok (), K) := by
    intro y K
    unfold Krige.fit
    dsimp only
    split
    · rfl
    · constructor <;> intro h <;> cases (Prod.ext_iff.1 h).1
  unfold RK.fit
  rcases hR : R.fit k.state p y with ⟨r, st⟩
  cases r with
  | error e =>
    constructor
    · intro h; cases (Prod.ext_iff.1 h).1
    · rintro ⟨f, h, -⟩; cases (Prod.ext_iff.1 h).1
  | ok u =>
    dsimp only
    cases hP : R.predict st p with
    | error e =>
      constructor
      · intro h; cases (Prod.ext_iff.1 h).1
      · rintro ⟨f, h, h', -⟩
        have : st = k'.state := (Prod.ext_iff.1 h).2
        rw [← this, hP] at h'; cases h'
    | ok f =>
      dsimp only
      constructor
      · intro h
        have h1 := (Prod.ext_iff.1 h).1
        have h2 := (Prod.ext_iff.1 h).2
        dsimp only at h1 h2
        rw [← h2]
        exact ⟨f, rfl, hP, (hforget _ _).1 (Prod.ext h1 rfl)⟩
      · rintro ⟨g, h, h', h''⟩
        have e1 : st = k'.state := (Prod.ext_iff.1 h).2
        rw [← e1, hP] at h'
        cases h'
        rw [(hforget _ _).2 h'', e1]

/-- `predict` is the sum of the two predictions. -/
theorem C36_sum (k : RK R) (q : Fin m → P) (u : Points) (kw : PredictKw) {e : List (Option ℝ)} {f : Fin m → ℝ}
    (he : k.krige.predict env u kw = .ok e) (hf : R.predict k.state q = .ok f) (hl : e.length = m) :
    ∃ v, k.predict env q u kw = .ok v ∧ v.length = m ∧ ∀ j : Fin m, ∀ a, e[j.val]? = some a →
      v[j.val]? = some (a.map (· + f j)) := by
  unfold RK.predict RK.krigeResidual
  rw [he, hf]
  refine ⟨_, addArrays_same hl, ?_, fun j a ha => ?_⟩
  · simp [hl]
  · rw [List.getElem?_zipWith, ha]
    simp

/-- If one of the two predictions raises, so does their sum. -/
theorem C36_raises (k : RK R) (q : Fin m → P) (u : Points) (kw : PredictKw) {err : PyErr}
    (h : k.krige.predict env u kw = .error err ∨ R.predict k.state q = .error err) :
    ∃ err', k.predict env q u kw = .error err' := by
  unfold RK.predict RK.krigeResidual
  rcases h with h | h
  · rw [h]; exact ⟨_, rfl⟩
  · cases k.krige.predict env u kw with
    | error e => exact ⟨_, rfl⟩
    | ok e => rw [h]; exact ⟨_, rfl⟩

/-- The key step for training points. -/
theorem predict_honours {p : Fin n → P} {x : Fin n → Fin d → ℝ} {y : Fin n → ℝ} (hR : Rowwise R)
    (hfit : k.fit env p x y = (.ok (), k')) {kw : PredictKw} {q : Fin m → P} {u : Fin m → Fin d → ℝ} {b : Bool}
    (hh : ∀ (r : Fin n → ℝ) (e : List (Option ℝ)), Krige.fit env ⟨k.krige.args, none⟩ x r = (.ok (), k'.krige) →
      k'.krige.predict env ⟨m, d, u, b⟩ kw = .ok e → Honours x r u e) {v : List (Option ℝ)}
    (hv : k'.predict env q ⟨m, d, u, b⟩ kw = .ok v) :
    v.length = m ∧ ∀ (j : Fin m) (i : Fin n), q j = p i → u j = x i → v[j.val]? = some (some (y i)) := by
  obtain ⟨fitted, -, h2, h3⟩ := C36_fit.1 hfit
  unfold RK.predict RK.krigeResidual at hv
  obtain ⟨e, he, hv'⟩ := py_bind_eq_ok.1 hv
  obtain ⟨f, hf, hv'⟩ := py_bind_eq_ok.1 hv'
  obtain ⟨hl, hd⟩ := hh _ e h3 he
  rw [addArrays_same hl] at hv'
  obtain rfl := Except.ok.inj hv'
  refine ⟨by simp [hl], fun j i hq hu => ?_⟩
  obtain ⟨a, ha, hai⟩ := hd j
  rw [List.getElem?_zipWith, ha]
  simp only [List.getElem?_ofFn, j.2, dite_true, Option.map_some, Fin.eta, Option.some.injEq]
  rw [hai i hu, hR _ _ _ q p f fitted hf h2 j i hq]
  ring

/-- In the plane: a prediction at the predictors and the location of a training point is its target, if the kriging
honours its data (the conditions of C05). -/
theorem C36_exact_plane {p : Fin n → P} {x : Fin n → Fin 2 → ℝ} {y : Fin n → ℝ} (hR : Rowwise R)
    (hfit : k.fit env p x y = (.ok (), k')) (hx : ExactPlane env k'.krige x) {kw : PredictKw} (hst : kw.style = none)
    {q : Fin m → P} {u : Fin m → Fin 2 → ℝ} {b : Bool} {v : List (Option ℝ)}
    (hv : k'.predict env q { n := m, d := 2, val := u, isInt := b } kw = .ok v) :
    v.length = m ∧ ∀ (j : Fin m) (i : Fin n), q j = p i → u j = x i → v[j.val]? = some (some (y i)) :=
  predict_honours hR hfit (fun _ _ h1 h2 => C35_exact_plane h1 hx hst h2) hv

/-- In space. -/
theorem C36_exact_space {p : Fin n → P} {x : Fin n → Fin 3 → ℝ} {y : Fin n → ℝ} (hR : Rowwise R)
    (hfit : k.fit env p x y = (.ok (), k')) (hx : ExactSpace env k'.krige x) {kw : PredictKw} (hst : kw.style = none)
    {q : Fin m → P} {u : Fin m → Fin 3 → ℝ} {b : Bool} {v : List (Option ℝ)}
    (hv : k'.predict env q { n := m, d := 3, val := u, isInt := b } kw = .ok v) :
    v.length = m ∧ ∀ (j : Fin m) (i : Fin n), q j = p i → u j = x i → v[j.val]? = some (some (y i)) :=
  predict_honours hR hfit (fun _ _ h1 h2 => C35_exact_space h1 hx hst h2) hv

/-- Without a successful fit of the residuals there is no prediction. -/
theorem C36_untrained (k : RK R) (h : k.krige.model = none) (q : Fin m → P) (u : Points) (kw : PredictKw) :
    k.predict env q u kw = .error .notFitted := by
  unfold RK.predict RK.krigeResidual Krige.predict
  rw [h]
  rfl

/-- A fit that raises may leave the object inconsistent: if only the kriging of the residuals fails, the regression model
has been fitted again while the residual model still is the one of the earlier fit. -/
theorem C36_failed_fit {p : Fin n → P} {x : Fin n → Fin d → ℝ} {y fitted : Fin n → ℝ} {st : R.State} {err : PyErr}
    (h1 : R.fit k.state p y = (.ok (), st)) (h2 : R.predict st p = .ok fitted) {K : Krige}
    (h3 : k.krige.fit env x (fun i => y i - fitted i) = (.error err, K)) :
    k.fit env p x y = (.error err, ⟨st, k.krige⟩) := by
  unfold RK.fit
  rw [h1]
  dsimp only
  rw [h2]
  dsimp only
  rw [h3, C35_failed_fit_keeps h3]

/-- With a window larger than the training set (the default is ten), every prediction fails. -/
theorem C36_default_needs_ten {s : OK n} (he : KnnSpec env) (hk : k.krige.model = some (.ordinary s))
    (hm : k.krige.args.method ∈ ["ordinary", "universal"]) {w : ℤ} (hw : k.krige.args.nClosest = some w) (hn : (n : ℤ) < w)
    (u : Points) (hd : u.d = 2) (hu : 0 < u.n) (q : Fin m → P) : ∃ e, k.predict env q u {} = .error e := by
  obtain ⟨e, h⟩ := C35_default_needs_ten he hk hm hw hn u hd hu
  exact C36_raises k q u {} (.inl h)

end

/-! ### A concrete regression -/

namespace Demo

/-- Predicting the mean of the targets, whatever the predictors are. -/
def meanRegressor : Regressor ℝ where
  State := ℝ
  fit := fun {n} _ _ y => (.ok (), (∑ i, y i) / n)
  predict := fun st _ => .ok fun _ => st

theorem meanRegressor_rowwise : Rowwise meanRegressor := by
  intro st m m' q q' f f' h h' j i _
  obtain rfl := Except.ok.inj h
  obtain rfl := Except.ok.inj h'
  rfl

/-- The conditions of C05. -/
theorem exactPlane {z : Fin 2 → ℝ} {s : OK 2} (hc : OK.create stdEnv X O z (args 0 true false) = .ok s) :
    ExactPlane stdEnv ⟨kargs "ordinary" none, some (.ordinary s)⟩ XY := by
  refine ⟨rfl, .inl ⟨s, rfl, ?_⟩⟩
  obtain ⟨ha, -⟩ := ok_run (le_refl 0) hc [] (b := "loop") (.inr (.inl rfl))
  refine ⟨stdEnv_knn, ha.noClash, ha.range, ha.window, .inl rfl, fun i l hl => ?_⟩
  obtain ⟨s', hc', -, -, -, h1, h2, -⟩ := Demo.ok z 0 true false
  obtain rfl : s' = s := Except.ok.inj (hc'.symm.trans hc)
  rw [h1, h2]
  change _ < distance2 "euclidean" 1 0 (X l, O l) (X i, O i)
  have hd := dist01
  fin_cases i <;> fin_cases l
  · exact absurd rfl hl
  · change _ < distance2 "euclidean" 1 0 (X 1, O 1) (X 0, O 0)
    rw [distance2_comm, hd]; norm_num
  · change _ < distance2 "euclidean" 1 0 (X 0, O 0) (X 1, O 1)
    rw [hd]; norm_num
  · exact absurd rfl hl

/-- The object, fitted. -/
theorem rk_fits (a b : ℝ) (q : Fin 2 → ℝ) : ∃ k' : RK meanRegressor,
    RK.fit stdEnv (⟨(7 : ℝ), ⟨kargs "ordinary" none, none⟩⟩ : RK meanRegressor) q XY ![a, b] = (.ok (), k') ∧
    ExactPlane stdEnv k'.krige XY ∧ k'.krige.args = kargs "ordinary" none ∧ k'.state = (a + b) / (2 : ℝ) ∧
    ∀ (m : ℕ) (f : Fin m → ℝ × ℝ), ∃ e, k'.krige.predict stdEnv (plane m f) {} = .ok e := by
  set mean : ℝ := (∑ i, ![a, b] i) / (2 : ℕ) with hmean
  have hmean' : mean = (a + b) / 2 := by rw [hmean, Fin.sum_univ_two]; simp
  obtain ⟨⟨s, hc, hf⟩, -⟩ := fits (fun i => ![a, b] i - mean) none none
  exact ⟨⟨mean, ⟨kargs "ordinary" none, some (.ordinary s)⟩⟩, C36_fit.2 ⟨fun _ => mean, rfl, rfl, hf⟩, exactPlane hc, rfl, hmean',
    plane_runs hc⟩

/-- Predicting at some other point and at the second training point. -/
example (a b : ℝ) (q : Fin 2 → ℝ) : ∃ (k' : RK meanRegressor) (v : List (Option ℝ)),
    RK.fit stdEnv (⟨(7 : ℝ), ⟨kargs "ordinary" none, none⟩⟩ : RK meanRegressor) q XY ![a, b] = (.ok (), k') ∧
    k'.predict stdEnv ![5, q 1] (plane 2 ![(7, 7), (1, 0)]) {} = .ok v ∧ v[1]? = some (some b) := by
  obtain ⟨k', hf, hx, -, -, hrun⟩ := rk_fits a b q
  obtain ⟨e, he⟩ := hrun 2 ![(7, 7), (1, 0)]
  have hl : e.length = 2 := by
    obtain ⟨fitted, -, -, hK⟩ := C36_fit.1 hf
    exact (C35_exact_plane (kw := {}) hK hx rfl he).1
  obtain ⟨v, hv, -⟩ := C36_sum k' ![5, q 1] (plane 2 ![(7, 7), (1, 0)]) {} he rfl hl
  refine ⟨k', v, hf, hv, ?_⟩
  refine (C36_exact_plane meanRegressor_rowwise hf hx (kw := {}) rfl hv).2 1 1 rfl ?_
  funext j
  fin_cases j <;> simp [XY, X, O]

/-- A fit that fails in its kriging part (points in space for a method in the plane) after a successful one: the mean is
the new one, 10, the residuals are the old ones. -/
example (q : Fin 2 → ℝ) : ∃ k' k'' : RK meanRegressor,
    RK.fit stdEnv (⟨(7 : ℝ), ⟨kargs "ordinary" none, none⟩⟩ : RK meanRegressor) q XY ![0, 2] = (.ok (), k') ∧
    RK.fit stdEnv k' q XYZ ![10, 10] = (.error .valueError, k'') ∧ k'.state = (1 : ℝ) ∧ k''.state = (10 : ℝ) ∧
    k''.krige = k'.krige := by
  obtain ⟨k', hf, -, hargs, hst, -⟩ := rk_fits 0 2 q
  refine ⟨k', ⟨(10 : ℝ), k'.krige⟩, hf, ?_, hst.trans (show ((0 + 2) / 2 : ℝ) = 1 by norm_num), rfl, rfl⟩
  refine C36_failed_fit (R := meanRegressor) (k := k') (st := (10 : ℝ)) (fitted := fun _ => 10) ?_ rfl (K := k'.krige) ?_
  · show ((.ok (), (∑ i, ![(10 : ℝ), 10] i) / (2 : ℕ)) : Py Unit × ℝ) = (.ok (), 10)
    rw [Fin.sum_univ_two]
    norm_num
  · refine C35_fit_dimension (by rw [hargs]; rfl) (by rw [hargs]; rfl) XYZ _ (.inl ⟨by rw [hargs]; simp [kargs], by norm_num⟩)

end Demo

end
end PyKrige
