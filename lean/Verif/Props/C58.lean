import Verif.Model.Score
import Verif.Spec.Score
import Verif.Props.C36

/-!
C58: the score of a regression is the coefficient of determination of its predictions.

`score` of `RegressionKriging` and of `Krige` is never above one; it is one if and only if every prediction is its target,
and so is one on the training data where kriging honours them. If the targets differ, it is one minus the ratio of the
squared errors to those of the (weighted) mean.
-/

namespace PyKrige
open Spec
noncomputable section

section
variable {m n : ℕ}

theorem zipWith_ofFn' {α β γ : Type} (f : α → β → γ) (a : Fin m → α) (b : Fin m → β) :
    List.zipWith f (List.ofFn a) (List.ofFn b) = List.ofFn fun j => f (a j) (b j) := by
  apply List.ext_getElem?
  intro i
  rw [List.getElem?_zipWith]
  simp only [List.getElem?_ofFn]
  by_cases h : i < m <;> simp [h]

theorem replicate_ofFn (c : ℝ) : List.replicate m c = List.ofFn fun _ : Fin m => c := by
  apply List.ext_getElem?
  intro i
  rw [List.getElem?_replicate]
  simp only [List.getElem?_ofFn]
  by_cases h : i < m <;> simp [h]

theorem sampleWeights_eq {w : Option (List ℝ)} {ω : Fin m → ℝ} (hw : Weights m w ω) :
    sampleWeights m w = List.ofFn ω := by
  rcases hw with ⟨rfl, h⟩ | rfl
  · rw [show ω = fun _ => 1 from funext h]
    exact replicate_ofFn 1
  · rfl

theorem weightedSquares_ofFn (ω a b : Fin m → ℝ) :
    weightedSquares (List.ofFn ω) (List.ofFn a) (List.ofFn b) = ∑ j, ω j * (a j - b j) ^ 2 := by
  unfold weightedSquares
  rw [zipWith_ofFn', zipWith_ofFn', List.sum_ofFn]

theorem weights_length {w : Option (List ℝ)} {ω : Fin m → ℝ} (hw : Weights m w ω) :
    ¬∃ l, w = some l ∧ l.length ≠ m := by
  rintro ⟨l, rfl, hl⟩
  rcases hw with ⟨h, -⟩ | h
  · cases h
  · exact hl (by rw [Option.some.inj h, List.length_ofFn])

/-- Weighted squares of a vector vanish only with the vector. -/
theorem squares_zero {ω g : Fin m → ℝ} (hω : ∀ j, 0 < ω j) : ∑ j, ω j * g j ^ 2 = 0 ↔ ∀ j, g j = 0 := by
  rw [Finset.sum_eq_zero_iff_of_nonneg fun j _ => mul_nonneg (hω j).le (sq_nonneg _)]
  constructor
  · intro h j
    rcases mul_eq_zero.1 (h j (Finset.mem_univ j)) with h | h
    · exact absurd h (hω j).ne'
    · exact pow_eq_zero_iff (two_ne_zero) |>.1 h
  · intro h j _
    rw [h j]; ring

/-- The metric. -/
theorem r2Score_spec {w : Option (List ℝ)} {ω y f : Fin m → ℝ} (hm : 2 ≤ m) (hw : Weights m w ω) (hω : ∀ j, 0 < ω j) :
    ∃ r, r2Score (List.ofFn y) (List.ofFn f) w = .ok (some r) ∧ r ≤ 1 ∧ (r = 1 ↔ f = y) ∧
      ((∃ i j, y i ≠ y j) → r = determination ω y f) ∧ ((∀ i j, y i = y j) → f ≠ y → r = 0) := by
  have hs : 0 < ∑ j, ω j := Finset.sum_pos (fun j _ => hω j) ⟨⟨0, by omega⟩, Finset.mem_univ _⟩
  set N := ∑ j, ω j * (y j - f j) ^ 2 with hN
  set D := ∑ j, ω j * (y j - targetMean ω y) ^ 2 with hD
  have hN0 : N = 0 ↔ f = y := by
    rw [hN, squares_zero (g := fun j => y j - f j) hω]
    exact ⟨fun h => funext fun j => by linarith [h j], fun h j => by rw [h]; ring⟩
  have hNn : 0 ≤ N := Finset.sum_nonneg fun j _ => mul_nonneg (hω j).le (sq_nonneg _)
  have hDn : 0 ≤ D := Finset.sum_nonneg fun j _ => mul_nonneg (hω j).le (sq_nonneg _)
  have hD0 : D = 0 ↔ ∀ i j, y i = y j := by
    rw [hD, squares_zero (g := fun j => y j - targetMean ω y) hω]
    constructor
    · intro h i j; linarith [h i, h j]
    · intro h j
      unfold targetMean
      rw [show ∑ i, ω i * y i = (∑ i, ω i) * y j by
        rw [Finset.sum_mul]; exact Finset.sum_congr rfl fun i _ => by rw [h i j]]
      field_simp
      ring
  refine ⟨if N = 0 then 1 else if D = 0 then 0 else 1 - N / D, ?_, ?_, ?_, ?_, ?_⟩
  · unfold r2Score
    rw [if_neg (by
      rw [List.length_ofFn, List.length_ofFn]
      rintro (h | h | h)
      · exact h rfl
      · exact weights_length hw h
      · omega)]
    rw [if_neg (by rw [List.length_ofFn]; omega)]
    rw [List.length_ofFn, sampleWeights_eq hw]
    unfold npAverage
    dsimp only
    rw [List.sum_ofFn, if_neg hs.ne', zipWith_ofFn', List.sum_ofFn]
    simp only [py_ok_bind]
    rw [replicate_ofFn, weightedSquares_ofFn, weightedSquares_ofFn]
    rfl
  · split_ifs with h1 h2
    · exact le_refl _
    · exact zero_le_one
    · linarith [div_nonneg hNn hDn]
  · rw [← hN0]
    constructor
    · intro h
      by_contra h1
      rw [if_neg h1] at h
      split_ifs at h with h2
      · exact zero_ne_one h
      · have : N / D = 0 := by linarith
        rcases div_eq_zero_iff.1 this with h3 | h3
        · exact h1 h3
        · exact h2 h3
    · intro h; rw [if_pos h]
  · rintro ⟨i, j, hij⟩
    have h2 : ¬D = 0 := fun h => hij (hD0.1 h i j)
    unfold determination
    rw [← hN, ← hD]
    by_cases h1 : N = 0
    · rw [if_pos h1, h1]; ring
    · rw [if_neg h1, if_neg h2]
  · intro h hf
    rw [if_neg (fun h1 => hf (hN0.1 h1)), if_pos (hD0.2 h)]

theorem r2Score_refused {y f : List ℝ} (w : Option (List ℝ)) (h : y.length ≠ f.length) : r2Score y f w = .error .valueError := by
  unfold r2Score
  rw [if_pos (.inl h)]

theorem r2Score_single (a b : ℝ) : r2Score [a] [b] none = .ok none := by
  unfold r2Score
  rw [if_neg (by simp), if_pos (by simp)]

theorem plain_some (f : Fin m → ℝ) : (List.ofFn fun j => some (f j)).mapM plainEntry = .ok (List.ofFn f) := by
  rw [py_mapM_eq_ok, show (List.ofFn fun j => some (f j)) = (List.ofFn f).map some by rw [List.map_ofFn]; rfl,
    List.forall₂_map_left_iff, List.forall₂_same]
  intro _ _
  rfl

/-- A list read off at its positions. -/
theorem list_of_entries {v : List (Option ℝ)} {f : Fin m → ℝ} (hl : v.length = m)
    (h : ∀ j : Fin m, v[j.val]? = some (some (f j))) : v = List.ofFn fun j => some (f j) := by
  apply List.ext_getElem?
  intro i
  rw [List.getElem?_ofFn]
  by_cases hi : i < m
  · rw [dif_pos hi]; exact h ⟨i, hi⟩
  · rw [dif_neg hi]; exact List.getElem?_eq_none (by omega)

end

section
variable {P : Type} {R : Regressor P} {n m d : ℕ} {env : Env} {k k' : RK R} {K K' : Krige}

/-- The score of `RegressionKriging`: given the predictions `f` for two or more samples with targets `y` and positive
weights (or none), it is at most one; one if and only if all predictions are right; and otherwise the coefficient of
determination, or zero if the targets do not vary. -/
theorem C58_score {q : Fin m → P} {u : Points} {kw : PredictKw} {f : Fin m → ℝ}
    (hf : k.predict env q u kw = .ok (List.ofFn fun j => some (f j))) (hm : 2 ≤ m) (y : Fin m → ℝ)
    {w : Option (List ℝ)} {ω : Fin m → ℝ} (hw : Weights m w ω) (hω : ∀ j, 0 < ω j) :
    ∃ r, k.score env q u (List.ofFn y) w kw = .ok (some r) ∧ r ≤ 1 ∧ (r = 1 ↔ f = y) ∧
      ((∃ i j, y i ≠ y j) → r = determination ω y f) ∧ ((∀ i j, y i = y j) → f ≠ y → r = 0) := by
  unfold RK.score
  rw [hf, py_ok_bind, plain_some, py_ok_bind]
  exact r2Score_spec hm hw hω

/-- The same for a `Krige` object. -/
theorem C58_score_krige {u : Points} {f : Fin m → ℝ}
    (hf : K.predict env u {} = .ok (List.ofFn fun j => some (f j))) (hm : 2 ≤ m) (y : Fin m → ℝ)
    {w : Option (List ℝ)} {ω : Fin m → ℝ} (hw : Weights m w ω) (hω : ∀ j, 0 < ω j) :
    ∃ r, K.score env u (List.ofFn y) w = .ok (some r) ∧ r ≤ 1 ∧ (r = 1 ↔ f = y) ∧
      ((∃ i j, y i ≠ y j) → r = determination ω y f) ∧ ((∀ i j, y i = y j) → f ≠ y → r = 0) := by
  unfold Krige.score
  rw [hf, py_ok_bind, plain_some, py_ok_bind]
  exact r2Score_spec hm hw hω

/-- The score raises what the prediction raises. -/
theorem C58_raises {q : Fin m → P} {u : Points} {kw : PredictKw} {e : PyErr} (h : k.predict env q u kw = .error e)
    (y : List ℝ) (w : Option (List ℝ)) : k.score env q u y w kw = .error e := by
  unfold RK.score
  rw [h]
  rfl

/-- As many targets as predictions are needed. -/
theorem C58_length {q : Fin m → P} {u : Points} {kw : PredictKw} {f : Fin m → ℝ}
    (hf : k.predict env q u kw = .ok (List.ofFn fun j => some (f j))) (y : List ℝ) (hy : y.length ≠ m)
    (w : Option (List ℝ)) : k.score env q u y w kw = .error .valueError := by
  unfold RK.score
  rw [hf, py_ok_bind, plain_some, py_ok_bind]
  exact r2Score_refused w (by rwa [List.length_ofFn])

/-- Of a single sample there is no score: it is `nan`. -/
theorem C58_single {q : Fin 1 → P} {u : Points} {kw : PredictKw} {f : ℝ}
    (hf : k.predict env q u kw = .ok [some f]) (y : ℝ) : k.score env q u [y] none kw = .ok none := by
  unfold RK.score
  rw [hf]
  exact r2Score_single y f

/-- On its training data, in the plane, a regression scores one, with any positive weights, where kriging honours its
data. -/
theorem C58_training_plane {p : Fin n → P} {x : Fin n → Fin 2 → ℝ} {y : Fin n → ℝ} (hR : Rowwise R) (hn : 2 ≤ n)
    (hfit : k.fit env p x y = (.ok (), k')) (hx : ExactPlane env k'.krige x) {kw : PredictKw} (hst : kw.style = none)
    {b : Bool} {v : List (Option ℝ)} (hv : k'.predict env p { n := n, d := 2, val := x, isInt := b } kw = .ok v)
    {w : Option (List ℝ)} {ω : Fin n → ℝ} (hw : Weights n w ω) (hω : ∀ j, 0 < ω j) :
    k'.score env p { n := n, d := 2, val := x, isInt := b } (List.ofFn y) w kw = .ok (some 1) := by
  obtain ⟨hl, he⟩ := C36_exact_plane hR hfit hx hst hv
  obtain ⟨r, hr, -, h1, -⟩ := C58_score (f := y) (by rw [hv, list_of_entries hl fun j => he j j rfl rfl]) hn y hw hω
  rw [hr, h1.2 rfl]

/-- In space. -/
theorem C58_training_space {p : Fin n → P} {x : Fin n → Fin 3 → ℝ} {y : Fin n → ℝ} (hR : Rowwise R) (hn : 2 ≤ n)
    (hfit : k.fit env p x y = (.ok (), k')) (hx : ExactSpace env k'.krige x) {kw : PredictKw} (hst : kw.style = none)
    {b : Bool} {v : List (Option ℝ)} (hv : k'.predict env p { n := n, d := 3, val := x, isInt := b } kw = .ok v)
    {w : Option (List ℝ)} {ω : Fin n → ℝ} (hw : Weights n w ω) (hω : ∀ j, 0 < ω j) :
    k'.score env p { n := n, d := 3, val := x, isInt := b } (List.ofFn y) w kw = .ok (some 1) := by
  obtain ⟨hl, he⟩ := C36_exact_space hR hfit hx hst hv
  obtain ⟨r, hr, -, h1, -⟩ := C58_score (f := y) (by rw [hv, list_of_entries hl fun j => he j j rfl rfl]) hn y hw hω
  rw [hr, h1.2 rfl]

theorem honours_own {d : ℕ} {x : Fin n → Fin d → ℝ} {y : Fin n → ℝ} {e : List (Option ℝ)} (h : Honours x y x e) :
    e = List.ofFn fun j => some (y j) :=
  list_of_entries h.1 fun j => by obtain ⟨v, h1, h2⟩ := h.2 j; rw [h1, h2 j rfl]

/-- A `Krige` object on its training data, in the plane. -/
theorem C58_training_krige_plane {x : Fin n → Fin 2 → ℝ} {y : Fin n → ℝ} (hn : 2 ≤ n) (hfit : K.fit env x y = (.ok (), K'))
    (hx : ExactPlane env K' x) {b : Bool} {v : List (Option ℝ)}
    (hv : K'.predict env { n := n, d := 2, val := x, isInt := b } {} = .ok v)
    {w : Option (List ℝ)} {ω : Fin n → ℝ} (hw : Weights n w ω) (hω : ∀ j, 0 < ω j) :
    K'.score env { n := n, d := 2, val := x, isInt := b } (List.ofFn y) w = .ok (some 1) := by
  obtain ⟨r, hr, -, h1, -⟩ := C58_score_krige (f := y)
    (by rw [hv, honours_own (C35_exact_plane (kw := {}) hfit hx rfl hv)]) hn y hw hω
  rw [hr, h1.2 rfl]

/-- In space. -/
theorem C58_training_krige_space {x : Fin n → Fin 3 → ℝ} {y : Fin n → ℝ} (hn : 2 ≤ n) (hfit : K.fit env x y = (.ok (), K'))
    (hx : ExactSpace env K' x) {b : Bool} {v : List (Option ℝ)}
    (hv : K'.predict env { n := n, d := 3, val := x, isInt := b } {} = .ok v)
    {w : Option (List ℝ)} {ω : Fin n → ℝ} (hw : Weights n w ω) (hω : ∀ j, 0 < ω j) :
    K'.score env { n := n, d := 3, val := x, isInt := b } (List.ofFn y) w = .ok (some 1) := by
  obtain ⟨r, hr, -, h1, -⟩ := C58_score_krige (f := y)
    (by rw [hv, honours_own (C35_exact_space (kw := {}) hfit hx rfl hv)]) hn y hw hω
  rw [hr, h1.2 rfl]

end

namespace Demo

theorem plane_XY : plane 2 ![(0, 0), (1, 0)] = ⟨2, 2, XY, false⟩ := by
  unfold plane
  congr 1
  funext i j
  fin_cases i <;> fin_cases j <;> simp [XY, X, O]

/-- Regression by the mean, with kriging of the residuals: on the training data the score is one, with weights 1 and 3. -/
example (a b : ℝ) (q : Fin 2 → ℝ) : ∃ k' : RK meanRegressor,
    RK.fit stdEnv (⟨(7 : ℝ), ⟨kargs "ordinary" none, none⟩⟩ : RK meanRegressor) q XY ![a, b] = (.ok (), k') ∧
    k'.score stdEnv q ⟨2, 2, XY, false⟩ [a, b] (some [1, 3]) {} = .ok (some 1) := by
  obtain ⟨k', hf, hx, -, -, hrun⟩ := rk_fits a b q
  obtain ⟨e, he⟩ := hrun 2 ![(0, 0), (1, 0)]
  have hl : e.length = 2 := by
    obtain ⟨fitted, -, -, hK⟩ := C36_fit.1 hf
    exact (C35_exact_plane (kw := {}) hK hx rfl he).1
  obtain ⟨v, hv, -⟩ := C36_sum k' q (plane 2 ![(0, 0), (1, 0)]) {} he rfl hl
  rw [plane_XY] at hv
  refine ⟨k', hf, ?_⟩
  have := C58_training_plane meanRegressor_rowwise le_rfl hf hx (kw := {}) rfl hv (w := some [1, 3]) (ω := ![1, 3])
    (.inr (by simp [List.ofFn_succ])) (fun j => by fin_cases j <;> simp)
  simpa [List.ofFn_succ] using this

/-- For other targets it is less: the same predictions `a`, `b`, scored with the targets `b`, `a`. -/
example (a b : ℝ) (hab : a ≠ b) (q : Fin 2 → ℝ) : ∃ (k' : RK meanRegressor) (r : ℝ),
    RK.fit stdEnv (⟨(7 : ℝ), ⟨kargs "ordinary" none, none⟩⟩ : RK meanRegressor) q XY ![a, b] = (.ok (), k') ∧
    k'.score stdEnv q ⟨2, 2, XY, false⟩ [b, a] none {} = .ok (some r) ∧ r = -3 := by
  obtain ⟨k', hf, hx, -, -, hrun⟩ := rk_fits a b q
  obtain ⟨e, he⟩ := hrun 2 ![(0, 0), (1, 0)]
  have hl : e.length = 2 := by
    obtain ⟨fitted, -, -, hK⟩ := C36_fit.1 hf
    exact (C35_exact_plane (kw := {}) hK hx rfl he).1
  obtain ⟨v, hv, -⟩ := C36_sum k' q (plane 2 ![(0, 0), (1, 0)]) {} he rfl hl
  rw [plane_XY] at hv
  obtain ⟨h1, h2⟩ := C36_exact_plane meanRegressor_rowwise hf hx (kw := {}) rfl hv
  obtain ⟨r, hr, -, -, h3, -⟩ := C58_score (k := k') (f := ![a, b])
    (by rw [hv, list_of_entries h1 fun j => h2 j j rfl rfl]) le_rfl ![b, a] (w := none) (ω := fun _ => 1) (.inl ⟨rfl, fun _ => rfl⟩)
    (fun _ => one_pos)
  refine ⟨k', r, hf, by simpa [List.ofFn_succ] using hr, ?_⟩
  rw [h3 ⟨0, 1, by simpa using hab.symm⟩]
  unfold determination targetMean
  simp only [Fin.sum_univ_two]
  have h4 : a - b ≠ 0 := sub_ne_zero.2 hab
  have h5 : 1 * ((![b, a] : Fin 2 → ℝ) 0 - (1 * (![b, a] : Fin 2 → ℝ) 0 + 1 * (![b, a] : Fin 2 → ℝ) 1) / (1 + 1)) ^ 2 +
      1 * ((![b, a] : Fin 2 → ℝ) 1 - (1 * (![b, a] : Fin 2 → ℝ) 0 + 1 * (![b, a] : Fin 2 → ℝ) 1) / (1 + 1)) ^ 2 = (a - b) ^ 2 / 2 := by
    simp; ring
  rw [h5]
  simp
  field_simp
  ring

end Demo

end
end PyKrige
