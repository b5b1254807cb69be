import Verif.Props.C76
import Verif.Props.C19Accept
import Verif.Props.C29
import Verif.Props.C47Unique

/-!
# C76: the automatic fit and the unit of the values

`least_squares(..., loss='soft_l1')` compares the residuals with 1, so the fit depends on the unit in which the values
are given, and with it weights and estimates.
-/

namespace PyKrige
noncomputable section
open Spec

/-! ### Best lines for three lags -/

/-- The tangent of `√(1 + t²)` at `r`. -/
theorem tangent_le {r k : ℝ} (hk : 0 < k) (hr : k ^ 2 = 1 + r ^ 2) (t : ℝ) : √(1 + r ^ 2) + r / k * (t - r) ≤ √(1 + t ^ 2) := by
  rw [← hr, Real.sqrt_sq hk.le]
  refine Real.le_sqrt_of_sq_le ?_
  have : k + r / k * (t - r) = (1 + r * t) / k := by
    field_simp
    linear_combination hr
  rw [this, div_pow, div_le_iff₀ (by positivity), hr]
  nlinarith [sq_nonneg (t - r)]

theorem tangent_eq {r k : ℝ} (hk : 0 < k) (hr : k ^ 2 = 1 + r ^ 2) {t : ℝ} (h : √(1 + t ^ 2) ≤ √(1 + r ^ 2) + r / k * (t - r)) : t = r := by
  rw [← hr, Real.sqrt_sq hk.le] at h
  have e : k + r / k * (t - r) = (1 + r * t) / k := by
    field_simp
    linear_combination hr
  rw [e] at h
  have h2 : 1 + t ^ 2 ≤ ((1 + r * t) / k) ^ 2 := by
    have h0 : (0 : ℝ) ≤ 1 + t ^ 2 := by positivity
    calc 1 + t ^ 2 = √(1 + t ^ 2) ^ 2 := (Real.sq_sqrt h0).symm
      _ ≤ _ := by
        have := Real.sqrt_nonneg (1 + t ^ 2)
        nlinarith
  rw [div_pow, le_div_iff₀ (by positivity), hr] at h2
  have : (t - r) ^ 2 ≤ 0 := by nlinarith
  have := pow_eq_zero_iff (n := 2) (by norm_num) |>.1 (le_antisymm this (sq_nonneg _))
  linarith

/-- The experimental variogram of four equidistant data on a line: `a`, `b`, `c` at the lags 1, 2, 3. The line
`slope d + nugget` whose residuals at the lags are `r₁`, `-r₂`, `r₁` with `2 r₁ / √(1 + r₁²) = r₂ / √(1 + r₂²)` is the best. -/
theorem best_three {a b c slope nugget r₁ r₂ k₁ k₂ : ℝ} (h1 : 0 ≤ slope) (h2 : 0 ≤ nugget)
    (h3 : nugget ≤ a ∨ nugget ≤ b ∨ nugget ≤ c) (e1 : slope + nugget - a = r₁) (e2 : 2 * slope + nugget - b = -r₂)
    (e3 : 3 * slope + nugget - c = r₁) (hk1 : 0 < k₁) (hk2 : 0 < k₂) (hr1 : k₁ ^ 2 = 1 + r₁ ^ 2) (hr2 : k₂ ^ 2 = 1 + r₂ ^ 2)
    (hw : r₂ / k₂ = 2 * (r₁ / k₁)) :
    BestFit "linear" false [(1, a), (2, b), (3, c)] [slope, nugget] ∧
      ∀ q, BestFit "linear" false [(1, a), (2, b), (3, c)] q → q = [slope, nugget] := by
  obtain ⟨-, S, -, -, -, hS, -⟩ := extremes (l := ([(1, a), (2, b), (3, c)] : List (ℝ × ℝ)).map Prod.snd) (by simp)
  obtain ⟨-, L, -, -, -, hL, -⟩ := extremes (l := ([(1, a), (2, b), (3, c)] : List (ℝ × ℝ)).map Prod.fst) (by simp)
  have hlin : ∀ s n : ℝ, misfit false [(1, a), (2, b), (3, c)] (linearFormula s n) =
      (√(1 + (s + n - a) ^ 2) - 1) + ((√(1 + (2 * s + n - b) ^ 2) - 1) + (√(1 + (3 * s + n - c) ^ 2) - 1)) := by
    intro s n
    simp [misfit, softL1, weightOf, linearFormula, mul_comm]
  have hr2' : k₂ ^ 2 = 1 + (-r₂) ^ 2 := by rw [hr2]; ring
  have hsum : ∀ s n : ℝ, r₁ / k₁ * (s + n - a - r₁) + (-r₂) / k₂ * (2 * s + n - b - -r₂) + r₁ / k₁ * (3 * s + n - c - r₁) = 0 := by
    intro s n
    rw [neg_div, hw, ← e1, ← e2]
    rw [show (3 * s + n - c - (slope + nugget - a)) = 3 * (s - slope) + (n - nugget) by linarith]
    ring
  have hw0 : WithinBounds "linear" S L [slope, nugget] := by
    unfold WithinBounds
    rw [if_pos rfl]
    refine ⟨slope, nugget, rfl, h1, h2, ?_⟩
    rcases h3 with h | h | h
    · exact h.trans (hS.2 (by simp))
    · exact h.trans (hS.2 (by simp))
    · exact h.trans (hS.2 (by simp))
  refine ⟨⟨S, L, hS, hL, hw0, _, builtin_linear.2 rfl, ?_⟩, ?_⟩
  · intro q γ' hq hb
    unfold WithinBounds at hq
    rw [if_pos rfl] at hq
    obtain ⟨s, n, rfl, -⟩ := hq
    rw [builtin_linear] at hb
    subst hb
    rw [hlin, hlin, e1, e2, e3]
    have t1 := tangent_le hk1 hr1 (s + n - a)
    have t2 := tangent_le hk2 hr2' (2 * s + n - b)
    have t3 := tangent_le hk1 hr1 (3 * s + n - c)
    linarith [hsum s n]
  · rintro q ⟨S', L', hS', hL', hq, γ, hb, hbest⟩
    have hle := hbest [slope, nugget] _ (by cases hS.unique hS'; cases hL.unique hL'; exact hw0) (builtin_linear.2 rfl)
    unfold WithinBounds at hq
    rw [if_pos rfl] at hq
    obtain ⟨s, n, rfl, -⟩ := hq
    rw [builtin_linear] at hb
    subst hb
    rw [hlin, hlin, e1, e2, e3] at hle
    have t1 := tangent_le hk1 hr1 (s + n - a)
    have t2 := tangent_le hk2 hr2' (2 * s + n - b)
    have t3 := tangent_le hk1 hr1 (3 * s + n - c)
    have u1 := tangent_eq hk1 hr1 (t := s + n - a) (by linarith [hsum s n])
    have u2 := tangent_eq hk2 hr2' (t := 2 * s + n - b) (by linarith [hsum s n])
    have : s = slope := by linarith
    subst this
    rw [show n = nugget by linarith]

/-! ### Four data on a line -/

theorem pdistPairs_four : pdistPairs 4 = [(0, 1), (0, 2), (0, 3), (1, 2), (1, 3), (2, 3)] := by decide

/-- The experimental variogram, with three lags, of the values 0, 0, u, u at the positions 0, 1, 2, 3. -/
theorem ev_four {X : Fin 4 → Fin 2 → ℝ} (hX : ∀ i j : Fin 4, i < j → euclid (X i) (X j) = (j : ℝ) - i) (u : ℝ) :
    experimentalVariogram X ![0, 0, u, u] 3 "euclidean" = .ok [(1, u ^ 2 / 6), (2, u ^ 2 / 2), (3, u ^ 2 / 2)] := by
  have h01 := hX 0 1 (by decide)
  have h02 := hX 0 2 (by decide)
  have h03 := hX 0 3 (by decide)
  have h12 := hX 1 2 (by decide)
  have h13 := hX 1 3 (by decide)
  have h23 := hX 2 3 (by decide)
  norm_num at h01 h02 h03 h12 h13 h23
  have hdg : pairDistances X ![0, 0, u, u] "euclidean" =
      .ok [(1, 0), (2, u ^ 2 / 2), (3, u ^ 2 / 2), (1, u ^ 2 / 2), (2, u ^ 2 / 2), (1, 0)] := by
    unfold pairDistances
    rw [if_pos rfl, pdistPairs_four]
    simp only [List.map_cons, List.map_nil, h01, h02, h03, h12, h13, h23]
    simp
    ring
  have hed : binEdges 1 3 3 = [1, 5 / 3, 7 / 3, 3001 / 1000] := by
    unfold binEdges
    norm_num [List.range_succ]
  unfold experimentalVariogram
  rw [hdg]
  simp only [py_ok_bind, py_pure, List.map_cons, List.map_nil, amax, amin, List.foldl_cons, List.foldl_nil]
  norm_num
  rw [hed]
  set dg : List (ℝ × ℝ) := [(1, 0), (2, u ^ 2 / 2), (3, u ^ 2 / 2), (1, u ^ 2 / 2), (2, u ^ 2 / 2), (1, 0)] with hdef
  have b1 : inBin dg 1 (5 / 3) = [(1, 0), (1, u ^ 2 / 2), (1, 0)] := by
    rw [hdef]; unfold inBin; norm_num [List.filter_cons]
  have b2 : inBin dg (5 / 3) (7 / 3) = [(2, u ^ 2 / 2), (2, u ^ 2 / 2)] := by
    rw [hdef]; unfold inBin; norm_num [List.filter_cons]
  have b3 : inBin dg (7 / 3) (3001 / 1000) = [(3, u ^ 2 / 2)] := by
    rw [hdef]; unfold inBin; norm_num [List.filter_cons]
  unfold binned
  simp only [List.tail_cons, List.zip_cons_cons, List.zip_nil_right, List.filterMap_cons, List.filterMap_nil, b1, b2, b3]
  unfold mean
  norm_num
  ring

/-- Four data on a line, the values 0, 0, u, u. -/
def Demo.line4 (env : Env) (u : ℝ) : Py (OK 4) := OK.create env (fun i : Fin 4 => (i : ℝ)) (fun _ => 0) ![0, 0, u, u] { nlags := 3 }

theorem Demo.line4_dist (i j : Fin 4) : okDistance { nlags := 3 } ((i : ℝ), 0) ((j : ℝ), 0) = |(j : ℝ) - i| := by
  unfold okDistance distance2 anisoDist2
  simp [effScaling, effAngle, rad, Real.sqrt_sq_eq_abs, abs_sub_comm]

theorem Demo.line4_query (i : Fin 4) : okDistance { nlags := 3 } (4, 0) ((i : ℝ), 0) = 4 - (i : ℝ) := by
  have : (i : ℝ) ≤ 4 := by
    have := i.isLt
    exact_mod_cast this.le
  unfold okDistance distance2 anisoDist2
  simp [effScaling, effAngle, rad, this]

/-- The fit and the estimate at (4, 0). -/
theorem Demo.line4_fit {env : Env} (hl : LsqSpec env) (hk : KnnSpec env) (ho : LsqOptimal env) {u slope nugget r₁ r₂ k₁ k₂ : ℝ} (hu : 0 < u)
    (h1 : 0 < slope) (h2 : 0 ≤ nugget) (h3 : nugget ≤ u ^ 2 / 2) (e1 : slope + nugget - u ^ 2 / 6 = r₁)
    (e2 : 2 * slope + nugget - u ^ 2 / 2 = -r₂) (e3 : 3 * slope + nugget - u ^ 2 / 2 = r₁) (hk1 : 0 < k₁) (hk2 : 0 < k₂)
    (hr1 : k₁ ^ 2 = 1 + r₁ ^ 2) (hr2 : k₂ ^ 2 = 1 + r₂ ^ 2) (hw : r₂ / k₂ = 2 * (r₁ / k₁)) :
    ∃ s, Demo.line4 env u = .ok s ∧ s.params = [slope, nugget] ∧ ∃ r, s.execute env (Demo.pts [(4, 0)] "loop") = .ok r ∧
      r.z[0]? = some (some (u * (1 / 2 + slope * (slope + 2 * nugget) / (nugget ^ 2 + 4 * nugget * slope + 2 * slope ^ 2)))) := by
  have hd : ∀ i j : Fin 4, okDistance { nlags := 3 } ((i : ℝ), 0) ((j : ℝ), 0) = |(j : ℝ) - i| :=
    Demo.line4_dist
  have hfp : FitPossible (fun i j : Fin 4 => okDistance { nlags := 3 } ((i : ℝ), 0) ((j : ℝ), 0))
      ![0, 0, u, u] "linear" false 3 :=
    ⟨⟨0, 2, by decide, by simpa using hu.ne⟩, ⟨0, 1, by decide, by dsimp only; rw [hd]; norm_num⟩,
      fun _ => ⟨by norm_num, 0, 1, 0, 2, by decide, by decide, by dsimp only; rw [hd, hd]; norm_num⟩⟩
  obtain ⟨s, h⟩ := C19_accepted_statistics_ok hl (fun i : Fin 4 => (i : ℝ)) (fun _ => 0) ![0, 0, u, u] { nlags := 3 } rfl (by decide) rfl (by decide)
    (.inl rfl) (by decide) rfl (.inl rfl) hfp
  obtain ⟨f, hf, hv, hi⟩ := OK.create_auto h rfl rfl
  have hX : ∀ i j : Fin 4, i < j → euclid (s.pts i) (s.pts j) = (j : ℝ) - i := by
    intro i j hij
    have e : s.dataDist i j = euclid (s.pts i) (s.pts j) := if_pos (OK.create_fields h).2.2.2.2.1
    rw [← e, (OK.create_dist h).1, hd, abs_of_pos]
    have : (i : ℝ) < j := by exact_mod_cast hij
    linarith
  have hev := (init_auto hi).2.1
  have hlags : s.lags = [(1, u ^ 2 / 6), (2, u ^ 2 / 2), (3, u ^ 2 / 2)] := (Except.ok.inj ((ev_four hX u).symm.trans hev)).symm
  obtain ⟨b1, b2⟩ := best_three h1.le h2 (.inr (.inl h3)) e1 e2 e3 hk1 hk2 hr1 hr2 hw
  rw [← hlags] at b1 b2
  have hps : s.params = [slope, nugget] := b2 _ (init_best ho hf hi ⟨_, b1⟩)
  refine ⟨s, h, hps, ?_⟩
  have hvm : ValidModel "linear" s.params := .inl ⟨slope, nugget, rfl, hps, h1.le, h2⟩
  have hsep : Separates s.params fun i j : Fin 4 => okDistance { nlags := 3 } ((i : ℝ), 0) ((j : ℝ), 0) := by
    refine .inl ⟨⟨slope, [nugget], hps, h1⟩, fun i j hij => ?_⟩
    dsimp only
    rw [hd, abs_ne_zero, sub_ne_zero]
    intro e
    exact hij (Fin.ext (by exact_mod_cast e.symm))
  have hname := (chosen_evaluates (builtin_linear.2 rfl : Builtin "linear" [slope, nugget] _) (by decide) (OK.create_function h rfl))
  have hadm : Admissible env { nlags := 3 } s (Demo.pts [(4, 0)] "loop").nClosest :=
    ⟨hk, trivial, by rw [hname.2]; intro hc; exact absurd hc (by decide), by intro k hk; cases hk⟩
  obtain ⟨hq1, hq2⟩ := Demo.pts_wellPosed [(4, 0)] "loop"
  obtain ⟨r, hr⟩ := C29_execute_2d h rfl rfl hvm hsep hadm hq1 (by intro k hk; cases hk) hq2 (.inl rfl)
  refine ⟨r, hr, ?_⟩
  have hγ : s.variogramFunction s.params = .ok (linearFormula slope nugget) := by rw [hps]; exact hname.1
  obtain ⟨-, ⟨w, μ, hE⟩, hall⟩ := C47_unique_2d h hadm rfl rfl hγ (exact := true) rfl hr (j := 0) (p := (4, 0)) (by simp [queryAt, Demo.pts])
    (by simp [maskedAt, Demo.pts])
  rw [(hall w μ hE).1]
  have hG : ∀ i j : Fin 4, semivar (linearFormula slope nugget) (fun i j : Fin 4 => okDistance { nlags := 3 } ((i : ℝ), 0) ((j : ℝ), 0)) i j =
      if i = j then 0 else slope * |(j : ℝ) - i| + nugget := by
    intro i j
    unfold semivar
    split
    · rfl
    · dsimp only; rw [hd]; rfl
  have hg : ∀ i : Fin 4, semivarTo true (linearFormula slope nugget) (fun i : Fin 4 => okDistance { nlags := 3 } (4, 0) ((i : ℝ), 0)) i =
      slope * (4 - (i : ℝ)) + nugget := by
    intro i
    unfold semivarTo
    have hi : (i : ℝ) ≤ 3 := by
      have := i.isLt
      exact_mod_cast Nat.lt_succ_iff.1 this
    rw [if_neg]
    · dsimp only; rw [Demo.line4_query]; rfl
    · rintro ⟨-, hc⟩
      dsimp only at hc
      rw [Demo.line4_query] at hc
      norm_num at hc
      linarith
  have s0 := hE.stationary 0
  have s1 := hE.stationary 1
  have s2 := hE.stationary 2
  have s3 := hE.stationary 3
  have su := hE.unbiased
  simp only [hG, hg, Fin.sum_univ_four, Finset.univ_eq_empty, Finset.sum_empty] at s0 s1 s2 s3 su
  norm_num [Fin.ext_iff] at s0 s1 s2 s3
  have hdet : 0 < nugget ^ 2 + 4 * nugget * slope + 2 * slope ^ 2 := by positivity
  congr 2
  unfold estimate
  rw [Fin.sum_univ_four]
  change w 0 * 0 + w 1 * 0 + w 2 * u + w 3 * u = _
  have eA : (3 * slope + nugget) * (w 3 - w 0) + slope * (w 2 - w 1) = 3 * slope := by linarith
  have eB : slope * (w 3 - w 0) + (slope + nugget) * (w 2 - w 1) = slope := by linarith
  have eAB : (w 3 - w 0 + (w 2 - w 1)) * (nugget ^ 2 + 4 * nugget * slope + 2 * slope ^ 2) = 2 * (slope * (slope + 2 * nugget)) := by
    linear_combination (nugget) * eA + (2 * slope + nugget) * eB
  have e5 : slope * (slope + 2 * nugget) / (nugget ^ 2 + 4 * nugget * slope + 2 * slope ^ 2) = (w 3 - w 0 + (w 2 - w 1)) / 2 := by
    rw [div_eq_div_iff hdet.ne' (by norm_num)]
    linarith
  rw [e5]
  linear_combination (u / 2) * su

/-- The automatic fit depends on the unit of the values: there are data (four points on a line, model 'linear') and a factor
`c` such that the same data with all values multiplied by `c` give an estimate that is not `c` times the first one. Slope and
nugget are not multiplied by the same factor. -/
theorem C76_value_unit_false {env : Env} (hl : LsqSpec env) (hk : KnnSpec env) (ho : LsqOptimal env) :
    ∃ (x y z : Fin 4 → ℝ) (c : ℝ) (s s' : OK 4) (r r' : ExecResult) (t t' : ℝ), 0 < c ∧
      OK.create env x y z { nlags := 3 } = .ok s ∧ OK.create env x y (fun i => c * z i) { nlags := 3 } = .ok s' ∧
      (∀ slope nugget, s.params = [slope, nugget] → s'.params ≠ [c ^ 2 * slope, c ^ 2 * nugget]) ∧
      s.execute env (Demo.pts [(4, 0)] "loop") = .ok r ∧ s'.execute env (Demo.pts [(4, 0)] "loop") = .ok r' ∧
      r.z[0]? = some (some t) ∧ r'.z[0]? = some (some t') ∧ t' ≠ c * t := by
  have h7 : √7 ^ 2 = (7 : ℝ) := Real.sq_sqrt (by norm_num)
  have p7 : 0 < √7 := Real.sqrt_pos.2 (by norm_num)
  set q := √7 with hq
  -- u² = 15
  have hu1 : √15 ^ 2 = (15 : ℝ) := Real.sq_sqrt (by norm_num)
  have pu1 : 0 < √15 := Real.sqrt_pos.2 (by norm_num)
  -- u'² = 6 (1 + 1/√7)
  have hk' : (0 : ℝ) < 6 * (1 + 1 / q) := by positivity
  have hu2 : √(6 * (1 + 1 / q)) ^ 2 = 6 * (1 + 1 / q) := Real.sq_sqrt hk'.le
  have pu2 : 0 < √(6 * (1 + 1 / q)) := Real.sqrt_pos.2 hk'
  set u := √15
  set u' := √(6 * (1 + 1 / q))
  have h5 : √5 ^ 2 = (5 : ℝ) := Real.sq_sqrt (by norm_num)
  have p5 : 0 < √5 := Real.sqrt_pos.2 (by norm_num)
  have h2 : √2 ^ 2 = (2 : ℝ) := Real.sq_sqrt (by norm_num)
  have p2 : 0 < √2 := Real.sqrt_pos.2 (by norm_num)
  obtain ⟨s, h1, hps, r, hr, hz⟩ := Demo.line4_fit hl hk ho (u := u) (slope := 5 / 2) (nugget := 1 / 2) (r₁ := 1 / 2) (r₂ := 2)
    (k₁ := √5 / 2) (k₂ := √5) pu1 (by norm_num) (by norm_num) (by rw [hu1]; norm_num) (by rw [hu1]; norm_num) (by rw [hu1]; norm_num)
    (by rw [hu1]; norm_num) (by positivity) p5 (by rw [div_pow, h5]; norm_num) (by rw [h5]; norm_num) (by field_simp)
  obtain ⟨s', h1', hps', r', hr', hz'⟩ := Demo.line4_fit hl hk ho (u := u') (slope := 1 + 1 / q) (nugget := 1 / q) (r₁ := 1 / q) (r₂ := 1)
    (k₁ := 2 * √2 / q) (k₂ := √2) pu2 (by positivity) (by positivity)
    (by rw [hu2]; have : (0 : ℝ) < 1 / q := by positivity
        linarith) (by rw [hu2]; ring) (by rw [hu2]; ring)
    (by rw [hu2]; ring) (by positivity) p2 (by rw [div_pow, div_pow, mul_pow, h2, h7]; norm_num) (by rw [h2]; norm_num) (by field_simp)
  have ec : ∀ i, u' / u * (![0, 0, u, u] : Fin 4 → ℝ) i = (![0, 0, u', u'] : Fin 4 → ℝ) i := by
    intro i
    fin_cases i <;> simp <;> field_simp
  refine ⟨_, _, _, u' / u, s, s', r, r', _, _, by positivity, h1, ?_, ?_, hr, hr', hz, hz', ?_⟩
  · rw [show (fun i => u' / u * (![0, 0, u, u] : Fin 4 → ℝ) i) = ![0, 0, u', u'] from funext ec]
    exact h1'
  · intro a b hab hab'
    rw [hps] at hab
    rw [hps'] at hab'
    simp only [List.cons.injEq, and_true] at hab hab'
    rw [← hab.1, ← hab.2, div_pow, hu1, hu2] at hab'
    have := hab'.2
    field_simp at this
    nlinarith
  · set p := 1 / q with hp
    have pp : 0 < p := by positivity
    have hp2 : p ^ 2 = 1 / 7 := by rw [hp, div_pow, h7, one_pow]
    intro e
    rw [show u' / u * (u * (1 / 2 + 5 / 2 * (5 / 2 + 2 * (1 / 2)) / ((1 / 2) ^ 2 + 4 * (1 / 2) * (5 / 2) + 2 * (5 / 2) ^ 2))) =
      u' * (1 / 2 + 35 / 71) by field_simp; norm_num] at e
    have e' := mul_left_cancel₀ pu2.ne' e
    have hden : (0 : ℝ) < p ^ 2 + 4 * p * (1 + p) + 2 * (1 + p) ^ 2 := by positivity
    have e2 : (1 + p) * (1 + p + 2 * p) / (p ^ 2 + 4 * p * (1 + p) + 2 * (1 + p) ^ 2) = 35 / 71 := by linarith
    rw [div_eq_div_iff hden.ne' (by norm_num)] at e2
    have : p = 25 / 28 := by nlinarith
    rw [this] at hp2
    norm_num at hp2

end
end PyKrige
