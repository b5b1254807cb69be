import Verif.Props.C35
import Verif.Props.C05

/-!
C35, continued: the wrapper honours the data wherever the kriging classes do (C05), and cannot use specified drifts.
-/

namespace PyKrige
open Spec
noncomputable section

section
variable {n m : ℕ} {env : Env} {k K : Krige}

/-- What a successful fit needs: tuples that are long enough. -/
theorem fit_lists {d : ℕ} {x : Fin n → Fin d → ℝ} {y : Fin n → ℝ} (h : k.fit env x y = (.ok (), K)) :
    (∃ s₀ s₁ ss, k.args.anisotropyScaling = s₀ :: s₁ :: ss) ∧
      ∃ a₀ a₁ a₂ as, k.args.anisotropyAngle = a₀ :: a₁ :: a₂ :: as := by
  obtain ⟨b, hb⟩ : ∃ b, Krige.addSetup k.args n = .ok b := by
    cases hb : Krige.addSetup k.args n with
    | ok b => exact ⟨b, rfl⟩
    | error e => rw [fit_addSetup hb] at h; cases (Prod.ext_iff.1 h).1
  unfold Krige.addSetup at hb
  obtain ⟨_, -, hb⟩ := py_bind_eq_ok.1 hb
  obtain ⟨_, -, hb⟩ := py_bind_eq_ok.1 hb
  obtain ⟨_, -, hb⟩ := py_bind_eq_ok.1 hb
  obtain ⟨_, h1, hb⟩ := py_bind_eq_ok.1 hb
  obtain ⟨_, -, hb⟩ := py_bind_eq_ok.1 hb
  obtain ⟨_, -, hb⟩ := py_bind_eq_ok.1 hb
  obtain ⟨_, h2, -⟩ := py_bind_eq_ok.1 hb
  refine ⟨?_, ?_⟩
  · revert h1
    rcases k.args.anisotropyScaling with _ | ⟨a, _ | ⟨b, l⟩⟩
    · intro h; cases h
    · intro h; cases h
    · exact fun _ => ⟨_, _, _, rfl⟩
  · revert h2
    rcases k.args.anisotropyAngle with _ | ⟨a, _ | ⟨b, _ | ⟨c, l⟩⟩⟩
    · intro h; cases h
    · intro h; cases h
    · intro h; cases h
    · exact fun _ => ⟨_, _, _, _, rfl⟩

/-- ... and a method of the dimension of the points. -/
theorem fit_method {d : ℕ} {x : Fin n → Fin d → ℝ} {y : Fin n → ℝ} (h : k.fit env x y = (.ok (), K)) :
    (k.args.method = "ordinary" ∨ k.args.method = "universal") ∧ d = 2 ∨
      (k.args.method = "ordinary3d" ∨ k.args.method = "universal3d") ∧ d = 3 := by
  obtain ⟨⟨s₀, s₁, ss, hs⟩, a₀, a₁, a₂, as, ha⟩ := fit_lists h
  have hm : k.args.method = "ordinary" ∨ k.args.method = "universal" ∨ k.args.method = "ordinary3d" ∨
      k.args.method = "universal3d" := by
    by_contra hc
    push Not at hc
    obtain ⟨h1, h2, h3, h4⟩ := hc
    have hl : krigeMethodsKws.lookup k.args.method = none := by
      unfold krigeMethodsKws
      simp only [List.lookup]
      rw [beq_false_of_ne h1, beq_false_of_ne h2, beq_false_of_ne h3, beq_false_of_ne h4]
    unfold Krige.fit at h
    dsimp only at h
    unfold Krige.addSetup at h
    rw [hs, ha, hl] at h
    cases (Prod.ext_iff.1 h).1
  by_contra hc
  have := C35_fit_dimension (env := env) hs ha x y (by
    rcases hm with hm | hm | hm | hm
    · exact .inl ⟨by rw [hm]; decide, fun e => hc (.inl ⟨.inl hm, e⟩)⟩
    · exact .inl ⟨by rw [hm]; decide, fun e => hc (.inl ⟨.inr hm, e⟩)⟩
    · exact .inr ⟨by rw [hm]; decide, fun e => hc (.inr ⟨.inl hm, e⟩)⟩
    · exact .inr ⟨by rw [hm]; decide, fun e => hc (.inr ⟨.inr hm, e⟩)⟩)
  rw [this] at h
  cases (Prod.ext_iff.1 h).1

theorem fitted_ok {α : Type} {made : Py α} {wrap : α → KModel} (h : fitted k made wrap = (.ok (), K)) :
    ∃ s, made = .ok s ∧ K = { k with model := some (wrap s) } := by
  unfold fitted at h
  split at h
  · next s => exact ⟨s, rfl, (Prod.ext_iff.1 h).2.symm⟩
  · cases (Prod.ext_iff.1 h).1

/-- A successful fit in the plane. -/
theorem fit_plane {x : Fin n → Fin 2 → ℝ} {y : Fin n → ℝ} (h : k.fit env x y = (.ok (), K)) :
    (∃ s s₀ a₀, k.args.method = "ordinary" ∧
      OK.create env (fun i => x i 0) (fun i => x i 1) y (ordinaryArgs k.args s₀ a₀) = .ok s ∧
      K = { k with model := some (.ordinary s) }) ∨
    (∃ s s₀ a₀, k.args.method = "universal" ∧
      UK.create env (fun i => x i 0) (fun i => x i 1) y (universalArgs k.args s₀ a₀) = .ok s ∧
      K = { k with model := some (.universal s) }) := by
  obtain ⟨⟨s₀, s₁, ss, hs⟩, a₀, a₁, a₂, as, ha⟩ := fit_lists h
  rcases fit_method h with ⟨hm | hm, -⟩ | ⟨-, hd⟩
  · rw [C35_fit_ordinary hm hs ha] at h
    obtain ⟨s, h1, h2⟩ := fitted_ok h
    exact .inl ⟨s, s₀, a₀, hm, h1, h2⟩
  · rw [C35_fit_universal hm hs ha] at h
    obtain ⟨s, h1, h2⟩ := fitted_ok h
    exact .inr ⟨s, s₀, a₀, hm, h1, h2⟩
  · exact absurd hd (by norm_num)

/-- A successful fit in space. -/
theorem fit_space {x : Fin n → Fin 3 → ℝ} {y : Fin n → ℝ} (h : k.fit env x y = (.ok (), K)) :
    (∃ s sy sz ax ay az, k.args.method = "ordinary3d" ∧
      OK3D.create env (fun i => x i 0) (fun i => x i 1) (fun i => x i 2) y (ordinary3dArgs k.args sy sz ax ay az) = .ok s ∧
      K = { k with model := some (.ordinary3d s) }) ∨
    (∃ s sy sz ax ay az, k.args.method = "universal3d" ∧
      UK3D.create env (fun i => x i 0) (fun i => x i 1) (fun i => x i 2) y (universal3dArgs k.args sy sz ax ay az) = .ok s ∧
      K = { k with model := some (.universal3d s) }) := by
  obtain ⟨⟨s₀, s₁, ss, hs⟩, a₀, a₁, a₂, as, ha⟩ := fit_lists h
  rcases fit_method h with ⟨-, hd⟩ | ⟨hm | hm, -⟩
  · exact absurd hd (by norm_num)
  · rw [C35_fit_ordinary3d hm hs ha] at h
    obtain ⟨s, h1, h2⟩ := fitted_ok h
    exact .inl ⟨s, s₀, s₁, a₀, a₁, a₂, hm, h1, h2⟩
  · rw [C35_fit_universal3d hm hs ha] at h
    obtain ⟨s, h1, h2⟩ := fitted_ok h
    exact .inr ⟨s, s₀, s₁, a₀, a₁, a₂, hm, h1, h2⟩

/-- A specified drift cannot be used with the wrapper: it has no argument for the drift values, and `fit` always raises. -/
theorem C35_specified_refused (hm : k.args.method ∈ ["universal", "universal3d"]) (hd : "specified" ∈ k.args.driftTerms)
    {d : ℕ} (x : Fin n → Fin d → ℝ) (y : Fin n → ℝ) : ∃ e, k.fit env x y = (.error e, k) := by
  cases h : k.fit env x y with
  | mk r K =>
    cases r with
    | error e => exact ⟨e, by rw [C35_failed_fit_keeps h]⟩
    | ok u =>
      exfalso
      have h' : k.args.method = "universal" ∨ k.args.method = "universal3d" := by simpa using hm
      rcases fit_method h with ⟨-, rfl⟩ | ⟨-, rfl⟩
      · rcases fit_plane h with ⟨s, s₀, a₀, hm, hc, -⟩ | ⟨s, s₀, a₀, hm, hc, -⟩
        · rw [hm] at h'; revert h'; decide
        · obtain ⟨-, exact, name, model, fArg, pArg, sc, an, f, fname, xc, yc, vp, lags, ps, stats, ext, plog, spec, func,
            -, -, -, -, -, -, -, -, -, -, h11, -⟩ := UK.create_ok hc
          unfold setupSpecifiedTerm at h11
          rw [if_pos (by exact hd)] at h11
          cases h11
      · rcases fit_space h with ⟨s, sy, sz, ax, ay, az, hm, hc, -⟩ | ⟨s, sy, sz, ax, ay, az, hm, hc, -⟩
        · rw [hm] at h'; revert h'; decide
        · obtain ⟨-, exact, name, model, fArg, pArg, an, f, fname, xc, yc, zc, vp, lags, ps, stats, spec, func,
            -, -, -, -, -, -, -, -, -, h11, -⟩ := UK3D.create_ok hc
          unfold setupSpecifiedTerm at h11
          rw [if_pos (by exact hd)] at h11
          cases h11

theorem length_of_layout {α : Type} {z : List (Option ℝ)} {query : ℕ → Option α} (h : ∀ j : ℕ, z[j]? = none ↔ query j = none)
    (hq : ∀ j : ℕ, query j = none ↔ m ≤ j) : z.length = m := by
  refine le_antisymm ?_ ?_
  · exact List.getElem?_eq_none_iff.1 ((h m).2 ((hq m).2 le_rfl))
  · exact (hq _).1 ((h _).1 (List.getElem?_eq_none le_rfl))

/-- In the plane, the wrapper honours the data under the conditions of C05: one estimate for each point, and at a point of
the fit its target. -/
theorem C35_exact_plane {x : Fin n → Fin 2 → ℝ} {y : Fin n → ℝ} (hf : k.fit env x y = (.ok (), K)) (hx : ExactPlane env K x)
    {kw : PredictKw} (hst : kw.style = none) {u : Fin m → Fin 2 → ℝ} {b : Bool} {e : List (Option ℝ)}
    (he : K.predict env { n := m, d := 2, val := u, isInt := b } kw = .ok e) : Honours x y u e := by
  obtain ⟨hex, hx⟩ := hx
  rcases fit_plane hf with ⟨s, s₀, a₀, hm, hc, hK⟩ | ⟨s, s₀, a₀, hm, hc, hK⟩
  · have hKa : K.args = k.args := by rw [hK]
    have hKm : K.model = some (.ordinary s) := by rw [hK]
    obtain ⟨s', hs', h1, h2, h3, h4, h5, h6⟩ : ∃ s : OK n, K.model = some (.ordinary s) ∧ KnnSpec env ∧ K.args.variogramFunction.NoClash ∧
      RangeOk s.functionName s.params ∧ WindowFits n K.args.nClosest ∧ (K.args.pseudoInv = false ∨ K.args.nClosest ≠ none) ∧
      ∀ i l, l ≠ i → 1 / 10 ^ 10 <
        distance2 K.args.coordinatesType s.anisotropyScaling s.anisotropyAngle (x l 0, x l 1) (x i 0, x i 1) := by
      rcases hx with hx | ⟨s', hs', -⟩
      · exact hx
      · rw [hKm] at hs'; cases hs'
    have hss : s' = s := by rw [hKm] at hs'; cases hs'; rfl
    subst hss
    have hkey : kw.spec2 = none ∧ kw.spec3 = none := by
      by_contra hno
      have := C35_predict_keyword (env := env) hKm ⟨m, 2, u, b⟩ kw (.inl ⟨by rw [hKa, hm]; decide, rfl⟩) (by
        show kw.spec2 ≠ none ∨ kw.spec3 ≠ none
        tauto)
      rw [this] at he; cases he
    rw [C35_predict_ordinary hKm (by rw [hKa, hm]; decide) ⟨m, 2, u, b⟩ rfl hkey.1 hkey.2] at he
    obtain ⟨r, hr, rfl⟩ := py_map_eq_ok.1 he
    rw [hst] at hr
    set ea : ExecArgs := { style := "points", xpoints := ⟨List.ofFn fun i => u i 0, b⟩, ypoints := ⟨List.ofFn fun i => u i 1, b⟩
                           mask := kw.mask2.getD none, backend := kw.backend.getD "loop", nClosest := K.args.nClosest } with hea
    change s'.execute env ea = .ok r at hr
    rw [hKa] at hex h2 h4 h5 h6
    have hA : Admissible env (ordinaryArgs k.args s₀ a₀) s' ea.nClosest := ⟨h1, h2, h3, by rw [hea, hKa]; exact h4⟩
    have hq : ∀ j : ℕ, (hj : j < m) → queryAt ea j = some (u ⟨j, hj⟩ 0, u ⟨j, hj⟩ 1) := by
      intro j hj
      unfold queryAt
      simp [hea, hj]
    have hq' : ∀ j : ℕ, queryAt ea j = none ↔ m ≤ j := by
      intro j
      constructor
      · intro h
        by_contra hj
        rw [hq j (by omega)] at h; cases h
      · intro hj
        unfold queryAt
        simp [hea, hj]
    have hmask : ∀ j, maskedAt ea j = false := fun j => by simp [maskedAt, hea]
    have hlay := (OK.create_weighs hc hA).layout (z := s'.Z) (lags := s'.lags) (stats := s'.stats) hr
    refine ⟨length_of_layout hlay.2.1 hq', fun j => ?_⟩
    obtain ⟨row, -, hv, -⟩ := (OK.create_weighs hc hA).at_point (z := s'.Z) (lags := s'.lags) (stats := s'.stats) hr
      (hq j.1 j.2) (hmask j.1)
    refine ⟨_, hv, fun i hi => ?_⟩
    have := (C05_exact_2d hc hA (by exact hex) (by rw [hea, hKa]; exact h5) hr (i := i) (j := j.1)
      (by rw [hq j.1 j.2, show u ⟨j.1, j.2⟩ = x i from hi]) (hmask _) (fun l hl => h6 i l hl)).1
    rw [hv] at this
    exact Option.some.inj (Option.some.inj this)
  · have hKa : K.args = k.args := by rw [hK]
    have hKm : K.model = some (.universal s) := by rw [hK]
    obtain ⟨s', hs', h5, h6⟩ : ∃ s : UK n, K.model = some (.universal s) ∧ K.args.pseudoInv = false ∧
      ∀ i l, l ≠ i → 1 / 10 ^ 10 < anisoDist2 s.anisotropyScaling s.anisotropyAngle (x l 0, x l 1) (x i 0, x i 1) := by
      rcases hx with ⟨s', hs', -⟩ | hx
      · rw [hKm] at hs'; cases hs'
      · exact hx
    have hss : s' = s := by rw [hKm] at hs'; cases hs'; rfl
    subst hss
    have hkey : kw.nClosest = none := by
      by_contra hno
      have := C35_predict_keyword (env := env) hKm ⟨m, 2, u, b⟩ kw (.inl ⟨by rw [hKa, hm]; decide, rfl⟩) hno
      rw [this] at he; cases he
    rw [C35_predict_universal hKm (by rw [hKa, hm]; decide) ⟨m, 2, u, b⟩ rfl hkey] at he
    obtain ⟨r, hr, rfl⟩ := py_map_eq_ok.1 he
    rw [hst] at hr
    set ea : UKExecArgs :=
      { toExec := { style := "points", xpoints := ⟨List.ofFn fun i => u i 0, b⟩, ypoints := ⟨List.ofFn fun i => u i 1, b⟩
                    mask := kw.mask2.getD none, backend := kw.backend.getD "loop" }
        spec := kw.spec2.getD .none } with hea
    change s'.execute ea = .ok r at hr
    rw [hKa] at hex h5
    have hns : "specified" ∉ (universalArgs k.args s₀ a₀).driftTerms := fun hd => by
      obtain ⟨e', h'⟩ := C35_specified_refused (env := env) (k := k) (by rw [hm]; decide) hd x y
      rw [h'] at hf; cases (Prod.ext_iff.1 hf).1
    have hq : ∀ j : ℕ, (hj : j < m) → queryAt ea.toExec j = some (u ⟨j, hj⟩ 0, u ⟨j, hj⟩ 1) := by
      intro j hj
      unfold queryAt
      simp [hea, hj]
    have hq' : ∀ j : ℕ, queryAt ea.toExec j = none ↔ m ≤ j := by
      intro j
      constructor
      · intro h
        by_contra hj
        rw [hq j (by omega)] at h; cases h
      · intro hj
        unfold queryAt
        simp [hea, hj]
    have hmask : ∀ j, maskedAt ea.toExec j = false := fun j => by simp [maskedAt, hea]
    have hlay := (UK.create_weighs hc ea).layout (z := s'.Z) (lags := s'.lags) (stats := s'.stats) hr
    refine ⟨length_of_layout hlay.2.1 hq', fun j => ?_⟩
    obtain ⟨row, -, hv, -⟩ := (UK.create_weighs hc ea).at_point (z := s'.Z) (lags := s'.lags) (stats := s'.stats) hr
      (hq j.1 j.2) (hmask j.1)
    refine ⟨_, hv, fun i hi => ?_⟩
    have := (C05_exact_uk hc (by exact hex) (by exact h5) hr (i := i) (j := j.1)
      (by rw [hq j.1 j.2, show u ⟨j.1, j.2⟩ = x i from hi]) (hmask _) (fun l hl => h6 i l hl) (fun hd => absurd hd hns)).1
    rw [hv] at this
    exact Option.some.inj (Option.some.inj this)

/-- In space, the wrapper honours the data under the conditions of C05: one estimate for each point, and at a point of
the fit its target. -/
theorem C35_exact_space {x : Fin n → Fin 3 → ℝ} {y : Fin n → ℝ} (hf : k.fit env x y = (.ok (), K)) (hx : ExactSpace env K x)
    {kw : PredictKw} (hst : kw.style = none) {u : Fin m → Fin 3 → ℝ} {b : Bool} {e : List (Option ℝ)}
    (he : K.predict env { n := m, d := 3, val := u, isInt := b } kw = .ok e) : Honours x y u e := by
  obtain ⟨hex, hx⟩ := hx
  rcases fit_space hf with ⟨s, sy, sz, ax, ay, az, hm, hc, hK⟩ | ⟨s, sy, sz, ax, ay, az, hm, hc, hK⟩
  · have hKa : K.args = k.args := by rw [hK]
    have hKm : K.model = some (.ordinary3d s) := by rw [hK]
    obtain ⟨s', hs', h1, h4, h5, h6⟩ : ∃ s : OK3D n, K.model = some (.ordinary3d s) ∧ KnnSpec env ∧ WindowFits n K.args.nClosest ∧ (K.args.pseudoInv = false ∨ K.args.nClosest ≠ none) ∧
      ∀ i l, l ≠ i → 1 / 10 ^ 10 <
        distance3 s.aniso (x l 0, x l 1, x l 2) (x i 0, x i 1, x i 2) := by
      rcases hx with hx | ⟨s', hs', -⟩
      · exact hx
      · rw [hKm] at hs'; cases hs'
    have hss : s' = s := by rw [hKm] at hs'; cases hs'; rfl
    subst hss
    have hkey : kw.spec2 = none ∧ kw.spec3 = none := by
      by_contra hno
      have := C35_predict_keyword (env := env) hKm ⟨m, 3, u, b⟩ kw (.inr ⟨by rw [hKa, hm]; decide, rfl⟩) (by
        show kw.spec2 ≠ none ∨ kw.spec3 ≠ none
        tauto)
      rw [this] at he; cases he
    rw [C35_predict_ordinary3d hKm (by rw [hKa, hm]; decide) ⟨m, 3, u, b⟩ rfl hkey.1 hkey.2] at he
    obtain ⟨r, hr, rfl⟩ := py_map_eq_ok.1 he
    rw [hst] at hr
    set ea : ExecArgs3 := { style := "points", xpoints := ⟨List.ofFn fun i => u i 0, b⟩, ypoints := ⟨List.ofFn fun i => u i 1, b⟩, zpoints := ⟨List.ofFn fun i => u i 2, b⟩
                            mask := kw.mask3.getD none, backend := kw.backend.getD "loop", nClosest := K.args.nClosest } with hea
    change s'.execute env ea = .ok r at hr
    rw [hKa] at hex h4 h5
    have hw : WindowFits n ea.nClosest := by rw [hea, hKa]; exact h4
    have hq : ∀ j : ℕ, (hj : j < m) → queryAt3 ea j = some (u ⟨j, hj⟩ 0, u ⟨j, hj⟩ 1, u ⟨j, hj⟩ 2) := by
      intro j hj
      unfold queryAt3
      simp [hea, hj]
    have hq' : ∀ j : ℕ, queryAt3 ea j = none ↔ m ≤ j := by
      intro j
      constructor
      · intro h
        by_contra hj
        rw [hq j (by omega)] at h; cases h
      · intro hj
        unfold queryAt3
        simp [hea, hj]
    have hmask : ∀ j, maskedAt3 ea j = false := fun j => by simp [maskedAt3, hea]
    have hlay := (OK3D.create_weighs hc h1 hw).layout (z := s'.VALUES) (lags := s'.lags) (stats := s'.stats) hr
    refine ⟨length_of_layout hlay.2.1 hq', fun j => ?_⟩
    obtain ⟨row, -, hv, -⟩ := (OK3D.create_weighs hc h1 hw).at_point (z := s'.VALUES) (lags := s'.lags) (stats := s'.stats) hr
      (hq j.1 j.2) (hmask j.1)
    refine ⟨_, hv, fun i hi => ?_⟩
    have := (C05_exact_3d hc h1 hw (by exact hex) (by rw [hea, hKa]; exact h5) hr (i := i) (j := j.1)
      (by rw [hq j.1 j.2, show u ⟨j.1, j.2⟩ = x i from hi]) (hmask _) (fun l hl => h6 i l hl)).1
    rw [hv] at this
    exact Option.some.inj (Option.some.inj this)
  · have hKa : K.args = k.args := by rw [hK]
    have hKm : K.model = some (.universal3d s) := by rw [hK]
    obtain ⟨s', hs', h5, h6⟩ : ∃ s : UK3D n, K.model = some (.universal3d s) ∧ K.args.pseudoInv = false ∧
      ∀ i l, l ≠ i → 1 / 10 ^ 10 < distance3 s.aniso (x l 0, x l 1, x l 2) (x i 0, x i 1, x i 2) := by
      rcases hx with ⟨s', hs', -⟩ | hx
      · rw [hKm] at hs'; cases hs'
      · exact hx
    have hss : s' = s := by rw [hKm] at hs'; cases hs'; rfl
    subst hss
    have hkey : kw.nClosest = none := by
      by_contra hno
      have := C35_predict_keyword (env := env) hKm ⟨m, 3, u, b⟩ kw (.inr ⟨by rw [hKa, hm]; decide, rfl⟩) hno
      rw [this] at he; cases he
    rw [C35_predict_universal3d hKm (by rw [hKa, hm]; decide) ⟨m, 3, u, b⟩ rfl hkey] at he
    obtain ⟨r, hr, rfl⟩ := py_map_eq_ok.1 he
    rw [hst] at hr
    set ea : UK3DExecArgs :=
      { toExec := { style := "points", xpoints := ⟨List.ofFn fun i => u i 0, b⟩, ypoints := ⟨List.ofFn fun i => u i 1, b⟩, zpoints := ⟨List.ofFn fun i => u i 2, b⟩
                    mask := kw.mask3.getD none, backend := kw.backend.getD "loop" }
        spec := kw.spec3.getD .none } with hea
    change s'.execute ea = .ok r at hr
    rw [hKa] at hex h5
    have hns : "specified" ∉ (universal3dArgs k.args sy sz ax ay az).driftTerms := fun hd => by
      obtain ⟨e', h'⟩ := C35_specified_refused (env := env) (k := k) (by rw [hm]; decide) hd x y
      rw [h'] at hf; cases (Prod.ext_iff.1 hf).1
    have hq : ∀ j : ℕ, (hj : j < m) → queryAt3 ea.toExec j = some (u ⟨j, hj⟩ 0, u ⟨j, hj⟩ 1, u ⟨j, hj⟩ 2) := by
      intro j hj
      unfold queryAt3
      simp [hea, hj]
    have hq' : ∀ j : ℕ, queryAt3 ea.toExec j = none ↔ m ≤ j := by
      intro j
      constructor
      · intro h
        by_contra hj
        rw [hq j (by omega)] at h; cases h
      · intro hj
        unfold queryAt3
        simp [hea, hj]
    have hmask : ∀ j, maskedAt3 ea.toExec j = false := fun j => by simp [maskedAt3, hea]
    have hlay := (UK3D.create_weighs hc ea).layout (z := s'.VALUES) (lags := s'.lags) (stats := s'.stats) hr
    refine ⟨length_of_layout hlay.2.1 hq', fun j => ?_⟩
    obtain ⟨row, -, hv, -⟩ := (UK3D.create_weighs hc ea).at_point (z := s'.VALUES) (lags := s'.lags) (stats := s'.stats) hr
      (hq j.1 j.2) (hmask j.1)
    refine ⟨_, hv, fun i hi => ?_⟩
    have := (C05_exact_uk3d hc (by exact hex) (by exact h5) hr (i := i) (j := j.1)
      (by rw [hq j.1 j.2, show u ⟨j.1, j.2⟩ = x i from hi]) (hmask _) (fun l hl => h6 i l hl) (fun hd => absurd hd hns)).1
    rw [hv] at this
    exact Option.some.inj (Option.some.inj this)

end
end
end PyKrige
