import Verif.Spec.Wrapper
import Verif.Props.C42

/-!
C35: the scikit-learn wrapper `Krige` forwards faithfully.

`fit` constructs the class of its method with exactly the stored settings; `predict` is that object's `execute` at the
given points; predicting without a successful fit raises; points of the wrong dimension are refused; a new fit forgets the
earlier one. Two facts a user may not expect: a one-element `anisotropy_scaling` (which the documentation asks for in two
dimensions) is always refused, and the default `n_closest_points = 10` makes every prediction from fewer than ten points
fail.
-/

namespace PyKrige
open Spec
noncomputable section

section
variable {n d : ℕ} {env : Env} {k : Krige}

theorem fitted_map {α : Type} (k : Krige) (made : Py α) (wrap : α → KModel) :
    (match wrap <$> made with
      | .ok m => ((.ok (), { k with model := some m }) : Py Unit × Krige)
      | .error e => (.error e, k)) = fitted k made wrap := by
  cases made <;> rfl

/-! ### What `fit` constructs -/

/-- `method='ordinary'`: `fit` constructs `OrdinaryKriging` from the columns of `x`, the targets and the settings. -/
theorem C35_fit_ordinary (hm : k.args.method = "ordinary") {s₀ s₁ a₀ a₁ a₂ : ℝ} {ss as : List ℝ}
    (hs : k.args.anisotropyScaling = s₀ :: s₁ :: ss) (ha : k.args.anisotropyAngle = a₀ :: a₁ :: a₂ :: as)
    (x : Fin n → Fin 2 → ℝ) (y : Fin n → ℝ) :
    k.fit env x y = fitted k (OK.create env (fun i => x i 0) (fun i => x i 1) y (ordinaryArgs k.args s₀ a₀)) .ordinary := by
  unfold Krige.fit
  dsimp only
  rw [hm, ← fitted_map]
  unfold Krige.addSetup
  rw [hs, ha]
  rfl

/-- `method='universal'`. -/
theorem C35_fit_universal (hm : k.args.method = "universal") {s₀ s₁ a₀ a₁ a₂ : ℝ} {ss as : List ℝ}
    (hs : k.args.anisotropyScaling = s₀ :: s₁ :: ss) (ha : k.args.anisotropyAngle = a₀ :: a₁ :: a₂ :: as)
    (x : Fin n → Fin 2 → ℝ) (y : Fin n → ℝ) :
    k.fit env x y = fitted k (UK.create env (fun i => x i 0) (fun i => x i 1) y (universalArgs k.args s₀ a₀)) .universal := by
  unfold Krige.fit
  dsimp only
  rw [hm, ← fitted_map]
  unfold Krige.addSetup
  rw [hs, ha]
  rfl

/-- `method='ordinary3d'`. -/
theorem C35_fit_ordinary3d (hm : k.args.method = "ordinary3d") {s₀ s₁ a₀ a₁ a₂ : ℝ} {ss as : List ℝ}
    (hs : k.args.anisotropyScaling = s₀ :: s₁ :: ss) (ha : k.args.anisotropyAngle = a₀ :: a₁ :: a₂ :: as)
    (x : Fin n → Fin 3 → ℝ) (y : Fin n → ℝ) :
    k.fit env x y = fitted k (OK3D.create env (fun i => x i 0) (fun i => x i 1) (fun i => x i 2) y
      (ordinary3dArgs k.args s₀ s₁ a₀ a₁ a₂)) .ordinary3d := by
  unfold Krige.fit
  dsimp only
  rw [hm, ← fitted_map]
  unfold Krige.addSetup
  rw [hs, ha]
  rfl

/-- `method='universal3d'`. -/
theorem C35_fit_universal3d (hm : k.args.method = "universal3d") {s₀ s₁ a₀ a₁ a₂ : ℝ} {ss as : List ℝ}
    (hs : k.args.anisotropyScaling = s₀ :: s₁ :: ss) (ha : k.args.anisotropyAngle = a₀ :: a₁ :: a₂ :: as)
    (x : Fin n → Fin 3 → ℝ) (y : Fin n → ℝ) :
    k.fit env x y = fitted k (UK3D.create env (fun i => x i 0) (fun i => x i 1) (fun i => x i 2) y
      (universal3dArgs k.args s₀ s₁ a₀ a₁ a₂)) .universal3d := by
  unfold Krige.fit
  dsimp only
  rw [hm, ← fitted_map]
  unfold Krige.addSetup
  rw [hs, ha]
  rfl

/-! ### What `predict` returns -/

/-- Ordinary kriging: the estimates of `execute` at the points, style 'points' and backend 'loop' unless the caller says
otherwise, with the window of the settings whatever the caller says. -/
theorem C35_predict_ordinary {s : OK n} (hk : k.model = some (.ordinary s)) (hm : k.args.method ∈ ["ordinary", "universal"])
    (x : Points) (hd : x.d = 2) {kw : PredictKw} (h2 : kw.spec2 = none) (h3 : kw.spec3 = none) :
    k.predict env x kw = ExecResult.z <$> s.execute env
      { style := kw.style.getD "points", xpoints := column x (⟨0, by omega⟩), ypoints := column x ⟨1, by omega⟩
        mask := kw.mask2.getD none, backend := kw.backend.getD "loop", nClosest := k.args.nClosest } := by
  unfold Krige.predict
  rw [hk]
  unfold dimensionalityCheck
  simp only [if_pos hm, dif_pos hd, py_ok_bind]
  unfold Krige.executeOn KModel.execute
  simp only [h2, h3]
  rfl

/-- Universal kriging: the same, and `n_closest_points` of the settings is not used. -/
theorem C35_predict_universal {s : UK n} (hk : k.model = some (.universal s)) (hm : k.args.method ∈ ["ordinary", "universal"])
    (x : Points) (hd : x.d = 2) {kw : PredictKw} (h2 : kw.nClosest = none) :
    k.predict env x kw = ExecResult.z <$> s.execute
      { toExec := { style := kw.style.getD "points", xpoints := column x (⟨0, by omega⟩), ypoints := column x ⟨1, by omega⟩
                    mask := kw.mask2.getD none, backend := kw.backend.getD "loop" }
        spec := kw.spec2.getD .none } := by
  unfold Krige.predict
  rw [hk]
  unfold dimensionalityCheck
  simp only [if_pos hm, dif_pos hd, py_ok_bind]
  unfold Krige.executeOn KModel.execute
  simp only [h2]
  rfl

theorem C35_predict_ordinary3d {s : OK3D n} (hk : k.model = some (.ordinary3d s))
    (hm : k.args.method ∈ ["ordinary3d", "universal3d"]) (x : Points) (hd : x.d = 3) {kw : PredictKw} (h2 : kw.spec2 = none)
    (h3 : kw.spec3 = none) :
    k.predict env x kw = ExecResult.z <$> s.execute env
      { style := kw.style.getD "points", xpoints := column x (⟨0, by omega⟩), ypoints := column x ⟨1, by omega⟩
        zpoints := column x ⟨2, by omega⟩
        mask := kw.mask3.getD none, backend := kw.backend.getD "loop", nClosest := k.args.nClosest } := by
  have h2d : k.args.method ∉ ["ordinary", "universal"] := by
    rcases List.mem_cons.1 hm with h | h
    · rw [h]; decide
    · rw [List.mem_singleton.1 h]; decide
  unfold Krige.predict
  rw [hk]
  unfold dimensionalityCheck
  simp only [if_neg h2d, if_pos hm, dif_pos hd, py_ok_bind]
  unfold Krige.executeOn KModel.execute
  simp only [h2, h3]
  rfl

theorem C35_predict_universal3d {s : UK3D n} (hk : k.model = some (.universal3d s))
    (hm : k.args.method ∈ ["ordinary3d", "universal3d"]) (x : Points) (hd : x.d = 3) {kw : PredictKw} (h2 : kw.nClosest = none) :
    k.predict env x kw = ExecResult.z <$> s.execute
      { toExec := { style := kw.style.getD "points", xpoints := column x (⟨0, by omega⟩), ypoints := column x ⟨1, by omega⟩
                    zpoints := column x ⟨2, by omega⟩
                    mask := kw.mask3.getD none, backend := kw.backend.getD "loop" }
        spec := kw.spec3.getD .none } := by
  have h2d : k.args.method ∉ ["ordinary", "universal"] := by
    rcases List.mem_cons.1 hm with h | h
    · rw [h]; decide
    · rw [List.mem_singleton.1 h]; decide
  unfold Krige.predict
  rw [hk]
  unfold dimensionalityCheck
  simp only [if_neg h2d, if_pos hm, dif_pos hd, py_ok_bind]
  unfold Krige.executeOn KModel.execute
  simp only [h2]
  rfl

/-! ### Refusals -/

/-- Construction refuses any other method. -/
theorem C35_method (a : KrigeArgs) (h : a.method ∉ ["ordinary", "universal", "ordinary3d", "universal3d"]) :
    Krige.init a = .error .valueError := if_pos h

/-- Points of the wrong dimension: `fit` raises a `ValueError` and leaves the object as it was. -/
theorem C35_fit_dimension {s₀ s₁ a₀ a₁ a₂ : ℝ} {ss as : List ℝ} (hs : k.args.anisotropyScaling = s₀ :: s₁ :: ss)
    (ha : k.args.anisotropyAngle = a₀ :: a₁ :: a₂ :: as) (x : Fin n → Fin d → ℝ) (y : Fin n → ℝ)
    (h : k.args.method ∈ ["ordinary", "universal"] ∧ d ≠ 2 ∨ k.args.method ∈ ["ordinary3d", "universal3d"] ∧ d ≠ 3) :
    k.fit env x y = (.error .valueError, k) := by
  have key : ∀ m, (m ∈ ["ordinary", "universal"] ∧ d ≠ 2 ∨ m ∈ ["ordinary3d", "universal3d"] ∧ d ≠ 3) →
      dimensionalityCheck m x = .error .valueError := by
    rintro m (⟨h1, h2⟩ | ⟨h1, h2⟩)
    · unfold dimensionalityCheck
      rw [if_pos h1, dif_neg h2]
    · unfold dimensionalityCheck
      have h2d : m ∉ ["ordinary", "universal"] := by
        rcases List.mem_cons.1 h1 with h | h
        · rw [h]; decide
        · rw [List.mem_singleton.1 h]; decide
      rw [if_neg h2d, if_pos h1, dif_neg h2]
  have hk := key _ h
  have hm : k.args.method = "ordinary" ∨ k.args.method = "universal" ∨ k.args.method = "ordinary3d" ∨
      k.args.method = "universal3d" := by
    rcases h with ⟨h, -⟩ | ⟨h, -⟩ <;> simp at h <;> tauto
  unfold Krige.fit
  dsimp only
  rw [hk]
  unfold Krige.addSetup
  rw [hs, ha]
  rcases hm with hm | hm | hm | hm <;> rw [hm] <;> rfl

/-- The same for `predict`. -/
theorem C35_predict_dimension {m : KModel} (hk : k.model = some m) (x : Points) (kw : PredictKw)
    (h : k.args.method ∈ ["ordinary", "universal"] ∧ x.d ≠ 2 ∨ k.args.method ∈ ["ordinary3d", "universal3d"] ∧ x.d ≠ 3) :
    k.predict env x kw = .error .valueError := by
  unfold Krige.predict dimensionalityCheck
  rw [hk]
  rcases h with ⟨h1, h2⟩ | ⟨h1, h2⟩
  · simp only [if_pos h1, dif_neg h2]
    rfl
  · have h2d : k.args.method ∉ ["ordinary", "universal"] := by
      rcases List.mem_cons.1 h1 with h | h
      · rw [h]; decide
      · rw [List.mem_singleton.1 h]; decide
    simp only [if_neg h2d, if_pos h1, dif_neg h2]
    rfl

theorem fit_addSetup {e : PyErr} (h : Krige.addSetup k.args n = .error e) (x : Fin n → Fin d → ℝ) (y : Fin n → ℝ) :
    k.fit env x y = (.error e, k) := by
  unfold Krige.fit
  dsimp only
  rw [h]
  rfl

/-- A single scaling, which the documentation asks for in two dimensions, is refused by `fit` for every method. -/
theorem C35_single_scaling_refused {s₀ : ℝ} (hs : k.args.anisotropyScaling = [s₀]) (x : Fin n → Fin d → ℝ) (y : Fin n → ℝ) :
    ∃ e, k.fit env x y = (.error e, k) := by
  suffices h : ∃ e, Krige.addSetup k.args n = .error e from h.imp fun e h => fit_addSetup h x y
  unfold Krige.addSetup
  rw [hs]
  cases h : pyGet k.args.anisotropyAngle 0 with
  | error e => exact ⟨e, rfl⟩
  | ok v => exact ⟨_, rfl⟩

/-- A single angle likewise. -/
theorem C35_single_angle_refused {a₀ : ℝ} (hs : k.args.anisotropyAngle = [a₀]) (x : Fin n → Fin d → ℝ) (y : Fin n → ℝ) :
    ∃ e, k.fit env x y = (.error e, k) := by
  suffices h : ∃ e, Krige.addSetup k.args n = .error e from h.imp fun e h => fit_addSetup h x y
  unfold Krige.addSetup
  rw [hs]
  cases h : pyGet k.args.anisotropyScaling 0 with
  | error e => exact ⟨e, rfl⟩
  | ok v =>
    cases h' : pyGet k.args.anisotropyScaling 1 with
    | error e => exact ⟨e, rfl⟩
    | ok w => exact ⟨_, rfl⟩

/-- Drift arrays for ordinary kriging and a window for universal kriging are refused: those classes have no such
argument. -/
theorem C35_predict_keyword {m : KModel} (hk : k.model = some m) (x : Points) (kw : PredictKw)
    (hd : k.args.method ∈ ["ordinary", "universal"] ∧ x.d = 2 ∨ k.args.method ∈ ["ordinary3d", "universal3d"] ∧ x.d = 3)
    (h : match m with
      | .ordinary _ | .ordinary3d _ => kw.spec2 ≠ none ∨ kw.spec3 ≠ none
      | .universal _ | .universal3d _ => kw.nClosest ≠ none) :
    k.predict env x kw = .error .typeError := by
  have key : ∀ c : Columns x.n, dimensionalityCheck k.args.method x.val = .ok (some c) →
      k.predict env x kw = .error .typeError := by
    intro c hc
    unfold Krige.predict
    rw [hk]
    dsimp only
    rw [hc, py_ok_bind]
    dsimp only
    unfold Krige.executeOn KModel.execute
    cases m with
    | ordinary s =>
      dsimp only at h ⊢
      rw [if_pos]
      · rfl
      · rcases h with h | h
        · exact .inr (.inl (Option.isSome_iff_ne_none.2 h))
        · exact .inr (.inr (Option.isSome_iff_ne_none.2 h))
    | universal s =>
      dsimp only at h ⊢
      rw [if_pos (.inr (Option.isSome_iff_ne_none.2 h))]
      rfl
    | ordinary3d s =>
      dsimp only at h ⊢
      cases c.z with
      | none => rfl
      | some z =>
        dsimp only [Option.map]
        rw [if_pos]
        · rfl
        · rcases h with h | h
          · exact .inl (Option.isSome_iff_ne_none.2 h)
          · exact .inr (Option.isSome_iff_ne_none.2 h)
    | universal3d s =>
      dsimp only at h ⊢
      cases c.z with
      | none => rfl
      | some z =>
        dsimp only [Option.map]
        rw [if_pos (Option.isSome_iff_ne_none.2 h)]
        rfl
  rcases hd with ⟨h1, h2⟩ | ⟨h1, h2⟩
  · exact key _ (by unfold dimensionalityCheck; rw [if_pos h1, dif_pos h2])
  · have h2d : k.args.method ∉ ["ordinary", "universal"] := by
      rcases List.mem_cons.1 h1 with h | h
      · rw [h]; decide
      · rw [List.mem_singleton.1 h]; decide
    exact key _ (by unfold dimensionalityCheck; rw [if_neg h2d, if_pos h1, dif_pos h2])

/-! ### Histories -/

/-- A fit that raises leaves the object, its earlier model included, as it was. -/
theorem C35_failed_fit_keeps {x : Fin n → Fin d → ℝ} {y : Fin n → ℝ} {e : PyErr} {k' : Krige}
    (h : k.fit env x y = (.error e, k')) : k' = k := by
  unfold Krige.fit at h
  dsimp only at h
  split at h
  · cases (Prod.ext_iff.1 h).1
  · exact (Prod.ext_iff.1 h).2.symm

/-- Whether the fits of a history all raised. -/
def Spec.NeverFitted : List KCall → List KOutcome → Prop
  | .fit _ _ :: cs, .fit r :: os => (∃ e, r = .error e) ∧ NeverFitted cs os
  | .predict _ _ :: cs, _ :: os => NeverFitted cs os
  | .setParams _ :: cs, _ :: os => NeverFitted cs os
  | [], _ => True
  | _, _ => False

/-- On a new object, after any calls none of which is a successful fit, `predict` raises. -/
theorem C35_untrained {a : KrigeArgs} {k₀ : Krige} (h : Krige.init a = .ok k₀) (l : List KCall)
    (hl : NeverFitted l (Krige.run env k₀ l).1) (x : Points) (kw : PredictKw) :
    (Krige.run env k₀ l).2.predict env x kw = .error .notFitted := by
  have h0 : k₀.model = none := by
    unfold Krige.init at h
    split at h
    · cases h
    · cases h; rfl
  clear h
  have key : ∀ (l : List KCall) (k : Krige), k.model = none → NeverFitted l (Krige.run env k l).1 →
      (Krige.run env k l).2.model = none := by
    intro l
    induction l with
    | nil => intro k hk _; exact hk
    | cons c l ih =>
      intro k hk hn
      cases c with
      | fit x y =>
        obtain ⟨⟨e, he⟩, hn⟩ := hn
        have hkeep : (k.fit env x y).2 = k := C35_failed_fit_keeps (e := e) (k' := (k.fit env x y).2) (Prod.ext he rfl)
        exact ih _ (by change (k.fit env x y).2.model = none; rw [hkeep]; exact hk) hn
      | predict x kw => exact ih _ hk hn
      | setParams a => exact ih _ hk hn
  unfold Krige.predict
  rw [key l k₀ h0 hl]

/-- After a successful fit nothing remembers the calls before it: whatever the history, later calls return what they
return on a newly constructed object with the same settings that made only this fit. -/
theorem C35_refit_forgets (before : List KCall) {x : Fin n → Fin d → ℝ} {y : Fin n → ℝ} (after : List KCall)
    (h : ((Krige.run env k before).2.fit env x y).1 = .ok ()) :
    let now := (Krige.run env k before).2
    (Krige.run env (now.fit env x y).2 after).1 =
      (Krige.run env (Krige.fit env { args := now.args, model := none } x y).2 after).1 := by
  dsimp only
  have e : ((Krige.run env k before).2.fit env x y).2 =
      (Krige.fit env { args := (Krige.run env k before).2.args, model := none } x y).2 := by
    generalize (Krige.run env k before).2 = k' at h
    unfold Krige.fit at h ⊢
    dsimp only at h ⊢
    split at h
    · rfl
    · cases h
  rw [e]

/-- `predict` changes nothing: leaving predictions out of a history changes no other outcome. -/
theorem C35_predict_pure (l₁ l₂ : List KCall) (x : Points) (kw : PredictKw) :
    (Krige.run env k (l₁ ++ .predict x kw :: l₂)).2 = (Krige.run env k (l₁ ++ l₂)).2 ∧
    (Krige.run env k (l₁ ++ .predict x kw :: l₂)).1.eraseIdx l₁.length = (Krige.run env k (l₁ ++ l₂)).1 := by
  induction l₁ generalizing k with
  | nil => exact ⟨rfl, rfl⟩
  | cons c l₁ ih =>
    refine ⟨ih.1, ?_⟩
    simp only [List.cons_append, Krige.run, List.length_cons, List.eraseIdx_cons_succ]
    exact congrArg _ ih.2

/-! ### Windows -/

/-- With the default settings, a model of fewer than ten points predicts nothing. -/
theorem C35_default_needs_ten {s : OK n} (he : KnnSpec env) (hk : k.model = some (.ordinary s))
    (hm : k.args.method ∈ ["ordinary", "universal"]) {w : ℤ} (hw : k.args.nClosest = some w) (hn : (n : ℤ) < w)
    (x : Points) (hd : x.d = 2) (hx : 0 < x.n) : ∃ e, k.predict env x {} = .error e := by
  rw [C35_predict_ordinary hk hm x hd rfl rfl]
  set ea : ExecArgs := { style := "points", xpoints := column x ⟨0, by omega⟩, ypoints := column x ⟨1, by omega⟩
                         backend := "loop", nClosest := k.args.nClosest } with hea
  change ∃ e, ExecResult.z <$> s.execute env ea = .error e
  obtain ⟨p, hp⟩ : ∃ p, queryAt ea 0 = some p := by
    unfold queryAt
    simp [hea, column, hx]
  by_cases hg : s.coordinatesType = "geographic"
  · obtain ⟨e, h⟩ := C42_geographic_partial env s hg (by exact hw) hn hp
    exact ⟨e, by rw [h]; rfl⟩
  · obtain ⟨e, h⟩ := C42_loop_2d_partial he s hg (by exact hw) hn (.inl rfl) hp (by simp [maskedAt, hea])
    exact ⟨e, by rw [h]; rfl⟩

end

/-! ### A concrete wrapper -/

namespace Demo

def kargs (method : String) (w : Option ℤ) : KrigeArgs :=
  { method := method, params := .list [1, 0], nClosest := w, driftTerms := ["functional"]
    functionalDrift2 := .list [fun x _ => x], functionalDrift3 := .list [fun x _ _ => x] }

def XY (i : Fin 2) : Fin 2 → ℝ := ![X i, O i]
def XYZ (i : Fin 2) : Fin 3 → ℝ := ![X i, O i, O i]

/-- Each method fits. -/
theorem fits (z : Fin 2 → ℝ) (w : Option ℤ) (model : Option KModel) :
    (∃ s, OK.create stdEnv X O z (args 0 true false) = .ok s ∧
      Krige.fit stdEnv ⟨kargs "ordinary" w, model⟩ XY z = (.ok (), ⟨kargs "ordinary" w, some (.ordinary s)⟩)) ∧
    (∃ s, UK.create stdEnv X O z (uargs 0 true false) = .ok s ∧
      Krige.fit stdEnv ⟨kargs "universal" w, model⟩ XY z = (.ok (), ⟨kargs "universal" w, some (.universal s)⟩)) ∧
    (∃ s, OK3D.create stdEnv X O O z (args3 0 true false) = .ok s ∧
      Krige.fit stdEnv ⟨kargs "ordinary3d" w, model⟩ XYZ z = (.ok (), ⟨kargs "ordinary3d" w, some (.ordinary3d s)⟩)) ∧
    (∃ s, UK3D.create stdEnv X O O z (uargs3 0 true false) = .ok s ∧
      Krige.fit stdEnv ⟨kargs "universal3d" w, model⟩ XYZ z = (.ok (), ⟨kargs "universal3d" w, some (.universal3d s)⟩)) := by
  refine ⟨?_, ?_, ?_, ?_⟩
  · obtain ⟨s, h, -⟩ := Demo.ok z 0 true false
    refine ⟨s, h, ?_⟩
    rw [C35_fit_ordinary rfl rfl rfl]
    change fitted _ (OK.create stdEnv X O z (args 0 true false)) _ = _
    rw [h]; rfl
  · obtain ⟨s, h, -⟩ := Demo.uk z 0 true false
    refine ⟨s, h, ?_⟩
    rw [C35_fit_universal rfl rfl rfl]
    change fitted _ (UK.create stdEnv X O z (uargs 0 true false)) _ = _
    rw [h]; rfl
  · obtain ⟨s, h, -⟩ := Demo.ok3 z 0 true false
    refine ⟨s, h, ?_⟩
    rw [C35_fit_ordinary3d rfl rfl rfl]
    change fitted _ (OK3D.create stdEnv X O O z (args3 0 true false)) _ = _
    rw [h]; rfl
  · obtain ⟨s, h, -⟩ := Demo.uk3 z 0 true false
    refine ⟨s, h, ?_⟩
    rw [C35_fit_universal3d rfl rfl rfl]
    change fitted _ (UK3D.create stdEnv X O O z (uargs3 0 true false)) _ = _
    rw [h]; rfl

/-- Some points in the plane. -/
def plane (m : ℕ) (f : Fin m → ℝ × ℝ) : Points := { n := m, d := 2, val := fun i => ![(f i).1, (f i).2] }

/-- A fitted wrapper without a window predicts. -/
theorem plane_runs {z : Fin 2 → ℝ} {s : OK 2} (h : OK.create stdEnv X O z (args 0 true false) = .ok s) (m : ℕ)
    (f : Fin m → ℝ × ℝ) : ∃ v, Krige.predict stdEnv ⟨kargs "ordinary" none, some (.ordinary s)⟩ (plane m f) {} = .ok v := by
  have hp := C35_predict_ordinary (env := stdEnv) (k := ⟨kargs "ordinary" none, some (.ordinary s)⟩) rfl (by simp [kargs]) (plane m f) rfl
    (kw := {}) rfl rfl
  obtain ⟨-, r, hr⟩ := ok_run (le_refl 0) h (List.ofFn f) (b := "loop") (.inr (.inl rfl))
  refine ⟨r.z, ?_⟩
  rw [hp]
  have e : ({ style := ({} : PredictKw).style.getD "points", xpoints := column (plane m f) ⟨0, by norm_num [plane]⟩
              ypoints := column (plane m f) ⟨1, by norm_num [plane]⟩, mask := ({} : PredictKw).mask2.getD none
              backend := ({} : PredictKw).backend.getD "loop"
              nClosest := (Krige.mk (kargs "ordinary" none) (some (.ordinary s))).args.nClosest } : ExecArgs) =
      pts (List.ofFn f) "loop" := by
    simp [pts, column, plane, kargs, List.map_ofFn, Function.comp_def]
  rw [e, hr]
  rfl

example (z : Fin 2 → ℝ) (m : ℕ) (f : Fin m → ℝ × ℝ) : ∃ v,
    (Krige.fit stdEnv ⟨kargs "ordinary" none, none⟩ XY z).2.predict stdEnv (plane m f) {} = .ok v := by
  obtain ⟨⟨s, h, hf⟩, -⟩ := fits z none none
  rw [hf]
  exact plane_runs h m f

/-- With a window of ten, as by default, it does not. -/
example (z : Fin 2 → ℝ) (m : ℕ) (f : Fin (m + 1) → ℝ × ℝ) : ∃ e,
    (Krige.fit stdEnv ⟨kargs "ordinary" (some 10), none⟩ XY z).2.predict stdEnv (plane (m + 1) f) {} = .error e := by
  obtain ⟨⟨s, h, hf⟩, -⟩ := fits z (some 10) none
  rw [hf]
  exact C35_default_needs_ten stdEnv_knn rfl (by simp [kargs]) rfl (by norm_num) _ rfl (Nat.succ_pos m)

/-- A history without a successful fit: points in space for a method in the plane. -/
example (x : Points) (kw : PredictKw) (z : Fin 2 → ℝ) :
    (Krige.run stdEnv ⟨kargs "ordinary" none, none⟩ [.predict x kw, .fit XYZ z]).2.predict stdEnv x kw = .error .notFitted := by
  have hinit : Krige.init (kargs "ordinary" none) = .ok ⟨kargs "ordinary" none, none⟩ := if_neg (by simp [kargs])
  refine C35_untrained hinit _ ?_ x kw
  refine ⟨⟨.valueError, ?_⟩, trivial⟩
  change (Krige.fit stdEnv ⟨kargs "ordinary" none, none⟩ XYZ z).1 = .error .valueError
  rw [C35_fit_dimension rfl rfl XYZ z (.inl ⟨by simp [kargs], by norm_num⟩)]

/-- Fitting again after a fit to other data and other settings. -/
example (z z' : Fin 2 → ℝ) (after : List KCall) :
    let k₀ : Krige := ⟨kargs "universal3d" none, none⟩
    let before : List KCall := [.fit XYZ z', .setParams (kargs "ordinary" none)]
    (Krige.run stdEnv ((Krige.run stdEnv k₀ before).2.fit stdEnv XY z).2 after).1 =
      (Krige.run stdEnv (Krige.fit stdEnv ⟨kargs "ordinary" none, none⟩ XY z).2 after).1 := by
  dsimp only
  have h3 := (fits z' none none).2.2.2
  obtain ⟨s', -, hf'⟩ := h3
  have e : (Krige.run stdEnv ⟨kargs "universal3d" none, none⟩ [.fit XYZ z', .setParams (kargs "ordinary" none)]).2 =
      ⟨kargs "ordinary" none, some (.universal3d s')⟩ := by
    simp only [Krige.run, Krige.step, hf', Krige.setParams]
  have := C35_refit_forgets (env := stdEnv) (k := ⟨kargs "universal3d" none, none⟩)
    [.fit XYZ z', .setParams (kargs "ordinary" none)] (x := XY) (y := z) after
    (by rw [e]; obtain ⟨⟨s, -, hf⟩, -⟩ := fits z none (some (.universal3d s')); rw [hf])
  dsimp only at this
  rw [this, e]

end Demo

end
end PyKrige
