import Verif.Props.C19
import Verif.Props.C29

/-!
# C19, continued: the other constructors accept data a variogram can be fitted to

`OrdinaryKriging` computes the fit statistics only if asked to; the other three classes always do, which solves one
kriging system per datum.  With the pseudo-inverse these systems cannot fail, so the constructors accept exactly the data
`C19_refused_*` does not refuse.
-/

namespace PyKrige
noncomputable section
open Spec

/-- A fitted built-in model can be evaluated. -/
theorem fitted_evaluates {nm : String}
    (hb : nm ∈ ["linear", "power", "gaussian", "spherical", "exponential", "hole-effect"]) {fA : FunArg} {f : VFun}
    {fn : String} (hf : chooseFunction nm fA = .ok (f, fn)) {S L : ℝ} {ps : List ℝ} (h : WithinBounds nm S L ps) :
    ∃ γ, f ps = .ok γ := by
  simp only [List.mem_cons, List.not_mem_nil, or_false] at hb
  rcases hb with rfl | rfl | rfl | rfl | rfl | rfl <;> cases hf
  · obtain ⟨a, b, rfl, -⟩ := h
    exact ⟨_, rfl⟩
  all_goals
    obtain ⟨a, b, c, rfl, -⟩ := h
    exact ⟨_, rfl⟩

theorem determined_of_fit {env : Env} (hl : LsqSpec env) {n m : ℕ} {ct : String}
    (hct : ct = "euclidean" ∨ ct = "geographic" ∧ m = 2) {D : Fin n → Fin n → ℝ} {z : Fin n → ℝ} {nm : String}
    (hb : nm ∈ ["linear", "power", "gaussian", "spherical", "exponential", "hole-effect"]) {fA : FunArg} {f : VFun}
    {fn : String} (hf : chooseFunction nm fA = .ok (f, fn)) {nlags : ℕ} (hn : 0 < nlags) {weight stats pseudo : Bool}
    (hs : stats = false ∨ pseudo = true) (h : FitPossible D z nm weight nlags) :
    Determined env m ct D z nm none f nlags weight stats pseudo := by
  intro X hX
  have hc : nm ≠ "custom" := by rintro rfl; revert hb; decide
  have hD : D = fun i j => pairDistance ct (X i) (X j) := by funext i j; exact (hX i j).symm
  rw [hD] at h
  obtain ⟨ev, ps, S, L, e, -, -, hw⟩ := (C19_fit env X z f weight hn hc hct).1 h
  refine ⟨ev, ps, e, fun hst => ?_⟩
  rcases hs with hs | hs
  · rw [hs] at hst; cases hst
  · obtain ⟨γ, hγ⟩ := fitted_evaluates hb hf (hw hl)
    exact findStatistics_ok hct hγ (fun i _ => .inl hs) z

theorem chooseFunction_fitted {nm : String}
    (hb : nm ∈ ["linear", "power", "gaussian", "spherical", "exponential", "hole-effect"]) (fA : FunArg) :
    ∃ f fn, chooseFunction nm fA = .ok (f, fn) := by
  simp only [List.mem_cons, List.not_mem_nil, or_false] at hb
  rcases hb with rfl | rfl | rfl | rfl | rfl | rfl <;> exact ⟨_, _, rfl⟩

theorem fitPossible_two {n : ℕ} {D : Fin n → Fin n → ℝ} {z : Fin n → ℝ} {nm : String} {weight : Bool} {nlags : ℕ}
    (h : FitPossible D z nm weight nlags) : 2 ≤ n := by
  obtain ⟨⟨i, j, hij, -⟩, -⟩ := h
  have := j.isLt
  have : i.val < j.val := hij
  omega

/-- `OrdinaryKriging` with fit statistics and the pseudo-inverse. -/
theorem C19_accepted_statistics_ok {n : ℕ} {env : Env} (hl : LsqSpec env) (x y z : Fin n → ℝ) (args : OKArgs)
    {nm : String} (hm : args.variogramModel = .name nm)
    (hb : nm ∈ ["linear", "power", "gaussian", "spherical", "exponential", "hole-effect"])
    (hp : args.params = .none) (hn : 0 < args.nlags) (hs : args.enableStatistics = false ∨ args.pseudoInv = true)
    (hpt : args.pseudoInvType ∈ ["pinv", "pinvh"]) {b : Bool} (hex : args.exactValues = .bool b)
    (hct : args.coordinatesType = "euclidean" ∨ args.coordinatesType = "geographic")
    (hf : FitPossible (fun i j => okDistance args (x i, y i) (x j, y j)) z nm args.weight args.nlags) :
    ∃ s, OK.create env x y z args = .ok s := by
  obtain ⟨f, fn, hcf⟩ := chooseFunction_fitted hb args.variogramFunction
  obtain ⟨s, h, -⟩ := OK.create_of (args := args) (vp := none) (fitPossible_two hf) hpt hex (by rw [hm]; rfl) hcf hct
    (by rw [hp]; rfl) (determined_of_fit hl (hct.imp id fun h => ⟨h, rfl⟩) hb hcf hn hs hf)
  exact ⟨s, h⟩

/-- `OrdinaryKriging3D` with the pseudo-inverse. -/
theorem C19_accepted_ok3 {n : ℕ} {env : Env} (hl : LsqSpec env) (x y z v : Fin n → ℝ) (args : OK3DArgs)
    {nm : String} (hm : args.variogramModel = .name nm)
    (hb : nm ∈ ["linear", "power", "gaussian", "spherical", "exponential", "hole-effect"])
    (hp : args.params = .none) (hn : 0 < args.nlags) (hs : args.pseudoInv = true)
    (hpt : args.pseudoInvType ∈ ["pinv", "pinvh"]) {b : Bool} (hex : args.exactValues = .bool b)
    (hf : FitPossible (fun i j => ok3Distance args (x i, y i, z i) (x j, y j, z j)) v nm args.weight args.nlags) :
    ∃ s, OK3D.create env x y z v args = .ok s := by
  obtain ⟨f, fn, hcf⟩ := chooseFunction_fitted hb args.variogramFunction
  obtain ⟨s, h, -⟩ := OK3D.create_of (args := args) (vp := none) (fitPossible_two hf) hpt hex (by rw [hm]; rfl) hcf
    (by rw [hp]; rfl) (determined_of_fit hl (.inl rfl) hb hcf hn (.inr hs) hf)
  exact ⟨s, h⟩

/-- `UniversalKriging` with the pseudo-inverse. -/
theorem C19_accepted_uk {n : ℕ} {env : Env} (hl : LsqSpec env) (x y z : Fin n → ℝ) (args : UKArgs)
    {nm : String} (hm : args.variogramModel = .name nm)
    (hb : nm ∈ ["linear", "power", "gaussian", "spherical", "exponential", "hole-effect"])
    (hp : args.params = .none) (hn : 0 < args.nlags) (hs : args.pseudoInv = true)
    (hpt : args.pseudoInvType ∈ ["pinv", "pinvh"]) {b : Bool} (hex : args.exactValues = .bool b)
    (hf : FitPossible (fun i j => ukDistance args (x i, y i) (x j, y j)) z nm args.weight args.nlags)
    (h1 : ∀ i, ExternalCovers args (x i, y i))
    (h2 : "point_log" ∈ args.driftTerms → args.pointDrift ≠ none ∧ args.pointDriftInt = false)
    (h3 : "specified" ∈ args.driftTerms → ∃ l, args.specifiedDrift = .list l ∧ l ≠ [] ∧ ∀ t ∈ l, t.length = n)
    (h4 : "functional" ∈ args.driftTerms → ∃ l, args.functionalDrift = .list l ∧ l ≠ []) :
    ∃ s, UK.create env x y z args = .ok s := by
  obtain ⟨f, fn, hcf⟩ := chooseFunction_fitted hb args.variogramFunction
  have h2n := fitPossible_two hf
  obtain ⟨s, h, -⟩ := UK.create_of (args := args) (vp := none) h2n hpt hex (by rw [hm]; rfl) hcf
    (by rw [hp]; rfl) (determined_of_fit hl (.inl rfl) hb hcf hn (.inr hs) hf) (setupExternalZ_ok (by omega) h1) h2
    (setupSpecifiedTerm_ok h3) (setupFunctionalTerm_ok h4)
  exact ⟨s, h⟩

/-- `UniversalKriging3D` with the pseudo-inverse. -/
theorem C19_accepted_uk3 {n : ℕ} {env : Env} (hl : LsqSpec env) (x y z v : Fin n → ℝ) (args : UK3DArgs)
    {nm : String} (hm : args.variogramModel = .name nm)
    (hb : nm ∈ ["linear", "power", "gaussian", "spherical", "exponential", "hole-effect"])
    (hp : args.params = .none) (hn : 0 < args.nlags) (hs : args.pseudoInv = true)
    (hpt : args.pseudoInvType ∈ ["pinv", "pinvh"]) {b : Bool} (hex : args.exactValues = .bool b)
    (hf : FitPossible (fun i j => uk3Distance args (x i, y i, z i) (x j, y j, z j)) v nm args.weight args.nlags)
    (h3 : "specified" ∈ args.driftTerms → ∃ l, args.specifiedDrift = .list l ∧ l ≠ [] ∧ ∀ t ∈ l, t.length = n)
    (h4 : "functional" ∈ args.driftTerms → ∃ l, args.functionalDrift = .list l ∧ l ≠ []) :
    ∃ s, UK3D.create env x y z v args = .ok s := by
  obtain ⟨f, fn, hcf⟩ := chooseFunction_fitted hb args.variogramFunction
  obtain ⟨s, h, -⟩ := UK3D.create_of (args := args) (vp := none) (fitPossible_two hf) hpt hex (by rw [hm]; rfl) hcf
    (by rw [hp]; rfl) (determined_of_fit hl (.inl rfl) hb hcf hn (.inr hs) hf)
    (setupSpecifiedTerm_ok h3) (setupFunctionalTerm_ok h4)
  exact ⟨s, h⟩

/-! Examples: three data on a line, automatic fit. -/

theorem Demo.fit3 {D : Fin 3 → Fin 3 → ℝ} (h1 : D 0 1 = 1) (h2 : D 1 2 = 2) (nm : String) (w : Bool) :
    FitPossible D ![1, 2, 4] nm w 6 :=
  ⟨⟨0, 1, by decide, by norm_num⟩, ⟨0, 1, by decide, by rw [h1]; norm_num⟩,
    fun _ => ⟨by norm_num, 0, 1, 1, 2, by decide, by decide, by rw [h1, h2]; norm_num⟩⟩

theorem Demo.line_dist {an : ℝ} (a b : ℝ) (h : a ≤ b) : anisoDist2 1 an (a, 0) (b, 0) = b - a := by
  have := Real.sin_sq_add_cos_sq (rad an)
  unfold anisoDist2
  dsimp only
  rw [show (Real.cos (rad an) * (a - b) + Real.sin (rad an) * (0 - 0)) ^ 2 +
    (1 * (-Real.sin (rad an) * (a - b) + Real.cos (rad an) * (0 - 0))) ^ 2 = (b - a) ^ 2 by
      linear_combination (a - b) ^ 2 * this]
  exact Real.sqrt_sq (by linarith)

theorem Demo.line_dist3 (a b : ℝ) (h : a ≤ b) : distance3 {} (a, 0, 0) (b, 0, 0) = b - a := by
  have : distance3 {} (a, 0, 0) (b, 0, 0) = Real.sqrt ((a - b) ^ 2) := by
    simp [distance3, rotX, rotY, rotZ, rad]
  rw [this, Real.sqrt_sq_eq_abs, abs_of_nonpos (by linarith)]
  ring

example : ∃ s, OK.create stdEnv ![0, 1, 3] ![0, 0, 0] ![1, 2, 4] { enableStatistics := true, pseudoInv := true } = .ok s :=
  C19_accepted_statistics_ok stdEnv_lsq _ _ _ _ rfl (by decide) rfl (by decide) (.inr rfl) (by decide) rfl (.inl rfl)
    (Demo.fit3 ((Demo.line_dist 0 1 (by norm_num)).trans (by norm_num)) ((Demo.line_dist 1 3 (by norm_num)).trans (by norm_num)) _ _)

example : ∃ s, OK3D.create stdEnv ![0, 1, 3] ![0, 0, 0] ![0, 0, 0] ![1, 2, 4] { pseudoInv := true } = .ok s ∧
    ∃ S L, IsGreatest {v | v ∈ s.lags.map Prod.snd} S ∧ IsGreatest {v | v ∈ s.lags.map Prod.fst} L ∧
      WithinBounds "linear" S L s.params := by
  obtain ⟨s, h⟩ := C19_accepted_ok3 stdEnv_lsq ![0, 1, 3] ![0, 0, 0] ![0, 0, 0] ![1, 2, 4] { pseudoInv := true } rfl (by decide) rfl
    (by decide) rfl (by decide) rfl (Demo.fit3 ((Demo.line_dist3 0 1 (by norm_num)).trans (by norm_num))
      ((Demo.line_dist3 1 3 (by norm_num)).trans (by norm_num)) _ _)
  exact ⟨s, h, (C19_bounds_ok3 h rfl (by decide) rfl (by decide) stdEnv_lsq).2⟩

example : ∃ s, UK.create stdEnv ![0, 1, 3] ![0, 0, 0] ![1, 2, 4] { pseudoInv := true, driftTerms := ["regional_linear"] } = .ok s ∧
    ∃ S L, IsGreatest {v | v ∈ s.lags.map Prod.snd} S ∧ IsGreatest {v | v ∈ s.lags.map Prod.fst} L ∧
      WithinBounds "linear" S L s.params := by
  obtain ⟨s, h⟩ := C19_accepted_uk stdEnv_lsq ![0, 1, 3] ![0, 0, 0] ![1, 2, 4]
    { pseudoInv := true, driftTerms := ["regional_linear"] } rfl (by decide) rfl
    (by decide) rfl (by decide) rfl (Demo.fit3 ((Demo.line_dist 0 1 (by norm_num)).trans (by norm_num))
      ((Demo.line_dist 1 3 (by norm_num)).trans (by norm_num)) _ _) (fun i hc => by simp at hc) (by decide) (by simp) (by simp)
  exact ⟨s, h, (C19_bounds_uk h rfl (by decide) rfl (by decide) stdEnv_lsq).2⟩

example : ∃ s, UK3D.create stdEnv ![0, 1, 3] ![0, 0, 0] ![0, 0, 0] ![1, 2, 4]
      { pseudoInv := true, driftTerms := ["regional_linear"] } = .ok s ∧
    ∃ S L, IsGreatest {v | v ∈ s.lags.map Prod.snd} S ∧ IsGreatest {v | v ∈ s.lags.map Prod.fst} L ∧
      WithinBounds "linear" S L s.params := by
  obtain ⟨s, h⟩ := C19_accepted_uk3 stdEnv_lsq ![0, 1, 3] ![0, 0, 0] ![0, 0, 0] ![1, 2, 4]
    { pseudoInv := true, driftTerms := ["regional_linear"] } rfl (by decide) rfl
    (by decide) rfl (by decide) rfl (Demo.fit3 ((Demo.line_dist3 0 1 (by norm_num)).trans (by norm_num))
      ((Demo.line_dist3 1 3 (by norm_num)).trans (by norm_num)) _ _) (by simp) (by simp)
  exact ⟨s, h, (C19_bounds_uk3 h rfl (by decide) rfl (by decide) stdEnv_lsq).2⟩

/-- Two data, or data all equally far apart, are refused by every class. -/
theorem Demo.nofit {D : Fin 2 → Fin 2 → ℝ} (z : Fin 2 → ℝ) : ¬ FitPossible D z "linear" false 6 := by
  rintro ⟨-, -, h⟩
  obtain ⟨-, i, j, k, l, hij, hkl, hD⟩ := h (.inl rfl)
  have : i = 0 ∧ j = 1 ∧ k = 0 ∧ l = 1 := by omega
  obtain ⟨rfl, rfl, rfl, rfl⟩ := this
  exact hD rfl

example (z : Fin 2 → ℝ) := C19_refused_ok stdEnv Demo.X Demo.O z {} rfl (by decide) rfl (by decide) (Demo.nofit z)
example (z : Fin 2 → ℝ) := C19_refused_ok3 stdEnv Demo.X Demo.O Demo.O z {} rfl (by decide) rfl (by decide) (Demo.nofit z)
example (z : Fin 2 → ℝ) := C19_refused_uk stdEnv Demo.X Demo.O z {} rfl (by decide) rfl (by decide) (Demo.nofit z)
example (z : Fin 2 → ℝ) := C19_refused_uk3 stdEnv Demo.X Demo.O Demo.O z {} rfl (by decide) rfl (by decide) (Demo.nofit z)
example := C19_constant_ok stdEnv ![0, 1, 3] ![0, 5, 0] ![7, 7, 7] {} rfl (by decide) rfl (by decide) (by
  intro i j; fin_cases i <;> fin_cases j <;> rfl)

end
end PyKrige
