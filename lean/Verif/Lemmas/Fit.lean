import Verif.Spec.Fit
import Verif.Lemmas.Py
import Verif.Lemmas.Amax

/-!
# The automatic fit finds a best fit
-/

namespace PyKrige
noncomputable section
open Spec

theorem residuals_eq {f : VFun} {ps : List ℝ} {γ : ℝ → ℝ} (hf : f ps = .ok γ) {ev : List (ℝ × ℝ)} (hne : ev ≠ []) (weight : Bool) :
    variogramResiduals ps (ev.map Prod.fst) (ev.map Prod.snd) f weight =
      .ok (ev.map fun e => (γ e.1 - e.2) * weightOf weight (ev.map Prod.fst) e.1) := by
  have hz : ∀ (w : ℝ → ℝ) (l : List (ℝ × ℝ)), List.zipWith (fun r wi => r * wi) (List.zipWith (fun xi yi => γ xi - yi) (l.map Prod.fst) (l.map Prod.snd))
      ((l.map Prod.fst).map w) = l.map fun e => (γ e.1 - e.2) * w e.1 := by
    intro w l
    induction l with
    | nil => rfl
    | cons e l ih => simp only [List.map_cons, List.zipWith_cons_cons, ih]
  have hz' : ∀ (l : List (ℝ × ℝ)), List.zipWith (fun xi yi => γ xi - yi) (l.map Prod.fst) (l.map Prod.snd) =
      l.map fun e => (γ e.1 - e.2) * 1 := by
    intro l
    induction l with
    | nil => rfl
    | cons e l ih => simp only [List.map_cons, List.zipWith_cons_cons, ih, mul_one]
  unfold variogramResiduals
  cases weight with
  | false =>
    rw [hf]
    simp only [Bool.false_eq_true, if_false, py_ok_bind, py_pure]
    rw [hz']
    rfl
  | true =>
    obtain ⟨a, b, h1, h2, h3, h4, -⟩ := extremes (l := ev.map Prod.fst) (by simpa using hne)
    have hw : lagWeights (ev.map Prod.fst) = .ok ((ev.map Prod.fst).map (weightOf true (ev.map Prod.fst))) := by
      unfold lagWeights weightOf
      rw [h1, h2, h3.csInf_eq, h4.csSup_eq]
      simp only [py_ok_bind, py_pure, if_true, List.map_map]
      congr 2
      funext t
      simp only [Function.comp]
      have : ∀ t, a + 0.7 * (b - a) - t = 0.7 * (b - a) + a - t := fun t => by ring
      simp only [this]
    rw [hf, hw]
    simp only [if_true, py_ok_bind, py_pure]
    rw [hz]

theorem residuals_ok {f : VFun} {ps x y r : List ℝ} {weight : Bool} (h : variogramResiduals ps x y f weight = .ok r) :
    ∃ γ, f ps = .ok γ := by
  unfold variogramResiduals at h
  split at h
  · simp only [py_pure, py_bind_eq_ok] at h
    obtain ⟨w, -, γ, hγ, -⟩ := h
    exact ⟨γ, hγ⟩
  · simp only [py_pure, py_bind_eq_ok] at h
    obtain ⟨γ, hγ, -⟩ := h
    exact ⟨γ, hγ⟩

theorem feasible_iff {lags sv : List ℝ} {model : String} {p : LsqProblem} (h : lsqProblem lags sv model = .ok p) {S L : ℝ}
    (hS : IsGreatest {v | v ∈ sv} S) (hL : IsGreatest {v | v ∈ lags} L) (ps : List ℝ) :
    Feasible p ps ↔ WithinBounds model S L ps := by
  obtain ⟨s, S', h1, h2, -, hS', -⟩ := extremes (List.ne_nil_of_mem hS.1)
  obtain ⟨l, L', h3, h4, -, hL', -⟩ := extremes (List.ne_nil_of_mem hL.1)
  cases hS.unique hS'
  cases hL.unique hL'
  unfold Feasible WithinBounds
  by_cases hm : model = "linear"
  · subst hm
    rw [lsqProblem_linear h1 h2 h3 h4] at h
    cases h
    rw [if_pos rfl]
    constructor
    · rintro ⟨hl, hb⟩
      obtain ⟨a, b, rfl⟩ := List.length_eq_two.1 hl
      refine ⟨a, b, rfl, ?_⟩
      simpa [and_assoc] using hb
    · rintro ⟨a, b, rfl, hb⟩
      refine ⟨rfl, ?_⟩
      simpa [and_assoc] using hb
  by_cases hm' : model = "power"
  · subst hm'
    rw [lsqProblem_power h1 h2 h3 h4] at h
    cases h
    rw [if_neg hm, if_pos rfl]
    constructor
    · rintro ⟨hl, hb⟩
      obtain ⟨a, b, c, rfl⟩ := List.length_eq_three.1 hl
      refine ⟨a, b, c, rfl, ?_⟩
      simpa [and_assoc] using hb
    · rintro ⟨a, b, c, rfl, hb⟩
      refine ⟨rfl, ?_⟩
      simpa [and_assoc] using hb
  · rw [lsqProblem_other hm hm' h1 h2 h4] at h
    cases h
    rw [if_neg hm, if_neg hm']
    constructor
    · rintro ⟨hl, hb⟩
      obtain ⟨a, b, c, rfl⟩ := List.length_eq_three.1 hl
      refine ⟨a, b, c, rfl, ?_⟩
      simpa [and_assoc, -WithTop.coe_mul] using hb
    · rintro ⟨a, b, c, rfl, hb⟩
      refine ⟨rfl, ?_⟩
      simpa [and_assoc, -WithTop.coe_mul] using hb

/-- If there is a best fit, the automatic fit is one. -/
theorem fit_best {env : Env} (ho : LsqOptimal env) {ev : List (ℝ × ℝ)} {model : String} {f : VFun} {weight : Bool} {ps : List ℝ}
    (hf : variogramDict model = some f) (hne : ev ≠ [])
    (h : calculateVariogramModel env (ev.map Prod.fst) (ev.map Prod.snd) model f weight = .ok ps)
    (hex : ∃ ps₀, BestFit model weight ev ps₀) : BestFit model weight ev ps := by
  unfold calculateVariogramModel at h
  simp only [py_pure, py_bind_eq_ok] at h
  obtain ⟨p, hp, ⟨⟩, hc, ⟨⟩, -, h⟩ := h
  cases h
  obtain ⟨ps₀, S, L, hS, hL, hw, γ, ⟨f', hf', hγ⟩, hb⟩ := hex
  cases hf.symm.trans hf'
  have hb' := ho (fun params => variogramResiduals params (ev.map Prod.fst) (ev.map Prod.snd) f weight) p hc
    ⟨ps₀, (feasible_iff hp hS hL ps₀).2 hw, _, residuals_eq hγ hne weight, fun ps' hps' r' hr' => by
      have hps' := (feasible_iff hp hS hL ps').1 hps'
      have hr' : variogramResiduals ps' (ev.map Prod.fst) (ev.map Prod.snd) f weight = .ok r' := hr'
      obtain ⟨γ', hfe⟩ := residuals_ok hr'
      rw [residuals_eq hfe hne weight] at hr'
      cases hr'
      exact hb ps' γ' hps' ⟨f, hf, hfe⟩⟩
  obtain ⟨h1, r, hr, h2⟩ := hb'
  refine ⟨S, L, hS, hL, (feasible_iff hp hS hL _).1 h1, ?_⟩
  generalize env.lsq _ p = ps at hr h1
  have hr : variogramResiduals ps (ev.map Prod.fst) (ev.map Prod.snd) f weight = .ok r := hr
  obtain ⟨γ', hfe⟩ := residuals_ok hr
  refine ⟨γ', ⟨f, hf, hfe⟩, fun ps' γ'' hw' hb'' => ?_⟩
  rw [residuals_eq hfe hne weight] at hr
  cases hr
  obtain ⟨f', hf', hγ''⟩ := hb''
  cases hf.symm.trans hf'
  exact h2 ps' ((feasible_iff hp hS hL _).2 hw') _ (residuals_eq hγ'' hne weight)

end
end PyKrige
