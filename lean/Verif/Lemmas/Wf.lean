import Verif.Lemmas.OKExec
import Verif.Lemmas.Create
import Verif.Spec.Setting

/-! Objects produced by the constructor and the update method are well formed. -/

namespace PyKrige
noncomputable section
open Spec

theorem cGet_of_not_mem {nm : String} (h : nm ∉ cNames) :
    cGetVariogramModel nm = .error .notImplementedError := by
  simp only [cNames, List.mem_cons, List.not_mem_nil, or_false, not_or] at h
  simp [cGetVariogramModel, h]

/-- The compiled variogram chosen by name agrees with the Python function on every parameter list with
non-zero range. -/
def NameMatches (f : VFun) (fname : String) : Prop :=
  ∀ fc ps γ γc, cGetVariogramModel fname = .ok fc → RangeOk fname ps →
    f ps = .ok γ → fc ps = .ok γc → γc = γ

theorem spherical_agree {a b c : ℝ} (hb : b ≠ 0) (d : ℝ) :
    (if d < b then a * ((3 * d) / (2 * b) - (d ^ 3) / (2 * b ^ 3)) + c else a + c) =
      sphericalFormula a b c d := by
  unfold sphericalFormula
  rcases lt_trichotomy d b with h | h | h
  · rw [if_pos h, if_pos h.le]
  · subst h
    rw [if_neg (lt_irrefl d), if_pos le_rfl]
    field_simp
    ring
  · rw [if_neg h.not_gt, if_neg h.not_ge]

theorem gaussian_agree (a b c d : ℝ) :
    a * (1 - Real.exp (-(d / (b * 4 / 7)) ^ 2)) + c = gaussianFormula a b c d := by
  unfold gaussianFormula
  rw [div_pow, neg_div]

theorem nameMatches_builtin {name : String} {f : VFun} (h : variogramDict name = some f) :
    NameMatches f (variogramFunctionName name) := by
  intro fc ps γ γc hc hr hf hfc
  unfold variogramDict at h
  have e1 := String.decEq
  split_ifs at h with h1 h2 h3 h4 h5 h6 <;> cases h
  · subst h1
    simp [variogramFunctionName, cGetVariogramModel] at hc
    subst hc
    have : cLinear ps = linearVariogramModel ps := rfl
    rw [this, hf] at hfc
    exact (Except.ok.inj hfc).symm
  · subst h2
    simp [variogramFunctionName, cGetVariogramModel] at hc
    subst hc
    have : cPower ps = powerVariogramModel ps := rfl
    rw [this, hf] at hfc
    exact (Except.ok.inj hfc).symm
  · subst h3
    simp [variogramFunctionName, cGetVariogramModel] at hc
    subst hc
    simp only [gaussianVariogramModel, cGaussian, py_bind_eq_ok, py_pure, Except.ok.injEq,
      pyGet_eq_ok] at hf hfc
    obtain ⟨a, ha, b, hb, c, hc, rfl⟩ := hf
    obtain ⟨a', ha', b', hb', c', hc', rfl⟩ := hfc
    rw [ha] at ha'; rw [hb] at hb'; rw [hc] at hc'
    cases ha'; cases hb'; cases hc'
    funext d
    exact gaussian_agree _ _ _ _
  · subst h4
    simp [variogramFunctionName, cGetVariogramModel] at hc
    subst hc
    simp only [sphericalVariogramModel, cSpherical, py_bind_eq_ok, py_pure, Except.ok.injEq,
      pyGet_eq_ok] at hf hfc
    obtain ⟨a, ha, b, hb, c, hc, rfl⟩ := hf
    obtain ⟨a', ha', b', hb', c', hc', rfl⟩ := hfc
    rw [ha] at ha'; rw [hb] at hb'; rw [hc] at hc'
    cases ha'; cases hb'; cases hc'
    funext d
    exact spherical_agree (fun h0 => hr (by simp [variogramFunctionName]) (by rw [hb, h0])) d
  · subst h5
    simp [variogramFunctionName, cGetVariogramModel] at hc
    subst hc
    have : cExponential ps = exponentialVariogramModel ps := rfl
    rw [this, hf] at hfc
    exact (Except.ok.inj hfc).symm
  · subst h6
    simp [variogramFunctionName, cGetVariogramModel] at hc

theorem chooseFunction_matches {name : String} {fArg : FunArg} {f : VFun} {fname : String}
    (h : chooseFunction name fArg = .ok (f, fname)) (hn : fArg.NoClash) : NameMatches f fname := by
  unfold chooseFunction at h
  split at h
  · simp at h
  · split at h
    · split at h
      · simp only [Except.ok.injEq, Prod.mk.injEq] at h
        obtain ⟨rfl, rfl⟩ := h
        intro fc ps γ γc hc
        rw [cGet_of_not_mem hn] at hc
        simp at hc
      · simp at h
    · split at h
      · next hd =>
        simp only [Except.ok.injEq, Prod.mk.injEq] at h
        obtain ⟨rfl, rfl⟩ := h
        exact nameMatches_builtin hd
      · simp at h

theorem OK.cagree_of {n : ℕ} {s : OK n} (h : NameMatches s.variogramFunction s.functionName)
    (hr : RangeOk s.functionName s.params) : ∀ γ γc, s.variogramFunction s.params = .ok γ →
      s.cVariogram = .ok γc → ∀ d, 0 ≤ d → γc d = γ d := by
  intro γ γc hγ hc d _
  unfold OK.cVariogram at hc
  obtain ⟨fc, hfc, hc⟩ := py_bind_eq_ok.1 hc
  split at hc
  · simp at hc
  · rw [h fc s.params γ γc hfc hr hγ hc]

theorem OK.setupCoordinates_ctype {n : ℕ} {X Y : Fin n → ℝ} {ct : String} {sc an : ℝ} {r}
    (h : OK.setupCoordinates X Y ct sc an = .ok r) : ct = "euclidean" ∨ ct = "geographic" := by
  unfold OK.setupCoordinates at h
  split at h
  · exact .inl ‹_›
  · split at h
    · exact .inr ‹_›
    · simp at h

theorem OK.resolve_noClash {env : Env} {ct : String} {vm : ModelArg} {f : FunArg} {p : ParamArg}
    {sc an : ℝ} {name model fArg pArg sc' an'}
    (h : OK.resolveModel env ct vm f p sc an = .ok (name, model, fArg, pArg, sc', an'))
    (hf : f.NoClash) : fArg.NoClash := by
  unfold OK.resolveModel at h
  split at h
  · simp only [Except.ok.injEq, Prod.mk.injEq] at h
    obtain ⟨-, -, rfl, -⟩ := h
    exact hf
  · simp only [py_bind_eq_ok] at h
    obtain ⟨_, -, h⟩ := h
    split at h
    · simp at h
    · simp only [py_pure] at h
      split at h
      · simp at h
      · simp only [Except.ok.injEq, Prod.mk.injEq] at h
        obtain ⟨-, -, rfl, -⟩ := h
        simp [FunArg.NoClash, cNames]

/-- Objects that come out of the constructor are well formed (variogram range not 0, custom callable not
named like a built-in). -/
theorem OK.create_wf {n : ℕ} {env : Env} {x y z : Fin n → ℝ} {args : OKArgs} {s : OK n}
    (h : OK.create env x y z args = .ok s) (hf : args.variogramFunction.NoClash)
    (hr : RangeOk s.functionName s.params) : s.Wf := by
  obtain ⟨hp, _, name, _, fArg, pArg, _, _, f, fname, _, _, _, _, _, vp, _, ps, _, -, h1, h2, h2', h3,
    h4, -, rfl⟩ := OK.create_ok h
  refine ⟨hp, OK.setupCoordinates_ctype h2', ?_⟩
  refine OK.cagree_of ?_ hr
  exact chooseFunction_matches h2 (OK.resolve_noClash h1 hf)

end
end PyKrige
