import Verif.Lemmas.SameZ
import Verif.Lemmas.MetricCongr

/-! The same constructor arguments, variogram parameters given, on other data: the same variogram. -/

namespace PyKrige
noncomputable section
open Spec

theorem initialize_given {n m : ℕ} {env : Env} {X : Fin n → Fin m → ℝ} {y : Fin n → ℝ}
    {model : String} {vp : Option (List ℝ)} {f : VFun} {nlags : ℕ} {weight : Bool} {ct : String}
    {lags : List (ℝ × ℝ)} {ps : List ℝ}
    (h : initializeVariogramModel env X y model vp f nlags weight ct = .ok (lags, ps))
    (hv : ∃ p, vp = some p) : vp = some ps ∧ experimentalVariogram X y nlags ct = .ok lags ∧
      ∀ {n' : ℕ} (X' : Fin n' → Fin m → ℝ) (y' : Fin n' → ℝ) (ev : List (ℝ × ℝ)),
        experimentalVariogram X' y' nlags ct = .ok ev →
        initializeVariogramModel env X' y' model vp f nlags weight ct = .ok (ev, ps) := by
  obtain ⟨p, rfl⟩ := hv
  unfold initializeVariogramModel at h ⊢
  obtain ⟨ev, h1, h⟩ := py_bind_eq_ok.1 h
  dsimp only at h ⊢
  split at h
  · simp at h
  · split at h
    · simp at h
    · next h2 h3 =>
      simp only [py_pure, Except.ok.injEq, Prod.mk.injEq] at h
      obtain ⟨rfl, rfl⟩ := h
      refine ⟨rfl, h1, fun X' y' ev' he => ?_⟩
      rw [he, py_ok_bind, if_neg h2, if_neg h3]
      rfl

theorem pdistPairs_ne_nil {n : ℕ} (hn : 2 ≤ n) : pdistPairs n ≠ [] := by
  intro h
  have : ((⟨0, by omega⟩, ⟨1, by omega⟩) : Fin n × Fin n) ∈ pdistPairs n := by
    simp [pdistPairs]
  rw [h] at this
  simp at this

theorem lowerPairs_ne_nil {n : ℕ} (hn : 2 ≤ n) : lowerPairs n ≠ [] := by
  intro h
  have : ((⟨1, by omega⟩, ⟨0, by omega⟩) : Fin n × Fin n) ∈ lowerPairs n := by
    simp [lowerPairs]
  rw [h] at this
  simp at this

theorem amax_ok {l : List ℝ} (h : l ≠ []) : ∃ v, amax l = .ok v := by
  cases l with
  | nil => exact absurd rfl h
  | cons a l => exact ⟨_, rfl⟩

theorem amin_ok {l : List ℝ} (h : l ≠ []) : ∃ v, amin l = .ok v := by
  cases l with
  | nil => exact absurd rfl h
  | cons a l => exact ⟨_, rfl⟩

/-- The experimental variogram of at least two data exists. -/
theorem experimentalVariogram_exists {n m : ℕ} (hn : 2 ≤ n) (X : Fin n → Fin m → ℝ) (y : Fin n → ℝ) (nlags : ℕ)
    {ct : String} (hct : ct = "euclidean" ∨ (ct = "geographic" ∧ m = 2)) :
    ∃ ev, experimentalVariogram X y nlags ct = .ok ev := by
  have : ∃ dg, pairDistances X y ct = .ok dg ∧ dg ≠ [] := by
    unfold pairDistances
    rcases hct with rfl | ⟨rfl, hm⟩
    · simp [pdistPairs_ne_nil hn]
    · simp [hm, lowerPairs_ne_nil hn]
  obtain ⟨dg, h1, h2⟩ := this
  obtain ⟨a, ha⟩ := amax_ok (l := dg.map Prod.fst) (by simpa using h2)
  obtain ⟨b, hb⟩ := amin_ok (l := dg.map Prod.fst) (by simpa using h2)
  exact ⟨_, by simp only [experimentalVariogram, h1, ha, hb, py_ok_bind]; rfl⟩

theorem experimentalVariogram_two_le {n m : ℕ} {X : Fin n → Fin m → ℝ} {y : Fin n → ℝ} {nlags : ℕ}
    {ct : String} {ev : List (ℝ × ℝ)} (h : experimentalVariogram X y nlags ct = .ok ev) : 2 ≤ n := by
  by_contra hn
  have hp : pdistPairs n = [] ∧ lowerPairs n = [] := by
    have : n = 0 ∨ n = 1 := by omega
    rcases this with rfl | rfl <;> decide
  have : ∀ dg, pairDistances X y ct = .ok dg → dg = [] := by
    intro dg hdg
    unfold pairDistances at hdg
    simp only [hp.1, hp.2, List.map_nil] at hdg
    split_ifs at hdg <;> exact (Except.ok.inj hdg).symm
  unfold experimentalVariogram at h
  obtain ⟨dg, h1, h⟩ := py_bind_eq_ok.1 h
  rw [this dg h1] at h
  simp [amax] at h

theorem initialize_two_le {n m : ℕ} {env : Env} {X : Fin n → Fin m → ℝ} {y : Fin n → ℝ}
    {model : String} {vp : Option (List ℝ)} {f : VFun} {nlags : ℕ} {weight : Bool} {ct : String}
    {res : List (ℝ × ℝ) × List ℝ}
    (h : initializeVariogramModel env X y model vp f nlags weight ct = .ok res) : 2 ≤ n := by
  unfold initializeVariogramModel at h
  obtain ⟨ev, h1, h⟩ := py_bind_eq_ok.1 h
  exact experimentalVariogram_two_le h1

theorem OK.create_two_le {n : ℕ} {env : Env} {x y z : Fin n → ℝ} {args : OKArgs} {s : OK n}
    (h : OK.create env x y z args = .ok s) : 2 ≤ n := by
  obtain ⟨hp, exact, name, model, fArg, pArg, sc₀, an₀, f, fname, xc, yc, sc, an, adj, vp, lags, ps, stats,
    h1, h2, h3, h4, h5, h6, h7, rfl⟩ := OK.create_ok h
  exact initialize_two_le h6

theorem OK3D.create_two_le {n : ℕ} {env : Env} {x y z v : Fin n → ℝ} {args : OK3DArgs} {s : OK3D n}
    (h : OK3D.create env x y z v args = .ok s) : 2 ≤ n := by
  obtain ⟨hp, exact, name, model, fArg, pArg, an, f, fname, xc, yc, zc, vp, lags, ps, stats,
    h1, h2, h3, h4, h5, h6, h7, h8, h9, rfl⟩ := OK3D.create_ok h
  exact initialize_two_le h8

theorem UK.create_two_le {n : ℕ} {env : Env} {x y z : Fin n → ℝ} {args : UKArgs} {s : UK n}
    (h : UK.create env x y z args = .ok s) : 2 ≤ n := by
  obtain ⟨hp, exact, name, model, fArg, pArg, sc, an, f, fname, xc, yc, vp, lags, ps, stats, ext, plog, spec,
    func, h1, h2, h3, h4, h5, h6, h7, h8, h9, h10, h11, h12, rfl⟩ := UK.create_ok h
  exact initialize_two_le h7

theorem UK3D.create_two_le {n : ℕ} {env : Env} {x y z v : Fin n → ℝ} {args : UK3DArgs} {s : UK3D n}
    (h : UK3D.create env x y z v args = .ok s) : 2 ≤ n := by
  obtain ⟨hp, exact, name, model, fArg, pArg, an, f, fname, xc, yc, zc, vp, lags, ps, stats, spec, func,
    h1, h2, h3, h4, h5, h6, h7, h8, h9, h10, h11, rfl⟩ := UK3D.create_ok h
  exact initialize_two_le h8

/-- What the object takes over from the arguments alone. -/
theorem OK.create_model {n n' : ℕ} {env : Env} {x y z : Fin n → ℝ} {x' y' z' : Fin n' → ℝ} {args : OKArgs}
    {s : OK n} {s' : OK n'} (h : OK.create env x y z args = .ok s) (h' : OK.create env x' y' z' args = .ok s')
    (hg : ParamsGiven args.variogramModel args.params) :
    s'.variogramFunction = s.variogramFunction ∧ s'.functionName = s.functionName ∧ s'.params = s.params ∧
    s'.paramsInt = s.paramsInt ∧ s'.exactValues = s.exactValues ∧ s'.pseudoInv = s.pseudoInv ∧
    s'.coordinatesType = s.coordinatesType ∧ s'.anisotropyScaling = s.anisotropyScaling ∧
    s'.anisotropyAngle = s.anisotropyAngle := by
  obtain ⟨hp, exact, name, model, fArg, pArg, sc₀, an₀, f, fname, xc, yc, sc, an, adj, vp, lags, ps, stats,
    h1, h2, h3, h4, h5, h6, h7, rfl⟩ := OK.create_ok h
  obtain ⟨hp', exact', name', model', fArg', pArg', sc₀', an₀', f', fname', xc', yc', sc', an', adj', vp', lags',
    ps', stats', h1', h2', h3', h4', h5', h6', h7', rfl⟩ := OK.create_ok h'
  rw [h2] at h2'
  simp only [Except.ok.injEq, Prod.mk.injEq] at h2'
  obtain ⟨rfl, rfl, rfl, rfl, rfl, rfl⟩ := h2'
  rw [h3] at h3'
  simp only [Except.ok.injEq, Prod.mk.injEq] at h3'
  obtain ⟨rfl, rfl⟩ := h3'
  rw [h5] at h5'
  cases h5'
  rw [h1] at h1'
  cases h1'
  have hv := makeVariogramParameterList_some h5 (OK.resolveModel_given h2 hg)
  have e1 := (initialize_given h6 hv).1
  have e2 := (initialize_given h6' hv).1
  rw [e1] at e2
  cases e2
  have e3 : sc' = sc ∧ an' = an := by
    unfold OK.setupCoordinates at h4 h4'
    split at h4
    · next he =>
      rw [if_pos he] at h4'
      obtain ⟨a, ha, h4⟩ := py_bind_eq_ok.1 h4
      obtain ⟨b, hb, h4⟩ := py_bind_eq_ok.1 h4
      obtain ⟨a', ha', h4'⟩ := py_bind_eq_ok.1 h4'
      obtain ⟨b', hb', h4'⟩ := py_bind_eq_ok.1 h4'
      simp only [py_pure, Except.ok.injEq, Prod.mk.injEq] at h4 h4'
      exact ⟨h4'.2.2.1.symm.trans h4.2.2.1, h4'.2.2.2.1.symm.trans h4.2.2.2.1⟩
    · next he =>
      rw [if_neg he] at h4'
      split at h4
      · next hg =>
        rw [if_pos hg] at h4'
        simp only [Except.ok.injEq, Prod.mk.injEq] at h4 h4'
        exact ⟨h4'.2.2.1.symm.trans h4.2.2.1, h4'.2.2.2.1.symm.trans h4.2.2.2.1⟩
      · simp at h4
  exact ⟨rfl, rfl, rfl, rfl, rfl, rfl, rfl, e3.1, e3.2⟩

/-- Without statistics the constructor succeeds on any other data set of at least two points. -/
theorem OK.create_exists {n n' : ℕ} {env : Env} {x y z : Fin n → ℝ} {args : OKArgs}
    {s : OK n} (h : OK.create env x y z args = .ok s)
    (hg : ParamsGiven args.variogramModel args.params) (hst : args.enableStatistics = false) (hn : 2 ≤ n')
    (x' y' z' : Fin n' → ℝ) : ∃ s', OK.create env x' y' z' args = .ok s' := by
  obtain ⟨hp, exact, name, model, fArg, pArg, sc₀, an₀, f, fname, xc, yc, sc, an, adj, vp, lags, ps, stats,
    h1, h2, h3, h4, h5, h6, h7, rfl⟩ := OK.create_ok h
  have hv := makeVariogramParameterList_some h5 (OK.resolveModel_given h2 hg)
  have hsc : ∃ r, OK.setupCoordinates x' y' args.coordinatesType sc₀ an₀ = .ok r := by
    unfold OK.setupCoordinates at h4 ⊢
    split at h4
    · next he =>
      obtain ⟨a, ha⟩ := midrange_exists (by omega) x'
      obtain ⟨b, hb⟩ := midrange_exists (by omega) y'
      rw [if_pos he, ha, hb]
      exact ⟨_, rfl⟩
    · next he =>
      rw [if_neg he]
      split at h4
      · next hg => rw [if_pos hg]; exact ⟨_, rfl⟩
      · simp at h4
  obtain ⟨⟨xc', yc', sc', an', adj'⟩, h4'⟩ := hsc
  have hct : args.coordinatesType = "euclidean" ∨ (args.coordinatesType = "geographic" ∧ 2 = 2) := by
    unfold OK.setupCoordinates at h4
    split at h4
    · exact .inl ‹_›
    · split at h4
      · exact .inr ⟨‹_›, rfl⟩
      · simp at h4
  obtain ⟨ev, hev⟩ := experimentalVariogram_exists hn adj' z' args.nlags hct
  have h6' := (initialize_given h6 hv).2.2 adj' z' ev hev
  unfold OK.create
  rw [if_neg (not_not.2 hp), h1]
  simp [h2, h3, h4', h5, h6', hst]

theorem OK3D.create_model {n n' : ℕ} {env : Env} {x y z v : Fin n → ℝ} {x' y' z' v' : Fin n' → ℝ}
    {args : OK3DArgs} {s : OK3D n} {s' : OK3D n'} (h : OK3D.create env x y z v args = .ok s)
    (h' : OK3D.create env x' y' z' v' args = .ok s')
    (hg : ParamsGiven args.variogramModel args.params) :
    s'.variogramFunction = s.variogramFunction ∧ s'.functionName = s.functionName ∧ s'.params = s.params ∧
    s'.exactValues = s.exactValues ∧ s'.pseudoInv = s.pseudoInv ∧ s'.aniso = s.aniso := by
  obtain ⟨hp, exact, name, model, fArg, pArg, an, f, fname, xc, yc, zc, vp, lags, ps, stats,
    h1, h2, h3, h4, h4a, h4b, h5, h6, h7, rfl⟩ := OK3D.create_ok h
  obtain ⟨hp', exact', name', model', fArg', pArg', an', f', fname', xc', yc', zc', vp', lags',
    ps', stats', h1', h2', h3', h4', h4a', h4b', h5', h6', h7', rfl⟩ := OK3D.create_ok h'
  rw [h2] at h2'
  simp only [Except.ok.injEq, Prod.mk.injEq] at h2'
  obtain ⟨rfl, rfl, rfl, rfl, rfl⟩ := h2'
  rw [h3] at h3'
  simp only [Except.ok.injEq, Prod.mk.injEq] at h3'
  obtain ⟨rfl, rfl⟩ := h3'
  rw [h5] at h5'
  cases h5'
  rw [h1] at h1'
  cases h1'
  have hv := makeVariogramParameterList_some h5 (OK3D.resolveModel_given h2 hg)
  have e1 := (initialize_given h6 hv).1
  have e2 := (initialize_given h6' hv).1
  rw [e1] at e2
  cases e2
  exact ⟨rfl, rfl, rfl, rfl, rfl, rfl⟩

end
end PyKrige
