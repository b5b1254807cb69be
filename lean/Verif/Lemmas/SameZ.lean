import Verif.Lemmas.Create
import Verif.Lemmas.Rows

/-! The same constructor arguments with other data values: everything but the values, the recorded experimental
variogram and the recorded statistics is the same. -/

namespace PyKrige
noncomputable section
open Spec

/-- Two value vectors for which the constructor uses the same variogram. -/
def SameFit {n : ℕ} (vm : ModelArg) (p : ParamArg) (z z' : Fin n → ℝ) : Prop :=
  ParamsGiven vm p ∨ ∀ i j, (z' i - z' j) ^ 2 = (z i - z j) ^ 2

theorem pairDistances_other {n m : ℕ} {X : Fin n → Fin m → ℝ} {y : Fin n → ℝ} {ct : String}
    {dg : List (ℝ × ℝ)} (h : pairDistances X y ct = .ok dg) (y' : Fin n → ℝ) :
    ∃ dg', pairDistances X y' ct = .ok dg' ∧ dg'.map Prod.fst = dg.map Prod.fst ∧
      ((∀ i j, (y' i - y' j) ^ 2 = (y i - y j) ^ 2) → dg' = dg) := by
  unfold pairDistances at h ⊢
  split at h
  · next he =>
    simp only [Except.ok.injEq] at h
    subst h
    refine ⟨_, by rw [if_pos he], by simp, fun hy => by simp [hy]⟩
  · next he =>
    split at h
    · next hg =>
      split at h
      · next hm =>
        simp only [Except.ok.injEq] at h
        subst h
        refine ⟨_, by rw [if_neg he, if_pos hg, dif_pos hm], by simp, fun hy => by simp [hy]⟩
      · simp at h
    · simp at h

theorem experimentalVariogram_other {n m : ℕ} {X : Fin n → Fin m → ℝ} {y : Fin n → ℝ} {nlags : ℕ}
    {ct : String} {ev : List (ℝ × ℝ)} (h : experimentalVariogram X y nlags ct = .ok ev) (y' : Fin n → ℝ) :
    ∃ ev', experimentalVariogram X y' nlags ct = .ok ev' ∧
      ((∀ i j, (y' i - y' j) ^ 2 = (y i - y j) ^ 2) → ev' = ev) := by
  unfold experimentalVariogram at h ⊢
  obtain ⟨dg, h1, h⟩ := py_bind_eq_ok.1 h
  obtain ⟨dmax, h2, h⟩ := py_bind_eq_ok.1 h
  obtain ⟨dmin, h3, h⟩ := py_bind_eq_ok.1 h
  obtain ⟨dg', h1', e, e'⟩ := pairDistances_other h1 y'
  simp only [py_pure, Except.ok.injEq] at h
  subst h
  refine ⟨binned dg' (binEdges dmin dmax nlags), ?_, fun hy => by rw [e' hy]⟩
  rw [h1', py_ok_bind, e, h2, py_ok_bind, h3]
  rfl

theorem makeVariogramParameterList_some {model : String} {p : ParamArg} {vp : Option (List ℝ)}
    (h : makeVariogramParameterList model p = .ok vp) (hp : p ≠ .none) : ∃ ps, vp = some ps := by
  unfold makeVariogramParameterList at h
  cases p with
  | none => exact absurd rfl hp
  | other => simp at h
  | dict d =>
    dsimp only at h
    repeat' split at h
    all_goals first | (simp at h; done) | exact ⟨_, (Except.ok.inj h).symm⟩
  | list l =>
    dsimp only at h
    repeat' split at h
    all_goals first
      | (simp at h; done)
      | exact ⟨_, (Except.ok.inj h).symm⟩
      | (obtain ⟨_, _, h⟩ := py_bind_eq_ok.1 h
         obtain ⟨_, _, h⟩ := py_bind_eq_ok.1 h
         obtain ⟨_, _, h⟩ := py_bind_eq_ok.1 h
         exact ⟨_, (Except.ok.inj h).symm⟩)

theorem initializeVariogramModel_other {n m : ℕ} {env : Env} {X : Fin n → Fin m → ℝ} {y : Fin n → ℝ}
    {model : String} {vp : Option (List ℝ)} {f : VFun} {nlags : ℕ} {weight : Bool} {ct : String}
    {lags : List (ℝ × ℝ)} {ps : List ℝ}
    (h : initializeVariogramModel env X y model vp f nlags weight ct = .ok (lags, ps)) (y' : Fin n → ℝ)
    (hy : (∃ p, vp = some p) ∨ ∀ i j, (y' i - y' j) ^ 2 = (y i - y j) ^ 2) :
    ∃ lags', initializeVariogramModel env X y' model vp f nlags weight ct = .ok (lags', ps) := by
  unfold initializeVariogramModel at h ⊢
  obtain ⟨ev, h1, h⟩ := py_bind_eq_ok.1 h
  obtain ⟨ev', h1', e⟩ := experimentalVariogram_other h1 y'
  rw [h1', py_ok_bind]
  rcases hy with ⟨p, rfl⟩ | hy
  · refine ⟨ev', ?_⟩
    dsimp only at h ⊢
    split at h
    · simp at h
    · split at h
      · simp at h
      · next h1 h2 =>
        simp only [py_pure, Except.ok.injEq, Prod.mk.injEq] at h
        rw [if_neg h1, if_neg h2, h.2]
        rfl
  · rw [e hy]
    exact ⟨_, h⟩

theorem krige_other {n m : ℕ} {X : Fin n → Fin m → ℝ} {y : Fin n → ℝ} {c : Fin m → ℝ} {f : VFun}
    {ps : List ℝ} {ct : String} {pseudo : Bool} {r : ℝ × ℝ} (h : krige X y c f ps ct pseudo = .ok r)
    (y' : Fin n → ℝ) : ∃ k, krige X y' c f ps ct pseudo = .ok (k, r.2) := by
  unfold krige at h ⊢
  obtain ⟨⟨d, bd⟩, h1, h⟩ := py_bind_eq_ok.1 h
  dsimp only at h
  obtain ⟨γ, h2, h⟩ := py_bind_eq_ok.1 h
  rw [h1, py_ok_bind]
  dsimp only
  rw [h2, py_ok_bind]
  cases pseudo with
  | true =>
    simp only [if_true, py_pure, py_ok_bind, Except.ok.injEq] at h ⊢
    subst h
    exact ⟨_, rfl⟩
  | false =>
    simp only [Bool.false_eq_true, if_false] at h ⊢
    obtain ⟨res, h3, h⟩ := py_bind_eq_ok.1 h
    simp only [py_pure, Except.ok.injEq] at h
    subst h
    rw [h3]
    exact ⟨_, rfl⟩

theorem statEntry_other {n m : ℕ} {X : Fin n → Fin m → ℝ} {y : Fin n → ℝ} {f : VFun}
    {ps : List ℝ} {ct : String} {pseudo : Bool} {i : Fin n} {r : Option (ℝ × ℝ)}
    (h : statEntry X y f ps ct pseudo i = .ok r) (y' : Fin n → ℝ) :
    ∃ r', statEntry X y' f ps ct pseudo i = .ok r' := by
  unfold statEntry at h ⊢
  obtain ⟨⟨k, ss⟩, h1, h⟩ := py_bind_eq_ok.1 h
  obtain ⟨k', h1'⟩ := krige_other h1 (fun j : Fin i.val => y' (Fin.castLE i.isLt.le j))
  rw [h1', py_ok_bind]
  dsimp only
  split
  · exact ⟨_, rfl⟩
  · split
    · exact ⟨_, rfl⟩
    · split <;> exact ⟨_, rfl⟩

theorem findStatistics_other {n m : ℕ} {X : Fin n → Fin m → ℝ} {y : Fin n → ℝ} {f : VFun}
    {ps : List ℝ} {ct : String} {pseudo : Bool} {st : Stats}
    (h : findStatistics X y f ps ct pseudo = .ok st) (y' : Fin n → ℝ) :
    ∃ st', findStatistics X y' f ps ct pseudo = .ok st' := by
  unfold findStatistics at h ⊢
  obtain ⟨entries, h1, h⟩ := py_bind_eq_ok.1 h
  clear h
  have : ∃ entries', ((List.finRange n).filter fun i => i.val ≠ 0).mapM
      (statEntry X y' f ps ct pseudo) = .ok entries' := by
    generalize (List.finRange n).filter (fun i => i.val ≠ 0) = L at h1
    induction L generalizing entries with
    | nil => exact ⟨[], rfl⟩
    | cons a L ih =>
      rw [List.mapM_cons] at h1
      obtain ⟨r, h1, h3⟩ := py_bind_eq_ok.1 h1
      obtain ⟨rs, h3, -⟩ := py_bind_eq_ok.1 h3
      obtain ⟨r', hr'⟩ := statEntry_other h1 y'
      obtain ⟨rs', hrs'⟩ := ih _ h3
      exact ⟨r' :: rs', by rw [List.mapM_cons, hr', py_ok_bind, hrs']; rfl⟩
  obtain ⟨entries', h'⟩ := this
  rw [h']
  exact ⟨_, rfl⟩

theorem OK.resolveModel_given {env : Env} {ct : String} {vm : ModelArg} {f : FunArg} {p : ParamArg}
    {sc an : ℝ} {name model fArg pArg sc' an'}
    (h : OK.resolveModel env ct vm f p sc an = .ok (name, model, fArg, pArg, sc', an'))
    (hg : ParamsGiven vm p) : pArg ≠ .none := by
  unfold OK.resolveModel at h
  cases vm with
  | gstools m =>
    dsimp only at h
    obtain ⟨_, _, h⟩ := py_bind_eq_ok.1 h
    split at h
    · simp at h
    · dsimp only [py_pure] at h
      split at h
      · simp at h
      · simp only [Except.ok.injEq, Prod.mk.injEq] at h
        rw [← h.2.2.2.1]; simp
  | name nm =>
    rcases hg with ⟨m, hm⟩ | hg
    · cases hm
    · simp only [Except.ok.injEq, Prod.mk.injEq] at h
      rw [← h.2.2.2.1]
      exact hg

theorem UK.resolveModel_given {env : Env} {vm : ModelArg} {f : FunArg} {p : ParamArg}
    {sc an : ℝ} {name model fArg pArg sc' an'}
    (h : UK.resolveModel env vm f p sc an = .ok (name, model, fArg, pArg, sc', an'))
    (hg : ParamsGiven vm p) : pArg ≠ .none := by
  unfold UK.resolveModel at h
  cases vm with
  | gstools m =>
    dsimp only at h
    obtain ⟨_, _, h⟩ := py_bind_eq_ok.1 h
    split at h
    · simp at h
    · dsimp only [py_pure] at h
      split at h
      · simp at h
      · simp only [Except.ok.injEq, Prod.mk.injEq] at h
        rw [← h.2.2.2.1]; simp
  | name nm =>
    rcases hg with ⟨m, hm⟩ | hg
    · cases hm
    · simp only [Except.ok.injEq, Prod.mk.injEq] at h
      rw [← h.2.2.2.1]
      exact hg

theorem OK3D.resolveModel_given {env : Env} {vm : ModelArg} {f : FunArg} {p : ParamArg}
    {an : Aniso3} {name model fArg pArg an'}
    (h : OK3D.resolveModel env vm f p an = .ok (name, model, fArg, pArg, an'))
    (hg : ParamsGiven vm p) : pArg ≠ .none := by
  unfold OK3D.resolveModel at h
  cases vm with
  | gstools m =>
    dsimp only at h
    obtain ⟨_, _, h⟩ := py_bind_eq_ok.1 h
    split at h
    · simp at h
    · simp only [py_pure, Except.ok.injEq, Prod.mk.injEq] at h
      rw [← h.2.2.2.1]; simp
  | name nm =>
    rcases hg with ⟨m, hm⟩ | hg
    · cases hm
    · simp only [Except.ok.injEq, Prod.mk.injEq] at h
      rw [← h.2.2.2.1]
      exact hg

theorem OK.create_other {n : ℕ} {env : Env} {x y z : Fin n → ℝ} {args : OKArgs} {s : OK n}
    (h : OK.create env x y z args = .ok s) (z' : Fin n → ℝ)
    (hz : SameFit args.variogramModel args.params z z') :
    ∃ lags stats, OK.create env x y z' args = .ok (s.withZ z' lags stats) := by
  obtain ⟨hp, exact, name, model, fArg, pArg, sc₀, an₀, f, fname, xc, yc, sc, an, adj, vp, lags, ps, stats,
    h1, h2, h3, h4, h5, h6, h7, rfl⟩ := OK.create_ok h
  obtain ⟨lags', h6'⟩ := initializeVariogramModel_other h6 z'
    (hz.imp (fun hz => makeVariogramParameterList_some h5 (OK.resolveModel_given h2 hz)) id)
  have h7' : ∃ stats', (if args.enableStatistics then
      some <$> findStatistics adj z' f ps args.coordinatesType args.pseudoInv
      else .ok none) = .ok stats' := by
    split at h7
    · next he =>
      obtain ⟨st, h7, -⟩ := py_map_eq_ok.1 h7
      obtain ⟨st', hst⟩ := findStatistics_other h7 z'
      exact ⟨some st', by rw [if_pos he, hst]; rfl⟩
    · next he => exact ⟨none, by rw [if_neg he]⟩
  obtain ⟨stats', h7'⟩ := h7'
  refine ⟨lags', stats', ?_⟩
  unfold OK.create
  rw [if_neg (not_not.2 hp), h1]
  simp only [py_pure, py_ok_bind, h2, h3, h4, h5, h6']
  split at h7'
  · next he =>
    obtain ⟨st, h7', rfl⟩ := py_map_eq_ok.1 h7'
    simp [he, h7', OK.withZ]
  · next he =>
    cases h7'
    simp [he, OK.withZ]

theorem OK3D.create_other {n : ℕ} {env : Env} {x y z v : Fin n → ℝ} {args : OK3DArgs} {s : OK3D n}
    (h : OK3D.create env x y z v args = .ok s) (v' : Fin n → ℝ)
    (hz : SameFit args.variogramModel args.params v v') :
    ∃ lags stats, OK3D.create env x y z v' args = .ok (s.withZ v' lags stats) := by
  obtain ⟨hp, exact, name, model, fArg, pArg, an, f, fname, xc, yc, zc, vp, lags, ps, stats,
    h1, h2, h3, h4, h5, h6, h7, h8, h9, rfl⟩ := OK3D.create_ok h
  obtain ⟨lags', h8'⟩ := initializeVariogramModel_other h8 v'
    (hz.imp (fun hz => makeVariogramParameterList_some h7 (OK3D.resolveModel_given h2 hz)) id)
  obtain ⟨st', h9'⟩ := findStatistics_other h9 v'
  refine ⟨lags', some st', ?_⟩
  unfold OK3D.create
  rw [if_neg (not_not.2 hp), h1]
  simp only [py_pure, py_ok_bind, h2, h3, h4, h5, h6, h7, h8', h9', OK3D.withZ]

theorem UK.create_other {n : ℕ} {env : Env} {x y z : Fin n → ℝ} {args : UKArgs} {s : UK n}
    (h : UK.create env x y z args = .ok s) (z' : Fin n → ℝ)
    (hz : SameFit args.variogramModel args.params z z') :
    ∃ lags stats, UK.create env x y z' args = .ok (s.withZ z' lags stats) := by
  obtain ⟨hp, exact, name, model, fArg, pArg, sc, an, f, fname, xc, yc, vp, lags, ps, stats, ext, plog, spec,
    func, h1, h2, h3, h4, h5, h6, h7, h8, h9, h10, h11, h12, rfl⟩ := UK.create_ok h
  obtain ⟨lags', h7'⟩ := initializeVariogramModel_other h7 z'
    (hz.imp (fun hz => makeVariogramParameterList_some h6 (UK.resolveModel_given h2 hz)) id)
  obtain ⟨st', h8'⟩ := findStatistics_other h8 z'
  refine ⟨lags', some st', ?_⟩
  unfold UK.create
  rw [if_neg (not_not.2 hp), h1]
  simp only [py_pure, py_ok_bind, h2, h3, h4, h5, h6, h7', h8', h9, h10, h11, h12, UK.withZ]

theorem UK3D.create_other {n : ℕ} {env : Env} {x y z v : Fin n → ℝ} {args : UK3DArgs} {s : UK3D n}
    (h : UK3D.create env x y z v args = .ok s) (v' : Fin n → ℝ)
    (hz : SameFit args.variogramModel args.params v v') :
    ∃ lags stats, UK3D.create env x y z v' args = .ok (s.withZ v' lags stats) := by
  obtain ⟨hp, exact, name, model, fArg, pArg, an, f, fname, xc, yc, zc, vp, lags, ps, stats, spec, func,
    h1, h2, h3, h4, h5, h6, h7, h8, h9, h10, h11, rfl⟩ := UK3D.create_ok h
  obtain ⟨lags', h8'⟩ := initializeVariogramModel_other h8 v'
    (hz.imp (fun hz => makeVariogramParameterList_some h7 (OK3D.resolveModel_given h2 hz)) id)
  obtain ⟨st', h9'⟩ := findStatistics_other h9 v'
  refine ⟨lags', some st', ?_⟩
  unfold UK3D.create
  rw [if_neg (not_not.2 hp), h1]
  simp only [py_pure, py_ok_bind, h2, h3, h4, h5, h6, h7, h8', h9', h10, h11, UK3D.withZ]

/-- The values of an object are the given ones. -/
theorem OK.withZ_self {n : ℕ} (s : OK n) : s.withZ s.Z s.lags s.stats = s := rfl
theorem OK3D.withZ_self {n : ℕ} (s : OK3D n) : s.withZ s.VALUES s.lags s.stats = s := rfl
theorem UK.withZ_self {n : ℕ} (s : UK n) : s.withZ s.Z s.lags s.stats = s := rfl
theorem UK3D.withZ_self {n : ℕ} (s : UK3D n) : s.withZ s.VALUES s.lags s.stats = s := rfl

end
end PyKrige
