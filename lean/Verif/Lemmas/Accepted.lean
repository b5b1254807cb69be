import Verif.Props.C20
import Verif.Lemmas.Accept
import Verif.Lemmas.ArgDist
import Verif.Lemmas.Affine
import Verif.Lemmas.Reparam
import Verif.Lemmas.BlueRow

/-! When the constructors succeed. -/

set_option linter.unusedSectionVars false

namespace PyKrige
noncomputable section
open Matrix Spec

theorem krige_ok {n m : ℕ} {X : Fin n → Fin m → ℝ} {q : Fin m → ℝ} {f : VFun} {ps : List ℝ}
    {ct : String} {pseudo : Bool} {γ : ℝ → ℝ} (hct : ct = "euclidean" ∨ ct = "geographic" ∧ m = 2)
    (hγ : f ps = .ok γ)
    (hs : Solvable pseudo (semivar γ fun i j => pairDistance ct (X i) (X j)) noDrift) (y : Fin n → ℝ) :
    ∃ r, krige X y q f ps ct pseudo = .ok r := by
  unfold krige
  obtain ⟨⟨d, bd⟩, h1⟩ : ∃ r, krigeDistances X q ct = .ok r := by
    unfold krigeDistances
    rcases hct with rfl | ⟨rfl, rfl⟩
    · exact ⟨_, rfl⟩
    · exact ⟨_, rfl⟩
  rw [h1]
  obtain ⟨rfl, rfl⟩ := krigeDistances_spec h1
  simp only [py_ok_bind, hγ]
  cases pseudo with
  | true => exact ⟨_, rfl⟩
  | false =>
    have hdet : (coreKrigingMatrix n γ fun i j => pairDistance ct (X i) (X j)).det ≠ 0 := by
      rcases hs with hs | hs
      · cases hs
      · rw [noDrift_eq, regular_iff_det, ← det_eq_of_submatrix rfl (coreKrigingMatrix_submatrix n γ _)] at hs
        exact hs
    unfold scipySolve
    rw [if_neg hdet]
    exact ⟨_, rfl⟩

theorem findStatistics_ok {n m : ℕ} {X : Fin n → Fin m → ℝ} {f : VFun} {ps : List ℝ}
    {ct : String} {pseudo : Bool} {γ : ℝ → ℝ} (hct : ct = "euclidean" ∨ ct = "geographic" ∧ m = 2)
    (hγ : f ps = .ok γ)
    (hs : ∀ i : Fin n, i.val ≠ 0 → Solvable pseudo (semivar γ fun a b : Fin i.val =>
      pairDistance ct (X (before i a)) (X (before i b))) noDrift) (y : Fin n → ℝ) :
    ∃ st, findStatistics X y f ps ct pseudo = .ok st := by
  have key : ∀ i ∈ (List.finRange n).filter (fun i => decide (i.val ≠ 0)),
      ∃ b, statEntry X y f ps ct pseudo i = .ok b := by
    intro i hi
    have hi0 : i.val ≠ 0 := by simpa using (List.mem_filter.1 hi).2
    obtain ⟨⟨k, ss⟩, hr⟩ := krige_ok (X := fun j : Fin i.val => X (Fin.castLE i.isLt.le j)) (q := X i) hct hγ (hs i hi0)
      (fun j : Fin i.val => y (Fin.castLE i.isLt.le j))
    unfold statEntry
    rw [hr]
    simp only [py_ok_bind]
    split
    · exact ⟨_, rfl⟩
    · split
      · exact ⟨_, rfl⟩
      · split
        · exact ⟨_, rfl⟩
        · exact ⟨_, rfl⟩
  obtain ⟨es, he⟩ := (py_mapM_ok_iff _ _).2 key
  unfold findStatistics
  rw [he]
  exact ⟨_, rfl⟩

/-- The statistics of a strictly valid variogram. -/
theorem findStatistics_strict {n m : ℕ} {X : Fin n → Fin m → ℝ} {f : VFun} {ps : List ℝ}
    {ct : String} {pseudo : Bool} {γ : ℝ → ℝ} (hct : ct = "euclidean" ∨ ct = "geographic" ∧ m = 2)
    (hγ : f ps = .ok γ) (hs : StrictCondNeg (semivar γ fun i j => pairDistance ct (X i) (X j))) (y : Fin n → ℝ) :
    ∃ st, findStatistics X y f ps ct pseudo = .ok st := by
  refine findStatistics_ok hct hγ (fun i hi => .inr ?_) y
  have : Nonempty (Fin i.val) := ⟨⟨0, by omega⟩⟩
  exact (hs.sub (sel := before i) (fun a b e => Fin.ext (by simpa [before] using e))).regular_ok

/-- The variogram can be determined, and (if wanted) the statistics, wherever the data at the given distances are. -/
def Determined (env : Env) {n : ℕ} (m : ℕ) (ct : String) (D : Fin n → Fin n → ℝ) (z : Fin n → ℝ) (name : String)
    (vp : Option (List ℝ)) (f : VFun) (nlags : ℕ) (weight stats pseudo : Bool) : Prop :=
  ∀ X : Fin n → Fin m → ℝ, (∀ i j, pairDistance ct (X i) (X j) = D i j) →
    ∃ lags ps, initializeVariogramModel env X z name vp f nlags weight ct = .ok (lags, ps) ∧
      (stats = true → ∃ st, findStatistics X z f ps ct pseudo = .ok st)

theorem OK.create_of {n : ℕ} {env : Env} {x y z : Fin n → ℝ} {args : OKArgs} (hn : 2 ≤ n)
    (hpt : args.pseudoInvType ∈ ["pinv", "pinvh"]) {b : Bool} (hex : args.exactValues = .bool b)
    {name model fArg pArg sc an} (hres : OK.resolveModel env args.coordinatesType args.variogramModel
      args.variogramFunction args.params args.anisotropyScaling args.anisotropyAngle = .ok (name, model, fArg, pArg, sc, an))
    {f nm} (hf : chooseFunction name fArg = .ok (f, nm))
    (hct : args.coordinatesType = "euclidean" ∨ args.coordinatesType = "geographic")
    {vp} (hp : makeVariogramParameterList name pArg = .ok vp)
    (hi : Determined env 2 args.coordinatesType (fun i j => okDistance args (x i, y i) (x j, y j)) z name vp f args.nlags
      args.weight args.enableStatistics args.pseudoInv) :
    ∃ s, OK.create env x y z args = .ok s ∧ s.variogramFunction = f ∧ s.functionName = nm ∧
      ∀ ps, vp = some ps → s.params = ps := by
  rcases OK.setup_cases x y args.coordinatesType sc an with ⟨xc', yc', sc', an', adj', e1, e2, e3⟩ | ⟨h0, -⟩
  swap
  · rcases h0 with h0 | ⟨h0, h0'⟩
    · omega
    · rcases hct with hct | hct
      · exact absurd hct h0
      · exact absurd hct h0'
  obtain ⟨rfl, rfl, -⟩ := OK.resolveModel_eff hres
  obtain ⟨lags, ps, hi1, hi2⟩ := hi adj' e3
  unfold OK.create
  rw [if_neg (not_not.2 hpt), hex]
  simp only [py_pure, py_ok_bind, hres, hf, e1, hp, hi1]
  split
  · next ht =>
    obtain ⟨st, hst⟩ := hi2 ht
    rw [hst]
    exact ⟨_, rfl, rfl, rfl, fun ps' e => initialize_params hi1 e⟩
  · exact ⟨_, rfl, rfl, rfl, fun ps' e => initialize_params hi1 e⟩

theorem OK3D.create_of {n : ℕ} {env : Env} {x y z v : Fin n → ℝ} {args : OK3DArgs} (hn : 2 ≤ n)
    (hpt : args.pseudoInvType ∈ ["pinv", "pinvh"]) {b : Bool} (hex : args.exactValues = .bool b)
    {name model fArg pArg an} (hres : OK3D.resolveModel env args.variogramModel
      args.variogramFunction args.params args.aniso = .ok (name, model, fArg, pArg, an))
    {f nm} (hf : chooseFunction name fArg = .ok (f, nm))
    {vp} (hp : makeVariogramParameterList name pArg = .ok vp)
    (hi : Determined env 3 "euclidean" (fun i j => ok3Distance args (x i, y i, z i) (x j, y j, z j)) v name vp f
      args.nlags args.weight true args.pseudoInv) :
    ∃ s, OK3D.create env x y z v args = .ok s ∧ s.variogramFunction = f ∧ s.functionName = nm ∧
      ∀ ps, vp = some ps → s.params = ps := by
  obtain ⟨xc, hx⟩ := midrange_exists (show 0 < n by omega) x
  obtain ⟨yc, hy⟩ := midrange_exists (show 0 < n by omega) y
  obtain ⟨zc, hz⟩ := midrange_exists (show 0 < n by omega) z
  obtain ⟨rfl, -⟩ := OK3D.resolveModel_eff hres
  obtain ⟨lags, ps, hi1, hi2⟩ := hi _ (adj3_pairDistance x y z xc yc zc _)
  obtain ⟨st, hst⟩ := hi2 rfl
  unfold OK3D.create
  rw [if_neg (not_not.2 hpt), hex]
  simp only [py_pure, py_ok_bind, hres, hf, hx, hy, hz, hp, hi1, hst]
  exact ⟨_, rfl, rfl, rfl, fun ps' e => initialize_params hi1 e⟩

theorem UK.create_of {n : ℕ} {env : Env} {x y z : Fin n → ℝ} {args : UKArgs} (hn : 2 ≤ n)
    (hpt : args.pseudoInvType ∈ ["pinv", "pinvh"]) {b : Bool} (hex : args.exactValues = .bool b)
    {name model fArg pArg sc an} (hres : UK.resolveModel env args.variogramModel
      args.variogramFunction args.params args.anisotropyScaling args.anisotropyAngle = .ok (name, model, fArg, pArg, sc, an))
    {f nm} (hf : chooseFunction name fArg = .ok (f, nm))
    {vp} (hp : makeVariogramParameterList name pArg = .ok vp)
    (hi : Determined env 2 "euclidean" (fun i j => ukDistance args (x i, y i) (x j, y j)) z name vp f args.nlags
      args.weight true args.pseudoInv)
    (h1 : ∃ e, setupExternalZ x y args = .ok e) (h2 : "point_log" ∈ args.driftTerms → args.pointDrift ≠ none ∧ args.pointDriftInt = false)
    (h3 : ∃ e, setupSpecifiedTerm n args.driftTerms args.specifiedDrift = .ok e)
    (h4 : ∃ e, setupFunctionalTerm args.driftTerms args.functionalDrift = .ok e) :
    ∃ s, UK.create env x y z args = .ok s ∧ s.variogramFunction = f ∧ s.functionName = nm ∧
      ∀ ps, vp = some ps → s.params = ps := by
  obtain ⟨xc, hx⟩ := midrange_exists (show 0 < n by omega) x
  obtain ⟨yc, hy⟩ := midrange_exists (show 0 < n by omega) y
  obtain ⟨rfl, rfl, -⟩ := UK.resolveModel_eff hres
  obtain ⟨lags, ps, hi1, hi2⟩ := hi _ (adj2_pairDistance x y xc yc _ _)
  obtain ⟨st, hst⟩ := hi2 rfl
  obtain ⟨ext, h1⟩ := h1
  obtain ⟨spec, h3⟩ := h3
  obtain ⟨func, h4⟩ := h4
  obtain ⟨plog, h2⟩ : ∃ e, setupPointLog xc yc (effScaling args.variogramModel args.anisotropyScaling)
      (effAngle args.variogramModel args.anisotropyAngle) args = .ok e := by
    unfold setupPointLog
    split
    · next ht =>
      cases hw : args.pointDrift with
      | none => exact absurd hw (h2 ht).1
      | some w => exact ⟨_, if_neg (by rw [(h2 ht).2]; decide)⟩
    · exact ⟨_, rfl⟩
  unfold UK.create
  rw [if_neg (not_not.2 hpt), hex]
  simp only [py_pure, py_ok_bind, hres, hf, hx, hy, hp, hi1, hst, h1, h2, h3, h4]
  exact ⟨_, rfl, rfl, rfl, fun ps' e => initialize_params hi1 e⟩

theorem UK3D.create_of {n : ℕ} {env : Env} {x y z v : Fin n → ℝ} {args : UK3DArgs} (hn : 2 ≤ n)
    (hpt : args.pseudoInvType ∈ ["pinv", "pinvh"]) {b : Bool} (hex : args.exactValues = .bool b)
    {name model fArg pArg an} (hres : OK3D.resolveModel env args.variogramModel
      args.variogramFunction args.params args.aniso = .ok (name, model, fArg, pArg, an))
    {f nm} (hf : chooseFunction name fArg = .ok (f, nm))
    {vp} (hp : makeVariogramParameterList name pArg = .ok vp)
    (hi : Determined env 3 "euclidean" (fun i j => uk3Distance args (x i, y i, z i) (x j, y j, z j)) v name vp f
      args.nlags args.weight true args.pseudoInv)
    (h3 : ∃ e, setupSpecifiedTerm n args.driftTerms args.specifiedDrift = .ok e)
    (h4 : ∃ e, setupFunctionalTerm args.driftTerms args.functionalDrift = .ok e) :
    ∃ s, UK3D.create env x y z v args = .ok s ∧ s.variogramFunction = f ∧ s.functionName = nm ∧
      ∀ ps, vp = some ps → s.params = ps := by
  obtain ⟨xc, hx⟩ := midrange_exists (show 0 < n by omega) x
  obtain ⟨yc, hy⟩ := midrange_exists (show 0 < n by omega) y
  obtain ⟨zc, hz⟩ := midrange_exists (show 0 < n by omega) z
  obtain ⟨rfl, -⟩ := OK3D.resolveModel_eff hres
  obtain ⟨lags, ps, hi1, hi2⟩ := hi _ (adj3_pairDistance x y z xc yc zc _)
  obtain ⟨st, hst⟩ := hi2 rfl
  obtain ⟨spec, h3⟩ := h3
  obtain ⟨func, h4⟩ := h4
  unfold UK3D.create
  rw [if_neg (not_not.2 hpt), hex]
  simp only [py_pure, py_ok_bind, hres, hf, hx, hy, hz, hp, hi1, hst, h3, h4]
  exact ⟨_, rfl, rfl, rfl, fun ps' e => initialize_params hi1 e⟩

/-! ### Determining the variogram -/

theorem makeParams_length {name : String} {p : ParamArg} {ps : List ℝ}
    (h : makeVariogramParameterList name p = .ok (some ps)) :
    (name = "linear" → ps.length = 2) ∧
      (name ∈ ["power", "spherical", "exponential", "gaussian", "hole-effect"] → ps.length = 3) := by
  unfold makeVariogramParameterList at h
  constructor
  · rintro rfl
    cases p with
    | none => cases h
    | other => cases h
    | dict d => simp at h; split at h <;> simp_all; subst h; rfl
    | list l => simp at h; grind
  · intro hn
    simp only [List.mem_cons, List.not_mem_nil, or_false] at hn
    cases p with
    | none => cases h
    | other => cases h
    | dict d =>
      rcases hn with rfl | rfl | rfl | rfl | rfl <;> simp at h <;> repeat' split at h
      all_goals first
        | (cases h; done)
        | (simp only [Except.ok.injEq, Option.some.injEq] at h; subst h; rfl)
    | list l =>
      by_cases hl : l.length = 3
      · match l, hl with
        | [a, b, c], _ =>
          rcases hn with rfl | rfl | rfl | rfl | rfl <;> simp [pyGet, py_pure, py_ok_bind] at h <;> subst h <;> rfl
      · exfalso
        rcases hn with rfl | rfl | rfl | rfl | rfl <;> simp [hl] at h

theorem initialize_of_given {env : Env} {n m : ℕ} {ct : String} (hn : 2 ≤ n)
    (hct : ct = "euclidean" ∨ ct = "geographic" ∧ m = 2) (X : Fin n → Fin m → ℝ) (z : Fin n → ℝ) {name : String}
    {p : ParamArg} {ps : List ℝ} (hp : makeVariogramParameterList name p = .ok (some ps)) (f : VFun) (nlags : ℕ)
    (weight : Bool) :
    ∃ lags, initializeVariogramModel env X z name (some ps) f nlags weight ct = .ok (lags, ps) := by
  obtain ⟨ev, h⟩ := C18_accepted hn X z nlags hct
  obtain ⟨h1, h2⟩ := makeParams_length hp
  refine ⟨ev, ?_⟩
  unfold initializeVariogramModel
  rw [h]
  simp only [py_ok_bind]
  rw [if_neg (fun hc => hc.2 (h1 hc.1)), if_neg (fun hc => hc.2 (h2 hc.1))]
  rfl

end
end PyKrige
