import Verif.Lemmas.NanCreate
import Verif.Props.C19Accept

/-!
# Accepting data with nans
-/

namespace PyKrige
noncomputable section
open Spec

/-- The variogram can be determined from what is left, and (if wanted) the statistics. -/
def DeterminedNan (env : Env) {n : ℕ} (m : ℕ) (ct : String) (D : Fin n → Fin n → ℝ) (z : Fin n → Option ℝ) (name : String)
    (vp : Option (List ℝ)) (f : VFun) (nlags : ℕ) (weight stats pseudo : Bool) : Prop :=
  ∀ X : Fin n → Fin m → ℝ, (∀ i j, pairDistance ct (X i) (X j) = D i j) →
    ∃ lags ps, initializeVariogramModelNan env X z name vp f nlags weight ct = .ok (lags, ps) ∧
      (stats = true → ∃ st, findStatisticsNan X z f ps ct pseudo = .ok st)

theorem determinedNan_of {env : Env} (hl : LsqSpec env) {n m : ℕ} {ct : String}
    (hct : ct = "euclidean" ∨ ct = "geographic" ∧ m = 2) {D : Fin n → Fin n → ℝ} {z : Fin n → Option ℝ} {nm : String}
    (hb : nm ∈ ["linear", "power", "gaussian", "spherical", "exponential", "hole-effect"]) {fA : FunArg} {f : VFun}
    {fn : String} (hf : chooseFunction nm fA = .ok (f, fn)) {nlags : ℕ} {weight stats pseudo : Bool}
    (hs : stats = false ∨ pseudo = true) {s S l L : ℝ} (h0 : 0 ≤ s) (h1 : s ≤ S) (h2 : 0 ≤ l) (h3 : l ≤ L)
    (hc : CanFit nm weight S l L)
    (h : ∀ X : Fin n → Fin m → ℝ, (∀ i j, pairDistance ct (X i) (X j) = D i j) →
      ∃ ev, experimentalVariogramNan X z nlags ct = .ok ev ∧ amin (ev.map Prod.snd) = .ok s ∧ amax (ev.map Prod.snd) = .ok S ∧
        amin (ev.map Prod.fst) = .ok l ∧ amax (ev.map Prod.fst) = .ok L) :
    DeterminedNan env m ct D z nm none f nlags weight stats pseudo := by
  intro X hX
  obtain ⟨ev, e, a1, a2, a3, a4⟩ := h X hX
  have hcm : nm ≠ "custom" := by rintro rfl; revert hb; decide
  obtain ⟨ps, e2, hw⟩ := (fit_cases (env := env) (f := f) a1 a2 a3 a4 h0 h1 h2 h3).1 hc
  refine ⟨ev, ps, ?_, fun hst => ?_⟩
  · unfold initializeVariogramModelNan
    rw [e]
    simp only [py_ok_bind, if_neg hcm, e2]
    rfl
  · rcases hs with hs | hs
    · rw [hs] at hst; cases hst
    · obtain ⟨γ, hγ⟩ := fitted_evaluates hb hf (hw hl)
      obtain ⟨st, hst⟩ := findStatistics_ok hct hγ (fun i _ => .inl hs) fun i => (z i).getD 0
      have := findStatisticsNan_rel X z (v := fun i => (z i).getD 0) (fun i a h => by show (z i).getD 0 = a; rw [h]; rfl) f ps ct pseudo
      obtain ⟨st', h', -⟩ := this.ok_of hst
      exact ⟨st', h'⟩

theorem NanOK.create_of {n : ℕ} {env : Env} {x y : Fin n → ℝ} {z : Fin n → Option ℝ} {args : OKArgs} (hn : 2 ≤ n)
    (hpt : args.pseudoInvType ∈ ["pinv", "pinvh"]) {b : Bool} (hex : args.exactValues = .bool b)
    {name model fArg pArg sc an} (hres : OK.resolveModel env args.coordinatesType args.variogramModel
      args.variogramFunction args.params args.anisotropyScaling args.anisotropyAngle = .ok (name, model, fArg, pArg, sc, an))
    {f nm} (hf : chooseFunction name fArg = .ok (f, nm))
    (hct : args.coordinatesType = "euclidean" ∨ args.coordinatesType = "geographic")
    {vp} (hp : makeVariogramParameterList name pArg = .ok vp)
    (hi : DeterminedNan env 2 args.coordinatesType (fun i j => okDistance args (x i, y i) (x j, y j)) z name vp f args.nlags
      args.weight args.enableStatistics args.pseudoInv) :
    ∃ s, NanOK.create env x y z args = .ok s ∧ s.obj.variogramFunction = f := by
  rcases OK.setup_cases x y args.coordinatesType sc an with ⟨xc', yc', sc', an', adj', e1, e2, e3⟩ | ⟨h0, -⟩
  swap
  · rcases h0 with h0 | ⟨h0, h0'⟩
    · omega
    · rcases hct with hct | hct
      · exact absurd hct h0
      · exact absurd hct h0'
  obtain ⟨rfl, rfl, -⟩ := OK.resolveModel_eff hres
  obtain ⟨lags, ps, hi1, hi2⟩ := hi adj' e3
  unfold NanOK.create
  rw [if_neg (not_not.2 hpt), hex]
  simp only [py_pure, py_ok_bind, hres, hf, e1, hp, hi1]
  split
  · next ht =>
    obtain ⟨st, hst⟩ := hi2 ht
    rw [hst]
    exact ⟨_, rfl, rfl⟩
  · exact ⟨_, rfl, rfl⟩

theorem NanOK3D.create_of {n : ℕ} {env : Env} {x y z : Fin n → ℝ} {v : Fin n → Option ℝ} {args : OK3DArgs} (hn : 2 ≤ n)
    (hpt : args.pseudoInvType ∈ ["pinv", "pinvh"]) {b : Bool} (hex : args.exactValues = .bool b)
    {name model fArg pArg an} (hres : OK3D.resolveModel env args.variogramModel
      args.variogramFunction args.params args.aniso = .ok (name, model, fArg, pArg, an))
    {f nm} (hf : chooseFunction name fArg = .ok (f, nm))
    {vp} (hp : makeVariogramParameterList name pArg = .ok vp)
    (hi : DeterminedNan env 3 "euclidean" (fun i j => ok3Distance args (x i, y i, z i) (x j, y j, z j)) v name vp f
      args.nlags args.weight true args.pseudoInv) :
    ∃ s, NanOK3D.create env x y z v args = .ok s ∧ s.obj.variogramFunction = f := by
  obtain ⟨xc, hx⟩ := midrange_exists (show 0 < n by omega) x
  obtain ⟨yc, hy⟩ := midrange_exists (show 0 < n by omega) y
  obtain ⟨zc, hz⟩ := midrange_exists (show 0 < n by omega) z
  obtain ⟨rfl, -⟩ := OK3D.resolveModel_eff hres
  obtain ⟨lags, ps, hi1, hi2⟩ := hi _ (adj3_pairDistance x y z xc yc zc _)
  obtain ⟨st, hst⟩ := hi2 rfl
  unfold NanOK3D.create
  rw [if_neg (not_not.2 hpt), hex]
  simp only [py_pure, py_ok_bind, hres, hf, hx, hy, hz, hp, hi1, hst]
  exact ⟨_, rfl, rfl⟩

theorem NanUK.create_of {n : ℕ} {env : Env} {x y : Fin n → ℝ} {z : Fin n → Option ℝ} {args : UKArgs} (hn : 2 ≤ n)
    (hpt : args.pseudoInvType ∈ ["pinv", "pinvh"]) {b : Bool} (hex : args.exactValues = .bool b)
    {name model fArg pArg sc an} (hres : UK.resolveModel env args.variogramModel
      args.variogramFunction args.params args.anisotropyScaling args.anisotropyAngle = .ok (name, model, fArg, pArg, sc, an))
    {f nm} (hf : chooseFunction name fArg = .ok (f, nm))
    {vp} (hp : makeVariogramParameterList name pArg = .ok vp)
    (hi : DeterminedNan env 2 "euclidean" (fun i j => ukDistance args (x i, y i) (x j, y j)) z name vp f args.nlags
      args.weight true args.pseudoInv)
    (h1 : ∃ e, setupExternalZ x y args = .ok e) (h2 : "point_log" ∈ args.driftTerms → args.pointDrift ≠ none ∧ args.pointDriftInt = false)
    (h3 : ∃ e, setupSpecifiedTerm n args.driftTerms args.specifiedDrift = .ok e)
    (h4 : ∃ e, setupFunctionalTerm args.driftTerms args.functionalDrift = .ok e) :
    ∃ s, NanUK.create env x y z args = .ok s ∧ s.obj.variogramFunction = f := by
  obtain ⟨xc, hx⟩ := midrange_exists (show 0 < n by omega) x
  obtain ⟨yc, hy⟩ := midrange_exists (show 0 < n by omega) y
  obtain ⟨rfl, rfl, -⟩ := UK.resolveModel_eff hres
  obtain ⟨lags, ps, hi1, hi2⟩ := hi _ (adj2_pairDistance x y xc yc _ _)
  obtain ⟨st, hst⟩ := hi2 rfl
  obtain ⟨ext, h1⟩ := h1
  obtain ⟨spec, h3⟩ := h3
  obtain ⟨func, h4⟩ := h4
  obtain ⟨plog, h2⟩ : ∃ e, setupPointLog xc yc (effScaling args.variogramModel args.anisotropyScaling)
      (effAngle args.variogramModel args.anisotropyAngle) args = .ok e := by
    unfold setupPointLog
    split
    · next ht =>
      cases hw : args.pointDrift with
      | none => exact absurd hw (h2 ht).1
      | some w => exact ⟨_, if_neg (by rw [(h2 ht).2]; decide)⟩
    · exact ⟨_, rfl⟩
  unfold NanUK.create
  rw [if_neg (not_not.2 hpt), hex]
  simp only [py_pure, py_ok_bind, hres, hf, hx, hy, hp, hi1, hst, h1, h2, h3, h4]
  exact ⟨_, rfl, rfl⟩

theorem NanUK3D.create_of {n : ℕ} {env : Env} {x y z : Fin n → ℝ} {v : Fin n → Option ℝ} {args : UK3DArgs} (hn : 2 ≤ n)
    (hpt : args.pseudoInvType ∈ ["pinv", "pinvh"]) {b : Bool} (hex : args.exactValues = .bool b)
    {name model fArg pArg an} (hres : OK3D.resolveModel env args.variogramModel
      args.variogramFunction args.params args.aniso = .ok (name, model, fArg, pArg, an))
    {f nm} (hf : chooseFunction name fArg = .ok (f, nm))
    {vp} (hp : makeVariogramParameterList name pArg = .ok vp)
    (hi : DeterminedNan env 3 "euclidean" (fun i j => uk3Distance args (x i, y i, z i) (x j, y j, z j)) v name vp f
      args.nlags args.weight true args.pseudoInv)
    (h3 : ∃ e, setupSpecifiedTerm n args.driftTerms args.specifiedDrift = .ok e)
    (h4 : ∃ e, setupFunctionalTerm args.driftTerms args.functionalDrift = .ok e) :
    ∃ s, NanUK3D.create env x y z v args = .ok s ∧ s.obj.variogramFunction = f := by
  obtain ⟨xc, hx⟩ := midrange_exists (show 0 < n by omega) x
  obtain ⟨yc, hy⟩ := midrange_exists (show 0 < n by omega) y
  obtain ⟨zc, hz⟩ := midrange_exists (show 0 < n by omega) z
  obtain ⟨rfl, -⟩ := OK3D.resolveModel_eff hres
  obtain ⟨lags, ps, hi1, hi2⟩ := hi _ (adj3_pairDistance x y z xc yc zc _)
  obtain ⟨st, hst⟩ := hi2 rfl
  obtain ⟨spec, h3⟩ := h3
  obtain ⟨func, h4⟩ := h4
  unfold NanUK3D.create
  rw [if_neg (not_not.2 hpt), hex]
  simp only [py_pure, py_ok_bind, hres, hf, hx, hy, hz, hp, hi1, hst, h3, h4]
  exact ⟨_, rfl, rfl⟩

end
end PyKrige
