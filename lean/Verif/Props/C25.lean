import Verif.Lemmas.Update
import Verif.Lemmas.UKValid
import Verif.Lemmas.ArgDist
import Verif.Model.History
import Verif.Examples.Demo

/-! # C25: `update_variogram_model` is equivalent to constructing afresh

After any history of calls (updates that succeed or raise, executes that succeed or raise), if an update
succeeds the object answers every later sequence of calls exactly like an object newly constructed from the
original data with the settings of that update (`args.withUpdate u`, `Spec/Update.lean`); and an update is
accepted whenever the constructor accepts those settings.

For `UniversalKriging` this fails when the "point_log" drift is used and the anisotropy changes, because the wells
are not re-adjusted: `C25_uk_wells_wrong`.  Without wells, or with unchanged anisotropy, it holds:
`C25_uk_partial`. -/

namespace PyKrige
noncomputable section
open Spec

theorem runCalls_inv {σ U A : Type} {upd : σ → U → Py Unit × σ} {exe : σ → A → Py ExecResult} (P : σ → Prop)
    (h : ∀ s u, P s → P (upd s u).2) (l : List (Call U A)) (s : σ) (hs : P s) : P (runCalls upd exe s l).2 := by
  induction l generalizing s with
  | nil => exact hs
  | cons c l ih =>
    cases c with
    | update u => exact ih _ (h s u hs)
    | execute a => exact ih _ hs

theorem runCalls_sim {σ U A : Type} {upd : σ → U → Py Unit × σ} {exe : σ → A → Py ExecResult}
    (R : σ → σ → Prop) (hu : ∀ s t u, R s t → (upd s u).1 = (upd t u).1 ∧ R (upd s u).2 (upd t u).2)
    (he : ∀ s t a, R s t → exe s a = exe t a) (l : List (Call U A)) (s t : σ) (h : R s t) :
    (runCalls upd exe s l).1 = (runCalls upd exe t l).1 := by
  induction l generalizing s t with
  | nil => rfl
  | cons c l ih =>
    cases c with
    | update u =>
      obtain ⟨h1, h2⟩ := hu s t u h
      simp only [runCalls]
      rw [h1, ih _ _ h2]
    | execute a =>
      simp only [runCalls]
      rw [he s t a h, ih _ _ h]

/-! ### `OrdinaryKriging`: the stored statistics influence nothing -/

theorem OK.reAniso_stats {n : ℕ} (s : OK n) (st : Option Stats) (sc an : ℝ) :
    ({ s with stats := st } : OK n).reAniso sc an = { s.reAniso sc an with stats := st } := by
  unfold OK.reAniso
  dsimp only
  split_ifs <;> rfl

theorem OK.update_stats {n : ℕ} (env : Env) (s : OK n) (st : Option Stats) (u : OKUpdate) :
    (OK.update env { s with stats := st } u).1 = (OK.update env s u).1 ∧
    ∃ st', (OK.update env { s with stats := st } u).2 = { (OK.update env s u).2 with stats := st' } := by
  unfold OK.update
  dsimp only
  split
  · split <;> exact ⟨rfl, st, rfl⟩
  · next name model fArg pArg scaling angle hr =>
    split
    · exact ⟨rfl, st, rfl⟩
    · next f fname hf =>
      have e := OK.reAniso_stats ({ s with
        variogramModel := .name name, model := model, variogramFunction := f, functionName := fname } : OK n) st
        scaling angle
      dsimp only at e
      rw [e]
      clear e
      generalize OK.reAniso _ scaling angle = s1
      split
      · exact ⟨rfl, st, rfl⟩
      · have e2 : ({ s1 with stats := st } : OK n).pts = s1.pts := rfl
        rw [e2]
        dsimp only
        split
        · exact ⟨rfl, st, rfl⟩
        · next lags ps hi =>
          have e3 : ({ s1 with
              lags := lags, params := ps, paramsInt := intParams pArg ps u.paramsAllInt, stats := st } : OK n).pts =
            ({ s1 with
              lags := lags, params := ps, paramsInt := intParams pArg ps u.paramsAllInt } : OK n).pts := rfl
          rw [e3]
          split
          · exact ⟨rfl, st, rfl⟩
          · next st2 hs => exact ⟨rfl, some st2, rfl⟩

theorem OK.execute_stats {n : ℕ} (env : Env) (s : OK n) (st : Option Stats) (a : ExecArgs) :
    OK.execute env { s with stats := st } a = OK.execute env s a := rfl


/-! ### OK -/

/-- Whatever happened to the object before, once an update succeeds it behaves in every sequence of later calls
like one newly constructed with the settings of that update. -/
theorem C25_ok {n : ℕ} {env : Env} {x y z : Fin n → ℝ} {args : OKArgs} {s s' : OK n}
    (h : OK.create env x y z args = .ok s) (before : List (Call OKUpdate ExecArgs)) {u : OKUpdate}
    (hu : OK.update env (s.run env before).2 u = (.ok (), s')) :
    ∃ fresh, OK.create env x y z (args.withUpdate u) = .ok fresh ∧
      ∀ later, (s'.run env later).1 = (fresh.run env later).1 := by
  have hk : (s.run env before).2.Keeps x y z args :=
    runCalls_inv (fun s => OK.Keeps x y z args s) (fun _ u hs => OK.update_keeps hs u) before s (OK.create_keeps h)
  refine ⟨_, OK.update_fresh hk hu, fun later => ?_⟩
  refine runCalls_sim (fun s t => ∃ st, t = { s with stats := st }) ?_ ?_ later _ _ ⟨_, rfl⟩
  · rintro s t u ⟨st, rfl⟩
    obtain ⟨h1, h2⟩ := OK.update_stats env s st u
    exact ⟨h1.symm, h2⟩
  · rintro s t a ⟨st, rfl⟩
    rfl

/-- Conversely the update is accepted if the constructor accepts its settings (with the statistics enabled, since
`update_variogram_model` always computes them). -/
theorem C25_ok_accepts {n : ℕ} {env : Env} {x y z : Fin n → ℝ} {args : OKArgs} {s t : OK n}
    (h : OK.create env x y z args = .ok s) (before : List (Call OKUpdate ExecArgs)) {u : OKUpdate}
    (hc : OK.create env x y z { args.withUpdate u with enableStatistics := true } = .ok t) :
    ∃ s', OK.update env (s.run env before).2 u = (.ok (), s') :=
  OK.update_accepts (runCalls_inv (fun s => OK.Keeps x y z args s) (fun _ u hs => OK.update_keeps hs u) before s
    (OK.create_keeps h)) hc

/-! ### OK3D -/

/-- Whatever happened to the object before, once an update succeeds it is an object newly constructed with the
settings of that update, and so behaves in every sequence of later calls. -/
theorem C25_ok3d {n : ℕ} {env : Env} {x y z v : Fin n → ℝ} {args : OK3DArgs} {s s' : OK3D n}
    (h : OK3D.create env x y z v args = .ok s) (before : List (Call Update3D ExecArgs3)) {u : Update3D}
    (hu : OK3D.update env (s.run env before).2 u = (.ok (), s')) :
    ∃ fresh, OK3D.create env x y z v (args.withUpdate u) = .ok fresh ∧
      ∀ later, (s'.run env later).1 = (fresh.run env later).1 :=
  ⟨s', OK3D.update_fresh (runCalls_inv (fun s => OK3D.Keeps x y z v args s) (fun _ u hs => OK3D.update_keeps hs u)
    before s (OK3D.create_keeps h)) hu, fun _ => rfl⟩

/-- Conversely the update is accepted if the constructor accepts its settings. -/
theorem C25_ok3d_accepts {n : ℕ} {env : Env} {x y z v : Fin n → ℝ} {args : OK3DArgs} {s t : OK3D n}
    (h : OK3D.create env x y z v args = .ok s) (before : List (Call Update3D ExecArgs3)) {u : Update3D}
    (hc : OK3D.create env x y z v (args.withUpdate u) = .ok t) :
    ∃ s', OK3D.update env (s.run env before).2 u = (.ok (), s') :=
  OK3D.update_accepts (runCalls_inv (fun s => OK3D.Keeps x y z v args s) (fun _ u hs => OK3D.update_keeps hs u) before s
    (OK3D.create_keeps h)) hc

/-! ### UK -/

/-- The same for universal kriging, if no wells are used or the anisotropy in use stays that of the constructor.
Missing: wells together with a changed anisotropy, for which the claim is false (`C25_uk_wells_wrong`). -/
theorem C25_uk_partial {n : ℕ} {env : Env} {x y z : Fin n → ℝ} {args : UKArgs} {s s' : UK n}
    (h : UK.create env x y z args = .ok s) (before : List (Call OKUpdate UKExecArgs)) {u : OKUpdate}
    (hw : "point_log" ∉ args.driftTerms ∨
      effScaling u.variogramModel u.anisotropyScaling = effScaling args.variogramModel args.anisotropyScaling ∧
      effAngle u.variogramModel u.anisotropyAngle = effAngle args.variogramModel args.anisotropyAngle)
    (hu : UK.update env (s.run env before).2 u = (.ok (), s')) :
    ∃ fresh, UK.create env x y z (args.withUpdate u) = .ok fresh ∧
      ∀ later, (s'.run env later).1 = (fresh.run env later).1 := by
  obtain ⟨sc₀, an₀, ⟨name, model, fArg, pArg, hr⟩, hk₀⟩ := UK.create_keeps h
  have hk : (s.run env before).2.Keeps sc₀ an₀ x y z args :=
    runCalls_inv (fun s => UK.Keeps sc₀ an₀ x y z args s) (fun _ u hs => UK.update_keeps hs u) before s hk₀
  obtain ⟨plog, hpl, ⟨name', model', fArg', pArg', hr'⟩, hc⟩ := UK.update_fresh hk hu
  have hk' : s'.Keeps sc₀ an₀ x y z args := by
    have := UK.update_keeps (env := env) hk u
    rw [hu] at this
    exact this
  have e : plog = s'.pointLog := by
    have hpl' := hk'.wells
    rcases hw with hw | ⟨h1, h2⟩
    · unfold setupPointLog at hpl hpl'
      rw [if_neg hw] at hpl hpl'
      exact Except.ok.inj (hpl.symm.trans hpl')
    · obtain ⟨a1, a2, -⟩ := UK.resolveModel_eff hr
      obtain ⟨b1, b2, -⟩ := UK.resolveModel_eff hr'
      rw [b1, b2, h1, h2, ← a1, ← a2] at hpl
      exact Except.ok.inj (hpl.symm.trans hpl')
  subst e
  exact ⟨s', hc, fun _ => rfl⟩

/-- The update is accepted if the constructor accepts its settings. -/
theorem C25_uk_accepts {n : ℕ} {env : Env} {x y z : Fin n → ℝ} {args : UKArgs} {s t : UK n}
    (h : UK.create env x y z args = .ok s) (before : List (Call OKUpdate UKExecArgs)) {u : OKUpdate}
    (hc : UK.create env x y z (args.withUpdate u) = .ok t) :
    ∃ s', UK.update env (s.run env before).2 u = (.ok (), s') := by
  obtain ⟨sc₀, an₀, -, hk⟩ := UK.create_keeps h
  exact UK.update_accepts (runCalls_inv (fun s => UK.Keeps sc₀ an₀ x y z args s)
    (fun _ u hs => UK.update_keeps hs u) before s hk) hc

/-! ### UK3D -/

/-- Whatever happened to the object before, once an update succeeds it is an object newly constructed with the
settings of that update, and so behaves in every sequence of later calls. -/
theorem C25_uk3d {n : ℕ} {env : Env} {x y z v : Fin n → ℝ} {args : UK3DArgs} {s s' : UK3D n}
    (h : UK3D.create env x y z v args = .ok s) (before : List (Call Update3D UK3DExecArgs)) {u : Update3D}
    (hu : UK3D.update env (s.run env before).2 u = (.ok (), s')) :
    ∃ fresh, UK3D.create env x y z v (args.withUpdate u) = .ok fresh ∧
      ∀ later, (s'.run env later).1 = (fresh.run env later).1 :=
  ⟨s', UK3D.update_fresh (runCalls_inv (fun s => UK3D.Keeps x y z v args s) (fun _ u hs => UK3D.update_keeps hs u)
    before s (UK3D.create_keeps h)) hu, fun _ => rfl⟩

/-- Conversely the update is accepted if the constructor accepts its settings. -/
theorem C25_uk3d_accepts {n : ℕ} {env : Env} {x y z v : Fin n → ℝ} {args : UK3DArgs} {s t : UK3D n}
    (h : UK3D.create env x y z v args = .ok s) (before : List (Call Update3D UK3DExecArgs)) {u : Update3D}
    (hc : UK3D.create env x y z v (args.withUpdate u) = .ok t) :
    ∃ s', UK3D.update env (s.run env before).2 u = (.ok (), s') :=
  UK3D.update_accepts (runCalls_inv (fun s => UK3D.Keeps x y z v args s) (fun _ u hs => UK3D.update_keeps hs u) before s
    (UK3D.create_keeps h)) hc

/-! ### Wells are left behind -/

namespace Demo

/-- One injection well at `(0, 1)`, anisotropy scaling `sc`. -/
def wargs (sc : ℝ) : UKArgs :=
  { params := .list [1, 0], driftTerms := ["point_log"], pointDrift := some [(0, 1, -1)], anisotropyScaling := sc }

theorem adjust_sc (sc a b : ℝ) : adjust2 ![1 / 2, 0] sc 0 ![a, b] = ![a, sc * b] := by
  have e0 : adjust2 ![1 / 2, 0] sc 0 ![a, b] 0 = a := by
    simp [adjust2, dotProduct, Fin.sum_univ_two, mul_comm, -one_div]
  have e1 : adjust2 ![1 / 2, 0] sc 0 ![a, b] 1 = sc * b := by
    simp [adjust2, dotProduct, Fin.sum_univ_two, mul_comm, -one_div]
  funext k
  fin_cases k
  · exact e0
  · exact e1

theorem wuk (sc : ℝ) (z : Fin 2 → ℝ) : ∃ s, UK.create stdEnv X O z (wargs sc) = .ok s ∧ s.params = [1, 0] ∧
    s.variogramFunction = linearVariogramModel ∧ s.anisotropyScaling = sc ∧ s.anisotropyAngle = 0 ∧
    s.regionalLinear = false ∧ s.pointLog = some [(0, sc, -1)] ∧
    s.externalZ = none ∧ s.specified = none ∧ s.functional = none ∧ s.XCENTER = 1 / 2 ∧ s.YCENTER = 0 ∧
    s.X_ADJUSTED = X ∧ s.Y_ADJUSTED = O := by
  obtain ⟨ev, h2⟩ := expVar_ok (adjustData2 X O (1 / 2) 0 sc 0) z 6
  obtain ⟨st, h3⟩ := stats_ok (adjustData2 X O (1 / 2) 0 sc 0) z (vario 0) false
  have e : adjustData2 X O (1 / 2) 0 sc 0 = fun i => ![X i, O i] := by
    funext i
    simp only [adjustData2, adjust_sc]
    fin_cases i <;> simp [O]
  have hp : setupPointLog (1 / 2) 0 sc 0 (wargs sc) = .ok (some [(0, sc, -1)]) := by
    simp only [setupPointLog, wargs, List.mem_singleton, if_true, List.map_cons, List.map_nil]
    rw [adjust_sc]
    simp
  rw [e] at h2 h3
  unfold wargs at hp
  unfold UK.create wargs
  simp [UK.resolveModel, chooseFunction, variogramDict, midrange_X,
    midrange_O, makeVariogramParameterList, initializeVariogramModel, h2, h3, variogramFunctionName,
    setupExternalZ, setupSpecifiedTerm, setupFunctionalTerm, hp, e, -one_div]

/-- Two data and one drift term with different values at them: the estimate is the linear interpolation in the
drift value. -/
theorem interpolation {G : Fin 2 → Fin 2 → ℝ} {L : ℕ} {F : Fin L → Fin 2 → ℝ} (hL : L = 1) {f0 f1 q : ℝ}
    (hF : ∀ l, F l = ![f0, f1]) (hne : f0 ≠ f1) :
    Regular G F ∧ ∀ z g f ps, (∀ l, f l = q) →
      (krigAnswer ps G F z g f).1 * (f1 - f0) = z 0 * (f1 - q) + z 1 * (q - f0) := by
  subst hL
  have hreg : Regular G F := by
    intro w ν μ h
    have e0 := h.stationary 0
    have e1 := h.stationary 1
    have e2 := h.unbiased
    have e3 := h.drift 0
    simp only [Fin.sum_univ_two, Finset.univ_unique, Fin.default_eq_zero, Finset.sum_singleton, hF,
      Matrix.cons_val_zero, Matrix.cons_val_one, Pi.zero_apply] at e0 e1 e2 e3
    have hs : f1 - f0 ≠ 0 := sub_ne_zero.2 hne.symm
    have w1 : w 1 = 0 := by
      have : w 1 * (f1 - f0) = 0 := by linear_combination e3 - f0 * e2
      exact (mul_eq_zero.1 this).resolve_right hs
    have w0 : w 0 = 0 := by rw [w1] at e2; linarith
    rw [w0, w1] at e0 e1
    have hν : ν 0 = 0 := by
      have : ν 0 * (f1 - f0) = 0 := by linear_combination e0 - e1
      exact (mul_eq_zero.1 this).resolve_right hs
    have hμ : μ = 0 := by rw [hν] at e0; linarith
    refine ⟨?_, ?_, hμ⟩
    · funext i; fin_cases i; exacts [w0, w1]
    · funext i; fin_cases i; exact hν
  refine ⟨hreg, fun z g f ps hf => ?_⟩
  rw [krigAnswer_of_regular hreg]
  obtain ⟨w, ν, μ, h, e⟩ := krigAnswer_spec hreg z g f
  rw [e]
  have e2 := h.unbiased
  have e3 := h.drift 0
  simp only [Fin.sum_univ_two, hF, Matrix.cons_val_zero, Matrix.cons_val_one, hf] at e2 e3
  simp only [estimate, Fin.sum_univ_two]
  linear_combination (z 0 * f1 - z 1 * f0) * e2 + (z 1 - z 0) * e3

theorem well_run {s : UK 2} (ht : s.pseudoInvType ∈ ["pinv", "pinvh"]) (hp : s.params = [1, 0])
    (hv : s.variogramFunction = linearVariogramModel) (hrl : s.regionalLinear = false) {wy : ℝ}
    (hpl : s.pointLog = some [(0, wy, -1)]) (hez : s.externalZ = none) (hsp : s.specified = none)
    (hfu : s.functional = none) (hX : s.X_ADJUSTED = X) (hY : s.Y_ADJUSTED = O)
    (hne : logDist 0 0 0 wy ≠ logDist 1 0 0 wy) (p : ℝ × ℝ) {a : ℝ} (hadj : s.adjustPoint p = ![0, a]) :
    ∃ r v, s.execute { toExec := pts [p] "vectorized" } = .ok r ∧ r.z = [some v] ∧
      v * (logDist 1 0 0 wy - logDist 0 0 0 wy) =
        s.Z 0 * (logDist 1 0 0 wy - logDist 0 a 0 wy) + s.Z 1 * (logDist 0 a 0 wy - logDist 0 0 0 wy) := by
  have hγ : s.variogramFunction s.params = .ok fun d => d + 0 := by rw [hv, hp, vario]
  have hdd : s.driftData = [![logDist 0 0 0 wy, logDist 1 0 0 wy]] := by
    simp only [UK.driftData, hrl, hpl, hez, hsp, hfu, hX, hY]
    simp only [Bool.false_eq_true, if_false, Option.getD_some, Option.getD_none, List.map_cons, List.map_nil,
      List.nil_append, List.append_nil, List.cons.injEq, and_true]
    funext k
    fin_cases k <;> simp [X, O]
  have hF : ∀ l, s.F l = ![logDist 0 0 0 wy, logDist 1 0 0 wy] := by
    intro l
    have : s.F l ∈ s.driftData := List.get_mem _ _
    rw [hdd] at this
    simpa using this
  obtain ⟨hreg, hval⟩ := interpolation (G := s.G fun d => d + 0) (q := logDist 0 a 0 wy) (by rw [hdd]; rfl) hF hne
  have hg : s.specGrids { toExec := pts [p] "vectorized" } = .ok [] := by simp [UK.specGrids, hsp]
  have hpw := UK.pointwise ht { toExec := pts [p] "vectorized" }
  have hgam : s.gam = fun d => d + 0 := UK.gam_eq hγ
  have hext : s.extP p = .ok 0 := by simp [UK.extP, hez]
  have hrun : ∃ r, s.execute { toExec := pts [p] "vectorized" } = .ok r := by
    refine hpw.ok_iff.2 ⟨⟨by simp [pts], ⟨_, hγ⟩, ⟨_, queryPoints_pts _ _⟩, ⟨_, hg⟩,
      by simp [pts], .inl rfl, Or.inr ?_⟩, ?_⟩
    · rw [hgam]; exact hreg
    · intro j q _ _
      exact ⟨⟨0, by simp [UK.extP, hez]⟩, fun hb => by simp [pts] at hb⟩
  obtain ⟨r, hr⟩ := hrun
  have ht := hpw.table r hr
  have hq : queryAt (pts [p] "vectorized") 0 = some p := by simp [queryAt, pts]
  have h0 := ht.at_point hq (by simp [maskedAt, pts])
  refine ⟨r, (s.ans { toExec := pts [p] "vectorized" } 0 p).1, hr, ?_, ?_⟩
  · apply List.ext_getElem?
    intro j
    match j with
    | 0 => rw [h0.1]; rfl
    | j + 1 =>
      rw [ht.z_eq]
      simp [queryAt, pts]
  · unfold UK.ans
    rw [hgam, UK.extVal_eq hext]
    unfold UK.answer
    refine hval _ _ _ _ fun l => ?_
    have hlen : s.driftData.length = 1 := by rw [hdd]; rfl
    have hl : l.val = 0 := by have := l.2; omega
    unfold UK.f
    rw [hl]
    simp [UK.driftAt, hrl, hpl, hez, hsp, hfu, hadj]

end Demo

/-- The claim fails for wells: data at `(0, 0)`, `(1, 0)`, a well at `(0, 1)`; after changing the anisotropy scaling
from 1 to 2 the object predicts something else than a newly constructed one does. -/
theorem C25_uk_wells_wrong : ∃ (s s' fresh : UK 2) (u : OKUpdate) (a : UKExecArgs) (r r' : ExecResult),
    UK.create stdEnv Demo.X Demo.O Demo.X (Demo.wargs 1) = .ok s ∧ UK.update stdEnv s u = (.ok (), s') ∧
    UK.create stdEnv Demo.X Demo.O Demo.X ((Demo.wargs 1).withUpdate u) = .ok fresh ∧
    s'.execute a = .ok r ∧ fresh.execute a = .ok r' ∧ r ≠ r' := by
  obtain ⟨s, h, hp, hv, hsc, han, hrl, hpl, hez, hsp, hfu, hxc, hyc, hX, hY⟩ := Demo.wuk 1 Demo.X
  obtain ⟨t, h', hp', hv', hsc', han', hrl', hpl', hez', hsp', hfu', hxc', hyc', hX', hY'⟩ := Demo.wuk 2 Demo.X
  let u : OKUpdate := { variogramModel := .name "linear", params := .list [1, 0], anisotropyScaling := 2 }
  have hw : (Demo.wargs 1).withUpdate u = Demo.wargs 2 := rfl
  obtain ⟨s', hu⟩ := C25_uk_accepts h [] (u := u) (by rw [hw]; exact h')
  have hu : UK.update stdEnv s u = (.ok (), s') := hu
  obtain ⟨sc₀, an₀, ⟨name, model, fArg, pArg, hr⟩, hk⟩ := UK.create_keeps h
  obtain ⟨b1, b2, -⟩ := UK.resolveModel_eff hr
  obtain ⟨plog, -, -, hc⟩ := UK.update_fresh hk hu
  rw [hw] at hc
  have e := Except.ok.inj (hc.symm.trans h')
  have hk' : s'.Keeps sc₀ an₀ Demo.X Demo.O Demo.X (Demo.wargs 1) := by
    have := UK.update_keeps (env := stdEnv) hk u
    rw [hu] at this
    exact this
  have hwl : s'.pointLog = some [(0, 1, -1)] := by
    have e1 := hk'.wells
    have e2 := hk.wells
    have ex : s'.XCENTER = s.XCENTER := Except.ok.inj (hk'.xc.symm.trans hk.xc)
    have ey : s'.YCENTER = s.YCENTER := Except.ok.inj (hk'.yc.symm.trans hk.yc)
    rw [ex, ey] at e1
    rw [← hpl]
    exact Except.ok.inj (e1.symm.trans e2)
  have ez : s'.Z = Demo.X := hk'.V
  have ez' : t.Z = Demo.X := (UK.create_fields h').2.2.2.2.2.2
  have f1 : s'.params = t.params := by rw [← e]
  have f2 : s'.variogramFunction = t.variogramFunction := by rw [← e]
  have f3 : s'.regionalLinear = t.regionalLinear := by rw [← e]
  have f4 : s'.externalZ = t.externalZ := by rw [← e]
  have f5 : s'.specified = t.specified := by rw [← e]
  have f6 : s'.functional = t.functional := by rw [← e]
  have f7 : s'.X_ADJUSTED = t.X_ADJUSTED := by rw [← e]
  have f8 : s'.Y_ADJUSTED = t.Y_ADJUSTED := by rw [← e]
  have f9 : s'.XCENTER = t.XCENTER := by rw [← e]
  have f10 : s'.YCENTER = t.YCENTER := by rw [← e]
  have f11 : s'.anisotropyScaling = t.anisotropyScaling := by rw [← e]
  have f12 : s'.anisotropyAngle = t.anisotropyAngle := by rw [← e]
  have f13 : s'.pseudoInvType = t.pseudoInvType := by rw [← e]
  have hadj : ∀ o : UK 2, o.XCENTER = t.XCENTER → o.YCENTER = t.YCENTER →
      o.anisotropyScaling = t.anisotropyScaling → o.anisotropyAngle = t.anisotropyAngle →
      o.adjustPoint (0, 2) = ![0, 4] := by
    intro o h1 h2 h3 h4
    rw [UK.adjustPoint, h1, h2, h3, h4, hxc', hyc', hsc', han', Demo.adjust_sc]
    norm_num
  have hpt : t.pseudoInvType ∈ ["pinv", "pinvh"] := by
    have hf := UK.create_fields h'
    rw [hf.2.2.2.1]; exact hf.1
  have l5 : logDist 1 0 0 2 = Real.log (Real.sqrt 5) := by
    unfold logDist
    norm_num
  have l2 : logDist 0 0 0 2 = Real.log 2 := by
    unfold logDist
    have : Real.sqrt ((0 - 0) ^ 2 + (0 - 2) ^ 2) = 2 := by
      rw [Real.sqrt_eq_iff_mul_self_eq (by norm_num) (by norm_num)]; norm_num
    simp only [this]
    norm_num
  have l2' : logDist 0 4 0 2 = Real.log 2 := by
    unfold logDist
    have : Real.sqrt ((0 - 0) ^ 2 + (4 - 2) ^ 2) = 2 := by
      rw [Real.sqrt_eq_iff_mul_self_eq (by norm_num) (by norm_num)]; norm_num
    simp only [this]
    norm_num
  have m0 : logDist 0 0 0 1 = 0 := by
    unfold logDist
    norm_num
  have m1 : logDist 1 0 0 1 = Real.log (Real.sqrt 2) := by
    unfold logDist
    norm_num
  have m2 : logDist 0 4 0 1 = Real.log 3 := by
    unfold logDist
    have : Real.sqrt ((0 - 0) ^ 2 + (4 - 1) ^ 2) = 3 := by
      rw [Real.sqrt_eq_iff_mul_self_eq (by norm_num) (by norm_num)]; norm_num
    simp only [this]
    norm_num
  have s25 : (2 : ℝ) < Real.sqrt 5 := by
    rw [Real.lt_sqrt (by norm_num)]; norm_num
  have n1 : Real.log 2 < Real.log (Real.sqrt 5) := Real.log_lt_log (by norm_num) s25
  have n2 : 0 < Real.log (Real.sqrt 2) := Real.log_pos (by rw [Real.lt_sqrt (by norm_num)]; norm_num)
  have n3 : 0 < Real.log 3 := Real.log_pos (by norm_num)
  obtain ⟨r, v, hr, hz, hv1⟩ := Demo.well_run (s := s') (by rw [f13]; exact hpt) (f1.trans hp') (f2.trans hv')
    (f3.trans hrl') hwl (f4.trans hez') (f5.trans hsp') (f6.trans hfu') (f7.trans hX') (f8.trans hY')
    (by rw [m0, m1]; exact n2.ne) (0, 2) (hadj s' f9 f10 f11 f12)
  obtain ⟨r', v', hr', hz', hv1'⟩ := Demo.well_run (s := t) hpt hp' hv' hrl' hpl' hez' hsp' hfu' hX' hY'
    (by rw [l2, l5]; exact n1.ne) (0, 2) (hadj t rfl rfl rfl rfl)
  refine ⟨s, s', t, u, _, r, r', h, hu, by rw [hw]; exact h', hr, hr', ?_⟩
  rintro rfl
  have : v = v' := by
    rw [hz] at hz'
    simpa using hz'
  subst this
  rw [ez] at hv1
  rw [ez'] at hv1'
  simp only [Demo.X, Matrix.cons_val_zero, Matrix.cons_val_one, m0, m1, m2, l2, l2', l5] at hv1 hv1'
  have hv0 : v = 0 := by
    have : v * (Real.log (Real.sqrt 5) - Real.log 2) = 0 := by linarith
    exact (mul_eq_zero.1 this).resolve_right (sub_pos.2 n1).ne'
  rw [hv0] at hv1
  linarith

/-! ### The hypotheses are met -/

namespace Demo

/-- Change the nugget to `c`. -/
def nugget (c : ℝ) : OKUpdate := { variogramModel := .name "linear", params := .list [1, c] }
def nugget3 (c : ℝ) : Update3D := { variogramModel := .name "linear", params := .list [1, c] }

theorem ok_stats (z : Fin 2 → ℝ) (c : ℝ) (exact pseudo : Bool) : ∃ s,
    OK.create stdEnv X O z { args c exact pseudo with enableStatistics := true } = .ok s := by
  obtain ⟨ev, h2⟩ := expVar_ok (adjustData2 X O (1 / 2) 0 1 0) z 6
  obtain ⟨st, h3⟩ := stats_ok (adjustData2 X O (1 / 2) 0 1 0) z (vario c) pseudo
  simp only [one_div] at h2 h3
  simp [OK.create, args, OK.resolveModel, chooseFunction, variogramDict, OK.setupCoordinates, midrange_X,
    midrange_O, makeVariogramParameterList, initializeVariogramModel, h2, h3, variogramFunctionName, intParams]

end Demo

/-- After an update that raises (gaussian needs three parameters), an update that succeeds, and an execute, a further
update succeeds. -/
example : ∃ s s' : OK 2, OK.create stdEnv Demo.X Demo.O ![3, 5] (Demo.args 1 true false) = .ok s ∧
    OK.update stdEnv (s.run stdEnv [.update { variogramModel := .name "gaussian", params := .list [1] },
      .update (Demo.nugget 7), .execute (Demo.pts [(1, 2)] "loop")]).2 (Demo.nugget 2) = (.ok (), s') := by
  obtain ⟨s, h, -⟩ := Demo.ok ![3, 5] 1 true false
  obtain ⟨t, h'⟩ := Demo.ok_stats ![3, 5] 2 true false
  obtain ⟨s', hu⟩ := C25_ok_accepts h [.update { variogramModel := .name "gaussian", params := .list [1] },
    .update (Demo.nugget 7), .execute (Demo.pts [(1, 2)] "loop")] (u := Demo.nugget 2) h'
  exact ⟨s, s', h, hu⟩

example : ∃ s s' : OK3D 2, OK3D.create stdEnv Demo.X Demo.O Demo.O ![3, 5] (Demo.args3 1 true false) = .ok s ∧
    OK3D.update stdEnv (s.run stdEnv [.update (Demo.nugget3 7), .execute (Demo.pts3 [(1, 2, 3)] "loop")]).2
      (Demo.nugget3 2) = (.ok (), s') := by
  obtain ⟨s, h, -⟩ := Demo.ok3 ![3, 5] 1 true false
  obtain ⟨t, h', -⟩ := Demo.ok3 ![3, 5] 2 true false
  obtain ⟨s', hu⟩ := C25_ok3d_accepts h _ (u := Demo.nugget3 2) h'
  exact ⟨s, s', h, hu⟩

example : ∃ s s' : UK 2, UK.create stdEnv Demo.X Demo.O ![3, 5] (Demo.uargs 1 true false) = .ok s ∧
    "point_log" ∉ (Demo.uargs 1 true false).driftTerms ∧
    UK.update stdEnv (s.run stdEnv [.update (Demo.nugget 7)]).2 (Demo.nugget 2) = (.ok (), s') := by
  obtain ⟨s, h, -⟩ := Demo.uk ![3, 5] 1 true false
  obtain ⟨t, h', -⟩ := Demo.uk ![3, 5] 2 true false
  obtain ⟨s', hu⟩ := C25_uk_accepts h _ (u := Demo.nugget 2) h'
  exact ⟨s, s', h, by simp [Demo.uargs], hu⟩

example : ∃ s s' : UK3D 2, UK3D.create stdEnv Demo.X Demo.O Demo.O ![3, 5] (Demo.uargs3 1 true false) = .ok s ∧
    UK3D.update stdEnv (s.run stdEnv [.update (Demo.nugget3 7)]).2 (Demo.nugget3 2) = (.ok (), s') := by
  obtain ⟨s, h, -⟩ := Demo.uk3 ![3, 5] 1 true false
  obtain ⟨t, h', -⟩ := Demo.uk3 ![3, 5] 2 true false
  obtain ⟨s', hu⟩ := C25_uk3d_accepts h _ (u := Demo.nugget3 2) h'
  exact ⟨s, s', h, hu⟩

end
end PyKrige
