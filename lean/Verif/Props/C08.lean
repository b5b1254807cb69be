import Verif.Lemmas.Reparam
import Verif.Examples.Demo

/-!
# C08: rescaling the variogram rescales only the variance
-/

set_option linter.unusedSectionVars false

namespace PyKrige
noncomputable section
open Matrix Spec

/-- `(fA', ps')` describes `c` times the variogram described by `(fA, ps)`: slope/scale/sill and nugget
times `c`, range and exponent unchanged; for model 'custom' a callable with `c` times the values. -/
inductive Spec.Rescaled (c : ℝ) : String → FunArg × List ℝ → FunArg × List ℝ → Prop
  | linear (fA : FunArg) (slope nugget : ℝ) :
      Rescaled c "linear" (fA, [slope, nugget]) (fA, [c * slope, c * nugget])
  | power (fA : FunArg) (scale exponent nugget : ℝ) :
      Rescaled c "power" (fA, [scale, exponent, nugget]) (fA, [c * scale, exponent, c * nugget])
  | sill (m : String) (hm : m ∈ ["gaussian", "exponential", "spherical", "hole-effect"]) (fA : FunArg)
      (sill range nugget : ℝ) :
      Rescaled c m (fA, [sill, range, nugget]) (fA, [c * sill, range, c * nugget])
  | custom (f f' : VFun) (nm nm' : String) (ps ps' : List ℝ)
      (hf : ∀ γ, f ps = .ok γ → f' ps' = .ok fun d => c * γ d) :
      Rescaled c "custom" (.callable f nm, ps) (.callable f' nm', ps')

theorem Spec.Rescaled.variogram {c : ℝ} {m : String} {fA fA' : FunArg} {ps ps' : List ℝ}
    (h : Spec.Rescaled c m (fA, ps) (fA', ps')) {f f' : VFun} {nm nm' : String} {q q' : List ℝ}
    (hv : VariogramOf m fA (.list ps) f nm q) (hv' : VariogramOf m fA' (.list ps') f' nm' q') {γ : ℝ → ℝ}
    (hγ : f q = .ok γ) : f' q' = .ok fun d => c * γ d := by
  have h1 := hv.choose
  have h2 := hv'.choose
  cases h with
  | linear fA slope nugget =>
    have e := hv.list (l := [slope, nugget]) (by simp [makeVariogramParameterList])
    have e' := hv'.list (l := [c * slope, c * nugget]) (by simp [makeVariogramParameterList])
    subst e e'
    simp [chooseFunction, variogramDict] at h1 h2
    rw [← h1.1] at hγ
    rw [← h2.1]
    simp only [linearVariogramModel, pyGet, List.getElem?_cons_zero, List.getElem?_cons_succ, py_pure, py_ok_bind, Except.ok.injEq] at hγ ⊢
    subst hγ
    funext d
    simp only [linearFormula]
    ring
  | power fA scale exponent nugget =>
    have e := hv.list (l := [scale, exponent, nugget]) (by simp [makeVariogramParameterList])
    have e' := hv'.list (l := [c * scale, exponent, c * nugget]) (by simp [makeVariogramParameterList])
    subst e e'
    simp [chooseFunction, variogramDict] at h1 h2
    rw [← h1.1] at hγ
    rw [← h2.1]
    simp only [powerVariogramModel, pyGet, List.getElem?_cons_zero, List.getElem?_cons_succ, py_pure, py_ok_bind, Except.ok.injEq] at hγ ⊢
    subst hγ
    funext d
    simp only [powerFormula]
    ring
  | sill m hm fA sill range nugget =>
    simp only [List.mem_cons, List.not_mem_nil, or_false] at hm
    have hm' : m ∈ ["gaussian", "spherical", "exponential", "hole-effect"] := by
      rcases hm with rfl | rfl | rfl | rfl <;> simp
    have hl : ¬ m = "linear" ∧ ¬ m = "power" := by
      rcases hm with rfl | rfl | rfl | rfl <;> simp
    have e := hv.list (l := [sill - nugget, range, nugget]) (by simp [makeVariogramParameterList, hl, hm', pyGet])
    have e' := hv'.list (l := [c * sill - c * nugget, range, c * nugget])
      (by simp [makeVariogramParameterList, hl, hm', pyGet])
    subst e e'
    rcases hm with rfl | rfl | rfl | rfl <;> simp [chooseFunction, variogramDict] at h1 h2 <;>
    · rw [← h1.1] at hγ
      rw [← h2.1]
      simp only [gaussianVariogramModel, exponentialVariogramModel, sphericalVariogramModel,
        holeEffectVariogramModel, pyGet, List.getElem?_cons_zero, List.getElem?_cons_succ, py_pure, py_ok_bind, Except.ok.injEq] at hγ ⊢
      subst hγ
      funext d
      simp only [gaussianFormula, exponentialFormula, sphericalFormula, holeEffectFormula]
      try split_ifs
      all_goals ring
  | custom f₀ f₀' nm₀ nm₀' ps ps' hf =>
    have e := hv.list (l := ps) (by simp [makeVariogramParameterList])
    have e' := hv'.list (l := ps') (by simp [makeVariogramParameterList])
    subst e e'
    simp [chooseFunction] at h1 h2
    rw [← h1.1] at hγ
    rw [← h2.1]
    exact hf γ hγ

section
variable {ι κ : Type} [Fintype ι] [Fintype κ] [DecidableEq ι] [DecidableEq κ]

theorem krigingEqs_scale {G : ι → ι → ℝ} {F : κ → ι → ℝ} {g : ι → ℝ} {f : κ → ℝ} {b : ℝ} {w : ι → ℝ} {ν : κ → ℝ}
    {μ : ℝ} (c : ℝ) (h : KrigingEqs G F g f b w ν μ) :
    KrigingEqs (fun i j => c * G i j) F (fun i => c * g i) f b w (fun l => c * ν l) (c * μ) := by
  refine ⟨fun i => ?_, h.drift, h.unbiased⟩
  rw [← h.stationary i, mul_sub, mul_sub, Finset.mul_sum, Finset.mul_sum]
  congr 2 <;> refine Finset.sum_congr rfl fun j _ => by ring

theorem regular_scale {G : ι → ι → ℝ} {F : κ → ι → ℝ} (h : Regular G F) {c : ℝ} (hc : c ≠ 0) :
    Regular (fun i j => c * G i j) F := by
  intro w ν μ hk
  have h1 := krigingEqs_scale c⁻¹ hk
  have e : (fun i j => c⁻¹ * (c * G i j)) = G := by funext i j; field_simp
  have e2 : (fun i => c⁻¹ * (0 : ι → ℝ) i) = 0 := by funext i; simp
  rw [e, e2] at h1
  obtain ⟨h2, h3, h4⟩ := h _ _ _ h1
  refine ⟨h2, ?_, ?_⟩
  · funext l
    have := congrFun h3 l
    simpa [hc] using this
  · simpa [hc] using h4

theorem krigAnswer_scale {G : ι → ι → ℝ} {F : κ → ι → ℝ} (h : Regular G F) {c : ℝ} (hc : c ≠ 0) (z g : ι → ℝ)
    (f : κ → ℝ) : krigAnswer false (fun i j => c * G i j) F z (fun i => c * g i) f =
      ((krigAnswer false G F z g f).1, c * (krigAnswer false G F z g f).2) := by
  obtain ⟨w, ν, μ, h1, e⟩ := krigAnswer_spec h z g f
  rw [krigAnswer_eq (regular_scale h hc) false (krigingEqs_scale c h1), e]
  refine Prod.ext rfl ?_
  simp only [krigingVariance, mul_sub, Finset.mul_sum]
  congr 2 <;> refine Finset.sum_congr rfl fun j _ => by ring

theorem semivar_scale (c : ℝ) (γ : ℝ → ℝ) (d : ι → ι → ℝ) :
    semivar (fun t => c * γ t) d = fun i j => c * semivar γ d i j := by
  funext i j
  unfold semivar
  split_ifs <;> simp

theorem semivarTo_scale (exact : Bool) (c : ℝ) (γ : ℝ → ℝ) (d : ι → ℝ) :
    semivarTo exact (fun t => c * γ t) d = fun i => c * semivarTo exact γ d i := by
  funext i
  unfold semivarTo
  split_ifs <;> simp

end

theorem selRegular_scale {n : ℕ} {sel : List (Fin n)} {γ : ℝ → ℝ} {D : Fin n → Fin n → ℝ} {c : ℝ}
    (h : SelRegular sel γ D) (hc : c ≠ 0) : SelRegular sel (fun t => c * γ t) D := by
  unfold SelRegular
  rw [semivar_scale]
  exact regular_scale h hc

theorem selAnswer_scale {n : ℕ} {sel : List (Fin n)} {γ : ℝ → ℝ} {D : Fin n → Fin n → ℝ} {c : ℝ}
    (h : SelRegular sel γ D) (hc : c ≠ 0) (exact : Bool) (Z d : Fin n → ℝ) :
    selAnswer sel exact (fun t => c * γ t) D Z d =
      ((selAnswer sel exact γ D Z d).1, c * (selAnswer sel exact γ D Z d).2) := by
  unfold selAnswer
  rw [semivar_scale, semivarTo_scale, krigAnswer_scale h hc]

/-- `OrdinaryKriging`. -/
theorem C08_rescale_2d {n : ℕ} {env : Env} {x y z : Fin n → ℝ} {args : OKArgs} {s s' : OK n} {c : ℝ}
    (hc : 0 < c) {m : String} {fA' : FunArg} {ps ps' : List ℝ} (hm : args.variogramModel = .name m)
    (hps : args.params = .list ps) (hsc : Rescaled c m (args.variogramFunction, ps) (fA', ps'))
    (h : OK.create env x y z args = .ok s)
    (h' : OK.create env x y z { args with
      variogramModel := .name m, variogramFunction := fA', params := .list ps', paramsAllInt := args.paramsAllInt } = .ok s')
    {ea : ExecArgs} (ha : Admissible env args s ea.nClosest)
    (ha' : Admissible env { args with variogramModel := .name m, variogramFunction := fA', params := .list ps', paramsAllInt := args.paramsAllInt } s' ea.nClosest) (hp : args.pseudoInv = false ∨ ea.nClosest ≠ none)
    {r : ExecResult} (hr : s.execute env ea = .ok r) :
    ∃ r', s'.execute env ea = .ok r' ∧ r'.shape = r.shape ∧ r'.z = r.z ∧ r'.ss = r.ss.map (Option.map (c * ·)) := by
  have h1 := OK.create_pw h ha
  have h2 := OK.create_pw h' ha'
  have v1 := OK.create_variogramOf h hm
  have v2 := OK.create_variogramOf h' rfl
  rw [hps] at v1
  have hpi : s.pseudoInv = args.pseudoInv := (OK.create_fields h).2.2.1
  have hs' := OK.create_reparam h hm h'
  obtain ⟨acc, hval⟩ := h1.ok_iff.1 ⟨r, hr⟩
  obtain ⟨γ, hγ⟩ := acc.vario
  have hγ' := hsc.variogram v1 v2 hγ
  have g1 := OK.gam_eq hγ
  have g2 := OK.gam_eq hγ'
  have hchk : s'.check env ea = .ok () := by
    have hcheck := acc.backend
    rw [OK.check_iff h ha.noClash ⟨γ, hγ⟩] at hcheck
    rw [OK.check_iff h' ha'.noClash ⟨_, hγ'⟩]
    refine hcheck.imp id (Or.imp id ?_)
    rintro ⟨e, h3⟩
    refine ⟨e, h3.imp id ?_⟩
    rintro ⟨⟨m₀, h4, h5⟩, h6⟩
    rw [hm] at h5
    exact ⟨⟨m₀, h4, h5⟩, .inr (h6.resolve_left (by simp [hps]))⟩
  have hD : s'.dataDist = s.dataDist := by rw [hs']; rfl
  have hZ : s'.Z = s.Z := by rw [hs']
  have hE : s'.exactValues = s.exactValues := by rw [hs']
  have hP : s'.pseudoInv = s.pseudoInv := by rw [hs']
  have hQ : ∀ p, s'.queryDist (s'.queryPt p) = s.queryDist (s.queryPt p) := by intro p; rw [hs']; rfl
  have hS : ∀ k p, s'.sel env k p = s.sel env k p := by intro k p; rw [hs']; rfl
  have hI : s'.coordinatesType = s.coordinatesType := by rw [hs']
  obtain ⟨r', h3, h4, h5, h6⟩ := h1.transfer h2 hr
    (fun a => ⟨a.style, a.win, ⟨_, hγ'⟩, a.query, by rw [hI]; exact a.noInt, hchk, fun hn => .inr (by
      have := (a.solvable hn).resolve_left (by rw [hpi, hp.resolve_right (not_not.2 hn)]; simp)
      rw [hD, g2, semivar_scale, ← g1]
      exact regular_scale this hc.ne')⟩)
    (fun _ => id) (by simp) (fun _ _ _ => rfl) (fun _ e => e)
    (fun _ j p hj hn hv k hk => by
      have := hv hn k hk
      simp only [id]
      rw [hS, hD, g2, ← g1]
      exact selRegular_scale this hc.ne') id (c * ·)
    (fun a _ j p hj _ hv => by
      simp only [id]
      unfold OK.ans
      cases hn : ea.nClosest with
      | none =>
        have hr := (a.solvable hn).resolve_left (by rw [hpi, hp.resolve_right (not_not.2 hn)]; simp)
        have hpf : s.pseudoInv = false := by rw [hpi, hp.resolve_right (not_not.2 hn)]
        change krigAnswer s'.pseudoInv (semivar s'.gam s'.dataDist) noF s'.Z
          (semivarTo s'.exactValues s'.gam (s'.queryDist (s'.queryPt p))) 0 = _
        rw [hP, hD, hZ, hE, hQ, g2, semivar_scale, semivarTo_scale, ← g1, hpf, krigAnswer_scale hr hc.ne']
        unfold OK.answer
        rw [hpf]
        rfl
      | some k =>
        have hr := hv k hn
        change selAnswer (s'.sel env k.toNat p) s'.exactValues s'.gam s'.dataDist s'.Z (s'.queryDist (s'.queryPt p)) = _
        rw [hS, hD, hZ, hE, hQ, g2, ← g1, selAnswer_scale hr hc.ne']
        rfl)
  exact ⟨r', h3, h4.trans (h1.table r hr).shape_eq.symm, by simpa using h5, h6⟩

/-- `OrdinaryKriging3D`. -/
theorem C08_rescale_3d {n : ℕ} {env : Env} {x y z v : Fin n → ℝ} {args : OK3DArgs} {s s' : OK3D n} {c : ℝ}
    (hc : 0 < c) {m : String} {fA' : FunArg} {ps ps' : List ℝ} (hm : args.variogramModel = .name m)
    (hps : args.params = .list ps) (hsc : Rescaled c m (args.variogramFunction, ps) (fA', ps'))
    (h : OK3D.create env x y z v args = .ok s)
    (h' : OK3D.create env x y z v { args with
      variogramModel := .name m, variogramFunction := fA', params := .list ps' } = .ok s')
    {ea : ExecArgs3} (hk : KnnSpec env) (hw : WindowFits n ea.nClosest) (hp : args.pseudoInv = false ∨ ea.nClosest ≠ none)
    {r : ExecResult} (hr : s.execute env ea = .ok r) :
    ∃ r', s'.execute env ea = .ok r' ∧ r'.shape = r.shape ∧ r'.z = r.z ∧ r'.ss = r.ss.map (Option.map (c * ·)) := by
  have h1 := OK3D.create_pw h hk hw
  have h2 := OK3D.create_pw h' hk hw
  have v1 := OK3D.create_variogramOf h hm
  have v2 := OK3D.create_variogramOf h' rfl
  rw [hps] at v1
  have hpi : s.pseudoInv = args.pseudoInv := (OK3D.create_fields h).2.2.1
  have hs' := OK3D.create_reparam h hm h'
  obtain ⟨acc, hval⟩ := h1.ok_iff.1 ⟨r, hr⟩
  obtain ⟨γ, hγ⟩ := acc.vario
  have hγ' := hsc.variogram v1 v2 hγ
  have g1 := OK3D.gam_eq hγ
  have g2 := OK3D.gam_eq hγ'
  have hD : s'.dataDist = s.dataDist := by rw [hs']; rfl
  have hZ : s'.VALUES = s.VALUES := by rw [hs']
  have hE : s'.exactValues = s.exactValues := by rw [hs']
  have hP : s'.pseudoInv = s.pseudoInv := by rw [hs']
  have hQ : ∀ p, s'.queryDist (s'.queryPt p) = s.queryDist (s.queryPt p) := by intro p; rw [hs']; rfl
  have hS : ∀ k p, s'.sel env k p = s.sel env k p := by intro k p; rw [hs']; rfl

  obtain ⟨r', h3, h4, h5, h6⟩ := h1.transfer h2 hr
    (fun a => ⟨a.style, a.win, ⟨_, hγ'⟩, a.query, a.noInt, a.backend, fun hn => .inr (by
      have := (a.solvable hn).resolve_left (by rw [hpi, hp.resolve_right (not_not.2 hn)]; simp)
      rw [hD, g2, semivar_scale, ← g1]
      exact regular_scale this hc.ne')⟩)
    (fun _ => id) (by simp) (fun _ _ _ => rfl) (fun _ e => e)
    (fun _ j p hj hn hv k hk => by
      have := hv hn k hk
      simp only [id]
      rw [hS, hD, g2, ← g1]
      exact selRegular_scale this hc.ne') id (c * ·)
    (fun a _ j p hj _ hv => by
      simp only [id]
      unfold OK3D.ans
      cases hn : ea.nClosest with
      | none =>
        have hr := (a.solvable hn).resolve_left (by rw [hpi, hp.resolve_right (not_not.2 hn)]; simp)
        have hpf : s.pseudoInv = false := by rw [hpi, hp.resolve_right (not_not.2 hn)]
        change krigAnswer s'.pseudoInv (semivar s'.gam s'.dataDist) noF s'.VALUES
          (semivarTo s'.exactValues s'.gam (s'.queryDist (s'.queryPt p))) 0 = _
        rw [hP, hD, hZ, hE, hQ, g2, semivar_scale, semivarTo_scale, ← g1, hpf, krigAnswer_scale hr hc.ne']
        unfold OK3D.answer
        rw [hpf]
        rfl
      | some k =>
        have hr := hv k hn
        change selAnswer (s'.sel env k.toNat p) s'.exactValues s'.gam s'.dataDist s'.VALUES (s'.queryDist (s'.queryPt p)) = _
        rw [hS, hD, hZ, hE, hQ, g2, ← g1, selAnswer_scale hr hc.ne']
        rfl)
  exact ⟨r', h3, h4.trans (h1.table r hr).shape_eq.symm, by simpa using h5, h6⟩

theorem UK.answer_scale {n : ℕ} (s : UK n) {γ : ℝ → ℝ} (hp : s.pseudoInv = false) (hr : Regular (s.G γ) s.F)
    {c : ℝ} (hc : c ≠ 0) (sv : List ℝ) (e : ℝ) (p : ℝ × ℝ) :
    s.answer (fun d => c * γ d) sv e p = ((s.answer γ sv e p).1, c * (s.answer γ sv e p).2) := by
  unfold UK.answer UK.G UK.g
  rw [semivar_scale, semivarTo_scale, hp]
  exact krigAnswer_scale hr hc _ _ _

/-- `UniversalKriging`. -/
theorem C08_rescale_uk {n : ℕ} {env : Env} {x y z : Fin n → ℝ} {args : UKArgs} {s s' : UK n} {c : ℝ}
    (hc : 0 < c) {m : String} {fA' : FunArg} {ps ps' : List ℝ} (hm : args.variogramModel = .name m)
    (hps : args.params = .list ps) (hsc : Rescaled c m (args.variogramFunction, ps) (fA', ps'))
    (h : UK.create env x y z args = .ok s)
    (h' : UK.create env x y z { args with
      variogramModel := .name m, variogramFunction := fA', params := .list ps' } = .ok s')
    {ea : UKExecArgs}  (hp : args.pseudoInv = false)
    {r : ExecResult} (hr : s.execute ea = .ok r) :
    ∃ r', s'.execute ea = .ok r' ∧ r'.shape = r.shape ∧ r'.z = r.z ∧ r'.ss = r.ss.map (Option.map (c * ·)) := by
  have h1 := UK.create_pw h ea
  have h2 := UK.create_pw h' ea
  have v1 := UK.create_variogramOf h hm
  have v2 := UK.create_variogramOf h' rfl
  rw [hps] at v1
  have hpi : s.pseudoInv = args.pseudoInv := (UK.create_fields h).2.2.1
  have hs' := UK.create_reparam h hm h'
  obtain ⟨acc, hval⟩ := h1.ok_iff.1 ⟨r, hr⟩
  obtain ⟨γ, hγ⟩ := acc.vario
  have hγ' := hsc.variogram v1 v2 hγ
  have g1 := UK.gam_eq hγ
  have g2 := UK.gam_eq hγ'
  have hX : ∀ p, s'.Valid ea p ↔ s.Valid ea p := by intro p; rw [hs']; rfl
  have hA : ∀ γ' sv e p, s'.answer γ' sv e p = s.answer γ' sv e p := by
    intro γ' sv e p; rw [hs']; rfl
  have hV : ∀ j, s'.sv ea j = s.sv ea j := by intro j; rw [hs']; rfl
  have hEV : s'.extVal = s.extVal := by rw [hs']; rfl
  have hG : s'.specGrids ea = s.specGrids ea := by rw [hs']; rfl
  have hreg := acc.solvable.resolve_left (by rw [hpi, hp]; simp)
  have hpf : s.pseudoInv = false := by rw [hpi, hp]
  have hreg' : Regular (s.G γ) s.F := g1 ▸ hreg
  have hsol : Solvable s'.pseudoInv (semivar s'.gam s'.dataDist) s'.F := by
    have : Solvable s.pseudoInv (semivar (fun d => c * γ d) s.dataDist) s.F :=
      .inr (by rw [semivar_scale, ← g1]; exact regular_scale hreg hc.ne')
    rw [g2, hs']
    exact this
  obtain ⟨r', h3, h4, h5, h6⟩ := h1.transfer h2 hr
    (fun a => ⟨a.style, ⟨_, hγ'⟩, a.query, by rw [hG]; exact a.spec, a.noInt, a.backend, hsol⟩)
    (fun _ => id) (by simp) (fun _ _ _ => rfl) (fun _ e => .inl e)
    (fun _ j p hj hn hv => (hX p).2 (hv hn)) id (c * ·)
    (fun a _ j p hj _ hv => by
      simp only [id]
      unfold UK.ans
      rw [hA, hV, hEV, g2]
      rw [UK.answer_scale s hpf hreg' hc.ne', g1])
  exact ⟨r', h3, h4.trans (h1.table r hr).shape_eq.symm, by simpa using h5, h6⟩

theorem UK3D.answer_scale {n : ℕ} (s : UK3D n) {γ : ℝ → ℝ} (hp : s.pseudoInv = false) (hr : Regular (s.G γ) s.F)
    {c : ℝ} (hc : c ≠ 0) (sv : List ℝ) (p : ℝ × ℝ × ℝ) :
    s.answer (fun d => c * γ d) sv p = ((s.answer γ sv p).1, c * (s.answer γ sv p).2) := by
  unfold UK3D.answer UK3D.G UK3D.g
  rw [semivar_scale, semivarTo_scale, hp]
  exact krigAnswer_scale hr hc _ _ _

/-- `UniversalKriging3D`. -/
theorem C08_rescale_uk3d {n : ℕ} {env : Env} {x y z v : Fin n → ℝ} {args : UK3DArgs} {s s' : UK3D n} {c : ℝ}
    (hc : 0 < c) {m : String} {fA' : FunArg} {ps ps' : List ℝ} (hm : args.variogramModel = .name m)
    (hps : args.params = .list ps) (hsc : Rescaled c m (args.variogramFunction, ps) (fA', ps'))
    (h : UK3D.create env x y z v args = .ok s)
    (h' : UK3D.create env x y z v { args with
      variogramModel := .name m, variogramFunction := fA', params := .list ps' } = .ok s')
    {ea : UK3DExecArgs}  (hp : args.pseudoInv = false)
    {r : ExecResult} (hr : s.execute ea = .ok r) :
    ∃ r', s'.execute ea = .ok r' ∧ r'.shape = r.shape ∧ r'.z = r.z ∧ r'.ss = r.ss.map (Option.map (c * ·)) := by
  have h1 := UK3D.create_pw h ea
  have h2 := UK3D.create_pw h' ea
  have v1 := UK3D.create_variogramOf h hm
  have v2 := UK3D.create_variogramOf h' rfl
  rw [hps] at v1
  have hpi : s.pseudoInv = args.pseudoInv := (UK3D.create_fields h).2.2.1
  have hs' := UK3D.create_reparam h hm h'
  obtain ⟨acc, hval⟩ := h1.ok_iff.1 ⟨r, hr⟩
  obtain ⟨γ, hγ⟩ := acc.vario
  have hγ' := hsc.variogram v1 v2 hγ
  have g1 := UK3D.gam_eq hγ
  have g2 := UK3D.gam_eq hγ'
  have hX : ∀ p, s'.Valid ea p ↔ s.Valid ea p := by intro p; rw [hs']; rfl
  have hA : ∀ γ' sv p, s'.answer γ' sv p = s.answer γ' sv p := by
    intro γ' sv p; rw [hs']; rfl
  have hV : ∀ j, s'.sv ea j = s.sv ea j := by intro j; rw [hs']; rfl

  have hG : s'.specGrids ea = s.specGrids ea := by rw [hs']; rfl
  have hreg := acc.solvable.resolve_left (by rw [hpi, hp]; simp)
  have hpf : s.pseudoInv = false := by rw [hpi, hp]
  have hreg' : Regular (s.G γ) s.F := g1 ▸ hreg
  have hsol : Solvable s'.pseudoInv (semivar s'.gam s'.dataDist) s'.F := by
    have : Solvable s.pseudoInv (semivar (fun d => c * γ d) s.dataDist) s.F :=
      .inr (by rw [semivar_scale, ← g1]; exact regular_scale hreg hc.ne')
    rw [g2, hs']
    exact this
  obtain ⟨r', h3, h4, h5, h6⟩ := h1.transfer h2 hr
    (fun a => ⟨a.style, ⟨_, hγ'⟩, a.query, by rw [hG]; exact a.spec, a.noInt, a.backend, hsol⟩)
    (fun _ => id) (by simp) (fun _ _ _ => rfl) (fun _ e => .inl e)
    (fun _ j p hj hn hv => (hX p).2 (hv hn)) id (c * ·)
    (fun a _ j p hj _ hv => by
      simp only [id]
      unfold UK3D.ans
      rw [hA, hV, g2]
      rw [UK3D.answer_scale s hpf hreg' hc.ne', g1])
  exact ⟨r', h3, h4.trans (h1.table r hr).shape_eq.symm, by simpa using h5, h6⟩

/-! The hypotheses are met: slope 1 and nugget 2 against slope 3 and nugget 6, also with drift. -/

example : ∃ s s' r, OK.create stdEnv Demo.X Demo.O ![3, 5] (Demo.args 2 false false) = .ok s ∧
    OK.create stdEnv Demo.X Demo.O ![3, 5] { Demo.args 2 false false with
      variogramModel := .name "linear", variogramFunction := .none, params := .list [3 * 1, 3 * 2],
      paramsAllInt := false } = .ok s' ∧
    Rescaled 3 "linear" ((Demo.args 2 false false).variogramFunction, [1, 2]) (.none, [3 * 1, 3 * 2]) ∧
    Admissible stdEnv (Demo.args 2 false false) s none ∧
    Admissible stdEnv { Demo.args 2 false false with
      variogramModel := .name "linear", variogramFunction := .none, params := .list [3 * 1, 3 * 2],
      paramsAllInt := false } s' none ∧
    s.execute stdEnv (Demo.pts [(0, 0), (2, 5)] "C") = .ok r := by
  obtain ⟨s, h, -⟩ := Demo.ok ![3, 5] 2 false false
  obtain ⟨ha, r, hr⟩ := Demo.ok_run zero_le_two h [(0, 0), (2, 5)] (b := "C") (.inr (.inr rfl))
  obtain ⟨ev, h2⟩ := Demo.expVar_ok (adjustData2 Demo.X Demo.O (1 / 2) 0 1 0) ![3, 5] 6
  simp only [one_div] at h2
  have : ∃ s', OK.create stdEnv Demo.X Demo.O ![3, 5] { Demo.args 2 false false with
      variogramModel := .name "linear", variogramFunction := .none, params := .list [3 * 1, 3 * 2],
      paramsAllInt := false } = .ok s' ∧ s'.functionName = "linear_variogram_model" := by
    simp [OK.create, Demo.args, OK.resolveModel, chooseFunction, variogramDict, OK.setupCoordinates, Demo.midrange_X,
      Demo.midrange_O, makeVariogramParameterList, initializeVariogramModel, h2, variogramFunctionName, intParams]
  obtain ⟨s', h', hn⟩ := this
  exact ⟨s, s', r, h, h', .linear _ _ _, ha, ⟨stdEnv_knn, trivial, by simp [RangeOk, hn], by simp [WindowFits]⟩, hr⟩

example : ∃ s s' r, UK.create stdEnv Demo.X Demo.O ![3, 5] (Demo.uargs 2 false false) = .ok s ∧
    UK.create stdEnv Demo.X Demo.O ![3, 5] { Demo.uargs 2 false false with
      variogramModel := .name "linear", variogramFunction := .none, params := .list [3 * 1, 3 * 2] } = .ok s' ∧
    s.execute { toExec := Demo.pts [(0, 0), (2, 5)] "loop" } = .ok r := by
  obtain ⟨s, h, -⟩ := Demo.uk ![3, 5] 2 false false
  obtain ⟨r, hr⟩ := Demo.uk_run h [(0, 0), (2, 5)] (b := "loop") (.inr rfl)
  obtain ⟨ev, h2⟩ := Demo.expVar_ok (adjustData2 Demo.X Demo.O (1 / 2) 0 1 0) ![3, 5] 6
  have hv : linearVariogramModel [3 * 1, 3 * 2] = .ok (linearFormula (3 * 1) (3 * 2)) := by
    simp [linearVariogramModel, pyGet]
  obtain ⟨st, h3⟩ := Demo.stats_ok (adjustData2 Demo.X Demo.O (1 / 2) 0 1 0) ![3, 5] hv false
  simp only [one_div] at h2 h3
  have : ∃ s', UK.create stdEnv Demo.X Demo.O ![3, 5] { Demo.uargs 2 false false with
      variogramModel := .name "linear", variogramFunction := .none, params := .list [3 * 1, 3 * 2] } = .ok s' := by
    simp [UK.create, Demo.uargs, UK.resolveModel, chooseFunction, variogramDict, Demo.midrange_X,
      Demo.midrange_O, makeVariogramParameterList, initializeVariogramModel, h2, -mul_one, h3, variogramFunctionName,
      setupExternalZ, setupPointLog, setupSpecifiedTerm, setupFunctionalTerm, setupFunctional]
  obtain ⟨s', h'⟩ := this
  exact ⟨s, s', r, h, h', hr⟩

end
end PyKrige
