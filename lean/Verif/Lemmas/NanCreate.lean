import Verif.Lemmas.NanBins
import Verif.Lemmas.ArgDist
import Verif.Lemmas.FitUnit

/-! What the constructors do with values that may be nan. -/

namespace PyKrige
noncomputable section
open Spec

theorem initializeNan_ev {n m : ℕ} {env : Env} {X : Fin n → Fin m → ℝ} {y : Fin n → Option ℝ} {model : String}
    {params : Option (List ℝ)} {f : VFun} {nlags : ℕ} {weight : Bool} {ct : String} {ev : List (ℝ × ℝ)} {ps : List ℝ}
    (h : initializeVariogramModelNan env X y model params f nlags weight ct = .ok (ev, ps)) :
    experimentalVariogramNan X y nlags ct = .ok ev := by
  unfold initializeVariogramModelNan at h
  obtain ⟨ev', h1, h⟩ := py_bind_eq_ok.1 h
  rw [h1]
  split at h
  · split at h
    · cases h
    · split at h
      · cases h
      · cases h; rfl
  · split at h
    · cases h
    · obtain ⟨ps', -, h⟩ := py_bind_eq_ok.1 h
      cases h; rfl

theorem initNan_auto {n m : ℕ} {env : Env} {X : Fin n → Fin m → ℝ} {y : Fin n → Option ℝ} {nm : String} {f : VFun}
    {nlags : ℕ} {weight : Bool} {ct : String} {ev : List (ℝ × ℝ)} {ps : List ℝ}
    (h : initializeVariogramModelNan env X y nm none f nlags weight ct = .ok (ev, ps)) :
    calculateVariogramModel env (ev.map Prod.fst) (ev.map Prod.snd) nm f weight = .ok ps := by
  unfold initializeVariogramModelNan at h
  obtain ⟨ev', h1, h⟩ := py_bind_eq_ok.1 h
  dsimp only at h
  split at h
  · cases h
  · obtain ⟨ps', h2, h⟩ := py_bind_eq_ok.1 h
    cases h
    exact h2

/-- What the constructor computes the variogram from. -/
theorem NanOK.create_lags {n : ℕ} {env : Env} {x y : Fin n → ℝ} {z : Fin n → Option ℝ} {args : OKArgs} {t : NanOK n}
    (h : NanOK.create env x y z args = .ok t) :
    t.Z = z ∧ ∃ (X : Fin n → Fin 2 → ℝ) (name : String) (vp : Option (List ℝ)) (f : VFun) (fname : String) (fArg : FunArg),
      initializeVariogramModelNan env X z name vp f args.nlags args.weight args.coordinatesType =
        .ok (t.obj.lags, t.obj.params) ∧
      (∀ i j, pairDistance args.coordinatesType (X i) (X j) = okDistance args (x i, y i) (x j, y j)) ∧
      chooseFunction name fArg = .ok (f, fname) ∧
      ∀ nm, args.variogramModel = .name nm → args.params = .none → name = nm ∧ vp = none := by
  unfold NanOK.create at h
  by_cases hp : args.pseudoInvType ∈ ["pinv", "pinvh"]
  swap
  · rw [if_pos hp] at h; simp at h
  rw [if_neg (not_not.2 hp)] at h
  cases he : args.exactValues with
  | notBool => rw [he] at h; simp at h
  | bool exact =>
    rw [he] at h
    simp only [py_pure, py_ok_bind, py_bind_eq_ok, Prod.exists] at h
    obtain ⟨name, model, fArg, pArg, sc₀, an₀, h1, f, fname, h2, xc, yc, sc, an, adj, h4, vp, h5, lags, ps, h6, h7⟩ := h
    have key : t.Z = z ∧ t.obj.lags = lags ∧ t.obj.params = ps ∧ t.obj.coordinatesType = args.coordinatesType ∧
        t.obj.X_ORIG = x ∧ t.obj.Y_ORIG = y ∧ t.obj.XCENTER = xc ∧ t.obj.YCENTER = yc ∧ t.obj.anisotropyScaling = sc ∧
        t.obj.anisotropyAngle = an ∧ (t.obj.X_ADJUSTED = fun i => adj i 0) ∧ (t.obj.Y_ADJUSTED = fun i => adj i 1) := by
      split at h7
      · obtain ⟨st, -, h7⟩ := py_bind_eq_ok.1 h7
        rw [← Except.ok.inj h7]
        exact ⟨rfl, rfl, rfl, rfl, rfl, rfl, rfl, rfl, rfl, rfl, rfl, rfl⟩
      · rw [← Except.ok.inj h7]
        exact ⟨rfl, rfl, rfl, rfl, rfl, rfl, rfl, rfl, rfl, rfl, rfl, rfl⟩
    clear h7
    obtain ⟨k1, k2, k3, k4, k5, k6, k7, k8, k9, k10, k11, k12⟩ := key
    refine ⟨k1, adj, name, vp, f, fname, fArg, by rw [k2, k3]; exact h6, fun i j => ?_, h2, fun nm hm hpn => ?_⟩
    · have hpts : ∀ i, t.obj.pts i = adj i := fun i => by
        unfold OK.pts; rw [k11, k12]; exact vec2_eta _
      have hpl : t.obj.Placed ∧ distance2 args.coordinatesType sc an = distance2 args.coordinatesType sc₀ an₀ := by
        unfold OK.setupCoordinates at h4
        split at h4
        · next he =>
          obtain ⟨xc', hx, h4⟩ := py_bind_eq_ok.1 h4
          obtain ⟨yc', hy, h4⟩ := py_bind_eq_ok.1 h4
          simp only [py_pure, Except.ok.injEq, Prod.mk.injEq] at h4
          obtain ⟨rfl, rfl, rfl, rfl, rfl⟩ := h4
          refine ⟨⟨Or.inl (k4.trans he), fun _ i => ?_, fun hg => ?_⟩, rfl⟩
          · rw [hpts, k5, k6, k7, k8, k9, k10]; rfl
          · exact absurd ((k4.trans he).symm.trans hg) (by decide)
        · split at h4
          · next he hg =>
            simp only [Except.ok.injEq, Prod.mk.injEq] at h4
            obtain ⟨rfl, rfl, rfl, rfl, rfl⟩ := h4
            refine ⟨⟨Or.inr (k4.trans hg), fun h => absurd (k4.symm.trans h) he, fun _ => ⟨?_, ?_, k9, k10⟩⟩, ?_⟩
            · rw [k11, k5]; rfl
            · rw [k12, k6]; rfl
            · funext p q
              unfold distance2
              rw [if_neg he, if_neg he]
          · simp at h4
      have hd := hpl.1.dataDist i j
      rw [k4, k9, k10, k5, k6, hpl.2, (OK.resolveModel_eff h1).1, (OK.resolveModel_eff h1).2.1] at hd
      unfold okDistance
      rw [← hd]
      unfold pairDistance OK.dataDist
      rw [k4, hpts, hpts, k11, k12]
      split
      · rfl
      · rw [dif_pos rfl, ← greatCircle_eq]; rfl
    · unfold OK.resolveModel at h1
      rw [hm] at h1
      simp only [Except.ok.injEq, Prod.mk.injEq] at h1
      obtain ⟨rfl, -, -, hpa, -, -⟩ := h1
      rw [← hpa, hpn] at h5
      exact ⟨rfl, (Except.ok.inj h5).symm⟩

/-- What the constructor computes the variogram from. -/
theorem NanOK3D.create_lags {n : ℕ} {env : Env} {x y z : Fin n → ℝ} {w : Fin n → Option ℝ} {args : OK3DArgs}
    {t : NanOK3D n} (h : NanOK3D.create env x y z w args = .ok t) :
    t.Z = w ∧ ∃ (X : Fin n → Fin 3 → ℝ) (name : String) (vp : Option (List ℝ)) (f : VFun) (fname : String) (fArg : FunArg),
      initializeVariogramModelNan env X w name vp f args.nlags args.weight "euclidean" =
        .ok (t.obj.lags, t.obj.params) ∧
      (∀ i j, pairDistance "euclidean" (X i) (X j) = ok3Distance args (x i, y i, z i) (x j, y j, z j)) ∧
      chooseFunction name fArg = .ok (f, fname) ∧
      ∀ nm, args.variogramModel = .name nm → args.params = .none → name = nm ∧ vp = none := by
  unfold NanOK3D.create at h
  by_cases hp : args.pseudoInvType ∈ ["pinv", "pinvh"]
  swap
  · rw [if_pos hp] at h; simp at h
  rw [if_neg (not_not.2 hp)] at h
  cases he : args.exactValues with
  | notBool => rw [he] at h; simp at h
  | bool exact =>
    rw [he] at h
    simp only [py_pure, py_ok_bind, py_bind_eq_ok, Prod.exists] at h
    obtain ⟨name, model, fArg, pArg, an, h1, f, fname, h2, xc, hx, yc, hy, zc, hz, vp, h5, lags, ps, h6, st, h7, h8⟩ := h
    have key : (t.Z = w) ∧ (t.obj.lags = lags) ∧ (t.obj.params = ps) ∧ (t.obj.X_ORIG = x) ∧ (t.obj.Y_ORIG = y) ∧ (t.obj.Z_ORIG = z) ∧ (t.obj.XCENTER = xc) ∧ (t.obj.YCENTER = yc) ∧ (t.obj.ZCENTER = zc) ∧ (t.obj.aniso = an) ∧ (t.obj.X_ADJUSTED = fun i => adjustPoint3 xc yc zc an (x i) (y i) (z i) 0) ∧ (t.obj.Y_ADJUSTED = fun i => adjustPoint3 xc yc zc an (x i) (y i) (z i) 1) ∧ (t.obj.Z_ADJUSTED = fun i => adjustPoint3 xc yc zc an (x i) (y i) (z i) 2) := by
      rw [← Except.ok.inj h8]
      exact ⟨rfl, rfl, rfl, rfl, rfl, rfl, rfl, rfl, rfl, rfl, rfl, rfl, rfl⟩
    clear h8
    obtain ⟨k1, k2, k3, k4, k5, k6, k7, k8, k9, k10, k11, k12, k13⟩ := key
    refine ⟨k1, _, name, vp, f, fname, fArg, by rw [k2, k3]; exact h6, fun i j => ?_, h2, fun nm hm hpn => ?_⟩
    · have hpts : ∀ i, t.obj.pts i = adjustPoint3 xc yc zc an (x i) (y i) (z i) := fun i => by
        unfold OK3D.pts; rw [k11, k12, k13]; exact vec3_eta _
      have hpl : t.obj.Placed := ⟨fun i => by rw [hpts, k4, k5, k6, k7, k8, k9, k10]⟩
      have hd := hpl.dataDist i j
      rw [k10, k4, k5, k6, (OK3D.resolveModel_eff h1).1] at hd
      unfold ok3Distance
      rw [← hd]
      unfold pairDistance OK3D.dataDist
      rw [hpts, hpts, if_pos rfl, (OK3D.resolveModel_eff h1).1]
      rfl
    · unfold OK3D.resolveModel at h1
      rw [hm] at h1
      simp only [Except.ok.injEq, Prod.mk.injEq] at h1
      obtain ⟨rfl, -, -, hpa, -⟩ := h1
      rw [← hpa, hpn] at h5
      exact ⟨rfl, (Except.ok.inj h5).symm⟩

/-- What the constructor computes the variogram from. -/
theorem NanUK.create_lags {n : ℕ} {env : Env} {x y : Fin n → ℝ} {w : Fin n → Option ℝ} {args : UKArgs}
    {t : NanUK n} (h : NanUK.create env x y w args = .ok t) :
    t.Z = w ∧ ∃ (X : Fin n → Fin 2 → ℝ) (name : String) (vp : Option (List ℝ)) (f : VFun) (fname : String) (fArg : FunArg),
      initializeVariogramModelNan env X w name vp f args.nlags args.weight "euclidean" =
        .ok (t.obj.lags, t.obj.params) ∧
      (∀ i j, pairDistance "euclidean" (X i) (X j) = ukDistance args (x i, y i) (x j, y j)) ∧
      chooseFunction name fArg = .ok (f, fname) ∧
      ∀ nm, args.variogramModel = .name nm → args.params = .none → name = nm ∧ vp = none := by
  unfold NanUK.create at h
  by_cases hp : args.pseudoInvType ∈ ["pinv", "pinvh"]
  swap
  · rw [if_pos hp] at h; simp at h
  rw [if_neg (not_not.2 hp)] at h
  cases he : args.exactValues with
  | notBool => rw [he] at h; simp at h
  | bool exact =>
    rw [he] at h
    simp only [py_pure, py_ok_bind, py_bind_eq_ok, Prod.exists] at h
    obtain ⟨name, model, fArg, pArg, sc, an, h1, f, fname, h2, xc, hx, yc, hy, vp, h5, lags, ps, h6, st, h7, ext, he, plog, hpl, spec, hs, func, hf, h8⟩ := h
    have key : (t.Z = w) ∧ (t.obj.lags = lags) ∧ (t.obj.params = ps) ∧ (t.obj.X_ORIG = x) ∧ (t.obj.Y_ORIG = y) ∧ (t.obj.XCENTER = xc) ∧ (t.obj.YCENTER = yc) ∧ (t.obj.anisotropyScaling = sc) ∧ (t.obj.anisotropyAngle = an) ∧ (t.obj.X_ADJUSTED = fun i => adjustData2 x y xc yc sc an i 0) ∧ (t.obj.Y_ADJUSTED = fun i => adjustData2 x y xc yc sc an i 1) := by
      rw [← Except.ok.inj h8]
      exact ⟨rfl, rfl, rfl, rfl, rfl, rfl, rfl, rfl, rfl, rfl, rfl⟩
    clear h8
    obtain ⟨k1, k2, k3, k4, k5, k6, k7, k8, k9, k10, k11⟩ := key
    refine ⟨k1, _, name, vp, f, fname, fArg, by rw [k2, k3]; exact h6, fun i j => ?_, h2, fun nm hm hpn => ?_⟩
    · have hpts : ∀ i, t.obj.pts i = adjustData2 x y xc yc sc an i := fun i => by
        unfold UK.pts; rw [k10, k11]; exact vec2_eta _
      have hpl : t.obj.Placed := ⟨fun i => by
        rw [hpts, k4, k5]; unfold UK.adjustPoint; rw [k6, k7, k8, k9]; rfl⟩
      have hd := hpl.dataDist i j
      rw [k8, k9, k4, k5, (UK.resolveModel_eff h1).1, (UK.resolveModel_eff h1).2.1] at hd
      unfold ukDistance
      rw [← hd]
      unfold pairDistance UK.dataDist
      rw [hpts, hpts, if_pos rfl, (UK.resolveModel_eff h1).1, (UK.resolveModel_eff h1).2.1]
      rfl
    · unfold UK.resolveModel at h1
      rw [hm] at h1
      simp only [Except.ok.injEq, Prod.mk.injEq] at h1
      obtain ⟨rfl, -, -, hpa, -, -⟩ := h1
      rw [← hpa, hpn] at h5
      exact ⟨rfl, (Except.ok.inj h5).symm⟩

/-- What the constructor computes the variogram from. -/
theorem NanUK3D.create_lags {n : ℕ} {env : Env} {x y z : Fin n → ℝ} {w : Fin n → Option ℝ} {args : UK3DArgs}
    {t : NanUK3D n} (h : NanUK3D.create env x y z w args = .ok t) :
    t.Z = w ∧ ∃ (X : Fin n → Fin 3 → ℝ) (name : String) (vp : Option (List ℝ)) (f : VFun) (fname : String) (fArg : FunArg),
      initializeVariogramModelNan env X w name vp f args.nlags args.weight "euclidean" =
        .ok (t.obj.lags, t.obj.params) ∧
      (∀ i j, pairDistance "euclidean" (X i) (X j) = uk3Distance args (x i, y i, z i) (x j, y j, z j)) ∧
      chooseFunction name fArg = .ok (f, fname) ∧
      ∀ nm, args.variogramModel = .name nm → args.params = .none → name = nm ∧ vp = none := by
  unfold NanUK3D.create at h
  by_cases hp : args.pseudoInvType ∈ ["pinv", "pinvh"]
  swap
  · rw [if_pos hp] at h; simp at h
  rw [if_neg (not_not.2 hp)] at h
  cases he : args.exactValues with
  | notBool => rw [he] at h; simp at h
  | bool exact =>
    rw [he] at h
    simp only [py_pure, py_ok_bind, py_bind_eq_ok, Prod.exists] at h
    obtain ⟨name, model, fArg, pArg, an, h1, f, fname, h2, xc, hx, yc, hy, zc, hz, vp, h5, lags, ps, h6, st, h7, spec, hs, func, hf, h8⟩ := h
    have key : (t.Z = w) ∧ (t.obj.lags = lags) ∧ (t.obj.params = ps) ∧ (t.obj.X_ORIG = x) ∧ (t.obj.Y_ORIG = y) ∧ (t.obj.Z_ORIG = z) ∧ (t.obj.XCENTER = xc) ∧ (t.obj.YCENTER = yc) ∧ (t.obj.ZCENTER = zc) ∧ (t.obj.aniso = an) ∧ (t.obj.X_ADJUSTED = fun i => adjustPoint3 xc yc zc an (x i) (y i) (z i) 0) ∧ (t.obj.Y_ADJUSTED = fun i => adjustPoint3 xc yc zc an (x i) (y i) (z i) 1) ∧ (t.obj.Z_ADJUSTED = fun i => adjustPoint3 xc yc zc an (x i) (y i) (z i) 2) := by
      rw [← Except.ok.inj h8]
      exact ⟨rfl, rfl, rfl, rfl, rfl, rfl, rfl, rfl, rfl, rfl, rfl, rfl, rfl⟩
    clear h8
    obtain ⟨k1, k2, k3, k4, k5, k6, k7, k8, k9, k10, k11, k12, k13⟩ := key
    refine ⟨k1, _, name, vp, f, fname, fArg, by rw [k2, k3]; exact h6, fun i j => ?_, h2, fun nm hm hpn => ?_⟩
    · have hpts : ∀ i, t.obj.pts i = adjustPoint3 xc yc zc an (x i) (y i) (z i) := fun i => by
        unfold UK3D.pts; rw [k11, k12, k13]; exact vec3_eta _
      have hpl : t.obj.Placed := ⟨fun i => by rw [hpts, k4, k5, k6, k7, k8, k9, k10]⟩
      have hd := hpl.dataDist i j
      rw [k10, k4, k5, k6, (OK3D.resolveModel_eff h1).1] at hd
      unfold uk3Distance
      rw [← hd]
      unfold pairDistance UK3D.dataDist
      rw [hpts, hpts, if_pos rfl, (OK3D.resolveModel_eff h1).1]
      rfl
    · unfold OK3D.resolveModel at h1
      rw [hm] at h1
      simp only [Except.ok.injEq, Prod.mk.injEq] at h1
      obtain ⟨rfl, -, -, hpa, -⟩ := h1
      rw [← hpa, hpn] at h5
      exact ⟨rfl, (Except.ok.inj h5).symm⟩

end
end PyKrige
