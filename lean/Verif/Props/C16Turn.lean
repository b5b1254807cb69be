import Verif.Props.C16
import Verif.Props.C83Update

/-!
# C16: full turns of the anisotropy angles, for universal kriging with every kind of drift
-/

namespace PyKrige
noncomputable section
open Spec

theorem adjust2_turn (c : Fin 2 → ℝ) (sc an : ℝ) (k : ℤ) (p : Fin 2 → ℝ) : adjust2 c sc (an + 360 * k) p = adjust2 c sc an p := by
  have h : (an + 360 * k) * Real.pi / 180 = an * Real.pi / 180 + k * (2 * Real.pi) := by ring
  unfold adjust2
  simp only [h, Real.cos_neg, Real.sin_neg, Real.cos_add_int_mul_two_pi, Real.sin_add_int_mul_two_pi]

theorem adjustPoint3_turn (xc yc zc : ℝ) (an : Aniso3) (a b c : ℤ) (x y z : ℝ) :
    adjustPoint3 xc yc zc { an with angleX := an.angleX + 360 * a, angleY := an.angleY + 360 * b, angleZ := an.angleZ + 360 * c } x y z =
      adjustPoint3 xc yc zc an x y z := by
  have h : ∀ (t : ℝ) (k : ℤ), (t + 360 * k) * Real.pi / 180 = t * Real.pi / 180 + k * (2 * Real.pi) := by intro t k; ring
  unfold adjustPoint3 adjust3
  simp only [Matrix.cons_val_zero, Matrix.cons_val_one, Matrix.cons_val, h, Real.cos_neg, Real.sin_neg, Real.cos_add_int_mul_two_pi, Real.sin_add_int_mul_two_pi]

theorem py_map_bind {α β δ : Type} (f : β → δ) (x : Py α) (g : α → Py β) : f <$> (x >>= g) = x >>= fun a => f <$> g a := by
  cases x <;> rfl

theorem adjustData2_turn {n : ℕ} (x y : Fin n → ℝ) (xc yc sc an : ℝ) (k : ℤ) :
    adjustData2 x y xc yc sc (an + 360 * k) = adjustData2 x y xc yc sc an := funext fun _ => adjust2_turn _ _ _ _ _

theorem setupPointLog_turn (xc yc sc an : ℝ) (k : ℤ) {args args' : UKArgs} (h1 : args'.driftTerms = args.driftTerms)
    (h2 : args'.pointDrift = args.pointDrift) (h3 : args'.pointDriftInt = args.pointDriftInt) :
    setupPointLog xc yc sc (an + 360 * k) args' = setupPointLog xc yc sc an args := by
  unfold setupPointLog
  simp only [adjust2_turn, h1, h2, h3]

theorem setupExternalZ_turn {n : ℕ} (x y : Fin n → ℝ) (args : UKArgs) (a' : ℝ) :
    setupExternalZ x y { args with anisotropyAngle := a' } = setupExternalZ x y args := rfl

theorem UK.create_turn {n : ℕ} (env : Env) (x y z : Fin n → ℝ) (args : UKArgs) {m : String} (hm : args.variogramModel = .name m) (k : ℤ) :
    UK.create env x y z { args with anisotropyAngle := args.anisotropyAngle + 360 * k } =
      (fun s => { s with anisotropyAngle := args.anisotropyAngle + 360 * k }) <$> UK.create env x y z args := by
  unfold UK.create
  by_cases hpt : args.pseudoInvType ∉ ["pinv", "pinvh"]
  · simp only [if_pos hpt]; exact Eq.trans (b := Except.error .valueError) rfl rfl
  simp only [if_neg hpt]
  cases args.exactValues with
  | notBool => exact Eq.trans (b := Except.error .valueError) rfl rfl
  | bool b =>
  simp only [hm, UK.resolveModel, py_ok_bind, py_pure, py_map_bind, adjustData2_turn]
  refine py_bind_congr fun q _ => ?_
  refine py_bind_congr fun xc _ => ?_
  refine py_bind_congr fun yc _ => ?_
  refine py_bind_congr fun vp _ => ?_
  refine py_bind_congr fun lp _ => ?_
  refine py_bind_congr fun st _ => ?_
  refine py_bind_congr fun ext _ => ?_
  refine (congrArg (· >>= _) (setupPointLog_turn (args := args) xc yc args.anisotropyScaling args.anisotropyAngle k rfl rfl rfl)).trans ?_
  refine py_bind_congr fun pl _ => ?_
  refine py_bind_congr fun sp _ => ?_
  refine py_bind_congr fun fn _ => ?_
  rfl

theorem UK.execute_angle {n : ℕ} (s : UK n) (a' : ℝ) (h : ∀ c p, adjust2 c s.anisotropyScaling a' p = adjust2 c s.anisotropyScaling s.anisotropyAngle p)
    (ea : UKExecArgs) : UK.execute { s with anisotropyAngle := a' } ea = UK.execute s ea := by
  have h3 : ∀ pts, ({ s with anisotropyAngle := a' } : UK n).queries pts = s.queries pts := by
    intro pts
    have e : ({ s with anisotropyAngle := a' } : UK n).adjustPoint = s.adjustPoint := funext fun p => h _ _
    have e' : ({ s with anisotropyAngle := a' } : UK n).pts = s.pts := rfl
    unfold UK.queries
    rw [e, e']
  have h4 : ∀ A qs sp, ({ s with anisotropyAngle := a' } : UK n).execVector A qs sp = s.execVector A qs sp := by
    intro A qs sp
    unfold UK.execVector
    rfl
  have h5 : ∀ A qs mk sp, ({ s with anisotropyAngle := a' } : UK n).execLoop A qs mk sp = s.execLoop A qs mk sp := by
    intro A qs mk sp
    unfold UK.execLoop
    rfl
  unfold UK.execute
  refine congrArg (Functor.map Prod.fst) ?_
  unfold UK.executeW
  refine if_congr Iff.rfl (Eq.trans (b := Except.error .valueError) rfl rfl) ?_
  refine py_bind_congr (x := s.getKrigingMatrix) fun aw haw => ?_
  refine py_bind_congr fun pm _ => ?_
  refine py_bind_congr (x := s.specGrids ea) fun sp _ => ?_
  refine if_congr Iff.rfl (Eq.trans (b := Except.error .castingError) rfl rfl) ?_
  dsimp only
  rw [h3]
  refine if_congr Iff.rfl ?_ (if_congr Iff.rfl ?_ (Eq.trans (b := Except.error .valueError) rfl rfl))
  · exact congrArg (· >>= _) (h4 aw.1 _ sp)
  · exact congrArg (· >>= _) (h5 aw.1 _ pm.2 sp)

/-- Full turns of the angle have no effect on any result of universal kriging, whatever the drift terms. -/
theorem C16_full_turn_uk {n : ℕ} {env : Env} {x y z : Fin n → ℝ} {args : UKArgs} {s : UK n}
    (h : UK.create env x y z args = .ok s) (k : ℤ) :
    ∃ s', UK.create env x y z { args with anisotropyAngle := args.anisotropyAngle + 360 * k } = .ok s' ∧
      s'.lags = s.lags ∧ s'.params = s.params ∧ s'.stats = s.stats ∧ ∀ ea, s'.execute ea = s.execute ea := by
  have hcases : (∃ m, args.variogramModel = .gstools m) ∨ ∃ m, args.variogramModel = .name m := by
    cases args.variogramModel with
    | gstools m => exact .inl ⟨m, rfl⟩
    | name m => exact .inr ⟨m, rfl⟩
  rcases hcases with ⟨m, hm⟩ | ⟨m, hm⟩
  · exact ⟨s, (C83_gstools_uk env x y z args m hm args.variogramFunction args.params args.anisotropyScaling _).trans h, rfl, rfl, rfl, fun _ => rfl⟩
  · refine ⟨_, (UK.create_turn env x y z args hm k).trans (congrArg _ h), rfl, rfl, rfl, fun ea => UK.execute_angle s _ (fun c p => ?_) ea⟩
    obtain ⟨-, _, _, _, _, _, _, _, _, _, _, _, _, _, _, _, _, _, _, _, -, h1, -, -, -, -, -, -, -, -, -, -, rfl⟩ := UK.create_ok h
    rw [hm] at h1
    cases h1
    exact adjust2_turn _ _ _ _ _

theorem UK3D.create_turn {n : ℕ} (env : Env) (x y z v : Fin n → ℝ) (args : UK3DArgs) {m : String} (hm : args.variogramModel = .name m) {an' : Aniso3}
    (h : ∀ xc yc zc a b c, adjustPoint3 xc yc zc an' a b c = adjustPoint3 xc yc zc args.aniso a b c) :
    UK3D.create env x y z v { args with aniso := an' } = (fun s => { s with aniso := an' }) <$> UK3D.create env x y z v args := by
  unfold UK3D.create
  by_cases hpt : args.pseudoInvType ∉ ["pinv", "pinvh"]
  · simp only [if_pos hpt]; exact Eq.trans (b := Except.error .valueError) rfl rfl
  simp only [if_neg hpt]
  cases args.exactValues with
  | notBool => exact Eq.trans (b := Except.error .valueError) rfl rfl
  | bool b =>
  simp only [hm, OK3D.resolveModel, py_ok_bind, py_pure, py_map_bind, h]
  refine py_bind_congr fun q _ => ?_
  refine py_bind_congr fun xc _ => ?_
  refine py_bind_congr fun yc _ => ?_
  refine py_bind_congr fun zc _ => ?_
  refine py_bind_congr fun vp _ => ?_
  refine py_bind_congr fun lp _ => ?_
  refine py_bind_congr fun st _ => ?_
  refine py_bind_congr fun sp _ => ?_
  refine py_bind_congr fun fn _ => ?_
  rfl

theorem UK3D.execute_angle {n : ℕ} (s : UK3D n) {an' : Aniso3} (h : ∀ xc yc zc a b c, adjustPoint3 xc yc zc an' a b c = adjustPoint3 xc yc zc s.aniso a b c)
    (ea : UK3DExecArgs) : UK3D.execute { s with aniso := an' } ea = UK3D.execute s ea := by
  have h3 : ∀ pts, ({ s with aniso := an' } : UK3D n).queries pts = s.queries pts := by
    intro pts
    have e : ({ s with aniso := an' } : UK3D n).adjustPoint = s.adjustPoint := funext fun p => h _ _ _ _ _ _
    have e' : ({ s with aniso := an' } : UK3D n).pts = s.pts := rfl
    unfold UK3D.queries
    rw [e, e']
  have h4 : ∀ A qs sp, ({ s with aniso := an' } : UK3D n).execVector A qs sp = s.execVector A qs sp := by
    intro A qs sp
    unfold UK3D.execVector
    rfl
  have h5 : ∀ A qs mk sp, ({ s with aniso := an' } : UK3D n).execLoop A qs mk sp = s.execLoop A qs mk sp := by
    intro A qs mk sp
    unfold UK3D.execLoop
    rfl
  unfold UK3D.execute
  refine congrArg (Functor.map Prod.fst) ?_
  unfold UK3D.executeW
  refine if_congr Iff.rfl (Eq.trans (b := Except.error .valueError) rfl rfl) ?_
  refine py_bind_congr (x := s.getKrigingMatrix) fun aw haw => ?_
  refine py_bind_congr fun pm _ => ?_
  refine py_bind_congr (x := s.specGrids ea) fun sp _ => ?_
  refine if_congr Iff.rfl (Eq.trans (b := Except.error .castingError) rfl rfl) ?_
  dsimp only
  rw [h3]
  refine if_congr Iff.rfl ?_ (if_congr Iff.rfl ?_ (Eq.trans (b := Except.error .valueError) rfl rfl))
  · exact congrArg (· >>= _) (h4 aw.1 _ sp)
  · exact congrArg (· >>= _) (h5 aw.1 _ pm.2 sp)

/-- Full turns of the angles have no effect on any result of universal kriging in space. -/
theorem C16_full_turn_uk3d {n : ℕ} {env : Env} {x y z v : Fin n → ℝ} {args : UK3DArgs} {s : UK3D n}
    (h : UK3D.create env x y z v args = .ok s) (a b c : ℤ) {an' : Aniso3}
    (han : an' = { args.aniso with angleX := args.aniso.angleX + 360 * a, angleY := args.aniso.angleY + 360 * b, angleZ := args.aniso.angleZ + 360 * c }) :
    ∃ s', UK3D.create env x y z v { args with aniso := an' } = .ok s' ∧
      s'.lags = s.lags ∧ s'.params = s.params ∧ s'.stats = s.stats ∧ ∀ ea, s'.execute ea = s.execute ea := by
  have hadj : ∀ xc yc zc p q r, adjustPoint3 xc yc zc an' p q r = adjustPoint3 xc yc zc args.aniso p q r :=
    fun xc yc zc p q r => han ▸ adjustPoint3_turn xc yc zc args.aniso a b c p q r
  have hcases : (∃ m, args.variogramModel = .gstools m) ∨ ∃ m, args.variogramModel = .name m := by
    cases args.variogramModel with
    | gstools m => exact .inl ⟨m, rfl⟩
    | name m => exact .inr ⟨m, rfl⟩
  rcases hcases with ⟨m, hm⟩ | ⟨m, hm⟩
  · exact ⟨s, (C83_gstools_uk3d env x y z v args m hm args.variogramFunction args.params an').trans h, rfl, rfl, rfl, fun _ => rfl⟩
  · refine ⟨_, (UK3D.create_turn env x y z v args hm hadj).trans (congrArg _ h), rfl, rfl, rfl, fun ea => UK3D.execute_angle s ?_ ea⟩
    obtain ⟨-, _, _, _, _, _, _, _, _, _, _, _, _, _, _, _, _, _, -, h1, -, -, -, -, -, -, -, -, -, rfl⟩ := UK3D.create_ok h
    rw [hm] at h1
    cases h1
    exact hadj

/-! ### Examples -/

section Examples
open Demo

/-- Two turns backwards. -/
example (z : Fin 4 → ℝ) : ∃ s', UK.create stdEnv x4 y4 z { B2 with anisotropyAngle := -720 } = .ok s' ∧ ∀ ea, s'.execute ea = (U2 z).execute ea := by
  obtain ⟨s', h, -, -, -, h'⟩ := C16_full_turn_uk (U2_ok z) (-2)
  have e : (B2.anisotropyAngle + 360 * ((-2 : ℤ) : ℝ)) = -720 := by simp [uany]; norm_num
  rw [e] at h
  exact ⟨s', h, h'⟩

example (v : Fin 4 → ℝ) := C16_full_turn_uk3d (U3_ok v) 1 0 (-3) rfl

end Examples

end
end PyKrige
