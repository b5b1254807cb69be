import Verif.Lemmas.UK3DExec
import Verif.Lemmas.Create
import Verif.Examples.Demo

/-!
# C22: universal kriging without drift terms is ordinary kriging
-/

namespace PyKrige
noncomputable section
open Matrix

/-- The arguments of `OrdinaryKriging` that correspond to those of a `UniversalKriging` call:
Euclidean coordinates, statistics computed, everything else as given. -/
def Spec.sameArgs (u : UKArgs) : OKArgs where
  variogramModel := u.variogramModel
  params := u.params
  variogramFunction := u.variogramFunction
  nlags := u.nlags
  weight := u.weight
  anisotropyScaling := u.anisotropyScaling
  anisotropyAngle := u.anisotropyAngle
  enableStatistics := true
  coordinatesType := "euclidean"
  exactValues := u.exactValues
  pseudoInv := u.pseudoInv
  pseudoInvType := u.pseudoInvType

/-- The arguments of `OrdinaryKriging3D` that correspond to those of a `UniversalKriging3D` call. -/
def Spec.sameArgs3 (u : UK3DArgs) : OK3DArgs where
  variogramModel := u.variogramModel
  params := u.params
  variogramFunction := u.variogramFunction
  nlags := u.nlags
  weight := u.weight
  aniso := u.aniso
  exactValues := u.exactValues
  pseudoInv := u.pseudoInv
  pseudoInvType := u.pseudoInvType

/-- None of the five drift terms is requested. -/
def Spec.NoDriftTerms (terms : List String) : Prop :=
  ∀ t ∈ ["regional_linear", "external_Z", "point_log", "specified", "functional"], t ∉ terms

/-- The universal kriging object with the attributes of an ordinary kriging object and no drift. -/
def UK.ofOK {n : ℕ} (s : OK n) : UK n where
  variogramModel := s.variogramModel
  model := s.model
  exactValues := s.exactValues
  pseudoInv := s.pseudoInv
  pseudoInvType := s.pseudoInvType
  variogramFunction := s.variogramFunction
  functionName := s.functionName
  X_ORIG := s.X_ORIG
  Y_ORIG := s.Y_ORIG
  Z := s.Z
  XCENTER := s.XCENTER
  YCENTER := s.YCENTER
  anisotropyScaling := s.anisotropyScaling
  anisotropyAngle := s.anisotropyAngle
  X_ADJUSTED := s.X_ADJUSTED
  Y_ADJUSTED := s.Y_ADJUSTED
  lags := s.lags
  params := s.params
  stats := s.stats
  regionalLinear := false
  pointLog := none
  externalZ := none
  specified := none
  functional := none

/-- The same in 3D. -/
def UK3D.ofOK {n : ℕ} (s : OK3D n) : UK3D n where
  variogramModel := s.variogramModel
  model := s.model
  exactValues := s.exactValues
  pseudoInv := s.pseudoInv
  pseudoInvType := s.pseudoInvType
  variogramFunction := s.variogramFunction
  functionName := s.functionName
  X_ORIG := s.X_ORIG
  Y_ORIG := s.Y_ORIG
  Z_ORIG := s.Z_ORIG
  VALUES := s.VALUES
  XCENTER := s.XCENTER
  YCENTER := s.YCENTER
  ZCENTER := s.ZCENTER
  aniso := s.aniso
  X_ADJUSTED := s.X_ADJUSTED
  Y_ADJUSTED := s.Y_ADJUSTED
  Z_ADJUSTED := s.Z_ADJUSTED
  lags := s.lags
  params := s.params
  stats := s.stats
  regionalLinear := false
  specified := none
  functional := none

theorem resolve_uk_ok (env : Env) (vm : ModelArg) (f : FunArg) (p : ParamArg) (sc an : ℝ) :
    UK.resolveModel env vm f p sc an = OK.resolveModel env "euclidean" vm f p sc an := by
  cases vm with
  | name s => rfl
  | gstools m =>
    unfold UK.resolveModel OK.resolveModel
    simp

theorem UK.create_noDrift {n : ℕ} (env : Env) (x y z : Fin n → ℝ) (u : UKArgs)
    (hu : Spec.NoDriftTerms u.driftTerms) :
    UK.create env x y z u = UK.ofOK <$> OK.create env x y z (Spec.sameArgs u) := by
  have h1 : "external_Z" ∉ u.driftTerms := hu _ (by simp)
  have h2 : "point_log" ∉ u.driftTerms := hu _ (by simp)
  have h3 : "specified" ∉ u.driftTerms := hu _ (by simp)
  have h4 : "functional" ∉ u.driftTerms := hu _ (by simp)
  have h5 : "regional_linear" ∉ u.driftTerms := hu _ (by simp)
  unfold UK.create OK.create
  have e1 : setupExternalZ x y u = .ok none := if_neg h1
  have e2 : ∀ a b c d, setupPointLog a b c d u = .ok none := fun a b c d => if_neg h2
  have e3 : setupSpecifiedTerm n u.driftTerms u.specifiedDrift = .ok none := if_neg h3
  have e4 : setupFunctionalTerm u.driftTerms u.functionalDrift = .ok none := if_neg h4
  simp only [Spec.sameArgs, e1, e2, e3, e4, h5, decide_false, py_ok_bind, py_pure, if_true,
    OK.setupCoordinates, resolve_uk_ok]
  by_cases hp : u.pseudoInvType ∉ ["pinv", "pinvh"]
  · simp only [if_pos hp]; rfl
  simp only [if_neg hp]
  cases u.exactValues with
  | notBool => rfl
  | bool b =>
    simp only [py_ok_bind]
    cases OK.resolveModel env "euclidean" u.variogramModel u.variogramFunction u.params
      u.anisotropyScaling u.anisotropyAngle with
    | error e => rfl
    | ok r =>
      obtain ⟨name, model, fArg, pArg, sc, an⟩ := r
      simp only [py_ok_bind]
      cases chooseFunction name fArg with
      | error e => rfl
      | ok ff =>
        obtain ⟨f, fname⟩ := ff
        simp only [py_ok_bind]
        cases midrange x with
        | error e => rfl
        | ok xc =>
          cases midrange y with
          | error e => rfl
          | ok yc =>
            simp only [py_ok_bind]
            cases makeVariogramParameterList name pArg with
            | error e => rfl
            | ok vp =>
              simp only [py_ok_bind]
              cases initializeVariogramModel env (adjustData2 x y xc yc sc an) z name vp f u.nlags
                u.weight "euclidean" with
              | error e => rfl
              | ok lp =>
                obtain ⟨lags, ps⟩ := lp
                simp only [py_ok_bind]
                cases findStatistics (adjustData2 x y xc yc sc an) z f ps "euclidean" u.pseudoInv with
                | error e => rfl
                | ok st => rfl

theorem UK3D.create_noDrift {n : ℕ} (env : Env) (x y z v : Fin n → ℝ) (u : UK3DArgs)
    (hu : Spec.NoDriftTerms u.driftTerms) :
    UK3D.create env x y z v u = UK3D.ofOK <$> OK3D.create env x y z v (Spec.sameArgs3 u) := by
  have h3 : "specified" ∉ u.driftTerms := hu _ (by simp)
  have h4 : "functional" ∉ u.driftTerms := hu _ (by simp)
  have h5 : "regional_linear" ∉ u.driftTerms := hu _ (by simp)
  unfold UK3D.create OK3D.create
  have e3 : setupSpecifiedTerm n u.driftTerms u.specifiedDrift = .ok none := if_neg h3
  have e4 : setupFunctionalTerm u.driftTerms u.functionalDrift = .ok none := if_neg h4
  by_cases hp : u.pseudoInvType ∉ ["pinv", "pinvh"]
  · rw [if_pos hp, if_pos (c := (Spec.sameArgs3 u).pseudoInvType ∉ ["pinv", "pinvh"]) hp]; rfl
  rw [if_neg hp, if_neg (c := (Spec.sameArgs3 u).pseudoInvType ∉ ["pinv", "pinvh"]) hp]
  simp only [Spec.sameArgs3, e3, e4, h5, decide_false, py_ok_bind, py_pure]
  cases u.exactValues with
  | notBool => rfl
  | bool b =>
    simp only [py_ok_bind]
    cases OK3D.resolveModel env u.variogramModel u.variogramFunction u.params u.aniso with
    | error e => rfl
    | ok r =>
      obtain ⟨name, model, fArg, pArg, an⟩ := r
      simp only [py_ok_bind]
      cases chooseFunction name fArg with
      | error e => rfl
      | ok ff =>
        obtain ⟨f, fname⟩ := ff
        simp only [py_ok_bind]
        cases midrange x with
        | error e => rfl
        | ok xc =>
          cases midrange y with
          | error e => rfl
          | ok yc =>
            cases midrange z with
            | error e => rfl
            | ok zc =>
              simp only [py_ok_bind]
              cases makeVariogramParameterList name pArg with
              | error e => rfl
              | ok vp =>
                simp only [py_ok_bind]
                cases initializeVariogramModel env
                  (fun i => adjustPoint3 xc yc zc an (x i) (y i) (z i)) v name vp f u.nlags
                  u.weight "euclidean" with
                | error e => rfl
                | ok lp =>
                  obtain ⟨lags, ps⟩ := lp
                  simp only [py_ok_bind]
                  cases findStatistics (fun i => adjustPoint3 xc yc zc an (x i) (y i) (z i)) v f ps
                    "euclidean" u.pseudoInv with
                  | error e => rfl
                  | ok st => rfl

/-- The two ways of writing the unbiasedness row and column. -/
theorem setUnbias_plain {n : ℕ} (a : Matrix (Fin (n + 1)) (Fin (n + 1)) ℝ) :
    setUnbias n n a = setEntry (setCol (setRow a n 1) n 1) n n 0 := by
  funext r c
  unfold setUnbias setEntry setCol setRow
  have hr := r.isLt
  have hc := c.isLt
  grind

theorem UK.ofOK_matrix {n : ℕ} (s : OK n) (he : s.coordinatesType = "euclidean") :
    (UK.ofOK s).getKrigingMatrix = (do
      let a ← s.getKrigingMatrix
      return ((a : Matrix (Fin ((UK.ofOK s).nWithDrifts + 1)) (Fin ((UK.ofOK s).nWithDrifts + 1)) ℝ),
        false)) := by
  unfold UK.getKrigingMatrix OK.getKrigingMatrix
  show (s.variogramFunction s.params >>= _) = _
  cases s.variogramFunction s.params with
  | error e => rfl
  | ok γ =>
    simp only [py_ok_bind, py_pure]
    have hd : (fun i j => -γ (s.dataDist i j)) = fun i j => -γ (euclid (s.pts i) (s.pts j)) := by
      funext i j; unfold OK.dataDist; rw [if_pos he]
    rw [hd]
    refine congrArg Except.ok (Prod.ext ?_ ?_)
    · exact setUnbias_plain _
    · show decide (n ≠ n) = false
      simp

theorem UK.ofOK_bd {n : ℕ} (s : OK n) (pts : List (ℝ × ℝ)) (he : s.coordinatesType = "euclidean") :
    ((UK.ofOK s).queries pts).map UKQuery.bd = (pts.map fun p =>
      adjust2 ![s.XCENTER, s.YCENTER] s.anisotropyScaling
        s.anisotropyAngle ![p.1, p.2]).map fun q => s.queryDist q := by
  unfold UK.queries
  rw [List.map_map, List.map_map]
  have : ∀ k : ℕ, List.map (UKQuery.bd ∘ fun p : (ℝ × ℝ) × ℕ =>
      ({ j := p.2, xo := p.1.1, yo := p.1.2, adj := (UK.ofOK s).adjustPoint p.1
         bd := fun i => euclid ((UK.ofOK s).adjustPoint p.1) ((UK.ofOK s).pts i) } : UKQuery n))
      (pts.zipIdx k) = pts.map ((fun q => s.queryDist q) ∘ fun p =>
        adjust2 ![s.XCENTER, s.YCENTER] s.anisotropyScaling s.anisotropyAngle ![p.1, p.2]) := by
    induction pts with
    | nil => intro k; rfl
    | cons p ps ih =>
      intro k
      rw [List.zipIdx_cons, List.map_cons, List.map_cons, ih]
      congr 1
      funext i
      simp only [Function.comp, OK.queryDist, if_pos he]
      rfl
  exact this 0

theorem UK.ofOK_vector {n : ℕ} (s : OK n) (a : Matrix (Fin (n + 1)) (Fin (n + 1)) ℝ)
    (pts : List (ℝ × ℝ)) (he : s.coordinatesType = "euclidean") (spec : List (List ℝ)) :
    (UK.ofOK s).execVector a ((UK.ofOK s).queries pts) spec = (do
      let l ← s.execVector a ((pts.map fun p => adjust2 ![s.XCENTER, s.YCENTER] s.anisotropyScaling
        s.anisotropyAngle ![p.1, p.2]).map fun q => s.queryDist q)
      return (l, false)) := by
  classical
  unfold UK.execVector OK.execVector
  show (invertPython s.pseudoInv s.pseudoInvType a >>= _) = _
  cases invertPython s.pseudoInv s.pseudoInvType a with
  | error e => rfl
  | ok ai =>
    simp only [py_ok_bind, py_pure]
    show (s.variogramFunction s.params >>= _) = _
    cases s.variogramFunction s.params with
    | error e => rfl
    | ok γ =>
      simp only [py_ok_bind]
      have hext : ((UK.ofOK s).queries pts).mapM (UK.ofOK s).extAt =
          .ok (((UK.ofOK s).queries pts).map fun _ => (0 : ℝ)) := by
        generalize (UK.ofOK s).queries pts = qs
        induction qs with
        | nil => rfl
        | cons q qs ih =>
          rw [List.mapM_cons, ih]; rfl
      rw [hext]
      simp only [py_ok_bind]
      rw [← UK.ofOK_bd s pts he]
      generalize (UK.ofOK s).queries pts = qs
      have hz : (∃ row ∈ qs.map UKQuery.bd, ∃ k, |row k| ≤ eps) ↔ ∃ q ∈ qs, ∃ k, |q.bd k| ≤ eps := by
        simp
      rw [List.zipWith_map_right, List.zipWith_self, List.map_map, List.map_map, List.map_map, List.any_map]
      refine congrArg Except.ok (Prod.ext ?_ ?_)
      · refine List.map_congr_left fun q hq => ?_
        have hrow : ∀ inst : Decidable ((∃ row ∈ qs.map UKQuery.bd, ∃ k, |row k| ≤ eps) ∧
            s.exactValues = true),
            (((UK.ofOK s).vectorRow γ (∃ q ∈ qs, ∃ k, |q.bd k| ≤ eps) spec 0 q).1 :
            Fin (n + 1) → ℝ) = setAt (@ite _ ((∃ row ∈ qs.map UKQuery.bd, ∃ k, |row k| ≤ eps) ∧
              s.exactValues = true) inst (setWhere (setHead (fun _ => 0) n fun k => -γ (q.bd k)) n
                (fun k => |q.bd k| ≤ eps) 0)
              (setHead (fun _ => 0) n fun k => -γ (q.bd k))) n 1 := by
          intro inst
          unfold UK.vectorRow
          dsimp only
          by_cases h : (∃ q ∈ qs, ∃ k, |q.bd k| ≤ eps) ∧ s.exactValues = true
          · rw [if_pos (⟨hz.2 h.1, h.2⟩ : (∃ row ∈ qs.map UKQuery.bd, ∃ k, |row k| ≤ eps) ∧
              s.exactValues = true),
              if_pos (show (∃ q ∈ qs, ∃ k, |q.bd k| ≤ eps) ∧ (UK.ofOK s).exactValues = true from h)]
            rfl
          · rw [if_neg (fun h' => h ⟨hz.1 h'.1, h'.2⟩ : ¬ ((∃ row ∈ qs.map UKQuery.bd, ∃ k, |row k| ≤ eps) ∧
              s.exactValues = true)),
              if_neg (show ¬ ((∃ q ∈ qs, ∃ k, |q.bd k| ≤ eps) ∧ (UK.ofOK s).exactValues = true) from h)]
            rfl
        exact congrArg (fun b : Fin (n + 1) → ℝ =>
          (∑ k : Fin n, (ai *ᵥ b) k.castSucc * s.Z k, ∑ k, (ai *ᵥ b) k * -b k)) (hrow _)
      · rw [List.any_eq_false]
        intro q _
        show ¬ decide (n ≠ n) = true
        simp

theorem UK.ofOK_loop {n : ℕ} (s : OK n) (a : Matrix (Fin (n + 1)) (Fin (n + 1)) ℝ)
    (pts : List (ℝ × ℝ)) (mask : List Bool) (he : s.coordinatesType = "euclidean")
    (spec : List (List ℝ)) :
    (UK.ofOK s).execLoop a ((UK.ofOK s).queries pts) mask spec = (do
      let l ← s.execLoop a ((pts.map fun p => adjust2 ![s.XCENTER, s.YCENTER] s.anisotropyScaling
        s.anisotropyAngle ![p.1, p.2]).map fun q => s.queryDist q) mask
      return (l, false)) := by
  classical
  unfold UK.execLoop OK.execLoop
  show (invertPython s.pseudoInv s.pseudoInvType a >>= _) = _
  cases invertPython s.pseudoInv s.pseudoInvType a with
  | error e => rfl
  | ok ai =>
    simp only [py_ok_bind, py_pure]
    rw [← UK.ofOK_bd s pts he]
    generalize (UK.ofOK s).queries pts = qs
    have body : ∀ q : UKQuery n, (UK.ofOK s).loopBody ai spec q =
        (do let v ← s.loopBody ai q.bd
            return (v, false)) := by
      intro q
      unfold UK.loopBody OK.loopBody
      show (s.variogramFunction s.params >>= _) = _
      cases s.variogramFunction s.params with
      | error e => rfl
      | ok γ =>
        refine congrArg Except.ok (Prod.ext rfl ?_)
        show decide (n ≠ n) = false
        simp
    have main : ∀ (qs : List (UKQuery n)) (mask : List Bool), ((qs.zip mask).mapM fun p =>
        if p.2 = true then pure (((0 : ℝ), (0 : ℝ)), false) else (UK.ofOK s).loopBody ai spec p.1) =
        (do let l ← (((qs.map UKQuery.bd).zip mask).mapM fun p =>
              if p.2 = true then pure ((0 : ℝ), (0 : ℝ)) else s.loopBody ai p.1 : Py _)
            return l.map fun v => (v, false)) := by
      intro qs
      induction qs with
      | nil => intro mask; rfl
      | cons q qs ih =>
        intro mask
        cases mask with
        | nil => rfl
        | cons b mask =>
          rw [List.map_cons, List.zip_cons_cons, List.zip_cons_cons, List.mapM_cons, List.mapM_cons, ih]
          have hb : (if b = true then pure (((0 : ℝ), (0 : ℝ)), false) else
              (UK.ofOK s).loopBody ai spec q : Py _) =
              (do let v ← (if b = true then pure ((0 : ℝ), (0 : ℝ)) else s.loopBody ai q.bd : Py _)
                  return (v, false)) := by
            cases b
            · simpa using body q
            · rfl
          show ((if b = true then pure (((0 : ℝ), (0 : ℝ)), false) else
              (UK.ofOK s).loopBody ai spec q : Py _) >>= _) =
            ((if b = true then pure ((0 : ℝ), (0 : ℝ)) else s.loopBody ai q.bd : Py _) >>= _) >>= _
          rw [hb]
          generalize (if b = true then pure ((0 : ℝ), (0 : ℝ)) else s.loopBody ai q.bd : Py _) = w
          generalize (((qs.map UKQuery.bd).zip mask).mapM fun p =>
              if p.2 = true then pure ((0 : ℝ), (0 : ℝ)) else s.loopBody ai p.1 : Py _) = ws
          cases w with
          | error e => rfl
          | ok v => cases ws <;> rfl
    have := main qs mask
    simp only [py_pure] at this ⊢
    refine Eq.trans (b := ((List.mapM (fun p : UKQuery n × Bool => if p.2 = true then
      Except.ok (((0 : ℝ), (0 : ℝ)), false) else (UK.ofOK s).loopBody ai spec p.1) (qs.zip mask) : Py _) >>=
      fun l => Except.ok (l.map Prod.fst, l.any Prod.snd))) rfl ?_
    rw [this]
    generalize (((qs.map UKQuery.bd).zip mask).mapM fun p =>
              if p.2 = true then Except.ok ((0 : ℝ), (0 : ℝ)) else s.loopBody ai p.1 : Py _) = ws
    cases ws with
    | error e => rfl
    | ok l =>
      refine congrArg Except.ok (Prod.ext ?_ ?_)
      · show List.map Prod.fst (List.map _ l) = l
        rw [List.map_map]; simp [Function.comp_def]
      · show List.any (List.map _ l) Prod.snd = false
        simp

theorem UK3D.ofOK_matrix {n : ℕ} (s : OK3D n) :
    (UK3D.ofOK s).getKrigingMatrix = (do
      let a ← s.getKrigingMatrix
      return ((a : Matrix (Fin ((UK3D.ofOK s).nWithDrifts + 1)) (Fin ((UK3D.ofOK s).nWithDrifts + 1)) ℝ),
        false)) := by
  unfold UK3D.getKrigingMatrix OK3D.getKrigingMatrix
  show (s.variogramFunction s.params >>= _) = _
  cases s.variogramFunction s.params with
  | error e => rfl
  | ok γ =>
    simp only [py_ok_bind, py_pure]
    refine congrArg Except.ok (Prod.ext ?_ ?_)
    · exact setUnbias_plain _
    · show decide (n ≠ n) = false
      simp

theorem UK3D.ofOK_bd {n : ℕ} (s : OK3D n) (pts : List (ℝ × ℝ × ℝ)) :
    ((UK3D.ofOK s).queries pts).map UK3Query.bd = (pts.map fun p =>
      adjustPoint3 s.XCENTER s.YCENTER s.ZCENTER s.aniso p.1 p.2.1 p.2.2).map fun q => s.queryDist q := by
  unfold UK3D.queries
  rw [List.map_map, List.map_map]
  have : ∀ k : ℕ, List.map (UK3Query.bd ∘ fun p : (ℝ × ℝ × ℝ) × ℕ =>
      ({ j := p.2, xyz := zyx ((UK3D.ofOK s).adjustPoint p.1)
         bd := fun i => euclid (zyx ((UK3D.ofOK s).adjustPoint p.1)) (zyx ((UK3D.ofOK s).pts i)) } :
          UK3Query n))
      (pts.zipIdx k) = pts.map ((fun q => s.queryDist q) ∘ fun p =>
        adjustPoint3 s.XCENTER s.YCENTER s.ZCENTER s.aniso p.1 p.2.1 p.2.2) := by
    induction pts with
    | nil => intro k; rfl
    | cons p ps ih =>
      intro k
      rw [List.zipIdx_cons, List.map_cons, List.map_cons, ih]
      congr 1
  exact this 0

theorem UK3D.ofOK_vector {n : ℕ} (s : OK3D n) (a : Matrix (Fin (n + 1)) (Fin (n + 1)) ℝ)
    (pts : List (ℝ × ℝ × ℝ)) (spec : List (List ℝ)) :
    (UK3D.ofOK s).execVector a ((UK3D.ofOK s).queries pts) spec = (do
      let l ← s.execVector a ((pts.map fun p => adjustPoint3 s.XCENTER s.YCENTER s.ZCENTER s.aniso p.1 p.2.1 p.2.2).map fun q => s.queryDist q)
      return (l, false)) := by
  classical
  unfold UK3D.execVector OK3D.execVector
  show (invertPython s.pseudoInv s.pseudoInvType a >>= _) = _
  cases invertPython s.pseudoInv s.pseudoInvType a with
  | error e => rfl
  | ok ai =>
    simp only [py_ok_bind, py_pure]
    show (s.variogramFunction s.params >>= _) = _
    cases s.variogramFunction s.params with
    | error e => rfl
    | ok γ =>
      simp only [py_ok_bind]
      rw [← UK3D.ofOK_bd s pts]
      generalize (UK3D.ofOK s).queries pts = qs
      have hz : (∃ row ∈ qs.map UK3Query.bd, ∃ k, |row k| ≤ eps) ↔ ∃ q ∈ qs, ∃ k, |q.bd k| ≤ eps := by
        simp
      rw [List.map_map, List.map_map, List.map_map, List.any_map]
      refine congrArg Except.ok (Prod.ext ?_ ?_)
      · refine List.map_congr_left fun q hq => ?_
        have hrow : ∀ inst : Decidable ((∃ row ∈ qs.map UK3Query.bd, ∃ k, |row k| ≤ eps) ∧
            s.exactValues = true),
            (((UK3D.ofOK s).vectorRow γ (∃ q ∈ qs, ∃ k, |q.bd k| ≤ eps) spec q).1 :
            Fin (n + 1) → ℝ) = setAt (@ite _ ((∃ row ∈ qs.map UK3Query.bd, ∃ k, |row k| ≤ eps) ∧
              s.exactValues = true) inst (setWhere (setHead (fun _ => 0) n fun k => -γ (q.bd k)) n
                (fun k => |q.bd k| ≤ eps) 0)
              (setHead (fun _ => 0) n fun k => -γ (q.bd k))) n 1 := by
          intro inst
          unfold UK3D.vectorRow
          dsimp only
          by_cases h : (∃ q ∈ qs, ∃ k, |q.bd k| ≤ eps) ∧ s.exactValues = true
          · rw [if_pos (⟨hz.2 h.1, h.2⟩ : (∃ row ∈ qs.map UK3Query.bd, ∃ k, |row k| ≤ eps) ∧
              s.exactValues = true),
              if_pos (show (∃ q ∈ qs, ∃ k, |q.bd k| ≤ eps) ∧ (UK3D.ofOK s).exactValues = true from h)]
            rfl
          · rw [if_neg (fun h' => h ⟨hz.1 h'.1, h'.2⟩ : ¬ ((∃ row ∈ qs.map UK3Query.bd, ∃ k, |row k| ≤ eps) ∧
              s.exactValues = true)),
              if_neg (show ¬ ((∃ q ∈ qs, ∃ k, |q.bd k| ≤ eps) ∧ (UK3D.ofOK s).exactValues = true) from h)]
            rfl
        exact congrArg (fun b : Fin (n + 1) → ℝ =>
          (∑ k : Fin n, (ai *ᵥ b) k.castSucc * s.VALUES k, ∑ k, (ai *ᵥ b) k * -b k)) (hrow _)
      · rw [List.any_eq_false]
        intro q _
        show ¬ decide (n ≠ n) = true
        simp

theorem UK3D.ofOK_loop {n : ℕ} (s : OK3D n) (a : Matrix (Fin (n + 1)) (Fin (n + 1)) ℝ)
    (pts : List (ℝ × ℝ × ℝ)) (mask : List Bool)
    (spec : List (List ℝ)) :
    (UK3D.ofOK s).execLoop a ((UK3D.ofOK s).queries pts) mask spec = (do
      let l ← s.execLoop a ((pts.map fun p => adjustPoint3 s.XCENTER s.YCENTER s.ZCENTER s.aniso p.1 p.2.1 p.2.2).map fun q => s.queryDist q) mask
      return (l, false)) := by
  classical
  unfold UK3D.execLoop OK3D.execLoop
  show (invertPython s.pseudoInv s.pseudoInvType a >>= _) = _
  cases invertPython s.pseudoInv s.pseudoInvType a with
  | error e => rfl
  | ok ai =>
    simp only [py_ok_bind, py_pure]
    rw [← UK3D.ofOK_bd s pts]
    generalize (UK3D.ofOK s).queries pts = qs
    have body : ∀ q : UK3Query n, (UK3D.ofOK s).loopBody ai spec q =
        (do let v ← s.loopBody ai q.bd
            return (v, false)) := by
      intro q
      unfold UK3D.loopBody OK3D.loopBody
      show (s.variogramFunction s.params >>= _) = _
      cases s.variogramFunction s.params with
      | error e => rfl
      | ok γ =>
        refine congrArg Except.ok (Prod.ext rfl ?_)
        show decide (n ≠ n) = false
        simp
    have main : ∀ (qs : List (UK3Query n)) (mask : List Bool), ((qs.zip mask).mapM fun p =>
        if p.2 = true then pure (((0 : ℝ), (0 : ℝ)), false) else (UK3D.ofOK s).loopBody ai spec p.1) =
        (do let l ← (((qs.map UK3Query.bd).zip mask).mapM fun p =>
              if p.2 = true then pure ((0 : ℝ), (0 : ℝ)) else s.loopBody ai p.1 : Py _)
            return l.map fun v => (v, false)) := by
      intro qs
      induction qs with
      | nil => intro mask; rfl
      | cons q qs ih =>
        intro mask
        cases mask with
        | nil => rfl
        | cons b mask =>
          rw [List.map_cons, List.zip_cons_cons, List.zip_cons_cons, List.mapM_cons, List.mapM_cons, ih]
          have hb : (if b = true then pure (((0 : ℝ), (0 : ℝ)), false) else
              (UK3D.ofOK s).loopBody ai spec q : Py _) =
              (do let v ← (if b = true then pure ((0 : ℝ), (0 : ℝ)) else s.loopBody ai q.bd : Py _)
                  return (v, false)) := by
            cases b
            · simpa using body q
            · rfl
          show ((if b = true then pure (((0 : ℝ), (0 : ℝ)), false) else
              (UK3D.ofOK s).loopBody ai spec q : Py _) >>= _) =
            ((if b = true then pure ((0 : ℝ), (0 : ℝ)) else s.loopBody ai q.bd : Py _) >>= _) >>= _
          rw [hb]
          generalize (if b = true then pure ((0 : ℝ), (0 : ℝ)) else s.loopBody ai q.bd : Py _) = w
          generalize (((qs.map UK3Query.bd).zip mask).mapM fun p =>
              if p.2 = true then pure ((0 : ℝ), (0 : ℝ)) else s.loopBody ai p.1 : Py _) = ws
          cases w with
          | error e => rfl
          | ok v => cases ws <;> rfl
    have := main qs mask
    simp only [py_pure] at this ⊢
    refine Eq.trans (b := ((List.mapM (fun p : UK3Query n × Bool => if p.2 = true then
      Except.ok (((0 : ℝ), (0 : ℝ)), false) else (UK3D.ofOK s).loopBody ai spec p.1) (qs.zip mask) : Py _) >>=
      fun l => Except.ok (l.map Prod.fst, l.any Prod.snd))) rfl ?_
    rw [this]
    generalize (((qs.map UK3Query.bd).zip mask).mapM fun p =>
              if p.2 = true then Except.ok ((0 : ℝ), (0 : ℝ)) else s.loopBody ai p.1 : Py _) = ws
    cases ws with
    | error e => rfl
    | ok l =>
      refine congrArg Except.ok (Prod.ext ?_ ?_)
      · show List.map Prod.fst (List.map _ l) = l
        rw [List.map_map]; simp [Function.comp_def]
      · show List.any (List.map _ l) Prod.snd = false
        simp

theorem UK.ofOK_execute {n : ℕ} (env : Env) (s : OK n) (he : s.coordinatesType = "euclidean")
    (ea : ExecArgs) (hb : ea.backend = "vectorized" ∨ ea.backend = "loop") (hw : ea.nClosest = none)
    (spec : SpecArg) :
    (UK.ofOK s).execute { toExec := ea, spec := spec } = s.execute env ea := by
  unfold UK.execute UK.executeW OK.execute
  by_cases hs : ea.style ∉ ["grid", "masked", "points"]
  · rw [if_pos hs, if_pos hs]; rfl
  rw [if_neg hs, if_neg hs, UK.ofOK_matrix s he, hw]
  cases s.getKrigingMatrix with
  | error e => rfl
  | ok a =>
    simp only [py_ok_bind, py_pure]
    cases queryPoints ea with
    | error e => rfl
    | ok pm =>
      obtain ⟨pts, mask⟩ := pm
      simp only [py_ok_bind]
      have hsg : (UK.ofOK s).specGrids { toExec := ea, spec := spec } = .ok [] := rfl
      rw [hsg]
      simp only [py_ok_bind, OK.adjustQuery, if_pos he]
      have hne : ¬ (ea.backend = "C" ∧ ¬ env.cAvailable = true) := by
        rintro ⟨h, -⟩; rcases hb with h' | h' <;> rw [h] at h' <;> exact absurd h' (by decide)
      rw [if_neg hne]
      by_cases hi : (ea.xpoints.isInt && ea.ypoints.isInt) = true
      · rw [if_pos hi, if_pos hi]; rfl
      rw [if_neg hi, if_neg hi]
      simp only [py_ok_bind, OK.globalKrige]
      rcases hb with hb | hb
      · rw [if_pos hb, if_pos hb, UK.ofOK_vector s a pts he []]
        generalize s.execVector a _ = w
        cases w <;> rfl
      · rw [if_neg (by rw [hb]; decide), if_pos hb, if_neg (by rw [hb]; decide), if_pos hb,
          UK.ofOK_loop s a pts mask he []]
        generalize s.execLoop a _ mask = w
        cases w <;> rfl

theorem UK3D.ofOK_execute {n : ℕ} (env : Env) (s : OK3D n)
    (ea : ExecArgs3) (hb : ea.backend = "vectorized" ∨ ea.backend = "loop") (hw : ea.nClosest = none)
    (spec : SpecArg3) :
    (UK3D.ofOK s).execute { toExec := ea, spec := spec } = s.execute env ea := by
  unfold UK3D.execute UK3D.executeW OK3D.execute
  by_cases hs : ea.style ∉ ["grid", "masked", "points"]
  · rw [if_pos hs, if_pos hs]; rfl
  rw [if_neg hs, if_neg hs, UK3D.ofOK_matrix s, hw]
  cases s.getKrigingMatrix with
  | error e => rfl
  | ok a =>
    simp only [py_ok_bind, py_pure]
    cases queryPoints3 ea with
    | error e => rfl
    | ok pm =>
      obtain ⟨pts, mask⟩ := pm
      simp only [py_ok_bind]
      have hsg : (UK3D.ofOK s).specGrids { toExec := ea, spec := spec } = .ok [] := rfl
      rw [hsg]
      simp only [py_ok_bind, OK3D.adjustQuery]
      by_cases hi : (ea.xpoints.isInt && ea.ypoints.isInt && ea.zpoints.isInt) = true
      · rw [if_pos hi, if_pos hi]; rfl
      rw [if_neg hi, if_neg hi]
      simp only [py_ok_bind, OK3D.globalKrige]
      rcases hb with hb | hb
      · rw [if_pos hb, if_pos hb, UK3D.ofOK_vector s a pts []]
        generalize s.execVector a _ = w
        cases w <;> rfl
      · rw [if_neg (by rw [hb]; decide), if_pos hb, if_neg (by rw [hb]; decide), if_pos hb,
          UK3D.ofOK_loop s a pts mask []]
        generalize s.execLoop a _ mask = w
        cases w <;> rfl

/-- Constructing with no drift terms fails exactly when, and with the same exception as, constructing the
ordinary kriging object. -/
theorem C22_create_2d {n : ℕ} (env : Env) (x y z : Fin n → ℝ) (u : UKArgs)
    (hu : Spec.NoDriftTerms u.driftTerms) (e : PyErr) :
    UK.create env x y z u = .error e ↔ OK.create env x y z (Spec.sameArgs u) = .error e := by
  rw [UK.create_noDrift env x y z u hu]
  cases OK.create env x y z (Spec.sameArgs u) with
  | error e' => rw [show (UK.ofOK <$> (Except.error e' : Py (OK n))) = .error e' from rfl]; simp
  | ok s => rw [show (UK.ofOK <$> (Except.ok s : Py (OK n))) = .ok (UK.ofOK s) from rfl]; simp

theorem C22_create_3d {n : ℕ} (env : Env) (x y z v : Fin n → ℝ) (u : UK3DArgs)
    (hu : Spec.NoDriftTerms u.driftTerms) (e : PyErr) :
    UK3D.create env x y z v u = .error e ↔ OK3D.create env x y z v (Spec.sameArgs3 u) = .error e := by
  rw [UK3D.create_noDrift env x y z v u hu]
  cases OK3D.create env x y z v (Spec.sameArgs3 u) with
  | error e' => rw [show (UK3D.ofOK <$> (Except.error e' : Py (OK3D n))) = .error e' from rfl]; simp
  | ok s => rw [show (UK3D.ofOK <$> (Except.ok s : Py (OK3D n))) = .ok (UK3D.ofOK s) from rfl]; simp

/-- `UniversalKriging` without drift terms and `OrdinaryKriging` with the same settings: every `execute`
call with a backend both offer (and whatever specified-drift argument) returns the same arrays or raises
the same exception; the experimental variogram, the parameters and the statistics are the same too. -/
theorem C22_same_2d {n : ℕ} {env : Env} {x y z : Fin n → ℝ} {u : UKArgs} {su : UK n} {so : OK n}
    (hu : Spec.NoDriftTerms u.driftTerms) (h : UK.create env x y z u = .ok su)
    (h' : OK.create env x y z (Spec.sameArgs u) = .ok so) :
    (∀ (ea : ExecArgs) (spec : SpecArg), (ea.backend = "vectorized" ∨ ea.backend = "loop") →
      ea.nClosest = none → su.execute { toExec := ea, spec := spec } = so.execute env ea) ∧
    su.lags = so.lags ∧ su.params = so.params ∧ su.stats = so.stats := by
  have he : so.coordinatesType = "euclidean" := by
    obtain ⟨-, _, _, _, _, _, _, _, _, _, _, _, _, _, _, _, _, _, _, -, -, -, -, -, -, -, rfl⟩ := OK.create_ok h'
    rfl
  rw [UK.create_noDrift env x y z u hu, h'] at h
  obtain rfl : UK.ofOK so = su := Except.ok.inj h
  exact ⟨fun ea spec hb hw => UK.ofOK_execute env so he ea hb hw spec, rfl, rfl, rfl⟩

theorem C22_same_3d {n : ℕ} {env : Env} {x y z v : Fin n → ℝ} {u : UK3DArgs} {su : UK3D n} {so : OK3D n}
    (hu : Spec.NoDriftTerms u.driftTerms) (h : UK3D.create env x y z v u = .ok su)
    (h' : OK3D.create env x y z v (Spec.sameArgs3 u) = .ok so) :
    (∀ (ea : ExecArgs3) (spec : SpecArg3), (ea.backend = "vectorized" ∨ ea.backend = "loop") →
      ea.nClosest = none → su.execute { toExec := ea, spec := spec } = so.execute env ea) ∧
    su.lags = so.lags ∧ su.params = so.params ∧ su.stats = so.stats := by
  rw [UK3D.create_noDrift env x y z v u hu, h'] at h
  obtain rfl : UK3D.ofOK so = su := Except.ok.inj h
  exact ⟨fun ea spec hb hw => UK3D.ofOK_execute env so ea hb hw spec, rfl, rfl, rfl⟩

/-- The 'Kriging may fail' warnings are never issued, whatever the drift terms: neither while the matrix
is assembled, nor (for a call that returns) at any query point. -/
theorem C22_no_warning_2d {n : ℕ} {env : Env} {x y z : Fin n → ℝ} {u : UKArgs} {s : UK n}
    (h : UK.create env x y z u = .ok s) :
    (∀ a w, s.getKrigingMatrix = .ok (a, w) → w = false) ∧
    ∀ ea r w, s.executeW ea = .ok (r, w) → w = false := by
  obtain ⟨ht, _, _, _, _, _, _, _, _, _, _, _, _, _, _, _, _, _, _, _, -, -, -, -, -, -, -, -, -, -, -, -, rfl⟩ := UK.create_ok h
  constructor
  · intro a w hw
    rw [UK.getKrigingMatrix_eq] at hw
    obtain ⟨_, _, hw⟩ := py_bind_eq_ok.1 hw
    exact ((Prod.ext_iff.1 (Except.ok.inj hw)).2).symm
  · intro ea r w hw
    by_cases hs : ea.toExec.style ∈ ["grid", "masked", "points"]
    · rw [UK.executeW_eq _ ht ea hs] at hw
      simp only [py_bind_eq_ok, Prod.exists] at hw
      obtain ⟨_, _, _, _, _, _, _, hw⟩ := hw
      split at hw
      · simp at hw
      · obtain ⟨_, _, hw⟩ := py_bind_eq_ok.1 hw
        exact ((Prod.ext_iff.1 (Except.ok.inj hw)).2).symm
    · unfold UK.executeW at hw
      rw [if_pos hs] at hw
      simp at hw

theorem C22_no_warning_3d {n : ℕ} {env : Env} {x y z v : Fin n → ℝ} {u : UK3DArgs} {s : UK3D n}
    (h : UK3D.create env x y z v u = .ok s) :
    (∀ a w, s.getKrigingMatrix = .ok (a, w) → w = false) ∧
    ∀ ea r w, s.executeW ea = .ok (r, w) → w = false := by
  obtain ⟨ht, _, _, _, _, _, _, _, _, _, _, _, _, _, _, _, _, _, -, -, -, -, -, -, -, -, -, -, -, rfl⟩ := UK3D.create_ok h
  constructor
  · intro a w hw
    rw [UK3D.getKrigingMatrix_eq] at hw
    obtain ⟨_, _, hw⟩ := py_bind_eq_ok.1 hw
    exact ((Prod.ext_iff.1 (Except.ok.inj hw)).2).symm
  · intro ea r w hw
    by_cases hs : ea.toExec.style ∈ ["grid", "masked", "points"]
    · rw [UK3D.executeW_eq _ ht ea hs] at hw
      simp only [py_bind_eq_ok, Prod.exists] at hw
      obtain ⟨_, _, _, _, _, _, _, hw⟩ := hw
      split at hw
      · simp at hw
      · obtain ⟨_, _, hw⟩ := py_bind_eq_ok.1 hw
        exact ((Prod.ext_iff.1 (Except.ok.inj hw)).2).symm
    · unfold UK3D.executeW at hw
      rw [if_pos hs] at hw
      simp at hw

/-- Non-vacuity: for two data at distance 1 and a linear variogram both objects exist. -/
example (z : Fin 2 → ℝ) (c : ℝ) : ∃ su so,
    UK.create Spec.stdEnv Demo.X Demo.O z { params := .list [1, c] } = .ok su ∧
    OK.create Spec.stdEnv Demo.X Demo.O z (Spec.sameArgs { params := .list [1, c] }) = .ok so := by
  obtain ⟨ev, h2⟩ := Demo.expVar_ok (adjustData2 Demo.X Demo.O (1 / 2) 0 1 0) z 6
  obtain ⟨st, h3⟩ := Demo.stats_ok (adjustData2 Demo.X Demo.O (1 / 2) 0 1 0) z (Demo.vario c) false
  simp only [one_div] at h2 h3
  obtain ⟨so, hso⟩ : ∃ so, OK.create Spec.stdEnv Demo.X Demo.O z
      (Spec.sameArgs { params := .list [1, c] }) = .ok so := by
    simp [OK.create, Spec.sameArgs, OK.resolveModel, chooseFunction, variogramDict, OK.setupCoordinates,
      Demo.midrange_X, Demo.midrange_O, makeVariogramParameterList, initializeVariogramModel, h2, h3,
      variogramFunctionName]
  exact ⟨UK.ofOK so, so, by rw [UK.create_noDrift _ _ _ _ _ (by simp [Spec.NoDriftTerms]), hso]; rfl, hso⟩

example (v : Fin 2 → ℝ) (c : ℝ) : ∃ su so,
    UK3D.create Spec.stdEnv Demo.X Demo.O Demo.O v { params := .list [1, c] } = .ok su ∧
    OK3D.create Spec.stdEnv Demo.X Demo.O Demo.O v (Spec.sameArgs3 { params := .list [1, c] }) = .ok so := by
  obtain ⟨so, hso, -⟩ := Demo.ok3 v c true false
  have hso' : OK3D.create Spec.stdEnv Demo.X Demo.O Demo.O v
    (Spec.sameArgs3 { params := .list [1, c] }) = .ok so := hso
  exact ⟨UK3D.ofOK so, so, by rw [UK3D.create_noDrift _ _ _ _ _ _ (by simp [Spec.NoDriftTerms]), hso']; rfl, hso⟩

end
end PyKrige
