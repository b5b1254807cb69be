import Verif.Lemmas.Threads

/-! No step of `execute` writes into a common buffer. -/

namespace PyKrige
noncomputable section
open Matrix

variable {w : ℕ}

/-- Both result arrays were made by the program. -/
def Fresh2 (w : ℕ) (r : Arr × Arr) : Prop := Fresh w r.1 ∧ Fresh w r.2

/-- All three coordinate arrays were made by the program. -/
def Fresh3 (w : ℕ) (r : Arr × Arr × Arr) : Prop := Fresh w r.1 ∧ Fresh w r.2.1 ∧ Fresh w r.2.2

theorem Thr.Safe.ite {α : Type} {p : Prop} [Decidable p] {t u : Thr α} {Q : α → Prop} (h1 : p → t.Safe w Q)
    (h2 : ¬ p → u.Safe w Q) : (if p then t else u).Safe w Q := by
  split
  · exact h1 ‹_›
  · exact h2 ‹_›

/-- After `if p: raise`, the rest. -/
theorem Thr.Safe.raiseBind {α β : Type} {e : PyErr} {k : α → Thr β} {Q : β → Prop} :
    ((Thr.raise e : Thr α) >>= k).Safe w Q := trivial

theorem Arr.safe_copy (a : Arr) : a.copyT.Safe w (Fresh w) := .hereBind fun _ => .new _ _ _ _

theorem Arr.safe_flatten (a : Arr) : a.flattenT.Safe w (Fresh w) := .hereBind fun _ => .newList _ _

theorem Arr3.safe_flatten (a : Arr3) : a.flattenT.Safe w (Fresh w) := .hereBind fun _ => .newList _ _

theorem safe_vstack (a b : Arr) : (vstackT a b).Safe w (Fresh w) := .hereBind fun _ => .new _ _ _ _

theorem safe_vstack3 (a b c : Arr) : (vstack3T a b c).Safe w (Fresh w) := .hereBind fun _ => .new _ _ _ _

theorem safe_adjust2 {X : Arr} (hX : Fresh w X) (a b c d : ℝ) :
    (adjustForAnisotropy2T X a b c d).Safe w (Fresh w) := by
  unfold adjustForAnisotropy2T
  refine .ite (fun _ => .raiseBind) fun _ => ?_
  refine .hereBind fun _ => .assignBind hX <| .hereBind fun _ => .newBind fun p hp => .hereBind fun _ => ?_
  exact .assignBind hp.T (.pure hp.T)

theorem safe_adjust3 {X : Arr} (hX : Fresh w X) (a b c : ℝ) (an : Aniso3) :
    (adjustForAnisotropy3T X a b c an).Safe w (Fresh w) := by
  unfold adjustForAnisotropy3T
  refine .ite (fun _ => .raiseBind) fun _ => ?_
  refine .hereBind fun _ => .assignBind hX <| .hereBind fun _ => .newBind fun p hp => .hereBind fun _ => ?_
  exact .assignBind hp.T (.pure hp.T)

theorem safe_rightHandSides {n : ℕ} (γ : ℝ → ℝ) (e : Bool) (bd : List (Fin n → ℝ)) :
    (rightHandSidesT γ e bd).Safe w (Fresh w) := by
  unfold rightHandSidesT
  refine .newBind fun b hb => .assignBind hb ?_
  refine .ite (fun _ => ?_) fun _ => ?_
  · exact .assignBind hb <| .assignBind hb (.pure hb)
  · exact .assignBind hb (.pure hb)

theorem safe_rightHandSide {k : ℕ} (γ : ℝ → ℝ) (e : Bool) (bd : Fin k → ℝ) :
    (rightHandSideT γ e bd).Safe w (Fresh w) := by
  unfold rightHandSideT
  refine .newBind fun b hb => .assignBind hb ?_
  refine .ite (fun _ => ?_) fun _ => ?_
  · exact .assignBind hb <| .assignBind hb (.pure hb)
  · exact .assignBind hb (.pure hb)

theorem safe_fillResults {B : Type} {body : B → Thr (ℝ × ℝ)} (hbody : ∀ x, (body x).Safe w fun _ => True) {z s : Arr}
    (hz : Fresh w z) (hs : Fresh w s) (j : ℕ) (l : List (B × Bool)) :
    (fillResultsT body z s j l).Safe w fun _ => True := by
  induction l generalizing j with
  | nil => trivial
  | cons p l ih =>
    obtain ⟨x, m⟩ := p
    refine Thr.Safe.bind (Q := fun _ => True) (.ite (fun _ => trivial) fun _ => ?_) fun _ _ => ih _
    exact Thr.Safe.bind (hbody x) fun v _ => .assignBind hz (.assign hs _ _)

theorem safe_runLoop {B : Type} {body : B → Thr (ℝ × ℝ)} (hbody : ∀ x, (body x).Safe w fun _ => True)
    (l : List (B × Bool)) : (runLoopT body l).Safe w (Fresh2 w) := by
  refine .newBind fun z hz => .newBind fun s hs => ?_
  exact Thr.Safe.bind (safe_fillResults hbody hz hs 0 l) fun _ _ => .pure ⟨hz, hs⟩

theorem safe_newResults (p : Py (List (ℝ × ℝ))) : (newResultsT p).Safe w (Fresh2 w) := by
  refine .liftBind _ fun l => .newListBind fun z hz => .newListBind fun s hs => .pure ⟨hz, hs⟩

theorem safe_meshgrid (x y : Arr) : (meshgridRefT x y).Safe w (Fresh2 w) :=
  .hereBind fun _ => .newListBind fun _ h1 => .newListBind fun _ h2 => .pure ⟨h1, h2⟩

theorem safe_meshgrid3 (x y z : Arr) : (meshgridRef3T x y z).Safe w (Fresh3 w) :=
  .hereBind fun _ => .newListBind fun _ h1 => .newListBind fun _ h2 => .newListBind fun _ h3 => .pure ⟨h1, h2, h3⟩

theorem safe_queryPoints (args : ExecRefs) {x y : Arr} (hx : Fresh w x) (hy : Fresh w y) :
    (queryPointsRefT args x y).Safe w (Fresh3 w) := by
  unfold queryPointsRefT
  refine .ite (fun _ => .ite (fun _ => ?_) fun _ => ?_) fun _ => .ite (fun _ => ?_) fun _ => .raise _
  · cases args.mask with
    | none => exact .raise _
    | some m =>
      refine .ite (fun _ => .ite (fun _ => ?_) fun _ => .raise _) fun _ => ?_
      · exact Thr.Safe.bind m.T.safe_flatten fun mask hm => Thr.Safe.bind (safe_meshgrid x y) fun g hg =>
          .pure ⟨hg.1, hg.2, hm⟩
      · exact Thr.Safe.bind m.safe_flatten fun mask hm => Thr.Safe.bind (safe_meshgrid x y) fun g hg =>
          .pure ⟨hg.1, hg.2, hm⟩
  · exact Thr.Safe.bind (safe_meshgrid x y) fun g hg => .newBoolsBind fun mask hm => .pure ⟨hg.1, hg.2, hm⟩
  · exact .ite (fun _ => .raise _) fun _ => .newBoolsBind fun mask hm => .pure ⟨hx, hy, hm⟩

theorem safe_queryPoints3 (args : ExecRefs3) {x y z : Arr} (hx : Fresh w x) (hy : Fresh w y) (hz : Fresh w z) :
    (queryPoints3RefT args x y z).Safe w fun r => Fresh3 w r.1 ∧ Fresh w r.2 := by
  unfold queryPoints3RefT
  refine .ite (fun _ => .ite (fun _ => ?_) fun _ => ?_) fun _ => .ite (fun _ => ?_) fun _ => .raise _
  · rcases args.mask with _ | m | m
    · exact .raise _
    · exact .raise _
    · refine .ite (fun _ => .ite (fun _ => ?_) fun _ => .raise _) fun _ => ?_
      · exact Thr.Safe.bind m.swap.safe_flatten fun mask hm => Thr.Safe.bind (safe_meshgrid3 x y z) fun g hg =>
          .pure ⟨hg, hm⟩
      · exact Thr.Safe.bind m.safe_flatten fun mask hm => Thr.Safe.bind (safe_meshgrid3 x y z) fun g hg =>
          .pure ⟨hg, hm⟩
  · exact Thr.Safe.bind (safe_meshgrid3 x y z) fun g hg => .newBoolsBind fun mask hm => .pure ⟨hg, hm⟩
  · exact .ite (fun _ => .raise _) fun _ => .ite (fun _ => .raise _) fun _ =>
      .newBoolsBind fun mask hm => .pure ⟨⟨hx, hy, hz⟩, hm⟩

theorem OKRef.safe_adjustQuery (o : OKRef) {x y : Arr} (hx : Fresh w x) (hy : Fresh w y) :
    (o.adjustQueryT x y).Safe w (Fresh2 w) := by
  unfold OKRef.adjustQueryT
  refine .ite (fun _ => ?_) fun _ => .pure ⟨hx, hy⟩
  exact Thr.Safe.bind (safe_vstack x y) fun S hS => Thr.Safe.bind (safe_adjust2 hS.T _ _ _ _) fun A hA =>
    .pure ⟨hA.T.row 0, hA.T.row 1⟩

theorem safe_adjustQuery3 (a b c : ℝ) (an : Aniso3) (g : Arr × Arr × Arr) :
    (adjustQuery3T a b c an g).Safe w (Fresh w) :=
  Thr.Safe.bind (safe_vstack3 _ _ _) fun _ hS => safe_adjust3 hS.T _ _ _ _

theorem OKRef.safe_matrix (n : ℕ) (o : OKRef) : (o.getKrigingMatrixT n).Safe w (Fresh w) :=
  .hereBind fun _ => .newBind fun _ ha => .liftBind _ fun _ => .assignBind ha <| .assignBind ha <| .assignBind ha <|
    .assignBind ha <| .assignBind ha (.pure ha)

theorem OKRef.safe_execVector (n : ℕ) (o : OKRef) (a : Arr) (bd : List (Fin n → ℝ)) :
    (o.execVectorT n a bd).Safe w (Fresh2 w) :=
  .hereBind fun _ => .liftBind _ fun _ => .liftBind _ fun _ => Thr.Safe.bind (safe_rightHandSides _ _ _) fun _ _ =>
    .hereBind fun _ => .newListBind fun _ hz => .newListBind fun _ hs => .pure ⟨hz, hs⟩

theorem OKRef.safe_loopBody (n : ℕ) (o : OKRef) (a : Matrix (Fin (n + 1)) (Fin (n + 1)) ℝ) (bd : Fin n → ℝ) :
    (o.loopBodyT n a bd).Safe w fun _ => True :=
  .hereBind fun _ => .liftBind _ fun _ => Thr.Safe.bind (safe_rightHandSide _ _ _) fun _ _ =>
    .hereBind fun _ => .pure trivial

theorem OKRef.safe_windowBody (n : ℕ) (o : OKRef) (a : Arr) (v : Window n) :
    (o.windowBodyT n a v).Safe w fun _ => True :=
  .hereBind fun _ => .liftBind _ fun _ => Thr.Safe.bind (safe_rightHandSide _ _ _) fun _ _ =>
    .hereBind fun _ => .liftBind _ fun _ => .pure trivial

theorem OKRef.safe_execLoop (n : ℕ) (o : OKRef) (a : Arr) (bd : List (Fin n → ℝ)) (mask : List Bool) :
    (o.execLoopT n a bd mask).Safe w (Fresh2 w) :=
  .hereBind fun _ => .liftBind _ fun _ => safe_runLoop (o.safe_loopBody n _) _

theorem OKRef.safe_global (n : ℕ) (o : OKRef) (a : Arr) (qs : List (Fin 2 → ℝ)) (mask : List Bool) (b : String) :
    (o.globalKrigeT n a qs mask b).Safe w (Fresh2 w) := by
  unfold OKRef.globalKrigeT
  exact .hereBind fun _ => .ite (fun _ => o.safe_execVector n a _) fun _ => .ite (fun _ => o.safe_execLoop n a _ _) fun _ =>
    .ite (fun _ => safe_newResults _) fun _ => .raise _

theorem OKRef.safe_window (n : ℕ) (env : Env) (o : OKRef) (a : Arr) (qs : List (Fin 2 → ℝ)) (mask : List Bool) (b : String)
    (k : ℕ) : (o.movingWindowT n env a qs mask b k).Safe w (Fresh2 w) := by
  unfold OKRef.movingWindowT
  exact .hereBind fun _ => .ite (fun _ => safe_runLoop (o.safe_windowBody n _) _) fun _ => safe_newResults _

theorem OK3DRef.safe_matrix (n : ℕ) (o : OK3DRef) : (o.getKrigingMatrixT n).Safe w (Fresh w) :=
  .hereBind fun _ => .newBind fun _ ha => .liftBind _ fun _ => .assignBind ha <| .assignBind ha <| .assignBind ha <|
    .assignBind ha <| .assignBind ha (.pure ha)

theorem OK3DRef.safe_execVector (n : ℕ) (o : OK3DRef) (a : Arr) (bd : List (Fin n → ℝ)) :
    (o.execVectorT n a bd).Safe w (Fresh2 w) :=
  .hereBind fun _ => .liftBind _ fun _ => .liftBind _ fun _ => Thr.Safe.bind (safe_rightHandSides _ _ _) fun _ _ =>
    .hereBind fun _ => .newListBind fun _ hz => .newListBind fun _ hs => .pure ⟨hz, hs⟩

theorem OK3DRef.safe_loopBody (n : ℕ) (o : OK3DRef) (a : Matrix (Fin (n + 1)) (Fin (n + 1)) ℝ) (bd : Fin n → ℝ) :
    (o.loopBodyT n a bd).Safe w fun _ => True :=
  .hereBind fun _ => .liftBind _ fun _ => Thr.Safe.bind (safe_rightHandSide _ _ _) fun _ _ =>
    .hereBind fun _ => .pure trivial

theorem OK3DRef.safe_windowBody (n : ℕ) (o : OK3DRef) (a : Arr) (v : Window n) :
    (o.windowBodyT n a v).Safe w fun _ => True :=
  .hereBind fun _ => .liftBind _ fun _ => Thr.Safe.bind (safe_rightHandSide _ _ _) fun _ _ =>
    .hereBind fun _ => .liftBind _ fun _ => .pure trivial

theorem OK3DRef.safe_execLoop (n : ℕ) (o : OK3DRef) (a : Arr) (bd : List (Fin n → ℝ)) (mask : List Bool) :
    (o.execLoopT n a bd mask).Safe w (Fresh2 w) :=
  .hereBind fun _ => .liftBind _ fun _ => safe_runLoop (o.safe_loopBody n _) _

theorem OK3DRef.safe_global (n : ℕ) (o : OK3DRef) (a : Arr) (qs : List (Fin 3 → ℝ)) (mask : List Bool) (b : String) :
    (o.globalKrigeT n a qs mask b).Safe w (Fresh2 w) := by
  unfold OK3DRef.globalKrigeT
  exact .hereBind fun _ => .ite (fun _ => o.safe_execVector n a _) fun _ => .ite (fun _ => o.safe_execLoop n a _ _) fun _ =>
    .raise _

theorem OK3DRef.safe_window (n : ℕ) (env : Env) (o : OK3DRef) (a : Arr) (qs : List (Fin 3 → ℝ)) (mask : List Bool) (b : String)
    (k : ℤ) : (o.movingWindowT n env a qs mask b k).Safe w (Fresh2 w) := by
  unfold OK3DRef.movingWindowT
  exact .hereBind fun _ => .ite (fun _ => safe_runLoop (o.safe_windowBody n _) _) fun _ => safe_newResults _

theorem UKRef.safe_matrix (n : ℕ) (o : UKRef) : (o.getKrigingMatrixT n).Safe w (Fresh w) :=
  .hereBind fun _ => .liftBind _ fun _ => .new _ _ _ _

theorem UK.safe_runBackend {n : ℕ} (s : UK n) (b : String)
    (A : Matrix (Fin (s.nWithDrifts + 1)) (Fin (s.nWithDrifts + 1)) ℝ) (qs : List (UKQuery n)) (mask : List Bool)
    (spec : List (List ℝ)) : (s.runBackendT b A qs mask spec).Safe w (Fresh2 w) := by
  unfold UK.runBackendT
  exact .ite (fun _ => safe_newResults _) fun _ => .ite (fun _ => safe_newResults _) fun _ => .raise _

theorem UK3DRef.safe_matrix (n : ℕ) (o : UK3DRef) : (o.getKrigingMatrixT n).Safe w (Fresh w) :=
  .hereBind fun _ => .liftBind _ fun _ => .new _ _ _ _

theorem UK3D.safe_runBackend {n : ℕ} (s : UK3D n) (b : String)
    (A : Matrix (Fin (s.nWithDrifts + 1)) (Fin (s.nWithDrifts + 1)) ℝ) (qs : List (UK3Query n)) (mask : List Bool)
    (spec : List (List ℝ)) : (s.runBackendT b A qs mask spec).Safe w (Fresh2 w) := by
  unfold UK3D.runBackendT
  exact .ite (fun _ => safe_newResults _) fun _ => .ite (fun _ => safe_newResults _) fun _ => .raise _

theorem OKRef.safe_execute (n : ℕ) (env : Env) (o : OKRef) (args : ExecRefs) :
    (o.executeT n env args).Safe w fun _ => True := by
  have core : ∀ (f : Arr → List (Fin 2 → ℝ) → List Bool → Thr (Arr × Arr))
      (hf : ∀ a qs mask, (f a qs mask).Safe w (Fresh2 w)), (do
      let xpts ← args.xpoints.copyT
      let ypts ← args.ypoints.copyT
      let a ← o.getKrigingMatrixT n
      let (gx, gy, mask) ← queryPointsRefT args xpts ypts
      let (qx, qy) ← o.adjustQueryT gx gy
      let h ← Thr.here
      let qs : List (Fin 2 → ℝ) := List.zipWith (fun x y => ![x, y]) (qx.list h) (qy.list h)
      let r ← f a qs (mask.bools h)
      return ({ shape := if args.style ∈ ["masked", "grid"] then [ypts.cols, xpts.cols] else [xpts.cols]
                z := r.1, ss := r.2
                mask := if args.style = "masked" then some mask else none } : ResultRef) :
      Thr ResultRef).Safe w fun _ => True := by
    intro f hf
    refine Thr.Safe.bind args.xpoints.safe_copy fun x hx => Thr.Safe.bind args.ypoints.safe_copy fun y hy => ?_
    refine Thr.Safe.bind (o.safe_matrix n) fun a _ => Thr.Safe.bind (safe_queryPoints args hx hy) ?_
    rintro ⟨gx, gy, mask⟩ ⟨h1, h2, h3⟩
    refine Thr.Safe.bind (o.safe_adjustQuery h1 h2) ?_
    rintro ⟨qx, qy⟩ _
    exact .hereBind fun h => Thr.Safe.bind (hf _ _ _) fun r _ => trivial
  unfold OKRef.executeT
  refine .ite (fun _ => .raiseBind) fun _ => ?_
  cases args.nClosest with
  | none => exact core (fun a qs mask => o.globalKrigeT n a qs mask _) fun a qs mask => o.safe_global n a qs mask _
  | some k =>
    refine .ite (fun _ => .raiseBind) fun _ => ?_
    exact core (fun a qs mask => o.movingWindowT n env a qs mask _ _) fun a qs mask => o.safe_window n env a qs mask _ _

theorem OK3DRef.safe_execute (n : ℕ) (env : Env) (o : OK3DRef) (args : ExecRefs3) :
    (o.executeT n env args).Safe w fun _ => True := by
  unfold OK3DRef.executeT
  refine .ite (fun _ => .raiseBind) fun _ => ?_
  refine Thr.Safe.bind args.xpoints.safe_copy fun x hx => Thr.Safe.bind args.ypoints.safe_copy fun y hy => ?_
  refine Thr.Safe.bind args.zpoints.safe_copy fun z hz => ?_
  refine Thr.Safe.bind (o.safe_matrix n) fun a _ => Thr.Safe.bind (safe_queryPoints3 args hx hy hz) ?_
  rintro ⟨g, mask⟩ ⟨h1, h2⟩
  refine Thr.Safe.bind (safe_adjustQuery3 _ _ _ _ _) fun A _ => .hereBind fun h => ?_
  cases args.nClosest with
  | none => exact Thr.Safe.bind (o.safe_global n a _ _ _) fun r _ => .pure trivial
  | some k => exact Thr.Safe.bind (o.safe_window n env a _ _ _ _) fun r _ => .pure trivial

theorem UKRef.safe_execute (n : ℕ) (o : UKRef) (args : UKExecRefs) : (o.executeT n args).Safe w fun _ => True := by
  unfold UKRef.executeT
  refine .ite (fun _ => .raiseBind) fun _ => ?_
  refine Thr.Safe.bind (Arr.safe_copy _) fun x hx => Thr.Safe.bind (Arr.safe_copy _) fun y hy => ?_
  refine Thr.Safe.bind (o.safe_matrix n) fun a _ => Thr.Safe.bind (safe_queryPoints args.toExec hx hy) ?_
  rintro ⟨gx, gy, mask⟩ ⟨h1, h2, h3⟩
  refine .liftBind _ fun grids => .hereBind fun h => Thr.Safe.bind (o.core.safe_adjustQuery h1 h2) ?_
  rintro ⟨qx, qy⟩ _
  exact .hereBind fun h => Thr.Safe.bind (UK.safe_runBackend _ _ _ _ _ _) fun r _ => trivial

theorem UK3DRef.safe_execute (n : ℕ) (o : UK3DRef) (args : UK3DExecRefs) :
    (o.executeT n args).Safe w fun _ => True := by
  unfold UK3DRef.executeT
  refine .ite (fun _ => .raiseBind) fun _ => ?_
  refine Thr.Safe.bind (Arr.safe_copy _) fun x hx => Thr.Safe.bind (Arr.safe_copy _) fun y hy => ?_
  refine Thr.Safe.bind (Arr.safe_copy _) fun z hz => ?_
  refine Thr.Safe.bind (o.safe_matrix n) fun a _ => Thr.Safe.bind (safe_queryPoints3 args.toExec hx hy hz) ?_
  rintro ⟨g, mask⟩ ⟨h1, h2⟩
  refine .liftBind _ fun grids => Thr.Safe.bind (safe_adjustQuery3 _ _ _ _ _) fun A _ => .hereBind fun h => ?_
  exact Thr.Safe.bind (UK3D.safe_runBackend _ _ _ _ _ _) fun r _ => trivial

end
end PyKrige
