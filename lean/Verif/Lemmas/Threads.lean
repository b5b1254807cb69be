import Verif.Model.Threads
import Verif.Lemmas.Heap

/-! Running alone a program does what the computation on memory does; and its steps do not touch common buffers. -/

namespace PyKrige
noncomputable section
set_option linter.unusedSimpArgs false
open Matrix

section
variable {α β : Type}

theorem Thr.seq_bind (t : Thr α) (k : α → Thr β) : (t >>= k).seq = (t.seq >>= fun a => (k a).seq : H β) := by
  change (Thr.bind t k).seq = _
  induction t with
  | ret r =>
    cases r with
    | ok a => rfl
    | error e => rfl
  | step eff f ih =>
    funext h
    show (Thr.bind (f h) k).seq (eff h) = _
    rw [ih h]
    rfl

theorem Thr.seq_pure (a : α) : (pure a : Thr α).seq = (pure a : H α) := rfl
theorem Thr.seq_raise (e : PyErr) : (Thr.raise e : Thr α).seq = H.raise e := rfl
theorem Thr.seq_lift (p : Py α) : (Thr.lift p).seq = H.lift p := rfl
theorem Thr.seq_atom (m : H α) : (Thr.atom m).seq = m := rfl
theorem Thr.seq_here : Thr.here.seq = H.here := rfl
theorem Thr.seq_new (r c : ℕ) (f : ℕ → ℕ → ℝ) (b : Bool) : (Thr.new r c f b).seq = H.new r c f b := rfl
theorem Thr.seq_newList (l : List ℝ) (b : Bool) : (Thr.newList l b).seq = H.newList l b := rfl
theorem Thr.seq_newBools (l : List Bool) : (Thr.newBools l).seq = H.newBools l := rfl
theorem Arr.seq_assign (a : Arr) (s : ℕ → ℕ → Prop) (f : ℕ → ℕ → ℝ) : (a.assignT s f).seq = a.assign s f := rfl
theorem Thr.seq_ite (p : Prop) [Decidable p] (t u : Thr α) :
    (if p then t else u).seq = if p then t.seq else u.seq := by split <;> rfl

theorem Thr.seq_attempt (t : Thr α) (h : Heap) : t.attempt.seq h = (.ok (t.seq h).1, (t.seq h).2) := by
  induction t generalizing h with
  | ret r => rfl
  | step eff k ih => exact ih h (eff h)

/-- No step of the program changes a buffer below `w`, in any memory, and the result satisfies `Q`. -/
def Thr.Safe (w : ℕ) : Thr α → (α → Prop) → Prop
  | .ret (.ok a), Q => Q a
  | .ret (.error _), _ => True
  | .step eff k, Q => ∀ h : Heap, w ≤ h.next → Heap.Frame w h (eff h) ∧ Thr.Safe w (k h) Q

theorem Thr.Safe.bind {w : ℕ} {t : Thr α} {k : α → Thr β} {Q : α → Prop} {R : β → Prop} (ht : t.Safe w Q)
    (hk : ∀ a, Q a → (k a).Safe w R) : (t >>= k).Safe w R := by
  change (Thr.bind t k).Safe w R
  induction t with
  | ret r =>
    cases r with
    | ok a => exact hk a ht
    | error e => trivial
  | step eff f ih => exact fun h hw => ⟨(ht h hw).1, ih h (ht h hw).2⟩

theorem Thr.Safe.weaken {w : ℕ} {t : Thr α} {Q R : α → Prop} (ht : t.Safe w Q) (h : ∀ a, Q a → R a) : t.Safe w R := by
  induction t with
  | ret r =>
    cases r with
    | ok a => exact h a ht
    | error e => trivial
  | step eff f ih => exact fun m hw => ⟨(ht m hw).1, ih m (ht m hw).2⟩

theorem Thr.Safe.pure {w : ℕ} {a : α} {Q : α → Prop} (h : Q a) : (pure a : Thr α).Safe w Q := h
theorem Thr.Safe.raise {w : ℕ} (e : PyErr) {Q : α → Prop} : (Thr.raise e : Thr α).Safe w Q := trivial
theorem Thr.Safe.lift {w : ℕ} (p : Py α) {Q : α → Prop} (h : ∀ a, p = .ok a → Q a) : (Thr.lift p).Safe w Q := by
  cases p with
  | ok a => exact h a rfl
  | error e => trivial

theorem Thr.Safe.liftBind {w : ℕ} (p : Py α) {k : α → Thr β} {R : β → Prop} (h : ∀ a, (k a).Safe w R) :
    (Thr.lift p >>= k).Safe w R := Thr.Safe.bind (Q := fun _ => True) (.lift p fun _ _ => trivial) fun a _ => h a

theorem Thr.Safe.hereBind {w : ℕ} {k : Heap → Thr β} {R : β → Prop} (h : ∀ m, (k m).Safe w R) :
    (Thr.here >>= k).Safe w R := fun m _ => ⟨.refl _ _, h m⟩

theorem Thr.Safe.attempt {w : ℕ} {t : Thr α} {Q : α → Prop} (ht : t.Safe w Q) :
    t.attempt.Safe w fun r => ∀ a, r = .ok a → Q a := by
  induction t with
  | ret r =>
    cases r with
    | ok a => exact fun b hb => Except.ok.inj hb ▸ ht
    | error e => exact fun b hb => by cases hb
  | step eff f ih => exact fun m hw => ⟨(ht m hw).1, ih m (ht m hw).2⟩

/-- An array that the program made. -/
def Fresh (w : ℕ) (a : Arr) : Prop := w ≤ a.buf

theorem Fresh.T {w : ℕ} {a : Arr} (h : Fresh w a) : Fresh w a.T := h
theorem Fresh.row {w : ℕ} {a : Arr} (h : Fresh w a) (k : ℕ) : Fresh w (a.row k) := h

theorem Thr.Safe.new {w : ℕ} (r c : ℕ) (f : ℕ → ℕ → ℝ) (b : Bool) : (Thr.new r c f b).Safe w (Fresh w) := by
  intro h hw
  refine ⟨⟨Nat.le_succ _, fun x hx => ?_⟩, hw⟩
  exact if_neg (show ¬ x = h.next by omega)

theorem Thr.Safe.newList {w : ℕ} (l : List ℝ) (b : Bool) : (Thr.newList l b).Safe w (Fresh w) :=
  Thr.Safe.new _ _ _ _

theorem Thr.Safe.newBools {w : ℕ} (l : List Bool) : (Thr.newBools l).Safe w (Fresh w) :=
  Thr.Safe.new _ _ _ _

theorem Thr.Safe.assign {w : ℕ} {a : Arr} (ha : Fresh w a) (s : ℕ → ℕ → Prop) (f : ℕ → ℕ → ℝ) :
    (a.assignT s f).Safe w fun _ => True := by
  intro h hw
  refine ⟨⟨le_rfl, fun x hx => ?_⟩, trivial⟩
  funext p
  unfold Fresh at ha
  exact dif_neg fun hb => absurd hb.1 (by omega)

theorem Thr.Safe.assignBind {w : ℕ} {a : Arr} (ha : Fresh w a) {s : ℕ → ℕ → Prop} {f : ℕ → ℕ → ℝ} {k : Unit → Thr β}
    {R : β → Prop} (h : (k ()).Safe w R) : (a.assignT s f >>= k).Safe w R :=
  Thr.Safe.bind (.assign ha s f) fun _ _ => h

theorem Thr.Safe.newBind {w : ℕ} {r c : ℕ} {f : ℕ → ℕ → ℝ} {b : Bool} {k : Arr → Thr β}
    {R : β → Prop} (h : ∀ a, Fresh w a → (k a).Safe w R) : (Thr.new r c f b >>= k).Safe w R :=
  Thr.Safe.bind (.new r c f b) h

theorem Thr.Safe.newListBind {w : ℕ} {l : List ℝ} {b : Bool} {k : Arr → Thr β}
    {R : β → Prop} (h : ∀ a, Fresh w a → (k a).Safe w R) : (Thr.newList l b >>= k).Safe w R :=
  Thr.Safe.bind (.newList l b) h

theorem Thr.Safe.newBoolsBind {w : ℕ} {l : List Bool} {k : Arr → Thr β}
    {R : β → Prop} (h : ∀ a, Fresh w a → (k a).Safe w R) : (Thr.newBools l >>= k).Safe w R :=
  Thr.Safe.bind (.newBools l) h

end

/-! ### The methods, alone -/

theorem Arr.seq_copy (a : Arr) : a.copyT.seq = a.copy := by
  unfold Arr.copyT Arr.copy; simp only [Thr.seq_bind, Thr.seq_here, Thr.seq_new]

theorem Arr.seq_flatten (a : Arr) : a.flattenT.seq = a.flatten := by
  unfold Arr.flattenT Arr.flatten; simp only [Thr.seq_bind, Thr.seq_here, Thr.seq_newList]

theorem Arr3.seq_flatten (a : Arr3) : a.flattenT.seq = a.flatten := by
  unfold Arr3.flattenT Arr3.flatten; simp only [Thr.seq_bind, Thr.seq_here, Thr.seq_newList]

theorem seq_vstack (a b : Arr) : (vstackT a b).seq = vstack a b := by
  unfold vstackT vstack; simp only [Thr.seq_bind, Thr.seq_here, Thr.seq_new]

theorem seq_vstack3 (a b c : Arr) : (vstack3T a b c).seq = vstack3 a b c := by
  unfold vstack3T vstack3; simp only [Thr.seq_bind, Thr.seq_here, Thr.seq_new]

theorem seq_adjust2 (X : Arr) (a b c d : ℝ) :
    (adjustForAnisotropy2T X a b c d).seq = adjustForAnisotropy2 X a b c d := by
  unfold adjustForAnisotropy2T adjustForAnisotropy2
  simp only [Thr.seq_bind, Thr.seq_here, Thr.seq_new, Thr.seq_newList, Thr.seq_newBools, Thr.seq_ite, Thr.seq_raise,
    Thr.seq_lift, Arr.seq_assign, Thr.seq_pure]

theorem seq_adjust3 (X : Arr) (a b c : ℝ) (an : Aniso3) :
    (adjustForAnisotropy3T X a b c an).seq = adjustForAnisotropy3 X a b c an := by
  unfold adjustForAnisotropy3T adjustForAnisotropy3
  simp only [Thr.seq_bind, Thr.seq_here, Thr.seq_new, Thr.seq_newList, Thr.seq_newBools, Thr.seq_ite, Thr.seq_raise,
    Thr.seq_lift, Arr.seq_assign, Thr.seq_pure]

theorem seq_rightHandSides {n : ℕ} (γ : ℝ → ℝ) (e : Bool) (bd : List (Fin n → ℝ)) :
    (rightHandSidesT γ e bd).seq = rightHandSides γ e bd := by
  unfold rightHandSidesT rightHandSides
  simp only [Thr.seq_bind, Thr.seq_here, Thr.seq_new, Thr.seq_newList, Thr.seq_newBools, Thr.seq_ite, Thr.seq_raise,
    Thr.seq_lift, Arr.seq_assign, Thr.seq_pure]

theorem seq_rightHandSide {k : ℕ} (γ : ℝ → ℝ) (e : Bool) (bd : Fin k → ℝ) :
    (rightHandSideT γ e bd).seq = rightHandSide γ e bd := by
  unfold rightHandSideT rightHandSide
  simp only [Thr.seq_bind, Thr.seq_here, Thr.seq_new, Thr.seq_newList, Thr.seq_newBools, Thr.seq_ite, Thr.seq_raise,
    Thr.seq_lift, Arr.seq_assign, Thr.seq_pure]

theorem seq_storeResult (v : Thr (ℝ × ℝ)) (z s : Arr) (j : ℕ) :
    (storeResultT v z s j).seq = storeResult v.seq z s j := by
  unfold storeResultT storeResult
  simp only [Thr.seq_bind, Thr.seq_here, Thr.seq_new, Thr.seq_newList, Thr.seq_newBools, Thr.seq_ite, Thr.seq_raise,
    Thr.seq_lift, Arr.seq_assign, Thr.seq_pure]

theorem seq_fillResults {B : Type} (body : B → Thr (ℝ × ℝ)) (z s : Arr) (j : ℕ) (l : List (B × Bool)) :
    (fillResultsT body z s j l).seq = fillResults (fun x => (body x).seq) z s j l := by
  induction l generalizing j with
  | nil => rfl
  | cons p l ih =>
    obtain ⟨x, m⟩ := p
    show (_ >>= _ : Thr Unit).seq = (_ >>= _ : H Unit)
    simp only [Thr.seq_bind, Thr.seq_here, Thr.seq_new, Thr.seq_newList, Thr.seq_newBools, Thr.seq_ite, Thr.seq_raise,
    Thr.seq_lift, Arr.seq_assign, Thr.seq_pure, seq_storeResult, ih]

theorem seq_runLoop {B : Type} (body : B → Thr (ℝ × ℝ)) (l : List (B × Bool)) :
    (runLoopT body l).seq = runLoop (fun x => (body x).seq) l := by
  unfold runLoopT runLoop
  simp only [Thr.seq_bind, Thr.seq_here, Thr.seq_new, Thr.seq_newList, Thr.seq_newBools, Thr.seq_ite, Thr.seq_raise,
    Thr.seq_lift, Arr.seq_assign, Thr.seq_pure, seq_fillResults]

theorem seq_newResults (p : Py (List (ℝ × ℝ))) : (newResultsT p).seq = newResults p := by
  unfold newResultsT newResults
  simp only [Thr.seq_bind, Thr.seq_here, Thr.seq_new, Thr.seq_newList, Thr.seq_newBools, Thr.seq_ite, Thr.seq_raise,
    Thr.seq_lift, Arr.seq_assign, Thr.seq_pure]

theorem seq_meshgrid (x y : Arr) : (meshgridRefT x y).seq = meshgridRef x y := by
  unfold meshgridRefT meshgridRef
  simp only [Thr.seq_bind, Thr.seq_here, Thr.seq_new, Thr.seq_newList, Thr.seq_newBools, Thr.seq_ite, Thr.seq_raise,
    Thr.seq_lift, Arr.seq_assign, Thr.seq_pure]

theorem seq_meshgrid3 (x y z : Arr) : (meshgridRef3T x y z).seq = meshgridRef3 x y z := by
  unfold meshgridRef3T meshgridRef3
  simp only [Thr.seq_bind, Thr.seq_here, Thr.seq_new, Thr.seq_newList, Thr.seq_newBools, Thr.seq_ite, Thr.seq_raise,
    Thr.seq_lift, Arr.seq_assign, Thr.seq_pure]

theorem seq_queryPoints (args : ExecRefs) (x y : Arr) : (queryPointsRefT args x y).seq = queryPointsRef args x y := by
  unfold queryPointsRefT queryPointsRef
  cases args.mask <;> simp only [Thr.seq_bind, Thr.seq_here, Thr.seq_new, Thr.seq_newList, Thr.seq_newBools, Thr.seq_ite, Thr.seq_raise,
    Thr.seq_lift, Arr.seq_assign, Thr.seq_pure, seq_meshgrid, Arr.seq_flatten]

theorem seq_queryPoints3 (args : ExecRefs3) (x y z : Arr) :
    (queryPoints3RefT args x y z).seq = queryPoints3Ref args x y z := by
  unfold queryPoints3RefT queryPoints3Ref
  rcases args.mask with _ | _ | _ <;> simp only [Thr.seq_bind, Thr.seq_here, Thr.seq_new, Thr.seq_newList, Thr.seq_newBools, Thr.seq_ite, Thr.seq_raise,
    Thr.seq_lift, Arr.seq_assign, Thr.seq_pure, seq_meshgrid3, Arr3.seq_flatten]

theorem OKRef.seq_adjustQuery (o : OKRef) (x y : Arr) : (o.adjustQueryT x y).seq = o.adjustQuery x y := by
  unfold OKRef.adjustQueryT OKRef.adjustQuery
  simp only [Thr.seq_bind, Thr.seq_here, Thr.seq_new, Thr.seq_newList, Thr.seq_newBools, Thr.seq_ite, Thr.seq_raise,
    Thr.seq_lift, Arr.seq_assign, Thr.seq_pure, seq_vstack, seq_adjust2]

theorem seq_adjustQuery3 (a b c : ℝ) (an : Aniso3) (g : Arr × Arr × Arr) :
    (adjustQuery3T a b c an g).seq = adjustQuery3 a b c an g := by
  unfold adjustQuery3T adjustQuery3
  simp only [Thr.seq_bind, Thr.seq_here, Thr.seq_new, Thr.seq_newList, Thr.seq_newBools, Thr.seq_ite, Thr.seq_raise,
    Thr.seq_lift, Arr.seq_assign, Thr.seq_pure, seq_vstack3, seq_adjust3]

theorem OKRef.seq_matrix (n : ℕ) (o : OKRef) : (o.getKrigingMatrixT n).seq = o.getKrigingMatrix n := by
  unfold OKRef.getKrigingMatrixT OKRef.getKrigingMatrix
  simp only [Thr.seq_bind, Thr.seq_here, Thr.seq_new, Thr.seq_newList, Thr.seq_newBools, Thr.seq_ite, Thr.seq_raise,
    Thr.seq_lift, Arr.seq_assign, Thr.seq_pure]

theorem OKRef.seq_execVector (n : ℕ) (o : OKRef) (a : Arr) (bd : List (Fin n → ℝ)) :
    (o.execVectorT n a bd).seq = o.execVector n a bd := by
  unfold OKRef.execVectorT OKRef.execVector
  simp only [Thr.seq_bind, Thr.seq_here, Thr.seq_new, Thr.seq_newList, Thr.seq_newBools, Thr.seq_ite, Thr.seq_raise,
    Thr.seq_lift, Arr.seq_assign, Thr.seq_pure, seq_rightHandSides]

theorem OKRef.seq_loopBody (n : ℕ) (o : OKRef) (a : Matrix (Fin (n + 1)) (Fin (n + 1)) ℝ) (bd : Fin n → ℝ) :
    (o.loopBodyT n a bd).seq = o.loopBody n a bd := by
  unfold OKRef.loopBodyT OKRef.loopBody
  simp only [Thr.seq_bind, Thr.seq_here, Thr.seq_new, Thr.seq_newList, Thr.seq_newBools, Thr.seq_ite, Thr.seq_raise,
    Thr.seq_lift, Arr.seq_assign, Thr.seq_pure, seq_rightHandSide]

theorem OKRef.seq_windowBody (n : ℕ) (o : OKRef) (a : Arr) (w : Window n) :
    (o.windowBodyT n a w).seq = o.windowBody n a w := by
  unfold OKRef.windowBodyT OKRef.windowBody
  simp only [Thr.seq_bind, Thr.seq_here, Thr.seq_new, Thr.seq_newList, Thr.seq_newBools, Thr.seq_ite, Thr.seq_raise,
    Thr.seq_lift, Arr.seq_assign, Thr.seq_pure, seq_rightHandSide]

theorem OKRef.seq_execLoop (n : ℕ) (o : OKRef) (a : Arr) (bd : List (Fin n → ℝ)) (mask : List Bool) :
    (o.execLoopT n a bd mask).seq = o.execLoop n a bd mask := by
  unfold OKRef.execLoopT OKRef.execLoop
  simp only [Thr.seq_bind, Thr.seq_here, Thr.seq_new, Thr.seq_newList, Thr.seq_newBools, Thr.seq_ite, Thr.seq_raise,
    Thr.seq_lift, Arr.seq_assign, Thr.seq_pure, seq_runLoop, OKRef.seq_loopBody]

theorem OKRef.seq_global (n : ℕ) (o : OKRef) (a : Arr) (qs : List (Fin 2 → ℝ)) (mask : List Bool) (b : String) :
    (o.globalKrigeT n a qs mask b).seq = o.globalKrige n a qs mask b := by
  unfold OKRef.globalKrigeT OKRef.globalKrige
  simp only [Thr.seq_bind, Thr.seq_here, Thr.seq_new, Thr.seq_newList, Thr.seq_newBools, Thr.seq_ite, Thr.seq_raise,
    Thr.seq_lift, Arr.seq_assign, Thr.seq_pure, seq_newResults, OKRef.seq_execVector, OKRef.seq_execLoop]

theorem OKRef.seq_window (n : ℕ) (env : Env) (o : OKRef) (a : Arr) (qs : List (Fin 2 → ℝ)) (mask : List Bool) (b : String)
    (k : ℕ) : (o.movingWindowT n env a qs mask b k).seq = o.movingWindow n env a qs mask b k := by
  unfold OKRef.movingWindowT OKRef.movingWindow
  simp only [Thr.seq_bind, Thr.seq_here, Thr.seq_new, Thr.seq_newList, Thr.seq_newBools, Thr.seq_ite, Thr.seq_raise,
    Thr.seq_lift, Arr.seq_assign, Thr.seq_pure, seq_newResults, seq_runLoop, OKRef.seq_windowBody]

theorem OK3DRef.seq_matrix (n : ℕ) (o : OK3DRef) : (o.getKrigingMatrixT n).seq = o.getKrigingMatrix n := by
  unfold OK3DRef.getKrigingMatrixT OK3DRef.getKrigingMatrix
  simp only [Thr.seq_bind, Thr.seq_here, Thr.seq_new, Thr.seq_newList, Thr.seq_newBools, Thr.seq_ite, Thr.seq_raise,
    Thr.seq_lift, Arr.seq_assign, Thr.seq_pure]

theorem OK3DRef.seq_execVector (n : ℕ) (o : OK3DRef) (a : Arr) (bd : List (Fin n → ℝ)) :
    (o.execVectorT n a bd).seq = o.execVector n a bd := by
  unfold OK3DRef.execVectorT OK3DRef.execVector
  simp only [Thr.seq_bind, Thr.seq_here, Thr.seq_new, Thr.seq_newList, Thr.seq_newBools, Thr.seq_ite, Thr.seq_raise,
    Thr.seq_lift, Arr.seq_assign, Thr.seq_pure, seq_rightHandSides]

theorem OK3DRef.seq_loopBody (n : ℕ) (o : OK3DRef) (a : Matrix (Fin (n + 1)) (Fin (n + 1)) ℝ) (bd : Fin n → ℝ) :
    (o.loopBodyT n a bd).seq = o.loopBody n a bd := by
  unfold OK3DRef.loopBodyT OK3DRef.loopBody
  simp only [Thr.seq_bind, Thr.seq_here, Thr.seq_new, Thr.seq_newList, Thr.seq_newBools, Thr.seq_ite, Thr.seq_raise,
    Thr.seq_lift, Arr.seq_assign, Thr.seq_pure, seq_rightHandSide]

theorem OK3DRef.seq_windowBody (n : ℕ) (o : OK3DRef) (a : Arr) (w : Window n) :
    (o.windowBodyT n a w).seq = o.windowBody n a w := by
  unfold OK3DRef.windowBodyT OK3DRef.windowBody
  simp only [Thr.seq_bind, Thr.seq_here, Thr.seq_new, Thr.seq_newList, Thr.seq_newBools, Thr.seq_ite, Thr.seq_raise,
    Thr.seq_lift, Arr.seq_assign, Thr.seq_pure, seq_rightHandSide]

theorem OK3DRef.seq_execLoop (n : ℕ) (o : OK3DRef) (a : Arr) (bd : List (Fin n → ℝ)) (mask : List Bool) :
    (o.execLoopT n a bd mask).seq = o.execLoop n a bd mask := by
  unfold OK3DRef.execLoopT OK3DRef.execLoop
  simp only [Thr.seq_bind, Thr.seq_here, Thr.seq_new, Thr.seq_newList, Thr.seq_newBools, Thr.seq_ite, Thr.seq_raise,
    Thr.seq_lift, Arr.seq_assign, Thr.seq_pure, seq_runLoop, OK3DRef.seq_loopBody]

theorem OK3DRef.seq_global (n : ℕ) (o : OK3DRef) (a : Arr) (qs : List (Fin 3 → ℝ)) (mask : List Bool) (b : String) :
    (o.globalKrigeT n a qs mask b).seq = o.globalKrige n a qs mask b := by
  unfold OK3DRef.globalKrigeT OK3DRef.globalKrige
  simp only [Thr.seq_bind, Thr.seq_here, Thr.seq_new, Thr.seq_newList, Thr.seq_newBools, Thr.seq_ite, Thr.seq_raise,
    Thr.seq_lift, Arr.seq_assign, Thr.seq_pure, seq_newResults, OK3DRef.seq_execVector, OK3DRef.seq_execLoop]

theorem OK3DRef.seq_window (n : ℕ) (env : Env) (o : OK3DRef) (a : Arr) (qs : List (Fin 3 → ℝ)) (mask : List Bool) (b : String)
    (k : ℤ) : (o.movingWindowT n env a qs mask b k).seq = o.movingWindow n env a qs mask b k := by
  unfold OK3DRef.movingWindowT OK3DRef.movingWindow
  simp only [Thr.seq_bind, Thr.seq_here, Thr.seq_new, Thr.seq_newList, Thr.seq_newBools, Thr.seq_ite, Thr.seq_raise,
    Thr.seq_lift, Arr.seq_assign, Thr.seq_pure, seq_newResults, seq_runLoop, OK3DRef.seq_windowBody]

theorem OKRef.seq_execute (n : ℕ) (env : Env) (o : OKRef) (args : ExecRefs) :
    (o.executeT n env args).seq = o.execute n env args := by
  unfold OKRef.executeT OKRef.execute
  cases args.nClosest with
  | none =>
    simp only [Thr.seq_bind, Thr.seq_here, Thr.seq_new, Thr.seq_newList, Thr.seq_newBools, Thr.seq_ite, Thr.seq_raise,
    Thr.seq_lift, Arr.seq_assign, Thr.seq_pure, Arr.seq_copy, OKRef.seq_matrix, seq_queryPoints, OKRef.seq_adjustQuery, OKRef.seq_global]
  | some k =>
    simp only [Thr.seq_bind, Thr.seq_here, Thr.seq_new, Thr.seq_newList, Thr.seq_newBools, Thr.seq_ite, Thr.seq_raise,
    Thr.seq_lift, Arr.seq_assign, Thr.seq_pure, Arr.seq_copy, OKRef.seq_matrix, seq_queryPoints, OKRef.seq_adjustQuery, OKRef.seq_window]

theorem OK3DRef.seq_execute (n : ℕ) (env : Env) (o : OK3DRef) (args : ExecRefs3) :
    (o.executeT n env args).seq = o.execute n env args := by
  unfold OK3DRef.executeT OK3DRef.execute
  cases args.nClosest with
  | none =>
    simp only [Thr.seq_bind, Thr.seq_here, Thr.seq_new, Thr.seq_newList, Thr.seq_newBools, Thr.seq_ite, Thr.seq_raise,
    Thr.seq_lift, Arr.seq_assign, Thr.seq_pure, Arr.seq_copy, OK3DRef.seq_matrix, seq_queryPoints3, seq_adjustQuery3, OK3DRef.seq_global]
  | some k =>
    simp only [Thr.seq_bind, Thr.seq_here, Thr.seq_new, Thr.seq_newList, Thr.seq_newBools, Thr.seq_ite, Thr.seq_raise,
    Thr.seq_lift, Arr.seq_assign, Thr.seq_pure, Arr.seq_copy, OK3DRef.seq_matrix, seq_queryPoints3, seq_adjustQuery3, OK3DRef.seq_window]

theorem UKRef.seq_matrix (n : ℕ) (o : UKRef) : (o.getKrigingMatrixT n).seq = o.getKrigingMatrix n := by
  unfold UKRef.getKrigingMatrixT UKRef.getKrigingMatrix
  simp only [Thr.seq_bind, Thr.seq_here, Thr.seq_new, Thr.seq_newList, Thr.seq_newBools, Thr.seq_ite, Thr.seq_raise,
    Thr.seq_lift, Arr.seq_assign, Thr.seq_pure]

theorem UK.seq_runBackend {n : ℕ} (s : UK n) (b : String)
    (A : Matrix (Fin (s.nWithDrifts + 1)) (Fin (s.nWithDrifts + 1)) ℝ) (qs : List (UKQuery n)) (mask : List Bool)
    (spec : List (List ℝ)) : (s.runBackendT b A qs mask spec).seq = s.runBackend b A qs mask spec := by
  unfold UK.runBackendT UK.runBackend
  simp only [Thr.seq_bind, Thr.seq_here, Thr.seq_new, Thr.seq_newList, Thr.seq_newBools, Thr.seq_ite, Thr.seq_raise,
    Thr.seq_lift, Arr.seq_assign, Thr.seq_pure, seq_newResults]

theorem UKRef.seq_execute (n : ℕ) (o : UKRef) (args : UKExecRefs) :
    (o.executeT n args).seq = o.execute n args := by
  unfold UKRef.executeT UKRef.execute
  simp only [Thr.seq_bind, Thr.seq_here, Thr.seq_new, Thr.seq_newList, Thr.seq_newBools, Thr.seq_ite, Thr.seq_raise,
    Thr.seq_lift, Arr.seq_assign, Thr.seq_pure, Arr.seq_copy, UKRef.seq_matrix, seq_queryPoints, OKRef.seq_adjustQuery, UK.seq_runBackend]

theorem UK3DRef.seq_matrix (n : ℕ) (o : UK3DRef) : (o.getKrigingMatrixT n).seq = o.getKrigingMatrix n := by
  unfold UK3DRef.getKrigingMatrixT UK3DRef.getKrigingMatrix
  simp only [Thr.seq_bind, Thr.seq_here, Thr.seq_new, Thr.seq_newList, Thr.seq_newBools, Thr.seq_ite, Thr.seq_raise,
    Thr.seq_lift, Arr.seq_assign, Thr.seq_pure]

theorem UK3D.seq_runBackend {n : ℕ} (s : UK3D n) (b : String)
    (A : Matrix (Fin (s.nWithDrifts + 1)) (Fin (s.nWithDrifts + 1)) ℝ) (qs : List (UK3Query n)) (mask : List Bool)
    (spec : List (List ℝ)) : (s.runBackendT b A qs mask spec).seq = s.runBackend b A qs mask spec := by
  unfold UK3D.runBackendT UK3D.runBackend
  simp only [Thr.seq_bind, Thr.seq_here, Thr.seq_new, Thr.seq_newList, Thr.seq_newBools, Thr.seq_ite, Thr.seq_raise,
    Thr.seq_lift, Arr.seq_assign, Thr.seq_pure, seq_newResults]

theorem UK3DRef.seq_execute (n : ℕ) (o : UK3DRef) (args : UK3DExecRefs) :
    (o.executeT n args).seq = o.execute n args := by
  unfold UK3DRef.executeT UK3DRef.execute
  simp only [Thr.seq_bind, Thr.seq_here, Thr.seq_new, Thr.seq_newList, Thr.seq_newBools, Thr.seq_ite, Thr.seq_raise,
    Thr.seq_lift, Arr.seq_assign, Thr.seq_pure, Arr.seq_copy, UK3DRef.seq_matrix, seq_queryPoints3, seq_adjustQuery3, UK3D.seq_runBackend]

end
end PyKrige
