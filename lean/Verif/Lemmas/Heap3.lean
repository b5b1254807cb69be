import Verif.Model.Heap3
import Verif.Lemmas.HeapUpdate

/-! The `OrdinaryKriging3D` heap program computes what the model on values computes: `execute`. -/

namespace PyKrige
noncomputable section
open Matrix

section
variable {α β α' β' : Type} {w : ℕ} {h : Heap}

theorem Does.vstack3 (hw : w ≤ h.next) (a b c : Arr) :
    Does w (vstack3 a b c) h (.ok ()) fun S h' _ =>
      S = { buf := h.next, rows := 3, cols := a.cols, cell := fun r c => (r, c)
            isInt := a.isInt && b.isInt && c.isInt } ∧
        h'.next = h.next + 1 ∧ ∀ r i, S.get h' r i =
          if r = 0 then a.get h 0 i else if r = 1 then b.get h 0 i else c.get h 0 i :=
  Does.here (Does.new hw _ _ _ _)

/-- `_adjust_for_anisotropy(np.vstack((a, b, c)).T, ...)`, all coordinates of integer dtype. -/
theorem Does.adjusted3_int (hw : w ≤ h.next) (a b c : Arr) (xc yc zc : ℝ) (an : Aniso3)
    (hi : (a.isInt && b.isInt && c.isInt) = true) {k : Arr → H α'} {S : α' → Heap → β' → Prop} :
    Does w (PyKrige.vstack3 a b c >>= fun S => adjustForAnisotropy3 S.T xc yc zc an >>= k) h
      (.error .castingError : Py β') S := by
  refine Does.step (Does.vstack3 hw a b c) le_rfl fun S' h' f ⟨hS, hn, hv⟩ => ?_
  have : S'.T.isInt = true := by rw [hS]; exact hi
  unfold adjustForAnisotropy3
  rw [if_pos this]
  exact ⟨.refl _ _, .error _⟩

/-- `_adjust_for_anisotropy` on a transposed new array with three columns. -/
theorem Does.adjust3 (hw : w ≤ h.next) (X : Arr) (hX : w ≤ X.buf)
    (hint : X.isInt = false) (hcell : ∀ r c, X.cell r c = (c, r)) (hcols : X.cols = 3) (xc yc zc : ℝ) (an : Aniso3) :
    Does w (adjustForAnisotropy3 X xc yc zc an) h (.ok ()) fun A h' _ =>
      h.next ≤ A.buf ∧ A.buf < h'.next ∧ A.rows = X.rows ∧ A.cols = 3 ∧ A.isInt = false ∧
      ∀ r < X.rows, ∀ j : Fin 3,
        A.get h' r j = adjustPoint3 xc yc zc an (X.get h r 0) (X.get h r 1) (X.get h r 2) j := by
  have injX : X.Inj := by
    intro r c r' c' _ _ _ _ e
    rw [hcell, hcell] at e
    exact ⟨(Prod.mk.inj e).2, (Prod.mk.inj e).1⟩
  unfold adjustForAnisotropy3
  dsimp only
  rw [if_neg (by rw [hint]; decide)]
  -- X -= center
  refine Does.here (Does.step (Does.assign X hX _ _) le_rfl fun _ h1 f1 ⟨hn1, ho1, hv1⟩ => ?_)
  replace hv1 := fun r c hr hc => (hv1 injX r c hr hc (Classical.propDecidable _)).trans (if_pos trivial)
  -- the product
  refine Does.here (Does.step (Does.new (hw.trans f1.next_le) _ _ _ _) le_rfl
    fun P h2 f2 ⟨hP, hn2, hv2⟩ => ?_)
  have hPc : ∀ r c, P.T.cell r c = (c, r) := by rw [hP]; intro r c; rfl
  have hPr : P.T.rows = X.rows := by rw [hP]; rfl
  have hPk : P.T.cols = 3 := by rw [hP]; rfl
  have hPb : P.T.buf = h1.next := by rw [hP]; rfl
  have hPi : P.T.isInt = false := by rw [hP]; rfl
  have hPv : ∀ r c, P.T.get h2 r c = P.get h2 c r := fun _ _ => rfl
  have injP : P.T.Inj := by
    intro r c r' c' _ _ _ _ e
    rw [hPc, hPc] at e
    exact ⟨(Prod.mk.inj e).2, (Prod.mk.inj e).1⟩
  refine Does.here (Does.step (Does.assign P.T (by rw [hPb, hn1]; omega) _ _) le_rfl
    fun _ h3 f3 ⟨hn3, ho3, hv3⟩ => ?_)
  replace hv3 := fun r c hr hc => (hv3 injP r c hr hc (Classical.propDecidable _)).trans (if_pos trivial)
  refine Does.ret ⟨by rw [hPb, hn1], by rw [hPb, hn3, hn2]; omega, hPr, hPk, hPi, fun r hr j => ?_⟩
  have hj : (j : ℕ) < 3 := j.isLt
  rw [hv3 r j (by omega) (by omega), hPv, hv2, hv1 r 0 hr (by omega), hv1 r 1 hr (by omega), hv1 r 2 hr (by omega)]
  unfold adjustPoint3 PyKrige.adjust3
  rw [Pi.add_apply]
  have e1 : (![X.get h r 0 - (if (0:ℕ) = 0 then xc else if (0:ℕ) = 1 then yc else zc),
      X.get h r 1 - (if (1:ℕ) = 0 then xc else if (1:ℕ) = 1 then yc else zc),
      X.get h r 2 - (if (2:ℕ) = 0 then xc else if (2:ℕ) = 1 then yc else zc)] :
      Fin 3 → ℝ) = ![X.get h r 0, X.get h r 1, X.get h r 2] - ![xc, yc, zc] := by
    funext i; fin_cases i <;> rfl
  rw [e1]
  have e2 : (if (j : ℕ) = 0 then xc else if (j : ℕ) = 1 then yc else zc) = (![xc, yc, zc] : Fin 3 → ℝ) j := by
    fin_cases j <;> rfl
  have e3 : (if (j : ℕ) = 0 then (0 : Fin 3) else if (j : ℕ) = 1 then 1 else 2) = j := by fin_cases j <;> rfl
  rw [e2, e3]
  rfl

/-- `_adjust_for_anisotropy(np.vstack((a, b, c)).T, ...)`, followed by `k`. -/
theorem Does.adjusted3 (hw : w ≤ h.next) (a b c : Arr) (xc yc zc : ℝ) (an : Aniso3)
    (hi : (a.isInt && b.isInt && c.isInt) = false)
    {k : Arr → H α'} {q : Py β'} {S : α' → Heap → β' → Prop}
    (hk : ∀ A h', Heap.Frame h.next h h' → h.next ≤ A.buf → A.buf < h'.next → A.rows = a.cols → A.cols = 3 →
      A.isInt = false →
      (∀ i < a.cols, ∀ j : Fin 3, A.get h' i j =
        adjustPoint3 xc yc zc an (a.get h 0 i) (b.get h 0 i) (c.get h 0 i) j) →
      Does w (k A) h' q S) :
    Does w (PyKrige.vstack3 a b c >>= fun S => adjustForAnisotropy3 S.T xc yc zc an >>= k) h q S := by
  refine Does.step (Does.vstack3 (le_refl h.next) a b c) hw fun S' h1 f1 ⟨hS, hn1, hv⟩ => ?_
  have hget : ∀ r i, S'.T.get h1 r i = if i = 0 then a.get h 0 r else if i = 1 then b.get h 0 r else c.get h 0 r := by
    intro r i; rw [← hv i r]; rfl
  refine Does.step (Does.adjust3 (w := h.next) f1.next_le S'.T (by rw [hS]; exact le_rfl)
    (by rw [hS]; exact hi) (by rw [hS]; intro r c; rfl)
    (by rw [hS]; rfl) xc yc zc an) hw fun A h2 f2 ⟨p1, p2, p3, p4, p5, p6⟩ => ?_
  refine hk A h2 (f1.trans f2) (f1.next_le.trans p1) p2 (p3.trans (by rw [hS]; rfl)) p4 p5 fun i hi j => ?_
  rw [p6 i (by rw [hS]; exact hi), hget, hget, hget]
  rfl

/-- All arrays of the object are in use. -/
structure OK3DRef.Live (o : OK3DRef) (k : ℕ) : Prop where
  xo : o.X_ORIG.buf < k
  yo : o.Y_ORIG.buf < k
  zo : o.Z_ORIG.buf < k
  z : o.VALUES.buf < k
  xa : o.X_ADJUSTED.buf < k
  ya : o.Y_ADJUSTED.buf < k
  za : o.Z_ADJUSTED.buf < k
  ps : o.params.buf < k

theorem OK3DRef.Live.mono {o : OK3DRef} {k k' : ℕ} (l : o.Live k) (hk : k ≤ k') : o.Live k' :=
  ⟨l.xo.trans_le hk, l.yo.trans_le hk, l.zo.trans_le hk, l.z.trans_le hk, l.xa.trans_le hk, l.ya.trans_le hk,
    l.za.trans_le hk, l.ps.trans_le hk⟩

theorem OK3DRef.deref_frame {h' : Heap} (f : Heap.Frame w h h') {o : OK3DRef} (l : o.Live w) (n : ℕ) :
    o.deref h' n = o.deref h n := by
  unfold OK3DRef.deref
  rw [o.X_ORIG.vec_frame f l.xo, o.Y_ORIG.vec_frame f l.yo, o.Z_ORIG.vec_frame f l.zo, o.VALUES.vec_frame f l.z,
    o.X_ADJUSTED.vec_frame f l.xa, o.Y_ADJUSTED.vec_frame f l.ya, o.Z_ADJUSTED.vec_frame f l.za,
    o.params.list_frame f l.ps]

theorem Does.krigingMatrix3 (hw : w ≤ h.next) (n : ℕ) (o : OK3DRef) :
    Does w (o.getKrigingMatrix n) h (o.deref h n).getKrigingMatrix fun a h' A =>
      a.buf = h.next ∧ a.buf < h'.next ∧ a.mat h' (n + 1) = A := by
  unfold OK3DRef.getKrigingMatrix OK3D.getKrigingMatrix
  refine Does.here (Does.step (Does.new hw _ _ _ _) le_rfl fun a h0 f0 ⟨ha, hn0, hv0⟩ => ?_)
  have hb : a.buf = h.next := by rw [ha]
  have hr : a.rows = n + 1 := by rw [ha]
  have hc : a.cols = n + 1 := by rw [ha]
  have hcell : ∀ r c, a.cell r c = (r, c) := by rw [ha]; intro r c; rfl
  have hwa : w ≤ a.buf := by omega
  refine Does.liftBind fun γ hγ => ?_
  refine Does.step (Does.assignBase a hwa hcell _ _) le_rfl fun _ h1 f1 ⟨hn1, _, hv1⟩ => ?_
  refine Does.step (Does.assignBase a hwa hcell _ _) le_rfl fun _ h2 f2 ⟨hn2, _, hv2⟩ => ?_
  refine Does.step (Does.assignBase a hwa hcell _ _) le_rfl fun _ h3 f3 ⟨hn3, _, hv3⟩ => ?_
  refine Does.step (Does.assignBase a hwa hcell _ _) le_rfl fun _ h4 f4 ⟨hn4, _, hv4⟩ => ?_
  refine Does.step (Does.assignBase a hwa hcell _ _) le_rfl fun _ h5 f5 ⟨hn5, _, hv5⟩ => ?_
  refine Does.ret ⟨hb, by omega, ?_⟩
  funext i j
  have hi : (i : ℕ) < a.rows := by rw [hr]; exact i.isLt
  have hj : (j : ℕ) < a.cols := by rw [hc]; exact j.isLt
  unfold Arr.mat
  rw [hv5 i j hi hj inferInstance, hv4 i j hi hj inferInstance, hv3 i j hi hj inferInstance,
    hv2 i j hi hj inferInstance, hv1 i j hi hj inferInstance, hv0]
  unfold setEntry setCol setRow fillDiagonal setBlock npZeros
  by_cases h1 : (i : ℕ) = n ∧ (j : ℕ) = n
  · rw [if_pos h1, if_pos h1]
  rw [if_neg h1, if_neg h1]
  by_cases h2 : (j : ℕ) = n
  · rw [if_pos h2, if_pos h2]
  rw [if_neg h2, if_neg h2]
  by_cases h3 : (i : ℕ) = n
  · rw [if_pos h3, if_pos h3]
  rw [if_neg h3, if_neg h3]
  by_cases h4 : i = j
  · rw [if_pos h4, if_pos (congrArg Fin.val h4)]
  rw [if_neg h4, if_neg (fun e => h4 (Fin.ext e))]
  by_cases h5 : (i : ℕ) < n
  · by_cases h6 : (j : ℕ) < n
    · rw [if_pos ⟨h5, h6⟩, dif_pos h5, dif_pos h6]
    · rw [if_neg (fun e => h6 e.2), dif_pos h5, dif_neg h6]
  · rw [if_neg (fun e => h5 e.1), dif_neg h5]

theorem Does.loopBody3 (n : ℕ) (o : OK3DRef) (hl : o.Live h.next)
    (a_inv : Matrix (Fin (n + 1)) (Fin (n + 1)) ℝ) (bd : Fin n → ℝ) :
    Does h.next (o.loopBody n a_inv bd) h ((o.deref h n).loopBody a_inv bd) fun v _ v' => v = v' := by
  unfold OK3DRef.loopBody OK3D.loopBody
  refine Does.here (Does.liftBind fun γ hγ => ?_)
  refine Does.step (Does.rightHandSide le_rfl γ _ bd) le_rfl
    fun b h1 f1 ⟨hb, hn, hv⟩ => Does.here ?_
  refine Does.ret ?_
  rw [hv, o.VALUES.vec_frame f1 hl.z]
  rfl

theorem Does.windowBody3 (n : ℕ) (o : OK3DRef) (hl : o.Live h.next) (a : Arr) (w : Window n) :
    Does h.next (o.windowBody n a w) h ((o.deref h n).windowBody (a.mat h (n + 1)) w) fun v _ v' => v = v' := by
  unfold OK3DRef.windowBody OK3D.windowBody
  refine Does.here (Does.liftBind fun γ hγ => ?_)
  refine Does.step (Does.rightHandSide le_rfl γ _ w.bd) le_rfl
    fun b h1 f1 ⟨hb, hn, hv⟩ => Does.here ?_
  rw [hv]
  refine Does.liftBind fun x hx => ?_
  refine Does.ret ?_
  rw [o.VALUES.vec_frame f1 hl.z]
  rfl

theorem Does.execVector3 (n : ℕ) (o : OK3DRef) (hl : o.Live h.next) (a : Arr) (bd : List (Fin n → ℝ)) :
    Does h.next (o.execVector n a bd) h ((o.deref h n).execVector (a.mat h (n + 1)) bd) (Results h.next) := by
  unfold OK3DRef.execVector OK3D.execVector
  refine Does.here (Does.liftBind fun a_inv _ => ?_)
  refine Does.liftBind fun γ _ => ?_
  refine Does.step (Does.rightHandSides le_rfl γ _ bd) le_rfl fun b h1 f1 ⟨hb, hn, hv⟩ => Does.here ?_
  dsimp only
  refine Does.step (Does.newList (le_refl h1.next) _ _) f1.next_le fun z h2 f2 ⟨b2, n2, c2, _, l2⟩ => ?_
  refine Does.step (Does.newList (le_refl h2.next) _ _) (f1.next_le.trans f2.next_le)
    fun ss h3 f3 ⟨b3, n3, c3, _, l3⟩ => ?_
  have hn1 := f1.next_le
  refine Does.ret ⟨?_, ?_, ?_, ?_, ?_, ?_⟩ <;> dsimp only
  · omega
  · omega
  · omega
  · omega
  · rw [z.list_frame f3 (by omega), l2, List.map_map, List.map_map]
    refine List.ext_getElem (by simp) fun i g1 g2 => ?_
    have hi : i < bd.length := by simpa using g2
    rw [List.getElem_map, List.getElem_range, List.getElem_map, hv i hi, o.VALUES.vec_frame f1 hl.z]
    rfl
  · rw [l3, List.map_map, List.map_map]
    refine List.ext_getElem (by simp) fun i g1 g2 => ?_
    have hi : i < bd.length := by simpa using g2
    rw [List.getElem_map, List.getElem_range, List.getElem_map]
    rw [hv i hi]
    refine Finset.sum_congr rfl fun k _ => ?_
    rw [show b.get h1 i k = _ from congrFun (hv i hi) k]

theorem Does.execLoop3 (n : ℕ) (o : OK3DRef) (hl : o.Live h.next) (a : Arr) (bd : List (Fin n → ℝ))
    (mask : List Bool) :
    Does h.next (o.execLoop n a bd mask) h ((o.deref h n).execLoop (a.mat h (n + 1)) bd mask)
      (Results h.next) := by
  unfold OK3DRef.execLoop OK3D.execLoop
  refine Does.here (Does.liftBind fun a_inv _ => ?_)
  refine Does.runLoop (fun x h' f => ?_) _
  rw [← OK3DRef.deref_frame f hl n]
  exact Does.loopBody3 n o (hl.mono f.next_le) a_inv x

theorem Does.globalKrige3 (n : ℕ) (o : OK3DRef) (hl : o.Live h.next) (a : Arr) (qs : List (Fin 3 → ℝ))
    (mask : List Bool) (backend : String) :
    Does h.next (o.globalKrige n a qs mask backend) h
      ((o.deref h n).globalKrige (a.mat h (n + 1)) qs mask backend) (Results h.next) := by
  unfold OK3DRef.globalKrige OK3D.globalKrige
  refine Does.here ?_
  dsimp only
  by_cases h1 : backend = "vectorized"
  · rw [if_pos h1, if_pos h1]; exact Does.execVector3 n o hl a _
  rw [if_neg h1, if_neg h1]
  by_cases h2 : backend = "loop"
  · rw [if_pos h2, if_pos h2]; exact Does.execLoop3 n o hl a _ mask
  rw [if_neg h2, if_neg h2]
  exact Does.raise _

theorem Does.movingWindow3 (n : ℕ) (env : Env) (o : OK3DRef) (hl : o.Live h.next) (a : Arr) (ha : a.buf < h.next)
    (qs : List (Fin 3 → ℝ)) (mask : List Bool) (backend : String) (k : ℤ) :
    Does h.next (o.movingWindow n env a qs mask backend k) h
      ((o.deref h n).movingWindow env (a.mat h (n + 1)) qs mask backend k) (Results h.next) := by
  unfold OK3DRef.movingWindow
  refine Does.here ?_
  dsimp only
  by_cases hk : 1 < k ∧ k ≤ n ∧ backend = "loop"
  · rw [if_pos hk]
    unfold OK3D.movingWindow
    rw [if_neg (by omega), if_pos hk.2.2, if_neg (by omega), if_pos hk.2.1]
    unfold OK3D.execLoopMovingWindow
    refine Does.runLoop (fun x h' f => ?_) _
    rw [← OK3DRef.deref_frame f hl n, ← a.mat_frame f ha]
    exact Does.windowBody3 n o (hl.mono f.next_le) a x
  · rw [if_neg hk]
    exact Does.newResults le_rfl _


theorem H.bind_pure' {α : Type} (m : H α) : (m >>= fun a => (pure a : H α)) = m := by
  funext h
  show (match m h with
    | (.ok a, h') => (pure a : H α) h'
    | (.error e, h') => (.error e, h')) = m h
  generalize m h = r
  obtain ⟨r, h'⟩ := r
  cases r <;> rfl

theorem H.bind_assoc' {α β γ : Type} (m : H α) (k : α → H β) (l : β → H γ) :
    (m >>= k) >>= l = m >>= fun a => k a >>= l := by
  funext h
  show (match (match m h with
    | (.ok a, h') => k a h'
    | (.error e, h') => (.error e, h')) with
    | (.ok b, h') => l b h'
    | (.error e, h') => (.error e, h')) = (match m h with
    | (.ok a, h') => (k a >>= l) h'
    | (.error e, h') => (.error e, h'))
  generalize m h = r
  obtain ⟨r, h'⟩ := r
  cases r <;> rfl

open Classical in
theorem Does.flatten3 (hw : w ≤ h.next) (a : Arr3) :
    Does w a.flatten h (.ok ()) fun b h' _ =>
      b.buf = h.next ∧ h'.next = h.next + 1 ∧
        b.bools h' = PyKrige.flatten3 a.d0 a.d1 a.d2
          (fun i j k => decide (a.get h i j k ≠ 0)) := by
  unfold Arr3.flatten
  refine Does.here ((Does.newList hw _ _).weaken fun b h' _ _ ⟨hb, hn, _, _, hl⟩ => ⟨hb, hn, ?_⟩)
  unfold Arr.bools PyKrige.flatten3
  rw [hl, List.map_flatMap]
  congr 1
  funext i
  rw [List.map_flatMap]
  congr 1
  funext j
  rw [List.map_map]
  rfl

/-- Three coordinate arrays and the points they stand for. -/
structure IsPoints3 (A : ExecArgs3) (g : Arr × Arr × Arr) (h' : Heap) (p : List (ℝ × ℝ × ℝ)) : Prop where
  bx : g.1.buf < h'.next
  byy : g.2.1.buf < h'.next
  bz : g.2.2.buf < h'.next
  ix : g.1.isInt = A.xpoints.isInt
  iy : g.2.1.isInt = A.ypoints.isInt
  iz : g.2.2.isInt = A.zpoints.isInt
  x : g.1.list h' = p.map Prod.fst
  y : g.2.1.list h' = p.map fun q => q.2.1
  z : g.2.2.list h' = p.map fun q => q.2.2

theorem IsPoints3.frame {A : ExecArgs3} {g : Arr × Arr × Arr} {h' : Heap} {p : List (ℝ × ℝ × ℝ)}
    (q : IsPoints3 A g h p) (f : Heap.Frame h.next h h') : IsPoints3 A g h' p :=
  ⟨q.bx.trans_le f.next_le, q.byy.trans_le f.next_le, q.bz.trans_le f.next_le, q.ix, q.iy, q.iz,
    by rw [g.1.list_frame f q.bx, q.x], by rw [g.2.1.list_frame f q.byy, q.y], by rw [g.2.2.list_frame f q.bz, q.z]⟩

theorem Does.meshgrid3 (hw : w ≤ h.next) (x y z : Arr) (A : ExecArgs3)
    (ix : A.xpoints.isInt = x.isInt) (iy : A.ypoints.isInt = y.isInt) (iz : A.zpoints.isInt = z.isInt) :
    Does w (meshgridRef3 x y z) h (.ok ()) fun g h' _ =>
      IsPoints3 A g h' (meshgridFlat3 (x.list h) (y.list h) (z.list h)) := by
  unfold meshgridRef3
  refine Does.here ?_
  dsimp only
  refine Does.step (Does.newList (le_refl h.next) _ _) hw fun a h1 f1 ⟨b1, n1, c1, i1, l1⟩ => ?_
  refine Does.step (Does.newList (le_refl h1.next) _ _) (hw.trans f1.next_le) fun b h2 f2 ⟨b2, n2, c2, i2, l2⟩ => ?_
  refine Does.step (Does.newList (le_refl h2.next) _ _) (hw.trans (f1.next_le.trans f2.next_le))
    fun c h3 f3 ⟨b3, n3, c3, i3, l3⟩ => ?_
  refine Does.ret ⟨?_, ?_, ?_, i1.trans ix.symm, i2.trans iy.symm, i3.trans iz.symm, ?_, ?_, l3⟩ <;> dsimp only
  · omega
  · omega
  · omega
  · rw [a.list_frame f3 (by omega), a.list_frame f2 (by omega), l1]
  · rw [b.list_frame f3 (by omega), l2]

theorem List.map_zip3 {α β γ : Type} (l : List α) (m : List β) (n : List γ) (h1 : l.length = m.length)
    (h2 : m.length = n.length) : (l.zip (m.zip n)).map Prod.fst = l ∧ (l.zip (m.zip n)).map (fun p => p.2.1) = m ∧
      (l.zip (m.zip n)).map (fun p => p.2.2) = n := by
  have hz : (m.zip n).length = m.length := by rw [List.length_zip, h2, min_self]
  have e1 : (l.zip (m.zip n)).map Prod.snd = m.zip n := List.map_snd_zip (by omega)
  refine ⟨List.map_fst_zip (by omega), ?_, ?_⟩
  · have : (l.zip (m.zip n)).map (fun p => p.2.1) = ((l.zip (m.zip n)).map Prod.snd).map Prod.fst := by
      rw [List.map_map]; rfl
    rw [this, e1, List.map_fst_zip (by omega)]
  · have : (l.zip (m.zip n)).map (fun p => p.2.2) = ((l.zip (m.zip n)).map Prod.snd).map Prod.snd := by
      rw [List.map_map]; rfl
    rw [this, e1, List.map_snd_zip (by omega)]

/-- The arrays of the query and the values they stand for. -/
structure IsQuery3 (k : ℕ) (A : ExecArgs3) (r : (Arr × Arr × Arr) × Arr) (h' : Heap)
    (p : List (ℝ × ℝ × ℝ) × List Bool) : Prop where
  pts : IsPoints3 A r.1 h' p.1
  bm : r.2.buf < h'.next
  fresh : k ≤ r.2.buf
  mask : r.2.bools h' = p.2

open Classical in
theorem Does.query3 (hw : w ≤ h.next) (args : ExecRefs3) (x y z : Arr) (A : ExecArgs3)
    (hs : A.style = args.style) (hx : A.xpoints.vals = x.list h) (hy : A.ypoints.vals = y.list h)
    (hz : A.zpoints.vals = z.list h)
    (ix : A.xpoints.isInt = x.isInt) (iy : A.ypoints.isInt = y.isInt) (iz : A.zpoints.isInt = z.isInt)
    (hm : A.mask = args.mask.map (Mask3Ref.deref h))
    (bx : x.buf < h.next) (byy : y.buf < h.next) (bz : z.buf < h.next) :
    Does w (queryPoints3Ref args x y z) h (queryPoints3 A) (IsQuery3 h.next A) := by
  unfold queryPoints3Ref queryPoints3
  dsimp only
  have lx : A.xpoints.vals.length = x.cols := by rw [hx, Arr.list_length]
  have ly : A.ypoints.vals.length = y.cols := by rw [hy, Arr.list_length]
  have lz : A.zpoints.vals.length = z.cols := by rw [hz, Arr.list_length]
  rw [lx, ly, lz, hs]
  -- a mask array is flattened, the grid is built
  have grid : ∀ m : Arr3, ∀ l, PyKrige.flatten3 m.d0 m.d1 m.d2
        (fun i j k => decide (m.get h i j k ≠ 0)) = l →
      Does w (m.flatten >>= fun mask => meshgridRef3 x y z >>= fun g => pure (g, mask)) h
        (.ok (meshgridFlat3 A.xpoints.vals A.ypoints.vals A.zpoints.vals, l)) (IsQuery3 h.next A) := by
    rintro m l rfl
    refine Does.step (Does.flatten3 (le_refl h.next) m) hw fun mk h1 f1 ⟨b1, n1, l1⟩ => ?_
    refine Does.step (Does.meshgrid3 (le_refl h1.next) x y z A ix iy iz) (hw.trans f1.next_le)
      fun g h2 f2 hg => ?_
    rw [x.list_frame f1 bx, y.list_frame f1 byy, z.list_frame f1 bz, ← hx, ← hy, ← hz] at hg
    have := f2.next_le
    exact Does.ret ⟨hg, by dsimp only; omega, by dsimp only; omega, by
        dsimp only
        rw [mk.bools_frame f2 (by omega), l1]⟩
  by_cases h1 : args.style ∈ ["grid", "masked"]
  · rw [if_pos h1, if_pos h1]
    by_cases h2 : args.style = "masked"
    · rw [if_pos h2, if_pos h2, hm]
      rcases hmm : args.mask with _ | (b | m)
      · exact Does.raise _
      · exact Does.raise _
      · dsimp only [Option.map, Mask3Ref.deref]
        by_cases h3 : m.d0 ≠ z.cols ∨ m.d1 ≠ y.cols ∨ m.d2 ≠ x.cols
        · rw [if_pos h3, if_pos h3]
          by_cases h4 : m.d0 = x.cols ∧ m.d2 = z.cols ∧ m.d1 = y.cols
          · rw [if_pos h4, if_pos h4]
            exact grid m.swap _ rfl
          · rw [if_neg h4, if_neg h4]; exact Does.raise _
        · rw [if_neg h3, if_neg h3]
          exact grid m _ rfl
    · rw [if_neg h2, if_neg h2]
      refine Does.step (Does.meshgrid3 (le_refl h.next) x y z A ix iy iz) hw fun g h1 f1 hg => ?_
      rw [← hx, ← hy, ← hz] at hg
      refine Does.step (Does.newBools (le_refl h1.next) _) (hw.trans f1.next_le) fun mk h2 f2 ⟨b1, n1, l1⟩ => ?_
      have := f1.next_le
      exact Does.ret ⟨hg.frame f2, by dsimp only; omega, by dsimp only; omega, l1⟩
  · rw [if_neg h1, if_neg h1]
    by_cases h2 : args.style = "points"
    · rw [if_pos h2, if_pos h2]
      by_cases h3 : x.cols ≠ y.cols ∧ y.cols ≠ z.cols
      · rw [if_pos h3, if_pos h3]; exact Does.raise _
      rw [if_neg h3, if_neg h3]
      by_cases h4 : x.cols ≠ y.cols ∨ y.cols ≠ z.cols
      · rw [if_pos h4, if_pos h4]; exact Does.raise _
      rw [if_neg h4, if_neg h4]
      rw [not_or, not_not, not_not] at h4
      refine Does.step (Does.newBools (le_refl h.next) _) hw fun mk h2 f2 ⟨b1, n1, l1⟩ => ?_
      obtain ⟨e1, e2, e3⟩ := List.map_zip3 A.xpoints.vals A.ypoints.vals A.zpoints.vals (by omega) (by omega)
      refine Does.ret ⟨⟨by dsimp only; omega, by dsimp only; omega, by dsimp only; omega, ix.symm, iy.symm, iz.symm,
        ?_, ?_, ?_⟩, by dsimp only; omega, by dsimp only; omega, l1⟩ <;> dsimp only
      · rw [x.list_frame f2 bx, ← hx]; exact e1.symm
      · rw [y.list_frame f2 byy, ← hy]; exact e2.symm
      · rw [z.list_frame f2 bz, ← hz]; exact e3.symm
    · rw [if_neg h2, if_neg h2]; exact Does.raise _

/-- Adjusting the query points, followed by `k`. -/
theorem Does.adjustQuery3 (hw : w ≤ h.next) (A : ExecArgs3) (g : Arr × Arr × Arr) (pts : List (ℝ × ℝ × ℝ))
    (hg : IsPoints3 A g h pts) (xc yc zc : ℝ) (an : Aniso3) :
    Does w (PyKrige.adjustQuery3 xc yc zc an g) h
      (if A.xpoints.isInt && A.ypoints.isInt && A.zpoints.isInt then .error .castingError
        else .ok (pts.map fun p => adjustPoint3 xc yc zc an p.1 p.2.1 p.2.2)) fun X h' qs => X.rows3 h' = qs := by
  unfold PyKrige.adjustQuery3
  have get : ∀ (a : Arr) (f : ℝ × ℝ × ℝ → ℝ), a.list h = pts.map f → ∀ i (hi : i < pts.length),
      a.get h 0 i = f pts[i] := fun a f ha i hi => by
    have : (a.list h)[i]'(by rw [ha, List.length_map]; exact hi) = a.get h 0 i := by
      unfold Arr.list; rw [List.getElem_map, List.getElem_range]
    rw [← this]; simp only [ha, List.getElem_map]
  have lx : g.1.cols = pts.length := by rw [← Arr.list_length h g.1, hg.x, List.length_map]
  rw [← hg.ix, ← hg.iy, ← hg.iz]
  rw [← H.bind_pure' (PyKrige.vstack3 g.1 g.2.1 g.2.2 >>= _), H.bind_assoc']
  cases hi : g.1.isInt && g.2.1.isInt && g.2.2.isInt with
  | true =>
    rw [if_pos rfl]
    exact Does.adjusted3_int hw g.1 g.2.1 g.2.2 xc yc zc an hi
  | false =>
    rw [if_neg (by decide)]
    refine Does.adjusted3 hw g.1 g.2.1 g.2.2 xc yc zc an hi fun X h' f b1 b2 hr hc hint hv => Does.ret ?_
    unfold Arr.rows3
    refine List.ext_getElem (by simp [hr, lx]) fun i g1 g2 => ?_
    have hi' : i < pts.length := by simpa using g2
    rw [List.getElem_map, List.getElem_map, List.getElem_range]
    have := hv i (by omega)
    rw [get _ _ hg.x i hi', get _ _ hg.y i hi', get _ _ hg.z i hi'] at this
    funext j
    fin_cases j
    · exact this 0
    · exact this 1
    · exact this 2

theorem Does.executeWith3 (n : ℕ) (o : OK3DRef) (hl : o.Live h.next) (args : ExecRefs3)
    (bx : args.xpoints.buf < h.next) (byy : args.ypoints.buf < h.next) (bz : args.zpoints.buf < h.next)
    (bm : ∀ m ∈ args.mask, m.buf < h.next)
    (ker : Arr → List (Fin 3 → ℝ) → List Bool → H (Arr × Arr))
    (kerV : Matrix (Fin (n + 1)) (Fin (n + 1)) ℝ → List (Fin 3 → ℝ) → List Bool → Py (List (ℝ × ℝ)))
    (hker : ∀ a qs mask h', Heap.Frame h.next h h' → a.buf < h'.next →
      Does h'.next (ker a qs mask) h' (kerV (a.mat h' (n + 1)) qs mask) (Results h'.next)) :
    Does h.next (do
      let xpts ← args.xpoints.copy
      let ypts ← args.ypoints.copy
      let zpts ← args.zpoints.copy
      let a ← OK3DRef.getKrigingMatrix n o
      let (g, mask) ← queryPoints3Ref args xpts ypts zpts
      let A ← PyKrige.adjustQuery3 o.XCENTER o.YCENTER o.ZCENTER o.aniso g
      let h ← H.here
      let r ← ker a (A.rows3 h) (mask.bools h)
      return ({ shape := if args.style ∈ ["masked", "grid"] then [zpts.cols, ypts.cols, xpts.cols] else [xpts.cols]
                z := r.1, ss := r.2
                mask := if args.style = "masked" then some mask else none } : ResultRef)) h (do
      let a ← (o.deref h n).getKrigingMatrix
      let (pts, mask) ← queryPoints3 (args.deref h)
      let qs ← (o.deref h n).adjustQuery (args.deref h) pts
      let res ← kerV a qs mask
      return ({ shape := resultShape3 (args.deref h)
                z := applyMask args.style mask (res.map Prod.fst)
                ss := applyMask args.style mask (res.map Prod.snd) } : ExecResult)) (Returned h.next) := by
  refine Does.step (Does.copy (le_refl h.next) _) le_rfl fun x h0 f0 ⟨b0, n0, c0, i0, l0⟩ => ?_
  refine Does.step (Does.copy (le_refl h0.next) _) f0.next_le fun y h1 f1 ⟨b1, n1, c1, i1, l1⟩ => ?_
  have f01 : Heap.Frame h.next h h1 := f0.trans (f1.mono f0.next_le)
  refine Does.step (Does.copy (le_refl h1.next) _) f01.next_le fun z h2 f2 ⟨b2, n2, c2, i2, l2⟩ => ?_
  have f12 : Heap.Frame h.next h h2 := f01.trans (f2.mono f01.next_le)
  rw [args.ypoints.list_frame f0 byy] at l1
  rw [args.zpoints.list_frame f01 bz] at l2
  have l0' : x.list h2 = args.xpoints.list h := by
    rw [x.list_frame f2 (by omega), x.list_frame f1 (by omega), l0]
  have l1' : y.list h2 = args.ypoints.list h := by rw [y.list_frame f2 (by omega), l1]
  rw [← OK3DRef.deref_frame f12 hl n]
  refine Does.bind (Does.krigingMatrix3 (le_refl h2.next) n o) f12.next_le fun a h3 A f3 ⟨b3, b3', hA⟩ => ?_
  have f13 : Heap.Frame h.next h h3 := f12.trans (f3.mono f12.next_le)
  have m3 : (args.deref h).mask = args.mask.map (Mask3Ref.deref h3) := by
    show args.mask.map (Mask3Ref.deref h) = _
    rcases hm : args.mask with _ | (b | m)
    · rfl
    · rfl
    · have : m.get h = m.get h3 := by
        funext i j k
        unfold Arr3.get
        rw [f13.same m.buf (bm _ hm)]
      show some (Mask3.arr _ _ _ _) = some (Mask3.arr _ _ _ _)
      rw [this]
  have g3 := f3.next_le
  refine Does.bind (Does.query3 (le_refl h3.next) args x y z (args.deref h) rfl
    (by rw [x.list_frame f3 (by omega), l0']; rfl) (by rw [y.list_frame f3 (by omega), l1']; rfl)
    (by rw [z.list_frame f3 (by omega), l2]; rfl) i0.symm i1.symm i2.symm m3
    (by omega) (by omega) (by omega)) f13.next_le ?_
  rintro ⟨g, mk⟩ h4 ⟨pts, mask⟩ f4 ⟨q1, q2, q3, q4⟩
  have f14 : Heap.Frame h.next h h4 := f13.trans (f4.mono f13.next_le)
  refine Does.bind (Does.adjustQuery3 (le_refl h4.next) (args.deref h) g pts q1 _ _ _ _) f14.next_le ?_
  rintro X h5 qs f5 hq
  have f15 : Heap.Frame h.next h h5 := f14.trans (f5.mono f14.next_le)
  have g4 := f4.next_le
  have g5 := f5.next_le
  refine Does.here ?_
  dsimp only at hq q2 q3 q4 ⊢
  rw [hq, mk.bools_frame f5 q2, q4]
  have hA5 : a.mat h5 (n + 1) = A := by
    rw [a.mat_frame f5 (by omega), a.mat_frame f4 (by omega), hA]
  have hk := hker a qs mask h5 f15 (by omega)
  rw [hA5] at hk
  refine Does.bind hk f15.next_le ?_
  rintro ⟨kv, ss⟩ h6 res f6 ⟨r1, r2, r3, r4, r5, r6⟩
  dsimp only at r1 r2 r3 r4 r5 r6
  have g0 := f13.next_le
  refine Does.ret ⟨⟨by dsimp only; omega, r2⟩, ⟨by dsimp only; omega, r4⟩, ?_, ?_⟩
  · intro m hm
    dsimp only at hm
    split at hm
    · cases hm
      exact ⟨by omega, q2.trans_le (g5.trans f6.next_le)⟩
    · cases hm
  · unfold ResultRef.deref applyMask resultShape3
    dsimp only
    have hmb : mk.bools h6 = mask := by
      rw [mk.bools_frame f6 (by omega), mk.bools_frame f5 (by omega), q4]
    have hs : (if args.style ∈ ["masked", "grid"] then [z.cols, y.cols, x.cols] else [x.cols]) =
        if (args.deref h).style ∈ ["masked", "grid"] then
          [(args.deref h).zpoints.vals.length, (args.deref h).ypoints.vals.length,
            (args.deref h).xpoints.vals.length]
        else [(args.deref h).xpoints.vals.length] := by
      unfold ExecRefs3.deref
      dsimp only
      rw [Arr.list_length, Arr.list_length, Arr.list_length, c0, c1, c2]
    rw [hs, r5, r6]
    by_cases hst : args.style = "masked"
    · simp only [if_pos hst, hmb]
    · simp only [if_neg hst]

theorem Does.execute3 (n : ℕ) (env : Env) (o : OK3DRef) (hl : o.Live h.next) (args : ExecRefs3)
    (bx : args.xpoints.buf < h.next) (byy : args.ypoints.buf < h.next) (bz : args.zpoints.buf < h.next)
    (bm : ∀ m ∈ args.mask, m.buf < h.next) :
    Does h.next (o.execute n env args) h (OK3D.execute env (o.deref h n) (args.deref h)) (Returned h.next) := by
  unfold OK3DRef.execute OK3D.execute
  have e1 : (args.deref h).style = args.style := rfl
  have e2 : (args.deref h).nClosest = args.nClosest := rfl
  have e3 : (args.deref h).backend = args.backend := rfl
  rw [e1, e2, e3]
  by_cases h1 : args.style ∉ ["grid", "masked", "points"]
  · rw [if_pos h1, if_pos h1]; exact ⟨.refl _ _, .error _⟩
  rw [if_neg h1, if_neg h1]
  cases hk : args.nClosest with
  | some k =>
    refine Does.executeWith3 n o hl args bx byy bz bm
      (fun a qs mask => o.movingWindow n env a qs mask _ k)
      (fun a qs mask => (o.deref h n).movingWindow env a qs mask _ k) fun a qs mask h' f hb => ?_
    rw [← OK3DRef.deref_frame f hl n]
    exact Does.movingWindow3 n env o (hl.mono f.next_le) a hb qs mask _ _
  | none =>
    refine Does.executeWith3 n o hl args bx byy bz bm
      (fun a qs mask => o.globalKrige n a qs mask _)
      (fun a qs mask => (o.deref h n).globalKrige a qs mask _) fun a qs mask h' f hb => ?_
    rw [← OK3DRef.deref_frame f hl n]
    exact Does.globalKrige3 n o (hl.mono f.next_le) a qs mask _

end

end
end PyKrige
