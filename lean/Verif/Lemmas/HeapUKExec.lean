import Verif.Lemmas.HeapUK

/-! `UniversalKriging.execute` on memory does what it does on values. -/

namespace PyKrige
noncomputable section
open Matrix Spec

section
variable {w : ℕ} {h : Heap}

/-- The results of the chosen backend. -/
def UK.backend {n : ℕ} (s : UK n) (backend : String) (A : Matrix (Fin (s.nWithDrifts + 1)) (Fin (s.nWithDrifts + 1)) ℝ)
    (qs : List (UKQuery n)) (mask : List Bool) (spec : List (List ℝ)) : Py (List (ℝ × ℝ)) :=
  if backend = "vectorized" then Prod.fst <$> s.execVector A qs spec
  else if backend = "loop" then Prod.fst <$> s.execLoop A qs mask spec
  else .error .valueError

theorem Does.runBackend (hw : w ≤ h.next) {n : ℕ} (s : UK n) (backend : String)
    (A : Matrix (Fin (s.nWithDrifts + 1)) (Fin (s.nWithDrifts + 1)) ℝ)
    (qs : List (UKQuery n)) (mask : List Bool) (spec : List (List ℝ)) :
    Does w (s.runBackend backend A qs mask spec) h (s.backend backend A qs mask spec) (Results w) := by
  unfold UK.runBackend UK.backend
  split
  · exact Does.newResults hw _
  · split
    · exact Does.newResults hw _
    · exact Does.raise _

/-- The queries, if the coordinates can be adjusted. -/
def UK.checkedQueries {n : ℕ} (s : UK n) (args : ExecArgs) (pts : List (ℝ × ℝ)) : Py (List (UKQuery n)) :=
  if args.xpoints.isInt && args.ypoints.isInt then .error .castingError else .ok (s.queries pts)

theorem UK.execute_eq {n : ℕ} (s : UK n) (args : UKExecArgs) : s.execute args = (do
    if args.toExec.style ∉ ["grid", "masked", "points"] then throw .valueError
    let a ← Prod.fst <$> s.getKrigingMatrix
    let (pts, mask) ← queryPoints args.toExec
    let spec ← s.specGrids args
    let qs ← s.checkedQueries args.toExec pts
    let res ← s.backend args.toExec.backend a qs mask spec
    return { shape := resultShape args.toExec
             z := applyMask args.toExec.style mask (res.map Prod.fst)
             ss := applyMask args.toExec.style mask (res.map Prod.snd) }) := by
  unfold UK.execute UK.executeW UK.checkedQueries UK.backend
  by_cases h1 : args.toExec.style ∉ ["grid", "masked", "points"]
  · rw [if_pos h1, if_pos h1]; rfl
  rw [if_neg h1, if_neg h1]
  cases s.getKrigingMatrix with
  | error e => rfl
  | ok r =>
  obtain ⟨a, wa⟩ := r
  rw [show (Prod.fst <$> (Except.ok (a, wa) : Py _)) = .ok a from rfl]
  cases queryPoints args.toExec with
  | error e => rfl
  | ok r =>
  obtain ⟨pts, mask⟩ := r
  simp only [py_ok_bind, py_pure]
  cases s.specGrids args with
  | error e => rfl
  | ok spec =>
  simp only [py_ok_bind]
  cases args.toExec.xpoints.isInt && args.toExec.ypoints.isInt with
  | true => rfl
  | false =>
  simp only [py_ok_bind, Bool.false_eq_true, if_false]
  by_cases h2 : args.toExec.backend = "vectorized"
  · simp only [if_pos h2]
    cases s.execVector a (s.queries pts) spec with
    | error e => rfl
    | ok r => rfl
  · simp only [if_neg h2]
    by_cases h3 : args.toExec.backend = "loop"
    · simp only [if_pos h3]
      cases s.execLoop a (s.queries pts) mask spec with
      | error e => rfl
      | ok r => rfl
    · simp only [if_neg h3]; rfl

theorem UK.queries_zip {n : ℕ} (s : UK n) (pts : List (ℝ × ℝ)) (qx qy : List ℝ)
    (hq : List.zipWith (fun x y => (![x, y] : Fin 2 → ℝ)) qx qy = pts.map s.adjustPoint)
    :
    ((List.zipIdx (List.zip (List.zip (pts.map Prod.fst) (pts.map Prod.snd)) (List.zip qx qy))).map fun p =>
      ({ j := p.2, xo := p.1.1.1, yo := p.1.1.2, adj := ![p.1.2.1, p.1.2.2]
         bd := fun i => euclid ![p.1.2.1, p.1.2.2] (s.pts i) } : UKQuery n)) = s.queries pts := by
  unfold UK.queries
  have hl := congrArg List.length hq
  rw [List.length_zipWith, List.length_map] at hl
  have hx : pts.length ≤ qx.length := by omega
  have hy : pts.length ≤ qy.length := by omega
  refine List.ext_getElem (by simp [hx, hy]) fun i g1 g2 => ?_
  have hi : i < pts.length := by simpa using g2
  have e := congrArg (fun l => l[i]?) hq
  simp only [List.getElem?_map, List.getElem?_zipWith] at e
  rw [List.getElem?_eq_getElem (by omega), List.getElem?_eq_getElem (by omega), List.getElem?_eq_getElem hi] at e
  have e' : ![qx[i], qy[i]] = s.adjustPoint pts[i] := Option.some.inj e
  simp [← e']

theorem Does.krigingMatrixUK (hw : w ≤ h.next) (n : ℕ) (o : UKRef) :
    Does w (o.getKrigingMatrix n) h (Prod.fst <$> (o.deref h n).getKrigingMatrix) fun a h' A =>
      a.buf = h.next ∧ h'.next = h.next + 1 ∧ a.mat h' ((o.deref h n).nWithDrifts + 1) = A := by
  unfold UKRef.getKrigingMatrix
  refine Does.here ?_
  dsimp only
  rw [map_eq_pure_bind]
  refine Does.liftBind fun A _ => ?_
  exact (Does.new hw _ _ _ _).mapRight (g := fun _ => A.1) fun a h' _ ⟨hb, hn, hv⟩ =>
    ⟨by rw [hb], hn, by
      funext r c
      refine (hv r c).trans ?_
      rw [dif_pos r.isLt, dif_pos c.isLt]⟩

theorem checkSpec_flat (style : String) (nx ny : ℕ) (r : SpecRef) :
    checkSpec style nx ny (r.deref h) = (checkSpecRef style nx ny r >>= fun a => .ok (a.flat h)) := by
  cases r with
  | d1 a =>
    unfold SpecRef.deref checkSpec checkSpecRef
    dsimp only
    rw [Arr.list_length]
    by_cases h1 : style ∈ ["grid", "masked"]
    · rw [if_pos h1, if_pos h1]; rfl
    · rw [if_neg h1, if_neg h1]
      by_cases h2 : a.cols ≠ nx
      · rw [if_pos h2, if_pos h2]; rfl
      · rw [if_neg h2, if_neg h2]
        refine congrArg Except.ok ?_
        unfold Arr.flat Arr.list
        simp only [List.range_one, List.flatMap_cons, List.flatMap_nil, List.append_nil]
        rfl
  | d2 a =>
    unfold SpecRef.deref checkSpec checkSpecRef
    dsimp only
    by_cases h1 : style ∈ ["grid", "masked"]
    · rw [if_pos h1, if_pos h1]
      by_cases h2 : a.rows ≠ ny ∨ a.cols ≠ nx
      · rw [if_pos h2, if_pos h2]
        by_cases h3 : a.rows = nx ∧ a.cols = ny
        · rw [if_pos h3, if_pos h3, ← h3.1, ← h3.2]; rfl
        · rw [if_neg h3, if_neg h3]; rfl
      · rw [if_neg h2, if_neg h2]
        push Not at h2
        rw [← h2.1, ← h2.2]; rfl
    · rw [if_neg h1, if_neg h1]; rfl

theorem specGrids_flat (h' : Heap) (n : ℕ) (o : UKRef) (args : UKExecRefs) :
    (o.deref h' n).specGrids (args.deref h) =
      (o.specGrids args args.toExec.xpoints.cols args.toExec.ypoints.cols >>= fun g => .ok (g.map (Arr.flat h))) := by
  unfold UK.specGrids UKRef.specGrids
  rw [show (o.deref h' n).specified = o.drift.specified.map fun l => l.map fun a => a.vec h' n from rfl,
    show (args.deref h).spec = args.spec.deref h from rfl,
    show (args.deref h).toExec.style = args.toExec.style from rfl,
    show (args.deref h).toExec.xpoints.vals.length = args.toExec.xpoints.cols from Arr.list_length h _,
    show (args.deref h).toExec.ypoints.vals.length = args.toExec.ypoints.cols from Arr.list_length h _]
  cases o.drift.specified with
  | none => rfl
  | some arrs =>
  dsimp only [Option.map_some]
  match args.spec with
  | .none => rfl
  | .notList => rfl
  | .list [] => rfl
  | .list (l :: ls) =>
    show ((l :: ls).map (SpecRef.deref h)).mapM _ >>= _ = _
    rw [List.mapM_map]
    have e : (checkSpec args.toExec.style args.toExec.xpoints.cols args.toExec.ypoints.cols ∘ SpecRef.deref h) =
        fun r => (checkSpecRef args.toExec.style args.toExec.xpoints.cols args.toExec.ypoints.cols r >>= fun a => .ok (a.flat h)) :=
      funext fun r => checkSpec_flat _ _ _ r
    rw [e]
    have e2 := py_mapM_bind_pure (checkSpecRef args.toExec.style args.toExec.xpoints.cols args.toExec.ypoints.cols)
      (Arr.flat h) (l :: ls)
    rw [e2]
    dsimp only
    cases (l :: ls).mapM (checkSpecRef args.toExec.style args.toExec.xpoints.cols args.toExec.ypoints.cols) with
    | error e => rfl
    | ok g =>
      simp only [py_ok_bind, List.length_map]
      by_cases hl : g.length ≠ arrs.length
      · rw [if_pos hl, if_pos hl]; rfl
      · rw [if_neg hl, if_neg hl]; rfl

theorem checkSpecRef_buf {style : String} {nx ny : ℕ} {r : SpecRef} {a : Arr} (h : checkSpecRef style nx ny r = .ok a) :
    a.buf = r.buf := by
  cases r with
  | d1 b =>
    unfold checkSpecRef at h
    dsimp only at h
    by_cases h1 : style ∈ ["grid", "masked"]
    · rw [if_pos h1] at h; cases h
    · rw [if_neg h1] at h
      by_cases h2 : b.cols ≠ nx
      · rw [if_pos h2] at h; cases h
      · rw [if_neg h2] at h; cases h; rfl
  | d2 b =>
    unfold checkSpecRef at h
    dsimp only at h
    by_cases h1 : style ∈ ["grid", "masked"]
    · rw [if_pos h1] at h
      by_cases h2 : b.rows ≠ ny ∨ b.cols ≠ nx
      · rw [if_pos h2] at h
        by_cases h3 : b.rows = nx ∧ b.cols = ny
        · rw [if_pos h3] at h; cases h; rfl
        · rw [if_neg h3] at h; cases h
      · rw [if_neg h2] at h; cases h; rfl
    · rw [if_neg h1] at h; cases h

theorem py_mapM_mem {α β : Type} {f : α → Py β} : ∀ {l : List α} {r : List β}, l.mapM f = .ok r → ∀ b ∈ r, ∃ a ∈ l, f a = .ok b
  | [], r, hr, b, hb => by
    cases hr
    cases hb
  | a :: l, r, hr, b, hb => by
    rw [List.mapM_cons] at hr
    cases ha : f a with
    | error e => rw [ha] at hr; cases hr
    | ok x =>
    cases hl : l.mapM f with
    | error e => rw [ha, hl] at hr; cases hr
    | ok xs =>
      rw [ha, hl] at hr
      cases hr
      rcases List.mem_cons.1 hb with rfl | hb
      · exact ⟨a, List.mem_cons_self .., ha⟩
      · obtain ⟨c, hc, e⟩ := py_mapM_mem hl b hb
        exact ⟨c, List.mem_cons_of_mem _ hc, e⟩

theorem UKRef.specGrids_bufs {o : UKRef} {args : UKExecRefs} {nx ny : ℕ} {g : List Arr} (hg : o.specGrids args nx ny = .ok g) :
    ∀ a ∈ g, a.buf ∈ specBuffers args.spec := by
  unfold UKRef.specGrids at hg
  cases hs : o.drift.specified with
  | none => rw [hs] at hg; cases hg; intro a ha; cases ha
  | some arrs =>
  rw [hs] at hg
  dsimp only at hg
  match hsp : args.spec with
  | .none => rw [hsp] at hg; cases hg
  | .notList => rw [hsp] at hg; cases hg
  | .list [] => rw [hsp] at hg; cases hg
  | .list (l :: ls) =>
    rw [hsp] at hg
    dsimp only at hg
    cases hm : (l :: ls).mapM (checkSpecRef args.toExec.style nx ny) with
    | error e => rw [hm] at hg; cases hg
    | ok g' =>
      rw [hm, py_ok_bind] at hg
      split at hg
      · cases hg
      · cases hg
        intro a ha
        obtain ⟨r, hr, e⟩ := py_mapM_mem hm a ha
        exact ⟨r, hr, checkSpecRef_buf e⟩

theorem Does.executeUK (n : ℕ) (o : UKRef) (ho : o.Sound n h.next) (args : UKExecRefs)
    (_bx : args.toExec.xpoints.buf < h.next) (byy : args.toExec.ypoints.buf < h.next)
    (bm : ∀ m ∈ args.toExec.mask, m.buf < h.next) (bs : ∀ b ∈ specBuffers args.spec, b < h.next) :
    Does h.next (o.execute n args) h (UK.execute (o.deref h n) (args.deref h)) (Returned h.next) := by
  rw [UK.execute_eq]
  unfold UKRef.execute
  rw [show (args.deref h).toExec.style = args.toExec.style from rfl,
    show (args.deref h).toExec.backend = args.toExec.backend from rfl]
  by_cases h1 : args.toExec.style ∉ ["grid", "masked", "points"]
  · rw [if_pos h1, if_pos h1]; exact ⟨.refl _ _, .error _⟩
  rw [if_neg h1, if_neg h1]
  have hl := ho.core.live
  have frame : ∀ {h' : Heap}, Heap.Frame h.next h h' → o.deref h' n = o.deref h n := fun f => by
    unfold UKRef.deref
    rw [OKRef.deref_frame f hl, UKDriftRef.deref_congr fun b hb => f.same _ (ho.drift b hb)]
  refine Does.step (Does.copy (le_refl h.next) _) le_rfl fun x h1 f1 ⟨b1, n1, c1, i1, l1⟩ => ?_
  refine Does.step (Does.copy (le_refl h1.next) _) f1.next_le fun y h2 f2 ⟨b2, n2, c2, i2, l2⟩ => ?_
  have f12 : Heap.Frame h.next h h2 := f1.trans (f2.mono f1.next_le)
  rw [args.toExec.ypoints.list_frame f1 byy] at l2
  have l1' : x.list h2 = args.toExec.xpoints.list h := by rw [x.list_frame f2 (by omega), l1]
  have hK := Does.krigingMatrixUK (le_refl h2.next) n o
  rw [frame f12] at hK
  refine Does.bind hK f12.next_le fun a h3 A f3 ⟨b3, b3', hA⟩ => ?_
  have f13 : Heap.Frame h.next h h3 := f12.trans (f3.mono f12.next_le)
  have m3 : (args.deref h).toExec.mask = args.toExec.mask.map (Arr.mask2 h3) := by
    show args.toExec.mask.map (Arr.mask2 h) = _
    cases hm : args.toExec.mask with
    | none => rfl
    | some m =>
      have : Arr.mask2 h m = Arr.mask2 h3 m := by
        unfold Arr.mask2
        congr 1
        funext r c
        rw [m.get_frame f13 (bm m hm)]
      show some _ = some _
      rw [this]
  have g3 := f3.next_le
  refine Does.bind (Does.query (le_refl h3.next) args.toExec x y (args.deref h).toExec rfl
    (by rw [x.list_frame f3 (by omega), l1']; rfl) (by rw [y.list_frame f3 (by omega), l2]; rfl) i1.symm i2.symm m3
    (by omega) (by omega) fun m hm => (bm m hm).trans_le f13.next_le) f13.next_le ?_
  rintro ⟨gx, gy, mk⟩ h4 ⟨pts, mask⟩ f4 ⟨q1, q2, q3, q4, q5, q6, q7, q8, q9⟩
  have f14 : Heap.Frame h.next h h4 := f13.trans (f4.mono f13.next_le)
  dsimp only at q7 q8 q1 q2 q3 q4 q9 ⊢
  rw [specGrids_flat (h := h) h n o args, c1, c2, bind_assoc]
  refine Does.liftBind fun grids hg => ?_
  rw [py_ok_bind]
  refine Does.here ?_
  have hadj := Does.adjustQuery (le_refl h4.next) n o.core (o.core.deref h n) (args.deref h).toExec gx gy pts rfl rfl rfl rfl
    rfl q5 q6 q7 q8
  have hqv : (o.deref h n).checkedQueries (args.deref h).toExec pts =
      ((o.core.deref h n).adjustQuery (args.deref h).toExec pts >>= fun _ => .ok ((o.deref h n).queries pts)) := by
    unfold OK.adjustQuery UK.checkedQueries
    rw [if_pos (show (o.core.deref h n).coordinatesType = "euclidean" from ho.euclidean)]
    cases (args.deref h).toExec.xpoints.isInt && (args.deref h).toExec.ypoints.isInt with
    | true => rfl
    | false => rfl
  rw [hqv, bind_assoc]
  refine Does.bind hadj.withValue f14.next_le ?_
  rintro ⟨qx, qy⟩ h5 qs f5 ⟨hqs, hq⟩
  rw [py_ok_bind]
  have f15 : Heap.Frame h.next h h5 := f14.trans (f5.mono f14.next_le)
  have g4 := f4.next_le
  have g5 := f5.next_le
  refine Does.here ?_
  dsimp only at hq ⊢
  have hqs' : qs = pts.map (o.deref h n).adjustPoint := by
    unfold OK.adjustQuery at hqs
    rw [if_pos (show (o.core.deref h n).coordinatesType = "euclidean" from ho.euclidean)] at hqs
    split at hqs
    · cases hqs
    · exact (Except.ok.inj hqs).symm
  rw [hqs'] at hq
  rw [frame f15, mk.bools_frame f5 q3, q9, q7, q8,
    show pointsOf h5 n o.core.X_ADJUSTED o.core.Y_ADJUSTED = (o.deref h5 n).pts from rfl, frame f15,
    UK.queries_zip (o.deref h n) pts _ _ hq]
  have hA5 : a.mat h5 ((o.deref h n).nWithDrifts + 1) = A := by
    rw [a.mat_frame f5 (by omega), a.mat_frame f4 (by omega), hA]
  have hg5 : grids.map (Arr.flat h5) = grids.map (Arr.flat h) :=
    List.map_congr_left fun t ht => by
      unfold Arr.flat
      rw [Arr.get_congr (f15.same _ (bs _ (UKRef.specGrids_bufs hg t ht)))]
  rw [hA5, hg5]
  refine Does.bind (Does.runBackend (le_refl h5.next) _ _ _ _ _ _) f15.next_le ?_
  rintro ⟨z, ss⟩ h6 res f6 ⟨r1, r2, r3, r4, r5, r6⟩
  dsimp only at r1 r2 r3 r4 r5 r6
  have g0 := f13.next_le
  refine Does.ret ⟨⟨by dsimp only; omega, r2⟩, ⟨by dsimp only; omega, r4⟩, ?_, ?_⟩
  · intro m hm
    dsimp only at hm
    split at hm
    · cases hm
      exact ⟨by omega, q3.trans_le (g5.trans f6.next_le)⟩
    · cases hm
  · unfold ResultRef.deref applyMask resultShape
    dsimp only
    have hmb : mk.bools h6 = mask := by
      rw [mk.bools_frame f6 (by omega), mk.bools_frame f5 (by omega), q9]
    have hs : (if args.toExec.style ∈ ["masked", "grid"] then [args.toExec.ypoints.cols, args.toExec.xpoints.cols]
          else [args.toExec.xpoints.cols]) =
        if (args.deref h).toExec.style ∈ ["masked", "grid"] then
          [(args.deref h).toExec.ypoints.vals.length, (args.deref h).toExec.xpoints.vals.length]
        else [(args.deref h).toExec.xpoints.vals.length] := by
      unfold UKExecRefs.deref ExecRefs.deref
      dsimp only
      rw [Arr.list_length, Arr.list_length]
    rw [hs, r5, r6]
    by_cases hst : args.toExec.style = "masked"
    · simp only [if_pos hst, hmb]
    · simp only [if_neg hst]

end
end
end PyKrige