import Verif.Lemmas.ToUK3
import Verif.Lemmas.HeapUKExec
import Verif.Lemmas.LawsOK3D

/-! The heap programs of `UniversalKriging3D` compute what the functions on values compute, and write only into new
buffers. -/

namespace PyKrige
noncomputable section
open Matrix Spec

section
variable {w : ℕ} {h : Heap}

/-- The buffers of the drift attributes. -/
def UK3DDriftRef.bufs (d : UK3DDriftRef) : Set ℕ := {b | ∃ l ∈ d.specified, ∃ a ∈ l, b = a.buf}

theorem UK3DDriftRef.deref_congr {h h' : Heap} {d : UK3DDriftRef} (e : ∀ b ∈ d.bufs, h'.buf b = h.buf b) (n : ℕ) :
    d.deref h' n = d.deref h n := by
  obtain ⟨rl, sp, fu⟩ := d
  unfold UK3DDriftRef.deref
  have h3 : (sp.map fun l => l.map fun a => Arr.vec h' a n) = sp.map fun l => l.map fun a => Arr.vec h a n := by
    cases sp with
    | none => rfl
    | some l => exact congrArg some (List.map_congr_left fun a ha => Arr.vec_congr (e _ ⟨l, rfl, a, ha, rfl⟩) n)
  dsimp only
  rw [h3]

/-- Holds of every `UniversalKriging3D` object when `k` buffers are in use. -/
structure UK3DRef.Sound (o : UK3DRef) (n k : ℕ) : Prop where
  core : o.core.Sound n k
  drift : ∀ b ∈ o.drift.bufs, b < k

/-- The arrays passed to the constructor exist when `k` buffers are in use. -/
structure UK3DRefArgs.Below (args : UK3DRefArgs) (k : ℕ) : Prop where
  params : args.paramRef.Below k
  spec : ∀ l, args.specifiedRef = .list l → ∀ a ∈ l, a.buf < k

theorem UK3DRefArgs.Below.mono {args : UK3DRefArgs} {k k' : ℕ} (b : args.Below k) (hk : k ≤ k') : args.Below k' :=
  ⟨b.params.mono hk, fun l hl a ha => (b.spec l hl a ha).trans_le hk⟩

theorem UK3DRefArgs.deref_frame {h' : Heap} (f : Heap.Frame w h h') {args : UK3DRefArgs} (b : args.Below w) :
    args.deref h' = args.deref h := by
  unfold UK3DRefArgs.deref
  have e5 : listArgDeref h' args.specifiedRef = listArgDeref h args.specifiedRef := by
    cases hh : args.specifiedRef with
    | notList => rfl
    | list l =>
      exact congrArg ListArg.list (List.map_congr_left fun a ha => Arr.list_congr (f.same _ (b.spec l hh a ha)))
  rw [ParamRef.deref_frame f b.params, e5]

theorem Does.createUK3 {n : ℕ} (env : Env) (x y z val : Arr) (hx : x.cols = n) (bx : x.buf < h.next)
    (byy : y.buf < h.next) (bz : z.buf < h.next) (bv : val.buf < h.next) (args : UK3DRefArgs)
    (b : args.Below h.next) :
    Does h.next (UK3DRef.create n env x y z val args) h
      (UK3D.create env (x.vec h n) (y.vec h n) (z.vec h n) (val.vec h n) (args.deref h)) fun o h' s =>
        o.deref h' n = s ∧ o.Sound n h'.next ∧ o.core.Fresh h.next ∧ (∀ b ∈ o.drift.bufs, h.next ≤ b) ∧
          KeepsList args.paramRef o.core.params h.next := by
  rw [UK3D.create_eq]
  unfold UK3DRef.create
  rw [show (args.deref h).core = args.core.deref h from rfl]
  refine Does.bind (Does.create3 env x y z val hx bx byy bz bv args.core b.params) le_rfl ?_
  rintro o h1 s f1 ⟨rfl, so, fo, ko⟩
  have g1 := f1.next_le
  have b1 := b.mono g1
  rw [← UK3DRefArgs.deref_frame f1 b]
  refine Does.bind (Does.setupSpecified (le_refl h1.next) n args.driftTerms args.specifiedRef b1.spec) g1 ?_
  rintro sp h4 v f4 ⟨rfl, sp2⟩
  have g4 := f4.next_le
  refine Does.liftBind fun fu _ => ?_
  have range : ∀ b ∈ UK3DDriftRef.bufs ⟨decide ("regional_linear" ∈ args.driftTerms), sp, fu⟩,
      h.next ≤ b ∧ b < h4.next := by
    rintro b ⟨l, hl, a, ha, rfl⟩
    have := sp2 l hl a ha; omega
  refine Does.ret ⟨?_, ⟨⟨so.live.mono (by omega), so.xlen, so.xfloat⟩, fun b hb => (range b hb).2⟩, fo,
    fun b hb => (range b hb).1, ko⟩
  unfold UK3DRef.deref UK3DDriftRef.deref
  dsimp only
  rw [OK3DRef.deref_frame f4 so.live]
  rfl

/-- The results of the chosen backend. -/
def UK3D.backend {n : ℕ} (s : UK3D n) (backend : String)
    (A : Matrix (Fin (s.nWithDrifts + 1)) (Fin (s.nWithDrifts + 1)) ℝ)
    (qs : List (UK3Query n)) (mask : List Bool) (spec : List (List ℝ)) : Py (List (ℝ × ℝ)) :=
  if backend = "vectorized" then Prod.fst <$> s.execVector A qs spec
  else if backend = "loop" then Prod.fst <$> s.execLoop A qs mask spec
  else .error .valueError

theorem Does.runBackend3 (hw : w ≤ h.next) {n : ℕ} (s : UK3D n) (backend : String)
    (A : Matrix (Fin (s.nWithDrifts + 1)) (Fin (s.nWithDrifts + 1)) ℝ)
    (qs : List (UK3Query n)) (mask : List Bool) (spec : List (List ℝ)) :
    Does w (s.runBackend backend A qs mask spec) h (s.backend backend A qs mask spec) (Results w) := by
  unfold UK3D.runBackend UK3D.backend
  split
  · exact Does.newResults hw _
  · split
    · exact Does.newResults hw _
    · exact Does.raise _

/-- The adjusted points, if the coordinates can be adjusted. -/
def UK3D.checkedPoints {n : ℕ} (s : UK3D n) (args : ExecArgs3) (pts : List (ℝ × ℝ × ℝ)) : Py (List (Fin 3 → ℝ)) :=
  if args.xpoints.isInt && args.ypoints.isInt && args.zpoints.isInt then .error .castingError
  else .ok (pts.map fun p => adjustPoint3 s.XCENTER s.YCENTER s.ZCENTER s.aniso p.1 p.2.1 p.2.2)

/-- The queries at adjusted points. -/
def UK3D.queriesAt {n : ℕ} (s : UK3D n) (l : List (Fin 3 → ℝ)) : List (UK3Query n) :=
  l.zipIdx.map fun p => { j := p.2, xyz := zyx p.1, bd := fun i => euclid (zyx p.1) (zyx (s.pts i)) }

theorem UK3D.queriesAt_map {n : ℕ} (s : UK3D n) (pts : List (ℝ × ℝ × ℝ)) :
    s.queriesAt (pts.map fun p => adjustPoint3 s.XCENTER s.YCENTER s.ZCENTER s.aniso p.1 p.2.1 p.2.2) =
      s.queries pts := by
  unfold UK3D.queriesAt UK3D.queries
  rw [List.zipIdx_map, List.map_map]
  rfl

theorem UK3D.execute_eq {n : ℕ} (s : UK3D n) (args : UK3DExecArgs) : s.execute args = (do
    if args.toExec.style ∉ ["grid", "masked", "points"] then throw .valueError
    let a ← Prod.fst <$> s.getKrigingMatrix
    let (pts, mask) ← queryPoints3 args.toExec
    let spec ← s.specGrids args
    let qs ← s.checkedPoints args.toExec pts
    let res ← s.backend args.toExec.backend a (s.queriesAt qs) mask spec
    return { shape := resultShape3 args.toExec
             z := applyMask args.toExec.style mask (res.map Prod.fst)
             ss := applyMask args.toExec.style mask (res.map Prod.snd) }) := by
  unfold UK3D.execute UK3D.executeW UK3D.checkedPoints UK3D.backend
  by_cases h1 : args.toExec.style ∉ ["grid", "masked", "points"]
  · rw [if_pos h1, if_pos h1]; rfl
  rw [if_neg h1, if_neg h1]
  cases s.getKrigingMatrix with
  | error e => rfl
  | ok r =>
  obtain ⟨a, wa⟩ := r
  rw [show (Prod.fst <$> (Except.ok (a, wa) : Py _)) = .ok a from rfl]
  cases queryPoints3 args.toExec with
  | error e => rfl
  | ok r =>
  obtain ⟨pts, mask⟩ := r
  simp only [py_ok_bind, py_pure]
  cases s.specGrids args with
  | error e => rfl
  | ok spec =>
  simp only [py_ok_bind]
  cases args.toExec.xpoints.isInt && args.toExec.ypoints.isInt && args.toExec.zpoints.isInt with
  | true => rfl
  | false =>
  simp only [py_ok_bind, Bool.false_eq_true, if_false, UK3D.queriesAt_map]
  by_cases h2 : args.toExec.backend = "vectorized"
  · simp only [if_pos h2]
    cases s.execVector a (s.queries pts) spec with
    | error e => rfl
    | ok r => rfl
  · simp only [if_neg h2]
    by_cases h3 : args.toExec.backend = "loop"
    · simp only [if_pos h3]
      cases s.execLoop a (s.queries pts) mask spec with
      | error e => rfl
      | ok r => rfl
    · simp only [if_neg h3]; rfl

theorem Does.krigingMatrixUK3 (hw : w ≤ h.next) (n : ℕ) (o : UK3DRef) :
    Does w (o.getKrigingMatrix n) h (Prod.fst <$> (o.deref h n).getKrigingMatrix) fun a h' A =>
      a.buf = h.next ∧ h'.next = h.next + 1 ∧ a.mat h' ((o.deref h n).nWithDrifts + 1) = A := by
  unfold UK3DRef.getKrigingMatrix
  refine Does.here ?_
  dsimp only
  rw [map_eq_pure_bind]
  refine Does.liftBind fun A _ => ?_
  exact (Does.new hw _ _ _ _).mapRight (g := fun _ => A.1) fun a h' _ ⟨hb, hn, hv⟩ =>
    ⟨by rw [hb], hn, by
      funext r c
      refine (hv r c).trans ?_
      rw [dif_pos r.isLt, dif_pos c.isLt]⟩

theorem checkSpec3_flat (style : String) (nx ny nz : ℕ) (r : SpecRef3) :
    checkSpec3 style nx ny nz (r.deref h) = (checkSpecRef3 style nx ny nz r >>= fun a => .ok (a.flat h)) := by
  cases r with
  | d1 a =>
    unfold SpecRef3.deref checkSpec3 checkSpecRef3
    dsimp only
    rw [Arr.list_length]
    by_cases h1 : style ∈ ["grid", "masked"]
    · rw [if_pos h1, if_pos h1]; rfl
    · rw [if_neg h1, if_neg h1]
      by_cases h2 : a.cols ≠ nx
      · rw [if_pos h2, if_pos h2]; rfl
      · rw [if_neg h2, if_neg h2]; rfl
  | d2 b => rfl
  | d3 a =>
    unfold SpecRef3.deref checkSpec3 checkSpecRef3
    dsimp only
    by_cases h1 : style ∈ ["grid", "masked"]
    · rw [if_pos h1, if_pos h1]
      by_cases h2 : a.d0 ≠ nz ∨ a.d1 ≠ ny ∨ a.d2 ≠ nx
      · rw [if_pos h2, if_pos h2]
        by_cases h3 : a.d0 = nx ∧ a.d2 = nz ∧ a.d1 = ny
        · rw [if_pos h3, if_pos h3, ← h3.1, ← h3.2.1, ← h3.2.2]; rfl
        · rw [if_neg h3, if_neg h3]; rfl
      · rw [if_neg h2, if_neg h2]
        push Not at h2
        rw [← h2.1, ← h2.2.1, ← h2.2.2]; rfl
    · rw [if_neg h1, if_neg h1]; rfl

theorem specGrids3_flat (h' : Heap) (n : ℕ) (o : UK3DRef) (args : UK3DExecRefs) :
    (o.deref h' n).specGrids (args.deref h) =
      (o.specGrids args args.toExec.xpoints.cols args.toExec.ypoints.cols args.toExec.zpoints.cols >>= fun g =>
        .ok (g.map (SpecRef3.flat h))) := by
  unfold UK3D.specGrids UK3DRef.specGrids
  rw [show (o.deref h' n).specified = o.drift.specified.map fun l => l.map fun a => a.vec h' n from rfl,
    show (args.deref h).spec = args.spec.deref h from rfl,
    show (args.deref h).toExec.style = args.toExec.style from rfl,
    show (args.deref h).toExec.xpoints.vals.length = args.toExec.xpoints.cols from Arr.list_length h _,
    show (args.deref h).toExec.ypoints.vals.length = args.toExec.ypoints.cols from Arr.list_length h _,
    show (args.deref h).toExec.zpoints.vals.length = args.toExec.zpoints.cols from Arr.list_length h _]
  generalize args.toExec.xpoints.cols = nx
  generalize args.toExec.ypoints.cols = ny
  generalize args.toExec.zpoints.cols = nz
  cases o.drift.specified with
  | none => rfl
  | some arrs =>
  dsimp only [Option.map_some]
  match args.spec with
  | .none => rfl
  | .notList => rfl
  | .list [] => rfl
  | .list (l :: ls) =>
    show ((l :: ls).map (SpecRef3.deref h)).mapM _ >>= _ = _
    rw [List.mapM_map]
    have e : (checkSpec3 args.toExec.style nx ny nz ∘ SpecRef3.deref h) =
        fun r => (checkSpecRef3 args.toExec.style nx ny nz r >>= fun a => .ok (a.flat h)) :=
      funext fun r => checkSpec3_flat _ _ _ _ r
    rw [e]
    have e2 := py_mapM_bind_pure (checkSpecRef3 args.toExec.style nx ny nz) (SpecRef3.flat h) (l :: ls)
    rw [e2]
    dsimp only
    cases (l :: ls).mapM (checkSpecRef3 args.toExec.style nx ny nz) with
    | error e => rfl
    | ok g =>
      simp only [py_ok_bind, List.length_map]
      by_cases hl : g.length ≠ arrs.length
      · rw [if_pos hl, if_pos hl]; rfl
      · rw [if_neg hl, if_neg hl]; rfl

theorem checkSpecRef3_buf {style : String} {nx ny nz : ℕ} {r a : SpecRef3}
    (h : checkSpecRef3 style nx ny nz r = .ok a) : a.buf = r.buf := by
  cases r with
  | d1 b =>
    unfold checkSpecRef3 at h
    dsimp only at h
    by_cases h1 : style ∈ ["grid", "masked"]
    · rw [if_pos h1] at h; cases h
    · rw [if_neg h1] at h
      by_cases h2 : b.cols ≠ nx
      · rw [if_pos h2] at h; cases h
      · rw [if_neg h2] at h; cases h; rfl
  | d2 b => cases h
  | d3 b =>
    unfold checkSpecRef3 at h
    dsimp only at h
    by_cases h1 : style ∈ ["grid", "masked"]
    · rw [if_pos h1] at h
      by_cases h2 : b.d0 ≠ nz ∨ b.d1 ≠ ny ∨ b.d2 ≠ nx
      · rw [if_pos h2] at h
        by_cases h3 : b.d0 = nx ∧ b.d2 = nz ∧ b.d1 = ny
        · rw [if_pos h3] at h; cases h; rfl
        · rw [if_neg h3] at h; cases h
      · rw [if_neg h2] at h; cases h; rfl
    · rw [if_neg h1] at h; cases h

theorem UK3DRef.specGrids_bufs {o : UK3DRef} {args : UK3DExecRefs} {nx ny nz : ℕ} {g : List SpecRef3}
    (hg : o.specGrids args nx ny nz = .ok g) : ∀ a ∈ g, a.buf ∈ specBuffers3 args.spec := by
  unfold UK3DRef.specGrids at hg
  cases hs : o.drift.specified with
  | none => rw [hs] at hg; cases hg; intro a ha; cases ha
  | some arrs =>
  rw [hs] at hg
  dsimp only at hg
  match hsp : args.spec with
  | .none => rw [hsp] at hg; cases hg
  | .notList => rw [hsp] at hg; cases hg
  | .list [] => rw [hsp] at hg; cases hg
  | .list (l :: ls) =>
    rw [hsp] at hg
    dsimp only at hg
    cases hm : (l :: ls).mapM (checkSpecRef3 args.toExec.style nx ny nz) with
    | error e => rw [hm] at hg; cases hg
    | ok g' =>
      rw [hm, py_ok_bind] at hg
      split at hg
      · cases hg
      · cases hg
        intro a ha
        obtain ⟨r, hr, e⟩ := py_mapM_mem hm a ha
        exact ⟨r, hr, checkSpecRef3_buf e⟩

theorem SpecRef3.flat_congr {h h' : Heap} {a : SpecRef3} (e : h'.buf a.buf = h.buf a.buf) : a.flat h' = a.flat h := by
  cases a with
  | d1 a => exact Arr.list_congr e
  | d2 b => rfl
  | d3 a =>
    unfold SpecRef3.flat
    dsimp only
    have : a.get h' = a.get h := by
      funext i j k
      unfold Arr3.get
      rw [show h'.buf a.buf = h.buf a.buf from e]
    rw [this]

theorem Does.executeUK3 (n : ℕ) (o : UK3DRef) (ho : o.Sound n h.next) (args : UK3DExecRefs)
    (_bx : args.toExec.xpoints.buf < h.next) (byy : args.toExec.ypoints.buf < h.next)
    (bz : args.toExec.zpoints.buf < h.next)
    (bm : ∀ m ∈ args.toExec.mask, m.buf < h.next) (bs : ∀ b ∈ specBuffers3 args.spec, b < h.next) :
    Does h.next (o.execute n args) h (UK3D.execute (o.deref h n) (args.deref h)) (Returned h.next) := by
  rw [UK3D.execute_eq]
  unfold UK3DRef.execute
  rw [show (args.deref h).toExec.style = args.toExec.style from rfl,
    show (args.deref h).toExec.backend = args.toExec.backend from rfl]
  by_cases h1 : args.toExec.style ∉ ["grid", "masked", "points"]
  · rw [if_pos h1, if_pos h1]; exact ⟨.refl _ _, .error _⟩
  rw [if_neg h1, if_neg h1]
  have hl := ho.core.live
  have frame : ∀ {h' : Heap}, Heap.Frame h.next h h' → o.deref h' n = o.deref h n := fun f => by
    unfold UK3DRef.deref
    rw [OK3DRef.deref_frame f hl, UK3DDriftRef.deref_congr fun b hb => f.same _ (ho.drift b hb)]
  refine Does.step (Does.copy (le_refl h.next) _) le_rfl fun x h0 f0 ⟨b0, n0, c0, i0, l0⟩ => ?_
  refine Does.step (Does.copy (le_refl h0.next) _) f0.next_le fun y h1 f1 ⟨b1, n1, c1, i1, l1⟩ => ?_
  have f01 : Heap.Frame h.next h h1 := f0.trans (f1.mono f0.next_le)
  refine Does.step (Does.copy (le_refl h1.next) _) f01.next_le fun z h2 f2 ⟨b2, n2, c2, i2, l2⟩ => ?_
  have f12 : Heap.Frame h.next h h2 := f01.trans (f2.mono f01.next_le)
  rw [args.toExec.ypoints.list_frame f0 byy] at l1
  rw [args.toExec.zpoints.list_frame f01 bz] at l2
  have l0' : x.list h2 = args.toExec.xpoints.list h := by
    rw [x.list_frame f2 (by omega), x.list_frame f1 (by omega), l0]
  have l1' : y.list h2 = args.toExec.ypoints.list h := by rw [y.list_frame f2 (by omega), l1]
  have hK := Does.krigingMatrixUK3 (le_refl h2.next) n o
  rw [frame f12] at hK
  refine Does.bind hK f12.next_le fun a h3 A f3 ⟨b3, b3', hA⟩ => ?_
  have f13 : Heap.Frame h.next h h3 := f12.trans (f3.mono f12.next_le)
  have m3 : (args.deref h).toExec.mask = args.toExec.mask.map (Mask3Ref.deref h3) := by
    show args.toExec.mask.map (Mask3Ref.deref h) = _
    rcases hm : args.toExec.mask with _ | (b | m)
    · rfl
    · rfl
    · have : m.get h = m.get h3 := by
        funext i j k
        unfold Arr3.get
        rw [f13.same m.buf (bm _ hm)]
      show some (Mask3.arr _ _ _ _) = some (Mask3.arr _ _ _ _)
      rw [this]
  have g3 := f3.next_le
  refine Does.bind (Does.query3 (le_refl h3.next) args.toExec x y z (args.deref h).toExec rfl
    (by rw [x.list_frame f3 (by omega), l0']; rfl) (by rw [y.list_frame f3 (by omega), l1']; rfl)
    (by rw [z.list_frame f3 (by omega), l2]; rfl) i0.symm i1.symm i2.symm m3
    (by omega) (by omega) (by omega)) f13.next_le ?_
  rintro ⟨g, mk⟩ h4 ⟨pts, mask⟩ f4 ⟨q1, q2, q3, q4⟩
  have f14 : Heap.Frame h.next h h4 := f13.trans (f4.mono f13.next_le)
  dsimp only at q2 q3 q4 ⊢
  rw [specGrids3_flat (h := h) h n o args, c0, c1, c2, bind_assoc]
  refine Does.liftBind fun grids hg => ?_
  rw [py_ok_bind]
  refine Does.bind (Does.adjustQuery3 (le_refl h4.next) (args.deref h).toExec g pts q1 _ _ _ _) f14.next_le ?_
  rintro X h5 qs f5 hq
  have f15 : Heap.Frame h.next h h5 := f14.trans (f5.mono f14.next_le)
  have g4 := f4.next_le
  have g5 := f5.next_le
  refine Does.here ?_
  rw [frame f15, mk.bools_frame f5 q2, q4, hq]
  have hA5 : a.mat h5 ((o.deref h n).nWithDrifts + 1) = A := by
    rw [a.mat_frame f5 (by omega), a.mat_frame f4 (by omega), hA]
  have hg5 : grids.map (SpecRef3.flat h5) = grids.map (SpecRef3.flat h) :=
    List.map_congr_left fun t ht => SpecRef3.flat_congr (f15.same _ (bs _ (UK3DRef.specGrids_bufs hg t ht)))
  rw [hA5, hg5]
  refine Does.bind (Does.runBackend3 (le_refl h5.next) _ _ _ _ _ _) f15.next_le ?_
  rintro ⟨kv, ss⟩ h6 res f6 ⟨r1, r2, r3, r4, r5, r6⟩
  dsimp only at r1 r2 r3 r4 r5 r6
  have g0 := f13.next_le
  refine Does.ret ⟨⟨by dsimp only; omega, r2⟩, ⟨by dsimp only; omega, r4⟩, ?_, ?_⟩
  · intro m hm
    dsimp only at hm
    split at hm
    · cases hm
      exact ⟨by omega, q2.trans_le (g5.trans f6.next_le)⟩
    · cases hm
  · unfold ResultRef.deref applyMask resultShape3
    dsimp only
    have hmb : mk.bools h6 = mask := by
      rw [mk.bools_frame f6 (by omega), mk.bools_frame f5 (by omega), q4]
    have hs : (if args.toExec.style ∈ ["masked", "grid"] then [args.toExec.zpoints.cols, args.toExec.ypoints.cols,
          args.toExec.xpoints.cols] else [args.toExec.xpoints.cols]) =
        if (args.deref h).toExec.style ∈ ["masked", "grid"] then
          [(args.deref h).toExec.zpoints.vals.length, (args.deref h).toExec.ypoints.vals.length,
            (args.deref h).toExec.xpoints.vals.length]
        else [(args.deref h).toExec.xpoints.vals.length] := by
      unfold UK3DExecRefs.deref ExecRefs3.deref
      dsimp only
      rw [Arr.list_length, Arr.list_length, Arr.list_length]
    rw [hs, r5, r6]
    by_cases hst : args.toExec.style = "masked"
    · simp only [if_pos hst, hmb]
    · simp only [if_neg hst]

end
end
end PyKrige
