import Verif.Lemmas.ToUK
import Verif.Lemmas.UKExec
import Verif.Lemmas.Create
import Verif.Lemmas.LawsOK

/-! The heap programs of `UniversalKriging` compute what the functions on values compute, and write only into new
buffers. -/

namespace PyKrige
noncomputable section
open Matrix

section
variable {w : ℕ} {h : Heap}

/-- The buffers of the drift attributes. -/
def UKDriftRef.bufs (d : UKDriftRef) : Set ℕ :=
  {b | (∃ a ∈ d.pointLog, b = a.buf) ∨
    (∃ e ∈ d.externalZ, b = e.array.buf ∨ b = e.xs.buf ∨ b = e.ys.buf ∨ b = e.scalars.buf) ∨
    ∃ l ∈ d.specified, ∃ a ∈ l, b = a.buf}

theorem Arr.get_congr {h h' : Heap} {a : Arr} (e : h'.buf a.buf = h.buf a.buf) : a.get h' = a.get h := by
  funext r c; unfold Arr.get; rw [e]

theorem Arr.wells_congr {h h' : Heap} {a : Arr} (e : h'.buf a.buf = h.buf a.buf) : a.wells h' = a.wells h := by
  unfold Arr.wells; rw [Arr.get_congr e]

theorem extGrid_congr {h h' : Heap} {a x y : Arr} (e1 : h'.buf a.buf = h.buf a.buf) (e2 : h'.buf x.buf = h.buf x.buf)
    (e3 : h'.buf y.buf = h.buf y.buf) : extGrid h' a x y = extGrid h a x y := by
  unfold extGrid
  rw [Arr.get_congr e1, Arr.list_congr e2, Arr.list_congr e3]

theorem UKDriftRef.deref_congr {h h' : Heap} {d : UKDriftRef} (e : ∀ b ∈ d.bufs, h'.buf b = h.buf b) (n : ℕ) :
    d.deref h' n = d.deref h n := by
  obtain ⟨rl, pl, ez, sp, fu⟩ := d
  unfold UKDriftRef.deref
  have h1 : pl.map (Arr.wells h') = pl.map (Arr.wells h) := by
    cases pl with
    | none => rfl
    | some a => exact congrArg some (Arr.wells_congr (e _ (Or.inl ⟨a, rfl, rfl⟩)))
  have h2 : (ez.map fun e : ExtRef => (extGrid h' e.array e.xs e.ys, e.scalars.vec h' n)) =
      ez.map fun e : ExtRef => (extGrid h e.array e.xs e.ys, e.scalars.vec h n) := by
    cases ez with
    | none => rfl
    | some x =>
      refine congrArg some ?_
      dsimp only
      rw [extGrid_congr (e _ (Or.inr (Or.inl ⟨x, rfl, Or.inl rfl⟩)))
        (e _ (Or.inr (Or.inl ⟨x, rfl, Or.inr (Or.inl rfl)⟩)))
        (e _ (Or.inr (Or.inl ⟨x, rfl, Or.inr (Or.inr (Or.inl rfl))⟩))),
        Arr.vec_congr (e _ (Or.inr (Or.inl ⟨x, rfl, Or.inr (Or.inr (Or.inr rfl))⟩)))]
  have h3 : (sp.map fun l => l.map fun a => Arr.vec h' a n) = sp.map fun l => l.map fun a => Arr.vec h a n := by
    cases sp with
    | none => rfl
    | some l =>
      exact congrArg some (List.map_congr_left fun a ha =>
        Arr.vec_congr (e _ (Or.inr (Or.inr ⟨l, rfl, a, ha, rfl⟩))) n)
  dsimp only
  rw [h1, h2, h3]

theorem Does.copyFull (hw : w ≤ h.next) (a : Arr) :
    Does w a.copy h (.ok ()) fun b h' _ =>
      b.buf = h.next ∧ h'.next = h.next + 1 ∧ b.rows = a.rows ∧ b.cols = a.cols ∧ b.isInt = a.isInt ∧
        (∀ r c, b.cell r c = (r, c)) ∧ b.get h' = a.get h := by
  unfold Arr.copy
  exact Does.here ((Does.new hw _ _ _ _).weaken fun b h' _ _ ⟨hb, hn, hv⟩ =>
    ⟨by rw [hb], hn, by rw [hb], by rw [hb], by rw [hb], by rw [hb]; exact fun _ _ => rfl,
      funext fun r => funext fun c => hv r c⟩)

theorem Arr.list_of_get {h h' : Heap} {a b : Arr} (hc : b.cols = a.cols) (hg : b.get h' = a.get h) :
    b.list h' = a.list h := by
  unfold Arr.list; rw [hc, hg]

/-- The arrays made for the external drift. -/
structure IsExt (k : ℕ) (r : Arr × Arr × Arr) (h' : Heap) (e : ExtDrift) : Prop where
  array : k ≤ r.1.buf ∧ r.1.buf < h'.next
  xs : k ≤ r.2.1.buf ∧ r.2.1.buf < h'.next
  ys : k ≤ r.2.2.buf ∧ r.2.2.buf < h'.next
  grid : extGrid h' r.1 r.2.1 r.2.2 = e

theorem Does.setupExternal (hw : w ≤ h.next) (args : UKRefArgs)
    (be : ∀ a ∈ args.externalRef, a.buf < h.next) (bx : ∀ a ∈ args.externalXRef, a.buf < h.next)
    (byy : ∀ a ∈ args.externalYRef, a.buf < h.next) :
    Does w (setupExternalRef args) h (PyKrige.setupExternal (args.deref h)) (IsExt h.next) := by
  unfold setupExternalRef PyKrige.setupExternal
  rw [show (args.deref h).externalDrift = args.externalRef.map fun e =>
      ({ rows := e.rows, cols := e.cols, get := e.get h } : ExtArg) from rfl,
    show (args.deref h).externalDriftX = args.externalXRef.map (Arr.list h) from rfl,
    show (args.deref h).externalDriftY = args.externalYRef.map (Arr.list h) from rfl]
  cases he : args.externalRef with
  | none => exact ⟨.refl _ _, .error _⟩
  | some e =>
  cases hx : args.externalXRef with
  | none => exact ⟨.refl _ _, .error _⟩
  | some x =>
  cases hy : args.externalYRef with
  | none => exact ⟨.refl _ _, .error _⟩
  | some y =>
  dsimp only [Option.map_some]
  have lx := Arr.list_length h x
  have ly := Arr.list_length h y
  have bxx := bx x hx
  have byy' := byy y hy
  have key : ∀ a : Arr, (a.buf < h.next) → ∀ g : ℕ → ℕ → ℝ, a.get h = g →
      Does w (a.copy >>= fun array => x.copy >>= fun xs => y.copy >>= fun ys => pure (array, xs, ys)) h
        (.ok ({ nx := (x.list h).length, ny := (y.list h).length, xs := (x.list h).get, ys := (y.list h).get
                z := fun r c => g r.val c.val } : ExtDrift)) (IsExt h.next) := by
    rintro a ha g rfl
    refine Does.step (Does.copyFull (le_refl h.next) a) hw fun A h1 f1 ⟨a1, a2, _, _, _, _, a3⟩ => ?_
    refine Does.step (Does.copyFull (le_refl h1.next) x) (hw.trans f1.next_le) fun X h2 f2 ⟨x1, x2, _, x4, _, _, x3⟩ => ?_
    refine Does.step (Does.copyFull (le_refl h2.next) y) (hw.trans (f1.next_le.trans f2.next_le))
      fun Y h3 f3 ⟨y1, y2, _, y4, _, _, y3⟩ => ?_
    refine Does.ret ⟨⟨by dsimp only; omega, by dsimp only; omega⟩, ⟨by dsimp only; omega, by dsimp only; omega⟩,
      ⟨by dsimp only; omega, by dsimp only; omega⟩, ?_⟩
    have f12 := f1.trans (f2.mono f1.next_le)
    have eA : A.get h3 = a.get h := by
      rw [← a3, Arr.get_congr (f3.same _ (by omega)), Arr.get_congr (f2.same _ (by omega))]
    have eX : X.list h3 = x.list h := by
      rw [X.list_frame f3 (by omega), Arr.list_of_get x4 x3, x.list_frame f1 bxx]
    have eY : Y.list h3 = y.list h := by rw [Arr.list_of_get y4 y3, y.list_frame f12 byy']
    dsimp only
    unfold extGrid
    rw [eA, eX, eY]
  by_cases h1 : e.rows ≠ y.cols ∨ e.cols ≠ x.cols
  · have h1' : e.rows ≠ (y.list h).length ∨ e.cols ≠ (x.list h).length := by rw [lx, ly]; exact h1
    rw [if_pos h1, if_pos h1']
    by_cases h2 : e.rows = x.cols ∧ e.cols = y.cols
    · have h2' : e.rows = (x.list h).length ∧ e.cols = (y.list h).length := by rw [lx, ly]; exact h2
      rw [if_pos h2, if_pos h2']
      exact key e.T (be e he) (fun r c => e.get h c r) rfl
    · have h2' : ¬ (e.rows = (x.list h).length ∧ e.cols = (y.list h).length) := by rw [lx, ly]; exact h2
      rw [if_neg h2, if_neg h2']; exact ⟨.refl _ _, .error _⟩
  · have h1' : ¬ (e.rows ≠ (y.list h).length ∨ e.cols ≠ (x.list h).length) := by rw [lx, ly]; exact h1
    rw [if_neg h1, if_neg h1']
    exact key e (be e he) (e.get h) rfl

theorem Arr.vec_ofFn {h : Heap} {a : Arr} {n : ℕ} {f : Fin n → ℝ} (e : a.list h = List.ofFn f) : a.vec h n = f := by
  have hc : a.cols = n := by rw [← Arr.list_length h a, e, List.length_ofFn]
  funext i
  have h1 := congrArg (fun l => l[i.val]?) e
  simp only [Arr.list, List.getElem?_map] at h1
  rw [List.getElem?_range (by rw [hc]; exact i.isLt), List.getElem?_ofFn, dif_pos i.isLt] at h1
  exact Option.some.inj h1

theorem Does.setupExternalZ (hw : w ≤ h.next) (n : ℕ) (args : UKRefArgs) (X Y : Arr) (bX : X.buf < h.next)
    (bY : Y.buf < h.next)
    (be : ∀ a ∈ args.externalRef, a.buf < h.next) (bx : ∀ a ∈ args.externalXRef, a.buf < h.next)
    (byy : ∀ a ∈ args.externalYRef, a.buf < h.next) :
    Does w (setupExternalZRef n X Y args) h (PyKrige.setupExternalZ (X.vec h n) (Y.vec h n) (args.deref h))
      fun r h' v => (r.map fun e => (extGrid h' e.array e.xs e.ys, e.scalars.vec h' n)) = v ∧
        ∀ e ∈ r, ∀ b, (b = e.array.buf ∨ b = e.xs.buf ∨ b = e.ys.buf ∨ b = e.scalars.buf) →
          h.next ≤ b ∧ b < h'.next := by
  unfold setupExternalZRef PyKrige.setupExternalZ
  rw [show (args.deref h).driftTerms = args.driftTerms from rfl]
  by_cases h1 : "external_Z" ∈ args.driftTerms
  · rw [if_pos h1, if_pos h1]
    refine Does.bind (Does.setupExternal (le_refl h.next) args be bx byy) hw ?_
    rintro ⟨A, xs, ys⟩ h1 e f1 ⟨⟨p1, p2⟩, ⟨p3, p4⟩, ⟨p5, p6⟩, rfl⟩
    dsimp only at p1 p2 p3 p4 p5 p6 ⊢
    refine Does.here ?_
    rw [X.vec_frame f1 bX, Y.vec_frame f1 bY]
    refine Does.liftBind fun zs _ => ?_
    refine Does.step (Does.newList (le_refl h1.next) _ _) (hw.trans f1.next_le) fun S h2 f2 ⟨s1, s2, s3, s4, s5⟩ => ?_
    have g1 := f1.next_le
    refine Does.ret ⟨?_, ?_⟩
    · show some (_, _) = _
      rw [extGrid_congr (f2.same _ p2) (f2.same _ p4) (f2.same _ p6), Arr.vec_ofFn s5]
    · intro e he b hb
      cases he
      dsimp only at hb
      omega
  · rw [if_neg h1, if_neg h1]
    exact Does.ret ⟨rfl, fun e he => by cases he⟩

theorem Does.setupPointLog (hw : w ≤ h.next) (args : UKRefArgs) (xc yc sc an : ℝ)
    (bp : ∀ a ∈ args.pointDriftRef, a.buf < h.next) :
    Does w (setupPointLogRef xc yc sc an args) h (PyKrige.setupPointLog xc yc sc an (args.deref h))
      fun r h' v => r.map (Arr.wells h') = v ∧ ∀ a ∈ r, h.next ≤ a.buf ∧ a.buf < h'.next := by
  unfold setupPointLogRef PyKrige.setupPointLog
  rw [show (args.deref h).driftTerms = args.driftTerms from rfl,
    show (args.deref h).pointDrift = args.pointDriftRef.map (Arr.wells h) from rfl,
    show (args.deref h).pointDriftInt = (args.pointDriftRef.map Arr.isInt).getD false from rfl]
  by_cases h1 : "point_log" ∈ args.driftTerms
  swap
  · rw [if_neg h1, if_neg h1]
    exact Does.ret ⟨rfl, fun e he => by cases he⟩
  rw [if_pos h1, if_pos h1]
  cases hp : args.pointDriftRef with
  | none => exact ⟨.refl _ _, .error _⟩
  | some p =>
  dsimp only [Option.map_some, Option.getD_some]
  have bp' := bp p hp
  refine Does.step (Does.copyFull (le_refl h.next) p) hw fun P h1 f1 ⟨p1, p2, p3, p4, p5, p6, p7⟩ => ?_
  have g1 := f1.next_le
  refine Does.step (Does.new (le_refl h1.next) _ _ _ _) (hw.trans g1) fun R h2 f2 ⟨r1, r2, r3⟩ => ?_
  have g2 := f2.next_le
  have rb : R.buf = h1.next := by rw [r1]
  have rr : R.rows = p.rows := by rw [r1]; exact p3
  have rc : R.cols = 3 := by rw [r1]
  have rl : ∀ r c, R.cell r c = (r, c) := by rw [r1]; exact fun _ _ => rfl
  refine Does.here ?_
  refine Does.step (Does.assignBase (w := h1.next) R (by rw [rb]) rl _ _) (hw.trans g1) fun _ h3 f3 ⟨a1, a2, a3⟩ => ?_
  have f13 := f2.trans f3
  have g3 := f3.next_le
  have ePget : P.get h3 = p.get h := by rw [Arr.get_congr (f13.same _ (by omega)), p7]
  by_cases hi : p.isInt = true
  · rw [if_pos hi]
    exact Does.adjusted_int (hw.trans (g1.trans (g2.trans g3))) _ _ xc yc sc an (by
      show (P.isInt && P.isInt) = true
      rw [p5, hi]; rfl)
  rw [if_neg hi]
  refine Does.adjusted (hw.trans (g1.trans (g2.trans g3))) _ _ xc yc sc an (by
      show (P.isInt && P.isInt) = false
      rw [p5]; simpa using hi) fun A h4 f4 b1 b2 ar ac ai av => ?_
  have g4 := f4.next_le
  refine Does.here ?_
  refine Does.step (Does.assignBase (w := w) R (by rw [rb]; exact hw.trans g1) rl _ _) (le_refl w)
    fun _ h5 f5 ⟨c1, c2, c3⟩ => ?_
  refine Does.ret ⟨?_, ?_⟩
  · show some (R.wells h5) = _
    unfold Arr.wells
    rw [List.map_map, rr]
    refine congrArg some (List.map_congr_left fun r hr => ?_)
    have hr' : r < p.rows := List.mem_range.1 hr
    have hr'' : r < P.rows := by omega
    have hrR : r < R.rows := by omega
    have k : ∀ j : Fin 2, R.get h5 r j = PyKrige.adjust2 ![xc, yc] sc an ![p.get h r 0, p.get h r 1] j := by
      intro j
      have hj : (j : ℕ) < 2 := j.isLt
      rw [c3 r j hrR (by omega) (Classical.propDecidable _), if_pos hj, av r (by show r < P.rows; exact hr'') j]
      have e0 : (P.T.row 0).get h3 0 r = P.get h3 r 0 := rfl
      have e1 : (P.T.row 1).get h3 0 r = P.get h3 r 1 := rfl
      rw [e0, e1, ePget]
    have k2 : R.get h5 r 2 = p.get h r 2 := by
      rw [c3 r 2 hrR (by omega) (Classical.propDecidable _), if_neg (by omega),
        Arr.get_congr (f4.same _ (by omega)), a3 r 2 hrR (by omega) (Classical.propDecidable _), if_pos rfl,
        Arr.get_congr (f2.same _ (by omega)), p7]
    have k0 := k 0
    have k1 := k 1
    change R.get h5 r 0 = _ at k0
    change R.get h5 r 1 = _ at k1
    dsimp only [Function.comp]
    rw [k0, k1, k2]
  · intro a ha
    cases ha
    omega

theorem Does.copyTerms (n : ℕ) : ∀ (l : List Arr) {w : ℕ} {h : Heap}, w ≤ h.next → (∀ a ∈ l, a.buf < h.next) →
    Does w (copyTerms n l) h (l.mapM fun t => if e : (t.list h).length = n then
        (.ok fun i => (t.list h).get (i.cast e.symm) : Py (Fin n → ℝ)) else .error .valueError)
      fun r h' v => (r.map fun a => Arr.vec h' a n) = v ∧ ∀ a ∈ r, h.next ≤ a.buf ∧ a.buf < h'.next
  | [], w, h, hw, hb => Does.ret ⟨rfl, fun a ha => by cases ha⟩
  | t :: ts, w, h, hw, hb => by
    rw [List.mapM_cons]
    unfold PyKrige.copyTerms
    have bt : t.buf < h.next := hb t (List.mem_cons_self ..)
    refine Does.step (Does.copyFull (le_refl h.next) t) hw fun T h1 f1 ⟨t1, t2, _, t3, _, _, t4⟩ => ?_
    have g1 := f1.next_le
    have hl : (t.list h).length = t.cols := Arr.list_length h t
    by_cases hn : T.cols ≠ n
    · rw [if_pos hn, dif_neg (by rw [hl, ← t3]; exact hn)]
      exact ⟨.refl _ _, .error _⟩
    · have hn' : t.cols = n := by rw [← t3]; exact not_not.1 hn
      rw [if_neg hn, dif_pos (by rw [hl]; exact hn')]
      have ih := Does.copyTerms n ts (w := h1.next) (h := h1) le_rfl
        fun a ha => (hb a (List.mem_cons_of_mem _ ha)).trans_le g1
      have em : (ts.mapM fun t => if e : (t.list h1).length = n then
          (.ok fun i => (t.list h1).get (i.cast e.symm) : Py (Fin n → ℝ)) else .error .valueError) =
          ts.mapM fun t => if e : (t.list h).length = n then
          (.ok fun i => (t.list h).get (i.cast e.symm) : Py (Fin n → ℝ)) else .error .valueError := by
        refine py_mapM_congr fun a ha => ?_
        rw [a.list_frame f1 (hb a (List.mem_cons_of_mem _ ha))]
      rw [em] at ih
      rw [py_ok_bind]
      refine Does.bind ih (hw.trans g1) ?_
      rintro r h2 v f2 ⟨rfl, r2⟩
      have g2 := f2.next_le
      refine Does.ret ⟨?_, ?_⟩
      · refine congrArg₂ List.cons ?_ rfl
        funext i
        show T.get h2 0 i = _
        rw [Arr.get_congr (f2.same _ (by omega)), t4]
        simp only [Arr.list, List.get_eq_getElem, List.getElem_map, List.getElem_range]
        rfl
      · intro a ha
        rcases List.mem_cons.1 ha with rfl | ha
        · omega
        · have := r2 a ha
          omega

theorem Does.setupSpecified (hw : w ≤ h.next) (n : ℕ) (driftTerms : List String) (arg : ListArg Arr)
    (hb : ∀ l, arg = .list l → ∀ a ∈ l, a.buf < h.next) :
    Does w (setupSpecifiedRef n driftTerms arg) h (setupSpecifiedTerm n driftTerms (listArgDeref h arg))
      fun r h' v => (r.map fun l => l.map fun a => Arr.vec h' a n) = v ∧
        ∀ l ∈ r, ∀ a ∈ l, h.next ≤ a.buf ∧ a.buf < h'.next := by
  unfold setupSpecifiedRef setupSpecifiedTerm PyKrige.setupSpecified
  by_cases h1 : "specified" ∈ driftTerms
  swap
  · rw [if_neg h1, if_neg h1]
    exact Does.ret ⟨rfl, fun e he => by cases he⟩
  rw [if_pos h1, if_pos h1]
  match arg, hb with
  | .notList, _ => exact ⟨.refl _ _, .error _⟩
  | .list [], _ => exact ⟨.refl _ _, .error _⟩
  | .list (t :: ts), hb =>
    have d := Does.copyTerms n (t :: ts) hw (hb _ rfl)
    have e : (listArgDeref h (.list (t :: ts)) : ListArg (List ℝ)) = .list (t.list h :: ts.map (Arr.list h)) := rfl
    rw [e]
    dsimp only
    rw [← List.map_cons, List.mapM_map]
    rw [map_eq_pure_bind]
    refine Does.bind d (le_refl w) ?_
    rintro r h' v f ⟨rfl, r2⟩
    refine Does.ret ⟨rfl, ?_⟩
    intro l hl
    cases hl
    exact r2

/-- Holds of every `UniversalKriging` object when `k` buffers are in use. -/
structure UKRef.Sound (o : UKRef) (n k : ℕ) : Prop where
  core : o.core.Sound n k
  euclidean : o.core.coordinatesType = "euclidean"
  drift : ∀ b ∈ o.drift.bufs, b < k

/-- The arrays passed to the constructor exist when `k` buffers are in use. -/
structure UKRefArgs.Below (args : UKRefArgs) (k : ℕ) : Prop where
  params : args.paramRef.Below k
  wells : ∀ a ∈ args.pointDriftRef, a.buf < k
  ext : ∀ a ∈ args.externalRef, a.buf < k
  extX : ∀ a ∈ args.externalXRef, a.buf < k
  extY : ∀ a ∈ args.externalYRef, a.buf < k
  spec : ∀ l, args.specifiedRef = .list l → ∀ a ∈ l, a.buf < k

theorem UKRefArgs.Below.mono {args : UKRefArgs} {k k' : ℕ} (b : args.Below k) (hk : k ≤ k') : args.Below k' :=
  ⟨b.params.mono hk, fun a ha => (b.wells a ha).trans_le hk, fun a ha => (b.ext a ha).trans_le hk,
    fun a ha => (b.extX a ha).trans_le hk, fun a ha => (b.extY a ha).trans_le hk,
    fun l hl a ha => (b.spec l hl a ha).trans_le hk⟩

theorem UKRefArgs.deref_frame {h' : Heap} (f : Heap.Frame w h h') {args : UKRefArgs} (b : args.Below w) :
    args.deref h' = args.deref h := by
  unfold UKRefArgs.deref
  have e1 : args.pointDriftRef.map (Arr.wells h') = args.pointDriftRef.map (Arr.wells h) := by
    cases hh : args.pointDriftRef with
    | none => rfl
    | some a => exact congrArg some (Arr.wells_congr (f.same _ (b.wells a hh)))
  have e2 : (args.externalRef.map fun e => ({ rows := e.rows, cols := e.cols, get := e.get h' } : ExtArg)) =
      args.externalRef.map fun e => ({ rows := e.rows, cols := e.cols, get := e.get h } : ExtArg) := by
    cases hh : args.externalRef with
    | none => rfl
    | some a =>
      refine congrArg some ?_
      dsimp only
      rw [Arr.get_congr (f.same _ (b.ext a hh))]
  have e3 : args.externalXRef.map (Arr.list h') = args.externalXRef.map (Arr.list h) := by
    cases hh : args.externalXRef with
    | none => rfl
    | some a => exact congrArg some (Arr.list_congr (f.same _ (b.extX a hh)))
  have e4 : args.externalYRef.map (Arr.list h') = args.externalYRef.map (Arr.list h) := by
    cases hh : args.externalYRef with
    | none => rfl
    | some a => exact congrArg some (Arr.list_congr (f.same _ (b.extY a hh)))
  have e5 : listArgDeref h' args.specifiedRef = listArgDeref h args.specifiedRef := by
    cases hh : args.specifiedRef with
    | notList => rfl
    | list l =>
      exact congrArg ListArg.list (List.map_congr_left fun a ha => Arr.list_congr (f.same _ (b.spec l hh a ha)))
  rw [ParamRef.deref_frame f b.params, e1, e2, e3, e4, e5]

theorem OK.create_coordinates {n : ℕ} {env : Env} {x y z : Fin n → ℝ} {args : OKArgs} {s : OK n}
    (hs : OK.create env x y z args = .ok s) : s.coordinatesType = args.coordinatesType := by
  obtain ⟨-, _, _, _, _, _, _, _, _, _, _, _, _, _, _, _, _, _, _, -, -, -, -, -, -, -, rfl⟩ := OK.create_ok hs
  rfl

theorem Does.withValue {α β : Type} {m : H α} {p : Py β} {R : α → Heap → β → Prop} (d : Does w m h p R) :
    Does w m h p fun a h' b => p = .ok b ∧ R a h' b := by
  have fr := d.frame
  have ag := d.agree
  refine ⟨fr, ?_⟩
  generalize m h = r at fr ag ⊢
  obtain ⟨r, h'⟩ := r
  cases ag with
  | ok hr => exact .ok ⟨rfl, hr⟩
  | error e => exact .error e

theorem Does.createUK {n : ℕ} (env : Env) (x y z : Arr) (hx : x.cols = n) (bx : x.buf < h.next)
    (byy : y.buf < h.next) (bz : z.buf < h.next) (args : UKRefArgs) (b : args.Below h.next) :
    Does h.next (UKRef.create n env x y z args) h
      (UK.create env (x.vec h n) (y.vec h n) (z.vec h n) (args.deref h)) fun o h' s =>
        o.deref h' n = s ∧ o.Sound n h'.next ∧ o.core.Fresh h.next ∧ (∀ b ∈ o.drift.bufs, h.next ≤ b) ∧
          KeepsList args.paramRef o.core.params h.next := by
  rw [UK.create_eq]
  unfold UKRef.create
  rw [show (args.deref h).core = args.core.deref h from rfl]
  refine Does.bind (Does.create env x y z hx bx byy bz args.core b.params).withValue le_rfl ?_
  rintro o h1 s f1 ⟨hs, rfl, so, fo, ko⟩
  have hcore : o.coordinatesType = "euclidean" := OK.create_coordinates hs
  have g1 := f1.next_le
  have b1 := b.mono g1
  rw [← UKRefArgs.deref_frame f1 b, show (o.deref h1 n).X_ORIG = o.X_ORIG.vec h1 n from rfl,
    show (o.deref h1 n).Y_ORIG = o.Y_ORIG.vec h1 n from rfl]
  refine Does.bind (Does.setupExternalZ (le_refl h1.next) n args o.X_ORIG o.Y_ORIG so.live.xo so.live.yo
    b1.ext b1.extX b1.extY) g1 ?_
  rintro ext h2 v f2 ⟨rfl, ex2⟩
  have g2 := f2.next_le
  have b2 := b1.mono g2
  rw [← UKRefArgs.deref_frame f2 b1]
  refine Does.bind (Does.setupPointLog (le_refl h2.next) args o.XCENTER o.YCENTER o.anisotropyScaling
    o.anisotropyAngle b2.wells) (g1.trans g2) ?_
  rintro pl h3 v f3 ⟨rfl, pl2⟩
  have g3 := f3.next_le
  have b3 := b2.mono g3
  rw [← UKRefArgs.deref_frame f3 b2]
  refine Does.bind (Does.setupSpecified (le_refl h3.next) n args.driftTerms args.specifiedRef b3.spec)
    (g1.trans (g2.trans g3)) ?_
  rintro sp h4 v f4 ⟨rfl, sp2⟩
  have g4 := f4.next_le
  refine Does.liftBind fun fu _ => ?_
  have f14 : Heap.Frame h1.next h1 h4 := f2.trans ((f3.mono g2).trans (f4.mono (g2.trans g3)))
  have f24 : Heap.Frame h2.next h2 h4 := f3.trans (f4.mono g3)
  have range : ∀ b ∈ UKDriftRef.bufs ⟨decide ("regional_linear" ∈ args.driftTerms), pl, ext, sp, fu⟩, h.next ≤ b ∧ b < h4.next := by
    rintro b (⟨a, ha, rfl⟩ | ⟨e, he, hb⟩ | ⟨l, hl, a, ha, rfl⟩)
    · have := pl2 a ha; omega
    · have := ex2 e he b hb; omega
    · have := sp2 l hl a ha; omega
  refine Does.ret ⟨?_, ⟨⟨so.live.mono (by omega), so.xlen, so.xfloat⟩, hcore, fun b hb => (range b hb).2⟩, fo,
    fun b hb => (range b hb).1, ko⟩
  unfold UKRef.deref UKDriftRef.deref
  dsimp only
  have e1 : (ext.map fun e => (extGrid h4 e.array e.xs e.ys, e.scalars.vec h4 n)) =
      ext.map fun e => (extGrid h2 e.array e.xs e.ys, e.scalars.vec h2 n) := by
    cases ext with
    | none => rfl
    | some e =>
      refine congrArg some ?_
      dsimp only
      rw [extGrid_congr (f24.same _ (ex2 e rfl _ (Or.inl rfl)).2) (f24.same _ (ex2 e rfl _ (Or.inr (Or.inl rfl))).2)
        (f24.same _ (ex2 e rfl _ (Or.inr (Or.inr (Or.inl rfl)))).2),
        Arr.vec_congr (f24.same _ (ex2 e rfl _ (Or.inr (Or.inr (Or.inr rfl)))).2)]
  have e2 : pl.map (Arr.wells h4) = pl.map (Arr.wells h3) := by
    cases pl with
    | none => rfl
    | some a => exact congrArg some (Arr.wells_congr (f4.same _ (pl2 a rfl).2))
  rw [OKRef.deref_frame f14 so.live, e1, e2]
  rfl

end
end
end PyKrige
