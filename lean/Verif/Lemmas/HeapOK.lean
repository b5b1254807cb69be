import Verif.Lemmas.Heap
import Mathlib.Tactic.FinCases

/-! The `OrdinaryKriging` heap program computes what the model on values computes. -/

namespace PyKrige
noncomputable section
open Matrix

section
variable {α β α' β' : Type} {w : ℕ} {h : Heap}

theorem Does.newList (hw : w ≤ h.next) (l : List ℝ) (i : Bool) :
    Does w (H.newList l i) h (.ok ()) fun a h' _ =>
      a.buf = h.next ∧ h'.next = h.next + 1 ∧ a.cols = l.length ∧ a.isInt = i ∧ a.list h' = l := by
  refine (Does.new hw _ _ _ _).weaken fun a h' _ _ ⟨ha, hn, hv⟩ => ⟨by rw [ha], hn, by rw [ha], by rw [ha], ?_⟩
  have hc : a.cols = l.length := by rw [ha]
  unfold Arr.list
  rw [hc]
  refine List.ext_getElem (by simp) fun i h1 h2 => ?_
  rw [List.getElem_map, List.getElem_range, hv]
  rw [List.getD_eq_getElem?_getD, List.getElem?_eq_getElem h2, Option.getD_some]

/-- All arrays of the object are in use. -/
structure OKRef.Live (o : OKRef) (k : ℕ) : Prop where
  xo : o.X_ORIG.buf < k
  yo : o.Y_ORIG.buf < k
  z : o.Z.buf < k
  xa : o.X_ADJUSTED.buf < k
  ya : o.Y_ADJUSTED.buf < k
  ps : o.params.buf < k

theorem OKRef.Live.mono {o : OKRef} {k k' : ℕ} (l : o.Live k) (hk : k ≤ k') : o.Live k' :=
  ⟨l.xo.trans_le hk, l.yo.trans_le hk, l.z.trans_le hk, l.xa.trans_le hk, l.ya.trans_le hk, l.ps.trans_le hk⟩

theorem OKRef.deref_frame {h' : Heap} (f : Heap.Frame w h h') {o : OKRef} (l : o.Live w) (n : ℕ) :
    o.deref h' n = o.deref h n := by
  unfold OKRef.deref
  rw [o.X_ORIG.vec_frame f l.xo, o.Y_ORIG.vec_frame f l.yo, o.Z.vec_frame f l.z, o.X_ADJUSTED.vec_frame f l.xa,
    o.Y_ADJUSTED.vec_frame f l.ya, o.params.list_frame f l.ps]

/-- `a[sel] = f` on a new array laid out row by row. -/
theorem Does.assignBase (a : Arr) (ha : w ≤ a.buf) (hc : ∀ r c, a.cell r c = (r, c)) (sel : ℕ → ℕ → Prop)
    (f : ℕ → ℕ → ℝ) :
    Does w (a.assign sel f) h (.ok ()) fun _ h' _ =>
      h'.next = h.next ∧ (∀ b, b ≠ a.buf → h'.buf b = h.buf b) ∧
      (∀ r c, r < a.rows → c < a.cols → ∀ _inst : Decidable (sel r c),
        a.get h' r c = if sel r c then f r c else a.get h r c) := by
  refine (Does.assign a ha sel f).weaken fun _ h' _ _ ⟨h1, h2, h3⟩ => ⟨h1, h2, h3 ?_⟩
  intro r c r' c' _ _ _ _ e
  rw [hc, hc] at e
  exact ⟨(Prod.mk.inj e).1, (Prod.mk.inj e).2⟩

theorem Does.krigingMatrix (hw : w ≤ h.next) (n : ℕ) (o : OKRef) :
    Does w (o.getKrigingMatrix n) h (o.deref h n).getKrigingMatrix fun a h' A =>
      a.buf = h.next ∧ a.buf < h'.next ∧ a.mat h' (n + 1) = A := by
  unfold OKRef.getKrigingMatrix OK.getKrigingMatrix
  refine Does.here (Does.step (Does.new hw _ _ _ _) le_rfl fun a h0 f0 ⟨ha, hn0, hv0⟩ => ?_)
  have hb : a.buf = h.next := by rw [ha]
  have hr : a.rows = n + 1 := by rw [ha]
  have hc : a.cols = n + 1 := by rw [ha]
  have hcell : ∀ r c, a.cell r c = (r, c) := by rw [ha]; intro r c; rfl
  have hwa : w ≤ a.buf := by omega
  refine Does.liftBind fun γ hγ => ?_
  refine Does.step (Does.assignBase a hwa hcell _ _) le_rfl fun _ h1 f1 ⟨hn1, _, hv1⟩ => ?_
  refine Does.step (Does.assignBase a hwa hcell _ _) le_rfl fun _ h2 f2 ⟨hn2, _, hv2⟩ => ?_
  refine Does.step (Does.assignBase a hwa hcell _ _) le_rfl fun _ h3 f3 ⟨hn3, _, hv3⟩ => ?_
  refine Does.step (Does.assignBase a hwa hcell _ _) le_rfl fun _ h4 f4 ⟨hn4, _, hv4⟩ => ?_
  refine Does.step (Does.assignBase a hwa hcell _ _) le_rfl fun _ h5 f5 ⟨hn5, _, hv5⟩ => ?_
  refine Does.ret ⟨hb, by omega, ?_⟩
  funext i j
  have hi : (i : ℕ) < a.rows := by rw [hr]; exact i.isLt
  have hj : (j : ℕ) < a.cols := by rw [hc]; exact j.isLt
  unfold Arr.mat
  rw [hv5 i j hi hj inferInstance, hv4 i j hi hj inferInstance, hv3 i j hi hj inferInstance,
    hv2 i j hi hj inferInstance, hv1 i j hi hj inferInstance, hv0]
  unfold setEntry setCol setRow fillDiagonal setBlock npZeros
  by_cases h1 : (i : ℕ) = n ∧ (j : ℕ) = n
  · rw [if_pos h1, if_pos h1]
  rw [if_neg h1, if_neg h1]
  by_cases h2 : (j : ℕ) = n
  · rw [if_pos h2, if_pos h2]
  rw [if_neg h2, if_neg h2]
  by_cases h3 : (i : ℕ) = n
  · rw [if_pos h3, if_pos h3]
  rw [if_neg h3, if_neg h3]
  by_cases h4 : i = j
  · rw [if_pos h4, if_pos (congrArg Fin.val h4)]
  rw [if_neg h4, if_neg (fun e => h4 (Fin.ext e))]
  by_cases h5 : (i : ℕ) < n
  · by_cases h6 : (j : ℕ) < n
    · rw [if_pos ⟨h5, h6⟩, dif_pos h5, dif_pos h6]
    · rw [if_neg (fun e => h6 e.2), dif_pos h5, dif_neg h6]
  · rw [if_neg (fun e => h5 e.1), dif_neg h5]

open Classical in
theorem Does.rightHandSide (hw : w ≤ h.next) {k : ℕ} (γ : ℝ → ℝ) (exact : Bool) (bd : Fin k → ℝ) :
    Does w (rightHandSide γ exact bd) h (.ok ()) fun b h' _ =>
      b.buf = h.next ∧ b.buf < h'.next ∧ b.vec h' (k + 1) =
        setAt (if (∃ i, |bd i| ≤ eps) ∧ exact = true then
          setWhere (setHead (fun _ => 0) k fun i => -γ (bd i)) k (fun i => |bd i| ≤ eps) 0
          else setHead (fun _ => 0) k fun i => -γ (bd i)) k 1 := by
  classical
  unfold PyKrige.rightHandSide
  refine Does.step (Does.new hw _ _ _ _) le_rfl fun b h0 f0 ⟨ha, hn0, hv0⟩ => ?_
  have hb : b.buf = h.next := by rw [ha]
  have hr : b.rows = 1 := by rw [ha]
  have hc : b.cols = k + 1 := by rw [ha]
  have hcell : ∀ r c, b.cell r c = (r, c) := by rw [ha]; intro r c; rfl
  have hwa : w ≤ b.buf := by omega
  refine Does.step (Does.assignBase b hwa hcell _ _) le_rfl fun _ h1 f1 ⟨hn1, _, hv1⟩ => ?_
  by_cases hz : (∃ i, |bd i| ≤ eps) ∧ exact = true
  · rw [if_pos hz, if_pos hz]
    refine Does.step (Does.assignBase b hwa hcell _ _) le_rfl fun _ h2 f2 ⟨hn2, _, hv2⟩ => ?_
    refine Does.step (Does.assignBase b hwa hcell _ _) le_rfl fun _ h3 f3 ⟨hn3, _, hv3⟩ => ?_
    refine Does.ret ⟨hb, by omega, ?_⟩
    funext i
    have hi : (0 : ℕ) < b.rows := by omega
    have hj : (i : ℕ) < b.cols := by rw [hc]; exact i.isLt
    unfold Arr.vec
    rw [hv3 0 i hi hj inferInstance, hv2 0 i hi hj (Classical.propDecidable _),
      hv1 0 i hi hj inferInstance, hv0]
    unfold setAt setWhere setHead
    by_cases h5 : (i : ℕ) < k
    · rw [if_pos h5, dif_pos h5]
      congr 1
      congr 1
    · rw [if_neg h5, dif_neg h5]
      congr 1
      congr 1
  · rw [if_neg hz, if_neg hz]
    refine Does.step (Does.assignBase b hwa hcell _ _) le_rfl fun _ h3 f3 ⟨hn3, _, hv3⟩ => ?_
    refine Does.ret ⟨hb, by omega, ?_⟩
    funext i
    have hi : (0 : ℕ) < b.rows := by omega
    have hj : (i : ℕ) < b.cols := by rw [hc]; exact i.isLt
    unfold Arr.vec
    rw [hv3 0 i hi hj inferInstance, hv1 0 i hi hj inferInstance, hv0]
    unfold setAt setHead
    by_cases h5 : (i : ℕ) < k
    · rw [if_pos h5, dif_pos h5]
    · rw [if_neg h5, dif_neg h5]

theorem Does.loopBody (n : ℕ) (o : OKRef) (hl : o.Live h.next)
    (a_inv : Matrix (Fin (n + 1)) (Fin (n + 1)) ℝ) (bd : Fin n → ℝ) :
    Does h.next (o.loopBody n a_inv bd) h ((o.deref h n).loopBody a_inv bd) fun v _ v' => v = v' := by
  unfold OKRef.loopBody OK.loopBody
  refine Does.here (Does.liftBind fun γ hγ => ?_)
  refine Does.step (Does.rightHandSide le_rfl γ _ bd) le_rfl
    fun b h1 f1 ⟨hb, hn, hv⟩ => Does.here ?_
  refine Does.ret ?_
  rw [hv, o.Z.vec_frame f1 hl.z]
  rfl

theorem Does.windowBody (n : ℕ) (o : OKRef) (hl : o.Live h.next) (a : Arr) (w : Window n) :
    Does h.next (o.windowBody n a w) h ((o.deref h n).windowBody (a.mat h (n + 1)) w) fun v _ v' => v = v' := by
  unfold OKRef.windowBody OK.windowBody
  refine Does.here (Does.liftBind fun γ hγ => ?_)
  refine Does.step (Does.rightHandSide le_rfl γ _ w.bd) le_rfl
    fun b h1 f1 ⟨hb, hn, hv⟩ => Does.here ?_
  rw [hv]
  refine Does.liftBind fun x hx => ?_
  refine Does.ret ?_
  rw [o.Z.vec_frame f1 hl.z]
  rfl

theorem Does.mapRight {m : H α} {p : Py β} {R : α → Heap → β → Prop} {S : α → Heap → β' → Prop} {g : β → β'}
    (d : Does w m h p R) (hS : ∀ a h' b, R a h' b → S a h' (g b)) :
    Does w m h (p >>= fun b => pure (g b)) S := by
  have fr := d.frame
  have ag := d.agree
  refine ⟨fr, ?_⟩
  generalize m h = r at fr ag ⊢
  obtain ⟨r, h'⟩ := r
  cases ag with
  | ok hr => exact .ok (hS _ _ _ hr)
  | error e => exact .error e

theorem Does.thenRet {m : H α} {p : Py β} {R : α → Heap → β → Prop} {S : α' → Heap → β → Prop} {v : α → α'}
    (d : Does w m h p R) (hS : ∀ a h' b, Heap.Frame w h h' → R a h' b → S (v a) h' b) :
    Does w (m >>= fun a => pure (v a)) h p S := by
  have e : p = p >>= fun b => .ok b := by cases p <;> rfl
  rw [e]
  exact Does.bind d le_rfl fun a h' b f r => Does.ret (hS a h' b f r)

theorem Does.storeResult {v : H (ℝ × ℝ)} {p : Py (ℝ × ℝ)} (hv : Does h.next v h p fun v _ v' => v = v')
    (z ss : Arr) (hwz : w ≤ z.buf) (hws : w ≤ ss.buf) (hz : z.buf < h.next) (hs : ss.buf < h.next)
    (hzs : z.buf ≠ ss.buf) (hw : w ≤ h.next)
    (cz : ∀ r c, z.cell r c = (r, c)) (cs : ∀ r c, ss.cell r c = (r, c)) (rz : z.rows = 1) (rs : ss.rows = 1)
    (j : ℕ) :
    Does w (PyKrige.storeResult v z ss j) h p fun _ h' v =>
      (∀ c < z.cols, z.get h' 0 c = if c = j then v.1 else z.get h 0 c) ∧
      ∀ c < ss.cols, ss.get h' 0 c = if c = j then v.2 else ss.get h 0 c := by
  unfold PyKrige.storeResult
  have e : p = p >>= fun b => .ok b := by cases p <;> rfl
  rw [e]
  refine Does.bind hv hw ?_
  rintro v h1 _ f1 rfl
  refine Does.step (Does.assignBase z hwz cz _ _) le_rfl fun _ h2 f2 ⟨hn2, ho2, hv2⟩ => ?_
  have e2 := Does.assignBase (h := h2) ss hws cs (fun _ c => c = j) fun _ _ => v.2
  refine (Does.mapRight (g := fun _ => v) e2 (S := fun _ h' v => 
      (∀ c < z.cols, z.get h' 0 c = if c = j then v.1 else z.get h 0 c) ∧
      ∀ c < ss.cols, ss.get h' 0 c = if c = j then v.2 else ss.get h 0 c) ?_)
  rintro _ h3 _ ⟨hn3, ho3, hv3⟩
  constructor
  · intro c hc
    have : z.get h3 0 c = z.get h2 0 c := by unfold Arr.get; rw [ho3 _ hzs]
    rw [this, hv2 0 c (by omega) hc inferInstance, z.get_frame f1 hz]
  · intro c hc
    have : ss.get h2 0 c = ss.get h1 0 c := by unfold Arr.get; rw [ho2 _ hzs.symm]
    rw [hv3 0 c (by omega) hc inferInstance, this, ss.get_frame f1 hs]

/-- The loops: what ends up in the result arrays. -/
theorem Does.fillResults {B : Type} {body : B → H (ℝ × ℝ)} {bodyV : B → Py (ℝ × ℝ)} {h0 : Heap}
    (hbody : ∀ x h', Heap.Frame h0.next h0 h' → Does h'.next (body x) h' (bodyV x) fun v _ v' => v = v')
    (z ss : Arr) (hz : h0.next ≤ z.buf) (hs : h0.next ≤ ss.buf) (hzs : z.buf ≠ ss.buf)
    (cz : ∀ r c, z.cell r c = (r, c)) (cs : ∀ r c, ss.cell r c = (r, c)) (rz : z.rows = 1) (rs : ss.rows = 1) :
    ∀ (l : List (B × Bool)) (j : ℕ) (h : Heap), Heap.Frame h0.next h0 h → z.buf < h.next → ss.buf < h.next →
      j + l.length ≤ z.cols → j + l.length ≤ ss.cols →
      (∀ c < z.cols, j ≤ c → z.get h 0 c = 0) → (∀ c < ss.cols, j ≤ c → ss.get h 0 c = 0) →
      Does h0.next (PyKrige.fillResults body z ss j l) h
        (l.mapM fun p => if p.2 then pure (0, 0) else bodyV p.1) fun _ h' res =>
          res.length = l.length ∧ (∀ c < j, z.get h' 0 c = z.get h 0 c ∧ ss.get h' 0 c = ss.get h 0 c) ∧
          ∀ i (hi : i < res.length), z.get h' 0 (j + i) = (res[i]).1 ∧ ss.get h' 0 (j + i) = (res[i]).2 := by
  intro l
  induction l with
  | nil =>
    intro j h f _ _ _ _ _ _
    refine Does.ret ⟨rfl, fun _ _ => ⟨rfl, rfl⟩, fun i hi => absurd hi (Nat.not_lt_zero _)⟩
  | cons p l ih =>
    intro j h f bz bs lz ls zz zs
    obtain ⟨x, m⟩ := p
    rw [List.mapM_cons]
    unfold PyKrige.fillResults
    rw [List.length_cons] at lz ls
    have d1 : Does h0.next (if m = true then pure () else PyKrige.storeResult (body x) z ss j) h
        (if m = true then pure (0, 0) else bodyV x) fun _ h' v =>
        (∀ c < z.cols, z.get h' 0 c = if c = j then v.1 else z.get h 0 c) ∧
        ∀ c < ss.cols, ss.get h' 0 c = if c = j then v.2 else ss.get h 0 c := by
      cases m with
      | true =>
        refine Does.ret ⟨fun c hc => ?_, fun c hc => ?_⟩
        · by_cases e : c = j
          · rw [if_pos e]; exact zz c hc (by omega)
          · rw [if_neg e]
        · by_cases e : c = j
          · rw [if_pos e]; exact zs c hc (by omega)
          · rw [if_neg e]
      | false =>
        exact Does.storeResult (hbody x h f) z ss hz hs bz bs hzs f.next_le cz cs rz rs j
    refine Does.bind d1 le_rfl fun _ h1 v f1 ⟨v1, v2⟩ => ?_
    refine Does.mapRight (ih (j + 1) h1 (f.trans f1) (bz.trans_le f1.next_le) (bs.trans_le f1.next_le) (by omega)
      (by omega) (fun c hc hj => by rw [v1 c hc, if_neg (by omega)]; exact zz c hc (by omega))
      fun c hc hj => by rw [v2 c hc, if_neg (by omega)]; exact zs c hc (by omega)) ?_
    rintro _ h2 res ⟨e1, e2, e3⟩
    refine ⟨by rw [List.length_cons, List.length_cons, e1], fun c hc => ?_, fun i hi => ?_⟩
    · have := e2 c (by omega)
      rw [this.1, this.2, v1 c (by omega), v2 c (by omega), if_neg (by omega), if_neg (by omega)]
      exact ⟨rfl, rfl⟩
    · cases i with
      | zero =>
        have := e2 j (by omega)
        rw [Nat.add_zero, this.1, this.2, v1 j (by omega), v2 j (by omega), if_pos rfl, if_pos rfl]
        exact ⟨rfl, rfl⟩
      | succ i =>
        rw [List.length_cons] at hi
        have := e3 i (by omega)
        rw [show j + (i + 1) = j + 1 + i by omega]
        exact this

/-- Result arrays: new, and with these contents. -/
def Results (k : ℕ) (r : Arr × Arr) (h' : Heap) (l : List (ℝ × ℝ)) : Prop :=
  k ≤ r.1.buf ∧ r.1.buf < h'.next ∧ k ≤ r.2.buf ∧ r.2.buf < h'.next ∧
    r.1.list h' = l.map Prod.fst ∧ r.2.list h' = l.map Prod.snd

theorem Does.runLoop {B : Type} {body : B → H (ℝ × ℝ)} {bodyV : B → Py (ℝ × ℝ)}
    (hbody : ∀ x h', Heap.Frame h.next h h' → Does h'.next (body x) h' (bodyV x) fun v _ v' => v = v')
    (l : List (B × Bool)) :
    Does h.next (PyKrige.runLoop body l) h (l.mapM fun p => if p.2 then pure (0, 0) else bodyV p.1)
      (Results h.next) := by
  unfold PyKrige.runLoop
  refine Does.step (Does.new le_rfl _ _ _ _) le_rfl fun z h1 f1 ⟨hz, hn1, hv1⟩ => ?_
  refine Does.step (Does.new (le_refl h1.next) _ _ _ _) f1.next_le fun ss h2 f2 ⟨hs, hn2, hv2⟩ => ?_
  have bz : z.buf = h.next := by rw [hz]
  have bs : ss.buf = h.next + 1 := by rw [hs]; exact hn1
  have cz : z.cols = l.length := by rw [hz]
  have cs : ss.cols = l.length := by rw [hs]
  have hz2 : ∀ c, z.get h2 0 c = 0 := fun c => by rw [z.get_frame f2 (by omega), hv1]
  refine (Does.fillResults hbody z ss (by omega) (by omega) (by omega) (by rw [hz]; intro r c; rfl)
    (by rw [hs]; intro r c; rfl) (by rw [hz]) (by rw [hs]) l 0 h2 (f1.trans (f2.mono f1.next_le)) (by omega)
    (by omega) (by omega) (by omega) (fun c _ _ => hz2 c) fun c _ _ => hv2 0 c).thenRet ?_
  rintro _ h3 res f3 ⟨e1, -, e3⟩
  have hn3 := f3.next_le
  refine ⟨by dsimp only; omega, by dsimp only; omega, by dsimp only; omega, by dsimp only; omega, ?_, ?_⟩
  · dsimp only
    unfold Arr.list
    refine List.ext_getElem (by simp [cz, e1]) fun i h1 h2 => ?_
    rw [List.getElem_map, List.getElem_range, List.getElem_map]
    have := (e3 i (by simpa using h2)).1
    rwa [Nat.zero_add] at this
  · dsimp only
    unfold Arr.list
    refine List.ext_getElem (by simp [cs, e1]) fun i h1 h2 => ?_
    rw [List.getElem_map, List.getElem_range, List.getElem_map]
    have := (e3 i (by simpa using h2)).2
    rwa [Nat.zero_add] at this

theorem Does.newResults (hw : w ≤ h.next) (p : Py (List (ℝ × ℝ))) :
    Does w (PyKrige.newResults p) h p (Results w) := by
  unfold PyKrige.newResults
  have e : p = p >>= fun b => .ok b := by cases p <;> rfl
  refine Eq.mpr (congrArg (fun q => Does w _ h q (Results w)) e) ?_
  refine Does.bind (Does.lift (w := w) p) le_rfl ?_
  rintro l h' _ - ⟨rfl, hh⟩
  rw [hh]
  refine Does.step (Does.newList (le_refl h.next) _ _) hw fun z h1 f1 ⟨b1, n1, c1, _, l1⟩ => ?_
  refine Does.step (Does.newList (le_refl h1.next) _ _) (hw.trans f1.next_le) fun ss h2 f2 ⟨b2, n2, c2, _, l2⟩ => ?_
  refine Does.ret ⟨?_, ?_, ?_, ?_, ?_, ?_⟩ <;> dsimp only
  · omega
  · omega
  · omega
  · omega
  · rw [z.list_frame f2 (by omega), l1]
  · exact l2

open Classical in
theorem Does.rightHandSides (hw : w ≤ h.next) {n : ℕ} (γ : ℝ → ℝ) (exact : Bool) (bd : List (Fin n → ℝ)) :
    Does w (rightHandSides γ exact bd) h (.ok ()) fun b h' _ =>
      b.buf = h.next ∧ b.buf < h'.next ∧ ∀ r (hr : r < bd.length), (fun k : Fin (n + 1) => b.get h' r k) =
        setAt (if (∃ row ∈ bd, ∃ k, |row k| ≤ eps) ∧ exact = true then
          setWhere (setHead (fun _ => 0) n fun i => -γ (bd[r] i)) n (fun i => |bd[r] i| ≤ eps) 0
          else setHead (fun _ => 0) n fun i => -γ (bd[r] i)) n 1 := by
  unfold PyKrige.rightHandSides
  refine Does.step (Does.new hw _ _ _ _) le_rfl fun b h0 f0 ⟨ha, hn0, hv0⟩ => ?_
  have hb : b.buf = h.next := by rw [ha]
  have hr : b.rows = bd.length := by rw [ha]
  have hc : b.cols = n + 1 := by rw [ha]
  have hcell : ∀ r c, b.cell r c = (r, c) := by rw [ha]; intro r c; rfl
  have hwa : w ≤ b.buf := by omega
  have hbd : ∀ r (hr : r < bd.length) c (hc : c < n), bdAt bd r c = bd[r] ⟨c, hc⟩ := by
    intro r hr c hc
    unfold bdAt
    rw [List.getElem?_eq_getElem hr]
    exact dif_pos hc
  refine Does.step (Does.assignBase b hwa hcell _ _) le_rfl fun _ h1 f1 ⟨hn1, _, hv1⟩ => ?_
  by_cases hz : (∃ row ∈ bd, ∃ k, |row k| ≤ eps) ∧ exact = true
  · rw [if_pos hz]
    refine Does.step (Does.assignBase b hwa hcell _ _) le_rfl fun _ h2 f2 ⟨hn2, _, hv2⟩ => ?_
    refine Does.step (Does.assignBase b hwa hcell _ _) le_rfl fun _ h3 f3 ⟨hn3, _, hv3⟩ => ?_
    refine Does.ret ⟨hb, by omega, fun r hrl => ?_⟩
    funext i
    have hi : r < b.rows := by omega
    have hj : (i : ℕ) < b.cols := by rw [hc]; exact i.isLt
    rw [if_pos hz, hv3 r i hi hj inferInstance, hv2 r i hi hj (Classical.propDecidable _),
      hv1 r i hi hj inferInstance, hv0]
    unfold setAt setWhere setHead
    by_cases h5 : (i : ℕ) < n
    · rw [if_pos h5, dif_pos h5, hbd r hrl i h5]
      by_cases h6 : |bd[r] ⟨i, h5⟩| ≤ eps
      · rw [if_pos (⟨h5, h6⟩ : (i : ℕ) < n ∧ _), if_pos (⟨h5, h6⟩ : ∃ hi : (i : ℕ) < n, _)]
      · rw [if_neg (fun e : (i : ℕ) < n ∧ _ => h6 e.2), if_neg (fun e : ∃ hi : (i : ℕ) < n, _ => h6 e.choose_spec)]
    · rw [if_neg h5, dif_neg h5, if_neg (fun e : (i : ℕ) < n ∧ _ => h5 e.1),
        if_neg (fun e : ∃ hi : (i : ℕ) < n, _ => h5 e.choose)]
  · rw [if_neg hz]
    refine Does.step (Does.assignBase b hwa hcell _ _) le_rfl fun _ h3 f3 ⟨hn3, _, hv3⟩ => ?_
    refine Does.ret ⟨hb, by omega, fun r hrl => ?_⟩
    funext i
    have hi : r < b.rows := by omega
    have hj : (i : ℕ) < b.cols := by rw [hc]; exact i.isLt
    rw [if_neg hz, hv3 r i hi hj inferInstance, hv1 r i hi hj inferInstance, hv0]
    unfold setAt setHead
    by_cases h5 : (i : ℕ) < n
    · rw [if_pos h5, dif_pos h5, hbd r hrl i h5]
    · rw [if_neg h5, dif_neg h5]

theorem Does.execVector (n : ℕ) (o : OKRef) (hl : o.Live h.next) (a : Arr) (bd : List (Fin n → ℝ)) :
    Does h.next (o.execVector n a bd) h ((o.deref h n).execVector (a.mat h (n + 1)) bd) (Results h.next) := by
  unfold OKRef.execVector OK.execVector
  refine Does.here (Does.liftBind fun a_inv _ => ?_)
  refine Does.liftBind fun γ _ => ?_
  refine Does.step (Does.rightHandSides le_rfl γ _ bd) le_rfl fun b h1 f1 ⟨hb, hn, hv⟩ => Does.here ?_
  dsimp only
  refine Does.step (Does.newList (le_refl h1.next) _ _) f1.next_le fun z h2 f2 ⟨b2, n2, c2, _, l2⟩ => ?_
  refine Does.step (Does.newList (le_refl h2.next) _ _) (f1.next_le.trans f2.next_le)
    fun ss h3 f3 ⟨b3, n3, c3, _, l3⟩ => ?_
  have hn1 := f1.next_le
  refine Does.ret ⟨?_, ?_, ?_, ?_, ?_, ?_⟩ <;> dsimp only
  · omega
  · omega
  · omega
  · omega
  · rw [z.list_frame f3 (by omega), l2, List.map_map, List.map_map]
    refine List.ext_getElem (by simp) fun i g1 g2 => ?_
    have hi : i < bd.length := by simpa using g2
    rw [List.getElem_map, List.getElem_range, List.getElem_map, hv i hi, o.Z.vec_frame f1 hl.z]
    rfl
  · rw [l3, List.map_map, List.map_map]
    refine List.ext_getElem (by simp) fun i g1 g2 => ?_
    have hi : i < bd.length := by simpa using g2
    rw [List.getElem_map, List.getElem_range, List.getElem_map]
    rw [hv i hi]
    refine Finset.sum_congr rfl fun k _ => ?_
    rw [show b.get h1 i k = _ from congrFun (hv i hi) k]

theorem Does.execLoop (n : ℕ) (o : OKRef) (hl : o.Live h.next) (a : Arr) (bd : List (Fin n → ℝ))
    (mask : List Bool) :
    Does h.next (o.execLoop n a bd mask) h ((o.deref h n).execLoop (a.mat h (n + 1)) bd mask)
      (Results h.next) := by
  unfold OKRef.execLoop OK.execLoop
  refine Does.here (Does.liftBind fun a_inv _ => ?_)
  refine Does.runLoop (fun x h' f => ?_) _
  rw [← OKRef.deref_frame f hl n]
  exact Does.loopBody n o (hl.mono f.next_le) a_inv x

theorem Does.globalKrige (n : ℕ) (o : OKRef) (hl : o.Live h.next) (a : Arr) (qs : List (Fin 2 → ℝ))
    (mask : List Bool) (backend : String) :
    Does h.next (o.globalKrige n a qs mask backend) h
      ((o.deref h n).globalKrige (a.mat h (n + 1)) qs mask backend) (Results h.next) := by
  unfold OKRef.globalKrige OK.globalKrige
  refine Does.here ?_
  dsimp only
  by_cases h1 : backend = "vectorized"
  · rw [if_pos h1, if_pos h1]; exact Does.execVector n o hl a _
  rw [if_neg h1, if_neg h1]
  by_cases h2 : backend = "loop"
  · rw [if_pos h2, if_pos h2]; exact Does.execLoop n o hl a _ mask
  rw [if_neg h2, if_neg h2]
  by_cases h3 : backend = "C"
  · rw [if_pos h3, if_pos h3]; exact Does.newResults le_rfl _
  rw [if_neg h3, if_neg h3]
  exact Does.raise _

theorem Does.movingWindow (n : ℕ) (env : Env) (o : OKRef) (hl : o.Live h.next) (a : Arr) (ha : a.buf < h.next)
    (qs : List (Fin 2 → ℝ)) (mask : List Bool) (backend : String) (k : ℕ) :
    Does h.next (o.movingWindow n env a qs mask backend k) h
      ((o.deref h n).movingWindow env (a.mat h (n + 1)) qs mask backend k) (Results h.next) := by
  unfold OKRef.movingWindow
  refine Does.here ?_
  dsimp only
  by_cases hk : k ≤ n ∧ backend = "loop"
  · rw [if_pos hk]
    unfold OK.movingWindow
    dsimp only
    rw [if_pos hk.1, if_pos hk.2]
    unfold OK.execLoopMovingWindow
    refine Does.runLoop (fun x h' f => ?_) _
    rw [← OKRef.deref_frame f hl n, ← a.mat_frame f ha]
    exact Does.windowBody n o (hl.mono f.next_le) a x
  · rw [if_neg hk]
    exact Does.newResults le_rfl _

theorem Arr.list_length (h : Heap) (a : Arr) : (a.list h).length = a.cols := by
  unfold Arr.list; rw [List.length_map, List.length_range]

theorem Does.copy (hw : w ≤ h.next) (a : Arr) :
    Does w a.copy h (.ok ()) fun b h' _ =>
      b.buf = h.next ∧ h'.next = h.next + 1 ∧ b.cols = a.cols ∧ b.isInt = a.isInt ∧ b.list h' = a.list h := by
  unfold Arr.copy
  refine Does.here ((Does.new hw _ _ _ _).weaken fun b h' _ _ ⟨hb, hn, hv⟩ =>
    ⟨by rw [hb], hn, by rw [hb], by rw [hb], ?_⟩)
  unfold Arr.list
  rw [show b.cols = a.cols by rw [hb]]
  exact List.map_congr_left fun c _ => hv 0 c

theorem Does.flatten (hw : w ≤ h.next) (a : Arr) :
    Does w a.flatten h (.ok ()) fun b h' _ =>
      b.buf = h.next ∧ h'.next = h.next + 1 ∧ b.bools h' = (a.mask2 h).flatten := by
  unfold Arr.flatten
  refine Does.here ((Does.newList hw _ _).weaken fun b h' _ _ ⟨hb, hn, _, _, hl⟩ => ⟨hb, hn, ?_⟩)
  unfold Arr.bools Mask2.flatten Arr.mask2
  rw [hl, List.map_flatMap]
  congr 1
  funext r
  rw [List.map_map]
  rfl

theorem Does.newBools (hw : w ≤ h.next) (l : List Bool) :
    Does w (H.newBools l) h (.ok ()) fun b h' _ =>
      b.buf = h.next ∧ h'.next = h.next + 1 ∧ b.bools h' = l := by
  unfold H.newBools
  refine (Does.newList hw _ _).weaken fun b h' _ _ ⟨hb, hn, _, _, hl⟩ => ⟨hb, hn, ?_⟩
  unfold Arr.bools
  rw [hl, List.map_map]
  refine (List.map_congr_left fun v _ => ?_).trans (List.map_id _)
  cases v <;> simp

theorem Does.meshgrid (hw : w ≤ h.next) (x y : Arr) :
    Does w (meshgridRef x y) h (.ok ()) fun g h' _ =>
      g.1.buf < h'.next ∧ g.2.buf < h'.next ∧ g.1.isInt = x.isInt ∧ g.2.isInt = y.isInt ∧
      g.1.list h' = (meshgridFlat (x.list h) (y.list h)).map Prod.fst ∧
      g.2.list h' = (meshgridFlat (x.list h) (y.list h)).map Prod.snd := by
  unfold meshgridRef
  refine Does.here ?_
  dsimp only
  refine Does.step (Does.newList (le_refl h.next) _ _) hw fun z h1 f1 ⟨b1, n1, c1, i1, l1⟩ => ?_
  refine Does.step (Does.newList (le_refl h1.next) _ _) (hw.trans f1.next_le) fun ss h2 f2 ⟨b2, n2, c2, i2, l2⟩ => ?_
  refine Does.ret ⟨?_, ?_, i1, i2, ?_, l2⟩ <;> dsimp only
  · omega
  · omega
  · rw [z.list_frame f2 (by omega), l1]

/-- The arrays of the query and the values they stand for. -/
structure IsQuery (k : ℕ) (A : ExecArgs) (r : Arr × Arr × Arr) (h' : Heap) (p : List (ℝ × ℝ) × List Bool) :
    Prop where
  bx : r.1.buf < h'.next
  byy : r.2.1.buf < h'.next
  bm : r.2.2.buf < h'.next
  fresh : k ≤ r.2.2.buf
  ix : r.1.isInt = A.xpoints.isInt
  iy : r.2.1.isInt = A.ypoints.isInt
  x : r.1.list h' = p.1.map Prod.fst
  y : r.2.1.list h' = p.1.map Prod.snd
  mask : r.2.2.bools h' = p.2

theorem Does.query (hw : w ≤ h.next) (args : ExecRefs) (x y : Arr) (A : ExecArgs)
    (hs : A.style = args.style) (hx : A.xpoints.vals = x.list h) (hy : A.ypoints.vals = y.list h)
    (ix : A.xpoints.isInt = x.isInt) (iy : A.ypoints.isInt = y.isInt) (hm : A.mask = args.mask.map (Arr.mask2 h))
    (bx : x.buf < h.next) (byy : y.buf < h.next) (bm : ∀ m ∈ args.mask, m.buf < h.next) :
    Does w (queryPointsRef args x y) h (queryPoints A) (IsQuery h.next A) := by
  unfold queryPointsRef queryPoints
  dsimp only
  have lx : A.xpoints.vals.length = x.cols := by rw [hx, Arr.list_length]
  have ly : A.ypoints.vals.length = y.cols := by rw [hy, Arr.list_length]
  rw [lx, ly, hs]
  -- a mask array is flattened, the grid is built
  have grid : ∀ m : Arr, m.buf < h.next → ∀ l, (m.mask2 h).flatten = l →
      Does w (m.flatten >>= fun mask => meshgridRef x y >>= fun g => pure (g.1, g.2, mask)) h
        (.ok (meshgridFlat A.xpoints.vals A.ypoints.vals, l)) (IsQuery h.next A) := by
    rintro m hmb l rfl
    refine Does.step (Does.flatten (le_refl h.next) m) hw fun mk h1 f1 ⟨b1, n1, l1⟩ => ?_
    refine Does.step (Does.meshgrid (le_refl h1.next) x y) (hw.trans f1.next_le)
      fun g h2 f2 ⟨p1, p2, p3, p4, p5, p6⟩ => ?_
    rw [x.list_frame f1 bx, y.list_frame f1 byy] at p5 p6
    have := f2.next_le
    exact Does.ret ⟨p1, p2, by dsimp only; omega, by dsimp only; omega, p3.trans ix.symm, p4.trans iy.symm,
      by rw [p5, hx, hy], by rw [p6, hx, hy], by
        dsimp only
        rw [mk.bools_frame f2 (by omega), l1]⟩
  by_cases h1 : args.style ∈ ["grid", "masked"]
  · rw [if_pos h1, if_pos h1]
    by_cases h2 : args.style = "masked"
    · rw [if_pos h2, if_pos h2, hm]
      cases hmm : args.mask with
      | none => exact Does.raise _
      | some m =>
        have hb := bm m hmm
        dsimp only [Option.map]
        rw [show (Arr.mask2 h m).rows = m.rows from rfl, show (Arr.mask2 h m).cols = m.cols from rfl]
        by_cases h3 : m.rows ≠ y.cols ∨ m.cols ≠ x.cols
        · rw [if_pos h3, if_pos h3]
          by_cases h4 : m.rows = x.cols ∧ m.cols = y.cols
          · rw [if_pos h4, if_pos h4]
            exact grid m.T hb _ rfl
          · rw [if_neg h4, if_neg h4]; exact Does.raise _
        · rw [if_neg h3, if_neg h3]
          exact grid m hb _ rfl
    · rw [if_neg h2, if_neg h2]
      refine Does.step (Does.meshgrid (le_refl h.next) x y) hw fun g h1 f1 ⟨p1, p2, p3, p4, p5, p6⟩ => ?_
      refine Does.step (Does.newBools (le_refl h1.next) _) (hw.trans f1.next_le) fun mk h2 f2 ⟨b1, n1, l1⟩ => ?_
      have := f1.next_le
      exact Does.ret ⟨by dsimp only; omega, by dsimp only; omega, by dsimp only; omega, by dsimp only; omega,
        p3.trans ix.symm, p4.trans iy.symm,
        by dsimp only; rw [g.1.list_frame f2 p1, p5, hx, hy], by dsimp only; rw [g.2.list_frame f2 p2, p6, hx, hy],
        l1⟩
  · rw [if_neg h1, if_neg h1]
    by_cases h2 : args.style = "points"
    · rw [if_pos h2, if_pos h2]
      by_cases h3 : x.cols ≠ y.cols
      · rw [if_pos h3, if_pos h3]; exact Does.raise _
      · rw [if_neg h3, if_neg h3]
        have hl : (x.list h).length = (y.list h).length := by
          rw [Arr.list_length, Arr.list_length]; exact not_not.1 h3
        refine Does.step (Does.newBools (le_refl h.next) _) hw fun mk h2 f2 ⟨b1, n1, l1⟩ => ?_
        refine Does.ret ⟨by dsimp only; omega, by dsimp only; omega, by dsimp only; omega, by dsimp only; omega,
          ix.symm, iy.symm, ?_, ?_, l1⟩
        · dsimp only
          rw [x.list_frame f2 bx, hx, hy, List.map_fst_zip (le_of_eq hl)]
        · dsimp only
          rw [y.list_frame f2 byy, hx, hy, List.map_snd_zip (le_of_eq hl.symm)]
    · rw [if_neg h2, if_neg h2]; exact Does.raise _

theorem Does.adjustQuery (hw : w ≤ h.next) (n : ℕ) (o : OKRef) (s : OK n) (A : ExecArgs) (gx gy : Arr)
    (pts : List (ℝ × ℝ)) (hc : o.coordinatesType = s.coordinatesType) (h1 : o.XCENTER = s.XCENTER)
    (h2 : o.YCENTER = s.YCENTER) (h3 : o.anisotropyScaling = s.anisotropyScaling)
    (h4 : o.anisotropyAngle = s.anisotropyAngle)
    (ix : gx.isInt = A.xpoints.isInt) (iy : gy.isInt = A.ypoints.isInt)
    (hx : gx.list h = pts.map Prod.fst) (hy : gy.list h = pts.map Prod.snd) :
    Does w (o.adjustQuery gx gy) h (s.adjustQuery A pts) fun r h' qs =>
      List.zipWith (fun x y => (![x, y] : Fin 2 → ℝ)) (r.1.list h') (r.2.list h') = qs := by
  unfold OKRef.adjustQuery OK.adjustQuery
  rw [hc, h1, h2, h3, h4]
  have lx : gx.cols = pts.length := by rw [← Arr.list_length h gx, hx, List.length_map]
  have ly : gy.cols = pts.length := by rw [← Arr.list_length h gy, hy, List.length_map]
  have ex : ∀ i (hi : i < pts.length), gx.get h 0 i = (pts[i]).1 := fun i hi => by
    have : (gx.list h)[i]'(by rw [hx, List.length_map]; exact hi) = gx.get h 0 i := by
      unfold Arr.list; rw [List.getElem_map, List.getElem_range]
    rw [← this]; simp only [hx, List.getElem_map]
  have ey : ∀ i (hi : i < pts.length), gy.get h 0 i = (pts[i]).2 := fun i hi => by
    have : (gy.list h)[i]'(by rw [hy, List.length_map]; exact hi) = gy.get h 0 i := by
      unfold Arr.list; rw [List.getElem_map, List.getElem_range]
    rw [← this]; simp only [hy, List.getElem_map]
  by_cases he : s.coordinatesType = "euclidean"
  · rw [if_pos he, if_pos he, ← ix, ← iy]
    cases hi : gx.isInt && gy.isInt with
    | true =>
      rw [if_pos rfl]
      exact Does.adjusted_int hw gx gy _ _ _ _ hi
    | false =>
      rw [if_neg (by decide)]
      refine Does.adjusted hw gx gy _ _ _ _ hi fun X h' f hb1 hb2 hr hcl hint hv => Does.ret ?_
      refine List.ext_getElem (by simp [Arr.list_length, Arr.row, Arr.T, hr, lx]) fun i g1 g2 => ?_
      have hi' : i < pts.length := by simpa using g2
      rw [List.getElem_zipWith, List.getElem_map]
      unfold Arr.list
      rw [List.getElem_map, List.getElem_map, List.getElem_range, List.getElem_range]
      have e0 : ∀ j : Fin 2, (X.T.row j).get h' 0 i = X.get h' i j := fun _ => rfl
      have := hv i (by omega)
      rw [ex i hi', ey i hi'] at this
      funext j
      fin_cases j
      · exact (e0 0).trans (this 0)
      · exact (e0 1).trans (this 1)
  · rw [if_neg he, if_neg he]
    refine Does.ret ?_
    dsimp only
    rw [hx, hy]
    refine List.ext_getElem (by simp) fun i g1 g2 => ?_
    rw [List.getElem_zipWith, List.getElem_map, List.getElem_map, List.getElem_map]

/-- What the caller gets: new arrays (none of them shares memory with anything that existed before). -/
structure Returned (k : ℕ) (r : ResultRef) (h' : Heap) (res : ExecResult) : Prop where
  newZ : k ≤ r.z.buf ∧ r.z.buf < h'.next
  newSs : k ≤ r.ss.buf ∧ r.ss.buf < h'.next
  newMask : ∀ m ∈ r.mask, k ≤ m.buf ∧ m.buf < h'.next
  values : r.deref h' = res

theorem Does.executeWith (n : ℕ) (o : OKRef) (hl : o.Live h.next) (args : ExecRefs)
    (bx : args.xpoints.buf < h.next) (byy : args.ypoints.buf < h.next) (bm : ∀ m ∈ args.mask, m.buf < h.next)
    (ker : Arr → List (Fin 2 → ℝ) → List Bool → H (Arr × Arr))
    (kerV : Matrix (Fin (n + 1)) (Fin (n + 1)) ℝ → List (Fin 2 → ℝ) → List Bool → Py (List (ℝ × ℝ)))
    (hker : ∀ a qs mask h', Heap.Frame h.next h h' → a.buf < h'.next →
      Does h'.next (ker a qs mask) h' (kerV (a.mat h' (n + 1)) qs mask) (Results h'.next)) :
    Does h.next (do
      let xpts ← args.xpoints.copy
      let ypts ← args.ypoints.copy
      let a ← OKRef.getKrigingMatrix n o
      let (gx, gy, mask) ← queryPointsRef args xpts ypts
      let (qx, qy) ← o.adjustQuery gx gy
      let h ← H.here
      let r ← ker a (List.zipWith (fun x y => (![x, y] : Fin 2 → ℝ)) (qx.list h) (qy.list h)) (mask.bools h)
      return ({ shape := if args.style ∈ ["masked", "grid"] then [ypts.cols, xpts.cols] else [xpts.cols]
                z := r.1, ss := r.2
                mask := if args.style = "masked" then some mask else none } : ResultRef)) h (do
      let a ← (o.deref h n).getKrigingMatrix
      let (pts, mask) ← queryPoints (args.deref h)
      let qs ← (o.deref h n).adjustQuery (args.deref h) pts
      let res ← kerV a qs mask
      return ({ shape := resultShape (args.deref h)
                z := applyMask args.style mask (res.map Prod.fst)
                ss := applyMask args.style mask (res.map Prod.snd) } : ExecResult)) (Returned h.next) := by
  refine Does.step (Does.copy (le_refl h.next) _) le_rfl fun x h1 f1 ⟨b1, n1, c1, i1, l1⟩ => ?_
  refine Does.step (Does.copy (le_refl h1.next) _) f1.next_le fun y h2 f2 ⟨b2, n2, c2, i2, l2⟩ => ?_
  have f12 : Heap.Frame h.next h h2 := f1.trans (f2.mono f1.next_le)
  rw [args.ypoints.list_frame f1 byy] at l2
  have l1' : x.list h2 = args.xpoints.list h := by rw [x.list_frame f2 (by omega), l1]
  rw [← OKRef.deref_frame f12 hl n]
  refine Does.bind (Does.krigingMatrix (le_refl h2.next) n o) f12.next_le fun a h3 A f3 ⟨b3, b3', hA⟩ => ?_
  have f13 : Heap.Frame h.next h h3 := f12.trans (f3.mono f12.next_le)
  have m3 : (args.deref h).mask = args.mask.map (Arr.mask2 h3) := by
    show args.mask.map (Arr.mask2 h) = _
    cases hm : args.mask with
    | none => rfl
    | some m =>
      have : Arr.mask2 h m = Arr.mask2 h3 m := by
        unfold Arr.mask2
        congr 1
        funext r c
        rw [m.get_frame f13 (bm m hm)]
      show some _ = some _
      rw [this]
  have g3 := f3.next_le
  refine Does.bind (Does.query (le_refl h3.next) args x y (args.deref h) rfl
    (by rw [x.list_frame f3 (by omega), l1']; rfl) (by rw [y.list_frame f3 (by omega), l2]; rfl) i1.symm i2.symm m3
    (by omega) (by omega) fun m hm => (bm m hm).trans_le f13.next_le) f13.next_le ?_
  rintro ⟨gx, gy, mk⟩ h4 ⟨pts, mask⟩ f4 ⟨q1, q2, q3, q4, q5, q6, q7, q8, q9⟩
  have f14 : Heap.Frame h.next h h4 := f13.trans (f4.mono f13.next_le)
  refine Does.bind (Does.adjustQuery (le_refl h4.next) n o (o.deref h2 n) (args.deref h) gx gy pts rfl rfl rfl rfl
    rfl q5 q6 q7 q8) f14.next_le ?_
  rintro ⟨qx, qy⟩ h5 qs f5 hq
  have f15 : Heap.Frame h.next h h5 := f14.trans (f5.mono f14.next_le)
  have g4 := f4.next_le
  have g5 := f5.next_le
  refine Does.here ?_
  dsimp only at hq q1 q2 q3 q4 q9 ⊢
  rw [hq, mk.bools_frame f5 q3, q9]
  have hA5 : a.mat h5 (n + 1) = A := by
    rw [a.mat_frame f5 (by omega), a.mat_frame f4 (by omega), hA]
  have hk := hker a qs mask h5 f15 (by omega)
  rw [hA5] at hk
  refine Does.bind hk f15.next_le ?_
  rintro ⟨z, ss⟩ h6 res f6 ⟨r1, r2, r3, r4, r5, r6⟩
  dsimp only at r1 r2 r3 r4 r5 r6
  have g0 := f13.next_le
  refine Does.ret ⟨⟨by dsimp only; omega, r2⟩, ⟨by dsimp only; omega, r4⟩, ?_, ?_⟩
  · intro m hm
    dsimp only at hm
    split at hm
    · cases hm
      exact ⟨by omega, q3.trans_le (g5.trans f6.next_le)⟩
    · cases hm
  · unfold ResultRef.deref applyMask resultShape
    dsimp only
    have hmb : mk.bools h6 = mask := by
      rw [mk.bools_frame f6 (by omega), mk.bools_frame f5 (by omega), q9]
    have hs : (if args.style ∈ ["masked", "grid"] then [y.cols, x.cols] else [x.cols]) =
        if (args.deref h).style ∈ ["masked", "grid"] then
          [(args.deref h).ypoints.vals.length, (args.deref h).xpoints.vals.length]
        else [(args.deref h).xpoints.vals.length] := by
      unfold ExecRefs.deref
      dsimp only
      rw [Arr.list_length, Arr.list_length, c1, c2]
    rw [hs, r5, r6]
    by_cases hst : args.style = "masked"
    · simp only [if_pos hst, hmb]
    · simp only [if_neg hst]

theorem Does.execute (n : ℕ) (env : Env) (o : OKRef) (hl : o.Live h.next) (args : ExecRefs)
    (bx : args.xpoints.buf < h.next) (byy : args.ypoints.buf < h.next) (bm : ∀ m ∈ args.mask, m.buf < h.next) :
    Does h.next (o.execute n env args) h (OK.execute env (o.deref h n) (args.deref h)) (Returned h.next) := by
  unfold OKRef.execute OK.execute
  have e1 : (args.deref h).style = args.style := rfl
  have e2 : (args.deref h).nClosest = args.nClosest := rfl
  have e3 : (args.deref h).backend = args.backend := rfl
  rw [e1, e2, e3]
  by_cases h1 : args.style ∉ ["grid", "masked", "points"]
  · rw [if_pos h1, if_pos h1]; exact ⟨.refl _ _, .error _⟩
  rw [if_neg h1, if_neg h1]
  cases hk : args.nClosest with
  | some k =>
    dsimp only
    by_cases h2 : k ≤ 1
    · rw [if_pos h2, if_pos h2]; exact ⟨.refl _ _, .error _⟩
    rw [if_neg h2, if_neg h2]
    refine Does.executeWith n o hl args bx byy bm
      (fun a qs mask => o.movingWindow n env a qs mask _ k.toNat)
      (fun a qs mask => (o.deref h n).movingWindow env a qs mask _ k.toNat) fun a qs mask h' f hb => ?_
    rw [← OKRef.deref_frame f hl n]
    exact Does.movingWindow n env o (hl.mono f.next_le) a hb qs mask _ _
  | none =>
    refine Does.executeWith n o hl args bx byy bm
      (fun a qs mask => o.globalKrige n a qs mask _)
      (fun a qs mask => (o.deref h n).globalKrige a qs mask _) fun a qs mask h' f hb => ?_
    rw [← OKRef.deref_frame f hl n]
    exact Does.globalKrige n o (hl.mono f.next_le) a qs mask _

end

end
end PyKrige
