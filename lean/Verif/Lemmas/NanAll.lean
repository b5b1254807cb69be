import Verif.Lemmas.NanOK
import Verif.Lemmas.OK3DExec
import Verif.Model.NanOK3D
import Verif.Model.NanUK
import Verif.Model.NanUK3D

/-! The other classes: values that may be nan. -/

namespace PyKrige
noncomputable section
open Matrix Spec

/-! ### Shared by the other classes -/

theorem NanRel.const {α β : Type} {P : Prop} {qs : List α} {qs' : List β} {mask : List Bool} {l : List (ℝ × ℝ)}
    {l' : List (Option ℝ × ℝ)} (h : NanRel (fun _ => P) qs mask l l') (hl : qs'.length = qs.length) :
    NanRel (fun _ => P) qs' mask l l' := by
  obtain ⟨h1, h2, h3⟩ := h
  refine ⟨h1.trans hl.symm, h2.trans hl.symm, fun j q r hm hq hr => ?_⟩
  have hj : j < qs.length := by rw [← hl]; exact (List.getElem?_eq_some_iff.1 hq).1
  exact h3 j qs[j] r hm (List.getElem?_eq_getElem hj) hr

/-- A loop that also reports whether a warning was issued. -/
theorem NanRel.loopW {α : Type} {P : Prop} {f : α → Py ((ℝ × ℝ) × Bool)} {f' : α → Py ((Option ℝ × ℝ) × Bool)}
    {qs : List α} {mask : List Bool} (hl : mask.length = qs.length)
    (hf : ∀ q ∈ qs, f' q = (fun r => (mark P r.1, r.2)) <$> f q) :
    PyRel (fun l l' => NanRel (fun _ => P) qs mask (l.map Prod.fst) (l'.map Prod.fst) ∧ l'.any Prod.snd = l.any Prod.snd)
      ((qs.zip mask).mapM (fun p => if p.2 then pure ((0, 0), false) else f p.1))
      ((qs.zip mask).mapM (fun p => if p.2 then pure ((some 0, 0), false) else f' p.1)) := by
  have e : (qs.zip mask).mapM (fun p => if p.2 then pure ((some 0, 0), false) else f' p.1) =
      (List.zipWith (fun (p : α × Bool) r => (if p.2 then (some 0, 0) else mark P r.1, r.2)) (qs.zip mask)) <$>
        (qs.zip mask).mapM (fun p => if p.2 then pure ((0, 0), false) else f p.1) := by
    rw [← nan_mapM]
    have hf' : ∀ p ∈ qs.zip mask, f' p.1 = (fun r => (mark P r.1, r.2)) <$> f p.1 :=
      fun p hp => hf p.1 (List.of_mem_zip hp).1
    generalize qs.zip mask = l at hf'
    induction l with
    | nil => rfl
    | cons a l ih =>
      rw [List.mapM_cons, List.mapM_cons, ih fun p hp => hf' p (by simp [hp])]
      congr 1
      obtain ⟨q, m⟩ := a
      cases m
      · simpa using hf' (q, false) (by simp)
      · rfl
  rw [e]
  refine PyRel.map fun l h => ?_
  have hL := mapM_length h
  rw [List.length_zip, hl, min_self] at hL
  refine ⟨⟨by simpa using hL, by simp [hl, hL], fun j q r hm hq hr => ?_⟩, ?_⟩
  · rw [List.getElem?_map] at hr
    obtain ⟨r₀, hr₀, rfl⟩ := Option.map_eq_some_iff.1 hr
    rw [List.getElem?_map, List.getElem?_zipWith, (List.getElem?_zip_eq_some (z := (q, false))).2 ⟨hq, hm⟩, hr₀]
    simp
  · have : (qs.zip mask).length = l.length := by rw [List.length_zip, hl, min_self, hL]
    clear h hL e
    generalize qs.zip mask = zs at this
    induction zs generalizing l with
    | nil => cases l <;> simp_all
    | cons a zs ih =>
      cases l with
      | nil => simp at this
      | cons r l => simp [ih l (by simpa using this)]

theorem applyMaskNan_eq_hide3 {args : ExecArgs3} {pts mask} (h : queryPoints3 args = .ok (pts, mask))
    (vals : List (Option ℝ)) (hl : vals.length = pts.length) :
    applyMaskNan args.style mask vals = hide mask vals := by
  unfold applyMaskNan
  split
  · rfl
  · next hs => rw [(queryPoints3_spec h).2 hs, hide_replicate_false _ _ hl]

/-- The results, masked. -/
theorem nan_final2 {args : ExecArgs} {pts mask} (hq : queryPoints args = .ok (pts, mask)) {P : ℝ × ℝ → Prop}
    {l : List (ℝ × ℝ)} {l' : List (Option ℝ × ℝ)} (h : NanRel P pts mask l l') (sh : List ℕ) :
    NanMatch P (queryAt args) (maskedAt args)
      ⟨sh, applyMask args.style mask (l.map Prod.fst), applyMask args.style mask (l.map Prod.snd)⟩
      ⟨sh, applyMaskNan args.style mask (l'.map Prod.fst), applyMask args.style mask (l'.map Prod.snd)⟩ := by
  have h1 := h.1
  have h2 := h.2.1
  have h3 := h.hide (queryPoints_length hq) sh fun j hj => queryPoints_maskedAt hq hj
  rw [applyMask_eq_hide hq (l.map Prod.fst) (by simp [h1]), applyMask_eq_hide hq (l.map Prod.snd) (by simp [h1]),
    applyMaskNan_eq_hide hq (l'.map Prod.fst) (by simp [h2]), applyMask_eq_hide hq (l'.map Prod.snd) (by simp [h2])]
  have e5 : (fun j => pts[j]?) = queryAt args := funext fun j => queryPoints_getElem? hq j
  rw [e5] at h3
  exact h3

theorem nan_final3 {args : ExecArgs3} {pts mask} (hq : queryPoints3 args = .ok (pts, mask)) {P : ℝ × ℝ × ℝ → Prop}
    {l : List (ℝ × ℝ)} {l' : List (Option ℝ × ℝ)} (h : NanRel P pts mask l l') (sh : List ℕ) :
    NanMatch P (queryAt3 args) (maskedAt3 args)
      ⟨sh, applyMask args.style mask (l.map Prod.fst), applyMask args.style mask (l.map Prod.snd)⟩
      ⟨sh, applyMaskNan args.style mask (l'.map Prod.fst), applyMask args.style mask (l'.map Prod.snd)⟩ := by
  have h1 := h.1
  have h2 := h.2.1
  have h3 := h.hide (queryPoints3_spec hq).1 sh fun j hj => queryPoints3_maskedAt hq hj
  rw [applyMask_eq_hide3 hq (l.map Prod.fst) (by simp [h1]), applyMask_eq_hide3 hq (l.map Prod.snd) (by simp [h1]),
    applyMaskNan_eq_hide3 hq (l'.map Prod.fst) (by simp [h2]), applyMask_eq_hide3 hq (l'.map Prod.snd) (by simp [h2])]
  have e5 : (fun j => pts[j]?) = queryAt3 args := funext fun j => queryPoints3_getElem? hq j
  rw [e5] at h3
  exact h3

theorem NanRel.congr_right {α : Type} {P : α → Prop} {qs : List α} {mask : List Bool} {l : List (ℝ × ℝ)}
    {l' l'' : List (Option ℝ × ℝ)} (h : NanRel P qs mask l l') (e : l'' = l') : NanRel P qs mask l l'' := e ▸ h

/-- The object with numbers in place of the nans. -/
def NanOK3D.fill {n : ℕ} (t : NanOK3D n) (v : Fin n → ℝ) (lags : List (ℝ × ℝ)) (stats : Option Stats) : OK3D n :=
  t.obj.withZ v lags stats

theorem NanOK3D.create_rel {n : ℕ} (env : Env) (x y z : Fin n → ℝ) (w : Fin n → Option ℝ) {v : Fin n → ℝ}
    (hv : Replaces v w) (args : OK3DArgs)
    (hg : ParamsGiven args.variogramModel args.params ∨ ∀ i, w i = some (v i)) :
    PyRel (fun s t => t.Z = w ∧ s = t.fill v s.lags s.stats ∧ OptStatsRel w s.stats t.stats ∧
        ((∀ i, w i = some (v i)) → t.obj.lags = s.lags))
      (OK3D.create env x y z v args) (NanOK3D.create env x y z w args) := by
  unfold OK3D.create NanOK3D.create
  by_cases hp : args.pseudoInvType ∈ ["pinv", "pinvh"]
  swap
  · rw [if_pos hp, if_pos hp]; rfl
  rw [if_neg (not_not.2 hp), if_neg (not_not.2 hp)]
  cases args.exactValues with
  | notBool => rfl
  | bool b =>
    dsimp only [py_pure, py_ok_bind]
    refine PyRel.same fun r h1 => ?_
    obtain ⟨name, model, fArg, pArg, an⟩ := r
    refine PyRel.same fun r h2 => ?_
    obtain ⟨f, fname⟩ := r
    refine PyRel.same fun _ _ => PyRel.same fun _ _ => PyRel.same fun _ _ => PyRel.same fun vp h4 => ?_
    refine (initializeVariogramModelNan_rel env _ w v name vp f args.nlags args.weight "euclidean"
      (hg.imp (fun hz => by
        obtain ⟨_, rfl⟩ := makeVariogramParameterList_some h4 (OK3D.resolveModel_given h1 hz)
        simp) id)).bind ?_
    rintro ⟨lags, ps⟩ ⟨lags', ps'⟩ - - ⟨rfl, h5⟩
    refine (findStatisticsNan_rel _ w hv f ps' "euclidean" args.pseudoInv).bind fun st st' _ _ hst => ?_
    exact ⟨rfl, rfl, hst, fun h => congrArg Prod.fst (h5 h)⟩

theorem OK3D.execVector_length {n : ℕ} {s : OK3D n} {a : Matrix (Fin (n + 1)) (Fin (n + 1)) ℝ} {bd : List (Fin n → ℝ)}
    {l : List (ℝ × ℝ)} (h : s.execVector a bd = .ok l) : l.length = bd.length := by
  unfold OK3D.execVector at h
  obtain ⟨_, -, h⟩ := py_bind_eq_ok.1 h
  obtain ⟨_, -, h⟩ := py_bind_eq_ok.1 h
  rw [← Except.ok.inj h]
  simp

section exec
variable {n : ℕ} (t : NanOK3D n) {v : Fin n → ℝ} (hv : Replaces v t.Z) (lags : List (ℝ × ℝ)) (stats : Option Stats)
include hv

theorem NanOK3D.loopBody_eq (a : Matrix (Fin (n + 1)) (Fin (n + 1)) ℝ) (bd : Fin n → ℝ) :
    t.loopBody a bd = mark (∀ i, t.Z i ≠ none) <$> (t.fill v lags stats).loopBody a bd := by
  unfold NanOK3D.loopBody OK3D.loopBody
  simp only [nanDot_eq _ hv, map_bind]
  rfl

theorem NanOK3D.windowBody_eq (a : Matrix (Fin (n + 1)) (Fin (n + 1)) ℝ) (w : Window n) :
    t.windowBody a w = mark (∀ i, t.Z (w.sel.get i) ≠ none) <$> (t.fill v lags stats).windowBody a w := by
  unfold NanOK3D.windowBody OK3D.windowBody
  have hv' : Replaces (fun i => v (w.sel.get i)) (fun i => t.Z (w.sel.get i)) := fun i a h => hv _ _ h
  simp only [nanDot_eq _ hv', map_bind]
  rfl

theorem NanOK3D.execVector_eq (a : Matrix (Fin (n + 1)) (Fin (n + 1)) ℝ) (bd : List (Fin n → ℝ)) :
    t.execVector a bd = (List.map (mark (∀ i, t.Z i ≠ none))) <$> (t.fill v lags stats).execVector a bd := by
  unfold NanOK3D.execVector OK3D.execVector
  simp only [nanDot_eq _ hv, map_bind, py_pure, py_map_ok, List.map_map]
  rfl

theorem NanOK3D.globalKrige_rel (a : Matrix (Fin (n + 1)) (Fin (n + 1)) ℝ) (qs : List (Fin 3 → ℝ)) (mask : List Bool)
    (hl : mask.length = qs.length) (backend : String) :
    PyRel (NanRel (fun _ => ∀ i, t.Z i ≠ none) qs mask) ((t.fill v lags stats).globalKrige a qs mask backend)
      (t.globalKrige a qs mask backend) := by
  unfold OK3D.globalKrige NanOK3D.globalKrige
  dsimp only
  split
  · rw [t.execVector_eq hv lags stats]
    exact PyRel.map fun l h => NanRel.mapMark (by rw [OK3D.execVector_length h, List.length_map])
  · split
    · unfold OK3D.execLoop NanOK3D.execLoop
      refine PyRel.same fun ai _ => ?_
      exact (NanRel.loop (P := fun _ => ∀ i, t.Z i ≠ none) (by rw [List.length_map, hl])
        fun q _ => t.loopBody_eq hv lags stats ai q).mono fun l l' _ _ h => NanRel.comp h
    · rfl

omit hv in
/-- Whether the estimate at a query point is a number. -/
def NanOK3D.numberAt (env : Env) (nClosest : Option ℤ) (q : Fin 3 → ℝ) : Prop :=
  match nClosest with
  | none => ∀ i, t.Z i ≠ none
  | some k => ∀ i ∈ (t.obj.neighbours env k.toNat q).sel, t.Z i ≠ none

theorem NanOK3D.movingWindow_rel (env : Env) (a : Matrix (Fin (n + 1)) (Fin (n + 1)) ℝ) (qs : List (Fin 3 → ℝ))
    (mask : List Bool) (hl : mask.length = qs.length) (backend : String) {k : ℤ} (hk : k ≤ n) :
    PyRel (NanRel (fun q => ∀ i ∈ (t.obj.neighbours env k.toNat q).sel, t.Z i ≠ none) qs mask)
      ((t.fill v lags stats).movingWindow env a qs mask backend k)
      (t.movingWindow env a qs mask backend k) := by
  unfold OK3D.movingWindow NanOK3D.movingWindow
  have key : ∀ w : Window n, (∀ i, t.Z (w.sel.get i) ≠ none) ↔ ∀ i ∈ w.sel, t.Z i ≠ none := by
    intro w
    constructor
    · intro h i hi
      obtain ⟨j, rfl⟩ := List.get_of_mem hi
      exact h j
    · intro h i
      exact h _ (List.get_mem _ _)
  by_cases h0 : k ≤ 0
  · rw [if_pos h0, if_pos h0]; rfl
  rw [if_neg h0, if_neg h0]
  by_cases hb : backend = "loop"
  · rw [if_pos hb, if_pos hb]
    by_cases h1 : k = 1
    · rw [if_pos h1, if_pos h1]; rfl
    rw [if_neg h1, if_neg h1, if_pos hk, if_pos hk]
    unfold OK3D.execLoopMovingWindow NanOK3D.execLoopMovingWindow
    exact (NanRel.loop (P := fun w : Window n => ∀ i ∈ w.sel, t.Z i ≠ none) (by rw [List.length_map, hl])
      fun w _ => by rw [t.windowBody_eq hv lags stats, key]).mono fun l l' _ _ h => NanRel.comp h
  · rw [if_neg hb, if_neg hb]; rfl

theorem NanOK3D.execute_rel (env : Env) (args : ExecArgs3) (hw : WindowFits n args.nClosest) :
    PyRel (NanMatch (fun p => t.numberAt env args.nClosest (t.obj.queryPt p)) (queryAt3 args) (maskedAt3 args))
      ((t.fill v lags stats).execute env args) (t.execute env args) := by
  unfold OK3D.execute NanOK3D.execute
  by_cases hs : args.style ∈ ["grid", "masked", "points"]
  swap
  · rw [if_pos hs, if_pos hs]; rfl
  rw [if_neg (not_not.2 hs), if_neg (not_not.2 hs)]
  refine PyRel.same fun a _ => PyRel.same fun r hq => ?_
  obtain ⟨pts, mask⟩ := r
  refine PyRel.same fun qs ha => ?_
  rw [OK3D.adjustQuery_eq] at ha
  split at ha
  · cases ha
  obtain rfl := (Except.ok.inj ha).symm
  have hlen' : mask.length = (pts.map t.obj.queryPt).length := by rw [List.length_map, (queryPoints3_spec hq).1]
  cases hc : args.nClosest with
  | none =>
    exact (t.globalKrige_rel hv lags stats a _ mask hlen' _).bind fun l l' _ _ h => nan_final3 hq h.comp _
  | some k =>
    exact (t.movingWindow_rel hv lags stats env a _ mask hlen' _ (hw k hc)).bind
      fun l l' _ _ h => nan_final3 hq h.comp _

end exec

/-- The object with numbers in place of the nans. -/
def NanUK.fill {n : ℕ} (t : NanUK n) (v : Fin n → ℝ) (lags : List (ℝ × ℝ)) (stats : Option Stats) : UK n :=
  t.obj.withZ v lags stats

theorem NanUK.create_rel {n : ℕ} (env : Env) (x y : Fin n → ℝ) (w : Fin n → Option ℝ) {v : Fin n → ℝ}
    (hv : Replaces v w) (args : UKArgs)
    (hg : ParamsGiven args.variogramModel args.params ∨ ∀ i, w i = some (v i)) :
    PyRel (fun s t => t.Z = w ∧ s = t.fill v s.lags s.stats ∧ OptStatsRel w s.stats t.stats ∧
        ((∀ i, w i = some (v i)) → t.obj.lags = s.lags))
      (UK.create env x y v args) (NanUK.create env x y w args) := by
  unfold UK.create NanUK.create
  by_cases hp : args.pseudoInvType ∈ ["pinv", "pinvh"]
  swap
  · rw [if_pos hp, if_pos hp]; rfl
  rw [if_neg (not_not.2 hp), if_neg (not_not.2 hp)]
  cases args.exactValues with
  | notBool => rfl
  | bool b =>
    dsimp only [py_pure, py_ok_bind]
    refine PyRel.same fun r h1 => ?_
    obtain ⟨name, model, fArg, pArg, scaling, angle⟩ := r
    refine PyRel.same fun r h2 => ?_
    obtain ⟨f, fname⟩ := r
    refine PyRel.same fun _ _ => PyRel.same fun _ _ => PyRel.same fun vp h4 => ?_
    refine (initializeVariogramModelNan_rel env _ w v name vp f args.nlags args.weight "euclidean"
      (hg.imp (fun hz => by
        obtain ⟨_, rfl⟩ := makeVariogramParameterList_some h4 (UK.resolveModel_given h1 hz)
        simp) id)).bind ?_
    rintro ⟨lags, ps⟩ ⟨lags', ps'⟩ - - ⟨rfl, h5⟩
    refine (findStatisticsNan_rel _ w hv f ps' "euclidean" args.pseudoInv).bind fun st st' _ _ hst => ?_
    exact PyRel.same fun _ _ => PyRel.same fun _ _ => PyRel.same fun _ _ => PyRel.same fun _ _ => ⟨rfl, rfl, hst, fun h => congrArg Prod.fst (h5 h)⟩

theorem UK.queries_length {n : ℕ} (s : UK n) (pts) : (s.queries pts).length = pts.length := by
  simp [UK.queries]

section exec
variable {n : ℕ} (t : NanUK n) {v : Fin n → ℝ} (hv : Replaces v t.Z) (lags : List (ℝ × ℝ)) (stats : Option Stats)
include hv

theorem NanUK.loopBody_eq (a : Matrix (Fin (t.obj.nWithDrifts + 1)) (Fin (t.obj.nWithDrifts + 1)) ℝ)
    (spec : List (List ℝ)) (q : UKQuery n) :
    t.loopBody a spec q = (fun r => (mark (∀ i, t.Z i ≠ none) r.1, r.2)) <$>
      (t.fill v lags stats).loopBody a spec q := by
  unfold NanUK.loopBody UK.loopBody
  simp only [nanDot_eq _ hv, map_bind]
  rfl

theorem NanUK.execVector_rel (a : Matrix (Fin (t.obj.nWithDrifts + 1)) (Fin (t.obj.nWithDrifts + 1)) ℝ)
    (qs : List (UKQuery n)) (mask : List Bool) (spec : List (List ℝ)) :
    PyRel (fun r r' => NanRel (fun _ => ∀ i, t.Z i ≠ none) qs mask r.1 r'.1 ∧ r'.2 = r.2)
      ((t.fill v lags stats).execVector a qs spec) (t.execVector a qs spec) := by
  unfold NanUK.execVector UK.execVector
  refine PyRel.same fun ai _ => PyRel.same fun γ _ => PyRel.same fun exts hx => ?_
  simp only [nanDot_eq _ hv]
  refine ⟨?_, rfl⟩
  refine NanRel.congr_right (NanRel.mapMark ?_) ?_
  · simp [mapM_length hx]
  · dsimp only
    rw [List.map_map]
    rfl

theorem NanUK.execute_rel (args : UKExecArgs) :
    PyRel (NanMatch (fun _ => ∀ i, t.Z i ≠ none) (queryAt args.toExec) (maskedAt args.toExec))
      ((t.fill v lags stats).execute args) (t.execute args) := by
  have main : PyRel (fun r r' => NanMatch (fun _ => ∀ i, t.Z i ≠ none) (queryAt args.toExec) (maskedAt args.toExec) r.1 r'.1 ∧ r'.2 = r.2)
      ((t.fill v lags stats).executeW args) (t.executeW args) := by
    unfold UK.executeW NanUK.executeW
    by_cases hs : args.toExec.style ∈ ["grid", "masked", "points"]
    swap
    · rw [if_pos hs, if_pos hs]; rfl
    rw [if_neg (not_not.2 hs), if_neg (not_not.2 hs)]
    refine PyRel.same fun r _ => ?_
    obtain ⟨a, wa⟩ := r
    refine PyRel.same fun r hq => ?_
    obtain ⟨pts, mask⟩ := r
    refine PyRel.same fun spec _ => ?_
    by_cases hi : (args.toExec.xpoints.isInt && args.toExec.ypoints.isInt) = true
    · rw [if_pos hi, if_pos hi]; rfl
    rw [if_neg hi, if_neg hi]
    have hlen : mask.length = pts.length := queryPoints_length hq
    have hql := UK.queries_length t.obj pts
    dsimp only
    have fin : ∀ (r : List (ℝ × ℝ) × Bool) (r' : List (Option ℝ × ℝ) × Bool),
        NanRel (fun _ => ∀ i, t.Z i ≠ none) (t.obj.queries pts) mask r.1 r'.1 → r'.2 = r.2 →
        PyRel (fun r r' => NanMatch (fun _ => ∀ i, t.Z i ≠ none) (queryAt args.toExec) (maskedAt args.toExec) r.1 r'.1 ∧ r'.2 = r.2)
          (.ok (⟨resultShape args.toExec, applyMask args.toExec.style mask (r.1.map Prod.fst),
            applyMask args.toExec.style mask (r.1.map Prod.snd)⟩, wa || r.2))
          (.ok (⟨resultShape args.toExec, applyMaskNan args.toExec.style mask (r'.1.map Prod.fst),
            applyMask args.toExec.style mask (r'.1.map Prod.snd)⟩, wa || r'.2)) :=
      fun r r' h h' => ⟨nan_final2 hq (h.const hql.symm) _, by rw [h']⟩
    by_cases hb : args.toExec.backend = "vectorized"
    · rw [if_pos hb, if_pos hb]
      exact (t.execVector_rel hv lags stats a _ mask spec).bind fun r r' _ _ h => fin r r' h.1 h.2
    rw [if_neg hb, if_neg hb]
    by_cases hb' : args.toExec.backend = "loop"
    · rw [if_pos hb', if_pos hb']
      refine PyRel.bind (R := fun r r' => NanRel (fun _ => ∀ i, t.Z i ≠ none) (t.obj.queries pts) mask r.1 r'.1 ∧
        r'.2 = r.2) ?_ fun r r' _ _ h => fin r r' h.1 h.2
      unfold UK.execLoop NanUK.execLoop
      refine PyRel.same fun ai _ => ?_
      exact (NanRel.loopW (hlen.trans hql.symm) fun q _ => t.loopBody_eq hv lags stats ai spec q).bind
        fun l l' _ _ h => h
    · rw [if_neg hb', if_neg hb']; rfl
  unfold UK.execute NanUK.execute
  revert main
  cases (t.fill v lags stats).executeW args <;> cases t.executeW args <;> intro main
  · exact main
  · exact main.elim
  · exact main.elim
  · exact main.1

end exec

/-- The object with numbers in place of the nans. -/
def NanUK3D.fill {n : ℕ} (t : NanUK3D n) (v : Fin n → ℝ) (lags : List (ℝ × ℝ)) (stats : Option Stats) : UK3D n :=
  t.obj.withZ v lags stats

theorem NanUK3D.create_rel {n : ℕ} (env : Env) (x y z : Fin n → ℝ) (w : Fin n → Option ℝ) {v : Fin n → ℝ}
    (hv : Replaces v w) (args : UK3DArgs)
    (hg : ParamsGiven args.variogramModel args.params ∨ ∀ i, w i = some (v i)) :
    PyRel (fun s t => t.Z = w ∧ s = t.fill v s.lags s.stats ∧ OptStatsRel w s.stats t.stats ∧
        ((∀ i, w i = some (v i)) → t.obj.lags = s.lags))
      (UK3D.create env x y z v args) (NanUK3D.create env x y z w args) := by
  unfold UK3D.create NanUK3D.create
  by_cases hp : args.pseudoInvType ∈ ["pinv", "pinvh"]
  swap
  · rw [if_pos hp, if_pos hp]; rfl
  rw [if_neg (not_not.2 hp), if_neg (not_not.2 hp)]
  cases args.exactValues with
  | notBool => rfl
  | bool b =>
    dsimp only [py_pure, py_ok_bind]
    refine PyRel.same fun r h1 => ?_
    obtain ⟨name, model, fArg, pArg, an⟩ := r
    refine PyRel.same fun r h2 => ?_
    obtain ⟨f, fname⟩ := r
    refine PyRel.same fun _ _ => PyRel.same fun _ _ => PyRel.same fun _ _ => PyRel.same fun vp h4 => ?_
    refine (initializeVariogramModelNan_rel env _ w v name vp f args.nlags args.weight "euclidean"
      (hg.imp (fun hz => by
        obtain ⟨_, rfl⟩ := makeVariogramParameterList_some h4 (OK3D.resolveModel_given h1 hz)
        simp) id)).bind ?_
    rintro ⟨lags, ps⟩ ⟨lags', ps'⟩ - - ⟨rfl, h5⟩
    refine (findStatisticsNan_rel _ w hv f ps' "euclidean" args.pseudoInv).bind fun st st' _ _ hst => ?_
    exact PyRel.same fun _ _ => PyRel.same fun _ _ => ⟨rfl, rfl, hst, fun h => congrArg Prod.fst (h5 h)⟩

theorem UK3D.queries_length {n : ℕ} (s : UK3D n) (pts) : (s.queries pts).length = pts.length := by
  simp [UK3D.queries]

section exec
variable {n : ℕ} (t : NanUK3D n) {v : Fin n → ℝ} (hv : Replaces v t.Z) (lags : List (ℝ × ℝ)) (stats : Option Stats)
include hv

theorem NanUK3D.loopBody_eq (a : Matrix (Fin (t.obj.nWithDrifts + 1)) (Fin (t.obj.nWithDrifts + 1)) ℝ)
    (spec : List (List ℝ)) (q : UK3Query n) :
    t.loopBody a spec q = (fun r => (mark (∀ i, t.Z i ≠ none) r.1, r.2)) <$>
      (t.fill v lags stats).loopBody a spec q := by
  unfold NanUK3D.loopBody UK3D.loopBody
  simp only [nanDot_eq _ hv, map_bind]
  rfl

theorem NanUK3D.execVector_rel (a : Matrix (Fin (t.obj.nWithDrifts + 1)) (Fin (t.obj.nWithDrifts + 1)) ℝ)
    (qs : List (UK3Query n)) (mask : List Bool) (spec : List (List ℝ)) :
    PyRel (fun r r' => NanRel (fun _ => ∀ i, t.Z i ≠ none) qs mask r.1 r'.1 ∧ r'.2 = r.2)
      ((t.fill v lags stats).execVector a qs spec) (t.execVector a qs spec) := by
  unfold NanUK3D.execVector UK3D.execVector
  refine PyRel.same fun ai _ => PyRel.same fun γ _ => ?_
  simp only [nanDot_eq _ hv]
  refine ⟨?_, rfl⟩
  refine NanRel.congr_right (NanRel.mapMark ?_) ?_
  · simp
  · dsimp only
    rw [List.map_map, List.map_map, List.map_map]
    rfl

theorem NanUK3D.execute_rel (args : UK3DExecArgs) :
    PyRel (NanMatch (fun _ => ∀ i, t.Z i ≠ none) (queryAt3 args.toExec) (maskedAt3 args.toExec))
      ((t.fill v lags stats).execute args) (t.execute args) := by
  have main : PyRel (fun r r' => NanMatch (fun _ => ∀ i, t.Z i ≠ none) (queryAt3 args.toExec) (maskedAt3 args.toExec) r.1 r'.1 ∧ r'.2 = r.2)
      ((t.fill v lags stats).executeW args) (t.executeW args) := by
    unfold UK3D.executeW NanUK3D.executeW
    by_cases hs : args.toExec.style ∈ ["grid", "masked", "points"]
    swap
    · rw [if_pos hs, if_pos hs]; rfl
    rw [if_neg (not_not.2 hs), if_neg (not_not.2 hs)]
    refine PyRel.same fun r _ => ?_
    obtain ⟨a, wa⟩ := r
    refine PyRel.same fun r hq => ?_
    obtain ⟨pts, mask⟩ := r
    refine PyRel.same fun spec _ => ?_
    by_cases hi : (args.toExec.xpoints.isInt && args.toExec.ypoints.isInt && args.toExec.zpoints.isInt) = true
    · rw [if_pos hi, if_pos hi]; rfl
    rw [if_neg hi, if_neg hi]
    have hlen : mask.length = pts.length := (queryPoints3_spec hq).1
    have hql := UK3D.queries_length t.obj pts
    dsimp only
    have fin : ∀ (r : List (ℝ × ℝ) × Bool) (r' : List (Option ℝ × ℝ) × Bool),
        NanRel (fun _ => ∀ i, t.Z i ≠ none) (t.obj.queries pts) mask r.1 r'.1 → r'.2 = r.2 →
        PyRel (fun r r' => NanMatch (fun _ => ∀ i, t.Z i ≠ none) (queryAt3 args.toExec) (maskedAt3 args.toExec) r.1 r'.1 ∧ r'.2 = r.2)
          (.ok (⟨resultShape3 args.toExec, applyMask args.toExec.style mask (r.1.map Prod.fst),
            applyMask args.toExec.style mask (r.1.map Prod.snd)⟩, wa || r.2))
          (.ok (⟨resultShape3 args.toExec, applyMaskNan args.toExec.style mask (r'.1.map Prod.fst),
            applyMask args.toExec.style mask (r'.1.map Prod.snd)⟩, wa || r'.2)) :=
      fun r r' h h' => ⟨nan_final3 hq (h.const hql.symm) _, by rw [h']⟩
    by_cases hb : args.toExec.backend = "vectorized"
    · rw [if_pos hb, if_pos hb]
      exact (t.execVector_rel hv lags stats a _ mask spec).bind fun r r' _ _ h => fin r r' h.1 h.2
    rw [if_neg hb, if_neg hb]
    by_cases hb' : args.toExec.backend = "loop"
    · rw [if_pos hb', if_pos hb']
      refine PyRel.bind (R := fun r r' => NanRel (fun _ => ∀ i, t.Z i ≠ none) (t.obj.queries pts) mask r.1 r'.1 ∧
        r'.2 = r.2) ?_ fun r r' _ _ h => fin r r' h.1 h.2
      unfold UK3D.execLoop NanUK3D.execLoop
      refine PyRel.same fun ai _ => ?_
      exact (NanRel.loopW (hlen.trans hql.symm) fun q _ => t.loopBody_eq hv lags stats ai spec q).bind
        fun l l' _ _ h => h
    · rw [if_neg hb', if_neg hb']; rfl
  unfold UK3D.execute NanUK3D.execute
  revert main
  cases (t.fill v lags stats).executeW args <;> cases t.executeW args <;> intro main
  · exact main
  · exact main.elim
  · exact main.elim
  · exact main.1

end exec

end
end PyKrige
