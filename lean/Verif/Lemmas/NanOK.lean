import Verif.Lemmas.Nan
import Verif.Lemmas.Query

/-! OrdinaryKriging: values that may be nan. -/

namespace PyKrige
noncomputable section
open Matrix Spec

/-- Optional statistics. -/
def OptStatsRel {n : ℕ} (y : Fin n → Option ℝ) : Option Stats → Option NanStats → Prop
  | none, none => True
  | some st, some st' => StatsRel y st st'
  | _, _ => False

/-- The object with numbers in place of the nans. -/
def NanOK.fill {n : ℕ} (t : NanOK n) (v : Fin n → ℝ) (lags : List (ℝ × ℝ)) (stats : Option Stats) : OK n :=
  t.obj.withZ v lags stats

theorem NanOK.create_rel {n : ℕ} (env : Env) (x y : Fin n → ℝ) (z : Fin n → Option ℝ) {v : Fin n → ℝ}
    (hv : Replaces v z) (args : OKArgs)
    (hg : ParamsGiven args.variogramModel args.params ∨ ∀ i, z i = some (v i)) :
    PyRel (fun s t => t.Z = z ∧ s = t.fill v s.lags s.stats ∧ OptStatsRel z s.stats t.stats ∧
        ((∀ i, z i = some (v i)) → t.obj.lags = s.lags))
      (OK.create env x y v args) (NanOK.create env x y z args) := by
  unfold OK.create NanOK.create
  by_cases hp : args.pseudoInvType ∈ ["pinv", "pinvh"]
  swap
  · rw [if_pos hp, if_pos hp]; rfl
  rw [if_neg (not_not.2 hp), if_neg (not_not.2 hp)]
  cases args.exactValues with
  | notBool => rfl
  | bool b =>
    dsimp only [py_pure, py_ok_bind]
    refine PyRel.same fun r h1 => ?_
    obtain ⟨name, model, fArg, pArg, scaling, angle⟩ := r
    refine PyRel.same fun r h2 => ?_
    obtain ⟨f, fname⟩ := r
    refine PyRel.same fun r h3 => ?_
    obtain ⟨xc, yc, scaling, angle, adj⟩ := r
    refine PyRel.same fun vp h4 => ?_
    refine (initializeVariogramModelNan_rel env adj z v name vp f args.nlags args.weight args.coordinatesType
      (hg.imp (fun hz => by
        obtain ⟨_, rfl⟩ := makeVariogramParameterList_some h4 (OK.resolveModel_given h1 hz)
        simp) id)).bind ?_
    rintro ⟨lags, ps⟩ ⟨lags', ps'⟩ - - ⟨rfl, h5⟩
    cases args.enableStatistics with
    | false =>
      exact ⟨rfl, rfl, trivial, fun h => congrArg Prod.fst (h5 h)⟩
    | true =>
      have := findStatisticsNan_rel adj z hv f ps' args.coordinatesType args.pseudoInv
      dsimp only at this ⊢
      revert this
      cases findStatistics adj v f ps' args.coordinatesType args.pseudoInv <;>
        cases findStatisticsNan adj z f ps' args.coordinatesType args.pseudoInv <;> intro this
      · exact this
      · exact this.elim
      · exact this.elim
      · exact ⟨rfl, rfl, this, fun h => congrArg Prod.fst (h5 h)⟩

theorem OK.execVector_length {n : ℕ} {s : OK n} {a : Matrix (Fin (n + 1)) (Fin (n + 1)) ℝ} {bd : List (Fin n → ℝ)}
    {l : List (ℝ × ℝ)} (h : s.execVector a bd = .ok l) : l.length = bd.length := by
  unfold OK.execVector at h
  obtain ⟨_, -, h⟩ := py_bind_eq_ok.1 h
  obtain ⟨_, -, h⟩ := py_bind_eq_ok.1 h
  rw [← Except.ok.inj h]
  simp

section exec
variable {n : ℕ} (t : NanOK n) {v : Fin n → ℝ} (hv : Replaces v t.Z) (lags : List (ℝ × ℝ)) (stats : Option Stats)
include hv

theorem NanOK.loopBody_eq (a : Matrix (Fin (n + 1)) (Fin (n + 1)) ℝ) (bd : Fin n → ℝ) :
    t.loopBody a bd = mark (∀ i, t.Z i ≠ none) <$> (t.fill v lags stats).loopBody a bd := by
  unfold NanOK.loopBody OK.loopBody
  simp only [nanDot_eq _ hv, map_bind]
  rfl

theorem NanOK.cLoopBody_eq (γ : ℝ → ℝ) (a : Matrix (Fin (n + 1)) (Fin (n + 1)) ℝ) (bd : Fin n → ℝ) :
    t.cLoopBody γ a bd = mark (∀ i, t.Z i ≠ none) ((t.fill v lags stats).cLoopBody γ a bd) := by
  unfold NanOK.cLoopBody OK.cLoopBody
  simp only [nanDot_eq _ hv]
  rfl

theorem NanOK.windowBody_eq (a : Matrix (Fin (n + 1)) (Fin (n + 1)) ℝ) (w : Window n) :
    t.windowBody a w = mark (∀ i, t.Z (w.sel.get i) ≠ none) <$> (t.fill v lags stats).windowBody a w := by
  unfold NanOK.windowBody OK.windowBody
  have hv' : Replaces (fun i => v (w.sel.get i)) (fun i => t.Z (w.sel.get i)) := fun i a h => hv _ _ h
  simp only [nanDot_eq _ hv', map_bind]
  rfl

theorem NanOK.cWindowBody_eq (γ : ℝ → ℝ) (a : Matrix (Fin (n + 1)) (Fin (n + 1)) ℝ) (w : Window n) :
    t.cWindowBody γ a w = mark (∀ i, t.Z (w.sel.get i) ≠ none) <$> (t.fill v lags stats).cWindowBody γ a w := by
  unfold NanOK.cWindowBody OK.cWindowBody
  have hv' : Replaces (fun i => v (w.sel.get i)) (fun i => t.Z (w.sel.get i)) := fun i a h => hv _ _ h
  simp only [nanDot_eq _ hv', map_bind]
  rfl

theorem NanOK.execVector_eq (a : Matrix (Fin (n + 1)) (Fin (n + 1)) ℝ) (bd : List (Fin n → ℝ)) :
    t.execVector a bd = (List.map (mark (∀ i, t.Z i ≠ none))) <$> (t.fill v lags stats).execVector a bd := by
  unfold NanOK.execVector OK.execVector
  simp only [nanDot_eq _ hv, map_bind, py_pure, py_map_ok, List.map_map]
  rfl

theorem NanOK.globalKrige_rel (a : Matrix (Fin (n + 1)) (Fin (n + 1)) ℝ) (qs : List (Fin 2 → ℝ)) (mask : List Bool)
    (hl : mask.length = qs.length) (backend : String) :
    PyRel (NanRel (fun _ => ∀ i, t.Z i ≠ none) qs mask) ((t.fill v lags stats).globalKrige a qs mask backend)
      (t.globalKrige a qs mask backend) := by
  unfold OK.globalKrige NanOK.globalKrige
  dsimp only
  split
  · rw [t.execVector_eq hv lags stats]
    exact PyRel.map fun l h => NanRel.mapMark (by rw [OK.execVector_length h, List.length_map])
  · split
    · unfold OK.execLoop NanOK.execLoop
      refine PyRel.same fun ai _ => ?_
      exact (NanRel.loop (P := fun _ => ∀ i, t.Z i ≠ none) (by rw [List.length_map, hl])
        fun q _ => t.loopBody_eq hv lags stats ai q).mono fun l l' _ _ h => NanRel.comp h
    · split
      · unfold OK.cExecLoop NanOK.cExecLoop
        refine PyRel.same fun γ _ => PyRel.same fun ai _ => ?_
        have := NanRel.loop (P := fun _ => ∀ i, t.Z i ≠ none) (mask := mask)
          (qs := qs.map fun q => t.obj.queryDist q)
          (f := fun q => .ok ((t.fill v lags stats).cLoopBody γ ai q)) (f' := fun q => .ok (t.cLoopBody γ ai q))
          (by rw [List.length_map, hl]) fun q _ => by rw [t.cLoopBody_eq hv lags stats]; rfl
        have e : ∀ {α β : Type} (l : List (α × Bool)) (d : β) (f : α → β),
            l.mapM (fun p => if p.2 then (pure d : Py β) else .ok (f p.1)) =
              .ok (l.map fun p => if p.2 then d else f p.1) := by
          intro α β l d f
          induction l with
          | nil => rfl
          | cons p l ih => rw [List.mapM_cons, ih]; obtain ⟨p, m⟩ := p; cases m <;> rfl
        rw [e, e] at this
        exact this.comp
      · rfl

/-- Whether the estimate at a query point is a number. -/
def NanOK.numberAt (env : Env) (nClosest : Option ℤ) (q : Fin 2 → ℝ) : Prop :=
  match nClosest with
  | none => ∀ i, t.Z i ≠ none
  | some k => ∀ i ∈ (t.obj.neighbours env k.toNat q).sel, t.Z i ≠ none

theorem NanOK.movingWindow_rel (env : Env) (a : Matrix (Fin (n + 1)) (Fin (n + 1)) ℝ) (qs : List (Fin 2 → ℝ))
    (mask : List Bool) (hl : mask.length = qs.length) (backend : String) {k : ℕ} (hk : k ≤ n) :
    PyRel (NanRel (fun q => ∀ i ∈ (t.obj.neighbours env k q).sel, t.Z i ≠ none) qs mask)
      ((t.fill v lags stats).movingWindow env a qs mask backend k)
      (t.movingWindow env a qs mask backend k) := by
  unfold OK.movingWindow NanOK.movingWindow
  rw [if_pos hk, if_pos hk]
  dsimp only
  have key : ∀ w : Window n, (∀ i, t.Z (w.sel.get i) ≠ none) ↔ ∀ i ∈ w.sel, t.Z i ≠ none := by
    intro w
    constructor
    · intro h i hi
      obtain ⟨j, rfl⟩ := List.get_of_mem hi
      exact h j
    · intro h i
      exact h _ (List.get_mem _ _)
  split
  · unfold OK.execLoopMovingWindow NanOK.execLoopMovingWindow
    exact (NanRel.loop (P := fun w : Window n => ∀ i ∈ w.sel, t.Z i ≠ none) (by rw [List.length_map, hl])
      fun w _ => by rw [t.windowBody_eq hv lags stats, key]).mono fun l l' _ _ h => NanRel.comp h
  · split
    · unfold OK.cExecLoopMovingWindow NanOK.cExecLoopMovingWindow
      refine PyRel.same fun γ _ => ?_
      exact (NanRel.loop (P := fun w : Window n => ∀ i ∈ w.sel, t.Z i ≠ none) (by rw [List.length_map, hl])
        fun w _ => by rw [t.cWindowBody_eq hv lags stats, key]).mono fun l l' _ _ h => NanRel.comp h
    · rfl

theorem NanOK.execute_rel (env : Env) (args : ExecArgs) (hw : WindowFits n args.nClosest) :
    PyRel (NanMatch (fun p => t.numberAt env args.nClosest (t.obj.queryPt p)) (queryAt args) (maskedAt args))
      ((t.fill v lags stats).execute env args) (t.execute env args) := by
  have fin : ∀ (P : (Fin 2 → ℝ) → Prop) pts mask l l', queryPoints args = .ok (pts, mask) →
      NanRel P (pts.map t.obj.queryPt) mask l l' →
      PyRel (NanMatch (fun p => P (t.obj.queryPt p)) (queryAt args) (maskedAt args))
        (.ok ⟨resultShape args, applyMask args.style mask (l.map Prod.fst), applyMask args.style mask (l.map Prod.snd)⟩)
        (.ok ⟨resultShape args, applyMaskNan args.style mask (l'.map Prod.fst),
          applyMask args.style mask (l'.map Prod.snd)⟩) := by
    intro P pts mask l l' hq h
    have h := h.comp
    have h1 := h.1
    have h2 := h.2.1
    have h3 := h.hide (queryPoints_length hq) (resultShape args) fun j hj => queryPoints_maskedAt hq hj
    rw [applyMask_eq_hide hq (l.map Prod.fst) (by simp [h1]), applyMask_eq_hide hq (l.map Prod.snd) (by simp [h1]),
      applyMaskNan_eq_hide hq (l'.map Prod.fst) (by simp [h2]), applyMask_eq_hide hq (l'.map Prod.snd) (by simp [h2])]
    have e5 : (fun j => pts[j]?) = queryAt args := funext fun j => queryPoints_getElem? hq j
    rw [e5] at h3
    exact h3
  unfold OK.execute NanOK.execute
  by_cases hs : args.style ∈ ["grid", "masked", "points"]
  swap
  · rw [if_pos hs, if_pos hs]; rfl
  rw [if_neg (not_not.2 hs), if_neg (not_not.2 hs)]
  cases hc : args.nClosest with
  | none =>
    dsimp only
    refine PyRel.same fun a _ => PyRel.same fun r hq => ?_
    obtain ⟨pts, mask⟩ := r
    refine PyRel.same fun qs ha => ?_
    rw [OK.adjustQuery_eq] at ha
    split at ha
    · cases ha
    obtain rfl := (Except.ok.inj ha).symm
    have hlen' : mask.length = (pts.map t.obj.queryPt).length := by rw [List.length_map, queryPoints_length hq]
    exact (t.globalKrige_rel hv lags stats a _ mask hlen' _).bind fun l l' _ _ h => fin _ pts mask l l' hq h
  | some k =>
    dsimp only
    by_cases hk : k ≤ 1
    · rw [if_pos hk, if_pos hk]; rfl
    rw [if_neg hk, if_neg hk]
    refine PyRel.same fun a _ => PyRel.same fun r hq => ?_
    obtain ⟨pts, mask⟩ := r
    refine PyRel.same fun qs ha => ?_
    rw [OK.adjustQuery_eq] at ha
    split at ha
    · cases ha
    obtain rfl := (Except.ok.inj ha).symm
    have hlen' : mask.length = (pts.map t.obj.queryPt).length := by rw [List.length_map, queryPoints_length hq]
    exact (t.movingWindow_rel hv lags stats env a _ mask hlen' _ (Int.toNat_le.2 (hw k hc))).bind
      fun l l' _ _ h => fin _ pts mask l l' hq h

end exec
end
end PyKrige
