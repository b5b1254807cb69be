import Verif.Lemmas.UKExec
import Verif.Lemmas.OK3DExec

/-! `UK3D.execute` in canonical form. -/

set_option linter.unusedSectionVars false
set_option linter.unusedSimpArgs false

namespace PyKrige
noncomputable section
open Matrix Spec

/-- Values of the drift terms at the data points, in the order of the rows of the system. -/
def UK3D.driftData {n : ℕ} (s : UK3D n) : List (Fin n → ℝ) :=
  (if s.regionalLinear then [s.X_ADJUSTED, s.Y_ADJUSTED, s.Z_ADJUSTED] else []) ++
  s.specified.getD [] ++
  (s.functional.getD []).map (fun g k => g (s.X_ADJUSTED k) (s.Y_ADJUSTED k) (s.Z_ADJUSTED k))

/-- Values of the drift terms at a query point; `sv` are the specified drifts there. -/
def UK3D.driftAt {n : ℕ} (s : UK3D n) (sv : List ℝ) (p : ℝ × ℝ × ℝ) : List ℝ :=
  (if s.regionalLinear then [s.adjustPoint p 0, s.adjustPoint p 1, s.adjustPoint p 2] else []) ++
  (match s.specified with | some _ => sv | none => []) ++
  (s.functional.getD []).map (fun g =>
    g (s.adjustPoint p 0) (s.adjustPoint p 1) (s.adjustPoint p 2))

theorem UK3D.driftData_length {n : ℕ} (s : UK3D n) : s.nWithDrifts = n + s.driftData.length := by
  unfold UK3D.nWithDrifts UK3D.driftData
  cases s.regionalLinear <;> cases s.specified <;>
    cases s.functional <;> simp <;> omega

/-- The number of specified values matches the number of specified drift terms. -/
def UK3D.SpecLen {n : ℕ} (s : UK3D n) (sv : List ℝ) : Prop :=
  ∀ l, s.specified = some l → sv.length = l.length

theorem UK3D.driftAt_length {n : ℕ} (s : UK3D n) {sv : List ℝ} (h : s.SpecLen sv)
    (p : ℝ × ℝ × ℝ) : (s.driftAt sv p).length = s.driftData.length := by
  unfold UK3D.driftAt UK3D.driftData
  cases hs : s.specified with
  | none => cases s.regionalLinear <;> simp
  | some l =>
    have := h l hs
    cases s.regionalLinear <;> simp [this]

/-- Distance between data points. -/
def UK3D.dataDist {n : ℕ} (s : UK3D n) (i j : Fin n) : ℝ := euclid (s.pts i) (s.pts j)

theorem UK3D.dataDist_comm {n : ℕ} (s : UK3D n) (i j : Fin n) : s.dataDist i j = s.dataDist j i :=
  euclid_comm _ _

/-- Distance from a query point to the data points. -/
def UK3D.queryDist {n : ℕ} (s : UK3D n) (p : ℝ × ℝ × ℝ) (i : Fin n) : ℝ :=
  euclid (s.adjustPoint p) (s.pts i)

theorem UK3D.queryDist_nonneg {n : ℕ} (s : UK3D n) (p : ℝ × ℝ × ℝ) (i : Fin n) :
    0 ≤ s.queryDist p i := euclid_nonneg _ _

/-- Semivariances between the data of an object with variogram `γ`. -/
def UK3D.G {n : ℕ} (s : UK3D n) (γ : ℝ → ℝ) : Fin n → Fin n → ℝ := semivar γ s.dataDist

/-- Semivariances between the data and a query point. -/
def UK3D.g {n : ℕ} (s : UK3D n) (γ : ℝ → ℝ) (p : ℝ × ℝ × ℝ) : Fin n → ℝ :=
  semivarTo s.exactValues γ (s.queryDist p)

/-- Drift functions at the data. -/
def UK3D.F {n : ℕ} (s : UK3D n) : Fin s.driftData.length → Fin n → ℝ := s.driftData.get

/-- Drift functions at the query point. -/
def UK3D.f {n : ℕ} (s : UK3D n) (sv : List ℝ) (p : ℝ × ℝ × ℝ) : Fin s.driftData.length → ℝ :=
  fun l => (s.driftAt sv p).getD l.val 0

/-- Estimate and variance at one query point. -/
def UK3D.answer {n : ℕ} (s : UK3D n) (γ : ℝ → ℝ) (sv : List ℝ) (p : ℝ × ℝ × ℝ) : ℝ × ℝ :=
  krigAnswer s.pseudoInv (s.G γ) s.F s.VALUES (s.g γ p) (s.f sv p)

theorem UK3D.pushDrifts_eq {n N : ℕ} (s : UK3D n) (st : Matrix (Fin N) (Fin N) ℝ × ℕ) :
    s.pushDrifts st = s.driftData.foldl pushDrift st := by
  unfold UK3D.driftData UK3D.pushDrifts
  cases s.regionalLinear <;> cases s.specified <;>
    cases s.functional <;> simp [List.foldl_append, List.foldl_map]

theorem UK3D.getKrigingMatrix_eq {n : ℕ} (s : UK3D n) : s.getKrigingMatrix =
    (do let γ ← s.variogramFunction s.params
        return (ukMatrix s.nWithDrifts γ s.dataDist s.driftData, false)) := by
  unfold UK3D.getKrigingMatrix
  cases s.variogramFunction s.params with
  | error e => rfl
  | ok γ =>
    simp only [py_ok_bind, py_pure, UK3D.pushDrifts_eq]
    congr 1
    refine Prod.ext rfl ?_
    rw [foldl_pushDrift_snd]
    simp [s.driftData_length]

/-- The query record of a point. -/
def UK3D.mkQuery {n : ℕ} (s : UK3D n) (p : ℝ × ℝ × ℝ) (j : ℕ) : UK3Query n :=
  ⟨j, zyx (s.adjustPoint p), s.queryDist p⟩

theorem UK3D.queries_eq {n : ℕ} (s : UK3D n) (pts : List (ℝ × ℝ × ℝ)) :
    s.queries pts = pts.zipIdx.map fun p => s.mkQuery p.1 p.2 := by
  unfold UK3D.queries UK3D.mkQuery UK3D.queryDist
  simp only [euclid_zyx]

theorem UK3D.pushRhsVector_eq {n N : ℕ} (s : UK3D n) (spec : List (List ℝ)) (p : ℝ × ℝ × ℝ)
    (j : ℕ) (st : (Fin N → ℝ) × ℕ) :
    s.pushRhsVector spec (s.mkQuery p j) st =
      (s.driftAt (specAt spec j) p).foldl pushRhs st := by
  unfold UK3D.driftAt specAt UK3D.pushRhsVector UK3D.mkQuery zyx
  cases s.regionalLinear <;> cases s.specified <;>
    cases s.functional <;> simp [List.foldl_append, List.foldl_map]

theorem UK3D.vectorRow_eq {n : ℕ} (s : UK3D n) (γ : ℝ → ℝ) (zeroValue : Prop)
    (spec : List (List ℝ)) (hspec : ∀ l, s.specified = some l → spec.length = l.length)
    (p : ℝ × ℝ × ℝ) (j : ℕ) :
    s.vectorRow γ zeroValue spec (s.mkQuery p j) =
      (@ukRhs n s.nWithDrifts s.exactValues γ zeroValue (Classical.propDecidable _) (s.queryDist p)
        (s.driftAt (specAt spec j) p), false) := by
  unfold UK3D.vectorRow
  dsimp only
  rw [UK3D.pushRhsVector_eq]
  refine Prod.ext ?_ ?_
  · simp only [ukRhs, UK3D.mkQuery]
    congr!
  · rw [foldl_pushRhs_snd]
    have : s.SpecLen (specAt spec j) := fun l hl => by simp [specAt, hspec l hl]
    simp [s.driftData_length, s.driftAt_length this]

/-- One row in both backends. -/
theorem UK3D.answer_eq {n : ℕ} (s : UK3D n) (γ : ℝ → ℝ) {sv : List ℝ} (hsv : s.SpecLen sv)
    (p : ℝ × ℝ × ℝ) (zeroValue : Prop) [Decidable (zeroValue ∧ s.exactValues = true)]
    (hz : (∃ i, |s.queryDist p i| ≤ eps) → zeroValue) :
    (∑ k : Fin n, (krigInv s.pseudoInv (ukMatrix s.nWithDrifts γ s.dataDist s.driftData) *ᵥ
        ukRhs n s.nWithDrifts s.exactValues γ zeroValue (s.queryDist p) (s.driftAt sv p))
          (k.castLE s.le_nWithDrifts) * s.VALUES k,
      ∑ k, (krigInv s.pseudoInv (ukMatrix s.nWithDrifts γ s.dataDist s.driftData) *ᵥ
        ukRhs n s.nWithDrifts s.exactValues γ zeroValue (s.queryDist p) (s.driftAt sv p)) k *
          -ukRhs n s.nWithDrifts s.exactValues γ zeroValue (s.queryDist p) (s.driftAt sv p) k) =
      s.answer γ sv p := by
  have hN : s.nWithDrifts + 1 = n + s.driftData.length + 1 := by rw [s.driftData_length]
  exact code_answer hN s.pseudoInv (ukMatrix_submatrix _ γ s.dataDist s.driftData hN)
    (ukRhs_comp s.exactValues γ zeroValue (s.queryDist p) (s.driftAt sv p)
      (s.queryDist_nonneg p) hz (s.driftAt_length hsv p) hN) s.VALUES

open Classical in
theorem UK3D.invert_eq {n : ℕ} (s : UK3D n) (γ : ℝ → ℝ) (ht : s.pseudoInvType ∈ ["pinv", "pinvh"]) :
    invertPython s.pseudoInv s.pseudoInvType (ukMatrix s.nWithDrifts γ s.dataDist s.driftData) =
      if Solvable s.pseudoInv (s.G γ) s.F then
        .ok (krigInv s.pseudoInv (ukMatrix s.nWithDrifts γ s.dataDist s.driftData))
      else .error .linAlgError := by
  have hN : s.nWithDrifts + 1 = n + s.driftData.length + 1 := by rw [s.driftData_length]
  exact invertPython_eq hN (semivar_comm s.dataDist_comm)
    (ukMatrix_submatrix _ γ s.dataDist s.driftData hN) _ _ ht

/-- The values computed by the vectorized backend. -/
def UK3D.vectorItems {n : ℕ} (s : UK3D n) (γ : ℝ → ℝ) (pts : List (ℝ × ℝ × ℝ))
    (spec : List (List ℝ)) : List (ℝ × ℝ) :=
  pts.zipIdx.map fun p => s.answer γ (specAt spec p.2) p.1

open Classical in
theorem UK3D.vector_eq {n : ℕ} (s : UK3D n) (γ : ℝ → ℝ) (hγ : s.variogramFunction s.params = .ok γ)
    (ht : s.pseudoInvType ∈ ["pinv", "pinvh"]) (pts : List (ℝ × ℝ × ℝ)) (spec : List (List ℝ))
    (hspec : ∀ l, s.specified = some l → spec.length = l.length) :
    s.execVector (ukMatrix s.nWithDrifts γ s.dataDist s.driftData) (s.queries pts) spec =
      if Solvable s.pseudoInv (s.G γ) s.F then .ok (s.vectorItems γ pts spec, false)
      else .error .linAlgError := by
  unfold UK3D.execVector UK3D.vectorItems
  rw [UK3D.invert_eq s γ ht]
  split
  · rw [py_ok_bind, hγ, py_ok_bind, py_pure]
    rw [UK3D.queries_eq, List.map_map, List.map_map]
    congr 1
    refine Prod.ext ?_ ?_
    · dsimp only
      refine List.map_congr_left fun p hp => ?_
      dsimp only [Function.comp]
      rw [UK3D.vectorRow_eq s γ _ spec hspec p.1 p.2]
      refine @UK3D.answer_eq n s γ _ (fun l hl => by simp [specAt, hspec l hl]) p.1 _
        (Classical.propDecidable _) ?_
      rintro ⟨i, hi⟩
      exact ⟨_, List.mem_map.2 ⟨p, hp, rfl⟩, i, hi⟩
    · dsimp only
      rw [List.any_eq_false]
      intro b hb
      obtain ⟨q, hq, rfl⟩ := List.mem_map.1 hb
      obtain ⟨p, hp, rfl⟩ := List.mem_map.1 hq
      rw [UK3D.vectorRow_eq s γ _ spec hspec p.1 p.2]
      simp
  · rfl

/-- Row number of the first specified drift term. -/
def UK3D.specStart {n : ℕ} (s : UK3D n) : ℕ := n + (if s.regionalLinear then 3 else 0)

/-- The specified drift values the `loop` backend uses (at every point). -/
def UK3D.loopSpec {n : ℕ} (s : UK3D n) (spec : List (List ℝ)) : Py (List ℝ) :=
  match s.specified with
  | some _ => (spec.zipIdx s.specStart).mapM fun v => pyGet v.1 v.2
  | none => .ok []

/-- One point of the `loop` backend. -/
def UK3D.loopPoint {n : ℕ} (s : UK3D n) (γ : ℝ → ℝ) (spec : List (List ℝ)) (p : ℝ × ℝ × ℝ) :
    Py (ℝ × ℝ) := do
  let sv ← s.loopSpec spec
  return s.answer γ sv p

theorem UK3D.loopSpec_len {n : ℕ} (s : UK3D n) {spec : List (List ℝ)} {sv : List ℝ}
    (hspec : ∀ l, s.specified = some l → spec.length = l.length) (h : s.loopSpec spec = .ok sv) :
    s.SpecLen sv := by
  intro l hl
  unfold UK3D.loopSpec at h
  rw [hl] at h
  dsimp only at h
  rw [py_mapM_eq_ok] at h
  have := h.length_eq
  rw [List.length_zipIdx] at this
  rw [← this, hspec l hl]

theorem UK3D.pushRhsLoop_eq {n N : ℕ} (s : UK3D n) (spec : List (List ℝ)) (p : ℝ × ℝ × ℝ) (j : ℕ)
    (b : Fin N → ℝ) :
    s.pushRhsLoop spec (s.mkQuery p j) (b, n) =
      (do let sv ← s.loopSpec spec
          return (s.driftAt sv p).foldl pushRhs (b, n)) := by
  unfold UK3D.pushRhsLoop UK3D.loopSpec UK3D.specStart UK3D.driftAt UK3D.mkQuery zyx
  cases hr : s.regionalLinear <;> cases hsp : s.specified <;>
      cases hf : s.functional <;>
      simp [List.foldl_append, List.foldl_map, foldlM_pyGet', pushRhs_snd]

theorem UK3D.loopBody_eq {n : ℕ} (s : UK3D n) (γ : ℝ → ℝ) (hγ : s.variogramFunction s.params = .ok γ)
    (spec : List (List ℝ)) (hspec : ∀ l, s.specified = some l → spec.length = l.length)
    (p : ℝ × ℝ × ℝ) (j : ℕ) :
    s.loopBody (krigInv s.pseudoInv (ukMatrix s.nWithDrifts γ s.dataDist s.driftData)) spec
        (s.mkQuery p j) =
      (do let a ← s.loopPoint γ spec p; return (a, false)) := by
  unfold UK3D.loopBody UK3D.loopPoint
  rw [hγ, py_ok_bind]
  dsimp only
  rw [UK3D.pushRhsLoop_eq]
  cases hsv : s.loopSpec spec with
  | error e => rfl
  | ok sv =>
    simp only [py_ok_bind, py_pure]
    have hlen := s.loopSpec_len hspec hsv
    congr 1
    refine Prod.ext ?_ ?_
    · exact UK3D.answer_eq s γ hlen p (∃ k, |s.queryDist p k| ≤ eps) id
    · dsimp only
      rw [foldl_pushRhs_snd]
      simp [s.driftData_length, s.driftAt_length hlen]

def UK3D.loopItems {n : ℕ} (s : UK3D n) (γ : ℝ → ℝ) (pts : List (ℝ × ℝ × ℝ)) (mask : List Bool)
    (spec : List (List ℝ)) : Py (List (ℝ × ℝ)) :=
  (pts.zip mask).mapM fun p => if p.2 then pure (0, 0) else s.loopPoint γ spec p.1

open Classical in
theorem UK3D.loop_eq {n : ℕ} (s : UK3D n) (γ : ℝ → ℝ) (hγ : s.variogramFunction s.params = .ok γ)
    (ht : s.pseudoInvType ∈ ["pinv", "pinvh"]) (pts : List (ℝ × ℝ × ℝ)) (mask : List Bool)
    (spec : List (List ℝ)) (hspec : ∀ l, s.specified = some l → spec.length = l.length) :
    s.execLoop (ukMatrix s.nWithDrifts γ s.dataDist s.driftData) (s.queries pts) mask spec =
      if Solvable s.pseudoInv (s.G γ) s.F then do
        let l ← s.loopItems γ pts mask spec
        return (l, false)
      else .error .linAlgError := by
  unfold UK3D.execLoop UK3D.loopItems
  rw [UK3D.invert_eq s γ ht]
  split
  · rw [py_ok_bind]
    have h1 : ((s.queries pts).zip mask).mapM (fun p =>
        if p.2 then (pure ((0, 0), false) : Py ((ℝ × ℝ) × Bool))
        else s.loopBody (krigInv s.pseudoInv (ukMatrix s.nWithDrifts γ s.dataDist s.driftData)) spec p.1) =
        ((pts.zip mask).mapM fun p => do
          let a ← (if p.2 then pure (0, 0) else s.loopPoint γ spec p.1 : Py (ℝ × ℝ))
          Except.ok (a, false)) := by
      rw [UK3D.queries_eq, List.zip_map_left, List.mapM_map, ← zipIdx_zip_map pts mask 0,
        List.mapM_map]
      refine py_mapM_congr fun q _ => ?_
      rcases q with ⟨⟨p, j⟩, m⟩
      cases m
      · exact UK3D.loopBody_eq s γ hγ spec hspec p j
      · rfl
    rw [h1, py_mapM_bind_pure]
    cases (pts.zip mask).mapM fun p =>
      (if p.2 then pure (0, 0) else s.loopPoint γ spec p.1 : Py (ℝ × ℝ)) with
    | error e => rfl
    | ok l =>
      simp [Function.comp_def]
  · rfl

open Classical in
/-- The values computed by `execute` before masking. -/
def UK3D.items {n : ℕ} (s : UK3D n) (backend : String) (γ : ℝ → ℝ) (pts : List (ℝ × ℝ × ℝ))
    (mask : List Bool) (spec : List (List ℝ)) : Py (List (ℝ × ℝ)) :=
  if backend = "vectorized" then
    if Solvable s.pseudoInv (s.G γ) s.F then .ok (s.vectorItems γ pts spec) else .error .linAlgError
  else if backend = "loop" then
    if Solvable s.pseudoInv (s.G γ) s.F then s.loopItems γ pts mask spec else .error .linAlgError
  else .error .valueError

theorem UK3D.vectorItems_get {n : ℕ} {s : UK3D n} {γ : ℝ → ℝ} {pts : List (ℝ × ℝ × ℝ)}
    {spec : List (List ℝ)} :
    (s.vectorItems γ pts spec).length = pts.length ∧ ∀ (k : ℕ) p, pts[k]? = some p →
      (s.vectorItems γ pts spec)[k]? = some (s.answer γ (specAt spec k) p) := by
  unfold UK3D.vectorItems
  refine ⟨by simp, fun k p hk => ?_⟩
  simp [hk]

theorem UK3D.loopItems_ok {n : ℕ} {s : UK3D n} {γ : ℝ → ℝ} {pts : List (ℝ × ℝ × ℝ)} {mask : List Bool}
    (hm : mask.length = pts.length)
    {spec : List (List ℝ)} {items : List (ℝ × ℝ)} (h : s.loopItems γ pts mask spec = .ok items) :
    items.length = pts.length ∧ ∀ (k : ℕ) p, pts[k]? = some p → mask[k]? = some false →
      ∃ sv, s.loopSpec spec = .ok sv ∧ items[k]? = some (s.answer γ sv p) := by
  unfold UK3D.loopItems at h
  rw [py_mapM_eq_ok] at h
  have hl := h.length_eq
  simp only [List.length_zip, hm, min_self] at hl
  refine ⟨hl.symm, fun k p hk hmk => ?_⟩
  obtain ⟨hk1, rfl⟩ := List.getElem?_eq_some_iff.1 hk
  obtain ⟨hk2, hmk⟩ := List.getElem?_eq_some_iff.1 hmk
  have h3 := (List.forall₂_iff_get.1 h).2 k (by simp; omega) (by omega)
  simp only [List.get_eq_getElem, List.getElem_zip, hmk, Bool.false_eq_true, if_false] at h3
  unfold UK3D.loopPoint at h3
  obtain ⟨sv, hsv, h3⟩ := py_bind_eq_ok.1 h3
  refine ⟨sv, hsv, ?_⟩
  rw [List.getElem?_eq_getElem (by omega)]
  simp only [py_pure, Except.ok.injEq] at h3
  rw [h3]

theorem UK3D.specGrids_len {n : ℕ} {s : UK3D n} {args : UK3DExecArgs} {spec : List (List ℝ)}
    (h : s.specGrids args = .ok spec) : ∀ l, s.specified = some l → spec.length = l.length := by
  intro l hl
  unfold UK3D.specGrids at h
  rw [hl] at h
  dsimp only at h
  split at h
  · simp at h
  · simp at h
  · simp at h
  · obtain ⟨g, hg, h⟩ := py_bind_eq_ok.1 h
    split at h
    · simp at h
    · next hne =>
      simp only [py_pure, Except.ok.injEq] at h
      subst h
      exact not_not.1 hne

theorem applyMask_len3 {args : ExecArgs3} {pts mask} (h : queryPoints3 args = .ok (pts, mask))
    (items : List (ℝ × ℝ)) (hl : items.length = pts.length) :
    ({ shape := resultShape3 args
       z := applyMask args.style mask (items.map Prod.fst)
       ss := applyMask args.style mask (items.map Prod.snd) } : ExecResult) =
      ⟨resultShape3 args, hide mask (items.map Prod.fst), hide mask (items.map Prod.snd)⟩ := by
  rw [applyMask_eq_hide3 h _ (by simpa using hl), applyMask_eq_hide3 h _ (by simpa using hl)]

theorem UK3D.items_length {n : ℕ} {s : UK3D n} {b : String} {γ : ℝ → ℝ} {pts : List (ℝ × ℝ × ℝ)}
    {mask : List Bool} (hm : mask.length = pts.length) {spec : List (List ℝ)}
    {items : List (ℝ × ℝ)} (h : s.items b γ pts mask spec = .ok items) :
    items.length = pts.length := by
  unfold UK3D.items at h
  split at h
  · split at h
    · simp only [Except.ok.injEq] at h
      rw [← h]
      exact UK3D.vectorItems_get.1
    · simp at h
  · split at h
    · split at h
      · exact (UK3D.loopItems_ok hm h).1
      · simp at h
    · simp at h

/-- Canonical form of `execute`; in particular no warning is ever issued. -/
theorem UK3D.executeW_eq {n : ℕ} (s : UK3D n) (ht : s.pseudoInvType ∈ ["pinv", "pinvh"])
    (args : UK3DExecArgs) (hstyle : args.toExec.style ∈ ["grid", "masked", "points"]) :
    s.executeW args = (do
      let γ ← s.variogramFunction s.params
      let (pts, mask) ← queryPoints3 args.toExec
      let spec ← s.specGrids args
      if args.toExec.xpoints.isInt && args.toExec.ypoints.isInt && args.toExec.zpoints.isInt then
        throw .castingError
      let items ← s.items args.toExec.backend γ pts mask spec
      return (⟨resultShape3 args.toExec, hide mask (items.map Prod.fst),
        hide mask (items.map Prod.snd)⟩, false)) := by
  unfold UK3D.executeW
  rw [if_neg (not_not.2 hstyle), UK3D.getKrigingMatrix_eq]
  simp only [py_pure, py_ok_bind]
  cases hγ : s.variogramFunction s.params with
  | error e => simp
  | ok γ =>
    simp only [py_ok_bind]
    cases hq : queryPoints3 args.toExec with
    | error e => simp
    | ok pm =>
      obtain ⟨pts, mask⟩ := pm
      simp only [py_ok_bind]
      cases hspec : s.specGrids args with
      | error e => simp
      | ok spec =>
        simp only [py_ok_bind]
        split
        · rfl
        · by_cases hv : args.toExec.backend = "vectorized"
          · rw [if_pos hv, UK3D.vector_eq s γ hγ ht pts spec (UK3D.specGrids_len hspec)]
            unfold UK3D.items
            rw [if_pos hv]
            split
            · simp only [py_ok_bind, py_pure]
              rw [applyMask_len3 hq _ UK3D.vectorItems_get.1]
              rfl
            · rfl
          · by_cases hl : args.toExec.backend = "loop"
            · rw [if_neg hv, if_pos hl, UK3D.loop_eq s γ hγ ht pts mask spec (UK3D.specGrids_len hspec)]
              unfold UK3D.items
              rw [if_neg hv, if_pos hl]
              split
              · cases hi : s.loopItems γ pts mask spec with
                | error e => rfl
                | ok items =>
                  simp only [py_ok_bind, py_pure]
                  rw [applyMask_len3 hq items (UK3D.loopItems_ok (queryPoints3_spec hq).1 hi).1]
                  rfl
              · rfl
            · unfold UK3D.items
              rw [if_neg hv, if_neg hl, if_neg hv, if_neg hl]
              rfl

theorem UK3D.execute_bad_style {n : ℕ} (s : UK3D n) (args : UK3DExecArgs)
    (hstyle : args.toExec.style ∉ ["grid", "masked", "points"]) :
    s.execute args = .error .valueError := by
  unfold UK3D.execute UK3D.executeW
  rw [if_pos hstyle]
  rfl

/-- What the drift values at the `k`-th query point are in a successful call. -/
def UK3D.DriftValues {n : ℕ} (s : UK3D n) (backend : String) (spec : List (List ℝ)) (k : ℕ)
    (sv : List ℝ) : Prop :=
  (backend = "vectorized" ∧ sv = specAt spec k) ∨ (backend = "loop" ∧ s.loopSpec spec = .ok sv)

/-- Everything a successful call tells. -/
theorem UK3D.execute_ok {n : ℕ} {s : UK3D n} (ht : s.pseudoInvType ∈ ["pinv", "pinvh"])
    {args : UK3DExecArgs} {r : ExecResult} (h : s.execute args = .ok r) :
    ∃ γ pts mask spec, ∃ items : List (ℝ × ℝ), args.toExec.style ∈ ["grid", "masked", "points"] ∧
      s.variogramFunction s.params = .ok γ ∧ queryPoints3 args.toExec = .ok (pts, mask) ∧
      s.specGrids args = .ok spec ∧
      ¬ (args.toExec.xpoints.isInt = true ∧ args.toExec.ypoints.isInt = true ∧
        args.toExec.zpoints.isInt = true) ∧
      Solvable s.pseudoInv (s.G γ) s.F ∧ items.length = pts.length ∧
      r = ⟨resultShape3 args.toExec, hide mask (items.map Prod.fst), hide mask (items.map Prod.snd)⟩ ∧
      ∀ (k : ℕ) p, pts[k]? = some p → mask[k]? = some false → ∃ sv,
        s.DriftValues args.toExec.backend spec k sv ∧ s.SpecLen sv ∧
        items[k]? = some (s.answer γ sv p) := by
  by_cases hstyle : args.toExec.style ∈ ["grid", "masked", "points"]
  swap
  · rw [UK3D.execute_bad_style s args hstyle] at h; simp at h
  unfold UK3D.execute at h
  rw [UK3D.executeW_eq s ht args hstyle] at h
  rw [py_map_eq_ok] at h
  obtain ⟨⟨r', fl⟩, h, rfl⟩ := h
  simp only [py_bind_eq_ok, Prod.exists] at h
  obtain ⟨γ, hγ, pts, mask, hq, spec, hspec, h⟩ := h
  split at h
  · simp at h
  · next hc =>
    obtain ⟨items, hi, h⟩ := py_bind_eq_ok.1 h
    simp only [py_pure, Except.ok.injEq, Prod.mk.injEq] at h
    have hlen := UK3D.items_length (queryPoints3_spec hq).1 hi
    have hc' : ¬ (args.toExec.xpoints.isInt = true ∧ args.toExec.ypoints.isInt = true ∧
        args.toExec.zpoints.isInt = true) := by simpa [and_assoc] using hc
    unfold UK3D.items at hi
    split at hi
    · next hv =>
      split at hi
      · next hsol =>
        simp only [Except.ok.injEq] at hi
        subst hi
        refine ⟨γ, pts, mask, spec, _, hstyle, hγ, hq, hspec, hc', hsol, hlen, h.1.symm, ?_⟩
        intro k p hk hmk
        refine ⟨_, Or.inl ⟨hv, rfl⟩, ?_, UK3D.vectorItems_get.2 k p hk⟩
        intro l hl
        simp [specAt, UK3D.specGrids_len hspec l hl]
      · simp at hi
    · split at hi
      · next hb =>
        split at hi
        · next hsol =>
          refine ⟨γ, pts, mask, spec, items, hstyle, hγ, hq, hspec, hc', hsol, hlen, h.1.symm, ?_⟩
          intro k p hk hmk
          obtain ⟨sv, hsv, hk⟩ := (UK3D.loopItems_ok (queryPoints3_spec hq).1 hi).2 k p hk hmk
          exact ⟨sv, Or.inr ⟨hb, hsv⟩, s.loopSpec_len (UK3D.specGrids_len hspec) hsv, hk⟩
        · simp at hi
      · simp at hi

end
end PyKrige
