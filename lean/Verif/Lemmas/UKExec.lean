import Verif.Lemmas.UKMat

/-! `UK.execute` in canonical form. -/

set_option linter.unusedSectionVars false
set_option linter.unusedSimpArgs false

namespace PyKrige
noncomputable section
open Matrix Spec

/-! ### drift terms -/

/-- Values of the drift terms at the data points, in the order of the rows of the system. -/
def UK.driftData {n : ℕ} (s : UK n) : List (Fin n → ℝ) :=
  (if s.regionalLinear then [s.X_ADJUSTED, s.Y_ADJUSTED] else []) ++
  (s.pointLog.getD []).map (fun w k =>
    -w.2.2 * logDist (s.X_ADJUSTED k) (s.Y_ADJUSTED k) w.1 w.2.1) ++
  (match s.externalZ with | some e => [e.2] | none => []) ++
  s.specified.getD [] ++
  (s.functional.getD []).map (fun g k => g (s.X_ADJUSTED k) (s.Y_ADJUSTED k))

/-- Values of the drift terms at a query point; `sv` are the specified drifts, `zext` is the external
drift there. -/
def UK.driftAt {n : ℕ} (s : UK n) (sv : List ℝ) (zext : ℝ) (p : ℝ × ℝ) : List ℝ :=
  (if s.regionalLinear then [s.adjustPoint p 0, s.adjustPoint p 1] else []) ++
  (s.pointLog.getD []).map (fun w =>
    -w.2.2 * logDist (s.adjustPoint p 0) (s.adjustPoint p 1) w.1 w.2.1) ++
  (match s.externalZ with | some _ => [zext] | none => []) ++
  (match s.specified with | some _ => sv | none => []) ++
  (s.functional.getD []).map (fun g => g (s.adjustPoint p 0) (s.adjustPoint p 1))

theorem UK.driftData_length {n : ℕ} (s : UK n) : s.nWithDrifts = n + s.driftData.length := by
  unfold UK.nWithDrifts UK.driftData
  cases s.regionalLinear <;> cases s.pointLog <;> cases s.externalZ <;> cases s.specified <;>
    cases s.functional <;> simp <;> omega

/-- The number of specified values matches the number of specified drift terms. -/
def UK.SpecLen {n : ℕ} (s : UK n) (sv : List ℝ) : Prop :=
  ∀ l, s.specified = some l → sv.length = l.length

theorem UK.driftAt_length {n : ℕ} (s : UK n) {sv : List ℝ} (h : s.SpecLen sv) (zext : ℝ)
    (p : ℝ × ℝ) : (s.driftAt sv zext p).length = s.driftData.length := by
  unfold UK.driftAt UK.driftData
  cases hs : s.specified with
  | none => cases s.regionalLinear <;> cases s.externalZ <;> simp
  | some l =>
    have := h l hs
    cases s.regionalLinear <;> cases s.externalZ <;> simp [this]

/-- Distance between data points. -/
def UK.dataDist {n : ℕ} (s : UK n) (i j : Fin n) : ℝ := euclid (s.pts i) (s.pts j)

theorem UK.dataDist_comm {n : ℕ} (s : UK n) (i j : Fin n) : s.dataDist i j = s.dataDist j i :=
  euclid_comm _ _

/-- Distance from a query point to the data points. -/
def UK.queryDist {n : ℕ} (s : UK n) (p : ℝ × ℝ) (i : Fin n) : ℝ :=
  euclid (s.adjustPoint p) (s.pts i)

theorem UK.queryDist_nonneg {n : ℕ} (s : UK n) (p : ℝ × ℝ) (i : Fin n) :
    0 ≤ s.queryDist p i := euclid_nonneg _ _

/-- Semivariances between the data of an object with variogram `γ`. -/
def UK.G {n : ℕ} (s : UK n) (γ : ℝ → ℝ) : Fin n → Fin n → ℝ := semivar γ s.dataDist

/-- Semivariances between the data and a query point. -/
def UK.g {n : ℕ} (s : UK n) (γ : ℝ → ℝ) (p : ℝ × ℝ) : Fin n → ℝ :=
  semivarTo s.exactValues γ (s.queryDist p)

/-- Drift functions at the data. -/
def UK.F {n : ℕ} (s : UK n) : Fin s.driftData.length → Fin n → ℝ := s.driftData.get

/-- Drift functions at the query point. -/
def UK.f {n : ℕ} (s : UK n) (sv : List ℝ) (zext : ℝ) (p : ℝ × ℝ) : Fin s.driftData.length → ℝ :=
  fun l => (s.driftAt sv zext p).getD l.val 0

/-- Estimate and variance at one query point. -/
def UK.answer {n : ℕ} (s : UK n) (γ : ℝ → ℝ) (sv : List ℝ) (zext : ℝ) (p : ℝ × ℝ) : ℝ × ℝ :=
  krigAnswer s.pseudoInv (s.G γ) s.F s.Z (s.g γ p) (s.f sv zext p)

theorem UK.pushDrifts_eq {n N : ℕ} (s : UK n) (st : Matrix (Fin N) (Fin N) ℝ × ℕ) :
    s.pushDrifts st = s.driftData.foldl pushDrift st := by
  unfold UK.driftData UK.pushDrifts
  cases s.regionalLinear <;> cases s.pointLog <;> cases s.externalZ <;> cases s.specified <;>
    cases s.functional <;> simp [List.foldl_append, List.foldl_map]

theorem UK.getKrigingMatrix_eq {n : ℕ} (s : UK n) : s.getKrigingMatrix =
    (do let γ ← s.variogramFunction s.params
        return (ukMatrix s.nWithDrifts γ s.dataDist s.driftData, false)) := by
  unfold UK.getKrigingMatrix
  cases s.variogramFunction s.params with
  | error e => rfl
  | ok γ =>
    simp only [py_ok_bind, py_pure, UK.pushDrifts_eq]
    congr 1
    refine Prod.ext rfl ?_
    rw [foldl_pushDrift_snd]
    simp [s.driftData_length]

/-- The specified drift values at point `j`. -/
def specAt (spec : List (List ℝ)) (j : ℕ) : List ℝ := spec.map fun vals => vals.getD j 0

theorem UK.pushRhsVector_eq {n N : ℕ} (s : UK n) (spec : List (List ℝ)) (zext : ℝ) (p : ℝ × ℝ)
    (j : ℕ) (st : (Fin N → ℝ) × ℕ) :
    s.pushRhsVector spec zext ⟨j, p.1, p.2, s.adjustPoint p, s.queryDist p⟩ st =
      (s.driftAt (specAt spec j) zext p).foldl pushRhs st := by
  unfold UK.driftAt specAt UK.pushRhsVector
  cases s.regionalLinear <;> cases s.pointLog <;> cases s.externalZ <;> cases s.specified <;>
    cases s.functional <;> simp [List.foldl_append, List.foldl_map]

theorem UK.vectorRow_eq {n : ℕ} (s : UK n) (γ : ℝ → ℝ) (zeroValue : Prop) (spec : List (List ℝ))
    (hspec : ∀ l, s.specified = some l → spec.length = l.length) (zext : ℝ) (p : ℝ × ℝ) (j : ℕ) :
    s.vectorRow γ zeroValue spec zext ⟨j, p.1, p.2, s.adjustPoint p, s.queryDist p⟩ =
      (@ukRhs n s.nWithDrifts s.exactValues γ zeroValue (Classical.propDecidable _) (s.queryDist p)
        (s.driftAt (specAt spec j) zext p), false) := by
  unfold UK.vectorRow
  dsimp only
  rw [UK.pushRhsVector_eq]
  refine Prod.ext ?_ ?_
  · simp only [ukRhs]
    congr!
  · rw [foldl_pushRhs_snd]
    have : s.SpecLen (specAt spec j) := fun l hl => by simp [specAt, hspec l hl]
    simp [s.driftData_length, s.driftAt_length this]

/-- One row in both backends. -/
theorem UK.answer_eq {n : ℕ} (s : UK n) (γ : ℝ → ℝ) {sv : List ℝ} (hsv : s.SpecLen sv) (zext : ℝ)
    (p : ℝ × ℝ) (zeroValue : Prop) [Decidable (zeroValue ∧ s.exactValues = true)]
    (hz : (∃ i, |s.queryDist p i| ≤ eps) → zeroValue) :
    (∑ k : Fin n, (krigInv s.pseudoInv (ukMatrix s.nWithDrifts γ s.dataDist s.driftData) *ᵥ
        ukRhs n s.nWithDrifts s.exactValues γ zeroValue (s.queryDist p) (s.driftAt sv zext p))
          (k.castLE s.le_nWithDrifts) * s.Z k,
      ∑ k, (krigInv s.pseudoInv (ukMatrix s.nWithDrifts γ s.dataDist s.driftData) *ᵥ
        ukRhs n s.nWithDrifts s.exactValues γ zeroValue (s.queryDist p) (s.driftAt sv zext p)) k *
          -ukRhs n s.nWithDrifts s.exactValues γ zeroValue (s.queryDist p) (s.driftAt sv zext p) k) =
      s.answer γ sv zext p := by
  have hN : s.nWithDrifts + 1 = n + s.driftData.length + 1 := by rw [s.driftData_length]
  exact code_answer hN s.pseudoInv (ukMatrix_submatrix _ γ s.dataDist s.driftData hN)
    (ukRhs_comp s.exactValues γ zeroValue (s.queryDist p) (s.driftAt sv zext p)
      (s.queryDist_nonneg p) hz (s.driftAt_length hsv zext p) hN) s.Z

/-- External drift value at a point. -/
def UK.extP {n : ℕ} (s : UK n) (p : ℝ × ℝ) : Py ℝ :=
  match s.externalZ with
  | some e => e.1.zScalar p.1 p.2
  | none => .ok 0

open Classical in
theorem UK.invert_eq {n : ℕ} (s : UK n) (γ : ℝ → ℝ) (ht : s.pseudoInvType ∈ ["pinv", "pinvh"]) :
    invertPython s.pseudoInv s.pseudoInvType (ukMatrix s.nWithDrifts γ s.dataDist s.driftData) =
      if Solvable s.pseudoInv (s.G γ) s.F then
        .ok (krigInv s.pseudoInv (ukMatrix s.nWithDrifts γ s.dataDist s.driftData))
      else .error .linAlgError := by
  have hN : s.nWithDrifts + 1 = n + s.driftData.length + 1 := by rw [s.driftData_length]
  exact invertPython_eq hN (semivar_comm s.dataDist_comm)
    (ukMatrix_submatrix _ γ s.dataDist s.driftData hN) _ _ ht

theorem UK.queries_eq {n : ℕ} (s : UK n) (pts : List (ℝ × ℝ)) :
    s.queries pts = pts.zipIdx.map fun p =>
      ⟨p.2, p.1.1, p.1.2, s.adjustPoint p.1, s.queryDist p.1⟩ := rfl

open Classical in
theorem UK.vector_eq {n : ℕ} (s : UK n) (γ : ℝ → ℝ) (hγ : s.variogramFunction s.params = .ok γ)
    (ht : s.pseudoInvType ∈ ["pinv", "pinvh"]) (pts : List (ℝ × ℝ)) (spec : List (List ℝ))
    (hspec : ∀ l, s.specified = some l → spec.length = l.length) :
    s.execVector (ukMatrix s.nWithDrifts γ s.dataDist s.driftData) (s.queries pts) spec =
      if Solvable s.pseudoInv (s.G γ) s.F then do
        let exts ← pts.mapM s.extP
        return (List.zipWith (fun p z => s.answer γ (specAt spec p.2) z p.1) pts.zipIdx exts, false)
      else .error .linAlgError := by
  unfold UK.execVector
  rw [UK.invert_eq s γ ht]
  split
  · rw [py_ok_bind, hγ, py_ok_bind]
    have hm : (s.queries pts).mapM s.extAt = pts.mapM s.extP := by
      have h1 : (s.queries pts).mapM s.extAt =
          ((s.queries pts).map fun q => (q.xo, q.yo)).mapM s.extP := by
        rw [List.mapM_map]; rfl
      rw [h1]
      congr 1
      rw [UK.queries_eq, List.map_map]
      have : ((fun q : UKQuery n => (q.xo, q.yo)) ∘ fun p : (ℝ × ℝ) × ℕ =>
          (⟨p.2, p.1.1, p.1.2, s.adjustPoint p.1, s.queryDist p.1⟩ : UKQuery n)) = Prod.fst := by
        funext p; rfl
      rw [this, List.zipIdx_map_fst]
    rw [hm]
    cases pts.mapM s.extP with
    | error e => rfl
    | ok exts =>
      simp only [py_ok_bind, py_pure, UK.queries_eq, List.zipWith_map_left, List.map_zipWith]
      congr 1
      refine Prod.ext ?_ ?_
      · dsimp only
        have hmem : ∀ (l : List ((ℝ × ℝ) × ℕ)) (e : List ℝ), (∀ p ∈ l, p ∈ pts.zipIdx) →
            List.zipWith (fun (a : (ℝ × ℝ) × ℕ) (b : ℝ) =>
              (∑ k : Fin n, (krigInv s.pseudoInv (ukMatrix s.nWithDrifts γ s.dataDist s.driftData) *ᵥ
                (s.vectorRow γ (∃ q ∈ pts.zipIdx.map fun p => (⟨p.2, p.1.1, p.1.2, s.adjustPoint p.1,
                  s.queryDist p.1⟩ : UKQuery n), ∃ k, |q.bd k| ≤ eps) spec b
                  ⟨a.2, a.1.1, a.1.2, s.adjustPoint a.1, s.queryDist a.1⟩).1)
                  (k.castLE s.le_nWithDrifts) * s.Z k,
              ∑ k, (krigInv s.pseudoInv (ukMatrix s.nWithDrifts γ s.dataDist s.driftData) *ᵥ
                (s.vectorRow γ (∃ q ∈ pts.zipIdx.map fun p => (⟨p.2, p.1.1, p.1.2, s.adjustPoint p.1,
                  s.queryDist p.1⟩ : UKQuery n), ∃ k, |q.bd k| ≤ eps) spec b
                  ⟨a.2, a.1.1, a.1.2, s.adjustPoint a.1, s.queryDist a.1⟩).1) k *
                -(s.vectorRow γ (∃ q ∈ pts.zipIdx.map fun p => (⟨p.2, p.1.1, p.1.2, s.adjustPoint p.1,
                  s.queryDist p.1⟩ : UKQuery n), ∃ k, |q.bd k| ≤ eps) spec b
                  ⟨a.2, a.1.1, a.1.2, s.adjustPoint a.1, s.queryDist a.1⟩).1 k)) l e =
            List.zipWith (fun p z => s.answer γ (specAt spec p.2) z p.1) l e := by
          intro l
          induction l with
          | nil => simp
          | cons p l ih =>
            intro e hl
            cases e with
            | nil => simp
            | cons z e =>
              simp only [List.zipWith_cons_cons]
              rw [ih e fun q hq => hl q (by simp [hq])]
              congr 1
              rw [UK.vectorRow_eq s γ _ spec hspec z p.1 p.2]
              refine @UK.answer_eq n s γ _ (fun l hl => by simp [specAt, hspec l hl]) z p.1 _
                (Classical.propDecidable _) ?_
              rintro ⟨i, hi⟩
              exact ⟨_, List.mem_map.2 ⟨p, hl p (by simp), rfl⟩, i, hi⟩
        exact hmem pts.zipIdx exts fun _ h => h
      · dsimp only
        have : ∀ (l : List ((ℝ × ℝ) × ℕ)) (e : List ℝ) (zv : Prop),
            (List.zipWith (fun (a : (ℝ × ℝ) × ℕ) (b : ℝ) => s.vectorRow γ zv spec b
              ⟨a.2, a.1.1, a.1.2, s.adjustPoint a.1, s.queryDist a.1⟩) l e).any Prod.snd = false := by
          intro l
          induction l with
          | nil => simp
          | cons p l ih =>
            intro e zv
            cases e with
            | nil => simp
            | cons z e =>
              simp only [List.zipWith_cons_cons, List.any_cons, ih, Bool.or_false]
              rw [UK.vectorRow_eq s γ _ spec hspec z p.1 p.2]
        exact this _ _ _
  · rfl

/-- Does the point lie exactly on a well of the point-log drift? -/
def UK.atWell {n : ℕ} (s : UK n) (p : ℝ × ℝ) : Prop :=
  ∃ w ∈ s.pointLog.getD [], Real.sqrt ((s.adjustPoint p 0 - w.1) ^ 2 + (s.adjustPoint p 1 - w.2.1) ^ 2) = 0

/-- Row number of the first specified drift term. -/
def UK.specStart {n : ℕ} (s : UK n) : ℕ :=
  n + (if s.regionalLinear then 2 else 0) + (s.pointLog.getD []).length +
    (match s.externalZ with | some _ => 1 | none => 0)

/-- The specified drift values the `loop` backend uses (at every point): entry `i` of the `l`-th array,
where `i` is the *row* of the system that the drift term occupies. -/
def UK.loopSpec {n : ℕ} (s : UK n) (spec : List (List ℝ)) : Py (List ℝ) :=
  match s.specified with
  | some _ => (spec.zipIdx s.specStart).mapM fun v => pyGet v.1 v.2
  | none => .ok []

theorem foldlM_pyGet {N : ℕ} (spec : List (List ℝ)) (st : (Fin N → ℝ) × ℕ) :
    spec.foldlM (fun st (vals : List ℝ) => do
        let v ← pyGet vals st.2
        return pushRhs st v) st =
      (do let l ← (spec.zipIdx st.2).mapM fun v => pyGet v.1 v.2
          return l.foldl pushRhs st : Py _) := by
  induction spec generalizing st with
  | nil => simp
  | cons v spec ih =>
    simp only [List.foldlM_cons, List.zipIdx_cons, List.mapM_cons, py_pure]
    cases pyGet v st.2 with
    | error e => rfl
    | ok a =>
      simp only [py_ok_bind]
      have := ih (pushRhs st a)
      simp only [py_pure] at this
      rw [this]
      have : (pushRhs st a).2 = st.2 + 1 := rfl
      rw [this]
      cases (spec.zipIdx (st.2 + 1)).mapM fun v => pyGet v.1 v.2 with
      | error e => rfl
      | ok l => rfl

open Classical in
theorem foldlM_wells {N : ℕ} (x y : ℝ) (wells : List (ℝ × ℝ × ℝ)) (st : (Fin N → ℝ) × ℕ) :
    wells.foldlM (fun st w => do
        let ld ← loopLogDist x y w.1 w.2.1
        return pushRhs st (-w.2.2 * ld)) st =
      (if ∃ w ∈ wells, Real.sqrt ((x - w.1) ^ 2 + (y - w.2.1) ^ 2) = 0 then .error .typeError
       else .ok ((wells.map fun w => -w.2.2 * logDist x y w.1 w.2.1).foldl pushRhs st) : Py _) := by
  induction wells generalizing st with
  | nil => simp
  | cons w wells ih =>
    simp only [List.foldlM_cons, py_pure]
    have hl : loopLogDist x y w.1 w.2.1 = if Real.sqrt ((x - w.1) ^ 2 + (y - w.2.1) ^ 2) = 0 then
        .error .typeError else .ok (Real.log (Real.sqrt ((x - w.1) ^ 2 + (y - w.2.1) ^ 2))) := rfl
    rw [hl]
    by_cases h : Real.sqrt ((x - w.1) ^ 2 + (y - w.2.1) ^ 2) = 0
    · rw [if_pos h, if_pos ⟨w, by simp, h⟩]; rfl
    · rw [if_neg h]
      simp only [py_ok_bind]
      have := ih (pushRhs st (-w.2.2 * Real.log (Real.sqrt ((x - w.1) ^ 2 + (y - w.2.1) ^ 2))))
      simp only [py_pure] at this
      rw [this]
      have e : (∃ v ∈ w :: wells, Real.sqrt ((x - v.1) ^ 2 + (y - v.2.1) ^ 2) = 0) ↔
          ∃ v ∈ wells, Real.sqrt ((x - v.1) ^ 2 + (y - v.2.1) ^ 2) = 0 := by
        simp [h]
      simp only [e, List.map_cons, List.foldl_cons]
      have : logDist x y w.1 w.2.1 = Real.log (Real.sqrt ((x - w.1) ^ 2 + (y - w.2.1) ^ 2)) := by
        unfold logDist; rw [if_neg h]
      rw [this]

open Classical in
/-- One point of the `loop` backend. -/
def UK.loopPoint {n : ℕ} (s : UK n) (γ : ℝ → ℝ) (spec : List (List ℝ)) (p : ℝ × ℝ) : Py (ℝ × ℝ) := do
  if s.atWell p then throw .typeError
  let z ← s.extP p
  let sv ← s.loopSpec spec
  return s.answer γ sv z p

theorem UK.loopSpec_len {n : ℕ} (s : UK n) {spec : List (List ℝ)} {sv : List ℝ}
    (hspec : ∀ l, s.specified = some l → spec.length = l.length) (h : s.loopSpec spec = .ok sv) :
    s.SpecLen sv := by
  intro l hl
  unfold UK.loopSpec at h
  rw [hl] at h
  dsimp only at h
  rw [py_mapM_eq_ok] at h
  have := h.length_eq
  rw [List.length_zipIdx] at this
  rw [← this, hspec l hl]

theorem foldlM_pyGet' {N : ℕ} (spec : List (List ℝ)) (st : (Fin N → ℝ) × ℕ) :
    spec.foldlM (fun st (vals : List ℝ) => do
        let v ← pyGet vals st.2
        Except.ok (pushRhs st v)) st =
      (do let l ← (spec.zipIdx st.2).mapM fun v => pyGet v.1 v.2
          Except.ok (l.foldl pushRhs st) : Py _) := foldlM_pyGet spec st

theorem pushRhs_snd {N : ℕ} (st : (Fin N → ℝ) × ℕ) (v : ℝ) : (pushRhs st v).2 = st.2 + 1 := rfl

open Classical in
theorem UK.pushRhsLoop_eq {n N : ℕ} (s : UK n) (spec : List (List ℝ)) (p : ℝ × ℝ) (j : ℕ)
    (b : Fin N → ℝ) :
    s.pushRhsLoop spec ⟨j, p.1, p.2, s.adjustPoint p, s.queryDist p⟩ (b, n) =
      (do if s.atWell p then throw .typeError
          let z ← s.extP p
          let sv ← s.loopSpec spec
          return (s.driftAt sv z p).foldl pushRhs (b, n)) := by
  unfold UK.pushRhsLoop UK.atWell UK.extP UK.loopSpec UK.specStart UK.driftAt
  cases hp : s.pointLog with
  | none =>
    cases hr : s.regionalLinear <;> cases he : s.externalZ <;> cases hsp : s.specified <;>
      cases hf : s.functional <;>
      simp [List.foldl_append, List.foldl_map, foldlM_pyGet', pushRhs_snd]
  | some wells =>
    simp only [foldlM_wells, Option.getD_some]
    split
    · rfl
    · obtain ⟨W, hW⟩ : ∃ W, W = wells.map fun w =>
          -w.2.2 * logDist (s.adjustPoint p 0) (s.adjustPoint p 1) w.1 w.2.1 := ⟨_, rfl⟩
      have hlen : wells.length = W.length := by simp [hW]
      simp only [← hW, hlen]
      cases hr : s.regionalLinear <;> cases he : s.externalZ <;> cases hsp : s.specified <;>
        cases hf : s.functional <;>
        simp [List.foldl_append, List.foldl_map, foldlM_pyGet', foldl_pushRhs_snd, pushRhs_snd]

open Classical in
theorem UK.loopBody_eq {n : ℕ} (s : UK n) (γ : ℝ → ℝ) (hγ : s.variogramFunction s.params = .ok γ)
    (spec : List (List ℝ)) (hspec : ∀ l, s.specified = some l → spec.length = l.length)
    (p : ℝ × ℝ) (j : ℕ) :
    s.loopBody (krigInv s.pseudoInv (ukMatrix s.nWithDrifts γ s.dataDist s.driftData)) spec
        ⟨j, p.1, p.2, s.adjustPoint p, s.queryDist p⟩ =
      (do let a ← s.loopPoint γ spec p; return (a, false)) := by
  unfold UK.loopBody UK.loopPoint
  rw [hγ, py_ok_bind]
  dsimp only
  rw [UK.pushRhsLoop_eq]
  by_cases hw : s.atWell p
  · simp only [if_pos hw]; rfl
  · simp only [if_neg hw]
    cases hz : s.extP p with
    | error e => rfl
    | ok z =>
      cases hsv : s.loopSpec spec with
      | error e => rfl
      | ok sv =>
        simp only [py_ok_bind, py_pure]
        have hlen := s.loopSpec_len hspec hsv
        congr 1
        refine Prod.ext ?_ ?_
        · exact UK.answer_eq s γ hlen z p (∃ k, |s.queryDist p k| ≤ eps) id
        · dsimp only
          rw [foldl_pushRhs_snd]
          simp [s.driftData_length, s.driftAt_length hlen]

theorem py_mapM_congr {α β : Type} {f g : α → Py β} :
    ∀ {l : List α}, (∀ a ∈ l, f a = g a) → l.mapM f = l.mapM g
  | [], _ => by simp
  | a :: l, h => by
    simp only [List.mapM_cons]
    rw [h a (by simp), py_mapM_congr (l := l) fun b hb => h b (by simp [hb])]

theorem py_mapM_bind_pure {α β γ : Type} (f : α → Py β) (g : β → γ) :
    ∀ l : List α, (l.mapM fun a => do let b ← f a; Except.ok (g b)) =
      (do let l ← l.mapM f; Except.ok (l.map g) : Py (List γ))
  | [] => by simp
  | a :: l => by
    simp only [List.mapM_cons, py_mapM_bind_pure f g l, py_pure]
    cases f a with
    | error e => rfl
    | ok b =>
      cases l.mapM f with
      | error e => rfl
      | ok l => rfl

theorem zipIdx_zip_map {α β : Type} : ∀ (l : List α) (m : List β) (k : ℕ),
    ((l.zipIdx k).zip m).map (fun p => (p.1.1, p.2)) = l.zip m
  | [], m, k => by simp
  | a :: l, [], k => by simp
  | a :: l, b :: m, k => by simp [zipIdx_zip_map l m (k + 1)]

/-- The values computed by the two backends. -/
def UK.vectorItems {n : ℕ} (s : UK n) (γ : ℝ → ℝ) (pts : List (ℝ × ℝ)) (spec : List (List ℝ)) :
    Py (List (ℝ × ℝ)) := do
  let exts ← pts.mapM s.extP
  return List.zipWith (fun p z => s.answer γ (specAt spec p.2) z p.1) pts.zipIdx exts

def UK.loopItems {n : ℕ} (s : UK n) (γ : ℝ → ℝ) (pts : List (ℝ × ℝ)) (mask : List Bool)
    (spec : List (List ℝ)) : Py (List (ℝ × ℝ)) :=
  (pts.zip mask).mapM fun p => if p.2 then pure (0, 0) else s.loopPoint γ spec p.1

open Classical in
theorem UK.loop_eq {n : ℕ} (s : UK n) (γ : ℝ → ℝ) (hγ : s.variogramFunction s.params = .ok γ)
    (ht : s.pseudoInvType ∈ ["pinv", "pinvh"]) (pts : List (ℝ × ℝ)) (mask : List Bool)
    (spec : List (List ℝ)) (hspec : ∀ l, s.specified = some l → spec.length = l.length) :
    s.execLoop (ukMatrix s.nWithDrifts γ s.dataDist s.driftData) (s.queries pts) mask spec =
      if Solvable s.pseudoInv (s.G γ) s.F then do
        let l ← s.loopItems γ pts mask spec
        return (l, false)
      else .error .linAlgError := by
  unfold UK.execLoop UK.loopItems
  rw [UK.invert_eq s γ ht]
  split
  · rw [py_ok_bind]
    have h1 : ((s.queries pts).zip mask).mapM (fun p =>
        if p.2 then (pure ((0, 0), false) : Py ((ℝ × ℝ) × Bool))
        else s.loopBody (krigInv s.pseudoInv (ukMatrix s.nWithDrifts γ s.dataDist s.driftData)) spec p.1) =
        ((pts.zip mask).mapM fun p => do
          let a ← (if p.2 then pure (0, 0) else s.loopPoint γ spec p.1 : Py (ℝ × ℝ))
          Except.ok (a, false)) := by
      rw [UK.queries_eq, List.zip_map_left, List.mapM_map, ← zipIdx_zip_map pts mask 0,
        List.mapM_map]
      refine py_mapM_congr fun q _ => ?_
      rcases q with ⟨⟨p, j⟩, m⟩
      cases m
      · exact UK.loopBody_eq s γ hγ spec hspec p j
      · rfl
    rw [h1, py_mapM_bind_pure]
    cases (pts.zip mask).mapM fun p =>
      (if p.2 then pure (0, 0) else s.loopPoint γ spec p.1 : Py (ℝ × ℝ)) with
    | error e => rfl
    | ok l =>
      simp [Function.comp_def]
  · rfl

open Classical in
/-- The values computed by `execute` before masking. -/
def UK.items {n : ℕ} (s : UK n) (backend : String) (γ : ℝ → ℝ) (pts : List (ℝ × ℝ))
    (mask : List Bool) (spec : List (List ℝ)) : Py (List (ℝ × ℝ)) :=
  if backend = "vectorized" then
    if Solvable s.pseudoInv (s.G γ) s.F then s.vectorItems γ pts spec else .error .linAlgError
  else if backend = "loop" then
    if Solvable s.pseudoInv (s.G γ) s.F then s.loopItems γ pts mask spec else .error .linAlgError
  else .error .valueError

theorem UK.vectorItems_ok {n : ℕ} {s : UK n} {γ : ℝ → ℝ} {pts : List (ℝ × ℝ)}
    {spec : List (List ℝ)} {items : List (ℝ × ℝ)} (h : s.vectorItems γ pts spec = .ok items) :
    items.length = pts.length ∧ ∀ (k : ℕ) p, pts[k]? = some p →
      ∃ z, s.extP p = .ok z ∧ items[k]? = some (s.answer γ (specAt spec k) z p) := by
  unfold UK.vectorItems at h
  obtain ⟨exts, h1, h2⟩ := py_bind_eq_ok.1 h
  rw [py_mapM_eq_ok] at h1
  have hl := h1.length_eq
  simp only [py_pure, Except.ok.injEq] at h2
  subst h2
  refine ⟨by simp [hl], fun k p hk => ?_⟩
  obtain ⟨hk1, rfl⟩ := List.getElem?_eq_some_iff.1 hk
  have h3 := List.forall₂_iff_get.1 h1
  refine ⟨exts[k]'(by omega), h3.2 k hk1 (by omega), ?_⟩
  rw [List.getElem?_eq_getElem (by simp; omega)]
  simp

theorem UK.loopItems_ok {n : ℕ} {s : UK n} {γ : ℝ → ℝ} {pts : List (ℝ × ℝ)} {mask : List Bool}
    (hm : mask.length = pts.length)
    {spec : List (List ℝ)} {items : List (ℝ × ℝ)} (h : s.loopItems γ pts mask spec = .ok items) :
    items.length = pts.length ∧ ∀ (k : ℕ) p, pts[k]? = some p → mask[k]? = some false → ¬ s.atWell p ∧
      ∃ z sv, s.extP p = .ok z ∧ s.loopSpec spec = .ok sv ∧ items[k]? = some (s.answer γ sv z p) := by
  unfold UK.loopItems at h
  rw [py_mapM_eq_ok] at h
  have hl := h.length_eq
  simp only [List.length_zip, hm, min_self] at hl
  refine ⟨hl.symm, fun k p hk hmk => ?_⟩
  obtain ⟨hk1, rfl⟩ := List.getElem?_eq_some_iff.1 hk
  obtain ⟨hk2, hmk⟩ := List.getElem?_eq_some_iff.1 hmk
  have h3 := (List.forall₂_iff_get.1 h).2 k (by simp; omega) (by omega)
  simp only [List.get_eq_getElem, List.getElem_zip, hmk, Bool.false_eq_true, if_false] at h3
  unfold UK.loopPoint at h3
  by_cases hw : s.atWell pts[k]
  · simp only [if_pos hw] at h3
    exact absurd h3 (by simp)
  · simp only [if_neg hw] at h3
    refine ⟨hw, ?_⟩
    obtain ⟨z, hz, h3⟩ := py_bind_eq_ok.1 h3
    obtain ⟨sv, hsv, h3⟩ := py_bind_eq_ok.1 h3
    refine ⟨z, sv, hz, hsv, ?_⟩
    rw [List.getElem?_eq_getElem (by omega)]
    simp only [py_pure, Except.ok.injEq] at h3
    rw [h3]

theorem UK.specGrids_len {n : ℕ} {s : UK n} {args : UKExecArgs} {spec : List (List ℝ)}
    (h : s.specGrids args = .ok spec) : ∀ l, s.specified = some l → spec.length = l.length := by
  intro l hl
  unfold UK.specGrids at h
  rw [hl] at h
  dsimp only at h
  split at h
  · simp at h
  · simp at h
  · simp at h
  · obtain ⟨g, hg, h⟩ := py_bind_eq_ok.1 h
    split at h
    · simp at h
    · next hne =>
      simp only [py_pure, Except.ok.injEq] at h
      subst h
      exact not_not.1 hne

theorem applyMask_len {args : ExecArgs} {pts mask} (h : queryPoints args = .ok (pts, mask))
    (items : List (ℝ × ℝ)) (hl : items.length = pts.length) :
    ({ shape := resultShape args
       z := applyMask args.style mask (items.map Prod.fst)
       ss := applyMask args.style mask (items.map Prod.snd) } : ExecResult) =
      ⟨resultShape args, hide mask (items.map Prod.fst), hide mask (items.map Prod.snd)⟩ := by
  rw [applyMask_eq_hide h _ (by simpa using hl), applyMask_eq_hide h _ (by simpa using hl)]

theorem UK.items_length {n : ℕ} {s : UK n} {b : String} {γ : ℝ → ℝ} {pts : List (ℝ × ℝ)}
    {mask : List Bool} (hm : mask.length = pts.length) {spec : List (List ℝ)}
    {items : List (ℝ × ℝ)} (h : s.items b γ pts mask spec = .ok items) :
    items.length = pts.length := by
  unfold UK.items at h
  split at h
  · split at h
    · exact (UK.vectorItems_ok h).1
    · simp at h
  · split at h
    · split at h
      · exact (UK.loopItems_ok hm h).1
      · simp at h
    · simp at h

/-- Canonical form of `execute`; in particular no warning is ever issued. -/
theorem UK.executeW_eq {n : ℕ} (s : UK n) (ht : s.pseudoInvType ∈ ["pinv", "pinvh"])
    (args : UKExecArgs) (hstyle : args.toExec.style ∈ ["grid", "masked", "points"]) :
    s.executeW args = (do
      let γ ← s.variogramFunction s.params
      let (pts, mask) ← queryPoints args.toExec
      let spec ← s.specGrids args
      if args.toExec.xpoints.isInt && args.toExec.ypoints.isInt then throw .castingError
      let items ← s.items args.toExec.backend γ pts mask spec
      return (⟨resultShape args.toExec, hide mask (items.map Prod.fst),
        hide mask (items.map Prod.snd)⟩, false)) := by
  unfold UK.executeW
  rw [if_neg (not_not.2 hstyle), UK.getKrigingMatrix_eq]
  simp only [py_pure, py_ok_bind]
  cases hγ : s.variogramFunction s.params with
  | error e => simp
  | ok γ =>
    simp only [py_ok_bind]
    cases hq : queryPoints args.toExec with
    | error e => simp
    | ok pm =>
      obtain ⟨pts, mask⟩ := pm
      simp only [py_ok_bind]
      cases hspec : s.specGrids args with
      | error e => simp
      | ok spec =>
        simp only [py_ok_bind]
        split
        · rfl
        · by_cases hv : args.toExec.backend = "vectorized"
          · rw [if_pos hv, UK.vector_eq s γ hγ ht pts spec (UK.specGrids_len hspec)]
            unfold UK.items
            rw [if_pos hv]
            split
            · cases hm : pts.mapM s.extP with
              | error e => simp [UK.vectorItems, hm]
              | ok exts =>
                have hi : s.vectorItems γ pts spec = .ok (List.zipWith (fun p z =>
                    s.answer γ (specAt spec p.2) z p.1) pts.zipIdx exts) := by
                  unfold UK.vectorItems; rw [hm]; rfl
                rw [hi]
                simp only [py_ok_bind, py_pure]
                rw [applyMask_len hq _ (UK.vectorItems_ok hi).1]
                rfl
            · rfl
          · by_cases hl : args.toExec.backend = "loop"
            · rw [if_neg hv, if_pos hl, UK.loop_eq s γ hγ ht pts mask spec (UK.specGrids_len hspec)]
              unfold UK.items
              rw [if_neg hv, if_pos hl]
              split
              · cases hi : s.loopItems γ pts mask spec with
                | error e => rfl
                | ok items =>
                  simp only [py_ok_bind, py_pure]
                  rw [applyMask_len hq items (UK.loopItems_ok (queryPoints_length hq) hi).1]
                  rfl
              · rfl
            · unfold UK.items
              rw [if_neg hv, if_neg hl, if_neg hv, if_neg hl]
              rfl

theorem UK.execute_bad_style {n : ℕ} (s : UK n) (args : UKExecArgs)
    (hstyle : args.toExec.style ∉ ["grid", "masked", "points"]) :
    s.execute args = .error .valueError := by
  unfold UK.execute UK.executeW
  rw [if_pos hstyle]
  rfl

/-- What the drift values at the `k`-th query point are in a successful call. -/
def UK.DriftValues {n : ℕ} (s : UK n) (backend : String) (spec : List (List ℝ)) (k : ℕ)
    (sv : List ℝ) : Prop :=
  (backend = "vectorized" ∧ sv = specAt spec k) ∨ (backend = "loop" ∧ s.loopSpec spec = .ok sv)

/-- Everything a successful call tells. -/
theorem UK.execute_ok {n : ℕ} {s : UK n} (ht : s.pseudoInvType ∈ ["pinv", "pinvh"])
    {args : UKExecArgs} {r : ExecResult} (h : s.execute args = .ok r) :
    ∃ γ pts mask spec, ∃ items : List (ℝ × ℝ), args.toExec.style ∈ ["grid", "masked", "points"] ∧
      s.variogramFunction s.params = .ok γ ∧ queryPoints args.toExec = .ok (pts, mask) ∧
      s.specGrids args = .ok spec ∧
      ¬ (args.toExec.xpoints.isInt = true ∧ args.toExec.ypoints.isInt = true) ∧
      Solvable s.pseudoInv (s.G γ) s.F ∧ items.length = pts.length ∧
      r = ⟨resultShape args.toExec, hide mask (items.map Prod.fst), hide mask (items.map Prod.snd)⟩ ∧
      ∀ (k : ℕ) p, pts[k]? = some p → mask[k]? = some false →
        (args.toExec.backend = "loop" → ¬ s.atWell p) ∧ ∃ z sv, s.extP p = .ok z ∧
        s.DriftValues args.toExec.backend spec k sv ∧ s.SpecLen sv ∧
        items[k]? = some (s.answer γ sv z p) := by
  by_cases hstyle : args.toExec.style ∈ ["grid", "masked", "points"]
  swap
  · rw [UK.execute_bad_style s args hstyle] at h; simp at h
  unfold UK.execute at h
  rw [UK.executeW_eq s ht args hstyle] at h
  rw [py_map_eq_ok] at h
  obtain ⟨⟨r', fl⟩, h, rfl⟩ := h
  simp only [py_bind_eq_ok, Prod.exists] at h
  obtain ⟨γ, hγ, pts, mask, hq, spec, hspec, h⟩ := h
  split at h
  · simp at h
  · next hc =>
    obtain ⟨items, hi, h⟩ := py_bind_eq_ok.1 h
    simp only [py_pure, Except.ok.injEq, Prod.mk.injEq] at h
    have hlen := UK.items_length (queryPoints_length hq) hi
    unfold UK.items at hi
    split at hi
    · next hv =>
      split at hi
      · next hsol =>
        refine ⟨γ, pts, mask, spec, items, hstyle, hγ, hq, hspec, by simpa using hc, hsol, hlen, h.1.symm, ?_⟩
        intro k p hk hmk
        obtain ⟨z, hz, hk⟩ := (UK.vectorItems_ok hi).2 k p hk
        refine ⟨fun hb => absurd (hv.symm.trans hb) (by decide), z, _, hz, Or.inl ⟨hv, rfl⟩, ?_, hk⟩
        intro l hl
        simp [specAt, UK.specGrids_len hspec l hl]
      · simp at hi
    · split at hi
      · next hb =>
        split at hi
        · next hsol =>
          refine ⟨γ, pts, mask, spec, items, hstyle, hγ, hq, hspec, by simpa using hc, hsol, hlen, h.1.symm, ?_⟩
          intro k p hk hmk
          obtain ⟨hw, z, sv, hz, hsv, hk⟩ := (UK.loopItems_ok (queryPoints_length hq) hi).2 k p hk hmk
          exact ⟨fun _ => hw, z, sv, hz, Or.inr ⟨hb, hsv⟩, s.loopSpec_len (UK.specGrids_len hspec) hsv, hk⟩
        · simp at hi
      · simp at hi

end
end PyKrige
