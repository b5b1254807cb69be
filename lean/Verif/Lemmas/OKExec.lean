import Verif.Lemmas.Answer
import Verif.Lemmas.Dist

/-!
`OK.execute` and `OK3D.execute` without moving window, in canonical form.
-/

set_option linter.unusedSectionVars false
set_option linter.unusedSimpArgs false

namespace PyKrige
noncomputable section
open Matrix Spec

/-- No drift functions (ordinary kriging). -/
def noF {ι : Type} : Fin 0 → ι → ℝ := fun l => l.elim0

theorem eps_eq : eps = 1 / 10 ^ 10 := rfl
theorem eps_pos : 0 < eps := by rw [eps_eq]; norm_num

/-- The code's OK kriging matrix, relabelled. -/
theorem coreKrigingMatrix_submatrix (n : ℕ) (γ : ℝ → ℝ) (d : Fin n → Fin n → ℝ) :
    (coreKrigingMatrix n γ d).submatrix (idx n 0 (n + 1) rfl) (idx n 0 (n + 1) rfl) =
      krigMat (semivar γ d) noF := by
  funext r c
  rcases r with i | l | ⟨⟩
  · rcases c with j | l | ⟨⟩
    · have h1 : i.val ≠ n := by omega
      have h2 : j.val ≠ n := by omega
      by_cases hij : i = j
      · simp [coreKrigingMatrix, setEntry, setCol, setRow, fillDiagonal, setBlock, krigMat, semivar,
          h1, h2, hij]
      · have : i.val ≠ j.val := fun h => hij (Fin.ext h)
        simp [coreKrigingMatrix, setEntry, setCol, setRow, fillDiagonal, setBlock, krigMat, semivar,
          h1, h2, hij, this]
    · exact l.elim0
    · have h1 : i.val ≠ n := by omega
      simp [coreKrigingMatrix, setEntry, setCol, krigMat, h1]
  · exact l.elim0
  · rcases c with j | l | ⟨⟩
    · have h2 : j.val ≠ n := by omega
      simp [coreKrigingMatrix, setEntry, setCol, setRow, krigMat, h2]
    · exact l.elim0
    · simp [coreKrigingMatrix, setEntry, krigMat]

/-- The code's right-hand side, for any zero mask that covers the entries within `eps`. -/
def codeRhs (n : ℕ) (exact : Bool) (γ : ℝ → ℝ) (zeroValue : Prop)
    [Decidable (zeroValue ∧ exact = true)] (d : Fin n → ℝ) : Fin (n + 1) → ℝ :=
  let b : Fin (n + 1) → ℝ := fun _ => 0
  let b := setHead b n fun k => -γ (d k)
  let b := if zeroValue ∧ exact = true then setWhere b n (fun k => |d k| ≤ eps) 0 else b
  setAt b n 1

theorem codeRhs_comp {n : ℕ} (exact : Bool) (γ : ℝ → ℝ) (zeroValue : Prop)
    [Decidable (zeroValue ∧ exact = true)] (d : Fin n → ℝ) (hd : ∀ i, 0 ≤ d i) (hz : (∃ i, |d i| ≤ eps) → zeroValue) :
    codeRhs n exact γ zeroValue d ∘ idx n 0 (n + 1) rfl = krigRhs (semivarTo exact γ d) 0 1 := by
  funext k
  rcases k with i | l | ⟨⟩
  · have h1 : i.val ≠ n := by omega
    simp only [Function.comp, codeRhs, idx_inl, setAt, h1, if_false, krigRhs, semivarTo]
    by_cases he : exact = true ∧ d i ≤ 1 / 10 ^ 10
    · have hw : |d i| ≤ eps := by rw [abs_of_nonneg (hd i), eps_eq]; exact he.2
      have : zeroValue := hz ⟨i, hw⟩
      rw [if_pos ⟨this, he.1⟩, if_pos he]
      simp [setWhere, hw]
    · rw [if_neg he]
      split
      · next h =>
        have hw : ¬ |d i| ≤ eps := by
          rw [abs_of_nonneg (hd i), eps_eq]
          exact fun h' => he ⟨h.2, h'⟩
        simp [setWhere, setHead, hw]
      · simp [setHead]
  · exact l.elim0
  · simp [codeRhs, setAt, krigRhs]

theorem codeRhs_C {n : ℕ} (exact : Bool) (γ γc : ℝ → ℝ) (d : Fin n → ℝ) (hd : ∀ i, 0 ≤ d i)
    (hγ : ∀ x, 0 ≤ x → γc x = γ x) :
    (if exact then checkBVect n d (setAt (setHead (fun _ : Fin (n + 1) => (0 : ℝ)) n fun k => -γc (d k)) n 1)
      else setAt (setHead (fun _ : Fin (n + 1) => (0 : ℝ)) n fun k => -γc (d k)) n 1) ∘
        idx n 0 (n + 1) rfl = krigRhs (semivarTo exact γ d) 0 1 := by
  funext k
  rcases k with i | l | ⟨⟩
  · have h1 : i.val ≠ n := by omega
    cases exact
    · simp [setAt, h1, krigRhs, semivarTo, setHead, hγ _ (hd i)]
    · by_cases he : d i ≤ eps
      · simp [checkBVect, setWhere, he, krigRhs, semivarTo]
        rw [eps_eq] at he
        intro h
        norm_num at he h
        linarith
      · have he' : ¬ d i ≤ 1 / 10 ^ 10 := by rw [← eps_eq]; exact he
        simp only [Function.comp, if_true, checkBVect, setWhere, idx_inl, i.isLt, he, exists_false, if_false,
          setAt, h1, setHead, krigRhs, semivarTo, he', and_false, dif_pos, hγ _ (hd i), exists_prop]
  · exact l.elim0
  · cases exact <;> simp [checkBVect, setWhere, setAt, krigRhs]

/-- Values with masked entries hidden. -/
def hide {α : Type} (mask : List Bool) (vals : List α) : List (Option α) :=
  List.zipWith (fun v m => if m then none else some v) vals mask

theorem hide_replicate_false {α : Type} (vals : List α) (k : ℕ) (h : vals.length = k) :
    hide (List.replicate k false) vals = vals.map some := by
  subst h
  induction vals with
  | nil => rfl
  | cons a l ih => simpa [hide, List.replicate_succ] using ih

theorem meshgridFlat_length (xs ys : List ℝ) :
    (meshgridFlat xs ys).length = ys.length * xs.length := by
  simp [meshgridFlat, List.length_flatMap]

theorem Mask2.flatten_length (m : Mask2) : m.flatten.length = m.rows * m.cols := by
  simp [Mask2.flatten, List.length_flatMap]

/-- Query points and mask entries correspond. -/
theorem queryPoints_length {args : ExecArgs} {pts mask} (h : queryPoints args = .ok (pts, mask)) :
    mask.length = pts.length := by
  unfold queryPoints at h
  dsimp only at h
  split at h
  · split at h
    · split at h
      · simp at h
      · split at h
        · split at h
          · next h1 =>
            simp only [Except.ok.injEq, Prod.mk.injEq] at h
            obtain ⟨rfl, rfl⟩ := h
            rw [Mask2.flatten_length, meshgridFlat_length]
            simp [Mask2.T, h1.1, h1.2]
          · simp at h
        · next h1 =>
          simp only [Except.ok.injEq, Prod.mk.injEq] at h
          obtain ⟨rfl, rfl⟩ := h
          push Not at h1
          rw [Mask2.flatten_length, meshgridFlat_length, h1.1, h1.2]
    · simp only [Except.ok.injEq, Prod.mk.injEq] at h
      obtain ⟨rfl, rfl⟩ := h
      rw [meshgridFlat_length, List.length_replicate]
  · split at h
    · split at h
      · simp at h
      · next h1 =>
        simp only [Except.ok.injEq, Prod.mk.injEq] at h
        obtain ⟨rfl, rfl⟩ := h
        simp at h1
        simp [h1]
    · simp at h

theorem queryPoints_mask {args : ExecArgs} {pts mask} (h : queryPoints args = .ok (pts, mask))
    (hs : args.style ≠ "masked") : mask = List.replicate pts.length false := by
  unfold queryPoints at h
  dsimp only at h
  split at h
  · simp only [Except.ok.injEq, Prod.mk.injEq] at h
    obtain ⟨rfl, rfl⟩ := h
    rw [meshgridFlat_length]
  · split at h
    · split at h
      · simp at h
      · next h1 =>
        simp only [Except.ok.injEq, Prod.mk.injEq] at h
        obtain ⟨rfl, rfl⟩ := h
        simp at h1
        simp [h1]
    · simp at h

theorem applyMask_eq_hide {args : ExecArgs} {pts mask} (h : queryPoints args = .ok (pts, mask))
    (vals : List ℝ) (hl : vals.length = pts.length) :
    applyMask args.style mask vals = hide mask vals := by
  unfold applyMask
  split
  · rfl
  · next hs => rw [queryPoints_mask h hs, hide_replicate_false _ _ hl]

/-- Results that agree off the mask are hidden to the same array. -/
theorem hide_congr {α : Type} : ∀ (mask : List Bool) (a b : List α),
    a.length = b.length →
    (∀ (k : ℕ) x y, mask[k]? = some false → a[k]? = some x → b[k]? = some y → x = y) →
    hide mask a = hide mask b
  | mask, [], [], _, _ => rfl
  | [], _ :: _, _ :: _, _, _ => rfl
  | m :: mask, x :: a, y :: b, hl, h => by
    have := hide_congr mask a b (by simpa using hl) fun k u v h1 h2 h3 =>
      h (k + 1) u v (by simpa using h1) (by simpa using h2) (by simpa using h3)
    simp only [hide] at this ⊢
    rw [List.zipWith_cons_cons, List.zipWith_cons_cons, this]
    cases m
    · simp [h 0 x y (by simp) (by simp) (by simp)]
    · simp
  | _, [], _ :: _, hl, _ => by simp at hl
  | _, _ :: _, [], hl, _ => by simp at hl

/-- A loop that skips masked points. -/
theorem loop_eq {α β : Type} (qs : List α) (mask : List Bool) (hl : mask.length = qs.length)
    (d : β) (f : α → Py β) (g : α → β) (hf : ∀ q ∈ qs, f q = .ok (g q)) :
    (qs.zip mask).mapM (fun p => if p.2 then pure d else f p.1) =
      (.ok (List.zipWith (fun q m => if m then d else g q) qs mask) : Py (List β)) := by
  rw [py_mapM_eq_ok]
  induction qs generalizing mask with
  | nil => simp
  | cons q qs ih =>
    cases mask with
    | nil => simp at hl
    | cons m mask =>
      simp only [List.zip_cons_cons, List.zipWith_cons_cons, List.forall₂_cons]
      refine ⟨?_, ih mask (by simpa using hl) fun q hq => hf q (by simp [hq])⟩
      cases m
      · simpa using hf q (by simp)
      · simp

theorem hide_zipWith {α β γ : Type} (π : β → γ) : ∀ (qs : List α) (mask : List Bool) (d : β) (g : α → β),
    hide mask ((List.zipWith (fun q m => if m then d else g q) qs mask).map π) =
      hide mask (qs.map fun q => π (g q))
  | [], mask, d, g => by simp [hide]
  | q :: qs, [], d, g => by simp [hide]
  | q :: qs, m :: mask, d, g => by
    have := hide_zipWith π qs mask d g
    simp only [hide] at this ⊢
    simp only [List.zipWith_cons_cons, List.map_cons, this]
    cases m <;> simp

/-- Distances used by an object are nonnegative and symmetric. -/
theorem OK.dataDist_comm {n : ℕ} (s : OK n) (i j : Fin n) : s.dataDist i j = s.dataDist j i := by
  unfold OK.dataDist
  split
  · exact euclid_comm _ _
  · exact greatCircleDistance_comm _ _ _ _

theorem OK.queryDist_nonneg {n : ℕ} (s : OK n) (q : Fin 2 → ℝ) (i : Fin n) : 0 ≤ s.queryDist q i := by
  unfold OK.queryDist
  split
  · exact euclid_nonneg _ _
  · exact greatCircleDistance_nonneg _ _ _ _

theorem semivar_comm {ι : Type} {γ : ℝ → ℝ} {d : ι → ι → ℝ} (h : ∀ i j, d i j = d j i) (i j : ι) :
    semivar γ d i j = semivar γ d j i := by
  unfold semivar
  by_cases hij : i = j
  · simp [hij]
  · rw [if_neg hij, if_neg (Ne.symm hij), h]

/-- A query point in the object's frame. -/
def OK.queryPt {n : ℕ} (s : OK n) (p : ℝ × ℝ) : Fin 2 → ℝ :=
  if s.coordinatesType = "euclidean" then
    adjust2 ![s.XCENTER, s.YCENTER] s.anisotropyScaling s.anisotropyAngle ![p.1, p.2]
  else ![p.1, p.2]

/-- Semivariances between the data of an object with variogram `γ`. -/
def OK.G {n : ℕ} (s : OK n) (γ : ℝ → ℝ) : Fin n → Fin n → ℝ := semivar γ s.dataDist

/-- Semivariances between the data and a query point. -/
def OK.g {n : ℕ} (s : OK n) (γ : ℝ → ℝ) (p : ℝ × ℝ) : Fin n → ℝ :=
  semivarTo s.exactValues γ (s.queryDist (s.queryPt p))

/-- Estimate and variance at one query point. -/
def OK.answer {n : ℕ} (s : OK n) (γ : ℝ → ℝ) (p : ℝ × ℝ) : ℝ × ℝ :=
  krigAnswer s.pseudoInv (s.G γ) noF s.Z (s.g γ p) 0

/-- Well-formed objects: those the constructor lets through. -/
structure OK.Wf {n : ℕ} (s : OK n) : Prop where
  ptype : s.pseudoInvType ∈ ["pinv", "pinvh"]
  ctype : s.coordinatesType = "euclidean" ∨ s.coordinatesType = "geographic"
  cagree : ∀ γ γc, s.variogramFunction s.params = .ok γ → s.cVariogram = .ok γc →
    ∀ d, 0 ≤ d → γc d = γ d

/-- The part of `execute` that selects the backend. -/
def OK.backendCheck {n : ℕ} (env : Env) (s : OK n) (backend : String) : Py Unit :=
  if backend = "vectorized" ∨ backend = "loop" then .ok ()
  else if backend = "C" then
    if env.cAvailable then do
      let _ ← s.cVariogram
      return ()
    else .ok ()
  else .error .valueError

/-- The result arrays for given points, mask and answers. -/
def mkResult {α : Type} (shape : List ℕ) (mask : List Bool) (pts : List α) (ans : α → ℝ × ℝ) :
    ExecResult :=
  { shape := shape
    z := hide mask (pts.map fun p => (ans p).1)
    ss := hide mask (pts.map fun p => (ans p).2) }

open Classical in
/-- Canonical form of `execute` without moving window. -/
def OK.execGlobal {n : ℕ} (env : Env) (s : OK n) (args : ExecArgs) : Py ExecResult := do
  let γ ← s.variogramFunction s.params
  let (pts, mask) ← queryPoints args
  if s.coordinatesType = "euclidean" ∧ args.xpoints.isInt = true ∧ args.ypoints.isInt = true then
    throw .castingError
  s.backendCheck env args.backend
  if Solvable s.pseudoInv (s.G γ) noF then
    return mkResult (resultShape args) mask pts (s.answer γ)
  else throw .linAlgError

theorem OK.getKrigingMatrix_eq {n : ℕ} (s : OK n) : s.getKrigingMatrix =
    (do let γ ← s.variogramFunction s.params; return coreKrigingMatrix n γ s.dataDist) := rfl

theorem OK.adjustQuery_eq {n : ℕ} (s : OK n) (args : ExecArgs) (pts : List (ℝ × ℝ)) :
    s.adjustQuery args pts =
      if s.coordinatesType = "euclidean" ∧ args.xpoints.isInt = true ∧ args.ypoints.isInt = true then
        .error .castingError
      else .ok (pts.map s.queryPt) := by
  unfold OK.adjustQuery OK.queryPt
  by_cases h : s.coordinatesType = "euclidean"
  · simp [h]
  · simp [h]

/-- One row in every backend. -/
theorem OK.answer_eq {n : ℕ} (s : OK n) (γ : ℝ → ℝ) (p : ℝ × ℝ) (b : Fin (n + 1) → ℝ)
    (hb : b ∘ idx n 0 (n + 1) rfl = krigRhs (s.g γ p) 0 1) :
    (∑ k : Fin n, (krigInv s.pseudoInv (coreKrigingMatrix n γ s.dataDist) *ᵥ b) k.castSucc * s.Z k,
      ∑ k, (krigInv s.pseudoInv (coreKrigingMatrix n γ s.dataDist) *ᵥ b) k * -b k) = s.answer γ p :=
  code_answer rfl s.pseudoInv (coreKrigingMatrix_submatrix n γ s.dataDist) hb s.Z

open Classical in
theorem OK.vector_eq {n : ℕ} (s : OK n) (γ : ℝ → ℝ) (hγ : s.variogramFunction s.params = .ok γ)
    (ht : s.pseudoInvType ∈ ["pinv", "pinvh"]) (pts : List (ℝ × ℝ)) :
    s.execVector (coreKrigingMatrix n γ s.dataDist) ((pts.map s.queryPt).map fun q => s.queryDist q) =
      if Solvable s.pseudoInv (s.G γ) noF then .ok (pts.map (s.answer γ))
      else .error .linAlgError := by
  unfold OK.execVector
  rw [invertPython_eq rfl (semivar_comm s.dataDist_comm) (coreKrigingMatrix_submatrix n γ s.dataDist)
    _ _ ht]
  change (if Solvable s.pseudoInv (s.G γ) noF then (Except.ok _ : Py _) else _) >>= _ = _
  split
  · rw [py_ok_bind, hγ, py_ok_bind, py_pure, List.map_map, List.map_map, List.map_map]
    congr 1
    refine List.map_congr_left fun p hp => ?_
    refine OK.answer_eq s γ p (@codeRhs n s.exactValues γ
      (∃ row ∈ List.map (fun q => s.queryDist q) (List.map s.queryPt pts), ∃ k, |row k| ≤ eps)
      _ (s.queryDist (s.queryPt p))) ?_
    refine codeRhs_comp _ _ _ _ (s.queryDist_nonneg _) ?_
    rintro ⟨i, hi⟩
    exact ⟨_, List.mem_map.2 ⟨_, List.mem_map.2 ⟨p, hp, rfl⟩, rfl⟩, i, hi⟩
  · rfl

open Classical in
theorem OK.loop_eq {n : ℕ} (s : OK n) (γ : ℝ → ℝ) (hγ : s.variogramFunction s.params = .ok γ)
    (ht : s.pseudoInvType ∈ ["pinv", "pinvh"]) (pts : List (ℝ × ℝ)) (mask : List Bool)
    (hl : mask.length = pts.length) :
    s.execLoop (coreKrigingMatrix n γ s.dataDist) ((pts.map s.queryPt).map fun q => s.queryDist q) mask =
      if Solvable s.pseudoInv (s.G γ) noF then
        .ok (List.zipWith (fun q m => if m then (0, 0) else s.answer γ q) pts mask)
      else .error .linAlgError := by
  unfold OK.execLoop
  rw [invertPython_eq rfl (semivar_comm s.dataDist_comm) (coreKrigingMatrix_submatrix n γ s.dataDist)
    _ _ ht]
  change (if Solvable s.pseudoInv (s.G γ) noF then (Except.ok _ : Py _) else _) >>= _ = _
  split
  · rw [py_ok_bind, List.map_map, List.zip_map_left, List.mapM_map]
    have := PyKrige.loop_eq pts mask hl ((0 : ℝ), (0 : ℝ))
      (fun p => s.loopBody (krigInv s.pseudoInv (coreKrigingMatrix n γ s.dataDist))
        (s.queryDist (s.queryPt p))) (s.answer γ) ?_
    · exact this
    · intro p hp
      unfold OK.loopBody
      rw [hγ, py_ok_bind, py_pure]
      congr 1
      refine OK.answer_eq s γ p (@codeRhs n s.exactValues γ
        (∃ k, |s.queryDist (s.queryPt p) k| ≤ eps) _ (s.queryDist (s.queryPt p))) ?_
      exact codeRhs_comp _ _ _ _ (s.queryDist_nonneg _) id
  · rfl

open Classical in
theorem OK.c_eq {n : ℕ} (s : OK n) (γ γc : ℝ → ℝ) (hγc : s.cVariogram = .ok γc)
    (hag : ∀ d, 0 ≤ d → γc d = γ d)
    (ht : s.pseudoInvType ∈ ["pinv", "pinvh"]) (pts : List (ℝ × ℝ)) (mask : List Bool) :
    s.cExecLoop (coreKrigingMatrix n γ s.dataDist) ((pts.map s.queryPt).map fun q => s.queryDist q) mask =
      if Solvable s.pseudoInv (s.G γ) noF then
        .ok (List.zipWith (fun q m => if m then (0, 0) else s.answer γ q) pts mask)
      else .error .linAlgError := by
  unfold OK.cExecLoop
  rw [hγc, py_ok_bind, invertC_eq rfl (semivar_comm s.dataDist_comm)
    (coreKrigingMatrix_submatrix n γ s.dataDist) _ _ ht]
  change (if Solvable s.pseudoInv (s.G γ) noF then (Except.ok _ : Py _) else _) >>= _ = _
  split
  · rw [py_ok_bind, List.map_map, List.zip_map_left, List.map_map, List.zip_eq_zipWith,
      List.map_zipWith, py_pure]
    congr 1
    have : ∀ p, s.cLoopBody γc (krigInv s.pseudoInv (coreKrigingMatrix n γ s.dataDist))
        (s.queryDist (s.queryPt p)) = s.answer γ p := by
      intro p
      have := OK.answer_eq s γ p _ (codeRhs_C s.exactValues γ γc (s.queryDist (s.queryPt p))
        (s.queryDist_nonneg _) hag)
      rw [← this]
      unfold OK.cLoopBody
      simp only [mul_neg, mul_one, Finset.sum_neg_distrib]
    simp [this]
  · rfl

theorem mkResult_of_map {args : ExecArgs} {pts mask} (h : queryPoints args = .ok (pts, mask))
    (ans : ℝ × ℝ → ℝ × ℝ) :
    ({ shape := resultShape args
       z := applyMask args.style mask ((pts.map ans).map Prod.fst)
       ss := applyMask args.style mask ((pts.map ans).map Prod.snd) } : ExecResult) =
      mkResult (resultShape args) mask pts ans := by
  rw [applyMask_eq_hide h _ (by simp), applyMask_eq_hide h _ (by simp)]
  simp [mkResult, Function.comp_def]

theorem mkResult_of_loop {args : ExecArgs} {pts mask} (h : queryPoints args = .ok (pts, mask))
    (ans : ℝ × ℝ → ℝ × ℝ) (d : ℝ × ℝ) :
    ({ shape := resultShape args
       z := applyMask args.style mask
        ((List.zipWith (fun q m => if m then d else ans q) pts mask).map Prod.fst)
       ss := applyMask args.style mask
        ((List.zipWith (fun q m => if m then d else ans q) pts mask).map Prod.snd) } : ExecResult) =
      mkResult (resultShape args) mask pts ans := by
  have hl := queryPoints_length h
  rw [applyMask_eq_hide h _ (by simp [hl]), applyMask_eq_hide h _ (by simp [hl]), hide_zipWith,
    hide_zipWith]
  rfl

/-- `execute` without moving window. -/
theorem OK.execute_global {n : ℕ} (env : Env) (s : OK n) (hs : s.Wf) (args : ExecArgs)
    (hn : args.nClosest = none) (hstyle : args.style ∈ ["grid", "masked", "points"]) :
    s.execute env args = s.execGlobal env args := by
  unfold OK.execute OK.execGlobal
  rw [if_neg (not_not.2 hstyle), OK.getKrigingMatrix_eq, hn]
  dsimp only
  simp only [py_pure, py_ok_bind]
  cases hγ : s.variogramFunction s.params with
  | error e => simp
  | ok γ =>
    simp only [py_ok_bind]
    cases hq : queryPoints args with
    | error e => simp
    | ok pm =>
      obtain ⟨pts, mask⟩ := pm
      simp only [py_ok_bind, OK.adjustQuery_eq]
      split
      · rfl
      · simp only [py_ok_bind]
        unfold OK.globalKrige OK.backendCheck
        by_cases hC : args.backend = "C"
        · by_cases hav : env.cAvailable = true
          · simp only [hC, hav, not_true_eq_false, and_false, if_false, String.reduceEq, if_true,
              or_self]
            cases hγc : s.cVariogram with
            | error e => simp [OK.cExecLoop, hγc]
            | ok γc =>
              rw [OK.c_eq s γ γc hγc (hs.cagree γ γc hγ hγc) hs.ptype]
              simp only [py_ok_bind, py_pure]
              split
              · rw [py_ok_bind, mkResult_of_loop hq]
              · rfl
          · simp only [hC, hav, if_true, String.reduceEq, if_false, or_self, Bool.false_eq_true,
              not_false_eq_true, and_self]
            rw [OK.loop_eq s γ hγ hs.ptype _ _ (queryPoints_length hq)]
            simp only [py_ok_bind]
            split
            · rw [py_ok_bind, mkResult_of_loop hq]
            · rfl
        · simp only [hC, false_and, if_false]
          by_cases hv : args.backend = "vectorized"
          · simp only [hv, true_or, if_true, py_ok_bind]
            rw [OK.vector_eq s γ hγ hs.ptype]
            split
            · rw [py_ok_bind, mkResult_of_map hq]
            · rfl
          · by_cases hl : args.backend = "loop"
            · simp only [hl, String.reduceEq, or_true, if_true, if_false, py_ok_bind]
              rw [OK.loop_eq s γ hγ hs.ptype _ _ (queryPoints_length hq)]
              split
              · rw [py_ok_bind, mkResult_of_loop hq]
              · rfl
            · simp [hv, hl]

theorem OK.execute_bad_style {n : ℕ} (env : Env) (s : OK n) (args : ExecArgs)
    (hstyle : args.style ∉ ["grid", "masked", "points"]) :
    s.execute env args = .error .valueError := by
  unfold OK.execute
  rw [if_pos hstyle]
  rfl

/-- Everything a successful call tells. -/
theorem OK.execute_ok {n : ℕ} {env : Env} {s : OK n} (hs : s.Wf) {args : ExecArgs} {r : ExecResult}
    (hn : args.nClosest = none) (h : s.execute env args = .ok r) :
    ∃ γ pts mask, args.style ∈ ["grid", "masked", "points"] ∧
      s.variogramFunction s.params = .ok γ ∧ queryPoints args = .ok (pts, mask) ∧
      ¬ (s.coordinatesType = "euclidean" ∧ args.xpoints.isInt = true ∧ args.ypoints.isInt = true) ∧
      s.backendCheck env args.backend = .ok () ∧ Solvable s.pseudoInv (s.G γ) noF ∧
      r = mkResult (resultShape args) mask pts (s.answer γ) := by
  by_cases hstyle : args.style ∈ ["grid", "masked", "points"]
  swap
  · rw [OK.execute_bad_style env s args hstyle] at h; simp at h
  rw [OK.execute_global env s hs args hn hstyle] at h
  unfold OK.execGlobal at h
  simp only [py_bind_eq_ok, Prod.exists] at h
  obtain ⟨γ, hγ, pts, mask, hq, h⟩ := h
  refine ⟨γ, pts, mask, hstyle, hγ, hq, ?_⟩
  split at h
  · simp at h
  · next hc =>
    obtain ⟨_, hb, h⟩ := py_bind_eq_ok.1 h
    split at h
    · next hsol => exact ⟨hc, hb, hsol, by simpa using h.symm⟩
    · simp at h

end
end PyKrige
