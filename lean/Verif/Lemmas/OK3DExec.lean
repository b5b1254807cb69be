import Verif.Lemmas.OKExec
import Verif.Lemmas.Create

/-! `OK3D.execute` without moving window, in canonical form. -/

set_option linter.unusedSectionVars false
set_option linter.unusedSimpArgs false

namespace PyKrige
noncomputable section
open Matrix Spec

theorem meshgridFlat3_length (xs ys zs : List ℝ) :
    (meshgridFlat3 xs ys zs).length = zs.length * ys.length * xs.length := by
  simp [meshgridFlat3, List.length_flatMap, mul_assoc]

theorem flatten3_length (d0 d1 d2 : ℕ) (get : ℕ → ℕ → ℕ → Bool) :
    (flatten3 d0 d1 d2 get).length = d0 * d1 * d2 := by
  simp [flatten3, List.length_flatMap, mul_assoc]

theorem queryPoints3_spec {args : ExecArgs3} {pts mask} (h : queryPoints3 args = .ok (pts, mask)) :
    mask.length = pts.length ∧
      (args.style ≠ "masked" → mask = List.replicate pts.length false) := by
  unfold queryPoints3 at h
  dsimp only at h
  split at h
  · split at h
    · next hm =>
      refine ⟨?_, fun h' => absurd hm h'⟩
      split at h
      · simp at h
      · simp at h
      · split at h
        · split at h
          · next h1 =>
            simp only [Except.ok.injEq, Prod.mk.injEq] at h
            obtain ⟨rfl, rfl⟩ := h
            rw [flatten3_length, meshgridFlat3_length, h1.1, h1.2.1, h1.2.2]
          · simp at h
        · next h1 =>
          simp only [Except.ok.injEq, Prod.mk.injEq] at h
          obtain ⟨rfl, rfl⟩ := h
          push Not at h1
          rw [flatten3_length, meshgridFlat3_length, h1.1, h1.2.1, h1.2.2]
    · simp only [Except.ok.injEq, Prod.mk.injEq] at h
      obtain ⟨rfl, rfl⟩ := h
      simp [meshgridFlat3_length]
  · split at h
    · split at h
      · simp at h
      · split at h
        · simp at h
        · next h1 =>
          simp only [Except.ok.injEq, Prod.mk.injEq] at h
          obtain ⟨rfl, rfl⟩ := h
          push Not at h1
          simp [h1.1, h1.2]
    · simp at h

theorem applyMask_eq_hide3 {args : ExecArgs3} {pts mask} (h : queryPoints3 args = .ok (pts, mask))
    (vals : List ℝ) (hl : vals.length = pts.length) :
    applyMask args.style mask vals = hide mask vals := by
  unfold applyMask
  split
  · rfl
  · next hs => rw [(queryPoints3_spec h).2 hs, hide_replicate_false _ _ hl]

theorem OK3D.queryDist_nonneg {n : ℕ} (s : OK3D n) (q : Fin 3 → ℝ) (i : Fin n) :
    0 ≤ s.queryDist q i := euclid_nonneg _ _

theorem OK3D.queryDist_eq {n : ℕ} (s : OK3D n) (q : Fin 3 → ℝ) (i : Fin n) :
    s.queryDist q i = euclid q (s.pts i) := euclid_zyx _ _

/-- Distance between data points. -/
def OK3D.dataDist {n : ℕ} (s : OK3D n) (i j : Fin n) : ℝ := euclid (s.pts i) (s.pts j)

theorem OK3D.dataDist_comm {n : ℕ} (s : OK3D n) (i j : Fin n) : s.dataDist i j = s.dataDist j i :=
  euclid_comm _ _

/-- A query point in the object's frame. -/
def OK3D.queryPt {n : ℕ} (s : OK3D n) (p : ℝ × ℝ × ℝ) : Fin 3 → ℝ :=
  adjustPoint3 s.XCENTER s.YCENTER s.ZCENTER s.aniso p.1 p.2.1 p.2.2

/-- Semivariances between the data of an object with variogram `γ`. -/
def OK3D.G {n : ℕ} (s : OK3D n) (γ : ℝ → ℝ) : Fin n → Fin n → ℝ := semivar γ s.dataDist

/-- Semivariances between the data and a query point. -/
def OK3D.g {n : ℕ} (s : OK3D n) (γ : ℝ → ℝ) (p : ℝ × ℝ × ℝ) : Fin n → ℝ :=
  semivarTo s.exactValues γ (s.queryDist (s.queryPt p))

/-- Estimate and variance at one query point. -/
def OK3D.answer {n : ℕ} (s : OK3D n) (γ : ℝ → ℝ) (p : ℝ × ℝ × ℝ) : ℝ × ℝ :=
  krigAnswer s.pseudoInv (s.G γ) noF s.VALUES (s.g γ p) 0

/-- The part of `execute` that selects the backend. -/
def backendCheck3 (backend : String) : Py Unit :=
  if backend = "vectorized" ∨ backend = "loop" then .ok () else .error .valueError

open Classical in
/-- Canonical form of `execute` without moving window. -/
def OK3D.execGlobal {n : ℕ} (s : OK3D n) (args : ExecArgs3) : Py ExecResult := do
  let γ ← s.variogramFunction s.params
  let (pts, mask) ← queryPoints3 args
  if args.xpoints.isInt = true ∧ args.ypoints.isInt = true ∧ args.zpoints.isInt = true then
    throw .castingError
  backendCheck3 args.backend
  if Solvable s.pseudoInv (s.G γ) noF then
    return mkResult (resultShape3 args) mask pts (s.answer γ)
  else throw .linAlgError

theorem OK3D.getKrigingMatrix_eq {n : ℕ} (s : OK3D n) : s.getKrigingMatrix =
    (do let γ ← s.variogramFunction s.params; return coreKrigingMatrix n γ s.dataDist) := rfl

theorem OK3D.adjustQuery_eq {n : ℕ} (s : OK3D n) (args : ExecArgs3) (pts : List (ℝ × ℝ × ℝ)) :
    s.adjustQuery args pts =
      if args.xpoints.isInt = true ∧ args.ypoints.isInt = true ∧ args.zpoints.isInt = true then
        .error .castingError
      else .ok (pts.map s.queryPt) := by
  unfold OK3D.adjustQuery
  simp only [Bool.and_eq_true, and_assoc]
  rfl

/-- One row in every backend. -/
theorem OK3D.answer_eq {n : ℕ} (s : OK3D n) (γ : ℝ → ℝ) (p : ℝ × ℝ × ℝ) (b : Fin (n + 1) → ℝ)
    (hb : b ∘ idx n 0 (n + 1) rfl = krigRhs (s.g γ p) 0 1) :
    (∑ k : Fin n, (krigInv s.pseudoInv (coreKrigingMatrix n γ s.dataDist) *ᵥ b) k.castSucc * s.VALUES k,
      ∑ k, (krigInv s.pseudoInv (coreKrigingMatrix n γ s.dataDist) *ᵥ b) k * -b k) = s.answer γ p :=
  code_answer rfl s.pseudoInv (coreKrigingMatrix_submatrix n γ s.dataDist) hb s.VALUES

open Classical in
theorem OK3D.vector_eq {n : ℕ} (s : OK3D n) (γ : ℝ → ℝ) (hγ : s.variogramFunction s.params = .ok γ)
    (ht : s.pseudoInvType ∈ ["pinv", "pinvh"]) (pts : List (ℝ × ℝ × ℝ)) :
    s.execVector (coreKrigingMatrix n γ s.dataDist) ((pts.map s.queryPt).map fun q => s.queryDist q) =
      if Solvable s.pseudoInv (s.G γ) noF then .ok (pts.map (s.answer γ))
      else .error .linAlgError := by
  unfold OK3D.execVector
  rw [invertPython_eq rfl (semivar_comm s.dataDist_comm) (coreKrigingMatrix_submatrix n γ s.dataDist)
    _ _ ht]
  change (if Solvable s.pseudoInv (s.G γ) noF then (Except.ok _ : Py _) else _) >>= _ = _
  split
  · rw [py_ok_bind, hγ, py_ok_bind, py_pure, List.map_map, List.map_map, List.map_map]
    congr 1
    refine List.map_congr_left fun p hp => ?_
    refine OK3D.answer_eq s γ p (@codeRhs n s.exactValues γ
      (∃ row ∈ List.map (fun q => s.queryDist q) (List.map s.queryPt pts), ∃ k, |row k| ≤ eps)
      _ (s.queryDist (s.queryPt p))) ?_
    refine codeRhs_comp _ _ _ _ (s.queryDist_nonneg _) ?_
    rintro ⟨i, hi⟩
    exact ⟨_, List.mem_map.2 ⟨_, List.mem_map.2 ⟨p, hp, rfl⟩, rfl⟩, i, hi⟩
  · rfl

open Classical in
theorem OK3D.loop_eq {n : ℕ} (s : OK3D n) (γ : ℝ → ℝ) (hγ : s.variogramFunction s.params = .ok γ)
    (ht : s.pseudoInvType ∈ ["pinv", "pinvh"]) (pts : List (ℝ × ℝ × ℝ)) (mask : List Bool)
    (hl : mask.length = pts.length) :
    s.execLoop (coreKrigingMatrix n γ s.dataDist) ((pts.map s.queryPt).map fun q => s.queryDist q) mask =
      if Solvable s.pseudoInv (s.G γ) noF then
        .ok (List.zipWith (fun q m => if m then (0, 0) else s.answer γ q) pts mask)
      else .error .linAlgError := by
  unfold OK3D.execLoop
  rw [invertPython_eq rfl (semivar_comm s.dataDist_comm) (coreKrigingMatrix_submatrix n γ s.dataDist)
    _ _ ht]
  change (if Solvable s.pseudoInv (s.G γ) noF then (Except.ok _ : Py _) else _) >>= _ = _
  split
  · rw [py_ok_bind, List.map_map, List.zip_map_left, List.mapM_map]
    have := PyKrige.loop_eq pts mask hl ((0 : ℝ), (0 : ℝ))
      (fun p => s.loopBody (krigInv s.pseudoInv (coreKrigingMatrix n γ s.dataDist))
        (s.queryDist (s.queryPt p))) (s.answer γ) ?_
    · exact this
    · intro p hp
      unfold OK3D.loopBody
      rw [hγ, py_ok_bind, py_pure]
      congr 1
      refine OK3D.answer_eq s γ p (@codeRhs n s.exactValues γ
        (∃ k, |s.queryDist (s.queryPt p) k| ≤ eps) _ (s.queryDist (s.queryPt p))) ?_
      exact codeRhs_comp _ _ _ _ (s.queryDist_nonneg _) id
  · rfl

theorem mkResult3_of_map {args : ExecArgs3} {pts mask} (h : queryPoints3 args = .ok (pts, mask))
    (ans : ℝ × ℝ × ℝ → ℝ × ℝ) :
    ({ shape := resultShape3 args
       z := applyMask args.style mask ((pts.map ans).map Prod.fst)
       ss := applyMask args.style mask ((pts.map ans).map Prod.snd) } : ExecResult) =
      mkResult (resultShape3 args) mask pts ans := by
  rw [applyMask_eq_hide3 h _ (by simp), applyMask_eq_hide3 h _ (by simp)]
  simp [mkResult, Function.comp_def]

theorem mkResult3_of_loop {args : ExecArgs3} {pts mask} (h : queryPoints3 args = .ok (pts, mask))
    (ans : ℝ × ℝ × ℝ → ℝ × ℝ) (d : ℝ × ℝ) :
    ({ shape := resultShape3 args
       z := applyMask args.style mask
        ((List.zipWith (fun q m => if m then d else ans q) pts mask).map Prod.fst)
       ss := applyMask args.style mask
        ((List.zipWith (fun q m => if m then d else ans q) pts mask).map Prod.snd) } : ExecResult) =
      mkResult (resultShape3 args) mask pts ans := by
  have hl := (queryPoints3_spec h).1
  rw [applyMask_eq_hide3 h _ (by simp [hl]), applyMask_eq_hide3 h _ (by simp [hl]), hide_zipWith,
    hide_zipWith]
  rfl

/-- `execute` without moving window. -/
theorem OK3D.execute_global {n : ℕ} (env : Env) (s : OK3D n) (hs : s.pseudoInvType ∈ ["pinv", "pinvh"])
    (args : ExecArgs3) (hn : args.nClosest = none) (hstyle : args.style ∈ ["grid", "masked", "points"]) :
    s.execute env args = s.execGlobal args := by
  unfold OK3D.execute OK3D.execGlobal
  rw [if_neg (not_not.2 hstyle), OK3D.getKrigingMatrix_eq, hn]
  dsimp only
  simp only [py_pure, py_ok_bind]
  cases hγ : s.variogramFunction s.params with
  | error e => simp
  | ok γ =>
    simp only [py_ok_bind]
    cases hq : queryPoints3 args with
    | error e => simp
    | ok pm =>
      obtain ⟨pts, mask⟩ := pm
      simp only [py_ok_bind, OK3D.adjustQuery_eq]
      split
      · rfl
      · simp only [py_ok_bind]
        unfold OK3D.globalKrige backendCheck3
        by_cases hv : args.backend = "vectorized"
        · simp only [hv, true_or, if_true, py_ok_bind]
          rw [OK3D.vector_eq s γ hγ hs]
          split
          · rw [py_ok_bind, mkResult3_of_map hq]
          · rfl
        · by_cases hl : args.backend = "loop"
          · simp only [hl, String.reduceEq, or_true, if_true, if_false, py_ok_bind]
            rw [OK3D.loop_eq s γ hγ hs _ _ (queryPoints3_spec hq).1]
            split
            · rw [py_ok_bind, mkResult3_of_loop hq]
            · rfl
          · simp [hv, hl]

theorem OK3D.execute_bad_style {n : ℕ} (env : Env) (s : OK3D n) (args : ExecArgs3)
    (hstyle : args.style ∉ ["grid", "masked", "points"]) :
    s.execute env args = .error .valueError := by
  unfold OK3D.execute
  rw [if_pos hstyle]
  rfl

/-- Everything a successful call tells. -/
theorem OK3D.execute_ok {n : ℕ} {env : Env} {s : OK3D n} (hs : s.pseudoInvType ∈ ["pinv", "pinvh"])
    {args : ExecArgs3} {r : ExecResult} (hn : args.nClosest = none) (h : s.execute env args = .ok r) :
    ∃ γ pts mask, args.style ∈ ["grid", "masked", "points"] ∧
      s.variogramFunction s.params = .ok γ ∧ queryPoints3 args = .ok (pts, mask) ∧
      ¬ (args.xpoints.isInt = true ∧ args.ypoints.isInt = true ∧ args.zpoints.isInt = true) ∧
      backendCheck3 args.backend = .ok () ∧ Solvable s.pseudoInv (s.G γ) noF ∧
      r = mkResult (resultShape3 args) mask pts (s.answer γ) := by
  by_cases hstyle : args.style ∈ ["grid", "masked", "points"]
  swap
  · rw [OK3D.execute_bad_style env s args hstyle] at h; simp at h
  rw [OK3D.execute_global env s hs args hn hstyle] at h
  unfold OK3D.execGlobal at h
  simp only [py_bind_eq_ok, Prod.exists] at h
  obtain ⟨γ, hγ, pts, mask, hq, h⟩ := h
  refine ⟨γ, pts, mask, hstyle, hγ, hq, ?_⟩
  split at h
  · simp at h
  · next hc =>
    obtain ⟨_, hb, h⟩ := py_bind_eq_ok.1 h
    split at h
    · next hsol => exact ⟨hc, hb, hsol, by simpa using h.symm⟩
    · simp at h

end
end PyKrige
