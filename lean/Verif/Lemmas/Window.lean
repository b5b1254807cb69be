import Verif.Lemmas.OK3DExec
import Verif.Lemmas.Wf
import Verif.Spec.Env

/-!
Moving windows: each window is ordinary kriging from the selected data.
-/

set_option linter.unusedSimpArgs false

namespace PyKrige
noncomputable section
open Matrix Spec

/-- Estimate and variance from selected data `sel` only. -/
def selAnswer {n : ℕ} (sel : List (Fin n)) (exact : Bool) (γ : ℝ → ℝ) (D : Fin n → Fin n → ℝ)
    (Z : Fin n → ℝ) (bd : Fin n → ℝ) : ℝ × ℝ :=
  krigAnswer false (semivar γ fun i j : Fin sel.length => D (sel.get i) (sel.get j)) noF
    (fun i => Z (sel.get i)) (semivarTo exact γ fun i => bd (sel.get i)) 0

/-- Is the kriging system of the selected data regular? -/
def SelRegular {n : ℕ} (sel : List (Fin n)) (γ : ℝ → ℝ) (D : Fin n → Fin n → ℝ) : Prop :=
  Regular (semivar γ fun i j : Fin sel.length => D (sel.get i) (sel.get j)) noF

theorem core_apply_lt {n : ℕ} (γ : ℝ → ℝ) (d : Fin n → Fin n → ℝ) (i j : Fin n) :
    coreKrigingMatrix n γ d i.castSucc j.castSucc = -semivar γ d i j := by
  have := congrFun (congrFun (coreKrigingMatrix_submatrix n γ d) (.inl i)) (.inl j)
  exact this

theorem core_apply_last_left {n : ℕ} (γ : ℝ → ℝ) (d : Fin n → Fin n → ℝ) (j : Fin n) :
    coreKrigingMatrix n γ d (Fin.last n) j.castSucc = 1 :=
  congrFun (congrFun (coreKrigingMatrix_submatrix n γ d) (.inr (.inr ()))) (.inl j)

theorem core_apply_last_right {n : ℕ} (γ : ℝ → ℝ) (d : Fin n → Fin n → ℝ) (j : Fin n) :
    coreKrigingMatrix n γ d j.castSucc (Fin.last n) = 1 :=
  congrFun (congrFun (coreKrigingMatrix_submatrix n γ d) (.inl j)) (.inr (.inr ()))

theorem core_apply_last {n : ℕ} (γ : ℝ → ℝ) (d : Fin n → Fin n → ℝ) :
    coreKrigingMatrix n γ d (Fin.last n) (Fin.last n) = 0 :=
  congrFun (congrFun (coreKrigingMatrix_submatrix n γ d) (.inr (.inr ()))) (.inr (.inr ()))

theorem semivar_sel {n : ℕ} {sel : List (Fin n)} (hs : sel.Nodup) (γ : ℝ → ℝ)
    (d : Fin n → Fin n → ℝ) (i j : Fin sel.length) :
    semivar γ (fun i j : Fin sel.length => d (sel.get i) (sel.get j)) i j =
      semivar γ d (sel.get i) (sel.get j) := by
  unfold semivar
  by_cases h : i = j
  · simp [h]
  · rw [if_neg h, if_neg]
    intro h'
    exact h (List.nodup_iff_injective_get.1 hs h')

theorem window_submatrix {n : ℕ} (w : Window n) (hs : w.sel.Nodup) (γ : ℝ → ℝ)
    (d : Fin n → Fin n → ℝ) :
    ((coreKrigingMatrix n γ d).submatrix w.selector w.selector).submatrix
      (idx w.sel.length 0 (w.sel.length + 1) rfl) (idx w.sel.length 0 (w.sel.length + 1) rfl) =
      krigMat (semivar γ fun i j : Fin w.sel.length => d (w.sel.get i) (w.sel.get j)) noF := by
  funext r c
  rcases r with i | l | ⟨⟩ <;> rcases c with j | l' | ⟨⟩ <;> try exact Fin.elim0 ‹_›
  · simp only [Matrix.submatrix_apply, idx_inl, Window.selector, Fin.is_lt, dif_pos, core_apply_lt,
      krigMat, semivar_sel hs]
  · simp only [Matrix.submatrix_apply, idx_inl, idx_inr_inr, Window.selector, Fin.is_lt, dif_pos,
      add_zero, lt_irrefl, dif_neg, not_false_eq_true, core_apply_last_right, krigMat]
  · simp only [Matrix.submatrix_apply, idx_inl, idx_inr_inr, Window.selector, Fin.is_lt, dif_pos,
      add_zero, lt_irrefl, dif_neg, not_false_eq_true, core_apply_last_left, krigMat]
  · simp only [Matrix.submatrix_apply, idx_inr_inr, Window.selector,
      add_zero, lt_irrefl, dif_neg, not_false_eq_true, core_apply_last, krigMat]

theorem aSelection_submatrix {n : ℕ} (w : Window n) (hs : w.sel.Nodup) (γ : ℝ → ℝ)
    (d : Fin n → Fin n → ℝ) :
    (w.aSelection (coreKrigingMatrix n γ d)).submatrix
      (idx w.sel.length 0 (w.sel.length + 1) rfl) (idx w.sel.length 0 (w.sel.length + 1) rfl) =
      krigMat (semivar γ fun i j : Fin w.sel.length => d (w.sel.get i) (w.sel.get j)) noF := by
  funext r c
  rcases r with i | l | ⟨⟩ <;> rcases c with j | l' | ⟨⟩ <;> try exact Fin.elim0 ‹_›
  · have h1 : i.val ≠ w.sel.length := by omega
    have h2 : j.val ≠ w.sel.length := by omega
    simp only [Matrix.submatrix_apply, idx_inl, Window.aSelection, setEntry, setCol, setRow, setBlock,
      h1, h2, if_false, false_and, core_apply_lt, krigMat, semivar_sel hs]
    exact (dif_pos i.isLt).trans (dif_pos j.isLt)
  · have h1 : i.val ≠ w.sel.length := by omega
    simp [Window.aSelection, setEntry, setCol, krigMat, h1]
  · have h2 : j.val ≠ w.sel.length := by omega
    simp [Window.aSelection, setEntry, setCol, setRow, krigMat, h2]
  · simp [Window.aSelection, setEntry, krigMat]

/-- Solving the window system. -/
theorem solve_answer {k : ℕ} {a : Matrix (Fin (k + 1)) (Fin (k + 1)) ℝ} {b : Fin (k + 1) → ℝ}
    {G : Fin k → Fin k → ℝ} {g : Fin k → ℝ} (z : Fin k → ℝ)
    (ha : a.submatrix (idx k 0 (k + 1) rfl) (idx k 0 (k + 1) rfl) = krigMat G noF)
    (hb : b ∘ idx k 0 (k + 1) rfl = krigRhs g 0 1) :
    (∑ i : Fin k, (a⁻¹ *ᵥ b) i.castSucc * z i, -∑ i, (a⁻¹ *ᵥ b) i * b i) =
      krigAnswer false G noF z g 0 := by
  rw [← code_answer rfl false ha hb z]
  simp [krigInv, Finset.sum_neg_distrib]
  rfl

open Classical in
theorem OK.windowBody_eq {n : ℕ} (s : OK n) (γ : ℝ → ℝ) (hγ : s.variogramFunction s.params = .ok γ)
    (sel : List (Fin n)) (hs : sel.Nodup) (bd : Fin n → ℝ) (hbd : ∀ i, 0 ≤ bd i) :
    s.windowBody (coreKrigingMatrix n γ s.dataDist) ⟨sel, fun i => bd (sel.get i)⟩ =
      if SelRegular sel γ s.dataDist then
        .ok (selAnswer sel s.exactValues γ s.dataDist s.Z bd)
      else .error .linAlgError := by
  have ha := window_submatrix ⟨sel, fun i => bd (sel.get i)⟩ hs γ s.dataDist
  dsimp only at ha
  unfold OK.windowBody
  dsimp only
  rw [hγ, py_ok_bind]
  unfold scipySolve
  rw [det_eq_of_submatrix rfl ha]
  unfold SelRegular
  rw [regular_iff_det]
  split
  · next h => rw [if_neg (not_not.2 h)]; rfl
  · next h =>
    rw [py_ok_bind, py_pure]
    congr 1
    exact solve_answer (fun i => s.Z (sel.get i)) ha (@codeRhs_comp _ s.exactValues γ
      (∃ i, |bd (sel.get i)| ≤ eps) _ (fun i => bd (sel.get i)) (fun i => hbd _) id)

open Classical in
theorem OK3D.windowBody_eq {n : ℕ} (s : OK3D n) (γ : ℝ → ℝ)
    (hγ : s.variogramFunction s.params = .ok γ)
    (sel : List (Fin n)) (hs : sel.Nodup) (bd : Fin n → ℝ) (hbd : ∀ i, 0 ≤ bd i) :
    s.windowBody (coreKrigingMatrix n γ s.dataDist) ⟨sel, fun i => bd (sel.get i)⟩ =
      if SelRegular sel γ s.dataDist then
        .ok (selAnswer sel s.exactValues γ s.dataDist s.VALUES bd)
      else .error .linAlgError := by
  have ha := window_submatrix ⟨sel, fun i => bd (sel.get i)⟩ hs γ s.dataDist
  dsimp only at ha
  unfold OK3D.windowBody
  dsimp only
  rw [hγ, py_ok_bind]
  unfold scipySolve
  rw [det_eq_of_submatrix rfl ha]
  unfold SelRegular
  rw [regular_iff_det]
  split
  · next h => rw [if_neg (not_not.2 h)]; rfl
  · next h =>
    rw [py_ok_bind, py_pure]
    congr 1
    exact solve_answer (fun i => s.VALUES (sel.get i)) ha (@codeRhs_comp _ s.exactValues γ
      (∃ i, |bd (sel.get i)| ≤ eps) _ (fun i => bd (sel.get i)) (fun i => hbd _) id)

open Classical in
theorem OK.cWindowBody_eq {n : ℕ} (s : OK n) (γ γc : ℝ → ℝ) (hag : ∀ d, 0 ≤ d → γc d = γ d)
    (sel : List (Fin n)) (hs : sel.Nodup) (bd : Fin n → ℝ) (hbd : ∀ i, 0 ≤ bd i) :
    s.cWindowBody γc (coreKrigingMatrix n γ s.dataDist) ⟨sel, fun i => bd (sel.get i)⟩ =
      if SelRegular sel γ s.dataDist then
        .ok (selAnswer sel s.exactValues γ s.dataDist s.Z bd)
      else .error .valueError := by
  have ha := aSelection_submatrix ⟨sel, fun i => bd (sel.get i)⟩ hs γ s.dataDist
  dsimp only at ha
  unfold OK.cWindowBody
  dsimp only
  unfold dgesv
  rw [det_eq_of_submatrix rfl ha]
  unfold SelRegular
  rw [regular_iff_det]
  split
  · next h => rw [if_neg (not_not.2 h)]; rfl
  · next h =>
    rw [py_ok_bind, py_pure]
    congr 1
    exact solve_answer (fun i => s.Z (sel.get i)) ha (codeRhs_C s.exactValues γ γc
      (fun i => bd (sel.get i)) (fun i => hbd _) hag)

/-- A loop over windows that may fail. -/
theorem py_mapM_ite_ok {α β : Type} (qs : List α) (mask : List Bool) (hl : mask.length = qs.length)
    (d : β) (f : α → Py β) (P : α → Prop) (g : α → β) (e : PyErr)
    (hf : ∀ q, (P q → f q = .ok (g q)) ∧ (¬ P q → f q = .error e)) (r : List β) :
    (qs.zip mask).mapM (fun p => if p.2 then pure d else f p.1) = (.ok r : Py (List β)) ↔
      r = List.zipWith (fun q m => if m then d else g q) qs mask ∧
      ∀ (k : ℕ) q, qs[k]? = some q → mask[k]? = some false → P q := by
  rw [py_mapM_eq_ok]
  induction qs generalizing mask r with
  | nil => simp
  | cons q qs ih =>
    cases mask with
    | nil => simp at hl
    | cons m mask =>
      simp only [List.zip_cons_cons, List.zipWith_cons_cons]
      have ih' := fun r => ih mask (by simpa using hl) r
      cases r with
      | nil => simp
      | cons b r =>
        rw [List.forall₂_cons, ih' r]
        have hk : (∀ (k : ℕ) q', (q :: qs)[k]? = some q' → (m :: mask)[k]? = some false → P q') ↔
            (m = false → P q) ∧ ∀ (k : ℕ) q, qs[k]? = some q → mask[k]? = some false → P q := by
          constructor
          · intro h
            refine ⟨fun hm => h 0 q (by simp) (by simp [hm]), fun k q' h1 h2 => h (k + 1) q' (by simpa using h1) (by simpa using h2)⟩
          · rintro ⟨h0, h⟩ (_ | k) q' h1 h2
            · simp only [List.getElem?_cons_zero, Option.some.injEq] at h1 h2
              subst h1
              exact h0 h2
            · exact h k q' (by simpa using h1) (by simpa using h2)
        rw [hk]
        cases m with
        | true =>
          simp
          constructor
          · rintro ⟨h1, h2, h3⟩; exact ⟨⟨h1.symm, h2⟩, h3⟩
          · rintro ⟨⟨h1, h2⟩, h3⟩; exact ⟨h1.symm, h2, h3⟩
        | false =>
          simp only [Bool.false_eq_true, if_false, List.cons.injEq, forall_const]
          by_cases hp : P q
          · rw [(hf q).1 hp]
            simp only [Except.ok.injEq, hp, true_and]
            constructor
            · rintro ⟨h1, h2, h3⟩; exact ⟨⟨h1.symm, h2⟩, h3⟩
            · rintro ⟨⟨h1, h2⟩, h3⟩; exact ⟨h1.symm, h2, h3⟩
          · rw [(hf q).2 hp]
            simp [hp]

/-- The data selected for a query point. -/
def OK.sel {n : ℕ} (env : Env) (s : OK n) (k : ℕ) (p : ℝ × ℝ) : List (Fin n) :=
  (s.neighbours env k (s.queryPt p)).sel

/-- Estimate and variance at one query point from its window. -/
def OK.windowAnswer {n : ℕ} (env : Env) (s : OK n) (γ : ℝ → ℝ) (k : ℕ) (p : ℝ × ℝ) : ℝ × ℝ :=
  selAnswer (s.sel env k p) s.exactValues γ s.dataDist s.Z (s.queryDist (s.queryPt p))

theorem OK.sel_spec {n : ℕ} {env : Env} (he : KnnSpec env) (s : OK n) {k : ℕ} (hk : k ≤ n)
    (p : ℝ × ℝ) : (s.sel env k p).length = k ∧ (s.sel env k p).Nodup := by
  unfold OK.sel OK.neighbours
  dsimp only
  split
  · exact ⟨(he _ _ k hk).1, (he _ _ k hk).2.1⟩
  · exact ⟨(he _ _ k hk).1, (he _ _ k hk).2.1⟩

/-- The backends allowed with a moving window. -/
def OK.windowCheck {n : ℕ} (env : Env) (s : OK n) (backend : String) : Py Unit :=
  if backend = "loop" then .ok ()
  else if backend = "C" then
    if env.cAvailable then do
      let _ ← s.cVariogram
      return ()
    else .ok ()
  else .error .valueError

theorem OK.execLoopMovingWindow_ok {n : ℕ} {env : Env} (he : KnnSpec env) (s : OK n) (γ : ℝ → ℝ)
    (hγ : s.variogramFunction s.params = .ok γ) {k : ℕ} (hk : k ≤ n) (pts : List (ℝ × ℝ))
    (mask : List Bool) (hl : mask.length = pts.length) (r : List (ℝ × ℝ)) :
    s.execLoopMovingWindow (coreKrigingMatrix n γ s.dataDist)
      ((pts.map s.queryPt).map (s.neighbours env k)) mask = .ok r ↔
      r = List.zipWith (fun q m => if m then (0, 0) else s.windowAnswer env γ k q) pts mask ∧
      ∀ (j : ℕ) p, pts[j]? = some p → mask[j]? = some false →
        SelRegular (s.sel env k p) γ s.dataDist := by
  unfold OK.execLoopMovingWindow
  rw [List.map_map, List.zip_map_left, List.mapM_map]
  refine py_mapM_ite_ok pts mask hl ((0 : ℝ), (0 : ℝ))
    (fun p => s.windowBody (coreKrigingMatrix n γ s.dataDist) (s.neighbours env k (s.queryPt p)))
    (fun p => SelRegular (s.sel env k p) γ s.dataDist) (s.windowAnswer env γ k) .linAlgError ?_ r
  intro p
  have := OK.windowBody_eq s γ hγ (s.sel env k p) (s.sel_spec he hk p).2
    (s.queryDist (s.queryPt p)) (s.queryDist_nonneg _)
  constructor
  · intro h
    rw [if_pos h] at this
    exact this
  · intro h
    rw [if_neg h] at this
    exact this

theorem OK.cExecLoopMovingWindow_ok {n : ℕ} {env : Env} (he : KnnSpec env) (s : OK n) (γ γc : ℝ → ℝ)
    (hγc : s.cVariogram = .ok γc) (hag : ∀ d, 0 ≤ d → γc d = γ d) {k : ℕ} (hk : k ≤ n)
    (pts : List (ℝ × ℝ)) (mask : List Bool) (hl : mask.length = pts.length) (r : List (ℝ × ℝ)) :
    s.cExecLoopMovingWindow (coreKrigingMatrix n γ s.dataDist)
      ((pts.map s.queryPt).map (s.neighbours env k)) mask = .ok r ↔
      r = List.zipWith (fun q m => if m then (0, 0) else s.windowAnswer env γ k q) pts mask ∧
      ∀ (j : ℕ) p, pts[j]? = some p → mask[j]? = some false →
        SelRegular (s.sel env k p) γ s.dataDist := by
  unfold OK.cExecLoopMovingWindow
  rw [hγc, py_ok_bind, List.map_map, List.zip_map_left, List.mapM_map]
  refine py_mapM_ite_ok pts mask hl ((0 : ℝ), (0 : ℝ))
    (fun p => s.cWindowBody γc (coreKrigingMatrix n γ s.dataDist) (s.neighbours env k (s.queryPt p)))
    (fun p => SelRegular (s.sel env k p) γ s.dataDist) (s.windowAnswer env γ k) .valueError ?_ r
  intro p
  have := OK.cWindowBody_eq s γ γc hag (s.sel env k p) (s.sel_spec he hk p).2
    (s.queryDist (s.queryPt p)) (s.queryDist_nonneg _)
  constructor
  · intro h
    rw [if_pos h] at this
    exact this
  · intro h
    rw [if_neg h] at this
    exact this

/-- Everything about a successful call with a moving window not larger than the data set. -/
theorem OK.execute_window {n : ℕ} {env : Env} (he : KnnSpec env) {s : OK n} (hs : s.Wf)
    {args : ExecArgs} {k : ℤ} (hn : args.nClosest = some k) (hk : k ≤ n) (r : ExecResult) :
    s.execute env args = .ok r ↔
      args.style ∈ ["grid", "masked", "points"] ∧ 1 < k ∧ ∃ γ pts mask,
      s.variogramFunction s.params = .ok γ ∧ queryPoints args = .ok (pts, mask) ∧
      ¬ (s.coordinatesType = "euclidean" ∧ args.xpoints.isInt = true ∧ args.ypoints.isInt = true) ∧
      s.windowCheck env args.backend = .ok () ∧
      (∀ (j : ℕ) p, pts[j]? = some p → mask[j]? = some false →
        SelRegular (s.sel env k.toNat p) γ s.dataDist) ∧
      r = mkResult (resultShape args) mask pts (s.windowAnswer env γ k.toNat) := by
  by_cases hstyle : args.style ∈ ["grid", "masked", "points"]
  swap
  · rw [OK.execute_bad_style env s args hstyle]; simp [hstyle]
  by_cases hk1 : 1 < k
  swap
  · have : k ≤ 1 := not_lt.1 hk1
    unfold OK.execute
    rw [if_neg (not_not.2 hstyle), hn]
    simp [hk1, this]
  have hkn : k.toNat ≤ n := by omega
  simp only [hstyle, hk1, true_and]
  unfold OK.execute
  rw [if_neg (not_not.2 hstyle), OK.getKrigingMatrix_eq, hn]
  dsimp only
  simp only [py_pure, py_ok_bind, not_le.2 hk1, if_false]
  cases hγ : s.variogramFunction s.params with
  | error e => simp
  | ok γ =>
    simp only [py_ok_bind, Except.ok.injEq, exists_eq_left', ← exists_and_left]
    cases hq : queryPoints args with
    | error e => simp
    | ok pm =>
      obtain ⟨pts, mask⟩ := pm
      have hl := queryPoints_length hq
      simp only [py_ok_bind, OK.adjustQuery_eq, Except.ok.injEq, Prod.mk.injEq]
      have aux : ∀ P : List (ℝ × ℝ) → List Bool → Prop,
          (∃ γ' pts' mask', γ = γ' ∧ (pts = pts' ∧ mask = mask') ∧ P pts' mask') ↔ P pts mask := by
        intro P
        constructor
        · rintro ⟨_, _, _, rfl, ⟨rfl, rfl⟩, h⟩; exact h
        · intro h; exact ⟨_, _, _, rfl, ⟨rfl, rfl⟩, h⟩
      split
      · next hc =>
        simp only [py_error_bind, reduceCtorEq, false_iff]
        rintro ⟨_, _, _, rfl, ⟨rfl, rfl⟩, h, _⟩
        exact h hc
      · next hc =>
        simp only [py_ok_bind]
        unfold OK.movingWindow OK.windowCheck
        rw [if_pos hkn]
        dsimp only
        have key : ∀ (e : Py (List (ℝ × ℝ))) (P : Prop),
            (∀ r, e = .ok r ↔
              r = List.zipWith (fun q m => if m then (0, 0) else s.windowAnswer env γ k.toNat q) pts mask ∧ P) →
            ((do
              let res ← e
              .ok { shape := resultShape args
                    z := applyMask args.style mask (res.map Prod.fst)
                    ss := applyMask args.style mask (res.map Prod.snd) } : Py ExecResult) = .ok r ↔
              P ∧ r = mkResult (resultShape args) mask pts (s.windowAnswer env γ k.toNat)) := by
          intro e P h
          rw [py_bind_eq_ok]
          constructor
          · rintro ⟨res, h1, h2⟩
            obtain ⟨rfl, hP⟩ := (h res).1 h1
            rw [Except.ok.injEq] at h2
            exact ⟨hP, by rw [← h2, mkResult_of_loop hq]⟩
          · rintro ⟨hP, rfl⟩
            exact ⟨_, (h _).2 ⟨rfl, hP⟩, by rw [mkResult_of_loop hq]⟩
        by_cases hC : args.backend = "C"
        · by_cases hav : env.cAvailable = true
          · simp only [hC, hav, not_true_eq_false, and_false, if_false, String.reduceEq, if_true]
            cases hγc : s.cVariogram with
            | error e => simp [OK.cExecLoopMovingWindow, hγc]
            | ok γc =>
              rw [key _ _ (OK.cExecLoopMovingWindow_ok he s γ γc hγc (hs.cagree γ γc hγ hγc) hkn pts
                mask hl)]
              constructor
              · rintro ⟨h1, h2⟩
                exact ⟨γ, pts, mask, rfl, ⟨rfl, rfl⟩, hc, rfl, h1, h2⟩
              · rintro ⟨_, _, _, rfl, ⟨rfl, rfl⟩, -, -, h1, h2⟩
                exact ⟨h1, h2⟩
          · simp only [hC, hav, if_true, String.reduceEq, if_false, Bool.false_eq_true,
              not_false_eq_true, and_self]
            rw [key _ _ (OK.execLoopMovingWindow_ok he s γ hγ hkn pts mask hl)]
            constructor
            · rintro ⟨h1, h2⟩
              exact ⟨γ, pts, mask, rfl, ⟨rfl, rfl⟩, hc, trivial, h1, h2⟩
            · rintro ⟨_, _, _, rfl, ⟨rfl, rfl⟩, -, -, h1, h2⟩
              exact ⟨h1, h2⟩
        · simp only [hC, false_and, if_false]
          by_cases hlo : args.backend = "loop"
          · simp only [hlo, if_true]
            rw [key _ _ (OK.execLoopMovingWindow_ok he s γ hγ hkn pts mask hl)]
            constructor
            · rintro ⟨h1, h2⟩
              exact ⟨γ, pts, mask, rfl, ⟨rfl, rfl⟩, hc, trivial, h1, h2⟩
            · rintro ⟨_, _, _, rfl, ⟨rfl, rfl⟩, -, -, h1, h2⟩
              exact ⟨h1, h2⟩
          · simp [hlo]

/-! ### Three dimensions -/

/-- The data selected for a query point. -/
def OK3D.sel {n : ℕ} (env : Env) (s : OK3D n) (k : ℕ) (p : ℝ × ℝ × ℝ) : List (Fin n) :=
  (s.neighbours env k (s.queryPt p)).sel

/-- Estimate and variance at one query point from its window. -/
def OK3D.windowAnswer {n : ℕ} (env : Env) (s : OK3D n) (γ : ℝ → ℝ) (k : ℕ) (p : ℝ × ℝ × ℝ) : ℝ × ℝ :=
  selAnswer (s.sel env k p) s.exactValues γ s.dataDist s.VALUES (s.queryDist (s.queryPt p))

theorem OK3D.sel_spec {n : ℕ} {env : Env} (he : KnnSpec env) (s : OK3D n) {k : ℕ} (hk : k ≤ n)
    (p : ℝ × ℝ × ℝ) : (s.sel env k p).length = k ∧ (s.sel env k p).Nodup :=
  ⟨(he _ _ k hk).1, (he _ _ k hk).2.1⟩

theorem OK3D.execLoopMovingWindow_ok {n : ℕ} {env : Env} (he : KnnSpec env) (s : OK3D n) (γ : ℝ → ℝ)
    (hγ : s.variogramFunction s.params = .ok γ) {k : ℕ} (hk : k ≤ n) (pts : List (ℝ × ℝ × ℝ))
    (mask : List Bool) (hl : mask.length = pts.length) (r : List (ℝ × ℝ)) :
    s.execLoopMovingWindow (coreKrigingMatrix n γ s.dataDist)
      ((pts.map s.queryPt).map (s.neighbours env k)) mask = .ok r ↔
      r = List.zipWith (fun q m => if m then (0, 0) else s.windowAnswer env γ k q) pts mask ∧
      ∀ (j : ℕ) p, pts[j]? = some p → mask[j]? = some false →
        SelRegular (s.sel env k p) γ s.dataDist := by
  unfold OK3D.execLoopMovingWindow
  rw [List.map_map, List.zip_map_left, List.mapM_map]
  refine py_mapM_ite_ok pts mask hl ((0 : ℝ), (0 : ℝ))
    (fun p => s.windowBody (coreKrigingMatrix n γ s.dataDist) (s.neighbours env k (s.queryPt p)))
    (fun p => SelRegular (s.sel env k p) γ s.dataDist) (s.windowAnswer env γ k) .linAlgError ?_ r
  intro p
  have := OK3D.windowBody_eq s γ hγ (s.sel env k p) (s.sel_spec he hk p).2
    (s.queryDist (s.queryPt p)) (s.queryDist_nonneg _)
  constructor
  · intro h
    rw [if_pos h] at this
    exact this
  · intro h
    rw [if_neg h] at this
    exact this

/-- Everything about a successful call with a moving window not larger than the data set. -/
theorem OK3D.execute_window {n : ℕ} {env : Env} (he : KnnSpec env) {s : OK3D n}
    {args : ExecArgs3} {k : ℤ} (hn : args.nClosest = some k) (hk : k ≤ n) (r : ExecResult) :
    s.execute env args = .ok r ↔
      args.style ∈ ["grid", "masked", "points"] ∧ 1 < k ∧ ∃ γ pts mask,
      s.variogramFunction s.params = .ok γ ∧ queryPoints3 args = .ok (pts, mask) ∧
      ¬ (args.xpoints.isInt = true ∧ args.ypoints.isInt = true ∧ args.zpoints.isInt = true) ∧
      args.backend = "loop" ∧
      (∀ (j : ℕ) p, pts[j]? = some p → mask[j]? = some false →
        SelRegular (s.sel env k.toNat p) γ s.dataDist) ∧
      r = mkResult (resultShape3 args) mask pts (s.windowAnswer env γ k.toNat) := by
  by_cases hstyle : args.style ∈ ["grid", "masked", "points"]
  swap
  · rw [OK3D.execute_bad_style env s args hstyle]; simp [hstyle]
  have hkn : k.toNat ≤ n := by omega
  simp only [hstyle, true_and]
  unfold OK3D.execute
  rw [if_neg (not_not.2 hstyle), OK3D.getKrigingMatrix_eq, hn]
  dsimp only
  simp only [py_pure, py_ok_bind]
  cases hγ : s.variogramFunction s.params with
  | error e => simp
  | ok γ =>
    simp only [py_ok_bind, Except.ok.injEq, exists_eq_left', ← exists_and_left]
    cases hq : queryPoints3 args with
    | error e => simp
    | ok pm =>
      obtain ⟨pts, mask⟩ := pm
      have hl := (queryPoints3_spec hq).1
      simp only [py_ok_bind, OK3D.adjustQuery_eq, Except.ok.injEq, Prod.mk.injEq]
      split
      · next hc =>
        simp only [py_error_bind, reduceCtorEq, false_iff]
        rintro ⟨_, _, _, _, rfl, ⟨rfl, rfl⟩, h, _⟩
        exact h hc
      · next hc =>
        simp only [py_ok_bind]
        unfold OK3D.movingWindow
        by_cases hk0 : k ≤ 0
        · simp only [hk0, if_true, py_error_bind, reduceCtorEq, false_iff]
          rintro ⟨_, _, _, h1, _⟩
          omega
        rw [if_neg hk0]
        by_cases hlo : args.backend = "loop"
        · simp only [hlo, if_true]
          by_cases hk1 : k = 1
          · simp [hk1]
          have hk1' : 1 < k := by omega
          rw [if_neg hk1, if_pos hk, py_bind_eq_ok]
          constructor
          · rintro ⟨res, h1, h2⟩
            obtain ⟨rfl, hP⟩ := (OK3D.execLoopMovingWindow_ok he s γ hγ hkn pts mask hl res).1 h1
            rw [Except.ok.injEq] at h2
            exact ⟨γ, pts, mask, hk1', rfl, ⟨rfl, rfl⟩, hc, trivial, hP, by rw [← h2, mkResult3_of_loop hq]⟩
          · rintro ⟨_, _, _, _, rfl, ⟨rfl, rfl⟩, -, -, hP, rfl⟩
            exact ⟨_, (OK3D.execLoopMovingWindow_ok he s γ hγ hkn pts mask hl _).2 ⟨rfl, hP⟩,
              by rw [mkResult3_of_loop hq]⟩
        · simp [hlo]

end
end PyKrige
