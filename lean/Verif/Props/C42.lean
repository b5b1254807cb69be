import Verif.Props.C40

/-!
# C42: a moving window larger than the data set

`C42_loop_2d_partial`, `C42_loop_3d_partial`, `C42_geographic_partial`: with the Python loop (and, on the sphere, with every backend) `execute`
raises when `n_closest_points` exceeds the number of data, as soon as one query point is visible.  With the C extension
and Euclidean coordinates the claim is false: `C42_C_wrong` shows that `execute` returns whatever the unchecked array
accesses of lib/cok.pyx yield.
-/

namespace PyKrige
noncomputable section
open Matrix Spec

/-- Selecting the unbiasedness row twice makes the matrix singular. -/
theorem Window.beyond_det {n : ℕ} (w : Window n) (a : Matrix (Fin (n + 1)) (Fin (n + 1)) ℝ) {k : ℕ} (hk : w.sel.length < k) :
    (a.submatrix (w.beyondSelector k) (w.beyondSelector k)).det = 0 := by
  refine det_zero_of_row_eq (i := ⟨w.sel.length, by omega⟩) (j := Fin.last k) ?_ ?_
  · intro e
    have := congrArg Fin.val e
    simp at this
    omega
  · funext j
    have e1 : w.beyondSelector k ⟨w.sel.length, by omega⟩ = Fin.last n := dif_neg (by simp)
    have e2 : w.beyondSelector k (Fin.last k) = Fin.last n := dif_neg (by simp; omega)
    simp only [submatrix_apply, e1, e2]

theorem Window.beyond_raises {n : ℕ} (env : Env) (w : Window n) (γ : ℝ → ℝ) (exact : Bool)
    (a : Matrix (Fin (n + 1)) (Fin (n + 1)) ℝ) {k : ℕ} (hk : w.sel.length < k) :
    ∃ e, w.beyondBody env γ exact a k = .error e := by
  unfold Window.beyondBody
  cases env.atInfinity γ with
  | none => exact ⟨_, rfl⟩
  | some v =>
    simp only [scipySolve, w.beyond_det a hk, if_true]
    exact ⟨_, rfl⟩

theorem mem_zip_of_getElem? {α β : Type} {l : List α} {m : List β} {j : ℕ} {a : α} {b : β} (h1 : l[j]? = some a)
    (h2 : m[j]? = some b) : (a, b) ∈ l.zip m := by
  have : (l.zip m)[j]? = some (a, b) := by simp [List.getElem?_zip_eq_some, h1, h2]
  exact List.mem_of_getElem? this

/-- `OrdinaryKriging`, Euclidean coordinates, Python loop. -/
theorem C42_loop_2d_partial {n : ℕ} {env : Env} (he : KnnSpec env) (s : OK n) (hc : s.coordinatesType ≠ "geographic") {ea : ExecArgs} {k : ℤ}
    (hn : ea.nClosest = some k) (hk : (n : ℤ) < k)
    (hb : ea.backend = "loop" ∨ ea.backend = "C" ∧ env.cAvailable = false) {j : ℕ} {p : ℝ × ℝ} (hj : queryAt ea j = some p)
    (hm : maskedAt ea j = false) : ∃ e, s.execute env ea = .error e := by
  by_cases hst : ea.style ∈ ["grid", "masked", "points"]
  swap
  · exact ⟨_, C40_style_2d env s hst⟩
  by_cases hk1 : k ≤ 1
  · exact ⟨_, C40_window_2d env s hst hn hk1⟩
  cases hr : s.execute env ea with
  | error e => exact ⟨e, rfl⟩
  | ok r =>
    exfalso
    unfold OK.execute at hr
    rw [if_neg (not_not.2 hst), hn] at hr
    simp only [if_neg hk1] at hr
    obtain ⟨a, -, hr⟩ := py_bind_eq_ok.1 hr
    obtain ⟨⟨pts, mask⟩, hq, hr⟩ := py_bind_eq_ok.1 hr
    obtain ⟨qs, hqs, hr⟩ := py_bind_eq_ok.1 hr
    obtain ⟨res, hr, -⟩ := py_bind_eq_ok.1 hr
    have hbk : (if ea.backend = "C" ∧ ¬ env.cAvailable = true then "loop" else ea.backend) = "loop" := by
      rcases hb with hb | ⟨hb, hb'⟩ <;> simp [*]
    rw [hbk] at hr
    unfold OK.movingWindow at hr
    rw [if_neg (by omega), if_neg hc, if_pos rfl] at hr
    unfold OK.execLoopBeyond at hr
    have hp := (queryPoints_getElem? hq j).trans hj
    have hmk := queryPoints_maskedAt hq (List.getElem?_eq_some_iff.1 hp).1
    rw [hm] at hmk
    obtain ⟨q, hqj⟩ : ∃ q, qs[j]? = some q := by
      unfold OK.adjustQuery at hqs
      split at hqs
      · split at hqs
        · cases hqs
        · cases hqs; exact ⟨_, by rw [List.getElem?_map, hp]; rfl⟩
      · cases hqs; exact ⟨_, by rw [List.getElem?_map, hp]; rfl⟩
    obtain ⟨v, hv⟩ := (py_mapM_ok_iff _ _).1 ⟨res, hr⟩ _ (mem_zip_of_getElem? hqj hmk)
    simp only [Bool.false_eq_true, if_false] at hv
    obtain ⟨γ, -, hv⟩ := py_bind_eq_ok.1 hv
    have hlen : (s.neighbours env n q).sel.length < k.toNat := by
      have : (s.neighbours env n q).sel.length = n := by
        unfold OK.neighbours
        dsimp only
        split
        · exact (he _ _ n le_rfl).1
        · exact (he _ _ n le_rfl).1
      omega
    obtain ⟨e, hev⟩ := (s.neighbours env n q).beyond_raises env γ s.exactValues a hlen
    rw [hev] at hv
    cases hv

/-- `OrdinaryKriging`, geographic coordinates, any backend. -/
theorem C42_geographic_partial {n : ℕ} (env : Env) (s : OK n) (hc : s.coordinatesType = "geographic") {ea : ExecArgs} {k : ℤ}
    (hn : ea.nClosest = some k) (hk : (n : ℤ) < k) {j : ℕ} {p : ℝ × ℝ} (hj : queryAt ea j = some p) :
    ∃ e, s.execute env ea = .error e := by
  by_cases hst : ea.style ∈ ["grid", "masked", "points"]
  swap
  · exact ⟨_, C40_style_2d env s hst⟩
  by_cases hk1 : k ≤ 1
  · exact ⟨_, C40_window_2d env s hst hn hk1⟩
  cases hr : s.execute env ea with
  | error e => exact ⟨e, rfl⟩
  | ok r =>
    exfalso
    unfold OK.execute at hr
    rw [if_neg (not_not.2 hst), hn] at hr
    simp only [if_neg hk1] at hr
    obtain ⟨a, -, hr⟩ := py_bind_eq_ok.1 hr
    obtain ⟨⟨pts, mask⟩, hq, hr⟩ := py_bind_eq_ok.1 hr
    obtain ⟨qs, hqs, hr⟩ := py_bind_eq_ok.1 hr
    obtain ⟨res, hr, -⟩ := py_bind_eq_ok.1 hr
    unfold OK.movingWindow at hr
    have hp := (queryPoints_getElem? hq j).trans hj
    have hqn : qs ≠ [] := by
      rintro rfl
      unfold OK.adjustQuery at hqs
      rw [if_neg (by rw [hc]; decide)] at hqs
      have : pts = [] := List.map_eq_nil_iff.1 (Except.ok.inj hqs)
      rw [this] at hp
      simp at hp
    rw [if_neg (by omega), if_pos hc, if_neg hqn] at hr
    cases hr

/-- `OrdinaryKriging3D` (any backend: a moving window is available with "loop" only). -/
theorem C42_loop_3d_partial {n : ℕ} {env : Env} (he : KnnSpec env) (s : OK3D n) {ea : ExecArgs3} {k : ℤ}
    (hn : ea.nClosest = some k) (hk : (n : ℤ) < k) {j : ℕ} {p : ℝ × ℝ × ℝ} (hj : queryAt3 ea j = some p)
    (hm : maskedAt3 ea j = false) : ∃ e, s.execute env ea = .error e := by
  by_cases hst : ea.style ∈ ["grid", "masked", "points"]
  swap
  · exact ⟨_, C40_style_3d env s hst⟩
  by_cases hk1 : k ≤ 1
  · exact C40_window_3d env s hn hk1
  cases hr : s.execute env ea with
  | error e => exact ⟨e, rfl⟩
  | ok r =>
    exfalso
    unfold OK3D.execute at hr
    rw [if_neg (not_not.2 hst)] at hr
    obtain ⟨a, -, hr⟩ := py_bind_eq_ok.1 hr
    obtain ⟨⟨pts, mask⟩, hq, hr⟩ := py_bind_eq_ok.1 hr
    obtain ⟨qs, hqs, hr⟩ := py_bind_eq_ok.1 hr
    rw [hn] at hr
    obtain ⟨res, hr, -⟩ := py_bind_eq_ok.1 hr
    unfold OK3D.movingWindow at hr
    rw [if_neg (by omega)] at hr
    split at hr
    swap
    · cases hr
    rw [if_neg (by omega), if_neg (by omega)] at hr
    unfold OK3D.execLoopBeyond at hr
    have hp := (queryPoints3_getElem? hq j).trans hj
    have hmk := queryPoints3_maskedAt hq (List.getElem?_eq_some_iff.1 hp).1
    rw [hm] at hmk
    obtain ⟨q, hqj⟩ : ∃ q, qs[j]? = some q := by
      unfold OK3D.adjustQuery at hqs
      split at hqs
      · cases hqs
      · cases hqs; exact ⟨_, by rw [List.getElem?_map, hp]; rfl⟩
    obtain ⟨v, hv⟩ := (py_mapM_ok_iff _ _).1 ⟨res, hr⟩ _ (mem_zip_of_getElem? hqj hmk)
    simp only [Bool.false_eq_true, if_false] at hv
    obtain ⟨γ, -, hv⟩ := py_bind_eq_ok.1 hv
    have hlen : (s.neighbours env n q).sel.length < k.toNat := by
      have : (s.neighbours env n q).sel.length = n := (he _ _ n le_rfl).1
      omega
    obtain ⟨e, hev⟩ := (s.neighbours env n q).beyond_raises env γ s.exactValues a hlen
    rw [hev] at hv
    cases hv

/-- The claim fails for the C extension: two data, a window of three points; whatever numbers `v` the accesses outside the
arrays produce, `execute` returns them. -/
theorem C42_C_wrong (z : Fin 2 → ℝ) (v : ℝ × ℝ) : ∃ (env : Env) (s : OK 2) (r : ExecResult), KnnSpec env ∧
    OK.create env Demo.X Demo.O z (Demo.args 0 true false) = .ok s ∧
    s.execute env { Demo.pts [(2, 0)] "C" with nClosest := some 3 } = .ok r ∧ r.z = [some v.1] ∧ r.ss = [some v.2] := by
  obtain ⟨s, h, hp, hv, hfn, -, -, hint⟩ := Demo.ok z 0 true false
  have hct : s.coordinatesType = "euclidean" := (OK.create_fields h).2.2.2.2.1
  have hγ : s.variogramFunction s.params = .ok (linearFormula 1 0) := by
    rw [hp]; exact (chosen_evaluates (builtin_linear.2 rfl) (by simp [builtins]) (OK.create_function h (m := "linear") rfl)).1
  have hcv : ∃ γ, s.cVariogram = .ok γ := by
    unfold OK.cVariogram
    rw [hfn, hint, hp]
    simp [cGetVariogramModel]
    exact ⟨_, rfl⟩
  obtain ⟨γc, hcv⟩ := hcv
  have hq : queryPoints { Demo.pts [(2, 0)] "C" with nClosest := some 3 } = .ok ([(2, 0)], [false]) :=
    Demo.queryPoints_pts [(2, 0)] "C"
  have hqs : ∃ qs, s.adjustQuery { Demo.pts [(2, 0)] "C" with nClosest := some 3 } [(2, 0)] = .ok qs := by
    unfold OK.adjustQuery
    rw [if_pos hct]
    exact ⟨_, rfl⟩
  obtain ⟨qs, hqs⟩ := hqs
  have hrun : s.execute { stdEnv with outOfBounds := fun _ => v } { Demo.pts [(2, 0)] "C" with nClosest := some 3 } =
      .ok { shape := [1], z := [some v.1], ss := [some v.2] } := by
    unfold OK.execute
    rw [if_neg (by simp [Demo.pts])]
    simp only [OK.getKrigingMatrix_eq, hγ, py_pure, py_ok_bind, hq, hqs]
    rw [if_neg (by norm_num)]
    unfold OK.movingWindow
    rw [if_neg (by decide), if_neg (by rw [hct]; decide), if_neg (by simp [Demo.pts, stdEnv]), if_pos (by simp [Demo.pts, stdEnv])]
    simp only [hcv, py_ok_bind, py_pure]
    simp [resultShape, Demo.pts, applyMask]
  exact ⟨{ stdEnv with outOfBounds := fun _ => v }, s, _, stdEnv_knn, h, hrun, rfl, rfl⟩

/-- The hypotheses of `C42_loop_2d_partial` are met: two data, a window of three, one query point. -/
example (z : Fin 2 → ℝ) : ∃ s e, OK.create stdEnv Demo.X Demo.O z (Demo.args 0 true false) = .ok s ∧
    s.execute stdEnv { Demo.pts [(2, 0)] "loop" with nClosest := some 3 } = .error e := by
  obtain ⟨s, h, -⟩ := Demo.ok z 0 true false
  have hct : s.coordinatesType = "euclidean" := (OK.create_fields h).2.2.2.2.1
  obtain ⟨e, he⟩ := C42_loop_2d_partial stdEnv_knn s (by rw [hct]; decide) (ea := { Demo.pts [(2, 0)] "loop" with nClosest := some 3 })
    rfl (by norm_num) (.inl rfl) (j := 0) (p := (2, 0)) (by simp [queryAt, Demo.pts]) (by simp [maskedAt, Demo.pts])
  exact ⟨s, e, h, he⟩

end
end PyKrige
