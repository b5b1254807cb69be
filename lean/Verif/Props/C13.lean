import Verif.Props.C12

/-!
# C13: masks hide exactly the requested cells and change nothing else
-/

set_option linter.unusedSectionVars false
set_option linter.unusedVariables false
set_option linter.unusedSimpArgs false

namespace PyKrige
noncomputable section
open Matrix Spec

/-- The mask has the shape of the grid, `(ny, nx)`, or the transposed shape. -/
def Spec.MaskFits (ea : ExecArgs) (m : Mask2) : Prop :=
  (m.rows = ea.ypoints.vals.length ∧ m.cols = ea.xpoints.vals.length) ∨
  (m.rows = ea.xpoints.vals.length ∧ m.cols = ea.ypoints.vals.length)

/-- Is the cell of `xs[i]`, `ys[j]` masked?  `mask[j, i]`, or `mask[i, j]` if the mask was given transposed. -/
def Spec.hiddenCell (ea : ExecArgs) (m : Mask2) (i j : ℕ) : Bool :=
  if m.rows = ea.ypoints.vals.length ∧ m.cols = ea.xpoints.vals.length then m.get j i else m.get i j

/-- Shape `(nz, ny, nx)`, or first and last axis swapped. -/
def Spec.MaskFits3 (ea : ExecArgs3) (m : Mask3) : Prop :=
  match m with
  | .wrongNdim => False
  | .arr d0 d1 d2 _ => d1 = ea.ypoints.vals.length ∧
    ((d0 = ea.zpoints.vals.length ∧ d2 = ea.xpoints.vals.length) ∨
     (d0 = ea.xpoints.vals.length ∧ d2 = ea.zpoints.vals.length))

def Spec.hiddenCell3 (ea : ExecArgs3) (m : Mask3) (i j k : ℕ) : Bool :=
  match m with
  | .wrongNdim => false
  | .arr d0 d1 d2 get =>
    if d0 = ea.zpoints.vals.length ∧ d1 = ea.ypoints.vals.length ∧ d2 = ea.xpoints.vals.length then get k j i
    else get i j k

theorem maskedAt_cell {ea : ExecArgs} {m : Mask2} (hst : ea.style = "masked") (hm : ea.mask = some m) {i : ℕ} (j : ℕ)
    (hi : i < ea.xpoints.vals.length) : maskedAt ea (j * ea.xpoints.vals.length + i) = hiddenCell ea m i j := by
  have e : (j * ea.xpoints.vals.length + i) / ea.xpoints.vals.length = j := by
    rw [Nat.mul_comm, Nat.mul_add_div (by omega), Nat.div_eq_of_lt hi, Nat.add_zero]
  simp only [maskedAt, hst, if_true, hm, hiddenCell, mul_add_mod_lt hi, e]

theorem maskedAt3_cell {ea : ExecArgs3} {m : Mask3} (hst : ea.style = "masked") (hm : ea.mask = some m) {i j : ℕ} (k : ℕ)
    (hi : i < ea.xpoints.vals.length) (hj : j < ea.ypoints.vals.length) :
    maskedAt3 ea ((k * ea.ypoints.vals.length + j) * ea.xpoints.vals.length + i) = hiddenCell3 ea m i j k := by
  have e : ((k * ea.ypoints.vals.length + j) * ea.xpoints.vals.length + i) / ea.xpoints.vals.length =
      k * ea.ypoints.vals.length + j := by
    rw [Nat.mul_comm _ ea.xpoints.vals.length, Nat.mul_add_div (by omega), Nat.div_eq_of_lt hi, Nat.add_zero]
  have e' : (k * ea.ypoints.vals.length + j) / ea.ypoints.vals.length = k := by
    rw [Nat.mul_comm, Nat.mul_add_div (by omega), Nat.div_eq_of_lt hj, Nat.add_zero]
  cases m <;> simp only [maskedAt3, hst, if_true, hm, hiddenCell3, mul_add_mod_lt hi, mul_add_mod_lt hj, e, e']

theorem queryPoints_masked_iff {ea : ExecArgs} (hst : ea.style = "masked") :
    (∃ pm, queryPoints ea = .ok pm) ↔ ∃ m, ea.mask = some m ∧ MaskFits ea m := by
  unfold queryPoints MaskFits
  simp only [hst, List.mem_cons, List.not_mem_nil, or_false, or_true, if_true]
  cases ea.mask with
  | none => simp
  | some m =>
    simp only [Option.some.injEq, exists_eq_left']
    split_ifs with h1 h2
    · simp only [Except.ok.injEq, exists_eq', true_iff]; exact .inr h2
    · simp only [reduceCtorEq, exists_false, false_iff]
      rintro (h | h)
      · rcases h1 with h1 | h1; exacts [h1 h.1, h1 h.2]
      · exact h2 h
    · push Not at h1
      simp only [Except.ok.injEq, exists_eq', true_iff]; exact .inl h1

theorem queryPoints3_masked_iff {ea : ExecArgs3} (hst : ea.style = "masked") :
    (∃ pm, queryPoints3 ea = .ok pm) ↔ ∃ m, ea.mask = some m ∧ MaskFits3 ea m := by
  unfold queryPoints3 MaskFits3
  simp only [hst, List.mem_cons, List.not_mem_nil, or_false, or_true, if_true]
  cases ea.mask with
  | none => simp
  | some m =>
    simp only [Option.some.injEq, exists_eq_left']
    cases m with
    | wrongNdim => simp
    | arr d0 d1 d2 get =>
      dsimp only
      split_ifs with h1 h2
      · simp only [Except.ok.injEq, exists_eq', true_iff]; exact ⟨h2.2.2, .inr ⟨h2.1, h2.2.1⟩⟩
      · simp only [reduceCtorEq, exists_false, false_iff]
        rintro ⟨e, h | h⟩
        · rcases h1 with h1 | h1 | h1; exacts [h1 h.1, h1 e, h1 h.2]
        · exact h2 ⟨h.1, h.2, e⟩
      · push Not at h1
        simp only [Except.ok.injEq, exists_eq', true_iff]; exact ⟨h1.2.1, .inl ⟨h1.1, h1.2.2⟩⟩

theorem pick_masked_cell {ea : ExecArgs} (hst : ea.style = "masked") {i j : ℕ} (hi : i < ea.xpoints.vals.length) (hj : j < ea.ypoints.vals.length) :
    pick ea [j * ea.xpoints.vals.length + i] = (atPoint ea (ea.xpoints.vals[i], ea.ypoints.vals[j])) := by
  have hq := queryAt_cell (ea := ea) (by simp [hst]) hi hj
  
  simp [pick, atPoint, hq]

/-- `OrdinaryKriging`: the hidden cells are the ones the mask says; every other cell holds what a call for that
point alone returns. -/
theorem C13_masked_2d {n : ℕ} {env : Env} {x y z : Fin n → ℝ} {args : OKArgs} {s : OK n}
    (h : OK.create env x y z args = .ok s) {ea : ExecArgs} (ha : Admissible env args s ea.nClosest) (hst : ea.style = "masked") {r : ExecResult} (hr : s.execute env ea = .ok r) :
    ∃ m, ea.mask = some m ∧ MaskFits ea m ∧
    r.shape = [ea.ypoints.vals.length, ea.xpoints.vals.length] ∧
    r.z.length = ea.ypoints.vals.length * ea.xpoints.vals.length ∧ r.ss.length = ea.ypoints.vals.length * ea.xpoints.vals.length ∧
    ∀ i j (hi : i < ea.xpoints.vals.length) (hj : j < ea.ypoints.vals.length),
      (hiddenCell ea m i j = true →
        r.z[j * ea.xpoints.vals.length + i]? = some none ∧ r.ss[j * ea.xpoints.vals.length + i]? = some none) ∧
      (hiddenCell ea m i j = false →
        ∃ v e, s.execute env (atPoint ea (ea.xpoints.vals[i], ea.ypoints.vals[j])) = .ok ⟨[1], [some v], [some e]⟩ ∧
          r.z[j * ea.xpoints.vals.length + i]? = some (some v) ∧ r.ss[j * ea.xpoints.vals.length + i]? = some (some e)) := by
  have h0 := OK.create_pw h ha
  have t := h0.table r hr
  obtain ⟨acc, -⟩ := h0.ok_iff.1 ⟨r, hr⟩
  obtain ⟨m, hm, hfit⟩ := (queryPoints_masked_iff hst).1 acc.query
  have hl' := t.length (queryAt_isSome (ea := ea) (by simp [hst]))
  refine ⟨m, hm, hfit, by rw [t.shape_eq]; simp [resultShape, hst], hl'.1, hl'.2, fun i j hi hj => ⟨fun hh => ?_, fun hh => ?_⟩⟩
  · have hq := queryAt_cell (ea := ea) (by simp [hst]) hi hj
    have hma := maskedAt_cell hst hm j hi
    rw [hh] at hma
    rw [t.z_eq, t.ss_eq, hq]
    simp [hma]
  have hq := queryAt_cell (ea := ea) (by simp [hst]) hi hj
  have hma := maskedAt_cell hst hm j hi
  rw [hh] at hma
  obtain ⟨h1, h2⟩ := t.at_point hq hma
  obtain ⟨⟨sh, z', ss'⟩, h3, h4, h5, h6⟩ := C14_pick_2d h ha hr [j * ea.xpoints.vals.length + i] (by simp [hq, hma])
  refine ⟨_, _, ?_, h1, h2⟩
  rw [← pick_masked_cell hst hi hj, h3]
  rw [List.map_singleton, h1] at h5
  rw [List.map_singleton, h2] at h6
  have e1 : z' = [some _] := List.map_injective_iff.2 (Option.some_injective _) (h5.trans (by rfl : _ = List.map some [some _]))
  have e2 : ss' = [some _] := List.map_injective_iff.2 (Option.some_injective _) (h6.trans (by rfl : _ = List.map some [some _]))
  have e3 : sh = [1] := h4
  rw [e1, e2, e3]

/-- `OrdinaryKriging`: if 'grid' works then so does 'masked', with any mask of the right shape, and the visible cells
are those of the grid. -/
theorem C13_grid_2d {n : ℕ} {env : Env} {x y z : Fin n → ℝ} {args : OKArgs} {s : OK n}
    (h : OK.create env x y z args = .ok s) {ea : ExecArgs} (ha : Admissible env args s ea.nClosest) {m : Mask2} (hfit : MaskFits ea m) {g : ExecResult}
    (hr : s.execute env { ea with style := "grid" } = .ok g) :
    ∃ r, s.execute env { ea with style := "masked", mask := some m } = .ok r ∧ r.shape = g.shape ∧
    ∀ i j (hi : i < ea.xpoints.vals.length) (hj : j < ea.ypoints.vals.length),
      r.z[j * ea.xpoints.vals.length + i]? = (if hiddenCell ea m i j then some none else g.z[j * ea.xpoints.vals.length + i]?) ∧
      r.ss[j * ea.xpoints.vals.length + i]? = (if hiddenCell ea m i j then some none else g.ss[j * ea.xpoints.vals.length + i]?) := by
  have h1 := OK.create_pw h (ea := { ea with style := "grid" }) ha
  have h2 := OK.create_pw h (ea := { ea with style := "masked", mask := some m }) ha
  obtain ⟨r, hr', t, t'⟩ := h1.select h2 hr
    (fun a => ⟨by simp, a.win, a.vario, (queryPoints_masked_iff rfl).2 ⟨m, rfl, hfit⟩, a.noInt, a.backend, a.solvable⟩)
    (fun _ j p hp _ => ⟨j, hp, maskedAt_grid rfl j, fun hv => hv⟩)
  refine ⟨r, hr', by rw [t.shape_eq, t'.shape_eq]; simp [resultShape], fun i j hi hj => ?_⟩
  have hq := queryAt_cell (ea := { ea with style := "grid" }) (by simp) hi hj
  have hq' := queryAt_cell (ea := { ea with style := "masked", mask := some m }) (by simp) hi hj
  have e := t.at_point hq (maskedAt_grid rfl _)
  have hma := maskedAt_cell (ea := { ea with style := "masked", mask := some m }) rfl rfl j hi
  have ez := t'.z_eq (j * ea.xpoints.vals.length + i)
  have es := t'.ss_eq (j * ea.xpoints.vals.length + i)
  dsimp only at hma hq' hq e ez es
  rw [hq', hma] at ez es
  rw [ez, es, e.1, e.2]
  change _ = (if hiddenCell { ea with style := "masked", mask := some m } m i j then _ else _) ∧ _ = (if hiddenCell { ea with style := "masked", mask := some m } m i j then _ else _)
  cases hiddenCell { ea with style := "masked", mask := some m } m i j <;> exact ⟨rfl, rfl⟩

/-- `OrdinaryKriging`: a mask of any other shape is a `ValueError`, no mask at all an `IOError` (`OSError`). -/
theorem C13_refused_2d {n : ℕ} {env : Env} {s : OK n} {ea : ExecArgs} (hst : ea.style = "masked")
    (hv : ∃ γ, s.variogramFunction s.params = .ok γ) (hwin : ∀ k, ea.nClosest = some k → 1 < k) :
    (ea.mask = none → s.execute env ea = .error .ioError) ∧
    (∀ m, ea.mask = some m → ¬ MaskFits ea m → s.execute env ea = .error .valueError) := by
  obtain ⟨γ, hγ⟩ := hv
  have key : ∀ e, queryPoints ea = .error e → s.execute env ea = .error e := by
    intro e he
    unfold OK.execute
    rw [if_neg (by simp [hst])]
    cases hn : ea.nClosest with
    | none => simp [OK.getKrigingMatrix, hγ, he]
    | some k => simp [OK.getKrigingMatrix, hγ, he, not_le.2 (hwin k hn)]
  refine ⟨fun hm => key _ (by simp [queryPoints, hst, hm]), fun m hm hf => ?_⟩
  have hne : ¬ ∃ pm, queryPoints ea = .ok pm := by
    rw [queryPoints_masked_iff hst]
    rintro ⟨m', h1, h2⟩
    rw [hm] at h1; cases h1
    exact hf h2
  refine key _ ?_
  unfold queryPoints at hne ⊢
  simp only [hst, List.mem_cons, List.not_mem_nil, or_false, or_true, if_true, hm] at hne ⊢
  split_ifs at hne ⊢ <;> first | rfl | exact absurd ⟨_, rfl⟩ hne

theorem pick3_masked_cell {ea : ExecArgs3} (hst : ea.style = "masked") {i j k : ℕ} (hi : i < ea.xpoints.vals.length) (hj : j < ea.ypoints.vals.length) (hl : k < ea.zpoints.vals.length) :
    pick3 ea [(k * ea.ypoints.vals.length + j) * ea.xpoints.vals.length + i] = (atPoint3 ea (ea.xpoints.vals[i], ea.ypoints.vals[j], ea.zpoints.vals[k])) := by
  have hq := queryAt3_cell (ea := ea) (by simp [hst]) hi hj hl
  
  simp [pick3, atPoint3, hq]

/-- `OrdinaryKriging3D`: the hidden cells are the ones the mask says; every other cell holds what a call for that
point alone returns. -/
theorem C13_masked_3d {n : ℕ} {env : Env} {x y z v : Fin n → ℝ} {args : OK3DArgs} {s : OK3D n}
    (h : OK3D.create env x y z v args = .ok s) {ea : ExecArgs3} (hk : KnnSpec env)
    (hw : WindowFits n ea.nClosest) (hst : ea.style = "masked") {r : ExecResult} (hr : s.execute env ea = .ok r) :
    ∃ m, ea.mask = some m ∧ MaskFits3 ea m ∧
    r.shape = [ea.zpoints.vals.length, ea.ypoints.vals.length, ea.xpoints.vals.length] ∧
    r.z.length = ea.zpoints.vals.length * ea.ypoints.vals.length * ea.xpoints.vals.length ∧ r.ss.length = ea.zpoints.vals.length * ea.ypoints.vals.length * ea.xpoints.vals.length ∧
    ∀ i j k (hi : i < ea.xpoints.vals.length) (hj : j < ea.ypoints.vals.length) (hl : k < ea.zpoints.vals.length),
      (hiddenCell3 ea m i j k = true →
        r.z[(k * ea.ypoints.vals.length + j) * ea.xpoints.vals.length + i]? = some none ∧ r.ss[(k * ea.ypoints.vals.length + j) * ea.xpoints.vals.length + i]? = some none) ∧
      (hiddenCell3 ea m i j k = false →
        ∃ v e, s.execute env (atPoint3 ea (ea.xpoints.vals[i], ea.ypoints.vals[j], ea.zpoints.vals[k])) = .ok ⟨[1], [some v], [some e]⟩ ∧
          r.z[(k * ea.ypoints.vals.length + j) * ea.xpoints.vals.length + i]? = some (some v) ∧ r.ss[(k * ea.ypoints.vals.length + j) * ea.xpoints.vals.length + i]? = some (some e)) := by
  have h0 := OK3D.create_pw h hk hw
  have t := h0.table r hr
  obtain ⟨acc, -⟩ := h0.ok_iff.1 ⟨r, hr⟩
  obtain ⟨m, hm, hfit⟩ := (queryPoints3_masked_iff hst).1 acc.query
  have hl' := t.length (queryAt3_isSome (ea := ea) (by simp [hst]))
  refine ⟨m, hm, hfit, by rw [t.shape_eq]; simp [resultShape3, hst], hl'.1, hl'.2, fun i j k hi hj hl => ⟨fun hh => ?_, fun hh => ?_⟩⟩
  · have hq := queryAt3_cell (ea := ea) (by simp [hst]) hi hj hl
    have hma := maskedAt3_cell hst hm k hi hj
    rw [hh] at hma
    rw [t.z_eq, t.ss_eq, hq]
    simp [hma]
  have hq := queryAt3_cell (ea := ea) (by simp [hst]) hi hj hl
  have hma := maskedAt3_cell hst hm k hi hj
  rw [hh] at hma
  obtain ⟨h1, h2⟩ := t.at_point hq hma
  obtain ⟨⟨sh, z', ss'⟩, h3, h4, h5, h6⟩ := C14_pick_3d h hk hw hr [(k * ea.ypoints.vals.length + j) * ea.xpoints.vals.length + i] (by simp [hq, hma])
  refine ⟨_, _, ?_, h1, h2⟩
  rw [← pick3_masked_cell hst hi hj hl, h3]
  rw [List.map_singleton, h1] at h5
  rw [List.map_singleton, h2] at h6
  have e1 : z' = [some _] := List.map_injective_iff.2 (Option.some_injective _) (h5.trans (by rfl : _ = List.map some [some _]))
  have e2 : ss' = [some _] := List.map_injective_iff.2 (Option.some_injective _) (h6.trans (by rfl : _ = List.map some [some _]))
  have e3 : sh = [1] := h4
  rw [e1, e2, e3]

/-- `OrdinaryKriging3D`: if 'grid' works then so does 'masked', with any mask of the right shape, and the visible cells
are those of the grid. -/
theorem C13_grid_3d {n : ℕ} {env : Env} {x y z v : Fin n → ℝ} {args : OK3DArgs} {s : OK3D n}
    (h : OK3D.create env x y z v args = .ok s) {ea : ExecArgs3} (hk : KnnSpec env)
    (hw : WindowFits n ea.nClosest) {m : Mask3} (hfit : MaskFits3 ea m) {g : ExecResult}
    (hr : s.execute env { ea with style := "grid" } = .ok g) :
    ∃ r, s.execute env { ea with style := "masked", mask := some m } = .ok r ∧ r.shape = g.shape ∧
    ∀ i j k (hi : i < ea.xpoints.vals.length) (hj : j < ea.ypoints.vals.length) (hl : k < ea.zpoints.vals.length),
      r.z[(k * ea.ypoints.vals.length + j) * ea.xpoints.vals.length + i]? = (if hiddenCell3 ea m i j k then some none else g.z[(k * ea.ypoints.vals.length + j) * ea.xpoints.vals.length + i]?) ∧
      r.ss[(k * ea.ypoints.vals.length + j) * ea.xpoints.vals.length + i]? = (if hiddenCell3 ea m i j k then some none else g.ss[(k * ea.ypoints.vals.length + j) * ea.xpoints.vals.length + i]?) := by
  have h1 := OK3D.create_pw h (ea := { ea with style := "grid" }) hk hw
  have h2 := OK3D.create_pw h (ea := { ea with style := "masked", mask := some m }) hk hw
  obtain ⟨r, hr', t, t'⟩ := h1.select h2 hr
    (fun a => ⟨by simp, a.win, a.vario, (queryPoints3_masked_iff rfl).2 ⟨m, rfl, hfit⟩, a.noInt, a.backend, a.solvable⟩)
    (fun _ j p hp _ => ⟨j, hp, maskedAt3_grid rfl j, fun hv => hv⟩)
  refine ⟨r, hr', by rw [t.shape_eq, t'.shape_eq]; simp [resultShape3], fun i j k hi hj hl => ?_⟩
  have hq := queryAt3_cell (ea := { ea with style := "grid" }) (by simp) hi hj hl
  have hq' := queryAt3_cell (ea := { ea with style := "masked", mask := some m }) (by simp) hi hj hl
  have e := t.at_point hq (maskedAt3_grid rfl _)
  have hma := maskedAt3_cell (ea := { ea with style := "masked", mask := some m }) rfl rfl k hi hj
  have ez := t'.z_eq ((k * ea.ypoints.vals.length + j) * ea.xpoints.vals.length + i)
  have es := t'.ss_eq ((k * ea.ypoints.vals.length + j) * ea.xpoints.vals.length + i)
  dsimp only at hma hq' hq e ez es
  rw [hq', hma] at ez es
  rw [ez, es, e.1, e.2]
  change _ = (if hiddenCell3 { ea with style := "masked", mask := some m } m i j k then _ else _) ∧ _ = (if hiddenCell3 { ea with style := "masked", mask := some m } m i j k then _ else _)
  cases hiddenCell3 { ea with style := "masked", mask := some m } m i j k <;> exact ⟨rfl, rfl⟩

/-- `OrdinaryKriging3D`: a mask of any other shape is a `ValueError`, no mask at all an `IOError` (`OSError`). -/
theorem C13_refused_3d {n : ℕ} {env : Env} {s : OK3D n} {ea : ExecArgs3} (hst : ea.style = "masked")
    (hv : ∃ γ, s.variogramFunction s.params = .ok γ) :
    (ea.mask = none → s.execute env ea = .error .ioError) ∧
    (∀ m, ea.mask = some m → ¬ MaskFits3 ea m → s.execute env ea = .error .valueError) := by
  obtain ⟨γ, hγ⟩ := hv
  have key : ∀ e, queryPoints3 ea = .error e → s.execute env ea = .error e := by
    intro e he
    unfold OK3D.execute
    rw [if_neg (by simp [hst])]
    simp [OK3D.getKrigingMatrix, hγ, he]
  refine ⟨fun hm => key _ (by simp [queryPoints3, hst, hm]), fun m hm hf => ?_⟩
  have hne : ¬ ∃ pm, queryPoints3 ea = .ok pm := by
    rw [queryPoints3_masked_iff hst]
    rintro ⟨m', h1, h2⟩
    rw [hm] at h1; cases h1
    exact hf h2
  refine key _ ?_
  unfold queryPoints3 at hne ⊢
  simp only [hst, List.mem_cons, List.not_mem_nil, or_false, or_true, if_true, hm] at hne ⊢
  cases m with
  | wrongNdim => rfl
  | arr d0 d1 d2 get =>
    dsimp only at hne ⊢
    split_ifs at hne ⊢ <;> first | rfl | exact absurd ⟨_, rfl⟩ hne

theorem pickUK_masked_cell {ea : UKExecArgs} (hst : ea.toExec.style = "masked") {i j : ℕ} (hi : i < ea.toExec.xpoints.vals.length) (hj : j < ea.toExec.ypoints.vals.length) :
    pickUK ea [j * ea.toExec.xpoints.vals.length + i] = { toExec := (atPoint ea.toExec (ea.toExec.xpoints.vals[i], ea.toExec.ypoints.vals[j])), spec := (pickUK ea [j * ea.toExec.xpoints.vals.length + i]).spec } := by
  have hq := queryAt_cell (ea := ea.toExec) (by simp [hst]) hi hj
  have e : pick ea.toExec [j * ea.toExec.xpoints.vals.length + i] = (atPoint ea.toExec (ea.toExec.xpoints.vals[i], ea.toExec.ypoints.vals[j])) := by
    simp [pick, atPoint, hq]
  rw [← e]; rfl
/-- `UniversalKriging`: the hidden cells are the ones the mask says; every other cell holds what a call for that
point alone returns. -/
theorem C13_masked_uk {n : ℕ} {env : Env} {x y z : Fin n → ℝ} {args : UKArgs} {s : UK n}
    (h : UK.create env x y z args = .ok s) {ea : UKExecArgs}
    (hs : "specified" ∉ args.driftTerms ∨ ea.toExec.backend = "vectorized") (hst : ea.toExec.style = "masked") {r : ExecResult} (hr : s.execute ea = .ok r) :
    ∃ m, ea.toExec.mask = some m ∧ MaskFits ea.toExec m ∧
    r.shape = [ea.toExec.ypoints.vals.length, ea.toExec.xpoints.vals.length] ∧
    r.z.length = ea.toExec.ypoints.vals.length * ea.toExec.xpoints.vals.length ∧ r.ss.length = ea.toExec.ypoints.vals.length * ea.toExec.xpoints.vals.length ∧
    ∀ i j (hi : i < ea.toExec.xpoints.vals.length) (hj : j < ea.toExec.ypoints.vals.length),
      (hiddenCell ea.toExec m i j = true →
        r.z[j * ea.toExec.xpoints.vals.length + i]? = some none ∧ r.ss[j * ea.toExec.xpoints.vals.length + i]? = some none) ∧
      (hiddenCell ea.toExec m i j = false →
        ∃ v e, s.execute { toExec := (atPoint ea.toExec (ea.toExec.xpoints.vals[i], ea.toExec.ypoints.vals[j])), spec := (pickUK ea [j * ea.toExec.xpoints.vals.length + i]).spec } = .ok ⟨[1], [some v], [some e]⟩ ∧
          r.z[j * ea.toExec.xpoints.vals.length + i]? = some (some v) ∧ r.ss[j * ea.toExec.xpoints.vals.length + i]? = some (some e)) := by
  have h0 := UK.create_pw h ea
  have t := h0.table r hr
  obtain ⟨acc, -⟩ := h0.ok_iff.1 ⟨r, hr⟩
  obtain ⟨m, hm, hfit⟩ := (queryPoints_masked_iff hst).1 acc.query
  have hl' := t.length (queryAt_isSome (ea := ea.toExec) (by simp [hst]))
  refine ⟨m, hm, hfit, by rw [t.shape_eq]; simp [resultShape, hst], hl'.1, hl'.2, fun i j hi hj => ⟨fun hh => ?_, fun hh => ?_⟩⟩
  · have hq := queryAt_cell (ea := ea.toExec) (by simp [hst]) hi hj
    have hma := maskedAt_cell hst hm j hi
    rw [hh] at hma
    rw [t.z_eq, t.ss_eq, hq]
    simp [hma]
  have hq := queryAt_cell (ea := ea.toExec) (by simp [hst]) hi hj
  have hma := maskedAt_cell hst hm j hi
  rw [hh] at hma
  obtain ⟨h1, h2⟩ := t.at_point hq hma
  obtain ⟨⟨sh, z', ss'⟩, h3, h4, h5, h6⟩ := C14_pick_uk h hs hr [j * ea.toExec.xpoints.vals.length + i] (by simp [hq, hma])
  refine ⟨_, _, ?_, h1, h2⟩
  rw [← pickUK_masked_cell hst hi hj, h3]
  rw [List.map_singleton, h1] at h5
  rw [List.map_singleton, h2] at h6
  have e1 : z' = [some _] := List.map_injective_iff.2 (Option.some_injective _) (h5.trans (by rfl : _ = List.map some [some _]))
  have e2 : ss' = [some _] := List.map_injective_iff.2 (Option.some_injective _) (h6.trans (by rfl : _ = List.map some [some _]))
  have e3 : sh = [1] := h4
  rw [e1, e2, e3]

theorem UK.specGrids_masked {n : ℕ} {s : UK n} (ea : UKExecArgs) (m : Mask2) :
    s.specGrids { ea with toExec := { ea.toExec with style := "masked", mask := some m } } = s.specGrids { ea with toExec := { ea.toExec with style := "grid" } } := by
  unfold UK.specGrids
  have e : checkSpec "masked" = checkSpec "grid" := by
    funext nx ny a; cases a <;> simp [checkSpec]
  dsimp only
  rw [e]

/-- `UniversalKriging`: the same. -/
theorem C13_grid_uk {n : ℕ} {env : Env} {x y z : Fin n → ℝ} {args : UKArgs} {s : UK n}
    (h : UK.create env x y z args = .ok s) {ea : UKExecArgs}
    (hs : "specified" ∉ args.driftTerms ∨ ea.toExec.backend = "vectorized") {m : Mask2} (hfit : MaskFits ea.toExec m) {g : ExecResult}
    (hr : s.execute { ea with toExec := { ea.toExec with style := "grid" } } = .ok g) :
    ∃ r, s.execute { ea with toExec := { ea.toExec with style := "masked", mask := some m } } = .ok r ∧ r.shape = g.shape ∧
    ∀ i j (hi : i < ea.toExec.xpoints.vals.length) (hj : j < ea.toExec.ypoints.vals.length),
      r.z[j * ea.toExec.xpoints.vals.length + i]? = (if hiddenCell ea.toExec m i j then some none else g.z[j * ea.toExec.xpoints.vals.length + i]?) ∧
      r.ss[j * ea.toExec.xpoints.vals.length + i]? = (if hiddenCell ea.toExec m i j then some none else g.ss[j * ea.toExec.xpoints.vals.length + i]?) := by
  have h1 := UK.create_pw h { ea with toExec := { ea.toExec with style := "grid" } }
  have h2 := UK.create_pw h { ea with toExec := { ea.toExec with style := "masked", mask := some m } }
  obtain ⟨acc, -⟩ := h1.ok_iff.1 ⟨g, hr⟩
  have hg : ∃ q, s.specGrids { ea with toExec := { ea.toExec with style := "masked", mask := some m } } = .ok q := by rw [UK.specGrids_masked]; exact acc.spec
  have hs' : s.specified = none ∨ ea.toExec.backend = "vectorized" := hs.imp (UK.specified_none h) id
  obtain ⟨r, hr', t, t'⟩ := h1.select h2 hr
    (fun a => ⟨by simp, a.vario, (queryPoints_masked_iff rfl).2 ⟨m, rfl, hfit⟩, hg, a.noInt, a.backend, a.solvable⟩)
    (fun _ j p hp _ => ⟨j, hp, .inl (maskedAt_grid rfl j), fun hv => UK.valid_congr (ea := { ea with toExec := { ea.toExec with style := "grid" } }) (ea' := { ea with toExec := { ea.toExec with style := "masked", mask := some m } }) rfl (hs.imp (UK.specified_none h) id) _ hv⟩)
  refine ⟨r, hr', by rw [t.shape_eq, t'.shape_eq]; simp [resultShape], fun i j hi hj => ?_⟩
  have hq := queryAt_cell (ea := { ea.toExec with style := "grid" }) (by simp) hi hj
  have hq' := queryAt_cell (ea := { ea.toExec with style := "masked", mask := some m }) (by simp) hi hj
  have e := t.at_point hq (maskedAt_grid rfl _)
  have hma := maskedAt_cell (ea := { ea.toExec with style := "masked", mask := some m }) rfl rfl j hi
  have ez := t'.z_eq (j * ea.toExec.xpoints.vals.length + i)
  have es := t'.ss_eq (j * ea.toExec.xpoints.vals.length + i)
  have ea' : ∀ p, queryAt { ea.toExec with style := "grid" } (j * ea.toExec.xpoints.vals.length + i) = some p → 
      s.ans { ea with toExec := { ea.toExec with style := "masked", mask := some m } } (j * ea.toExec.xpoints.vals.length + i) p = s.ans { ea with toExec := { ea.toExec with style := "grid" } } (j * ea.toExec.xpoints.vals.length + i) p := by
    intro p hp
    unfold UK.ans
    have e1 := UK.sv_query (ea := { ea with toExec := { ea.toExec with style := "grid" } }) hs' acc.spec (j := j * ea.toExec.xpoints.vals.length + i) hp
    have e2 := UK.sv_query (ea := { ea with toExec := { ea.toExec with style := "masked", mask := some m } }) hs' hg (j := j * ea.toExec.xpoints.vals.length + i) (p := p) (hq'.trans (hq.symm.trans hp))
    rw [e1, e2]
    rfl
  have ean := ea' _ hq
  dsimp only at hma hq' hq e ez es ean
  rw [hq', hma] at ez es
  rw [ez, es, e.1, e.2, Option.map_some, Option.map_some, ean]
  change _ = (if hiddenCell { ea.toExec with style := "masked", mask := some m } m i j then _ else _) ∧ _ = (if hiddenCell { ea.toExec with style := "masked", mask := some m } m i j then _ else _)
  cases hiddenCell { ea.toExec with style := "masked", mask := some m } m i j <;> exact ⟨rfl, rfl⟩

/-- `UniversalKriging`: a mask of any other shape is a `ValueError`, no mask at all an `IOError` (`OSError`). -/
theorem C13_refused_uk {n : ℕ} {s : UK n} {ea : UKExecArgs} (hst : ea.toExec.style = "masked")
    (hv : ∃ γ, s.variogramFunction s.params = .ok γ) :
    (ea.toExec.mask = none → s.execute ea = .error .ioError) ∧
    (∀ m, ea.toExec.mask = some m → ¬ MaskFits ea.toExec m → s.execute ea = .error .valueError) := by
  obtain ⟨γ, hγ⟩ := hv
  have key : ∀ e, queryPoints ea.toExec = .error e → s.execute ea = .error e := by
    intro e he
    unfold UK.execute UK.executeW
    rw [if_neg (by simp [hst]), UK.getKrigingMatrix_eq, hγ]
    simp [he]
  refine ⟨fun hm => key _ (by simp [queryPoints, hst, hm]), fun m hm hf => ?_⟩
  have hne : ¬ ∃ pm, queryPoints ea.toExec = .ok pm := by
    rw [queryPoints_masked_iff hst]
    rintro ⟨m', h1, h2⟩
    rw [hm] at h1; cases h1
    exact hf h2
  refine key _ ?_
  unfold queryPoints at hne ⊢
  simp only [hst, List.mem_cons, List.not_mem_nil, or_false, or_true, if_true, hm] at hne ⊢
  split_ifs at hne ⊢ <;> first | rfl | exact absurd ⟨_, rfl⟩ hne

theorem pickUK3_masked_cell {ea : UK3DExecArgs} (hst : ea.toExec.style = "masked") {i j k : ℕ} (hi : i < ea.toExec.xpoints.vals.length) (hj : j < ea.toExec.ypoints.vals.length) (hl : k < ea.toExec.zpoints.vals.length) :
    pickUK3 ea [(k * ea.toExec.ypoints.vals.length + j) * ea.toExec.xpoints.vals.length + i] = { toExec := (atPoint3 ea.toExec (ea.toExec.xpoints.vals[i], ea.toExec.ypoints.vals[j], ea.toExec.zpoints.vals[k])), spec := (pickUK3 ea [(k * ea.toExec.ypoints.vals.length + j) * ea.toExec.xpoints.vals.length + i]).spec } := by
  have hq := queryAt3_cell (ea := ea.toExec) (by simp [hst]) hi hj hl
  have e : pick3 ea.toExec [(k * ea.toExec.ypoints.vals.length + j) * ea.toExec.xpoints.vals.length + i] = (atPoint3 ea.toExec (ea.toExec.xpoints.vals[i], ea.toExec.ypoints.vals[j], ea.toExec.zpoints.vals[k])) := by
    simp [pick3, atPoint3, hq]
  rw [← e]; rfl
/-- `UniversalKriging3D`: the hidden cells are the ones the mask says; every other cell holds what a call for that
point alone returns. -/
theorem C13_masked_uk3d {n : ℕ} {env : Env} {x y z v : Fin n → ℝ} {args : UK3DArgs} {s : UK3D n}
    (h : UK3D.create env x y z v args = .ok s) {ea : UK3DExecArgs}
    (hs : "specified" ∉ args.driftTerms ∨ ea.toExec.backend = "vectorized") (hst : ea.toExec.style = "masked") {r : ExecResult} (hr : s.execute ea = .ok r) :
    ∃ m, ea.toExec.mask = some m ∧ MaskFits3 ea.toExec m ∧
    r.shape = [ea.toExec.zpoints.vals.length, ea.toExec.ypoints.vals.length, ea.toExec.xpoints.vals.length] ∧
    r.z.length = ea.toExec.zpoints.vals.length * ea.toExec.ypoints.vals.length * ea.toExec.xpoints.vals.length ∧ r.ss.length = ea.toExec.zpoints.vals.length * ea.toExec.ypoints.vals.length * ea.toExec.xpoints.vals.length ∧
    ∀ i j k (hi : i < ea.toExec.xpoints.vals.length) (hj : j < ea.toExec.ypoints.vals.length) (hl : k < ea.toExec.zpoints.vals.length),
      (hiddenCell3 ea.toExec m i j k = true →
        r.z[(k * ea.toExec.ypoints.vals.length + j) * ea.toExec.xpoints.vals.length + i]? = some none ∧ r.ss[(k * ea.toExec.ypoints.vals.length + j) * ea.toExec.xpoints.vals.length + i]? = some none) ∧
      (hiddenCell3 ea.toExec m i j k = false →
        ∃ v e, s.execute { toExec := (atPoint3 ea.toExec (ea.toExec.xpoints.vals[i], ea.toExec.ypoints.vals[j], ea.toExec.zpoints.vals[k])), spec := (pickUK3 ea [(k * ea.toExec.ypoints.vals.length + j) * ea.toExec.xpoints.vals.length + i]).spec } = .ok ⟨[1], [some v], [some e]⟩ ∧
          r.z[(k * ea.toExec.ypoints.vals.length + j) * ea.toExec.xpoints.vals.length + i]? = some (some v) ∧ r.ss[(k * ea.toExec.ypoints.vals.length + j) * ea.toExec.xpoints.vals.length + i]? = some (some e)) := by
  have h0 := UK3D.create_pw h ea
  have t := h0.table r hr
  obtain ⟨acc, -⟩ := h0.ok_iff.1 ⟨r, hr⟩
  obtain ⟨m, hm, hfit⟩ := (queryPoints3_masked_iff hst).1 acc.query
  have hl' := t.length (queryAt3_isSome (ea := ea.toExec) (by simp [hst]))
  refine ⟨m, hm, hfit, by rw [t.shape_eq]; simp [resultShape3, hst], hl'.1, hl'.2, fun i j k hi hj hl => ⟨fun hh => ?_, fun hh => ?_⟩⟩
  · have hq := queryAt3_cell (ea := ea.toExec) (by simp [hst]) hi hj hl
    have hma := maskedAt3_cell hst hm k hi hj
    rw [hh] at hma
    rw [t.z_eq, t.ss_eq, hq]
    simp [hma]
  have hq := queryAt3_cell (ea := ea.toExec) (by simp [hst]) hi hj hl
  have hma := maskedAt3_cell hst hm k hi hj
  rw [hh] at hma
  obtain ⟨h1, h2⟩ := t.at_point hq hma
  obtain ⟨⟨sh, z', ss'⟩, h3, h4, h5, h6⟩ := C14_pick_uk3d h hs hr [(k * ea.toExec.ypoints.vals.length + j) * ea.toExec.xpoints.vals.length + i] (by simp [hq, hma])
  refine ⟨_, _, ?_, h1, h2⟩
  rw [← pickUK3_masked_cell hst hi hj hl, h3]
  rw [List.map_singleton, h1] at h5
  rw [List.map_singleton, h2] at h6
  have e1 : z' = [some _] := List.map_injective_iff.2 (Option.some_injective _) (h5.trans (by rfl : _ = List.map some [some _]))
  have e2 : ss' = [some _] := List.map_injective_iff.2 (Option.some_injective _) (h6.trans (by rfl : _ = List.map some [some _]))
  have e3 : sh = [1] := h4
  rw [e1, e2, e3]

theorem UK3D.specGrids_masked {n : ℕ} {s : UK3D n} (ea : UK3DExecArgs) (m : Mask3) :
    s.specGrids { ea with toExec := { ea.toExec with style := "masked", mask := some m } } = s.specGrids { ea with toExec := { ea.toExec with style := "grid" } } := by
  unfold UK3D.specGrids
  have e : checkSpec3 "masked" = checkSpec3 "grid" := by
    funext nx ny nz a; cases a <;> simp [checkSpec3]
  dsimp only
  rw [e]

/-- `UniversalKriging3D`: the same. -/
theorem C13_grid_uk3d {n : ℕ} {env : Env} {x y z v : Fin n → ℝ} {args : UK3DArgs} {s : UK3D n}
    (h : UK3D.create env x y z v args = .ok s) {ea : UK3DExecArgs}
    (hs : "specified" ∉ args.driftTerms ∨ ea.toExec.backend = "vectorized") {m : Mask3} (hfit : MaskFits3 ea.toExec m) {g : ExecResult}
    (hr : s.execute { ea with toExec := { ea.toExec with style := "grid" } } = .ok g) :
    ∃ r, s.execute { ea with toExec := { ea.toExec with style := "masked", mask := some m } } = .ok r ∧ r.shape = g.shape ∧
    ∀ i j k (hi : i < ea.toExec.xpoints.vals.length) (hj : j < ea.toExec.ypoints.vals.length) (hl : k < ea.toExec.zpoints.vals.length),
      r.z[(k * ea.toExec.ypoints.vals.length + j) * ea.toExec.xpoints.vals.length + i]? = (if hiddenCell3 ea.toExec m i j k then some none else g.z[(k * ea.toExec.ypoints.vals.length + j) * ea.toExec.xpoints.vals.length + i]?) ∧
      r.ss[(k * ea.toExec.ypoints.vals.length + j) * ea.toExec.xpoints.vals.length + i]? = (if hiddenCell3 ea.toExec m i j k then some none else g.ss[(k * ea.toExec.ypoints.vals.length + j) * ea.toExec.xpoints.vals.length + i]?) := by
  have h1 := UK3D.create_pw h { ea with toExec := { ea.toExec with style := "grid" } }
  have h2 := UK3D.create_pw h { ea with toExec := { ea.toExec with style := "masked", mask := some m } }
  obtain ⟨acc, -⟩ := h1.ok_iff.1 ⟨g, hr⟩
  have hg : ∃ q, s.specGrids { ea with toExec := { ea.toExec with style := "masked", mask := some m } } = .ok q := by rw [UK3D.specGrids_masked]; exact acc.spec
  have hs' : s.specified = none ∨ ea.toExec.backend = "vectorized" := hs.imp (UK3D.specified_none h) id
  obtain ⟨r, hr', t, t'⟩ := h1.select h2 hr
    (fun a => ⟨by simp, a.vario, (queryPoints3_masked_iff rfl).2 ⟨m, rfl, hfit⟩, hg, a.noInt, a.backend, a.solvable⟩)
    (fun _ j p hp _ => ⟨j, hp, .inl (maskedAt3_grid rfl j), fun hv => UK3D.valid_congr (ea := { ea with toExec := { ea.toExec with style := "grid" } }) (ea' := { ea with toExec := { ea.toExec with style := "masked", mask := some m } }) rfl (hs.imp (UK3D.specified_none h) id) _⟩)
  refine ⟨r, hr', by rw [t.shape_eq, t'.shape_eq]; simp [resultShape3], fun i j k hi hj hl => ?_⟩
  have hq := queryAt3_cell (ea := { ea.toExec with style := "grid" }) (by simp) hi hj hl
  have hq' := queryAt3_cell (ea := { ea.toExec with style := "masked", mask := some m }) (by simp) hi hj hl
  have e := t.at_point hq (maskedAt3_grid rfl _)
  have hma := maskedAt3_cell (ea := { ea.toExec with style := "masked", mask := some m }) rfl rfl k hi hj
  have ez := t'.z_eq ((k * ea.toExec.ypoints.vals.length + j) * ea.toExec.xpoints.vals.length + i)
  have es := t'.ss_eq ((k * ea.toExec.ypoints.vals.length + j) * ea.toExec.xpoints.vals.length + i)
  have ea' : ∀ p, queryAt3 { ea.toExec with style := "grid" } ((k * ea.toExec.ypoints.vals.length + j) * ea.toExec.xpoints.vals.length + i) = some p → 
      s.ans { ea with toExec := { ea.toExec with style := "masked", mask := some m } } ((k * ea.toExec.ypoints.vals.length + j) * ea.toExec.xpoints.vals.length + i) p = s.ans { ea with toExec := { ea.toExec with style := "grid" } } ((k * ea.toExec.ypoints.vals.length + j) * ea.toExec.xpoints.vals.length + i) p := by
    intro p hp
    unfold UK3D.ans
    have e1 := UK3D.sv_query (ea := { ea with toExec := { ea.toExec with style := "grid" } }) hs' acc.spec (j := (k * ea.toExec.ypoints.vals.length + j) * ea.toExec.xpoints.vals.length + i) hp
    have e2 := UK3D.sv_query (ea := { ea with toExec := { ea.toExec with style := "masked", mask := some m } }) hs' hg (j := (k * ea.toExec.ypoints.vals.length + j) * ea.toExec.xpoints.vals.length + i) (p := p) (hq'.trans (hq.symm.trans hp))
    rw [e1, e2]
    rfl
  have ean := ea' _ hq
  dsimp only at hma hq' hq e ez es ean
  rw [hq', hma] at ez es
  rw [ez, es, e.1, e.2, Option.map_some, Option.map_some, ean]
  change _ = (if hiddenCell3 { ea.toExec with style := "masked", mask := some m } m i j k then _ else _) ∧ _ = (if hiddenCell3 { ea.toExec with style := "masked", mask := some m } m i j k then _ else _)
  cases hiddenCell3 { ea.toExec with style := "masked", mask := some m } m i j k <;> exact ⟨rfl, rfl⟩

/-- `UniversalKriging3D`: a mask of any other shape is a `ValueError`, no mask at all an `IOError` (`OSError`). -/
theorem C13_refused_uk3d {n : ℕ} {s : UK3D n} {ea : UK3DExecArgs} (hst : ea.toExec.style = "masked")
    (hv : ∃ γ, s.variogramFunction s.params = .ok γ) :
    (ea.toExec.mask = none → s.execute ea = .error .ioError) ∧
    (∀ m, ea.toExec.mask = some m → ¬ MaskFits3 ea.toExec m → s.execute ea = .error .valueError) := by
  obtain ⟨γ, hγ⟩ := hv
  have key : ∀ e, queryPoints3 ea.toExec = .error e → s.execute ea = .error e := by
    intro e he
    unfold UK3D.execute UK3D.executeW
    rw [if_neg (by simp [hst]), UK3D.getKrigingMatrix_eq, hγ]
    simp [he]
  refine ⟨fun hm => key _ (by simp [queryPoints3, hst, hm]), fun m hm hf => ?_⟩
  have hne : ¬ ∃ pm, queryPoints3 ea.toExec = .ok pm := by
    rw [queryPoints3_masked_iff hst]
    rintro ⟨m', h1, h2⟩
    rw [hm] at h1; cases h1
    exact hf h2
  refine key _ ?_
  unfold queryPoints3 at hne ⊢
  simp only [hst, List.mem_cons, List.not_mem_nil, or_false, or_true, if_true, hm] at hne ⊢
  cases m with
  | wrongNdim => rfl
  | arr d0 d1 d2 get =>
    dsimp only at hne ⊢
    split_ifs at hne ⊢ <;> first | rfl | exact absurd ⟨_, rfl⟩ hne

/-! The hypotheses are met: a 2 × 3 grid and a transposed mask. -/

example : ∃ s r, OK.create stdEnv Demo.X Demo.O ![3, 5] (Demo.args 2 true false) = .ok s ∧
    s.execute stdEnv { style := "masked", xpoints := ⟨[1, 2, 3], false⟩, ypoints := ⟨[5, 6], false⟩, mask := some ⟨3, 2, fun i j => i == 1 && j == 0⟩ } = .ok r ∧ r.z[1]? = some none ∧ r.z[3]? ≠ some none := by
  obtain ⟨s, h, -⟩ := Demo.ok ![3, 5] 2 true false
  have ha := (Demo.ok_run zero_le_two h [] (b := "loop") (.inr (.inl rfl))).1
  obtain ⟨r, hr⟩ := Demo.grid_run zero_le_two h [1, 2, 3] [5, 6] (by simp) (by simp)
  obtain ⟨r', h1, h2, h3⟩ := C13_grid_2d h
    (ea := { style := "grid", xpoints := ⟨[1, 2, 3], false⟩, ypoints := ⟨[5, 6], false⟩ }) ha
    (m := ⟨3, 2, fun i j => i == 1 && j == 0⟩) (.inr ⟨rfl, rfl⟩) hr
  refine ⟨s, r', h, h1, ?_, ?_⟩
  · have := (h3 1 0 (by simp) (by simp)).1
    simpa [hiddenCell] using this
  · have := (h3 0 1 (by simp) (by simp)).1
    obtain ⟨-, -, -, h4⟩ := C12_grid_2d h (ea := { style := "grid", xpoints := ⟨[1, 2, 3], false⟩, ypoints := ⟨[5, 6], false⟩ }) ha rfl hr
    obtain ⟨v, -, -, h5, -⟩ := h4 0 1 (by simp) (by simp)
    simp only [List.length_cons, List.length_nil] at this h5
    simp [hiddenCell] at this
    rw [this]
    simp at h5
    rw [h5]
    simp

end
end PyKrige
