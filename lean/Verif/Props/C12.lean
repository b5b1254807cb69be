import Verif.Props.C14

/-!
# C12: grid output is indexed [y, x] (2D) and [z, y, x] (3D)

Result arrays are flattened row by row, so entry `[j, i]` of an array of shape `(ny, nx)` is number
`j * nx + i`, and entry `[k, j, i]` of an array of shape `(nz, ny, nx)` is number `(k * ny + j) * nx + i`.
-/

set_option linter.unusedSectionVars false

namespace PyKrige
noncomputable section
open Matrix Spec

theorem mul_add_mod_lt {a b c : ℕ} (h : c < b) : (a * b + c) % b = c := by
  rw [Nat.mul_comm, Nat.mul_add_mod, Nat.mod_eq_of_lt h]

theorem IsTable.length {α : Type} {shape : List ℕ} {query : ℕ → Option α} {masked : ℕ → Bool}
    {ans : ℕ → α → ℝ × ℝ} {r : ExecResult} (h : IsTable shape query masked ans r) {m : ℕ}
    (hq : ∀ j, (query j).isSome ↔ j < m) : r.z.length = m ∧ r.ss.length = m := by
  have key : ∀ (l : List (Option ℝ)) (φ : ℕ → α → Option ℝ), (∀ j : ℕ, l[j]? = (query j).map (φ j)) → l.length = m := by
    intro l φ hl
    have : ∀ j, j < l.length ↔ j < m := by
      intro j
      rw [← hq, ← Option.isSome_map (f := φ j), ← hl]; simp
    have h1 := this m
    have h2 := this l.length
    omega
  exact ⟨key _ _ h.z_eq, key _ _ h.ss_eq⟩

theorem queryAt_cell {ea : ExecArgs} (hst : ea.style ≠ "points") {i j : ℕ} (hi : i < ea.xpoints.vals.length)
    (hj : j < ea.ypoints.vals.length) :
    queryAt ea (j * ea.xpoints.vals.length + i) = some (ea.xpoints.vals[i], ea.ypoints.vals[j]) := by
  unfold queryAt
  rw [if_neg hst, PyKrige.mul_add_mod_lt hi, Nat.mul_comm, Nat.mul_add_div (by omega), Nat.div_eq_of_lt hi, Nat.add_zero,
    List.getElem?_eq_getElem hi, List.getElem?_eq_getElem hj]
  rfl

theorem queryAt_isSome {ea : ExecArgs} (hst : ea.style ≠ "points") (m : ℕ) :
    (queryAt ea m).isSome ↔ m < ea.ypoints.vals.length * ea.xpoints.vals.length := by
  constructor
  · intro h
    unfold queryAt at h
    rw [if_neg hst] at h
    obtain ⟨p, hp⟩ := Option.isSome_iff_exists.1 h
    obtain ⟨x, hx, hp⟩ := Option.bind_eq_some_iff.1 hp
    obtain ⟨y, hy, -⟩ := Option.bind_eq_some_iff.1 hp
    obtain ⟨hx, -⟩ := List.getElem?_eq_some_iff.1 hx
    obtain ⟨hy, -⟩ := List.getElem?_eq_some_iff.1 hy
    exact Nat.lt_mul_of_div_lt hy (by omega)
  · intro h
    have hpos : 0 < ea.xpoints.vals.length := Nat.pos_of_ne_zero fun h0 => by rw [h0] at h; simp at h
    have := queryAt_cell hst (Nat.mod_lt m hpos) (Nat.div_lt_of_lt_mul (by rwa [Nat.mul_comm] at h))
    rw [Nat.div_add_mod'] at this
    rw [this]; rfl

theorem queryAt3_cell {ea : ExecArgs3} (hst : ea.style ≠ "points") {i j k : ℕ} (hi : i < ea.xpoints.vals.length)
    (hj : j < ea.ypoints.vals.length) (hk : k < ea.zpoints.vals.length) :
    queryAt3 ea ((k * ea.ypoints.vals.length + j) * ea.xpoints.vals.length + i) =
      some (ea.xpoints.vals[i], ea.ypoints.vals[j], ea.zpoints.vals[k]) := by
  unfold queryAt3
  have e : ((k * ea.ypoints.vals.length + j) * ea.xpoints.vals.length + i) / ea.xpoints.vals.length =
      k * ea.ypoints.vals.length + j := by
    rw [Nat.mul_comm _ ea.xpoints.vals.length, Nat.mul_add_div (by omega), Nat.div_eq_of_lt hi, Nat.add_zero]
  rw [if_neg hst, PyKrige.mul_add_mod_lt hi, e, PyKrige.mul_add_mod_lt hj, Nat.mul_comm, Nat.mul_add_div (by omega),
    Nat.div_eq_of_lt hj, Nat.add_zero, List.getElem?_eq_getElem hi, List.getElem?_eq_getElem hj, List.getElem?_eq_getElem hk]
  rfl

theorem queryAt3_isSome {ea : ExecArgs3} (hst : ea.style ≠ "points") (m : ℕ) :
    (queryAt3 ea m).isSome ↔ m < ea.zpoints.vals.length * ea.ypoints.vals.length * ea.xpoints.vals.length := by
  constructor
  · intro h
    unfold queryAt3 at h
    rw [if_neg hst] at h
    obtain ⟨p, hp⟩ := Option.isSome_iff_exists.1 h
    obtain ⟨x, hx, hp⟩ := Option.bind_eq_some_iff.1 hp
    obtain ⟨y, hy, hp⟩ := Option.bind_eq_some_iff.1 hp
    obtain ⟨z, hz, -⟩ := Option.bind_eq_some_iff.1 hp
    obtain ⟨hx, -⟩ := List.getElem?_eq_some_iff.1 hx
    obtain ⟨hy, -⟩ := List.getElem?_eq_some_iff.1 hy
    obtain ⟨hz, -⟩ := List.getElem?_eq_some_iff.1 hz
    exact Nat.lt_mul_of_div_lt (Nat.lt_mul_of_div_lt hz (by omega)) (by omega)
  · intro h
    have hpos : 0 < ea.xpoints.vals.length := Nat.pos_of_ne_zero fun h0 => by rw [h0] at h; simp at h
    have hpos' : 0 < ea.ypoints.vals.length := Nat.pos_of_ne_zero fun h0 => by rw [h0] at h; simp at h
    have h1 : m / ea.xpoints.vals.length < ea.zpoints.vals.length * ea.ypoints.vals.length :=
      Nat.div_lt_of_lt_mul (by rwa [Nat.mul_comm] at h)
    have := queryAt3_cell hst (Nat.mod_lt m hpos) (Nat.mod_lt (m / ea.xpoints.vals.length) hpos')
      (Nat.div_lt_of_lt_mul (by rwa [Nat.mul_comm] at h1))
    rw [Nat.div_add_mod', Nat.div_add_mod'] at this
    rw [this]; rfl

theorem maskedAt_grid {ea : ExecArgs} (hst : ea.style = "grid") (j : ℕ) : maskedAt ea j = false := by
  simp [maskedAt, hst]

theorem maskedAt3_grid {ea : ExecArgs3} (hst : ea.style = "grid") (j : ℕ) : maskedAt3 ea j = false := by
  simp [maskedAt3, hst]

theorem queryPoints_grid {ea : ExecArgs} (hst : ea.style = "grid") : ∃ pm, queryPoints ea = .ok pm := by
  simp [queryPoints, hst]

theorem queryPoints3_grid {ea : ExecArgs3} (hst : ea.style = "grid") : ∃ pm, queryPoints3 ea = .ok pm := by
  simp [queryPoints3, hst]

theorem pick_cell {ea : ExecArgs} (hst : ea.style = "grid") {i j : ℕ} (hi : i < ea.xpoints.vals.length) (hj : j < ea.ypoints.vals.length) :
    pick ea [j * ea.xpoints.vals.length + i] = (atPoint ea (ea.xpoints.vals[i], ea.ypoints.vals[j])) := by
  have hq := queryAt_cell (ea := ea) (by simp [hst]) hi hj
  
  simp [pick, atPoint, hq]

/-- `OrdinaryKriging`. -/
theorem C12_grid_2d {n : ℕ} {env : Env} {x y z : Fin n → ℝ} {args : OKArgs} {s : OK n}
    (h : OK.create env x y z args = .ok s) {ea : ExecArgs} (ha : Admissible env args s ea.nClosest) (hst : ea.style = "grid") {r : ExecResult} (hr : s.execute env ea = .ok r) :
    r.shape = [ea.ypoints.vals.length, ea.xpoints.vals.length] ∧
    r.z.length = ea.ypoints.vals.length * ea.xpoints.vals.length ∧
    r.ss.length = ea.ypoints.vals.length * ea.xpoints.vals.length ∧
    ∀ i j (hi : i < ea.xpoints.vals.length) (hj : j < ea.ypoints.vals.length),
      ∃ v e, s.execute env (atPoint ea (ea.xpoints.vals[i], ea.ypoints.vals[j])) = .ok ⟨[1], [some v], [some e]⟩ ∧
        r.z[j * ea.xpoints.vals.length + i]? = some (some v) ∧
        r.ss[j * ea.xpoints.vals.length + i]? = some (some e) := by
  have t := (OK.create_pw h ha).table r hr
  have hl' := t.length (queryAt_isSome (ea := ea) (by simp [hst]))
  refine ⟨by rw [t.shape_eq]; simp [resultShape, hst], hl'.1, hl'.2, fun i j hi hj => ?_⟩
  have hq := queryAt_cell (ea := ea) (by simp [hst]) hi hj
  have hm := maskedAt_grid hst (j * ea.xpoints.vals.length + i)
  obtain ⟨h1, h2⟩ := t.at_point hq hm
  obtain ⟨⟨sh, z', ss'⟩, h3, h4, h5, h6⟩ := C14_pick_2d h ha hr [j * ea.xpoints.vals.length + i] (by simp [hq, hm])
  refine ⟨_, _, ?_, h1, h2⟩
  rw [← pick_cell hst hi hj, h3]
  rw [List.map_singleton, h1] at h5
  rw [List.map_singleton, h2] at h6
  have e1 : z' = [some _] := List.map_injective_iff.2 (Option.some_injective _) (h5.trans (by rfl : _ = List.map some [some _]))
  have e2 : ss' = [some _] := List.map_injective_iff.2 (Option.some_injective _) (h6.trans (by rfl : _ = List.map some [some _]))
  have e3 : sh = [1] := h4
  rw [e1, e2, e3]

/-- `OrdinaryKriging`: if every cell can be evaluated on its own the grid can. -/
theorem C12_grid_exists_2d {n : ℕ} {env : Env} {x y z : Fin n → ℝ} {args : OKArgs} {s : OK n}
    (h : OK.create env x y z args = .ok s) {ea : ExecArgs} (ha : Admissible env args s ea.nClosest)
     (hst : ea.style = "grid") (hx : 0 < ea.xpoints.vals.length) (hy : 0 < ea.ypoints.vals.length)
    (hall : ∀ i j (hi : i < ea.xpoints.vals.length) (hj : j < ea.ypoints.vals.length), ∃ r₁, s.execute env (atPoint ea (ea.xpoints.vals[i], ea.ypoints.vals[j])) = .ok r₁) :
    ∃ r, s.execute env ea = .ok r := by
  have h2 := OK.create_pw h ha
  have hcell : ∀ i j (hi : i < ea.xpoints.vals.length) (hj : j < ea.ypoints.vals.length), (s.Acc env (pick ea [j * ea.xpoints.vals.length + i])) ∧
      s.Valid env ea.nClosest (ea.xpoints.vals[i], ea.ypoints.vals[j]) := by
    intro i j hi hj
    obtain ⟨r₁, h1⟩ := hall i j hi hj
    rw [← pick_cell hst hi hj] at h1
    obtain ⟨a, b⟩ := (OK.create_pw h (ea := pick ea [j * ea.xpoints.vals.length + i]) ha).ok_iff.1 ⟨r₁, h1⟩
    refine ⟨a, b 0 _ ?_ (maskedAt_pick _ _ _)⟩
    
    rw [queryAt_pick (ea := ea) (js := [j * ea.xpoints.vals.length + i]) (by simp [queryAt_cell (ea := ea) (by simp [hst]) hi hj]) 0]
    exact queryAt_cell (by simp [hst]) hi hj
  refine h2.ok_iff.2 ⟨?_, fun m p hp _ => ?_⟩
  · obtain ⟨a, -⟩ := hcell 0 0 hx hy
    exact ⟨by simp [hst], a.win, a.vario, queryPoints_grid hst, a.noInt, a.backend, a.solvable⟩
  · have hm := (queryAt_isSome (ea := ea) (by simp [hst]) m).1 (by rw [hp]; rfl)
    have hi := Nat.mod_lt m hx
    have hj : m / ea.xpoints.vals.length < ea.ypoints.vals.length := Nat.div_lt_of_lt_mul (by rwa [Nat.mul_comm] at hm)
    have e := queryAt_cell (ea := ea) (by simp [hst]) hi hj
    rw [Nat.div_add_mod', hp] at e
    cases e
    have hv := (hcell _ _ hi hj).2
    exact hv

theorem pick3_cell {ea : ExecArgs3} (hst : ea.style = "grid") {i j k : ℕ} (hi : i < ea.xpoints.vals.length) (hj : j < ea.ypoints.vals.length) (hl : k < ea.zpoints.vals.length) :
    pick3 ea [(k * ea.ypoints.vals.length + j) * ea.xpoints.vals.length + i] = (atPoint3 ea (ea.xpoints.vals[i], ea.ypoints.vals[j], ea.zpoints.vals[k])) := by
  have hq := queryAt3_cell (ea := ea) (by simp [hst]) hi hj hl
  
  simp [pick3, atPoint3, hq]

/-- `OrdinaryKriging3D`. -/
theorem C12_grid_3d {n : ℕ} {env : Env} {x y z v : Fin n → ℝ} {args : OK3DArgs} {s : OK3D n}
    (h : OK3D.create env x y z v args = .ok s) {ea : ExecArgs3} (hk : KnnSpec env)
    (hw : WindowFits n ea.nClosest) (hst : ea.style = "grid") {r : ExecResult} (hr : s.execute env ea = .ok r) :
    r.shape = [ea.zpoints.vals.length, ea.ypoints.vals.length, ea.xpoints.vals.length] ∧
    r.z.length = ea.zpoints.vals.length * ea.ypoints.vals.length * ea.xpoints.vals.length ∧
    r.ss.length = ea.zpoints.vals.length * ea.ypoints.vals.length * ea.xpoints.vals.length ∧
    ∀ i j k (hi : i < ea.xpoints.vals.length) (hj : j < ea.ypoints.vals.length) (hl : k < ea.zpoints.vals.length),
      ∃ v e, s.execute env (atPoint3 ea (ea.xpoints.vals[i], ea.ypoints.vals[j], ea.zpoints.vals[k])) = .ok ⟨[1], [some v], [some e]⟩ ∧
        r.z[(k * ea.ypoints.vals.length + j) * ea.xpoints.vals.length + i]? = some (some v) ∧
        r.ss[(k * ea.ypoints.vals.length + j) * ea.xpoints.vals.length + i]? = some (some e) := by
  have t := (OK3D.create_pw h hk hw).table r hr
  have hl' := t.length (queryAt3_isSome (ea := ea) (by simp [hst]))
  refine ⟨by rw [t.shape_eq]; simp [resultShape3, hst], hl'.1, hl'.2, fun i j k hi hj hl => ?_⟩
  have hq := queryAt3_cell (ea := ea) (by simp [hst]) hi hj hl
  have hm := maskedAt3_grid hst ((k * ea.ypoints.vals.length + j) * ea.xpoints.vals.length + i)
  obtain ⟨h1, h2⟩ := t.at_point hq hm
  obtain ⟨⟨sh, z', ss'⟩, h3, h4, h5, h6⟩ := C14_pick_3d h hk hw hr [(k * ea.ypoints.vals.length + j) * ea.xpoints.vals.length + i] (by simp [hq, hm])
  refine ⟨_, _, ?_, h1, h2⟩
  rw [← pick3_cell hst hi hj hl, h3]
  rw [List.map_singleton, h1] at h5
  rw [List.map_singleton, h2] at h6
  have e1 : z' = [some _] := List.map_injective_iff.2 (Option.some_injective _) (h5.trans (by rfl : _ = List.map some [some _]))
  have e2 : ss' = [some _] := List.map_injective_iff.2 (Option.some_injective _) (h6.trans (by rfl : _ = List.map some [some _]))
  have e3 : sh = [1] := h4
  rw [e1, e2, e3]

/-- `OrdinaryKriging3D`: if every cell can be evaluated on its own the grid can. -/
theorem C12_grid_exists_3d {n : ℕ} {env : Env} {x y z v : Fin n → ℝ} {args : OK3DArgs} {s : OK3D n}
    (h : OK3D.create env x y z v args = .ok s) {ea : ExecArgs3} (hk : KnnSpec env)
    (hw : WindowFits n ea.nClosest)
     (hst : ea.style = "grid") (hx : 0 < ea.xpoints.vals.length) (hy : 0 < ea.ypoints.vals.length) (hz : 0 < ea.zpoints.vals.length)
    (hall : ∀ i j k (hi : i < ea.xpoints.vals.length) (hj : j < ea.ypoints.vals.length) (hl : k < ea.zpoints.vals.length), ∃ r₁, s.execute env (atPoint3 ea (ea.xpoints.vals[i], ea.ypoints.vals[j], ea.zpoints.vals[k])) = .ok r₁) :
    ∃ r, s.execute env ea = .ok r := by
  have h2 := OK3D.create_pw h hk hw
  have hcell : ∀ i j k (hi : i < ea.xpoints.vals.length) (hj : j < ea.ypoints.vals.length) (hl : k < ea.zpoints.vals.length), (s.Acc (pick3 ea [(k * ea.ypoints.vals.length + j) * ea.xpoints.vals.length + i])) ∧
      s.Valid env ea.nClosest (ea.xpoints.vals[i], ea.ypoints.vals[j], ea.zpoints.vals[k]) := by
    intro i j k hi hj hl
    obtain ⟨r₁, h1⟩ := hall i j k hi hj hl
    rw [← pick3_cell hst hi hj hl] at h1
    obtain ⟨a, b⟩ := (OK3D.create_pw h (ea := pick3 ea [(k * ea.ypoints.vals.length + j) * ea.xpoints.vals.length + i]) hk hw).ok_iff.1 ⟨r₁, h1⟩
    refine ⟨a, b 0 _ ?_ (maskedAt3_pick3 _ _ _)⟩
    
    rw [queryAt3_pick3 (ea := ea) (js := [(k * ea.ypoints.vals.length + j) * ea.xpoints.vals.length + i]) (by simp [queryAt3_cell (ea := ea) (by simp [hst]) hi hj hl]) 0]
    exact queryAt3_cell (by simp [hst]) hi hj hl
  refine h2.ok_iff.2 ⟨?_, fun m p hp _ => ?_⟩
  · obtain ⟨a, -⟩ := hcell 0 0 0 hx hy hz
    exact ⟨by simp [hst], a.win, a.vario, queryPoints3_grid hst, a.noInt, a.backend, a.solvable⟩
  · have hm := (queryAt3_isSome (ea := ea) (by simp [hst]) m).1 (by rw [hp]; rfl)
    have h1 : m / ea.xpoints.vals.length < ea.zpoints.vals.length * ea.ypoints.vals.length :=
      Nat.div_lt_of_lt_mul (by rwa [Nat.mul_comm] at hm)
    have hi := Nat.mod_lt m hx
    have hj := Nat.mod_lt (m / ea.xpoints.vals.length) hy
    have hl : m / ea.xpoints.vals.length / ea.ypoints.vals.length < ea.zpoints.vals.length := Nat.div_lt_of_lt_mul (by rwa [Nat.mul_comm] at h1)
    have e := queryAt3_cell (ea := ea) (by simp [hst]) hi hj hl
    rw [Nat.div_add_mod', Nat.div_add_mod', hp] at e
    cases e
    have hv := (hcell _ _ _ hi hj hl).2
    exact hv

theorem pickUK_cell {ea : UKExecArgs} (hst : ea.toExec.style = "grid") {i j : ℕ} (hi : i < ea.toExec.xpoints.vals.length) (hj : j < ea.toExec.ypoints.vals.length) :
    pickUK ea [j * ea.toExec.xpoints.vals.length + i] = { toExec := (atPoint ea.toExec (ea.toExec.xpoints.vals[i], ea.toExec.ypoints.vals[j])), spec := (pickUK ea [j * ea.toExec.xpoints.vals.length + i]).spec } := by
  have hq := queryAt_cell (ea := ea.toExec) (by simp [hst]) hi hj
  have e : pick ea.toExec [j * ea.toExec.xpoints.vals.length + i] = (atPoint ea.toExec (ea.toExec.xpoints.vals[i], ea.toExec.ypoints.vals[j])) := by
    simp [pick, atPoint, hq]
  rw [← e]; rfl
/-- `UniversalKriging`. -/
theorem C12_grid_uk {n : ℕ} {env : Env} {x y z : Fin n → ℝ} {args : UKArgs} {s : UK n}
    (h : UK.create env x y z args = .ok s) {ea : UKExecArgs}
    (hs : "specified" ∉ args.driftTerms ∨ ea.toExec.backend = "vectorized") (hst : ea.toExec.style = "grid") {r : ExecResult} (hr : s.execute ea = .ok r) :
    r.shape = [ea.toExec.ypoints.vals.length, ea.toExec.xpoints.vals.length] ∧
    r.z.length = ea.toExec.ypoints.vals.length * ea.toExec.xpoints.vals.length ∧
    r.ss.length = ea.toExec.ypoints.vals.length * ea.toExec.xpoints.vals.length ∧
    ∀ i j (hi : i < ea.toExec.xpoints.vals.length) (hj : j < ea.toExec.ypoints.vals.length),
      ∃ v e, s.execute { toExec := (atPoint ea.toExec (ea.toExec.xpoints.vals[i], ea.toExec.ypoints.vals[j])), spec := (pickUK ea [j * ea.toExec.xpoints.vals.length + i]).spec } = .ok ⟨[1], [some v], [some e]⟩ ∧
        r.z[j * ea.toExec.xpoints.vals.length + i]? = some (some v) ∧
        r.ss[j * ea.toExec.xpoints.vals.length + i]? = some (some e) := by
  have t := (UK.create_pw h ea).table r hr
  have hl' := t.length (queryAt_isSome (ea := ea.toExec) (by simp [hst]))
  refine ⟨by rw [t.shape_eq]; simp [resultShape, hst], hl'.1, hl'.2, fun i j hi hj => ?_⟩
  have hq := queryAt_cell (ea := ea.toExec) (by simp [hst]) hi hj
  have hm := maskedAt_grid hst (j * ea.toExec.xpoints.vals.length + i)
  obtain ⟨h1, h2⟩ := t.at_point hq hm
  obtain ⟨⟨sh, z', ss'⟩, h3, h4, h5, h6⟩ := C14_pick_uk h hs hr [j * ea.toExec.xpoints.vals.length + i] (by simp [hq, hm])
  refine ⟨_, _, ?_, h1, h2⟩
  rw [← pickUK_cell hst hi hj, h3]
  rw [List.map_singleton, h1] at h5
  rw [List.map_singleton, h2] at h6
  have e1 : z' = [some _] := List.map_injective_iff.2 (Option.some_injective _) (h5.trans (by rfl : _ = List.map some [some _]))
  have e2 : ss' = [some _] := List.map_injective_iff.2 (Option.some_injective _) (h6.trans (by rfl : _ = List.map some [some _]))
  have e3 : sh = [1] := h4
  rw [e1, e2, e3]

/-- `UniversalKriging`: if every cell can be evaluated on its own the grid can. -/
theorem C12_grid_exists_uk {n : ℕ} {env : Env} {x y z : Fin n → ℝ} {args : UKArgs} {s : UK n}
    (h : UK.create env x y z args = .ok s) {ea : UKExecArgs}
    (hs : "specified" ∉ args.driftTerms) (hst : ea.toExec.style = "grid") (hx : 0 < ea.toExec.xpoints.vals.length) (hy : 0 < ea.toExec.ypoints.vals.length)
    (hall : ∀ i j (hi : i < ea.toExec.xpoints.vals.length) (hj : j < ea.toExec.ypoints.vals.length), ∃ r₁, s.execute { toExec := (atPoint ea.toExec (ea.toExec.xpoints.vals[i], ea.toExec.ypoints.vals[j])), spec := (pickUK ea [j * ea.toExec.xpoints.vals.length + i]).spec } = .ok r₁) :
    ∃ r, s.execute ea = .ok r := by
  have h2 := UK.create_pw h ea
  have hcell : ∀ i j (hi : i < ea.toExec.xpoints.vals.length) (hj : j < ea.toExec.ypoints.vals.length), (s.Acc (pickUK ea [j * ea.toExec.xpoints.vals.length + i])) ∧
      s.Valid (pickUK ea [j * ea.toExec.xpoints.vals.length + i]) (ea.toExec.xpoints.vals[i], ea.toExec.ypoints.vals[j]) := by
    intro i j hi hj
    obtain ⟨r₁, h1⟩ := hall i j hi hj
    rw [← pickUK_cell hst hi hj] at h1
    obtain ⟨a, b⟩ := (UK.create_pw h (pickUK ea [j * ea.toExec.xpoints.vals.length + i])).ok_iff.1 ⟨r₁, h1⟩
    refine ⟨a, b 0 _ ?_ (.inl (maskedAt_pick _ _ _))⟩
    change queryAt (pick ea.toExec _) 0 = _
    rw [queryAt_pick (ea := ea.toExec) (js := [j * ea.toExec.xpoints.vals.length + i]) (by simp [queryAt_cell (ea := ea.toExec) (by simp [hst]) hi hj]) 0]
    exact queryAt_cell (by simp [hst]) hi hj
  refine h2.ok_iff.2 ⟨?_, fun m p hp _ => ?_⟩
  · obtain ⟨a, -⟩ := hcell 0 0 hx hy
    exact ⟨by simp [hst], a.vario, queryPoints_grid hst, ⟨_, UK.specGrids_none (UK.specified_none h hs) ea⟩, a.noInt, a.backend, a.solvable⟩
  · have hm := (queryAt_isSome (ea := ea.toExec) (by simp [hst]) m).1 (by rw [hp]; rfl)
    have hi := Nat.mod_lt m hx
    have hj : m / ea.toExec.xpoints.vals.length < ea.toExec.ypoints.vals.length := Nat.div_lt_of_lt_mul (by rwa [Nat.mul_comm] at hm)
    have e := queryAt_cell (ea := ea.toExec) (by simp [hst]) hi hj
    rw [Nat.div_add_mod', hp] at e
    cases e
    have hv := (hcell _ _ hi hj).2
    exact UK.valid_congr (ea := pickUK ea [m / ea.toExec.xpoints.vals.length * ea.toExec.xpoints.vals.length + m % ea.toExec.xpoints.vals.length]) (ea' := ea) rfl (.inl (UK.specified_none h hs)) _ hv

theorem pickUK3_cell {ea : UK3DExecArgs} (hst : ea.toExec.style = "grid") {i j k : ℕ} (hi : i < ea.toExec.xpoints.vals.length) (hj : j < ea.toExec.ypoints.vals.length) (hl : k < ea.toExec.zpoints.vals.length) :
    pickUK3 ea [(k * ea.toExec.ypoints.vals.length + j) * ea.toExec.xpoints.vals.length + i] = { toExec := (atPoint3 ea.toExec (ea.toExec.xpoints.vals[i], ea.toExec.ypoints.vals[j], ea.toExec.zpoints.vals[k])), spec := (pickUK3 ea [(k * ea.toExec.ypoints.vals.length + j) * ea.toExec.xpoints.vals.length + i]).spec } := by
  have hq := queryAt3_cell (ea := ea.toExec) (by simp [hst]) hi hj hl
  have e : pick3 ea.toExec [(k * ea.toExec.ypoints.vals.length + j) * ea.toExec.xpoints.vals.length + i] = (atPoint3 ea.toExec (ea.toExec.xpoints.vals[i], ea.toExec.ypoints.vals[j], ea.toExec.zpoints.vals[k])) := by
    simp [pick3, atPoint3, hq]
  rw [← e]; rfl
/-- `UniversalKriging3D`. -/
theorem C12_grid_uk3d {n : ℕ} {env : Env} {x y z v : Fin n → ℝ} {args : UK3DArgs} {s : UK3D n}
    (h : UK3D.create env x y z v args = .ok s) {ea : UK3DExecArgs}
    (hs : "specified" ∉ args.driftTerms ∨ ea.toExec.backend = "vectorized") (hst : ea.toExec.style = "grid") {r : ExecResult} (hr : s.execute ea = .ok r) :
    r.shape = [ea.toExec.zpoints.vals.length, ea.toExec.ypoints.vals.length, ea.toExec.xpoints.vals.length] ∧
    r.z.length = ea.toExec.zpoints.vals.length * ea.toExec.ypoints.vals.length * ea.toExec.xpoints.vals.length ∧
    r.ss.length = ea.toExec.zpoints.vals.length * ea.toExec.ypoints.vals.length * ea.toExec.xpoints.vals.length ∧
    ∀ i j k (hi : i < ea.toExec.xpoints.vals.length) (hj : j < ea.toExec.ypoints.vals.length) (hl : k < ea.toExec.zpoints.vals.length),
      ∃ v e, s.execute { toExec := (atPoint3 ea.toExec (ea.toExec.xpoints.vals[i], ea.toExec.ypoints.vals[j], ea.toExec.zpoints.vals[k])), spec := (pickUK3 ea [(k * ea.toExec.ypoints.vals.length + j) * ea.toExec.xpoints.vals.length + i]).spec } = .ok ⟨[1], [some v], [some e]⟩ ∧
        r.z[(k * ea.toExec.ypoints.vals.length + j) * ea.toExec.xpoints.vals.length + i]? = some (some v) ∧
        r.ss[(k * ea.toExec.ypoints.vals.length + j) * ea.toExec.xpoints.vals.length + i]? = some (some e) := by
  have t := (UK3D.create_pw h ea).table r hr
  have hl' := t.length (queryAt3_isSome (ea := ea.toExec) (by simp [hst]))
  refine ⟨by rw [t.shape_eq]; simp [resultShape3, hst], hl'.1, hl'.2, fun i j k hi hj hl => ?_⟩
  have hq := queryAt3_cell (ea := ea.toExec) (by simp [hst]) hi hj hl
  have hm := maskedAt3_grid hst ((k * ea.toExec.ypoints.vals.length + j) * ea.toExec.xpoints.vals.length + i)
  obtain ⟨h1, h2⟩ := t.at_point hq hm
  obtain ⟨⟨sh, z', ss'⟩, h3, h4, h5, h6⟩ := C14_pick_uk3d h hs hr [(k * ea.toExec.ypoints.vals.length + j) * ea.toExec.xpoints.vals.length + i] (by simp [hq, hm])
  refine ⟨_, _, ?_, h1, h2⟩
  rw [← pickUK3_cell hst hi hj hl, h3]
  rw [List.map_singleton, h1] at h5
  rw [List.map_singleton, h2] at h6
  have e1 : z' = [some _] := List.map_injective_iff.2 (Option.some_injective _) (h5.trans (by rfl : _ = List.map some [some _]))
  have e2 : ss' = [some _] := List.map_injective_iff.2 (Option.some_injective _) (h6.trans (by rfl : _ = List.map some [some _]))
  have e3 : sh = [1] := h4
  rw [e1, e2, e3]

/-- `UniversalKriging3D`: if every cell can be evaluated on its own the grid can. -/
theorem C12_grid_exists_uk3d {n : ℕ} {env : Env} {x y z v : Fin n → ℝ} {args : UK3DArgs} {s : UK3D n}
    (h : UK3D.create env x y z v args = .ok s) {ea : UK3DExecArgs}
    (hs : "specified" ∉ args.driftTerms) (hst : ea.toExec.style = "grid") (hx : 0 < ea.toExec.xpoints.vals.length) (hy : 0 < ea.toExec.ypoints.vals.length) (hz : 0 < ea.toExec.zpoints.vals.length)
    (hall : ∀ i j k (hi : i < ea.toExec.xpoints.vals.length) (hj : j < ea.toExec.ypoints.vals.length) (hl : k < ea.toExec.zpoints.vals.length), ∃ r₁, s.execute { toExec := (atPoint3 ea.toExec (ea.toExec.xpoints.vals[i], ea.toExec.ypoints.vals[j], ea.toExec.zpoints.vals[k])), spec := (pickUK3 ea [(k * ea.toExec.ypoints.vals.length + j) * ea.toExec.xpoints.vals.length + i]).spec } = .ok r₁) :
    ∃ r, s.execute ea = .ok r := by
  have h2 := UK3D.create_pw h ea
  have hcell : ∀ i j k (hi : i < ea.toExec.xpoints.vals.length) (hj : j < ea.toExec.ypoints.vals.length) (hl : k < ea.toExec.zpoints.vals.length), (s.Acc (pickUK3 ea [(k * ea.toExec.ypoints.vals.length + j) * ea.toExec.xpoints.vals.length + i])) ∧
      s.Valid (pickUK3 ea [(k * ea.toExec.ypoints.vals.length + j) * ea.toExec.xpoints.vals.length + i]) (ea.toExec.xpoints.vals[i], ea.toExec.ypoints.vals[j], ea.toExec.zpoints.vals[k]) := by
    intro i j k hi hj hl
    obtain ⟨r₁, h1⟩ := hall i j k hi hj hl
    rw [← pickUK3_cell hst hi hj hl] at h1
    obtain ⟨a, b⟩ := (UK3D.create_pw h (pickUK3 ea [(k * ea.toExec.ypoints.vals.length + j) * ea.toExec.xpoints.vals.length + i])).ok_iff.1 ⟨r₁, h1⟩
    refine ⟨a, b 0 _ ?_ (.inl (maskedAt3_pick3 _ _ _))⟩
    change queryAt3 (pick3 ea.toExec _) 0 = _
    rw [queryAt3_pick3 (ea := ea.toExec) (js := [(k * ea.toExec.ypoints.vals.length + j) * ea.toExec.xpoints.vals.length + i]) (by simp [queryAt3_cell (ea := ea.toExec) (by simp [hst]) hi hj hl]) 0]
    exact queryAt3_cell (by simp [hst]) hi hj hl
  refine h2.ok_iff.2 ⟨?_, fun m p hp _ => ?_⟩
  · obtain ⟨a, -⟩ := hcell 0 0 0 hx hy hz
    exact ⟨by simp [hst], a.vario, queryPoints3_grid hst, ⟨_, UK3D.specGrids_none (UK3D.specified_none h hs) ea⟩, a.noInt, a.backend, a.solvable⟩
  · have hm := (queryAt3_isSome (ea := ea.toExec) (by simp [hst]) m).1 (by rw [hp]; rfl)
    have h1 : m / ea.toExec.xpoints.vals.length < ea.toExec.zpoints.vals.length * ea.toExec.ypoints.vals.length :=
      Nat.div_lt_of_lt_mul (by rwa [Nat.mul_comm] at hm)
    have hi := Nat.mod_lt m hx
    have hj := Nat.mod_lt (m / ea.toExec.xpoints.vals.length) hy
    have hl : m / ea.toExec.xpoints.vals.length / ea.toExec.ypoints.vals.length < ea.toExec.zpoints.vals.length := Nat.div_lt_of_lt_mul (by rwa [Nat.mul_comm] at h1)
    have e := queryAt3_cell (ea := ea.toExec) (by simp [hst]) hi hj hl
    rw [Nat.div_add_mod', Nat.div_add_mod', hp] at e
    cases e
    have hv := (hcell _ _ _ hi hj hl).2
    exact UK3D.valid_none (UK3D.specified_none h hs) ea _

/-! The hypotheses are met: a 2 × 3 grid. -/

theorem Demo.grid_run {z : Fin 2 → ℝ} {c : ℝ} (hc : 0 ≤ c) {exact pseudo : Bool} {s : OK 2}
    (h : OK.create stdEnv Demo.X Demo.O z (Demo.args c exact pseudo) = .ok s) (xs ys : List ℝ) (hx : 0 < xs.length)
    (hy : 0 < ys.length) : ∃ r, s.execute stdEnv { style := "grid", xpoints := ⟨xs, false⟩, ypoints := ⟨ys, false⟩ } = .ok r := by
  have ha := (Demo.ok_run hc h [] (b := "loop") (.inr (.inl rfl))).1
  refine C12_grid_exists_2d h ha rfl hx hy fun i j hi hj => ?_
  exact (Demo.ok_run hc h [(xs[i], ys[j])] (b := "vectorized") (.inl rfl)).2

example : ∃ s r, OK.create stdEnv Demo.X Demo.O ![3, 5] (Demo.args 2 true false) = .ok s ∧
    Admissible stdEnv (Demo.args 2 true false) s none ∧
    s.execute stdEnv { style := "grid", xpoints := ⟨[1, 2, 3], false⟩, ypoints := ⟨[5, 6], false⟩ } = .ok r := by
  obtain ⟨s, h, -⟩ := Demo.ok ![3, 5] 2 true false
  obtain ⟨r, hr⟩ := Demo.grid_run zero_le_two h [1, 2, 3] [5, 6] (by simp) (by simp)
  exact ⟨s, r, h, (Demo.ok_run zero_le_two h [] (b := "loop") (.inr (.inl rfl))).1, hr⟩

end
end PyKrige
