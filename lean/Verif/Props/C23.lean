import Verif.Lemmas.Amax
import Verif.Lemmas.UKDrift
import Verif.Lemmas.UKValid
import Verif.Examples.Demo

/-!
# C23: external drift is interpolated bilinearly inside the grid and refused outside

`Spec.externalAt args p` is the external drift value `UniversalKriging` uses at the location `p` (at the data and at
the query points; C21, C47 and C09 are stated with it).  This file says what it is.
-/

namespace PyKrige
noncomputable section
open Spec

/-- The bilinear interpolant in the rectangle `[x0, x1] × [y0, y1]` with corner values `z00` at `(x0, y0)`, `z10` at
`(x1, y0)`, `z01` at `(x0, y1)`, `z11` at `(x1, y1)`: linear in `x` along the lower and the upper side, then linear
in `y` between the two. -/
def Spec.bilinear (x0 x1 y0 y1 z00 z10 z01 z11 x y : ℝ) : ℝ :=
  let t := (x - x0) / (x1 - x0)
  let u := (y - y0) / (y1 - y0)
  (1 - u) * ((1 - t) * z00 + t * z10) + u * ((1 - t) * z01 + t * z11)

/-- The external drift grid as the user passes it: an `rows × cols` array with strictly increasing axes, indexed
`[y, x]`, or `[x, y]` if the array has that shape and not the other. -/
structure Spec.DriftGrid (args : UKArgs) (xs ys : List ℝ) (node : ℕ → ℕ → ℝ) : Prop where
  axisX : args.externalDriftX = some xs
  axisY : args.externalDriftY = some ys
  incX : xs.Pairwise (· < ·)
  incY : ys.Pairwise (· < ·)
  /-- `node i j` is the value at `(xs[i], ys[j])` -/
  grid : ∃ e, args.externalDrift = some e ∧
    ((e.rows = ys.length ∧ e.cols = xs.length ∧ ∀ i j, node i j = e.get j i) ∨
     (e.rows = xs.length ∧ e.cols = ys.length ∧ xs.length ≠ ys.length ∧ ∀ i j, node i j = e.get i j))

theorem firstGe_eq {k : ℕ} {arr : Fin k → ℝ} {v : ℝ} {i : Fin k} (h : v ≤ arr i)
    (h' : ∀ j, j < i → arr j < v) : firstGe arr v = .ok i := by
  classical
  have : ((List.finRange k).filter fun i => arr i ≥ v).head? = some i := by
    rw [List.head?_filter, List.find?_eq_some_iff_getElem]
    refine ⟨by simpa using h, i.val, by simp, by simp, fun j hj => ?_⟩
    simp only [List.getElem_finRange, ge_iff_le, Bool.not_eq_eq_eq_not, Bool.not_true, decide_eq_false_iff_not,
      not_le]
    exact h' _ (by simpa [Fin.lt_def] using hj)
  unfold firstGe
  split
  · next i' hi' =>
    have : some i' = some i := by rw [← this, ← hi']
    rw [Option.some.inj this]
  · next hn => rw [hn] at this; cases this

theorem lastLe_eq {k : ℕ} {arr : Fin k → ℝ} {v : ℝ} {i : Fin k} (h : arr i ≤ v)
    (h' : ∀ j, i < j → v < arr j) : lastLe arr v = .ok i := by
  classical
  have : ((List.finRange k).filter fun i => arr i ≤ v).getLast? = some i := by
    rw [← List.head?_reverse, ← List.filter_reverse, List.head?_filter, List.find?_eq_some_iff_getElem]
    refine ⟨by simpa using h, k - 1 - i.val, by simp; omega, ?_, fun j hj => ?_⟩
    · rw [List.getElem_reverse]
      simp only [List.getElem_finRange, List.length_finRange]
      ext
      simp
      omega
    · rw [List.getElem_reverse]
      simp only [List.getElem_finRange, List.length_finRange, Bool.not_eq_eq_eq_not, Bool.not_true,
        decide_eq_false_iff_not, not_le]
      refine h' _ ?_
      simp [Fin.lt_def]
      omega
  unfold lastLe
  split
  · next i' hi' =>
    have : some i' = some i := by rw [← this, ← hi']
    rw [Option.some.inj this]
  · next hn => rw [hn] at this; cases this

/-- Where a coordinate lies on a strictly increasing axis: on a node or strictly inside an interval. -/
def Bracket {k : ℕ} (arr : Fin k → ℝ) (v : ℝ) (a b : Fin k) : Prop :=
  (a = b ∧ v = arr a) ∨ (b.val = a.val + 1 ∧ arr a < v ∧ v < arr b)

theorem Bracket.search {k : ℕ} {arr : Fin k → ℝ} (hm : StrictMono arr) {v : ℝ} {a b : Fin k}
    (h : Bracket arr v a b) : firstGe arr v = .ok b ∧ lastLe arr v = .ok a := by
  rcases h with ⟨rfl, rfl⟩ | ⟨hab, h1, h2⟩
  · exact ⟨firstGe_eq le_rfl fun j hj => hm hj, lastLe_eq le_rfl fun j hj => hm hj⟩
  · refine ⟨firstGe_eq h2.le fun j hj => ?_, lastLe_eq h1.le fun j hj => ?_⟩
    · refine lt_of_le_of_lt (hm.monotone ?_) h1
      rw [Fin.le_def]; rw [Fin.lt_def] at hj; omega
    · refine lt_of_lt_of_le h2 (hm.monotone ?_)
      rw [Fin.le_def]; rw [Fin.lt_def] at hj; omega

theorem Bracket.exists {k : ℕ} {arr : Fin k → ℝ} (hm : StrictMono arr) {v : ℝ} {lo hi : Fin k}
    (hlo : arr lo ≤ v) (hhi : v ≤ arr hi) : ∃ a b, Bracket arr v a b := by
  classical
  by_cases hn : ∃ i, v = arr i
  · obtain ⟨i, hi⟩ := hn
    exact ⟨i, i, Or.inl ⟨rfl, hi⟩⟩
  · push Not at hn
    -- the last index below
    let S := Finset.univ.filter fun i : Fin k => arr i ≤ v
    have hS : S.Nonempty := ⟨lo, by simp [S, hlo]⟩
    let a := S.max' hS
    have ha : arr a ≤ v := (Finset.mem_filter.1 (S.max'_mem hS)).2
    have hahi : a < hi := by
      by_contra hc
      exact hn hi (le_antisymm hhi ((hm.monotone (not_lt.1 hc)).trans ha))
    have hk : a.val + 1 < k := lt_of_le_of_lt (Nat.succ_le_of_lt (Fin.lt_def.1 hahi)) hi.isLt
    refine ⟨a, ⟨a.val + 1, hk⟩, Or.inr ⟨rfl, lt_of_le_of_ne ha (fun h => hn a h.symm), ?_⟩⟩
    by_contra hc
    have hmem : (⟨a.val + 1, hk⟩ : Fin k) ∈ S := by simp [S]; exact not_lt.1 hc
    have := S.le_max' _ hmem
    have h2 : (⟨a.val + 1, hk⟩ : Fin k) ≤ a := this
    rw [Fin.le_def] at h2
    simp at h2

theorem Bracket.range {k : ℕ} {arr : Fin k → ℝ} {v : ℝ} {a b : Fin k} (h : Bracket arr v a b) :
    arr a ≤ v ∧ v ≤ arr b := by
  rcases h with ⟨rfl, rfl⟩ | ⟨_, h1, h2⟩
  · exact ⟨le_rfl, le_rfl⟩
  · exact ⟨h1.le, h2.le⟩

/-- One-dimensional linear interpolation, the value itself if the two nodes coincide. -/
def lerp (x0 x1 v0 v1 x : ℝ) : ℝ := (1 - (x - x0) / (x1 - x0)) * v0 + (x - x0) / (x1 - x0) * v1

theorem lerp_same (x0 v x : ℝ) : lerp x0 x0 v v x = v := by simp [lerp]

theorem box_ok {k : ℕ} (arr : Fin k → ℝ) (i : Fin k) : ∃ mx mn, amax (List.ofFn arr) = .ok mx ∧
    amin (List.ofFn arr) = .ok mn ∧ (∀ j, arr j ≤ mx) ∧ (∀ j, mn ≤ arr j) ∧ (∃ j, arr j = mx) ∧ ∃ j, arr j = mn := by
  have hi : arr i ∈ List.ofFn arr := by simp
  obtain ⟨mx, h1, h2⟩ := amax_spec hi
  obtain ⟨mn, h3, h4⟩ := amin_spec hi
  refine ⟨mx, mn, h1, h3, fun j => h2.2 (by simp), fun j => h4.2 (by simp), ?_, ?_⟩
  · have := h2.1; simpa using this
  · have := h4.1; simpa using this

theorem zScalar_bracket {e : ExtDrift} (hx : StrictMono e.xs) (hy : StrictMono e.ys) {x y : ℝ}
    {a b : Fin e.nx} {c d : Fin e.ny} (hbx : Bracket e.xs x a b) (hby : Bracket e.ys y c d) :
    e.zScalar x y = .ok (lerp (e.ys c) (e.ys d) (lerp (e.xs a) (e.xs b) (e.z c a) (e.z c b) x)
      (lerp (e.xs a) (e.xs b) (e.z d a) (e.z d b) x) y) := by
  classical
  obtain ⟨mx, mn, h1, h2, h3, h4, -, -⟩ := box_ok e.xs a
  obtain ⟨my, ny, h5, h6, h7, h8, -, -⟩ := box_ok e.ys c
  obtain ⟨r1, r2⟩ := hbx.range
  obtain ⟨r3, r4⟩ := hby.range
  obtain ⟨s1, s2⟩ := hbx.search hx
  obtain ⟨s3, s4⟩ := hby.search hy
  have hbox : ¬ (x > mx ∨ x < mn ∨ y > my ∨ y < ny) := by
    have := h3 b; have := h4 a; have := h7 d; have := h8 c
    intro hc
    rcases hc with hc | hc | hc | hc <;> linarith
  unfold ExtDrift.zScalar
  rw [h1, h2, h5, h6]
  simp only [py_ok_bind, s1, s2, s3, s4, if_neg hbox, py_pure]
  have nex : b.val = a.val + 1 → a ≠ b := fun h h' => by rw [h'] at h; omega
  have ney : d.val = c.val + 1 → c ≠ d := fun h h' => by rw [h'] at h; omega
  rcases hbx with ⟨rfl, rfl⟩ | ⟨hab, ha, hb⟩ <;> rcases hby with ⟨rfl, rfl⟩ | ⟨hcd, hc, hd⟩
  · rw [if_pos rfl, if_pos rfl, lerp_same]; simp [lerp]
  · rw [if_neg (ney hcd), if_pos rfl, if_neg (ney hcd)]
    have : e.ys d - e.ys c ≠ 0 := by linarith
    congr 1
    simp only [lerp]
    field_simp
    simp
  · rw [if_pos rfl, if_neg (nex hab), lerp_same]
    have : e.xs b - e.xs a ≠ 0 := by linarith
    congr 1
    simp only [lerp]
    field_simp
    ring
  · rw [if_neg (ney hcd), if_neg (nex hab)]
    have h1 : e.xs b - e.xs a ≠ 0 := by linarith
    have h2 : e.ys d - e.ys c ≠ 0 := by linarith
    congr 1
    simp only [lerp]
    field_simp
    ring

theorem zScalar_outside {e : ExtDrift} {x y : ℝ} (h : (∀ i, x < e.xs i) ∨ (∀ i, e.xs i < x) ∨
    (∀ i, y < e.ys i) ∨ (∀ i, e.ys i < y)) : e.zScalar x y = .error .valueError := by
  classical
  unfold ExtDrift.zScalar
  by_cases hx : Nonempty (Fin e.nx)
  swap
  · have h0 : e.nx = 0 := by
      by_contra hc; exact hx ⟨⟨0, Nat.pos_of_ne_zero hc⟩⟩
    have hl : List.ofFn e.xs = [] := by rw [← List.length_eq_zero_iff]; simp [h0]
    rw [hl]; rfl
  by_cases hy : Nonempty (Fin e.ny)
  swap
  · have h0 : e.ny = 0 := by
      by_contra hc; exact hy ⟨⟨0, Nat.pos_of_ne_zero hc⟩⟩
    have hl : List.ofFn e.ys = [] := by rw [← List.length_eq_zero_iff]; simp [h0]
    obtain ⟨i⟩ := hx
    obtain ⟨mx, mn, h1, h2, -⟩ := box_ok e.xs i
    rw [hl, h1, h2]; rfl
  obtain ⟨i⟩ := hx
  obtain ⟨j⟩ := hy
  obtain ⟨mx, mn, h1, h2, h3, h4, ⟨a, rfl⟩, ⟨b, rfl⟩⟩ := box_ok e.xs i
  obtain ⟨my, ny, h5, h6, h7, h8, ⟨c, rfl⟩, ⟨d, rfl⟩⟩ := box_ok e.ys j
  rw [h1, h2, h5, h6]
  simp only [py_ok_bind]
  rw [if_pos]
  · rfl
  · rcases h with h | h | h | h
    · exact Or.inr (Or.inl (h b))
    · exact Or.inl (h a)
    · exact Or.inr (Or.inr (Or.inr (h d)))
    · exact Or.inr (Or.inr (Or.inl (h c)))

/-- The grid the constructor stores. -/
theorem DriftGrid.setup {args : UKArgs} {xs ys : List ℝ} {node : ℕ → ℕ → ℝ} (h : DriftGrid args xs ys node) :
    setupExternal args = .ok { nx := xs.length, ny := ys.length, xs := xs.get, ys := ys.get
                               z := fun r c => node c.val r.val } := by
  obtain ⟨e, he, hg⟩ := h.grid
  unfold setupExternal
  rw [he, h.axisX, h.axisY]
  rcases hg with ⟨h1, h2, h3⟩ | ⟨h1, h2, hne, h3⟩
  · simp only
    rw [if_neg (by simp [h1, h2])]
    simp [h3]
  · simp only
    rw [if_pos (Or.inl (by rw [h1]; exact hne)), if_pos ⟨h1, h2⟩]
    simp [h3]

theorem strictMono_get {l : List ℝ} (h : l.Pairwise (· < ·)) : StrictMono l.get := by
  intro i j hij
  exact List.pairwise_iff_get.1 h i j hij

/-- Cells: inside the cell with lower left node `(xs[i], ys[j])`, its sides and corners included, the drift is the
bilinear interpolant of the four corner values. -/
theorem C23_bilinear {args : UKArgs} {xs ys : List ℝ} {node : ℕ → ℕ → ℝ} (h : DriftGrid args xs ys node)
    {i j : ℕ} (hi : i + 1 < xs.length) (hj : j + 1 < ys.length) {x y : ℝ}
    (hx : xs[i] ≤ x) (hx' : x ≤ xs[i + 1]) (hy : ys[j] ≤ y) (hy' : y ≤ ys[j + 1]) :
    externalAt args (x, y) = .ok (bilinear xs[i] xs[i + 1] ys[j] ys[j + 1] (node i j) (node (i + 1) j)
      (node i (j + 1)) (node (i + 1) (j + 1)) x y) := by
  have hmx := strictMono_get h.incX
  have hmy := strictMono_get h.incY
  unfold externalAt
  rw [DriftGrid.setup h, py_ok_bind]
  have key : ∀ {k : ℕ} {arr : Fin k → ℝ} (_ : StrictMono arr) {v : ℝ} {a b : Fin k} (_ : b.val = a.val + 1)
      (_ : arr a ≤ v) (_ : v ≤ arr b), ∃ c d, Bracket arr v c d ∧
        ∀ g : Fin k → ℝ, lerp (arr c) (arr d) (g c) (g d) v = lerp (arr a) (arr b) (g a) (g b) v := by
    intro k arr hm v a b hab hav hvb
    have hne : arr b - arr a ≠ 0 := by
      have : arr a < arr b := hm (Fin.lt_def.2 (by omega))
      linarith
    rcases eq_or_lt_of_le hav with rfl | h1
    · exact ⟨a, a, Or.inl ⟨rfl, rfl⟩, fun g => by simp [lerp]⟩
    rcases eq_or_lt_of_le hvb with rfl | h2
    · exact ⟨b, b, Or.inl ⟨rfl, rfl⟩, fun g => by simp [lerp, div_self hne]⟩
    exact ⟨a, b, Or.inr ⟨hab, h1, h2⟩, fun g => rfl⟩
  obtain ⟨a, b, hab, ha⟩ := key hmx (v := x) (a := ⟨i, by omega⟩) (b := ⟨i + 1, hi⟩) rfl hx hx'
  obtain ⟨c, d, hcd, hc⟩ := key hmy (v := y) (a := ⟨j, by omega⟩) (b := ⟨j + 1, hj⟩) rfl hy hy'
  rw [zScalar_bracket (e := { nx := xs.length, ny := ys.length, xs := xs.get, ys := ys.get
                              z := fun r c => node c.val r.val }) hmx hmy hab hcd]
  congr 1
  have e1 := ha (fun m => node m.val c.val)
  have e2 := ha (fun m => node m.val d.val)
  have e3 := hc (fun m => lerp xs[i] xs[i + 1] (node i m.val) (node (i + 1) m.val) x)
  simp only [List.get_eq_getElem] at e1 e2 e3 ⊢
  rw [e1, e2, e3]
  rfl

/-- At a grid node the drift is the value stored there (also for grids with a single row or column). -/
theorem C23_node {args : UKArgs} {xs ys : List ℝ} {node : ℕ → ℕ → ℝ} (h : DriftGrid args xs ys node)
    {i j : ℕ} (hi : i < xs.length) (hj : j < ys.length) :
    externalAt args (xs[i], ys[j]) = .ok (node i j) := by
  unfold externalAt
  rw [DriftGrid.setup h, py_ok_bind]
  refine (zScalar_bracket (e := { nx := xs.length, ny := ys.length, xs := xs.get, ys := ys.get
                                  z := fun r c => node c.val r.val }) (strictMono_get h.incX) (strictMono_get h.incY)
      (a := ⟨i, hi⟩) (b := ⟨i, hi⟩) (c := ⟨j, hj⟩) (d := ⟨j, hj⟩) (Or.inl ⟨rfl, rfl⟩) (Or.inl ⟨rfl, rfl⟩)).trans ?_
  simp [lerp]

/-- Within the bounding box of the grid (no matter how many rows and columns) a value is returned; it lies between
the smallest and the largest of some four nodes around the point: -/
theorem C23_inside {args : UKArgs} {xs ys : List ℝ} {node : ℕ → ℕ → ℝ} (h : DriftGrid args xs ys node)
    {x y : ℝ} (hx : ∃ a ∈ xs, a ≤ x) (hx' : ∃ a ∈ xs, x ≤ a) (hy : ∃ a ∈ ys, a ≤ y) (hy' : ∃ a ∈ ys, y ≤ a) :
    ∃ v, externalAt args (x, y) = .ok v ∧
      ∃ a b c d, ∃ (_ : b < xs.length) (_ : d < ys.length) (_ : a ≤ b) (_ : b ≤ a + 1) (_ : c ≤ d) (_ : d ≤ c + 1),
        xs[a] ≤ x ∧ x ≤ xs[b] ∧ ys[c] ≤ y ∧ y ≤ ys[d] ∧
        min (min (node a c) (node b c)) (min (node a d) (node b d)) ≤ v ∧
        v ≤ max (max (node a c) (node b c)) (max (node a d) (node b d)) := by
  have hmx := strictMono_get h.incX
  have hmy := strictMono_get h.incY
  have get : ∀ {l : List ℝ} {P : ℝ → Prop}, (∃ a ∈ l, P a) → ∃ i : Fin l.length, P (l.get i) := by
    rintro l P ⟨a, ha, hP⟩
    obtain ⟨i, rfl⟩ := List.mem_iff_get.1 ha
    exact ⟨i, hP⟩
  obtain ⟨i1, h1⟩ := get hx
  obtain ⟨i2, h2⟩ := get hx'
  obtain ⟨i3, h3⟩ := get hy
  obtain ⟨i4, h4⟩ := get hy'
  obtain ⟨a, b, hab⟩ := Bracket.exists hmx h1 h2
  obtain ⟨c, d, hcd⟩ := Bracket.exists hmy h3 h4
  have hle : ∀ {k : ℕ} {arr : Fin k → ℝ} {v : ℝ} {a b : Fin k}, Bracket arr v a b → a.val ≤ b.val ∧ b.val ≤ a.val + 1 := by
    rintro k arr v a b (⟨rfl, -⟩ | ⟨h, -, -⟩) <;> omega
  have hlerp : ∀ {k : ℕ} {arr : Fin k → ℝ} {v : ℝ} {a b : Fin k} (u w : ℝ), Bracket arr v a b →
      min u w ≤ lerp (arr a) (arr b) u w v ∧ lerp (arr a) (arr b) u w v ≤ max u w := by
    rintro k arr v a b u w (⟨rfl, rfl⟩ | ⟨hab, h1, h2⟩)
    · simp [lerp]
    · have hpos : 0 < arr b - arr a := by linarith
      have ht0 : 0 ≤ (v - arr a) / (arr b - arr a) := div_nonneg (by linarith) hpos.le
      have ht1 : (v - arr a) / (arr b - arr a) ≤ 1 := by rw [div_le_one hpos]; linarith
      unfold lerp
      generalize (v - arr a) / (arr b - arr a) = t at ht0 ht1
      have a1 := min_le_left u w
      have a2 := min_le_right u w
      have a3 := le_max_left u w
      have a4 := le_max_right u w
      constructor <;> nlinarith
  refine ⟨_, by
    unfold externalAt
    rw [DriftGrid.setup h, py_ok_bind]
    exact zScalar_bracket (e := { nx := xs.length, ny := ys.length, xs := xs.get, ys := ys.get
                                  z := fun r c => node c.val r.val }) hmx hmy hab hcd,
    a, b, c, d, b.isLt, d.isLt, (hle hab).1, (hle hab).2, (hle hcd).1, (hle hcd).2, hab.range.1, hab.range.2,
    hcd.range.1, hcd.range.2, ?_, ?_⟩
  · refine le_trans ?_ (hlerp _ _ hcd).1
    exact min_le_min (hlerp _ _ hab).1 (hlerp _ _ hab).1
  · refine le_trans (hlerp _ _ hcd).2 ?_
    exact max_le_max (hlerp _ _ hab).2 (hlerp _ _ hab).2

/-- Interpolation is exact for grids sampled from a function `α + β x + γ y + δ x y`, everywhere in the box. -/
theorem C23_exact {args : UKArgs} {xs ys : List ℝ} {node : ℕ → ℕ → ℝ} (h : DriftGrid args xs ys node)
    (α β γ δ : ℝ) (hn : ∀ i j, ∀ (_ : i < xs.length) (_ : j < ys.length),
      node i j = α + β * xs[i] + γ * ys[j] + δ * xs[i] * ys[j])
    {x y : ℝ} (hx : ∃ a ∈ xs, a ≤ x) (hx' : ∃ a ∈ xs, x ≤ a) (hy : ∃ a ∈ ys, a ≤ y) (hy' : ∃ a ∈ ys, y ≤ a) :
    externalAt args (x, y) = .ok (α + β * x + γ * y + δ * x * y) := by
  have hmx := strictMono_get h.incX
  have hmy := strictMono_get h.incY
  have get : ∀ {l : List ℝ} {P : ℝ → Prop}, (∃ a ∈ l, P a) → ∃ i : Fin l.length, P (l.get i) := by
    rintro l P ⟨a, ha, hP⟩
    obtain ⟨i, rfl⟩ := List.mem_iff_get.1 ha
    exact ⟨i, hP⟩
  obtain ⟨i1, h1⟩ := get hx
  obtain ⟨i2, h2⟩ := get hx'
  obtain ⟨i3, h3⟩ := get hy
  obtain ⟨i4, h4⟩ := get hy'
  obtain ⟨a, b, hab⟩ := Bracket.exists hmx h1 h2
  obtain ⟨c, d, hcd⟩ := Bracket.exists hmy h3 h4
  have hlerp : ∀ {k : ℕ} {arr : Fin k → ℝ} {v : ℝ} {a b : Fin k} (p q : ℝ), Bracket arr v a b →
      lerp (arr a) (arr b) (p + q * arr a) (p + q * arr b) v = p + q * v := by
    rintro k arr v a b p q (⟨rfl, rfl⟩ | ⟨hab, h1, h2⟩)
    · simp [lerp]
    · have hpos : arr b - arr a ≠ 0 := by linarith
      unfold lerp
      field_simp
      ring
  unfold externalAt
  rw [DriftGrid.setup h, py_ok_bind]
  refine (zScalar_bracket (e := { nx := xs.length, ny := ys.length, xs := xs.get, ys := ys.get
                                  z := fun r c => node c.val r.val }) hmx hmy hab hcd).trans ?_
  congr 1
  have hrow : ∀ m : Fin ys.length, lerp (xs.get a) (xs.get b) (node a m) (node b m) x =
      (α + β * x) + (γ + δ * x) * ys.get m := by
    intro m
    rw [hn a m a.isLt m.isLt, hn b m b.isLt m.isLt]
    have := hlerp (α + γ * ys.get m) (β + δ * ys.get m) hab
    refine Eq.trans ?_ (this.trans ?_)
    · congr 1 <;> (simp only [List.get_eq_getElem]; ring)
    · ring
  show lerp (ys.get c) (ys.get d) (lerp (xs.get a) (xs.get b) (node a c) (node b c) x)
    (lerp (xs.get a) (xs.get b) (node a d) (node b d) x) y = _
  rw [hrow, hrow, hlerp _ _ hcd]
  ring

/-- Outside the bounding box of the grid there is no value: `ValueError`. -/
theorem C23_outside {args : UKArgs} {xs ys : List ℝ} {node : ℕ → ℕ → ℝ} (h : DriftGrid args xs ys node)
    {x y : ℝ} (ho : (∀ a ∈ xs, x < a) ∨ (∀ a ∈ xs, a < x) ∨ (∀ a ∈ ys, y < a) ∨ (∀ a ∈ ys, a < y)) :
    externalAt args (x, y) = .error .valueError := by
  unfold externalAt
  rw [DriftGrid.setup h, py_ok_bind]
  refine zScalar_outside ?_
  rcases ho with ho | ho | ho | ho
  · exact Or.inl fun i => ho _ (List.get_mem _ _)
  · exact Or.inr (Or.inl fun i => ho _ (List.get_mem _ _))
  · exact Or.inr (Or.inr (Or.inl fun i => ho _ (List.get_mem _ _)))
  · exact Or.inr (Or.inr (Or.inr fun i => ho _ (List.get_mem _ _)))

/-- A grid whose shape is neither (len(y), len(x)) nor (len(x), len(y)), or without its axes, is refused. -/
theorem C23_shape {args : UKArgs}
    (h : ∀ e xs ys, args.externalDrift = some e → args.externalDriftX = some xs → args.externalDriftY = some ys →
      ¬ (e.rows = ys.length ∧ e.cols = xs.length) ∧ ¬ (e.rows = xs.length ∧ e.cols = ys.length)) (p : ℝ × ℝ) :
    externalAt args p = .error .valueError := by
  unfold externalAt
  have : setupExternal args = .error .valueError := by
    unfold setupExternal
    cases he : args.externalDrift with
    | none => rfl
    | some e =>
      cases hx : args.externalDriftX with
      | none => rfl
      | some xs =>
        cases hy : args.externalDriftY with
        | none => rfl
        | some ys =>
          obtain ⟨h1, h2⟩ := h e xs ys he hx hy
          simp only
          rw [if_pos (by tauto), if_neg h2]
  rw [this]; rfl

/-- The constructor refuses data outside the grid. -/
theorem C23_create_refused {n : ℕ} {env : Env} {x y z : Fin n → ℝ} {args : UKArgs}
    (ht : "external_Z" ∈ args.driftTerms) {i : Fin n} {er : PyErr}
    (ho : externalAt args (x i, y i) = .error er) (s : UK n) : UK.create env x y z args ≠ .ok s := by
  intro h
  obtain ⟨-, h2, -⟩ := UK.create_drift h
  unfold setupExternalZ at h2
  rw [if_pos ht] at h2
  obtain ⟨e, he, h2⟩ := py_bind_eq_ok.1 h2
  obtain ⟨zs, hz, -⟩ := py_bind_eq_ok.1 h2
  unfold externalAt at ho
  rw [he, py_ok_bind, atData_ok hz i] at ho
  cases ho

/-- `execute` refuses query points outside the grid (a masked cell outside is refused by 'vectorized' only). -/
theorem C23_execute_refused {n : ℕ} {env : Env} {x y z : Fin n → ℝ} {args : UKArgs} {s : UK n}
    (h : UK.create env x y z args = .ok s) (ht : "external_Z" ∈ args.driftTerms) {ea : UKExecArgs} {j : ℕ}
    {p : ℝ × ℝ} (hj : queryAt ea.toExec j = some p)
    (hm : maskedAt ea.toExec j = false ∨ ea.toExec.backend = "vectorized") {er : PyErr}
    (ho : externalAt args p = .error er) (r : ExecResult) : s.execute ea ≠ .ok r := by
  intro hr
  have := ((UK.create_pw h ea).ok_iff.1 ⟨r, hr⟩).2 j p hj hm
  obtain ⟨v, hv⟩ := (UK.extP_ok_iff h p).1 this.1 ht
  rw [ho] at hv
  cases hv

/-- The strictly increasing axes are needed: on a strictly decreasing axis even the value at a node is wrong (the
corners of the whole axis are interpolated). -/
theorem C23_decreasing_axis_fails : ∃ args : UKArgs, ∃ e : ExtArg, args.externalDrift = some e ∧
    args.externalDriftX = some [2, 1, 0] ∧ args.externalDriftY = some [0] ∧ e.rows = 1 ∧ e.cols = 3 ∧
    e.get 0 1 = 1 ∧ externalAt args (1, 0) = .ok 0 := by
  classical
  refine ⟨{ externalDrift := some ⟨1, 3, fun _ c => if c = 1 then 1 else 0⟩
            externalDriftX := some [2, 1, 0], externalDriftY := some [0] }, _, rfl, rfl, rfl, rfl, rfl, by simp, ?_⟩
  have f1 : firstGe (k := 3) ([2, 1, 0] : List ℝ).get 1 = .ok 0 := firstGe_eq (by norm_num) (by intro j hj; simp at hj)
  have f2 : lastLe (k := 3) ([2, 1, 0] : List ℝ).get 1 = .ok 2 := by
    refine lastLe_eq (by norm_num) (by intro j hj; exact absurd (Fin.lt_def.1 hj) (by have := j.isLt; simp; omega))
  have f3 : firstGe (k := 1) ([0] : List ℝ).get 0 = .ok 0 := firstGe_eq (by norm_num) (by intro j hj; simp at hj)
  have f4 : lastLe (k := 1) ([0] : List ℝ).get 0 = .ok 0 :=
    lastLe_eq (by norm_num) (by intro j hj; exact absurd (Fin.lt_def.1 hj) (by have := j.isLt; simp))
  unfold externalAt setupExternal
  simp only [List.length_cons, List.length_nil, ne_eq, not_true_eq_false, or_self, if_false, py_ok_bind]
  unfold ExtDrift.zScalar
  obtain ⟨mx, mn, h1, h2, h3, h4, -, -⟩ := box_ok (k := 3) ([2, 1, 0] : List ℝ).get 0
  obtain ⟨my, ny, h5, h6, h7, h8, -, -⟩ := box_ok (k := 1) ([0] : List ℝ).get 0
  have hbox : ¬ ((1 : ℝ) > mx ∨ (1 : ℝ) < mn ∨ (0 : ℝ) > my ∨ (0 : ℝ) < ny) := by
    have a1 := h3 1; have a2 := h4 1; have a3 := h7 0; have a4 := h8 0
    simp only [List.get_eq_getElem, Fin.val_one, Fin.val_zero, List.getElem_cons_succ, List.getElem_cons_zero] at a1 a2 a3 a4
    intro hc
    rcases hc with hc | hc | hc | hc <;> linarith
  show (amax (List.ofFn (([2, 1, 0] : List ℝ).get : Fin 3 → ℝ)) >>= _) = _
  rw [h1]
  simp only [py_ok_bind]
  show (amin (List.ofFn (([2, 1, 0] : List ℝ).get : Fin 3 → ℝ)) >>= _) = _
  rw [h2]
  simp only [py_ok_bind]
  show (amax (List.ofFn (([0] : List ℝ).get : Fin 1 → ℝ)) >>= _) = _
  rw [h5]
  simp only [py_ok_bind]
  show (amin (List.ofFn (([0] : List ℝ).get : Fin 1 → ℝ)) >>= _) = _
  rw [h6]
  simp only [py_ok_bind]
  rw [if_neg hbox]
  show (firstGe (([2, 1, 0] : List ℝ).get : Fin 3 → ℝ) 1 >>= _) = _
  rw [f1]
  simp only [py_ok_bind]
  show (lastLe (([2, 1, 0] : List ℝ).get : Fin 3 → ℝ) 1 >>= _) = _
  rw [f2]
  simp only [py_ok_bind]
  show (firstGe (([0] : List ℝ).get : Fin 1 → ℝ) 0 >>= _) = _
  rw [f3]
  simp only [py_ok_bind]
  show (lastLe (([0] : List ℝ).get : Fin 1 → ℝ) 0 >>= _) = _
  rw [f4]
  simp only [py_ok_bind]
  rw [if_pos trivial]
  refine (if_neg (by decide : ¬ ((2 : Fin 3) = 0))).trans ?_
  simp

/-- Non-vacuity: a transposed 3 × 2 grid; at the centre of its first cell the value is the mean of the corners. -/
example : DriftGrid { externalDrift := some ⟨3, 2, fun r c => 10 * r + c⟩, externalDriftX := some [0, 1, 3]
                      externalDriftY := some [5, 7] } [0, 1, 3] [5, 7] (fun i j => 10 * i + j) := by
  refine ⟨rfl, rfl, by norm_num, by norm_num, _, rfl, Or.inr ⟨rfl, rfl, by simp, fun i j => rfl⟩⟩

example : externalAt { externalDrift := some ⟨3, 2, fun r c => 10 * r + c⟩, externalDriftX := some [0, 1, 3]
                       externalDriftY := some [5, 7] } (1 / 2, 6) = .ok (11 / 2) := by
  have h : DriftGrid { externalDrift := some ⟨3, 2, fun r c => 10 * r + c⟩, externalDriftX := some [0, 1, 3]
                       externalDriftY := some [5, 7] } [0, 1, 3] [5, 7] (fun i j => 10 * i + j) :=
    ⟨rfl, rfl, by norm_num, by norm_num, _, rfl, Or.inr ⟨rfl, rfl, by simp, fun i j => rfl⟩⟩
  rw [C23_bilinear h (i := 0) (j := 0) (by simp) (by simp) (by norm_num) (by norm_num) (by norm_num) (by norm_num)]
  norm_num [bilinear]

end
end PyKrige
