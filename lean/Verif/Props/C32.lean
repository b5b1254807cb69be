import Verif.Lemmas.AscRead
import Mathlib.Data.Fin.VecNotation
import Mathlib.Tactic.FinCases
import Mathlib.Data.Fintype.Basic

/-!
C32: ASC grids survive writing and reading.

`write_asc_grid` prints coordinates and values with two decimals; `read_asc_grid` returns the grid in the orientation in
which it was written, and everything rounded to two decimals — provided that the cell size is not rounded to zero and
that no value but those of the last column fills its field of 16 characters. Outside of these conditions the file cannot
be read at all.
-/

namespace PyKrige
open Spec

/-- What is read back of a grid `z` (entries already filled). -/
def Spec.ReadBack {nr nc : ℕ} (z : Fin nr → Fin nc → Option Flt) (noData : Flt) (rows : List (List Flt)) : Prop :=
  ∃ g : Fin nr → Fin nc → Flt, rows = List.ofFn (fun i => List.ofFn (g i)) ∧
    ∀ i j, RoundedFlt 2 ((z i j).getD noData) (g i j)

theorem fixedOf_ne {q : ℚ} (h : 1 / 200 < |q|) : fixedOf 2 q ≠ 0 := by
  intro e
  have := (fixedOf_rounded 2 q).near
  rw [e, zero_sub, abs_neg] at this
  norm_num at this
  linarith

theorem fixedOf_zero {q : ℚ} (h : |q| ≤ 1 / 200) : fixedOf 2 q = 0 :=
  (fixedOf_rounded 2 q).unique ⟨by rw [zero_sub, abs_neg]; norm_num; linarith, 0, by norm_num, fun _ => Even.zero⟩

theorem checkShape_readBack {nr nc : ℕ} (hr : 2 ≤ nr) (hc : 2 ≤ nc) (g : Fin nr → Fin nc → Flt) :
    checkShape (List.ofFn fun i => List.ofFn (g i)).reverse nr nc = .ok () := by
  refine checkShape_full hr hc (by rw [List.length_reverse, List.length_ofFn]) fun r h => ?_
  rw [List.mem_reverse] at h
  obtain ⟨i, rfl⟩ := List.mem_ofFn.1 h
  rw [List.length_ofFn]

section
variable {nr nc : ℕ} {file : Option Text} {x0 x1 y0 y1 : ℚ} {xs ys : List ℚ} {z : Fin nr → Fin nc → Option Flt}
  {noData : Flt} {t : Text}

theorem written_1 (hr : 2 ≤ nr) (hc : 2 ≤ nc)
    (hw : writeAscGrid file (x0 :: x1 :: xs) (y0 :: y1 :: ys) z noData 1 = (.ok (), some t)) :
    t = ascHeader1 (metaOf nr nc x0 x1 y0 y1 noData 1) ++ ascBody (fillMasked z noData) := by
  rw [writeAsc_two _ _ _ _ _ _ _ _ _ _ (by omega) (by omega)] at hw
  split at hw
  · rw [if_pos rfl] at hw
    exact (Option.some.inj (Prod.ext_iff.1 hw).2).symm
  · cases (Prod.ext_iff.1 hw).1

theorem written_2 (hr : 2 ≤ nr) (hc : 2 ≤ nc)
    (hw : writeAscGrid file (x0 :: x1 :: xs) (y0 :: y1 :: ys) z noData 2 = (.ok (), some t)) :
    |x1 - x0| = |y1 - y0| ∧ t = ascHeader2 (metaOf nr nc x0 x1 y0 y1 noData 2) ++ ascBody (fillMasked z noData) := by
  rw [writeAsc_two _ _ _ _ _ _ _ _ _ _ (by omega) (by omega)] at hw
  split at hw
  next h =>
    rw [if_neg (by norm_num), if_pos rfl] at hw
    refine ⟨?_, (Option.some.inj (Prod.ext_iff.1 hw).2).symm⟩
    by_contra hne
    exact h.2.2 ⟨rfl, hne⟩
  · cases (Prod.ext_iff.1 hw).1

/-- Style 1: a written grid is read back with its values, origin, cell size and no-data value rounded to two decimals, in
the same orientation. `x0, x1`, `y0, y1` are the first coordinates. -/
theorem C32_roundtrip_1 (hr : 2 ≤ nr) (hc : 2 ≤ nc)
    (hw : writeAscGrid file (x0 :: x1 :: xs) (y0 :: y1 :: ys) z noData 1 = (.ok (), some t))
    (hfit : ∀ i (j : Fin nc), j.val + 1 < nc → FitsAsc ((z i j).getD noData))
    (hx : 1 / 200 < |x1 - x0|) (hy : 1 / 200 < |y1 - y0|) :
    ∃ (g : AscGrid) (dx dy ox oy : ℚ), readAscGrid t = .ok g ∧
      Rounded 2 |x1 - x0| dx ∧ Rounded 2 |y1 - y0| dy ∧ g.cellsize = .pair dx dy ∧
      Rounded 2 x0 ox ∧ Rounded 2 y0 oy ∧ g.x = axis ox dx nc ∧ g.y = axis oy dy nr ∧
      RoundedFlt 2 noData g.noData ∧ ReadBack z noData g.grid := by
  obtain rfl := written_1 hr hc hw
  set m := metaOf nr nc x0 x1 y0 y1 noData 1 with hm
  have hdx : fixedOf 2 m.dx ≠ 0 := fixedOf_ne (by rw [hm]; simpa [metaOf] using hx)
  have hdy : fixedOf 2 m.dy ≠ 0 := fixedOf_ne (by rw [hm]; simpa [metaOf] using hy)
  refine ⟨{ grid := List.ofFn fun i => List.ofFn fun j => fltOf 2 (fillMasked z noData i j)
            x := axis (fixedOf 2 m.xll) (fixedOf 2 m.dx) nc, y := axis (fixedOf 2 m.yll) (fixedOf 2 m.dy) nr
            cellsize := .pair (fixedOf 2 m.dx) (fixedOf 2 m.dy), noData := fltOf 2 noData },
    fixedOf 2 m.dx, fixedOf 2 m.dy, fixedOf 2 m.xll, fixedOf 2 m.yll, ?_, fixedOf_rounded 2 _, fixedOf_rounded 2 _,
    rfl, ?_, ?_, rfl, rfl, fltOf_rounded 2 noData, ?_⟩
  rotate_left
  · simpa [hm, metaOf] using fixedOf_rounded 2 x0
  · simpa [hm, metaOf] using fixedOf_rounded 2 y0
  rotate_left
  · unfold readAscGrid
    rw [readAscHeader_1, py_ok_bind]
    dsimp only
    rw [genfromtxt_ascBody (z := fillMasked z noData) (by omega) (by omega) hfit, py_ok_bind]
    change (do
      checkShape _ (nr : ℤ) (nc : ℤ)
      let (x, y, c) ← ascCoordinates (header1 m) (m.ncols : ℤ) (m.nrows : ℤ)
      return { grid := _, x := x, y := y, cellsize := c, noData := _ } : Py AscGrid) = _
    rw [checkShape_readBack hr hc fun i j => fltOf 2 (fillMasked z noData i j), py_ok_bind, coordinates_1 m hdx hdy,
      py_ok_bind]
    dsimp only
    rw [List.reverse_reverse]
    rfl
  · exact ⟨fun i j => fltOf 2 (fillMasked z noData i j), rfl, fun i j => fltOf_rounded 2 _⟩

/-- Style 2: the same, with one cell size and the origin at the corner. -/
theorem C32_roundtrip_2 (hr : 2 ≤ nr) (hc : 2 ≤ nc)
    (hw : writeAscGrid file (x0 :: x1 :: xs) (y0 :: y1 :: ys) z noData 2 = (.ok (), some t))
    (hfit : ∀ i (j : Fin nc), j.val + 1 < nc → FitsAsc ((z i j).getD noData))
    (hx : 1 / 200 < |x1 - x0|) :
    |x1 - x0| = |y1 - y0| ∧ ∃ (g : AscGrid) (c cx cy : ℚ), readAscGrid t = .ok g ∧
      Rounded 2 |x1 - x0| c ∧ g.cellsize = .both c ∧
      Rounded 2 (x0 - |x1 - x0| / 2) cx ∧ Rounded 2 (y0 - |y1 - y0| / 2) cy ∧
      g.x = axis (cx + c / 2) c nc ∧ g.y = axis (cy + c / 2) c nr ∧
      RoundedFlt 2 noData g.noData ∧ ReadBack z noData g.grid := by
  obtain ⟨he, rfl⟩ := written_2 hr hc hw
  refine ⟨he, ?_⟩
  set m := metaOf nr nc x0 x1 y0 y1 noData 2 with hm
  have hdx : fixedOf 2 m.dx ≠ 0 := fixedOf_ne (by rw [hm]; simpa [metaOf] using hx)
  refine ⟨{ grid := List.ofFn fun i => List.ofFn fun j => fltOf 2 (fillMasked z noData i j)
            x := axis (fixedOf 2 m.xll + fixedOf 2 m.dx / 2) (fixedOf 2 m.dx) nc
            y := axis (fixedOf 2 m.yll + fixedOf 2 m.dx / 2) (fixedOf 2 m.dx) nr
            cellsize := .both (fixedOf 2 m.dx), noData := fltOf 2 noData },
    fixedOf 2 m.dx, fixedOf 2 m.xll, fixedOf 2 m.yll, ?_, fixedOf_rounded 2 _,
    rfl, ?_, ?_, rfl, rfl, fltOf_rounded 2 noData, ?_⟩
  rotate_left
  · simpa [hm, metaOf] using fixedOf_rounded 2 (x0 - |x1 - x0| / 2)
  · simpa [hm, metaOf] using fixedOf_rounded 2 (y0 - |y1 - y0| / 2)
  rotate_left
  · unfold readAscGrid
    rw [readAscHeader_2, py_ok_bind]
    dsimp only
    rw [genfromtxt_ascBody (z := fillMasked z noData) (by omega) (by omega) hfit, py_ok_bind]
    change (do
      checkShape _ (nr : ℤ) (nc : ℤ)
      let (x, y, c) ← ascCoordinates (header2 m) (m.ncols : ℤ) (m.nrows : ℤ)
      return { grid := _, x := x, y := y, cellsize := c, noData := _ } : Py AscGrid) = _
    rw [checkShape_readBack hr hc fun i j => fltOf 2 (fillMasked z noData i j), py_ok_bind, coordinates_2 m hdx,
      py_ok_bind]
    dsimp only
    rw [List.reverse_reverse]
    rfl
  · exact ⟨fun i j => fltOf 2 (fillMasked z noData i j), rfl, fun i j => fltOf_rounded 2 _⟩

/-- The cell size is printed with two decimals: if that is zero, the file cannot be read (style 1). -/
theorem C32_small_cells_1 (hr : 2 ≤ nr) (hc : 2 ≤ nc)
    (hw : writeAscGrid file (x0 :: x1 :: xs) (y0 :: y1 :: ys) z noData 1 = (.ok (), some t))
    (hfit : ∀ i (j : Fin nc), j.val + 1 < nc → FitsAsc ((z i j).getD noData))
    (h : |x1 - x0| ≤ 1 / 200 ∨ |y1 - y0| ≤ 1 / 200) : readAscGrid t = .error .zeroDivisionError := by
  obtain rfl := written_1 hr hc hw
  set m := metaOf nr nc x0 x1 y0 y1 noData 1 with hm
  have hd : fixedOf 2 m.dx = 0 ∨ fixedOf 2 m.dy = 0 := by
    rcases h with h | h
    · exact .inl (fixedOf_zero (by rw [hm]; simpa [metaOf] using h))
    · exact .inr (fixedOf_zero (by rw [hm]; simpa [metaOf] using h))
  unfold readAscGrid
  rw [readAscHeader_1, py_ok_bind]
  dsimp only
  rw [genfromtxt_ascBody (z := fillMasked z noData) (by omega) (by omega) hfit, py_ok_bind]
  change (do
    checkShape _ (nr : ℤ) (nc : ℤ)
    let (x, y, c) ← ascCoordinates (header1 m) (m.ncols : ℤ) (m.nrows : ℤ)
    return { grid := _, x := x, y := y, cellsize := c, noData := _ } : Py AscGrid) = _
  rw [checkShape_readBack hr hc fun i j => fltOf 2 (fillMasked z noData i j), py_ok_bind, coordinates_1_zero m hd]
  rfl

/-- The same for style 2. -/
theorem C32_small_cells_2 (hr : 2 ≤ nr) (hc : 2 ≤ nc)
    (hw : writeAscGrid file (x0 :: x1 :: xs) (y0 :: y1 :: ys) z noData 2 = (.ok (), some t))
    (hfit : ∀ i (j : Fin nc), j.val + 1 < nc → FitsAsc ((z i j).getD noData))
    (h : |x1 - x0| ≤ 1 / 200) : readAscGrid t = .error .zeroDivisionError := by
  obtain ⟨-, rfl⟩ := written_2 hr hc hw
  set m := metaOf nr nc x0 x1 y0 y1 noData 2 with hm
  have hd : fixedOf 2 m.dx = 0 := fixedOf_zero (by rw [hm]; simpa [metaOf] using h)
  unfold readAscGrid
  rw [readAscHeader_2, py_ok_bind]
  dsimp only
  rw [genfromtxt_ascBody (z := fillMasked z noData) (by omega) (by omega) hfit, py_ok_bind]
  change (do
    checkShape _ (nr : ℤ) (nc : ℤ)
    let (x, y, c) ← ascCoordinates (header2 m) (m.ncols : ℤ) (m.nrows : ℤ)
    return { grid := _, x := x, y := y, cellsize := c, noData := _ } : Py AscGrid) = _
  rw [checkShape_readBack hr hc fun i j => fltOf 2 (fillMasked z noData i j), py_ok_bind, coordinates_2_zero m hd]
  rfl

/-- Whatever the header, a body with a value that runs into the next one is refused. -/
theorem overflow_refused (hr : 2 ≤ nr) (g : Fin nr → Fin nc → Flt)
    (h : ∃ i, ∃ j : Fin nc, j.val + 1 < nc ∧ FillsAsc (g i j)) :
    ∃ e, (do
      let rows ← genfromtxt (readLines (ascBody g))
      checkShape rows nr nc : Py Unit) = .error e := by
  obtain ⟨i, j, hj, hf⟩ := h
  have hc : nc ≠ 0 := by omega
  have hlen : (genRow (ascRow (g i))).length < nc := (genRow_ascRow_le (g i)).2.2 ⟨j, hj, hf⟩
  rw [readLines_ascBody (by omega) hc]
  set rows := ((List.ofFn fun m => ascRow (g m)).reverse.map genRow).filter (· ≠ []) with hrows
  have hall : rows = (List.ofFn fun m => ascRow (g m)).reverse.map genRow := by
    rw [hrows, List.filter_eq_self]
    intro a ha
    rw [List.mem_map] at ha
    obtain ⟨l, hl, rfl⟩ := ha
    rw [List.mem_reverse] at hl
    obtain ⟨m, rfl⟩ := List.mem_ofFn.1 hl
    simpa using (genRow_ascRow_le (g m)).2.1 hc
  have hmem : genRow (ascRow (g i)) ∈ rows := by
    rw [hall]
    exact List.mem_map_of_mem (List.mem_reverse.2 (List.mem_ofFn.2 ⟨i, rfl⟩))
  have hrl : rows.length = nr := by rw [hall, List.length_map, List.length_reverse, List.length_ofFn]
  unfold genfromtxt
  dsimp only
  rw [← hrows]
  match hrw : rows with
  | [] => simp at hmem
  | [r] => simp at hrl; omega
  | r :: s :: rs =>
    dsimp only
    by_cases heq : (r :: s :: rs).all (fun u => u.length = r.length) = true
    · rw [if_pos heq, py_ok_bind]
      have hr2 := List.all_eq_true.1 heq _ hmem
      simp only [decide_eq_true_eq] at hr2
      unfold checkShape
      dsimp only
      by_cases h1 : r.length = 1
      · rw [if_pos h1]
        by_cases h2 : (nr : ℤ) ≠ ((r :: s :: rs).length : ℤ)
        · exact ⟨_, if_pos h2⟩
        · exact ⟨_, if_neg h2⟩
      · rw [if_neg h1]
        refine ⟨_, if_pos (.inr ?_)⟩
        intro e
        have : nc = r.length := by exact_mod_cast e
        omega
    · rw [if_neg heq]
      exact ⟨_, rfl⟩

/-- A value that fills its field of 16 characters (unless it stands in the last column) runs into the next one, and the
file cannot be read. -/
theorem C32_overflow {style : ℤ} (hr : 2 ≤ nr) (hc : 2 ≤ nc)
    (hw : writeAscGrid file (x0 :: x1 :: xs) (y0 :: y1 :: ys) z noData style = (.ok (), some t))
    (h : ∃ i, ∃ j : Fin nc, j.val + 1 < nc ∧ ¬ FitsAsc ((z i j).getD noData)) : ∃ e, readAscGrid t = .error e := by
  have h' : ∃ i, ∃ j : Fin nc, j.val + 1 < nc ∧ FillsAsc (fillMasked z noData i j) := by
    obtain ⟨i, j, hj, hf⟩ := h
    exact ⟨i, j, hj, (fits_or_fills _).resolve_left hf⟩
  obtain ⟨e, he⟩ := overflow_refused hr (fillMasked z noData) h'
  have key : ∀ (hd : AscHeader) (hdr : Text), hd.ncols = some (nc : ℤ) → hd.nrows = some (nr : ℤ) →
      readAscHeader {} (readLines (hdr ++ ascBody (fillMasked z noData))) =
        .ok (hd, readLines (ascBody (fillMasked z noData))) →
      readAscGrid (hdr ++ ascBody (fillMasked z noData)) = .error e := by
    intro hd hdr h1 h2 h3
    unfold readAscGrid
    rw [h3, py_ok_bind]
    dsimp only
    rw [h1, h2]
    cases hg : genfromtxt (readLines (ascBody (fillMasked z noData))) with
    | error e' =>
      rw [hg] at he
      cases he
      rfl
    | ok rows =>
      rw [hg, py_ok_bind] at he
      rw [py_ok_bind]
      change (do
        checkShape rows (nr : ℤ) (nc : ℤ)
        let (x, y, c) ← ascCoordinates hd (nc : ℤ) (nr : ℤ)
        return { grid := _, x := x, y := y, cellsize := c, noData := _ } : Py AscGrid) = _
      rw [he]
      rfl
  refine ⟨e, ?_⟩
  rw [writeAsc_two _ _ _ _ _ _ _ _ _ _ (by omega) (by omega)] at hw
  split at hw
  · split at hw
    · obtain rfl := (Option.some.inj (Prod.ext_iff.1 hw).2).symm
      exact key _ _ rfl rfl (readAscHeader_1 _ _)
    · split at hw
      · obtain rfl := (Option.some.inj (Prod.ext_iff.1 hw).2).symm
        exact key _ _ rfl rfl (readAscHeader_2 _ _)
      · cases (Prod.ext_iff.1 hw).1
  · cases (Prod.ext_iff.1 hw).1

/-- A call that is refused because of its grid or coordinates leaves the file as it was. -/
theorem C32_refused_keeps_file {x y : List ℚ} {style : ℤ} {e : PyErr} {f : Option Text} (hs : style = 1 ∨ style = 2)
    (hw : writeAscGrid file x y z noData style = (.error e, f)) : f = file := by
  unfold writeAscGrid at hw
  dsimp only at hw
  split at hw
  · exact (Prod.ext_iff.1 hw).2.symm
  · rcases hs with rfl | rfl
    · rw [if_pos rfl] at hw
      cases (Prod.ext_iff.1 hw).1
    · rw [if_neg (by norm_num), if_pos rfl] at hw
      cases (Prod.ext_iff.1 hw).1

/-! ### Which coordinates are accepted -/

theorem axis_two (a d : ℚ) (n : ℕ) : ∃ l, axis a d (n + 2) = a :: (a + d) :: l := by
  refine ⟨(List.range n).map fun i : ℕ => a + ((i + 2 : ℕ) : ℚ) * d, ?_⟩
  unfold axis
  rw [List.range_succ_eq_map, List.range_succ_eq_map]
  simp only [List.map_cons, List.map_map]
  congr 1
  · simp
  · congr 1
    simp

theorem evenly_axis (a d : ℚ) (n : ℕ) : evenly (axis a d (n + 2)) |d| = true := by
  have e1 : (axis a d (n + 2)).getLastD 0 = a + ((n + 1 : ℕ) : ℚ) * d := by
    unfold axis
    rw [List.range_succ, List.map_append, List.map_singleton, List.getLastD_concat]
  have e2 : (axis a d (n + 2)).headD 0 = a := by
    obtain ⟨l, hl⟩ := axis_two a d n
    rw [hl]
    rfl
  have e3 : (axis a d (n + 2)).length = n + 2 := by simp [axis]
  unfold evenly isclose
  rw [e1, e2, e3, decide_eq_true_eq]
  have hn : ((n : ℚ) + 1) ≠ 0 := by positivity
  have : (a + ((n + 1 : ℕ) : ℚ) * d - a) / (((n + 2 : ℕ) : ℚ) - 1) = d := by
    rw [div_eq_iff (by push_cast; intro h; exact hn (by linarith))]
    push_cast
    ring
  rw [this, sub_self, abs_zero]
  positivity

/-- Regularly spaced coordinates are accepted, for style 2 if the two directions have the same spacing. -/
theorem C32_accepts (hr : 2 ≤ nr) (hc : 2 ≤ nc) (a d b e : ℚ) (style : ℤ) (hs : style = 1 ∨ style = 2 ∧ |d| = |e|) :
    ∃ t, writeAscGrid file (axis a d nc) (axis b e nr) z noData style = (.ok (), some t) := by
  obtain ⟨m, rfl⟩ : ∃ m, nr = m + 2 := ⟨nr - 2, by omega⟩
  obtain ⟨n, rfl⟩ : ∃ n, nc = n + 2 := ⟨nc - 2, by omega⟩
  obtain ⟨lx, hx⟩ := axis_two a d n
  obtain ⟨ly, hy⟩ := axis_two b e m
  have h1 := evenly_axis a d n
  have h2 := evenly_axis b e m
  rw [hx] at h1 ⊢
  rw [hy] at h2 ⊢
  rw [writeAsc_two _ _ _ _ _ _ _ _ _ _ (by omega) (by omega)]
  have e1 : a + d - a = d := by ring
  have e2 : b + e - b = e := by ring
  rw [e1, e2, if_pos]
  · rcases hs with rfl | ⟨rfl, -⟩
    · exact ⟨_, if_pos rfl⟩
    · rw [if_neg (by norm_num)]
      exact ⟨_, if_pos rfl⟩
  · refine ⟨h1, h2, ?_⟩
    rintro ⟨h3, h4⟩
    rcases hs with rfl | ⟨-, h5⟩
    · norm_num at h3
    · exact h4 h5

/-- Any other style is refused, but only after the file was opened: its former contents are lost. -/
theorem C32_bad_style_empties (hr : 2 ≤ nr) (hc : 2 ≤ nc) (a d b e : ℚ) (style : ℤ) (h1 : style ≠ 1) (h2 : style ≠ 2) :
    writeAscGrid file (axis a d nc) (axis b e nr) z noData style = (.error .valueError, some []) := by
  obtain ⟨m, rfl⟩ : ∃ m, nr = m + 2 := ⟨nr - 2, by omega⟩
  obtain ⟨n, rfl⟩ : ∃ n, nc = n + 2 := ⟨nc - 2, by omega⟩
  obtain ⟨lx, hx⟩ := axis_two a d n
  obtain ⟨ly, hy⟩ := axis_two b e m
  have g1 := evenly_axis a d n
  have g2 := evenly_axis b e m
  rw [hx] at g1 ⊢
  rw [hy] at g2 ⊢
  rw [writeAsc_two _ _ _ _ _ _ _ _ _ _ (by omega) (by omega)]
  have e1 : a + d - a = d := by ring
  have e2 : b + e - b = e := by ring
  rw [e1, e2, if_pos ⟨g1, g2, fun h => h2 h.1⟩, if_neg h1, if_neg h2]

/-- A single row or column is refused. -/
theorem C32_single_refused {x y : List ℚ} {style : ℤ} (h : nr = 1 ∨ nc = 1) :
    writeAscGrid file x y z noData style = (.error .indexError, file) := by
  unfold writeAscGrid
  rw [if_pos h]
  rfl

end

/-! ### Grids that come back unchanged -/

/-- A number with two decimals. -/
def Spec.TwoDecimals (q : ℚ) : Prop := ∃ m : ℤ, q = m / 100

/-- A float with two decimals, or none (`inf`, `nan`). -/
def Spec.TwoDecimalsFlt : Flt → Prop
  | .num q => TwoDecimals q
  | _ => True

theorem TwoDecimals.rounded {q : ℚ} (h : TwoDecimals q) : Rounded 2 q q := by
  obtain ⟨m, rfl⟩ := h
  refine ⟨by norm_num, m, by norm_num, fun h => ?_⟩
  norm_num at h

theorem TwoDecimals.unique {q r : ℚ} (h : TwoDecimals q) (h' : Rounded 2 q r) : r = q := h'.unique (TwoDecimals.rounded h)

theorem TwoDecimalsFlt.unique {v w : Flt} (h : TwoDecimalsFlt v) (h' : RoundedFlt 2 v w) : w = v := by
  cases h' with
  | num hr => exact congrArg _ (TwoDecimals.unique h hr)
  | inf b => rfl
  | nan => rfl

/-- A grid on increasing coordinates all of whose numbers have two decimals comes back exactly as it was written: values
(masked ones replaced by the no-data value), orientation, coordinates, cell size and no-data value. -/
theorem C32_exact_1 {nr nc : ℕ} {file : Option Text} {z : Fin nr → Fin nc → Option Flt} {noData : Flt} {t : Text}
    {a d b e : ℚ} (hr : 2 ≤ nr) (hc : 2 ≤ nc)
    (hw : writeAscGrid file (axis a d nc) (axis b e nr) z noData 1 = (.ok (), some t)) (hd : 0 < d) (he : 0 < e)
    (ta : TwoDecimals a) (td : TwoDecimals d) (tb : TwoDecimals b) (te : TwoDecimals e) (tn : TwoDecimalsFlt noData)
    (hfit : ∀ i (j : Fin nc), j.val + 1 < nc → FitsAsc ((z i j).getD noData))
    (hz : ∀ i j, TwoDecimalsFlt ((z i j).getD noData)) :
    readAscGrid t = .ok { grid := List.ofFn fun i => List.ofFn fun j => (z i j).getD noData
                          x := axis a d nc, y := axis b e nr, cellsize := .pair d e, noData := noData } := by
  obtain ⟨m, rfl⟩ : ∃ m, nr = m + 2 := ⟨nr - 2, by omega⟩
  obtain ⟨n, rfl⟩ : ∃ n, nc = n + 2 := ⟨nc - 2, by omega⟩
  obtain ⟨lx, hx⟩ := axis_two a d n
  obtain ⟨ly, hy⟩ := axis_two b e m
  have big : ∀ q : ℚ, 0 < q → TwoDecimals q → 1 / 200 < |q| := by
    rintro _ hq ⟨k, rfl⟩
    have : (0 : ℚ) < k := by linarith
    have hk : 0 < k := by exact_mod_cast this
    have : (1 : ℚ) ≤ k := by exact_mod_cast hk
    rw [abs_of_pos hq]
    linarith
  have ed : a + d - a = d := by ring
  have ee : b + e - b = e := by ring
  rw [hx, hy] at hw
  obtain ⟨g, dx, dy, ox, oy, h1, h2, h3, h4, h5, h6, h7, h8, h9, g', h10, h11⟩ :=
    C32_roundtrip_1 hr hc hw hfit (by rw [ed]; exact big d hd td) (by rw [ee]; exact big e he te)
  rw [ed, abs_of_pos hd] at h2
  rw [ee, abs_of_pos he] at h3
  obtain rfl := TwoDecimals.unique td h2
  obtain rfl := TwoDecimals.unique te h3
  obtain rfl := TwoDecimals.unique ta h5
  obtain rfl := TwoDecimals.unique tb h6
  rw [h1]
  obtain ⟨grid, gx, gy, gc, gn⟩ := g
  dsimp only at h4 h7 h8 h9 h10
  have := TwoDecimalsFlt.unique tn h9
  subst h4 h7 h8 h10 this
  congr 2
  have : g' = fun i j => (z i j).getD gn := by
    funext i j
    exact TwoDecimalsFlt.unique (hz i j) (h11 i j)
  rw [this]

/-- Coordinates that decrease are accepted (with a warning), but come back as increasing ones. -/
theorem C32_decreasing_lost {nr nc : ℕ} {file : Option Text} {z : Fin nr → Fin nc → Option Flt} {noData : Flt} {t : Text}
    {a d b e : ℚ} (hr : 2 ≤ nr) (hc : 2 ≤ nc)
    (hw : writeAscGrid file (axis a d nc) (axis b e nr) z noData 1 = (.ok (), some t))
    (hfit : ∀ i (j : Fin nc), j.val + 1 < nc → FitsAsc ((z i j).getD noData)) (hd : 1 / 200 < |d|) (he : e < -(1 / 200)) :
    ∃ g, readAscGrid t = .ok g ∧ g.y ≠ axis b e nr := by
  obtain ⟨m, rfl⟩ : ∃ m, nr = m + 2 := ⟨nr - 2, by omega⟩
  obtain ⟨n, rfl⟩ : ∃ n, nc = n + 2 := ⟨nc - 2, by omega⟩
  obtain ⟨lx, hx⟩ := axis_two a d n
  obtain ⟨ly, hy⟩ := axis_two b e m
  have ed : a + d - a = d := by ring
  have ee : b + e - b = e := by ring
  rw [hx, hy] at hw
  have he' : 1 / 200 < |e| := by rw [abs_of_neg (by linarith)]; linarith
  obtain ⟨g, dx, dy, ox, oy, h1, h2, h3, h4, h5, h6, h7, h8, -⟩ :=
    C32_roundtrip_1 hr hc hw hfit (by rw [ed]; exact hd) (by rw [ee]; exact he')
  refine ⟨g, h1, fun hc => ?_⟩
  obtain ⟨l1, e1⟩ := axis_two oy dy m
  rw [h8, e1, hy] at hc
  injection hc with c1 c2
  injection c2 with c2 c3
  have h := (abs_le.1 h3.near).1
  rw [ee] at h
  norm_num at h
  linarith

/-! ### The hypotheses can be met -/

namespace Demo

/-- A grid with 2 rows and 3 columns, one entry masked. -/
def grid23 : Fin 2 → Fin 3 → Option Flt :=
  ![![some (.num (5 / 4)), some (.num (-7 / 8)), none], ![some .nan, some (.num 3), some (.num (1 / 3))]]

theorem grid23_fits (i : Fin 2) (j : Fin 3) : FitsAsc ((grid23 i j).getD (.num (-999))) := by
  fin_cases i <;> fin_cases j <;> simp [grid23, FitsAsc] <;> norm_num

theorem grid23_written (style : ℤ) (hs : style = 1 ∨ style = 2) :
    ∃ t, writeAscGrid none (axis 10 (1 / 2) 3) (axis 0 (1 / 2) 2) grid23 (.num (-999)) style = (.ok (), some t) :=
  C32_accepts (by norm_num) (by norm_num) _ _ _ _ _ (hs.imp id fun h => ⟨h, rfl⟩)

example : ∃ t g, writeAscGrid none [10, 21 / 2, 11] [0, 1 / 2] grid23 (.num (-999)) 1 = (.ok (), some t) ∧
    readAscGrid t = .ok g := by
  obtain ⟨t, ht⟩ := grid23_written 1 (.inl rfl)
  have ex : axis 10 (1 / 2) 3 = [10, 21 / 2, 11] := by simp [axis, List.range_succ]; norm_num
  have ey : axis 0 (1 / 2) 2 = [0, 1 / 2] := by simp [axis, List.range_succ]
  rw [ex, ey] at ht
  obtain ⟨g, -, -, -, -, h, -⟩ := C32_roundtrip_1 (by norm_num) (by norm_num) ht (fun i j _ => grid23_fits i j)
    (by norm_num) (by norm_num)
  exact ⟨t, g, ht, h⟩

example : ∃ t g, writeAscGrid none [10, 21 / 2, 11] [0, 1 / 2] grid23 (.num (-999)) 2 = (.ok (), some t) ∧
    readAscGrid t = .ok g := by
  obtain ⟨t, ht⟩ := grid23_written 2 (.inr rfl)
  have ex : axis 10 (1 / 2) 3 = [10, 21 / 2, 11] := by simp [axis, List.range_succ]; norm_num
  have ey : axis 0 (1 / 2) 2 = [0, 1 / 2] := by simp [axis, List.range_succ]
  rw [ex, ey] at ht
  obtain ⟨-, g, -, -, -, h, -⟩ := C32_roundtrip_2 (by norm_num) (by norm_num) ht (fun i j _ => grid23_fits i j) (by norm_num)
  exact ⟨t, g, ht, h⟩

/-- Coordinates in degrees with a step of 0.004 are written, but cannot be read. -/
example : ∃ t, writeAscGrid none (axis 10 (1 / 250) 3) (axis 0 (1 / 250) 2) grid23 (.num (-999)) 1 = (.ok (), some t) ∧
    readAscGrid t = .error .zeroDivisionError := by
  obtain ⟨t, ht⟩ := C32_accepts (file := none) (z := grid23) (noData := .num (-999)) (by norm_num) (by norm_num)
    10 (1 / 250) 0 (1 / 250) 1 (.inl rfl)
  refine ⟨t, ht, ?_⟩
  obtain ⟨lx, hx⟩ := axis_two 10 (1 / 250) 1
  obtain ⟨ly, hy⟩ := axis_two 0 (1 / 250) 0
  rw [hx, hy] at ht
  exact C32_small_cells_1 (by norm_num) (by norm_num) ht (fun i j _ => grid23_fits i j) (.inl (by norm_num [abs_of_pos]))

/-- A grid of huge values is written, but cannot be read. -/
example : ∃ t e, writeAscGrid none (axis 0 1 2) (axis 0 1 2) (fun _ _ : Fin 2 => some (.num (10 ^ 12))) (.num (-999)) 1 =
    (.ok (), some t) ∧ readAscGrid t = .error e := by
  obtain ⟨t, ht⟩ := C32_accepts (file := none) (z := fun _ _ : Fin 2 => some (.num (10 ^ 12))) (noData := .num (-999))
    (by norm_num) (by norm_num) 0 1 0 1 1 (.inl rfl)
  obtain ⟨lx, hx⟩ := axis_two 0 1 0
  have ht' := ht
  rw [hx] at ht'
  obtain ⟨e, he⟩ := C32_overflow (by norm_num) (by norm_num) ht' ⟨0, 0, by norm_num, by norm_num [FitsAsc]⟩
  exact ⟨t, e, ht, he⟩

/-- Two decimals throughout. -/
example : ∃ t g, writeAscGrid none (axis 10 (1 / 2) 2) (axis 0 (1 / 4) 2) (fun _ _ : Fin 2 => some (.num (7 / 4))) .nan 1 =
    (.ok (), some t) ∧ readAscGrid t = .ok g ∧ g.grid = [[.num (7 / 4), .num (7 / 4)], [.num (7 / 4), .num (7 / 4)]] := by
  obtain ⟨t, ht⟩ := C32_accepts (file := none) (z := fun _ _ : Fin 2 => some (.num (7 / 4))) (noData := .nan)
    (by norm_num) (by norm_num) 10 (1 / 2) 0 (1 / 4) 1 (.inl rfl)
  have := C32_exact_1 (by norm_num) (by norm_num) ht (by norm_num) (by norm_num) ⟨1000, by norm_num⟩ ⟨50, by norm_num⟩
    ⟨0, by norm_num⟩ ⟨25, by norm_num⟩ trivial (fun _ _ _ => by norm_num [FitsAsc]) (fun _ _ => ⟨175, by norm_num⟩)
  exact ⟨t, _, ht, this, rfl⟩

/-- Only the first and the mean step are compared: these coordinates are accepted. -/
example : (writeAscGrid none [0, 1, 5, 3] [0, 1] (fun (_ : Fin 2) (_ : Fin 4) => some (.num 0)) .nan 1).1 = .ok () := by
  rw [writeAsc_two _ _ _ _ _ _ _ _ _ _ (by norm_num) (by norm_num), if_pos, if_pos rfl]
  refine ⟨?_, ?_, by norm_num⟩ <;> norm_num [evenly, isclose]

end Demo

end PyKrige
