import Verif.Lemmas.ZmapRead
import Verif.Props.C32

/-!
C34: ZMAP grids survive writing and reading.

`read_zmap_grid` returns the grid in the orientation in which it was written, coordinates and no-data value as `str`
prints them, values with 4 decimals below a million and 8 significant digits above. Two clauses one would expect fail:
the coordinate system never comes back as it was given, and a file that ends early is accepted, with undefined memory in
the missing cells.
-/

namespace PyKrige
open Spec

/-- The assumption on `str` for one file: it prints the numbers of the header so that they are read as the same numbers,
and the texts in the header have no line break. -/
structure Spec.CleanHeader (env : ZEnv) (x0 dx hix y0 hiy : ℚ) (noData : Flt) (coordSys : Text) : Prop where
  x0 : Prints env.str x0
  dx : Prints env.str dx
  hix : Prints env.str hix
  y0 : Prints env.str y0
  hiy : Prints env.str hiy
  noData : PrintsFlt env.str noData
  basename : '\n' ∉ env.basename
  date : '\n' ∉ env.date
  time : '\n' ∉ env.time
  coordSys : '\n' ∉ coordSys

/-- Reading a header followed by some fields. -/
theorem readZmap_fields {env : ZEnv} {nx ny : ℕ} {x0 y0 dx dy : ℚ} {noData : Flt} {cs : Text} (hx : 2 ≤ nx) (hy : 2 ≤ ny)
    (hdx : dx ≠ 0) (hdy : dy ≠ 0)
    (hc : CleanHeader env x0 dx (x0 + ((nx : ℚ) - 1) * dx) y0 (y0 + ((ny : ℚ) - 1) * dy) noData cs)
    {l : List (Flt × Bool)} (hl : l.length ≤ ny * nx) :
    readZmapGrid env (zmapHeader env nx ny x0 y0 dx (x0 + ((nx : ℚ) - 1) * dx) (y0 + ((ny : ℚ) - 1) * dy) noData cs ++
        fieldsText noData l) =
      .ok { grid := (List.range ny).map fun m => (List.range nx).map fun n =>
              (l.map (fun p => zmapFlt noData p.1) ++ ((List.range (ny * nx)).map env.fresh).drop l.length).getD
                (n * ny + (ny - 1 - m)) .nan
            x := axis x0 dx nx, y := axis y0 dy ny, cellsize := (dx, dy), noData := noData
            coordSys := ' ' :: cs.takeWhile (· ≠ ':') } := by
  unfold readZmapGrid
  rw [zmapHeader_eq, readLines_fileOf (zmapLines_newline hc.basename hc.date hc.time hc.coordSys hc.x0 hc.hix hc.y0 hc.hiy
    hc.dx hc.noData), zmapLoop_lines hc.x0 hc.hix hc.y0 hc.hiy hc.dx hc.noData,
    zmapLoop_fields rfl rfl noData (by simpa [zmapStart] using hl), py_ok_bind]
  dsimp only [zmapStart]
  have hlen : (l.map (fun p => zmapFlt noData p.1) ++ ((List.range (ny * nx)).map env.fresh).drop l.length).length = ny * nx := by
    simp; omega
  have c1 : ¬ ((nx : ℤ) * (ny : ℤ) ≠ ((l.map (fun p => zmapFlt noData p.1) ++
      ((List.range (ny * nx)).map env.fresh).drop l.length).length : ℕ)) := by
    rw [hlen, not_not]; push_cast; ring
  have c2 : ¬ ((ny : ℤ) < 0 ∨ (nx : ℤ) < 0) := by omega
  have c3 : ¬ ((nx : ℤ) = 1 ∨ (ny : ℤ) = 1) := by omega
  refine (if_neg c1).trans ((if_neg c2).trans ((if_neg c3).trans ?_))
  have hx' : ((nx : ℚ) - 1) ≠ 0 := by
    have : (2 : ℚ) ≤ nx := by exact_mod_cast hx
    intro h; linarith
  have hy' : ((ny : ℚ) - 1) ≠ 0 := by
    have : (2 : ℚ) ≤ ny := by exact_mod_cast hy
    intro h; linarith
  have e1 : (x0 + ((nx : ℚ) - 1) * dx - x0) / ((((nx : ℕ) : ℤ) : ℚ) - 1) = dx := by
    rw [Int.cast_natCast]; field_simp; ring
  have e2 : (y0 + ((ny : ℚ) - 1) * dy - y0) / ((((ny : ℕ) : ℤ) : ℚ) - 1) = dy := by
    rw [Int.cast_natCast]; field_simp; ring
  rw [e1, e2, arange_axis hdx, arange_axis hdy, py_ok_bind, py_ok_bind, Int.toNat_natCast, Int.toNat_natCast]
  rfl

section
variable {nr nc : ℕ} {env : ZEnv} {file : Option Text} {x0 x1 y0 y1 : ℚ} {xs ys : List ℚ} {z : Fin nr → Fin nc → Option Flt}
  {noData : Flt} {cs t : Text}

theorem writeZmap_two : writeZmapGrid env file (x0 :: x1 :: xs) (y0 :: y1 :: ys) z noData cs =
    if evenly (x0 :: x1 :: xs) |x1 - x0| = true ∧ evenly (y0 :: y1 :: ys) |y1 - y0| = true then
      let header := zmapHeader env (xs.length + 2) (ys.length + 2) x0 y0 |x1 - x0|
        (x0 + (((xs.length + 2 : ℕ) : ℚ) - 1) * |x1 - x0|) (y0 + (((ys.length + 2 : ℕ) : ℚ) - 1) * |y1 - y0|) noData cs
      if nr = 1 ∨ nc = 1 then (.error .indexError, some header)
      else (.ok (), some (header ++ zmapBody noData (fillMasked z noData)))
    else (.error .valueError, file) := by
  unfold writeZmapGrid
  rw [if_neg (by simp), firstStep_two, firstStep_two, coordAt_zero, coordAt_zero]
  simp only [py_ok_bind]
  by_cases h : evenly (x0 :: x1 :: xs) |x1 - x0| = true ∧ evenly (y0 :: y1 :: ys) |y1 - y0| = true
  · rw [if_pos h, if_neg (not_not.2 h)]
    rfl
  · rw [if_neg h, if_pos h]
    rfl

theorem writtenZ (hw : writeZmapGrid env file (x0 :: x1 :: xs) (y0 :: y1 :: ys) z noData cs = (.ok (), some t)) :
    t = zmapHeader env (xs.length + 2) (ys.length + 2) x0 y0 |x1 - x0|
        (x0 + (((xs.length + 2 : ℕ) : ℚ) - 1) * |x1 - x0|) (y0 + (((ys.length + 2 : ℕ) : ℚ) - 1) * |y1 - y0|) noData cs ++
      zmapBody noData (fillMasked z noData) := by
  rw [writeZmap_two] at hw
  split at hw
  · dsimp only at hw
    split at hw
    · cases (Prod.ext_iff.1 hw).1
    · exact (Option.some.inj (Prod.ext_iff.1 hw).2).symm
  · cases (Prod.ext_iff.1 hw).1

theorem zmapFields_getElem {nr nc : ℕ} (z : Fin nr → Fin nc → Flt) (i : Fin nr) (j : Fin nc) :
    ∃ b, (zmapFields z)[j.val * nr + (nr - 1 - i.val)]? = some (z i j, b) := by
  unfold zmapFields
  rw [getElem?_flatMap_const (L := nr) _ (fun n => by simp) j (by omega)]
  have hk : nr - 1 - i.val < (List.finRange nr).length := by simp; omega
  rw [List.getElem?_map, List.getElem?_eq_getElem hk, Option.map_some]
  refine ⟨_, congrArg some (Prod.ext ?_ rfl)⟩
  dsimp only
  congr 1
  apply Fin.ext
  simp [Fin.rev]
  omega

theorem zmapFields_length {nr nc : ℕ} (z : Fin nr → Fin nc → Flt) : (zmapFields z).length = nr * nc := by
  unfold zmapFields
  rw [length_flatMap_const (L := nr) _ fun n => by simp]
  ring

/-- What the reader stores for a cell when only the first `k` fields are there. -/
theorem cell_eq (g : Fin nr → Fin nc → Flt) (fresh : ℕ → Flt) {k : ℕ} (hk : k ≤ nr * nc) (i : Fin nr) (j : Fin nc) :
    (((zmapFields g).take k).map (fun p => zmapFlt noData p.1) ++
      ((List.range (nr * nc)).map fresh).drop ((zmapFields g).take k).length).getD (j.val * nr + (nr - 1 - i.val)) .nan =
    if j.val * nr + (nr - 1 - i.val) < k then zmapFlt noData (g i j) else fresh (j.val * nr + (nr - 1 - i.val)) := by
  have hlen : ((zmapFields g).take k).length = k := by rw [List.length_take, zmapFields_length]; omega
  obtain ⟨b, hb⟩ := zmapFields_getElem g i j
  have hlt : j.val * nr + (nr - 1 - i.val) < nr * nc := by
    have : j.val * nr + nr ≤ nr * nc := by
      calc j.val * nr + nr = nr * (j.val + 1) := by ring
        _ ≤ nr * nc := Nat.mul_le_mul_left _ j.isLt
    have := i.isLt
    omega
  set p := j.val * nr + (nr - 1 - i.val) with hp
  rw [List.getD_eq_getElem?_getD]
  split
  next h =>
    rw [List.getElem?_append_left (by rw [List.length_map, hlen]; exact h), List.getElem?_map, List.getElem?_take_of_lt h, hb]
    rfl
  next h =>
    rw [List.getElem?_append_right (by rw [List.length_map, hlen]; omega), List.length_map, hlen, List.getElem?_drop,
      Nat.add_sub_cancel' (by omega), List.getElem?_map, List.getElem?_range hlt]
    rfl

theorem grid_ofFn (f : ℕ → ℕ → Flt) (nr nc : ℕ) :
    ((List.range nr).map fun m => (List.range nc).map fun n => f m n) =
      List.ofFn fun i : Fin nr => List.ofFn fun j : Fin nc => f i j := by
  have h : ∀ {α : Type} (g : ℕ → α) (n : ℕ), (List.range n).map g = List.ofFn fun i : Fin n => g i := by
    intro α g n
    rw [List.ofFn_eq_map, ← List.map_coe_finRange_eq_range, List.map_map]
    rfl
  simp only [h]

theorem readZmap_take (hr : 2 ≤ nr) (hc : 2 ≤ nc) (hxl : xs.length + 2 = nc) (hyl : ys.length + 2 = nr)
    (hx : x0 ≠ x1) (hy : y0 ≠ y1)
    (hcl : CleanHeader env x0 |x1 - x0| (x0 + ((nc : ℚ) - 1) * |x1 - x0|) y0 (y0 + ((nr : ℚ) - 1) * |y1 - y0|) noData cs)
    (hw : writeZmapGrid env file (x0 :: x1 :: xs) (y0 :: y1 :: ys) z noData cs = (.ok (), some t)) {k : ℕ}
    (hk : k ≤ nr * nc) :
    ∃ t', t' <+: t ∧ (k = nr * nc → t' = t) ∧ readZmapGrid env t' =
      .ok { grid := List.ofFn fun i : Fin nr => List.ofFn fun j : Fin nc =>
              if j.val * nr + (nr - 1 - i.val) < k then zmapFlt noData ((z i j).getD noData)
              else env.fresh (j.val * nr + (nr - 1 - i.val))
            x := axis x0 |x1 - x0| nc, y := axis y0 |y1 - y0| nr, cellsize := (|x1 - x0|, |y1 - y0|), noData := noData
            coordSys := ' ' :: cs.takeWhile (· ≠ ':') } := by
  have ht := writtenZ hw
  rw [hxl, hyl] at ht
  rw [zmapBody_eq] at ht
  refine ⟨zmapHeader env nc nr x0 y0 |x1 - x0| (x0 + ((nc : ℚ) - 1) * |x1 - x0|) (y0 + ((nr : ℚ) - 1) * |y1 - y0|) noData cs ++
    fieldsText noData ((zmapFields (fillMasked z noData)).take k), ?_, ?_, ?_⟩
  · rw [ht, List.prefix_append_right_inj]
    conv_rhs => rw [← List.take_append_drop k (zmapFields (fillMasked z noData))]
    unfold fieldsText
    rw [List.flatMap_append]
    exact List.prefix_append _ _
  · intro e
    rw [ht, List.take_of_length_le (by rw [zmapFields_length, e])]
  · rw [readZmap_fields hc hr (abs_ne_zero.2 (sub_ne_zero.2 hx.symm)) (abs_ne_zero.2 (sub_ne_zero.2 hy.symm)) hcl
      (by rw [List.length_take, zmapFields_length]; omega)]
    congr 2
    rw [grid_ofFn]
    congr 1
    funext i
    congr 1
    funext j
    exact cell_eq _ _ hk i j

/-- A written grid is read back with its origin, cell size and no-data value, every value in its place and rounded as
printed. `x0, x1`, `y0, y1` are the first coordinates; missing (masked) values come back as the no-data value. -/
theorem C34_roundtrip (hr : 2 ≤ nr) (hc : 2 ≤ nc) (hxl : xs.length + 2 = nc) (hyl : ys.length + 2 = nr)
    (hx : x0 ≠ x1) (hy : y0 ≠ y1)
    (hcl : CleanHeader env x0 |x1 - x0| (x0 + ((nc : ℚ) - 1) * |x1 - x0|) y0 (y0 + ((nr : ℚ) - 1) * |y1 - y0|) noData cs)
    (hw : writeZmapGrid env file (x0 :: x1 :: xs) (y0 :: y1 :: ys) z noData cs = (.ok (), some t)) :
    ∃ (g : ZmapGrid) (w : Fin nr → Fin nc → Flt), readZmapGrid env t = .ok g ∧
      g.x = axis x0 |x1 - x0| nc ∧ g.y = axis y0 |y1 - y0| nr ∧ g.cellsize = (|x1 - x0|, |y1 - y0|) ∧
      g.noData = noData ∧ g.grid = List.ofFn (fun i => List.ofFn (w i)) ∧
      ∀ i j, ZmapValue noData ((z i j).getD noData) (w i j) := by
  obtain ⟨t', -, he, h⟩ := readZmap_take hr hc hxl hyl hx hy hcl hw (le_refl _)
  obtain rfl := he rfl
  refine ⟨_, fun i j => zmapFlt noData ((z i j).getD noData), h, rfl, rfl, rfl, rfl, ?_, fun i j => zmapFlt_value _ _⟩
  dsimp only
  congr 1
  funext i
  congr 1
  funext j
  rw [if_pos]
  have : j.val * nr + nr ≤ nr * nc := by
    calc j.val * nr + nr = nr * (j.val + 1) := by ring
      _ ≤ nr * nc := Nat.mul_le_mul_left _ j.isLt
  have := i.isLt
  omega

/-- The coordinate system comes back with a blank before it and without what follows its first colon: it is never the
one that was given. -/
theorem C34_coordSys_lost (hr : 2 ≤ nr) (hc : 2 ≤ nc) (hxl : xs.length + 2 = nc) (hyl : ys.length + 2 = nr)
    (hx : x0 ≠ x1) (hy : y0 ≠ y1)
    (hcl : CleanHeader env x0 |x1 - x0| (x0 + ((nc : ℚ) - 1) * |x1 - x0|) y0 (y0 + ((nr : ℚ) - 1) * |y1 - y0|) noData cs)
    (hw : writeZmapGrid env file (x0 :: x1 :: xs) (y0 :: y1 :: ys) z noData cs = (.ok (), some t)) :
    ∃ g : ZmapGrid, readZmapGrid env t = .ok g ∧ g.coordSys = ' ' :: cs.takeWhile (· ≠ ':') ∧ g.coordSys ≠ cs := by
  obtain ⟨t', -, he, h⟩ := readZmap_take hr hc hxl hyl hx hy hcl hw (le_refl _)
  obtain rfl := he rfl
  refine ⟨_, h, rfl, ?_⟩
  dsimp only
  intro e
  have h1 : ∀ c ∈ cs, (decide (c ≠ ':')) = true := by
    rw [← e]
    intro c hc'
    rcases List.mem_cons.1 hc' with rfl | hc'
    · decide
    · exact List.all_eq_true.1 List.all_takeWhile c hc'
  have h2 : cs.takeWhile (fun c => decide (c ≠ ':')) = cs := by
    clear e h he hw hcl
    induction cs with
    | nil => rfl
    | cons c cs ih =>
      rw [List.takeWhile_cons_of_pos (p := fun c => decide (c ≠ ':')) (h1 c (by simp)), ih fun c hc' => h1 c (by simp [hc'])]
  rw [h2] at e
  have := congrArg List.length e
  simp at this

/-- A file that ends early is accepted: for any number `k` of fields, a beginning of the file with just those is read
without complaint, and the cells of the others hold whatever the memory held before. -/
theorem C34_truncated_accepted (hr : 2 ≤ nr) (hc : 2 ≤ nc) (hxl : xs.length + 2 = nc) (hyl : ys.length + 2 = nr)
    (hx : x0 ≠ x1) (hy : y0 ≠ y1)
    (hcl : CleanHeader env x0 |x1 - x0| (x0 + ((nc : ℚ) - 1) * |x1 - x0|) y0 (y0 + ((nr : ℚ) - 1) * |y1 - y0|) noData cs)
    (hw : writeZmapGrid env file (x0 :: x1 :: xs) (y0 :: y1 :: ys) z noData cs = (.ok (), some t)) {k : ℕ}
    (hk : k < nr * nc) :
    ∃ t', t' <+: t ∧ ∃ (g : ZmapGrid) (w : Fin nr → Fin nc → Flt), readZmapGrid env t' = .ok g ∧
      g.x = axis x0 |x1 - x0| nc ∧ g.y = axis y0 |y1 - y0| nr ∧ g.grid = List.ofFn (fun i => List.ofFn (w i)) ∧
      ∀ i j, (j.val * nr + (nr - 1 - i.val) < k → ZmapValue noData ((z i j).getD noData) (w i j)) ∧
        (k ≤ j.val * nr + (nr - 1 - i.val) → w i j = env.fresh (j.val * nr + (nr - 1 - i.val))) := by
  obtain ⟨t', hp, -, h⟩ := readZmap_take hr hc hxl hyl hx hy hcl hw hk.le
  refine ⟨t', hp, _, fun i j => if j.val * nr + (nr - 1 - i.val) < k then zmapFlt noData ((z i j).getD noData)
    else env.fresh (j.val * nr + (nr - 1 - i.val)), h, rfl, rfl, rfl, fun i j => ⟨fun h => ?_, fun h => ?_⟩⟩
  · dsimp only
    rw [if_pos h]
    exact zmapFlt_value _ _
  · dsimp only
    rw [if_neg (by omega)]

/-- Coordinates that are refused leave the file as it was. -/
theorem C34_refused_keeps_file {x y : List ℚ} {e : PyErr} {f : Option Text} (hr : nr ≠ 1) (hc : nc ≠ 1)
    (hw : writeZmapGrid env file x y z noData cs = (.error e, f)) : f = file := by
  unfold writeZmapGrid at hw
  dsimp only at hw
  split at hw
  · exact (Prod.ext_iff.1 hw).2.symm
  · rw [if_neg (by tauto)] at hw
    cases (Prod.ext_iff.1 hw).1

/-- Regularly spaced coordinates are accepted. -/
theorem C34_accepts (hr : 2 ≤ nr) (hc : 2 ≤ nc) (a d b e : ℚ) :
    ∃ t, writeZmapGrid env file (axis a d nc) (axis b e nr) z noData cs = (.ok (), some t) := by
  obtain ⟨m, rfl⟩ : ∃ m, nr = m + 2 := ⟨nr - 2, by omega⟩
  obtain ⟨n, rfl⟩ : ∃ n, nc = n + 2 := ⟨nc - 2, by omega⟩
  obtain ⟨lx, hx⟩ := axis_two a d n
  obtain ⟨ly, hy⟩ := axis_two b e m
  have g1 := evenly_axis a d n
  have g2 := evenly_axis b e m
  rw [hx] at g1 ⊢
  rw [hy] at g2 ⊢
  have e1 : a + d - a = d := by ring
  have e2 : b + e - b = e := by ring
  rw [writeZmap_two, e1, e2, if_pos ⟨g1, g2⟩]
  dsimp only
  rw [if_neg (by omega)]
  exact ⟨_, rfl⟩

/-- A single row or column of values is refused too late: with coordinates of two or more regular nodes the file has
already been replaced by a bare header. -/
theorem C34_single_overwrites {n m : ℕ} (h : nr = 1 ∨ nc = 1) (a d b e : ℚ) :
    ∃ t, writeZmapGrid env file (axis a d (n + 2)) (axis b e (m + 2)) z noData cs = (.error .indexError, some t) := by
  obtain ⟨lx, hx⟩ := axis_two a d n
  obtain ⟨ly, hy⟩ := axis_two b e m
  have g1 := evenly_axis a d n
  have g2 := evenly_axis b e m
  rw [hx] at g1 ⊢
  rw [hy] at g2 ⊢
  have e1 : a + d - a = d := by ring
  have e2 : b + e - b = e := by ring
  rw [writeZmap_two, e1, e2, if_pos ⟨g1, g2⟩]
  dsimp only
  rw [if_pos h]
  exact ⟨_, rfl⟩

/-- Two values never run together: in the body of the file, each field begins with a blank and holds one word. -/
theorem C34_fields_apart (noData : Flt) (g : Fin nr → Fin nc → Flt) :
    (readLines (zmapBody noData g)).flatMap pySplit =
      (List.finRange nc).flatMap fun n => (List.finRange nr).map fun k => zmapWord noData (g k.rev n) := by
  rw [zmapBody_eq, (readLines_fields _ _).1]
  unfold zmapFields
  rw [List.map_flatMap]
  congr 1
  funext n
  rw [List.map_map]
  rfl

end

/-- A value below a million with four decimals. -/
def Spec.FourDecimals : Flt → Prop
  | .num q => |q| < 10 ^ 6 ∧ ∃ m : ℤ, q = m / 10 ^ 4
  | .inf _ => True
  | .nan => False

theorem FourDecimals.unique {noData v w : Flt} (h : FourDecimals v) (h' : ZmapValue noData v w) : w = v := by
  cases h' with
  | nan _ => exact h.elim
  | inf b => rfl
  | large h1 _ => exact absurd h1 (not_le.2 h.1)
  | small _ h2 =>
    obtain ⟨-, m, rfl⟩ := h
    refine congrArg _ (h2.unique ⟨by norm_num, m, rfl, fun h => ?_⟩)
    norm_num at h

/-- A grid on increasing coordinates whose values have four decimals comes back exactly: values in their places,
coordinates, cell size and no-data value. -/
theorem C34_exact {nr nc : ℕ} {env : ZEnv} {file : Option Text} {z : Fin nr → Fin nc → Option Flt} {noData : Flt} {cs t : Text}
    {a d b e : ℚ} (hr : 2 ≤ nr) (hc : 2 ≤ nc)
    (hw : writeZmapGrid env file (axis a d nc) (axis b e nr) z noData cs = (.ok (), some t)) (hd : 0 < d) (he : 0 < e)
    (hcl : CleanHeader env a d (a + ((nc : ℚ) - 1) * d) b (b + ((nr : ℚ) - 1) * e) noData cs)
    (hz : ∀ i j, FourDecimals ((z i j).getD noData)) :
    ∃ g : ZmapGrid, readZmapGrid env t = .ok g ∧ g.grid = List.ofFn (fun i => List.ofFn fun j => (z i j).getD noData) ∧
      g.x = axis a d nc ∧ g.y = axis b e nr ∧ g.cellsize = (d, e) ∧ g.noData = noData := by
  obtain ⟨m, rfl⟩ : ∃ m, nr = m + 2 := ⟨nr - 2, by omega⟩
  obtain ⟨n, rfl⟩ : ∃ n, nc = n + 2 := ⟨nc - 2, by omega⟩
  obtain ⟨lx, hx⟩ := axis_two a d n
  obtain ⟨ly, hy⟩ := axis_two b e m
  have ed : |a + d - a| = d := by rw [show a + d - a = d by ring, abs_of_pos hd]
  have ee : |b + e - b| = e := by rw [show b + e - b = e by ring, abs_of_pos he]
  have lx' := congrArg List.length hx
  have ly' := congrArg List.length hy
  simp only [axis, List.length_map, List.length_range, List.length_cons] at lx' ly'
  rw [hx, hy] at hw
  obtain ⟨g, w, h1, h2, h3, h4, h5, h6, h7⟩ := C34_roundtrip hr hc (by omega) (by omega) (by linarith) (by linarith)
    (by rw [ed, ee]; exact hcl) hw
  rw [ed] at h2
  rw [ee] at h3
  rw [ed, ee] at h4
  refine ⟨g, h1, ?_, h2, h3, h4, h5⟩
  rw [h6]
  congr 1
  funext i
  congr 1
  funext j
  exact FourDecimals.unique (hz i j) (h7 i j)

/-! ### A concrete file -/

namespace Demo

/-- Numbers printed with one decimal, as `str` prints those below. -/
def zenv : ZEnv where
  str := fmtFixed 1
  basename := "out.zmap".toList
  date := "18/11/2026".toList
  time := "06:30:00".toList
  fresh := fun _ => .num 77

def bits (w : Text) (q : ℚ) : Bool :=
  decide (w ≠ []) && w.all (fun c => !c.isWhitespace) && !w.contains ',' && decide (parseFloat w = some (.num q))

theorem prints_of {str : ℚ → Text} {q : ℚ} (h : bits (str q) q = true) : Prints str q := by
  unfold bits at h
  simp only [Bool.and_eq_true, decide_eq_true_eq] at h
  obtain ⟨⟨⟨h1, h2⟩, h3⟩, h4⟩ := h
  refine ⟨⟨h1, fun c hc => by simpa using List.all_eq_true.1 h2 c hc⟩, ?_, h4⟩
  simpa using h3

theorem clean : CleanHeader zenv 10 (1 / 2) (10 + (((3 : ℕ) : ℚ) - 1) * (1 / 2)) 0 (0 + (((2 : ℕ) : ℚ) - 1) * (1 / 2))
    (.num (-999)) "EPSG:4326".toList where
  x0 := prints_of (by decide +kernel)
  dx := prints_of (by decide +kernel)
  hix := prints_of (by decide +kernel)
  y0 := prints_of (by decide +kernel)
  hiy := prints_of (by decide +kernel)
  noData := prints_of (by decide +kernel)
  basename := by decide
  date := by decide
  time := by decide
  coordSys := by decide

theorem zmap_written : ∃ t, writeZmapGrid zenv none [10, 21 / 2, 11] [0, 1 / 2] grid23 (.num (-999)) "EPSG:4326".toList =
    (.ok (), some t) := by
  obtain ⟨t, ht⟩ := C34_accepts (env := zenv) (file := none) (z := grid23) (noData := .num (-999)) (cs := "EPSG:4326".toList)
    (by norm_num) (by norm_num) 10 (1 / 2) 0 (1 / 2)
  have ex : axis 10 (1 / 2) 3 = [10, 21 / 2, 11] := by simp [axis, List.range_succ]; norm_num
  have ey : axis 0 (1 / 2) 2 = [0, 1 / 2] := by simp [axis, List.range_succ]
  rw [ex, ey] at ht
  exact ⟨t, ht⟩

theorem clean' : CleanHeader zenv 10 |21 / 2 - 10| (10 + (((3 : ℕ) : ℚ) - 1) * |21 / 2 - 10|) 0
    (0 + (((2 : ℕ) : ℚ) - 1) * |1 / 2 - 0|) (.num (-999)) "EPSG:4326".toList := by
  have e1 : |(21 / 2 - 10 : ℚ)| = 1 / 2 := by rw [abs_of_pos] <;> norm_num
  have e2 : |(1 / 2 - 0 : ℚ)| = 1 / 2 := by rw [abs_of_pos] <;> norm_num
  rw [e1, e2]
  exact clean

/-- Written and read. -/
example : ∃ t g, writeZmapGrid zenv none [10, 21 / 2, 11] [0, 1 / 2] grid23 (.num (-999)) "EPSG:4326".toList =
    (.ok (), some t) ∧ readZmapGrid zenv t = .ok g := by
  obtain ⟨t, ht⟩ := zmap_written
  obtain ⟨g, -, h, -⟩ := C34_roundtrip (by norm_num) (by norm_num) rfl rfl (by norm_num) (by norm_num) clean' ht
  exact ⟨t, g, ht, h⟩

/-- The coordinate system "EPSG:4326" comes back as " EPSG". -/
example : ∃ t g, writeZmapGrid zenv none [10, 21 / 2, 11] [0, 1 / 2] grid23 (.num (-999)) "EPSG:4326".toList =
    (.ok (), some t) ∧ readZmapGrid zenv t = .ok g ∧ g.coordSys = " EPSG".toList := by
  obtain ⟨t, ht⟩ := zmap_written
  obtain ⟨g, h, h', -⟩ := C34_coordSys_lost (by norm_num) (by norm_num) rfl rfl (by norm_num) (by norm_num) clean' ht
  exact ⟨t, g, ht, h, by rw [h']; decide⟩

/-- Only four of six fields: the file is accepted, the last column is whatever memory held. -/
example : ∃ t t' g, writeZmapGrid zenv none [10, 21 / 2, 11] [0, 1 / 2] grid23 (.num (-999)) "EPSG:4326".toList =
    (.ok (), some t) ∧ t' <+: t ∧ readZmapGrid zenv t' = .ok g ∧ (g.grid[0]?.bind (·[2]?)) = some (.num 77) := by
  obtain ⟨t, ht⟩ := zmap_written
  obtain ⟨t', hp, g, w, h, -, -, hg, hw⟩ := C34_truncated_accepted (k := 4) (by norm_num) (by norm_num) rfl rfl
    (by norm_num) (by norm_num) clean' ht (by norm_num)
  refine ⟨t, t', g, ht, hp, h, ?_⟩
  rw [hg]
  simpa [zenv] using (hw 0 2).2 (by norm_num)

/-- Four decimals. -/
example : ∃ t g, writeZmapGrid zenv none (axis 10 (1 / 2) 3) (axis 0 (1 / 2) 2) (fun (_ : Fin 2) (_ : Fin 3) => some (.num (7 / 10000)))
    (.num (-999)) "EPSG:4326".toList = (.ok (), some t) ∧ readZmapGrid zenv t = .ok g ∧
      g.grid = List.replicate 2 (List.replicate 3 (.num (7 / 10000))) := by
  obtain ⟨t, ht⟩ := C34_accepts (env := zenv) (file := none) (z := fun (_ : Fin 2) (_ : Fin 3) => some (.num (7 / 10000)))
    (noData := .num (-999)) (cs := "EPSG:4326".toList) (by norm_num) (by norm_num) 10 (1 / 2) 0 (1 / 2)
  obtain ⟨g, h1, h2, -⟩ := C34_exact (by norm_num) (by norm_num) ht (by norm_num) (by norm_num) clean
    (fun _ _ => ⟨by norm_num [abs_of_pos], 7, by norm_num⟩)
  exact ⟨t, g, ht, h1, h2⟩

end Demo

end PyKrige
