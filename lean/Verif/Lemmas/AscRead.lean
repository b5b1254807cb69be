import Verif.Lemmas.Asc

/-! `readAscGrid` on the output of `writeAscGrid`. -/

namespace PyKrige
open Spec

/-- A line that the reader understands as `key value`. -/
theorem readAscHeader_line {h h' : AscHeader} {l key value : Text} (hs : pySplit l = [key, value])
    (hset : h.set key value = .ok h') (ls : List Text) :
    readAscHeader h (l :: ls) = if h'.complete = true then .ok (h', ls) else readAscHeader h' ls := by
  rw [readAscHeader, hs]
  dsimp only
  rw [hset]
  rfl

theorem split_headerLine {key : String} {value : Text} (hk : Word key.toList) (hl : key.toList.length < 15)
    (hv : Word value) : pySplit (padRight 15 key.toList ++ padRight 10 value) = [key.toList, value] := by
  rw [pySplit_padRight hk hl, pySplit_padRight_end hv]

theorem readLines_headerLine {key : String} {value : Text} (hk : Word key.toList) (hv : Word value) (t : Text) :
    readLines (headerLine key value ++ t) = (padRight 15 key.toList ++ padRight 10 value) :: readLines t := by
  unfold headerLine
  rw [List.append_assoc, List.singleton_append, readLines_line]
  intro h
  rcases List.mem_append.1 h with h | h
  · exact newline_not_padRight hk _ h
  · exact newline_not_padRight hv _ h

theorem pyCoord_fixed (q : ℚ) : pyCoord (fmtFixed 2 q) = .ok (fixedOf 2 q) := by
  unfold pyCoord
  rw [parse_fmtFixed]

theorem pyFloat_fixed (v : Flt) : pyFloat (fltFixed 2 v) = .ok (fltOf 2 v) := by
  unfold pyFloat
  rw [parse_fltFixed]

theorem pyInt_nat (n : ℕ) : pyInt (natText n) = .ok (n : ℤ) := by
  unfold pyInt
  rw [parseInt_natText]

theorem wordOf {k : String} (h1 : k.toList ≠ []) (h2 : (k.toList.all fun c => !c.isWhitespace) = true) : Word k.toList :=
  ⟨h1, fun c hc => by simpa using List.all_eq_true.1 h2 c hc⟩

theorem readLines_header1 (m : AscMeta) (t : Text) : readLines (ascHeader1 m ++ t) =
    [padRight 15 "NCOLS".toList ++ padRight 10 (natText m.ncols), padRight 15 "NROWS".toList ++ padRight 10 (natText m.nrows),
     padRight 15 "XLLCENTER".toList ++ padRight 10 (fmtFixed 2 m.xll),
     padRight 15 "YLLCENTER".toList ++ padRight 10 (fmtFixed 2 m.yll),
     padRight 15 "DX".toList ++ padRight 10 (fmtFixed 2 m.dx), padRight 15 "DY".toList ++ padRight 10 (fmtFixed 2 m.dy),
     padRight 15 "NODATA_VALUE".toList ++ padRight 10 (fltFixed 2 m.noData)] ++ readLines t := by
  unfold ascHeader1
  simp only [List.append_assoc]
  rw [readLines_headerLine (wordOf (by decide) (by decide)) (natText_word _),
    readLines_headerLine (wordOf (by decide) (by decide)) (natText_word _),
    readLines_headerLine (wordOf (by decide) (by decide)) (fmtFixed_word _ _),
    readLines_headerLine (wordOf (by decide) (by decide)) (fmtFixed_word _ _),
    readLines_headerLine (wordOf (by decide) (by decide)) (fmtFixed_word _ _),
    readLines_headerLine (wordOf (by decide) (by decide)) (fmtFixed_word _ _),
    readLines_headerLine (wordOf (by decide) (by decide)) (fltFixed_word _ _)]
  rfl

theorem readLines_header2 (m : AscMeta) (t : Text) : readLines (ascHeader2 m ++ t) =
    [padRight 15 "NCOLS".toList ++ padRight 10 (natText m.ncols), padRight 15 "NROWS".toList ++ padRight 10 (natText m.nrows),
     padRight 15 "XLLCORNER".toList ++ padRight 10 (fmtFixed 2 m.xll),
     padRight 15 "YLLCORNER".toList ++ padRight 10 (fmtFixed 2 m.yll),
     padRight 15 "CELLSIZE".toList ++ padRight 10 (fmtFixed 2 m.dx),
     padRight 15 "NODATA_VALUE".toList ++ padRight 10 (fltFixed 2 m.noData)] ++ readLines t := by
  unfold ascHeader2
  simp only [List.append_assoc]
  rw [readLines_headerLine (wordOf (by decide) (by decide)) (natText_word _),
    readLines_headerLine (wordOf (by decide) (by decide)) (natText_word _),
    readLines_headerLine (wordOf (by decide) (by decide)) (fmtFixed_word _ _),
    readLines_headerLine (wordOf (by decide) (by decide)) (fmtFixed_word _ _),
    readLines_headerLine (wordOf (by decide) (by decide)) (fmtFixed_word _ _),
    readLines_headerLine (wordOf (by decide) (by decide)) (fltFixed_word _ _)]
  rfl

/-- The header read back, style 1. -/
def header1 (m : AscMeta) : AscHeader where
  ncols := some m.ncols
  nrows := some m.nrows
  xllcenter := some (fixedOf 2 m.xll)
  yllcenter := some (fixedOf 2 m.yll)
  dx := some (fixedOf 2 m.dx)
  dy := some (fixedOf 2 m.dy)
  noData := some (fltOf 2 m.noData)

/-- The header read back, style 2. -/
def header2 (m : AscMeta) : AscHeader where
  ncols := some m.ncols
  nrows := some m.nrows
  xllcorner := some (fixedOf 2 m.xll)
  yllcorner := some (fixedOf 2 m.yll)
  cellsize := some (fixedOf 2 m.dx)
  noData := some (fltOf 2 m.noData)

theorem readAscHeader_1 (m : AscMeta) (t : Text) :
    readAscHeader {} (readLines (ascHeader1 m ++ t)) = .ok (header1 m, readLines t) := by
  rw [readLines_header1]
  simp only [List.cons_append, List.nil_append]
  rw [readAscHeader_line (split_headerLine (wordOf (by decide) (by decide)) (by decide) (natText_word _))
      (h' := { ncols := some m.ncols })
      (by unfold AscHeader.set; rw [if_pos (by decide), pyInt_nat]; rfl), if_neg (by simp [AscHeader.complete]),
    readAscHeader_line (split_headerLine (wordOf (by decide) (by decide)) (by decide) (natText_word _))
      (h' := { ncols := some m.ncols, nrows := some m.nrows })
      (by unfold AscHeader.set; rw [if_neg (by decide), if_pos (by decide), pyInt_nat]; rfl), if_neg (by simp [AscHeader.complete]),
    readAscHeader_line (split_headerLine (wordOf (by decide) (by decide)) (by decide) (fmtFixed_word _ _))
      (h' := { ncols := some m.ncols, nrows := some m.nrows, xllcenter := some (fixedOf 2 m.xll) })
      (by
        unfold AscHeader.set
        rw [if_neg (by decide), if_neg (by decide), if_neg (by decide), if_pos (by decide), pyCoord_fixed]
        rfl), if_neg (by simp [AscHeader.complete]),
    readAscHeader_line (split_headerLine (wordOf (by decide) (by decide)) (by decide) (fmtFixed_word _ _))
      (h' := { ncols := some m.ncols, nrows := some m.nrows, xllcenter := some (fixedOf 2 m.xll)
               yllcenter := some (fixedOf 2 m.yll) })
      (by
        unfold AscHeader.set
        rw [if_neg (by decide), if_neg (by decide), if_neg (by decide), if_neg (by decide), if_neg (by decide),
          if_pos (by decide), pyCoord_fixed]
        rfl), if_neg (by simp [AscHeader.complete]),
    readAscHeader_line (split_headerLine (wordOf (by decide) (by decide)) (by decide) (fmtFixed_word _ _))
      (h' := { ncols := some m.ncols, nrows := some m.nrows, xllcenter := some (fixedOf 2 m.xll)
               yllcenter := some (fixedOf 2 m.yll), dx := some (fixedOf 2 m.dx) })
      (by
        unfold AscHeader.set
        rw [if_neg (by decide), if_neg (by decide), if_neg (by decide), if_neg (by decide), if_neg (by decide),
          if_neg (by decide), if_neg (by decide), if_neg (by decide), if_pos (by decide), pyCoord_fixed]
        rfl), if_neg (by simp [AscHeader.complete]),
    readAscHeader_line (split_headerLine (wordOf (by decide) (by decide)) (by decide) (fmtFixed_word _ _))
      (h' := { ncols := some m.ncols, nrows := some m.nrows, xllcenter := some (fixedOf 2 m.xll)
               yllcenter := some (fixedOf 2 m.yll), dx := some (fixedOf 2 m.dx), dy := some (fixedOf 2 m.dy) })
      (by
        unfold AscHeader.set
        rw [if_neg (by decide), if_neg (by decide), if_neg (by decide), if_neg (by decide), if_neg (by decide),
          if_neg (by decide), if_neg (by decide), if_neg (by decide), if_neg (by decide), if_pos (by decide),
          pyCoord_fixed]
        rfl), if_neg (by simp [AscHeader.complete]),
    readAscHeader_line (split_headerLine (wordOf (by decide) (by decide)) (by decide) (fltFixed_word _ _))
      (h' := header1 m)
      (by
        unfold AscHeader.set
        rw [if_neg (by decide), if_neg (by decide), if_neg (by decide), if_neg (by decide), if_neg (by decide),
          if_neg (by decide), if_neg (by decide), if_neg (by decide), if_neg (by decide), if_neg (by decide),
          if_pos (by decide), pyFloat_fixed]
        rfl), if_pos (by simp [AscHeader.complete, header1])]

theorem readAscHeader_2 (m : AscMeta) (t : Text) :
    readAscHeader {} (readLines (ascHeader2 m ++ t)) = .ok (header2 m, readLines t) := by
  rw [readLines_header2]
  simp only [List.cons_append, List.nil_append]
  rw [readAscHeader_line (split_headerLine (wordOf (by decide) (by decide)) (by decide) (natText_word _))
      (h' := { ncols := some m.ncols })
      (by unfold AscHeader.set; rw [if_pos (by decide), pyInt_nat]; rfl), if_neg (by simp [AscHeader.complete]),
    readAscHeader_line (split_headerLine (wordOf (by decide) (by decide)) (by decide) (natText_word _))
      (h' := { ncols := some m.ncols, nrows := some m.nrows })
      (by unfold AscHeader.set; rw [if_neg (by decide), if_pos (by decide), pyInt_nat]; rfl), if_neg (by simp [AscHeader.complete]),
    readAscHeader_line (split_headerLine (wordOf (by decide) (by decide)) (by decide) (fmtFixed_word _ _))
      (h' := { ncols := some m.ncols, nrows := some m.nrows, xllcorner := some (fixedOf 2 m.xll) })
      (by
        unfold AscHeader.set
        rw [if_neg (by decide), if_neg (by decide), if_pos (by decide), pyCoord_fixed]
        rfl), if_neg (by simp [AscHeader.complete]),
    readAscHeader_line (split_headerLine (wordOf (by decide) (by decide)) (by decide) (fmtFixed_word _ _))
      (h' := { ncols := some m.ncols, nrows := some m.nrows, xllcorner := some (fixedOf 2 m.xll)
               yllcorner := some (fixedOf 2 m.yll) })
      (by
        unfold AscHeader.set
        rw [if_neg (by decide), if_neg (by decide), if_neg (by decide), if_neg (by decide), if_pos (by decide),
          pyCoord_fixed]
        rfl), if_neg (by simp [AscHeader.complete]),
    readAscHeader_line (split_headerLine (wordOf (by decide) (by decide)) (by decide) (fmtFixed_word _ _))
      (h' := { ncols := some m.ncols, nrows := some m.nrows, xllcorner := some (fixedOf 2 m.xll)
               yllcorner := some (fixedOf 2 m.yll), cellsize := some (fixedOf 2 m.dx) })
      (by
        unfold AscHeader.set
        rw [if_neg (by decide), if_neg (by decide), if_neg (by decide), if_neg (by decide), if_neg (by decide),
          if_neg (by decide), if_pos (by decide), pyCoord_fixed]
        rfl), if_neg (by simp [AscHeader.complete]),
    readAscHeader_line (split_headerLine (wordOf (by decide) (by decide)) (by decide) (fltFixed_word _ _))
      (h' := header2 m)
      (by
        unfold AscHeader.set
        rw [if_neg (by decide), if_neg (by decide), if_neg (by decide), if_neg (by decide), if_neg (by decide),
          if_neg (by decide), if_neg (by decide), if_neg (by decide), if_neg (by decide), if_neg (by decide),
          if_pos (by decide), pyFloat_fixed]
        rfl), if_pos (by simp [AscHeader.complete, header2])]

/-! ### Coordinates -/

theorem arange_axis {a d : ℚ} (hd : d ≠ 0) (n : ℕ) : arange a (a + (n : ℤ) * d) d = .ok (axis a d n) := by
  unfold arange axis
  rw [if_neg hd]
  have : (a + ((n : ℤ) : ℚ) * d - a) / d = ((n : ℤ) : ℚ) := by field_simp; ring
  rw [this, Int.ceil_intCast, Int.toNat_natCast]

theorem trim_axis (a d : ℚ) (n : ℕ) : trim (axis a d n) n = axis a d n := by
  unfold trim
  rw [if_neg]
  simp [axis]

theorem coordinates_1 (m : AscMeta) (hx : fixedOf 2 m.dx ≠ 0) (hy : fixedOf 2 m.dy ≠ 0) :
    ascCoordinates (header1 m) m.ncols m.nrows =
      .ok (axis (fixedOf 2 m.xll) (fixedOf 2 m.dx) m.ncols, axis (fixedOf 2 m.yll) (fixedOf 2 m.dy) m.nrows,
        .pair (fixedOf 2 m.dx) (fixedOf 2 m.dy)) := by
  unfold ascCoordinates header1
  dsimp only
  rw [arange_axis hx, arange_axis hy]
  simp only [py_ok_bind, py_pure, trim_axis]

theorem coordinates_1_zero (m : AscMeta) (h : fixedOf 2 m.dx = 0 ∨ fixedOf 2 m.dy = 0) :
    ascCoordinates (header1 m) m.ncols m.nrows = .error .zeroDivisionError := by
  unfold ascCoordinates header1
  dsimp only
  by_cases hx : fixedOf 2 m.dx = 0
  · unfold arange
    rw [if_pos hx]
    rfl
  · rw [arange_axis hx, py_ok_bind]
    unfold arange
    rw [if_pos (h.resolve_left hx)]
    rfl

theorem coordinates_2 (m : AscMeta) (hx : fixedOf 2 m.dx ≠ 0) :
    ascCoordinates (header2 m) m.ncols m.nrows =
      .ok (axis (fixedOf 2 m.xll + fixedOf 2 m.dx / 2) (fixedOf 2 m.dx) m.ncols,
        axis (fixedOf 2 m.yll + fixedOf 2 m.dx / 2) (fixedOf 2 m.dx) m.nrows, .both (fixedOf 2 m.dx)) := by
  unfold ascCoordinates header2
  dsimp only
  rw [Option.map_some]
  dsimp only
  rw [arange_axis hx, arange_axis hx]
  simp only [py_ok_bind, py_pure, trim_axis]

theorem coordinates_2_zero (m : AscMeta) (hx : fixedOf 2 m.dx = 0) :
    ascCoordinates (header2 m) m.ncols m.nrows = .error .zeroDivisionError := by
  unfold ascCoordinates header2
  dsimp only
  rw [Option.map_some]
  dsimp only
  unfold arange
  rw [if_pos hx]
  rfl

/-! ### The body -/

theorem genfromtxt_ascBody {nr nc : ℕ} (hr : nr ≠ 0) (hc : nc ≠ 0) {z : Fin nr → Fin nc → Flt}
    (h : ∀ i (j : Fin nc), j.val + 1 < nc → FitsAsc (z i j)) :
    genfromtxt (readLines (ascBody z)) = .ok (List.ofFn fun i => List.ofFn fun j => fltOf 2 (z i j)).reverse := by
  rw [readLines_ascBody hr hc, genfromtxt_rows (n := nc) hc]
  · rw [List.map_reverse, List.map_ofFn]
    congr 3
    funext i
    exact genRow_ascRow (h i)
  · intro e
    have := congrArg List.length e
    simp only [List.length_reverse, List.length_ofFn, List.length_nil] at this
    exact hr this
  · intro l hl
    rw [List.mem_reverse] at hl
    obtain ⟨i, rfl⟩ := List.mem_ofFn.1 hl
    rw [genRow_ascRow (h i), List.length_ofFn]

theorem checkShape_full {rows : List (List Flt)} {nr nc : ℕ} (hr : 2 ≤ nr) (hc : 2 ≤ nc) (h1 : rows.length = nr)
    (h2 : ∀ r ∈ rows, r.length = nc) : checkShape rows nr nc = .ok () := by
  match rows, h1, h2 with
  | [], h1, _ => simp at h1; omega
  | [_], h1, _ => simp at h1; omega
  | r :: s :: rows, h1, h2 =>
    have e := h2 r (by simp)
    unfold checkShape
    dsimp only
    rw [if_neg (by omega), if_neg]
    rw [h1, e]
    simp

/-! ### Writing -/

/-- The values of the header for coordinates that start with `x0, x1` and `y0, y1`. -/
def metaOf (nr nc : ℕ) (x0 x1 y0 y1 : ℚ) (noData : Flt) (style : ℤ) : AscMeta where
  ncols := nc
  nrows := nr
  dx := |x1 - x0|
  dy := |y1 - y0|
  noData := noData
  xll := if style = 2 then x0 - |x1 - x0| / 2 else x0
  yll := if style = 2 then y0 - |y1 - y0| / 2 else y0

theorem coordAt_zero (a b : ℚ) (l : List ℚ) : coordAt (a :: b :: l) 0 = .ok a := by
  unfold coordAt
  rw [if_neg (by simp)]
  rfl

theorem coordAt_one (a b : ℚ) (l : List ℚ) : coordAt (a :: b :: l) 1 = .ok b := by
  unfold coordAt
  rw [if_neg (by simp)]
  rfl

theorem firstStep_two (a b : ℚ) (l : List ℚ) : firstStep (a :: b :: l) = .ok |b - a| := by
  unfold firstStep
  rw [coordAt_one, coordAt_zero]
  rfl

theorem firstStep_err {v : List ℚ} (h : v.length < 2) : firstStep v = .error .indexError := by
  match v, h with
  | [], _ => rfl
  | [a], _ => rfl

theorem ascOrder_two (x0 x1 y0 y1 : ℚ) (xs ys : List ℚ) : ascOrder (x0 :: x1 :: xs) (y0 :: y1 :: ys) = .ok () := by
  unfold ascOrder
  rw [if_neg (by simp), coordAt_zero, coordAt_zero, if_neg (by simp)]
  simp only [py_pure, py_ok_bind]
  split <;> rfl

/-- What `write_asc_grid` does with at least two coordinates in each direction. -/
theorem writeAsc_two {nr nc : ℕ} (file : Option Text) (x0 x1 y0 y1 : ℚ) (xs ys : List ℚ)
    (z : Fin nr → Fin nc → Option Flt) (noData : Flt) (style : ℤ) (hr : nr ≠ 1) (hc : nc ≠ 1) :
    writeAscGrid file (x0 :: x1 :: xs) (y0 :: y1 :: ys) z noData style =
      if evenly (x0 :: x1 :: xs) |x1 - x0| = true ∧ evenly (y0 :: y1 :: ys) |y1 - y0| = true ∧
          ¬ (style = 2 ∧ |x1 - x0| ≠ |y1 - y0|) then
        if style = 1 then (.ok (), some (ascHeader1 (metaOf nr nc x0 x1 y0 y1 noData style) ++ ascBody (fillMasked z noData)))
        else if style = 2 then
          (.ok (), some (ascHeader2 (metaOf nr nc x0 x1 y0 y1 noData style) ++ ascBody (fillMasked z noData)))
        else (.error .valueError, some [])
      else (.error .valueError, file) := by
  unfold writeAscGrid
  rw [if_neg (by simp [hr, hc]), ascOrder_two, firstStep_two, firstStep_two, coordAt_zero, coordAt_zero]
  simp only [py_pure, py_ok_bind]
  by_cases h1 : evenly (x0 :: x1 :: xs) |x1 - x0| = true ∧ evenly (y0 :: y1 :: ys) |y1 - y0| = true
  · rw [if_neg (not_not.2 h1)]
    by_cases h2 : style = 2 ∧ |x1 - x0| ≠ |y1 - y0|
    · have h3 : ¬ (evenly (x0 :: x1 :: xs) |x1 - x0| = true ∧ evenly (y0 :: y1 :: ys) |y1 - y0| = true ∧
          ¬ (style = 2 ∧ |x1 - x0| ≠ |y1 - y0|)) := fun h => h.2.2 h2
      rw [if_pos h2, if_neg h3]
      rfl
    · have h3 : evenly (x0 :: x1 :: xs) |x1 - x0| = true ∧ evenly (y0 :: y1 :: ys) |y1 - y0| = true ∧
          ¬ (style = 2 ∧ |x1 - x0| ≠ |y1 - y0|) := ⟨h1.1, h1.2, h2⟩
      rw [if_neg h2, if_pos h3]
      rfl
  · have h3 : ¬ (evenly (x0 :: x1 :: xs) |x1 - x0| = true ∧ evenly (y0 :: y1 :: ys) |y1 - y0| = true ∧
          ¬ (style = 2 ∧ |x1 - x0| ≠ |y1 - y0|)) := fun h => h1 ⟨h.1, h.2.1⟩
    rw [if_pos h1, if_neg h3]
    rfl

end PyKrige
