import Verif.Py
import Verif.Model.Text

/-!
`src/pykrige/kriging_tools.py`: reading and writing ASC and ZMAP grids.

Files are `Text`; a writer gets the previous contents of the file (`none`: no file) and returns them changed, together
with the outcome of the call, because it may raise after the file was opened for writing. Warnings are not modelled.
-/

namespace PyKrige

/-- `np.isclose(a, b)` with the default tolerances. -/
def isclose (a b : ℚ) : Bool := decide (|a - b| ≤ 1 / 10 ^ 8 + 1 / 10 ^ 5 * |b|)

/-- kriging_tools.py:47-48, 280-281, `np.array(z.tolist(no_data))`: masked entries (`none`) become `no_data`. -/
def fillMasked {nr nc : ℕ} (z : Fin nr → Fin nc → Option Flt) (noData : Flt) (i : Fin nr) (j : Fin nc) : Flt :=
  (z i j).getD noData

/-- `v[i]` for a coordinate array: `np.squeeze` leaves a single coordinate without dimension, so that even `v[0]` is an
`IndexError`. -/
def coordAt (v : List ℚ) (i : ℕ) : Py ℚ := if v.length = 1 then .error .indexError else pyGet v i

/-- kriging_tools.py:76-77, 289-290: `abs(v[1] - v[0])`. -/
def firstStep (v : List ℚ) : Py ℚ := do
  let b ← coordAt v 1
  let a ← coordAt v 0
  return |b - a|

/-- kriging_tools.py:78-80, 292-294: the first step is close to the mean step. -/
def evenly (v : List ℚ) (d : ℚ) : Bool := isclose |(v.getLastD 0 - v.headD 0) / (v.length - 1)| d

/-! ### ASC -/

/-- One header line: keyword padded to 15 characters, value left-aligned in 10 characters (kriging_tools.py:106-119). -/
def headerLine (key : String) (value : Text) : Text := padRight 15 key.toList ++ padRight 10 value ++ ['\n']

/-- The values of the header of an ASC file. -/
structure AscMeta where
  ncols : ℕ
  nrows : ℕ
  /-- Origin: centre of the lower left cell (style 1) or its corner (style 2). -/
  xll : ℚ
  yll : ℚ
  dx : ℚ
  dy : ℚ
  noData : Flt

/-- kriging_tools.py:105-112, style 1. -/
def ascHeader1 (m : AscMeta) : Text :=
  headerLine "NCOLS" (natText m.ncols) ++ headerLine "NROWS" (natText m.nrows) ++
  headerLine "XLLCENTER" (fmtFixed 2 m.xll) ++ headerLine "YLLCENTER" (fmtFixed 2 m.yll) ++
  headerLine "DX" (fmtFixed 2 m.dx) ++ headerLine "DY" (fmtFixed 2 m.dy) ++
  headerLine "NODATA_VALUE" (fltFixed 2 m.noData)

/-- kriging_tools.py:113-119, style 2. -/
def ascHeader2 (m : AscMeta) : Text :=
  headerLine "NCOLS" (natText m.ncols) ++ headerLine "NROWS" (natText m.nrows) ++
  headerLine "XLLCORNER" (fmtFixed 2 m.xll) ++ headerLine "YLLCORNER" (fmtFixed 2 m.yll) ++
  headerLine "CELLSIZE" (fmtFixed 2 m.dx) ++ headerLine "NODATA_VALUE" (fltFixed 2 m.noData)

/-- kriging_tools.py:124-125, one row. -/
def ascRow {nc : ℕ} (row : Fin nc → Flt) : Text :=
  (List.finRange nc).flatMap fun n => padRight 16 (fltFixed 2 (row n))

/-- kriging_tools.py:123-127: rows from the last to the first, a newline after all but row 0. -/
def ascBody {nr nc : ℕ} (z : Fin nr → Fin nc → Flt) : Text :=
  (List.finRange nr).reverse.flatMap fun m => ascRow (z m) ++ if m.val ≠ 0 then ['\n'] else []

/-- kriging_tools.py:69, the comparison of the smallest coordinates with the first ones: `np.amin` of no coordinates is a
`ValueError`. (The warning that may follow is not modelled.) -/
def ascOrder (x y : List ℚ) : Py Unit := do
  if x = [] then throw .valueError
  let x0 ← coordAt x 0
  if x.all (x0 ≤ ·) then
    if y = [] then throw .valueError
    let _ ← coordAt y 0

/-- kriging_tools.py:23-127, `write_asc_grid`. `x`, `y` are the coordinates flattened to one dimension (`ValueError` for
real two-dimensional coordinates is not modelled), `z` has `nr` rows and `nc` columns. `np.squeeze` turns a single row
or column into a one-dimensional array, for which `z.shape[1]` is an `IndexError`. -/
def writeAscGrid {nr nc : ℕ} (file : Option Text) (x y : List ℚ) (z : Fin nr → Fin nc → Option Flt)
    (noData : Flt) (style : ℤ) : Py Unit × Option Text :=
  let before : Py AscMeta := do
    if nr = 1 ∨ nc = 1 then throw .indexError
    ascOrder x y
    let dx ← firstStep x
    let dy ← firstStep y
    if ¬ (evenly x dx = true ∧ evenly y dy = true) then throw .valueError
    if style = 2 ∧ dx ≠ dy then throw .valueError
    let x0 ← coordAt x 0
    let y0 ← coordAt y 0
    return { ncols := nc, nrows := nr, dx := dx, dy := dy, noData := noData
             xll := if style = 2 then x0 - dx / 2 else x0
             yll := if style = 2 then y0 - dy / 2 else y0 }
  match before with
  | .error e => (.error e, file)
  | .ok m =>
    if style = 1 then (.ok (), some (ascHeader1 m ++ ascBody (fillMasked z noData)))
    else if style = 2 then (.ok (), some (ascHeader2 m ++ ascBody (fillMasked z noData)))
    else (.error .valueError, some [])

/-- The variables `read_asc_grid` fills while it reads the header (kriging_tools.py:158-168). -/
structure AscHeader where
  ncols : Option ℤ := none
  nrows : Option ℤ := none
  xllcorner : Option ℚ := none
  xllcenter : Option ℚ := none
  yllcorner : Option ℚ := none
  yllcenter : Option ℚ := none
  cellsize : Option ℚ := none
  dx : Option ℚ := none
  dy : Option ℚ := none
  noData : Option Flt := none

/-- `int(value)`. -/
def pyInt (v : Text) : Py ℤ := match parseInt v with | some n => .ok n | none => .error .valueError

/-- `float(value)`. -/
def pyFloat (v : Text) : Py Flt := match parseFloat v with | some f => .ok f | none => .error .valueError

/-- `float(value)` for a coordinate. Simplification: infinite and undefined coordinates, which make `np.arange` raise a
`ValueError` later, raise it here. -/
def pyCoord (v : Text) : Py ℚ := match parseFloat v with | some (.num q) => .ok q | _ => .error .valueError

/-- kriging_tools.py:173-198: one header line `string value`. -/
def AscHeader.set (h : AscHeader) (key value : Text) : Py AscHeader :=
  let k := lower key
  if k = "ncols".toList then (fun v => { h with ncols := some v }) <$> pyInt value
  else if k = "nrows".toList then (fun v => { h with nrows := some v }) <$> pyInt value
  else if k = "xllcorner".toList then (fun v => { h with xllcorner := some v }) <$> pyCoord value
  else if k = "xllcenter".toList then (fun v => { h with xllcenter := some v }) <$> pyCoord value
  else if k = "yllcorner".toList then (fun v => { h with yllcorner := some v }) <$> pyCoord value
  else if k = "yllcenter".toList then (fun v => { h with yllcenter := some v }) <$> pyCoord value
  else if k = "cellsize".toList then (fun v => { h with cellsize := some v }) <$> pyCoord value
  else if k = "cell_size".toList then (fun v => { h with cellsize := some v }) <$> pyCoord value
  else if k = "dx".toList then (fun v => { h with dx := some v }) <$> pyCoord value
  else if k = "dy".toList then (fun v => { h with dy := some v }) <$> pyCoord value
  else if k = "nodata_value".toList then (fun v => { h with noData := some v }) <$> pyFloat value
  else if k = "nodatavalue".toList then (fun v => { h with noData := some v }) <$> pyFloat value
  else .error .ioError

/-- kriging_tools.py:200-209: everything needed has been read. -/
def AscHeader.complete (h : AscHeader) : Bool :=
  h.ncols.isSome && h.nrows.isSome &&
  ((h.xllcorner.isSome && h.yllcorner.isSome) || (h.xllcenter.isSome && h.yllcenter.isSome)) &&
  (h.cellsize.isSome || (h.dx.isSome && h.dy.isSome)) && h.noData.isSome

/-- kriging_tools.py:169-214: the header loop; returns the lines that follow (`genfromtxt(skip_header=...)`). A line
that is not two words (and the end of the file) cannot be unpacked: `ValueError`. -/
def readAscHeader (h : AscHeader) : List Text → Py (AscHeader × List Text)
  | [] => .error .valueError
  | l :: ls =>
    match pySplit l with
    | [key, value] => do
      let h ← h.set key value
      if h.complete then return (h, ls) else readAscHeader h ls
    | _ => .error .valueError

/-- One line of the body for `np.genfromtxt`: words up to a comment, each read as float, undefined if it is none. -/
def genRow (l : Text) : List Flt := (pySplit (l.takeWhile (· ≠ '#'))).map fun w => (parseFloat w).getD .nan

/-- `np.genfromtxt` (`skip_footer=0`): blank lines are skipped, rows of different lengths are a `ValueError`. -/
def genfromtxt (lines : List Text) : Py (List (List Flt)) :=
  let rows := (lines.map genRow).filter (· ≠ [])
  match rows with
  | [] => .ok []
  | r :: _ => if rows.all (fun s => s.length = r.length) then .ok rows else .error .valueError

/-- `np.arange(start, stop, step)` in exact arithmetic. -/
def arange (start stop step : ℚ) : Py (List ℚ) :=
  if step = 0 then .error .zeroDivisionError
  else .ok ((List.range ⌈(stop - start) / step⌉.toNat).map fun i : ℕ => start + i * step)

/-- Cell size: a pair, or one number for both directions. -/
inductive CellSize
  | pair (dx dy : ℚ)
  | both (c : ℚ)
  deriving DecidableEq

/-- What `read_asc_grid` returns; `grid` by rows. -/
structure AscGrid where
  grid : List (List Flt)
  x : List ℚ
  y : List ℚ
  cellsize : CellSize
  noData : Flt
  deriving DecidableEq

/-- kriging_tools.py:212-222: the shape of `genfromtxt`'s array against the header. A single row or column (or no row) is
a one-dimensional array, for which `shape[1]` is an `IndexError` if the first comparison does not already fail; a single
number has no dimension and `np.flipud` refuses it with a `ValueError`. -/
def checkShape (rows : List (List Flt)) (nrows ncols : ℤ) : Py Unit :=
  match rows with
  | [] => if nrows ≠ 0 then .error .ioError else .error .indexError
  | [r] => if r.length = 1 then .error .valueError
      else if nrows ≠ r.length then .error .ioError else .error .indexError
  | r :: _ => if r.length = 1 then (if nrows ≠ rows.length then .error .ioError else .error .indexError)
      else if nrows ≠ rows.length ∨ ncols ≠ r.length then .error .ioError else .ok ()

/-- kriging_tools.py:242-245: drop a surplus last coordinate. -/
def trim (v : List ℚ) (n : ℤ) : List ℚ := if (v.length : ℤ) = n + 1 then v.dropLast else v

/-- kriging_tools.py:224-248: coordinates from a complete header. -/
def ascCoordinates (h : AscHeader) (ncols nrows : ℤ) : Py (List ℚ × List ℚ × CellSize) := do
  let step : Option (ℚ × ℚ) := match h.dx, h.dy with
    | some dx, some dy => some (dx, dy)
    | _, _ => h.cellsize.map fun c => (c, c)
  match step with
  | none => throw .typeError
  | some (sx, sy) =>
    let origin : Option (ℚ × ℚ) := match h.xllcorner, h.yllcorner with
      | some a, some b => some (a + sx / 2, b + sy / 2)
      | _, _ => match h.xllcenter, h.yllcenter with
        | some a, some b => some (a, b)
        | _, _ => none
    match origin with
    | none => throw .typeError
    | some (ox, oy) =>
      let x ← arange ox (ox + ncols * sx) sx
      let y ← arange oy (oy + nrows * sy) sy
      return (trim x ncols, trim y nrows, match h.cellsize with | some c => .both c | none => .pair sx sy)

/-- kriging_tools.py:130-250, `read_asc_grid` (with `footer=0`). -/
def readAscGrid (file : Text) : Py AscGrid := do
  let (h, rest) ← readAscHeader {} (readLines file)
  let rows ← genfromtxt rest
  let ncols := h.ncols.getD 0
  let nrows := h.nrows.getD 0
  checkShape rows nrows ncols
  let (x, y, c) ← ascCoordinates h ncols nrows
  return { grid := rows.reverse, x := x, y := y, cellsize := c, noData := h.noData.getD .nan }

/-! ### ZMAP -/

/-- kriging_tools.py:462-464, `space_back_to_front`: the blanks come first. Simplification: the text has no blanks
inside the word, as in all uses. -/
def spaceBackToFront (t : Text) : Text := t.filter (· = ' ') ++ t.filter (· ≠ ' ')

/-- What the writer takes from its surroundings: `str` of floats, name of the file, date and time; and the reader: the
contents of fresh arrays (`np.empty`). -/
structure ZEnv where
  str : ℚ → Text
  basename : Text
  date : Text
  time : Text
  fresh : ℕ → Flt

/-- `str(v)`. -/
def strFlt (env : ZEnv) : Flt → Text
  | .num q => env.str q
  | .inf true => "-inf".toList
  | .inf false => "inf".toList
  | .nan => "nan".toList

/-- The size of a float, for comparisons (`abs(v) >= b`). -/
def absGe (v : Flt) (b : ℚ) : Bool := match v with
  | .num q => decide (b ≤ |q|)
  | .inf _ => true
  | .nan => false

/-- kriging_tools.py:342-350: one field, 15 characters. -/
def zmapField (noData : Flt) (v : Flt) : Text :=
  if v = .nan then spaceBackToFront (padLeft 13 (fltSci noData) ++ "  ".toList)
  else if absGe v (10 ^ 100) then spaceBackToFront (padLeft 13 (fltSci v) ++ " ".toList)
  else if absGe v (10 ^ 6) then spaceBackToFront (padLeft 13 (fltSci v) ++ "  ".toList)
  else spaceBackToFront (padRight 13 (fltFixed 4 v) ++ "  ".toList)

/-- kriging_tools.py:339-352: one column from the last row to the first, five fields in a line. -/
def zmapColumn {nr : ℕ} (noData : Flt) (col : Fin nr → Flt) : Text :=
  (List.finRange nr).flatMap fun k =>
    zmapField noData (col k.rev) ++ if (k.val + 1) % 5 = 0 ∨ k.rev.val = 0 then ['\n'] else []

/-- kriging_tools.py:338-352: the body, column by column. -/
def zmapBody {nr nc : ℕ} (noData : Flt) (z : Fin nr → Fin nc → Flt) : Text :=
  (List.finRange nc).flatMap fun n => zmapColumn noData fun m => z m n

/-- kriging_tools.py:308-336: the header. -/
def zmapHeader (env : ZEnv) (nx ny : ℕ) (xll yll dx hix hiy : ℚ) (noData : Flt) (coordSys : Text) : Text :=
  "!\n".toList ++
  "!     ZIMS FILE NAME :  ".toList ++ env.basename ++ "\n".toList ++
  "!     FORMATTED FILE CREATION DATE: ".toList ++ env.date ++ "\n".toList ++
  "!     FORMATTED FILE CREATION TIME: ".toList ++ env.time ++ "\n".toList ++
  "!     COORDINATE REFERENCE SYSTEM: ".toList ++ coordSys ++ "\n".toList ++
  "!\n".toList ++
  "@Grid HEADER, GRID, ".toList ++ natText 5 ++ "\n".toList ++
  " ".toList ++ natText 15 ++ ", ".toList ++ strFlt env noData ++ ",  , 1 , 1".toList ++ "\n".toList ++
  "   ".toList ++ natText ny ++ ",  ".toList ++ natText nx ++ ",  ".toList ++ env.str xll ++ ",  ".toList ++
    env.str hix ++ ",  ".toList ++ env.str yll ++ ",  ".toList ++ env.str hiy ++ "\n".toList ++
  "   ".toList ++ env.str dx ++ ",  0.0,  0.0    ".toList ++ "\n".toList ++
  "@\n".toList

/-- kriging_tools.py:253-352, `write_zmap_grid`. As `writeAscGrid`; a single coordinate has no `len()` (`TypeError`), no
coordinate no `x[1]` (`IndexError`); a single row or column of `z` is noticed only after the header was written. -/
def writeZmapGrid {nr nc : ℕ} (env : ZEnv) (file : Option Text) (x y : List ℚ) (z : Fin nr → Fin nc → Option Flt)
    (noData : Flt) (coordSys : Text) : Py Unit × Option Text :=
  let before : Py (ℚ × ℚ × ℚ × ℚ) := do
    if x.length = 1 ∨ y.length = 1 then throw .typeError
    let dx ← firstStep x
    let dy ← firstStep y
    if ¬ (evenly x dx = true ∧ evenly y dy = true) then throw .valueError
    let x0 ← coordAt x 0
    let y0 ← coordAt y 0
    return (dx, dy, x0, y0)
  match before with
  | .error e => (.error e, file)
  | .ok (dx, dy, x0, y0) =>
    let header := zmapHeader env x.length y.length x0 y0 dx (x0 + (x.length - 1) * dx) (y0 + (y.length - 1) * dy)
      noData coordSys
    if nr = 1 ∨ nc = 1 then (.error .indexError, some header)
    else (.ok (), some (header ++ zmapBody noData (fillMasked z noData)))

/-- The variables of `read_zmap_grid` (kriging_tools.py:384-398). -/
structure ZState where
  header : ℤ := 0
  iValue : ℕ := 0
  data : List Flt
  noData : Flt := .num 0
  nx : ℤ := 0
  ny : ℤ := 0
  originx : ℚ := 0
  originy : ℚ := 0
  maxx : ℚ := 0
  maxy : ℚ := 0
  coordSys : Text := "<null>".toList

/-- `data_values[i] = v`. -/
def storeAt (l : List Flt) (i : ℕ) (v : Flt) : Py (List Flt) :=
  if i < l.length then .ok (l.set i v) else .error .indexError

/-- kriging_tools.py:413-416: the numbers of one line of the body. -/
def storeWords (s : ZState) : List Text → Py ZState
  | [] => .ok s
  | w :: ws => do
    let v ← pyFloat w
    let d ← storeAt s.data s.iValue v
    storeWords { s with data := d, iValue := s.iValue + 1 } ws

/-- `np.empty(n)`. -/
def freshArray (env : ZEnv) (n : ℤ) : Py (List Flt) :=
  if n < 0 then .error .valueError else .ok ((List.range n.toNat).map env.fresh)

/-- kriging_tools.py:402-408: the words of a line. Comment lines are split at colons and may set the coordinate system. -/
def zmapWords (s : ZState) (line : Text) : Py (ZState × List Text) :=
  if line.head? = some '!' then do
    let ws := splitOn ':' line
    if contains "COORDINATE REFERENCE SYSTEM".toList (ws.headD []) then
      let c ← pyGet ws 1
      return ({ s with coordSys := c }, ws)
    else return (s, ws)
  else .ok (s, (pySplit line).map fun w => w.filter (· ≠ ','))

/-- kriging_tools.py:424-435: header lines. -/
def zmapHeaderLine (env : ZEnv) (s : ZState) (ws : List Text) : Py ZState :=
  if 0 < s.header then do
    let s ← (if s.header = 2 then do
        let v ← pyFloat (← pyGet ws 1)
        return { s with noData := v }
      else if s.header = 3 then do
        let ny ← pyInt (← pyGet ws 0)
        let nx ← pyInt (← pyGet ws 1)
        let ox ← pyCoord (← pyGet ws 2)
        let mx ← pyCoord (← pyGet ws 3)
        let oy ← pyCoord (← pyGet ws 4)
        let my ← pyCoord (← pyGet ws 5)
        let d ← freshArray env (ny * nx)
        return { s with ny := ny, nx := nx, originx := ox, maxx := mx, originy := oy, maxy := my, data := d }
      else return s : Py ZState)
    return { s with header := s.header + 1 }
  else .ok s

/-- kriging_tools.py:400-435: the loop over the lines, until a line without words or the end of the file. -/
def zmapLoop (env : ZEnv) (s : ZState) : List Text → Py ZState
  | [] => .ok s
  | line :: lines => do
    let (s, ws) ← zmapWords s line
    match ws with
    | [] => return s
    | w :: _ =>
      let s ← if s.header = -1 ∧ w.head? ≠ some '!' then storeWords s ws else .ok s
      let s := if w.head? = some '@' then { s with header := if s.header = 0 then 1 else -1 } else s
      let s ← zmapHeaderLine env s ws
      zmapLoop env s lines

/-- What `read_zmap_grid` returns; `grid` by rows. -/
structure ZmapGrid where
  grid : List (List Flt)
  x : List ℚ
  y : List ℚ
  cellsize : ℚ × ℚ
  noData : Flt
  coordSys : Text

/-- kriging_tools.py:355-459, `read_zmap_grid`. -/
def readZmapGrid (env : ZEnv) (file : Text) : Py ZmapGrid := do
  let s ← zmapLoop env { data := [env.fresh 0] } (readLines file)
  if s.nx * s.ny ≠ s.data.length then throw .ioError
  if s.ny < 0 ∨ s.nx < 0 then throw .valueError
  let ny := s.ny.toNat
  let nx := s.nx.toNat
  -- column by column, each from the last row to the first
  let z := (List.range ny).map fun m => (List.range nx).map fun n => s.data.getD (n * ny + (ny - 1 - m)) .nan
  if s.nx = 1 ∨ s.ny = 1 then throw .zeroDivisionError
  let dx := (s.maxx - s.originx) / (s.nx - 1)
  let dy := (s.maxy - s.originy) / (s.ny - 1)
  let x ← arange s.originx (s.originx + s.nx * dx) dx
  let y ← arange s.originy (s.originy + s.ny * dy) dy
  return { grid := z, x := x, y := y, cellsize := (dx, dy), noData := s.noData, coordSys := s.coordSys }

end PyKrige
