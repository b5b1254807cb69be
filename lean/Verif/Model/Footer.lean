import Verif.Model.Tools

/-! `read_asc_grid(filename, footer=...)`: `np.genfromtxt` with `skip_footer`. -/

namespace PyKrige

/-- `np.genfromtxt(..., skip_footer=footer)` after the header lines (numpy's `genfromtxt`): reading starts at the first
line that is not blank, whose number of words is the number of columns; blank lines are skipped; lines with another number
of words are set aside as invalid. Of the invalid lines those whose number is greater than the number of lines read minus
`footer` are forgiven, and `footer` is reduced by their number; any other is a `ValueError`. Then the last `footer` rows
are dropped. -/
def genfromtxtFooter (lines : List Text) (footer : ℤ) : Py (List (List Flt)) :=
  let rows := ((lines.map genRow).dropWhile (· = [])).zipIdx.filter fun p => p.1 ≠ []
  match rows with
  | [] => .ok []
  | r :: _ =>
    let good := (rows.filter fun p => p.1.length = r.1.length).map Prod.fst
    let bad := rows.filter fun p => p.1.length ≠ r.1.length
    let nbrows : ℤ := good.length + bad.length - footer
    let late := (bad.filter fun p => (p.2 : ℤ) + 1 > nbrows).length
    if 0 < footer then
      if bad.take (bad.length - late) ≠ [] then .error .valueError
      else if 0 < footer - late then .ok (good.take (good.length - (footer - late).toNat))
      else .ok good
    else if bad ≠ [] then .error .valueError
    else .ok good

/-- kriging_tools.py:130-250, `read_asc_grid(filename, footer)`. -/
def readAscGridFooter (file : Text) (footer : ℤ) : Py AscGrid := do
  let (h, rest) ← readAscHeader {} (readLines file)
  let rows ← genfromtxtFooter rest footer
  let ncols := h.ncols.getD 0
  let nrows := h.nrows.getD 0
  checkShape rows nrows ncols
  let (x, y, c) ← ascCoordinates h ncols nrows
  return { grid := rows.reverse, x := x, y := y, cellsize := c, noData := h.noData.getD .nan }

end PyKrige
