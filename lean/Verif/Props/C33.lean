import Verif.Lemmas.AscHeader
import Verif.Props.C32

/-!
C33: the header lines of an ASC file may come in any order and letter case; unknown keywords and bodies of the wrong size
are refused.
-/

namespace PyKrige
open Spec

/-! ### Specification -/

/-- A line `key value`: two words separated by blanks, possibly with blanks around them. -/
structure Spec.HeaderLine (l : Text) (e : Text × Text) : Prop where
  newline : '\n' ∉ l
  key : Word e.1
  value : Word e.2
  split : ∃ b1 b2 b3 : Text, Blank b1 ∧ Blank b2 ∧ Blank b3 ∧ b2 ≠ [] ∧ l = b1 ++ (e.1 ++ (b2 ++ (e.2 ++ b3)))

/-- A keyword without regard to letter case; two of them have a second spelling. -/
def Spec.canonical (k : Text) : Text :=
  if lower k = "cell_size".toList then "cellsize".toList
  else if lower k = "nodatavalue".toList then "nodata_value".toList
  else lower k

/-- The headers of the format: number of columns and rows, lower left corner or centre, one or two cell sizes, and the
no-data value. -/
def Spec.standardHeaders : List (List String) :=
  [["ncols", "nrows", "xllcorner", "yllcorner", "cellsize", "nodata_value"],
   ["ncols", "nrows", "xllcenter", "yllcenter", "cellsize", "nodata_value"],
   ["ncols", "nrows", "xllcorner", "yllcorner", "dx", "dy", "nodata_value"],
   ["ncols", "nrows", "xllcenter", "yllcenter", "dx", "dy", "nodata_value"]]

/-- The keywords of a header are those of the format, in any order. -/
def Spec.Standard (ks : List Text) : Prop := ∃ S ∈ standardHeaders, (ks.map canonical).Perm (S.map String.toList)

/-- All keywords of the format. -/
def Spec.keywords : List Text :=
  ["ncols".toList, "nrows".toList, "xllcorner".toList, "xllcenter".toList, "yllcorner".toList, "yllcenter".toList,
   "cellsize".toList, "dx".toList, "dy".toList, "nodata_value".toList]

/-- The value can be read: integers for the numbers of columns and rows, finite numbers for coordinates and cell sizes,
any float for the no-data value. -/
def Spec.Readable (e : Text × Text) : Prop :=
  if canonical e.1 = "ncols".toList ∨ canonical e.1 = "nrows".toList then ∃ n, parseInt e.2 = some n
  else if canonical e.1 = "nodata_value".toList then ∃ v, parseFloat e.2 = some v
  else ∃ q, parseFloat e.2 = some (.num q)

/-! ### Lemmas -/

theorem HeaderLine.pySplit {l : Text} {e : Text × Text} (h : HeaderLine l e) : pySplit l = [e.1, e.2] := by
  obtain ⟨-, h1, h2, b1, b2, b3, hb1, hb2, hb3, hne, rfl⟩ := h
  have hd2 : ∀ c ∈ (b2 ++ (e.2 ++ b3)).head?, c.isWhitespace = true := by
    cases b2 with
    | nil => exact absurd rfl hne
    | cons c b2 =>
      intro d hd
      simp only [List.cons_append, List.head?_cons, Option.mem_some_iff] at hd
      exact hd ▸ hb2 c (by simp)
  have hd3 : ∀ c ∈ b3.head?, c.isWhitespace = true := fun c hc => hb3 c (List.mem_of_mem_head? hc)
  rw [pySplit_blank hb1, pySplit_word h1 hd2, pySplit_blank hb2, pySplit_word h2 hd3, pySplit_blanks hb3]

theorem forall₂_newline {lines : List Text} {E : List (Text × Text)} (h : List.Forall₂ HeaderLine lines E) :
    ∀ l ∈ lines, '\n' ∉ l := by
  induction h with
  | nil => simp
  | cons h _ ih =>
    intro l hl
    rcases List.mem_cons.1 hl with rfl | hl
    · exact h.newline
    · exact ih l hl

theorem fieldOf_canonical (k : Text) : fieldOf (canonical k) = fieldOf (lower k) := by
  unfold canonical
  by_cases h1 : lower k = "cell_size".toList
  · rw [if_pos h1, h1]
    decide
  · rw [if_neg h1]
    by_cases h2 : lower k = "nodatavalue".toList
    · rw [if_pos h2, h2]
      decide
    · rw [if_neg h2]

/-- The variable of a canonical keyword. -/
def fieldD (k : Text) : Field := (fieldOf k).getD .ncols

theorem fieldOf_keyword {k : Text} (h : k ∈ keywords) : fieldOf k = some (fieldD k) := by
  unfold keywords at h
  simp only [List.mem_cons, List.not_mem_nil, or_false] at h
  rcases h with rfl | rfl | rfl | rfl | rfl | rfl | rfl | rfl | rfl | rfl <;> decide

theorem standard_keywords {S : List String} (hS : S ∈ standardHeaders) {k : Text} (hk : k ∈ S.map String.toList) :
    k ∈ keywords := by
  have h : ∀ S ∈ standardHeaders, ∀ k ∈ S.map String.toList, k ∈ keywords := by decide
  exact h S hS k hk

theorem standard_fields {S : List String} (hS : S ∈ standardHeaders) :
    (S.map String.toList).map fieldD ∈ standardFields := by
  simp only [standardHeaders, List.mem_cons, List.not_mem_nil, or_false] at hS
  rcases hS with rfl | rfl | rfl | rfl <;> decide

/-- The entries of a header as values of variables. -/
def entries (E : List (Text × Text)) : List (Field × Text) := E.map fun e => (fieldD (canonical e.1), e.2)

theorem forall₂_entries {lines : List Text} {E : List (Text × Text)} (h : List.Forall₂ HeaderLine lines E)
    (hk : ∀ e ∈ E, canonical e.1 ∈ keywords) :
    List.Forall₂ (fun t p => ∃ key, pySplit t = [key, p.2] ∧ fieldOf (lower key) = some p.1) lines (entries E) := by
  induction h with
  | nil => exact .nil
  | @cons l e lines E h _ ih =>
    refine .cons ⟨e.1, HeaderLine.pySplit h, ?_⟩ (ih fun e he => hk e (by simp [he]))
    rw [← fieldOf_canonical]
    exact fieldOf_keyword (hk e (by simp))

theorem entries_fst (E : List (Text × Text)) : (entries E).map Prod.fst = ((E.map Prod.fst).map canonical).map fieldD := by
  simp only [entries, List.map_map]
  rfl

theorem Standard.keywords {E : List (Text × Text)} (h : Standard (E.map Prod.fst)) :
    ∀ e ∈ E, canonical e.1 ∈ keywords := by
  obtain ⟨S, hS, hp⟩ := h
  intro e he
  exact standard_keywords hS (hp.subset (List.mem_map_of_mem (List.mem_map_of_mem he)))

theorem Standard.fields {E : List (Text × Text)} (h : Standard (E.map Prod.fst)) :
    ∃ S ∈ standardFields, ((entries E).map Prod.fst).Perm S := by
  obtain ⟨S, hS, hp⟩ := h
  exact ⟨_, standard_fields hS, by rw [entries_fst]; exact hp.map _⟩

theorem readHeader_of {lines : List Text} {E : List (Text × Text)} (hl : List.Forall₂ HeaderLine lines E)
    (hs : Standard (E.map Prod.fst)) (body : Text) :
    readAscHeader {} (readLines (fileOf lines body)) = (fun h => (h, readLines body)) <$> putAll {} (entries E) := by
  obtain ⟨S, hS, hp⟩ := Standard.fields hs
  rw [readLines_fileOf (forall₂_newline hl)]
  exact readAscHeader_standard hS (forall₂_entries hl (Standard.keywords hs)) hp _

theorem readable_entry {e : Text × Text} (h : Readable e) (hk : canonical e.1 ∈ keywords) :
    readable (fieldD (canonical e.1)) e.2 = true := by
  unfold Readable at h
  generalize canonical e.1 = k at h hk
  unfold keywords at hk
  simp only [List.mem_cons, List.not_mem_nil, or_false] at hk
  have e1 : ∀ {n}, parseInt e.2 = some n → (pyInt e.2).isOk = true := fun h => by unfold pyInt; rw [h]; rfl
  have e2 : ∀ {v}, parseFloat e.2 = some v → (pyFloat e.2).isOk = true := fun h => by unfold pyFloat; rw [h]; rfl
  have e3 : ∀ {q}, parseFloat e.2 = some (.num q) → (pyCoord e.2).isOk = true := fun h => by
    unfold pyCoord; rw [h]; rfl
  rcases hk with rfl | rfl | rfl | rfl | rfl | rfl | rfl | rfl | rfl | rfl
  · rw [if_pos (Or.inl rfl)] at h
    obtain ⟨n, hn⟩ := h
    exact e1 hn
  · rw [if_pos (Or.inr rfl)] at h
    obtain ⟨n, hn⟩ := h
    exact e1 hn
  all_goals rw [if_neg (by decide)] at h
  all_goals first
    | (rw [if_neg (by decide)] at h; obtain ⟨q, hq⟩ := h; exact e3 hq)
    | (rw [if_pos rfl] at h; obtain ⟨q, hq⟩ := h; exact e2 hq)

/-! ### The property -/

section
variable {lines lines' : List Text} {E E' : List (Text × Text)} {body : Text}

/-- Two headers with the same entries, in different orders, with different capitalisation (and spelling of `cellsize`
and `nodata_value`) and different blanks, are read alike. -/
theorem C33_any_order (hl : List.Forall₂ HeaderLine lines E) (hl' : List.Forall₂ HeaderLine lines' E')
    (hs : Standard (E.map Prod.fst))
    (hsame : (E'.map fun e => (canonical e.1, e.2)).Perm (E.map fun e => (canonical e.1, e.2))) :
    readAscGrid (fileOf lines' body) = readAscGrid (fileOf lines body) := by
  have hs' : Standard (E'.map Prod.fst) := by
    obtain ⟨S, hS, hp⟩ := hs
    refine ⟨S, hS, .trans ?_ hp⟩
    have := hsame.map Prod.fst
    simp only [List.map_map] at this ⊢
    exact this
  have hp : (entries E').Perm (entries E) := by
    have := hsame.map fun p : Text × Text => (fieldD p.1, p.2)
    simp only [List.map_map] at this
    exact this
  obtain ⟨S', hS', hp'⟩ := Standard.fields hs'
  unfold readAscGrid
  rw [readHeader_of hl hs, readHeader_of hl' hs', putAll_perm hp (hp'.nodup_iff.2 (standard_nodup hS'))]

/-- An unknown keyword before the header is complete is an `IOError`. -/
theorem C33_unknown (hl : List.Forall₂ HeaderLine lines E) (hr : ∀ e ∈ E, Readable e)
    (hs : ∃ missing, missing ≠ [] ∧ Standard (E.map Prod.fst ++ missing)) {l : Text} {e : Text × Text}
    (he : HeaderLine l e) (hk : canonical e.1 ∉ keywords) (more : List Text) (hm : ∀ l ∈ more, '\n' ∉ l) :
    readAscGrid (fileOf (lines ++ l :: more) body) = .error .ioError := by
  obtain ⟨missing, hne, hs⟩ := hs
  have hs' : Standard ((E ++ missing.map fun k => (k, [])).map Prod.fst) := by
    rw [List.map_append, List.map_map]
    have : (missing.map (Prod.fst ∘ fun k : Text => (k, ([] : Text)))) = missing :=
      List.map_id missing
    rw [this]
    exact hs
  obtain ⟨S, hS, hp⟩ := Standard.fields hs'
  have hkw := Standard.keywords hs'
  have hE : ∀ e ∈ E, canonical e.1 ∈ keywords := fun e he => hkw e (by simp [he])
  have hfile : readLines (fileOf (lines ++ l :: more) body) = lines ++ l :: (more ++ readLines body) := by
    rw [readLines_fileOf]
    · simp
    · intro m h
      rcases List.mem_append.1 h with h | h
      · exact forall₂_newline hl m h
      · rcases List.mem_cons.1 h with rfl | h
        · exact he.newline
        · exact hm m h
  have hnone : fieldOf (lower e.1) = none := by
    rw [← fieldOf_canonical]
    generalize hc : canonical e.1 = k at hk
    have h1 : k ≠ "cell_size".toList := by
      rw [← hc]; unfold canonical; split
      · decide
      · next h => split
                  · decide
                  · exact h
    have h2 : k ≠ "nodatavalue".toList := by
      rw [← hc]; unfold canonical; split
      · decide
      · split
        · decide
        · next h => exact h
    unfold keywords at hk
    simp only [List.mem_cons, List.not_mem_nil, or_false, not_or] at hk
    obtain ⟨a1, a2, a3, a4, a5, a6, a7, a8, a9, a10⟩ := hk
    unfold fieldOf
    rw [if_neg a1, if_neg a2, if_neg a3, if_neg a4, if_neg a5, if_neg a6, if_neg a7, if_neg h1, if_neg a8, if_neg a9,
      if_neg a10, if_neg h2]
  unfold readAscGrid
  rw [hfile, readAscHeader_unknown (forall₂_entries hl hE) ?_ ?_ (HeaderLine.pySplit he) hnone]
  · rfl
  · intro p hp
    obtain ⟨e, he, rfl⟩ := List.mem_map.1 hp
    exact readable_entry (hr e he) (hE e he)
  · intro l1 l2 e1 h' e2
    refine standard_incomplete hS (l1 := l1) (l2 := l2 ++ entries (missing.map fun k => (k, []))) ?_ ?_ e2
    · rw [← List.append_assoc, e1]
      have : entries E ++ entries (missing.map fun k => (k, [])) = entries (E ++ missing.map fun k => (k, [])) := by
        simp [entries]
      rw [this]
      exact hp
    · intro h0
      have := (List.append_eq_nil_iff.1 h0).2
      simp only [entries, List.map_eq_nil_iff] at this
      exact hne this

theorem header_size (hl : List.Forall₂ HeaderLine lines E) (hs : Standard (E.map Prod.fst)) (hr : ∀ e ∈ E, Readable e)
    {e1 e2 : Text × Text} {nc nr : ℤ} (h1 : e1 ∈ E) (k1 : canonical e1.1 = "ncols".toList) (v1 : parseInt e1.2 = some nc)
    (h2 : e2 ∈ E) (k2 : canonical e2.1 = "nrows".toList) (v2 : parseInt e2.2 = some nr) :
    ∃ h, readAscHeader {} (readLines (fileOf lines body)) = .ok (h, readLines body) ∧ h.ncols = some nc ∧ h.nrows = some nr := by
  obtain ⟨S, hS, hp⟩ := Standard.fields hs
  have hn := hp.nodup_iff.2 (standard_nodup hS)
  obtain ⟨h, hh⟩ := putAll_readable (l := entries E) (fun p hp => by
    obtain ⟨e, he, rfl⟩ := List.mem_map.1 hp
    exact readable_entry (hr e he) (Standard.keywords hs e he)) {}
  obtain ⟨n, a1, a2⟩ := putAll_ncols hh hn (a := e1.2) (List.mem_map.2 ⟨e1, h1, by rw [k1]; rfl⟩)
  obtain ⟨m, b1, b2⟩ := putAll_nrows hh hn (a := e2.2) (List.mem_map.2 ⟨e2, h2, by rw [k2]; rfl⟩)
  have en : n = nc := by
    unfold pyInt at a1
    rw [v1] at a1
    exact (Except.ok.inj a1).symm
  have em : m = nr := by
    unfold pyInt at b1
    rw [v2] at b1
    exact (Except.ok.inj b1).symm
  exact ⟨h, by rw [readHeader_of hl hs, hh]; rfl, by rw [a2, en], by rw [b2, em]⟩

/-- A body of at least two rows and columns whose size is not that of the header is an `IOError`. -/
theorem C33_size (hl : List.Forall₂ HeaderLine lines E) (hs : Standard (E.map Prod.fst)) (hr : ∀ e ∈ E, Readable e)
    {e1 e2 : Text × Text} {nc nr : ℤ} (h1 : e1 ∈ E) (k1 : canonical e1.1 = "ncols".toList) (v1 : parseInt e1.2 = some nc)
    (h2 : e2 ∈ E) (k2 : canonical e2.1 = "nrows".toList) (v2 : parseInt e2.2 = some nr)
    {rows : List (List Flt)} {c : ℕ} (hb : genfromtxt (readLines body) = .ok rows) (hrows : 2 ≤ rows.length) (hc : 2 ≤ c)
    (hcols : ∀ r ∈ rows, r.length = c) (hne : nr ≠ rows.length ∨ nc ≠ c) :
    readAscGrid (fileOf lines body) = .error .ioError := by
  obtain ⟨h, a1, a2, a3⟩ := header_size (body := body) hl hs hr h1 k1 v1 h2 k2 v2
  unfold readAscGrid
  rw [a1, py_ok_bind]
  dsimp only
  rw [hb, py_ok_bind, a2, a3]
  match rows, hrows, hcols with
  | r :: s :: rs, hrows, hcols =>
    have : r.length = c := hcols r (by simp)
    unfold checkShape
    dsimp only [Option.getD]
    rw [if_neg (by omega), if_pos (by rw [this]; exact hne)]
    rfl

/-- A body with a single row or a single column is never accepted, whatever the header says. -/
theorem C33_single_refused (hl : List.Forall₂ HeaderLine lines E) (hs : Standard (E.map Prod.fst))
    {rows : List (List Flt)} (hb : genfromtxt (readLines body) = .ok rows)
    (hone : rows.length = 1 ∨ ∀ r ∈ rows, r.length = 1) : ∃ e, readAscGrid (fileOf lines body) = .error e := by
  have key : ∀ nr nc : ℤ, ∃ e, checkShape rows nr nc = .error e := by
    intro nr nc
    match rows, hone with
    | [], _ =>
      unfold checkShape
      by_cases h : nr ≠ 0
      · exact ⟨_, if_pos h⟩
      · exact ⟨_, if_neg h⟩
    | [r], _ =>
      unfold checkShape
      dsimp only
      by_cases h : r.length = 1
      · exact ⟨_, if_pos h⟩
      · rw [if_neg h]
        by_cases h : nr ≠ r.length
        · exact ⟨_, if_pos h⟩
        · exact ⟨_, if_neg h⟩
    | r :: s :: rs, hone =>
      have : r.length = 1 := by
        rcases hone with h | h
        · simp at h
        · exact h r (by simp)
      unfold checkShape
      dsimp only
      rw [if_pos this]
      by_cases h : nr ≠ ((r :: s :: rs).length : ℤ)
      · exact ⟨_, if_pos h⟩
      · exact ⟨_, if_neg h⟩
  unfold readAscGrid
  rw [readHeader_of hl hs]
  cases hh : putAll {} (entries E) with
  | error e => exact ⟨e, rfl⟩
  | ok h =>
    rw [py_map_ok, py_ok_bind]
    dsimp only
    rw [hb, py_ok_bind]
    obtain ⟨e, he⟩ := key (h.nrows.getD 0) (h.ncols.getD 0)
    rw [he]
    exact ⟨e, rfl⟩

/-- What a header in the format means: the rows of the body from the last to the first, and the centres of the cells. One
cell size for both directions; the origin given by the corner or by the centre of the lower left cell. -/
theorem C33_meaning_cellsize (corner : Bool) {a b c d s v : Text} {nr nc : ℕ} {X Y C : ℚ} {N : Flt}
    (hl : List.Forall₂ HeaderLine lines E)
    (hE : (E.map fun e => (canonical e.1, e.2)).Perm
      [("ncols".toList, a), ("nrows".toList, b), ((if corner then "xllcorner" else "xllcenter").toList, c),
       ((if corner then "yllcorner" else "yllcenter").toList, d), ("cellsize".toList, s), ("nodata_value".toList, v)])
    (ha : parseInt a = some (nc : ℤ)) (hb : parseInt b = some (nr : ℤ)) (hc : parseFloat c = some (.num X))
    (hd : parseFloat d = some (.num Y)) (hs : parseFloat s = some (.num C)) (hv : parseFloat v = some N) (hC : C ≠ 0)
    {rows : List (List Flt)} (hbody : genfromtxt (readLines body) = .ok rows) (hnr : 2 ≤ nr) (hnc : 2 ≤ nc)
    (hrows : rows.length = nr) (hcols : ∀ r ∈ rows, r.length = nc) :
    readAscGrid (fileOf lines body) = .ok
      { grid := rows.reverse
        x := axis (if corner then X + C / 2 else X) C nc
        y := axis (if corner then Y + C / 2 else Y) C nr
        cellsize := .both C, noData := N } := by
  have hstd : Standard (E.map Prod.fst) := by
    have := hE.map Prod.fst
    simp only [List.map_map, List.map_cons, List.map_nil] at this
    cases corner
    · exact ⟨["ncols", "nrows", "xllcenter", "yllcenter", "cellsize", "nodata_value"], by decide, by
        simp only [List.map_map]; exact this⟩
    · exact ⟨["ncols", "nrows", "xllcorner", "yllcorner", "cellsize", "nodata_value"], by decide, by
        simp only [List.map_map]; exact this⟩
  obtain ⟨S, hS, hp⟩ := Standard.fields hstd
  have hn := hp.nodup_iff.2 (standard_nodup hS)
  have hperm : (entries E).Perm [(.ncols, a), (.nrows, b), (if corner then .xcorner else .xcenter, c),
      (if corner then .ycorner else .ycenter, d), (.cell, s), (.noData, v)] := by
    have := hE.map fun p : Text × Text => (fieldD p.1, p.2)
    simp only [List.map_map, List.map_cons, List.map_nil] at this
    cases corner <;> exact this
  have hput : putAll {} (entries E) = .ok (if corner then
      { ncols := some (nc : ℤ), nrows := some (nr : ℤ), xllcorner := some X, yllcorner := some Y, cellsize := some C, noData := some N }
      else { ncols := some (nc : ℤ), nrows := some (nr : ℤ), xllcenter := some X, yllcenter := some Y, cellsize := some C, noData := some N }) := by
    rw [putAll_perm hperm hn]
    cases corner <;>
      simp [putAll, AscHeader.put, pyInt, pyCoord, pyFloat, ha, hb, hc, hd, hs, hv]
  unfold readAscGrid
  rw [readHeader_of hl hstd, hput, py_map_ok, py_ok_bind]
  dsimp only
  rw [hbody, py_ok_bind]
  cases corner
  · change (do
      checkShape rows (nr : ℤ) (nc : ℤ)
      let (x, y, c) ← (do
        let x ← arange X (X + ((nc : ℤ) : ℚ) * C) C
        let y ← arange Y (Y + ((nr : ℤ) : ℚ) * C) C
        return (trim x nc, trim y nr, CellSize.both C) : Py _)
      return { grid := _, x := x, y := y, cellsize := c, noData := _ } : Py AscGrid) = _
    rw [checkShape_full hnr hnc hrows hcols, arange_axis hC, arange_axis hC]
    simp [trim_axis]
  · change (do
      checkShape rows (nr : ℤ) (nc : ℤ)
      let (x, y, c) ← (do
        let x ← arange (X + C / 2) (X + C / 2 + ((nc : ℤ) : ℚ) * C) C
        let y ← arange (Y + C / 2) (Y + C / 2 + ((nr : ℤ) : ℚ) * C) C
        return (trim x nc, trim y nr, CellSize.both C) : Py _)
      return { grid := _, x := x, y := y, cellsize := c, noData := _ } : Py AscGrid) = _
    rw [checkShape_full hnr hnc hrows hcols, arange_axis hC, arange_axis hC]
    simp [trim_axis]

/-- The same with a cell size for each direction. -/
theorem C33_meaning_dx_dy (corner : Bool) {a b c d s s' v : Text} {nr nc : ℕ} {X Y C D : ℚ} {N : Flt}
    (hl : List.Forall₂ HeaderLine lines E)
    (hE : (E.map fun e => (canonical e.1, e.2)).Perm
      [("ncols".toList, a), ("nrows".toList, b), ((if corner then "xllcorner" else "xllcenter").toList, c),
       ((if corner then "yllcorner" else "yllcenter").toList, d), ("dx".toList, s), ("dy".toList, s'),
       ("nodata_value".toList, v)])
    (ha : parseInt a = some (nc : ℤ)) (hb : parseInt b = some (nr : ℤ)) (hc : parseFloat c = some (.num X))
    (hd : parseFloat d = some (.num Y)) (hs : parseFloat s = some (.num C)) (hs' : parseFloat s' = some (.num D))
    (hv : parseFloat v = some N) (hC : C ≠ 0) (hD : D ≠ 0)
    {rows : List (List Flt)} (hbody : genfromtxt (readLines body) = .ok rows) (hnr : 2 ≤ nr) (hnc : 2 ≤ nc)
    (hrows : rows.length = nr) (hcols : ∀ r ∈ rows, r.length = nc) :
    readAscGrid (fileOf lines body) = .ok
      { grid := rows.reverse
        x := axis (if corner then X + C / 2 else X) C nc
        y := axis (if corner then Y + D / 2 else Y) D nr
        cellsize := .pair C D, noData := N } := by
  have hstd : Standard (E.map Prod.fst) := by
    have := hE.map Prod.fst
    simp only [List.map_map, List.map_cons, List.map_nil] at this
    cases corner
    · exact ⟨["ncols", "nrows", "xllcenter", "yllcenter", "dx", "dy", "nodata_value"], by decide, by
        simp only [List.map_map]; exact this⟩
    · exact ⟨["ncols", "nrows", "xllcorner", "yllcorner", "dx", "dy", "nodata_value"], by decide, by
        simp only [List.map_map]; exact this⟩
  obtain ⟨S, hS, hp⟩ := Standard.fields hstd
  have hn := hp.nodup_iff.2 (standard_nodup hS)
  have hperm : (entries E).Perm [(.ncols, a), (.nrows, b), (if corner then .xcorner else .xcenter, c),
      (if corner then .ycorner else .ycenter, d), (.dx, s), (.dy, s'), (.noData, v)] := by
    have := hE.map fun p : Text × Text => (fieldD p.1, p.2)
    simp only [List.map_map, List.map_cons, List.map_nil] at this
    cases corner <;> exact this
  have hput : putAll {} (entries E) = .ok (if corner then
      { ncols := some (nc : ℤ), nrows := some (nr : ℤ), xllcorner := some X, yllcorner := some Y, dx := some C, dy := some D, noData := some N }
      else { ncols := some (nc : ℤ), nrows := some (nr : ℤ), xllcenter := some X, yllcenter := some Y, dx := some C, dy := some D, noData := some N }) := by
    rw [putAll_perm hperm hn]
    cases corner <;>
      simp [putAll, AscHeader.put, pyInt, pyCoord, pyFloat, ha, hb, hc, hd, hs, hs', hv]
  unfold readAscGrid
  rw [readHeader_of hl hstd, hput, py_map_ok, py_ok_bind]
  dsimp only
  rw [hbody, py_ok_bind]
  cases corner
  · change (do
      checkShape rows (nr : ℤ) (nc : ℤ)
      let (x, y, c) ← (do
        let x ← arange X (X + ((nc : ℤ) : ℚ) * C) C
        let y ← arange Y (Y + ((nr : ℤ) : ℚ) * D) D
        return (trim x nc, trim y nr, CellSize.pair C D) : Py _)
      return { grid := _, x := x, y := y, cellsize := c, noData := _ } : Py AscGrid) = _
    rw [checkShape_full hnr hnc hrows hcols, arange_axis hC, arange_axis hD]
    simp [trim_axis]
  · change (do
      checkShape rows (nr : ℤ) (nc : ℤ)
      let (x, y, c) ← (do
        let x ← arange (X + C / 2) (X + C / 2 + ((nc : ℤ) : ℚ) * C) C
        let y ← arange (Y + D / 2) (Y + D / 2 + ((nr : ℤ) : ℚ) * D) D
        return (trim x nc, trim y nr, CellSize.pair C D) : Py _)
      return { grid := _, x := x, y := y, cellsize := c, noData := _ } : Py AscGrid) = _
    rw [checkShape_full hnr hnc hrows hcols, arange_axis hC, arange_axis hD]
    simp [trim_axis]

end

/-! ### The hypotheses can be met -/

namespace Demo

/-- A header in mixed case and an unusual order, with its entries. -/
def mixed : List (Text × Text) :=
  [("NoData_Value".toList, "-9".toList), ("CELL_SIZE".toList, "0.5".toList), ("yllCorner".toList, "3".toList),
   ("XLLCORNER".toList, "-1.25".toList), ("nrows".toList, "2".toList), ("NCols".toList, "3".toList)]

def lineOf (e : Text × Text) : Text := ' ' :: (e.1 ++ ('\t' :: ' ' :: (e.2 ++ [' '])))

def body23 : Text := "1 2 3\n4 5.5 1e2\n".toList

theorem lineOf_header {e : Text × Text} (h1 : e.1 ≠ []) (h2 : (e.1.all fun c => !c.isWhitespace) = true) (h3 : e.2 ≠ [])
    (h4 : (e.2.all fun c => !c.isWhitespace) = true) : HeaderLine (lineOf e) e := by
  have w1 : Word e.1 := ⟨h1, fun c hc => by simpa using List.all_eq_true.1 h2 c hc⟩
  have w2 : Word e.2 := ⟨h3, fun c hc => by simpa using List.all_eq_true.1 h4 c hc⟩
  refine ⟨?_, w1, w2, [' '], ['\t', ' '], [' '], by simp [Blank], by intro c hc; simp at hc; rcases hc with rfl | rfl <;> rfl,
    by simp [Blank], by simp, rfl⟩
  intro h
  simp only [lineOf, List.mem_cons, List.mem_append, List.not_mem_nil, or_false] at h
  rcases h with h | h | h | h | h | h
  · cases h
  · exact newline_not_word w1 h
  · cases h
  · cases h
  · exact newline_not_word w2 h
  · cases h

theorem mixed_lines : List.Forall₂ HeaderLine (mixed.map lineOf) mixed := by
  unfold mixed
  simp only [List.map_cons, List.map_nil]
  repeat' first
    | exact List.Forall₂.nil
    | refine List.Forall₂.cons (lineOf_header (by decide) (by decide) (by decide) (by decide)) ?_

theorem mixed_perm : (mixed.map fun e => (canonical e.1, e.2)).Perm
    [("ncols".toList, "3".toList), ("nrows".toList, "2".toList), ("xllcorner".toList, "-1.25".toList),
     ("yllcorner".toList, "3".toList), ("cellsize".toList, "0.5".toList), ("nodata_value".toList, "-9".toList)] := by
  decide

example : readAscGrid (fileOf (mixed.map lineOf) body23) = .ok
    { grid := [[.num 4, .num (11 / 2), .num 100], [.num 1, .num 2, .num 3]]
      x := axis (-1) (1 / 2) 3, y := axis (13 / 4) (1 / 2) 2, cellsize := .both (1 / 2), noData := .num (-9) } := by
  have hb : genfromtxt (readLines body23) =
      .ok [[.num 1, .num 2, .num 3], [.num 4, .num (11 / 2), .num 100]] := by
    decide +kernel
  have := C33_meaning_cellsize true (body := body23) (nr := 2) (nc := 3) (X := -5 / 4) (Y := 3) (C := 1 / 2) (N := .num (-9))
    mixed_lines mixed_perm (by decide +kernel) (by decide +kernel) (by decide +kernel) (by decide +kernel) (by decide +kernel)
    (by decide +kernel) (by norm_num) hb (by norm_num) (by norm_num) rfl (by decide)
  rw [this]
  norm_num

/-- The same header in the usual order and in capitals. -/
def usual : List (Text × Text) :=
  [("NCOLS".toList, "3".toList), ("NROWS".toList, "2".toList), ("XLLCORNER".toList, "-1.25".toList),
   ("YLLCORNER".toList, "3".toList), ("CELLSIZE".toList, "0.5".toList), ("NODATA_VALUE".toList, "-9".toList)]

theorem usual_lines : List.Forall₂ HeaderLine (usual.map lineOf) usual := by
  unfold usual
  simp only [List.map_cons, List.map_nil]
  repeat' first
    | exact List.Forall₂.nil
    | refine List.Forall₂.cons (lineOf_header (by decide) (by decide) (by decide) (by decide)) ?_

theorem mixed_standard : Standard (mixed.map Prod.fst) :=
  ⟨["ncols", "nrows", "xllcorner", "yllcorner", "cellsize", "nodata_value"], by decide, by decide⟩

example : readAscGrid (fileOf (usual.map lineOf) body23) = readAscGrid (fileOf (mixed.map lineOf) body23) :=
  C33_any_order mixed_lines usual_lines mixed_standard (by decide)

theorem mixed_readable : ∀ e ∈ mixed, Readable e := by
  intro e he
  simp only [mixed, List.mem_cons, List.not_mem_nil, or_false] at he
  rcases he with rfl | rfl | rfl | rfl | rfl | rfl
  · exact ⟨.num (-9), by decide +kernel⟩
  · exact ⟨1 / 2, by decide +kernel⟩
  · exact ⟨3, by decide +kernel⟩
  · exact ⟨-5 / 4, by decide +kernel⟩
  · exact ⟨2, by decide +kernel⟩
  · exact ⟨3, by decide +kernel⟩

/-- One row too many. -/
example : readAscGrid (fileOf (mixed.map lineOf) "1 2 3\n4 5 6\n7 8 9".toList) = .error .ioError := by
  refine C33_size (e1 := ("NCols".toList, "3".toList)) (e2 := ("nrows".toList, "2".toList)) (nc := 3) (nr := 2) (c := 3)
    (rows := [[.num 1, .num 2, .num 3], [.num 4, .num 5, .num 6], [.num 7, .num 8, .num 9]])
    mixed_lines mixed_standard mixed_readable (by decide) (by decide) (by decide +kernel) (by decide) (by decide)
    (by decide +kernel) (by decide +kernel) (by decide) (by norm_num) (by decide) (.inl (by decide))

/-- A misspelt keyword after the first two lines. -/
example : readAscGrid (fileOf ((mixed.take 2).map lineOf ++ lineOf ("YLLCORNR".toList, "3".toList) ::
    (mixed.drop 3).map lineOf) body23) = .error .ioError := by
  refine C33_unknown (E := mixed.take 2) ?_ (fun e he => mixed_readable e (List.mem_of_mem_take he))
    ⟨(mixed.drop 2).map Prod.fst, by decide, ?_⟩
    (lineOf_header (e := ("YLLCORNR".toList, "3".toList)) (by decide) (by decide) (by decide) (by decide)) (by decide)
    _ (by decide)
  · exact .cons (lineOf_header (by decide) (by decide) (by decide) (by decide))
      (.cons (lineOf_header (by decide) (by decide) (by decide) (by decide)) .nil)
  · rw [← List.map_append, List.take_append_drop]
    exact mixed_standard

/-- A correct file with a single row is refused. -/
example : ∃ e, readAscGrid (fileOf (mixed.map lineOf) "1 2 3\n".toList) = .error e :=
  C33_single_refused mixed_lines mixed_standard (rows := [[.num 1, .num 2, .num 3]]) (by decide +kernel) (.inl rfl)

end Demo

end PyKrige
