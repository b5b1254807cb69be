import Verif.Model.Footer
import Verif.Props.C33

/-!
C69: lines after the grid (`read_asc_grid(filename, footer)`).

With `footer` the number of lines that follow the grid, the file is read as if they were not there, whatever they say; with
any other number the file is read rightly or not at all. Two lines count differently from what the documentation says:
blank lines, and lines that are only a comment, are not counted.
-/

namespace PyKrige
open Spec

/-- The file `t` with further lines. -/
def Spec.withLines (t : Text) (lines : List Text) : Text :=
  t ++ (if t.getLast? = some '\n' then [] else ['\n']) ++ lines.flatMap (· ++ ['\n'])

/-- A line with a word on it, before any comment sign. -/
def Spec.Worded (l : Text) : Prop := pySplit (l.takeWhile (· ≠ '#')) ≠ []

theorem worded_iff (l : Text) : Worded l ↔ genRow l ≠ [] := by
  unfold Worded genRow
  simp

theorem readLines_lines {fs : List Text} (h : ∀ l ∈ fs, '\n' ∉ l) : readLines (fs.flatMap (· ++ ['\n'])) = fs := by
  induction fs with
  | nil => exact readLines_nil
  | cons l fs ih =>
    rw [List.flatMap_cons, List.append_assoc, List.singleton_append, readLines_line (h l List.mem_cons_self),
      ih fun q hq => h q (List.mem_cons_of_mem _ hq)]

theorem split_newline (t : Text) : '\n' ∉ t ∨ ∃ l t', '\n' ∉ l ∧ t = l ++ '\n' :: t' := by
  induction t with
  | nil => left; simp
  | cons c t ih =>
    by_cases hc : c = '\n'
    · right; exact ⟨[], t, by simp, by rw [hc]; rfl⟩
    · rcases ih with h | ⟨l, t', h, rfl⟩
      · left; simp only [List.mem_cons, not_or]; exact ⟨fun e => hc e.symm, h⟩
      · right; exact ⟨c :: l, t', by simp only [List.mem_cons, not_or]; exact ⟨fun e => hc e.symm, h⟩, rfl⟩

theorem readLines_withLines {t : Text} (ht : t ≠ []) {fs : List Text} (h : ∀ l ∈ fs, '\n' ∉ l) :
    readLines (withLines t fs) = readLines t ++ fs := by
  unfold withLines
  generalize hn : t.length = n
  induction n using Nat.strong_induction_on generalizing t with
  | _ n ih =>
    rcases split_newline t with h1 | ⟨l, t', h1, rfl⟩
    · rw [if_neg, List.append_assoc, List.singleton_append, readLines_line h1, readLines_last h1 ht, readLines_lines h]
      · rfl
      · intro e
        exact h1 (List.mem_of_mem_getLast? e)
    · by_cases h2 : t' = []
      · subst h2
        rw [if_pos (by simp), List.append_nil, List.append_assoc, List.cons_append, readLines_line h1, readLines_line h1,
          readLines_nil, List.nil_append, readLines_lines h]
        rfl
      · have e : (l ++ '\n' :: t').getLast? = t'.getLast? := by
          obtain ⟨a, b, rfl⟩ := List.exists_cons_of_ne_nil h2
          rw [List.getLast?_append, List.getLast?_cons_cons]
          rw [List.getLast?_eq_some_getLast h2]; rfl
        rw [e, readLines_line h1, List.append_assoc, List.append_assoc, List.cons_append, readLines_line h1,
          List.cons_append]
        congr 1
        rw [← List.append_assoc]
        refine ih t'.length ?_ h2 rfl
        rw [← hn, List.length_append, List.length_cons]
        omega

theorem header_append {ls : List Text} {h h' : AscHeader} {r : List Text} (e : readAscHeader h ls = .ok (h', r))
    (fs : List Text) : readAscHeader h (ls ++ fs) = .ok (h', r ++ fs) := by
  induction ls generalizing h with
  | nil => cases e
  | cons l ls ih =>
    rw [List.cons_append]
    unfold readAscHeader at e ⊢
    split at e
    · rename_i key value hs
      obtain ⟨h1, e1, e2⟩ := py_bind_eq_ok.1 e
      rw [e1, py_ok_bind]
      by_cases hc : h1.complete
      · rw [if_pos hc] at e2 ⊢
        cases e2; rfl
      · rw [if_neg hc] at e2 ⊢
        exact ih e2
    · cases e

theorem filter_blank (L : List (List Flt)) : (L.dropWhile (· = [])).filter (· ≠ []) = L.filter (· ≠ []) := by
  induction L with
  | nil => rfl
  | cons a L ih =>
    by_cases h : a = []
    · rw [List.dropWhile_cons_of_pos (by simpa using h), ih, List.filter_cons_of_neg (by simpa using h)]
    · rw [List.dropWhile_cons_of_neg (by simpa using h)]

theorem dropWhile_blank (L : List (List Flt)) (h : L.filter (· ≠ []) ≠ []) (M : List (List Flt)) :
    (L ++ M).dropWhile (· = []) = L.dropWhile (· = []) ++ M := by
  induction L with
  | nil => exact absurd rfl h
  | cons a L ih =>
    by_cases ha : a = []
    · rw [List.cons_append, List.dropWhile_cons_of_pos (by simpa using ha), List.dropWhile_cons_of_pos (by simpa using ha)]
      apply ih
      rwa [List.filter_cons_of_neg (by simpa using ha)] at h
    · rw [List.cons_append, List.dropWhile_cons_of_neg (by simpa using ha), List.dropWhile_cons_of_neg (by simpa using ha)]
      rfl

/-- The rows of a body with further lines. -/
theorem footer_rows {lines : List Text} {rows : List (List Flt)} (h : genfromtxt lines = .ok rows) (hne : rows ≠ [])
    (fs : List Text) : ∃ (A B : List (List Flt × ℕ)) (r : List Flt),
      ((((lines ++ fs).map genRow).dropWhile (· = [])).zipIdx.filter fun p => p.1 ≠ []) = A ++ B ∧
      A.map Prod.fst = rows ∧ rows.head? = some r ∧ (∀ p ∈ A, p.1.length = r.length) ∧
      B.map Prod.fst = (fs.map genRow).filter (· ≠ []) ∧ ∀ p ∈ B, A.length ≤ p.2 := by
  have hrows : rows = (lines.map genRow).filter (· ≠ []) ∧ ∀ s ∈ rows, s.length = (rows.headD []).length := by
    unfold genfromtxt at h
    dsimp only at h
    split at h
    · cases h; exact absurd rfl hne
    · rename_i r l e
      split at h
      · rename_i hall
        cases h
        refine ⟨rfl, ?_⟩
        rw [e] at hall ⊢
        simpa using hall
      · cases h
  obtain ⟨h1, h2⟩ := hrows
  set L := lines.map genRow with hL
  have hd : (L ++ fs.map genRow).dropWhile (· = []) = L.dropWhile (· = []) ++ fs.map genRow := by
    refine dropWhile_blank L ?_ _
    rw [← h1]; exact hne
  have hf : (L.dropWhile (· = [])).filter (· ≠ []) = rows := by
    rw [h1]; exact filter_blank L
  have hz : ∀ (l : List (List Flt)) (k : ℕ), ((l.zipIdx k).filter fun p => p.1 ≠ []).map Prod.fst = l.filter (· ≠ []) := by
    intro l
    induction l with
    | nil => intro k; rfl
    | cons a l ih =>
      intro k
      rw [List.zipIdx_cons, List.filter_cons, List.filter_cons]
      by_cases ha : a ≠ []
      · rw [if_pos (by simpa using ha), if_pos (by simpa using ha), List.map_cons, ih]
      · rw [if_neg (by simpa using ha), if_neg (by simpa using ha), ih]
  obtain ⟨r, rest, hr⟩ := List.exists_cons_of_ne_nil hne
  refine ⟨(L.dropWhile (· = [])).zipIdx.filter (fun p => p.1 ≠ []),
    ((fs.map genRow).zipIdx (L.dropWhile (· = [])).length).filter (fun p => p.1 ≠ []), r, ?_, ?_, ?_, ?_, ?_, ?_⟩
  · rw [List.map_append, hd, List.zipIdx_append, List.filter_append, Nat.zero_add]
  · rw [hz, hf]
  · rw [hr]; rfl
  · intro p hp
    have : p.1 ∈ rows := by
      rw [← hf, ← hz _ 0]
      exact List.mem_map_of_mem hp
    rw [h2 _ this, hr]
    rfl
  · exact hz _ _
  · intro p hp
    have h3 := List.le_snd_of_mem_zipIdx (List.mem_of_mem_filter hp)
    refine le_trans ?_ h3
    exact (List.length_filter_le _ _).trans (by rw [List.length_zipIdx])

theorem genfromtxtFooter_eq {lines : List Text} {rows : List (List Flt)} (h : genfromtxt lines = .ok rows) (hne : rows ≠ [])
    (fs : List Text) (f : ℤ) : ∃ (G : List (List Flt)) (bad : List (List Flt × ℕ)),
      G.length + bad.length = ((fs.map genRow).filter (· ≠ [])).length ∧ (∀ p ∈ bad, rows.length ≤ p.2) ∧
      genfromtxtFooter (lines ++ fs) f =
        let late := (bad.filter fun p => (p.2 : ℤ) + 1 > (rows ++ G).length + bad.length - f).length
        if 0 < f then
          if bad.take (bad.length - late) ≠ [] then .error .valueError
          else if 0 < f - late then .ok ((rows ++ G).take ((rows ++ G).length - (f - late).toNat))
          else .ok (rows ++ G)
        else if bad ≠ [] then .error .valueError
        else .ok (rows ++ G) := by
  obtain ⟨A, B, r, e, hA, hr, hlen, hB, hidx⟩ := footer_rows h hne fs
  have hgA : A.filter (fun p => p.1.length = r.length) = A := List.filter_eq_self.2 fun p hp => by simpa using hlen p hp
  have hbA : A.filter (fun p => p.1.length ≠ r.length) = [] := List.filter_eq_nil_iff.2 fun p hp => by simpa using hlen p hp
  refine ⟨(B.filter fun p => p.1.length = r.length).map Prod.fst, B.filter fun p => p.1.length ≠ r.length, ?_, ?_, ?_⟩
  · rw [← hB, List.length_map, List.length_map]
    have := List.length_eq_length_filter_add (l := B) (fun p => decide (p.1.length = r.length))
    rw [this]
    congr 2
    apply List.filter_congr
    intro p _
    simp
  · intro p hp
    have := hidx p (List.mem_of_mem_filter hp)
    rwa [← hA, List.length_map]
  · have hAne : A ≠ [] := by rintro rfl; exact hne hA.symm
    obtain ⟨a, A', rfl⟩ := List.exists_cons_of_ne_nil hAne
    have ha : a.1 = r := by
      rw [← hA] at hr
      exact Option.some.inj hr
    unfold genfromtxtFooter
    dsimp only
    rw [e, List.cons_append]
    dsimp only
    rw [ha, ← List.cons_append]
    have eg : ((a :: A' ++ B).filter fun p => decide (p.1.length = r.length)) =
        (a :: A') ++ B.filter fun p => decide (p.1.length = r.length) := by
      rw [List.filter_append, hgA]
    have eb : ((a :: A' ++ B).filter fun p => decide (p.1.length ≠ r.length)) =
        B.filter fun p => decide (p.1.length ≠ r.length) := by
      rw [List.filter_append, hbA, List.nil_append]
    rw [eg, eb, List.map_append, hA]

theorem checkShape_rows {rows : List (List Flt)} {nr nc : ℤ} (h : checkShape rows nr nc = .ok ()) :
    nr = rows.length ∧ rows ≠ [] := by
  unfold checkShape at h
  split at h
  · split at h <;> cases h
  · split at h
    · cases h
    · split at h <;> cases h
  · split at h
    · split at h <;> cases h
    · split at h
      · cases h
      · rename_i h1
        push Not at h1
        exact ⟨h1.1, by simp⟩

section
variable {t : Text} {g : AscGrid} {fs : List Text}

theorem readable_parts (h : readAscGrid t = .ok g) : t ≠ [] ∧ ∃ hd rest rows x y c,
    readAscHeader {} (readLines t) = .ok (hd, rest) ∧ genfromtxt rest = .ok rows ∧
    checkShape rows (hd.nrows.getD 0) (hd.ncols.getD 0) = .ok () ∧
    ascCoordinates hd (hd.ncols.getD 0) (hd.nrows.getD 0) = .ok (x, y, c) ∧
    g = { grid := rows.reverse, x := x, y := y, cellsize := c, noData := hd.noData.getD .nan } := by
  refine ⟨?_, ?_⟩
  · rintro rfl
    unfold readAscGrid at h
    rw [readLines_nil] at h
    cases h
  unfold readAscGrid at h
  obtain ⟨⟨hd, rest⟩, h1, h⟩ := py_bind_eq_ok.1 h
  dsimp only at h
  obtain ⟨rows, h2, h⟩ := py_bind_eq_ok.1 h
  obtain ⟨⟨⟩, h3, h⟩ := py_bind_eq_ok.1 h
  obtain ⟨⟨x, y, c⟩, h4, h⟩ := py_bind_eq_ok.1 h
  cases h
  exact ⟨hd, rest, rows, x, y, c, h1, h2, h3, h4, rfl⟩

theorem readFooter_eq (h : readAscGrid t = .ok g) (hn : ∀ l ∈ fs, '\n' ∉ l) (f : ℤ) : ∃ rest rows nr nc,
    genfromtxt rest = .ok rows ∧ rows ≠ [] ∧ checkShape rows nr nc = .ok () ∧ g.grid = rows.reverse ∧
    readAscGridFooter (withLines t fs) f = (do
      let rows' ← genfromtxtFooter (rest ++ fs) f
      checkShape rows' nr nc
      return { g with grid := rows'.reverse }) := by
  obtain ⟨ht, hd, rest, rows, x, y, c, h1, h2, h3, h4, rfl⟩ := readable_parts h
  refine ⟨rest, rows, hd.nrows.getD 0, hd.ncols.getD 0, h2, (checkShape_rows h3).2, h3, rfl, ?_⟩
  unfold readAscGridFooter
  rw [readLines_withLines ht hn, header_append h1]
  simp only [py_ok_bind, h4]

/-- Without `footer` the function is that of C32 and C33. -/
theorem C69_none (h : readAscGrid t = .ok g) : readAscGridFooter t 0 = .ok g := by
  obtain ⟨ht, hd, rest, rows, x, y, c, h1, h2, h3, h4, rfl⟩ := readable_parts h
  obtain ⟨G, bad, hG, -, e⟩ := genfromtxtFooter_eq h2 (checkShape_rows h3).2 [] 0
  rw [List.append_nil] at e
  simp only [List.map_nil, List.filter_nil, List.length_nil, Nat.add_eq_zero_iff, List.length_eq_zero_iff] at hG
  obtain ⟨rfl, rfl⟩ := hG
  unfold readAscGridFooter
  rw [h1]
  simp only [py_ok_bind, e]
  rw [if_neg (by norm_num), if_neg (by simp), List.append_nil]
  simp only [py_ok_bind, h3, h4]
  rfl

/-- A file that can be read, with further lines, none of them blank: read with `footer` their number, it gives what the
file without them gives. -/
theorem C69_footer (h : readAscGrid t = .ok g) (hn : ∀ l ∈ fs, '\n' ∉ l) (hw : ∀ l ∈ fs, Worded l) :
    readAscGridFooter (withLines t fs) fs.length = .ok g := by
  obtain ⟨rest, rows, nr, nc, h1, h2, h3, h4, h5⟩ := readFooter_eq h hn fs.length
  obtain ⟨G, bad, hG, hbad, e⟩ := genfromtxtFooter_eq h1 h2 fs fs.length
  have hall : ((fs.map genRow).filter (· ≠ [])).length = fs.length := by
    rw [List.filter_eq_self.2, List.length_map]
    intro a ha
    obtain ⟨l, hl, rfl⟩ := List.mem_map.1 ha
    simpa using (worded_iff l).1 (hw l hl)
  rw [hall] at hG
  have key : genfromtxtFooter (rest ++ fs) fs.length = .ok rows := by
    rw [e]
    dsimp only
    have hl : (bad.filter fun p => (p.2 : ℤ) + 1 > (rows ++ G).length + bad.length - (fs.length : ℤ)) = bad := by
      rw [List.filter_eq_self]
      intro p hp
      have := hbad p hp
      rw [decide_eq_true_eq, List.length_append]
      push_cast
      omega
    rw [hl]
    by_cases hz : fs.length = 0
    · have hb : bad = [] := List.length_eq_zero_iff.1 (by omega)
      have hg : G = [] := List.length_eq_zero_iff.1 (by omega)
      rw [if_neg (by omega), if_neg (by simp [hb]), hg, List.append_nil]
    · rw [if_pos (by omega), if_neg (by simp)]
      by_cases hgz : G = []
      · rw [hgz] at hG ⊢
        rw [if_neg (by simp at hG; omega), List.append_nil]
      · have : 0 < G.length := List.length_pos_iff.2 hgz
        rw [if_pos (by omega)]
        have e2 : (rows ++ G).length - ((fs.length : ℤ) - bad.length).toNat = rows.length := by
          rw [List.length_append]; omega
        rw [e2, List.take_left]
  rw [h5, key]
  simp only [py_ok_bind, h3]
  rw [← h4]
  rfl

/-- With whatever lines after the grid and whatever `footer`: if the file can be read, the grid is the one above the
lines. -/
theorem C69_never_misread (h : readAscGrid t = .ok g) (hn : ∀ l ∈ fs, '\n' ∉ l) {f : ℤ} {g' : AscGrid}
    (hr : readAscGridFooter (withLines t fs) f = .ok g') : g' = g := by
  obtain ⟨rest, rows, nr, nc, h1, h2, h3, h4, h5⟩ := readFooter_eq h hn f
  rw [h5] at hr
  obtain ⟨rows', e1, hr⟩ := py_bind_eq_ok.1 hr
  obtain ⟨⟨⟩, e2, hr⟩ := py_bind_eq_ok.1 hr
  cases hr
  have hlen : rows'.length = rows.length := by
    have := (checkShape_rows e2).1
    rw [(checkShape_rows h3).1] at this
    omega
  obtain ⟨G, bad, -, -, e⟩ := genfromtxtFooter_eq h1 h2 fs f
  have hpre : rows' <+: rows ++ G := by
    rw [e1] at e
    dsimp only at e
    split at e
    · split at e
      · cases e
      · split at e
        · rw [Except.ok.inj e]; exact List.take_prefix _ _
        · rw [Except.ok.inj e]
    · split at e
      · cases e
      · rw [Except.ok.inj e]
  have : rows' = rows := by
    obtain ⟨s, hs⟩ := hpre
    have := congrArg (List.take rows.length) hs
    rw [List.take_left] at this
    rwa [List.take_append_of_le_length (by omega), List.take_of_length_le (by omega)] at this
  rw [this, ← h4]

/-- Lines with words that are not announced make the file unreadable. -/
theorem C69_unannounced (h : readAscGrid t = .ok g) (hn : ∀ l ∈ fs, '\n' ∉ l) (hw : ∃ l ∈ fs, Worded l) :
    ∃ e, readAscGridFooter (withLines t fs) 0 = .error e := by
  obtain ⟨rest, rows, nr, nc, h1, h2, h3, h4, h5⟩ := readFooter_eq h hn 0
  obtain ⟨G, bad, hG, -, e⟩ := genfromtxtFooter_eq h1 h2 fs 0
  have hpos : 0 < G.length + bad.length := by
    rw [hG, List.length_pos_iff]
    obtain ⟨l, hl, hw⟩ := hw
    exact List.ne_nil_of_mem (List.mem_filter.2 ⟨List.mem_map_of_mem hl, by simpa using (worded_iff l).1 hw⟩)
  rw [h5, e]
  dsimp only
  rw [if_neg (by norm_num)]
  by_cases hb : bad = []
  · rw [if_neg (by simp [hb]), py_ok_bind]
    cases hc : checkShape (rows ++ G) nr nc with
    | error e => exact ⟨e, rfl⟩
    | ok u =>
      have h6 := (checkShape_rows hc).1
      rw [(checkShape_rows h3).1, List.length_append] at h6
      rw [hb, List.length_nil] at hpos
      omega
  · rw [if_pos hb]
    exact ⟨_, rfl⟩

/-- Blank lines, and lines that are only a comment, are not counted: if there is one among the lines after the grid and
`footer` is the number of all of them, the file cannot be read. -/
theorem C69_blank_not_counted (h : readAscGrid t = .ok g) (hn : ∀ l ∈ fs, '\n' ∉ l) (hb : ∃ l ∈ fs, ¬ Worded l) :
    ∃ e, readAscGridFooter (withLines t fs) fs.length = .error e := by
  obtain ⟨rest, rows, nr, nc, h1, h2, h3, h4, h5⟩ := readFooter_eq h hn fs.length
  obtain ⟨G, bad, hG, hbad, e⟩ := genfromtxtFooter_eq h1 h2 fs fs.length
  have hlt : ((fs.map genRow).filter (· ≠ [])).length < fs.length := by
    rw [← List.length_map (f := genRow) (as := fs)]
    rw [List.length_filter_lt_length_iff_exists]
    obtain ⟨l, hl, hw⟩ := hb
    exact ⟨_, List.mem_map_of_mem hl, by simpa using fun h => hw ((worded_iff l).2 h)⟩
  rw [← hG] at hlt
  have hrl : 0 < rows.length := List.length_pos_iff.2 h2
  rw [h5, e]
  dsimp only
  have hl : (bad.filter fun p => (p.2 : ℤ) + 1 > (rows ++ G).length + bad.length - (fs.length : ℤ)) = bad := by
    rw [List.filter_eq_self]
    intro p hp
    have := hbad p hp
    rw [decide_eq_true_eq, List.length_append]
    push_cast
    omega
  rw [hl, if_pos (by omega), if_neg (by simp), if_pos (by omega), py_ok_bind]
  cases hc : checkShape ((rows ++ G).take ((rows ++ G).length - ((fs.length : ℤ) - bad.length).toNat)) nr nc with
  | error e => exact ⟨e, rfl⟩
  | ok u =>
    have h6 := (checkShape_rows hc).1
    rw [(checkShape_rows h3).1, List.length_take, List.length_append] at h6
    omega

end

/-! ### Examples -/

open Demo

/-- A file with a remark and a line of numbers after the grid. -/
example : readAscGridFooter (withLines (fileOf (mixed.map lineOf) body23) ["made by hand".toList, "1 2 3 4".toList]) 2 =
    readAscGrid (fileOf (mixed.map lineOf) body23) := by
  have h : ∃ g, readAscGrid (fileOf (mixed.map lineOf) body23) = .ok g := by
    have hb : genfromtxt (readLines body23) =
        .ok [[.num 1, .num 2, .num 3], [.num 4, .num (11 / 2), .num 100]] := by
      decide +kernel
    exact ⟨_, C33_meaning_cellsize true (body := body23) (nr := 2) (nc := 3) (X := -5 / 4) (Y := 3) (C := 1 / 2)
      (N := .num (-9)) mixed_lines mixed_perm (by decide +kernel) (by decide +kernel) (by decide +kernel) (by decide +kernel)
      (by decide +kernel) (by decide +kernel) (by norm_num) hb (by norm_num) (by norm_num) rfl (by decide)⟩
  obtain ⟨g, h⟩ := h
  rw [h]
  refine C69_footer h ?_ ?_
  · decide
  · intro l hl
    simp only [List.mem_cons, List.not_mem_nil, or_false] at hl
    rcases hl with rfl | rfl
    · unfold Worded; decide +kernel
    · unfold Worded; decide +kernel

/-- The same with a blank line in between. -/
example : ∃ e, readAscGridFooter (withLines (fileOf (mixed.map lineOf) body23) ["".toList, "made by hand".toList]) 2 =
    .error e := by
  have hb : genfromtxt (readLines body23) =
      .ok [[.num 1, .num 2, .num 3], [.num 4, .num (11 / 2), .num 100]] := by
    decide +kernel
  refine C69_blank_not_counted (C33_meaning_cellsize true (body := body23) (nr := 2) (nc := 3) (X := -5 / 4) (Y := 3)
    (C := 1 / 2) (N := .num (-9)) mixed_lines mixed_perm (by decide +kernel) (by decide +kernel) (by decide +kernel)
    (by decide +kernel) (by decide +kernel) (by decide +kernel) (by norm_num) hb (by norm_num) (by norm_num) rfl
    (by decide)) ?_ ⟨_, List.mem_cons_self, ?_⟩
  · decide
  · unfold Worded; decide +kernel

end PyKrige
