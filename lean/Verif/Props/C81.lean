import Verif.Lemmas.Numbers
import Verif.Props.C33
import Verif.Props.C72

/-!
C81: numbers in grid files, in any notation.

What a number in a grid file means is given by `Spec/Numbers.lean` (signs, decimal points, powers of ten, undefined and
infinite numbers); the statements here say what whole ASC and ZMAP files of other programs mean in these terms.
-/

namespace PyKrige
open Spec

/-! ### Specification -/

/-- The value of a header entry can be read: integers for the numbers of columns and rows, finite numbers for coordinates
and cell sizes, any float for the no-data value. -/
def Spec.EntryText (e : Text × Text) : Prop :=
  if canonical e.1 = "ncols".toList ∨ canonical e.1 = "nrows".toList then ∃ n, IntText e.2 n
  else if canonical e.1 = "nodata_value".toList then ∃ v, FltText e.2 v
  else ∃ q, FltText e.2 (.num q)

/-- The words of a line of a ZMAP file: commas do not count. -/
def Spec.ZWords (l : Text) (ws : List Text) : Prop := ∃ us, Words l us ∧ ws = us.map fun w => w.filter (· ≠ ',')

/-- The first word of a line begins with this character. -/
def Spec.ZBegins (l : Text) (c : Char) : Prop := ∃ w ws, ZWords l (w :: ws) ∧ w.head? = some c

/-- The header of a ZMAP file: a line that begins with `@`, the line with the no-data value, the line with the size and the
extent, any further lines, and another line that begins with `@`; comments and the coordinate system they name in front. -/
structure Spec.ZmapHeadText (head : List Text) (nx ny : ℕ) (x0 x1 y0 y1 : ℚ) (noData : Flt) (cs : Text) : Prop where
  parts : ∃ comments a l2 l3 more b, head = comments ++ a :: l2 :: l3 :: more ++ [b] ∧
    CommentsName comments cs ∧ ZBegins a '@' ∧ ZBegins b '@' ∧
    (∀ l ∈ more, ∃ w ws, ZWords l (w :: ws) ∧ w.head? ≠ some '!' ∧ w.head? ≠ some '@') ∧
    (∃ w0 w1 ws, ZWords l2 (w0 :: w1 :: ws) ∧ w0.head? ≠ some '!' ∧ w0.head? ≠ some '@' ∧ FltText w1 noData) ∧
    (∃ w0 w1 w2 w3 w4 w5 ws, ZWords l3 (w0 :: w1 :: w2 :: w3 :: w4 :: w5 :: ws) ∧ IntText w0 ny ∧
      IntText w1 nx ∧ FltText w2 (.num x0) ∧ FltText w3 (.num x1) ∧ FltText w4 (.num y0) ∧ FltText w5 (.num y1))

/-- The body of a ZMAP file: lines of numbers, and comments. -/
inductive Spec.ZmapNumbers : List Text → List Flt → Prop
  | none : ZmapNumbers [] []
  | numbers {l : Text} {w : Text} {ws : List Text} {vs us : List Flt} {rest : List Text} : ZWords l (w :: ws) →
      List.Forall₂ FltText (w :: ws) vs → ZmapNumbers rest us → ZmapNumbers (l :: rest) (vs ++ us)
  | comment {l : Text} {us : List Flt} {rest : List Text} : ZComment l → ZmapNumbers rest us → ZmapNumbers (l :: rest) us

/-! ### Lemmas -/

theorem rows_genfromtxt {lines : List Text} {last : Text} {R : List (List Flt)} (hR : List.Forall₂ RowText (lines ++ [last]) R)
    {nc : ℕ} (hc : ∀ r ∈ R, r = [] ∨ r.length = nc) :
    genfromtxt (readLines (fileOf lines last)) = .ok (R.filter (· ≠ [])) := by
  have hn : ∀ l ∈ lines ++ [last], '\n' ∉ l := by
    intro l hl
    obtain ⟨i, hi, rfl⟩ := List.mem_iff_getElem.1 hl
    have := (List.forall₂_iff_get.1 hR).2 i hi (by rw [← hR.length_eq]; exact hi)
    exact this.1
  have hm : (lines ++ [last]).map genRow = R := by
    clear hn hc
    generalize lines ++ [last] = L at hR
    induction hR with
    | nil => rfl
    | cons h _ ih => rw [List.map_cons, ih, RowText.genRow h]
  have hf : ((readLines (fileOf lines last)).map genRow).filter (· ≠ []) = R.filter (· ≠ []) := by
    rw [readLines_fileOf fun l hl => hn l (by simp [hl]), ← hm]
    by_cases hl : last = []
    · subst hl
      rw [readLines_nil, List.append_nil, List.map_append, List.filter_append]
      have : genRow [] = [] := by unfold genRow; rw [List.takeWhile_nil, pySplit_nil]; rfl
      simp [this]
    · rw [readLines_last (hn last (by simp)) hl]
  unfold genfromtxt
  dsimp only
  rw [hf]
  cases he : R.filter (· ≠ []) with
  | nil => rfl
  | cons r rs =>
    dsimp only
    rw [if_pos]
    have hall : ∀ s ∈ r :: rs, s.length = nc := by
      intro s hs
      rw [← he, List.mem_filter] at hs
      exact (hc s hs.1).resolve_left (by simpa using hs.2)
    simp only [List.all_eq_true, decide_eq_true_eq]
    intro s hs
    rw [hall s hs, hall r (by simp)]

theorem fileOf_append (a b : List Text) (t : Text) : fileOf (a ++ b) t = fileOf a (fileOf b t) := by
  unfold fileOf
  simp

theorem putAll_unreadable {l : List (Field × Text)} (hr : ∃ p ∈ l, readable p.1 p.2 = false) (h : AscHeader) :
    putAll h l = .error .valueError := by
  induction l generalizing h with
  | nil => obtain ⟨p, hp, -⟩ := hr; cases hp
  | cons p l ih =>
    rw [putAll]
    rcases h.put_cases p.1 p.2 with ⟨e1, h1, e⟩ | ⟨-, e⟩
    · rw [e, py_ok_bind]
      refine ih ?_ h1
      obtain ⟨q, hq, e2⟩ := hr
      rcases List.mem_cons.1 hq with rfl | hq
      · rw [e1] at e2; cases e2
      · exact ⟨q, hq, e2⟩
    · rw [e]; rfl

theorem entry_unreadable {e : Text × Text} (h : ¬ EntryText e) (hk : canonical e.1 ∈ keywords) :
    readable (fieldD (canonical e.1)) e.2 = false := by
  unfold EntryText at h
  generalize canonical e.1 = k at h hk
  unfold keywords at hk
  simp only [List.mem_cons, List.not_mem_nil, or_false] at hk
  simp only [← parseInt_iff, ← parseFloat_iff] at h
  have e1 : (¬ ∃ n, parseInt e.2 = some n) → (pyInt e.2).isOk = false := fun h => by
    unfold pyInt
    cases hp : parseInt e.2 with
    | none => rfl
    | some n => exact absurd ⟨n, hp⟩ h
  have e2 : (¬ ∃ v, parseFloat e.2 = some v) → (pyFloat e.2).isOk = false := fun h => by
    unfold pyFloat
    cases hp : parseFloat e.2 with
    | none => rfl
    | some n => exact absurd ⟨n, hp⟩ h
  have e3 : (¬ ∃ q, parseFloat e.2 = some (.num q)) → (pyCoord e.2).isOk = false := fun h => by
    unfold pyCoord
    cases hp : parseFloat e.2 with
    | none => rfl
    | some v =>
      cases v with
      | num q => exact absurd ⟨q, hp⟩ h
      | inf b => rfl
      | nan => rfl
  rcases hk with rfl | rfl | rfl | rfl | rfl | rfl | rfl | rfl | rfl | rfl
  · rw [if_pos (Or.inl rfl)] at h
    exact e1 h
  · rw [if_pos (Or.inr rfl)] at h
    exact e1 h
  all_goals rw [if_neg (by decide)] at h
  all_goals first
    | (rw [if_neg (by decide)] at h; exact e3 h)
    | (rw [if_pos rfl] at h; exact e2 h)

theorem ZWords.zfields {l : Text} {ws : List Text} (h : ZWords l ws) : Spec.zfields l = ws := by
  obtain ⟨us, h, rfl⟩ := h
  unfold Spec.zfields
  rw [Words.pySplit h]

theorem ZWords.zfirst {l w : Text} {ws : List Text} (h : ZWords l (w :: ws)) : Spec.zfirst l = w.head? := by
  unfold Spec.zfirst
  rw [ZWords.zfields h]
  rfl

/-- A number does not begin with these characters. -/
theorem parseFloat_head {w : Text} {v : Flt} (h : parseFloat w = some v) : w.head? ≠ some '!' ∧ w.head? ≠ some '@' ∧ w ≠ [] := by
  have h1 : ∀ c, c = '!' ∨ c = '@' → ∀ r, parseFloat (c :: r) = none := by
    intro c hc r
    have hu : parseUnsigned (c :: r) = none := by
      have := parseUnsigned_whole (a := []) (t := c :: r) (by simp) (by
        rintro _ ⟨⟩
        rcases hc with rfl | rfl <;> exact ⟨rfl, by decide⟩)
      rw [List.nil_append, if_pos rfl] at this
      exact this
    have hl : ∀ s : Text, s.head? = some 'n' ∨ s.head? = some 'i' → lower (c :: r) ≠ s := by
      rintro s hs rfl
      have e : (lower (c :: r)).head? = some c.toLower := rfl
      rw [e] at hs
      rcases hc with rfl | rfl <;> revert hs <;> decide
    have : parseFloat (c :: r) = parseAbs false (c :: r) := by
      rcases hc with rfl | rfl <;> rfl
    rw [this]
    unfold parseAbs
    rw [if_neg (hl _ (.inl rfl)), if_neg (fun h => h.elim (hl _ (.inr rfl)) (hl _ (.inr rfl))), hu]
    rfl
  refine ⟨?_, ?_, ?_⟩
  · intro e
    cases w with
    | nil => cases e
    | cons c r => rw [h1 c (.inl (Option.some.inj e)) r] at h; cases h
  · intro e
    cases w with
    | nil => cases e
    | cons c r => rw [h1 c (.inr (Option.some.inj e)) r] at h; cases h
  · rintro rfl
    revert h
    have : parseFloat [] = none := by decide +kernel
    rw [this]
    exact fun h => by cases h

theorem parseInt_head {w : Text} {n : ℤ} (h : parseInt w = some n) : w.head? ≠ some '!' ∧ w.head? ≠ some '@' := by
  have h1 : ∀ c, c = '!' ∨ c = '@' → ∀ r, parseInt (c :: r) = none := by
    intro c hc r
    have : parseInt (c :: r) = (parseNat (c :: r)).map fun n : ℕ => (n : ℤ) := by rcases hc with rfl | rfl <;> rfl
    rw [this]
    have : parseNat (c :: r) = none := by
      unfold parseNat
      rw [if_neg]
      rintro ⟨-, h⟩
      rw [List.all_cons] at h
      rcases hc with rfl | rfl <;> simp at h
    rw [this]
    rfl
  refine ⟨?_, ?_⟩ <;>
  · intro e
    cases w with
    | nil => cases e
    | cons c r => rw [h1 c (by first | exact .inl (Option.some.inj e) | exact .inr (Option.some.inj e)) r] at h; cases h

theorem ZmapHeadText.head {head : List Text} {nx ny : ℕ} {x0 x1 y0 y1 : ℚ} {noData : Flt} {cs : Text}
    (h : ZmapHeadText head nx ny x0 x1 y0 y1 noData cs) : ZmapHead head nx ny x0 x1 y0 y1 noData cs := by
  obtain ⟨comments, a, l2, l3, more, b, e, hc, ⟨wa, wsa, ha, ha'⟩, ⟨wb, wsb, hb, hb'⟩, hmore, ⟨w0, w1, ws, h2, h21, h22, h23⟩,
    v0, v1, v2, v3, v4, v5, vs, h3, i0, i1, f2, f3, f4, f5⟩ := h
  refine ⟨comments, a, l2, l3, more, b, e, hc, ?_, ?_, ?_, ?_, ?_⟩
  · rw [ZWords.zfirst ha, ha']
  · rw [ZWords.zfirst hb, hb']
  · intro l hl
    rcases List.mem_cons.1 hl with rfl | hl
    · rw [ZWords.zfirst h2, ZWords.zfields h2]
      exact ⟨by simp, h21, h22⟩
    · rcases List.mem_cons.1 hl with rfl | hl
      · rw [ZWords.zfirst h3, ZWords.zfields h3]
        obtain ⟨k1, k2⟩ := parseInt_head (parseInt_iff.2 i0)
        exact ⟨by simp, k1, k2⟩
      · obtain ⟨w, ws, hw, k1, k2⟩ := hmore l hl
        rw [ZWords.zfirst hw, ZWords.zfields hw]
        exact ⟨by simp, k1, k2⟩
  · exact ⟨w0, w1, ws, ZWords.zfields h2, parseFloat_iff.2 h23⟩
  · exact ⟨v0, v1, v2, v3, v4, v5, vs, ZWords.zfields h3, parseInt_iff.2 i0, parseInt_iff.2 i1, parseFloat_iff.2 f2,
      parseFloat_iff.2 f3, parseFloat_iff.2 f4, parseFloat_iff.2 f5⟩

theorem ZmapNumbers.body {body : List Text} {vs : List Flt} (h : ZmapNumbers body vs) :
    ZmapBody body ∧ List.Forall₂ (fun w v => parseFloat w = some v) (bodyWords body) vs := by
  induction h with
  | none => exact ⟨(fun l hl => absurd hl (by simp)), .nil⟩
  | @numbers l w ws vs us rest hw hv _ ih =>
    have hp : List.Forall₂ (fun w v => parseFloat w = some v) (w :: ws) vs := hv.imp fun _ _ h => parseFloat_iff.2 h
    have hf : zfirst l ≠ some '!' := by
      rw [ZWords.zfirst hw]
      cases hp with
      | cons h _ => exact (parseFloat_head h).1
    refine ⟨?_, ?_⟩
    · intro m hm
      rcases List.mem_cons.1 hm with rfl | hm
      · exact ⟨by rw [ZWords.zfields hw]; simp, fun e => absurd e hf⟩
      · exact ih.1 m hm
    · unfold bodyWords
      rw [List.filter_cons_of_pos (by simpa using hf), List.flatMap_cons, ZWords.zfields hw]
      exact List.rel_append hp ih.2
  | @comment l us rest hl _ ih =>
    refine ⟨?_, ?_⟩
    · intro m hm
      rcases List.mem_cons.1 hm with rfl | hm
      · refine ⟨?_, fun _ => hl⟩
        obtain ⟨w, ws, e, -⟩ := zfirst_words hl.1
        rw [e]
        simp
      · exact ih.1 m hm
    · unfold bodyWords
      rw [List.filter_cons_of_neg (by simpa using hl.1)]
      exact ih.2

/-- Every text consists of words and blanks. -/
theorem words_pySplit (t : Text) : Words t (pySplit t) := by
  suffices h : ∀ (n : ℕ) (t : Text), t.length ≤ n → Words t (pySplit t) from h _ t le_rfl
  intro n
  induction n with
  | zero =>
    intro t ht
    rw [List.length_eq_zero_iff.1 (Nat.le_zero.1 ht), pySplit_nil]
    exact .none fun c hc => by cases hc
  | succ n ih =>
    intro t ht
    have hb : Blank (t.takeWhile (·.isWhitespace)) := fun c hc => List.mem_takeWhile_imp (p := fun c : Char => c.isWhitespace) hc
    have hs := List.takeWhile_append_dropWhile (p := fun c : Char => c.isWhitespace) (l := t)
    have hn := List.head?_dropWhile_not (fun c : Char => c.isWhitespace) t
    generalize t.takeWhile (·.isWhitespace) = b at *
    generalize t.dropWhile (·.isWhitespace) = u at *
    subst hs
    rw [pySplit_blank hb]
    cases u with
    | nil =>
      rw [pySplit_nil, List.append_nil]
      exact .none hb
    | cons c r =>
      have hc : c.isWhitespace = false := by simpa using hn
      rw [pySplit, if_neg (by rw [hc]; simp)]
      have hw : Word (c :: r.takeWhile (!·.isWhitespace)) := ⟨by simp, fun d hd => by
        rcases List.mem_cons.1 hd with rfl | hd
        · exact hc
        · have := List.mem_takeWhile_imp (p := fun c : Char => !c.isWhitespace) hd
          simpa using this⟩
      have hs := List.takeWhile_append_dropWhile (p := fun c : Char => !c.isWhitespace) (l := r)
      have hn' := List.head?_dropWhile_not (fun c : Char => !c.isWhitespace) r
      generalize r.takeWhile (!·.isWhitespace) = a at *
      generalize r.dropWhile (!·.isWhitespace) = v at *
      subst hs
      cases v with
      | nil =>
        rw [pySplit_nil, List.append_nil]
        exact .last hb hw
      | cons d v =>
        have hd : d.isWhitespace = true := by simpa using hn'
        have e : d :: v = [d] ++ v := rfl
        rw [e, pySplit_blank (by intro x hx; rw [List.mem_singleton.1 hx]; exact hd)]
        have := Words.word hb hw hd (ih v (by
          simp only [List.length_append, List.length_cons] at ht
          omega))
        simpa using this

/-- Every line of a body means something. -/
theorem rowText_genRow {l : Text} (h : '\n' ∉ l) : RowText l (genRow l) := by
  refine ⟨h, l.takeWhile (· ≠ '#'), l.dropWhile (· ≠ '#'), _, (List.takeWhile_append_dropWhile ..).symm, ?_, ?_, words_pySplit _, ?_⟩
  · intro hm
    have := List.mem_takeWhile_imp hm
    simp at this
  · have := List.head?_dropWhile_not (fun c : Char => decide (c ≠ '#')) l
    cases hd : l.dropWhile (· ≠ '#') with
    | nil => exact .inl rfl
    | cons c r =>
      rw [hd] at this
      right
      simpa using this
  · unfold genRow
    generalize pySplit _ = ws
    induction ws with
    | nil => exact .nil
    | cons w ws ih => exact .cons (cell_iff.2 rfl) ih

theorem zwords_zfields (l : Text) : ZWords l (zfields l) := ⟨_, words_pySplit l, rfl⟩

theorem ZmapHead.text {head : List Text} {nx ny : ℕ} {x0 x1 y0 y1 : ℚ} {noData : Flt} {cs : Text}
    (h : ZmapHead head nx ny x0 x1 y0 y1 noData cs) : ZmapHeadText head nx ny x0 x1 y0 y1 noData cs := by
  obtain ⟨comments, a, l2, l3, more, b, e, hc, ha, hb, hl, ⟨w0, w1, ws, h2, f1⟩, v0, v1, v2, v3, v4, v5, vs, h3, i0, i1, f2, f3, f4, f5⟩ := h
  have begins : ∀ {l : Text} {c : Char}, zfirst l = some c → ZBegins l c := by
    intro l c h
    obtain ⟨w, ws, h4, h5⟩ := zfirst_words h
    exact ⟨w, ws, h4 ▸ zwords_zfields l, h5⟩
  have plain : ∀ l ∈ l2 :: l3 :: more, ∀ w ws, zfields l = w :: ws → w.head? ≠ some '!' ∧ w.head? ≠ some '@' := by
    intro l hm w ws he
    obtain ⟨-, k1, k2⟩ := hl l hm
    have : zfirst l = w.head? := ZWords.zfirst (he ▸ zwords_zfields l)
    rw [this] at k1 k2
    exact ⟨k1, k2⟩
  refine ⟨comments, a, l2, l3, more, b, e, hc, begins ha, begins hb, ?_, ?_, ?_⟩
  · intro l hm
    obtain ⟨k0, -, -⟩ := hl l (by simp [hm])
    obtain ⟨w, ws, he⟩ := List.exists_cons_of_ne_nil k0
    exact ⟨w, ws, he ▸ zwords_zfields l, plain l (by simp [hm]) w ws he⟩
  · obtain ⟨k1, k2⟩ := plain l2 (by simp) _ _ h2
    exact ⟨w0, w1, ws, h2 ▸ zwords_zfields l2, k1, k2, parseFloat_iff.1 f1⟩
  · exact ⟨v0, v1, v2, v3, v4, v5, vs, h3 ▸ zwords_zfields l3, parseInt_iff.1 i0, parseInt_iff.1 i1, parseFloat_iff.1 f2,
      parseFloat_iff.1 f3, parseFloat_iff.1 f4, parseFloat_iff.1 f5⟩

/-! ### The property -/

section
variable {lines blines : List Text} {last : Text} {E : List (Text × Text)}

/-- An ASC file with one cell size.  Header: the six entries in any order, letter case and layout.  Body: lines of numbers,
blank lines and comments.  `R` lists what the lines of the body contain, from the top. -/
theorem C81_asc_cellsize (corner : Bool) {a b c d s v : Text} {nr nc : ℕ} {X Y C : ℚ} {N : Flt}
    (hl : List.Forall₂ HeaderLine lines E)
    (hE : (E.map fun e => (canonical e.1, e.2)).Perm
      [("ncols".toList, a), ("nrows".toList, b), ((if corner then "xllcorner" else "xllcenter").toList, c),
       ((if corner then "yllcorner" else "yllcenter").toList, d), ("cellsize".toList, s), ("nodata_value".toList, v)])
    (ha : IntText a nc) (hb : IntText b nr) (hc : FltText c (.num X)) (hd : FltText d (.num Y)) (hs : FltText s (.num C))
    (hv : FltText v N) (hC : C ≠ 0) {R : List (List Flt)} (hR : List.Forall₂ RowText (blines ++ [last]) R)
    (hcols : ∀ r ∈ R, r = [] ∨ r.length = nc) (hrows : (R.filter (· ≠ [])).length = nr) (hnr : 2 ≤ nr) (hnc : 2 ≤ nc) :
    readAscGrid (fileOf (lines ++ blines) last) = .ok
      { grid := (R.filter (· ≠ [])).reverse
        x := axis (if corner then X + C / 2 else X) C nc
        y := axis (if corner then Y + C / 2 else Y) C nr
        cellsize := .both C, noData := N } := by
  rw [fileOf_append]
  refine C33_meaning_cellsize corner hl hE (parseInt_iff.2 ha) (parseInt_iff.2 hb) (parseFloat_iff.2 hc) (parseFloat_iff.2 hd)
    (parseFloat_iff.2 hs) (parseFloat_iff.2 hv) hC (rows_genfromtxt hR hcols) hnr hnc hrows ?_
  intro r hr
  rw [List.mem_filter] at hr
  exact (hcols r hr.1).resolve_left (by simpa using hr.2)

/-- An ASC file with a cell size for each direction. -/
theorem C81_asc_dx_dy (corner : Bool) {a b c d s s' v : Text} {nr nc : ℕ} {X Y C D : ℚ} {N : Flt}
    (hl : List.Forall₂ HeaderLine lines E)
    (hE : (E.map fun e => (canonical e.1, e.2)).Perm
      [("ncols".toList, a), ("nrows".toList, b), ((if corner then "xllcorner" else "xllcenter").toList, c),
       ((if corner then "yllcorner" else "yllcenter").toList, d), ("dx".toList, s), ("dy".toList, s'),
       ("nodata_value".toList, v)])
    (ha : IntText a nc) (hb : IntText b nr) (hc : FltText c (.num X)) (hd : FltText d (.num Y)) (hs : FltText s (.num C))
    (hs' : FltText s' (.num D)) (hv : FltText v N) (hC : C ≠ 0) (hD : D ≠ 0) {R : List (List Flt)}
    (hR : List.Forall₂ RowText (blines ++ [last]) R) (hcols : ∀ r ∈ R, r = [] ∨ r.length = nc)
    (hrows : (R.filter (· ≠ [])).length = nr) (hnr : 2 ≤ nr) (hnc : 2 ≤ nc) :
    readAscGrid (fileOf (lines ++ blines) last) = .ok
      { grid := (R.filter (· ≠ [])).reverse
        x := axis (if corner then X + C / 2 else X) C nc
        y := axis (if corner then Y + D / 2 else Y) D nr
        cellsize := .pair C D, noData := N } := by
  rw [fileOf_append]
  refine C33_meaning_dx_dy corner hl hE (parseInt_iff.2 ha) (parseInt_iff.2 hb) (parseFloat_iff.2 hc) (parseFloat_iff.2 hd)
    (parseFloat_iff.2 hs) (parseFloat_iff.2 hs') (parseFloat_iff.2 hv) hC hD (rows_genfromtxt hR hcols) hnr hnc hrows ?_
  intro r hr
  rw [List.mem_filter] at hr
  exact (hcols r hr.1).resolve_left (by simpa using hr.2)

/-- A header with a value that is not a number is refused, whatever follows. -/
theorem C81_asc_not_a_number (hl : List.Forall₂ HeaderLine lines E) (hs : Standard (E.map Prod.fst))
    (hn : ∃ e ∈ E, ¬ EntryText e) (body : Text) : readAscGrid (fileOf lines body) = .error .valueError := by
  obtain ⟨e, he, hn⟩ := hn
  unfold readAscGrid
  rw [readHeader_of hl hs, putAll_unreadable]
  · rfl
  · exact ⟨_, List.mem_map.2 ⟨e, he, rfl⟩, entry_unreadable hn (Standard.keywords hs e he)⟩

end

section
variable {env : ZEnv} {head body : List Text} {nx ny : ℕ} {x0 x1 y0 y1 : ℚ} {noData : Flt} {cs : Text}

/-- A ZMAP file with as many numbers as its header announces: they fill the columns one after the other, each from the last
row to the first. -/
theorem C81_zmap (h : ZmapHeadText head nx ny x0 x1 y0 y1 noData cs) (hx : 2 ≤ nx) (hy : 2 ≤ ny) (hdx : x0 ≠ x1)
    (hdy : y0 ≠ y1) {t : Text} (ht : HasLines t (head ++ body)) {v : Fin nx → Fin ny → Flt}
    (hv : ZmapNumbers body ((List.finRange nx).flatMap fun n => (List.finRange ny).reverse.map fun m => v n m)) :
    readZmapGrid env t = .ok
      { grid := List.ofFn fun m : Fin ny => List.ofFn fun n : Fin nx => v n m
        x := axis x0 ((x1 - x0) / ((nx : ℚ) - 1)) nx, y := axis y0 ((y1 - y0) / ((ny : ℚ) - 1)) ny
        cellsize := ((x1 - x0) / ((nx : ℚ) - 1), (y1 - y0) / ((ny : ℚ) - 1)), noData := noData, coordSys := cs } :=
  C72_meaning (ZmapHeadText.head h) hx hy hdx hdy (ZmapNumbers.body hv).1 ht (ZmapNumbers.body hv).2

/-- More numbers than announced are refused. -/
theorem C81_zmap_too_many (h : ZmapHeadText head nx ny x0 x1 y0 y1 noData cs) {t : Text} (ht : HasLines t (head ++ body))
    {vs : List Flt} (hv : ZmapNumbers body vs) (hl : ny * nx < vs.length) : readZmapGrid env t = .error .indexError := by
  obtain ⟨h1, h2⟩ := ZmapNumbers.body hv
  refine C72_too_many (ZmapHeadText.head h) h1 ht ?_ (by rw [h2.length_eq]; exact hl)
  clear h1 hl ht hv
  generalize bodyWords body = ws at h2
  intro w hw
  induction h2 with
  | nil => cases hw
  | @cons a b _ _ h _ ih =>
    rcases List.mem_cons.1 hw with rfl | hw
    · exact ⟨b, h⟩
    · exact ih hw

/-- A line with a word that is not a number is refused, wherever it stands in the body. -/
theorem C81_zmap_not_a_number (h : ZmapHeadText head nx ny x0 x1 y0 y1 noData cs) {pre post : List Text} {l : Text} {w : Text}
    {ws : List Text} {t : Text} (ht : HasLines t (head ++ (pre ++ l :: post))) {us : List Flt} (hpre : ZmapNumbers pre us)
    (hw : ZWords l (w :: ws)) (hc : w.head? ≠ some '!') (hn : ∃ u ∈ w :: ws, ∀ v, ¬ FltText u v) {us' : List Flt} (hpost : ZmapNumbers post us') :
    ∃ e, readZmapGrid env t = .error e := by
  obtain ⟨u, hu, hn⟩ := hn
  have hf : zfirst l ≠ some '!' := by rw [ZWords.zfirst hw]; exact hc
  refine C72_not_a_number (ZmapHeadText.head h) (body := pre ++ l :: post) ?_ ht ⟨u, ?_, ?_⟩
  · intro m hm
    rcases List.mem_append.1 hm with hm | hm
    · exact (ZmapNumbers.body hpre).1 m hm
    · rcases List.mem_cons.1 hm with rfl | hm
      · exact ⟨by rw [ZWords.zfields hw]; simp, fun e => absurd e hf⟩
      · exact (ZmapNumbers.body hpost).1 m hm
  · unfold bodyWords
    rw [List.mem_flatMap]
    refine ⟨l, List.mem_filter.2 ⟨by simp, by simpa using hf⟩, ?_⟩
    rw [ZWords.zfields hw]
    exact hu
  · cases hp : parseFloat u with
    | none => rfl
    | some v => exact absurd (parseFloat_iff.1 hp) (hn v)

end

/-! ### The theorems apply -/

namespace Demo

/-- Numbers as other programs write them. -/
example : FltText "+1.5E-3".toList (.num (3 / 2000)) := by
  have h1 : DigitsAre "1".toList 1 := DigitsAre.digit (d := 1) .none (by norm_num)
  have h5 : DigitsAre "5".toList 5 := DigitsAre.digit (d := 5) .none (by norm_num)
  have h3 : DigitsAre "3".toList 3 := DigitsAre.digit (d := 3) .none (by norm_num)
  have := FltText.plus (.num (neg := false) (.power (.point (.inl (by simp)) h1 h5) (.inr rfl) (.minus (by simp) h3)))
  have e : (if false = true then -(((1 : ℕ) : ℚ) + ((5 : ℕ) : ℚ) / 10 ^ "5".toList.length) * 10 ^ (-((3 : ℕ) : ℤ)) else
      (((1 : ℕ) : ℚ) + ((5 : ℕ) : ℚ) / 10 ^ "5".toList.length) * 10 ^ (-((3 : ℕ) : ℤ))) = 3 / 2000 := by decide +kernel
  have e' := this
  simp only [Bool.false_eq_true, if_false] at e e'
  rw [e] at e'
  exact e'
example : FltText ".5".toList (.num (1 / 2)) := parseFloat_iff.1 (by decide +kernel)
example : FltText "1.".toList (.num 1) := parseFloat_iff.1 (by decide +kernel)
example : FltText "-Infinity".toList (.inf true) := .minus (.inf (.inr (by decide)))
/-- `1,5` is not a number. -/
example (v : Flt) : ¬ FltText "1,5".toList v := fun h => by
  have := parseFloat_iff.2 h
  have e : parseFloat "1,5".toList = none := by decide +kernel
  rw [e] at this
  cases this

/-- A body with a blank line, a comment, an unreadable word and unusual numbers. -/
def freeBody : List Text := ["# top".toList, " +1\t2.  .3 # north".toList, [], "4e0 nan void".toList]

theorem freeBody_rows : List.Forall₂ RowText (freeBody ++ [[]])
    [[], [.num 1, .num 2, .num (3 / 10)], [], [.num 4, .nan, .nan], []] := by
  have key : ∀ L : List Text, (∀ l ∈ L, '\n' ∉ l) → List.Forall₂ RowText L (L.map genRow) := by
    intro L hL
    induction L with
    | nil => exact .nil
    | cons l L ih => exact .cons (rowText_genRow (hL l (by simp))) (ih fun m hm => hL m (by simp [hm]))
  have := key (freeBody ++ [[]]) (by decide +kernel)
  have e : (freeBody ++ [[]]).map genRow = [[], [.num 1, .num 2, .num (3 / 10)], [], [.num 4, .nan, .nan], []] := by decide +kernel
  rw [e] at this
  exact this

example : readAscGrid (fileOf (mixed.map lineOf ++ freeBody) []) = .ok
    { grid := [[.num 4, .nan, .nan], [.num 1, .num 2, .num (3 / 10)]]
      x := axis (-1) (1 / 2) 3, y := axis (13 / 4) (1 / 2) 2, cellsize := .both (1 / 2), noData := .num (-9) } := by
  have := C81_asc_cellsize true (nr := 2) (nc := 3) (X := -5 / 4) (Y := 3) (C := 1 / 2) (N := .num (-9))
    mixed_lines mixed_perm (parseInt_iff.1 (by decide +kernel)) (parseInt_iff.1 (by decide +kernel))
    (parseFloat_iff.1 (by decide +kernel)) (parseFloat_iff.1 (by decide +kernel)) (parseFloat_iff.1 (by decide +kernel))
    (parseFloat_iff.1 (by decide +kernel)) (by norm_num) freeBody_rows (by decide) (by decide) (by norm_num) (by norm_num)
  rw [this]
  decide +kernel

/-- Two cell sizes, lower left centre. -/
def usualDxDy : List (Text × Text) :=
  [("ncols".toList, "3".toList), ("nrows".toList, "+2".toList), ("xllcenter".toList, "1e1".toList),
   ("yllcenter".toList, "-2".toList), ("DX".toList, ".5".toList), ("DY".toList, "2".toList), ("NODATA_value".toList, "NaN".toList)]

theorem usualDxDy_lines : List.Forall₂ HeaderLine (usualDxDy.map lineOf) usualDxDy := by
  unfold usualDxDy
  simp only [List.map_cons, List.map_nil]
  refine .cons ?_ (.cons ?_ (.cons ?_ (.cons ?_ (.cons ?_ (.cons ?_ (.cons ?_ .nil))))))
  all_goals exact lineOf_header (by decide) (by decide) (by decide) (by decide)

example := C81_asc_dx_dy false (nr := 2) (nc := 3) (X := 10) (Y := -2) (C := 1 / 2) (D := 2) (N := .nan)
    usualDxDy_lines (.refl _) (parseInt_iff.1 (by decide +kernel)) (parseInt_iff.1 (by decide +kernel))
    (parseFloat_iff.1 (by decide +kernel)) (parseFloat_iff.1 (by decide +kernel)) (parseFloat_iff.1 (by decide +kernel))
    (parseFloat_iff.1 (by decide +kernel)) (parseFloat_iff.1 (by decide +kernel)) (by norm_num) (by norm_num) freeBody_rows
    (by decide) (by decide) (by norm_num) (by norm_num)

/-- Half a column. -/
def wrongEntry : List (Text × Text) := mixed.dropLast ++ [("NCols".toList, "3.5".toList)]

example (body : Text) : readAscGrid (fileOf (wrongEntry.map lineOf) body) = .error .valueError := by
  refine C81_asc_not_a_number (E := wrongEntry) ?_ ?_ ⟨("NCols".toList, "3.5".toList), by decide, ?_⟩ body
  · have : wrongEntry = [("NoData_Value".toList, "-9".toList), ("CELL_SIZE".toList, "0.5".toList), ("yllCorner".toList, "3".toList),
      ("XLLCORNER".toList, "-1.25".toList), ("nrows".toList, "2".toList), ("NCols".toList, "3.5".toList)] := by decide
    rw [this]
    simp only [List.map_cons, List.map_nil]
    refine .cons ?_ (.cons ?_ (.cons ?_ (.cons ?_ (.cons ?_ (.cons ?_ .nil)))))
    all_goals exact lineOf_header (by decide) (by decide) (by decide) (by decide)
  · have : wrongEntry.map Prod.fst = mixed.map Prod.fst := by decide
    rw [this]
    exact mixed_standard
  · unfold EntryText
    rw [if_pos (.inl (by decide))]
    rintro ⟨n, hn⟩
    have h1 := parseInt_iff.2 hn
    have h2 : parseInt "3.5".toList = none := by decide +kernel
    rw [h2] at h1
    cases h1

theorem zbody2_numbers : ZmapNumbers zbody2 [.num 1, .num 2, .num 3, .num 4, .num (11 / 2), .num 100] := by
  have e1 : zfields "1, 2".toList = ["1".toList, "2".toList] := by decide +kernel
  have e2 : zfields "3 4 5.5 1e2".toList = ["3".toList, "4".toList, "5.5".toList, "1e2".toList] := by decide +kernel
  have h1 : List.Forall₂ FltText ["1".toList, "2".toList] [.num 1, .num 2] :=
    .cons (parseFloat_iff.1 (by decide +kernel)) (.cons (parseFloat_iff.1 (by decide +kernel)) .nil)
  have h2 : List.Forall₂ FltText ["3".toList, "4".toList, "5.5".toList, "1e2".toList]
      [.num 3, .num 4, .num (11 / 2), .num 100] :=
    .cons (parseFloat_iff.1 (by decide +kernel)) (.cons (parseFloat_iff.1 (by decide +kernel))
      (.cons (parseFloat_iff.1 (by decide +kernel)) (.cons (parseFloat_iff.1 (by decide +kernel)) .nil)))
  exact .numbers (vs := [.num 1, .num 2]) (e1 ▸ zwords_zfields _) h1
    (.comment ⟨by decide +kernel, fun _ => by unfold NamesSystem; decide +kernel⟩
      (.numbers (vs := [.num 3, .num 4, .num (11 / 2), .num 100]) (us := []) (e2 ▸ zwords_zfields _) h2 .none))

example (env : ZEnv) := C81_zmap (env := env) (ZmapHead.text zhead_ok) (by norm_num) (by norm_num) (by norm_num) (by norm_num)
  (t := fileOf (zhead ++ zbody2) []) ⟨by decide +kernel, .inl rfl⟩
  (v := ![![.num 3, .num 2, .num 1], ![.num 100, .num (11 / 2), .num 4]]) zbody2_numbers

/-- The body twice. -/
theorem zmapNumbers_append {a b : List Text} {u v : List Flt} (ha : ZmapNumbers a u) (hb : ZmapNumbers b v) :
    ZmapNumbers (a ++ b) (u ++ v) := by
  induction ha with
  | none => exact hb
  | numbers h1 h2 _ ih => rw [List.append_assoc]; exact .numbers h1 h2 ih
  | comment h1 _ ih => exact .comment h1 ih

example (env : ZEnv) : readZmapGrid env (fileOf (zhead ++ (zbody2 ++ zbody2)) []) = .error .indexError :=
  C81_zmap_too_many (ZmapHead.text zhead_ok) ⟨by decide +kernel, .inl rfl⟩ (zmapNumbers_append zbody2_numbers zbody2_numbers)
    (by decide)

example (env : ZEnv) : ∃ e, readZmapGrid env (fileOf (zhead ++ ([] ++ "1 1.2.3".toList :: zbody2)) []) = .error e := by
  have e1 : zfields "1 1.2.3".toList = ["1".toList, "1.2.3".toList] := by decide +kernel
  refine C81_zmap_not_a_number (ZmapHead.text zhead_ok) ⟨by decide +kernel, .inl rfl⟩ .none (e1 ▸ zwords_zfields _) (by decide)
    ⟨"1.2.3".toList, by simp, fun v h => ?_⟩ zbody2_numbers
  have h1 := parseFloat_iff.2 h
  have h2 : parseFloat "1.2.3".toList = none := by decide +kernel
  rw [h2] at h1
  cases h1

end Demo

end PyKrige
