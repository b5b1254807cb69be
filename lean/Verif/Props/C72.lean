import Verif.Props.C34
import Mathlib.Data.List.TakeWhile

/-!
C72: ZMAP files of other programs.

What `read_zmap_grid` makes of a ZMAP file does not depend on how the numbers are laid out in lines, nor on comments before
the header or between the numbers; the numbers fill the grid column by column, each column from the last row to the first.
Surplus numbers and words that are no numbers are refused; a blank line ends the file; missing numbers are not noticed.
-/

namespace PyKrige
open Spec

/-! ### The format -/

/-- The words of a line; commas do not count. -/
def Spec.zfields (l : Text) : List Text := (pySplit l).map fun w => w.filter (· ≠ ',')

/-- The first character of the first word of a line. -/
def Spec.zfirst (l : Text) : Option Char := (zfields l).head?.bind List.head?

/-- The part of a line in front of the first colon names a coordinate system. -/
def Spec.NamesSystem (l : Text) : Prop := contains "COORDINATE REFERENCE SYSTEM".toList (l.takeWhile (· ≠ ':')) = true

/-- A comment: the first word begins with an exclamation mark; nothing about coordinate systems. -/
def Spec.ZComment (l : Text) : Prop := zfirst l = some '!' ∧ (l.head? = some '!' → ¬ NamesSystem l)

/-- The coordinate system the comments name: the text between the first two colons of the last comment that names one,
`<null>` if none does. -/
inductive Spec.CommentsName : List Text → Text → Prop
  | none : CommentsName [] "<null>".toList
  | comment {ls cs} (l : Text) : CommentsName ls cs → ZComment l → CommentsName (ls ++ [l]) cs
  | system {ls cs} (u c r : Text) : CommentsName ls cs → ':' ∉ u → ':' ∉ c → (u ++ ':' :: c).head? = some '!' →
      NamesSystem u → (r = [] ∨ r.head? = some ':') → CommentsName (ls ++ [u ++ ':' :: c ++ r]) c

/-- The lines of a ZMAP file down to the second line with an at sign. -/
structure Spec.ZmapHead (head : List Text) (nx ny : ℕ) (x0 x1 y0 y1 : ℚ) (noData : Flt) (cs : Text) : Prop where
  parts : ∃ comments a l2 l3 more b, head = comments ++ a :: l2 :: l3 :: more ++ [b] ∧
    CommentsName comments cs ∧ zfirst a = some '@' ∧ zfirst b = some '@' ∧
    (∀ l ∈ l2 :: l3 :: more, zfields l ≠ [] ∧ zfirst l ≠ some '!' ∧ zfirst l ≠ some '@') ∧
    (∃ w0 w1 ws, zfields l2 = w0 :: w1 :: ws ∧ parseFloat w1 = some noData) ∧
    (∃ w0 w1 w2 w3 w4 w5 ws, zfields l3 = w0 :: w1 :: w2 :: w3 :: w4 :: w5 :: ws ∧ parseInt w0 = some (ny : ℤ) ∧
      parseInt w1 = some (nx : ℤ) ∧ parseFloat w2 = some (.num x0) ∧ parseFloat w3 = some (.num x1) ∧
      parseFloat w4 = some (.num y0) ∧ parseFloat w5 = some (.num y1))

/-- The lines of the body: none is blank, comments are allowed. -/
def Spec.ZmapBody (body : List Text) : Prop := ∀ l ∈ body, zfields l ≠ [] ∧ (zfirst l = some '!' → ZComment l)

/-- The words of the body, comments left out. -/
def Spec.bodyWords (body : List Text) : List Text := (body.filter fun l => zfirst l ≠ some '!').flatMap zfields

/-- A file with these lines, with or without a newline at the end. -/
def Spec.HasLines (t : Text) (lines : List Text) : Prop :=
  (∀ l ∈ lines, '\n' ∉ l) ∧ (t = fileOf lines [] ∨ t ++ ['\n'] = fileOf lines [])

/-! ### One line -/

theorem zfirst_bang {l : Text} (h : l.head? = some '!') : zfirst l = some '!' := by
  cases l with
  | nil => cases h
  | cons c l =>
    cases h
    unfold zfirst zfields
    rw [pySplit, if_neg (by decide)]
    rfl

theorem zfirst_words {l : Text} {c : Char} (h : zfirst l = some c) : ∃ w ws, zfields l = w :: ws ∧ w.head? = some c := by
  unfold zfirst at h
  cases hz : zfields l with
  | nil => rw [hz] at h; cases h
  | cons w ws => rw [hz] at h; exact ⟨w, ws, rfl, h⟩

theorem zmapWords_plain {s : ZState} {l : Text} (h : l.head? ≠ some '!') : zmapWords s l = .ok (s, zfields l) := by
  unfold zmapWords
  rw [if_neg h]
  rfl

theorem zmapLoop_note {env : ZEnv} {s : ZState} (hs : s.header = 0 ∨ s.header = -1) {l : Text} (h : ZComment l)
    (ls : List Text) : zmapLoop env s (l :: ls) = zmapLoop env s ls := by
  obtain ⟨w, ws, h1, h2⟩ : ∃ w ws, zmapWords s l = .ok (s, w :: ws) ∧ w.head? = some '!' := by
    by_cases hl : l.head? = some '!'
    · have h3 := h.2 hl
      obtain ⟨r, hr⟩ := splitOn_head ':' l
      refine ⟨l.takeWhile (· ≠ ':'), r, ?_, ?_⟩
      · unfold zmapWords
        rw [if_pos hl, hr]
        exact if_neg h3
      · cases l with
        | nil => cases hl
        | cons c l => cases hl; rfl
    · obtain ⟨w, ws, h3, h4⟩ := zfirst_words h.1
      exact ⟨w, ws, by rw [zmapWords_plain hl, h3], h4⟩
  rw [zmapLoop, h1, py_ok_bind]
  dsimp only
  rw [if_neg (by rw [h2]; simp), py_ok_bind, if_neg (by rw [h2]; decide)]
  have hz : zmapHeaderLine env s (w :: ws) = .ok s := by
    unfold zmapHeaderLine
    rw [if_neg (by rcases hs with hs | hs <;> rw [hs] <;> norm_num)]
  rw [hz, py_ok_bind]

theorem zmapLoop_name {env : ZEnv} {s : ZState} (hs : s.header = 0) {u c r : Text} (hu : ':' ∉ u) (hc : ':' ∉ c)
    (hh : (u ++ ':' :: c).head? = some '!') (hn : NamesSystem u) (hr : r = [] ∨ r.head? = some ':') (ls : List Text) :
    zmapLoop env s ((u ++ ':' :: c ++ r) :: ls) = zmapLoop env { s with coordSys := c } ls := by
  have hu0 : u.head? = some '!' := by
    cases u with
    | nil => cases hh
    | cons d u => exact hh
  have h0 : (u ++ ':' :: c ++ r).head? = some '!' := by
    cases u with
    | nil => cases hu0
    | cons d u => exact hu0
  have hut : u.takeWhile (· ≠ ':') = u := by
    rw [List.takeWhile_eq_self_iff]
    intro d hd
    simp only [ne_eq, decide_eq_true_eq]
    rintro rfl
    exact hu hd
  obtain ⟨q, hq⟩ : ∃ q, splitOn ':' (u ++ ':' :: c ++ r) = u :: c :: q := by
    rw [List.append_assoc, List.cons_append, splitOn_at hu]
    rcases hr with rfl | hr
    · rw [List.append_nil, splitOn_none hc]; exact ⟨[], rfl⟩
    · cases r with
      | nil => cases hr
      | cons d r => cases hr; rw [splitOn_at hc]; exact ⟨_, rfl⟩
  have hzw : zmapWords s (u ++ ':' :: c ++ r) = .ok ({ s with coordSys := c }, u :: c :: q) := by
    unfold zmapWords
    rw [if_pos h0, hq]
    unfold NamesSystem at hn
    rw [hut] at hn
    exact (if_pos hn).trans rfl
  rw [zmapLoop, hzw, py_ok_bind]
  dsimp only
  rw [if_neg (by rw [hs]; simp), py_ok_bind, if_neg (by rw [hu0]; decide)]
  have hz : zmapHeaderLine env { s with coordSys := c } (u :: c :: q) = .ok { s with coordSys := c } := by
    unfold zmapHeaderLine
    rw [if_neg (by change ¬ 0 < s.header; rw [hs]; norm_num)]
  rw [hz, py_ok_bind]

theorem zmapLoop_names {env : ZEnv} {comments : List Text} {cs : Text} (h : CommentsName comments cs) (d : List Flt)
    (ls : List Text) :
    zmapLoop env { data := d } (comments ++ ls) = zmapLoop env { data := d, coordSys := cs } ls := by
  induction h generalizing ls with
  | none => rfl
  | comment l _ h2 ih =>
    rw [List.append_assoc, ih]
    exact zmapLoop_note (.inl rfl) h2 ls
  | system u c r _ h1 h2 h3 h4 h5 ih =>
    rw [List.append_assoc, ih]
    exact zmapLoop_name rfl h1 h2 h3 h4 h5 ls

theorem zmapLoop_sign {env : ZEnv} {s : ZState} {l : Text} (h : zfirst l = some '@') (h0 : s.header ≠ -1) (ls : List Text) :
    zmapLoop env s (l :: ls) = zmapLoop env { s with header := if s.header = 0 then 2 else -1 } ls := by
  have hl : l.head? ≠ some '!' := fun e => by rw [zfirst_bang e] at h; cases h
  obtain ⟨w, ws, h1, h2⟩ := zfirst_words h
  rw [zmapLoop, zmapWords_plain hl, py_ok_bind, h1]
  dsimp only
  rw [if_neg (fun e => h0 e.1), py_ok_bind, if_pos h2]
  unfold zmapHeaderLine
  by_cases hs : s.header = 0
  · rw [if_pos hs, if_pos hs]
    rfl
  · rw [if_neg hs, if_neg hs]
    rfl

theorem zmapLoop_line {env : ZEnv} {s : ZState} {l : Text} (h1 : zfields l ≠ []) (h2 : zfirst l ≠ some '!')
    (h3 : zfirst l ≠ some '@') (h0 : s.header ≠ -1) (ls : List Text) :
    zmapLoop env s (l :: ls) = (zmapHeaderLine env s (zfields l) >>= fun s' => zmapLoop env s' ls) := by
  have hl : l.head? ≠ some '!' := fun e => h2 (zfirst_bang e)
  obtain ⟨w, ws, hw⟩ := List.exists_cons_of_ne_nil h1
  have h3' : w.head? ≠ some '@' := by
    unfold zfirst at h3
    rw [hw] at h3
    exact h3
  rw [zmapLoop, zmapWords_plain hl, py_ok_bind, hw]
  dsimp only
  rw [if_neg (fun e => h0 e.1), py_ok_bind, if_neg h3']

theorem zmapLoop_more {env : ZEnv} {more : List Text}
    (h : ∀ l ∈ more, zfields l ≠ [] ∧ zfirst l ≠ some '!' ∧ zfirst l ≠ some '@') {s : ZState} (hs : 4 ≤ s.header)
    {b : Text} (hb : zfirst b = some '@') (ls : List Text) :
    zmapLoop env s (more ++ b :: ls) = zmapLoop env { s with header := -1 } ls := by
  induction more generalizing s with
  | nil =>
    rw [List.nil_append, zmapLoop_sign hb (by omega), if_neg (by omega)]
  | cons l more ih =>
    obtain ⟨h1, h2, h3⟩ := h l List.mem_cons_self
    rw [List.cons_append, zmapLoop_line h1 h2 h3 (by omega)]
    have hz : zmapHeaderLine env s (zfields l) = .ok { s with header := s.header + 1 } := by
      unfold zmapHeaderLine
      rw [if_pos (by omega), if_neg (by omega), if_neg (by omega)]
      rfl
    rw [hz, py_ok_bind, ih (fun q hq => h q (List.mem_cons_of_mem _ hq)) (by change 4 ≤ s.header + 1; omega)]

/-- The state after the header. -/
def zmapBegin (env : ZEnv) (nx ny : ℕ) (x0 x1 y0 y1 : ℚ) (noData : Flt) (cs : Text) : ZState where
  header := -1
  iValue := 0
  data := (List.range (ny * nx)).map env.fresh
  noData := noData
  nx := nx
  ny := ny
  originx := x0
  originy := y0
  maxx := x1
  maxy := y1
  coordSys := cs

section
variable {env : ZEnv} {head : List Text} {nx ny : ℕ} {x0 x1 y0 y1 : ℚ} {noData : Flt} {cs : Text}

/-- The header up to the line with the size. -/
theorem zmapLoop_size {comments : List Text} {a l2 l3 : Text} (hc : CommentsName comments cs) (ha : zfirst a = some '@')
    (hm : ∀ l ∈ [l2, l3], zfields l ≠ [] ∧ zfirst l ≠ some '!' ∧ zfirst l ≠ some '@')
    (h2 : ∃ w0 w1 ws, zfields l2 = w0 :: w1 :: ws ∧ parseFloat w1 = some noData)
    (h3 : ∃ w0 w1 w2 w3 w4 w5 ws, zfields l3 = w0 :: w1 :: w2 :: w3 :: w4 :: w5 :: ws ∧ parseInt w0 = some (ny : ℤ) ∧
      parseInt w1 = some (nx : ℤ) ∧ parseFloat w2 = some (.num x0) ∧ parseFloat w3 = some (.num x1) ∧
      parseFloat w4 = some (.num y0) ∧ parseFloat w5 = some (.num y1)) (ls : List Text) :
    zmapLoop env { data := [env.fresh 0] } (comments ++ a :: l2 :: l3 :: ls) =
      zmapLoop env { zmapBegin env nx ny x0 x1 y0 y1 noData cs with header := 4 } ls := by
  obtain ⟨w0, w1, ws, h2, h2'⟩ := h2
  obtain ⟨v0, v1, v2, v3, v4, v5, vs, h3, e0, e1, e2, e3, e4, e5⟩ := h3
  obtain ⟨p1, p2, p3⟩ := hm l2 (by simp)
  obtain ⟨q1, q2, q3⟩ := hm l3 (by simp)
  rw [zmapLoop_names hc, zmapLoop_sign ha (show (0 : ℤ) ≠ -1 by decide),
    zmapLoop_line p1 p2 p3 (show (if (0 : ℤ) = 0 then (2 : ℤ) else -1) ≠ -1 by decide), h2]
  have z2 : zmapHeaderLine env { header := if (0 : ℤ) = 0 then 2 else -1, data := [env.fresh 0], coordSys := cs }
      (w0 :: w1 :: ws) = .ok { header := 3, data := [env.fresh 0], coordSys := cs, noData := noData } := by
    unfold zmapHeaderLine
    rw [if_pos (show (0 : ℤ) < if (0 : ℤ) = 0 then (2 : ℤ) else -1 by decide), if_pos (by rfl)]
    unfold pyFloat
    simp only [pyGet, List.getElem?_cons_succ, List.getElem?_cons_zero, py_ok_bind, h2']
    rfl
  rw [z2, py_ok_bind, zmapLoop_line q1 q2 q3 (show (3 : ℤ) ≠ -1 by decide), h3]
  have z3 : zmapHeaderLine env { header := 3, data := [env.fresh 0], coordSys := cs, noData := noData }
      (v0 :: v1 :: v2 :: v3 :: v4 :: v5 :: vs) = .ok { zmapBegin env nx ny x0 x1 y0 y1 noData cs with header := 4 } := by
    unfold zmapHeaderLine
    rw [if_pos (show (0 : ℤ) < 3 by decide), if_neg (show ¬ (3 : ℤ) = 2 by decide), if_pos (by rfl)]
    unfold pyInt pyCoord freshArray
    simp only [pyGet, List.getElem?_cons_succ, List.getElem?_cons_zero, py_ok_bind, e0, e1, e2, e3, e4, e5]
    have hneg : ¬ (ny : ℤ) * (nx : ℤ) < 0 := not_lt.2 (by positivity)
    rw [if_neg hneg, py_ok_bind, show ((ny : ℤ) * (nx : ℤ)).toNat = ny * nx by
      rw [← Nat.cast_mul, Int.toNat_natCast]]
    rfl
  rw [z3, py_ok_bind]

theorem zmapLoop_head (h : ZmapHead head nx ny x0 x1 y0 y1 noData cs) (ls : List Text) :
    zmapLoop env { data := [env.fresh 0] } (head ++ ls) = zmapLoop env (zmapBegin env nx ny x0 x1 y0 y1 noData cs) ls := by
  obtain ⟨comments, a, l2, l3, more, b, rfl, hc, ha, hb, hm, h2, h3⟩ := h
  simp only [List.append_assoc, List.cons_append, List.nil_append]
  rw [zmapLoop_size hc ha (fun l hl => hm l (by simp at hl ⊢; tauto)) h2 h3,
    zmapLoop_more (fun l hl => hm l (by simp [hl])) (show (4 : ℤ) ≤ 4 by decide) hb]
  rfl

theorem zmapLoop_numbers {s : ZState} (hs : s.header = -1) {body : List Text} (hb : ZmapBody body) (ls : List Text) :
    zmapLoop env s (body ++ ls) = (storeWords s (bodyWords body) >>= fun s' => zmapLoop env s' ls) := by
  induction body generalizing s with
  | nil => rfl
  | cons l body ih =>
    obtain ⟨h1, h2⟩ := hb l List.mem_cons_self
    have hb' : ZmapBody body := fun q hq => hb q (List.mem_cons_of_mem _ hq)
    unfold bodyWords
    rw [List.cons_append]
    by_cases hl : zfirst l = some '!'
    · rw [List.filter_cons_of_neg (by simp [hl]), zmapLoop_note (.inr hs) (h2 hl)]
      exact ih hs hb'
    · rw [List.filter_cons_of_pos (by simp [hl]), List.flatMap_cons, storeWords_append]
      obtain ⟨w, ws, hw⟩ := List.exists_cons_of_ne_nil h1
      have hf : w.head? ≠ some '!' := by
        unfold zfirst at hl
        rw [hw] at hl
        exact hl
      rw [zmapLoop, zmapWords_plain (fun e => hl (zfirst_bang e)), py_ok_bind, hw]
      dsimp only
      rw [if_pos ⟨hs, hf⟩]
      cases hst : storeWords s (w :: ws) with
      | error e => rfl
      | ok s' =>
        have hs' : s'.header = -1 := by rw [storeWords_header hst, hs]
        have hat : w.head? ≠ some '@' := by
          rw [storeWords] at hst
          obtain ⟨v, hv, -⟩ := py_bind_eq_ok.1 hst
          unfold pyFloat at hv
          split at hv
          · rename_i f hf'
            exact (parse_plain hf').2
          · cases hv
        rw [py_ok_bind, py_ok_bind, if_neg hat]
        have hz : zmapHeaderLine env s' (w :: ws) = .ok s' := by
          unfold zmapHeaderLine
          rw [if_neg (by rw [hs']; norm_num)]
        rw [hz, py_ok_bind]
        exact ih hs' hb'

theorem readLines_hasLines {t : Text} {lines : List Text} (h : HasLines t lines) (hne : ∀ l ∈ lines.getLast?, l ≠ []) :
    readLines t = lines := by
  obtain ⟨h1, rfl | h2⟩ := h
  · rw [readLines_fileOf h1, readLines_nil, List.append_nil]
  · rcases List.eq_nil_or_concat lines with rfl | ⟨ls, l, rfl⟩
    · unfold fileOf at h2
      simp at h2
    · rw [List.concat_eq_append] at *
      have hl : l ≠ [] := hne l (by simp)
      have ht : t = fileOf ls l := by
        unfold fileOf at h2 ⊢
        rw [List.flatMap_append, List.flatMap_singleton, List.append_nil, ← List.append_assoc] at h2
        exact List.append_cancel_right h2
      rw [ht, readLines_fileOf fun q hq => h1 q (List.mem_append_left _ hq),
        readLines_last (h1 l (by simp)) hl]

theorem storeWords_full {s : ZState} {ws : List Text} (hv : ∀ w ∈ ws, ∃ v, parseFloat w = some v)
    (h0 : s.iValue ≤ s.data.length) (hlen : s.data.length < s.iValue + ws.length) :
    storeWords s ws = .error .indexError := by
  induction ws generalizing s with
  | nil => simp only [List.length_nil] at hlen; omega
  | cons w ws ih =>
    obtain ⟨v, h⟩ := hv w List.mem_cons_self
    rw [storeWords]
    unfold pyFloat storeAt
    rw [h]
    dsimp only
    rw [py_ok_bind]
    by_cases hl : s.iValue < s.data.length
    · rw [if_pos hl, py_ok_bind]
      refine ih (fun q hq => hv q (List.mem_cons_of_mem _ hq)) ?_ ?_
      · simp only [List.length_set]; omega
      · simp only [List.length_set, List.length_cons] at hlen ⊢; omega
    · rw [if_neg hl]
      rfl

theorem forall2_of_all {ws : List Text} (hv : ∀ w ∈ ws, ∃ v, parseFloat w = some v) :
    ∃ vs, List.Forall₂ (fun w v => parseFloat w = some v) ws vs := by
  induction ws with
  | nil => exact ⟨[], .nil⟩
  | cons w ws ih =>
    obtain ⟨v, h⟩ := hv w List.mem_cons_self
    obtain ⟨vs, h'⟩ := ih fun q hq => hv q (List.mem_cons_of_mem _ hq)
    exact ⟨v :: vs, .cons h h'⟩

theorem head_last {b : Text} (hb : zfirst b = some '@') : b ≠ [] := by
  rintro rfl
  unfold zfirst zfields at hb
  rw [pySplit_nil] at hb
  cases hb

theorem lines_last (h : ZmapHead head nx ny x0 x1 y0 y1 noData cs) {body : List Text} (hb : ZmapBody body) :
    ∀ l ∈ (head ++ body).getLast?, l ≠ [] := by
  intro l hl
  rw [List.getLast?_append] at hl
  cases hbl : body.getLast? with
  | some q =>
    rw [hbl] at hl
    cases hl
    have := (hb _ (List.mem_of_mem_getLast? hbl)).1
    rintro rfl
    unfold zfields at this
    rw [pySplit_nil] at this
    exact this rfl
  | none =>
    rw [hbl] at hl
    obtain ⟨comments, a, l2, l3, more, b, rfl, -, -, hb, -⟩ := h
    rw [Option.none_or, List.getLast?_concat] at hl
    cases hl
    exact head_last hb

/-- What follows the loop (kriging_tools.py:437-459). -/
def zmapEnd (s : ZState) : Py ZmapGrid := do
  if s.nx * s.ny ≠ s.data.length then throw .ioError
  if s.ny < 0 ∨ s.nx < 0 then throw .valueError
  let ny := s.ny.toNat
  let nx := s.nx.toNat
  let z := (List.range ny).map fun m => (List.range nx).map fun n => s.data.getD (n * ny + (ny - 1 - m)) .nan
  if s.nx = 1 ∨ s.ny = 1 then throw .zeroDivisionError
  let dx := (s.maxx - s.originx) / (s.nx - 1)
  let dy := (s.maxy - s.originy) / (s.ny - 1)
  let x ← arange s.originx (s.originx + s.nx * dx) dx
  let y ← arange s.originy (s.originy + s.ny * dy) dy
  return { grid := z, x := x, y := y, cellsize := (dx, dy), noData := s.noData, coordSys := s.coordSys }

theorem readZmap_eq (env : ZEnv) (t : Text) :
    readZmapGrid env t = (zmapLoop env { data := [env.fresh 0] } (readLines t) >>= zmapEnd) := rfl

theorem readZmap_body (h : ZmapHead head nx ny x0 x1 y0 y1 noData cs) {body : List Text} (hb : ZmapBody body) {t : Text}
    (ht : HasLines t (head ++ body)) :
    readZmapGrid env t = (storeWords (zmapBegin env nx ny x0 x1 y0 y1 noData cs) (bodyWords body) >>= zmapEnd) := by
  rw [readZmap_eq, readLines_hasLines ht (lines_last h hb), zmapLoop_head h, ← List.append_nil body,
    zmapLoop_numbers rfl hb]
  rw [List.append_nil]
  cases storeWords (zmapBegin env nx ny x0 x1 y0 y1 noData cs) (bodyWords body) <;> rfl

theorem zmapEnd_eq {s : ZState} (hnx : s.nx = nx) (hny : s.ny = ny) (hx : 2 ≤ nx) (hy : 2 ≤ ny)
    (hl : s.data.length = ny * nx) (hdx : s.originx ≠ s.maxx) (hdy : s.originy ≠ s.maxy) :
    zmapEnd s = .ok { grid := List.ofFn fun m : Fin ny => List.ofFn fun n : Fin nx =>
                        s.data.getD (n * ny + (ny - 1 - m)) .nan
                      x := axis s.originx ((s.maxx - s.originx) / ((nx : ℚ) - 1)) nx
                      y := axis s.originy ((s.maxy - s.originy) / ((ny : ℚ) - 1)) ny
                      cellsize := ((s.maxx - s.originx) / ((nx : ℚ) - 1), (s.maxy - s.originy) / ((ny : ℚ) - 1))
                      noData := s.noData, coordSys := s.coordSys } := by
  have hx' : ((nx : ℚ) - 1) ≠ 0 := by
    have : (2 : ℚ) ≤ nx := by exact_mod_cast hx
    intro h; linarith
  have hy' : ((ny : ℚ) - 1) ≠ 0 := by
    have : (2 : ℚ) ≤ ny := by exact_mod_cast hy
    intro h; linarith
  unfold zmapEnd
  rw [hnx, hny, hl]
  have c1 : ¬ ((nx : ℤ) * (ny : ℤ) ≠ ((ny * nx : ℕ) : ℤ)) := by
    rw [not_not]; push_cast; ring
  have c2 : ¬ ((ny : ℤ) < 0 ∨ (nx : ℤ) < 0) := by omega
  have c3 : ¬ ((nx : ℤ) = 1 ∨ (ny : ℤ) = 1) := by omega
  refine (if_neg c1).trans ((if_neg c2).trans ((if_neg c3).trans ?_))
  dsimp only
  rw [show ((nx : ℕ) : ℚ) = (((nx : ℕ) : ℤ) : ℚ) by rw [Int.cast_natCast],
    show ((ny : ℕ) : ℚ) = (((ny : ℕ) : ℤ) : ℚ) by rw [Int.cast_natCast]]
  rw [arange_axis (by rw [Int.cast_natCast]; exact div_ne_zero (sub_ne_zero.2 hdx.symm) hx'),
    arange_axis (by rw [Int.cast_natCast]; exact div_ne_zero (sub_ne_zero.2 hdy.symm) hy'), py_ok_bind, py_ok_bind,
    Int.toNat_natCast, Int.toNat_natCast]
  simp only [List.ofFn_eq_map, ← List.map_coe_finRange_eq_range, List.map_map]
  rfl

theorem zmapStore_eq (hx : 2 ≤ nx) (hy : 2 ≤ ny) (hdx : x0 ≠ x1)
    (hdy : y0 ≠ y1) {ws : List Text} {vs : List Flt}
    (hv : List.Forall₂ (fun w v => parseFloat w = some v) ws vs) (hl : vs.length ≤ ny * nx) :
    (storeWords (zmapBegin env nx ny x0 x1 y0 y1 noData cs) ws >>= zmapEnd) = .ok
      { grid := List.ofFn fun m : Fin ny => List.ofFn fun n : Fin nx =>
          if n.val * ny + (ny - 1 - m.val) < vs.length then vs.getD (n * ny + (ny - 1 - m)) .nan
          else env.fresh (n * ny + (ny - 1 - m))
        x := axis x0 ((x1 - x0) / ((nx : ℚ) - 1)) nx, y := axis y0 ((y1 - y0) / ((ny : ℚ) - 1)) ny
        cellsize := ((x1 - x0) / ((nx : ℚ) - 1), (y1 - y0) / ((ny : ℚ) - 1)), noData := noData, coordSys := cs } := by
  rw [storeWords_eq hv (by simp [zmapBegin, hv.length_eq]; exact hl), py_ok_bind]
  rw [zmapEnd_eq (nx := nx) (ny := ny) rfl rfl hx hy (by simp [zmapBegin]; omega) hdx hdy]
  dsimp only [zmapBegin]
  congr 2
  congr 1
  funext m
  congr 1
  funext n
  have hlt : n.val * ny + (ny - 1 - m.val) < ny * nx := by
    have h1 := n.isLt
    have h2 := m.isLt
    have h3 : (n.val + 1) * ny ≤ nx * ny := Nat.mul_le_mul_right _ h1
    rw [Nat.mul_comm ny nx]
    rw [Nat.add_mul] at h3
    omega
  rw [List.take_zero, List.nil_append, Nat.zero_add]
  generalize n.val * ny + (ny - 1 - m.val) = k at *
  by_cases hk : k < vs.length
  · rw [if_pos hk, List.getD_eq_getElem?_getD, List.getD_eq_getElem?_getD, List.getElem?_append_left hk]
  · rw [if_neg hk, List.getD_eq_getElem?_getD, List.getElem?_append_right (by omega), List.getElem?_drop]
    rw [show vs.length + (k - vs.length) = k by omega, List.getElem?_map, List.getElem?_range hlt]
    rfl

/-! ### The property -/

/-- The layout of the body in lines and comments in it do not matter, whatever the words are. -/
theorem C72_layout (h : ZmapHead head nx ny x0 x1 y0 y1 noData cs) {body body' : List Text} (hb : ZmapBody body)
    (hb' : ZmapBody body') (hw : bodyWords body = bodyWords body') {t t' : Text} (ht : HasLines t (head ++ body))
    (ht' : HasLines t' (head ++ body')) : readZmapGrid env t = readZmapGrid env t' := by
  rw [readZmap_body h hb ht, readZmap_body h hb' ht', hw]

/-- What a header and numbers mean: the numbers fill the columns one after the other, each from the last row to the first.
What is missing is filled with whatever the memory holds. -/
theorem C72_numbers (h : ZmapHead head nx ny x0 x1 y0 y1 noData cs) (hx : 2 ≤ nx) (hy : 2 ≤ ny) (hdx : x0 ≠ x1)
    (hdy : y0 ≠ y1) {body : List Text} (hb : ZmapBody body) {t : Text} (ht : HasLines t (head ++ body)) {vs : List Flt}
    (hv : List.Forall₂ (fun w v => parseFloat w = some v) (bodyWords body) vs) (hl : vs.length ≤ ny * nx) :
    readZmapGrid env t = .ok
      { grid := List.ofFn fun m : Fin ny => List.ofFn fun n : Fin nx =>
          if n.val * ny + (ny - 1 - m.val) < vs.length then vs.getD (n * ny + (ny - 1 - m)) .nan
          else env.fresh (n * ny + (ny - 1 - m))
        x := axis x0 ((x1 - x0) / ((nx : ℚ) - 1)) nx, y := axis y0 ((y1 - y0) / ((ny : ℚ) - 1)) ny
        cellsize := ((x1 - x0) / ((nx : ℚ) - 1), (y1 - y0) / ((ny : ℚ) - 1)), noData := noData, coordSys := cs } := by
  rw [readZmap_body h hb ht]
  exact zmapStore_eq hx hy hdx hdy hv hl

/-- As many numbers as the header announces. -/
theorem C72_meaning (h : ZmapHead head nx ny x0 x1 y0 y1 noData cs) (hx : 2 ≤ nx) (hy : 2 ≤ ny) (hdx : x0 ≠ x1)
    (hdy : y0 ≠ y1) {body : List Text} (hb : ZmapBody body) {t : Text} (ht : HasLines t (head ++ body))
    {v : Fin nx → Fin ny → Flt}
    (hv : List.Forall₂ (fun w u => parseFloat w = some u) (bodyWords body)
      ((List.finRange nx).flatMap fun n => (List.finRange ny).reverse.map fun m => v n m)) :
    readZmapGrid env t = .ok
      { grid := List.ofFn fun m : Fin ny => List.ofFn fun n : Fin nx => v n m
        x := axis x0 ((x1 - x0) / ((nx : ℚ) - 1)) nx, y := axis y0 ((y1 - y0) / ((ny : ℚ) - 1)) ny
        cellsize := ((x1 - x0) / ((nx : ℚ) - 1), (y1 - y0) / ((ny : ℚ) - 1)), noData := noData, coordSys := cs } := by
  have hlen : ((List.finRange nx).flatMap fun n => (List.finRange ny).reverse.map fun m => v n m).length = ny * nx := by
    rw [length_flatMap_const (L := ny) _ fun n => by simp]
    ring
  rw [C72_numbers h hx hy hdx hdy hb ht hv (by rw [hlen])]
  congr 2
  congr 1
  funext m
  congr 1
  funext n
  have hlt : n.val * ny + (ny - 1 - m.val) < ny * nx := by
    have h3 : (n.val + 1) * ny ≤ nx * ny := Nat.mul_le_mul_right _ n.isLt
    have := m.isLt
    rw [Nat.mul_comm ny nx]
    rw [Nat.add_mul] at h3
    omega
  rw [if_pos (by rw [hlen]; exact hlt), List.getD_eq_getElem?_getD, getElem?_flatMap_const (L := ny) _ (fun n => by simp) n
    (by omega), List.getElem?_map, List.getElem?_reverse (by simp; omega)]
  have hk : (List.finRange ny).length - 1 - (ny - 1 - m.val) = m.val := by simp; omega
  rw [hk, List.getElem?_eq_getElem (by simp)]
  simp

/-- More numbers than the header announces are refused. -/
theorem C72_too_many (h : ZmapHead head nx ny x0 x1 y0 y1 noData cs) {body : List Text} (hb : ZmapBody body) {t : Text}
    (ht : HasLines t (head ++ body)) (hv : ∀ w ∈ bodyWords body, ∃ v, parseFloat w = some v)
    (hl : ny * nx < (bodyWords body).length) : readZmapGrid env t = .error .indexError := by
  rw [readZmap_body h hb ht, storeWords_full hv (by simp [zmapBegin]) (by simp [zmapBegin]; exact hl)]
  rfl

/-- A word that is not a number is refused. -/
theorem C72_not_a_number (h : ZmapHead head nx ny x0 x1 y0 y1 noData cs) {body : List Text} (hb : ZmapBody body) {t : Text}
    (ht : HasLines t (head ++ body)) (hw : ∃ w ∈ bodyWords body, parseFloat w = none) :
    ∃ e, readZmapGrid env t = .error e := by
  obtain ⟨w, hw, hn⟩ := hw
  rw [readZmap_body h hb ht]
  cases hs : storeWords (zmapBegin env nx ny x0 x1 y0 y1 noData cs) (bodyWords body) with
  | error e => exact ⟨e, rfl⟩
  | ok s' =>
    exfalso
    generalize zmapBegin env nx ny x0 x1 y0 y1 noData cs = s at hs
    generalize bodyWords body = ws at hs hw
    induction ws generalizing s with
    | nil => cases hw
    | cons q ws ih =>
      rw [storeWords] at hs
      obtain ⟨v, h1, hs⟩ := py_bind_eq_ok.1 hs
      obtain ⟨d, -, hs⟩ := py_bind_eq_ok.1 hs
      rcases List.mem_cons.1 hw with rfl | hw
      · unfold pyFloat at h1
        rw [hn] at h1
        cases h1
      · exact ih _ hs hw

/-- A blank line ends the file: what follows is not read, even if it is part of the grid. -/
theorem C72_blank_ends (h : ZmapHead head nx ny x0 x1 y0 y1 noData cs) {body : List Text} (hb : ZmapBody body) {t : Text}
    (ht : HasLines t (head ++ body)) {blank : Text} (hbl : zfields blank = []) (hn : '\n' ∉ blank) (rest : Text) :
    readZmapGrid env (fileOf (head ++ body ++ [blank]) rest) = readZmapGrid env t := by
  have h1 : ∀ l ∈ head ++ body ++ [blank], '\n' ∉ l := by
    intro l hl
    rcases List.mem_append.1 hl with hl | hl
    · exact ht.1 l hl
    · rw [List.mem_singleton.1 hl]; exact hn
  rw [readZmap_body h hb ht, readZmap_eq, readLines_fileOf h1, List.append_assoc, List.append_assoc, zmapLoop_head h,
    zmapLoop_numbers rfl hb]
  cases storeWords (zmapBegin env nx ny x0 x1 y0 y1 noData cs) (bodyWords body) with
  | error e => rfl
  | ok s =>
    rw [py_ok_bind, py_ok_bind, List.singleton_append, zmapLoop, zmapWords_plain, py_ok_bind, hbl]
    · rfl
    · intro e
      have := zfirst_bang e
      unfold zfirst at this
      rw [hbl] at this
      cases this

end

/-! ### Examples -/

namespace Demo

/-- Comments, header, and two layouts of the same six numbers; one with a comment in between. -/
def zhead : List Text := ["! made by hand".toList, "!  COORDINATE REFERENCE SYSTEM: UTM 32: north".toList, "!".toList,
  "@wells HEADER, GRID, 3".toList, "  15, 1E+30, , 7, 1".toList, "  3, 2, 10.0, 11.5, -1, 3".toList, "0, 0, 0".toList, "@".toList]

def zbody1 : List Text := ["1 2 3".toList, "4 5.5 1e2".toList]

def zbody2 : List Text := ["1, 2".toList, "! half way".toList, "3 4 5.5 1e2".toList]

theorem zhead_ok : ZmapHead zhead 2 3 10 (23 / 2) (-1) 3 (.num (10 ^ 30)) " UTM 32".toList := by
  refine ⟨["! made by hand".toList, "!  COORDINATE REFERENCE SYSTEM: UTM 32: north".toList, "!".toList],
    "@wells HEADER, GRID, 3".toList, "  15, 1E+30, , 7, 1".toList, "  3, 2, 10.0, 11.5, -1, 3".toList, ["0, 0, 0".toList],
    "@".toList, rfl, ?_, ?_, ?_, ?_,
    ⟨"15".toList, "1E+30".toList, ["".toList, "7".toList, "1".toList], ?_, ?_⟩,
    ⟨"3".toList, "2".toList, "10.0".toList, "11.5".toList, "-1".toList, "3".toList, [], ?_, ?_, ?_, ?_, ?_, ?_, ?_⟩⟩
  · have h1 : CommentsName (([] : List Text) ++ ["! made by hand".toList]) _ :=
      .comment _ .none ⟨by decide +kernel, fun _ => by unfold NamesSystem; decide +kernel⟩
    have h2 : CommentsName (["! made by hand".toList] ++ ["!  COORDINATE REFERENCE SYSTEM: UTM 32: north".toList])
        " UTM 32".toList :=
      .system "!  COORDINATE REFERENCE SYSTEM".toList " UTM 32".toList ": north".toList h1 (by decide) (by decide) rfl
        (by unfold NamesSystem; decide +kernel) (.inr rfl)
    exact .comment _ h2 ⟨by decide +kernel, fun _ => by unfold NamesSystem; decide +kernel⟩
  all_goals decide +kernel

theorem zbody1_ok : ZmapBody zbody1 := by
  intro l hl
  refine ⟨?_, fun h => ?_⟩
  · revert l; decide +kernel
  · exfalso; revert l; decide +kernel

theorem zbody2_ok : ZmapBody zbody2 := by
  intro l hl
  refine ⟨?_, fun h => ⟨h, fun _ => ?_⟩⟩
  · revert l; decide +kernel
  · unfold NamesSystem
    revert l; decide +kernel

/-- What the file means. -/
example (env : ZEnv) : readZmapGrid env (fileOf (zhead ++ zbody2) []) = .ok
    { grid := [[.num 3, .num 100], [.num 2, .num (11 / 2)], [.num 1, .num 4]], x := [10, 23 / 2], y := [-1, 1, 3]
      cellsize := (3 / 2, 2), noData := .num (10 ^ 30), coordSys := " UTM 32".toList } := by
  rw [C72_meaning zhead_ok (by norm_num) (by norm_num) (by norm_num) (by norm_num) zbody2_ok ⟨by decide +kernel, .inl rfl⟩
    (v := ![![.num 3, .num 2, .num 1], ![.num 100, .num (11 / 2), .num 4]]) ?_]
  · have ex : axis 10 ((23 / 2 - 10) / (((2 : ℕ) : ℚ) - 1)) 2 = [10, 23 / 2] := by decide +kernel
    have ey : axis (-1) ((3 - -1) / (((3 : ℕ) : ℚ) - 1)) 3 = [-1, 1, 3] := by decide +kernel
    rw [ex, ey]
    norm_num [List.ofFn_succ]
  · have e : bodyWords zbody2 = ["1".toList, "2".toList, "3".toList, "4".toList, "5.5".toList, "1e2".toList] := by
      decide +kernel
    rw [e]
    refine .cons ?_ (.cons ?_ (.cons ?_ (.cons ?_ (.cons ?_ (.cons ?_ .nil)))))
    all_goals decide +kernel

/-- Two layouts. -/
example (env : ZEnv) : readZmapGrid env (fileOf (zhead ++ zbody1) []) = readZmapGrid env (fileOf (zhead ++ zbody2) []) :=
  C72_layout zhead_ok zbody1_ok zbody2_ok (by decide +kernel) ⟨by decide +kernel, .inl rfl⟩ ⟨by decide +kernel, .inl rfl⟩

/-- A blank line hides the second half of the grid: the file is read, the missing numbers are whatever the memory holds. -/
example (env : ZEnv) : readZmapGrid env (fileOf (zhead ++ ["1 2 3".toList] ++ [[]]) "4 5 6\n".toList) = .ok
    { grid := [[.num 3, env.fresh 5], [.num 2, env.fresh 4], [.num 1, env.fresh 3]], x := [10, 23 / 2], y := [-1, 1, 3]
      cellsize := (3 / 2, 2), noData := .num (10 ^ 30), coordSys := " UTM 32".toList } := by
  have hb : ZmapBody ["1 2 3".toList] := fun l hl => zbody1_ok l (by rw [List.mem_singleton.1 hl]; decide)
  have ht : HasLines (fileOf (zhead ++ ["1 2 3".toList]) []) (zhead ++ ["1 2 3".toList]) := ⟨by decide +kernel, .inl rfl⟩
  rw [C72_blank_ends zhead_ok hb ht (by decide +kernel) (by simp),
    C72_numbers zhead_ok (by norm_num) (by norm_num) (by norm_num) (by norm_num) hb ht (vs := [.num 1, .num 2, .num 3]) ?_
      (by norm_num)]
  · have ex : axis 10 ((23 / 2 - 10) / (((2 : ℕ) : ℚ) - 1)) 2 = [10, 23 / 2] := by decide +kernel
    have ey : axis (-1) ((3 - -1) / (((3 : ℕ) : ℚ) - 1)) 3 = [-1, 1, 3] := by decide +kernel
    rw [ex, ey]
    norm_num [List.ofFn_succ]
  · have e : bodyWords ["1 2 3".toList] = ["1".toList, "2".toList, "3".toList] := by decide +kernel
    rw [e]
    refine .cons ?_ (.cons ?_ (.cons ?_ .nil))
    all_goals decide +kernel

/-- A seventh number; a word. -/
example (env : ZEnv) : readZmapGrid env (fileOf (zhead ++ (zbody1 ++ ["7".toList])) []) = .error .indexError := by
  refine C72_too_many zhead_ok (fun l hl => ?_) ⟨by decide +kernel, .inl rfl⟩ ?_ (by decide +kernel)
  · rcases List.mem_append.1 hl with hl | hl
    · exact zbody1_ok l hl
    · rw [List.mem_singleton.1 hl]
      exact ⟨by decide +kernel, fun h => absurd h (by decide +kernel)⟩
  · have e : bodyWords (zbody1 ++ ["7".toList]) =
        ["1".toList, "2".toList, "3".toList, "4".toList, "5.5".toList, "1e2".toList, "7".toList] := by decide +kernel
    rw [e]
    intro w hw
    rw [← Option.isSome_iff_exists]
    revert w
    decide +kernel

example (env : ZEnv) : ∃ e, readZmapGrid env (fileOf (zhead ++ ["1 2 three".toList]) []) = .error e := by
  refine C72_not_a_number zhead_ok (fun l hl => ?_) ⟨by decide +kernel, .inl rfl⟩ ⟨"three".toList, by decide +kernel, by decide +kernel⟩
  rw [List.mem_singleton.1 hl]
  exact ⟨by decide +kernel, fun h => absurd h (by decide +kernel)⟩

/-- Commas alone do not separate numbers: `1,2` is read as 12. -/
example : zfields "1,2 3".toList = ["12".toList, "3".toList] := by decide +kernel

end Demo

end PyKrige
