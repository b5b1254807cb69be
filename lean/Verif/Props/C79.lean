import Verif.Props.C71
import Verif.Props.C72

/-!
C79: ZMAP files that end too early (an interrupted `write_zmap_grid`, a full disk, an interrupted copy).

A file that ends before the line with the size of the grid, or before the sixth word of that line, is refused. A file that
ends later is refused only if it is cut in the middle of a number in such a way that no number is left; otherwise it is read as
a complete grid: the numbers that are there are read, the last one perhaps cut, and the rest of the grid is whatever the memory
holds.
-/

namespace PyKrige
open Spec

/-- The words at the beginning of a list of words; the last one may be cut. -/
def Spec.Begins (ws' ws : List Text) : Prop :=
  ws' <+: ws ∨ ∃ a w w' b, ws = a ++ w :: b ∧ ws' = a ++ [w'] ∧ w' <+: w

theorem zfields_prefix {l l' : Text} (h : l' <+: l) : Begins (zfields l') (zfields l) := by
  unfold zfields
  rcases pySplit_prefix l l' h with h | ⟨ws, w, w', ws', h1, h2, h3⟩
  · exact .inl (h.map _)
  · refine .inr ⟨ws.map fun w => w.filter (· ≠ ','), w.filter (· ≠ ','), w'.filter (· ≠ ','),
      ws'.map fun w => w.filter (· ≠ ','), ?_, ?_, h3.filter _⟩
    · rw [h1, List.map_append, List.map_cons]
    · rw [h2, List.map_append, List.map_singleton]

theorem contains_prefix (needle : Text) {p t : Text} (h : p <+: t) (hp : contains needle p = true) :
    contains needle t = true := by
  induction t generalizing p with
  | nil =>
    rw [List.prefix_nil.1 h] at hp
    exact hp
  | cons c t ih =>
    rw [contains, Bool.or_eq_true]
    rcases List.prefix_cons_iff.1 h with rfl | ⟨p, rfl, h'⟩
    · left
      have : needle = [] := by simpa [contains] using hp
      rw [this]
      rfl
    · rw [contains, Bool.or_eq_true] at hp
      rcases hp with hp | hp
      · left
        rw [List.isPrefixOf_iff_prefix] at hp ⊢
        exact hp.trans (by rw [List.prefix_cons_inj]; exact h')
      · exact .inr (ih h' hp)

theorem NamesSystem.of_prefix {l l' : Text} (h : l' <+: l) (hn : NamesSystem l') : NamesSystem l :=
  contains_prefix _ (takeWhile_prefix _ h) hn

/-- The first character of a line and of a beginning of it. -/
theorem zfirst_prefix {l l' : Text} (h : l' <+: l) (hf : zfields l' ≠ []) :
    zfirst l' = zfirst l ∨ zfields l' = [[]] := by
  rcases zfields_prefix h with h1 | ⟨a, w, w', b, h1, h2, h3⟩
  · obtain ⟨r, h1⟩ := h1
    left
    unfold zfirst
    rw [← h1]
    cases hz : zfields l' with
    | nil => exact (hf hz).elim
    | cons => rfl
  · cases a with
    | cons u a =>
      left
      unfold zfirst
      rw [h1, h2]
      rfl
    | nil =>
      cases w' with
      | nil => exact .inr h2
      | cons c w' =>
        left
        obtain ⟨r, rfl⟩ := h3
        unfold zfirst
        rw [h1, h2]
        rfl

theorem bodyWords_append (a b : List Text) : bodyWords (a ++ b) = bodyWords a ++ bodyWords b := by
  unfold bodyWords
  rw [List.filter_append, List.flatMap_append]

theorem bodyWords_singleton {l : Text} (h : zfirst l ≠ some '!') : bodyWords [l] = zfields l := by
  unfold bodyWords
  rw [List.filter_cons_of_pos (by simp [h])]
  simp

theorem bodyWords_bang {l : Text} (h : zfirst l = some '!') : bodyWords [l] = [] := by
  unfold bodyWords
  rw [List.filter_cons_of_neg (by simp [h])]
  simp

theorem storeWords_bad {s : ZState} {ws : List Text} (h : ∃ w ∈ ws, parseFloat w = none) : ∃ e, storeWords s ws = .error e := by
  obtain ⟨w, hw, hn⟩ := h
  induction ws generalizing s with
  | nil => cases hw
  | cons q ws ih =>
    rw [storeWords]
    cases h1 : pyFloat q with
    | error e => exact ⟨e, rfl⟩
    | ok v =>
      rw [py_ok_bind]
      cases h2 : storeAt s.data s.iValue v with
      | error e => exact ⟨e, rfl⟩
      | ok d =>
        rw [py_ok_bind]
        rcases List.mem_cons.1 hw with rfl | hw
        · unfold pyFloat at h1
          rw [hn] at h1
          cases h1
        · exact ih hw

/-- What is stored from a beginning of the body. -/
theorem zmapLoop_prefix {env : ZEnv} {body : List Text} (hb : ZmapBody body) (hn : ∀ l ∈ body, '\n' ∉ l) {q : Text}
    (hq : q <+: fileOf body []) : ∃ W, (Begins W (bodyWords body) ∨ [] ∈ W) ∧
      ∀ s : ZState, s.header = -1 → zmapLoop env s (readLines q) = storeWords s W := by
  have hbody : readLines (fileOf body []) = body := by rw [readLines_fileOf hn, readLines_nil, List.append_nil]
  have store : ∀ b, ZmapBody b → ∀ s : ZState, s.header = -1 → zmapLoop env s b = storeWords s (bodyWords b) := by
    intro b hb s hs
    have := zmapLoop_numbers (env := env) hs hb []
    rw [List.append_nil] at this
    rw [this]
    cases storeWords s (bodyWords b) <;> rfl
  rcases readLines_prefix _ q hq with h | ⟨ls, l, l', ls', h1, h2, h3⟩
  · rw [hbody] at h
    obtain ⟨r, h⟩ := h
    refine ⟨bodyWords (readLines q), .inl (.inl ⟨bodyWords r, ?_⟩), store _ fun l hl => hb l ?_⟩
    · rw [← bodyWords_append, h]
    · rw [← h]; exact List.mem_append_left _ hl
  · rw [hbody] at h1
    have hls : ZmapBody ls := fun l hl => hb l (by rw [h1]; simp [hl])
    have hl := hb l (by rw [h1]; simp)
    rw [h2]
    by_cases hz : zfields l' = []
    · refine ⟨bodyWords ls, .inl (.inl ⟨bodyWords (l :: ls'), ?_⟩), fun s hs => ?_⟩
      · rw [← bodyWords_append, h1]
      · rw [zmapLoop_numbers hs hls]
        cases storeWords s (bodyWords ls) with
        | error e => rfl
        | ok s' =>
          rw [py_ok_bind, zmapLoop, zmapWords_plain, hz]
          · rfl
          · intro e
            have := zfirst_bang e
            unfold zfirst at this
            rw [hz] at this
            cases this
    by_cases hf : zfirst l' = some '!'
    · have hc : zfirst l = some '!' := by
        rcases zfirst_prefix h3 hz with h | h
        · rw [← h, hf]
        · exfalso
          unfold zfirst at hf
          rw [h] at hf
          cases hf
      have hl' : ZComment l' := ⟨hf, fun e hn => (hl.2 hc).2 (by
        obtain ⟨r, rfl⟩ := h3
        cases l' with
        | nil => cases e
        | cons => exact e) (NamesSystem.of_prefix h3 hn)⟩
      refine ⟨bodyWords ls, .inl (.inl ⟨bodyWords (l :: ls'), ?_⟩), fun s hs => ?_⟩
      · rw [← bodyWords_append, h1]
      · rw [store (ls ++ [l']), bodyWords_append, bodyWords_bang hf, List.append_nil]
        · intro m hm
          rcases List.mem_append.1 hm with hm | hm
          · exact hls m hm
          · rw [List.mem_singleton.1 hm]
            exact ⟨hz, fun _ => hl'⟩
        · exact hs
    · have hB : ZmapBody (ls ++ [l']) := by
        intro m hm
        rcases List.mem_append.1 hm with hm | hm
        · exact hls m hm
        · rw [List.mem_singleton.1 hm]
          exact ⟨hz, fun e => (hf e).elim⟩
      refine ⟨bodyWords ls ++ zfields l', ?_, fun s hs => ?_⟩
      · rcases zfirst_prefix h3 hz with h | h
        · left
          have hc : zfirst l ≠ some '!' := by rw [← h]; exact hf
          have e : bodyWords body = bodyWords ls ++ (zfields l ++ bodyWords ls') := by
            rw [h1, bodyWords_append, show l :: ls' = [l] ++ ls' from rfl, bodyWords_append, bodyWords_singleton hc]
          rw [e]
          rcases zfields_prefix h3 with ⟨r, h4⟩ | ⟨a, w, w', b, h4, h5, h6⟩
          · left
            refine ⟨r ++ bodyWords ls', ?_⟩
            rw [← h4]
            simp
          · right
            refine ⟨bodyWords ls ++ a, w, w', b ++ bodyWords ls', ?_, ?_, h6⟩
            · rw [h4]; simp
            · rw [h5]; simp
        · exact .inr (List.mem_append_right _ (by rw [h]; simp))
      · rw [store _ hB s hs, bodyWords_append, bodyWords_singleton hf]

/-- A state without a grid: the size has not been read. -/
def NoSize (s : ZState) : Prop := s.nx = 0 ∧ s.ny = 0 ∧ s.data.length = 1

theorem NoSize.refused {s : ZState} (h : NoSize s) : ∃ e, zmapEnd s = .error e := by
  obtain ⟨h1, h2, h3⟩ := h
  refine ⟨.ioError, ?_⟩
  unfold zmapEnd
  rw [h1, h2, h3]
  rfl

/-- One more line, whatever it is. -/
theorem zmapLoop_last {env : ZEnv} {s : ZState} (h : NoSize s) (hs : s.header = 0 ∨ s.header = 2) (l : Text) :
    (∃ e, zmapLoop env s [l] = .error e) ∨ ∃ s', zmapLoop env s [l] = .ok s' ∧ NoSize s' := by
  rw [zmapLoop]
  have hw : (∃ e, zmapWords s l = .error e) ∨ ∃ c ws, zmapWords s l = .ok ({ s with coordSys := c }, ws) := by
    unfold zmapWords
    split
    · dsimp only
      split
      · cases pyGet (splitOn ':' l) 1 with
        | error e => exact .inl ⟨e, rfl⟩
        | ok c => exact .inr ⟨c, _, rfl⟩
      · exact .inr ⟨s.coordSys, _, rfl⟩
    · exact .inr ⟨s.coordSys, _, rfl⟩
  rcases hw with ⟨e, hw⟩ | ⟨c, ws, hw⟩
  · exact .inl ⟨e, by rw [hw]; rfl⟩
  rw [hw, py_ok_bind]
  cases ws with
  | nil => exact .inr ⟨_, rfl, h⟩
  | cons w ws =>
    dsimp only
    rw [if_neg (fun e => by rcases hs with h | h <;> rw [h] at e <;> exact absurd e.1 (by norm_num)), py_ok_bind]
    have hz : ∀ s : ZState, NoSize s → s.header ≤ 2 → (∃ e, zmapHeaderLine env s (w :: ws) = .error e) ∨
        ∃ s', zmapHeaderLine env s (w :: ws) = .ok s' ∧ NoSize s' := by
      intro s h hs
      unfold zmapHeaderLine
      split
      · by_cases h2 : s.header = 2
        · rw [if_pos h2]
          cases pyGet (w :: ws) 1 with
          | error e => exact .inl ⟨e, rfl⟩
          | ok u =>
            rw [py_ok_bind]
            cases pyFloat u with
            | error e => exact .inl ⟨e, rfl⟩
            | ok v => exact .inr ⟨_, rfl, h⟩
        · rw [if_neg h2, if_neg (by omega)]
          exact .inr ⟨_, rfl, h⟩
      · exact .inr ⟨s, rfl, h⟩
    have hfin : ∀ x : Py ZState, ((∃ e, x = .error e) ∨ ∃ s', x = .ok s' ∧ NoSize s') →
        (∃ e, (x >>= fun s' => zmapLoop env s' []) = .error e) ∨ ∃ s', (x >>= fun s' => zmapLoop env s' []) = .ok s' ∧ NoSize s' := by
      rintro x (⟨e, rfl⟩ | ⟨s', rfl, h⟩)
      · exact .inl ⟨e, rfl⟩
      · exact .inr ⟨s', rfl, h⟩
    apply hfin
    split
    · exact hz _ h (by dsimp only; split <;> norm_num)
    · exact hz _ h (by dsimp only; omega)

theorem Spec.CommentsName.of_prefix {comments ls : List Text} {cs : Text} (h : CommentsName comments cs) (hp : ls <+: comments) :
    ∃ cs', CommentsName ls cs' := by
  induction h with
  | none =>
    rw [List.prefix_nil.1 hp]
    exact ⟨_, .none⟩
  | comment l h1 h2 ih =>
    rcases List.prefix_concat_iff.1 hp with rfl | hp
    · exact ⟨_, .comment l h1 h2⟩
    · exact ih hp
  | system u c r h1 h2 h3 h4 h5 h6 ih =>
    rcases List.prefix_concat_iff.1 hp with rfl | hp
    · exact ⟨_, .system u c r h1 h2 h3 h4 h5 h6⟩
    · exact ih hp

section
variable {env : ZEnv} {head body : List Text} {nx ny : ℕ} {x0 x1 y0 y1 : ℚ} {noData : Flt} {cs : Text} {t p : Text}

/-! ### The property -/

/-- A file that ends before the line `l3` with the size of the grid (the third line of the header), or before the sixth word
of that line, is refused. -/
theorem C79_header_partial {comments : List Text} {a l2 l3 l3' : Text} (hc : CommentsName comments cs) (ha : zfirst a = some '@')
    (h2 : zfields l2 ≠ [] ∧ zfirst l2 ≠ some '!' ∧ zfirst l2 ≠ some '@') (h3 : zfirst l3 ≠ some '!' ∧ zfirst l3 ≠ some '@')
    (hn : ∀ l ∈ comments ++ [a, l2, l3], '\n' ∉ l) (hcut : l3' <+: l3) (h6 : (zfields l3').length < 6)
    (hp : p <+: fileOf (comments ++ [a, l2]) l3') : ∃ e, readZmapGrid env p = .error e := by
  rw [readZmap_eq]
  suffices hs : (∃ e, zmapLoop env { data := [env.fresh 0] } (readLines p) = .error e) ∨
      ∃ s', zmapLoop env { data := [env.fresh 0] } (readLines p) = .ok s' ∧ NoSize s' by
    rcases hs with ⟨e, he⟩ | ⟨s', he, hs⟩
    · exact ⟨e, by rw [he]; rfl⟩
    · obtain ⟨e, h⟩ := hs.refused
      exact ⟨e, by rw [he]; exact h⟩
  have init : ∀ c, NoSize { data := [env.fresh 0], coordSys := c } := fun c => ⟨rfl, rfl, rfl⟩
  have hn3 : '\n' ∉ l3' := fun h => hn l3 (by simp) (hcut.subset h)
  -- the lines
  obtain ⟨R, hR, hl⟩ : ∃ R, readLines (fileOf (comments ++ [a, l2]) l3') = comments ++ a :: l2 :: R ∧ (R = [] ∨ R = [l3']) := by
    refine ⟨readLines l3', ?_, ?_⟩
    · rw [readLines_fileOf fun l hl => hn l ?_]
      · simp
      · simp only [List.mem_append, List.mem_cons, List.not_mem_nil, or_false] at hl ⊢
        tauto
    · by_cases h0 : l3' = []
      · exact .inl (by rw [h0, readLines_nil])
      · exact .inr (readLines_last hn3 h0)
  have hcase : readLines p = [] ∨ ∃ ls l l' ls', comments ++ a :: l2 :: R = ls ++ l :: ls' ∧ readLines p = ls ++ [l'] ∧ l' <+: l := by
    rw [← hR]
    rcases readLines_prefix _ p hp with ⟨r, h⟩ | h
    · rcases List.eq_nil_or_concat (readLines p) with h0 | ⟨ls, l, h0⟩
      · exact .inl h0
      · rw [List.concat_eq_append] at h0
        refine .inr ⟨ls, l, l, r, ?_, h0, List.prefix_refl _⟩
        rw [← h, h0, List.append_assoc]
        rfl
    · exact .inr h
  rcases hcase with h0 | ⟨ls, l, l', ls', h1, h0, hl'⟩
  · rw [h0]
    exact .inr ⟨_, rfl, init _⟩
  rw [h0]
  rcases List.append_eq_append_iff.1 h1 with ⟨as, rfl, h1'⟩ | ⟨bs, rfl, -⟩
  swap
  · obtain ⟨c, hc'⟩ := hc.of_prefix (List.prefix_append ls bs)
    rw [zmapLoop_names hc']
    exact zmapLoop_last (init c) (.inl rfl) l'
  rw [List.append_assoc, zmapLoop_names hc]
  cases as with
  | nil => exact zmapLoop_last (init cs) (.inl rfl) l'
  | cons u as =>
    obtain ⟨rfl, h1a⟩ := List.cons.inj h1'
    rw [List.cons_append, zmapLoop_sign ha (show (0 : ℤ) ≠ -1 by decide)]
    cases as with
    | nil => exact zmapLoop_last (s := { header := if (0 : ℤ) = 0 then 2 else -1, data := [env.fresh 0], coordSys := cs }) ⟨rfl, rfl, rfl⟩ (.inr rfl) l'
    | cons u as =>
      obtain ⟨rfl, h1b⟩ := List.cons.inj h1a
      obtain ⟨k1, k2, k3⟩ := h2
      rw [List.cons_append, zmapLoop_line k1 k2 k3 (show (if (0 : ℤ) = 0 then (2 : ℤ) else -1) ≠ -1 by decide)]
      have e2 : (∃ e, zmapHeaderLine env { header := if (0 : ℤ) = 0 then 2 else -1, data := [env.fresh 0], coordSys := cs }
          (zfields l2) = .error e) ∨
          ∃ v, zmapHeaderLine env { header := if (0 : ℤ) = 0 then 2 else -1, data := [env.fresh 0], coordSys := cs }
            (zfields l2) = .ok { header := 3, data := [env.fresh 0], coordSys := cs, noData := v } := by
        unfold zmapHeaderLine
        rw [if_pos (show (0 : ℤ) < if (0 : ℤ) = 0 then (2 : ℤ) else -1 by decide), if_pos (by rfl)]
        cases pyGet (zfields l2) 1 with
        | error e => exact .inl ⟨e, rfl⟩
        | ok u =>
          rw [py_ok_bind]
          cases pyFloat u with
          | error e => exact .inl ⟨e, rfl⟩
          | ok v => exact .inr ⟨v, rfl⟩
      rcases e2 with ⟨e, e2⟩ | ⟨v, e2⟩
      · exact .inl ⟨e, by rw [e2]; rfl⟩
      rw [e2, py_ok_bind]
      have hl3 : as = [] ∧ l = l3' := by
        rcases hl with rfl | rfl
        · cases as <;> cases h1b
        · cases as with
          | nil => exact ⟨rfl, (List.cons.inj h1b).1.symm⟩
          | cons u as =>
            have := (List.cons.inj h1b).2
            cases as <;> cases this
      obtain ⟨rfl, rfl⟩ := hl3
      rw [List.nil_append]
      -- the cut line with the size
      have hpre : l' <+: l3 := hl'.trans hcut
      have hlen : (zfields l').length < 6 := by
        rcases zfields_prefix hl' with h | ⟨a, w, w', b, e1, e2, -⟩
        · exact lt_of_le_of_lt h.length_le h6
        · rw [e1] at h6
          rw [e2]
          rw [List.length_append, List.length_cons] at h6
          rw [List.length_append, List.length_singleton]
          omega
      have hb : l'.head? ≠ some '!' := by
        intro e
        refine h3.1 (zfirst_bang ?_)
        obtain ⟨r, rfl⟩ := hpre
        cases l' with
        | nil => cases e
        | cons => exact e
      rw [zmapLoop, zmapWords_plain hb, py_ok_bind]
      cases hz : zfields l' with
      | nil => exact .inr ⟨_, rfl, ⟨rfl, rfl, rfl⟩⟩
      | cons w ws =>
        left
        dsimp only
        rw [if_neg (fun e => absurd e.1 (by norm_num)), py_ok_bind]
        have hat : w.head? ≠ some '@' := by
          intro e
          rcases zfirst_prefix hpre (by rw [hz]; simp) with h | h
          · refine h3.2 ?_
            rw [← h]
            unfold zfirst
            rw [hz]
            exact e
          · rw [hz] at h
            rw [(List.cons.inj h).1] at e
            cases e
        rw [if_neg hat]
        have : ∃ e, zmapHeaderLine env { header := 3, data := [env.fresh 0], coordSys := cs, noData := v } (w :: ws) = .error e := by
          unfold zmapHeaderLine
          rw [if_pos (show (0 : ℤ) < 3 by decide), if_neg (show ¬ (3 : ℤ) = 2 by decide), if_pos (by rfl)]
          rw [hz] at hlen
          have h5 : pyGet (w :: ws) 5 = .error .indexError := by
            unfold pyGet
            rw [List.getElem?_eq_none (by omega)]
          have key : ∀ x : Py ZState, (∃ e, x = .error e) → ∃ e, (x >>= fun s => (pure { s with header := s.header + 1 } : Py ZState)) = .error e := by
            rintro x ⟨e, rfl⟩
            exact ⟨e, rfl⟩
          apply key
          have step : ∀ {α : Type} (x : Py α) (f : α → Py ZState), (∀ a, ∃ e, f a = .error e) → ∃ e, (x >>= f) = .error e := by
            intro α x f hf
            cases x with
            | error e => exact ⟨e, rfl⟩
            | ok a => exact hf a
          iterate 10 refine step _ _ fun _ => ?_
          rw [h5]
          exact ⟨_, rfl⟩
        obtain ⟨e, he⟩ := this
        exact ⟨e, by rw [he]; rfl⟩

/-- A file cut behind its header is refused, or read with all its cells: `k` numbers as in the complete file, perhaps one more
(what is left of the next number), and for the rest what the memory holds. -/
theorem C79_body_partial (h : ZmapHead head nx ny x0 x1 y0 y1 noData cs) (hx : 2 ≤ nx) (hy : 2 ≤ ny) (hdx : x0 ≠ x1)
    (hdy : y0 ≠ y1) (hb : ZmapBody body) (ht : HasLines t (head ++ body)) {vs : List Flt}
    (hv : List.Forall₂ (fun w v => parseFloat w = some v) (bodyWords body) vs) (hl : vs.length ≤ ny * nx)
    (hp : p <+: t) (hh : fileOf head [] <+: p) :
    (∃ e, readZmapGrid env p = .error e) ∨
    ∃ k ≤ vs.length, ∃ cut : Option Flt,
      (∀ v, cut = some v → ∃ w w', (bodyWords body)[k]? = some w ∧ w' <+: w ∧ parseFloat w' = some v) ∧
      readZmapGrid env p = .ok
        { grid := List.ofFn fun m : Fin ny => List.ofFn fun n : Fin nx =>
            (vs.take k ++ cut.toList).getD (n * ny + (ny - 1 - m)) (env.fresh (n * ny + (ny - 1 - m)))
          x := axis x0 ((x1 - x0) / ((nx : ℚ) - 1)) nx, y := axis y0 ((y1 - y0) / ((ny : ℚ) - 1)) ny
          cellsize := ((x1 - x0) / ((nx : ℚ) - 1), (y1 - y0) / ((ny : ℚ) - 1)), noData := noData, coordSys := cs } := by
  obtain ⟨q, rfl⟩ := hh
  have e1 : ∀ q, fileOf head [] ++ q = fileOf head q := fun q => by simp [fileOf]
  have hq : q <+: fileOf body [] := by
    have h1 : fileOf head [] ++ q <+: fileOf (head ++ body) [] := by
      rcases ht.2 with e | e
      · rw [← e]; exact hp
      · rw [← e]; exact hp.trans (List.prefix_append _ _)
    have h2 : fileOf (head ++ body) [] = fileOf head [] ++ fileOf body [] := by simp [fileOf]
    rw [h2] at h1
    exact (List.prefix_append_right_inj _).1 h1
  obtain ⟨W, hW, hs⟩ := zmapLoop_prefix (env := env) hb (fun l hl => ht.1 l (by simp [hl])) hq
  have hr : readZmapGrid env (fileOf head [] ++ q) =
      (storeWords (zmapBegin env nx ny x0 x1 y0 y1 noData cs) W >>= zmapEnd) := by
    rw [readZmap_eq, e1, readLines_fileOf (fun l hl => ht.1 l (by simp [hl])), zmapLoop_head h, hs _ rfl]
  have bad : (∃ w ∈ W, parseFloat w = none) → ∃ e, readZmapGrid env (fileOf head [] ++ q) = .error e := by
    intro hw
    obtain ⟨e, he⟩ := storeWords_bad (s := zmapBegin env nx ny x0 x1 y0 y1 noData cs) hw
    exact ⟨e, by rw [hr, he]; rfl⟩
  have good : ∀ L, List.Forall₂ (fun w v => parseFloat w = some v) W L → L.length ≤ ny * nx →
      readZmapGrid env (fileOf head [] ++ q) = .ok
        { grid := List.ofFn fun m : Fin ny => List.ofFn fun n : Fin nx =>
            L.getD (n * ny + (ny - 1 - m)) (env.fresh (n * ny + (ny - 1 - m)))
          x := axis x0 ((x1 - x0) / ((nx : ℚ) - 1)) nx, y := axis y0 ((y1 - y0) / ((ny : ℚ) - 1)) ny
          cellsize := ((x1 - x0) / ((nx : ℚ) - 1), (y1 - y0) / ((ny : ℚ) - 1)), noData := noData, coordSys := cs } := by
    intro L hL hLl
    rw [hr, zmapStore_eq hx hy hdx hdy hL hLl]
    congr 2
    congr 1
    funext m
    congr 1
    funext n
    generalize n.val * ny + (ny - 1 - m.val) = j
    by_cases hj : j < L.length
    · rw [if_pos hj, List.getD_eq_getElem?_getD, List.getD_eq_getElem?_getD, List.getElem?_eq_getElem hj]
      rfl
    · rw [if_neg hj, List.getD_eq_getElem?_getD, List.getElem?_eq_none (by omega)]
      rfl
  rcases hW with (⟨r, hW⟩ | ⟨a, w, w', b, h1, h2, h3⟩) | hW
  · right
    rw [← hW] at hv
    have hL : List.Forall₂ (fun w v => parseFloat w = some v) W (vs.take W.length) := by
      have := List.forall₂_take W.length hv
      rwa [List.take_left] at this
    refine ⟨W.length, ?_, none, fun v hv => (nomatch hv), ?_⟩
    · have := hv.length_eq
      rw [List.length_append] at this
      omega
    · rw [Option.toList_none, List.append_nil]
      exact good _ hL (by rw [List.length_take]; omega)
  · cases hc : parseFloat w' with
    | none => exact .inl (bad ⟨w', by rw [h2]; simp, hc⟩)
    | some v =>
      right
      have hlen := hv.length_eq
      rw [h1] at hv hlen
      rw [List.length_append, List.length_cons] at hlen
      have hL : List.Forall₂ (fun w v => parseFloat w = some v) W (vs.take a.length ++ [v]) := by
        have := List.forall₂_take a.length hv
        rw [List.take_left] at this
        rw [h2]
        exact List.rel_append this (.cons hc .nil)
      refine ⟨a.length, by omega, some v, fun v' hv' => ?_, ?_⟩
      · obtain rfl := Option.some.inj hv'
        exact ⟨w, w', by rw [h1]; simp, h3, hc⟩
      · exact good _ hL (by rw [List.length_append, List.length_take, Option.toList_some, List.length_singleton]; omega)
  · exact .inl (bad ⟨[], hW, rfl⟩)

/-- A file that ends with the line with the size of the grid, or with a later line of the header, is never refused: the whole
grid is what the memory holds. -/
theorem C79_size {comments more : List Text} {a l2 l3 : Text} (hc : CommentsName comments cs) (ha : zfirst a = some '@')
    (hm : ∀ l ∈ l2 :: l3 :: more, zfields l ≠ [] ∧ zfirst l ≠ some '!' ∧ zfirst l ≠ some '@')
    (h2 : ∃ w0 w1 ws, zfields l2 = w0 :: w1 :: ws ∧ parseFloat w1 = some noData)
    (h3 : ∃ w0 w1 w2 w3 w4 w5 ws, zfields l3 = w0 :: w1 :: w2 :: w3 :: w4 :: w5 :: ws ∧ parseInt w0 = some (ny : ℤ) ∧
      parseInt w1 = some (nx : ℤ) ∧ parseFloat w2 = some (.num x0) ∧ parseFloat w3 = some (.num x1) ∧
      parseFloat w4 = some (.num y0) ∧ parseFloat w5 = some (.num y1))
    (hx : 2 ≤ nx) (hy : 2 ≤ ny) (hdx : x0 ≠ x1) (hdy : y0 ≠ y1) (hn : ∀ l ∈ comments ++ a :: l2 :: l3 :: more, '\n' ∉ l) :
    readZmapGrid env (fileOf (comments ++ a :: l2 :: l3 :: more) []) = .ok
      { grid := List.ofFn fun m : Fin ny => List.ofFn fun n : Fin nx => env.fresh (n * ny + (ny - 1 - m))
        x := axis x0 ((x1 - x0) / ((nx : ℚ) - 1)) nx, y := axis y0 ((y1 - y0) / ((ny : ℚ) - 1)) ny
        cellsize := ((x1 - x0) / ((nx : ℚ) - 1), (y1 - y0) / ((ny : ℚ) - 1)), noData := noData, coordSys := cs } := by
  rw [readZmap_eq, readLines_fileOf hn, readLines_nil, List.append_nil,
    zmapLoop_size hc ha (fun l hl => hm l (by simp at hl ⊢; tauto)) h2 h3]
  have more_ok : ∀ more : List Text, (∀ l ∈ more, zfields l ≠ [] ∧ zfirst l ≠ some '!' ∧ zfirst l ≠ some '@') →
      ∀ s : ZState, 4 ≤ s.header → ∃ k, zmapLoop env s more = .ok { s with header := k } := by
    intro more
    induction more with
    | nil => exact fun _ s _ => ⟨s.header, rfl⟩
    | cons l more ih =>
      intro hm s hs
      obtain ⟨k1, k2, k3⟩ := hm l List.mem_cons_self
      have e : zmapHeaderLine env s (zfields l) = .ok { s with header := s.header + 1 } := by
        unfold zmapHeaderLine
        rw [if_pos (by omega), if_neg (by omega), if_neg (by omega)]
        rfl
      rw [zmapLoop_line k1 k2 k3 (by omega), e, py_ok_bind]
      exact ih (fun l hl => hm l (List.mem_cons_of_mem _ hl)) _ (by dsimp only; omega)
  obtain ⟨k, e⟩ := more_ok more (fun l hl => hm l (by simp [hl])) { zmapBegin env nx ny x0 x1 y0 y1 noData cs with header := 4 }
    (le_refl _)
  rw [e, py_ok_bind]
  have := zmapStore_eq (env := env) (noData := noData) (cs := cs) hx hy hdx hdy (List.Forall₂.nil (R := fun w v => parseFloat w = some v)) (by simp)
  rw [storeWords, py_ok_bind] at this
  exact this

/-- A file that ends with a line of its body is never refused: the lines that are there give the first numbers, the rest of the
grid is whatever the memory holds. Without any line of the body (`b1 = []`) the whole grid is. -/
theorem C79_lines {b1 b2 : List Text} (h : ZmapHead head nx ny x0 x1 y0 y1 noData cs) (hx : 2 ≤ nx) (hy : 2 ≤ ny)
    (hdx : x0 ≠ x1) (hdy : y0 ≠ y1) (hb : ZmapBody (b1 ++ b2)) {vs : List Flt}
    (hv : List.Forall₂ (fun w v => parseFloat w = some v) (bodyWords (b1 ++ b2)) vs) (hl : vs.length ≤ ny * nx)
    (hp : HasLines p (head ++ b1)) :
    readZmapGrid env p = .ok
      { grid := List.ofFn fun m : Fin ny => List.ofFn fun n : Fin nx =>
          (vs.take (bodyWords b1).length).getD (n * ny + (ny - 1 - m)) (env.fresh (n * ny + (ny - 1 - m)))
        x := axis x0 ((x1 - x0) / ((nx : ℚ) - 1)) nx, y := axis y0 ((y1 - y0) / ((ny : ℚ) - 1)) ny
        cellsize := ((x1 - x0) / ((nx : ℚ) - 1), (y1 - y0) / ((ny : ℚ) - 1)), noData := noData, coordSys := cs } := by
  have hb1 : ZmapBody b1 := fun l hl => hb l (List.mem_append_left _ hl)
  have hv1 : List.Forall₂ (fun w v => parseFloat w = some v) (bodyWords b1) (vs.take (bodyWords b1).length) := by
    rw [bodyWords_append] at hv
    have := List.forall₂_take (bodyWords b1).length hv
    rwa [List.take_left] at this
  rw [C72_numbers h hx hy hdx hdy hb1 hp hv1 (by rw [List.length_take]; omega)]
  congr 2
  congr 1
  funext m
  congr 1
  funext n
  generalize n.val * ny + (ny - 1 - m.val) = j
  by_cases hj : j < (vs.take (bodyWords b1).length).length
  · rw [if_pos hj, List.getD_eq_getElem?_getD, List.getD_eq_getElem?_getD, List.getElem?_eq_getElem hj]
    rfl
  · rw [if_neg hj, List.getD_eq_getElem?_getD, List.getElem?_eq_none (by omega)]
    rfl

/-- What is read from such a file depends on what the memory holds in any cell whose number is missing. -/
theorem C79_memory {env' : ZEnv} {b1 b2 : List Text} (h : ZmapHead head nx ny x0 x1 y0 y1 noData cs) (hx : 2 ≤ nx) (hy : 2 ≤ ny)
    (hdx : x0 ≠ x1) (hdy : y0 ≠ y1) (hb : ZmapBody (b1 ++ b2)) {vs : List Flt}
    (hv : List.Forall₂ (fun w v => parseFloat w = some v) (bodyWords (b1 ++ b2)) vs) (hl : vs.length ≤ ny * nx)
    (hp : HasLines p (head ++ b1)) {n m : ℕ} (hn : n < nx) (hm : m < ny)
    (hmiss : (bodyWords b1).length ≤ n * ny + (ny - 1 - m))
    (hne : env.fresh (n * ny + (ny - 1 - m)) ≠ env'.fresh (n * ny + (ny - 1 - m))) :
    readZmapGrid env p ≠ readZmapGrid env' p := by
  rw [C79_lines h hx hy hdx hdy hb hv hl hp, C79_lines h hx hy hdx hdy hb hv hl hp]
  intro e
  have e := congrArg ZmapGrid.grid (Except.ok.inj e)
  dsimp only at e
  have e1 := congrFun (List.ofFn_injective (congrFun (List.ofFn_injective e) ⟨m, hm⟩)) ⟨n, hn⟩
  dsimp only at e1
  rw [List.getD_eq_getElem?_getD, List.getD_eq_getElem?_getD, List.getElem?_eq_none (by rw [List.length_take]; omega)] at e1
  exact hne e1

end

theorem Demo.zbody1_values : List.Forall₂ (fun w v => parseFloat w = some v) (bodyWords Demo.zbody1)
    [.num 1, .num 2, .num 3, .num 4, .num (11 / 2), .num 100] := by
  have e : bodyWords Demo.zbody1 = ["1".toList, "2".toList, "3".toList, "4".toList, "5.5".toList, "1e2".toList] := by
    decide +kernel
  rw [e]
  refine .cons ?_ (.cons ?_ (.cons ?_ (.cons ?_ (.cons ?_ (.cons ?_ .nil)))))
  all_goals decide +kernel

/-- Hence the beginning of a readable file is not always refused or read as the same grid. -/
theorem C79_not_noticed : ¬ ∀ (env : ZEnv) (t p : Text) (r : ZmapGrid), readZmapGrid env t = .ok r → p <+: t →
    (∃ e, readZmapGrid env p = .error e) ∨ readZmapGrid env p = .ok r := by
  intro H
  have hb1 : ZmapBody ([] ++ Demo.zbody1) := Demo.zbody1_ok
  have e := H ⟨fun _ => [], [], [], [], fun _ => .nan⟩ (fileOf (Demo.zhead ++ Demo.zbody1) []) (fileOf Demo.zhead []) _
    (C79_lines (b1 := Demo.zbody1) (b2 := []) Demo.zhead_ok (by norm_num) (by norm_num) (by norm_num) (by norm_num)
      (by rw [List.append_nil]; exact hb1) (by rw [List.append_nil]; exact Demo.zbody1_values) (by decide)
      ⟨by decide +kernel, .inl rfl⟩)
    ⟨fileOf Demo.zbody1 [], by simp [fileOf]⟩
  rw [C79_lines (b1 := []) (b2 := Demo.zbody1) Demo.zhead_ok (by norm_num) (by norm_num) (by norm_num) (by norm_num)
    hb1 Demo.zbody1_values (by decide) ⟨by decide +kernel, .inl (by rw [List.append_nil])⟩] at e
  rcases e with ⟨e, h⟩ | e
  · cases h
  · have e := congrArg ZmapGrid.grid (Except.ok.inj e)
    dsimp only at e
    have e1 := congrFun (List.ofFn_injective (congrFun (List.ofFn_injective e) 0)) 0
    revert e1
    decide +kernel

/-! ### Every end -/

theorem zmapEnd_flat {s : ZState} (h : s.originy = s.maxy) : ∃ e, zmapEnd s = .error e := by
  have step : ∀ {α β : Type} (x : Py α) (f : α → Py β), (∀ a, ∃ e, f a = .error e) → ∃ e, (x >>= f) = .error e := by
    intro α β x f hf
    cases x with
    | error e => exact ⟨e, rfl⟩
    | ok a => exact hf a
  unfold zmapEnd
  dsimp only
  split
  · exact ⟨_, rfl⟩
  split
  · exact ⟨_, rfl⟩
  split
  · exact ⟨_, rfl⟩
  refine step _ _ fun _ => ?_
  rw [h, sub_self, zero_div]
  unfold arange
  rw [if_pos rfl]
  exact ⟨_, rfl⟩

/-- Lines of the header behind the size, the last one cut. -/
theorem zmapLoop_rest {env : ZEnv} {l' : Text} (hl' : l'.head? ≠ some '!') : ∀ more : List Text,
    (∀ l ∈ more, zfields l ≠ [] ∧ zfirst l ≠ some '!' ∧ zfirst l ≠ some '@') →
    ∀ s : ZState, 4 ≤ s.header → ∃ k, zmapLoop env s (more ++ [l']) = .ok { s with header := k } := by
  intro more
  induction more with
  | nil =>
    intro _ s hs
    rw [List.nil_append, zmapLoop, zmapWords_plain hl', py_ok_bind]
    cases hz : zfields l' with
    | nil => exact ⟨s.header, rfl⟩
    | cons w ws =>
      dsimp only
      rw [if_neg (fun e => by omega), py_ok_bind]
      by_cases hw : w.head? = some '@'
      · rw [if_pos hw, if_neg (show ¬ s.header = 0 by omega)]
        refine ⟨-1, ?_⟩
        unfold zmapHeaderLine
        rw [if_neg (show ¬ (0 : ℤ) < -1 by decide)]
        rfl
      · rw [if_neg hw]
        have e : zmapHeaderLine env s (w :: ws) = .ok { s with header := s.header + 1 } := by
          unfold zmapHeaderLine
          rw [if_pos (by omega), if_neg (by omega), if_neg (by omega)]
          rfl
        rw [e]
        exact ⟨_, rfl⟩
  | cons l more ih =>
    intro hm s hs
    obtain ⟨k1, k2, k3⟩ := hm l List.mem_cons_self
    have e : zmapHeaderLine env s (zfields l) = .ok { s with header := s.header + 1 } := by
      unfold zmapHeaderLine
      rw [if_pos (by omega), if_neg (by omega), if_neg (by omega)]
      rfl
    rw [List.cons_append, zmapLoop_line k1 k2 k3 (by omega), e, py_ok_bind]
    exact ih (fun l hl => hm l (List.mem_cons_of_mem _ hl)) _ (by dsimp only; omega)

theorem Spec.Begins.tail {ws' ws : List Text} {w : Text} (h : Begins ws' (w :: ws)) (hl : 2 ≤ ws'.length) :
    ∃ vs, ws' = w :: vs ∧ Begins vs ws := by
  rcases h with h | ⟨a, u, u', b, h1, rfl, h3⟩
  · rcases List.prefix_cons_iff.1 h with rfl | ⟨vs, rfl, h2⟩
    · simp at hl
    · exact ⟨vs, rfl, .inl h2⟩
  · cases a with
    | nil => simp at hl
    | cons x a =>
      obtain ⟨rfl, rfl⟩ := List.cons.inj h1
      exact ⟨a ++ [u'], rfl, .inr ⟨a, u, u', b, rfl, rfl, h3⟩⟩

theorem Spec.Begins.first {ws' ws : List Text} {w : Text} (h : Begins ws' (w :: ws)) (hl : 1 ≤ ws'.length) :
    ∃ w' vs, ws' = w' :: vs ∧ w' <+: w := by
  rcases h with h | ⟨a, u, u', b, h1, rfl, h3⟩
  · rcases List.prefix_cons_iff.1 h with rfl | ⟨vs, rfl, h⟩
    · simp at hl
    · exact ⟨w, vs, rfl, List.prefix_refl _⟩
  · cases a with
    | nil =>
      obtain ⟨rfl, rfl⟩ := List.cons.inj h1
      exact ⟨u', [], rfl, h3⟩
    | cons x a =>
      obtain ⟨rfl, rfl⟩ := List.cons.inj h1
      exact ⟨w, a ++ [u'], rfl, List.prefix_refl _⟩

/-- The prefixes of a line and what follows. -/
theorem prefix_line {p l t : Text} (h : p <+: l ++ '\n' :: t) : p <+: l ∨ ∃ r, p = l ++ '\n' :: r ∧ r <+: t := by
  obtain ⟨u, h⟩ := h
  rcases List.append_eq_append_iff.1 h with ⟨q, rfl, -⟩ | ⟨q, rfl, h1⟩
  · exact .inl (List.prefix_append _ _)
  · have h : q <+: '\n' :: t := ⟨u, h1.symm⟩
    rcases List.prefix_cons_iff.1 h with rfl | ⟨r, rfl, h2⟩
    · exact .inl (by rw [List.append_nil])
    · exact .inr ⟨r, rfl, h2⟩


section
variable {env : ZEnv} {head body : List Text} {nx ny : ℕ} {x0 x1 y0 y1 : ℚ} {noData : Flt} {cs : Text} {t p : Text}

/-- The grid of memory. -/
theorem zmapEnd_memory (hx : 2 ≤ nx) (hy : 2 ≤ ny) (hdx : x0 ≠ x1) (hdy : y0 ≠ y1) (k : ℤ) :
    zmapEnd { zmapBegin env nx ny x0 x1 y0 y1 noData cs with header := k } = .ok
      { grid := List.ofFn fun m : Fin ny => List.ofFn fun n : Fin nx => env.fresh (n * ny + (ny - 1 - m))
        x := axis x0 ((x1 - x0) / ((nx : ℚ) - 1)) nx, y := axis y0 ((y1 - y0) / ((ny : ℚ) - 1)) ny
        cellsize := ((x1 - x0) / ((nx : ℚ) - 1), (y1 - y0) / ((ny : ℚ) - 1)), noData := noData, coordSys := cs } := by
  have := zmapStore_eq (env := env) (noData := noData) (cs := cs) hx hy hdx hdy (List.Forall₂.nil (R := fun w v => parseFloat w = some v)) (by simp)
  rw [storeWords, py_ok_bind] at this
  exact this

/-- A file cut in its header is refused, or read as a grid of memory; a cut in the sixth word of the size changes `y`. -/
theorem zmap_cut_head (h : ZmapHead head nx ny x0 x1 y0 y1 noData cs) (hx : 2 ≤ nx) (hy : 2 ≤ ny) (hdx : x0 ≠ x1)
    (hdy : y0 ≠ y1) (hn : ∀ l ∈ head, '\n' ∉ l) (hp : p <+: fileOf head []) :
    (∃ e, readZmapGrid env p = .error e) ∨
    ∃ y1', (y1' = y1 ∨ ∃ w w', w' <+: w ∧ parseFloat w = some (.num y1) ∧ parseFloat w' = some (.num y1')) ∧
      readZmapGrid env p = .ok
        { grid := List.ofFn fun m : Fin ny => List.ofFn fun n : Fin nx => env.fresh (n * ny + (ny - 1 - m))
          x := axis x0 ((x1 - x0) / ((nx : ℚ) - 1)) nx, y := axis y0 ((y1' - y0) / ((ny : ℚ) - 1)) ny
          cellsize := ((x1 - x0) / ((nx : ℚ) - 1), (y1' - y0) / ((ny : ℚ) - 1)), noData := noData, coordSys := cs } := by
  obtain ⟨comments, a, l2, l3, more, b, rfl, hc, ha, hb, hm, h2, h3⟩ := h
  obtain ⟨p1, p2, p3⟩ := hm l2 (by simp)
  obtain ⟨q1, q2, q3⟩ := hm l3 (by simp)
  have hn' : ∀ l ∈ comments ++ [a, l2, l3], '\n' ∉ l := fun l hl => hn l (by simp at hl ⊢; tauto)
  have hnc : ∀ l ∈ comments ++ [a, l2], '\n' ∉ l := fun l hl => hn' l (by simp at hl ⊢; tauto)
  have e1 : fileOf (comments ++ a :: l2 :: l3 :: more ++ [b]) [] =
      fileOf (comments ++ [a, l2]) [] ++ (l3 ++ '\n' :: fileOf (more ++ [b]) []) := by simp [fileOf]
  rw [e1] at hp
  obtain ⟨u, hu⟩ := hp
  have small : ∀ l3', l3' <+: l3 → (zfields l3').length < 6 → p <+: fileOf (comments ++ [a, l2]) l3' →
      ∃ e, readZmapGrid env p = .error e := fun l3' hcut h6 hp =>
    C79_header_partial hc ha ⟨p1, p2, p3⟩ ⟨q2, q3⟩ hn' hcut h6 hp
  rcases List.append_eq_append_iff.1 hu with ⟨q, hq, -⟩ | ⟨q, rfl, h1⟩
  · exact .inl (small [] (List.nil_prefix) (by decide +kernel) (hq ▸ List.prefix_append p q))
  have ef : ∀ q, fileOf (comments ++ [a, l2]) [] ++ q = fileOf (comments ++ [a, l2]) q := fun q => by simp [fileOf]
  rcases prefix_line ⟨u, h1.symm⟩ with hq | ⟨r, rfl, hr⟩
  · by_cases h6 : (zfields q).length < 6
    · exact .inl (small q hq h6 (by rw [ef]))
    obtain ⟨w0, w1, w2, w3, w4, w5, ws, hw, e0, e1, e2, e3, e4, e5⟩ := h3
    have hB := zfields_prefix hq
    rw [hw] at hB
    obtain ⟨v1, hv, hB1⟩ := hB.tail (by omega)
    rw [hv] at h6
    obtain ⟨v2, rfl, hB2⟩ := hB1.tail (by simp at h6; omega)
    obtain ⟨v3, rfl, hB3⟩ := hB2.tail (by simp at h6; omega)
    obtain ⟨v4, rfl, hB4⟩ := hB3.tail (by simp at h6; omega)
    obtain ⟨v5, rfl, hB5⟩ := hB4.tail (by simp at h6; omega)
    obtain ⟨w', vs, rfl, hw'⟩ := hB5.first (by simp at h6; omega)
    have hz : zfields q ≠ [] := by rw [hv]; simp
    have hf : zfirst q = zfirst l3 := by
      unfold zfirst
      rw [hv, hw]
      rfl
    have hq0 : q ≠ [] := by
      rintro rfl
      exact hz (by decide +kernel)
    have hqn : '\n' ∉ q := fun h => hn' l3 (by simp) (hq.subset h)
    have hread : readLines (fileOf (comments ++ [a, l2]) [] ++ q) = comments ++ a :: l2 :: q :: [] := by
      rw [ef, readLines_fileOf hnc, readLines_last hqn hq0]
      simp
    rw [readZmap_eq, hread]
    by_cases hnum : ∃ y1', parseFloat w' = some (.num y1')
    · obtain ⟨y1', hy1⟩ := hnum
      rw [zmapLoop_size hc ha (l3 := q) (y1 := y1') (fun l hl => by
        rcases List.mem_cons.1 hl with rfl | hl
        · exact ⟨p1, p2, p3⟩
        · rw [List.mem_singleton.1 hl]
          exact ⟨hz, hf ▸ q2, hf ▸ q3⟩) h2 ⟨w0, w1, w2, w3, w4, w', vs, hv, e0, e1, e2, e3, e4, hy1⟩]
      rw [zmapLoop, py_ok_bind]
      by_cases hyy : y0 = y1'
      · left
        exact zmapEnd_flat hyy
      · right
        exact ⟨y1', .inr ⟨w5, w', hw', e5, hy1⟩, zmapEnd_memory hx hy hdx hyy 4⟩
    · left
      obtain ⟨z0, z1, zs, h2, h2'⟩ := h2
      rw [zmapLoop_names hc, zmapLoop_sign ha (show (0 : ℤ) ≠ -1 by decide),
        zmapLoop_line p1 p2 p3 (show (if (0 : ℤ) = 0 then (2 : ℤ) else -1) ≠ -1 by decide), h2]
      have z2 : zmapHeaderLine env { header := if (0 : ℤ) = 0 then 2 else -1, data := [env.fresh 0], coordSys := cs }
          (z0 :: z1 :: zs) = .ok { header := 3, data := [env.fresh 0], coordSys := cs, noData := noData } := by
        unfold zmapHeaderLine
        rw [if_pos (show (0 : ℤ) < if (0 : ℤ) = 0 then (2 : ℤ) else -1 by decide), if_pos (by rfl)]
        unfold pyFloat
        simp only [pyGet, List.getElem?_cons_succ, List.getElem?_cons_zero, py_ok_bind, h2']
        rfl
      rw [z2, py_ok_bind, zmapLoop_line hz (hf ▸ q2) (hf ▸ q3) (show (3 : ℤ) ≠ -1 by decide), hv]
      have hbad : pyCoord w' = .error .valueError := by
        unfold pyCoord
        split
        · rename_i v hv'
          exact (hnum ⟨_, hv'⟩).elim
        · rfl
      have z3 : zmapHeaderLine env { header := 3, data := [env.fresh 0], coordSys := cs, noData := noData }
          (w0 :: w1 :: w2 :: w3 :: w4 :: w' :: vs) = .error .valueError := by
        unfold zmapHeaderLine
        rw [if_pos (show (0 : ℤ) < 3 by decide), if_neg (show ¬ (3 : ℤ) = 2 by decide), if_pos (by rfl)]
        simp only [pyGet, List.getElem?_cons_succ, List.getElem?_cons_zero, py_ok_bind, hbad]
        unfold pyInt pyCoord
        simp only [e0, e1, e2, e3, e4, py_ok_bind]
        rfl
      rw [z3]
      exact ⟨_, rfl⟩
  · right
    refine ⟨y1, .inl rfl, ?_⟩
    have hcl : '\n' ∉ l3 := hn' l3 (by simp)
    have hread : readLines (fileOf (comments ++ [a, l2]) [] ++ (l3 ++ '\n' :: r)) = comments ++ a :: l2 :: l3 :: readLines r := by
      rw [ef, readLines_fileOf hnc, readLines_line hcl]
      simp
    rw [readZmap_eq, hread, zmapLoop_size hc ha (fun l hl => hm l (by simp at hl ⊢; tauto)) h2 h3]
    have hmb : readLines (fileOf (more ++ [b]) []) = more ++ [b] := by
      rw [readLines_fileOf fun l hl => hn l (by simp at hl ⊢; tauto), readLines_nil, List.append_nil]
    have hbang : ∀ l ∈ more ++ [b], l.head? ≠ some '!' := by
      intro l hl e
      rcases List.mem_append.1 hl with hl | hl
      · exact (hm l (by simp [hl])).2.1 (zfirst_bang e)
      · have := zfirst_bang e
        rw [List.mem_singleton.1 hl, hb] at this
        cases this
    have hcase : readLines r = [] ∨ ∃ ls l l' ls', more ++ [b] = ls ++ l :: ls' ∧ readLines r = ls ++ [l'] ∧ l' <+: l := by
      rw [← hmb]
      rcases readLines_prefix _ r hr with ⟨v, h⟩ | h
      · rcases List.eq_nil_or_concat (readLines r) with h0 | ⟨ls, l, h0⟩
        · exact .inl h0
        · rw [List.concat_eq_append] at h0
          refine .inr ⟨ls, l, l, v, ?_, h0, List.prefix_refl _⟩
          rw [← h, h0, List.append_assoc]
          rfl
      · exact .inr h
    rcases hcase with h0 | ⟨ls, l, l', ls', e2, h0, hl'⟩
    · rw [h0, zmapLoop, py_ok_bind]
      exact zmapEnd_memory hx hy hdx hdy 4
    · have hsub : ls <+: more := by
        have : ls ++ l :: ls' = more ++ [b] := e2.symm
        rcases List.prefix_concat_iff.1 (⟨l :: ls', this⟩ : ls <+: more ++ [b]) with h | h
        · have := congrArg List.length this
          rw [h] at this
          simp at this
        · exact h
      obtain ⟨k, e⟩ := zmapLoop_rest (env := env) (l' := l') (fun e => hbang l (by rw [e2]; simp) (by
          obtain ⟨r, rfl⟩ := hl'
          cases l' with
          | nil => cases e
          | cons => exact e)) ls (fun l hl => hm l (by simp [hsub.subset hl]))
        { zmapBegin env nx ny x0 x1 y0 y1 noData cs with header := 4 } (le_refl _)
      rw [h0, e, py_ok_bind]
      exact zmapEnd_memory hx hy hdx hdy k

/-- Wherever a file ends, it is refused, or read with all its cells: `k` numbers as in the complete file, perhaps one more
(what is left of the next number), and for the rest what the memory holds. The coordinates, the no-data value and the
coordinate system are those of the complete file, except that the last `y` is another one if the file ends in the sixth
word of the size line. -/
theorem C79_cut_partial (h : ZmapHead head nx ny x0 x1 y0 y1 noData cs) (hx : 2 ≤ nx) (hy : 2 ≤ ny) (hdx : x0 ≠ x1)
    (hdy : y0 ≠ y1) (hb : ZmapBody body) (ht : HasLines t (head ++ body)) {vs : List Flt}
    (hv : List.Forall₂ (fun w v => parseFloat w = some v) (bodyWords body) vs) (hl : vs.length ≤ ny * nx) (hp : p <+: t) :
    (∃ e, readZmapGrid env p = .error e) ∨
    ∃ k ≤ vs.length, ∃ (cut : Option Flt) (y1' : ℚ),
      (∀ v, cut = some v → ∃ w w', (bodyWords body)[k]? = some w ∧ w' <+: w ∧ parseFloat w' = some v) ∧
      (y1' = y1 ∨ k = 0 ∧ cut = none ∧
        ∃ w w', w' <+: w ∧ parseFloat w = some (.num y1) ∧ parseFloat w' = some (.num y1')) ∧
      readZmapGrid env p = .ok
        { grid := List.ofFn fun m : Fin ny => List.ofFn fun n : Fin nx =>
            (vs.take k ++ cut.toList).getD (n * ny + (ny - 1 - m)) (env.fresh (n * ny + (ny - 1 - m)))
          x := axis x0 ((x1 - x0) / ((nx : ℚ) - 1)) nx, y := axis y0 ((y1' - y0) / ((ny : ℚ) - 1)) ny
          cellsize := ((x1 - x0) / ((nx : ℚ) - 1), (y1' - y0) / ((ny : ℚ) - 1)), noData := noData, coordSys := cs } := by
  by_cases hh : fileOf head [] <+: p
  · rcases C79_body_partial (env := env) h hx hy hdx hdy hb ht hv hl hp hh with he | ⟨k, hk, cut, hc, e⟩
    · exact .inl he
    · exact .inr ⟨k, hk, cut, y1, hc, .inl rfl, e⟩
  · have hpt : p <+: fileOf (head ++ body) [] := by
      rcases ht.2 with e | e
      · rw [← e]; exact hp
      · rw [← e]; exact hp.trans (List.prefix_append _ _)
    have hht : fileOf head [] <+: fileOf (head ++ body) [] := ⟨fileOf body [], by simp [fileOf]⟩
    have hph : p <+: fileOf head [] := (List.prefix_or_prefix_of_prefix hpt hht).resolve_right hh
    rcases zmap_cut_head (env := env) h hx hy hdx hdy (fun l hl => ht.1 l (by simp [hl])) hph with he | ⟨y1', hc, e⟩
    · exact .inl he
    · refine .inr ⟨0, Nat.zero_le _, none, y1', fun v hv => (nomatch hv), ?_, ?_⟩
      · rcases hc with hc | hc
        · exact .inl hc
        · exact .inr ⟨rfl, rfl, hc⟩
      · rw [e]
        rfl

end

/-! ### Examples -/

namespace Demo

theorem zcomments_ok : CommentsName (zhead.take 3) " UTM 32".toList := by
  have h1 : CommentsName (([] : List Text) ++ ["! made by hand".toList]) _ :=
    .comment _ .none ⟨by decide +kernel, fun _ => by unfold NamesSystem; decide +kernel⟩
  have h2 : CommentsName (["! made by hand".toList] ++ ["!  COORDINATE REFERENCE SYSTEM: UTM 32: north".toList])
      " UTM 32".toList :=
    .system "!  COORDINATE REFERENCE SYSTEM".toList " UTM 32".toList ": north".toList h1 (by decide) (by decide) rfl
      (by unfold NamesSystem; decide +kernel) (.inr rfl)
  exact .comment _ h2 ⟨by decide +kernel, fun _ => by unfold NamesSystem; decide +kernel⟩

/-- The file cut in the third line of the header, which then has four words, or anywhere before. -/
example (env : ZEnv) (p : Text) (hp : p <+: fileOf (zhead.take 5) "  3, 2, 10.0, 11".toList) :
    ∃ e, readZmapGrid env p = .error e :=
  C79_header_partial (a := "@wells HEADER, GRID, 3".toList) (l2 := "  15, 1E+30, , 7, 1".toList)
    (l3 := "  3, 2, 10.0, 11.5, -1, 3".toList) (l3' := "  3, 2, 10.0, 11".toList) zcomments_ok (by decide +kernel)
    (by decide +kernel) (by decide +kernel) (by decide +kernel) (by decide +kernel) (by decide +kernel) hp

/-- The file cut behind the third line of the header. -/
example (env : ZEnv) : readZmapGrid env (fileOf (zhead.take 6) []) = .ok
    { grid := [[env.fresh 2, env.fresh 5], [env.fresh 1, env.fresh 4], [env.fresh 0, env.fresh 3]]
      x := [10, 23 / 2], y := [-1, 1, 3]
      cellsize := (3 / 2, 2), noData := .num (10 ^ 30), coordSys := " UTM 32".toList } := by
  have e := C79_size (env := env) (a := "@wells HEADER, GRID, 3".toList) (l2 := "  15, 1E+30, , 7, 1".toList)
    (l3 := "  3, 2, 10.0, 11.5, -1, 3".toList) (more := []) (nx := 2) (ny := 3) (x0 := 10) (x1 := 23 / 2) (y0 := -1) (y1 := 3)
    (noData := .num (10 ^ 30)) zcomments_ok (by decide +kernel) (by decide +kernel)
    ⟨"15".toList, "1E+30".toList, ["".toList, "7".toList, "1".toList], by decide +kernel, by decide +kernel⟩
    ⟨"3".toList, "2".toList, "10.0".toList, "11.5".toList, "-1".toList, "3".toList, [], by decide +kernel, by decide +kernel,
      by decide +kernel, by decide +kernel, by decide +kernel, by decide +kernel, by decide +kernel⟩
    (by norm_num) (by norm_num) (by norm_num) (by norm_num) (by decide +kernel)
  have ex : axis 10 ((23 / 2 - 10) / (((2 : ℕ) : ℚ) - 1)) 2 = [10, 23 / 2] := by decide +kernel
  have ey : axis (-1) ((3 - -1) / (((3 : ℕ) : ℚ) - 1)) 3 = [-1, 1, 3] := by decide +kernel
  rw [ex, ey] at e
  refine Eq.trans (congrArg _ (by decide +kernel)) (e.trans ?_)
  norm_num [List.ofFn_succ]

/-- The file cut behind the first line of its body. -/
example (env : ZEnv) : readZmapGrid env (fileOf (zhead ++ ["1 2 3".toList]) []) = .ok
    { grid := [[.num 3, env.fresh 5], [.num 2, env.fresh 4], [.num 1, env.fresh 3]], x := [10, 23 / 2], y := [-1, 1, 3]
      cellsize := (3 / 2, 2), noData := .num (10 ^ 30), coordSys := " UTM 32".toList } := by
  rw [C79_lines (b1 := ["1 2 3".toList]) (b2 := ["4 5.5 1e2".toList]) zhead_ok (by norm_num) (by norm_num) (by norm_num)
    (by norm_num) zbody1_ok zbody1_values (by decide) ⟨by decide +kernel, .inl rfl⟩]
  have ex : axis 10 ((23 / 2 - 10) / (((2 : ℕ) : ℚ) - 1)) 2 = [10, 23 / 2] := by decide +kernel
  have ey : axis (-1) ((3 - -1) / (((3 : ℕ) : ℚ) - 1)) 3 = [-1, 1, 3] := by decide +kernel
  have e : (bodyWords ["1 2 3".toList]).length = 3 := by decide +kernel
  rw [ex, ey, e]
  norm_num [List.ofFn_succ]

/-- Another memory, another grid. -/
example : readZmapGrid ⟨fun _ => [], [], [], [], fun _ => .num 0⟩ (fileOf (zhead ++ ["1 2 3".toList]) []) ≠
    readZmapGrid ⟨fun _ => [], [], [], [], fun _ => .num 1⟩ (fileOf (zhead ++ ["1 2 3".toList]) []) :=
  C79_memory (b1 := ["1 2 3".toList]) (b2 := ["4 5.5 1e2".toList]) (n := 1) (m := 0) zhead_ok (by norm_num) (by norm_num)
    (by norm_num) (by norm_num) zbody1_ok zbody1_values (by decide) ⟨by decide +kernel, .inl rfl⟩ (by decide) (by decide)
    (by decide +kernel) (by decide +kernel)

/-- Cut behind `1e`, which is no number: refused or not, the file is one of those `C79_body_partial` is about. -/
example (env : ZEnv) := C79_body_partial (env := env) (p := fileOf (zhead ++ ["1 2 3".toList]) "4 5.5 1e".toList) zhead_ok (by norm_num)
  (by norm_num) (by norm_num) (by norm_num) zbody1_ok (t := fileOf (zhead ++ zbody1) []) ⟨by decide +kernel, .inl rfl⟩
  zbody1_values (by decide) (by decide +kernel) (by decide +kernel)

/-- Cut behind the `1` of `1e2`: read without a word as 1 instead of 100. -/
example (env : ZEnv) : readZmapGrid env (fileOf (zhead ++ ["1 2 3".toList]) "4 5.5 1".toList) = .ok
    { grid := [[.num 3, .num 1], [.num 2, .num (11 / 2)], [.num 1, .num 4]], x := [10, 23 / 2], y := [-1, 1, 3]
      cellsize := (3 / 2, 2), noData := .num (10 ^ 30), coordSys := " UTM 32".toList } := by
  have hb : ZmapBody ["1 2 3".toList, "4 5.5 1".toList] := by
    intro l hl
    refine ⟨?_, fun h => ?_⟩
    · revert l; decide +kernel
    · exfalso; revert l; decide +kernel
  rw [C72_meaning zhead_ok (by norm_num) (by norm_num) (by norm_num) (by norm_num) hb ⟨by decide +kernel, .inr (by decide +kernel)⟩
    (v := ![![.num 3, .num 2, .num 1], ![.num 1, .num (11 / 2), .num 4]]) ?_]
  · have ex : axis 10 ((23 / 2 - 10) / (((2 : ℕ) : ℚ) - 1)) 2 = [10, 23 / 2] := by decide +kernel
    have ey : axis (-1) ((3 - -1) / (((3 : ℕ) : ℚ) - 1)) 3 = [-1, 1, 3] := by decide +kernel
    rw [ex, ey]
    norm_num [List.ofFn_succ]
  · have e : bodyWords ["1 2 3".toList, "4 5.5 1".toList] =
        ["1".toList, "2".toList, "3".toList, "4".toList, "5.5".toList, "1".toList] := by decide +kernel
    rw [e]
    refine .cons ?_ (.cons ?_ (.cons ?_ (.cons ?_ (.cons ?_ (.cons ?_ .nil)))))
    all_goals decide +kernel

/-- Wherever the example ends. -/
example (env : ZEnv) (p : Text) (hp : p <+: fileOf (zhead ++ zbody1) []) :=
  C79_cut_partial (env := env) zhead_ok (by norm_num) (by norm_num) (by norm_num) (by norm_num) zbody1_ok
    ⟨by decide +kernel, .inl rfl⟩ zbody1_values (by decide) hp

end Demo

end PyKrige
