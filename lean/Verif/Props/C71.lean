import Verif.Props.C69
import Verif.Props.C32
import Mathlib.Data.List.TakeWhile

/-!
C71: ASC files that end too early (an interrupted `write_asc_grid`, a full disk, an interrupted copy).

Whatever a readable file is cut down to: the beginning is refused, or it is read as the same grid except perhaps for one
number, the last one of the file. For files written by `write_asc_grid` the last number is at stake exactly when the cut goes
through it: what is left of it is read as if it were all.
-/

namespace PyKrige
open Spec

/-! ### Beginnings of files, lines and rows -/

theorem prefix_cases {p l m : Text} (h : p <+: l ++ m) : p <+: l ∨ ∃ q, p = l ++ q ∧ q <+: m := by
  obtain ⟨s, h⟩ := h
  rcases List.append_eq_append_iff.1 h with ⟨a, h1, -⟩ | ⟨c, h1, h2⟩
  · exact .inl ⟨a, h1.symm⟩
  · exact .inr ⟨c, h1, ⟨s, h2.symm⟩⟩

/-- The lines of a beginning of a file: all lines of it are lines of the file, the last one perhaps cut. -/
theorem readLines_prefix (t : Text) : ∀ p : Text, p <+: t → readLines p <+: readLines t ∨
    ∃ ls l l' ls', readLines t = ls ++ l :: ls' ∧ readLines p = ls ++ [l'] ∧ l' <+: l := by
  generalize hn : t.length = n
  induction n using Nat.strong_induction_on generalizing t with
  | _ n ih =>
    intro p hp
    have key : ∀ l ls', '\n' ∉ l → p <+: l → readLines t = l :: ls' → readLines p <+: readLines t ∨
        ∃ ls l l' ls', readLines t = ls ++ l :: ls' ∧ readLines p = ls ++ [l'] ∧ l' <+: l := by
      intro l ls' h1 h2 h3
      by_cases hp0 : p = []
      · subst hp0
        rw [readLines_nil]
        exact .inl List.nil_prefix
      · have : '\n' ∉ p := fun h => h1 (h2.subset h)
        exact .inr ⟨[], l, p, ls', h3, readLines_last this hp0, h2⟩
    rcases split_newline t with h1 | ⟨l, t', h1, rfl⟩
    · by_cases ht : t = []
      · subst ht
        rw [List.prefix_nil.1 hp]
        exact .inl (List.prefix_refl _)
      · exact key t [] h1 hp (readLines_last h1 ht)
    · rcases prefix_cases hp with h | ⟨p', rfl, h⟩
      · exact key l _ h1 h (readLines_line h1 t')
      · rcases List.prefix_cons_iff.1 h with rfl | ⟨p'', rfl, h⟩
        · exact key l _ h1 (by rw [List.append_nil]) (readLines_line h1 t')
        · rw [readLines_line h1, readLines_line h1]
          rcases ih t'.length (by rw [← hn, List.length_append, List.length_cons]; omega) t' rfl p'' ((List.prefix_cons_inj _).1 h) with h2 | ⟨ls, m, m', ls', h2, h3, h4⟩
          · exact .inl (List.prefix_cons_inj l |>.2 h2)
          · exact .inr ⟨l :: ls, m, m', ls', by rw [h2]; rfl, by rw [h3]; rfl, h4⟩

/-- The words of a beginning of a line. -/
theorem pySplit_prefix (t : Text) : ∀ p : Text, p <+: t → pySplit p <+: pySplit t ∨
    ∃ ws w w' ws', pySplit t = ws ++ w :: ws' ∧ pySplit p = ws ++ [w'] ∧ w' <+: w := by
  generalize hn : t.length = n
  induction n using Nat.strong_induction_on generalizing t with
  | _ n ih =>
    intro p hp
    cases t with
    | nil =>
      rw [List.prefix_nil.1 hp]
      exact .inl (List.prefix_refl _)
    | cons c t =>
      rcases List.prefix_cons_iff.1 hp with rfl | ⟨q, rfl, hq⟩
      · rw [pySplit_nil]
        exact .inl List.nil_prefix
      · by_cases hc : c.isWhitespace = true
        · rw [pySplit, if_pos hc, pySplit, if_pos hc]
          exact ih t.length (by rw [← hn]; simp) t rfl q hq
        · have e : t.takeWhile (!·.isWhitespace) ++ t.dropWhile (!·.isWhitespace) = t := List.takeWhile_append_dropWhile
          rw [show pySplit (c :: t) = _ from by rw [pySplit, if_neg hc]]
          have hall : ∀ x ∈ t.takeWhile (!·.isWhitespace), (!x.isWhitespace) = true := fun x hx =>
            List.mem_takeWhile_imp (p := fun c : Char => !c.isWhitespace) hx
          rw [← e] at hq
          have short : q <+: t.takeWhile (!·.isWhitespace) → pySplit (c :: q) = [c :: q] := by
            intro h
            have hall' : ∀ x ∈ q, (!x.isWhitespace) = true := fun x hx => hall x (h.subset hx)
            rw [pySplit, if_neg hc, List.takeWhile_eq_self_iff.2 hall', List.dropWhile_eq_nil_iff.2 hall', pySplit_nil]
          rcases prefix_cases hq with h | ⟨q', rfl, h⟩
          · exact .inr ⟨[], _, _, _, rfl, short h, (List.prefix_cons_inj c).2 h⟩
          · cases q' with
            | nil =>
              rw [List.append_nil] at short ⊢
              exact .inr ⟨[], _, _, _, rfl, short (List.prefix_refl _), List.prefix_refl _⟩
            | cons d q' =>
              have hd : d.isWhitespace = true := by
                obtain ⟨s, hs⟩ := h
                have h0 : t.dropWhile (!·.isWhitespace) ≠ [] := by rw [← hs]; simp
                have := List.head_dropWhile_not (fun c : Char => !c.isWhitespace) h0
                simp only [← hs, List.cons_append, List.head_cons] at this
                simpa using this
              have hlen : (t.dropWhile (!·.isWhitespace)).length < n := by
                rw [← hn, List.length_cons]
                have := (List.dropWhile_suffix (!·.isWhitespace) (l := t)).length_le
                omega
              rw [pySplit, if_neg hc, List.takeWhile_append_of_pos hall, List.dropWhile_append_of_pos hall,
                List.takeWhile_cons_of_neg (by simp [hd]), List.dropWhile_cons_of_neg (by simp [hd]), List.append_nil]
              rcases ih _ hlen _ rfl _ h with h2 | ⟨ws, w, w', ws', h2, h3, h4⟩
              · exact .inl ((List.prefix_cons_inj _).2 h2)
              · exact .inr ⟨_ :: ws, w, w', ws', by rw [h2]; rfl, by rw [h3]; rfl, h4⟩

theorem takeWhile_prefix {α : Type*} (f : α → Bool) {p t : List α} (h : p <+: t) : p.takeWhile f <+: t.takeWhile f := by
  obtain ⟨s, rfl⟩ := h
  rw [List.takeWhile_append]
  split
  · rename_i h1
    rw [(List.takeWhile_prefix f).eq_of_length h1]
    exact List.prefix_append _ _
  · exact List.prefix_refl _

/-- The numbers on a beginning of a line. -/
theorem genRow_prefix {l l' : Text} (h : l' <+: l) : genRow l' <+: genRow l ∨
    ∃ r w w' r', genRow l = r ++ w :: r' ∧ genRow l' = r ++ [w'] := by
  unfold genRow
  rcases pySplit_prefix _ _ (takeWhile_prefix (· ≠ '#') h) with h | ⟨ws, w, w', ws', h1, h2, -⟩
  · exact .inl (h.map _)
  · right
    rw [h1, h2, List.map_append, List.map_append, List.map_cons]
    exact ⟨_, _, _, _, rfl, rfl⟩

/-- Where the header is complete. -/
theorem header_split {ls m : List Text} {h h' : AscHeader} {r : List Text}
    (e : readAscHeader h (ls ++ m) = .ok (h', r)) :
    (∃ l s, m = l :: s ++ r) ∨ ∃ r0, readAscHeader h ls = .ok (h', r0) ∧ r = r0 ++ m := by
  induction ls generalizing h with
  | nil =>
    left
    rw [List.nil_append] at e
    induction m generalizing h with
    | nil => cases e
    | cons l m ih =>
      unfold readAscHeader at e
      split at e
      · obtain ⟨h1, e1, e2⟩ := py_bind_eq_ok.1 e
        by_cases hc : h1.complete
        · rw [if_pos hc] at e2
          cases e2; exact ⟨l, [], rfl⟩
        · rw [if_neg hc] at e2
          obtain ⟨l', s, rfl⟩ := ih e2
          exact ⟨l, l' :: s, rfl⟩
      · cases e
  | cons m ls ih =>
    rw [List.cons_append] at e
    unfold readAscHeader at e ⊢
    split at e
    · rename_i key value hs
      obtain ⟨h1, e1, e2⟩ := py_bind_eq_ok.1 e
      rw [e1, py_ok_bind]
      by_cases hc : h1.complete
      · rw [if_pos hc] at e2 ⊢
        cases e2; exact .inr ⟨_, rfl, rfl⟩
      · rw [if_neg hc] at e2 ⊢
        exact ih e2
    · cases e

theorem header_last {ls : List Text} {h h' : AscHeader} {l : Text} {r : List Text}
    (e : readAscHeader h (ls ++ [l]) = .ok (h', r)) : r = [] ∨ ∃ r0, readAscHeader h ls = .ok (h', r0) ∧ r = r0 ++ [l] := by
  rcases header_split e with ⟨l', s, h1⟩ | h
  · left
    rw [List.cons_append, List.cons.injEq] at h1
    exact (List.append_eq_nil_iff.1 h1.2.symm).2
  · exact .inr h

theorem genfromtxt_eq {lines : List Text} {rows : List (List Flt)} (h : genfromtxt lines = .ok rows) :
    rows = (lines.map genRow).filter (· ≠ []) := by
  unfold genfromtxt at h
  dsimp only at h
  split at h
  · rename_i h1
    rw [h1]
    cases h; rfl
  · rename_i h1
    split at h
    · exact (Except.ok.inj h).symm
    · cases h

theorem checkShape_cols {rows : List (List Flt)} {nr nc : ℤ} (h : checkShape rows nr nc = .ok ()) :
    ∃ r, rows.head? = some r ∧ nc = r.length ∧ r.length ≠ 1 := by
  unfold checkShape at h
  split at h
  · split at h <;> cases h
  · split at h
    · cases h
    · split at h <;> cases h
  · split at h
    · split at h <;> cases h
    · split at h
      · cases h
      · rename_i r _ _ h0 h1
        push Not at h1
        exact ⟨r, rfl, h1.2, h0⟩

theorem genfromtxt_cols {lines : List Text} {rows : List (List Flt)} (h : genfromtxt lines = .ok rows) {nr nc : ℤ}
    (hs : checkShape rows nr nc = .ok ()) {s : List Flt} (hm : s ∈ rows) : (s.length : ℤ) = nc := by
  obtain ⟨r, h1, h2, -⟩ := checkShape_cols hs
  unfold genfromtxt at h
  dsimp only at h
  split at h
  · cases h; cases hm
  · rename_i r' _ h3
    split at h
    · rename_i h4
      have h5 := Except.ok.inj h
      rw [← h5, h3] at h1
      cases h1
      rw [List.all_eq_true] at h4
      have := h4 s (by rw [h5]; exact hm)
      rw [h2, of_decide_eq_true this]
    · cases h

/-! ### The property -/

/-- A beginning of a readable file is refused, or read as the same grid except perhaps for the last number of the last
row. -/
theorem C71_prefix {t p : Text} {g g' : AscGrid} (h : readAscGrid t = .ok g) (hp : p <+: t) (h' : readAscGrid p = .ok g') :
    g'.x = g.x ∧ g'.y = g.y ∧ g'.cellsize = g.cellsize ∧ g'.noData = g.noData ∧
    ∃ row others v v', g.grid = (row ++ [v]) :: others ∧ g'.grid = (row ++ [v']) :: others := by
  obtain ⟨-, hd, rest, rows, x, y, c, h1, h2, h3, h4, rfl⟩ := readable_parts h
  obtain ⟨-, hd', rest', rows', x', y', c', h1', h2', h3', h4', rfl⟩ := readable_parts h'
  have r1 := genfromtxt_eq h2
  have r1' := genfromtxt_eq h2'
  -- a last row and a last number
  have hlast : ∀ R : List (List Flt), R ≠ [] → (∀ s ∈ R, s ≠ []) → ∃ R0 row v, R = R0 ++ [row ++ [v]] := by
    intro R h0 h1
    have hm := h1 _ (List.getLast_mem h0)
    exact ⟨R.dropLast, (R.getLast h0).dropLast, (R.getLast h0).getLast hm, by
      rw [List.dropLast_append_getLast hm, List.dropLast_append_getLast h0]⟩
  have hne : ∀ s ∈ rows, s ≠ [] := fun s hs => by
    rw [r1, List.mem_filter] at hs
    simpa using hs.2
  -- the same rows
  have same : hd' = hd → rows' = rows → x' = x ∧ y' = y ∧ c' = c ∧ hd'.noData.getD .nan = hd.noData.getD .nan ∧
      ∃ row others v v', rows.reverse = (row ++ [v]) :: others ∧ rows'.reverse = (row ++ [v']) :: others := by
    rintro rfl rfl
    rw [h4] at h4'
    cases h4'
    obtain ⟨R0, row, v, e⟩ := hlast _ (checkShape_rows h3).2 hne
    exact ⟨rfl, rfl, rfl, rfl, row, R0.reverse, v, v, by rw [e]; simp, by rw [e]; simp⟩
  rcases readLines_prefix t p hp with ⟨extra, he⟩ | ⟨ls, l, l', ls', he, he', hl⟩
  · rw [← he, header_append h1'] at h1
    cases h1
    refine same rfl ?_
    rw [List.map_append, List.filter_append, ← r1'] at r1
    have e := (checkShape_rows h3).1
    rw [(checkShape_rows h3').1, r1, List.length_append] at e
    have : ((extra.map genRow).filter (· ≠ [])) = [] := List.length_eq_zero_iff.1 (by omega)
    rw [r1, this, List.append_nil]
  · rw [he'] at h1'
    rcases header_last h1' with rfl | ⟨r0, h5, rfl⟩
    · exact absurd (by rw [r1']; rfl) (checkShape_rows h3').2
    · rw [he, header_append h5] at h1
      cases h1
      rw [List.map_append, List.map_cons, List.filter_append, List.filter_cons] at r1
      rw [List.map_append, List.map_cons, List.map_nil, List.filter_append, List.filter_cons, List.filter_nil] at r1'
      have e := (checkShape_rows h3).1
      rw [(checkShape_rows h3').1] at e
      by_cases hc' : genRow l' = []
      · refine same rfl ?_
        rw [if_neg (by simp [hc']), List.append_nil] at r1'
        obtain ⟨B, rB⟩ : ∃ B, rows = ((r0.map genRow).filter (· ≠ [])) ++ B := ⟨_, r1⟩
        rw [← r1'] at rB
        have hB := congrArg List.length rB
        rw [List.length_append] at hB
        rw [rB, List.length_eq_zero_iff.1 (show B.length = 0 by omega), List.append_nil]
      · rw [if_pos (by simpa using hc')] at r1'
        have hc : genRow l ≠ [] := by
          rcases genRow_prefix hl with h6 | ⟨r, w, w', r', h6, -⟩
          · intro h7
            rw [h7] at h6
            exact hc' (List.prefix_nil.1 h6)
          · rw [h6]; simp
        rw [if_pos (by simpa using hc)] at r1
        have e2 : ((genRow l').length : ℤ) = (genRow l).length := by
          rw [genfromtxt_cols h2 h3 (s := genRow l) (by rw [r1]; simp),
            genfromtxt_cols h2' h3' (s := genRow l') (by rw [r1']; simp)]
        have e3 : (ls'.map genRow).filter (· ≠ []) = [] := by
          rw [r1, r1', List.length_append, List.length_append] at e
          simp only [List.length_cons, List.length_nil] at e
          exact List.length_eq_zero_iff.1 (by omega)
        rw [e3] at r1
        rcases genRow_prefix hl with h6 | ⟨r, w, w', r', h6, h7⟩
        · refine same rfl ?_
          rw [r1, r1', h6.eq_of_length (by exact_mod_cast e2)]
        · have : r' = [] := by
            rw [h6, h7] at e2
            simp only [List.length_append, List.length_cons, List.length_nil] at e2
            exact List.length_eq_zero_iff.1 (by omega)
          subst this
          rw [h4] at h4'
          cases h4'
          refine ⟨rfl, rfl, rfl, rfl, r, ((r0.map genRow).filter (· ≠ [])).reverse, w, w', ?_, ?_⟩
          · rw [r1, h6]; simp
          · rw [r1', h7]; simp

/-! ### The last word -/

/-- `w` is the last word of the file `t`: it follows `front` (`before` whole lines and the beginning `a` of a line), is
followed only by blanks and newlines, and is not part of a comment. -/
structure Spec.LastWord (t front w : Text) : Prop where
  parts : ∃ before a b, front = before ++ a ∧ t = front ++ w ++ b ∧ (before = [] ∨ before.getLast? = some '\n') ∧
    '\n' ∉ a ∧ '#' ∉ a ∧ (∀ c ∈ a.getLast?, c.isWhitespace = true) ∧ ∀ c ∈ b, c.isWhitespace = true
  nonempty : w ≠ []
  oneWord : ∀ c ∈ w, c.isWhitespace = false ∧ c ≠ '#'

theorem readLines_whole {before : Text} (h : before = [] ∨ before.getLast? = some '\n') (s : Text) :
    readLines (before ++ s) = readLines before ++ readLines s := by
  generalize hn : before.length = n
  induction n using Nat.strong_induction_on generalizing before with
  | _ n ih =>
    rcases h with rfl | h
    · rw [readLines_nil]; rfl
    · rcases split_newline before with h1 | ⟨l, t', h1, rfl⟩
      · exact absurd (List.mem_of_mem_getLast? h) h1
      · rw [List.append_assoc, List.cons_append, readLines_line h1, readLines_line h1, List.cons_append,
          ih t'.length (by rw [← hn, List.length_append, List.length_cons]; omega) ?_ rfl]
        cases t' with
        | nil => exact .inl rfl
        | cons d t' =>
          right
          rw [List.getLast?_append, List.getLast?_cons_cons] at h
          rw [← h, List.getLast?_eq_some_getLast (List.cons_ne_nil d t')]; rfl

theorem pySplit_append {a : Text} (h : ∀ c ∈ a.getLast?, c.isWhitespace = true) (s : Text) :
    pySplit (a ++ s) = pySplit a ++ pySplit s := by
  generalize hn : a.length = n
  induction n using Nat.strong_induction_on generalizing a with
  | _ n ih =>
    cases a with
    | nil => rw [pySplit_nil]; rfl
    | cons c a =>
      have hlast : ∀ a' : Text, a' <:+ a → a' ≠ [] → a'.getLast? = (c :: a).getLast? := by
        rintro a' ⟨u, rfl⟩ h0
        rw [← List.cons_append, List.getLast?_append, List.getLast?_eq_some_getLast h0]
        rfl
      have hl' : ∀ a' : Text, a' <:+ a → ∀ d ∈ a'.getLast?, d.isWhitespace = true := by
        intro a' h1 d hd
        by_cases h0 : a' = []
        · subst h0; cases hd
        · rw [hlast a' h1 h0] at hd
          exact h d hd
      by_cases hc : c.isWhitespace = true
      · rw [List.cons_append, pySplit, if_pos hc, pySplit, if_pos hc]
        exact ih a.length (by rw [← hn]; simp) (hl' a (List.suffix_refl _)) rfl
      · have hne : a.dropWhile (!·.isWhitespace) ≠ [] := by
          intro h0
          rw [List.dropWhile_eq_nil_iff] at h0
          have hm : ∀ d ∈ (c :: a).getLast?, d.isWhitespace = false := by
            intro d hd
            rcases List.mem_cons.1 (List.mem_of_mem_getLast? hd) with rfl | hd
            · simpa using hc
            · simpa using h0 d hd
          have h1 := List.getLast?_eq_some_getLast (List.cons_ne_nil c a)
          have h2 := h _ h1
          rw [hm _ h1] at h2
          cases h2
        have e : a.takeWhile (!·.isWhitespace) ++ a.dropWhile (!·.isWhitespace) = a := List.takeWhile_append_dropWhile
        have hall : ∀ x ∈ a.takeWhile (!·.isWhitespace), (!x.isWhitespace) = true := fun x hx =>
          List.mem_takeWhile_imp (p := fun c : Char => !c.isWhitespace) hx
        have hw := List.head_dropWhile_not (fun c : Char => !c.isWhitespace) hne
        have e1 : (a ++ s).takeWhile (!·.isWhitespace) = a.takeWhile (!·.isWhitespace) := by
          conv_lhs => rw [← e]
          rw [List.append_assoc, List.takeWhile_append_of_pos hall]
          obtain ⟨d, r, hd⟩ := List.exists_cons_of_ne_nil hne
          simp only [hd, List.head_cons] at hw
          rw [hd, List.cons_append, List.takeWhile_cons_of_neg (by simpa using hw), List.append_nil]
        have e2 : (a ++ s).dropWhile (!·.isWhitespace) = a.dropWhile (!·.isWhitespace) ++ s := by
          conv_lhs => rw [← e]
          rw [List.append_assoc, List.dropWhile_append_of_pos hall]
          obtain ⟨d, r, hd⟩ := List.exists_cons_of_ne_nil hne
          simp only [hd, List.head_cons] at hw
          rw [hd, List.cons_append, List.dropWhile_cons_of_neg (by simpa using hw)]
        rw [List.cons_append, pySplit, if_neg hc, pySplit, if_neg hc, e1, e2, ih _ ?_ (hl' _ (List.dropWhile_suffix _)) rfl,
          List.cons_append]
        rw [← hn, List.length_cons]
        have := (List.dropWhile_suffix (!·.isWhitespace) (l := a)).length_le
        omega

theorem blank_lines {b : Text} (h : ∀ c ∈ b, c.isWhitespace = true) : ∀ l ∈ readLines b, ∀ c ∈ l, c.isWhitespace = true := by
  generalize hn : b.length = n
  induction n using Nat.strong_induction_on generalizing b with
  | _ n ih =>
    rcases split_newline b with h1 | ⟨l, t', h1, rfl⟩
    · by_cases h0 : b = []
      · subst h0; rw [readLines_nil]; simp
      · rw [readLines_last h1 h0]; simpa using h
    · rw [readLines_line h1]
      intro q hq
      rcases List.mem_cons.1 hq with rfl | hq
      · exact fun c hc => h c (List.mem_append_left _ hc)
      · exact ih t'.length (by rw [← hn, List.length_append, List.length_cons]; omega)
          (fun c hc => h c (List.mem_append_right _ (List.mem_cons_of_mem _ hc))) rfl q hq

theorem genRow_blank {l : Text} (h : ∀ c ∈ l, c.isWhitespace = true) : genRow l = [] := by
  unfold genRow
  rw [pySplit_blanks fun c hc => h c ((List.takeWhile_prefix _).subset hc)]
  rfl

/-- The lines of a file that ends in the line `a`, the word `w` and blanks. -/
theorem readLines_word {before a w b : Text} (h0 : before = [] ∨ before.getLast? = some '\n') (ha : '\n' ∉ a)
    (hw : '\n' ∉ w) (hne : w ≠ []) (hb : ∀ c ∈ b, c.isWhitespace = true) :
    ∃ b0 bs, readLines (before ++ (a ++ w ++ b)) = readLines before ++ (a ++ w ++ b0) :: bs ∧
      (∀ c ∈ b0, c.isWhitespace = true) ∧ ∀ l ∈ bs, genRow l = [] := by
  rw [readLines_whole h0]
  rcases split_newline b with h1 | ⟨l, t', h1, rfl⟩
  · refine ⟨b, [], ?_, hb, by simp⟩
    rw [readLines_last (l := a ++ w ++ b) (by simp [h1, ha, hw]) (by simp [hne])]
  · refine ⟨l, readLines t', ?_, fun c hc => hb c (List.mem_append_left _ hc), fun q hq => genRow_blank ?_⟩
    · rw [← List.append_assoc, readLines_line (l := a ++ w ++ l) (by simp [ha, hw, h1])]
    · exact blank_lines (fun c hc => hb c (List.mem_append_right _ (List.mem_cons_of_mem _ hc))) q hq

theorem genRow_word {a w b : Text} (ha : '#' ∉ a) (hl : ∀ c ∈ a.getLast?, c.isWhitespace = true) (hne : w ≠ [])
    (hw : ∀ c ∈ w, c.isWhitespace = false ∧ c ≠ '#') (hb : ∀ c ∈ b, c.isWhitespace = true) :
    genRow (a ++ w ++ b) = genRow a ++ [(parseFloat w).getD .nan] := by
  have hbh : '#' ∉ b := fun h => absurd (hb _ h) (by decide)
  have hwh : '#' ∉ w := fun h => (hw _ h).2 rfl
  unfold genRow
  rw [takeWhile_hash (by simp [ha, hbh, hwh]), takeWhile_hash ha, List.append_assoc, pySplit_append hl,
    pySplit_word ⟨hne, fun c hc => (hw c hc).1⟩, pySplit_blanks hb, List.map_append]
  · rfl
  · intro c hc
    exact hb c (List.mem_of_mem_head? hc)

theorem genfromtxt_same {lines lines' : List Text} {rows rows' : List (List Flt)} (h : genfromtxt lines = .ok rows)
    (h' : rows' = (lines'.map genRow).filter (· ≠ [])) (e : rows'.map List.length = rows.map List.length) :
    genfromtxt lines' = .ok rows' := by
  have h1 := genfromtxt_eq h
  unfold genfromtxt at h ⊢
  dsimp only at h ⊢
  rw [← h1] at h
  rw [← h']
  cases rows' with
  | nil => rfl
  | cons r' R' =>
    cases rows with
    | nil => cases e
    | cons r R =>
      dsimp only at h ⊢
      split at h
      · rename_i h2
        rw [if_pos]
        rw [List.all_eq_true] at h2 ⊢
        intro s hs
        have hm : s.length ∈ (r :: R).map List.length := by rw [← e]; exact List.mem_map_of_mem hs
        obtain ⟨u, hu, hul⟩ := List.mem_map.1 hm
        have := of_decide_eq_true (h2 u hu)
        rw [List.map_cons, List.map_cons, List.cons.injEq] at e
        rw [decide_eq_true_eq, ← hul, this, e.1]
      · cases h

theorem checkShape_same {rows rows' : List (List Flt)} (e : rows'.map List.length = rows.map List.length) (nr nc : ℤ) :
    checkShape rows' nr nc = checkShape rows nr nc := by
  match rows, rows', e with
  | [], [], _ => rfl
  | [r], [r'], e =>
    have : r'.length = r.length := by simpa using e
    simp only [checkShape, this]
  | r :: s :: R, r' :: s' :: R', e =>
    simp only [List.map_cons, List.cons.injEq] at e
    have h2 : R'.length = R.length := by simpa using congrArg List.length e.2.2
    simp only [checkShape, e.1, List.length_cons, h2]
  | [], r :: R, e => cases e
  | r :: R, [], e => cases e
  | [r], r' :: s' :: R', e => simp at e
  | r :: s :: R, [r'], e => simp at e

section
variable {t front w : Text} {g : AscGrid}

/-- A readable file and its last word: the row it is in. -/
theorem lastWord_parts (h : readAscGrid t = .ok g) {before a b : Text} (ht : t = before ++ (a ++ w ++ b))
    (h0 : before = [] ∨ before.getLast? = some '\n') (ha : '\n' ∉ a) (hh : '#' ∉ a)
    (hl : ∀ c ∈ a.getLast?, c.isWhitespace = true) (hb : ∀ c ∈ b, c.isWhitespace = true) (hne : w ≠ [])
    (hw : ∀ c ∈ w, c.isWhitespace = false ∧ c ≠ '#') : ∃ hd r0 rest rows x y c,
    readAscHeader {} (readLines before) = .ok (hd, r0) ∧ genfromtxt rest = .ok rows ∧
    rows = (r0.map genRow).filter (· ≠ []) ++ [genRow a ++ [(parseFloat w).getD .nan]] ∧
    checkShape rows (hd.nrows.getD 0) (hd.ncols.getD 0) = .ok () ∧
    ascCoordinates hd (hd.ncols.getD 0) (hd.nrows.getD 0) = .ok (x, y, c) ∧
    g = { grid := rows.reverse, x := x, y := y, cellsize := c, noData := hd.noData.getD .nan } := by
  obtain ⟨-, hd, rest, rows, x, y, c, h1, h2, h3, h4, rfl⟩ := readable_parts h
  have hnw : '\n' ∉ w := fun h => absurd (hw _ h).1 (by decide)
  obtain ⟨b0, bs, e, hb0, hbs⟩ := readLines_word h0 ha hnw hne hb
  have hbs0 : ∀ l : List Text, (∀ q ∈ l, genRow q = []) → (l.map genRow).filter (· ≠ []) = [] := by
    intro l hl
    rw [List.filter_eq_nil_iff]
    intro r hr
    obtain ⟨q, hq, rfl⟩ := List.mem_map.1 hr
    simp [hl q hq]
  rw [ht, e] at h1
  rcases header_split h1 with ⟨l, s, h5⟩ | ⟨r0, h5, rfl⟩
  · rw [List.cons_append, List.cons.injEq] at h5
    have := genfromtxt_eq h2
    rw [hbs0 rest fun q hq => hbs q (by rw [h5.2]; exact List.mem_append_right _ hq)] at this
    exact absurd this (checkShape_rows h3).2
  · refine ⟨hd, r0, _, rows, x, y, c, h5, h2, ?_, h3, h4, rfl⟩
    rw [genfromtxt_eq h2, List.map_append, List.map_cons, List.filter_append, List.filter_cons, hbs0 bs hbs,
      genRow_word hh hl hne hw hb0, if_pos (by simp)]

/-- What a readable file cut somewhere is read as: nothing if the last word has not begun, else as the same grid with what
is left of the last word (undefined if that is not a number) in place of the last number. -/
theorem C71_exact (h : readAscGrid t = .ok g) (hw : LastWord t front w) :
    (∀ p, p <+: front → ∃ e, readAscGrid p = .error e) ∧
    ∃ row others, g.grid = (row ++ [(parseFloat w).getD .nan]) :: others ∧
      ∀ p, p <+: t → ¬ p <+: front → readAscGrid p =
        .ok { g with grid := (row ++ [(parseFloat (w.take (p.length - front.length))).getD .nan]) :: others } := by
  obtain ⟨⟨before, a, b, rfl, ht, h0, ha, hh, hl, hb⟩, hne, hw⟩ := hw
  have ht' : t = before ++ (a ++ w ++ b) := by rw [ht]; simp
  obtain ⟨hd, r0, rest, rows, x, y, c, h1, h2, h3, h4, h5, rfl⟩ := lastWord_parts h ht' h0 ha hh hl hb hne hw
  constructor
  · intro p hp
    cases hr : readAscGrid p with
    | error e => exact ⟨e, rfl⟩
    | ok g' =>
      exfalso
      obtain ⟨-, hd', rest', rows', x', y', c', h1', h2', h4', -, -⟩ := readable_parts hr
      have r' := genfromtxt_eq h2'
      have n := (checkShape_rows h4).1
      have n' := (checkShape_rows h4').1
      rw [h3, List.length_append, List.length_singleton] at n
      rcases prefix_cases hp with hp | ⟨a', rfl, hpa⟩
      · rcases readLines_prefix _ _ hp with ⟨ex, he⟩ | ⟨ls, l, l', ls', he, he', hl'⟩
        · rw [← he, header_append h1'] at h1
          cases h1
          rw [List.map_append, List.filter_append, ← r', List.length_append] at n
          omega
        · rw [he'] at h1'
          rcases header_last h1' with rfl | ⟨r1, h6, rfl⟩
          · exact absurd (by rw [r']; rfl) (checkShape_rows h4').2
          · rw [he, header_append h6] at h1
            cases h1
            rw [List.map_append, List.map_cons, List.filter_append, List.filter_cons, List.length_append] at n
            rw [r', List.map_append, List.map_cons, List.map_nil, List.filter_append, List.filter_cons, List.filter_nil,
              List.length_append] at n'
            by_cases hc' : genRow l' = []
            · rw [if_neg (by simp [hc']), List.length_nil] at n'
              omega
            · rw [if_pos (by simpa using hc'), List.length_singleton] at n'
              have hc : genRow l ≠ [] := by
                rcases genRow_prefix hl' with h6 | ⟨r, w, w', r', h6, -⟩
                · intro h7
                  rw [h7] at h6
                  exact hc' (List.prefix_nil.1 h6)
                · rw [h6]; simp
              rw [if_pos (by simpa using hc), List.length_cons] at n
              omega
      · have ha' : '\n' ∉ a' := fun h => ha (hpa.subset h)
        rw [readLines_whole h0, header_append h1] at h1'
        cases h1'
        have e : readLines a' = [] ∨ readLines a' = [a'] := by
          by_cases ha0 : a' = []
          · left; rw [ha0, readLines_nil]
          · exact .inr (readLines_last ha' ha0)
        rw [List.map_append, List.filter_append] at r'
        rw [r', List.length_append] at n'
        have hshort : (genRow a').length ≤ (genRow a).length := by
          rcases genRow_prefix hpa with h6 | ⟨r, w, w', r', h6, h7⟩
          · exact h6.length_le
          · rw [h6, h7]; simp
        rcases e with e | e
        · rw [e, List.map_nil, List.filter_nil, List.length_nil] at n'
          omega
        · rw [e, List.map_cons, List.map_nil, List.filter_cons, List.filter_nil] at r' n'
          by_cases hc : genRow a' = []
          · rw [if_neg (by simp [hc]), List.length_nil] at n'
            omega
          · rw [if_pos (by simpa using hc)] at r'
            have q1 := genfromtxt_cols h2' h4' (s := genRow a') (by rw [r']; simp)
            have q2 := genfromtxt_cols h2 h4 (s := genRow a ++ [(parseFloat w).getD .nan]) (by rw [h3]; simp)
            rw [List.length_append, List.length_singleton] at q2
            omega
  · refine ⟨genRow a, ((r0.map genRow).filter (· ≠ [])).reverse, by rw [h3]; simp, ?_⟩
    intro p hp hp'
    obtain ⟨q, rfl, hq⟩ : ∃ q, p = before ++ a ++ q ∧ q <+: w ++ b := by
      rw [ht, List.append_assoc] at hp
      rcases prefix_cases hp with hp | h
      · exact absurd hp hp'
      · exact h
    have hq0 : q ≠ [] := by
      rintro rfl
      exact hp' (by rw [List.append_nil])
    rw [List.length_append (as := before ++ a), Nat.add_sub_cancel_left]
    obtain ⟨b', hqb, hb'⟩ : ∃ b', q = w.take q.length ++ b' ∧ ∀ c ∈ b', c.isWhitespace = true := by
      rcases prefix_cases hq with hq | ⟨q', rfl, hq2⟩
      · exact ⟨[], by rw [List.append_nil]; exact List.prefix_iff_eq_take.1 hq, by simp⟩
      · refine ⟨q', ?_, fun c hc => hb c (hq2.subset hc)⟩
        rw [List.take_of_length_le (by simp)]
    have hw'0 : w.take q.length ≠ [] := by
      have := List.length_pos_iff.2 hq0
      have := List.length_pos_iff.2 hne
      intro h
      have := congrArg List.length h
      rw [List.length_take, List.length_nil] at this
      omega
    have hw' : ∀ c ∈ w.take q.length, c.isWhitespace = false ∧ c ≠ '#' := fun c hc => hw c (List.mem_of_mem_take hc)
    generalize w.take q.length = w' at *
    subst hqb
    have hnw : '\n' ∉ w' := fun h => absurd (hw' _ h).1 (by decide)
    obtain ⟨b0, bs, e, hb0, hbs⟩ := readLines_word h0 ha hnw hw'0 hb'
    have hbs0 : (bs.map genRow).filter (· ≠ []) = [] := by
      rw [List.filter_eq_nil_iff]
      intro r hr
      obtain ⟨q, hq, rfl⟩ := List.mem_map.1 hr
      simp [hbs q hq]
    have hrows : ((r0 ++ (a ++ w' ++ b0) :: bs).map genRow).filter (· ≠ []) =
        (r0.map genRow).filter (· ≠ []) ++ [genRow a ++ [(parseFloat w').getD .nan]] := by
      rw [List.map_append, List.map_cons, List.filter_append, List.filter_cons, genRow_word hh hl hw'0 hw' hb0,
        if_pos (by simp), hbs0]
    have hlen : ((r0.map genRow).filter (· ≠ []) ++ [genRow a ++ [(parseFloat w').getD .nan]]).map List.length =
        rows.map List.length := by
      rw [h3]; simp
    unfold readAscGrid
    rw [show before ++ a ++ (w' ++ b') = before ++ (a ++ w' ++ b') by simp, e, header_append h1]
    simp only [py_ok_bind]
    rw [genfromtxt_same h2 hrows.symm hlen, py_ok_bind, checkShape_same hlen, h4, py_ok_bind, h5, py_ok_bind]
    simp

/-- A cut behind the last word does no harm. -/
theorem C71_whole (h : readAscGrid t = .ok g) (hw : LastWord t front w) {p : Text} (hp : p <+: t)
    (hl : front ++ w <+: p) : readAscGrid p = .ok g := by
  obtain ⟨-, row, others, h1, h2⟩ := C71_exact h hw
  have hl := hl.length_le
  have hw0 := List.length_pos_iff.2 hw.nonempty
  rw [List.length_append] at hl
  rw [h2 p hp fun h => by have := h.length_le; omega, List.take_of_length_le (by omega), ← h1]

end

/-! ### Files written by `write_asc_grid` -/

theorem ends_flatMap {α : Type*} (f : α → Text) (l : List α) {u : Text} (h : u.getLast? = some '\n') :
    (u ++ l.flatMap fun m => f m ++ ['\n']).getLast? = some '\n' := by
  induction l generalizing u with
  | nil => simpa using h
  | cons m l ih =>
    rw [List.flatMap_cons, ← List.append_assoc]
    exact ih (by rw [← List.append_assoc]; exact List.getLast?_concat)

theorem headerLine_ends (u : Text) (key : String) (value : Text) : (u ++ headerLine key value).getLast? = some '\n' := by
  unfold headerLine
  rw [← List.append_assoc]
  exact List.getLast?_concat

section
variable {nr nc : ℕ} {file : Option Text} {x y : List ℚ} {z : Fin nr → Fin nc → Option Flt} {noData : Flt} {t : Text}
  {style : ℤ}

theorem written_any (hw : writeAscGrid file x y z noData style = (.ok (), some t)) :
    ∃ header : Text, header.getLast? = some '\n' ∧ t = header ++ ascBody (fillMasked z noData) := by
  unfold writeAscGrid at hw
  dsimp only at hw
  split at hw
  · cases (Prod.ext_iff.1 hw).1
  · split at hw
    · exact ⟨_, headerLine_ends _ _ _, (Option.some.inj (Prod.ext_iff.1 hw).2).symm⟩
    · split at hw
      · exact ⟨_, headerLine_ends _ _ _, (Option.some.inj (Prod.ext_iff.1 hw).2).symm⟩
      · cases (Prod.ext_iff.1 hw).1

/-- The last word of a written file is the last number of the first row of the grid (the row at the bottom of the map), as
printed in its field of 16 characters. -/
theorem C71_written (hr : 2 ≤ nr) (hc : 2 ≤ nc) (hw : writeAscGrid file x y z noData style = (.ok (), some t))
    (hfit : ∀ i (j : Fin nc), j.val + 1 < nc → FitsAsc ((z i j).getD noData)) :
    ∃ front, LastWord t front (fltFixed 2 ((z ⟨0, by omega⟩ ⟨nc - 1, by omega⟩).getD noData)) ∧
      t = front ++ padRight 16 (fltFixed 2 ((z ⟨0, by omega⟩ ⟨nc - 1, by omega⟩).getD noData)) := by
  obtain ⟨header, hh, rfl⟩ := written_any hw
  obtain ⟨k, rfl⟩ : ∃ k, nr = k + 1 := ⟨nr - 1, by omega⟩
  obtain ⟨m, rfl⟩ : ∃ m, nc = m + 1 := ⟨nc - 1, by omega⟩
  set v := (z ⟨0, by omega⟩ ⟨m + 1 - 1, by omega⟩).getD noData with hv
  have hbody : ascBody (fillMasked z noData) = ((List.finRange k).map Fin.succ).reverse.flatMap
      (fun i => ascRow (fillMasked z noData i) ++ ['\n']) ++ ascRow (fillMasked z noData 0) := by
    unfold ascBody
    have e : (List.finRange (k + 1)).reverse = ((List.finRange k).map Fin.succ).reverse ++ [0] := by
      rw [List.finRange_succ, List.reverse_cons]
    rw [e, List.flatMap_append, List.flatMap_singleton, if_neg (by simp), List.append_nil]
    congr 1
    apply List.flatMap_congr
    intro i hi
    rw [List.mem_reverse, List.mem_map] at hi
    obtain ⟨j, -, rfl⟩ := hi
    rw [if_pos (by simp)]
  have hrow : ascRow (fillMasked z noData 0) =
      ascRow (fun j : Fin m => fillMasked z noData 0 j.castSucc) ++ padRight 16 (fltFixed 2 v) := by
    rw [ascRow_eq, ascRow_eq, List.ofFn_succ', List.concat_eq_append, List.flatMap_append, List.flatMap_singleton]
    rfl
  have hlast : ∀ c ∈ (ascRow (fun j : Fin m => fillMasked z noData 0 j.castSucc)).getLast?, c.isWhitespace = true := by
    obtain ⟨n, rfl⟩ : ∃ n, m = n + 1 := ⟨m - 1, by omega⟩
    have hf := fits_length (hfit 0 (Fin.castSucc (Fin.last n)) (by simp))
    rw [ascRow_eq, List.ofFn_succ', List.concat_eq_append, List.flatMap_append, List.flatMap_singleton]
    intro c hc
    unfold padRight at hc
    rw [← List.append_assoc, List.getLast?_append] at hc
    obtain ⟨d, hd⟩ : ∃ d, 16 - (fltFixed 2 (fillMasked z noData 0 (Fin.castSucc (Fin.last n)))).length = d + 1 :=
      ⟨15 - (fltFixed 2 (fillMasked z noData 0 (Fin.castSucc (Fin.last n)))).length, by
        change (fltFixed 2 (fillMasked z noData 0 (Fin.castSucc (Fin.last n)))).length < 16 at hf
        omega⟩
    rw [hd, List.replicate_succ', List.getLast?_concat] at hc
    cases hc
    rfl
  refine ⟨_, ⟨⟨header ++ ((List.finRange k).map Fin.succ).reverse.flatMap
      (fun i => ascRow (fillMasked z noData i) ++ ['\n']), ascRow (fun j : Fin m => fillMasked z noData 0 j.castSucc),
      List.replicate (16 - (fltFixed 2 v).length) ' ', rfl, ?_, .inr (ends_flatMap _ _ hh), newline_not_ascRow _,
      hash_not_ascRow _, hlast, ?_⟩, (fltFixed_word 2 v).1, ?_⟩, ?_⟩
  · rw [hbody, hrow]
    unfold padRight
    simp only [List.append_assoc]
  · intro c hc
    rw [List.eq_of_mem_replicate hc]
    rfl
  · intro c hc
    refine ⟨(fltFixed_word 2 v).2 c hc, ?_⟩
    rintro rfl
    exact hash_not_fltFixed 2 v hc
  · rw [hbody, hrow]
    simp only [List.append_assoc]

/-- A written file that lacks its last field or more cannot be read. -/
theorem C71_field_missing (hr : 2 ≤ nr) (hc : 2 ≤ nc) (hw : writeAscGrid file x y z noData style = (.ok (), some t))
    (hfit : ∀ i j, FitsAsc ((z i j).getD noData)) {g : AscGrid} (h : readAscGrid t = .ok g) {p : Text} (hp : p <+: t)
    (hl : p.length + 16 ≤ t.length) : ∃ e, readAscGrid p = .error e := by
  obtain ⟨front, h1, h2⟩ := C71_written hr hc hw fun i j _ => hfit i j
  refine (C71_exact h h1).1 p ?_
  have hf := fits_length (hfit ⟨0, by omega⟩ ⟨nc - 1, by omega⟩)
  have h3 := congrArg List.length h2
  unfold padRight at h3
  rw [List.length_append, List.length_append, List.length_replicate] at h3
  refine List.prefix_of_prefix_length_le hp (by rw [h2]; exact List.prefix_append _ _) (by omega)

end

/-- A file cut in the middle of the last number is read without complaint, with a wrong number: the grid was all 1.75, the
last number comes back as 1.7. -/
theorem C71_cut_number : ¬ ∀ (z : Fin 2 → Fin 2 → Option Flt) (t p : Text) (g g' : AscGrid),
    writeAscGrid none (axis 10 (1 / 2) 2) (axis 0 (1 / 4) 2) z .nan 1 = (.ok (), some t) → readAscGrid t = .ok g →
    p <+: t → readAscGrid p = .ok g' → g' = g := by
  intro H
  obtain ⟨t, ht⟩ := C32_accepts (file := none) (z := fun _ _ : Fin 2 => some (.num (7 / 4))) (noData := .nan)
    (by norm_num) (by norm_num) 10 (1 / 2) 0 (1 / 4) 1 (.inl rfl)
  have h := C32_exact_1 (by norm_num) (by norm_num) ht (by norm_num) (by norm_num) ⟨1000, by norm_num⟩ ⟨50, by norm_num⟩
    ⟨0, by norm_num⟩ ⟨25, by norm_num⟩ trivial (fun _ _ _ => by norm_num [FitsAsc]) (fun _ _ => ⟨175, by norm_num⟩)
  obtain ⟨front, h1, h2⟩ := C71_written (by norm_num) (by norm_num) ht (fun _ _ _ => by norm_num [FitsAsc])
  have hw : fltFixed 2 (.num (7 / 4)) = "1.75".toList := by decide +kernel
  simp only [Option.getD_some] at h1 h2
  rw [hw] at h1 h2
  obtain ⟨-, row, others, h3, h4⟩ := C71_exact h h1
  have hp : front ++ "1.7".toList <+: t := by
    rw [h2, List.prefix_append_right_inj]
    decide +kernel
  have h5 := h4 _ hp fun h => by
    have := h.length_le
    rw [List.length_append] at this
    simp at this
  rw [List.length_append, Nat.add_sub_cancel_left] at h5
  have h6 := H _ _ _ _ _ ht h hp h5
  have h7 := congrArg AscGrid.grid h6
  dsimp only at h3 h7
  rw [h3, List.cons.injEq, List.append_cancel_left_eq] at h7
  exact absurd h7.1 (by decide +kernel)

/-! ### Examples -/

namespace Demo

/-- The file of `C71_cut_number` without the last field is refused. -/
example : ∃ t g, writeAscGrid none (axis 10 (1 / 2) 2) (axis 0 (1 / 4) 2) (fun _ _ : Fin 2 => some (.num (7 / 4))) .nan 1 =
    (.ok (), some t) ∧ readAscGrid t = .ok g ∧ ∃ e, readAscGrid (t.take (t.length - 16)) = .error e := by
  obtain ⟨t, ht⟩ := C32_accepts (file := none) (z := fun _ _ : Fin 2 => some (.num (7 / 4))) (noData := .nan)
    (by norm_num) (by norm_num) 10 (1 / 2) 0 (1 / 4) 1 (.inl rfl)
  have h := C32_exact_1 (by norm_num) (by norm_num) ht (by norm_num) (by norm_num) ⟨1000, by norm_num⟩ ⟨50, by norm_num⟩
    ⟨0, by norm_num⟩ ⟨25, by norm_num⟩ trivial (fun _ _ _ => by norm_num [FitsAsc]) (fun _ _ => ⟨175, by norm_num⟩)
  obtain ⟨front, -, h2⟩ := C71_written (by norm_num) (by norm_num) ht (fun _ _ _ => by norm_num [FitsAsc])
  refine ⟨t, _, ht, h, C71_field_missing (by norm_num) (by norm_num) ht (fun _ _ => by norm_num [FitsAsc]) h
    (List.take_prefix _ _) ?_⟩
  have hw : (padRight 16 (fltFixed 2 (.num (7 / 4)))).length = 16 := by decide +kernel
  simp only [Option.getD_some] at h2
  rw [List.length_take, h2, List.length_append, hw]
  omega

/-- A file made by hand, the last number written as `1e2`, then a newline: cut behind the `e` it is read without complaint,
the last number undefined. -/
example {g : AscGrid} (h : readAscGrid (fileOf (mixed.map lineOf) body23) = .ok g) : ∃ row others,
    g.grid = (row ++ [.num 100]) :: others ∧ readAscGrid (fileOf (mixed.map lineOf) "1 2 3\n4 5.5 1e".toList) =
      .ok { g with grid := (row ++ [.nan]) :: others } := by
  have hw : LastWord (fileOf (mixed.map lineOf) body23) (fileOf (mixed.map lineOf) "1 2 3\n4 5.5 ".toList) "1e2".toList := by
    refine ⟨⟨fileOf (mixed.map lineOf) "1 2 3\n".toList, "4 5.5 ".toList, "\n".toList, ?_, ?_, .inr ?_, ?_, ?_, ?_, ?_⟩, ?_, ?_⟩
    · decide +kernel
    · decide +kernel
    · decide +kernel
    · decide +kernel
    · decide +kernel
    · decide +kernel
    · decide +kernel
    · decide +kernel
    · decide +kernel
  obtain ⟨-, row, others, h1, h2⟩ := C71_exact h hw
  have e := h2 (fileOf (mixed.map lineOf) "1 2 3\n4 5.5 1e".toList) (by decide +kernel) (by decide +kernel)
  refine ⟨row, others, ?_, ?_⟩
  · rw [h1, show (parseFloat "1e2".toList).getD .nan = .num 100 by decide +kernel]
  · rw [e, show (parseFloat ("1e2".toList.take _)).getD .nan = .nan by decide +kernel]

end Demo

end PyKrige
