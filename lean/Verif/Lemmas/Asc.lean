import Verif.Model.Tools
import Verif.Lemmas.Rounding
import Verif.Lemmas.Py
import Mathlib.Data.List.FinRange

/-! Reading the ASC files that were written. -/

namespace PyKrige
open Spec

/-! ### Field widths -/

theorem fits_length {v : Flt} (h : FitsAsc v) : (fltFixed 2 v).length < 16 := by
  cases v with
  | inf b => cases b <;> simp [fltFixed]
  | nan => simp [fltFixed]
  | num q =>
    obtain ⟨h1, h2⟩ := h
    obtain ⟨h3, -⟩ := roundEven_spec (q := |q| * 10 ^ 2) (by positivity)
    have h4 := (abs_le.1 h3).2
    change (fmtFixed 2 q).length < 16
    rw [fmtFixed_length]
    set N := roundEven (|q| * 10 ^ 2)
    by_cases hq : q < 0
    · rw [if_pos hq]
      have : (N : ℚ) < 10 ^ 13 := by rw [abs_of_neg hq] at h4; linarith
      have hN : N < 10 ^ 13 := by exact_mod_cast this
      have : (natText (N / 10 ^ 2)).length ≤ 11 := (natText_length (by norm_num)).2 (by omega)
      omega
    · rw [if_neg hq]
      have : (N : ℚ) < 10 ^ 14 := by rw [abs_of_nonneg (not_lt.1 hq)] at h4; linarith
      have hN : N < 10 ^ 14 := by exact_mod_cast this
      have : (natText (N / 10 ^ 2)).length ≤ 12 := (natText_length (by norm_num)).2 (by omega)
      omega

theorem fills_length {v : Flt} (h : FillsAsc v) : 16 ≤ (fltFixed 2 v).length := by
  cases v with
  | inf b => cases h
  | nan => cases h
  | num q =>
    obtain ⟨h3, h5⟩ := roundEven_spec (q := |q| * 10 ^ 2) (by positivity)
    have h4 := (abs_le.1 h3).1
    change 16 ≤ (fmtFixed 2 q).length
    rw [fmtFixed_length]
    set N := roundEven (|q| * 10 ^ 2) with hNdef
    have big : ∀ K : ℕ, K % 2 = 1 → (K : ℚ) + 1 / 2 ≤ |q| * 10 ^ 2 → K < N := by
      intro K hK hq
      have : (K : ℚ) ≤ N := by linarith
      have hKN : K ≤ N := by exact_mod_cast this
      rcases Nat.lt_or_ge K N with h | h
      · exact h
      · exfalso
        have e : K = N := le_antisymm hKN h
        rw [e] at hq
        have he : |(N : ℚ) - |q| * 10 ^ 2| = 1 / 2 := by
          rw [abs_of_nonpos (by linarith)]
          linarith
        have := Nat.even_iff.1 (h5 he)
        omega
    rcases h with h | h
    · have hq : q < 0 := by linarith
      rw [if_pos hq]
      have := big (10 ^ 13 - 1) (by norm_num) (by rw [abs_of_neg hq]; push_cast; linarith)
      have : ¬ (natText (N / 10 ^ 2)).length ≤ 11 := by
        rw [natText_length (by norm_num)]; omega
      omega
    · have hq : ¬ q < 0 := by linarith
      rw [if_neg hq]
      have := big (10 ^ 14 - 1) (by norm_num) (by rw [abs_of_nonneg (not_lt.1 hq)]; push_cast; linarith)
      have : ¬ (natText (N / 10 ^ 2)).length ≤ 12 := by
        rw [natText_length (by norm_num)]; omega
      omega

/-! ### Rows -/

theorem newline_not_word {w : Text} (hw : Word w) : '\n' ∉ w := fun h => by
  have := hw.clean _ h
  cases this

theorem newline_not_padRight {w : Text} (hw : Word w) (n : ℕ) : '\n' ∉ padRight n w := by
  unfold padRight
  intro h
  rcases List.mem_append.1 h with h | h
  · exact newline_not_word hw h
  · have := List.eq_of_mem_replicate h
    cases this

theorem newline_not_ascRow {nc : ℕ} (row : Fin nc → Flt) : '\n' ∉ ascRow row := by
  unfold ascRow
  intro h
  obtain ⟨n, -, h⟩ := List.mem_flatMap.1 h
  exact newline_not_padRight (fltFixed_word 2 (row n)) 16 h

theorem hash_not_digit {c : Char} (h : c.isDigit = true) : c ≠ '#' := by
  rintro rfl; cases h

theorem hash_not_fltFixed (k : ℕ) (v : Flt) : '#' ∉ fltFixed k v := by
  cases v with
  | num q =>
    change '#' ∉ fmtFixed k q
    unfold fmtFixed
    intro hc
    simp only [List.mem_append, List.mem_cons] at hc
    rcases hc with (hc | hc) | hc | hc
    · split at hc
      · cases List.mem_singleton.1 hc
      · cases hc
    · exact hash_not_digit ((natText_digits _).2 _ hc) rfl
    · cases hc
    · exact hash_not_digit (fixedDigits_digits _ _ _ hc) rfl
  | inf b => cases b <;> (simp only [fltFixed]; decide)
  | nan => simp only [fltFixed]; decide

theorem hash_not_ascRow {nc : ℕ} (row : Fin nc → Flt) : '#' ∉ ascRow row := by
  unfold ascRow padRight
  intro h
  obtain ⟨n, -, h⟩ := List.mem_flatMap.1 h
  rcases List.mem_append.1 h with h | h
  · exact hash_not_fltFixed _ _ h
  · have := List.eq_of_mem_replicate h
    cases this

theorem takeWhile_hash {l : Text} (h : '#' ∉ l) : l.takeWhile (· ≠ '#') = l := by
  have hp : ∀ c ∈ l, (decide (c ≠ '#')) = true := fun c hc => by
    simp only [ne_eq, decide_eq_true_eq]; rintro rfl; exact h hc
  have e := List.takeWhile_append_of_pos (l₂ := []) hp
  simpa only [List.append_nil, List.takeWhile_nil] using e

theorem fits_or_fills (v : Flt) : FitsAsc v ∨ FillsAsc v := by
  cases v with
  | num q =>
    by_cases h : FitsAsc (.num q)
    · exact .inl h
    · refine .inr ?_
      simp only [FitsAsc, not_and_or, not_lt] at h
      exact h
  | inf b => exact .inl trivial
  | nan => exact .inl trivial

theorem not_fits_of_fills {v : Flt} (h : FillsAsc v) : ¬ FitsAsc v := fun h' => by
  have := fits_length h'
  have := fills_length h
  omega

/-- A row in which every field but perhaps the last has a blank to spare. -/
theorem split_fields (l : List Flt) (h : ∀ v ∈ l.dropLast, FitsAsc v) :
    pySplit (l.flatMap fun v => padRight 16 (fltFixed 2 v)) = l.map (fltFixed 2) := by
  induction l with
  | nil => exact pySplit_nil
  | cons v l ih =>
    cases l with
    | nil =>
      rw [List.flatMap_cons, List.flatMap_nil, List.append_nil, pySplit_padRight_end (fltFixed_word 2 v)]
      rfl
    | cons w l =>
      rw [List.dropLast_cons_cons] at h
      rw [List.flatMap_cons, pySplit_padRight (fltFixed_word 2 v) (fits_length (h v (by simp))),
        ih fun u hu => h u (by simp [hu])]
      rfl

/-- A word that touches the next one. -/
theorem pySplit_glue {w : Text} (hw : Word w) {c : Char} (hc : c.isWhitespace = false) (t : Text) :
    (pySplit (w ++ c :: t)).length = (pySplit (c :: t)).length := by
  obtain ⟨hne, hcl⟩ := hw
  cases w with
  | nil => exact absurd rfl hne
  | cons a w =>
    have hp : ∀ d ∈ w, (!d.isWhitespace) = true := fun d hd => by simp [hcl d (by simp [hd])]
    rw [List.cons_append, pySplit, if_neg (by simp [hcl a (by simp)]), pySplit, if_neg (by simp [hc]), List.length_cons,
      List.length_cons, List.dropWhile_append_of_pos hp, List.dropWhile_cons_of_pos (by simp [hc])]

theorem split_fields_le (l : List Flt) :
    (pySplit (l.flatMap fun v => padRight 16 (fltFixed 2 v))).length ≤ l.length ∧
    (l ≠ [] → pySplit (l.flatMap fun v => padRight 16 (fltFixed 2 v)) ≠ []) ∧
    ((∃ v ∈ l.dropLast, FillsAsc v) →
      (pySplit (l.flatMap fun v => padRight 16 (fltFixed 2 v))).length < l.length) := by
  induction l with
  | nil => simp [pySplit_nil]
  | cons v l ih =>
    cases l with
    | nil =>
      rw [List.flatMap_cons, List.flatMap_nil, List.append_nil, pySplit_padRight_end (fltFixed_word 2 v)]
      simp
    | cons w l =>
      obtain ⟨ih1, ih2, ih3⟩ := ih
      rw [List.flatMap_cons]
      rcases fits_or_fills v with hv | hv
      · rw [pySplit_padRight (fltFixed_word 2 v) (fits_length hv)]
        refine ⟨by simpa using ih1, by simp, ?_⟩
        rintro ⟨u, hu, hf⟩
        rw [List.dropLast_cons_cons, List.mem_cons] at hu
        rcases hu with rfl | hu
        · exact absurd hv (not_fits_of_fills hf)
        · have := ih3 ⟨u, hu, hf⟩
          simpa using this
      · have e : padRight 16 (fltFixed 2 v) = fltFixed 2 v := by
          unfold padRight
          rw [Nat.sub_eq_zero_of_le (fills_length hv), List.replicate_zero, List.append_nil]
        have hw := fltFixed_word 2 w
        obtain ⟨c, r, hcr⟩ : ∃ c r, ((w :: l).flatMap fun v => padRight 16 (fltFixed 2 v)) = c :: r ∧
            c.isWhitespace = false := by
          obtain ⟨hne, hcl⟩ := hw
          rw [List.flatMap_cons]
          cases hfw : fltFixed 2 w with
          | nil => exact absurd hfw hne
          | cons c r =>
            refine ⟨c, _, by unfold padRight; rfl, hcl c (by simp [hfw])⟩
        have hlen : (pySplit (padRight 16 (fltFixed 2 v) ++ (w :: l).flatMap fun v => padRight 16 (fltFixed 2 v))).length =
            (pySplit ((w :: l).flatMap fun v => padRight 16 (fltFixed 2 v))).length := by
          rw [e, hcr.1]
          exact pySplit_glue (fltFixed_word 2 v) hcr.2 r
        refine ⟨by rw [hlen]; simp only [List.length_cons] at ih1 ⊢; omega, ?_, fun _ => by
          rw [hlen]; simp only [List.length_cons] at ih1 ⊢; omega⟩
        intro _ h0
        rw [h0] at hlen
        exact ih2 (by simp) (List.length_eq_zero_iff.1 hlen.symm)

theorem ascRow_eq {nc : ℕ} (row : Fin nc → Flt) :
    ascRow row = (List.ofFn row).flatMap fun v => padRight 16 (fltFixed 2 v) := by
  unfold ascRow
  rw [List.ofFn_eq_map, List.flatMap_map]

theorem mem_dropLast_ofFn {nc : ℕ} {row : Fin nc → Flt} {v : Flt} :
    v ∈ (List.ofFn row).dropLast ↔ ∃ j : Fin nc, j.val + 1 < nc ∧ row j = v := by
  cases nc with
  | zero => simp
  | succ k =>
    rw [List.ofFn_succ', List.concat_eq_append, List.dropLast_concat, List.mem_ofFn]
    constructor
    · rintro ⟨i, rfl⟩
      exact ⟨i.castSucc, by simp, rfl⟩
    · rintro ⟨j, hj, rfl⟩
      exact ⟨⟨j.val, by omega⟩, rfl⟩

theorem genRow_ascRow {nc : ℕ} {row : Fin nc → Flt} (h : ∀ j : Fin nc, j.val + 1 < nc → FitsAsc (row j)) :
    genRow (ascRow row) = List.ofFn fun n => fltOf 2 (row n) := by
  unfold genRow
  rw [takeWhile_hash (hash_not_ascRow row), ascRow_eq, split_fields _ ?_, List.map_map, List.map_ofFn]
  · congr 1
    funext n
    simp [parse_fltFixed]
  · intro v hv
    obtain ⟨j, hj, rfl⟩ := mem_dropLast_ofFn.1 hv
    exact h j hj

theorem genRow_length (l : Text) : (genRow l).length = (pySplit (l.takeWhile (· ≠ '#'))).length := by
  unfold genRow
  rw [List.length_map]

theorem genRow_ascRow_le {nc : ℕ} (row : Fin nc → Flt) :
    (genRow (ascRow row)).length ≤ nc ∧ (nc ≠ 0 → genRow (ascRow row) ≠ []) ∧
    ((∃ j : Fin nc, j.val + 1 < nc ∧ FillsAsc (row j)) → (genRow (ascRow row)).length < nc) := by
  obtain ⟨h1, h2, h3⟩ := split_fields_le (List.ofFn row)
  rw [genRow_length, takeWhile_hash (hash_not_ascRow row), ascRow_eq]
  rw [List.length_ofFn] at h1 h3
  refine ⟨h1, ?_, ?_⟩
  · intro hn h0
    refine h2 ?_ ?_
    · intro e
      have := congrArg List.length e
      rw [List.length_ofFn] at this
      exact hn this
    · have := genRow_length (ascRow row)
      rw [takeWhile_hash (hash_not_ascRow row), ascRow_eq, h0] at this
      exact List.length_eq_zero_iff.1 this.symm
  · rintro ⟨j, hj, hf⟩
    exact h3 ⟨_, mem_dropLast_ofFn.2 ⟨j, hj, rfl⟩, hf⟩

/-! ### The body -/

theorem ascRow_ne {nc : ℕ} (hc : nc ≠ 0) (row : Fin nc → Flt) : ascRow row ≠ [] := by
  unfold ascRow
  intro h
  rw [List.flatMap_eq_nil_iff] at h
  have := h ⟨0, Nat.pos_of_ne_zero hc⟩ (List.mem_finRange _)
  unfold padRight at this
  exact (fltFixed_word 2 _).ne (List.append_eq_nil_iff.1 this).1

/-- Lines joined by newlines. -/
theorem readLines_joined {α : Type} (g : α → Text) (last : α) (hg : ∀ a, '\n' ∉ g a) (hne : ∀ a, g a ≠ []) (l : List α) :
    readLines ((l.flatMap fun a => g a ++ ['\n']) ++ g last) = l.map g ++ [g last] := by
  induction l with
  | nil => exact readLines_last (hg last) (hne last)
  | cons a l ih =>
    rw [List.flatMap_cons, List.append_assoc, List.append_assoc, List.singleton_append, readLines_line (hg a), ih]
    rfl

theorem readLines_fileOf {lines : List Text} (h : ∀ l ∈ lines, '\n' ∉ l) (body : Text) :
    readLines (fileOf lines body) = lines ++ readLines body := by
  unfold fileOf
  induction lines with
  | nil => rfl
  | cons l ls ih =>
    rw [List.flatMap_cons, List.append_assoc, List.append_assoc, List.singleton_append, readLines_line (h l (by simp)),
      ih fun m hm => h m (by simp [hm])]
    rfl

theorem readLines_ascBody {nr nc : ℕ} (hr : nr ≠ 0) (hc : nc ≠ 0) (z : Fin nr → Fin nc → Flt) :
    readLines (ascBody z) = (List.ofFn fun m => ascRow (z m)).reverse := by
  obtain ⟨k, rfl⟩ : ∃ k, nr = k + 1 := ⟨nr - 1, by omega⟩
  unfold ascBody
  have e : (List.finRange (k + 1)).reverse = ((List.finRange k).map Fin.succ).reverse ++ [0] := by
    rw [List.finRange_succ, List.reverse_cons]
  have h := readLines_joined (fun m : Fin (k + 1) => ascRow (z m)) 0 (fun _ => newline_not_ascRow _)
    (fun m => ascRow_ne hc _) ((List.finRange k).map Fin.succ).reverse
  have e1 : ((List.finRange k).map Fin.succ).reverse.flatMap (fun m => ascRow (z m) ++ if m.val ≠ 0 then ['\n'] else []) =
      ((List.finRange k).map Fin.succ).reverse.flatMap (fun m => ascRow (z m) ++ ['\n']) := by
    apply List.flatMap_congr
    intro m hm
    rw [List.mem_reverse, List.mem_map] at hm
    obtain ⟨i, -, rfl⟩ := hm
    rw [if_pos (by simp)]
  rw [e, List.flatMap_append, e1, List.flatMap_singleton, if_neg (by simp), List.append_nil, h,
    List.ofFn_eq_map, List.finRange_succ, List.map_cons, List.reverse_cons, List.map_reverse]

theorem genfromtxt_rows {lines : List Text} {n : ℕ} (hn : n ≠ 0) (hl : lines ≠ [])
    (h : ∀ l ∈ lines, (genRow l).length = n) : genfromtxt lines = .ok (lines.map genRow) := by
  have e : (lines.map genRow).filter (· ≠ []) = lines.map genRow := by
    rw [List.filter_eq_self]
    intro a ha
    obtain ⟨l, hl, rfl⟩ := List.mem_map.1 ha
    have := h l hl
    simp only [ne_eq, decide_eq_true_eq]
    intro e
    rw [e] at this
    exact hn this.symm
  unfold genfromtxt
  dsimp only
  rw [e]
  cases lines with
  | nil => exact absurd rfl hl
  | cons a l =>
    rw [List.map_cons]
    dsimp only
    rw [if_pos]
    rw [← List.map_cons]
    simp only [List.all_map, List.all_eq_true, Function.comp, decide_eq_true_eq]
    intro b hb
    rw [h b hb, h a (by simp)]

end PyKrige
