import Verif.Lemmas.Asc

/-! Reading the ZMAP files that were written. -/

namespace PyKrige
open Spec

/-! ### Numbers -/

/-- The number `.7E` prints. -/
def sciValue (q : ℚ) : ℚ := (if q < 0 then -1 else 1) * (((sciOf q).2 : ℚ) / 10 ^ 7 * 10 ^ (sciOf q).1)

theorem sciValue_rounded (q : ℚ) : RoundedSig 7 q (sciValue q) := by
  constructor
  · rintro rfl
    simp [sciValue, sciOf]
  · intro hq
    have hpos : 0 < |q| := abs_pos.2 hq
    have h10 : (1 : ℕ) < 10 := by norm_num
    set e := Int.log 10 |q| with he
    have hlo : ((10 : ℕ) : ℚ) ^ e ≤ |q| := Int.zpow_log_le_self h10 hpos
    have hhi : |q| < ((10 : ℕ) : ℚ) ^ (e + 1) := Int.lt_zpow_succ_log_self h10 |q|
    set N := roundEven (|q| / 10 ^ (e - 7)) with hN
    have hp : (0 : ℚ) < 10 ^ (e - 7) := zpow_pos (by norm_num) _
    obtain ⟨h1, h2⟩ := roundEven_spec (q := |q| / 10 ^ (e - 7)) (div_nonneg (abs_nonneg q) hp.le)
    rw [← hN] at h1 h2
    have hval : ((sciOf q).2 : ℚ) / 10 ^ 7 * 10 ^ (sciOf q).1 = N * 10 ^ (e - 7) := by
      unfold sciOf sciParts
      rw [if_neg hq]
      dsimp only
      rw [← he, ← hN]
      by_cases hc : N = 10 ^ 8
      · rw [if_pos hc, hc]
        dsimp only
        rw [zpow_add₀ (by norm_num), zpow_sub₀ (by norm_num)]
        norm_num
        ring
      · rw [if_neg hc]
        dsimp only
        rw [zpow_sub₀ (by norm_num)]
        norm_num
        ring
    have hdist : abs ((N : ℚ) * 10 ^ (e - 7) - |q|) = abs ((N : ℚ) - |q| / 10 ^ (e - 7)) * 10 ^ (e - 7) := by
      rw [← abs_of_pos hp, ← abs_mul, abs_of_pos hp, sub_mul, div_mul_cancel₀ _ hp.ne']
    have hsgn : |sciValue q - q| = abs ((N : ℚ) * 10 ^ (e - 7) - |q|) := by
      unfold sciValue
      rw [hval]
      by_cases h : q < 0
      · rw [if_pos h, abs_of_neg h, ← abs_neg]
        congr 1
        ring
      · rw [if_neg h, abs_of_nonneg (not_lt.1 h), one_mul]
    refine ⟨e, (if q < 0 then -1 else 1) * (N : ℤ), by exact_mod_cast hlo, by exact_mod_cast hhi, ?_, ?_, ?_⟩
    · unfold sciValue
      rw [hval]
      split <;> push_cast <;> ring
    · rw [hsgn, hdist]
      push_cast
      nlinarith
    · intro heq
      rw [hsgn, hdist] at heq
      push_cast at heq
      have : |(N : ℚ) - |q| / 10 ^ (e - 7)| = 1 / 2 := by
        have h3 : |(N : ℚ) - |q| / 10 ^ (e - 7)| * 10 ^ (e - 7) = 1 / 2 * 10 ^ (e - 7) := by rw [heq]; ring
        exact mul_right_cancel₀ hp.ne' h3
      have hev : Even ((N : ℕ) : ℤ) := by exact_mod_cast h2 this
      split
      · simpa using hev
      · simpa using hev

/-- The value `.7E` prints. -/
def sciFlt : Flt → Flt
  | .num q => .num (sciValue q)
  | v => v

theorem sciFlt_rounded (v : Flt) : RoundedSigFlt 7 v (sciFlt v) := by
  cases v with
  | num q => exact .num (sciValue_rounded q)
  | inf b => exact .inf b
  | nan => exact .nan

theorem parse_fltSci (v : Flt) : parseFloat (fltSci v) = some (sciFlt v) := by
  cases v with
  | num q => exact parseFloat_fmtSci q
  | inf b => cases b <;> rfl
  | nan => rfl

/-! ### Fields -/

/-- The word printed for a value. -/
def zmapWord (noData v : Flt) : Text :=
  if v = .nan then fltSci noData else if absGe v (10 ^ 6) = true then fltSci v else fltFixed 4 v

/-- The value that comes back. -/
def zmapFlt (noData v : Flt) : Flt :=
  if v = .nan then sciFlt noData else if absGe v (10 ^ 6) = true then sciFlt v else fltOf 4 v

theorem zmapFlt_value (noData v : Flt) : ZmapValue noData v (zmapFlt noData v) := by
  unfold zmapFlt
  cases v with
  | nan => rw [if_pos rfl]; exact .nan (sciFlt_rounded _)
  | inf b => rw [if_neg (by simp), if_pos (by rfl)]; exact .inf b
  | num q =>
    rw [if_neg (by simp)]
    by_cases h : absGe (.num q) (10 ^ 6) = true
    · rw [if_pos h]
      simp only [absGe, decide_eq_true_eq] at h
      exact .large h (sciValue_rounded q)
    · rw [if_neg h]
      simp only [absGe, decide_eq_true_eq, not_le] at h
      exact .small h (fixedOf_rounded 4 q)

theorem parse_zmapWord (noData v : Flt) : parseFloat (zmapWord noData v) = some (zmapFlt noData v) := by
  unfold zmapWord zmapFlt
  by_cases h1 : v = .nan
  · rw [if_pos h1, if_pos h1]; exact parse_fltSci _
  · rw [if_neg h1, if_neg h1]
    by_cases h2 : absGe v (10 ^ 6) = true
    · rw [if_pos h2, if_pos h2]; exact parse_fltSci _
    · rw [if_neg h2, if_neg h2]; exact parse_fltFixed _ _

theorem zmapWord_word (noData v : Flt) : Word (zmapWord noData v) := by
  unfold zmapWord
  split
  · exact fltSci_word _
  · split
    · exact fltSci_word _
    · exact fltFixed_word _ _

theorem filter_word {w : Text} (hw : Word w) : w.filter (· = ' ') = [] ∧ w.filter (· ≠ ' ') = w := by
  have h : ∀ c ∈ w, c ≠ ' ' := by
    rintro c hc rfl
    have := hw.clean _ hc
    cases this
  constructor
  · rw [List.filter_eq_nil_iff]
    intro c hc
    simpa using h c hc
  · rw [List.filter_eq_self]
    intro c hc
    simpa using h c hc

theorem filter_blanks (n : ℕ) : (List.replicate n ' ').filter (· = ' ') = List.replicate n ' ' ∧
    (List.replicate n ' ').filter (· ≠ ' ') = [] := by
  constructor
  · rw [List.filter_eq_self]
    intro c hc
    rw [List.eq_of_mem_replicate hc]
    rfl
  · rw [List.filter_eq_nil_iff]
    intro c hc
    rw [List.eq_of_mem_replicate hc]
    simp

theorem spaceBackToFront_right {w : Text} (hw : Word w) (n k : ℕ) :
    spaceBackToFront (padRight n w ++ List.replicate k ' ') = List.replicate (n - w.length + k) ' ' ++ w := by
  unfold spaceBackToFront padRight
  simp only [List.filter_append, (filter_word hw).1, (filter_word hw).2, (filter_blanks _).1, (filter_blanks _).2,
    List.nil_append, List.append_nil, List.replicate_add, List.append_assoc]

theorem spaceBackToFront_left {w : Text} (hw : Word w) (n k : ℕ) :
    spaceBackToFront (padLeft n w ++ List.replicate k ' ') = List.replicate (n - w.length + k) ' ' ++ w := by
  unfold spaceBackToFront padLeft
  simp only [List.filter_append, (filter_word hw).1, (filter_word hw).2, (filter_blanks _).1, (filter_blanks _).2,
    List.nil_append, List.append_nil, List.replicate_add, List.append_assoc]

/-- Every field is at least one blank and a word. -/
theorem zmapField_eq (noData v : Flt) : ∃ k, zmapField noData v = List.replicate (k + 1) ' ' ++ zmapWord noData v := by
  unfold zmapField zmapWord
  by_cases h1 : v = .nan
  · rw [if_pos h1, if_pos h1]
    exact ⟨_, spaceBackToFront_left (fltSci_word _) 13 2⟩
  · rw [if_neg h1, if_neg h1]
    by_cases h3 : absGe v (10 ^ 100) = true
    · have h2 : absGe v (10 ^ 6) = true := by
        cases v with
        | num q =>
          simp only [absGe, decide_eq_true_eq] at h3 ⊢
          exact le_trans (by norm_num) h3
        | inf b => rfl
        | nan => exact absurd rfl h1
      rw [if_pos h3, if_pos h2]
      exact ⟨_, spaceBackToFront_left (fltSci_word _) 13 1⟩
    · rw [if_neg h3]
      by_cases h2 : absGe v (10 ^ 6) = true
      · rw [if_pos h2, if_pos h2]
        exact ⟨_, spaceBackToFront_left (fltSci_word _) 13 2⟩
      · rw [if_neg h2, if_neg h2]
        exact ⟨_, spaceBackToFront_right (fltFixed_word _ _) 13 2⟩

/-! ### Lines of fields -/

/-- A sequence of fields, some followed by a newline. -/
def fieldsText (noData : Flt) (l : List (Flt × Bool)) : Text :=
  l.flatMap fun p => zmapField noData p.1 ++ if p.2 = true then ['\n'] else []

theorem readLines_append {q t : Text} (hq : '\n' ∉ q) {l : Text} {ls : List Text} (h : readLines t = l :: ls) :
    readLines (q ++ t) = (q ++ l) :: ls := by
  have hp : ∀ c ∈ q, (decide (c ≠ '\n')) = true := fun c hc => by
    simp only [ne_eq, decide_eq_true_eq]; rintro rfl; exact hq hc
  have ht : t ≠ [] := by
    rintro rfl
    rw [readLines_nil] at h
    cases h
  rw [readLines, if_neg ht] at h
  rw [readLines, if_neg (by simp [ht]), List.takeWhile_append_of_pos hp, List.dropWhile_append_of_pos hp]
  injection h with h1 h2
  rw [h1, h2]

theorem newline_not_field (k : ℕ) {w : Text} (hw : Word w) : '\n' ∉ List.replicate k ' ' ++ w := by
  intro h
  rcases List.mem_append.1 h with h | h
  · have := List.eq_of_mem_replicate h
    cases this
  · exact newline_not_word hw h

theorem readLines_fields (noData : Flt) (l : List (Flt × Bool)) :
    (readLines (fieldsText noData l)).flatMap pySplit = l.map (fun p => zmapWord noData p.1) ∧
    ∀ t ∈ readLines (fieldsText noData l), t.head? = some ' ' ∧ pySplit t ≠ [] := by
  induction l with
  | nil =>
    unfold fieldsText
    rw [List.flatMap_nil, readLines_nil]
    simp
  | cons p l ih =>
    obtain ⟨ih1, ih2⟩ := ih
    have e : fieldsText noData (p :: l) = zmapField noData p.1 ++ ((if p.2 = true then ['\n'] else []) ++ fieldsText noData l) := by
      unfold fieldsText
      rw [List.flatMap_cons, List.append_assoc]
    obtain ⟨k, hk⟩ := zmapField_eq noData p.1
    have hw := zmapWord_word noData p.1
    have hsplit : pySplit (List.replicate (k + 1) ' ' ++ zmapWord noData p.1) = [zmapWord noData p.1] := by
      rw [pySplit_blank (blank_replicate _), pySplit_single hw]
    rw [e, hk, List.map_cons]
    by_cases hp : p.2 = true
    · rw [if_pos hp, List.singleton_append, readLines_line (newline_not_field _ hw), List.flatMap_cons, hsplit, ih1]
      refine ⟨rfl, fun t ht => ?_⟩
      rcases List.mem_cons.1 ht with rfl | ht
      · exact ⟨by rw [List.replicate_succ]; rfl, by rw [hsplit]; simp⟩
      · exact ih2 t ht
    · rw [if_neg hp, List.nil_append]
      cases hl : readLines (fieldsText noData l) with
      | nil =>
        have hnil : fieldsText noData l = [] := by
          by_contra hne
          rw [readLines, if_neg hne] at hl
          cases hl
        have hl2 : l = [] := by
          cases l with
          | nil => rfl
          | cons q l =>
            exfalso
            obtain ⟨j, hj⟩ := zmapField_eq noData q.1
            unfold fieldsText at hnil
            rw [List.flatMap_cons, hj] at hnil
            have h0 := (List.append_eq_nil_iff.1 (List.append_eq_nil_iff.1 (List.append_eq_nil_iff.1 hnil).1).1).2
            exact (zmapWord_word noData q.1).ne h0
        rw [hnil, List.append_nil, hl2, readLines_last (newline_not_field _ hw) (by simp)]
        refine ⟨by rw [List.flatMap_cons, hsplit]; rfl, fun t ht => ?_⟩
        rw [List.mem_singleton.1 ht]
        exact ⟨by rw [List.replicate_succ]; rfl, by rw [hsplit]; simp⟩
      | cons t0 ts =>
        rw [hl] at ih1 ih2
        rw [readLines_append (newline_not_field _ hw) hl, List.flatMap_cons]
        have hd := (ih2 t0 (by simp)).1
        have hs : pySplit (List.replicate (k + 1) ' ' ++ zmapWord noData p.1 ++ t0) = zmapWord noData p.1 :: pySplit t0 := by
          rw [List.append_assoc, pySplit_blank (blank_replicate _), pySplit_word hw]
          intro c hc
          rw [hd] at hc
          cases hc
          rfl
        rw [hs, List.cons_append]
        rw [List.flatMap_cons] at ih1
        refine ⟨by rw [ih1], fun t ht => ?_⟩
        rcases List.mem_cons.1 ht with rfl | ht
        · exact ⟨by rw [List.replicate_succ]; rfl, by rw [hs]; simp⟩
        · exact ih2 t (by simp [ht])

/-! ### The loop in the body -/

theorem storeWords_append (s : ZState) (a b : List Text) :
    storeWords s (a ++ b) = storeWords s a >>= fun s => storeWords s b := by
  induction a generalizing s with
  | nil => rfl
  | cons w a ih =>
    rw [List.cons_append, storeWords, storeWords]
    cases pyFloat w with
    | error e => rfl
    | ok v =>
      rw [py_ok_bind, py_ok_bind]
      cases storeAt s.data s.iValue v with
      | error e => rfl
      | ok d =>
        rw [py_ok_bind, py_ok_bind]
        exact ih _

theorem storeWords_header {s s' : ZState} {l : List Text} (h : storeWords s l = .ok s') : s'.header = s.header := by
  induction l generalizing s with
  | nil => cases h; rfl
  | cons w l ih =>
    obtain ⟨v, -, h⟩ := py_bind_eq_ok.1 h
    obtain ⟨d, -, h⟩ := py_bind_eq_ok.1 h
    rw [ih h]

/-- Words that the reader takes as numbers. -/
def Plain (w : Text) : Prop := ',' ∉ w ∧ w.head? ≠ some '!' ∧ w.head? ≠ some '@'

theorem filter_comma {w : Text} (h : ',' ∉ w) : w.filter (· ≠ ',') = w := by
  rw [List.filter_eq_self]
  intro c hc
  simp only [ne_eq, decide_eq_true_eq]
  rintro rfl
  exact h hc

theorem zmapLoop_body {env : ZEnv} {lines : List Text} {s : ZState} (hs : s.header = -1)
    (h1 : ∀ t ∈ lines, t.head? = some ' ' ∧ pySplit t ≠ []) (h2 : ∀ w ∈ lines.flatMap pySplit, Plain w) :
    zmapLoop env s lines = storeWords s (lines.flatMap pySplit) := by
  induction lines generalizing s with
  | nil => rfl
  | cons t lines ih =>
    obtain ⟨hd, hne⟩ := h1 t (by simp)
    obtain ⟨w, ws, hws⟩ := List.exists_cons_of_ne_nil hne
    have hpl : ∀ u ∈ pySplit t, Plain u := fun u hu => h2 u (by rw [List.flatMap_cons]; exact List.mem_append.2 (.inl hu))
    have hf : (pySplit t).map (fun w => w.filter (· ≠ ',')) = pySplit t := by
      conv_rhs => rw [← List.map_id (pySplit t)]
      apply List.map_congr_left
      intro u hu
      exact filter_comma (hpl u hu).1
    have hzw : zmapWords s t = .ok (s, pySplit t) := by
      unfold zmapWords
      rw [if_neg (by rw [hd]; decide), hf]
    obtain ⟨-, hb, hat⟩ := hpl w (by rw [hws]; simp)
    rw [List.flatMap_cons, storeWords_append, zmapLoop, hzw, py_ok_bind]
    dsimp only
    rw [hws]
    dsimp only
    rw [if_pos ⟨hs, hb⟩]
    cases hst : storeWords s (w :: ws) with
    | error e => rfl
    | ok s' =>
      rw [py_ok_bind, py_ok_bind, if_neg hat]
      have hs' : s'.header = -1 := by rw [storeWords_header hst, hs]
      have hz : zmapHeaderLine env s' (w :: ws) = .ok s' := by
        unfold zmapHeaderLine
        rw [if_neg (by rw [hs']; norm_num)]
      rw [hz, py_ok_bind]
      exact ih hs' (fun u hu => h1 u (by simp [hu])) (fun u hu => h2 u (by rw [List.flatMap_cons]; exact List.mem_append.2 (.inr hu)))

/-- Storing numbers in an array with enough room. -/
theorem storeWords_eq {s : ZState} {ws : List Text} {vs : List Flt}
    (hv : List.Forall₂ (fun w v => parseFloat w = some v) ws vs) (hlen : s.iValue + ws.length ≤ s.data.length) :
    storeWords s ws = .ok { s with data := s.data.take s.iValue ++ vs ++ s.data.drop (s.iValue + vs.length)
                                   iValue := s.iValue + vs.length } := by
  induction hv generalizing s with
  | nil => simp [storeWords]
  | @cons w v ws vs h _ ih =>
    have hlt : s.iValue < s.data.length := by simp only [List.length_cons] at hlen; omega
    rw [storeWords]
    unfold pyFloat storeAt
    rw [h]
    dsimp only
    rw [py_ok_bind, if_pos hlt, py_ok_bind, ih (by simp only [List.length_set, List.length_cons] at hlen ⊢; omega)]
    dsimp only
    congr 2
    · simp only [List.length_cons]; omega
    · have e1 : (s.data.set s.iValue v).take (s.iValue + 1) = s.data.take s.iValue ++ [v] := by
        rw [List.take_set, List.take_succ_eq_append_getElem hlt, List.set_append_right _ _ (by simp)]
        simp [Nat.min_eq_left hlt.le]
      have e2 : (s.data.set s.iValue v).drop (s.iValue + 1 + vs.length) = s.data.drop (s.iValue + 1 + vs.length) := by
        rw [List.drop_set_of_lt (by omega)]
      rw [e1, e2]
      simp [Nat.add_comm, Nat.add_left_comm]

theorem parseFloat_other {c : Char} (h1 : c ≠ '-') (h2 : c ≠ '+') (t : Text) : parseFloat (c :: t) = parseAbs false (c :: t) := by
  unfold parseFloat
  split
  · next h => injection h with h; exact absurd h h1
  · next h => injection h with h; exact absurd h h2
  · rfl

theorem parse_plain {w : Text} {v : Flt} (h : parseFloat w = some v) : w.head? ≠ some '!' ∧ w.head? ≠ some '@' := by
  constructor <;>
  · intro e
    cases w with
    | nil => cases e
    | cons c w =>
      cases e
      revert h
      rw [parseFloat_other (by decide) (by decide)]
      simp only [parseAbs, lower, List.map_cons]
      rw [if_neg (by intro h; injection h with h; exact absurd h (by decide)),
        if_neg (by rintro (h | h) <;> (injection h with h; exact absurd h (by decide)))]
      simp [parseUnsigned]
      try decide

end PyKrige
