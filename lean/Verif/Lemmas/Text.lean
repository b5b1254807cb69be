import Verif.Model.Text
import Mathlib.Tactic.IntervalCases
import Mathlib.Tactic.Linarith
import Mathlib.Tactic.FieldSimp
import Mathlib.Tactic.Ring
import Mathlib.Tactic.Push
import Mathlib.Tactic.NormNum

/-! Lines, words, numerals. -/

namespace PyKrige

/-! ### Lines -/

theorem readLines_nil : readLines [] = [] := by rw [readLines]; rfl

theorem readLines_line {l : Text} (h : '\n' ∉ l) (t : Text) : readLines (l ++ '\n' :: t) = l :: readLines t := by
  have hp : ∀ c ∈ l, (decide (c ≠ '\n')) = true := fun c hc => by
    simp only [ne_eq, decide_eq_true_eq]; rintro rfl; exact h hc
  rw [readLines, if_neg (by simp), List.takeWhile_append_of_pos hp, List.dropWhile_append_of_pos hp]
  simp

theorem readLines_last {l : Text} (h : '\n' ∉ l) (hne : l ≠ []) : readLines l = [l] := by
  have hp : ∀ c ∈ l, (decide (c ≠ '\n')) = true := fun c hc => by
    simp only [ne_eq, decide_eq_true_eq]; rintro rfl; exact h hc
  have e := List.takeWhile_append_of_pos (l₂ := []) hp
  have e' := List.dropWhile_append_of_pos (l₂ := []) hp
  simp only [List.append_nil, List.takeWhile_nil, List.dropWhile_nil] at e e'
  rw [readLines, if_neg hne, e, e', List.drop_nil, readLines_nil]

/-! ### Words -/

/-- A word: not empty, no blanks. -/
structure Word (w : Text) : Prop where
  ne : w ≠ []
  clean : ∀ c ∈ w, c.isWhitespace = false

/-- Blanks. -/
def Blank (b : Text) : Prop := ∀ c ∈ b, c.isWhitespace = true

theorem pySplit_nil : pySplit [] = [] := by rw [pySplit]

theorem pySplit_blank {b : Text} (hb : Blank b) (t : Text) : pySplit (b ++ t) = pySplit t := by
  induction b with
  | nil => rfl
  | cons c b ih =>
    rw [List.cons_append, pySplit, if_pos (hb c (by simp))]
    exact ih fun d hd => hb d (by simp [hd])

theorem pySplit_word {w : Text} (hw : Word w) {t : Text} (ht : ∀ c ∈ t.head?, c.isWhitespace = true) :
    pySplit (w ++ t) = w :: pySplit t := by
  obtain ⟨hne, hc⟩ := hw
  cases w with
  | nil => exact absurd rfl hne
  | cons a w =>
    have hp : ∀ c ∈ w, (!c.isWhitespace) = true := fun c hc' => by simp [hc c (by simp [hc'])]
    have e1 : t.takeWhile (!·.isWhitespace) = [] := by
      cases t with
      | nil => rfl
      | cons d t => simp [ht d (by simp)]
    have e2 : t.dropWhile (!·.isWhitespace) = t := by
      cases t with
      | nil => rfl
      | cons d t => simp [ht d (by simp)]
    rw [List.cons_append, pySplit, if_neg (by simp [hc a (by simp)]), List.takeWhile_append_of_pos hp,
      List.dropWhile_append_of_pos hp, e1, e2, List.append_nil]

theorem pySplit_single {w : Text} (hw : Word w) : pySplit w = [w] := by
  have := pySplit_word hw (t := []) (by simp)
  rwa [List.append_nil, pySplit_nil] at this

theorem blank_replicate (n : ℕ) : Blank (List.replicate n ' ') := by
  intro c hc
  rw [List.eq_of_mem_replicate hc]
  rfl

theorem pySplit_blanks {b : Text} (hb : Blank b) : pySplit b = [] := by
  have := pySplit_blank hb []
  rwa [List.append_nil, pySplit_nil] at this

/-- A padded word in a sequence of fields. -/
theorem pySplit_padRight {w : Text} (hw : Word w) {n : ℕ} (hn : w.length < n) (t : Text) :
    pySplit (padRight n w ++ t) = w :: pySplit t := by
  obtain ⟨k, hk⟩ : ∃ k, n - w.length = k + 1 := ⟨n - w.length - 1, by omega⟩
  unfold padRight
  rw [hk, List.append_assoc, pySplit_word hw, pySplit_blank (blank_replicate _)]
  intro c hc
  rw [List.replicate_succ] at hc
  simp only [List.cons_append, List.head?_cons, Option.mem_def, Option.some.injEq] at hc
  rw [← hc]
  rfl

theorem pySplit_padRight_end {w : Text} (hw : Word w) (n : ℕ) : pySplit (padRight n w) = [w] := by
  unfold padRight
  rw [pySplit_word hw, pySplit_blanks (blank_replicate _)]
  intro c hc
  exact blank_replicate _ c (List.mem_of_mem_head? hc)

/-! ### Numerals -/

theorem digitChar_isDigit {d : ℕ} (h : d < 10) : (Nat.digitChar d).isDigit = true := by
  interval_cases d <;> rfl

theorem digitChar_value {d : ℕ} (h : d < 10) : (Nat.digitChar d).toNat - 48 = d := by
  interval_cases d <;> rfl

theorem isDigit_cases {c : Char} (h : c.isDigit = true) : ∃ d < 10, c = Nat.digitChar d := by
  simp only [Char.isDigit, Bool.and_eq_true, decide_eq_true_eq] at h
  obtain ⟨h1, h2⟩ := h
  have e1 : 48 ≤ c.toNat := by
    exact UInt32.le_iff_toNat_le.1 h1
  have e2 : c.toNat ≤ 57 := UInt32.le_iff_toNat_le.1 h2
  refine ⟨c.toNat - 48, by omega, ?_⟩
  have : c = Char.ofNat c.toNat := (Char.ofNat_toNat c).symm
  generalize c.toNat = n at *
  rw [this]
  interval_cases n <;> rfl

theorem isDigit_not_blank {c : Char} (h : c.isDigit = true) : c.isWhitespace = false := by
  obtain ⟨d, hd, rfl⟩ := isDigit_cases h
  interval_cases d <;> rfl

theorem natText_digits (n : ℕ) : natText n ≠ [] ∧ ∀ c ∈ natText n, c.isDigit = true := by
  induction n using Nat.strong_induction_on with
  | _ n ih =>
    rw [natText]
    split
    · next h => exact ⟨by simp, by simpa using digitChar_isDigit h⟩
    · next h =>
      refine ⟨by simp, fun c hc => ?_⟩
      rcases List.mem_append.1 hc with hc | hc
      · exact (ih _ (by omega)).2 c hc
      · rw [List.mem_singleton.1 hc]
        exact digitChar_isDigit (Nat.mod_lt _ (by norm_num))

theorem digitsValue_append (a b : Text) : digitsValue (a ++ b) = digitsValue a * 10 ^ b.length + digitsValue b := by
  have key : ∀ (b : Text) (m : ℕ), b.foldl (fun n c => 10 * n + (c.toNat - 48)) m =
      m * 10 ^ b.length + b.foldl (fun n c => 10 * n + (c.toNat - 48)) 0 := by
    intro b
    induction b with
    | nil => simp
    | cons c b ih =>
      intro m
      rw [List.foldl_cons, ih, List.foldl_cons, ih (10 * 0 + _), List.length_cons, pow_succ]
      ring
  unfold digitsValue
  rw [List.foldl_append, key]

theorem digitsValue_natText (n : ℕ) : digitsValue (natText n) = n := by
  induction n using Nat.strong_induction_on with
  | _ n ih =>
    rw [natText]
    split
    · next h => simp [digitsValue, digitChar_value h]
    · next h =>
      rw [digitsValue_append, ih _ (by omega)]
      have : digitsValue [Nat.digitChar (n % 10)] = n % 10 := by
        simp [digitsValue, digitChar_value (Nat.mod_lt n (show 10 > 0 by norm_num))]
      rw [this, List.length_singleton, pow_one]
      omega

theorem fixedDigits_length (k n : ℕ) : (fixedDigits k n).length = k := by
  induction k generalizing n with
  | zero => rfl
  | succ k ih => rw [fixedDigits, List.length_append, ih]; rfl

theorem fixedDigits_digits (k n : ℕ) : ∀ c ∈ fixedDigits k n, c.isDigit = true := by
  induction k generalizing n with
  | zero => simp [fixedDigits]
  | succ k ih =>
    intro c hc
    rw [fixedDigits] at hc
    rcases List.mem_append.1 hc with hc | hc
    · exact ih _ c hc
    · rw [List.mem_singleton.1 hc]
      exact digitChar_isDigit (Nat.mod_lt _ (by norm_num))

theorem digitsValue_fixedDigits (k n : ℕ) : digitsValue (fixedDigits k n) = n % 10 ^ k := by
  induction k generalizing n with
  | zero => simp [fixedDigits, digitsValue, Nat.mod_one]
  | succ k ih =>
    rw [fixedDigits, digitsValue_append, ih]
    have : digitsValue [Nat.digitChar (n % 10)] = n % 10 := by
      simp [digitsValue, digitChar_value (Nat.mod_lt n (show 10 > 0 by norm_num))]
    rw [this, List.length_singleton, pow_one, pow_succ, mul_comm (10 ^ k) 10, Nat.mod_mul]
    ring

theorem takeWhile_digits {a : Text} (ha : ∀ c ∈ a, c.isDigit = true) {c : Char} (hc : c.isDigit = false) (t : Text) :
    (a ++ c :: t).takeWhile Char.isDigit = a ∧ (a ++ c :: t).dropWhile Char.isDigit = c :: t := by
  rw [List.takeWhile_append_of_pos ha, List.dropWhile_append_of_pos ha]
  simp [hc]

theorem takeWhile_digits_end {a : Text} (ha : ∀ c ∈ a, c.isDigit = true) :
    a.takeWhile Char.isDigit = a ∧ a.dropWhile Char.isDigit = [] := by
  have e := List.takeWhile_append_of_pos (l₂ := []) ha
  have e' := List.dropWhile_append_of_pos (l₂ := []) ha
  simpa using And.intro e e'

theorem parseNat_digits {a : Text} (hne : a ≠ []) (ha : ∀ c ∈ a, c.isDigit = true) : parseNat a = some (digitsValue a) := by
  unfold parseNat
  rw [if_pos ⟨hne, by simpa using ha⟩]

/-- The first character of a numeral is a digit. -/
theorem digits_head {a : Text} (hne : a ≠ []) (ha : ∀ c ∈ a, c.isDigit = true) (t : Text) :
    ∃ d < 10, ∃ r, a ++ t = Nat.digitChar d :: r := by
  cases a with
  | nil => exact absurd rfl hne
  | cons c a =>
    obtain ⟨d, hd, e⟩ := isDigit_cases (ha c (by simp))
    exact ⟨d, hd, a ++ t, by rw [e]; rfl⟩

theorem parseInt_digits {a : Text} (hne : a ≠ []) (ha : ∀ c ∈ a, c.isDigit = true) :
    parseInt a = some (digitsValue a : ℤ) := by
  obtain ⟨d, hd, r, e⟩ := digits_head hne ha []
  rw [List.append_nil] at e
  have : parseInt a = (parseNat a).map fun n : ℕ => (n : ℤ) := by
    rw [e]
    interval_cases d <;> rfl
  rw [this, parseNat_digits hne ha]
  rfl

theorem parseInt_natText (n : ℕ) : parseInt (natText n) = some (n : ℤ) := by
  rw [parseInt_digits (natText_digits n).1 (natText_digits n).2, digitsValue_natText]

/-- Reading `digits.digits`. -/
theorem parseUnsigned_point {a b : Text} (ha : a ≠ []) (hda : ∀ c ∈ a, c.isDigit = true)
    (hdb : ∀ c ∈ b, c.isDigit = true) :
    parseUnsigned (a ++ '.' :: b) = some ((digitsValue a : ℚ) + (digitsValue b : ℚ) / 10 ^ b.length) := by
  obtain ⟨e1, e2⟩ := takeWhile_digits hda (c := '.') rfl b
  obtain ⟨e3, e4⟩ := takeWhile_digits_end hdb
  unfold parseUnsigned
  simp only [e1, e2, e3, e4]
  rw [if_neg (fun h => ha h.1), digitsValue_append]
  push_cast
  congr 1
  have : (10 : ℚ) ^ b.length ≠ 0 := by positivity
  field_simp

/-- Reading `digits.digitsEexponent`. -/
theorem parseUnsigned_exp {a b r : Text} (ha : a ≠ []) (hda : ∀ c ∈ a, c.isDigit = true)
    (hdb : ∀ c ∈ b, c.isDigit = true) {e : ℤ} (hr : parseInt r = some e) :
    parseUnsigned (a ++ '.' :: (b ++ 'E' :: r)) = some (((digitsValue a : ℚ) + (digitsValue b : ℚ) / 10 ^ b.length) * 10 ^ e) := by
  obtain ⟨e1, e2⟩ := takeWhile_digits hda (c := '.') rfl (b ++ 'E' :: r)
  obtain ⟨e3, e4⟩ := takeWhile_digits hdb (c := 'E') rfl r
  unfold parseUnsigned
  simp only [e1, e2, e3, e4]
  rw [if_neg (fun h => ha h.1), digitsValue_append, hr]
  push_cast
  simp only [or_true, if_true, Option.map_some, Option.some.injEq]
  have : (10 : ℚ) ^ b.length ≠ 0 := by positivity
  field_simp

theorem lower_digits_head {d : ℕ} (hd : d < 10) (r : Text) : ∃ r', lower (Nat.digitChar d :: r) = Nat.digitChar d :: r' := by
  refine ⟨lower r, ?_⟩
  interval_cases d <;> rfl

theorem parseAbs_digits (neg : Bool) {d : ℕ} (hd : d < 10) {r : Text} {q : ℚ}
    (h : parseUnsigned (Nat.digitChar d :: r) = some q) :
    parseAbs neg (Nat.digitChar d :: r) = some (.num (if neg then -q else q)) := by
  obtain ⟨r', e⟩ := lower_digits_head hd r
  unfold parseAbs
  have h1 : lower (Nat.digitChar d :: r) ≠ "nan".toList := by
    rw [e]; interval_cases d <;> simp [Nat.digitChar]
  have h2 : ¬ (lower (Nat.digitChar d :: r) = "inf".toList ∨ lower (Nat.digitChar d :: r) = "infinity".toList) := by
    rw [e]; interval_cases d <;> simp [Nat.digitChar]
  rw [if_neg h1, if_neg h2, h]
  rfl

/-- Reading a number written with an optional minus sign. -/
theorem parseFloat_signed {d : ℕ} (hd : d < 10) {r : Text} {q : ℚ} (h : parseUnsigned (Nat.digitChar d :: r) = some q)
    (neg : Bool) :
    parseFloat ((if neg then ['-'] else []) ++ Nat.digitChar d :: r) = some (.num (if neg then -q else q)) := by
  cases neg
  · rw [if_neg (by simp), List.nil_append]
    have : parseFloat (Nat.digitChar d :: r) = parseAbs false (Nat.digitChar d :: r) := by
      interval_cases d <;> rfl
    rw [this, parseAbs_digits false hd h]
  · exact parseAbs_digits true hd h

/-! ### Formats -/

theorem word_of_digits {a : Text} (hne : a ≠ []) (ha : ∀ c ∈ a, c.isDigit = true) : Word a :=
  ⟨hne, fun c hc => isDigit_not_blank (ha c hc)⟩

theorem natText_word (n : ℕ) : Word (natText n) := word_of_digits (natText_digits n).1 (natText_digits n).2

theorem fmtFixed_word (k : ℕ) (q : ℚ) : Word (fmtFixed k q) := by
  unfold fmtFixed
  refine ⟨by simp, fun c hc => ?_⟩
  simp only [List.mem_append, List.mem_cons] at hc
  rcases hc with (hc | hc) | hc | hc
  · split at hc
    · rw [List.mem_singleton.1 hc]; rfl
    · cases hc
  · exact isDigit_not_blank ((natText_digits _).2 c hc)
  · rw [hc]; rfl
  · exact isDigit_not_blank (fixedDigits_digits _ _ c hc)

theorem parseFloat_fmtFixed (k : ℕ) (q : ℚ) :
    parseFloat (fmtFixed k q) =
      some (.num ((if q < 0 then -1 else 1) * ((roundEven (|q| * 10 ^ k) : ℕ) : ℚ) / 10 ^ k)) := by
  unfold fmtFixed
  set N := roundEven (|q| * 10 ^ k)
  have h := parseUnsigned_point (natText_digits (N / 10 ^ k)).1 (natText_digits (N / 10 ^ k)).2
    (fixedDigits_digits k (N % 10 ^ k))
  rw [digitsValue_natText, digitsValue_fixedDigits, fixedDigits_length, Nat.mod_mod] at h
  obtain ⟨d, hd, r, e⟩ := digits_head (natText_digits (N / 10 ^ k)).1 (natText_digits (N / 10 ^ k)).2
    ('.' :: fixedDigits k (N % 10 ^ k))
  rw [e] at h
  have := parseFloat_signed hd h (decide (q < 0))
  simp only [decide_eq_true_eq] at this
  rw [List.append_assoc, e, this]
  have hN : (N : ℚ) = (N / 10 ^ k : ℕ) * 10 ^ k + (N % 10 ^ k : ℕ) := by
    exact_mod_cast (by rw [mul_comm]; exact (Nat.div_add_mod N (10 ^ k)).symm)
  have hk : (10 : ℚ) ^ k ≠ 0 := by positivity
  rw [hN]
  congr 2
  split <;> field_simp

theorem fltFixed_word (k : ℕ) (v : Flt) : Word (fltFixed k v) := by
  cases v with
  | num q => exact fmtFixed_word k q
  | inf b => cases b <;> exact ⟨by simp [fltFixed], by simp only [fltFixed]; decide⟩
  | nan => exact ⟨by simp [fltFixed], by simp only [fltFixed]; decide⟩

theorem expText_parse (e : ℤ) : parseInt (expText e) = some e := by
  have key : ∀ a : Text, a ≠ [] → (∀ c ∈ a, c.isDigit = true) → digitsValue a = e.natAbs →
      parseInt ((if e < 0 then '-' else '+') :: a) = some e := by
    intro a h1 h2 h3
    by_cases he : e < 0
    · rw [if_pos he]
      change (parseNat a).map (fun n : ℕ => -(n : ℤ)) = _
      rw [parseNat_digits h1 h2, h3, Option.map_some]
      congr 1
      omega
    · rw [if_neg he]
      change (parseNat a).map (fun n : ℕ => (n : ℤ)) = _
      rw [parseNat_digits h1 h2, h3, Option.map_some]
      congr 1
      omega
  unfold expText
  obtain ⟨h1, h2⟩ := natText_digits e.natAbs
  by_cases h : e.natAbs < 10
  · rw [if_pos h]
    refine key _ (by simp) ?_ ?_
    · intro c hc
      rcases List.mem_cons.1 hc with rfl | hc
      · rfl
      · exact h2 c hc
    · have := digitsValue_append ['0'] (natText e.natAbs)
      rw [List.singleton_append] at this
      rw [this, digitsValue_natText]
      simp [digitsValue]
  · rw [if_neg h]
    exact key _ h1 h2 (digitsValue_natText _)

/-- Exponent and mantissa printed by `.7E`. -/
def sciOf (q : ℚ) : ℤ × ℕ := if q = 0 then (0, 0) else sciParts q

theorem fmtSci_word (q : ℚ) : Word (fmtSci q) := by
  unfold fmtSci expText
  dsimp only
  generalize (if q = 0 then ((0, 0) : ℤ × ℕ) else sciParts q) = p
  refine ⟨by simp, fun c hc => ?_⟩
  simp only [List.mem_append, List.mem_cons] at hc
  rcases hc with ((hc | hc) | hc | hc) | hc | hc | hc
  · split at hc
    · rw [List.mem_singleton.1 hc]; rfl
    · cases hc
  · exact isDigit_not_blank ((natText_digits _).2 c hc)
  · rw [hc]; rfl
  · exact isDigit_not_blank (fixedDigits_digits _ _ c hc)
  · rw [hc]; rfl
  · rw [hc]; split <;> rfl
  · split at hc
    · rcases List.mem_cons.1 hc with rfl | hc
      · rfl
      · exact isDigit_not_blank ((natText_digits _).2 c hc)
    · exact isDigit_not_blank ((natText_digits _).2 c hc)

theorem parseFloat_fmtSci (q : ℚ) :
    parseFloat (fmtSci q) =
      some (.num ((if q < 0 then -1 else 1) * (((sciOf q).2 : ℚ) / 10 ^ 7 * 10 ^ (sciOf q).1))) := by
  have e0 : fmtSci q = (if q < 0 then ['-'] else []) ++ (natText ((sciOf q).2 / 10 ^ 7) ++
      '.' :: (fixedDigits 7 ((sciOf q).2 % 10 ^ 7) ++ 'E' :: expText (sciOf q).1)) := by
    unfold fmtSci
    simp only [List.append_assoc, List.cons_append]
    rfl
  rw [e0]
  generalize sciOf q = p
  obtain ⟨x, N⟩ := p
  have h := parseUnsigned_exp (natText_digits (N / 10 ^ 7)).1 (natText_digits (N / 10 ^ 7)).2
    (fixedDigits_digits 7 (N % 10 ^ 7)) (expText_parse x)
  rw [digitsValue_natText, digitsValue_fixedDigits, fixedDigits_length, Nat.mod_mod] at h
  obtain ⟨d, hd, r, e⟩ := digits_head (natText_digits (N / 10 ^ 7)).1 (natText_digits (N / 10 ^ 7)).2
    ('.' :: (fixedDigits 7 (N % 10 ^ 7) ++ 'E' :: expText x))
  rw [e] at h
  have := parseFloat_signed hd h (decide (q < 0))
  simp only [decide_eq_true_eq] at this
  dsimp only
  rw [e, this]
  have hN : (N : ℚ) = (N / 10 ^ 7 : ℕ) * 10 ^ 7 + (N % 10 ^ 7 : ℕ) := by
    exact_mod_cast (by rw [mul_comm]; exact (Nat.div_add_mod N (10 ^ 7)).symm)
  rw [hN]
  congr 2
  split <;> field_simp

theorem fltSci_word (v : Flt) : Word (fltSci v) := by
  cases v with
  | num q => exact fmtSci_word q
  | inf b => cases b <;> exact ⟨by simp [fltSci], by decide⟩
  | nan => exact ⟨by simp [fltSci], by decide⟩

end PyKrige
