import Verif.Spec.Numbers
import Verif.Model.Tools
import Mathlib.Data.List.Induction
import Mathlib.Data.List.TakeWhile
import Mathlib.Tactic.FieldSimp
import Mathlib.Tactic.IntervalCases

/-! What the readers take for numbers is what the notation means. -/

namespace PyKrige
open Spec

theorem digitsAre_iff {a : Text} {n : ℕ} : DigitsAre a n ↔ (∀ c ∈ a, c.isDigit = true) ∧ digitsValue a = n := by
  constructor
  · intro h
    induction h with
    | none => exact ⟨by simp, rfl⟩
    | @digit a n d h hd ih =>
      refine ⟨?_, ?_⟩
      · intro c hc
        rcases List.mem_append.1 hc with hc | hc
        · exact ih.1 c hc
        · rw [List.mem_singleton.1 hc]; exact digitChar_isDigit hd
      · rw [digitsValue_append, ih.2]
        have : digitsValue [Nat.digitChar d] = d := by
          unfold digitsValue
          simp [digitChar_value hd]
        rw [this]
        simp
        omega
  · rintro ⟨h, rfl⟩
    induction a using List.reverseRecOn with
    | nil => exact .none
    | append_singleton a c ih =>
      obtain ⟨d, hd, rfl⟩ := isDigit_cases (h c (by simp))
      have : digitsValue (a ++ [Nat.digitChar d]) = 10 * digitsValue a + d := by
        unfold digitsValue
        simp [digitChar_value hd]
      rw [this]
      exact .digit (ih fun c hc => h c (by simp [hc])) hd

theorem parseNat_iff {t : Text} {n : ℕ} : parseNat t = some n ↔ t ≠ [] ∧ DigitsAre t n := by
  rw [digitsAre_iff]
  unfold parseNat
  by_cases h : t ≠ [] ∧ t.all Char.isDigit = true
  · rw [if_pos h]
    simp only [Option.some.injEq]
    constructor
    · exact fun e => ⟨h.1, by simpa using h.2, e⟩
    · exact fun e => e.2.2
  · rw [if_neg h]
    simp only [reduceCtorEq, false_iff]
    rintro ⟨h1, h2, -⟩
    exact h ⟨h1, by simpa using h2⟩

theorem parseInt_iff {t : Text} {k : ℤ} : parseInt t = some k ↔ IntText t k := by
  constructor
  · intro h
    unfold parseInt at h
    split at h
    · obtain ⟨n, h1, rfl⟩ := Option.map_eq_some_iff.1 h
      obtain ⟨h2, h3⟩ := parseNat_iff.1 h1
      exact .minus h2 h3
    · obtain ⟨n, h1, rfl⟩ := Option.map_eq_some_iff.1 h
      obtain ⟨h2, h3⟩ := parseNat_iff.1 h1
      exact .plus h2 h3
    · obtain ⟨n, h1, rfl⟩ := Option.map_eq_some_iff.1 h
      obtain ⟨h2, h3⟩ := parseNat_iff.1 h1
      exact .plain h2 h3
  · intro h
    cases h with
    | plain h1 h2 =>
      obtain ⟨h3, rfl⟩ := digitsAre_iff.1 h2
      exact parseInt_digits h1 h3
    | plus h1 h2 =>
      show (parseNat _).map _ = _
      rw [parseNat_iff.2 ⟨h1, h2⟩]
      rfl
    | minus h1 h2 =>
      show (parseNat _).map _ = _
      rw [parseNat_iff.2 ⟨h1, h2⟩]
      rfl

/-- What follows the digits and the point. -/
def exponentOf (m : ℚ) (t : Text) : Option ℚ :=
  match t with
  | [] => some m
  | c :: r => if c = 'e' ∨ c = 'E' then (parseInt r).map fun e => m * 10 ^ e else none

theorem parseUnsigned_whole {a t : Text} (hd : ∀ c ∈ a, c.isDigit = true)
    (ht : ∀ c ∈ t.head?, c.isDigit = false ∧ c ≠ '.') :
    parseUnsigned (a ++ t) = if a = [] then none else exponentOf (digitsValue a) t := by
  have h1 : (a ++ t).takeWhile Char.isDigit = a ∧ (a ++ t).dropWhile Char.isDigit = t := by
    cases t with
    | nil => rw [List.append_nil]; exact takeWhile_digits_end hd
    | cons c t => exact takeWhile_digits hd (ht c rfl).1 t
  unfold parseUnsigned
  simp only [h1.1, h1.2]
  cases t with
  | nil => simp [exponentOf]
  | cons c t =>
    have hc := (ht c rfl).2
    split
    · rename_i r e; exact absurd (List.cons.inj e).1 hc
    · simp [exponentOf]

theorem parseUnsigned_pointed {a b t : Text} (hd : ∀ c ∈ a, c.isDigit = true) (hb : ∀ c ∈ b, c.isDigit = true)
    (ht : ∀ c ∈ t.head?, c.isDigit = false) :
    parseUnsigned (a ++ '.' :: (b ++ t)) = if a = [] ∧ b = [] then none else
      exponentOf ((digitsValue a : ℚ) + (digitsValue b : ℚ) / 10 ^ b.length) t := by
  obtain ⟨e1, e2⟩ := takeWhile_digits hd (c := '.') rfl (b ++ t)
  have h1 : (b ++ t).takeWhile Char.isDigit = b ∧ (b ++ t).dropWhile Char.isDigit = t := by
    cases t with
    | nil => rw [List.append_nil]; exact takeWhile_digits_end hb
    | cons c t => exact takeWhile_digits hb (ht c rfl) t
  have hv : ((digitsValue (a ++ b) : ℕ) : ℚ) / 10 ^ b.length = (digitsValue a : ℚ) + (digitsValue b : ℚ) / 10 ^ b.length := by
    rw [digitsValue_append]
    push_cast
    have : (10 : ℚ) ^ b.length ≠ 0 := by positivity
    field_simp
  unfold parseUnsigned
  simp only [e1, e2, h1.1, h1.2, hv]
  rfl

theorem exponentOf_iff {m q : ℚ} {t : Text} : exponentOf m t = some q ↔
    (t = [] ∧ q = m) ∨ ∃ c r k, t = c :: r ∧ (c = 'e' ∨ c = 'E') ∧ IntText r k ∧ q = m * 10 ^ k := by
  cases t with
  | nil => simp [exponentOf, eq_comm]
  | cons c r =>
    simp only [exponentOf, reduceCtorEq, false_and, false_or]
    by_cases hc : c = 'e' ∨ c = 'E'
    · rw [if_pos hc, Option.map_eq_some_iff]
      constructor
      · rintro ⟨k, h1, rfl⟩
        exact ⟨c, r, k, rfl, hc, parseInt_iff.1 h1, rfl⟩
      · rintro ⟨c', r', k, e, -, h1, rfl⟩
        cases e
        exact ⟨k, parseInt_iff.2 h1, rfl⟩
    · rw [if_neg hc]
      simp only [reduceCtorEq, false_iff]
      rintro ⟨c', r', k, e, h1, -⟩
      cases e
      exact hc h1

theorem exp_letter {c : Char} (h : c = 'e' ∨ c = 'E') : c.isDigit = false ∧ c ≠ '.' := by
  rcases h with rfl | rfl <;> exact ⟨rfl, by decide⟩

theorem parseUnsigned_iff {t : Text} {q : ℚ} : parseUnsigned t = some q ↔ UnsignedText t q := by
  constructor
  · intro h
    have hs := List.takeWhile_append_dropWhile (p := Char.isDigit) (l := t)
    have hd : ∀ c ∈ t.takeWhile Char.isDigit, c.isDigit = true := fun c hc => (List.mem_takeWhile_imp (p := Char.isDigit) hc)
    have hn : ∀ c ∈ (t.dropWhile Char.isDigit).head?, c.isDigit = false := by
      intro c hc
      have := List.head?_dropWhile_not Char.isDigit t
      rw [Option.mem_def] at hc
      rw [hc] at this
      simpa using this
    generalize t.takeWhile Char.isDigit = a at *
    generalize t.dropWhile Char.isDigit = t1 at *
    subst hs
    by_cases hp : t1.head? = some '.'
    · obtain ⟨r, rfl⟩ : ∃ r, t1 = '.' :: r := by
        cases t1 with
        | nil => cases hp
        | cons c r => exact ⟨r, by rw [Option.some.inj hp]⟩
      have hs := List.takeWhile_append_dropWhile (p := Char.isDigit) (l := r)
      have hd' : ∀ c ∈ r.takeWhile Char.isDigit, c.isDigit = true := fun c hc => (List.mem_takeWhile_imp (p := Char.isDigit) hc)
      have hn' : ∀ c ∈ (r.dropWhile Char.isDigit).head?, c.isDigit = false := by
        intro c hc
        have := List.head?_dropWhile_not Char.isDigit r
        rw [Option.mem_def] at hc
        rw [hc] at this
        simpa using this
      generalize r.takeWhile Char.isDigit = b at *
      generalize r.dropWhile Char.isDigit = t2 at *
      subst hs
      rw [parseUnsigned_pointed hd hd' hn'] at h
      by_cases hab : a = [] ∧ b = []
      · rw [if_pos hab] at h; cases h
      rw [if_neg hab] at h
      have hm : Mantissa (a ++ '.' :: b) ((digitsValue a : ℚ) + (digitsValue b : ℚ) / 10 ^ b.length) :=
        .point (by by_contra hc; push Not at hc; exact hab hc) (digitsAre_iff.2 ⟨hd, rfl⟩) (digitsAre_iff.2 ⟨hd', rfl⟩)
      rcases exponentOf_iff.1 h with ⟨rfl, rfl⟩ | ⟨c, s, k, rfl, hc, hk, rfl⟩
      · rw [List.append_nil]
        exact .plain hm
      · have := UnsignedText.power hm hc hk
        simpa using this
    · rw [parseUnsigned_whole hd fun c hc => ⟨hn c hc, fun e => hp (by rw [← e]; exact hc)⟩] at h
      by_cases ha : a = []
      · rw [if_pos ha] at h; cases h
      rw [if_neg ha] at h
      have hm : Mantissa a (digitsValue a : ℚ) := .whole ha (digitsAre_iff.2 ⟨hd, rfl⟩)
      rcases exponentOf_iff.1 h with ⟨rfl, rfl⟩ | ⟨c, s, k, rfl, hc, hk, rfl⟩
      · rw [List.append_nil]
        exact .plain hm
      · exact .power hm hc hk
  · intro h
    cases h with
    | plain h =>
      cases h with
      | whole ha hd =>
        obtain ⟨h3, rfl⟩ := digitsAre_iff.1 hd
        have := parseUnsigned_whole (t := []) h3 (by simp)
        rw [List.append_nil] at this
        rw [this, if_neg ha]
        rfl
      | @point a b _ _ hab ha hb =>
        obtain ⟨h3, rfl⟩ := digitsAre_iff.1 ha
        obtain ⟨h4, rfl⟩ := digitsAre_iff.1 hb
        have := parseUnsigned_pointed (t := []) h3 h4 (by simp)
        rw [List.append_nil] at this
        rw [this, if_neg (by rintro ⟨e1, e2⟩; exact hab.elim (· e1) (· e2))]
        rfl
    | @power t e c q k h hc hk =>
      cases h with
      | whole ha hd =>
        obtain ⟨h3, rfl⟩ := digitsAre_iff.1 hd
        rw [parseUnsigned_whole h3 (by rintro _ ⟨⟩; exact exp_letter hc), if_neg ha]
        exact exponentOf_iff.2 (.inr ⟨c, _, k, rfl, hc, hk, rfl⟩)
      | @point a b _ _ hab ha hb =>
        obtain ⟨h3, rfl⟩ := digitsAre_iff.1 ha
        obtain ⟨h4, rfl⟩ := digitsAre_iff.1 hb
        rw [List.append_assoc, List.cons_append,
          parseUnsigned_pointed h3 h4 (by rintro _ ⟨⟩; exact (exp_letter hc).1),
          if_neg (by rintro ⟨e1, e2⟩; exact hab.elim (· e1) (· e2))]
        exact exponentOf_iff.2 (.inr ⟨c, _, k, rfl, hc, hk, rfl⟩)

/-- A number without sign begins with a digit or a point. -/
theorem UnsignedText.head {t : Text} {q : ℚ} (h : UnsignedText t q) :
    ∃ c r, t = c :: r ∧ (c = '.' ∨ ∃ d < 10, c = Nat.digitChar d) := by
  have hm : ∀ {t : Text} {q : ℚ}, Mantissa t q → ∃ c r, t = c :: r ∧ (c = '.' ∨ ∃ d < 10, c = Nat.digitChar d) := by
    intro t q h
    have key : ∀ {a : Text} {n : ℕ}, DigitsAre a n → ∀ s, (a ≠ [] ∨ s = [] ∨ s.head? = some '.') → a ++ s ≠ [] →
        ∃ c r, a ++ s = c :: r ∧ (c = '.' ∨ ∃ d < 10, c = Nat.digitChar d) := by
      intro a n ha s hs hne
      cases a with
      | nil =>
        cases s with
        | nil => exact absurd rfl hne
        | cons c s =>
          refine ⟨c, s, rfl, .inl ?_⟩
          rcases hs with h | h | h
          · exact absurd rfl h
          · cases h
          · exact Option.some.inj h
      | cons c a => exact ⟨c, a ++ s, rfl, .inr (isDigit_cases ((digitsAre_iff.1 ha).1 c (by simp)))⟩
    cases h with
    | whole ha hd => simpa using key hd [] (.inl ha) (by simpa using ha)
    | point hab ha hb => exact key ha _ (.inr (.inr rfl)) (by simp)
  cases h with
  | plain h => exact hm h
  | power h _ _ =>
    obtain ⟨c, r, rfl, h'⟩ := hm h
    exact ⟨c, _, rfl, h'⟩

theorem parseAbs_iff {neg : Bool} {t : Text} {f : Flt} : parseAbs neg t = some f ↔ AbsText neg t f := by
  constructor
  · intro h
    unfold parseAbs at h
    by_cases h1 : lower t = "nan".toList
    · rw [if_pos h1] at h
      cases h
      exact .nan h1
    · rw [if_neg h1] at h
      by_cases h2 : lower t = "inf".toList ∨ lower t = "infinity".toList
      · rw [if_pos h2] at h
        cases h
        exact .inf h2
      · rw [if_neg h2] at h
        obtain ⟨q, h3, rfl⟩ := Option.map_eq_some_iff.1 h
        exact .num (parseUnsigned_iff.1 h3)
  · intro h
    unfold parseAbs
    cases h with
    | nan h => exact if_pos h
    | inf h =>
      rw [if_neg]
      · exact if_pos h
      · intro e
        have e : t.map Char.toLower = "nan".toList := e
        rw [e] at h
        revert h
        decide
    | @num q h =>
      have h3 := parseUnsigned_iff.2 h
      obtain ⟨c, r, rfl, hc⟩ := UnsignedText.head h
      have hl : ∀ s : Text, s.head? = some 'n' ∨ s.head? = some 'i' → lower (c :: r) ≠ s := by
        rintro s hs rfl
        have e : (lower (c :: r)).head? = some c.toLower := rfl
        rw [e] at hs
        rcases hc with rfl | ⟨d, hd, rfl⟩
        · revert hs; decide
        · interval_cases d <;> revert hs <;> decide
      rw [if_neg (hl _ (.inl rfl)), if_neg (fun h => h.elim (hl _ (.inr rfl)) (hl _ (.inr rfl))), h3]
      rfl

theorem AbsText.head {neg : Bool} {t : Text} {f : Flt} (h : AbsText neg t f) : t.head? ≠ some '-' ∧ t.head? ≠ some '+' := by
  have hw : ∀ {s : Text}, t.map Char.toLower = s → s.head? ≠ some '-' → s.head? ≠ some '+' →
      t.head? ≠ some '-' ∧ t.head? ≠ some '+' := by
    rintro s rfl h1 h2
    cases t with
    | nil => simp
    | cons c t =>
      refine ⟨?_, ?_⟩
      · rintro e
        rw [Option.some.inj e] at h1
        exact h1 rfl
      · rintro e
        rw [Option.some.inj e] at h2
        exact h2 rfl
  cases h with
  | nan h => exact hw h (by decide) (by decide)
  | inf h => exact h.elim (fun h => hw h (by decide) (by decide)) fun h => hw h (by decide) (by decide)
  | num h =>
    obtain ⟨c, r, rfl, hc⟩ := UnsignedText.head h
    rcases hc with rfl | ⟨d, hd, rfl⟩
    · simp
    · interval_cases d <;> simp [Nat.digitChar]

theorem parseFloat_iff {t : Text} {f : Flt} : parseFloat t = some f ↔ FltText t f := by
  constructor
  · intro h
    unfold parseFloat at h
    split at h
    · exact .minus (parseAbs_iff.1 h)
    · exact .plus (parseAbs_iff.1 h)
    · exact .plain (parseAbs_iff.1 h)
  · intro h
    cases h with
    | plus h => exact parseAbs_iff.2 h
    | minus h => exact parseAbs_iff.2 h
    | plain h =>
      obtain ⟨h1, h2⟩ := AbsText.head h
      unfold parseFloat
      split
      · exact absurd rfl h1
      · exact absurd rfl h2
      · exact parseAbs_iff.2 h

theorem Words.pySplit {t : Text} {ws : List Text} (h : Words t ws) : pySplit t = ws := by
  induction h with
  | none hb => exact pySplit_blanks hb
  | last hb hw => rw [pySplit_blank hb, pySplit_single hw]
  | @word b w t c ws hb hw hc _ ih =>
    rw [List.append_assoc, pySplit_blank hb, pySplit_word hw (by rintro _ ⟨⟩; exact hc)]
    have : c :: t = [c] ++ t := rfl
    rw [this, pySplit_blank (by intro d hd; rw [List.mem_singleton.1 hd]; exact hc), ih]

theorem cell_iff {w : Text} {f : Flt} : Cell w f ↔ f = (parseFloat w).getD .nan := by
  cases h : parseFloat w with
  | none =>
    have hn : ∀ g, ¬ FltText w g := fun g hg => by rw [parseFloat_iff.2 hg] at h; cases h
    exact ⟨fun hc => hc.elim (fun hc => absurd hc (hn _)) And.left, fun e => .inr ⟨e, hn⟩⟩
  | some g =>
    have hg := parseFloat_iff.1 h
    constructor
    · rintro (hc | ⟨-, hc⟩)
      · have := parseFloat_iff.2 hc
        rw [h] at this
        exact (Option.some.inj this).symm
      · exact absurd hg (hc g)
    · rintro rfl
      exact .inl hg

theorem RowText.genRow {l : Text} {row : List Flt} (h : RowText l row) : genRow l = row := by
  obtain ⟨-, content, comment, ws, rfl, h1, h2, h3, h4⟩ := h
  have e : (content ++ comment).takeWhile (· ≠ '#') = content := by
    rw [List.takeWhile_append_of_pos (by intro c hc; have : c ≠ '#' := (fun e => h1 (by rw [← e]; exact hc)); simpa using this)]
    rcases h2 with rfl | h2
    · simp
    · cases comment with
      | nil => simp
      | cons c r =>
        obtain rfl := Option.some.inj h2
        simp
  unfold PyKrige.genRow
  rw [e, Words.pySplit h3]
  clear h3
  induction h4 with
  | nil => rfl
  | cons hc _ ih => rw [List.map_cons, ih, cell_iff.1 hc]

end PyKrige
