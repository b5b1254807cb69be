import Verif.Spec.Files
import Verif.Lemmas.Text
import Mathlib.Algebra.Order.Floor.Semiring
import Mathlib.Data.Rat.Cast.Order
import Mathlib.Algebra.Order.Field.Rat

/-! The rounding done by the number formats. -/

namespace PyKrige
open Spec

theorem roundEven_spec {q : ℚ} (hq : 0 ≤ q) :
    |(roundEven q : ℚ) - q| ≤ 1 / 2 ∧ (|(roundEven q : ℚ) - q| = 1 / 2 → Even (roundEven q)) := by
  have h1 : (⌊q⌋₊ : ℚ) ≤ q := Nat.floor_le hq
  have h2 : q < ⌊q⌋₊ + 1 := Nat.lt_floor_add_one q
  unfold roundEven
  dsimp only
  generalize ⌊q⌋₊ = f at *
  split
  · next h =>
    rw [abs_of_nonpos (by linarith)]
    exact ⟨by linarith, fun e => by exfalso; linarith⟩
  · next h =>
    split
    · next h' =>
      push_cast
      rw [abs_of_nonneg (by linarith)]
      exact ⟨by linarith, fun e => by exfalso; linarith⟩
    · next h' =>
      have e : q - f = 1 / 2 := le_antisymm (not_lt.1 h') (not_lt.1 h)
      split
      · next h'' =>
        refine ⟨?_, fun _ => Nat.even_iff.2 h''⟩
        rw [abs_of_nonpos (by linarith)]
        linarith
      · next h'' =>
        refine ⟨?_, fun _ => Nat.even_iff.2 (by omega)⟩
        push_cast
        rw [abs_of_nonneg (by linarith)]
        linarith

theorem roundEven_natCast (n : ℕ) : roundEven (n : ℚ) = n := by
  simp [roundEven]

/-- The number `.kf` prints. -/
def fixedOf (k : ℕ) (q : ℚ) : ℚ := (if q < 0 then -1 else 1) * ((roundEven (|q| * 10 ^ k) : ℕ) : ℚ) / 10 ^ k

theorem fixedOf_rounded (k : ℕ) (q : ℚ) : Rounded k q (fixedOf k q) := by
  have hk : (0 : ℚ) < 10 ^ k := by positivity
  obtain ⟨h1, h2⟩ := roundEven_spec (q := |q| * 10 ^ k) (by positivity)
  unfold fixedOf
  set N := roundEven (|q| * 10 ^ k)
  have key : ∀ s : ℚ, s * s = 1 → q = s * |q| → |s * (N : ℚ) / 10 ^ k - q| = |(N : ℚ) - |q| * 10 ^ k| / 10 ^ k := by
    intro s hs hq
    have e : s * (N : ℚ) / 10 ^ k - q = s * (((N : ℚ) - |q| * 10 ^ k) / 10 ^ k) := by
      conv_lhs => rw [hq]
      field_simp
    have hs' : |s| = 1 := by
      have : |s| * |s| = 1 := by rw [← abs_mul, hs, abs_one]
      nlinarith [abs_nonneg s]
    rw [e, abs_mul, hs', one_mul, abs_div, abs_of_pos hk]
  have e : |(if q < 0 then (-1 : ℚ) else 1) * (N : ℚ) / 10 ^ k - q| = |(N : ℚ) - |q| * 10 ^ k| / 10 ^ k := by
    split
    · next h => exact key (-1) (by norm_num) (by rw [abs_of_neg h]; ring)
    · next h => exact key 1 (by norm_num) (by rw [abs_of_nonneg (not_lt.1 h)]; ring)
  refine ⟨?_, ⟨(if q < 0 then -1 else 1) * (N : ℤ), ?_, fun h => ?_⟩⟩
  · rw [e, div_le_div_iff₀ hk (by positivity)]
    nlinarith
  · push_cast
    split <;> rfl
  · rw [e, div_eq_div_iff hk.ne' (by positivity)] at h
    have h3 : |(N : ℚ) - |q| * 10 ^ k| = 1 / 2 := by
      have : |(N : ℚ) - |q| * 10 ^ k| * 2 * 10 ^ k = 1 * 10 ^ k := by linarith
      have := mul_right_cancel₀ hk.ne' this
      linarith
    have h4 : Even (N : ℤ) := by exact_mod_cast h2 h3
    exact h4.mul_left _

theorem parse_fmtFixed (k : ℕ) (q : ℚ) : parseFloat (fmtFixed k q) = some (.num (fixedOf k q)) := parseFloat_fmtFixed k q

/-- The value `.kf` prints. -/
def fltOf (k : ℕ) : Flt → Flt
  | .num q => .num (fixedOf k q)
  | v => v

theorem parse_fltFixed (k : ℕ) (v : Flt) : parseFloat (fltFixed k v) = some (fltOf k v) := by
  cases v with
  | num q => exact parse_fmtFixed k q
  | inf b => cases b <;> rfl
  | nan => rfl

theorem fltOf_rounded (k : ℕ) (v : Flt) : RoundedFlt k v (fltOf k v) := by
  cases v with
  | num q => exact .num (fixedOf_rounded k q)
  | inf b => exact .inf b
  | nan => exact .nan

theorem Spec.Rounded.unique {k : ℕ} {q r r' : ℚ} (h : Rounded k q r) (h' : Rounded k q r') : r = r' := by
  obtain ⟨h1, m, h2, h3⟩ := h
  obtain ⟨h1', m', h2', h3'⟩ := h'
  have hk : (0 : ℚ) < 10 ^ k := by positivity
  by_contra hne
  have hmm : m ≠ m' := fun e => hne (by rw [h2, h2', e])
  have hd : 1 / 10 ^ k ≤ |r - r'| := by
    rw [h2, h2', ← sub_div, abs_div, abs_of_pos hk]
    apply div_le_div_of_nonneg_right _ hk.le
    have : (1 : ℤ) ≤ |m - m'| := Int.one_le_abs (sub_ne_zero.2 hmm)
    exact_mod_cast this
  have ht : |r - r'| ≤ |r - q| + |r' - q| := by
    have := abs_sub_le r q r'
    rwa [abs_sub_comm q r'] at this
  have hs : (1 : ℚ) / (2 * 10 ^ k) + 1 / (2 * 10 ^ k) = 1 / 10 ^ k := by field_simp; norm_num
  have e1 : |r - q| = 1 / (2 * 10 ^ k) := by linarith
  have e2 : |r' - q| = 1 / (2 * 10 ^ k) := by linarith
  have e3 := h3 e1
  have e4 := h3' e2
  -- both even, so they differ by at least 2
  have hd2 : 2 / 10 ^ k ≤ |r - r'| := by
    rw [h2, h2', ← sub_div, abs_div, abs_of_pos hk]
    apply div_le_div_of_nonneg_right _ hk.le
    obtain ⟨a, rfl⟩ := e3
    obtain ⟨b, rfl⟩ := e4
    have : (1 : ℤ) ≤ |a - b| := Int.one_le_abs (by intro e; apply hmm; omega)
    have h2 : (2 : ℤ) ≤ |a + a - (b + b)| := by
      rw [show a + a - (b + b) = 2 * (a - b) by ring, abs_mul]
      norm_num
      exact this
    exact_mod_cast h2
  have h5 : (2 : ℚ) / 10 ^ k = 1 / 10 ^ k + 1 / 10 ^ k := by ring
  have h6 : (0 : ℚ) < 1 / 10 ^ k := by positivity
  linarith

/-! ### Lengths -/

theorem natText_length {n k : ℕ} (hk : k ≠ 0) : (natText n).length ≤ k ↔ n < 10 ^ k := by
  induction n using Nat.strong_induction_on generalizing k with
  | _ n ih =>
    obtain ⟨k, rfl⟩ := Nat.exists_eq_succ_of_ne_zero hk
    rw [natText]
    by_cases h : n < 10
    · rw [if_pos h]
      refine ⟨fun _ => h.trans_le ?_, fun _ => by simp⟩
      calc 10 = 10 ^ 1 := by norm_num
        _ ≤ 10 ^ (k + 1) := Nat.pow_le_pow_right (by norm_num) (by omega)
    · rw [if_neg h, List.length_append, List.length_singleton]
      rcases Nat.eq_zero_or_pos k with rfl | hk'
      · have := List.length_pos_iff.2 (natText_digits (n / 10)).1
        constructor
        · intro h'; omega
        · intro h'; omega
      · have := ih (n / 10) (by omega) (k := k) (by omega)
        rw [Nat.succ_eq_add_one, pow_succ, Nat.add_le_add_iff_right, this]
        omega

theorem fmtFixed_length (k : ℕ) (q : ℚ) : (fmtFixed k q).length =
    (if q < 0 then 1 else 0) + (natText (roundEven (|q| * 10 ^ k) / 10 ^ k)).length + (k + 1) := by
  unfold fmtFixed
  simp only [List.length_append, List.length_cons, fixedDigits_length]
  split <;> simp

end PyKrige
