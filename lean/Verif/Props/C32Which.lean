import Verif.Props.C34

/-!
# C32, C34: which grids the writers accept

The writers compare the first step of each axis with the mean step, with the default tolerances of `numpy.isclose`.  That is
all they check of the spacing: an axis whose first step equals its mean step counts as regular, whatever comes between.
-/

namespace PyKrige

/-- The mean step of the axis differs from its first step by at most 1e-8 plus 1e-5 times the first step. -/
def Spec.LooksRegular (v : List ℚ) : Prop :=
  ∃ a b l, v = a :: b :: l ∧
    abs (abs (((b :: l).getLast (by simp) - a) / (l.length + 1)) - |b - a|) ≤ 1 / 10 ^ 8 + 1 / 10 ^ 5 * |b - a|

/-- The first step. -/
def Spec.step1 (v : List ℚ) : ℚ := |v.getD 1 0 - v.getD 0 0|

open Spec

theorem evenly_iff (a b : ℚ) (l : List ℚ) : evenly (a :: b :: l) |b - a| = true ↔ LooksRegular (a :: b :: l) := by
  have hlast : (a :: b :: l).getLastD 0 = (b :: l).getLast (by simp) := by
    simp [List.getLastD_eq_getLast?, List.getLast?_eq_getLast_of_ne_nil]
  unfold evenly isclose
  rw [decide_eq_true_eq, hlast, abs_abs]
  have e : (((a :: b :: l).length : ℕ) : ℚ) - 1 = l.length + 1 := by push_cast [List.length_cons]; ring
  rw [e]
  constructor
  · exact fun h => ⟨a, b, l, rfl, h⟩
  · rintro ⟨a', b', l', h, k⟩
    cases h
    exact k

section
variable {nr nc : ℕ} {file : Option Text} {x y : List ℚ} {z : Fin nr → Fin nc → Option Flt} {noData : Flt}

/-- `write_asc_grid` accepts, of the grids with at least two rows and columns, exactly those with axes that look regular, and
for style 2 with the same step in both directions; otherwise it raises a `ValueError`, and the file is left alone if the style
exists. -/
theorem C32_which (hr : 2 ≤ nr) (hc : 2 ≤ nc) (hx : 2 ≤ x.length) (hy : 2 ≤ y.length) (style : ℤ) :
    ((writeAscGrid file x y z noData style).1 = .ok () ↔
      LooksRegular x ∧ LooksRegular y ∧ (style = 1 ∨ style = 2 ∧ step1 x = step1 y)) ∧
    ((writeAscGrid file x y z noData style).1 ≠ .ok () →
      (writeAscGrid file x y z noData style).1 = .error .valueError ∧
      (style = 1 ∨ style = 2 → (writeAscGrid file x y z noData style).2 = file)) := by
  match x, hx, y, hy with
  | x0 :: x1 :: xs, _, y0 :: y1 :: ys, _ =>
  rw [writeAsc_two _ _ _ _ _ _ _ _ _ _ (by omega) (by omega), ← evenly_iff, ← evenly_iff]
  have e1 : step1 (x0 :: x1 :: xs) = |x1 - x0| := rfl
  have e2 : step1 (y0 :: y1 :: ys) = |y1 - y0| := rfl
  rw [e1, e2]
  by_cases h1 : evenly (x0 :: x1 :: xs) |x1 - x0| = true <;> by_cases h2 : evenly (y0 :: y1 :: ys) |y1 - y0| = true <;>
    by_cases h3 : style = 1 <;> by_cases h4 : style = 2 <;> by_cases h5 : |x1 - x0| = |y1 - y0| <;> simp_all

/-- `write_zmap_grid` accepts, of the grids with at least two rows and columns, exactly those with axes that look regular;
otherwise it raises a `ValueError` and leaves the file alone. -/
theorem C34_which {env : ZEnv} {cs : Text} (hr : 2 ≤ nr) (hc : 2 ≤ nc) (hx : 2 ≤ x.length) (hy : 2 ≤ y.length) :
    ((writeZmapGrid env file x y z noData cs).1 = .ok () ↔ LooksRegular x ∧ LooksRegular y) ∧
    ((writeZmapGrid env file x y z noData cs).1 ≠ .ok () →
      writeZmapGrid env file x y z noData cs = (.error .valueError, file)) := by
  match x, hx, y, hy with
  | x0 :: x1 :: xs, _, y0 :: y1 :: ys, _ =>
  rw [writeZmap_two, ← evenly_iff, ← evenly_iff]
  have h0 : ¬ (nr = 1 ∨ nc = 1) := by omega
  by_cases h1 : evenly (x0 :: x1 :: xs) |x1 - x0| = true <;> by_cases h2 : evenly (y0 :: y1 :: ys) |y1 - y0| = true <;> simp_all

end

/-- Steps 1, 4, -2: accepted.  Steps 1, 1, 1 + 3/10^5 + 3/10^8: at the limit, still accepted.  Steps 1, 1, 2: refused. -/
example (file : Option Text) (z : Fin 2 → Fin 4 → Option Flt) (nd : Flt) :
    (writeAscGrid file [0, 1, 5, 3] [0, 1] z nd 1).1 = .ok () ∧
    (writeAscGrid file [0, 1, 2, 3 + 3 / 10 ^ 5 + 3 / 10 ^ 8] [0, 1] z nd 1).1 = .ok () ∧
    (writeAscGrid file [0, 1, 2, 4] [0, 1] z nd 1).1 = .error .valueError := by
  refine ⟨(C32_which (by norm_num) (by norm_num) (by simp) (by simp) 1).1.2 ⟨?_, ?_, .inl rfl⟩,
    (C32_which (by norm_num) (by norm_num) (by simp) (by simp) 1).1.2 ⟨?_, ?_, .inl rfl⟩,
    ((C32_which (by norm_num) (by norm_num) (by simp) (by simp) 1).2 fun h => ?_).1⟩
  · exact ⟨_, _, _, rfl, by norm_num⟩
  · exact ⟨_, _, _, rfl, by norm_num⟩
  · exact ⟨_, _, _, rfl, by norm_num⟩
  · exact ⟨_, _, _, rfl, by norm_num⟩
  · obtain ⟨⟨a, b, l, h1, h2⟩, -⟩ := (C32_which (by norm_num) (by norm_num) (by simp) (by simp) 1).1.1 h
    cases h1
    norm_num at h2

example (env : ZEnv) (file : Option Text) (z : Fin 2 → Fin 4 → Option Flt) (nd : Flt) (cs : Text) :
    writeZmapGrid env file [0, 1, 2, 4] [0, 1] z nd cs = (.error .valueError, file) := by
  refine (C34_which (by norm_num) (by norm_num) (by simp) (by simp)).2 fun h => ?_
  obtain ⟨⟨a, b, l, h1, h2⟩, -⟩ := (C34_which (by norm_num) (by norm_num) (by simp) (by simp)).1.1 h
  cases h1
  norm_num at h2

end PyKrige
