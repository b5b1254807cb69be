import Verif.Props.C60
import Verif.Props.C16
import Verif.Examples.Any

/-!
# C73: do the estimates stay within the range of the data?

Not in general: kriging weights may be negative or exceed one, so that an estimate can lie outside the range of the
measured values (`C73_range_wrong`). They do stay within the range of the data used

* with two data (all there are, or a moving window of two) and a linear, spherical or exponential variogram, or a power
  variogram with exponent at most one, nugget or not: the estimate lies between the two values;
* along a profile with the linear variogram without nugget, for any number of data.
-/

set_option linter.unusedSectionVars false

namespace PyKrige
noncomputable section
open Matrix Spec

/-- `e` lies between the smallest and the largest of the values `z i` with `i` in `S`. -/
def Spec.WithinRange {ι : Type} (S : Set ι) (z : ι → ℝ) (e : ℝ) : Prop := (∃ i ∈ S, z i ≤ e) ∧ ∃ i ∈ S, e ≤ z i

/-- A variogram that never decreases and grows at most as fast over a sum of distances as over the distances one by one. -/
structure Spec.Subadditive (γ : ℝ → ℝ) : Prop where
  nonneg : ∀ d, 0 ≤ d → 0 ≤ γ d
  mono : ∀ d e, 0 ≤ d → d ≤ e → γ d ≤ γ e
  sub : ∀ d e, 0 ≤ d → 0 ≤ e → γ (d + e) ≤ γ d + γ e

/-! ### The built-in variograms -/

/-- Linear, spherical, exponential and power (exponent at most one) variograms qualify, for all parameters that make them
nonnegative. -/
theorem C73_linear {slope nugget : ℝ} (hs : 0 ≤ slope) (hn : 0 ≤ nugget) {γ : ℝ → ℝ}
    (h : textbook "linear" [slope, nugget] = some γ) : Subadditive γ := by
  simp [textbook] at h
  subst h
  refine ⟨fun d hd => by positivity, fun d e _ hde => by gcongr, fun d e hd he => ?_⟩
  linarith

theorem C73_power {scale exponent nugget : ℝ} (hs : 0 ≤ scale) (he0 : 0 ≤ exponent) (he1 : exponent ≤ 1) (hn : 0 ≤ nugget)
    {γ : ℝ → ℝ} (h : textbook "power" [scale, exponent, nugget] = some γ) : Subadditive γ := by
  simp [textbook] at h
  subst h
  refine ⟨fun d hd => by positivity, fun d e hd hde => ?_, fun d e hd he => ?_⟩
  · gcongr
  · have := mul_le_mul_of_nonneg_left (Real.rpow_add_le_add_rpow hd he he0 he1) hs
    linarith

theorem C73_exponential {sill range nugget : ℝ} (hs : nugget ≤ sill) (hr : 0 < range) (hn : 0 ≤ nugget)
    {γ : ℝ → ℝ} (h : textbook "exponential" [sill, range, nugget] = some γ) : Subadditive γ := by
  simp [textbook] at h
  subst h
  have hs' : 0 ≤ sill - nugget := by linarith
  have hle : ∀ d : ℝ, 0 ≤ d → Real.exp (-(d / (range / 3))) ≤ 1 := fun d hd => by
    rw [Real.exp_le_one_iff]
    have : 0 ≤ d / (range / 3) := by positivity
    linarith
  refine ⟨fun d hd => ?_, fun d e hd hde => ?_, fun d e hd he => ?_⟩
  · have := mul_nonneg hs' (sub_nonneg.mpr (hle d hd))
    linarith
  · gcongr
  · have h1 := hle d hd
    have h2 := hle e he
    have h3 : Real.exp (-((d + e) / (range / 3))) = Real.exp (-(d / (range / 3))) * Real.exp (-(e / (range / 3))) := by
      rw [← Real.exp_add]
      congr 1
      ring
    rw [h3]
    have h4 := mul_nonneg (sub_nonneg.mpr h1) (sub_nonneg.mpr h2)
    have h5 := mul_nonneg hs' h4
    nlinarith

/-- The spherical variogram with sill and range 1. -/
def sph1 (t : ℝ) : ℝ := if t ≤ 1 then 3 / 2 * t - 1 / 2 * t ^ 3 else 1

theorem sph1_ge {t : ℝ} (h0 : 0 ≤ t) (h1 : t ≤ 1) : t ≤ sph1 t := by
  rw [sph1, if_pos h1]
  nlinarith [mul_nonneg h0 (mul_nonneg (sub_nonneg.mpr h1) (by linarith : 0 ≤ 1 + t))]

theorem sph1_mono {t u : ℝ} (h0 : 0 ≤ t) (h : t ≤ u) : sph1 t ≤ sph1 u := by
  have key : ∀ u : ℝ, t ≤ u → u ≤ 1 → 3 / 2 * t - 1 / 2 * t ^ 3 ≤ 3 / 2 * u - 1 / 2 * u ^ 3 := by
    intro u h h1
    have : 0 ≤ (u - t) * (3 - (u ^ 2 + u * t + t ^ 2)) := by
      apply mul_nonneg (by linarith)
      have hu := h0.trans h
      have a1 : u ^ 2 ≤ 1 := by nlinarith
      have a2 : u * t ≤ 1 := by nlinarith
      have a3 : t ^ 2 ≤ 1 := by nlinarith
      linarith
    linarith
  unfold sph1
  by_cases hu : u ≤ 1
  · rw [if_pos (h.trans hu), if_pos hu]
    exact key u h hu
  · rw [if_neg hu]
    by_cases ht : t ≤ 1
    · rw [if_pos ht]
      have := key 1 ht le_rfl
      linarith
    · rw [if_neg ht]

theorem sph1_nonneg {t : ℝ} (h0 : 0 ≤ t) : 0 ≤ sph1 t := by
  have := sph1_mono le_rfl h0
  simpa [sph1] using this

theorem sph1_sub {t u : ℝ} (ht : 0 ≤ t) (hu : 0 ≤ u) : sph1 (t + u) ≤ sph1 t + sph1 u := by
  by_cases h : t + u ≤ 1
  · rw [sph1, sph1, sph1, if_pos h, if_pos (by linarith), if_pos (by linarith)]
    have : 0 ≤ t * u * (t + u) := by positivity
    nlinarith
  · have e : sph1 (t + u) = 1 := by rw [sph1, if_neg h]
    rw [e]
    by_cases h1 : t ≤ 1
    · by_cases h2 : u ≤ 1
      · have := sph1_ge ht h1
        have := sph1_ge hu h2
        linarith
      · have : sph1 u = 1 := by rw [sph1, if_neg h2]
        have := sph1_nonneg ht
        linarith
    · have : sph1 t = 1 := by rw [sph1, if_neg h1]
      have := sph1_nonneg hu
      linarith

theorem C73_spherical {sill range nugget : ℝ} (hs : nugget ≤ sill) (hr : 0 < range) (hn : 0 ≤ nugget)
    {γ : ℝ → ℝ} (h : textbook "spherical" [sill, range, nugget] = some γ) : Subadditive γ := by
  have hs' : 0 ≤ sill - nugget := by linarith
  have e : ∀ d, γ d = (sill - nugget) * sph1 (d / range) + nugget := by
    simp [textbook] at h
    subst h
    intro d
    unfold sph1
    beta_reduce
    by_cases hd : d ≤ range
    · rw [if_pos hd, if_pos ((div_le_one hr).mpr hd)]
      ring
    · rw [if_neg hd, if_neg (fun h => hd ((div_le_one hr).mp h))]
      ring
  refine ⟨fun d hd => ?_, fun d e' hd hde => ?_, fun d e' hd he => ?_⟩
  · rw [e]
    have := mul_nonneg hs' (sph1_nonneg (div_nonneg hd hr.le))
    linarith
  · rw [e, e]
    have := mul_le_mul_of_nonneg_left (sph1_mono (div_nonneg hd hr.le) (div_le_div_of_nonneg_right hde hr.le)) hs'
    linarith
  · rw [e, e, e, add_div]
    have := mul_le_mul_of_nonneg_left (sph1_sub (div_nonneg hd hr.le) (div_nonneg he hr.le)) hs'
    linarith

/-! ### Two data -/

/-- The equations with two data, points of a metric space. -/
theorem two_weights {α : Type} {dist : α → α → ℝ} (hnn : ∀ p q, 0 ≤ dist p q) (hcomm : ∀ p q, dist p q = dist q p)
    (htri : ∀ p q r, dist p r ≤ dist p q + dist q r) {P : Fin 2 → α} {p : α} {γ : ℝ → ℝ} (hγ : Subadditive γ) {exact : Bool}
    (hc : AtOrAway exact fun i => dist p (P i)) (hreg : OKRegular (semivar γ fun i k => dist (P i) (P k))) {w : Fin 2 → ℝ} {μ : ℝ}
    (he : OKEqs (semivar γ fun i k => dist (P i) (P k)) (semivarTo exact γ fun i => dist p (P i)) w μ) :
    0 ≤ w 0 ∧ 0 ≤ w 1 ∧ w 0 + w 1 = 1 := by
  set G := dist (P 0) (P 1) with hG
  have hG0 : 0 ≤ G := hnn _ _
  have e01 : semivar γ (fun i k => dist (P i) (P k)) 0 1 = γ G := by simp [semivar, hG]
  have e10 : semivar γ (fun i k => dist (P i) (P k)) 1 0 = γ G := by simp [semivar, hG, hcomm (P 1)]
  have e00 : semivar γ (fun i k => dist (P i) (P k)) 0 0 = 0 := by simp [semivar]
  have e11 : semivar γ (fun i k => dist (P i) (P k)) 1 1 = 0 := by simp [semivar]
  set g := semivarTo exact γ (fun i => dist p (P i)) with hg
  have s0 := he.stationary 0
  have s1 := he.stationary 1
  have su := he.unbiased
  simp only [Fin.sum_univ_two, e00, e01, e10, e11, Finset.univ_eq_empty, Finset.sum_empty] at s0 s1 su
  have hpos : 0 < γ G := by
    refine lt_of_le_of_ne (hγ.nonneg G hG0) fun h0 => ?_
    have := (hreg ![1, -1] (fun l => l.elim0) 0 ⟨fun i => by fin_cases i <;> simp [e00, e01, e10, e11, ← h0], fun l => l.elim0, by simp⟩).1
    have := congrFun this 0
    simp at this
  have hd0 : g 0 = γ (dist p (P 0)) ∨ (exact = true ∧ dist p (P 0) = 0 ∧ g 0 = 0) := by
    rw [hg]
    by_cases h : exact = true ∧ dist p (P 0) ≤ 1 / 10 ^ 10
    · right
      exact ⟨h.1, (hc h.1 0).resolve_right (by linarith [h.2]), if_pos h⟩
    · left; exact if_neg h
  have hd1 : g 1 = γ (dist p (P 1)) ∨ (exact = true ∧ dist p (P 1) = 0 ∧ g 1 = 0) := by
    rw [hg]
    by_cases h : exact = true ∧ dist p (P 1) ≤ 1 / 10 ^ 10
    · right
      exact ⟨h.1, (hc h.1 1).resolve_right (by linarith [h.2]), if_pos h⟩
    · left; exact if_neg h
  have t0 : dist p (P 0) ≤ dist p (P 1) + G := by have := htri p (P 1) (P 0); rwa [hcomm (P 1)] at this
  have t1 : dist p (P 1) ≤ dist p (P 0) + G := htri p (P 0) (P 1)
  have n0 := hnn p (P 0)
  have n1 := hnn p (P 1)
  have b0 : g 0 - g 1 ≤ γ G := by
    obtain h0 | ⟨-, -, h0⟩ := hd0
    · obtain h1 | ⟨-, z1, h1⟩ := hd1
      · have := hγ.mono _ _ n0 t0
        have := hγ.sub _ _ n1 hG0
        linarith
      · have := hγ.mono _ G n0 (by rwa [z1, zero_add] at t0)
        linarith
    · obtain h1 | ⟨-, z1, h1⟩ := hd1
      · have := hγ.nonneg _ n1
        linarith
      · linarith
  have b1 : g 1 - g 0 ≤ γ G := by
    obtain h1 | ⟨-, -, h1⟩ := hd1
    · obtain h0 | ⟨-, z0, h0⟩ := hd0
      · have := hγ.mono _ _ n1 t1
        have := hγ.sub _ _ n0 hG0
        linarith
      · have := hγ.mono _ G n1 (by rwa [z0, zero_add] at t1)
        linarith
    · obtain h0 | ⟨-, z0, h0⟩ := hd0
      · have := hγ.nonneg _ n0
        linarith
      · linarith
  have k : γ G * (w 1 - w 0) = g 0 - g 1 := by linarith
  refine ⟨?_, ?_, su⟩
  · by_contra h
    have : γ G * 1 < γ G * (w 1 - w 0) := mul_lt_mul_of_pos_left (by linarith) hpos
    linarith
  · by_contra h
    have : γ G * 1 < γ G * (w 0 - w 1) := mul_lt_mul_of_pos_left (by linarith) hpos
    linarith

theorem two_range {w z : Fin 2 → ℝ} (h0 : 0 ≤ w 0) (h1 : 0 ≤ w 1) (hs : w 0 + w 1 = 1) : WithinRange Set.univ z (estimate w z) := by
  have e : estimate w z = w 0 * z 0 + w 1 * z 1 := by simp [estimate, Fin.sum_univ_two]
  have h3 : w 0 = 1 - w 1 := by linarith
  have k0 : w 0 * z 0 + w 1 * z 1 - z 0 = w 1 * (z 1 - z 0) := by rw [h3]; ring
  have k1 : z 1 - (w 0 * z 0 + w 1 * z 1) = w 0 * (z 1 - z 0) := by
    rw [show w 1 = 1 - w 0 by linarith]; ring
  rw [e]
  by_cases h : z 0 ≤ z 1
  · have a0 := mul_nonneg h0 (sub_nonneg.mpr h)
    have a1 := mul_nonneg h1 (sub_nonneg.mpr h)
    exact ⟨⟨0, trivial, by linarith⟩, ⟨1, trivial, by linarith⟩⟩
  · push Not at h
    have a0 := mul_nonpos_of_nonneg_of_nonpos h0 (sub_nonpos.mpr h.le)
    have a1 := mul_nonpos_of_nonneg_of_nonpos h1 (sub_nonpos.mpr h.le)
    exact ⟨⟨1, trivial, by linarith⟩, ⟨0, trivial, by linarith⟩⟩

/-- Along a profile: linear interpolation stays between the neighbours. -/
theorem Spec.LinearProfile.range {ι : Type} [Fintype ι] {b : ℝ} {t : ι → ℝ} {S : Set ι} (hS : S.Nonempty) {z : ι → ℝ} {τ est var : ℝ}
    (h : LinearProfile b t S z τ est var) : WithinRange S z est := by
  obtain ⟨h1, h2, h3⟩ := h
  by_cases hlo : ∃ i ∈ S, t i ≤ τ
  · by_cases hhi : ∃ i ∈ S, τ < t i
    · obtain ⟨i₀, ⟨hi0, hi0'⟩, hmax⟩ := Set.exists_max_image {i | i ∈ S ∧ t i ≤ τ} t (Set.toFinite _) hlo
      obtain ⟨i₁, ⟨hi1, hi1'⟩, hmin⟩ := Set.exists_min_image {i | i ∈ S ∧ τ < t i} t (Set.toFinite _) hhi
      have hlt : t i₀ < t i₁ := by linarith
      obtain ⟨e, -⟩ := h1 i₀ i₁ ⟨hi0, hi1, hlt, fun i hi => (le_or_gt (t i) τ).imp (fun hle => hmax i ⟨hi, hle⟩) fun hgt => hmin i ⟨hi, hgt⟩⟩
        hi0' hi1'.le
      have hd : 0 < t i₁ - t i₀ := by linarith
      have a1 : 0 ≤ τ - t i₀ := by linarith
      have a2 : 0 ≤ t i₁ - τ := by linarith
      have key : ∀ lo hi : ℝ, lo ≤ z i₀ → lo ≤ z i₁ → z i₀ ≤ hi → z i₁ ≤ hi → lo ≤ est ∧ est ≤ hi := by
        intro lo hi b1 b2 b3 b4
        rw [e]
        constructor
        · rw [le_div_iff₀ hd]
          nlinarith [mul_nonneg a2 (sub_nonneg.mpr b1), mul_nonneg a1 (sub_nonneg.mpr b2)]
        · rw [div_le_iff₀ hd]
          nlinarith [mul_nonneg a2 (sub_nonneg.mpr b3), mul_nonneg a1 (sub_nonneg.mpr b4)]
      by_cases hz : z i₀ ≤ z i₁
      · obtain ⟨k1, k2⟩ := key (z i₀) (z i₁) le_rfl hz hz le_rfl
        exact ⟨⟨i₀, hi0, k1⟩, i₁, hi1, k2⟩
      · have hz' := (not_le.mp hz).le
        obtain ⟨k1, k2⟩ := key (z i₁) (z i₀) hz' le_rfl le_rfl hz'
        exact ⟨⟨i₁, hi1, k1⟩, i₀, hi0, k2⟩
    · push Not at hhi
      obtain ⟨i₁, hi1, hmax⟩ := Set.exists_max_image S t (Set.toFinite _) hS
      obtain ⟨e, -⟩ := h2 i₁ hi1 hmax (hhi i₁ hi1)
      exact ⟨⟨i₁, hi1, e.ge⟩, i₁, hi1, e.le⟩
  · push Not at hlo
    obtain ⟨i₀, hi0, hmin⟩ := Set.exists_min_image S t (Set.toFinite _) hS
    obtain ⟨e, -⟩ := h3 i₀ hi0 hmin (hlo i₀ hi0).le
    exact ⟨⟨i₀, hi0, e.ge⟩, i₀, hi0, e.le⟩

theorem okDistance_triangle (args : OKArgs) (p q r : ℝ × ℝ) : okDistance args p r ≤ okDistance args p q + okDistance args q r := by
  unfold okDistance distance2
  split
  · exact (C16_metric_2d _ _ p q r).2.2.2
  · have := C30_triangle p.1 p.2 q.1 q.2 r.1 r.2
    rwa [C30_angle, C30_angle, C30_angle] at this

/-! ### What `execute` returns -/

/-- `OrdinaryKriging` with two data. -/
theorem C73_two_2d {env : Env} {x y z : Fin 2 → ℝ} {args : OKArgs} {s : OK 2}
    (h : OK.create env x y z args = .ok s) {ea : ExecArgs} (ha : Admissible env args s ea.nClosest)
    (hw : ea.nClosest = none) (hp : args.pseudoInv = false) {γ : ℝ → ℝ} (hγ : s.variogramFunction s.params = .ok γ) (hs : Subadditive γ)
    {exact : Bool} (hex : args.exactValues = .bool exact) {r : ExecResult} (hr : s.execute env ea = .ok r)
    {j : ℕ} {p : ℝ × ℝ} (hq : queryAt ea j = some p) (hm : maskedAt ea j = false)
    (hc : AtOrAway exact fun i => okDistance args p (x i, y i)) :
    ∃ est, r.z[j]? = some (some est) ∧ WithinRange Set.univ z est := by
  obtain ⟨hreg, ⟨w, μ, he⟩, hu⟩ := C47_unique_2d h ha hw hp hγ hex hr hq hm
  obtain ⟨h0, h1, hs1⟩ := two_weights (dist := okDistance args) (P := fun i => (x i, y i)) (okDistance_nonneg args) (distance2_comm _ _ _) (okDistance_triangle args) hs hc hreg he
  exact ⟨_, (hu w μ he).1, two_range h0 h1 hs1⟩

/-- `OrdinaryKriging` with a moving window of two: the estimate is between the values at the two nearest data. -/
theorem C73_two_window_2d {n : ℕ} {env : Env} {x y z : Fin n → ℝ} {args : OKArgs} {s : OK n}
    (h : OK.create env x y z args = .ok s) {ea : ExecArgs} (ha : Admissible env args s ea.nClosest)
    (hw : ea.nClosest = some 2) {γ : ℝ → ℝ} (hγ : s.variogramFunction s.params = .ok γ) (hs : Subadditive γ)
    {exact : Bool} (hex : args.exactValues = .bool exact) {r : ExecResult} (hr : s.execute env ea = .ok r)
    {j : ℕ} {p : ℝ × ℝ} (hq : queryAt ea j = some p) (hm : maskedAt ea j = false)
    (hc : AtOrAway exact fun i => okDistance args p (x i, y i)) :
    ∃ S : Set (Fin n), S.ncard = 2 ∧ (∀ i ∈ S, ∀ l, l ∉ S → okDistance args p (x i, y i) ≤ okDistance args p (x l, y l)) ∧
      ∃ est, r.z[j]? = some (some est) ∧ WithinRange S z est := by
  obtain ⟨sel, hinj, hnear, hreg, ⟨w, μ, he⟩, hu⟩ := C47_unique_window_2d h ha (k := 2) hw hγ hex hr hq hm
  obtain ⟨h0, h1, hs1⟩ := two_weights (dist := okDistance args) (P := fun i => (x (sel i), y (sel i))) (okDistance_nonneg args) (distance2_comm _ _ _) (okDistance_triangle args) hs
    (fun e i => hc e (sel i)) hreg he
  refine ⟨Set.range sel, ?_, ?_, _, (hu w μ he).1, ?_⟩
  · rw [← Set.image_univ, Set.ncard_image_of_injective _ hinj, Set.ncard_univ, Nat.card_eq_fintype_card, Fintype.card_fin]
  · rintro _ ⟨i, rfl⟩ l hl
    exact hnear i l hl
  · obtain ⟨⟨i, -, hi⟩, k, -, hk⟩ := two_range (z := fun i => z (sel i)) h0 h1 hs1
    exact ⟨⟨sel i, ⟨i, rfl⟩, hi⟩, sel k, ⟨k, rfl⟩, hk⟩

/-- `OrdinaryKriging`, linear variogram without nugget, data and query along a profile: any number of data. -/
theorem C73_profile_2d {n : ℕ} {env : Env} {x y z : Fin n → ℝ} {args : OKArgs} {s : OK n}
    (h : OK.create env x y z args = .ok s) {ea : ExecArgs} (ha : Admissible env args s ea.nClosest)
    (hw : ea.nClosest = none) (hp : args.pseudoInv = false) {b : ℝ} {γ : ℝ → ℝ} (hγ : s.variogramFunction s.params = .ok γ) (hb : ∀ d, 0 ≤ d → γ d = b * d)
    {exact : Bool} (hex : args.exactValues = .bool exact) {r : ExecResult} (hr : s.execute env ea = .ok r)
    {j : ℕ} {p : ℝ × ℝ} (hq : queryAt ea j = some p) (hm : maskedAt ea j = false)
    {t : Fin n → ℝ} {τ : ℝ} (hl : Profile (okDistance args) (fun i => (x i, y i)) t p τ)
    (hc : AtOrAway exact fun i => okDistance args p (x i, y i)) :
    ∃ est, r.z[j]? = some (some est) ∧ WithinRange Set.univ z est := by
  obtain ⟨-, ⟨w, μ, he⟩, -⟩ := C47_unique_2d h ha hw hp hγ hex hr hq hm
  obtain ⟨est, var, h1, -, h3⟩ := C60_profile_2d h ha hw hp hγ hb hex hr hq hm hl hc
  refine ⟨est, h1, h3.range ?_⟩
  by_contra hempty
  rw [Set.not_nonempty_iff_eq_empty, Set.univ_eq_empty_iff] at hempty
  have := he.unbiased
  simp at this

/-- The same with a moving window. -/
theorem C73_profile_window_2d {n : ℕ} {env : Env} {x y z : Fin n → ℝ} {args : OKArgs} {s : OK n}
    (h : OK.create env x y z args = .ok s) {ea : ExecArgs} (ha : Admissible env args s ea.nClosest)
    {k : ℕ} (hw : ea.nClosest = some (k : ℤ)) (hk : 0 < k) {b : ℝ} {γ : ℝ → ℝ} (hγ : s.variogramFunction s.params = .ok γ) (hb : ∀ d, 0 ≤ d → γ d = b * d)
    {exact : Bool} (hex : args.exactValues = .bool exact) {r : ExecResult} (hr : s.execute env ea = .ok r)
    {j : ℕ} {p : ℝ × ℝ} (hq : queryAt ea j = some p) (hm : maskedAt ea j = false)
    {t : Fin n → ℝ} {τ : ℝ} (hl : Profile (okDistance args) (fun i => (x i, y i)) t p τ)
    (hc : AtOrAway exact fun i => okDistance args p (x i, y i)) :
    ∃ S : Set (Fin n), S.ncard = k ∧ (∀ i ∈ S, ∀ l, l ∉ S → okDistance args p (x i, y i) ≤ okDistance args p (x l, y l)) ∧
      ∃ est, r.z[j]? = some (some est) ∧ WithinRange S z est := by
  obtain ⟨sel, est, var, hinj, hnear, h1, -, h3⟩ := C60_window_2d h ha hw hγ hb hex hr hq hm hl hc
  refine ⟨Set.range sel, ?_, ?_, est, h1, h3.range (S := Set.range sel) ⟨sel ⟨0, hk⟩, ⟨0, hk⟩, rfl⟩⟩
  · rw [← Set.image_univ, Set.ncard_image_of_injective _ hinj, Set.ncard_univ, Nat.card_eq_fintype_card, Fintype.card_fin]
  · rintro _ ⟨i, rfl⟩ l hl
    exact hnear i l hl

/-- `OrdinaryKriging3D` with two data. -/
theorem C73_two_3d {env : Env} {x y z v : Fin 2 → ℝ} {args : OK3DArgs} {s : OK3D 2}
    (h : OK3D.create env x y z v args = .ok s) {ea : ExecArgs3} (hknn : KnnSpec env) (hwf : WindowFits 2 ea.nClosest)
    (hw : ea.nClosest = none) (hp : args.pseudoInv = false) {γ : ℝ → ℝ} (hγ : s.variogramFunction s.params = .ok γ) (hs : Subadditive γ)
    {exact : Bool} (hex : args.exactValues = .bool exact) {r : ExecResult} (hr : s.execute env ea = .ok r)
    {j : ℕ} {p : ℝ × ℝ × ℝ} (hq : queryAt3 ea j = some p) (hm : maskedAt3 ea j = false)
    (hc : AtOrAway exact fun i => ok3Distance args p (x i, y i, z i)) :
    ∃ est, r.z[j]? = some (some est) ∧ WithinRange Set.univ v est := by
  obtain ⟨hreg, ⟨w, μ, he⟩, hu⟩ := C47_unique_3d h hknn hwf hw hp hγ hex hr hq hm
  obtain ⟨h0, h1, hs1⟩ := two_weights (dist := ok3Distance args) (P := fun i => (x i, y i, z i)) (ok3Distance_nonneg args) (fun p q => (C16_metric_3d _ p q p).2.2.1) (fun p q r => (C16_metric_3d _ p q r).2.2.2) hs hc hreg he
  exact ⟨_, (hu w μ he).1, two_range h0 h1 hs1⟩

/-- `OrdinaryKriging3D` with a moving window of two: the estimate is between the values at the two nearest data. -/
theorem C73_two_window_3d {n : ℕ} {env : Env} {x y z v : Fin n → ℝ} {args : OK3DArgs} {s : OK3D n}
    (h : OK3D.create env x y z v args = .ok s) {ea : ExecArgs3} (hknn : KnnSpec env) (hwf : WindowFits n ea.nClosest)
    (hw : ea.nClosest = some 2) {γ : ℝ → ℝ} (hγ : s.variogramFunction s.params = .ok γ) (hs : Subadditive γ)
    {exact : Bool} (hex : args.exactValues = .bool exact) {r : ExecResult} (hr : s.execute env ea = .ok r)
    {j : ℕ} {p : ℝ × ℝ × ℝ} (hq : queryAt3 ea j = some p) (hm : maskedAt3 ea j = false)
    (hc : AtOrAway exact fun i => ok3Distance args p (x i, y i, z i)) :
    ∃ S : Set (Fin n), S.ncard = 2 ∧ (∀ i ∈ S, ∀ l, l ∉ S → ok3Distance args p (x i, y i, z i) ≤ ok3Distance args p (x l, y l, z l)) ∧
      ∃ est, r.z[j]? = some (some est) ∧ WithinRange S v est := by
  obtain ⟨sel, hinj, hnear, hreg, ⟨w, μ, he⟩, hu⟩ := C47_unique_window_3d h hknn hwf (k := 2) hw hγ hex hr hq hm
  obtain ⟨h0, h1, hs1⟩ := two_weights (dist := ok3Distance args) (P := fun i => (x (sel i), y (sel i), z (sel i))) (ok3Distance_nonneg args) (fun p q => (C16_metric_3d _ p q p).2.2.1) (fun p q r => (C16_metric_3d _ p q r).2.2.2) hs
    (fun e i => hc e (sel i)) hreg he
  refine ⟨Set.range sel, ?_, ?_, _, (hu w μ he).1, ?_⟩
  · rw [← Set.image_univ, Set.ncard_image_of_injective _ hinj, Set.ncard_univ, Nat.card_eq_fintype_card, Fintype.card_fin]
  · rintro _ ⟨i, rfl⟩ l hl
    exact hnear i l hl
  · obtain ⟨⟨i, -, hi⟩, k, -, hk⟩ := two_range (z := fun i => v (sel i)) h0 h1 hs1
    exact ⟨⟨sel i, ⟨i, rfl⟩, hi⟩, sel k, ⟨k, rfl⟩, hk⟩

/-- `OrdinaryKriging3D`, linear variogram without nugget, data and query along a profile: any number of data. -/
theorem C73_profile_3d {n : ℕ} {env : Env} {x y z v : Fin n → ℝ} {args : OK3DArgs} {s : OK3D n}
    (h : OK3D.create env x y z v args = .ok s) {ea : ExecArgs3} (hknn : KnnSpec env) (hwf : WindowFits n ea.nClosest)
    (hw : ea.nClosest = none) (hp : args.pseudoInv = false) {b : ℝ} {γ : ℝ → ℝ} (hγ : s.variogramFunction s.params = .ok γ) (hb : ∀ d, 0 ≤ d → γ d = b * d)
    {exact : Bool} (hex : args.exactValues = .bool exact) {r : ExecResult} (hr : s.execute env ea = .ok r)
    {j : ℕ} {p : ℝ × ℝ × ℝ} (hq : queryAt3 ea j = some p) (hm : maskedAt3 ea j = false)
    {t : Fin n → ℝ} {τ : ℝ} (hl : Profile (ok3Distance args) (fun i => (x i, y i, z i)) t p τ)
    (hc : AtOrAway exact fun i => ok3Distance args p (x i, y i, z i)) :
    ∃ est, r.z[j]? = some (some est) ∧ WithinRange Set.univ v est := by
  obtain ⟨-, ⟨w, μ, he⟩, -⟩ := C47_unique_3d h hknn hwf hw hp hγ hex hr hq hm
  obtain ⟨est, var, h1, -, h3⟩ := C60_profile_3d h hknn hwf hw hp hγ hb hex hr hq hm hl hc
  refine ⟨est, h1, h3.range ?_⟩
  by_contra hempty
  rw [Set.not_nonempty_iff_eq_empty, Set.univ_eq_empty_iff] at hempty
  have := he.unbiased
  simp at this

/-- The same with a moving window. -/
theorem C73_profile_window_3d {n : ℕ} {env : Env} {x y z v : Fin n → ℝ} {args : OK3DArgs} {s : OK3D n}
    (h : OK3D.create env x y z v args = .ok s) {ea : ExecArgs3} (hknn : KnnSpec env) (hwf : WindowFits n ea.nClosest)
    {k : ℕ} (hw : ea.nClosest = some (k : ℤ)) (hk : 0 < k) {b : ℝ} {γ : ℝ → ℝ} (hγ : s.variogramFunction s.params = .ok γ) (hb : ∀ d, 0 ≤ d → γ d = b * d)
    {exact : Bool} (hex : args.exactValues = .bool exact) {r : ExecResult} (hr : s.execute env ea = .ok r)
    {j : ℕ} {p : ℝ × ℝ × ℝ} (hq : queryAt3 ea j = some p) (hm : maskedAt3 ea j = false)
    {t : Fin n → ℝ} {τ : ℝ} (hl : Profile (ok3Distance args) (fun i => (x i, y i, z i)) t p τ)
    (hc : AtOrAway exact fun i => ok3Distance args p (x i, y i, z i)) :
    ∃ S : Set (Fin n), S.ncard = k ∧ (∀ i ∈ S, ∀ l, l ∉ S → ok3Distance args p (x i, y i, z i) ≤ ok3Distance args p (x l, y l, z l)) ∧
      ∃ est, r.z[j]? = some (some est) ∧ WithinRange S v est := by
  obtain ⟨sel, est, var, hinj, hnear, h1, -, h3⟩ := C60_window_3d h hknn hwf hw hγ hb hex hr hq hm hl hc
  refine ⟨Set.range sel, ?_, ?_, est, h1, h3.range (S := Set.range sel) ⟨sel ⟨0, hk⟩, ⟨0, hk⟩, rfl⟩⟩
  · rw [← Set.image_univ, Set.ncard_image_of_injective _ hinj, Set.ncard_univ, Nat.card_eq_fintype_card, Fintype.card_fin]
  · rintro _ ⟨i, rfl⟩ l hl
    exact hnear i l hl

/-- Two data, spherical variogram: sill 3, range 2, nugget 1. -/
example (z : Fin 2 → ℝ) (p : ℝ × ℝ) (hfar : ∀ i, 1 / 10 ^ 10 < okDistance (Demo.any "spherical" [3, 2, 1]) p (Demo.X i, Demo.O i)) :
    ∃ s r est, OK.create stdEnv Demo.X Demo.O z (Demo.any "spherical" [3, 2, 1]) = .ok s ∧
      s.execute stdEnv (Demo.pts [p] "vectorized") = .ok r ∧ r.z[0]? = some (some est) ∧ WithinRange Set.univ z est := by
  obtain ⟨s, h, hp, ha, hr⟩ := Demo.any_ok (n := 2) le_rfl z Demo.sph_valid Demo.sph_grows
    (x := Demo.X) (y := Demo.O) (by intro i k h; fin_cases i <;> fin_cases k <;> simp [Demo.X] at h ⊢)
  obtain ⟨r, hr⟩ := hr (Demo.pts [p] "vectorized") (Demo.pts_wellPosed _ _).1 (by intro k hk; cases hk) (by intro k hk; cases hk)
    (Demo.pts_wellPosed _ _).2 (.inr (.inl ⟨rfl, rfl⟩))
  obtain ⟨γ, hγ⟩ : ∃ γ, textbook "spherical" [3, 2, 1] = some γ := ⟨_, by simp [textbook]; rfl⟩
  obtain ⟨est, h1, h2⟩ := C73_two_2d h (ea := Demo.pts [p] "vectorized") (ha _ (by intro k hk; cases hk)) rfl rfl
    (C47_variogram_2d h (m := "spherical") rfl rfl hγ) (C73_spherical (by norm_num) (by norm_num) (by norm_num) hγ) rfl hr
    (j := 0) (p := p) (by simp [queryAt, Demo.pts]) rfl (fun _ i => .inr (hfar i))
  exact ⟨s, r, est, h, hr, h1, h2⟩

/-- Four data, moving window of two. -/
example (z : Fin 4 → ℝ) (p : ℝ × ℝ) (hfar : ∀ i, 1 / 10 ^ 10 < okDistance (Demo.any "spherical" [3, 2, 1]) p (Demo.x4 i, Demo.y4 i)) :
    ∃ s r est, OK.create stdEnv Demo.x4 Demo.y4 z (Demo.any "spherical" [3, 2, 1]) = .ok s ∧
      s.execute stdEnv { Demo.pts [p] "loop" with nClosest := some 2 } = .ok r ∧ r.z[0]? = some (some est) ∧ WithinRange Set.univ z est := by
  obtain ⟨s, h, hp, ha, hr⟩ := Demo.any_ok (n := 4) (by norm_num) z Demo.sph_valid Demo.sph_grows Demo.inj4
  have hwin : WindowFits 4 (some (2 : ℤ)) := by intro k hk; cases hk; norm_num
  obtain ⟨r, hr⟩ := hr { Demo.pts [p] "loop" with nClosest := some 2 } (Demo.pts_wellPosed _ "loop").1 (by intro k hk; cases hk; norm_num) hwin
    (Demo.pts_wellPosed _ "loop").2 (.inl rfl)
  obtain ⟨γ, hγ⟩ : ∃ γ, textbook "spherical" [3, 2, 1] = some γ := ⟨_, by simp [textbook]; rfl⟩
  obtain ⟨S, -, -, est, h1, ⟨i, -, hi⟩, k, -, hk⟩ := C73_two_window_2d h (ha _ hwin) rfl
    (C47_variogram_2d h (m := "spherical") rfl rfl hγ) (C73_spherical (by norm_num) (by norm_num) (by norm_num) hγ) rfl hr
    (j := 0) (p := p) (by simp [queryAt, Demo.pts]) rfl (fun _ i => .inr (hfar i))
  exact ⟨s, r, est, h, hr, h1, ⟨i, trivial, hi⟩, k, trivial, hk⟩

/-- The same in space. -/
example (v : Fin 4 → ℝ) (p : ℝ × ℝ × ℝ)
    (hfar : ∀ i, 1 / 10 ^ 10 < ok3Distance (Demo.any3 "spherical" [3, 2, 1]) p (Demo.x4 i, Demo.y4 i, Demo.z4 i)) :
    ∃ s r est, OK3D.create stdEnv Demo.x4 Demo.y4 Demo.z4 v (Demo.any3 "spherical" [3, 2, 1]) = .ok s ∧
      s.execute stdEnv { Demo.pts3 [p] "loop" with nClosest := some 2 } = .ok r ∧ r.z[0]? = some (some est) ∧ WithinRange Set.univ v est := by
  obtain ⟨s, h, hp, hr⟩ := Demo.any3_ok (n := 4) (by norm_num) v Demo.sph_valid Demo.sph_grows Demo.inj4'
  have hwin : WindowFits 4 (some (2 : ℤ)) := by intro k hk; cases hk; norm_num
  obtain ⟨r, hr⟩ := hr { Demo.pts3 [p] "loop" with nClosest := some 2 } (Demo.pts_wellPosed3 _ "loop").1 (by intro k hk; cases hk; norm_num) hwin
    (Demo.pts_wellPosed3 _ "loop").2 (.inl rfl)
  obtain ⟨γ, hγ⟩ : ∃ γ, textbook "spherical" [3, 2, 1] = some γ := ⟨_, by simp [textbook]; rfl⟩
  obtain ⟨S, -, -, est, h1, ⟨i, -, hi⟩, k, -, hk⟩ := C73_two_window_3d h stdEnv_knn hwin rfl
    (C47_variogram_3d h (m := "spherical") rfl rfl hγ) (C73_spherical (by norm_num) (by norm_num) (by norm_num) hγ) rfl hr
    (j := 0) (p := p) (by simp [queryAt3, Demo.pts3]) rfl (fun _ i => .inr (hfar i))
  exact ⟨s, r, est, h, hr, h1, ⟨i, trivial, hi⟩, k, trivial, hk⟩

/-- Two data on a line. -/
example (z : Fin 2 → ℝ) (τ : ℝ) (h0 : 1 / 10 ^ 10 < |τ|) (h1 : 1 / 10 ^ 10 < |τ - 1|) :
    ∃ s r est, OK.create stdEnv Demo.X Demo.O z (Demo.args 0 true false) = .ok s ∧
      s.execute stdEnv (Demo.pts [(τ, 0)] "C") = .ok r ∧ r.z[0]? = some (some est) ∧ WithinRange Set.univ z est := by
  obtain ⟨s, h, -⟩ := Demo.ok z 0 true false
  obtain ⟨ha, r, hr⟩ := Demo.ok_run le_rfl h [(τ, 0)] (b := "C") (.inr (.inr rfl))
  have hl := C60_line_2d (args := Demo.args 0 true false) rfl (x := Demo.X) (y := Demo.O) (t := Demo.X) (a := 0) (u := (1, 0))
    (p := (τ, 0)) (τ := τ) (by intro i; fin_cases i <;> simp [Demo.X, Demo.O]) (by simp)
  have hdist : ∀ τ u : ℝ, okDistance (Demo.args 0 true false) (τ, 0) (u, 0) = |τ - u| := by
    intro τ u
    simp [okDistance, distance2, anisoDist2, Demo.args, effScaling, effAngle, rad, Real.sqrt_sq_eq_abs]
  obtain ⟨est, h2, h3⟩ := C73_profile_2d h ha rfl rfl (C47_variogram_2d h rfl rfl (γ := fun d => 1 * d + 0) (by simp [textbook]))
    (fun d _ => add_zero _) rfl hr (j := 0) (p := (τ, 0)) (by simp [queryAt, Demo.pts]) rfl hl (by
      intro _ i
      right
      fin_cases i
      · simpa [Demo.X, Demo.O, hdist] using h0
      · simpa [Demo.X, Demo.O, hdist] using h1)
  exact ⟨s, r, est, h, hr, h2, h3⟩

/-! ### Not in general -/

namespace Demo

theorem pow_valid : ValidModel "power" (listMeaning "power" [1, 3 / 2, 0]) :=
  .inr (.inl ⟨1, 3 / 2, 0, rfl, by simp [listMeaning], by norm_num, by norm_num, by norm_num, by norm_num⟩)

theorem pow_grows : Growing (listMeaning "power" [1, 3 / 2, 0]) := ⟨1, [3 / 2, 0], by simp [listMeaning], by norm_num⟩

theorem inj_X : Function.Injective fun i => (X i, O i) := by
  intro i k h
  fin_cases i <;> fin_cases k <;> simp [X] at h ⊢

end Demo

/-- Two measurements, 0 at the origin and 1 at `(1, 0)`, power variogram with exponent 3/2: the estimate at `(2, 0)` is
the square root of 2. -/
theorem C73_range_wrong : ∃ s r, OK.create stdEnv Demo.X Demo.O ![0, 1] (Demo.any "power" [1, 3 / 2, 0]) = .ok s ∧
    s.execute stdEnv (Demo.pts [(2, 0)] "vectorized") = .ok r ∧ r.z[0]? = some (some √2) ∧
    ¬ WithinRange Set.univ ![(0 : ℝ), 1] √2 := by
  obtain ⟨s, h, hp, ha, hr⟩ := Demo.any_ok (n := 2) le_rfl ![0, 1] Demo.pow_valid Demo.pow_grows Demo.inj_X
  obtain ⟨r, hr⟩ := hr (Demo.pts [(2, 0)] "vectorized") (Demo.pts_wellPosed _ _).1 (by intro k hk; cases hk) (by intro k hk; cases hk)
    (Demo.pts_wellPosed _ _).2 (.inr (.inl ⟨rfl, rfl⟩))
  have hγ := C47_variogram_2d h (m := "power") rfl rfl (γ := fun d => 1 * d ^ (3 / 2 : ℝ) + 0) (by simp [textbook])
  obtain ⟨-, -, hu⟩ := C47_unique_2d h (ea := Demo.pts [(2, 0)] "vectorized") (ha _ (by intro k hk; cases hk)) rfl rfl hγ rfl hr (j := 0)
     (p := (2, 0)) (by simp [queryAt, Demo.pts]) (by simp [maskedAt, Demo.pts])
  have hd : ∀ a b : ℝ, okDistance (Demo.any "power" [1, 3 / 2, 0]) (a, 0) (b, 0) = |a - b| := by
    intro a b
    simp [okDistance, distance2, anisoDist2, Demo.any, effScaling, effAngle, rad, Real.sqrt_sq_eq_abs]
  have h2 : (2 : ℝ) ^ (3 / 2 : ℝ) = 2 * √2 := by
    rw [show (3 / 2 : ℝ) = 1 + 1 / 2 by norm_num, Real.rpow_add two_pos, Real.rpow_one, Real.sqrt_eq_rpow]
  have hw := (hu ![1 - √2, √2] (-√2) ⟨?_, fun l => l.elim0, by simp⟩).1
  · refine ⟨s, r, h, hr, ?_, ?_⟩
    · simpa [estimate, Fin.sum_univ_two] using hw
    · rintro ⟨-, i, -, hi⟩
      have : (1 : ℝ) < √2 := by rw [Real.lt_sqrt] <;> norm_num
      fin_cases i
      · simp at hi
        linarith [Real.sqrt_nonneg 2]
      · simp at hi
  · intro i
    fin_cases i
    · simp [Fin.sum_univ_two, semivar, semivarTo, Demo.X, Demo.O, hd, h2]
      norm_num
      ring
    · simp [Fin.sum_univ_two, semivar, semivarTo, Demo.X, Demo.O, hd]
      norm_num

end
end PyKrige
