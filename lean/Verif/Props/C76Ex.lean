import Verif.Props.C76Values
import Verif.Props.C39Accept

/-!
# C76: examples

Three data on a line at 0, 1, 2 with the values 0, 1, 1 and two lags: the experimental variogram is (1, 1/4), (2, 1/2), the best
line has slope 1/4 and nugget 0.
-/

namespace PyKrige
noncomputable section
open Spec

namespace Demo

def lineV : Fin 3 → ℝ := ![0, 1, 1]

theorem ev_line {m : ℕ} {X : Fin 3 → Fin m → ℝ} (hX : ∀ i j : Fin 3, i < j → euclid (X i) (X j) = (j : ℝ) - i) :
    experimentalVariogram X lineV 2 "euclidean" = .ok [(1, 1 / 4), (2, 1 / 2)] := by
  have h01 := hX 0 1 (by decide)
  have h02 := hX 0 2 (by decide)
  have h12 := hX 1 2 (by decide)
  norm_num at h01 h02 h12
  have hpp : pdistPairs 3 = [(0, 1), (0, 2), (1, 2)] := by decide
  have hdg : pairDistances X lineV "euclidean" = .ok [(1, 1 / 2), (2, 1 / 2), (1, 0)] := by
    unfold pairDistances
    rw [if_pos rfl, hpp]
    simp only [List.map_cons, List.map_nil, h01, h02, h12]
    simp [lineV]
  have hed : binEdges 1 2 2 = [1, 3 / 2, 2001 / 1000] := by
    unfold binEdges
    norm_num [List.range_succ]
  unfold experimentalVariogram
  rw [hdg]
  simp only [py_ok_bind, py_pure, List.map_cons, List.map_nil, amax, amin, List.foldl_cons, List.foldl_nil]
  norm_num
  rw [hed]
  have b1 : inBin [(1, 1 / 2), (2, 1 / 2), (1, 0)] 1 (3 / 2) = [((1 : ℝ), 1 / 2), (1, (0 : ℝ))] := by
    unfold inBin; norm_num [List.filter_cons]
  have b2 : inBin [(1, 1 / 2), (2, 1 / 2), (1, 0)] (3 / 2) (2001 / 1000) = [((2 : ℝ), (1 / 2 : ℝ))] := by
    unfold inBin; norm_num [List.filter_cons]
  unfold binned
  simp only [List.tail_cons, List.zip_cons_cons, List.zip_nil_right, List.filterMap_cons, List.filterMap_nil, b1, b2]
  unfold mean
  norm_num

/-- The fit, with distances in any unit. -/
theorem fit_line {c : ℝ} (hc : 0 < c) {m : ℕ} {X : Fin 3 → Fin m → ℝ} (hX : ∀ i j : Fin 3, euclid (X i) (X j) = c * |(j : ℝ) - i|) :
    initializeVariogramModel bestEnv X lineV "linear" none linearVariogramModel 2 false "euclidean" =
      .ok ([(c * 1, 1 / 4), (c * 2, 1 / 2)], [1 / (4 * c), 0]) := by
  let X₀ : Fin 3 → Fin 1 → ℝ := fun i _ => i
  have h0 : ∀ i j : Fin 3, euclid (X₀ i) (X₀ j) = |(j : ℝ) - i| := by
    intro i j
    simp [euclid, X₀, Real.sqrt_sq_eq_abs, abs_sub_comm]
  have e0 := ev_line (X := X₀) fun i j hij => by
    rw [h0, abs_of_pos]
    have : (i : ℝ) < j := by exact_mod_cast hij
    linarith
  have e1 := experimentalVariogram_times hc (X' := X) (fun i j => by rw [hX, h0]) e0
  simp only [List.map_cons, List.map_nil] at e1
  have hp : FitPossible (fun i j => pairDistance "euclidean" (X i) (X j)) lineV "linear" false 2 := by
    have hd : ∀ i j : Fin 3, pairDistance "euclidean" (X i) (X j) = c * |(j : ℝ) - i| := hX
    refine ⟨⟨0, 1, by decide, by simp [lineV]⟩, ⟨0, 1, by decide, ?_⟩, fun _ => ⟨by norm_num, 0, 1, 0, 2, by decide, by decide, ?_⟩⟩
    · dsimp only; rw [hd]; norm_num [hc.ne']
    · dsimp only; rw [hd, hd]; norm_num [hc.ne']
  obtain ⟨ev, ps, S, L, e, -⟩ := (C19_fit bestEnv X lineV linearVariogramModel false (by norm_num) (by decide) (.inl rfl)).1 hp
  cases (init_auto e).2.1.symm.trans e1
  have := line_unique (slope := 1 / (4 * c)) (nugget := 0) bestEnv_optimal rfl e (by positivity) le_rfl (by
    intro p hp
    simp only [List.mem_cons, List.not_mem_nil, or_false] at hp
    rcases hp with rfl | rfl <;> dsimp only <;> field_simp <;> norm_num)
  rw [e, this]

theorem best_line : ∃! q, BestFit "linear" false [(1, 1 / 4), (2, 1 / 2)] q := by
  obtain ⟨-, S, -, -, -, hS, -⟩ := extremes (l := ([(1, 1 / 4), (2, 1 / 2)] : List (ℝ × ℝ)).map Prod.snd) (by simp)
  obtain ⟨-, L, -, -, -, hL, -⟩ := extremes (l := ([(1, 1 / 4), (2, 1 / 2)] : List (ℝ × ℝ)).map Prod.fst) (by simp)
  have hw : WithinBounds "linear" S L [1 / 4, 0] := by
    unfold WithinBounds
    rw [if_pos rfl]
    exact ⟨1 / 4, 0, rfl, by norm_num, le_rfl, le_trans (by norm_num) (hS.2 (show (1 / 4 : ℝ) ∈ _ by simp))⟩
  have he : ∀ e ∈ ([(1, 1 / 4), (2, 1 / 2)] : List (ℝ × ℝ)), linearFormula (1 / 4) 0 e.1 = e.2 := by
    intro e he
    simp only [List.mem_cons, List.not_mem_nil, or_false] at he
    rcases he with rfl | rfl <;> norm_num [linearFormula]
  obtain ⟨k1, k2⟩ := best_exact (weight := false) hS hL hw (builtin_linear.2 rfl) he
  refine ⟨_, k1, fun q hq => ?_⟩
  obtain ⟨γ, hγ, hex⟩ := k2 q hq
  obtain ⟨S', L', -, -, hw', -⟩ := hq
  unfold WithinBounds at hw'
  rw [if_pos rfl] at hw'
  obtain ⟨a, b, rfl, -⟩ := hw'
  rw [builtin_linear] at hγ
  subst hγ
  have e1 : a * 1 + b = 1 / 4 := hex (1, 1 / 4) (by simp)
  have e2 : a * 2 + b = 1 / 2 := hex (2, 1 / 2) (by simp)
  rw [show a = 1 / 4 by linarith, show b = 0 by linarith]

/-- The fit succeeds and the statistics can be computed. -/
theorem determined_line {c : ℝ} (hc : 0 < c) {m : ℕ} {D : Fin 3 → Fin 3 → ℝ} (hD : ∀ i j : Fin 3, D i j = c * |(j : ℝ) - i|) (stats pseudo : Bool) :
    Determined bestEnv m "euclidean" D lineV "linear" none linearVariogramModel 2 false stats pseudo := by
  intro X hX
  have e : ∀ i j : Fin 3, euclid (X i) (X j) = c * |(j : ℝ) - i| := fun i j => (hX i j).trans (hD i j)
  refine ⟨_, _, fit_line hc e, fun _ => findStatistics_strict (γ := linearFormula (1 / (4 * c)) 0) (.inl rfl) rfl ?_ lineV⟩
  obtain ⟨e', he'⟩ := anisoDist2_embed 1 0
  have hd : ∀ i j : Fin 3, anisoDist2 1 0 (c * (i : ℝ), 0) (c * (j : ℝ), 0) = c * |(j : ℝ) - i| := by
    intro i j
    have : anisoDist2 1 0 (c * (i : ℝ), 0) (c * (j : ℝ), 0) = √((c * ((j : ℝ) - i)) ^ 2) := by
      unfold anisoDist2 rad
      simp only [zero_mul, zero_div, Real.cos_zero, Real.sin_zero]
      ring_nf
    rw [this, Real.sqrt_sq_eq_abs, abs_mul, abs_of_pos hc]
  obtain ⟨γ, hγ, hst⟩ := strict_of_valid (m := "linear") (ps := [1 / (4 * c), 0]) (.inl ⟨1 / (4 * c), 0, rfl, rfl, by positivity, le_rfl⟩) he'
    (fun i : Fin 3 => (c * (i : ℝ), 0)) (.inl ⟨⟨_, _, rfl, by positivity⟩, fun i j hij => by
      dsimp only
      rw [hd]
      refine mul_ne_zero hc.ne' (abs_ne_zero.2 (sub_ne_zero.2 fun h => hij ?_))
      exact Fin.ext (by exact_mod_cast h.symm)⟩)
  rw [builtin_linear] at hγ
  subst hγ
  have : (fun i j : Fin 3 => pairDistance "euclidean" (X i) (X j)) = fun i j : Fin 3 => anisoDist2 1 0 (c * (i : ℝ), 0) (c * (j : ℝ), 0) := by
    funext i j
    rw [hX, hD, hd]
  rw [this]
  exact hst


/-! ### Objects -/

def xs : Fin 3 → ℝ := fun i => i
def o3 : Fin 3 → ℝ := fun _ => 0

theorem line_far2 {c : ℝ} (hc : 0 < c) (i j : Fin 3) : anisoDist2 1 0 (c * xs i, c * o3 i) (c * xs j, c * o3 j) = c * |(j : ℝ) - i| := by
  rw [show c * |(j : ℝ) - i| = √((c * ((j : ℝ) - i)) ^ 2) by rw [Real.sqrt_sq_eq_abs, abs_mul, abs_of_pos hc]]
  unfold anisoDist2
  simp only [rad, xs, o3, zero_mul, zero_div, Real.cos_zero, Real.sin_zero]
  ring_nf

theorem line_far3 {c : ℝ} (hc : 0 < c) (i j : Fin 3) :
    distance3 {} (c * xs i, c * o3 i, c * o3 i) (c * xs j, c * o3 j, c * o3 j) = c * |(j : ℝ) - i| := by
  rw [show c * |(j : ℝ) - i| = √((c * ((j : ℝ) - i)) ^ 2) by rw [Real.sqrt_sq_eq_abs, abs_mul, abs_of_pos hc]]
  have : distance3 {} (c * xs i, c * o3 i, c * o3 i) (c * xs j, c * o3 j, c * o3 j) = √((c * (i : ℝ) - c * j) ^ 2) := by
    simp [distance3, rotX, rotY, rotZ, rad, xs, o3]
  rw [this]
  ring_nf

def ua (g : ℝ → ℝ → ℝ) : UKArgs := { nlags := 2, driftTerms := ["functional"], functionalDrift := .list [g] }
def ua3 (g : ℝ → ℝ → ℝ → ℝ) : UK3DArgs := { nlags := 2, driftTerms := ["functional"], functionalDrift := .list [g] }

theorem line_ok {c : ℝ} (hc : 0 < c) : ∃ s, OK.create bestEnv (fun i => c * xs i) (fun i => c * o3 i) lineV { nlags := 2 } = .ok s ∧
    s.lags = [(c * 1, 1 / 4), (c * 2, 1 / 2)] ∧ s.params = [1 / (4 * c), 0] := by
  obtain ⟨s, h, -⟩ := OK.create_of (env := bestEnv) (x := fun i => c * xs i) (y := fun i => c * o3 i) (z := lineV) (args := { nlags := 2 })
    (by norm_num) (by simp) (b := true) rfl rfl (f := linearVariogramModel) rfl (.inl rfl) rfl
    (determined_line hc (line_far2 hc) _ _)
  obtain ⟨f, hf, -, hi⟩ := OK.create_auto h rfl rfl
  cases hf
  have e : ∀ i j, s.dataDist i j = euclid (s.pts i) (s.pts j) := fun i j => if_pos (OK.create_fields h).2.2.2.2.1
  have := fit_line hc (X := s.pts) fun i j => by rw [← e, (OK.create_dist h).1]; exact line_far2 hc i j
  have := Except.ok.inj (hi.symm.trans this)
  exact ⟨s, h, congrArg Prod.fst this, congrArg Prod.snd this⟩

theorem line_ok3 {c : ℝ} (hc : 0 < c) : ∃ s, OK3D.create bestEnv (fun i => c * xs i) (fun i => c * o3 i) (fun i => c * o3 i) lineV { nlags := 2 } = .ok s ∧
    s.lags = [(c * 1, 1 / 4), (c * 2, 1 / 2)] ∧ s.params = [1 / (4 * c), 0] := by
  obtain ⟨s, h, -⟩ := OK3D.create_of (env := bestEnv) (x := fun i => c * xs i) (y := fun i => c * o3 i) (z := fun i => c * o3 i) (v := lineV)
    (args := { nlags := 2 }) (by norm_num) (by simp) (b := true) rfl rfl (f := linearVariogramModel) rfl rfl
    (determined_line hc (line_far3 hc) _ _)
  obtain ⟨f, hf, -, hi⟩ := OK3D.create_auto h rfl rfl
  cases hf
  have := fit_line hc (X := s.pts) fun i j => by rw [← OK3D.dataDist, (OK3D.create_dist h).1]; exact line_far3 hc i j
  have := Except.ok.inj (hi.symm.trans this)
  exact ⟨s, h, congrArg Prod.fst this, congrArg Prod.snd this⟩

theorem line_uk {c : ℝ} (hc : 0 < c) (g : ℝ → ℝ → ℝ) : ∃ s, UK.create bestEnv (fun i => c * xs i) (fun i => c * o3 i) lineV (ua g) = .ok s ∧
    s.lags = [(c * 1, 1 / 4), (c * 2, 1 / 2)] ∧ s.params = [1 / (4 * c), 0] := by
  obtain ⟨s, h, -⟩ := UK.create_of (env := bestEnv) (x := fun i => c * xs i) (y := fun i => c * o3 i) (z := lineV)
    (args := ua g) (by norm_num) (by simp [ua]) (b := true) rfl rfl (f := linearVariogramModel) rfl rfl
    (determined_line hc (line_far2 hc) _ _) ⟨_, rfl⟩ (by simp [ua]) ⟨_, rfl⟩ ⟨_, rfl⟩
  obtain ⟨f, hf, -, hi⟩ := UK.create_auto h rfl rfl
  cases hf
  have := fit_line hc (X := s.pts) fun i j => by rw [← UK.dataDist, (UK.create_dist h).1]; exact line_far2 hc i j
  have := Except.ok.inj (hi.symm.trans this)
  exact ⟨s, h, congrArg Prod.fst this, congrArg Prod.snd this⟩

theorem line_uk3 {c : ℝ} (hc : 0 < c) (g : ℝ → ℝ → ℝ → ℝ) :
    ∃ s, UK3D.create bestEnv (fun i => c * xs i) (fun i => c * o3 i) (fun i => c * o3 i) lineV (ua3 g) = .ok s ∧
      s.lags = [(c * 1, 1 / 4), (c * 2, 1 / 2)] ∧ s.params = [1 / (4 * c), 0] := by
  obtain ⟨s, h, -⟩ := UK3D.create_of (env := bestEnv) (x := fun i => c * xs i) (y := fun i => c * o3 i) (z := fun i => c * o3 i) (v := lineV)
    (args := ua3 g) (by norm_num) (by simp [ua3]) (b := true) rfl rfl (f := linearVariogramModel) rfl rfl
    (determined_line hc (line_far3 hc) _ _) ⟨_, rfl⟩ ⟨_, rfl⟩
  obtain ⟨f, hf, -, hi⟩ := UK3D.create_auto h rfl rfl
  cases hf
  have := fit_line hc (X := s.pts) fun i j => by rw [← UK3D.dataDist, (UK3D.create_dist h).1]; exact line_far3 hc i j
  have := Except.ok.inj (hi.symm.trans this)
  exact ⟨s, h, congrArg Prod.fst this, congrArg Prod.snd this⟩

theorem one_xs : (fun i => 1 * xs i) = xs := by funext i; exact one_mul _
theorem one_o3 : (fun i => 1 * o3 i) = o3 := by funext i; exact one_mul _


theorem far_same {d : ℝ} (h : 1 ≤ d) (e : BoolArg) : SameClose 1000 e d := by
  intro _
  constructor <;> intro h' <;> exfalso <;> norm_num at h' <;> linarith

theorem query_far2 (i : Fin 3) : 1 ≤ anisoDist2 1 0 (3, 0) (xs i, o3 i) := by
  have hi : (i : ℝ) ≤ 2 := by exact_mod_cast Nat.lt_succ_iff.1 i.isLt
  have : anisoDist2 1 0 (3, 0) (xs i, o3 i) = √((3 - (i : ℝ)) ^ 2) := by
    unfold anisoDist2
    simp [rad, xs, o3]
  rw [this, Real.sqrt_sq (by linarith)]
  linarith

theorem query_far3 (i : Fin 3) : 1 ≤ distance3 {} (3, 0, 0) (xs i, o3 i, o3 i) := by
  have hi : (i : ℝ) ≤ 2 := by exact_mod_cast Nat.lt_succ_iff.1 i.isLt
  have : distance3 {} (3, 0, 0) (xs i, o3 i, o3 i) = √((3 - (i : ℝ)) ^ 2) := by
    simp [distance3, rotX, rotY, rotZ, rad, xs, o3]
  rw [this, Real.sqrt_sq (by linarith)]
  linarith

theorem line_separates {c : ℝ} (hc : 0 < c) {D : Fin 3 → Fin 3 → ℝ} (hD : ∀ i j : Fin 3, D i j = c * |(j : ℝ) - i|) :
    Separates [1 / (4 * c), 0] D :=
  .inl ⟨⟨_, _, rfl, by positivity⟩, fun i j hij => by
    rw [hD]
    refine mul_ne_zero hc.ne' (abs_ne_zero.2 (sub_ne_zero.2 fun h => hij ?_))
    exact Fin.ext (by exact_mod_cast h.symm)⟩

theorem line_model {c : ℝ} (hc : 0 < c) : ValidModel "linear" [1 / (4 * c), 0] := .inl ⟨_, _, rfl, rfl, by positivity, le_rfl⟩

/-- The data in metres and in kilometres: the fits and the answers. -/
example : ∃ s s' r, OK.create bestEnv xs o3 lineV { nlags := 2 } = .ok s ∧
    OK.create bestEnv (fun i => 1000 * xs i) (fun i => 1000 * o3 i) lineV { nlags := 2 } = .ok s' ∧
    BestFit "linear" false s.lags s.params ∧ s.params = [1 / 4, 0] ∧
    OK.create bestEnv xs o3 lineV { nlags := 2, params := .list [1 / 4, 0], paramsAllInt := false } = .ok s ∧
    s'.params = inUnit 1000 "linear" s.params ∧
    s.execute bestEnv (pts [(3, 0)] "loop") = .ok r ∧ s'.execute bestEnv (times 1000 (pts [(3, 0)] "loop")) = .ok r := by
  obtain ⟨s, h, hl, hps⟩ := line_ok (c := 1) one_pos
  obtain ⟨s', h', hl', hps'⟩ := line_ok (c := 1000) (by norm_num)
  have hs := line_separates one_pos (D := fun i j => okDistance { nlags := 2 } (1 * xs i, 1 * o3 i) (1 * xs j, 1 * o3 j)) (line_far2 one_pos)
  rw [one_xs, one_o3] at h
  have hq : ∀ i j, okDistance { nlags := 2 } (1 * xs i, 1 * o3 i) (1 * xs j, 1 * o3 j) = okDistance { nlags := 2 } (xs i, o3 i) (xs j, o3 j) := by
    intro i j; simp only [one_mul]
  simp only [hq] at hs
  norm_num at hl hps hs
  have hu : ∃! ps, BestFit "linear" false s.lags ps := by
    rw [hl]
    have := best_line
    norm_num at this ⊢
    exact this
  have hname := (chosen_evaluates (builtin_linear.2 rfl : Builtin "linear" [1 / 4, 0] _) (by decide) (OK.create_function h rfl)).2
  have hname' := (chosen_evaluates (builtin_linear.2 rfl : Builtin "linear" [1 / 4, 0] _) (by decide) (OK.create_function h' rfl)).2
  have ha : Admissible bestEnv { nlags := 2 } s (pts [(3, 0)] "loop").nClosest :=
    ⟨bestEnv_knn, trivial, by rw [hname]; intro hc; exact absurd hc (by decide), by intro k hk; cases hk⟩
  have ha' : Admissible bestEnv { nlags := 2 } s' (pts [(3, 0)] "loop").nClosest :=
    ⟨bestEnv_knn, trivial, by rw [hname']; intro hc; exact absurd hc (by decide), by intro k hk; cases hk⟩
  obtain ⟨hq1, hq2⟩ := pts_wellPosed [(3, 0)] "loop"
  obtain ⟨r, hr⟩ := C29_execute_2d h rfl rfl (m := "linear") (by rw [hps]; have := line_model one_pos; norm_num at this ⊢; exact this)
    (by rw [hps]; exact hs) ha hq1 (by intro k hk; cases hk) hq2 (.inl rfl)
  have hag := C76_again_ok h rfl rfl bestEnv_lsq
  rw [hps] at hag
  refine ⟨s, s', r, h, h', C76_best_ok h rfl rfl bestEnv_optimal hu.exists, ?_, hag, (C76_unit_ok h rfl rfl (by norm_num) rfl h' bestEnv_optimal hu).2, hr,
    C76_unit_answer_ok h rfl rfl (by norm_num) rfl h' bestEnv_optimal hu ha ha' (fun j p hp i => ?_) (by simp [NoTies, pts]) hr⟩
  · refine C76_line_ok h rfl rfl bestEnv_optimal (by norm_num) le_rfl fun e he => ?_
    rw [hl] at he
    simp only [List.mem_cons, List.not_mem_nil, or_false] at he
    rcases he with rfl | rfl <;> norm_num
  · cases j with
    | zero =>
      simp [queryAt, pts] at hp
      subst hp
      exact far_same (query_far2 i) _
    | succ j => simp [queryAt, pts] at hp


example : ∃ s s' r, OK3D.create bestEnv xs o3 o3 lineV { nlags := 2 } = .ok s ∧
    OK3D.create bestEnv (fun i => 1000 * xs i) (fun i => 1000 * o3 i) (fun i => 1000 * o3 i) lineV { nlags := 2 } = .ok s' ∧
    BestFit "linear" false s.lags s.params ∧ s.params = [1 / 4, 0] ∧
    OK3D.create bestEnv xs o3 o3 lineV { nlags := 2, params := .list [1 / 4, 0] } = .ok s ∧
    s'.params = inUnit 1000 "linear" s.params ∧
    s.execute bestEnv (pts3 [(3, 0, 0)] "loop") = .ok r ∧ s'.execute bestEnv (times3 1000 (pts3 [(3, 0, 0)] "loop")) = .ok r := by
  obtain ⟨s, h, hl, hps⟩ := line_ok3 (c := 1) one_pos
  obtain ⟨s', h', hl', hps'⟩ := line_ok3 (c := 1000) (by norm_num)
  have hs := line_separates one_pos (D := fun i j => ok3Distance { nlags := 2 } (1 * xs i, 1 * o3 i, 1 * o3 i) (1 * xs j, 1 * o3 j, 1 * o3 j)) (line_far3 one_pos)
  rw [one_xs, one_o3] at h
  have hq : ∀ i j, ok3Distance { nlags := 2 } (1 * xs i, 1 * o3 i, 1 * o3 i) (1 * xs j, 1 * o3 j, 1 * o3 j) =
      ok3Distance { nlags := 2 } (xs i, o3 i, o3 i) (xs j, o3 j, o3 j) := by
    intro i j; simp only [one_mul]
  simp only [hq] at hs
  norm_num at hl hps hs
  have hu : ∃! ps, BestFit "linear" false s.lags ps := by
    rw [hl]
    have := best_line
    norm_num at this ⊢
    exact this
  obtain ⟨hq1, hq2⟩ := pts_wellPosed3 [(3, 0, 0)] "loop"
  obtain ⟨r, hr⟩ := C29_execute_3d h rfl (m := "linear") (by rw [hps]; have := line_model one_pos; norm_num at this ⊢; exact this)
    (by rw [hps]; exact hs) bestEnv_knn (by simp [WindowFits, pts3]) hq1 (by intro k hk; cases hk) hq2 (.inl rfl)
  have hag := C76_again_ok3 h rfl rfl bestEnv_lsq
  rw [hps] at hag
  refine ⟨s, s', r, h, h', C76_best_ok3 h rfl rfl bestEnv_optimal hu.exists, ?_, hag, (C76_unit_ok3 h rfl rfl (by norm_num) h' bestEnv_optimal hu).2, hr,
    C76_unit_answer_ok3 h rfl rfl (by norm_num) h' bestEnv_optimal hu bestEnv_knn (by simp [WindowFits, pts3]) (fun j p hp i => ?_) (by simp [NoTies, pts3]) hr⟩
  · refine C76_line_ok3 h rfl rfl bestEnv_optimal (by norm_num) le_rfl fun e he => ?_
    rw [hl] at he
    simp only [List.mem_cons, List.not_mem_nil, or_false] at he
    rcases he with rfl | rfl <;> norm_num
  · cases j with
    | zero =>
      simp [queryAt3, pts3] at hp
      subst hp
      exact far_same (query_far3 i) _
    | succ j => simp [queryAt3, pts3] at hp

/-- The drift `x` of the line is independent of the constant. -/
theorem drift_line {c k o : ℝ} (hc : c ≠ 0) (hk : k ≠ 0) {D : Fin 3 → List ℝ} (hD : ∀ i : Fin 3, D i = [k * (c * (i : ℝ)) + o]) : Independent D := by
  intro a b h
  have h0 := h 0
  have h1 := h 1
  rw [hD] at h0 h1
  simp at h0 h1
  have : a 0 * (k * c) = 0 := by linear_combination h1 - h0
  have ha : a 0 = 0 := by simpa [hc, hk] using this
  refine ⟨fun i l hl => ?_, ?_⟩
  · rw [hD] at hl
    simp at hl
    rw [hl, ha]
  · rw [ha] at h0; linarith

theorem adj_line {n : ℕ} (s : UK n) (h1 : s.anisotropyScaling = 1) (h2 : s.anisotropyAngle = 0) (p : ℝ × ℝ) : s.adjustPoint p 0 = p.1 := by
  unfold UK.adjustPoint
  rw [h1, h2]
  simp [adjust2, Matrix.vecHead]

example : ∃ s s' r r' est var, UK.create bestEnv xs o3 lineV (ua fun x _ => x) = .ok s ∧
    UK.create bestEnv (fun i => 1000 * xs i) (fun i => 1000 * o3 i) lineV (ua fun x _ => x / 1000) = .ok s' ∧
    BestFit "linear" false s.lags s.params ∧ s.params = [1 / 4, 0] ∧
    UK.create bestEnv xs o3 lineV { ua fun x _ => x with params := .list [1 / 4, 0] } = .ok s ∧
    s'.params = inUnit 1000 "linear" s.params ∧
    s.execute { toExec := pts [(3, 0)] "loop" } = .ok r ∧ s'.execute { toExec := times 1000 (pts [(3, 0)] "loop") } = .ok r' ∧
    r.z[0]? = some (some est) ∧ r'.z[0]? = some (some est) ∧ r.ss[0]? = some (some var) ∧ r'.ss[0]? = some (some var) := by
  obtain ⟨s, h, hl, hps⟩ := line_uk (c := 1) one_pos fun x _ => x
  obtain ⟨s', h', hl', hps'⟩ := line_uk (c := 1000) (by norm_num) fun x _ => x / 1000
  have hs := line_separates one_pos (D := fun i j => ukDistance (ua fun x _ => x) (1 * xs i, 1 * o3 i) (1 * xs j, 1 * o3 j)) (line_far2 one_pos)
  have hs' := line_separates (c := 1000) (by norm_num)
    (D := fun i j => ukDistance (ua fun x _ => x / 1000) (1000 * xs i, 1000 * o3 i) (1000 * xs j, 1000 * o3 j)) (line_far2 (by norm_num))
  rw [one_xs, one_o3] at h
  have hq : ∀ i j, ukDistance (ua fun x _ => x) (1 * xs i, 1 * o3 i) (1 * xs j, 1 * o3 j) = ukDistance (ua fun x _ => x) (xs i, o3 i) (xs j, o3 j) := by
    intro i j; simp only [one_mul]
  simp only [hq] at hs
  norm_num at hl hps hs
  have hu : ∃! ps, BestFit "linear" false s.lags ps := by
    rw [hl]
    have := best_line
    norm_num at this ⊢
    exact this
  obtain ⟨a1, a2⟩ := UK.create_aniso h
  obtain ⟨a1', a2'⟩ := UK.create_aniso h'
  have wp : ∀ l : List (ℝ × ℝ), _ := fun l => pts_wellPosed l "loop"
  obtain ⟨r, hr⟩ := C29_execute_uk h rfl (m := "linear") (ea := { toExec := pts [(3, 0)] "loop" })
    (by rw [hps]; have := line_model one_pos; norm_num at this ⊢; exact this)
    (by rw [hps]; exact hs) (.inr (drift_line (c := 1) (k := 1) (o := 0) one_ne_zero one_ne_zero fun i => by
      simp [driftTerms2, ua, adj_line s a1 a2, xs])) (wp _).1 (wp _).2 (fun hc => by simp [ua] at hc)
    (.inr ⟨rfl, by simp [ua], fun j p _ _ hc => by simp [AtWell, ua] at hc⟩) (fun j p _ _ hc => by simp [ua] at hc)
  obtain ⟨r', hr'⟩ := C29_execute_uk h' rfl (m := "linear") (ea := { toExec := pts [(1000 * 3, 1000 * 0)] "loop" })
    (by rw [hps']; exact line_model (by norm_num))
    (by rw [hps']; exact hs') (.inr (drift_line (c := 1000) (k := 1 / 1000) (o := 0) (by norm_num) (by norm_num) fun i => by
      simp [driftTerms2, ua, adj_line s' a1' a2', xs])) (wp _).1 (wp _).2 (fun hc => by simp [ua] at hc)
    (.inr ⟨rfl, by simp [ua], fun j p _ _ hc => by simp [AtWell, ua] at hc⟩) (fun j p _ _ hc => by simp [ua] at hc)
  have hag := C76_again_uk h rfl rfl bestEnv_lsq
  rw [hps] at hag
  obtain ⟨est, var, e1, e2, e3, e4⟩ := C76_unit_answer_uk h rfl rfl (by norm_num) h' bestEnv_optimal hu rfl (fun hc => by simp [ua] at hc) hr hr'
    (j := 0) (p := (3, 0)) (by simp [queryAt, pts]) (by simp [maskedAt, pts]) (fun i => far_same (query_far2 i) _) (fun hc => by simp [ua] at hc)
  refine ⟨s, s', r, r', est, var, h, h', C76_best_uk h rfl rfl bestEnv_optimal hu.exists, ?_, hag,
    (C76_unit_uk h rfl rfl (by norm_num) h' bestEnv_optimal hu).2, hr, hr', e1, e2, e3, e4⟩
  refine C76_line_uk h rfl rfl bestEnv_optimal (by norm_num) le_rfl fun e he => ?_
  rw [hl] at he
  simp only [List.mem_cons, List.not_mem_nil, or_false] at he
  rcases he with rfl | rfl <;> norm_num

theorem adj_line3 {n : ℕ} (s : UK3D n) (h1 : s.aniso = {}) (p : ℝ × ℝ × ℝ) : s.adjustPoint p 0 = p.1 := by
  unfold UK3D.adjustPoint
  rw [h1]
  simp [adjustPoint3, adjust3, Matrix.vecHead, Matrix.vecTail]

example : ∃ s s' r r' est var, UK3D.create bestEnv xs o3 o3 lineV (ua3 fun x _ _ => x) = .ok s ∧
    UK3D.create bestEnv (fun i => 1000 * xs i) (fun i => 1000 * o3 i) (fun i => 1000 * o3 i) lineV (ua3 fun x _ _ => x / 1000) = .ok s' ∧
    BestFit "linear" false s.lags s.params ∧ s.params = [1 / 4, 0] ∧
    UK3D.create bestEnv xs o3 o3 lineV { ua3 fun x _ _ => x with params := .list [1 / 4, 0] } = .ok s ∧
    s'.params = inUnit 1000 "linear" s.params ∧
    s.execute { toExec := pts3 [(3, 0, 0)] "loop" } = .ok r ∧ s'.execute { toExec := times3 1000 (pts3 [(3, 0, 0)] "loop") } = .ok r' ∧
    r.z[0]? = some (some est) ∧ r'.z[0]? = some (some est) ∧ r.ss[0]? = some (some var) ∧ r'.ss[0]? = some (some var) := by
  obtain ⟨s, h, hl, hps⟩ := line_uk3 (c := 1) one_pos fun x _ _ => x
  obtain ⟨s', h', hl', hps'⟩ := line_uk3 (c := 1000) (by norm_num) fun x _ _ => x / 1000
  have hs := line_separates one_pos
    (D := fun i j => uk3Distance (ua3 fun x _ _ => x) (1 * xs i, 1 * o3 i, 1 * o3 i) (1 * xs j, 1 * o3 j, 1 * o3 j)) (line_far3 one_pos)
  have hs' := line_separates (c := 1000) (by norm_num)
    (D := fun i j => uk3Distance (ua3 fun x _ _ => x / 1000) (1000 * xs i, 1000 * o3 i, 1000 * o3 i) (1000 * xs j, 1000 * o3 j, 1000 * o3 j))
    (line_far3 (by norm_num))
  rw [one_xs, one_o3] at h
  have hq : ∀ i j, uk3Distance (ua3 fun x _ _ => x) (1 * xs i, 1 * o3 i, 1 * o3 i) (1 * xs j, 1 * o3 j, 1 * o3 j) =
      uk3Distance (ua3 fun x _ _ => x) (xs i, o3 i, o3 i) (xs j, o3 j, o3 j) := by
    intro i j; simp only [one_mul]
  simp only [hq] at hs
  norm_num at hl hps hs
  have hu : ∃! ps, BestFit "linear" false s.lags ps := by
    rw [hl]
    have := best_line
    norm_num at this ⊢
    exact this
  have a1 := UK3D.create_aniso h
  have a1' := UK3D.create_aniso h'
  have wp : ∀ l : List (ℝ × ℝ × ℝ), _ := fun l => pts_wellPosed3 l "loop"
  obtain ⟨r, hr⟩ := C29_execute_uk3d h rfl (m := "linear") (ea := { toExec := pts3 [(3, 0, 0)] "loop" })
    (by rw [hps]; have := line_model one_pos; norm_num at this ⊢; exact this)
    (by rw [hps]; exact hs) (.inr (drift_line (c := 1) (k := 1) (o := 0) one_ne_zero one_ne_zero fun i => by
      simp [driftTerms3, ua3, adj_line3 s a1, xs])) (wp _).1 (wp _).2 (fun hc => by simp [ua3] at hc)
    (.inr ⟨rfl, by simp [ua3]⟩)
  obtain ⟨r', hr'⟩ := C29_execute_uk3d h' rfl (m := "linear") (ea := { toExec := pts3 [(1000 * 3, 1000 * 0, 1000 * 0)] "loop" })
    (by rw [hps']; exact line_model (by norm_num))
    (by rw [hps']; exact hs') (.inr (drift_line (c := 1000) (k := 1 / 1000) (o := 0) (by norm_num) (by norm_num) fun i => by
      simp [driftTerms3, ua3, adj_line3 s' a1', xs])) (wp _).1 (wp _).2 (fun hc => by simp [ua3] at hc)
    (.inr ⟨rfl, by simp [ua3]⟩)
  have hag := C76_again_uk3 h rfl rfl bestEnv_lsq
  rw [hps] at hag
  obtain ⟨est, var, e1, e2, e3, e4⟩ := C76_unit_answer_uk3 h rfl rfl (by norm_num) h' bestEnv_optimal hu rfl (fun hc => by simp [ua3] at hc) hr hr'
    (j := 0) (p := (3, 0, 0)) (by simp [queryAt3, pts3]) (by simp [maskedAt3, pts3]) (fun i => far_same (query_far3 i) _)
  refine ⟨s, s', r, r', est, var, h, h', C76_best_uk3 h rfl rfl bestEnv_optimal hu.exists, ?_, hag,
    (C76_unit_uk3 h rfl rfl (by norm_num) h' bestEnv_optimal hu).2, hr, hr', e1, e2, e3, e4⟩
  refine C76_line_uk3 h rfl rfl bestEnv_optimal (by norm_num) le_rfl fun e he => ?_
  rw [hl] at he
  simp only [List.mem_cons, List.not_mem_nil, or_false] at he
  rcases he with rfl | rfl <;> norm_num


/-! ### Feeding the attribute back -/

theorem fit_sph {m : ℕ} {X : Fin 3 → Fin m → ℝ} (hX : ∀ i j : Fin 3, euclid (X i) (X j) = 1 * |(j : ℝ) - i|) {f : VFun} {l : List (ℝ × ℝ)} {ps : List ℝ}
    (h : initializeVariogramModel stdEnv X lineV "spherical" none f 2 false "euclidean" = .ok (l, ps)) : ps = [1 / 4, 1 / 2, 1 / 4] := by
  have hev := ev_line (X := X) fun i j hij => by
    rw [hX, one_mul, abs_of_pos]
    have : (i : ℝ) < j := by exact_mod_cast hij
    linarith
  unfold initializeVariogramModel at h
  rw [hev, py_ok_bind] at h
  simp only [if_neg (show ¬ ("spherical" = "custom") by decide), py_bind_eq_ok, py_pure] at h
  obtain ⟨q, hq, e⟩ := h
  cases e
  unfold calculateVariogramModel at hq
  simp only [py_bind_eq_ok, py_pure] at hq
  obtain ⟨p, hp, -, -, -, -, e⟩ := hq
  unfold lsqProblem at hp
  rw [if_neg (by decide), if_neg (by decide)] at hp
  simp only [List.map_cons, List.map_nil, amax, amin, List.foldl_cons, List.foldl_nil, py_ok_bind, py_pure] at hp
  have hp := Except.ok.inj hp
  have e := Except.ok.inj e
  rw [← e, ← hp]
  norm_num [stdEnv]

theorem sph_possible {D : Fin 3 → Fin 3 → ℝ} (hD : ∀ i j : Fin 3, D i j = 1 * |(j : ℝ) - i|) : FitPossible D lineV "spherical" false 2 := by
  refine ⟨⟨0, 1, by decide, by simp [lineV]⟩, ⟨0, 1, by decide, ?_⟩, fun _ => ⟨by norm_num, 0, 1, 0, 2, by decide, by decide, ?_⟩⟩
  · rw [hD]; norm_num
  · rw [hD, hD]; norm_num

theorem fed_valid : ValidModel "spherical" (listMeaning "spherical" [1 / 4, 1 / 2, 1 / 4]) :=
  .inr (.inr ⟨0, 1 / 2, 1 / 4, by decide, by rw [listMeaning, if_neg (by decide)]; norm_num, le_rfl, by norm_num, by norm_num⟩)

def sp : OKArgs := { variogramModel := .name "spherical", nlags := 2, pseudoInv := true }

/-- The fitted spherical model has the sill 1/2; the attribute fed back gives a pure nugget 1/4. -/
example : ∃ s s' psill range nugget, OK.create stdEnv (fun i => 1 * xs i) (fun i => 1 * o3 i) lineV sp = .ok s ∧
    OK.create stdEnv (fun i => 1 * xs i) (fun i => 1 * o3 i) lineV { sp with params := .list s.params } = .ok s' ∧ s.params = [1 / 4, 1 / 2, 1 / 4] ∧
      s.params = [psill, range, nugget] ∧ s'.params = [psill - nugget, range, nugget] := by
  obtain ⟨s, h⟩ := C19_accepted_statistics_ok stdEnv_lsq (fun i => 1 * xs i) (fun i => 1 * o3 i) lineV sp rfl (by decide) rfl (by decide)
    (.inr rfl) (by simp [sp]) rfl (.inl rfl) (sph_possible (line_far2 one_pos))
  obtain ⟨f, hf, -, hi⟩ := OK.create_auto h rfl rfl
  have e : ∀ i j, s.dataDist i j = euclid (s.pts i) (s.pts j) := fun i j => if_pos (OK.create_fields h).2.2.2.2.1
  have hps := fit_sph (X := s.pts) (fun i j => by rw [← e, (OK.create_dist h).1]; exact line_far2 one_pos i j) hi
  obtain ⟨s', h', -⟩ := C39_create_2d stdEnv (by norm_num) (fun i => 1 * xs i) (fun i => 1 * o3 i) lineV { sp with params := .list s.params } rfl
    (by simp [sp]) rfl (.inl rfl) rfl rfl (by rw [hps]; exact fed_valid)
  obtain ⟨a, b, c, k⟩ := C76_feedback_ok h rfl rfl stdEnv_lsq (by decide) (by decide) h'
  exact ⟨s, s', a, b, c, h, h', hps, k⟩

def sp3 : OK3DArgs := { variogramModel := .name "spherical", nlags := 2, pseudoInv := true }

example : ∃ s s' psill range nugget, OK3D.create stdEnv (fun i => 1 * xs i) (fun i => 1 * o3 i) (fun i => 1 * o3 i) lineV sp3 = .ok s ∧
    OK3D.create stdEnv (fun i => 1 * xs i) (fun i => 1 * o3 i) (fun i => 1 * o3 i) lineV { sp3 with params := .list s.params } = .ok s' ∧
      s.params = [1 / 4, 1 / 2, 1 / 4] ∧ s.params = [psill, range, nugget] ∧ s'.params = [psill - nugget, range, nugget] := by
  obtain ⟨s, h⟩ := C19_accepted_ok3 stdEnv_lsq (fun i => 1 * xs i) (fun i => 1 * o3 i) (fun i => 1 * o3 i) lineV sp3 rfl (by decide) rfl (by decide)
    rfl (by simp [sp3]) rfl (sph_possible (line_far3 one_pos))
  obtain ⟨f, hf, -, hi⟩ := OK3D.create_auto h rfl rfl
  have hps := fit_sph (X := s.pts) (fun i j => by rw [← OK3D.dataDist, (OK3D.create_dist h).1]; exact line_far3 one_pos i j) hi
  obtain ⟨s', h', -⟩ := C39_create_3d stdEnv (by norm_num) (fun i => 1 * xs i) (fun i => 1 * o3 i) (fun i => 1 * o3 i) lineV
    { sp3 with params := .list s.params } rfl (by simp [sp3]) rfl rfl rfl (by rw [hps]; exact fed_valid)
  obtain ⟨a, b, c, k⟩ := C76_feedback_ok3 h rfl rfl stdEnv_lsq (by decide) (by decide) h'
  exact ⟨s, s', a, b, c, h, h', hps, k⟩

def usp : UKArgs := { variogramModel := .name "spherical", nlags := 2, pseudoInv := true, driftTerms := ["regional_linear"] }

example : ∃ s s' psill range nugget, UK.create stdEnv (fun i => 1 * xs i) (fun i => 1 * o3 i) lineV usp = .ok s ∧
    UK.create stdEnv (fun i => 1 * xs i) (fun i => 1 * o3 i) lineV { usp with params := .list s.params } = .ok s' ∧ s.params = [1 / 4, 1 / 2, 1 / 4] ∧
      s.params = [psill, range, nugget] ∧ s'.params = [psill - nugget, range, nugget] := by
  obtain ⟨s, h⟩ := C19_accepted_uk stdEnv_lsq (fun i => 1 * xs i) (fun i => 1 * o3 i) lineV usp rfl (by decide) rfl (by decide)
    rfl (by simp [usp]) rfl (sph_possible (line_far2 one_pos)) (fun i hc => by simp [usp] at hc) (by simp [usp]) (by simp [usp]) (by simp [usp])
  obtain ⟨f, hf, -, hi⟩ := UK.create_auto h rfl rfl
  have hps := fit_sph (X := s.pts) (fun i j => by rw [← UK.dataDist, (UK.create_dist h).1]; exact line_far2 one_pos i j) hi
  obtain ⟨s', h', -⟩ := C39_create_uk stdEnv (by norm_num) (fun i => 1 * xs i) (fun i => 1 * o3 i) lineV { usp with params := .list s.params } rfl
    (by simp [usp]) rfl rfl rfl (by rw [hps]; exact fed_valid) (fun i hc => by simp [usp] at hc) (by simp [usp]) (by simp [usp]) (by simp [usp])
  obtain ⟨a, b, c, k⟩ := C76_feedback_uk h rfl rfl stdEnv_lsq (by decide) (by decide) h'
  exact ⟨s, s', a, b, c, h, h', hps, k⟩

def usp3 : UK3DArgs := { variogramModel := .name "spherical", nlags := 2, pseudoInv := true, driftTerms := ["regional_linear"] }

example : ∃ s s' psill range nugget, UK3D.create stdEnv (fun i => 1 * xs i) (fun i => 1 * o3 i) (fun i => 1 * o3 i) lineV usp3 = .ok s ∧
    UK3D.create stdEnv (fun i => 1 * xs i) (fun i => 1 * o3 i) (fun i => 1 * o3 i) lineV { usp3 with params := .list s.params } = .ok s' ∧
      s.params = [1 / 4, 1 / 2, 1 / 4] ∧ s.params = [psill, range, nugget] ∧ s'.params = [psill - nugget, range, nugget] := by
  obtain ⟨s, h⟩ := C19_accepted_uk3 stdEnv_lsq (fun i => 1 * xs i) (fun i => 1 * o3 i) (fun i => 1 * o3 i) lineV usp3 rfl (by decide) rfl (by decide)
    rfl (by simp [usp3]) rfl (sph_possible (line_far3 one_pos)) (by simp [usp3]) (by simp [usp3])
  obtain ⟨f, hf, -, hi⟩ := UK3D.create_auto h rfl rfl
  have hps := fit_sph (X := s.pts) (fun i j => by rw [← UK3D.dataDist, (UK3D.create_dist h).1]; exact line_far3 one_pos i j) hi
  obtain ⟨s', h', -⟩ := C39_create_uk3d stdEnv (by norm_num) (fun i => 1 * xs i) (fun i => 1 * o3 i) (fun i => 1 * o3 i) lineV
    { usp3 with params := .list s.params } rfl (by simp [usp3]) rfl rfl rfl (by rw [hps]; exact fed_valid) (by simp [usp3]) (by simp [usp3])
  obtain ⟨a, b, c, k⟩ := C76_feedback_uk3 h rfl rfl stdEnv_lsq (by decide) (by decide) h'
  exact ⟨s, s', a, b, c, h, h', hps, k⟩

end Demo

end
end PyKrige
