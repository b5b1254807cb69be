import Verif.Props.C77
import Verif.Props.C76Ex
import Verif.Lemmas.NanAccept
import Verif.Examples.Any
import Verif.Examples.More

/-!
# C77: data sets with nans
-/

namespace PyKrige
noncomputable section
open Spec

namespace Demo

theorem _root_.PyKrige.OK3D.stats_some {n : ℕ} {env : Env} {x y z v : Fin n → ℝ} {args : OK3DArgs} {s : OK3D n}
    (h : OK3D.create env x y z v args = .ok s) : ∃ st, s.stats = some st := by
  obtain ⟨-, _, _, _, _, _, _, _, _, _, _, _, _, _, _, _, -, -, -, -, -, -, -, -, -, rfl⟩ := OK3D.create_ok h
  exact ⟨_, rfl⟩

theorem _root_.PyKrige.UK.stats_some {n : ℕ} {env : Env} {x y z : Fin n → ℝ} {args : UKArgs} {s : UK n}
    (h : UK.create env x y z args = .ok s) : ∃ st, s.stats = some st := by
  obtain ⟨-, _, _, _, _, _, _, _, _, _, _, _, _, _, _, _, _, _, _, _, -, -, -, -, -, -, -, -, -, -, -, -, rfl⟩ := UK.create_ok h
  exact ⟨_, rfl⟩

theorem _root_.PyKrige.UK3D.stats_some {n : ℕ} {env : Env} {x y z v : Fin n → ℝ} {args : UK3DArgs} {s : UK3D n}
    (h : UK3D.create env x y z v args = .ok s) : ∃ st, s.stats = some st := by
  obtain ⟨-, _, _, _, _, _, _, _, _, _, _, _, _, _, _, _, _, _, -, -, -, -, -, -, -, -, -, -, -, rfl⟩ := UK3D.create_ok h
  exact ⟨_, rfl⟩

/-- Three data on a line, the middle one missing. -/
def lineN : Fin 3 → Option ℝ := ![some 0, none, some 2]

/-- The class at distance 1 holds a nan; the pair at distance 2 is left. -/
theorem ev_nan {m : ℕ} {X : Fin 3 → Fin m → ℝ} (hX : ∀ i j : Fin 3, euclid (X i) (X j) = 1 * |(j : ℝ) - i|) :
    experimentalVariogramNan X lineN 2 "euclidean" = .ok [(2, 2)] := by
  have h01 := hX 0 1
  have h02 := hX 0 2
  have h12 := hX 1 2
  norm_num at h01 h02 h12
  have hpp : pdistPairs 3 = [(0, 1), (0, 2), (1, 2)] := by decide
  have hdg : pairDistancesNan X lineN "euclidean" = .ok [(1, none), (2, some 2), (1, none)] := by
    unfold pairDistancesNan
    rw [if_pos rfl, hpp]
    simp only [List.map_cons, List.map_nil, h01, h02, h12]
    rw [show lineN 0 = some 0 from rfl, show lineN 1 = none from rfl, show lineN 2 = some 2 from rfl]
    norm_num [nanHalfSq]
  have hed : binEdges 1 2 2 = [1, 3 / 2, 2001 / 1000] := by
    unfold binEdges
    norm_num [List.range_succ]
  unfold experimentalVariogramNan
  rw [hdg]
  simp only [py_ok_bind, py_pure, List.map_cons, List.map_nil, amax, amin, List.foldl_cons, List.foldl_nil]
  norm_num
  rw [hed]
  unfold binnedNan
  simp only [List.tail_cons, List.zip_cons_cons, List.zip_nil_right, List.filterMap_cons, List.filterMap_nil]
  norm_num [List.filter_cons, nanMean, mean]

theorem lineN_determined {m : ℕ} {D : Fin 3 → Fin 3 → ℝ} (hD : ∀ i j : Fin 3, D i j = 1 * |(j : ℝ) - i|) {f fn}
    (hf : chooseFunction "spherical" .none = .ok (f, fn)) (st : Bool) :
    DeterminedNan stdEnv m "euclidean" D lineN "spherical" none f 2 false st true :=
  determinedNan_of stdEnv_lsq (.inl rfl) (by decide) hf (.inr rfl) (s := 2) (S := 2) (l := 2) (L := 2) (by norm_num) le_rfl
    (by norm_num) le_rfl ⟨by norm_num, by norm_num, by simp⟩ fun X hX =>
      ⟨_, ev_nan fun i j => by rw [← hD, ← hX]; rfl, rfl, rfl, rfl, rfl⟩

/-- `OK`, four data with a nan among them, the parameters given: accepted, and the estimate anywhere is nan. -/
theorem nan_ok (w : Fin 4 → Option ℝ) : ∃ t, NanOK.create stdEnv x4 y4 w (any "spherical" [3, 2, 1]) = .ok t ∧ ∀ p : ℝ × ℝ,
    ∃ r, t.execute stdEnv (pts [p] "loop") = .ok r := by
  obtain ⟨s, h, hp, ha, hr⟩ := any_ok (n := 4) (by norm_num) (fun i => (w i).getD 0) sph_valid sph_grows inj4
  obtain ⟨t, ht, hZ, hst, -⟩ := (NanOK.create_rel stdEnv x4 y4 w (replaces_getD w) (any "spherical" [3, 2, 1]) (.inl (.inr (by simp [any])))).ok_of h
  refine ⟨t, ht, fun p => ?_⟩
  obtain ⟨r, hr⟩ := hr (pts [p] "loop") (pts_wellPosed _ _).1 (by intro k hk; cases hk) (by intro k hk; cases hk) (pts_wellPosed _ _).2 (.inl rfl)
  rw [hst] at hr
  obtain ⟨r', hr', -⟩ := (t.execute_rel (hZ ▸ replaces_getD w) s.lags s.stats stdEnv (pts [p] "loop") (by intro k hk; cases hk)).ok_of hr
  exact ⟨r', hr'⟩

example (p : ℝ × ℝ) : ∃ t r, NanOK.create stdEnv x4 y4 ![some 1, none, some 3, some 5] (any "spherical" [3, 2, 1]) = .ok t ∧
    t.execute stdEnv (pts [p] "loop") = .ok r ∧ r.z[0]? = some (some none) := by
  obtain ⟨t, ht, hr⟩ := nan_ok ![some 1, none, some 3, some 5]
  obtain ⟨r, hr⟩ := hr p
  exact ⟨t, r, ht, hr, C77_all_nan_ok ht ⟨1, rfl⟩ rfl hr (j := 0) (p := p) (by simp [queryAt, pts])⟩

/-- The automatic fit with a nan: one class is left. -/
example : ∃ t S L, NanOK.create stdEnv (fun i => 1 * xs i) (fun i => 1 * o3 i) lineN sp = .ok t ∧ IsGreatest {v | v ∈ t.obj.lags.map Prod.snd} S ∧
    IsGreatest {v | v ∈ t.obj.lags.map Prod.fst} L ∧ WithinBounds "spherical" S L t.obj.params := by
  obtain ⟨t, h, -⟩ := NanOK.create_of (env := stdEnv) (args := sp) (x := fun i => 1 * xs i) (y := fun i => 1 * o3 i) (z := lineN) (vp := none) (by norm_num) (by simp [sp]) rfl rfl rfl (.inl rfl) rfl
    (lineN_determined (line_far2 one_pos) rfl _)
  obtain ⟨S, L, h1, h2, h3⟩ := C77_fit_ok h rfl rfl (by simp [sp]) stdEnv_lsq
  exact ⟨t, S, L, h, h1, h2, h3⟩

example (t : NanOK 2) : NanOK.create stdEnv X O ![some 3, none] sp ≠ .ok t :=
  C77_refused_ok rfl rfl (by simp [sp]) (fun i j hij => by fin_cases i <;> fin_cases j <;> simp at hij ⊢) t

/-- `OK3D`, four data with a nan among them, the parameters given: accepted, and the estimate anywhere is nan. -/
theorem nan_ok3 (w : Fin 4 → Option ℝ) : ∃ t, NanOK3D.create stdEnv x4 y4 z4 w (any3 "spherical" [3, 2, 1]) = .ok t ∧ ∀ p : ℝ × ℝ × ℝ,
    ∃ r, t.execute stdEnv (pts3 [p] "loop") = .ok r := by
  obtain ⟨s, h, hp, hr⟩ := any3_ok (n := 4) (by norm_num) (fun i => (w i).getD 0) sph_valid sph_grows inj4'
  obtain ⟨t, ht, hZ, hst, -⟩ := (NanOK3D.create_rel stdEnv x4 y4 z4 w (replaces_getD w) (any3 "spherical" [3, 2, 1]) (.inl (.inr (by simp [any3])))).ok_of h
  refine ⟨t, ht, fun p => ?_⟩
  obtain ⟨r, hr⟩ := hr (pts3 [p] "loop") (pts_wellPosed3 _ _).1 (by intro k hk; cases hk) (by intro k hk; cases hk) (pts_wellPosed3 _ _).2 (.inl rfl)
  rw [hst] at hr
  obtain ⟨r', hr', -⟩ := (t.execute_rel (hZ ▸ replaces_getD w) s.lags s.stats stdEnv (pts3 [p] "loop") (by intro k hk; cases hk)).ok_of hr
  exact ⟨r', hr'⟩

example (p : ℝ × ℝ × ℝ) : ∃ t r, NanOK3D.create stdEnv x4 y4 z4 ![some 1, none, some 3, some 5] (any3 "spherical" [3, 2, 1]) = .ok t ∧
    t.execute stdEnv (pts3 [p] "loop") = .ok r ∧ r.z[0]? = some (some none) := by
  obtain ⟨t, ht, hr⟩ := nan_ok3 ![some 1, none, some 3, some 5]
  obtain ⟨r, hr⟩ := hr p
  exact ⟨t, r, ht, hr, C77_all_nan_ok3 ht ⟨1, rfl⟩ rfl hr (j := 0) (p := p) (by simp [queryAt3, pts3])⟩

/-- The automatic fit with a nan: one class is left. -/
example : ∃ t S L, NanOK3D.create stdEnv (fun i => 1 * xs i) (fun i => 1 * o3 i) (fun i => 1 * o3 i) lineN sp3 = .ok t ∧ IsGreatest {v | v ∈ t.obj.lags.map Prod.snd} S ∧
    IsGreatest {v | v ∈ t.obj.lags.map Prod.fst} L ∧ WithinBounds "spherical" S L t.obj.params := by
  obtain ⟨t, h, -⟩ := NanOK3D.create_of (env := stdEnv) (args := sp3) (x := fun i => 1 * xs i) (y := fun i => 1 * o3 i) (z := fun i => 1 * o3 i) (v := lineN) (vp := none) (by norm_num) (by simp [sp3]) rfl rfl rfl rfl
    (lineN_determined (line_far3 one_pos) rfl _)
  obtain ⟨S, L, h1, h2, h3⟩ := C77_fit_ok3 h rfl rfl (by simp [sp3]) stdEnv_lsq
  exact ⟨t, S, L, h, h1, h2, h3⟩

example (t : NanOK3D 2) : NanOK3D.create stdEnv X O O ![some 3, none] sp3 ≠ .ok t :=
  C77_refused_ok3 rfl rfl (by simp [sp3]) (fun i j hij => by fin_cases i <;> fin_cases j <;> simp at hij ⊢) t

/-- The statistics of the last three data: those from the nan on are nan. -/
example : ∃ t st, NanOK3D.create stdEnv x4 y4 z4 ![some 1, some 2, none, some 5] (any3 "spherical" [3, 2, 1]) = .ok t ∧ t.stats = some st ∧
    st.delta.length = st.sigma.length ∧ ∃ idx : List (Fin 4), idx.length = st.sigma.length ∧
      ∀ (k : ℕ) i, idx[k]? = some i → 2 ≤ i.val → st.delta[k]? = some none := by
  obtain ⟨t, ht, -⟩ := nan_ok3 ![some 1, some 2, none, some 5]
  obtain ⟨s, hs, -⟩ := any3_ok (n := 4) (by norm_num) ![1, 2, 7, 5] sph_valid sph_grows inj4'
  obtain ⟨st, hst⟩ := OK3D.stats_some hs
  obtain ⟨st', h1, h2, idx, -, -, h3, h4, -, h5⟩ := C77_statistics_ok3 (.inr (by simp [any3])) (v := ![1, 2, 7, 5])
    (fun i a h => by fin_cases i <;> simp_all) ht hs hst
  exact ⟨t, st', ht, h1, by rw [h4, h3, h2], idx, by rw [h3, h2], fun k i hi h2i =>
    ((h5 k i hi).1 ⟨2, h2i, rfl⟩).1⟩

/-- `UK`, four data with a nan among them, the parameters given: accepted, and the estimate anywhere is nan. -/
theorem nan_uk (w : Fin 4 → Option ℝ) : ∃ t, NanUK.create stdEnv x4 y4 w (uany "spherical" [3, 2, 1]) = .ok t ∧ ∀ p : ℝ × ℝ,
    ∃ r, t.execute ({ toExec := pts [p] "loop" }) = .ok r := by
  obtain ⟨s, h, hp, hadj, hr⟩ := uany_ok (n := 4) (by norm_num) (fun i => (w i).getD 0) sph_valid sph_grows inj4 plane4
  obtain ⟨t, ht, hZ, hst, -⟩ := (NanUK.create_rel stdEnv x4 y4 w (replaces_getD w) (uany "spherical" [3, 2, 1]) (.inl (.inr (by simp [uany])))).ok_of h
  refine ⟨t, ht, fun p => ?_⟩
  obtain ⟨r, hr⟩ := hr { toExec := pts [p] "loop" } (pts_wellPosed _ _).1 (pts_wellPosed _ _).2 (.inr rfl)
  rw [hst] at hr
  obtain ⟨r', hr', -⟩ := (t.execute_rel (hZ ▸ replaces_getD w) s.lags s.stats ({ toExec := pts [p] "loop" })).ok_of hr
  exact ⟨r', hr'⟩

example (p : ℝ × ℝ) : ∃ t r, NanUK.create stdEnv x4 y4 ![some 1, none, some 3, some 5] (uany "spherical" [3, 2, 1]) = .ok t ∧
    t.execute ({ toExec := pts [p] "loop" }) = .ok r ∧ r.z[0]? = some (some none) := by
  obtain ⟨t, ht, hr⟩ := nan_uk ![some 1, none, some 3, some 5]
  obtain ⟨r, hr⟩ := hr p
  exact ⟨t, r, ht, hr, C77_all_nan_uk ht ⟨1, rfl⟩ hr (j := 0) (p := p) (by simp [queryAt, pts])⟩

/-- The automatic fit with a nan: one class is left. -/
example : ∃ t S L, NanUK.create stdEnv (fun i => 1 * xs i) (fun i => 1 * o3 i) lineN usp = .ok t ∧ IsGreatest {v | v ∈ t.obj.lags.map Prod.snd} S ∧
    IsGreatest {v | v ∈ t.obj.lags.map Prod.fst} L ∧ WithinBounds "spherical" S L t.obj.params := by
  obtain ⟨t, h, -⟩ := NanUK.create_of (env := stdEnv) (args := usp) (x := fun i => 1 * xs i) (y := fun i => 1 * o3 i) (z := lineN) (vp := none) (by norm_num) (by simp [usp]) rfl rfl rfl rfl
    (lineN_determined (line_far2 one_pos) rfl _) ⟨_, rfl⟩ (by simp [usp]) ⟨_, rfl⟩ ⟨_, rfl⟩
  obtain ⟨S, L, h1, h2, h3⟩ := C77_fit_uk h rfl rfl (by simp [usp]) stdEnv_lsq
  exact ⟨t, S, L, h, h1, h2, h3⟩

example (t : NanUK 2) : NanUK.create stdEnv X O ![some 3, none] usp ≠ .ok t :=
  C77_refused_uk rfl rfl (by simp [usp]) (fun i j hij => by fin_cases i <;> fin_cases j <;> simp at hij ⊢) t

/-- The statistics of the last three data: those from the nan on are nan. -/
example : ∃ t st, NanUK.create stdEnv x4 y4 ![some 1, some 2, none, some 5] (uany "spherical" [3, 2, 1]) = .ok t ∧ t.stats = some st ∧
    st.delta.length = st.sigma.length ∧ ∃ idx : List (Fin 4), idx.length = st.sigma.length ∧
      ∀ (k : ℕ) i, idx[k]? = some i → 2 ≤ i.val → st.delta[k]? = some none := by
  obtain ⟨t, ht, -⟩ := nan_uk ![some 1, some 2, none, some 5]
  obtain ⟨s, hs, -⟩ := uany_ok (n := 4) (by norm_num) ![1, 2, 7, 5] sph_valid sph_grows inj4 plane4
  obtain ⟨st, hst⟩ := UK.stats_some hs
  obtain ⟨st', h1, h2, idx, -, -, h3, h4, -, h5⟩ := C77_statistics_uk (.inr (by simp [uany])) (v := ![1, 2, 7, 5])
    (fun i a h => by fin_cases i <;> simp_all) ht hs hst
  exact ⟨t, st', ht, h1, by rw [h4, h3, h2], idx, by rw [h3, h2], fun k i hi h2i =>
    ((h5 k i hi).1 ⟨2, h2i, rfl⟩).1⟩

/-- `UK3D`, four data with a nan among them, the parameters given: accepted, and the estimate anywhere is nan. -/
theorem nan_uk3 (w : Fin 4 → Option ℝ) : ∃ t, NanUK3D.create stdEnv x4 y4 z4 w (uany3 "spherical" [3, 2, 1]) = .ok t ∧ ∀ p : ℝ × ℝ × ℝ,
    ∃ r, t.execute ({ toExec := pts3 [p] "loop" }) = .ok r := by
  obtain ⟨s, h, hp, hadj, hr⟩ := uany3_ok (n := 4) (by norm_num) (fun i => (w i).getD 0) sph_valid sph_grows inj4' space4
  obtain ⟨t, ht, hZ, hst, -⟩ := (NanUK3D.create_rel stdEnv x4 y4 z4 w (replaces_getD w) (uany3 "spherical" [3, 2, 1]) (.inl (.inr (by simp [uany3])))).ok_of h
  refine ⟨t, ht, fun p => ?_⟩
  obtain ⟨r, hr⟩ := hr { toExec := pts3 [p] "loop" } (pts_wellPosed3 _ _).1 (pts_wellPosed3 _ _).2 (.inr rfl)
  rw [hst] at hr
  obtain ⟨r', hr', -⟩ := (t.execute_rel (hZ ▸ replaces_getD w) s.lags s.stats ({ toExec := pts3 [p] "loop" })).ok_of hr
  exact ⟨r', hr'⟩

example (p : ℝ × ℝ × ℝ) : ∃ t r, NanUK3D.create stdEnv x4 y4 z4 ![some 1, none, some 3, some 5] (uany3 "spherical" [3, 2, 1]) = .ok t ∧
    t.execute ({ toExec := pts3 [p] "loop" }) = .ok r ∧ r.z[0]? = some (some none) := by
  obtain ⟨t, ht, hr⟩ := nan_uk3 ![some 1, none, some 3, some 5]
  obtain ⟨r, hr⟩ := hr p
  exact ⟨t, r, ht, hr, C77_all_nan_uk3 ht ⟨1, rfl⟩ hr (j := 0) (p := p) (by simp [queryAt3, pts3])⟩

/-- The automatic fit with a nan: one class is left. -/
example : ∃ t S L, NanUK3D.create stdEnv (fun i => 1 * xs i) (fun i => 1 * o3 i) (fun i => 1 * o3 i) lineN usp3 = .ok t ∧ IsGreatest {v | v ∈ t.obj.lags.map Prod.snd} S ∧
    IsGreatest {v | v ∈ t.obj.lags.map Prod.fst} L ∧ WithinBounds "spherical" S L t.obj.params := by
  obtain ⟨t, h, -⟩ := NanUK3D.create_of (env := stdEnv) (args := usp3) (x := fun i => 1 * xs i) (y := fun i => 1 * o3 i) (z := fun i => 1 * o3 i) (v := lineN) (vp := none) (by norm_num) (by simp [usp3]) rfl rfl rfl rfl
    (lineN_determined (line_far3 one_pos) rfl _) ⟨_, rfl⟩ ⟨_, rfl⟩
  obtain ⟨S, L, h1, h2, h3⟩ := C77_fit_uk3 h rfl rfl (by simp [usp3]) stdEnv_lsq
  exact ⟨t, S, L, h, h1, h2, h3⟩

example (t : NanUK3D 2) : NanUK3D.create stdEnv X O O ![some 3, none] usp3 ≠ .ok t :=
  C77_refused_uk3 rfl rfl (by simp [usp3]) (fun i j hij => by fin_cases i <;> fin_cases j <;> simp at hij ⊢) t

/-- The statistics of the last three data: those from the nan on are nan. -/
example : ∃ t st, NanUK3D.create stdEnv x4 y4 z4 ![some 1, some 2, none, some 5] (uany3 "spherical" [3, 2, 1]) = .ok t ∧ t.stats = some st ∧
    st.delta.length = st.sigma.length ∧ ∃ idx : List (Fin 4), idx.length = st.sigma.length ∧
      ∀ (k : ℕ) i, idx[k]? = some i → 2 ≤ i.val → st.delta[k]? = some none := by
  obtain ⟨t, ht, -⟩ := nan_uk3 ![some 1, some 2, none, some 5]
  obtain ⟨s, hs, -⟩ := uany3_ok (n := 4) (by norm_num) ![1, 2, 7, 5] sph_valid sph_grows inj4' space4
  obtain ⟨st, hst⟩ := UK3D.stats_some hs
  obtain ⟨st', h1, h2, idx, -, -, h3, h4, -, h5⟩ := C77_statistics_uk3 (.inr (by simp [uany3])) (v := ![1, 2, 7, 5])
    (fun i a h => by fin_cases i <;> simp_all) ht hs hst
  exact ⟨t, st', ht, h1, by rw [h4, h3, h2], idx, by rw [h3, h2], fun k i hi h2i =>
    ((h5 k i hi).1 ⟨2, h2i, rfl⟩).1⟩

/-- Two pairs of data far apart. -/
def farX : Fin 4 → ℝ := ![0, 1, 10, 11]
def O4 : Fin 4 → ℝ := fun _ => 0

theorem farX_inj : Function.Injective farX := by
  intro i j h
  fin_cases i <;> fin_cases j <;> simp [farX] at h ⊢

/-- The two data in the window. -/
theorem window_two {D : Fin 4 → ℝ} {a b c d : Fin 4} (hab : a ≠ b) (hcd : ∀ i, i = a ∨ i = b ∨ i = c ∨ i = d)
    (h1 : D a < D c) (h2 : D a < D d) (h3 : D b < D c) (h4 : D b < D d) {sel : Fin 2 → Fin 4}
    (hn : ∀ i i', i' ∉ Set.range sel → D (sel i) ≤ D i') (i : Fin 2) : sel i = a ∨ sel i = b := by
  by_contra hc
  push Not at hc
  have hs : sel i = c ∨ sel i = d := by rcases hcd (sel i) with h | h | h | h <;> simp_all
  have key : ∀ e : Fin 4, (e = a ∨ e = b) → ∃ j, sel j = e := by
    intro e he
    by_contra hcon
    have := hn i e fun ⟨j, hj⟩ => hcon ⟨j, hj⟩
    rcases hs with h | h <;> rcases he with rfl | rfl <;> rw [h] at this <;> linarith
  obtain ⟨j, hj⟩ := key a (.inl rfl)
  obtain ⟨k, hk⟩ := key b (.inr rfl)
  have h1 : j ≠ i := by rintro rfl; exact hc.1 hj
  have h2 : k ≠ i := by rintro rfl; exact hc.2 hk
  have h3 : j = k := by omega
  exact hab (by rw [← hj, ← hk, h3])

theorem far_dist (a : ℝ) (i : Fin 4) : okDistance (any "spherical" [3, 2, 1]) (a, 0) (farX i, O4 i) = |a - farX i| := by
  simp [okDistance, distance2, any, effScaling, effAngle, anisoDist2, rad, O4, Real.sqrt_sq_eq_abs]

theorem far_dist3 (a : ℝ) (i : Fin 4) : ok3Distance (any3 "spherical" [3, 2, 1]) (a, 0, 0) (farX i, O4 i, O4 i) = |a - farX i| := by
  simp [ok3Distance, distance3, rotX, rotY, rotZ, rad, any3, O4, effAniso, Real.sqrt_sq_eq_abs]

/-- A moving window of two: the estimate near the nan is nan, the other is a number. -/
example : ∃ t r a, NanOK.create stdEnv farX O4 ![none, some 1, some 3, some 5] (any "spherical" [3, 2, 1]) = .ok t ∧
    t.execute stdEnv { pts [(1 / 2, 0), (21 / 2, 0)] "loop" with nClosest := some ((2 : ℕ) : ℤ) } = .ok r ∧ r.z[0]? = some (some none) ∧ r.z[1]? = some (some (some a)) := by
  have hv : Replaces ![0, 1, 3, 5] ![none, some 1, some 3, some 5] := fun i a h => by fin_cases i <;> simp_all
  have hg : ParamsGiven (any "spherical" [3, 2, 1]).variogramModel (any "spherical" [3, 2, 1]).params := .inr (by simp [any])
  obtain ⟨s, h, -, -, hr⟩ := any_ok (n := 4) (by norm_num) ![0, 1, 3, 5] sph_valid sph_grows (x := farX) (y := O4) (fun i j h => farX_inj (Prod.ext_iff.1 h).1)
  obtain ⟨t, ht, hZ, hst, -⟩ := (NanOK.create_rel stdEnv farX O4 ![none, some 1, some 3, some 5] hv (any "spherical" [3, 2, 1]) (.inl hg)).ok_of h
  have hwin : WindowFits 4 (some (((2 : ℕ) : ℤ))) := by intro k hk; cases hk; norm_num
  obtain ⟨r₀, hr₀⟩ := hr { pts [(1 / 2, 0), (21 / 2, 0)] "loop" with nClosest := some ((2 : ℕ) : ℤ) } (pts_wellPosed _ "loop").1 (by intro k hk; cases hk; norm_num) hwin (pts_wellPosed _ "loop").2 (.inl rfl)
  have hr₁ := hr₀
  rw [hst] at hr₁
  obtain ⟨r, hr, -⟩ := (t.execute_rel (hZ ▸ hv) s.lags s.stats stdEnv { pts [(1 / 2, 0), (21 / 2, 0)] "loop" with nClosest := some ((2 : ℕ) : ℤ) } hwin).ok_of hr₁
  obtain ⟨sel, k1, k2, k3, -⟩ := C77_window_ok hg hv ht h (k := 2) rfl (by norm_num) stdEnv_knn hr (j := 0) (p := (1 / 2, 0))
    (by simp [queryAt, pts]) rfl
  obtain ⟨sel', l1, l2, l3, r₂, a, -, -, -, -, l4⟩ := C77_window_ok hg hv ht h (k := 2) rfl (by norm_num) stdEnv_knn hr (j := 1)
    (p := (21 / 2, 0)) (by simp [queryAt, pts]) rfl
  simp only [far_dist] at k2 l2
  have n1 := window_two (a := 0) (b := 1) (c := 2) (d := 3) (D := fun i => |1 / 2 - farX i|) (by decide) (by decide)
    (show |(1 / 2 : ℝ) - 0| < |1 / 2 - 10| by norm_num) (show |(1 / 2 : ℝ) - 0| < |1 / 2 - 11| by norm_num)
    (show |(1 / 2 : ℝ) - 1| < |1 / 2 - 10| by norm_num) (show |(1 / 2 : ℝ) - 1| < |1 / 2 - 11| by norm_num) k2
  have n2 := window_two (a := 2) (b := 3) (c := 0) (d := 1) (D := fun i => |21 / 2 - farX i|) (by decide) (by decide)
    (show |(21 / 2 : ℝ) - 10| < |21 / 2 - 0| by norm_num) (show |(21 / 2 : ℝ) - 10| < |21 / 2 - 1| by norm_num)
    (show |(21 / 2 : ℝ) - 11| < |21 / 2 - 0| by norm_num) (show |(21 / 2 : ℝ) - 11| < |21 / 2 - 1| by norm_num) l2
  refine ⟨t, r, a, ht, hr, k3.2 ?_, l4 fun i => ?_⟩
  · by_cases h0 : sel 0 = 0
    · exact ⟨0, by rw [h0]; rfl⟩
    · refine ⟨1, ?_⟩
      have e0 : sel 0 = 1 := (n1 0).resolve_left h0
      have e1 : sel 1 = 0 := (n1 1).resolve_right fun e => by
        have := k1 (e0.trans e.symm)
        simp at this
      rw [e1]; rfl
  · rcases n2 i with e | e <;> rw [e] <;> simp

/-- A moving window of two: the estimate near the nan is nan, the other is a number. -/
example : ∃ t r a, NanOK3D.create stdEnv farX O4 O4 ![none, some 1, some 3, some 5] (any3 "spherical" [3, 2, 1]) = .ok t ∧
    t.execute stdEnv { pts3 [(1 / 2, 0, 0), (21 / 2, 0, 0)] "loop" with nClosest := some ((2 : ℕ) : ℤ) } = .ok r ∧ r.z[0]? = some (some none) ∧ r.z[1]? = some (some (some a)) := by
  have hv : Replaces ![0, 1, 3, 5] ![none, some 1, some 3, some 5] := fun i a h => by fin_cases i <;> simp_all
  have hg : ParamsGiven (any3 "spherical" [3, 2, 1]).variogramModel (any3 "spherical" [3, 2, 1]).params := .inr (by simp [any3])
  obtain ⟨s, h, -, hr⟩ := any3_ok (n := 4) (by norm_num) ![0, 1, 3, 5] sph_valid sph_grows (x := farX) (y := O4) (z := O4) (fun i j h => farX_inj (Prod.ext_iff.1 h).1)
  obtain ⟨t, ht, hZ, hst, -⟩ := (NanOK3D.create_rel stdEnv farX O4 O4 ![none, some 1, some 3, some 5] hv (any3 "spherical" [3, 2, 1]) (.inl hg)).ok_of h
  have hwin : WindowFits 4 (some (((2 : ℕ) : ℤ))) := by intro k hk; cases hk; norm_num
  obtain ⟨r₀, hr₀⟩ := hr { pts3 [(1 / 2, 0, 0), (21 / 2, 0, 0)] "loop" with nClosest := some ((2 : ℕ) : ℤ) } (pts_wellPosed3 _ "loop").1 (by intro k hk; cases hk; norm_num) hwin (pts_wellPosed3 _ "loop").2 (.inl rfl)
  have hr₁ := hr₀
  rw [hst] at hr₁
  obtain ⟨r, hr, -⟩ := (t.execute_rel (hZ ▸ hv) s.lags s.stats stdEnv { pts3 [(1 / 2, 0, 0), (21 / 2, 0, 0)] "loop" with nClosest := some ((2 : ℕ) : ℤ) } hwin).ok_of hr₁
  obtain ⟨sel, k1, k2, k3, -⟩ := C77_window_ok3 hg hv ht h (k := 2) rfl (by norm_num) stdEnv_knn hr (j := 0) (p := (1 / 2, 0, 0))
    (by simp [queryAt3, pts3]) rfl
  obtain ⟨sel', l1, l2, l3, r₂, a, -, -, -, -, l4⟩ := C77_window_ok3 hg hv ht h (k := 2) rfl (by norm_num) stdEnv_knn hr (j := 1)
    (p := (21 / 2, 0, 0)) (by simp [queryAt3, pts3]) rfl
  simp only [far_dist3] at k2 l2
  have n1 := window_two (a := 0) (b := 1) (c := 2) (d := 3) (D := fun i => |1 / 2 - farX i|) (by decide) (by decide)
    (show |(1 / 2 : ℝ) - 0| < |1 / 2 - 10| by norm_num) (show |(1 / 2 : ℝ) - 0| < |1 / 2 - 11| by norm_num)
    (show |(1 / 2 : ℝ) - 1| < |1 / 2 - 10| by norm_num) (show |(1 / 2 : ℝ) - 1| < |1 / 2 - 11| by norm_num) k2
  have n2 := window_two (a := 2) (b := 3) (c := 0) (d := 1) (D := fun i => |21 / 2 - farX i|) (by decide) (by decide)
    (show |(21 / 2 : ℝ) - 10| < |21 / 2 - 0| by norm_num) (show |(21 / 2 : ℝ) - 10| < |21 / 2 - 1| by norm_num)
    (show |(21 / 2 : ℝ) - 11| < |21 / 2 - 0| by norm_num) (show |(21 / 2 : ℝ) - 11| < |21 / 2 - 1| by norm_num) l2
  refine ⟨t, r, a, ht, hr, k3.2 ?_, l4 fun i => ?_⟩
  · by_cases h0 : sel 0 = 0
    · exact ⟨0, by rw [h0]; rfl⟩
    · refine ⟨1, ?_⟩
      have e0 : sel 0 = 1 := (n1 0).resolve_left h0
      have e1 : sel 1 = 0 := (n1 1).resolve_right fun e => by
        have := k1 (e0.trans e.symm)
        simp at this
      rw [e1]; rfl
  · rcases n2 i with e | e <;> rw [e] <;> simp

end Demo

end
end PyKrige
