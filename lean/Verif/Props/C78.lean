import Verif.Lemmas.InexactExec
import Verif.Lemmas.InexactExact
import Verif.Lemmas.InexactTo
import Verif.Examples.Demo
import Verif.Examples.Mono

/-!
# C78: the exact results are what accurate machines approach

`executeWith ar` is `execute` with the inverses, pseudo-inverses, solutions and inner products of the machine `ar`, which may
all be inexact (and may fail where the exact ones exist). All other theorems are about `execute`, the case of exact routines.
-/

namespace PyKrige
noncomputable section
open Spec Matrix

/-! ### OK -/

/-- With exact routines: the results all other theorems speak about. -/
theorem C78_exact_ok {n : ℕ} (env : Env) (s : OK n) (args : ExecArgs) :
    s.executeWith exactArith env args = s.execute env args := OK.executeWith_exact env s args

/-- If the exact computation returns `r`, machines of growing precision return in the end, with the same shape and masked
entries, and every estimate and variance tends to that of `r`. -/
theorem C78_limit_ok {n : ℕ} {ar : ℕ → Arith} (ha : Accurate ar) (env : Env) (s : OK n) (args : ExecArgs)
    (hw : WindowFits n args.nClosest) {r : ExecResult} (hr : s.execute env args = .ok r) :
    TendsToResult (fun m => s.executeWith (ar m) env args) r := (OK.execute_lim ha env s args hw).tends hr

/-- For every object, request and error `ε` there is an accuracy `δ` such that every machine of that accuracy returns results
within `ε` of the exact ones. -/
theorem C78_machine_ok {n : ℕ} (env : Env) (s : OK n) (args : ExecArgs)
    (hw : WindowFits n args.nClosest) {r : ExecResult} (hr : s.execute env args = .ok r) {ε : ℝ} (hε : 0 < ε) :
    ∃ δ > 0, ∀ ar, AccurateTo δ ar → ∃ r', s.executeWith ar env args = .ok r' ∧ ResultWithin ε r' r := by
  by_contra hc
  push Not at hc
  choose ar har hbad using fun m : ℕ => hc (1 / ((m : ℝ) + 1)) (by positivity)
  obtain ⟨M, hM⟩ := C78_limit_ok (accurate_of har) env s args hw hr ε hε
  obtain ⟨r', h1, h2⟩ := hM M le_rfl
  exact hbad M r' h1 h2

/-! ### OK3D -/

/-- With exact routines: the results all other theorems speak about. -/
theorem C78_exact_ok3d {n : ℕ} (env : Env) (s : OK3D n) (args : ExecArgs3) :
    s.executeWith exactArith env args = s.execute env args := OK3D.executeWith_exact env s args

/-- If the exact computation returns `r`, machines of growing precision return in the end, with the same shape and masked
entries, and every estimate and variance tends to that of `r`. -/
theorem C78_limit_ok3d {n : ℕ} {ar : ℕ → Arith} (ha : Accurate ar) (env : Env) (s : OK3D n) (args : ExecArgs3)
    (hw : WindowFits n args.nClosest) {r : ExecResult} (hr : s.execute env args = .ok r) :
    TendsToResult (fun m => s.executeWith (ar m) env args) r := (OK3D.execute_lim ha env s args hw).tends hr

/-- For every object, request and error `ε` there is an accuracy `δ` such that every machine of that accuracy returns results
within `ε` of the exact ones. -/
theorem C78_machine_ok3d {n : ℕ} (env : Env) (s : OK3D n) (args : ExecArgs3)
    (hw : WindowFits n args.nClosest) {r : ExecResult} (hr : s.execute env args = .ok r) {ε : ℝ} (hε : 0 < ε) :
    ∃ δ > 0, ∀ ar, AccurateTo δ ar → ∃ r', s.executeWith ar env args = .ok r' ∧ ResultWithin ε r' r := by
  by_contra hc
  push Not at hc
  choose ar har hbad using fun m : ℕ => hc (1 / ((m : ℝ) + 1)) (by positivity)
  obtain ⟨M, hM⟩ := C78_limit_ok3d (accurate_of har) env s args hw hr ε hε
  obtain ⟨r', h1, h2⟩ := hM M le_rfl
  exact hbad M r' h1 h2

/-! ### UK -/

/-- With exact routines: the results all other theorems speak about. -/
theorem C78_exact_uk {n : ℕ} (s : UK n) (args : UKExecArgs) :
    s.executeWith exactArith args = s.execute args := UK.executeWith_exact s args

/-- If the exact computation returns `r`, machines of growing precision return in the end, with the same shape and masked
entries, and every estimate and variance tends to that of `r`. -/
theorem C78_limit_uk {n : ℕ} {ar : ℕ → Arith} (ha : Accurate ar) (s : UK n) (args : UKExecArgs)
    {r : ExecResult} (hr : s.execute args = .ok r) :
    TendsToResult (fun m => s.executeWith (ar m) args) r := (UK.execute_lim ha s args).tends hr

/-- For every object, request and error `ε` there is an accuracy `δ` such that every machine of that accuracy returns results
within `ε` of the exact ones. -/
theorem C78_machine_uk {n : ℕ} (s : UK n) (args : UKExecArgs)
    {r : ExecResult} (hr : s.execute args = .ok r) {ε : ℝ} (hε : 0 < ε) :
    ∃ δ > 0, ∀ ar, AccurateTo δ ar → ∃ r', s.executeWith ar args = .ok r' ∧ ResultWithin ε r' r := by
  by_contra hc
  push Not at hc
  choose ar har hbad using fun m : ℕ => hc (1 / ((m : ℝ) + 1)) (by positivity)
  obtain ⟨M, hM⟩ := C78_limit_uk (accurate_of har) s args hr ε hε
  obtain ⟨r', h1, h2⟩ := hM M le_rfl
  exact hbad M r' h1 h2

/-! ### UK3D -/

/-- With exact routines: the results all other theorems speak about. -/
theorem C78_exact_uk3d {n : ℕ} (s : UK3D n) (args : UK3DExecArgs) :
    s.executeWith exactArith args = s.execute args := UK3D.executeWith_exact s args

/-- If the exact computation returns `r`, machines of growing precision return in the end, with the same shape and masked
entries, and every estimate and variance tends to that of `r`. -/
theorem C78_limit_uk3d {n : ℕ} {ar : ℕ → Arith} (ha : Accurate ar) (s : UK3D n) (args : UK3DExecArgs)
    {r : ExecResult} (hr : s.execute args = .ok r) :
    TendsToResult (fun m => s.executeWith (ar m) args) r := (UK3D.execute_lim ha s args).tends hr

/-- For every object, request and error `ε` there is an accuracy `δ` such that every machine of that accuracy returns results
within `ε` of the exact ones. -/
theorem C78_machine_uk3d {n : ℕ} (s : UK3D n) (args : UK3DExecArgs)
    {r : ExecResult} (hr : s.execute args = .ok r) {ε : ℝ} (hε : 0 < ε) :
    ∃ δ > 0, ∀ ar, AccurateTo δ ar → ∃ r', s.executeWith ar args = .ok r' ∧ ResultWithin ε r' r := by
  by_contra hc
  push Not at hc
  choose ar har hbad using fun m : ℕ => hc (1 / ((m : ℝ) + 1)) (by positivity)
  obtain ⟨M, hM⟩ := C78_limit_uk3d (accurate_of har) s args hr ε hε
  obtain ⟨r', h1, h2⟩ := hM M le_rfl
  exact hbad M r' h1 h2

/-! ### A machine with errors everywhere -/

namespace Demo

/-- A machine all of whose results are too large, by a factor `1 + δ` (sums) or `1 + δ ^ 2` (inverses, solutions). -/
def tooLarge (δ : ℝ) : Arith where
  inv A := (fun B => (1 + δ ^ 2) • B) <$> scipyInv A
  pinv A := .ok ((1 + δ ^ 2) • scipyPinv A)
  pinvh A := .ok ((1 + δ ^ 2) • scipyPinvh A)
  solve A b := (fun x => (1 + δ ^ 2) • x) <$> scipySolve A b
  dgesv A b := (fun x => (1 + δ ^ 2) • x) <$> dgesv A b
  dot x y := (1 + δ) * ∑ i, x i * y i

theorem tooLarge_entry {δ b : ℝ} (hδ : 0 < δ) (hb : |b| ≤ 1 / δ) : |(1 + δ ^ 2) * b - b| ≤ δ := by
  have e : (1 + δ ^ 2) * b - b = δ ^ 2 * b := by ring
  rw [e, abs_mul, abs_of_nonneg (by positivity : 0 ≤ δ ^ 2)]
  calc δ ^ 2 * |b| ≤ δ ^ 2 * (1 / δ) := mul_le_mul_of_nonneg_left hb (by positivity)
    _ = δ := by field_simp

theorem tooLarge_accurate {δ : ℝ} (hδ : 0 < δ) : AccurateTo δ (tooLarge δ) where
  inv A B hB _ h2 := by
    refine ⟨(1 + δ ^ 2) • B, ?_, fun i j => tooLarge_entry hδ (h2 i j)⟩
    show _ <$> scipyInv A = _
    rw [hB]
    rfl
  pinv A _ h2 := ⟨_, rfl, fun i j => tooLarge_entry hδ (h2 i j)⟩
  pinvh A _ h2 := ⟨_, rfl, fun i j => tooLarge_entry hδ (h2 i j)⟩
  solve A b x hx _ _ _ h4 := by
    refine ⟨(1 + δ ^ 2) • x, ?_, fun i => tooLarge_entry hδ (h4 i)⟩
    show _ <$> scipySolve A b = _
    rw [hx]
    rfl
  dgesv A b x hx _ _ _ h4 := by
    refine ⟨(1 + δ ^ 2) • x, ?_, fun i => tooLarge_entry hδ (h4 i)⟩
    show _ <$> PyKrige.dgesv A b = _
    rw [hx]
    rfl
  dot x y _ := by
    show |(1 + δ) * ∑ i, x i * y i - ∑ i, x i * y i| ≤ _
    have e : (1 + δ) * ∑ i, x i * y i - ∑ i, x i * y i = δ * ∑ i, x i * y i := by ring
    rw [e, abs_mul, abs_of_pos hδ]
    exact mul_le_mul_of_nonneg_left (Finset.abs_sum_le_sum_abs _ _) hδ.le

/-- The machines `tooLarge 1`, `tooLarge (1 / 2)`, … -/
theorem tooLarge_tends : Accurate fun m => tooLarge (1 / ((m : ℝ) + 1)) := accurate_of fun _ => tooLarge_accurate (by positivity)

end Demo

/-- A moving window of two of four data, by the loop and by the C extension: every accurate enough machine comes within
1/100. -/
example (z : Fin 4 → ℝ) {b : String} (hb : b = "loop" ∨ b = "C") : ∃ s r δ,
    OK.create stdEnv Demo.x4 Demo.y4 z (Demo.any "spherical" [3, 2, 1]) = .ok s ∧
    s.execute stdEnv { Demo.pts [(1 / 4, 1 / 8)] b with nClosest := some 2 } = .ok r ∧ 0 < δ ∧
    (∀ ar, AccurateTo δ ar → ∃ r', s.executeWith ar stdEnv { Demo.pts [(1 / 4, 1 / 8)] b with nClosest := some 2 } = .ok r' ∧
      ResultWithin (1 / 100) r' r) ∧ AccurateTo δ (Demo.tooLarge δ) := by
  obtain ⟨s, h, hp, ha, hr⟩ := Demo.any_ok (n := 4) (by norm_num) z Demo.sph_valid Demo.sph_grows Demo.inj4
  have hw := Demo.pts_wellPosed [(1 / 4, 1 / 8)] b
  obtain ⟨r, hr⟩ := hr { Demo.pts [(1 / 4, 1 / 8)] b with nClosest := some 2 } hw.1
    (by intro k hk; cases hk; norm_num) (by intro k hk; cases hk; norm_num) hw.2 (by
      rcases hb with rfl | rfl
      · exact .inl rfl
      · exact .inr (.inr ⟨rfl, .inr ⟨⟨"spherical", by simp [compiledModels], rfl⟩, .inr rfl⟩⟩))
  obtain ⟨δ, hδ, hm⟩ := C78_machine_ok stdEnv s _ (by intro k hk; cases hk; norm_num) hr (by norm_num : (0 : ℝ) < 1 / 100)
  exact ⟨s, r, δ, h, hr, hδ, hm, Demo.tooLarge_accurate hδ⟩

/-- Two data, any backend, any points: there are results, and the machines `tooLarge` approach them. -/
example (z : Fin 2 → ℝ) (l : List (ℝ × ℝ)) {b : String} (hb : b = "vectorized" ∨ b = "loop" ∨ b = "C") (p : Bool) :
    ∃ s r, OK.create stdEnv Demo.X Demo.O z (Demo.args 1 true p) = .ok s ∧ s.execute stdEnv (Demo.pts l b) = .ok r ∧
      TendsToResult (fun m => s.executeWith (Demo.tooLarge (1 / ((m : ℝ) + 1))) stdEnv (Demo.pts l b)) r := by
  obtain ⟨s, hs, -⟩ := Demo.ok z 1 true p
  obtain ⟨ha, r, hr⟩ := Demo.ok_run zero_le_one hs l hb
  exact ⟨s, r, hs, hr, C78_limit_ok Demo.tooLarge_tends _ _ _ ha.window hr⟩

example (v : Fin 2 → ℝ) (l : List (ℝ × ℝ × ℝ)) {b : String} (hb : b = "vectorized" ∨ b = "loop") (p : Bool) :
    ∃ s r, OK3D.create stdEnv Demo.X Demo.O Demo.O v (Demo.args3 1 true p) = .ok s ∧ s.execute stdEnv (Demo.pts3 l b) = .ok r ∧
      TendsToResult (fun m => s.executeWith (Demo.tooLarge (1 / ((m : ℝ) + 1))) stdEnv (Demo.pts3 l b)) r := by
  obtain ⟨s, hs, -⟩ := Demo.ok3 v 1 true p
  obtain ⟨ha, r, hr⟩ := Demo.ok3_run zero_le_one hs l hb
  exact ⟨s, r, hs, hr, C78_limit_ok3d Demo.tooLarge_tends _ _ _ ha hr⟩

example (z : Fin 2 → ℝ) (l : List (ℝ × ℝ)) {b : String} (hb : b = "vectorized" ∨ b = "loop") (p : Bool) :
    ∃ s r, UK.create stdEnv Demo.X Demo.O z (Demo.uargs 1 true p) = .ok s ∧ s.execute { toExec := Demo.pts l b } = .ok r ∧
      TendsToResult (fun m => s.executeWith (Demo.tooLarge (1 / ((m : ℝ) + 1))) { toExec := Demo.pts l b }) r := by
  obtain ⟨s, hs, -⟩ := Demo.uk z 1 true p
  obtain ⟨r, hr⟩ := Demo.uk_run hs l hb
  exact ⟨s, r, hs, hr, C78_limit_uk Demo.tooLarge_tends _ _ hr⟩

example (v : Fin 2 → ℝ) (l : List (ℝ × ℝ × ℝ)) {b : String} (hb : b = "vectorized" ∨ b = "loop") (p : Bool) :
    ∃ s r, UK3D.create stdEnv Demo.X Demo.O Demo.O v (Demo.uargs3 1 true p) = .ok s ∧
      s.execute { toExec := Demo.pts3 l b } = .ok r ∧
      TendsToResult (fun m => s.executeWith (Demo.tooLarge (1 / ((m : ℝ) + 1))) { toExec := Demo.pts3 l b }) r := by
  obtain ⟨s, hs, -⟩ := Demo.uk3 v 1 true p
  obtain ⟨r, hr⟩ := Demo.uk3_run hs l hb
  exact ⟨s, r, hs, hr, C78_limit_uk3d Demo.tooLarge_tends _ _ hr⟩

end
end PyKrige
