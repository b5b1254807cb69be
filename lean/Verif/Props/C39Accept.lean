import Verif.Props.C29
import Verif.Examples.More

/-!
# C39: with `pseudo_inv=True` no data are refused

Whatever the positions of the data (all at one place, collinear, repeated) and whatever the drift terms, with the pseudo-inverse
neither the constructor nor `execute` with all data meets a singular matrix.  (The moving windows ignore the option, and may.)
-/

set_option linter.unusedSectionVars false

namespace PyKrige
noncomputable section
open Spec

/-- Statistics and lags with the pseudo-inverse can always be computed. -/
theorem determined_of_pseudo {n : ℕ} {env : Env} (hn : 2 ≤ n) {d : ℕ} {ct : String} (hct : ct = "euclidean" ∨ ct = "geographic" ∧ d = 2)
    {D : Fin n → Fin n → ℝ} {z : Fin n → ℝ} {m : String}
    {l : List ℝ} (hv : ValidModel m (listMeaning m l)) {γ : ℝ → ℝ} {f : VFun}
    (hf : f (listMeaning m l) = .ok γ) (nlags : ℕ) (weight stats : Bool) :
    Determined env d ct D z m (some (listMeaning m l)) f nlags weight stats true := by
  intro X hX
  obtain ⟨lags, hl⟩ := initialize_of_given (env := env) hn hct X z (makeParams_list hv) f nlags weight
  exact ⟨lags, _, hl, fun _ => findStatistics_ok hct hf (fun i hi => .inl rfl) z⟩

/-- With the pseudo-inverse the `OrdinaryKriging` constructor accepts any two or more data. -/
theorem C39_create_2d {n : ℕ} (env : Env) (hn : 2 ≤ n) (x y z : Fin n → ℝ) (args : OKArgs) (hp : args.pseudoInv = true)
    (hpt : args.pseudoInvType ∈ ["pinv", "pinvh"]) {b : Bool} (hex : args.exactValues = .bool b)
    (hct : args.coordinatesType = "euclidean" ∨ args.coordinatesType = "geographic")
    {m : String} (hm : args.variogramModel = .name m) {l : List ℝ} (hpa : args.params = .list l)
    (hv : ValidModel m (listMeaning m l)) :
    ∃ s, OK.create env x y z args = .ok s ∧ s.params = listMeaning m l := by
  obtain ⟨hmb, -, -, γ, hγ, -⟩ := hv.builtin
  obtain ⟨f, hf, hfe⟩ := chooseFunction_builtin hγ hmb args.variogramFunction
  obtain ⟨s, hs', -, -, hps⟩ := OK.create_of  (env := env) (z := z) hn hpt hex (by rw [hm]; rfl) hf hct
    (hpa ▸ makeParams_list hv) (by rw [hp]; exact determined_of_pseudo hn (hct.imp id fun h => ⟨h, rfl⟩) hv hfe _ _ _)
  exact ⟨s, hs', hps _ rfl⟩

/-- With the pseudo-inverse `OrdinaryKriging.execute` answers every well-posed request, wherever the data are. -/
theorem C39_execute_2d {n : ℕ} {env : Env} {x y z : Fin n → ℝ} {args : OKArgs} {s : OK n}
    (h : OK.create env x y z args = .ok s) (hp : args.pseudoInv = true)
    {m : String} (hm : args.variogramModel = .name m) (hv : ValidModel m s.params) {ea : ExecArgs}
    (ha : Admissible env args s ea.nClosest) (hw : ea.nClosest = none) (hq : WellPosed ea) (hi : HasFloats ea)
    (hb : Supports env args ea.nClosest ea.backend) :
    ∃ r, s.execute env ea = .ok r := by
  obtain ⟨hmb, -, -, γ, hγ, -⟩ := hv.builtin
  obtain ⟨hev, -⟩ := chosen_evaluates hγ hmb (OK.create_function h hm)
  exact OK.accept h ha hev hq (fun k hk => by rw [hw] at hk; cases hk) (fun _ => hi) hb (fun _ => .inl hp) fun k hk => by rw [hw] at hk; cases hk

/-- With the pseudo-inverse the `OrdinaryKriging3D` constructor accepts any two or more data. -/
theorem C39_create_3d {n : ℕ} (env : Env) (hn : 2 ≤ n) (x y z v : Fin n → ℝ) (args : OK3DArgs) (hp : args.pseudoInv = true)
    (hpt : args.pseudoInvType ∈ ["pinv", "pinvh"]) {b : Bool} (hex : args.exactValues = .bool b)
    {m : String} (hm : args.variogramModel = .name m) {l : List ℝ} (hpa : args.params = .list l)
    (hv : ValidModel m (listMeaning m l)) :
    ∃ s, OK3D.create env x y z v args = .ok s ∧ s.params = listMeaning m l := by
  obtain ⟨hmb, -, -, γ, hγ, -⟩ := hv.builtin
  obtain ⟨f, hf, hfe⟩ := chooseFunction_builtin hγ hmb args.variogramFunction
  obtain ⟨s, hs', -, -, hps⟩ := OK3D.create_of (env := env) (x := x) (y := y) (z := z) (v := v) hn hpt hex (by rw [hm]; rfl) hf
    (hpa ▸ makeParams_list hv) (by rw [hp]; exact determined_of_pseudo hn (.inl rfl) hv hfe _ _ _)
  exact ⟨s, hs', hps _ rfl⟩

/-- With the pseudo-inverse `OrdinaryKriging3D.execute` answers every well-posed request, wherever the data are. -/
theorem C39_execute_3d {n : ℕ} {env : Env} {x y z v : Fin n → ℝ} {args : OK3DArgs} {s : OK3D n}
    (h : OK3D.create env x y z v args = .ok s) (hp : args.pseudoInv = true)
    {m : String} (hm : args.variogramModel = .name m) (hv : ValidModel m s.params) {ea : ExecArgs3}
    (hk : KnnSpec env) (hw : ea.nClosest = none) (hq : WellPosed3 ea)
    (hi : HasFloats3 ea) (hb : ea.backend = "loop" ∨ ea.backend = "vectorized") :
    ∃ r, s.execute env ea = .ok r := by
  obtain ⟨hmb, -, -, γ, hγ, -⟩ := hv.builtin
  obtain ⟨hev, -⟩ := chosen_evaluates hγ hmb (OK3D.create_function h hm)
  exact OK3D.accept h hk (fun k hk => by rw [hw] at hk; cases hk) hev hq (fun k hk => by rw [hw] at hk; cases hk) hi (hb.imp id fun h => ⟨hw, h⟩) (fun _ => .inl hp) fun k hk => by rw [hw] at hk; cases hk

/-- With the pseudo-inverse the `UniversalKriging` constructor accepts any two or more data. -/
theorem C39_create_uk {n : ℕ} (env : Env) (hn : 2 ≤ n) (x y z : Fin n → ℝ) (args : UKArgs) (hp : args.pseudoInv = true)
    (hpt : args.pseudoInvType ∈ ["pinv", "pinvh"]) {b : Bool} (hex : args.exactValues = .bool b)
    {m : String} (hm : args.variogramModel = .name m) {l : List ℝ} (hpa : args.params = .list l)
    (hv : ValidModel m (listMeaning m l))
    (h1 : ∀ i, ExternalCovers args (x i, y i))
    (h2 : "point_log" ∈ args.driftTerms → args.pointDrift ≠ none ∧ args.pointDriftInt = false)
    (h3 : "specified" ∈ args.driftTerms → ∃ l, args.specifiedDrift = .list l ∧ l ≠ [] ∧ ∀ t ∈ l, t.length = n)
    (h4 : "functional" ∈ args.driftTerms → ∃ l, args.functionalDrift = .list l ∧ l ≠ []) :
    ∃ s, UK.create env x y z args = .ok s ∧ s.params = listMeaning m l := by
  obtain ⟨hmb, -, -, γ, hγ, -⟩ := hv.builtin
  obtain ⟨f, hf, hfe⟩ := chooseFunction_builtin hγ hmb args.variogramFunction
  obtain ⟨s, hs', -, -, hps⟩ := UK.create_of (env := env) (x := x) (y := y) (z := z) hn hpt hex (by rw [hm]; rfl) hf
    (hpa ▸ makeParams_list hv) (by rw [hp]; exact determined_of_pseudo hn (.inl rfl) hv hfe _ _ _) (setupExternalZ_ok (by omega) h1) h2 (setupSpecifiedTerm_ok h3) (setupFunctionalTerm_ok h4)
  exact ⟨s, hs', hps _ rfl⟩

/-- With the pseudo-inverse `UniversalKriging.execute` answers every well-posed request, wherever the data are. -/
theorem C39_execute_uk {n : ℕ} {env : Env} {x y z : Fin n → ℝ} {args : UKArgs} {s : UK n}
    (h : UK.create env x y z args = .ok s) (hp : args.pseudoInv = true)
    {m : String} (hm : args.variogramModel = .name m) (hv : ValidModel m s.params) {ea : UKExecArgs}
    (hq : WellPosed ea.toExec) (hi : HasFloats ea.toExec) (hsp : SpecFits args ea)
    (hb : ea.toExec.backend = "vectorized" ∨ ea.toExec.backend = "loop" ∧ "specified" ∉ args.driftTerms ∧
      ∀ j p, queryAt ea.toExec j = some p → maskedAt ea.toExec j = false →
        ¬ AtWell args s.anisotropyScaling s.anisotropyAngle p)
    (he : ∀ j p, queryAt ea.toExec j = some p → (maskedAt ea.toExec j = false ∨ ea.toExec.backend = "vectorized") →
      ExternalCovers args p) :
    ∃ r, s.execute ea = .ok r := by
  obtain ⟨hmb, -, -, γ, hγ, -⟩ := hv.builtin
  obtain ⟨hev, -⟩ := chosen_evaluates hγ hmb (UK.create_function h hm)
  exact UK.accept h hev hq hi hsp hb he (.inl hp)

/-- With the pseudo-inverse the `UniversalKriging3D` constructor accepts any two or more data. -/
theorem C39_create_uk3d {n : ℕ} (env : Env) (hn : 2 ≤ n) (x y z v : Fin n → ℝ) (args : UK3DArgs) (hp : args.pseudoInv = true)
    (hpt : args.pseudoInvType ∈ ["pinv", "pinvh"]) {b : Bool} (hex : args.exactValues = .bool b)
    {m : String} (hm : args.variogramModel = .name m) {l : List ℝ} (hpa : args.params = .list l)
    (hv : ValidModel m (listMeaning m l))
    (h3 : "specified" ∈ args.driftTerms → ∃ l, args.specifiedDrift = .list l ∧ l ≠ [] ∧ ∀ t ∈ l, t.length = n)
    (h4 : "functional" ∈ args.driftTerms → ∃ l, args.functionalDrift = .list l ∧ l ≠ []) :
    ∃ s, UK3D.create env x y z v args = .ok s ∧ s.params = listMeaning m l := by
  obtain ⟨hmb, -, -, γ, hγ, -⟩ := hv.builtin
  obtain ⟨f, hf, hfe⟩ := chooseFunction_builtin hγ hmb args.variogramFunction
  obtain ⟨s, hs', -, -, hps⟩ := UK3D.create_of (env := env) (x := x) (y := y) (z := z) (v := v) hn hpt hex (by rw [hm]; rfl) hf
    (hpa ▸ makeParams_list hv) (by rw [hp]; exact determined_of_pseudo hn (.inl rfl) hv hfe _ _ _) (setupSpecifiedTerm_ok h3) (setupFunctionalTerm_ok h4)
  exact ⟨s, hs', hps _ rfl⟩

/-- With the pseudo-inverse `UniversalKriging3D.execute` answers every well-posed request, wherever the data are. -/
theorem C39_execute_uk3d {n : ℕ} {env : Env} {x y z v : Fin n → ℝ} {args : UK3DArgs} {s : UK3D n}
    (h : UK3D.create env x y z v args = .ok s) (hp : args.pseudoInv = true)
    {m : String} (hm : args.variogramModel = .name m) (hv : ValidModel m s.params) {ea : UK3DExecArgs}
    (hq : WellPosed3 ea.toExec) (hi : HasFloats3 ea.toExec) (hsp : SpecFits3 args ea)
    (hb : ea.toExec.backend = "vectorized" ∨ ea.toExec.backend = "loop" ∧ "specified" ∉ args.driftTerms) :
    ∃ r, s.execute ea = .ok r := by
  obtain ⟨hmb, -, -, γ, hγ, -⟩ := hv.builtin
  obtain ⟨hev, -⟩ := chosen_evaluates hγ hmb (UK3D.create_function h hm)
  exact UK3D.accept h hev hq hi hsp hb (.inl hp)

namespace Demo

theorem slope_valid : ValidModel "linear" (listMeaning "linear" [2, 0]) :=
  .inl ⟨2, 0, rfl, by simp [listMeaning], by norm_num, by norm_num⟩

theorem slope_grows : Growing (listMeaning "linear" [2, 0]) := ⟨2, [0], by simp [listMeaning], by norm_num⟩

/-- Three data at one place, with a linear drift. -/
example (z : Fin 3 → ℝ) (l : List (ℝ × ℝ)) : ∃ s r, UK.create stdEnv 0 0 z { uany "linear" [2, 0] with pseudoInv := true } = .ok s ∧
    s.execute { toExec := pts l "loop" } = .ok r := by
  obtain ⟨s, h, hps⟩ := C39_create_uk stdEnv (by norm_num) (0 : Fin 3 → ℝ) 0 z { uany "linear" [2, 0] with pseudoInv := true } rfl
    (by simp [uany]) rfl rfl rfl slope_valid (fun i hc => by simp [uany] at hc) (fun hc => by simp [uany] at hc)
    (fun hc => by simp [uany] at hc) (fun hc => by simp [uany] at hc)
  obtain ⟨h1, h2⟩ := pts_wellPosed l "loop"
  obtain ⟨r, hr⟩ := C39_execute_uk h rfl rfl (hps ▸ slope_valid) (ea := { toExec := pts l "loop" }) h1 h2
    (fun hc => by simp [uany] at hc)
    (.inr ⟨rfl, by simp [uany], fun j p _ _ hc => by simp [AtWell, uany] at hc⟩)
    (fun j p _ _ hc => by simp [uany] at hc)
  exact ⟨s, r, h, hr⟩

example (v : Fin 3 → ℝ) (l : List (ℝ × ℝ × ℝ)) : ∃ s r, UK3D.create stdEnv 0 0 0 v { uany3 "linear" [2, 0] with pseudoInv := true } = .ok s ∧
    s.execute { toExec := pts3 l "loop" } = .ok r := by
  obtain ⟨s, h, hps⟩ := C39_create_uk3d stdEnv (by norm_num) (0 : Fin 3 → ℝ) 0 0 v { uany3 "linear" [2, 0] with pseudoInv := true } rfl
    (by simp [uany3]) rfl rfl rfl slope_valid
    (fun hc => by simp [uany3] at hc) (fun hc => by simp [uany3] at hc)
  obtain ⟨h1, h2⟩ := pts_wellPosed3 l "loop"
  obtain ⟨r, hr⟩ := C39_execute_uk3d h rfl rfl (hps ▸ slope_valid) (ea := { toExec := pts3 l "loop" }) h1 h2
    (fun hc => by simp [uany3] at hc)
    (.inr ⟨rfl, by simp [uany3]⟩)
  exact ⟨s, r, h, hr⟩

/-- Three data at one place of the globe. -/
example (z : Fin 3 → ℝ) (l : List (ℝ × ℝ)) : ∃ s r, OK.create stdEnv 0 0 z { any "spherical" [3, 2, 1] with pseudoInv := true, coordinatesType := "geographic" } = .ok s ∧
    s.execute stdEnv (pts l "vectorized") = .ok r := by
  obtain ⟨s, h, hps⟩ := C39_create_2d stdEnv (by norm_num) (0 : Fin 3 → ℝ) 0 z { any "spherical" [3, 2, 1] with pseudoInv := true, coordinatesType := "geographic" } rfl
    (by simp [any]) rfl (.inr rfl) rfl rfl sph_valid
  obtain ⟨h1, h2⟩ := pts_wellPosed l "vectorized"
  obtain ⟨r, hr⟩ := C39_execute_2d h rfl rfl (hps ▸ sph_valid) (ea := pts l "vectorized")
    ⟨stdEnv_knn, trivial, fun _ => by rw [hps]; simp [listMeaning], by simp [WindowFits, pts]⟩ rfl h1 h2
    (.inr (.inl ⟨rfl, rfl⟩))
  exact ⟨s, r, h, hr⟩

example (v : Fin 3 → ℝ) (l : List (ℝ × ℝ × ℝ)) : ∃ s r, OK3D.create stdEnv 0 0 0 v { any3 "linear" [2, 0] with pseudoInv := true } = .ok s ∧
    s.execute stdEnv (pts3 l "vectorized") = .ok r := by
  obtain ⟨s, h, hps⟩ := C39_create_3d stdEnv (by norm_num) (0 : Fin 3 → ℝ) 0 0 v { any3 "linear" [2, 0] with pseudoInv := true } rfl
    (by simp [any3]) rfl rfl rfl slope_valid
  obtain ⟨h1, h2⟩ := pts_wellPosed3 l "vectorized"
  obtain ⟨r, hr⟩ := C39_execute_3d h rfl rfl (hps ▸ slope_valid) (ea := pts3 l "vectorized") stdEnv_knn rfl h1 h2 (.inr rfl)
  exact ⟨s, r, h, hr⟩

end Demo

end
end PyKrige
