import Verif.Props.C47Unique
import Verif.Props.C48
import Verif.Lemmas.Sequential

/-!
# C61: what one more datum changes

`s'` has all data, `s` all but datum number `o` (`o.succAbove i` is the number of the `i`-th of the others).  With the same
variogram the two objects are related, at every location, by the weight `c` datum `o` gets there: the estimate changes by
`c` times the error of predicting datum `o` from the others, the variance decreases by `c²` times the variance of that
prediction.  In particular a datum that was predicted rightly changes no estimate.
-/

set_option linter.unusedSectionVars false

namespace PyKrige
noncomputable section
open Matrix Spec

theorem okDistance_comm (args : OKArgs) (p q : ℝ × ℝ) : okDistance args p q = okDistance args q p := by
  unfold okDistance distance2 anisoDist2 sphereDist
  rw [InnerProductGeometry.angle_comm]
  split
  · ring_nf
  · rfl

theorem ukDistance_comm (args : UKArgs) (p q : ℝ × ℝ) : ukDistance args p q = ukDistance args q p := by
  unfold ukDistance anisoDist2
  dsimp only
  congr 1; ring

section
variable {n L : ℕ} {γ : ℝ → ℝ} {exact : Bool} {α : Type} {dist : α → α → ℝ} {P : Fin (n + 1) → α} {o : Fin (n + 1)} {q : α}
  {F : Fin L → Fin (n + 1) → ℝ} {f : Fin L → ℝ} {z : Fin (n + 1) → ℝ} {est var : ℝ}

theorem one_more (hsym : ∀ a b, dist a b = dist b a)
    (hc : exact = true → ∀ i, 1 / 10 ^ 10 < dist (P o) (P (o.succAbove i)))
    (hu : ∀ w ν μ, KrigingEqs (semivar γ fun i k => dist (P (o.succAbove i)) (P (o.succAbove k))) (fun l i => F l (o.succAbove i))
        (semivarTo exact γ fun i => dist q (P (o.succAbove i))) f 1 w ν μ →
      est = estimate w (fun i => z (o.succAbove i)) ∧
        var = krigingVariance (semivarTo exact γ fun i => dist q (P (o.succAbove i))) f w ν μ)
    {w : Fin (n + 1) → ℝ} {ν : Fin L → ℝ} {μ : ℝ}
    (e : KrigingEqs (semivar γ fun i k => dist (P i) (P k)) F (semivarTo exact γ fun i => dist q (P i)) f 1 w ν μ)
    {v : Fin n → ℝ} {η : Fin L → ℝ} {β : ℝ}
    (eo : KrigingEqs (semivar γ fun i k => dist (P (o.succAbove i)) (P (o.succAbove k))) (fun l i => F l (o.succAbove i))
      (semivarTo exact γ fun i => dist (P o) (P (o.succAbove i))) (fun l => F l o) 1 v η β) :
    estimate w z = est + w o * (z o - estimate v fun i => z (o.succAbove i)) ∧
      krigingVariance (semivarTo exact γ fun i => dist q (P i)) f w ν μ =
        var - w o ^ 2 * krigingVariance (semivarTo exact γ fun i => dist (P o) (P (o.succAbove i))) (fun l => F l o) v η β := by
  have h1 : (semivar γ fun i k => dist (P (o.succAbove i)) (P (o.succAbove k))) =
      fun i k => semivar γ (fun i k => dist (P i) (P k)) (o.succAbove i) (o.succAbove k) := by
    funext i k
    exact (semivar_embed γ dist (x := fun i => P (o.succAbove i)) (x' := P) Fin.succAbove_right_injective (fun _ => rfl) i k).symm
  have h2 : (semivarTo exact γ fun i => dist (P o) (P (o.succAbove i))) =
      fun i => semivar γ (fun i k => dist (P i) (P k)) (o.succAbove i) o := by
    funext i
    unfold semivarTo semivar
    rw [if_neg (fun h => absurd h.2 (not_le.2 (hc h.1 i))), if_neg (Fin.succAbove_ne o i)]
    exact congrArg γ (hsym _ _)
  have h3 : (semivarTo exact γ fun i => dist q (P (o.succAbove i))) =
      fun i => semivarTo exact γ (fun i => dist q (P i)) (o.succAbove i) := rfl
  rw [h1, h2] at eo
  rw [h1, h3] at hu
  rw [h2]
  obtain ⟨e1, e2⟩ := hu _ _ _ (e.drop eo)
  refine ⟨?_, ?_⟩
  · rw [e1]; exact estimate_drop z
  · rw [e2]
    refine e.variance_drop (fun i k => ?_) ?_ eo
    · unfold semivar
      by_cases hik : i = k
      · rw [if_pos hik, if_pos hik.symm]
      · rw [if_neg hik, if_neg (Ne.symm hik)]
        exact congrArg γ (hsym _ _)
    · exact if_pos rfl

end

/-- `OrdinaryKriging`: `s` without and `s'` with datum `o`; both are asked for the location `q`, and `s` for the location of
datum `o`.  (With exact values the other data must not be taken for datum `o`.) -/
theorem C61_one_more_2d {n : ℕ} {env : Env} {x y z : Fin (n + 1) → ℝ} {args : OKArgs} {o : Fin (n + 1)}
    {s : OK n} {s' : OK (n + 1)}
    (h : OK.create env (fun i => x (o.succAbove i)) (fun i => y (o.succAbove i)) (fun i => z (o.succAbove i)) args = .ok s)
    (h' : OK.create env x y z args = .ok s') (hp : args.pseudoInv = false)
    {γ : ℝ → ℝ} (hγ : s.variogramFunction s.params = .ok γ) (hγ' : s'.variogramFunction s'.params = .ok γ)
    {exact : Bool} (hex : args.exactValues = .bool exact)
    (hc : exact = true → ∀ i, 1 / 10 ^ 10 < okDistance args (x o, y o) (x (o.succAbove i), y (o.succAbove i)))
    {ea ea₀ ea' : ExecArgs} (ha : Admissible env args s ea.nClosest)
    (ha₀ : Admissible env args s ea₀.nClosest) (ha' : Admissible env args s' ea'.nClosest)
    (hn : ea.nClosest = none) (hn₀ : ea₀.nClosest = none) (hn' : ea'.nClosest = none)
    {r r₀ r' : ExecResult} (hr : s.execute env ea = .ok r) (hr₀ : s.execute env ea₀ = .ok r₀) (hr' : s'.execute env ea' = .ok r')
    {j j₀ j' : ℕ} {q : ℝ × ℝ} (hq : queryAt ea j = some q) (hq₀ : queryAt ea₀ j₀ = some (x o, y o)) (hq' : queryAt ea' j' = some q)
    (hm : maskedAt ea j = false) (hm₀ : maskedAt ea₀ j₀ = false) (hm' : maskedAt ea' j' = false) :
    ∃ est var est₀ var₀ est' var' c : ℝ,
      r.z[j]? = some (some est) ∧ r.ss[j]? = some (some var) ∧
      r₀.z[j₀]? = some (some est₀) ∧ r₀.ss[j₀]? = some (some var₀) ∧
      r'.z[j']? = some (some est') ∧ r'.ss[j']? = some (some var') ∧
      est' = est + c * (z o - est₀) ∧ var' = var - c ^ 2 * var₀ ∧
      ∃ w μ, OKEqs (semivar γ fun i k => okDistance args (x i, y i) (x k, y k))
        (semivarTo exact γ fun i => okDistance args q (x i, y i)) w μ ∧ c = w o := by
  obtain ⟨-, ⟨w, μ, e⟩, hu⟩ := C47_unique_2d h ha hn hp hγ hex hr hq hm
  obtain ⟨-, ⟨u, β, eo⟩, huo⟩ := C47_unique_2d h ha₀ hn₀ hp hγ hex hr₀ hq₀ hm₀
  obtain ⟨-, ⟨w', μ', e'⟩, hu'⟩ := C47_unique_2d h' ha' hn' hp hγ' hex hr' hq' hm'
  obtain ⟨a1, a2⟩ := hu w μ e
  obtain ⟨b1, b2⟩ := huo u β eo
  obtain ⟨c1, c2⟩ := hu' w' μ' e'
  have hu₁ : ∀ w₁ (ν₁ : Fin 0 → ℝ) μ₁, KrigingEqs (semivar γ fun i k => okDistance args (x (o.succAbove i), y (o.succAbove i)) (x (o.succAbove k), y (o.succAbove k)))
      (fun l i => (fun l : Fin 0 => l.elim0 : Fin 0 → Fin (n + 1) → ℝ) l (o.succAbove i)) (semivarTo exact γ fun i => okDistance args q (x (o.succAbove i), y (o.succAbove i)))
      (fun l => l.elim0) 1 w₁ ν₁ μ₁ → estimate w (fun i => z (o.succAbove i)) = estimate w₁ (fun i => z (o.succAbove i)) ∧
      okVariance (semivarTo exact γ fun i => okDistance args q (x (o.succAbove i), y (o.succAbove i))) w μ =
        krigingVariance (semivarTo exact γ fun i => okDistance args q (x (o.succAbove i), y (o.succAbove i))) (fun l => l.elim0) w₁ ν₁ μ₁ := by
    intro w₁ ν₁ μ₁ e₁
    obtain ⟨d1, d2⟩ := hu w₁ μ₁ (okEqs_iff.1 e₁)
    rw [a1] at d1
    rw [a2] at d2
    exact ⟨Option.some.inj (Option.some.inj d1), (Option.some.inj (Option.some.inj d2)).trans okVariance_eq.symm⟩
  obtain ⟨k1, k2⟩ := one_more (P := fun i => (x i, y i)) (z := z) (okDistance_comm args) hc hu₁ e' ((okEqs_iff (ν := fun l => l.elim0)).2 eo)
  exact ⟨_, _, _, _, _, _, w' o, a1, a2, b1, b2, c1, c2, k1, by rw [← okVariance_eq]; exact k2, w', μ', e', rfl⟩

/-- `OrdinaryKriging3D`: `s` without and `s'` with datum `o`; both are asked for the location `q`, and `s` for the location of
datum `o`.  (With exact values the other data must not be taken for datum `o`.) -/
theorem C61_one_more_3d {n : ℕ} {env : Env} {x y z v : Fin (n + 1) → ℝ} {args : OK3DArgs} {o : Fin (n + 1)}
    {s : OK3D n} {s' : OK3D (n + 1)}
    (h : OK3D.create env (fun i => x (o.succAbove i)) (fun i => y (o.succAbove i)) (fun i => z (o.succAbove i)) (fun i => v (o.succAbove i)) args = .ok s)
    (h' : OK3D.create env x y z v args = .ok s') (hp : args.pseudoInv = false)
    {γ : ℝ → ℝ} (hγ : s.variogramFunction s.params = .ok γ) (hγ' : s'.variogramFunction s'.params = .ok γ)
    {exact : Bool} (hex : args.exactValues = .bool exact)
    (hc : exact = true → ∀ i, 1 / 10 ^ 10 < ok3Distance args (x o, y o, z o) (x (o.succAbove i), y (o.succAbove i), z (o.succAbove i)))
    {ea ea₀ ea' : ExecArgs3} (hk : KnnSpec env)
    (hn : ea.nClosest = none) (hn₀ : ea₀.nClosest = none) (hn' : ea'.nClosest = none)
    {r r₀ r' : ExecResult} (hr : s.execute env ea = .ok r) (hr₀ : s.execute env ea₀ = .ok r₀) (hr' : s'.execute env ea' = .ok r')
    {j j₀ j' : ℕ} {q : ℝ × ℝ × ℝ} (hq : queryAt3 ea j = some q) (hq₀ : queryAt3 ea₀ j₀ = some (x o, y o, z o)) (hq' : queryAt3 ea' j' = some q)
    (hm : maskedAt3 ea j = false) (hm₀ : maskedAt3 ea₀ j₀ = false) (hm' : maskedAt3 ea' j' = false) :
    ∃ est var est₀ var₀ est' var' c : ℝ,
      r.z[j]? = some (some est) ∧ r.ss[j]? = some (some var) ∧
      r₀.z[j₀]? = some (some est₀) ∧ r₀.ss[j₀]? = some (some var₀) ∧
      r'.z[j']? = some (some est') ∧ r'.ss[j']? = some (some var') ∧
      est' = est + c * (v o - est₀) ∧ var' = var - c ^ 2 * var₀ ∧
      ∃ w μ, OKEqs (semivar γ fun i k => ok3Distance args (x i, y i, z i) (x k, y k, z k))
        (semivarTo exact γ fun i => ok3Distance args q (x i, y i, z i)) w μ ∧ c = w o := by
  obtain ⟨-, ⟨w, μ, e⟩, hu⟩ := C47_unique_3d h hk (fun k e => by simp [hn] at e) hn hp hγ hex hr hq hm
  obtain ⟨-, ⟨u, β, eo⟩, huo⟩ := C47_unique_3d h hk (fun k e => by simp [hn₀] at e) hn₀ hp hγ hex hr₀ hq₀ hm₀
  obtain ⟨-, ⟨w', μ', e'⟩, hu'⟩ := C47_unique_3d h' hk (fun k e => by simp [hn'] at e) hn' hp hγ' hex hr' hq' hm'
  obtain ⟨a1, a2⟩ := hu w μ e
  obtain ⟨b1, b2⟩ := huo u β eo
  obtain ⟨c1, c2⟩ := hu' w' μ' e'
  have hu₁ : ∀ w₁ (ν₁ : Fin 0 → ℝ) μ₁, KrigingEqs (semivar γ fun i k => ok3Distance args (x (o.succAbove i), y (o.succAbove i), z (o.succAbove i)) (x (o.succAbove k), y (o.succAbove k), z (o.succAbove k)))
      (fun l i => (fun l : Fin 0 => l.elim0 : Fin 0 → Fin (n + 1) → ℝ) l (o.succAbove i)) (semivarTo exact γ fun i => ok3Distance args q (x (o.succAbove i), y (o.succAbove i), z (o.succAbove i)))
      (fun l => l.elim0) 1 w₁ ν₁ μ₁ → estimate w (fun i => v (o.succAbove i)) = estimate w₁ (fun i => v (o.succAbove i)) ∧
      okVariance (semivarTo exact γ fun i => ok3Distance args q (x (o.succAbove i), y (o.succAbove i), z (o.succAbove i))) w μ =
        krigingVariance (semivarTo exact γ fun i => ok3Distance args q (x (o.succAbove i), y (o.succAbove i), z (o.succAbove i))) (fun l => l.elim0) w₁ ν₁ μ₁ := by
    intro w₁ ν₁ μ₁ e₁
    obtain ⟨d1, d2⟩ := hu w₁ μ₁ (okEqs_iff.1 e₁)
    rw [a1] at d1
    rw [a2] at d2
    exact ⟨Option.some.inj (Option.some.inj d1), (Option.some.inj (Option.some.inj d2)).trans okVariance_eq.symm⟩
  obtain ⟨k1, k2⟩ := one_more (P := fun i => (x i, y i, z i)) (z := v) (fun a b => distance3_comm _ a b) hc hu₁ e' ((okEqs_iff (ν := fun l => l.elim0)).2 eo)
  exact ⟨_, _, _, _, _, _, w' o, a1, a2, b1, b2, c1, c2, k1, by rw [← okVariance_eq]; exact k2, w', μ', e', rfl⟩

theorem driftTerms2_center {args : UKArgs} {adj adj' : ℝ × ℝ → Fin 2 → ℝ} {k : Fin 2 → ℝ} (hk : ∀ q, adj' q = adj q + k)
    (hf : "functional" ∈ args.driftTerms → ∀ q, adj' q = adj q) :
    ∃ K : ℕ → ℝ, ∀ sv p m, (driftTerms2 args adj' sv p)[m]? = ((driftTerms2 args adj sv p)[m]?).map (· + K m) := by
  have hrest : ∀ sv p, driftTerms2 { args with driftTerms := args.driftTerms.filter (· ≠ "regional_linear") } adj' sv p =
      driftTerms2 { args with driftTerms := args.driftTerms.filter (· ≠ "regional_linear") } adj sv p := by
    intro sv p
    unfold driftTerms2
    simp only [List.mem_filter, hk, euclid_add_right]
    by_cases h : "functional" ∈ args.driftTerms
    · have h0 : k = 0 := by have := hf h p; rw [hk] at this; simpa using this
      simp [h0, externalValue, externalAt, setupExternal]
    · simp [h, externalValue, externalAt, setupExternal]
  have hsplit : ∀ a sv p, driftTerms2 args a sv p = (if "regional_linear" ∈ args.driftTerms then [a p 0, a p 1] else []) ++
      driftTerms2 { args with driftTerms := args.driftTerms.filter (· ≠ "regional_linear") } a sv p := by
    intro a sv p
    unfold driftTerms2
    simp [externalValue, externalAt, setupExternal]
  by_cases h : "regional_linear" ∈ args.driftTerms
  · refine ⟨fun m => if m = 0 then k 0 else if m = 1 then k 1 else 0, fun sv p m => ?_⟩
    rw [hsplit, hsplit adj, hrest, if_pos h, if_pos h]
    match m with
    | 0 => simp [hk]
    | 1 => simp [hk]
    | m + 2 => simp
  · refine ⟨fun m => 0, fun sv p m => ?_⟩
    rw [hsplit, hsplit adj, hrest, if_neg h, if_neg h]
    simp

theorem driftTerms3_center {args : UK3DArgs} {adj adj' : ℝ × ℝ × ℝ → Fin 3 → ℝ} {k : Fin 3 → ℝ} (hk : ∀ q, adj' q = adj q + k)
    (hf : "functional" ∈ args.driftTerms → ∀ q, adj' q = adj q) :
    ∃ K : ℕ → ℝ, ∀ sv p m, (driftTerms3 args adj' sv p)[m]? = ((driftTerms3 args adj sv p)[m]?).map (· + K m) := by
  have hrest : ∀ sv p, driftTerms3 { args with driftTerms := args.driftTerms.filter (· ≠ "regional_linear") } adj' sv p =
      driftTerms3 { args with driftTerms := args.driftTerms.filter (· ≠ "regional_linear") } adj sv p := by
    intro sv p
    unfold driftTerms3
    simp only [List.mem_filter, hk]
    by_cases h : "functional" ∈ args.driftTerms
    · have h0 : k = 0 := by have := hf h p; rw [hk] at this; simpa using this
      simp [h0]
    · simp [h]
  have hsplit : ∀ a sv p, driftTerms3 args a sv p = (if "regional_linear" ∈ args.driftTerms then [a p 0, a p 1, a p 2] else []) ++
      driftTerms3 { args with driftTerms := args.driftTerms.filter (· ≠ "regional_linear") } a sv p := by
    intro a sv p
    unfold driftTerms3
    simp
  by_cases h : "regional_linear" ∈ args.driftTerms
  · refine ⟨fun m => if m = 0 then k 0 else if m = 1 then k 1 else if m = 2 then k 2 else 0, fun sv p m => ?_⟩
    rw [hsplit, hsplit adj, hrest, if_pos h, if_pos h]
    match m with
    | 0 => simp [hk]
    | 1 => simp [hk]
    | 2 => simp [hk]
    | m + 3 => simp
  · refine ⟨fun m => 0, fun sv p m => ?_⟩
    rw [hsplit, hsplit adj, hrest, if_neg h, if_neg h]
    simp

/-- `UniversalKriging`: the same.  `sd'` are the specified drift arrays for all data, those in `args` the arrays without the entries
of datum `o`.  Functional drift terms are evaluated after the anisotropy correction, which is centred on the data: with an
anisotropy datum `o` must lie within the extent of the others. -/
theorem C61_one_more_uk {n : ℕ} {env : Env} {x y z : Fin (n + 1) → ℝ} {args : UKArgs} {sd' : ListArg (List ℝ)}
    {o : Fin (n + 1)} {s : UK n} {s' : UK (n + 1)}
    (h : UK.create env (fun i => x (o.succAbove i)) (fun i => y (o.succAbove i)) (fun i => z (o.succAbove i)) args = .ok s)
    (h' : UK.create env x y z { args with specifiedDrift := sd' } = .ok s') (hp : args.pseudoInv = false)
    (hsd : "specified" ∈ args.driftTerms → ∀ i : Fin n, specAtDatum sd' (o.succAbove i) = specAtDatum args.specifiedDrift i)
    (hfu : "functional" ∈ args.driftTerms → (effScaling args.variogramModel args.anisotropyScaling = 1 ∧
      effAngle args.variogramModel args.anisotropyAngle = 0) ∨ (Within (fun i => x (o.succAbove i)) x ∧ Within (fun i => y (o.succAbove i)) y))
    {γ : ℝ → ℝ} (hγ : s.variogramFunction s.params = .ok γ) (hγ' : s'.variogramFunction s'.params = .ok γ)
    {exact : Bool} (hex : args.exactValues = .bool exact)
    (hc : exact = true → ∀ i, 1 / 10 ^ 10 < ukDistance args (x o, y o) (x (o.succAbove i), y (o.succAbove i)))
    {ea ea₀ ea' : UKExecArgs} (hs : "specified" ∈ args.driftTerms → ea.toExec.backend = "vectorized")
    (hs₀ : "specified" ∈ args.driftTerms → ea₀.toExec.backend = "vectorized")
    (hs' : "specified" ∈ args.driftTerms → ea'.toExec.backend = "vectorized")
    {r r₀ r' : ExecResult} (hr : s.execute ea = .ok r) (hr₀ : s.execute ea₀ = .ok r₀) (hr' : s'.execute ea' = .ok r')
    {j j₀ j' : ℕ} {q : ℝ × ℝ} (hq : queryAt ea.toExec j = some q) (hq₀ : queryAt ea₀.toExec j₀ = some (x o, y o))
    (hq' : queryAt ea'.toExec j' = some q)
    (hsq : "specified" ∈ args.driftTerms → specAtQuery ea j = specAtQuery ea' j')
    (hsq₀ : "specified" ∈ args.driftTerms → specAtQuery ea₀ j₀ = specAtDatum sd' o)
    (hm : maskedAt ea.toExec j = false) (hm₀ : maskedAt ea₀.toExec j₀ = false) (hm' : maskedAt ea'.toExec j' = false) :
    ∃ est var est₀ var₀ est' var' c : ℝ,
      r.z[j]? = some (some est) ∧ r.ss[j]? = some (some var) ∧
      r₀.z[j₀]? = some (some est₀) ∧ r₀.ss[j₀]? = some (some var₀) ∧
      r'.z[j']? = some (some est') ∧ r'.ss[j']? = some (some var') ∧
      est' = est + c * (z o - est₀) ∧ var' = var - c ^ 2 * var₀ := by
  obtain ⟨L, F, f, hF, hf, -, ⟨w, ν, μ, e⟩, hu⟩ := C47_unique_uk h hp hs hγ hex hr hq hm
  obtain ⟨L₀, F₀, f₀, hF₀, hf₀, -, ⟨u, η, β, eo⟩, huo⟩ := C47_unique_uk h hp hs₀ hγ hex hr₀ hq₀ hm₀
  obtain ⟨L', F', f', hF', hf', -, ⟨w', ν', μ', e'⟩, hu'⟩ := C47_unique_uk h' hp hs' hγ' (exact := exact) hex hr' hq' hm'
  obtain ⟨g1, g2⟩ := UK.create_aniso h
  obtain ⟨g1', g2'⟩ := UK.create_aniso h'
  obtain ⟨k, hk⟩ : ∃ k, ∀ q, s'.adjustPoint q = s.adjustPoint q + k := ⟨_, fun q => by
    unfold UK.adjustPoint; rw [g1', g2', g1, g2]; exact adjust2_center ![s.XCENTER, s.YCENTER] _ _ _ _⟩
  have hfu' : "functional" ∈ args.driftTerms → ∀ q, s'.adjustPoint q = s.adjustPoint q := fun t q => by
    rcases hfu t with ⟨c1, c2⟩ | ⟨c1, c2⟩
    · unfold UK.adjustPoint
      rw [g1', g2', g1, g2]
      dsimp only
      rw [c1, c2, adjust2_isotropic, adjust2_isotropic]
    · obtain ⟨d1, d2⟩ := UK.create_center h
      obtain ⟨e1, e2⟩ := UK.create_center h'
      unfold UK.adjustPoint
      rw [g1', g2', g1, g2, midrange_within (fun _ => rfl) c1 d1 e1, midrange_within (fun _ => rfl) c2 d2 e2]
  obtain ⟨K, hK⟩ := driftTerms2_center hk hfu'
  have hsv : ∀ {a : ℝ × ℝ → Fin 2 → ℝ} {sv sv' p}, ("specified" ∈ args.driftTerms → sv = sv') →
      driftTerms2 { args with specifiedDrift := sd' } a sv p = driftTerms2 args a sv' p := by
    intro a sv sv' p hsv
    unfold driftTerms2
    by_cases t : "specified" ∈ args.driftTerms
    · rw [hsv t]; rfl
    · simp only [if_neg t]; rfl
  have hlen : ∀ sv p, (driftTerms2 args s'.adjustPoint sv p).length = (driftTerms2 args s.adjustPoint sv p).length := by
    intro sv p
    refine le_antisymm (not_lt.1 fun hlt => ?_) (not_lt.1 fun hlt => ?_)
    · have := hK sv p (driftTerms2 args s.adjustPoint sv p).length
      rw [List.getElem?_eq_getElem hlt, List.getElem?_eq_none le_rfl] at this
      cases this
    · have := hK sv p (driftTerms2 args s'.adjustPoint sv p).length
      rw [List.getElem?_eq_getElem hlt, List.getElem?_eq_none le_rfl] at this
      cases this
  have hL : L = L' := by
    have e1 := congrArg List.length hf
    have e2 := congrArg List.length hf'
    rw [hsv (sv' := specAtQuery ea j) (fun t => (hsq t).symm), hlen, ← e1, List.length_ofFn, List.length_ofFn] at e2
    exact e2.symm
  have hL₀ : L₀ = L' := by
    have e1 := congrArg List.length hf₀
    have e2 := congrArg List.length (hF' o)
    rw [hsv (sv' := specAtQuery ea₀ j₀) (fun t => (hsq₀ t).symm), hlen, ← e1, List.length_ofFn, List.length_ofFn] at e2
    exact e2.symm
  subst hL
  subst hL₀
  have hFF : ∀ l i, F₀ l i = F l i := fun l i => by
    exact congrFun (List.ofFn_injective ((hF₀ i).trans (hF i).symm)) l
  have pick : ∀ {a b : Fin L₀ → ℝ} {sv p}, List.ofFn a = driftTerms2 args s.adjustPoint sv p →
      List.ofFn b = driftTerms2 args s'.adjustPoint sv p → ∀ l : Fin L₀, b l = a l + K l := by
    intro a b sv p ha hb l
    have := hK sv p l
    rw [← ha, ← hb, List.getElem?_ofFn, List.getElem?_ofFn] at this
    simpa using this
  have k1 : ∀ l (i : Fin n), F' l (o.succAbove i) = F l i + K l := fun l i =>
    pick (hF i) ((hF' (o.succAbove i)).trans (hsv fun t => hsd t i)) l
  have k2 : ∀ l, F' l o = f₀ l + K l := pick hf₀ ((hF' o).trans (hsv fun t => (hsq₀ t).symm))
  have k3 : ∀ l, f' l = f l + K l := pick hf (hf'.trans (hsv fun t => (hsq t).symm))
  obtain ⟨e₁, v₁⟩ := e'.shift_drift (F := fun l i => F' l i - K l) (f := f) (fun l i => by ring) k3
  have hFs : (fun l i => F' l (o.succAbove i) - K l) = F := by funext l i; rw [k1]; ring
  have hfs : (fun l => F' l o - K l) = f₀ := by funext l; rw [k2]; ring
  have hFF' : F₀ = F := by funext l i; exact hFF l i
  rw [hFF'] at eo
  obtain ⟨a1, a2⟩ := hu w ν μ e
  obtain ⟨b1, b2⟩ := huo u η β (by rw [hFF']; exact eo)
  obtain ⟨c1, c2⟩ := hu' w' ν' μ' e'
  have hu₁ : ∀ w₁ (ν₁ : Fin L₀ → ℝ) μ₁, KrigingEqs (semivar γ fun i k => ukDistance args (x (o.succAbove i), y (o.succAbove i)) (x (o.succAbove k), y (o.succAbove k)))
      (fun l i => F' l (o.succAbove i) - K l) (semivarTo exact γ fun i => ukDistance args q (x (o.succAbove i), y (o.succAbove i))) f 1 w₁ ν₁ μ₁ →
      estimate w (fun i => z (o.succAbove i)) = estimate w₁ (fun i => z (o.succAbove i)) ∧
      krigingVariance (semivarTo exact γ fun i => ukDistance args q (x (o.succAbove i), y (o.succAbove i))) f w ν μ =
        krigingVariance (semivarTo exact γ fun i => ukDistance args q (x (o.succAbove i), y (o.succAbove i))) f w₁ ν₁ μ₁ := by
    intro w₁ ν₁ μ₁ e₁
    rw [hFs] at e₁
    obtain ⟨d1, d2⟩ := hu w₁ ν₁ μ₁ e₁
    rw [a1] at d1
    rw [a2] at d2
    exact ⟨Option.some.inj (Option.some.inj d1), Option.some.inj (Option.some.inj d2)⟩
  obtain ⟨m1, m2⟩ := one_more (P := fun i => (x i, y i)) (z := z) (F := fun l i => F' l i - K l) (ukDistance_comm args) hc hu₁ e₁
    (by rw [hFs, hfs]; exact eo)
  rw [hfs] at m2
  exact ⟨_, _, _, _, _, _, w' o, a1, a2, b1, b2, c1, c2, m1, v₁.trans m2⟩

/-- `UniversalKriging3D`: the same.  `sd'` are the specified drift arrays for all data, those in `args` the arrays without the entries
of datum `o`.  Functional drift terms are evaluated after the anisotropy correction, which is centred on the data: with an
anisotropy datum `o` must lie within the extent of the others. -/
theorem C61_one_more_uk3d {n : ℕ} {env : Env} {x y z v : Fin (n + 1) → ℝ} {args : UK3DArgs} {sd' : ListArg (List ℝ)}
    {o : Fin (n + 1)} {s : UK3D n} {s' : UK3D (n + 1)}
    (h : UK3D.create env (fun i => x (o.succAbove i)) (fun i => y (o.succAbove i)) (fun i => z (o.succAbove i)) (fun i => v (o.succAbove i)) args = .ok s)
    (h' : UK3D.create env x y z v { args with specifiedDrift := sd' } = .ok s') (hp : args.pseudoInv = false)
    (hsd : "specified" ∈ args.driftTerms → ∀ i : Fin n, specAtDatum sd' (o.succAbove i) = specAtDatum args.specifiedDrift i)
    (hfu : "functional" ∈ args.driftTerms → effAniso args.variogramModel args.aniso =
      { scalingY := 1, scalingZ := 1, angleX := 0, angleY := 0, angleZ := 0 } ∨ (Within (fun i => x (o.succAbove i)) x ∧ Within (fun i => y (o.succAbove i)) y ∧ Within (fun i => z (o.succAbove i)) z))
    {γ : ℝ → ℝ} (hγ : s.variogramFunction s.params = .ok γ) (hγ' : s'.variogramFunction s'.params = .ok γ)
    {exact : Bool} (hex : args.exactValues = .bool exact)
    (hc : exact = true → ∀ i, 1 / 10 ^ 10 < uk3Distance args (x o, y o, z o) (x (o.succAbove i), y (o.succAbove i), z (o.succAbove i)))
    {ea ea₀ ea' : UK3DExecArgs} (hs : "specified" ∈ args.driftTerms → ea.toExec.backend = "vectorized")
    (hs₀ : "specified" ∈ args.driftTerms → ea₀.toExec.backend = "vectorized")
    (hs' : "specified" ∈ args.driftTerms → ea'.toExec.backend = "vectorized")
    {r r₀ r' : ExecResult} (hr : s.execute ea = .ok r) (hr₀ : s.execute ea₀ = .ok r₀) (hr' : s'.execute ea' = .ok r')
    {j j₀ j' : ℕ} {q : ℝ × ℝ × ℝ} (hq : queryAt3 ea.toExec j = some q) (hq₀ : queryAt3 ea₀.toExec j₀ = some (x o, y o, z o))
    (hq' : queryAt3 ea'.toExec j' = some q)
    (hsq : "specified" ∈ args.driftTerms → specAtQuery3 ea j = specAtQuery3 ea' j')
    (hsq₀ : "specified" ∈ args.driftTerms → specAtQuery3 ea₀ j₀ = specAtDatum sd' o)
    (hm : maskedAt3 ea.toExec j = false) (hm₀ : maskedAt3 ea₀.toExec j₀ = false) (hm' : maskedAt3 ea'.toExec j' = false) :
    ∃ est var est₀ var₀ est' var' c : ℝ,
      r.z[j]? = some (some est) ∧ r.ss[j]? = some (some var) ∧
      r₀.z[j₀]? = some (some est₀) ∧ r₀.ss[j₀]? = some (some var₀) ∧
      r'.z[j']? = some (some est') ∧ r'.ss[j']? = some (some var') ∧
      est' = est + c * (v o - est₀) ∧ var' = var - c ^ 2 * var₀ := by
  obtain ⟨L, F, f, hF, hf, -, ⟨w, ν, μ, e⟩, hu⟩ := C47_unique_uk3d h hp hs hγ hex hr hq hm
  obtain ⟨L₀, F₀, f₀, hF₀, hf₀, -, ⟨u, η, β, eo⟩, huo⟩ := C47_unique_uk3d h hp hs₀ hγ hex hr₀ hq₀ hm₀
  obtain ⟨L', F', f', hF', hf', -, ⟨w', ν', μ', e'⟩, hu'⟩ := C47_unique_uk3d h' hp hs' hγ' (exact := exact) hex hr' hq' hm'
  have g1 := UK3D.create_aniso h
  have g1' := UK3D.create_aniso h'
  obtain ⟨k, hk⟩ : ∃ k, ∀ q, s'.adjustPoint q = s.adjustPoint q + k := ⟨_, fun q => by
    unfold UK3D.adjustPoint adjustPoint3; rw [g1', g1]; exact adjust3_center ![s.XCENTER, s.YCENTER, s.ZCENTER] _ _ _⟩
  have hfu' : "functional" ∈ args.driftTerms → ∀ q, s'.adjustPoint q = s.adjustPoint q := fun t q => by
    rcases hfu t with c1 | ⟨c1, c2, c3⟩
    · unfold UK3D.adjustPoint adjustPoint3
      rw [g1', g1]
      dsimp only
      rw [c1]
      dsimp only
      rw [adjust3_isotropic, adjust3_isotropic]
    · obtain ⟨d1, d2, d3⟩ := UK3D.create_center h
      obtain ⟨e1, e2, e3⟩ := UK3D.create_center h'
      unfold UK3D.adjustPoint
      rw [g1', g1, midrange_within (fun _ => rfl) c1 d1 e1, midrange_within (fun _ => rfl) c2 d2 e2, midrange_within (fun _ => rfl) c3 d3 e3]
  obtain ⟨K, hK⟩ := driftTerms3_center hk hfu'
  have hsv : ∀ {a : ℝ × ℝ × ℝ → Fin 3 → ℝ} {sv sv' p}, ("specified" ∈ args.driftTerms → sv = sv') →
      driftTerms3 { args with specifiedDrift := sd' } a sv p = driftTerms3 args a sv' p := by
    intro a sv sv' p hsv
    unfold driftTerms3
    by_cases t : "specified" ∈ args.driftTerms
    · rw [hsv t]
    · simp only [if_neg t]
  have hlen : ∀ sv p, (driftTerms3 args s'.adjustPoint sv p).length = (driftTerms3 args s.adjustPoint sv p).length := by
    intro sv p
    refine le_antisymm (not_lt.1 fun hlt => ?_) (not_lt.1 fun hlt => ?_)
    · have := hK sv p (driftTerms3 args s.adjustPoint sv p).length
      rw [List.getElem?_eq_getElem hlt, List.getElem?_eq_none le_rfl] at this
      cases this
    · have := hK sv p (driftTerms3 args s'.adjustPoint sv p).length
      rw [List.getElem?_eq_getElem hlt, List.getElem?_eq_none le_rfl] at this
      cases this
  have hL : L = L' := by
    have e1 := congrArg List.length hf
    have e2 := congrArg List.length hf'
    rw [hsv (sv' := specAtQuery3 ea j) (fun t => (hsq t).symm), hlen, ← e1, List.length_ofFn, List.length_ofFn] at e2
    exact e2.symm
  have hL₀ : L₀ = L' := by
    have e1 := congrArg List.length hf₀
    have e2 := congrArg List.length (hF' o)
    rw [hsv (sv' := specAtQuery3 ea₀ j₀) (fun t => (hsq₀ t).symm), hlen, ← e1, List.length_ofFn, List.length_ofFn] at e2
    exact e2.symm
  subst hL
  subst hL₀
  have hFF : ∀ l i, F₀ l i = F l i := fun l i => by
    exact congrFun (List.ofFn_injective ((hF₀ i).trans (hF i).symm)) l
  have pick : ∀ {a b : Fin L₀ → ℝ} {sv p}, List.ofFn a = driftTerms3 args s.adjustPoint sv p →
      List.ofFn b = driftTerms3 args s'.adjustPoint sv p → ∀ l : Fin L₀, b l = a l + K l := by
    intro a b sv p ha hb l
    have := hK sv p l
    rw [← ha, ← hb, List.getElem?_ofFn, List.getElem?_ofFn] at this
    simpa using this
  have k1 : ∀ l (i : Fin n), F' l (o.succAbove i) = F l i + K l := fun l i =>
    pick (hF i) ((hF' (o.succAbove i)).trans (hsv fun t => hsd t i)) l
  have k2 : ∀ l, F' l o = f₀ l + K l := pick hf₀ ((hF' o).trans (hsv fun t => (hsq₀ t).symm))
  have k3 : ∀ l, f' l = f l + K l := pick hf (hf'.trans (hsv fun t => (hsq t).symm))
  obtain ⟨e₁, v₁⟩ := e'.shift_drift (F := fun l i => F' l i - K l) (f := f) (fun l i => by ring) k3
  have hFs : (fun l i => F' l (o.succAbove i) - K l) = F := by funext l i; rw [k1]; ring
  have hfs : (fun l => F' l o - K l) = f₀ := by funext l; rw [k2]; ring
  have hFF' : F₀ = F := by funext l i; exact hFF l i
  rw [hFF'] at eo
  obtain ⟨a1, a2⟩ := hu w ν μ e
  obtain ⟨b1, b2⟩ := huo u η β (by rw [hFF']; exact eo)
  obtain ⟨c1, c2⟩ := hu' w' ν' μ' e'
  have hu₁ : ∀ w₁ (ν₁ : Fin L₀ → ℝ) μ₁, KrigingEqs (semivar γ fun i k => uk3Distance args (x (o.succAbove i), y (o.succAbove i), z (o.succAbove i)) (x (o.succAbove k), y (o.succAbove k), z (o.succAbove k)))
      (fun l i => F' l (o.succAbove i) - K l) (semivarTo exact γ fun i => uk3Distance args q (x (o.succAbove i), y (o.succAbove i), z (o.succAbove i))) f 1 w₁ ν₁ μ₁ →
      estimate w (fun i => v (o.succAbove i)) = estimate w₁ (fun i => v (o.succAbove i)) ∧
      krigingVariance (semivarTo exact γ fun i => uk3Distance args q (x (o.succAbove i), y (o.succAbove i), z (o.succAbove i))) f w ν μ =
        krigingVariance (semivarTo exact γ fun i => uk3Distance args q (x (o.succAbove i), y (o.succAbove i), z (o.succAbove i))) f w₁ ν₁ μ₁ := by
    intro w₁ ν₁ μ₁ e₁
    rw [hFs] at e₁
    obtain ⟨d1, d2⟩ := hu w₁ ν₁ μ₁ e₁
    rw [a1] at d1
    rw [a2] at d2
    exact ⟨Option.some.inj (Option.some.inj d1), Option.some.inj (Option.some.inj d2)⟩
  obtain ⟨m1, m2⟩ := one_more (P := fun i => (x i, y i, z i)) (z := v) (F := fun l i => F' l i - K l) (fun a b => distance3_comm _ a b) hc hu₁ e₁
    (by rw [hFs, hfs]; exact eo)
  rw [hfs] at m2
  exact ⟨_, _, _, _, _, _, w' o, a1, a2, b1, b2, c1, c2, m1, v₁.trans m2⟩

end
end PyKrige
