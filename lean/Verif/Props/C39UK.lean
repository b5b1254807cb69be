import Verif.Props.C39
import Verif.Props.C39Accept
import Verif.Lemmas.Relabel
import Verif.Lemmas.BlueMono

/-!
# C39: merging redundant data, universal kriging

As in the ordinary case (`C39_merge_2d`, `C39_merge_3d`): data at one place, kriged with the pseudo-inverse, act like one
datum with their mean value. A specified drift must agree between the data at one place. The loop backends are excluded if a
drift is specified: they read the specified drift at a position that depends on the number of data (C24).
-/

set_option linter.unusedSectionVars false

namespace PyKrige
noncomputable section
open Matrix Spec

/-- The same values, some repeated. -/
theorem midrange_onto {n m : ℕ} {x : Fin n → ℝ} {x' : Fin m → ℝ} {c : Fin n → Fin m} (hc : Function.Surjective c)
    (hx : ∀ i, x i = x' (c i)) {a a' : ℝ} (h : midrange x = .ok a) (h' : midrange x' = .ok a') : a' = a := by
  refine midrange_within (e := c) (fun i => (hx i).symm) (fun k => ?_) h h'
  obtain ⟨i, rfl⟩ := hc k
  exact ⟨i, i, (hx i).le, (hx i).ge⟩

theorem krigAnswer_merge_drift {n m L L' : ℕ} (c : Fin n → Fin m) (hc : Function.Surjective c) (hL : L = L')
    {G : Fin n → Fin n → ℝ} {G' : Fin m → Fin m → ℝ} {F : Fin L → Fin n → ℝ} {F' : Fin L' → Fin m → ℝ}
    (hG : ∀ i j, G i j = G' (c i) (c j)) (hF : ∀ l i, F l i = F' (l.cast hL) (c i)) (hs : ∀ i j, G' i j = G' j i)
    (hr : Regular G' F') (pseudo : Bool) (z : Fin n → ℝ) {g : Fin n → ℝ} {g' : Fin m → ℝ} (hg : ∀ i, g i = g' (c i))
    (fl : List ℝ) :
    krigAnswer true G F z g (fun l => fl.getD l.val 0) =
      krigAnswer pseudo G' F' (fun k => (∑ i with c i = k, z i) / (Finset.univ.filter fun i => c i = k).card) g'
        (fun l => fl.getD l.val 0) := by
  subst hL
  exact krigAnswer_merge c hc hG hF hs hr pseudo z hg _

theorem get_of_maps {n m : ℕ} {a : List (Fin n → ℝ)} {b : List (Fin m → ℝ)} (c : Fin n → Fin m)
    (h : ∀ i, a.map (· i) = b.map (· (c i))) (hl : a.length = b.length) (l : Fin a.length) (i : Fin n) :
    a.get l i = b.get (l.cast hl) (c i) := by
  have h1 : (a.map (· i))[l.val]? = (b.map (· (c i)))[l.val]? := by rw [h i]
  have hb : l.val < b.length := by rw [← hl]; exact l.isLt
  simp only [List.getElem?_map, List.getElem?_eq_getElem l.isLt, List.getElem?_eq_getElem hb, Option.map_some,
    Option.some.injEq] at h1
  exact h1

/-- Lengths of the specified drifts. -/
theorem specified_lengths {n m : ℕ} (c : Fin n → Fin m) (i : Fin n) {dt : List String} {arg arg' : ListArg (List ℝ)}
    {spec : Option (List (Fin n → ℝ))} {spec' : Option (List (Fin m → ℝ))}
    (hs : "specified" ∈ dt → ∀ i, specAtDatum arg i.val = specAtDatum arg' (c i).val)
    (h : setupSpecifiedTerm n dt arg = .ok spec) (h' : setupSpecifiedTerm m dt arg' = .ok spec') :
    spec.map List.length = spec'.map List.length := by
  unfold setupSpecifiedTerm at h h'
  split at h
  · next hd =>
    rw [if_pos hd] at h'
    obtain ⟨D, k, rfl⟩ := py_map_eq_ok.1 h
    obtain ⟨D', k', rfl⟩ := py_map_eq_ok.1 h'
    have e := hs hd i
    rw [← setupSpecified_get k i, ← setupSpecified_get k' (c i)] at e
    have := congrArg List.length e
    simpa using this
  · next hd =>
    rw [if_neg hd] at h'
    cases h; cases h'; rfl

/-- What the two objects have in common. -/
structure UK.Merges {n m : ℕ} (c : Fin n → Fin m) (s : UK n) (s' : UK m) : Prop where
  vf : s.variogramFunction = s'.variogramFunction
  ps : s.params = s'.params
  ex : s.exactValues = s'.exactValues
  ty : s.pseudoInvType = s'.pseudoInvType
  mem : s'.pseudoInvType ∈ ["pinv", "pinvh"]
  adj : s.adjustPoint = s'.adjustPoint
  sp : s.specified.map List.length = s'.specified.map List.length
  rl : s.regionalLinear = s'.regionalLinear
  pl : s.pointLog = s'.pointLog
  fn : s.functional = s'.functional
  xz : s.externalZ.map Prod.fst = s'.externalZ.map Prod.fst

theorem UK.create_merges {n m : ℕ} {env : Env} {x y z : Fin n → ℝ} {x' y' z' : Fin m → ℝ} {args : UKArgs}
    {sd : ListArg (List ℝ)} {s : UK n} {s' : UK m}
    (h : UK.create env x y z { args with pseudoInv := true, specifiedDrift := sd } = .ok s)
    (h' : UK.create env x' y' z' args = .ok s') (hg : ParamsGiven args.variogramModel args.params)
    (c : Fin n → Fin m) (hc : Function.Surjective c) (hx : ∀ i, (x i, y i) = (x' (c i), y' (c i)))
    (hs : "specified" ∈ args.driftTerms → ∀ i, specAtDatum sd i.val = specAtDatum args.specifiedDrift (c i).val)
    (i₀ : Fin n) : UK.Merges c s s' := by
  obtain ⟨hp, exact, name, model, fArg, pArg, sc, an, f, fname, xc, yc, vp, lags, ps, stats, ext, plog, spec, func,
    h1, h2, h3, h4, h5, h6, h7, h8, h9, h10, h11, h12, rfl⟩ := UK.create_ok h
  obtain ⟨hp', exact', name', model', fArg', pArg', sc', an', f', fname', xc', yc', vp', lags', ps', stats', ext', plog',
    spec', func', g1, g2, g3, g4, g5, g6, g7, g8, g9, g10, g11, g12, rfl⟩ := UK.create_ok h'
  have h1 : args.exactValues = _ := h1
  rw [h1] at g1; cases g1
  have g2 : UK.resolveModel env args.variogramModel args.variogramFunction args.params
        args.anisotropyScaling args.anisotropyAngle = _ := g2
  have h2 : UK.resolveModel env args.variogramModel args.variogramFunction args.params
        args.anisotropyScaling args.anisotropyAngle = _ := h2
  rw [h2] at g2; cases g2
  rw [h3] at g3; cases g3
  obtain rfl := midrange_onto hc (fun i => congrArg Prod.fst (hx i)) h4 g4
  obtain rfl := midrange_onto hc (fun i => congrArg Prod.snd (hx i)) h5 g5
  rw [h6] at g6; cases g6
  have hv := makeVariogramParameterList_some h6 (UK.resolveModel_given h2 hg)
  have e1 := (initialize_given h7 hv).1
  have e2 := (initialize_given g7 hv).1
  rw [e1] at e2; cases e2
  have h10 : setupPointLog xc' yc' sc an args = _ := h10
  have g10 : setupPointLog xc' yc' sc an args = _ := g10
  rw [h10] at g10; cases g10
  have h12 : setupFunctionalTerm args.driftTerms args.functionalDrift = _ := h12
  rw [h12] at g12; cases g12
  have e9 : ext.map Prod.fst = ext'.map Prod.fst := by
    unfold setupExternalZ at h9 g9
    dsimp only at h9 g9
    split at h9
    · next hd =>
      rw [if_pos hd] at g9
      obtain ⟨e, q1, h9⟩ := py_bind_eq_ok.1 h9
      obtain ⟨zs, q2, h9⟩ := py_bind_eq_ok.1 h9
      obtain ⟨e', q1', g9⟩ := py_bind_eq_ok.1 g9
      obtain ⟨zs', q2', g9⟩ := py_bind_eq_ok.1 g9
      have q1 : setupExternal args = _ := q1
      rw [q1] at q1'
      cases q1'; cases h9; cases g9
      rfl
    · next hd =>
      rw [if_neg hd] at g9
      cases h9; cases g9; rfl
  exact ⟨rfl, rfl, rfl, rfl, hp', rfl, specified_lengths c i₀ hs h11 g11, rfl, rfl, rfl, e9⟩

/-- `UniversalKriging`: the data visit the places of the primed data, each at least once; `z'` holds the mean of the values
at each place. Kriging them with the pseudo-inverse returns what kriging the merged data with the inverse returns. -/
theorem C39_merge_uk {n m : ℕ} {env : Env} {x y z : Fin n → ℝ} {x' y' z' : Fin m → ℝ} {args : UKArgs}
    {sd : ListArg (List ℝ)} {s : UK n} {s' : UK m} (hp : args.pseudoInv = false)
    (h : UK.create env x y z { args with pseudoInv := true, specifiedDrift := sd } = .ok s)
    (h' : UK.create env x' y' z' args = .ok s') (hg : ParamsGiven args.variogramModel args.params)
    (c : Fin n → Fin m) (hc : Function.Surjective c) (hx : ∀ i, (x i, y i) = (x' (c i), y' (c i)))
    (hz : ∀ k, z' k = (∑ i with c i = k, z i) / (Finset.univ.filter fun i => c i = k).card)
    {ea : UKExecArgs} (hs : "specified" ∈ args.driftTerms → ea.toExec.backend = "vectorized" ∧
      ∀ i, specAtDatum sd i.val = specAtDatum args.specifiedDrift (c i).val)
    {γ : ℝ → ℝ} (hγ : s'.variogramFunction s'.params = .ok γ) (h0 : γ 0 = 0)
    {r : ExecResult} (hr : s'.execute ea = .ok r) : s.execute ea = .ok r := by
  have hn := UK.create_two_le h
  let i₀ : Fin n := ⟨0, by omega⟩
  have M := UK.create_merges h h' hg c hc hx (fun ht => (hs ht).2) i₀
  obtain ⟨hD, hd⟩ := UK.create_dist h
  obtain ⟨hD', hd'⟩ := UK.create_dist h'
  have hps : s.pseudoInv = true := by rw [(UK.create_fields h).2.2.1]
  have hps' : s'.pseudoInv = false := by rw [(UK.create_fields h').2.2.1, hp]
  have hZ : s.Z = z := (UK.create_fields h).2.2.2.2.2.2
  have hZ' : s'.Z = z' := (UK.create_fields h').2.2.2.2.2.2
  have hgam : s'.gam = γ := by unfold UK.gam; rw [hγ]
  have hmap : ∀ i, s.driftData.map (· i) = s'.driftData.map (· (c i)) := fun i => by
    rw [(UK.driftData_eq h i).1, (UK.driftData_eq h' (c i)).1, M.adj, hx i]
    unfold driftTerms2
    by_cases ht : "specified" ∈ args.driftTerms
    · simp only [ht, (hs ht).2 i]; rfl
    · simp only [ht, if_false]; rfl
  have hL : s.driftData.length = s'.driftData.length := by
    have := congrArg List.length (hmap i₀); simpa using this
  have hF : ∀ l i, s.F l i = s'.F (l.cast hL) (c i) := fun l i => get_of_maps c hmap hL l i
  have hQ : ∀ p i, s.queryDist p i = s'.queryDist p (c i) := fun p i => by rw [hd, hd', hx]; rfl
  have hDD : ∀ i j, s.dataDist i j = s'.dataDist (c i) (c j) := fun i j => by rw [hD, hD', hx, hx]; rfl
  refine UK.transfer' (s := s') (s' := s) (ea := ea) (ea' := ea) M.mem (by rw [M.ty]; exact M.mem) (moved_id ea.toExec) rfl
    M.vf M.ps M.sp ?_ ?_ ?_ ?_ ?_ hr
  · by_cases ht : "specified" ∈ args.driftTerms
    · exact .inr (.inl (hs ht).1)
    · left
      obtain ⟨-, -, -, h4, -⟩ := UK.create_drift h'
      unfold setupSpecifiedTerm at h4
      rw [if_neg ht] at h4
      exact (Except.ok.inj h4).symm
  · intro p
    unfold UK.extP
    have := M.xz
    cases e1 : s.externalZ <;> cases e2 : s'.externalZ <;> simp_all
  · intro p
    unfold UK.atWell
    rw [M.pl, id, M.adj]
  · intro _
    exact .inl hps
  · intro sv zext p hlen hsol
    have hreg : Regular (s'.G s'.gam) s'.F := (solvable_pseudo hps' hsol).1
    rw [hgam] at hreg ⊢
    unfold UK.answer UK.f
    have hat : s.driftAt sv zext p = s'.driftAt sv zext p := by
      unfold UK.driftAt
      rw [M.rl, M.pl, M.fn, M.adj]
      have e1 := M.xz
      have e2 := M.sp
      cases k1 : s.externalZ <;> cases k2 : s'.externalZ <;> cases k3 : s.specified <;> cases k4 : s'.specified <;> simp_all
    rw [id, hps, hat, krigAnswer_merge_drift c hc hL (G' := s'.G γ) (g' := s'.g γ p) ?_ hF ?_ hreg s'.pseudoInv s.Z ?_]
    · congr 1
      rw [hZ, hZ']
      funext k
      exact (hz k).symm
    · intro i j
      unfold UK.G semivar
      by_cases e : i = j
      · rw [if_pos e, if_pos (by rw [e])]
      · rw [if_neg e, hDD]
        split
        · next e1 =>
          rw [e1, hD']
          exact (congrArg γ (anisoDist2_self _ _ _)).trans h0
        · rfl
    · exact semivar_comm fun i j => UK.dataDist_comm s' i j
    · intro i
      unfold UK.g semivarTo
      rw [hQ, M.ex]

/-- What the two objects have in common. -/
structure UK3D.Merges {n m : ℕ} (c : Fin n → Fin m) (s : UK3D n) (s' : UK3D m) : Prop where
  vf : s.variogramFunction = s'.variogramFunction
  ps : s.params = s'.params
  ex : s.exactValues = s'.exactValues
  ty : s.pseudoInvType = s'.pseudoInvType
  mem : s'.pseudoInvType ∈ ["pinv", "pinvh"]
  adj : s.adjustPoint = s'.adjustPoint
  sp : s.specified.map List.length = s'.specified.map List.length
  rl : s.regionalLinear = s'.regionalLinear
  fn : s.functional = s'.functional

theorem UK3D.create_merges {n m : ℕ} {env : Env} {x y z v : Fin n → ℝ} {x' y' z' v' : Fin m → ℝ} {args : UK3DArgs}
    {sd : ListArg (List ℝ)} {s : UK3D n} {s' : UK3D m}
    (h : UK3D.create env x y z v { args with pseudoInv := true, specifiedDrift := sd } = .ok s)
    (h' : UK3D.create env x' y' z' v' args = .ok s') (hg : ParamsGiven args.variogramModel args.params)
    (c : Fin n → Fin m) (hc : Function.Surjective c) (hx : ∀ i, (x i, y i, z i) = (x' (c i), y' (c i), z' (c i)))
    (hs : "specified" ∈ args.driftTerms → ∀ i, specAtDatum sd i.val = specAtDatum args.specifiedDrift (c i).val)
    (i₀ : Fin n) : UK3D.Merges c s s' := by
  obtain ⟨hp, exact, name, model, fArg, pArg, an, f, fname, xc, yc, zc, vp, lags, ps, stats, spec, func,
    h1, h2, h3, h4, h5, h6, h7, h8, h9, h10, h11, rfl⟩ := UK3D.create_ok h
  obtain ⟨hp', exact', name', model', fArg', pArg', an', f', fname', xc', yc', zc', vp', lags', ps', stats', spec', func',
    g1, g2, g3, g4, g5, g6, g7, g8, g9, g10, g11, rfl⟩ := UK3D.create_ok h'
  have h1 : args.exactValues = _ := h1
  rw [h1] at g1; cases g1
  have g2 : OK3D.resolveModel env args.variogramModel args.variogramFunction args.params args.aniso = _ := g2
  have h2 : OK3D.resolveModel env args.variogramModel args.variogramFunction args.params args.aniso = _ := h2
  rw [h2] at g2; cases g2
  rw [h3] at g3; cases g3
  obtain rfl := midrange_onto hc (fun i => congrArg Prod.fst (hx i)) h4 g4
  obtain rfl := midrange_onto hc (fun i => congrArg (fun t : ℝ × ℝ × ℝ => t.2.1) (hx i)) h5 g5
  obtain rfl := midrange_onto hc (fun i => congrArg (fun t : ℝ × ℝ × ℝ => t.2.2) (hx i)) h6 g6
  rw [h7] at g7; cases g7
  have hv := makeVariogramParameterList_some h7 (OK3D.resolveModel_given h2 hg)
  have e1 := (initialize_given h8 hv).1
  have e2 := (initialize_given g8 hv).1
  rw [e1] at e2; cases e2
  have h11 : setupFunctionalTerm args.driftTerms args.functionalDrift = _ := h11
  rw [h11] at g11; cases g11
  exact ⟨rfl, rfl, rfl, rfl, hp', rfl, specified_lengths c i₀ hs h10 g10, rfl, rfl⟩

/-- `UniversalKriging3D`: the data visit the places of the primed data, each at least once; `v'` holds the mean of the values
at each place. Kriging them with the pseudo-inverse returns what kriging the merged data with the inverse returns. -/
theorem C39_merge_uk3d {n m : ℕ} {env : Env} {x y z v : Fin n → ℝ} {x' y' z' v' : Fin m → ℝ} {args : UK3DArgs}
    {sd : ListArg (List ℝ)} {s : UK3D n} {s' : UK3D m} (hp : args.pseudoInv = false)
    (h : UK3D.create env x y z v { args with pseudoInv := true, specifiedDrift := sd } = .ok s)
    (h' : UK3D.create env x' y' z' v' args = .ok s') (hg : ParamsGiven args.variogramModel args.params)
    (c : Fin n → Fin m) (hc : Function.Surjective c) (hx : ∀ i, (x i, y i, z i) = (x' (c i), y' (c i), z' (c i)))
    (hz : ∀ k, v' k = (∑ i with c i = k, v i) / (Finset.univ.filter fun i => c i = k).card)
    {ea : UK3DExecArgs} (hs : "specified" ∈ args.driftTerms → ea.toExec.backend = "vectorized" ∧
      ∀ i, specAtDatum sd i.val = specAtDatum args.specifiedDrift (c i).val)
    {γ : ℝ → ℝ} (hγ : s'.variogramFunction s'.params = .ok γ) (h0 : γ 0 = 0)
    {r : ExecResult} (hr : s'.execute ea = .ok r) : s.execute ea = .ok r := by
  have hn := UK3D.create_two_le h
  let i₀ : Fin n := ⟨0, by omega⟩
  have M := UK3D.create_merges h h' hg c hc hx (fun ht => (hs ht).2) i₀
  obtain ⟨hD, hd⟩ := UK3D.create_dist h
  obtain ⟨hD', hd'⟩ := UK3D.create_dist h'
  have hps : s.pseudoInv = true := by rw [(UK3D.create_fields h).2.2.1]
  have hps' : s'.pseudoInv = false := by rw [(UK3D.create_fields h').2.2.1, hp]
  have hZ : s.VALUES = v := (UK3D.create_fields h).2.2.2.2.2.2.2
  have hZ' : s'.VALUES = v' := (UK3D.create_fields h').2.2.2.2.2.2.2
  have hgam : s'.gam = γ := by unfold UK3D.gam; rw [hγ]
  have hmap : ∀ i, s.driftData.map (· i) = s'.driftData.map (· (c i)) := fun i => by
    rw [UK3D.driftData_eq h i, UK3D.driftData_eq h' (c i), M.adj, hx i]
    unfold driftTerms3
    by_cases ht : "specified" ∈ args.driftTerms
    · simp only [ht, (hs ht).2 i]
    · simp only [ht, if_false]
  have hL : s.driftData.length = s'.driftData.length := by
    have := congrArg List.length (hmap i₀); simpa using this
  have hF : ∀ l i, s.F l i = s'.F (l.cast hL) (c i) := fun l i => get_of_maps c hmap hL l i
  have hQ : ∀ p i, s.queryDist p i = s'.queryDist p (c i) := fun p i => by rw [hd, hd', hx]; rfl
  have hDD : ∀ i j, s.dataDist i j = s'.dataDist (c i) (c j) := fun i j => by rw [hD, hD', hx, hx]; rfl
  refine UK3D.transfer' (s := s') (s' := s) (ea := ea) (ea' := ea) M.mem (by rw [M.ty]; exact M.mem) (moved_id3 ea.toExec) rfl
    M.vf M.ps M.sp ?_ ?_ ?_ hr
  · by_cases ht : "specified" ∈ args.driftTerms
    · exact .inr (.inl (hs ht).1)
    · left
      obtain ⟨-, h4, -⟩ := UK3D.create_drift h'
      unfold setupSpecifiedTerm at h4
      rw [if_neg ht] at h4
      exact (Except.ok.inj h4).symm
  · intro _
    exact .inl hps
  · intro sv p hlen hsol
    have hreg : Regular (s'.G s'.gam) s'.F := (solvable_pseudo hps' hsol).1
    rw [hgam] at hreg ⊢
    unfold UK3D.answer UK3D.f
    have hat : s.driftAt sv p = s'.driftAt sv p := by
      unfold UK3D.driftAt
      rw [M.rl, M.fn, M.adj]
      have e2 := M.sp
      cases k3 : s.specified <;> cases k4 : s'.specified <;> simp_all
    rw [id, hps, hat, krigAnswer_merge_drift c hc hL (G' := s'.G γ) (g' := s'.g γ p) ?_ hF ?_ hreg s'.pseudoInv s.VALUES ?_]
    · congr 1
      rw [hZ, hZ']
      funext k
      exact (hz k).symm
    · intro i j
      unfold UK3D.G semivar
      by_cases e : i = j
      · rw [if_pos e, if_pos (by rw [e])]
      · rw [if_neg e, hDD]
        split
        · next e1 =>
          rw [e1, hD']
          exact (congrArg γ (distance3_self _ _)).trans h0
        · rfl
    · exact semivar_comm fun i j => UK3D.dataDist_comm s' i j
    · intro i
      unfold UK3D.g semivarTo
      rw [hQ, M.ex]

namespace Demo

/-- Any number of data at the four places, with any values, and one datum with their mean at each place. -/
example {n : ℕ} (hn : 2 ≤ n) (c : Fin n → Fin 4) (hc : Function.Surjective c) (z : Fin n → ℝ) (l : List (ℝ × ℝ)) :
    ∃ s s' r, UK.create stdEnv (x4 ∘ c) (y4 ∘ c) z { uany "linear" [2, 0] with pseudoInv := true } = .ok s ∧
      UK.create stdEnv x4 y4 (fun k => (∑ i with c i = k, z i) / (Finset.univ.filter fun i => c i = k).card)
        (uany "linear" [2, 0]) = .ok s' ∧
      s'.execute { toExec := pts l "loop" } = .ok r ∧ s.execute { toExec := pts l "loop" } = .ok r := by
  obtain ⟨s', h', hps, -, hx⟩ := uany_ok (n := 4) (by norm_num)
    (fun k => (∑ i with c i = k, z i) / (Finset.univ.filter fun i => c i = k).card) slope_valid slope_grows inj4 plane4
  obtain ⟨s, h, -⟩ := C39_create_uk stdEnv hn (x4 ∘ c) (y4 ∘ c) z { uany "linear" [2, 0] with pseudoInv := true } rfl
    (by simp [uany]) rfl rfl rfl slope_valid (fun i hc => by simp [uany] at hc) (fun hc => by simp [uany] at hc)
    (fun hc => by simp [uany] at hc) (fun hc => by simp [uany] at hc)
  obtain ⟨h1, h2⟩ := pts_wellPosed l "loop"
  obtain ⟨r, hr⟩ := hx { toExec := pts l "loop" } h1 h2 (.inr rfl)
  obtain ⟨hev, -⟩ := chosen_evaluates (γ := linearFormula 2 0) (ps := s'.params) (by rw [hps]; exact builtin_linear.2 rfl) (by simp [builtins])
    (UK.create_function h' (m := "linear") rfl)
  exact ⟨s, s', r, h, h', hr, C39_merge_uk (args := uany "linear" [2, 0]) rfl h h' (by simp [ParamsGiven, uany]) c hc (fun _ => rfl)
    (fun _ => rfl) (fun hc => by simp [uany] at hc) hev (by simp [linearFormula]) hr⟩

/-- The same in space. -/
example {n : ℕ} (hn : 2 ≤ n) (c : Fin n → Fin 4) (hc : Function.Surjective c) (v : Fin n → ℝ) (l : List (ℝ × ℝ × ℝ)) :
    ∃ s s' r, UK3D.create stdEnv (x4 ∘ c) (y4 ∘ c) (z4 ∘ c) v { uany3 "linear" [2, 0] with pseudoInv := true } = .ok s ∧
      UK3D.create stdEnv x4 y4 z4 (fun k => (∑ i with c i = k, v i) / (Finset.univ.filter fun i => c i = k).card)
        (uany3 "linear" [2, 0]) = .ok s' ∧
      s'.execute { toExec := pts3 l "loop" } = .ok r ∧ s.execute { toExec := pts3 l "loop" } = .ok r := by
  obtain ⟨s', h', hps, -, hx⟩ := uany3_ok (n := 4) (by norm_num)
    (fun k => (∑ i with c i = k, v i) / (Finset.univ.filter fun i => c i = k).card) slope_valid slope_grows inj4' space4
  obtain ⟨s, h, -⟩ := C39_create_uk3d stdEnv hn (x4 ∘ c) (y4 ∘ c) (z4 ∘ c) v { uany3 "linear" [2, 0] with pseudoInv := true } rfl
    (by simp [uany3]) rfl rfl rfl slope_valid
    (fun hc => by simp [uany3] at hc) (fun hc => by simp [uany3] at hc)
  obtain ⟨h1, h2⟩ := pts_wellPosed3 l "loop"
  obtain ⟨r, hr⟩ := hx { toExec := pts3 l "loop" } h1 h2 (.inr rfl)
  obtain ⟨hev, -⟩ := chosen_evaluates (γ := linearFormula 2 0) (ps := s'.params) (by rw [hps]; exact builtin_linear.2 rfl) (by simp [builtins])
    (UK3D.create_function h' (m := "linear") rfl)
  exact ⟨s, s', r, h, h', hr, C39_merge_uk3d (args := uany3 "linear" [2, 0]) rfl h h' (by simp [ParamsGiven, uany3]) c hc (fun _ => rfl)
    (fun _ => rfl) (fun hc => by simp [uany3] at hc) hev (by simp [linearFormula]) hr⟩

end Demo

end
end PyKrige
