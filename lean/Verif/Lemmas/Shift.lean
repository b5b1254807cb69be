import Verif.Lemmas.DriftSpan

/-! Shifting data and everything else that refers to locations. -/

set_option linter.unusedSectionVars false

namespace PyKrige
noncomputable section
open Matrix Spec

theorem foldl_max_add (d : ℝ) (l : List ℝ) (a : ℝ) : (l.map (· + d)).foldl max (a + d) = l.foldl max a + d := by
  induction l generalizing a with
  | nil => rfl
  | cons b l ih =>
    simp only [List.map_cons, List.foldl_cons]
    rw [max_add_add_right, ih]

theorem foldl_min_add (d : ℝ) (l : List ℝ) (a : ℝ) : (l.map (· + d)).foldl min (a + d) = l.foldl min a + d := by
  induction l generalizing a with
  | nil => rfl
  | cons b l ih =>
    simp only [List.map_cons, List.foldl_cons]
    rw [min_add_add_right, ih]

theorem amax_add (d : ℝ) (l : List ℝ) : amax (l.map (· + d)) = (· + d) <$> amax l := by
  cases l with
  | nil => rfl
  | cons a l => simp only [List.map_cons, amax, foldl_max_add]; rfl

theorem amin_add (d : ℝ) (l : List ℝ) : amin (l.map (· + d)) = (· + d) <$> amin l := by
  cases l with
  | nil => rfl
  | cons a l => simp only [List.map_cons, amin, foldl_min_add]; rfl

theorem ofFn_add {n : ℕ} (v : Fin n → ℝ) (d : ℝ) : List.ofFn (fun i => v i + d) = (List.ofFn v).map (· + d) := by
  rw [List.map_ofFn]; rfl

theorem midrange_add {n : ℕ} {v : Fin n → ℝ} {c : ℝ} (h : midrange v = .ok c) (d : ℝ) :
    midrange (fun i => v i + d) = .ok (c + d) := by
  unfold midrange at h ⊢
  obtain ⟨a, ha, h⟩ := py_bind_eq_ok.1 h
  obtain ⟨b, hb, h⟩ := py_bind_eq_ok.1 h
  rw [ofFn_add, amax_add, amin_add, ha, hb]
  simp only [py_pure, Except.ok.injEq] at h
  subst h
  change Except.ok _ = _
  congr 1
  ring

theorem adjust2_add (c p : Fin 2 → ℝ) (sc an : ℝ) (d : Fin 2 → ℝ) :
    adjust2 (c + d) sc an (p + d) = adjust2 c sc an p + d := by
  unfold adjust2
  dsimp only
  rw [add_sub_add_right_eq_sub, add_assoc]

theorem adjustData2_add {n : ℕ} (x y : Fin n → ℝ) (xc yc sc an : ℝ) (d : ℝ × ℝ) (i : Fin n) :
    adjustData2 (fun i => x i + d.1) (fun i => y i + d.2) (xc + d.1) (yc + d.2) sc an i =
      adjustData2 x y xc yc sc an i + ![d.1, d.2] := by
  unfold adjustData2
  rw [← adjust2_add]
  congr 1 <;> (funext k; fin_cases k <;> simp)

theorem adjust3_add (c p : Fin 3 → ℝ) (sc : Fin 2 → ℝ) (an : Fin 3 → ℝ) (d : Fin 3 → ℝ) :
    adjust3 (c + d) sc an (p + d) = adjust3 c sc an p + d := by
  unfold adjust3
  dsimp only
  rw [add_sub_add_right_eq_sub, add_assoc]

theorem adjustPoint3_add (xc yc zc : ℝ) (an : Aniso3) (x y z : ℝ) (d : ℝ × ℝ × ℝ) :
    adjustPoint3 (xc + d.1) (yc + d.2.1) (zc + d.2.2) an (x + d.1) (y + d.2.1) (z + d.2.2) =
      adjustPoint3 xc yc zc an x y z + ![d.1, d.2.1, d.2.2] := by
  unfold adjustPoint3
  rw [← adjust3_add]
  congr 1 <;> (funext k; fin_cases k <;> simp)

/-! ### External drift -/

theorem firstGe_add {k : ℕ} (arr : Fin k → ℝ) (v d : ℝ) : firstGe (fun i => arr i + d) (v + d) = firstGe arr v := by
  unfold firstGe
  simp only [ge_iff_le, add_le_add_iff_right]

theorem lastLe_add {k : ℕ} (arr : Fin k → ℝ) (v d : ℝ) : lastLe (fun i => arr i + d) (v + d) = lastLe arr v := by
  unfold lastLe
  simp only [add_le_add_iff_right]

/-- The grid with shifted axes. -/
def ExtDrift.shift (e : ExtDrift) (d : ℝ × ℝ) : ExtDrift :=
  { e with xs := fun i => e.xs i + d.1, ys := fun i => e.ys i + d.2 }

theorem ExtDrift.zScalar_shift (e : ExtDrift) (d : ℝ × ℝ) (x y : ℝ) :
    (e.shift d).zScalar (x + d.1) (y + d.2) = e.zScalar x y := by
  unfold ExtDrift.zScalar ExtDrift.shift
  dsimp only
  rw [ofFn_add, ofFn_add, amax_add, amin_add, amax_add, amin_add, firstGe_add, firstGe_add, lastLe_add, lastLe_add]
  cases amax (List.ofFn e.xs) with
  | error => rfl
  | ok a =>
    cases amin (List.ofFn e.xs) with
    | error => rfl
    | ok b =>
      cases amax (List.ofFn e.ys) with
      | error => rfl
      | ok a' =>
        cases amin (List.ofFn e.ys) with
        | error => rfl
        | ok b' =>
          have m : ∀ (u v : ℝ), ((fun x => x + v) <$> (Except.ok u : Py ℝ)) = Except.ok (u + v) := fun _ _ => rfl
          simp only [m, py_ok_bind, gt_iff_lt, add_lt_add_iff_right, add_sub_add_right_eq_sub]

theorem extDrift_congr {a b a' b' : ℕ} (ha : a' = a) (hb : b' = b) {xs : Fin a → ℝ} {ys : Fin b → ℝ} {z : Fin b → Fin a → ℝ}
    {xs' : Fin a' → ℝ} {ys' : Fin b' → ℝ} {z' : Fin b' → Fin a' → ℝ}
    (hx : ∀ i : Fin a', xs' i = xs (i.cast ha)) (hy : ∀ i : Fin b', ys' i = ys (i.cast hb))
    (hz : ∀ i j, z' i j = z (i.cast hb) (j.cast ha)) :
    (⟨a', b', xs', ys', z'⟩ : ExtDrift) = ⟨a, b, xs, ys, z⟩ := by
  subst ha hb
  have h1 : xs' = xs := funext hx
  have h2 : ys' = ys := funext hy
  have h3 : z' = z := by funext i j; exact hz i j
  rw [h1, h2, h3]

theorem setupExternal_shift {args : UKArgs} {e : ExtDrift} (h : setupExternal args = .ok e) (d : ℝ × ℝ) :
    setupExternal (shiftedUK args d) = .ok (e.shift d) := by
  unfold setupExternal shiftedUK at *
  dsimp only at *
  cases he : args.externalDrift with
  | none => simp [he] at h
  | some g =>
    cases hx : args.externalDriftX with
    | none => simp [he, hx] at h
    | some xs =>
      cases hy : args.externalDriftY with
      | none => simp [he, hx, hy] at h
      | some ys =>
        simp only [he, hx, hy, Option.map_some, List.length_map] at h ⊢
        split at h
        · next c1 =>
          rw [if_pos c1]
          split at h
          · next c2 =>
            rw [if_pos c2]
            cases h
            congr 1
            refine extDrift_congr (List.length_map _) (List.length_map _) ?_ ?_ ?_ <;> intros <;> simp
          · simp at h
        · next c1 =>
          rw [if_neg c1]
          cases h
          congr 1
          refine extDrift_congr (List.length_map _) (List.length_map _) ?_ ?_ ?_ <;> intros <;> simp

theorem atData_shift {n : ℕ} (e : ExtDrift) (d : ℝ × ℝ) (x y : Fin n → ℝ) :
    (e.shift d).atData (fun i => x i + d.1) (fun i => y i + d.2) = e.atData x y := by
  unfold ExtDrift.atData
  simp only [ExtDrift.zScalar_shift]

/-! ### UniversalKriging -/

/-- The object at shifted locations. -/
def UK.shift {n : ℕ} (s : UK n) (d : ℝ × ℝ) : UK n :=
  { s with
    X_ORIG := fun i => s.X_ORIG i + d.1
    Y_ORIG := fun i => s.Y_ORIG i + d.2
    XCENTER := s.XCENTER + d.1
    YCENTER := s.YCENTER + d.2
    X_ADJUSTED := fun i => s.X_ADJUSTED i + d.1
    Y_ADJUSTED := fun i => s.Y_ADJUSTED i + d.2
    pointLog := s.pointLog.map fun wells => wells.map fun w => (w.1 + d.1, w.2.1 + d.2, w.2.2)
    externalZ := s.externalZ.map fun e => (e.1.shift d, e.2)
    functional := s.functional.map fun fs => fs.map fun f => fun x y => f (x - d.1) (y - d.2) }

theorem UK.create_shift {n : ℕ} {env : Env} {x y z : Fin n → ℝ} {args : UKArgs} {s : UK n}
    (h : UK.create env x y z args = .ok s) (d : ℝ × ℝ) :
    UK.create env (fun i => x i + d.1) (fun i => y i + d.2) z (shiftedUK args d) = .ok (s.shift d) := by
  obtain ⟨hp, exact, name, model, fArg, pArg, sc, an, f, fname, xc, yc, vp, lags, ps, stats, ext, plog, spec,
    func, h1, h2, h3, h4, h5, h6, h7, h8, h9, h10, h11, h12, rfl⟩ := UK.create_ok h
  have h4' := midrange_add h4 d.1
  have h5' := midrange_add h5 d.2
  have hsd : SameDist "euclidean" (adjustData2 x y xc yc sc an)
      (adjustData2 (fun i => x i + d.1) (fun i => y i + d.2) (xc + d.1) (yc + d.2) sc an) := by
    refine sameDist2 _ _ _ _ fun i j => ?_
    unfold anisoDist2
    simp
  have h7' := h7
  rw [hsd.initialize] at h7'
  have h8' := h8
  rw [hsd.statistics] at h8'
  have h9' : setupExternalZ (fun i => x i + d.1) (fun i => y i + d.2) (shiftedUK args d) =
      .ok (ext.map fun e => (e.1.shift d, e.2)) := by
    unfold setupExternalZ at h9 ⊢
    change (if "external_Z" ∈ args.driftTerms then _ else _) = _
    split at h9
    · next ht =>
      rw [if_pos ht]
      obtain ⟨e, he, h9⟩ := py_bind_eq_ok.1 h9
      obtain ⟨zs, hz, h9⟩ := py_bind_eq_ok.1 h9
      simp only [py_pure, Except.ok.injEq] at h9
      subst h9
      rw [setupExternal_shift he d, py_ok_bind, atData_shift, hz]
      rfl
    · next ht =>
      rw [if_neg ht]
      cases h9
      rfl
  have h10' : setupPointLog (xc + d.1) (yc + d.2) sc an (shiftedUK args d) =
      .ok (plog.map fun wells => wells.map fun w => (w.1 + d.1, w.2.1 + d.2, w.2.2)) := by
    unfold setupPointLog at h10 ⊢
    change (if "point_log" ∈ args.driftTerms then _ else _) = _
    split at h10
    · next ht =>
      rw [if_pos ht]
      unfold shiftedUK
      dsimp only
      cases hpd : args.pointDrift with
      | none => simp [hpd] at h10
      | some wells =>
        simp only [hpd] at h10
        obtain ⟨hi, rfl⟩ := ok_of_ite h10
        rw [Option.map_some]
        refine (if_neg hi).trans ?_
        simp only [Option.map_some, List.map_map]
        congr 3
        funext w
        have := adjust2_add ![xc, yc] ![w.1, w.2.1] sc an ![d.1, d.2]
        have e1 : (![xc, yc] : Fin 2 → ℝ) + ![d.1, d.2] = ![xc + d.1, yc + d.2] := by
          funext k; fin_cases k <;> simp
        have e2 : (![w.1, w.2.1] : Fin 2 → ℝ) + ![d.1, d.2] = ![w.1 + d.1, w.2.1 + d.2] := by
          funext k; fin_cases k <;> simp
        rw [e1, e2] at this
        simp only [Function.comp]
        rw [this]
        simp
    · next ht =>
      rw [if_neg ht]
      cases h10
      rfl
  have h12' : setupFunctionalTerm (shiftedUK args d).driftTerms (shiftedUK args d).functionalDrift =
      .ok (func.map fun fs => fs.map fun f => fun x y => f (x - d.1) (y - d.2)) := by
    unfold setupFunctionalTerm at h12 ⊢
    change (if "functional" ∈ args.driftTerms then _ else _) = _
    split at h12
    · next ht =>
      rw [if_pos ht]
      obtain ⟨fs, hfs, rfl⟩ := py_map_eq_ok.1 h12
      unfold setupFunctional at hfs ⊢
      unfold shiftedUK
      dsimp only
      cases hf : args.functionalDrift with
      | notList => simp [hf] at hfs
      | list l =>
        cases l with
        | nil => simp [hf] at hfs
        | cons a l =>
          simp only [hf, Except.ok.injEq] at hfs
          subst hfs
          rfl
    · next ht =>
      rw [if_neg ht]
      cases h12
      rfl
  unfold UK.create
  rw [show (shiftedUK args d).pseudoInvType = args.pseudoInvType from rfl,
    show (shiftedUK args d).exactValues = args.exactValues from rfl,
    show (shiftedUK args d).variogramModel = args.variogramModel from rfl,
    show (shiftedUK args d).variogramFunction = args.variogramFunction from rfl,
    show (shiftedUK args d).params = args.params from rfl,
    show (shiftedUK args d).anisotropyScaling = args.anisotropyScaling from rfl,
    show (shiftedUK args d).anisotropyAngle = args.anisotropyAngle from rfl,
    show (shiftedUK args d).nlags = args.nlags from rfl,
    show (shiftedUK args d).weight = args.weight from rfl,
    show (shiftedUK args d).pseudoInv = args.pseudoInv from rfl,
    show (shiftedUK args d).driftTerms = args.driftTerms from rfl,
    show (shiftedUK args d).specifiedDrift = args.specifiedDrift from rfl]
  rw [if_neg (not_not.2 hp)]
  have h12'' : setupFunctionalTerm args.driftTerms (shiftedUK args d).functionalDrift = _ := h12'
  simp only [py_pure, py_ok_bind, h1, h2, h3, h4', h5', h6, h7', h8', h9', h10', h11, h12'']
  unfold UK.shift
  simp only [adjustData2_add]
  rfl

section
variable {n : ℕ} (s : UK n) (d : ℝ × ℝ)

theorem UK.shift_dataDist : (s.shift d).dataDist = s.dataDist := by
  funext i j
  unfold UK.dataDist UK.pts UK.shift euclid
  simp

theorem UK.shift_adjustPoint (p : ℝ × ℝ) : (s.shift d).adjustPoint (p + d) = s.adjustPoint p + ![d.1, d.2] := by
  unfold UK.adjustPoint
  rw [← adjust2_add]
  congr 1 <;> (funext k; fin_cases k <;> simp [UK.shift])

theorem UK.shift_queryDist (p : ℝ × ℝ) : (s.shift d).queryDist (p + d) = s.queryDist p := by
  funext i
  unfold UK.queryDist
  rw [UK.shift_adjustPoint]
  unfold UK.pts UK.shift euclid
  simp

theorem logDist_add (x y wx wy a b : ℝ) : logDist (x + a) (y + b) (wx + a) (wy + b) = logDist x y wx wy := by
  unfold logDist
  simp

theorem UK.shift_extP (p : ℝ × ℝ) : (s.shift d).extP (p + d) = s.extP p := by
  unfold UK.extP UK.shift
  cases s.externalZ with
  | none => rfl
  | some e => exact e.1.zScalar_shift d p.1 p.2

theorem UK.shift_atWell (p : ℝ × ℝ) : (s.shift d).atWell (p + d) ↔ s.atWell p := by
  unfold UK.atWell
  rw [UK.shift_adjustPoint]
  unfold UK.shift
  cases s.pointLog with
  | none => simp
  | some wells =>
    simp only [Option.map_some, Option.getD_some, List.mem_map]
    constructor
    · rintro ⟨_, ⟨w, hw, rfl⟩, h⟩
      exact ⟨w, hw, by simpa using h⟩
    · rintro ⟨w, hw, h⟩
      exact ⟨_, ⟨w, hw, rfl⟩, by simpa using h⟩

theorem UK.shift_drift {sv : List ℝ} (hsv : s.SpecLen sv) (zext : ℝ) (p : ℝ × ℝ) :
    Shifted s.driftData (s.driftAt sv zext p) (s.shift d).driftData ((s.shift d).driftAt sv zext (p + d))
      ((if s.regionalLinear then [d.1, d.2] else []) ++
        (List.replicate (s.driftData.length - if s.regionalLinear then 2 else 0) 0)) := by
  have hlen := s.driftAt_length hsv zext p
  have key : ∀ (R : Bool) (D E : List (Fin n → ℝ)) (fl gl : List ℝ), E.length = gl.length →
      D = (if R then [s.X_ADJUSTED, s.Y_ADJUSTED] else []) ++ E →
      fl = (if R then [s.adjustPoint p 0, s.adjustPoint p 1] else []) ++ gl →
      Shifted D fl
        ((if R then [(s.shift d).X_ADJUSTED, (s.shift d).Y_ADJUSTED] else []) ++ E)
        ((if R then [(s.shift d).adjustPoint (p + d) 0, (s.shift d).adjustPoint (p + d) 1] else []) ++ gl)
        ((if R then [d.1, d.2] else []) ++ (List.replicate (D.length - if R then 2 else 0) 0)) := by
    rintro R D E fl gl he rfl rfl
    have : ((if R then [s.X_ADJUSTED, s.Y_ADJUSTED] else []) ++ E).length - (if R then 2 else 0) = E.length := by
      cases R <;> simp
    rw [this]
    refine Shifted.append ?_ (Shifted.refl he.symm)
    rw [UK.shift_adjustPoint]
    cases R
    · exact ⟨rfl, rfl, rfl, rfl⟩
    · exact ⟨rfl, rfl, rfl, rfl⟩
  have := key s.regionalLinear s.driftData
    ((s.pointLog.getD []).map (fun w k => -w.2.2 * logDist (s.X_ADJUSTED k) (s.Y_ADJUSTED k) w.1 w.2.1) ++
      (match s.externalZ with | some e => [e.2] | none => []) ++ s.specified.getD [] ++
      (s.functional.getD []).map (fun g k => g (s.X_ADJUSTED k) (s.Y_ADJUSTED k)))
    (s.driftAt sv zext p)
    ((s.pointLog.getD []).map (fun w => -w.2.2 * logDist (s.adjustPoint p 0) (s.adjustPoint p 1) w.1 w.2.1) ++
      (match s.externalZ with | some _ => [zext] | none => []) ++ (match s.specified with | some _ => sv | none => []) ++
      (s.functional.getD []).map (fun g => g (s.adjustPoint p 0) (s.adjustPoint p 1))) ?_ ?_ ?_
  · convert this using 1
    · unfold UK.driftData UK.shift
      dsimp only
      cases s.pointLog <;> cases s.externalZ <;> cases s.specified <;> cases s.functional <;>
        simp [List.map_map, Function.comp_def, logDist_add]
    · unfold UK.driftAt
      rw [UK.shift_adjustPoint]
      unfold UK.shift
      dsimp only
      cases s.pointLog <;> cases s.externalZ <;> cases s.specified <;> cases s.functional <;>
        simp [List.map_map, Function.comp_def, logDist_add]
  · cases hs : s.specified with
    | none => cases s.externalZ <;> simp
    | some l =>
      have := hsv l hs
      cases s.externalZ <;> simp [this]
  · unfold UK.driftData
    cases s.externalZ <;> simp [List.append_assoc]
  · unfold UK.driftAt
    cases s.externalZ <;> cases s.specified <;> simp [List.append_assoc]

end


/-- Comparing two `UK` objects. -/
theorem UK.transfer' {n m : ℕ} {s : UK n} {s' : UK m} (ht : s.pseudoInvType ∈ ["pinv", "pinvh"])
    (ht' : s'.pseudoInvType ∈ ["pinv", "pinvh"]) {ea ea' : UKExecArgs} {T : ℝ × ℝ → ℝ × ℝ}
    (hm : Moved T ea.toExec ea'.toExec) (hsp : ea'.spec = ea.spec) (e1 : s'.variogramFunction = s.variogramFunction)
    (e2 : s'.params = s.params) (e3 : s'.specified.map List.length = s.specified.map List.length) 
    (e4 : s.specified = none ∨ ea.toExec.backend = "vectorized" ∨ s'.specStart = s.specStart)
    (hext : ∀ p, s'.extP (T p) = s.extP p) (hwell : ∀ p, s'.atWell (T p) ↔ s.atWell p)
    (hsol : Solvable s.pseudoInv (s.G s.gam) s.F → Solvable s'.pseudoInv (s'.G s.gam) s'.F)
    (hans : ∀ (sv : List ℝ) (zext : ℝ) (p : ℝ × ℝ), s.SpecLen sv → Solvable s.pseudoInv (s.G s.gam) s.F →
      s'.answer s.gam sv zext (T p) = s.answer s.gam sv zext p)
    {r : ExecResult} (hr : s.execute ea = .ok r) : s'.execute ea' = .ok r := by
  have h1 := UK.pointwise ht ea
  have h2 := UK.pointwise ht' ea'
  have eg : s'.gam = s.gam := by unfold UK.gam; rw [e1, e2]
  have hgrids : s'.specGrids ea' = s.specGrids ea := by
    unfold UK.specGrids
    rw [hsp, hm.style, hm.lengthX, hm.lengthY]
    cases h1 : s.specified <;> cases h2 : s'.specified <;> simp_all
  have hspecs : s'.specs ea' = s.specs ea := by unfold UK.specs; rw [hgrids]
  have hloop : ea.toExec.backend ≠ "vectorized" → ∀ l, s'.loopSpec l = s.loopSpec l := by
    intro hb l
    unfold UK.loopSpec
    rcases e4 with e4 | e4 | e4
    · cases h2 : s'.specified <;> simp_all
    · exact absurd e4 hb
    · rw [e4]
      cases h1 : s.specified <;> cases h2 : s'.specified <;> simp_all
  have hsv : ∀ j, s'.sv ea' j = s.sv ea j := by
    intro j
    unfold UK.sv
    rw [hm.backend, hspecs]
    split
    · rfl
    · next hb => rw [hloop hb]
  obtain ⟨r', hr', g1, g2, g3⟩ := h1.transfer h2 hr (fun a => ⟨by rw [hm.style]; exact a.style,
      by rw [e1, e2]; exact a.vario, hm.queryPoints a.query, by rw [hgrids]; exact a.spec,
      by
        have := a.noInt
        rcases hm.dtype with h | ⟨h1, h2⟩
        · simp [h]
        · rw [h1, h2]; exact this, by rw [hm.backend]; exact a.backend, by rw [eg]; exact hsol a.solvable⟩)
    (fun _ => T) hm.query (fun j _ _ => hm.maskedAt j) (fun j hj => Or.inl hj)
    (fun a j p hp hn hv => by
      obtain ⟨⟨z, hz⟩, hl⟩ := hv (by rw [← hm.maskedAt j, ← hm.backend]; exact hn)
      refine ⟨⟨z, by rw [hext]; exact hz⟩, fun hb => ?_⟩
      rw [hm.backend] at hb
      obtain ⟨h1, h2⟩ := hl hb
      refine ⟨fun hc => h1 ((hwell p).1 hc), ?_⟩
      rw [hloop (by rw [hb]; decide), hspecs]
      exact h2) id id
    (fun a _ j p hp _ hv => by
      obtain ⟨g, hg⟩ := a.spec
      have hlen : s.SpecLen (s.sv ea j) := by
        unfold UK.sv
        rw [UK.specs_eq hg]
        split
        · intro l hl
          rw [specAt, List.length_map]
          exact UK.specGrids_len hg l hl
        · next hb =>
          obtain ⟨l, hl⟩ := (hv.2 (a.backend.resolve_left hb)).2
          rw [UK.specs_eq hg] at hl
          rw [hl]
          exact UK.loopSpec_len s (UK.specGrids_len hg) hl
      have hev : s'.extVal (T p) = s.extVal p := by unfold UK.extVal; rw [hext]
      unfold UK.ans
      rw [eg, hsv, hev]
      exact hans _ _ p hlen a.solvable)
  · have : r' = r := by
      have t := (h1.table r hr).shape_eq
      obtain ⟨a, b, c⟩ := r
      obtain ⟨a', b', c'⟩ := r'
      simp only [Option.map_id, List.map_id] at g2 g3
      dsimp only at t g1 g2 g3
      rw [g1, g2, g3, t, hm.resultShape]
    rw [hr', this]

theorem UK.transfer {n m : ℕ} {s : UK n} {s' : UK m} (ht : s.pseudoInvType ∈ ["pinv", "pinvh"])
    (ht' : s'.pseudoInvType ∈ ["pinv", "pinvh"]) {ea ea' : UKExecArgs} {T : ℝ × ℝ → ℝ × ℝ}
    (hm : Moved T ea.toExec ea'.toExec) (hsp : ea'.spec = ea.spec) (e1 : s'.variogramFunction = s.variogramFunction)
    (e2 : s'.params = s.params) (e3 : s'.specified.map List.length = s.specified.map List.length) (e4 : s'.specStart = s.specStart)
    (hext : ∀ p, s'.extP (T p) = s.extP p) (hwell : ∀ p, s'.atWell (T p) ↔ s.atWell p)
    (hsol : Solvable s.pseudoInv (s.G s.gam) s.F → Solvable s'.pseudoInv (s'.G s.gam) s'.F)
    (hans : ∀ (sv : List ℝ) (zext : ℝ) (p : ℝ × ℝ), s.SpecLen sv → Solvable s.pseudoInv (s.G s.gam) s.F →
      s'.answer s.gam sv zext (T p) = s.answer s.gam sv zext p)
    {r : ExecResult} (hr : s.execute ea = .ok r) : s'.execute ea' = .ok r :=
  UK.transfer' ht ht' hm hsp e1 e2 e3 (.inr (.inr e4)) hext hwell hsol hans hr

/-- Shifting everything does not change the results. -/
theorem UK.shift_execute {n : ℕ} {s : UK n} (ht : s.pseudoInvType ∈ ["pinv", "pinvh"])
    (hp : s.pseudoInv = false ∨ s.regionalLinear = false) (d : ℝ × ℝ) {ea : UKExecArgs} {r : ExecResult}
    (hr : s.execute ea = .ok r) :
    (s.shift d).execute { ea with toExec := shifted ea.toExec d } = .ok r := by
  have hG : (s.shift d).G s.gam = s.G s.gam := by unfold UK.G; rw [UK.shift_dataDist]
  have hg : ∀ p, (s.shift d).g s.gam (p + d) = s.g s.gam p := by
    intro p; unfold UK.g; rw [UK.shift_queryDist]; rfl
  have hid : s.regionalLinear = false → ∀ {sv}, s.SpecLen sv → ∀ zext p,
      (s.shift d).driftData = s.driftData ∧ (s.shift d).driftAt sv zext (p + d) = s.driftAt sv zext p := by
    intro hf sv hsv zext p
    have h := UK.shift_drift s d hsv zext p
    rw [hf] at h
    have h' := Shifted.refl (s.driftAt_length hsv zext p)
    have e1 := h.data
    have e2 := h.at_
    simp only [Bool.false_eq_true, if_false, List.nil_append, Nat.sub_zero] at e1 e2
    exact ⟨e1.trans h'.data.symm, e2.trans h'.at_.symm⟩
  have hsl : s.SpecLen (List.replicate (s.specified.getD []).length 0) := by intro l hl; simp [hl]
  refine UK.transfer (ea := ea) (ea' := { ea with toExec := shifted ea.toExec d }) ht (s' := s.shift d) ht (moved_shifted ea.toExec d) rfl rfl rfl rfl ?_ (UK.shift_extP s d)
    (UK.shift_atWell s d) ?_ ?_ hr
  · unfold UK.specStart UK.shift
    cases s.pointLog <;> cases s.externalZ <;> simp
  · intro hs
    have hreg : RegularL (s.G s.gam) s.driftData → RegularL (s.G s.gam) (s.shift d).driftData :=
      fun h => (UK.shift_drift s d hsl 0 0).regular h
    rcases hs with hs | hs
    · exact .inl hs
    · right
      rw [hG]
      exact hreg hs
  · intro sv zext p hsv hs
    rw [UK.answer_eqL, UK.answer_eqL, hG, hg]
    rcases hp with hp | hp
    · refine (UK.shift_drift s d hsv zext p).answer ?_ _ _ _ _
      rcases hs with hs | hs
      · rw [hp] at hs; cases hs
      · exact hs
    · obtain ⟨a1, a2⟩ := hid hp hsv zext p
      rw [a1, a2]
      rfl

/-! ### UniversalKriging3D -/

/-- The object at shifted locations. -/
def UK3D.shift {n : ℕ} (s : UK3D n) (d : ℝ × ℝ × ℝ) : UK3D n :=
  { s with
    X_ORIG := fun i => s.X_ORIG i + d.1
    Y_ORIG := fun i => s.Y_ORIG i + d.2.1
    Z_ORIG := fun i => s.Z_ORIG i + d.2.2
    XCENTER := s.XCENTER + d.1
    YCENTER := s.YCENTER + d.2.1
    ZCENTER := s.ZCENTER + d.2.2
    X_ADJUSTED := fun i => s.X_ADJUSTED i + d.1
    Y_ADJUSTED := fun i => s.Y_ADJUSTED i + d.2.1
    Z_ADJUSTED := fun i => s.Z_ADJUSTED i + d.2.2
    functional := s.functional.map fun fs => fs.map fun f => fun x y z => f (x - d.1) (y - d.2.1) (z - d.2.2) }

theorem UK3D.create_shift {n : ℕ} {env : Env} {x y z v : Fin n → ℝ} {args : UK3DArgs} {s : UK3D n}
    (h : UK3D.create env x y z v args = .ok s) (d : ℝ × ℝ × ℝ) :
    UK3D.create env (fun i => x i + d.1) (fun i => y i + d.2.1) (fun i => z i + d.2.2) v (shiftedUK3 args d) =
      .ok (s.shift d) := by
  obtain ⟨hp, exact, name, model, fArg, pArg, an, f, fname, xc, yc, zc, vp, lags, ps, stats, spec, func,
    h1, h2, h3, h4, h5, h6, h7, h8, h9, h10, h11, rfl⟩ := UK3D.create_ok h
  have h4' := midrange_add h4 d.1
  have h5' := midrange_add h5 d.2.1
  have h6' := midrange_add h6 d.2.2
  have hsd : SameDist "euclidean" (fun i => adjustPoint3 xc yc zc an (x i) (y i) (z i))
      (fun i => adjustPoint3 (xc + d.1) (yc + d.2.1) (zc + d.2.2) an (x i + d.1) (y i + d.2.1) (z i + d.2.2)) := by
    refine sameDist_euclidean fun i j => ?_
    rw [adjustPoint3_add, adjustPoint3_add]
    unfold euclid
    simp
  have h8' := h8
  rw [hsd.initialize] at h8'
  have h9' := h9
  rw [hsd.statistics] at h9'
  have h11' : setupFunctionalTerm args.driftTerms (shiftedUK3 args d).functionalDrift =
      .ok (func.map fun fs => fs.map fun f => fun x y z => f (x - d.1) (y - d.2.1) (z - d.2.2)) := by
    unfold setupFunctionalTerm at h11 ⊢
    split at h11
    · next ht =>
      rw [if_pos ht]
      obtain ⟨fs, hfs, rfl⟩ := py_map_eq_ok.1 h11
      unfold setupFunctional at hfs ⊢
      unfold shiftedUK3
      dsimp only
      cases hf : args.functionalDrift with
      | notList => simp [hf] at hfs
      | list l =>
        cases l with
        | nil => simp [hf] at hfs
        | cons a l =>
          simp only [hf, Except.ok.injEq] at hfs
          subst hfs
          rfl
    · next ht =>
      rw [if_neg ht]
      cases h11
      rfl
  unfold UK3D.create
  rw [show (shiftedUK3 args d).pseudoInvType = args.pseudoInvType from rfl,
    show (shiftedUK3 args d).exactValues = args.exactValues from rfl,
    show (shiftedUK3 args d).variogramModel = args.variogramModel from rfl,
    show (shiftedUK3 args d).variogramFunction = args.variogramFunction from rfl,
    show (shiftedUK3 args d).params = args.params from rfl,
    show (shiftedUK3 args d).aniso = args.aniso from rfl,
    show (shiftedUK3 args d).nlags = args.nlags from rfl,
    show (shiftedUK3 args d).weight = args.weight from rfl,
    show (shiftedUK3 args d).pseudoInv = args.pseudoInv from rfl,
    show (shiftedUK3 args d).driftTerms = args.driftTerms from rfl,
    show (shiftedUK3 args d).specifiedDrift = args.specifiedDrift from rfl]
  rw [if_neg (not_not.2 hp)]
  simp only [py_pure, py_ok_bind, h1, h2, h3, h4', h5', h6', h7, h8', h9', h10, h11']
  unfold UK3D.shift
  simp only [adjustPoint3_add]
  rfl

section
variable {n : ℕ} (s : UK3D n) (d : ℝ × ℝ × ℝ)

theorem UK3D.shift_dataDist : (s.shift d).dataDist = s.dataDist := by
  funext i j
  unfold UK3D.dataDist UK3D.pts UK3D.shift euclid
  simp [Fin.sum_univ_succ]

theorem UK3D.shift_adjustPoint (p : ℝ × ℝ × ℝ) :
    (s.shift d).adjustPoint (p + d) = s.adjustPoint p + ![d.1, d.2.1, d.2.2] := by
  unfold UK3D.adjustPoint
  rw [← adjustPoint3_add]
  rfl

theorem UK3D.shift_queryDist (p : ℝ × ℝ × ℝ) : (s.shift d).queryDist (p + d) = s.queryDist p := by
  funext i
  unfold UK3D.queryDist
  rw [UK3D.shift_adjustPoint]
  unfold UK3D.pts UK3D.shift euclid
  simp [Fin.sum_univ_succ]

theorem UK3D.shift_drift {sv : List ℝ} (hsv : s.SpecLen sv) (p : ℝ × ℝ × ℝ) :
    Shifted s.driftData (s.driftAt sv p) (s.shift d).driftData ((s.shift d).driftAt sv (p + d))
      ((if s.regionalLinear then [d.1, d.2.1, d.2.2] else []) ++
        (List.replicate (s.driftData.length - if s.regionalLinear then 3 else 0) 0)) := by
  have key : ∀ (R : Bool) (D E : List (Fin n → ℝ)) (fl gl : List ℝ), E.length = gl.length →
      D = (if R then [s.X_ADJUSTED, s.Y_ADJUSTED, s.Z_ADJUSTED] else []) ++ E →
      fl = (if R then [s.adjustPoint p 0, s.adjustPoint p 1, s.adjustPoint p 2] else []) ++ gl →
      Shifted D fl
        ((if R then [(s.shift d).X_ADJUSTED, (s.shift d).Y_ADJUSTED, (s.shift d).Z_ADJUSTED] else []) ++ E)
        ((if R then [(s.shift d).adjustPoint (p + d) 0, (s.shift d).adjustPoint (p + d) 1,
          (s.shift d).adjustPoint (p + d) 2] else []) ++ gl)
        ((if R then [d.1, d.2.1, d.2.2] else []) ++ (List.replicate (D.length - if R then 3 else 0) 0)) := by
    rintro R D E fl gl he rfl rfl
    have : ((if R then [s.X_ADJUSTED, s.Y_ADJUSTED, s.Z_ADJUSTED] else []) ++ E).length - (if R then 3 else 0) =
        E.length := by
      cases R <;> simp
    rw [this]
    refine Shifted.append ?_ (Shifted.refl he.symm)
    rw [UK3D.shift_adjustPoint]
    cases R
    · exact ⟨rfl, rfl, rfl, rfl⟩
    · exact ⟨rfl, rfl, rfl, rfl⟩
  have := key s.regionalLinear s.driftData
    (s.specified.getD [] ++
      (s.functional.getD []).map (fun g k => g (s.X_ADJUSTED k) (s.Y_ADJUSTED k) (s.Z_ADJUSTED k)))
    (s.driftAt sv p)
    ((match s.specified with | some _ => sv | none => []) ++
      (s.functional.getD []).map (fun g => g (s.adjustPoint p 0) (s.adjustPoint p 1) (s.adjustPoint p 2))) ?_ ?_ ?_
  · convert this using 1
    · unfold UK3D.driftData UK3D.shift
      dsimp only
      cases s.functional <;> simp [List.map_map, Function.comp_def]
    · unfold UK3D.driftAt
      rw [UK3D.shift_adjustPoint]
      unfold UK3D.shift
      dsimp only
      cases s.specified <;> cases s.functional <;> simp [List.map_map, Function.comp_def]
  · cases hs : s.specified with
    | none => simp
    | some l =>
      have := hsv l hs
      simp [this]
  · unfold UK3D.driftData
    simp [List.append_assoc]
  · unfold UK3D.driftAt
    cases s.specified <;> simp [List.append_assoc]

end

/-- Comparing two `UK3D` objects. -/
theorem UK3D.transfer' {n m : ℕ} {s : UK3D n} {s' : UK3D m} (ht : s.pseudoInvType ∈ ["pinv", "pinvh"])
    (ht' : s'.pseudoInvType ∈ ["pinv", "pinvh"]) {ea ea' : UK3DExecArgs} {T : ℝ × ℝ × ℝ → ℝ × ℝ × ℝ}
    (hm : Moved3 T ea.toExec ea'.toExec) (hsp : ea'.spec = ea.spec) (e1 : s'.variogramFunction = s.variogramFunction)
    (e2 : s'.params = s.params) (e3 : s'.specified.map List.length = s.specified.map List.length) 
    (e4 : s.specified = none ∨ ea.toExec.backend = "vectorized" ∨ s'.specStart = s.specStart)
    (hsol : Solvable s.pseudoInv (s.G s.gam) s.F → Solvable s'.pseudoInv (s'.G s.gam) s'.F)
    (hans : ∀ (sv : List ℝ) (p : ℝ × ℝ × ℝ), s.SpecLen sv → Solvable s.pseudoInv (s.G s.gam) s.F →
      s'.answer s.gam sv (T p) = s.answer s.gam sv p)
    {r : ExecResult} (hr : s.execute ea = .ok r) : s'.execute ea' = .ok r := by
  have h1 := UK3D.pointwise ht ea
  have h2 := UK3D.pointwise ht' ea'
  have eg : s'.gam = s.gam := by unfold UK3D.gam; rw [e1, e2]
  have hgrids : s'.specGrids ea' = s.specGrids ea := by
    unfold UK3D.specGrids
    rw [hsp, hm.style, hm.lengthX, hm.lengthY, hm.lengthZ]
    cases h1 : s.specified <;> cases h2 : s'.specified <;> simp_all
  have hspecs : s'.specs ea' = s.specs ea := by unfold UK3D.specs; rw [hgrids]
  have hloop : ea.toExec.backend ≠ "vectorized" → ∀ l, s'.loopSpec l = s.loopSpec l := by
    intro hb l
    unfold UK3D.loopSpec
    rcases e4 with e4 | e4 | e4
    · cases h2 : s'.specified <;> simp_all
    · exact absurd e4 hb
    · rw [e4]
      cases h1 : s.specified <;> cases h2 : s'.specified <;> simp_all
  have hsv : ∀ j, s'.sv ea' j = s.sv ea j := by
    intro j
    unfold UK3D.sv
    rw [hm.backend, hspecs]
    split
    · rfl
    · next hb => rw [hloop hb]
  obtain ⟨r', hr', g1, g2, g3⟩ := h1.transfer h2 hr (fun a => ⟨by rw [hm.style]; exact a.style,
      by rw [e1, e2]; exact a.vario, hm.queryPoints a.query, by rw [hgrids]; exact a.spec,
      by
        have := a.noInt
        rcases hm.dtype with h | ⟨h1, h2, h3⟩
        · simp [h]
        · rw [h1, h2, h3]; exact this, by rw [hm.backend]; exact a.backend, by rw [eg]; exact hsol a.solvable⟩)
    (fun _ => T) hm.query (fun j _ _ => hm.maskedAt j) (fun j hj => Or.inl hj)
    (fun a j p hp hn hv => by
      exact fun hb => by
        rw [hm.backend] at hb; rw [hloop (by rw [hb]; decide), hspecs]; exact hv (by rw [← hm.maskedAt j, ← hm.backend]; exact hn) hb) id id
    (fun a _ j p hp _ hv => by
      obtain ⟨g, hg⟩ := a.spec
      have hlen : s.SpecLen (s.sv ea j) := by
        unfold UK3D.sv
        rw [UK3D.specs_eq hg]
        split
        · intro l hl
          rw [specAt, List.length_map]
          exact UK3D.specGrids_len hg l hl
        · next hb =>
          obtain ⟨l, hl⟩ := hv (a.backend.resolve_left hb)
          rw [UK3D.specs_eq hg] at hl
          rw [hl]
          exact UK3D.loopSpec_len s (UK3D.specGrids_len hg) hl
      unfold UK3D.ans
      rw [eg, hsv]
      exact hans _ p hlen a.solvable)
  · have : r' = r := by
      have t := (h1.table r hr).shape_eq
      obtain ⟨a, b, c⟩ := r
      obtain ⟨a', b', c'⟩ := r'
      simp only [Option.map_id, List.map_id] at g2 g3
      dsimp only at t g1 g2 g3
      rw [g1, g2, g3, t, hm.resultShape]
    rw [hr', this]

theorem UK3D.transfer {n m : ℕ} {s : UK3D n} {s' : UK3D m} (ht : s.pseudoInvType ∈ ["pinv", "pinvh"])
    (ht' : s'.pseudoInvType ∈ ["pinv", "pinvh"]) {ea ea' : UK3DExecArgs} {T : ℝ × ℝ × ℝ → ℝ × ℝ × ℝ}
    (hm : Moved3 T ea.toExec ea'.toExec) (hsp : ea'.spec = ea.spec) (e1 : s'.variogramFunction = s.variogramFunction)
    (e2 : s'.params = s.params) (e3 : s'.specified.map List.length = s.specified.map List.length) (e4 : s'.specStart = s.specStart)
    (hsol : Solvable s.pseudoInv (s.G s.gam) s.F → Solvable s'.pseudoInv (s'.G s.gam) s'.F)
    (hans : ∀ (sv : List ℝ) (p : ℝ × ℝ × ℝ), s.SpecLen sv → Solvable s.pseudoInv (s.G s.gam) s.F →
      s'.answer s.gam sv (T p) = s.answer s.gam sv p)
    {r : ExecResult} (hr : s.execute ea = .ok r) : s'.execute ea' = .ok r :=
  UK3D.transfer' ht ht' hm hsp e1 e2 e3 (.inr (.inr e4)) hsol hans hr

theorem UK3D.shift_execute {n : ℕ} {s : UK3D n} (ht : s.pseudoInvType ∈ ["pinv", "pinvh"])
    (hp : s.pseudoInv = false ∨ s.regionalLinear = false) (d : ℝ × ℝ × ℝ) {ea : UK3DExecArgs} {r : ExecResult}
    (hr : s.execute ea = .ok r) :
    (s.shift d).execute { ea with toExec := shifted3 ea.toExec d } = .ok r := by
  have hG : (s.shift d).G s.gam = s.G s.gam := by unfold UK3D.G; rw [UK3D.shift_dataDist]
  have hg : ∀ p, (s.shift d).g s.gam (p + d) = s.g s.gam p := by
    intro p; unfold UK3D.g; rw [UK3D.shift_queryDist]; rfl
  have hid : s.regionalLinear = false → ∀ {sv}, s.SpecLen sv → ∀ p,
      (s.shift d).driftData = s.driftData ∧ (s.shift d).driftAt sv (p + d) = s.driftAt sv p := by
    intro hf sv hsv p
    have h := UK3D.shift_drift s d hsv p
    rw [hf] at h
    have h' := Shifted.refl (s.driftAt_length hsv p)
    have e1 := h.data
    have e2 := h.at_
    simp only [Bool.false_eq_true, if_false, List.nil_append, Nat.sub_zero] at e1 e2
    exact ⟨e1.trans h'.data.symm, e2.trans h'.at_.symm⟩
  have hsl : s.SpecLen (List.replicate (s.specified.getD []).length 0) := by intro l hl; simp [hl]
  refine UK3D.transfer (ea := ea) (ea' := { ea with toExec := shifted3 ea.toExec d }) ht (s' := s.shift d) ht (moved_shifted3 ea.toExec d) rfl rfl rfl rfl rfl ?_ ?_ hr
  · intro hs
    have hreg : RegularL (s.G s.gam) s.driftData → RegularL (s.G s.gam) (s.shift d).driftData :=
      fun h => (UK3D.shift_drift s d hsl 0).regular h
    rcases hs with hs | hs
    · exact .inl hs
    · right
      rw [hG]
      exact hreg hs
  · intro sv p hsv hs
    rw [UK3D.answer_eqL, UK3D.answer_eqL, hG, hg]
    rcases hp with hp | hp
    · refine (UK3D.shift_drift s d hsv p).answer ?_ _ _ _ _
      rcases hs with hs | hs
      · rw [hp] at hs; cases hs
      · exact hs
    · obtain ⟨a1, a2⟩ := hid hp hsv p
      rw [a1, a2]
      rfl

end
end PyKrige
