import Verif.Lemmas.Sel
import Verif.Lemmas.Backend
import Verif.Examples.Demo

/-!
# C11: a moving window kriges from its neighbours and from nothing else
-/

set_option linter.unusedSectionVars false

namespace PyKrige
noncomputable section
open Matrix Spec

/-- `OrdinaryKriging`: for each visible query point there are `k` different data, none of the others nearer
to it, such that the values returned by the moving window are the ones that an object constructed with the
same arguments from these `k` data only returns (without moving window) at that point. -/
theorem C11_neighbours_2d {n : ℕ} {env : Env} {x y z : Fin n → ℝ} {args : OKArgs} {s : OK n}
    (h : OK.create env x y z args = .ok s) (hg : ParamsGiven args.variogramModel args.params)
    {ea : ExecArgs} {k : ℕ} (hk : ea.nClosest = some (k : ℤ)) (ha : Admissible env args s ea.nClosest)
    {r : ExecResult} (hr : s.execute env ea = .ok r) {j : ℕ} {p : ℝ × ℝ} (hq : queryAt ea j = some p)
    (hm : maskedAt ea j = false) :
    ∃ sel : Fin k → Fin n, Function.Injective sel ∧
      (∀ i i', i' ∉ Set.range sel →
        distance2 s.coordinatesType s.anisotropyScaling s.anisotropyAngle p (x (sel i), y (sel i)) ≤
        distance2 s.coordinatesType s.anisotropyScaling s.anisotropyAngle p (x i', y i')) ∧
      ∃ v w, r.z[j]? = some (some v) ∧ r.ss[j]? = some (some w) ∧
        ∀ s', OK.create env (x ∘ sel) (y ∘ sel) (z ∘ sel) args = .ok s' → ∀ b, Supports env args none b →
          s'.execute env (pointsCall [p] b) = .ok ⟨[1], [some v], [some w]⟩ := by
  have h1 := OK.create_pw h ha
  obtain ⟨acc, hval⟩ := h1.ok_iff.1 ⟨r, hr⟩
  have hkn : k ≤ n := by have := ha.window k hk; omega
  obtain ⟨hl, hnd⟩ := OK.sel_spec ha.knn s hkn p
  obtain ⟨hpl, hX, hY, hZ⟩ := OK.create_placed h
  set l := s.sel env k p with hldef
  set sel : Fin k → Fin n := fun i => l.get (i.cast hl.symm) with hsel
  have hinj : Function.Injective sel := fun i i' e => by
    have := List.nodup_iff_injective_get.1 hnd e
    simpa using this
  have hmem : ∀ a, a ∈ l ↔ a ∈ Set.range sel := by
    intro a
    rw [List.mem_iff_get]
    constructor
    · rintro ⟨i, rfl⟩; exact ⟨i.cast hl, by simp [hsel]⟩
    · rintro ⟨i, rfl⟩; exact ⟨_, rfl⟩
  have hrow := (h1.table r hr).at_point hq hm
  refine ⟨sel, hinj, fun i i' hi' => ?_, _, _, hrow.1, hrow.2, fun s' h' b hb => ?_⟩
  · have := OK.sel_nearest ha.knn s hkn p ((hmem (sel i)).2 ⟨i, rfl⟩) (fun hc => hi' ((hmem i').1 hc))
    rw [hpl.queryDist, hpl.queryDist, hX, hY] at this
    exact this
  · obtain ⟨hpl', hX', hY', hZ'⟩ := OK.create_placed h'
    obtain ⟨e1, e2, e3, e4, e5, e6, e7, e8, e9⟩ := OK.create_model h h' hg
    have hgam : s'.gam = s.gam := by unfold OK.gam; rw [e1, e3]
    have hD : s'.dataDist = fun i i' => s.dataDist (sel i) (sel i') := by
      funext i i'
      rw [hpl'.dataDist, hpl.dataDist, e7, e8, e9, hX', hY', hX, hY]
      rfl
    have hd : s'.queryDist (s'.queryPt p) = fun i => s.queryDist (s.queryPt p) (sel i) := by
      funext i
      rw [hpl'.queryDist, hpl.queryDist, e7, e8, e9, hX', hY', hX, hY]
      rfl
    have hreg : Regular (semivar s'.gam s'.dataDist) (noF : Fin 0 → Fin k → ℝ) := by
      have := (selRegular_fun hl _ _).1 (hval j p hq hm k hk)
      rw [hD, hgam]
      exact this
    have h2 := OK.create_pw h' (ea := pointsCall [p] b)
      ⟨ha.knn, ha.noClash, by rw [e2, e3]; exact ha.range, by simp [WindowFits, pointsCall]⟩
    obtain ⟨r', hr'⟩ := h2.ok_iff.2 ⟨⟨by simp [pointsCall], fun k' hk' => by simp [pointsCall] at hk',
      by rw [e1, e3]; exact acc.vario, ⟨_, queryPoints_pointsCall _ _⟩, by simp [pointsCall],
      (OK.check_iff h' ha.noClash (by rw [e1, e3]; exact acc.vario) _).2 hb, fun _ => .inr hreg⟩,
      fun _ _ _ _ k' hk' => by simp [pointsCall] at hk'⟩
    have hans : s'.ans env none p = s.ans env ea.nClosest p := by
      rw [hk]
      change krigAnswer s'.pseudoInv (semivar s'.gam s'.dataDist) noF s'.Z
        (semivarTo s'.exactValues s'.gam (s'.queryDist (s'.queryPt p))) 0 = selAnswer l _ _ _ _ _
      rw [krigAnswer_of_regular hreg, selAnswer_fun hl, hD, hd, hgam, e5, hZ', hZ]
      rfl
    rw [hr']
    congr 1
    refine (h2.table r' hr').unique ⟨by simp [pointsCall, resultShape], fun i => ?_, fun i => ?_⟩
    · rw [queryAt_pointsCall, maskedAt_pointsCall]
      cases i with
      | zero => simp [pointsCall, hans]
      | succ i => simp
    · rw [queryAt_pointsCall, maskedAt_pointsCall]
      cases i with
      | zero => simp [pointsCall, hans]
      | succ i => simp

/-- With `enable_statistics=False` that smaller object exists. -/
theorem C11_subset_exists_2d {n : ℕ} {env : Env} {x y z : Fin n → ℝ} {args : OKArgs} {s : OK n}
    (h : OK.create env x y z args = .ok s) (hg : ParamsGiven args.variogramModel args.params)
    (hs : args.enableStatistics = false) {ea : ExecArgs} {k : ℕ} (hk : ea.nClosest = some (k : ℤ))
    {r : ExecResult} (ha : Admissible env args s ea.nClosest)
    (hr : s.execute env ea = .ok r) (sel : Fin k → Fin n) :
    ∃ s', OK.create env (x ∘ sel) (y ∘ sel) (z ∘ sel) args = .ok s' := by
  obtain ⟨acc, -⟩ := (OK.create_pw h ha).ok_iff.1 ⟨r, hr⟩
  have := acc.win k hk
  exact OK.create_exists h hg hs (by omega) _ _ _

/-- `OrdinaryKriging3D`. -/
theorem C11_neighbours_3d {n : ℕ} {env : Env} {x y z v : Fin n → ℝ} {args : OK3DArgs} {s : OK3D n}
    (h : OK3D.create env x y z v args = .ok s) (hg : ParamsGiven args.variogramModel args.params)
    {ea : ExecArgs3} {k : ℕ} (hk : ea.nClosest = some (k : ℤ)) (hkn' : KnnSpec env)
    (hw : WindowFits n ea.nClosest)
    {r : ExecResult} (hr : s.execute env ea = .ok r) {j : ℕ} {p : ℝ × ℝ × ℝ} (hq : queryAt3 ea j = some p)
    (hm : maskedAt3 ea j = false) :
    ∃ sel : Fin k → Fin n, Function.Injective sel ∧
      (∀ i i', i' ∉ Set.range sel →
        distance3 s.aniso p (x (sel i), y (sel i), z (sel i)) ≤ distance3 s.aniso p (x i', y i', z i')) ∧
      ∃ a w, r.z[j]? = some (some a) ∧ r.ss[j]? = some (some w) ∧
        ∀ s', OK3D.create env (x ∘ sel) (y ∘ sel) (z ∘ sel) (v ∘ sel) args = .ok s' →
          ∀ b, b = "loop" ∨ b = "vectorized" →
            s'.execute env (pointsCall3 [p] b) = .ok ⟨[1], [some a], [some w]⟩ := by
  have h1 := OK3D.create_pw h hkn' hw
  obtain ⟨acc, hval⟩ := h1.ok_iff.1 ⟨r, hr⟩
  have hkn : k ≤ n := by have := hw k hk; omega
  obtain ⟨hl, hnd⟩ := OK3D.sel_spec hkn' s hkn p
  obtain ⟨hpl, hX, hY, hZ, hV⟩ := OK3D.create_placed h
  set l := s.sel env k p with hldef
  set sel : Fin k → Fin n := fun i => l.get (i.cast hl.symm) with hsel
  have hinj : Function.Injective sel := fun i i' e => by
    have := List.nodup_iff_injective_get.1 hnd e
    simpa using this
  have hmem : ∀ a, a ∈ l ↔ a ∈ Set.range sel := by
    intro a
    rw [List.mem_iff_get]
    constructor
    · rintro ⟨i, rfl⟩; exact ⟨i.cast hl, by simp [hsel]⟩
    · rintro ⟨i, rfl⟩; exact ⟨_, rfl⟩
  have hrow := (h1.table r hr).at_point hq hm
  refine ⟨sel, hinj, fun i i' hi' => ?_, _, _, hrow.1, hrow.2, fun s' h' b hb => ?_⟩
  · have := OK3D.sel_nearest hkn' s hkn p ((hmem (sel i)).2 ⟨i, rfl⟩) (fun hc => hi' ((hmem i').1 hc))
    rw [hpl.queryDist, hpl.queryDist, hX, hY, hZ] at this
    exact this
  · obtain ⟨hpl', hX', hY', hZ', hV'⟩ := OK3D.create_placed h'
    obtain ⟨e1, e2, e3, e5, e6, e7⟩ := OK3D.create_model h h' hg
    have hgam : s'.gam = s.gam := by unfold OK3D.gam; rw [e1, e3]
    have hD : s'.dataDist = fun i i' => s.dataDist (sel i) (sel i') := by
      funext i i'
      rw [hpl'.dataDist, hpl.dataDist, e7, hX', hY', hZ', hX, hY, hZ]
      rfl
    have hd : s'.queryDist (s'.queryPt p) = fun i => s.queryDist (s.queryPt p) (sel i) := by
      funext i
      rw [hpl'.queryDist, hpl.queryDist, e7, hX', hY', hZ', hX, hY, hZ]
      rfl
    have hreg : Regular (semivar s'.gam s'.dataDist) (noF : Fin 0 → Fin k → ℝ) := by
      have := (selRegular_fun hl _ _).1 (hval j p hq hm k hk)
      rw [hD, hgam]
      exact this
    have h2 := OK3D.create_pw h' (ea := pointsCall3 [p] b) hkn' (by simp [WindowFits, pointsCall3])
    obtain ⟨r', hr'⟩ := h2.ok_iff.2 ⟨⟨by simp [pointsCall3], fun k' hk' => by simp [pointsCall3] at hk',
      by rw [e1, e3]; exact acc.vario, ⟨_, queryPoints3_pointsCall3 _ _⟩, by simp [pointsCall3],
      hb.imp id fun e => ⟨rfl, e⟩, fun _ => .inr hreg⟩,
      fun _ _ _ _ k' hk' => by simp [pointsCall3] at hk'⟩
    have hans : s'.ans env none p = s.ans env ea.nClosest p := by
      rw [hk]
      change krigAnswer s'.pseudoInv (semivar s'.gam s'.dataDist) noF s'.VALUES
        (semivarTo s'.exactValues s'.gam (s'.queryDist (s'.queryPt p))) 0 = selAnswer l _ _ _ _ _
      rw [krigAnswer_of_regular hreg, selAnswer_fun hl, hD, hd, hgam, e5, hV', hV]
      rfl
    rw [hr']
    congr 1
    refine (h2.table r' hr').unique ⟨by simp [pointsCall3, resultShape3], fun i => ?_, fun i => ?_⟩
    · rw [queryAt3_pointsCall3, maskedAt3_pointsCall3]
      cases i with
      | zero => simp [pointsCall3, hans]
      | succ i => simp
    · rw [queryAt3_pointsCall3, maskedAt3_pointsCall3]
      cases i with
      | zero => simp [pointsCall3, hans]
      | succ i => simp

/-- The other data do not matter: two objects with the same settings, whose `k` strictly nearest data at a
query point agree (positions and values), return the same there, however many other data each of them has,
wherever these are and whatever their values. -/
theorem C11_others_2d {n n' : ℕ} {env : Env} {x y z : Fin n → ℝ} {x' y' z' : Fin n' → ℝ} {args : OKArgs}
    {s : OK n} {s' : OK n'} (h : OK.create env x y z args = .ok s) (h' : OK.create env x' y' z' args = .ok s')
    (hg : ParamsGiven args.variogramModel args.params)
    {ea ea' : ExecArgs} {k : ℕ} (hk : ea.nClosest = some (k : ℤ)) (hk' : ea'.nClosest = some (k : ℤ))
    (ha : Admissible env args s ea.nClosest) (ha' : Admissible env args s' ea'.nClosest)
    {r r' : ExecResult} (hr : s.execute env ea = .ok r) (hr' : s'.execute env ea' = .ok r')
    {j j' : ℕ} {p : ℝ × ℝ} (hq : queryAt ea j = some p) (hq' : queryAt ea' j' = some p)
    (hm : maskedAt ea j = false) (hm' : maskedAt ea' j' = false)
    (sel : Fin k → Fin n) (sel' : Fin k → Fin n')
    (hi : Function.Injective sel) (hi' : Function.Injective sel')
    (hx : ∀ i, x' (sel' i) = x (sel i) ∧ y' (sel' i) = y (sel i) ∧ z' (sel' i) = z (sel i))
    (hs : ∀ i i', i' ∉ Set.range sel →
      distance2 s.coordinatesType s.anisotropyScaling s.anisotropyAngle p (x (sel i), y (sel i)) <
      distance2 s.coordinatesType s.anisotropyScaling s.anisotropyAngle p (x i', y i'))
    (hs' : ∀ i i', i' ∉ Set.range sel' →
      distance2 s.coordinatesType s.anisotropyScaling s.anisotropyAngle p (x' (sel' i), y' (sel' i)) <
      distance2 s.coordinatesType s.anisotropyScaling s.anisotropyAngle p (x' i', y' i')) :
    r'.z[j']? = r.z[j]? ∧ r'.ss[j']? = r.ss[j]? := by
  have h1 := ((OK.create_pw h ha).table r hr).at_point hq hm
  have h2 := ((OK.create_pw h' ha').table r' hr').at_point hq' hm'
  obtain ⟨hpl, hX, hY, hZ⟩ := OK.create_placed h
  obtain ⟨hpl', hX', hY', hZ'⟩ := OK.create_placed h'
  obtain ⟨e1, e2, e3, e4, e5, e6, e7, e8, e9⟩ := OK.create_model h h' hg
  have hgam : s'.gam = s.gam := by unfold OK.gam; rw [e1, e3]
  have hkn : k ≤ n := by have := ha.window k hk; omega
  have hkn' : k ≤ n' := by have := ha'.window k hk'; omega
  obtain ⟨hl, hnd⟩ := OK.sel_spec ha.knn s hkn p
  obtain ⟨hl', hnd'⟩ := OK.sel_spec ha.knn s' hkn' p
  have hp := nearest_perm hl hnd (d := s.queryDist (s.queryPt p))
    (fun i hi j hj => OK.sel_nearest ha.knn s hkn p hi hj) hi
    (by intro i i' h; rw [hpl.queryDist, hpl.queryDist, hX, hY]; exact hs i i' h)
  have hp' := nearest_perm hl' hnd' (d := s'.queryDist (s'.queryPt p))
    (fun i hi j hj => OK.sel_nearest ha.knn s' hkn' p hi hj) hi'
    (by intro i i' h; rw [hpl'.queryDist, hpl'.queryDist, hX', hY', e7, e8, e9]; exact hs' i i' h)
  have hans : s'.ans env ea'.nClosest p = s.ans env ea.nClosest p := by
    rw [hk, hk']
    change selAnswer (s'.sel env k p) _ _ _ _ _ = selAnswer (s.sel env k p) _ _ _ _ _
    rw [selAnswer_perm hp hnd, selAnswer_perm hp' hnd', selAnswer_ofFn, selAnswer_ofFn, hgam, e5]
    have hD : (fun i i' => s'.dataDist (sel' i) (sel' i')) = fun i i' => s.dataDist (sel i) (sel i') := by
      funext i i'
      rw [hpl'.dataDist, hpl.dataDist, e7, e8, e9, hX', hY', hX, hY, (hx i).1, (hx i).2.1, (hx i').1, (hx i').2.1]
    have hd : (fun i => s'.queryDist (s'.queryPt p) (sel' i)) = fun i => s.queryDist (s.queryPt p) (sel i) := by
      funext i
      rw [hpl'.queryDist, hpl.queryDist, e7, e8, e9, hX', hY', hX, hY, (hx i).1, (hx i).2.1]
    have hz : (fun i => s'.Z (sel' i)) = fun i => s.Z (sel i) := by
      funext i; rw [hZ', hZ, (hx i).2.2]
    rw [hD, hd, hz]
  rw [h1.1, h1.2, h2.1, h2.2, hans]
  exact ⟨rfl, rfl⟩

theorem C11_others_3d {n n' : ℕ} {env : Env} {x y z v : Fin n → ℝ} {x' y' z' v' : Fin n' → ℝ}
    {args : OK3DArgs} {s : OK3D n} {s' : OK3D n'} (h : OK3D.create env x y z v args = .ok s)
    (h' : OK3D.create env x' y' z' v' args = .ok s')
    (hg : ParamsGiven args.variogramModel args.params)
    {ea ea' : ExecArgs3} {k : ℕ} (hk : ea.nClosest = some (k : ℤ)) (hk' : ea'.nClosest = some (k : ℤ))
    (hK : KnnSpec env) (hw : WindowFits n ea.nClosest) (hw' : WindowFits n' ea'.nClosest)
    {r r' : ExecResult} (hr : s.execute env ea = .ok r) (hr' : s'.execute env ea' = .ok r')
    {j j' : ℕ} {p : ℝ × ℝ × ℝ} (hq : queryAt3 ea j = some p) (hq' : queryAt3 ea' j' = some p)
    (hm : maskedAt3 ea j = false) (hm' : maskedAt3 ea' j' = false)
    (sel : Fin k → Fin n) (sel' : Fin k → Fin n')
    (hi : Function.Injective sel) (hi' : Function.Injective sel')
    (hx : ∀ i, x' (sel' i) = x (sel i) ∧ y' (sel' i) = y (sel i) ∧ z' (sel' i) = z (sel i) ∧
      v' (sel' i) = v (sel i))
    (hs : ∀ i i', i' ∉ Set.range sel →
      distance3 s.aniso p (x (sel i), y (sel i), z (sel i)) < distance3 s.aniso p (x i', y i', z i'))
    (hs' : ∀ i i', i' ∉ Set.range sel' →
      distance3 s.aniso p (x' (sel' i), y' (sel' i), z' (sel' i)) < distance3 s.aniso p (x' i', y' i', z' i')) :
    r'.z[j']? = r.z[j]? ∧ r'.ss[j']? = r.ss[j]? := by
  have h1 := ((OK3D.create_pw h hK hw).table r hr).at_point hq hm
  have h2 := ((OK3D.create_pw h' hK hw').table r' hr').at_point hq' hm'
  obtain ⟨hpl, hX, hY, hZ, hV⟩ := OK3D.create_placed h
  obtain ⟨hpl', hX', hY', hZ', hV'⟩ := OK3D.create_placed h'
  obtain ⟨e1, e2, e3, e5, e6, e7⟩ := OK3D.create_model h h' hg
  have hgam : s'.gam = s.gam := by unfold OK3D.gam; rw [e1, e3]
  have hkn : k ≤ n := by have := hw k hk; omega
  have hkn' : k ≤ n' := by have := hw' k hk'; omega
  obtain ⟨hl, hnd⟩ := OK3D.sel_spec hK s hkn p
  obtain ⟨hl', hnd'⟩ := OK3D.sel_spec hK s' hkn' p
  have hp := nearest_perm hl hnd (d := s.queryDist (s.queryPt p))
    (fun i hi j hj => OK3D.sel_nearest hK s hkn p hi hj) hi
    (by intro i i' h; rw [hpl.queryDist, hpl.queryDist, hX, hY, hZ]; exact hs i i' h)
  have hp' := nearest_perm hl' hnd' (d := s'.queryDist (s'.queryPt p))
    (fun i hi j hj => OK3D.sel_nearest hK s' hkn' p hi hj) hi'
    (by intro i i' h; rw [hpl'.queryDist, hpl'.queryDist, hX', hY', hZ', e7]; exact hs' i i' h)
  have hans : s'.ans env ea'.nClosest p = s.ans env ea.nClosest p := by
    rw [hk, hk']
    change selAnswer (s'.sel env k p) _ _ _ _ _ = selAnswer (s.sel env k p) _ _ _ _ _
    rw [selAnswer_perm hp hnd, selAnswer_perm hp' hnd', selAnswer_ofFn, selAnswer_ofFn, hgam, e5]
    have hD : (fun i i' => s'.dataDist (sel' i) (sel' i')) = fun i i' => s.dataDist (sel i) (sel i') := by
      funext i i'
      rw [hpl'.dataDist, hpl.dataDist, e7, hX', hY', hZ', hX, hY, hZ, (hx i).1, (hx i).2.1, (hx i').1,
        (hx i').2.1, (hx i).2.2.1, (hx i').2.2.1]
    have hd : (fun i => s'.queryDist (s'.queryPt p) (sel' i)) = fun i => s.queryDist (s.queryPt p) (sel i) := by
      funext i
      rw [hpl'.queryDist, hpl.queryDist, e7, hX', hY', hZ', hX, hY, hZ, (hx i).1, (hx i).2.1, (hx i).2.2.1]
    have hz : (fun i => s'.VALUES (sel' i)) = fun i => s.VALUES (sel i) := by
      funext i; rw [hV', hV, (hx i).2.2.2]
    rw [hD, hd, hz]
  rw [h1.1, h1.2, h2.1, h2.2, hans]
  exact ⟨rfl, rfl⟩

end
end PyKrige
