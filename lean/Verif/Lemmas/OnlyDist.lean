import Verif.Lemmas.ArgDist
import Verif.Lemmas.Nearest
import Verif.Lemmas.Sel
import Verif.Lemmas.Select

/-! Results depend on the locations only through the distances. -/

set_option linter.unusedSectionVars false

namespace PyKrige
noncomputable section
open Matrix Spec

theorem queryPoints_ok_iff (ea : ExecArgs) : (∃ pm, queryPoints ea = .ok pm) ↔
    (ea.style = "grid" ∨ (ea.style = "masked" ∧ ∃ m, ea.mask = some m ∧
      ((m.rows = ea.ypoints.vals.length ∧ m.cols = ea.xpoints.vals.length) ∨
        (m.rows = ea.xpoints.vals.length ∧ m.cols = ea.ypoints.vals.length))) ∨
      (ea.style = "points" ∧ ea.xpoints.vals.length = ea.ypoints.vals.length)) := by
  unfold queryPoints
  dsimp only
  by_cases h1 : ea.style = "grid"
  · simp [h1]
  · by_cases h2 : ea.style = "masked"
    · simp only [h2]
      cases hm : ea.mask with
      | none => simp
      | some m =>
        by_cases h3 : m.rows = ea.ypoints.vals.length ∧ m.cols = ea.xpoints.vals.length
        · simp [h3]
        · by_cases h4 : m.rows = ea.xpoints.vals.length ∧ m.cols = ea.ypoints.vals.length
          · simp [h4]
            split <;> simp
          · have : m.rows ≠ ea.ypoints.vals.length ∨ m.cols ≠ ea.xpoints.vals.length := by
              by_contra hc; push Not at hc; exact h3 hc
            simp [h3, h4, this]
    · by_cases h3 : ea.style = "points"
      · by_cases h4 : ea.xpoints.vals.length = ea.ypoints.vals.length <;> simp [h3, h4]
      · simp [h1, h2, h3]

theorem queryPoints3_ok_iff (ea : ExecArgs3) : (∃ pm, queryPoints3 ea = .ok pm) ↔
    (ea.style = "grid" ∨ (ea.style = "masked" ∧ ∃ d0 d1 d2 get, ea.mask = some (.arr d0 d1 d2 get) ∧
      ((d0 = ea.zpoints.vals.length ∧ d1 = ea.ypoints.vals.length ∧ d2 = ea.xpoints.vals.length) ∨
        (d0 = ea.xpoints.vals.length ∧ d1 = ea.ypoints.vals.length ∧ d2 = ea.zpoints.vals.length))) ∨
      (ea.style = "points" ∧ ea.xpoints.vals.length = ea.ypoints.vals.length ∧
        ea.ypoints.vals.length = ea.zpoints.vals.length)) := by
  unfold queryPoints3
  dsimp only
  by_cases h1 : ea.style = "grid"
  · simp [h1]
  · by_cases h2 : ea.style = "masked"
    · simp only [h2]
      cases hm : ea.mask with
      | none => simp
      | some m =>
        cases m with
        | wrongNdim => simp
        | arr d0 d1 d2 get =>
          by_cases h3 : d0 = ea.zpoints.vals.length ∧ d1 = ea.ypoints.vals.length ∧ d2 = ea.xpoints.vals.length
          · simp [h3]
          · have : d0 ≠ ea.zpoints.vals.length ∨ d1 ≠ ea.ypoints.vals.length ∨ d2 ≠ ea.xpoints.vals.length := by
              by_contra hc; push Not at hc; exact h3 hc
            by_cases h4 : d0 = ea.xpoints.vals.length ∧ d2 = ea.zpoints.vals.length ∧ d1 = ea.ypoints.vals.length
            · simp [h4]
              split <;> simp
            · simp [this, h4, h3]
              intro a b c
              exact absurd ⟨a, c, b⟩ h4
    · by_cases h3 : ea.style = "points"
      · by_cases h4 : ea.xpoints.vals.length = ea.ypoints.vals.length
        · by_cases h5 : ea.ypoints.vals.length = ea.zpoints.vals.length <;> simp [h3, h4, h5]
        · simp only [h3, h4]
          simp [h4]
      · simp [h1, h2, h3]

section moved
variable {T : ℝ × ℝ → ℝ × ℝ} {ea ea' : ExecArgs}

theorem Spec.Moved.queryPoints (h : Moved T ea ea') (hq : ∃ pm, queryPoints ea = .ok pm) :
    ∃ pm, queryPoints ea' = .ok pm := by
  rw [queryPoints_ok_iff] at hq ⊢
  rw [h.style, h.mask, h.lengthX, h.lengthY]
  exact hq

theorem Spec.Moved.maskedAt (h : Moved T ea ea') (j : ℕ) : maskedAt ea' j = maskedAt ea j := by
  unfold Spec.maskedAt
  rw [h.style, h.mask, h.lengthX, h.lengthY]

theorem Spec.Moved.resultShape (h : Moved T ea ea') : resultShape ea' = resultShape ea := by
  unfold PyKrige.resultShape
  rw [h.style, h.lengthX, h.lengthY]

theorem Spec.Moved.noInt (h : Moved T ea ea') {P : Prop}
    (hn : ¬ (P ∧ ea.xpoints.isInt = true ∧ ea.ypoints.isInt = true)) :
    ¬ (P ∧ ea'.xpoints.isInt = true ∧ ea'.ypoints.isInt = true) := by
  rcases h.dtype with h | ⟨h1, h2⟩
  · simp [h]
  · rw [h1, h2]; exact hn

theorem moved_id (ea : ExecArgs) : Moved id ea ea :=
  ⟨rfl, rfl, rfl, rfl, rfl, rfl, .inr ⟨rfl, rfl⟩, fun j => by simp⟩

theorem moved_shifted (ea : ExecArgs) (d : ℝ × ℝ) : Moved (· + d) ea (shifted ea d) := by
  refine ⟨rfl, rfl, rfl, rfl, by simp [shifted], by simp [shifted], .inl rfl, fun j => ?_⟩
  unfold queryAt shifted
  dsimp only
  simp only [List.length_map, List.getElem?_map]
  split
  · cases ea.xpoints.vals[j]? <;> simp
    cases ea.ypoints.vals[j]? <;> simp
    rfl
  · cases ea.xpoints.vals[j % ea.xpoints.vals.length]? <;> simp
    cases ea.ypoints.vals[j / ea.xpoints.vals.length]? <;> simp
    rfl

theorem moved_points (T : ℝ × ℝ → ℝ × ℝ) (l : List (ℝ × ℝ)) (b : String) (nc : Option ℤ) :
    Moved T { pointsCall l b with nClosest := nc } { pointsCall (l.map T) b with nClosest := nc } := by
  refine ⟨rfl, rfl, rfl, rfl, by simp [pointsCall], by simp [pointsCall], .inl rfl, fun j => ?_⟩
  simp only [queryAt, pointsCall, List.getElem?_map, if_true]
  cases l[j]? <;> simp

end moved

section moved3
variable {T : ℝ × ℝ × ℝ → ℝ × ℝ × ℝ} {ea ea' : ExecArgs3}

theorem Spec.Moved3.queryPoints (h : Moved3 T ea ea') (hq : ∃ pm, queryPoints3 ea = .ok pm) :
    ∃ pm, queryPoints3 ea' = .ok pm := by
  rw [queryPoints3_ok_iff] at hq ⊢
  rw [h.style, h.mask, h.lengthX, h.lengthY, h.lengthZ]
  exact hq

theorem Spec.Moved3.maskedAt (h : Moved3 T ea ea') (j : ℕ) : maskedAt3 ea' j = maskedAt3 ea j := by
  unfold Spec.maskedAt3
  rw [h.style, h.mask, h.lengthX, h.lengthY, h.lengthZ]

theorem Spec.Moved3.resultShape (h : Moved3 T ea ea') : resultShape3 ea' = resultShape3 ea := by
  unfold PyKrige.resultShape3
  rw [h.style, h.lengthX, h.lengthY, h.lengthZ]

theorem Spec.Moved3.noInt (h : Moved3 T ea ea')
    (hn : ¬ (ea.xpoints.isInt = true ∧ ea.ypoints.isInt = true ∧ ea.zpoints.isInt = true)) :
    ¬ (ea'.xpoints.isInt = true ∧ ea'.ypoints.isInt = true ∧ ea'.zpoints.isInt = true) := by
  rcases h.dtype with h | ⟨h1, h2, h3⟩
  · simp [h]
  · rw [h1, h2, h3]; exact hn

theorem moved_id3 (ea : ExecArgs3) : Moved3 id ea ea :=
  ⟨rfl, rfl, rfl, rfl, rfl, rfl, rfl, .inr ⟨rfl, rfl, rfl⟩, fun j => by simp⟩

theorem moved_shifted3 (ea : ExecArgs3) (d : ℝ × ℝ × ℝ) : Moved3 (· + d) ea (shifted3 ea d) := by
  refine ⟨rfl, rfl, rfl, rfl, by simp [shifted3], by simp [shifted3], by simp [shifted3], .inl rfl, fun j => ?_⟩
  unfold queryAt3 shifted3
  dsimp only
  simp only [List.length_map, List.getElem?_map]
  split
  · cases ea.xpoints.vals[j]? <;> simp
    cases ea.ypoints.vals[j]? <;> simp
    cases ea.zpoints.vals[j]? <;> simp
    rfl
  · cases ea.xpoints.vals[j % ea.xpoints.vals.length]? <;> simp
    cases ea.ypoints.vals[j / ea.xpoints.vals.length % ea.ypoints.vals.length]? <;> simp
    cases ea.zpoints.vals[j / ea.xpoints.vals.length / ea.ypoints.vals.length]? <;> simp
    rfl

theorem moved_points3 (T : ℝ × ℝ × ℝ → ℝ × ℝ × ℝ) (l : List (ℝ × ℝ × ℝ)) (b : String) (nc : Option ℤ) :
    Moved3 T { pointsCall3 l b with nClosest := nc } { pointsCall3 (l.map T) b with nClosest := nc } := by
  refine ⟨rfl, rfl, rfl, rfl, by simp [pointsCall3], by simp [pointsCall3], by simp [pointsCall3], .inl rfl, fun j => ?_⟩
  simp only [queryAt3, pointsCall3, List.getElem?_map, if_true]
  cases l[j]? <;> simp

end moved3

/-- Two selections of nearest data agree if no two data are equally far. -/
theorem nearest_unique {n : ℕ} {l l' : List (Fin n)} (hl : l.length = l'.length) (hn : l.Nodup) (hn' : l'.Nodup)
    {d : Fin n → ℝ} (hd : ∀ i ∈ l, ∀ j, j ∉ l → d i ≤ d j) (hd' : ∀ i ∈ l', ∀ j, j ∉ l' → d i ≤ d j)
    (hinj : Function.Injective d) : l.Perm l' := by
  have := nearest_perm (k := l'.length) (e := l'.get) hl hn hd (List.nodup_iff_injective_get.1 hn') (fun i j hj => by
    refine lt_of_le_of_ne (hd' _ (List.get_mem _ _) j fun hc => hj ?_) fun he => hj ⟨i, hinj he⟩
    obtain ⟨a, ha⟩ := List.mem_iff_get.1 hc
    exact ⟨a, ha⟩)
  simpa using this

/-- No two data are equally far from a query point (only asked for with a moving window). -/
def Spec.NoTies {α : Type} {n : ℕ} (nClosest : Option ℤ) (query : ℕ → Option α) (d : α → Fin n → ℝ) : Prop :=
  nClosest ≠ none → ∀ j p, query j = some p → Function.Injective (d p)

/-- Selecting relabelled data. -/
theorem selAnswer_relabel {n : ℕ} (σ : Fin n ≃ Fin n) (sel : List (Fin n)) (exact : Bool) (γ : ℝ → ℝ)
    (D : Fin n → Fin n → ℝ) (Z bd : Fin n → ℝ) :
    selAnswer sel exact γ (fun i j => D (σ i) (σ j)) (fun i => Z (σ i)) (fun i => bd (σ i)) =
      selAnswer (sel.map σ) exact γ D Z bd := by
  unfold selAnswer
  let e : Fin sel.length ≃ Fin (sel.map σ).length := finCongr (by simp)
  have he : ∀ i, (sel.map σ).get (e i) = σ (sel.get i) := by intro i; simp [e]
  rw [← krigAnswer_reindex false e]
  congr 1
  · rw [← semivar_reindex e.injective]; simp only [he]
  · funext l; exact l.elim0
  · funext i; rw [he]
  · funext i; simp only [semivarTo, he]

theorem selRegular_relabel {n : ℕ} (σ : Fin n ≃ Fin n) (sel : List (Fin n)) (γ : ℝ → ℝ) (D : Fin n → Fin n → ℝ) :
    SelRegular sel γ (fun i j => D (σ i) (σ j)) ↔ SelRegular (sel.map σ) γ D := by
  unfold SelRegular
  let e : Fin sel.length ≃ Fin (sel.map σ).length := finCongr (by simp)
  have he : ∀ i, (sel.map σ).get (e i) = σ (sel.get i) := by intro i; simp [e]
  rw [← regular_reindex e]
  have : (semivar γ fun i j : Fin sel.length => D (σ (sel.get i)) (σ (sel.get j))) =
      fun i j => semivar γ (fun i j : Fin (sel.map σ).length => D ((sel.map σ).get i) ((sel.map σ).get j)) (e i) (e j) := by
    rw [← semivar_reindex e.injective]; simp only [he]
  rw [this]
  have h0 : (noF : Fin 0 → Fin sel.length → ℝ) = fun l i => noF l (e i) := by funext l; exact l.elim0
  rw [h0]

theorem krigAnswer_relabel {n : ℕ} (σ : Fin n ≃ Fin n) (pseudo exact : Bool) (γ : ℝ → ℝ)
    (D : Fin n → Fin n → ℝ) (Z bd : Fin n → ℝ) :
    krigAnswer pseudo (semivar γ fun i j => D (σ i) (σ j)) noF (fun i => Z (σ i))
      (semivarTo exact γ fun i => bd (σ i)) 0 =
    krigAnswer pseudo (semivar γ D) noF Z (semivarTo exact γ bd) 0 := by
  refine Eq.trans ?_ (krigAnswer_reindex pseudo σ (semivar γ D) noF Z (semivarTo exact γ bd) 0)
  rw [← semivar_reindex σ.injective]
  congr 1
  funext l; exact l.elim0

theorem solvable_relabel {n : ℕ} (σ : Fin n ≃ Fin n) (pseudo : Bool) (γ : ℝ → ℝ) (D : Fin n → Fin n → ℝ) :
    Solvable pseudo (semivar γ fun i j => D (σ i) (σ j)) (noF : Fin 0 → Fin n → ℝ) ↔
    Solvable pseudo (semivar γ D) (noF : Fin 0 → Fin n → ℝ) := by
  have h0 : (noF : Fin 0 → Fin n → ℝ) = fun l i => noF l (σ i) := by funext l; exact l.elim0
  unfold Solvable
  rw [semivar_reindex σ.injective]
  conv_lhs => rw [h0]
  rw [regular_reindex σ]

/-- Two `OrdinaryKriging` objects that differ only in the locations and the numbering of the data, with the same distances. -/
theorem OK.same_distances {n : ℕ} {env : Env} {x y z x' y' z' : Fin n → ℝ} {args args' : OKArgs} {s s' : OK n}
    (h : OK.create env x y z args = .ok s) (h' : OK.create env x' y' z' args' = .ok s')
    {ea ea' : ExecArgs} (ha : Admissible env args s ea.nClosest) (hf : args'.variogramFunction.NoClash)
    (e1 : s'.variogramFunction = s.variogramFunction) (e2 : s'.functionName = s.functionName)
    (e3 : s'.params = s.params) (e4 : s'.paramsInt = s.paramsInt) (e5 : s'.exactValues = s.exactValues)
    (e6 : s'.pseudoInv = s.pseudoInv) (σ : Fin n ≃ Fin n)
    (e7 : ∀ i, s'.Z i = s.Z (σ i)) (e8 : ∀ i j, s'.dataDist i j = s.dataDist (σ i) (σ j))
    (e9 : s'.coordinatesType = s.coordinatesType)
    {T : ℝ × ℝ → ℝ × ℝ} (hm : Moved T ea ea')
    (hT : ∀ p i, s'.queryDist (s'.queryPt (T p)) i = s.queryDist (s.queryPt p) (σ i))
    (ht : NoTies ea.nClosest (queryAt ea) fun p i => s.queryDist (s.queryPt p) i)
    {r : ExecResult} (hr : s.execute env ea = .ok r) : s'.execute env ea' = .ok r := by
  have ha' : Admissible env args' s' ea'.nClosest :=
    ⟨ha.knn, hf, by rw [e2, e3]; exact ha.range, by rw [hm.nClosest]; exact ha.window⟩
  have h1 := OK.create_pw h ha
  have h2 := OK.create_pw h' ha'
  have e8' : s'.dataDist = fun i j => s.dataDist (σ i) (σ j) := funext fun i => funext fun j => e8 i j
  have eg : s'.gam = s.gam := by unfold OK.gam; rw [e1, e3]
  have hsel : ∀ k : ℤ, ea.nClosest = some k → ∀ j p, queryAt ea j = some p →
      (s.sel env k.toNat p).Perm ((s'.sel env k.toNat (T p)).map σ) ∧ (s.sel env k.toNat p).Nodup := by
    intro k hk j p hp
    have hkn : k.toNat ≤ n := by have := ha.window k hk; omega
    obtain ⟨a1, a2⟩ := OK.sel_spec ha.knn s hkn p
    obtain ⟨b1, b2⟩ := OK.sel_spec ha.knn s' hkn (T p)
    refine ⟨nearest_unique (by rw [List.length_map]; exact a1.trans b1.symm) a2 (b2.map σ.injective) (d := fun i => s.queryDist (s.queryPt p) i)
      (fun i hi j hj => OK.sel_nearest ha.knn s hkn p hi hj) (fun i hi j hj => ?_) (ht (by simp [hk]) j p hp), a2⟩
    obtain ⟨i, hi', rfl⟩ := List.mem_map.1 hi
    have := OK.sel_nearest ha.knn s' hkn (T p) hi' (j := σ.symm j) (fun hc => hj (List.mem_map.2 ⟨_, hc, by simp⟩))
    rwa [hT, hT, σ.apply_symm_apply] at this
  have hbk : s.Acc env ea → s'.check env ea' = .ok () := by
    intro a
    have := a.backend
    unfold OK.check OK.backendCheck OK.windowCheck OK.cVariogram at this ⊢
    rw [hm.nClosest, hm.backend, e2, e3, e4]
    exact this
  have hans : ∀ j p, queryAt ea j = some p →
      s'.ans env ea'.nClosest (T p) = s.ans env ea.nClosest p := by
    intro j p hp
    have hT' : ∀ p, s'.queryDist (s'.queryPt (T p)) = fun i => s.queryDist (s.queryPt p) (σ i) :=
      fun p => funext (hT p)
    unfold OK.ans
    rw [hm.nClosest, eg]
    cases hk : ea.nClosest with
    | none =>
      have e7' : s'.Z = fun i => s.Z (σ i) := funext e7
      unfold OK.answer OK.G OK.g
      simp only [e5, e6, e7', e8', hT']
      exact krigAnswer_relabel σ _ _ _ _ _ _
    | some k =>
      have e7' : s'.Z = fun i => s.Z (σ i) := funext e7
      unfold OK.windowAnswer
      obtain ⟨q1, q2⟩ := hsel k hk j p hp
      simp only [e5, e7', e8', hT']
      rw [selAnswer_relabel]
      exact (selAnswer_perm q1 q2 _ _ _ _ _).symm
  obtain ⟨r', hr', g1, g2, g3⟩ := h1.transfer h2 hr (fun a => ⟨by rw [hm.style]; exact a.style,
      by rw [hm.nClosest]; exact a.win, by rw [e1, e3]; exact a.vario, hm.queryPoints a.query,
      by rw [e9]; exact hm.noInt a.noInt, hbk a,
      by rw [hm.nClosest, e6, eg, e8']; exact fun hn => (solvable_relabel σ _ _ _).2 (a.solvable hn)⟩)
    (fun _ => T) hm.query (fun j _ _ => hm.maskedAt j) (fun j hj => hj)
    (fun a j p hp hn hv k hk => by
      rw [hm.nClosest] at hk
      rw [eg, e8', selRegular_relabel]
      obtain ⟨q1, q2⟩ := hsel k hk j p hp
      exact (selRegular_perm q1 q2 _ _).1 (hv (by rw [← hm.maskedAt j]; exact hn) k hk)) id id
    (fun a _ j p hp _ _ => hans j p hp)
  · have : r' = r := by
      have t := (h1.table r hr).shape_eq
      obtain ⟨a, b, c⟩ := r
      obtain ⟨a', b', c'⟩ := r'
      simp only [Option.map_id, List.map_id] at g2 g3
      dsimp only at t g1 g2 g3
      rw [g1, g2, g3, t, hm.resultShape]
    rw [hr', this]

/-- The same for `OrdinaryKriging3D`. -/
theorem OK3D.same_distances {n : ℕ} {env : Env} {x y z v x' y' z' v' : Fin n → ℝ} {args args' : OK3DArgs}
    {s s' : OK3D n} (h : OK3D.create env x y z v args = .ok s) (h' : OK3D.create env x' y' z' v' args' = .ok s')
    {ea ea' : ExecArgs3} (hk : KnnSpec env) (hw : WindowFits n ea.nClosest)
    (e1 : s'.variogramFunction = s.variogramFunction)
    (e3 : s'.params = s.params) (e5 : s'.exactValues = s.exactValues)
    (e6 : s'.pseudoInv = s.pseudoInv) (σ : Fin n ≃ Fin n)
    (e7 : ∀ i, s'.VALUES i = s.VALUES (σ i)) (e8 : ∀ i j, s'.dataDist i j = s.dataDist (σ i) (σ j))
    {T : ℝ × ℝ × ℝ → ℝ × ℝ × ℝ} (hm : Moved3 T ea ea')
    (hT : ∀ p i, s'.queryDist (s'.queryPt (T p)) i = s.queryDist (s.queryPt p) (σ i))
    (ht : NoTies ea.nClosest (queryAt3 ea) fun p i => s.queryDist (s.queryPt p) i)
    {r : ExecResult} (hr : s.execute env ea = .ok r) : s'.execute env ea' = .ok r := by
  have hw' : WindowFits n ea'.nClosest := by rw [hm.nClosest]; exact hw
  have h1 := OK3D.create_pw h hk hw
  have h2 := OK3D.create_pw h' hk hw'
  have e8' : s'.dataDist = fun i j => s.dataDist (σ i) (σ j) := funext fun i => funext fun j => e8 i j
  have eg : s'.gam = s.gam := by unfold OK3D.gam; rw [e1, e3]
  have hsel : ∀ k : ℤ, ea.nClosest = some k → ∀ j p, queryAt3 ea j = some p →
      (s.sel env k.toNat p).Perm ((s'.sel env k.toNat (T p)).map σ) ∧ (s.sel env k.toNat p).Nodup := by
    intro k hk' j p hp
    have hkn : k.toNat ≤ n := by have := hw k hk'; omega
    obtain ⟨a1, a2⟩ := OK3D.sel_spec hk s hkn p
    obtain ⟨b1, b2⟩ := OK3D.sel_spec hk s' hkn (T p)
    refine ⟨nearest_unique (by rw [List.length_map]; exact a1.trans b1.symm) a2 (b2.map σ.injective) (d := fun i => s.queryDist (s.queryPt p) i)
      (fun i hi j hj => OK3D.sel_nearest hk s hkn p hi hj) (fun i hi j hj => ?_) (ht (by simp [hk']) j p hp), a2⟩
    obtain ⟨i, hi', rfl⟩ := List.mem_map.1 hi
    have := OK3D.sel_nearest hk s' hkn (T p) hi' (j := σ.symm j) (fun hc => hj (List.mem_map.2 ⟨_, hc, by simp⟩))
    rwa [hT, hT, σ.apply_symm_apply] at this
  have hans : ∀ j p, queryAt3 ea j = some p →
      s'.ans env ea'.nClosest (T p) = s.ans env ea.nClosest p := by
    intro j p hp
    have hT' : ∀ p, s'.queryDist (s'.queryPt (T p)) = fun i => s.queryDist (s.queryPt p) (σ i) :=
      fun p => funext (hT p)
    unfold OK3D.ans
    rw [hm.nClosest, eg]
    cases hk : ea.nClosest with
    | none =>
      have e7' : s'.VALUES = fun i => s.VALUES (σ i) := funext e7
      unfold OK3D.answer OK3D.G OK3D.g
      simp only [e5, e6, e7', e8', hT']
      exact krigAnswer_relabel σ _ _ _ _ _ _
    | some k =>
      have e7' : s'.VALUES = fun i => s.VALUES (σ i) := funext e7
      unfold OK3D.windowAnswer
      obtain ⟨q1, q2⟩ := hsel k hk j p hp
      simp only [e5, e7', e8', hT']
      rw [selAnswer_relabel]
      exact (selAnswer_perm q1 q2 _ _ _ _ _).symm
  obtain ⟨r', hr', g1, g2, g3⟩ := h1.transfer h2 hr (fun a => ⟨by rw [hm.style]; exact a.style,
      by rw [hm.nClosest]; exact a.win, by rw [e1, e3]; exact a.vario, hm.queryPoints a.query,
      hm.noInt a.noInt, by rw [hm.nClosest, hm.backend]; exact a.backend,
      by rw [hm.nClosest, e6, eg, e8']; exact fun hn => (solvable_relabel σ _ _ _).2 (a.solvable hn)⟩)
    (fun _ => T) hm.query (fun j _ _ => hm.maskedAt j) (fun j hj => hj)
    (fun a j p hp hn hv k hk => by
      rw [hm.nClosest] at hk
      rw [eg, e8', selRegular_relabel]
      obtain ⟨q1, q2⟩ := hsel k hk j p hp
      exact (selRegular_perm q1 q2 _ _).1 (hv (by rw [← hm.maskedAt j]; exact hn) k hk)) id id
    (fun a _ j p hp _ _ => hans j p hp)
  · have : r' = r := by
      have t := (h1.table r hr).shape_eq
      obtain ⟨a, b, c⟩ := r
      obtain ⟨a', b', c'⟩ := r'
      simp only [Option.map_id, List.map_id] at g2 g3
      dsimp only at t g1 g2 g3
      rw [g1, g2, g3, t, hm.resultShape]
    rw [hr', this]

end
end PyKrige
