import Verif.Lemmas.Window
import Verif.Lemmas.Query
import Verif.Lemmas.UKExec
import Verif.Lemmas.UK3DExec
import Verif.Spec.Query
import Verif.Spec.Setting

/-!
Every result of `execute` is obtained by applying weights that do not depend on the data values.
-/

set_option linter.unusedSectionVars false
set_option linter.unusedSimpArgs false

namespace PyKrige
noncomputable section
open Matrix Spec

variable {ι κ : Type} [Fintype ι] [Fintype κ] [DecidableEq ι] [DecidableEq κ]

/-- The weights computed at a point. -/
def kWeights (pseudo : Bool) (G : ι → ι → ℝ) (F : κ → ι → ℝ) (g : ι → ℝ) (f : κ → ℝ) : ι → ℝ :=
  wOf (krigInv pseudo (krigMat G F) *ᵥ krigRhs g f 1)

/-- The variance computed at a point. -/
def kVar (pseudo : Bool) (G : ι → ι → ℝ) (F : κ → ι → ℝ) (g : ι → ℝ) (f : κ → ℝ) : ℝ :=
  (krigAnswer pseudo G F 0 g f).2

theorem krigAnswer_eq_row (pseudo : Bool) (G : ι → ι → ℝ) (F : κ → ι → ℝ) (z g : ι → ℝ) (f : κ → ℝ) :
    krigAnswer pseudo G F z g f =
      (estimate (kWeights pseudo G F g f) z, kVar pseudo G F g f) := rfl

/-- Weights of all data and the variance, for one output entry. -/
structure WRow (n : ℕ) where
  w : Fin n → ℝ
  var : ℝ

/-- The numbers an entry gets from data values `z`. -/
def WRow.apply {n : ℕ} (r : WRow n) (z : Fin n → ℝ) : ℝ × ℝ := (estimate r.w z, r.var)

/-- The arrays obtained from weights and data values. -/
def applyRows {n : ℕ} (z : Fin n → ℝ) (R : List ℕ × List (Option (WRow n))) : ExecResult :=
  { shape := R.1
    z := R.2.map fun o => o.map fun r => (r.apply z).1
    ss := R.2.map fun o => o.map fun r => (r.apply z).2 }

/-- Weights of selected data as weights of all data. -/
def scatter {m n : ℕ} (sel : Fin m → Fin n) (w : Fin m → ℝ) (i : Fin n) : ℝ :=
  ∑ j, if sel j = i then w j else 0

theorem sum_scatter_mul {m n : ℕ} (sel : Fin m → Fin n) (w : Fin m → ℝ) (z : Fin n → ℝ) :
    ∑ i, scatter sel w i * z i = ∑ j, w j * z (sel j) := by
  unfold scatter
  simp only [Finset.sum_mul]
  rw [Finset.sum_comm]
  refine Finset.sum_congr rfl fun j _ => ?_
  simp

theorem estimate_scatter {m n : ℕ} (sel : Fin m → Fin n) (w : Fin m → ℝ) (z : Fin n → ℝ) :
    estimate (scatter sel w) z = estimate w fun j => z (sel j) := sum_scatter_mul sel w z

theorem sum_scatter {m n : ℕ} (sel : Fin m → Fin n) (w : Fin m → ℝ) :
    ∑ i, scatter sel w i = ∑ j, w j := by
  have := sum_scatter_mul sel w fun _ => 1
  simpa using this

theorem scatter_sel {m n : ℕ} {sel : Fin m → Fin n} (h : Function.Injective sel) (w : Fin m → ℝ)
    (j : Fin m) : scatter sel w (sel j) = w j := by
  unfold scatter
  simp [h.eq_iff]

theorem scatter_id {n : ℕ} (w : Fin n → ℝ) : scatter id w = w := by
  funext i
  simp [scatter]

/-- `row` holds the kriging weights and variance obtained from the data selected by `sel`: `D` distances
between the data, `d` distances to the query point, `F`, `f` drift at the data and at the query point. -/
structure KrigedBy {n L m : ℕ} (sel : Fin m → Fin n) (pseudo exact : Bool) (γ : ℝ → ℝ)
    (D : Fin n → Fin n → ℝ) (F : Fin L → Fin n → ℝ) (d : Fin n → ℝ) (f : Fin L → ℝ) (row : WRow n) :
    Prop where
  inj : Function.Injective sel
  solvable : Solvable pseudo (semivar γ fun i j => D (sel i) (sel j)) (fun l i => F l (sel i))
  w_eq : row.w = scatter sel (kWeights pseudo (semivar γ fun i j => D (sel i) (sel j))
    (fun l i => F l (sel i)) (semivarTo exact γ fun i => d (sel i)) f)
  var_eq : row.var = kVar pseudo (semivar γ fun i j => D (sel i) (sel j))
    (fun l i => F l (sel i)) (semivarTo exact γ fun i => d (sel i)) f

/-- Visible entries of hidden arrays. -/
theorem hide_getElem? {α : Type} (mask : List Bool) (vals : List α) (j : ℕ) (a : α) :
    (hide mask vals)[j]? = some (some a) ↔ vals[j]? = some a ∧ mask[j]? = some false := by
  unfold hide
  rw [List.getElem?_zipWith]
  cases vals[j]? with
  | none => simp
  | some v =>
    cases mask[j]? with
    | none => simp
    | some m => cases m <;> simp

theorem hide_map {α β : Type} (mask : List Bool) (vals : List α) (f : α → β) :
    hide mask (vals.map f) = (hide mask vals).map fun o => o.map f := by
  unfold hide
  rw [List.zipWith_map_left, List.map_zipWith]
  congr 1
  funext a m
  cases m <;> simp

theorem mkResult_eq_applyRows {α : Type} {n : ℕ} (shape : List ℕ) (mask : List Bool) (pts : List α)
    (row : α → WRow n) (z : Fin n → ℝ) :
    mkResult shape mask pts (fun p => (row p).apply z) =
      applyRows z (shape, hide mask (pts.map row)) := by
  unfold mkResult applyRows
  congr 1
  · rw [← hide_map, List.map_map]; rfl
  · rw [← hide_map, List.map_map]; rfl


/-- `row` for every visible entry, where entry `j` is about point `query j`; `Fact` tells what the weights
are. -/
structure GoodRows {α : Type} {n : ℕ} (shape : List ℕ) (query : ℕ → Option α) (masked : ℕ → Bool)
    (Fact : ℕ → α → WRow n → Prop) (R : List ℕ × List (Option (WRow n))) : Prop where
  shape_eq : R.1 = shape
  none_iff : ∀ j : ℕ, R.2[j]? = none ↔ query j = none
  hidden_iff : ∀ j : ℕ, R.2[j]? = some none ↔ query j ≠ none ∧ masked j = true
  visible : ∀ (j : ℕ) row, R.2[j]? = some (some row) →
    masked j = false ∧ ∃ p, query j = some p ∧ Fact j p row

/-- What `execute` returns, as a function of the data values, is given by weights that do not depend on them.
`run z lags stats r`: with these values (and recorded lags and statistics) the result is `r`. -/
def Weighs {α : Type} {n : ℕ} (run : (Fin n → ℝ) → List (ℝ × ℝ) → Option Stats → ExecResult → Prop)
    (shape : List ℕ) (query : ℕ → Option α) (masked : ℕ → Bool) (Fact : ℕ → α → WRow n → Prop) : Prop :=
  ∃ P : List ℕ × List (Option (WRow n)) → Prop, (∀ R R', P R → P R' → R = R') ∧
    (∀ z lags stats r, run z lags stats r ↔ ∃ R, P R ∧ r = applyRows z R) ∧
    ∀ R, P R → GoodRows shape query masked Fact R

theorem goodRows_of_hide {α : Type} {n : ℕ} {shape : List ℕ} {query : ℕ → Option α} {masked : ℕ → Bool}
    {Fact : ℕ → α → WRow n → Prop} {pts : List α} {mask : List Bool} {rows : List (WRow n)}
    (hl : rows.length = pts.length) (hq : ∀ j : ℕ, pts[j]? = query j)
    (hm : ∀ j : ℕ, j < pts.length → mask[j]? = some (masked j)) (hml : mask.length = pts.length)
    (hf : ∀ (j : ℕ) p, pts[j]? = some p → mask[j]? = some false → ∃ row, rows[j]? = some row ∧ Fact j p row) :
    GoodRows shape query masked Fact (shape, hide mask rows) := by
  refine ⟨rfl, fun j => ?_, fun j => ?_, fun j row h => ?_⟩
  · rw [← hq, List.getElem?_eq_none_iff, List.getElem?_eq_none_iff]
    simp [hide, hl, hml]
  · rw [← hq]
    unfold hide
    rw [List.getElem?_zipWith]
    by_cases hj : j < pts.length
    · rw [hm j hj, List.getElem?_eq_getElem hj, List.getElem?_eq_getElem (hl ▸ hj)]
      cases masked j <;> simp
    · rw [List.getElem?_eq_none (by omega : pts.length ≤ j), List.getElem?_eq_none (by omega : rows.length ≤ j)]
      simp
  · obtain ⟨h1, h2⟩ := (hide_getElem? _ _ _ _).1 h
    have hj : j < pts.length := by rw [← hl]; exact (List.getElem?_eq_some_iff.1 h1).1
    have := hm j hj
    rw [this] at h2
    refine ⟨by simpa using h2, pts[j], by rw [← hq, List.getElem?_eq_getElem hj], ?_⟩
    obtain ⟨row', hr, hF⟩ := hf j _ (List.getElem?_eq_getElem hj) (this.trans h2)
    rw [h1] at hr
    cases hr
    exact hF

/-! ### OrdinaryKriging -/
/-- The object with other data values. -/
def OK.withZ {n : ℕ} (s : OK n) (z : Fin n → ℝ) (lags : List (ℝ × ℝ)) (stats : Option Stats) : OK n :=
  { s with Z := z, lags := lags, stats := stats }

def OK.row {n : ℕ} (s : OK n) (γ : ℝ → ℝ) (p : ℝ × ℝ) : WRow n :=
  ⟨kWeights s.pseudoInv (s.G γ) noF (s.g γ p) 0, kVar s.pseudoInv (s.G γ) noF (s.g γ p) 0⟩

def selRow {n : ℕ} (sel : List (Fin n)) (exact : Bool) (γ : ℝ → ℝ) (D : Fin n → Fin n → ℝ)
    (bd : Fin n → ℝ) : WRow n :=
  ⟨scatter sel.get (kWeights false (semivar γ fun i j : Fin sel.length => D (sel.get i) (sel.get j)) noF
      (semivarTo exact γ fun i => bd (sel.get i)) 0),
    kVar false (semivar γ fun i j : Fin sel.length => D (sel.get i) (sel.get j)) noF
      (semivarTo exact γ fun i => bd (sel.get i)) 0⟩

theorem selRow_apply {n : ℕ} (sel : List (Fin n)) (exact : Bool) (γ : ℝ → ℝ)
    (D : Fin n → Fin n → ℝ) (bd z : Fin n → ℝ) :
    (selRow sel exact γ D bd).apply z = selAnswer sel exact γ D z bd := by
  unfold selRow WRow.apply selAnswer
  rw [krigAnswer_eq_row, estimate_scatter]

theorem noF_comp {α β : Type} (sel : α → β) : (fun l i => noF l (sel i) : Fin 0 → α → ℝ) = noF :=
  Subsingleton.elim _ _

theorem krigedBy_selRow {n : ℕ} {sel : List (Fin n)} (hs : sel.Nodup) {γ : ℝ → ℝ}
    {D : Fin n → Fin n → ℝ} (hr : SelRegular sel γ D) (exact : Bool) (bd : Fin n → ℝ) :
    KrigedBy sel.get false exact γ D noF bd 0 (selRow sel exact γ D bd) := by
  refine ⟨List.nodup_iff_injective_get.1 hs, Or.inr ?_, ?_, ?_⟩
  · rw [noF_comp]; exact hr
  · rw [noF_comp]; rfl
  · rw [noF_comp]; rfl

theorem OK.Wf.withZ {n : ℕ} {s : OK n} (hs : s.Wf) (z : Fin n → ℝ) (lags : List (ℝ × ℝ))
    (stats : Option Stats) : (s.withZ z lags stats).Wf := ⟨hs.ptype, hs.ctype, hs.cagree⟩


theorem OK.execute_global_iff {n : ℕ} {env : Env} {s : OK n} (hs : s.Wf) {args : ExecArgs} (r : ExecResult)
    (hn : args.nClosest = none) : s.execute env args = .ok r ↔
    args.style ∈ ["grid", "masked", "points"] ∧ ∃ γ pts mask,
      s.variogramFunction s.params = .ok γ ∧ queryPoints args = .ok (pts, mask) ∧
      ¬ (s.coordinatesType = "euclidean" ∧ args.xpoints.isInt = true ∧ args.ypoints.isInt = true) ∧
      s.backendCheck env args.backend = .ok () ∧ Solvable s.pseudoInv (s.G γ) noF ∧
      r = mkResult (resultShape args) mask pts (s.answer γ) := by
  constructor
  · intro h
    obtain ⟨γ, pts, mask, h1, h2⟩ := OK.execute_ok hs hn h
    exact ⟨h1, γ, pts, mask, h2⟩
  · rintro ⟨hst, γ, pts, mask, hγ, hq, hc, hb, hsol, rfl⟩
    rw [OK.execute_global env s hs args hn hst]
    unfold OK.execGlobal
    rw [hγ, py_ok_bind, hq, py_ok_bind]
    dsimp only
    rw [if_neg hc, hb, py_ok_bind]
    exact if_pos hsol

/-- What the weights at a visible entry are (`OrdinaryKriging`). -/
def OK.Fact {n : ℕ} (env : Env) (s : OK n) (nClosest : Option ℤ) (_ : ℕ) (p : ℝ × ℝ) (row : WRow n) : Prop :=
  ∃ γ, s.variogramFunction s.params = .ok γ ∧
    (nClosest = none ∧ KrigedBy id s.pseudoInv s.exactValues γ s.dataDist noF
      (s.queryDist (s.queryPt p)) 0 row ∨
    ∃ k, nClosest = some k ∧ KrigedBy (s.sel env k.toNat p).get false s.exactValues γ
      s.dataDist noF (s.queryDist (s.queryPt p)) 0 row)

theorem OK.execute_weighs {n : ℕ} {env : Env} (he : KnnSpec env) {s : OK n} (hs : s.Wf) (args : ExecArgs)
    (hw : WindowFits n args.nClosest) :
    Weighs (fun z lags stats r => (s.withZ z lags stats).execute env args = .ok r) (resultShape args)
      (queryAt args) (maskedAt args) (s.Fact env args.nClosest) := by
  cases hn : args.nClosest with
  | none =>
    refine ⟨fun R => args.style ∈ ["grid", "masked", "points"] ∧ ∃ γ pts mask,
      s.variogramFunction s.params = .ok γ ∧ queryPoints args = .ok (pts, mask) ∧
      ¬ (s.coordinatesType = "euclidean" ∧ args.xpoints.isInt = true ∧ args.ypoints.isInt = true) ∧
      s.backendCheck env args.backend = .ok () ∧ Solvable s.pseudoInv (s.G γ) noF ∧
      R = (resultShape args, hide mask (pts.map (s.row γ))), ?_, ?_, ?_⟩
    · rintro R R' ⟨-, γ, pts, mask, h1, h2, -, -, -, rfl⟩ ⟨-, γ', pts', mask', h1', h2', -, -, -, rfl⟩
      rw [h1] at h1'; rw [h2] at h2'
      cases h1'; cases h2'
      rfl
    · intro z lags stats r
      beta_reduce
      rw [OK.execute_global_iff (hs.withZ z lags stats) r hn]
      constructor
      · rintro ⟨hst, γ, pts, mask, hγ, hq, hc, hb, hsol, rfl⟩
        exact ⟨_, ⟨hst, γ, pts, mask, hγ, hq, hc, hb, hsol, rfl⟩, mkResult_eq_applyRows _ _ _ (s.row γ) z⟩
      · rintro ⟨R, ⟨hst, γ, pts, mask, hγ, hq, hc, hb, hsol, rfl⟩, rfl⟩
        exact ⟨hst, γ, pts, mask, hγ, hq, hc, hb, hsol, (mkResult_eq_applyRows _ _ _ (s.row γ) z).symm⟩
    · rintro R ⟨-, γ, pts, mask, hγ, hq, -, -, hsol, rfl⟩
      refine goodRows_of_hide (pts := pts) (by simp) (queryPoints_getElem? hq)
        (fun j hj => queryPoints_maskedAt hq hj) (queryPoints_length hq) ?_
      intro j p hp _
      refine ⟨s.row γ p, by simp [hp], γ, hγ, Or.inl ⟨rfl, fun _ _ h => h, hsol, ?_, rfl⟩⟩
      exact (scatter_id _).symm
  | some k =>
    have hk := hw k hn
    refine ⟨fun R => args.style ∈ ["grid", "masked", "points"] ∧ 1 < k ∧ ∃ γ pts mask,
      s.variogramFunction s.params = .ok γ ∧ queryPoints args = .ok (pts, mask) ∧
      ¬ (s.coordinatesType = "euclidean" ∧ args.xpoints.isInt = true ∧ args.ypoints.isInt = true) ∧
      s.windowCheck env args.backend = .ok () ∧
      (∀ (j : ℕ) p, pts[j]? = some p → mask[j]? = some false →
        SelRegular (s.sel env k.toNat p) γ s.dataDist) ∧
      R = (resultShape args, hide mask (pts.map fun p => selRow (s.sel env k.toNat p)
        s.exactValues γ s.dataDist (s.queryDist (s.queryPt p)))), ?_, ?_, ?_⟩
    · rintro R R' ⟨-, -, γ, pts, mask, h1, h2, -, -, -, rfl⟩ ⟨-, -, γ', pts', mask', h1', h2', -, -, -, rfl⟩
      rw [h1] at h1'; rw [h2] at h2'
      cases h1'; cases h2'
      rfl
    · intro z lags stats r
      beta_reduce
      have key : ∀ γ pts mask, mkResult (resultShape args) mask pts
          ((s.withZ z lags stats).windowAnswer env γ k.toNat) =
          applyRows z (resultShape args, hide mask (pts.map fun p => selRow (s.sel env k.toNat p)
            s.exactValues γ s.dataDist (s.queryDist (s.queryPt p)))) := by
        intro γ pts mask
        rw [← mkResult_eq_applyRows]
        congr 1
        funext p
        rw [selRow_apply]
        rfl
      rw [OK.execute_window he (hs.withZ z lags stats) hn hk]
      constructor
      · rintro ⟨hst, h1, γ, pts, mask, hγ, hq, hc, hb, hreg, rfl⟩
        exact ⟨_, ⟨hst, h1, γ, pts, mask, hγ, hq, hc, hb, hreg, rfl⟩, key _ _ _⟩
      · rintro ⟨R, ⟨hst, h1, γ, pts, mask, hγ, hq, hc, hb, hreg, rfl⟩, rfl⟩
        exact ⟨hst, h1, γ, pts, mask, hγ, hq, hc, hb, hreg, (key _ _ _).symm⟩
    · rintro R ⟨-, -, γ, pts, mask, hγ, hq, -, -, hreg, rfl⟩
      refine goodRows_of_hide (pts := pts) (by simp) (queryPoints_getElem? hq)
        (fun j hj => queryPoints_maskedAt hq hj) (queryPoints_length hq) ?_
      intro j p hp hm
      exact ⟨_, by simp [hp], γ, hγ, Or.inr ⟨k, rfl, krigedBy_selRow (s.sel_spec he (by omega) p).2
        (hreg j p hp hm) _ _⟩⟩

/-! ### OrdinaryKriging3D -/

/-- The object with other data values. -/
def OK3D.withZ {n : ℕ} (s : OK3D n) (z : Fin n → ℝ) (lags : List (ℝ × ℝ)) (stats : Option Stats) : OK3D n :=
  { s with VALUES := z, lags := lags, stats := stats }

def OK3D.row {n : ℕ} (s : OK3D n) (γ : ℝ → ℝ) (p : ℝ × ℝ × ℝ) : WRow n :=
  ⟨kWeights s.pseudoInv (s.G γ) noF (s.g γ p) 0, kVar s.pseudoInv (s.G γ) noF (s.g γ p) 0⟩

theorem OK3D.execute_global_iff {n : ℕ} {env : Env} {s : OK3D n} (hs : s.pseudoInvType ∈ ["pinv", "pinvh"]) {args : ExecArgs3} (r : ExecResult)
    (hn : args.nClosest = none) : s.execute env args = .ok r ↔
    args.style ∈ ["grid", "masked", "points"] ∧ ∃ γ pts mask,
      s.variogramFunction s.params = .ok γ ∧ queryPoints3 args = .ok (pts, mask) ∧
      ¬ (args.xpoints.isInt = true ∧ args.ypoints.isInt = true ∧ args.zpoints.isInt = true) ∧
      backendCheck3 args.backend = .ok () ∧ Solvable s.pseudoInv (s.G γ) noF ∧
      r = mkResult (resultShape3 args) mask pts (s.answer γ) := by
  constructor
  · intro h
    obtain ⟨γ, pts, mask, h1, h2⟩ := OK3D.execute_ok hs hn h
    exact ⟨h1, γ, pts, mask, h2⟩
  · rintro ⟨hst, γ, pts, mask, hγ, hq, hc, hb, hsol, rfl⟩
    rw [OK3D.execute_global env s hs args hn hst]
    unfold OK3D.execGlobal
    rw [hγ, py_ok_bind, hq, py_ok_bind]
    dsimp only
    rw [if_neg hc, hb, py_ok_bind]
    exact if_pos hsol

/-- What the weights at a visible entry are (`OrdinaryKriging3D`). -/
def OK3D.Fact {n : ℕ} (env : Env) (s : OK3D n) (nClosest : Option ℤ) (_ : ℕ) (p : ℝ × ℝ × ℝ) (row : WRow n) : Prop :=
  ∃ γ, s.variogramFunction s.params = .ok γ ∧
    (nClosest = none ∧ KrigedBy id s.pseudoInv s.exactValues γ s.dataDist noF
      (s.queryDist (s.queryPt p)) 0 row ∨
    ∃ k, nClosest = some k ∧ KrigedBy (s.sel env k.toNat p).get false s.exactValues γ
      s.dataDist noF (s.queryDist (s.queryPt p)) 0 row)

theorem OK3D.execute_weighs {n : ℕ} {env : Env} (he : KnnSpec env) {s : OK3D n} (hs : s.pseudoInvType ∈ ["pinv", "pinvh"]) (args : ExecArgs3)
    (hw : WindowFits n args.nClosest) :
    Weighs (fun z lags stats r => (s.withZ z lags stats).execute env args = .ok r) (resultShape3 args)
      (queryAt3 args) (maskedAt3 args) (s.Fact env args.nClosest) := by
  cases hn : args.nClosest with
  | none =>
    refine ⟨fun R => args.style ∈ ["grid", "masked", "points"] ∧ ∃ γ pts mask,
      s.variogramFunction s.params = .ok γ ∧ queryPoints3 args = .ok (pts, mask) ∧
      ¬ (args.xpoints.isInt = true ∧ args.ypoints.isInt = true ∧ args.zpoints.isInt = true) ∧
      backendCheck3 args.backend = .ok () ∧ Solvable s.pseudoInv (s.G γ) noF ∧
      R = (resultShape3 args, hide mask (pts.map (s.row γ))), ?_, ?_, ?_⟩
    · rintro R R' ⟨-, γ, pts, mask, h1, h2, -, -, -, rfl⟩ ⟨-, γ', pts', mask', h1', h2', -, -, -, rfl⟩
      rw [h1] at h1'; rw [h2] at h2'
      cases h1'; cases h2'
      rfl
    · intro z lags stats r
      beta_reduce
      rw [OK3D.execute_global_iff (s := s.withZ z lags stats) hs r hn]
      constructor
      · rintro ⟨hst, γ, pts, mask, hγ, hq, hc, hb, hsol, rfl⟩
        exact ⟨_, ⟨hst, γ, pts, mask, hγ, hq, hc, hb, hsol, rfl⟩, mkResult_eq_applyRows _ _ _ (s.row γ) z⟩
      · rintro ⟨R, ⟨hst, γ, pts, mask, hγ, hq, hc, hb, hsol, rfl⟩, rfl⟩
        exact ⟨hst, γ, pts, mask, hγ, hq, hc, hb, hsol, (mkResult_eq_applyRows _ _ _ (s.row γ) z).symm⟩
    · rintro R ⟨-, γ, pts, mask, hγ, hq, -, -, hsol, rfl⟩
      refine goodRows_of_hide (pts := pts) (by simp) (queryPoints3_getElem? hq)
        (fun j hj => queryPoints3_maskedAt hq hj) ((queryPoints3_spec hq).1) ?_
      intro j p hp _
      refine ⟨s.row γ p, by simp [hp], γ, hγ, Or.inl ⟨rfl, fun _ _ h => h, hsol, ?_, rfl⟩⟩
      exact (scatter_id _).symm
  | some k =>
    have hk := hw k hn
    refine ⟨fun R => args.style ∈ ["grid", "masked", "points"] ∧ 1 < k ∧ ∃ γ pts mask,
      s.variogramFunction s.params = .ok γ ∧ queryPoints3 args = .ok (pts, mask) ∧
      ¬ (args.xpoints.isInt = true ∧ args.ypoints.isInt = true ∧ args.zpoints.isInt = true) ∧
      args.backend = "loop" ∧
      (∀ (j : ℕ) p, pts[j]? = some p → mask[j]? = some false →
        SelRegular (s.sel env k.toNat p) γ s.dataDist) ∧
      R = (resultShape3 args, hide mask (pts.map fun p => selRow (s.sel env k.toNat p)
        s.exactValues γ s.dataDist (s.queryDist (s.queryPt p)))), ?_, ?_, ?_⟩
    · rintro R R' ⟨-, -, γ, pts, mask, h1, h2, -, -, -, rfl⟩ ⟨-, -, γ', pts', mask', h1', h2', -, -, -, rfl⟩
      rw [h1] at h1'; rw [h2] at h2'
      cases h1'; cases h2'
      rfl
    · intro z lags stats r
      beta_reduce
      have key : ∀ γ pts mask, mkResult (resultShape3 args) mask pts
          ((s.withZ z lags stats).windowAnswer env γ k.toNat) =
          applyRows z (resultShape3 args, hide mask (pts.map fun p => selRow (s.sel env k.toNat p)
            s.exactValues γ s.dataDist (s.queryDist (s.queryPt p)))) := by
        intro γ pts mask
        rw [← mkResult_eq_applyRows]
        congr 1
        funext p
        rw [selRow_apply]
        rfl
      rw [OK3D.execute_window he (s := s.withZ z lags stats) hn hk]
      constructor
      · rintro ⟨hst, h1, γ, pts, mask, hγ, hq, hc, hb, hreg, rfl⟩
        exact ⟨_, ⟨hst, h1, γ, pts, mask, hγ, hq, hc, hb, hreg, rfl⟩, key _ _ _⟩
      · rintro ⟨R, ⟨hst, h1, γ, pts, mask, hγ, hq, hc, hb, hreg, rfl⟩, rfl⟩
        exact ⟨hst, h1, γ, pts, mask, hγ, hq, hc, hb, hreg, (key _ _ _).symm⟩
    · rintro R ⟨-, -, γ, pts, mask, hγ, hq, -, -, hreg, rfl⟩
      refine goodRows_of_hide (pts := pts) (by simp) (queryPoints3_getElem? hq)
        (fun j hj => queryPoints3_maskedAt hq hj) ((queryPoints3_spec hq).1) ?_
      intro j p hp hm
      exact ⟨_, by simp [hp], γ, hγ, Or.inr ⟨k, rfl, krigedBy_selRow (s.sel_spec he (by omega) p).2
        (hreg j p hp hm) _ _⟩⟩

/-! ### UniversalKriging -/

/-- The object with other data values. -/
def UK.withZ {n : ℕ} (s : UK n) (z : Fin n → ℝ) (lags : List (ℝ × ℝ)) (stats : Option Stats) : UK n :=
  { s with Z := z, lags := lags, stats := stats }

def UK.row {n : ℕ} (s : UK n) (γ : ℝ → ℝ) (sv : List ℝ) (zext : ℝ) (p : ℝ × ℝ) : WRow n :=
  ⟨kWeights s.pseudoInv (s.G γ) s.F (s.g γ p) (s.f sv zext p),
    kVar s.pseudoInv (s.G γ) s.F (s.g γ p) (s.f sv zext p)⟩

/-- What the weights at a visible entry are (`UniversalKriging`). -/
def UK.Fact {n : ℕ} (s : UK n) (args : UKExecArgs) (j : ℕ) (p : ℝ × ℝ) (row : WRow n) : Prop :=
  ∃ γ spec, s.variogramFunction s.params = .ok γ ∧ s.specGrids args = .ok spec ∧
    (args.toExec.backend = "loop" → ¬ s.atWell p) ∧ ∃ z sv, s.extP p = .ok z ∧
    s.DriftValues args.toExec.backend spec j sv ∧ s.SpecLen sv ∧
    KrigedBy id s.pseudoInv s.exactValues γ s.dataDist s.F (s.queryDist p) (s.f sv z p) row

open Classical in
def UK.rowPoint {n : ℕ} (s : UK n) (γ : ℝ → ℝ) (spec : List (List ℝ)) (p : ℝ × ℝ) : Py (WRow n) := do
  if s.atWell p then throw .typeError
  let z ← s.extP p
  let sv ← s.loopSpec spec
  return s.row γ sv z p

open Classical in
/-- The rows computed by a successful call. -/
def UK.rowItems {n : ℕ} (s : UK n) (backend : String) (γ : ℝ → ℝ) (pts : List (ℝ × ℝ))
    (mask : List Bool) (spec : List (List ℝ)) : Py (List (WRow n)) :=
  if backend = "vectorized" then
    if Solvable s.pseudoInv (s.G γ) s.F then do
      let exts ← pts.mapM s.extP
      return List.zipWith (fun p z => s.row γ (specAt spec p.2) z p.1) pts.zipIdx exts
    else .error .linAlgError
  else if backend = "loop" then
    if Solvable s.pseudoInv (s.G γ) s.F then
      (pts.zip mask).mapM fun p => if p.2 then pure ⟨0, 0⟩ else s.rowPoint γ spec p.1
    else .error .linAlgError
  else .error .valueError

theorem WRow.apply_zero {n : ℕ} (z : Fin n → ℝ) : (⟨0, 0⟩ : WRow n).apply z = (0, 0) := by
  simp [WRow.apply, estimate]

theorem UK.items_withZ {n : ℕ} (s : UK n) (z : Fin n → ℝ) (lags : List (ℝ × ℝ)) (stats : Option Stats)
    (backend : String) (γ : ℝ → ℝ) (pts : List (ℝ × ℝ)) (mask : List Bool) (spec : List (List ℝ)) :
    (s.withZ z lags stats).items backend γ pts mask spec =
      (fun l => l.map fun r => r.apply z) <$> s.rowItems backend γ pts mask spec := by
  classical
  unfold UK.items UK.rowItems
  have e4 : Solvable (s.withZ z lags stats).pseudoInv ((s.withZ z lags stats).G γ) (s.withZ z lags stats).F ↔
    Solvable s.pseudoInv (s.G γ) s.F := Iff.rfl
  split
  · by_cases hsol : Solvable s.pseudoInv (s.G γ) s.F
    · rw [if_pos (e4.2 hsol), if_pos hsol]
      unfold UK.vectorItems
      have e : (s.withZ z lags stats).extP = s.extP := rfl
      rw [e]
      cases pts.mapM s.extP with
      | error e => simp
      | ok exts =>
        simp only [py_ok_bind, py_pure, py_map_ok, List.map_zipWith]
        rfl
    · rw [if_neg (fun h => hsol (e4.1 h)), if_neg hsol]
      simp
  · split
    · by_cases hsol : Solvable s.pseudoInv (s.G γ) s.F
      · rw [if_pos (e4.2 hsol), if_pos hsol]
        unfold UK.loopItems
        rw [map_eq_pure_bind, show (fun a => (pure (List.map (fun r : WRow n => r.apply z) a) : Py _)) =
          fun a => Except.ok (List.map (fun r : WRow n => r.apply z) a) from rfl,
          ← py_mapM_bind_pure]
        refine py_mapM_congr fun q _ => ?_
        split
        · simp [WRow.apply_zero]
        · unfold UK.loopPoint UK.rowPoint
          have e : (s.withZ z lags stats).extP q.1 = s.extP q.1 := rfl
          have e' : (s.withZ z lags stats).loopSpec spec = s.loopSpec spec := rfl
          have e'' : (s.withZ z lags stats).atWell q.1 ↔ s.atWell q.1 := Iff.rfl
          by_cases hw : s.atWell q.1
          · rw [if_pos (e''.2 hw), if_pos hw]; rfl
          · rw [if_neg (fun h => hw (e''.1 h)), if_neg hw, e, e']
            simp only [py_pure, py_ok_bind]
            cases s.extP q.1 with
            | error e => rfl
            | ok z =>
              cases s.loopSpec spec with
              | error e => rfl
              | ok sv => rfl
      · rw [if_neg (fun h => hsol (e4.1 h)), if_neg hsol]
        simp
    · simp

theorem UK.rowItems_ok {n : ℕ} {s : UK n} {args : UKExecArgs} {γ : ℝ → ℝ} {pts : List (ℝ × ℝ)}
    {mask : List Bool} {spec : List (List ℝ)} {rows : List (WRow n)} (hm : mask.length = pts.length)
    (hγ : s.variogramFunction s.params = .ok γ) (hspec : s.specGrids args = .ok spec)
    (h : s.rowItems args.toExec.backend γ pts mask spec = .ok rows) :
    rows.length = pts.length ∧ ∀ (j : ℕ) p, pts[j]? = some p → mask[j]? = some false →
      ∃ row, rows[j]? = some row ∧ s.Fact args j p row := by
  classical
  have krig : ∀ {sv zext p}, Solvable s.pseudoInv (s.G γ) s.F → KrigedBy id s.pseudoInv s.exactValues γ
      s.dataDist s.F (s.queryDist p) (s.f sv zext p) (s.row γ sv zext p) :=
    fun hsol => ⟨fun _ _ h => h, hsol, (scatter_id _).symm, rfl⟩
  unfold UK.rowItems at h
  split at h
  · next hv =>
    split at h
    swap
    · simp at h
    next hsol =>
    obtain ⟨exts, h1, h2⟩ := py_bind_eq_ok.1 h
    rw [py_mapM_eq_ok] at h1
    have hl := h1.length_eq
    simp only [py_pure, Except.ok.injEq] at h2
    subst h2
    refine ⟨by simp [hl], fun k p hk _ => ?_⟩
    obtain ⟨hk1, rfl⟩ := List.getElem?_eq_some_iff.1 hk
    have h3 := List.forall₂_iff_get.1 h1
    refine ⟨s.row γ (specAt spec k) (exts[k]'(by omega)) pts[k], ?_, γ, spec, hγ, hspec,
      fun hb => absurd (hv.symm.trans hb) (by decide), _, _, h3.2 k hk1 (by omega), Or.inl ⟨hv, rfl⟩,
      ?_, krig hsol⟩
    · rw [List.getElem?_eq_getElem (by simp; omega)]
      simp
    · intro l hl
      simp [specAt, UK.specGrids_len hspec l hl]
  · split at h
    swap
    · simp at h
    next hb =>
    split at h
    swap
    · simp at h
    next hsol =>
    rw [py_mapM_eq_ok] at h
    have hl := h.length_eq
    simp only [List.length_zip, hm, min_self] at hl
    refine ⟨hl.symm, fun k p hk hmk => ?_⟩
    obtain ⟨hk1, rfl⟩ := List.getElem?_eq_some_iff.1 hk
    obtain ⟨hk2, hmk⟩ := List.getElem?_eq_some_iff.1 hmk
    have h3 := (List.forall₂_iff_get.1 h).2 k (by simp; omega) (by omega)
    simp only [List.get_eq_getElem, List.getElem_zip, hmk, Bool.false_eq_true, if_false] at h3
    unfold UK.rowPoint at h3
    by_cases hw : s.atWell pts[k]
    · simp only [if_pos hw] at h3
      exact absurd h3 (by simp)
    · simp only [if_neg hw] at h3
      obtain ⟨z, hz, h3⟩ := py_bind_eq_ok.1 h3
      obtain ⟨sv, hsv, h3⟩ := py_bind_eq_ok.1 h3
      simp only [py_pure, Except.ok.injEq] at h3
      refine ⟨_, List.getElem?_eq_getElem (by omega), γ, spec, hγ, hspec, fun _ => hw, z, sv, hz,
        Or.inr ⟨hb, hsv⟩, s.loopSpec_len (UK.specGrids_len hspec) hsv, ?_⟩
      rw [← h3]
      exact krig hsol

theorem UK.execute_weighs {n : ℕ} {s : UK n} (hs : s.pseudoInvType ∈ ["pinv", "pinvh"]) (args : UKExecArgs) :
    Weighs (fun z lags stats r => (s.withZ z lags stats).execute args = .ok r) (resultShape args.toExec)
      (queryAt args.toExec) (maskedAt args.toExec) (s.Fact args) := by
  refine ⟨fun R => args.toExec.style ∈ ["grid", "masked", "points"] ∧ ∃ γ pts mask spec rows,
      s.variogramFunction s.params = .ok γ ∧ queryPoints args.toExec = .ok (pts, mask) ∧
      s.specGrids args = .ok spec ∧
      ¬ (args.toExec.xpoints.isInt && args.toExec.ypoints.isInt) = true ∧
      s.rowItems args.toExec.backend γ pts mask spec = .ok rows ∧
      R = (resultShape args.toExec, hide mask rows), ?_, ?_, ?_⟩
  · rintro R R' ⟨-, γ, pts, mask, spec, rows, h1, h2, h3, -, h4, rfl⟩
      ⟨-, γ', pts', mask', spec', rows', h1', h2', h3', -, h4', rfl⟩
    rw [h1] at h1'; rw [h2] at h2'; rw [h3] at h3'
    cases h1'; cases h2'; cases h3'
    rw [h4] at h4'; cases h4'
    rfl
  · intro z lags stats r
    beta_reduce
    by_cases hst : args.toExec.style ∈ ["grid", "masked", "points"]
    swap
    · rw [UK.execute_bad_style _ args hst]
      simp [hst]
    have key : ∀ mask (rows : List (WRow n)), (⟨resultShape args.toExec,
        hide mask ((rows.map fun r => r.apply z).map Prod.fst),
        hide mask ((rows.map fun r => r.apply z).map Prod.snd)⟩ : ExecResult) =
        applyRows z (resultShape args.toExec, hide mask rows) := by
      intro mask rows
      unfold applyRows
      simp only [List.map_map, hide_map]
      rfl
    unfold UK.execute
    rw [UK.executeW_eq (s.withZ z lags stats) hs args hst, py_map_eq_ok]
    simp only [py_bind_eq_ok, Prod.exists, hst, true_and]
    constructor
    · rintro ⟨r', fl, ⟨γ, hγ, pts, mask, hq, spec, hspec, h⟩, rfl⟩
      split at h
      · simp at h
      next hc =>
      obtain ⟨items, hi, h⟩ := py_bind_eq_ok.1 h
      rw [UK.items_withZ, py_map_eq_ok] at hi
      obtain ⟨rows, hi, rfl⟩ := hi
      simp only [py_pure, Except.ok.injEq, Prod.mk.injEq] at h
      rw [key] at h
      exact ⟨_, _, ⟨γ, pts, mask, spec, rows, hγ, hq, hspec, hc, hi, rfl⟩, h.1.symm⟩
    · rintro ⟨sh, R, ⟨γ, pts, mask, spec, rows, hγ, hq, hspec, hc, hi, hR⟩, rfl⟩
      refine ⟨_, false, ⟨γ, hγ, pts, mask, hq, spec, hspec, ?_⟩, rfl⟩
      rw [if_neg hc, UK.items_withZ, hi, hR, ← key]
      rfl
  · rintro R ⟨-, γ, pts, mask, spec, rows, hγ, hq, hspec, -, hi, rfl⟩
    have := UK.rowItems_ok (queryPoints_length hq) hγ hspec hi
    exact goodRows_of_hide this.1 (queryPoints_getElem? hq)
      (fun j hj => queryPoints_maskedAt hq hj) (queryPoints_length hq) this.2

/-! ### UniversalKriging3D -/

/-- The object with other data values. -/
def UK3D.withZ {n : ℕ} (s : UK3D n) (z : Fin n → ℝ) (lags : List (ℝ × ℝ)) (stats : Option Stats) : UK3D n :=
  { s with VALUES := z, lags := lags, stats := stats }

def UK3D.row {n : ℕ} (s : UK3D n) (γ : ℝ → ℝ) (sv : List ℝ) (p : ℝ × ℝ × ℝ) : WRow n :=
  ⟨kWeights s.pseudoInv (s.G γ) s.F (s.g γ p) (s.f sv p),
    kVar s.pseudoInv (s.G γ) s.F (s.g γ p) (s.f sv p)⟩

/-- What the weights at a visible entry are (`UniversalKriging3D`). -/
def UK3D.Fact {n : ℕ} (s : UK3D n) (args : UK3DExecArgs) (j : ℕ) (p : ℝ × ℝ × ℝ) (row : WRow n) : Prop :=
  ∃ γ spec, s.variogramFunction s.params = .ok γ ∧ s.specGrids args = .ok spec ∧ ∃ sv,
    s.DriftValues args.toExec.backend spec j sv ∧ s.SpecLen sv ∧
    KrigedBy id s.pseudoInv s.exactValues γ s.dataDist s.F (s.queryDist p) (s.f sv p) row

def UK3D.rowPoint {n : ℕ} (s : UK3D n) (γ : ℝ → ℝ) (spec : List (List ℝ)) (p : ℝ × ℝ × ℝ) : Py (WRow n) := do
  let sv ← s.loopSpec spec
  return s.row γ sv p

open Classical in
/-- The rows computed by a successful call. -/
def UK3D.rowItems {n : ℕ} (s : UK3D n) (backend : String) (γ : ℝ → ℝ) (pts : List (ℝ × ℝ × ℝ))
    (mask : List Bool) (spec : List (List ℝ)) : Py (List (WRow n)) :=
  if backend = "vectorized" then
    if Solvable s.pseudoInv (s.G γ) s.F then
      .ok (pts.zipIdx.map fun p => s.row γ (specAt spec p.2) p.1)
    else .error .linAlgError
  else if backend = "loop" then
    if Solvable s.pseudoInv (s.G γ) s.F then
      (pts.zip mask).mapM fun p => if p.2 then pure ⟨0, 0⟩ else s.rowPoint γ spec p.1
    else .error .linAlgError
  else .error .valueError

theorem UK3D.items_withZ {n : ℕ} (s : UK3D n) (z : Fin n → ℝ) (lags : List (ℝ × ℝ)) (stats : Option Stats)
    (backend : String) (γ : ℝ → ℝ) (pts : List (ℝ × ℝ × ℝ)) (mask : List Bool) (spec : List (List ℝ)) :
    (s.withZ z lags stats).items backend γ pts mask spec =
      (fun l => l.map fun r => r.apply z) <$> s.rowItems backend γ pts mask spec := by
  classical
  unfold UK3D.items UK3D.rowItems
  have e4 : Solvable (s.withZ z lags stats).pseudoInv ((s.withZ z lags stats).G γ) (s.withZ z lags stats).F ↔
    Solvable s.pseudoInv (s.G γ) s.F := Iff.rfl
  split
  · by_cases hsol : Solvable s.pseudoInv (s.G γ) s.F
    · rw [if_pos (e4.2 hsol), if_pos hsol]
      unfold UK3D.vectorItems
      rw [py_map_ok, List.map_map]
      rfl
    · rw [if_neg (fun h => hsol (e4.1 h)), if_neg hsol]
      simp
  · split
    · by_cases hsol : Solvable s.pseudoInv (s.G γ) s.F
      · rw [if_pos (e4.2 hsol), if_pos hsol]
        unfold UK3D.loopItems
        rw [map_eq_pure_bind, show (fun a => (pure (List.map (fun r : WRow n => r.apply z) a) : Py _)) =
          fun a => Except.ok (List.map (fun r : WRow n => r.apply z) a) from rfl,
          ← py_mapM_bind_pure]
        refine py_mapM_congr fun q _ => ?_
        split
        · simp [WRow.apply_zero]
        · unfold UK3D.loopPoint UK3D.rowPoint
          have e' : (s.withZ z lags stats).loopSpec spec = s.loopSpec spec := rfl
          rw [e']
          cases s.loopSpec spec with
          | error e => rfl
          | ok sv => rfl
      · rw [if_neg (fun h => hsol (e4.1 h)), if_neg hsol]
        simp
    · simp

theorem UK3D.rowItems_ok {n : ℕ} {s : UK3D n} {args : UK3DExecArgs} {γ : ℝ → ℝ} {pts : List (ℝ × ℝ × ℝ)}
    {mask : List Bool} {spec : List (List ℝ)} {rows : List (WRow n)} (hm : mask.length = pts.length)
    (hγ : s.variogramFunction s.params = .ok γ) (hspec : s.specGrids args = .ok spec)
    (h : s.rowItems args.toExec.backend γ pts mask spec = .ok rows) :
    rows.length = pts.length ∧ ∀ (j : ℕ) p, pts[j]? = some p → mask[j]? = some false →
      ∃ row, rows[j]? = some row ∧ s.Fact args j p row := by
  classical
  have krig : ∀ {sv p}, Solvable s.pseudoInv (s.G γ) s.F → KrigedBy id s.pseudoInv s.exactValues γ
      s.dataDist s.F (s.queryDist p) (s.f sv p) (s.row γ sv p) :=
    fun hsol => ⟨fun _ _ h => h, hsol, (scatter_id _).symm, rfl⟩
  unfold UK3D.rowItems at h
  split at h
  · next hv =>
    split at h
    swap
    · simp at h
    next hsol =>
    simp only [Except.ok.injEq] at h
    subst h
    refine ⟨by simp, fun k p hk _ => ?_⟩
    refine ⟨s.row γ (specAt spec k) p, by simp [hk], γ, spec, hγ, hspec, _, Or.inl ⟨hv, rfl⟩,
      ?_, krig hsol⟩
    intro l hl
    simp [specAt, UK3D.specGrids_len hspec l hl]
  · split at h
    swap
    · simp at h
    next hb =>
    split at h
    swap
    · simp at h
    next hsol =>
    rw [py_mapM_eq_ok] at h
    have hl := h.length_eq
    simp only [List.length_zip, hm, min_self] at hl
    refine ⟨hl.symm, fun k p hk hmk => ?_⟩
    obtain ⟨hk1, rfl⟩ := List.getElem?_eq_some_iff.1 hk
    obtain ⟨hk2, hmk⟩ := List.getElem?_eq_some_iff.1 hmk
    have h3 := (List.forall₂_iff_get.1 h).2 k (by simp; omega) (by omega)
    simp only [List.get_eq_getElem, List.getElem_zip, hmk, Bool.false_eq_true, if_false] at h3
    unfold UK3D.rowPoint at h3
    obtain ⟨sv, hsv, h3⟩ := py_bind_eq_ok.1 h3
    simp only [py_pure, Except.ok.injEq] at h3
    refine ⟨_, List.getElem?_eq_getElem (by omega), γ, spec, hγ, hspec, sv,
      Or.inr ⟨hb, hsv⟩, s.loopSpec_len (UK3D.specGrids_len hspec) hsv, ?_⟩
    rw [← h3]
    exact krig hsol

theorem UK3D.execute_weighs {n : ℕ} {s : UK3D n} (hs : s.pseudoInvType ∈ ["pinv", "pinvh"]) (args : UK3DExecArgs) :
    Weighs (fun z lags stats r => (s.withZ z lags stats).execute args = .ok r) (resultShape3 args.toExec)
      (queryAt3 args.toExec) (maskedAt3 args.toExec) (s.Fact args) := by
  refine ⟨fun R => args.toExec.style ∈ ["grid", "masked", "points"] ∧ ∃ γ pts mask spec rows,
      s.variogramFunction s.params = .ok γ ∧ queryPoints3 args.toExec = .ok (pts, mask) ∧
      s.specGrids args = .ok spec ∧
      ¬ (args.toExec.xpoints.isInt && args.toExec.ypoints.isInt && args.toExec.zpoints.isInt) = true ∧
      s.rowItems args.toExec.backend γ pts mask spec = .ok rows ∧
      R = (resultShape3 args.toExec, hide mask rows), ?_, ?_, ?_⟩
  · rintro R R' ⟨-, γ, pts, mask, spec, rows, h1, h2, h3, -, h4, rfl⟩
      ⟨-, γ', pts', mask', spec', rows', h1', h2', h3', -, h4', rfl⟩
    rw [h1] at h1'; rw [h2] at h2'; rw [h3] at h3'
    cases h1'; cases h2'; cases h3'
    rw [h4] at h4'; cases h4'
    rfl
  · intro z lags stats r
    beta_reduce
    by_cases hst : args.toExec.style ∈ ["grid", "masked", "points"]
    swap
    · rw [UK3D.execute_bad_style _ args hst]
      simp [hst]
    have key : ∀ mask (rows : List (WRow n)), (⟨resultShape3 args.toExec,
        hide mask ((rows.map fun r => r.apply z).map Prod.fst),
        hide mask ((rows.map fun r => r.apply z).map Prod.snd)⟩ : ExecResult) =
        applyRows z (resultShape3 args.toExec, hide mask rows) := by
      intro mask rows
      unfold applyRows
      simp only [List.map_map, hide_map]
      rfl
    unfold UK3D.execute
    rw [UK3D.executeW_eq (s.withZ z lags stats) hs args hst, py_map_eq_ok]
    simp only [py_bind_eq_ok, Prod.exists, hst, true_and]
    constructor
    · rintro ⟨r', fl, ⟨γ, hγ, pts, mask, hq, spec, hspec, h⟩, rfl⟩
      split at h
      · simp at h
      next hc =>
      obtain ⟨items, hi, h⟩ := py_bind_eq_ok.1 h
      rw [UK3D.items_withZ, py_map_eq_ok] at hi
      obtain ⟨rows, hi, rfl⟩ := hi
      simp only [py_pure, Except.ok.injEq, Prod.mk.injEq] at h
      rw [key] at h
      exact ⟨_, _, ⟨γ, pts, mask, spec, rows, hγ, hq, hspec, hc, hi, rfl⟩, h.1.symm⟩
    · rintro ⟨sh, R, ⟨γ, pts, mask, spec, rows, hγ, hq, hspec, hc, hi, hR⟩, rfl⟩
      refine ⟨_, false, ⟨γ, hγ, pts, mask, hq, spec, hspec, ?_⟩, rfl⟩
      rw [if_neg hc, UK3D.items_withZ, hi, hR, ← key]
      rfl
  · rintro R ⟨-, γ, pts, mask, spec, rows, hγ, hq, hspec, -, hi, rfl⟩
    have := UK3D.rowItems_ok (queryPoints3_spec hq).1 hγ hspec hi
    exact goodRows_of_hide this.1 (queryPoints3_getElem? hq)
      (fun j hj => queryPoints3_maskedAt hq hj) (queryPoints3_spec hq).1 this.2

end
end PyKrige
