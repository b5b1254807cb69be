import Verif.Spec.Nan
import Verif.Lemmas.SameZ
import Verif.Lemmas.OKExec

/-! Lemmas about values that may be nan. -/

namespace PyKrige
noncomputable section
open Matrix Spec

/-- Two computations fail with the same error, or succeed with related results. -/
def PyRel {α β : Type} (R : α → β → Prop) : Py α → Py β → Prop
  | .ok a, .ok b => R a b
  | .error e, .error e' => e = e'
  | _, _ => False

theorem PyRel.bind {α β γ δ : Type} {R : α → β → Prop} {S : γ → δ → Prop} {x : Py α} {y : Py β} {f : α → Py γ}
    {g : β → Py δ} (h : PyRel R x y) (hf : ∀ a b, x = .ok a → y = .ok b → R a b → PyRel S (f a) (g b)) :
    PyRel S (x >>= f) (y >>= g) := by
  cases x <;> cases y
  · exact h
  · exact h.elim
  · exact h.elim
  · exact hf _ _ rfl rfl h

theorem PyRel.same {α γ δ : Type} {S : γ → δ → Prop} {x : Py α} {f : α → Py γ} {g : α → Py δ}
    (hf : ∀ a, x = .ok a → PyRel S (f a) (g a)) : PyRel S (x >>= f) (x >>= g) := by
  cases x
  · rfl
  · exact hf _ rfl

theorem PyRel.error {γ δ : Type} {S : γ → δ → Prop} (e : PyErr) : PyRel S (.error e) (.error e) := rfl

theorem PyRel.map {α β : Type} {R : α → β → Prop} {x : Py α} {f : α → β} (h : ∀ a, x = .ok a → R a (f a)) :
    PyRel R x (f <$> x) := by
  cases x
  · rfl
  · exact h _ rfl

theorem PyRel.mono {α β : Type} {R S : α → β → Prop} {x : Py α} {y : Py β} (h : PyRel R x y)
    (hs : ∀ a b, x = .ok a → y = .ok b → R a b → S a b) : PyRel S x y := by
  cases x <;> cases y
  · exact h
  · exact h.elim
  · exact h.elim
  · exact hs _ _ rfl rfl h

theorem PyRel.of_ok {α β : Type} {R : α → β → Prop} {x : Py α} {y : Py β} (h : PyRel R x y) {b : β} (hb : y = .ok b) :
    ∃ a, x = .ok a ∧ R a b := by
  subst hb
  cases x
  · exact h.elim
  · exact ⟨_, rfl, h⟩

theorem PyRel.ok_of {α β : Type} {R : α → β → Prop} {x : Py α} {y : Py β} (h : PyRel R x y) {a : α} (ha : x = .ok a) :
    ∃ b, y = .ok b ∧ R a b := by
  subst ha
  cases y
  · exact h.elim
  · exact ⟨_, rfl, h⟩

open Classical in
/-- The estimate is nan unless `P`. -/
def markv (P : Prop) (v : ℝ) : Option ℝ := if P then some v else none

def mark (P : Prop) (r : ℝ × ℝ) : Option ℝ × ℝ := (markv P r.1, r.2)

theorem nan_foldl {k : ℕ} (x : Fin k → ℝ) (z : Fin k → Option ℝ) (l : List (Fin k)) (acc : Option ℝ) :
    l.foldl (fun acc i => acc.bind fun t => (z i).map fun v => t + x i * v) acc =
      markv (acc ≠ none ∧ ∀ i ∈ l, z i ≠ none) (acc.getD 0 + (l.map fun i => x i * (z i).getD 0).sum) := by
  induction l generalizing acc with
  | nil => cases acc <;> simp [markv]
  | cons a l ih =>
    rw [List.foldl_cons, ih]
    cases acc with
    | none => simp [markv]
    | some t =>
      cases h : z a with
      | none => simp [markv, h]
      | some u =>
        simp only [Option.bind_some, Option.map_some, markv, List.forall_mem_cons, h, List.map_cons, List.sum_cons,
          Option.getD_some, ne_eq, reduceCtorEq, not_false_eq_true, true_and, add_assoc]

theorem nanDot_eq {k : ℕ} (x : Fin k → ℝ) {z : Fin k → Option ℝ} {v : Fin k → ℝ} (hv : Replaces v z) :
    nanDot x z = markv (∀ i, z i ≠ none) (∑ i, x i * v i) := by
  unfold nanDot
  rw [nan_foldl]
  unfold markv
  simp only [ne_eq, reduceCtorEq, not_false_eq_true, true_and, List.mem_finRange, forall_const, Option.getD_some, zero_add]
  by_cases h : ∀ i, ¬ z i = none
  · rw [if_pos h, if_pos h, ← List.sum_ofFn, List.ofFn_eq_map]
    congr 3
    funext i
    obtain ⟨a, ha⟩ := Option.ne_none_iff_exists'.1 (h i)
    rw [ha, hv i a ha, Option.getD_some]
  · rw [if_neg h, if_neg h]

theorem nan_mapM {α β γ : Type} (f : α → Py β) (g : α → β → γ) (l : List α) :
    l.mapM (fun p => g p <$> f p) = (List.zipWith g l) <$> l.mapM f := by
  induction l with
  | nil => rfl
  | cons a l ih =>
    rw [List.mapM_cons, List.mapM_cons, ih]
    cases f a with
    | error e => rfl
    | ok b =>
      cases l.mapM f with
      | error e => rfl
      | ok bs => rfl

/-- A loop over the unmasked points. -/
theorem nan_loop {α : Type} (P : α → Prop) (f : α → Py (ℝ × ℝ)) (f' : α → Py (Option ℝ × ℝ)) (l : List (α × Bool))
    (hf : ∀ p ∈ l, f' p.1 = mark (P p.1) <$> f p.1) :
    l.mapM (fun p => if p.2 then pure (some 0, 0) else f' p.1) =
      (List.zipWith (fun (p : α × Bool) r => if p.2 then (some 0, 0) else mark (P p.1) r) l) <$>
        l.mapM (fun p => if p.2 then pure (0, 0) else f p.1) := by
  rw [← nan_mapM]
  induction l with
  | nil => rfl
  | cons a l ih =>
    rw [List.mapM_cons, List.mapM_cons, ih fun p hp => hf p (by simp [hp])]
    congr 1
    obtain ⟨q, m⟩ := a
    cases m
    · simpa using hf (q, false) (by simp)
    · rfl

/-- Results before masking: nan unless `P`, at the unmasked points. -/
def NanRel {α : Type} (P : α → Prop) (qs : List α) (mask : List Bool) (l : List (ℝ × ℝ)) (l' : List (Option ℝ × ℝ)) :
    Prop :=
  l.length = qs.length ∧ l'.length = qs.length ∧ ∀ (j : ℕ) q r, mask[j]? = some false → qs[j]? = some q → l[j]? = some r →
    l'[j]? = some (mark (P q) r)

theorem mapM_length {α β : Type} {f : α → Py β} {l : List α} {r : List β} (h : l.mapM f = .ok r) :
    r.length = l.length := (py_mapM_eq_ok.1 h).length_eq.symm

theorem NanRel.loop {α : Type} {P : α → Prop} {f : α → Py (ℝ × ℝ)} {f' : α → Py (Option ℝ × ℝ)} {qs : List α}
    {mask : List Bool} (hl : mask.length = qs.length) (hf : ∀ q ∈ qs, f' q = mark (P q) <$> f q) :
    PyRel (NanRel P qs mask) ((qs.zip mask).mapM (fun p => if p.2 then pure (0, 0) else f p.1))
      ((qs.zip mask).mapM (fun p => if p.2 then pure (some 0, 0) else f' p.1)) := by
  rw [nan_loop P f f' _ fun p hp => hf p.1 (List.of_mem_zip hp).1]
  refine PyRel.map fun l h => ?_
  have hL := mapM_length h
  rw [List.length_zip, hl, min_self] at hL
  refine ⟨hL, by simp [hl, hL], fun j q r hm hq hr => ?_⟩
  rw [List.getElem?_zipWith, (List.getElem?_zip_eq_some (z := (q, false))).2 ⟨hq, hm⟩, hr]
  simp

theorem NanRel.comp {α β : Type} {P : β → Prop} {π : α → β} {qs : List α} {mask : List Bool} {l : List (ℝ × ℝ)}
    {l' : List (Option ℝ × ℝ)} (h : NanRel P (qs.map π) mask l l') : NanRel (P ∘ π) qs mask l l' := by
  obtain ⟨h1, h2, h3⟩ := h
  rw [List.length_map] at h1 h2
  exact ⟨h1, h2, fun j q r hm hq hr => h3 j (π q) r hm (by rw [List.getElem?_map, hq]; rfl) hr⟩

theorem NanRel.mapMark {α : Type} {P : Prop} {qs : List α} {mask : List Bool} {l : List (ℝ × ℝ)}
    (h : l.length = qs.length) : NanRel (fun _ => P) qs mask l (l.map (mark P)) :=
  ⟨h, by simp [h], fun j q r _ _ hr => by rw [List.getElem?_map, hr]; rfl⟩

/-- Results after masking. -/
def NanMatch {α : Type} (P : α → Prop) (qs : ℕ → Option α) (ms : ℕ → Bool) (r : ExecResult) (r' : NanResult) : Prop :=
  r'.shape = r.shape ∧ r'.ss = r.ss ∧ r'.z.length = r.z.length ∧ (∀ j, j < r.z.length → qs j ≠ none) ∧
    ∀ j q, qs j = some q → ∃ a : ℝ, r.z[j]? = some (if ms j then none else some a) ∧
      r'.z[j]? = some (if ms j then none else some (markv (P q) a))

theorem NanRel.hide {α : Type} {P : α → Prop} {qs : List α} {mask : List Bool} {l : List (ℝ × ℝ)}
    {l' : List (Option ℝ × ℝ)} (hl : mask.length = qs.length) (h : NanRel P qs mask l l') (sh : List ℕ)
    {ms : ℕ → Bool} (hms : ∀ j, j < qs.length → mask[j]? = some (ms j)) :
    NanMatch P (fun j => qs[j]?) ms ⟨sh, PyKrige.hide mask (l.map Prod.fst), PyKrige.hide mask (l.map Prod.snd)⟩
      ⟨sh, PyKrige.hide mask (l'.map Prod.fst), PyKrige.hide mask (l'.map Prod.snd)⟩ := by
  obtain ⟨h1, h2, h3⟩ := h
  refine ⟨rfl, ?_, by simp [PyKrige.hide, h1, h2], fun j hj => ?_, ?_⟩
  · refine hide_congr _ _ _ (by simp [h1, h2]) fun k a b hm ha hb => ?_
    rw [List.getElem?_map] at ha hb
    obtain ⟨r, hr, rfl⟩ := Option.map_eq_some_iff.1 hb
    obtain ⟨r', hr', rfl⟩ := Option.map_eq_some_iff.1 ha
    obtain ⟨q, hq⟩ : ∃ q, qs[k]? = some q := by
      have := (List.getElem?_eq_some_iff.1 hr).1
      exact ⟨qs[k], List.getElem?_eq_getElem (by omega)⟩
    have := h3 k q r hm hq hr
    rw [hr'] at this
    cases this
    rfl
  · have : j < qs.length := by simpa [PyKrige.hide, h1, hl] using hj
    simp [this]
  · intro j q hq
    have hj : j < qs.length := (List.getElem?_eq_some_iff.1 hq).1
    have e : l[j]? = some l[j] := List.getElem?_eq_getElem (by omega)
    have e' : l'[j]? = some l'[j] := List.getElem?_eq_getElem (by omega)
    have em := hms j hj
    refine ⟨l[j].1, ?_⟩
    dsimp only
    unfold PyKrige.hide
    rw [List.getElem?_zipWith, List.getElem?_zipWith, List.getElem?_map, List.getElem?_map, e, e', em]
    cases hm : ms j with
    | true => simp
    | false =>
      have := h3 j q l[j] (by rw [em, hm]) hq e
      rw [e'] at this
      simp [Option.some.inj this, mark]

theorem applyMaskNan_eq_hide {args : ExecArgs} {pts mask} (h : queryPoints args = .ok (pts, mask))
    (vals : List (Option ℝ)) (hl : vals.length = pts.length) :
    applyMaskNan args.style mask vals = hide mask vals := by
  unfold applyMaskNan
  split
  · rfl
  · next hs => rw [queryPoints_mask h hs, hide_replicate_false _ _ hl]

/-! ### The experimental variogram, parameters, statistics -/

theorem pairDistancesNan_rel {n m : ℕ} (X : Fin n → Fin m → ℝ) (y : Fin n → Option ℝ) (v : Fin n → ℝ) (ct : String) :
    PyRel (fun dg dg' => dg'.map Prod.fst = dg.map Prod.fst ∧
      ((∀ i, y i = some (v i)) → dg' = dg.map fun p => (p.1, some p.2)))
      (pairDistances X v ct) (pairDistancesNan X y ct) := by
  unfold pairDistances pairDistancesNan
  split
  · refine ⟨by simp, fun h => ?_⟩
    simp [nanHalfSq, h]
  · split
    · split
      · refine ⟨by simp, fun h => ?_⟩
        simp [nanHalfSq, h]
      · rfl
    · rfl

theorem nan_sum (l : List ℝ) (acc : ℝ) :
    (l.map some).foldl (fun (acc : Option ℝ) (v : Option ℝ) => acc.bind fun t => v.map fun u => t + u) (some acc) =
      some (acc + l.sum) := by
  induction l generalizing acc with
  | nil => simp
  | cons a l ih => rw [List.map_cons, List.foldl_cons]; simp [ih, add_assoc]

theorem nanMean_some (l : List ℝ) : nanMean (l.map some) = some (mean l) := by
  unfold nanMean mean
  rw [nan_sum]
  simp

theorem binnedNan_some (dg : List (ℝ × ℝ)) (edges : List ℝ) :
    binnedNan (dg.map fun p => (p.1, some p.2)) edges = binned dg edges := by
  unfold binnedNan binned
  congr 1
  funext e
  have : (dg.map fun p => (p.1, some p.2)).filter (fun p => decide (e.1 ≤ p.1 ∧ p.1 < e.2)) =
      (inBin dg e.1 e.2).map fun p => (p.1, some p.2) := by
    unfold inBin
    rw [List.filter_map]
    rfl
  dsimp only
  rw [this, List.length_map, List.map_map, List.map_map]
  have e2 : nanMean ((inBin dg e.1 e.2).map (Prod.snd ∘ fun p => (p.1, some p.2))) =
      some (mean ((inBin dg e.1 e.2).map Prod.snd)) := by
    rw [← nanMean_some, List.map_map]; rfl
  rw [e2]
  rfl

theorem experimentalVariogramNan_rel {n m : ℕ} (X : Fin n → Fin m → ℝ) (y : Fin n → Option ℝ) (v : Fin n → ℝ)
    (nlags : ℕ) (ct : String) :
    PyRel (fun ev ev' => (∀ i, y i = some (v i)) → ev' = ev)
      (experimentalVariogram X v nlags ct) (experimentalVariogramNan X y nlags ct) := by
  unfold experimentalVariogram experimentalVariogramNan
  refine (pairDistancesNan_rel X y v ct).bind fun dg dg' _ _ h => ?_
  rw [h.1]
  refine PyRel.same fun dmax _ => PyRel.same fun dmin _ hy => ?_
  rw [h.2 hy]
  exact binnedNan_some _ _

theorem initializeVariogramModelNan_rel {n m : ℕ} (env : Env) (X : Fin n → Fin m → ℝ) (y : Fin n → Option ℝ)
    (v : Fin n → ℝ) (model : String) (params : Option (List ℝ)) (f : VFun) (nlags : ℕ) (weight : Bool) (ct : String)
    (h : params ≠ none ∨ ∀ i, y i = some (v i)) :
    PyRel (fun r r' => r'.2 = r.2 ∧ ((∀ i, y i = some (v i)) → r' = r))
      (initializeVariogramModel env X v model params f nlags weight ct)
      (initializeVariogramModelNan env X y model params f nlags weight ct) := by
  unfold initializeVariogramModel initializeVariogramModelNan
  refine (experimentalVariogramNan_rel X y v nlags ct).bind fun ev ev' _ _ he => ?_
  cases params with
  | some ps =>
    dsimp only
    split
    · rfl
    · split
      · rfl
      · exact ⟨rfl, fun hy => by rw [he hy]⟩
  | none =>
    obtain rfl := he (h.resolve_left (by simp))
    dsimp only
    split
    · rfl
    · exact PyRel.same fun ps _ => ⟨rfl, fun _ => rfl⟩

theorem krigeNan_eq {n m : ℕ} (X : Fin n → Fin m → ℝ) (y : Fin n → Option ℝ) {v : Fin n → ℝ} (hv : Replaces v y)
    (c : Fin m → ℝ) (f : VFun) (params : List ℝ) (ct : String) (pinv : Bool) :
    krigeNan X y c f params ct pinv = mark (∀ i, y i ≠ none) <$> krige X v c f params ct pinv := by
  unfold krigeNan krige
  cases krigeDistances X c ct with
  | error e => rfl
  | ok r =>
    obtain ⟨d, bd⟩ := r
    simp only [py_ok_bind]
    cases f params with
    | error e => rfl
    | ok γ =>
      simp only [py_ok_bind, nanDot_eq _ hv]
      cases pinv with
      | true => rfl
      | false =>
        simp only [Bool.false_eq_true, if_false, map_bind]
        rfl

/-- One statistics entry. -/
theorem statEntryNan_eq {n m : ℕ} (X : Fin n → Fin m → ℝ) (y : Fin n → Option ℝ) {v : Fin n → ℝ} (hv : Replaces v y)
    (f : VFun) (params : List ℝ) (ct : String) (pinv : Bool) (i : Fin n) :
    statEntryNan X y f params ct pinv i =
      (fun o => o.map (mark (∀ j, j ≤ i → y j ≠ none))) <$> statEntry X v f params ct pinv i := by
  unfold statEntryNan statEntry
  rw [krigeNan_eq _ _ (v := fun j => v (Fin.castLE i.isLt.le j)) fun j a h => hv _ _ h]
  cases krige (fun j : Fin i.val => X (Fin.castLE i.isLt.le j)) (fun j => v (Fin.castLE i.isLt.le j)) (X i) f params ct
      pinv with
  | error e => rfl
  | ok r =>
    obtain ⟨k, ss⟩ := r
    simp only [py_map_ok, py_ok_bind, mark]
    split
    · rfl
    · split
      · rfl
      · split
        · simp only [py_pure, py_map_ok, Option.map_some, mark, Except.ok.injEq, Option.some.injEq, Prod.mk.injEq, and_true]
          have hiff : (∀ j, j ≤ i → y j ≠ none) ↔
              y i ≠ none ∧ ∀ j : Fin i.val, y (Fin.castLE i.isLt.le j) ≠ none := by
            constructor
            · intro h
              exact ⟨h i le_rfl, fun j => h _ (by rw [Fin.le_def]; exact j.isLt.le)⟩
            · rintro ⟨h1, h2⟩ j hj
              rcases lt_or_eq_of_le hj with h | rfl
              · exact h2 ⟨j.val, h⟩
              · exact h1
          unfold markv
          by_cases h1 : ∀ j : Fin i.val, y (Fin.castLE i.isLt.le j) ≠ none
          · rw [if_pos h1]
            cases h2 : y i with
            | none => rw [if_neg (fun h => (hiff.1 h).1 h2)]; rfl
            | some a => rw [if_pos (hiff.2 ⟨by simp [h2], h1⟩), hv i a h2]; rfl
          · rw [if_neg h1, if_neg fun h => h1 (hiff.1 h).2]
            cases y i <;> rfl
        · rfl

/-- Statistics: the same sigma; a residual is nan if the value or an earlier one is, and otherwise the same. -/
def StatsRel {n : ℕ} (y : Fin n → Option ℝ) (st : Stats) (st' : NanStats) : Prop :=
  st'.sigma = st.sigma ∧ ∃ idx : List (Fin n), idx.Pairwise (· < ·) ∧ (∀ i ∈ idx, i.val ≠ 0) ∧ st.delta.length = idx.length ∧
    st.sigma.length = idx.length ∧ st.epsilon.length = idx.length ∧
    st'.delta = List.zipWith (fun i d => markv (∀ j, j ≤ i → y j ≠ none) d) idx st.delta ∧
    st'.epsilon = List.zipWith (fun i d => markv (∀ j, j ≤ i → y j ≠ none) d) idx st.epsilon

/-- The indices of the entries that are kept. -/
def keptIdx {n : ℕ} (l : List (Fin n)) (es : List (Option (ℝ × ℝ))) : List (Fin n) :=
  (List.zipWith (fun i (o : Option (ℝ × ℝ)) => o.map fun _ => i) l es).filterMap id

theorem keptIdx_sublist {n : ℕ} (l : List (Fin n)) (es : List (Option (ℝ × ℝ))) : (keptIdx l es).Sublist l := by
  induction l generalizing es with
  | nil => exact List.Sublist.refl _
  | cons a l ih =>
    cases es with
    | nil => exact List.nil_sublist _
    | cons e es =>
      cases e with
      | none => exact (ih es).cons a
      | some r => exact (ih es).cons_cons a

theorem filterMap_zip_mark {n : ℕ} (Q : Fin n → Prop) (l : List (Fin n)) (es : List (Option (ℝ × ℝ)))
    (h : es.length = l.length) :
    (List.zipWith (fun i (o : Option (ℝ × ℝ)) => o.map (mark (Q i))) l es).filterMap id =
      List.zipWith (fun i r => mark (Q i) r) (keptIdx l es) (es.filterMap id) ∧
    (keptIdx l es).length = (es.filterMap id).length := by
  induction l generalizing es with
  | nil => cases es <;> simp_all [keptIdx]
  | cons a l ih =>
    cases es with
    | nil => simp at h
    | cons e es =>
      have ih := ih es (by simpa using h)
      cases e with
      | none => exact ih
      | some r =>
        exact ⟨congrArg (mark (Q a) r :: ·) ih.1, congrArg (· + 1) ih.2⟩

theorem markv_true {P : Prop} (h : P) : markv P = some := by
  funext v; unfold markv; exact if_pos h

theorem mark_true {P : Prop} (h : P) (r : ℝ × ℝ) : mark P r = (some r.1, r.2) := by
  rw [mark, markv_true h]

theorem findStatisticsNan_rel {n m : ℕ} (X : Fin n → Fin m → ℝ) (y : Fin n → Option ℝ) {v : Fin n → ℝ}
    (hv : Replaces v y) (f : VFun) (params : List ℝ) (ct : String) (pinv : Bool) :
    PyRel (StatsRel y) (findStatistics X v f params ct pinv) (findStatisticsNan X y f params ct pinv) := by
  unfold findStatistics findStatisticsNan
  have e : statEntryNan X y f params ct pinv = fun i =>
      (fun o => o.map (mark (∀ j, j ≤ i → y j ≠ none))) <$> statEntry X v f params ct pinv i :=
    funext fun i => statEntryNan_eq X y hv f params ct pinv i
  rw [e, nan_mapM _ (fun (i : Fin n) (o : Option (ℝ × ℝ)) => o.map (mark (∀ j, j ≤ i → y j ≠ none)))]
  refine PyRel.bind (R := fun es es' => es' = List.zipWith _ ((List.finRange n).filter fun i => i.val ≠ 0) es ∧
    es.length = ((List.finRange n).filter fun i => i.val ≠ 0).length) (PyRel.map fun es h => ⟨rfl, mapM_length h⟩) ?_
  rintro es _ - - ⟨rfl, hl⟩
  have hsort : ((List.finRange n).filter fun i => i.val ≠ 0).Pairwise (· < ·) := (List.pairwise_lt_finRange n).filter _
  have hpos : ∀ i ∈ (List.finRange n).filter fun i => i.val ≠ 0, i.val ≠ 0 := fun i hi => by simpa using (List.mem_filter.1 hi).2
  generalize ((List.finRange n).filter fun i => i.val ≠ 0) = l at hl hsort hpos
  obtain ⟨h1, h2⟩ := filterMap_zip_mark (fun i => ∀ j, j ≤ i → y j ≠ none) l es hl
  have hs := hsort.sublist (keptIdx_sublist l es)
  have hp : ∀ i ∈ keptIdx l es, i.val ≠ 0 := fun i hi => hpos i ((keptIdx_sublist l es).subset hi)
  rw [h1]
  generalize keptIdx l es = idx at h2 hs hp
  generalize es.filterMap id = kept at h2
  refine ⟨?_, idx, hs, hp, by simp [h2], by simp [h2], by simp [h2], ?_, ?_⟩
  · dsimp only
    clear h1 hs hp
    induction idx generalizing kept with
    | nil => cases kept <;> simp_all
    | cons a idx ih =>
      cases kept with
      | nil => simp at h2
      | cons r kept => simpa [mark] using ih kept (by simpa using h2)
  · dsimp only
    rw [List.map_zipWith, List.zipWith_map_right]
    rfl
  · dsimp only
    rw [List.map_zipWith, List.zipWith_map_right]
    congr 1
    funext i r
    unfold mark markv
    dsimp only
    split <;> rfl

end
end PyKrige
