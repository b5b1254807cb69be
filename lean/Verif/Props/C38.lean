import Verif.Model.CK
import Verif.Props.C36
import Verif.Props.C37

/-!
C38: classification kriging returns the training class at training points.

For every classifier: where the kriging of the residuals honours its data, `predict` at a training point returns the
position of the training class in `classes_`. It is the position, not the label: the two agree only for classes
0, 1, 2, .... With a single class, and after fitting targets of one dimension, there is no prediction at all.
-/

set_option linter.unusedSectionVars false
set_option linter.unusedVariables false

namespace PyKrige
open Spec
noncomputable section

/-- Probabilities for one row do not depend on the other rows. -/
def Spec.RowwiseProba {P L : Type} (C : Classifier P L) : Prop :=
  ∀ (st : C.State) (m m' : ℕ) (q : Fin m → P) (q' : Fin m' → P) (f : Fin m → ℕ → ℝ) (f' : Fin m' → ℕ → ℝ),
    C.predictProba st q = .ok f → C.predictProba st q' = .ok f' → ∀ j i, q j = q' i → f j = f' i

theorem argmax_spec {c : ℕ} (f : Fin (c + 1) → ℝ) : (∀ l, f l ≤ f (argmax f)) ∧ ∀ j < argmax f, ∃ l, f j < f l := by
  have h := Finset.min'_mem (Finset.univ.filter fun j => ∀ l, f l ≤ f j) (by
    obtain ⟨j, -, h⟩ := Finset.exists_max_image Finset.univ f ⟨0, Finset.mem_univ _⟩
    exact ⟨j, Finset.mem_filter.2 ⟨Finset.mem_univ _, fun l => h l (Finset.mem_univ l)⟩⟩)
  refine ⟨(Finset.mem_filter.1 h).2, fun j hj => ?_⟩
  by_contra hno
  push Not at hno
  exact absurd hj (not_lt.2 (Finset.min'_le _ _ (Finset.mem_filter.2 ⟨Finset.mem_univ _, hno⟩)))

theorem argmax_eq {c : ℕ} {f : Fin (c + 1) → ℝ} {j : Fin (c + 1)} (h : ∀ l, l ≠ j → f l < f j) : argmax f = j := by
  by_contra hne
  exact absurd ((argmax_spec f).1 j) (not_le.2 (h _ hne))

section
variable {P L : Type} [DecidableEq L] {C : Classifier P L} {n m d : ℕ} {env : Env} {k k' : CK C}

theorem makeKriges_ok {args : KrigeArgs} {c : ℕ} {ks : List Krige} (h : makeKriges args c = (.ok (), ks)) :
    ks = List.replicate c ⟨args, none⟩ := by
  induction c generalizing ks with
  | zero => exact (Prod.ext_iff.1 h).2.symm
  | succ c ih =>
    unfold makeKriges at h
    cases hi : Krige.init args with
    | error e => rw [hi] at h; cases (Prod.ext_iff.1 h).1
    | ok k =>
      rw [hi] at h
      dsimp only at h
      have h1 := (Prod.ext_iff.1 h).1
      have h2 := (Prod.ext_iff.1 h).2
      dsimp only at h1 h2
      have hk : k = ⟨args, none⟩ := by
        unfold Krige.init at hi
        split at hi
        · cases hi
        · exact (Except.ok.inj hi).symm
      rw [← h2, hk, ih (Prod.ext h1 rfl : makeKriges args c = (.ok (), (makeKriges args c).2)), List.replicate_succ]

theorem fitKriges_ok {x : Fin n → Fin d → ℝ} {res : Fin n → ℕ → ℝ} {r : ℕ} {ks ks' : List Krige}
    (h : fitKriges env x res r ks = (.ok (), ks')) : ks'.length = ks.length ∧ ∀ (i : ℕ) K, ks[i]? = some K →
      ∃ K', ks'[i]? = some K' ∧ K.fit env x (fun j => res j (r + i)) = (.ok (), K') := by
  induction ks generalizing r ks' with
  | nil =>
    obtain rfl : [] = ks' := (Prod.ext_iff.1 h).2
    exact ⟨rfl, fun i K hK => by simp at hK⟩
  | cons k ks ih =>
    unfold fitKriges at h
    rcases hk : k.fit env x fun i => res i r with ⟨o, K⟩
    rw [hk] at h
    cases o with
    | error e => cases (Prod.ext_iff.1 h).1
    | ok u =>
      dsimp only at h
      have h1 := (Prod.ext_iff.1 h).1
      have h2 := (Prod.ext_iff.1 h).2
      dsimp only at h1 h2
      obtain ⟨hl, hi⟩ := ih (Prod.ext h1 rfl : fitKriges env x res (r + 1) ks = (.ok (), (fitKriges env x res (r + 1) ks).2))
      rw [← h2]
      refine ⟨by simp [hl], fun i K' hK' => ?_⟩
      cases i with
      | zero =>
        obtain rfl : k = K' := by simpa using hK'
        exact ⟨K, rfl, hk⟩
      | succ i =>
        obtain ⟨K'', h3, h4⟩ := hi i K' (by simpa using hK')
        refine ⟨K'', by simpa using h3, ?_⟩
        rw [← h4]
        congr 1
        funext j
        rw [show r + (i + 1) = r + 1 + i by omega]

/-- What a successful fit leaves behind: the classifier, fitted; its classes; for each coordinate of the log-ratio
transform a `Krige` object with the settings of the constructor, fitted to the difference of the transforms of the
encoded training class and of the classifier's probabilities. -/
theorem C38_fit {p : Fin n → P} {x : Fin n → Fin d → ℝ} {y : Fin n → L} {b : Bool} (h : k.fit env p x y b = (.ok (), k')) :
    ∃ (proba : Fin n → ℕ → ℝ) (ks : List Krige) (c : ℕ), C.fit k.state p y = (.ok (), k'.state) ∧
      C.predictProba k'.state p = .ok proba ∧ b = true ∧ (∀ i, y i ∈ C.classes k'.state) ∧
      k'.classes = some (C.classes k'.state) ∧ k'.krige = some ks ∧ c = (C.classes k'.state).length - 1 ∧ ks.length = c ∧
      ∀ r : Fin c, ∃ K, ks[r.val]? = some K ∧ Krige.fit env ⟨k.args, none⟩ x
        (fun i => ilrTransformation (fun (_ : Fin 1) (j : Fin (c + 1)) => if (C.classes k'.state)[j.val]? = some (y i) then 1 else 0) 0 r
          - ilrTransformation (fun (_ : Fin 1) (j : Fin (c + 1)) => proba i j) 0 r) = (.ok (), K) := by
  unfold CK.fit at h
  rcases hR : C.fit k.state p y with ⟨o, st⟩
  rw [hR] at h
  cases o with
  | error e => cases (Prod.ext_iff.1 h).1
  | ok u =>
    dsimp only at h
    rcases hM : makeKriges k.args ((C.classes st).length - 1) with ⟨o, ks⟩
    rw [hM] at h
    cases o with
    | error e => cases (Prod.ext_iff.1 h).1
    | ok u =>
      dsimp only at h
      cases hP : C.predictProba st p with
      | error e => rw [hP] at h; cases (Prod.ext_iff.1 h).1
      | ok proba =>
        rw [hP] at h
        dsimp only at h
        cases hO : oneHot (C.classes st) y b with
        | error e => rw [hO] at h; cases (Prod.ext_iff.1 h).1
        | ok ohe =>
          rw [hO] at h
          dsimp only at h
          have h1 := (Prod.ext_iff.1 h).1
          have h2 := (Prod.ext_iff.1 h).2
          dsimp only at h1 h2
          obtain ⟨hl, hi⟩ := fitKriges_ok (Prod.ext h1 rfl)
          have hks := makeKriges_ok hM
          rw [← h2]
          have hb : b = true := by
            cases b
            · cases hO
            · rfl
          have hy : ∀ i, y i ∈ C.classes st := by
            by_contra hno
            push Not at hno
            unfold oneHot at hO
            rw [if_neg (by rw [hb]; decide), if_pos hno] at hO
            cases hO
          have hohe : ∀ (i : Fin n) (j : ℕ), ohe i j = if (C.classes st)[j]? = some (y i) then 1 else 0 := by
            unfold oneHot at hO
            rw [if_neg (by rw [hb]; decide), if_neg (by push Not; exact hy)] at hO
            rw [← Except.ok.inj hO]
            intro i j
            simp
          refine ⟨proba, _, _, rfl, hP, hb, hy, rfl, rfl, rfl, ?_, fun r => ?_⟩
          · rw [hl, hks, List.length_replicate]
          · obtain ⟨K, h3, h4⟩ := hi r.val ⟨k.args, none⟩ (by rw [hks, List.getElem?_replicate, if_pos r.2])
            refine ⟨K, h3, ?_⟩
            rw [← h4]
            congr 1
            funext i
            simp [ilrMat, hohe]

/-- Columns of the kriged residuals. -/
theorem krigeResidual_ok {cl : List L} {ks : List Krige} {x : Points} {bk : Option String} {M : Mat} (hc : k.classes = some cl)
    (hks : k.krige = some ks) (h : k.krigeResidual env x bk = .ok M) : 0 < cl.length - 1 ∧ M.cols = cl.length - 1 ∧
      ∀ r < cl.length - 1, ∃ K e, ks[r]? = some K ∧ K.predict env x { backend := bk } = .ok e ∧ e.length = M.rows ∧
        ∀ (j : ℕ) v, e[j]? = some (some v) → M.val j r = v := by
  unfold CK.krigeResidual at h
  rw [hc, hks] at h
  dsimp only at h
  obtain ⟨preds, hp, h⟩ := py_bind_eq_ok.1 h
  rw [py_mapM_eq_ok] at hp
  have hlen : preds.length = cl.length - 1 := by rw [← hp.length_eq, List.length_range]
  cases preds with
  | nil => cases h
  | cons e₀ es =>
    dsimp only at h
    split at h
    · cases h
    · next hall =>
      push Not at hall
      obtain rfl := Except.ok.inj h
      refine ⟨by rw [← hlen]; simp, hlen, fun r hr => ?_⟩
      have hr' : r < (e₀ :: es).length := by rw [hlen]; exact hr
      have hget := (List.forall₂_iff_get.1 hp).2 r (by simpa using hr) hr'
      simp only [List.get_eq_getElem, List.getElem_range] at hget
      obtain ⟨K, hK, hget⟩ := py_bind_eq_ok.1 hget
      obtain ⟨e, he, hget⟩ := py_bind_eq_ok.1 hget
      rw [py_mapM_eq_ok] at hget
      refine ⟨K, e, ?_, he, ?_, fun j v hv => ?_⟩
      · unfold pyGet at hK
        split at hK
        · next hh => rw [hh]; exact congrArg some (Except.ok.inj hK)
        · cases hK
      · rw [hget.length_eq]
        dsimp only
        rcases r with _ | r
        · rfl
        · exact hall _ (List.getElem_mem (by simpa using hr'))
      · have hj : j < e.length := (List.getElem?_eq_some_iff.1 hv).1
        have hj' : j < (e₀ :: es)[r].length := by rw [← hget.length_eq]; exact hj
        have := (List.forall₂_iff_get.1 hget).2 j hj hj'
        simp only [List.get_eq_getElem, (List.getElem?_eq_some_iff.1 hv).2] at this
        dsimp only
        simp only [List.getD_eq_getElem?_getD, List.getElem?_eq_getElem hr', Option.getD_some, List.getElem?_eq_getElem hj']
        exact (Except.ok.inj this).symm

/-- The sum of two arrays of the same shape. -/
theorem add_same {a b : Mat} (hr : a.rows = b.rows) (hc : a.cols = b.cols) : ∃ s, a.add b = .ok s ∧ s.rows = a.rows ∧
    s.cols = a.cols ∧ ∀ i j, i < a.rows → j < a.cols → s.val i j = a.val i j + b.val i j := by
  unfold Mat.add broadcastDim
  rw [if_pos hr, if_pos hc]
  refine ⟨_, rfl, rfl, rfl, fun i j hi hj => ?_⟩
  dsimp only
  have h1 : (if a.rows = 1 then 0 else i) = i := by split <;> omega
  have h2 : (if a.cols = 1 then 0 else j) = j := by split <;> omega
  rw [← hr, ← hc, h1, h2]

/-- What `predict` returns, for as many rows of predictors as points: the first position of the largest part of the
composition whose log-ratios are those of the probabilities plus the kriged residuals. -/
theorem C38_predict {cl : List L} {c : ℕ} {ks : List Krige} {q : Fin m → P} {u : Points} {bk : Option String} {v : List ℕ}
    (hcl : k.classes = some cl) (hc : c = cl.length - 1) (hcl' : (C.classes k.state).length = cl.length)
    (hks : k.krige = some ks) (hlen : ∀ K ∈ ks, ∀ e, K.predict env u { backend := bk } = .ok e → e.length = m)
    (hv : k.predict env q u bk = .ok v) : 0 < c ∧
    ∃ (proba : Fin m → ℕ → ℝ) (e : Fin c → List (Option ℝ)), C.predictProba k.state q = .ok proba ∧
      (∀ r : Fin c, ∃ K, ks[r.val]? = some K ∧ K.predict env u { backend := bk } = .ok (e r)) ∧ v.length = m ∧
      ∀ (j : Fin m) (a : Fin c → ℝ), (∀ r, (e r)[j.val]? = some (some (a r))) →
        v[j.val]? = some (argmax (inverseIlr (fun (_ : Fin 1) r =>
          a r + ilrTransformation (fun (_ : Fin 1) (l : Fin (c + 1)) => proba j l) 0 r) 0)).val := by
  unfold CK.predict at hv
  obtain ⟨proba, hp, hv⟩ := py_bind_eq_ok.1 hv
  obtain ⟨M, hM, hv⟩ := py_bind_eq_ok.1 hv
  obtain ⟨h0, hcols, hres⟩ := krigeResidual_ok hcl hks hM
  rw [← hc] at h0 hcols hres
  refine ⟨h0, proba, ?_⟩
  have hrows : M.rows = m := by
    obtain ⟨K, e, hK, he, hl, -⟩ := hres 0 h0
    rw [← hl]
    exact hlen K (List.mem_of_getElem? hK) e he
  choose K e hK he hl hval using fun r : Fin c => hres r r.2
  obtain ⟨S, hS, hSr, hSc, hSv⟩ := add_same (a := M) (b := ilrMat m ((C.classes k.state).length - 1)
    fun i j => if h : i < m then proba ⟨i, h⟩ j else 0) hrows (by rw [hcols, hc, ← hcl']; rfl)
  rw [hS] at hv
  obtain rfl := (Except.ok.inj hv).symm
  rcases S with ⟨srows, scols, sval⟩
  dsimp only at hSr hSc hSv ⊢
  have e1 : scols = c := hSc.trans hcols
  have e2 : srows = m := hSr.trans hrows
  subst e1
  subst e2
  refine ⟨e, hp, fun r => ⟨K r, hK r, he r⟩, by simp, fun j a ha => ?_⟩
  rw [List.getElem?_map, List.getElem?_range j.2]
  simp only [Option.map_some, Option.some.injEq]
  congr 3
  funext _ r
  rw [hSv j r (by rw [hrows]; exact j.2) (by rw [hcols]; exact r.2), hval r j _ (ha r)]
  congr 1
  have : scols = (C.classes k.state).length - 1 := by rw [hc, hcl']
  subst this
  simp [ilrMat]

/-- The encoding of a class is largest at the class, also after the transform and back. -/
theorem argmax_oneHot {c : ℕ} (t : Fin (c + 1)) :
    argmax (inverseIlr (ilrTransformation fun (_ : Fin 1) (j : Fin (c + 1)) => if j = t then (1 : ℝ) else 0) 0) = t := by
  refine argmax_eq fun l hl => C37_order ?_ ?_
  · simp only [if_neg hl, if_true]; exact zero_lt_one
  · simp only [if_true]
    exact machineEps_small.trans_lt (by norm_num)

theorem predict_class {p : Fin n → P} {x : Fin n → Fin d → ℝ} {y : Fin n → L} {b : Bool} (hC : RowwiseProba C)
    (hfit : k.fit env p x y b = (.ok (), k')) (hnd : (C.classes k'.state).Nodup) {bk : Option String} {q : Fin m → P}
    {u : Fin m → Fin d → ℝ} {i₀ : Bool}
    (hh : ∀ (ks : List Krige) (K : Krige) (r : Fin n → ℝ) (e : List (Option ℝ)), k'.krige = some ks → K ∈ ks →
      Krige.fit env ⟨k.args, none⟩ x r = (.ok (), K) →
      K.predict env ⟨m, d, u, i₀⟩ { backend := bk } = .ok e → Honours x r u e) {v : List ℕ}
    (hv : k'.predict env q ⟨m, d, u, i₀⟩ bk = .ok v) :
    v.length = m ∧ ∀ (j : Fin m) (i : Fin n), q j = p i → u j = x i →
      ∃ t, v[j.val]? = some t ∧ (C.classes k'.state)[t]? = some (y i) := by
  obtain ⟨proba, ks, c, -, hproba, -, hy, hcl, hks, hc, hlen, hkr⟩ := C38_fit hfit
  have hlen' : ∀ K ∈ ks, ∀ e, K.predict env ⟨m, d, u, i₀⟩ { backend := bk } = .ok e → e.length = m := by
    intro K hK e he
    obtain ⟨r, hr⟩ := List.getElem?_of_mem hK
    obtain ⟨K', h1, h2⟩ := hkr ⟨r, by rw [← hlen]; exact (List.getElem?_eq_some_iff.1 hr).1⟩
    rw [hr] at h1
    obtain rfl : K = K' := Option.some.inj h1
    exact (hh ks K _ e hks hK h2 he).1
  obtain ⟨h0, proba', e, hproba', he, hl, hres⟩ := C38_predict hcl hc rfl hks hlen' hv
  refine ⟨hl, fun j i hq hu => ?_⟩
  obtain ⟨t, ht, hti⟩ := List.getElem_of_mem (hy i)
  have htc : t < c + 1 := by omega
  refine ⟨t, ?_, by rw [List.getElem?_eq_getElem ht, hti]⟩
  have hres' := hres j (fun r => ilrTransformation (fun (_ : Fin 1) (l : Fin (c + 1)) =>
      if (C.classes k'.state)[l.val]? = some (y i) then 1 else 0) 0 r
        - ilrTransformation (fun (_ : Fin 1) (l : Fin (c + 1)) => proba i l) 0 r) (fun r => by
    obtain ⟨K, h1, h2⟩ := hkr r
    obtain ⟨K', h1', h3⟩ := he r
    rw [h1] at h1'
    obtain rfl : K = K' := Option.some.inj h1'
    obtain ⟨a, ha, hai⟩ := (hh ks K _ _ hks (List.mem_of_getElem? h1) h2 h3).2 j
    rw [ha, hai i hu])
  rw [hres', hC _ _ _ q p proba' proba hproba' hproba j i hq]
  simp only [sub_add_cancel]
  have henc : (fun (_ : Fin 1) (l : Fin (c + 1)) => if (C.classes k'.state)[l.val]? = some (y i) then (1 : ℝ) else 0) =
      fun _ l => if l = ⟨t, htc⟩ then 1 else 0 := by
    funext _ l
    congr 1
    refine propext ⟨fun h => ?_, fun h => ?_⟩
    · obtain ⟨hl', hli⟩ := List.getElem?_eq_some_iff.1 h
      exact Fin.ext ((List.Nodup.getElem_inj_iff hnd).1 (hli.trans hti.symm))
    · rw [h]
      exact List.getElem?_eq_some_iff.2 ⟨ht, hti⟩
  rw [henc]
  have : (fun (_ : Fin 1) r => ilrTransformation (fun (_ : Fin 1) (l : Fin (c + 1)) => if l = ⟨t, htc⟩ then (1 : ℝ) else 0) 0 r) =
      ilrTransformation (fun (_ : Fin 1) (l : Fin (c + 1)) => if l = ⟨t, htc⟩ then (1 : ℝ) else 0) := by
    funext i' r
    rw [Subsingleton.elim i' 0]
  rw [this, argmax_oneHot]

/-- In the plane: at the predictors and the location of a training point, `predict` returns the position of its class in
`classes_`, if each residual kriging honours its data (the conditions of C05). -/
theorem C38_training_plane {p : Fin n → P} {x : Fin n → Fin 2 → ℝ} {y : Fin n → L} {b : Bool} (hC : RowwiseProba C)
    (hfit : k.fit env p x y b = (.ok (), k')) (hnd : (C.classes k'.state).Nodup)
    (hx : ∀ ks, k'.krige = some ks → ∀ K ∈ ks, ExactPlane env K x) {bk : Option String} {q : Fin m → P}
    {u : Fin m → Fin 2 → ℝ} {i₀ : Bool} {v : List ℕ}
    (hv : k'.predict env q { n := m, d := 2, val := u, isInt := i₀ } bk = .ok v) :
    v.length = m ∧ ∀ (j : Fin m) (i : Fin n), q j = p i → u j = x i →
      ∃ t, v[j.val]? = some t ∧ (C.classes k'.state)[t]? = some (y i) :=
  predict_class hC hfit hnd (fun ks K r e h1 h2 h3 h4 => C35_exact_plane h3 (hx ks h1 K h2) rfl h4) hv

/-- In space. -/
theorem C38_training_space {p : Fin n → P} {x : Fin n → Fin 3 → ℝ} {y : Fin n → L} {b : Bool} (hC : RowwiseProba C)
    (hfit : k.fit env p x y b = (.ok (), k')) (hnd : (C.classes k'.state).Nodup)
    (hx : ∀ ks, k'.krige = some ks → ∀ K ∈ ks, ExactSpace env K x) {bk : Option String} {q : Fin m → P}
    {u : Fin m → Fin 3 → ℝ} {i₀ : Bool} {v : List ℕ}
    (hv : k'.predict env q { n := m, d := 3, val := u, isInt := i₀ } bk = .ok v) :
    v.length = m ∧ ∀ (j : Fin m) (i : Fin n), q j = p i → u j = x i →
      ∃ t, v[j.val]? = some t ∧ (C.classes k'.state)[t]? = some (y i) :=
  predict_class hC hfit hnd (fun ks K r e h1 h2 h3 h4 => C35_exact_space h3 (hx ks h1 K h2) rfl h4) hv

/-- `predict` returns positions among the classes, whatever the query. -/
theorem C38_range {cl : List L} (hcl : k.classes = some cl) (hcl' : (C.classes k.state).length = cl.length)
    {ks : List Krige} (hks : k.krige = some ks) {q : Fin m → P} {u : Points} {bk : Option String} {v : List ℕ}
    (hv : k.predict env q u bk = .ok v) : ∀ t ∈ v, t < cl.length := by
  unfold CK.predict at hv
  obtain ⟨proba, hp, hv⟩ := py_bind_eq_ok.1 hv
  obtain ⟨M, hM, hv⟩ := py_bind_eq_ok.1 hv
  obtain ⟨S, hS, hv⟩ := py_bind_eq_ok.1 hv
  obtain ⟨h0, hcols, -⟩ := krigeResidual_ok hcl hks hM
  obtain rfl := (Except.ok.inj hv).symm
  have hSc : S.cols = cl.length - 1 := by
    unfold Mat.add at hS
    obtain ⟨rows, -, hS⟩ := py_bind_eq_ok.1 hS
    obtain ⟨cols, hc, hS⟩ := py_bind_eq_ok.1 hS
    obtain rfl := (Except.ok.inj hS).symm
    unfold broadcastDim at hc
    rw [if_pos (by rw [hcols, ← hcl']; rfl)] at hc
    exact (Except.ok.inj hc).symm.trans hcols
  intro t ht
  obtain ⟨i, -, rfl⟩ := List.mem_map.1 ht
  have := (argmax (inverseIlr (fun (_ : Fin 1) (r : Fin S.cols) => S.val i r) 0)).2
  omega

theorem argmax_no_residual {c : ℕ} (proba : ℕ → ℝ) :
    let f := fun l : Fin (c + 1) => max (proba l) machineEps
    let t := argmax (inverseIlr (fun (_ : Fin 1) r =>
      0 + ilrTransformation (fun (_ : Fin 1) (l : Fin (c + 1)) => proba l) 0 r) 0)
    (∀ l, f l ≤ f t) ∧ ∀ l < t, f l < f t := by
  dsimp only
  have e : (fun (_ : Fin 1) r => 0 + ilrTransformation (fun (_ : Fin 1) (l : Fin (c + 1)) => proba l) 0 r) =
      ilrTransformation (fun (_ : Fin 1) (l : Fin (c + 1)) => proba l) := by
    funext i' r
    rw [Subsingleton.elim i' 0, zero_add]
  rw [e]
  set g : Fin (c + 1) → ℝ := inverseIlr (ilrTransformation fun (_ : Fin 1) (l : Fin (c + 1)) => proba l) 0 with hg
  have hS : 0 < ∑ l : Fin (c + 1), max (proba l) machineEps :=
    Finset.sum_pos (fun _ _ => lt_max_of_lt_right machineEps_pos) ⟨0, Finset.mem_univ _⟩
  have hge : ∀ l : Fin (c + 1), g l = max (proba l) machineEps / ∑ l : Fin (c + 1), max (proba l) machineEps :=
    fun l => C37_inverse_of (fun (_ : Fin 1) (l : Fin (c + 1)) => proba l) 0 l
  obtain ⟨h1, h2⟩ := argmax_spec g
  refine ⟨fun l => ?_, fun l hl => ?_⟩
  · have := h1 l
    rwa [hge, hge, div_le_div_iff_of_pos_right hS] at this
  · obtain ⟨l', hl'⟩ := h2 l hl
    have := hl'.trans_le (h1 l')
    rwa [hge, hge, div_lt_div_iff_of_pos_right hS] at this

/-- Where the kriged residuals are zero the prediction is the classifier's: the first class of the largest probability
(small probabilities counting as machine epsilon). -/
theorem C38_no_residual {cl : List L} {ks : List Krige} {q : Fin m → P} {u : Points} {bk : Option String} {v : List ℕ}
    (hcl : k.classes = some cl) (hcl' : (C.classes k.state).length = cl.length)
    (hks : k.krige = some ks) (hlen : ∀ K ∈ ks, ∀ e, K.predict env u { backend := bk } = .ok e → e.length = m)
    (hv : k.predict env q u bk = .ok v) (j : Fin m)
    (hz : ∀ K ∈ ks, ∀ e, K.predict env u { backend := bk } = .ok e → e[j.val]? = some (some 0)) :
    ∃ (proba : Fin m → ℕ → ℝ) (t : ℕ), C.predictProba k.state q = .ok proba ∧ v[j.val]? = some t ∧ t < cl.length ∧
      (∀ l < cl.length, max (proba j l) machineEps ≤ max (proba j t) machineEps) ∧
      ∀ l < t, max (proba j l) machineEps < max (proba j t) machineEps := by
  obtain ⟨c, hc⟩ : ∃ c, c = cl.length - 1 := ⟨_, rfl⟩
  obtain ⟨h0, proba, e, hp, he, -, hres⟩ := C38_predict hcl hc hcl' hks hlen hv
  have := hres j (fun _ => 0) fun r => by
    obtain ⟨K, h1, h2⟩ := he r
    exact hz K (List.mem_of_getElem? h1) _ h2
  obtain ⟨h1, h2⟩ := argmax_no_residual (c := c) (proba j)
  set t := argmax (inverseIlr (fun (_ : Fin 1) r =>
      0 + ilrTransformation (fun (_ : Fin 1) (l : Fin (c + 1)) => proba j l) 0 r) 0) with ht
  have htl := t.2
  exact ⟨proba, t.val, hp, this, by omega, fun l hl => h1 ⟨l, by omega⟩, fun l hl => h2 ⟨l, by omega⟩ hl⟩

/-- With a single class there is no prediction. -/
theorem C38_single_class {cl : List L} (hcl : k.classes = some cl) (h : cl.length ≤ 1) (q : Fin m → P) (u : Points)
    (bk : Option String) : ∃ e, k.predict env q u bk = .error e := by
  cases hv : k.predict env q u bk with
  | error e => exact ⟨e, rfl⟩
  | ok v =>
    exfalso
    unfold CK.predict at hv
    obtain ⟨proba, hp, hv⟩ := py_bind_eq_ok.1 hv
    obtain ⟨M, hM, hv⟩ := py_bind_eq_ok.1 hv
    cases hks : k.krige with
    | none =>
      unfold CK.krigeResidual at hM
      rw [hcl, hks] at hM
      cases hM
    | some ks =>
      have := (krigeResidual_ok hcl hks hM).1
      omega

/-- Targets of one dimension, as documented, are refused by `fit`. -/
theorem C38_one_dimension_refused (p : Fin n → P) (x : Fin n → Fin d → ℝ) (y : Fin n → L) :
    ∃ e k', k.fit env p x y false = (.error e, k') := by
  rcases h : k.fit env p x y false with ⟨o, k'⟩
  cases o with
  | error e => exact ⟨e, k', rfl⟩
  | ok u =>
    obtain ⟨-, -, -, -, -, hb, -⟩ := C38_fit h
    cases hb

/-- Before a fit there is no prediction. -/
theorem C38_untrained {st : C.State} {args : KrigeArgs} (h : CK.init st args = .ok k) (q : Fin m → P) (u : Points)
    (bk : Option String) : ∃ e, k.predict env q u bk = .error e := by
  unfold CK.init at h
  split at h
  · obtain rfl := Except.ok.inj h
    unfold CK.predict
    cases C.predictProba st q with
    | error e => exact ⟨e, rfl⟩
    | ok f => exact ⟨.attributeError, rfl⟩
  · cases h

/-- A method that `Krige` does not have is accepted by the constructor and refused by `fit`, if there are two classes. -/
theorem C38_method_checked_late (st : C.State) {args : KrigeArgs} (hC : C.isClassifier = true)
    (hm : args.method ∉ ["ordinary", "universal", "ordinary3d", "universal3d"]) :
    ∃ k, CK.init st args = .ok k ∧ ∀ (n d : ℕ) (p : Fin n → P) (x : Fin n → Fin d → ℝ) (y : Fin n → L) (b : Bool)
      (st' : C.State), C.fit st p y = (.ok (), st') → 2 ≤ (C.classes st').length →
      (k.fit env p x y b).1 = .error .valueError := by
  unfold CK.init
  rw [if_pos hC]
  refine ⟨_, rfl, fun n d p x y b st' hf h2 => ?_⟩
  unfold CK.fit
  rw [hf]
  dsimp only
  obtain ⟨c, hc⟩ : ∃ c, (C.classes st').length - 1 = c + 1 := ⟨(C.classes st').length - 2, by omega⟩
  rw [hc]
  unfold makeKriges Krige.init
  rw [if_pos hm]

end

/-- For labels that are the positions 0, 1, 2, ... `predict` returns the training label. Missing for the full claim: other
labels, for which it is false (`C38_label_wrong`). -/
theorem C38_label_partial {P : Type} {C : Classifier P ℕ} {n m : ℕ} {env : Env} {k k' : CK C} {p : Fin n → P}
    {x : Fin n → Fin 2 → ℝ} {y : Fin n → ℕ} {b : Bool} (hC : RowwiseProba C)
    (hfit : k.fit env p x y b = (.ok (), k')) {c : ℕ} (hcl : C.classes k'.state = List.range c)
    (hx : ∀ ks, k'.krige = some ks → ∀ K ∈ ks, ExactPlane env K x) {bk : Option String} {q : Fin m → P}
    {u : Fin m → Fin 2 → ℝ} {i₀ : Bool} {v : List ℕ}
    (hv : k'.predict env q { n := m, d := 2, val := u, isInt := i₀ } bk = .ok v) :
    ∀ (j : Fin m) (i : Fin n), q j = p i → u j = x i → v[j.val]? = some (y i) := by
  intro j i hq hu
  obtain ⟨t, h1, h2⟩ := (C38_training_plane hC hfit (by rw [hcl]; exact List.nodup_range) hx hv).2 j i hq hu
  rw [h1]
  rw [hcl, List.getElem?_eq_some_iff] at h2
  obtain ⟨ht, h2⟩ := h2
  rw [← h2, List.getElem_range]

/-! ### A concrete classifier, for which the label is wrong -/

namespace Demo

/-- Two classes, `lab 0` and `lab 1`, of the same probability. -/
def coin {L : Type} (lab : Fin 2 → L) : Classifier ℝ L where
  State := Unit
  fit := fun _ _ _ => (.ok (), ())
  classes := fun _ => [lab 0, lab 1]
  predictProba := fun _ _ => .ok fun _ _ => 1 / 2

theorem coin_rowwise {L : Type} (lab : Fin 2 → L) : RowwiseProba (coin lab) := by
  intro st m m' q q' f f' h h' j i _
  obtain rfl := Except.ok.inj h
  obtain rfl := Except.ok.inj h'
  rfl

/-- Fitted to a point of each class, it meets the conditions and predicts. -/
theorem ck_fits {L : Type} [DecidableEq L] (lab : Fin 2 → L) (q : Fin 2 → ℝ) : ∃ k' : CK (coin lab),
    CK.fit stdEnv (⟨(), kargs "ordinary" none, none, none⟩ : CK (coin lab)) q XY lab true = (.ok (), k') ∧
    (∀ ks, k'.krige = some ks → ∀ K ∈ ks, ExactPlane stdEnv K XY) ∧
    ∀ (m : ℕ) (q' : Fin m → ℝ) (f : Fin m → ℝ × ℝ), ∃ v, k'.predict stdEnv q' (plane m f) none = .ok v := by
  have hmk : makeKriges (kargs "ordinary" none) 1 = (.ok (), [⟨kargs "ordinary" none, none⟩]) := by
    unfold makeKriges Krige.init
    rw [if_neg (by simp [kargs])]
    rfl
  have hohe : ∃ o, oneHot [lab 0, lab 1] lab true = .ok o := by
    unfold oneHot
    rw [if_neg (by decide), if_neg (by push Not; intro i; fin_cases i <;> simp)]
    exact ⟨_, rfl⟩
  obtain ⟨o, ho⟩ := hohe
  set res : Fin 2 → ℕ → ℝ := fun i j => (ilrMat 2 1 o).val i j -
    (ilrMat 2 1 fun i j => if h : i < 2 then (1 / 2 : ℝ) else 0).val i j with hres
  obtain ⟨⟨s, hs, hf⟩, -⟩ := fits (fun i => res i 0) none none
  have hfk : fitKriges stdEnv XY res 0 [⟨kargs "ordinary" none, none⟩] =
      (.ok (), [⟨kargs "ordinary" none, some (.ordinary s)⟩]) := by
    unfold fitKriges
    rw [hf]
    rfl
  refine ⟨⟨(), kargs "ordinary" none, some [lab 0, lab 1], some [⟨kargs "ordinary" none, some (.ordinary s)⟩]⟩, ?_, ?_, ?_⟩
  · unfold CK.fit coin
    dsimp only [List.length_cons, List.length_nil]
    rw [hmk]
    dsimp only
    rw [ho]
    dsimp only
    rw [show 0 + 1 + 1 - 1 = 1 from rfl]
    rw [hfk]
  · intro ks hks K hK
    obtain rfl := Option.some.inj hks
    obtain rfl := List.mem_singleton.1 hK
    exact exactPlane hs
  · intro m q' f
    obtain ⟨e, he⟩ := plane_runs hs m f
    obtain ⟨hl, hsome⟩ := C35_exact_plane (kw := {}) hf (exactPlane hs) rfl he
    have hm : e.mapM plainEntry = .ok (e.map fun v => v.getD 0) := by
      rw [py_mapM_eq_ok, List.forall₂_map_right_iff, List.forall₂_same]
      intro v hv
      obtain ⟨j, hj⟩ := List.getElem?_of_mem hv
      obtain ⟨w, hw, -⟩ := hsome ⟨j, by rw [← hl]; exact (List.getElem?_eq_some_iff.1 hj).1⟩
      rw [hj] at hw
      obtain rfl := Option.some.inj hw
      rfl
    set k' : CK (coin lab) :=
      ⟨(), kargs "ordinary" none, some [lab 0, lab 1], some [⟨kargs "ordinary" none, some (.ordinary s)⟩]⟩ with hk'
    obtain ⟨M, hM, hr, hcol⟩ : ∃ M, k'.krigeResidual stdEnv (plane m f) none = .ok M ∧ M.rows = m ∧ M.cols = 1 := by
      unfold CK.krigeResidual
      have hpred : (List.range 1).mapM (fun i => do
          let K ← pyGet [(⟨kargs "ordinary" none, some (.ordinary s)⟩ : Krige)] i
          let e ← K.predict stdEnv (plane m f) { backend := none }
          e.mapM plainEntry) = .ok [e.map fun v => v.getD 0] := by
        rw [py_mapM_eq_ok]
        refine List.Forall₂.cons ?_ List.Forall₂.nil
        refine py_bind_eq_ok.2 ⟨_, rfl, py_bind_eq_ok.2 ⟨e, he, hm⟩⟩
      rw [hk']
      dsimp only [List.length_cons, List.length_nil]
      refine ⟨_, py_bind_eq_ok.2 ⟨_, hpred, if_neg (by simp)⟩, by simp [hl], rfl⟩
    obtain ⟨S, hS, -⟩ := add_same (a := M) (b := ilrMat m 1 fun i j => if h : i < m then (1 / 2 : ℝ) else 0) hr hcol
    exact ⟨_, py_bind_eq_ok.2 ⟨_, rfl, py_bind_eq_ok.2 ⟨M, hM, py_bind_eq_ok.2 ⟨S, hS, rfl⟩⟩⟩⟩

/-- The hypotheses of `C38_training_plane` and `C38_label_partial` are met: classes 0 and 1; the prediction at the second
training point is its label. -/
example (q : Fin 2 → ℝ) : ∃ (k' : CK (coin ![0, 1])) (v : List ℕ),
    CK.fit stdEnv (⟨(), kargs "ordinary" none, none, none⟩ : CK (coin ![0, 1])) q XY ![0, 1] true = (.ok (), k') ∧
    k'.predict stdEnv ![5, q 1] (plane 2 ![(7, 7), (1, 0)]) none = .ok v ∧ v[1]? = some 1 := by
  obtain ⟨k', hf, hx, hrun⟩ := ck_fits ![0, 1] q
  obtain ⟨v, hv⟩ := hrun 2 ![5, q 1] ![(7, 7), (1, 0)]
  refine ⟨k', v, hf, hv, C38_label_partial (coin_rowwise _) hf (c := 2) rfl hx hv 1 1 rfl ?_⟩
  funext j
  fin_cases j <;> simp [XY, X, O]

end Demo

/-- The claim that `predict` returns the training label is false: with the labels 1 and 2, the training point labelled 2 is
predicted as 1. All conditions of `C38_training_plane` are met. -/
theorem C38_label_wrong : ∃ (C : Classifier ℝ ℕ) (k k' : CK C) (p : Fin 2 → ℝ) (x : Fin 2 → Fin 2 → ℝ) (y : Fin 2 → ℕ)
    (v : List ℕ), RowwiseProba C ∧ k.fit stdEnv p x y true = (.ok (), k') ∧ (C.classes k'.state).Nodup ∧
    (∀ ks, k'.krige = some ks → ∀ K ∈ ks, ExactPlane stdEnv K x) ∧
    k'.predict stdEnv p { n := 2, d := 2, val := x } none = .ok v ∧ y 1 = 2 ∧ v[1]? = some 1 := by
  obtain ⟨k', hf, hx, hrun⟩ := Demo.ck_fits ![1, 2] ![0, 0]
  obtain ⟨v, hv⟩ := hrun 2 ![0, 0] ![(0, 0), (1, 0)]
  have hxy : (fun i : Fin 2 => ![(![((0 : ℝ), (0 : ℝ)), (1, 0)] i).1, (![((0 : ℝ), (0 : ℝ)), (1, 0)] i).2]) = Demo.XY := by
    funext i j
    fin_cases i <;> fin_cases j <;> simp [Demo.XY, Demo.X, Demo.O]
  unfold Demo.plane at hv
  rw [hxy] at hv
  have hnd : ((Demo.coin ![1, 2]).classes k'.state).Nodup := by
    change [1, 2].Nodup
    decide
  refine ⟨_, _, k', _, _, _, v, Demo.coin_rowwise _, hf, hnd, hx, hv, rfl, ?_⟩
  obtain ⟨t, h1, h2⟩ := (C38_training_plane (Demo.coin_rowwise _) hf hnd hx hv).2 1 1 rfl rfl
  rw [show ((1 : Fin 2) : ℕ) = 1 from rfl] at h1
  rw [h1]
  change [1, 2][t]? = some 2 at h2
  rcases t with _ | _ | t
  · simp at h2
  · rfl
  · simp at h2

end
end PyKrige
