import Verif.Lemmas.NanCreate
import Verif.Lemmas.PWCreate
import Verif.Lemmas.Nearest
import Verif.Props.C19

/-!
# C77: missing values (nan) among the data

The values are `Fin n → Option ℝ`: a number, or nan (`none`). `Replaces v z`: the numbers `v` are `z` with some numbers in
place of the nans.
-/

namespace PyKrige
noncomputable section
open Spec

theorem PyRel.eq_map {α β : Type} {R : α → β → Prop} {x : Py α} {y : Py β} (h : PyRel R x y) {f : α → β}
    (hf : ∀ a b, R a b → b = f a) : y = f <$> x := by
  cases x <;> cases y
  · exact congrArg _ (Eq.symm h)
  · exact h.elim
  · exact h.elim
  · exact congrArg _ (hf _ _ h)

theorem PyRel.error_iff {α β : Type} {R : α → β → Prop} {x : Py α} {y : Py β} (h : PyRel R x y) (e : PyErr) :
    y = .error e ↔ x = .error e := by
  cases x <;> cases y
  · next a b =>
    have hab : a = b := h
    subst hab
    exact ⟨fun h => congrArg _ (Except.error.inj h), fun h => congrArg _ (Except.error.inj h)⟩
  · exact h.elim
  · exact h.elim
  · constructor <;> intro h <;> cases h

section
variable {α : Type} {P : α → Prop} {qs : ℕ → Option α} {ms : ℕ → Bool} {r : ExecResult} {r' : NanResult}

theorem NanMatch.ext_map (h : NanMatch P qs ms r r') {f : ℝ → Option ℝ} (hf : ∀ q a, markv (P q) a = f a) :
    r' = ⟨r.shape, r.z.map (Option.map f), r.ss⟩ := by
  obtain ⟨h1, h2, h3, h4, h5⟩ := h
  obtain ⟨sh, z', ss⟩ := r'
  dsimp only at h1 h2 h3 h5
  subst h1 h2
  congr 1
  refine List.ext_getElem? fun j => ?_
  rw [List.getElem?_map]
  by_cases hj : j < r.z.length
  · obtain ⟨q, hq⟩ := Option.ne_none_iff_exists'.1 (h4 j hj)
    obtain ⟨a, e1, e2⟩ := h5 j q hq
    rw [e1, e2, hf]
    cases ms j <;> rfl
  · rw [List.getElem?_eq_none (by omega), List.getElem?_eq_none (by omega)]
    rfl

theorem NanMatch.numbers (h : NanMatch P qs ms r r') (hP : ∀ q, P q) : r' = asNumbers r :=
  h.ext_map fun q a => by rw [markv_true (hP q)]

theorem markv_false {P : Prop} (h : ¬ P) (a : ℝ) : markv P a = none := by unfold markv; exact if_neg h

theorem NanMatch.allNan (h : NanMatch P qs ms r r') (hP : ∀ q, ¬ P q) : r' = allNan r :=
  h.ext_map (f := fun _ => none) fun q a => markv_false (hP q) a

theorem NanMatch.nanAt (h : NanMatch P qs ms r r') {j : ℕ} {q : α} (hq : qs j = some q) (hP : ¬ P q) :
    r'.z[j]? = some (if ms j then none else some none) := by
  obtain ⟨a, -, e⟩ := h.2.2.2.2 j q hq
  rw [e, markv_false hP]
end

theorem stats_numbers {n : ℕ} {v : Fin n → ℝ} {o : Option Stats} {o' : Option NanStats}
    (h : OptStatsRel (fun i => some (v i)) o o') : o' = o.map asNumbersStats := by
  cases o <;> cases o'
  · rfl
  · exact h.elim
  · exact h.elim
  · next st st' =>
    obtain ⟨h1, idx, -, -, h2, h3, h4, h5, h6⟩ := h
    obtain ⟨d, sg, e⟩ := st'
    have key : ∀ (idx : List (Fin n)) (l : List ℝ), l.length = idx.length →
        List.zipWith (fun i d => markv (∀ j, j ≤ i → (some (v j) : Option ℝ) ≠ none) d) idx l = l.map some := by
      intro idx
      induction idx with
      | nil => intro l hl; cases l <;> simp_all
      | cons a idx ih =>
        intro l hl
        cases l with
        | nil => simp at hl
        | cons b l =>
          rw [List.zipWith_cons_cons, ih l (by simpa using hl), markv_true (fun j _ => by simp)]
          rfl
    dsimp only at h1 h5 h6
    rw [key _ _ h2] at h5
    rw [key _ _ h4] at h6
    subst h1 h5 h6
    rfl

theorem opt_sigma {n : ℕ} {y : Fin n → Option ℝ} {o : Option Stats} {o' : Option NanStats}
    (h : OptStatsRel y o o') : o'.map NanStats.sigma = o.map Stats.sigma := by
  cases o <;> cases o'
  · rfl
  · exact h.elim
  · exact h.elim
  · exact congrArg some h.1

theorem replaces_some {ι : Type} (v : ι → ℝ) : Replaces v fun i => some (v i) := fun _ _ h => Option.some.inj h

theorem replaces_none {ι : Type} (v : ι → ℝ) : Replaces v (fun _ => none) := fun _ _ h => nomatch h

theorem replaces_getD {ι : Type} (z : ι → Option ℝ) : Replaces (fun i => (z i).getD 0) z := fun i a h => by
  show (z i).getD 0 = a
  rw [h]; rfl

theorem not_all {ι : Type} {z : ι → Option ℝ} (h : ∃ i, z i = none) : ¬ ∀ i, z i ≠ none := fun hc => by
  obtain ⟨i, hi⟩ := h
  exact hc i hi

/-- With at most one number there is nothing to fit. -/
theorem groups_dropped {n : ℕ} {D : Fin n → Fin n → ℝ} {z : Fin n → Option ℝ}
    (hz : ∀ i j, i ≠ j → z i = none ∨ z j = none) {groups : List (List (ℝ × Option ℝ))}
    (hf : (groups.flatten : Multiset (ℝ × Option ℝ)) = nanPairsBy D z) (hne : ∀ g ∈ groups, g ≠ []) :
    groups.filterMap groupMean = [] := by
  rw [List.filterMap_eq_nil_iff]
  intro g hg
  obtain ⟨p, l, rfl⟩ : ∃ p l, g = p :: l := List.exists_cons_of_ne_nil (hne g hg)
  have hp : p ∈ (groups.flatten : Multiset (ℝ × Option ℝ)) := by
    rw [Multiset.mem_coe, List.mem_flatten]
    exact ⟨_, hg, by simp⟩
  rw [hf] at hp
  unfold nanPairsBy at hp
  obtain ⟨⟨i, j⟩, hij, rfl⟩ := Multiset.mem_map.1 hp
  have hlt : i < j := by simpa using hij
  unfold groupMean
  refine if_pos ⟨_, List.mem_cons_self, ?_⟩
  dsimp only
  rcases hz i j hlt.ne with h | h
  · rw [h]
  · rw [h]; cases z i <;> rfl

theorem fit_nil {env : Env} {nm : String} {f : VFun} {weight : Bool} {ps : List ℝ} :
    calculateVariogramModel env [] [] nm f weight ≠ .ok ps := by
  unfold calculateVariogramModel lsqProblem
  intro h
  split at h
  · cases h
  · split at h <;> cases h

theorem groupMean_pairs {n : ℕ} {D : Fin n → Fin n → ℝ} (hD : ∀ i j, 0 ≤ D i j) {z : Fin n → Option ℝ}
    {groups : List (List (ℝ × Option ℝ))} (hf : (groups.flatten : Multiset (ℝ × Option ℝ)) = nanPairsBy D z) :
    ∀ e ∈ groups.filterMap groupMean, 0 ≤ e.1 ∧ 0 ≤ e.2 := by
  intro e he
  obtain ⟨g, hg, hge⟩ := List.mem_filterMap.1 he
  have hpos : ∀ p ∈ g, 0 ≤ p.1 ∧ 0 ≤ p.2.getD 0 := by
    intro p hp
    have hp : p ∈ (groups.flatten : Multiset (ℝ × Option ℝ)) := by
      rw [Multiset.mem_coe, List.mem_flatten]
      exact ⟨_, hg, hp⟩
    rw [hf] at hp
    unfold nanPairsBy at hp
    obtain ⟨⟨i, j⟩, -, rfl⟩ := Multiset.mem_map.1 hp
    refine ⟨hD i j, ?_⟩
    dsimp only
    cases z i <;> cases z j <;> simp
    positivity
  unfold groupMean at hge
  split at hge
  · cases hge
  · have hge := Option.some.inj hge
    subst hge
    unfold average
    refine ⟨div_nonneg (List.sum_nonneg ?_) (by positivity), div_nonneg (List.sum_nonneg ?_) (by positivity)⟩
    · intro a ha
      obtain ⟨p, hp, rfl⟩ := List.mem_map.1 ha
      exact (hpos p hp).1
    · intro a ha
      obtain ⟨p, hp, rfl⟩ := List.mem_map.1 ha
      exact (hpos p hp).2

/-- A fit to what is left of the experimental variogram. -/
theorem nan_fit {env : Env} {ev : List (ℝ × ℝ)} {nm : String} {f : VFun} {weight : Bool} {ps : List ℝ}
    (hpos : ∀ e ∈ ev, 0 ≤ e.1 ∧ 0 ≤ e.2)
    (h : calculateVariogramModel env (ev.map Prod.fst) (ev.map Prod.snd) nm f weight = .ok ps) (hl : LsqSpec env) :
    ∃ S L, IsGreatest {v | v ∈ ev.map Prod.snd} S ∧ IsGreatest {v | v ∈ ev.map Prod.fst} L ∧ WithinBounds nm S L ps := by
  cases ev with
  | nil => exact absurd h fit_nil
  | cons e ev =>
    set L0 := (e :: ev).map Prod.fst
    set S0 := (e :: ev).map Prod.snd
    have h1 : e.1 ∈ L0 := by simp [L0]
    have h2 : e.2 ∈ S0 := by simp [S0]
    obtain ⟨S, hS, gS⟩ := amax_spec h2
    obtain ⟨s, hs, gs⟩ := amin_spec h2
    obtain ⟨L, hL, gL⟩ := amax_spec h1
    obtain ⟨l, hl', gl⟩ := amin_spec h1
    have hs0 : 0 ≤ s := by
      obtain ⟨p, hp, hpe⟩ := List.mem_map.1 gs.1
      rw [← hpe]; exact (hpos p hp).2
    have hl0 : 0 ≤ l := by
      obtain ⟨p, hp, hpe⟩ := List.mem_map.1 gl.1
      rw [← hpe]; exact (hpos p hp).1
    have := fit_cases (env := env) (model := nm) (f := f) (weight := weight) hs hS hl' hL hs0 (gs.2 gS.1) hl0 (gl.2 gL.1)
    by_cases hc : CanFit nm weight S l L
    · obtain ⟨ps', e1, e2⟩ := this.1 hc
      rw [h] at e1
      rw [Except.ok.inj e1]
      exact ⟨S, L, gS, gL, e2 hl⟩
    · rw [this.2 hc] at h
      cases h

theorem stats_entries {n : ℕ} {w : Fin n → Option ℝ} {st : Stats} {st' : NanStats} (h : StatsRel w st st') :
    st'.sigma = st.sigma ∧ ∃ idx : List (Fin n), idx.Pairwise (· < ·) ∧ (∀ i ∈ idx, i.val ≠ 0) ∧
      idx.length = st.sigma.length ∧ st'.delta.length = idx.length ∧ st'.epsilon.length = idx.length ∧
      ∀ (k : ℕ) i, idx[k]? = some i →
        ((∃ j, j ≤ i ∧ w j = none) → st'.delta[k]? = some none ∧ st'.epsilon[k]? = some none) ∧
        ((∀ j, j ≤ i → w j ≠ none) → st'.delta[k]? = (st.delta[k]?).map some ∧
          st'.epsilon[k]? = (st.epsilon[k]?).map some) := by
  obtain ⟨h1, idx, h2, h0, h3, h4, h5, h6, h7⟩ := h
  refine ⟨h1, idx, h2, h0, h4.symm, by rw [h6]; simp [h3], by rw [h7]; simp [h5], fun k i hi => ?_⟩
  have hk : k < idx.length := (List.getElem?_eq_some_iff.1 hi).1
  have e1 : st.delta[k]? = some st.delta[k] := List.getElem?_eq_getElem (by omega)
  have e2 : st.epsilon[k]? = some st.epsilon[k] := List.getElem?_eq_getElem (by omega)
  rw [h6, h7, List.getElem?_zipWith, List.getElem?_zipWith, hi, e1, e2]
  refine ⟨fun ⟨j, hj, hw⟩ => ?_, fun h => ?_⟩
  · dsimp only
    rw [markv_false fun hc => hc j hj hw, markv_false fun hc => hc j hj hw]
    exact ⟨rfl, rfl⟩
  · dsimp only
    rw [markv_true h]
    exact ⟨rfl, rfl⟩

/-! ### `OrdinaryKriging` -/

/-- If no value is nan, nothing changes: the model of this section and the one used elsewhere agree. -/
theorem C77_numbers_ok {n : ℕ} (env : Env) (x y v : Fin n → ℝ) (args : OKArgs) :
    (∀ e, NanOK.create env x y (fun i => some (v i)) args = .error e ↔ OK.create env x y v args = .error e) ∧
    ∀ s, OK.create env x y v args = .ok s →
      ∃ t, NanOK.create env x y (fun i => some (v i)) args = .ok t ∧ t.obj.lags = s.lags ∧
        t.obj.params = s.params ∧ t.stats = s.stats.map asNumbersStats ∧
        ∀ ea, WindowFits n ea.nClosest → t.execute env ea = asNumbers <$> s.execute env ea := by
  have h := NanOK.create_rel env x y _ (replaces_some v) args (.inr fun _ => rfl)
  refine ⟨h.error_iff, fun s hs => ?_⟩
  obtain ⟨t, ht, hz, hst, ho, hl⟩ := h.ok_of hs
  refine ⟨t, ht, hl fun _ => rfl, by rw [hst]; rfl, stats_numbers ho, fun ea hw => ?_⟩
  have hv : Replaces v t.Z := by rw [hz]; exact replaces_some v
  have hP : ∀ i, t.Z i ≠ none := fun i => by rw [hz]; simp
  have := (t.execute_rel hv s.lags s.stats env ea hw).eq_map (f := asNumbers) fun a b hab => hab.numbers fun p => by
    unfold NanOK.numberAt; split
    · exact hP
    · exact fun i _ => hP i
  rw [← hst] at this
  exact this

/-- With parameters given by the caller, whether the constructor accepts does not depend on the values, nan or not; the
parameters and the variances of the statistics are the same. -/
theorem C77_create_ok {n : ℕ} (env : Env) (x y : Fin n → ℝ) (w : Fin n → Option ℝ) (v : Fin n → ℝ) (args : OKArgs)
    (hg : ParamsGiven args.variogramModel args.params) :
    (∀ e, NanOK.create env x y w args = .error e ↔ OK.create env x y v args = .error e) ∧
    ∀ s t, OK.create env x y v args = .ok s → NanOK.create env x y w args = .ok t →
      t.obj.params = s.params ∧ t.stats.map NanStats.sigma = s.stats.map Stats.sigma := by
  have h1 := NanOK.create_rel env x y w (replaces_getD w) args (.inl hg)
  have h2 := NanOK.create_rel env x y (fun _ => none) (replaces_none fun i => (w i).getD 0) args (.inl hg)
  have h3 := NanOK.create_rel env x y (fun _ => none) (replaces_none v) args (.inl hg)
  refine ⟨fun e => (h1.error_iff e).trans ((h2.error_iff e).symm.trans (h3.error_iff e)), fun s t hs ht => ?_⟩
  obtain ⟨s', hs', -, e1, o1, -⟩ := h1.of_ok ht
  obtain ⟨t0, ht0, -, e2, o2, -⟩ := h2.ok_of hs'
  obtain ⟨s'', hs'', -, e3, o3, -⟩ := h3.of_ok ht0
  rw [hs] at hs''
  cases hs''
  refine ⟨?_, (opt_sigma o1).trans ((opt_sigma o2).symm.trans (opt_sigma o3))⟩
  have p1 : s'.params = t.obj.params := by rw [e1]; rfl
  have p2 : s'.params = t0.obj.params := by rw [e2]; rfl
  have p3 : s.params = t0.obj.params := by rw [e3]; rfl
  rw [← p1, p2, p3]

/-- One nan among the values and no moving window: every estimate that is not masked is nan. -/
theorem C77_all_nan_ok {n : ℕ} {env : Env} {x y : Fin n → ℝ} {w : Fin n → Option ℝ} {args : OKArgs} {t : NanOK n}
    (h : NanOK.create env x y w args = .ok t) (hz : ∃ i, w i = none) {ea : ExecArgs}
    (hw : ea.nClosest = none)
    {r : NanResult} (hr : t.execute env ea = .ok r) {j : ℕ} {p} (hq : queryAt ea j = some p) :
    r.z[j]? = some (if maskedAt ea j then none else some none) := by
  have hZ := (NanOK.create_lags h).1
  rw [← hZ] at hz
  obtain ⟨r₀, -, hm⟩ := (t.execute_rel (replaces_getD t.Z) [] none env ea (by rw [hw]; exact fun _ h => nomatch h)).of_ok hr
  exact hm.nanAt hq (by rw [hw]; exact not_all hz)

/-- The parameters given, one nan among the values, no moving window: masks, shape, variances and errors are those
of an object with any other values. -/
theorem C77_execute_ok {n : ℕ} {env : Env} {x y : Fin n → ℝ} {w : Fin n → Option ℝ} {v : Fin n → ℝ} {args : OKArgs}
    {t : NanOK n} {s : OK n} (hg : ParamsGiven args.variogramModel args.params)
    (ht : NanOK.create env x y w args = .ok t) (hs : OK.create env x y v args = .ok s)
    (hz : ∃ i, w i = none) {ea : ExecArgs}
    (hw : ea.nClosest = none) : t.execute env ea = allNan <$> s.execute env ea := by
  have hZ := (NanOK.create_lags ht).1
  rw [← hZ] at hz
  have h1 := NanOK.create_rel env x y w (replaces_getD w) args (.inl hg)
  obtain ⟨s', hs', -, e1, -, -⟩ := h1.of_ok ht
  obtain ⟨l, st, e2⟩ := OK.create_other hs' v (.inl hg)
  rw [hs] at e2
  have e2 := Except.ok.inj e2
  let t₀ : NanOK n := ⟨t.obj, fun _ => none, t.stats⟩
  have hz₀ : ∃ i, t₀.Z i = none := ⟨hz.choose, rfl⟩
  have r1 := (t.execute_rel (replaces_getD t.Z) [] none env ea (by rw [hw]; exact fun _ h => nomatch h)).eq_map (f := allNan) fun a b hab => hab.allNan fun p => by rw [hw]; exact not_all hz
  have r2 := (t₀.execute_rel (replaces_none fun i => (t.Z i).getD 0) [] none env ea (by rw [hw]; exact fun _ h => nomatch h)).eq_map (f := allNan) fun a b hab => hab.allNan fun p => by rw [hw]; exact not_all hz₀
  have r3 := (t₀.execute_rel (replaces_none v) l st env ea (by rw [hw]; exact fun _ h => nomatch h)).eq_map (f := allNan) fun a b hab => hab.allNan fun p => by rw [hw]; exact not_all hz₀
  rw [r1]
  have e3 : t₀.fill v l st = s := by
    rw [e2, e1]; rfl
  rw [← e3]
  exact r2.symm.trans r3

/-- The experimental variogram: the classes that contain a pair with a nan are dropped without notice, the others are as
usual. -/
theorem C77_lags_ok {n : ℕ} {env : Env} {x y : Fin n → ℝ} {w : Fin n → Option ℝ} {args : OKArgs} {t : NanOK n}
    (h : NanOK.create env x y w args = .ok t) (hn : 0 < args.nlags) :
    ∃ groups : List (List (ℝ × Option ℝ)),
      (groups.flatten : Multiset (ℝ × Option ℝ)) = nanPairsBy (fun i j => okDistance args (x i, y i) (x j, y j)) w ∧
      t.obj.lags = groups.filterMap groupMean ∧
      (∀ g ∈ groups, g ≠ []) ∧ groups.length ≤ args.nlags ∧
      groups.Pairwise (fun g g' => ∀ p ∈ g, ∀ q ∈ g', p.1 < q.1) ∧
      ∃ lo hi, IsLeast {d | ∃ p ∈ nanPairsBy (fun i j => okDistance args (x i, y i) (x j, y j)) w, d = p.1} lo ∧
        IsGreatest {d | ∃ p ∈ nanPairsBy (fun i j => okDistance args (x i, y i) (x j, y j)) w, d = p.1} hi ∧
        ∀ g ∈ groups, ∃ k < args.nlags, ∀ p ∈ g, lo + k * ((hi - lo) / args.nlags) ≤ p.1 ∧
          p.1 ≤ lo + (k + 1) * ((hi - lo) / args.nlags) ∧
          (k + 1 < args.nlags → p.1 < lo + (k + 1) * ((hi - lo) / args.nlags)) := by
  obtain ⟨-, X, name, vp, f, fname, fArg, h1, h2, -⟩ := NanOK.create_lags h
  have hD : (fun i j => okDistance args (x i, y i) (x j, y j)) = fun i j => pairDistance args.coordinatesType (X i) (X j) := by
    funext i j
    exact (h2 i j).symm
  rw [hD]
  exact nan_groups (initializeNan_ev h1) hn

/-- The automatic fit uses what is left: the parameters are within the bounds computed from the classes that remain. -/
theorem C77_fit_ok {n : ℕ} {env : Env} {x y : Fin n → ℝ} {w : Fin n → Option ℝ} {args : OKArgs} {t : NanOK n}
    (h : NanOK.create env x y w args = .ok t) {nm : String} (hm : args.variogramModel = .name nm)
    (hp : args.params = .none) (hn : 0 < args.nlags) (hl : LsqSpec env) :
    ∃ S L, IsGreatest {v | v ∈ t.obj.lags.map Prod.snd} S ∧ IsGreatest {v | v ∈ t.obj.lags.map Prod.fst} L ∧
      WithinBounds nm S L t.obj.params := by
  obtain ⟨groups, g1, g2, g3, -⟩ := C77_lags_ok h hn
  obtain ⟨-, X, name, vp, f, fname, fArg, h1, h2, -, h3⟩ := NanOK.create_lags h
  obtain ⟨rfl, rfl⟩ := h3 nm hm hp
  refine nan_fit ?_ (initNan_auto h1) hl
  rw [g2]
  refine groupMean_pairs (fun i j => ?_) g1
  rw [← h2]
  exact pairDistance_nonneg _ _ _

/-- The automatic fit needs two numbers: with at most one the constructor refuses. -/
theorem C77_refused_ok {n : ℕ} {env : Env} {x y : Fin n → ℝ} {w : Fin n → Option ℝ} {args : OKArgs}
    {nm : String} (hm : args.variogramModel = .name nm) (hp : args.params = .none) (hn : 0 < args.nlags)
    (hw : ∀ i j, i ≠ j → w i = none ∨ w j = none) (t : NanOK n) : NanOK.create env x y w args ≠ .ok t := by
  intro h
  obtain ⟨groups, g1, g2, g3, -⟩ := C77_lags_ok h hn
  obtain ⟨-, X, name, vp, f, fname, fArg, h1, h2, -, h3⟩ := NanOK.create_lags h
  obtain ⟨rfl, rfl⟩ := h3 nm hm hp
  have := initNan_auto h1
  rw [g2, groups_dropped hw g1 g3] at this
  exact fit_nil this

/-- The statistics: the variances are those of any other values; a residual is nan exactly if the value it belongs to or an
earlier one is nan, and otherwise it is what it is with any numbers in place of the nans. -/
theorem C77_statistics_ok {n : ℕ} {env : Env} {x y : Fin n → ℝ} {w : Fin n → Option ℝ} {v : Fin n → ℝ} {args : OKArgs}
    {t : NanOK n} {s : OK n} (hg : ParamsGiven args.variogramModel args.params) (hv : Replaces v w)
    (ht : NanOK.create env x y w args = .ok t) (hs : OK.create env x y v args = .ok s)
    {st : Stats} (hst : s.stats = some st) :
    ∃ st', t.stats = some st' ∧ st'.sigma = st.sigma ∧ ∃ idx : List (Fin n), idx.Pairwise (· < ·) ∧ (∀ i ∈ idx, i.val ≠ 0) ∧
      idx.length = st.sigma.length ∧ st'.delta.length = idx.length ∧ st'.epsilon.length = idx.length ∧
      ∀ (k : ℕ) i, idx[k]? = some i →
        ((∃ j, j ≤ i ∧ w j = none) → st'.delta[k]? = some none ∧ st'.epsilon[k]? = some none) ∧
        ((∀ j, j ≤ i → w j ≠ none) → st'.delta[k]? = (st.delta[k]?).map some ∧
          st'.epsilon[k]? = (st.epsilon[k]?).map some) := by
  have h1 := NanOK.create_rel env x y w hv args (.inl hg)
  obtain ⟨s', hs', -, -, o1, -⟩ := h1.of_ok ht
  rw [hs] at hs'
  cases hs'
  rw [hst] at o1
  cases ho : t.stats with
  | none => rw [ho] at o1; exact o1.elim
  | some st' =>
    rw [ho] at o1
    exact ⟨st', rfl, stats_entries o1⟩

/-- A moving window: for each visible query point there are `k` different data, none of the others nearer to it, such that the
estimate is nan exactly if one of these `k` values is nan; otherwise it is the estimate with any numbers in place of the
nans. -/
theorem C77_window_ok {n : ℕ} {env : Env} {x y : Fin n → ℝ} {w : Fin n → Option ℝ} {v : Fin n → ℝ} {args : OKArgs}
    {t : NanOK n} {s : OK n} (hg : ParamsGiven args.variogramModel args.params) (hv : Replaces v w)
    (ht : NanOK.create env x y w args = .ok t) (hs : OK.create env x y v args = .ok s)
    {ea : ExecArgs} {k : ℕ} (hk : ea.nClosest = some (k : ℤ)) (hkn : k ≤ n) (he : KnnSpec env)
    {r' : NanResult} (hr : t.execute env ea = .ok r') {j : ℕ} {p : ℝ × ℝ} (hq : queryAt ea j = some p)
    (hm : maskedAt ea j = false) :
    ∃ sel : Fin k → Fin n, Function.Injective sel ∧
      (∀ i i', i' ∉ Set.range sel → okDistance args p (x (sel i), y (sel i)) ≤ okDistance args p (x i', y i')) ∧
      (r'.z[j]? = some (some none) ↔ ∃ i, w (sel i) = none) ∧
      ∃ r a, s.execute env ea = .ok r ∧ r'.shape = r.shape ∧ r'.ss = r.ss ∧ r.z[j]? = some (some a) ∧
        ((∀ i, w (sel i) ≠ none) → r'.z[j]? = some (some (some a))) := by
  have h1 := NanOK.create_rel env x y w hv args (.inl hg)
  obtain ⟨s', hs', hZ, hst, -, -⟩ := h1.of_ok ht
  rw [hs] at hs'
  cases hs'
  have hv' : Replaces v t.Z := by rw [hZ]; exact hv
  have hrel := t.execute_rel hv' s.lags s.stats env ea (by rw [hk]; rintro _ ⟨⟩; exact_mod_cast hkn)
  rw [← hst] at hrel
  obtain ⟨r, hr₀, hmatch⟩ := hrel.of_ok hr
  obtain ⟨a, ha, ha'⟩ := hmatch.2.2.2.2 j p hq
  rw [hm] at ha ha'
  have hsel : (t.obj.neighbours env ((k : ℤ)).toNat (t.obj.queryPt p)).sel = s.sel env k p := by rw [hst]; rfl
  obtain ⟨hl, hnd⟩ := OK.sel_spec he s hkn p
  set l := s.sel env k p with hldef
  set sel : Fin k → Fin n := fun i => l.get (i.cast hl.symm) with hseldef
  have hinj : Function.Injective sel := fun i i' e => by
    have := List.nodup_iff_injective_get.1 hnd e
    simpa using this
  have hmem : ∀ a, a ∈ l ↔ a ∈ Set.range sel := by
    intro a
    rw [List.mem_iff_get]
    constructor
    · rintro ⟨i, rfl⟩; exact ⟨i.cast hl, by simp [hseldef]⟩
    · rintro ⟨i, rfl⟩; exact ⟨_, rfl⟩
  have hP : t.numberAt env ea.nClosest (t.obj.queryPt p) ↔ ∀ i, w (sel i) ≠ none := by
    unfold NanOK.numberAt
    rw [hk]
    dsimp only
    rw [hsel, hZ]
    constructor
    · intro h i; exact h _ ((hmem _).2 ⟨i, rfl⟩)
    · intro h i hi
      obtain ⟨i', rfl⟩ := (hmem i).1 hi
      exact h i'
  refine ⟨sel, hinj, fun i i' hi' => ?_, ?_, r, a, hr₀, hmatch.1, hmatch.2.1, ha, fun hall => ?_⟩
  · have := OK.sel_nearest he s hkn p ((hmem (sel i)).2 ⟨i, rfl⟩) (fun hc => hi' ((hmem i').1 hc))
    rwa [(OK.create_dist hs).2, (OK.create_dist hs).2] at this
  · rw [ha']
    by_cases h : ∀ i, w (sel i) ≠ none
    · rw [markv_true (hP.2 h)]
      exact ⟨fun hc => (by simp at hc), fun ⟨i, hi⟩ => absurd hi (h i)⟩
    · rw [markv_false fun hc => h (hP.1 hc)]
      push Not at h
      exact ⟨fun _ => h, fun _ => rfl⟩
  · rw [ha', markv_true (hP.2 hall)]; rfl

/-! ### `OrdinaryKriging3D` -/

/-- If no value is nan, nothing changes: the model of this section and the one used elsewhere agree. -/
theorem C77_numbers_ok3 {n : ℕ} (env : Env) (x y z v : Fin n → ℝ) (args : OK3DArgs) :
    (∀ e, NanOK3D.create env x y z (fun i => some (v i)) args = .error e ↔ OK3D.create env x y z v args = .error e) ∧
    ∀ s, OK3D.create env x y z v args = .ok s →
      ∃ t, NanOK3D.create env x y z (fun i => some (v i)) args = .ok t ∧ t.obj.lags = s.lags ∧
        t.obj.params = s.params ∧ t.stats = s.stats.map asNumbersStats ∧
        ∀ ea, WindowFits n ea.nClosest → t.execute env ea = asNumbers <$> s.execute env ea := by
  have h := NanOK3D.create_rel env x y z _ (replaces_some v) args (.inr fun _ => rfl)
  refine ⟨h.error_iff, fun s hs => ?_⟩
  obtain ⟨t, ht, hz, hst, ho, hl⟩ := h.ok_of hs
  refine ⟨t, ht, hl fun _ => rfl, by rw [hst]; rfl, stats_numbers ho, fun ea hw => ?_⟩
  have hv : Replaces v t.Z := by rw [hz]; exact replaces_some v
  have hP : ∀ i, t.Z i ≠ none := fun i => by rw [hz]; simp
  have := (t.execute_rel hv s.lags s.stats env ea hw).eq_map (f := asNumbers) fun a b hab => hab.numbers fun p => by
    unfold NanOK3D.numberAt; split
    · exact hP
    · exact fun i _ => hP i
  rw [← hst] at this
  exact this

/-- With parameters given by the caller, whether the constructor accepts does not depend on the values, nan or not; the
parameters and the variances of the statistics are the same. -/
theorem C77_create_ok3 {n : ℕ} (env : Env) (x y z : Fin n → ℝ) (w : Fin n → Option ℝ) (v : Fin n → ℝ) (args : OK3DArgs)
    (hg : ParamsGiven args.variogramModel args.params) :
    (∀ e, NanOK3D.create env x y z w args = .error e ↔ OK3D.create env x y z v args = .error e) ∧
    ∀ s t, OK3D.create env x y z v args = .ok s → NanOK3D.create env x y z w args = .ok t →
      t.obj.params = s.params ∧ t.stats.map NanStats.sigma = s.stats.map Stats.sigma := by
  have h1 := NanOK3D.create_rel env x y z w (replaces_getD w) args (.inl hg)
  have h2 := NanOK3D.create_rel env x y z (fun _ => none) (replaces_none fun i => (w i).getD 0) args (.inl hg)
  have h3 := NanOK3D.create_rel env x y z (fun _ => none) (replaces_none v) args (.inl hg)
  refine ⟨fun e => (h1.error_iff e).trans ((h2.error_iff e).symm.trans (h3.error_iff e)), fun s t hs ht => ?_⟩
  obtain ⟨s', hs', -, e1, o1, -⟩ := h1.of_ok ht
  obtain ⟨t0, ht0, -, e2, o2, -⟩ := h2.ok_of hs'
  obtain ⟨s'', hs'', -, e3, o3, -⟩ := h3.of_ok ht0
  rw [hs] at hs''
  cases hs''
  refine ⟨?_, (opt_sigma o1).trans ((opt_sigma o2).symm.trans (opt_sigma o3))⟩
  have p1 : s'.params = t.obj.params := by rw [e1]; rfl
  have p2 : s'.params = t0.obj.params := by rw [e2]; rfl
  have p3 : s.params = t0.obj.params := by rw [e3]; rfl
  rw [← p1, p2, p3]

/-- One nan among the values and no moving window: every estimate that is not masked is nan. -/
theorem C77_all_nan_ok3 {n : ℕ} {env : Env} {x y z : Fin n → ℝ} {w : Fin n → Option ℝ} {args : OK3DArgs} {t : NanOK3D n}
    (h : NanOK3D.create env x y z w args = .ok t) (hz : ∃ i, w i = none) {ea : ExecArgs3}
    (hw : ea.nClosest = none)
    {r : NanResult} (hr : t.execute env ea = .ok r) {j : ℕ} {p} (hq : queryAt3 ea j = some p) :
    r.z[j]? = some (if maskedAt3 ea j then none else some none) := by
  have hZ := (NanOK3D.create_lags h).1
  rw [← hZ] at hz
  obtain ⟨r₀, -, hm⟩ := (t.execute_rel (replaces_getD t.Z) [] none env ea (by rw [hw]; exact fun _ h => nomatch h)).of_ok hr
  exact hm.nanAt hq (by rw [hw]; exact not_all hz)

/-- The parameters given, one nan among the values, no moving window: masks, shape, variances and errors are those
of an object with any other values. -/
theorem C77_execute_ok3 {n : ℕ} {env : Env} {x y z : Fin n → ℝ} {w : Fin n → Option ℝ} {v : Fin n → ℝ} {args : OK3DArgs}
    {t : NanOK3D n} {s : OK3D n} (hg : ParamsGiven args.variogramModel args.params)
    (ht : NanOK3D.create env x y z w args = .ok t) (hs : OK3D.create env x y z v args = .ok s)
    (hz : ∃ i, w i = none) {ea : ExecArgs3}
    (hw : ea.nClosest = none) : t.execute env ea = allNan <$> s.execute env ea := by
  have hZ := (NanOK3D.create_lags ht).1
  rw [← hZ] at hz
  have h1 := NanOK3D.create_rel env x y z w (replaces_getD w) args (.inl hg)
  obtain ⟨s', hs', -, e1, -, -⟩ := h1.of_ok ht
  obtain ⟨l, st, e2⟩ := OK3D.create_other hs' v (.inl hg)
  rw [hs] at e2
  have e2 := Except.ok.inj e2
  let t₀ : NanOK3D n := ⟨t.obj, fun _ => none, t.stats⟩
  have hz₀ : ∃ i, t₀.Z i = none := ⟨hz.choose, rfl⟩
  have r1 := (t.execute_rel (replaces_getD t.Z) [] none env ea (by rw [hw]; exact fun _ h => nomatch h)).eq_map (f := allNan) fun a b hab => hab.allNan fun p => by rw [hw]; exact not_all hz
  have r2 := (t₀.execute_rel (replaces_none fun i => (t.Z i).getD 0) [] none env ea (by rw [hw]; exact fun _ h => nomatch h)).eq_map (f := allNan) fun a b hab => hab.allNan fun p => by rw [hw]; exact not_all hz₀
  have r3 := (t₀.execute_rel (replaces_none v) l st env ea (by rw [hw]; exact fun _ h => nomatch h)).eq_map (f := allNan) fun a b hab => hab.allNan fun p => by rw [hw]; exact not_all hz₀
  rw [r1]
  have e3 : t₀.fill v l st = s := by
    rw [e2, e1]; rfl
  rw [← e3]
  exact r2.symm.trans r3

/-- The experimental variogram: the classes that contain a pair with a nan are dropped without notice, the others are as
usual. -/
theorem C77_lags_ok3 {n : ℕ} {env : Env} {x y z : Fin n → ℝ} {w : Fin n → Option ℝ} {args : OK3DArgs} {t : NanOK3D n}
    (h : NanOK3D.create env x y z w args = .ok t) (hn : 0 < args.nlags) :
    ∃ groups : List (List (ℝ × Option ℝ)),
      (groups.flatten : Multiset (ℝ × Option ℝ)) = nanPairsBy (fun i j => ok3Distance args (x i, y i, z i) (x j, y j, z j)) w ∧
      t.obj.lags = groups.filterMap groupMean ∧
      (∀ g ∈ groups, g ≠ []) ∧ groups.length ≤ args.nlags ∧
      groups.Pairwise (fun g g' => ∀ p ∈ g, ∀ q ∈ g', p.1 < q.1) ∧
      ∃ lo hi, IsLeast {d | ∃ p ∈ nanPairsBy (fun i j => ok3Distance args (x i, y i, z i) (x j, y j, z j)) w, d = p.1} lo ∧
        IsGreatest {d | ∃ p ∈ nanPairsBy (fun i j => ok3Distance args (x i, y i, z i) (x j, y j, z j)) w, d = p.1} hi ∧
        ∀ g ∈ groups, ∃ k < args.nlags, ∀ p ∈ g, lo + k * ((hi - lo) / args.nlags) ≤ p.1 ∧
          p.1 ≤ lo + (k + 1) * ((hi - lo) / args.nlags) ∧
          (k + 1 < args.nlags → p.1 < lo + (k + 1) * ((hi - lo) / args.nlags)) := by
  obtain ⟨-, X, name, vp, f, fname, fArg, h1, h2, -⟩ := NanOK3D.create_lags h
  have hD : (fun i j => ok3Distance args (x i, y i, z i) (x j, y j, z j)) = fun i j => pairDistance "euclidean" (X i) (X j) := by
    funext i j
    exact (h2 i j).symm
  rw [hD]
  exact nan_groups (initializeNan_ev h1) hn

/-- The automatic fit uses what is left: the parameters are within the bounds computed from the classes that remain. -/
theorem C77_fit_ok3 {n : ℕ} {env : Env} {x y z : Fin n → ℝ} {w : Fin n → Option ℝ} {args : OK3DArgs} {t : NanOK3D n}
    (h : NanOK3D.create env x y z w args = .ok t) {nm : String} (hm : args.variogramModel = .name nm)
    (hp : args.params = .none) (hn : 0 < args.nlags) (hl : LsqSpec env) :
    ∃ S L, IsGreatest {v | v ∈ t.obj.lags.map Prod.snd} S ∧ IsGreatest {v | v ∈ t.obj.lags.map Prod.fst} L ∧
      WithinBounds nm S L t.obj.params := by
  obtain ⟨groups, g1, g2, g3, -⟩ := C77_lags_ok3 h hn
  obtain ⟨-, X, name, vp, f, fname, fArg, h1, h2, -, h3⟩ := NanOK3D.create_lags h
  obtain ⟨rfl, rfl⟩ := h3 nm hm hp
  refine nan_fit ?_ (initNan_auto h1) hl
  rw [g2]
  refine groupMean_pairs (fun i j => ?_) g1
  rw [← h2]
  exact pairDistance_nonneg _ _ _

/-- The automatic fit needs two numbers: with at most one the constructor refuses. -/
theorem C77_refused_ok3 {n : ℕ} {env : Env} {x y z : Fin n → ℝ} {w : Fin n → Option ℝ} {args : OK3DArgs}
    {nm : String} (hm : args.variogramModel = .name nm) (hp : args.params = .none) (hn : 0 < args.nlags)
    (hw : ∀ i j, i ≠ j → w i = none ∨ w j = none) (t : NanOK3D n) : NanOK3D.create env x y z w args ≠ .ok t := by
  intro h
  obtain ⟨groups, g1, g2, g3, -⟩ := C77_lags_ok3 h hn
  obtain ⟨-, X, name, vp, f, fname, fArg, h1, h2, -, h3⟩ := NanOK3D.create_lags h
  obtain ⟨rfl, rfl⟩ := h3 nm hm hp
  have := initNan_auto h1
  rw [g2, groups_dropped hw g1 g3] at this
  exact fit_nil this

/-- The statistics: the variances are those of any other values; a residual is nan exactly if the value it belongs to or an
earlier one is nan, and otherwise it is what it is with any numbers in place of the nans. -/
theorem C77_statistics_ok3 {n : ℕ} {env : Env} {x y z : Fin n → ℝ} {w : Fin n → Option ℝ} {v : Fin n → ℝ} {args : OK3DArgs}
    {t : NanOK3D n} {s : OK3D n} (hg : ParamsGiven args.variogramModel args.params) (hv : Replaces v w)
    (ht : NanOK3D.create env x y z w args = .ok t) (hs : OK3D.create env x y z v args = .ok s)
    {st : Stats} (hst : s.stats = some st) :
    ∃ st', t.stats = some st' ∧ st'.sigma = st.sigma ∧ ∃ idx : List (Fin n), idx.Pairwise (· < ·) ∧ (∀ i ∈ idx, i.val ≠ 0) ∧
      idx.length = st.sigma.length ∧ st'.delta.length = idx.length ∧ st'.epsilon.length = idx.length ∧
      ∀ (k : ℕ) i, idx[k]? = some i →
        ((∃ j, j ≤ i ∧ w j = none) → st'.delta[k]? = some none ∧ st'.epsilon[k]? = some none) ∧
        ((∀ j, j ≤ i → w j ≠ none) → st'.delta[k]? = (st.delta[k]?).map some ∧
          st'.epsilon[k]? = (st.epsilon[k]?).map some) := by
  have h1 := NanOK3D.create_rel env x y z w hv args (.inl hg)
  obtain ⟨s', hs', -, -, o1, -⟩ := h1.of_ok ht
  rw [hs] at hs'
  cases hs'
  rw [hst] at o1
  cases ho : t.stats with
  | none => rw [ho] at o1; exact o1.elim
  | some st' =>
    rw [ho] at o1
    exact ⟨st', rfl, stats_entries o1⟩

/-- A moving window: for each visible query point there are `k` different data, none of the others nearer to it, such that the
estimate is nan exactly if one of these `k` values is nan; otherwise it is the estimate with any numbers in place of the
nans. -/
theorem C77_window_ok3 {n : ℕ} {env : Env} {x y z : Fin n → ℝ} {w : Fin n → Option ℝ} {v : Fin n → ℝ} {args : OK3DArgs}
    {t : NanOK3D n} {s : OK3D n} (hg : ParamsGiven args.variogramModel args.params) (hv : Replaces v w)
    (ht : NanOK3D.create env x y z w args = .ok t) (hs : OK3D.create env x y z v args = .ok s)
    {ea : ExecArgs3} {k : ℕ} (hk : ea.nClosest = some (k : ℤ)) (hkn : k ≤ n) (he : KnnSpec env)
    {r' : NanResult} (hr : t.execute env ea = .ok r') {j : ℕ} {p : ℝ × ℝ × ℝ} (hq : queryAt3 ea j = some p)
    (hm : maskedAt3 ea j = false) :
    ∃ sel : Fin k → Fin n, Function.Injective sel ∧
      (∀ i i', i' ∉ Set.range sel → ok3Distance args p (x (sel i), y (sel i), z (sel i)) ≤ ok3Distance args p (x i', y i', z i')) ∧
      (r'.z[j]? = some (some none) ↔ ∃ i, w (sel i) = none) ∧
      ∃ r a, s.execute env ea = .ok r ∧ r'.shape = r.shape ∧ r'.ss = r.ss ∧ r.z[j]? = some (some a) ∧
        ((∀ i, w (sel i) ≠ none) → r'.z[j]? = some (some (some a))) := by
  have h1 := NanOK3D.create_rel env x y z w hv args (.inl hg)
  obtain ⟨s', hs', hZ, hst, -, -⟩ := h1.of_ok ht
  rw [hs] at hs'
  cases hs'
  have hv' : Replaces v t.Z := by rw [hZ]; exact hv
  have hrel := t.execute_rel hv' s.lags s.stats env ea (by rw [hk]; rintro _ ⟨⟩; exact_mod_cast hkn)
  rw [← hst] at hrel
  obtain ⟨r, hr₀, hmatch⟩ := hrel.of_ok hr
  obtain ⟨a, ha, ha'⟩ := hmatch.2.2.2.2 j p hq
  rw [hm] at ha ha'
  have hsel : (t.obj.neighbours env ((k : ℤ)).toNat (t.obj.queryPt p)).sel = s.sel env k p := by rw [hst]; rfl
  obtain ⟨hl, hnd⟩ := OK3D.sel_spec he s hkn p
  set l := s.sel env k p with hldef
  set sel : Fin k → Fin n := fun i => l.get (i.cast hl.symm) with hseldef
  have hinj : Function.Injective sel := fun i i' e => by
    have := List.nodup_iff_injective_get.1 hnd e
    simpa using this
  have hmem : ∀ a, a ∈ l ↔ a ∈ Set.range sel := by
    intro a
    rw [List.mem_iff_get]
    constructor
    · rintro ⟨i, rfl⟩; exact ⟨i.cast hl, by simp [hseldef]⟩
    · rintro ⟨i, rfl⟩; exact ⟨_, rfl⟩
  have hP : t.numberAt env ea.nClosest (t.obj.queryPt p) ↔ ∀ i, w (sel i) ≠ none := by
    unfold NanOK3D.numberAt
    rw [hk]
    dsimp only
    rw [hsel, hZ]
    constructor
    · intro h i; exact h _ ((hmem _).2 ⟨i, rfl⟩)
    · intro h i hi
      obtain ⟨i', rfl⟩ := (hmem i).1 hi
      exact h i'
  refine ⟨sel, hinj, fun i i' hi' => ?_, ?_, r, a, hr₀, hmatch.1, hmatch.2.1, ha, fun hall => ?_⟩
  · have := OK3D.sel_nearest he s hkn p ((hmem (sel i)).2 ⟨i, rfl⟩) (fun hc => hi' ((hmem i').1 hc))
    rwa [(OK3D.create_dist hs).2, (OK3D.create_dist hs).2] at this
  · rw [ha']
    by_cases h : ∀ i, w (sel i) ≠ none
    · rw [markv_true (hP.2 h)]
      exact ⟨fun hc => (by simp at hc), fun ⟨i, hi⟩ => absurd hi (h i)⟩
    · rw [markv_false fun hc => h (hP.1 hc)]
      push Not at h
      exact ⟨fun _ => h, fun _ => rfl⟩
  · rw [ha', markv_true (hP.2 hall)]; rfl

/-! ### `UniversalKriging` -/

/-- If no value is nan, nothing changes: the model of this section and the one used elsewhere agree. -/
theorem C77_numbers_uk {n : ℕ} (env : Env) (x y v : Fin n → ℝ) (args : UKArgs) :
    (∀ e, NanUK.create env x y (fun i => some (v i)) args = .error e ↔ UK.create env x y v args = .error e) ∧
    ∀ s, UK.create env x y v args = .ok s →
      ∃ t, NanUK.create env x y (fun i => some (v i)) args = .ok t ∧ t.obj.lags = s.lags ∧
        t.obj.params = s.params ∧ t.stats = s.stats.map asNumbersStats ∧
        ∀ ea, t.execute ea = asNumbers <$> s.execute ea := by
  have h := NanUK.create_rel env x y _ (replaces_some v) args (.inr fun _ => rfl)
  refine ⟨h.error_iff, fun s hs => ?_⟩
  obtain ⟨t, ht, hz, hst, ho, hl⟩ := h.ok_of hs
  refine ⟨t, ht, hl fun _ => rfl, by rw [hst]; rfl, stats_numbers ho, fun ea => ?_⟩
  have hv : Replaces v t.Z := by rw [hz]; exact replaces_some v
  have hP : ∀ i, t.Z i ≠ none := fun i => by rw [hz]; simp
  have := (t.execute_rel hv s.lags s.stats ea).eq_map (f := asNumbers) fun a b hab => hab.numbers fun p => hP



  rw [← hst] at this
  exact this

/-- With parameters given by the caller, whether the constructor accepts does not depend on the values, nan or not; the
parameters and the variances of the statistics are the same. -/
theorem C77_create_uk {n : ℕ} (env : Env) (x y : Fin n → ℝ) (w : Fin n → Option ℝ) (v : Fin n → ℝ) (args : UKArgs)
    (hg : ParamsGiven args.variogramModel args.params) :
    (∀ e, NanUK.create env x y w args = .error e ↔ UK.create env x y v args = .error e) ∧
    ∀ s t, UK.create env x y v args = .ok s → NanUK.create env x y w args = .ok t →
      t.obj.params = s.params ∧ t.stats.map NanStats.sigma = s.stats.map Stats.sigma := by
  have h1 := NanUK.create_rel env x y w (replaces_getD w) args (.inl hg)
  have h2 := NanUK.create_rel env x y (fun _ => none) (replaces_none fun i => (w i).getD 0) args (.inl hg)
  have h3 := NanUK.create_rel env x y (fun _ => none) (replaces_none v) args (.inl hg)
  refine ⟨fun e => (h1.error_iff e).trans ((h2.error_iff e).symm.trans (h3.error_iff e)), fun s t hs ht => ?_⟩
  obtain ⟨s', hs', -, e1, o1, -⟩ := h1.of_ok ht
  obtain ⟨t0, ht0, -, e2, o2, -⟩ := h2.ok_of hs'
  obtain ⟨s'', hs'', -, e3, o3, -⟩ := h3.of_ok ht0
  rw [hs] at hs''
  cases hs''
  refine ⟨?_, (opt_sigma o1).trans ((opt_sigma o2).symm.trans (opt_sigma o3))⟩
  have p1 : s'.params = t.obj.params := by rw [e1]; rfl
  have p2 : s'.params = t0.obj.params := by rw [e2]; rfl
  have p3 : s.params = t0.obj.params := by rw [e3]; rfl
  rw [← p1, p2, p3]

/-- One nan among the values: every estimate that is not masked is nan. -/
theorem C77_all_nan_uk {n : ℕ} {env : Env} {x y : Fin n → ℝ} {w : Fin n → Option ℝ} {args : UKArgs} {t : NanUK n}
    (h : NanUK.create env x y w args = .ok t) (hz : ∃ i, w i = none) {ea : UKExecArgs}
    {r : NanResult} (hr : t.execute ea = .ok r) {j : ℕ} {p} (hq : queryAt ea.toExec j = some p) :
    r.z[j]? = some (if maskedAt ea.toExec j then none else some none) := by
  have hZ := (NanUK.create_lags h).1
  rw [← hZ] at hz
  obtain ⟨r₀, -, hm⟩ := (t.execute_rel (replaces_getD t.Z) [] none ea).of_ok hr
  exact hm.nanAt hq (not_all hz)

/-- The parameters given, one nan among the values: masks, shape, variances and errors are those
of an object with any other values. -/
theorem C77_execute_uk {n : ℕ} {env : Env} {x y : Fin n → ℝ} {w : Fin n → Option ℝ} {v : Fin n → ℝ} {args : UKArgs}
    {t : NanUK n} {s : UK n} (hg : ParamsGiven args.variogramModel args.params)
    (ht : NanUK.create env x y w args = .ok t) (hs : UK.create env x y v args = .ok s)
    (hz : ∃ i, w i = none) {ea : UKExecArgs} : t.execute ea = allNan <$> s.execute ea := by
  have hZ := (NanUK.create_lags ht).1
  rw [← hZ] at hz
  have h1 := NanUK.create_rel env x y w (replaces_getD w) args (.inl hg)
  obtain ⟨s', hs', -, e1, -, -⟩ := h1.of_ok ht
  obtain ⟨l, st, e2⟩ := UK.create_other hs' v (.inl hg)
  rw [hs] at e2
  have e2 := Except.ok.inj e2
  let t₀ : NanUK n := ⟨t.obj, fun _ => none, t.stats⟩
  have hz₀ : ∃ i, t₀.Z i = none := ⟨hz.choose, rfl⟩
  have r1 := (t.execute_rel (replaces_getD t.Z) [] none ea).eq_map (f := allNan) fun a b hab => hab.allNan fun p => not_all hz
  have r2 := (t₀.execute_rel (replaces_none fun i => (t.Z i).getD 0) [] none ea).eq_map (f := allNan) fun a b hab => hab.allNan fun p => not_all hz₀
  have r3 := (t₀.execute_rel (replaces_none v) l st ea).eq_map (f := allNan) fun a b hab => hab.allNan fun p => not_all hz₀
  rw [r1]
  have e3 : t₀.fill v l st = s := by
    rw [e2, e1]; rfl
  rw [← e3]
  exact r2.symm.trans r3

/-- The experimental variogram: the classes that contain a pair with a nan are dropped without notice, the others are as
usual. -/
theorem C77_lags_uk {n : ℕ} {env : Env} {x y : Fin n → ℝ} {w : Fin n → Option ℝ} {args : UKArgs} {t : NanUK n}
    (h : NanUK.create env x y w args = .ok t) (hn : 0 < args.nlags) :
    ∃ groups : List (List (ℝ × Option ℝ)),
      (groups.flatten : Multiset (ℝ × Option ℝ)) = nanPairsBy (fun i j => ukDistance args (x i, y i) (x j, y j)) w ∧
      t.obj.lags = groups.filterMap groupMean ∧
      (∀ g ∈ groups, g ≠ []) ∧ groups.length ≤ args.nlags ∧
      groups.Pairwise (fun g g' => ∀ p ∈ g, ∀ q ∈ g', p.1 < q.1) ∧
      ∃ lo hi, IsLeast {d | ∃ p ∈ nanPairsBy (fun i j => ukDistance args (x i, y i) (x j, y j)) w, d = p.1} lo ∧
        IsGreatest {d | ∃ p ∈ nanPairsBy (fun i j => ukDistance args (x i, y i) (x j, y j)) w, d = p.1} hi ∧
        ∀ g ∈ groups, ∃ k < args.nlags, ∀ p ∈ g, lo + k * ((hi - lo) / args.nlags) ≤ p.1 ∧
          p.1 ≤ lo + (k + 1) * ((hi - lo) / args.nlags) ∧
          (k + 1 < args.nlags → p.1 < lo + (k + 1) * ((hi - lo) / args.nlags)) := by
  obtain ⟨-, X, name, vp, f, fname, fArg, h1, h2, -⟩ := NanUK.create_lags h
  have hD : (fun i j => ukDistance args (x i, y i) (x j, y j)) = fun i j => pairDistance "euclidean" (X i) (X j) := by
    funext i j
    exact (h2 i j).symm
  rw [hD]
  exact nan_groups (initializeNan_ev h1) hn

/-- The automatic fit uses what is left: the parameters are within the bounds computed from the classes that remain. -/
theorem C77_fit_uk {n : ℕ} {env : Env} {x y : Fin n → ℝ} {w : Fin n → Option ℝ} {args : UKArgs} {t : NanUK n}
    (h : NanUK.create env x y w args = .ok t) {nm : String} (hm : args.variogramModel = .name nm)
    (hp : args.params = .none) (hn : 0 < args.nlags) (hl : LsqSpec env) :
    ∃ S L, IsGreatest {v | v ∈ t.obj.lags.map Prod.snd} S ∧ IsGreatest {v | v ∈ t.obj.lags.map Prod.fst} L ∧
      WithinBounds nm S L t.obj.params := by
  obtain ⟨groups, g1, g2, g3, -⟩ := C77_lags_uk h hn
  obtain ⟨-, X, name, vp, f, fname, fArg, h1, h2, -, h3⟩ := NanUK.create_lags h
  obtain ⟨rfl, rfl⟩ := h3 nm hm hp
  refine nan_fit ?_ (initNan_auto h1) hl
  rw [g2]
  refine groupMean_pairs (fun i j => ?_) g1
  rw [← h2]
  exact pairDistance_nonneg _ _ _

/-- The automatic fit needs two numbers: with at most one the constructor refuses. -/
theorem C77_refused_uk {n : ℕ} {env : Env} {x y : Fin n → ℝ} {w : Fin n → Option ℝ} {args : UKArgs}
    {nm : String} (hm : args.variogramModel = .name nm) (hp : args.params = .none) (hn : 0 < args.nlags)
    (hw : ∀ i j, i ≠ j → w i = none ∨ w j = none) (t : NanUK n) : NanUK.create env x y w args ≠ .ok t := by
  intro h
  obtain ⟨groups, g1, g2, g3, -⟩ := C77_lags_uk h hn
  obtain ⟨-, X, name, vp, f, fname, fArg, h1, h2, -, h3⟩ := NanUK.create_lags h
  obtain ⟨rfl, rfl⟩ := h3 nm hm hp
  have := initNan_auto h1
  rw [g2, groups_dropped hw g1 g3] at this
  exact fit_nil this

/-- The statistics: the variances are those of any other values; a residual is nan exactly if the value it belongs to or an
earlier one is nan, and otherwise it is what it is with any numbers in place of the nans. -/
theorem C77_statistics_uk {n : ℕ} {env : Env} {x y : Fin n → ℝ} {w : Fin n → Option ℝ} {v : Fin n → ℝ} {args : UKArgs}
    {t : NanUK n} {s : UK n} (hg : ParamsGiven args.variogramModel args.params) (hv : Replaces v w)
    (ht : NanUK.create env x y w args = .ok t) (hs : UK.create env x y v args = .ok s)
    {st : Stats} (hst : s.stats = some st) :
    ∃ st', t.stats = some st' ∧ st'.sigma = st.sigma ∧ ∃ idx : List (Fin n), idx.Pairwise (· < ·) ∧ (∀ i ∈ idx, i.val ≠ 0) ∧
      idx.length = st.sigma.length ∧ st'.delta.length = idx.length ∧ st'.epsilon.length = idx.length ∧
      ∀ (k : ℕ) i, idx[k]? = some i →
        ((∃ j, j ≤ i ∧ w j = none) → st'.delta[k]? = some none ∧ st'.epsilon[k]? = some none) ∧
        ((∀ j, j ≤ i → w j ≠ none) → st'.delta[k]? = (st.delta[k]?).map some ∧
          st'.epsilon[k]? = (st.epsilon[k]?).map some) := by
  have h1 := NanUK.create_rel env x y w hv args (.inl hg)
  obtain ⟨s', hs', -, -, o1, -⟩ := h1.of_ok ht
  rw [hs] at hs'
  cases hs'
  rw [hst] at o1
  cases ho : t.stats with
  | none => rw [ho] at o1; exact o1.elim
  | some st' =>
    rw [ho] at o1
    exact ⟨st', rfl, stats_entries o1⟩

/-! ### `UniversalKriging3D` -/

/-- If no value is nan, nothing changes: the model of this section and the one used elsewhere agree. -/
theorem C77_numbers_uk3 {n : ℕ} (env : Env) (x y z v : Fin n → ℝ) (args : UK3DArgs) :
    (∀ e, NanUK3D.create env x y z (fun i => some (v i)) args = .error e ↔ UK3D.create env x y z v args = .error e) ∧
    ∀ s, UK3D.create env x y z v args = .ok s →
      ∃ t, NanUK3D.create env x y z (fun i => some (v i)) args = .ok t ∧ t.obj.lags = s.lags ∧
        t.obj.params = s.params ∧ t.stats = s.stats.map asNumbersStats ∧
        ∀ ea, t.execute ea = asNumbers <$> s.execute ea := by
  have h := NanUK3D.create_rel env x y z _ (replaces_some v) args (.inr fun _ => rfl)
  refine ⟨h.error_iff, fun s hs => ?_⟩
  obtain ⟨t, ht, hz, hst, ho, hl⟩ := h.ok_of hs
  refine ⟨t, ht, hl fun _ => rfl, by rw [hst]; rfl, stats_numbers ho, fun ea => ?_⟩
  have hv : Replaces v t.Z := by rw [hz]; exact replaces_some v
  have hP : ∀ i, t.Z i ≠ none := fun i => by rw [hz]; simp
  have := (t.execute_rel hv s.lags s.stats ea).eq_map (f := asNumbers) fun a b hab => hab.numbers fun p => hP



  rw [← hst] at this
  exact this

/-- With parameters given by the caller, whether the constructor accepts does not depend on the values, nan or not; the
parameters and the variances of the statistics are the same. -/
theorem C77_create_uk3 {n : ℕ} (env : Env) (x y z : Fin n → ℝ) (w : Fin n → Option ℝ) (v : Fin n → ℝ) (args : UK3DArgs)
    (hg : ParamsGiven args.variogramModel args.params) :
    (∀ e, NanUK3D.create env x y z w args = .error e ↔ UK3D.create env x y z v args = .error e) ∧
    ∀ s t, UK3D.create env x y z v args = .ok s → NanUK3D.create env x y z w args = .ok t →
      t.obj.params = s.params ∧ t.stats.map NanStats.sigma = s.stats.map Stats.sigma := by
  have h1 := NanUK3D.create_rel env x y z w (replaces_getD w) args (.inl hg)
  have h2 := NanUK3D.create_rel env x y z (fun _ => none) (replaces_none fun i => (w i).getD 0) args (.inl hg)
  have h3 := NanUK3D.create_rel env x y z (fun _ => none) (replaces_none v) args (.inl hg)
  refine ⟨fun e => (h1.error_iff e).trans ((h2.error_iff e).symm.trans (h3.error_iff e)), fun s t hs ht => ?_⟩
  obtain ⟨s', hs', -, e1, o1, -⟩ := h1.of_ok ht
  obtain ⟨t0, ht0, -, e2, o2, -⟩ := h2.ok_of hs'
  obtain ⟨s'', hs'', -, e3, o3, -⟩ := h3.of_ok ht0
  rw [hs] at hs''
  cases hs''
  refine ⟨?_, (opt_sigma o1).trans ((opt_sigma o2).symm.trans (opt_sigma o3))⟩
  have p1 : s'.params = t.obj.params := by rw [e1]; rfl
  have p2 : s'.params = t0.obj.params := by rw [e2]; rfl
  have p3 : s.params = t0.obj.params := by rw [e3]; rfl
  rw [← p1, p2, p3]

/-- One nan among the values: every estimate that is not masked is nan. -/
theorem C77_all_nan_uk3 {n : ℕ} {env : Env} {x y z : Fin n → ℝ} {w : Fin n → Option ℝ} {args : UK3DArgs} {t : NanUK3D n}
    (h : NanUK3D.create env x y z w args = .ok t) (hz : ∃ i, w i = none) {ea : UK3DExecArgs}
    {r : NanResult} (hr : t.execute ea = .ok r) {j : ℕ} {p} (hq : queryAt3 ea.toExec j = some p) :
    r.z[j]? = some (if maskedAt3 ea.toExec j then none else some none) := by
  have hZ := (NanUK3D.create_lags h).1
  rw [← hZ] at hz
  obtain ⟨r₀, -, hm⟩ := (t.execute_rel (replaces_getD t.Z) [] none ea).of_ok hr
  exact hm.nanAt hq (not_all hz)

/-- The parameters given, one nan among the values: masks, shape, variances and errors are those
of an object with any other values. -/
theorem C77_execute_uk3 {n : ℕ} {env : Env} {x y z : Fin n → ℝ} {w : Fin n → Option ℝ} {v : Fin n → ℝ} {args : UK3DArgs}
    {t : NanUK3D n} {s : UK3D n} (hg : ParamsGiven args.variogramModel args.params)
    (ht : NanUK3D.create env x y z w args = .ok t) (hs : UK3D.create env x y z v args = .ok s)
    (hz : ∃ i, w i = none) {ea : UK3DExecArgs} : t.execute ea = allNan <$> s.execute ea := by
  have hZ := (NanUK3D.create_lags ht).1
  rw [← hZ] at hz
  have h1 := NanUK3D.create_rel env x y z w (replaces_getD w) args (.inl hg)
  obtain ⟨s', hs', -, e1, -, -⟩ := h1.of_ok ht
  obtain ⟨l, st, e2⟩ := UK3D.create_other hs' v (.inl hg)
  rw [hs] at e2
  have e2 := Except.ok.inj e2
  let t₀ : NanUK3D n := ⟨t.obj, fun _ => none, t.stats⟩
  have hz₀ : ∃ i, t₀.Z i = none := ⟨hz.choose, rfl⟩
  have r1 := (t.execute_rel (replaces_getD t.Z) [] none ea).eq_map (f := allNan) fun a b hab => hab.allNan fun p => not_all hz
  have r2 := (t₀.execute_rel (replaces_none fun i => (t.Z i).getD 0) [] none ea).eq_map (f := allNan) fun a b hab => hab.allNan fun p => not_all hz₀
  have r3 := (t₀.execute_rel (replaces_none v) l st ea).eq_map (f := allNan) fun a b hab => hab.allNan fun p => not_all hz₀
  rw [r1]
  have e3 : t₀.fill v l st = s := by
    rw [e2, e1]; rfl
  rw [← e3]
  exact r2.symm.trans r3

/-- The experimental variogram: the classes that contain a pair with a nan are dropped without notice, the others are as
usual. -/
theorem C77_lags_uk3 {n : ℕ} {env : Env} {x y z : Fin n → ℝ} {w : Fin n → Option ℝ} {args : UK3DArgs} {t : NanUK3D n}
    (h : NanUK3D.create env x y z w args = .ok t) (hn : 0 < args.nlags) :
    ∃ groups : List (List (ℝ × Option ℝ)),
      (groups.flatten : Multiset (ℝ × Option ℝ)) = nanPairsBy (fun i j => uk3Distance args (x i, y i, z i) (x j, y j, z j)) w ∧
      t.obj.lags = groups.filterMap groupMean ∧
      (∀ g ∈ groups, g ≠ []) ∧ groups.length ≤ args.nlags ∧
      groups.Pairwise (fun g g' => ∀ p ∈ g, ∀ q ∈ g', p.1 < q.1) ∧
      ∃ lo hi, IsLeast {d | ∃ p ∈ nanPairsBy (fun i j => uk3Distance args (x i, y i, z i) (x j, y j, z j)) w, d = p.1} lo ∧
        IsGreatest {d | ∃ p ∈ nanPairsBy (fun i j => uk3Distance args (x i, y i, z i) (x j, y j, z j)) w, d = p.1} hi ∧
        ∀ g ∈ groups, ∃ k < args.nlags, ∀ p ∈ g, lo + k * ((hi - lo) / args.nlags) ≤ p.1 ∧
          p.1 ≤ lo + (k + 1) * ((hi - lo) / args.nlags) ∧
          (k + 1 < args.nlags → p.1 < lo + (k + 1) * ((hi - lo) / args.nlags)) := by
  obtain ⟨-, X, name, vp, f, fname, fArg, h1, h2, -⟩ := NanUK3D.create_lags h
  have hD : (fun i j => uk3Distance args (x i, y i, z i) (x j, y j, z j)) = fun i j => pairDistance "euclidean" (X i) (X j) := by
    funext i j
    exact (h2 i j).symm
  rw [hD]
  exact nan_groups (initializeNan_ev h1) hn

/-- The automatic fit uses what is left: the parameters are within the bounds computed from the classes that remain. -/
theorem C77_fit_uk3 {n : ℕ} {env : Env} {x y z : Fin n → ℝ} {w : Fin n → Option ℝ} {args : UK3DArgs} {t : NanUK3D n}
    (h : NanUK3D.create env x y z w args = .ok t) {nm : String} (hm : args.variogramModel = .name nm)
    (hp : args.params = .none) (hn : 0 < args.nlags) (hl : LsqSpec env) :
    ∃ S L, IsGreatest {v | v ∈ t.obj.lags.map Prod.snd} S ∧ IsGreatest {v | v ∈ t.obj.lags.map Prod.fst} L ∧
      WithinBounds nm S L t.obj.params := by
  obtain ⟨groups, g1, g2, g3, -⟩ := C77_lags_uk3 h hn
  obtain ⟨-, X, name, vp, f, fname, fArg, h1, h2, -, h3⟩ := NanUK3D.create_lags h
  obtain ⟨rfl, rfl⟩ := h3 nm hm hp
  refine nan_fit ?_ (initNan_auto h1) hl
  rw [g2]
  refine groupMean_pairs (fun i j => ?_) g1
  rw [← h2]
  exact pairDistance_nonneg _ _ _

/-- The automatic fit needs two numbers: with at most one the constructor refuses. -/
theorem C77_refused_uk3 {n : ℕ} {env : Env} {x y z : Fin n → ℝ} {w : Fin n → Option ℝ} {args : UK3DArgs}
    {nm : String} (hm : args.variogramModel = .name nm) (hp : args.params = .none) (hn : 0 < args.nlags)
    (hw : ∀ i j, i ≠ j → w i = none ∨ w j = none) (t : NanUK3D n) : NanUK3D.create env x y z w args ≠ .ok t := by
  intro h
  obtain ⟨groups, g1, g2, g3, -⟩ := C77_lags_uk3 h hn
  obtain ⟨-, X, name, vp, f, fname, fArg, h1, h2, -, h3⟩ := NanUK3D.create_lags h
  obtain ⟨rfl, rfl⟩ := h3 nm hm hp
  have := initNan_auto h1
  rw [g2, groups_dropped hw g1 g3] at this
  exact fit_nil this

/-- The statistics: the variances are those of any other values; a residual is nan exactly if the value it belongs to or an
earlier one is nan, and otherwise it is what it is with any numbers in place of the nans. -/
theorem C77_statistics_uk3 {n : ℕ} {env : Env} {x y z : Fin n → ℝ} {w : Fin n → Option ℝ} {v : Fin n → ℝ} {args : UK3DArgs}
    {t : NanUK3D n} {s : UK3D n} (hg : ParamsGiven args.variogramModel args.params) (hv : Replaces v w)
    (ht : NanUK3D.create env x y z w args = .ok t) (hs : UK3D.create env x y z v args = .ok s)
    {st : Stats} (hst : s.stats = some st) :
    ∃ st', t.stats = some st' ∧ st'.sigma = st.sigma ∧ ∃ idx : List (Fin n), idx.Pairwise (· < ·) ∧ (∀ i ∈ idx, i.val ≠ 0) ∧
      idx.length = st.sigma.length ∧ st'.delta.length = idx.length ∧ st'.epsilon.length = idx.length ∧
      ∀ (k : ℕ) i, idx[k]? = some i →
        ((∃ j, j ≤ i ∧ w j = none) → st'.delta[k]? = some none ∧ st'.epsilon[k]? = some none) ∧
        ((∀ j, j ≤ i → w j ≠ none) → st'.delta[k]? = (st.delta[k]?).map some ∧
          st'.epsilon[k]? = (st.epsilon[k]?).map some) := by
  have h1 := NanUK3D.create_rel env x y z w hv args (.inl hg)
  obtain ⟨s', hs', -, -, o1, -⟩ := h1.of_ok ht
  rw [hs] at hs'
  cases hs'
  rw [hst] at o1
  cases ho : t.stats with
  | none => rw [ho] at o1; exact o1.elim
  | some st' =>
    rw [ho] at o1
    exact ⟨st', rfl, stats_entries o1⟩

end
end PyKrige
