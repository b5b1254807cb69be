import Verif.Lemmas.OnlyDist
import Verif.Lemmas.ArgDist
import Verif.Lemmas.Backend

/-! Two-dimensional kriging inside space. -/

set_option linter.unusedSectionVars false

namespace PyKrige
noncomputable section
open Matrix Spec

/-- The call `ea3` asks for the images under `T` of the points `ea` asks for. -/
structure Embeds (T : ℝ × ℝ → ℝ × ℝ × ℝ) (ea : ExecArgs) (ea3 : ExecArgs3) : Prop where
  style : ea3.style = ea.style
  backend : ea3.backend = ea.backend
  nClosest : ea3.nClosest = ea.nClosest
  float : ¬ (ea3.xpoints.isInt = true ∧ ea3.ypoints.isInt = true ∧ ea3.zpoints.isInt = true)
  query : (∃ pm, queryPoints ea = .ok pm) ∨ (∃ pm, queryPoints3 ea3 = .ok pm) →
    ∀ j, queryAt3 ea3 j = (queryAt ea j).map T
  masked : (∃ pm, queryPoints ea = .ok pm) ∨ (∃ pm, queryPoints3 ea3 = .ok pm) →
    ∀ j p, queryAt ea j = some p → maskedAt3 ea3 j = maskedAt ea j
  accepted : (∃ pm, queryPoints ea = .ok pm) ↔ ∃ pm, queryPoints3 ea3 = .ok pm

/-- The answers of the two classes at corresponding points. -/
theorem embed_ans {n : ℕ} {env : Env} {s : OK n} {s3 : OK3D n} (hk : KnnSpec env) {nc : Option ℤ}
    (hw : WindowFits n nc)
    (e1 : s3.gam = s.gam) (e5 : s3.exactValues = s.exactValues) (e6 : s3.pseudoInv = s.pseudoInv)
    (e7 : s3.VALUES = s.Z) (e8 : s3.dataDist = s.dataDist) {p : ℝ × ℝ} {q : ℝ × ℝ × ℝ}
    (hd : s3.queryDist (s3.queryPt q) = s.queryDist (s.queryPt p))
    (ht : nc ≠ none → Function.Injective (s.queryDist (s.queryPt p))) :
    s3.ans env nc q = s.ans env nc p ∧ (s3.Valid env nc q ↔ s.Valid env nc p) := by
  have hsel : ∀ k : ℤ, nc = some k →
      (s.sel env k.toNat p).Perm (s3.sel env k.toNat q) ∧ (s.sel env k.toNat p).Nodup := by
    intro k hk'
    have hkn : k.toNat ≤ n := by have := hw k hk'; omega
    obtain ⟨a1, a2⟩ := OK.sel_spec hk s hkn p
    obtain ⟨b1, b2⟩ := OK3D.sel_spec hk s3 hkn q
    refine ⟨nearest_unique (a1.trans b1.symm) a2 b2 (d := fun i => s.queryDist (s.queryPt p) i)
      (fun i hi j hj => OK.sel_nearest hk s hkn p hi hj) (fun i hi j hj => ?_) (ht (by simp [hk'])), a2⟩
    have := OK3D.sel_nearest hk s3 hkn q hi hj
    rwa [hd] at this
  constructor
  · unfold OK3D.ans OK.ans
    rw [e1]
    cases nc with
    | none =>
      unfold OK3D.answer OK.answer OK3D.G OK3D.g OK.G OK.g
      simp only [e5, e6, e7, e8, hd]
    | some k =>
      unfold OK3D.windowAnswer OK.windowAnswer
      obtain ⟨q1, q2⟩ := hsel k rfl
      simp only [e5, e7, e8, hd]
      exact (selAnswer_perm q1 q2 _ _ _ _ _).symm
  · unfold OK3D.Valid OK.Valid
    rw [e1, e8]
    refine forall_congr' fun k => forall_congr' fun hk' => ?_
    obtain ⟨q1, q2⟩ := hsel k hk'
    exact (selRegular_perm q1 q2 _ _).symm

/-- `OrdinaryKriging3D` on an isometric image of two-dimensional data. -/
theorem embed_execute {n : ℕ} {env : Env} {x y v x3 y3 z3 : Fin n → ℝ} {args : OKArgs} {args3 : OK3DArgs}
    {s : OK n} {s3 : OK3D n} (h : OK.create env x y v args = .ok s)
    (h3 : OK3D.create env x3 y3 z3 v args3 = .ok s3)
    (e0 : s3.variogramFunction s3.params = s.variogramFunction s.params)
    (e5 : s3.exactValues = s.exactValues) (e6 : s3.pseudoInv = s.pseudoInv)
    (he : args.coordinatesType = "euclidean")
    {T : ℝ × ℝ → ℝ × ℝ × ℝ} (hT : ∀ p q, ok3Distance args3 (T p) (T q) = okDistance args p q)
    (hx : ∀ i, (x3 i, y3 i, z3 i) = T (x i, y i))
    {ea : ExecArgs} {ea3 : ExecArgs3} (hm : Embeds T ea ea3) (ha : Admissible env args s ea.nClosest)
    (ht : NoTies ea.nClosest (queryAt ea) fun p i => okDistance args p (x i, y i)) :
    (∀ r, s.execute env ea = .ok r → ea.backend ≠ "C" →
      s3.execute env ea3 = .ok { r with shape := resultShape3 ea3 }) ∧
    (∀ r, s3.execute env ea3 = .ok r → ¬ (ea.xpoints.isInt = true ∧ ea.ypoints.isInt = true) →
      s.execute env ea = .ok { r with shape := resultShape ea }) := by
  have hw3 : WindowFits n ea3.nClosest := by rw [hm.nClosest]; exact ha.window
  have h1 := OK.create_pw h ha
  have h2 := OK3D.create_pw h3 ha.knn hw3
  have eg : s3.gam = s.gam := by unfold OK3D.gam OK.gam; rw [e0]
  have d1 := OK.create_dist h
  have d2 := OK3D.create_dist h3
  have e8 : s3.dataDist = s.dataDist := by
    funext i j; rw [d2.1, d1.1, hx, hx, hT]
  have hq : ∀ p, s3.queryDist (s3.queryPt (T p)) = s.queryDist (s.queryPt p) := by
    intro p; funext i; rw [d2.2, d1.2, hx, hT]
  have e7 : s3.VALUES = s.Z := by
    rw [(OK3D.create_placed h3).2.2.2.2, (OK.create_placed h).2.2.2]
  have hct : s.coordinatesType = "euclidean" := by
    obtain ⟨hp, exact, name, model, fArg, pArg, sc₀, an₀, f, fname, xc, yc, sc, an, adj, vp, lags, ps, stats,
      h1, h2, h3, h4, h5, h6, h7, rfl⟩ := OK.create_ok h
    exact he
  have key := fun j p (hp : queryAt ea j = some p) =>
    embed_ans (nc := ea.nClosest) ha.knn ha.window eg e5 e6 e7 e8 (hq p) (fun hn => by
      have : s.queryDist (s.queryPt p) = fun i => okDistance args p (x i, y i) := funext fun i => d1.2 p i
      rw [this]; exact ht hn j p hp)
  have hck := fun hv => OK.check_iff h ha.noClash hv ea
  constructor
  · intro r hr hC
    have hqp := (h1.ok_iff.1 ⟨r, hr⟩).1.query
    obtain ⟨r', hr', g1, g2, g3⟩ := h1.transfer h2 hr (fun a => ⟨by rw [hm.style]; exact a.style,
        by rw [hm.nClosest]; exact a.win, by rw [e0]; exact a.vario, hm.accepted.1 a.query,
        hm.float, by
          rw [hm.nClosest, hm.backend]
          have := (hck a.vario).1 a.backend
          unfold Spec.Supports at this
          revert this
          cases ea.nClosest <;> simp [hC],
        by rw [hm.nClosest, e6, eg, e8]; exact a.solvable⟩)
      (fun _ => T) (hm.query (.inl hqp)) (hm.masked (.inl hqp)) (fun j hj => hj)
      (fun a j p hp hn hv => by
        rw [hm.nClosest]
        exact (key j p hp).2.2 (hv (by rw [← hm.masked (.inl hqp) j p hp]; exact hn))) id id
      (fun a _ j p hp _ _ => by rw [hm.nClosest]; exact (key j p hp).1)
    obtain ⟨a, b, c⟩ := r'
    simp only [Option.map_id, List.map_id] at g1 g2 g3
    subst g1 g2 g3
    exact hr'
  · intro r hr hI
    have hqp := (h2.ok_iff.1 ⟨r, hr⟩).1.query
    obtain ⟨r', hr'⟩ := h1.ok_iff.2 ⟨by
        have a := (h2.ok_iff.1 ⟨r, hr⟩).1
        have hv : ∃ γ, s.variogramFunction s.params = .ok γ := by rw [← e0]; exact a.vario
        refine ⟨by rw [← hm.style]; exact a.style, by rw [← hm.nClosest]; exact a.win, hv,
          hm.accepted.2 a.query, fun hc => hI hc.2, (hck hv).2 ?_, ?_⟩
        · have := a.backend
          rw [hm.nClosest, hm.backend] at this
          unfold Spec.Supports
          revert this
          cases ea.nClosest <;> simp <;> tauto
        · have := a.solvable
          rw [hm.nClosest, e6, eg, e8] at this
          exact this, fun j p hp hn => by
        have := (h2.ok_iff.1 ⟨r, hr⟩).2 j (T p) (by rw [hm.query (.inr hqp), hp]; rfl)
          (by rw [hm.masked (.inr hqp) j p hp]; exact hn)
        rw [hm.nClosest] at this
        exact (key j p hp).2.1 this⟩
    have t1 := h1.table r' hr'
    have t2 := h2.table r hr
    have := t1.map t2 (fun _ => T) (hm.query (.inr hqp)) (hm.masked (.inr hqp)) id id
      (fun j p hp _ => by rw [hm.nClosest]; exact (key j p hp).1)
    simp only [Option.map_id, List.map_id] at this
    obtain ⟨a, b, c⟩ := r'
    obtain ⟨a', b', c'⟩ := r
    have t := t1.shape_eq
    dsimp only at this t ⊢
    rw [this.1, this.2, ← t]
    exact hr'

end
end PyKrige
