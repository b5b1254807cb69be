import Verif.Lemmas.Continuity
import Verif.Lemmas.BlueMono
import Mathlib.Topology.Instances.Matrix

/-! The answers depend continuously on the whole input: limits of sequences. -/

set_option linter.unusedSectionVars false

namespace PyKrige
noncomputable section
open Spec Matrix Filter Topology

section answer
variable {ι κ : Type} [Fintype ι] [Fintype κ] [DecidableEq ι] [DecidableEq κ]

/-- Solutions of converging regular kriging systems converge. -/
theorem answers_tendsto {G : ι → ι → ℝ} {F : κ → ι → ℝ} {g z : ι → ℝ} {f : κ → ℝ} {w : ι → ℝ} {ν : κ → ℝ} {μ : ℝ}
    {G' : ℕ → ι → ι → ℝ} {F' : ℕ → κ → ι → ℝ} {g' z' : ℕ → ι → ℝ} {f' : ℕ → κ → ℝ} {w' : ℕ → ι → ℝ} {ν' : ℕ → κ → ℝ} {μ' : ℕ → ℝ}
    (hr : Regular G F) (hr' : ∀ k, Regular (G' k) (F' k))
    (e : KrigingEqs G F g f 1 w ν μ) (e' : ∀ k, KrigingEqs (G' k) (F' k) (g' k) (f' k) 1 (w' k) (ν' k) (μ' k))
    (hG : ∀ i j, Tendsto (fun k => G' k i j) atTop (𝓝 (G i j))) (hF : ∀ l i, Tendsto (fun k => F' k l i) atTop (𝓝 (F l i)))
    (hg : ∀ i, Tendsto (fun k => g' k i) atTop (𝓝 (g i))) (hf : ∀ l, Tendsto (fun k => f' k l) atTop (𝓝 (f l)))
    (hz : ∀ i, Tendsto (fun k => z' k i) atTop (𝓝 (z i))) :
    Tendsto (fun k => estimate (w' k) (z' k)) atTop (𝓝 (estimate w z)) ∧
    Tendsto (fun k => krigingVariance (g' k) (f' k) (w' k) (ν' k) (μ' k)) atTop (𝓝 (krigingVariance g f w ν μ)) := by
  have hM : Tendsto (fun k => krigMat (G' k) (F' k)) atTop (𝓝 (krigMat G F)) := by
    refine tendsto_pi_nhds.2 fun a => tendsto_pi_nhds.2 fun b => ?_
    rcases a with i | l | u <;> rcases b with j | m | u' <;>
      simp only [krigMat] <;> first | exact tendsto_const_nhds | skip
    all_goals first | exact (hG _ _).neg | exact (hF _ _)
  have hb : Tendsto (fun k => krigRhs (g' k) (f' k) 1) atTop (𝓝 (krigRhs g f 1)) := by
    refine tendsto_pi_nhds.2 fun a => ?_
    rcases a with i | l | u
    · exact (hg i).neg
    · exact hf l
    · exact tendsto_const_nhds
  have hdet : (krigMat G F).det ≠ 0 := (regular_iff_det G F).1 hr
  have hinv : Tendsto (fun k => (krigMat (G' k) (F' k))⁻¹) atTop (𝓝 (krigMat G F)⁻¹) := by
    have h1 : Tendsto (fun k => (krigMat (G' k) (F' k)).det) atTop (𝓝 (krigMat G F).det) :=
      ((continuous_id.matrix_det).tendsto _).comp hM
    have h2 : Tendsto (fun k => (krigMat (G' k) (F' k)).adjugate) atTop (𝓝 (krigMat G F).adjugate) :=
      ((continuous_id.matrix_adjugate).tendsto _).comp hM
    simp only [Matrix.inv_def, Ring.inverse_eq_inv']
    exact (h1.inv₀ hdet).smul h2
  have hx : Tendsto (fun k => (krigMat (G' k) (F' k))⁻¹ *ᵥ krigRhs (g' k) (f' k) 1) atTop (𝓝 ((krigMat G F)⁻¹ *ᵥ krigRhs g f 1)) := by
    refine tendsto_pi_nhds.2 fun a => ?_
    simp only [Matrix.mulVec, dotProduct]
    exact tendsto_finsetSum _ fun c _ => (tendsto_pi_nhds.1 (tendsto_pi_nhds.1 hinv a) c).mul (tendsto_pi_nhds.1 hb c)
  have hxa := tendsto_pi_nhds.1 hx
  have key : ∀ k, w' k = wOf ((krigMat (G' k) (F' k))⁻¹ *ᵥ krigRhs (g' k) (f' k) 1) ∧
      ν' k = nuOf ((krigMat (G' k) (F' k))⁻¹ *ᵥ krigRhs (g' k) (f' k) 1) ∧
      μ' k = muOf ((krigMat (G' k) (F' k))⁻¹ *ᵥ krigRhs (g' k) (f' k) 1) := fun k =>
    (e' k).unique (hr' k) (inv_solves ((regular_iff_det _ _).1 (hr' k)) _ _ _)
  obtain ⟨k1, k2, k3⟩ := e.unique hr (inv_solves hdet _ _ _)
  have hw : ∀ i, Tendsto (fun k => w' k i) atTop (𝓝 (w i)) := fun i => by
    rw [k1]; exact (hxa (.inl i)).congr fun k => by rw [(key k).1]; rfl
  have hν : ∀ l, Tendsto (fun k => ν' k l) atTop (𝓝 (ν l)) := fun l => by
    rw [k2]; exact (hxa (.inr (.inl l))).congr fun k => by rw [(key k).2.1]; rfl
  have hμ : Tendsto μ' atTop (𝓝 μ) := by
    rw [k3]; exact (hxa (.inr (.inr ()))).congr fun k => by rw [(key k).2.2]; rfl
  unfold estimate krigingVariance
  exact ⟨tendsto_finsetSum _ fun i _ => (hw i).mul (hz i), ((tendsto_finsetSum _ fun i _ => (hw i).mul (hg i)).sub
    (tendsto_finsetSum _ fun l _ => (hν l).mul (hf l))).sub hμ⟩

end answer

/-- Variograms `γ' k` converge to `γ`, locally uniformly: along converging distances their values converge. -/
def Spec.VariogramsConverge (γ' : ℕ → ℝ → ℝ) (γ : ℝ → ℝ) : Prop :=
  ∀ (d' : ℕ → ℝ) (d : ℝ), (∀ k, 0 ≤ d' k) → 0 ≤ d → Tendsto d' atTop (𝓝 d) → Tendsto (fun k => γ' k (d' k)) atTop (𝓝 (γ d))

theorem semivar_tendsto {n : ℕ} {γ' : ℕ → ℝ → ℝ} {γ : ℝ → ℝ} (hc : VariogramsConverge γ' γ) {D' : ℕ → Fin n → Fin n → ℝ}
    {D : Fin n → Fin n → ℝ} (h0' : ∀ k i j, 0 ≤ D' k i j) (h0 : ∀ i j, 0 ≤ D i j)
    (hD : ∀ i j, Tendsto (fun k => D' k i j) atTop (𝓝 (D i j))) (i j : Fin n) :
    Tendsto (fun k => semivar (γ' k) (D' k) i j) atTop (𝓝 (semivar γ D i j)) := by
  unfold semivar
  by_cases h : i = j
  · simp [h]
  · simp only [if_neg h]
    exact hc _ _ (fun k => h0' k i j) (h0 i j) (hD i j)

theorem semivarTo_tendsto {n : ℕ} {γ' : ℕ → ℝ → ℝ} {γ : ℝ → ℝ} (hc : VariogramsConverge γ' γ) {d' : ℕ → Fin n → ℝ}
    {d : Fin n → ℝ} (h0' : ∀ k i, 0 ≤ d' k i) (h0 : ∀ i, 0 ≤ d i) (hd : ∀ i, Tendsto (fun k => d' k i) atTop (𝓝 (d i)))
    {exact : Bool} (he : exact = true → ∀ i, d i ≠ 1 / 10 ^ 10) (i : Fin n) :
    Tendsto (fun k => semivarTo exact (γ' k) (d' k) i) atTop (𝓝 (semivarTo exact γ d i)) := by
  have h1 := hc _ _ (fun k => h0' k i) (h0 i) (hd i)
  unfold semivarTo
  cases exact with
  | false => simpa using h1
  | true =>
    simp only [true_and]
    rcases lt_or_gt_of_ne (he rfl i) with h | h
    · rw [if_pos h.le]
      refine tendsto_const_nhds.congr' ?_
      filter_upwards [(hd i).eventually_lt_const h] with k hk
      rw [if_pos hk.le]
    · rw [if_neg (not_le.2 h)]
      refine h1.congr' ?_
      filter_upwards [(hd i).eventually_const_lt h] with k hk
      rw [if_neg (not_le.2 hk)]

theorem anisoDist2_tendsto {sc' an' : ℕ → ℝ} {sc an : ℝ} {p' q' : ℕ → ℝ × ℝ} {p q : ℝ × ℝ} (hs : Tendsto sc' atTop (𝓝 sc))
    (ha : Tendsto an' atTop (𝓝 an)) (hp : Tendsto p' atTop (𝓝 p)) (hq : Tendsto q' atTop (𝓝 q)) :
    Tendsto (fun k => anisoDist2 (sc' k) (an' k) (p' k) (q' k)) atTop (𝓝 (anisoDist2 sc an p q)) := by
  have hc : Continuous fun t : ℝ × ℝ × (ℝ × ℝ) × (ℝ × ℝ) => anisoDist2 t.1 t.2.1 t.2.2.1 t.2.2.2 := by
    unfold anisoDist2 rad
    fun_prop
  have ht : Tendsto (fun k => (sc' k, an' k, p' k, q' k)) atTop (𝓝 (sc, an, p, q)) :=
    hs.prodMk_nhds (ha.prodMk_nhds (hp.prodMk_nhds hq))
  have h2 := (hc.tendsto (sc, an, p, q)).comp ht
  simpa only [Function.comp_def] using h2

theorem sphereDist_tendsto {p' q' : ℕ → ℝ × ℝ} {p q : ℝ × ℝ} (hp : Tendsto p' atTop (𝓝 p)) (hq : Tendsto q' atTop (𝓝 q)) :
    Tendsto (fun k => sphereDist (p' k) (q' k)) atTop (𝓝 (sphereDist p q)) := by
  unfold sphereDist
  refine Tendsto.const_mul _ ?_
  have := InnerProductGeometry.continuousAt_angle (x := (onSphere p, onSphere q)) (onSphere_ne_zero p) (onSphere_ne_zero q)
  have h1 : Tendsto (fun k => onSphere (p' k)) atTop (𝓝 (onSphere p)) := (onSphere_continuous.tendsto p).comp hp
  have h2 : Tendsto (fun k => onSphere (q' k)) atTop (𝓝 (onSphere q)) := (onSphere_continuous.tendsto q).comp hq
  exact Tendsto.comp (f := fun k => (onSphere (p' k), onSphere (q' k)))
    (g := fun y : EuclideanSpace ℝ (Fin 3) × EuclideanSpace ℝ (Fin 3) => InnerProductGeometry.angle y.1 y.2) this (h1.prodMk_nhds h2)

theorem distance2_tendsto {ct : String} {sc' an' : ℕ → ℝ} {sc an : ℝ} {p' q' : ℕ → ℝ × ℝ} {p q : ℝ × ℝ} (hs : Tendsto sc' atTop (𝓝 sc))
    (ha : Tendsto an' atTop (𝓝 an)) (hp : Tendsto p' atTop (𝓝 p)) (hq : Tendsto q' atTop (𝓝 q)) :
    Tendsto (fun k => distance2 ct (sc' k) (an' k) (p' k) (q' k)) atTop (𝓝 (distance2 ct sc an p q)) := by
  unfold distance2
  split
  · exact anisoDist2_tendsto hs ha hp hq
  · exact sphereDist_tendsto hp hq

/-- Three-dimensional anisotropies converge. -/
structure Spec.AnisoConverges (an' : ℕ → Aniso3) (an : Aniso3) : Prop where
  scalingY : Tendsto (fun k => (an' k).scalingY) atTop (𝓝 an.scalingY)
  scalingZ : Tendsto (fun k => (an' k).scalingZ) atTop (𝓝 an.scalingZ)
  angleX : Tendsto (fun k => (an' k).angleX) atTop (𝓝 an.angleX)
  angleY : Tendsto (fun k => (an' k).angleY) atTop (𝓝 an.angleY)
  angleZ : Tendsto (fun k => (an' k).angleZ) atTop (𝓝 an.angleZ)

theorem Spec.AnisoConverges.all {an' : ℕ → Aniso3} {an : Aniso3} (h : AnisoConverges an' an) :
    Tendsto (fun k => (((an' k).scalingY, (an' k).scalingZ), (an' k).angleX, (an' k).angleY, (an' k).angleZ)) atTop
      (𝓝 ((an.scalingY, an.scalingZ), an.angleX, an.angleY, an.angleZ)) :=
  (h.scalingY.prodMk_nhds h.scalingZ).prodMk_nhds (h.angleX.prodMk_nhds (h.angleY.prodMk_nhds h.angleZ))

theorem distance3_tendsto {an' : ℕ → Aniso3} {an : Aniso3} (ha : AnisoConverges an' an) {p' q' : ℕ → ℝ × ℝ × ℝ} {p q : ℝ × ℝ × ℝ}
    (hp : Tendsto p' atTop (𝓝 p)) (hq : Tendsto q' atTop (𝓝 q)) :
    Tendsto (fun k => distance3 (an' k) (p' k) (q' k)) atTop (𝓝 (distance3 an p q)) := by
  have hc : Continuous fun t : ((ℝ × ℝ) × ℝ × ℝ × ℝ) × (ℝ × ℝ × ℝ) × (ℝ × ℝ × ℝ) =>
      distance3 { scalingY := t.1.1.1, scalingZ := t.1.1.2, angleX := t.1.2.1, angleY := t.1.2.2.1, angleZ := t.1.2.2.2 }
        t.2.1 t.2.2 := by
    unfold distance3 rotZ rotY rotX rad
    simp only [Prod.fst_sub, Prod.snd_sub]
    fun_prop
  have h2 := (hc.tendsto (((an.scalingY, an.scalingZ), an.angleX, an.angleY, an.angleZ), p, q)).comp
    (ha.all.prodMk_nhds (hp.prodMk_nhds hq))
  simpa only [Function.comp_def] using h2

theorem foldl_tendsto {op : ℝ → ℝ → ℝ} (hop : Continuous fun p : ℝ × ℝ => op p.1 p.2) :
    ∀ {n : ℕ} {v' : ℕ → Fin n → ℝ} {v : Fin n → ℝ} {a' : ℕ → ℝ} {a : ℝ}, (∀ i, Tendsto (fun k => v' k i) atTop (𝓝 (v i))) →
      Tendsto a' atTop (𝓝 a) → Tendsto (fun k => (List.ofFn (v' k)).foldl op (a' k)) atTop (𝓝 ((List.ofFn v).foldl op a)) := by
  intro n
  induction n with
  | zero => intro v' v a' a hv ha; simpa using ha
  | succ n ih =>
    intro v' v a' a hv ha
    simp only [List.ofFn_succ, List.foldl_cons]
    exact ih (fun i => hv i.succ) ((hop.tendsto (a, v 0)).comp (ha.prodMk_nhds (hv 0)))

theorem midrange_tendsto {n : ℕ} {v' : ℕ → Fin n → ℝ} {v : Fin n → ℝ} (hv : ∀ i, Tendsto (fun k => v' k i) atTop (𝓝 (v i)))
    {c' : ℕ → ℝ} {c : ℝ} (hc' : ∀ k, midrange (v' k) = .ok (c' k)) (hc : midrange v = .ok c) : Tendsto c' atTop (𝓝 c) := by
  cases n with
  | zero => simp [midrange, amax] at hc
  | succ n =>
    have e : ∀ {u : Fin (n + 1) → ℝ} {b : ℝ}, midrange u = .ok b →
        b = ((List.ofFn fun i => u (Fin.succ i)).foldl max (u 0) + (List.ofFn fun i => u (Fin.succ i)).foldl min (u 0)) / 2 := by
      intro u b hb
      unfold midrange at hb
      rw [List.ofFn_succ] at hb
      exact (Except.ok.inj hb).symm
    rw [e hc, show c' = fun k => _ from funext fun k => e (hc' k)]
    exact ((foldl_tendsto continuous_max (fun i => hv i.succ) (hv 0)).add
      (foldl_tendsto continuous_min (fun i => hv i.succ) (hv 0))).div_const 2

/-- Lists of one length converge entry by entry. -/
structure ListConverges (L' : ℕ → List ℝ) (L : List ℝ) : Prop where
  len : ∀ k, (L' k).length = L.length
  lim : ∀ l, Tendsto (fun k => (L' k).getD l 0) atTop (𝓝 (L.getD l 0))

section lists
variable {L' M' : ℕ → List ℝ} {L M : List ℝ}

theorem ListConverges.nil : ListConverges (fun _ => []) [] := ⟨fun _ => rfl, fun _ => by simp⟩

theorem ListConverges.const (L : List ℝ) : ListConverges (fun _ => L) L := ⟨fun _ => rfl, fun _ => tendsto_const_nhds⟩

theorem ListConverges.cons {a' : ℕ → ℝ} {a : ℝ} (ha : Tendsto a' atTop (𝓝 a)) (h : ListConverges L' L) :
    ListConverges (fun k => a' k :: L' k) (a :: L) := by
  refine ⟨fun k => by simp [h.len k], fun l => ?_⟩
  cases l with
  | zero => simpa using ha
  | succ l => simpa using h.lim l

theorem ListConverges.append (h : ListConverges L' L) (h' : ListConverges M' M) : ListConverges (fun k => L' k ++ M' k) (L ++ M) := by
  refine ⟨fun k => by simp [h.len k, h'.len k], fun l => ?_⟩
  by_cases hl : l < L.length
  · have e : ∀ k, (L' k ++ M' k).getD l 0 = (L' k).getD l 0 := fun k => by
      rw [List.getD_append _ _ _ _ (by rw [h.len k]; exact hl)]
    rw [List.getD_append _ _ _ _ hl]
    exact (h.lim l).congr fun k => (e k).symm
  · have e : ∀ k, (L' k ++ M' k).getD l 0 = (M' k).getD (l - L.length) 0 := fun k => by
      rw [List.getD_append_right _ _ _ _ (by rw [h.len k]; omega), h.len k]
    rw [List.getD_append_right _ _ _ _ (by omega)]
    exact (h'.lim _).congr fun k => (e k).symm

theorem ListConverges.map {β : Type} {g' : ℕ → β → ℝ} {g : β → ℝ} :
    ∀ (l : List β), (∀ b ∈ l, Tendsto (fun k => g' k b) atTop (𝓝 (g b))) → ListConverges (fun k => l.map (g' k)) (l.map g)
  | [], _ => .nil
  | b :: l, h => .cons (h b (by simp)) (ListConverges.map l fun c hc => h c (by simp [hc]))

theorem ListConverges.when {c : Prop} [Decidable c] (h : c → ListConverges L' L) :
    ListConverges (fun k => if c then L' k else []) (if c then L else []) := by
  by_cases hc : c
  · simpa [hc] using h hc
  · simpa [hc] using ListConverges.nil

end lists

end
end PyKrige
