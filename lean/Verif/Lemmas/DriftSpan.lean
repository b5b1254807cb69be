import Verif.Lemmas.UKValid
import Verif.Lemmas.MetricCongr
import Verif.Lemmas.ArgDist
import Verif.Lemmas.OnlyDist

/-! Universal kriging depends on the drift functions only through the space they span together with the constants. -/

set_option linter.unusedSectionVars false

namespace PyKrige
noncomputable section
open Matrix Spec

/-- The drift functions `F'`, `f'` are combinations `A F + c` of `F`, `f`, which are combinations `B F' + d`
of them, and no combination is repeated. -/
structure SameSpan {ι κ κ' : Type} [Fintype κ] [Fintype κ'] (F : κ → ι → ℝ) (f : κ → ℝ) (F' : κ' → ι → ℝ) (f' : κ' → ℝ)
    (A : κ' → κ → ℝ) (B : κ → κ' → ℝ) (c : κ' → ℝ) (d : κ → ℝ) : Prop where
  fwd : ∀ l i, F' l i = ∑ m, A l m * F m i + c l
  fwd_at : ∀ l, f' l = ∑ m, A l m * f m + c l
  bwd : ∀ l i, F l i = ∑ m, B l m * F' m i + d l
  bwd_at : ∀ l, f l = ∑ m, B l m * f' m + d l

section
variable {ι κ κ' : Type} [Fintype ι] [Fintype κ] [Fintype κ'] [DecidableEq ι] [DecidableEq κ] [DecidableEq κ']
variable {F : κ → ι → ℝ} {f : κ → ℝ} {F' : κ' → ι → ℝ} {f' : κ' → ℝ} {A : κ' → κ → ℝ} {B : κ → κ' → ℝ}
  {c : κ' → ℝ} {d : κ → ℝ} {G : ι → ι → ℝ}

/-- Solutions correspond. -/
theorem change_drift {g w : ι → ℝ} {ν : κ → ℝ} {μ s : ℝ}
    (h1 : ∀ l i, F' l i = ∑ m, A l m * F m i + c l) (h2 : ∀ l, f' l = ∑ m, A l m * f m + s * c l)
    (h3 : ∀ l i, F l i = ∑ m, B l m * F' m i + d l)
    (h : KrigingEqs G F g f s w ν μ) :
    KrigingEqs G F' g f' s w (fun m => ∑ l, B l m * ν l) (μ + ∑ l, d l * ν l) := by
  refine ⟨fun i => ?_, fun l => ?_, h.unbiased⟩
  · have e : ∑ l, F l i * ν l = ∑ m, F' m i * ∑ l, B l m * ν l + ∑ l, d l * ν l := by
      simp only [h3, add_mul, Finset.sum_add_distrib, Finset.mul_sum, Finset.sum_mul]
      rw [Finset.sum_comm]
      congr 1
      refine Finset.sum_congr rfl fun m _ => Finset.sum_congr rfl fun l _ => ?_
      ring
    have := h.stationary i
    rw [e] at this
    linarith
  · rw [h2]
    have e : ∑ i, F' l i * w i = ∑ m, A l m * ∑ i, F m i * w i + c l * ∑ i, w i := by
      simp only [h1, add_mul, Finset.sum_add_distrib, Finset.mul_sum, Finset.sum_mul]
      rw [Finset.sum_comm]
      congr 1
      refine Finset.sum_congr rfl fun m _ => Finset.sum_congr rfl fun l _ => ?_
      ring
    rw [e, h.unbiased]
    simp only [h.drift]
    ring

theorem regular_span (h : SameSpan F f F' f' A B c d) (hAB : ∀ l m, ∑ k, A l k * B k m = if l = m then 1 else 0)
    (hr : Regular G F) : Regular G F' := by
  intro w ν μ hk
  have hk' : KrigingEqs G F' 0 (0 : κ' → ℝ) 0 w ν μ := hk
  have := change_drift (f' := (0 : κ → ℝ)) h.bwd (by simp) h.fwd hk'
  obtain ⟨h1, h2, h3⟩ := hr _ _ _ this
  have hν : ν = 0 := by
    funext m
    have e : ∑ k, B k m * ∑ l, A l k * ν l = ν m := by
      simp only [Finset.mul_sum]
      rw [Finset.sum_comm]
      have : ∀ l, ∑ k, B k m * (A l k * ν l) = (if l = m then 1 else 0) * ν l := by
        intro l
        rw [← hAB, Finset.sum_mul]
        exact Finset.sum_congr rfl fun k _ => by ring
      simp [this]
    rw [← e]
    have : ∀ k, ∑ l, A l k * ν l = 0 := fun k => congrFun h2 k
    simp [this]
  refine ⟨h1, hν, ?_⟩
  rw [hν] at h3
  simpa using h3

theorem krigAnswer_span (h : SameSpan F f F' f' A B c d) (hAB : ∀ l m, ∑ k, A l k * B k m = if l = m then 1 else 0)
    (hr : Regular G F) (b b' : Bool) (z g : ι → ℝ) :
    krigAnswer b' G F' z g f' = krigAnswer b G F z g f := by
  obtain ⟨w, ν, μ, hk, e⟩ := krigAnswer_spec hr z g f
  rw [krigAnswer_of_regular hr, e, krigAnswer_eq (regular_span h hAB hr) b'
    (change_drift h.fwd (fun l => by rw [h.fwd_at]; ring) h.bwd hk)]
  refine Prod.ext rfl ?_
  unfold krigingVariance
  dsimp only
  have e2 : ∑ l, ν l * f l = ∑ m, (∑ l, B l m * ν l) * f' m + ∑ l, d l * ν l := by
    simp only [h.bwd_at, mul_add, Finset.sum_add_distrib, Finset.mul_sum, Finset.sum_mul]
    rw [Finset.sum_comm]
    congr 1
    · refine Finset.sum_congr rfl fun m _ => Finset.sum_congr rfl fun l _ => ?_
      ring
    · exact Finset.sum_congr rfl fun l _ => by ring
  rw [e2]
  ring

end

/-- `krigAnswer` with the drift functions in a list. -/
def krigAnswerL {n : ℕ} (b : Bool) (G : Fin n → Fin n → ℝ) (D : List (Fin n → ℝ)) (z g : Fin n → ℝ) (fl : List ℝ) :
    ℝ × ℝ := krigAnswer b G D.get z g (fun l => fl.getD l.val 0)

/-- Regularity with the drift functions in a list. -/
def RegularL {n : ℕ} (G : Fin n → Fin n → ℝ) (D : List (Fin n → ℝ)) : Prop := Regular G D.get

theorem UK.answer_eqL {n : ℕ} (s : UK n) (γ : ℝ → ℝ) (sv : List ℝ) (zext : ℝ) (p : ℝ × ℝ) :
    s.answer γ sv zext p = krigAnswerL s.pseudoInv (s.G γ) s.driftData s.Z (s.g γ p) (s.driftAt sv zext p) := rfl

theorem UK3D.answer_eqL {n : ℕ} (s : UK3D n) (γ : ℝ → ℝ) (sv : List ℝ) (p : ℝ × ℝ × ℝ) :
    s.answer γ sv p = krigAnswerL s.pseudoInv (s.G γ) s.driftData s.VALUES (s.g γ p) (s.driftAt sv p) := rfl

/-- Adding constants to the drift functions. -/
structure Shifted {n : ℕ} (D : List (Fin n → ℝ)) (fl : List ℝ) (D' : List (Fin n → ℝ)) (fl' : List ℝ) (c : List ℝ) :
    Prop where
  len : fl.length = D.length
  lenc : c.length = D.length
  data : D' = List.zipWith (fun u a => fun i => u i + a) D c
  at_ : fl' = List.zipWith (fun u a => u + a) fl c

theorem Shifted.span {n : ℕ} {D D' : List (Fin n → ℝ)} {fl fl' c : List ℝ} (h : Shifted D fl D' fl' c) :
    SameSpan D.get (fun l => fl.getD l.val 0) D'.get (fun l => fl'.getD l.val 0)
      (fun l' l => if l'.val = l.val then 1 else 0) (fun l l' => if l.val = l'.val then 1 else 0)
      (fun l' => c.getD l'.val 0) (fun l => -c.getD l.val 0) ∧ D'.length = D.length := by
  obtain ⟨h1, h2, rfl, rfl⟩ := h
  have hl : (List.zipWith (fun (u : Fin n → ℝ) a => fun i => u i + a) D c).length = D.length := by simp [h2]
  have s1 : ∀ (l : Fin (List.zipWith (fun (u : Fin n → ℝ) a => fun i => u i + a) D c).length) (u : Fin D.length → ℝ),
      ∑ m : Fin D.length, (if l.val = m.val then 1 else 0) * u m = u (l.cast hl) := by
    intro l u
    rw [Finset.sum_eq_single (l.cast hl)]
    · simp
    · intro m _ hm
      rw [if_neg (fun e => hm (Fin.ext e.symm)), zero_mul]
    · simp
  have s2 : ∀ (l : Fin D.length) (u : Fin (List.zipWith (fun (u : Fin n → ℝ) a => fun i => u i + a) D c).length → ℝ),
      ∑ m, (if l.val = m.val then 1 else 0) * u m = u (l.cast hl.symm) := by
    intro l u
    rw [Finset.sum_eq_single (l.cast hl.symm)]
    · simp
    · intro m _ hm
      rw [if_neg (fun e => hm (Fin.ext e.symm)), zero_mul]
    · simp
  refine ⟨⟨fun l i => ?_, fun l => ?_, fun l i => ?_, fun l => ?_⟩, hl⟩
  · rw [s1]
    have := l.isLt
    have hc : l.val < c.length := by omega
    simp [List.getElem?_eq_getElem hc]
  · rw [s1]
    have := l.isLt
    have hc : l.val < c.length := by omega
    have hf : l.val < fl.length := by omega
    simp [List.getElem?_eq_getElem hc, List.getElem?_eq_getElem hf, List.getElem?_zipWith]
  · rw [s2]
    have := l.isLt
    have hc : l.val < c.length := by omega
    simp [List.getElem?_eq_getElem hc]
  · rw [s2]
    have := l.isLt
    have hc : l.val < c.length := by omega
    have hf : l.val < fl.length := by omega
    simp [List.getElem?_eq_getElem hc, List.getElem?_eq_getElem hf, List.getElem?_zipWith]

theorem delta_comp {L L' : ℕ} (h : L' = L) (l m : Fin L') :
    ∑ k : Fin L, (if l.val = k.val then (1 : ℝ) else 0) * (if k.val = m.val then 1 else 0) = if l = m then 1 else 0 := by
  subst h
  rw [Finset.sum_eq_single l]
  · simp [Fin.ext_iff]
  · intro k _ hk
    rw [if_neg (fun e => hk (Fin.ext e.symm)), zero_mul]
  · simp

theorem Shifted.regular {n : ℕ} {D D' : List (Fin n → ℝ)} {fl fl' c : List ℝ} (h : Shifted D fl D' fl' c)
    {G : Fin n → Fin n → ℝ} (hr : RegularL G D) : RegularL G D' :=
  regular_span h.span.1 (delta_comp h.span.2) hr

theorem Shifted.answer {n : ℕ} {D D' : List (Fin n → ℝ)} {fl fl' c : List ℝ} (h : Shifted D fl D' fl' c)
    {G : Fin n → Fin n → ℝ} (hr : RegularL G D) (b b' : Bool) (z g : Fin n → ℝ) :
    krigAnswerL b' G D' z g fl' = krigAnswerL b G D z g fl :=
  krigAnswer_span h.span.1 (delta_comp h.span.2) hr b b' z g

theorem Shifted.append {n : ℕ} {D E D' E' : List (Fin n → ℝ)} {fl gl fl' gl' c d : List ℝ}
    (h : Shifted D fl D' fl' c) (h' : Shifted E gl E' gl' d) :
    Shifted (D ++ E) (fl ++ gl) (D' ++ E') (fl' ++ gl') (c ++ d) := by
  obtain ⟨h1, h2, rfl, rfl⟩ := h
  obtain ⟨h1', h2', rfl, rfl⟩ := h'
  refine ⟨by simp [h1, h1'], by simp [h2, h2'], ?_, ?_⟩
  · rw [List.zipWith_append (by omega)]
  · rw [List.zipWith_append (by omega)]

/-- Drift functions that do not change. -/
theorem Shifted.refl {n : ℕ} {D : List (Fin n → ℝ)} {fl : List ℝ} (h : fl.length = D.length) :
    Shifted D fl D fl (List.replicate D.length 0) := by
  refine ⟨h, by simp, ?_, ?_⟩
  · clear h
    induction D with
    | nil => rfl
    | cons a D ih => simp [List.replicate_succ, ← ih]
  · rw [← h]
    clear h
    induction fl with
    | nil => rfl
    | cons a D ih => simp [List.replicate_succ, ← ih]

end
end PyKrige
