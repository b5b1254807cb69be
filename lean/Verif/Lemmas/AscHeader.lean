import Verif.Lemmas.AscRead
import Mathlib.Data.List.Perm.Basic
import Mathlib.Data.List.Nodup

/-! The header of an ASC file, line by line. -/

namespace PyKrige
open Spec

/-- The variables of the header. -/
inductive Field
  | ncols | nrows | xcorner | xcenter | ycorner | ycenter | cell | dx | dy | noData
  deriving DecidableEq

/-- The variable a keyword stands for. -/
def fieldOf (k : Text) : Option Field :=
  if k = "ncols".toList then some .ncols
  else if k = "nrows".toList then some .nrows
  else if k = "xllcorner".toList then some .xcorner
  else if k = "xllcenter".toList then some .xcenter
  else if k = "yllcorner".toList then some .ycorner
  else if k = "yllcenter".toList then some .ycenter
  else if k = "cellsize".toList then some .cell
  else if k = "cell_size".toList then some .cell
  else if k = "dx".toList then some .dx
  else if k = "dy".toList then some .dy
  else if k = "nodata_value".toList then some .noData
  else if k = "nodatavalue".toList then some .noData
  else none

/-- Setting one variable from a text. -/
def AscHeader.put (h : AscHeader) (f : Field) (value : Text) : Py AscHeader :=
  match f with
  | .ncols => (fun v => { h with ncols := some v }) <$> pyInt value
  | .nrows => (fun v => { h with nrows := some v }) <$> pyInt value
  | .xcorner => (fun v => { h with xllcorner := some v }) <$> pyCoord value
  | .xcenter => (fun v => { h with xllcenter := some v }) <$> pyCoord value
  | .ycorner => (fun v => { h with yllcorner := some v }) <$> pyCoord value
  | .ycenter => (fun v => { h with yllcenter := some v }) <$> pyCoord value
  | .cell => (fun v => { h with cellsize := some v }) <$> pyCoord value
  | .dx => (fun v => { h with dx := some v }) <$> pyCoord value
  | .dy => (fun v => { h with dy := some v }) <$> pyCoord value
  | .noData => (fun v => { h with noData := some v }) <$> pyFloat value

theorem AscHeader.set_eq (h : AscHeader) (key value : Text) :
    h.set key value = match fieldOf (lower key) with | some f => h.put f value | none => .error .ioError := by
  unfold AscHeader.set fieldOf
  dsimp only
  generalize lower key = k
  by_cases h1 : k = "ncols".toList
  · rw [if_pos h1, if_pos h1]; rfl
  rw [if_neg h1, if_neg h1]
  clear h1
  by_cases h1 : k = "nrows".toList
  · rw [if_pos h1, if_pos h1]; rfl
  rw [if_neg h1, if_neg h1]
  clear h1
  by_cases h1 : k = "xllcorner".toList
  · rw [if_pos h1, if_pos h1]; rfl
  rw [if_neg h1, if_neg h1]
  clear h1
  by_cases h1 : k = "xllcenter".toList
  · rw [if_pos h1, if_pos h1]; rfl
  rw [if_neg h1, if_neg h1]
  clear h1
  by_cases h1 : k = "yllcorner".toList
  · rw [if_pos h1, if_pos h1]; rfl
  rw [if_neg h1, if_neg h1]
  clear h1
  by_cases h1 : k = "yllcenter".toList
  · rw [if_pos h1, if_pos h1]; rfl
  rw [if_neg h1, if_neg h1]
  clear h1
  by_cases h1 : k = "cellsize".toList
  · rw [if_pos h1, if_pos h1]; rfl
  rw [if_neg h1, if_neg h1]
  clear h1
  by_cases h1 : k = "cell_size".toList
  · rw [if_pos h1, if_pos h1]; rfl
  rw [if_neg h1, if_neg h1]
  clear h1
  by_cases h1 : k = "dx".toList
  · rw [if_pos h1, if_pos h1]; rfl
  rw [if_neg h1, if_neg h1]
  clear h1
  by_cases h1 : k = "dy".toList
  · rw [if_pos h1, if_pos h1]; rfl
  rw [if_neg h1, if_neg h1]
  clear h1
  by_cases h1 : k = "nodata_value".toList
  · rw [if_pos h1, if_pos h1]; rfl
  rw [if_neg h1, if_neg h1]
  clear h1
  by_cases h1 : k = "nodatavalue".toList
  · rw [if_pos h1, if_pos h1]; rfl
  rw [if_neg h1, if_neg h1]

/-- Which variables have a value. -/
def AscHeader.has (h : AscHeader) : Field → Bool
  | .ncols => h.ncols.isSome
  | .nrows => h.nrows.isSome
  | .xcorner => h.xllcorner.isSome
  | .xcenter => h.xllcenter.isSome
  | .ycorner => h.yllcorner.isSome
  | .ycenter => h.yllcenter.isSome
  | .cell => h.cellsize.isSome
  | .dx => h.dx.isSome
  | .dy => h.dy.isSome
  | .noData => h.noData.isSome

/-- The condition for the end of the header in terms of the variables that have a value. -/
def completeFor (s : Field → Bool) : Bool :=
  s .ncols && s .nrows && ((s .xcorner && s .ycorner) || (s .xcenter && s .ycenter)) &&
    (s .cell || (s .dx && s .dy)) && s .noData

theorem AscHeader.complete_eq (h : AscHeader) : h.complete = completeFor h.has := rfl

theorem completeFor_mono {s t : Field → Bool} (h : ∀ f, s f = true → t f = true) (hs : completeFor s = true) :
    completeFor t = true := by
  unfold completeFor at *
  simp only [Bool.and_eq_true, Bool.or_eq_true] at *
  obtain ⟨⟨⟨⟨h1, h2⟩, h3⟩, h4⟩, h5⟩ := hs
  exact ⟨⟨⟨⟨h _ h1, h _ h2⟩, h3.imp (fun p => ⟨h _ p.1, h _ p.2⟩) (fun p => ⟨h _ p.1, h _ p.2⟩)⟩,
    h4.imp (h _) (fun p => ⟨h _ p.1, h _ p.2⟩)⟩, h _ h5⟩

theorem AscHeader.put_has {h h' : AscHeader} {f : Field} {v : Text} (e : h.put f v = .ok h') (g : Field) :
    h'.has g = (decide (g = f) || h.has g) := by
  unfold AscHeader.put at e
  cases f <;>
  · dsimp only at e
    obtain ⟨a, -, rfl⟩ := py_map_eq_ok.1 e
    cases g <;> rfl

theorem pyInt_error {v : Text} {e : PyErr} (h : pyInt v = .error e) : e = .valueError := by
  unfold pyInt at h
  split at h <;> cases h
  rfl

theorem pyCoord_error {v : Text} {e : PyErr} (h : pyCoord v = .error e) : e = .valueError := by
  unfold pyCoord at h
  split at h <;> cases h
  rfl

theorem pyFloat_error {v : Text} {e : PyErr} (h : pyFloat v = .error e) : e = .valueError := by
  unfold pyFloat at h
  split at h <;> cases h
  rfl

/-- The text can be read as a value of the variable. -/
def readable (f : Field) (v : Text) : Bool :=
  match f with
  | .ncols | .nrows => (pyInt v).isOk
  | .noData => (pyFloat v).isOk
  | _ => (pyCoord v).isOk

theorem AscHeader.put_cases (h : AscHeader) (f : Field) (v : Text) :
    (readable f v = true ∧ ∃ h', h.put f v = .ok h') ∨ (readable f v = false ∧ h.put f v = .error .valueError) := by
  cases f <;> simp only [AscHeader.put, readable]
  all_goals first
    | (cases hv : pyInt v with
       | ok a => exact .inl ⟨rfl, _, rfl⟩
       | error e => obtain rfl := pyInt_error hv; exact .inr ⟨rfl, rfl⟩)
    | (cases hv : pyCoord v with
       | ok a => exact .inl ⟨rfl, _, rfl⟩
       | error e => obtain rfl := pyCoord_error hv; exact .inr ⟨rfl, rfl⟩)
    | (cases hv : pyFloat v with
       | ok a => exact .inl ⟨rfl, _, rfl⟩
       | error e => obtain rfl := pyFloat_error hv; exact .inr ⟨rfl, rfl⟩)

/-- Setting two different variables: the order does not matter. -/
theorem AscHeader.put_comm (h : AscHeader) {f g : Field} (hfg : f ≠ g) (v w : Text) :
    (h.put f v >>= fun h => h.put g w) = (h.put g w >>= fun h => h.put f v) := by
  rcases h.put_cases f v with ⟨hv, a, ha⟩ | ⟨hv, ha⟩ <;> rcases h.put_cases g w with ⟨hw, b, hb⟩ | ⟨hw, hb⟩
  · rw [ha, hb, py_ok_bind, py_ok_bind]
    cases f <;> cases g <;> first
      | exact absurd rfl hfg
      | (simp only [AscHeader.put] at ha hb ⊢
         obtain ⟨a', ha', rfl⟩ := py_map_eq_ok.1 ha
         obtain ⟨b', hb', rfl⟩ := py_map_eq_ok.1 hb
         rw [ha', hb']
         rfl)
  · rw [ha, hb, py_ok_bind]
    rcases a.put_cases g w with ⟨hw', -⟩ | ⟨-, e⟩
    · rw [hw] at hw'; cases hw'
    · rw [e]; rfl
  · rw [ha, hb, py_ok_bind]
    rcases b.put_cases f v with ⟨hv', -⟩ | ⟨-, e⟩
    · rw [hv] at hv'; cases hv'
    · rw [e]; rfl
  · rw [ha, hb]; rfl

/-- All lines of a header in turn. -/
def putAll (h : AscHeader) : List (Field × Text) → Py AscHeader
  | [] => .ok h
  | p :: l => do putAll (← h.put p.1 p.2) l

theorem putAll_perm {l l' : List (Field × Text)} (hp : l.Perm l') :
    (l.map Prod.fst).Nodup → ∀ h, putAll h l = putAll h l' := by
  induction hp with
  | nil => intro _ h; rfl
  | cons p _ ih =>
    intro hn h
    rw [List.map_cons, List.nodup_cons] at hn
    unfold putAll
    exact congrArg _ (funext fun h' => ih hn.2 h')
  | swap p q l =>
    intro hn h
    have hne : q.1 ≠ p.1 := by
      rw [List.map_cons, List.map_cons, List.nodup_cons] at hn
      exact fun e => hn.1 (by rw [e]; simp)
    have := h.put_comm hne q.2 p.2
    simp only [putAll]
    rw [← bind_assoc, ← bind_assoc, this]
  | trans h1 _ ih1 ih2 =>
    intro hn h
    rw [ih1 hn h, ih2 ((h1.map Prod.fst).nodup_iff.1 hn) h]

theorem putAll_has {l : List (Field × Text)} {h h' : AscHeader} (e : putAll h l = .ok h') (g : Field) :
    h'.has g = (decide (g ∈ l.map Prod.fst) || h.has g) := by
  induction l generalizing h with
  | nil => cases e; simp
  | cons p l ih =>
    obtain ⟨h1, e1, e2⟩ := py_bind_eq_ok.1 e
    rw [ih e2, AscHeader.put_has e1]
    by_cases hg : g = p.1 <;> by_cases hl : g ∈ l.map Prod.fst <;> simp [hg, hl]

/-- Reading the lines of a header none of whose beginnings is complete. -/
theorem readAscHeader_all {h : AscHeader} {lines : List Text} {l : List (Field × Text)}
    (hl : List.Forall₂ (fun t p => ∃ key, pySplit t = [key, p.2] ∧ fieldOf (lower key) = some p.1) lines l)
    (hne : l ≠ []) (hinc : ∀ l1 l2, l1 ++ l2 = l → l2 ≠ [] → ∀ h', putAll h l1 = .ok h' → h'.complete = false)
    (hcomp : ∀ h', putAll h l = .ok h' → h'.complete = true) (rest : List Text) :
    readAscHeader h (lines ++ rest) = (fun h' => (h', rest)) <$> putAll h l := by
  induction hl generalizing h with
  | nil => exact absurd rfl hne
  | @cons t p lines l hp hl ih =>
    obtain ⟨key, hs, hf⟩ := hp
    rw [List.cons_append, readAscHeader, hs]
    dsimp only
    rw [AscHeader.set_eq, hf]
    dsimp only
    simp only [putAll]
    cases hput : h.put p.1 p.2 with
    | error e => rfl
    | ok h1 =>
      rw [py_ok_bind, py_ok_bind]
      cases l with
      | nil =>
        cases hl
        rw [if_pos (hcomp h1 (by simp only [putAll, hput]; rfl))]
        rfl
      | cons q l =>
        have h0 : h1.complete = false := hinc [p] (q :: l) rfl (by simp) h1 (by simp only [putAll, hput]; rfl)
        rw [if_neg (by rw [h0]; simp)]
        refine ih (by simp) ?_ ?_
        · intro l1 l2 e1 e2 h' e3
          exact hinc (p :: l1) l2 (by rw [List.cons_append, e1]) e2 h' (by simp only [putAll, hput]; exact e3)
        · intro h' e3
          exact hcomp h' (by simp only [putAll, hput]; exact e3)

/-- The header variables of a complete header without anything superfluous. -/
def standardFields : List (List Field) :=
  [[.ncols, .nrows, .xcorner, .ycorner, .cell, .noData], [.ncols, .nrows, .xcenter, .ycenter, .cell, .noData],
   [.ncols, .nrows, .xcorner, .ycorner, .dx, .dy, .noData], [.ncols, .nrows, .xcenter, .ycenter, .dx, .dy, .noData]]

theorem standard_complete {S : List Field} (hS : S ∈ standardFields) : completeFor (fun g => decide (g ∈ S)) = true := by
  simp only [standardFields, List.mem_cons, List.not_mem_nil, or_false] at hS
  rcases hS with rfl | rfl | rfl | rfl <;> decide

theorem standard_minimal {S : List Field} (hS : S ∈ standardFields) {f : Field} (hf : f ∈ S) :
    completeFor (fun g => decide (g ∈ S ∧ g ≠ f)) = false := by
  simp only [standardFields, List.mem_cons, List.not_mem_nil, or_false] at hS
  rcases hS with rfl | rfl | rfl | rfl <;>
  · simp only [List.mem_cons, List.not_mem_nil, or_false] at hf
    rcases hf with rfl | rfl | rfl | rfl | rfl | rfl | rfl <;> decide

theorem standard_nodup {S : List Field} (hS : S ∈ standardFields) : S.Nodup := by
  simp only [standardFields, List.mem_cons, List.not_mem_nil, or_false] at hS
  rcases hS with rfl | rfl | rfl | rfl <;> decide

/-- A header with the variables `S` in any order is incomplete until its last line. -/
theorem standard_incomplete {S : List Field} (hS : S ∈ standardFields) {l1 l2 : List (Field × Text)}
    (hp : ((l1 ++ l2).map Prod.fst).Perm S) (hne : l2 ≠ []) {h' : AscHeader} (e : putAll {} l1 = .ok h') :
    h'.complete = false := by
  obtain ⟨p, l2, rfl⟩ := List.exists_cons_of_ne_nil hne
  have hn : ((l1 ++ p :: l2).map Prod.fst).Nodup := hp.nodup_iff.2 (standard_nodup hS)
  rw [List.map_append, List.map_cons] at hn hp
  have hpS : p.1 ∈ S := hp.subset (by simp)
  by_contra hc
  have hc : h'.complete = true := by simpa using hc
  rw [AscHeader.complete_eq] at hc
  have := completeFor_mono (t := fun g => decide (g ∈ S ∧ g ≠ p.1)) (fun g hg => ?_) hc
  · rw [standard_minimal hS hpS] at this
    cases this
  · rw [putAll_has e] at hg
    have h0 : ({} : AscHeader).has g = false := by cases g <;> rfl
    rw [h0, Bool.or_false, decide_eq_true_eq] at hg
    rw [decide_eq_true_eq]
    refine ⟨hp.subset (by simp [List.mem_append.2 (.inl hg)]), ?_⟩
    rintro rfl
    exact (List.nodup_append.1 hn).2.2 _ hg _ (by simp) rfl

theorem readAscHeader_standard {S : List Field} (hS : S ∈ standardFields) {lines : List Text} {l : List (Field × Text)}
    (hl : List.Forall₂ (fun t p => ∃ key, pySplit t = [key, p.2] ∧ fieldOf (lower key) = some p.1) lines l)
    (hp : (l.map Prod.fst).Perm S) (rest : List Text) :
    readAscHeader {} (lines ++ rest) = (fun h' => (h', rest)) <$> putAll {} l := by
  refine readAscHeader_all hl ?_ ?_ ?_ rest
  · rintro rfl
    have := hp.length_eq
    simp only [standardFields, List.mem_cons, List.not_mem_nil, or_false] at hS
    rcases hS with rfl | rfl | rfl | rfl <;> simp at this
  · rintro l1 l2 rfl hne h' e
    exact standard_incomplete hS hp hne e
  · intro h' e
    rw [AscHeader.complete_eq]
    refine completeFor_mono (fun g hg => ?_) (standard_complete hS)
    rw [putAll_has e]
    simp only [decide_eq_true_eq] at hg
    simp only [Bool.or_eq_true, decide_eq_true_eq]
    exact .inl (hp.symm.subset hg)

theorem AscHeader.put_ncols {h h' : AscHeader} {f : Field} {v : Text} (e : h.put f v = .ok h') (hf : f ≠ .ncols) :
    h'.ncols = h.ncols := by
  unfold AscHeader.put at e
  cases f <;> first
  | exact absurd rfl hf
  | (dsimp only at e
     obtain ⟨a, -, rfl⟩ := py_map_eq_ok.1 e
     rfl)

theorem AscHeader.put_nrows {h h' : AscHeader} {f : Field} {v : Text} (e : h.put f v = .ok h') (hf : f ≠ .nrows) :
    h'.nrows = h.nrows := by
  unfold AscHeader.put at e
  cases f <;> first
  | exact absurd rfl hf
  | (dsimp only at e
     obtain ⟨a, -, rfl⟩ := py_map_eq_ok.1 e
     rfl)

theorem putAll_ncols {l : List (Field × Text)} {h h' : AscHeader} (e : putAll h l = .ok h')
    (hn : (l.map Prod.fst).Nodup) {a : Text} (ha : (Field.ncols, a) ∈ l) : ∃ n, pyInt a = .ok n ∧ h'.ncols = some n := by
  have keep : ∀ (l : List (Field × Text)) (h h' : AscHeader), putAll h l = .ok h' → Field.ncols ∉ l.map Prod.fst →
      h'.ncols = h.ncols := by
    intro l
    induction l with
    | nil => intro h h' e _; cases e; rfl
    | cons p l ih =>
      intro h h' e hn
      rw [List.map_cons, List.mem_cons, not_or] at hn
      obtain ⟨h1, e1, e2⟩ := py_bind_eq_ok.1 e
      rw [ih _ _ e2 hn.2, AscHeader.put_ncols e1 (Ne.symm hn.1)]
  induction l generalizing h with
  | nil => cases ha
  | cons p l ih =>
    rw [List.map_cons, List.nodup_cons] at hn
    obtain ⟨h1, e1, e2⟩ := py_bind_eq_ok.1 e
    rcases List.mem_cons.1 ha with rfl | ha
    · obtain ⟨n, e3, rfl⟩ := py_map_eq_ok.1 e1
      exact ⟨n, e3, keep _ _ _ e2 hn.1⟩
    · exact ih e2 hn.2 ha

theorem putAll_nrows {l : List (Field × Text)} {h h' : AscHeader} (e : putAll h l = .ok h')
    (hn : (l.map Prod.fst).Nodup) {a : Text} (ha : (Field.nrows, a) ∈ l) : ∃ n, pyInt a = .ok n ∧ h'.nrows = some n := by
  have keep : ∀ (l : List (Field × Text)) (h h' : AscHeader), putAll h l = .ok h' → Field.nrows ∉ l.map Prod.fst →
      h'.nrows = h.nrows := by
    intro l
    induction l with
    | nil => intro h h' e _; cases e; rfl
    | cons p l ih =>
      intro h h' e hn
      rw [List.map_cons, List.mem_cons, not_or] at hn
      obtain ⟨h1, e1, e2⟩ := py_bind_eq_ok.1 e
      rw [ih _ _ e2 hn.2, AscHeader.put_nrows e1 (Ne.symm hn.1)]
  induction l generalizing h with
  | nil => cases ha
  | cons p l ih =>
    rw [List.map_cons, List.nodup_cons] at hn
    obtain ⟨h1, e1, e2⟩ := py_bind_eq_ok.1 e
    rcases List.mem_cons.1 ha with rfl | ha
    · obtain ⟨n, e3, rfl⟩ := py_map_eq_ok.1 e1
      exact ⟨n, e3, keep _ _ _ e2 hn.1⟩
    · exact ih e2 hn.2 ha

theorem putAll_readable {l : List (Field × Text)} (hr : ∀ p ∈ l, readable p.1 p.2 = true) (h : AscHeader) :
    ∃ h', putAll h l = .ok h' := by
  induction l generalizing h with
  | nil => exact ⟨h, rfl⟩
  | cons p l ih =>
    rcases h.put_cases p.1 p.2 with ⟨-, h1, e⟩ | ⟨e, -⟩
    · obtain ⟨h', e'⟩ := ih (fun q hq => hr q (by simp [hq])) h1
      exact ⟨h', by rw [putAll, e]; exact e'⟩
    · rw [hr p (by simp)] at e
      cases e

/-- A line with an unknown keyword in an incomplete header. -/
theorem readAscHeader_unknown {h : AscHeader} {lines : List Text} {l : List (Field × Text)}
    (hl : List.Forall₂ (fun t p => ∃ key, pySplit t = [key, p.2] ∧ fieldOf (lower key) = some p.1) lines l)
    (hr : ∀ p ∈ l, readable p.1 p.2 = true)
    (hinc : ∀ l1 l2, l1 ++ l2 = l → ∀ h', putAll h l1 = .ok h' → h'.complete = false)
    {t key value : Text} (ht : pySplit t = [key, value]) (hk : fieldOf (lower key) = none) (rest : List Text) :
    readAscHeader h (lines ++ t :: rest) = .error .ioError := by
  induction hl generalizing h with
  | nil =>
    rw [List.nil_append, readAscHeader, ht]
    dsimp only
    rw [AscHeader.set_eq, hk]
    rfl
  | @cons t p lines l hp hl ih =>
    obtain ⟨key, hs, hf⟩ := hp
    rw [List.cons_append, readAscHeader, hs]
    dsimp only
    rw [AscHeader.set_eq, hf]
    dsimp only
    rcases h.put_cases p.1 p.2 with ⟨-, h1, e⟩ | ⟨e, -⟩
    · rw [e, py_ok_bind]
      have h0 : h1.complete = false := hinc [p] l rfl h1 (by simp only [putAll, e]; rfl)
      rw [if_neg (by rw [h0]; simp)]
      refine ih (fun q hq => hr q (by simp [hq])) ?_
      intro l1 l2 e1 h' e3
      exact hinc (p :: l1) l2 (by rw [List.cons_append, e1]) h' (by simp only [putAll, e]; exact e3)
    · rw [hr p (by simp)] at e
      cases e

end PyKrige
