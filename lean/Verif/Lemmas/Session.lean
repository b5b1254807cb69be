import Verif.Lemmas.Heap
import Verif.Spec.Memory

/-! Sessions on the heap behave like calls with values: what has to be known about a class. -/

namespace PyKrige
noncomputable section
open Spec

/-- What `execute` does: the same as on values, in new memory only. -/
structure Executed (h : Heap) (r : Py ResultRef × Heap) (v : Py ExecResult) : Prop where
  frame : Heap.Frame h.next h r.2
  outcome : r.1.map (fun x => x.deref r.2) = v
  new : ∀ b ∈ resultBuffers r.1, h.next ≤ b ∧ b < r.2.next

/-- The methods of the class `C` do on memory what `updV` and `execV` do on values. -/
structure Laws (C : RefClass) (S : Type) (updV : S → C.UpdVal → Py Unit × S)
    (execV : S → C.ExecVal → Py ExecResult) where
  /-- the object as a value -/
  deref : Heap → C.Obj → S
  /-- the buffers of the object's arrays -/
  own : C.Obj → Set ℕ
  /-- the buffer of its parameter list -/
  ps : C.Obj → ℕ
  /-- holds of every object when `k` buffers are in use -/
  Sound : C.Obj → ℕ → Prop
  own_lt : ∀ {o k b}, Sound o k → b ∈ own o → b < k
  ps_lt : ∀ {o k}, Sound o k → ps o < k
  mono : ∀ {o k k'}, Sound o k → k ≤ k' → Sound o k'
  congr : ∀ {h h' : Heap} {o}, (∀ b ∈ own o, h'.buf b = h.buf b) → h'.buf (ps o) = h.buf (ps o) →
    deref h' o = deref h o
  exec : ∀ {h : Heap} {o a}, Sound o h.next → (∀ b ∈ C.passed a, b < h.next) →
    Executed h (C.execute o a h) (execV (deref h o) (C.execVal h a))
  upd_frame : ∀ {h : Heap} {o u}, Sound o h.next → (∀ b ∈ listBuffers (C.params u), b < h.next) →
    Heap.Frame h.next h (C.update o u h).2
  upd : ∀ {h : Heap} {o u}, Sound o h.next → (∀ b ∈ listBuffers (C.params u), b < h.next) →
    ((C.update o u h).1.1, deref (C.update o u h).2 (C.update o u h).1.2) = updV (deref h o) (C.updVal h u)
  upd_sound : ∀ {h : Heap} {o u}, Sound o h.next → (∀ b ∈ listBuffers (C.params u), b < h.next) →
    Sound (C.update o u h).1.2 (C.update o u h).2.next
  upd_own : ∀ {h : Heap} {o u}, Sound o h.next → (∀ b ∈ listBuffers (C.params u), b < h.next) →
    ∀ b ∈ own (C.update o u h).1.2, b ∈ own o ∨ h.next ≤ b
  upd_ps : ∀ {h : Heap} {o u}, Sound o h.next → (∀ b ∈ listBuffers (C.params u), b < h.next) →
    ps (C.update o u h).1.2 = ps o ∨ h.next ≤ ps (C.update o u h).1.2 ∨
      ps (C.update o u h).1.2 ∈ listBuffers (C.params u)

/-- What a constructor does that returns `o` with memory `h'`. -/
structure Laws.Built {C : RefClass} {S : Type} {updV : S → C.UpdVal → Py Unit × S} {execV : S → C.ExecVal → Py ExecResult}
    (L : Laws C S updV execV) (h : Heap) (p : ParamRef) (o : C.Obj) (h' : Heap) : Prop where
  frame : Heap.Frame h.next h h'
  sound : L.Sound o h'.next
  own : ∀ b ∈ L.own o, h.next ≤ b
  ps : h.next ≤ L.ps o ∨ L.ps o ∈ listBuffers p

/-- The object's arrays are its own: the program has no reference to them, except to lists it passed as parameters. -/
structure Laws.Inv {C : RefClass} {S : Type} {updV : S → C.UpdVal → Py Unit × S} {execV : S → C.ExecVal → Py ExecResult}
    (L : Laws C S updV execV) (s : Session C) : Prop where
  sound : L.Sound s.obj s.heap.next
  mine : ∀ b ∈ s.mine, b < s.heap.next
  own : ∀ b ∈ L.own s.obj, b ∉ s.mine
  ps : L.ps s.obj ∈ s.mine → L.ps s.obj ∈ s.lists

theorem runCalls_append {σ U A : Type} (update : σ → U → Py Unit × σ) (execute : σ → A → Py ExecResult)
    (s : σ) (l l' : List (Call U A)) :
    runCalls update execute s (l ++ l') = ((runCalls update execute s l).1 ++
      (runCalls update execute (runCalls update execute s l).2 l').1,
      (runCalls update execute (runCalls update execute s l).2 l').2) := by
  induction l generalizing s with
  | nil => rfl
  | cons c l ih =>
    cases c with
    | update u =>
      show (Outcome.update _ :: (runCalls update execute (update s u).2 (l ++ l')).1,
        (runCalls update execute (update s u).2 (l ++ l')).2) = _
      rw [ih]
      rfl
    | execute a =>
      show (Outcome.execute _ :: (runCalls update execute s (l ++ l')).1, (runCalls update execute s (l ++ l')).2) = _
      rw [ih]
      rfl

section
variable {C : RefClass} {S : Type} {updV : S → C.UpdVal → Py Unit × S} {execV : S → C.ExecVal → Py ExecResult}
  (L : Laws C S updV execV)

/-- Overwriting a buffer the object does not use does not change what it sees. -/
theorem Laws.write {o : C.Obj} {h : Heap} {b : ℕ} {v : ℕ × ℕ → ℝ} (h1 : b ∉ L.own o) (h2 : b ≠ L.ps o) (k : ℕ) :
    L.deref { next := k, buf := Function.update h.buf b v } o = L.deref h o := by
  refine L.congr (fun c hc => ?_) ?_
  · exact Function.update_of_ne (fun e : c = b => h1 (e ▸ hc)) _ _
  · exact Function.update_of_ne (fun e => h2 e.symm) _ _

theorem Laws.frame {o : C.Obj} {h h' : Heap} (ho : L.Sound o h.next) (f : Heap.Frame h.next h h') :
    L.deref h' o = L.deref h o :=
  L.congr (fun b hb => f.same b (L.own_lt ho hb)) (f.same _ (L.ps_lt ho))

/-- One step on the heap is the same step with values. -/
theorem Laws.step {s : Session C} (hs : L.Inv s) (e : Event C) (ha : s.Allows e) :
    L.Inv (s.after e) ∧
      (s.outcome e, L.deref (s.after e).heap (s.after e).obj) =
        runCalls updV execV (L.deref s.heap s.obj) (s.call e) := by
  cases e with
  | alloc v =>
    have hl := hs.sound
    refine ⟨⟨L.mono hl (Nat.le_succ _), ?_, ?_, ?_⟩, ?_⟩
    · rintro b (hb | rfl)
      · exact (hs.mine b hb).trans (Nat.lt_succ_self _)
      · exact Nat.lt_succ_self _
    · rintro b hb (hb' | hb')
      · exact hs.own b hb hb'
      · exact (L.own_lt hl hb).ne hb'
    · rintro (hb | hb)
      · exact hs.ps hb
      · exact ((L.ps_lt hl).ne hb).elim
    · show (([] : List Outcome), L.deref _ s.obj) = ([], L.deref s.heap s.obj)
      exact congrArg (Prod.mk _) (L.write (fun hb => (L.own_lt hl hb).ne rfl) (L.ps_lt hl).ne' _)
  | write b v =>
    obtain ⟨hb, hb'⟩ := ha
    refine ⟨⟨hs.sound, hs.mine, hs.own, hs.ps⟩, ?_⟩
    show (([] : List Outcome), L.deref _ s.obj) = ([], L.deref s.heap s.obj)
    refine congrArg (Prod.mk _) (L.write (fun h => hs.own _ h hb) ?_ _)
    rintro rfl
    exact hb' (hs.ps hb)
  | execute a =>
    have hl := hs.sound
    have E := L.exec hl (a := a) fun b hb => hs.mine b (ha hb)
    refine ⟨⟨L.mono hl E.frame.next_le, ?_, ?_, ?_⟩, ?_⟩
    · rintro b (hb | hb)
      · exact (hs.mine b hb).trans_le E.frame.next_le
      · exact (E.new b hb).2
    · rintro b hb (hb' | hb')
      · exact hs.own b hb hb'
      · exact absurd (E.new b hb').1 (not_le.2 (L.own_lt hl hb))
    · rintro (hb | hb)
      · exact hs.ps hb
      · exact absurd (E.new _ hb).1 (not_le.2 (L.ps_lt hl))
    · show ([Outcome.execute _], L.deref _ s.obj) = ([Outcome.execute _], L.deref s.heap s.obj)
      rw [E.outcome]
      exact congrArg (Prod.mk _) (L.frame hl E.frame)
  | update u =>
    have hp : ∀ b ∈ listBuffers (C.params u), b < s.heap.next := fun b hb => hs.mine b (ha hb)
    have fr := L.upd_frame hs.sound hp
    have ne : ∀ b, s.heap.next ≤ b → b ∉ s.mine := fun b hb hb' => absurd (hs.mine b hb') (not_lt.2 hb)
    refine ⟨⟨L.upd_sound hs.sound hp, fun b hb => (hs.mine b hb).trans_le fr.next_le, fun b hb => ?_, ?_⟩, ?_⟩
    · rcases L.upd_own hs.sound hp b hb with e | e
      · exact hs.own b e
      · exact ne b e
    · show L.ps (C.update s.obj u s.heap).1.2 ∈ s.mine →
        L.ps (C.update s.obj u s.heap).1.2 ∈ s.lists ∪ listBuffers (C.params u)
      intro hb
      rcases L.upd_ps hs.sound hp with e | e | e
      · rw [e] at hb ⊢; exact Or.inl (hs.ps hb)
      · exact (ne _ e hb).elim
      · exact Or.inr e
    · show ([Outcome.update _], L.deref _ _) = ([Outcome.update _], (updV _ _).2)
      rw [← L.upd hs.sound hp]
      rfl

theorem Laws.steps (l : List (Event C)) : ∀ {s : Session C}, L.Inv s → s.AllowsAll l →
    L.Inv (s.final l) ∧ (s.outcomes l, L.deref (s.final l).heap (s.final l).obj) =
      runCalls updV execV (L.deref s.heap s.obj) (s.calls l) := by
  induction l with
  | nil => intro s hs _; exact ⟨hs, rfl⟩
  | cons e l ih =>
    intro s hs ⟨ha, hl⟩
    obtain ⟨i1, i2⟩ := L.step hs e ha
    obtain ⟨j1, j2⟩ := ih i1 hl
    refine ⟨j1, ?_⟩
    show (s.outcome e ++ Session.outcomes (s.after e) l, _) =
      runCalls updV execV _ (s.call e ++ Session.calls (s.after e) l)
    rw [runCalls_append, ← i2]
    dsimp only
    rw [← j2]
    rfl

theorem Laws.Built.inv {L : Laws C S updV execV} {h h' : Heap} {p : ParamRef} {o : C.Obj} (b : L.Built h p o h') :
    L.Inv (Session.start (C := C) h.next p o h') := by
  refine ⟨b.sound, fun c hc => lt_of_lt_of_le hc b.frame.next_le, fun c hc hc' => absurd (b.own c hc) (not_le.2 hc'),
    fun hb => ?_⟩
  rcases b.ps with k | k
  · exact absurd k (not_le.2 hb)
  · exact k

/-- The whole session. -/
theorem Laws.session {h h' : Heap} {p : ParamRef} {o : C.Obj} (b : L.Built h p o h') (l : List (Event C))
    (ha : (Session.start (C := C) h.next p o h').AllowsAll l) :
    (Session.start (C := C) h.next p o h').outcomes l =
      (runCalls updV execV (L.deref h' o) ((Session.start (C := C) h.next p o h').calls l)).1 :=
  congrArg Prod.fst (L.steps l b.inv ha).2

/-- As long as `update_variogram_model` is not called the object stays the same. -/
theorem Laws.keep (l : List (Event C)) (hl : ∀ e ∈ l, e.NotUpdate) : ∀ (t : Session C), L.Inv t → t.AllowsAll l →
    L.deref (t.final l).heap (t.final l).obj = L.deref t.heap t.obj := by
  induction l with
  | nil => intros; rfl
  | cons e l ih =>
    intro t ht ⟨h1, h2⟩
    obtain ⟨j1, j2⟩ := L.step ht e h1
    refine (ih (fun e he => hl e (List.mem_cons_of_mem _ he)) _ j1 h2).trans ?_
    have he := hl e List.mem_cons_self
    cases e with
    | update u => exact he.elim
    | alloc v => exact congrArg Prod.snd j2
    | write b v => exact congrArg Prod.snd j2
    | execute a => exact congrArg Prod.snd j2

theorem Laws.harmless {h h' : Heap} {p : ParamRef} {o : C.Obj} (b : L.Built h p o h') (l₀ l : List (Event C))
    (ha : (Session.start (C := C) h.next p o h').AllowsAll l₀) (hl : ∀ e ∈ l, e.NotUpdate)
    {s s' : Session C} (hs : (Session.start (C := C) h.next p o h').final l₀ = s) (ha' : s.AllowsAll l)
    (hs' : s.final l = s') (a a' : C.Exec) (ra : s.Allows (.execute a)) (rb : s'.Allows (.execute a'))
    (hab : C.execVal s'.heap a' = C.execVal s.heap a) :
    s'.outcome (.execute a') = s.outcome (.execute a) := by
  have hi := (L.steps l₀ b.inv ha).1
  rw [hs] at hi
  have k1 := L.keep l hl s hi ha'
  have hi' := (L.steps l hi ha').1
  rw [hs'] at hi' k1
  have e1 := congrArg Prod.fst (L.step hi (.execute a) ra).2
  have e2 := congrArg Prod.fst (L.step hi' (.execute a') rb).2
  dsimp only at e1 e2
  rw [e1, e2, k1]
  show [Outcome.execute (execV _ (C.execVal s'.heap a'))] = [Outcome.execute (execV _ (C.execVal s.heap a))]
  rw [hab]

theorem Laws.kept {b : ℕ} (l : List (Event C)) : ∀ {s : Session C}, L.Inv s → s.AllowsAll l → b < s.heap.next →
    (∀ v, Event.write b v ∉ l) → (s.final l).heap.buf b = s.heap.buf b := by
  induction l with
  | nil => intros; rfl
  | cons e l ih =>
    intro s hi ⟨h1, h2⟩ hb hw
    have hw' : ∀ v, Event.write b v ∉ l := fun v hv => hw v (List.mem_cons_of_mem _ hv)
    obtain ⟨hi2, -⟩ := L.step hi e h1
    have one : (s.after e).heap.buf b = s.heap.buf b ∧ s.heap.next ≤ (s.after e).heap.next := by
      cases e with
      | alloc v =>
        refine ⟨?_, Nat.le_succ _⟩
        show Function.update s.heap.buf s.heap.next v b = s.heap.buf b
        exact Function.update_of_ne hb.ne _ _
      | write b' v =>
        refine ⟨?_, le_rfl⟩
        show Function.update s.heap.buf b' v b = s.heap.buf b
        refine Function.update_of_ne ?_ _ _
        rintro rfl
        exact hw v List.mem_cons_self
      | execute a =>
        have E := L.exec hi.sound (a := a) fun b hb => hi.mine b (h1 hb)
        exact ⟨E.frame.same b hb, E.frame.next_le⟩
      | update u =>
        have U := L.upd_frame hi.sound (u := u) fun b hb => hi.mine b (h1 hb)
        exact ⟨U.same b hb, U.next_le⟩
    exact (ih hi2 h2 (hb.trans_le one.2) hw').trans one.1

theorem Laws.new_results {h h' : Heap} {p : ParamRef} {o : C.Obj} (b : L.Built h p o h') (l : List (Event C))
    (ha : (Session.start (C := C) h.next p o h').AllowsAll l)
    {s : Session C} (hs : (Session.start (C := C) h.next p o h').final l = s) (a : C.Exec)
    (ra : s.Allows (.execute a)) {r : ResultRef} {h'' : Heap} (hr : C.execute s.obj a s.heap = (.ok r, h'')) :
    s.heap.next ≤ r.z.buf ∧ s.heap.next ≤ r.ss.buf ∧ ∀ m ∈ r.mask, s.heap.next ≤ m.buf := by
  have hi := (L.steps l b.inv ha).1
  rw [hs] at hi
  have q3 := (L.exec hi.sound (a := a) fun b hb => hi.mine b (ra hb)).new
  rw [hr] at q3
  exact ⟨(q3 _ (Or.inl rfl)).1, (q3 _ (Or.inr (Or.inl rfl))).1, fun m hm => (q3 _ (Or.inr (Or.inr ⟨m, hm, rfl⟩))).1⟩

end
end
end PyKrige
