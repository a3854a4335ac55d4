import Verif.Model.SecMem

/-! # C81: secrets in memory -/

namespace Cardano.SecMem

theorem run_snoc {s ops s' op} (h : Run s ops s') (hv : Valid s' op) : Run s (ops ++ [op]) (step s' op).1 := by
  induction h with
  | nil s => exact .cons hv (.nil _)
  | cons hv' _ ih => exact .cons hv' (ih hv)

/-- Histories grow at the end. -/
theorem run_induction {s0 : State} {P : List Op → State → Prop} (h0 : P [] s0)
    (hs : ∀ ops s op, Run s0 ops s → P ops s → Valid s op → P (ops ++ [op]) (step s op).1) :
    ∀ {ops s}, Run s0 ops s → P ops s := by
  have gen : ∀ (ops2 : List Op) (ops1 : List Op) (s1 s2 : State), Run s0 ops1 s1 → P ops1 s1 → Run s1 ops2 s2 → P (ops1 ++ ops2) s2 := by
    intro ops2
    induction ops2 with
    | nil =>
      intro ops1 s1 s2 hr hp h2
      cases h2
      simpa using hp
    | cons op ops2 ih =>
      intro ops1 s1 s2 hr hp h2
      cases h2 with
      | cons hv h2 =>
        have := ih (ops1 ++ [op]) _ s2 (run_snoc hr hv) (hs _ _ _ hr hp hv) h2
        simpa using this
  intro ops s h
  simpa using gen ops [] s0 s (.nil _) h0 h

/-- The pages `mlock` acts on are the pages of the array's bytes. -/
theorem touches_iff (o : Obj) (p : Nat) : o.touches p = true ↔ ∃ a, o.has a = true ∧ a / pageSize = p := by
  unfold Obj.touches Obj.has pageSize
  simp only [decide_eq_true_eq]
  constructor
  · rintro ⟨h0, h1, h2⟩
    refine ⟨max o.addr (p * 4096), ?_, ?_⟩ <;> omega
  · rintro ⟨a, ⟨h1, h2⟩, h3⟩
    omega

theorem fill_has {mem o f a} (h : o.has a = true) : fill mem o f a = f (a - o.addr) := by
  simp [fill, h]

theorem fill_not {mem o f a} (h : o.has a = false) : fill mem o f a = mem a := by
  simp [fill, h]

/-- **C81** Secrets do not outlive their arrays: after any history, a byte that was ever part of
an array and belongs to no live array now is zero. -/
theorem C81_scrubbed (mem0 : Nat → UInt8) (ops : List Op) (s : State) (h : Run (initial mem0) ops s) (a : Nat)
    (ha : ∃ op ∈ ops, ∃ o, op.creates = some o ∧ o.has a = true) (hd : ∀ o ∈ s.live, o.has a = false) :
    s.mem a = 0 := by
  suffices H : ∀ a, (∃ op ∈ ops, ∃ o, op.creates = some o ∧ o.has a = true) → (∀ o ∈ s.live, o.has a = false) → s.mem a = 0
    from H a ha hd
  clear ha hd a
  refine run_induction (P := fun ops s => ∀ a, (∃ op ∈ ops, ∃ o, op.creates = some o ∧ o.has a = true) →
    (∀ o ∈ s.live, o.has a = false) → s.mem a = 0) ?_ ?_ h
  · rintro a ⟨op, h1, -⟩; simp at h1
  · intro ops s op hr ih hv a ⟨op', hm, o', hc, ho'⟩ hl
    rw [List.mem_append, List.mem_singleton] at hm
    cases op with
    | construct o g =>
      simp only [step, construct] at hl ⊢
      cases g with
      | true =>
        simp only [if_true] at hl ⊢
        have h1 := hl o List.mem_cons_self
        rw [fill_not h1]
        refine ih a ?_ (fun o'' h'' => hl o'' (List.mem_cons_of_mem _ h''))
        rcases hm with hm | rfl
        · exact ⟨op', hm, o', hc, ho'⟩
        · simp only [Op.creates, Option.some.injEq] at hc
          subst hc
          rw [h1] at ho'; cases ho'
      | false =>
        simp only [Bool.false_eq_true, if_false] at hl ⊢
        by_cases h1 : o.has a = true
        · rw [fill_has h1]
        · rw [fill_not (by simpa using h1)]
          refine ih a ?_ hl
          rcases hm with hm | rfl
          · exact ⟨op', hm, o', hc, ho'⟩
          · simp only [Op.creates, Option.some.injEq] at hc
            subst hc
            exact absurd ho' h1
    | copy src dst =>
      simp only [step, copy] at hl ⊢
      have h1 := hl dst List.mem_cons_self
      rw [fill_not h1]
      refine ih a ?_ (fun o'' h'' => hl o'' (List.mem_cons_of_mem _ h''))
      rcases hm with hm | rfl
      · exact ⟨op', hm, o', hc, ho'⟩
      · simp only [Op.creates, Option.some.injEq] at hc
        subst hc
        rw [h1] at ho'; cases ho'
    | assign src dst =>
      simp only [step, assign] at hl ⊢
      rw [fill_not (hl dst hv.2.1)]
      refine ih a ?_ hl
      rcases hm with hm | rfl
      · exact ⟨op', hm, o', hc, ho'⟩
      · cases hc
    | write o d =>
      simp only [step, write] at hl ⊢
      rw [fill_not (hl o hv)]
      refine ih a ?_ hl
      rcases hm with hm | rfl
      · exact ⟨op', hm, o', hc, ho'⟩
      · cases hc
    | destroy o =>
      simp only [step, destroy] at hl ⊢
      by_cases h1 : o.has a = true
      · rw [fill_has h1]
      · rw [fill_not (by simpa using h1)]
        refine ih a ?_ ?_
        · rcases hm with hm | rfl
          · exact ⟨op', hm, o', hc, ho'⟩
          · cases hc
        · intro o'' h''
          by_cases he : o'' = o
          · subst he; simpa using h1
          · exact hl o'' ((List.mem_erase_of_ne he).mpr h'')

/-- **C81** Nothing outside the arrays is written. -/
theorem C81_frame (mem0 : Nat → UInt8) (ops : List Op) (s : State) (h : Run (initial mem0) ops s) (a : Nat)
    (ha : ∀ op ∈ ops, ∀ o, op.creates = some o → o.has a = false) : s.mem a = mem0 a := by
  have H : (∀ o ∈ s.live, ∃ op ∈ ops, op.creates = some o) ∧
      ((∀ op ∈ ops, ∀ o, op.creates = some o → o.has a = false) → s.mem a = mem0 a) := by
    clear ha
    refine run_induction (P := fun ops s => (∀ o ∈ s.live, ∃ op ∈ ops, op.creates = some o) ∧
      ((∀ op ∈ ops, ∀ o, op.creates = some o → o.has a = false) → s.mem a = mem0 a)) ?_ ?_ h
    · exact ⟨by simp [initial], fun _ => rfl⟩
    · intro ops s op hr ⟨ih1, ih2⟩ hv
      have ih1' : ∀ o ∈ s.live, ∃ op' ∈ ops ++ [op], op'.creates = some o := fun o ho =>
        let ⟨x, hx, hy⟩ := ih1 o ho
        ⟨x, List.mem_append_left _ hx, hy⟩
      have new : ∀ o, op.creates = some o → ∃ op' ∈ ops ++ [op], op'.creates = some o := fun o ho =>
        ⟨op, by simp, ho⟩
      have old : (∀ op' ∈ ops ++ [op], ∀ o, op'.creates = some o → o.has a = false) →
          ∀ op' ∈ ops, ∀ o, op'.creates = some o → o.has a = false :=
        fun H x hx => H x (List.mem_append_left _ hx)
      have lv : (∀ op' ∈ ops ++ [op], ∀ o, op'.creates = some o → o.has a = false) → ∀ o ∈ s.live, o.has a = false :=
        fun H o ho => let ⟨x, hx, hy⟩ := ih1' o ho; H x hx o hy
      cases op with
      | construct o g =>
        refine ⟨?_, fun H => ?_⟩
        · cases g
          · exact ih1'
          · intro o' ho'
            rcases List.mem_cons.mp ho' with rfl | ho'
            · exact new _ rfl
            · exact ih1' _ ho'
        · have : o.has a = false := H (.construct o g) (by simp) o rfl
          cases g <;> simp only [step, construct, if_true, Bool.false_eq_true, if_false] <;>
            rw [fill_not this] <;> exact ih2 (old H)
      | copy src dst =>
        refine ⟨?_, fun H => ?_⟩
        · intro o' ho'
          rcases List.mem_cons.mp ho' with rfl | ho'
          · exact new _ rfl
          · exact ih1' _ ho'
        · have : dst.has a = false := H (.copy src dst) (by simp) dst rfl
          simp only [step, copy]
          rw [fill_not this]; exact ih2 (old H)
      | assign src dst =>
        refine ⟨ih1', fun H => ?_⟩
        simp only [step, assign]
        rw [fill_not (lv H dst hv.2.1)]; exact ih2 (old H)
      | write o d =>
        refine ⟨ih1', fun H => ?_⟩
        simp only [step, write]
        rw [fill_not (lv H o hv)]; exact ih2 (old H)
      | destroy o =>
        refine ⟨fun o' ho' => ih1' o' (List.mem_of_mem_erase ho'), fun H => ?_⟩
        simp only [step, destroy]
        rw [fill_not (lv H o hv)]; exact ih2 (old H)
  exact H.2 ha

/-- **C81** A page is locked after a history exactly if some granted constructor locked it and
no destructor of an array on that page ran later. -/
theorem C81_locked_iff (mem0 : Nat → UInt8) (ops : List Op) (s : State) (h : Run (initial mem0) ops s) (p : Nat) :
    s.locked p = true ↔ ∃ pre o post, ops = pre ++ .construct o true :: post ∧ o.touches p = true ∧
      ∀ o', Op.destroy o' ∈ post → o'.touches p = false := by
  refine run_induction (P := fun ops s => s.locked p = true ↔ ∃ pre o post, ops = pre ++ .construct o true :: post ∧
    o.touches p = true ∧ ∀ o', Op.destroy o' ∈ post → o'.touches p = false) ?_ ?_ h
  · simp [initial]
  · intro ops s op hr ih hv
    -- the description of the longer history
    have split : (∃ pre o post, ops ++ [op] = pre ++ Op.construct o true :: post ∧ o.touches p = true ∧
        ∀ o', Op.destroy o' ∈ post → o'.touches p = false) ↔
        ((∃ o, op = .construct o true ∧ o.touches p = true) ∨
          ((∃ pre o post, ops = pre ++ Op.construct o true :: post ∧ o.touches p = true ∧
            ∀ o', Op.destroy o' ∈ post → o'.touches p = false) ∧ ∀ o', op = .destroy o' → o'.touches p = false)) := by
      constructor
      · rintro ⟨pre, o, post, e, h1, h2⟩
        rcases List.eq_nil_or_concat post with rfl | ⟨post', x, rfl⟩
        · have := List.append_inj_right' e rfl
          simp only [List.cons.injEq, and_true] at this
          exact Or.inl ⟨o, this, h1⟩
        · rw [List.concat_eq_append] at e h2
          have e' : ops ++ [op] = (pre ++ Op.construct o true :: post') ++ [x] := by simpa using e
          have h3 := List.append_inj_left' e' rfl
          have h4 := List.append_inj_right' e' rfl
          simp only [List.cons.injEq, and_true] at h4
          subst h4
          exact Or.inr ⟨⟨pre, o, post', h3, h1, fun o' ho' => h2 o' (by simp [ho'])⟩,
            fun o' ho' => h2 o' (by simp [ho'])⟩
      · rintro (⟨o, rfl, h1⟩ | ⟨⟨pre, o, post, rfl, h1, h2⟩, h3⟩)
        · exact ⟨ops, o, [], rfl, h1, by simp⟩
        · refine ⟨pre, o, post ++ [op], by simp, h1, ?_⟩
          intro o' ho'
          rcases List.mem_append.mp ho' with ho' | ho'
          · exact h2 o' ho'
          · exact h3 o' (List.mem_singleton.mp ho').symm
    rw [split, ← ih]
    cases op with
    | construct o g =>
      cases g
      · simp [step, construct]
      · simp only [step, construct, if_true, Bool.or_eq_true]
        constructor
        · rintro (h | h)
          · exact Or.inr ⟨h, by simp⟩
          · exact Or.inl ⟨o, rfl, h⟩
        · rintro (⟨o', e, h⟩ | h)
          · injection e with e; subst e; exact Or.inr h
          · exact Or.inl h.1
    | copy src dst => simp [step, copy]
    | assign src dst => simp [step, assign]
    | write o d => simp [step, write]
    | destroy o => simp [step, destroy]

/-- **C81** (what holds) An array made by the constructor stays locked, and so cannot be swapped
out, until an array on one of its pages is destroyed. -/
theorem C81_locked_partial (mem0 : Nat → UInt8) (pre post : List Op) (o : Obj) (s : State)
    (h : Run (initial mem0) (pre ++ .construct o true :: post) s)
    (hd : ∀ o', Op.destroy o' ∈ post → ∀ p, ¬ (o.touches p = true ∧ o'.touches p = true)) (a : Nat) (ha : o.has a = true) :
    s.locked (a / pageSize) = true := by
  have ht : o.touches (a / pageSize) = true := (touches_iff o _).mpr ⟨a, ha, rfl⟩
  rw [C81_locked_iff mem0 _ s h]
  refine ⟨pre, o, post, rfl, ht, ?_⟩
  intro o' ho'
  have := hd o' ho' (a / pageSize)
  cases hh : o'.touches (a / pageSize)
  · rfl
  · exact absurd ⟨ht, hh⟩ this

/-- A program with two 32-byte keys next to each other, the second of which goes out of scope. -/
def neighbours : List Op := [.construct ⟨4096, 32⟩ true, .construct ⟨4128, 32⟩ true, .write ⟨4096, 32⟩ (fun _ => 7), .destroy ⟨4128, 32⟩]

/-- **C81** is false of the code: destroying one key unlocks its living neighbour. -/
theorem C81_neighbour_unlocked : ∃ s, Run (initial fun _ => 0) neighbours s ∧
    (⟨4096, 32⟩ : Obj) ∈ s.live ∧ s.mem 4096 = 7 ∧ s.locked (4096 / pageSize) = false := by
  refine ⟨_, .cons ?_ (.cons ?_ (.cons ?_ (.cons ?_ (.nil _)))), ?_, ?_, ?_⟩
  · intro o' ho'; simp [initial] at ho'
  · intro o' ho'
    simp only [step, construct, initial, if_true, List.mem_cons, List.not_mem_nil, or_false] at ho'
    subst ho'
    intro a ⟨h1, h2⟩
    simp only [Obj.has, decide_eq_true_eq] at h1 h2
    omega
  · simp [Valid, step, construct, initial]
  · simp [Valid, step, construct, write, initial]
  · simp [step, construct, write, destroy, initial]
  · decide
  · decide

/-- **C81** is false of the code: a copy of a key is not locked at all. -/
theorem C81_copy_not_locked : ∃ s, Run (initial fun _ => 0)
      [.construct ⟨4096, 32⟩ true, .write ⟨4096, 32⟩ (fun _ => 7), .copy ⟨4096, 32⟩ ⟨8192, 32⟩] s ∧
    (⟨8192, 32⟩ : Obj) ∈ s.live ∧ s.mem 8192 = 7 ∧ s.locked (8192 / pageSize) = false := by
  refine ⟨_, .cons ?_ (.cons ?_ (.cons ?_ (.nil _))), ?_, ?_, ?_⟩
  · intro o' ho'; simp [initial] at ho'
  · simp [Valid, step, construct, initial]
  · refine ⟨by simp [step, construct, write, initial], rfl, ?_⟩
    intro o' ho'
    simp only [step, construct, write, initial, if_true, List.mem_cons, List.not_mem_nil, or_false] at ho'
    subst ho'
    intro a ⟨h1, h2⟩
    simp only [Obj.has, decide_eq_true_eq] at h1 h2
    omega
  · simp [step, construct, write, copy, initial]
  · decide
  · decide

/-- **C81** The arrays hold what the program put there: zeros after construction, the source's
bytes after a copy or an assignment, the data after a write; and a refused lock is reported. -/
theorem C81_values (s : State) :
    (∀ src dst i, i < dst.size → (step s (.copy src dst)).1.mem (dst.addr + i) = s.mem (src.addr + i)) ∧
    (∀ src dst i, i < dst.size → (step s (.assign src dst)).1.mem (dst.addr + i) = s.mem (src.addr + i)) ∧
    (∀ o d i, i < o.size → (step s (.write o d)).1.mem (o.addr + i) = d i) ∧
    (∀ o g, (step s (.construct o g)).2 = .ok () ↔ g = true) ∧
    (∀ o i, i < o.size → (step s (.construct o true)).1.mem (o.addr + i) = 0) := by
  have hh : ∀ (o : Obj) i, i < o.size → o.has (o.addr + i) = true := fun o i hi => by
    simp only [Obj.has, decide_eq_true_eq]; omega
  refine ⟨?_, ?_, ?_, ?_, ?_⟩
  · intro src dst i hi
    simp only [step, copy]
    rw [fill_has (hh _ _ hi), Nat.add_sub_cancel_left]
  · intro src dst i hi
    simp only [step, assign]
    rw [fill_has (hh _ _ hi), Nat.add_sub_cancel_left]
  · intro o d i hi
    simp only [step, write]
    rw [fill_has (hh _ _ hi), Nat.add_sub_cancel_left]
  · intro o g
    cases g <;> simp [step, construct]
  · intro o i hi
    simp only [step, construct, if_true]
    rw [fill_has (hh _ _ hi)]

end Cardano.SecMem
