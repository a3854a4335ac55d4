import Verif.Spec.Genesis
import Mathlib.Tactic.Positivity
import Mathlib.Tactic.Ring

/-! # Genesis configurations (C60, C73) -/

namespace Cardano.Genesis

open Cardano Cardano.Util

/-! ### Objects -/

/-- Sorted by key, without duplicates. -/
abbrev Srt {α} (l : List (String × α)) : Prop := List.Pairwise (fun p q => p.1 < q.1) l

theorem lookup_cons' (k a : String) (b : J) (l : List (String × J)) :
    List.lookup k ((a, b) :: l) = if k = a then some b else l.lookup k := by
  rw [List.lookup_cons]
  by_cases h : k = a
  · subst h; simp
  · rw [if_neg h]
    have : (k == a) = false := by simpa using h
    rw [this]

theorem lookup_none {k : String} : ∀ {l : List (String × J)}, (∀ p ∈ l, k ≠ p.1) → l.lookup k = none := by
  intro l
  induction l with
  | nil => intro _; rfl
  | cons p l ih =>
    obtain ⟨a, b⟩ := p
    intro h
    have h1 : k ≠ a := h (a, b) (by simp)
    rw [lookup_cons', if_neg h1]
    exact ih fun p hp => h p (by simp [hp])

theorem emplace_mem (k : String) (v : J) : ∀ (l : List (String × J)) (p), p ∈ emplace k v l → p.1 = k ∨ p ∈ l := by
  intro l
  induction l with
  | nil => intro p hp; simp [emplace] at hp; left; rw [hp]
  | cons q l ih =>
    obtain ⟨a, b⟩ := q
    intro p hp
    unfold emplace at hp
    split at hp
    · rcases List.mem_cons.mp hp with rfl | h
      · exact .inl rfl
      · exact .inr h
    · split at hp
      · exact .inr hp
      · rcases List.mem_cons.mp hp with rfl | h
        · exact .inr (by simp)
        · rcases ih p h with h | h
          · exact .inl h
          · exact .inr (by simp [h])

theorem emplace_srt (k : String) (v : J) : ∀ l : List (String × J), Srt l → Srt (emplace k v l) := by
  intro l
  induction l with
  | nil => intro _; simp [emplace, Srt]
  | cons q l ih =>
    obtain ⟨a, b⟩ := q
    intro h
    have h0 := List.pairwise_cons.mp h
    unfold emplace
    split
    · next h1 =>
      refine List.pairwise_cons.mpr ⟨?_, h⟩
      intro p hp
      rcases List.mem_cons.mp hp with rfl | hp
      · exact h1
      · exact lt_trans h1 (h0.1 p hp)
    · next h1 =>
      split
      · exact h
      · next h2 =>
        refine List.pairwise_cons.mpr ⟨?_, ih h0.2⟩
        intro p hp
        rcases emplace_mem k v l p hp with h | h
        · rw [h]; exact lt_of_le_of_ne (not_lt.mp h1) (fun e => h2 e.symm)
        · exact h0.1 p h

theorem lookup_emplace (k k' : String) (v : J) : ∀ l : List (String × J), Srt l →
    (emplace k v l).lookup k' = (l.lookup k').or (if k' = k then some v else none) := by
  intro l
  induction l with
  | nil =>
    intro _
    by_cases h : k' = k
    · subst h; simp [emplace, List.lookup]
    · simp [emplace, lookup_cons', h]
  | cons q l ih =>
    obtain ⟨a, b⟩ := q
    intro hs
    have h0 := List.pairwise_cons.mp hs
    unfold emplace
    split
    · next h1 =>
      by_cases h : k' = k
      · subst h
        have : List.lookup k' ((a, b) :: l) = none := lookup_none (by
          intro p hp
          rcases List.mem_cons.mp hp with rfl | hp
          · exact ne_of_lt h1
          · exact ne_of_lt (lt_trans h1 (h0.1 p hp)))
        rw [this]
        simp [List.lookup_cons]
      · rw [lookup_cons', if_neg h, if_neg h]; simp
    · split
      · next h2 =>
        subst h2
        by_cases h : k' = k
        · subst h; simp [List.lookup_cons]
        · rw [if_neg h]; simp
      · next h2 =>
        by_cases h : k' = a
        · subst h; simp [List.lookup_cons]
        · rw [lookup_cons', if_neg h, lookup_cons', if_neg h, ih h0.2]

theorem lookup_fold (k : String) : ∀ (l m : List (String × J)), Srt m →
    (l.foldl (fun m p => emplace p.1 p.2 m) m).lookup k = (m.lookup k).or (l.lookup k) := by
  intro l
  induction l with
  | nil => intro m _; simp
  | cons p l ih =>
    obtain ⟨a, b⟩ := p
    intro m hm
    rw [List.foldl_cons, ih _ (emplace_srt a b m hm), lookup_emplace a k b m hm, lookup_cons']
    by_cases h : k = a
    · subst h; cases m.lookup k <;> simp
    · rw [if_neg h, if_neg h]; simp

/-- The entries of an object written by `to_json`. -/
theorem get_mkObj {l : List (String × J)} {k : String} {v : J} (h : l.lookup k = some v) : (mkObj l).get? k = some v := by
  show List.lookup k _ = _
  rw [lookup_fold k l [] (by simp [Srt])]
  simpa using h

theorem at_get {j : J} {k : String} {v : J} (h : j.get? k = some v) : j.at k = .ok v := by
  unfold J.at; rw [h]

theorem at_mkObj {l : List (String × J)} {k : String} {v : J} (h : l.lookup k = some v) : (mkObj l).at k = .ok v :=
  at_get (get_mkObj h)

theorem field_self {k : String} {s : Schema} {fs : List (String × Schema)} {j : J} (h : Agree (.obj ((k, s) :: fs)) j j) :
    ∃ v, j.get? k = some v ∧ Agree s v v ∧ Agree (.obj fs) j j := by
  simp only [Agree, AgreeFields] at h ⊢
  obtain ⟨⟨x, y, h1, h2, h3⟩, h4⟩ := h
  rw [h1] at h2
  obtain rfl := Option.some.inj h2
  exact ⟨x, h1, h3, h4⟩

theorem agree_obj {fs : List (String × Schema)} {a b : J} (h : AgreeFields fs a b) : Agree (.obj fs) a b := by
  simpa only [Agree] using h

theorem field_cons {k : String} {s : Schema} {fs : List (String × Schema)} {a b x y : J} (h1 : a.get? k = some x)
    (h2 : b.get? k = some y) (h3 : Agree s x y) (h4 : AgreeFields fs a b) : AgreeFields ((k, s) :: fs) a b := by
  simp only [AgreeFields]
  exact ⟨⟨x, y, h1, h2, h3⟩, h4⟩

theorem field_nil {a b : J} : AgreeFields [] a b := by simp only [AgreeFields]

/-! ### Laws

`Law s wr from ok`: writing and reading gives the same value; every document of shape `s` is
read, and what is read agrees with the document. -/

def Law {α} (s : Schema) (wr : α → J) (fr : J → Out α) (ok : α → Prop) : Prop :=
  (∀ x, ok x → fr (wr x) = .ok x) ∧ ∀ j, HasShape s j → ∃ x, ok x ∧ fr j = .ok x ∧ Agree s j (wr x)

theorem whole_cases {j : J} {z : Int} (h : j.whole = some z) : (∃ n : Nat, j = .uint n ∧ z = n) ∨ j = .sint z := by
  cases j <;> simp [J.whole] at h
  · left; exact ⟨_, rfl, h.symm⟩
  · right; rw [h]

theorem u_law (w : Nat) : Law (.uint w) J.uint (getUNarrow w) (fun n => n < 2 ^ w) := by
  constructor
  · intro x hx; simp [getUNarrow, Nat.mod_eq_of_lt hx]
  · intro j hj
    simp only [HasShape, Agree] at hj ⊢
    obtain ⟨n, hn, h, -⟩ := hj
    refine ⟨n, hn, ?_, n, hn, h, rfl⟩
    rcases whole_cases h with ⟨m, rfl, he⟩ | rfl
    · have : n = m := by exact_mod_cast he
      subst this
      simp [getUNarrow, Nat.mod_eq_of_lt hn]
    · have : ((n : Int) % 2 ^ w).toNat = n := by
        rw [Int.emod_eq_of_lt (by omega) (by exact_mod_cast hn)]; simp
      simp only [getUNarrow, this]

theorem u64_law : Law (.uint 64) J.uint getU64 (fun n => n < 2 ^ 64) := by
  constructor
  · intro x hx; simp only [getU64, Nat.mod_eq_of_lt hx]
  · intro j hj
    simp only [HasShape, Agree] at hj ⊢
    obtain ⟨n, hn, h, -⟩ := hj
    refine ⟨n, hn, ?_, n, hn, h, rfl⟩
    rcases whole_cases h with ⟨m, rfl, he⟩ | rfl
    · have : n = m := by exact_mod_cast he
      subst this
      simp only [getU64, Nat.mod_eq_of_lt hn]
    · have : ((n : Int) % 2 ^ 64).toNat = n := by
        rw [Int.emod_eq_of_lt (by omega) (by exact_mod_cast hn)]; simp
      simp only [getU64, this]

theorem i64_law : Law .int64 J.sint getI64 (fun z => -2 ^ 63 ≤ z ∧ z < 2 ^ 63) := by
  have key : ∀ z : Int, -2 ^ 63 ≤ z → z < 2 ^ 63 → (z + 2 ^ 63) % 2 ^ 64 - 2 ^ 63 = z := by
    intro z h1 h2
    rw [Int.emod_eq_of_lt (by omega) (by omega)]; omega
  constructor
  · intro x hx; simp only [getI64, key x hx.1 hx.2]
  · intro j hj
    simp only [HasShape, Agree] at hj ⊢
    obtain ⟨z, h1, h2, h, -⟩ := hj
    refine ⟨z, ⟨h1, h2⟩, ?_, z, h1, h2, h, rfl⟩
    rcases whole_cases h with ⟨m, rfl, he⟩ | rfl
    · subst he; simp only [getI64, key _ h1 h2]
    · simp only [getI64, key z h1 h2]

theorem dbl_law : Law .num J.float getDbl (fun _ => True) := by
  constructor
  · intro x _; rfl
  · intro j hj
    simp only [HasShape, Agree] at hj ⊢
    obtain ⟨d, h, -⟩ := hj
    refine ⟨d, trivial, ?_, d, h, rfl⟩
    cases j <;> simp only [J.number, reduceCtorEq] at h
    · next n =>
      split at h
      · next hn => obtain rfl := Option.some.inj h; simp only [getDbl, roundNat, if_pos hn]
      · cases h
    · next z =>
      split at h
      · next hn => obtain rfl := Option.some.inj h; simp only [getDbl, roundNat, if_pos hn]
      · cases h
    · obtain rfl := Option.some.inj h; rfl

theorem str_law : Law .str J.str getStr (fun _ => True) := by
  constructor
  · intro x _; rfl
  · intro j hj
    simp only [HasShape, Agree] at hj ⊢
    obtain ⟨s, rfl, -⟩ := hj
    exact ⟨s, trivial, rfl, s, rfl, rfl⟩

theorem f2 {α} {R : α → α → Prop} : ∀ {l : List α}, List.Forall₂ R l l → ∀ x ∈ l, R x x := by
  intro l
  induction l with
  | nil => intro _ x hx; cases hx
  | cons a l ih =>
    intro h x hx
    cases h with
    | cons h1 h2 =>
      rcases List.mem_cons.mp hx with rfl | hx
      · exact h1
      · exact ih h2 x hx

theorem readEntries_to {α} {wr : α → J} {fr : J → Out α} {ok : α → Prop} (h : ∀ x, ok x → fr (wr x) = .ok x) :
    ∀ m : Map α, (∀ p ∈ m, ok p.2) → readEntries fr (m.map fun p => (p.1, wr p.2)) = .ok m := by
  intro m
  induction m with
  | nil => intro _; rfl
  | cons p m ih =>
    intro hm
    simp only [List.map_cons, readEntries, h p.2 (hm p (by simp)), ih (fun q hq => hm q (by simp [hq])), Out.ok_bind, Out.pure_eq]

theorem map_law {α} {s : Schema} {wr : α → J} {fr : J → Out α} {ok : α → Prop} (h : Law s wr fr ok) :
    Law (.map s) (mapJ wr) (getMap fr) (MapWF ok) := by
  constructor
  · intro m hm; exact readEntries_to h.1 m hm.2
  · intro j hj
    simp only [HasShape, Agree] at hj
    obtain ⟨la, lb, rfl, hb, hs, hf⟩ := hj
    injection hb with hb
    subst hb
    have hf : ∀ p ∈ la, Agree s p.2 p.2 := fun p hp => (f2 hf p hp).2
    have main : ∀ l : List (String × J), (∀ p ∈ l, Agree s p.2 p.2) → ∃ m : Map α, m.map Prod.fst = l.map Prod.fst ∧
        (∀ p ∈ m, ok p.2) ∧ readEntries fr l = .ok m ∧
        List.Forall₂ (fun p q => p.1 = q.1 ∧ Agree s p.2 q.2) l (m.map fun p => (p.1, wr p.2)) := by
      intro l
      induction l with
      | nil => intro _; exact ⟨[], rfl, by simp, rfl, .nil⟩
      | cons p l ih =>
        intro hl
        obtain ⟨m, h1, h2, h3, h4⟩ := ih fun q hq => hl q (by simp [hq])
        obtain ⟨x, g1, g2, g3⟩ := h.2 p.2 (hl p (by simp))
        refine ⟨(p.1, x) :: m, by simp [h1], ?_, ?_, ?_⟩
        · intro q hq
          rcases List.mem_cons.mp hq with rfl | hq
          · exact g1
          · exact h2 q hq
        · simp only [readEntries, g2, h3, Out.ok_bind, Out.pure_eq]
        · exact .cons ⟨rfl, g3⟩ h4
    obtain ⟨m, h1, h2, h3, h4⟩ := main la hf
    refine ⟨m, ⟨?_, h2⟩, h3, ?_⟩
    · have e : ∀ {β : Type} (l : List (String × β)), Srt l ↔ (l.map Prod.fst).Pairwise (· < ·) := by
        intro β l; rw [List.pairwise_map]
      exact (e m).mpr (by rw [h1]; exact (e la).mp hs)
    · simp only [Agree]
      exact ⟨la, _, rfl, rfl, hs, h4⟩

theorem arr_law {α} (n : Nat) {s : Schema} {wr : α → J} {fr : J → Out α} {ok : α → Prop} (h : Law s wr fr ok) :
    Law (.arr n s) (arrJ wr) (getArr n fr) (fun l => l.length = n ∧ ∀ v ∈ l, ok v) := by
  constructor
  · rintro l ⟨rfl, hl⟩
    show readFirst fr l.length (l.map wr) = .ok l
    induction l with
    | nil => rfl
    | cons p m ih =>
      simp only [List.length_cons, List.map_cons, readFirst, h.1 p (hl p (by simp)), ih (fun q hq => hl q (by simp [hq])),
        Out.ok_bind, Out.pure_eq]
  · intro j hj
    simp only [HasShape, Agree] at hj
    obtain ⟨la, lb, rfl, hb, rfl, hf⟩ := hj
    injection hb with hb
    subst hb
    have hf : ∀ p ∈ la, Agree s p p := fun p hp => f2 hf p hp
    have main : ∀ l : List J, (∀ p ∈ l, Agree s p p) → ∃ m : List α, m.length = l.length ∧
        (∀ p ∈ m, ok p) ∧ readFirst fr l.length l = .ok m ∧ List.Forall₂ (fun p q => Agree s p q) l (m.map wr) := by
      intro l
      induction l with
      | nil => intro _; exact ⟨[], rfl, by simp, rfl, .nil⟩
      | cons p l ih =>
        intro hl
        obtain ⟨m, h1, h2, h3, h4⟩ := ih fun q hq => hl q (by simp [hq])
        obtain ⟨x, g1, g2, g3⟩ := h.2 p (hl p (by simp))
        refine ⟨x :: m, by simp [h1], ?_, ?_, ?_⟩
        · intro q hq
          rcases List.mem_cons.mp hq with rfl | hq
          · exact g1
          · exact h2 q hq
        · simp only [List.length_cons, readFirst, g2, h3, Out.ok_bind, Out.pure_eq]
        · exact .cons g3 h4
    obtain ⟨m, h1, h2, h3, h4⟩ := main la hf
    refine ⟨m, ⟨h1, h2⟩, h3, ?_⟩
    simp only [Agree]
    exact ⟨la, _, rfl, rfl, rfl, h4⟩

/-! ### Everything that is read -/

/-- Whatever is read is a conversion of what is in the document. -/
def Sound {α} (s : Schema) (wr : α → J) (fr : J → Out α) : Prop := ∀ j x, fr j = .ok x → Reads s j (wr x)

theorem trunc_spec {lo hi : Int} {d : Dbl} {z : Int} (h : truncTo lo hi d = .ok z) :
    ∃ neg m e, d = .fin neg m e ∧ lo ≤ z ∧ z < hi ∧ (if neg then z ≤ 0 else 0 ≤ z) ∧
      z.natAbs * 2 ^ e ≤ m ∧ m < (z.natAbs + 1) * 2 ^ e := by
  cases d with
  | nan => simp [truncTo] at h
  | inf s => simp [truncTo] at h
  | fin neg m e =>
    unfold truncTo at h
    have hpos : 0 < 2 ^ e := Nat.pow_pos (by omega)
    have h1 : m / 2 ^ e * 2 ^ e ≤ m := Nat.div_mul_le_self m _
    have h2 : m < (m / 2 ^ e + 1) * 2 ^ e := by
      rw [Nat.add_mul, Nat.one_mul, Nat.mul_comm]
      exact Nat.lt_mul_div_succ m hpos
    simp only at h
    generalize hy : (if neg = true then -((m / 2 ^ e : Nat) : Int) else ((m / 2 ^ e : Nat) : Int)) = y at h
    by_cases hr : lo ≤ y ∧ y < hi
    · rw [if_pos hr] at h
      have hz : y = z := Out.ok.inj h
      subst hz
      have ha : y.natAbs = m / 2 ^ e := by
        rw [← hy]; split
        · rw [Int.natAbs_neg, Int.natAbs_natCast]
        · rw [Int.natAbs_natCast]
      refine ⟨neg, m, e, rfl, hr.1, hr.2, ?_, by rw [ha]; exact h1, by rw [ha]; exact h2⟩
      rw [← hy]
      cases neg
      · simp only [Bool.false_eq_true, if_false]; exact Int.natCast_nonneg _
      · simp only [if_true]; exact Int.neg_nonpos_of_nonneg (Int.natCast_nonneg _)
    · rw [if_neg hr] at h; cases h

theorem toU_nat (w m : Nat) : ToUnsigned w (.uint m) (m % 2 ^ w) := by
  refine .whole (z := m) rfl (Nat.mod_lt _ (Nat.pow_pos (by omega))) ?_
  have := Nat.mod_add_div m (2 ^ w)
  refine ⟨(m / 2 ^ w : Nat), ?_⟩
  have h2 : (m : Int) = ((m % 2 ^ w + 2 ^ w * (m / 2 ^ w) : Nat) : Int) := by rw [this]
  rw [h2]
  push_cast
  ring_nf

theorem toU_int (w : Nat) (z : Int) : ToUnsigned w (.sint z) (z % 2 ^ w).toNat := by
  have hp : (0 : Int) < 2 ^ w := by positivity
  have h0 := Int.emod_nonneg z (ne_of_gt hp)
  have h1 := Int.emod_lt_of_pos z hp
  have h2 : (((z % 2 ^ w).toNat : Nat) : Int) = z % 2 ^ w := Int.toNat_of_nonneg h0
  refine .whole (z := z) rfl ?_ ?_
  · have : (((z % 2 ^ w).toNat : Nat) : Int) < ((2 ^ w : Nat) : Int) := by rw [h2]; push_cast; exact h1
    exact_mod_cast this
  · rw [h2]; exact Int.dvd_self_sub_emod

theorem toU_float {w : Nat} {d : Dbl} {z : Int} (h : truncTo 0 (2 ^ w) d = .ok z) : ToUnsigned w (.float d) z.toNat := by
  obtain ⟨neg, m, e, rfl, h1, h2, h3, h4, h5⟩ := trunc_spec h
  have ha : z.natAbs = z.toNat := by omega
  rw [ha] at h4 h5
  refine .fraction ?_ h4 h5 ?_
  · cases neg
    · exact .inl rfl
    · right; simp only [if_true] at h3; omega
  · have : ((z.toNat : Nat) : Int) < ((2 ^ w : Nat) : Int) := by rw [Int.toNat_of_nonneg h1]; push_cast; exact h2
    exact_mod_cast this

theorem u_sound (w : Nat) (hw : w ≠ 64) : Sound (.uint w) J.uint (getUNarrow w) := by
  intro j n h
  simp only [Reads]
  refine ⟨n, rfl, ?_⟩
  cases j <;> simp only [getUNarrow, reduceCtorEq, Out.ok.injEq] at h
  · next b => rw [← h]; cases b <;> exact .bool hw
  · rw [← h]; exact toU_nat w _
  · rw [← h]; exact toU_int w _
  · obtain ⟨z, h1, h2⟩ := Out.bind_eq_ok.mp h
    rw [← Out.ok.inj h2]; exact toU_float h1

theorem u64_sound : Sound (.uint 64) J.uint getU64 := by
  intro j n h
  simp only [Reads]
  refine ⟨n, rfl, ?_⟩
  cases j <;> simp only [getU64, reduceCtorEq, Out.ok.injEq] at h
  · rw [← h]; exact toU_nat 64 _
  · rw [← h]; exact toU_int 64 _
  · obtain ⟨z, h1, h2⟩ := Out.bind_eq_ok.mp h
    rw [← Out.ok.inj h2]; exact toU_float h1

theorem i64_sound : Sound .int64 J.sint getI64 := by
  intro j n h
  simp only [Reads]
  refine ⟨n, rfl, ?_⟩
  have key : ∀ (a : J) (z : Int), a.whole = some z → ToSigned a ((z + 2 ^ 63) % 2 ^ 64 - 2 ^ 63) := by
    intro a z ha
    exact .whole ha (by omega) (by omega) (by omega)
  cases j <;> simp only [getI64, reduceCtorEq, Out.ok.injEq] at h
  · rw [← h]; exact key _ _ rfl
  · rw [← h]; exact key _ _ rfl
  · obtain ⟨neg, m, e, rfl, h1, h2, h3, h4, h5⟩ := trunc_spec h
    exact .fraction h3 h4 h5 h1 h2

/-- Integer to double conversion is IEEE rounding. -/
theorem round_nearest (n : Nat) : RoundsTo n (roundNat n) := by
  by_cases h : n < 2 ^ 53
  · have : roundNat n = n := by unfold roundNat; rw [if_pos h]
    rw [this]
    refine ⟨⟨n, 0, h, by simp⟩, fun m _ => ⟨by simp, fun h1 h2 => ?_⟩⟩
    exfalso; apply h2; omega
  · have hn : n ≠ 0 := by omega
    have hlog : 2 ^ Nat.log2 n ≤ n := Nat.log2_self_le hn
    have hlt2 : n < 2 ^ (Nat.log2 n + 1) := Nat.lt_log2_self
    have h53 : 53 ≤ Nat.log2 n := (Nat.le_log2 hn).mpr (by omega)
    unfold roundNat
    rw [if_neg h]
    simp only
    generalize hk : Nat.log2 n - 52 = k
    have hk1 : 1 ≤ k := by omega
    have hlo : 2 ^ 52 * 2 ^ k ≤ n := by rw [← Nat.pow_add, show 52 + k = Nat.log2 n by omega]; exact hlog
    have hhi : n < 2 ^ 53 * 2 ^ k := by rw [← Nat.pow_add, show 53 + k = Nat.log2 n + 1 by omega]; exact hlt2
    have hpk : 2 ^ k = 2 * 2 ^ (k - 1) := by
      rw [← Nat.pow_succ']; congr 1; omega
    have hpos : 0 < 2 ^ k := Nat.pow_pos (by omega)
    have hq1 : 2 ^ 52 ≤ n / 2 ^ k := (Nat.le_div_iff_mul_le hpos).mpr hlo
    have hq2 : n / 2 ^ k < 2 ^ 53 := (Nat.div_lt_iff_lt_mul hpos).mpr hhi
    have hdm := Nat.div_add_mod n (2 ^ k)
    have hlt : n % 2 ^ k < 2 ^ k := Nat.mod_lt _ hpos
    generalize n / 2 ^ k = q at *
    generalize n % 2 ^ k = r at *
    have e1 : q * 2 ^ k + r = n := by rw [Nat.mul_comm]; exact hdm
    have e2 : (q + 1) * 2 ^ k = q * 2 ^ k + 2 ^ k := by ring
    -- every double is a multiple of `2^k` or below `q * 2^k`
    have grid : ∀ m, IsDouble m → (∃ j, m = j * 2 ^ k) ∨ m < q * 2 ^ k := by
      rintro m ⟨a, e, ha, rfl⟩
      by_cases he : k ≤ e
      · refine Or.inl ⟨a * 2 ^ (e - k), ?_⟩
        rw [Nat.mul_assoc, ← Nat.pow_add]; congr 2; omega
      · right
        have h1 : a * 2 ^ e < 2 ^ 53 * 2 ^ e := Nat.mul_lt_mul_of_pos_right ha (Nat.pow_pos (by omega))
        have h2 : 2 ^ 53 * 2 ^ e ≤ 2 ^ 52 * 2 ^ k := by
          rw [← Nat.pow_add, ← Nat.pow_add]; exact Nat.pow_le_pow_right (by omega) (by omega)
        have h3 : 2 ^ 52 * 2 ^ k ≤ q * 2 ^ k := Nat.mul_le_mul_right _ hq1
        omega
    -- so it is at most `q * 2^k` or at least `(q+1) * 2^k`
    have side : ∀ m, IsDouble m → m ≤ q * 2 ^ k ∨ q * 2 ^ k + 2 ^ k ≤ m := by
      intro m hm
      rcases grid m hm with ⟨j, rfl⟩ | h
      · by_cases hj : j ≤ q
        · exact Or.inl (Nat.mul_le_mul_right _ hj)
        · right; rw [← e2]; exact Nat.mul_le_mul_right _ (by omega)
      · exact Or.inl (by omega)
    have dq : IsDouble (q * 2 ^ k) := ⟨q, k, hq2, rfl⟩
    have dq1 : IsDouble ((q + 1) * 2 ^ k) := by
      by_cases hq : q + 1 < 2 ^ 53
      · exact ⟨q + 1, k, hq, rfl⟩
      · exact ⟨2 ^ 52, k + 1, by omega, by rw [show q + 1 = 2 * 2 ^ 52 by omega, Nat.pow_succ]; ring⟩
    split
    · next hu =>
      refine ⟨dq1, fun m hm => ?_⟩
      rw [e2]
      refine ⟨by rcases side m hm with hs | hs <;> omega, fun htie hne => ?_⟩
      have : q % 2 = 1 := by
        rcases hu with hu | hu
        · exfalso
          rcases side m hm with hs | hs <;> omega
        · exact hu.2
      rw [← e2]
      by_cases hq : q + 1 < 2 ^ 53
      · exact ⟨q + 1, k, by omega, hq, by omega, rfl⟩
      · exact ⟨2 ^ 52, k + 1, by omega, by omega, by omega, by rw [show q + 1 = 2 * 2 ^ 52 by omega, Nat.pow_succ]; ring⟩
    · next hu =>
      have hu1 : 2 * r ≤ 2 ^ k := by
        by_contra hc
        exact hu (.inl (by omega))
      refine ⟨dq, fun m hm => ⟨by rcases side m hm with hs | hs <;> omega, fun htie hne => ?_⟩⟩
      have hr : 2 * r = 2 ^ k := by
        rcases side m hm with hs | hs <;> omega
      have : q % 2 = 0 := by
        by_contra hc
        exact hu (.inr ⟨hr, by omega⟩)
      exact ⟨q, k, hq1, hq2, this, rfl⟩

theorem dbl_sound : Sound .num J.float getDbl := by
  intro j d h
  simp only [Reads]
  refine ⟨d, rfl, ?_⟩
  cases j <;> simp only [getDbl, reduceCtorEq, Out.ok.injEq] at h
  · next n =>
    rw [← h]
    have := ToDouble.whole (a := .uint n) (z := n) (r := roundNat n) rfl (round_nearest n)
    have e : decide ((n : Int) < 0) = false := by simp
    rw [e] at this
    exact this
  · next z =>
    rw [← h]
    exact .whole rfl (round_nearest _)
  · rw [← h]; exact .float

theorem str_sound : Sound .str J.str getStr := by
  intro j d h
  simp only [Reads]
  cases j <;> simp only [getStr, reduceCtorEq, Out.ok.injEq] at h
  exact ⟨_, rfl, by rw [h]⟩

theorem map_sound {α} {s : Schema} {wr : α → J} {fr : J → Out α} (h : Sound s wr fr) : Sound (.map s) (mapJ wr) (getMap fr) := by
  intro j m hm
  cases j <;> simp only [getMap, reduceCtorEq] at hm
  next l =>
  simp only [Reads]
  refine ⟨l, _, rfl, rfl, ?_⟩
  induction l generalizing m with
  | nil => simp only [readEntries, Out.ok.injEq] at hm; rw [← hm]; exact .nil
  | cons p l ih =>
    simp only [readEntries] at hm
    obtain ⟨a, h1, h2⟩ := Out.bind_eq_ok.mp hm
    obtain ⟨m', h3, h4⟩ := Out.bind_eq_ok.mp h2
    obtain rfl := Out.ok.inj h4
    exact .cons ⟨rfl, h _ _ h1⟩ (ih m' h3)

theorem arr_sound {α} (n : Nat) {s : Schema} {wr : α → J} {fr : J → Out α} (h : Sound s wr fr) : Sound (.arr n s) (arrJ wr) (getArr n fr) := by
  intro j m hm
  cases j <;> simp only [getArr, reduceCtorEq] at hm
  next l =>
  simp only [Reads]
  have : n ≤ l.length ∧ List.Forall₂ (fun p q => Reads s p q) (l.take n) (m.map wr) := by
    induction n generalizing l m with
    | zero => simp only [readFirst, Out.ok.injEq] at hm; rw [← hm]; exact ⟨by omega, .nil⟩
    | succ n ih =>
      cases l with
      | nil => simp [readFirst] at hm
      | cons p l =>
        simp only [readFirst] at hm
        obtain ⟨a, h1, h2⟩ := Out.bind_eq_ok.mp hm
        obtain ⟨m', h3, h4⟩ := Out.bind_eq_ok.mp h2
        obtain rfl := Out.ok.inj h4
        obtain ⟨g1, g2⟩ := ih m' l h3
        exact ⟨by simp; exact g1, .cons (h _ _ h1) g2⟩
  exact ⟨l, _, rfl, rfl, this.1, this.2⟩

theorem at_ok {j : J} {k : String} {v : J} (h : j.at k = .ok v) : j.get? k = some v := by
  unfold J.at at h
  split at h
  · next e => rw [e, Out.ok.inj h]
  · cases h

/-- One `j.at(key).get_to(member)`. -/
theorem step {α β} {j : J} {k : String} {fr : J → Out α} {rest : α → Out β} {y : β}
    (h : (j.at k >>= fun v => fr v >>= rest) = .ok y) : ∃ v a, j.get? k = some v ∧ fr v = .ok a ∧ rest a = .ok y := by
  obtain ⟨v, h1, h2⟩ := Out.bind_eq_ok.mp h
  obtain ⟨a, h3, h4⟩ := Out.bind_eq_ok.mp h2
  exact ⟨v, a, at_ok h1, h3, h4⟩

theorem reads_cons {k : String} {s : Schema} {fs : List (String × Schema)} {a b x y : J} (h1 : a.get? k = some x)
    (h2 : b.get? k = some y) (h3 : Reads s x y) (h4 : ReadsFields fs a b) : ReadsFields ((k, s) :: fs) a b := by
  simp only [ReadsFields]
  exact ⟨⟨x, y, h1, h2, h3⟩, h4⟩

theorem reads_nil {a b : J} : ReadsFields [] a b := by simp only [ReadsFields]

theorem reads_obj {fs : List (String × Schema)} {a b : J} (h : ReadsFields fs a b) : Reads (.obj fs) a b := by
  simpa only [Reads] using h

/-! ### Everything that is written -/

/-- What is written has the shape. -/
def Shaped {α} (s : Schema) (wr : α → J) (ok : α → Prop) : Prop := ∀ x, ok x → HasShape s (wr x)

theorem u_shaped (w : Nat) : Shaped (.uint w) J.uint (fun n => n < 2 ^ w) := by
  intro n hn; simp only [HasShape, Agree]; exact ⟨n, hn, rfl, rfl⟩

theorem i64_shaped : Shaped .int64 J.sint (fun z => -2 ^ 63 ≤ z ∧ z < 2 ^ 63) := by
  intro z hz; simp only [HasShape, Agree]; exact ⟨z, hz.1, hz.2, rfl, rfl⟩

theorem dbl_shaped : Shaped .num J.float (fun _ => True) := by
  intro d _; simp only [HasShape, Agree]; exact ⟨d, rfl, rfl⟩

theorem str_shaped : Shaped .str J.str (fun _ => True) := by
  intro d _; simp only [HasShape, Agree]; exact ⟨d, rfl, rfl⟩

theorem f2_map {α β} {R : β → β → Prop} {f : α → β} : ∀ {l : List α}, (∀ x ∈ l, R (f x) (f x)) → List.Forall₂ R (l.map f) (l.map f) := by
  intro l
  induction l with
  | nil => intro _; exact .nil
  | cons a l ih => intro h; exact .cons (h a (by simp)) (ih fun x hx => h x (by simp [hx]))

theorem map_shaped {α} {s : Schema} {wr : α → J} {ok : α → Prop} (h : Shaped s wr ok) : Shaped (.map s) (mapJ wr) (MapWF ok) := by
  intro m hm
  simp only [HasShape, Agree]
  refine ⟨_, _, rfl, rfl, ?_, f2_map fun p hp => ⟨rfl, h _ (hm.2 p hp)⟩⟩
  rw [List.pairwise_map]
  exact hm.1

theorem arr_shaped {α} (n : Nat) {s : Schema} {wr : α → J} {ok : α → Prop} (h : Shaped s wr ok) :
    Shaped (.arr n s) (arrJ wr) (fun l => l.length = n ∧ ∀ v ∈ l, ok v) := by
  intro m hm
  simp only [HasShape, Agree]
  exact ⟨_, _, rfl, rfl, by rw [List.length_map]; exact hm.1, f2_map fun p hp => h _ (hm.2 p hp)⟩


/-! ## Byron -/

namespace Byron

theorem SoftforkRule.law : Law softforkRuleS SoftforkRule.toJson SoftforkRule.fromJson SoftforkRule.WF := by
  constructor
  · intro x hx
    unfold SoftforkRule.fromJson SoftforkRule.toJson
    rw [at_mkObj rfl, Out.ok_bind, str_law.1 _ trivial, Out.ok_bind]
    rw [at_mkObj rfl, Out.ok_bind, str_law.1 _ trivial, Out.ok_bind]
    rw [at_mkObj rfl, Out.ok_bind, str_law.1 _ trivial, Out.ok_bind]
    rfl
  · intro j hj
    unfold HasShape softforkRuleS at hj
    obtain ⟨v0, g0, a0, hj⟩ := field_self hj
    obtain ⟨v1, g1, a1, hj⟩ := field_self hj
    obtain ⟨v2, g2, a2, hj⟩ := field_self hj
    obtain ⟨x0, w0, f0, b0⟩ := str_law.2 _ a0
    obtain ⟨x1, w1, f1, b1⟩ := str_law.2 _ a1
    obtain ⟨x2, w2, f2, b2⟩ := str_law.2 _ a2
    refine ⟨⟨x0, x1, x2⟩, trivial, ?_, ?_⟩
    · unfold SoftforkRule.fromJson
      rw [at_get g0, Out.ok_bind, f0, Out.ok_bind]
      rw [at_get g1, Out.ok_bind, f1, Out.ok_bind]
      rw [at_get g2, Out.ok_bind, f2, Out.ok_bind]
      rfl
    · unfold softforkRuleS
      exact agree_obj <|
        field_cons g0 (get_mkObj rfl) b0 <|
        field_cons g1 (get_mkObj rfl) b1 <|
        field_cons g2 (get_mkObj rfl) b2 <|
        field_nil

theorem SoftforkRule.sound : Sound softforkRuleS SoftforkRule.toJson SoftforkRule.fromJson := by
  intro j x h
  unfold SoftforkRule.fromJson at h
  obtain ⟨v0, x0, g0, f0, h⟩ := step h
  obtain ⟨v1, x1, g1, f1, h⟩ := step h
  obtain ⟨v2, x2, g2, f2, h⟩ := step h
  obtain rfl := Out.ok.inj h
  unfold softforkRuleS
  exact reads_obj <|
    reads_cons g0 (get_mkObj rfl) (str_sound _ _ f0) <|
    reads_cons g1 (get_mkObj rfl) (str_sound _ _ f1) <|
    reads_cons g2 (get_mkObj rfl) (str_sound _ _ f2) <|
    reads_nil

theorem SoftforkRule.shaped : Shaped softforkRuleS SoftforkRule.toJson SoftforkRule.WF := by
  intro x hx
  unfold softforkRuleS
  exact agree_obj <|
    field_cons (get_mkObj rfl) (get_mkObj rfl) (str_shaped _ trivial) <|
    field_cons (get_mkObj rfl) (get_mkObj rfl) (str_shaped _ trivial) <|
    field_cons (get_mkObj rfl) (get_mkObj rfl) (str_shaped _ trivial) <|
    field_nil

theorem TxFeePolicy.law : Law txFeePolicyS TxFeePolicy.toJson TxFeePolicy.fromJson TxFeePolicy.WF := by
  constructor
  · intro x hx
    unfold TxFeePolicy.fromJson TxFeePolicy.toJson
    rw [at_mkObj rfl, Out.ok_bind, str_law.1 _ trivial, Out.ok_bind]
    rw [at_mkObj rfl, Out.ok_bind, str_law.1 _ trivial, Out.ok_bind]
    rfl
  · intro j hj
    unfold HasShape txFeePolicyS at hj
    obtain ⟨v0, g0, a0, hj⟩ := field_self hj
    obtain ⟨v1, g1, a1, hj⟩ := field_self hj
    obtain ⟨x0, w0, f0, b0⟩ := str_law.2 _ a0
    obtain ⟨x1, w1, f1, b1⟩ := str_law.2 _ a1
    refine ⟨⟨x0, x1⟩, trivial, ?_, ?_⟩
    · unfold TxFeePolicy.fromJson
      rw [at_get g0, Out.ok_bind, f0, Out.ok_bind]
      rw [at_get g1, Out.ok_bind, f1, Out.ok_bind]
      rfl
    · unfold txFeePolicyS
      exact agree_obj <|
        field_cons g0 (get_mkObj rfl) b0 <|
        field_cons g1 (get_mkObj rfl) b1 <|
        field_nil

theorem TxFeePolicy.sound : Sound txFeePolicyS TxFeePolicy.toJson TxFeePolicy.fromJson := by
  intro j x h
  unfold TxFeePolicy.fromJson at h
  obtain ⟨v0, x0, g0, f0, h⟩ := step h
  obtain ⟨v1, x1, g1, f1, h⟩ := step h
  obtain rfl := Out.ok.inj h
  unfold txFeePolicyS
  exact reads_obj <|
    reads_cons g0 (get_mkObj rfl) (str_sound _ _ f0) <|
    reads_cons g1 (get_mkObj rfl) (str_sound _ _ f1) <|
    reads_nil

theorem TxFeePolicy.shaped : Shaped txFeePolicyS TxFeePolicy.toJson TxFeePolicy.WF := by
  intro x hx
  unfold txFeePolicyS
  exact agree_obj <|
    field_cons (get_mkObj rfl) (get_mkObj rfl) (str_shaped _ trivial) <|
    field_cons (get_mkObj rfl) (get_mkObj rfl) (str_shaped _ trivial) <|
    field_nil

theorem BlockVersionData.law : Law blockVersionDataS BlockVersionData.toJson BlockVersionData.fromJson BlockVersionData.WF := by
  constructor
  · intro x hx
    obtain ⟨h6, h8, h9⟩ := hx
    unfold BlockVersionData.fromJson BlockVersionData.toJson
    rw [at_mkObj rfl, Out.ok_bind, str_law.1 _ trivial, Out.ok_bind]
    rw [at_mkObj rfl, Out.ok_bind, str_law.1 _ trivial, Out.ok_bind]
    rw [at_mkObj rfl, Out.ok_bind, str_law.1 _ trivial, Out.ok_bind]
    rw [at_mkObj rfl, Out.ok_bind, str_law.1 _ trivial, Out.ok_bind]
    rw [at_mkObj rfl, Out.ok_bind, str_law.1 _ trivial, Out.ok_bind]
    rw [at_mkObj rfl, Out.ok_bind, str_law.1 _ trivial, Out.ok_bind]
    rw [at_mkObj rfl, Out.ok_bind, (u_law 16).1 _ h6, Out.ok_bind]
    rw [at_mkObj rfl, Out.ok_bind, str_law.1 _ trivial, Out.ok_bind]
    rw [at_mkObj rfl, Out.ok_bind, SoftforkRule.law.1 _ h8, Out.ok_bind]
    rw [at_mkObj rfl, Out.ok_bind, TxFeePolicy.law.1 _ h9, Out.ok_bind]
    rw [at_mkObj rfl, Out.ok_bind, str_law.1 _ trivial, Out.ok_bind]
    rw [at_mkObj rfl, Out.ok_bind, str_law.1 _ trivial, Out.ok_bind]
    rw [at_mkObj rfl, Out.ok_bind, str_law.1 _ trivial, Out.ok_bind]
    rw [at_mkObj rfl, Out.ok_bind, str_law.1 _ trivial, Out.ok_bind]
    rfl
  · intro j hj
    unfold HasShape blockVersionDataS at hj
    obtain ⟨v0, g0, a0, hj⟩ := field_self hj
    obtain ⟨v1, g1, a1, hj⟩ := field_self hj
    obtain ⟨v2, g2, a2, hj⟩ := field_self hj
    obtain ⟨v3, g3, a3, hj⟩ := field_self hj
    obtain ⟨v4, g4, a4, hj⟩ := field_self hj
    obtain ⟨v5, g5, a5, hj⟩ := field_self hj
    obtain ⟨v6, g6, a6, hj⟩ := field_self hj
    obtain ⟨v7, g7, a7, hj⟩ := field_self hj
    obtain ⟨v8, g8, a8, hj⟩ := field_self hj
    obtain ⟨v9, g9, a9, hj⟩ := field_self hj
    obtain ⟨v10, g10, a10, hj⟩ := field_self hj
    obtain ⟨v11, g11, a11, hj⟩ := field_self hj
    obtain ⟨v12, g12, a12, hj⟩ := field_self hj
    obtain ⟨v13, g13, a13, hj⟩ := field_self hj
    obtain ⟨x0, w0, f0, b0⟩ := str_law.2 _ a0
    obtain ⟨x1, w1, f1, b1⟩ := str_law.2 _ a1
    obtain ⟨x2, w2, f2, b2⟩ := str_law.2 _ a2
    obtain ⟨x3, w3, f3, b3⟩ := str_law.2 _ a3
    obtain ⟨x4, w4, f4, b4⟩ := str_law.2 _ a4
    obtain ⟨x5, w5, f5, b5⟩ := str_law.2 _ a5
    obtain ⟨x6, w6, f6, b6⟩ := (u_law 16).2 _ a6
    obtain ⟨x7, w7, f7, b7⟩ := str_law.2 _ a7
    obtain ⟨x8, w8, f8, b8⟩ := SoftforkRule.law.2 _ a8
    obtain ⟨x9, w9, f9, b9⟩ := TxFeePolicy.law.2 _ a9
    obtain ⟨x10, w10, f10, b10⟩ := str_law.2 _ a10
    obtain ⟨x11, w11, f11, b11⟩ := str_law.2 _ a11
    obtain ⟨x12, w12, f12, b12⟩ := str_law.2 _ a12
    obtain ⟨x13, w13, f13, b13⟩ := str_law.2 _ a13
    refine ⟨⟨x0, x1, x2, x3, x4, x5, x6, x7, x8, x9, x10, x11, x12, x13⟩, ⟨w6, w8, w9⟩, ?_, ?_⟩
    · unfold BlockVersionData.fromJson
      rw [at_get g0, Out.ok_bind, f0, Out.ok_bind]
      rw [at_get g1, Out.ok_bind, f1, Out.ok_bind]
      rw [at_get g2, Out.ok_bind, f2, Out.ok_bind]
      rw [at_get g3, Out.ok_bind, f3, Out.ok_bind]
      rw [at_get g4, Out.ok_bind, f4, Out.ok_bind]
      rw [at_get g5, Out.ok_bind, f5, Out.ok_bind]
      rw [at_get g6, Out.ok_bind, f6, Out.ok_bind]
      rw [at_get g7, Out.ok_bind, f7, Out.ok_bind]
      rw [at_get g8, Out.ok_bind, f8, Out.ok_bind]
      rw [at_get g9, Out.ok_bind, f9, Out.ok_bind]
      rw [at_get g10, Out.ok_bind, f10, Out.ok_bind]
      rw [at_get g11, Out.ok_bind, f11, Out.ok_bind]
      rw [at_get g12, Out.ok_bind, f12, Out.ok_bind]
      rw [at_get g13, Out.ok_bind, f13, Out.ok_bind]
      rfl
    · unfold blockVersionDataS
      exact agree_obj <|
        field_cons g0 (get_mkObj rfl) b0 <|
        field_cons g1 (get_mkObj rfl) b1 <|
        field_cons g2 (get_mkObj rfl) b2 <|
        field_cons g3 (get_mkObj rfl) b3 <|
        field_cons g4 (get_mkObj rfl) b4 <|
        field_cons g5 (get_mkObj rfl) b5 <|
        field_cons g6 (get_mkObj rfl) b6 <|
        field_cons g7 (get_mkObj rfl) b7 <|
        field_cons g8 (get_mkObj rfl) b8 <|
        field_cons g9 (get_mkObj rfl) b9 <|
        field_cons g10 (get_mkObj rfl) b10 <|
        field_cons g11 (get_mkObj rfl) b11 <|
        field_cons g12 (get_mkObj rfl) b12 <|
        field_cons g13 (get_mkObj rfl) b13 <|
        field_nil

theorem BlockVersionData.sound : Sound blockVersionDataS BlockVersionData.toJson BlockVersionData.fromJson := by
  intro j x h
  unfold BlockVersionData.fromJson at h
  obtain ⟨v0, x0, g0, f0, h⟩ := step h
  obtain ⟨v1, x1, g1, f1, h⟩ := step h
  obtain ⟨v2, x2, g2, f2, h⟩ := step h
  obtain ⟨v3, x3, g3, f3, h⟩ := step h
  obtain ⟨v4, x4, g4, f4, h⟩ := step h
  obtain ⟨v5, x5, g5, f5, h⟩ := step h
  obtain ⟨v6, x6, g6, f6, h⟩ := step h
  obtain ⟨v7, x7, g7, f7, h⟩ := step h
  obtain ⟨v8, x8, g8, f8, h⟩ := step h
  obtain ⟨v9, x9, g9, f9, h⟩ := step h
  obtain ⟨v10, x10, g10, f10, h⟩ := step h
  obtain ⟨v11, x11, g11, f11, h⟩ := step h
  obtain ⟨v12, x12, g12, f12, h⟩ := step h
  obtain ⟨v13, x13, g13, f13, h⟩ := step h
  obtain rfl := Out.ok.inj h
  unfold blockVersionDataS
  exact reads_obj <|
    reads_cons g0 (get_mkObj rfl) (str_sound _ _ f0) <|
    reads_cons g1 (get_mkObj rfl) (str_sound _ _ f1) <|
    reads_cons g2 (get_mkObj rfl) (str_sound _ _ f2) <|
    reads_cons g3 (get_mkObj rfl) (str_sound _ _ f3) <|
    reads_cons g4 (get_mkObj rfl) (str_sound _ _ f4) <|
    reads_cons g5 (get_mkObj rfl) (str_sound _ _ f5) <|
    reads_cons g6 (get_mkObj rfl) (u_sound 16 (by decide) _ _ f6) <|
    reads_cons g7 (get_mkObj rfl) (str_sound _ _ f7) <|
    reads_cons g8 (get_mkObj rfl) (SoftforkRule.sound _ _ f8) <|
    reads_cons g9 (get_mkObj rfl) (TxFeePolicy.sound _ _ f9) <|
    reads_cons g10 (get_mkObj rfl) (str_sound _ _ f10) <|
    reads_cons g11 (get_mkObj rfl) (str_sound _ _ f11) <|
    reads_cons g12 (get_mkObj rfl) (str_sound _ _ f12) <|
    reads_cons g13 (get_mkObj rfl) (str_sound _ _ f13) <|
    reads_nil

theorem BlockVersionData.shaped : Shaped blockVersionDataS BlockVersionData.toJson BlockVersionData.WF := by
  intro x hx
  obtain ⟨h6, h8, h9⟩ := hx
  unfold blockVersionDataS
  exact agree_obj <|
    field_cons (get_mkObj rfl) (get_mkObj rfl) (str_shaped _ trivial) <|
    field_cons (get_mkObj rfl) (get_mkObj rfl) (str_shaped _ trivial) <|
    field_cons (get_mkObj rfl) (get_mkObj rfl) (str_shaped _ trivial) <|
    field_cons (get_mkObj rfl) (get_mkObj rfl) (str_shaped _ trivial) <|
    field_cons (get_mkObj rfl) (get_mkObj rfl) (str_shaped _ trivial) <|
    field_cons (get_mkObj rfl) (get_mkObj rfl) (str_shaped _ trivial) <|
    field_cons (get_mkObj rfl) (get_mkObj rfl) (u_shaped 16 _ h6) <|
    field_cons (get_mkObj rfl) (get_mkObj rfl) (str_shaped _ trivial) <|
    field_cons (get_mkObj rfl) (get_mkObj rfl) (SoftforkRule.shaped _ h8) <|
    field_cons (get_mkObj rfl) (get_mkObj rfl) (TxFeePolicy.shaped _ h9) <|
    field_cons (get_mkObj rfl) (get_mkObj rfl) (str_shaped _ trivial) <|
    field_cons (get_mkObj rfl) (get_mkObj rfl) (str_shaped _ trivial) <|
    field_cons (get_mkObj rfl) (get_mkObj rfl) (str_shaped _ trivial) <|
    field_cons (get_mkObj rfl) (get_mkObj rfl) (str_shaped _ trivial) <|
    field_nil

theorem ProtocolConsts.law : Law protocolConstsS ProtocolConsts.toJson ProtocolConsts.fromJson ProtocolConsts.WF := by
  constructor
  · intro x hx
    obtain ⟨h0, h1, h2, h3⟩ := hx
    unfold ProtocolConsts.fromJson ProtocolConsts.toJson
    rw [at_mkObj rfl, Out.ok_bind, (u_law 32).1 _ h0, Out.ok_bind]
    rw [at_mkObj rfl, Out.ok_bind, (u_law 32).1 _ h1, Out.ok_bind]
    rw [at_mkObj rfl, Out.ok_bind, (u_law 32).1 _ h2, Out.ok_bind]
    rw [at_mkObj rfl, Out.ok_bind, (u_law 32).1 _ h3, Out.ok_bind]
    rfl
  · intro j hj
    unfold HasShape protocolConstsS at hj
    obtain ⟨v0, g0, a0, hj⟩ := field_self hj
    obtain ⟨v1, g1, a1, hj⟩ := field_self hj
    obtain ⟨v2, g2, a2, hj⟩ := field_self hj
    obtain ⟨v3, g3, a3, hj⟩ := field_self hj
    obtain ⟨x0, w0, f0, b0⟩ := (u_law 32).2 _ a0
    obtain ⟨x1, w1, f1, b1⟩ := (u_law 32).2 _ a1
    obtain ⟨x2, w2, f2, b2⟩ := (u_law 32).2 _ a2
    obtain ⟨x3, w3, f3, b3⟩ := (u_law 32).2 _ a3
    refine ⟨⟨x0, x1, x2, x3⟩, ⟨w0, w1, w2, w3⟩, ?_, ?_⟩
    · unfold ProtocolConsts.fromJson
      rw [at_get g0, Out.ok_bind, f0, Out.ok_bind]
      rw [at_get g1, Out.ok_bind, f1, Out.ok_bind]
      rw [at_get g2, Out.ok_bind, f2, Out.ok_bind]
      rw [at_get g3, Out.ok_bind, f3, Out.ok_bind]
      rfl
    · unfold protocolConstsS
      exact agree_obj <|
        field_cons g0 (get_mkObj rfl) b0 <|
        field_cons g1 (get_mkObj rfl) b1 <|
        field_cons g2 (get_mkObj rfl) b2 <|
        field_cons g3 (get_mkObj rfl) b3 <|
        field_nil

theorem ProtocolConsts.sound : Sound protocolConstsS ProtocolConsts.toJson ProtocolConsts.fromJson := by
  intro j x h
  unfold ProtocolConsts.fromJson at h
  obtain ⟨v0, x0, g0, f0, h⟩ := step h
  obtain ⟨v1, x1, g1, f1, h⟩ := step h
  obtain ⟨v2, x2, g2, f2, h⟩ := step h
  obtain ⟨v3, x3, g3, f3, h⟩ := step h
  obtain rfl := Out.ok.inj h
  unfold protocolConstsS
  exact reads_obj <|
    reads_cons g0 (get_mkObj rfl) (u_sound 32 (by decide) _ _ f0) <|
    reads_cons g1 (get_mkObj rfl) (u_sound 32 (by decide) _ _ f1) <|
    reads_cons g2 (get_mkObj rfl) (u_sound 32 (by decide) _ _ f2) <|
    reads_cons g3 (get_mkObj rfl) (u_sound 32 (by decide) _ _ f3) <|
    reads_nil

theorem ProtocolConsts.shaped : Shaped protocolConstsS ProtocolConsts.toJson ProtocolConsts.WF := by
  intro x hx
  obtain ⟨h0, h1, h2, h3⟩ := hx
  unfold protocolConstsS
  exact agree_obj <|
    field_cons (get_mkObj rfl) (get_mkObj rfl) (u_shaped 32 _ h0) <|
    field_cons (get_mkObj rfl) (get_mkObj rfl) (u_shaped 32 _ h1) <|
    field_cons (get_mkObj rfl) (get_mkObj rfl) (u_shaped 32 _ h2) <|
    field_cons (get_mkObj rfl) (get_mkObj rfl) (u_shaped 32 _ h3) <|
    field_nil

theorem DelegationData.law : Law delegationDataS DelegationData.toJson DelegationData.fromJson DelegationData.WF := by
  constructor
  · intro x hx
    have h3 := hx
    unfold DelegationData.fromJson DelegationData.toJson
    rw [at_mkObj rfl, Out.ok_bind, str_law.1 _ trivial, Out.ok_bind]
    rw [at_mkObj rfl, Out.ok_bind, str_law.1 _ trivial, Out.ok_bind]
    rw [at_mkObj rfl, Out.ok_bind, str_law.1 _ trivial, Out.ok_bind]
    rw [at_mkObj rfl, Out.ok_bind, u64_law.1 _ h3, Out.ok_bind]
    rfl
  · intro j hj
    unfold HasShape delegationDataS at hj
    obtain ⟨v0, g0, a0, hj⟩ := field_self hj
    obtain ⟨v1, g1, a1, hj⟩ := field_self hj
    obtain ⟨v2, g2, a2, hj⟩ := field_self hj
    obtain ⟨v3, g3, a3, hj⟩ := field_self hj
    obtain ⟨x0, w0, f0, b0⟩ := str_law.2 _ a0
    obtain ⟨x1, w1, f1, b1⟩ := str_law.2 _ a1
    obtain ⟨x2, w2, f2, b2⟩ := str_law.2 _ a2
    obtain ⟨x3, w3, f3, b3⟩ := u64_law.2 _ a3
    refine ⟨⟨x0, x1, x2, x3⟩, w3, ?_, ?_⟩
    · unfold DelegationData.fromJson
      rw [at_get g0, Out.ok_bind, f0, Out.ok_bind]
      rw [at_get g1, Out.ok_bind, f1, Out.ok_bind]
      rw [at_get g2, Out.ok_bind, f2, Out.ok_bind]
      rw [at_get g3, Out.ok_bind, f3, Out.ok_bind]
      rfl
    · unfold delegationDataS
      exact agree_obj <|
        field_cons g0 (get_mkObj rfl) b0 <|
        field_cons g1 (get_mkObj rfl) b1 <|
        field_cons g2 (get_mkObj rfl) b2 <|
        field_cons g3 (get_mkObj rfl) b3 <|
        field_nil

theorem DelegationData.sound : Sound delegationDataS DelegationData.toJson DelegationData.fromJson := by
  intro j x h
  unfold DelegationData.fromJson at h
  obtain ⟨v0, x0, g0, f0, h⟩ := step h
  obtain ⟨v1, x1, g1, f1, h⟩ := step h
  obtain ⟨v2, x2, g2, f2, h⟩ := step h
  obtain ⟨v3, x3, g3, f3, h⟩ := step h
  obtain rfl := Out.ok.inj h
  unfold delegationDataS
  exact reads_obj <|
    reads_cons g0 (get_mkObj rfl) (str_sound _ _ f0) <|
    reads_cons g1 (get_mkObj rfl) (str_sound _ _ f1) <|
    reads_cons g2 (get_mkObj rfl) (str_sound _ _ f2) <|
    reads_cons g3 (get_mkObj rfl) (u64_sound _ _ f3) <|
    reads_nil

theorem DelegationData.shaped : Shaped delegationDataS DelegationData.toJson DelegationData.WF := by
  intro x hx
  have h3 := hx
  unfold delegationDataS
  exact agree_obj <|
    field_cons (get_mkObj rfl) (get_mkObj rfl) (str_shaped _ trivial) <|
    field_cons (get_mkObj rfl) (get_mkObj rfl) (str_shaped _ trivial) <|
    field_cons (get_mkObj rfl) (get_mkObj rfl) (str_shaped _ trivial) <|
    field_cons (get_mkObj rfl) (get_mkObj rfl) (u_shaped 64 _ h3) <|
    field_nil

theorem VssCert.law : Law vssCertS VssCert.toJson VssCert.fromJson VssCert.WF := by
  constructor
  · intro x hx
    have h0 := hx
    unfold VssCert.fromJson VssCert.toJson
    rw [at_mkObj rfl, Out.ok_bind, (u_law 32).1 _ h0, Out.ok_bind]
    rw [at_mkObj rfl, Out.ok_bind, str_law.1 _ trivial, Out.ok_bind]
    rw [at_mkObj rfl, Out.ok_bind, str_law.1 _ trivial, Out.ok_bind]
    rw [at_mkObj rfl, Out.ok_bind, str_law.1 _ trivial, Out.ok_bind]
    rfl
  · intro j hj
    unfold HasShape vssCertS at hj
    obtain ⟨v0, g0, a0, hj⟩ := field_self hj
    obtain ⟨v1, g1, a1, hj⟩ := field_self hj
    obtain ⟨v2, g2, a2, hj⟩ := field_self hj
    obtain ⟨v3, g3, a3, hj⟩ := field_self hj
    obtain ⟨x0, w0, f0, b0⟩ := (u_law 32).2 _ a0
    obtain ⟨x1, w1, f1, b1⟩ := str_law.2 _ a1
    obtain ⟨x2, w2, f2, b2⟩ := str_law.2 _ a2
    obtain ⟨x3, w3, f3, b3⟩ := str_law.2 _ a3
    refine ⟨⟨x0, x1, x2, x3⟩, w0, ?_, ?_⟩
    · unfold VssCert.fromJson
      rw [at_get g0, Out.ok_bind, f0, Out.ok_bind]
      rw [at_get g1, Out.ok_bind, f1, Out.ok_bind]
      rw [at_get g2, Out.ok_bind, f2, Out.ok_bind]
      rw [at_get g3, Out.ok_bind, f3, Out.ok_bind]
      rfl
    · unfold vssCertS
      exact agree_obj <|
        field_cons g0 (get_mkObj rfl) b0 <|
        field_cons g1 (get_mkObj rfl) b1 <|
        field_cons g2 (get_mkObj rfl) b2 <|
        field_cons g3 (get_mkObj rfl) b3 <|
        field_nil

theorem VssCert.sound : Sound vssCertS VssCert.toJson VssCert.fromJson := by
  intro j x h
  unfold VssCert.fromJson at h
  obtain ⟨v0, x0, g0, f0, h⟩ := step h
  obtain ⟨v1, x1, g1, f1, h⟩ := step h
  obtain ⟨v2, x2, g2, f2, h⟩ := step h
  obtain ⟨v3, x3, g3, f3, h⟩ := step h
  obtain rfl := Out.ok.inj h
  unfold vssCertS
  exact reads_obj <|
    reads_cons g0 (get_mkObj rfl) (u_sound 32 (by decide) _ _ f0) <|
    reads_cons g1 (get_mkObj rfl) (str_sound _ _ f1) <|
    reads_cons g2 (get_mkObj rfl) (str_sound _ _ f2) <|
    reads_cons g3 (get_mkObj rfl) (str_sound _ _ f3) <|
    reads_nil

theorem VssCert.shaped : Shaped vssCertS VssCert.toJson VssCert.WF := by
  intro x hx
  have h0 := hx
  unfold vssCertS
  exact agree_obj <|
    field_cons (get_mkObj rfl) (get_mkObj rfl) (u_shaped 32 _ h0) <|
    field_cons (get_mkObj rfl) (get_mkObj rfl) (str_shaped _ trivial) <|
    field_cons (get_mkObj rfl) (get_mkObj rfl) (str_shaped _ trivial) <|
    field_cons (get_mkObj rfl) (get_mkObj rfl) (str_shaped _ trivial) <|
    field_nil

theorem Params.law : Law paramsS Params.toJson Params.fromJson Params.WF := by
  constructor
  · intro x hx
    obtain ⟨h0, h1, h3, h4, h5, h6, h7, h8⟩ := hx
    unfold Params.fromJson Params.toJson
    rw [at_mkObj rfl, Out.ok_bind, (map_law str_law).1 _ h0, Out.ok_bind]
    rw [at_mkObj rfl, Out.ok_bind, BlockVersionData.law.1 _ h1, Out.ok_bind]
    rw [at_mkObj rfl, Out.ok_bind, str_law.1 _ trivial, Out.ok_bind]
    rw [at_mkObj rfl, Out.ok_bind, ProtocolConsts.law.1 _ h3, Out.ok_bind]
    rw [at_mkObj rfl, Out.ok_bind, u64_law.1 _ h4, Out.ok_bind]
    rw [at_mkObj rfl, Out.ok_bind, (map_law (u_law 32)).1 _ h5, Out.ok_bind]
    rw [at_mkObj rfl, Out.ok_bind, (map_law DelegationData.law).1 _ h6, Out.ok_bind]
    rw [at_mkObj rfl, Out.ok_bind, (map_law u64_law).1 _ h7, Out.ok_bind]
    rw [at_mkObj rfl, Out.ok_bind, (map_law VssCert.law).1 _ h8, Out.ok_bind]
    rfl
  · intro j hj
    unfold HasShape paramsS at hj
    obtain ⟨v0, g0, a0, hj⟩ := field_self hj
    obtain ⟨v1, g1, a1, hj⟩ := field_self hj
    obtain ⟨v2, g2, a2, hj⟩ := field_self hj
    obtain ⟨v3, g3, a3, hj⟩ := field_self hj
    obtain ⟨v4, g4, a4, hj⟩ := field_self hj
    obtain ⟨v5, g5, a5, hj⟩ := field_self hj
    obtain ⟨v6, g6, a6, hj⟩ := field_self hj
    obtain ⟨v7, g7, a7, hj⟩ := field_self hj
    obtain ⟨v8, g8, a8, hj⟩ := field_self hj
    obtain ⟨x0, w0, f0, b0⟩ := (map_law str_law).2 _ a0
    obtain ⟨x1, w1, f1, b1⟩ := BlockVersionData.law.2 _ a1
    obtain ⟨x2, w2, f2, b2⟩ := str_law.2 _ a2
    obtain ⟨x3, w3, f3, b3⟩ := ProtocolConsts.law.2 _ a3
    obtain ⟨x4, w4, f4, b4⟩ := u64_law.2 _ a4
    obtain ⟨x5, w5, f5, b5⟩ := (map_law (u_law 32)).2 _ a5
    obtain ⟨x6, w6, f6, b6⟩ := (map_law DelegationData.law).2 _ a6
    obtain ⟨x7, w7, f7, b7⟩ := (map_law u64_law).2 _ a7
    obtain ⟨x8, w8, f8, b8⟩ := (map_law VssCert.law).2 _ a8
    refine ⟨⟨x0, x1, x2, x3, x4, x5, x6, x7, x8⟩, ⟨w0, w1, w3, w4, w5, w6, w7, w8⟩, ?_, ?_⟩
    · unfold Params.fromJson
      rw [at_get g0, Out.ok_bind, f0, Out.ok_bind]
      rw [at_get g1, Out.ok_bind, f1, Out.ok_bind]
      rw [at_get g2, Out.ok_bind, f2, Out.ok_bind]
      rw [at_get g3, Out.ok_bind, f3, Out.ok_bind]
      rw [at_get g4, Out.ok_bind, f4, Out.ok_bind]
      rw [at_get g5, Out.ok_bind, f5, Out.ok_bind]
      rw [at_get g6, Out.ok_bind, f6, Out.ok_bind]
      rw [at_get g7, Out.ok_bind, f7, Out.ok_bind]
      rw [at_get g8, Out.ok_bind, f8, Out.ok_bind]
      rfl
    · unfold paramsS
      exact agree_obj <|
        field_cons g0 (get_mkObj rfl) b0 <|
        field_cons g1 (get_mkObj rfl) b1 <|
        field_cons g2 (get_mkObj rfl) b2 <|
        field_cons g3 (get_mkObj rfl) b3 <|
        field_cons g4 (get_mkObj rfl) b4 <|
        field_cons g5 (get_mkObj rfl) b5 <|
        field_cons g6 (get_mkObj rfl) b6 <|
        field_cons g7 (get_mkObj rfl) b7 <|
        field_cons g8 (get_mkObj rfl) b8 <|
        field_nil

theorem Params.sound : Sound paramsS Params.toJson Params.fromJson := by
  intro j x h
  unfold Params.fromJson at h
  obtain ⟨v0, x0, g0, f0, h⟩ := step h
  obtain ⟨v1, x1, g1, f1, h⟩ := step h
  obtain ⟨v2, x2, g2, f2, h⟩ := step h
  obtain ⟨v3, x3, g3, f3, h⟩ := step h
  obtain ⟨v4, x4, g4, f4, h⟩ := step h
  obtain ⟨v5, x5, g5, f5, h⟩ := step h
  obtain ⟨v6, x6, g6, f6, h⟩ := step h
  obtain ⟨v7, x7, g7, f7, h⟩ := step h
  obtain ⟨v8, x8, g8, f8, h⟩ := step h
  obtain rfl := Out.ok.inj h
  unfold paramsS
  exact reads_obj <|
    reads_cons g0 (get_mkObj rfl) (map_sound (str_sound) _ _ f0) <|
    reads_cons g1 (get_mkObj rfl) (BlockVersionData.sound _ _ f1) <|
    reads_cons g2 (get_mkObj rfl) (str_sound _ _ f2) <|
    reads_cons g3 (get_mkObj rfl) (ProtocolConsts.sound _ _ f3) <|
    reads_cons g4 (get_mkObj rfl) (u64_sound _ _ f4) <|
    reads_cons g5 (get_mkObj rfl) (map_sound (u_sound 32 (by decide)) _ _ f5) <|
    reads_cons g6 (get_mkObj rfl) (map_sound (DelegationData.sound) _ _ f6) <|
    reads_cons g7 (get_mkObj rfl) (map_sound (u64_sound) _ _ f7) <|
    reads_cons g8 (get_mkObj rfl) (map_sound (VssCert.sound) _ _ f8) <|
    reads_nil

theorem Params.shaped : Shaped paramsS Params.toJson Params.WF := by
  intro x hx
  obtain ⟨h0, h1, h3, h4, h5, h6, h7, h8⟩ := hx
  unfold paramsS
  exact agree_obj <|
    field_cons (get_mkObj rfl) (get_mkObj rfl) (map_shaped (str_shaped) _ h0) <|
    field_cons (get_mkObj rfl) (get_mkObj rfl) (BlockVersionData.shaped _ h1) <|
    field_cons (get_mkObj rfl) (get_mkObj rfl) (str_shaped _ trivial) <|
    field_cons (get_mkObj rfl) (get_mkObj rfl) (ProtocolConsts.shaped _ h3) <|
    field_cons (get_mkObj rfl) (get_mkObj rfl) (u_shaped 64 _ h4) <|
    field_cons (get_mkObj rfl) (get_mkObj rfl) (map_shaped (u_shaped 32) _ h5) <|
    field_cons (get_mkObj rfl) (get_mkObj rfl) (map_shaped (DelegationData.shaped) _ h6) <|
    field_cons (get_mkObj rfl) (get_mkObj rfl) (map_shaped (u_shaped 64) _ h7) <|
    field_cons (get_mkObj rfl) (get_mkObj rfl) (map_shaped (VssCert.shaped) _ h8) <|
    field_nil

end Byron

/-! ## Shelley -/

namespace Shelley

theorem ProtocolVersion.law : Law protocolVersionS ProtocolVersion.toJson ProtocolVersion.fromJson ProtocolVersion.WF := by
  constructor
  · intro x hx
    obtain ⟨h0, h1⟩ := hx
    unfold ProtocolVersion.fromJson ProtocolVersion.toJson
    rw [at_mkObj rfl, Out.ok_bind, (u_law 32).1 _ h0, Out.ok_bind]
    rw [at_mkObj rfl, Out.ok_bind, (u_law 32).1 _ h1, Out.ok_bind]
    rfl
  · intro j hj
    unfold HasShape protocolVersionS at hj
    obtain ⟨v0, g0, a0, hj⟩ := field_self hj
    obtain ⟨v1, g1, a1, hj⟩ := field_self hj
    obtain ⟨x0, w0, f0, b0⟩ := (u_law 32).2 _ a0
    obtain ⟨x1, w1, f1, b1⟩ := (u_law 32).2 _ a1
    refine ⟨⟨x0, x1⟩, ⟨w0, w1⟩, ?_, ?_⟩
    · unfold ProtocolVersion.fromJson
      rw [at_get g0, Out.ok_bind, f0, Out.ok_bind]
      rw [at_get g1, Out.ok_bind, f1, Out.ok_bind]
      rfl
    · unfold protocolVersionS
      exact agree_obj <|
        field_cons g0 (get_mkObj rfl) b0 <|
        field_cons g1 (get_mkObj rfl) b1 <|
        field_nil

theorem ProtocolVersion.sound : Sound protocolVersionS ProtocolVersion.toJson ProtocolVersion.fromJson := by
  intro j x h
  unfold ProtocolVersion.fromJson at h
  obtain ⟨v0, x0, g0, f0, h⟩ := step h
  obtain ⟨v1, x1, g1, f1, h⟩ := step h
  obtain rfl := Out.ok.inj h
  unfold protocolVersionS
  exact reads_obj <|
    reads_cons g0 (get_mkObj rfl) (u_sound 32 (by decide) _ _ f0) <|
    reads_cons g1 (get_mkObj rfl) (u_sound 32 (by decide) _ _ f1) <|
    reads_nil

theorem ProtocolVersion.shaped : Shaped protocolVersionS ProtocolVersion.toJson ProtocolVersion.WF := by
  intro x hx
  obtain ⟨h0, h1⟩ := hx
  unfold protocolVersionS
  exact agree_obj <|
    field_cons (get_mkObj rfl) (get_mkObj rfl) (u_shaped 32 _ h0) <|
    field_cons (get_mkObj rfl) (get_mkObj rfl) (u_shaped 32 _ h1) <|
    field_nil

theorem ExtraEntropy.law : Law extraEntropyS ExtraEntropy.toJson ExtraEntropy.fromJson ExtraEntropy.WF := by
  constructor
  · intro x hx
    unfold ExtraEntropy.fromJson ExtraEntropy.toJson
    rw [at_mkObj rfl, Out.ok_bind, str_law.1 _ trivial, Out.ok_bind]
    rfl
  · intro j hj
    unfold HasShape extraEntropyS at hj
    obtain ⟨v0, g0, a0, hj⟩ := field_self hj
    obtain ⟨x0, w0, f0, b0⟩ := str_law.2 _ a0
    refine ⟨⟨x0⟩, trivial, ?_, ?_⟩
    · unfold ExtraEntropy.fromJson
      rw [at_get g0, Out.ok_bind, f0, Out.ok_bind]
      rfl
    · unfold extraEntropyS
      exact agree_obj <|
        field_cons g0 (get_mkObj rfl) b0 <|
        field_nil

theorem ExtraEntropy.sound : Sound extraEntropyS ExtraEntropy.toJson ExtraEntropy.fromJson := by
  intro j x h
  unfold ExtraEntropy.fromJson at h
  obtain ⟨v0, x0, g0, f0, h⟩ := step h
  obtain rfl := Out.ok.inj h
  unfold extraEntropyS
  exact reads_obj <|
    reads_cons g0 (get_mkObj rfl) (str_sound _ _ f0) <|
    reads_nil

theorem ExtraEntropy.shaped : Shaped extraEntropyS ExtraEntropy.toJson ExtraEntropy.WF := by
  intro x hx
  unfold extraEntropyS
  exact agree_obj <|
    field_cons (get_mkObj rfl) (get_mkObj rfl) (str_shaped _ trivial) <|
    field_nil

theorem ProtocolParameters.law : Law protocolParametersS ProtocolParameters.toJson ProtocolParameters.fromJson ProtocolParameters.WF := by
  constructor
  · intro x hx
    obtain ⟨h0, h1, h2, h3, h4, h5, h6, h7, h8, h9, h10, h11, h12, h13⟩ := hx
    unfold ProtocolParameters.fromJson ProtocolParameters.toJson
    rw [at_mkObj rfl, Out.ok_bind, ProtocolVersion.law.1 _ h0, Out.ok_bind]
    rw [at_mkObj rfl, Out.ok_bind, u64_law.1 _ h1, Out.ok_bind]
    rw [at_mkObj rfl, Out.ok_bind, u64_law.1 _ h2, Out.ok_bind]
    rw [at_mkObj rfl, Out.ok_bind, ExtraEntropy.law.1 _ h3, Out.ok_bind]
    rw [at_mkObj rfl, Out.ok_bind, u64_law.1 _ h4, Out.ok_bind]
    rw [at_mkObj rfl, Out.ok_bind, u64_law.1 _ h5, Out.ok_bind]
    rw [at_mkObj rfl, Out.ok_bind, u64_law.1 _ h6, Out.ok_bind]
    rw [at_mkObj rfl, Out.ok_bind, u64_law.1 _ h7, Out.ok_bind]
    rw [at_mkObj rfl, Out.ok_bind, u64_law.1 _ h8, Out.ok_bind]
    rw [at_mkObj rfl, Out.ok_bind, u64_law.1 _ h9, Out.ok_bind]
    rw [at_mkObj rfl, Out.ok_bind, u64_law.1 _ h10, Out.ok_bind]
    rw [at_mkObj rfl, Out.ok_bind, u64_law.1 _ h11, Out.ok_bind]
    rw [at_mkObj rfl, Out.ok_bind, u64_law.1 _ h12, Out.ok_bind]
    rw [at_mkObj rfl, Out.ok_bind, u64_law.1 _ h13, Out.ok_bind]
    rw [at_mkObj rfl, Out.ok_bind, dbl_law.1 _ trivial, Out.ok_bind]
    rw [at_mkObj rfl, Out.ok_bind, dbl_law.1 _ trivial, Out.ok_bind]
    rw [at_mkObj rfl, Out.ok_bind, dbl_law.1 _ trivial, Out.ok_bind]
    rfl
  · intro j hj
    unfold HasShape protocolParametersS at hj
    obtain ⟨v0, g0, a0, hj⟩ := field_self hj
    obtain ⟨v1, g1, a1, hj⟩ := field_self hj
    obtain ⟨v2, g2, a2, hj⟩ := field_self hj
    obtain ⟨v3, g3, a3, hj⟩ := field_self hj
    obtain ⟨v4, g4, a4, hj⟩ := field_self hj
    obtain ⟨v5, g5, a5, hj⟩ := field_self hj
    obtain ⟨v6, g6, a6, hj⟩ := field_self hj
    obtain ⟨v7, g7, a7, hj⟩ := field_self hj
    obtain ⟨v8, g8, a8, hj⟩ := field_self hj
    obtain ⟨v9, g9, a9, hj⟩ := field_self hj
    obtain ⟨v10, g10, a10, hj⟩ := field_self hj
    obtain ⟨v11, g11, a11, hj⟩ := field_self hj
    obtain ⟨v12, g12, a12, hj⟩ := field_self hj
    obtain ⟨v13, g13, a13, hj⟩ := field_self hj
    obtain ⟨v14, g14, a14, hj⟩ := field_self hj
    obtain ⟨v15, g15, a15, hj⟩ := field_self hj
    obtain ⟨v16, g16, a16, hj⟩ := field_self hj
    obtain ⟨x0, w0, f0, b0⟩ := ProtocolVersion.law.2 _ a0
    obtain ⟨x1, w1, f1, b1⟩ := u64_law.2 _ a1
    obtain ⟨x2, w2, f2, b2⟩ := u64_law.2 _ a2
    obtain ⟨x3, w3, f3, b3⟩ := ExtraEntropy.law.2 _ a3
    obtain ⟨x4, w4, f4, b4⟩ := u64_law.2 _ a4
    obtain ⟨x5, w5, f5, b5⟩ := u64_law.2 _ a5
    obtain ⟨x6, w6, f6, b6⟩ := u64_law.2 _ a6
    obtain ⟨x7, w7, f7, b7⟩ := u64_law.2 _ a7
    obtain ⟨x8, w8, f8, b8⟩ := u64_law.2 _ a8
    obtain ⟨x9, w9, f9, b9⟩ := u64_law.2 _ a9
    obtain ⟨x10, w10, f10, b10⟩ := u64_law.2 _ a10
    obtain ⟨x11, w11, f11, b11⟩ := u64_law.2 _ a11
    obtain ⟨x12, w12, f12, b12⟩ := u64_law.2 _ a12
    obtain ⟨x13, w13, f13, b13⟩ := u64_law.2 _ a13
    obtain ⟨x14, w14, f14, b14⟩ := dbl_law.2 _ a14
    obtain ⟨x15, w15, f15, b15⟩ := dbl_law.2 _ a15
    obtain ⟨x16, w16, f16, b16⟩ := dbl_law.2 _ a16
    refine ⟨⟨x0, x1, x2, x3, x4, x5, x6, x7, x8, x9, x10, x11, x12, x13, x14, x15, x16⟩, ⟨w0, w1, w2, w3, w4, w5, w6, w7, w8, w9, w10, w11, w12, w13⟩, ?_, ?_⟩
    · unfold ProtocolParameters.fromJson
      rw [at_get g0, Out.ok_bind, f0, Out.ok_bind]
      rw [at_get g1, Out.ok_bind, f1, Out.ok_bind]
      rw [at_get g2, Out.ok_bind, f2, Out.ok_bind]
      rw [at_get g3, Out.ok_bind, f3, Out.ok_bind]
      rw [at_get g4, Out.ok_bind, f4, Out.ok_bind]
      rw [at_get g5, Out.ok_bind, f5, Out.ok_bind]
      rw [at_get g6, Out.ok_bind, f6, Out.ok_bind]
      rw [at_get g7, Out.ok_bind, f7, Out.ok_bind]
      rw [at_get g8, Out.ok_bind, f8, Out.ok_bind]
      rw [at_get g9, Out.ok_bind, f9, Out.ok_bind]
      rw [at_get g10, Out.ok_bind, f10, Out.ok_bind]
      rw [at_get g11, Out.ok_bind, f11, Out.ok_bind]
      rw [at_get g12, Out.ok_bind, f12, Out.ok_bind]
      rw [at_get g13, Out.ok_bind, f13, Out.ok_bind]
      rw [at_get g14, Out.ok_bind, f14, Out.ok_bind]
      rw [at_get g15, Out.ok_bind, f15, Out.ok_bind]
      rw [at_get g16, Out.ok_bind, f16, Out.ok_bind]
      rfl
    · unfold protocolParametersS
      exact agree_obj <|
        field_cons g0 (get_mkObj rfl) b0 <|
        field_cons g1 (get_mkObj rfl) b1 <|
        field_cons g2 (get_mkObj rfl) b2 <|
        field_cons g3 (get_mkObj rfl) b3 <|
        field_cons g4 (get_mkObj rfl) b4 <|
        field_cons g5 (get_mkObj rfl) b5 <|
        field_cons g6 (get_mkObj rfl) b6 <|
        field_cons g7 (get_mkObj rfl) b7 <|
        field_cons g8 (get_mkObj rfl) b8 <|
        field_cons g9 (get_mkObj rfl) b9 <|
        field_cons g10 (get_mkObj rfl) b10 <|
        field_cons g11 (get_mkObj rfl) b11 <|
        field_cons g12 (get_mkObj rfl) b12 <|
        field_cons g13 (get_mkObj rfl) b13 <|
        field_cons g14 (get_mkObj rfl) b14 <|
        field_cons g15 (get_mkObj rfl) b15 <|
        field_cons g16 (get_mkObj rfl) b16 <|
        field_nil

theorem ProtocolParameters.sound : Sound protocolParametersS ProtocolParameters.toJson ProtocolParameters.fromJson := by
  intro j x h
  unfold ProtocolParameters.fromJson at h
  obtain ⟨v0, x0, g0, f0, h⟩ := step h
  obtain ⟨v1, x1, g1, f1, h⟩ := step h
  obtain ⟨v2, x2, g2, f2, h⟩ := step h
  obtain ⟨v3, x3, g3, f3, h⟩ := step h
  obtain ⟨v4, x4, g4, f4, h⟩ := step h
  obtain ⟨v5, x5, g5, f5, h⟩ := step h
  obtain ⟨v6, x6, g6, f6, h⟩ := step h
  obtain ⟨v7, x7, g7, f7, h⟩ := step h
  obtain ⟨v8, x8, g8, f8, h⟩ := step h
  obtain ⟨v9, x9, g9, f9, h⟩ := step h
  obtain ⟨v10, x10, g10, f10, h⟩ := step h
  obtain ⟨v11, x11, g11, f11, h⟩ := step h
  obtain ⟨v12, x12, g12, f12, h⟩ := step h
  obtain ⟨v13, x13, g13, f13, h⟩ := step h
  obtain ⟨v14, x14, g14, f14, h⟩ := step h
  obtain ⟨v15, x15, g15, f15, h⟩ := step h
  obtain ⟨v16, x16, g16, f16, h⟩ := step h
  obtain rfl := Out.ok.inj h
  unfold protocolParametersS
  exact reads_obj <|
    reads_cons g0 (get_mkObj rfl) (ProtocolVersion.sound _ _ f0) <|
    reads_cons g1 (get_mkObj rfl) (u64_sound _ _ f1) <|
    reads_cons g2 (get_mkObj rfl) (u64_sound _ _ f2) <|
    reads_cons g3 (get_mkObj rfl) (ExtraEntropy.sound _ _ f3) <|
    reads_cons g4 (get_mkObj rfl) (u64_sound _ _ f4) <|
    reads_cons g5 (get_mkObj rfl) (u64_sound _ _ f5) <|
    reads_cons g6 (get_mkObj rfl) (u64_sound _ _ f6) <|
    reads_cons g7 (get_mkObj rfl) (u64_sound _ _ f7) <|
    reads_cons g8 (get_mkObj rfl) (u64_sound _ _ f8) <|
    reads_cons g9 (get_mkObj rfl) (u64_sound _ _ f9) <|
    reads_cons g10 (get_mkObj rfl) (u64_sound _ _ f10) <|
    reads_cons g11 (get_mkObj rfl) (u64_sound _ _ f11) <|
    reads_cons g12 (get_mkObj rfl) (u64_sound _ _ f12) <|
    reads_cons g13 (get_mkObj rfl) (u64_sound _ _ f13) <|
    reads_cons g14 (get_mkObj rfl) (dbl_sound _ _ f14) <|
    reads_cons g15 (get_mkObj rfl) (dbl_sound _ _ f15) <|
    reads_cons g16 (get_mkObj rfl) (dbl_sound _ _ f16) <|
    reads_nil

theorem ProtocolParameters.shaped : Shaped protocolParametersS ProtocolParameters.toJson ProtocolParameters.WF := by
  intro x hx
  obtain ⟨h0, h1, h2, h3, h4, h5, h6, h7, h8, h9, h10, h11, h12, h13⟩ := hx
  unfold protocolParametersS
  exact agree_obj <|
    field_cons (get_mkObj rfl) (get_mkObj rfl) (ProtocolVersion.shaped _ h0) <|
    field_cons (get_mkObj rfl) (get_mkObj rfl) (u_shaped 64 _ h1) <|
    field_cons (get_mkObj rfl) (get_mkObj rfl) (u_shaped 64 _ h2) <|
    field_cons (get_mkObj rfl) (get_mkObj rfl) (ExtraEntropy.shaped _ h3) <|
    field_cons (get_mkObj rfl) (get_mkObj rfl) (u_shaped 64 _ h4) <|
    field_cons (get_mkObj rfl) (get_mkObj rfl) (u_shaped 64 _ h5) <|
    field_cons (get_mkObj rfl) (get_mkObj rfl) (u_shaped 64 _ h6) <|
    field_cons (get_mkObj rfl) (get_mkObj rfl) (u_shaped 64 _ h7) <|
    field_cons (get_mkObj rfl) (get_mkObj rfl) (u_shaped 64 _ h8) <|
    field_cons (get_mkObj rfl) (get_mkObj rfl) (u_shaped 64 _ h9) <|
    field_cons (get_mkObj rfl) (get_mkObj rfl) (u_shaped 64 _ h10) <|
    field_cons (get_mkObj rfl) (get_mkObj rfl) (u_shaped 64 _ h11) <|
    field_cons (get_mkObj rfl) (get_mkObj rfl) (u_shaped 64 _ h12) <|
    field_cons (get_mkObj rfl) (get_mkObj rfl) (u_shaped 64 _ h13) <|
    field_cons (get_mkObj rfl) (get_mkObj rfl) (dbl_shaped _ trivial) <|
    field_cons (get_mkObj rfl) (get_mkObj rfl) (dbl_shaped _ trivial) <|
    field_cons (get_mkObj rfl) (get_mkObj rfl) (dbl_shaped _ trivial) <|
    field_nil

theorem GenDeleg.law : Law genDelegS GenDeleg.toJson GenDeleg.fromJson GenDeleg.WF := by
  constructor
  · intro x hx
    unfold GenDeleg.fromJson GenDeleg.toJson
    rw [at_mkObj rfl, Out.ok_bind, str_law.1 _ trivial, Out.ok_bind]
    rw [at_mkObj rfl, Out.ok_bind, str_law.1 _ trivial, Out.ok_bind]
    rfl
  · intro j hj
    unfold HasShape genDelegS at hj
    obtain ⟨v0, g0, a0, hj⟩ := field_self hj
    obtain ⟨v1, g1, a1, hj⟩ := field_self hj
    obtain ⟨x0, w0, f0, b0⟩ := str_law.2 _ a0
    obtain ⟨x1, w1, f1, b1⟩ := str_law.2 _ a1
    refine ⟨⟨x0, x1⟩, trivial, ?_, ?_⟩
    · unfold GenDeleg.fromJson
      rw [at_get g0, Out.ok_bind, f0, Out.ok_bind]
      rw [at_get g1, Out.ok_bind, f1, Out.ok_bind]
      rfl
    · unfold genDelegS
      exact agree_obj <|
        field_cons g0 (get_mkObj rfl) b0 <|
        field_cons g1 (get_mkObj rfl) b1 <|
        field_nil

theorem GenDeleg.sound : Sound genDelegS GenDeleg.toJson GenDeleg.fromJson := by
  intro j x h
  unfold GenDeleg.fromJson at h
  obtain ⟨v0, x0, g0, f0, h⟩ := step h
  obtain ⟨v1, x1, g1, f1, h⟩ := step h
  obtain rfl := Out.ok.inj h
  unfold genDelegS
  exact reads_obj <|
    reads_cons g0 (get_mkObj rfl) (str_sound _ _ f0) <|
    reads_cons g1 (get_mkObj rfl) (str_sound _ _ f1) <|
    reads_nil

theorem GenDeleg.shaped : Shaped genDelegS GenDeleg.toJson GenDeleg.WF := by
  intro x hx
  unfold genDelegS
  exact agree_obj <|
    field_cons (get_mkObj rfl) (get_mkObj rfl) (str_shaped _ trivial) <|
    field_cons (get_mkObj rfl) (get_mkObj rfl) (str_shaped _ trivial) <|
    field_nil

/-- The part of the format that reading and writing preserve: all but the slot length. -/
def readS : Schema :=
  .obj [("activeSlotsCoeff", .num), ("protocolParams", protocolParametersS), ("genDelegs", .map genDelegS), ("updateQuorum", .uint 64), ("networkId", .str), ("maxLovelaceSupply", .uint 64), ("networkMagic", .uint 64), ("epochLength", .uint 64), ("systemStart", .str), ("slotsPerKESPeriod", .uint 64), ("maxKESEvolutions", .uint 64), ("securityParam", .uint 64)]

theorem Params.law (x : Params) : (x.WF → Params.fromJson x.toJson = .ok { x with slotLength := x.securityParam }) ∧
    ∀ j, HasShape readS j → ∃ x : Params, x.WF ∧ Params.fromJson j = .ok x ∧ x.slotLength = x.securityParam ∧ Agree readS j x.toJson := by
  constructor
  · intro hx
    obtain ⟨h1, h2, h3, h5, h6, h7, h9, h10, h11, h12⟩ := hx
    unfold Params.fromJson Params.toJson
    rw [at_mkObj rfl, Out.ok_bind, dbl_law.1 _ trivial, Out.ok_bind]
    rw [at_mkObj rfl, Out.ok_bind, ProtocolParameters.law.1 _ h1, Out.ok_bind]
    rw [at_mkObj rfl, Out.ok_bind, (map_law GenDeleg.law).1 _ h2, Out.ok_bind]
    rw [at_mkObj rfl, Out.ok_bind, u64_law.1 _ h3, Out.ok_bind]
    rw [at_mkObj rfl, Out.ok_bind, str_law.1 _ trivial, Out.ok_bind]
    rw [at_mkObj rfl, Out.ok_bind, u64_law.1 _ h5, Out.ok_bind]
    rw [at_mkObj rfl, Out.ok_bind, u64_law.1 _ h6, Out.ok_bind]
    rw [at_mkObj rfl, Out.ok_bind, u64_law.1 _ h7, Out.ok_bind]
    rw [at_mkObj rfl, Out.ok_bind, str_law.1 _ trivial, Out.ok_bind]
    rw [at_mkObj rfl, Out.ok_bind, u64_law.1 _ h9, Out.ok_bind]
    rw [at_mkObj rfl, Out.ok_bind, u64_law.1 _ h12, Out.ok_bind]
    rw [at_mkObj rfl, Out.ok_bind, u64_law.1 _ h11, Out.ok_bind]
    rw [Out.ok_bind, u64_law.1 _ h12, Out.ok_bind]
    rfl
  · intro j hj
    unfold HasShape readS at hj
    obtain ⟨v0, g0, a0, hj⟩ := field_self hj
    obtain ⟨v1, g1, a1, hj⟩ := field_self hj
    obtain ⟨v2, g2, a2, hj⟩ := field_self hj
    obtain ⟨v3, g3, a3, hj⟩ := field_self hj
    obtain ⟨v4, g4, a4, hj⟩ := field_self hj
    obtain ⟨v5, g5, a5, hj⟩ := field_self hj
    obtain ⟨v6, g6, a6, hj⟩ := field_self hj
    obtain ⟨v7, g7, a7, hj⟩ := field_self hj
    obtain ⟨v8, g8, a8, hj⟩ := field_self hj
    obtain ⟨v9, g9, a9, hj⟩ := field_self hj
    obtain ⟨v10, g10, a10, hj⟩ := field_self hj
    obtain ⟨v11, g11, a11, hj⟩ := field_self hj
    obtain ⟨x0, w0, f0, b0⟩ := dbl_law.2 _ a0
    obtain ⟨x1, w1, f1, b1⟩ := ProtocolParameters.law.2 _ a1
    obtain ⟨x2, w2, f2, b2⟩ := (map_law GenDeleg.law).2 _ a2
    obtain ⟨x3, w3, f3, b3⟩ := u64_law.2 _ a3
    obtain ⟨x4, w4, f4, b4⟩ := str_law.2 _ a4
    obtain ⟨x5, w5, f5, b5⟩ := u64_law.2 _ a5
    obtain ⟨x6, w6, f6, b6⟩ := u64_law.2 _ a6
    obtain ⟨x7, w7, f7, b7⟩ := u64_law.2 _ a7
    obtain ⟨x8, w8, f8, b8⟩ := str_law.2 _ a8
    obtain ⟨x9, w9, f9, b9⟩ := u64_law.2 _ a9
    obtain ⟨x10, w10, f10, b10⟩ := u64_law.2 _ a10
    obtain ⟨x11, w11, f11, b11⟩ := u64_law.2 _ a11
    refine ⟨⟨x0, x1, x2, x3, x4, x5, x6, x7, x8, x9, x11, x10, x11⟩, ⟨w1, w2, w3, w5, w6, w7, w9, w11, w10, w11⟩, ?_, rfl, ?_⟩
    · unfold Params.fromJson
      rw [at_get g0, Out.ok_bind, f0, Out.ok_bind]
      rw [at_get g1, Out.ok_bind, f1, Out.ok_bind]
      rw [at_get g2, Out.ok_bind, f2, Out.ok_bind]
      rw [at_get g3, Out.ok_bind, f3, Out.ok_bind]
      rw [at_get g4, Out.ok_bind, f4, Out.ok_bind]
      rw [at_get g5, Out.ok_bind, f5, Out.ok_bind]
      rw [at_get g6, Out.ok_bind, f6, Out.ok_bind]
      rw [at_get g7, Out.ok_bind, f7, Out.ok_bind]
      rw [at_get g8, Out.ok_bind, f8, Out.ok_bind]
      rw [at_get g9, Out.ok_bind, f9, Out.ok_bind]
      rw [at_get g11, Out.ok_bind, f11, Out.ok_bind]
      rw [at_get g10, Out.ok_bind, f10, Out.ok_bind]
      rw [Out.ok_bind, f11, Out.ok_bind]
      rfl
    · unfold readS
      exact agree_obj <|
        field_cons g0 (get_mkObj rfl) b0 <|
        field_cons g1 (get_mkObj rfl) b1 <|
        field_cons g2 (get_mkObj rfl) b2 <|
        field_cons g3 (get_mkObj rfl) b3 <|
        field_cons g4 (get_mkObj rfl) b4 <|
        field_cons g5 (get_mkObj rfl) b5 <|
        field_cons g6 (get_mkObj rfl) b6 <|
        field_cons g7 (get_mkObj rfl) b7 <|
        field_cons g8 (get_mkObj rfl) b8 <|
        field_cons g9 (get_mkObj rfl) b9 <|
        field_cons g10 (get_mkObj rfl) b10 <|
        field_cons g11 (get_mkObj rfl) b11 <|
        field_nil

theorem Params.sound : Sound readS Params.toJson Params.fromJson := by
  intro j x h
  unfold Params.fromJson at h
  obtain ⟨v0, x0, g0, f0, h⟩ := step h
  obtain ⟨v1, x1, g1, f1, h⟩ := step h
  obtain ⟨v2, x2, g2, f2, h⟩ := step h
  obtain ⟨v3, x3, g3, f3, h⟩ := step h
  obtain ⟨v4, x4, g4, f4, h⟩ := step h
  obtain ⟨v5, x5, g5, f5, h⟩ := step h
  obtain ⟨v6, x6, g6, f6, h⟩ := step h
  obtain ⟨v7, x7, g7, f7, h⟩ := step h
  obtain ⟨v8, x8, g8, f8, h⟩ := step h
  obtain ⟨v9, x9, g9, f9, h⟩ := step h
  obtain ⟨v10, x10, g10, f10, h⟩ := step h
  obtain ⟨v11, x11, g11, f11, h⟩ := step h
  obtain ⟨v12, x12, g12, f12, h⟩ := step h
  obtain rfl := Out.ok.inj h
  unfold readS
  exact reads_obj <|
    reads_cons g0 (get_mkObj rfl) (dbl_sound _ _ f0) <|
    reads_cons g1 (get_mkObj rfl) (ProtocolParameters.sound _ _ f1) <|
    reads_cons g2 (get_mkObj rfl) (map_sound (GenDeleg.sound) _ _ f2) <|
    reads_cons g3 (get_mkObj rfl) (u64_sound _ _ f3) <|
    reads_cons g4 (get_mkObj rfl) (str_sound _ _ f4) <|
    reads_cons g5 (get_mkObj rfl) (u64_sound _ _ f5) <|
    reads_cons g6 (get_mkObj rfl) (u64_sound _ _ f6) <|
    reads_cons g7 (get_mkObj rfl) (u64_sound _ _ f7) <|
    reads_cons g8 (get_mkObj rfl) (str_sound _ _ f8) <|
    reads_cons g9 (get_mkObj rfl) (u64_sound _ _ f9) <|
    reads_cons g11 (get_mkObj rfl) (u64_sound _ _ f11) <|
    reads_cons g12 (get_mkObj rfl) (u64_sound _ _ f12) <|
    reads_nil

theorem Params.shaped : Shaped paramsS Params.toJson Params.WF := by
  intro x hx
  obtain ⟨h1, h2, h3, h5, h6, h7, h9, h10, h11, h12⟩ := hx
  unfold paramsS
  exact agree_obj <|
    field_cons (get_mkObj rfl) (get_mkObj rfl) (dbl_shaped _ trivial) <|
    field_cons (get_mkObj rfl) (get_mkObj rfl) (ProtocolParameters.shaped _ h1) <|
    field_cons (get_mkObj rfl) (get_mkObj rfl) (map_shaped (GenDeleg.shaped) _ h2) <|
    field_cons (get_mkObj rfl) (get_mkObj rfl) (u_shaped 64 _ h3) <|
    field_cons (get_mkObj rfl) (get_mkObj rfl) (str_shaped _ trivial) <|
    field_cons (get_mkObj rfl) (get_mkObj rfl) (u_shaped 64 _ h5) <|
    field_cons (get_mkObj rfl) (get_mkObj rfl) (u_shaped 64 _ h6) <|
    field_cons (get_mkObj rfl) (get_mkObj rfl) (u_shaped 64 _ h7) <|
    field_cons (get_mkObj rfl) (get_mkObj rfl) (str_shaped _ trivial) <|
    field_cons (get_mkObj rfl) (get_mkObj rfl) (u_shaped 64 _ h9) <|
    field_cons (get_mkObj rfl) (get_mkObj rfl) (u_shaped 64 _ h10) <|
    field_cons (get_mkObj rfl) (get_mkObj rfl) (u_shaped 64 _ h11) <|
    field_cons (get_mkObj rfl) (get_mkObj rfl) (u_shaped 64 _ h12) <|
    field_nil

end Shelley

/-! ## Alonzo -/

namespace Alonzo

theorem PriceFraction.law : Law priceFractionS PriceFraction.toJson PriceFraction.fromJson PriceFraction.WF := by
  constructor
  · intro x hx
    obtain ⟨h0, h1⟩ := hx
    unfold PriceFraction.fromJson PriceFraction.toJson
    rw [at_mkObj rfl, Out.ok_bind, i64_law.1 _ h0, Out.ok_bind]
    rw [at_mkObj rfl, Out.ok_bind, i64_law.1 _ h1, Out.ok_bind]
    rfl
  · intro j hj
    unfold HasShape priceFractionS at hj
    obtain ⟨v0, g0, a0, hj⟩ := field_self hj
    obtain ⟨v1, g1, a1, hj⟩ := field_self hj
    obtain ⟨x0, w0, f0, b0⟩ := i64_law.2 _ a0
    obtain ⟨x1, w1, f1, b1⟩ := i64_law.2 _ a1
    refine ⟨⟨x0, x1⟩, ⟨w0, w1⟩, ?_, ?_⟩
    · unfold PriceFraction.fromJson
      rw [at_get g0, Out.ok_bind, f0, Out.ok_bind]
      rw [at_get g1, Out.ok_bind, f1, Out.ok_bind]
      rfl
    · unfold priceFractionS
      exact agree_obj <|
        field_cons g0 (get_mkObj rfl) b0 <|
        field_cons g1 (get_mkObj rfl) b1 <|
        field_nil

theorem PriceFraction.sound : Sound priceFractionS PriceFraction.toJson PriceFraction.fromJson := by
  intro j x h
  unfold PriceFraction.fromJson at h
  obtain ⟨v0, x0, g0, f0, h⟩ := step h
  obtain ⟨v1, x1, g1, f1, h⟩ := step h
  obtain rfl := Out.ok.inj h
  unfold priceFractionS
  exact reads_obj <|
    reads_cons g0 (get_mkObj rfl) (i64_sound _ _ f0) <|
    reads_cons g1 (get_mkObj rfl) (i64_sound _ _ f1) <|
    reads_nil

theorem PriceFraction.shaped : Shaped priceFractionS PriceFraction.toJson PriceFraction.WF := by
  intro x hx
  obtain ⟨h0, h1⟩ := hx
  unfold priceFractionS
  exact agree_obj <|
    field_cons (get_mkObj rfl) (get_mkObj rfl) (i64_shaped _ h0) <|
    field_cons (get_mkObj rfl) (get_mkObj rfl) (i64_shaped _ h1) <|
    field_nil

theorem ExecutionPrices.law : Law executionPricesS ExecutionPrices.toJson ExecutionPrices.fromJson ExecutionPrices.WF := by
  constructor
  · intro x hx
    obtain ⟨h0, h1⟩ := hx
    unfold ExecutionPrices.fromJson ExecutionPrices.toJson
    rw [at_mkObj rfl, Out.ok_bind, PriceFraction.law.1 _ h0, Out.ok_bind]
    rw [at_mkObj rfl, Out.ok_bind, PriceFraction.law.1 _ h1, Out.ok_bind]
    rfl
  · intro j hj
    unfold HasShape executionPricesS at hj
    obtain ⟨v0, g0, a0, hj⟩ := field_self hj
    obtain ⟨v1, g1, a1, hj⟩ := field_self hj
    obtain ⟨x0, w0, f0, b0⟩ := PriceFraction.law.2 _ a0
    obtain ⟨x1, w1, f1, b1⟩ := PriceFraction.law.2 _ a1
    refine ⟨⟨x0, x1⟩, ⟨w0, w1⟩, ?_, ?_⟩
    · unfold ExecutionPrices.fromJson
      rw [at_get g0, Out.ok_bind, f0, Out.ok_bind]
      rw [at_get g1, Out.ok_bind, f1, Out.ok_bind]
      rfl
    · unfold executionPricesS
      exact agree_obj <|
        field_cons g0 (get_mkObj rfl) b0 <|
        field_cons g1 (get_mkObj rfl) b1 <|
        field_nil

theorem ExecutionPrices.sound : Sound executionPricesS ExecutionPrices.toJson ExecutionPrices.fromJson := by
  intro j x h
  unfold ExecutionPrices.fromJson at h
  obtain ⟨v0, x0, g0, f0, h⟩ := step h
  obtain ⟨v1, x1, g1, f1, h⟩ := step h
  obtain rfl := Out.ok.inj h
  unfold executionPricesS
  exact reads_obj <|
    reads_cons g0 (get_mkObj rfl) (PriceFraction.sound _ _ f0) <|
    reads_cons g1 (get_mkObj rfl) (PriceFraction.sound _ _ f1) <|
    reads_nil

theorem ExecutionPrices.shaped : Shaped executionPricesS ExecutionPrices.toJson ExecutionPrices.WF := by
  intro x hx
  obtain ⟨h0, h1⟩ := hx
  unfold executionPricesS
  exact agree_obj <|
    field_cons (get_mkObj rfl) (get_mkObj rfl) (PriceFraction.shaped _ h0) <|
    field_cons (get_mkObj rfl) (get_mkObj rfl) (PriceFraction.shaped _ h1) <|
    field_nil

theorem ExecutionUnits.law : Law executionUnitsS ExecutionUnits.toJson ExecutionUnits.fromJson ExecutionUnits.WF := by
  constructor
  · intro x hx
    obtain ⟨h0, h1⟩ := hx
    unfold ExecutionUnits.fromJson ExecutionUnits.toJson
    rw [at_mkObj rfl, Out.ok_bind, u64_law.1 _ h0, Out.ok_bind]
    rw [at_mkObj rfl, Out.ok_bind, u64_law.1 _ h1, Out.ok_bind]
    rfl
  · intro j hj
    unfold HasShape executionUnitsS at hj
    obtain ⟨v0, g0, a0, hj⟩ := field_self hj
    obtain ⟨v1, g1, a1, hj⟩ := field_self hj
    obtain ⟨x0, w0, f0, b0⟩ := u64_law.2 _ a0
    obtain ⟨x1, w1, f1, b1⟩ := u64_law.2 _ a1
    refine ⟨⟨x0, x1⟩, ⟨w0, w1⟩, ?_, ?_⟩
    · unfold ExecutionUnits.fromJson
      rw [at_get g0, Out.ok_bind, f0, Out.ok_bind]
      rw [at_get g1, Out.ok_bind, f1, Out.ok_bind]
      rfl
    · unfold executionUnitsS
      exact agree_obj <|
        field_cons g0 (get_mkObj rfl) b0 <|
        field_cons g1 (get_mkObj rfl) b1 <|
        field_nil

theorem ExecutionUnits.sound : Sound executionUnitsS ExecutionUnits.toJson ExecutionUnits.fromJson := by
  intro j x h
  unfold ExecutionUnits.fromJson at h
  obtain ⟨v0, x0, g0, f0, h⟩ := step h
  obtain ⟨v1, x1, g1, f1, h⟩ := step h
  obtain rfl := Out.ok.inj h
  unfold executionUnitsS
  exact reads_obj <|
    reads_cons g0 (get_mkObj rfl) (u64_sound _ _ f0) <|
    reads_cons g1 (get_mkObj rfl) (u64_sound _ _ f1) <|
    reads_nil

theorem ExecutionUnits.shaped : Shaped executionUnitsS ExecutionUnits.toJson ExecutionUnits.WF := by
  intro x hx
  obtain ⟨h0, h1⟩ := hx
  unfold executionUnitsS
  exact agree_obj <|
    field_cons (get_mkObj rfl) (get_mkObj rfl) (u_shaped 64 _ h0) <|
    field_cons (get_mkObj rfl) (get_mkObj rfl) (u_shaped 64 _ h1) <|
    field_nil

theorem CostModels.law : Law costModelsS CostModels.toJson CostModels.fromJson CostModels.WF := by
  constructor
  · intro x hx
    have h0 := hx
    unfold CostModels.fromJson CostModels.toJson
    rw [at_mkObj rfl, Out.ok_bind, (map_law i64_law).1 _ h0, Out.ok_bind]
    rfl
  · intro j hj
    unfold HasShape costModelsS at hj
    obtain ⟨v0, g0, a0, hj⟩ := field_self hj
    obtain ⟨x0, w0, f0, b0⟩ := (map_law i64_law).2 _ a0
    refine ⟨⟨x0⟩, w0, ?_, ?_⟩
    · unfold CostModels.fromJson
      rw [at_get g0, Out.ok_bind, f0, Out.ok_bind]
      rfl
    · unfold costModelsS
      exact agree_obj <|
        field_cons g0 (get_mkObj rfl) b0 <|
        field_nil

theorem CostModels.sound : Sound costModelsS CostModels.toJson CostModels.fromJson := by
  intro j x h
  unfold CostModels.fromJson at h
  obtain ⟨v0, x0, g0, f0, h⟩ := step h
  obtain rfl := Out.ok.inj h
  unfold costModelsS
  exact reads_obj <|
    reads_cons g0 (get_mkObj rfl) (map_sound (i64_sound) _ _ f0) <|
    reads_nil

theorem CostModels.shaped : Shaped costModelsS CostModels.toJson CostModels.WF := by
  intro x hx
  have h0 := hx
  unfold costModelsS
  exact agree_obj <|
    field_cons (get_mkObj rfl) (get_mkObj rfl) (map_shaped (i64_shaped) _ h0) <|
    field_nil

theorem Params.law : Law paramsS Params.toJson Params.fromJson Params.WF := by
  constructor
  · intro x hx
    obtain ⟨h0, h1, h2, h3, h4, h5, h6, h7⟩ := hx
    unfold Params.fromJson Params.toJson
    rw [at_mkObj rfl, Out.ok_bind, u64_law.1 _ h0, Out.ok_bind]
    rw [at_mkObj rfl, Out.ok_bind, ExecutionPrices.law.1 _ h1, Out.ok_bind]
    rw [at_mkObj rfl, Out.ok_bind, ExecutionUnits.law.1 _ h2, Out.ok_bind]
    rw [at_mkObj rfl, Out.ok_bind, ExecutionUnits.law.1 _ h3, Out.ok_bind]
    rw [at_mkObj rfl, Out.ok_bind, (u_law 32).1 _ h4, Out.ok_bind]
    rw [at_mkObj rfl, Out.ok_bind, (u_law 32).1 _ h5, Out.ok_bind]
    rw [at_mkObj rfl, Out.ok_bind, (u_law 32).1 _ h6, Out.ok_bind]
    rw [at_mkObj rfl, Out.ok_bind, CostModels.law.1 _ h7, Out.ok_bind]
    rfl
  · intro j hj
    unfold HasShape paramsS at hj
    obtain ⟨v0, g0, a0, hj⟩ := field_self hj
    obtain ⟨v1, g1, a1, hj⟩ := field_self hj
    obtain ⟨v2, g2, a2, hj⟩ := field_self hj
    obtain ⟨v3, g3, a3, hj⟩ := field_self hj
    obtain ⟨v4, g4, a4, hj⟩ := field_self hj
    obtain ⟨v5, g5, a5, hj⟩ := field_self hj
    obtain ⟨v6, g6, a6, hj⟩ := field_self hj
    obtain ⟨v7, g7, a7, hj⟩ := field_self hj
    obtain ⟨x0, w0, f0, b0⟩ := u64_law.2 _ a0
    obtain ⟨x1, w1, f1, b1⟩ := ExecutionPrices.law.2 _ a1
    obtain ⟨x2, w2, f2, b2⟩ := ExecutionUnits.law.2 _ a2
    obtain ⟨x3, w3, f3, b3⟩ := ExecutionUnits.law.2 _ a3
    obtain ⟨x4, w4, f4, b4⟩ := (u_law 32).2 _ a4
    obtain ⟨x5, w5, f5, b5⟩ := (u_law 32).2 _ a5
    obtain ⟨x6, w6, f6, b6⟩ := (u_law 32).2 _ a6
    obtain ⟨x7, w7, f7, b7⟩ := CostModels.law.2 _ a7
    refine ⟨⟨x0, x1, x2, x3, x4, x5, x6, x7⟩, ⟨w0, w1, w2, w3, w4, w5, w6, w7⟩, ?_, ?_⟩
    · unfold Params.fromJson
      rw [at_get g0, Out.ok_bind, f0, Out.ok_bind]
      rw [at_get g1, Out.ok_bind, f1, Out.ok_bind]
      rw [at_get g2, Out.ok_bind, f2, Out.ok_bind]
      rw [at_get g3, Out.ok_bind, f3, Out.ok_bind]
      rw [at_get g4, Out.ok_bind, f4, Out.ok_bind]
      rw [at_get g5, Out.ok_bind, f5, Out.ok_bind]
      rw [at_get g6, Out.ok_bind, f6, Out.ok_bind]
      rw [at_get g7, Out.ok_bind, f7, Out.ok_bind]
      rfl
    · unfold paramsS
      exact agree_obj <|
        field_cons g0 (get_mkObj rfl) b0 <|
        field_cons g1 (get_mkObj rfl) b1 <|
        field_cons g2 (get_mkObj rfl) b2 <|
        field_cons g3 (get_mkObj rfl) b3 <|
        field_cons g4 (get_mkObj rfl) b4 <|
        field_cons g5 (get_mkObj rfl) b5 <|
        field_cons g6 (get_mkObj rfl) b6 <|
        field_cons g7 (get_mkObj rfl) b7 <|
        field_nil

theorem Params.sound : Sound paramsS Params.toJson Params.fromJson := by
  intro j x h
  unfold Params.fromJson at h
  obtain ⟨v0, x0, g0, f0, h⟩ := step h
  obtain ⟨v1, x1, g1, f1, h⟩ := step h
  obtain ⟨v2, x2, g2, f2, h⟩ := step h
  obtain ⟨v3, x3, g3, f3, h⟩ := step h
  obtain ⟨v4, x4, g4, f4, h⟩ := step h
  obtain ⟨v5, x5, g5, f5, h⟩ := step h
  obtain ⟨v6, x6, g6, f6, h⟩ := step h
  obtain ⟨v7, x7, g7, f7, h⟩ := step h
  obtain rfl := Out.ok.inj h
  unfold paramsS
  exact reads_obj <|
    reads_cons g0 (get_mkObj rfl) (u64_sound _ _ f0) <|
    reads_cons g1 (get_mkObj rfl) (ExecutionPrices.sound _ _ f1) <|
    reads_cons g2 (get_mkObj rfl) (ExecutionUnits.sound _ _ f2) <|
    reads_cons g3 (get_mkObj rfl) (ExecutionUnits.sound _ _ f3) <|
    reads_cons g4 (get_mkObj rfl) (u_sound 32 (by decide) _ _ f4) <|
    reads_cons g5 (get_mkObj rfl) (u_sound 32 (by decide) _ _ f5) <|
    reads_cons g6 (get_mkObj rfl) (u_sound 32 (by decide) _ _ f6) <|
    reads_cons g7 (get_mkObj rfl) (CostModels.sound _ _ f7) <|
    reads_nil

theorem Params.shaped : Shaped paramsS Params.toJson Params.WF := by
  intro x hx
  obtain ⟨h0, h1, h2, h3, h4, h5, h6, h7⟩ := hx
  unfold paramsS
  exact agree_obj <|
    field_cons (get_mkObj rfl) (get_mkObj rfl) (u_shaped 64 _ h0) <|
    field_cons (get_mkObj rfl) (get_mkObj rfl) (ExecutionPrices.shaped _ h1) <|
    field_cons (get_mkObj rfl) (get_mkObj rfl) (ExecutionUnits.shaped _ h2) <|
    field_cons (get_mkObj rfl) (get_mkObj rfl) (ExecutionUnits.shaped _ h3) <|
    field_cons (get_mkObj rfl) (get_mkObj rfl) (u_shaped 32 _ h4) <|
    field_cons (get_mkObj rfl) (get_mkObj rfl) (u_shaped 32 _ h5) <|
    field_cons (get_mkObj rfl) (get_mkObj rfl) (u_shaped 32 _ h6) <|
    field_cons (get_mkObj rfl) (get_mkObj rfl) (CostModels.shaped _ h7) <|
    field_nil

end Alonzo

/-! ## Conway -/

namespace Conway

theorem PoolVotingThresholds.law : Law poolVotingThresholdsS PoolVotingThresholds.toJson PoolVotingThresholds.fromJson PoolVotingThresholds.WF := by
  constructor
  · intro x hx
    unfold PoolVotingThresholds.fromJson PoolVotingThresholds.toJson
    rw [at_mkObj rfl, Out.ok_bind, dbl_law.1 _ trivial, Out.ok_bind]
    rw [at_mkObj rfl, Out.ok_bind, dbl_law.1 _ trivial, Out.ok_bind]
    rw [at_mkObj rfl, Out.ok_bind, dbl_law.1 _ trivial, Out.ok_bind]
    rw [at_mkObj rfl, Out.ok_bind, dbl_law.1 _ trivial, Out.ok_bind]
    rw [at_mkObj rfl, Out.ok_bind, dbl_law.1 _ trivial, Out.ok_bind]
    rfl
  · intro j hj
    unfold HasShape poolVotingThresholdsS at hj
    obtain ⟨v0, g0, a0, hj⟩ := field_self hj
    obtain ⟨v1, g1, a1, hj⟩ := field_self hj
    obtain ⟨v2, g2, a2, hj⟩ := field_self hj
    obtain ⟨v3, g3, a3, hj⟩ := field_self hj
    obtain ⟨v4, g4, a4, hj⟩ := field_self hj
    obtain ⟨x0, w0, f0, b0⟩ := dbl_law.2 _ a0
    obtain ⟨x1, w1, f1, b1⟩ := dbl_law.2 _ a1
    obtain ⟨x2, w2, f2, b2⟩ := dbl_law.2 _ a2
    obtain ⟨x3, w3, f3, b3⟩ := dbl_law.2 _ a3
    obtain ⟨x4, w4, f4, b4⟩ := dbl_law.2 _ a4
    refine ⟨⟨x0, x1, x2, x3, x4⟩, trivial, ?_, ?_⟩
    · unfold PoolVotingThresholds.fromJson
      rw [at_get g0, Out.ok_bind, f0, Out.ok_bind]
      rw [at_get g1, Out.ok_bind, f1, Out.ok_bind]
      rw [at_get g2, Out.ok_bind, f2, Out.ok_bind]
      rw [at_get g3, Out.ok_bind, f3, Out.ok_bind]
      rw [at_get g4, Out.ok_bind, f4, Out.ok_bind]
      rfl
    · unfold poolVotingThresholdsS
      exact agree_obj <|
        field_cons g0 (get_mkObj rfl) b0 <|
        field_cons g1 (get_mkObj rfl) b1 <|
        field_cons g2 (get_mkObj rfl) b2 <|
        field_cons g3 (get_mkObj rfl) b3 <|
        field_cons g4 (get_mkObj rfl) b4 <|
        field_nil

theorem PoolVotingThresholds.sound : Sound poolVotingThresholdsS PoolVotingThresholds.toJson PoolVotingThresholds.fromJson := by
  intro j x h
  unfold PoolVotingThresholds.fromJson at h
  obtain ⟨v0, x0, g0, f0, h⟩ := step h
  obtain ⟨v1, x1, g1, f1, h⟩ := step h
  obtain ⟨v2, x2, g2, f2, h⟩ := step h
  obtain ⟨v3, x3, g3, f3, h⟩ := step h
  obtain ⟨v4, x4, g4, f4, h⟩ := step h
  obtain rfl := Out.ok.inj h
  unfold poolVotingThresholdsS
  exact reads_obj <|
    reads_cons g0 (get_mkObj rfl) (dbl_sound _ _ f0) <|
    reads_cons g1 (get_mkObj rfl) (dbl_sound _ _ f1) <|
    reads_cons g2 (get_mkObj rfl) (dbl_sound _ _ f2) <|
    reads_cons g3 (get_mkObj rfl) (dbl_sound _ _ f3) <|
    reads_cons g4 (get_mkObj rfl) (dbl_sound _ _ f4) <|
    reads_nil

theorem PoolVotingThresholds.shaped : Shaped poolVotingThresholdsS PoolVotingThresholds.toJson PoolVotingThresholds.WF := by
  intro x hx
  unfold poolVotingThresholdsS
  exact agree_obj <|
    field_cons (get_mkObj rfl) (get_mkObj rfl) (dbl_shaped _ trivial) <|
    field_cons (get_mkObj rfl) (get_mkObj rfl) (dbl_shaped _ trivial) <|
    field_cons (get_mkObj rfl) (get_mkObj rfl) (dbl_shaped _ trivial) <|
    field_cons (get_mkObj rfl) (get_mkObj rfl) (dbl_shaped _ trivial) <|
    field_cons (get_mkObj rfl) (get_mkObj rfl) (dbl_shaped _ trivial) <|
    field_nil

theorem DRepVotingThresholds.law : Law dRepVotingThresholdsS DRepVotingThresholds.toJson DRepVotingThresholds.fromJson DRepVotingThresholds.WF := by
  constructor
  · intro x hx
    unfold DRepVotingThresholds.fromJson DRepVotingThresholds.toJson
    rw [at_mkObj rfl, Out.ok_bind, dbl_law.1 _ trivial, Out.ok_bind]
    rw [at_mkObj rfl, Out.ok_bind, dbl_law.1 _ trivial, Out.ok_bind]
    rw [at_mkObj rfl, Out.ok_bind, dbl_law.1 _ trivial, Out.ok_bind]
    rw [at_mkObj rfl, Out.ok_bind, dbl_law.1 _ trivial, Out.ok_bind]
    rw [at_mkObj rfl, Out.ok_bind, dbl_law.1 _ trivial, Out.ok_bind]
    rw [at_mkObj rfl, Out.ok_bind, dbl_law.1 _ trivial, Out.ok_bind]
    rw [at_mkObj rfl, Out.ok_bind, dbl_law.1 _ trivial, Out.ok_bind]
    rw [at_mkObj rfl, Out.ok_bind, dbl_law.1 _ trivial, Out.ok_bind]
    rw [at_mkObj rfl, Out.ok_bind, dbl_law.1 _ trivial, Out.ok_bind]
    rw [at_mkObj rfl, Out.ok_bind, dbl_law.1 _ trivial, Out.ok_bind]
    rfl
  · intro j hj
    unfold HasShape dRepVotingThresholdsS at hj
    obtain ⟨v0, g0, a0, hj⟩ := field_self hj
    obtain ⟨v1, g1, a1, hj⟩ := field_self hj
    obtain ⟨v2, g2, a2, hj⟩ := field_self hj
    obtain ⟨v3, g3, a3, hj⟩ := field_self hj
    obtain ⟨v4, g4, a4, hj⟩ := field_self hj
    obtain ⟨v5, g5, a5, hj⟩ := field_self hj
    obtain ⟨v6, g6, a6, hj⟩ := field_self hj
    obtain ⟨v7, g7, a7, hj⟩ := field_self hj
    obtain ⟨v8, g8, a8, hj⟩ := field_self hj
    obtain ⟨v9, g9, a9, hj⟩ := field_self hj
    obtain ⟨x0, w0, f0, b0⟩ := dbl_law.2 _ a0
    obtain ⟨x1, w1, f1, b1⟩ := dbl_law.2 _ a1
    obtain ⟨x2, w2, f2, b2⟩ := dbl_law.2 _ a2
    obtain ⟨x3, w3, f3, b3⟩ := dbl_law.2 _ a3
    obtain ⟨x4, w4, f4, b4⟩ := dbl_law.2 _ a4
    obtain ⟨x5, w5, f5, b5⟩ := dbl_law.2 _ a5
    obtain ⟨x6, w6, f6, b6⟩ := dbl_law.2 _ a6
    obtain ⟨x7, w7, f7, b7⟩ := dbl_law.2 _ a7
    obtain ⟨x8, w8, f8, b8⟩ := dbl_law.2 _ a8
    obtain ⟨x9, w9, f9, b9⟩ := dbl_law.2 _ a9
    refine ⟨⟨x0, x1, x2, x3, x4, x5, x6, x7, x8, x9⟩, trivial, ?_, ?_⟩
    · unfold DRepVotingThresholds.fromJson
      rw [at_get g0, Out.ok_bind, f0, Out.ok_bind]
      rw [at_get g1, Out.ok_bind, f1, Out.ok_bind]
      rw [at_get g2, Out.ok_bind, f2, Out.ok_bind]
      rw [at_get g3, Out.ok_bind, f3, Out.ok_bind]
      rw [at_get g4, Out.ok_bind, f4, Out.ok_bind]
      rw [at_get g5, Out.ok_bind, f5, Out.ok_bind]
      rw [at_get g6, Out.ok_bind, f6, Out.ok_bind]
      rw [at_get g7, Out.ok_bind, f7, Out.ok_bind]
      rw [at_get g8, Out.ok_bind, f8, Out.ok_bind]
      rw [at_get g9, Out.ok_bind, f9, Out.ok_bind]
      rfl
    · unfold dRepVotingThresholdsS
      exact agree_obj <|
        field_cons g0 (get_mkObj rfl) b0 <|
        field_cons g1 (get_mkObj rfl) b1 <|
        field_cons g2 (get_mkObj rfl) b2 <|
        field_cons g3 (get_mkObj rfl) b3 <|
        field_cons g4 (get_mkObj rfl) b4 <|
        field_cons g5 (get_mkObj rfl) b5 <|
        field_cons g6 (get_mkObj rfl) b6 <|
        field_cons g7 (get_mkObj rfl) b7 <|
        field_cons g8 (get_mkObj rfl) b8 <|
        field_cons g9 (get_mkObj rfl) b9 <|
        field_nil

theorem DRepVotingThresholds.sound : Sound dRepVotingThresholdsS DRepVotingThresholds.toJson DRepVotingThresholds.fromJson := by
  intro j x h
  unfold DRepVotingThresholds.fromJson at h
  obtain ⟨v0, x0, g0, f0, h⟩ := step h
  obtain ⟨v1, x1, g1, f1, h⟩ := step h
  obtain ⟨v2, x2, g2, f2, h⟩ := step h
  obtain ⟨v3, x3, g3, f3, h⟩ := step h
  obtain ⟨v4, x4, g4, f4, h⟩ := step h
  obtain ⟨v5, x5, g5, f5, h⟩ := step h
  obtain ⟨v6, x6, g6, f6, h⟩ := step h
  obtain ⟨v7, x7, g7, f7, h⟩ := step h
  obtain ⟨v8, x8, g8, f8, h⟩ := step h
  obtain ⟨v9, x9, g9, f9, h⟩ := step h
  obtain rfl := Out.ok.inj h
  unfold dRepVotingThresholdsS
  exact reads_obj <|
    reads_cons g0 (get_mkObj rfl) (dbl_sound _ _ f0) <|
    reads_cons g1 (get_mkObj rfl) (dbl_sound _ _ f1) <|
    reads_cons g2 (get_mkObj rfl) (dbl_sound _ _ f2) <|
    reads_cons g3 (get_mkObj rfl) (dbl_sound _ _ f3) <|
    reads_cons g4 (get_mkObj rfl) (dbl_sound _ _ f4) <|
    reads_cons g5 (get_mkObj rfl) (dbl_sound _ _ f5) <|
    reads_cons g6 (get_mkObj rfl) (dbl_sound _ _ f6) <|
    reads_cons g7 (get_mkObj rfl) (dbl_sound _ _ f7) <|
    reads_cons g8 (get_mkObj rfl) (dbl_sound _ _ f8) <|
    reads_cons g9 (get_mkObj rfl) (dbl_sound _ _ f9) <|
    reads_nil

theorem DRepVotingThresholds.shaped : Shaped dRepVotingThresholdsS DRepVotingThresholds.toJson DRepVotingThresholds.WF := by
  intro x hx
  unfold dRepVotingThresholdsS
  exact agree_obj <|
    field_cons (get_mkObj rfl) (get_mkObj rfl) (dbl_shaped _ trivial) <|
    field_cons (get_mkObj rfl) (get_mkObj rfl) (dbl_shaped _ trivial) <|
    field_cons (get_mkObj rfl) (get_mkObj rfl) (dbl_shaped _ trivial) <|
    field_cons (get_mkObj rfl) (get_mkObj rfl) (dbl_shaped _ trivial) <|
    field_cons (get_mkObj rfl) (get_mkObj rfl) (dbl_shaped _ trivial) <|
    field_cons (get_mkObj rfl) (get_mkObj rfl) (dbl_shaped _ trivial) <|
    field_cons (get_mkObj rfl) (get_mkObj rfl) (dbl_shaped _ trivial) <|
    field_cons (get_mkObj rfl) (get_mkObj rfl) (dbl_shaped _ trivial) <|
    field_cons (get_mkObj rfl) (get_mkObj rfl) (dbl_shaped _ trivial) <|
    field_cons (get_mkObj rfl) (get_mkObj rfl) (dbl_shaped _ trivial) <|
    field_nil

theorem ConstitutionAnchor.law : Law constitutionAnchorS ConstitutionAnchor.toJson ConstitutionAnchor.fromJson ConstitutionAnchor.WF := by
  constructor
  · intro x hx
    unfold ConstitutionAnchor.fromJson ConstitutionAnchor.toJson
    rw [at_mkObj rfl, Out.ok_bind, str_law.1 _ trivial, Out.ok_bind]
    rw [at_mkObj rfl, Out.ok_bind, str_law.1 _ trivial, Out.ok_bind]
    rfl
  · intro j hj
    unfold HasShape constitutionAnchorS at hj
    obtain ⟨v0, g0, a0, hj⟩ := field_self hj
    obtain ⟨v1, g1, a1, hj⟩ := field_self hj
    obtain ⟨x0, w0, f0, b0⟩ := str_law.2 _ a0
    obtain ⟨x1, w1, f1, b1⟩ := str_law.2 _ a1
    refine ⟨⟨x0, x1⟩, trivial, ?_, ?_⟩
    · unfold ConstitutionAnchor.fromJson
      rw [at_get g0, Out.ok_bind, f0, Out.ok_bind]
      rw [at_get g1, Out.ok_bind, f1, Out.ok_bind]
      rfl
    · unfold constitutionAnchorS
      exact agree_obj <|
        field_cons g0 (get_mkObj rfl) b0 <|
        field_cons g1 (get_mkObj rfl) b1 <|
        field_nil

theorem ConstitutionAnchor.sound : Sound constitutionAnchorS ConstitutionAnchor.toJson ConstitutionAnchor.fromJson := by
  intro j x h
  unfold ConstitutionAnchor.fromJson at h
  obtain ⟨v0, x0, g0, f0, h⟩ := step h
  obtain ⟨v1, x1, g1, f1, h⟩ := step h
  obtain rfl := Out.ok.inj h
  unfold constitutionAnchorS
  exact reads_obj <|
    reads_cons g0 (get_mkObj rfl) (str_sound _ _ f0) <|
    reads_cons g1 (get_mkObj rfl) (str_sound _ _ f1) <|
    reads_nil

theorem ConstitutionAnchor.shaped : Shaped constitutionAnchorS ConstitutionAnchor.toJson ConstitutionAnchor.WF := by
  intro x hx
  unfold constitutionAnchorS
  exact agree_obj <|
    field_cons (get_mkObj rfl) (get_mkObj rfl) (str_shaped _ trivial) <|
    field_cons (get_mkObj rfl) (get_mkObj rfl) (str_shaped _ trivial) <|
    field_nil

theorem Constitution.law : Law constitutionS Constitution.toJson Constitution.fromJson Constitution.WF := by
  constructor
  · intro x hx
    have h0 := hx
    unfold Constitution.fromJson Constitution.toJson
    rw [at_mkObj rfl, Out.ok_bind, ConstitutionAnchor.law.1 _ h0, Out.ok_bind]
    rw [at_mkObj rfl, Out.ok_bind, str_law.1 _ trivial, Out.ok_bind]
    rfl
  · intro j hj
    unfold HasShape constitutionS at hj
    obtain ⟨v0, g0, a0, hj⟩ := field_self hj
    obtain ⟨v1, g1, a1, hj⟩ := field_self hj
    obtain ⟨x0, w0, f0, b0⟩ := ConstitutionAnchor.law.2 _ a0
    obtain ⟨x1, w1, f1, b1⟩ := str_law.2 _ a1
    refine ⟨⟨x0, x1⟩, w0, ?_, ?_⟩
    · unfold Constitution.fromJson
      rw [at_get g0, Out.ok_bind, f0, Out.ok_bind]
      rw [at_get g1, Out.ok_bind, f1, Out.ok_bind]
      rfl
    · unfold constitutionS
      exact agree_obj <|
        field_cons g0 (get_mkObj rfl) b0 <|
        field_cons g1 (get_mkObj rfl) b1 <|
        field_nil

theorem Constitution.sound : Sound constitutionS Constitution.toJson Constitution.fromJson := by
  intro j x h
  unfold Constitution.fromJson at h
  obtain ⟨v0, x0, g0, f0, h⟩ := step h
  obtain ⟨v1, x1, g1, f1, h⟩ := step h
  obtain rfl := Out.ok.inj h
  unfold constitutionS
  exact reads_obj <|
    reads_cons g0 (get_mkObj rfl) (ConstitutionAnchor.sound _ _ f0) <|
    reads_cons g1 (get_mkObj rfl) (str_sound _ _ f1) <|
    reads_nil

theorem Constitution.shaped : Shaped constitutionS Constitution.toJson Constitution.WF := by
  intro x hx
  have h0 := hx
  unfold constitutionS
  exact agree_obj <|
    field_cons (get_mkObj rfl) (get_mkObj rfl) (ConstitutionAnchor.shaped _ h0) <|
    field_cons (get_mkObj rfl) (get_mkObj rfl) (str_shaped _ trivial) <|
    field_nil

theorem CommitteeThreshold.law : Law committeeThresholdS CommitteeThreshold.toJson CommitteeThreshold.fromJson CommitteeThreshold.WF := by
  constructor
  · intro x hx
    obtain ⟨h0, h1⟩ := hx
    unfold CommitteeThreshold.fromJson CommitteeThreshold.toJson
    rw [at_mkObj rfl, Out.ok_bind, u64_law.1 _ h0, Out.ok_bind]
    rw [at_mkObj rfl, Out.ok_bind, u64_law.1 _ h1, Out.ok_bind]
    rfl
  · intro j hj
    unfold HasShape committeeThresholdS at hj
    obtain ⟨v0, g0, a0, hj⟩ := field_self hj
    obtain ⟨v1, g1, a1, hj⟩ := field_self hj
    obtain ⟨x0, w0, f0, b0⟩ := u64_law.2 _ a0
    obtain ⟨x1, w1, f1, b1⟩ := u64_law.2 _ a1
    refine ⟨⟨x0, x1⟩, ⟨w0, w1⟩, ?_, ?_⟩
    · unfold CommitteeThreshold.fromJson
      rw [at_get g0, Out.ok_bind, f0, Out.ok_bind]
      rw [at_get g1, Out.ok_bind, f1, Out.ok_bind]
      rfl
    · unfold committeeThresholdS
      exact agree_obj <|
        field_cons g0 (get_mkObj rfl) b0 <|
        field_cons g1 (get_mkObj rfl) b1 <|
        field_nil

theorem CommitteeThreshold.sound : Sound committeeThresholdS CommitteeThreshold.toJson CommitteeThreshold.fromJson := by
  intro j x h
  unfold CommitteeThreshold.fromJson at h
  obtain ⟨v0, x0, g0, f0, h⟩ := step h
  obtain ⟨v1, x1, g1, f1, h⟩ := step h
  obtain rfl := Out.ok.inj h
  unfold committeeThresholdS
  exact reads_obj <|
    reads_cons g0 (get_mkObj rfl) (u64_sound _ _ f0) <|
    reads_cons g1 (get_mkObj rfl) (u64_sound _ _ f1) <|
    reads_nil

theorem CommitteeThreshold.shaped : Shaped committeeThresholdS CommitteeThreshold.toJson CommitteeThreshold.WF := by
  intro x hx
  obtain ⟨h0, h1⟩ := hx
  unfold committeeThresholdS
  exact agree_obj <|
    field_cons (get_mkObj rfl) (get_mkObj rfl) (u_shaped 64 _ h0) <|
    field_cons (get_mkObj rfl) (get_mkObj rfl) (u_shaped 64 _ h1) <|
    field_nil

theorem Committee.law : Law committeeS Committee.toJson Committee.fromJson Committee.WF := by
  constructor
  · intro x hx
    obtain ⟨h0, h1⟩ := hx
    unfold Committee.fromJson Committee.toJson
    rw [at_mkObj rfl, Out.ok_bind, (map_law u64_law).1 _ h0, Out.ok_bind]
    rw [at_mkObj rfl, Out.ok_bind, CommitteeThreshold.law.1 _ h1, Out.ok_bind]
    rfl
  · intro j hj
    unfold HasShape committeeS at hj
    obtain ⟨v0, g0, a0, hj⟩ := field_self hj
    obtain ⟨v1, g1, a1, hj⟩ := field_self hj
    obtain ⟨x0, w0, f0, b0⟩ := (map_law u64_law).2 _ a0
    obtain ⟨x1, w1, f1, b1⟩ := CommitteeThreshold.law.2 _ a1
    refine ⟨⟨x0, x1⟩, ⟨w0, w1⟩, ?_, ?_⟩
    · unfold Committee.fromJson
      rw [at_get g0, Out.ok_bind, f0, Out.ok_bind]
      rw [at_get g1, Out.ok_bind, f1, Out.ok_bind]
      rfl
    · unfold committeeS
      exact agree_obj <|
        field_cons g0 (get_mkObj rfl) b0 <|
        field_cons g1 (get_mkObj rfl) b1 <|
        field_nil

theorem Committee.sound : Sound committeeS Committee.toJson Committee.fromJson := by
  intro j x h
  unfold Committee.fromJson at h
  obtain ⟨v0, x0, g0, f0, h⟩ := step h
  obtain ⟨v1, x1, g1, f1, h⟩ := step h
  obtain rfl := Out.ok.inj h
  unfold committeeS
  exact reads_obj <|
    reads_cons g0 (get_mkObj rfl) (map_sound (u64_sound) _ _ f0) <|
    reads_cons g1 (get_mkObj rfl) (CommitteeThreshold.sound _ _ f1) <|
    reads_nil

theorem Committee.shaped : Shaped committeeS Committee.toJson Committee.WF := by
  intro x hx
  obtain ⟨h0, h1⟩ := hx
  unfold committeeS
  exact agree_obj <|
    field_cons (get_mkObj rfl) (get_mkObj rfl) (map_shaped (u_shaped 64) _ h0) <|
    field_cons (get_mkObj rfl) (get_mkObj rfl) (CommitteeThreshold.shaped _ h1) <|
    field_nil

theorem Params.law : Law paramsS Params.toJson Params.fromJson Params.WF := by
  constructor
  · intro x hx
    obtain ⟨h0, h1, h2, h3, h4, h5, h6, h7, h8, h9, h10, h11⟩ := hx
    unfold Params.fromJson Params.toJson
    rw [at_mkObj rfl, Out.ok_bind, PoolVotingThresholds.law.1 _ h0, Out.ok_bind]
    rw [at_mkObj rfl, Out.ok_bind, DRepVotingThresholds.law.1 _ h1, Out.ok_bind]
    rw [at_mkObj rfl, Out.ok_bind, u64_law.1 _ h2, Out.ok_bind]
    rw [at_mkObj rfl, Out.ok_bind, u64_law.1 _ h3, Out.ok_bind]
    rw [at_mkObj rfl, Out.ok_bind, u64_law.1 _ h4, Out.ok_bind]
    rw [at_mkObj rfl, Out.ok_bind, u64_law.1 _ h5, Out.ok_bind]
    rw [at_mkObj rfl, Out.ok_bind, u64_law.1 _ h6, Out.ok_bind]
    rw [at_mkObj rfl, Out.ok_bind, u64_law.1 _ h7, Out.ok_bind]
    rw [at_mkObj rfl, Out.ok_bind, u64_law.1 _ h8, Out.ok_bind]
    rw [at_mkObj rfl, Out.ok_bind, (arr_law 251 i64_law).1 _ h9, Out.ok_bind]
    rw [at_mkObj rfl, Out.ok_bind, Constitution.law.1 _ h10, Out.ok_bind]
    rw [at_mkObj rfl, Out.ok_bind, Committee.law.1 _ h11, Out.ok_bind]
    rfl
  · intro j hj
    unfold HasShape paramsS at hj
    obtain ⟨v0, g0, a0, hj⟩ := field_self hj
    obtain ⟨v1, g1, a1, hj⟩ := field_self hj
    obtain ⟨v2, g2, a2, hj⟩ := field_self hj
    obtain ⟨v3, g3, a3, hj⟩ := field_self hj
    obtain ⟨v4, g4, a4, hj⟩ := field_self hj
    obtain ⟨v5, g5, a5, hj⟩ := field_self hj
    obtain ⟨v6, g6, a6, hj⟩ := field_self hj
    obtain ⟨v7, g7, a7, hj⟩ := field_self hj
    obtain ⟨v8, g8, a8, hj⟩ := field_self hj
    obtain ⟨v9, g9, a9, hj⟩ := field_self hj
    obtain ⟨v10, g10, a10, hj⟩ := field_self hj
    obtain ⟨v11, g11, a11, hj⟩ := field_self hj
    obtain ⟨x0, w0, f0, b0⟩ := PoolVotingThresholds.law.2 _ a0
    obtain ⟨x1, w1, f1, b1⟩ := DRepVotingThresholds.law.2 _ a1
    obtain ⟨x2, w2, f2, b2⟩ := u64_law.2 _ a2
    obtain ⟨x3, w3, f3, b3⟩ := u64_law.2 _ a3
    obtain ⟨x4, w4, f4, b4⟩ := u64_law.2 _ a4
    obtain ⟨x5, w5, f5, b5⟩ := u64_law.2 _ a5
    obtain ⟨x6, w6, f6, b6⟩ := u64_law.2 _ a6
    obtain ⟨x7, w7, f7, b7⟩ := u64_law.2 _ a7
    obtain ⟨x8, w8, f8, b8⟩ := u64_law.2 _ a8
    obtain ⟨x9, w9, f9, b9⟩ := (arr_law 251 i64_law).2 _ a9
    obtain ⟨x10, w10, f10, b10⟩ := Constitution.law.2 _ a10
    obtain ⟨x11, w11, f11, b11⟩ := Committee.law.2 _ a11
    refine ⟨⟨x0, x1, x2, x3, x4, x5, x6, x7, x8, x9, x10, x11⟩, ⟨w0, w1, w2, w3, w4, w5, w6, w7, w8, w9, w10, w11⟩, ?_, ?_⟩
    · unfold Params.fromJson
      rw [at_get g0, Out.ok_bind, f0, Out.ok_bind]
      rw [at_get g1, Out.ok_bind, f1, Out.ok_bind]
      rw [at_get g2, Out.ok_bind, f2, Out.ok_bind]
      rw [at_get g3, Out.ok_bind, f3, Out.ok_bind]
      rw [at_get g4, Out.ok_bind, f4, Out.ok_bind]
      rw [at_get g5, Out.ok_bind, f5, Out.ok_bind]
      rw [at_get g6, Out.ok_bind, f6, Out.ok_bind]
      rw [at_get g7, Out.ok_bind, f7, Out.ok_bind]
      rw [at_get g8, Out.ok_bind, f8, Out.ok_bind]
      rw [at_get g9, Out.ok_bind, f9, Out.ok_bind]
      rw [at_get g10, Out.ok_bind, f10, Out.ok_bind]
      rw [at_get g11, Out.ok_bind, f11, Out.ok_bind]
      rfl
    · unfold paramsS
      exact agree_obj <|
        field_cons g0 (get_mkObj rfl) b0 <|
        field_cons g1 (get_mkObj rfl) b1 <|
        field_cons g2 (get_mkObj rfl) b2 <|
        field_cons g3 (get_mkObj rfl) b3 <|
        field_cons g4 (get_mkObj rfl) b4 <|
        field_cons g5 (get_mkObj rfl) b5 <|
        field_cons g6 (get_mkObj rfl) b6 <|
        field_cons g7 (get_mkObj rfl) b7 <|
        field_cons g8 (get_mkObj rfl) b8 <|
        field_cons g9 (get_mkObj rfl) b9 <|
        field_cons g10 (get_mkObj rfl) b10 <|
        field_cons g11 (get_mkObj rfl) b11 <|
        field_nil

theorem Params.sound : Sound paramsS Params.toJson Params.fromJson := by
  intro j x h
  unfold Params.fromJson at h
  obtain ⟨v0, x0, g0, f0, h⟩ := step h
  obtain ⟨v1, x1, g1, f1, h⟩ := step h
  obtain ⟨v2, x2, g2, f2, h⟩ := step h
  obtain ⟨v3, x3, g3, f3, h⟩ := step h
  obtain ⟨v4, x4, g4, f4, h⟩ := step h
  obtain ⟨v5, x5, g5, f5, h⟩ := step h
  obtain ⟨v6, x6, g6, f6, h⟩ := step h
  obtain ⟨v7, x7, g7, f7, h⟩ := step h
  obtain ⟨v8, x8, g8, f8, h⟩ := step h
  obtain ⟨v9, x9, g9, f9, h⟩ := step h
  obtain ⟨v10, x10, g10, f10, h⟩ := step h
  obtain ⟨v11, x11, g11, f11, h⟩ := step h
  obtain rfl := Out.ok.inj h
  unfold paramsS
  exact reads_obj <|
    reads_cons g0 (get_mkObj rfl) (PoolVotingThresholds.sound _ _ f0) <|
    reads_cons g1 (get_mkObj rfl) (DRepVotingThresholds.sound _ _ f1) <|
    reads_cons g2 (get_mkObj rfl) (u64_sound _ _ f2) <|
    reads_cons g3 (get_mkObj rfl) (u64_sound _ _ f3) <|
    reads_cons g4 (get_mkObj rfl) (u64_sound _ _ f4) <|
    reads_cons g5 (get_mkObj rfl) (u64_sound _ _ f5) <|
    reads_cons g6 (get_mkObj rfl) (u64_sound _ _ f6) <|
    reads_cons g7 (get_mkObj rfl) (u64_sound _ _ f7) <|
    reads_cons g8 (get_mkObj rfl) (u64_sound _ _ f8) <|
    reads_cons g9 (get_mkObj rfl) (arr_sound 251 (i64_sound) _ _ f9) <|
    reads_cons g10 (get_mkObj rfl) (Constitution.sound _ _ f10) <|
    reads_cons g11 (get_mkObj rfl) (Committee.sound _ _ f11) <|
    reads_nil

theorem Params.shaped : Shaped paramsS Params.toJson Params.WF := by
  intro x hx
  obtain ⟨h0, h1, h2, h3, h4, h5, h6, h7, h8, h9, h10, h11⟩ := hx
  unfold paramsS
  exact agree_obj <|
    field_cons (get_mkObj rfl) (get_mkObj rfl) (PoolVotingThresholds.shaped _ h0) <|
    field_cons (get_mkObj rfl) (get_mkObj rfl) (DRepVotingThresholds.shaped _ h1) <|
    field_cons (get_mkObj rfl) (get_mkObj rfl) (u_shaped 64 _ h2) <|
    field_cons (get_mkObj rfl) (get_mkObj rfl) (u_shaped 64 _ h3) <|
    field_cons (get_mkObj rfl) (get_mkObj rfl) (u_shaped 64 _ h4) <|
    field_cons (get_mkObj rfl) (get_mkObj rfl) (u_shaped 64 _ h5) <|
    field_cons (get_mkObj rfl) (get_mkObj rfl) (u_shaped 64 _ h6) <|
    field_cons (get_mkObj rfl) (get_mkObj rfl) (u_shaped 64 _ h7) <|
    field_cons (get_mkObj rfl) (get_mkObj rfl) (u_shaped 64 _ h8) <|
    field_cons (get_mkObj rfl) (get_mkObj rfl) (arr_shaped 251 (i64_shaped) _ h9) <|
    field_cons (get_mkObj rfl) (get_mkObj rfl) (Constitution.shaped _ h10) <|
    field_cons (get_mkObj rfl) (get_mkObj rfl) (Committee.shaped _ h11) <|
    field_nil

end Conway

/-! ## C60: writing and reading -/

/-- **C60** Byron, Alonzo and Conway configurations survive being written and read. -/
theorem C60_roundtrip (b : Byron.Params) (a : Alonzo.Params) (c : Conway.Params) (hb : b.WF) (ha : a.WF) (hc : c.WF) :
    Byron.Params.fromJson b.toJson = .ok b ∧ Alonzo.Params.fromJson a.toJson = .ok a ∧ Conway.Params.fromJson c.toJson = .ok c :=
  ⟨Byron.Params.law.1 b hb, Alonzo.Params.law.1 a ha, Conway.Params.law.1 c hc⟩

/-- **C60 (what holds for Shelley).** All fields but the slot length survive; the slot length
becomes the security parameter. -/
theorem C60_shelley_partial (g : Shelley.Params) (h : g.WF) :
    Shelley.Params.fromJson g.toJson = .ok { g with slotLength := g.securityParam } := (Shelley.Params.law g).1 h

/-- **C60 fails** for Shelley configurations, except those whose slot length equals their
security parameter (on mainnet they are 1 and 2160). -/
theorem C60_shelley_iff (g : Shelley.Params) (h : g.WF) :
    Shelley.Params.fromJson g.toJson = .ok g ↔ g.slotLength = g.securityParam := by
  rw [C60_shelley_partial g h]
  constructor
  · intro e
    have := congrArg Shelley.Params.slotLength (Out.ok.inj e)
    exact this.symm
  · intro e
    cases g
    simp only at e ⊢
    rw [e]

/-- **C60** The written documents have the format of the genesis files: every key is there
with a value of the right kind. -/
theorem C60_format (b : Byron.Params) (s : Shelley.Params) (a : Alonzo.Params) (c : Conway.Params)
    (hb : b.WF) (hs : s.WF) (ha : a.WF) (hc : c.WF) :
    HasShape Byron.paramsS b.toJson ∧ HasShape Shelley.paramsS s.toJson ∧ HasShape Alonzo.paramsS a.toJson ∧
      HasShape Conway.paramsS c.toJson :=
  ⟨Byron.Params.shaped b hb, Shelley.Params.shaped s hs, Alonzo.Params.shaped a ha, Conway.Params.shaped c hc⟩

/-- **C60 (finding)** The initial funds of a Shelley genesis, an object in the format, are
always written as `null`, and never read. -/
theorem C60_initial_funds (g : Shelley.Params) : g.toJson.get? "initialFunds" = some .null := get_mkObj rfl

/-! ## C73: reading genesis files -/

/-- **C73** Every document that has the format is read, and the configuration agrees with the
document in every field (Byron, Alonzo, Conway). -/
theorem C73_faithful (j : J) :
    (HasShape Byron.paramsS j → ∃ g : Byron.Params, g.WF ∧ fromFile Byron.Params.fromJson (some (some j)) = .ok g ∧
      Agree Byron.paramsS j g.toJson) ∧
    (HasShape Alonzo.paramsS j → ∃ g : Alonzo.Params, g.WF ∧ fromFile Alonzo.Params.fromJson (some (some j)) = .ok g ∧
      Agree Alonzo.paramsS j g.toJson) ∧
    (HasShape Conway.paramsS j → ∃ g : Conway.Params, g.WF ∧ fromFile Conway.Params.fromJson (some (some j)) = .ok g ∧
      Agree Conway.paramsS j g.toJson) :=
  ⟨Byron.Params.law.2 j, Alonzo.Params.law.2 j, Conway.Params.law.2 j⟩

theorem agree_erase {k : String} {s : Schema} {a b : J} : ∀ (f r : List (String × Schema)),
    AgreeFields (f ++ (k, s) :: r) a b → AgreeFields (f ++ r) a b := by
  intro f
  induction f with
  | nil => intro r h; simp only [List.nil_append, AgreeFields] at h ⊢; exact h.2
  | cons p f ih => intro r h; obtain ⟨k', s'⟩ := p; simp only [List.cons_append, AgreeFields] at h ⊢; exact ⟨h.1, ih r h.2⟩

/-- **C73 (what holds for Shelley).** Every document that has the format is read; the
configuration agrees with it in every field but the slot length. -/
theorem C73_shelley_partial (j : J) (h : HasShape Shelley.paramsS j) :
    ∃ g : Shelley.Params, g.WF ∧ fromFile Shelley.Params.fromJson (some (some j)) = .ok g ∧
      Agree Shelley.readS j g.toJson := by
  have h' : HasShape Shelley.readS j := by
    unfold HasShape Shelley.paramsS at h
    unfold HasShape Shelley.readS
    simp only [Agree] at h ⊢
    exact agree_erase [("activeSlotsCoeff", _), ("protocolParams", _), ("genDelegs", _), ("updateQuorum", _), ("networkId", _),
      ("maxLovelaceSupply", _), ("networkMagic", _), ("epochLength", _), ("systemStart", _), ("slotsPerKESPeriod", _)]
      [("maxKESEvolutions", _), ("securityParam", _)] h
  obtain ⟨x, h1, h2, -, h3⟩ := (Shelley.Params.law ⟨.nan, ⟨⟨0, 0⟩, 0, 0, ⟨""⟩, 0, 0, 0, 0, 0, 0, 0, 0, 0, 0, .nan, .nan, .nan⟩,
    [], 0, "", 0, 0, 0, "", 0, 0, 0, 0⟩).2 j h'
  exact ⟨x, h1, h2, h3⟩

/-- **C73 fails** for the Shelley slot length: whatever the document says (even if the key is
missing), the slot length that is read is the security parameter. -/
theorem C73_shelley_slot_length (j : J) (g : Shelley.Params) (h : Shelley.Params.fromJson j = .ok g) :
    g.slotLength = g.securityParam := by
  unfold Shelley.Params.fromJson at h
  obtain ⟨v0, x0, g0, f0, h⟩ := step h
  obtain ⟨v1, x1, g1, f1, h⟩ := step h
  obtain ⟨v2, x2, g2, f2, h⟩ := step h
  obtain ⟨v3, x3, g3, f3, h⟩ := step h
  obtain ⟨v4, x4, g4, f4, h⟩ := step h
  obtain ⟨v5, x5, g5, f5, h⟩ := step h
  obtain ⟨v6, x6, g6, f6, h⟩ := step h
  obtain ⟨v7, x7, g7, f7, h⟩ := step h
  obtain ⟨v8, x8, g8, f8, h⟩ := step h
  obtain ⟨v9, x9, g9, f9, h⟩ := step h
  obtain ⟨v10, x10, g10, f10, h⟩ := step h
  obtain ⟨v11, x11, g11, f11, h⟩ := step h
  obtain ⟨v12, x12, g12, f12, h⟩ := step h
  obtain rfl := Out.ok.inj h
  show x10 = x12
  rw [g10] at g12
  obtain rfl := Option.some.inj g12
  rw [f10] at f12
  exact Out.ok.inj f12

/-- **C73** Whatever document is accepted, every field that is read comes from the document by
the conversions in `Reads`; in particular all keys are there and every string is taken over as
it is. -/
theorem C73_conversions (j : J) :
    (∀ g, Byron.Params.fromJson j = .ok g → Reads Byron.paramsS j g.toJson) ∧
    (∀ g, Shelley.Params.fromJson j = .ok g → Reads Shelley.readS j g.toJson) ∧
    (∀ g, Alonzo.Params.fromJson j = .ok g → Reads Alonzo.paramsS j g.toJson) ∧
    (∀ g, Conway.Params.fromJson j = .ok g → Reads Conway.paramsS j g.toJson) :=
  ⟨Byron.Params.sound j, Shelley.Params.sound j, Alonzo.Params.sound j, Conway.Params.sound j⟩

theorem reads_keys {a b : J} : ∀ {fs : List (String × Schema)}, ReadsFields fs a b → ∀ p ∈ fs, (a.get? p.1).isSome = true := by
  intro fs
  induction fs with
  | nil => intro _ p hp; cases hp
  | cons q fs ih =>
    obtain ⟨k, s⟩ := q
    intro h p hp
    simp only [ReadsFields] at h
    rcases List.mem_cons.mp hp with rfl | hp
    · obtain ⟨⟨x, y, h1, _⟩, _⟩ := h; rw [h1]; rfl
    · exact ih h.2 p hp

/-- **C73** A document that lacks one of the top-level keys is refused. -/
theorem C73_missing_key (j : J) (k : String) (h : j.get? k = none) :
    (k ∈ ["avvmDistr", "blockVersionData", "ftsSeed", "protocolConsts", "startTime", "bootStakeholders", "heavyDelegation",
      "nonAvvmBalances", "vssCerts"] → ∀ g, Byron.Params.fromJson j ≠ .ok g) ∧
    (k ∈ ["activeSlotsCoeff", "protocolParams", "genDelegs", "updateQuorum", "networkId", "maxLovelaceSupply", "networkMagic",
      "epochLength", "systemStart", "slotsPerKESPeriod", "maxKESEvolutions", "securityParam"] →
      ∀ g, Shelley.Params.fromJson j ≠ .ok g) ∧
    (k ∈ ["lovelacePerUTxOWord", "executionPrices", "maxTxExUnits", "maxBlockExUnits", "maxValueSize", "collateralPercentage",
      "maxCollateralInputs", "costModels"] → ∀ g, Alonzo.Params.fromJson j ≠ .ok g) ∧
    (k ∈ ["poolVotingThresholds", "dRepVotingThresholds", "committeeMinSize", "committeeMaxTermLength", "govActionLifetime",
      "govActionDeposit", "dRepDeposit", "dRepActivity", "minFeeRefScriptCostPerByte", "plutusV3CostModel", "constitution",
      "committee"] → ∀ g, Conway.Params.fromJson j ≠ .ok g) := by
  have key : ∀ (fs : List (String × Schema)) (b : J), Reads (.obj fs) j b → k ∈ fs.map Prod.fst → False := by
    intro fs b hr hk
    obtain ⟨p, hp, rfl⟩ := List.mem_map.mp hk
    simp only [Reads] at hr
    have := reads_keys hr p hp
    rw [h] at this
    cases this
  refine ⟨fun hk g hg => ?_, fun hk g hg => ?_, fun hk g hg => ?_, fun hk g hg => ?_⟩
  · exact key _ _ (Byron.Params.sound j g hg) hk
  · exact key _ _ (Shelley.Params.sound j g hg) hk
  · exact key _ _ (Alonzo.Params.sound j g hg) hk
  · exact key _ _ (Conway.Params.sound j g hg) hk

/-- **C73 (findings)** Numbers that do not fit are not refused: a number of 2^64 or more written
with a fraction or exponent makes reading an Alonzo file undefined; 32-bit fields are reduced
modulo 2^32. -/
theorem C73_overflow (j : J) :
    (∀ m e, 2 ^ 64 * 2 ^ e ≤ m → j.get? "lovelacePerUTxOWord" = some (.float (.fin false m e)) → Alonzo.Params.fromJson j = .ub) ∧
    (∀ n g, j.get? "maxValueSize" = some (.uint n) → Alonzo.Params.fromJson j = .ok g → g.maxValueSize = n % 2 ^ 32) := by
  constructor
  · intro m e hm hj
    unfold Alonzo.Params.fromJson
    rw [at_get hj, Out.ok_bind]
    have : getU64 (.float (.fin false m e)) = .ub := by
      have hd : 2 ^ 64 ≤ m / 2 ^ e := (Nat.le_div_iff_mul_le (Nat.pow_pos (by omega))).mpr hm
      have hd' : ((2 ^ 64 : Nat) : Int) ≤ ((m / 2 ^ e : Nat) : Int) := by exact_mod_cast hd
      unfold getU64 truncTo
      simp only [Bool.false_eq_true, if_false]
      rw [if_neg (by push_cast at hd' ⊢; omega)]
      rfl
    rw [this]
    rfl
  · intro n g hj h
    unfold Alonzo.Params.fromJson at h
    obtain ⟨v0, x0, g0, f0, h⟩ := step h
    obtain ⟨v1, x1, g1, f1, h⟩ := step h
    obtain ⟨v2, x2, g2, f2, h⟩ := step h
    obtain ⟨v3, x3, g3, f3, h⟩ := step h
    obtain ⟨v4, x4, g4, f4, h⟩ := step h
    obtain ⟨v5, x5, g5, f5, h⟩ := step h
    obtain ⟨v6, x6, g6, f6, h⟩ := step h
    obtain ⟨v7, x7, g7, f7, h⟩ := step h
    obtain rfl := Out.ok.inj h
    rw [hj] at g4
    obtain rfl := Option.some.inj g4
    exact (Out.ok.inj f4).symm

/-- **C73 (findings)** Fractions are dropped and signs wrap around in whole-number fields: a
decentralisation parameter of 1/2 is read as 0, one of -1 as 2^64-1. -/
theorem C73_fraction (j : J) (x : Shelley.ProtocolParameters) (h : Shelley.ProtocolParameters.fromJson j = .ok x) :
    (j.get? "decentralisationParam" = some (.float (.fin false 1 1)) → x.decentralisationParam = 0) ∧
    (j.get? "decentralisationParam" = some (.sint (-1)) → x.decentralisationParam = 2 ^ 64 - 1) := by
  have hr := Shelley.ProtocolParameters.sound j x h
  unfold Shelley.ProtocolParameters.fromJson at h
  obtain ⟨v0, x0, g0, f0, h⟩ := step h
  obtain ⟨v1, x1, g1, f1, h⟩ := step h
  have hx : x.decentralisationParam = x1 := by
    obtain ⟨v2, x2, g2, f2, h⟩ := step h
    obtain ⟨v3, x3, g3, f3, h⟩ := step h
    obtain ⟨v4, x4, g4, f4, h⟩ := step h
    obtain ⟨v5, x5, g5, f5, h⟩ := step h
    obtain ⟨v6, x6, g6, f6, h⟩ := step h
    obtain ⟨v7, x7, g7, f7, h⟩ := step h
    obtain ⟨v8, x8, g8, f8, h⟩ := step h
    obtain ⟨v9, x9, g9, f9, h⟩ := step h
    obtain ⟨v10, x10, g10, f10, h⟩ := step h
    obtain ⟨v11, x11, g11, f11, h⟩ := step h
    obtain ⟨v12, x12, g12, f12, h⟩ := step h
    obtain ⟨v13, x13, g13, f13, h⟩ := step h
    obtain ⟨v14, x14, g14, f14, h⟩ := step h
    obtain ⟨v15, x15, g15, f15, h⟩ := step h
    obtain ⟨v16, x16, g16, f16, h⟩ := step h
    obtain rfl := Out.ok.inj h
    rfl
  constructor
  · intro hj
    rw [hj] at g1
    obtain rfl := Option.some.inj g1
    have : getU64 (.float (.fin false 1 1)) = .ok 0 := by decide
    rw [this] at f1
    rw [hx]; exact (Out.ok.inj f1).symm
  · intro hj
    rw [hj] at g1
    obtain rfl := Option.some.inj g1
    have : getU64 (.sint (-1)) = .ok (2 ^ 64 - 1) := by decide
    rw [this] at f1
    rw [hx]; exact (Out.ok.inj f1).symm

/-! ### Concrete cases -/

/-- Mainnet's protocol parameters and slot length meet the hypotheses; the slot length is lost. -/
def mainnet : Shelley.Params where
  activeSlotsCoeff := .fin false 3602879701896397 56
  protocolParameters := ⟨⟨2, 0⟩, 1, 18, ⟨"NeutralNonce"⟩, 16384, 65536, 1100, 44, 155381, 1000000, 500000000, 340000000, 2000000, 150,
    .fin false 3458764513820541 60, .fin false 3602879701896397 54, .fin false 5404319552844595 54⟩
  genDelegs := [("162f", ⟨"4485", "aba8"⟩), ("2075", ⟨"6535", "fcac"⟩)]
  updateQuorum := 5
  networkId := "Mainnet"
  maxLovelaceSupply := 45000000000000000
  networkMagic := 764824073
  epochLength := 432000
  systemStart := "2017-09-23T21:44:51Z"
  slotsPerKesPeriod := 129600
  slotLength := 1
  maxKesEvolutions := 62
  securityParam := 2160

theorem mainnet_wf : mainnet.WF := by
  unfold Shelley.Params.WF Shelley.ProtocolParameters.WF Shelley.ProtocolVersion.WF Shelley.ExtraEntropy.WF MapWF mainnet
  refine ⟨?_, ⟨?_, ?_⟩, ?_⟩
  · decide
  · decide
  · intro _ _; trivial
  · decide

example : Shelley.Params.fromJson mainnet.toJson ≠ .ok mainnet :=
  fun h => absurd ((C60_shelley_iff mainnet mainnet_wf).mp h) (by decide)

example : (⟨34482, ⟨⟨721, 10000000⟩, ⟨577, 10000⟩⟩, ⟨10000000, 10000000000⟩, ⟨50000000, 40000000000⟩, 5000, 150, 3,
    ⟨[("addInteger-cpu", 197209), ("addInteger-memory", -1)]⟩⟩ : Alonzo.Params).WF := by
  unfold Alonzo.Params.WF Alonzo.ExecutionPrices.WF Alonzo.PriceFraction.WF Alonzo.ExecutionUnits.WF Alonzo.CostModels.WF MapWF
  decide

/-- **C73**: a configuration is only ever read from a file that can be opened and parsed; any
other file makes `fromFile` throw, in every era. -/
theorem C73_bad_file {α} (read : J → Out α) (file : Option (Option J)) :
    ((∃ g, fromFile read file = .ok g) → ∃ j, file = some (some j) ∧ fromFile read file = read j) ∧
    (file.join = none → ∃ e, fromFile read file = .throw e) := by
  rcases file with _ | _ | j
  · exact ⟨fun ⟨_, h⟩ => by simp [fromFile] at h, fun _ => ⟨_, rfl⟩⟩
  · exact ⟨fun ⟨_, h⟩ => by simp [fromFile] at h, fun _ => ⟨_, rfl⟩⟩
  · exact ⟨fun _ => ⟨j, rfl, rfl⟩, fun h => by simp at h⟩

end Cardano.Genesis
