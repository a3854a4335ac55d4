import Verif.Props.LedgerSafe
import Verif.Spec.LedgerFaults

/-! # C65, exactly: which byte strings are read, refused, or leave defined behaviour -/

namespace Cardano.Ledger

open Cardano.Cbor Cardano.Spec.LedgerFaults

theorem untag_bare : ∀ i : Item, untag i = bare i
  | .tag _ i => by rw [untag, bare]; exact untag_bare i
  | .uint _ | .nint _ | .bstr _ | .tstr _ | .array _ | .map _ | .bool _ | .null => rfl

theorem asUint_iff {i : Item} {n : Nat} : asUint i = some n ↔ bare i = .uint n := by
  unfold asUint; rw [untag_bare]; cases bare i <;> simp
theorem asBstr_iff {i : Item} {b : Bytes} : asBstr i = some b ↔ bare i = .bstr b := by
  unfold asBstr; rw [untag_bare]; cases bare i <;> simp
theorem asArray_iff {i : Item} {l : List Item} : asArray i = some l ↔ bare i = .array l := by
  unfold asArray; rw [untag_bare]; cases bare i <;> simp
theorem asMap_iff {i : Item} {l : List Item} : asMap i = some l ↔ bare i = .map l := by
  unfold asMap; rw [untag_bare]; cases bare i <;> simp

theorem asUint_none {i : Item} : asUint i = none ↔ ¬ IsUint i := by
  unfold IsUint; simp only [← asUint_iff]; cases asUint i <;> simp
theorem asBstr_none {i : Item} : asBstr i = none ↔ ¬ IsBytes i := by
  unfold IsBytes; simp only [← asBstr_iff]; cases asBstr i <;> simp
theorem asArray_none {i : Item} : asArray i = none ↔ ¬ IsArray i := by
  unfold IsArray; simp only [← asArray_iff]; cases asArray i <;> simp

theorem bind_eq_ub {α β} {x : Out α} {f : α → Out β} :
    (x >>= f) = .ub ↔ x = .ub ∨ ∃ a, x = .ok a ∧ f a = .ub := by
  cases x <;> simp

/-- The outcome is a value iff `good` and undefined iff `fatal`. -/
def Exact {α} (x : Out α) (good fatal : Prop) : Prop := ((∃ a, x = .ok a) ↔ good) ∧ (x = .ub ↔ fatal)

theorem Exact.congr {α} {x : Out α} {g f g' f' : Prop} (h : Exact x g f) (hg : g ↔ g') (hf : f ↔ f') : Exact x g' f' :=
  ⟨h.1.trans hg, h.2.trans hf⟩

theorem exact_ok {α} (a : α) : Exact (.ok a) True False := ⟨by simp, by simp⟩
theorem exact_throw {α} (e : Exc) : Exact (.throw e : Out α) False False := ⟨by simp, by simp⟩
theorem exact_ub {α} : Exact (.ub : Out α) False True := ⟨by simp, by simp⟩

/-- Sequencing, when what follows does not depend on the value read. -/
theorem Exact.bind {α β} {x : Out α} {f : α → Out β} {g1 f1 g2 f2 : Prop} (h : Exact x g1 f1)
    (h2 : ∀ a, x = .ok a → Exact (f a) g2 f2) : Exact (x >>= f) (g1 ∧ g2) (f1 ∨ g1 ∧ f2) := by
  constructor
  · rw [← h.1]
    constructor
    · rintro ⟨b, hb⟩
      obtain ⟨a, ha, hb⟩ := Out.bind_eq_ok.mp hb
      exact ⟨⟨a, ha⟩, (h2 a ha).1.mp ⟨b, hb⟩⟩
    · rintro ⟨⟨a, ha⟩, h3⟩
      obtain ⟨b, hb⟩ := (h2 a ha).1.mpr h3
      exact ⟨b, Out.bind_eq_ok.mpr ⟨a, ha, hb⟩⟩
  · rw [bind_eq_ub, ← h.1, ← h.2]
    constructor
    · rintro (h3 | ⟨a, ha, h3⟩)
      · exact .inl h3
      · exact .inr ⟨⟨a, ha⟩, (h2 a ha).2.mp h3⟩
    · rintro (h3 | ⟨⟨a, ha⟩, h3⟩)
      · exact .inl h3
      · exact .inr ⟨a, ha, (h2 a ha).2.mpr h3⟩

theorem Exact.bind_ok {α β} {x : Out α} {f : α → Out β} {g1 f1 : Prop} (h : Exact x g1 f1)
    (h2 : ∀ a, ∃ b, f a = .ok b) : Exact (x >>= f) g1 f1 :=
  (h.bind (fun a _ => by obtain ⟨b, hb⟩ := h2 a; rw [hb]; exact exact_ok b)).congr (by simp) (by simp)

theorem exact_reqLen (e : Exc) (n : Nat) (b : Bytes) : Exact (reqLen e n b) (b.length = n) False := by
  unfold reqLen
  split
  · rename_i h; exact (exact_ok b).congr (by simp [h]) (by simp)
  · rename_i h; exact (exact_throw e).congr (by simp [h]) (by simp)

theorem exact_deref {α} (o : Option α) : Exact (deref o) (o ≠ none) (o = none) := by
  cases o with
  | none => exact exact_ub.congr (by simp) (by simp)
  | some a => exact (exact_ok a).congr (by simp) (by simp)

theorem exact_mapOut {α β} (f : α → Out β) (good fatal : α → Prop) (l : List α)
    (h : ∀ a, Exact (f a) (good a) (fatal a)) : Exact (mapOut f l) (∀ a ∈ l, good a) (Meets good fatal l) := by
  induction l with
  | nil => exact (exact_ok []).congr (by simp) (by simp [Meets])
  | cons a l ih =>
    rw [mapOut]
    refine ((h a).bind fun _ _ => ih.bind_ok fun _ => ⟨_, rfl⟩).congr (by simp) ?_
    constructor
    · rintro (hf | ⟨hg, pre, x, post, rfl, hp, hx⟩)
      · exact ⟨[], a, l, rfl, by simp, hf⟩
      · exact ⟨a :: pre, x, post, rfl, by simpa using ⟨hg, hp⟩, hx⟩
    · rintro ⟨pre, x, post, e, hp, hx⟩
      cases pre with
      | nil => obtain ⟨rfl, rfl⟩ := List.cons.inj e; exact .inl hx
      | cons y pre =>
        obtain ⟨rfl, rfl⟩ := List.cons.inj e
        exact .inr ⟨hp _ (by simp), pre, x, post, rfl, fun z hz => hp z (by simp [hz]), hx⟩

/-- Certificates, scripts and the like begin with a number. -/
theorem exact_cred (l : List Item) : Exact (StakeCredential.deser l) (CredGood l) False := by
  refine ⟨?_, iff_of_false (fun h => ?_) id⟩
  · unfold StakeCredential.deser CredGood
    constructor
    · rintro ⟨c, hc⟩
      split at hc
      · rename_i a b
        split at hc
        · rename_i t h ht hh
          obtain ⟨ty, hty, hc⟩ := Out.bind_eq_ok.mp hc
          obtain ⟨h', hh', _⟩ := Out.bind_eq_ok.mp hc
          refine ⟨a, b, rfl, ?_, h, asBstr_iff.mp hh, (exact_reqLen _ _ _).1.mp ⟨_, hh'⟩⟩
          unfold credTypeOf at hty
          split at hty
          · exact .inl (asUint_iff.mp ht)
          · exact .inr (asUint_iff.mp ht)
          · exact absurd hty (by simp)
        · exact absurd hc (by simp)
      · exact absurd hc (by simp)
    · rintro ⟨a, b, rfl, ht, h, hh, hlen⟩
      rw [← asBstr_iff] at hh
      rcases ht with ht | ht <;> rw [← asUint_iff] at ht <;>
        simp [ht, hh, credTypeOf, reqLen, hlen]
  · have := cred_defined l; rw [h] at this; exact absurd this (by simp [Out.defined])

theorem exact_mirLoop : ∀ m : List Item, Exact (mirLoop m) (∀ e ∈ pairs m, RewardGood e) (Meets RewardGood RewardFatal (pairs m))
  | [] => (exact_ok []).congr (by simp [pairs]) (by simp [pairs, Meets])
  | [_] => (exact_ok []).congr (by simp [pairs]) (by simp [pairs, Meets])
  | k :: v :: rest => by
    have ih := exact_mirLoop rest
    rw [mirLoop, pairs]
    cases hk : asArray k with
    | none =>
      refine exact_ub.congr ?_ ?_
      · refine iff_of_false id fun h => ?_
        obtain ⟨⟨c, hc, _⟩, _⟩ := h (k, v) (by simp)
        exact asArray_none.mp hk ⟨c, hc⟩
      · exact iff_of_true trivial ⟨[], (k, v), _, rfl, by simp, .inl (asArray_none.mp hk)⟩
    | some c =>
      have hc := asArray_iff.mp hk
      have hgood : RewardGood (k, v) ↔ CredGood c ∧ IsUint v := by
        unfold RewardGood
        constructor
        · rintro ⟨⟨c', h1, h2⟩, h3⟩
          rw [hc] at h1; obtain rfl := Item.array.inj h1
          exact ⟨h2, h3⟩
        · rintro ⟨h1, h2⟩; exact ⟨⟨c, hc, h1⟩, h2⟩
      have hfatal : RewardFatal (k, v) ↔ CredGood c ∧ ¬ IsUint v := by
        unfold RewardFatal
        constructor
        · rintro (h | ⟨⟨c', h1, h2⟩, h3⟩)
          · exact absurd ⟨c, hc⟩ h
          · rw [hc] at h1; obtain rfl := Item.array.inj h1
            exact ⟨h2, h3⟩
        · rintro ⟨h1, h2⟩; exact .inr ⟨⟨c, hc, h1⟩, h2⟩
      have main : Exact (do
          let arr ← deref (some c)
          let c ← StakeCredential.deser arr
          let n ← deref (asUint v)
          let r ← mirLoop rest
          .ok ((c, n) :: r)) (RewardGood (k, v) ∧ ∀ e ∈ pairs rest, RewardGood e)
          (RewardFatal (k, v) ∨ RewardGood (k, v) ∧ Meets RewardGood RewardFatal (pairs rest)) := by
        rw [hgood, hfatal]
        refine ((exact_cred c).bind fun _ _ => (exact_deref (asUint v)).bind fun _ _ => ih.bind_ok fun _ => ⟨_, rfl⟩).congr ?_ ?_
        · rw [ne_eq, asUint_none, Classical.not_not, and_assoc]
        · rw [ne_eq, asUint_none, Classical.not_not]
          by_cases hg : CredGood c <;> by_cases hu : IsUint v <;> simp [hg, hu]
      refine main.congr (by simp) ?_
      constructor
      · rintro (hf | ⟨hg, pre, x, post, e, hp, hx⟩)
        · exact ⟨[], _, _, rfl, by simp, hf⟩
        · exact ⟨(k, v) :: pre, x, post, by rw [e]; rfl, by
            intro y hy
            rcases List.mem_cons.mp hy with rfl | hy
            · exact hg
            · exact hp y hy, hx⟩
      · rintro ⟨pre, x, post, e, hp, hx⟩
        cases pre with
        | nil => obtain ⟨rfl, rfl⟩ := List.cons.inj e; exact .inl hx
        | cons y pre =>
          obtain ⟨rfl, e2⟩ := List.cons.inj e
          exact .inr ⟨hp _ (by simp), pre, x, post, e2, fun z hz => hp z (by simp [hz]), hx⟩

theorem exact_mir (old : List (StakeCredential × Nat)) (l : List Item) : Exact (MIR.deser old l) (MirGood l) (MirFatal l) := by
  unfold MIR.deser
  split
  · rename_i a b
    have hp : ∀ (Q : List Item → Prop), (∃ a' b' m, [a, b] = [a', b'] ∧ (bare a' = .uint 0 ∨ bare a' = .uint 1) ∧ bare b' = .map m ∧ Q m) ↔
        ∃ m, (bare a = .uint 0 ∨ bare a = .uint 1) ∧ bare b = .map m ∧ Q m := by
      intro Q
      constructor
      · rintro ⟨a', b', m, e, h⟩
        simp only [List.cons.injEq, and_true] at e
        obtain ⟨rfl, rfl⟩ := e
        exact ⟨m, h⟩
      · rintro ⟨m, h⟩; exact ⟨a, b, m, rfl, h⟩
    unfold MirGood MirFatal
    rw [hp (fun m => ∀ e ∈ pairs m, RewardGood e), hp (fun m => Meets RewardGood RewardFatal (pairs m))]
    split
    · rename_i s m hs hm
      rw [asUint_iff] at hs; rw [asMap_iff] at hm
      have hsrc : Exact (sourceOf s) (bare a = .uint 0 ∨ bare a = .uint 1) False := by
        rw [hs]
        unfold sourceOf
        split
        · exact (exact_ok _).congr (by simp) (by simp)
        · exact (exact_ok _).congr (by simp) (by simp)
        · rename_i h0 h1
          exact (exact_throw _).congr (iff_of_false id fun h => by
            rcases h with h | h
            · exact h0 (Item.uint.inj h)
            · exact h1 (Item.uint.inj h)) (by simp)
      refine (hsrc.bind fun _ _ => (exact_mirLoop m).bind_ok fun _ => ⟨_, rfl⟩).congr ?_ ?_ <;> simp [hm]
    · rename_i hn
      refine (exact_throw _).congr (iff_of_false id ?_) (iff_of_false id ?_) <;>
      · rintro ⟨m, hs, hm, _⟩
        rcases hs with hs | hs <;> exact hn _ _ (asUint_iff.mpr hs) (asMap_iff.mpr hm)
  · rename_i hn
    refine (exact_throw _).congr (iff_of_false id ?_) (iff_of_false id ?_) <;>
    · rintro ⟨a, b, m, rfl, _⟩; exact hn _ _ rfl

theorem exact_fraction (i : Item) : Exact (Rational.deser 30 i) (FractionGood i) False := by
  unfold Rational.deser FractionGood
  rw [if_neg (by simp)]
  split
  · rename_i h
    refine (exact_throw _).congr (iff_of_false id ?_) (by simp)
    rintro ⟨a, b, d, h2, _⟩
    exact asArray_none.mp h ⟨_, h2⟩
  · rename_i a b h
    rw [asArray_iff] at h
    split
    · rename_i n d hn hd
      rw [asUint_iff] at hn hd
      split
      · rename_i h0
        subst h0
        refine (exact_throw _).congr (iff_of_false id ?_) (by simp)
        rintro ⟨a', b', d', h2, _, h3, h4⟩
        rw [h] at h2
        simp only [Item.array.injEq, List.cons.injEq, and_true] at h2
        obtain ⟨rfl, rfl⟩ := h2
        rw [hd] at h3; exact h4 (Item.uint.inj h3).symm
      · rename_i h0
        exact (exact_ok _).congr (iff_of_true trivial ⟨a, b, d, h, ⟨n, hn⟩, hd, h0⟩) (by simp)
    · rename_i hn
      refine (exact_throw _).congr (iff_of_false id ?_) (by simp)
      rintro ⟨a', b', d', h2, ⟨n, h3⟩, h4, _⟩
      rw [h] at h2
      simp only [Item.array.injEq, List.cons.injEq, and_true] at h2
      obtain ⟨rfl, rfl⟩ := h2
      exact hn _ _ (asUint_iff.mpr h3) (asUint_iff.mpr h4)
  · rename_i l hl h
    refine (exact_throw _).congr (iff_of_false id ?_) (by simp)
    rintro ⟨a, b, d, h2, _⟩
    rw [asArray_iff] at h
    rw [h] at h2
    exact hl a b (Item.array.inj h2)

theorem exact_owner (i : Item) : Exact (ownerOf i) (IsHash 28 i) (¬ IsBytes i) := by
  unfold ownerOf
  cases h : asBstr i with
  | none =>
    have := asBstr_none.mp h
    exact exact_ub.congr (iff_of_false id fun ⟨b, hb, _⟩ => this ⟨b, hb⟩) (by simp [this])
  | some b =>
    rw [asBstr_iff] at h
    refine (exact_reqLen _ _ _).congr ?_ (by simp [IsBytes, h])
    simp [IsHash, h]

theorem exact_owners (rest : List Item) : Exact (ownersOf rest.head?) (∀ o ∈ ownerItems rest, IsHash 28 o)
    (Meets (IsHash 28) (fun o => ¬ IsBytes o) (ownerItems rest)) := by
  have key : (rest.head?.bind asArray = none ∧ ownerItems rest = []) ∨ rest.head?.bind asArray = some (ownerItems rest) := by
    unfold ownerItems
    cases rest with
    | nil => left; simp
    | cons i rest =>
      simp only [List.head?_cons, Option.bind_some, Option.map_some]
      unfold asArray
      rw [untag_bare]
      cases bare i <;> simp
  unfold ownersOf
  rcases key with ⟨h1, h2⟩ | h
  · rw [h1, h2]; exact (exact_ok _).congr (by simp) (by simp [Meets])
  · rw [h]
    exact (exact_mapOut _ _ _ _ exact_owner).bind_ok fun _ => ⟨_, rfl⟩

theorem exact_pool (l : List Item) : Exact (poolRegDeser l) (PoolGood l) (PoolFatal l) := by
  unfold poolRegDeser
  split
  · rename_i t i1 i2 i3 i4 i5 i6 rest
    have hp : ∀ (mg : Item) (r : List Item), PoolHead (t :: i1 :: i2 :: i3 :: i4 :: i5 :: i6 :: rest) mg r ↔
        i5 = mg ∧ rest = r ∧ IsHash 28 i1 ∧ IsHash 32 i2 ∧ IsUint i3 ∧ IsUint i4 ∧ IsArray mg ∧ IsBytes i6 := by
      intro mg r
      unfold PoolHead
      constructor
      · rintro ⟨t', j1, j2, j3, j4, j6, e, h⟩
        simp only [List.cons.injEq] at e
        obtain ⟨rfl, rfl, rfl, rfl, rfl, rfl, rfl, rfl⟩ := e
        exact ⟨rfl, rfl, h⟩
      · rintro ⟨rfl, rfl, h⟩
        exact ⟨_, _, _, _, _, _, rfl, h⟩
    unfold PoolGood PoolFatal
    simp only [hp]
    split
    · rename_i op vrf pl co mg rw' h1 h2 h3 h4 h5 h6
      rw [asBstr_iff] at h1 h2 h6
      rw [asUint_iff] at h3 h4
      rw [asArray_iff] at h5
      have H1 : IsHash 28 i1 ↔ op.length = 28 := by simp [IsHash, h1]
      have H2 : IsHash 32 i2 ↔ vrf.length = 32 := by simp [IsHash, h2]
      have H3 : IsUint i3 := ⟨_, h3⟩
      have H4 : IsUint i4 := ⟨_, h4⟩
      have H5 : IsArray i5 := ⟨_, h5⟩
      have H6 : IsBytes i6 := ⟨_, h6⟩
      simp only [H1, H2, H3, H4, H6, true_and, and_true]
      have hm : Exact (marginOf i5) (∃ i, i5 = .tag 30 i ∧ FractionGood i) (∃ a, i5 = .array a) := by
        cases i5 with
        | tag n i =>
          rw [marginOf]
          by_cases hn : n = 30
          · subst hn
            exact (exact_fraction i).congr (by simp) (by simp)
          · have : Rational.deser n i = .throw .runtimeError := by unfold Rational.deser; rw [if_pos hn]
            rw [this]
            exact (exact_throw _).congr (by simp [hn]) (by simp)
        | array a => exact exact_ub.congr (by simp) (by simp)
        | _ => simp [bare] at h5
      refine ((exact_reqLen _ _ _).bind fun _ _ => (exact_reqLen _ _ _).bind fun _ _ => hm.bind fun _ _ =>
        (exact_owners rest).bind_ok fun _ => ⟨_, rfl⟩).congr ?_ ?_
      · constructor
        · rintro ⟨a, b, ⟨i, rfl, hf⟩, ho⟩
          exact ⟨i, rest, ⟨rfl, rfl, a, b, H5⟩, hf, ho⟩
        · rintro ⟨i, r, ⟨rfl, rfl, a, b, _⟩, hf, ho⟩
          exact ⟨a, b, ⟨i, rfl, hf⟩, ho⟩
      · constructor
        · rintro (h | ⟨a, h | ⟨b, ⟨x, rfl⟩ | ⟨⟨i, rfl, hf⟩, ho⟩⟩⟩)
          · exact h.elim
          · exact h.elim
          · exact .inl ⟨x, rest, rfl, rfl, a, b, H5⟩
          · exact .inr ⟨i, rest, ⟨rfl, rfl, a, b, H5⟩, hf, ho⟩
        · rintro (⟨x, r, rfl, rfl, a, b, _⟩ | ⟨i, r, ⟨rfl, rfl, a, b, _⟩, hf, ho⟩)
          · exact .inr ⟨a, .inr ⟨b, .inl ⟨x, rfl⟩⟩⟩
          · exact .inr ⟨a, .inr ⟨b, .inr ⟨⟨i, rfl, hf⟩, ho⟩⟩⟩
    · rename_i hn
      have no : ∀ mg, ¬ (i5 = mg ∧ IsHash 28 i1 ∧ IsHash 32 i2 ∧ IsUint i3 ∧ IsUint i4 ∧ IsArray mg ∧ IsBytes i6) := by
        rintro _ ⟨rfl, ⟨b1, h1, _⟩, ⟨b2, h2, _⟩, ⟨n3, h3⟩, ⟨n4, h4⟩, ⟨l5, h5⟩, ⟨b6, h6⟩⟩
        exact hn _ _ _ _ _ _ (asBstr_iff.mpr h1) (asBstr_iff.mpr h2) (asUint_iff.mpr h3) (asUint_iff.mpr h4)
          (asArray_iff.mpr h5) (asBstr_iff.mpr h6)
      refine (exact_throw _).congr (iff_of_false id ?_) (iff_of_false id ?_)
      · rintro ⟨i, r, ⟨e, _, h⟩, _⟩; exact no _ ⟨e, h⟩
      · rintro (⟨x, r, e, _, h⟩ | ⟨i, r, ⟨e, _, h⟩, _⟩) <;> exact no _ ⟨e, h⟩
  · rename_i hn
    refine (exact_throw _).congr (iff_of_false id ?_) (iff_of_false id ?_)
    · rintro ⟨i, r, ⟨t, i1, i2, i3, i4, i6, rfl, _⟩, _⟩; exact hn _ _ _ _ _ _ _ _ rfl
    · rintro (⟨x, r, ⟨t, i1, i2, i3, i4, i6, rfl, _⟩⟩ | ⟨i, r, ⟨t, i1, i2, i3, i4, i6, rfl, _⟩, _⟩) <;>
        exact hn _ _ _ _ _ _ _ _ rfl

theorem exact_credArr (a : Item) {β} (f : StakeCredential → Out β) (hf : ∀ c, ∃ b, f c = .ok b) :
    Exact (match asArray a with | none => (.throw .runtimeError : Out β) | some l => do let c ← StakeCredential.deser l; f c)
      (∃ c, bare a = .array c ∧ CredGood c) False := by
  split
  · rename_i h
    exact (exact_throw _).congr (iff_of_false id fun ⟨c, hc, _⟩ => asArray_none.mp h ⟨c, hc⟩) (by simp)
  · rename_i l h
    rw [asArray_iff] at h
    exact ((exact_cred l).bind_ok hf).congr (by simp [h]) (by simp)

theorem exact_credCert (mk : StakeCredential → Certificate) (t a : Item) (rest : List Item) :
    Exact (credCert mk (t :: a :: rest)) (rest = [] ∧ ∃ c, bare a = .array c ∧ CredGood c) False := by
  cases rest with
  | nil => exact (exact_credArr a _ fun _ => ⟨_, rfl⟩).congr (by simp) (by simp)
  | cons b rest => exact (exact_throw _).congr (by simp) (by simp)

theorem exact_deleg (t a : Item) (rest : List Item) :
    Exact (delegDeser (t :: a :: rest)) (∃ b, rest = [b] ∧ IsHash 28 b ∧ ∃ c, bare a = .array c ∧ CredGood c) False := by
  unfold delegDeser
  split
  · rename_i x a' b e
    simp only [List.cons.injEq] at e
    obtain ⟨rfl, rfl, rfl⟩ := e
    split
    · rename_i l h hl hh
      rw [asArray_iff] at hl; rw [asBstr_iff] at hh
      refine ((exact_cred l).bind fun _ _ => (exact_reqLen _ _ _).bind_ok fun _ => ⟨_, rfl⟩).congr ?_ (by simp)
      constructor
      · rintro ⟨h1, h2⟩; exact ⟨b, rfl, ⟨h, hh, h2⟩, l, hl, h1⟩
      · rintro ⟨b', e, ⟨h', hh', h2⟩, l', hl', h1⟩
        simp only [List.cons.injEq, and_true] at e
        subst e
        rw [hh] at hh'; rw [hl] at hl'
        obtain rfl := Item.array.inj hl'
        obtain rfl := Item.bstr.inj hh'
        exact ⟨h1, h2⟩
    · rename_i hn
      refine (exact_throw _).congr (iff_of_false id ?_) (by simp)
      rintro ⟨b', e, ⟨h', hh', h2⟩, l', hl', h1⟩
      simp only [List.cons.injEq, and_true] at e
      subst e
      exact hn _ _ (asArray_iff.mpr hl') (asBstr_iff.mpr hh')
  · rename_i hn
    refine (exact_throw _).congr (iff_of_false id ?_) (by simp)
    rintro ⟨b, rfl, _⟩
    exact hn _ _ _ rfl

theorem exact_retire (t a : Item) (rest : List Item) :
    Exact (retireDeser (t :: a :: rest)) (∃ b, rest = [b] ∧ IsHash 28 a ∧ IsUint b) False := by
  unfold retireDeser
  split
  · rename_i x a' b e
    simp only [List.cons.injEq] at e
    obtain ⟨rfl, rfl, rfl⟩ := e
    split
    · rename_i h n hh hn
      rw [asUint_iff] at hn; rw [asBstr_iff] at hh
      refine ((exact_reqLen _ _ _).bind_ok fun _ => ⟨_, rfl⟩).congr ?_ (by simp)
      constructor
      · intro h2; exact ⟨b, rfl, ⟨h, hh, h2⟩, n, hn⟩
      · rintro ⟨b', e, ⟨h', hh', h2⟩, _⟩
        rw [hh] at hh'
        obtain rfl := Item.bstr.inj hh'
        exact h2
    · rename_i hn
      refine (exact_throw _).congr (iff_of_false id ?_) (by simp)
      rintro ⟨b', e, ⟨h', hh', h2⟩, n, hl'⟩
      simp only [List.cons.injEq, and_true] at e
      subst e
      exact hn _ _ (asBstr_iff.mpr hh') (asUint_iff.mpr hl')
  · rename_i hn
    refine (exact_throw _).congr (iff_of_false id ?_) (by simp)
    rintro ⟨b, rfl, _⟩
    exact hn _ _ _ rfl

theorem exact_mirCert (t a : Item) (rest : List Item) : Exact (mirDeser (t :: a :: rest))
    (∃ c, bare a = .array c ∧ MirGood c) (¬ IsArray a ∨ ∃ c, bare a = .array c ∧ MirFatal c) := by
  unfold mirDeser
  simp only [Cbor.get, List.getElem?_cons_succ, List.getElem?_cons_zero]
  show Exact (deref (asArray a) >>= fun l => MIR.deser [] l >>= fun m => .ok (Certificate.mir m)) _ _
  cases h : asArray a with
  | none =>
    have := asArray_none.mp h
    refine exact_ub.congr ?_ ?_
    · exact iff_of_false id fun ⟨c, hc, _⟩ => this ⟨c, hc⟩
    · simp [this]
  | some l =>
    rw [asArray_iff] at h
    refine ((exact_mir [] l).bind_ok fun _ => ⟨_, rfl⟩).congr ?_ ?_
    · simp [h]
    · simp [h, IsArray]

theorem exact_cert (old : Certificate) (l : List Item) : Exact (Certificate.deser old l) (CertGood l) (CertFatal l) := by
  unfold Certificate.deser
  split
  · rename_i t a rest
    have hp : ∀ Q : Nat → Item → List Item → Prop, (∃ t' a' rest' n, t :: a :: rest = t' :: a' :: rest' ∧ bare t' = .uint n ∧ Q n a' rest') ↔
        ∃ n, bare t = .uint n ∧ Q n a rest := by
      intro Q
      constructor
      · rintro ⟨t', a', r', n, e, h⟩
        simp only [List.cons.injEq] at e
        obtain ⟨rfl, rfl, rfl⟩ := e
        exact ⟨n, h⟩
      · rintro ⟨n, h⟩; exact ⟨_, _, _, n, rfl, h⟩
    unfold CertGood CertFatal
    rw [hp (CertRest (t :: a :: rest)), hp (fun n b _ => n = 3 ∧ PoolFatal (t :: a :: rest) ∨ n = 5 ∨
      n = 6 ∧ (¬ IsArray b ∨ ∃ c, bare b = .array c ∧ MirFatal c))]
    have one : ∀ {n : Nat} {Q : Nat → Prop}, bare t = .uint n → ((∃ m, bare t = .uint m ∧ Q m) ↔ Q n) := by
      intro n Q h
      constructor
      · rintro ⟨m, hm, hq⟩; rw [h] at hm; obtain rfl := Item.uint.inj hm; exact hq
      · intro hq; exact ⟨n, h, hq⟩
    split
    · rename_i h
      have h := asUint_none.mp h
      exact (exact_throw _).congr (iff_of_false id fun ⟨n, hn, _⟩ => h ⟨n, hn⟩) (iff_of_false id fun ⟨n, hn, _⟩ => h ⟨n, hn⟩)
    · rename_i h; rw [asUint_iff] at h; rw [one h, one h]; exact (exact_credCert _ _ _ _).congr (by rw [CertRest]) (by simp)
    · rename_i h; rw [asUint_iff] at h; rw [one h, one h]; exact (exact_credCert _ _ _ _).congr (by rw [CertRest]) (by simp)
    · rename_i h; rw [asUint_iff] at h; rw [one h, one h]; exact (exact_deleg _ _ _).congr (by rw [CertRest]) (by simp)
    · rename_i h; rw [asUint_iff] at h; rw [one h, one h]; exact (exact_pool _).congr (by rw [CertRest]) (by simp)
    · rename_i h; rw [asUint_iff] at h; rw [one h, one h]; exact (exact_retire _ _ _).congr (by rw [CertRest]) (by simp)
    · rename_i h; rw [asUint_iff] at h; rw [one h, one h]
      have : genesisDeser (t :: a :: rest) = .ub := by
        have hb : asBstr t = none := asBstr_none.mpr fun ⟨b, hb⟩ => by rw [h] at hb; exact absurd hb (by simp)
        simp [genesisDeser, Cbor.get, deref, hb]
      rw [this]; exact exact_ub.congr (by simp [CertRest]) (by simp)
    · rename_i h; rw [asUint_iff] at h; rw [one h, one h]; exact (exact_mirCert _ _ _).congr (by rw [CertRest]) (by simp)
    · rename_i n h0 h1 h2 h3 h4 h5 h6 h
      rw [asUint_iff] at h; rw [one h, one h]
      refine (exact_ok _).congr (iff_of_true trivial ?_) (iff_of_false id ?_)
      · match n, h0, h1, h2, h3, h4, h5, h6 with
        | 0, h0, _, _, _, _, _, _ => exact absurd rfl h0
        | 1, _, h1, _, _, _, _, _ => exact absurd rfl h1
        | 2, _, _, h2, _, _, _, _ => exact absurd rfl h2
        | 3, _, _, _, h3, _, _, _ => exact absurd rfl h3
        | 4, _, _, _, _, h4, _, _ => exact absurd rfl h4
        | 5, _, _, _, _, _, h5, _ => exact absurd rfl h5
        | 6, _, _, _, _, _, _, h6 => exact absurd rfl h6
        | _ + 7, _, _, _, _, _, _, _ => trivial
      · rintro (⟨h, _⟩ | h | ⟨h, _⟩)
        · exact h3 h
        · exact h5 h
        · exact h6 h
  · rename_i hn
    refine (exact_throw _).congr (iff_of_false id ?_) (iff_of_false id ?_) <;>
    · rintro ⟨t, a, rest, n, rfl, _⟩; exact hn _ _ _ rfl

/-! ## Scripts -/

theorem meets_nil {α} (g f : α → Prop) : ¬ Meets g f [] := by simp [Meets]

theorem meets_cons {α} (g f : α → Prop) (a : α) (l : List α) : Meets g f (a :: l) ↔ f a ∨ g a ∧ Meets g f l := by
  constructor
  · rintro ⟨pre, x, post, e, hp, hx⟩
    cases pre with
    | nil => obtain ⟨rfl, rfl⟩ := List.cons.inj e; exact .inl hx
    | cons y pre =>
      obtain ⟨rfl, e2⟩ := List.cons.inj e
      exact .inr ⟨hp _ (by simp), pre, x, post, e2, fun z hz => hp z (by simp [hz]), hx⟩
  · rintro (hf | ⟨hg, pre, x, post, rfl, hp, hx⟩)
    · exact ⟨[], a, l, rfl, by simp, hf⟩
    · exact ⟨a :: pre, x, post, rfl, by simpa using ⟨hg, hp⟩, hx⟩

theorem scriptItem_bare : ∀ i : Item, scriptItem i = scriptItem (bare i)
  | .tag _ i => by rw [scriptItem, bare]; exact scriptItem_bare i
  | .uint _ | .nint _ | .bstr _ | .tstr _ | .array _ | .map _ | .bool _ | .null => rfl

theorem scriptGood_bare {i j : Item} (h : bare i = bare j) (hg : ScriptGood i) : ScriptGood j := by
  cases hg with
  | pubkey a b c => exact .pubkey (h ▸ a) b c
  | list a b c d => exact .list (h ▸ a) b c d
  | unknown a b c => exact .unknown (h ▸ a) b c

theorem scriptFatal_bare {i j : Item} (h : bare i = bare j) (hg : ScriptFatal i) : ScriptFatal j := by
  cases hg with
  | notArray a => exact .notArray fun ⟨l, hl⟩ => a ⟨l, h ▸ hl⟩
  | nOfK a b c => exact .nOfK (h ▸ a) b c
  | list a b c d e f => exact .list (h ▸ a) b c d e f

theorem bare_bare : ∀ i : Item, bare (bare i) = bare i
  | .tag _ i => by rw [bare]; exact bare_bare i
  | .uint _ | .nint _ | .bstr _ | .tstr _ | .array _ | .map _ | .bool _ | .null => rfl

/-- The shape of a script array. -/
theorem good_inv {t a : Item} {rest : List Item} (h : ScriptGood (.array (t :: a :: rest))) :
    (rest = [] ∧ bare t = .uint 0 ∧ IsHash 28 a) ∨
    (rest = [] ∧ (bare t = .uint 1 ∨ bare t = .uint 2) ∧ ∃ l, bare a = .array l ∧ ∀ y ∈ l, ScriptGood y) ∨
    ∃ n, bare t = .uint n ∧ 4 ≤ n := by
  cases h with
  | pubkey h1 h2 h3 =>
    simp only [bare, Item.array.injEq, List.cons.injEq] at h1
    obtain ⟨rfl, rfl, rfl⟩ := h1
    exact .inl ⟨rfl, h2, h3⟩
  | list h1 h2 h3 h4 =>
    simp only [bare, Item.array.injEq, List.cons.injEq] at h1
    obtain ⟨rfl, rfl, rfl⟩ := h1
    exact .inr (.inl ⟨rfl, h2, _, h3, h4⟩)
  | unknown h1 h2 h3 =>
    simp only [bare, Item.array.injEq, List.cons.injEq] at h1
    obtain ⟨rfl, rfl, rfl⟩ := h1
    exact .inr (.inr ⟨_, h2, h3⟩)

theorem fatal_inv {t a : Item} {rest : List Item} (h : ScriptFatal (.array (t :: a :: rest))) :
    (rest = [] ∧ bare t = .uint 3 ∧ IsUint a) ∨
    (rest = [] ∧ (bare t = .uint 1 ∨ bare t = .uint 2) ∧ ∃ l, bare a = .array l ∧ Meets ScriptGood ScriptFatal l) := by
  cases h with
  | notArray h => exact absurd ⟨_, rfl⟩ h
  | nOfK h1 h2 h3 =>
    simp only [bare, Item.array.injEq, List.cons.injEq] at h1
    obtain ⟨rfl, rfl, rfl⟩ := h1
    exact .inl ⟨rfl, h2, h3⟩
  | list h1 h2 h3 h4 h5 h6 =>
    simp only [bare, Item.array.injEq, List.cons.injEq] at h1
    obtain ⟨rfl, rfl, rfl⟩ := h1
    exact .inr ⟨rfl, h2, _, h3, _, _, _, h4, h5, h6⟩

/-- A list script with children `a`. -/
theorem exact_listScript (mk : List Script → Script) (t a : Item) (rest : List Item) (ht : bare t = .uint 1 ∨ bare t = .uint 2)
    (h : Exact (scriptList a) (∃ l, bare a = .array l ∧ ∀ y ∈ l, ScriptGood y) (∃ l, bare a = .array l ∧ Meets ScriptGood ScriptFatal l)) :
    Exact (if rest.isEmpty then (scriptList a).bind (fun l => .ok (mk l)) else .throw .runtimeError : Out Script)
      (ScriptGood (.array (t :: a :: rest))) (ScriptFatal (.array (t :: a :: rest))) := by
  cases rest with
  | nil =>
    refine (h.bind_ok (f := fun l => .ok (mk l)) fun _ => ⟨_, rfl⟩).congr ⟨?_, ?_⟩ ⟨?_, ?_⟩
    · rintro ⟨l, h1, h2⟩; exact .list rfl ht h1 h2
    · intro hg
      rcases good_inv hg with ⟨_, h, _⟩ | ⟨_, _, h⟩ | ⟨n, h, h4⟩
      · rcases ht with ht | ht <;> rw [ht] at h <;> exact absurd h (by simp)
      · exact h
      · rcases ht with ht | ht <;> rw [ht] at h <;> have := Item.uint.inj h <;> omega
    · rintro ⟨l, h1, pre, x, post, h2, h3, h4⟩; exact .list rfl ht h1 h2 h3 h4
    · intro hf
      rcases fatal_inv hf with ⟨_, h, _⟩ | ⟨_, _, h⟩
      · rcases ht with ht | ht <;> rw [ht] at h <;> exact absurd h (by simp)
      · exact h
  | cons b rest =>
    refine (exact_throw _).congr (iff_of_false id fun hg => ?_) (iff_of_false id fun hf => ?_)
    · rcases good_inv hg with ⟨h, _⟩ | ⟨h, _⟩ | ⟨n, h, h4⟩
      · exact absurd h (by simp)
      · exact absurd h (by simp)
      · rcases ht with ht | ht <;> rw [ht] at h <;> have := Item.uint.inj h <;> omega
    · rcases fatal_inv hf with ⟨h, _⟩ | ⟨h, _⟩ <;> exact absurd h (by simp)

theorem exact_noArray (i : Item) (h : scriptItem i = .ub) (h2 : ¬ IsArray i) : Exact (scriptItem i) (ScriptGood i) (ScriptFatal i) := by
  rw [h]
  refine exact_ub.congr (iff_of_false id fun hg => ?_) (iff_of_true trivial (.notArray h2))
  cases hg with
  | pubkey a _ _ => exact h2 ⟨_, a⟩
  | list a _ _ _ => exact h2 ⟨_, a⟩
  | unknown a _ _ => exact h2 ⟨_, a⟩

theorem exact_pubkey (t a : Item) : Exact (pubkeyDeser [t, a]) (IsHash 28 a) False := by
  cases hb : asBstr a with
  | none =>
    have : pubkeyDeser [t, a] = .throw .invalidArgument := by simp [pubkeyDeser, hb]
    rw [this]
    exact (exact_throw _).congr (iff_of_false id fun ⟨b, h, _⟩ => asBstr_none.mp hb ⟨b, h⟩) (by simp)
  | some b =>
    have : pubkeyDeser [t, a] = (reqLen .invalidArgument 28 b >>= fun h => .ok (.pubkey h)) := by simp [pubkeyDeser, hb]
    rw [this]
    rw [asBstr_iff] at hb
    exact ((exact_reqLen _ _ _).bind_ok fun _ => ⟨_, rfl⟩).congr (by simp [IsHash, hb]) (by simp)

theorem exact_nOfK (t a : Item) : Exact (nOfKDeser [t, a]) False (IsUint a) := by
  cases hb : asUint a with
  | none =>
    have : nOfKDeser [t, a] = .throw .runtimeError := by simp [nOfKDeser, hb]
    rw [this]
    exact (exact_throw _).congr (by simp) (by simp [asUint_none.mp hb])
  | some b =>
    have : nOfKDeser [t, a] = .ub := by simp [nOfKDeser, hb]
    rw [this]
    exact exact_ub.congr (by simp) (by simp [IsUint, asUint_iff.mp hb])

mutual
theorem exact_scriptItem : ∀ i : Item, Exact (scriptItem i) (ScriptGood i) (ScriptFatal i)
  | .tag n i => by
    rw [scriptItem]
    exact (exact_scriptItem i).congr ⟨scriptGood_bare rfl, scriptGood_bare rfl⟩ ⟨scriptFatal_bare rfl, scriptFatal_bare rfl⟩
  | .array data => by rw [scriptItem]; exact exact_scriptData data
  | .uint _ => exact_noArray _ rfl (by simp [IsArray, bare])
  | .nint _ => exact_noArray _ rfl (by simp [IsArray, bare])
  | .bstr _ => exact_noArray _ rfl (by simp [IsArray, bare])
  | .tstr _ => exact_noArray _ rfl (by simp [IsArray, bare])
  | .map _ => exact_noArray _ rfl (by simp [IsArray, bare])
  | .bool _ => exact_noArray _ rfl (by simp [IsArray, bare])
  | .null => exact_noArray _ rfl (by simp [IsArray, bare])
theorem exact_scriptData : ∀ data : List Item, Exact (scriptData data) (ScriptGood (.array data)) (ScriptFatal (.array data))
  | [] => by
    refine (exact_throw _).congr (iff_of_false id fun h => ?_) (iff_of_false id fun h => ?_)
    · cases h <;> simp_all [bare]
    · cases h <;> simp_all [bare, IsArray]
  | [_] => by
    refine (exact_throw _).congr (iff_of_false id fun h => ?_) (iff_of_false id fun h => ?_)
    · cases h <;> simp_all [bare]
    · cases h <;> simp_all [bare, IsArray]
  | t :: a :: rest => by
    have hl := exact_scriptList a
    rw [scriptData]
    split
    · rename_i h
      have h := asUint_none.mp h
      refine (exact_throw _).congr (iff_of_false id fun hg => ?_) (iff_of_false id fun hf => ?_)
      · rcases good_inv hg with ⟨_, h1, _⟩ | ⟨_, h1 | h1, _⟩ | ⟨n, h1, _⟩ <;> exact h ⟨_, h1⟩
      · rcases fatal_inv hf with ⟨_, h1, _⟩ | ⟨_, h1 | h1, _⟩ <;> exact h ⟨_, h1⟩
    · rename_i h
      rw [asUint_iff] at h
      have nf : ¬ ScriptFatal (.array (t :: a :: rest)) := by
        intro hf
        rcases fatal_inv hf with ⟨_, h1, _⟩ | ⟨_, h1 | h1, _⟩ <;> rw [h] at h1 <;> exact absurd h1 (by simp)
      have gi : ScriptGood (.array (t :: a :: rest)) ↔ rest = [] ∧ IsHash 28 a := by
        constructor
        · intro hg
          rcases good_inv hg with ⟨h0, h1, h2⟩ | ⟨_, h1 | h1, _⟩ | ⟨n, h1, h2⟩
          · exact ⟨h0, h2⟩
          · rw [h] at h1; exact absurd h1 (by simp)
          · rw [h] at h1; exact absurd h1 (by simp)
          · rw [h] at h1; have := Item.uint.inj h1; omega
        · rintro ⟨rfl, h2⟩; exact .pubkey rfl h h2
      rw [gi]
      cases rest with
      | nil =>
        exact (exact_pubkey t a).congr (by simp) (by simp [nf])
      | cons b rest => exact (exact_throw _).congr (by simp) (by simp [nf])
    · rename_i h; rw [asUint_iff] at h; exact exact_listScript _ t a rest (.inl h) hl
    · rename_i h; rw [asUint_iff] at h; exact exact_listScript _ t a rest (.inr h) hl
    · rename_i h
      rw [asUint_iff] at h
      have ng : ¬ ScriptGood (.array (t :: a :: rest)) := by
        intro hg
        rcases good_inv hg with ⟨h0, h1, h2⟩ | ⟨_, h1 | h1, _⟩ | ⟨n, h1, h2⟩
        · rw [h] at h1; exact absurd h1 (by simp)
        · rw [h] at h1; exact absurd h1 (by simp)
        · rw [h] at h1; exact absurd h1 (by simp)
        · rw [h] at h1; have := Item.uint.inj h1; omega
      have fi : ScriptFatal (.array (t :: a :: rest)) ↔ rest = [] ∧ IsUint a := by
        constructor
        · intro hf
          rcases fatal_inv hf with ⟨h0, h1, h2⟩ | ⟨_, h1 | h1, _⟩
          · exact ⟨h0, h2⟩
          · rw [h] at h1; exact absurd h1 (by simp)
          · rw [h] at h1; exact absurd h1 (by simp)
        · rintro ⟨rfl, h2⟩; exact .nOfK rfl h h2
      rw [fi]
      cases rest with
      | nil =>
        exact (exact_nOfK t a).congr (by simp [ng]) (by simp)
      | cons b rest => exact (exact_throw _).congr (by simp [ng]) (by simp)
    · rename_i n h0 h1 h2 h3 h
      rw [asUint_iff] at h
      have h4 : 4 ≤ n := by
        rcases n with _ | _ | _ | _ | n
        · exact absurd rfl h0
        · exact absurd rfl h1
        · exact absurd rfl h2
        · exact absurd rfl h3
        · omega
      refine (exact_ok _).congr (iff_of_true trivial (.unknown rfl h h4)) (iff_of_false id fun hf => ?_)
      rcases fatal_inv hf with ⟨_, h1, _⟩ | ⟨_, h1 | h1, _⟩ <;> rw [h] at h1 <;> have := Item.uint.inj h1 <;> omega
theorem exact_scriptList : ∀ a : Item, Exact (scriptList a) (∃ l, bare a = .array l ∧ ∀ y ∈ l, ScriptGood y)
    (∃ l, bare a = .array l ∧ Meets ScriptGood ScriptFatal l)
  | .tag _ i => by rw [scriptList, bare]; exact exact_scriptList i
  | .array l => by
    rw [scriptList]
    exact (exact_scriptItems l).congr (by simp [bare]) (by simp [bare])
  | .uint _ => (exact_throw _).congr (by simp [bare]) (by simp [bare])
  | .nint _ => (exact_throw _).congr (by simp [bare]) (by simp [bare])
  | .bstr _ => (exact_throw _).congr (by simp [bare]) (by simp [bare])
  | .tstr _ => (exact_throw _).congr (by simp [bare]) (by simp [bare])
  | .map _ => (exact_throw _).congr (by simp [bare]) (by simp [bare])
  | .bool _ => (exact_throw _).congr (by simp [bare]) (by simp [bare])
  | .null => (exact_throw _).congr (by simp [bare]) (by simp [bare])
theorem exact_scriptItems : ∀ l : List Item, Exact (scriptItems l) (∀ y ∈ l, ScriptGood y) (Meets ScriptGood ScriptFatal l)
  | [] => (exact_ok []).congr (by simp) (by simp [Meets])
  | i :: l => by
    rw [scriptItems, meets_cons]
    exact ((exact_scriptItem i).bind (f := fun s => (scriptItems l).bind fun r => .ok (s :: r)) fun s _ =>
      (exact_scriptItems l).bind_ok (f := fun r => .ok (s :: r)) fun _ => ⟨_, rfl⟩).congr (by simp) Iff.rfl
end

theorem exact_script (old : Script) (data : List Item) :
    Exact (Script.deser old data) (ScriptGood (.array data)) (ScriptFatal (.array data)) := by
  unfold Script.deser
  split
  · rename_i t a rest
    split
    · rename_i n h
      have h1 := exact_scriptData (t :: a :: rest)
      have : scriptData (t :: a :: rest) = .ok .empty := by
        rw [scriptData, h]; rfl
      rw [this] at h1
      exact ⟨iff_of_true ⟨_, rfl⟩ (h1.1.mp ⟨_, rfl⟩), iff_of_false (by simp) fun hf => absurd (h1.2.mpr hf) (by simp)⟩
    · exact exact_scriptData _
  · exact exact_scriptData _

/-! ## Bodies, witness sets, transactions -/

theorem lookup_valueAt (k : Nat) : ∀ m : List Item, lookup k m = valueAt k m
  | [] => rfl
  | [_] => rfl
  | i :: v :: rest => by
    have ih := lookup_valueAt k rest
    unfold valueAt at ih ⊢
    rw [pairs, List.find?_cons]
    cases i with
    | uint n =>
      rw [lookup]
      dsimp only
      by_cases h : n = k
      · subst h; simp
      · rw [if_neg h, beq_eq_false_iff_ne.mpr h]; exact ih
    | _ => exact ih

theorem arrayAt_elems (k : Nat) (m : List Item) : arrayAt k m = elems k m := by
  unfold arrayAt elems
  rw [lookup_valueAt]
  cases valueAt k m with
  | none => rfl
  | some i =>
    simp only [Option.bind_some, Option.map_some]
    unfold asArray
    rw [untag_bare]
    cases bare i <;> rfl

theorem exact_arr {α} (i : Item) (f : List Item → Out α) (good : Prop) (fatal : Prop)
    (h : ∀ l, bare i = .array l → Exact (f l) good fatal) (h2 : ¬ IsArray i → (¬ good ∧ fatal)) :
    Exact (deref (asArray i) >>= f) good fatal := by
  cases ha : asArray i with
  | none =>
    have := h2 (asArray_none.mp ha)
    exact exact_ub.congr (iff_of_false id this.1) (iff_of_true trivial this.2)
  | some l => exact h l (asArray_iff.mp ha)

theorem exact_txIn (l : List Item) : Exact (TxIn.deser l) (∃ a b, l = [a, b] ∧ IsHash 32 a ∧ IsUint b) False := by
  unfold TxIn.deser
  split
  · rename_i a b
    split
    · rename_i h n hh hn
      rw [asBstr_iff] at hh; rw [asUint_iff] at hn
      refine ((exact_reqLen _ _ _).bind_ok fun _ => ⟨_, rfl⟩).congr ⟨fun h3 => ⟨a, b, rfl, ⟨h, hh, h3⟩, n, hn⟩, ?_⟩ Iff.rfl
      rintro ⟨a', b', e, ⟨h', hh', h3⟩, _⟩
      simp only [List.cons.injEq, and_true] at e
      obtain ⟨rfl, rfl⟩ := e
      rw [hh] at hh'; obtain rfl := Item.bstr.inj hh'
      exact h3
    · rename_i hn
      refine (exact_throw _).congr (iff_of_false id ?_) Iff.rfl
      rintro ⟨a', b', e, ⟨h', hh', h3⟩, n, hn'⟩
      simp only [List.cons.injEq, and_true] at e
      obtain ⟨rfl, rfl⟩ := e
      exact hn _ _ (asBstr_iff.mpr hh') (asUint_iff.mpr hn')
  · rename_i hn
    refine (exact_throw _).congr (iff_of_false id ?_) Iff.rfl
    rintro ⟨a, b, rfl, _⟩; exact hn _ _ rfl

theorem exact_txOut (l : List Item) : Exact (TxOut.deser l) (∃ a b, l = [a, b] ∧ IsBytes a ∧ IsUint b) False := by
  unfold TxOut.deser
  split
  · rename_i a b
    split
    · rename_i h n hh hn
      exact (exact_ok _).congr (iff_of_true trivial ⟨a, b, rfl, ⟨_, asBstr_iff.mp hh⟩, ⟨_, asUint_iff.mp hn⟩⟩) Iff.rfl
    · rename_i hn
      refine (exact_throw _).congr (iff_of_false id ?_) Iff.rfl
      rintro ⟨a', b', e, ⟨h', hh'⟩, n, hn'⟩
      simp only [List.cons.injEq, and_true] at e
      obtain ⟨rfl, rfl⟩ := e
      exact hn _ _ (asBstr_iff.mpr hh') (asUint_iff.mpr hn')
  · rename_i hn
    refine (exact_throw _).congr (iff_of_false id ?_) Iff.rfl
    rintro ⟨a, b, rfl, _⟩; exact hn _ _ rfl

theorem exact_input (i : Item) : Exact (inputOf i) (InputGood i) (¬ IsArray i) := by
  refine exact_arr i _ _ _ (fun l hl => (exact_txIn l).congr ?_ (by simp [IsArray, hl])) fun h => ⟨?_, h⟩
  · unfold InputGood; rw [hl]; simp only [Item.array.injEq]
  · rintro ⟨a, b, e, _⟩; exact h ⟨_, e⟩

theorem exact_output (i : Item) : Exact (outputOf i) (OutputGood i) (¬ IsArray i) := by
  refine exact_arr i _ _ _ (fun l hl => (exact_txOut l).congr ?_ (by simp [IsArray, hl])) fun h => ⟨?_, h⟩
  · unfold OutputGood; rw [hl]; simp only [Item.array.injEq]
  · rintro ⟨a, b, e, _⟩; exact h ⟨_, e⟩

theorem exact_certItem (i : Item) : Exact (certOf i) (CertItemGood i) (CertItemFatal i) := by
  refine exact_arr i _ _ _ (fun l hl => (exact_cert .empty l).congr ?_ ?_) fun h => ⟨?_, .inl h⟩
  · unfold CertItemGood; rw [hl]; simp
  · unfold CertItemFatal; rw [hl]; simp [IsArray, hl]
  · rintro ⟨l, e, _⟩; exact h ⟨_, e⟩

theorem exact_withdrawals : ∀ (m : List Item) (acc : List (Bytes × Nat)),
    Exact (withdrawalLoop m acc) (∀ e ∈ pairs m, WithdrawalGood e) (∃ e ∈ pairs m, ¬ WithdrawalGood e)
  | [], _ => (exact_ok _).congr (by simp [pairs]) (by simp [pairs])
  | [_], _ => (exact_ok _).congr (by simp [pairs]) (by simp [pairs])
  | k :: v :: rest, acc => by
    rw [withdrawalLoop, pairs]
    cases hk : asBstr k with
    | none =>
      have hk := asBstr_none.mp hk
      have : ¬ WithdrawalGood (k, v) := fun h => hk h.1
      exact exact_ub.congr (by simp [this]) (by simp [this])
    | some a =>
      cases hv : asUint v with
      | none =>
        have hv := asUint_none.mp hv
        have : ¬ WithdrawalGood (k, v) := fun h => hv h.2
        exact exact_ub.congr (by simp [this]) (by simp [this])
      | some n =>
        have : WithdrawalGood (k, v) := ⟨⟨a, asBstr_iff.mp hk⟩, ⟨n, asUint_iff.mp hv⟩⟩
        exact (exact_withdrawals rest _).congr (by simp [this]) (by simp [this])

theorem entries_eq (m : List Item) : pairs (((lookup 5 m).bind asMap).getD []) = entries 5 m := by
  unfold entries
  rw [lookup_valueAt]
  cases valueAt 5 m with
  | none => rfl
  | some i =>
    simp only [Option.bind_some, Option.map_some]
    unfold asMap
    rw [untag_bare]
    cases bare i <;> rfl

theorem exact_hashAt (m : List Item) : Exact (hashAt m) (MetadataGood m) False := by
  unfold hashAt MetadataGood
  rw [lookup_valueAt]
  cases hv : valueAt 7 m with
  | none => exact (exact_ok _).congr (by simp) Iff.rfl
  | some v =>
    simp only [Option.bind_some]
    split
    · rename_i h
      have h := asBstr_none.mp h
      refine (exact_ok _).congr (iff_of_true trivial ?_) Iff.rfl
      rintro v' b e hb; obtain rfl := Option.some.inj e; exact absurd ⟨b, hb⟩ h
    · rename_i b h
      rw [asBstr_iff] at h
      refine ((exact_reqLen _ _ _).bind_ok fun _ => ⟨_, rfl⟩).congr ⟨?_, ?_⟩ Iff.rfl
      · rintro hl v' b' e hb; obtain rfl := Option.some.inj e; rw [h] at hb; obtain rfl := Item.bstr.inj hb; exact hl
      · intro hm; exact hm v b rfl h

theorem exact_body (m : List Item) : Exact (TxBody.deser m) (BodyGood m) (BodyFatal m) := by
  unfold TxBody.deser
  simp only [arrayAt_elems]
  refine ((exact_mapOut _ _ _ _ exact_input).bind fun _ _ => (exact_mapOut _ _ _ _ exact_output).bind fun _ _ =>
    (exact_mapOut _ _ _ _ exact_certItem).bind fun _ _ => (exact_withdrawals _ []).bind fun _ _ =>
    (exact_hashAt m).bind_ok fun _ => ⟨_, rfl⟩).congr ?_ ?_
  · rw [entries_eq]; rfl
  · rw [entries_eq]; simp only [and_false, or_false]; rfl

theorem exact_vkey (l : List Item) : Exact (vkeyOf l) (WitnessGood l) (¬ WitnessGood l) := by
  have key : ∀ {x : Out VkeyWitness}, (∃ w, x = .ok w) ∧ WitnessGood l ∨ x = .ub ∧ ¬ WitnessGood l →
      Exact x (WitnessGood l) (¬ WitnessGood l) := by
    rintro x (⟨⟨w, rfl⟩, h⟩ | ⟨rfl, h⟩)
    · exact (exact_ok _).congr (by simp [h]) (by simp [h])
    · exact exact_ub.congr (by simp [h]) (by simp [h])
  apply key
  unfold vkeyOf WitnessGood
  rcases l with _ | ⟨a, l⟩
  · right; exact ⟨rfl, by simp⟩
  simp only [Cbor.get, List.getElem?_cons_zero, List.getElem?_cons_succ]
  cases ha : asBstr a with
  | none =>
    right
    refine ⟨by simp [deref, ha], ?_⟩
    rintro ⟨a', b, rest, k, s, e, h, _⟩
    obtain ⟨rfl, _⟩ := List.cons.inj e
    exact asBstr_none.mp ha ⟨k, h⟩
  | some k =>
    by_cases hk : 32 ≤ k.length
    · rcases l with _ | ⟨b, rest⟩
      · right; exact ⟨by simp [deref, ha, byteArray, hk], by simp⟩
      cases hb : asBstr b with
      | none =>
        right
        refine ⟨by simp [deref, ha, hb, byteArray, hk], ?_⟩
        rintro ⟨a', b', rest', k', s, e, h, h2, h3, _⟩
        simp only [List.cons.injEq] at e
        obtain ⟨rfl, rfl, rfl⟩ := e
        exact asBstr_none.mp hb ⟨s, h3⟩
      | some s =>
        by_cases hs : 64 ≤ s.length
        · left
          exact ⟨⟨⟨k.take 32, s.take 64⟩, by simp [deref, ha, hb, byteArray, hk, hs]⟩, a, b, rest, k, s, rfl, asBstr_iff.mp ha, hk,
            asBstr_iff.mp hb, hs⟩
        · right
          refine ⟨by simp [deref, ha, hb, byteArray, hk, hs], ?_⟩
          rintro ⟨a', b', rest', k', s', e, h, h2, h3, h4⟩
          simp only [List.cons.injEq] at e
          obtain ⟨rfl, rfl, rfl⟩ := e
          rw [← asBstr_iff, hb] at h3; obtain rfl := Option.some.inj h3
          exact hs h4
    · right
      refine ⟨by simp [deref, ha, byteArray, hk], ?_⟩
      rintro ⟨a', b, rest, k', s, e, h, h2, _⟩
      obtain ⟨rfl, _⟩ := List.cons.inj e
      rw [← asBstr_iff, ha] at h; obtain rfl := Option.some.inj h
      exact hk h2

theorem meets_not {α} (g : α → Prop) (l : List α) : Meets g (fun a => ¬ g a) l ↔ ¬ ∀ a ∈ l, g a := by
  induction l with
  | nil => simp [Meets]
  | cons a l ih =>
    rw [meets_cons, ih]
    by_cases h : g a <;> simp [h]

theorem exact_wits (m : List Item) : Exact (WitnessSet.deser m) (WitsGood m) (¬ WitsGood m) := by
  have hw : WitsGood m ↔ ∀ l ∈ (elems 0 m).filterMap asArray, WitnessGood l := by
    unfold WitsGood
    constructor
    · intro h l hl
      obtain ⟨i, hi, e⟩ := List.mem_filterMap.mp hl
      exact h i hi l (asArray_iff.mp e)
    · intro h i hi l hl
      exact h l (List.mem_filterMap.mpr ⟨i, hi, asArray_iff.mpr hl⟩)
  unfold WitnessSet.deser
  rw [arrayAt_elems]
  refine ((exact_mapOut _ _ _ _ exact_vkey).bind_ok fun _ => ⟨_, rfl⟩).congr hw.symm ?_
  rw [meets_not, hw]

theorem mapAt (i : Option Item) : (i.bind asMap = none ∧ ∀ m, ¬ ∃ j, i = some j ∧ bare j = .map m) ∨
    ∃ m, i.bind asMap = some m ∧ ∀ m', (∃ j, i = some j ∧ bare j = .map m') ↔ m' = m := by
  cases i with
  | none => left; simp
  | some i =>
    simp only [Option.bind_some]
    cases h : asMap i with
    | none =>
      left
      refine ⟨rfl, ?_⟩
      rintro m ⟨j, e, hj⟩
      obtain rfl := Option.some.inj e
      rw [← asMap_iff, h] at hj; exact absurd hj (by simp)
    | some m =>
      right
      refine ⟨m, rfl, fun m' => ⟨?_, ?_⟩⟩
      · rintro ⟨j, e, hj⟩
        obtain rfl := Option.some.inj e
        rw [← asMap_iff, h] at hj; exact (Option.some.inj hj).symm
      · rintro rfl; exact ⟨i, rfl, asMap_iff.mp h⟩

theorem exact_tx (old : Tx) (l : List Item) : Exact (Tx.deser old l) (TxGood l) (TxFatal l) := by
  have hb : Exact (bodyAt old.body l[0]?) (∀ m, IsMapAt 0 l m → BodyGood m) (∃ m, IsMapAt 0 l m ∧ BodyFatal m) := by
    unfold bodyAt IsMapAt
    rcases mapAt l[0]? with ⟨h1, h2⟩ | ⟨m, h1, h2⟩ <;> rw [h1]
    · exact (exact_ok _).congr (iff_of_true trivial fun m h => absurd h (h2 m)) (iff_of_false id fun ⟨m, h, _⟩ => h2 m h)
    · simp only [h2]
      exact (exact_body m).congr (by simp) (by simp)
  have hw : Exact (witsAt old.wits l[1]?) (∀ m, IsMapAt 1 l m → WitsGood m) (∃ m, IsMapAt 1 l m ∧ ¬ WitsGood m) := by
    unfold witsAt IsMapAt
    rcases mapAt l[1]? with ⟨h1, h2⟩ | ⟨m, h1, h2⟩ <;> rw [h1]
    · exact (exact_ok _).congr (iff_of_true trivial fun m h => absurd h (h2 m)) (iff_of_false id fun ⟨m, h, _⟩ => h2 m h)
    · simp only [h2]
      exact (exact_wits m).congr (by simp) (by simp)
  unfold Tx.deser
  exact hb.bind fun _ _ => hw.bind_ok fun _ => ⟨_, rfl⟩

theorem exact_top {α} (f : List Item → Out α) (good fatal : List Item → Prop) (h : ∀ l, Exact (f l) (good l) (fatal l)) (b : Bytes) :
    Exact (deserializeArray f b) (∃ l, TopArray b l ∧ good l) (∃ l, TopArray b l ∧ fatal l) := by
  unfold deserializeArray TopArray
  cases parse b with
  | none => exact (exact_throw _).congr (by simp) (by simp)
  | some i =>
    dsimp only
    cases ha : asArray i with
    | none =>
      have := asArray_none.mp ha
      refine (exact_throw _).congr (iff_of_false id ?_) (iff_of_false id ?_) <;>
      · rintro ⟨l, ⟨j, e, hj⟩, _⟩; obtain rfl := Option.some.inj e; exact this ⟨l, hj⟩
    | some l =>
      rw [asArray_iff] at ha
      exact (h l).congr (by simp [ha]) (by simp [ha])

theorem exact_topMap {α} (f : List Item → Out α) (good fatal : List Item → Prop) (h : ∀ l, Exact (f l) (good l) (fatal l)) (b : Bytes) :
    Exact (deserializeMap f b) (∃ l, TopMap b l ∧ good l) (∃ l, TopMap b l ∧ fatal l) := by
  unfold deserializeMap TopMap
  cases parse b with
  | none => exact (exact_throw _).congr (by simp) (by simp)
  | some i =>
    dsimp only
    cases ha : asMap i with
    | none =>
      refine (exact_throw _).congr (iff_of_false id ?_) (iff_of_false id ?_) <;>
      · rintro ⟨l, ⟨j, e, hj⟩, _⟩
        obtain rfl := Option.some.inj e
        rw [← asMap_iff, ha] at hj; exact absurd hj (by simp)
    | some l =>
      rw [asMap_iff] at ha
      exact (h l).congr (by simp [ha]) (by simp [ha])

/-! ## The theorems -/

/-- **C65**, exactly, for certificates: which bytes are read and which leave defined behaviour (the others are refused). -/
theorem C65_certificate_iff (old : Certificate) (b : Bytes) :
    ((∃ c, Certificate.deserialize old b = .ok c) ↔ ∃ l, TopArray b l ∧ CertGood l) ∧
    (Certificate.deserialize old b = .ub ↔ ∃ l, TopArray b l ∧ CertFatal l) :=
  exact_top _ _ _ (exact_cert old) b

/-- **C65**, exactly, for movements of instantaneous rewards. -/
theorem C65_rewards_iff (old : List (StakeCredential × Nat)) (b : Bytes) :
    ((∃ m, MIR.deserialize old b = .ok m) ↔ ∃ l, TopArray b l ∧ MirGood l) ∧
    (MIR.deserialize old b = .ub ↔ ∃ l, TopArray b l ∧ MirFatal l) :=
  exact_top _ _ _ (exact_mir old) b

/-- **C65**, exactly, for scripts, nested to any depth. -/
theorem C65_script_iff (old : Script) (b : Bytes) :
    ((∃ s, Script.deserialize old b = .ok s) ↔ ∃ l, TopArray b l ∧ ScriptGood (.array l)) ∧
    (Script.deserialize old b = .ub ↔ ∃ l, TopArray b l ∧ ScriptFatal (.array l)) :=
  exact_top _ _ _ (exact_script old) b

/-- **C65**, exactly, for transaction bodies. -/
theorem C65_body_iff (b : Bytes) :
    ((∃ t, TxBody.deserialize b = .ok t) ↔ ∃ m, TopMap b m ∧ BodyGood m) ∧
    (TxBody.deserialize b = .ub ↔ ∃ m, TopMap b m ∧ BodyFatal m) :=
  exact_topMap _ _ _ exact_body b

/-- **C65**, exactly, for witness sets: they are never refused once they are a map. -/
theorem C65_witnesses_iff (b : Bytes) :
    ((∃ w, WitnessSet.deserialize b = .ok w) ↔ ∃ m, TopMap b m ∧ WitsGood m) ∧
    (WitnessSet.deserialize b = .ub ↔ ∃ m, TopMap b m ∧ ¬ WitsGood m) :=
  exact_topMap _ _ _ exact_wits b

/-- **C65**, exactly, for whole transactions. -/
theorem C65_transaction_iff (old : Tx) (b : Bytes) :
    ((∃ t, Tx.deserialize old b = .ok t) ↔ ∃ l, TopArray b l ∧ TxGood l) ∧
    (Tx.deserialize old b = .ub ↔ ∃ l, TopArray b l ∧ TxFatal l) :=
  exact_top _ _ _ (exact_tx old) b

/-- Concrete cases: an array of two empty maps is read; one with an input that is a number is fatal; an input that is an array of
the wrong shape is refused, even if a number follows. -/
example : (∃ t, Tx.deserialize {} [0x82, 0xa0, 0xa0] = .ok t) ∧ Tx.deserialize {} [0x82, 0xa1, 0x00, 0x81, 0x05, 0xa0] = .ub ∧
    Tx.deserialize {} [0x82, 0xa1, 0x00, 0x82, 0x80, 0x05, 0xa0] = .throw .invalidArgument := ⟨⟨_, rfl⟩, rfl, rfl⟩
example : TxFatal [.map [.uint 0, .array [.uint 5]], .map []] :=
  .inl ⟨[.uint 0, .array [.uint 5]], ⟨_, rfl, rfl⟩, .inl ⟨[], .uint 5, [], rfl, by simp, by simp [IsArray, bare]⟩⟩
example : CertGood [.uint 0, .array [.uint 0, .bstr (List.replicate 28 0)]] :=
  ⟨_, _, _, _, rfl, rfl, rfl, _, rfl, _, _, rfl, .inl rfl, _, rfl, rfl⟩

end Cardano.Ledger
