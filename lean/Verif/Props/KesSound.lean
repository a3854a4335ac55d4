import Verif.Props.Kes
import Verif.Spec.KesPairs

/-! # C63: what an accepted KES signature proves -/

namespace Cardano.Kes
open KesSpec

theorem leafPath_lt : ∀ (d t : Nat), t < 2 ^ d → leafPath (d + 1) t = false :: leafPath d t := by
  intro d t h
  rw [leafPath, Nat.testBit_lt_two_pow h]

theorem leafPath_add (d : Nat) : ∀ (k t : Nat), leafPath d (t + 2 ^ d * k) = leafPath d t := by
  induction d with
  | zero => intros; rfl
  | succ d ih =>
    intro k t
    rw [leafPath, leafPath]
    congr 1
    · rw [show t + 2 ^ (d + 1) * k = t + 2 ^ d * (2 * k) by rw [Nat.pow_succ, Nat.mul_assoc]]
      rw [Nat.testBit_eq_decide_div_mod_eq, Nat.testBit_eq_decide_div_mod_eq,
        Nat.add_mul_div_left _ _ (Nat.two_pow_pos d)]
      congr 1
      rw [Nat.add_mul_mod_self_left]
    · rw [show t + 2 ^ (d + 1) * k = t + 2 ^ d * (2 * k) by rw [Nat.pow_succ, Nat.mul_assoc], ih]

theorem leafPath_ge (d t : Nat) (h : 2 ^ d ≤ t) (h2 : t < 2 ^ (d + 1)) :
    leafPath (d + 1) t = true :: leafPath d (t - 2 ^ d) := by
  have e : t = (t - 2 ^ d) + 2 ^ d * 1 := by omega
  rw [leafPath]
  congr 1
  · rw [Nat.testBit_eq_decide_div_mod_eq]
    have : t / 2 ^ d = 1 := by
      apply Nat.div_eq_of_lt_le <;> (rw [Nat.pow_succ] at h2; omega)
    rw [this]; rfl
  · conv => lhs; rw [e]
    rw [leafPath_add]

theorem split_sig (d : Nat) (sig : Bytes) (h : sig.length = sigSize (d + 1)) :
    ∃ sigma a b, sig = sigma ++ (a ++ b) ∧ sigma.length = sigSize d ∧ a.length = 32 ∧ b.length = 32 := by
  have hs : sigSize (d + 1) = sigSize d + 64 := by unfold sigSize; omega
  refine ⟨sig.take (sigSize d), (sig.drop (sigSize d)).take 32, (sig.drop (sigSize d)).drop 32, ?_, ?_, ?_, ?_⟩
  · rw [List.take_append_drop, List.take_append_drop]
  · simp; omega
  · simp; omega
  · simp; omega

theorem childKeys_low (C : SigHash) (d : Nat) (seed : Bytes) (t h : Nat) (hh : h < d) (hl : t < 2 ^ d) :
    childKeys C (d + 1) seed t h = childKeys C d (splitLeft C seed) t h := by
  unfold childKeys
  rw [leafPath_lt d t hl, show d + 1 - (h + 1) = (d - (h + 1)) + 1 by omega, List.take_succ_cons]
  rfl

theorem childKeys_high (C : SigHash) (d : Nat) (seed : Bytes) (t h : Nat) (hh : h < d) (h1 : 2 ^ d ≤ t) (h2 : t < 2 ^ (d + 1)) :
    childKeys C (d + 1) seed t h = childKeys C d (splitRight C seed) (t - 2 ^ d) h := by
  unfold childKeys
  rw [leafPath_ge d t h1 h2, show d + 1 - (h + 1) = (d - (h + 1)) + 1 by omega, List.take_succ_cons]
  rfl

theorem childKeys_top (C : SigHash) (d : Nat) (seed : Bytes) (t : Nat) :
    childKeys C (d + 1) seed t d = treeKey C d (splitLeft C seed) ++ treeKey C d (splitRight C seed) := by
  unfold childKeys
  rw [show d + 1 - (d + 1) = 0 by omega, List.take_zero]
  rfl

theorem claimedKeys_sub (d : Nat) (sigma r : Bytes) (hs : sigma.length = sigSize d) (h : Nat) (hh : h < d) :
    claimedKeys (sigma ++ r) h = claimedKeys sigma h := by
  unfold claimedKeys
  have hb : 64 + 64 * h + 64 ≤ sigma.length := by rw [hs]; unfold sigSize; omega
  rw [List.drop_append_of_le_length (by omega), List.take_append_of_le_length (by rw [List.length_drop]; omega)]

theorem claimedKeys_top (d : Nat) (sigma a b : Bytes) (hs : sigma.length = sigSize d) (ha : a.length = 32) (hb : b.length = 32) :
    claimedKeys (sigma ++ (a ++ b)) d = a ++ b := by
  unfold claimedKeys
  rw [List.drop_left' (by rw [hs]; unfold sigSize; omega), List.take_of_length_le (by simp [ha, hb])]

theorem verify_sound (C : SigHash) : ∀ (d : Nat) (seed : Bytes) (t : Nat) (msg sig : Bytes), t < 2 ^ d →
    sig.length = sigSize d → verify C d t (treeKey C d seed) msg sig = .ok true →
    (C.verify (C.pub (seedAt C seed (leafPath d t))) msg (sig.take 64) = true ∧ ∀ h < d, claimedKeys sig h = childKeys C d seed t h) ∨
      ∃ h < d, Collide C.hash (claimedKeys sig h) (childKeys C d seed t h) := by
  intro d
  induction d with
  | zero =>
    intro seed t msg sig _ hl h
    left
    rw [verify] at h
    injection h with h
    rw [List.take_of_length_le (by rw [hl]; simp [sigSize])]
    exact ⟨h, fun h hh => absurd hh (by omega)⟩
  | succ d ih =>
    intro seed t msg sig ht hl h
    obtain ⟨sigma, a, b, rfl, hs, ha, hb⟩ := split_sig d sig hl
    rw [verify_step C d t _ msg sigma a b hs ha hb] at h
    split at h
    · cases h
    rename_i hp
    have hp := Decidable.not_not.mp hp
    by_cases hc : a ++ b = treeKey C d (splitLeft C seed) ++ treeKey C d (splitRight C seed)
    · have htop := (claimedKeys_top d sigma a b hs ha hb).trans (hc.trans (childKeys_top C d seed t).symm)
      have hsub := claimedKeys_sub d sigma (a ++ b) hs
      obtain ⟨rfl, rfl⟩ := List.append_inj hc (by rw [ha, treeKey_length])
      have h64 : (sigma ++ (treeKey C d (splitLeft C seed) ++ treeKey C d (splitRight C seed))).take 64 = sigma.take 64 := by
        rw [List.take_append_of_le_length (by rw [hs]; unfold sigSize; omega)]
      rw [h64]
      have lift : ∀ s' t', t' < 2 ^ d → verify C d t' (treeKey C d s') msg sigma = .ok true →
          seedAt C seed (leafPath (d + 1) t) = seedAt C s' (leafPath d t') →
          (∀ h < d, childKeys C (d + 1) seed t h = childKeys C d s' t' h) →
          (C.verify (C.pub (seedAt C seed (leafPath (d + 1) t))) msg (sigma.take 64) = true ∧ ∀ h < d + 1,
            claimedKeys (sigma ++ (treeKey C d (splitLeft C seed) ++ treeKey C d (splitRight C seed))) h = childKeys C (d + 1) seed t h) ∨
          ∃ h < d + 1, Collide C.hash (claimedKeys (sigma ++ (treeKey C d (splitLeft C seed) ++ treeKey C d (splitRight C seed))) h)
            (childKeys C (d + 1) seed t h) := by
        intro s' t' ht' hv he hk
        rcases ih s' t' msg sigma ht' hs hv with ⟨g1, g2⟩ | ⟨h, g1, g2⟩
        · refine Or.inl ⟨by rw [he]; exact g1, ?_⟩
          intro h hh
          by_cases e : h = d
          · subst e; exact htop
          · rw [hsub h (by omega), hk h (by omega)]; exact g2 h (by omega)
        · refine Or.inr ⟨h, by omega, ?_⟩
          rw [hsub h g1, hk h g1]; exact g2
      by_cases h1 : t < 2 ^ d
      · rw [if_pos h1] at h
        exact lift _ t h1 h (by rw [leafPath_lt d t h1]; rfl) (fun h hh => childKeys_low C d seed t h hh h1)
      · rw [if_neg h1] at h
        exact lift _ (t - 2 ^ d) (by rw [Nat.pow_succ] at ht; omega) h (by rw [leafPath_ge d t (by omega) ht]; rfl)
          (fun h hh => childKeys_high C d seed t h hh (by omega) ht)
    · right
      refine ⟨d, by omega, ?_⟩
      rw [claimedKeys_top d sigma a b hs ha hb, childKeys_top]
      refine ⟨hc, ?_⟩
      unfold hashPair at hp
      rw [hp]; rfl

theorem split_csig (d : Nat) (sig : Bytes) (h : sig.length = compactSize (d + 1)) :
    ∃ sigma a, sig = sigma ++ a ∧ sigma.length = compactSize d ∧ a.length = 32 := by
  have hs : compactSize (d + 1) = compactSize d + 32 := by unfold compactSize; omega
  refine ⟨sig.take (compactSize d), sig.drop (compactSize d), ?_, ?_, ?_⟩
  · rw [List.take_append_drop]
  · simp; omega
  · simp; omega

theorem recompute_len (C : SigHash) (d t : Nat) (msg sig r : Bytes) (hl : sig.length = compactSize d)
    (h : recompute C d t msg sig = .ok r) : r.length = 32 := by
  cases d with
  | zero =>
    simp only [recompute] at h
    split at h
    · cases h
    · injection h with h
      rw [← h]; simp [hl, compactSize]
  | succ d =>
    simp only [recompute] at h
    split at h
    · cases h
    · split at h <;> (rw [Out.bind_eq_ok] at h; obtain ⟨x, _, hx⟩ := h; injection hx with hx; rw [← hx]; exact C.hash_length _)

theorem testBit_add_high (d j t : Nat) (hj : j < d) : (t + 2 ^ d).testBit j = t.testBit j := by
  have := Nat.testBit_two_pow_add_gt hj t
  rwa [Nat.add_comm] at this

theorem claimedSibling_sub (d : Nat) (sigma a : Bytes) (hs : sigma.length = compactSize d) (h : Nat) (hh : h < d) :
    claimedSibling (sigma ++ a) h = claimedSibling sigma h := by
  unfold claimedSibling
  have hb : 96 + 32 * h + 32 ≤ sigma.length := by rw [hs]; unfold compactSize; omega
  rw [List.drop_append_of_le_length (by omega), List.take_append_of_le_length (by rw [List.length_drop]; omega)]

theorem claimedSibling_top (d : Nat) (sigma a : Bytes) (hs : sigma.length = compactSize d) (ha : a.length = 32) :
    claimedSibling (sigma ++ a) d = a := by
  unfold claimedSibling
  rw [List.drop_left' (by rw [hs]; unfold compactSize; omega), List.take_of_length_le (by omega)]

theorem impliedKey_sub (C : SigHash) (d : Nat) (sigma a : Bytes) (hs : sigma.length = compactSize d) (t t' : Nat)
    (hb : ∀ j < d, t.testBit j = t'.testBit j) : ∀ h, h ≤ d → impliedKey C t (sigma ++ a) h = impliedKey C t' sigma h := by
  intro h
  induction h with
  | zero =>
    intro _
    unfold impliedKey
    have : 96 ≤ sigma.length := by rw [hs]; unfold compactSize; omega
    rw [List.drop_append_of_le_length (by omega), List.take_append_of_le_length (by rw [List.length_drop]; omega)]
  | succ h ih =>
    intro hh
    rw [impliedKey, impliedKey, ih (by omega), claimedSibling_sub d sigma a hs h (by omega), inOrder, inOrder, hb h (by omega)]

/-- What recomputation returns: the implied key, if the leaf signature is valid under the leaf key given. -/
theorem recompute_implied (C : SigHash) : ∀ (d t : Nat) (msg sig r : Bytes), t < 2 ^ d → sig.length = compactSize d →
    recompute C d t msg sig = .ok r → r = impliedKey C t sig d ∧ C.verify (impliedKey C t sig 0) msg (sig.take 64) = true := by
  intro d
  induction d with
  | zero =>
    intro t msg sig r _ hl h
    simp only [recompute] at h
    split at h
    · cases h
    · rename_i hv
      have h := Out.ok.inj h
      have e : (sig.drop 64).take 32 = sig.drop (sig.length - 32) := by
        rw [hl]; exact List.take_of_length_le (by simp [hl, compactSize])
      rw [Bool.not_eq_false] at hv
      refine ⟨by rw [← h, impliedKey, e], ?_⟩
      rw [impliedKey, e]; exact hv
  | succ d ih =>
    intro t msg sig r ht hl h
    obtain ⟨sigma, a, rfl, hs, ha⟩ := split_csig d sig hl
    have hd : (sigma ++ a).drop ((sigma ++ a).length - 32) = a := by
      apply List.drop_left'; simp [ha]
    have h64 : (sigma ++ a).take 64 = sigma.take 64 := by
      rw [List.take_append_of_le_length (by rw [hs]; unfold compactSize; omega)]
    simp only [recompute, hd, List.take_left' hs, hs, ne_eq, not_true_eq_false, if_false] at h
    have hk : impliedKey C t (sigma ++ a) (d + 1) = C.hash (inOrder t d (impliedKey C t (sigma ++ a) d) a) := by
      rw [impliedKey, claimedSibling_top d sigma a hs ha]
    rw [h64, hk]
    by_cases h1 : t < 2 ^ d
    · rw [if_pos h1, Out.bind_eq_ok] at h
      obtain ⟨x, hx, hr⟩ := h
      obtain ⟨e1, e2⟩ := ih t msg sigma x h1 hs hx
      have hi := impliedKey_sub C d sigma a hs t t (fun _ _ => rfl)
      rw [hi d (Nat.le_refl _), hi 0 (Nat.zero_le _), inOrder, Nat.testBit_lt_two_pow h1]
      refine ⟨?_, e2⟩
      rw [← Out.ok.inj hr, e1]; rfl
    · rw [if_neg h1, Out.bind_eq_ok] at h
      obtain ⟨x, hx, hr⟩ := h
      have ht2 : t - 2 ^ d < 2 ^ d := by rw [Nat.pow_succ] at ht; omega
      obtain ⟨e1, e2⟩ := ih (t - 2 ^ d) msg sigma x ht2 hs hx
      have hi := impliedKey_sub C d sigma a hs t (t - 2 ^ d) (fun j hj => by
        have := testBit_add_high d j (t - 2 ^ d) hj
        rwa [Nat.sub_add_cancel (by omega)] at this)
      have htop : t.testBit d = true := by
        have : t / 2 ^ d = 1 := by
          apply Nat.div_eq_of_lt_le <;> (rw [Nat.pow_succ] at ht; omega)
        rw [Nat.testBit_eq_decide_div_mod_eq, this]; rfl
      rw [hi d (Nat.le_refl _), hi 0 (Nat.zero_le _), inOrder, htop]
      refine ⟨?_, e2⟩
      rw [← Out.ok.inj hr, e1]; rfl

theorem impliedKey_length (C : SigHash) (t : Nat) (sig : Bytes) (h : Nat) (hl : 96 ≤ sig.length) : (impliedKey C t sig h).length = 32 := by
  cases h with
  | zero => rw [impliedKey, List.length_take, List.length_drop]; omega
  | succ h => exact C.hash_length _

theorem childKeys_inOrder (C : SigHash) (d : Nat) (seed : Bytes) (t h : Nat) (hh : h < d) :
    ∃ s, childKeys C d seed t h = inOrder t h (treeKey C h (seedAt C seed ((leafPath d t).take (d - h)))) s ∧ s.length = 32 := by
  have hp : (leafPath d t).take (d - h) = (leafPath d t).take (d - (h + 1)) ++ [t.testBit h] := by
    have hlen : ∀ d, (leafPath d t).length = d := by
      intro d; induction d with
      | zero => rfl
      | succ d ih => simp [leafPath, ih]
    have hget : ∀ d i (hi : i < (leafPath d t).length), (leafPath d t)[i] = t.testBit (d - 1 - i) := by
      intro d
      induction d with
      | zero => intro i hi; simp [leafPath] at hi
      | succ d ih =>
        intro i hi
        cases i with
        | zero => simp [leafPath]
        | succ i =>
          have : i < (leafPath d t).length := by rw [hlen] at hi ⊢; omega
          simp only [leafPath, List.getElem_cons_succ, ih i this]
          congr 1; omega
    have hi : d - (h + 1) < (leafPath d t).length := by rw [hlen]; omega
    rw [show d - h = d - (h + 1) + 1 by omega, List.take_succ_eq_append_getElem hi, hget]
    congr 3; omega
  unfold childKeys inOrder
  rw [hp]
  cases t.testBit h
  · exact ⟨_, rfl, treeKey_length ..⟩
  · exact ⟨_, rfl, treeKey_length ..⟩

theorem implied_sound (C : SigHash) (d : Nat) (seed : Bytes) (t : Nat) (sig : Bytes) (hl : 96 ≤ sig.length) :
    ∀ j ≤ d, (∀ h, d - j ≤ h → h < d → ¬ Collide C.hash (impliedKeys C t sig h) (childKeys C d seed t h)) →
      impliedKey C t sig d = treeKey C d seed →
      impliedKey C t sig (d - j) = treeKey C (d - j) (seedAt C seed ((leafPath d t).take j)) ∧
      ∀ h, d - j ≤ h → h < d → impliedKeys C t sig h = childKeys C d seed t h := by
  intro j
  induction j with
  | zero => intro _ _ he; exact ⟨by simpa [seedAt] using he, fun h h1 h2 => absurd h1 (by omega)⟩
  | succ j ih =>
    intro hj hno he
    obtain ⟨e1, e2⟩ := ih (by omega) (fun h h1 h2 => hno h (by omega) h2) he
    have hd : d - j = d - (j + 1) + 1 := by omega
    have hlt : d - (j + 1) < d := by omega
    have key : impliedKeys C t sig (d - (j + 1)) = childKeys C d seed t (d - (j + 1)) := by
      by_cases hc : impliedKeys C t sig (d - (j + 1)) = childKeys C d seed t (d - (j + 1))
      · exact hc
      · refine absurd ⟨hc, ?_⟩ (hno _ (Nat.le_refl _) hlt)
        have : C.hash (impliedKeys C t sig (d - (j + 1))) = impliedKey C t sig (d - j) := by rw [hd]; rfl
        rw [this, e1, hd]
        unfold childKeys
        have hseed : ∀ (p : List Bool) (s : Bytes) (b : Bool), seedAt C s (p ++ [b]) = C.hash ((if b then 2 else 1) :: seedAt C s p) := by
          intro p
          induction p with
          | nil => intro s b; cases b <;> rfl
          | cons x p ihp => intro s b; cases x <;> exact ihp _ b
        rw [hseed, hseed, show d - (d - (j + 1) + 1) = j by omega]
        rfl
    refine ⟨?_, ?_⟩
    · obtain ⟨s, g1, g2⟩ := childKeys_inOrder C d seed t (d - (j + 1)) hlt
      rw [g1, show d - (d - (j + 1)) = j + 1 by omega] at key
      have l1 := impliedKey_length C t sig (d - (j + 1)) hl
      have l2 := treeKey_length C (d - (j + 1)) (seedAt C seed ((leafPath d t).take (j + 1)))
      unfold impliedKeys inOrder at key
      cases hb : t.testBit (d - (j + 1)) <;> rw [hb] at key
      · exact (List.append_inj key (by rw [l1, l2])).1
      · exact (List.append_inj' key (by rw [l1, l2])).2
    · intro h h1 h2
      by_cases e : h = d - (j + 1)
      · subst e; exact key
      · exact e2 h (by omega) h2

theorem leafPath_take (d t : Nat) : (leafPath d t).take d = leafPath d t := by
  have hlen : ∀ d, (leafPath d t).length = d := by
    intro d; induction d with
    | zero => rfl
    | succ d ih => simp [leafPath, ih]
  exact List.take_of_length_le (by rw [hlen]; omega)

theorem recompute_sound (C : SigHash) (d : Nat) (seed : Bytes) (t : Nat) (msg sig : Bytes) (ht : t < 2 ^ d)
    (hl : sig.length = compactSize d) (h : recompute C d t msg sig = .ok (treeKey C d seed)) :
    (C.verify (C.pub (seedAt C seed (leafPath d t))) msg (sig.take 64) = true ∧
      (sig.drop 64).take 32 = C.pub (seedAt C seed (leafPath d t)) ∧ ∀ h < d, impliedKeys C t sig h = childKeys C d seed t h) ∨
      ∃ h < d, Collide C.hash (impliedKeys C t sig h) (childKeys C d seed t h) := by
  obtain ⟨e1, e2⟩ := recompute_implied C d t msg sig _ ht hl h
  by_cases hc : ∃ h < d, Collide C.hash (impliedKeys C t sig h) (childKeys C d seed t h)
  · exact .inr hc
  · obtain ⟨g1, g2⟩ := implied_sound C d seed t sig (by rw [hl]; unfold compactSize; omega) d (Nat.le_refl _)
      (fun h _ h2 h3 => hc ⟨h, h2, h3⟩) e1.symm
    rw [Nat.sub_self, leafPath_take] at g1
    refine .inl ⟨?_, g1, fun h hh => g2 h (by omega) hh⟩
    rw [g1] at e2; exact e2

/-- **C63.** Let `pk` be the verification key generated from `seed`.  Every signature
object (any bytes of the right size) that verifies under `pk` for period `t < 2^d` and a
message contains, in its first 64 bytes, a valid Ed25519 signature of that message
under the key of leaf `t` of the tree, and carries the keys of the tree on the path of that
leaf — or else the signature itself supplies a hash collision: at some height the pair of keys
it carries differs from the pair in the tree and has the same hash.  The same holds for compact
signatures, with the keys they imply.  So a signature made for another period, message or tree
is not accepted. -/
theorem C63_accepted_signature_is_of_leaf (C : SigHash) (d : Nat) (seed : Bytes) (hs : seed.length = 32)
    (t : Nat) (ht : t < 2 ^ d) (msg sig : Bytes) :
    ∃ k0 pk wiped, keygen C d seed = .ok (k0, pk, wiped) ∧
      (sig.length = 64 + 64 * d → verify C d t pk msg sig = .ok true →
        (C.verify (C.pub (seedAt C seed (leafPath d t))) msg (sig.take 64) = true ∧ ∀ h < d, claimedKeys sig h = childKeys C d seed t h) ∨
        ∃ h < d, Collide C.hash (claimedKeys sig h) (childKeys C d seed t h)) ∧
      (sig.length = 64 + 32 * (d + 1) → verifyCompact C d t pk msg sig = .ok true →
        (C.verify (C.pub (seedAt C seed (leafPath d t))) msg (sig.take 64) = true ∧ ∀ h < d, impliedKeys C t sig h = childKeys C d seed t h) ∨
        ∃ h < d, Collide C.hash (impliedKeys C t sig h) (childKeys C d seed t h)) := by
  refine ⟨_, _, _, keygen_ok C d seed hs, ?_, ?_⟩
  · intro hl h
    exact verify_sound C d seed t msg sig ht (by rw [hl]; unfold sigSize; omega) h
  · intro hl h
    cases d with
    | zero =>
      left
      unfold verifyCompact at h
      injection h with h
      exact ⟨h, fun h hh => absurd hh (by omega)⟩
    | succ d =>
      unfold verifyCompact at h
      rw [Out.bind_eq_ok] at h
      obtain ⟨r, hr, hx⟩ := h
      injection hx with hx
      have hx : treeKey C (d + 1) seed = r := by simpa using hx
      rcases recompute_sound C (d + 1) seed t msg sig ht (by rw [hl]; unfold compactSize; omega) (hx ▸ hr) with ⟨g1, _, g3⟩ | g
      · exact .inl ⟨g1, g3⟩
      · exact .inr g

/-- **C63 (sizes).** Signature objects are only made from byte strings of the right size. -/
theorem C63_size_checked (d : Nat) (b s : Bytes) : sigFromBytes d b = .ok s ↔ b.length = 64 + 64 * d ∧ s = b := by
  have : 64 + 64 * d = sigSize d := by unfold sigSize; omega
  rw [this]
  unfold sigFromBytes
  by_cases h : b.length = sigSize d
  · simp [h, eq_comm]
  · simp [h]

-- the hypotheses are met by the library's own signatures (C22, C26)
example (C : SigHash) (seed msg : Bytes) (hs : seed.length = 32)
    (hz : ¬ C.zeroNonce (KesSpec.seedAt C seed [true, false, true]) msg) :
    ∃ k0 pk wiped k sig, keygen C 3 seed = .ok (k0, pk, wiped) ∧ updates C 3 5 k0 = .ok k ∧
      sign C 3 k msg = .ok sig ∧ sig.length = 64 + 64 * 3 ∧ verify C 3 5 pk msg sig = .ok true := by
  obtain ⟨k0, pk, w, k, sig, h1, h2, h3, h4, h5⟩ := C22_signatures_verify C 3 (by omega) seed hs 5 (by omega) msg hz
  exact ⟨k0, pk, w, k, sig, h1, h2, h3, by rw [h4]; rfl, h5⟩

end Cardano.Kes
