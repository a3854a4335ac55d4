import Verif.Props.KesSound
import Verif.Spec.KesLife

/-! # C98: the whole life of a KES key object, `drop()` included -/

namespace Cardano.Kes
open KesSpec

/-! ### While the key is in use -/

theorem updateCalls_append (a b : List Call) : updateCalls (a ++ b) = updateCalls a + updateCalls b := by
  induction a with
  | nil => simp [updateCalls]
  | cons c cs ih => cases c <;> simp [updateCalls, ih] <;> omega

/-- The reply and the object after one call other than `drop()` in period `t`. -/
theorem answer_keyAt (C : SigHash) (d : Nat) (hd : d + 1 < 32) (seed : Bytes) (hs : seed.length = 32) (t : Nat)
    (ht : t < 2 ^ (d + 1)) (c : Call) (hc : c ≠ .drop) :
    (answer C d (keyAt C (d + 1) seed t) c).1 = keyAt C (d + 1) seed (min (t + updateCalls [c]) (2 ^ (d + 1) - 1)) ∧
      GoodReply C d t (treeKey C (d + 1) seed) (seedAt C seed (leafPath (d + 1) t)) c
        (answer C d (keyAt C (d + 1) seed t) c).2 := by
  have hm : min t (2 ^ (d + 1) - 1) = t := by omega
  cases c with
  | drop => exact absurd rfl hc
  | update =>
    simp only [answer, updateCalls, Nat.zero_add, GoodReply]
    by_cases h : t + 1 < 2 ^ (d + 1)
    · have e := update_keyAt C (d + 1) seed t t hd hs h
      rw [keyAt, e, if_pos h, show min (t + 1) (2 ^ (d + 1) - 1) = t + 1 by omega]
      exact ⟨rfl, rfl⟩
    · have e := update_last C (d + 1) hd seed hs
      have et : t = 2 ^ (d + 1) - 1 := by omega
      rw [if_neg h, show min (t + 1) (2 ^ (d + 1) - 1) = t by omega, et, e]
      exact ⟨rfl, rfl⟩
  | sign m =>
    simp only [answer, updateCalls, Nat.add_zero, hm, GoodReply, true_and]
    refine ⟨sigAt C (d + 1) seed t m, ?_, ?_, ?_⟩
    · rw [keyAt, sign_keyAt C (d + 1) seed t t m hs]; rfl
    · rw [sigAt_length]; unfold sigSize; omega
    · intro hz
      exact verify_sigAt C (d + 1) seed t m hs (by rw [leafSeed_eq C (d + 1) seed t ht]; exact hz)
  | signCompact m =>
    simp only [answer, updateCalls, Nat.add_zero, hm, GoodReply, true_and]
    refine ⟨csigAt C (d + 1) seed t m, ?_, ?_, ?_⟩
    · have e : signCompact C (d + 1) (keyAt C (d + 1) seed t) m = .ok (csigAt C (d + 1) seed t m) :=
        signCompact_ok C (d + 1) seed t m _ hs
      rw [e]; rfl
    · rw [csigAt_length]; unfold compactSize; omega
    · intro hz
      unfold verifyCompact
      simp only [recompute_csigAt C (d + 1) seed t m hs (by rw [leafSeed_eq C _ seed t ht]; exact hz), Out.ok_bind, Out.pure_eq]
      simp
  | period =>
    simp only [answer, updateCalls, Nat.add_zero, hm, GoodReply, true_and]
    rw [keyAt, period_keyAt C (d + 1) seed t t hs ht hd]
  | publicKey =>
    simp only [answer, updateCalls, Nat.add_zero, hm, GoodReply, true_and]
    obtain ⟨k0, pk, k, h1, h2, h3, h4⟩ := C23_public_key_constant C d hd seed hs t ht
    rw [keygen_ok C (d + 1) seed hs] at h1
    have h1 := Out.ok.inj h1
    have e : k0 = keyAt C (d + 1) seed 0 := (congrArg Prod.fst h1).symm
    rw [e, updates_keyAt C (d + 1) seed hd hs t ht] at h3
    have h3 := Out.ok.inj h3
    rw [h3, h4, h2]
    rfl
  | bytes =>
    simp only [answer, updateCalls, Nat.add_zero, hm, GoodReply, true_and]
    refine ⟨_, rfl, ?_⟩
    simp only [keyAt, List.length_append, layout_length C (d + 1) seed t hs, packBE4_length, keySize]
    omega

theorem after_keyAt (C : SigHash) (d : Nat) (hd : d + 1 < 32) (seed : Bytes) (hs : seed.length = 32) :
    ∀ (cs : List Call) (t : Nat), t < 2 ^ (d + 1) → NoDrop cs →
      after C d (keyAt C (d + 1) seed t) cs = keyAt C (d + 1) seed (min (t + updateCalls cs) (2 ^ (d + 1) - 1)) := by
  intro cs
  induction cs with
  | nil =>
    intro t ht _
    rw [show updateCalls [] = 0 from rfl, show min (t + 0) (2 ^ (d + 1) - 1) = t by omega]
    rfl
  | cons c cs ih =>
    intro t ht hn
    have hc : c ≠ .drop := fun h => hn (by simp [h])
    have hcs : NoDrop cs := fun h => hn (by simp [h])
    have hpos : 0 < 2 ^ (d + 1) := Nat.two_pow_pos _
    rw [after, (answer_keyAt C d hd seed hs t ht c hc).1, ih _ (by omega) hcs,
      show updateCalls (c :: cs) = updateCalls [c] + updateCalls cs from updateCalls_append [c] cs]
    congr 1
    omega

theorem replies_append (C : SigHash) (d : Nat) : ∀ (a b : List Call) (k : Key),
    replies C d k (a ++ b) = replies C d k a ++ replies C d (after C d k a) b := by
  intro a
  induction a with
  | nil => intros; rfl
  | cons c cs ih => intro b k; simp only [List.cons_append, replies, ih, after]

theorem after_append (C : SigHash) (d : Nat) : ∀ (a b : List Call) (k : Key),
    after C d k (a ++ b) = after C d (after C d k a) b := by
  intro a
  induction a with
  | nil => intros; rfl
  | cons c cs ih => intro b k; simp only [List.cons_append, after, ih]

/-- **C98 (in use).** Generate a key of depth `d + 1` and make any sequence of calls on the
object, catching every exception.  As long as `drop()` has not been called, each call gets the
reply the key's period calls for, where the period is the number of `update()` calls made so
far, at most `2^(d+1) - 1`: signatures and compact signatures verify for that period
under the public key returned at generation, `update()` fails only in the last period, and a
failed call changes nothing. -/
theorem C98_in_use (C : SigHash) (d : Nat) (hd : d + 1 < 32) (seed : Bytes) (hs : seed.length = 32) :
    ∃ k0 pk wiped, keygen C (d + 1) seed = .ok (k0, pk, wiped) ∧
      ∀ (before : List Call) (c : Call), NoDrop before →
        ∃ r, replies C d k0 (before ++ [c]) = replies C d k0 before ++ [r] ∧
          GoodReply C d (min (updateCalls before) (2 ^ (d + 1) - 1)) pk
            (seedAt C seed (leafPath (d + 1) (min (updateCalls before) (2 ^ (d + 1) - 1)))) c r := by
  refine ⟨_, _, _, keygen_ok C (d + 1) seed hs, ?_⟩
  intro cs c hn
  have hpos : 0 < 2 ^ (d + 1) := Nat.two_pow_pos _
  have ha := after_keyAt C d hd seed hs cs 0 hpos hn
  rw [Nat.zero_add] at ha
  refine ⟨_, replies_append C d cs [c] _, ?_⟩
  have ha' : after C d ⟨layout C (d + 1) seed 0 ++ Util.packBE 4 0, 0⟩ cs = _ := ha
  rw [ha']
  by_cases hc : c = .drop
  · subst hc; rfl
  · exact (answer_keyAt C d hd seed hs _ (by omega) c hc).2

/-! ### After `drop()` -/

theorem writeAt_length {b x b' : Bytes} {o : Nat} (h : writeAt b o x = .ok b') : b'.length = b.length := by
  unfold writeAt at h
  split at h
  · rename_i hle
    have := Out.ok.inj h
    subst this
    simp only [List.length_append, List.length_take, List.length_drop]
    omega
  · cases h

theorem keygenBuffer_length (C : SigHash) : ∀ (d : Nat) (b : Bytes) (s : Option Bytes) (r : Bytes × Option Bytes × Bytes),
    keygenBuffer C d b s = .ok r → r.1.length = b.length := by
  intro d
  cases d with
  | zero =>
    intro b s r h
    cases s with
    | some s =>
      simp only [keygenBuffer] at h
      split at h
      · cases h
      · rw [Out.bind_eq_ok] at h
        obtain ⟨x, hx, h⟩ := h
        have := Out.ok.inj h
        subst this
        exact writeAt_length hx
    | none =>
      simp only [keygenBuffer] at h
      split at h
      · cases h
      · rw [Out.bind_eq_ok] at h
        obtain ⟨x, hx, h⟩ := h
        rw [Out.bind_eq_ok] at h
        obtain ⟨y, hy, h⟩ := h
        have := Out.ok.inj h
        subst this
        rw [writeAt_length hy, writeAt_length hx]
  | succ d =>
    intro b s r h
    cases s with
    | some s =>
      unfold keygenBuffer at h
      simp only [Out.bind_eq_ok] at h
      obtain ⟨⟨b1, o1, r0, sd⟩, h1, b2, h2, sub, h3, ⟨sub', x, pk0⟩, h4, b3, h5, ⟨y, pk1, z⟩, h6, b4, h7, b5, h8, h⟩ := h
      have hb1 : b1.length = b.length := by
        split at h1
        · cases h1
        · split at h1
          · cases h1
          · have := Out.ok.inj h1
            rw [← (Prod.mk.inj this).1]
      have := Out.ok.inj h
      subst this
      rw [writeAt_length h8, writeAt_length h7, writeAt_length h5, writeAt_length h2, hb1]
    | none =>
      unfold keygenBuffer at h
      simp only [Out.bind_eq_ok] at h
      obtain ⟨⟨b1, o1, r0, sd⟩, h1, b2, h2, sub, h3, ⟨sub', x, pk0⟩, h4, b3, h5, ⟨y, pk1, z⟩, h6, b4, h7, b5, h8, h⟩ := h
      have hb1 : b1.length = b.length := by
        split at h1
        · cases h1
        · simp only [Out.bind_eq_ok] at h1
          obtain ⟨x, _, y, hy, h1⟩ := h1
          have := Out.ok.inj h1
          rw [← (Prod.mk.inj this).1]
          exact writeAt_length hy
      have := Out.ok.inj h
      subst this
      rw [writeAt_length h8, writeAt_length h7, writeAt_length h5, writeAt_length h2, hb1]

theorem first_ok {b x : Bytes} {n : Nat} (h : first b n = .ok x) : n ≤ b.length ∧ x = b.take n := by
  unfold first at h
  split at h
  · rename_i hle
    exact ⟨hle, (Out.ok.inj h).symm⟩
  · cases h

theorem updateBuffer_length (C : SigHash) : ∀ (d : Nat) (b : Bytes) (p : Nat),
    (updateBuffer C d b p).1.length = b.length := by
  intro d
  induction d with
  | zero => intros; rfl
  | succ d ih =>
    intro b p
    rw [updateBuffer]
    simp only
    split
    · rfl
    · split
      · split
        · rename_i sub hsub
          obtain ⟨hle, rfl⟩ := first_ok hsub
          simp only [List.length_append, ih, List.length_take, List.length_drop]
          omega
        · rfl
      · split
        · split
          · rename_i sub hsub
            obtain ⟨hle, rfl⟩ := first_ok hsub
            split
            · rename_i s' _ _ hk
              have := keygenBuffer_length C d _ _ _ hk
              simp only [List.length_append, this, List.length_take, List.length_drop]
              omega
            · rfl
            · rfl
          · rfl
        · split
          · rename_i sub hsub
            obtain ⟨hle, rfl⟩ := first_ok hsub
            simp only [List.length_append, ih, List.length_take, List.length_drop]
            omega
          · rfl

/-- An update never touches the two public keys at the end of the buffer. -/
theorem updateBuffer_keys (C : SigHash) (d : Nat) (b : Bytes) (p : Nat) :
    (updateBuffer C (d + 1) b p).1.drop (keySize d + 32) = b.drop (keySize d + 32) := by
  rw [updateBuffer]
  simp only
  have app : ∀ (x : Bytes) (n m : Nat), x.length = n → n ≤ m → (x ++ b.drop n).drop m = b.drop m := by
    intro x n m h1 h2
    rw [List.drop_append, List.drop_eq_nil_of_le (by omega), List.drop_drop, List.nil_append]
    congr 1
    omega
  split
  · rfl
  · split
    · split
      · rename_i sub hsub
        obtain ⟨hle, rfl⟩ := first_ok hsub
        exact app _ _ _ (by rw [updateBuffer_length, List.length_take]; omega) (by omega)
      · rfl
    · split
      · split
        · rename_i sub hsub
          obtain ⟨hle, rfl⟩ := first_ok hsub
          split
          · rename_i s' _ _ hk
            have := keygenBuffer_length C d _ _ _ hk
            exact app _ _ _ (by rw [this, List.length_take]; omega) (by omega)
          · rfl
          · rfl
        · rfl
      · split
        · rename_i sub hsub
          obtain ⟨hle, rfl⟩ := first_ok hsub
          exact app _ _ _ (by rw [updateBuffer_length, List.length_take]; omega) (by omega)
        · rfl

/-- The buffer has the right size and its two public keys are zero. -/
def ZeroKeys (d : Nat) (k : Key) : Prop :=
  k.prv.length = keySize (d + 1) + 4 ∧ (k.prv.drop (keySize d + 32)).take 64 = List.replicate 64 0

theorem update_zeroKeys (C : SigHash) (d : Nat) (k : Key) (h : ZeroKeys d k) : ZeroKeys d (update C (d + 1) k).1 := by
  obtain ⟨hl, hz⟩ := h
  have h1 := updateBuffer_length C (d + 1) k.prv (period (d + 1) k)
  have h2 := updateBuffer_keys C d k.prv (period (d + 1) k)
  unfold update
  generalize hu : updateBuffer C (d + 1) k.prv (period (d + 1) k) = u at h1 h2
  obtain ⟨buf, o⟩ := u
  simp only at h1 h2
  have hsz := keySize_succ d
  cases o with
  | ok x =>
    unfold ZeroKeys
    simp only [hu]
    refine ⟨?_, ?_⟩
    · simp only [List.length_append, List.length_take, packBE4_length]
      omega
    · rw [← hz, ← h2, List.drop_append_of_le_length (by rw [List.length_take]; omega), List.take_append_of_le_length (by
        rw [List.length_drop, List.length_take]; omega), List.drop_take, List.take_take]
      congr 1
      omega
  | throw e => exact ⟨by simp only [hu, h1, hl], by simp only [hu, h2, hz]⟩
  | ub => exact ⟨by simp only [hu, h1, hl], by simp only [hu, h2, hz]⟩

theorem drop_zeroKeys (d : Nat) (k : Key) (h : k.prv.length = keySize (d + 1) + 4) : ZeroKeys d (drop k) := by
  have hsz := keySize_succ d
  refine ⟨by simp [drop, h], ?_⟩
  simp only [drop, List.drop_replicate, List.take_replicate, h]
  congr 1
  omega

theorem answer_zeroKeys (C : SigHash) (d : Nat) (k : Key) (c : Call) (h : ZeroKeys d k) : ZeroKeys d (answer C d k c).1 := by
  cases c with
  | update => exact update_zeroKeys C d k h
  | drop => exact drop_zeroKeys d k h.1
  | _ => exact h

/-- Both slices of the key area are zero. -/
theorem zero_slices (d : Nat) (k : Key) (h : ZeroKeys d k) :
    slice k.prv (keySize d + 32) 32 = .ok zeros32 ∧ slice k.prv (keySize d + 32 + 32) 32 = .ok zeros32 := by
  obtain ⟨hl, hz⟩ := h
  have hsz := keySize_succ d
  have a1 : (k.prv.drop (keySize d + 32)).take 32 = zeros32 := by
    have := congrArg (List.take 32) hz
    rw [List.take_take, show min 32 64 = 32 from rfl] at this
    rw [this]
    rfl
  have a2 : (k.prv.drop (keySize d + 32 + 32)).take 32 = zeros32 := by
    have := congrArg (List.drop 32) hz
    rw [List.drop_take, List.drop_drop] at this
    rw [this]
    rfl
  unfold slice
  rw [if_pos (by omega), if_pos (by omega), a1, a2]
  exact ⟨rfl, rfl⟩

theorem sign_zeroKeys (C : SigHash) (d : Nat) (k : Key) (h : ZeroKeys d k) (m s : Bytes)
    (hsg : sign C (d + 1) k m = .ok s) : ∃ sigma, s = sigma ++ zeros32 ++ zeros32 := by
  obtain ⟨h1, h2⟩ := zero_slices d k h
  have hsz := keySize_succ d
  simp only [sign, signFromBuffer, Out.bind_eq_ok] at hsg
  obtain ⟨sub, _, sigma, _, a, ha, b, hb, e⟩ := hsg
  rw [show keySize (d + 1) - 64 = keySize d + 32 by omega] at ha hb
  rw [h1] at ha
  rw [h2] at hb
  have ha := Out.ok.inj ha
  have hb := Out.ok.inj hb
  have e := Out.ok.inj e
  exact ⟨sigma, by rw [← e, ← hb, ← ha]⟩

theorem signCompact_zeroKeys (C : SigHash) (d : Nat) (k : Key) (h : ZeroKeys d k) (m s : Bytes)
    (hsg : signCompact C (d + 1) k m = .ok s) : ∃ sigma, s = sigma ++ zeros32 := by
  obtain ⟨h1, h2⟩ := zero_slices d k h
  simp only [signCompact, signCompactFromBuffer] at hsg
  split at hsg
  · simp only [Out.bind_eq_ok] at hsg
    obtain ⟨a, ha, sub, _, sigma, _, e⟩ := hsg
    rw [h2] at ha
    have ha := Out.ok.inj ha
    have e := Out.ok.inj e
    exact ⟨sigma, by rw [← e, ← ha]⟩
  · simp only [Out.bind_eq_ok] at hsg
    obtain ⟨a, ha, sub, _, sigma, _, e⟩ := hsg
    rw [h1] at ha
    have ha := Out.ok.inj ha
    have e := Out.ok.inj e
    exact ⟨sigma, by rw [← e, ← ha]⟩

theorem verify_zeros (C : SigHash) (d : Nat) (seed : Bytes) (p : Nat) (m sigma : Bytes)
    (h : verify C (d + 1) p (treeKey C (d + 1) seed) m (sigma ++ zeros32 ++ zeros32) = .ok true) :
    Collide C.hash (List.replicate 64 0) (childKeys C (d + 1) seed p d) ∨ ZeroSubtree C d seed := by
  rw [verify] at h
  have e : (sigma ++ zeros32 ++ zeros32).length = sigma.length + 64 := by simp [zeros32]
  have e1 : ((sigma ++ zeros32 ++ zeros32).drop ((sigma ++ zeros32 ++ zeros32).length - 64)).take 32 = zeros32 := by
    rw [e, List.append_assoc, List.drop_left' (by omega)]
    rfl
  have e2 : (sigma ++ zeros32 ++ zeros32).drop ((sigma ++ zeros32 ++ zeros32).length - 32) = zeros32 := by
    rw [e, List.drop_left' (by simp [zeros32])]
  simp only [e1, e2] at h
  split at h
  · cases h
  · rename_i hne
    have hne : hashPair C zeros32 zeros32 = treeKey C (d + 1) seed := by
      by_cases hx : hashPair C zeros32 zeros32 = treeKey C (d + 1) seed
      · exact hx
      · exact absurd hx hne
    by_cases hc : zeros32 ++ zeros32 = treeKey C d (C.hash (1 :: seed)) ++ treeKey C d (C.hash (2 :: seed))
    · obtain ⟨ha, _⟩ := List.append_inj hc (by simp [zeros32, treeKey_length])
      exact .inr (.inl ha.symm)
    · refine .inl ?_
      rw [childKeys_top]
      exact ⟨hc, hne⟩

theorem recompute_clip (C : SigHash) (m : Bytes) : ∀ (d p : Nat) (sg : Bytes), recompute C d p m sg = recompute C d (min p (2 ^ d - 1)) m sg := by
  intro d
  induction d with
  | zero => intro p sg; rfl
  | succ d ih =>
    intro p sg
    have hpos : 0 < 2 ^ d := Nat.two_pow_pos _
    rw [recompute, recompute]
    by_cases h1 : p < 2 ^ d
    · rw [Nat.min_eq_left (by rw [Nat.pow_succ]; omega)]
    · rw [if_neg h1, if_neg (show ¬ min p (2 ^ (d + 1) - 1) < 2 ^ d by rw [Nat.pow_succ]; omega), ih (p - 2 ^ d), ih (min p (2 ^ (d + 1) - 1) - 2 ^ d)]
      rw [show min (min p (2 ^ (d + 1) - 1) - 2 ^ d) (2 ^ d - 1) = min (p - 2 ^ d) (2 ^ d - 1) by rw [Nat.pow_succ]; omega]

theorem slice_length {b : Bytes} {o n : Nat} {x : Bytes} (h : slice b o n = .ok x) : x.length = n := by
  unfold slice at h
  split at h
  · have := Out.ok.inj h
    rw [← this, List.length_take, List.length_drop]; omega
  · cases h

theorem signCompact_length (C : SigHash) : ∀ (d : Nat) (buf msg : Bytes) (p : Nat) (s : Bytes),
    signCompactFromBuffer C d buf msg p = .ok s → s.length = compactSize d := by
  intro d
  induction d with
  | zero =>
    intro buf msg p s h
    simp only [signCompactFromBuffer, Out.bind_eq_ok] at h
    obtain ⟨sk, _, h⟩ := h
    rw [← Out.ok.inj h]
    simp [C.sign_length, C.pub_length, compactSize]
  | succ d ih =>
    intro buf msg p s h
    simp only [signCompactFromBuffer] at h
    split at h <;>
    · simp only [Out.bind_eq_ok] at h
      obtain ⟨pk, hpk, sub, _, sigma, hsg, h⟩ := h
      rw [← Out.ok.inj h, List.length_append, ih _ _ _ _ hsg, slice_length hpk]
      unfold compactSize; omega

theorem verifyCompact_zeros (C : SigHash) (d : Nat) (seed : Bytes) (p : Nat) (m sigma : Bytes) (hl : (sigma ++ zeros32).length = compactSize (d + 1))
    (h : verifyCompact C (d + 1) p (treeKey C (d + 1) seed) m (sigma ++ zeros32) = .ok true) :
    Collide C.hash (impliedKeys C (min p (2 ^ (d + 1) - 1)) (sigma ++ zeros32) d) (childKeys C (d + 1) seed p d) ∨ ZeroSubtree C d seed := by
  rw [verifyCompact, Out.bind_eq_ok] at h
  obtain ⟨r, hr, h⟩ := h
  have h := Out.ok.inj h
  have h : treeKey C (d + 1) seed = r := by simpa using h
  subst h
  rw [recompute_clip] at hr
  have hpos : 0 < 2 ^ (d + 1) := Nat.two_pow_pos _
  obtain ⟨e1, -⟩ := recompute_implied C (d + 1) _ m _ _ (by omega) hl hr
  have hs : sigma.length = compactSize d := by
    rw [List.length_append] at hl
    unfold compactSize at hl ⊢
    rw [show zeros32.length = 32 from rfl] at hl
    omega
  have hsib := claimedSibling_top d sigma zeros32 hs rfl
  have hkl := impliedKey_length C (min p (2 ^ (d + 1) - 1)) (sigma ++ zeros32) d (by rw [hl]; unfold compactSize; omega)
  rw [childKeys_top]
  by_cases hc : impliedKeys C (min p (2 ^ (d + 1) - 1)) (sigma ++ zeros32) d = treeKey C d (splitLeft C seed) ++ treeKey C d (splitRight C seed)
  · right
    unfold impliedKeys inOrder at hc
    rw [hsib] at hc
    split at hc
    · obtain ⟨ha, _⟩ := List.append_inj hc (by simp [zeros32, treeKey_length])
      exact .inl ha.symm
    · obtain ⟨_, hb⟩ := List.append_inj hc (by rw [hkl, treeKey_length])
      exact .inr hb.symm
  · exact .inl ⟨hc, e1.symm⟩

/-- Everything answered by an object with zero public keys is worthless under a real key. -/
theorem replies_worthless (C : SigHash) (d : Nat) (seed : Bytes) : ∀ (post : List Call) (k : Key), ZeroKeys d k →
    (∀ m s, (Call.sign m, Out.ok (Reply.signature s)) ∈ post.zip (replies C d k post) →
      ∀ p, verify C (d + 1) p (treeKey C (d + 1) seed) m s = .ok true →
        Collide C.hash (List.replicate 64 0) (childKeys C (d + 1) seed p d) ∨ ZeroSubtree C d seed) ∧
    (∀ m s, (Call.signCompact m, Out.ok (Reply.signature s)) ∈ post.zip (replies C d k post) →
      ∀ p, verifyCompact C (d + 1) p (treeKey C (d + 1) seed) m s = .ok true →
        Collide C.hash (impliedKeys C (min p (2 ^ (d + 1) - 1)) s d) (childKeys C (d + 1) seed p d) ∨ ZeroSubtree C d seed) := by
  intro post
  induction post with
  | nil => intro k _; simp
  | cons c cs ih =>
    intro k hk
    obtain ⟨i1, i2⟩ := ih _ (answer_zeroKeys C d k c hk)
    constructor
    · intro m s hmem p hv
      rw [replies, List.zip_cons_cons, List.mem_cons] at hmem
      rcases hmem with he | hmem
      · obtain ⟨rfl, hr⟩ := Prod.mk.inj he
        have hr : asReply Reply.signature (sign C (d + 1) k m) = .ok (.signature s) := hr.symm
        cases hsg : sign C (d + 1) k m with
        | ok s' =>
          rw [hsg] at hr
          have : s' = s := Reply.signature.inj (Out.ok.inj hr)
          subst this
          obtain ⟨sigma, rfl⟩ := sign_zeroKeys C d k hk m s' hsg
          exact verify_zeros C d seed p m sigma hv
        | throw e => rw [hsg] at hr; cases hr
        | ub => rw [hsg] at hr; cases hr
      · exact i1 m s hmem p hv
    · intro m s hmem p hv
      rw [replies, List.zip_cons_cons, List.mem_cons] at hmem
      rcases hmem with he | hmem
      · obtain ⟨rfl, hr⟩ := Prod.mk.inj he
        have hr : asReply Reply.signature (signCompact C (d + 1) k m) = .ok (.signature s) := hr.symm
        cases hsg : signCompact C (d + 1) k m with
        | ok s' =>
          rw [hsg] at hr
          have : s' = s := Reply.signature.inj (Out.ok.inj hr)
          subst this
          obtain ⟨sigma, rfl⟩ := signCompact_zeroKeys C d k hk m s' hsg
          exact verifyCompact_zeros C d seed p m sigma (signCompact_length C _ _ _ _ _ hsg) hv
        | throw e => rw [hsg] at hr; cases hr
        | ub => rw [hsg] at hr; cases hr
      · exact i2 m s hmem p hv

/-- **C98 (after drop).** Generate a key, use it in any way, call `drop()`: the object's bytes
are all zero, and nothing later depends on what the key was — any sequence of calls gets the
same replies as on any other key of that depth dropped in the same period.  No signature or
compact signature made after the drop, in whatever later state of the object, verifies under the
public key for any period, unless a subtree's public key is the all-zero string or the signature
supplies a hash collision: 64 zero bytes (the key pair the top of a signature claims), or the key
pair a compact signature implies, differ from the pair in the tree and have the same hash. -/
theorem C98_after_drop (C : SigHash) (d : Nat) (hd : d + 1 < 32) (seed : Bytes) (hs : seed.length = 32) :
    ∃ k0 pk wiped, keygen C (d + 1) seed = .ok (k0, pk, wiped) ∧
      ∀ (before later : List Call), NoDrop before →
        (after C d k0 (before ++ [.drop])).prv = List.replicate (32 + 96 * (d + 1) + 4) 0 ∧
        (∀ seed' k0' pk' wiped' before', seed'.length = 32 → keygen C (d + 1) seed' = .ok (k0', pk', wiped') →
          NoDrop before' →
          min (updateCalls before) (2 ^ (d + 1) - 1) = min (updateCalls before') (2 ^ (d + 1) - 1) →
          replies C d (after C d k0 (before ++ [.drop])) later = replies C d (after C d k0' (before' ++ [.drop])) later) ∧
        (∀ m s, (Call.sign m, Out.ok (Reply.signature s)) ∈ later.zip (replies C d (after C d k0 (before ++ [.drop])) later) →
          ∀ p, verify C (d + 1) p pk m s = .ok true →
            Collide C.hash (List.replicate 64 0) (childKeys C (d + 1) seed p d) ∨ ZeroSubtree C d seed) ∧
        (∀ m s, (Call.signCompact m, Out.ok (Reply.signature s)) ∈ later.zip (replies C d (after C d k0 (before ++ [.drop])) later) →
          ∀ p, verifyCompact C (d + 1) p pk m s = .ok true →
            Collide C.hash (impliedKeys C (min p (2 ^ (d + 1) - 1)) s d) (childKeys C (d + 1) seed p d) ∨ ZeroSubtree C d seed) := by
  refine ⟨_, _, _, keygen_ok C (d + 1) seed hs, ?_⟩
  intro pre post hn
  have hpos : 0 < 2 ^ (d + 1) := Nat.two_pow_pos _
  have dead : ∀ (sd : Bytes), sd.length = 32 → ∀ cs, NoDrop cs →
      after C d (keyAt C (d + 1) sd 0) (cs ++ [.drop]) =
        ⟨List.replicate (32 + 96 * (d + 1) + 4) 0, min (updateCalls cs) (2 ^ (d + 1) - 1)⟩ := by
    intro sd hsd cs hcs
    rw [after_append, after_keyAt C d hd sd hsd cs 0 hpos hcs, Nat.zero_add]
    simp only [after, answer, drop, keyAt, List.length_append, layout_length C (d + 1) sd _ hsd, packBE4_length, keySize]
    rw [show 32 + (d + 1) * 96 + 4 = 32 + 96 * (d + 1) + 4 by omega]
  have d1 := dead seed hs pre hn
  have hz : ZeroKeys d (after C d (keyAt C (d + 1) seed 0) (pre ++ [.drop])) := by
    have hsz := keySize_succ d
    have hk : keySize (d + 1) = 32 + (d + 1) * 96 := rfl
    rw [d1]
    refine ⟨by simp only [List.length_replicate]; omega, ?_⟩
    simp only [List.drop_replicate, List.take_replicate]
    congr 1
    omega
  refine ⟨?_, ?_, (replies_worthless C d seed post _ hz).1, (replies_worthless C d seed post _ hz).2⟩
  · have := congrArg Key.prv d1
    exact this
  · intro seed' k0' pk' w' pre' hs' hg hn' hp
    rw [keygen_ok C (d + 1) seed' hs'] at hg
    have hg := (Prod.mk.inj (Out.ok.inj hg)).1
    have hg : keyAt C (d + 1) seed' 0 = k0' := hg
    rw [← hg, dead seed' hs' pre' hn']
    have d1' : after C d ⟨layout C (d + 1) seed 0 ++ Util.packBE 4 0, 0⟩ (pre ++ [.drop]) = _ := d1
    rw [d1', hp]

/-- The hypotheses can be met: a key of depth 2 is updated, signs, fails to be updated a fourth
time, is dropped and signs again. -/
example :
    ∃ k0 pk wiped s1 s2, keygen toySigHash 2 (List.replicate 32 7) = .ok (k0, pk, wiped) ∧
      NoDrop [.update, .sign [1], .update, .update, .update] ∧
      replies toySigHash 1 k0 [.update, .sign [1], .update, .update, .update, .period, .drop, .sign [1]] =
        [.ok .done, .ok (.signature s1), .ok .done, .ok .done, .throw .runtimeError, .ok (.number 3), .ok .done,
         .ok (.signature s2)] ∧
      verify toySigHash 2 1 pk [1] s1 = .ok true ∧ verify toySigHash 2 1 pk [1] s2 = .throw .invalidArgument := by
  refine ⟨_, _, _, sigAt toySigHash 2 (List.replicate 32 7) 1 [1],
    List.replicate 32 0 ++ [1] ++ List.replicate 159 0,
    keygen_ok toySigHash 2 (List.replicate 32 7) (by decide), by simp [NoDrop], ?_, ?_, ?_⟩
  · decide +kernel
  · decide +kernel
  · decide +kernel

end Cardano.Kes
