import Verif.Props.KesLife

/-! # C28, exactly: for which periods a KES signature is accepted -/

namespace Cardano.Kes
open KesSpec

/-- **C28**, exactly, for all periods.  Under the hypotheses of `C28_one_period_partial` the signature made in period `t` is accepted for period `t'`
if and only if `t' = t`, or `t` is the last period and `t'` any later number: `verify` treats every period beyond the key's life as the last one. -/
theorem C28_exact (C : SigHash) (d : Nat) (hd : d < 32) (seed : Bytes) (hs : seed.length = 32) (msg : Bytes)
    (t : Nat) (ht : t < 2 ^ d) (hz : ¬ C.zeroNonce (seedAt C seed (leafPath d t)) msg)
    (distinctSiblings : ∀ p : List Bool, p.length < d →
      treeKey C (d - (p.length + 1)) (seedAt C seed (p ++ [false])) ≠
      treeKey C (d - (p.length + 1)) (seedAt C seed (p ++ [true])))
    (noForgery : ∀ (p : List Bool) (b : Bool), p.length + 1 = d →
      C.verify (C.pub (seedAt C seed (p ++ [!b]))) msg (C.sign (seedAt C seed (p ++ [b])) msg) = false) :
    ∃ k0 pk wiped k sig, keygen C d seed = .ok (k0, pk, wiped) ∧ updates C d t k0 = .ok k ∧
      sign C d k msg = .ok sig ∧ ∀ t', verify C d t' pk msg sig = .ok true ↔ t' = t ∨ (t + 1 = 2 ^ d ∧ t < t') := by
  refine ⟨_, _, _, _, _, keygen_ok C d seed hs, updates_keyAt C d seed hd hs t ht, sign_keyAt C d seed t t msg hs, ?_⟩
  intro t'
  have hpos : 0 < 2 ^ d := Nat.pow_pos (by omega)
  have hok : verify C d t (treeKey C d seed) msg (sigAt C d seed t msg) = .ok true :=
    verify_sigAt C d seed t msg hs (by rw [leafSeed_eq C d seed _ ht]; exact hz)
  have hwr := fun u hu hne => verify_wrong C d seed msg t u ht hu hne distinctSiblings noForgery
  by_cases hb : t' < 2 ^ d
  · by_cases he : t' = t
    · subst he; exact ⟨fun _ => .inl rfl, fun _ => hok⟩
    · refine ⟨fun h => absurd h (hwr t' hb (fun e => he e.symm)), ?_⟩
      rintro (h | ⟨h1, h2⟩) <;> omega
  · rw [verify_beyond C d t' _ _ _ (by omega)]
    by_cases he : t + 1 = 2 ^ d
    · refine ⟨fun _ => .inr ⟨he, by omega⟩, fun _ => ?_⟩
      rw [show 2 ^ d - 1 = t by omega]; exact hok
    · refine ⟨fun h => absurd h (hwr _ (by omega) (by omega)), ?_⟩
      rintro (h | ⟨h1, h2⟩) <;> omega

theorem csigAt_leaf (C : SigHash) : ∀ (d : Nat) (seed : Bytes) (t : Nat) (msg : Bytes), t < 2 ^ d →
    ∃ r, csigAt C d seed t msg = C.sign (seedAt C seed (leafPath d t)) msg ++ (C.pub (seedAt C seed (leafPath d t)) ++ r) := by
  intro d
  induction d with
  | zero => intro seed t msg _; exact ⟨[], by simp [csigAt, seedAt, leafPath]⟩
  | succ d ih =>
    intro seed t msg ht
    rw [csigAt]
    by_cases h1 : t < 2 ^ d
    · obtain ⟨r, hr⟩ := ih (splitLeft C seed) t msg h1
      rw [if_pos h1, hr, leafPath_lt d t h1]
      exact ⟨_, by simp only [List.append_assoc]; rfl⟩
    · obtain ⟨r, hr⟩ := ih (splitRight C seed) (t - 2 ^ d) msg (by rw [Nat.pow_succ] at ht; omega)
      rw [if_neg h1, hr, leafPath_ge d t (by omega) ht]
      exact ⟨_, by simp only [List.append_assoc]; rfl⟩

/-- All hypotheses of `C28_exact` met by a concrete tree of depth 1 in its last period: accepted for period 1 and for every later number, not for 0. -/
example : ∃ k0 pk wiped k sig, keygen toySigHash 1 (List.replicate 32 7) = .ok (k0, pk, wiped) ∧ updates toySigHash 1 1 k0 = .ok k ∧
    sign toySigHash 1 k [1, 2] = .ok sig ∧ ∀ t', verify toySigHash 1 t' pk [1, 2] sig = .ok true ↔ t' = 1 ∨ (1 + 1 = 2 ^ 1 ∧ 1 < t') := by
  refine C28_exact toySigHash 1 (by decide) _ (by decide) [1, 2] 1 (by decide) (fun h => h) ?_ ?_
  · intro p hp
    have : p = [] := by cases p <;> simp_all
    subst this; decide +kernel
  · intro p b hp
    have : p = [] := by cases p <;> simp_all
    subst this; cases b <;> decide +kernel

/-- **C28 (compact signatures).** The compact signature made in period `t` is accepted for period `t`; if it is accepted for a period `t'`, then (with
periods beyond the key's life counted as the last one) `t' = t`, or the leaves of `t` and `t'` have the same public key, or the signature supplies
a hash collision: the key pair it implies at some height, read for period `t'`, differs from the pair in the tree and has the same hash. -/
theorem C28_compact (C : SigHash) (d : Nat) (hd : d + 1 < 32) (seed : Bytes) (hs : seed.length = 32) (msg : Bytes)
    (t : Nat) (ht : t < 2 ^ (d + 1)) (hz : ¬ C.zeroNonce (seedAt C seed (leafPath (d + 1) t)) msg) :
    ∃ k0 pk wiped k sig, keygen C (d + 1) seed = .ok (k0, pk, wiped) ∧ updates C (d + 1) t k0 = .ok k ∧
      signCompact C (d + 1) k msg = .ok sig ∧
      ∀ t', let u := min t' (2 ^ (d + 1) - 1)
        (u = t → verifyCompact C (d + 1) t' pk msg sig = .ok true) ∧
        (verifyCompact C (d + 1) t' pk msg sig = .ok true → u = t ∨
          C.pub (seedAt C seed (leafPath (d + 1) u)) = C.pub (seedAt C seed (leafPath (d + 1) t)) ∨
          ∃ h < d + 1, Collide C.hash (impliedKeys C u sig h) (childKeys C (d + 1) seed u h)) := by
  obtain ⟨k0, pk, w, k, sig, h1, h2, h3, h4, h5⟩ := C26_compact_verify_partial C d hd seed hs t ht msg hz
  refine ⟨k0, pk, w, k, sig, h1, h2, h3, ?_⟩
  intro t' u
  have hpos : 0 < 2 ^ (d + 1) := Nat.pow_pos (by omega)
  have clip : verifyCompact C (d + 1) t' pk msg sig = verifyCompact C (d + 1) u pk msg sig := by
    show (recompute C (d + 1) t' msg sig >>= fun r => pure (pk == r)) = (recompute C (d + 1) u msg sig >>= fun r => pure (pk == r))
    rw [recompute_clip C msg (d + 1) t' sig]
  refine ⟨fun e => by rw [clip, e]; exact h5, fun h => ?_⟩
  rw [clip] at h
  have hpk : pk = treeKey C (d + 1) seed := by
    have := (keygen_ok C (d + 1) seed hs).symm.trans h1
    exact (Prod.mk.inj (Prod.mk.inj (Out.ok.inj this)).2).1.symm
  have hk : k = keyAt C (d + 1) seed t := by
    have hk0 : k0 = keyAt C (d + 1) seed 0 := by
      have := (keygen_ok C (d + 1) seed hs).symm.trans h1
      exact (Prod.mk.inj (Out.ok.inj this)).1.symm
    rw [hk0, updates_keyAt C (d + 1) seed hd hs t ht] at h2
    exact (Out.ok.inj h2).symm
  have hsig : sig = csigAt C (d + 1) seed t msg := by
    have e : signCompact C (d + 1) (keyAt C (d + 1) seed t) msg = .ok (csigAt C (d + 1) seed t msg) := signCompact_ok C (d + 1) seed t msg _ hs
    rw [hk, e] at h3
    exact (Out.ok.inj h3).symm
  unfold verifyCompact at h
  rw [Out.bind_eq_ok] at h
  obtain ⟨r, hr, hx⟩ := h
  have hx : pk = r := by simpa using Out.ok.inj hx
  subst hx
  rw [hpk] at hr
  rcases recompute_sound C (d + 1) seed u msg sig (by omega) h4 hr with ⟨_, g, _⟩ | g
  · right; left
    obtain ⟨r, e⟩ := csigAt_leaf C (d + 1) seed t msg ht
    rw [hsig, e, List.drop_left' (C.sign_length _ _), List.take_left' (C.pub_length _)] at g
    exact g.symm
  · exact .inr (.inr g)

/-- The hypotheses of `C28_compact` met at depth 2 in period 2. -/
example : (2 : Nat) < 2 ^ (1 + 1) ∧ ¬ toySigHash.zeroNonce (seedAt toySigHash (List.replicate 32 7) (leafPath (1 + 1) 2)) [1, 2] :=
  ⟨by decide, fun h => h⟩

end Cardano.Kes
