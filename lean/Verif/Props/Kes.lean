import Verif.Lemmas.Kes

/-! # C22–C28: key-evolving signatures

All theorems hold for every implementation `C` of the hash/signature interface, every
depth below 32 (the library allows 0…7) and every 32-byte seed. -/

namespace Cardano.Kes
open KesSpec

theorem leafPath_mod (d e t : Nat) (h : d ≤ e) : leafPath d (t % 2 ^ e) = leafPath d t := by
  induction d with
  | zero => rfl
  | succ d ih =>
    rw [leafPath, leafPath, ih (by omega), Nat.testBit_mod_two_pow]
    simp; omega

theorem leafPath_low {d t : Nat} (h : t < 2 ^ d) : leafPath (d + 1) t = false :: leafPath d t := by
  rw [leafPath, Nat.testBit_lt_two_pow h]

theorem leafPath_high {d t : Nat} (h : 2 ^ d ≤ t) (h2 : t < 2 ^ (d + 1)) : leafPath (d + 1) t = true :: leafPath d (t - 2 ^ d) := by
  have hp : 2 ^ (d + 1) = 2 ^ d + 2 ^ d := by rw [Nat.pow_succ]; omega
  have e : t - 2 ^ d = t % 2 ^ d := by
    rw [Nat.mod_eq_sub_mod h, Nat.mod_eq_of_lt (by omega)]
  rw [leafPath, e, leafPath_mod d d t (Nat.le_refl _)]
  congr 1
  obtain ⟨r, rfl⟩ : ∃ r, t = 2 ^ d + r := ⟨t - 2 ^ d, by omega⟩
  rw [Nat.testBit_two_pow_add_eq, Nat.testBit_lt_two_pow (by omega)]; rfl

theorem leafSeed_eq (C : SigHash) : ∀ (d : Nat) (seed : Bytes) (t : Nat), t < 2 ^ d →
    leafSeed C d seed t = seedAt C seed (leafPath d t) := by
  intro d
  induction d with
  | zero => intro seed t _; rfl
  | succ d ih =>
    intro seed t ht
    have hp : 2 ^ (d + 1) = 2 ^ d + 2 ^ d := by rw [Nat.pow_succ]; omega
    rw [leafSeed]
    by_cases h : t < 2 ^ d
    · rw [if_pos h, leafPath_low h, ih _ _ h]; rfl
    · rw [if_neg h, leafPath_high (by omega) ht, ih _ _ (by omega)]; rfl

/-- **C22.** Generate a key from any seed, update it `t < 2^d` times: all these calls
succeed, and a signature on any message then verifies for period `t` under the public
key returned at generation (provided the Ed25519 signature of the leaf does not have nonce
zero, see `Ed25519.sigHash`). -/
theorem C22_signatures_verify (C : SigHash) (d : Nat) (hd : d < 32) (seed : Bytes) (hs : seed.length = 32)
    (t : Nat) (ht : t < 2 ^ d) (msg : Bytes) (hz : ¬ C.zeroNonce (seedAt C seed (leafPath d t)) msg) :
    ∃ k0 pk wiped k sig, keygen C d seed = .ok (k0, pk, wiped) ∧ updates C d t k0 = .ok k ∧
      sign C d k msg = .ok sig ∧ sig.length = sigSize d ∧ verify C d t pk msg sig = .ok true := by
  refine ⟨_, _, _, _, _, keygen_ok C d seed hs, updates_keyAt C d seed hd hs t ht,
    sign_keyAt C d seed t t msg hs, sigAt_length C d seed t msg,
    verify_sigAt C d seed t msg hs (by rw [leafSeed_eq C d seed t ht]; exact hz)⟩

/-- **C23.** The public key computed from the signing key after any number of updates is
the one returned at generation (the accessor exists for depth ≥ 1), and it is the root
key of the tree; the caller's seed array is wiped. -/
theorem C23_public_key_constant (C : SigHash) (d : Nat) (hd : d + 1 < 32) (seed : Bytes) (hs : seed.length = 32)
    (t : Nat) (ht : t < 2 ^ (d + 1)) :
    ∃ k0 pk k, keygen C (d + 1) seed = .ok (k0, pk, List.replicate 32 0) ∧ pk = treeKey C (d + 1) seed ∧
      updates C (d + 1) t k0 = .ok k ∧ publicKey C d k = .ok pk := by
  refine ⟨_, _, _, keygen_ok C (d + 1) seed hs, rfl, updates_keyAt C (d + 1) seed hd hs t ht, ?_⟩
  unfold publicKey keyAt
  have ho : keySize (d + 1) - 64 = keySize d + 32 := by rw [keySize_succ]; omega
  have hpre : ∃ a : Bytes, layout C (d + 1) seed t = a ++ (treeKey C d (splitLeft C seed) ++ treeKey C d (splitRight C seed)) ∧
      a.length = keySize d + 32 := by
    rw [layout_next]
    refine ⟨_, rfl, ?_⟩
    split
    · simp [layout_length C d _ t (splitLeft_length C seed), splitRight_length]
    · simp [layout_length C d _ (t - 2 ^ d) (splitRight_length C seed), zeros32]
  obtain ⟨a, ha, hl⟩ := hpre
  simp only [ho, ha]
  have e2 := slice_mid (a := a) (b := treeKey C d (splitLeft C seed))
    (c := treeKey C d (splitRight C seed) ++ Util.packBE 4 t) (keySize d + 32) 32 hl.symm (treeKey_length C _ _).symm
  have e3 := slice_mid (a := a ++ treeKey C d (splitLeft C seed)) (b := treeKey C d (splitRight C seed))
    (c := Util.packBE 4 t) (keySize d + 32 + 32) 32 (by simp [hl, treeKey_length]) (treeKey_length C _ _).symm
  simp only [List.append_assoc] at e2 e3 ⊢
  simp only [e2, e3, Out.ok_bind, Out.pure_eq]
  rfl

theorem update_last (C : SigHash) (d : Nat) (hd : d < 32) (seed : Bytes) (hs : seed.length = 32) :
    update C d (keyAt C d seed (2 ^ d - 1)) = (keyAt C d seed (2 ^ d - 1), .throw .runtimeError) := by
  have hpos : 0 < 2 ^ d := Nat.pow_pos (by omega)
  have h32 : 2 ^ d < 2 ^ 32 := Nat.pow_lt_pow_right (by omega) hd
  cases d with
  | zero => rfl
  | succ d =>
    unfold update
    simp only [keyAt]
    rw [period_keyAt C (d + 1) seed _ _ hs (by omega) hd,
      updateBuffer_last C (d + 1) _ _ hd (by simp [layout_length C (d + 1) seed _ hs]) (by omega) (by omega)]

/-- **C24.** Exactly `2^d - 1` updates succeed; after `t` of them `period()` is `t`; any
further update throws and leaves the whole key object unchanged. -/
theorem C24_exact_lifetime (C : SigHash) (d : Nat) (hd : d < 32) (seed : Bytes) (hs : seed.length = 32) :
    ∃ k0 pk wiped, keygen C d seed = .ok (k0, pk, wiped) ∧
      (∀ t < 2 ^ d, ∃ k, updates C d t k0 = .ok k ∧ period d k = t) ∧
      (∀ k, updates C d (2 ^ d - 1) k0 = .ok k → update C d k = (k, .throw .runtimeError)) ∧
      (∀ t ≥ 2 ^ d, updates C d t k0 = .throw .runtimeError) := by
  have hpos : 0 < 2 ^ d := Nat.pow_pos (by omega)
  refine ⟨_, _, _, keygen_ok C d seed hs, ?_, ?_, ?_⟩
  · intro t ht
    exact ⟨_, updates_keyAt C d seed hd hs t ht, period_keyAt C d seed t t hs ht hd⟩
  · intro k hk
    have := updates_keyAt C d seed hd hs (2 ^ d - 1) (by omega)
    have hk : updates C d (2 ^ d - 1) (keyAt C d seed 0) = .ok k := hk
    rw [this] at hk
    injection hk with hk
    subst hk
    exact update_last C d hd seed hs
  · intro t ht
    have main : ∀ n, updates C d (2 ^ d + n) (keyAt C d seed 0) = .throw .runtimeError := by
      intro n
      induction n with
      | zero =>
        have e : 2 ^ d + 0 = (2 ^ d - 1) + 1 := by omega
        rw [e, updates, updates_keyAt C d seed hd hs (2 ^ d - 1) (by omega)]
        simp only [Out.ok_bind, update_last C d hd seed hs]
      | succ n ih =>
        have e : 2 ^ d + (n + 1) = (2 ^ d + n) + 1 := by omega
        rw [e, updates, ih]; rfl
    have := main (t - 2 ^ d)
    rw [show 2 ^ d + (t - 2 ^ d) = t by omega] at this
    exact this

/-! ### C25: forward security -/

/-- the cells of the subtree at `pre`, in period `t` of that subtree -/
def cells : (d : Nat) → (pre : List Bool) → (t : Nat) → List Cell
  | 0, pre, _ => [.seed pre]
  | d + 1, pre, t =>
    if t < 2 ^ d then cells d (pre ++ [false]) t ++ [.seed (pre ++ [true]), .key (pre ++ [false]), .key (pre ++ [true])]
    else cells d (pre ++ [true]) (t - 2 ^ d) ++ [.zero, .key (pre ++ [false]), .key (pre ++ [true])]

theorem seedAt_append (C : SigHash) : ∀ (p q : List Bool) (root : Bytes), seedAt C root (p ++ q) = seedAt C (seedAt C root p) q := by
  intro p
  induction p with
  | nil => intro q root; rfl
  | cons b p ih => intro q root; cases b <;> simp [seedAt, ih]

theorem cells_layout (C : SigHash) (D : Nat) (root : Bytes) : ∀ (d : Nat) (pre : List Bool) (t : Nat), D = d + pre.length →
    ((cells d pre t).map (Cell.bytes C D root)).flatten = layout C d (seedAt C root pre) t := by
  intro d
  induction d with
  | zero => intro pre t h; simp [cells, Cell.bytes, layout]
  | succ d ih =>
    intro pre t h
    have hl : seedAt C root (pre ++ [false]) = splitLeft C (seedAt C root pre) := by
      rw [seedAt_append]; rfl
    have hr : seedAt C root (pre ++ [true]) = splitRight C (seedAt C root pre) := by
      rw [seedAt_append]; rfl
    have hk : D - (pre.length + 1) = d := by omega
    unfold cells
    rw [layout]
    by_cases h1 : t < 2 ^ d
    · rw [if_pos h1, if_pos h1]
      have := ih (pre ++ [false]) t (by simp; omega)
      simp [this, Cell.bytes, hl, hr, hk]
    · rw [if_neg h1, if_neg h1]
      have := ih (pre ++ [true]) (t - 2 ^ d) (by simp; omega)
      simp [this, Cell.bytes, hl, hr, hk, zeros32]

theorem cells_past : ∀ (d : Nat) (pre : List Bool) (t : Nat), t < 2 ^ d →
    (∀ p, Cell.seed p ∈ cells d pre t → pre <+: p) ∧
    ∀ p, Cell.seed p ∈ cells d pre t → ∀ t' < t, ¬ (p <+: pre ++ leafPath d t') := by
  intro d
  induction d with
  | zero => intro pre t h; simp at h; subst h; simp [cells]
  | succ d ih =>
    intro pre t h
    have hp : 2 ^ (d + 1) = 2 ^ d + 2 ^ d := by rw [Nat.pow_succ]; omega
    unfold cells
    by_cases h1 : t < 2 ^ d
    · rw [if_pos h1]
      obtain ⟨i1, i2⟩ := ih (pre ++ [false]) t h1
      constructor
      · intro p hm
        simp only [List.mem_append, List.mem_cons, Cell.seed.injEq, reduceCtorEq, List.not_mem_nil, or_false, false_or] at hm
        rcases hm with hm | rfl
        · exact (List.prefix_append _ _).trans (i1 p hm)
        · exact List.prefix_append _ _
      · intro p hm t' ht'
        simp only [List.mem_append, List.mem_cons, Cell.seed.injEq, reduceCtorEq, List.not_mem_nil, or_false, false_or] at hm
        rw [leafPath_low (by omega)]
        rcases hm with hm | rfl
        · have := i2 p hm t' ht'
          simpa using this
        · intro hc
          rw [List.prefix_append_right_inj] at hc
          simp at hc
    · rw [if_neg h1]
      obtain ⟨i1, i2⟩ := ih (pre ++ [true]) (t - 2 ^ d) (by omega)
      constructor
      · intro p hm
        simp only [List.mem_append, List.mem_cons, reduceCtorEq, List.not_mem_nil, or_false] at hm
        exact (List.prefix_append _ _).trans (i1 p hm)
      · intro p hm t' ht'
        simp only [List.mem_append, List.mem_cons, reduceCtorEq, List.not_mem_nil, or_false] at hm
        by_cases h2 : t' < 2 ^ d
        · rw [leafPath_low h2]
          intro hc
          have := (i1 p hm).trans hc
          rw [List.prefix_append_right_inj] at this
          simp at this
        · rw [leafPath_high (by omega) (by omega)]
          have := i2 p hm (t' - 2 ^ d) (by omega)
          simpa using this

/-- **C25.** After `t` updates the key buffer (followed by the 4 period bytes) consists of
32-byte cells, each of which is zero, a public key of the tree, or the seed of a tree
node that is neither the leaf of a period before `t` nor an ancestor of such a leaf.
(The seed of a node gives exactly the seeds below it.) -/
theorem C25_forward_secure (C : SigHash) (d : Nat) (hd : d < 32) (seed : Bytes) (hs : seed.length = 32)
    (t : Nat) (ht : t < 2 ^ d) :
    ∃ k0 pk wiped k, keygen C d seed = .ok (k0, pk, wiped) ∧ updates C d t k0 = .ok k ∧
      ∃ (cs : List Cell) (periodBytes : Bytes), periodBytes.length = 4 ∧ beNat periodBytes = t ∧
        k.prv = (cs.map (Cell.bytes C d seed)).flatten ++ periodBytes ∧
        ∀ p, Cell.seed p ∈ cs → ∀ t' < t, ¬ (p <+: leafPath d t') := by
  refine ⟨_, _, _, _, keygen_ok C d seed hs, updates_keyAt C d seed hd hs t ht, cells d [] t, Util.packBE 4 t,
    packBE4_length t, ?_, ?_, ?_⟩
  · rw [Util.beNat_packBE]
    have h32 : 2 ^ d < 2 ^ 32 := Nat.pow_lt_pow_right (by omega) hd
    exact Nat.mod_eq_of_lt (by
      have : (256 : Nat) ^ 4 = 2 ^ 32 := by decide
      omega)
  · rw [cells_layout C d seed d [] t (by simp)]; rfl
  · have := (cells_past d [] t ht).2
    simpa using this

/-! ### C26: compact signatures -/

/-- **C26 (depth ≥ 1).** The compact signature made after `t` updates verifies for period `t`
under the generation-time public key. -/
theorem C26_compact_verify_partial (C : SigHash) (d : Nat) (hd : d + 1 < 32) (seed : Bytes) (hs : seed.length = 32)
    (t : Nat) (ht : t < 2 ^ (d + 1)) (msg : Bytes) (hz : ¬ C.zeroNonce (seedAt C seed (leafPath (d + 1) t)) msg) :
    ∃ k0 pk wiped k sig, keygen C (d + 1) seed = .ok (k0, pk, wiped) ∧ updates C (d + 1) t k0 = .ok k ∧
      signCompact C (d + 1) k msg = .ok sig ∧ sig.length = compactSize (d + 1) ∧
      verifyCompact C (d + 1) t pk msg sig = .ok true := by
  refine ⟨_, _, _, _, _, keygen_ok C (d + 1) seed hs, updates_keyAt C (d + 1) seed hd hs t ht,
    signCompact_ok C (d + 1) seed t msg _ hs, csigAt_length C _ _ _ _, ?_⟩
  unfold verifyCompact
  simp only [recompute_csigAt C (d + 1) seed t msg hs (by rw [leafSeed_eq C _ seed t ht]; exact hz), Out.ok_bind, Out.pure_eq]
  simp

/-- **C26 fails at depth 0**: every call of `signCompact` on a depth-0 key writes outside its
64-byte array. -/
theorem C26_depth0_undefined (C : SigHash) (seed : Bytes) (hs : seed.length = 32) (msg : Bytes) :
    ∃ k pk wiped, keygen C 0 seed = .ok (k, pk, wiped) ∧ signCompact C 0 k msg = .ub := by
  refine ⟨_, _, _, keygen_ok C 0 seed hs, ?_⟩
  unfold signCompact
  simp only [layout]
  rw [first_append _ hs.symm]
  have : writeAt (List.replicate (sigSize 0) 0) 64 (C.pub seed) = .ub := by
    unfold writeAt
    rw [if_neg (by simp [C.pub_length, sigSize])]
  simp [this]

/-! ### C27: restored keys -/

/-- **C27 (what holds).** Rebuilding a key from the bytes of a key that was generated and
updated any number of times succeeds, and the restored key has the same bytes, period,
public key and ordinary signatures; updating it gives the very same key object (so after
one update compact signatures agree as well). -/
theorem C27_restored_partial (C : SigHash) (d : Nat) (hd : d < 32) (seed : Bytes) (hs : seed.length = 32)
    (t : Nat) (ht : t < 2 ^ d) :
    ∃ k0 pk wiped k k', keygen C d seed = .ok (k0, pk, wiped) ∧ updates C d t k0 = .ok k ∧
      fromBytes d k.prv = .ok k' ∧ k'.prv = k.prv ∧ period d k' = t ∧
      (∀ msg, sign C d k' msg = sign C d k msg) ∧
      (∀ e, d = e + 1 → publicKey C e k' = .ok pk) ∧
      (t + 1 < 2 ^ d → update C d k' = update C d k ∧ (update C d k).2 = .ok ()) := by
  have hfb : fromBytes d (keyAt C d seed t).prv = .ok ⟨(keyAt C d seed t).prv, 0⟩ :=
    fromBytes_full d _ _ (layout_length C d seed t hs) (packBE4_length t)
  refine ⟨_, _, _, _, _, keygen_ok C d seed hs, updates_keyAt C d seed hd hs t ht, hfb, rfl,
    period_keyAt C d seed t 0 hs ht hd, ?_, ?_, ?_⟩
  · intro msg
    rw [keyAt, sign_keyAt C d seed t 0 msg hs, sign_keyAt C d seed t t msg hs]
  · rintro e rfl
    obtain ⟨k0, pk, k, h1, h2, h3, h4⟩ := C23_public_key_constant C e hd seed hs t ht
    rw [keygen_ok C (e + 1) seed hs] at h1
    simp only [Out.ok.injEq, Prod.mk.injEq] at h1
    obtain ⟨rfl, rfl, _⟩ := h1
    have h5 := updates_keyAt C (e + 1) seed hd hs t ht
    have h3 : updates C (e + 1) t (keyAt C (e + 1) seed 0) = .ok k := h3
    rw [h5] at h3
    injection h3 with h3
    subst h3
    exact h4
  · intro h
    rw [keyAt, update_keyAt C d seed t 0 hd hs h, update_keyAt C d seed t t hd hs h]
    exact ⟨rfl, rfl⟩

/-- **C27 is false of the code for compact signatures.**  A key updated once, stored and
rebuilt from its bytes produces a compact signature that its own public key rejects,
while the original key's compact signature is accepted. -/
theorem C27_restored_compact_broken :
    ∃ (C : SigHash) (seed msg : Bytes) (k0 k k' : Key) (pk wiped sig sig' : Bytes), seed.length = 32 ∧
      keygen C 1 seed = .ok (k0, pk, wiped) ∧ updates C 1 1 k0 = .ok k ∧ fromBytes 1 k.prv = .ok k' ∧
      signCompact C 1 k msg = .ok sig ∧ verifyCompact C 1 1 pk msg sig = .ok true ∧
      signCompact C 1 k' msg = .ok sig' ∧ verifyCompact C 1 1 pk msg sig' = .ok false := by
  let C := toySigHash
  let seed : Bytes := List.replicate 32 7
  have h0 := keygen_ok C 1 seed (by decide)
  have h1 := updates_keyAt C 1 seed (by decide) (by decide) 1 (by decide)
  have h2 : fromBytes 1 (keyAt C 1 seed 1).prv = .ok ⟨(keyAt C 1 seed 1).prv, 0⟩ :=
    fromBytes_full 1 _ _ (layout_length C 1 seed 1 (by decide)) (packBE4_length 1)
  have h3 : signCompact C 1 (keyAt C 1 seed 1) [] = .ok (csigAt C 1 seed 1 []) := signCompact_ok C 1 seed 1 [] _ (by decide)
  refine ⟨C, seed, [], _, _, _, _, _, csigAt C 1 seed 1 [],
    csigAt C 0 (splitRight C seed) 0 [] ++ treeKey C 0 (splitRight C seed), by decide, h0, h1, h2, h3, ?_, ?_, ?_⟩
  · decide +kernel
  · decide +kernel
  · decide +kernel

/-! ### C28: one period only -/

theorem verify_wrong : ∀ (C : SigHash) (d : Nat) (seed : Bytes) (msg : Bytes) (t t' : Nat), t < 2 ^ d → t' < 2 ^ d → t ≠ t' →
    (∀ p : List Bool, p.length < d → treeKey C (d - (p.length + 1)) (seedAt C seed (p ++ [false])) ≠
      treeKey C (d - (p.length + 1)) (seedAt C seed (p ++ [true]))) →
    (∀ (p : List Bool) (b : Bool), p.length + 1 = d →
      C.verify (C.pub (seedAt C seed (p ++ [!b]))) msg (C.sign (seedAt C seed (p ++ [b])) msg) = false) →
    verify C d t' (treeKey C d seed) msg (sigAt C d seed t msg) ≠ .ok true := by
  intro C d
  induction d with
  | zero => intro seed msg t t' h h' hne; simp at h h'; omega
  | succ d ih =>
    intro seed msg t t' ht ht' hne hk hf
    have hp : 2 ^ (d + 1) = 2 ^ d + 2 ^ d := by rw [Nat.pow_succ]; omega
    rw [sigAt, verify_step C d t' _ msg _ _ _ (by split <;> exact sigAt_length C _ _ _ _) (treeKey_length C _ _) (treeKey_length C _ _)]
    rw [if_neg (by simp [hashPair, treeKey, splitLeft, splitRight])]
    have kl : ∀ p : List Bool, p.length < d → treeKey C (d - (p.length + 1)) (seedAt C (splitLeft C seed) (p ++ [false])) ≠
        treeKey C (d - (p.length + 1)) (seedAt C (splitLeft C seed) (p ++ [true])) := by
      intro p hpl
      have := hk (false :: p) (by simp; omega)
      simpa [seedAt, splitLeft, Nat.add_sub_add_right] using this
    have kr : ∀ p : List Bool, p.length < d → treeKey C (d - (p.length + 1)) (seedAt C (splitRight C seed) (p ++ [false])) ≠
        treeKey C (d - (p.length + 1)) (seedAt C (splitRight C seed) (p ++ [true])) := by
      intro p hpl
      have := hk (true :: p) (by simp; omega)
      simpa [seedAt, splitRight, Nat.add_sub_add_right] using this
    have fl : ∀ (p : List Bool) (b : Bool), p.length + 1 = d →
        C.verify (C.pub (seedAt C (splitLeft C seed) (p ++ [!b]))) msg (C.sign (seedAt C (splitLeft C seed) (p ++ [b])) msg) = false := by
      intro p b hpl
      exact hf (false :: p) b (by simp; omega)
    have fr : ∀ (p : List Bool) (b : Bool), p.length + 1 = d →
        C.verify (C.pub (seedAt C (splitRight C seed) (p ++ [!b]))) msg (C.sign (seedAt C (splitRight C seed) (p ++ [b])) msg) = false := by
      intro p b hpl
      exact hf (true :: p) b (by simp; omega)
    have hroot := hk [] (by simp)
    simp only [List.nil_append, List.length_nil, Nat.zero_add, Nat.add_sub_cancel] at hroot
    -- a signature of one child is not accepted under the key of the other child
    have cross : ∀ (s s' : Bytes) (u u' : Nat), treeKey C d s ≠ treeKey C d s' →
        (d = 0 → C.verify (C.pub s') msg (C.sign s msg) = false) →
        verify C d u' (treeKey C d s') msg (sigAt C d s u msg) ≠ .ok true := by
      intro s s' u u' hne' h0
      cases d with
      | zero => simp [verify, treeKey, sigAt, h0 rfl]
      | succ d =>
        rw [sigAt, verify_step C d u' _ msg _ _ _ (by split <;> exact sigAt_length C _ _ _ _) (treeKey_length C _ _) (treeKey_length C _ _)]
        rw [if_pos]
        · simp
        · exact hne'
    by_cases h1 : t < 2 ^ d
    · rw [if_pos h1]
      by_cases h2 : t' < 2 ^ d
      · rw [if_pos h2]; exact ih _ msg t t' h1 h2 hne kl fl
      · rw [if_neg h2]
        refine cross _ _ t _ hroot ?_
        intro h0
        exact hf [] false (by simp [h0])
    · rw [if_neg h1]
      by_cases h2 : t' < 2 ^ d
      · rw [if_pos h2]
        refine cross _ _ _ t' (Ne.symm hroot) ?_
        intro h0
        exact hf [] true (by simp [h0])
      · rw [if_neg h2]; exact ih _ msg _ _ (by omega) (by omega) (by omega) kr fr

/-- **C28 (valid periods).** Assume no two sibling nodes of the tree share a public key and
no leaf's signature on the message is accepted under its sibling leaf's key (these fail
only for hash collisions or forgeries).  Then the signature made in period `t` is not
accepted for any other period `t' < 2^d`. -/
theorem C28_one_period_partial (C : SigHash) (d : Nat) (hd : d < 32) (seed : Bytes) (hs : seed.length = 32) (msg : Bytes)
    (t t' : Nat) (ht : t < 2 ^ d) (ht' : t' < 2 ^ d) (hne : t ≠ t')
    (distinctSiblings : ∀ p : List Bool, p.length < d →
      treeKey C (d - (p.length + 1)) (seedAt C seed (p ++ [false])) ≠
      treeKey C (d - (p.length + 1)) (seedAt C seed (p ++ [true])))
    (noForgery : ∀ (p : List Bool) (b : Bool), p.length + 1 = d →
      C.verify (C.pub (seedAt C seed (p ++ [!b]))) msg (C.sign (seedAt C seed (p ++ [b])) msg) = false) :
    ∃ k0 pk wiped k sig, keygen C d seed = .ok (k0, pk, wiped) ∧ updates C d t k0 = .ok k ∧
      sign C d k msg = .ok sig ∧ verify C d t' pk msg sig ≠ .ok true :=
  ⟨_, _, _, _, _, keygen_ok C d seed hs, updates_keyAt C d seed hd hs t ht, sign_keyAt C d seed t t msg hs,
    verify_wrong C d seed msg t t' ht ht' hne distinctSiblings noForgery⟩

-- the hypotheses are met by a concrete tree of depth 1 (both leaves, both periods)
example : let C := toySigHash; let seed : Bytes := List.replicate 32 7
    (∀ p : List Bool, p.length < 1 → treeKey C (1 - (p.length + 1)) (seedAt C seed (p ++ [false])) ≠
      treeKey C (1 - (p.length + 1)) (seedAt C seed (p ++ [true]))) ∧
    (∀ (p : List Bool) (b : Bool), p.length + 1 = 1 →
      C.verify (C.pub (seedAt C seed (p ++ [!b]))) [1, 2] (C.sign (seedAt C seed (p ++ [b])) [1, 2]) = false) := by
  constructor
  · intro p hp
    have : p = [] := by cases p <;> simp_all
    subst this; decide +kernel
  · intro p b hp
    have : p = [] := by cases p <;> simp_all
    subst this; cases b <;> decide +kernel

theorem verify_beyond (C : SigHash) : ∀ (d t : Nat) (pk msg sig : Bytes), 2 ^ d ≤ t →
    verify C d t pk msg sig = verify C d (2 ^ d - 1) pk msg sig := by
  intro d
  induction d with
  | zero => intro t pk msg sig _; rfl
  | succ d ih =>
    intro t pk msg sig h
    have hp : 2 ^ (d + 1) = 2 ^ d + 2 ^ d := by rw [Nat.pow_succ]; omega
    have hpos : 0 < 2 ^ d := Nat.pow_pos (by omega)
    rw [verify, verify]
    split
    · rfl
    · congr 1
      funext sigma
      rw [if_neg (by omega), if_neg (by omega), ih _ _ _ _ (by omega)]
      congr 1
      omega

/-- **C28 is false of the code for periods beyond the key's life**: `verify` does not check the
range, so a last-period signature is accepted for every period `t' ≥ 2^d`. -/
theorem C28_no_range_check (C : SigHash) (d : Nat) (hd : d < 32) (seed : Bytes) (hs : seed.length = 32) (msg : Bytes)
    (hz : ¬ C.zeroNonce (seedAt C seed (leafPath d (2 ^ d - 1))) msg) :
    ∃ k0 pk wiped k sig, keygen C d seed = .ok (k0, pk, wiped) ∧ updates C d (2 ^ d - 1) k0 = .ok k ∧
      sign C d k msg = .ok sig ∧ ∀ t' ≥ 2 ^ d, verify C d t' pk msg sig = .ok true := by
  have hpos : 0 < 2 ^ d := Nat.pow_pos (by omega)
  refine ⟨_, _, _, _, _, keygen_ok C d seed hs, updates_keyAt C d seed hd hs _ (by omega), sign_keyAt C d seed _ _ msg hs, ?_⟩
  intro t' ht'
  rw [verify_beyond C d t' _ _ _ ht']
  exact verify_sigAt C d seed (2 ^ d - 1) msg hs (by rw [leafSeed_eq C d seed _ (by omega)]; exact hz)

/-- **C27 (key bytes without a period).** The key bytes of a freshly generated key, without the
four period bytes, are accepted and give the same key object; any other length is
refused. -/
theorem C27_restored_without_period (C : SigHash) (d : Nat) (seed : Bytes) (hs : seed.length = 32) :
    ∃ k0 pk wiped, keygen C d seed = .ok (k0, pk, wiped) ∧
      fromBytes d (k0.prv.take (k0.prv.length - 4)) = .ok k0 ∧
      ∀ b : Bytes, b.length ≠ k0.prv.length → b.length + 4 ≠ k0.prv.length → fromBytes d b = .throw .runtimeError := by
  refine ⟨_, _, _, keygen_ok C d seed hs, ?_, ?_⟩
  · have hl := layout_length C d seed 0 hs
    have h4 : (Util.packBE 4 0).length = 4 := packBE4_length 0
    have ht : (layout C d seed 0 ++ Util.packBE 4 0).take ((layout C d seed 0 ++ Util.packBE 4 0).length - 4) =
        layout C d seed 0 := by
      rw [List.length_append, h4, Nat.add_sub_cancel, List.take_left]
    simp only [ht]
    unfold fromBytes
    rw [if_neg (by simp [hl]), if_pos hl]
    have : Util.packBE 4 0 = List.replicate 4 0 := by decide
    rw [this]
  · intro b h1 h2
    simp only [List.length_append, layout_length C d seed 0 hs, packBE4_length] at h1 h2
    unfold fromBytes
    rw [if_pos ⟨by omega, h1⟩]

end Cardano.Kes
