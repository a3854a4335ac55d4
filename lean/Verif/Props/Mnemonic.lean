import Verif.Lemmas.Mnemonic
import Verif.Lemmas.Bip39

/-! # C19–C21: mnemonic phrases

`sha` is any function returning 32 bytes (SHA-256 in the code). -/

namespace Cardano.Mnemonic

open Cardano Spec.Bip39

theorem validSize_iff (n : Nat) : isValidMnemonicSize n = true ↔ ValidSize n := by
  unfold isValidMnemonicSize ValidSize
  split <;> simp_all

theorem validSize_k {n : Nat} (h : ValidSize n) : ∃ k ∈ [3, 4, 5, 6, 7, 8], n = 3 * k := by
  simp only [ValidSize, List.mem_cons, List.not_mem_nil, or_false] at h
  rcases h with rfl | rfl | rfl | rfl | rfl | rfl
  · exact ⟨3, by simp⟩
  · exact ⟨4, by simp⟩
  · exact ⟨5, by simp⟩
  · exact ⟨6, by simp⟩
  · exact ⟨7, by simp⟩
  · exact ⟨8, by simp⟩

theorem k_bounds {k : Nat} (h : k ∈ [3, 4, 5, 6, 7, 8]) : 3 ≤ k ∧ k ≤ 8 := by
  simp only [List.mem_cons, List.not_mem_nil, or_false] at h; omega

theorem validSize_of_k {k : Nat} (h : k ∈ [3, 4, 5, 6, 7, 8]) : isValidMnemonicSize (3 * k) = true := by
  simp only [List.mem_cons, List.not_mem_nil, or_false] at h
  rcases h with rfl | rfl | rfl | rfl | rfl | rfl <;> rfl

theorem head_bits (h : Bytes) (k : Nat) (hk : k ≤ 8) (b : UInt8) (hb : h[0]? = some b) :
    (byteBits h).take k = toBits k (b.toNat >>> (8 - k)) := by
  match h, hb with
  | x :: xs, hb =>
    simp only [List.getElem?_cons_zero, Option.some.injEq] at hb
    subst hb
    have h8 : toBits 8 x.toNat = toBits k (x.toNat >>> (8 - k)) ++ toBits (8 - k) x.toNat := by
      rw [← toBits_add]; congr 1; omega
    rw [byteBits_cons, h8, List.append_assoc, List.take_left' (by simp)]

theorem cs_shift (b : UInt8) (k : Nat) (hk : k ≤ 8) :
    (b.toNat &&& (255 <<< (8 - k))) >>> (8 - k) = b.toNat >>> (8 - k) := by
  apply Nat.eq_of_testBit_eq
  intro i
  rw [Nat.testBit_shiftRight, Nat.testBit_shiftRight, Nat.testBit_and, Nat.testBit_shiftLeft,
    show (255 : Nat) = 2 ^ 8 - 1 by rfl, Nat.testBit_two_pow_sub_one]
  by_cases h : 8 - k + i < 8
  · simp; intro; omega
  · rw [Nat.testBit_lt_two_pow (Nat.lt_of_lt_of_le b.toNat_lt (show 2 ^ 8 ≤ 2 ^ (8 - k + i) from Nat.pow_le_pow_right (by decide) (by omega)))]
    simp

theorem cs_lt (b : UInt8) (k : Nat) (hk : k ≤ 8) : b.toNat >>> (8 - k) < 2 ^ k := by
  rw [Nat.shiftRight_eq_div_pow, Nat.div_lt_iff_lt_mul (Nat.two_pow_pos _), ← Nat.pow_add,
    show k + (8 - k) = 8 by omega]
  exact b.toNat_lt

theorem pickWords_ok (d : List Bytes) (hd : d.length = 2048) : ∀ ix : List Nat, (∀ i ∈ ix, i < 2048) →
    ∃ ws, pickWords d ix = .ok ws ∧ ws.length = ix.length ∧ ws.map some = ix.map (d[·]?) := by
  intro ix
  induction ix with
  | nil => intro _; exact ⟨[], rfl, rfl, rfl⟩
  | cons i is ih =>
    intro h
    obtain ⟨ws, e1, e2, e3⟩ := ih (fun j hj => h j (by simp [hj]))
    have hi : i < d.length := by rw [hd]; exact h i (by simp)
    refine ⟨d[i] :: ws, ?_, by simp [e2], by simp [e3, hi]⟩
    rw [pickWords, List.getElem?_eq_getElem hi]
    simp only [e1, Out.ok_bind, Out.pure_eq]

/-- **C19** (encoder). For every language, supported size and entropy of the matching
length, `generate` returns a mnemonic; its word numbers are the BIP-39 encoding of the
entropy and its words are the dictionary entries with those numbers. -/
theorem C19_generate_isPhrase (sha : Bytes → Bytes) (hsha : ∀ x, (sha x).length = 32) (l : Lang)
    (size : Nat) (entropy : Bytes) (hs : ValidSize size) (he : 3 * entropy.length = 4 * size) :
    ∃ m, generate sha l size entropy = .ok m ∧ m.indexes.length = size ∧
      IsPhrase sha entropy m.indexes ∧ m.words.map some = m.indexes.map ((getDictionary l)[·]?) := by
  obtain ⟨k, hk, rfl⟩ := validSize_k hs
  obtain ⟨hk3, hk8⟩ := k_bounds hk
  have hlen : entropy.length = 4 * k := by omega
  have ht : ((sha entropy).take ((3 * k / 3 + 7) / 8)).length = 1 := by
    rw [List.length_take, hsha]; omega
  obtain ⟨ws, h1, h2, h3, h4⟩ := genLoop_spec (3 * k) [] (entropy ++ (sha entropy).take ((3 * k / 3 + 7) / 8)) 0 0
    (by decide) (by decide) (by rw [List.length_append, ht]; omega)
  obtain ⟨wl, w1, w2, w3⟩ := pickWords_ok (getDictionary l) (dict_length l) ws h3
  refine ⟨⟨wl, ws⟩, ?_, h2, ⟨k, hk, hlen, h2, h3, ?_⟩, w3⟩
  · unfold generate
    simp only [validSize_of_k hk, Bool.not_true, Bool.false_eq_true, if_false]
    rw [List.nil_append, List.length_nil] at h1
    rw [h1]
    simp only [Out.ok_bind, w1, ofWordsIndexes, w2, h2, validSize_of_k hk, ne_eq, not_true_eq_false, if_false,
      Bool.not_true, Bool.false_eq_true]
  · rw [h4, byteBits_append]
    simp only [toBits, List.nil_append]
    rw [show 11 * (3 * k) = 32 * k + k by omega, take_left (by rw [byteBits_length, hlen]; omega)]
    congr 1
    have h8 : (3 * k / 3 + 7) / 8 = 1 := by omega
    have hne : sha entropy ≠ [] := by
      intro h0; have := hsha entropy; rw [h0] at this; simp at this
    obtain ⟨b, bs, hb⟩ := List.exists_cons_of_ne_nil hne
    rw [h8, hb]
    simp only [List.take_succ_cons, List.take_zero]
    rw [head_bits [b] k hk8 b rfl, head_bits (b :: bs) k hk8 b rfl]

/-- **C19/C20** (decoder). For every phrase of a supported length whose word numbers are
below 2048, `toEntropy` returns entropy and checksum bits that together spell exactly the
bits of the words. -/
theorem C19_toEntropy_spec (m : Mn) (hs : ValidSize m.indexes.length) (hw : ∀ w ∈ m.indexes, w < 2048) :
    ∃ e c, toEntropy m = .ok (e, c) ∧ 3 * e.length = 4 * m.indexes.length ∧
      wordBits m.indexes = byteBits e ++ bitsBE (m.indexes.length / 3) c ∧ c < 2 ^ (m.indexes.length / 3) := by
  obtain ⟨k, hk, hk'⟩ := validSize_k hs
  obtain ⟨hk3, hk8⟩ := k_bounds hk
  have hne : m.indexes ≠ [] := by
    intro h; rw [h] at hk'; simp at hk'; omega
  obtain ⟨o, c, e1, e2, e3, e4⟩ := toEntLoop_spec k hk3 hk8 m.indexes [] 0 0 hne (by decide) (by decide) hw
    (by rw [hk']; simp; omega)
  have hk33 : m.indexes.length / 3 = k := by omega
  refine ⟨o, c, ?_, by omega, ?_, by rw [hk33]; exact e3⟩
  · unfold toEntropy
    rw [(validSize_iff _).mpr hs]
    simp only [Bool.not_true, Bool.false_eq_true, if_false, hk33, e1, Out.ok_bind, Out.pure_eq]
    rw [e2, show k * 4 - 4 * k = 0 by omega]; simp
  · rw [hk33, bitsBE_eq, ← e4]; simp [toBits, byteBits]

/-- The value of the first `k` bits of SHA-256(entropy). -/
def specChecksum (sha : Bytes → Bytes) (entropy : Bytes) (k : Nat) : Nat :=
  ((sha entropy).getD 0 0).toNat / 2 ^ (8 - k)

/-- **C19**: entropy → mnemonic → entropy is the identity, and the recovered checksum is
the leading `size/3` bits of SHA-256(entropy). -/
theorem C19_entropy_roundtrip (sha : Bytes → Bytes) (hsha : ∀ x, (sha x).length = 32) (l : Lang)
    (size : Nat) (entropy : Bytes) (hs : ValidSize size) (he : 3 * entropy.length = 4 * size) :
    ∃ m, generate sha l size entropy = .ok m ∧
      toEntropy m = .ok (entropy, specChecksum sha entropy (size / 3)) ∧
      toSeed m = .ok entropy ∧ checksum m = .ok (specChecksum sha entropy (size / 3)) := by
  obtain ⟨m, h1, h2, ⟨k, hk, hlen, h3, h4, h5⟩, _⟩ := C19_generate_isPhrase sha hsha l size entropy hs he
  obtain ⟨hk3, hk8⟩ := k_bounds hk
  obtain ⟨e, c, t1, t2, t3, t4⟩ := C19_toEntropy_spec m (by rw [h2]; exact hs) h4
  have hk33 : m.indexes.length / 3 = k := by omega
  have hne : sha entropy ≠ [] := by
    intro h0; have := hsha entropy; rw [h0] at this; simp at this
  obtain ⟨b, bs, hb⟩ := List.exists_cons_of_ne_nil hne
  rw [h5, hk33, bitsBE_eq, hb, head_bits (b :: bs) k hk8 b rfl] at t3
  have t5 := List.append_inj t3 (by rw [byteBits_length, byteBits_length]; omega)
  have he' := byteBits_inj t5.1
  have hc : b.toNat >>> (8 - k) = c := toBits_inj_lt (cs_lt b k hk8) (by rw [← hk33]; exact t4) t5.2
  have key : toEntropy m = .ok (entropy, specChecksum sha entropy (size / 3)) := by
    rw [t1, ← he', ← hc, specChecksum, hb]
    simp only [List.getD_cons_zero, Nat.shiftRight_eq_div_pow]
    rw [show size / 3 = k by omega]
  exact ⟨m, h1, key, by unfold toSeed; rw [key]; rfl, by unfold checksum; rw [key]; rfl⟩

/-- **C20**: `verify_checksum` never fails on a phrase of supported length with word
numbers below 2048, and answers true exactly for BIP-39 phrases. -/
theorem C20_verifyChecksum_iff (sha : Bytes → Bytes) (hsha : ∀ x, (sha x).length = 32) (m : Mn)
    (hs : ValidSize m.indexes.length) (hw : ∀ w ∈ m.indexes, w < 2048) :
    ∃ b, verifyChecksum sha m = .ok b ∧ (b = true ↔ ∃ entropy, IsPhrase sha entropy m.indexes) := by
  obtain ⟨e, c, t1, t2, t3, t4⟩ := C19_toEntropy_spec m hs hw
  obtain ⟨k, hk, hk'⟩ := validSize_k hs
  obtain ⟨hk3, hk8⟩ := k_bounds hk
  have hk33 : m.indexes.length / 3 = k := by omega
  have hne : sha e ≠ [] := by
    intro h0; have := hsha e; rw [h0] at this; simp at this
  obtain ⟨b, bs, hb⟩ := List.exists_cons_of_ne_nil hne
  rw [hk33, bitsBE_eq] at t3
  rw [hk33] at t4
  have hbits : (byteBits (sha e)).take k = toBits k (b.toNat >>> (8 - k)) := by
    rw [hb]; exact head_bits _ k hk8 b rfl
  refine ⟨(b.toNat >>> (8 - k) == c), ?_, ?_⟩
  · unfold verifyChecksum
    rw [(validSize_iff _).mpr hs]
    simp only [Bool.not_true, Bool.false_eq_true, if_false, t1, Out.ok_bind, hb, List.getElem?_cons_zero,
      Out.pure_eq, hk33, cs_shift b k hk8]
  · rw [beq_iff_eq]
    constructor
    · intro h
      exact ⟨e, k, hk, by omega, hk', hw, by rw [t3, hbits, h]⟩
    · rintro ⟨e', k', hk1, h1, h2, _, h4⟩
      have : k' = k := by omega
      subst this
      rw [t3] at h4
      have h5 := List.append_inj h4 (by rw [byteBits_length, byteBits_length]; omega)
      have he := byteBits_inj h5.1
      subst he
      rw [hbits] at h5
      exact toBits_inj_lt (cs_lt b _ hk8) t4 h5.2.symm

/-- **C20**: every generated mnemonic verifies. -/
theorem C20_generated_verifies (sha : Bytes → Bytes) (hsha : ∀ x, (sha x).length = 32) (l : Lang)
    (size : Nat) (entropy : Bytes) (hs : ValidSize size) (he : 3 * entropy.length = 4 * size) :
    ∃ m, generate sha l size entropy = .ok m ∧ verifyChecksum sha m = .ok true := by
  obtain ⟨m, h1, h2, h3, _⟩ := C19_generate_isPhrase sha hsha l size entropy hs he
  have hw : ∀ w ∈ m.indexes, w < 2048 := by obtain ⟨_, _, _, _, h, _⟩ := h3; exact h
  obtain ⟨b, v1, v2⟩ := C20_verifyChecksum_iff sha hsha m (by rw [h2]; exact hs) hw
  exact ⟨m, h1, by rw [v1, v2.mpr ⟨_, h3⟩]⟩

/-- **C20** (tampering with the checksum): two phrases of the same length with word numbers
below 2048 that both verify and decode to the same entropy are the same phrase. -/
theorem C20_verified_phrase_unique (sha : Bytes → Bytes) (hsha : ∀ x, (sha x).length = 32) (m m' : Mn)
    (hs : ValidSize m.indexes.length) (hs' : ValidSize m'.indexes.length)
    (hw : ∀ w ∈ m.indexes, w < 2048) (hw' : ∀ w ∈ m'.indexes, w < 2048)
    (hv : verifyChecksum sha m = .ok true) (hv' : verifyChecksum sha m' = .ok true)
    (e : Bytes) (h : toSeed m = .ok e) (h' : toSeed m' = .ok e) : m.indexes = m'.indexes := by
  have key : ∀ m : Mn, ValidSize m.indexes.length → (∀ w ∈ m.indexes, w < 2048) →
      verifyChecksum sha m = .ok true → toSeed m = .ok e → IsPhrase sha e m.indexes := by
    intro m hs hw hv h
    obtain ⟨b, v1, v2⟩ := C20_verifyChecksum_iff sha hsha m hs hw
    rw [hv] at v1
    obtain ⟨e', hp⟩ := v2.mp (Out.ok.inj v1).symm
    obtain ⟨e2, c, t1, t2, t3, _⟩ := C19_toEntropy_spec m hs hw
    obtain ⟨k, _, l1, l2, _, l4⟩ := hp
    have : e' = e2 := by
      rw [l4] at t3
      exact byteBits_inj (List.append_inj t3 (by rw [byteBits_length, byteBits_length]; omega)).1
    have he : e2 = e := by unfold toSeed at h; rw [t1] at h; simpa using h
    rw [← he, ← this]; exact ⟨k, by assumption, l1, l2, hw, l4⟩
  obtain ⟨k, _, l1, l2, _, l4⟩ := key m hs hw hv h
  obtain ⟨k', _, l1', l2', _, l4'⟩ := key m' hs' hw' hv' h'
  have : k = k' := by omega
  subst this
  exact wordBits_inj hw hw' (by rw [l4, l4'])

/-- The indexes given to the public constructors are not masked before line 309 uses them:
a phrase with an index ≥ 2048 gets a different entropy from the same phrase with the index
reduced modulo 2048, although the surrounding code masks it "to be safe". -/
theorem C19_unmasked_index :
    ∃ m m' : Mn, (ofWordsIndexes m.words m.indexes = .ok m) ∧ (ofWordsIndexes m'.words m'.indexes = .ok m') ∧
      m'.indexes = m.indexes.map (· % 2048) ∧ toSeed m ≠ toSeed m' :=
  ⟨⟨List.replicate 9 [], [0, 2048, 0, 0, 0, 0, 0, 0, 0]⟩, ⟨List.replicate 9 [], [0, 0, 0, 0, 0, 0, 0, 0, 0]⟩,
    by decide, by decide, by decide, by decide +kernel⟩

/-! ### C21: construction from text -/

theorem lookupFrom_some (w : Bytes) : ∀ (d : List Bytes) (i j : Nat), lookupFrom w d i = some j →
    i ≤ j ∧ d[j - i]? = some w := by
  intro d
  induction d with
  | nil => intro i j h; simp [lookupFrom] at h
  | cons x d ih =>
    intro i j h
    rw [lookupFrom] at h
    cases hl : lookupFrom w d (i + 1) with
    | some j' =>
      rw [hl] at h
      obtain rfl : j' = j := by simpa using h
      obtain ⟨h1, h2⟩ := ih _ _ hl
      refine ⟨by omega, ?_⟩
      rw [show j' - i = (j' - (i + 1)) + 1 by omega, List.getElem?_cons_succ]; exact h2
    | none =>
      rw [hl] at h
      by_cases hx : x = w
      · simp only [hx, if_true, Option.some.injEq] at h
        subst h; simp [hx]
      · simp [hx] at h

theorem lookupFrom_mem (w : Bytes) : ∀ (d : List Bytes) (i : Nat), w ∈ d → ∃ j, lookupFrom w d i = some j := by
  intro d
  induction d with
  | nil => intro i h; simp at h
  | cons x d ih =>
    intro i h
    rw [lookupFrom]
    cases hl : lookupFrom w d (i + 1) with
    | some j => exact ⟨j, rfl⟩
    | none =>
      rcases List.mem_cons.mp h with rfl | hm
      · exact ⟨i, by simp⟩
      · obtain ⟨j, hj⟩ := ih (i + 1) hm
        rw [hj] at hl; exact absurd hl (by simp)

theorem nodup_getElem {α} {l : List α} (h : l.Nodup) (i j : Nat) (hi : i < l.length) (hj : j < l.length)
    (e : l[i] = l[j]) : i = j := by
  have hp := List.pairwise_iff_getElem.mp h
  rcases Nat.lt_trichotomy i j with h1 | h1 | h1
  · exact absurd e (hp i j hi hj h1)
  · exact h1
  · exact absurd e.symm (hp j i hj hi h1)

theorem map_some_inj {α} : ∀ {l m : List α}, l.map some = m.map some → l = m := by
  intro l
  induction l with
  | nil => intro m h; cases m <;> simp_all
  | cons a l ih =>
    intro m h
    cases m with
    | nil => simp at h
    | cons b m =>
      simp only [List.map_cons, List.cons.injEq, Option.some.injEq] at h
      rw [h.1, ih h.2]

theorem lookup_some_iff (l : Lang) (w : Bytes) (j : Nat) :
    lookup (getDictionary l) w = some j ↔ (getDictionary l)[j]? = some w := by
  constructor
  · intro h; have := (lookupFrom_some w _ 0 j h).2; simpa using this
  · intro h
    obtain ⟨j', hj'⟩ := lookupFrom_mem w (getDictionary l) 0 (List.mem_of_getElem? h)
    have h2 := (lookupFrom_some w _ 0 j' hj').2
    rw [Nat.sub_zero] at h2
    obtain ⟨hj, e⟩ := List.getElem?_eq_some_iff.mp h
    obtain ⟨hj2, e2⟩ := List.getElem?_eq_some_iff.mp h2
    have : j = j' := nodup_getElem (dict_nodup l) j j' hj hj2 (by rw [e, e2])
    rw [lookup, hj', this]

theorem findIndexes_ok_iff (l : Lang) : ∀ (ws : List Bytes) (ix : List Nat),
    findIndexes (getDictionary l) ws = .ok ix ↔ ix.map ((getDictionary l)[·]?) = ws.map some := by
  intro ws
  induction ws with
  | nil => intro ix; cases ix <;> simp [findIndexes]
  | cons w ws ih =>
    intro ix
    rw [findIndexes]
    cases hl : lookup (getDictionary l) w with
    | none =>
      simp only [reduceCtorEq, false_iff]
      intro h
      cases ix with
      | nil => simp at h
      | cons i is =>
        simp only [List.map_cons, List.cons.injEq] at h
        rw [(lookup_some_iff l w i).mpr h.1] at hl; exact absurd hl (by simp)
    | some j =>
      cases ix with
      | nil =>
        simp only [Out.pure_eq, List.map_nil, List.map_cons, reduceCtorEq, iff_false]
        intro h; obtain ⟨a, _, h⟩ := Out.bind_eq_ok.mp h; simp at h
      | cons i is =>
        simp only [Out.pure_eq, Out.bind_eq_ok, Out.ok.injEq, List.cons.injEq, List.map_cons, ih]
        have hj := (lookup_some_iff l w j).mp hl
        constructor
        · rintro ⟨a, ha, rfl, rfl⟩; exact ⟨hj, ha⟩
        · rintro ⟨h1, h2⟩
          refine ⟨is, h2, ?_, rfl⟩
          have := (lookup_some_iff l w i).mpr h1
          rw [hl] at this; exact Option.some.inj this

/-- **C21**: constructing from a list of words succeeds exactly when the number of words is
supported and each is in the dictionary; the object then holds the given words and, for
each, its dictionary position. -/
theorem C21_ofWords_ok_iff (l : Lang) (ws : List Bytes) (m : Mn) :
    ofWords l ws = .ok m ↔
      ValidSize ws.length ∧ m.words = ws ∧ m.indexes.map ((getDictionary l)[·]?) = ws.map some := by
  unfold ofWords
  cases hv : isValidMnemonicSize ws.length with
  | false =>
    have : ¬ ValidSize ws.length := fun h => by rw [(validSize_iff _).mpr h] at hv; exact absurd hv (by simp)
    simp [this]
  | true =>
    have hv' := (validSize_iff _).mp hv
    simp only [Bool.not_true, Bool.false_eq_true, if_false, Out.pure_eq, Out.bind_eq_ok, findIndexes_ok_iff,
      Out.ok.injEq]
    constructor
    · rintro ⟨ix, h, rfl⟩; exact ⟨hv', rfl, h⟩
    · rintro ⟨_, h1, h2⟩
      exact ⟨m.indexes, h2, by rw [← h1]⟩

theorem findIndexes_fail (l : Lang) (w : Bytes) (hw : w ∉ getDictionary l) : ∀ ws : List Bytes, w ∈ ws →
    findIndexes (getDictionary l) ws = .throw .invalidArgument := by
  intro ws
  induction ws with
  | nil => intro h; simp at h
  | cons x ws ih =>
    intro h
    rw [findIndexes]
    cases hl : lookup (getDictionary l) x with
    | none => rfl
    | some j =>
      have hx : x ∈ getDictionary l := List.mem_of_getElem? ((lookup_some_iff l x j).mp hl)
      rcases List.mem_cons.mp h with rfl | hm
      · exact absurd hx hw
      · simp only [ih hm, Out.throw_bind]

/-- **C21**: a phrase of unsupported length, or with an unknown word, is rejected with
`invalid_argument`. -/
theorem C21_ofWords_rejects (l : Lang) (ws : List Bytes)
    (h : ¬ ValidSize ws.length ∨ ∃ w ∈ ws, w ∉ getDictionary l) :
    ofWords l ws = .throw .invalidArgument := by
  unfold ofWords
  cases hv : isValidMnemonicSize ws.length with
  | false => rfl
  | true =>
    rcases h with h | ⟨w, h1, h2⟩
    · exact absurd ((validSize_iff _).mp hv) h
    · simp [findIndexes_fail l w h2 ws h1]

/-- Words joined by single spaces. -/
def specJoin : List Bytes → Bytes
  | [] => []
  | [w] => w
  | w :: ws => w ++ 32 :: specJoin ws

theorem splitSpace_ne (s : Bytes) : splitSpace s ≠ [] := by
  cases s with
  | nil => simp [splitSpace]
  | cons c cs => rw [splitSpace]; split <;> (try split) <;> simp

theorem specJoin_cons (w : Bytes) (ws : List Bytes) (h : ws ≠ []) : specJoin (w :: ws) = w ++ 32 :: specJoin ws := by
  cases ws with
  | nil => exact absurd rfl h
  | cons x xs => rfl

theorem join_split (s : Bytes) : specJoin (splitSpace s) = s := by
  induction s with
  | nil => rfl
  | cons c cs ih =>
    rw [splitSpace]
    by_cases hc : c = 32
    · rw [if_pos hc, specJoin_cons _ _ (splitSpace_ne cs), ih, hc]; rfl
    · rw [if_neg hc]
      cases hs : splitSpace cs with
      | nil => exact absurd hs (splitSpace_ne cs)
      | cons w ws =>
        rw [hs] at ih
        simp only []
        cases ws with
        | nil => simpa [specJoin] using ih
        | cons x xs =>
          rw [specJoin_cons _ _ (by simp)] at ih ⊢
          simpa using ih

theorem split_word_append (w rest : Bytes) (h : (32 : UInt8) ∉ w) : splitSpace (w ++ 32 :: rest) = w :: splitSpace rest := by
  induction w with
  | nil => simp [splitSpace]
  | cons c cs ih =>
    simp only [List.mem_cons, not_or] at h
    rw [List.cons_append, splitSpace, if_neg (fun e => h.1 e.symm), ih h.2]

theorem split_word (w : Bytes) (h : (32 : UInt8) ∉ w) : splitSpace w = [w] := by
  induction w with
  | nil => rfl
  | cons c cs ih =>
    simp only [List.mem_cons, not_or] at h
    rw [splitSpace, if_neg (fun e => h.1 e.symm), ih h.2]

theorem split_join : ∀ ws : List Bytes, ws ≠ [] → (∀ w ∈ ws, (32 : UInt8) ∉ w) → splitSpace (specJoin ws) = ws := by
  intro ws
  induction ws with
  | nil => intro h; exact absurd rfl h
  | cons w ws ih =>
    intro _ h
    cases ws with
    | nil => exact split_word w (h w (by simp))
    | cons x xs =>
      rw [specJoin_cons _ _ (by simp), split_word_append _ _ (h w (by simp)),
        ih (by simp) (fun y hy => h y (List.mem_cons_of_mem _ hy))]

/-- **C21**: the string constructor accepts a text exactly when it is a supported number of
dictionary words separated by single spaces; the words of the object joined by spaces are
the text. -/
theorem C21_ofString_ok_iff (l : Lang) (s : Bytes) (m : Mn) :
    ofString l s = .ok m ↔
      ValidSize m.words.length ∧ specJoin m.words = s ∧
        m.indexes.map ((getDictionary l)[·]?) = m.words.map some := by
  unfold ofString
  rw [C21_ofWords_ok_iff]
  constructor
  · rintro ⟨h1, h2, h3⟩
    rw [h2]
    exact ⟨h1, join_split s, h3⟩
  · rintro ⟨h1, rfl, h3⟩
    have hsp : ∀ w ∈ m.words, (32 : UInt8) ∉ w := by
      intro w hw
      have : some w ∈ m.indexes.map ((getDictionary l)[·]?) := by rw [h3]; exact List.mem_map_of_mem hw
      obtain ⟨i, _, hi⟩ := List.mem_map.mp this
      exact (dict_noSpace l w (List.mem_of_getElem? hi)).1
    have hne : m.words ≠ [] := by intro h; rw [h] at h1; simp [ValidSize] at h1
    rw [split_join m.words hne hsp]
    exact ⟨h1, rfl, h3⟩

/-- **C21**: any other text is rejected with `invalid_argument`; no text makes the
constructor leave defined behaviour. -/
theorem C21_ofString_defined (l : Lang) (s : Bytes) :
    (∃ m, ofString l s = .ok m) ∨ ofString l s = .throw .invalidArgument := by
  by_cases h : ¬ ValidSize (splitSpace s).length ∨ ∃ w ∈ splitSpace s, w ∉ getDictionary l
  · exact .inr (C21_ofWords_rejects l _ h)
  · left
    rw [not_or, Classical.not_not] at h
    obtain ⟨h1, h2⟩ := h
    have h3 : ∀ w ∈ splitSpace s, w ∈ getDictionary l := fun w hw =>
      Classical.byContradiction fun hn => h2 ⟨w, hw, hn⟩
    have h4 : ∀ ws : List Bytes, (∀ w ∈ ws, w ∈ getDictionary l) → ∃ ix : List Nat, ix.map ((getDictionary l)[·]?) = ws.map some := by
      intro ws
      induction ws with
      | nil => intro _; exact ⟨[], rfl⟩
      | cons w ws ih =>
        intro hh
        obtain ⟨ix, hix⟩ := ih (fun x hx => hh x (by simp [hx]))
        obtain ⟨i, hi⟩ := List.mem_iff_getElem?.mp (hh w (by simp))
        exact ⟨i :: ix, by simp [hix, hi]⟩
    obtain ⟨ix, hix⟩ := h4 _ h3
    exact ⟨⟨splitSpace s, ix⟩, (C21_ofWords_ok_iff l _ _).mpr ⟨h1, rfl, hix⟩⟩

/-- Word numbers of an accepted phrase are below 2048 and as many as the words, so the
theorems about `toEntropy` and `verify_checksum` apply to every phrase the string
constructor accepts. -/
theorem C21_ofString_indexes (l : Lang) (s : Bytes) (m : Mn) (h : ofString l s = .ok m) :
    ValidSize m.indexes.length ∧ ∀ w ∈ m.indexes, w < 2048 := by
  obtain ⟨h1, _, h3⟩ := (C21_ofString_ok_iff l s m).mp h
  have hl := congrArg List.length h3
  simp only [List.length_map] at hl
  refine ⟨by rw [hl]; exact h1, ?_⟩
  intro w hw
  have : (getDictionary l)[w]? ∈ m.words.map some := by rw [← h3]; exact List.mem_map_of_mem hw
  obtain ⟨x, _, hx⟩ := List.mem_map.mp this
  obtain ⟨hlt, _⟩ := List.getElem?_eq_some_iff.mp hx.symm
  rw [dict_length] at hlt; exact hlt

/-- Two different word-number lists are never given by the same text, nor two texts by the
same word numbers: the text determines the phrase and back. -/
theorem C21_ofString_inj (l : Lang) (s s' : Bytes) (m m' : Mn) (h : ofString l s = .ok m) (h' : ofString l s' = .ok m')
    (hi : m.indexes = m'.indexes) : s = s' := by
  obtain ⟨_, h2, h3⟩ := (C21_ofString_ok_iff l s m).mp h
  obtain ⟨_, h2', h3'⟩ := (C21_ofString_ok_iff l s' m').mp h'
  have : m.words.map some = m'.words.map some := by rw [← h3, ← h3', hi]
  have hw : m.words = m'.words := map_some_inj this
  rw [← h2, ← h2', hw]

/-- **C19–C21 end to end**: write down a generated phrase, type it in again (in the same
language): the same mnemonic, hence the same entropy, and it verifies. -/
theorem C21_generate_write_read (sha : Bytes → Bytes) (hsha : ∀ x, (sha x).length = 32) (l : Lang)
    (size : Nat) (entropy : Bytes) (hs : ValidSize size) (he : 3 * entropy.length = 4 * size) :
    ∃ m, generate sha l size entropy = .ok m ∧ ofString l (specJoin m.words) = .ok m ∧
      toSeed m = .ok entropy ∧ verifyChecksum sha m = .ok true := by
  obtain ⟨m, h1, h2, h3, h4⟩ := C19_generate_isPhrase sha hsha l size entropy hs he
  obtain ⟨m1, e1, _, e3, _⟩ := C19_entropy_roundtrip sha hsha l size entropy hs he
  obtain ⟨m2, f1, f2⟩ := C20_generated_verifies sha hsha l size entropy hs he
  rw [h1] at e1 f1
  obtain rfl := Out.ok.inj e1
  obtain rfl := Out.ok.inj f1
  refine ⟨m, h1, (C21_ofString_ok_iff l _ m).mpr ⟨?_, rfl, h4.symm⟩, e3, f2⟩
  have := congrArg List.length h4
  simp only [List.length_map] at this
  rw [this, h2]; exact hs

/-- An unsupported size is refused. -/
theorem C21_generate_rejects (sha : Bytes → Bytes) (l : Lang) (size : Nat) (entropy : Bytes) (hs : ¬ ValidSize size) :
    generate sha l size entropy = .throw .invalidArgument := by
  unfold generate
  cases hv : isValidMnemonicSize size with
  | false => rfl
  | true => exact absurd ((validSize_iff _).mp hv) hs

/-- The constructor from words and word numbers checks exactly the two lengths. -/
theorem C21_ofWordsIndexes_iff (ws : List Bytes) (ix : List Nat) (m : Mn) :
    ofWordsIndexes ws ix = .ok m ↔ ws.length = ix.length ∧ ValidSize ws.length ∧ m = ⟨ws, ix⟩ := by
  unfold ofWordsIndexes
  by_cases h : ws.length = ix.length
  · cases hv : isValidMnemonicSize ws.length with
    | false =>
      have : ¬ ValidSize ws.length := fun h => by rw [(validSize_iff _).mpr h] at hv; exact absurd hv (by simp)
      rw [if_neg (by simp [h])]; simp [this]
    | true =>
      have hv' := (validSize_iff _).mp hv
      rw [if_neg (by simp [h])]
      simp only [Bool.not_true, Bool.false_eq_true, if_false, Out.ok.injEq]
      exact ⟨fun e => ⟨h, hv', e.symm⟩, fun e => e.2.2.symm⟩
  · simp [h]

/-- Second and last words of the published BIP-39 word lists. -/
def specEnds : Lang → Bytes × Bytes
  | .chineseSimplified => ([228, 184, 128], [230, 173, 135])  -- 一 … 歇
  | .chineseTraditional => ([228, 184, 128], [230, 173, 135])  -- 一 … 歇
  | .czech => ([97, 98, 101, 99, 101, 100, 97], [122, 118, 121, 107])  -- abeceda … zvyk
  | .english => ([97, 98, 105, 108, 105, 116, 121], [122, 111, 111])  -- ability … zoo
  | .french => ([97, 98, 97, 110, 100, 111, 110], [122, 111, 111, 108, 111, 103, 105, 101])  -- abandon … zoologie
  | .italian => ([97, 98, 98, 97, 103, 108, 105, 111], [122, 117, 112, 112, 97])  -- abbaglio … zuppa
  | .japanese => ([227, 129, 130, 227, 129, 132, 227, 129, 149, 227, 129, 164], [227, 130, 143, 227, 130, 140, 227, 130, 139])  -- あいさつ … われる
  | .korean => ([225, 132, 128, 225, 133, 161, 225, 132, 129, 225, 133, 179, 225, 134, 183], [225, 132, 146, 225, 133, 181, 225, 134, 183, 225, 132, 129, 225, 133, 165, 225, 134, 186])  -- 가끔 … 힘껏
  | .portuguese => ([97, 98, 97, 105, 120, 111], [122, 117, 109, 98, 105, 100, 111])  -- abaixo … zumbido
  | .spanish => ([97, 98, 100, 111, 109, 101, 110], [122, 117, 114, 100, 111])  -- abdomen … zurdo

/-- `GetDictionary` hands out the list of the requested language. -/
theorem C21_dictionary_of_language (l : Lang) :
    (getDictionary l)[1]? = some (specEnds l).1 ∧ (getDictionary l)[2047]? = some (specEnds l).2 := by
  cases l <;> decide +kernel

/-! ### Concrete cases -/

/-- The well-known all-zero test vector of BIP-39: "abandon" ×11 + "about" (index 3), where
the first byte of SHA-256(0¹⁶) is 0x37. -/
example : ∃ m, generate (fun _ => 0x37 :: List.replicate 31 0) .english 12 (List.replicate 16 0) = .ok m ∧
    m.indexes = [0, 0, 0, 0, 0, 0, 0, 0, 0, 0, 0, 3] ∧ m.words.getLast? = some (ascii "about") := by
  refine ⟨⟨List.replicate 11 (ascii "abandon") ++ [ascii "about"], [0, 0, 0, 0, 0, 0, 0, 0, 0, 0, 0, 3]⟩, ?_⟩
  decide +kernel

example : ValidSize 24 ∧ 3 * (List.replicate 32 (7 : UInt8)).length = 4 * 24 := by simp [ValidSize]
example : ValidSize (Mn.indexes ⟨[], [0, 1, 2, 3, 4, 5, 6, 7, 2047]⟩).length ∧
    ∀ w ∈ (Mn.indexes ⟨[], [0, 1, 2, 3, 4, 5, 6, 7, 2047]⟩), w < 2048 := by simp [ValidSize]

end Cardano.Mnemonic
