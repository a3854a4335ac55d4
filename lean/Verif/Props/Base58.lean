import Verif.Lemmas.Base58

/-! # C07–C09: Base58 text -/

namespace Cardano.Base58

/-- Specification: the Base58 alphabet (no `0`, `O`, `I`, `l`). -/
def specAlphabet : Bytes := ascii "123456789ABCDEFGHJKLMNPQRSTUVWXYZabcdefghijkmnopqrstuvwxyz"

/-- Specification: big-endian number of a byte string. -/
def specBytesValue : Bytes → Nat
  | [] => 0
  | b :: bs => b.toNat * 256 ^ bs.length + specBytesValue bs

/-- Specification: big-endian base-58 number of a text, reading each character as
its position in the alphabet. -/
def specTextValue : Bytes → Nat
  | [] => 0
  | c :: cs => specAlphabet.idxOf c * 58 ^ cs.length + specTextValue cs

/-- **C07 is false of the code** at the empty string (out-of-bounds read in
`encode`) and at all-zero strings (the decoder adds a zero byte). -/
theorem C07_base58_counterexamples :
    encode [] = .ub ∧
    (encode [0]).bind decode = .ok [0, 0] ∧
    decode (ascii "1") = .ok [0, 0] ∧ decode [] = .ok [0] := by decide +kernel

/-- **C07 (partial).** Missing: the empty and the all-zero byte strings, where the
claim fails (`C07_base58_counterexamples`, `C07_base58_zeros`).  Every byte
string with a non-zero byte round-trips, leading zero bytes included. -/
theorem C07_base58_roundtrip_partial (bs : Bytes) (h : ∃ b ∈ bs, b ≠ 0) :
    ∃ s, encode bs = .ok s ∧ (∀ c ∈ s, c ∈ specAlphabet) ∧ decode s = .ok bs := by
  obtain ⟨l, hne, hsplit, hhead⟩ := split_bytes bs h
  generalize hz : leadingZeros bs = z at hsplit
  have hbne : bs ≠ [] := by rintro rfl; simp at h
  -- numeric view
  have hmap : bs.map UInt8.toNat = List.replicate z 0 ++ l.map UInt8.toNat := by
    rw [hsplit]; simp
  have hlne : l.map UInt8.toNat ≠ [] := by simpa using hne
  have hlh : (l.map UInt8.toNat).head hlne ≠ 0 := by
    rw [List.head_map]
    intro h0
    apply hhead
    exact UInt8.toNat.inj (by simpa using h0)
  obtain ⟨k1, k2⟩ := strip_zeros (b := 256) (by omega) z (l.map UInt8.toNat)
    (by intro d hd; obtain ⟨x, _, rfl⟩ := List.mem_map.1 hd; exact x.toNat_lt) hlne hlh
  rw [← hmap, ← beVal_eq] at k1 k2
  -- the emitted characters
  obtain ⟨cs, c1, c2, c3, c4⟩ := chars_ok (can 58 (beVal bs)).reverse
    (by intro d hd; exact can_lt 58 _ (by omega) d (by simpa using hd))
  have hcall : ∀ c ∈ List.replicate z 49 ++ cs, c ∈ charset := by
    intro c hc
    rcases List.mem_append.1 hc with hc | hc
    · rw [List.mem_replicate] at hc; rw [hc.2]; decide
    · exact c2 c hc
  refine ⟨List.replicate z 49 ++ cs, ?_, hcall, ?_⟩
  · rw [encode_digits bs hbne, c1, hz]; rfl
  · have hcsne : cs ≠ [] := by
      rintro rfl
      simp at c3
      exact can_ne_nil 58 (beVal bs) (by simpa using c3.symm)
    have hcsh : cs.head hcsne ≠ 49 := by
      intro h49
      have hc := (rev_charset _ (c2 _ (List.head_mem hcsne))).2.2.2.2.1 h49
      have hm : (cs.map charVal).head (by simpa using hcsne) = 0 := by rw [List.head_map]; exact hc
      simp only [c3] at hm
      rw [List.head_reverse] at hm
      have : can 58 (beVal bs) = Nat.digits 58 (beVal bs) := by rw [can, if_neg k2]
      simp only [this] at hm
      exact Nat.getLast_digit_ne_zero 58 k2 hm
    rw [decode_ok _ hcall, leadingOnes_replicate z cs hcsne hcsh]
    have hval : textVal (List.replicate z 49 ++ cs) = beVal bs := by
      rw [textVal_eq, List.map_append, c3]
      have h49 : charVal 49 = 0 := by decide
      rw [List.map_replicate, h49, List.reverse_append, List.reverse_reverse, List.reverse_replicate,
        Nat.ofDigits_append_replicate_zero, ofDigits_can]
    rw [hval, k1]
    congr 1
    have : (l.map UInt8.toNat).map UInt8.ofNat = l := by
      clear * -
      induction l with
      | nil => rfl
      | cons x l ih => simp at ih; simp [ih]
    rw [this, ← hsplit]

example : ∃ b ∈ ([0, 0, 7, 0] : Bytes), b ≠ 0 := ⟨7, by decide⟩

/-- What happens at the excluded all-zero inputs: `n ≥ 1` zero bytes are encoded
as `n` ones, which decode to `n + 1` zero bytes. -/
theorem C07_base58_zeros (n : Nat) (hn : 0 < n) :
    encode (List.replicate n 0) = .ok (List.replicate n 49) ∧
    decode (List.replicate n 49) = .ok (List.replicate (n + 1) 0) := by
  have hv : ∀ m, beVal (List.replicate m 0) = 0 := by
    intro m
    rw [beVal_eq, List.map_replicate]
    simp
  have hz : ∀ m, leadingZeros (List.replicate (m + 1) 0) = m := by
    intro m
    induction m with
    | zero => rfl
    | succ m ih =>
      rw [List.replicate_succ]
      cases hx : List.replicate (m + 1) (0 : UInt8) with
      | nil => simp at hx
      | cons y ys =>
        rw [leadingZeros, ← hx, ih]
        · simp
        · simp
  obtain ⟨m, rfl⟩ : ∃ m, n = m + 1 := ⟨n - 1, by omega⟩
  constructor
  · rw [encode_digits _ (by simp), hv, hz]
    have : chars (can 58 0).reverse = .ok [49] := by decide
    rw [this]
    simp only [Out.bind]
    rw [List.replicate_succ']
  · have ho : ∀ k, leadingOnes (List.replicate k 49) = k := by
      intro k
      induction k with
      | zero => rfl
      | succ k ih => rw [List.replicate_succ, leadingOnes, if_pos rfl, ih]
    have ht : textVal (List.replicate (m + 1) 49) = 0 := by
      rw [textVal_eq, List.map_replicate, show charVal 49 = 0 by decide]
      simp
    rw [decode_ok _ (by intro c hc; rw [List.mem_replicate] at hc; rw [hc.2]; decide), ho, ht]
    congr 1
    rw [List.replicate_succ' (n := m + 1)]
    rfl

theorem idxOf_charVal : ∀ c : UInt8, c ∈ specAlphabet → specAlphabet.idxOf c = charVal c :=
  forall_byte (by decide +kernel)

/-- The other direction of the round trip: a text over the alphabet with a
character other than `1` decodes to bytes with the same numeric value and the same
number of leading zeros, and re-encodes to itself. -/
theorem C07_base58_text_roundtrip (s : Bytes) (halpha : ∀ c ∈ s, c ∈ specAlphabet) (h : ∃ c ∈ s, c ≠ 49) :
    ∃ bs, decode s = .ok bs ∧ encode bs = .ok s ∧ specBytesValue bs = specTextValue s := by
  obtain ⟨l, hne, hsplit, hhead⟩ := split_text s h
  generalize hz : leadingOnes s = z at hsplit
  have hl : ∀ c ∈ l, c ∈ charset := by
    intro c hc; apply halpha; rw [hsplit]; exact List.mem_append_right _ hc
  have hmap : s.map charVal = List.replicate z 0 ++ l.map charVal := by
    rw [hsplit]; simp; right; decide
  have hlne : l.map charVal ≠ [] := by simpa using hne
  have hlh : (l.map charVal).head hlne ≠ 0 := by
    rw [List.head_map]
    intro h0
    exact hhead ((rev_charset _ (hl _ (List.head_mem hne))).2.2.2.2.2 h0)
  obtain ⟨k1, k2⟩ := strip_zeros (b := 58) (by omega) z (l.map charVal)
    (by intro d hd; obtain ⟨x, hx, rfl⟩ := List.mem_map.1 hd; exact (rev_charset x (hl x hx)).2.2.1) hlne hlh
  rw [← hmap, ← textVal_eq] at k1 k2
  have hv0 : textVal s ≠ 0 := k2
  generalize hbs : (can 256 (textVal s)).reverse.map UInt8.ofNat = tl
  have htlnat : tl.map UInt8.toNat = (can 256 (textVal s)).reverse := by
    rw [← hbs]
    have : ∀ d ∈ (can 256 (textVal s)).reverse, d < 256 := by
      intro d hd; exact can_lt 256 _ (by omega) d (by simpa using hd)
    generalize (can 256 (textVal s)).reverse = q at this
    induction q with
    | nil => rfl
    | cons x q ih =>
      have hx := this x (by simp)
      simp only [List.map_cons, ih (fun v hv => this v (by simp [hv])), UInt8.toNat_ofNat']
      rw [Nat.mod_eq_of_lt (by simpa using hx)]
  have htlne : tl ≠ [] := by
    intro h0; rw [h0] at htlnat; simp at htlnat
    exact can_ne_nil _ _ htlnat
  have htlh : tl.head htlne ≠ 0 := by
    intro h0
    have hm : (tl.map UInt8.toNat).head (by simpa using htlne) = 0 := by rw [List.head_map, h0]; rfl
    simp only [htlnat] at hm
    rw [List.head_reverse] at hm
    have : can 256 (textVal s) = Nat.digits 256 (textVal s) := by rw [can, if_neg hv0]
    simp only [this] at hm
    exact Nat.getLast_digit_ne_zero 256 hv0 hm
  have hval : beVal (List.replicate z 0 ++ tl) = textVal s := by
    rw [beVal_eq, List.map_append, htlnat, List.map_replicate]
    show Nat.ofDigits 256 (List.replicate z 0 ++ _).reverse = _
    rw [List.reverse_append, List.reverse_reverse, List.reverse_replicate,
      Nat.ofDigits_append_replicate_zero, ofDigits_can]
  refine ⟨List.replicate z 0 ++ tl, ?_, ?_, ?_⟩
  · rw [decode_ok s halpha, hz, hbs]
  · rw [encode_digits _ (by simp [htlne]), hval, k1, chars_val l hl, leadingZeros_replicate z tl htlne htlh]
    simp only [Out.bind]
    rw [← hsplit]
  · have hb : ∀ x : Bytes, specBytesValue x = beVal x := by
      intro x
      rw [beVal_eq]
      induction x with
      | nil => rfl
      | cons b x ih =>
        rw [specBytesValue, ih, List.map_cons, List.reverse_cons, Nat.ofDigits_append]
        simp; ring
    have ht : ∀ x : Bytes, (∀ c ∈ x, c ∈ specAlphabet) → specTextValue x = textVal x := by
      intro x hx
      rw [textVal_eq]
      induction x with
      | nil => rfl
      | cons b x ih =>
        rw [specTextValue, ih (fun c hc => hx c (by simp [hc])), List.map_cons, List.reverse_cons,
          Nat.ofDigits_append, idxOf_charVal b (hx b (by simp))]
        simp; ring
    rw [hb, hval, ht s halpha]

example : (∀ c ∈ ascii "112NEpo7TZ", c ∈ specAlphabet) ∧ ∃ c ∈ ascii "112NEpo7TZ", c ≠ 49 := by decide +kernel

/-- **C08.** Encoding any non-empty byte string stays inside the digit buffer (an
overrun would be `ub`), returns normally and yields only alphabet characters. -/
theorem C08_base58_encode_in_bounds (bs : Bytes) (hne : bs ≠ []) :
    ∃ s, encode bs = .ok s ∧ ∀ c ∈ s, c ∈ specAlphabet := by
  obtain ⟨cs, c1, c2, _, _⟩ := chars_ok (can 58 (beVal bs)).reverse
    (by intro d hd; exact can_lt 58 _ (by omega) d (by simpa using hd))
  refine ⟨List.replicate (leadingZeros bs) 49 ++ cs, ?_, ?_⟩
  · rw [encode_digits bs hne, c1]; rfl
  · intro c hc
    rcases List.mem_append.1 hc with hc | hc
    · rw [List.mem_replicate] at hc; rw [hc.2]; decide
    · exact c2 c hc

/-- The bound is about the real loop: one digit less of buffer would overflow
already for a single byte. -/
example : encLoop (1 * 138 / 100) [0] [255] = .ub ∧ encode [255] = .ok (ascii "5Q") := by decide +kernel

/-- **C09 is false of the code**: `'0'`, `'O'`, `'I'`, `'l'` and all other ASCII
characters outside the alphabet are accepted. -/
theorem C09_base58_accepts_invalid :
    decode (ascii "0") = .ok [255, 255, 255, 255] ∧ ¬ (48 : UInt8) ∈ specAlphabet := by decide +kernel

/-- **C09 (partial).** Missing: ASCII characters outside the alphabet, which are
silently accepted (`C09_base58_accepts_invalid`,
`C09_base58_accepts_iff`).  Any string with a byte ≥ 128 is
rejected with an exception. -/
theorem C09_base58_rejects_nonascii_partial (s : Bytes) (h : ∃ c ∈ s, c.toNat ≥ 128) :
    decode s = .throw .invalidArgument := by
  have key : ∀ (s : Bytes) (r : List Nat), (∃ c ∈ s, c.toNat ≥ 128) → decLoop r s = .throw .invalidArgument := by
    intro s
    induction s with
    | nil => intro r h; simp at h
    | cons c s ih =>
      intro r h
      rw [decLoop]
      by_cases hc : c.toNat ≥ 128
      · rw [if_pos hc]
      · rw [if_neg hc]
        have hs : ∃ x ∈ s, x.toNat ≥ 128 := by
          obtain ⟨x, hx, hx2⟩ := h
          rcases List.mem_cons.1 hx with rfl | hx
          · exact absurd hx2 hc
          · exact ⟨x, hx, hx2⟩
        have hlen : c.toNat < charsetRev.length := by
          have : charsetRev.length = 128 := by decide +kernel
          omega
        rw [List.getElem?_eq_getElem hlen]
        exact ih _ hs
  unfold decode
  rw [key s [0] h]
  rfl

example : ∃ c ∈ ([49, 200] : Bytes), c.toNat ≥ 128 := ⟨200, by decide⟩

/-- Decoding never leaves defined behaviour, for any input. -/
theorem C09_base58_decode_defined (s : Bytes) : (decode s).defined = true := by
  have key : ∀ (s : Bytes) (r : List Nat), (decLoop r s).defined = true := by
    intro s
    induction s with
    | nil => intro r; rfl
    | cons c s ih =>
      intro r
      rw [decLoop]
      split
      · rfl
      · have hlen : c.toNat < charsetRev.length := by
          have : charsetRev.length = 128 := by decide +kernel
          omega
        rw [List.getElem?_eq_getElem hlen]
        exact ih _
  unfold decode
  have := key s [0]
  cases h : decLoop [0] s with
  | ok _ => rfl
  | throw _ => rfl
  | ub => rw [h] at this; exact this

/-- **C09, exactly when.** `decode` accepts precisely the ASCII strings. -/
theorem C09_base58_accepts_iff (s : Bytes) : (∃ b, decode s = .ok b) ↔ ∀ c ∈ s, c.toNat < 128 := by
  constructor
  · rintro ⟨b, hb⟩ c hc
    apply Nat.lt_of_not_le
    intro h
    rw [C09_base58_rejects_nonascii_partial s ⟨c, hc, h⟩] at hb
    cases hb
  · intro h
    have key : ∀ (s : Bytes) (r : List Nat), (∀ c ∈ s, c.toNat < 128) → ∃ r', decLoop r s = .ok r' := by
      intro s
      induction s with
      | nil => intro r _; exact ⟨r, rfl⟩
      | cons c s ih =>
        intro r h
        have hc := h c (by simp)
        have hlen : c.toNat < charsetRev.length := by
          have : charsetRev.length = 128 := by decide +kernel
          omega
        rw [decLoop, if_neg (by omega), List.getElem?_eq_getElem hlen]
        exact ih _ fun x hx => h x (by simp [hx])
    obtain ⟨r, hr⟩ := key s [0] h
    exact ⟨_, by rw [decode, hr]; rfl⟩

/-- A published test vector. -/
example : encode (ascii "Hello World!") = .ok (ascii "2NEpo7TZRRrLZSi2U") := by decide +kernel

end Cardano.Base58
