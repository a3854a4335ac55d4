import Verif.Lemmas.Cbor
import Verif.Lemmas.Crc
import Verif.Props.Base58

/-! # C14, C15: Byron addresses -/

namespace Cardano.Byron
open Cbor

/-- The address values the C++ object can hold: a 28-byte root, a 32-bit magic, and a
ciphertext of a length that fits in memory. -/
def Valid (a : Addr) : Prop := a.root.length = 28 ∧ a.magic < 2 ^ 32 ∧ a.ciphertext.length < 2 ^ 60

theorem encHeader_length_le (m n : Nat) : (encHeader m n).length ≤ 9 := by
  unfold encHeader
  split
  · simp
  · split
    · simp [Util.packBE_length]
    · split
      · simp [Util.packBE_length]
      · split <;> simp [Util.packBE_length]

theorem wf_attr (a : Addr) (h : Valid a) : WF (.map (attrMap a)) := by
  have hb : (enc (.bstr a.ciphertext)).length < 2 ^ 62 := by
    have := encHeader_length_le 2 a.ciphertext.length
    have := h.2.2
    simp only [enc, List.length_append]; omega
  have hu : (enc (.uint a.magic)).length < 2 ^ 62 := by
    have := encHeader_length_le 0 a.magic
    simp only [enc]; omega
  unfold attrMap
  have hl : ((if a.ciphertext.length > 0 then [Item.uint 1, .bstr (enc (.bstr a.ciphertext))] else []) ++
      (if a.magic ≠ 0 then [Item.uint 2, .bstr (enc (.uint a.magic))] else [])).length ≤ 4 ∧
      ((if a.ciphertext.length > 0 then [Item.uint 1, .bstr (enc (.bstr a.ciphertext))] else []) ++
      (if a.magic ≠ 0 then [Item.uint 2, .bstr (enc (.uint a.magic))] else [])).length % 2 = 0 := by
    split <;> split <;> simp
  refine .map (by omega) hl.2 ?_
  intro i hi
  rw [List.mem_append] at hi
  rcases hi with hi | hi
  · split at hi
    · simp only [List.mem_cons, List.not_mem_nil, or_false] at hi
      rcases hi with rfl | rfl
      · exact .uint (by omega)
      · exact .bstr (by omega)
    · simp at hi
  · split at hi
    · simp only [List.mem_cons, List.not_mem_nil, or_false] at hi
      rcases hi with rfl | rfl
      · exact .uint (by omega)
      · exact .bstr (by omega)
    · simp at hi

theorem wf_payload (a : Addr) (h : Valid a) :
    WF (.array [.bstr a.root, .map (attrMap a), .uint (typeToUint a.type)]) := by
  refine .array (by simp) ?_
  intro i hi
  simp only [List.mem_cons, List.not_mem_nil, or_false] at hi
  rcases hi with rfl | rfl | rfl
  · exact .bstr (by rw [h.1]; omega)
  · exact wf_attr a h
  · exact .uint (by cases a.type <;> simp [typeToUint])

theorem lookup_attr (a : Addr) :
    lookup 1 (attrMap a) = (if a.ciphertext.length > 0 then some (.bstr (enc (.bstr a.ciphertext))) else none) ∧
    lookup 2 (attrMap a) = (if a.magic ≠ 0 then some (.bstr (enc (.uint a.magic))) else none) := by
  unfold attrMap
  split <;> split <;> simp [lookup]

theorem wf_wrap (p : Bytes) (c : Nat) (hp : p.length < 2 ^ 64) (hc : c < 2 ^ 64) :
    WF (.array [.tag 24 (.bstr p), .uint c]) := by
  refine .array (by simp) ?_
  intro i hi
  simp only [List.mem_cons, List.not_mem_nil, or_false] at hi
  rcases hi with rfl | rfl
  · exact .tag (by omega) (.bstr hp)
  · exact .uint hc

theorem encList_length_attr (a : Addr) (h : Valid a) : (encList (attrMap a)).length ≤ 2 ^ 61 := by
  have h1 := encHeader_length_le 2 a.ciphertext.length
  have h2 := encHeader_length_le 2 (enc (.bstr a.ciphertext)).length
  have h3 := encHeader_length_le 0 a.magic
  have h4 := encHeader_length_le 2 (enc (.uint a.magic)).length
  have h5 := encHeader_length_le 0 1
  have h6 := encHeader_length_le 0 2
  have := h.2.2
  simp only [enc, List.length_append] at h2 h4
  unfold attrMap
  split <;> split <;> simp only [encList, enc, List.length_append, List.length_nil, List.nil_append, List.append_nil, List.cons_append] <;> omega

theorem payload_length (a : Addr) (h : Valid a) : (payloadOf a).length < 2 ^ 64 := by
  have h1 := encList_length_attr a h
  have h2 := encHeader_length_le 4 3
  have h3 := encHeader_length_le 2 a.root.length
  have h4 := encHeader_length_le 5 ((attrMap a).length / 2)
  have h5 := encHeader_length_le 0 (typeToUint a.type)
  have := h.1
  unfold payloadOf
  simp only [enc, encList, List.length_append, List.length_nil, List.length_cons, Nat.zero_add, Nat.reduceAdd]
  omega

theorem deref_some {α} (x : α) : deref (some x) = .ok x := rfl

/-- What the decoder does with a wrapped payload. -/
theorem fromCBORBody_wrap (p : Bytes) (c : Nat) (hp : p.length < 2 ^ 64) (hc : c < 2 ^ 64) (rest : Bytes)
    (hne : crc32 p ≠ c % 2 ^ 32) : fromCBORBody (wrap p c ++ rest) = .throw .invalidArgument := by
  unfold fromCBORBody cborDecode wrap
  rw [parse_enc_append _ (wf_wrap p c hp hc)]
  simp only [Out.ok_bind, asArray, untag, deref, Cbor.get, List.getElem?_cons_zero, List.getElem?_cons_succ, asBstr, asUint]
  rw [if_pos hne]

theorem fromCBOR_wrap_payload (a : Addr) (h : Valid a) (c : Nat) (hc : c < 2 ^ 64)
    (hcrc : c % 2 ^ 32 = crc32 (payloadOf a)) (rest : Bytes) :
    fromCBOR (wrap (payloadOf a) c ++ rest) =
      .ok { a with type := if a.type = .redeem then .script else a.type } := by
  unfold fromCBOR fromCBORBody
  have e0 : cborDecode (wrap (payloadOf a) c ++ rest) = .ok (.array [.tag 24 (.bstr (payloadOf a)), .uint c]) := by
    unfold cborDecode wrap
    rw [parse_enc_append _ (wf_wrap _ _ (payload_length a h) hc)]
  have e1 : cborDecode (payloadOf a) = .ok (.array [.bstr a.root, .map (attrMap a), .uint (typeToUint a.type)]) := by
    unfold cborDecode payloadOf
    rw [parse_enc _ (wf_payload a h)]
  have e2 : copyRoot a.root = .ok a.root := by
    unfold copyRoot; have := h.1; rw [if_pos (by omega), h.1]; simp
  have e3 : cborDecode (enc (.bstr a.ciphertext)) = .ok (.bstr a.ciphertext) := by
    unfold cborDecode
    rw [parse_enc _ (.bstr (by have := h.2.2; omega))]
  have e4 : cborDecode (enc (.uint a.magic)) = .ok (.uint a.magic) := by
    unfold cborDecode
    rw [parse_enc _ (.uint (by have := h.2.1; omega))]
  obtain ⟨l1, l2⟩ := lookup_attr a
  have c1 : decodeCiphertext (attrMap a) = Out.ok a.ciphertext := by
    unfold decodeCiphertext
    rw [l1]
    split
    · rename_i heq
      split at heq
      · simp at heq
      · have : a.ciphertext = [] := by
          rename_i hz
          exact List.eq_nil_of_length_eq_zero (by omega)
        rw [this]
    · rename_i v heq
      split at heq
      · injection heq with heq; subst heq
        simp [asBstr, untag, deref, e3]
      · simp at heq
  have c2 : decodeMagic (attrMap a) = Out.ok a.magic := by
    unfold decodeMagic
    rw [l2]
    split
    · rename_i heq
      split at heq
      · simp at heq
      · rename_i hz
        have : a.magic = 0 := by simpa using hz
        rw [this]
    · rename_i v heq
      split at heq
      · injection heq with heq; subst heq
        simp [asBstr, asUint, untag, deref, e4]
        exact h.2.1
      · simp at heq
  have e5 : asArray (.array [.tag 24 (.bstr (payloadOf a)), .uint c]) = some [.tag 24 (.bstr (payloadOf a)), .uint c] := rfl
  have e6 : asArray (.array [.bstr a.root, .map (attrMap a), .uint (typeToUint a.type)]) =
    some [.bstr a.root, .map (attrMap a), .uint (typeToUint a.type)] := rfl
  have e7 : asBstr (.tag 24 (.bstr (payloadOf a))) = some (payloadOf a) := rfl
  have e8 : asMap (.map (attrMap a)) = some (attrMap a) := rfl
  have e9 : asBstr (.bstr a.root) = some a.root := rfl
  have e10 : ∀ n, asUint (.uint n) = some n := fun _ => rfl
  simp only [e0, Out.ok_bind, e5, e6, deref_some, Cbor.get, List.getElem?_cons_zero, List.getElem?_cons_succ, e7, e10, hcrc,
    ne_eq, not_true_eq_false, if_false, e1, e9, e2, e8]
  rw [c1]
  simp only [Out.ok_bind]
  rw [c2]
  simp only [Out.ok_bind, Out.pure_eq]
  cases ht : a.type <;> simp [typeToUint, uintToType]

/-- **C14 (public-key and script addresses).** Every valid address of these types is
restored from its CBOR form and from its Base58 text.  Missing: redeem addresses, for
which the claim is false (next theorem). -/
theorem C14_roundtrip_partial (a : Addr) (h : Valid a) (ht : a.type ≠ .redeem) :
    fromCBOR (toCBOR a) = .ok a ∧ ∃ s, toBase58 a = .ok s ∧ fromBase58 s = .ok a := by
  have h1 : fromCBOR (toCBOR a) = .ok a := by
    have := fromCBOR_wrap_payload a h (crc32 (payloadOf a)) (by have := crc32_lt (payloadOf a); omega)
      (Nat.mod_eq_of_lt (crc32_lt _)) []
    rw [List.append_nil, if_neg ht] at this
    exact this
  refine ⟨h1, ?_⟩
  have hne : ∃ b ∈ toCBOR a, b ≠ 0 := by
    refine ⟨0x82, ?_, by decide⟩
    unfold toCBOR wrap
    simp [enc, encHeader]
  obtain ⟨s, e1, _, e2⟩ := Base58.C07_base58_roundtrip_partial (toCBOR a) hne
  exact ⟨s, e1, by unfold fromBase58; rw [e2]; exact h1⟩

/-- **C14 is false of the code for redeem addresses**: every one comes back as a script
address. -/
theorem C14_redeem_becomes_script (a : Addr) (h : Valid a) (ht : a.type = .redeem) :
    fromCBOR (toCBOR a) = .ok { a with type := .script } ∧ ({ a with type := .script } : Addr) ≠ a := by
  have := fromCBOR_wrap_payload a h (crc32 (payloadOf a)) (by have := crc32_lt (payloadOf a); omega)
    (Nat.mod_eq_of_lt (crc32_lt _)) []
  rw [List.append_nil, if_pos ht] at this
  refine ⟨this, ?_⟩
  intro hc
  have := congrArg Addr.type hc
  simp [ht] at this

example : Valid ⟨List.replicate 28 5, [1, 2, 3], 764824073, .pubkey⟩ := by
  refine ⟨by decide, by decide, by decide⟩

/-- **C15 (checksum is checked).** Whenever `fromCBOR` returns an address, the input starts
with a CBOR array whose first element is a (tagged) byte string and whose second is a
number equal, modulo `2^32`, to the CRC-32 of that byte string.
Missing: equality of the stored number itself; false of the code (C15_checksum_truncated). -/
theorem C15_checksum_checked_partial (b : Bytes) (a : Addr) (h : fromCBOR b = .ok a) :
    ∃ (item : Item) (arr : List Item) (i0 i1 : Item) (payload : Bytes) (crc : Nat),
      parse b = some item ∧ asArray item = some arr ∧ arr[0]? = some i0 ∧ asBstr i0 = some payload ∧
      arr[1]? = some i1 ∧ asUint i1 = some crc ∧ crc32 payload = crc % 2 ^ 32 := by
  have dr : ∀ {α} {o : Option α} {x : α}, deref o = .ok x → o = some x := by
    intro α o x h; cases o <;> simp [deref] at h; rw [h]
  have hb : fromCBORBody b = .ok a := by
    unfold fromCBOR at h
    split at h
    · simp at h
    · exact h
  unfold fromCBORBody at hb
  rw [Out.bind_eq_ok] at hb
  obtain ⟨item, h1, hb⟩ := hb
  rw [Out.bind_eq_ok] at hb
  obtain ⟨arr, h2, hb⟩ := hb
  rw [Out.bind_eq_ok] at hb
  obtain ⟨payload, h3, hb⟩ := hb
  rw [Out.bind_eq_ok] at h3
  obtain ⟨i0, h3, h4⟩ := h3
  rw [Out.bind_eq_ok] at hb
  obtain ⟨crc, h5, hb⟩ := hb
  rw [Out.bind_eq_ok] at h5
  obtain ⟨i1, h5, h6⟩ := h5
  split at hb
  · simp at hb
  · rename_i hc
    refine ⟨item, arr, i0, i1, payload, crc, ?_, dr h2, dr h3, dr h4, dr h5, dr h6, by simpa using hc⟩
    unfold cborDecode at h1
    split at h1
    · rename_i heq; injection h1 with h1; rw [heq, h1]
    · simp at h1

/-- **C15 (corruption is detected).** Take the bytes of any address made of a payload and its
CRC-32.  Replace the payload by one whose bits (bytes in order, least significant bit
first) differ from the original ones only inside a window of at most 32 consecutive
bits: the result is refused with `invalid_argument`, whatever follows it. -/
theorem C15_burst_rejected (p p' : Bytes) (hp : p'.length < 2 ^ 64) (hne : p ≠ p') (hlen : p.length = p'.length)
    (pre w w' post : List Bool) (h1 : bitsOf p = pre ++ w ++ post) (h2 : bitsOf p' = pre ++ w' ++ post)
    (hw : w.length = w'.length) (h32 : w.length ≤ 32) (rest : Bytes) :
    fromCBOR (wrap p' (crc32 p) ++ rest) = .throw .invalidArgument := by
  have hcrc : crc32 p' ≠ crc32 p := by
    intro hc
    unfold crc32 at hc
    have hc := BitVec.eq_of_toNat_eq hc
    have hx : (bitsOf p').foldl crcBit 0xFFFFFFFF#32 = (bitsOf p).foldl crcBit 0xFFFFFFFF#32 := by
      have := congrArg (· ^^^ 0xFFFFFFFF#32) hc
      simpa only [BitVec.xor_assoc, BitVec.xor_self, BitVec.xor_zero] using this
    rw [h1, h2] at hx
    have hww := crc_burst pre w w' post _ hw h32 hx.symm
    apply hne
    subst hww
    exact bits_inj hlen (h1.trans h2.symm)
  have hb := fromCBORBody_wrap p' (crc32 p) hp (by have := crc32_lt p; omega) rest
    (by rw [Nat.mod_eq_of_lt (crc32_lt p)]; exact hcrc)
  unfold fromCBOR
  rw [hb]
where
  bits_inj : ∀ {p p' : Bytes}, p.length = p'.length → bitsOf p = bitsOf p' → p = p' := by
    intro p
    induction p with
    | nil => intro p' hl _; cases p' <;> simp_all
    | cons b p ih =>
      intro p' hl h
      cases p' with
      | nil => simp at hl
      | cons c p' =>
        simp only [bitsOf, List.flatMap_cons] at h
        have hlen : ((List.range 8).map fun i => b.toNat.testBit i).length =
          ((List.range 8).map fun i => c.toNat.testBit i).length := by simp
        obtain ⟨hbc, hrest⟩ := List.append_inj h hlen
        have hbits : ∀ i < 8, b.toNat.testBit i = c.toNat.testBit i := by
          intro i hi
          have := congrArg (fun l => l[i]?) hbc
          simpa [hi] using this
        have : b = c := by
          apply UInt8.toNat_inj.mp
          apply Nat.eq_of_testBit_eq
          intro i
          by_cases hi : i < 8
          · exact hbits i hi
          · have hb := b.toNat_lt
            have hc := c.toNat_lt
            have h8 : 2 ^ 8 ≤ 2 ^ i := Nat.pow_le_pow_right (by omega) (by omega)
            rw [Nat.testBit_lt_two_pow (by omega), Nat.testBit_lt_two_pow (by omega)]
        rw [this, ih (by simpa using hl) hrest]

-- the hypotheses: two payloads differing in one byte (a window of 8 bits)
example : ∃ (p p' : Bytes) (pre w w' post : List Bool), p ≠ p' ∧ p.length = p'.length ∧
    bitsOf p = pre ++ w ++ post ∧ bitsOf p' = pre ++ w' ++ post ∧ w.length = w'.length ∧ w.length ≤ 32 :=
  ⟨[1, 2, 3], [1, 7, 3], bitsOf [1], bitsOf [2], bitsOf [7], bitsOf [3], by decide, by decide, by decide +kernel,
    by decide +kernel, by decide, by decide⟩

/-- **C15 is false of the code in one respect**: the stored checksum is cut to 32 bits before
the comparison, so a valid address stays accepted when a multiple of `2^32` is added to
its stored checksum. -/
theorem C15_checksum_truncated (a : Addr) (h : Valid a) (ht : a.type ≠ .redeem) (k : Nat) (hk : k < 2 ^ 31) :
    fromCBOR (wrap (payloadOf a) (crc32 (payloadOf a) + k * 2 ^ 32)) = .ok a := by
  have hlt := crc32_lt (payloadOf a)
  have := fromCBOR_wrap_payload a h (crc32 (payloadOf a) + k * 2 ^ 32) (by omega)
    (by rw [Nat.add_mul_mod_self_right, Nat.mod_eq_of_lt hlt]) []
  rw [List.append_nil, if_neg ht] at this
  exact this

/-- The CRC model agrees with the published check value of CRC-32. -/
example : crc32 (ascii "123456789") = 0xCBF43926 := by decide +kernel

end Cardano.Byron
