import Verif.Model.ByronKey
import Verif.Spec.Byron
import Verif.Props.Byron
import Verif.Props.ByronCrc
import Verif.Props.Bip32

/-! # Byron addresses: wire format and derivation from keys (C14, C79) -/

namespace Cardano.Byron

open Cbor Bip32 Ed Cardano.Spec.Byron Cardano.Spec.Bip32

theorem byteOf_pack (n i : Nat) : UInt8.ofNat ((n >>> (8 * i)) &&& 0xFF) = byteOf n i := by
  unfold byteOf
  rw [Nat.shiftRight_eq_div_pow, show (0xFF : Nat) = 2 ^ 8 - 1 by rfl, Nat.and_two_pow_sub_one_eq_mod,
    Nat.pow_mul, show (2 : Nat) ^ 8 = 256 by rfl]
  apply UInt8.toNat_inj.mp
  simp

theorem encHeader_head (m n : Nat) : encHeader m n = head m n := by
  unfold encHeader head
  simp only [Util.packBE, show List.range 1 = [0] by rfl, show List.range 2 = [0, 1] by rfl,
    show List.range 4 = [0, 1, 2, 3] by rfl, show List.range 8 = [0, 1, 2, 3, 4, 5, 6, 7] by rfl, List.map_cons,
    List.map_nil, byteOf_pack]

theorem encList_flatten (l : List Nat) : encList (l.map .uint) = (l.map uintB).flatten := by
  induction l with
  | nil => rfl
  | cons x l ih => simp only [List.map_cons, encList, ih, enc, List.flatten_cons, uintB, encHeader_head]

theorem head_length (m n : Nat) (h : 24 ≤ n) : 2 ≤ (head m n).length := by
  unfold head
  rw [if_neg (by omega)]
  split
  · simp
  split
  · simp
  split <;> simp

/-- **C79** The plaintext of the derivation path is the specified one exactly for paths of
fewer than 24 indices; for longer ones the array length stays behind as an extra first
element. -/
theorem C79_path_format (path : List Nat) : pathPlaintext path = pathB path ↔ path.length < 24 := by
  unfold pathPlaintext pathB
  simp only [enc, encHeader_head, encList_flatten, List.length_map]
  constructor
  · intro h
    by_contra hn
    have h1 := congrArg List.length h
    have h2 := head_length 4 path.length (by omega)
    simp only [List.cons_append, List.length_cons, List.length_append, List.length_drop, List.length_nil,
      List.nil_append] at h1
    omega
  · intro h
    unfold head
    rw [if_pos h]
    rfl

theorem attrs_format (a : Attrs) :
    enc (.map (rootAttrs a)) = attributesB (if a.ciphertext = [] then none else some a.ciphertext)
      (if a.magic = 0 then none else some a.magic) := by
  obtain ⟨c, m⟩ := a
  unfold rootAttrs attributesB
  cases c with
  | nil =>
    by_cases hm : m = 0
    · simp [hm, enc, encList, encHeader]
    · simp [hm, enc, encList, encHeader_head, bytesB, uintB]
      simp [head]
  | cons x c =>
    by_cases hm : m = 0
    · simp [hm, enc, encList, encHeader_head, bytesB]
      simp [head]
    · simp [hm, enc, encList, encHeader_head, bytesB, uintB]
      simp [head]

/-- The type number a Byron node expects. -/
def nodeType : AddrType → Nat
  | .pubkey => 0
  | .script => 1
  | .redeem => 2

/-- **C14** `toCBOR` writes exactly the published format, except that redeem addresses get the
type number of script addresses. -/
theorem C14_wire_format (a : Addr) :
    toCBOR a = addressB (payloadB a.root (attributesB (if a.ciphertext = [] then none else some a.ciphertext)
      (if a.magic = 0 then none else some a.magic)) (if a.type = .redeem then 1 else nodeType a.type)) := by
  have hp : payloadOf a = payloadB a.root (attributesB (if a.ciphertext = [] then none else some a.ciphertext)
      (if a.magic = 0 then none else some a.magic)) (if a.type = .redeem then 1 else nodeType a.type) := by
    rw [← attrs_format ⟨a.ciphertext, a.magic⟩]
    unfold payloadOf payloadB
    simp only [enc, encList, bytesB, uintB, encHeader_head]
    cases a.type <;> simp [typeToUint, nodeType, attrMap, rootAttrs] <;> simp [head]
  unfold toCBOR wrap
  rw [C15_crc32_standard, hp]
  unfold addressB
  simp only [enc, encList, bytesB, uintB, encHeader_head]
  simp [head]
  decide

/-- **C79** The ciphertext of the attributes made from a root public key opens, with the key
stretched from that public key and its chain code, to the derivation path. -/
theorem C79_path_recoverable (P : Prims) (Y : Crypto) (xpub : Pub) (path : List UInt32) (magic : Nat)
    (h : path.length < 24) :
    Y.aeadOpen (P.pbkdf2 500 (xpub.key ++ xpub.cc) pathSalt 32) pathNonce (attrsFromKey P Y xpub path magic).ciphertext =
      some (pathB (path.map UInt32.toNat)) ∧
    (attrsFromKey P Y xpub path magic).magic = magic := by
  unfold attrsFromKey
  refine ⟨?_, rfl⟩
  rw [(C79_path_format _).mpr (by simpa using h)]
  exact Y.open_aead _ _ _

theorem uintB_cancel (x y : Nat) (R S : Bytes) (hx : x < 2 ^ 64) (hy : y < 2 ^ 64)
    (h : uintB x ++ R = uintB y ++ S) : x = y ∧ R = S := by
  have e1 := parse_enc_append (.uint x) (.uint hx) R
  have e2 := parse_enc_append (.uint y) (.uint hy) S
  simp only [enc, encHeader_head] at e1 e2
  unfold uintB at h
  rw [h, e2] at e1
  simp only [Option.some.injEq, Item.uint.injEq] at e1
  subst e1
  exact ⟨rfl, List.append_cancel_left h⟩

theorem uintB_cons (x : Nat) (hx : x < 2 ^ 64) : ∃ b t, uintB x = b :: t ∧ b ≠ 0xFF := by
  unfold uintB head
  split
  · refine ⟨_, _, rfl, ?_⟩
    rename_i h
    intro he
    have := congrArg UInt8.toNat he
    simp at this
    omega
  split
  · exact ⟨_, _, rfl, by decide⟩
  split
  · exact ⟨_, _, rfl, by decide⟩
  split
  · exact ⟨_, _, rfl, by decide⟩
  · exact ⟨_, _, rfl, by decide⟩

/-- The plaintext determines the path. -/
theorem pathB_inj (l m : List Nat) (hl : ∀ x ∈ l, x < 2 ^ 64) (hm : ∀ x ∈ m, x < 2 ^ 64)
    (h : pathB l = pathB m) : l = m := by
  unfold pathB at h
  simp only [List.cons_append, List.nil_append, List.cons.injEq, true_and] at h
  induction l generalizing m with
  | nil =>
    cases m with
    | nil => rfl
    | cons y m =>
      obtain ⟨b, t, e, hb⟩ := uintB_cons y (hm y (by simp))
      simp only [List.map_nil, List.flatten_nil, List.nil_append, List.map_cons, List.flatten_cons, e,
        List.cons_append, List.cons.injEq] at h
      exact absurd h.1.symm hb
  | cons x l ih =>
    cases m with
    | nil =>
      obtain ⟨b, t, e, hb⟩ := uintB_cons x (hl x (by simp))
      simp only [List.map_nil, List.flatten_nil, List.nil_append, List.map_cons, List.flatten_cons, e,
        List.cons_append, List.cons.injEq] at h
      exact absurd h.1 hb
    | cons y m =>
      simp only [List.map_cons, List.flatten_cons, List.append_assoc] at h
      obtain ⟨rfl, h2⟩ := uintB_cancel x y _ _ (hl x (by simp)) (hm y (by simp)) h
      rw [ih m (fun a ha => hl a (by simp [ha])) (fun a ha => hm a (by simp [ha])) h2]

/-- The root key is a key with a public key (`C30` shows it for every key the library makes
from a seed or phrase). -/
theorem fromRootKey_ok (C : Curve) (P : Prims) (Y : Crypto) (k : Prv) (path : List UInt32) (magic : Nat) (a : Addr)
    (h : fromRootKey C P Y k path magic = .ok a) :
    ∃ i j pub c1 c2 cpub, path = [i, j] ∧ k.publicKey C = .ok pub ∧ k.deriveChild C P i .v1 = .ok c1 ∧
      c1.deriveChild C P j .v1 = .ok c2 ∧ c2.publicKey C = .ok cpub ∧
      a = ⟨sha3Blake Y (rootBytes cpub (attrsFromKey P Y pub path magic)),
        (attrsFromKey P Y pub path magic).ciphertext, magic, .pubkey⟩ := by
  unfold fromRootKey at h
  obtain ⟨pub, h1, h2⟩ := Out.bind_eq_ok.mp h
  match path, h2 with
  | [], h2 => cases h2
  | [_], h2 => cases h2
  | [i, j], h2 =>
    obtain ⟨c1, h3, h4⟩ := Out.bind_eq_ok.mp h2
    obtain ⟨c2, h5, h6⟩ := Out.bind_eq_ok.mp h4
    obtain ⟨cpub, h7, h8⟩ := Out.bind_eq_ok.mp h6
    exact ⟨i, j, pub, c1, c2, cpub, rfl, h1, h3, h5, h7, (Out.ok.inj h8).symm⟩
  | _ :: _ :: _ :: _, h2 => cases h2

theorem cipher_length (P : Prims) (Y : Crypto) (pub : Pub) (path : List UInt32) (magic : Nat) :
    2 ≤ (attrsFromKey P Y pub path magic).ciphertext.length ∧
    (attrsFromKey P Y pub path magic).ciphertext.length ≤ 27 + 9 * path.length := by
  unfold attrsFromKey
  simp only [Y.aead_length]
  unfold pathPlaintext
  have h1 : ∀ l : List Nat, (encList (l.map .uint)).length ≤ 9 * l.length := by
    intro l
    induction l with
    | nil => simp [encList]
    | cons x l ih =>
      simp only [List.map_cons, encList, enc, List.length_append, List.length_cons]
      have := encHeader_length_le 0 x
      omega
  have h2 := h1 (path.map UInt32.toNat)
  have h3 := encHeader_length_le 4 path.length
  simp only [enc, List.length_cons, List.length_append, List.length_drop, List.length_map, List.length_nil,
    List.cons_append] at *
  omega

/-- **C79** An address made by `fromRootKey` is the address of the specification: its root is
the double hash of the spending data — the public key of the V1 grandchild — and of the same
attributes the address carries; the magic is the caller's; and whoever knows the root public
key and chain code recovers the derivation path from it. -/
theorem C79_fromRootKey (C : Curve) (P : Prims) (Y : Crypto) (k : Prv) (hk : k.WF) (path : List UInt32) (magic : Nat) (a : Addr)
    (h : fromRootKey C P Y k path magic = .ok a) :
    ∃ (i j : UInt32) (pub p1 p2 : Pub) (c1 c2 : Prv), path = [i, j] ∧ k.publicKey C = .ok pub ∧
      IsChildV1 ellL P.hmac k.key pub.key k.cc i.toNat c1.key c1.cc ∧ c1.publicKey C = .ok p1 ∧
      IsChildV1 ellL P.hmac c1.key p1.key c1.cc j.toNat c2.key c2.cc ∧ c2.publicKey C = .ok p2 ∧
      a.type = .pubkey ∧ a.magic = magic ∧
      a.root = Y.blake224 (Y.sha3 (rootPreimage (p2.key ++ p2.cc)
        (attributesB (some a.ciphertext) (if magic = 0 then none else some magic)))) ∧
      Y.aeadOpen (P.pbkdf2 500 (pub.key ++ pub.cc) pathSalt 32) pathNonce a.ciphertext =
        some (pathB [i.toNat, j.toNat]) := by
  obtain ⟨i, j, pub, c1, c2, cpub, rfl, h1, h2, h3, h4, rfl⟩ := fromRootKey_ok C P Y k path magic a h
  obtain ⟨c1', e1, e2⟩ := C34_v1_is_historical_child C P k hk i pub h1
  rw [h2] at e1
  obtain rfl := Out.ok.inj e1
  have hd : ¬ ellL ∣ kL k.key := (publicKey_ok h1).1
  obtain ⟨c1', g1, hw1, -⟩ := deriveChild_prv C P k hk i .v1 hd
  rw [h2] at g1
  obtain rfl := Out.ok.inj g1
  have hp1 : ∃ p1, c1.publicKey C = .ok p1 := by
    unfold Prv.deriveChild at h3
    obtain ⟨p1, g1, -⟩ := Out.bind_eq_ok.mp h3
    exact ⟨p1, g1⟩
  obtain ⟨p1, hp1⟩ := hp1
  obtain ⟨c2', e3, e4⟩ := C34_v1_is_historical_child C P c1 hw1 j p1 hp1
  rw [h3] at e3
  obtain rfl := Out.ok.inj e3
  refine ⟨i, j, pub, p1, cpub, c1, c2, rfl, h1, e2, hp1, e4, h4, rfl, rfl, ?_,
    (C79_path_recoverable P Y pub [i, j] magic (by simp)).1⟩
  have hc := (cipher_length P Y pub [i, j] magic).1
  have hne : (attrsFromKey P Y pub [i, j] magic).ciphertext ≠ [] := by
    intro e; rw [e] at hc; simp at hc
  have hr : rootBytes cpub (attrsFromKey P Y pub [i, j] magic) = rootPreimage (cpub.key ++ cpub.cc)
      (attributesB (some (attrsFromKey P Y pub [i, j] magic).ciphertext) (if magic = 0 then none else some magic)) := by
    have ha := attrs_format (attrsFromKey P Y pub [i, j] magic)
    rw [if_neg hne] at ha
    have hm : (attrsFromKey P Y pub [i, j] magic).magic = magic := rfl
    rw [hm] at ha
    rw [← ha]
    unfold rootBytes rootPreimage
    simp only [enc, encList, bytesB, encHeader_head, Pub.xbytes]
    simp [typeToUint, head]
  show sha3Blake Y _ = _
  rw [hr]; rfl

/-- **C79** `fromRootKey` refuses exactly the paths that do not have two indices (for a root key
with a public key and unless a derived scalar happens to be zero modulo the group order, where
it throws as well). -/
theorem C79_fromRootKey_fails (C : Curve) (P : Prims) (Y : Crypto) (k : Prv) (hk : k.WF) (hd : ¬ ellL ∣ kL k.key)
    (path : List UInt32) (magic : Nat) :
    (path.length ≠ 2 → fromRootKey C P Y k path magic = .throw .invalidArgument) ∧
    (∀ i j, path = [i, j] → ∃ c1 c2, k.deriveChild C P i .v1 = .ok c1 ∧
      (¬ ellL ∣ kL c1.key → c1.deriveChild C P j .v1 = .ok c2) ∧
      ((ellL ∣ kL c1.key ∨ ellL ∣ kL c2.key) → fromRootKey C P Y k path magic = .throw .runtimeError) ∧
      (¬ ellL ∣ kL c1.key → ¬ ellL ∣ kL c2.key → ∃ a, fromRootKey C P Y k path magic = .ok a)) := by
  have hp := publicKey_of (C := C) hd
  constructor
  · intro h
    unfold fromRootKey
    rw [hp]
    match path, h with
    | [], _ => rfl
    | [_], _ => rfl
    | [_, _], h => simp at h
    | _ :: _ :: _ :: _, _ => rfl
  · rintro i j rfl
    obtain ⟨c1, h1, hw1, -⟩ := deriveChild_prv C P k hk i .v1 hd
    by_cases h2 : ellL ∣ kL c1.key
    · refine ⟨c1, c1, h1, fun h => absurd h2 h, fun _ => ?_, fun h => absurd h2 h⟩
      unfold fromRootKey
      simp only [hp, Out.ok_bind, h1, ((C29_failures C P c1 hw1 j .v1).1 h2).1, Out.throw_bind]
    · obtain ⟨c2, h3, hw2, -⟩ := deriveChild_prv C P c1 hw1 j .v1 h2
      refine ⟨c1, c2, h1, fun _ => h3, ?_, ?_⟩
      · rintro (h | h)
        · exact absurd h h2
        · unfold fromRootKey
          simp only [hp, Out.ok_bind, h1, h3, ((C29_failures C P c2 hw2 0 .v1).1 h).2, Out.throw_bind]
      · intro _ h
        unfold fromRootKey
        simp only [hp, Out.ok_bind, h1, h3, publicKey_of (C := C) h]
        exact ⟨_, rfl⟩

/-- **C79** Two addresses of the same root key are equal only if they have the same derivation
path and the same network magic: no assumption on the hash functions is needed. -/
theorem C79_path_bound (C : Curve) (P : Prims) (Y : Crypto) (k : Prv) (path path' : List UInt32) (magic magic' : Nat)
    (a : Addr) (h : fromRootKey C P Y k path magic = .ok a) (h' : fromRootKey C P Y k path' magic' = .ok a) :
    path = path' ∧ magic = magic' := by
  obtain ⟨i, j, pub, c1, c2, cpub, rfl, h1, -, -, -, rfl⟩ := fromRootKey_ok C P Y k path magic a h
  obtain ⟨i', j', pub', c1', c2', cpub', rfl, h1', -, -, -, e⟩ := fromRootKey_ok C P Y k path' magic' _ h'
  rw [h1] at h1'
  obtain rfl := Out.ok.inj h1'
  simp only [Addr.mk.injEq] at e
  obtain ⟨-, e2, rfl, -⟩ := e
  refine ⟨?_, rfl⟩
  have o1 := (C79_path_recoverable P Y pub [i, j] magic (by simp)).1
  have o2 := (C79_path_recoverable P Y pub [i', j'] magic (by simp)).1
  rw [e2, o2] at o1
  have o3 := pathB_inj _ _ (by intro x hx; simp at hx; rcases hx with rfl | rfl <;> exact Nat.lt_of_lt_of_le (UInt32.toNat_lt _) (by decide))
    (by intro x hx; simp at hx; rcases hx with rfl | rfl <;> exact Nat.lt_of_lt_of_le (UInt32.toNat_lt _) (by decide)) (Option.some.inj o1)
  simp only [List.map_cons, List.map_nil, List.cons.injEq, UInt32.toNat_inj, and_true] at o3
  simp [o3.1, o3.2]

/-- **C79** The address text is read back to the same address. -/
theorem C79_text_roundtrip (C : Curve) (P : Prims) (Y : Crypto) (k : Prv) (path : List UInt32) (magic : Nat) (hm : magic < 2 ^ 32)
    (a : Addr) (h : fromRootKey C P Y k path magic = .ok a) :
    fromCBOR (toCBOR a) = .ok a ∧ ∃ s, toBase58 a = .ok s ∧ fromBase58 s = .ok a := by
  obtain ⟨i, j, pub, c1, c2, cpub, rfl, h1, -, -, -, rfl⟩ := fromRootKey_ok C P Y k path magic a h
  apply C14_roundtrip_partial
  · refine ⟨Y.blake224_length _, hm, ?_⟩
    have := (cipher_length P Y pub [i, j] magic).2
    simp only [List.length_cons, List.length_nil] at this
    have e : (45 : Nat) < 2 ^ 60 := by decide
    show (attrsFromKey P Y pub [i, j] magic).ciphertext.length < 2 ^ 60
    omega
  · simp

/-! ### Concrete cases -/

/-- A (worthless) cipher and hash with the right sizes. -/
def toyCrypto : Crypto where
  sha3 x := x
  blake224 x := (x ++ List.replicate 28 0).take 28
  aead _ _ p := p ++ List.replicate 16 0
  aeadOpen _ _ c := some (c.take (c.length - 16))
  blake224_length x := by simp
  aead_length k n p := by simp
  open_aead k n p := by simp

/-- A path with 24 indices is not encoded as specified. -/
example : pathPlaintext (List.replicate 24 0) ≠ pathB (List.replicate 24 0) := fun h =>
  absurd ((C79_path_format _).mp h) (by decide)

example : pathPlaintext [0x80000000, 5] = [0x9F, 0x1A, 0x80, 0, 0, 0, 5, 0xFF] := by decide +kernel

/-- Root keys made from a seed meet the hypotheses. -/
example : ∃ k, fromSeed toyPrims [] = .ok k ∧ k.WF ∧ ¬ ellL ∣ kL k.key := by
  obtain ⟨k, h1, h2, h3, -⟩ := C30_fromSeed toyCurve toyPrims []
  exact ⟨k, h1, h2, clamped_not_dvd h3⟩

end Cardano.Byron
