import Verif.Lemmas.Bip32
import Verif.Props.Mnemonic
import Mathlib.Tactic.NormNum
import Mathlib.Tactic.Abel

/-! # C29–C34: BIP32-Ed25519 keys

All statements hold for every `Curve` (a commutative group with a base point of order
exactly `ellL` and an invertible encoding) and all `Prims` (hash functions with the right
output lengths). -/

namespace Cardano.Bip32

open Cardano Cardano.Ed Cardano.Spec.Bip32

theorem take32_append {a b : Bytes} (h : a.length = 32) : (a ++ b).take 32 = a := List.take_left' h
theorem drop32_append {a b : Bytes} (h : a.length = 32) : (a ++ b).drop 32 = b := List.drop_left' h

theorem scalarAddKeys_eq (a b : Bytes) : leNat (scalarAddKeys a b) = (kL a + kL b) % ellL := by
  unfold scalarAddKeys scalarAdd
  rw [reduceModL_eq, reduceModL_eq, leNat_le32 (Nat.lt_trans (mod_ell_lt _) (by decide))]
  have h1 := mod_ell_lt (leNat (a.take 32))
  have h2 := mod_ell_lt (leNat (b.take 32))
  rw [Nat.mod_eq_of_lt (a := leNat (a.take 32) % ellL + leNat (b.take 32) % ellL) (by
    have : (2 : Nat) ^ 253 + 2 ^ 253 < 2 ^ 256 := by decide
    omega)]
  rw [← Nat.add_mod]; rfl

/-- The child scalar: in V1 mode reduced modulo the order, in V2 modulo 2^256. -/
def childScalar (mode : Mode) (z key : Bytes) : Nat :=
  match mode with
  | .v1 => (kL (zl8 .v1 z) + kL key) % ellL
  | .v2 => (kL (zl8 .v2 z) + kL key) % 2 ^ 256

/-- The HMAC output `Z` of a child derivation. -/
def zOf (C : Curve) (P : Prims) (k : Prv) (i : UInt32) (mode : Mode) : Bytes :=
  P.hmac k.cc (if isHardened i then macInput 0x00 k.key i mode else macInput 0x02 (C.enc (kL k.key • C.B)) i mode)

theorem deriveChild_prv (C : Curve) (P : Prims) (k : Prv) (hk : k.WF) (i : UInt32) (mode : Mode)
    (hd : ¬ ellL ∣ kL k.key) :
    ∃ c, k.deriveChild C P i mode = .ok c ∧ c.WF ∧ kL c.key = childScalar mode (zOf C P k i mode) k.key ∧
      c.cc = (P.hmac k.cc (if isHardened i then macInput 0x01 k.key i mode else macInput 0x03 (C.enc (kL k.key • C.B)) i mode)).drop 32 ∧
      (mode = .v2 → kR c.key = (leNat ((zOf C P k i mode).drop 32) + kR k.key) % 2 ^ 256) := by
  unfold Prv.deriveChild
  rw [publicKey_of hd]
  simp only [Out.ok_bind, Out.pure_eq]
  have hz : (zOf C P k i mode).length = 64 := P.hmac_length _ _
  refine ⟨_, rfl, ?_, ?_, rfl, ?_⟩
  · constructor
    · cases mode with
      | v1 => simp [scalarAddKeys, scalarAdd, le32_length, addNoCarry, P.hmac_length, hk.1]
      | v2 =>
        simp only [List.length_append]
        rw [addCarry_length _ _ _ (by rw [List.length_take, List.length_take, zl8_length _ _ (P.hmac_length _ _), hk.1]),
          addCarry_length _ _ _ (by simp [P.hmac_length, hk.1])]
        simp [P.hmac_length]
        rw [zl8_length _ _ (P.hmac_length _ _)]
        decide
    · simp [P.hmac_length]
  · cases mode with
    | v1 =>
      show leNat ((scalarAddKeys (zl8 .v1 (zOf C P k i .v1)) k.key ++ _).take 32) = _
      rw [take32_append (by exact le32_length _), scalarAddKeys_eq]; rfl
    | v2 =>
      show leNat ((addCarry ((zl8 .v2 (zOf C P k i .v2)).take 32) (k.key.take 32) 0 ++ _).take 32) = _
      have hl : ((zl8 .v2 (zOf C P k i .v2)).take 32).length = (k.key.take 32).length := by
        simp [zl8_length _ _ hz, hk.1]
      have hl2 : ((zl8 .v2 (zOf C P k i .v2)).take 32).length = 32 := by simp [zl8_length _ _ hz]
      rw [take32_append (by rw [addCarry_length _ _ _ hl, hl2]), addCarry_eq _ _ _ hl, hl2]
      have : (256 : Nat) ^ 32 = 2 ^ 256 := by decide +kernel
      rw [this]; rfl
  · rintro rfl
    show leNat ((addCarry ((zl8 .v2 (zOf C P k i .v2)).take 32) (k.key.take 32) 0 ++ addCarry ((zOf C P k i .v2).drop 32) (k.key.drop 32) 0).drop 32) = _
    have hl : ((zl8 .v2 (zOf C P k i .v2)).take 32).length = (k.key.take 32).length := by
      simp [zl8_length _ _ hz, hk.1]
    have hl2 : ((zl8 .v2 (zOf C P k i .v2)).take 32).length = 32 := by simp [zl8_length _ _ hz]
    rw [drop32_append (by rw [addCarry_length _ _ _ hl, hl2]), addCarry_eq _ _ _ (by simp [hz, hk.1])]
    have : (256 : Nat) ^ ((zOf C P k i .v2).drop 32).length = 2 ^ 256 := by
      rw [List.length_drop, hz]; decide +kernel
    rw [this]; rfl

theorem deriveChild_pub (C : Curve) (P : Prims) (k : Prv) (i : UInt32) (mode : Mode)
    (hi : isHardened i = false) :
    (Pub.mk (C.enc (kL k.key • C.B)) k.cc).deriveChild C P i mode =
      if ellL ∣ kL (zl8 mode (zOf C P k i mode)) then .throw .runtimeError
      else .ok ⟨C.enc ((kL (zl8 mode (zOf C P k i mode)) + kL k.key) • C.B),
        (P.hmac k.cc (macInput 0x03 (C.enc (kL k.key • C.B)) i mode)).drop 32⟩ := by
  unfold Pub.deriveChild
  have hz : zOf C P k i mode = P.hmac k.cc (macInput 0x02 (C.enc (kL k.key • C.B)) i mode) := by
    unfold zOf; simp [hi]
  simp only [hi, Bool.false_eq_true, if_false, publickey_eq, ← hz]
  by_cases hd : ellL ∣ kL (zl8 mode (zOf C P k i mode))
  · simp [hd]
  · simp only [hd, if_false, Out.ok_bind, pointAddOrThrow, pointAdd, C.dec_enc, Out.pure_eq, add_nsmul]

/-- **C29**. Non-hardened index, private key with a public key. Private derivation always
succeeds. If public derivation and the child's public key also exist, they are equal —
key and chain code — in V1 mode always, in V2 mode exactly if adding 8·zL to the parent
scalar does not overflow 256 bits. -/
theorem C29_public_private_agree (C : Curve) (P : Prims) (k : Prv) (hk : k.WF) (i : UInt32)
    (hi : i.toNat < 2 ^ 31) (mode : Mode) (p : Pub) (hp : k.publicKey C = .ok p) :
    ∃ c, k.deriveChild C P i mode = .ok c ∧
      ∀ q pc, p.deriveChild C P i mode = .ok q → c.publicKey C = .ok pc →
        q.cc = pc.cc ∧
        (q.key = pc.key ↔ (mode = .v1 ∨ 8 * leNat ((P.hmac k.cc (macInput 0x02 p.key i mode)).take 28) + kL k.key < 2 ^ 256)) := by
  obtain ⟨hd, rfl⟩ := publicKey_ok hp
  obtain ⟨c, hc, _, hs, hcc, _⟩ := deriveChild_prv C P k hk i mode hd
  refine ⟨c, hc, ?_⟩
  have hi' : isHardened i = false := by
    cases h : isHardened i with
    | false => rfl
    | true => have := (isHardened_iff i).mp h; omega
  intro q pc hq hpc
  rw [deriveChild_pub C P k i mode hi'] at hq
  obtain ⟨hd2, rfl⟩ := publicKey_ok hpc
  by_cases hz : ellL ∣ kL (zl8 mode (zOf C P k i mode))
  · simp [hz] at hq
  · simp only [hz, if_false, Out.ok.injEq] at hq
    subst hq
    simp only []
    refine ⟨by rw [hcc]; simp [hi'], ?_⟩
    have hz' : zOf C P k i mode = P.hmac k.cc (macInput 0x02 (C.enc (kL k.key • C.B)) i mode) := by
      unfold zOf; simp [hi']
    have key : (C.enc ((kL (zl8 mode (zOf C P k i mode)) + kL k.key) • C.B) = C.enc (kL c.key • C.B)) ↔
        (kL (zl8 mode (zOf C P k i mode)) + kL k.key) % ellL = kL c.key % ellL := by
      rw [← smul_eq_iff C]
      exact ⟨fun h => C.enc_inj h, fun h => by rw [h]⟩
    rw [key, hs]
    cases mode with
    | v1 => simp [childScalar]
    | v2 =>
      simp only [childScalar, reduceCtorEq, false_or]
      have hzl : kL (zl8 .v2 (zOf C P k i .v2)) = 8 * leNat ((zOf C P k i .v2).take 28) := zl8_v2 _ (P.hmac_length _ _)
      rw [hzl, ← hz']
      have hb1 : leNat ((zOf C P k i .v2).take 28) < 256 ^ 28 := by
        have := leNat_lt ((zOf C P k i .v2).take 28)
        have hl : ((zOf C P k i .v2).take 28).length = 28 := by
          rw [List.length_take]; unfold zOf; rw [P.hmac_length]; rfl
        rwa [hl] at this
      have hb2 : kL k.key < 2 ^ 256 := by
        have := leNat_lt (k.key.take 32)
        have hl : (k.key.take 32).length = 32 := by rw [List.length_take, hk.1]; rfl
        rw [hl] at this
        have e : (256 : Nat) ^ 32 = 2 ^ 256 := by decide +kernel
        rw [e] at this; exact this
      generalize hx : 8 * leNat ((zOf C P k i .v2).take 28) + kL k.key = x
      have hx2 : x < 2 * 2 ^ 256 := by
        have : 8 * 256 ^ 28 < 2 ^ 256 := by decide +kernel
        omega
      constructor
      · intro h
        by_contra hge
        have e1 : x % 2 ^ 256 = x - 2 ^ 256 := by omega
        rw [e1] at h
        have h2 : ellL ∣ (x - (x - 2 ^ 256)) := (Nat.modEq_iff_dvd' (by omega)).mp h.symm
        rw [show x - (x - 2 ^ 256) = 2 ^ 256 by omega] at h2
        exact absurd h2 (by decide +kernel)
      · intro h
        rw [Nat.mod_eq_of_lt h]

theorem kL_zl8_lt (P : Prims) (a b : Bytes) : kL (zl8 .v2 (P.hmac a b)) < 2 ^ 227 := by
  have hl : ((P.hmac a b).take 28).length = 28 := by rw [List.length_take, P.hmac_length]; rfl
  have h := leNat_lt ((P.hmac a b).take 28)
  rw [hl] at h
  have : kL (zl8 .v2 (P.hmac a b)) = 8 * leNat ((P.hmac a b).take 28) := zl8_v2 _ (P.hmac_length _ _)
  rw [this]
  have e : 8 * (256 : Nat) ^ 28 = 2 ^ 227 := by decide +kernel
  omega

/-- **C29** for ordinary keys: below `2^256 - 2^227` (every clamped key is below `2^255`)
the two derivations agree in both modes. -/
theorem C29_agree_bounded (C : Curve) (P : Prims) (k : Prv) (hk : k.WF) (i : UInt32)
    (hi : i.toNat < 2 ^ 31) (mode : Mode) (p : Pub) (hp : k.publicKey C = .ok p)
    (hb : kL k.key ≤ 2 ^ 256 - 2 ^ 227)
    (c : Prv) (hc : k.deriveChild C P i mode = .ok c) (q pc : Pub)
    (hq : p.deriveChild C P i mode = .ok q) (hpc : c.publicKey C = .ok pc) : q = pc := by
  obtain ⟨c', h1, h2⟩ := C29_public_private_agree C P k hk i hi mode p hp
  rw [hc] at h1
  obtain rfl := Out.ok.inj h1
  obtain ⟨e1, e2⟩ := h2 q pc hq hpc
  have e3 : q.key = pc.key := by
    apply e2.mpr
    right
    have := kL_zl8_lt P k.cc (macInput 0x02 p.key i mode)
    have hz : kL (zl8 .v2 (P.hmac k.cc (macInput 0x02 p.key i mode))) = _ := zl8_v2 _ (P.hmac_length _ _)
    rw [hz] at this
    have : (2 : Nat) ^ 227 < 2 ^ 256 := by decide +kernel
    omega
  cases q; cases pc
  simp only at e1 e3
  rw [e1, e3]

/-- **C29**: exactly when derivation fails. Private derivation fails iff the parent scalar is
a multiple of the group order; public derivation (of a non-hardened index) fails iff the
added scalar is. -/
theorem C29_failures (C : Curve) (P : Prims) (k : Prv) (hk : k.WF) (i : UInt32) (mode : Mode) :
    (ellL ∣ kL k.key → k.deriveChild C P i mode = .throw .runtimeError ∧ k.publicKey C = .throw .runtimeError) ∧
    (¬ ellL ∣ kL k.key → ∃ p c, k.publicKey C = .ok p ∧ k.deriveChild C P i mode = .ok c ∧
      (i.toNat < 2 ^ 31 →
        (ellL ∣ kL (zl8 mode (P.hmac k.cc (macInput 0x02 p.key i mode))) → p.deriveChild C P i mode = .throw .runtimeError) ∧
        (¬ ellL ∣ kL (zl8 mode (P.hmac k.cc (macInput 0x02 p.key i mode))) → ∃ q, p.deriveChild C P i mode = .ok q))) := by
  refine ⟨fun h => ?_, fun h => ?_⟩
  · have : k.publicKey C = .throw .runtimeError := by unfold Prv.publicKey; rw [publickey_eq]; simp [h]
    refine ⟨?_, this⟩
    unfold Prv.deriveChild; rw [this]; rfl
  · obtain ⟨c, hc, _⟩ := deriveChild_prv C P k hk i mode h
    refine ⟨_, c, publicKey_of h, hc, fun hi => ?_⟩
    have hi' : isHardened i = false := by
      cases h : isHardened i with
      | false => rfl
      | true => have := (isHardened_iff i).mp h; omega
    have hz' : zOf C P k i mode = P.hmac k.cc (macInput 0x02 (C.enc (kL k.key • C.B)) i mode) := by
      unfold zOf; simp [hi']
    rw [deriveChild_pub C P k i mode hi', hz']
    exact ⟨fun h => by simp [h], fun h => by simp [h]⟩

/-- Derivation along a path. -/
def derivePath (C : Curve) (P : Prims) (mode : Mode) : Prv → List UInt32 → Out Prv
  | k, [] => .ok k
  | k, i :: is => do
    let c ← k.deriveChild C P i mode
    derivePath C P mode c is

/-- **C29**: along every path of fewer than 2^28 steps from a root below `2^255`, V2 keys
stay in the range where public and private derivation agree. -/
theorem C29_path_bounded (C : Curve) (P : Prims) (path : List UInt32) :
    ∀ (k c : Prv) (n : Nat), k.WF → kL k.key ≤ 2 ^ 255 + n * 2 ^ 227 → n + path.length < 2 ^ 28 →
      derivePath C P .v2 k path = .ok c → c.WF ∧ kL c.key ≤ 2 ^ 256 - 2 ^ 227 := by
  induction path with
  | nil =>
    intro k c n hw hb hn h
    obtain rfl := Out.ok.inj h
    refine ⟨hw, Nat.le_trans hb ?_⟩
    have h1 : n ≤ 2 ^ 28 - 1 := by simp at hn; omega
    calc 2 ^ 255 + n * 2 ^ 227 ≤ 2 ^ 255 + (2 ^ 28 - 1) * 2 ^ 227 := by
          exact Nat.add_le_add_left (Nat.mul_le_mul_right _ h1) _
      _ ≤ 2 ^ 256 - 2 ^ 227 := by decide +kernel
  | cons i is ih =>
    intro k c n hw hb hn h
    rw [derivePath] at h
    obtain ⟨c1, h1, h2⟩ := Out.bind_eq_ok.mp h
    have hd : ¬ ellL ∣ kL k.key := by
      intro hd
      rw [((C29_failures C P k hw i .v2).1 hd).1] at h1; exact absurd h1 (by simp)
    obtain ⟨c2, e1, e2, e3, _⟩ := deriveChild_prv C P k hw i .v2 hd
    rw [h1] at e1
    obtain rfl := Out.ok.inj e1
    refine ih c1 c (n + 1) e2 ?_ (by simp at hn; omega) h2
    rw [e3]
    have hz : kL (zl8 .v2 (zOf C P k i .v2)) < 2 ^ 227 := kL_zl8_lt P _ _
    calc childScalar .v2 (zOf C P k i .v2) k.key ≤ kL (zl8 .v2 (zOf C P k i .v2)) + kL k.key := Nat.mod_le _ _
      _ ≤ 2 ^ 255 + (n + 1) * 2 ^ 227 := by rw [Nat.add_mul]; omega

/-! ### C30: clamping -/

/-- A scalar as the Cardano root-key standards require it. -/
def Clamped (n : Nat) : Prop := 8 ∣ n ∧ 2 ^ 254 ≤ n ∧ n < 2 ^ 255

theorem clamp_bytes (b0 b31 : UInt8) (mid rest : Bytes) (hm : mid.length = 30) :
    leNat ((b0 :: (mid ++ b31 :: rest)).take 32) = b0.toNat + 256 * leNat mid + 256 ^ 31 * b31.toNat := by
  have : (b0 :: (mid ++ b31 :: rest)).take 32 = b0 :: (mid ++ [b31]) := by
    rw [List.take_succ_cons, List.take_append, hm, List.take_of_length_le (by omega)]; simp
  rw [this, leNat, leNat_append, hm, leNat, leNat]
  have : (256 : Nat) ^ 31 = 256 * 256 ^ 30 := by decide +kernel
  rw [this]; ring

theorem split32 (d : Bytes) (h : 32 ≤ d.length) : ∃ b0 mid b31 rest, d = b0 :: (mid ++ b31 :: rest) ∧ mid.length = 30 := by
  match d, h with
  | b0 :: t, h =>
    refine ⟨b0, t.take 30, t[30]'(by simp at h; omega), t.drop 31, ?_, by simp at h ⊢; omega⟩
    congr 1
    rw [List.getElem_cons_drop, List.take_append_drop]

theorem modAt31 (f : UInt8 → UInt8) (b0 b31 : UInt8) (mid rest : Bytes) (hm : mid.length = 30) :
    modAt 31 f (b0 :: (mid ++ b31 :: rest)) = .ok (b0 :: (mid ++ f b31 :: rest)) := by
  unfold modAt
  have h1 : (b0 :: (mid ++ b31 :: rest))[31]? = some b31 := by
    rw [List.getElem?_cons_succ, List.getElem?_append_right (by omega), hm]; rfl
  rw [h1]
  simp only []
  congr 1
  rw [List.set_cons_succ, List.set_append_right _ _ (by omega), hm]; rfl

theorem tweak_general (d : Bytes) (hd : 32 ≤ d.length) (m : UInt8) :
    ∃ d', (do let x ← modAt 0 (· &&& 0b11111000) d
              let x ← modAt 31 (· &&& m) x
              modAt 31 (· ||| 0b01000000) x) = .ok d' ∧ d'.length = d.length ∧ d'.drop 32 = d.drop 32 ∧
      ∃ b0 b31 : UInt8, ∃ mid : Bytes, mid.length = 30 ∧ d'[31]? = some ((b31 &&& m) ||| 0b01000000) ∧
        leNat (d'.take 32) = (b0 &&& 0b11111000).toNat + 256 * leNat mid + 256 ^ 31 * ((b31 &&& m) ||| 0b01000000).toNat := by
  obtain ⟨b0, mid, b31, rest, rfl, hm⟩ := split32 d hd
  have h0 : modAt 0 (· &&& 0b11111000) (b0 :: (mid ++ b31 :: rest)) = .ok ((b0 &&& 0b11111000) :: (mid ++ b31 :: rest)) := rfl
  refine ⟨(b0 &&& 0b11111000) :: (mid ++ ((b31 &&& m) ||| 0b01000000) :: rest), ?_, by simp, ?_, b0, b31, mid, hm, ?_,
    clamp_bytes _ _ _ _ hm⟩
  · rw [h0, Out.ok_bind, modAt31 _ _ _ _ _ hm, Out.ok_bind, modAt31 _ _ _ _ _ hm]
  · simp only [List.drop_succ_cons]
    rw [List.drop_append, List.drop_append, hm]; simp [hm]
  · rw [List.getElem?_cons_succ, List.getElem?_append_right (by omega), hm]; rfl

theorem byte_low : ∀ b : UInt8, (b &&& 0b11111000).toNat % 8 = 0 ∧ (b &&& 0b11111000).toNat ≤ 248 := by
  apply forall_byte; decide +kernel
theorem byte_high : ∀ b : UInt8, 64 ≤ ((b &&& 0b01111111) ||| 0b01000000).toNat ∧ ((b &&& 0b01111111) ||| 0b01000000).toNat < 128 := by
  apply forall_byte; decide +kernel
theorem byte_highI : ∀ b : UInt8, 64 ≤ ((b &&& 0b00011111) ||| 0b01000000).toNat ∧ ((b &&& 0b00011111) ||| 0b01000000).toNat < 96 := by
  apply forall_byte; decide +kernel
theorem byte_highB : ∀ b : UInt8, ((b &&& 0b01111111) ||| 0b01000000) &&& 0b00100000 = 0 → ((b &&& 0b01111111) ||| 0b01000000).toNat < 96 := by
  apply forall_byte; decide +kernel

theorem clamp_range {x m y lo hi : Nat} (hx : x % 8 = 0) (hx2 : x ≤ 248) (hm : m < 256 ^ 30) (hy : lo ≤ y) (hy2 : y < hi) :
    8 ∣ (x + 256 * m + 256 ^ 31 * y) ∧ 256 ^ 31 * lo ≤ x + 256 * m + 256 ^ 31 * y ∧ x + 256 * m + 256 ^ 31 * y < 256 ^ 31 * hi := by
  have e : (256 : Nat) ^ 31 = 256 * 256 ^ 30 := by decide +kernel
  have e8 : (256 : Nat) ^ 31 = 8 * (32 * 256 ^ 30) := by decide +kernel
  refine ⟨?_, ?_, ?_⟩
  · have h1 : 8 ∣ x := Nat.dvd_of_mod_eq_zero hx
    have h2 : 8 ∣ 256 * m := Dvd.dvd.mul_right (by decide) m
    have h3 : 8 ∣ 256 ^ 31 * y := by rw [e8, Nat.mul_assoc]; exact Nat.dvd_mul_right 8 _
    exact Nat.dvd_add (Nat.dvd_add h1 h2) h3
  · exact Nat.le_trans (Nat.mul_le_mul_left _ hy) (Nat.le_add_left _ _)
  · have h1 : 256 ^ 31 * (y + 1) ≤ 256 ^ 31 * hi := Nat.mul_le_mul_left _ hy2
    have h2 : x + 256 * m < 256 ^ 31 := by rw [e]; omega
    rw [Nat.mul_add, Nat.mul_one] at h1
    omega

/-- A clamped scalar is never a multiple of the group order, so the public key of every
clamped key exists. -/
theorem clamped_not_dvd {n : Nat} (h : Clamped n) : ¬ ellL ∣ n := by
  obtain ⟨h8, hlo, hhi⟩ := h
  rintro ⟨m, rfl⟩
  have hc : Nat.Coprime 8 ellL := by decide +kernel
  obtain ⟨j, rfl⟩ := hc.dvd_of_dvd_mul_left h8
  have h1 : j ≠ 0 := by
    rintro rfl
    have : (2 : Nat) ^ 254 ≤ 0 := by simpa using hlo
    exact absurd this (by decide +kernel)
  have h2 : ellL * (8 * 1) ≤ ellL * (8 * j) := Nat.mul_le_mul_left _ (Nat.mul_le_mul_left _ (by omega))
  have h3 : 2 ^ 255 < ellL * (8 * 1) := by decide +kernel
  omega

theorem kL_take64 (x : Bytes) : kL (x.take 64) = leNat (x.take 32) := by
  unfold kL; rw [List.take_take]; rfl

/-- **C30** `fromSeed`: multiple of 8 in [2^254, 2^255); the public key exists. -/
theorem C30_fromSeed (C : Curve) (P : Prims) (seed : Bytes) :
    ∃ k, fromSeed P seed = .ok k ∧ k.WF ∧ Clamped (kL k.key) ∧ ∃ p, k.publicKey C = .ok p := by
  obtain ⟨d, h1, h2, _, b0, b31, mid, hm, _, hv⟩ := tweak_general (P.sha512 seed) (by rw [P.sha512_length]; decide) 0b01111111
  have hcl : Clamped (leNat (d.take 32)) := by
    rw [hv]
    have hmid := leNat_lt mid
    rw [hm] at hmid
    obtain ⟨a, b, c⟩ := clamp_range (byte_low b0).1 (byte_low b0).2 hmid (byte_high b31).1 (byte_high b31).2
    exact ⟨a, Nat.le_trans (by decide +kernel) b, Nat.lt_of_lt_of_le c (by decide +kernel)⟩
  refine ⟨⟨d, P.sha256 (1 :: seed)⟩, ?_, ⟨by rw [h2, P.sha512_length], P.sha256_length _⟩, hcl, _, publicKey_of (clamped_not_dvd hcl)⟩
  unfold fromSeed extend
  rw [h1]; rfl

theorem icarus_key (C : Curve) (x : Bytes) (hx : x.length = 96) :
    ∃ d, tweakIcarus x = .ok d ∧ (prvOfX d).WF ∧ Clamped (kL (prvOfX d).key) ∧
      kL (prvOfX d).key < 2 ^ 254 + 2 ^ 253 ∧ ∃ p, (prvOfX d).publicKey C = .ok p := by
  obtain ⟨d, h1, h2, _, b0, b31, mid, hm, _, hv⟩ := tweak_general x (by omega) 0b00011111
  have hmid := leNat_lt mid
  rw [hm] at hmid
  obtain ⟨a, b, c⟩ := clamp_range (byte_low b0).1 (byte_low b0).2 hmid (byte_highI b31).1 (byte_highI b31).2
  have hkl : kL (prvOfX d).key = leNat (d.take 32) := kL_take64 d
  rw [← hv, ← hkl] at a b c
  have hcl : Clamped (kL (prvOfX d).key) := ⟨a, Nat.le_trans (by decide +kernel) b, Nat.lt_trans c (by decide +kernel)⟩
  exact ⟨d, h1, ⟨by simp [prvOfX]; omega, by simp [prvOfX]; omega⟩, hcl,
    Nat.lt_of_lt_of_le c (by decide +kernel), _, publicKey_of (clamped_not_dvd hcl)⟩

/-- **C30** Icarus root keys (`fromMnemonic`, any passphrase): multiple of 8 in
[2^254, 2^254 + 2^253). -/
theorem C30_fromMnemonic (C : Curve) (P : Prims) (mn : Mnemonic.Mn) (pass seed : Bytes) (hs : Mnemonic.toSeed mn = .ok seed) :
    ∃ k, fromMnemonic P mn pass = .ok k ∧ k.WF ∧ Clamped (kL k.key) ∧ kL k.key < 2 ^ 254 + 2 ^ 253 ∧
      ∃ p, k.publicKey C = .ok p := by
  obtain ⟨d, h1, h2, h3, h4, h5⟩ := icarus_key C (P.pbkdf2 4096 pass seed 96) (P.pbkdf2_length _ _ _ _)
  exact ⟨prvOfX d, by unfold fromMnemonic; rw [hs, Out.ok_bind, h1]; rfl, h2, h3, h4, h5⟩

/-- **C30** randomly generated keys. -/
theorem C30_generate (C : Curve) (P : Prims) (seed : Bytes) :
    ∃ k, generate P seed = .ok k ∧ k.WF ∧ Clamped (kL k.key) ∧ kL k.key < 2 ^ 254 + 2 ^ 253 ∧
      ∃ p, k.publicKey C = .ok p := by
  obtain ⟨d, h1, h2, h3, h4, h5⟩ := icarus_key C (P.pbkdf2 4096 [] seed 96) (P.pbkdf2_length _ _ _ _)
  exact ⟨prvOfX d, by unfold generate; rw [h1]; rfl, h2, h3, h4, h5⟩

theorem hashAttempt_ok (P : Prims) (key : Bytes) (count : Nat) :
    ∃ d r, hashAttempt P key count = .ok (d, r) ∧ d.length = 64 ∧ r.length = 32 ∧
      ∃ b31, d[31]? = some b31 ∧ (b31 &&& 0b00100000 = 0 → Clamped (leNat (d.take 32)) ∧ leNat (d.take 32) < 2 ^ 254 + 2 ^ 253) := by
  generalize ht : P.hmac key (ascii "Root Seed Chain " ++ ascii (toString count)) = tag
  obtain ⟨d, h1, h2, _, b0, b31, mid, hm, h31, hv⟩ := tweak_general (P.sha512 (tag.take 32)) (by rw [P.sha512_length]; decide) 0b01111111
  refine ⟨d, tag.drop 32, ?_, by rw [h2, P.sha512_length], by rw [← ht]; simp [P.hmac_length], _, h31, ?_⟩
  · unfold hashAttempt tweakByron
    simp only [ht]
    rw [h1]; rfl
  · intro h0
    have hmid := leNat_lt mid
    rw [hm] at hmid
    obtain ⟨a, b, c⟩ := clamp_range (byte_low b0).1 (byte_low b0).2 hmid (byte_high b31).1 (byte_highB b31 h0)
    rw [← hv] at a b c
    exact ⟨⟨a, Nat.le_trans (by decide +kernel) b, Nat.lt_trans c (by decide +kernel)⟩, Nat.lt_of_lt_of_le c (by decide +kernel)⟩

theorem hashRepeatedly_cases (P : Prims) (key : Bytes) : ∀ fuel count,
    hashRepeatedly P key fuel count = .throw .runtimeError ∨
    ∃ x, hashRepeatedly P key fuel count = .ok x ∧ x.length = 96 ∧
      Clamped (leNat (x.take 32)) ∧ leNat (x.take 32) < 2 ^ 254 + 2 ^ 253 := by
  intro fuel
  induction fuel with
  | zero => intro _; exact .inl rfl
  | succ fuel ih =>
    intro count
    obtain ⟨d, r, h1, h2, h3, b31, h4, h5⟩ := hashAttempt_ok P key count
    rw [hashRepeatedly, h1]
    simp only [Out.ok_bind, h4]
    by_cases hb : b31 &&& 0b00100000 = 0
    · right
      simp only [hb, ne_eq, not_true_eq_false, if_false, Out.pure_eq]
      refine ⟨_, rfl, by simp [h2, h3], ?_⟩
      have : (d ++ r).take 32 = d.take 32 := List.take_append_of_le_length (by omega)
      rw [this]; exact h5 hb
    · simp only [hb, ne_eq, not_false_eq_true, if_true]
      exact ih (count + 1)

/-- **C30** Byron root keys: `fromMnemonicByron` either gives up with an exception after
1000 attempts or returns a scalar that is a multiple of 8 in [2^254, 2^254 + 2^253). -/
theorem C30_fromMnemonicByron (C : Curve) (P : Prims) (mn : Mnemonic.Mn) (seed : Bytes) (hs : Mnemonic.toSeed mn = .ok seed) :
    fromMnemonicByron P mn = .throw .runtimeError ∨
    ∃ k, fromMnemonicByron P mn = .ok k ∧ k.WF ∧ Clamped (kL k.key) ∧ kL k.key < 2 ^ 254 + 2 ^ 253 ∧
      ∃ p, k.publicKey C = .ok p := by
  unfold fromMnemonicByron
  rw [hs, Out.ok_bind]
  rcases hashRepeatedly_cases P (hashSeed P seed) 1000 1 with h | ⟨x, h, hl, hc, hlt⟩
  · left; rw [h]; rfl
  · right
    have hk : kL (prvOfX x).key = leNat (x.take 32) := kL_take64 x
    refine ⟨prvOfX x, by rw [h]; rfl, ⟨by simp [prvOfX]; omega, by simp [prvOfX]; omega⟩, by rw [hk]; exact hc, by rw [hk]; exact hlt,
      _, publicKey_of (clamped_not_dvd (by rw [hk]; exact hc))⟩

/-- Every mnemonic accepted by the string constructor yields an Icarus root key. -/
theorem C30_phrase_to_key (C : Curve) (P : Prims) (l : Mnemonic.Lang) (s pass : Bytes) (m : Mnemonic.Mn)
    (h : Mnemonic.ofString l s = .ok m) : ∃ k, fromMnemonic P m pass = .ok k ∧ Clamped (kL k.key) := by
  obtain ⟨h1, h2⟩ := Mnemonic.C21_ofString_indexes l s m h
  obtain ⟨e, c, h3, _⟩ := Mnemonic.C19_toEntropy_spec m h1 h2
  have : Mnemonic.toSeed m = .ok e := by unfold Mnemonic.toSeed; rw [h3]; rfl
  obtain ⟨k, hk, _, hc, _⟩ := C30_fromMnemonic C P m pass e this
  exact ⟨k, hk, hc⟩

theorem tweak_exact (b0 b31 m : UInt8) (mid rest : Bytes) (hm : mid.length = 30) :
    (do let x ← modAt 0 (· &&& 0b11111000) (b0 :: (mid ++ b31 :: rest))
        let x ← modAt 31 (· &&& m) x
        modAt 31 (· ||| 0b01000000) x) = .ok ((b0 &&& 0b11111000) :: (mid ++ ((b31 &&& m) ||| 0b01000000) :: rest)) := by
  have h0 : modAt 0 (· &&& 0b11111000) (b0 :: (mid ++ b31 :: rest)) = .ok ((b0 &&& 0b11111000) :: (mid ++ b31 :: rest)) := rfl
  rw [h0, Out.ok_bind, modAt31 _ _ _ _ _ hm, Out.ok_bind, modAt31 _ _ _ _ _ hm]

theorem byte_low_div : ∀ b : UInt8, b &&& 0b11111000 = b / 8 * 8 := by
  apply forall_byte; decide +kernel
theorem byte_icarus : ∀ b : UInt8, (b &&& 0b00011111) ||| 0b01000000 = b % 32 + 64 := by
  apply forall_byte; decide +kernel
theorem byte_byron : ∀ b : UInt8, (b &&& 0b01111111) ||| 0b01000000 = b % 64 + 64 := by
  apply forall_byte; decide +kernel
theorem byte_bit5 : ∀ b : UInt8, (b % 64 + 64) &&& 0b00100000 = 0 ↔ b / 32 % 2 = 0 := by
  apply forall_byte; decide +kernel
theorem byte_bit5' : ∀ b : UInt8, ¬ b / 32 % 2 = 0 → b / 32 % 2 = 1 := by
  apply forall_byte; decide +kernel

theorem icarus_master (x : Bytes) (hx : x.length = 96) (d : Bytes) (h : tweakIcarus x = .ok d) :
    IsIcarusMaster x (prvOfX d).key (prvOfX d).cc := by
  rintro b0 b31 mid rest rfl hm
  unfold tweakIcarus at h
  rw [tweak_exact _ _ _ _ _ hm, byte_low_div, byte_icarus] at h
  obtain rfl := Out.ok.inj h
  simp only [List.length_cons, List.length_append] at hx
  refine ⟨by unfold prvOfX; exact List.take_append_drop _ _, ?_, ?_⟩ <;> simp [prvOfX] <;> omega

/-- **C30**: `fromMnemonic` is the Icarus master key generation of CIP-3 (PBKDF2 with 4096
rounds, the passphrase as password and the entropy as salt). -/
theorem C30_icarus_standard (P : Prims) (mn : Mnemonic.Mn) (pass entropy : Bytes) (cs : Nat) (k : Prv)
    (hs : Mnemonic.toEntropy mn = .ok (entropy, cs)) (h : fromMnemonic P mn pass = .ok k) :
    IsIcarusMaster (P.pbkdf2 4096 pass entropy 96) k.key k.cc := by
  have hs' : Mnemonic.toSeed mn = .ok entropy := by unfold Mnemonic.toSeed; rw [hs]; rfl
  unfold fromMnemonic at h
  rw [hs', Out.ok_bind] at h
  obtain ⟨d, h1, h2⟩ := Out.bind_eq_ok.mp h
  obtain rfl := Out.ok.inj h2
  exact icarus_master _ (P.pbkdf2_length _ _ _ _) d h1

/-- **C30**: `generate` is the same with an empty passphrase and the random bytes as salt. -/
theorem C30_generate_standard (P : Prims) (seed : Bytes) (k : Prv) (h : generate P seed = .ok k) :
    IsIcarusMaster (P.pbkdf2 4096 [] seed 96) k.key k.cc := by
  unfold generate at h
  obtain ⟨d, h1, h2⟩ := Out.bind_eq_ok.mp h
  obtain rfl := Out.ok.inj h2
  exact icarus_master _ (P.pbkdf2_length _ _ _ _) d h1

/-- **C30**: `fromSeed` hashes the seed with SHA-512, clamps, and takes SHA-256(1 ‖ seed) as
chain code (the master key of the BIP32-Ed25519 paper without its bit-5 rejection). -/
theorem C30_fromSeed_standard (P : Prims) (seed : Bytes) (k : Prv) (h : fromSeed P seed = .ok k) :
    k.cc = P.sha256 (1 :: seed) ∧
    ∀ (b0 b31 : UInt8) (mid rest : Bytes), P.sha512 seed = b0 :: (mid ++ b31 :: rest) → mid.length = 30 →
      k.key = (b0 / 8 * 8) :: (mid ++ (b31 % 64 + 64) :: rest) := by
  unfold fromSeed extend at h
  obtain ⟨d, h1, h2⟩ := Out.bind_eq_ok.mp h
  obtain rfl := Out.ok.inj h2
  refine ⟨rfl, fun b0 b31 mid rest hx hm => ?_⟩
  rw [hx, tweak_exact _ _ _ _ _ hm, byte_low_div, byte_byron] at h1
  exact (Out.ok.inj h1).symm

theorem hashRepeatedly_spec (P : Prims) (s : Bytes) : ∀ fuel c x, 1 ≤ c → c + fuel ≤ 1001 →
    (∀ j b, 1 ≤ j → j < c → (P.sha512 ((P.hmac s (ascii s!"Root Seed Chain {j}")).take 32))[31]? = some b → b / 32 % 2 = 1) →
    hashRepeatedly P s fuel c = .ok x →
    IsByronMaster P.hmac P.sha512 s (x.take 64) (x.drop 64) := by
  intro fuel
  induction fuel with
  | zero => intro c x _ _ _ h; exact absurd h (by simp [hashRepeatedly])
  | succ fuel ih =>
    intro c x hc hf hprev h
    have hmsg : ascii "Root Seed Chain " ++ ascii (toString c) = ascii s!"Root Seed Chain {c}" := by
      show _ = ascii ("Root Seed Chain " ++ toString c)
      unfold ascii
      rw [String.toList_append, List.map_append]
    obtain ⟨b0, mid, b31, rest, hx, hm⟩ := split32 (P.sha512 ((P.hmac s (ascii s!"Root Seed Chain {c}")).take 32))
      (by rw [P.sha512_length]; decide)
    have h31 : (P.sha512 ((P.hmac s (ascii s!"Root Seed Chain {c}")).take 32))[31]? = some b31 := by
      rw [hx, List.getElem?_cons_succ, List.getElem?_append_right (by omega), hm]; rfl
    have hat : hashAttempt P s c = .ok ((b0 / 8 * 8) :: (mid ++ (b31 % 64 + 64) :: rest), (P.hmac s (ascii s!"Root Seed Chain {c}")).drop 32) := by
      unfold hashAttempt tweakByron
      simp only [hmsg]
      rw [hx, tweak_exact _ _ _ _ _ hm, byte_low_div, byte_byron]; rfl
    have hb : ((b0 / 8 * 8) :: (mid ++ (b31 % 64 + 64) :: rest))[31]? = some (b31 % 64 + 64) := by
      rw [List.getElem?_cons_succ, List.getElem?_append_right (by omega), hm]; rfl
    rw [hashRepeatedly, hat] at h
    simp only [Out.ok_bind, hb] at h
    by_cases h5 : b31 / 32 % 2 = 0
    · rw [if_neg (by simpa using (byte_bit5 b31).mpr h5)] at h
      obtain rfl := Out.ok.inj h
      have hlen : ((b0 / 8 * 8) :: (mid ++ (b31 % 64 + 64) :: rest)).length = 64 := by
        have := P.sha512_length ((P.hmac s (ascii s!"Root Seed Chain {c}")).take 32)
        rw [hx] at this; simpa using this
      exact ⟨c, hc, by omega, hprev, b0, b31, mid, rest, hx, hm, h5, List.take_left' hlen, List.drop_left' hlen⟩
    · rw [if_pos (fun h => h5 ((byte_bit5 b31).mp h))] at h
      refine ih (c + 1) x (by omega) (by omega) ?_ h
      intro j b hj hlt hjb
      by_cases hjc : j < c
      · exact hprev j b hj hjc hjb
      · obtain rfl : j = c := by omega
        rw [h31] at hjb
        obtain rfl := Option.some.inj hjb
        exact byte_bit5' _ h5

/-- **C30**: what `fromMnemonicByron` returns is the Byron master key of CIP-3, the HMAC key
being the CBOR byte string of Blake2b-256 of the CBOR byte string of the entropy. -/
theorem C30_byron_standard (P : Prims) (mn : Mnemonic.Mn) (entropy : Bytes) (cs : Nat) (k : Prv)
    (hs : Mnemonic.toEntropy mn = .ok (entropy, cs)) (h : fromMnemonicByron P mn = .ok k) :
    IsByronMaster P.hmac P.sha512 (Cbor.enc (.bstr (P.blake256 (Cbor.enc (.bstr entropy))))) k.key k.cc := by
  have hs' : Mnemonic.toSeed mn = .ok entropy := by unfold Mnemonic.toSeed; rw [hs]; rfl
  unfold fromMnemonicByron at h
  rw [hs', Out.ok_bind] at h
  obtain ⟨d, h1, h2⟩ := Out.bind_eq_ok.mp h
  obtain rfl := Out.ok.inj h2
  exact hashRepeatedly_spec P _ 1000 1 d (by decide) (by decide) (fun j b h1 h2 => absurd h1 (by omega)) h1

/-! ### C31: hardened indices -/

/-- **C31**: public derivation throws `invalid_argument` for every index from 2^31 on; below,
it never does (it succeeds or, for unusable keys, throws `runtime_error`). -/
theorem C31_hardened (C : Curve) (P : Prims) (p : Pub) (i : UInt32) (mode : Mode) :
    (2 ^ 31 ≤ i.toNat → p.deriveChild C P i mode = .throw .invalidArgument) ∧
    (i.toNat < 2 ^ 31 → p.deriveChild C P i mode ≠ .throw .invalidArgument ∧ p.deriveChild C P i mode ≠ .ub) := by
  refine ⟨fun h => ?_, fun h => ?_⟩
  · unfold Pub.deriveChild; rw [(isHardened_iff i).mpr h]; rfl
  · have hi' : isHardened i = false := by
      cases h' : isHardened i with
      | false => rfl
      | true => have := (isHardened_iff i).mp h'; omega
    unfold Pub.deriveChild
    simp only [hi', Bool.false_eq_true, if_false, publickey_eq, pointAddOrThrow]
    constructor
    all_goals
      split
      · simp
      · simp only [Out.ok_bind]
        split <;> simp

/-- **C31, exactly when.** Below 2^31 public derivation succeeds precisely if the added scalar is not
a multiple of the group order and the public key is the encoding of a curve point; otherwise it
throws `runtime_error`. -/
theorem C31_succeeds_iff (C : Curve) (P : Prims) (p : Pub) (i : UInt32) (mode : Mode) (h : i.toNat < 2 ^ 31) :
    ((∃ q, p.deriveChild C P i mode = .ok q) ↔
      ¬ ellL ∣ kL (zl8 mode (P.hmac p.cc (macInput 0x02 p.key i mode))) ∧ ∃ x, C.dec p.key = some x) ∧
    ((¬ ∃ q, p.deriveChild C P i mode = .ok q) → p.deriveChild C P i mode = .throw .runtimeError) := by
  have hi' : isHardened i = false := by
    cases h' : isHardened i with
    | false => rfl
    | true => have := (isHardened_iff i).mp h'; omega
  unfold Pub.deriveChild
  simp only [hi', Bool.false_eq_true, if_false, publickey_eq, pointAddOrThrow]
  split
  · rename_i hz
    simp [hz]
  · rename_i hz
    simp only [Out.ok_bind, pointAdd, C.dec_enc]
    cases hx : C.dec p.key with
    | none => simp [hz]
    | some x => simp [hz, Out.pure_eq]

/-- **C31**: `HardenIndex` gives a hardened index, keeps the low 31 bits, and is idempotent. -/
theorem C31_hardenIndex (i : UInt32) :
    2 ^ 31 ≤ (hardenIndex i).toNat ∧ (hardenIndex i).toNat % 2 ^ 31 = i.toNat % 2 ^ 31 ∧
      hardenIndex (hardenIndex i) = hardenIndex i := by
  have hc : (0x80000000 : UInt32).toNat = 2 ^ 31 := rfl
  have hlt := i.toNat_lt
  unfold hardenIndex
  by_cases h : i < 0x80000000
  · have h' : i.toNat < 2 ^ 31 := by rw [← hc]; exact UInt32.lt_iff_toNat_lt.mp h
    have hs : (i + 0x80000000).toNat = i.toNat + 2 ^ 31 := by
      rw [UInt32.toNat_add, hc]; exact Nat.mod_eq_of_lt (by omega)
    have hn : ¬ (i + 0x80000000) < 0x80000000 := by
      rw [UInt32.lt_iff_toNat_lt, hs, hc]; omega
    simp only [h, if_true, hn, if_false, and_true]
    rw [hs]; omega
  · have h' : 2 ^ 31 ≤ i.toNat := by
      have := mt UInt32.lt_iff_toNat_lt.mpr h
      rw [hc] at this; omega
    simp only [h, if_false, and_true]
    exact h'

/-! ### C32: password encryption -/

theorem xorBytes_cancel : ∀ (a b : Bytes), a.length = b.length → xorBytes (xorBytes a b) b = a := by
  intro a
  induction a with
  | nil => intro b _; simp [xorBytes]
  | cons x xs ih =>
    intro b h
    cases b with
    | nil => simp at h
    | cons y ys =>
      have := ih ys (by simpa using h)
      simp only [xorBytes] at this
      simp only [xorBytes, List.zipWith_cons_cons, this, List.cons.injEq, and_true]
      rw [UInt8.xor_assoc, UInt8.xor_self, UInt8.xor_zero]

/-- The 22 bytes of the wallet salt: "encrypted wallet salt" in ASCII and the terminating zero. -/
def walletSalt : Bytes := [101, 110, 99, 114, 121, 112, 116, 101, 100, 32, 119, 97, 108, 108, 101, 116, 32, 115, 97, 108, 116, 0]

theorem salt_eq : salt = walletSalt := by decide +kernel

/-- The keystream a password gives: the first 32 bytes of the 40 PBKDF2 bytes (15000 rounds over the
wallet salt) key ChaCha20, the other 8 are its nonce; the empty password gives the zero stream. -/
def keystream (P : Prims) (password : Bytes) : Bytes :=
  if password = [] then List.replicate 64 0
  else P.chacha ((P.pbkdf2 15000 password walletSalt 40).take 32)
    ((P.pbkdf2 15000 password walletSalt 40).drop 32) 64

/-- **C32**: decrypting with the encryption password returns the key, for every password
including the empty one. -/
theorem C32_decrypt_encrypt (P : Prims) (k : Prv) (hk : k.WF) (password : Bytes) :
    decrypt P (k.encrypt P password) password = k := by
  unfold decrypt Prv.encrypt
  cases password with
  | nil => simp
  | cons c cs =>
    simp only [List.isEmpty_cons, Bool.false_eq_true, if_false, Bool.not_false, if_true, applyCipher]
    rw [xorBytes_cancel _ _ (by rw [P.chacha_length, hk.1])]

theorem xorBytes_zero (a : Bytes) : xorBytes a (List.replicate a.length 0) = a := by
  induction a with
  | nil => rfl
  | cons x xs ih => simp [xorBytes, List.replicate_succ] at ih ⊢; exact ih

theorem xor_inj : ∀ (a b c : Bytes), a.length = b.length → a.length = c.length → xorBytes a b = xorBytes a c → b = c := by
  intro a
  induction a with
  | nil => intro b c h1 h2 _; cases b <;> cases c <;> simp_all
  | cons x xs ih =>
    intro b c h1 h2 h
    cases b with
    | nil => simp at h1
    | cons y ys =>
      cases c with
      | nil => simp at h2
      | cons w ws =>
        simp only [xorBytes, List.zipWith_cons_cons, List.cons.injEq] at h
        have hy : y = w := by
          have := congrArg (x ^^^ ·) h.1
          simpa [← UInt8.xor_assoc] using this
        rw [hy, ih ys ws (by simpa using h1) (by simpa using h2) h.2]

theorem keystream_length (P : Prims) (pw : Bytes) : (keystream P pw).length = 64 := by
  unfold keystream; split
  · simp
  · exact P.chacha_length _ _ _

theorem encrypt_eq (P : Prims) (k : Prv) (hk : k.WF) (pw : Bytes) : k.encrypt P pw = ⟨xorBytes k.key (keystream P pw), k.cc⟩ := by
  unfold Prv.encrypt keystream
  cases pw with
  | nil =>
    have : xorBytes k.key (List.replicate 64 0) = k.key := by rw [← hk.1]; exact xorBytes_zero _
    simp only [List.isEmpty_nil, if_true, Bool.not_true, Bool.false_eq_true, if_false]
    rw [this]
  | cons c cs => simp [applyCipher, salt_eq]

theorem decrypt_eq (P : Prims) (k : Prv) (hk : k.WF) (pw : Bytes) : decrypt P k pw = ⟨xorBytes k.key (keystream P pw), k.cc⟩ := by
  unfold decrypt keystream
  cases pw with
  | nil =>
    have : xorBytes k.key (List.replicate 64 0) = k.key := by rw [← hk.1]; exact xorBytes_zero _
    simp only [List.isEmpty_nil, if_true, Bool.not_true, Bool.false_eq_true, if_false]
    rw [this]
  | cons c cs => simp [applyCipher, salt_eq]

/-- **C32**: what encryption does, byte for byte: the 64 key bytes are xored with the keystream, the
chain code is left in the clear; decryption is the same operation. -/
theorem C32_format (P : Prims) (k : Prv) (hk : k.WF) (pw : Bytes) :
    k.encrypt P pw = ⟨List.zipWith (· ^^^ ·) k.key (keystream P pw), k.cc⟩ ∧
    decrypt P k pw = ⟨List.zipWith (· ^^^ ·) k.key (keystream P pw), k.cc⟩ :=
  ⟨encrypt_eq P k hk pw, decrypt_eq P k hk pw⟩

/-- **C32**: decryption is not authenticated — any password is accepted — and gives the
original key exactly for passwords with the same keystream. -/
theorem C32_wrong_password (P : Prims) (k : Prv) (hk : k.WF) (pw pw' : Bytes) :
    decrypt P (k.encrypt P pw) pw' = k ↔ keystream P pw = keystream P pw' := by
  have hwf : (k.encrypt P pw).WF := by
    rw [encrypt_eq P k hk]
    exact ⟨by simp [xorBytes, keystream_length, hk.1], hk.2⟩
  rw [decrypt_eq P _ hwf, encrypt_eq P k hk]
  constructor
  · intro h
    have h1 : xorBytes (xorBytes k.key (keystream P pw)) (keystream P pw') = k.key := congrArg Prv.key h
    have h2 := xorBytes_cancel k.key (keystream P pw) (by rw [keystream_length, hk.1])
    exact xor_inj (xorBytes k.key (keystream P pw)) _ _ (by simp [xorBytes, keystream_length, hk.1])
      (by simp [xorBytes, keystream_length, hk.1]) (by rw [h2, h1])
  · intro h
    simp only []
    rw [← h, xorBytes_cancel _ _ (by rw [keystream_length, hk.1])]

/-! ### C33: signatures -/

theorem nsmul_not_small (C : Curve) (n : Nat) (h : ¬ ellL ∣ n) : C.smallOrder (C.enc (n • C.B)) = false := by
  cases hs : C.smallOrder (C.enc (n • C.B)) with
  | false => rfl
  | true =>
    have h8 := C.smallOrder_enc _ hs
    rw [← mul_nsmul', C.order] at h8
    have hc : Nat.Coprime ellL 8 := by decide +kernel
    exact absurd (hc.dvd_of_dvd_mul_left h8) h

/-- **C33**: whatever `sign` returns verifies under the key's public key, for every key and
message. -/
theorem C33_sign_verifies (C : Curve) (P : Prims) (k : Prv) (msg sig : Bytes) (h : k.sign C P msg = .ok sig) :
    ∃ p, k.publicKey C = .ok p ∧ sig.length = 64 ∧ p.verify C P msg sig = true := by
  unfold Prv.sign at h
  obtain ⟨p, hp, hs⟩ := Out.bind_eq_ok.mp h
  obtain ⟨hd, rfl⟩ := publicKey_ok hp
  refine ⟨_, hp, ?_⟩
  unfold signExt at hs
  have hr : leNat (scalarReduce (P.sha512 (k.key.drop 32 ++ msg))) = leNat (P.sha512 (k.key.drop 32 ++ msg)) % ellL := by
    unfold scalarReduce; rw [leNat_le32 (Nat.lt_trans (mod_ell_lt _) (by decide))]
  generalize hR : leNat (P.sha512 (k.key.drop 32 ++ msg)) = r at hr
  simp only [baseMul_reduced C _ r hr] at hs
  by_cases hrd : ellL ∣ r
  · simp [hrd] at hs
  · simp only [hrd, not_false_eq_true, decide_true, Out.ok.injEq] at hs
    subst hs
    generalize hh : leNat (P.sha512 (C.enc (r • C.B) ++ C.enc (kL k.key • C.B) ++ msg)) = hash
    have hhr : leNat (scalarReduce (P.sha512 (C.enc (r • C.B) ++ C.enc (kL k.key • C.B) ++ msg))) = hash % ellL := by
      unfold scalarReduce; rw [leNat_le32 (Nat.lt_trans (mod_ell_lt _) (by decide)), hh]
    have hS : leNat (scalarAdd (scalarMul (scalarReduce (P.sha512 (C.enc (r • C.B) ++ C.enc (kL k.key • C.B) ++ msg))) (reduceModL (k.key.take 32)))
        (scalarReduce (P.sha512 (k.key.drop 32 ++ msg)))) = (hash * kL k.key + r) % ellL := by
      unfold scalarAdd scalarMul
      rw [leNat_le32 (Nat.lt_trans (mod_ell_lt _) (by decide)), hhr, reduceModL_eq, hr,
        leNat_le32 (Nat.lt_trans (mod_ell_lt _) (by decide))]
      have h1 := mod_ell_lt (hash % ellL * (leNat (k.key.take 32) % ellL))
      have h2 := mod_ell_lt r
      rw [Nat.mod_eq_of_lt (b := 2 ^ 256) (by
        have : (2 : Nat) ^ 253 + 2 ^ 253 < 2 ^ 256 := by decide
        omega)]
      rw [← Nat.add_mod]
      show _ = (hash * leNat (k.key.take 32) + r) % ellL
      rw [Nat.add_mod (hash % ellL * (leNat (k.key.take 32) % ellL)), ← Nat.mul_mod, ← Nat.add_mod]
    have hlen : (scalarAdd (scalarMul (scalarReduce (P.sha512 (C.enc (r • C.B) ++ C.enc (kL k.key • C.B) ++ msg))) (reduceModL (k.key.take 32)))
        (scalarReduce (P.sha512 (k.key.drop 32 ++ msg)))).length = 32 := le32_length _
    refine ⟨by rw [List.length_append, C.enc_length, hlen], ?_⟩
    unfold Pub.verify verifyDetached
    simp only [List.take_left' (C.enc_length _), List.drop_left' (C.enc_length _), hS,
      nsmul_not_small C r hrd, nsmul_not_small C _ hd, C.canonical_enc, C.dec_enc, hh]
    have hlt : ¬ ((hash * kL k.key + r) % ellL ≥ ellL) := by
      have := Nat.mod_lt (hash * kL k.key + r) ellL_pos; omega
    rw [if_neg hlt]
    simp only [Bool.false_eq_true, if_false, Bool.not_true, Bool.or_self, decide_eq_true_eq]
    have e1 : ((hash * kL k.key + r) % ellL) • C.B = (hash * kL k.key) • C.B + r • C.B := by
      rw [mod_ell_smul, add_nsmul]
    have e2 : (hash % ellL) • kL k.key • C.B = (hash * kL k.key) • C.B := by
      rw [← mul_nsmul', smul_eq_iff, Nat.mod_mul_mod]
    rw [e1, e2, add_sub_cancel_left]

/-- **C33**: the signature is the Ed25519 signature of the extended key `(kL, kR)`:
`r = SHA-512(kR ‖ m)`, `R = [r]B`, `S = (r + SHA-512(R ‖ A ‖ m)·kL) mod L`. In particular it
is deterministic and its nonce depends on the message. -/
theorem C33_sign_standard (C : Curve) (P : Prims) (k : Prv) (msg sig : Bytes) (h : k.sign C P msg = .ok sig) :
    ∀ r A R hash, r = leNat (P.sha512 (k.key.drop 32 ++ msg)) → A = C.enc (kL k.key • C.B) → R = C.enc (r • C.B) →
      hash = leNat (P.sha512 (R ++ A ++ msg)) →
      sig.take 32 = R ∧ (sig.drop 32).length = 32 ∧ leNat (sig.drop 32) = (r + hash * kL k.key) % ellL := by
  rintro r A R hash hR rfl rfl hh
  unfold Prv.sign at h
  obtain ⟨p, hp, hs⟩ := Out.bind_eq_ok.mp h
  obtain ⟨hd, rfl⟩ := publicKey_ok hp
  unfold signExt at hs
  have hr : leNat (scalarReduce (P.sha512 (k.key.drop 32 ++ msg))) = r % ellL := by
    unfold scalarReduce; rw [leNat_le32 (Nat.lt_trans (mod_ell_lt _) (by decide)), hR]
  simp only [baseMul_reduced C _ r hr] at hs
  by_cases hrd : ellL ∣ r
  · simp [hrd] at hs
  · simp only [hrd, not_false_eq_true, decide_true, Out.ok.injEq] at hs
    subst hs
    rw [List.take_left' (C.enc_length _), List.drop_left' (C.enc_length _)]
    refine ⟨rfl, le32_length _, ?_⟩
    have hhr : leNat (scalarReduce (P.sha512 (C.enc (r • C.B) ++ C.enc (kL k.key • C.B) ++ msg))) = hash % ellL := by
      unfold scalarReduce; rw [leNat_le32 (Nat.lt_trans (mod_ell_lt _) (by decide)), hh]
    unfold scalarAdd scalarMul
    rw [leNat_le32 (Nat.lt_trans (mod_ell_lt _) (by decide)), hhr, reduceModL_eq, hr,
      leNat_le32 (Nat.lt_trans (mod_ell_lt _) (by decide))]
    have h1 := mod_ell_lt (hash % ellL * (leNat (k.key.take 32) % ellL))
    have h2 := mod_ell_lt r
    rw [Nat.mod_eq_of_lt (b := 2 ^ 256) (by
      have : (2 : Nat) ^ 253 + 2 ^ 253 < 2 ^ 256 := by decide
      omega)]
    rw [← Nat.add_mod]
    show _ = (r + hash * leNat (k.key.take 32)) % ellL
    rw [Nat.add_mod (hash % ellL * (leNat (k.key.take 32) % ellL)), ← Nat.mul_mod, ← Nat.add_mod, Nat.add_comm]

/-- **C33**: `sign` fails only if the secret scalar or the nonce is a multiple of the order. -/
theorem C33_sign_total (C : Curve) (P : Prims) (k : Prv) (msg : Bytes) (h1 : ¬ ellL ∣ kL k.key)
    (h2 : ¬ ellL ∣ leNat (P.sha512 (k.key.drop 32 ++ msg))) : ∃ sig, k.sign C P msg = .ok sig := by
  unfold Prv.sign
  rw [publicKey_of h1, Out.ok_bind]
  unfold signExt
  have hr : leNat (scalarReduce (P.sha512 (k.key.drop 32 ++ msg))) = leNat (P.sha512 (k.key.drop 32 ++ msg)) % ellL := by
    unfold scalarReduce; rw [leNat_le32 (Nat.lt_trans (mod_ell_lt _) (by decide))]
  simp only [baseMul_reduced C _ _ hr]
  simp only [h2, not_false_eq_true, decide_true]
  exact ⟨_, rfl⟩

/-! ### C34: shape of derived keys -/

/-- **C34**: V2 children are exactly the children of the BIP32-Ed25519 paper whenever the sum
fits 256 bits. -/
theorem C34_v2_is_paper_child (C : Curve) (P : Prims) (k : Prv) (hk : k.WF) (i : UInt32) (p : Pub)
    (hp : k.publicKey C = .ok p) (hb : kL k.key ≤ 2 ^ 256 - 2 ^ 227) :
    ∃ c, k.deriveChild C P i .v2 = .ok c ∧ IsChild P.hmac k.key p.key k.cc i.toNat c.key c.cc := by
  obtain ⟨hd, rfl⟩ := publicKey_ok hp
  obtain ⟨c, h1, h2, h3, h4, h5⟩ := deriveChild_prv C P k hk i .v2 hd
  refine ⟨c, h1, ?_⟩
  intro ib hib hibv z h hH hN
  have hib' : ib = serializeIndex i .v2 :=
    leNat_inj (by rw [hib, serializeIndex_length]) (by rw [hibv, serializeIndex_v2])
  have hzz : z = zOf C P k i .v2 ∧ h = (P.hmac k.cc (if isHardened i then macInput 0x01 k.key i .v2 else macInput 0x03 (C.enc (kL k.key • C.B)) i .v2)) := by
    cases hh : isHardened i with
    | true =>
      obtain ⟨a, b⟩ := hH ((isHardened_iff i).mp hh)
      unfold zOf
      simp only [hh, if_true]
      rw [a, b, hib']; exact ⟨rfl, rfl⟩
    | false =>
      have hn : ¬ Hardened i.toNat := fun h => by
        rw [(isHardened_iff i).mpr h] at hh; exact absurd hh (by simp)
      obtain ⟨a, b⟩ := hN hn
      unfold zOf
      simp only [hh, Bool.false_eq_true, if_false]
      rw [a, b, hib']; exact ⟨rfl, rfl⟩
  obtain ⟨rfl, rfl⟩ := hzz
  refine ⟨h2.1, ?_, h5 rfl, h4⟩
  rw [h3, childScalar]
  have hz : kL (zl8 .v2 (zOf C P k i .v2)) = 8 * leNat ((zOf C P k i .v2).take 28) := zl8_v2 _ (P.hmac_length _ _)
  have hz2 : kL (zl8 .v2 (zOf C P k i .v2)) < 2 ^ 227 := kL_zl8_lt P _ _
  rw [← hz]
  apply Nat.mod_eq_of_lt
  have : (2 : Nat) ^ 227 < 2 ^ 256 := by decide +kernel
  omega

theorem mul8_v1 : ∀ (z : Bytes) (p : Nat), p < 8 → mul8 0x8 z p = z.map (fun b => 8 * b) := by
  intro z
  induction z with
  | nil => intro p _; rfl
  | cons b bs ih =>
    intro p hp
    have hb : b.toNat >>> 5 < 8 := by
      rw [Nat.shiftRight_eq_div_pow]
      have := b.toNat_lt; omega
    have hp8 : p &&& 8 = 0 := by
      have : ∀ p < 8, p &&& 8 = 0 := by decide
      exact this p hp
    rw [mul8, ih _ hb, List.map_cons, hp8, Nat.add_zero]
    congr 1
    have : ∀ b : UInt8, UInt8.ofNat (b.toNat <<< 3) = 8 * b := by apply forall_byte; decide +kernel
    exact this b

theorem addNoCarry_eq (a b : Bytes) : addNoCarry a b = List.zipWith (· + ·) a b := by
  unfold addNoCarry
  congr 1
  funext x y
  apply UInt8.toNat_inj.mp
  rw [UInt8.toNat_ofNat', UInt8.toNat_add, show (0xff : Nat) = 2 ^ 8 - 1 from rfl, Nat.and_two_pow_sub_one_eq_mod, Nat.mod_mod]

/-- **C34**: V1 children are exactly the historical children, for every parent with a public
key. -/
theorem C34_v1_is_historical_child (C : Curve) (P : Prims) (k : Prv) (hk : k.WF) (i : UInt32) (p : Pub)
    (hp : k.publicKey C = .ok p) :
    ∃ c, k.deriveChild C P i .v1 = .ok c ∧ IsChildV1 ellL P.hmac k.key p.key k.cc i.toNat c.key c.cc := by
  obtain ⟨hd, rfl⟩ := publicKey_ok hp
  obtain ⟨c, h1, h2, h3, h4, _⟩ := deriveChild_prv C P k hk i .v1 hd
  refine ⟨c, h1, ?_⟩
  intro ib hib hibv z h hH hN
  have hib' : ib = serializeIndex i .v1 := by
    apply List.reverse_injective
    apply leNat_inj (by rw [List.length_reverse, List.length_reverse, hib, serializeIndex_length])
    rw [serializeIndex_v1, List.reverse_reverse, serializeIndex_v2]
    exact hibv
  have hzz : z = zOf C P k i .v1 ∧ h = (P.hmac k.cc (if isHardened i then macInput 0x01 k.key i .v1 else macInput 0x03 (C.enc (kL k.key • C.B)) i .v1)) := by
    cases hh : isHardened i with
    | true =>
      obtain ⟨a, b⟩ := hH ((isHardened_iff i).mp hh)
      unfold zOf
      simp only [hh, if_true]
      rw [a, b, hib']; exact ⟨rfl, rfl⟩
    | false =>
      have hn : ¬ Hardened i.toNat := fun h => by
        rw [(isHardened_iff i).mpr h] at hh; exact absurd hh (by simp)
      obtain ⟨a, b⟩ := hN hn
      unfold zOf
      simp only [hh, Bool.false_eq_true, if_false]
      rw [a, b, hib']; exact ⟨rfl, rfl⟩
  obtain ⟨rfl, rfl⟩ := hzz
  have hzl : (zOf C P k i .v1).length = 64 := P.hmac_length _ _
  refine ⟨h2.1, ?_, ?_, h4⟩
  · rw [h3, childScalar]
    congr 2
    unfold zl8 kL
    rw [mul8_v1 _ 0 (by decide), List.take_left' (by simp [hzl])]
  · unfold Prv.deriveChild at h1
    rw [publicKey_of hd] at h1
    simp only [Out.ok_bind, Out.pure_eq, Out.ok.injEq] at h1
    rw [← h1]
    show (scalarAddKeys (zl8 .v1 (zOf C P k i .v1)) k.key ++ addNoCarry ((zOf C P k i .v1).drop 32) (k.key.drop 32)).drop 32 = _
    rw [drop32_append (by exact le32_length _), addNoCarry_eq]

/-- **C34**: a V2 child has the same scalar modulo 8 as its parent, for every parent and index
(no bound needed: 2^256 is a multiple of 8). -/
theorem C34_v2_low_bits (C : Curve) (P : Prims) (k c : Prv) (hk : k.WF) (i : UInt32)
    (h : k.deriveChild C P i .v2 = .ok c) : kL c.key % 8 = kL k.key % 8 := by
  have hd : ¬ ellL ∣ kL k.key := by
    intro hd
    rw [((C29_failures C P k hk i .v2).1 hd).1] at h; exact absurd h (by simp)
  obtain ⟨c', h1, _, h3, _⟩ := deriveChild_prv C P k hk i .v2 hd
  rw [h] at h1
  obtain rfl := Out.ok.inj h1
  have hz : kL (zl8 .v2 (zOf C P k i .v2)) = 8 * leNat ((zOf C P k i .v2).take 28) := zl8_v2 _ (P.hmac_length _ _)
  rw [h3, childScalar, hz]
  rw [Nat.mod_mod_of_dvd _ (show 8 ∣ 2 ^ 256 by decide +kernel)]
  omega

/-- **C34**: in either mode different indices serialize differently. -/
theorem C34_index_injective (mode : Mode) (i j : UInt32) (h : serializeIndex i mode = serializeIndex j mode) : i = j := by
  have h2 : serializeIndex i .v2 = serializeIndex j .v2 := by
    cases mode with
    | v1 => rw [serializeIndex_v1, serializeIndex_v1] at h; exact List.reverse_injective h
    | v2 => exact h
  have := congrArg leNat h2
  rw [serializeIndex_v2, serializeIndex_v2] at this
  exact UInt32.toNat_inj.mp this

/-- **C34**: V1 serializes the index big-endian, V2 little-endian. -/
theorem C34_index_endian (i : UInt32) :
    beNat (serializeIndex i .v1) = i.toNat ∧ leNat (serializeIndex i .v2) = i.toNat := by
  refine ⟨?_, serializeIndex_v2 i⟩
  rw [beNat, serializeIndex_v1, List.reverse_reverse, serializeIndex_v2]

/-- **C34** (domain separation): two HMAC messages made during derivations with keys of the
same size are equal only if tag, key and index are. The four tags are different. -/
theorem C34_mac_inputs_distinct (mode : Mode) (t t' : UInt8) (a b : Bytes) (hab : a.length = b.length) (i j : UInt32)
    (h : macInput t a i mode = macInput t' b j mode) : t = t' ∧ a = b ∧ i = j := by
  unfold macInput at h
  simp only [List.cons.injEq] at h
  obtain ⟨h2, h3⟩ := List.append_inj h.2 hab
  exact ⟨h.1, h2, C34_index_injective mode i j h3⟩

/-- V1 children need not keep the low bits: the scalar is reduced modulo the (odd) order.
Here parent scalar 8, and `Z` = 0xff… gives a child scalar not divisible by 8. -/
theorem C34_v1_low_bits_lost : ∃ z key : Bytes, z.length = 64 ∧ key.length = 64 ∧ kL key % 8 = 0 ∧
    childScalar .v1 z key % 8 ≠ 0 :=
  ⟨List.replicate 64 255, 8 :: List.replicate 63 0, by decide, by decide, by decide +kernel, by decide +kernel⟩

/-! ### Concrete cases -/

/-- Primitives with the right lengths and nothing else. -/
def toyPrims : Prims where
  hmac _ _ := 1 :: List.replicate 63 0
  sha512 _ := 1 :: List.replicate 63 0
  sha256 _ := List.replicate 32 0
  blake256 _ := List.replicate 32 0
  pbkdf2 _ _ _ n := List.replicate n 0
  chacha _ _ n := List.replicate n 7
  hmac_length _ _ := rfl
  sha512_length _ := rfl
  sha256_length _ := rfl
  blake256_length _ := rfl
  pbkdf2_length _ _ _ n := by simp
  chacha_length _ _ n := by simp

/-- A key that satisfies the hypotheses of the theorems above: clamped, with a public key. -/
example : ∃ k p c, fromSeed toyPrims [] = .ok k ∧ k.WF ∧ Clamped (kL k.key) ∧ k.publicKey toyCurve = .ok p ∧
    k.deriveChild toyCurve toyPrims 5 .v2 = .ok c := by
  obtain ⟨k, h1, h2, h3, p, h4⟩ := C30_fromSeed toyCurve toyPrims []
  obtain ⟨p', c, _, h5, _⟩ := (C29_failures toyCurve toyPrims k h2 5 .v2).2 (clamped_not_dvd h3)
  exact ⟨k, p, c, h1, h2, h3, h4, h5⟩

/-- … and for it public derivation succeeds too. -/
example : ∃ k p q, fromSeed toyPrims [] = .ok k ∧ k.publicKey toyCurve = .ok p ∧
    p.deriveChild toyCurve toyPrims 5 .v2 = .ok q := by
  obtain ⟨k, h1, h2, h3, p, h4⟩ := C30_fromSeed toyCurve toyPrims []
  obtain ⟨p', c, h5, _, h6⟩ := (C29_failures toyCurve toyPrims k h2 5 .v2).2 (clamped_not_dvd h3)
  rw [h4] at h5
  obtain rfl := Out.ok.inj h5
  obtain ⟨q, hq⟩ := (h6 (by decide)).2 (by show ¬ ellL ∣ kL (zl8 .v2 (1 :: List.replicate 63 0)); decide +kernel)
  exact ⟨k, p, q, h1, h4, hq⟩

/-! ## C86: extended keys as bytes -/

/-- **C86**: an extended key stored with `xbytes` and read back with the constructor is the same key, and
every 96 (64) byte string is the bytes of the key it makes: the key first, then the 32-byte chain code. -/
theorem C86_extended_keys_as_bytes :
    (∀ k : Prv, k.WF → prvOfX k.xbytes = k ∧ k.xbytes.length = 96 ∧ k.xbytes = k.key ++ k.cc) ∧
    (∀ x : Bytes, x.length = 96 → (prvOfX x).WF ∧ (prvOfX x).xbytes = x) ∧
    (∀ k : Pub, k.WF → pubOfX k.xbytes = k ∧ k.xbytes.length = 64 ∧ k.xbytes = k.key ++ k.cc) ∧
    (∀ x : Bytes, x.length = 64 → (pubOfX x).WF ∧ (pubOfX x).xbytes = x) := by
  refine ⟨?_, ?_, ?_, ?_⟩
  · rintro ⟨a, c⟩ ⟨ha, hc⟩
    simp only at ha hc
    refine ⟨?_, by simp [Prv.xbytes, ha, hc], rfl⟩
    simp only [prvOfX, Prv.xbytes, List.take_left' ha, List.drop_left' ha]
  · intro x hx
    exact ⟨⟨by simp [prvOfX, hx], by simp [prvOfX, hx]⟩, by simp [prvOfX, Prv.xbytes]⟩
  · rintro ⟨a, c⟩ ⟨ha, hc⟩
    simp only at ha hc
    refine ⟨?_, by simp [Pub.xbytes, ha, hc], rfl⟩
    simp only [pubOfX, Pub.xbytes, List.take_left' ha, List.drop_left' ha]
  · intro x hx
    exact ⟨⟨by simp [pubOfX, hx], by simp [pubOfX, hx]⟩, by simp [pubOfX, Pub.xbytes]⟩

/-- **C86**: the public half of a stored private key is that of the key. -/
theorem C86_stored_key_public (C : Curve) (k : Prv) (hk : k.WF) :
    (prvOfX k.xbytes).publicKey C = k.publicKey C := by
  rw [(C86_extended_keys_as_bytes.1 k hk).1]

example : (pubOfX ((List.range 64).map UInt8.ofNat)).key.length = 32 ∧
    (pubOfX ((List.range 64).map UInt8.ofNat)).cc.head? = some 32 := by decide +kernel

end Cardano.Bip32
