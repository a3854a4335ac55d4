import Verif.Props.OpCert
import Verif.Props.Bip32

/-! # C74: keys derived from an Icarus root, and stake pool cold keys (CIP-1853) -/

namespace Cardano.Bip32

open Cardano Cardano.Ed Cardano.Spec.Bip32

/-- The range of Icarus root scalars and of everything derived from them in `n` steps. -/
def IcarusRange (n : Nat) (x : Nat) : Prop := 8 ∣ x ∧ 2 ^ 254 ≤ x ∧ x ≤ 2 ^ 254 + 2 ^ 253 + n * 2 ^ 227

theorem icarusRange_not_dvd {n x : Nat} (hn : n < 2 ^ 26) (h : IcarusRange n x) : ¬ ellL ∣ x := by
  refine clamped_not_dvd ⟨h.1, h.2.1, ?_⟩
  have h1 : n * 2 ^ 227 ≤ (2 ^ 26 - 1) * 2 ^ 227 := Nat.mul_le_mul_right _ (by omega)
  have h2 : 2 ^ 254 + 2 ^ 253 + (2 ^ 26 - 1) * 2 ^ 227 < (2 : Nat) ^ 255 := by decide +kernel
  exact Nat.lt_of_le_of_lt h.2.2 (Nat.lt_of_le_of_lt (Nat.add_le_add_left h1 _) h2)

/-- **C74** From every root in the Icarus range (all of `fromMnemonic`'s and `generate`'s keys,
see `C30_fromMnemonic`), derivation along every path of fewer than 2^26 steps succeeds, is the
derivation of the BIP32-Ed25519 paper at each step, and the derived key has a public key. -/
theorem C74_path (C : Curve) (P : Prims) : ∀ (path : List UInt32) (k : Prv) (n : Nat), k.WF → IcarusRange n (kL k.key) →
    n + path.length < 2 ^ 26 →
    ∃ c, derivePath C P .v2 k path = .ok c ∧ c.WF ∧
      Descendant P.hmac (fun key => C.enc (kL key • C.B)) k.key k.cc (path.map UInt32.toNat) c.key c.cc ∧
      IcarusRange (n + path.length) (kL c.key) ∧ c.publicKey C = .ok ⟨C.enc (kL c.key • C.B), c.cc⟩ := by
  intro path
  induction path with
  | nil =>
    intro k n hw hr hn
    exact ⟨k, rfl, hw, ⟨rfl, rfl⟩, hr, publicKey_of (icarusRange_not_dvd (by simpa using hn) hr)⟩
  | cons i is ih =>
    intro k n hw hr hn
    have hd := icarusRange_not_dvd (by simp at hn; omega) hr
    have hp : k.publicKey C = .ok ⟨C.enc (kL k.key • C.B), k.cc⟩ := publicKey_of hd
    have hbound : kL k.key ≤ 2 ^ 256 - 2 ^ 227 := by
      have h1 : n * 2 ^ 227 ≤ (2 ^ 26 - 1) * 2 ^ 227 := Nat.mul_le_mul_right _ (by simp at hn; omega)
      have h2 : 2 ^ 254 + 2 ^ 253 + (2 ^ 26 - 1) * 2 ^ 227 ≤ (2 : Nat) ^ 256 - 2 ^ 227 := by decide +kernel
      exact Nat.le_trans hr.2.2 (Nat.le_trans (Nat.add_le_add_left h1 _) h2)
    obtain ⟨c, h1, h2⟩ := C34_v2_is_paper_child C P k hw i _ hp hbound
    obtain ⟨c', e1, e2, e3, _⟩ := deriveChild_prv C P k hw i .v2 hd
    rw [h1] at e1
    obtain rfl := Out.ok.inj e1
    have hz : kL (zl8 .v2 (zOf C P k i .v2)) < 2 ^ 227 := kL_zl8_lt P _ _
    have hz8 : kL (zl8 .v2 (zOf C P k i .v2)) = 8 * leNat ((zOf C P k i .v2).take 28) := zl8_v2 _ (P.hmac_length _ _)
    have e3' : kL c.key = kL (zl8 .v2 (zOf C P k i .v2)) + kL k.key := by
      rw [e3, childScalar]
      apply Nat.mod_eq_of_lt
      have : (2 : Nat) ^ 227 < 2 ^ 256 := by decide +kernel
      omega
    have hr' : IcarusRange (n + 1) (kL c.key) := by
      refine ⟨?_, ?_, ?_⟩
      · rw [e3', hz8]; exact Nat.dvd_add (Nat.dvd_mul_right _ _) hr.1
      · rw [e3']; exact Nat.le_trans hr.2.1 (Nat.le_add_left _ _)
      · rw [e3', Nat.add_mul]; have := hr.2.2; omega
    obtain ⟨d, f1, f2, f3, f4, f5⟩ := ih c (n + 1) e2 hr' (by simp at hn; omega)
    refine ⟨d, ?_, f2, ⟨_, _, h2, f3⟩, ?_, f5⟩
    · rw [derivePath, h1]; exact f1
    · rw [List.length_cons, show n + (is.length + 1) = n + 1 + is.length by omega]; exact f4

/-- **C74** The path determines the key: the specification admits one descendant only. -/
theorem C74_path_unique (hmac : Bytes → Bytes → Bytes) (pk : Bytes → Bytes) :
    ∀ (path : List Nat) (k cc k' cc' l' lc' : Bytes), (∀ i ∈ path, i < 2 ^ 32) →
      Descendant hmac pk k cc path k' cc' → Descendant hmac pk k cc path l' lc' → k' = l' ∧ cc' = lc' := by
  intro path
  induction path with
  | nil =>
    intro k cc k' cc' l' lc' _ h1 h2
    exact ⟨h1.1.trans h2.1.symm, h1.2.trans h2.2.symm⟩
  | cons i is ih =>
    intro k cc k' cc' l' lc' hi ⟨k1, cc1, h1, h1'⟩ ⟨l1, lc1, h2, h2'⟩
    have key : k1.length = 64 ∧ l1.length = 64 ∧ kL k1 = kL l1 ∧ kR k1 = kR l1 ∧ cc1 = lc1 := by
      have hib : (Util.packLE 4 i).length = 4 ∧ leNat (Util.packLE 4 i) = i := by
        have := (Util.C16_pack_unpack 4).1 i (by have := hi i (by simp); omega)
        exact ⟨by have := this; tauto, by have := this; tauto⟩
      by_cases hh : Hardened i
      · obtain ⟨a1, a2, a3, a4⟩ := h1 _ hib.1 hib.2 _ _ (fun _ => ⟨rfl, rfl⟩) (fun h => absurd hh h)
        obtain ⟨b1, b2, b3, b4⟩ := h2 _ hib.1 hib.2 _ _ (fun _ => ⟨rfl, rfl⟩) (fun h => absurd hh h)
        exact ⟨a1, b1, a2.trans b2.symm, a3.trans b3.symm, a4.trans b4.symm⟩
      · obtain ⟨a1, a2, a3, a4⟩ := h1 _ hib.1 hib.2 _ _ (fun h => absurd h hh) (fun _ => ⟨rfl, rfl⟩)
        obtain ⟨b1, b2, b3, b4⟩ := h2 _ hib.1 hib.2 _ _ (fun h => absurd h hh) (fun _ => ⟨rfl, rfl⟩)
        exact ⟨a1, b1, a2.trans b2.symm, a3.trans b3.symm, a4.trans b4.symm⟩
    obtain ⟨hk1, hl1, e1, e2, e3⟩ := key
    have ek : k1 = l1 := by
      rw [← List.take_append_drop 32 k1, ← List.take_append_drop 32 l1]
      rw [leNat_inj (by simp [hk1, hl1]) e1, leNat_inj (by simp [hk1, hl1]) e2]
    subst ek e3
    exact ih k1 cc1 k' cc' l' lc' (fun j hj => hi j (by simp [hj])) h1' h2'

end Cardano.Bip32

namespace Cardano.Pool

open Cardano Cardano.Ed Cardano.Spec.Bip32

/-- The path of CIP-1853 for the first cold key: purpose 1853', coin type 1815', use case 0',
cold key index 0' (hardened indices have 2^31 added). -/
def coldPath : List Nat := [2 ^ 31 + 1853, 2 ^ 31 + 1815, 2 ^ 31 + 0, 2 ^ 31 + 0]

theorem fromRootKey_eq (E : Env) (root c : Bip32.Prv) (hc : c.WF)
    (h : Bip32.derivePath E.C E.P .v2 root [2147485501, 2147485463, 2147483648, 2147483648] = .ok c) :
    fromRootKey E root = .ok c := by
  have hx : Bip32.prvOfX c.xbytes = c := by
    unfold Bip32.prvOfX Bip32.Prv.xbytes
    rw [List.take_left' hc.1, List.drop_left' hc.1]
  simp only [Bip32.derivePath] at h
  obtain ⟨k1, h1, h⟩ := Out.bind_eq_ok.mp h
  obtain ⟨k2, h2, h⟩ := Out.bind_eq_ok.mp h
  obtain ⟨k3, h3, h⟩ := Out.bind_eq_ok.mp h
  obtain ⟨k4, h4, h⟩ := Out.bind_eq_ok.mp h
  obtain rfl := Out.ok.inj h
  unfold fromRootKey
  rw [show Bip32.hardenIndex 1853 = 2147485501 by decide, show Bip32.hardenIndex 1815 = 2147485463 by decide,
    show Bip32.hardenIndex 0 = 2147483648 by decide, h1, Out.ok_bind, h2, Out.ok_bind, h3, Out.ok_bind, h4, Out.ok_bind, hx]
  rfl

/-- **C74** From every root in the Icarus range `fromRootKey` returns the key at path
1853'/1815'/0'/0' of CIP-1853, and it has a verification key and a pool id. -/
theorem C74_from_root (E : Env) (root : Bip32.Prv) (hw : root.WF) (hr : Bip32.IcarusRange 0 (kL root.key)) :
    ∃ k, fromRootKey E root = .ok k ∧
      Descendant E.P.hmac (fun key => E.C.enc (kL key • E.C.B)) root.key root.cc coldPath k.key k.cc ∧
      xskeyVkey E k = .ok (E.C.enc (kL k.key • E.C.B)) ∧
      xskeyPoolId E k = .ok (E.blake224 (E.C.enc (kL k.key • E.C.B))) := by
  obtain ⟨c, h1, h2, h3, _, h5⟩ := Bip32.C74_path E.C E.P [2147485501, 2147485463, 2147483648, 2147483648] root 0 hw hr (by decide)
  have hv : xskeyVkey E c = .ok (E.C.enc (kL c.key • E.C.B)) := by unfold xskeyVkey; rw [h5]; rfl
  refine ⟨c, fromRootKey_eq E root c h2 h1, h3, hv, ?_⟩
  unfold xskeyPoolId; rw [hv]; rfl

/-- **C74** From a mnemonic: the Icarus master key (CIP-3, no passphrase) and then the CIP-1853
path; every mnemonic whose entropy can be recovered gives a key. -/
theorem C74_from_mnemonic (E : Env) (mn : Mnemonic.Mn) (entropy : Bytes) (cs : Nat)
    (hs : Mnemonic.toEntropy mn = .ok (entropy, cs)) :
    ∃ root rcc k, IsIcarusMaster (E.P.pbkdf2 4096 [] entropy 96) root rcc ∧ fromMnemonic E mn = .ok k ∧
      Descendant E.P.hmac (fun key => E.C.enc (kL key • E.C.B)) root rcc coldPath k.key k.cc ∧
      ∃ v, xskeyVkey E k = .ok v := by
  have hs' : Mnemonic.toSeed mn = .ok entropy := by unfold Mnemonic.toSeed; rw [hs]; rfl
  obtain ⟨r, h1, h2, h3, h4, _⟩ := Bip32.C30_fromMnemonic E.C E.P mn [] entropy hs'
  have hr : Bip32.IcarusRange 0 (kL r.key) := ⟨h3.1, h3.2.1, by omega⟩
  obtain ⟨k, e1, e2, e3, _⟩ := C74_from_root E r h2 hr
  refine ⟨r.key, r.cc, k, Bip32.C30_icarus_standard E.P mn [] entropy cs r hs h1, ?_, e2, _, e3⟩
  unfold fromMnemonic
  rw [h1, Out.ok_bind]
  exact e1

/-- A root in the Icarus range: the key of any seed phrase is one (`C30_fromMnemonic`), here the
smallest. -/
example : ∃ root : Bip32.Prv, root.WF ∧ Bip32.IcarusRange 0 (kL root.key) ∧ ∃ k, fromRootKey toyEnv root = .ok k := by
  have hw : (⟨List.replicate 31 0 ++ 64 :: List.replicate 32 5, List.replicate 32 7⟩ : Bip32.Prv).WF := ⟨by decide, by decide⟩
  have hr : Bip32.IcarusRange 0 (kL (List.replicate 31 0 ++ 64 :: List.replicate 32 5)) := by
    unfold Bip32.IcarusRange; decide +kernel
  obtain ⟨k, h, _⟩ := C74_from_root toyEnv _ hw hr
  exact ⟨_, hw, hr, k, h⟩

end Cardano.Pool
