import Verif.Props.KeyFiles
import Verif.Props.PoolReg

/-! # C75: files of stake pool certificates; C22 for the stake pool's KES classes -/

namespace Cardano.Pool

open Cardano Cardano.Util Cardano.Ledger

/-- `s` is the decimal numeral of `n` without leading zeros. -/
def Decimal (n : Nat) (s : Bytes) : Prop :=
  (∀ c ∈ s, 48 ≤ c.toNat ∧ c.toNat ≤ 57) ∧ s.foldl (fun a c => 10 * a + (c.toNat - 48)) 0 = n ∧
  (s = [48] ∨ ∃ c t, s = c :: t ∧ c ≠ 48)

theorem digitChar_byte : ∀ d < 10, UInt8.ofNat (Nat.digitChar d).toNat = UInt8.ofNat (48 + d) := by decide

theorem decimal_toString (n : Nat) : Decimal n (ascii (toString n)) := by
  have e : ∀ n : Nat, ascii (toString n) = (Nat.toDigits 10 n).map (fun c => UInt8.ofNat c.toNat) := by
    intro n; unfold ascii; rw [show toString n = n.repr from rfl, Nat.toList_repr]
  rw [e]
  have hd : ∀ d < 10, (UInt8.ofNat (48 + d)).toNat = 48 + d := by decide
  have hz : ∀ d < 10, d ≠ 0 → UInt8.ofNat (48 + d) ≠ 48 := by decide
  induction n using Nat.strongRecOn with
  | _ n ih =>
    by_cases h : n < 10
    · rw [Nat.toDigits_of_lt_base h]
      simp only [List.map_cons, List.map_nil, digitChar_byte n h]
      refine ⟨?_, ?_, ?_⟩
      · intro c hc; rw [List.mem_singleton] at hc; subst hc; rw [hd n h]; omega
      · show 10 * 0 + ((UInt8.ofNat (48 + n)).toNat - 48) = n; rw [hd n h]; omega
      · by_cases h0 : n = 0
        · left; subst h0; rfl
        · exact .inr ⟨_, _, rfl, hz n h h0⟩
    · have hb : 10 ≤ n := by omega
      have hlt : n % 10 < 10 := Nat.mod_lt _ (by omega)
      rw [Nat.toDigits_of_base_le (by omega) hb, List.map_append, List.map_singleton, digitChar_byte _ hlt]
      obtain ⟨i1, i2, i3⟩ := ih (n / 10) (by omega)
      refine ⟨?_, ?_, ?_⟩
      · intro c hc
        rcases List.mem_append.mp hc with hc | hc
        · exact i1 c hc
        · rw [List.mem_singleton] at hc; subst hc; rw [hd _ hlt]; omega
      · rw [List.foldl_append, i2]; show 10 * (n / 10) + ((UInt8.ofNat (48 + n % 10)).toNat - 48) = n; rw [hd _ hlt]; omega
      · right
        rcases i3 with h0 | ⟨c, t, h0, h1⟩
        · exfalso
          rw [h0] at i2
          simp at i2
          omega
        · rw [h0]; exact ⟨c, _, rfl, h1⟩

theorem save_fine (dk : Disk) (old t d c : Bytes) (h : Fine dk (specEnvelope t d c)) :
    writeEnvelope dk old t d c = (specEnvelope t d c, .ok ()) := (C18_envelope_partial dk old t d c).2.1 h.1 h.2

/-- **C75** The operational certificate's file: the node's type, no description, and in
hexadecimal the pair of certificate and cold verification key. -/
theorem C75_opcert_file (dk : Disk) (old : Bytes) (c : OpCert) (hc : c.WF) (vkey : Bytes) (hv : vkey.length = 32)
    (ho : dk.openable = true) (hs : 2000 ≤ dk.space) :
    ∃ b, OpCertBytes c.hotVkey c.seq c.period c.sigma b ∧
      c.save dk old vkey = (specEnvelope (ascii "NodeOperationalCertificate") []
        (Hex.encode ([0x82] ++ b ++ [0x58, 0x20] ++ vkey)), .ok ()) := by
  obtain ⟨h1, h2, _⟩ := C56_wire_format c hc vkey hv
  refine ⟨_, h1, ?_⟩
  unfold OpCert.save
  rw [← h2]
  refine save_fine dk old _ _ _ ⟨ho, Nat.le_trans ?_ hs⟩
  obtain ⟨x, y, hx, hy, he⟩ := h1
  have hexlen : ∀ b : Bytes, (Hex.encode b).length = 2 * b.length := by
    intro b
    induction b with
    | nil => rfl
    | cons x b ih => simp [Hex.encode, Hex.byteChars, ih]; omega
  have hu : ∀ n b, CborUint n b → b.length ≤ 9 := by
    rintro n b (⟨_, x, _, rfl⟩ | ⟨_, _, t, ht, _, rfl⟩ | ⟨_, _, t, ht, _, rfl⟩ | ⟨_, _, t, ht, _, rfl⟩ | ⟨_, _, t, ht, _, rfl⟩) <;>
      simp <;> omega
  have l1 : (ascii "{\n    \"type\": \"").length = 15 := by decide +kernel
  have l2 : (ascii "\",\n    \"description\": \"").length = 23 := by decide +kernel
  have l3 : (ascii "\",\n    \"cborHex\": \"").length = 19 := by decide +kernel
  have l4 : (ascii "\"\n}").length = 3 := by decide +kernel
  have l5 : (ascii "NodeOperationalCertificate").length = 26 := by decide +kernel
  have l6 : (ascii "").length = 0 := by decide +kernel
  have a1 := hu _ _ hx
  have a2 := hu _ _ hy
  simp only [specEnvelope, List.length_append, hexlen, l1, l2, l3, l4, l5, l6, h2, he, List.length_cons, List.length_nil, hc.1, hc.2.2.2, hv]
  omega

/-- **C75** The issue counter's file: its description ends in the decimal numeral of the
counter, its content is the pair of counter and cold verification key. -/
theorem C75_counter_file (dk : Disk) (old : Bytes) (n : Nat) (hn : n < 2 ^ 64) (vkey : Bytes) (hv : vkey.length = 32)
    (ho : dk.openable = true) (hs : 2000 ≤ dk.space) :
    ∃ b s, CborUint n b ∧ Decimal n s ∧
      counterSave dk old n vkey = (specEnvelope (ascii "NodeOperationalCertificateIssueCounter")
        (ascii "Next certificate issue number: " ++ s) (Hex.encode ([0x82] ++ b ++ [0x58, 0x20] ++ vkey)), .ok ()) := by
  have hw : (⟨List.replicate 32 0, 0, 0, List.replicate 64 0⟩ : OpCert).WF := ⟨rfl, by decide, by decide, rfl⟩
  obtain ⟨b, hb, he⟩ := (C56_wire_format _ hw vkey hv).2.2 n hn
  refine ⟨b, _, hb, decimal_toString n, ?_⟩
  unfold counterSave
  rw [he]
  refine save_fine dk old _ _ _ ⟨ho, Nat.le_trans ?_ hs⟩
  have hexlen : ∀ b : Bytes, (Hex.encode b).length = 2 * b.length := by
    intro b
    induction b with
    | nil => rfl
    | cons x b ih => simp [Hex.encode, Hex.byteChars, ih]; omega
  have hu : b.length ≤ 9 := by
    rcases hb with ⟨_, x, _, rfl⟩ | ⟨_, _, t, ht, _, rfl⟩ | ⟨_, _, t, ht, _, rfl⟩ | ⟨_, _, t, ht, _, rfl⟩ | ⟨_, _, t, ht, _, rfl⟩ <;>
      simp <;> omega
  have hdl : (ascii (toString n)).length ≤ 20 := by
    unfold ascii
    rw [show toString n = n.repr from rfl, Nat.toList_repr, List.length_map, Nat.length_toDigits_le_iff (by omega) (by omega)]
    omega
  have l1 : (ascii "{\n    \"type\": \"").length = 15 := by decide +kernel
  have l2 : (ascii "\",\n    \"description\": \"").length = 23 := by decide +kernel
  have l3 : (ascii "\",\n    \"cborHex\": \"").length = 19 := by decide +kernel
  have l4 : (ascii "\"\n}").length = 3 := by decide +kernel
  have l5 : (ascii "NodeOperationalCertificateIssueCounter").length = 38 := by decide +kernel
  have l6 : (ascii "Next certificate issue number: ").length = 31 := by decide +kernel
  simp only [specEnvelope, List.length_append, hexlen, l1, l2, l3, l4, l5, l6, List.length_cons, List.length_nil, hv]
  omega

/-- **C75** A retirement certificate's bytes are the ledger's `[4, pool_keyhash, epoch]`, for
every pool key and the last epoch that was set. -/
theorem C75_retirement_bytes (E : Env) (vkey : Bytes) (epoch : Nat) (epochs : List Nat) (he : ∀ e ∈ epoch :: epochs, e < 2 ^ 64) :
    ∃ b last, (epoch :: epochs).getLast? = some last ∧ CborUint last b ∧
      (epochs.foldl Retirement.setEpoch (retire E vkey epoch)).serialize =
        .ok ([0x83, 0x04, 0x58, 0x1C] ++ E.blake224 vkey ++ b) := by
  have hf : ∀ (l : List Nat) (r : Retirement), (l.foldl Retirement.setEpoch r).pool = r.pool ∧
      (r.epoch :: l).getLast? = some (l.foldl Retirement.setEpoch r).epoch := by
    intro l
    induction l with
    | nil => intro r; exact ⟨rfl, rfl⟩
    | cons x l ih =>
      intro r
      obtain ⟨h1, h2⟩ := ih (r.setEpoch x)
      refine ⟨h1, ?_⟩
      rw [List.getLast?_cons_cons]
      exact h2
  obtain ⟨h1, h2⟩ := hf epochs (retire E vkey epoch)
  set r := epochs.foldl Retirement.setEpoch (retire E vkey epoch) with hr
  have hlt : r.epoch < 2 ^ 64 := he _ (List.mem_of_getLast? h2)
  refine ⟨_, r.epoch, h2, cborUint_enc _ hlt, ?_⟩
  have hp : r.pool.length = 28 := by rw [h1]; exact E.blake224_length _
  have e28 : Cbor.enc (.bstr r.pool) = [0x58, 0x1C] ++ r.pool := by unfold Cbor.enc; rw [hp]; rfl
  show Out.ok (Cbor.enc (.array [.uint 4, .bstr r.pool, .uint r.epoch])) = _
  have h0 : Cbor.enc (.array [.uint 4, .bstr r.pool, .uint r.epoch]) =
      Cbor.encHeader 4 [Cbor.Item.uint 4, .bstr r.pool, .uint r.epoch].length ++
        (Cbor.enc (.uint 4) ++ (Cbor.enc (.bstr r.pool) ++ Cbor.enc (.uint r.epoch))) := by
    simp only [Cbor.enc, Cbor.encList, List.append_nil]
  rw [h0, e28]
  have a1 : Cbor.encHeader 4 [Cbor.Item.uint 4, .bstr r.pool, .uint r.epoch].length = [0x83] := rfl
  have a2 : Cbor.enc (.uint 4) = [0x04] := by decide
  rw [a1, a2, h1]
  simp [retire, poolId]

/-- **C75 fails** for the `type` of registration and retirement files. The node's name for a
file with a ledger certificate is `CertificateShelley` (with an era suffix for other eras).
A registration is written under the name of an operational certificate, a retirement under
the name of the C++ class; everything else in the files is as it should be. -/
theorem C75_certificate_types_partial (dk : Disk) (old : Bytes) (p : PoolParams) (r : Retirement) (b b' : Bytes)
    (hp : regSerialize p = .ok b) (hr : r.serialize = .ok b')
    (f : Fine dk (specEnvelope (ascii "NodeOperationalCertificate") (ascii "Stake Pool Registration Certificate") (Hex.encode b)))
    (f' : Fine dk (specEnvelope (ascii "DeregistrationCertificateManager") (ascii "Stake Pool Retirement Certificate") (Hex.encode b'))) :
    regSave dk old p = (specEnvelope (ascii "NodeOperationalCertificate") (ascii "Stake Pool Registration Certificate") (Hex.encode b), .ok ()) ∧
    r.save dk old = (specEnvelope (ascii "DeregistrationCertificateManager") (ascii "Stake Pool Retirement Certificate") (Hex.encode b'), .ok ()) ∧
    (∀ d c, (regSave dk old p).1 ≠ specEnvelope (ascii "CertificateShelley") d c) ∧
    (∀ d c, (r.save dk old).1 ≠ specEnvelope (ascii "CertificateShelley") d c) := by
  have e1 : regSave dk old p = (specEnvelope (ascii "NodeOperationalCertificate") (ascii "Stake Pool Registration Certificate") (Hex.encode b), .ok ()) := by
    unfold regSave; rw [hp]; exact save_fine dk old _ _ _ f
  have e2 : r.save dk old = (specEnvelope (ascii "DeregistrationCertificateManager") (ascii "Stake Pool Retirement Certificate") (Hex.encode b'), .ok ()) := by
    unfold Retirement.save; rw [hr]; exact save_fine dk old _ _ _ f'
  have ne : ∀ (t d c d' c' : Bytes), t.take 1 ≠ [67] → t ≠ [] → specEnvelope t d c ≠ specEnvelope (ascii "CertificateShelley") d' c' := by
    intro t d c d' c' ht h0 h
    simp only [specEnvelope, List.append_assoc] at h
    have h := List.append_cancel_left h
    have h2 := congrArg (List.take 1) h
    cases t with
    | nil => exact h0 rfl
    | cons x t =>
      have : (ascii "CertificateShelley") = 67 :: (ascii "ertificateShelley") := by decide +kernel
      rw [this] at h2
      apply ht
      simpa using h2
  refine ⟨e1, e2, fun d c => ?_, fun d c => ?_⟩
  · rw [e1]; exact ne _ _ _ _ _ (by decide +kernel) (by decide +kernel)
  · rw [e2]; exact ne _ _ _ _ _ (by decide +kernel) (by decide +kernel)

/-- **C75** If the certificate cannot be serialized (an IPv6 relay), the file is not touched. -/
theorem C75_failure_keeps_file (dk : Disk) (old : Bytes) (p : PoolParams) (ip : Bytes) (port : Nat)
    (hr : .addr none (some ip) (some port) ∈ p.relays) : regSave dk old p = (old, .throw .badOptional) := by
  unfold regSave; rw [C58_ipv6_relay p ip port hr]

/-- **C22** for the stake pool classes: the key made by `KesSigningKey::generate` is the key of
the underlying generator (nothing is lost by the copy), and after any number of updates up to
63 its signatures are accepted by `KesVerificationKey::verifySignature` for that period. -/
theorem C22_pool_kes (C : SigHash) (seed : Bytes) (hs : seed.length = 32) (t : Nat) (ht : t < 64) (msg : Bytes)
    (hz : ¬ C.zeroNonce (KesSpec.seedAt C seed (KesSpec.leafPath 6 t)) msg) :
    ∃ s pk wiped g k sig, Kes.keygen C 6 seed = .ok (s, pk, wiped) ∧ kesGenerate s = .ok g ∧ g = s ∧
      Kes.updates C 6 t g = .ok k ∧ Kes.sign C 6 k msg = .ok sig ∧ sig.length = 448 ∧
      kesVerify C pk t msg sig = .ok true := by
  obtain ⟨k0, pk, w, k, sig, h1, h2, h3, h4, h5⟩ := Kes.C22_signatures_verify C 6 (by omega) seed hs t (by omega) msg hz
  obtain ⟨k0', pk', w', k', r, g1, g2, g3, g4, _⟩ := C72_kes_partial C seed hs 0 (by omega)
  rw [h1] at g1
  simp only [Out.ok.injEq, Prod.mk.injEq] at g1
  obtain ⟨rfl, rfl, _⟩ := g1
  have hk : k0 = k' := Out.ok.inj g2
  have hg : kesGenerate k0 = .ok k0 := by
    unfold kesGenerate
    rw [show Kes.keySize 6 = 608 by decide]
    rw [← hk] at g3
    rw [g3, g4 rfl, ← hk]
  have h4' : sig.length = 448 := by rw [h4]; decide
  refine ⟨k0, pk, w, k0, k, sig, h1, hg, rfl, h2, h3, h4', ?_⟩
  unfold kesVerify Kes.sigFromBytes
  rw [if_neg (by rw [h4]; simp)]
  exact h5

/-- A retirement whose epoch was set twice. -/
example : ([300, 500].foldl Retirement.setEpoch (retire toyEnv (List.replicate 32 9) 7)).serialize =
    .ok ([0x83, 0x04, 0x58, 0x1C] ++ List.replicate 28 9 ++ [0x19, 0x01, 0xF4]) := by decide +kernel

end Cardano.Pool
