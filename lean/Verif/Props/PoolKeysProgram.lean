import Verif.Model.PoolKeysProgram
import Verif.Props.CertFiles
import Verif.Props.ColdKey
import Verif.Props.Operator
import Verif.Props.Vrf
import Verif.Props.Bip173

/-! # C95: the files made by the example program `generate_stake_pool_keys` -/

namespace Cardano.PoolKeys

open Cardano Cardano.Ed Cardano.Util Cardano.Pool Cardano.Bip173 Cardano.Spec.Bip32

/-- The files of the program, in the order in which they are written. -/
def names : List String :=
  ["./cold.skey", "./cold.vkey", "./kes.skey", "./kes.vkey", "./cold.counter", "./pool.cert", "./vrf.skey", "./vrf.vkey"]

/-- The device takes the file. -/
def Good (dk : Disk) : Prop := dk.openable = true ∧ 2000 ≤ dk.space

/-- What the program computes, apart from the files. -/
structure Values where
  coldSkey : Bip32.Prv
  coldVkey : Bytes
  printed : Bytes
  kesSkey : Kes.Key
  kesVkey : Bytes
  cert : OpCert
  vrfSkey : Bytes
  vrfVkey : Bytes

/-- The content of each file. -/
def Values.content (v : Values) (certBytes : Bytes) : String → Bytes
  | "./cold.skey" => specEnvelope (ascii "StakePoolExtendedSigningKey_ed25519_bip32") (ascii "Stake Pool Operator Signing Key")
      (ascii "5840" ++ Hex.encode v.coldSkey.key)
  | "./cold.vkey" => specEnvelope (ascii "StakePoolVerificationKey_ed25519") (ascii "Stake Pool Operator Verification Key")
      (ascii "5820" ++ Hex.encode v.coldVkey)
  | "./kes.skey" => specEnvelope (ascii "KesSigningKey_ed25519_kes_2^6") (ascii "KES Signing Key")
      (ascii "590260" ++ Hex.encode (v.kesSkey.prv.take 608))
  | "./kes.vkey" => specEnvelope (ascii "KesVerificationKey_ed25519_kes_2^6") (ascii "KES Verification Key")
      (ascii "5820" ++ Hex.encode v.kesVkey)
  | "./cold.counter" => specEnvelope (ascii "NodeOperationalCertificateIssueCounter") (ascii "Next certificate issue number: 0")
      (ascii "82005820" ++ Hex.encode v.coldVkey)
  | "./pool.cert" => specEnvelope (ascii "NodeOperationalCertificate") []
      (ascii "82" ++ Hex.encode certBytes ++ ascii "5820" ++ Hex.encode v.coldVkey)
  | "./vrf.skey" => specEnvelope (ascii "VrfSigningKey_PraosVRF") (ascii "VRF Signing Key") (ascii "5840" ++ Hex.encode v.vrfSkey)
  | "./vrf.vkey" => specEnvelope (ascii "VrfVerificationKey_PraosVRF") (ascii "VRF Verification Key") (ascii "5820" ++ Hex.encode v.vrfVkey)
  | _ => []

/-- Saving to a good device. -/
theorem save_good (dk : String → Disk) (name : String) (w : Disk → Bytes → Bytes × Out Unit) (rest : Dir → Dir × Out Bytes) (fs : Dir)
    (c : Bytes) (hg : (dk name).openable = true) (hw : w (dk name) ((fs name).getD []) = (c, .ok ())) :
    save dk name w rest fs = rest (fs.set name c) := by
  unfold save; rw [hg, hw]

/-- Saving to a file that cannot be opened. -/
theorem save_bad (dk : String → Disk) (name : String) (w : Disk → Bytes → Bytes × Out Unit) (rest : Dir → Dir × Out Bytes) (fs : Dir)
    (c : Bytes) (e : Exc) (hg : (dk name).openable = false) (hw : w (dk name) ((fs name).getD []) = (c, .throw e)) :
    save dk name w rest fs = (fs, .throw e) := by
  unfold save; rw [hg, hw]; rfl

theorem cold_key (E : Env) (mn : Mnemonic.Mn) (entropy : Bytes) (cs : Nat) (hs : Mnemonic.toEntropy mn = .ok (entropy, cs)) :
    ∃ root rcc k, IsIcarusMaster (E.P.pbkdf2 4096 [] entropy 96) root rcc ∧ fromMnemonic E mn = .ok k ∧ k.WF ∧
      Descendant E.P.hmac (fun key => E.C.enc (kL key • E.C.B)) root rcc coldPath k.key k.cc ∧
      ¬ ellL ∣ leNat (k.key.take 32) ∧ xskeyVkey E k = .ok (E.C.enc (kL k.key • E.C.B)) := by
  have hs' : Mnemonic.toSeed mn = .ok entropy := by unfold Mnemonic.toSeed; rw [hs]; rfl
  obtain ⟨r, h1, h2, h3, h4, _⟩ := Bip32.C30_fromMnemonic E.C E.P mn [] entropy hs'
  have hr : Bip32.IcarusRange 0 (kL r.key) := ⟨h3.1, h3.2.1, by omega⟩
  obtain ⟨c, g1, g2, g3, g4, g5⟩ := Bip32.C74_path E.C E.P [2147485501, 2147485463, 2147483648, 2147483648] r 0 h2 hr (by decide)
  refine ⟨r.key, r.cc, c, Bip32.C30_icarus_standard E.P mn [] entropy cs r hs h1, ?_, g2, g3, Bip32.icarusRange_not_dvd (by decide) g4, ?_⟩
  · have := fromRootKey_eq E r c g2 g1
    unfold fromMnemonic
    rw [h1]
    exact this
  · unfold xskeyVkey; rw [g5]; rfl

theorem kes_key (S : SigHash) (seed : Bytes) (hs : seed.length = 32) :
    ∃ s pk w, Kes.keygen S 6 seed = .ok (s, pk, w) ∧ kesGenerate s = .ok s ∧ Kes.publicKey S 5 s = .ok pk ∧ pk.length = 32 ∧
      608 ≤ s.prv.length ∧ Kes.fromBytes 6 (s.prv.take 608) = .ok s := by
  obtain ⟨k0, pk, w, k, r, h1, h2, h3, h4, h5, h6⟩ := C72_kes_partial S seed hs 0 (by omega)
  have hk : k0 = k := Out.ok.inj h2
  subst hk
  obtain rfl := h4 rfl
  have hpk : pk.length = 32 := by
    obtain ⟨k0', pk', k', g1, g2, g3, g4⟩ := Kes.C23_public_key_constant S 5 (by omega) seed hs 0 (by omega)
    unfold Kes.publicKey at h5
    obtain ⟨a, -, h5⟩ := Out.bind_eq_ok.mp h5
    obtain ⟨b, -, h5⟩ := Out.bind_eq_ok.mp h5
    rw [← Out.ok.inj h5]; exact S.hash_length _
  have hl : 608 ≤ r.prv.length := by
    by_contra hn
    unfold Kes.fromBytes at h3
    split at h3
    · cases h3
    · rename_i hx
      rw [List.length_take] at hx
      have : Kes.keySize 6 = 608 := by decide
      omega
  exact ⟨r, pk, w, h1, by unfold kesGenerate; rw [show Kes.keySize 6 = 608 by decide]; exact h3, h5, hpk, hl, h3⟩

/-- The values belong together. -/
structure Consistent (E : Env) (S : SigHash) (kesSeed : Bytes) (v : Values) (certBytes : Bytes) : Prop where
  /-- the pool id on the screen is the hash of the key in `cold.vkey`, in Bech32 with the prefix `pool` -/
  printed : IsString v.printed (ascii "pool") (E.blake224 v.coldVkey)
  /-- `cold.vkey` is the public key of `cold.skey` -/
  cold : v.coldVkey = E.C.enc (leNat (v.coldSkey.key.take 32) • E.C.B)
  /-- `pool.cert` is about the key in `kes.vkey`, has number 0 and starts in period 1 -/
  cert : OpCertBytes v.kesVkey 0 1 v.cert.sigma certBytes
  /-- … and is signed by the key in `cold.skey` -/
  signed : ∃ msg, SignableBytes v.kesVkey 0 1 msg ∧ verifyDetached E.C E.P.sha512 v.cert.sigma msg v.coldVkey = true
  /-- the key read from `kes.skey` signs for `kes.vkey`, in all its periods -/
  kes : ∃ k, Kes.fromBytes 6 (v.kesSkey.prv.take 608) = .ok k ∧ ∀ t < 64, ∀ msg,
    ¬ S.zeroNonce (KesSpec.seedAt S kesSeed (KesSpec.leafPath 6 t)) msg →
    ∃ kt sig, Kes.updates S 6 t k = .ok kt ∧ Kes.sign S 6 kt msg = .ok sig ∧ kesVerify S v.kesVkey t msg sig = .ok true
  /-- the key in `vrf.skey` makes proofs for `vrf.vkey` -/
  vrf : ∀ (G : Elligator E.C) msg, ∃ proof, Vrf.constructProof G E.P.sha512 v.vrfSkey msg = .ok proof ∧
    Vrf.pubVerifyProof G E.P.sha512 v.vrfVkey msg proof = .ok true
  /-- sizes of the keys -/
  sizes : v.coldSkey.key.length = 64 ∧ v.coldVkey.length = 32 ∧ v.kesVkey.length = 32 ∧ (v.kesSkey.prv.take 608).length = 608 ∧
    v.vrfSkey.length = 64 ∧ v.vrfVkey.length = 32

/-- The program's computations. -/
structure Computes (E : Env) (S : SigHash) (text kesSeed vrfRandom : Bytes) (v : Values) : Prop where
  mn : ∃ mn, Mnemonic.ofString .english text = .ok mn ∧ fromMnemonic E mn = .ok v.coldSkey
  coldVkey : xskeyVkey E v.coldSkey = .ok v.coldVkey
  printed : Bech32.encode (ascii "pool") (poolId E v.coldVkey) = .ok v.printed
  kes : ∃ pk w, Kes.keygen S 6 kesSeed = .ok (v.kesSkey, pk, w) ∧ kesGenerate v.kesSkey = .ok v.kesSkey
  kesVkey : Kes.publicKey S 5 v.kesSkey = .ok v.kesVkey
  cert : generateX E v.kesVkey 0 1 v.coldSkey = .ok v.cert
  vrf : Vrf.generate E.C E.P.sha512 vrfRandom = v.vrfSkey ∧ Vrf.publicKey v.vrfSkey = v.vrfVkey

/-- The program with its values filled in: eight files one after the other. -/
theorem main_eq (E : Env) (S : SigHash) (dk : String → Disk) (text kesSeed vrfRandom : Bytes) (v : Values)
    (h : Computes E S text kesSeed vrfRandom v) :
    main E S dk text kesSeed vrfRandom =
      (save dk "./cold.skey" (saveXskey · · v.coldSkey) <| save dk "./cold.vkey" (saveVkey · · v.coldVkey) <|
       save dk "./kes.skey" (saveKesSkey · · v.kesSkey) <| save dk "./kes.vkey" (saveKesVkey · · v.kesVkey) <|
       save dk "./cold.counter" (counterSave · · 0 v.coldVkey) <| save dk "./pool.cert" (OpCert.save · · v.cert v.coldVkey) <|
       save dk "./vrf.skey" (saveVrfSkey · · v.vrfSkey) <| save dk "./vrf.vkey" (saveVrfVkey · · v.vrfVkey) <|
       fun fs => (fs, .ok v.printed)) := by
  obtain ⟨mn, h1, h2⟩ := h.mn
  obtain ⟨pk, w, h3, h4⟩ := h.kes
  have hk : (do let (s, _, _) ← Kes.keygen S 6 kesSeed; kesGenerate s) = .ok v.kesSkey := by rw [h3]; exact h4
  have hc : ∀ {α : Type} (x : Out α) (a : α) (rest : α → Dir → Dir × Out Bytes), x = .ok a → call x rest = rest a := by
    intro α x a rest e; subst e; rfl
  unfold main
  rw [hc _ _ _ h1, hc _ _ _ h2, hc _ _ _ h.coldVkey, hc _ _ _ h.printed, hc _ _ _ hk, hc _ _ _ h.kesVkey, hc _ _ _ h.cert]
  simp only [h.vrf.1, h.vrf.2]

/-- Every accepted phrase and all random numbers give values, and they belong together. -/
theorem computes (E : Env) (S : SigHash) (text kesSeed vrfRandom : Bytes) (mn : Mnemonic.Mn) (hmn : Mnemonic.ofString .english text = .ok mn)
    (hk : kesSeed.length = 32) (hv : vrfRandom.length = 32)
    (hnonce : ∀ k msg hot, fromMnemonic E mn = .ok k → hot.length = 32 → SignableBytes hot 0 1 msg →
      ¬ ellL ∣ leNat (E.P.sha512 (k.key.drop 32 ++ msg))) :
    ∃ v, Computes E S text kesSeed vrfRandom v ∧ Consistent E S kesSeed v v.cert.serialize ∧ v.cert.WF := by
  obtain ⟨v1, v2⟩ := Mnemonic.C21_ofString_indexes _ _ mn hmn
  obtain ⟨ent, cs, t1, -⟩ := Mnemonic.C19_toEntropy_spec mn v1 v2
  obtain ⟨root, rcc, k, -, c1, c2, -, c3, c4⟩ := cold_key E mn ent cs t1
  obtain ⟨s, pk, w, k1, k2, k3, k4, k5, k6⟩ := kes_key S kesSeed hk
  obtain ⟨text', e1, e2⟩ := (Bech32.C03_bech32_roundtrip (ascii "pool") (poolId E (E.C.enc (kL k.key • E.C.B)))).1
    (by decide +kernel) (by decide +kernel)
  have hmsg : SignableBytes pk 0 1 (pk ++ List.replicate 8 0 ++ (List.replicate 7 0 ++ [1])) :=
    ⟨_, _, rfl, by decide, rfl, by decide, rfl⟩
  obtain ⟨c, g1⟩ := C56_generate_extended_total E pk _ 0 1 k (by decide) (by decide) hmsg c3 (hnonce k _ pk c1 k4 hmsg)
  obtain ⟨g2, g3, g4, g5, -, vk, g6, g7⟩ := C56_generate_extended E pk 0 1 k c (by decide) (by decide) g1
  obtain rfl : E.C.enc (kL k.key • E.C.B) = vk := Out.ok.inj (c4.symm.trans g6)
  have hwf : c.WF := ⟨by rw [g2]; exact k4, by rw [g3]; decide, by rw [g4]; decide, g5⟩
  have hcv : (E.C.enc (kL k.key • E.C.B)).length = 32 := E.C.enc_length _
  obtain ⟨q1, q2, q3, -⟩ := Vrf.C59_fromSeed E.C E.P.sha512 vrfRandom hv
  have hvl : (Vrf.publicKey (Vrf.fromSeed E.C E.P.sha512 vrfRandom)).length = 32 := by
    rw [q3]; exact E.C.enc_length _
  refine ⟨⟨k, _, text', s, pk, c, Vrf.fromSeed E.C E.P.sha512 vrfRandom, Vrf.publicKey (Vrf.fromSeed E.C E.P.sha512 vrfRandom)⟩,
    ⟨⟨mn, hmn, c1⟩, c4, e1, ⟨pk, w, k1, k2⟩, k3, g1, (Vrf.C59_generate E.C E.P.sha512 vrfRandom vrfRandom hv hv).1, rfl⟩, ⟨?_, rfl, ?_, ?_, ?_, ?_, ?_⟩, hwf⟩
  · exact (Bech32.C61_bip173 text' _ _).1.mp e2
  · have := (C56_wire_format c hwf _ hcv).1
    rw [g2, g3, g4] at this
    exact this
  · obtain ⟨msg, m1, m2⟩ := (C56_verify_iff E c _ (by rw [g3]; decide) (by rw [g4]; decide)).mp g7
    rw [g2, g3, g4] at m1
    exact ⟨msg, m1, m2⟩
  · refine ⟨s, k6, fun t ht msg hz => ?_⟩
    obtain ⟨s', pk', w', g', kt, sig, a1, a2, rfl, a4, a5, -, a7⟩ := C22_pool_kes S kesSeed hk t ht msg hz
    rw [k1] at a1
    simp only [Out.ok.injEq, Prod.mk.injEq] at a1
    obtain ⟨rfl, rfl, -⟩ := a1
    exact ⟨kt, sig, a4, a5, a7⟩
  · intro G msg
    obtain ⟨proof, -, b1, -, b3, -⟩ := Vrf.C59_proof_verifies G E.P.sha512 vrfRandom msg hv E.P.sha512_length
    exact ⟨proof, b1, by rw [q3]; exact b3⟩
  · exact ⟨c2.1, hcv, k4, by show (s.prv.take 608).length = 608; rw [List.length_take]; omega, q1, hvl⟩

theorem hex_length (b : Bytes) : (Hex.encode b).length = 2 * b.length := by
  induction b with
  | nil => rfl
  | cons x b ih => simp [Hex.encode, Hex.byteChars, ih]; omega

/-- What each `saveToFile` call writes to a good device. -/
theorem contents (E : Env) (S : SigHash) (kesSeed : Bytes) (v : Values) (h : Consistent E S kesSeed v v.cert.serialize) (hc : v.cert.WF)
    (dk : Disk) (old : Bytes) (hg : Good dk) :
    saveXskey dk old v.coldSkey = (v.content v.cert.serialize "./cold.skey", .ok ()) ∧
    saveVkey dk old v.coldVkey = (v.content v.cert.serialize "./cold.vkey", .ok ()) ∧
    saveKesSkey dk old v.kesSkey = (v.content v.cert.serialize "./kes.skey", .ok ()) ∧
    saveKesVkey dk old v.kesVkey = (v.content v.cert.serialize "./kes.vkey", .ok ()) ∧
    counterSave dk old 0 v.coldVkey = (v.content v.cert.serialize "./cold.counter", .ok ()) ∧
    v.cert.save dk old v.coldVkey = (v.content v.cert.serialize "./pool.cert", .ok ()) ∧
    saveVrfSkey dk old v.vrfSkey = (v.content v.cert.serialize "./vrf.skey", .ok ()) ∧
    saveVrfVkey dk old v.vrfVkey = (v.content v.cert.serialize "./vrf.vkey", .ok ()) := by
  obtain ⟨s1, s2, s3, s4, s5, s6⟩ := h.sizes
  have hkl : 608 ≤ v.kesSkey.prv.length := by rw [List.length_take] at s4; omega
  have C := fun k32 h32 => C72_content dk old k32 v.vrfSkey v.coldSkey v.kesSkey h32 s5 s1 hkl hg.1 hg.2
  refine ⟨(C _ s2).2.2.1, (C _ s2).1, (C _ s2).2.2.2.2.2.2, (C _ s3).2.2.2.2.2.1, ?_, ?_, (C _ s2).2.2.2.2.1, (C _ s6).2.2.2.1⟩
  · unfold counterSave
    have e1 : counterSerialize 0 v.coldVkey = [0x82, 0x00, 0x58, 0x20] ++ v.coldVkey := by
      obtain ⟨b, hb, he⟩ := (C56_wire_format v.cert hc v.coldVkey s2).2.2 0 (by decide)
      rw [he]
      rcases hb with ⟨-, x, hx, rfl⟩ | h | h | h | h
      · obtain rfl : x = 0 := UInt8.toNat_inj.mp hx
        rfl
      all_goals omega
    have e2 : Hex.encode [0x82, 0x00, 0x58, 0x20] = ascii "82005820" := by decide +kernel
    have e3 : ascii "Next certificate issue number: " ++ ascii (toString 0) = ascii "Next certificate issue number: 0" := by decide +kernel
    rw [e1, hex_append, e2, e3]
    refine save_fine dk old _ _ _ ⟨hg.1, Nat.le_trans ?_ hg.2⟩
    simp only [specEnvelope, List.length_append, hex_length, s2]
    decide +kernel
  · unfold OpCert.save
    obtain ⟨w1, w2, -⟩ := C56_wire_format v.cert hc v.coldVkey s2
    have e2 : Hex.encode [0x82] = ascii "82" := by decide +kernel
    have e3 : Hex.encode [0x58, 0x20] = ascii "5820" := by decide +kernel
    rw [w2, hex_append, hex_append, hex_append, e2, e3]
    have hlen : v.cert.serialize.length ≤ 200 := by
      obtain ⟨x, y, hx, hy, he⟩ := w1
      have cl : ∀ n b, CborUint n b → b.length ≤ 9 := by
        intro n b hb
        rcases hb with ⟨-, x, -, rfl⟩ | ⟨-, -, t, ht, -, rfl⟩ | ⟨-, -, t, ht, -, rfl⟩ | ⟨-, -, t, ht, -, rfl⟩ | ⟨-, -, t, ht, -, rfl⟩ <;> simp [*]
      have := cl _ _ hx
      have := cl _ _ hy
      rw [he]
      simp only [List.length_append, hc.1, hc.2.2.2, List.length_cons, List.length_nil]
      omega
    refine save_fine dk old _ _ _ ⟨hg.1, Nat.le_trans ?_ hg.2⟩
    simp only [specEnvelope, List.length_append, hex_length, s2]
    have z : (ascii "{\n    \"type\": \"").length + (ascii "NodeOperationalCertificate").length + (ascii "\",\n    \"description\": \"").length +
      (ascii "\",\n    \"cborHex\": \"").length + (ascii "82").length + (ascii "5820").length + (ascii "\"\n}").length < 500 := by decide +kernel
    rw [show List.length (ascii "") = 0 by decide]
    omega

/-- The directory after the first `i` files. -/
def after (v : Values) (b : Bytes) (i : Nat) (fs : Dir) : Dir := (names.take i).foldl (fun f n => f.set n (v.content b n)) fs

theorem after_spec (v : Values) (b : Bytes) (i : Nat) (fs : Dir) (n : String) :
    (n ∈ names.take i → after v b i fs n = some (v.content b n)) ∧ (n ∉ names.take i → after v b i fs n = fs n) := by
  have key : ∀ (l : List String) (fs : Dir), (n ∈ l → l.foldl (fun f n => f.set n (v.content b n)) fs n = some (v.content b n)) ∧
      (n ∉ l → l.foldl (fun f n => f.set n (v.content b n)) fs n = fs n) := by
    intro l
    induction l with
    | nil => intro fs; exact ⟨fun h => absurd h (by simp), fun _ => rfl⟩
    | cons x l ih =>
      intro fs
      simp only [List.foldl_cons, List.mem_cons, not_or]
      obtain ⟨h1, h2⟩ := ih (fs.set x (v.content b x))
      constructor
      · intro h
        by_cases hl : n ∈ l
        · exact h1 hl
        · rw [h2 hl]
          rcases h with rfl | h
          · simp [Dir.set]
          · exact absurd h hl
      · rintro ⟨h, hl⟩
        rw [h2 hl]
        simp [Dir.set, h]
  exact key _ fs

/-- The files one by one: all are written, or the program stops at the first one that cannot be opened. -/
theorem main_run (E : Env) (S : SigHash) (dk : String → Disk) (text kesSeed vrfRandom : Bytes) (v : Values)
    (h1 : Computes E S text kesSeed vrfRandom v) (h2 : Consistent E S kesSeed v v.cert.serialize) (h3 : v.cert.WF) (fs : Dir) :
    ((∀ n ∈ names, Good (dk n)) → main E S dk text kesSeed vrfRandom fs = (after v v.cert.serialize 8 fs, .ok v.printed)) ∧
    ∀ i n, names[i]? = some n → (∀ n ∈ names.take i, Good (dk n)) → (dk n).openable = false →
      main E S dk text kesSeed vrfRandom fs = (after v v.cert.serialize i fs, .throw .runtimeError) := by
  have C := fun n hn old => contents E S kesSeed v h2 h3 (dk n) old hn
  have bad : ∀ (dk : Disk) (old t d c : Bytes), dk.openable = false → writeEnvelope dk old t d c = (old, .throw .runtimeError) :=
    fun dk old t d c => (C18_envelope_partial dk old t d c).2.2
  have g1 := fun rest fs hg => save_good dk "./cold.skey" (saveXskey · · v.coldSkey) rest fs _ hg.1 (C "./cold.skey" hg _).1
  have g2 := fun rest fs hg => save_good dk "./cold.vkey" (saveVkey · · v.coldVkey) rest fs _ hg.1 (C "./cold.vkey" hg _).2.1
  have g3 := fun rest fs hg => save_good dk "./kes.skey" (saveKesSkey · · v.kesSkey) rest fs _ hg.1 (C "./kes.skey" hg _).2.2.1
  have g4 := fun rest fs hg => save_good dk "./kes.vkey" (saveKesVkey · · v.kesVkey) rest fs _ hg.1 (C "./kes.vkey" hg _).2.2.2.1
  have g5 := fun rest fs hg => save_good dk "./cold.counter" (counterSave · · 0 v.coldVkey) rest fs _ hg.1 (C "./cold.counter" hg _).2.2.2.2.1
  have g6 := fun rest fs hg => save_good dk "./pool.cert" (OpCert.save · · v.cert v.coldVkey) rest fs _ hg.1 (C "./pool.cert" hg _).2.2.2.2.2.1
  have g7 := fun rest fs hg => save_good dk "./vrf.skey" (saveVrfSkey · · v.vrfSkey) rest fs _ hg.1 (C "./vrf.skey" hg _).2.2.2.2.2.2.1
  have g8 := fun rest fs hg => save_good dk "./vrf.vkey" (saveVrfVkey · · v.vrfVkey) rest fs _ hg.1 (C "./vrf.vkey" hg _).2.2.2.2.2.2.2
  rw [main_eq E S dk _ _ _ v h1]
  constructor
  · intro hg
    simp only [names, List.forall_mem_cons] at hg
    obtain ⟨x1, x2, x3, x4, x5, x6, x7, x8, -⟩ := hg
    rw [g1 _ _ x1, g2 _ _ x2, g3 _ _ x3, g4 _ _ x4, g5 _ _ x5, g6 _ _ x6, g7 _ _ x7, g8 _ _ x8]
    rfl
  · intro i n hn hg ho
    match i, hn with
    | 0, hn =>
      obtain rfl := Option.some.inj hn
      rw [save_bad _ _ _ _ _ _ _ ho (bad _ _ _ _ _ ho)]; rfl
    | 1, hn =>
      obtain rfl := Option.some.inj hn
      simp only [names, List.take, List.forall_mem_cons] at hg
      rw [g1 _ _ hg.1, save_bad _ _ _ _ _ _ _ ho (bad _ _ _ _ _ ho)]; rfl
    | 2, hn =>
      obtain rfl := Option.some.inj hn
      simp only [names, List.take, List.forall_mem_cons] at hg
      rw [g1 _ _ hg.1, g2 _ _ hg.2.1, save_bad _ _ _ _ _ _ _ ho (bad _ _ _ _ _ ho)]; rfl
    | 3, hn =>
      obtain rfl := Option.some.inj hn
      simp only [names, List.take, List.forall_mem_cons] at hg
      rw [g1 _ _ hg.1, g2 _ _ hg.2.1, g3 _ _ hg.2.2.1, save_bad _ _ _ _ _ _ _ ho (bad _ _ _ _ _ ho)]; rfl
    | 4, hn =>
      obtain rfl := Option.some.inj hn
      simp only [names, List.take, List.forall_mem_cons] at hg
      rw [g1 _ _ hg.1, g2 _ _ hg.2.1, g3 _ _ hg.2.2.1, g4 _ _ hg.2.2.2.1, save_bad _ _ _ _ _ _ _ ho (bad _ _ _ _ _ ho)]; rfl
    | 5, hn =>
      obtain rfl := Option.some.inj hn
      simp only [names, List.take, List.forall_mem_cons] at hg
      rw [g1 _ _ hg.1, g2 _ _ hg.2.1, g3 _ _ hg.2.2.1, g4 _ _ hg.2.2.2.1, g5 _ _ hg.2.2.2.2.1,
        save_bad _ _ _ _ _ _ _ ho (bad _ _ _ _ _ ho)]; rfl
    | 6, hn =>
      obtain rfl := Option.some.inj hn
      simp only [names, List.take, List.forall_mem_cons] at hg
      rw [g1 _ _ hg.1, g2 _ _ hg.2.1, g3 _ _ hg.2.2.1, g4 _ _ hg.2.2.2.1, g5 _ _ hg.2.2.2.2.1, g6 _ _ hg.2.2.2.2.2.1,
        save_bad _ _ _ _ _ _ _ ho (bad _ _ _ _ _ ho)]; rfl
    | 7, hn =>
      obtain rfl := Option.some.inj hn
      simp only [names, List.take, List.forall_mem_cons] at hg
      rw [g1 _ _ hg.1, g2 _ _ hg.2.1, g3 _ _ hg.2.2.1, g4 _ _ hg.2.2.2.1, g5 _ _ hg.2.2.2.2.1, g6 _ _ hg.2.2.2.2.2.1,
        g7 _ _ hg.2.2.2.2.2.2.1, save_bad _ _ _ _ _ _ _ ho (bad _ _ _ _ _ ho)]; rfl
    | i + 8, hn => simp [names] at hn

/-- **C95** For every accepted phrase and all random numbers: on good devices the program ends normally, has written
its eight files and nothing else, each in the node's format, and their contents belong together (`Consistent`): the
certificate is about the KES key and signed by the cold key, the signing keys belong to the verification keys, and
the pool id on the screen is that of the cold key.  (`cold.counter` announces 0 as the *next* number, though number
0 is used by `pool.cert`: the program does not increment the counter.)  If a file cannot be opened, the program ends
there with `runtime_error`; the files before it are complete and the others are as before. -/
theorem C95_files (E : Env) (S : SigHash) (dk : String → Disk) (text kesSeed vrfRandom : Bytes)
    (mn : Mnemonic.Mn) (hmn : Mnemonic.ofString .english text = .ok mn) (hk : kesSeed.length = 32) (hv : vrfRandom.length = 32)
    (hnonce : ∀ k msg hot, fromMnemonic E mn = .ok k → hot.length = 32 → SignableBytes hot 0 1 msg →
      ¬ ellL ∣ leNat (E.P.sha512 (k.key.drop 32 ++ msg))) (fs : Dir) :
    ∃ v b, fromMnemonic E mn = .ok v.coldSkey ∧ Consistent E S kesSeed v b ∧
      ((∀ n ∈ names, Good (dk n)) → ∃ fs', main E S dk text kesSeed vrfRandom fs = (fs', .ok v.printed) ∧
        (∀ n ∈ names, fs' n = some (v.content b n)) ∧ ∀ n, n ∉ names → fs' n = fs n) ∧
      ∀ i n, names[i]? = some n → (∀ n ∈ names.take i, Good (dk n)) → (dk n).openable = false →
        ∃ fs', main E S dk text kesSeed vrfRandom fs = (fs', .throw .runtimeError) ∧
          (∀ n ∈ names.take i, fs' n = some (v.content b n)) ∧ ∀ n, n ∉ names.take i → fs' n = fs n := by
  obtain ⟨v, h1, h2, h3⟩ := computes E S text kesSeed vrfRandom mn hmn hk hv hnonce
  obtain ⟨r1, r2⟩ := main_run E S dk text kesSeed vrfRandom v h1 h2 h3 fs
  obtain ⟨mn', e1, e2⟩ := h1.mn
  obtain rfl : mn = mn' := Out.ok.inj (hmn.symm.trans e1)
  exact ⟨v, _, e2, h2, fun hg => ⟨_, r1 hg, fun n => (after_spec v _ 8 fs n).1, fun n => (after_spec v _ 8 fs n).2⟩,
    fun i n hn hg ho => ⟨_, r2 i n hn hg ho, fun n => (after_spec v _ i fs n).1, fun n => (after_spec v _ i fs n).2⟩⟩

/-- **C95** A phrase that is not accepted: nothing is written, and the exception is `invalid_argument`. -/
theorem C95_bad_phrase (E : Env) (S : SigHash) (dk : String → Disk) (text kesSeed vrfRandom : Bytes) (fs : Dir)
    (h : ∀ mn, Mnemonic.ofString .english text ≠ .ok mn) : main E S dk text kesSeed vrfRandom fs = (fs, .throw .invalidArgument) := by
  rcases Mnemonic.C21_ofString_defined .english text with ⟨m, hm⟩ | hm
  · exact absurd hm (h m)
  · unfold main call; rw [hm]

/-- **C95** The phrase in the program is accepted. -/
theorem C95_phrase : ∃ mn, Mnemonic.ofString .english phrase = .ok mn ∧ mn.words.length = 15 := by
  refine ⟨⟨[ascii "exercise", ascii "club", ascii "noble", ascii "adult", ascii "miracle", ascii "awkward", ascii "problem", ascii "olympic", ascii "puppy", ascii "private", ascii "goddess", ascii "piano", ascii "fatal", ascii "fashion", ascii "vacuum"], [634, 353, 1197, 30, 1131, 134, 1371, 1234, 1392, 1369, 801, 1312, 668, 666, 1924]⟩, ?_, rfl⟩
  decide +kernel

/-- The hypotheses are met: the program's own phrase, in an empty directory. -/
example : ∃ fs' printed, main toyEnv (Ed25519.sigHash toyCurve Bip32.toyPrims.sha512 (fun x => (x ++ List.replicate 32 0).take 32) (by simp))
    (fun _ => ⟨true, 100, 5000⟩) phrase (List.replicate 32 3) (List.replicate 32 4) (fun _ => none) = (fs', .ok printed) ∧
    (∃ c, fs' "./pool.cert" = some c) ∧ fs' "./other" = none := by
  obtain ⟨mn, h, -⟩ := C95_phrase
  obtain ⟨v, b, -, -, h1, -⟩ := C95_files toyEnv (Ed25519.sigHash toyCurve Bip32.toyPrims.sha512 (fun x => (x ++ List.replicate 32 0).take 32) (by simp))
    (fun _ => ⟨true, 100, 5000⟩) phrase (List.replicate 32 3) (List.replicate 32 4) mn h rfl rfl
    (fun k msg hot _ _ _ => by
      have : toyEnv.P.sha512 (k.key.drop 32 ++ msg) = Bip32.toyPrims.sha512 [] := rfl
      rw [this]; decide +kernel) (fun _ => none)
  obtain ⟨fs', e1, e2, e3⟩ := h1 (fun n _ => ⟨rfl, by show 2000 ≤ 5000; omega⟩)
  exact ⟨fs', _, e1, ⟨_, e2 "./pool.cert" (by simp [names])⟩, e3 "./other" (by simp [names])⟩

end Cardano.PoolKeys
