import Verif.Props.WalletKeys
import Verif.Props.Mnemonic
import Verif.Props.Wallet
import Mathlib.Data.List.Forall2

/-! # C94: a wallet is restored from its seed phrase -/

namespace Cardano.Restore

open Cardano Cardano.Ed Cardano.Cip19 Cardano.Address Cardano.Mnemonic Cardano.Spec.Bip32 Cardano.Spec.Bip39 Cardano.Spec.LedgerRules Cardano.Spec.Wallet
open Cardano.Bip32 (Prims Prv Pub IcarusRange derivePath fromMnemonic decrypt prvOfX)

/-- The addresses of an account in a wallet given by its root key. -/
theorem account_keys (C : Curve) (P : Prims) (root : Prv) (hw : root.WF) (hr : IcarusRange 0 (kL root.key)) (path : List UInt32)
    (hp : path.length < 2 ^ 26) :
    ∃ k p, derivePath C P .v2 root path = .ok k ∧ k.WF ∧ ¬ ellL ∣ kL k.key ∧ k.publicKey C = .ok p := by
  obtain ⟨k, h1, h2, -, h4, h5⟩ := Bip32.C74_path C P path root 0 hw hr (by omega)
  exact ⟨k, _, h1, h2, Bip32.icarusRange_not_dvd (by omega) h4, h5⟩

/-- **C94** A wallet is made from a fresh seed phrase and shows an address.  Elsewhere the written-down words are
typed in: they are accepted, their checksum is right, and the root key is the same; the key derived along the
CIP-1852 path is the one that the network asks for when the money at the address (read from its text) is spent,
and the stake key is the one of the reward account.  For every number of words, entropy, language, passphrase,
account, address number and network. -/
theorem C94_restore (E : TxBuilder.Env) (N : Crypto) (hH : ∀ x, (N.keyHash x).length = 28)
    (sha : Bytes → Bytes) (hsha : ∀ x, (sha x).length = 32) (l : Lang) (size : Nat) (entropy pass : Bytes)
    (hs : ValidSize size) (he : 3 * entropy.length = 4 * size) (nid : NetworkID) (account i : UInt32) :
    ∃ m root pay stk s r,
      generate sha l size entropy = .ok m ∧ fromMnemonic E.P m pass = .ok root ∧
      (derivePath E.C E.P .v2 root (paymentPath account i)).bind (·.publicKey E.C) = .ok pay ∧
      (derivePath E.C E.P .v2 root (stakePath account)).bind (·.publicKey E.C) = .ok stk ∧
      (Base.fromKeys N.keyHash nid pay stk).toBech32 = .ok s ∧ rewardsToBech32 (rewardsFromKey N.keyHash nid stk) = .ok r ∧
    ∃ m' root' kp ks a ra,
      ofString l (specJoin m.words) = .ok m' ∧ verifyChecksum sha m' = .ok true ∧ fromMnemonic E.P m' pass = .ok root' ∧
      derivePath E.C E.P .v2 root' (paymentPath account i) = .ok kp ∧ derivePath E.C E.P .v2 root' (stakePath account) = .ok ks ∧
      Base.fromBech32 s = .ok a ∧ rewardsFromBech32 r = .ok ra ∧
      (∃ h, paymentKey a.toBytes = some h ∧ Holds E N [.bip kp] h) ∧ networkOf a.toBytes = some (networkNumber nid) ∧
      (∃ h, rewardKey ra.toBytes = some h ∧ Holds E N [.bip ks] h) ∧ networkOf ra.toBytes = some (networkNumber nid) ∧
      (∀ id, ¬ ellL ∣ leNat (E.P.sha512 (kp.key.drop 32 ++ id)) → CanSign E id (.bip kp)) ∧
      (∀ id, ¬ ellL ∣ leNat (E.P.sha512 (ks.key.drop 32 ++ id)) → CanSign E id (.bip ks)) := by
  obtain ⟨m, h1, h2, h3, h4⟩ := C21_generate_write_read sha hsha l size entropy hs he
  obtain ⟨root, r1, r2, r3, r4, -⟩ := Bip32.C30_fromMnemonic E.C E.P m pass entropy h3
  have hr : IcarusRange 0 (kL root.key) := ⟨r3.1, r3.2.1, by omega⟩
  obtain ⟨kp, pay, p1, p2, p3, p4⟩ := account_keys E.C E.P root r2 hr (paymentPath account i) (by simp [paymentPath])
  obtain ⟨ks, stk, s1, s2, s3, s4⟩ := account_keys E.C E.P root r2 hr (stakePath account) (by simp [stakePath])
  obtain ⟨⟨-, -, g1, g2, s, g3, -, g4⟩, -, ⟨-, -, g5, g6, r, g7, -, g8⟩⟩ := C90_address_of_keys N.keyHash hH nid pay stk
  refine ⟨m, root, pay, stk, s, r, h1, r1, by rw [p1]; exact p4, by rw [s1]; exact s4, g3, g7,
    m, root, kp, ks, _, _, h2, h4, r1, p1, s1, g4, g8, ⟨_, g1, ?_⟩, g2, ⟨_, g5, ?_⟩, g6, ?_, ?_⟩
  · exact ⟨.bip kp, List.mem_singleton_self _, pay.key, by simp [TxBuilder.SKey.pub, p4], rfl⟩
  · exact ⟨.bip ks, List.mem_singleton_self _, stk.key, by simp [TxBuilder.SKey.pub, s4], rfl⟩
  · exact fun id h => ⟨p2, p3, h⟩
  · exact fun id h => ⟨s2, s3, h⟩

/-- The text of the base address number `i` of an account of the wallet. -/
def ShowsAddress (E : TxBuilder.Env) (N : Crypto) (root : Prv) (nid : NetworkID) (account i : UInt32) (s : Bytes) : Prop :=
  ∃ pay stk, (derivePath E.C E.P .v2 root (paymentPath account i)).bind (·.publicKey E.C) = .ok pay ∧
    (derivePath E.C E.P .v2 root (stakePath account)).bind (·.publicKey E.C) = .ok stk ∧
    (Base.fromKeys N.keyHash nid pay stk).toBech32 = .ok s

/-- The text of the reward account of an account of the wallet. -/
def ShowsReward (E : TxBuilder.Env) (N : Crypto) (root : Prv) (nid : NetworkID) (account : UInt32) (s : Bytes) : Prop :=
  ∃ stk, (derivePath E.C E.P .v2 root (stakePath account)).bind (·.publicKey E.C) = .ok stk ∧
    rewardsToBech32 (rewardsFromKey N.keyHash nid stk) = .ok s

/-- The key hashes that control the shown addresses with numbers in `is` and the shown reward account: what others read
from the texts. -/
def Owns (E : TxBuilder.Env) (N : Crypto) (root : Prv) (nid : NetworkID) (account : UInt32) (is : List UInt32) (h : Bytes) : Prop :=
  (∃ i ∈ is, ∃ s a, ShowsAddress E N root nid account i s ∧ Base.fromBech32 s = .ok a ∧ paymentKey a.toBytes = some h) ∨
  ∃ s a, ShowsReward E N root nid account s ∧ rewardsFromBech32 s = .ok a ∧ rewardKey a.toBytes = some h

/-- **C94**, up to the network: money sent to any of the addresses a wallet has shown (by people who read their text), and
the rewards of its reward account, can be spent after restoring the wallet from the words alone.  The restored wallet
derives the keys of those addresses and of the account; every transaction prepared from that money, balanced for
all witnesses and signed with these keys is accepted, exactly if the builder has counted right (`C91_counted_iff`). -/
theorem C94_restored_spends (E : TxBuilder.Env) (N : Crypto) (hN : SameCrypto E N) (hH : ∀ x, (N.keyHash x).length = 28)
    (sha : Bytes → Bytes) (hsha : ∀ x, (sha x).length = 32) (l : Lang) (size : Nat) (entropy pass : Bytes)
    (hs : ValidSize size) (he : 3 * entropy.length = 4 * size) (nid : NetworkID) (account : UInt32) (is : List UInt32) :
    ∃ m root, generate sha l size entropy = .ok m ∧ fromMnemonic E.P m pass = .ok root ∧
      (∀ i ∈ is, ∃ s, ShowsAddress E N root nid account i s) ∧ (∃ s, ShowsReward E N root nid account s) ∧
    ∃ m' root' ks pays, ofString l (specJoin m.words) = .ok m' ∧ fromMnemonic E.P m' pass = .ok root' ∧
      derivePath E.C E.P .v2 root' (stakePath account) = .ok ks ∧
      List.Forall₂ (fun i k => derivePath E.C E.P .v2 root' (paymentPath account i) = .ok k) is pays ∧
      ∀ (pp : Params) (st : State) (k n : Nat) (force : Bool) (ops : List TxBuilder.Op) (b0 b1 : TxBuilder.Builder) (id : Bytes),
        TxBuilder.run E k {} ops = some b0 → TxBuilder.balance k b0 n force = some (b1, .ok ()) →
        PreparedFor (Owns E N root nid account is) pp st ops → is.length + 1 ≤ n → TxBuilder.getID E b1 = .ok id →
        (∀ key ∈ ks :: pays, ¬ ellL ∣ leNat (E.P.sha512 (key.key.drop 32 ++ id))) → pp.minUtxo ≤ 1000000 →
        (∀ ws s, ws.length = n → (∀ w ∈ ws, Spec.TxBuilder.WitnessSized w) → Spec.TxBuilder.TxSize (Spec.TxBuilder.withWitnesses b1.tx ws) s →
          s ≤ pp.maxTxSize) →
        Spec.TxBuilder.minFee pp.minFeeA pp.minFeeB (pp.maxTxSize + 8) < 2 ^ 62 →
        ∃ b2, TxBuilder.run E k {} (ops ++ .balance n force :: (ks :: pays).map (fun key => .sign (.bip key))) = some b2 ∧
          (Accepts N pp st b2.tx ↔ CountedRight pp st ops b0.tx.body) := by
  obtain ⟨m, h1, h2, h3, h4⟩ := C21_generate_write_read sha hsha l size entropy hs he
  obtain ⟨root, r1, r2, r3, r4, -⟩ := Bip32.C30_fromMnemonic E.C E.P m pass entropy h3
  have hr : IcarusRange 0 (kL root.key) := ⟨r3.1, r3.2.1, by omega⟩
  obtain ⟨ks, stk, s1, s2, s3, s4⟩ := account_keys E.C E.P root r2 hr (stakePath account) (by simp [stakePath])
  have hpay : ∀ i, ∃ k p, derivePath E.C E.P .v2 root (paymentPath account i) = .ok k ∧ k.WF ∧ ¬ ellL ∣ kL k.key ∧ k.publicKey E.C = .ok p :=
    fun i => account_keys E.C E.P root r2 hr (paymentPath account i) (by simp [paymentPath])
  have hpays : ∃ pays, List.Forall₂ (fun i k => derivePath E.C E.P .v2 root (paymentPath account i) = .ok k) is pays := by
    clear * - hpay
    induction is with
    | nil => exact ⟨[], .nil⟩
    | cons i is ih =>
      obtain ⟨k, p, h, -⟩ := hpay i
      obtain ⟨ks, hk⟩ := ih
      exact ⟨k :: ks, .cons h hk⟩
  obtain ⟨pays, hpays⟩ := hpays
  have hmem : ∀ i ∈ is, ∃ k ∈ pays, derivePath E.C E.P .v2 root (paymentPath account i) = .ok k := by
    clear * - hpays
    induction hpays with
    | nil => simp
    | cons h _ ih =>
      intro i hi
      rcases List.mem_cons.mp hi with rfl | hi
      · exact ⟨_, List.mem_cons_self, h⟩
      · obtain ⟨k, hk, e⟩ := ih i hi
        exact ⟨k, List.mem_cons_of_mem _ hk, e⟩
  have hmem' : ∀ k ∈ pays, ∃ i, derivePath E.C E.P .v2 root (paymentPath account i) = .ok k := by
    clear * - hpays
    induction hpays with
    | nil => simp
    | cons h _ ih =>
      intro k hk
      rcases List.mem_cons.mp hk with rfl | hk
      · exact ⟨_, h⟩
      · exact ih k hk
  refine ⟨m, root, h1, r1, ?_, ?_, m, root, ks, pays, h2, r1, s1, hpays, ?_⟩
  · intro i _
    obtain ⟨k, p, p1, -, -, p4⟩ := hpay i
    obtain ⟨⟨-, -, -, -, s, g3, -⟩, -⟩ := C90_address_of_keys N.keyHash hH nid p stk
    exact ⟨s, p, stk, by rw [p1]; exact p4, by rw [s1]; exact s4, g3⟩
  · obtain ⟨-, -, ⟨-, -, -, -, r, g7, -⟩⟩ := C90_address_of_keys N.keyHash hH nid stk stk
    exact ⟨r, stk, by rw [s1]; exact s4, g7⟩
  intro pp st k n force ops b0 b1 id q0 q1 qc qn qid qsign qmin qmax qfit
  have hcan : ∀ key ∈ (ks :: pays).map TxBuilder.SKey.bip, CanSign E id key := by
    intro key hk
    obtain ⟨kk, hkk, rfl⟩ := List.mem_map.mp hk
    have hnon := qsign kk hkk
    rcases List.mem_cons.mp hkk with rfl | hkk
    · exact ⟨s2, s3, hnon⟩
    · obtain ⟨i, hi⟩ := hmem' kk hkk
      obtain ⟨k', p, p1, p2, p3, -⟩ := hpay i
      obtain rfl : kk = k' := Out.ok.inj (hi.symm.trans p1)
      exact ⟨p2, p3, hnon⟩
  have hown : ∀ h, Owns E N root nid account is h → Holds E N ((ks :: pays).map TxBuilder.SKey.bip) h := by
    rintro h (⟨i, hi, s, a, ⟨pay, stk', e1, e2, e3⟩, e4, e5⟩ | ⟨s, a, ⟨stk', e2, e3⟩, e4, e5⟩)
    · obtain ⟨kk, hkk, ek⟩ := hmem i hi
      rw [ek] at e1
      have e1 : kk.publicKey E.C = .ok pay := e1
      obtain ⟨⟨-, -, g1, -, s', g3, -, g4⟩, -⟩ := C90_address_of_keys N.keyHash hH nid pay stk'
      obtain rfl : s = s' := Out.ok.inj (e3.symm.trans g3)
      obtain rfl := Out.ok.inj (e4.symm.trans g4)
      rw [e5] at g1
      exact ⟨.bip kk, List.mem_map_of_mem (List.mem_cons_of_mem _ hkk), pay.key, by simp [TxBuilder.SKey.pub, e1], (Option.some.inj g1).symm⟩
    · rw [s1] at e2
      have e2 : ks.publicKey E.C = .ok stk' := e2
      obtain ⟨-, -, ⟨-, -, g1, -, s', g3, -, g4⟩⟩ := C90_address_of_keys N.keyHash hH nid stk' stk'
      obtain rfl : s = s' := Out.ok.inj (e3.symm.trans g3)
      obtain rfl := Out.ok.inj (e4.symm.trans g4)
      rw [e5] at g1
      exact ⟨.bip ks, List.mem_map_of_mem List.mem_cons_self, stk'.key, by simp [TxBuilder.SKey.pub, e2], (Option.some.inj g1).symm⟩
  obtain ⟨b2, e1, -, e3⟩ := TxBuilder.C91_accepted_iff E N hN pp st k n force ops ((ks :: pays).map TxBuilder.SKey.bip) b0 b1 q0 q1
    (TxBuilder.preparedFor_mono hown qc) (by simpa [hpays.length_eq] using qn)
    (fun id' hid' => by
      obtain rfl := Out.ok.inj (hid'.symm.trans qid)
      exact hcan) qmin qmax qfit
  exact ⟨b2, by simpa [Function.comp_def] using e1, e3⟩

/-- **C94** The language of the phrase does not matter: phrases for the same entropy give the same wallet. -/
theorem C94_any_language (P : Prims) (sha : Bytes → Bytes) (hsha : ∀ x, (sha x).length = 32) (l l' : Lang) (size : Nat)
    (entropy pass : Bytes) (hs : ValidSize size) (he : 3 * entropy.length = 4 * size) :
    ∃ m m', generate sha l size entropy = .ok m ∧ generate sha l' size entropy = .ok m' ∧
      fromMnemonic P m pass = fromMnemonic P m' pass := by
  obtain ⟨m, h1, -, h3, -⟩ := C21_generate_write_read sha hsha l size entropy hs he
  obtain ⟨m', h1', -, h3', -⟩ := C21_generate_write_read sha hsha l' size entropy hs he
  exact ⟨m, m', h1, h1', by unfold fromMnemonic; rw [h3, h3']⟩

/-- **C94** A backup of the root key encrypted with a password (96 bytes in a file) restores it. -/
theorem C94_encrypted_backup (P : Prims) (root : Prv) (hw : root.WF) (password : Bytes) :
    (root.encrypt P password).xbytes.length = 96 ∧ decrypt P (prvOfX (root.encrypt P password).xbytes) password = root := by
  have hwf : (root.encrypt P password).WF := by
    rw [(Bip32.C32_format P root hw password).1]
    exact ⟨by rw [List.length_zipWith, Bip32.keystream_length, hw.1]; rfl, hw.2⟩
  refine ⟨by simp [Prv.xbytes, hwf.1, hwf.2], ?_⟩
  have : prvOfX (root.encrypt P password).xbytes = root.encrypt P password := by
    unfold prvOfX Prv.xbytes
    rw [List.take_left' hwf.1, List.drop_left' hwf.1]
  rw [this]
  exact Bip32.C32_decrypt_encrypt P root hw password

theorem wordBits_append (a b : List Nat) : wordBits (a ++ b) = wordBits a ++ wordBits b := by simp [wordBits]

theorem bitsBE_length (w n : Nat) : (bitsBE w n).length = w := by
  induction w with
  | zero => rfl
  | succ w ih => simp [bitsBE, ih]

theorem wordBits_length (ws : List Nat) : (wordBits ws).length = 11 * ws.length := by
  induction ws with
  | nil => rfl
  | cons w ws ih =>
    change (bitsBE 11 w ++ wordBits ws).length = _
    rw [List.length_append, ih, bitsBE_length, List.length_cons]; omega

/-- The first `a` bits of a number written with `a + k` bits are those of its quotient by `2^k`. -/
theorem bitsBE_take (k n : Nat) : ∀ a, (bitsBE (a + k) n).take a = bitsBE a (n / 2 ^ k) := by
  intro a
  induction a with
  | zero => simp [bitsBE]
  | succ a ih =>
    have : a + 1 + k = (a + k) + 1 := by omega
    rw [this]
    simp only [bitsBE, List.take_succ_cons, ih, Nat.div_div_eq_div_mul, ← Nat.pow_add, Nat.add_comm k a]

/-- **C94** The checksum is not part of the key: the last `n/3` bits of the last word do not change the wallet (the
constructors do not check them), although only one choice of these bits passes `verify_checksum`. -/
theorem C94_checksum_variants (P : Prims) (sha : Bytes → Bytes) (hsha : ∀ x, (sha x).length = 32) (l : Lang) (s s' pass : Bytes)
    (m m' : Mn) (init : List Nat) (w w' : Nat) (h : ofString l s = .ok m) (h' : ofString l s' = .ok m')
    (hi : m.indexes = init ++ [w]) (hi' : m'.indexes = init ++ [w'])
    (hw : w / 2 ^ (m.indexes.length / 3) = w' / 2 ^ (m.indexes.length / 3)) :
    fromMnemonic P m pass = fromMnemonic P m' pass ∧
      (verifyChecksum sha m = .ok true → verifyChecksum sha m' = .ok true → s = s') := by
  obtain ⟨v1, v2⟩ := C21_ofString_indexes l s m h
  obtain ⟨v1', v2'⟩ := C21_ofString_indexes l s' m' h'
  obtain ⟨e, c, t1, t2, t3, t4⟩ := C19_toEntropy_spec m v1 v2
  obtain ⟨e', c', t1', t2', t3', t4'⟩ := C19_toEntropy_spec m' v1' v2'
  have hl : m.indexes.length = m'.indexes.length := by rw [hi, hi']; simp
  have hk : m.indexes.length / 3 ≤ 11 ∧ 3 * (m.indexes.length / 3) = m.indexes.length := by
    simp only [ValidSize, List.mem_cons, List.not_mem_nil, or_false] at v1
    omega
  generalize hkk : m.indexes.length / 3 = k at *
  have hsplit : ∀ x, bitsBE 11 x = bitsBE (11 - k) (x / 2 ^ k) ++ (bitsBE 11 x).drop (11 - k) := by
    intro x
    have := bitsBE_take k x (11 - k)
    rw [show 11 - k + k = 11 by omega] at this
    rw [← this, List.take_append_drop]
  have hb : ∀ x, wordBits (init ++ [x]) = (wordBits init ++ bitsBE (11 - k) (x / 2 ^ k)) ++ (bitsBE 11 x).drop (11 - k) := by
    intro x
    rw [wordBits_append]
    have : wordBits [x] = bitsBE 11 x := by simp [wordBits]
    rw [this, List.append_assoc, ← hsplit]
  have hlen : m.indexes.length = init.length + 1 := by rw [hi]; simp
  have hee : byteBits e = byteBits e' := by
    rw [hi, hb] at t3
    rw [hi', hb, ← hw] at t3'
    have q : ∀ y : Bytes, 3 * y.length = 4 * m.indexes.length →
        (wordBits init ++ bitsBE (11 - k) (w / 2 ^ k)).length = (byteBits y).length := by
      intro y hy
      rw [List.length_append, wordBits_length, bitsBE_length, byteBits_length]
      omega
    have a1 := List.append_inj_left t3 (q e t2)
    have a2 := List.append_inj_left t3' (q e' (by rw [t2', hl]))
    rw [← a1, a2]
  obtain rfl := byteBits_inj hee
  have hseed : toSeed m = .ok e ∧ toSeed m' = .ok e := by
    unfold toSeed; rw [t1, t1']; exact ⟨rfl, rfl⟩
  refine ⟨by unfold fromMnemonic; rw [hseed.1, hseed.2], fun c1 c2 => ?_⟩
  exact C21_ofString_inj l s s' m m' h h' (C20_verified_phrase_unique sha hsha m m' v1 v1' v2 v2' c1 c2 e hseed.1 hseed.2)

/-- **C94** … and all these variants are accepted texts: the last word of an accepted phrase may be replaced by any
word of the list. -/
theorem C94_variants_accepted (l : Lang) (s : Bytes) (m : Mn) (init : List Nat) (w w' : Nat) (h : ofString l s = .ok m)
    (hi : m.indexes = init ++ [w]) (hw : w' < 2048) :
    ∃ s' m', ofString l s' = .ok m' ∧ m'.indexes = init ++ [w'] ∧ (w ≠ w' → s' ≠ s) := by
  obtain ⟨v1, v2⟩ := C21_ofString_indexes l s m h
  rw [hi] at v1 v2
  obtain ⟨ws, -, e2, e3⟩ := pickWords_ok (getDictionary l) (dict_length l) (init ++ [w']) (by
    intro i hmem
    rcases List.mem_append.mp hmem with g | g
    · exact v2 i (List.mem_append_left _ g)
    · rw [List.mem_singleton.mp g]; exact hw)
  have hok : ofString l (specJoin ws) = .ok ⟨ws, init ++ [w']⟩ :=
    (C21_ofString_ok_iff l _ _).mpr ⟨by simp only [e2]; simpa using v1, rfl, e3.symm⟩
  refine ⟨_, _, hok, rfl, fun hne hs => hne ?_⟩
  rw [hs, h] at hok
  have := congrArg Mn.indexes (Out.ok.inj hok)
  simp only [hi] at this
  simpa using this

/-- The hypotheses are met: fifteen words, and a phrase whose last word is replaced. -/
example := C94_restore TxBuilder.toyWalletEnv TxBuilder.toyNetwork (fun _ => by simp [TxBuilder.toyNetwork])
  (fun _ => List.replicate 32 77) (by simp) .japanese 15 (List.replicate 20 201) (ascii "passphrase") (by simp [ValidSize]) (by decide) .mainnet 3 2147483647

def toyBalanced : TxBuilder.Builder := ((TxBuilder.balance 12 TxBuilder.toyBuilder 2 true).getD ({}, .ub)).1

theorem toyBalance : TxBuilder.balance 12 TxBuilder.toyBuilder 2 true = some (toyBalanced, .ok ()) := by
  have h : (TxBuilder.balance 12 TxBuilder.toyBuilder 2 true).map (fun r => r.2) = some (.ok ()) := by decide +kernel
  unfold toyBalanced
  cases hb : TxBuilder.balance 12 TxBuilder.toyBuilder 2 true with
  | none => rw [hb] at h; cases h
  | some r =>
    rw [hb] at h
    simp only [Option.map_some, Option.some.injEq] at h
    simp [← h]

theorem withWitnesses_fee (t : Ledger.Tx) (ws : List Ledger.VkeyWitness) : (Spec.TxBuilder.withWitnesses t ws).body.fee = t.body.fee := rfl

/-- The hypotheses of `C94_restored_spends` are met: fifteen words, one address, a payment of its money. -/
example : ∃ b2, Accepts TxBuilder.toyNetwork TxBuilder.toyParams TxBuilder.toyState b2 := by
  have hH : ∀ x, (TxBuilder.toyNetwork.keyHash x).length = 28 := fun _ => by simp [TxBuilder.toyNetwork]
  obtain ⟨m, root, -, -, h3, h4, m', root', ks, pays, -, -, -, -, h5⟩ := C94_restored_spends TxBuilder.toyWalletEnv
    TxBuilder.toyNetwork (TxBuilder.sameCrypto_sodium _ _ _ _ _) hH
    (fun _ => List.replicate 32 77) (by simp) .japanese 15 (List.replicate 20 201) (ascii "passphrase") (by simp [ValidSize]) (by decide) .mainnet 3 [7]
  obtain ⟨bytes, -, hgid⟩ := TxBuilder.balanced_getID TxBuilder.toyWalletEnv 12 2 true TxBuilder.toyBuilder toyBalanced toyBalance
  obtain ⟨b2, -, h6⟩ := h5 TxBuilder.toyParams TxBuilder.toyState 12 2 true TxBuilder.toyOps TxBuilder.toyBuilder toyBalanced _ rfl toyBalance
    (TxBuilder.preparedFor_mono (fun x hx => by
      obtain ⟨key, -, pub', -, rfl⟩ := hx
      obtain ⟨s, pay, stk, e1, e2, e3⟩ := h3 7 (by simp)
      obtain ⟨⟨-, -, g1, -, s', g3, -, g4⟩, -⟩ := C90_address_of_keys TxBuilder.toyNetwork.keyHash hH .mainnet pay stk
      obtain rfl : s = s' := Out.ok.inj (e3.symm.trans g3)
      exact .inl ⟨7, by simp, s, _, ⟨pay, stk, e1, e2, e3⟩, g4, g1⟩) TxBuilder.toyCareful.toPreparedFor) (by decide) hgid
    (by
      intro key _ h
      have h : ellL ∣ leNat (1 :: List.replicate 63 0) := h
      rw [show leNat (1 :: List.replicate 63 0) = 1 by decide +kernel] at h
      exact absurd (Nat.le_of_dvd (by decide) h) (by decide +kernel)) (by decide) (by
      intro ws s hl hws hs
      rw [TxBuilder.txSize_iff', TxBuilder.size_wits toyBalanced.tx ws hws, hl, withWitnesses_fee] at hs
      have : TxBuilder.sizeWithFee (TxBuilder.dummyTx toyBalanced.tx 2) toyBalanced.tx.body.fee = .ok 470 := by decide +kernel
      rw [this] at hs
      rw [← Out.ok.inj hs]; decide) (by decide)
  exact ⟨_, h6.mpr (TxBuilder.careful_counted TxBuilder.toyWalletEnv _ TxBuilder.toyParams TxBuilder.toyState 12 TxBuilder.toyOps
    TxBuilder.toyBuilder rfl TxBuilder.toyCareful)⟩

example : ∃ (s s' : Bytes) (m m' : Mn), s ≠ s' ∧ ofString .english s = .ok m ∧ ofString .english s' = .ok m' ∧
    fromMnemonic Bip32.toyPrims m [1] = fromMnemonic Bip32.toyPrims m' [1] := by
  obtain ⟨m, h1, h2, h3, -⟩ := C19_generate_isPhrase (fun _ => List.replicate 32 77) (by simp) .english 12 (List.replicate 16 201) (by simp [ValidSize]) (by decide)
  obtain ⟨m2, g1, g2, -⟩ := C21_generate_write_read (fun _ => List.replicate 32 77) (by simp) .english 12 (List.replicate 16 201) (by simp [ValidSize]) (by decide)
  obtain rfl : m = m2 := Out.ok.inj (h1.symm.trans g1)
  have hne : m.indexes ≠ [] := by intro h; rw [h] at h2; cases h2
  obtain ⟨w, hw⟩ : ∃ w, m.indexes = m.indexes.dropLast ++ [w] := ⟨_, (List.dropLast_append_getLast hne).symm⟩
  have hlt : w < 2048 := (C21_ofString_indexes _ _ m g2).2 w (by rw [hw]; simp)
  obtain ⟨s', m', k1, k2, k3⟩ := C94_variants_accepted _ _ m _ w (if w % 2 = 0 then w + 1 else w - 1) g2 hw (by split <;> omega)
  refine ⟨_, s', m, m', fun h => k3 (by split <;> omega) h.symm, g2, k1, ?_⟩
  exact (C94_checksum_variants Bip32.toyPrims (fun _ => List.replicate 32 77) (by simp) _ _ _ [1] m m' _ w _ g2 k1 hw k2 (by
    rw [h2]; show w / 16 = _ / 16; split <;> omega)).1

end Cardano.Restore
