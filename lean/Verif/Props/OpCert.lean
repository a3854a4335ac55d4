import Verif.Model.StakePool
import Verif.Spec.StakePool
import Verif.Props.Ed25519
import Verif.Props.Cbor
import Verif.Props.Util
import Verif.Props.Bech32

/-! # Operational certificates and the issue counter (C56, C57) -/

namespace Cardano.Pool

open Cardano Cardano.Ed Cardano.Ledger

theorem be8 {n : Nat} (h : n < 2 ^ 64) : (Util.packBE 8 n).length = 8 ∧ beNat (Util.packBE 8 n) = n :=
  let t := (Util.C16_pack_unpack 8).1 n h
  ⟨t.1, t.2.1⟩

theorem beNat_inj {a b : Bytes} (hl : a.length = b.length) (h : beNat a = beNat b) : a = b := by
  have := leNat_inj (a := a.reverse) (b := b.reverse) (by simpa using hl) h
  simpa using this

/-- There is exactly one signable message for each triple. -/
theorem message_eq {hot : Bytes} {count period : Nat} (sigma : Bytes) (hc : count < 2 ^ 64) (hp : period < 2 ^ 64) (msg : Bytes) :
    SignableBytes hot count period msg ↔ msg = messageToSign ⟨hot, count, period, sigma⟩ := by
  constructor
  · rintro ⟨c, p, h1, h2, h3, h4, rfl⟩
    have e1 : c = Util.packBE 8 count := beNat_inj (by rw [h1, (be8 hc).1]) (by rw [h2, (be8 hc).2])
    have e2 : p = Util.packBE 8 period := beNat_inj (by rw [h3, (be8 hp).1]) (by rw [h4, (be8 hp).2])
    rw [e1, e2]; rfl
  · rintro rfl
    exact ⟨_, _, (be8 hc).1, (be8 hc).2, (be8 hp).1, (be8 hp).2, rfl⟩

/-- **C56** A certificate generated with a plain cold key carries the hot key, the counter's
value and the period; its signature is the Ed25519 signature of the ledger's signable message
for exactly these values and verifies under the cold verification key (for every message whose
nonce is not 0 modulo the group order, see C71). -/
theorem C56_generate (E : Env) (hot skey msg : Bytes) (count period : Nat) (hs : skey.length = 32)
    (hc : count < 2 ^ 64) (hp : period < 2 ^ 64) (hm : SignableBytes hot count period msg)
    (hr : ¬ ellL ∣ leNat (E.P.sha512 ((E.P.sha512 skey).drop 32 ++ msg))) :
    ∃ c, generate E hot count period skey = c ∧ c.hotVkey = hot ∧ c.seq = count ∧ c.period = period ∧
      c.sigma.length = 64 ∧ c.sigma = skeySign E skey msg ∧ c.verify E (skeyVkey E skey) = true := by
  have hm' := (message_eq (List.replicate 64 0) hc hp msg).mp hm
  obtain ⟨h1, h2⟩ := Ed25519.C71_sign_verifies E.C E.P.sha512 skey msg hs hr
  refine ⟨_, rfl, rfl, rfl, rfl, ?_, ?_, ?_⟩
  · show (Ed25519.sign _ _ _ _).length = 64
    rw [← generateUnsigned] at hm'
    rw [← hm', h1]
  · show skeySign E skey (messageToSign _) = _
    rw [generateUnsigned, ← hm']
  · show Ed25519.verifySignature E.C E.P.sha512 _ (messageToSign (generateUnsigned hot count period)) (Ed25519.sign _ _ _ (messageToSign _)) = true
    rw [generateUnsigned, ← hm']
    exact h2

/-- **C56** The same for an extended cold key: whenever generation returns. -/
theorem C56_generate_extended (E : Env) (hot : Bytes) (count period : Nat) (k : Bip32.Prv) (c : OpCert)
    (hc : count < 2 ^ 64) (hp : period < 2 ^ 64) (h : generateX E hot count period k = .ok c) :
    c.hotVkey = hot ∧ c.seq = count ∧ c.period = period ∧ c.sigma.length = 64 ∧
      (∀ msg, SignableBytes hot count period msg → k.sign E.C E.P msg = .ok c.sigma) ∧
      ∃ vk, xskeyVkey E k = .ok vk ∧ c.verify E vk = true := by
  unfold generateX OpCert.signX at h
  obtain ⟨s, hs, he⟩ := Out.bind_eq_ok.mp h
  obtain rfl : c = { generateUnsigned hot count period with sigma := s } := by
    simpa [Out.pure_eq, eq_comm] using he
  obtain ⟨p, h1, h2, h3⟩ := Bip32.C33_sign_verifies E.C E.P k _ s hs
  refine ⟨rfl, rfl, rfl, h2, ?_, p.key, ?_, h3⟩
  · intro msg hm
    rw [(message_eq (List.replicate 64 0) hc hp msg).mp hm]; exact hs
  · unfold xskeyVkey; rw [h1]; rfl

/-- **C56** With an extended key generation returns whenever the key's scalar and the nonce are
not 0 modulo the group order. -/
theorem C56_generate_extended_total (E : Env) (hot msg : Bytes) (count period : Nat) (k : Bip32.Prv)
    (hc : count < 2 ^ 64) (hp : period < 2 ^ 64) (hm : SignableBytes hot count period msg)
    (hk : ¬ ellL ∣ leNat (k.key.take 32)) (hr : ¬ ellL ∣ leNat (E.P.sha512 (k.key.drop 32 ++ msg))) :
    ∃ c, generateX E hot count period k = .ok c := by
  rw [(message_eq (List.replicate 64 0) hc hp msg).mp hm] at hr
  obtain ⟨s, hs⟩ := Bip32.C33_sign_total E.C E.P k _ hk hr
  unfold generateX OpCert.signX
  rw [generateUnsigned, hs]
  exact ⟨_, rfl⟩

/-- **C56** The signed message determines hot key, counter and period: certificates with the
same message have the same three fields. -/
theorem C56_message_binds (a b : OpCert) (ha : a.hotVkey.length = 32) (hb : b.hotVkey.length = 32)
    (h1 : a.seq < 2 ^ 64) (h2 : b.seq < 2 ^ 64) (h3 : a.period < 2 ^ 64) (h4 : b.period < 2 ^ 64)
    (h : messageToSign a = messageToSign b) : a.hotVkey = b.hotVkey ∧ a.seq = b.seq ∧ a.period = b.period := by
  unfold messageToSign at h
  rw [List.append_assoc, List.append_assoc] at h
  obtain ⟨e1, e2⟩ := List.append_inj h (by rw [ha, hb])
  obtain ⟨e3, e4⟩ := List.append_inj e2 (by rw [(be8 h1).1, (be8 h2).1])
  refine ⟨e1, ?_, ?_⟩
  · rw [← (be8 h1).2, ← (be8 h2).2, e3]
  · rw [← (be8 h3).2, ← (be8 h4).2, e4]

/-- **C56** `verify` accepts exactly the certificates whose signature is a valid Ed25519
signature of the ledger's message for their fields. -/
theorem C56_verify_iff (E : Env) (c : OpCert) (vkey : Bytes) (h1 : c.seq < 2 ^ 64) (h2 : c.period < 2 ^ 64) :
    c.verify E vkey = true ↔
      ∃ msg, SignableBytes c.hotVkey c.seq c.period msg ∧ verifyDetached E.C E.P.sha512 c.sigma msg vkey = true := by
  constructor
  · intro h
    exact ⟨_, (message_eq c.sigma h1 h2 _).mpr rfl, h⟩
  · rintro ⟨msg, hm, hv⟩
    rw [(message_eq c.sigma h1 h2 msg).mp hm] at hv
    exact hv

/-- **C56** Changing a signed certificate: if a certificate with other fields but the same
signature still verifies, the one signature is valid for two different messages, those of the
two certificates. -/
theorem C56_tamper (E : Env) (a b : OpCert) (vkey : Bytes) (ha : a.hotVkey.length = 32) (hb : b.hotVkey.length = 32)
    (h1 : a.seq < 2 ^ 64) (h2 : b.seq < 2 ^ 64) (h3 : a.period < 2 ^ 64) (h4 : b.period < 2 ^ 64)
    (hne : ¬ (a.hotVkey = b.hotVkey ∧ a.seq = b.seq ∧ a.period = b.period)) (hs : a.sigma = b.sigma)
    (hva : a.verify E vkey = true) (hvb : b.verify E vkey = true) :
    ∃ m m', SignableBytes a.hotVkey a.seq a.period m ∧ SignableBytes b.hotVkey b.seq b.period m' ∧ m ≠ m' ∧
      verifyDetached E.C E.P.sha512 a.sigma m vkey = true ∧ verifyDetached E.C E.P.sha512 a.sigma m' vkey = true :=
  ⟨_, _, (message_eq a.sigma h1 h3 _).mpr rfl, (message_eq b.sigma h2 h4 _).mpr rfl,
    fun h => hne (C56_message_binds a b ha hb h1 h2 h3 h4 h), hva, by rw [hs]; exact hvb⟩

/-- **C56** Signing replaces the signature and nothing else, and the last key wins. -/
theorem C56_resign (E : Env) (c : OpCert) (k1 k2 : Bytes) :
    (c.sign E k1).sign E k2 = c.sign E k2 ∧ (c.sign E k1).hotVkey = c.hotVkey ∧ (c.sign E k1).seq = c.seq ∧
      (c.sign E k1).period = c.period := ⟨rfl, rfl, rfl, rfl⟩

/-- **C56** A plain cold key and the extended key made from it have the same verification key
and pool id, and every certificate the extended key issues is the one the plain key issues. -/
theorem C56_extend_agrees (E : Env) (skey : Bytes) (hs : skey.length = 32) :
    ∃ k, extend E skey = .ok k ∧ xskeyVkey E k = .ok (skeyVkey E skey) ∧ xskeyPoolId E k = .ok (skeyPoolId E skey) ∧
      ∀ hot count period c, generateX E hot count period k = .ok c → c = generate E hot count period skey := by
  obtain ⟨k, p, h1, h2, h3, h4⟩ := Ed25519.C71_extended_same E.C E.P skey hs
  have hkl : k.key.length = 64 := by
    obtain ⟨k', e1, _, _, e4⟩ := Ed25519.fromSeed_scalar E.P skey
    rw [h1] at e1
    have := Out.ok.inj e1
    rw [this]; exact e4.1
  have hk : Bip32.prvOfX k.xbytes = k := by
    unfold Bip32.prvOfX Bip32.Prv.xbytes
    rw [List.take_left' hkl, List.drop_left' hkl]
  have hv : xskeyVkey E k = .ok (skeyVkey E skey) := by
    unfold xskeyVkey; rw [h2, Out.ok_bind, h3]; rfl
  refine ⟨k, ?_, hv, ?_, ?_⟩
  · unfold extend; rw [h1, Out.ok_bind, hk]; rfl
  · unfold xskeyPoolId; rw [hv]; rfl
  · intro hot count period c h
    unfold generateX OpCert.signX at h
    obtain ⟨s, hsg, he⟩ := Out.bind_eq_ok.mp h
    have := h4 _ _ hsg
    obtain rfl : c = { generateUnsigned hot count period with sigma := s } := by
      simpa [Out.pure_eq, eq_comm] using he
    rw [this]; rfl

/-! ### Wire format -/

theorem cborUint_enc (n : Nat) (h : n < 2 ^ 64) : CborUint n (Cbor.enc (.uint n)) := by
  unfold Cbor.enc Cbor.encHeader CborUint
  by_cases h1 : n < 24
  · left
    rw [if_pos h1]
    exact ⟨h1, _, by simp; omega, rfl⟩
  right
  rw [if_neg h1]
  have key : ∀ w, n < 2 ^ (8 * w) → (Util.packBE w n).length = w ∧ beNat (Util.packBE w n) = n :=
    fun w hw => let t := (Util.C16_pack_unpack w).1 n hw; ⟨t.1, t.2.1⟩
  by_cases h2 : n < 2 ^ 8
  · left
    rw [if_pos h2]
    exact ⟨by omega, h2, _, (key 1 h2).1, (key 1 h2).2, rfl⟩
  right
  rw [if_neg h2]
  by_cases h3 : n < 2 ^ 16
  · left
    rw [if_pos h3]
    exact ⟨by omega, h3, _, (key 2 h3).1, (key 2 h3).2, rfl⟩
  right
  rw [if_neg h3]
  by_cases h4 : n < 2 ^ 32
  · left
    rw [if_pos h4]
    exact ⟨by omega, h4, _, (key 4 h4).1, (key 4 h4).2, rfl⟩
  right
  rw [if_neg h4]
  exact ⟨by omega, h, _, (key 8 h).1, (key 8 h).2, rfl⟩

theorem bstr32 {b : Bytes} (h : b.length = 32) : Cbor.enc (.bstr b) = [0x58, 0x20] ++ b := by
  unfold Cbor.enc; rw [h]; rfl

theorem bstr64 {b : Bytes} (h : b.length = 64) : Cbor.enc (.bstr b) = [0x58, 0x40] ++ b := by
  unfold Cbor.enc; rw [h]; rfl

/-- What the C++ types guarantee. -/
def OpCert.WF (c : OpCert) : Prop :=
  c.hotVkey.length = 32 ∧ c.seq < 2 ^ 64 ∧ c.period < 2 ^ 64 ∧ c.sigma.length = 64

/-- **C56** The certificate is written as the ledger's `operational_cert`; the file form adds
the cold verification key around it, and the counter file has counter and key. -/
theorem C56_wire_format (c : OpCert) (hc : c.WF) (vkey : Bytes) (hv : vkey.length = 32) :
    OpCertBytes c.hotVkey c.seq c.period c.sigma c.serialize ∧
    c.serializeWith vkey = [0x82] ++ c.serialize ++ [0x58, 0x20] ++ vkey ∧
    ∀ n < 2 ^ 64, ∃ b, CborUint n b ∧ counterSerialize n vkey = [0x82] ++ b ++ [0x58, 0x20] ++ vkey := by
  obtain ⟨h1, h2, h3, h4⟩ := hc
  refine ⟨⟨_, _, cborUint_enc _ h2, cborUint_enc _ h3, ?_⟩, ?_, ?_⟩
  · unfold OpCert.serialize OpCert.item
    simp only [Cbor.enc, Cbor.encList, List.append_nil]
    have e1 := bstr32 h1
    have e4 := bstr64 h4
    simp only [Cbor.enc] at e1 e4
    rw [e1, e4]
    have : Cbor.encHeader 4 [Cbor.Item.bstr c.hotVkey, .uint c.seq, .uint c.period, .bstr c.sigma].length = [0x84] := rfl
    rw [this]
    simp [List.append_assoc]
  · unfold OpCert.serializeWith OpCert.serialize
    rw [Cbor.enc]
    simp only [Cbor.encList, List.append_nil]
    rw [bstr32 hv]
    have : Cbor.encHeader 4 [c.item, Cbor.Item.bstr vkey].length = [0x82] := rfl
    rw [this]
    simp [List.append_assoc]
  · intro n hn
    refine ⟨_, cborUint_enc n hn, ?_⟩
    have h0 : counterSerialize n vkey = Cbor.encHeader 4 [Cbor.Item.uint n, Cbor.Item.bstr vkey].length ++
        (Cbor.enc (.uint n) ++ Cbor.enc (.bstr vkey)) := by
      unfold counterSerialize
      simp only [Cbor.enc, Cbor.encList, List.append_nil]
    rw [h0, bstr32 hv]
    have : Cbor.encHeader 4 [Cbor.Item.uint n, Cbor.Item.bstr vkey].length = [0x82] := rfl
    rw [this]; simp [List.append_assoc]

theorem item_wf (c : OpCert) (hc : c.WF) : Cbor.WF c.item := by
  obtain ⟨h1, h2, h3, h4⟩ := hc
  refine .array (by simp) ?_
  intro x hx
  simp only [List.mem_cons, List.not_mem_nil, or_false] at hx
  rcases hx with rfl | rfl | rfl | rfl
  · exact .bstr (by omega)
  · exact .uint h2
  · exact .uint h3
  · exact .bstr (by omega)

theorem item_inj {a b : OpCert} (h : a.item = b.item) : a = b := by
  unfold OpCert.item at h
  simp only [Cbor.Item.array.injEq, List.cons.injEq, Cbor.Item.bstr.injEq, Cbor.Item.uint.injEq, and_true] at h
  cases a; cases b; simp_all

/-- **C56** The bytes determine the certificate (and the key, and the counter): a reader of
either form recovers every field. -/
theorem C56_bytes_bind (a b : OpCert) (ha : a.WF) (hb : b.WF) (v w : Bytes) (hv : v.length = 32) (hw : w.length = 32) :
    (a.serialize = b.serialize → a = b) ∧ (a.serializeWith v = b.serializeWith w → a = b ∧ v = w) ∧
    ∀ m n, m < 2 ^ 64 → n < 2 ^ 64 → counterSerialize m v = counterSerialize n w → m = n ∧ v = w := by
  refine ⟨fun h => item_inj ((Cbor.C47_unique_decodable _ _ (item_wf a ha) (item_wf b hb)).2.1 h), fun h => ?_, fun m n hm hn h => ?_⟩
  · have wf : ∀ (c : OpCert) (hc : c.WF) (u : Bytes), u.length = 32 → Cbor.WF (.array [c.item, .bstr u]) := by
      intro c hc u hu
      refine .array (by simp) ?_
      intro x hx
      simp only [List.mem_cons, List.not_mem_nil, or_false] at hx
      rcases hx with rfl | rfl
      · exact item_wf c hc
      · exact .bstr (by omega)
    have := (Cbor.C47_unique_decodable _ _ (wf a ha v hv) (wf b hb w hw)).2.1 h
    simp only [Cbor.Item.array.injEq, List.cons.injEq, Cbor.Item.bstr.injEq, and_true] at this
    exact ⟨item_inj this.1, this.2⟩
  · have wf : ∀ (n : Nat) (_ : n < 2 ^ 64) (u : Bytes), u.length = 32 → Cbor.WF (.array [.uint n, .bstr u]) := by
      intro n hn u hu
      refine .array (by simp) ?_
      intro x hx
      simp only [List.mem_cons, List.not_mem_nil, or_false] at hx
      rcases hx with rfl | rfl
      · exact .uint hn
      · exact .bstr (by omega)
    have := (Cbor.C47_unique_decodable _ _ (wf m hm v hv) (wf n hn w hw)).2.1 h
    simpa using this

/-! ### Text forms -/

/-- **C56** The Bech32 forms decode to the prefix of CIP-5 and the key bytes. -/
theorem C56_bech32 (key : Bytes) (k : Bip32.Prv) :
    (∃ s, vkeyBech32 key = .ok s ∧ Bech32.decode s = .ok (ascii "pool_vk", key)) ∧
    (∃ s, skeyBech32 key = .ok s ∧ Bech32.decode s = .ok (ascii "pool_sk", key)) ∧
    (∃ s, xskeyBech32 k = .ok s ∧ Bech32.decode s = .ok (ascii "pool_xsk", k.key)) :=
  ⟨(Bech32.C03_bech32_roundtrip _ _).1 (by decide) (by decide +kernel),
   (Bech32.C03_bech32_roundtrip _ _).1 (by decide) (by decide +kernel),
   (Bech32.C03_bech32_roundtrip _ _).1 (by decide) (by decide +kernel)⟩

/-! ### C57: the counter -/

/-- The calls that set the counter. -/
def CounterCall.isSet : CounterCall → Prop
  | .setCount _ => True
  | _ => False

/-- +1 for an increment, -1 for a decrement, 0 otherwise. -/
def CounterCall.delta : CounterCall → Int
  | .increment => 1
  | .decrement => -1
  | _ => 0

theorem next_delta (n : Nat) (c : CounterCall) (hc : ¬ c.isSet) (hn : n < 2 ^ 64) :
    ((c.next n : Nat) : Int) = (n + c.delta) % 2 ^ 64 ∧ c.next n < 2 ^ 64 := by
  cases c with
  | increment => simp only [CounterCall.next, increment, CounterCall.delta]; omega
  | decrement => simp only [CounterCall.next, decrement, CounterCall.delta]; omega
  | setCount m => exact absurd trivial hc
  | issue h p s => simp only [CounterCall.next, CounterCall.delta]; omega

theorem foldl_delta (cs : List CounterCall) (h : ∀ c ∈ cs, ¬ c.isSet) : ∀ n, n < 2 ^ 64 →
    ((cs.foldl CounterCall.next n : Nat) : Int) = (n + (cs.map CounterCall.delta).sum) % 2 ^ 64 := by
  induction cs with
  | nil => intro n hn; simp; omega
  | cons c cs ih =>
    intro n hn
    obtain ⟨h1, h2⟩ := next_delta n c (h c (by simp)) hn
    rw [List.foldl_cons, ih (fun c hc => h c (by simp [hc])) _ h2, h1, List.map_cons, List.sum_cons, Int.emod_add_emod, Int.add_assoc]

theorem issued_append (E : Env) : ∀ (pre post : List CounterCall) (n : Nat),
    issued E n (pre ++ post) = issued E n pre ++ issued E (pre.foldl CounterCall.next n) post := by
  intro pre
  induction pre with
  | nil => intro post n; rfl
  | cons c cs ih =>
    intro post n
    cases c with
    | issue h p s => simp only [List.cons_append, issued, List.foldl_cons, ih, CounterCall.next]
    | increment => simp only [List.cons_append, issued, List.foldl_cons, ih]
    | decrement => simp only [List.cons_append, issued, List.foldl_cons, ih]
    | setCount m => simp only [List.cons_append, issued, List.foldl_cons, ih]

/-- **C57** What number a certificate carries: in every history, an issue after the calls `pre`
carries the value of the last `setCount` (or the initial count) plus the increments minus the
decrements made since, modulo 2^64; issuing itself does not count. -/
theorem C57_issue_number (E : Env) (count base : Nat) (hc : count < 2 ^ 64) (hb : base < 2 ^ 64) (pre since post : List CounterCall)
    (hot skey : Bytes) (period : Nat) (hns : ∀ c ∈ since, ¬ c.isSet)
    (hbase : (pre = [] ∧ base = count) ∨ ∃ pre', pre = pre' ++ [.setCount base]) :
    ∃ before cert after, issued E count (pre ++ since ++ .issue hot period skey :: post) = before ++ cert :: after ∧
      before = issued E count (pre ++ since) ∧ cert.hotVkey = hot ∧ cert.period = period ∧
      (cert.seq : Int) = (base + (since.map CounterCall.delta).sum) % 2 ^ 64 := by
  refine ⟨_, generate E hot ((pre ++ since).foldl CounterCall.next count) period skey,
    issued E ((pre ++ since).foldl CounterCall.next count) post, ?_, rfl, ?_⟩
  · rw [issued_append]; rfl
  · refine ⟨rfl, rfl, ?_⟩
    show (((pre ++ since).foldl CounterCall.next count : Nat) : Int) = _
    rw [List.foldl_append]
    have : pre.foldl CounterCall.next count = base := by
      rcases hbase with ⟨rfl, rfl⟩ | ⟨pre', rfl⟩
      · rfl
      · rw [List.foldl_append]; rfl
    rw [this]
    exact foldl_delta since hns base hb

/-- **C57 fails as stated**: issuing does not consume the counter, so two certificates issued one
after the other (for any keys and periods) carry the same number. -/
theorem C57_issue_does_not_consume (E : Env) (count : Nat) (h1 h2 k1 k2 : Bytes) (p1 p2 : Nat) :
    ∃ c1 c2, issued E count [.issue h1 p1 k1, .issue h2 p2 k2] = [c1, c2] ∧ c1.seq = c2.seq :=
  ⟨_, _, rfl, rfl⟩

/-- **C57** (partial: only for callers that increment the counter themselves between two issues,
make no other counter call, and do not exceed 2^64.)  Then the issued numbers strictly
increase. -/
theorem C57_monotone_partial (E : Env) : ∀ (calls : List CounterCall) (count : Nat),
    (∀ c ∈ calls, c = .increment ∨ ∃ h p s, c = .issue h p s) →
    (∀ a b c h p s h' p' s', calls = a ++ .issue h p s :: (b ++ .issue h' p' s' :: c) → .increment ∈ b) →
    count + calls.length < 2 ^ 64 →
    ((issued E count calls).map OpCert.seq).Pairwise (· < ·) ∧ (∀ x ∈ issued E count calls, count ≤ x.seq) ∧
    ((∀ b h' p' s' c, calls = b ++ .issue h' p' s' :: c → .increment ∈ b) → ∀ x ∈ issued E count calls, count < x.seq) := by
  intro calls
  induction calls with
  | nil => intro count _ _ _; exact ⟨List.Pairwise.nil, by simp [issued], by simp [issued]⟩
  | cons c cs ih =>
    intro count hk hd hlen
    have hk' : ∀ c ∈ cs, c = .increment ∨ ∃ h p s, c = .issue h p s := fun x hx => hk x (by simp [hx])
    have hd' : ∀ a b d h p s h' p' s', cs = a ++ .issue h p s :: (b ++ .issue h' p' s' :: d) → CounterCall.increment ∈ b := by
      intro a b d h p s h' p' s' he
      exact hd (c :: a) b d h p s h' p' s' (by rw [he]; rfl)
    simp only [List.length_cons] at hlen
    rcases hk c (by simp) with rfl | ⟨h, p, s, rfl⟩
    · have hn : Pool.increment count = count + 1 := by unfold Pool.increment; exact Nat.mod_eq_of_lt (by omega)
      obtain ⟨i1, i2, i3⟩ := ih (count + 1) hk' hd' (by omega)
      have he : issued E count (CounterCall.increment :: cs) = issued E (count + 1) cs := by
        simp only [issued, CounterCall.next, hn]
      rw [he]
      exact ⟨i1, fun x hx => by have := i2 x hx; omega, fun _ x hx => by have := i2 x hx; omega⟩
    · obtain ⟨i1, i2, i3⟩ := ih count hk' hd' (by omega)
      have i4 := i3 (fun b h' p' s' d he => hd [] b d h p s h' p' s' (by rw [he]; rfl))
      refine ⟨?_, ?_, ?_⟩
      · simp only [issued, List.map_cons, List.pairwise_cons]
        refine ⟨?_, i1⟩
        intro y hy
        obtain ⟨x, hx, rfl⟩ := List.mem_map.mp hy
        exact i4 x hx
      · intro x hx
        simp only [issued, List.mem_cons] at hx
        rcases hx with rfl | hx
        · exact Nat.le_refl _
        · exact i2 x hx
      · intro hall
        have := hall [] h p s cs rfl
        simp at this

theorem foldl_next_lt : ∀ (cs : List CounterCall) (n : Nat), n < 2 ^ 64 → (∀ m, .setCount m ∈ cs → m < 2 ^ 64) →
    cs.foldl CounterCall.next n < 2 ^ 64 := by
  intro cs
  induction cs with
  | nil => intro n hn _; exact hn
  | cons c cs ih =>
    intro n hn hm
    refine ih _ ?_ (fun m h => hm m (by simp [h]))
    cases c with
    | setCount m => exact hm m (by simp)
    | increment => exact (next_delta n .increment (fun h => h) hn).2
    | decrement => exact (next_delta n .decrement (fun h => h) hn).2
    | issue h p s => exact (next_delta n (.issue h p s) (fun h => h) hn).2

/-- **C57** Exactly when a number is used twice: two issues between which the counter is not set carry the same number if and
only if the increments and decrements between them cancel (modulo 2^64) — in particular when there are none. -/
theorem C57_reuse_iff (E : Env) (count : Nat) (hc : count < 2 ^ 64) (a b c : List CounterCall) (h h' k k' : Bytes) (p p' : Nat)
    (ha : ∀ m, .setCount m ∈ a → m < 2 ^ 64) (hb : ∀ x ∈ b, ¬ x.isSet) :
    ∃ c1 c2 rest, issued E count (a ++ .issue h p k :: (b ++ .issue h' p' k' :: c)) =
        issued E count a ++ c1 :: (issued E c1.seq b ++ c2 :: rest) ∧
      c1.hotVkey = h ∧ c2.hotVkey = h' ∧ (c1.seq = c2.seq ↔ (2 ^ 64 : Int) ∣ (b.map CounterCall.delta).sum) := by
  have hlt := foldl_next_lt a count hc ha
  refine ⟨generate E h (a.foldl CounterCall.next count) p k,
    generate E h' (b.foldl CounterCall.next (a.foldl CounterCall.next count)) p' k',
    issued E (b.foldl CounterCall.next (a.foldl CounterCall.next count)) c, ?_, rfl, rfl, ?_⟩
  · rw [issued_append, issued, issued_append]; rfl
  · show a.foldl CounterCall.next count = b.foldl CounterCall.next (a.foldl CounterCall.next count) ↔ _
    have hd := foldl_delta b hb _ hlt
    generalize a.foldl CounterCall.next count = n at hd hlt ⊢
    generalize b.foldl CounterCall.next n = m at hd ⊢
    omega

/-- **C57** Exactly which callers get a strictly increasing sequence of numbers (among those that only increment and issue, with
a counter that does not wrap): those that increment between any two issues. -/
theorem C57_monotone_iff (E : Env) (calls : List CounterCall) (count : Nat)
    (hk : ∀ c ∈ calls, c = .increment ∨ ∃ h p s, c = .issue h p s) (hlen : count + calls.length < 2 ^ 64) :
    ((issued E count calls).map OpCert.seq).Pairwise (· < ·) ↔
      ∀ a b c h p s h' p' s', calls = a ++ .issue h p s :: (b ++ .issue h' p' s' :: c) → .increment ∈ b := by
  refine ⟨fun hp a b c h p s h' p' s' he => ?_, fun hd => (C57_monotone_partial E calls count hk hd hlen).1⟩
  subst he
  refine Classical.byContradiction fun hi => ?_
  have hb : ∀ x ∈ b, ∃ h p s, x = CounterCall.issue h p s := by
    intro x hx
    rcases hk x (by simp [hx]) with rfl | hx'
    · exact absurd hx hi
    · exact hx'
  have hz : ∀ l : List CounterCall, (∀ x ∈ l, ∃ h p s, x = CounterCall.issue h p s) → (l.map CounterCall.delta).sum = 0 := by
    intro l
    induction l with
    | nil => intro _; rfl
    | cons x l ih =>
      intro hl
      obtain ⟨_, _, _, rfl⟩ := hl x (by simp)
      simp [CounterCall.delta, ih fun y hy => hl y (by simp [hy])]
  obtain ⟨c1, c2, rest, he, -, -, hiff⟩ := C57_reuse_iff E count (by omega) a b c h h' s s' p p'
    (fun m hm => by rcases hk _ (List.mem_append_left _ hm) with h | ⟨_, _, _, h⟩ <;> cases h)
    (fun x hx => by obtain ⟨_, _, _, rfl⟩ := hb x hx; exact fun h => h)
  have heq := hiff.mpr (by rw [hz b hb]; exact Int.dvd_zero _)
  rw [he] at hp
  simp only [List.map_append, List.map_cons, List.pairwise_append, List.pairwise_cons] at hp
  exact absurd (hp.2.1.1 c2.seq (by simp)) (by omega)

/-- **C57** The counter wraps: past 2^64-1 it returns to 0, and decrementing 0 gives 2^64-1. -/
theorem C57_wraps : increment (2 ^ 64 - 1) = 0 ∧ decrement 0 = 2 ^ 64 - 1 ∧
    (∀ n, n + 1 < 2 ^ 64 → increment n = n + 1 ∧ decrement (n + 1) = n) := by
  refine ⟨by decide, by decide, fun n h => ?_⟩
  unfold increment decrement; omega

/-! ### Concrete cases -/

/-- A toy environment. -/
def toyEnv : Env where
  C := toyCurve
  P := Bip32.toyPrims
  blake224 m := (m ++ List.replicate 28 0).take 28
  blake224_length m := by simp

/-- Three issues with increments between them meet the hypotheses of `C57_monotone_partial`. -/
example : (issued toyEnv 7 [.issue [1] 2 [3], .increment, .issue [1] 2 [3], .increment, .increment, .issue [4] 5 [6]]).map OpCert.seq =
    [7, 8, 10] := rfl

/-- A certificate whose fields are all different, as bytes. -/
example : messageToSign ⟨[9, 9], 258, 3, []⟩ = [9, 9, 0, 0, 0, 0, 0, 0, 1, 2, 0, 0, 0, 0, 0, 0, 0, 3] := by decide +kernel

example : (⟨List.replicate 32 1, 500, 7, List.replicate 64 2⟩ : OpCert).serialize =
    [0x84, 0x58, 0x20] ++ List.replicate 32 1 ++ [0x19, 0x01, 0xF4, 0x07, 0x58, 0x40] ++ List.replicate 64 2 := by decide +kernel

/-- The hypotheses of `C56_generate` are met. -/
example : SignableBytes (List.replicate 32 9) 258 3 (messageToSign ⟨List.replicate 32 9, 258, 3, []⟩) ∧
    ¬ ellL ∣ leNat (toyEnv.P.sha512 ((toyEnv.P.sha512 (List.replicate 32 5)).drop 32 ++ messageToSign ⟨List.replicate 32 9, 258, 3, []⟩)) :=
  ⟨(message_eq [] (by decide) (by decide) _).mpr rfl, by
    intro h
    have := Nat.eq_zero_of_dvd_of_lt h (by decide +kernel)
    revert this
    decide +kernel⟩

end Cardano.Pool
