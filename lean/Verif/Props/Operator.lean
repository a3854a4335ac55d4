import Verif.Spec.Operator
import Verif.Props.Kes
import Verif.Props.OpCert
import Verif.Props.ColdKey
import Verif.Props.Ed25519

/-! # C92: the blocks of a careful operator are accepted -/

namespace Cardano.Pool

open Cardano Cardano.Ed Cardano.KesSpec Cardano.Spec.LedgerRules Cardano.Spec.BlockRules Cardano.Spec.Operator

/-- `SumKesSignature::verify` accepts exactly what the sum composition accepts. -/
theorem C92_kes_verify_iff (S : SigHash) (N : Crypto) (hh : N.bodyHash = S.hash)
    (hv : ∀ pub msg sig, S.verify pub msg sig = N.verify pub msg sig) : ∀ (d t : Nat) (pk msg sig : Bytes),
    sig.length = 64 + 64 * d → (Kes.verify S d t pk msg sig = .ok true ↔ SumAccepts N d t pk msg sig) := by
  intro d
  induction d with
  | zero =>
    intro t pk msg sig hl
    simp only [Kes.verify, SumAccepts, hv, Out.ok.injEq]
    exact ⟨fun h => ⟨hl, h⟩, fun h => h.2⟩
  | succ d ih =>
    intro t pk msg sig hl
    have hsub : (sig.take (64 + 64 * d)).length = 64 + 64 * d := by
      rw [List.length_take]; omega
    have hsz : Kes.sigSize d = 64 + 64 * d := by unfold Kes.sigSize; omega
    have e1 : sig.length - 64 = 64 + 64 * d := by omega
    have e2 : sig.length - 32 = 64 + 64 * d + 32 := by omega
    have hsplit : sig = sig.take (64 + 64 * d) ++ (sig.drop (64 + 64 * d)).take 32 ++ sig.drop (64 + 64 * d + 32) := by
      have h1 : sig.drop (64 + 64 * d + 32) = (sig.drop (64 + 64 * d)).drop 32 := by rw [List.drop_drop]
      rw [List.append_assoc, h1, List.take_append_drop, List.take_append_drop]
    have hl1 : ((sig.drop (64 + 64 * d)).take 32).length = 32 := by
      rw [List.length_take, List.length_drop]; omega
    have hl2 : (sig.drop (64 + 64 * d + 32)).length = 32 := by
      rw [List.length_drop]; omega
    have huniq : ∀ sub l r : Bytes, sig = sub ++ l ++ r → l.length = 32 → r.length = 32 →
        sub = sig.take (64 + 64 * d) ∧ l = (sig.drop (64 + 64 * d)).take 32 ∧ r = sig.drop (64 + 64 * d + 32) := by
      intro sub l r he h1 h2
      have hlen : sub.length = 64 + 64 * d := by
        have := congrArg List.length he
        simp only [List.length_append] at this; omega
      have h3 := List.append_inj (hsplit.symm.trans he) (by simp only [List.length_append, hl1, h1, hlen, List.length_take]; omega)
      have h4 := List.append_inj h3.1 (by rw [List.length_take]; omega)
      exact ⟨h4.1.symm, h4.2.symm, h3.2.symm⟩
    simp only [Kes.verify, SumAccepts, e1, e2, Kes.hashPair, Kes.sigFromBytes, hsz, hsub]
    rw [if_neg (show ¬ (64 + 64 * d ≠ 64 + 64 * d) from fun h => h rfl)]
    constructor
    · intro h
      split at h
      · cases h
      · rename_i hk
        rw [Out.ok_bind] at h
        refine ⟨_, _, _, hsplit, hl1, hl2, by rw [hh]; exact Classical.not_not.mp hk, ?_, ?_⟩
        · intro ht
          rw [if_pos ht] at h
          exact (ih _ _ _ _ hsub).mp h
        · intro ht
          rw [if_neg (by omega)] at h
          exact (ih _ _ _ _ hsub).mp h
    · rintro ⟨sub, l, r, he, h1, h2, h3, h4, h5⟩
      obtain ⟨rfl, rfl, rfl⟩ := huniq sub l r he h1 h2
      rw [if_neg (by rw [← hh]; exact fun h => h h3), Out.ok_bind]
      by_cases ht : t < 2 ^ d
      · rw [if_pos ht]
        exact (ih _ _ _ _ hsub).mpr (h4 ht)
      · rw [if_neg ht]
        exact (ih _ _ _ _ hsub).mpr (h5 (by omega))

/-- What the network and the library have in common. -/
structure SameCrypto (E : Env) (S : SigHash) (N : Crypto) : Prop where
  hash : N.bodyHash = S.hash
  kes : ∀ pub msg sig, S.verify pub msg sig = N.verify pub msg sig
  cold : ∀ pub msg sig, Ed.verifyDetached E.C E.P.sha512 sig msg pub = N.verify pub msg sig

/-- No signature of the history has nonce zero (for hash outputs that never happens in practice): neither those of
the certificates nor those of the headers. -/
structure NoZeroNonce (E : Env) (S : SigHash) (d : Nat) (cold : Cold) (acts : List Action) : Prop where
  certs : ∀ seed, .rotate seed ∈ acts → ∀ n p msg, n < 2 ^ 64 → p < 2 ^ 64 → SignableBytes (treeKey S d seed) n p msg →
    ¬ ellL ∣ leNat (E.P.sha512 (cold.noncePrefix E.P.sha512 ++ msg))
  headers : ∀ seed, .rotate seed ∈ acts → ∀ h, .forge h ∈ acts → ∀ t < 2 ^ d, ¬ S.zeroNonce (seedAt S seed (leafPath d t)) h

/-- Issuing succeeds and gives a certificate with the requested fields that the cold key's verification key accepts. -/
theorem issue_ok (E : Env) (cold : Cold) (hcold : cold.Usable) (hot : Bytes) (c p : Nat) (hc : c < 2 ^ 64) (hp : p < 2 ^ 64)
    (hz : ∀ msg, SignableBytes hot c p msg → ¬ ellL ∣ leNat (E.P.sha512 (cold.noncePrefix E.P.sha512 ++ msg))) :
    ∃ cert vk, cold.issue E hot c p = .ok cert ∧ cold.vkey E = .ok vk ∧ cert.hotVkey = hot ∧ cert.seq = c ∧ cert.period = p ∧
      cert.verify E vk = true := by
  have hm := (message_eq (hot := hot) (List.replicate 64 0) hc hp _).mpr rfl
  cases cold with
  | plain skey =>
    obtain ⟨c', h1, h2, h3, h4, -, -, h7⟩ := C56_generate E hot skey _ c p hcold hc hp hm (hz _ hm)
    exact ⟨c', _, congrArg Out.ok h1, rfl, h2, h3, h4, h7⟩
  | extended k =>
    obtain ⟨c', h⟩ := C56_generate_extended_total E hot _ c p k hc hp hm hcold (hz _ hm)
    obtain ⟨h1, h2, h3, -, -, vk, h4, h5⟩ := C56_generate_extended E hot c p k c' hc hp h
    exact ⟨c', vk, h, h4, h1, h2, h3, h5⟩

/-- The node after some calls: no key yet, or a key of known age with its certificate.  `m` is the counter last seen
by the network, `used` says whether the current certificate has been seen. -/
def Inv (E : Env) (S : SigHash) (praos : Bool) (d : Nat) (cold : Cold) (all : List Action) (m : Nat) (used : Bool) (n : Node) :
    Option Nat → Prop
  | none => n.current = none ∧ m ≤ n.counter ∧ (praos = true → n.counter ≤ m + 1)
  | some a => ∃ seed c p cert, .rotate seed ∈ all ∧ c < 2 ^ 64 ∧ p < 2 ^ 64 ∧ a < 2 ^ d ∧ n.period = p + a ∧
      n.counter = c + 1 ∧ m ≤ c ∧ (praos = true → if used then m = c else c ≤ m + 1) ∧
      n.current = some (Kes.keyAt S d seed a, cert) ∧ cold.issue E (treeKey S d seed) c p = .ok cert

theorem blocks_accepted (E : Env) (S : SigHash) (N : Crypto) (hN : SameCrypto E S N) (praos : Bool) (maxEvo d : Nat)
    (hd : d < 32) (cold : Cold) (hcold : cold.Usable) (all : List Action)
    (hseed : ∀ seed, .rotate seed ∈ all → seed.length = 32) (hz : NoZeroNonce E S d cold all) :
    ∀ (acts : List Action) (age : Option Nat) (used : Bool) (n : Node) (m : Nat), (∀ a ∈ acts, a ∈ all) →
      Inv E S praos d cold all m used n age → InTime (min maxEvo (2 ^ d)) age acts → (praos = true → KeysUsed used acts) →
      (∀ a, age = some a → a < maxEvo) → n.counter + acts.length < 2 ^ 64 → n.period + acts.length < 2 ^ 64 →
      ∃ bs, blocks E S d cold n acts = .ok bs ∧ ChainAccepts N praos maxEvo d m bs := by
  intro acts
  induction acts with
  | nil => intro age used n m _ _ _ _ _ _ _; exact ⟨[], rfl, trivial⟩
  | cons act acts ih =>
    intro age used n m hall hinv htime hused hage hcnt hper
    have hall' : ∀ a ∈ acts, a ∈ all := fun a h => hall a (by simp [h])
    rw [List.length_cons] at hcnt hper
    cases act with
    | newPeriod =>
      cases age with
      | none =>
        obtain ⟨h1, h2, h3⟩ := hinv
        obtain ⟨bs, e, hb⟩ := ih none used ⟨n.period + 1, n.counter, none⟩ m hall' ⟨rfl, h2, h3⟩ htime hused
          (by simp) (by dsimp only; omega) (by dsimp only; omega)
        refine ⟨bs, ?_, hb⟩
        simp only [blocks, Spec.Operator.act, h1, Out.ok_bind, e, List.nil_append]
      | some a =>
        obtain ⟨seed, c, p, cert, i1, i2, i3, i4, i5, i6, i7, i8, i9, i10⟩ := hinv
        obtain ⟨ht, htime⟩ := htime
        obtain ⟨bs, e, hb⟩ := ih (some (a + 1)) used
          { n with period := n.period + 1, current := some (Kes.keyAt S d seed (a + 1), cert) } m hall'
          ⟨seed, c, p, cert, i1, i2, i3, by omega, by dsimp only; omega, i6, i7, i8, rfl, i10⟩ htime hused
          (by intro x hx; injection hx with hx; omega) (by dsimp only; omega) (by dsimp only; omega)
        refine ⟨bs, ?_, hb⟩
        have hu : Kes.update S d (Kes.keyAt S d seed a) = (Kes.keyAt S d seed (a + 1), .ok ()) :=
          Kes.update_keyAt S d seed a _ hd (hseed seed i1) (by omega)
        simp only [blocks, Spec.Operator.act, i9, hu, Out.ok_bind, e, List.nil_append]
    | rotate seed =>
      have hin : Action.rotate seed ∈ all := hall _ (by simp)
      have hpos : 0 < 2 ^ d := Nat.pow_pos (by omega)
      have htime' : 0 < min maxEvo (2 ^ d) ∧ InTime (min maxEvo (2 ^ d)) (some 0) acts := by
        cases age <;> exact htime
      have hcm : m ≤ n.counter ∧ (praos = true → n.counter ≤ m + 1) := by
        cases age with
        | none => exact ⟨hinv.2.1, hinv.2.2⟩
        | some a =>
          obtain ⟨seed', c, p, cert, i1, i2, i3, i4, i5, i6, i7, i8, i9, i10⟩ := hinv
          refine ⟨by omega, fun hp => ?_⟩
          have h := i8 hp
          have hu := (hused hp).1
          rw [hu] at h
          simp only [if_true] at h
          omega
      obtain ⟨cert, -, hcert, -⟩ := issue_ok E cold hcold (treeKey S d seed) n.counter n.period (by omega) (by omega)
        (fun msg hmsg => hz.certs seed hin _ _ _ (by omega) (by omega) hmsg)
      obtain ⟨bs, e, hb⟩ := ih (some 0) false
        { n with counter := n.counter + 1, current := some (Kes.keyAt S d seed 0, cert) } m hall'
        ⟨seed, n.counter, n.period, cert, hin, by omega, by omega, hpos, rfl, rfl, hcm.1, by simpa using hcm.2, rfl, hcert⟩ htime'.2
        (fun hp => (hused hp).2) (by intro x hx; injection hx with hx; omega) (by dsimp only; omega) (by dsimp only; omega)
      refine ⟨bs, ?_, hb⟩
      have hk : Kes.keygen S d seed = .ok (Kes.keyAt S d seed 0, treeKey S d seed, Kes.zeros32) := Kes.keygen_ok S d seed (hseed seed hin)
      have hinc : increment n.counter = n.counter + 1 := by unfold increment; omega
      simp only [blocks, Spec.Operator.act, hk, Out.ok_bind, hcert, hinc, e, List.nil_append]
    | forge header =>
      cases age with
      | none => exact htime.elim
      | some a =>
        have hinv' := hinv
        obtain ⟨seed, c, p, cert, i1, i2, i3, i4, i5, i6, i7, i8, i9, i10⟩ := hinv
        obtain ⟨bs, e, hb⟩ := ih (some a) true n c hall'
          ⟨seed, c, p, cert, i1, i2, i3, i4, i5, i6, Nat.le_refl _, fun _ => rfl, i9, i10⟩ htime hused hage (by omega) (by omega)
        have hs : Kes.sign S d (Kes.keyAt S d seed a) header = .ok (Kes.sigAt S d seed a header) :=
          Kes.sign_keyAt S d seed a _ header (hseed seed i1)
        have hsl : (Kes.sigAt S d seed a header).length = 64 + 64 * d := by
          rw [Kes.sigAt_length]; unfold Kes.sigSize; omega
        obtain ⟨cert', vk, j1, j2, j3, j4, j5, j6⟩ := issue_ok E cold hcold (treeKey S d seed) c p i2 i3
          (fun msg hmsg => hz.certs seed i1 _ _ _ i2 i3 hmsg)
        obtain rfl : cert' = cert := Out.ok.inj (j1.symm.trans i10)
        refine ⟨⟨n.period, vk, cert'.hotVkey, cert'.seq, cert'.period, cert'.sigma, header,
          Kes.sigAt S d seed a header⟩ :: bs, by simp only [blocks, Spec.Operator.act, i9, hs, j2, Out.ok_bind, e]; rfl,
          ⟨?_, ?_, ?_, ?_, ?_, ?_⟩, by rw [show cert'.seq = c from j4]; exact hb⟩
        · change cert'.period ≤ n.period; omega
        · change n.period < cert'.period + maxEvo
          have := hage a rfl; omega
        · change m ≤ cert'.seq; omega
        · intro hp
          change cert'.seq ≤ m + 1
          have := i8 hp
          cases used <;> simp at this <;> omega
        · obtain ⟨msg, g1, g2⟩ := (C56_verify_iff E cert' vk (by omega) (by omega)).mp j6
          exact ⟨msg, g1, by rw [← hN.cold]; exact g2⟩
        · change SumAccepts N d (n.period - cert'.period) cert'.hotVkey header _
          rw [j3, j5, i5, Nat.add_sub_cancel_left, ← C92_kes_verify_iff S N hN.hash hN.kes _ _ _ _ _ hsl]
          refine Kes.verify_sigAt S d seed a header (hseed seed i1) ?_
          rw [Kes.leafSeed_eq S d seed a i4]
          exact hz.headers seed i1 header (hall _ (by simp)) a i4

/-- **C92** An operator who generates KES keys and certificates with the library, increments the counter after each
certificate and rotates in time never produces a block that the network rejects because of its certificate or KES
signature: every history of periods, rotations and blocks, for every key depth, counter and lifetime.  Under the
rules since Babbage (`praos`), this needs that every certificate was used for a block before the next one is made. -/
theorem C92_blocks_accepted (E : Env) (S : SigHash) (N : Crypto) (hN : SameCrypto E S N) (praos : Bool) (maxEvo d : Nat)
    (hd : d < 32) (cold : Cold) (hcold : cold.Usable) (period counter m : Nat) (hm : m ≤ counter)
    (hm' : praos = true → counter ≤ m + 1) (acts : List Action)
    (hseed : ∀ seed, .rotate seed ∈ acts → seed.length = 32) (hz : NoZeroNonce E S d cold acts)
    (htime : InTime (min maxEvo (2 ^ d)) none acts) (hused : praos = true → KeysUsed true acts)
    (hc : counter + acts.length < 2 ^ 64) (hp : period + acts.length < 2 ^ 64) :
    ∃ bs, blocks E S d cold ⟨period, counter, none⟩ acts = .ok bs ∧ ChainAccepts N praos maxEvo d m bs :=
  blocks_accepted E S N hN praos maxEvo d hd cold hcold acts hseed hz acts none true _ m (fun _ h => h) ⟨rfl, hm, hm'⟩ htime
    hused (by simp) hc hp

theorem increment_lt {n : Nat} (h : n + 1 < 2 ^ 64) : increment n = n + 1 := by unfold increment; omega

/-- **C92** The extra condition is needed: an operator who rotates twice without a block in between (for instance a
small pool that was not elected), incrementing the counter each time as the library's tools tell, has a
certificate whose first block every node rejects since Babbage, though the older rule accepts it. -/
theorem C92_unused_certificate_rejected (E : Env) (S : SigHash) (N : Crypto) (maxEvo d : Nat) (cold : Cold) (s1 s2 header : Bytes)
    (h1 : s1.length = 32) (h2 : s2.length = 32) (period m : Nat) (hm : m + 3 < 2 ^ 64) (bs : List Block)
    (h : blocks E S d cold ⟨period, m + 1, none⟩ [.rotate s1, .rotate s2, .forge header] = .ok bs) :
    ∃ b, bs = [b] ∧ b.counter = m + 2 ∧ ¬ ChainAccepts N true maxEvo d m bs := by
  have e1 : increment (m + 1) = m + 2 := increment_lt (by omega)
  have k1 : Kes.keygen S d s1 = .ok (Kes.keyAt S d s1 0, treeKey S d s1, Kes.zeros32) := Kes.keygen_ok S d s1 h1
  have k2 : Kes.keygen S d s2 = .ok (Kes.keyAt S d s2 0, treeKey S d s2, Kes.zeros32) := Kes.keygen_ok S d s2 h2
  have hs : Kes.sign S d (Kes.keyAt S d s2 0) header = .ok (Kes.sigAt S d s2 0 header) := Kes.sign_keyAt S d s2 0 0 header h2
  simp only [blocks, Spec.Operator.act, k1, k2, Out.ok_bind] at h
  obtain ⟨⟨n1, b1⟩, g1, h⟩ := Out.bind_eq_ok.mp h
  obtain ⟨c1, g2, g3⟩ := Out.bind_eq_ok.mp g1
  obtain ⟨rfl, rfl⟩ := Prod.mk.inj (Out.ok.inj g3)
  obtain ⟨r1, h4, h5⟩ := Out.bind_eq_ok.mp h
  obtain ⟨⟨n2, b2⟩, g4, h6⟩ := Out.bind_eq_ok.mp h4
  obtain ⟨c2, g5, g6⟩ := Out.bind_eq_ok.mp g4
  obtain ⟨rfl, rfl⟩ := Prod.mk.inj (Out.ok.inj g6)
  simp only [hs, Out.ok_bind, e1] at h6 g5
  have hseq : c2.seq = m + 2 := by
    cases cold with
    | plain k => rw [← Out.ok.inj g5]; rfl
    | extended k =>
      simp only [Cold.issue, generateX, OpCert.signX] at g5
      obtain ⟨s, -, g⟩ := Out.bind_eq_ok.mp g5
      rw [← Out.ok.inj g]; rfl
  obtain ⟨r2, h7, h8⟩ := Out.bind_eq_ok.mp h6
  obtain ⟨⟨n3, b3⟩, g7, h9⟩ := Out.bind_eq_ok.mp h7
  obtain ⟨vk, -, g8⟩ := Out.bind_eq_ok.mp g7
  obtain ⟨-, rfl⟩ := Prod.mk.inj (Out.ok.inj g8)
  obtain rfl := Out.ok.inj h9
  obtain rfl := Out.ok.inj h8
  obtain rfl := Out.ok.inj h5
  refine ⟨_, rfl, hseq, ?_⟩
  rintro ⟨h, -⟩
  have := h.counterNew rfl
  change c2.seq ≤ m + 1 at this
  omega

/-- **C92** The cold key of every seed phrase is usable, so all of the above holds for it. -/
theorem C92_seed_phrase_key (E : Env) (mn : Mnemonic.Mn) (entropy : Bytes) (cs : Nat)
    (hs : Mnemonic.toEntropy mn = .ok (entropy, cs)) :
    ∃ k, fromMnemonic E mn = .ok k ∧ (Cold.extended k).Usable := by
  have hs' : Mnemonic.toSeed mn = .ok entropy := by unfold Mnemonic.toSeed; rw [hs]; rfl
  obtain ⟨r, h1, h2, h3, h4, _⟩ := Bip32.C30_fromMnemonic E.C E.P mn [] entropy hs'
  have hr : Bip32.IcarusRange 0 (Spec.Bip32.kL r.key) := ⟨h3.1, h3.2.1, by omega⟩
  obtain ⟨c, g1, g2, _, g4, _⟩ := Bip32.C74_path E.C E.P [2147485501, 2147485463, 2147483648, 2147483648] r 0 h2 hr (by decide)
  refine ⟨c, ?_, Bip32.icarusRange_not_dvd (by decide) g4⟩
  have := fromRootKey_eq E r c g2 g1
  unfold fromMnemonic
  rw [h1]
  exact this

theorem blocks_replicate (E : Env) (S : SigHash) (d : Nat) (cold : Cold) (seed : Bytes) (hd : d < 32) (hs : seed.length = 32) (c : OpCert) (cnt : Nat)
    (rest : List Action) : ∀ (k a p : Nat), a + k = 2 ^ d → 0 < k →
    blocks E S d cold ⟨p, cnt, some (Kes.keyAt S d seed a, c)⟩ (List.replicate k .newPeriod ++ rest) = .throw .runtimeError := by
  intro k
  induction k with
  | zero => intro a p _ h; omega
  | succ k ih =>
    intro a p ha _
    rw [List.replicate_succ, List.cons_append]
    by_cases hk : k = 0
    · subst hk
      obtain ⟨k0, pk, w, g1, -, g3, -⟩ := Kes.C24_exact_lifetime S d hd seed hs
      have hk0 : k0 = Kes.keyAt S d seed 0 := by
        have := (Kes.keygen_ok S d seed hs).symm.trans g1
        exact (congrArg Prod.fst (Out.ok.inj this)).symm
      subst hk0
      have hpos : 0 < 2 ^ d := Nat.pow_pos (by omega)
      have ha' : a = 2 ^ d - 1 := by omega
      have hu := g3 _ (Kes.updates_keyAt S d seed hd hs (2 ^ d - 1) (by omega))
      rw [← ha'] at hu
      simp only [blocks, Spec.Operator.act, hu]
      rfl
    · have hu : Kes.update S d (Kes.keyAt S d seed a) = (Kes.keyAt S d seed (a + 1), .ok ()) :=
        Kes.update_keyAt S d seed a _ hd hs (by omega)
      simp only [blocks, Spec.Operator.act, hu, Out.ok_bind]
      rw [ih (a + 1) (p + 1) (by omega) (by omega)]
      rfl

/-- **C92** An operator who does not rotate within the `2^d` periods of a key gets an exception when the key would
have to evolve once more, whatever comes after. -/
theorem C92_late_rotation (E : Env) (S : SigHash) (d : Nat) (hd : d < 32) (cold : Cold) (seed : Bytes) (hs : seed.length = 32)
    (n : Node) (rest : List Action) (bs : List Block) :
    blocks E S d cold n (.rotate seed :: List.replicate (2 ^ d) .newPeriod ++ rest) ≠ .ok bs ∧
    (∀ c, cold.issue E (treeKey S d seed) n.counter n.period = .ok c →
      blocks E S d cold n (.rotate seed :: List.replicate (2 ^ d) .newPeriod ++ rest) = .throw .runtimeError) := by
  have hk' : Kes.keygen S d seed = .ok (Kes.keyAt S d seed 0, treeKey S d seed, Kes.zeros32) := Kes.keygen_ok S d seed hs
  have key : ∀ c, cold.issue E (treeKey S d seed) n.counter n.period = .ok c →
      blocks E S d cold n (.rotate seed :: List.replicate (2 ^ d) .newPeriod ++ rest) = .throw .runtimeError := by
    intro c hc
    rw [List.cons_append]
    simp only [blocks, Spec.Operator.act, hk', hc, Out.ok_bind]
    rw [blocks_replicate E S d cold seed hd hs _ _ rest (2 ^ d) 0 _ (by omega) (Nat.pow_pos (by omega))]
    rfl
  refine ⟨fun h => ?_, key⟩
  have h' := h
  rw [List.cons_append] at h'
  simp only [blocks, Spec.Operator.act, hk', Out.ok_bind] at h'
  obtain ⟨⟨n1, b1⟩, g1, -⟩ := Out.bind_eq_ok.mp h'
  obtain ⟨c, g2, -⟩ := Out.bind_eq_ok.mp g1
  rw [key c g2] at h
  cases h

/-! ## A concrete operator -/

def toyOperator : SigHash :=
  Ed25519.sigHash toyCurve Bip32.toyPrims.sha512 (fun x => (x ++ List.replicate 32 0).take 32) (by simp)

def toyChain : Crypto :=
  ⟨fun _ => List.replicate 28 9, fun x => (x ++ List.replicate 32 0).take 32,
    fun pub msg sig => Ed.verifyDetached toyCurve Bip32.toyPrims.sha512 sig msg pub⟩

def toyActions : List Action :=
  [.newPeriod, .rotate (List.replicate 32 1), .forge [1, 2], .newPeriod, .forge [3], .newPeriod, .newPeriod, .forge [],
    .rotate (List.replicate 32 2), .newPeriod, .forge [4]]

/-- The hypotheses of `C92_blocks_accepted` are met: keys of depth 2, a lifetime of 62 periods, two rotations, four
blocks. -/
example : ∃ bs, blocks toyEnv toyOperator 2 (.plain (List.replicate 32 5)) ⟨100, 7, none⟩ toyActions = .ok bs ∧
    ChainAccepts toyChain true 62 2 6 bs := by
  have hnz : ¬ ellL ∣ leNat ((1 : UInt8) :: List.replicate 63 0) := by decide +kernel
  refine C92_blocks_accepted toyEnv toyOperator toyChain ⟨rfl, fun _ _ _ => rfl, fun _ _ _ => rfl⟩ true 62 2 (by decide) (.plain (List.replicate 32 5))
    (List.length_replicate (n := 32)) 100 7 6 (by decide) (by decide) toyActions ?_ ⟨?_, ?_⟩ ?_ ?_ (by decide) (by decide)
  · intro seed h
    simp only [toyActions, List.mem_cons, List.not_mem_nil, or_false, reduceCtorEq, false_or, Action.rotate.injEq] at h
    rcases h with rfl | rfl <;> rfl
  · intro seed _ n p msg _ _ _
    exact hnz
  · intro seed _ h _ t _
    exact hnz
  · simp [toyActions, InTime]
  · simp [toyActions, KeysUsed]

/-- The blocks themselves: certificate counters and periods. -/
example : (do
      let bs ← blocks toyEnv toySigHash 2 (.plain (List.replicate 32 5)) ⟨100, 7, none⟩ toyActions
      Out.ok (List.map (fun b : Block => (b.period, b.counter, b.start)) bs)) =
    .ok [(101, 7, 101), (102, 7, 101), (104, 7, 101), (105, 8, 104)] := by
  decide +kernel

end Cardano.Pool
