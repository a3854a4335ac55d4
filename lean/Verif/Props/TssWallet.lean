import Verif.Props.TssDealer
import Verif.Props.Wallet
import Verif.Props.WalletKeys
import Mathlib.Algebra.Polynomial.BigOperators
import Mathlib.Algebra.Polynomial.Monic

/-! # C38: a group that is one short, and C96: a wallet shared by a group -/

namespace Cardano.Tss

open Cardano Cardano.Ed Cardano.Bip32 Cardano.Spec.Bip32 Cardano.Spec.Tss Polynomial

/-- The polynomial with leading coefficient 1 and these zeros. -/
noncomputable def zerosAt (ids : List Nat) : F[X] := (ids.map fun x => X - C (x : F)).prod

theorem zerosAt_monic (ids : List Nat) : (zerosAt ids).Monic := by
  induction ids with
  | nil => simp [zerosAt]
  | cons x xs ih =>
    have h : zerosAt (x :: xs) = (X - C (x : F)) * zerosAt xs := by simp [zerosAt]
    rw [h]
    exact (monic_X_sub_C _).mul ih

theorem zerosAt_natDegree (ids : List Nat) : (zerosAt ids).natDegree = ids.length := by
  induction ids with
  | nil => simp [zerosAt]
  | cons x xs ih =>
    have h : zerosAt (x :: xs) = (X - C (x : F)) * zerosAt xs := by simp [zerosAt]
    rw [h, (monic_X_sub_C _).natDegree_mul (zerosAt_monic xs), ih, natDegree_X_sub_C, List.length_cons]; omega

theorem zerosAt_eval {ids : List Nat} {x : Nat} (h : x ∈ ids) : (zerosAt ids).eval (x : F) = 0 := by
  induction ids with
  | nil => cases h
  | cons y ys ih =>
    have e : zerosAt (y :: ys) = (X - C (y : F)) * zerosAt ys := by simp [zerosAt]
    rw [e, eval_mul]
    rcases List.mem_cons.mp h with rfl | h
    · simp
    · rw [ih h, mul_zero]

theorem zerosAt_zero {ids : List Nat} (h : ∀ x ∈ ids, (x : F) ≠ 0) : (zerosAt ids).eval 0 ≠ 0 := by
  induction ids with
  | nil => simp [zerosAt]
  | cons y ys ih =>
    have e : zerosAt (y :: ys) = (X - C (y : F)) * zerosAt ys := by simp [zerosAt]
    rw [e, eval_mul]
    exact mul_ne_zero (by simpa using h y (by simp)) (ih (fun x hx => h x (by simp [hx])))

/-- Weights that interpolate at 0 miss a polynomial whose degree is exactly the number of points. -/
theorem interpolate_misses (ids : List Nat) (w : List F) (hw : InterpolatesAtZero ids w) (hid : ∀ x ∈ ids, (x : F) ≠ 0)
    (f : F[X]) (hf : f.natDegree ≤ ids.length) (hc : f.coeff ids.length ≠ 0) :
    (List.zipWith (fun (x : Nat) wi => wi * f.eval (x : F)) ids w).sum ≠ f.eval 0 := by
  have hZ := zerosAt_natDegree ids
  have hlead : (zerosAt ids).coeff ids.length = 1 := by
    have := (zerosAt_monic ids).coeff_natDegree
    rwa [hZ] at this
  have hdeg : (f - C (f.coeff ids.length) * zerosAt ids).degree < ids.length := by
    rw [degree_lt_iff_coeff_zero]
    intro m hm
    rw [coeff_sub, coeff_C_mul]
    rcases Nat.lt_or_ge ids.length m with h | h
    · rw [coeff_eq_zero_of_natDegree_lt (by omega), coeff_eq_zero_of_natDegree_lt (p := zerosAt ids) (by omega), mul_zero, sub_zero]
    · obtain rfl : m = ids.length := by omega
      rw [hlead, mul_one, sub_self]
  have h := hw.2 _ hdeg
  have hsame : List.zipWith (fun (x : Nat) wi => wi * (f - C (f.coeff ids.length) * zerosAt ids).eval (x : F)) ids w =
      List.zipWith (fun (x : Nat) wi => wi * f.eval (x : F)) ids w := by
    apply List.ext_getElem (by simp)
    intro i h1 h2
    simp only [List.getElem_zipWith, eval_sub, eval_mul]
    rw [zerosAt_eval (List.getElem_mem _), mul_zero, sub_zero]
  rw [hsame] at h
  rw [h, eval_sub, eval_mul, eval_C]
  intro e
  have : f.coeff ids.length * (zerosAt ids).eval 0 = 0 := by linear_combination -e
  rcases mul_eq_zero.mp this with h | h
  · exact hc h
  · exact zerosAt_zero hid h

/-- **C38** One signer short.  Take any dealing (`coefs`: the random scalars drawn, reduced modulo the group order) and any
`t − 1` dealt shares with different ids.  The protocol runs, but the signature the group makes never verifies, neither
under the root public key nor in any signer (except if the challenge hash happens to be 0 modulo the group order). -/
theorem C38_one_short (C : Curve) (P : Prims) (root : Prv) (n t : UInt32) (ht : 2 ≤ t.toNat) (coefs : List Bytes)
    (hl : coefs.length = t.toNat - 1) (hcan : ∀ c ∈ coefs, c.length = 32 ∧ leNat c < ellL) (pub : Pub) (keys : List KeyShare)
    (h : shamirSplit C P root n t coefs = .ok (pub, keys))
    (sub : List KeyShare) (hsub : ∀ k ∈ sub, k ∈ keys) (hnd : (sub.map KeyShare.id).Nodup) (hlen : sub.length + 1 = t.toNat)
    (cs : List Bytes) (hcs : computeLagrange (sub.map KeyShare.id) = .ok cs)
    (msg : Bytes) (seeds : List Bytes) (hseeds : seeds.length = sub.length) (outs : List (Stateful × Bytes))
    (hout : List.Forall₂ (fun (x : (KeyShare × Bytes) × Bytes) o =>
      (statefulCoef msg pub x.1.1 x.1.2).commitmentShare C P x.2 = .ok o) ((sub.zip cs).zip seeds) outs)
    (hr : ¬ ellL ∣ (outs.map (fun o => leNat o.1.nonce)).sum)
    (comms : List Bytes) (hcp : comms.Perm (outs.map Prod.snd)) :
    ∃ R, aggregateCommitments C comms = .ok R ∧
      ∀ sigs : List Bytes, sigs.Perm (outs.map (fun o => o.1.signatureShare P R)) →
        ∃ sig, aggregateSignatures sigs = .ok sig ∧ sig.length = 64 ∧ sig.take 32 = R ∧
          (¬ ellL ∣ leNat (P.sha512 (R ++ pub.key ++ msg)) →
            pub.verify C P msg sig = false ∧ ∀ o ∈ outs, o.1.verifySignature C P sig = false) := by
  obtain ⟨h0, hc⟩ := shamirSplit_ok h
  obtain ⟨pub', keys', h1, hpub, h2, h3⟩ := shamirSplit_spec C P root n t coefs hl h0 hc
  rw [h] at h1
  obtain ⟨rfl, rfl⟩ := Prod.mk.inj (Out.ok.inj h1)
  have hids : ∀ k ∈ sub, 1 ≤ k.id ∧ k.id < 2 ^ 64 := by
    intro k hk
    have : k.id ∈ shareIds n := by rw [← h2]; exact List.mem_map_of_mem (hsub k hk)
    have := shareIds_mem this
    exact ⟨this.1, this.2.2⟩
  obtain ⟨cs', hcs', -, hint⟩ := (C39_computeLagrange (sub.map KeyShare.id) (by
    intro x hx
    obtain ⟨k, hk, rfl⟩ := List.mem_map.mp hx
    exact (hids k hk).2)).2 (by
      intro hx
      obtain ⟨k, hk, e⟩ := List.mem_map.mp hx
      have := (hids k hk).1; omega) hnd
  rw [hcs] at hcs'
  obtain rfl := Out.ok.inj hcs'
  have hclen : cs.length = sub.length := by simpa using hint.1
  obtain ⟨hd, rfl⟩ := publicKey_ok hpub
  obtain ⟨hm, hmem⟩ := commit_map (fun x : (KeyShare × Bytes) × Bytes => statefulCoef msg _ x.1.1 x.1.2) (fun x => x.2) hout
  have hlo : outs.length = sub.length := by
    rw [← hout.length_eq, List.length_zip, List.length_zip, hclen, hseeds]; simp
  obtain ⟨R, g1, g2⟩ := C38_stateful_iff C P outs (by
      rintro rfl
      simp at hlo; omega) (kL root.key) _ msg rfl hd (by
    intro o ho
    obtain ⟨x, _, hx⟩ := hmem o ho
    exact ⟨_, _, hx, rfl, rfl⟩) hr comms hcp
  refine ⟨R, g1, fun sigs hs => ?_⟩
  obtain ⟨sig, k1, k2, k3, k4, k5⟩ := g2 sigs hs
  refine ⟨sig, k1, k2, k3, fun hch => ?_⟩
  have hfalse : Pub.verify C P ⟨C.enc (kL root.key • C.B), root.cc⟩ msg sig = false := by
    rw [Bool.eq_false_iff]
    intro hv
    rcases k4.mp hv with hv | hv
    · exact hch hv
    · rw [← cast_eq_iff, hm] at hv
      change ((((sub.zip cs).zip seeds).map (fun x => leNat x.1.2 * kL x.1.1.key.key)).sum : F) = _ at hv
      rw [sum_zip_coef sub cs seeds hseeds hclen, zip_shares _ cs sub (fun k hk => (h3 k (hsub k hk)).2.1)] at hv
      refine interpolate_misses _ _ hint ?_ _ ?_ ?_ (hv.trans (ofCoeffs_eval_zero _ _).symm)
      · intro x hx
        obtain ⟨k, hk, rfl⟩ := List.mem_map.mp hx
        exact id_ne_zero (hids k hk).1 (hids k hk).2
      · refine Nat.le_trans (ofCoeffs_natDegree _ _) ?_
        simp only [List.length_map]; omega
      · rw [ofCoeffs_coeff, List.length_map]
        have hidx : sub.length = (sub.length - 1) + 1 := by omega
        have hlt : sub.length - 1 < coefs.length := by omega
        rw [hidx, List.getD_cons_succ, List.getD_eq_getElem?_getD, List.getElem?_map, List.getElem?_eq_getElem hlt]
        intro e
        have := (isZero_iff (hcan _ (List.getElem_mem hlt))).mpr e
        rw [hc _ (List.getElem_mem hlt)] at this
        cases this
  exact ⟨hfalse, fun o ho => (k5 o ho).trans hfalse⟩

/-- The hypotheses are met: one of three share holders with threshold two. -/
example : ∃ (root : Prv) (pub : Pub) (keys sub : List KeyShare) (sig : Bytes),
    shamirSplit toyCurve toyPrims root 3 2 [fromUint 7] = .ok (pub, keys) ∧ sub.map KeyShare.id = [3] ∧ sig.length = 64 ∧
    pub.verify toyCurve toyPrims [1, 2] sig = false := by
  obtain ⟨root, h1, h2, h3, p, h4⟩ := C30_fromSeed toyCurve toyPrims []
  obtain ⟨pub, keys, h5, _⟩ := (C40_shamir_rejects toyCurve toyPrims root 3 2 [fromUint 7] rfl).2 (clamped_not_dvd h3)
    (by intro c hc; rw [List.mem_singleton] at hc; subst hc; decide)
  have h7 : keys.map KeyShare.id = [1, 2, 3] := (C40_shamir_ids_partial toyCurve toyPrims root 3 2 [fromUint 7] rfl pub keys h5).1 (by decide)
  obtain ⟨a, b, c, rfl⟩ := List.length_eq_three.mp (by rw [← List.length_map (f := KeyShare.id), h7]; rfl : keys.length = 3)
  simp only [List.map_cons, List.map_nil, List.cons.injEq, and_true] at h7
  have hid : [c].map KeyShare.id = [3] := by simp [h7]
  obtain ⟨cs, hcs, _, hcl, _⟩ := (C39_computeLagrange ([c].map KeyShare.id) (by rw [hid]; decide)).2 (by rw [hid]; decide)
    (by rw [hid]; decide)
  obtain ⟨c1, rfl⟩ := List.length_eq_one_iff.mp (by simpa using hcl : cs.length = 1)
  obtain ⟨s1, m1, a1, _, _, _, _, _, n1⟩ := C38_commitmentShare toyCurve toyPrims [5] (statefulCoef [1, 2] pub c c1)
  have hsh : ∀ x, leNat (toyPrims.sha512 x) = 1 := fun x => by
    show leNat (1 :: List.replicate 63 0) = 1
    decide
  rw [hsh, Nat.mod_eq_of_lt (by decide +kernel)] at n1
  obtain ⟨R, hR, hall⟩ := C38_one_short toyCurve toyPrims root 3 2 (by decide) [fromUint 7] rfl (by
    intro c hc; rw [List.mem_singleton.mp hc]; decide +kernel) pub [a, b, c] h5 [c] (by simp) (by rw [hid]; decide) rfl [c1] hcs
    [1, 2] [[5]] rfl [(s1, m1)] (.cons a1 .nil) (by simp only [List.map_cons, List.map_nil, List.sum_cons, List.sum_nil, n1]; decide +kernel)
    [m1] (List.Perm.refl _)
  obtain ⟨sig, -, e2, -, e4⟩ := hall _ (List.Perm.refl _)
  exact ⟨root, pub, _, [c], sig, h5, hid, e2, (e4 (by rw [hsh]; decide +kernel)).1⟩

end Cardano.Tss

namespace Cardano.TssWallet

open Cardano Cardano.Ed Cardano.Tss Cardano.Ledger Cardano.TxBuilder Cardano.Address Cardano.Cip19 Cardano.Spec.TxBuilder Cardano.Spec.LedgerRules Cardano.Spec.Wallet
open Cardano.Bip32 (Prims Prv Pub)

/-- A transaction that needs the signature of one more key than the wallet holds: the wallet signs with the builder, the
signature for the other key comes from elsewhere and is added to the witness set. -/
theorem extra_witness (E : Env) (N : Crypto) (hN : SameCrypto E N) (pp : Params) (st : State) (k n : Nat)
    (force : Bool) (ops : List Op) (keys : List SKey) (pub : Pub) (b0 b1 : Builder)
    (h0 : run E k {} ops = some b0) (h1 : balance k b0 n force = some (b1, .ok ()))
    (hc : PreparedFor (fun x => x = N.keyHash pub.key ∨ Holds E N keys x) pp st ops) (hn : keys.length + 1 ≤ n)
    (id : Bytes) (hid : getID E b1 = .ok id) (hsign : ∀ key ∈ keys, CanSign E id key)
    (hmin : pp.minUtxo ≤ 1000000)
    (hmax : ∀ ws s, ws.length = n → (∀ w ∈ ws, WitnessSized w) → TxSize (withWitnesses b1.tx ws) s → s ≤ pp.maxTxSize)
    (hfit : minFee pp.minFeeA pp.minFeeB (pp.maxTxSize + 8) < 2 ^ 62)
    (hpl : pub.key.length = 32) (sig : Bytes) (hsl : sig.length = 64) (hv : pub.verify E.C E.P id sig = true) :
    ∃ b2, run E k {} (ops ++ .balance n force :: keys.map .sign) = some b2 ∧ b2.tx.body = b1.tx.body ∧
      (Accepts N pp st (withWitnesses b2.tx (b2.tx.wits.vkeys ++ [⟨pub.key, sig⟩])) ↔ CountedRight pp st ops b0.tx.body) := by
  obtain ⟨-, -, -, -, -, -, -, c6⟩ := careful_body E _ pp st k n force ops b0 b1 h0 h1 hc
  obtain ⟨ws, r1, r2, r3, -, r5⟩ := sign_all E k _ keys b1 hid hsign
  rw [c6] at r2 r3
  simp only [List.length_nil, Nat.zero_add] at r2
  have hws : ∀ w ∈ ws, WitnessSized w := by
    intro w hw
    rcases r3 w hw with h | ⟨key, hk, h2, h3⟩
    · cases h
    · obtain ⟨pub, sig, g1, g2, g3, g4⟩ := canSign_ok E _ key (hsign key hk)
      rw [h2] at g1; rw [h3] at g2
      unfold WitnessSized
      rw [Out.ok.inj g1, Out.ok.inj g2]; exact ⟨g3, g4⟩
  refine ⟨{ b1 with tx := withWitnesses b1.tx ws }, ?_, rfl, ?_⟩
  · rw [run_append, h0]
    simp only [run, step, h1]
    exact r1
  refine C91_any_witnesses_iff E N hN.hash _ pp st k n force ops b0 b1 h0 h1 hc hmin hmax hfit id hid
    (ws ++ [⟨pub.key, sig⟩]) (by simp only [List.length_append, List.length_singleton]; omega) ?_ ?_ ?_
  · intro w hw
    rcases List.mem_append.mp hw with hw | hw
    · exact hws w hw
    · rw [List.mem_singleton.mp hw]; exact ⟨hpl, hsl⟩
  · intro w hw
    rcases List.mem_append.mp hw with hw | hw
    · exact signed_verifies E N hN id keys hsign w ((r3 w hw).resolve_left (by simp))
    · rw [List.mem_singleton.mp hw, ← hN.extended]; exact hv
  · rintro h (rfl | ⟨key, hk, pub', hp, rfl⟩)
    · exact ⟨⟨pub.key, sig⟩, by simp, rfl⟩
    · obtain ⟨w, hw, e⟩ := r5 key hk
      rw [hp] at e
      exact ⟨w, List.mem_append_left _ hw, by rw [← Out.ok.inj e]⟩

/-- **C96** A root key is dealt by a Shamir dealer, and money is sent to an address of the group's public key.  A
transaction that spends it (prepared as in C91, balanced for all witnesses; it may also spend and withdraw with ordinary
keys, which sign with the builder) is signed by any group of at least `t` share holders with different ids, with the
protocol on the id of the transaction and the Lagrange coefficients of the group.  The aggregated signature, added to the
witness set under the group's public key, makes a transaction that the network accepts, in whatever order commitments and
signature shares are collected, exactly if the builder has counted the money rightly (`C91_counted_iff`). -/
theorem C96_threshold_wallet (E : Env) (N : Crypto) (hN : SameCrypto E N) (pp : Params) (st : State) (k n : Nat)
    (force : Bool) (ops : List Op) (wallet : List SKey) (b0 b1 : Builder)
    (d : Dealer) (hd : IsDealer d) (ha : d.alg = .shamir) (rand coef : Nat → Bytes) (root : Prv) (pub : Pub)
    (shares : List KeyShare) (hdeal : d.splitRootKey E.C E.P rand coef root = .ok (pub, shares))
    (h0 : run E k {} ops = some b0) (h1 : balance k b0 n force = some (b1, .ok ()))
    (hc : PreparedFor (fun x => x = N.keyHash pub.key ∨ Holds E N wallet x) pp st ops) (hn : wallet.length + 1 ≤ n)
    (id : Bytes) (hid : getID E b1 = .ok id) (hsign : ∀ key ∈ wallet, CanSign E id key)
    (hmin : pp.minUtxo ≤ 1000000)
    (hmax : ∀ ws s, ws.length = n → (∀ w ∈ ws, WitnessSized w) → TxSize (withWitnesses b1.tx ws) s → s ≤ pp.maxTxSize)
    (hfit : minFee pp.minFeeA pp.minFeeB (pp.maxTxSize + 8) < 2 ^ 62)
    (sub : List KeyShare) (hsub : ∀ s ∈ sub, s ∈ shares) (hnd : (sub.map KeyShare.id).Nodup) (hlen : d.t.toNat ≤ sub.length)
    (cs : List Bytes) (hcs : computeLagrange (sub.map KeyShare.id) = .ok cs)
    (seeds : List Bytes) (hseeds : seeds.length = sub.length) (outs : List (Stateful × Bytes))
    (hout : List.Forall₂ (fun (x : (KeyShare × Bytes) × Bytes) o =>
      (statefulCoef id pub x.1.1 x.1.2).commitmentShare E.C E.P x.2 = .ok o) ((sub.zip cs).zip seeds) outs)
    (hr : ¬ ellL ∣ (outs.map (fun o => leNat o.1.nonce)).sum)
    (comms : List Bytes) (hcp : comms.Perm (outs.map Prod.snd)) :
    root.publicKey E.C = .ok pub ∧
    ∃ R, aggregateCommitments E.C comms = .ok R ∧
      ∀ sigs : List Bytes, sigs.Perm (outs.map (fun o => o.1.signatureShare E.P R)) →
        ∃ sig b2, aggregateSignatures sigs = .ok sig ∧
          run E k {} (ops ++ .balance n force :: wallet.map .sign) = some b2 ∧ b2.tx.body = b1.tx.body ∧
          (Accepts N pp st (withWitnesses b2.tx (b2.tx.wits.vkeys ++ [⟨pub.key, sig⟩])) ↔ CountedRight pp st ops b0.tx.body) := by
  obtain ⟨dn, dt, alg⟩ := d
  simp only at ha hlen
  subst ha
  have ht := ((isDealer_iff _).mp hd).1
  simp only [Dealer.splitRootKey] at hdeal
  have hl : ((List.range (dt.toNat - 1)).map coef).length = dt.toNat - 1 := by simp
  obtain ⟨hpub, R, g1, g2⟩ := C38_shamir E.C E.P root dn dt ht _ hl pub shares hdeal sub hsub hnd hlen cs hcs id seeds hseeds
    outs hout hr comms hcp
  refine ⟨hpub, R, g1, fun sigs hs => ?_⟩
  obtain ⟨sig, k1, k2, -, k4, -⟩ := g2 sigs hs
  have hpl : pub.key.length = 32 := by
    obtain ⟨-, rfl⟩ := Bip32.publicKey_ok hpub
    exact E.C.enc_length _
  obtain ⟨b2, e1, e2, e3⟩ := extra_witness E N hN pp st k n force ops wallet pub b0 b1 h0 h1 hc hn id hid hsign hmin hmax hfit
    hpl sig k2 k4
  exact ⟨sig, b2, k1, e1, e2, e3⟩

/-- **C96** The same for direct sharing, when all of at least two share holders sign (with a single holder the signature is for
another key, `C38_direct_single_fails`). -/
theorem C96_direct_wallet (E : Env) (N : Crypto) (hN : SameCrypto E N) (pp : Params) (st : State) (k n : Nat)
    (force : Bool) (ops : List Op) (wallet : List SKey) (b0 b1 : Builder)
    (d : Dealer) (hd : IsDealer d) (ha : d.alg = .direct) (h2 : 2 ≤ d.n.toNat) (rand coef : Nat → Bytes) (root : Prv) (pub p : Pub)
    (shares : List KeyShare) (hdeal : d.splitRootKey E.C E.P rand coef root = .ok (pub, shares))
    (hp : root.publicKey E.C = .ok p)
    (h0 : run E k {} ops = some b0) (h1 : balance k b0 n force = some (b1, .ok ()))
    (hc : PreparedFor (fun x => x = N.keyHash pub.key ∨ Holds E N wallet x) pp st ops) (hn : wallet.length + 1 ≤ n)
    (id : Bytes) (hid : getID E b1 = .ok id) (hsign : ∀ key ∈ wallet, CanSign E id key)
    (hmin : pp.minUtxo ≤ 1000000)
    (hmax : ∀ ws s, ws.length = n → (∀ w ∈ ws, WitnessSized w) → TxSize (withWitnesses b1.tx ws) s → s ≤ pp.maxTxSize)
    (hfit : minFee pp.minFeeA pp.minFeeB (pp.maxTxSize + 8) < 2 ^ 62)
    (seeds : List Bytes) (hseeds : seeds.length = shares.length) (outs : List (Stateful × Bytes))
    (hout : List.Forall₂ (fun (x : KeyShare × Bytes) o =>
      (stateful id pub x.1).commitmentShare E.C E.P x.2 = .ok o) (shares.zip seeds) outs)
    (hr : ¬ ellL ∣ (outs.map (fun o => leNat o.1.nonce)).sum)
    (comms : List Bytes) (hcp : comms.Perm (outs.map Prod.snd)) :
    pub.key = p.key ∧
    ∃ R, aggregateCommitments E.C comms = .ok R ∧
      ∀ sigs : List Bytes, sigs.Perm (outs.map (fun o => o.1.signatureShare E.P R)) →
        ∃ sig b2, aggregateSignatures sigs = .ok sig ∧
          run E k {} (ops ++ .balance n force :: wallet.map .sign) = some b2 ∧ b2.tx.body = b1.tx.body ∧
          (Accepts N pp st (withWitnesses b2.tx (b2.tx.wits.vkeys ++ [⟨pub.key, sig⟩])) ↔ CountedRight pp st ops b0.tx.body) := by
  obtain ⟨dn, dt, alg⟩ := d
  simp only at ha h2
  subst ha
  simp only [Dealer.splitRootKey] at hdeal
  have hkey := C37_direct_public_key_partial E.C E.P rand root dn h2 pub p shares hdeal hp
  obtain ⟨R, g1, g2⟩ := C38_direct_partial E.C E.P rand root dn h2 pub p shares hdeal hp id seeds hseeds outs hout hr comms hcp
  obtain ⟨-, rfl⟩ := Bip32.publicKey_ok hp
  refine ⟨hkey, R, g1, fun sigs hs => ?_⟩
  obtain ⟨sig, k1, k2, -, -, k4, -⟩ := g2 sigs hs
  have hpl : pub.key.length = 32 := by rw [hkey]; exact E.C.enc_length _
  obtain ⟨b2, e1, e2, e3⟩ := extra_witness E N hN pp st k n force ops wallet pub b0 b1 h0 h1 hc hn id hid hsign hmin hmax hfit
    hpl sig k2 k4
  exact ⟨sig, b2, k1, e1, e2, e3⟩

/-! ## The hypotheses are met: two of three share holders sign, and two share holders, one short of three -/

theorem withWitnesses_fee (t : Tx) (ws : List VkeyWitness) : (withWitnesses t ws).body.fee = t.body.fee := rfl

def toyBalanced : Builder := ((balance 12 toyBuilder 1 true).getD ({}, .ub)).1

theorem toyBalance : balance 12 toyBuilder 1 true = some (toyBalanced, .ok ()) := by
  have h : (balance 12 toyBuilder 1 true).map (fun r => r.2) = some (.ok ()) := by decide +kernel
  unfold toyBalanced
  cases hb : balance 12 toyBuilder 1 true with
  | none => rw [hb] at h; cases h
  | some r =>
    rw [hb] at h
    simp only [Option.map_some, Option.some.injEq] at h
    simp [← h]

/-- The group alone owns the money, the stake key and the reward account of `toyOps`: it has no other keys. -/
example : ∃ (root : Prv) (pub : Pub) (shares sub : List KeyShare) (sig : Bytes),
    (Dealer.mk 3 2 .shamir).splitRootKey toyCurve Bip32.toyPrims (fun _ => []) (fun _ => fromUint 7) root = .ok (pub, shares) ∧
    sub.length = 2 ∧ Accepts toyNetwork toyParams toyState (withWitnesses toyBalanced.tx [⟨pub.key, sig⟩]) := by
  obtain ⟨root, h1, h2, h3, p, h4⟩ := Bip32.C30_fromSeed toyCurve Bip32.toyPrims []
  obtain ⟨pub, keys, h5, _⟩ := (C40_shamir_rejects toyCurve Bip32.toyPrims root 3 2 [fromUint 7] rfl).2 (Bip32.clamped_not_dvd h3)
    (by intro c hc; rw [List.mem_singleton] at hc; subst hc; decide)
  have h6 := (C40_shamir_ids_partial toyCurve Bip32.toyPrims root 3 2 [fromUint 7] rfl pub keys h5).1 (by decide)
  have h7 : keys.map KeyShare.id = [1, 2, 3] := h6
  obtain ⟨a, b, c, rfl⟩ := List.length_eq_three.mp (by rw [← List.length_map (f := KeyShare.id), h7]; rfl : keys.length = 3)
  simp only [List.map_cons, List.map_nil, List.cons.injEq, and_true] at h7
  have hid : [c, a].map KeyShare.id = [3, 1] := by simp [h7]
  obtain ⟨cs, hcs, _, hcl, _⟩ := (C39_computeLagrange ([c, a].map KeyShare.id) (by rw [hid]; decide)).2 (by rw [hid]; decide)
    (by rw [hid]; decide)
  obtain ⟨c1, c2, rfl⟩ := List.length_eq_two.mp (by simpa using hcl : cs.length = 2)
  obtain ⟨bytes, -, hgid⟩ := balanced_getID toyWalletEnv 12 1 true toyBuilder toyBalanced toyBalance
  obtain ⟨s1, m1, a1, _, _, _, _, _, n1⟩ := C38_commitmentShare toyCurve Bip32.toyPrims [5] (statefulCoef (toyWalletEnv.S.hash bytes) pub c c1)
  obtain ⟨s2, m2, a2, _, _, _, _, _, n2⟩ := C38_commitmentShare toyCurve Bip32.toyPrims [6] (statefulCoef (toyWalletEnv.S.hash bytes) pub a c2)
  have hsh : ∀ x, leNat (Bip32.toyPrims.sha512 x) = 1 := fun x => by
    show leNat (1 :: List.replicate 63 0) = 1
    decide
  rw [hsh, Nat.mod_eq_of_lt (by decide +kernel)] at n1 n2
  obtain ⟨_, R, hR, hall⟩ := C96_threshold_wallet toyWalletEnv toyNetwork (sameCrypto_sodium _ _ _ _ _) toyParams toyState 12 1
    true toyOps [] toyBuilder toyBalanced ⟨3, 2, .shamir⟩ ((isDealer_iff _).mpr (by decide)) rfl (fun _ => []) (fun _ => fromUint 7) root pub
    [a, b, c] h5 rfl toyBalance (preparedFor_mono (fun x hx => by
      obtain ⟨key, -, pub', -, rfl⟩ := hx
      exact Or.inl rfl) toyCareful.toPreparedFor) (by decide) _ hgid (by simp) (by decide) (by
      intro ws s hl hws hs
      rw [txSize_iff', size_wits toyBalanced.tx ws hws, hl, withWitnesses_fee] at hs
      have : sizeWithFee (dummyTx toyBalanced.tx 1) toyBalanced.tx.body.fee = .ok 369 := by decide +kernel
      rw [this] at hs
      rw [← Out.ok.inj hs]; decide) (by decide) [c, a]
    (by intro k hk; simp only [List.mem_cons, List.not_mem_nil, or_false] at hk ⊢; rcases hk with rfl | rfl <;> simp)
    (by rw [hid]; decide) (Nat.le_refl 2) [c1, c2] hcs [[5], [6]] rfl [(s1, m1), (s2, m2)] (.cons a1 (.cons a2 .nil))
    (by simp only [List.map_cons, List.map_nil, List.sum_cons, List.sum_nil, n1, n2]; decide +kernel)
    ([(s1, m1), (s2, m2)].map Prod.snd).reverse (List.reverse_perm _)
  obtain ⟨sig, b2, e1, e2, e3, e4⟩ := hall _ (List.reverse_perm _)
  have hb2 : b2 = toyBalanced := by
    rw [run_append] at e2
    simp only [List.map_nil, show run toyWalletEnv 12 {} toyOps = some toyBuilder from rfl, run, step, toyBalance] at e2
    exact (Option.some.inj e2).symm
  have hnil : toyBalanced.tx.wits.vkeys = [] := by decide +kernel
  rw [hb2, hnil] at e4
  exact ⟨root, pub, [a, b, c], [c, a], sig, h5, rfl,
    e4.mpr (careful_counted toyWalletEnv _ toyParams toyState 12 toyOps toyBuilder rfl toyCareful)⟩

end Cardano.TssWallet
