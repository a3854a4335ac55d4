import Verif.Spec.Errors
import Verif.Model.Address
import Verif.Model.Byron
import Verif.Model.ByronKey
import Verif.Model.Ed25519
import Verif.Model.Mnemonic
import Verif.Model.Bip32
import Verif.Model.Tss
import Verif.Model.Genesis
import Verif.Model.UtxoJson
import Verif.Props.Address
import Verif.Lemmas.Bip32
import Verif.Props.LedgerErrors

/-! # C87: the exceptions of everything that is not the ledger -/

namespace Cardano

open Cardano.Spec.Errors

/-- Every exception of the call is one of these. -/
structure Kinds {α} (S : List Exc) (x : Out α) : Prop where
  kind : ∀ e, x = .throw e → e ∈ S

section
variable {α β : Type} {S : List Exc}

theorem kinds_ok (a : α) : Kinds S (.ok a) := ⟨by intro e h; cases h⟩
theorem kinds_pure (a : α) : Kinds S (pure a : Out α) := kinds_ok a
theorem kinds_ub : Kinds S (.ub : Out α) := ⟨by intro e h; cases h⟩
theorem kinds_throw {e : Exc} (h : e ∈ S) : Kinds S (.throw e : Out α) := ⟨by intro e' h'; cases h'; exact h⟩
theorem kinds_bind {x : Out α} {f : α → Out β} (hx : Kinds S x) (hf : ∀ a, Kinds S (f a)) : Kinds S (x >>= f) := by
  refine ⟨fun e h => ?_⟩
  cases x with
  | ok a => exact (hf a).kind e h
  | throw e' => exact hx.kind e (by simpa using h)
  | ub => cases h
theorem kinds_bind' {x : Out α} {f : α → Out β} (hx : Kinds S x) (hf : ∀ a, Kinds S (f a)) : Kinds S (x.bind f) :=
  kinds_bind hx hf
theorem kinds_mono {x : Out α} {T : List Exc} (h : Kinds S x) (hs : ∀ e ∈ S, e ∈ T) : Kinds T x :=
  ⟨fun e he => hs e (h.kind e he)⟩
theorem kinds_deref (o : Option α) : Kinds S (Cbor.deref o) := by cases o <;> simp [Cbor.deref, kinds_ok, kinds_ub]
end

/-- One call after the other. -/
syntax "kinds" ("[" term,* "]")? : tactic
macro_rules
  | `(tactic| kinds) => `(tactic| kinds [trivial])
  | `(tactic| kinds [$ts,*]) => `(tactic|
      repeat' first
        | exact kinds_ok _ | exact kinds_pure _ | exact kinds_ub | exact kinds_throw (by simp) | exact kinds_deref _
        $[| exact $ts:term]*
        | (refine kinds_bind ?_ ?_) | (refine kinds_bind' ?_ ?_) | split | intro _ | dsimp only)

/-! ## Text encodings and addresses -/

theorem kinds_hexPairs : ∀ s : Bytes, Kinds [.invalidArgument] (Hex.pairs s)
  | [] => kinds_ok _
  | [_] => kinds_ub
  | a :: b :: r => by
    have ih := kinds_hexPairs r
    unfold Hex.pairs
    kinds [ih]

theorem kinds_hex (s : Bytes) : Kinds [.invalidArgument] (Hex.decode s) := by
  unfold Hex.decode
  kinds [kinds_hexPairs _]

theorem kinds_b58Loop : ∀ (s : Bytes) (r : List Nat), Kinds [.invalidArgument] (Base58.decLoop r s)
  | [], r => kinds_ok _
  | c :: cs, r => by
    have ih := fun r => kinds_b58Loop cs r
    unfold Base58.decLoop
    kinds [ih _]

theorem kinds_base58 (s : Bytes) : Kinds [.invalidArgument] (Base58.decode s) := by
  unfold Base58.decode
  kinds [kinds_b58Loop _ _]

theorem kinds_convLoop (f t : Nat) : ∀ (l : List Nat) (a b : Nat), Kinds [.invalidArgument] (Bech32.convLoop f t a b l)
  | [], a, b => kinds_ok _
  | v :: l, a, b => by
    have ih := fun a b => kinds_convLoop f t l a b
    unfold Bech32.convLoop
    kinds [ih _ _]

theorem kinds_convertbits (l : List Nat) (f t : Nat) (p : Bool) : Kinds [.invalidArgument] (Bech32.convertbits l f t p) := by
  unfold Bech32.convertbits
  kinds [kinds_convLoop _ _ _ _ _]

theorem kinds_chars : ∀ l : List Nat, Kinds [.invalidArgument] (Bech32.chars l)
  | [] => kinds_ok _
  | c :: l => by
    have ih := kinds_chars l
    unfold Bech32.chars Bech32.charsetAt
    kinds [ih]

theorem kinds_values : ∀ l : Bytes, Kinds [.invalidArgument] (Bech32.values l)
  | [] => kinds_ok _
  | c :: l => by
    have ih := kinds_values l
    unfold Bech32.values
    kinds [ih]

theorem kinds_bech32_encode (hrp d : Bytes) : Kinds [.invalidArgument] (Bech32.encode hrp d) := by
  unfold Bech32.encode
  kinds [kinds_convertbits _ _ _ _, kinds_chars _]

theorem kinds_bech32 (s : Bytes) : Kinds [.invalidArgument] (Bech32.decode s) := by
  unfold Bech32.decode
  kinds [kinds_convertbits _ _ _ _, kinds_values _]

theorem kinds_encExt (cap : Nat) {S : List Exc} : ∀ (f c : Nat) (d : List Nat), Kinds S (Base58.encExt cap f c d)
  | 0, _, _ => by unfold Base58.encExt; kinds
  | f + 1, c, d => by
    have ih := fun c d => kinds_encExt cap (S := S) f c d
    unfold Base58.encExt
    kinds [ih _ _]

theorem kinds_encLoop (cap : Nat) {S : List Exc} : ∀ (b : Bytes) (d : List Nat), Kinds S (Base58.encLoop cap d b)
  | [], _ => kinds_ok _
  | x :: b, d => by
    have ih := fun d => kinds_encLoop cap (S := S) b d
    unfold Base58.encLoop
    kinds [ih _, kinds_encExt _ _ _ _]

theorem kinds_b58chars {S : List Exc} : ∀ l : List Nat, Kinds S (Base58.chars l)
  | [] => kinds_ok _
  | c :: l => by
    have ih := kinds_b58chars (S := S) l
    unfold Base58.chars Base58.charAt
    kinds [ih]

/-- **C87**: the encodings report every bad input as `invalid_argument`. -/
theorem C87_encodings (s hrp : Bytes) :
    OnlyThrows .invalidArgument (Hex.decode s) ∧ OnlyThrows .invalidArgument (Base58.decode s) ∧
    OnlyThrows .invalidArgument (Base58.encodeHex s) ∧ OnlyThrows .invalidArgument (Base58.decodeHex s) ∧
    OnlyThrows .invalidArgument (Bech32.encode hrp s) ∧ OnlyThrows .invalidArgument (Bech32.decode s) ∧
    OnlyThrows .invalidArgument (Bech32.encodeHex hrp s) ∧ OnlyThrows .invalidArgument (Bech32.decodeHex s) := by
  have one : ∀ {α : Type} {x : Out α}, Kinds [.invalidArgument] x → OnlyThrows .invalidArgument x := by
    intro α x h e he; simpa using h.kind e he
  refine ⟨one (kinds_hex s), one (kinds_base58 s), one ?_, one ?_, one (kinds_bech32_encode _ _), one (kinds_bech32 s), one ?_, one ?_⟩
  · unfold Base58.encodeHex Base58.encode
    kinds [kinds_hex _, kinds_encLoop _ _ _, kinds_b58chars _]
  · unfold Base58.decodeHex
    kinds [kinds_base58 _]
  · unfold Bech32.encodeHex
    kinds [kinds_hex _, kinds_bech32_encode _ _]
  · unfold Bech32.decodeHex
    kinds [kinds_bech32 _]

/-- **C87**: a Shelley address that is no Bech32 text or has the wrong length is an `invalid_argument`; one of
another kind is a `runtime_error`. -/
theorem C87_addresses (s : Bytes) :
    (∀ e, Address.Base.fromBech32 s = .throw e → e = .invalidArgument ∨ e = .runtimeError) ∧
    (Address.Base.fromBech32 s = .throw .runtimeError ↔
      ∃ hrp h d, Bech32.decode s = .ok (hrp, h :: d) ∧ d.length = 56 ∧ h.toNat / 16 ≠ 0) ∧
    (∀ e, Address.enterpriseFromBech32 s = .throw e → e = .invalidArgument ∨ e = .runtimeError) ∧
    (Address.enterpriseFromBech32 s = .throw .runtimeError ↔
      ∃ hrp h d, Bech32.decode s = .ok (hrp, h :: d) ∧ d.length = 28 ∧ h.toNat / 16 ≠ 6) ∧
    (∀ e, Address.rewardsFromBech32 s = .throw e → e = .invalidArgument ∨ e = .runtimeError) ∧
    (Address.rewardsFromBech32 s = .throw .runtimeError ↔
      ∃ hrp h d, Bech32.decode s = .ok (hrp, h :: d) ∧ d.length = 28 ∧ h.toNat / 16 ≠ 14) := by
  have hb := kinds_bech32 s
  have ty0 : ∀ h : UInt8, Address.getAddressType h = Address.typeBase ↔ h.toNat / 16 = 0 := fun h => (Address.type_nibble h).1
  have ty6 : ∀ h : UInt8, Address.getAddressType h = Address.typeEnterprise ↔ h.toNat / 16 = 6 := fun h => (Address.type_nibble h).2.1
  have ty14 : ∀ h : UInt8, Address.getAddressType h = Address.typeRewards ↔ h.toNat / 16 = 14 := fun h => (Address.type_nibble h).2.2
  have single : ∀ (ty : UInt8) (n : Nat), (∀ h : UInt8, Address.getAddressType h = ty ↔ h.toNat / 16 = n) →
      (∀ e, Address.Single.fromBech32 ty s = .throw e → e = .invalidArgument ∨ e = .runtimeError) ∧
      (Address.Single.fromBech32 ty s = .throw .runtimeError ↔
        ∃ hrp h d, Bech32.decode s = .ok (hrp, h :: d) ∧ d.length = 28 ∧ h.toNat / 16 ≠ n) := by
    intro ty n hty
    unfold Address.Single.fromBech32
    rcases hd : Bech32.decode s with ⟨hrp, d⟩ | e | _
    · rcases d with _ | ⟨h, d⟩
      · simp [Address.keyHashLength]
      · by_cases hl : d.length = 28
        · by_cases ht : Address.getAddressType h = ty
          · have := (hty h).mp ht
            simp [Address.keyHashLength, hl, ht, this]
          · have := mt (hty h).mpr ht
            simp [Address.keyHashLength, hl, ht, this]
        · simp [Address.keyHashLength, hl]
    · have := hb.kind e hd
      simp at this
      subst this
      simp
    · simp
  refine ⟨?_, ?_, (single _ 6 ty6).1, (single _ 6 ty6).2, (single _ 14 ty14).1, (single _ 14 ty14).2⟩
  all_goals
    unfold Address.Base.fromBech32
    rcases hd : Bech32.decode s with ⟨hrp, d⟩ | e | _
    · rcases d with _ | ⟨h, d⟩
      · simp [Address.keyHashLength]
      · by_cases hl : d.length = 56
        · by_cases ht : Address.getAddressType h = Address.typeBase
          · have := (ty0 h).mp ht
            have : h.toNat < 16 := by omega
            simp [Address.keyHashLength, hl, ht, this]
          · have := mt (ty0 h).mpr ht
            have : 16 ≤ h.toNat := by omega
            simp [Address.keyHashLength, hl, ht, this]
        · simp [Address.keyHashLength, hl]
    · have := hb.kind e hd
      simp at this
      subst this
      simp
    · simp

/-- **C87**: Byron addresses. -/
theorem C87_byron (b : Bytes) :
    OnlyThrows .invalidArgument (Byron.fromCBOR b) ∧ OnlyThrows .invalidArgument (Byron.fromBase58 b) := by
  have h1 : ∀ b, OnlyThrows .invalidArgument (Byron.fromCBOR b) := by
    intro b e h
    unfold Byron.fromCBOR at h
    split at h
    · cases h; rfl
    · rename_i r hr
      exact absurd h (by intro h'; exact hr e h')
  refine ⟨h1 b, ?_⟩
  intro e h
  unfold Byron.fromBase58 at h
  rcases hb : Base58.decode b with d | e' | _
  · rw [hb] at h; exact h1 d e h
  · rw [hb] at h
    have := (kinds_base58 b).kind e' hb
    simp at this h
    rw [← h, this]
  · rw [hb] at h; cases h

/-! ## Mnemonics and keys -/

theorem kinds_findIndexes (d : List Bytes) : ∀ l : List Bytes, Kinds [.invalidArgument] (Mnemonic.findIndexes d l)
  | [] => kinds_ok _
  | w :: l => by
    have ih := kinds_findIndexes d l
    unfold Mnemonic.findIndexes
    kinds [ih]

theorem kinds_toEntLoop (n : Nat) {S : List Exc} : ∀ (l : List Nat) (o : Bytes) (c k : Nat), Kinds S (Mnemonic.toEntLoop n l o c k)
  | [], _, _, _ => kinds_ok _
  | w :: l, o, c, k => by
    have ih := fun o c k => kinds_toEntLoop n (S := S) l o c k
    unfold Mnemonic.toEntLoop Mnemonic.toEntStep
    kinds [ih _ _ _]

theorem kinds_toEntropy (m : Mnemonic.Mn) : Kinds [.invalidArgument] (Mnemonic.toEntropy m) := by
  unfold Mnemonic.toEntropy
  kinds [kinds_toEntLoop _ _ _ _ _]

theorem kinds_genInner (ent : Bytes) {S : List Exc} : ∀ (f n w i : Nat), 11 - n ≤ f → Kinds S (Mnemonic.genInner ent n w i) := by
  intro f
  induction f with
  | zero =>
    intro n w i h
    unfold Mnemonic.genInner
    rw [if_neg (by omega)]
    exact kinds_ok _
  | succ f ih =>
    intro n w i h
    unfold Mnemonic.genInner
    by_cases hn : n < 11
    · rw [if_pos hn]
      rcases ent[i]? with _ | b
      · exact kinds_ub
      · exact ih _ _ _ (by omega)
    · rw [if_neg hn]
      exact kinds_ok _

theorem kinds_genLoop (ent : Bytes) {S : List Exc} : ∀ (n i c k : Nat), Kinds S (Mnemonic.genLoop ent n i c k)
  | 0, _, _, _ => kinds_ok _
  | n + 1, i, c, k => by
    have ih := fun i c k => kinds_genLoop ent (S := S) n i c k
    unfold Mnemonic.genLoop
    kinds [ih _ _ _, kinds_genInner _ _ _ _ _ (Nat.le_refl _)]

theorem kinds_pickWords (d : List Bytes) {S : List Exc} : ∀ l : List Nat, Kinds S (Mnemonic.pickWords d l)
  | [] => kinds_ok _
  | i :: l => by
    have ih := kinds_pickWords d (S := S) l
    unfold Mnemonic.pickWords
    kinds [ih]

/-- **C87**: mnemonics. -/
theorem C87_mnemonic (sha : Bytes → Bytes) (l : Mnemonic.Lang) (ws : List Bytes) (ix : List Nat) (s : Bytes) (n : Nat)
    (m : Mnemonic.Mn) :
    OnlyThrows .invalidArgument (Mnemonic.ofWordsIndexes ws ix) ∧ OnlyThrows .invalidArgument (Mnemonic.ofWords l ws) ∧
    OnlyThrows .invalidArgument (Mnemonic.ofString l s) ∧ OnlyThrows .invalidArgument (Mnemonic.generate sha l n s) ∧
    OnlyThrows .invalidArgument (Mnemonic.toSeed m) ∧ OnlyThrows .invalidArgument (Mnemonic.checksum m) ∧
    OnlyThrows .invalidArgument (Mnemonic.verifyChecksum sha m) := by
  have one : ∀ {α : Type} {x : Out α}, Kinds [.invalidArgument] x → OnlyThrows .invalidArgument x := by
    intro α x h e he; simpa using h.kind e he
  have wi : ∀ ws ix, Kinds [.invalidArgument] (Mnemonic.ofWordsIndexes ws ix) := by
    intro ws ix
    unfold Mnemonic.ofWordsIndexes
    kinds
  have ow : ∀ ws, Kinds [.invalidArgument] (Mnemonic.ofWords l ws) := by
    intro ws
    unfold Mnemonic.ofWords
    kinds [kinds_findIndexes _ _]
  refine ⟨one (wi _ _), one (ow _), one (ow _), one ?_, one ?_, one ?_, one ?_⟩
  · unfold Mnemonic.generate
    kinds [kinds_genLoop _ _ _ _ _, kinds_pickWords _ _, wi _ _]
  · unfold Mnemonic.toSeed
    kinds [kinds_toEntropy _]
  · unfold Mnemonic.checksum
    kinds [kinds_toEntropy _]
  · unfold Mnemonic.verifyChecksum
    kinds [kinds_toEntropy _]

section
open Ed
variable {S : List Exc}

theorem kinds_modAt (i : Nat) (f : UInt8 → UInt8) (d : Bytes) : Kinds S (Bip32.modAt i f d) := by
  unfold Bip32.modAt
  kinds

theorem kinds_publickey (C : Curve) (s : Bytes) : Kinds [.runtimeError] (Bip32.publickey C s) := by
  unfold Bip32.publickey
  kinds

theorem kinds_pub (C : Curve) (k : Bip32.Prv) : Kinds [.runtimeError] (k.publicKey C) := by
  unfold Bip32.Prv.publicKey
  kinds [kinds_publickey _ _]

theorem kinds_hashRepeatedly (P : Bip32.Prims) (key : Bytes) : ∀ f c : Nat, Kinds [.runtimeError] (Bip32.hashRepeatedly P key f c)
  | 0, _ => kinds_throw (by simp)
  | f + 1, c => by
    have ih := fun c => kinds_hashRepeatedly P key f c
    unfold Bip32.hashRepeatedly Bip32.hashAttempt Bip32.tweakByron
    kinds [ih _, kinds_modAt _ _ _]

/-- **C87**: key derivation: `invalid_argument` for a hardened index of a public key and a mnemonic of the wrong
size, `runtime_error` for curve failures. -/
theorem C87_keys (C : Curve) (P : Bip32.Prims) (k : Bip32.Prv) (p : Bip32.Pub) (i : UInt32) (mode : Bip32.Mode)
    (msg seed pass : Bytes) (m : Mnemonic.Mn) :
    OnlyThrows .runtimeError (k.publicKey C) ∧ OnlyThrows .runtimeError (k.sign C P msg) ∧
    OnlyThrows .runtimeError (k.deriveChild C P i mode) ∧
    (p.deriveChild C P i mode = .throw .invalidArgument ↔ 2 ^ 31 ≤ i.toNat) ∧
    (∀ e, p.deriveChild C P i mode = .throw e → e = .invalidArgument ∨ e = .runtimeError) ∧
    (∀ e, Bip32.generate P seed ≠ .throw e) ∧ (∀ e, Bip32.fromSeed P seed ≠ .throw e) ∧
    OnlyThrows .invalidArgument (Bip32.fromMnemonic P m pass) ∧
    (∀ e, Bip32.fromMnemonicByron P m = .throw e → e = .invalidArgument ∨ e = .runtimeError) := by
  have one : ∀ {e : Exc} {α : Type} {x : Out α}, Kinds [e] x → OnlyThrows e x := by
    intro e α x h e' he; simpa using h.kind e' he
  have two : ∀ {α : Type} {x : Out α}, Kinds [.invalidArgument, .runtimeError] x →
      ∀ e, x = .throw e → e = .invalidArgument ∨ e = .runtimeError := by
    intro α x h e he; simpa using h.kind e he
  have none : ∀ {α : Type} {x : Out α}, Kinds [] x → ∀ e, x ≠ .throw e := by
    intro α x h e he; simpa using h.kind e he
  have pa : ∀ p q, Kinds [.runtimeError] (Bip32.pointAddOrThrow C p q) := by
    intro p q
    unfold Bip32.pointAddOrThrow
    kinds
  have hard := Bip32.isHardened_iff i
  refine ⟨one (kinds_pub C k), one ?_, one ?_, ?_, two ?_, none ?_, none ?_, one ?_, two ?_⟩
  · unfold Bip32.Prv.sign Bip32.signExt
    kinds [kinds_pub _ _]
  · unfold Bip32.Prv.deriveChild
    kinds [kinds_pub _ _]
  · unfold Bip32.Pub.deriveChild
    by_cases h : Bip32.isHardened i = true
    · have := hard.mp h
      simp only [h, if_true, this]
    · have hn := mt hard.mpr h
      simp only [h, Bool.false_eq_true, if_false, hn, iff_false]
      intro he
      have : Kinds [.runtimeError] (do
          let pubNew ← Bip32.publickey C (Bip32.zl8 mode (P.hmac p.cc (Bip32.macInput 0x02 p.key i mode)))
          let pubNew ← Bip32.pointAddOrThrow C pubNew p.key
          return (⟨pubNew, (P.hmac p.cc (Bip32.macInput 0x03 p.key i mode)).drop 32⟩ : Bip32.Pub)) := by
        kinds [kinds_publickey _ _, pa _ _]
      have := this.kind _ he
      simp at this
  · unfold Bip32.Pub.deriveChild
    kinds [kinds_mono (kinds_publickey _ _) (by simp), kinds_mono (pa _ _) (by simp)]
  · unfold Bip32.generate Bip32.tweakIcarus
    kinds [kinds_modAt _ _ _]
  · unfold Bip32.fromSeed Bip32.extend
    kinds [kinds_modAt _ _ _]
  · unfold Bip32.fromMnemonic Bip32.tweakIcarus Mnemonic.toSeed
    kinds [kinds_modAt _ _ _, kinds_toEntropy _]
  · unfold Bip32.fromMnemonicByron Mnemonic.toSeed
    kinds [kinds_mono (kinds_toEntropy _) (by simp), kinds_mono (kinds_hashRepeatedly _ _ _ _) (by simp)]

/-- **C87**: VRF. -/
theorem C87_vrf {C : Curve} (G : Elligator C) (sha : Bytes → Bytes) (prv msg proof : Bytes) :
    OnlyThrows .runtimeError (Vrf.constructProof G sha prv msg) ∧ OnlyThrows .runtimeError (Vrf.proofToHash C sha proof) ∧
    OnlyThrows .runtimeError (Vrf.hash G sha prv msg) ∧ ∀ e, Vrf.verifyProof G sha prv msg proof ≠ .throw e := by
  have one : ∀ {α : Type} {x : Out α}, Kinds [.runtimeError] x → OnlyThrows .runtimeError x := by
    intro α x h e he; simpa using h.kind e he
  have c : ∀ m, Kinds [.runtimeError] (Vrf.constructProof G sha prv m) := by
    intro m; unfold Vrf.constructProof; kinds
  have p : ∀ m, Kinds [.runtimeError] (Vrf.proofToHash C sha m) := by
    intro m; unfold Vrf.proofToHash; kinds
  refine ⟨one (c _), one (p _), one ?_, ?_⟩
  · unfold Vrf.hash
    kinds [c _, p _]
  · intro e
    unfold Vrf.verifyProof Vrf.pubVerifyProof
    split <;> simp
end

/-! ## Transactions -/

section
open Ledger Cbor

theorem kinds_reports {α : Type} {x : Out α} {rt inv ub : Prop} (h : Reports x rt inv ub) :
    Kinds [.runtimeError, .invalidArgument] x := ⟨fun e he => by simpa using h.noOther e he⟩

theorem kinds_mapOut {α β : Type} {f : α → Out β} {S : List Exc} (h : ∀ a, Kinds S (f a)) : ∀ l : List α, Kinds S (mapOut f l)
  | [] => kinds_ok _
  | a :: l => by
    have ih := kinds_mapOut h l
    unfold mapOut
    kinds [ih, h _]

theorem kinds_certificate (old : Certificate) (l : List Item) : Kinds [.runtimeError, .invalidArgument] (Certificate.deser old l) := by
  obtain ⟨h1, h2⟩ := C87_certificate old l
  rcases l with _ | ⟨t, _ | ⟨a, r⟩⟩
  · rw [h1 (by simp)]; kinds
  · rw [h1 (by simp)]; kinds
  · obtain ⟨hn, h0, h2, h3, h4, h5, h6, h7⟩ := h2 t a r rfl
    rcases ht : asUint t with _ | _ | _ | _ | _ | _ | _ | _ | k
    · rw [hn (by simp [Num, ht])]; kinds
    · exact kinds_reports (h0 (Or.inl ht))
    · exact kinds_reports (h0 (Or.inr ht))
    · exact kinds_reports (h2 ht)
    · exact kinds_reports (h3 ht)
    · exact kinds_reports (h4 ht)
    · rw [h5 ht]; kinds
    · exact kinds_reports (h6 ht)
    · rw [h7 _ ht (by omega)]; kinds

theorem kinds_withdrawals {S : List Exc} : ∀ (l : List Item) (acc : List (Bytes × Nat)), Kinds S (withdrawalLoop l acc)
  | [], _ => by unfold withdrawalLoop; kinds
  | [_], _ => by unfold withdrawalLoop; kinds
  | k :: v :: r, acc => by
    have ih := fun acc => kinds_withdrawals (S := S) r acc
    unfold withdrawalLoop
    kinds [ih _]

theorem kinds_body (m : List Item) : Kinds [.runtimeError, .invalidArgument] (TxBody.deser m) := by
  have hi : ∀ i, Kinds [.runtimeError, .invalidArgument] (inputOf i) := by
    intro i; unfold inputOf; kinds [kinds_reports (C87_input _)]
  have ho : ∀ i, Kinds [.runtimeError, .invalidArgument] (outputOf i) := by
    intro i; unfold outputOf; kinds [kinds_reports (C87_output _)]
  have hc : ∀ i, Kinds [.runtimeError, .invalidArgument] (certOf i) := by
    intro i; unfold certOf; kinds [kinds_certificate _ _]
  unfold TxBody.deser hashAt reqLen
  kinds [kinds_mapOut hi _, kinds_mapOut ho _, kinds_mapOut hc _, kinds_withdrawals _ _]

theorem kinds_witnesses (m : List Item) {S : List Exc} : Kinds S (WitnessSet.deser m) := by
  have hv : ∀ l, Kinds S (vkeyOf l) := by
    intro l; unfold vkeyOf Cbor.get byteArray; kinds
  unfold WitnessSet.deser
  kinds [kinds_mapOut hv _]

/-- **C87**: transactions.  Bodies and transactions report `runtime_error` or `invalid_argument`; a witness set
only ever reports that the bytes are no CBOR map. -/
theorem C87_transaction (b : Bytes) (old : Tx) :
    (∀ e, TxBody.deserialize b = .throw e → e = .runtimeError ∨ e = .invalidArgument) ∧
    (∀ e, WitnessSet.deserialize b = .throw e ↔ e = .runtimeError ∧ (parse b).bind asMap = none) ∧
    (∀ e, Tx.deserialize old b = .throw e → e = .runtimeError ∨ e = .invalidArgument) := by
  have two : ∀ {α : Type} {x : Out α}, Kinds [.runtimeError, .invalidArgument] x →
      ∀ e, x = .throw e → e = .runtimeError ∨ e = .invalidArgument := by
    intro α x h e he; simpa using h.kind e he
  refine ⟨two ?_, ?_, two ?_⟩
  · unfold TxBody.deserialize deserializeMap
    kinds [kinds_body _]
  · intro e
    unfold WitnessSet.deserialize
    rw [(C87_bytes b WitnessSet.deser WitnessSet.deser (fun _ _ => .ub)).2.1]
    rcases (parse b).bind asMap with _ | m
    · simp [eq_comm]
    · simp only [reduceCtorEq, and_false, iff_false]
      intro h
      simpa using (kinds_witnesses m (S := [])).kind e h
  · unfold Tx.deserialize deserializeArray Tx.deser bodyAt witsAt
    kinds [kinds_body _, kinds_witnesses _]
end

/-! ## Threshold signatures -/

section
open Ed Tss

theorem kinds_pointPlus (C : Curve) (p q : Bytes) : Kinds [.invalidArgument] (pointPlus C p q) := by
  unfold pointPlus
  kinds

theorem kinds_lagrangeList (ids : List Nat) : ∀ is : List Nat, Kinds [.invalidArgument] (lagrangeList ids is)
  | [] => kinds_ok _
  | i :: is => by
    have ih := kinds_lagrangeList ids is
    unfold lagrangeList lagrangeAt scalarDiv
    kinds [ih]

theorem kinds_sumPoints (C : Curve) : ∀ (ps : List Bytes) (a : Bytes), Kinds [.invalidArgument] (sumPoints C ps a)
  | [], _ => kinds_ok _
  | p :: ps, a => by
    have ih := fun a => kinds_sumPoints C ps a
    unfold sumPoints
    kinds [ih _, kinds_pointPlus _ _ _]

theorem kinds_sharePubs (C : Curve) : ∀ l : List KeyShare, Kinds [.runtimeError] (sharePubs C l)
  | [] => kinds_ok _
  | k :: l => by
    have ih := kinds_sharePubs C l
    unfold sharePubs
    kinds [ih, kinds_pub _ _]

theorem kinds_sumSharePubs (C : Curve) : ∀ (l : List KeyShare) (a : Bytes),
    Kinds [.invalidArgument, .runtimeError] (sumSharePubs C l a)
  | [], _ => kinds_ok _
  | k :: l, a => by
    have ih := fun a => kinds_sumSharePubs C l a
    unfold sumSharePubs
    kinds [ih _, kinds_mono (kinds_pub _ _) (by simp), kinds_mono (kinds_pointPlus _ _ _) (by simp)]

theorem kinds_evalLoop (c : List Bytes) (x : Nat) {S : List Exc} : ∀ (k j : Nat) (a : Bytes), Kinds S (evalLoop c x k j a)
  | 0, _, _ => kinds_ok _
  | k + 1, j, a => by
    have ih := fun j a => kinds_evalLoop c x (S := S) k j a
    unfold evalLoop
    kinds [ih _ _]

theorem kinds_shamirShares (P : Bip32.Prims) (s : Bytes) (t : UInt32) (c : List Bytes) {S : List Exc} :
    ∀ l : List Nat, Kinds S (shamirShares P s t c l)
  | [] => kinds_ok _
  | x :: l => by
    have ih := kinds_shamirShares P s t c (S := S) l
    unfold shamirShares
    kinds [ih, kinds_evalLoop _ _ _ _ _]

theorem kinds_directLoop (C : Curve) (P : Bip32.Prims) : ∀ (seeds : List Bytes) (i : Nat) (ss ab : Bytes) (ks : List KeyShare),
    Kinds [.invalidArgument] (directLoop C P seeds i ss ab ks)
  | [], _, _, _, _ => kinds_ok _
  | s :: seeds, i, ss, ab, ks => by
    have ih := fun i ss ab ks => kinds_directLoop C P seeds i ss ab ks
    unfold directLoop Bip32.generate Bip32.tweakIcarus accPoint
    kinds [ih _ _ _ _, kinds_pointPlus _ _ _, kinds_modAt _ _ _]

/-- **C87**: dealers and signers.  Bad parameters, too few shares, repeated identifiers and points off the curve are
`invalid_argument`; only a key whose scalar is 0 is a `runtime_error`. -/
theorem C87_tss (C : Curve) (P : Bip32.Prims) (n t : UInt32) (a : Alg) (d : Dealer) (ids : List Nat)
    (cs sigs : List Bytes) (pubs : List Bip32.Pub) (shares : List KeyShare) (nonce : Bytes) (rand coef : Nat → Bytes)
    (root : Bip32.Prv) :
    OnlyThrows .invalidArgument (dealer1 n) ∧ OnlyThrows .invalidArgument (dealer2 n t) ∧
    OnlyThrows .invalidArgument (dealer3 n t a) ∧ OnlyThrows .invalidArgument (computeLagrange ids) ∧
    OnlyThrows .invalidArgument (aggregateCommitments C cs) ∧ OnlyThrows .invalidArgument (aggregateSignatures sigs) ∧
    OnlyThrows .invalidArgument (d.compositeKeyPubs C P pubs) ∧
    OnlyThrows .invalidArgument (commitmentFromNonce C nonce) ∧
    (∀ e, d.splitRootKey C P rand coef root = .throw e → e = .invalidArgument ∨ e = .runtimeError) ∧
    (∀ e, d.compositeSigningKey C P shares = .throw e → e = .invalidArgument ∨ e = .runtimeError) ∧
    (∀ e, d.compositeKey C P shares = .throw e → e = .invalidArgument ∨ e = .runtimeError) := by
  have one : ∀ {e : Exc} {α : Type} {x : Out α}, Kinds [e] x → OnlyThrows e x := by
    intro e α x h e' he; simpa using h.kind e' he
  have two : ∀ {α : Type} {x : Out α}, Kinds [.invalidArgument, .runtimeError] x →
      ∀ e, x = .throw e → e = .invalidArgument ∨ e = .runtimeError := by
    intro α x h e he; simpa using h.kind e he
  have vn : Kinds [.invalidArgument] (validateN n) := by unfold validateN; kinds
  have vt : Kinds [.invalidArgument] (validateT n t) := by unfold validateT; kinds
  have lag : ∀ ids, Kinds [.invalidArgument] (lagrange ids) := fun ids => kinds_lagrangeList ids _
  have cc : ∀ l, Kinds [.invalidArgument, .runtimeError] (chainCodeOf C P l) := by
    intro l
    unfold chainCodeOf
    kinds [kinds_mono (kinds_sharePubs _ _) (by simp)]
  have sk : Kinds [.invalidArgument, .runtimeError] (d.compositeSigningKey C P shares) := by
    unfold Dealer.compositeSigningKey reconstruct
    kinds [cc _, kinds_mono (lag _) (by simp)]
  refine ⟨one ?_, one ?_, one ?_, one ?_, one ?_, one ?_, one ?_, one ?_, two ?_, two sk, two ?_⟩
  · unfold dealer1; kinds [vn]
  · unfold dealer2; kinds [vn, vt]
  · unfold dealer3; kinds [vn, vt]
  · unfold computeLagrange; kinds [lag _]
  · unfold aggregateCommitments; kinds [kinds_sumPoints _ _ _]
  · unfold aggregateSignatures; kinds
  · unfold Dealer.compositeKeyPubs; kinds [kinds_sumPoints _ _ _]
  · unfold commitmentFromNonce; kinds
  · unfold Dealer.splitRootKey directSplit shamirSplit
    kinds [kinds_mono (kinds_directLoop _ _ _ _ _ _ _) (by simp), kinds_mono (kinds_pointPlus _ _ _) (by simp),
      cc _, kinds_shamirShares _ _ _ _ _, kinds_mono (kinds_pub _ _) (by simp)]
  · unfold Dealer.compositeKey
    kinds [sk, kinds_mono (kinds_pub _ _) (by simp), kinds_sumSharePubs _ _ _, cc _]
end

/-! ## Genesis files -/

namespace Genesis

theorem kinds_at (j : J) (k : String) : Kinds [.other] (j.at k) := by unfold J.at; kinds
theorem kinds_truncTo (a b : Int) (d : Util.Dbl) {S : List Exc} : Kinds S (truncTo a b d) := by unfold truncTo; kinds
theorem kinds_getU64 (j : J) : Kinds [.other] (getU64 j) := by unfold getU64; kinds [kinds_truncTo _ _ _]
theorem kinds_getUNarrow (w : Nat) (j : J) : Kinds [.other] (getUNarrow w j) := by unfold getUNarrow; kinds [kinds_truncTo _ _ _]
theorem kinds_getI64 (j : J) : Kinds [.other] (getI64 j) := by unfold getI64; kinds [kinds_truncTo _ _ _]
theorem kinds_getDbl (j : J) : Kinds [.other] (getDbl j) := by unfold getDbl; kinds
theorem kinds_getStr (j : J) : Kinds [.other] (getStr j) := by unfold getStr; kinds

theorem kinds_readEntries {α : Type} {f : J → Out α} (h : ∀ j, Kinds [.other] (f j)) : ∀ l, Kinds [.other] (readEntries f l)
  | [] => kinds_ok _
  | (k, v) :: l => by
    have ih := kinds_readEntries h l
    unfold readEntries
    kinds [ih, h _]

theorem kinds_getMap {α : Type} {f : J → Out α} (h : ∀ j, Kinds [.other] (f j)) (j : J) : Kinds [.other] (getMap f j) := by
  unfold getMap
  kinds [kinds_readEntries h _]

theorem kinds_readFirst {α : Type} {f : J → Out α} (h : ∀ j, Kinds [.other] (f j)) : ∀ n l, Kinds [.other] (readFirst f n l)
  | 0, _ => kinds_ok _
  | n + 1, [] => kinds_throw (by simp)
  | n + 1, v :: l => by
    have ih := kinds_readFirst h n l
    unfold readFirst
    kinds [ih, h _]

theorem kinds_getArr {α : Type} (n : Nat) {f : J → Out α} (h : ∀ j, Kinds [.other] (f j)) (j : J) : Kinds [.other] (getArr n f j) := by
  unfold getArr
  kinds [kinds_readFirst h _ _]

theorem kinds_Byron_SoftforkRule (j : J) : Kinds [.other] (Byron.SoftforkRule.fromJson j) := by
  unfold Byron.SoftforkRule.fromJson
  kinds [kinds_at _ _, kinds_getU64 _, kinds_getUNarrow _ _, kinds_getI64 _, kinds_getDbl _, kinds_getStr _, kinds_getMap (fun _ => kinds_getU64 _) _, kinds_getMap (fun _ => kinds_getI64 _) _, kinds_getMap (fun _ => kinds_getStr _) _, kinds_getMap (fun _ => kinds_getUNarrow _ _) _, kinds_getArr _ (fun _ => kinds_getI64 _) _, kinds_getArr _ (fun _ => kinds_getU64 _) _]

theorem kinds_Byron_TxFeePolicy (j : J) : Kinds [.other] (Byron.TxFeePolicy.fromJson j) := by
  unfold Byron.TxFeePolicy.fromJson
  kinds [kinds_at _ _, kinds_getU64 _, kinds_getUNarrow _ _, kinds_getI64 _, kinds_getDbl _, kinds_getStr _, kinds_getMap (fun _ => kinds_getU64 _) _, kinds_getMap (fun _ => kinds_getI64 _) _, kinds_getMap (fun _ => kinds_getStr _) _, kinds_getMap (fun _ => kinds_getUNarrow _ _) _, kinds_getArr _ (fun _ => kinds_getI64 _) _, kinds_getArr _ (fun _ => kinds_getU64 _) _, kinds_Byron_SoftforkRule _, kinds_getMap (fun _ => kinds_Byron_SoftforkRule _) _]

theorem kinds_Byron_BlockVersionData (j : J) : Kinds [.other] (Byron.BlockVersionData.fromJson j) := by
  unfold Byron.BlockVersionData.fromJson
  kinds [kinds_at _ _, kinds_getU64 _, kinds_getUNarrow _ _, kinds_getI64 _, kinds_getDbl _, kinds_getStr _, kinds_getMap (fun _ => kinds_getU64 _) _, kinds_getMap (fun _ => kinds_getI64 _) _, kinds_getMap (fun _ => kinds_getStr _) _, kinds_getMap (fun _ => kinds_getUNarrow _ _) _, kinds_getArr _ (fun _ => kinds_getI64 _) _, kinds_getArr _ (fun _ => kinds_getU64 _) _, kinds_Byron_SoftforkRule _, kinds_Byron_TxFeePolicy _, kinds_getMap (fun _ => kinds_Byron_SoftforkRule _) _, kinds_getMap (fun _ => kinds_Byron_TxFeePolicy _) _]

theorem kinds_Byron_ProtocolConsts (j : J) : Kinds [.other] (Byron.ProtocolConsts.fromJson j) := by
  unfold Byron.ProtocolConsts.fromJson
  kinds [kinds_at _ _, kinds_getU64 _, kinds_getUNarrow _ _, kinds_getI64 _, kinds_getDbl _, kinds_getStr _, kinds_getMap (fun _ => kinds_getU64 _) _, kinds_getMap (fun _ => kinds_getI64 _) _, kinds_getMap (fun _ => kinds_getStr _) _, kinds_getMap (fun _ => kinds_getUNarrow _ _) _, kinds_getArr _ (fun _ => kinds_getI64 _) _, kinds_getArr _ (fun _ => kinds_getU64 _) _, kinds_Byron_SoftforkRule _, kinds_Byron_TxFeePolicy _, kinds_Byron_BlockVersionData _, kinds_getMap (fun _ => kinds_Byron_SoftforkRule _) _, kinds_getMap (fun _ => kinds_Byron_TxFeePolicy _) _, kinds_getMap (fun _ => kinds_Byron_BlockVersionData _) _]

theorem kinds_Byron_DelegationData (j : J) : Kinds [.other] (Byron.DelegationData.fromJson j) := by
  unfold Byron.DelegationData.fromJson
  kinds [kinds_at _ _, kinds_getU64 _, kinds_getUNarrow _ _, kinds_getI64 _, kinds_getDbl _, kinds_getStr _, kinds_getMap (fun _ => kinds_getU64 _) _, kinds_getMap (fun _ => kinds_getI64 _) _, kinds_getMap (fun _ => kinds_getStr _) _, kinds_getMap (fun _ => kinds_getUNarrow _ _) _, kinds_getArr _ (fun _ => kinds_getI64 _) _, kinds_getArr _ (fun _ => kinds_getU64 _) _, kinds_Byron_SoftforkRule _, kinds_Byron_TxFeePolicy _, kinds_Byron_BlockVersionData _, kinds_Byron_ProtocolConsts _, kinds_getMap (fun _ => kinds_Byron_SoftforkRule _) _, kinds_getMap (fun _ => kinds_Byron_TxFeePolicy _) _, kinds_getMap (fun _ => kinds_Byron_BlockVersionData _) _, kinds_getMap (fun _ => kinds_Byron_ProtocolConsts _) _]

theorem kinds_Byron_VssCert (j : J) : Kinds [.other] (Byron.VssCert.fromJson j) := by
  unfold Byron.VssCert.fromJson
  kinds [kinds_at _ _, kinds_getU64 _, kinds_getUNarrow _ _, kinds_getI64 _, kinds_getDbl _, kinds_getStr _, kinds_getMap (fun _ => kinds_getU64 _) _, kinds_getMap (fun _ => kinds_getI64 _) _, kinds_getMap (fun _ => kinds_getStr _) _, kinds_getMap (fun _ => kinds_getUNarrow _ _) _, kinds_getArr _ (fun _ => kinds_getI64 _) _, kinds_getArr _ (fun _ => kinds_getU64 _) _, kinds_Byron_SoftforkRule _, kinds_Byron_TxFeePolicy _, kinds_Byron_BlockVersionData _, kinds_Byron_ProtocolConsts _, kinds_Byron_DelegationData _, kinds_getMap (fun _ => kinds_Byron_SoftforkRule _) _, kinds_getMap (fun _ => kinds_Byron_TxFeePolicy _) _, kinds_getMap (fun _ => kinds_Byron_BlockVersionData _) _, kinds_getMap (fun _ => kinds_Byron_ProtocolConsts _) _, kinds_getMap (fun _ => kinds_Byron_DelegationData _) _]

theorem kinds_Byron_Params (j : J) : Kinds [.other] (Byron.Params.fromJson j) := by
  unfold Byron.Params.fromJson
  kinds [kinds_at _ _, kinds_getU64 _, kinds_getUNarrow _ _, kinds_getI64 _, kinds_getDbl _, kinds_getStr _, kinds_getMap (fun _ => kinds_getU64 _) _, kinds_getMap (fun _ => kinds_getI64 _) _, kinds_getMap (fun _ => kinds_getStr _) _, kinds_getMap (fun _ => kinds_getUNarrow _ _) _, kinds_getArr _ (fun _ => kinds_getI64 _) _, kinds_getArr _ (fun _ => kinds_getU64 _) _, kinds_Byron_SoftforkRule _, kinds_Byron_TxFeePolicy _, kinds_Byron_BlockVersionData _, kinds_Byron_ProtocolConsts _, kinds_Byron_DelegationData _, kinds_Byron_VssCert _, kinds_getMap (fun _ => kinds_Byron_SoftforkRule _) _, kinds_getMap (fun _ => kinds_Byron_TxFeePolicy _) _, kinds_getMap (fun _ => kinds_Byron_BlockVersionData _) _, kinds_getMap (fun _ => kinds_Byron_ProtocolConsts _) _, kinds_getMap (fun _ => kinds_Byron_DelegationData _) _, kinds_getMap (fun _ => kinds_Byron_VssCert _) _]

theorem kinds_Shelley_ProtocolVersion (j : J) : Kinds [.other] (Shelley.ProtocolVersion.fromJson j) := by
  unfold Shelley.ProtocolVersion.fromJson
  kinds [kinds_at _ _, kinds_getU64 _, kinds_getUNarrow _ _, kinds_getI64 _, kinds_getDbl _, kinds_getStr _, kinds_getMap (fun _ => kinds_getU64 _) _, kinds_getMap (fun _ => kinds_getI64 _) _, kinds_getMap (fun _ => kinds_getStr _) _, kinds_getMap (fun _ => kinds_getUNarrow _ _) _, kinds_getArr _ (fun _ => kinds_getI64 _) _, kinds_getArr _ (fun _ => kinds_getU64 _) _]

theorem kinds_Shelley_ExtraEntropy (j : J) : Kinds [.other] (Shelley.ExtraEntropy.fromJson j) := by
  unfold Shelley.ExtraEntropy.fromJson
  kinds [kinds_at _ _, kinds_getU64 _, kinds_getUNarrow _ _, kinds_getI64 _, kinds_getDbl _, kinds_getStr _, kinds_getMap (fun _ => kinds_getU64 _) _, kinds_getMap (fun _ => kinds_getI64 _) _, kinds_getMap (fun _ => kinds_getStr _) _, kinds_getMap (fun _ => kinds_getUNarrow _ _) _, kinds_getArr _ (fun _ => kinds_getI64 _) _, kinds_getArr _ (fun _ => kinds_getU64 _) _, kinds_Shelley_ProtocolVersion _, kinds_getMap (fun _ => kinds_Shelley_ProtocolVersion _) _]

theorem kinds_Shelley_ProtocolParameters (j : J) : Kinds [.other] (Shelley.ProtocolParameters.fromJson j) := by
  unfold Shelley.ProtocolParameters.fromJson
  kinds [kinds_at _ _, kinds_getU64 _, kinds_getUNarrow _ _, kinds_getI64 _, kinds_getDbl _, kinds_getStr _, kinds_getMap (fun _ => kinds_getU64 _) _, kinds_getMap (fun _ => kinds_getI64 _) _, kinds_getMap (fun _ => kinds_getStr _) _, kinds_getMap (fun _ => kinds_getUNarrow _ _) _, kinds_getArr _ (fun _ => kinds_getI64 _) _, kinds_getArr _ (fun _ => kinds_getU64 _) _, kinds_Shelley_ProtocolVersion _, kinds_Shelley_ExtraEntropy _, kinds_getMap (fun _ => kinds_Shelley_ProtocolVersion _) _, kinds_getMap (fun _ => kinds_Shelley_ExtraEntropy _) _]

theorem kinds_Shelley_GenDeleg (j : J) : Kinds [.other] (Shelley.GenDeleg.fromJson j) := by
  unfold Shelley.GenDeleg.fromJson
  kinds [kinds_at _ _, kinds_getU64 _, kinds_getUNarrow _ _, kinds_getI64 _, kinds_getDbl _, kinds_getStr _, kinds_getMap (fun _ => kinds_getU64 _) _, kinds_getMap (fun _ => kinds_getI64 _) _, kinds_getMap (fun _ => kinds_getStr _) _, kinds_getMap (fun _ => kinds_getUNarrow _ _) _, kinds_getArr _ (fun _ => kinds_getI64 _) _, kinds_getArr _ (fun _ => kinds_getU64 _) _, kinds_Shelley_ProtocolVersion _, kinds_Shelley_ExtraEntropy _, kinds_Shelley_ProtocolParameters _, kinds_getMap (fun _ => kinds_Shelley_ProtocolVersion _) _, kinds_getMap (fun _ => kinds_Shelley_ExtraEntropy _) _, kinds_getMap (fun _ => kinds_Shelley_ProtocolParameters _) _]

theorem kinds_Shelley_Params (j : J) : Kinds [.other] (Shelley.Params.fromJson j) := by
  unfold Shelley.Params.fromJson
  kinds [kinds_at _ _, kinds_getU64 _, kinds_getUNarrow _ _, kinds_getI64 _, kinds_getDbl _, kinds_getStr _, kinds_getMap (fun _ => kinds_getU64 _) _, kinds_getMap (fun _ => kinds_getI64 _) _, kinds_getMap (fun _ => kinds_getStr _) _, kinds_getMap (fun _ => kinds_getUNarrow _ _) _, kinds_getArr _ (fun _ => kinds_getI64 _) _, kinds_getArr _ (fun _ => kinds_getU64 _) _, kinds_Shelley_ProtocolVersion _, kinds_Shelley_ExtraEntropy _, kinds_Shelley_ProtocolParameters _, kinds_Shelley_GenDeleg _, kinds_getMap (fun _ => kinds_Shelley_ProtocolVersion _) _, kinds_getMap (fun _ => kinds_Shelley_ExtraEntropy _) _, kinds_getMap (fun _ => kinds_Shelley_ProtocolParameters _) _, kinds_getMap (fun _ => kinds_Shelley_GenDeleg _) _]

theorem kinds_Alonzo_PriceFraction (j : J) : Kinds [.other] (Alonzo.PriceFraction.fromJson j) := by
  unfold Alonzo.PriceFraction.fromJson
  kinds [kinds_at _ _, kinds_getU64 _, kinds_getUNarrow _ _, kinds_getI64 _, kinds_getDbl _, kinds_getStr _, kinds_getMap (fun _ => kinds_getU64 _) _, kinds_getMap (fun _ => kinds_getI64 _) _, kinds_getMap (fun _ => kinds_getStr _) _, kinds_getMap (fun _ => kinds_getUNarrow _ _) _, kinds_getArr _ (fun _ => kinds_getI64 _) _, kinds_getArr _ (fun _ => kinds_getU64 _) _]

theorem kinds_Alonzo_ExecutionPrices (j : J) : Kinds [.other] (Alonzo.ExecutionPrices.fromJson j) := by
  unfold Alonzo.ExecutionPrices.fromJson
  kinds [kinds_at _ _, kinds_getU64 _, kinds_getUNarrow _ _, kinds_getI64 _, kinds_getDbl _, kinds_getStr _, kinds_getMap (fun _ => kinds_getU64 _) _, kinds_getMap (fun _ => kinds_getI64 _) _, kinds_getMap (fun _ => kinds_getStr _) _, kinds_getMap (fun _ => kinds_getUNarrow _ _) _, kinds_getArr _ (fun _ => kinds_getI64 _) _, kinds_getArr _ (fun _ => kinds_getU64 _) _, kinds_Alonzo_PriceFraction _, kinds_getMap (fun _ => kinds_Alonzo_PriceFraction _) _]

theorem kinds_Alonzo_ExecutionUnits (j : J) : Kinds [.other] (Alonzo.ExecutionUnits.fromJson j) := by
  unfold Alonzo.ExecutionUnits.fromJson
  kinds [kinds_at _ _, kinds_getU64 _, kinds_getUNarrow _ _, kinds_getI64 _, kinds_getDbl _, kinds_getStr _, kinds_getMap (fun _ => kinds_getU64 _) _, kinds_getMap (fun _ => kinds_getI64 _) _, kinds_getMap (fun _ => kinds_getStr _) _, kinds_getMap (fun _ => kinds_getUNarrow _ _) _, kinds_getArr _ (fun _ => kinds_getI64 _) _, kinds_getArr _ (fun _ => kinds_getU64 _) _, kinds_Alonzo_PriceFraction _, kinds_Alonzo_ExecutionPrices _, kinds_getMap (fun _ => kinds_Alonzo_PriceFraction _) _, kinds_getMap (fun _ => kinds_Alonzo_ExecutionPrices _) _]

theorem kinds_Alonzo_CostModels (j : J) : Kinds [.other] (Alonzo.CostModels.fromJson j) := by
  unfold Alonzo.CostModels.fromJson
  kinds [kinds_at _ _, kinds_getU64 _, kinds_getUNarrow _ _, kinds_getI64 _, kinds_getDbl _, kinds_getStr _, kinds_getMap (fun _ => kinds_getU64 _) _, kinds_getMap (fun _ => kinds_getI64 _) _, kinds_getMap (fun _ => kinds_getStr _) _, kinds_getMap (fun _ => kinds_getUNarrow _ _) _, kinds_getArr _ (fun _ => kinds_getI64 _) _, kinds_getArr _ (fun _ => kinds_getU64 _) _, kinds_Alonzo_PriceFraction _, kinds_Alonzo_ExecutionPrices _, kinds_Alonzo_ExecutionUnits _, kinds_getMap (fun _ => kinds_Alonzo_PriceFraction _) _, kinds_getMap (fun _ => kinds_Alonzo_ExecutionPrices _) _, kinds_getMap (fun _ => kinds_Alonzo_ExecutionUnits _) _]

theorem kinds_Alonzo_Params (j : J) : Kinds [.other] (Alonzo.Params.fromJson j) := by
  unfold Alonzo.Params.fromJson
  kinds [kinds_at _ _, kinds_getU64 _, kinds_getUNarrow _ _, kinds_getI64 _, kinds_getDbl _, kinds_getStr _, kinds_getMap (fun _ => kinds_getU64 _) _, kinds_getMap (fun _ => kinds_getI64 _) _, kinds_getMap (fun _ => kinds_getStr _) _, kinds_getMap (fun _ => kinds_getUNarrow _ _) _, kinds_getArr _ (fun _ => kinds_getI64 _) _, kinds_getArr _ (fun _ => kinds_getU64 _) _, kinds_Alonzo_PriceFraction _, kinds_Alonzo_ExecutionPrices _, kinds_Alonzo_ExecutionUnits _, kinds_Alonzo_CostModels _, kinds_getMap (fun _ => kinds_Alonzo_PriceFraction _) _, kinds_getMap (fun _ => kinds_Alonzo_ExecutionPrices _) _, kinds_getMap (fun _ => kinds_Alonzo_ExecutionUnits _) _, kinds_getMap (fun _ => kinds_Alonzo_CostModels _) _]

theorem kinds_Conway_PoolVotingThresholds (j : J) : Kinds [.other] (Conway.PoolVotingThresholds.fromJson j) := by
  unfold Conway.PoolVotingThresholds.fromJson
  kinds [kinds_at _ _, kinds_getU64 _, kinds_getUNarrow _ _, kinds_getI64 _, kinds_getDbl _, kinds_getStr _, kinds_getMap (fun _ => kinds_getU64 _) _, kinds_getMap (fun _ => kinds_getI64 _) _, kinds_getMap (fun _ => kinds_getStr _) _, kinds_getMap (fun _ => kinds_getUNarrow _ _) _, kinds_getArr _ (fun _ => kinds_getI64 _) _, kinds_getArr _ (fun _ => kinds_getU64 _) _]

theorem kinds_Conway_DRepVotingThresholds (j : J) : Kinds [.other] (Conway.DRepVotingThresholds.fromJson j) := by
  unfold Conway.DRepVotingThresholds.fromJson
  kinds [kinds_at _ _, kinds_getU64 _, kinds_getUNarrow _ _, kinds_getI64 _, kinds_getDbl _, kinds_getStr _, kinds_getMap (fun _ => kinds_getU64 _) _, kinds_getMap (fun _ => kinds_getI64 _) _, kinds_getMap (fun _ => kinds_getStr _) _, kinds_getMap (fun _ => kinds_getUNarrow _ _) _, kinds_getArr _ (fun _ => kinds_getI64 _) _, kinds_getArr _ (fun _ => kinds_getU64 _) _, kinds_Conway_PoolVotingThresholds _, kinds_getMap (fun _ => kinds_Conway_PoolVotingThresholds _) _]

theorem kinds_Conway_ConstitutionAnchor (j : J) : Kinds [.other] (Conway.ConstitutionAnchor.fromJson j) := by
  unfold Conway.ConstitutionAnchor.fromJson
  kinds [kinds_at _ _, kinds_getU64 _, kinds_getUNarrow _ _, kinds_getI64 _, kinds_getDbl _, kinds_getStr _, kinds_getMap (fun _ => kinds_getU64 _) _, kinds_getMap (fun _ => kinds_getI64 _) _, kinds_getMap (fun _ => kinds_getStr _) _, kinds_getMap (fun _ => kinds_getUNarrow _ _) _, kinds_getArr _ (fun _ => kinds_getI64 _) _, kinds_getArr _ (fun _ => kinds_getU64 _) _, kinds_Conway_PoolVotingThresholds _, kinds_Conway_DRepVotingThresholds _, kinds_getMap (fun _ => kinds_Conway_PoolVotingThresholds _) _, kinds_getMap (fun _ => kinds_Conway_DRepVotingThresholds _) _]

theorem kinds_Conway_Constitution (j : J) : Kinds [.other] (Conway.Constitution.fromJson j) := by
  unfold Conway.Constitution.fromJson
  kinds [kinds_at _ _, kinds_getU64 _, kinds_getUNarrow _ _, kinds_getI64 _, kinds_getDbl _, kinds_getStr _, kinds_getMap (fun _ => kinds_getU64 _) _, kinds_getMap (fun _ => kinds_getI64 _) _, kinds_getMap (fun _ => kinds_getStr _) _, kinds_getMap (fun _ => kinds_getUNarrow _ _) _, kinds_getArr _ (fun _ => kinds_getI64 _) _, kinds_getArr _ (fun _ => kinds_getU64 _) _, kinds_Conway_PoolVotingThresholds _, kinds_Conway_DRepVotingThresholds _, kinds_Conway_ConstitutionAnchor _, kinds_getMap (fun _ => kinds_Conway_PoolVotingThresholds _) _, kinds_getMap (fun _ => kinds_Conway_DRepVotingThresholds _) _, kinds_getMap (fun _ => kinds_Conway_ConstitutionAnchor _) _]

theorem kinds_Conway_CommitteeThreshold (j : J) : Kinds [.other] (Conway.CommitteeThreshold.fromJson j) := by
  unfold Conway.CommitteeThreshold.fromJson
  kinds [kinds_at _ _, kinds_getU64 _, kinds_getUNarrow _ _, kinds_getI64 _, kinds_getDbl _, kinds_getStr _, kinds_getMap (fun _ => kinds_getU64 _) _, kinds_getMap (fun _ => kinds_getI64 _) _, kinds_getMap (fun _ => kinds_getStr _) _, kinds_getMap (fun _ => kinds_getUNarrow _ _) _, kinds_getArr _ (fun _ => kinds_getI64 _) _, kinds_getArr _ (fun _ => kinds_getU64 _) _, kinds_Conway_PoolVotingThresholds _, kinds_Conway_DRepVotingThresholds _, kinds_Conway_ConstitutionAnchor _, kinds_Conway_Constitution _, kinds_getMap (fun _ => kinds_Conway_PoolVotingThresholds _) _, kinds_getMap (fun _ => kinds_Conway_DRepVotingThresholds _) _, kinds_getMap (fun _ => kinds_Conway_ConstitutionAnchor _) _, kinds_getMap (fun _ => kinds_Conway_Constitution _) _]

theorem kinds_Conway_Committee (j : J) : Kinds [.other] (Conway.Committee.fromJson j) := by
  unfold Conway.Committee.fromJson
  kinds [kinds_at _ _, kinds_getU64 _, kinds_getUNarrow _ _, kinds_getI64 _, kinds_getDbl _, kinds_getStr _, kinds_getMap (fun _ => kinds_getU64 _) _, kinds_getMap (fun _ => kinds_getI64 _) _, kinds_getMap (fun _ => kinds_getStr _) _, kinds_getMap (fun _ => kinds_getUNarrow _ _) _, kinds_getArr _ (fun _ => kinds_getI64 _) _, kinds_getArr _ (fun _ => kinds_getU64 _) _, kinds_Conway_PoolVotingThresholds _, kinds_Conway_DRepVotingThresholds _, kinds_Conway_ConstitutionAnchor _, kinds_Conway_Constitution _, kinds_Conway_CommitteeThreshold _, kinds_getMap (fun _ => kinds_Conway_PoolVotingThresholds _) _, kinds_getMap (fun _ => kinds_Conway_DRepVotingThresholds _) _, kinds_getMap (fun _ => kinds_Conway_ConstitutionAnchor _) _, kinds_getMap (fun _ => kinds_Conway_Constitution _) _, kinds_getMap (fun _ => kinds_Conway_CommitteeThreshold _) _]

theorem kinds_Conway_Params (j : J) : Kinds [.other] (Conway.Params.fromJson j) := by
  unfold Conway.Params.fromJson
  kinds [kinds_at _ _, kinds_getU64 _, kinds_getUNarrow _ _, kinds_getI64 _, kinds_getDbl _, kinds_getStr _, kinds_getMap (fun _ => kinds_getU64 _) _, kinds_getMap (fun _ => kinds_getI64 _) _, kinds_getMap (fun _ => kinds_getStr _) _, kinds_getMap (fun _ => kinds_getUNarrow _ _) _, kinds_getArr _ (fun _ => kinds_getI64 _) _, kinds_getArr _ (fun _ => kinds_getU64 _) _, kinds_Conway_PoolVotingThresholds _, kinds_Conway_DRepVotingThresholds _, kinds_Conway_ConstitutionAnchor _, kinds_Conway_Constitution _, kinds_Conway_CommitteeThreshold _, kinds_Conway_Committee _, kinds_getMap (fun _ => kinds_Conway_PoolVotingThresholds _) _, kinds_getMap (fun _ => kinds_Conway_DRepVotingThresholds _) _, kinds_getMap (fun _ => kinds_Conway_ConstitutionAnchor _) _, kinds_getMap (fun _ => kinds_Conway_Constitution _) _, kinds_getMap (fun _ => kinds_Conway_CommitteeThreshold _) _, kinds_getMap (fun _ => kinds_Conway_Committee _) _]

/-- **C87**: genesis files: `runtime_error` exactly if the file cannot be opened, otherwise the JSON library's
exceptions. -/
theorem C87_genesis (file : Option (Option J)) :
    (∀ e, fromFile Byron.Params.fromJson file = .throw e → e = if file = none then .runtimeError else .other) ∧
    (∀ e, fromFile Shelley.Params.fromJson file = .throw e → e = if file = none then .runtimeError else .other) ∧
    (∀ e, fromFile Alonzo.Params.fromJson file = .throw e → e = if file = none then .runtimeError else .other) ∧
    (∀ e, fromFile Conway.Params.fromJson file = .throw e → e = if file = none then .runtimeError else .other) := by
  have h : ∀ {α : Type} (f : J → Out α), (∀ j, Kinds [.other] (f j)) →
      ∀ e, fromFile f file = .throw e → e = if file = none then .runtimeError else .other := by
    intro α f hf e he
    rcases file with _ | _ | j
    · simp [fromFile] at he; simp [he]
    · simp [fromFile] at he; simp [he]
    · have := (hf j).kind e he
      simpa using this
  exact ⟨h _ kinds_Byron_Params, h _ kinds_Shelley_Params, h _ kinds_Alonzo_Params, h _ kinds_Conway_Params⟩

end Genesis

/-- Failures that occur: an odd hex string, a text without separator, a phrase of one word, a hardened index. -/
example : Hex.decode [48] = .throw .invalidArgument ∧ Bech32.decode [97, 98] = .throw .invalidArgument ∧
    Mnemonic.ofWordsIndexes [[97]] [0] = .throw .invalidArgument ∧ Tss.dealer2 3 4 = .throw .invalidArgument ∧
    Genesis.fromFile Genesis.Byron.Params.fromJson none = .throw .runtimeError ∧
    Genesis.fromFile Genesis.Byron.Params.fromJson (some (some .null)) = .throw .other :=
  ⟨rfl, rfl, rfl, rfl, rfl, rfl⟩

end Cardano
