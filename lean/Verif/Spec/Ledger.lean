import Verif.Model.LedgerBabbage

/-! # Specification for the Shelley ledger types

Two independent things:
* `Rep`: the values the C++ types can hold (array sizes, 16- and 64-bit integers, container
  sizes below the address-space limit, sorted sets).
* the CDDL of the Shelley ledger (reproduced in the comments of `ledger.hpp`), written as
  predicates on CBOR items. -/

namespace Cardano.Spec.Ledger

open Cardano.Cbor Cardano.Ledger

/-- A number fits a C++ `uint64_t`. -/
def U64 (n : Nat) : Prop := n < 2 ^ 64

/-- Strictly increasing: what iterating over a `std::set` produces. -/
def StrictSorted {α} (lt : α → α → Bool) (l : List α) : Prop := l.Pairwise fun a b => lt a b = true

/-- A container fits in memory (twice its size is below 2^64). -/
def Fits {α} (l : List α) : Prop := 2 * l.length < 2 ^ 64

/-! ## Representable values -/

def RatRep (r : Rational) : Prop := U64 r.num ∧ U64 r.den

def MetaRep (m : PoolMetadata) : Prop := Fits m.url ∧ m.hash.length = 32

def RelayRep : Relay → Prop
  | .empty => True
  | .addr v4 v6 port =>
    (∀ b ∈ v4, b.length = 4) ∧ (∀ b ∈ v6, b.length = 16) ∧ (∀ p ∈ port, p < 2 ^ 16)
  | .name dns port => Fits dns ∧ (∀ p ∈ port, p < 2 ^ 16)
  | .multi dns => Fits dns

def CredRep (c : StakeCredential) : Prop := c.cred.length = 28

def MirRep (m : MIR) : Prop := Fits m.creds ∧ ∀ e ∈ m.creds, CredRep e.1 ∧ U64 e.2

def PoolRep (p : PoolParams) : Prop :=
  p.operator.length = 28 ∧ p.vrfKeyHash.length = 32 ∧ U64 p.pledge ∧ U64 p.cost ∧
  RatRep p.margin ∧ Fits p.rewardAccount ∧
  (Fits p.owners ∧ StrictSorted bytesLt p.owners ∧ ∀ o ∈ p.owners, o.length = 28) ∧
  (Fits p.relays ∧ ∀ r ∈ p.relays, RelayRep r) ∧ (∀ m ∈ p.metadata, MetaRep m)

def CertRep : Certificate → Prop
  | .empty => True
  | .stakeReg c => CredRep c
  | .stakeDereg c => CredRep c
  | .delegation c pool => CredRep c ∧ pool.length = 28
  | .poolReg p => PoolRep p
  | .poolRetire pool epoch => pool.length = 28 ∧ U64 epoch
  | .genesisDeleg g d v => g.length = 28 ∧ d.length = 28 ∧ v.length = 32
  | .mir m => MirRep m

def OutRep (o : TxOut) : Prop := Fits o.address ∧ U64 o.amount

def InRep (i : TxIn) : Prop := i.txId.length = 32 ∧ U64 i.index

inductive ScriptRep : Script → Prop
  | empty : ScriptRep .empty
  | pubkey {h : Bytes} : h.length = 28 → ScriptRep (.pubkey h)
  | all {l : List Script} : Fits l → (∀ s ∈ l, ScriptRep s) → ScriptRep (.all l)
  | any {l : List Script} : Fits l → (∀ s ∈ l, ScriptRep s) → ScriptRep (.any l)
  | nOfK {n : Nat} {l : List Script} : U64 n → Fits l → (∀ s ∈ l, ScriptRep s) → ScriptRep (.nOfK n l)

def BodyRep (b : TxBody) : Prop :=
  (Fits b.inputs ∧ StrictSorted TxIn.lt b.inputs ∧ ∀ i ∈ b.inputs, InRep i) ∧
  (Fits b.outputs ∧ ∀ o ∈ b.outputs, OutRep o) ∧ U64 b.fee ∧ U64 b.ttl ∧
  (Fits b.certificates ∧ ∀ c ∈ b.certificates, CertRep c) ∧
  (Fits b.withdrawals ∧ StrictSorted bytesLt (b.withdrawals.map (·.1)) ∧
    ∀ w ∈ b.withdrawals, Fits w.1 ∧ U64 w.2) ∧
  (∀ h ∈ b.metadataHash, h.length = 32)

def VkeyRep (w : VkeyWitness) : Prop := w.vkey.length = 32 ∧ w.sig.length = 64

def WitsRep (w : WitnessSet) : Prop :=
  (Fits w.vkeys ∧ ∀ v ∈ w.vkeys, VkeyRep v) ∧ (Fits w.multisig ∧ ∀ s ∈ w.multisig, ScriptRep s)

def TxRep (t : Tx) : Prop := BodyRep t.body ∧ WitsRep t.wits

/-! ## What survives serialization

The values that come back unchanged (used in the exact round-trip theorems). -/

def RelayPreserved : Relay → Prop
  | .addr (some _) none _ => True
  | .name _ _ => True
  | .multi _ => True
  | _ => False

def CertPreserved : Certificate → Prop
  | .stakeReg _ => True
  | .stakeDereg _ => True
  | .delegation _ _ => True
  | .poolReg p => p.relays = [] ∧ p.metadata = none ∧ p.margin.den ≠ 0
  | .poolRetire _ _ => True
  | .mir _ => True
  | .empty => False
  | .genesisDeleg _ _ _ => False

/-- No n-of-k node and no empty node anywhere. -/
inductive ScriptPreserved : Script → Prop
  | pubkey {h} : ScriptPreserved (.pubkey h)
  | all {l : List Script} : (∀ s ∈ l, ScriptPreserved s) → ScriptPreserved (.all l)
  | any {l : List Script} : (∀ s ∈ l, ScriptPreserved s) → ScriptPreserved (.any l)

def BodyPreserved (b : TxBody) : Prop :=
  b.update = false ∧ ∀ c ∈ b.certificates, CertPreserved c

def WitsPreserved (w : WitnessSet) : Prop := w.multisig = [] ∧ w.bootstrap = []

/-! ## CDDL -/

/-- `bytes .size n` -/
def BytesN (n : Nat) (i : Item) : Prop := ∃ b, i = .bstr b ∧ b.length = n
/-- `bytes` -/
def BytesAny (i : Item) : Prop := ∃ b, i = .bstr b
/-- `tstr .size (0..64)` -/
def Text64 (i : Item) : Prop := ∃ b, i = .tstr b ∧ b.length ≤ 64
/-- `uint` -/
def UInt (i : Item) : Prop := ∃ n, i = .uint n
/-- `uint .le 65535` -/
def PortC (i : Item) : Prop := ∃ n, i = .uint n ∧ n ≤ 65535
/-- `x / null` -/
def OrNull (p : Item → Prop) (i : Item) : Prop := p i ∨ i = .null
/-- `[* x]` -/
def ArrayOf (p : Item → Prop) (i : Item) : Prop := ∃ l, i = .array l ∧ ∀ x ∈ l, p x
/-- The elements match the group, one for one. -/
def Matches : List (Item → Prop) → List Item → Prop
  | [], [] => True
  | p :: ps, x :: xs => p x ∧ Matches ps xs
  | _, _ => False
/-- `[a, b, ...]`: a fixed group as an array. -/
def Group (ps : List (Item → Prop)) (i : Item) : Prop := ∃ l, i = .array l ∧ Matches ps l

/-- A CDDL map with required and optional integer keys, each at most once, no others. -/
def MapC (req opt : List (Nat × (Item → Prop))) (i : Item) : Prop :=
  ∃ ps : List (Nat × Item), i = .map (ps.flatMap fun kv => [.uint kv.1, kv.2]) ∧
    (ps.map (·.1)).Nodup ∧ (∀ kv ∈ ps, ∃ p, (kv.1, p) ∈ req ++ opt ∧ p kv.2) ∧
    ∀ r ∈ req, r.1 ∈ ps.map (·.1)

/-- A literal. -/
def Lit (n : Nat) (i : Item) : Prop := i = .uint n

/-- `{ * k => v }` with distinct keys (RFC 8949, 5.6). -/
def MapOf (k v : Item → Prop) (i : Item) : Prop :=
  ∃ ps : List (Item × Item), i = .map (ps.flatMap fun kv => [kv.1, kv.2]) ∧
    (ps.map (·.1)).Nodup ∧ ∀ kv ∈ ps, k kv.1 ∧ v kv.2

/-- `unit_interval = #6.30([uint, uint])`. -/
def UnitIntervalC (i : Item) : Prop := ∃ a b, i = .tag 30 (.array [.uint a, .uint b])

/-- `stake_credential = [0, addr_keyhash // 1, scripthash]` (ledger.hpp:701-704). -/
def StakeCredentialC (i : Item) : Prop :=
  Group [Lit 0, BytesN 28] i ∨ Group [Lit 1, BytesN 28] i

/-- `pool_metadata = [url, metadata_hash]`. -/
def PoolMetadataC : Item → Prop := Group [Text64, BytesN 32]

/-- `relay` (ledger.hpp:595-615). -/
def RelayC (i : Item) : Prop :=
  Group [Lit 0, OrNull PortC, OrNull (BytesN 4), OrNull (BytesN 16)] i ∨
  Group [Lit 1, OrNull PortC, Text64] i ∨
  Group [Lit 2, Text64] i

/-- `move_instantaneous_reward` (ledger.hpp:730). -/
def MirC (i : Item) : Prop :=
  Group [fun x => Lit 0 x ∨ Lit 1 x, MapOf StakeCredentialC UInt] i

/-- `certificate` (ledger.hpp:762-889). -/
def CertificateC (i : Item) : Prop :=
  Group [Lit 0, StakeCredentialC] i ∨
  Group [Lit 1, StakeCredentialC] i ∨
  Group [Lit 2, StakeCredentialC, BytesN 28] i ∨
  Group [Lit 3, BytesN 28, BytesN 32, UInt, UInt, UnitIntervalC, BytesAny,
    ArrayOf (BytesN 28), ArrayOf RelayC, OrNull PoolMetadataC] i ∨
  Group [Lit 4, BytesN 28, UInt] i ∨
  Group [Lit 5, BytesN 28, BytesN 28, BytesN 32] i ∨
  Group [Lit 6, MirC] i

/-- `multisig_script` (ledger.hpp:427-437). -/
inductive MultisigC : Item → Prop
  | pubkey {h} : BytesN 28 h → MultisigC (.array [.uint 0, h])
  | all {l : List Item} : (∀ s ∈ l, MultisigC s) → MultisigC (.array [.uint 1, .array l])
  | any {l : List Item} : (∀ s ∈ l, MultisigC s) → MultisigC (.array [.uint 2, .array l])
  | nOfK {n : Nat} {l : List Item} : (∀ s ∈ l, MultisigC s) →
      MultisigC (.array [.uint 3, .uint n, .array l])

/-- `transaction_output`, `transaction_input` (ledger.hpp:927, 950-952). -/
def TxOutC : Item → Prop := Group [BytesAny, UInt]
def TxInC : Item → Prop := Group [BytesN 32, UInt]

/-- `transaction_body` (ledger.hpp:982-991).  `update` (key 6) is left unconstrained. -/
def TxBodyC : Item → Prop :=
  MapC [(0, fun i => ∃ l, i = .array l ∧ l.Nodup ∧ ∀ x ∈ l, TxInC x),
        (1, ArrayOf TxOutC), (2, UInt), (3, UInt)]
       [(4, ArrayOf CertificateC), (5, MapOf BytesAny UInt), (6, fun _ => True), (7, BytesN 32)]

/-- `transaction_witness_set` (ledger.hpp:1017-1021). -/
def WitsC : Item → Prop :=
  MapC [] [(0, ArrayOf (Group [BytesN 32, BytesN 64])), (1, ArrayOf MultisigC),
           (2, ArrayOf (Group [BytesN 32, BytesN 64, BytesN 32, BytesAny]))]

/-- `transaction = [body, witness_set, metadata / null]` (ledger.hpp:1042-1046); metadata is
left unconstrained. -/
def TxC : Item → Prop := Group [TxBodyC, WitsC, fun _ => True]

/-! ### Babbage (only what this library can express) -/

/-- `pre_babbage_transaction_output = [address, value, ? datum_hash]`, coin-only value. -/
def PreOutC (i : Item) : Prop := Group [BytesAny, UInt] i ∨ Group [BytesAny, UInt, BytesN 32] i
/-- `post_alonzo_transaction_output = {0: address, 1: value, ? 2: datum_option, ? 3: script_ref}`. -/
def PostOutC : Item → Prop := MapC [(0, BytesAny), (1, UInt)] [(2, fun _ => True), (3, fun _ => True)]
/-- `transaction_body` of Babbage; keys this library never writes are unconstrained. -/
def BabbageBodyC : Item → Prop :=
  MapC [(0, fun i => ∃ l, i = .array l ∧ l.Nodup ∧ ∀ x ∈ l, TxInC x),
        (1, ArrayOf fun i => PreOutC i ∨ PostOutC i), (2, UInt)]
       [(3, UInt), (4, ArrayOf CertificateC), (5, MapOf BytesAny UInt), (6, fun _ => True),
        (7, BytesN 32), (8, UInt), (9, fun _ => True), (11, BytesN 32), (13, fun _ => True),
        (14, fun _ => True), (15, UInt), (16, fun i => PreOutC i ∨ PostOutC i), (17, UInt),
        (18, fun _ => True)]
/-- `transaction_witness_set` of Babbage; key 0. -/
def BabbageWitsC : Item → Prop :=
  MapC [] ((0, ArrayOf (Group [BytesN 32, BytesN 64])) :: (List.range' 1 6).map fun k => (k, fun _ => True))
/-- `transaction = [body, witness_set, bool, auxiliary_data / null]`. -/
def BabbageTxC : Item → Prop :=
  Group [BabbageBodyC, BabbageWitsC, fun i => ∃ b, i = .bool b, fun _ => True]

/-- Representable Babbage values. -/
def BabbageOutRep : Babbage.TxOut → Prop
  | .pre o => Fits o.address ∧ U64 o.amount ∧ ∀ h ∈ o.datumHash, h.length = 32
  | .post o => Fits o.address ∧ U64 o.amount

def BabbageBodyRep (b : Babbage.TxBody) : Prop :=
  (Fits b.inputs ∧ StrictSorted TxIn.lt b.inputs ∧ ∀ i ∈ b.inputs, InRep i) ∧
  (Fits b.outputs ∧ ∀ o ∈ b.outputs, BabbageOutRep o) ∧ U64 b.fee ∧ (∀ t ∈ b.ttl, U64 t) ∧
  (Fits b.withdrawals ∧ StrictSorted bytesLt (b.withdrawals.map (·.1)) ∧
    ∀ w ∈ b.withdrawals, Fits w.1 ∧ U64 w.2)

end Cardano.Spec.Ledger
