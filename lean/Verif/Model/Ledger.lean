import Verif.Model.Cbor

/-! # Model of the Shelley ledger types and their CBOR forms

`src/shelley/ledger.cpp`, `include/cardano/ledger.hpp`, `include/cardano/serialization.hpp`.

Fixed-size C++ arrays are byte lists; the length they must have is part of the validity
predicates of `Spec/Ledger.lean`.  `std::set` and `std::map` are lists kept strictly sorted.
A deserializer that throws is modelled here by the exception only: what it leaves behind in the
object is modelled in `LedgerInto.lean`.  Where a deserializer keeps part of the old object it takes
that object as an argument. -/

namespace Cardano.Ledger

open Cardano.Cbor

/-! ## Ordered containers -/

/-- `std::vector<uint8_t>` / `std::array` three-way comparison `<`: lexicographic on
unsigned bytes, a proper prefix is smaller. -/
def bytesLt : Bytes → Bytes → Bool
  | [], [] => false
  | [], _ :: _ => true
  | _ :: _, [] => false
  | a :: as, b :: bs => decide (a < b) || (decide (a = b) && bytesLt as bs)

/-- `std::set::insert` on the sorted list of its elements. -/
def setInsert {α} (lt : α → α → Bool) (x : α) : List α → List α
  | [] => [x]
  | y :: ys =>
    if lt x y then x :: y :: ys
    else if lt y x then y :: setInsert lt x ys
    else y :: ys

/-- `std::map::operator[](k) = v` on the sorted list of its entries. -/
def mapAssign {κ α} (lt : κ → κ → Bool) (k : κ) (v : α) : List (κ × α) → List (κ × α)
  | [] => [(k, v)]
  | (k', v') :: rest =>
    if lt k k' then (k, v) :: (k', v') :: rest
    else if lt k' k then (k', v') :: mapAssign lt k v rest
    else (k', v) :: rest

/-! ## Byte-level entry points (serialization.hpp:30-135) -/

/-- `ArraySerializable::deserialize` (serialization.hpp:48-61): parse, require an array (a
tagged array passes), hand over its elements.  Trailing bytes are ignored. -/
def deserializeArray {α} (f : List Item → Out α) (b : Bytes) : Out α :=
  match parse b with
  | none => .throw .runtimeError
  | some i => match asArray i with
    | none => .throw .runtimeError
    | some l => f l

/-- `MapSerializable::deserialize` (serialization.hpp:84-97). -/
def deserializeMap {α} (f : List Item → Out α) (b : Bytes) : Out α :=
  match parse b with
  | none => .throw .runtimeError
  | some i => match asMap i with
    | none => .throw .runtimeError
    | some l => f l

/-- `TagSerializable::deserialize` (serialization.hpp:124-136). -/
def deserializeTag {α} (f : Nat → Item → Out α) (b : Bytes) : Out α :=
  match parse b with
  | none => .throw .runtimeError
  | some (.tag n i) => f n i
  | some _ => .throw .runtimeError

/-- A size check followed by a copy into a fixed array. -/
def reqLen (e : Exc) (n : Nat) (b : Bytes) : Out Bytes :=
  if b.length = n then .ok b else .throw e

/-- A loop over a container, stopping at the first exception. -/
def mapOut {α β} (f : α → Out β) : List α → Out (List β)
  | [] => .ok []
  | a :: l => do
    let b ← f a
    let bs ← mapOut f l
    .ok (b :: bs)

/-! ## Rational (serialization.hpp:140-196) -/

/-- `Rational` (serialization.hpp:144-149). -/
structure Rational where
  num : Nat
  den : Nat
  deriving DecidableEq, Repr, Inhabited

/-- `Rational::serializer` (serialization.hpp:152-155). -/
def Rational.ser (r : Rational) : Item := .tag 30 (.array [.uint r.num, .uint r.den])

/-- `Rational::deserializer` (serialization.hpp:158-195); `n` is the outermost tag. -/
def Rational.deser (n : Nat) (i : Item) : Out Rational :=
  if n ≠ 30 then .throw .runtimeError
  else match asArray i with
    | none => .throw .runtimeError
    | some [a, b] =>
      match asUint a, asUint b with
      | some num, some den => if den = 0 then .throw .runtimeError else .ok ⟨num, den⟩
      | _, _ => .throw .runtimeError
    | some _ => .throw .runtimeError

/-! ## PoolMetadata (src/shelley/ledger.cpp:38-77) -/

/-- `PoolMetadata` (ledger.hpp:572). -/
structure PoolMetadata where
  url : Bytes
  hash : Bytes
  deriving DecidableEq, Repr

/-- `PoolMetadata::serializer` (src/shelley/ledger.cpp:38-43). -/
def PoolMetadata.ser (m : PoolMetadata) : List Item := [.tstr m.url, .bstr m.hash]

/-- `PoolMetadata::deserializer` (src/shelley/ledger.cpp:45-77). -/
def PoolMetadata.deser (data : List Item) : Out PoolMetadata :=
  match data with
  | [a, b] =>
    match asTstr a, asBstr b with
    | some u, some h => do
      let h ← reqLen .invalidArgument 32 h
      .ok ⟨u, h⟩
    | _, _ => .throw .runtimeError
  | _ => .throw .runtimeError

/-! ## Relay (src/shelley/ledger.cpp:79-239) -/

/-- `Relay` (ledger.hpp:616-671): the variant; `empty` is `std::monostate`. -/
inductive Relay where
  | empty
  | addr (ipv4 ipv6 : Option Bytes) (port : Option Nat)
  | name (dns : Bytes) (port : Option Nat)
  | multi (dns : Bytes)
  deriving DecidableEq, Repr

/-- The port element: the number or null (src/shelley/ledger.cpp:89-96, 115-122). -/
def portItem : Option Nat → Item
  | some p => .uint p
  | none => .null

/-- `Relay::serializer` (src/shelley/ledger.cpp:79-134).  In the IPv6 case line 108 calls
`arg.ipv4.value()`, which throws `std::bad_optional_access` there. -/
def Relay.ser : Relay → Out (List Item)
  | .empty => .ok []
  | .addr (some v4) _ port => .ok [.uint 0, portItem port, .bstr v4, .null]
  | .addr none (some _) _ => .throw .badOptional
  | .addr none none port => .ok [.uint 0, portItem port]
  | .name dns port => .ok [.uint 1, portItem port, .tstr dns]
  | .multi dns => .ok [.uint 2, .tstr dns]

/-- The port read back: `static_cast<uint16_t>` of an unsigned integer, else absent
(src/shelley/ledger.cpp:160-163, 207-210). -/
def portOf (i : Item) : Option Nat := (asUint i).map (· % 2 ^ 16)

/-- The address element read back (src/shelley/ledger.cpp:164-187): 4 bytes are an IPv4 address, 16
bytes an IPv6 address, anything else is ignored. -/
def ipOf (i : Item) (port : Option Nat) : Relay :=
  match asBstr i with
  | some b =>
    if b.length = 4 then .addr (some b) none port
    else if b.length = 16 then .addr none (some b) port
    else .addr none none port
  | none => .addr none none port

/-- `Relay::deserializer` (src/shelley/ledger.cpp:136-239). -/
def Relay.deser (old : Relay) (data : List Item) : Out Relay :=
  match data with
  | t :: a :: rest =>
    match asUint t with
    | none => .throw .runtimeError
    | some 0 =>
      match rest with
      | [b, _] => .ok (ipOf b (portOf a))
      | _ => .throw .runtimeError
    | some 1 =>
      match rest with
      | [b] => match asTstr b with
        | some d => .ok (.name d (portOf a))
        | none => .throw .runtimeError
      | _ => .throw .runtimeError
    | some 2 =>
      match rest with
      | [] => match asTstr a with
        | some d => .ok (.multi d)
        | none => .throw .runtimeError
      | _ => .throw .runtimeError
    | some _ => .ok old
  | _ => .throw .runtimeError

/-! ## StakeCredential (src/shelley/ledger.cpp:241-286) -/

/-- `StakeCredential::Type` (ledger.hpp:708-712). -/
inductive CredType where
  | keyHash
  | scriptHash
  deriving DecidableEq, Repr

/-- `StakeCredential` (ledger.hpp:706-724). -/
structure StakeCredential where
  type : CredType
  cred : Bytes
  deriving DecidableEq, Repr

/-- The enumerator's number (ledger.hpp:710-711). -/
def CredType.num : CredType → Nat
  | .keyHash => 0
  | .scriptHash => 1

/-- `StakeCredential::serializer` (src/shelley/ledger.cpp:241-246). -/
def StakeCredential.ser (c : StakeCredential) : List Item := [.uint c.type.num, .bstr c.cred]

/-- The switch of src/shelley/ledger.cpp:264-275. -/
def credTypeOf : Nat → Out CredType
  | 0 => .ok .keyHash
  | 1 => .ok .scriptHash
  | _ => .throw .runtimeError

/-- `StakeCredential::deserializer` (src/shelley/ledger.cpp:248-286). -/
def StakeCredential.deser (data : List Item) : Out StakeCredential :=
  match data with
  | [a, b] =>
    match asUint a, asBstr b with
    | some t, some c => do
      let ty ← credTypeOf t
      let c ← reqLen .invalidArgument 28 c
      .ok ⟨ty, c⟩
    | _, _ => .throw .runtimeError
  | _ => .throw .runtimeError

/-! ## MoveInstantaneousReward (src/shelley/ledger.cpp:288-339) -/

/-- `MoveInstantaneousReward::RewardSource` (ledger.hpp:736-740). -/
inductive RewardSource where
  | reserves
  | treasury
  deriving DecidableEq, Repr

/-- The enumerator's number. -/
def RewardSource.num : RewardSource → Nat
  | .reserves => 0
  | .treasury => 1

/-- `MoveInstantaneousReward` (ledger.hpp:734-756). -/
structure MIR where
  source : RewardSource
  creds : List (StakeCredential × Nat)
  deriving DecidableEq, Repr

/-- The credential map, keys and values alternating (src/shelley/ledger.cpp:290-294). -/
def mirEntries : List (StakeCredential × Nat) → List Item
  | [] => []
  | (c, v) :: rest => .array c.ser :: .uint v :: mirEntries rest

/-- `MoveInstantaneousReward::serializer` (src/shelley/ledger.cpp:288-298). -/
def MIR.ser (m : MIR) : List Item := [.uint m.source.num, .map (mirEntries m.creds)]

/-- The switch of src/shelley/ledger.cpp:317-328. -/
def sourceOf : Nat → Out RewardSource
  | 0 => .ok .reserves
  | 1 => .ok .treasury
  | _ => .throw .runtimeError

/-- The loop of src/shelley/ledger.cpp:331-338.  A key that is not an array or a value that is not an
unsigned integer is a null dereference. -/
def mirLoop : List Item → Out (List (StakeCredential × Nat))
  | k :: v :: rest => do
    let arr ← deref (asArray k)
    let c ← StakeCredential.deser arr
    let n ← deref (asUint v)
    let r ← mirLoop rest
    .ok ((c, n) :: r)
  | _ => .ok []

/-- `MoveInstantaneousReward::deserializer` (src/shelley/ledger.cpp:300-339): entries are appended to
those the object already had. -/
def MIR.deser (oldCreds : List (StakeCredential × Nat)) (data : List Item) : Out MIR :=
  match data with
  | [a, b] =>
    match asUint a, asMap b with
    | some s, some kvs => do
      let src ← sourceOf s
      let es ← mirLoop kvs
      .ok ⟨src, oldCreds ++ es⟩
    | _, _ => .throw .runtimeError
  | _ => .throw .runtimeError

/-! ## Certificate (src/shelley/ledger.cpp:341-642) -/

/-- `PoolParams` (ledger.hpp:684-695); the owners are a `std::set`. -/
structure PoolParams where
  operator : Bytes
  vrfKeyHash : Bytes
  pledge : Nat
  cost : Nat
  margin : Rational
  rewardAccount : Bytes
  owners : List Bytes
  relays : List Relay
  metadata : Option PoolMetadata
  deriving DecidableEq, Repr

/-- `Certificate` (ledger.hpp:764-921): the variant; `empty` is `std::monostate`. -/
inductive Certificate where
  | empty
  | stakeReg (c : StakeCredential)
  | stakeDereg (c : StakeCredential)
  | delegation (c : StakeCredential) (pool : Bytes)
  | poolReg (p : PoolParams)
  | poolRetire (pool : Bytes) (epoch : Nat)
  | genesisDeleg (genesis delegate vrf : Bytes)
  | mir (m : MIR)
  deriving DecidableEq, Repr

/-- The owners element: present only if there are owners (src/shelley/ledger.cpp:384-394). -/
def ownersItem (owners : List Bytes) : List Item :=
  if owners = [] then [] else [.array (owners.map .bstr)]

/-- The relays element: present only if there are relays (src/shelley/ledger.cpp:395-403). -/
def relaysItem (relays : List Relay) : Out (List Item) :=
  if relays = [] then .ok []
  else do
    let rs ← mapOut Relay.ser relays
    .ok [.array (rs.map .array)]

/-- The metadata element: present only if set (src/shelley/ledger.cpp:404-407). -/
def metadataItem : Option PoolMetadata → List Item
  | none => []
  | some m => [.array m.ser]

/-- The pool parameters (src/shelley/ledger.cpp:365-407). -/
def PoolParams.ser (p : PoolParams) : Out (List Item) := do
  let rs ← relaysItem p.relays
  .ok ([.bstr p.operator, .bstr p.vrfKeyHash, .uint p.pledge, .uint p.cost, p.margin.ser,
    .bstr p.rewardAccount] ++ ownersItem p.owners ++ rs ++ metadataItem p.metadata)

/-- `Certificate::serializer` (src/shelley/ledger.cpp:341-444). -/
def Certificate.ser : Certificate → Out (List Item)
  | .empty => .ok []
  | .stakeReg c => .ok [.uint 0, .array c.ser]
  | .stakeDereg c => .ok [.uint 1, .array c.ser]
  | .delegation c pool => .ok [.uint 2, .array c.ser, .bstr pool]
  | .poolReg p => do
    let ps ← p.ser
    .ok (.uint 3 :: ps)
  | .poolRetire pool epoch => .ok [.uint 4, .bstr pool, .uint epoch]
  | .genesisDeleg g d v => .ok [.uint 5, .bstr g, .bstr d, .bstr v]
  | .mir m => .ok [.uint 6, .array m.ser]

/-- One owner key hash (src/shelley/ledger.cpp:542-552). -/
def ownerOf (i : Item) : Out Bytes := do
  let b ← deref (asBstr i)
  reqLen .invalidArgument 28 b

/-- The owners read back (src/shelley/ledger.cpp:537-554): element 7 of the certificate, if it is an
array; each is inserted in the set. -/
def ownersOf (i : Option Item) : Out (List Bytes) :=
  match i.bind asArray with
  | none => .ok []
  | some l => do
    let os ← mapOut ownerOf l
    .ok (os.foldl (fun s o => setInsert bytesLt o s) [])

/-- `*(data.get(5)->asSemanticTag())`: a null dereference if the item has no tag
(src/shelley/ledger.cpp:535). -/
def marginOf : Item → Out Rational
  | .tag n i => Rational.deser n i
  | _ => .ub

/-- The pool registration case of `Certificate::deserializer` (src/shelley/ledger.cpp:503-571).  The
relays and the metadata are not read (`TODO`s at 555-562). -/
def poolRegDeser (data : List Item) : Out Certificate :=
  match data with
  | _ :: i1 :: i2 :: i3 :: i4 :: i5 :: i6 :: rest =>
    match asBstr i1, asBstr i2, asUint i3, asUint i4, asArray i5, asBstr i6 with
    | some op, some vrf, some pledge, some cost, some _, some rew => do
      let op ← reqLen .invalidArgument 28 op
      let vrf ← reqLen .invalidArgument 32 vrf
      let margin ← marginOf i5
      let owners ← ownersOf rest.head?
      .ok (.poolReg { operator := op, vrfKeyHash := vrf, pledge, cost, margin,
                      rewardAccount := rew, owners, relays := [], metadata := none })
    | _, _, _, _, _, _ => .throw .invalidArgument
  | _ => .throw .invalidArgument

/-- Registration and deregistration (src/shelley/ledger.cpp:455-482). -/
def credCert (mk : StakeCredential → Certificate) (data : List Item) : Out Certificate :=
  match data with
  | [_, a] => match asArray a with
    | none => .throw .runtimeError
    | some l => do
      let c ← StakeCredential.deser l
      .ok (mk c)
  | _ => .throw .runtimeError

/-- Delegation (src/shelley/ledger.cpp:483-502). -/
def delegDeser (data : List Item) : Out Certificate :=
  match data with
  | [_, a, b] => match asArray a, asBstr b with
    | some l, some h => do
      let c ← StakeCredential.deser l
      let h ← reqLen .invalidArgument 28 h
      .ok (.delegation c h)
    | _, _ => .throw .runtimeError
  | _ => .throw .runtimeError

/-- Pool retirement (src/shelley/ledger.cpp:572-595). -/
def retireDeser (data : List Item) : Out Certificate :=
  match data with
  | [_, a, b] => match asBstr a, asUint b with
    | some h, some e => do
      let h ← reqLen .runtimeError 28 h
      .ok (.poolRetire h e)
    | _, _ => .throw .runtimeError
  | _ => .throw .runtimeError

/-- Genesis key delegation (src/shelley/ledger.cpp:596-628): reads element 0, the integer tag, as a byte
string, then elements 1 and 2. -/
def genesisDeser (data : List Item) : Out Certificate := do
  let i0 ← Cbor.get data 0
  let g ← deref (asBstr i0)
  let g ← reqLen .invalidArgument 28 g
  let i1 ← Cbor.get data 1
  let d ← deref (asBstr i1)
  let d ← reqLen .invalidArgument 28 d
  let i2 ← Cbor.get data 2
  let v ← deref (asBstr i2)
  let v ← reqLen .invalidArgument 32 v
  .ok (.genesisDeleg g d v)

/-- Move instantaneous rewards (src/shelley/ledger.cpp:629-636). -/
def mirDeser (data : List Item) : Out Certificate := do
  let i1 ← Cbor.get data 1
  let l ← deref (asArray i1)
  let m ← MIR.deser [] l
  .ok (.mir m)

/-- `Certificate::deserializer` (src/shelley/ledger.cpp:446-642). -/
def Certificate.deser (old : Certificate) (data : List Item) : Out Certificate :=
  match data with
  | t :: _ :: _ =>
    match asUint t with
    | none => .throw .runtimeError
    | some 0 => credCert .stakeReg data
    | some 1 => credCert .stakeDereg data
    | some 2 => delegDeser data
    | some 3 => poolRegDeser data
    | some 4 => retireDeser data
    | some 5 => genesisDeser data
    | some 6 => mirDeser data
    | some _ => .ok old
  | _ => .throw .runtimeError

/-! ## Transaction inputs and outputs (src/shelley/ledger.cpp:644-714) -/

/-- `TransactionOutput` (ledger.hpp:929-944). -/
structure TxOut where
  address : Bytes
  amount : Nat
  deriving DecidableEq, Repr

/-- `TransactionOutput::serializer` (src/shelley/ledger.cpp:644-649). -/
def TxOut.ser (o : TxOut) : List Item := [.bstr o.address, .uint o.amount]

/-- `TransactionOutput::deserializer` (src/shelley/ledger.cpp:651-675). -/
def TxOut.deser (data : List Item) : Out TxOut :=
  match data with
  | [a, b] => match asBstr a, asUint b with
    | some ad, some n => .ok ⟨ad, n⟩
    | _, _ => .throw .runtimeError
  | _ => .throw .runtimeError

/-- `TransactionInput` (ledger.hpp:954-981). -/
structure TxIn where
  txId : Bytes
  index : Nat
  deriving DecidableEq, Repr

/-- `TransactionInput::operator<` (ledger.hpp:961-968). -/
def TxIn.lt (a b : TxIn) : Bool :=
  if a.txId = b.txId then decide (a.index < b.index) else bytesLt a.txId b.txId

/-- `TransactionInput::serializer` (src/shelley/ledger.cpp:677-683). -/
def TxIn.ser (i : TxIn) : List Item := [.bstr i.txId, .uint i.index]

/-- `TransactionInput::deserializer` (src/shelley/ledger.cpp:685-714). -/
def TxIn.deser (data : List Item) : Out TxIn :=
  match data with
  | [a, b] => match asBstr a, asUint b with
    | some h, some n => do
      let h ← reqLen .invalidArgument 32 h
      .ok ⟨h, n⟩
    | _, _ => .throw .invalidArgument
  | _ => .throw .invalidArgument

/-! ## MultisigScript (src/shelley/ledger.cpp:716-873) -/

/-- `MultisigScript` (ledger.hpp:438-483); `empty` is `std::monostate`.  Null shared pointers
and sharing are not modelled: a script is the tree it points to. -/
inductive Script where
  | empty
  | pubkey (hash : Bytes)
  | all (scripts : List Script)
  | any (scripts : List Script)
  | nOfK (n : Nat) (scripts : List Script)
  deriving Repr

mutual
/-- `MultisigScript::serializer` (src/shelley/ledger.cpp:716-769). -/
def Script.ser : Script → List Item
  | .empty => []
  | .pubkey h => [.uint 0, .bstr h]
  | .all l => [.uint 1, .array (serScripts l)]
  | .any l => [.uint 2, .array (serScripts l)]
  | .nOfK n l => [.uint 3, .uint n, .array (serScripts l)]
/-- The loops of src/shelley/ledger.cpp:734-737, 744-747, 755-758. -/
def serScripts : List Script → List Item
  | [] => []
  | s :: l => .array s.ser :: serScripts l
end

/-- The pubkey case (src/shelley/ledger.cpp:780-803). -/
def pubkeyDeser (data : List Item) : Out Script :=
  match data with
  | [_, a] => match asBstr a with
    | some h => do
      let h ← reqLen .invalidArgument 28 h
      .ok (.pubkey h)
    | none => .throw .invalidArgument
  | _ => .throw .invalidArgument

/-- The n-of-k case (src/shelley/ledger.cpp:846-867): the guard demands exactly two elements and then
reads the third. -/
def nOfKDeser (data : List Item) : Out Script :=
  match data with
  | [_, a] => match asUint a with
    | some _ => .ub
    | none => .throw .runtimeError
  | _ => .throw .runtimeError

mutual
/-- `s.deserializer(*(item.asArray()))` for a fresh script `s`: a null dereference if the item
is not an array, otherwise `MultisigScript::deserializer` (src/shelley/ledger.cpp:771-873). -/
def scriptItem : Item → Out Script
  | .tag _ i => scriptItem i
  | .array data => scriptData data
  | _ => .ub
/-- `MultisigScript::deserializer` on a fresh (empty) script. -/
def scriptData : List Item → Out Script
  | [] => .throw .invalidArgument
  | [_] => .throw .invalidArgument
  | t :: a :: rest =>
    match asUint t with
    | none => .throw .invalidArgument
    | some 0 => pubkeyDeser (t :: a :: rest)
    | some 1 => if rest.isEmpty then (scriptList a).bind (fun l => .ok (.all l))
                else .throw .runtimeError
    | some 2 => if rest.isEmpty then (scriptList a).bind (fun l => .ok (.any l))
                else .throw .runtimeError
    | some 3 => nOfKDeser (t :: a :: rest)
    | some _ => .ok .empty
/-- The child list (src/shelley/ledger.cpp:804-824, 825-845). -/
def scriptList : Item → Out (List Script)
  | .tag _ i => scriptList i
  | .array l => scriptItems l
  | _ => .throw .runtimeError
/-- The loop over the children. -/
def scriptItems : List Item → Out (List Script)
  | [] => .ok []
  | i :: l => (scriptItem i).bind fun s => (scriptItems l).bind fun r => .ok (s :: r)
end

/-- `MultisigScript::deserializer` (src/shelley/ledger.cpp:771-873) on an existing object: an unknown
type number leaves it as it was. -/
def Script.deser (old : Script) (data : List Item) : Out Script :=
  match data with
  | t :: _ :: _ =>
    match asUint t with
    | some (_ + 4) => .ok old
    | _ => scriptData data
  | _ => scriptData data

/-! ## TransactionBody (src/shelley/ledger.cpp:875-1029) -/

/-- `TransactionBody` (ledger.hpp:993-1014).  The protocol update is modelled by its presence
only: its content is never serialized or read. -/
structure TxBody where
  inputs : List TxIn := []
  outputs : List TxOut := []
  fee : Nat := 0
  ttl : Nat := 0
  certificates : List Certificate := []
  withdrawals : List (Bytes × Nat) := []
  update : Bool := false
  metadataHash : Option Bytes := none
  deriving DecidableEq, Repr

/-- Key 4 (src/shelley/ledger.cpp:896-904). -/
def certsEntry (cs : List Certificate) : Out (List Item) :=
  if cs = [] then .ok []
  else do
    let l ← mapOut Certificate.ser cs
    .ok [.uint 4, .array (l.map .array)]

/-- The withdrawal map, keys and values alternating (src/shelley/ledger.cpp:909-912). -/
def withdrawalItems : List (Bytes × Nat) → List Item
  | [] => []
  | (a, n) :: rest => .bstr a :: .uint n :: withdrawalItems rest

/-- Key 5 (src/shelley/ledger.cpp:906-914). -/
def withdrawalsEntry (ws : List (Bytes × Nat)) : List Item :=
  if ws = [] then [] else [.uint 5, .map (withdrawalItems ws)]

/-- Key 7 (src/shelley/ledger.cpp:920-928). -/
def metadataEntry : Option Bytes → List Item
  | none => []
  | some h => [.uint 7, .bstr h]

/-- `TransactionBody::serializer` (src/shelley/ledger.cpp:875-931): the map's keys and values. -/
def TxBody.ser (b : TxBody) : Out (List Item) := do
  let cs ← certsEntry b.certificates
  .ok ([.uint 0, .array (b.inputs.map fun i => .array i.ser),
        .uint 1, .array (b.outputs.map fun o => .array o.ser),
        .uint 2, .uint b.fee, .uint 3, .uint b.ttl]
       ++ cs ++ withdrawalsEntry b.withdrawals ++ metadataEntry b.metadataHash)

/-- The elements of the array at a key; none if the key is missing or not an array. -/
def arrayAt (key : Nat) (m : List Item) : List Item :=
  ((lookup key m).bind asArray).getD []

/-- One input: a null dereference if it is not an array (src/shelley/ledger.cpp:948-950). -/
def inputOf (i : Item) : Out TxIn := do
  let l ← deref (asArray i)
  TxIn.deser l

/-- One output (src/shelley/ledger.cpp:961-963). -/
def outputOf (i : Item) : Out TxOut := do
  let l ← deref (asArray i)
  TxOut.deser l

/-- One certificate (src/shelley/ledger.cpp:988-990). -/
def certOf (i : Item) : Out Certificate := do
  let l ← deref (asArray i)
  Certificate.deser .empty l

/-- The loop of src/shelley/ledger.cpp:999-1005. -/
def withdrawalLoop : List Item → List (Bytes × Nat) → Out (List (Bytes × Nat))
  | k :: v :: rest, acc => do
    let a ← deref (asBstr k)
    let n ← deref (asUint v)
    withdrawalLoop rest (mapAssign bytesLt a n acc)
  | _, acc => .ok acc

/-- The unsigned integer at a key, 0 if missing (src/shelley/ledger.cpp:967-979). -/
def uintAt (key : Nat) (m : List Item) : Nat := ((lookup key m).bind asUint).getD 0

/-- The metadata hash at key 7 (src/shelley/ledger.cpp:1016-1027). -/
def hashAt (m : List Item) : Out (Option Bytes) :=
  match (lookup 7 m).bind asBstr with
  | none => .ok none
  | some h => do
    let h ← reqLen .invalidArgument 32 h
    .ok (some h)

/-- `TransactionBody::deserializer` (src/shelley/ledger.cpp:933-1029): every field is reset, then read if
its key is present with the right type. -/
def TxBody.deser (m : List Item) : Out TxBody := do
  let ins ← mapOut inputOf (arrayAt 0 m)
  let outs ← mapOut outputOf (arrayAt 1 m)
  let certs ← mapOut certOf (arrayAt 4 m)
  let ws ← withdrawalLoop (((lookup 5 m).bind asMap).getD []) []
  let h ← hashAt m
  .ok { inputs := ins.foldl (fun s i => setInsert TxIn.lt i s) []
        outputs := outs, fee := uintAt 2 m, ttl := uintAt 3 m, certificates := certs
        withdrawals := ws, update := false, metadataHash := h }

/-! ## TransactionWitnessSet (src/shelley/ledger.cpp:1031-1105) -/

/-- `VkeyWitness` (ledger.hpp:490-491). -/
structure VkeyWitness where
  vkey : Bytes
  sig : Bytes
  deriving DecidableEq, Repr

/-- `BootstrapWitness` (ledger.hpp:414-420). -/
structure BootstrapWitness where
  publicKey : Bytes
  signature : Bytes
  chainCode : Bytes
  attributes : Bytes
  deriving DecidableEq, Repr

/-- `TransactionWitnessSet` (ledger.hpp:1023-1037). -/
structure WitnessSet where
  vkeys : List VkeyWitness := []
  multisig : List Script := []
  bootstrap : List BootstrapWitness := []

/-- One `[vkey, signature]` (src/shelley/ledger.cpp:1039-1042). -/
def VkeyWitness.ser (w : VkeyWitness) : List Item := [.bstr w.vkey, .bstr w.sig]

/-- Key 0 (src/shelley/ledger.cpp:1034-1045). -/
def vkeysEntry (ws : List VkeyWitness) : List Item :=
  if ws = [] then [] else [.uint 0, .array (ws.map fun w => .array w.ser)]

/-- Key 1 (src/shelley/ledger.cpp:1046-1054). -/
def multisigEntry (ss : List Script) : List Item :=
  if ss.isEmpty then [] else [.uint 1, .array (serScripts ss)]

/-- Key 2 (src/shelley/ledger.cpp:1055-1060): always an empty array (`TODO`). -/
def bootstrapEntry (bs : List BootstrapWitness) : List Item :=
  if bs = [] then [] else [.uint 2, .array []]

/-- `TransactionWitnessSet::serializer` (src/shelley/ledger.cpp:1031-1062). -/
def WitnessSet.ser (w : WitnessSet) : List Item :=
  vkeysEntry w.vkeys ++ multisigEntry w.multisig ++ bootstrapEntry w.bootstrap

/-- `util::makeByteArray<N>` (util.hpp): the first `N` bytes.  With fewer bytes the rest of
the array is indeterminate, modelled as undefined behaviour. -/
def byteArray (n : Nat) (b : Bytes) : Out Bytes :=
  if n ≤ b.length then .ok (b.take n) else .ub

/-- One key witness (src/shelley/ledger.cpp:1079-1090). -/
def vkeyOf (l : List Item) : Out VkeyWitness := do
  let i0 ← Cbor.get l 0
  let k ← deref (asBstr i0)
  let k ← byteArray 32 k
  let i1 ← Cbor.get l 1
  let s ← deref (asBstr i1)
  let s ← byteArray 64 s
  .ok ⟨k, s⟩

/-- `TransactionWitnessSet::deserializer` (src/shelley/ledger.cpp:1064-1105): elements of key 0 that are
not arrays are skipped; scripts and bootstrap witnesses are cleared and not read. -/
def WitnessSet.deser (m : List Item) : Out WitnessSet := do
  let ws ← mapOut vkeyOf ((arrayAt 0 m).filterMap asArray)
  .ok { vkeys := ws, multisig := [], bootstrap := [] }

/-! ## Transaction (src/shelley/ledger.cpp:1107-1145) -/

/-- `Transaction` (ledger.hpp:1048-1063).  The metadata is modelled by its presence only: its
content is never serialized or read. -/
structure Tx where
  body : TxBody := {}
  wits : WitnessSet := {}
  metadata : Bool := false

/-- `Transaction::serializer` (src/shelley/ledger.cpp:1107-1121): with metadata present the array has
only two elements. -/
def Tx.ser (t : Tx) : Out (List Item) := do
  let b ← t.body.ser
  .ok ([.map b, .map t.wits.ser] ++ if t.metadata then [] else [.null])

/-- Element 0 (src/shelley/ledger.cpp:1131-1135). -/
def bodyAt (old : TxBody) (i : Option Item) : Out TxBody :=
  match i.bind asMap with
  | none => .ok old
  | some m => TxBody.deser m

/-- Element 1 (src/shelley/ledger.cpp:1137-1141). -/
def witsAt (old : WitnessSet) (i : Option Item) : Out WitnessSet :=
  match i.bind asMap with
  | none => .ok old
  | some m => WitnessSet.deser m

/-- `Transaction::deserializer` (src/shelley/ledger.cpp:1123-1145): elements that are missing or not maps
leave the object's old body or witnesses; the metadata field is not touched. -/
def Tx.deser (old : Tx) (data : List Item) : Out Tx := do
  let b ← bodyAt old.body data[0]?
  let w ← witsAt old.wits data[1]?
  .ok { body := b, wits := w, metadata := old.metadata }

/-! ## `serialize()` / `deserialize()` of each type (serialization.hpp:41-61, 77-97, 113-133) -/

/-- `ArraySerializable::serialize`. -/
def encArray (l : List Item) : Bytes := enc (.array l)
/-- `MapSerializable::serialize`. -/
def encMap (l : List Item) : Bytes := enc (.map l)

/-- `Rational::serialize` (serialization.hpp:117-120). -/
def Rational.serialize (r : Rational) : Bytes := enc r.ser
/-- `Rational::deserialize` (serialization.hpp:124-135). -/
def Rational.deserialize (b : Bytes) : Out Rational := deserializeTag Rational.deser b
/-- `PoolMetadata::serialize` (serialization.hpp:43-46). -/
def PoolMetadata.serialize (m : PoolMetadata) : Bytes := encArray m.ser
/-- `PoolMetadata::deserialize` (serialization.hpp:50-61). -/
def PoolMetadata.deserialize (b : Bytes) : Out PoolMetadata := deserializeArray PoolMetadata.deser b
/-- `Relay::serialize` (serialization.hpp:43-46). -/
def Relay.serialize (r : Relay) : Out Bytes := do let l ← r.ser; .ok (encArray l)
/-- `Relay::deserialize` (serialization.hpp:50-61). -/
def Relay.deserialize (old : Relay) (b : Bytes) : Out Relay := deserializeArray (Relay.deser old) b
/-- `StakeCredential::serialize` (serialization.hpp:43-46). -/
def StakeCredential.serialize (c : StakeCredential) : Bytes := encArray c.ser
/-- `StakeCredential::deserialize` (serialization.hpp:50-61). -/
def StakeCredential.deserialize (b : Bytes) : Out StakeCredential :=
  deserializeArray StakeCredential.deser b
/-- `MoveInstantaneousReward::serialize` (serialization.hpp:43-46). -/
def MIR.serialize (m : MIR) : Bytes := encArray m.ser
/-- `MoveInstantaneousReward::deserialize` (serialization.hpp:50-61). -/
def MIR.deserialize (old : List (StakeCredential × Nat)) (b : Bytes) : Out MIR :=
  deserializeArray (MIR.deser old) b
/-- `Certificate::serialize` (serialization.hpp:43-46). -/
def Certificate.serialize (c : Certificate) : Out Bytes := do let l ← c.ser; .ok (encArray l)
/-- `Certificate::deserialize` (serialization.hpp:50-61). -/
def Certificate.deserialize (old : Certificate) (b : Bytes) : Out Certificate :=
  deserializeArray (Certificate.deser old) b
/-- `TransactionOutput::serialize` (serialization.hpp:43-46). -/
def TxOut.serialize (o : TxOut) : Bytes := encArray o.ser
/-- `TransactionOutput::deserialize` (serialization.hpp:50-61). -/
def TxOut.deserialize (b : Bytes) : Out TxOut := deserializeArray TxOut.deser b
/-- `TransactionInput::serialize` (serialization.hpp:43-46). -/
def TxIn.serialize (i : TxIn) : Bytes := encArray i.ser
/-- `TransactionInput::deserialize` (serialization.hpp:50-61). -/
def TxIn.deserialize (b : Bytes) : Out TxIn := deserializeArray TxIn.deser b
/-- `MultisigScript::serialize` (serialization.hpp:43-46). -/
def Script.serialize (s : Script) : Bytes := encArray s.ser
/-- `MultisigScript::deserialize` (serialization.hpp:50-61). -/
def Script.deserialize (old : Script) (b : Bytes) : Out Script := deserializeArray (Script.deser old) b
/-- `TransactionBody::serialize` (serialization.hpp:80-83). -/
def TxBody.serialize (t : TxBody) : Out Bytes := do let l ← t.ser; .ok (encMap l)
/-- `TransactionBody::deserialize` (serialization.hpp:87-98). -/
def TxBody.deserialize (b : Bytes) : Out TxBody := deserializeMap TxBody.deser b
/-- `TransactionWitnessSet::serialize` (serialization.hpp:80-83). -/
def WitnessSet.serialize (w : WitnessSet) : Bytes := encMap w.ser
/-- `TransactionWitnessSet::deserialize` (serialization.hpp:87-98). -/
def WitnessSet.deserialize (b : Bytes) : Out WitnessSet := deserializeMap WitnessSet.deser b
/-- `Transaction::serialize` (serialization.hpp:43-46). -/
def Tx.serialize (t : Tx) : Out Bytes := do let l ← t.ser; .ok (encArray l)
/-- `Transaction::deserialize` (serialization.hpp:50-61). -/
def Tx.deserialize (old : Tx) (b : Bytes) : Out Tx := deserializeArray (Tx.deser old) b

end Cardano.Ledger
