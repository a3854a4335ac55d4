import Verif.Model.Ledger
import Verif.Model.Address
import Verif.Model.Bip32
import Verif.Spec.Crypto

/-! # Model of the Shelley transaction builder

`src/shelley/transaction.cpp`, `include/cardano/transaction.hpp:67-380`.

A builder call is modelled by the builder it leaves behind **and** its outcome, so that a
caller that catches an exception and goes on is covered.  Loops without an evident bound
(`calculateFee`, `updateFee`) take a bound on their number of rounds; `none` means the bound
was reached, so "runs for ever" is `none` for every bound.  `int64_t` values are `Int`s,
signed overflow is undefined behaviour; `uint64_t`/`size_t` values are `Nat`s below 2^64. -/

namespace Cardano.TxBuilder

open Cardano Cardano.Ledger Cardano.Address

/-- The third-party primitives: Blake2b-256 and Ed25519 (`S`), the curve and hashes of
BIP32-Ed25519 signing (`C`, `P`). -/
structure Env where
  S : SigHash
  C : Ed.Curve
  P : Bip32.Prims

/-- The two kinds of signing key accepted by `sign` (transaction.hpp:285-292). -/
inductive SKey where
  | ed (seed : Bytes)
  | bip (k : Bip32.Prv)

/-- `UTxO` (transaction.hpp:68-112). -/
structure UTxO where
  id : Bytes
  index : Nat
  value : Nat
  deriving DecidableEq, Repr

/-- `TransactionBuilder` (transaction.hpp:115-143).  `pool_deposit_`, `key_deposit_` and
`era_` are never read. -/
structure Builder where
  tx : Tx := {}
  changeAddr : Bytes := []
  minFeeA : Int := 44
  minFeeB : Int := 155381
  inputTotal : Int := 0
  depositTotal : Int := 0

/-- `min_utxo_` (transaction.hpp:132); there is no setter. -/
def minUtxo : Int := 1000000

/-! ## 64-bit integers -/

/-- `static_cast<uint64_t>` of an `int64_t`. -/
def u64 (x : Int) : Nat := (x % 2 ^ 64).toNat

/-- `static_cast<int64_t>` of a `uint64_t` (two's complement, C++20). -/
def i64 (n : Nat) : Int := if n % 2 ^ 64 < 2 ^ 63 then (n % 2 ^ 64 : Nat) else (n % 2 ^ 64 : Nat) - 2 ^ 64

/-- Signed addition: overflow is undefined behaviour. -/
def addI64 (a b : Int) : Out Int :=
  if - 2 ^ 63 ≤ a + b ∧ a + b < 2 ^ 63 then .ok (a + b) else .ub

/-- `int64_t += uint64_t`: the sum is taken in `uint64_t` and converted back. -/
def addMixed (a : Int) (n : Nat) : Int := i64 (u64 a + n)

/-! ## The simple calls -/

/-- What a call does: the builder afterwards and its outcome; `none`: the bound on the
rounds of a loop was reached. -/
abbrev Res := Option (Builder × Out Unit)

/-- `clearWitnessSet` (src/shelley/transaction.cpp:375-381). -/
def clearWitnessSet (b : Builder) : Builder :=
  { b with tx := { b.tx with wits := { b.tx.wits with vkeys := [] } } }

/-- Replace the body. -/
def setBody (b : Builder) (f : TxBody → TxBody) : Builder :=
  { b with tx := { b.tx with body := f b.tx.body } }

/-- The ledger input of a UTxO (src/shelley/transaction.cpp:62-64). -/
def UTxO.input (u : UTxO) : TxIn := ⟨u.id.take 32, u.index⟩

/-- `addInput` (src/shelley/transaction.cpp:56-70): the set ignores an input it already has, but the
value is added to the total every time. -/
def addInput (b : Builder) (u : UTxO) : Builder × Out Unit :=
  if u.id.length < 32 then (b, .throw .invalidArgument)
  else
    let b := clearWitnessSet b
    let b := setBody b fun t => { t with inputs := setInsert TxIn.lt u.input t.inputs }
    ({ b with inputTotal := addMixed b.inputTotal u.value }, .ok ())

/-- `addOutput` (src/shelley/transaction.cpp:72-94), the address as bytes. -/
def addOutput (b : Builder) (addr : Bytes) (amount : Nat) : Builder :=
  setBody (clearWitnessSet b) fun t => { t with outputs := t.outputs ++ [⟨addr, amount⟩] }

/-- `addWithdrawal` (src/shelley/transaction.cpp:96-105): a second withdrawal for an address replaces the
first, but both amounts are added to the total. -/
def addWithdrawal (b : Builder) (a : Single) (amount : Nat) : Builder :=
  let b := setBody (clearWitnessSet b) fun t =>
    { t with withdrawals := mapAssign bytesLt a.toBytes amount t.withdrawals }
  { b with inputTotal := addMixed b.inputTotal amount }

/-- `certificates.emplace_back` followed by the deposit, as in all certificate functions
(src/shelley/transaction.cpp:111-112, 120, 138-139, 156, 179): the witnesses are kept. -/
def addCert (b : Builder) (c : Certificate) (deposit : Nat) : Builder :=
  let b := setBody b fun t => { t with certificates := t.certificates ++ [c] }
  { b with depositTotal := addMixed b.depositTotal deposit }

/-- The key credential of a rewards address (src/shelley/transaction.cpp:129-133, 147-151, 165-169). -/
def credOf (a : Single) : StakeCredential := ⟨.keyHash, a.key.take 28⟩

/-- `addPoolRegistrationCertificate` (src/shelley/transaction.cpp:107-115). -/
def addPoolRegistration (b : Builder) (p : PoolParams) (deposit : Nat) : Builder :=
  addCert b (.poolReg p) deposit
/-- `addPoolRetirementCertificate` (src/shelley/transaction.cpp:117-122). -/
def addPoolRetirement (b : Builder) (pool : Bytes) (epoch : Nat) : Builder :=
  addCert b (.poolRetire pool epoch) 0
/-- `addStakeRegistrationCertificate` (src/shelley/transaction.cpp:124-141). -/
def addStakeRegistration (b : Builder) (a : Single) (deposit : Nat) : Builder :=
  addCert b (.stakeReg (credOf a)) deposit
/-- `addStakeDeregistrationCertificate` (src/shelley/transaction.cpp:143-158). -/
def addStakeDeregistration (b : Builder) (a : Single) : Builder :=
  addCert b (.stakeDereg (credOf a)) 0
/-- `addStakeDelegationCertificate` (src/shelley/transaction.cpp:160-181). -/
def addStakeDelegation (b : Builder) (a : Single) (pool : Bytes) : Builder :=
  addCert b (.delegation (credOf a) pool) 0

/-- `setFee` (src/shelley/transaction.cpp:183-188). -/
def setFee (b : Builder) (fee : Nat) : Builder :=
  setBody (clearWitnessSet b) fun t => { t with fee := fee }

/-- `setTtl` (src/shelley/transaction.cpp:209-214). -/
def setTtl (b : Builder) (ttl : Nat) : Builder :=
  setBody (clearWitnessSet b) fun t => { t with ttl := ttl }

/-- `fromCBOR` / the constructor from a transaction (src/shelley/transaction.cpp:48-54,
transaction.hpp:152): the totals start at zero whatever the transaction contains. -/
def ofTx (t : Tx) : Builder := { tx := t }

/-- `fromCBOR` (src/shelley/transaction.cpp:48-54). -/
def fromCBOR (bytes : Bytes) : Out Builder := do
  let t ← Tx.deserialize {} bytes
  .ok (ofTx t)

/-! ## Fees -/

/-- The transaction with `n` dummy key witnesses (src/shelley/transaction.cpp:416-431).  The random bytes
are replaced by zeros: only their number matters (`size_wits` in `Props/TxFee.lean`). -/
def dummyTx (t : Tx) (n : Nat) : Tx :=
  { t with wits := { t.wits with vkeys := List.replicate n ⟨List.replicate 32 0, List.replicate 64 0⟩ } }

/-- `temp_tx.serialize().size()` after setting the fee. -/
def sizeWithFee (t : Tx) (fee : Nat) : Out Nat := do
  let s ← Tx.serialize { t with body := { t.body with fee := fee } }
  .ok s.length

/-- `a * size + b` in `uint64_t` (src/shelley/transaction.cpp:433, 437). -/
def feeFor (a b size : Nat) : Nat := (a * size + b) % 2 ^ 64

/-- The loop of src/shelley/transaction.cpp:434-438: `fee` is the fee in the copy, `cf` the calculated
one. -/
def feeLoop (t : Tx) (a b : Nat) : Nat → Nat → Nat → Option (Out Nat)
  | 0, _, _ => none
  | k + 1, fee, cf =>
    if cf = fee then some (.ok cf)
    else match sizeWithFee t cf with
      | .ok s => feeLoop t a b k cf (feeFor a b s)
      | .throw e => some (.throw e)
      | .ub => some .ub

/-- `calculateFee` (src/shelley/transaction.cpp:410-441). -/
def calculateFee (k : Nat) (b : Builder) (n : Nat) : Option (Out Nat) :=
  match sizeWithFee (dummyTx b.tx n) b.tx.body.fee with
  | .ok s => feeLoop (dummyTx b.tx n) (u64 b.minFeeA) (u64 b.minFeeB) k b.tx.body.fee
      (feeFor (u64 b.minFeeA) (u64 b.minFeeB) s)
  | .throw e => some (.throw e)
  | .ub => some .ub

/-- The loop of src/shelley/transaction.cpp:200-204; `r` bounds its rounds, `k` those of `calculateFee`. -/
def updateLoop (k n : Nat) : Nat → Builder → Nat → Res
  | 0, _, _ => none
  | r + 1, b, cf =>
    if cf = b.tx.body.fee then some (b, .ok ())
    else match calculateFee k (setFee b cf) n with
      | none => none
      | some (.ok f) => updateLoop k n r (setFee b cf) f
      | some (.throw e) => some (setFee b cf, .throw e)
      | some .ub => some (setFee b cf, .ub)

/-- `updateFee` (src/shelley/transaction.cpp:190-207). -/
def updateFee (k : Nat) (b : Builder) (n : Nat) : Res :=
  let b := setFee b (u64 b.minFeeB)
  match calculateFee k b n with
  | none => none
  | some (.ok f) => updateLoop k n k b f
  | some (.throw e) => some (b, .throw e)
  | some .ub => some (b, .ub)

/-! ## Balancing -/

/-- The summation loop of `totalOutgoing`. -/
def sumOutputs : List TxOut → Int → Out Int
  | [], acc => .ok acc
  | o :: l, acc => do
    let s ← addI64 acc (i64 o.amount)
    sumOutputs l s

/-- `totalOutgoing` (src/shelley/transaction.cpp:216-225). -/
def totalOutgoing (b : Builder) : Out Int := do
  let s ← addI64 b.depositTotal (i64 b.tx.body.fee)
  sumOutputs b.tx.body.outputs s

/-- `input_total_ - totalOutgoing()` (src/shelley/transaction.cpp:238). -/
def change (b : Builder) : Out Int := do
  let s ← totalOutgoing b
  addI64 b.inputTotal (-s)

/-- Reduce the last output, or drop it if it would become too small
(src/shelley/transaction.cpp:259-276).  `outs` must not be empty. -/
def shrinkLast (outs : List TxOut) (change : Int) : Out (List TxOut) :=
  match outs.getLast? with
  | none => .ub
  | some o => do
    let new ← addI64 (i64 o.amount) change
    .ok (if new < minUtxo then outs.dropLast else outs.dropLast ++ [⟨o.address, u64 new⟩])

/-- Replace the outputs without touching the witnesses. -/
def setOutputs (b : Builder) (outs : List TxOut) : Builder := setBody b fun t => { t with outputs := outs }

/-- One round's decision once the change is known (src/shelley/transaction.cpp:239-310): go on with a new
builder, or stop. -/
inductive Next where
  | again (b : Builder)
  | stop (b : Builder) (r : Out Unit)

/-- The branch `change < 0` (src/shelley/transaction.cpp:244-278). -/
def onNegative (b : Builder) (c : Int) : Next :=
  if b.tx.body.outputs = [] then .stop b (.throw .runtimeError)
  else match shrinkLast b.tx.body.outputs c with
    | .ok outs => .again (setOutputs b outs)
    | .throw e => .stop b (.throw e)
    | .ub => .stop b .ub

/-- The forced balance (src/shelley/transaction.cpp:295-309): waste the change as fee. -/
def forceFee (k n : Nat) (b : Builder) (c : Int) : Option Next :=
  let b := setBody b fun t => { t with fee := (t.fee + u64 c) % 2 ^ 64 }
  match calculateFee k b n with
  | none => none
  | some (.ok f) => if b.tx.body.fee < f then some (.stop b (.throw .runtimeError)) else some (.stop b (.ok ()))
  | some (.throw e) => some (.stop b (.throw e))
  | some .ub => some (.stop b .ub)

/-- The branch `change > 0` (src/shelley/transaction.cpp:279-310). -/
def onPositive (k n : Nat) (force first : Bool) (b : Builder) (c : Int) : Option Next :=
  if first = true ∧ c > minUtxo then
    some (.again (setOutputs b (b.tx.body.outputs ++ [⟨b.changeAddr, u64 c⟩])))
  else if force then forceFee k n b c
  else some (.again b)

/-- The body of the loop after `updateFee` (src/shelley/transaction.cpp:238-310). -/
def balanceStep (k n : Nat) (force first : Bool) (b : Builder) : Option Next :=
  match change b with
  | .ok c =>
    if c = 0 then some (.stop b (.ok ()))
    else if c < 0 then some (onNegative b c)
    else onPositive k n force first b c
  | .throw e => some (.stop b (.throw e))
  | .ub => some (.stop b .ub)

/-- The loop of `balance` (src/shelley/transaction.cpp:229-312) with `r` rounds left; `first` is `i == 0`. -/
def balanceLoop (k n : Nat) (force : Bool) : Nat → Bool → Builder → Res
  | 0, _, b => some (b, .throw .runtimeError)
  | r + 1, first, b =>
    match updateFee k b n with
    | none => none
    | some (b, .throw e) => some (b, .throw e)
    | some (b, .ub) => some (b, .ub)
    | some (b, .ok _) =>
      match balanceStep k n force first b with
      | none => none
      | some (.stop b o) => some (b, o)
      | some (.again b) => balanceLoop k n force r false b

/-- `balance` (src/shelley/transaction.cpp:227-313): at most 100 rounds. -/
def balance (k : Nat) (b : Builder) (n : Nat) (force : Bool) : Res := balanceLoop k n force 100 true b

/-! ## Signing -/

/-- `getID` (src/shelley/transaction.cpp:383-391). -/
def getID (E : Env) (b : Builder) : Out Bytes := do
  let s ← b.tx.body.serialize
  .ok (E.S.hash s)

/-- `skey.publicKey().bytes()`. -/
def SKey.pub (E : Env) : SKey → Out Bytes
  | .ed seed => .ok (E.S.pub seed)
  | .bip k => do
    let p ← k.publicKey E.C
    .ok p.key

/-- `skey.sign(msg)`. -/
def SKey.sign (E : Env) (msg : Bytes) : SKey → Out Bytes
  | .ed seed => .ok (E.S.sign seed msg)
  | .bip k => k.sign E.C E.P msg

/-- `makeWitness` (src/shelley/transaction.cpp:393-403). -/
def makeWitness (E : Env) (b : Builder) (k : SKey) : Out Bytes := do
  let id ← getID E b
  k.sign E id

/-- The new witness list (src/shelley/transaction.cpp:326-340): erase the key's old witnesses, append. -/
def replaceWitness (ws : List VkeyWitness) (key sig : Bytes) : List VkeyWitness :=
  ws.filter (fun w => !(w.vkey == key)) ++ [⟨key, sig⟩]

/-- `makeWitness` and the public key (src/shelley/transaction.cpp:319-322). -/
def witnessFor (E : Env) (b : Builder) (k : SKey) : Out (Bytes × Bytes) := do
  let sig ← makeWitness E b k
  let key ← k.pub E
  .ok (key, sig)

/-- `sign` (src/shelley/transaction.cpp:315-373). -/
def sign (E : Env) (b : Builder) (k : SKey) : Builder × Out Unit :=
  match witnessFor E b k with
  | .ok (key, sig) =>
    ({ b with tx := { b.tx with wits := { b.tx.wits with vkeys := replaceWitness b.tx.wits.vkeys key sig } } }, .ok ())
  | .throw e => (b, .throw e)
  | .ub => (b, .ub)

/-! ## Histories -/

/-- Every public mutating call of the builder (transaction.hpp:172-360). -/
inductive Op where
  | addInput (u : UTxO)
  | addOutputBase (a : Base) (amount : Nat)
  | addOutputEnterprise (a : Single) (amount : Nat)
  | addWithdrawal (a : Single) (amount : Nat)
  | poolRegistration (p : PoolParams) (deposit : Nat)
  | poolRetirement (pool : Bytes) (epoch : Nat)
  | stakeRegistration (a : Single) (deposit : Nat)
  | stakeDeregistration (a : Single)
  | stakeDelegation (a : Single) (pool : Bytes)
  | setFee (fee : Nat)
  | updateFee (n : Nat)
  | setTtl (ttl : Nat)
  | setChangeBase (a : Base)
  | setChangeEnterprise (a : Single)
  | setMinFeeA (x : Int)
  | setMinFeeB (x : Int)
  | balance (n : Nat) (force : Bool)
  | sign (k : SKey)
  | clearWitnessSet

/-- One call. -/
def step (E : Env) (k : Nat) (b : Builder) : Op → Res
  | .addInput u => some (addInput b u)
  | .addOutputBase a amount => some (addOutput b a.toBytes amount, .ok ())
  | .addOutputEnterprise a amount => some (addOutput b a.toBytes amount, .ok ())
  | .addWithdrawal a amount => some (addWithdrawal b a amount, .ok ())
  | .poolRegistration p deposit => some (addPoolRegistration b p deposit, .ok ())
  | .poolRetirement pool epoch => some (addPoolRetirement b pool epoch, .ok ())
  | .stakeRegistration a deposit => some (addStakeRegistration b a deposit, .ok ())
  | .stakeDeregistration a => some (addStakeDeregistration b a, .ok ())
  | .stakeDelegation a pool => some (addStakeDelegation b a pool, .ok ())
  | .setFee fee => some (setFee b fee, .ok ())
  | .updateFee n => updateFee k b n
  | .setTtl ttl => some (setTtl b ttl, .ok ())
  | .setChangeBase a => some ({ b with changeAddr := a.toBytes }, .ok ())
  | .setChangeEnterprise a => some ({ b with changeAddr := a.toBytes }, .ok ())
  | .setMinFeeA x => some ({ b with minFeeA := x }, .ok ())
  | .setMinFeeB x => some ({ b with minFeeB := x }, .ok ())
  | .balance n force => balance k b n force
  | .sign key => some (sign E b key)
  | .clearWitnessSet => some (clearWitnessSet b, .ok ())

/-- A history of calls on one builder.  The caller may catch exceptions and go on; it stops
at undefined behaviour or an endless loop (`none`). -/
def run (E : Env) (k : Nat) (b : Builder) : List Op → Option Builder
  | [] => some b
  | op :: ops =>
    match step E k b op with
    | none => none
    | some (_, .ub) => none
    | some (b', _) => run E k b' ops

end Cardano.TxBuilder
