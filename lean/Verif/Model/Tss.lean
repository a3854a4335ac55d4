import Verif.Model.Bip32

/-! # Model of `src/tss.cpp`, `include/cardano/tss.hpp`, `src/curve25519.cpp`

Randomness (key generation seeds, polynomial coefficients, nonce entropy) is an explicit
argument. -/

namespace Cardano.Tss

open Cardano Cardano.Ed Cardano.Bip32

/-! ## `src/curve25519.cpp` -/

/-- `Scalar::reduce(span<32>)` (src/curve25519.cpp:52-63). -/
def reduce32 (b : Bytes) : Bytes := scalarReduce (b ++ List.replicate 32 0)

/-- `Scalar::reduce(span<64>)` (src/curve25519.cpp:65-72). -/
def reduce64 (b : Bytes) : Bytes := scalarReduce b

/-- `Scalar::fromUint` (src/curve25519.cpp:83-92). -/
def fromUint (v : Nat) : Bytes :=
  (List.range 8).map (fun i => UInt8.ofNat (v >>> (8 * i))) ++ List.replicate 24 0

/-- The loop of `fromUintPow` with `k` multiplications left. -/
def powLoop (value : Bytes) : Nat → Bytes → Bytes
  | 0, result => result
  | k + 1, result => powLoop value k (scalarMul result value)

/-- `Scalar::fromUintPow` (src/curve25519.cpp:94-104). -/
def fromUintPow (v p : Nat) : Bytes :=
  if p = 0 then fromUint 1 else powLoop (fromUint v) (p - 1) (fromUint v)

/-- `Scalar::isZero` (src/curve25519.cpp:106-109). -/
def isZero (s : Bytes) : Bool := s.all (· == 0)

/-- `Scalar::zero` (include/cardano/curve25519.hpp:67). -/
def zero : Bytes := List.replicate 32 0

/-- `Scalar::operator/` (src/curve25519.cpp:150-164). -/
def scalarDiv (a b : Bytes) : Out Bytes :=
  if isZero b then .throw .invalidArgument
  else match scalarInvert b with
    | (_, false) => .throw .invalidArgument
    | (inv, true) => .ok (scalarMul a inv)

/-- `Point::mulBasepoint` (src/curve25519.cpp:166-174): the status is ignored. -/
def mulBase (C : Curve) (s : Bytes) : Bytes := (baseMul C s).1

/-- `Point::operator+`, `EncodedPointAdd` (src/curve25519.cpp:176-199). -/
def pointPlus (C : Curve) (p q : Bytes) : Out Bytes :=
  match pointAdd C p q with
  | some r => .ok r
  | none => .throw .invalidArgument

/-! ## Key shares and dealer -/

/-- `struct KeyShare` (include/cardano/tss.hpp:63-73). -/
structure KeyShare where
  id : Nat
  key : Prv
  deriving DecidableEq, Repr

/-- `enum class KeySharingAlgorithm` (include/cardano/tss.hpp:52-56). -/
inductive Alg where
  | direct | shamir
  deriving DecidableEq, Repr

/-- `class Dealer` (include/cardano/tss.hpp:85-90). -/
structure Dealer where
  n : UInt32
  t : UInt32
  alg : Alg
  deriving DecidableEq, Repr

/-- `validateNumKeyShares` (include/cardano/tss.hpp:93-100). -/
def validateN (n : UInt32) : Out Unit := if n < 1 then .throw .invalidArgument else .ok ()

/-- `validateSignatureThreshold` (include/cardano/tss.hpp:103-111). -/
def validateT (n t : UInt32) : Out Unit := if t < 1 || t > n then .throw .invalidArgument else .ok ()

/-- `Dealer(n, t)` (include/cardano/tss.hpp:144-149) with `autoSelectAlgorithm` (116-124). -/
def dealer2 (n t : UInt32) : Out Dealer := do
  validateN n
  validateT n t
  return ⟨n, t, if t == n then .direct else .shamir⟩

/-- `Dealer(n)` (include/cardano/tss.hpp:154-159). -/
def dealer1 (n : UInt32) : Out Dealer := do
  validateN n
  return ⟨n, n, .direct⟩

/-- `Dealer(n, t, method)` (include/cardano/tss.hpp:168-173) with
`validateAlgorithmSelection` (127-136). -/
def dealer3 (n t : UInt32) (a : Alg) : Out Dealer := do
  validateN n
  validateT n t
  if t != n && a == .direct then .throw .invalidArgument else return ⟨n, t, a⟩

/-- `PrivateKeyToScalar` (src/tss.cpp:98-102). -/
def keyScalar (k : Prv) : Bytes := reduce32 (k.key.take 32)

/-- The domain string hashed into derived keys (src/tss.cpp:113, 388). -/
def extTag : Bytes := ascii "cardano-tss-key-extension-v1"

/-- `Ed25519ScalarToExtendedKey` (src/tss.cpp:104-117). -/
def extKey (P : Prims) (scalar : Bytes) : Prv :=
  prvOfX (scalar ++ P.sha512 (extTag ++ scalar))

/-- Concatenated public key bytes of the shares; `publicKey` may throw
(src/tss.cpp:77-80). -/
def sharePubs (C : Curve) : List KeyShare → Out Bytes
  | [] => .ok []
  | sk :: rest => do
    let p ← sk.key.publicKey C
    let ps ← sharePubs C rest
    return p.key ++ ps

/-- `MakeCompositeChainCode(span<KeyShare>)` (src/tss.cpp:72-83). -/
def chainCodeOf (C : Curve) (P : Prims) (shares : List KeyShare) : Out Bytes := do
  let ps ← sharePubs C shares
  return P.sha256 ps

/-- `MakeCompositeChainCode(span<PublicKey>)` (src/tss.cpp:85-96). -/
def chainCodeOfPubs (P : Prims) (pubs : List Pub) : Bytes :=
  P.sha256 (pubs.map Pub.key).flatten

/-- First point assigned, later ones added (src/tss.cpp:134-141). -/
def accPoint (C : Curve) (i : Nat) (ab p : Bytes) : Out Bytes :=
  if i = 0 then .ok p else pointPlus C ab p

/-- The loop of `Ed25519DirectKeySplit` (src/tss.cpp:129-143); `seeds` are the remaining
random seeds of `PrivateKey::generate`. State: remaining scalar `ss`, point `ab`, shares. -/
def directLoop (C : Curve) (P : Prims) : (seeds : List Bytes) → (i : Nat) → (ss ab : Bytes) → List KeyShare →
    Out (Bytes × Bytes × List KeyShare)
  | [], _, ss, ab, keys => .ok (ss, ab, keys)
  | seed :: rest, i, ss, ab, keys => do
    let ki ← generate P seed
    let ai := keyScalar ki
    let ss := scalarSub ss ai
    let ab ← accPoint C i ab (mulBase C ai)
    directLoop C P rest (i + 1) ss ab (keys ++ [⟨i + 1, ki⟩])

/-- `Ed25519DirectKeySplit` (src/tss.cpp:119-153) for `n` shares; `rand i` is the seed of the
`i`-th generated key. -/
def directSplit (C : Curve) (P : Prims) (rand : Nat → Bytes) (root : Prv) (n : UInt32) : Out (Pub × List KeyShare) := do
  let seeds := (List.range (n - 1).toNat).map rand
  let (ss, ab, keys) ← directLoop C P seeds 0 (keyScalar root) (mulBase C (fromUint 1)) []
  let keys := keys ++ [⟨n.toNat, extKey P ss⟩]
  let ab ← pointPlus C ab (mulBase C ss)
  let cc ← chainCodeOf C P keys
  return (⟨ab, cc⟩, keys)

/-- The inner loop of `Ed25519ShamirKeySplit` (src/tss.cpp:187-191) from `j` on with `k`
iterations left: `ai += coefs[j - 1] * xi^j`; reading past `coefs` is undefined. -/
def evalLoop (coefs : List Bytes) (xi : Nat) : (k j : Nat) → Bytes → Out Bytes
  | 0, _, ai => .ok ai
  | k + 1, j, ai =>
    match coefs[j - 1]? with
    | none => .ub
    | some c => evalLoop coefs xi k (j + 1) (scalarAdd ai (scalarMul c (fromUintPow xi j)))

/-- The outer loop (src/tss.cpp:185-193) over the given identifiers. -/
def shamirShares (P : Prims) (s : Bytes) (t : UInt32) (coefs : List Bytes) : List Nat → Out (List KeyShare)
  | [] => .ok []
  | xi :: rest => do
    let ai ← evalLoop coefs xi (t.toNat - 1) 1 s
    let ks ← shamirShares P s t coefs rest
    return ⟨xi, extKey P ai⟩ :: ks

/-- The identifiers visited by `for (size_t xi = 1; xi < (n + 1); ++xi)`; `n + 1` is
computed in 32 bits (src/tss.cpp:185). -/
def shareIds (n : UInt32) : List Nat := List.range' 1 ((n + 1).toNat - 1)

/-- `Ed25519ShamirKeySplit` with given coefficients (src/tss.cpp:155-196). -/
def shamirSplit (C : Curve) (P : Prims) (root : Prv) (n t : UInt32) (coefs : List Bytes) : Out (Pub × List KeyShare) := do
  let s := keyScalar root
  if isZero s then .throw .invalidArgument
  else if coefs.any isZero then .throw .invalidArgument
  else
    let keys ← shamirShares P s t coefs (shareIds n)
    let pub ← root.publicKey C
    return (pub, keys)

/-- `Dealer::splitRootKey` (src/tss.cpp:303-313) with the random-coefficient overload
(198-209): `coef j` is the `j`-th value of `Scalar::random`. -/
def Dealer.splitRootKey (C : Curve) (P : Prims) (d : Dealer) (rand coef : Nat → Bytes) (root : Prv) :
    Out (Pub × List KeyShare) :=
  match d.alg with
  | .direct => directSplit C P rand root d.n
  | .shamir => shamirSplit C P root d.n d.t ((List.range (d.t.toNat - 1)).map coef)

/-- `Dealer::splitSeed` (src/tss.cpp:296-301). -/
def Dealer.splitSeed (C : Curve) (P : Prims) (d : Dealer) (rand coef : Nat → Bytes) (seed : Bytes) :
    Out (Pub × List KeyShare) := do
  let root ← fromSeed P seed
  d.splitRootKey C P rand coef root

/-- One Lagrange coefficient numerator/denominator step (src/tss.cpp:222-228, 432-438). -/
def lagrangeStep (ids : List Nat) (i : Nat) (nd : Bytes × Bytes) (j : Nat) : Bytes × Bytes :=
  if j ≠ i then
    let xj := fromUint (ids.getD j 0)
    (scalarMul nd.1 xj, scalarSub (scalarMul nd.2 xj) (scalarMul nd.2 (fromUint (ids.getD i 0))))
  else nd

/-- The coefficient of the `i`-th identifier (src/tss.cpp:217-230, 427-440). -/
def lagrangeAt (ids : List Nat) (i : Nat) : Out Bytes :=
  let nd := (List.range ids.length).foldl (lagrangeStep ids i) (fromUint 1, fromUint 1)
  scalarDiv nd.1 nd.2

/-- Coefficients for positions `is`. -/
def lagrangeList (ids : List Nat) : List Nat → Out (List Bytes)
  | [] => .ok []
  | i :: is => do
    let c ← lagrangeAt ids i
    let cs ← lagrangeList ids is
    return c :: cs

/-- `Ed25519ShamirKeyLagrangeCoefficients` (src/tss.cpp:211-233). -/
def lagrange (ids : List Nat) : Out (List Bytes) := lagrangeList ids (List.range ids.length)

/-- Adjacent equal elements (src/tss.cpp:416-422). -/
def hasAdjacent : List Nat → Bool
  | a :: b :: rest => b == a || hasAdjacent (b :: rest)
  | _ => false

/-- `Dealer::computeLagrangeCoefficients` (src/tss.cpp:398-443). -/
def computeLagrange (ids : List Nat) : Out (List Bytes) :=
  match ids.mergeSort with
  | [] => .ok []
  | x :: rest =>
    if x == 0 then .throw .invalidArgument
    else if hasAdjacent (x :: rest) then .throw .invalidArgument
    else lagrange ids

/-- `Ed25519ShamirFilterKeyShares` (src/tss.cpp:235-260). -/
def filterShares : List KeyShare → (acc : List KeyShare) → List KeyShare
  | [], acc => acc
  | k :: rest, acc =>
    if k.id = 0 then filterShares rest acc
    else if acc.any (fun f => f.id == k.id && k.key.key == f.key.key) then filterShares rest acc
    else filterShares rest (acc ++ [k])

/-- `s += ci * yi` over the shares (src/tss.cpp:276-283). -/
def weightedSum : List Bytes → List KeyShare → (s : Bytes) → Bytes
  | c :: cs, k :: ks, s => weightedSum cs ks (scalarAdd s (scalarMul c (keyScalar k.key)))
  | _, _, s => s

/-- `Ed25519ShamirKeyReconstruction` (src/tss.cpp:262-286). -/
def reconstruct (P : Prims) (shares : List KeyShare) (t : UInt32) : Out Prv := do
  let valid := filterShares shares []
  if valid.length < t.toNat then .throw .invalidArgument
  else
    let coeffs ← lagrange (valid.map KeyShare.id)
    return extKey P (weightedSum coeffs valid zero)

/-- Sum of the shares' scalars (src/tss.cpp:377-381). -/
def sumScalars : List KeyShare → (ss : Bytes) → Bytes
  | [], ss => ss
  | k :: ks, ss => sumScalars ks (scalarAdd ss (keyScalar k.key))

/-- `Dealer::compositeSigningKey` (src/tss.cpp:363-396). The threshold is at least 1, so the
direct branch has a first share. -/
def Dealer.compositeSigningKey (C : Curve) (P : Prims) (d : Dealer) (shares : List KeyShare) : Out Prv := do
  if shares.length < d.t.toNat then .throw .invalidArgument
  else match d.alg with
    | .shamir => reconstruct P shares d.t
    | .direct =>
      match shares with
      | [] => .ub
      | k :: ks =>
        let ss := sumScalars ks (keyScalar k.key)
        let cc ← chainCodeOf C P (k :: ks)
        return ⟨ss ++ P.sha256 (extTag ++ ss), cc⟩

/-- Sum of encoded points (src/tss.cpp:329-334, 353-356, 451-454). -/
def sumPoints (C : Curve) : List Bytes → (acc : Bytes) → Out Bytes
  | [], acc => .ok acc
  | p :: ps, acc => do
    let r ← pointPlus C acc p
    sumPoints C ps r

/-- Public keys of the shares added up (src/tss.cpp:325-334). -/
def sumSharePubs (C : Curve) : List KeyShare → (acc : Bytes) → Out Bytes
  | [], acc => .ok acc
  | k :: ks, acc => do
    let p ← k.key.publicKey C
    let r ← pointPlus C acc p.key
    sumSharePubs C ks r

/-- `Dealer::compositeKey(span<KeyShare>)` (src/tss.cpp:315-339). -/
def Dealer.compositeKey (C : Curve) (P : Prims) (d : Dealer) (shares : List KeyShare) : Out Pub := do
  if shares.length < d.t.toNat then .throw .invalidArgument
  else match d.alg with
    | .shamir => do
      let k ← d.compositeSigningKey C P shares
      k.publicKey C
    | .direct =>
      match shares with
      | [] => .ub
      | k :: ks => do
        let p ← k.key.publicKey C
        let pk ← sumSharePubs C ks p.key
        let cc ← chainCodeOf C P (k :: ks)
        return ⟨pk, cc⟩

/-- `Dealer::compositeKey(span<PublicKey>)` (src/tss.cpp:341-361). -/
def Dealer.compositeKeyPubs (C : Curve) (P : Prims) (d : Dealer) (pubs : List Pub) : Out Pub := do
  if pubs.length < d.t.toNat then .throw .invalidArgument
  else match d.alg with
    | .shamir => .throw .invalidArgument
    | .direct =>
      match pubs with
      | [] => .ub
      | p :: ps => do
        let pk ← sumPoints C (ps.map Pub.key) p.key
        return ⟨pk, chainCodeOfPubs P (p :: ps)⟩

/-- `Dealer::aggregateCommitmentShares` (src/tss.cpp:445-456); `commitments[0]` of an empty
vector is undefined. -/
def aggregateCommitments (C : Curve) : List Bytes → Out Bytes
  | [] => .ub
  | c :: cs => sumPoints C cs c

/-- `s_agg += reduce(last 32 bytes)` (src/tss.cpp:472-477). -/
def sumSigs : List Bytes → (s : Bytes) → Bytes
  | [], s => s
  | sig :: sigs, s => sumSigs sigs (scalarAdd s (reduce32 (sig.drop 32)))

/-- `Dealer::aggregateSignatureShares` (src/tss.cpp:458-485). -/
def aggregateSignatures : List Bytes → Out Bytes
  | [] => .ub
  | s0 :: sigs =>
    if (s0 :: sigs).any (fun sig => s0.take 32 != sig.take 32) then .throw .invalidArgument
    else .ok (s0.take 32 ++ sumSigs (s0 :: sigs) zero)

/-! ## Signers -/

/-- `Signer::commitmentShareFromNonce` (src/tss.cpp:496-510): commitment and nonce. -/
def commitmentFromNonce (C : Curve) (nonce : Bytes) : Out (Bytes × Bytes) :=
  if nonce.length ≠ 32 && nonce.length ≠ 64 then .throw .invalidArgument
  else
    let r := if nonce.length = 64 then reduce64 nonce else reduce32 nonce
    .ok (mulBase C r, r)

/-- `Signer::commitmentShareAndNonce(msg, sk)` (src/tss.cpp:522-540) from the random
`seed`. -/
def commitmentAndNonce (C : Curve) (P : Prims) (seed msg : Bytes) (sk : KeyShare) : Out (Bytes × Bytes) :=
  commitmentFromNonce C (P.sha512 (seed ++ sk.key.key.drop 32 ++ msg))

/-- `Signer::signatureShare` without coefficient (src/tss.cpp:542-576). -/
def signatureShare (P : Prims) (msg nonce commitment : Bytes) (pk : Pub) (sk : KeyShare) : Bytes :=
  let s := reduce64 (P.sha512 (commitment ++ pk.key ++ msg))
  let a := reduce32 (sk.key.key.take 32)
  let s := scalarMul s a
  let s := scalarAdd (reduce32 nonce) s
  commitment ++ s

/-- `Signer::signatureShare` with coefficient (src/tss.cpp:578-610). -/
def signatureShareCoef (P : Prims) (msg nonce commitment coef : Bytes) (pk : Pub) (sk : KeyShare) : Bytes :=
  let ci := reduce32 coef
  let k := reduce64 (P.sha512 (commitment ++ pk.key ++ msg))
  let si := reduce32 (sk.key.key.take 32)
  let ri := reduce32 nonce
  let s := scalarAdd ri (scalarMul (scalarMul k ci) si)
  commitment ++ s

/-- `class StatefulSigner` (include/cardano/tss.hpp:337-344). -/
structure Stateful where
  msg : Bytes
  coef : Bytes
  nonce : Bytes
  vkey : Pub
  share : KeyShare
  deriving DecidableEq, Repr

/-- `StatefulSigner(msg, vkey, key)` (include/cardano/tss.hpp:351-361): coefficient 1. -/
def stateful (msg : Bytes) (vkey : Pub) (key : KeyShare) : Stateful :=
  ⟨msg, 1 :: List.replicate 31 0, List.replicate 32 0, vkey, key⟩

/-- `StatefulSigner(msg, vkey, key, coef)` (include/cardano/tss.hpp:368-380). -/
def statefulCoef (msg : Bytes) (vkey : Pub) (key : KeyShare) (coef : Bytes) : Stateful :=
  ⟨msg, coef, List.replicate 32 0, vkey, key⟩

/-- `StatefulSigner::commitmentShare` (src/tss.cpp:621-627): new state and commitment. -/
def Stateful.commitmentShare (C : Curve) (P : Prims) (seed : Bytes) (st : Stateful) : Out (Stateful × Bytes) := do
  let (c, nonce) ← commitmentAndNonce C P seed st.msg st.share
  return ({ st with nonce := nonce }, c)

/-- `StatefulSigner::signatureShare(R)` (src/tss.cpp:629-641). -/
def Stateful.signatureShare (P : Prims) (st : Stateful) (agg : Bytes) : Bytes :=
  signatureShareCoef P st.msg st.nonce agg st.coef st.vkey st.share

/-- `StatefulSigner::signatureShare(R, coef)` (src/tss.cpp:643-656). -/
def Stateful.signatureShareCoef (P : Prims) (st : Stateful) (agg coef : Bytes) : Bytes :=
  Tss.signatureShareCoef P st.msg st.nonce agg coef st.vkey st.share

/-- `StatefulSigner::verifySignature`, `Signer::verifySignature`, `Dealer::verifySignature`
(src/tss.cpp:487-494, 612-619, 658-663). -/
def Stateful.verifySignature (C : Curve) (P : Prims) (st : Stateful) (sig : Bytes) : Bool :=
  st.vkey.verify C P st.msg sig

end Cardano.Tss
