import Verif.Vectors.Genesis
import Verif.Model.Tss
import Verif.Lemmas.EllPrime

/-! # Test vectors: threshold signatures

"Integration" of test/test_cardano_tss_api_direct.cpp (draft-hallambaker-threshold-sigs-06), the scalars of
test_cardano_curve25519_api.cpp, and a 2-of-3 run of Shamir sharing.  Tests of the model, as in `Verif.Vectors.Keys`. -/

namespace Cardano.Vectors

open Cardano Cardano.Ed Cardano.Spec Cardano.Real Cardano.Bip32 Cardano.Tss

/-- Division with repeated squaring. -/
def scalarDivFast (a b : Bytes) : Out Bytes :=
  if isZero b then .throw .invalidArgument
  else match !b.all (· == 0) with
    | false => .throw .invalidArgument
    | true => .ok (scalarMul a (le32 (powMod 256 (leNat b) (ellL - 2) ellL 1 % ellL)))

/-- It is `Scalar::operator/`. -/
theorem scalarDivFast_eq (a b : Bytes) : scalarDiv a b = scalarDivFast a b := by
  have h : leNat b ^ (ellL - 2) % ellL = powMod 256 (leNat b) (ellL - 2) ellL 1 % ellL := by
    rw [powMod_eq _ _ _ _ _ (by decide +kernel), Nat.one_mul]
  unfold scalarDiv scalarDivFast scalarInvert
  rw [h]
  cases !b.all (· == 0) <;> rfl

example : fromUint 10 = 10 :: List.replicate 31 0 := by decide +kernel
example : fromUint 0xFFFFFFFFFFFFFFFF = List.replicate 8 0xff ++ List.replicate 24 0 := by decide +kernel
example : fromUintPow 4 0 = fromUint 1 := by decide +kernel
example : fromUintPow 10 4 = fromUint 10000 := by decide +kernel
example : fromUintPow 2 64 = List.replicate 8 0 ++ 1 :: List.replicate 23 0 := by decide +kernel
example : scalarMul (scalarSub zero (fromUint 1)) (scalarSub zero (fromUint 1)) = fromUint 1 := by decide +kernel
example : scalarMul (fromUint 7) (fromUint 6) = fromUint 42 := by decide +kernel
example : scalarSub (fromUint 3) (fromUint 12) = scalarSub zero (fromUint 9) := by decide +kernel
example : scalarDiv (fromUint 12) (fromUint 3) = .ok (fromUint 4) := by rw [scalarDivFast_eq]; decide +kernel
example : (scalarDiv (fromUint 1) (beBytes 32 0x9bf95890e5f78904bdf201398943fe86975df64be2671744827f7d3683aafc0e) >>= fun i => .ok (scalarMul (beBytes 32 0x9bf95890e5f78904bdf201398943fe86975df64be2671744827f7d3683aafc0e) i)) = .ok (fromUint 1) := by rw [scalarDivFast_eq]; decide +kernel
example : scalarDiv (fromUint 12) zero = .throw .invalidArgument := by decide +kernel
example : pointPlus edwards25519 (mulBase edwards25519 (fromUint 2)) (mulBase edwards25519 (fromUint 1)) = .ok (mulBase edwards25519 (fromUint 3)) := by
  rw [← edFast_eq]; decide +kernel
example : pointPlus edwards25519 (2 :: List.replicate 31 0) (mulBase edwards25519 (fromUint 1)) = .throw .invalidArgument := by
  rw [← edFast_eq]; decide +kernel

/-- Alice's key. -/
def alice : Out Prv := fromSeed prims (beBytes 32 0x10aec0c216659b4f7c9dde823e497fd49b14bbf82d9f0c1124d715e343795720)
/-- Bob's key. -/
def bob : Out Prv := fromSeed prims (beBytes 32 0xe5cd3401fd8c0e27814b11dd126850a14b5ad5e1e141d7685f51edb43a84585c)

example : (alice >>= fun k => k.publicKey edwards25519 >>= fun p => .ok p.key) = .ok (beBytes 32 0x4516537c2650cfdaf1a4df4c45dc3d954eb68eeba65a27d6cd5b43c5f40653ed) := by
  rw [← edFast_eq]; decide +kernel
example : (bob >>= fun k => k.publicKey edwards25519 >>= fun p => .ok p.key) = .ok (beBytes 32 0xf15fc078f832492cd964cc2bcf905c4f23eabbf83899c5fef3aa67beabecd25e) := by
  rw [← edFast_eq]; decide +kernel

/-- The composite key. -/
def baseKey (C : Curve) : Out Pub := do
  let a ← alice
  let b ← bob
  let d ← dealer1 2
  d.compositeKey C prims [⟨1, a⟩, ⟨2, b⟩]

example : (baseKey edwards25519 >>= fun p => .ok p.key) = .ok (beBytes 32 0x481a276606af4e3c20a402cd8a13469902b775f8acd47e8968fb68ebd8ef4ac7) := by
  rw [← edFast_eq]; decide +kernel

example : (commitmentFromNonce edwards25519 (beBytes 32 0x39f8335b96fc83f31e469d7814c00f0e13f59f33eebf651b62c6d56c34642b0b) >>= fun r => .ok r.1) = .ok (beBytes 32 0xdfa3d5cc9f946367bb3ec3f7884a0d520020a29013274e470319daecbf74cb14) := by
  rw [← edFast_eq]; decide +kernel
example : (commitmentFromNonce edwards25519 (beBytes 32 0x9bf95890e5f78904bdf201398943fe86975df64be2671744827f7d3683aafc0e) >>= fun r => .ok r.1) = .ok (beBytes 32 0xddc8792abbd872d59df51322c2f1586247dc1939c5ce02fb240bfa64d155bc3e) := by
  rw [← edFast_eq]; decide +kernel
example : aggregateCommitments edwards25519 [beBytes 32 0xdfa3d5cc9f946367bb3ec3f7884a0d520020a29013274e470319daecbf74cb14, beBytes 32 0xddc8792abbd872d59df51322c2f1586247dc1939c5ce02fb240bfa64d155bc3e] = .ok (beBytes 32 0x5ad01c1795ed9b99b8cdce7bee476ea50ea6cf51deda89cbb5f44ce2d50d58fa) := by
  rw [← edFast_eq]; decide +kernel

/-- The signature of the two shares, checked with the composite key. -/
def tssRun (C : Curve) : Out Bool := do
  let a ← alice
  let b ← bob
  let base : Pub := ⟨beBytes 32 0x481a276606af4e3c20a402cd8a13469902b775f8acd47e8968fb68ebd8ef4ac7, List.replicate 32 0⟩
  let msg := ascii "This is a test"
  let sa := signatureShare prims msg (beBytes 32 0x39f8335b96fc83f31e469d7814c00f0e13f59f33eebf651b62c6d56c34642b0b) (beBytes 32 0x5ad01c1795ed9b99b8cdce7bee476ea50ea6cf51deda89cbb5f44ce2d50d58fa) base ⟨1, a⟩
  let sb := signatureShare prims msg (beBytes 32 0x9bf95890e5f78904bdf201398943fe86975df64be2671744827f7d3683aafc0e) (beBytes 32 0x5ad01c1795ed9b99b8cdce7bee476ea50ea6cf51deda89cbb5f44ce2d50d58fa) base ⟨2, b⟩
  let s ← aggregateSignatures [sa, sb]
  return base.verify C prims msg s

example : tssRun edwards25519 = .ok true := by rw [← edFast_eq]; decide +kernel

/-- Lagrange coefficients with the fast division. -/
def lagrangeListFast (ids : List Nat) : List Nat → Out (List Bytes)
  | [] => .ok []
  | i :: is => do
    let nd := (List.range ids.length).foldl (lagrangeStep ids i) (fromUint 1, fromUint 1)
    let c ← scalarDivFast nd.1 nd.2
    let cs ← lagrangeListFast ids is
    return c :: cs

/-- They are the coefficients of the code. -/
theorem lagrangeListFast_eq (ids : List Nat) : ∀ is, lagrangeList ids is = lagrangeListFast ids is
  | [] => rfl
  | i :: is => by
    rw [lagrangeList, lagrangeListFast, lagrangeAt, scalarDivFast_eq, lagrangeListFast_eq ids is]

/-- The coefficients of shares 1 and 3. -/
theorem coefs13 : computeLagrange [1, 3] = lagrangeListFast [1, 3] [0, 1] := by
  rw [← lagrangeListFast_eq]
  simp [computeLagrange, List.mergeSort, List.MergeSort.Internal.splitInTwo, hasAdjacent, lagrange, List.range_succ]

/-- The coefficients of shares 2 and 3. -/
theorem coefs23 : computeLagrange [2, 3] = lagrangeListFast [2, 3] [0, 1] := by
  rw [← lagrangeListFast_eq]
  simp [computeLagrange, List.mergeSort, List.MergeSort.Internal.splitInTwo, hasAdjacent, lagrange, List.range_succ]

/-- Two of three Shamir shares of Alice's seed sign. -/
def sssRun (C : Curve) (use : List Nat) (coefs : Out (List Bytes)) : Out Bool := do
  let d ← dealer2 3 2
  let (base, shares) ← d.splitSeed C prims (fun _ => []) (fun _ => beBytes 32 0x39f8335b96fc83f31e469d7814c00f0e13f59f33eebf651b62c6d56c34642b0b) (beBytes 32 0x10aec0c216659b4f7c9dde823e497fd49b14bbf82d9f0c1124d715e343795720)
  let shares := shares.filter fun s => use.contains s.id
  let coefs ← coefs
  let msg := ascii "This is a test"
  let (c, n) ← commitmentFromNonce C (beBytes 32 0x9bf95890e5f78904bdf201398943fe86975df64be2671744827f7d3683aafc0e)
  let agg ← aggregateCommitments C (shares.map fun _ => c)
  let sig ← aggregateSignatures (List.zipWith (fun s coef => signatureShareCoef prims msg n agg coef base s) shares coefs)
  return base.verify C prims msg sig

example : sssRun edwards25519 [1, 3] (computeLagrange [1, 3]) = .ok true := by rw [← edFast_eq, coefs13]; decide +kernel
example : sssRun edwards25519 [2, 3] (computeLagrange [2, 3]) = .ok true := by rw [← edFast_eq, coefs23]; decide +kernel
/-- One share alone is not enough. -/
example : sssRun edwards25519 [2] (.ok [fromUint 1]) = .ok false := by rw [← edFast_eq]; decide +kernel

end Cardano.Vectors
