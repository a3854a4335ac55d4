import Verif.Model.Cbor

/-! # Which CBOR trees the deserializers accept, and which make them leave defined behaviour

Written as predicates on CBOR items, without reference to the deserializers: `…Good` are the trees that are read, `…Fatal` those
that make the library follow a null pointer or read beyond an array; every other tree is refused with an exception.  All items are
looked at without their tags (`bare`), as cppbor's accessors do. -/

namespace Cardano.Spec.LedgerFaults

open Cardano Cardano.Cbor

/-- The item under its tags. -/
def bare : Item → Item
  | .tag _ i => bare i
  | i => i

/-- Reading from the front, a fatal element is met before one that is refused. -/
def Meets {α} (good fatal : α → Prop) (l : List α) : Prop :=
  ∃ pre x post, l = pre ++ x :: post ∧ (∀ y ∈ pre, good y) ∧ fatal x

/-- The entries of a map, given as its keys and values alternating. -/
def pairs : List Item → List (Item × Item)
  | k :: v :: rest => (k, v) :: pairs rest
  | _ => []

/-- The value of the first entry with the (untagged) integer key `k`. -/
def valueAt (k : Nat) (m : List Item) : Option Item :=
  ((pairs m).find? fun e => match e.1 with | .uint n => n == k | _ => false).map (·.2)

/-- The elements of the array at key `k`; none if there is no array at this key. -/
def elems (k : Nat) (m : List Item) : List Item :=
  match (valueAt k m).map bare with
  | some (.array l) => l
  | _ => []

/-- The entries of the map at key `k`; none if there is no map at this key. -/
def entries (k : Nat) (m : List Item) : List (Item × Item) :=
  match (valueAt k m).map bare with
  | some (.map l) => pairs l
  | _ => []

def IsUint (i : Item) : Prop := ∃ n, bare i = .uint n
def IsBytes (i : Item) : Prop := ∃ b, bare i = .bstr b
/-- A byte string of exactly `n` bytes. -/
def IsHash (n : Nat) (i : Item) : Prop := ∃ b, bare i = .bstr b ∧ b.length = n
def IsArray (i : Item) : Prop := ∃ l, bare i = .array l

/-- `[0 / 1, 28 bytes]`. -/
def CredGood (l : List Item) : Prop :=
  ∃ a b, l = [a, b] ∧ (bare a = .uint 0 ∨ bare a = .uint 1) ∧ IsHash 28 b

/-- An entry of a reward map that is read. -/
def RewardGood (e : Item × Item) : Prop := (∃ c, bare e.1 = .array c ∧ CredGood c) ∧ IsUint e.2
/-- An entry whose key is no array, or whose value is no number. -/
def RewardFatal (e : Item × Item) : Prop :=
  ¬ IsArray e.1 ∨ (∃ c, bare e.1 = .array c ∧ CredGood c) ∧ ¬ IsUint e.2

/-- `[0 / 1, map]`. -/
def MirGood (l : List Item) : Prop :=
  ∃ a b m, l = [a, b] ∧ (bare a = .uint 0 ∨ bare a = .uint 1) ∧ bare b = .map m ∧ ∀ e ∈ pairs m, RewardGood e
def MirFatal (l : List Item) : Prop :=
  ∃ a b m, l = [a, b] ∧ (bare a = .uint 0 ∨ bare a = .uint 1) ∧ bare b = .map m ∧ Meets RewardGood RewardFatal (pairs m)

/-- The content of a tag 30: two numbers, the second not 0. -/
def FractionGood (i : Item) : Prop :=
  ∃ a b d, bare i = .array [a, b] ∧ IsUint a ∧ bare b = .uint d ∧ d ≠ 0

/-- A pool registration up to its reward account; `margin` and `rest` are what needs more attention. -/
def PoolHead (l : List Item) (margin : Item) (rest : List Item) : Prop :=
  ∃ t i1 i2 i3 i4 i6, l = t :: i1 :: i2 :: i3 :: i4 :: margin :: i6 :: rest ∧
    IsHash 28 i1 ∧ IsHash 32 i2 ∧ IsUint i3 ∧ IsUint i4 ∧ IsArray margin ∧ IsBytes i6

/-- The owners: the next element, if it is an array. -/
def ownerItems (rest : List Item) : List Item :=
  match rest.head?.map bare with
  | some (.array l) => l
  | _ => []

def PoolGood (l : List Item) : Prop :=
  ∃ i rest, PoolHead l (.tag 30 i) rest ∧ FractionGood i ∧ ∀ o ∈ ownerItems rest, IsHash 28 o
/-- The margin has no tag, or an owner is not a byte string. -/
def PoolFatal (l : List Item) : Prop :=
  (∃ a rest, PoolHead l (.array a) rest) ∨
  (∃ i rest, PoolHead l (.tag 30 i) rest ∧ FractionGood i ∧ Meets (IsHash 28) (fun o => ¬ IsBytes o) (ownerItems rest))

/-- What must follow the kind `n` of a certificate `l`: the second element `a` and the others.  Kinds above 6 are accepted
whatever follows. -/
def CertRest (l : List Item) (n : Nat) (a : Item) (rest : List Item) : Prop :=
  match n with
  | 0 | 1 => rest = [] ∧ ∃ c, bare a = .array c ∧ CredGood c
  | 2 => ∃ b, rest = [b] ∧ IsHash 28 b ∧ ∃ c, bare a = .array c ∧ CredGood c
  | 3 => PoolGood l
  | 4 => ∃ b, rest = [b] ∧ IsHash 28 a ∧ IsUint b
  | 5 => False
  | 6 => ∃ c, bare a = .array c ∧ MirGood c
  | _ => True

/-- Certificates that are read: at least two elements, the first the kind. -/
def CertGood (l : List Item) : Prop :=
  ∃ t a rest n, l = t :: a :: rest ∧ bare t = .uint n ∧ CertRest l n a rest

/-- Certificates that are fatal: every genesis key delegation, and some pool registrations and reward movements. -/
def CertFatal (l : List Item) : Prop :=
  ∃ t a rest n, l = t :: a :: rest ∧ bare t = .uint n ∧
    (n = 3 ∧ PoolFatal l ∨ n = 5 ∨ n = 6 ∧ (¬ IsArray a ∨ ∃ c, bare a = .array c ∧ MirFatal c))

/-- Scripts that are read. -/
inductive ScriptGood : Item → Prop
  | pubkey {i t a} : bare i = .array [t, a] → bare t = .uint 0 → IsHash 28 a → ScriptGood i
  | list {i t a l} : bare i = .array [t, a] → (bare t = .uint 1 ∨ bare t = .uint 2) → bare a = .array l →
      (∀ y ∈ l, ScriptGood y) → ScriptGood i
  | unknown {i t a rest n} : bare i = .array (t :: a :: rest) → bare t = .uint n → 4 ≤ n → ScriptGood i

/-- Scripts that are fatal: not an array, an n-of-k script with exactly one further element, or a list of scripts with a fatal
one. -/
inductive ScriptFatal : Item → Prop
  | notArray {i} : ¬ IsArray i → ScriptFatal i
  | nOfK {i t a} : bare i = .array [t, a] → bare t = .uint 3 → IsUint a → ScriptFatal i
  | list {i t a l pre x post} : bare i = .array [t, a] → (bare t = .uint 1 ∨ bare t = .uint 2) → bare a = .array l →
      l = pre ++ x :: post → (∀ y ∈ pre, ScriptGood y) → ScriptFatal x → ScriptFatal i

def InputGood (i : Item) : Prop := ∃ a b, bare i = .array [a, b] ∧ IsHash 32 a ∧ IsUint b
def OutputGood (i : Item) : Prop := ∃ a b, bare i = .array [a, b] ∧ IsBytes a ∧ IsUint b
def CertItemGood (i : Item) : Prop := ∃ l, bare i = .array l ∧ CertGood l
def CertItemFatal (i : Item) : Prop := ¬ IsArray i ∨ ∃ l, bare i = .array l ∧ CertFatal l
def WithdrawalGood (e : Item × Item) : Prop := IsBytes e.1 ∧ IsUint e.2

/-- The metadata hash, if there is a byte string at key 7, has 32 bytes. -/
def MetadataGood (m : List Item) : Prop := ∀ v b, valueAt 7 m = some v → bare v = .bstr b → b.length = 32

/-- Bodies that are read; `m` is the map, keys and values alternating. -/
def BodyGood (m : List Item) : Prop :=
  (∀ i ∈ elems 0 m, InputGood i) ∧ (∀ i ∈ elems 1 m, OutputGood i) ∧ (∀ i ∈ elems 4 m, CertItemGood i) ∧
  (∀ e ∈ entries 5 m, WithdrawalGood e) ∧ MetadataGood m

/-- Bodies that are fatal: inputs, outputs, certificates and withdrawals are read in this order, until one is fatal or refused. -/
def BodyFatal (m : List Item) : Prop :=
  Meets InputGood (fun i => ¬ IsArray i) (elems 0 m) ∨
  (∀ i ∈ elems 0 m, InputGood i) ∧ (Meets OutputGood (fun i => ¬ IsArray i) (elems 1 m) ∨
  (∀ i ∈ elems 1 m, OutputGood i) ∧ (Meets CertItemGood CertItemFatal (elems 4 m) ∨
  (∀ i ∈ elems 4 m, CertItemGood i) ∧ ∃ e ∈ entries 5 m, ¬ WithdrawalGood e))

/-- A key witness: two byte strings of at least 32 and 64 bytes, whatever follows. -/
def WitnessGood (l : List Item) : Prop :=
  ∃ a b rest k s, l = a :: b :: rest ∧ bare a = .bstr k ∧ 32 ≤ k.length ∧ bare b = .bstr s ∧ 64 ≤ s.length

/-- Witness sets are never refused: a key witness that is not good is fatal (elements that are no arrays are skipped). -/
def WitsGood (m : List Item) : Prop := ∀ i ∈ elems 0 m, ∀ l, bare i = .array l → WitnessGood l

/-- What the deserializers look at: the first two elements, where they are maps. -/
def IsMapAt (n : Nat) (l m : List Item) : Prop := ∃ i, l[n]? = some i ∧ bare i = .map m

def TxGood (l : List Item) : Prop := (∀ m, IsMapAt 0 l m → BodyGood m) ∧ ∀ m, IsMapAt 1 l m → WitsGood m
def TxFatal (l : List Item) : Prop :=
  (∃ m, IsMapAt 0 l m ∧ BodyFatal m) ∨
  (∀ m, IsMapAt 0 l m → BodyGood m) ∧ ∃ m, IsMapAt 1 l m ∧ ¬ WitsGood m

/-- The first item of the bytes is an array with these elements (trailing bytes are ignored). -/
def TopArray (b : Bytes) (l : List Item) : Prop := ∃ i, parse b = some i ∧ bare i = .array l
/-- The first item of the bytes is a map with these keys and values alternating. -/
def TopMap (b : Bytes) (l : List Item) : Prop := ∃ i, parse b = some i ∧ bare i = .map l

end Cardano.Spec.LedgerFaults
