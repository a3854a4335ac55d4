import Verif.Model.Ledger

/-! # How failures are reported (C87)

The table of exceptions of the ledger deserializers, in terms of what is wrong with the array that is
read.  `asBstr`, `asTstr`, `asUint`, `asArray`, `asMap` are the views of a CBOR item as a byte string,
text, unsigned integer, array and map. -/

namespace Cardano.Spec.Errors

open Cardano Cardano.Cbor Cardano.Ledger

/-- The complete list of ways a call fails: `runtime_error` exactly if `rt`, `invalid_argument` exactly if
`inv`, undefined behaviour exactly if `ub`; no other exception. -/
structure Reports {α} (x : Out α) (rt inv ub : Prop) : Prop where
  runtime : x = .throw .runtimeError ↔ rt
  invalid : x = .throw .invalidArgument ↔ inv
  undefined : x = .ub ↔ ub
  noOther : ∀ e, x = .throw e → e = .runtimeError ∨ e = .invalidArgument

/-- All exceptions of a call are of this kind. -/
def OnlyThrows {α} (e : Exc) (x : Out α) : Prop := ∀ e', x = .throw e' → e' = e

/-- A text string. -/
def Txt (i : Item) : Prop := ∃ s, asTstr i = some s
/-- An unsigned integer. -/
def Num (i : Item) : Prop := ∃ n, asUint i = some n
/-- A byte string. -/
def Byt (i : Item) : Prop := ∃ b, asBstr i = some b
/-- A byte string of the given length. -/
def BytN (n : Nat) (i : Item) : Prop := ∃ b, asBstr i = some b ∧ b.length = n
/-- An array. -/
def Arr (i : Item) : Prop := ∃ l, asArray i = some l
/-- An array whose elements satisfy `P`. -/
def ArrOf (P : List Item → Prop) (i : Item) : Prop := ∃ l, asArray i = some l ∧ P l

/-- A list of exactly two elements of the given kinds. -/
def Pair (P Q : Item → Prop) (l : List Item) : Prop := ∃ a b, l = [a, b] ∧ P a ∧ Q b

/-- A list of exactly three elements of the given kinds. -/
def Triple (P Q R : Item → Prop) (l : List Item) : Prop := ∃ a b c, l = [a, b, c] ∧ P a ∧ Q b ∧ R c

/-- Anything. -/
def Any (_ : Item) : Prop := True

/-- The number 0 or 1. -/
def Bit (i : Item) : Prop := ∃ n, asUint i = some n ∧ n ≤ 1

/-- The first element of the list not satisfying `Good` satisfies `Bad`. -/
def FirstBad (Good Bad : Item → Prop) (l : List Item) : Prop :=
  ∃ pre x post, l = pre ++ x :: post ∧ (∀ p ∈ pre, Good p) ∧ Bad x

/-- The first seven elements of a pool registration have the right kinds; `m` is the margin, `rest` what
follows the reward account. -/
def PoolHead (l : List Item) (m : Item) (rest : List Item) : Prop :=
  ∃ t a b c d r, l = t :: a :: b :: c :: d :: m :: r :: rest ∧ Byt a ∧ Byt b ∧ Num c ∧ Num d ∧ Arr m ∧ Byt r

/-- Operator and VRF key hash have the right lengths. -/
def PoolHashes (l : List Item) : Prop := ∃ t a b l', l = t :: a :: b :: l' ∧ BytN 28 a ∧ BytN 32 b

/-- A fraction: tag 30 around two numbers, the second not 0. -/
def Fraction (i : Item) : Prop :=
  ∃ j, i = .tag 30 j ∧ ArrOf (Pair Num fun d => ∃ k, asUint d = some k ∧ k ≠ 0) j

/-- A tagged item. -/
def Tagged (i : Item) : Prop := ∃ n j, i = .tag n j

/-- The owners are an array whose first element that is no 28-byte string satisfies `Bad`. -/
def OwnersBad (Bad : Item → Prop) (rest : List Item) : Prop :=
  ∃ j l, rest.head? = some j ∧ asArray j = some l ∧ FirstBad (BytN 28) Bad l

/-- How reading ends. -/
inductive Fate
  | reads
  | throws (e : Exc)
  | undefined

/-- How a call ended. -/
def fate {α} : Out α → Fate
  | .ok _ => .reads
  | .throw e => .throws e
  | .ub => .undefined

/-- How reading a script array ends.  Too few elements, a type that is no number or a malformed key hash are
`invalid_argument`; a malformed list of children or count is `runtime_error`; children are read in order
and the first one that cannot be read decides; a child that is no array, and every `n of k` script with a
count, is undefined behaviour; unknown types are ignored. -/
inductive ScriptEnds : List Item → Fate → Prop
  | none : ScriptEnds [] (.throws .invalidArgument)
  | one {t} : ScriptEnds [t] (.throws .invalidArgument)
  | type {t a r} : ¬ Num t → ScriptEnds (t :: a :: r) (.throws .invalidArgument)
  | key {t a} : asUint t = some 0 → BytN 28 a → ScriptEnds [t, a] .reads
  | badKey {t a r} : asUint t = some 0 → ¬ (r = [] ∧ BytN 28 a) → ScriptEnds (t :: a :: r) (.throws .invalidArgument)
  | extra {t a r} : asUint t = some 1 ∨ asUint t = some 2 → r ≠ [] → ScriptEnds (t :: a :: r) (.throws .runtimeError)
  | notList {t a} : asUint t = some 1 ∨ asUint t = some 2 → ¬ Arr a → ScriptEnds [t, a] (.throws .runtimeError)
  | list {t a cs} (arr : Item → List Item) : asUint t = some 1 ∨ asUint t = some 2 → asArray a = some cs →
      (∀ c ∈ cs, asArray c = some (arr c)) → (∀ c ∈ cs, ScriptEnds (arr c) .reads) → ScriptEnds [t, a] .reads
  | child {t a cs c rest l f} (arr : Item → List Item) : asUint t = some 1 ∨ asUint t = some 2 →
      asArray a = some (cs ++ c :: rest) →
      (∀ c ∈ cs, asArray c = some (arr c)) → (∀ c ∈ cs, ScriptEnds (arr c) .reads) →
      asArray c = some l → ScriptEnds l f → f ≠ .reads → ScriptEnds [t, a] f
  | badChild {t a cs c rest} (arr : Item → List Item) : asUint t = some 1 ∨ asUint t = some 2 →
      asArray a = some (cs ++ c :: rest) →
      (∀ c ∈ cs, asArray c = some (arr c)) → (∀ c ∈ cs, ScriptEnds (arr c) .reads) →
      ¬ Arr c → ScriptEnds [t, a] .undefined
  | count {t a} : asUint t = some 3 → Num a → ScriptEnds [t, a] .undefined
  | badCount {t a r} : asUint t = some 3 → ¬ (r = [] ∧ Num a) → ScriptEnds (t :: a :: r) (.throws .runtimeError)
  | unknown {t a r n} : asUint t = some n → 4 ≤ n → ScriptEnds (t :: a :: r) .reads

/-- A map. -/
def Mp (i : Item) : Prop := ∃ l, asMap i = some l

/-- The first entry of a map (keys and values alternating) that is no 28-byte credential with a number
satisfies `Bad`. -/
inductive EntryBad (Bad : Item → Item → Prop) : List Item → Prop
  | here {k v r} : Bad k v → EntryBad Bad (k :: v :: r)
  | later {k v r} : ArrOf (Pair Bit (BytN 28)) k → Num v → EntryBad Bad r → EntryBad Bad (k :: v :: r)

/-- A reward certificate's array `[source, map]`, and the map's first bad entry satisfies `Bad`. -/
def RewardBad (Bad : Item → Item → Prop) (l : List Item) : Prop :=
  Pair Bit (fun m => ∃ kvs, asMap m = some kvs ∧ EntryBad Bad kvs) l

end Cardano.Spec.Errors
