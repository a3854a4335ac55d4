import Verif.Model.Genesis
import Verif.Spec.Json

/-! # What a JSON value means to a program

The whole number a numeral stands for, the string that has these UTF-8 bytes, the map of an object.  `Means` says which
tree of values (`Genesis.J`, with 64-bit whole numbers and doubles) a JSON value of `Spec/Json` stands for, independently of
how it is found. -/

namespace Cardano.Spec.Json

open Cardano.Genesis Cardano.Util

/-- The number written by decimal digits, the most significant one first. -/
def natOf : Bytes → Nat
  | [] => 0
  | d :: ds => (d.toNat - 48) * 10 ^ ds.length + natOf ds

/-- A natural number of 64 bits. -/
def IsNat64 (t : Bytes) : Prop := (∀ c ∈ t, IsDigit c) ∧ natOf t < 2 ^ 64

/-- A whole number of 64 bits with a minus sign. -/
def IsNeg64 (t : Bytes) : Prop := ∃ ds, t = 45 :: ds ∧ (∀ c ∈ ds, IsDigit c) ∧ natOf ds ≤ 2 ^ 63

/-- The UTF-8 bytes of a string. -/
def bytesOf (s : String) : Bytes := s.toUTF8.data.toList

mutual
/-- The tree a value stands for; `double` gives the double nearest to a numeral (none if it is too large). -/
inductive Means (double : Bytes → Option Dbl) : Value → J → Prop
  | null : Means double .null .null
  | bool {b} : Means double (.bool b) (.bool b)
  | nat {t} : IsNat64 t → Means double (.num t) (.uint (natOf t))
  | neg {ds} : IsNeg64 (45 :: ds) → Means double (.num (45 :: ds)) (.sint (-(natOf ds : Int)))
  | real {t d} : ¬ IsNat64 t → ¬ IsNeg64 t → double t = some d → Means double (.num t) (.float d)
  | str {s} : Means double (.str (bytesOf s)) (.str s)
  | arr {l js} : MeansAll double l js → Means double (.arr l) (.arr js)
  /-- an object is a map: the last value of each name counts -/
  | obj {m ms l} : MeansMembers double m ms → List.Pairwise (fun p q => p.1 < q.1) l →
      (∀ k : String, l.lookup k = ms.reverse.lookup k) → Means double (.obj m) (.obj l)
/-- The trees of the elements of an array. -/
inductive MeansAll (double : Bytes → Option Dbl) : List Value → List J → Prop
  | nil : MeansAll double [] []
  | cons {v j l js} : Means double v j → MeansAll double l js → MeansAll double (v :: l) (j :: js)
/-- The names and trees of the members of an object. -/
inductive MeansMembers (double : Bytes → Option Dbl) : List (Bytes × Value) → List (String × J) → Prop
  | nil : MeansMembers double [] []
  | cons {s v j m ms} : Means double v j → MeansMembers double m ms → MeansMembers double ((bytesOf s, v) :: m) ((s, j) :: ms)
end

/-- The JSON value a file begins with; a byte order mark and white space may precede it, anything may follow. -/
def Begins (file : Bytes) (v : Value) : Prop := ∃ bom a b rest, file = bom ++ (a ++ (b ++ rest)) ∧
  (bom = [] ∨ bom = [0xEF, 0xBB, 0xBF]) ∧ Ws a ∧ Val b v

/-- The two values differ only in the order of the members of objects (whose names are all different), at any depth. -/
inductive SameUpToOrder : Value → Value → Prop
  | refl {v} : SameUpToOrder v v
  | trans {u v w} : SameUpToOrder u v → SameUpToOrder v w → SameUpToOrder u w
  | element {l v v' r} : SameUpToOrder v v' → SameUpToOrder (.arr (l ++ v :: r)) (.arr (l ++ v' :: r))
  | member {l k v v' r} : SameUpToOrder v v' → SameUpToOrder (.obj (l ++ (k, v) :: r)) (.obj (l ++ (k, v') :: r))
  | order {m m'} : m.Perm m' → (m.map Prod.fst).Nodup → SameUpToOrder (.obj m) (.obj m')

end Cardano.Spec.Json
