/-! Kernel-friendly checks of the dictionary tables. -/

namespace Cardano.Mnemonic

/-- The elements whose bit `p` (a power of two) is `v`. -/
noncomputable def filterBit (p v : Nat) (l : List Nat) : List Nat :=
  List.rec [] (fun n _ ih => Bool.rec ih (n :: ih) (Nat.beq (Nat.mod (Nat.div n p) 2) v)) l

theorem filterBit_cons (p v n : Nat) (l : List Nat) : filterBit p v (n :: l) =
    bif Nat.beq (Nat.mod (Nat.div n p) 2) v then n :: filterBit p v l else filterBit p v l := by
  show Bool.rec (motive := fun _ => List Nat) (filterBit p v l) (n :: filterBit p v l) _ = _
  cases Nat.beq (Nat.mod (Nat.div n p) 2) v <;> rfl

/-- `n` is not in the list.  (Written with recursors, as the kernel has to evaluate it.) -/
noncomputable def neAll (n : Nat) (l : List Nat) : Bool :=
  List.rec true (fun m _ ih => Bool.rec ih false (Nat.beq n m)) l

theorem neAll_cons (n m : Nat) (l : List Nat) : neAll n (m :: l) = bif Nat.beq n m then false else neAll n l := by
  have e : ∀ b t : Bool, Bool.rec (motive := fun _ => Bool) t false b = bif b then false else t := by decide
  exact e _ _

/-- Quadratic duplicate test. -/
noncomputable def nodupN : List Nat → Bool
  | [] => true
  | n :: l => bif neAll n l then nodupN l else false

/-- Duplicate test by splitting on bits first. -/
noncomputable def nodupR : Nat → Nat → List Nat → Bool
  | 0, _, l => nodupN l
  | f + 1, p, l => bif nodupR f (Nat.mul p 2) (filterBit p 0 l) then nodupR f (Nat.mul p 2) (filterBit p 1 l) else false

/-- The number is the byte 1 followed by bytes other than the space character. -/
def wordChk : Nat → Nat → Bool
  | 0, _ => false
  | f + 1, n => bif Nat.beq n 1 then true else bif Nat.beq (Nat.mod n 256) 32 then false else wordChk f (Nat.div n 256)

/-- All numbers of the list denote non-empty words without spaces. -/
def allChk : List Nat → Bool
  | [] => true
  | n :: l => bif Nat.ble n 255 then false else bif wordChk 40 n then allChk l else false

/-- Everything needed about one table, as a computation. -/
noncomputable def tableOk (t : List Nat) : Bool :=
  bif Nat.beq t.length 2048 then (bif nodupR 10 1 t then allChk t else false) else false

end Cardano.Mnemonic
