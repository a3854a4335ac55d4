import Verif.Model.Basic

/-! # Model of `SecureByteArray` (include/cardano/secmem.hpp)

Memory is a map from addresses to bytes together with the set of locked pages.  `mlock` and
`munlock` act on all pages a range touches and do not count: one `munlock` undoes any number of
`mlock`s (POSIX: "memory locks do not stack").  Whether the system grants a lock is an input.
The class declares a destructor and a default constructor only, so the copy constructor and the
copy assignment are those of `std::array`.  What the compiler keeps in registers or in
temporaries of its own is not modelled. -/

namespace Cardano.SecMem

/-- Page size. -/
def pageSize : Nat := 4096

/-- The storage of one array. -/
structure Obj where
  addr : Nat
  size : Nat
  deriving DecidableEq, Repr

/-- The addresses of an array. -/
def Obj.has (o : Obj) (a : Nat) : Bool := decide (o.addr ≤ a ∧ a < o.addr + o.size)

/-- The pages `mlock(data(), Size)` acts on. -/
def Obj.touches (o : Obj) (p : Nat) : Bool :=
  decide (0 < o.size ∧ o.addr / pageSize ≤ p ∧ p ≤ (o.addr + o.size - 1) / pageSize)

structure State where
  mem : Nat → UInt8
  locked : Nat → Bool
  live : List Obj

/-- What a program can do with the arrays. -/
inductive Op where
  /-- default constructor; `granted`: does `mlock` succeed -/
  | construct (o : Obj) (granted : Bool)
  /-- copy (or move) constructor: `dst` is new -/
  | copy (src dst : Obj)
  /-- copy (or move) assignment -/
  | assign (src dst : Obj)
  /-- writing through `data()`, iterators or `operator[]` -/
  | write (o : Obj) (data : Nat → UInt8)
  /-- destructor -/
  | destroy (o : Obj)

/-- Set the bytes of an array. -/
def fill (mem : Nat → UInt8) (o : Obj) (f : Nat → UInt8) : Nat → UInt8 :=
  fun a => if o.has a then f (a - o.addr) else mem a

/-- `SecureByteArray()` (include/cardano/secmem.hpp:40-49): zeros, then `mlock`; if that fails
the constructor throws and the destructor does not run. -/
def construct (s : State) (o : Obj) (granted : Bool) : State × Out Unit :=
  let mem := fill s.mem o (fun _ => 0)
  if granted then (⟨mem, fun p => s.locked p || o.touches p, o :: s.live⟩, .ok ())
  else (⟨mem, s.locked, s.live⟩, .throw .runtimeError)

/-- The implicit copy constructor: the bytes, no `mlock` (include/cardano/secmem.hpp:38). -/
def copy (s : State) (src dst : Obj) : State × Out Unit :=
  (⟨fill s.mem dst (fun i => s.mem (src.addr + i)), s.locked, dst :: s.live⟩, .ok ())

/-- The implicit copy assignment (include/cardano/secmem.hpp:38). -/
def assign (s : State) (src dst : Obj) : State × Out Unit :=
  (⟨fill s.mem dst (fun i => s.mem (src.addr + i)), s.locked, s.live⟩, .ok ())

/-- Writing into the array. -/
def write (s : State) (o : Obj) (data : Nat → UInt8) : State × Out Unit :=
  (⟨fill s.mem o data, s.locked, s.live⟩, .ok ())

/-- `~SecureByteArray()` (include/cardano/secmem.hpp:51-55): scrub, then `munlock`. -/
def destroy (s : State) (o : Obj) : State × Out Unit :=
  (⟨fill s.mem o (fun _ => 0), fun p => s.locked p && !o.touches p, s.live.erase o⟩, .ok ())

/-- One operation. -/
def step (s : State) : Op → State × Out Unit
  | .construct o g => construct s o g
  | .copy src dst => copy s src dst
  | .assign src dst => assign s src dst
  | .write o d => write s o d
  | .destroy o => destroy s o

/-- Two arrays share no byte. -/
def Disjoint (o o' : Obj) : Prop := ∀ a, ¬ (o.has a = true ∧ o'.has a = true)

/-- What the language and the allocator guarantee of each operation: new storage overlaps no
live array; arrays used are live; sizes agree (they are part of the type). -/
def Valid (s : State) : Op → Prop
  | .construct o _ => ∀ o' ∈ s.live, Disjoint o o'
  | .copy src dst => src ∈ s.live ∧ src.size = dst.size ∧ ∀ o' ∈ s.live, Disjoint dst o'
  | .assign src dst => src ∈ s.live ∧ dst ∈ s.live ∧ src.size = dst.size
  | .write o _ => o ∈ s.live
  | .destroy o => o ∈ s.live

/-- Run a history (a constructor that throws is caught by the program). -/
inductive Run : State → List Op → State → Prop
  | nil (s) : Run s [] s
  | cons {s op ops s'} : Valid s op → Run (step s op).1 ops s' → Run s (op :: ops) s'

/-- Before any array exists. -/
def initial (mem : Nat → UInt8) : State := ⟨mem, fun _ => false, []⟩

/-- The array an operation brings to life. -/
def Op.creates : Op → Option Obj
  | .construct o _ => some o
  | .copy _ dst => some dst
  | _ => none

end Cardano.SecMem
