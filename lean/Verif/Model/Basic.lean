/-
Common vocabulary of the model: bytes and the three possible outcomes of a
C++ call.
-/

namespace Cardano

/-- C++ `std::vector<uint8_t>`, `std::span<const uint8_t>`, `std::string` and
`std::string_view`: all are finite sequences of 8-bit units. -/
abbrev Bytes := List UInt8

/-- Exception classes thrown by the library (the message text is not modelled). -/
inductive Exc where
  | invalidArgument
  | outOfRange
  | runtimeError
  | domainError
  | badOptional
  | other
  deriving DecidableEq, Repr

/-- Outcome of a C++ call: normal return, exception, or undefined behaviour
(out-of-bounds access, null dereference, division by zero, ...). -/
inductive Out (α : Type _) where
  | ok (a : α)
  | throw (e : Exc)
  | ub
  deriving DecidableEq, Repr

namespace Out

/-- Sequencing: exceptions and undefined behaviour propagate. -/
def bind {α β} (x : Out α) (f : α → Out β) : Out β :=
  match x with
  | ok a => f a
  | throw e => throw e
  | ub => ub

instance : Monad Out where
  pure := ok
  bind := bind

@[simp] theorem ok_bind {α β} (a : α) (f : α → Out β) : (Out.ok a >>= f) = f a := rfl
@[simp] theorem throw_bind {α β} (e : Exc) (f : α → Out β) : (Out.throw e >>= f) = .throw e := rfl
@[simp] theorem ub_bind {α β} (f : α → Out β) : ((Out.ub : Out α) >>= f) = .ub := rfl
@[simp] theorem pure_eq {α} (a : α) : (pure a : Out α) = .ok a := rfl
@[simp] theorem map_ok {α β} (f : α → β) (a : α) : (f <$> (Out.ok a)) = .ok (f a) := rfl
@[simp] theorem map_throw {α β} (f : α → β) (e : Exc) : (f <$> (Out.throw e : Out α)) = .throw e := rfl
@[simp] theorem map_ub {α β} (f : α → β) : (f <$> (Out.ub : Out α)) = .ub := rfl

theorem bind_eq_ok {α β} {x : Out α} {f : α → Out β} {b : β} :
    (x >>= f) = .ok b ↔ ∃ a, x = .ok a ∧ f a = .ok b := by
  cases x <;> simp

/-- The call returned normally. -/
def isOk {α} : Out α → Bool
  | ok _ => true
  | _ => false

/-- The call threw an exception. -/
def isThrow {α} : Out α → Bool
  | throw _ => true
  | _ => false

/-- The call stayed within defined behaviour: it returned or threw. -/
def defined {α} : Out α → Bool
  | ub => false
  | _ => true

/-- Result as an option, forgetting how the call failed. -/
def toOption {α} : Out α → Option α
  | ok a => some a
  | _ => none

end Out

/-- ASCII text as C++ bytes (used to write string literals of the source). -/
def ascii (s : String) : Bytes := s.toList.map (fun c => UInt8.ofNat c.toNat)

/-- `std::tolower` on an `unsigned char` in the "C" locale: only `A`–`Z` change. -/
def toLower (c : UInt8) : UInt8 := if 65 ≤ c ∧ c ≤ 90 then c + 32 else c

/-- A statement about all 256 byte values follows from the finite table. -/
theorem forall_byte {p : UInt8 → Prop} (h : ∀ n : Fin 256, p (UInt8.ofNat n.val)) : ∀ b, p b := by
  intro b
  have := h ⟨b.toNat, b.toNat_lt⟩
  simpa using this

end Cardano
