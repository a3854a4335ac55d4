import Verif.Model.LedgerInto

/-! # What "reading into an object" should mean (C84)

`deserialize` is a member function: `f old = (o, r)` says that called on the object `old` it leaves
the object `o` and has outcome `r`. -/

namespace Cardano.Ledger

open Cardano

/-- The call does what the reading function `x` says: same exception, same undefined behaviour, and on
success the object is the value read. -/
def Agrees {σ} (r : σ × Out Unit) (x : Out σ) : Prop :=
  match x with
  | .ok v => r = (v, .ok ())
  | .throw e => r.2 = .throw e
  | .ub => r.2 = .ub

/-- A failed call leaves the object as it was. -/
def KeepsOnThrow {σ} (f : Member σ Unit) : Prop := ∀ old o e, f old = (o, .throw e) → o = old

/-- After a successful call nothing of the old object is left. -/
def Replaces {σ} (f : Member σ Unit) : Prop :=
  ∀ old old' o, f old = (o, .ok ()) → f old' = (o, .ok ())

/-- The elements of `l` before the first one that cannot be read are read as `ys`, and that one
throws `e`. -/
def FailsAfter {α β} (f : α → Out β) (l : List α) (ys : List β) (e : Exc) : Prop :=
  ∃ a x c, l = a ++ x :: c ∧ mapOut f a = .ok ys ∧ f x = .throw e

end Cardano.Ledger
