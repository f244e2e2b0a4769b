import Verif.Model.Add
import Verif.Model.Mul
import Verif.Model.Conv
import Verif.Model.Rem

/-!
# Operator forms, `almost_eq` and the `num_traits` view

A variable of type `f256` is a location (a number) of a store; a reference `&a` is the location.
Operators return `none` where the code panics.
-/

namespace Verif

/-- The five binary operators: the traits `Add`, `Sub`, `Mul`, `Div`, `Rem`. -/
inductive BinOp
  | add | sub | mul | div | rem

/-- src/binops/add.rs, mul.rs, div.rs, rem.rs: `impl $imp for f256`, the form `a op b` -/
def BinOp.base : BinOp → F256 → F256 → Option F256
  | .add, x, y => F256.add x y
  | .sub, x, y => F256.sub x y
  | .mul, x, y => some (F256.mul x y)
  | .div, x, y => F256.div x y
  | .rem, x, y => F256.rem x y

/-- The contents of the variables. -/
abbrev Store := Nat → F256

/-- Assignment to a variable. -/
def Store.set (s : Store) (a : Nat) (z : F256) : Store := fun c => if c = a then z else s c

/-- src/binops/mod.rs:14-21: `&a op b` -/
def BinOp.refVal (op : BinOp) (s : Store) (a : Nat) (y : F256) : Option F256 := op.base (s a) y

/-- src/binops/mod.rs:22-29: `a op &b` -/
def BinOp.valRef (op : BinOp) (s : Store) (x : F256) (b : Nat) : Option F256 := op.base x (s b)

/-- src/binops/mod.rs:30-37: `&a op &b` -/
def BinOp.refRef (op : BinOp) (s : Store) (a b : Nat) : Option F256 := op.base (s a) (s b)

/-- The right operand `T` of `op=`: an `f256` or a `&f256`. -/
inductive Operand
  | val (y : F256)
  | ref (b : Nat)

/-- src/binops/mod.rs:41-54: `a op= rhs`, that is `*self = base(*self, rhs)` with the form of the
operator selected by the type of `rhs`. The store is left alone if the operator panics. -/
def BinOp.assign (op : BinOp) (s : Store) (a : Nat) : Operand → Option Store
  | .val y => (op.base (s a) y).map fun z => s.set a z
  | .ref b => (op.valRef s (s a) b).map fun z => s.set a z

namespace F256

/-- src/lib.rs:606-608 -/
def almostEq (n : BitVec 8) (x y : F256) : Option Bool := do
  let d ← sub x y
  pure (le d.abs (mul (fromUnsigned n) (ulp x)))

/-- src/num_traits.rs:20-23 -/
def numZero : F256 := ZERO

/-- src/num_traits.rs:25-28 -/
def numIsZero (x : F256) : Bool := eqZero x

/-- src/num_traits.rs:45-48 -/
def numOne : F256 := ONE

/-- src/num_traits.rs:51-54 -/
def numIsOne (x : F256) : Bool := eq x ONE

end F256
end Verif
