import Verif.Model.Basic

/-!
# State and outcome

A Rust function that changes guest memory (or an image reader) and returns a `Result` is modelled by a
function from the state to the outcome *and* the new state. The state reached at an error or a panic
is kept: changes made before a failure persist.
-/

namespace LinuxLoader

/-- Computations with state `σ`, error `ε` and result `α`. The effects of src/loader/mod.rs:176-250,
src/configurator/x86_64/linux.rs:104-109, src/configurator/x86_64/pvh.rs:145-180,
src/configurator/fdt.rs:84-91. -/
def LM (σ ε α : Type) : Type := σ → Res ε α × σ

namespace LM
variable {σ ε ε' α β : Type}

/-- `Ok(a)`. E.g. src/loader/elf/mod.rs:299. -/
def pure (a : α) : LM σ ε α := fun s => (.ok a, s)

/-- The `?` operator. E.g. src/loader/elf/mod.rs:212-219. -/
def bind (x : LM σ ε α) (f : α → LM σ ε β) : LM σ ε β := fun s =>
  match x s with
  | (.ok a, s') => f a s'
  | (.err e, s') => (.err e, s')
  | (.panic, s') => (.panic, s')

/-- `do` notation for the `?` operator, e.g. src/loader/elf/mod.rs:212-219. -/
instance : Monad (LM σ ε) where
  pure := pure
  bind := bind

/-- `return Err(e)`. E.g. src/loader/elf/mod.rs:222-224. -/
def throw (e : ε) : LM σ ε α := fun s => (.err e, s)

/-- A pure outcome. A pure function called at e.g. src/loader/elf/mod.rs:220, 356-357. -/
def ofRes (r : Res ε α) : LM σ ε α := fun s => (r, s)

/-- `Option::ok_or(e)?`. E.g. src/loader/elf/mod.rs:278-282. -/
def okOr (o : Option α) (e : ε) : LM σ ε α :=
  match o with
  | some a => pure a
  | none => throw e

/-- `if !cond { return Err(e); }`. E.g. src/loader/elf/mod.rs:221-225,
src/loader/bzimage/mod.rs:128-135. -/
def require (cond : Bool) (e : ε) : LM σ ε Unit := if cond then pure () else throw e

end LM
end LinuxLoader
