/-!
# Basic vocabulary of the model

Outcomes of Rust functions and the integer operations used by the crate.
The modelled target has 64-bit `usize` and is little-endian (`x86_64`, `aarch64`, `riscv64`).
-/

namespace LinuxLoader

/-- Outcome of a Rust function returning `Result<α, ε>`: `Ok`, `Err`, or a panic (arithmetic overflow
in a build with overflow checks, slice index out of range, ...). Models `std::result::Result` plus the
panic path that Rust leaves implicit. All `Result`s of the crate, e.g. src/cmdline/mod.rs:77,
src/loader/mod.rs:79. -/
inductive Res (ε α : Type) where
  | ok (a : α)
  | err (e : ε)
  | panic
deriving DecidableEq, Repr

namespace Res
variable {ε α β : Type}

/-- The `?` operator: sequencing of results. E.g. src/cmdline/mod.rs:198-199. -/
def bind (x : Res ε α) (f : α → Res ε β) : Res ε β :=
  match x with
  | ok a => f a
  | err e => err e
  | panic => panic

/-- `Result::map`. E.g. src/cmdline/mod.rs:565-567. -/
def map (f : α → β) (x : Res ε α) : Res ε β :=
  match x with
  | ok a => ok (f a)
  | err e => err e
  | panic => panic

/-- `Result::is_ok`. Of the `Result`s of src/cmdline/mod.rs:77, src/loader/mod.rs:79. -/
def isOk : Res ε α → Bool
  | ok _ => true
  | _ => false

@[simp] theorem bind_ok (a : α) (f : α → Res ε β) : (Res.ok a).bind f = f a := rfl
@[simp] theorem bind_err (e : ε) (f : α → Res ε β) : (Res.err e : Res ε α).bind f = .err e := rfl
@[simp] theorem bind_panic (f : α → Res ε β) : (Res.panic : Res ε α).bind f = .panic := rfl

end Res

/-- `Option::ok_or`. E.g. src/cmdline/mod.rs:277, src/loader/elf/mod.rs:229-234. -/
def okOr {ε α : Type} (o : Option α) (e : ε) : Res ε α :=
  match o with
  | some a => .ok a
  | none => .err e

/-- Number of values of a `u64` / `usize` on the modelled target. The types of src/cmdline/mod.rs:149,
433, src/loader/elf/mod.rs:232. -/
def U64 : Nat := 18446744073709551616

/-- `isize::MAX + 1`: no Rust allocation (`String`, `Vec`) is this long. Bounds the `String`s of
src/cmdline/mod.rs:147-148 and the `Vec`s of src/configurator/mod.rs:131-145. -/
def ISZ : Nat := 9223372036854775808

/-- `usize::checked_add` on lengths. src/cmdline/mod.rs:277-281, 328-337, 537-546,
src/loader/elf/mod.rs:232, 291, 366-370, src/loader/bzimage/mod.rs:142, 180, src/loader/pe/mod.rs:188,
203. -/
def checkedAdd (a b : Nat) : Option Nat :=
  if a + b < U64 then some (a + b) else none

/-- Unchecked `usize`/`u64` addition: panics on overflow (overflow checks enabled).
src/cmdline/mod.rs:356-359, 528, src/loader/elf/mod.rs:376, 428. -/
def plainAdd {ε : Type} (a b : Nat) : Res ε Nat :=
  if a + b < U64 then .ok (a + b) else .panic

/-- A guest physical address, `vm_memory::GuestAddress` (a `u64` newtype); also `GuestUsize`. Used
throughout, e.g. src/cmdline/mod.rs:433-434, src/loader/mod.rs:224. -/
abbrev GuestAddr := UInt64

/-- `GuestAddress::checked_add(n as u64)` for a length `n`. The cast `n as u64` is exact because a
length is below `2^64` on the modelled target; a larger `n` cannot occur and is treated as an
overflow. src/configurator/mod.rs:411, src/loader/mod.rs:239. -/
def addrAddNat (a : UInt64) (n : Nat) : Option UInt64 :=
  if a.toNat + n < U64 then some (UInt64.ofNat (a.toNat + n)) else none

end LinuxLoader
