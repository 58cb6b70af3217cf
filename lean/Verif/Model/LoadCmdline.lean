import Verif.Model.GuestMem
import Verif.Model.Cmdline

/-! # Model of `load_cmdline`, src/loader/mod.rs -/

namespace LinuxLoader

/-- The errors of `loader::Error` that `load_cmdline` uses, src/loader/mod.rs:64-69. -/
inductive CmdlineLoadError where
  | invalidCommandLine
  | commandLineCopy
  | commandLineOverflow
deriving DecidableEq, Repr

/-- `write_slice(bytes, addr).map_err(|_| e)?`. Calls: src/loader/mod.rs:246,
src/configurator/x86_64/linux.rs:108, src/configurator/x86_64/pvh.rs:163, 170, 176,
src/configurator/fdt.rs:90. -/
def writeSliceOr {ε : Type} (bytes : List UInt8) (a : GuestAddr) (e : ε) : LM Mem ε Unit := fun m =>
  match m.writeSlice bytes a with
  | (true, m') => (.ok (), m')
  | (false, m') => (.err e, m')

/-- `checked_offset(base, n).ok_or(e)?`. Calls: src/configurator/x86_64/linux.rs:105,
src/configurator/x86_64/pvh.rs:160, 167, src/configurator/fdt.rs:85. -/
def checkedOffsetOr {ε : Type} (base : GuestAddr) (n : Nat) (e : ε) : LM Mem ε GuestAddr := fun m =>
  match m.checkedOffset base n with
  | some a => (.ok a, m)
  | none => (.err e, m)

/-- `if end > guest_mem.last_addr() { return Err(CommandLineOverflow) }`, src/loader/mod.rs:240-242. -/
def checkLastAddr (e : GuestAddr) : LM Mem CmdlineLoadError Unit := fun m =>
  if e.toNat > m.lastAddr then (.err .commandLineOverflow, m) else (.ok (), m)

/-- `load_cmdline`, src/loader/mod.rs:222-250. -/
def loadCmdline (a : GuestAddr) (c : Cmdline) : LM Mem CmdlineLoadError Unit := do
  let cs ← LM.ofRes (match c.asCString with
    | .ok b => .ok b
    | .err _ => .err .invalidCommandLine
    | .panic => .panic)
  let bytes := Cmdline.bytesWithNul cs
  -- `bytes.len() - 1` cannot underflow: there is the terminator
  let e ← LM.okOr (addrAddNat a (bytes.length - 1)) .commandLineOverflow
  checkLastAddr e
  writeSliceOr bytes a .commandLineCopy

end LinuxLoader
