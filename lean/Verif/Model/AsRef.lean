import Verif.Model.Cmdline

/-!
# Builder calls with arbitrary arguments

The builder calls of `src/cmdline/mod.rs` are generic over `T: AsRef<str>`. `as_ref` is code of the caller:
with interior mutability it can give another string at every call, and it can panic. `Model/Cmdline.lean`
takes the strings themselves; here the calls of `as_ref` are explicit.
-/

namespace LinuxLoader

/-- The caller's arguments: what the `i`-th call of `as_ref` (counted over all arguments) gives if it
is made on argument `a`; `none` is a panic. The `T: AsRef<str>` of src/cmdline/mod.rs:194, 226, 265,
317. -/
abbrev AsRefEnv := Nat → Nat → Option Str

/-- The calls of `as_ref` made so far: the argument and what it gave. No counterpart in the code: a
record of the calls of `as_ref` at src/cmdline/mod.rs:195-196, 227, 239-240, 268, 320. -/
abbrev AsRefLog := List (Nat × Option Str)

/-- A call of `as_ref` on argument `a` (every `.as_ref()` in src/cmdline/mod.rs). -/
def asRef (env : AsRefEnv) (a : Nat) (log : AsRefLog) : Res CmdlineError Str × AsRefLog :=
  match env a log.length with
  | some s => (.ok s, log ++ [(a, some s)])
  | none => (.panic, log ++ [(a, none)])

namespace Cmdline

/-- `Cmdline::insert_str`, src/cmdline/mod.rs:265-295: one `as_ref` (line 268). -/
def insertStrDyn (env : AsRefEnv) (c : Cmdline) (slug : Nat) (log : AsRefLog) :
    Cmdline × Res CmdlineError Unit × AsRefLog :=
  match asRef env slug log with
  | (.ok s, log) => ((c.insertStr s).1, (c.insertStr s).2, log)
  | (.err e, log) => (c, .err e, log)
  | (.panic, log) => (c, .panic, log)

/-- `Cmdline::insert_init_args`, src/cmdline/mod.rs:317-351: one `as_ref` (line 320). -/
def insertInitArgsDyn (env : AsRefEnv) (c : Cmdline) (slug : Nat) (log : AsRefLog) :
    Cmdline × Res CmdlineError Unit × AsRefLog :=
  match asRef env slug log with
  | (.ok s, log) => ((c.insertInitArgs s).1, (c.insertInitArgs s).2, log)
  | (.err e, log) => (c, .err e, log)
  | (.panic, log) => (c, .panic, log)

/-- `Cmdline::insert`, src/cmdline/mod.rs:194-204: one `as_ref` on the key (line 195), one on the value
(line 196); the rest works on the two strings. `insert_str` gets a `String`, whose `as_ref` (std) is pure. -/
def insertDyn (env : AsRefEnv) (c : Cmdline) (key val : Nat) (log : AsRefLog) :
    Cmdline × Res CmdlineError Unit × AsRefLog :=
  match asRef env key log with
  | (.ok k, log) =>
    match asRef env val log with
    | (.ok v, log) =>
      match (validKey k).bind fun _ => validValue v with
      | .ok _ => ((c.insertStr (k ++ ['='] ++ v)).1, (c.insertStr (k ++ ['='] ++ v)).2, log)
      | .err e => (c, .err e, log)
      | .panic => (c, .panic, log)
    | (.err e, log) => (c, .err e, log)
    | (.panic, log) => (c, .panic, log)
  | (.err e, log) => (c, .err e, log)
  | (.panic, log) => (c, .panic, log)

/-- The `map(...).collect()` of src/cmdline/mod.rs:237-242: per value one `as_ref` for the validation
(line 239) and another one for the string that is collected (line 240). -/
def validateValuesDyn (env : AsRefEnv) : List Nat → AsRefLog → Res CmdlineError (List Str) × AsRefLog
  | [], log => (.ok [], log)
  | a :: as, log =>
    match asRef env a log with
    | (.ok v, log) =>
      match validValue v with
      | .ok _ =>
        match asRef env a log with
        | (.ok w, log) =>
          match validateValuesDyn env as log with
          | (.ok ws, log) => (.ok (w :: ws), log)
          | (.err e, log) => (.err e, log)
          | (.panic, log) => (.panic, log)
        | (.err e, log) => (.err e, log)
        | (.panic, log) => (.panic, log)
      | .err e => (.err e, log)
      | .panic => (.panic, log)
    | (.err e, log) => (.err e, log)
    | (.panic, log) => (.panic, log)

/-- `Cmdline::insert_multiple`, src/cmdline/mod.rs:226-247. -/
def insertMultipleDyn (env : AsRefEnv) (c : Cmdline) (key : Nat) (vals : List Nat) (log : AsRefLog) :
    Cmdline × Res CmdlineError Unit × AsRefLog :=
  match asRef env key log with
  | (.ok k, log) =>
    match validKey k with
    | .ok _ =>
      if vals = [] then (c, .err (.missingVal k), log)
      else
        match validateValuesDyn env vals log with
        | (.ok ws, log) =>
          ((c.insertStr (k ++ ['='] ++ joinComma ws)).1, (c.insertStr (k ++ ['='] ++ joinComma ws)).2, log)
        | (.err e, log) => (c, .err e, log)
        | (.panic, log) => (c, .panic, log)
    | .err e => (c, .err e, log)
    | .panic => (c, .panic, log)
  | (.err e, log) => (c, .err e, log)
  | (.panic, log) => (c, .panic, log)

/-- A builder call whose arguments are named by numbers. The methods src/cmdline/mod.rs:194, 226, 265,
317, 431. -/
inductive DynOp where
  | insert (k v : Nat)
  | insertMultiple (k : Nat) (vs : List Nat)
  | insertStr (s : Nat)
  | insertInitArgs (s : Nat)
  | addVirtio (size : UInt64) (base : GuestAddr) (irq : UInt32) (id : Option UInt32)

/-- Executes one builder call (`add_virtio_mmio_device`, src/cmdline/mod.rs:431-452, has no generic argument). -/
def stepDyn (env : AsRefEnv) (c : Cmdline) (op : DynOp) (log : AsRefLog) :
    Cmdline × Res CmdlineError Unit × AsRefLog :=
  match op with
  | .insert k v => c.insertDyn env k v log
  | .insertMultiple k vs => c.insertMultipleDyn env k vs log
  | .insertStr s => c.insertStrDyn env s log
  | .insertInitArgs s => c.insertInitArgsDyn env s log
  | .addVirtio size base irq id =>
    ((c.addVirtioMmioDevice size base irq id).1, (c.addVirtioMmioDevice size base irq id).2, log)

/-- The command line after a history of such calls (a caller can catch the panic and go on). A caller
of src/cmdline/mod.rs:194-452. -/
def runDyn (env : AsRefEnv) (c : Cmdline) : List DynOp → AsRefLog → Cmdline × AsRefLog
  | [], log => (c, log)
  | op :: ops, log => runDyn env (c.stepDyn env op log).1 ops (c.stepDyn env op log).2.2

end Cmdline
end LinuxLoader
