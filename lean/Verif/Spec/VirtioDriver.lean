import Verif.Spec.Kernel

/-!
# How the Linux virtio-mmio driver reads its devices from the command line

Transcribed from the Linux sources (not part of `/repo`): `vm_cmdline_set` (drivers/virtio/virtio_mmio.c,
since Linux 5.8, which rejects interrupt 0), `vsscanf` (lib/vsprintf.c) for its format `"@%lli:%u%n:%d%n"`, and
`parameq` (kernel/params.c, dashes and underscores are the same in names of parameters). Left out: whether the
platform device core then accepts the device (it refuses equal ids and overlapping ranges).
-/

namespace LinuxLoader.Spec.Kernel
open Cmdline (Op)

/-- `val` stored in an `int`. -/
def asInt (v : Int) : Int := Int.bmod v (2 ^ 32)

/-- `%d` with the given conversion of the digits: blanks, an optional sign, at least one digit. -/
def signed (num : Str → Nat × Str) (s : Str) : Option (Int × Str) :=
  let s := skipSpaces s
  let neg := s.head? = some '-'
  let t := if neg then s.tail else s
  if (t.head?.map (isDigitIn 10)).getD false then
    some (if neg then -((num t).1 : Int) else (num t).1, (num t).2)
  else none

/-- A device the driver asks the platform device core to register: memory from `first` to `last`, interrupt, and the
number in its name `virtio-mmio.<id>`. -/
structure Registration where
  first : Nat
  last : Nat
  irq : Nat
  id : Int
deriving DecidableEq

/-- `vm_cmdline_set(device)` with `vm_cmdline_id = next`: the new `vm_cmdline_id`, and the device to register, if the
argument is not refused (`-EINVAL`). A conversion that fails leaves its variable as it is. -/
def vmCmdlineSet (next : Int) (device : Str) : Int × Option Registration :=
  let (size, str) := memparse device
  match str with
  | '@' :: r =>
    match signed numberAuto r with
    | some (base, ':' :: r) =>
      if ((skipSpaces r).head?.map (isDigitIn 10)).getD false then
        let (irq, r) := number 10 (skipSpaces r)
        let irq := irq % 2 ^ 32
        let (next, r) := match r with
          | ':' :: r' =>
            match signed (number 10) r' with
            | some (id, r'') => (asInt id, r'')
            | none => (next, r)
          | _ => (next, r)
        if r ≠ [] ∨ irq = 0 then (next, none)
        else
          (asInt (next + 1), some ⟨(base % 2 ^ 64).toNat, ((base + size - 1) % 2 ^ 64).toNat, irq, next⟩)
      else (next, none)
    | _ => (next, none)
  | _ => (next, none)

/-- The parameter is `virtio_mmio.device` (`parameq`). -/
def IsDeviceParam (k : Str) : Prop :=
  k.map (fun c => if c = '-' then '_' else c) = "virtio_mmio.device".toList

instance (k : Str) : Decidable (IsDeviceParam k) := by unfold IsDeviceParam; infer_instance

/-- What the driver registers for the parameters that `parse_args` found. -/
def driver : Int → List (Str × Option Str) → List Registration
  | _, [] => []
  | next, (k, v) :: ps =>
    if IsDeviceParam k then
      let r := vmCmdlineSet next (v.getD [])
      r.2.toList ++ driver r.1 ps
    else driver next ps

/-! ## What a VMM asked for -/

/-- Size, base address, interrupt and optional id of a device. -/
structure Device where
  size : UInt64
  base : UInt64
  irq : UInt32
  id : Option UInt32

/-- The devices added by the accepted calls. -/
def devicesAdded : Cmdline → List Op → List Device
  | _, [] => []
  | c, op :: ops =>
    (match op, (c.step op).2 with
      | .addVirtio size base irq id, .ok _ => [⟨size, base, irq, id⟩]
      | _, _ => []) ++ devicesAdded (c.step op).1 ops

/-- The id of a device, if `next` is the one following that of the previous device. -/
def Device.number (d : Device) (next : Int) : Int :=
  match d.id with
  | some i => asInt i.toNat
  | none => next

/-- The registrations for devices, if `next` is the id of the next device without one: the range asked for, the
interrupt asked for, the id asked for or the one after the last. A device with interrupt 0 is left out. -/
def registrations : Int → List Device → List Registration
  | _, [] => []
  | next, d :: ds =>
    let id := d.number next
    if d.irq = 0 then registrations id ds
    else ⟨d.base.toNat, (d.base + d.size - 1).toNat, d.irq.toNat, id⟩ :: registrations (asInt (id + 1)) ds

end LinuxLoader.Spec.Kernel
