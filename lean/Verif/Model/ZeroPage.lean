import Verif.Model.Bytes

/-!
# Values of the fixed-layout structures

A value of a structure type is given by the bytes of its fields, by field name.
-/

namespace LinuxLoader

/-- `ByteValued::as_slice` (vm-memory) of a value of a structure with layout `l` whose field `n` has
the bytes `v n`; e.g. `boot_params` and `setup_header`, src/loader_gen/x86_64/bootparam.rs:237-351,
which are `ByteValued` by src/loader/mod.rs:189-194. -/
def encodeBy (l : Layout.Layout) (v : String → List UInt8) : List UInt8 :=
  encode l (l.fields.map fun f => v f.1)

/-- The values have the sizes of the fields. Of the structures in src/loader_gen/x86_64/bootparam.rs,
start_info.rs, elf.rs. -/
def Typed (l : Layout.Layout) (v : String → List UInt8) : Prop :=
  ∀ f ∈ l.fields, (v f.1).length = f.2.2

/-- Integer fields: field `n` has the value `w n`. Of the structures in
src/loader_gen/x86_64/bootparam.rs, start_info.rs, elf.rs. -/
def intFields (l : Layout.Layout) (w : String → Nat) : String → List UInt8 := fun n =>
  match l.fields.lookup n with
  | some (_, size) => leBytes size (w n)
  | none => []

/-- `boot_e820_entry`, src/loader_gen/x86_64/bootparam.rs:186-192: `as_slice`. -/
def e820Slice (addr size : UInt64) (type : UInt32) : List UInt8 :=
  encode Layout.bootE820Entry [leBytes 8 addr.toNat, leBytes 8 size.toNat, leBytes 4 type.toNat]

end LinuxLoader
