import Verif.Model.Types
import Verif.Model.Bytes

/-!
# Values of the exported structures, with their nested structures and arrays

A value of one of the types of `Model/Types.lean`, the access to one of its integers by a path such as
`params.efi_info.efi_systab` or `params.e820_table[3].addr`, and its memory image.
-/

namespace LinuxLoader.Types

mutual
/-- Values of a type: an unsigned integer of `n` bytes, an array, the values of the fields. Of the types in
src/loader_gen/x86_64/bootparam.rs, start_info.rs, elf.rs and src/loader/pe/mod.rs:75-117. -/
def Ty.Val : Ty → Type
  | .int n => BitVec (8 * n)
  | .arr t n => Fin n → t.Val
  | .struct _ fs => fs.Vals
/-- Values of the fields, in order. Of the types in src/loader_gen/x86_64/bootparam.rs, start_info.rs, elf.rs and
src/loader/pe/mod.rs:75-117. -/
def Fields.Vals : Fields → Type
  | .nil => Unit
  | .cons _ t rest => t.Val × rest.Vals
end

mutual
/-- `ByteValued::as_slice` (vm-memory) of a value: integers little-endian, the elements of an array one behind the
other, the fields of a structure at their offsets, padding as 0. Calls: src/configurator/mod.rs:168, 215, 324, 419;
types of src/loader_gen/x86_64/bootparam.rs, start_info.rs, elf.rs. -/
def Ty.asSlice : (t : Ty) → t.Val → List UInt8
  | .int n, x => leBytes n (BitVec.toNat x)
  | .arr t _, v => (List.ofFn fun i => t.asSlice (v i)).flatten
  | .struct cap fs, v => encode (Layout.structOf cap fs.layouts) (fs.slices v)
/-- The fields' bytes. Types of src/loader_gen/x86_64/bootparam.rs, start_info.rs, elf.rs. -/
def Fields.slices : (fs : Fields) → fs.Vals → List (List UInt8)
  | .nil, _ => []
  | .cons _ t rest, (x, xs) => t.asSlice x :: rest.slices xs
end

mutual
/-- The value whose memory has the given bytes: what `read_exact` into `as_mut_slice` or `read_volatile` into `as_bytes` leaves in a
structure; e.g. src/loader/bzimage/mod.rs:122-124, src/loader/elf/mod.rs:215-217, 247-249, src/loader/pe/mod.rs:156-158. -/
def Ty.ofSlice : (t : Ty) → List UInt8 → t.Val
  | .int n, b => BitVec.ofNat (8 * n) (leNat (b.take n))
  | .arr t _, b => fun i => t.ofSlice (b.drop (i.val * t.layout.size))
  | .struct cap fs, b => Fields.ofSlices cap fs 0 b
/-- The values of fields, the first of which follows `off` bytes of earlier fields. Types of
src/loader_gen/x86_64/bootparam.rs, start_info.rs, elf.rs. -/
def Fields.ofSlices (cap : Nat) : (fs : Fields) → Nat → List UInt8 → fs.Vals
  | .nil, _, _ => ()
  | .cons _ t rest, off, b =>
    let o := Layout.roundUp off (min cap t.layout.align)
    (t.ofSlice (b.drop o), Fields.ofSlices cap rest (o + t.layout.size) b)
end

/-- A step of an access path: `.name` or `[i]`, as in src/configurator/x86_64/linux.rs:132-140 (`params.hdr.header`);
the fields in src/loader_gen/x86_64/bootparam.rs are public. -/
inductive Step where
  | field (name : String)
  | index (i : Nat)
deriving DecidableEq, Repr

/-- The field of a name: `v.name`, for the public fields in src/loader_gen/x86_64/bootparam.rs, start_info.rs, elf.rs. -/
def Fields.find : (fs : Fields) → fs.Vals → String → Option ((t : Ty) × t.Val)
  | .nil, _, _ => none
  | .cons n t rest, (x, xs), s => if n = s then some ⟨t, x⟩ else rest.find xs s

/-- The integer at the end of an access path, if the path leads to one; for the public fields in
src/loader_gen/x86_64/bootparam.rs, start_info.rs, elf.rs. -/
def Ty.get : (t : Ty) → t.Val → List Step → Option Nat
  | .int _, x, [] => some (BitVec.toNat x)
  | .arr t n, v, .index i :: p => if h : i < n then t.get (v ⟨i, h⟩) p else none
  | .struct _ fs, v, .field s :: p =>
    match fs.find v s with
    | some ⟨t, x⟩ => t.get x p
    | none => none
  | _, _, _ => none

/-- Assignment to the field of a name. As in src/configurator/x86_64/linux.rs:134-137; the fields in
src/loader_gen/x86_64/bootparam.rs, start_info.rs, elf.rs are public. -/
def Fields.update : (fs : Fields) → fs.Vals → String → ((t : Ty) → t.Val → t.Val) → fs.Vals
  | .nil, v, _, _ => v
  | .cons n t rest, (x, xs), s, f => if n = s then (f t x, xs) else (x, rest.update xs s f)

/-- Assignment to the integer at the end of an access path, `params.hdr.type_of_loader = x`; as in
src/configurator/x86_64/linux.rs:134-137. A path that leads to no integer, which Rust rejects (or where it panics, for an
index out of bounds), leaves the value as it is. -/
def Ty.set : (t : Ty) → t.Val → List Step → Nat → t.Val
  | .int n, _, [], x => BitVec.ofNat (8 * n) x
  | .arr t n, v, .index i :: p, x => fun j : Fin n => if j.val = i then t.set (v j) p x else v j
  | .struct _ fs, v, .field s :: p, x => fs.update v s fun t y => t.set y p x
  | _, v, _, _ => v

end LinuxLoader.Types
