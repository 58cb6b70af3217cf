import Verif.Model.Cmdline

/-!
# `src/cmdline/mod.rs` over bytes

`Model/Cmdline.lean` takes a Rust `str` as a sequence of `char`s. Here a `str` is what it is in memory:
bytes. Characters are decoded from both ends, searches look for bytes, and slicing by byte index panics
when the index is not on a character boundary. Nothing here assumes that the bytes are valid UTF-8;
where std would run into undefined behaviour on bytes that are not, the outcome is `panic`.
-/

namespace LinuxLoader

/-- Bytes of a `str`. The strings of src/cmdline/mod.rs:147-148 and the arguments of
src/cmdline/mod.rs:79-132, 194-351, 503. -/
abbrev Bytes := List UInt8

namespace Byte

/-- `cmdline::Error`, src/cmdline/mod.rs:19-44, with the string of `MissingVal` as bytes. -/
inductive Error where
  | nullTerminator
  | noBootArgsInserted
  | invalidCapacity
  | invalidAscii
  | hasSpace
  | hasEquals
  | missingVal (k : Bytes)
  | mmioSize
  | tooLarge
  | noQuoteSpace
  | invalidQuote
deriving DecidableEq, Repr

/-- Outcome of a computation on strings. src/cmdline/mod.rs:77. -/
abbrev R (α : Type) := Res Error α

/-! ## std: `core::str` -/

/-- `utf8_first_byte(byte, width)`: `(byte & (0x7F >> width)) as u32`. (core::str::validations), used
through src/cmdline/mod.rs:79-132, 268, 320, 473, 516-533. -/
def firstByte (b : UInt8) (width : Nat) : Nat := b.toNat % 2 ^ (7 - width)

/-- `utf8_acc_cont_byte(ch, byte)`: `(ch << 6) | (byte & CONT_MASK) as u32`. (core::str::validations),
used through src/cmdline/mod.rs:79-132, 268, 320, 473, 516-533. -/
def accCont (ch : Nat) (b : UInt8) : Nat := ch * 64 + b.toNat % 64

/-- `utf8_is_cont_byte(byte)`: `(byte as i8) < -64`. (core::str::validations), used through
src/cmdline/mod.rs:79-132, 268, 320, 473, 516-533. -/
def isCont (b : UInt8) : Bool := 0x80 ≤ b.toNat && b.toNat < 0xC0

/-- `next_code_point` (`Chars::next`): the first code point and the bytes behind it. (core), used
through src/cmdline/mod.rs:84, 95, 107, 111, 123, 268, 320, 473. -/
def next : Bytes → R (Option (Nat × Bytes))
  | [] => .ok none
  | x :: r =>
    if x.toNat < 128 then .ok (some (x.toNat, r))
    else
      match r with
      | [] => .panic
      | y :: r =>
        if x.toNat < 0xE0 then .ok (some (accCont (firstByte x 2) y, r))
        else
          match r with
          | [] => .panic
          | z :: r =>
            if x.toNat < 0xF0 then .ok (some (accCont (accCont (firstByte x 2) y) z, r))
            else
              match r with
              | [] => .panic
              | w :: r => .ok (some (accCont (accCont (accCont (firstByte x 2 % 8) y) z) w, r))

/-- `next_code_point_reverse` (`Chars::next_back`) on the reversed bytes. (core), used through
src/cmdline/mod.rs:96, 268, 320, 532-533. -/
def nextBackRev : Bytes → R (Option (Nat × Bytes))
  | [] => .ok none
  | w :: r =>
    if w.toNat < 128 then .ok (some (w.toNat, r))
    else
      match r with
      | [] => .panic
      | z :: r =>
        if !isCont z then .ok (some (accCont (firstByte z 2) w, r))
        else
          match r with
          | [] => .panic
          | y :: r =>
            if !isCont y then .ok (some (accCont (accCont (firstByte y 3) z) w, r))
            else
              match r with
              | [] => .panic
              | x :: r => .ok (some (accCont (accCont (accCont (firstByte x 4) y) z) w, r))

/-- `Chars::next_back`: the last code point and the bytes in front of it. (core), used through
src/cmdline/mod.rs:96, 268, 320, 532-533. -/
def nextBack (bs : Bytes) : R (Option (Nat × Bytes)) :=
  (nextBackRev bs.reverse).map fun o => o.map fun p => (p.1, p.2.reverse)

/-- Decoding with at most `n` characters. (core), used through src/cmdline/mod.rs:84, 107, 111, 123.
-/
def charsAux : Nat → Bytes → R (List Nat)
  | 0, [] => .ok []
  | 0, _ :: _ => .panic
  | n + 1, bs => (next bs).bind fun
    | none => .ok []
    | some (c, r) => (charsAux n r).map (c :: ·)

/-- `str::chars()`, collected. The code consumes the iterator lazily; decoding all of it is the
pessimistic choice (it can only add `panic`s). Calls: src/cmdline/mod.rs:84, 95-96, 107, 111, 123. -/
def chars (bs : Bytes) : R (List Nat) := charsAux bs.length bs

/-- `char::is_whitespace()` on a code point. (core), used through src/cmdline/mod.rs:268, 320,
532-533. -/
def isWhitespace (n : Nat) : Bool :=
  (9 ≤ n && n ≤ 13) || n == 0x20 || n == 0x85 || n == 0xA0 || n == 0x1680 ||
  (0x2000 ≤ n && n ≤ 0x200A) || n == 0x2028 || n == 0x2029 || n == 0x202F ||
  n == 0x205F || n == 0x3000

/-- First half of `trim_matches`: forward to the first character that is not white space. (core), used
through src/cmdline/mod.rs:268, 320, 532-533. -/
def trimStartAux : Nat → Bytes → R Bytes
  | 0, [] => .ok []
  | 0, _ :: _ => .panic
  | n + 1, bs => (next bs).bind fun
    | none => .ok bs
    | some (c, r) => if isWhitespace c then trimStartAux n r else .ok bs

/-- Second half of `trim_matches`: backward to the last character that is not white space. (core),
used through src/cmdline/mod.rs:268, 320, 532-533. -/
def trimEndAux : Nat → Bytes → R Bytes
  | 0, [] => .ok []
  | 0, _ :: _ => .panic
  | n + 1, bs => (nextBack bs).bind fun
    | none => .ok bs
    | some (c, r) => if isWhitespace c then trimEndAux n r else .ok bs

/-- `str::trim()`. Calls: src/cmdline/mod.rs:268, 320, 532-533. -/
def trim (bs : Bytes) : R Bytes := (trimStartAux bs.length bs).bind fun t => trimEndAux t.length t

/-- `str::is_char_boundary(i)`. (core), used through src/cmdline/mod.rs:519, 523, 528. -/
def isCharBoundary (bs : Bytes) (i : Nat) : Bool :=
  if i = 0 then true
  else if bs.length ≤ i then i == bs.length
  else
    match bs[i]? with
    | some b => !isCont b
    | none => false

/-- `&s[..i]`: panics off a character boundary. src/cmdline/mod.rs:519, 523. -/
def sliceTo (bs : Bytes) (i : Nat) : R Bytes :=
  if isCharBoundary bs i then .ok (bs.take i) else .panic

/-- `&s[i..]`: panics off a character boundary. src/cmdline/mod.rs:528. -/
def sliceFrom (bs : Bytes) (i : Nat) : R Bytes :=
  if isCharBoundary bs i then .ok (bs.drop i) else .panic

/-! ## src/cmdline/mod.rs -/

/-- `INIT_ARGS_SEPARATOR`, src/cmdline/mod.rs:17. -/
def separator : Bytes := [0x20, 0x2D, 0x2D, 0x20]

/-- `valid_char`, src/cmdline/mod.rs:79-81. -/
def validChar (n : Nat) : Bool := 0x20 ≤ n && n ≤ 0x7E

/-- `valid_str`, src/cmdline/mod.rs:83-89. -/
def validStr (s : Bytes) : R Unit :=
  (chars s).bind fun cs => if cs.all validChar then .ok () else .err .invalidAscii

/-- `is_quoted`, src/cmdline/mod.rs:91-101 (`chars().last()` is `next_back`). -/
def isQuoted (s : Bytes) : R Bool :=
  if s.length < 2 then .ok false
  else (next s).bind fun
    | none => .ok false
    | some (first, _) => (nextBack s).bind fun
      | none => .ok false
      | some (last, _) => .ok (first == 0x22 && last == 0x22)

/-- `contains_double_quotes`, src/cmdline/mod.rs:103-108. -/
def containsDoubleQuotes (s : Bytes) : R Bool :=
  if s.length < 3 then .ok false
  else (chars s).map fun cs => ((cs.drop 1).take (s.length - 2)).any (· == 0x22)

/-- `valid_key`, src/cmdline/mod.rs:110-120 (`contains` with an ASCII `char` looks for the byte). -/
def validKey (s : Bytes) : R Unit :=
  (chars s).bind fun cs =>
  if !cs.all validChar then .err .invalidAscii
  else if s.contains 0x20 then .err .hasSpace
  else if s.contains 0x3D then .err .hasEquals
  else .ok ()

/-- `valid_value`, src/cmdline/mod.rs:122-132. -/
def validValue (s : Bytes) : R Unit :=
  (chars s).bind fun cs =>
  if !cs.all validChar then .err .invalidAscii
  else (containsDoubleQuotes s).bind fun q =>
    if q then .err .invalidQuote
    else if s.contains 0x20 then
      (isQuoted s).bind fun q => if !q then .err .noQuoteSpace else .ok ()
    else .ok ()

/-- `struct Cmdline`, src/cmdline/mod.rs:145-150. -/
structure Cmdline where
  bootArgs : Bytes
  initArgs : Bytes
  capacity : UInt64
deriving DecidableEq, Repr

namespace Cmdline

/-- `Cmdline::new`, src/cmdline/mod.rs:166-176. -/
def new (capacity : UInt64) : R Cmdline :=
  if capacity = 0 then .err .invalidCapacity
  else .ok { bootArgs := [], initArgs := [], capacity := capacity }

/-- `Cmdline::get_null_terminated_representation_size`, src/cmdline/mod.rs:353-363. -/
def nullTerminatedSize (c : Cmdline) : R Nat :=
  (plainAdd c.bootArgs.length 1).bind fun size =>
  if c.initArgs ≠ [] then
    (plainAdd separator.length c.initArgs.length).bind fun n => plainAdd size n
  else .ok size

/-- `Cmdline::insert_str`, src/cmdline/mod.rs:265-295. -/
def insertStr (c : Cmdline) (slug : Bytes) : Cmdline × R Unit :=
  match
    (trim slug).bind fun s =>
    (validStr s).bind fun _ =>
    c.nullTerminatedSize.bind fun size =>
    (if c.bootArgs ≠ [] then okOr (checkedAdd size 1) .tooLarge else .ok size).bind fun size =>
    (okOr (checkedAdd size s.length) .tooLarge).bind fun size =>
    if size > c.capacity.toNat then .err .tooLarge else .ok s with
  | .ok s =>
    let boot := if c.bootArgs ≠ [] then c.bootArgs ++ [0x20] else c.bootArgs
    ({ c with bootArgs := boot ++ s }, .ok ())
  | .err e => (c, .err e)
  | .panic => (c, .panic)

/-- `Cmdline::insert_init_args`, src/cmdline/mod.rs:317-351. -/
def insertInitArgs (c : Cmdline) (slug : Bytes) : Cmdline × R Unit :=
  match
    (trim slug).bind fun s =>
    (validStr s).bind fun _ =>
    c.nullTerminatedSize.bind fun size =>
    (okOr (checkedAdd size (if c.initArgs = [] then separator.length else 1)) .tooLarge).bind
      fun size =>
    (okOr (checkedAdd size s.length) .tooLarge).bind fun size =>
    if size > c.capacity.toNat then .err .tooLarge else .ok s with
  | .ok s =>
    let init := if c.initArgs ≠ [] then c.initArgs ++ [0x20] else c.initArgs
    ({ c with initArgs := init ++ s }, .ok ())
  | .err e => (c, .err e)
  | .panic => (c, .panic)

/-- `Cmdline::insert`, src/cmdline/mod.rs:194-204. -/
def insert (c : Cmdline) (k v : Bytes) : Cmdline × R Unit :=
  match (validKey k).bind fun _ => validValue v with
  | .ok _ => c.insertStr (k ++ [0x3D] ++ v)
  | .err e => (c, .err e)
  | .panic => (c, .panic)

/-- `collect::<Result<Vec<&str>>>()`, src/cmdline/mod.rs:237-242. -/
def validateValues : List Bytes → R (List Bytes)
  | [] => .ok []
  | v :: vs => (validValue v).bind fun _ => (validateValues vs).map (v :: ·)

/-- `[&str]::join(",")` (std), src/cmdline/mod.rs:243. -/
def joinComma : List Bytes → Bytes
  | [] => []
  | [v] => v
  | v :: vs => v ++ [0x2C] ++ joinComma vs

/-- `Cmdline::insert_multiple`, src/cmdline/mod.rs:226-247. -/
def insertMultiple (c : Cmdline) (k : Bytes) (vals : List Bytes) : Cmdline × R Unit :=
  match (validKey k).bind fun _ =>
        if vals = [] then .err (.missingVal k) else validateValues vals with
  | .ok vs => c.insertStr (k ++ [0x3D] ++ joinComma vs)
  | .err e => (c, .err e)
  | .panic => (c, .panic)

/-- `CString::new` (std), src/cmdline/mod.rs:384-398. -/
def cstringNew (s : Bytes) : R Bytes :=
  if s.contains 0 then .err .nullTerminator else .ok s

/-- `Cmdline::as_cstring`, src/cmdline/mod.rs:384-398. -/
def asCString (c : Cmdline) : R Bytes :=
  if c.bootArgs = [] ∧ c.initArgs = [] then cstringNew []
  else if c.bootArgs = [] then .err .noBootArgsInserted
  else if c.initArgs = [] then cstringNew c.bootArgs
  else cstringNew (c.bootArgs ++ separator ++ c.initArgs)

/-- `TryFrom<Cmdline> for Vec<u8>`, src/cmdline/mod.rs:561-569. -/
def toVec (c : Cmdline) : R Bytes := c.asCString.map (· ++ [0])

/-- `PartialEq for Cmdline`, src/cmdline/mod.rs:571-575. -/
def eq (c d : Cmdline) : Bool := c.asCString == d.asCString

/-- `Cmdline::add_virtio_mmio_device`, src/cmdline/mod.rs:431-452. The formatted string is that of
`Model/Cmdline.lean`; it is ASCII. -/
def addVirtioMmioDevice (c : Cmdline) (size : UInt64) (base : GuestAddr) (irq : UInt32)
    (id : Option UInt32) : Cmdline × R Unit :=
  if size = 0 then (c, .err .mmioSize)
  else c.insertStr (LinuxLoader.Cmdline.deviceStr size base irq id).utf8

/-- `check_outside_double_quotes`, src/cmdline/mod.rs:472-474 (`matches` with an ASCII `char` looks for
the byte). -/
def checkOutsideDoubleQuotes (slug : Bytes) : Bool := slug.count 0x22 % 2 == 0

/-- `cmdline_raw.match_indices(INIT_ARGS_SEPARATOR).find(..)`, src/cmdline/mod.rs:516-520: byte
positions, left to right, not overlapping; for each the prefix is sliced off and examined. `rest` is
`raw` from the byte index `i` on. -/
def find (raw : Bytes) (i : Nat) (rest : Bytes) : R (Option Nat) :=
  match rest with
  | [] => .ok none
  | b :: rest' =>
    if separator.isPrefixOf (b :: rest') then
      (sliceTo raw i).bind fun pre =>
      if checkOutsideDoubleQuotes pre then .ok (some i)
      else find raw (i + 4) ((b :: rest').drop 4)
    else find raw (i + 1) rest'
termination_by rest.length
decreasing_by all_goals (simp; try omega)

/-- The two slices of src/cmdline/mod.rs:521-530. -/
def splitAt (raw : Bytes) : Option Nat → R (Bytes × Bytes)
  | none => .ok (raw, [])
  | some i =>
    (sliceTo raw i).bind fun b =>
    (plainAdd i separator.length).bind fun j =>
    (sliceFrom raw j).map fun t => (b, t)

/-- `Cmdline::try_from`, src/cmdline/mod.rs:503-558. -/
def tryFrom (raw : Bytes) (capacity : UInt64) : R Cmdline :=
  if capacity = 0 then .err .invalidCapacity
  else
    (find raw 0 raw).bind fun o =>
    (splitAt raw o).bind fun p =>
    (trim p.1).bind fun boot =>
    (trim p.2).bind fun init =>
    (okOr (checkedAdd boot.length 1) .tooLarge).bind fun size =>
    (if init ≠ [] then
      (okOr (checkedAdd size separator.length) .tooLarge).bind fun size =>
      okOr (checkedAdd size init.length) .tooLarge
    else .ok size).bind fun size =>
    if size > capacity.toNat then .err .invalidCapacity
    else .ok { bootArgs := boot, initArgs := init, capacity := capacity }

/-- One call of the builder API. The methods src/cmdline/mod.rs:194, 226, 265, 317, 431. -/
inductive Op where
  | insert (k v : Bytes)
  | insertMultiple (k : Bytes) (vs : List Bytes)
  | insertStr (s : Bytes)
  | insertInitArgs (s : Bytes)
  | addVirtio (size : UInt64) (base : GuestAddr) (irq : UInt32) (id : Option UInt32)

/-- Executes one builder call. The methods src/cmdline/mod.rs:194, 226, 265, 317, 431. -/
def step (c : Cmdline) : Op → Cmdline × R Unit
  | .insert k v => c.insert k v
  | .insertMultiple k vs => c.insertMultiple k vs
  | .insertStr s => c.insertStr s
  | .insertInitArgs s => c.insertInitArgs s
  | .addVirtio size base irq id => c.addVirtioMmioDevice size base irq id

end Cmdline
end Byte
end LinuxLoader
