import Verif.Model.Basic

/-!
# Model of `src/cmdline/mod.rs`

Strings are `List Char`; a Lean `Char` is a Unicode scalar value, exactly like a Rust `char`.
-/

namespace LinuxLoader

/-- A Rust `str`/`String` as its sequence of `char`s. The strings of src/cmdline/mod.rs:147-148 and
the arguments of src/cmdline/mod.rs:79-132, 194-351, 503. -/
abbrev Str := List Char

/-- `str::len()`: length in UTF-8 bytes (std). Calls: src/cmdline/mod.rs:92, 104, 107, 281, 337, 356,
359, 537, 545. -/
def Str.utf8Len (s : Str) : Nat := (s.map Char.utf8Size).sum

/-- `str::as_bytes()`: the UTF-8 encoding (std). Used by `CString::new`, src/cmdline/mod.rs:386, 390,
392. -/
def Str.utf8 (s : Str) : List UInt8 := s.flatMap String.utf8EncodeChar

/-- `char::is_whitespace()` (std): the Unicode `White_Space` property. Used by `trim`,
src/cmdline/mod.rs:268, 320, 532-533. -/
def isWhitespace (c : Char) : Bool :=
  let n := c.toNat
  (9 ≤ n && n ≤ 13) || n == 0x20 || n == 0x85 || n == 0xA0 || n == 0x1680 ||
  (0x2000 ≤ n && n ≤ 0x200A) || n == 0x2028 || n == 0x2029 || n == 0x202F ||
  n == 0x205F || n == 0x3000

/-- `str::trim_start()` (std). Used by `trim`, src/cmdline/mod.rs:268, 320, 532-533. -/
def trimStart (s : Str) : Str := s.dropWhile isWhitespace

/-- `str::trim_end()` (std). Used by `trim`, src/cmdline/mod.rs:268, 320, 532-533. -/
def trimEnd (s : Str) : Str := (s.reverse.dropWhile isWhitespace).reverse

/-- `str::trim()` (std). Calls: src/cmdline/mod.rs:268, 320, 532-533. -/
def trim (s : Str) : Str := trimEnd (trimStart s)

/-- `INIT_ARGS_SEPARATOR`, src/cmdline/mod.rs:17. -/
def initArgsSeparator : Str := [' ', '-', '-', ' ']

/-- `cmdline::Error`, src/cmdline/mod.rs:19-44. -/
inductive CmdlineError where
  | nullTerminator
  | noBootArgsInserted
  | invalidCapacity
  | invalidAscii
  | hasSpace
  | hasEquals
  | missingVal (k : Str)
  | mmioSize
  | tooLarge
  | noQuoteSpace
  | invalidQuote
deriving DecidableEq, Repr

/-- `valid_char`, src/cmdline/mod.rs:79-81. -/
def validChar (c : Char) : Bool := ' ' ≤ c && c ≤ '~'

/-- `valid_str`, src/cmdline/mod.rs:83-89. -/
def validStr (s : Str) : Res CmdlineError Unit :=
  if s.all validChar then .ok () else .err .invalidAscii

/-- `is_quoted`, src/cmdline/mod.rs:91-101 (`s.len()` is the byte length). -/
def isQuoted (s : Str) : Bool :=
  if s.utf8Len < 2 then false
  else
    match s.head? with
    | some first =>
      match s.getLast? with
      | some last => first == '"' && last == '"'
      | none => false
    | none => false

/-- `contains_double_quotes`, src/cmdline/mod.rs:103-108 (byte length mixed with a `char`
iterator, as in the code). -/
def containsDoubleQuotes (s : Str) : Bool :=
  if s.utf8Len < 3 then false
  else ((s.drop 1).take (s.utf8Len - 2)).any (· == '"')

/-- `valid_key`, src/cmdline/mod.rs:110-120. -/
def validKey (s : Str) : Res CmdlineError Unit :=
  if !s.all validChar then .err .invalidAscii
  else if s.contains ' ' then .err .hasSpace
  else if s.contains '=' then .err .hasEquals
  else .ok ()

/-- `valid_value`, src/cmdline/mod.rs:122-132. -/
def validValue (s : Str) : Res CmdlineError Unit :=
  if !s.all validChar then .err .invalidAscii
  else if containsDoubleQuotes s then .err .invalidQuote
  else if s.contains ' ' && !isQuoted s then .err .noQuoteSpace
  else .ok ()

/-- `struct Cmdline`, src/cmdline/mod.rs:145-150. -/
structure Cmdline where
  bootArgs : Str
  initArgs : Str
  capacity : UInt64
deriving DecidableEq, Repr

namespace Cmdline

/-- `Cmdline::new`, src/cmdline/mod.rs:166-176. -/
def new (capacity : UInt64) : Res CmdlineError Cmdline :=
  if capacity = 0 then .err .invalidCapacity
  else .ok { bootArgs := [], initArgs := [], capacity := capacity }

/-- `Cmdline::get_null_terminated_representation_size`, src/cmdline/mod.rs:353-363.
The additions are unchecked in the code, hence `plainAdd`. -/
def nullTerminatedSize (c : Cmdline) : Res CmdlineError Nat :=
  (plainAdd c.bootArgs.utf8Len 1).bind fun size =>
  if c.initArgs ≠ [] then
    (plainAdd initArgsSeparator.utf8Len c.initArgs.utf8Len).bind fun n => plainAdd size n
  else .ok size

/-- Steps 1 and 2 of `Cmdline::insert_str`, src/cmdline/mod.rs:266-285:
validation and size check; returns the trimmed slug. -/
def checkInsertStr (c : Cmdline) (slug : Str) : Res CmdlineError Str :=
  let s := trim slug
  (validStr s).bind fun _ =>
  c.nullTerminatedSize.bind fun size =>
  (if c.bootArgs ≠ [] then okOr (checkedAdd size 1) .tooLarge else .ok size).bind fun size =>
  (okOr (checkedAdd size s.utf8Len) .tooLarge).bind fun size =>
  if size > c.capacity.toNat then .err .tooLarge else .ok s

/-- `Cmdline::insert_str`, src/cmdline/mod.rs:265-295. `&mut self` becomes the returned value. -/
def insertStr (c : Cmdline) (slug : Str) : Cmdline × Res CmdlineError Unit :=
  match c.checkInsertStr slug with
  | .ok s =>
    -- Step 3, lines 287-292
    let boot := if c.bootArgs ≠ [] then c.bootArgs ++ [' '] else c.bootArgs
    ({ c with bootArgs := boot ++ s }, .ok ())
  | .err e => (c, .err e)
  | .panic => (c, .panic)

/-- Steps 1 and 2 of `Cmdline::insert_init_args`, src/cmdline/mod.rs:318-341. -/
def checkInsertInit (c : Cmdline) (slug : Str) : Res CmdlineError Str :=
  let s := trim slug
  (validStr s).bind fun _ =>
  c.nullTerminatedSize.bind fun size =>
  (okOr (checkedAdd size (if c.initArgs = [] then initArgsSeparator.utf8Len else 1)) .tooLarge).bind
    fun size =>
  (okOr (checkedAdd size s.utf8Len) .tooLarge).bind fun size =>
  if size > c.capacity.toNat then .err .tooLarge else .ok s

/-- `Cmdline::insert_init_args`, src/cmdline/mod.rs:317-351. -/
def insertInitArgs (c : Cmdline) (slug : Str) : Cmdline × Res CmdlineError Unit :=
  match c.checkInsertInit slug with
  | .ok s =>
    -- Step 3, lines 343-348
    let init := if c.initArgs ≠ [] then c.initArgs ++ [' '] else c.initArgs
    ({ c with initArgs := init ++ s }, .ok ())
  | .err e => (c, .err e)
  | .panic => (c, .panic)

/-- `Cmdline::insert`, src/cmdline/mod.rs:194-204. -/
def insert (c : Cmdline) (k v : Str) : Cmdline × Res CmdlineError Unit :=
  match (validKey k).bind fun _ => validValue v with
  | .ok _ => c.insertStr (k ++ ['='] ++ v)
  | .err e => (c, .err e)
  | .panic => (c, .panic)

/-- The `map(...).collect::<Result<Vec<&str>>>()` of src/cmdline/mod.rs:237-242:
stops at the first invalid value. -/
def validateValues : List Str → Res CmdlineError (List Str)
  | [] => .ok []
  | v :: vs => (validValue v).bind fun _ => (validateValues vs).map (v :: ·)

/-- `[&str]::join(",")` (std), used at src/cmdline/mod.rs:243. -/
def joinComma : List Str → Str
  | [] => []
  | [v] => v
  | v :: vs => v ++ [','] ++ joinComma vs

/-- `Cmdline::insert_multiple`, src/cmdline/mod.rs:226-247. -/
def insertMultiple (c : Cmdline) (k : Str) (vals : List Str) : Cmdline × Res CmdlineError Unit :=
  match (validKey k).bind fun _ =>
        if vals = [] then .err (.missingVal k) else validateValues vals with
  | .ok vs => c.insertStr (k ++ ['='] ++ joinComma vs)
  | .err e => (c, .err e)
  | .panic => (c, .panic)

/-- `CString::new(s).map_err(|_| NullTerminator)` (std; used in src/cmdline/mod.rs:384-398):
fails iff the bytes contain 0. The value is the byte string *without* the terminator. -/
def cstringNew (s : Str) : Res CmdlineError (List UInt8) :=
  if s.utf8.contains 0 then .err .nullTerminator else .ok s.utf8

/-- `Cmdline::as_cstring`, src/cmdline/mod.rs:384-398. -/
def asCString (c : Cmdline) : Res CmdlineError (List UInt8) :=
  if c.bootArgs = [] ∧ c.initArgs = [] then cstringNew []
  else if c.bootArgs = [] then .err .noBootArgsInserted
  else if c.initArgs = [] then cstringNew c.bootArgs
  else cstringNew (c.bootArgs ++ initArgsSeparator ++ c.initArgs)

/-- `CString::as_bytes_with_nul` / `into_bytes_with_nul` (std). Calls: src/cmdline/mod.rs:567,
src/loader/mod.rs:234. -/
def bytesWithNul (cstr : List UInt8) : List UInt8 := cstr ++ [0]

/-- `TryFrom<Cmdline> for Vec<u8>`, src/cmdline/mod.rs:561-569. -/
def toVec (c : Cmdline) : Res CmdlineError (List UInt8) := c.asCString.map bytesWithNul

/-- `PartialEq for Cmdline`, src/cmdline/mod.rs:571-575. -/
def eq (c d : Cmdline) : Bool := c.asCString == d.asCString

/-- Decimal digits of `n`, as produced by `{}` on an unsigned integer (std).
src/cmdline/mod.rs:442-449, 461-469. -/
def decStr (n : Nat) : Str := Nat.toDigits 10 n

/-- Lower-case hexadecimal digits, as produced by `{:x?}` on a `u64` (std). src/cmdline/mod.rs:443. -/
def hexStr (n : Nat) : Str := Nat.toDigits 16 n

/-- `Cmdline::guestusize_to_str`, src/cmdline/mod.rs:455-470. -/
def guestusizeToStr (size : UInt64) : Str :=
  let kb : Nat := 2 ^ 10
  let mb : Nat := kb * 2 ^ 10
  let gb : Nat := mb * 2 ^ 10
  let n := size.toNat
  if n % gb = 0 then decStr (n / gb) ++ ['G']
  else if n % mb = 0 then decStr (n / mb) ++ ['M']
  else if n % kb = 0 then decStr (n / kb) ++ ['K']
  else decStr n

/-- The literal prefix of src/cmdline/mod.rs:443. -/
def virtioPrefix : Str := "virtio_mmio.device=".toList

/-- The string built at src/cmdline/mod.rs:442-450. -/
def deviceStr (size : UInt64) (base : GuestAddr) (irq : UInt32) (id : Option UInt32) : Str :=
  let s := virtioPrefix ++ guestusizeToStr size ++ ['@', '0', 'x'] ++ hexStr base.toNat ++ [':']
    ++ decStr irq.toNat
  match id with
  | some id => s ++ ([':'] ++ decStr id.toNat)
  | none => s

/-- `Cmdline::add_virtio_mmio_device`, src/cmdline/mod.rs:431-452. -/
def addVirtioMmioDevice (c : Cmdline) (size : UInt64) (base : GuestAddr) (irq : UInt32)
    (id : Option UInt32) : Cmdline × Res CmdlineError Unit :=
  if size = 0 then (c, .err .mmioSize)
  else c.insertStr (deviceStr size base irq id)

/-- `check_outside_double_quotes`, src/cmdline/mod.rs:472-474. -/
def checkOutsideDoubleQuotes (slug : Str) : Bool := slug.count '"' % 2 == 0

/-- `cmdline_raw.match_indices(INIT_ARGS_SEPARATOR).find(..)`, src/cmdline/mod.rs:516-520:
`match_indices` (std) scans left to right for non-overlapping occurrences; the first one whose
prefix passes `check_outside_double_quotes` is taken. `pre` is the part already scanned; the result
is the pair (text before the occurrence, text after it). After a rejected occurrence the scan
resumes behind it (4 characters on), otherwise one character on. -/
def findSeparator (pre : Str) (rest : Str) : Option (Str × Str) :=
  match rest with
  | [] => none
  | c :: rest' =>
    if initArgsSeparator.isPrefixOf (c :: rest') then
      if checkOutsideDoubleQuotes pre then some (pre, (c :: rest').drop 4)
      else findSeparator (pre ++ (c :: rest').take 4) ((c :: rest').drop 4)
    else findSeparator (pre ++ [c]) rest'
termination_by rest.length
decreasing_by all_goals (simp; try omega)

/-- Step 1 of `Cmdline::try_from`, src/cmdline/mod.rs:512-533. -/
def splitRaw (raw : Str) : Str × Str :=
  let (boot, init) := match findSeparator [] raw with
    | none => (raw, [])
    | some (b, i) => (b, i)
  (trim boot, trim init)

/-- `Cmdline::try_from`, src/cmdline/mod.rs:503-558. -/
def tryFrom (raw : Str) (capacity : UInt64) : Res CmdlineError Cmdline :=
  if capacity = 0 then .err .invalidCapacity
  else
    let (boot, init) := splitRaw raw
    (okOr (checkedAdd boot.utf8Len 1) .tooLarge).bind fun size =>
    (if init ≠ [] then
      (okOr (checkedAdd size initArgsSeparator.utf8Len) .tooLarge).bind fun size =>
      okOr (checkedAdd size init.utf8Len) .tooLarge
    else .ok size).bind fun size =>
    if size > capacity.toNat then .err .invalidCapacity
    else .ok { bootArgs := boot, initArgs := init, capacity := capacity }

/-- One call of the mutating builder API of `Cmdline`. The methods src/cmdline/mod.rs:194, 226, 265,
317, 431. -/
inductive Op where
  | insert (k v : Str)
  | insertMultiple (k : Str) (vs : List Str)
  | insertStr (s : Str)
  | insertInitArgs (s : Str)
  | addVirtio (size : UInt64) (base : GuestAddr) (irq : UInt32) (id : Option UInt32)

/-- Executes one builder call. The methods src/cmdline/mod.rs:194, 226, 265, 317, 431. -/
def step (c : Cmdline) : Op → Cmdline × Res CmdlineError Unit
  | .insert k v => c.insert k v
  | .insertMultiple k vs => c.insertMultiple k vs
  | .insertStr s => c.insertStr s
  | .insertInitArgs s => c.insertInitArgs s
  | .addVirtio size base irq id => c.addVirtioMmioDevice size base irq id

/-- The command line after a history of builder calls (results ignored, as a caller may do). A caller
of src/cmdline/mod.rs:194-452. -/
def run (c : Cmdline) (ops : List Op) : Cmdline := ops.foldl (fun c op => (c.step op).1) c

/-- Command lines a user can hold: constructed by `new` or `try_from` and changed only through the
builder calls (the fields are private, src/cmdline/mod.rs:146-150). -/
inductive Reachable : Cmdline → Prop
  | new {cap c} : Cmdline.new cap = .ok c → Reachable c
  | tryFrom {s cap c} : Cmdline.tryFrom s cap = .ok c → Reachable c
  | step {c} (op : Op) : Reachable c → Reachable (c.step op).1

end Cmdline
end LinuxLoader
