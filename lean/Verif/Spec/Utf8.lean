import Verif.Model.ByteStr

/-!
# Well-formed UTF-8

Table 3-7 of the Unicode standard ("Well-Formed UTF-8 Byte Sequences"): what the bytes of a Rust `str`
are allowed to be. Written down from the table; independent of any encoder.
-/

namespace LinuxLoader.Spec

/-- The rows of Table 3-7: ranges of the bytes of one character. -/
def utf8Rows : List (List (Nat × Nat)) := [
  [(0x00, 0x7F)],
  [(0xC2, 0xDF), (0x80, 0xBF)],
  [(0xE0, 0xE0), (0xA0, 0xBF), (0x80, 0xBF)],
  [(0xE1, 0xEC), (0x80, 0xBF), (0x80, 0xBF)],
  [(0xED, 0xED), (0x80, 0x9F), (0x80, 0xBF)],
  [(0xEE, 0xEF), (0x80, 0xBF), (0x80, 0xBF)],
  [(0xF0, 0xF0), (0x90, 0xBF), (0x80, 0xBF), (0x80, 0xBF)],
  [(0xF1, 0xF3), (0x80, 0xBF), (0x80, 0xBF), (0x80, 0xBF)],
  [(0xF4, 0xF4), (0x80, 0x8F), (0x80, 0xBF), (0x80, 0xBF)]]

/-- The bytes lie in the ranges of the row. -/
def rowMatches : List (Nat × Nat) → List UInt8 → Prop
  | [], [] => True
  | (lo, hi) :: r, b :: bs => lo ≤ b.toNat ∧ b.toNat ≤ hi ∧ rowMatches r bs
  | _, _ => False

/-- A well-formed string: a sequence of characters, each of the form of some row. -/
inductive WellFormed : List UInt8 → Prop
  | nil : WellFormed []
  | char {row : List (Nat × Nat)} {bs rest : List UInt8} : row ∈ utf8Rows → rowMatches row bs →
      WellFormed rest → WellFormed (bs ++ rest)

/-- A call of the builder API with strings as arguments. -/
def opWellFormed : Byte.Cmdline.Op → Prop
  | .insert k v => WellFormed k ∧ WellFormed v
  | .insertMultiple k vs => WellFormed k ∧ ∀ v ∈ vs, WellFormed v
  | .insertStr s => WellFormed s
  | .insertInitArgs s => WellFormed s
  | .addVirtio .. => True

/-- Command lines a user can hold: constructed from a string and changed by the builder calls, whose
arguments are strings. -/
inductive ByteReachable : Byte.Cmdline → Prop
  | new {cap c} : Byte.Cmdline.new cap = .ok c → ByteReachable c
  | tryFrom {s cap c} : WellFormed s → s.length < ISZ → Byte.Cmdline.tryFrom s cap = .ok c →
      ByteReachable c
  | step {c} (op : Byte.Cmdline.Op) : opWellFormed op → ByteReachable c → ByteReachable (c.step op).1

/-- Characters to bytes, for errors. -/
def encErr : CmdlineError → Byte.Error
  | .nullTerminator => .nullTerminator
  | .noBootArgsInserted => .noBootArgsInserted
  | .invalidCapacity => .invalidCapacity
  | .invalidAscii => .invalidAscii
  | .hasSpace => .hasSpace
  | .hasEquals => .hasEquals
  | .missingVal k => .missingVal k.utf8
  | .mmioSize => .mmioSize
  | .tooLarge => .tooLarge
  | .noQuoteSpace => .noQuoteSpace
  | .invalidQuote => .invalidQuote

/-- Characters to bytes, for results. -/
def encRes {α β : Type} (f : α → β) : Res CmdlineError α → Byte.R β
  | .ok a => .ok (f a)
  | .err e => .err (encErr e)
  | .panic => .panic

/-- Characters to bytes, for command lines. -/
def encCmdline (c : Cmdline) : Byte.Cmdline := ⟨c.bootArgs.utf8, c.initArgs.utf8, c.capacity⟩

/-- Characters to bytes, for calls. -/
def encOp : Cmdline.Op → Byte.Cmdline.Op
  | .insert k v => .insert k.utf8 v.utf8
  | .insertMultiple k vs => .insertMultiple k.utf8 (vs.map Str.utf8)
  | .insertStr s => .insertStr s.utf8
  | .insertInitArgs s => .insertInitArgs s.utf8
  | .addVirtio size base irq id => .addVirtio size base irq id

end LinuxLoader.Spec
