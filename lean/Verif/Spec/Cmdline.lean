import Verif.Model.Cmdline

/-!
# Specification vocabulary for command lines

Nothing here is used by the model; the property theorems of `Props/Cmdline*.lean` are stated with
these definitions and the API of the model only. The only model notions used are the data types
(`Str`, `Cmdline`, `Op`) and the byte encoding of strings.
-/

namespace LinuxLoader.Spec

/-- The separator between boot and init arguments. -/
def sep : Str := " -- ".toList

/-- Printable ASCII: every character is in `0x20 ..= 0x7e`. -/
def Printable (s : Str) : Prop := ∀ c ∈ s, 0x20 ≤ c.toNat ∧ c.toNat ≤ 0x7e

instance (s : Str) : Decidable (Printable s) := by unfold Printable; infer_instance

/-- The code points with the Unicode property `White_Space`. -/
def whiteSpace : List Nat :=
  [9, 10, 11, 12, 13, 32, 0x85, 0xA0, 0x1680, 0x2000, 0x2001, 0x2002, 0x2003, 0x2004, 0x2005,
   0x2006, 0x2007, 0x2008, 0x2009, 0x200A, 0x2028, 0x2029, 0x202F, 0x205F, 0x3000]

/-- A white space character. -/
def Blank (c : Char) : Prop := c.toNat ∈ whiteSpace

instance (c : Char) : Decidable (Blank c) := by unfold Blank; infer_instance

/-- `t` is `s` without its leading and trailing white space. -/
def Trimmed (s t : Str) : Prop :=
  ∃ l r, s = l ++ t ++ r ∧ (∀ c ∈ l, Blank c) ∧ (∀ c ∈ r, Blank c) ∧
    (∀ c, t.head? = some c → ¬ Blank c) ∧ (∀ c, t.getLast? = some c → ¬ Blank c)

/-- The text of a command line: boot arguments, and if there are init arguments the separator and
these. -/
def text (boot init : Str) : Str := if init = [] then boot else boot ++ sep ++ init

/-- The text with a NUL terminator fits into `cap` bytes. -/
def Fits (boot init : Str) (cap : UInt64) : Prop := (text boot init).utf8Len + 1 ≤ cap.toNat

instance (b i : Str) (cap : UInt64) : Decidable (Fits b i cap) := by unfold Fits; infer_instance

/-- `args` extended by one more argument: separated by a space unless it is the first. -/
def extend (args s : Str) : Str := if args = [] then s else args ++ ' ' :: s

/-- A list of arguments joined by single spaces. -/
def joinSp : List Str → Str
  | [] => []
  | [a] => a
  | a :: as => a ++ ' ' :: joinSp as

/-- A list of values joined by commas. -/
def joinCommas : List Str → Str
  | [] => []
  | [a] => a
  | a :: as => a ++ ',' :: joinCommas as

/-- `s` is enclosed in double quotes. -/
def Enclosed (s : Str) : Prop := ∃ w, s = '"' :: w ++ ['"']

/-- `s` has a double quote which is neither its first nor its last character. -/
def InnerQuote (s : Str) : Prop := ∃ a b, s = a ++ '"' :: b ∧ a ≠ [] ∧ b ≠ []

/-- What is wrong with a key, in order of precedence. -/
inductive KeyProblem (k : Str) : CmdlineError → Prop
  | ascii : ¬ Printable k → KeyProblem k .invalidAscii
  | space : Printable k → ' ' ∈ k → KeyProblem k .hasSpace
  | equals : Printable k → ' ' ∉ k → '=' ∈ k → KeyProblem k .hasEquals

/-- A legal key. -/
def LegalKey (k : Str) : Prop := Printable k ∧ ' ' ∉ k ∧ '=' ∉ k

/-- What is wrong with a value, in order of precedence. -/
inductive ValueProblem (v : Str) : CmdlineError → Prop
  | ascii : ¬ Printable v → ValueProblem v .invalidAscii
  | quote : Printable v → InnerQuote v → ValueProblem v .invalidQuote
  | space : Printable v → ¬ InnerQuote v → ' ' ∈ v → ¬ Enclosed v → ValueProblem v .noQuoteSpace

/-- A legal value. -/
def LegalValue (v : Str) : Prop := Printable v ∧ ¬ InnerQuote v ∧ (' ' ∈ v → Enclosed v)

/-- `s` is cut at the first separator that is preceded by an even number of double quotes. -/
def CutAtFirstSep (s pre post : Str) : Prop :=
  s = pre ++ sep ++ post ∧ pre.count '"' % 2 = 0 ∧
  ∀ pre' post', s = pre' ++ sep ++ post' → pre'.count '"' % 2 = 0 → pre.length ≤ pre'.length

/-- No separator of `s` is preceded by an even number of double quotes. -/
def NoSep (s : Str) : Prop := ∀ pre post, s = pre ++ sep ++ post → pre.count '"' % 2 ≠ 0

/-- The boot and init arguments of a raw command line. -/
def SplitsInto (s boot init : Str) : Prop :=
  (∃ pre post, CutAtFirstSep s pre post ∧ Trimmed pre boot ∧ Trimmed post init) ∨
  (NoSep s ∧ Trimmed s boot ∧ init = [])

/-- A size with the largest of the suffixes `G`, `M`, `K` that divides it, in decimal. -/
def sizeText (n : Nat) : Str :=
  if 2 ^ 30 ∣ n then Nat.toDigits 10 (n / 2 ^ 30) ++ "G".toList
  else if 2 ^ 20 ∣ n then Nat.toDigits 10 (n / 2 ^ 20) ++ "M".toList
  else if 2 ^ 10 ∣ n then Nat.toDigits 10 (n / 2 ^ 10) ++ "K".toList
  else Nat.toDigits 10 n

/-- `<size>@0x<base>:<irq>[:<id>]`: the base in hexadecimal, the others in decimal. -/
def deviceText (size base : UInt64) (irq : UInt32) (id : Option UInt32) : Str :=
  sizeText size.toNat ++ "@0x".toList ++ Nat.toDigits 16 base.toNat ++ ":".toList ++
    Nat.toDigits 10 irq.toNat ++
    match id with
    | none => []
    | some i => ":".toList ++ Nat.toDigits 10 i.toNat

open Cmdline (Op)

/-- The boot argument text a builder call contributes when it is accepted. How the kernel reads the
virtio text is the subject of C13. -/
inductive BootText : Op → Str → Prop
  | insert {k v} : BootText (.insert k v) (k ++ '=' :: v)
  | insertMultiple {k vs} : BootText (.insertMultiple k vs) (k ++ '=' :: joinCommas vs)
  | insertStr {s t} : Trimmed s t → BootText (.insertStr s) t
  | virtio {size base irq id} :
      BootText (.addVirtio size base irq id) ("virtio_mmio.device=".toList ++ deviceText size base irq id)

/-- The init argument text a builder call contributes when it is accepted. -/
inductive InitText : Op → Str → Prop
  | insertInitArgs {s t} : Trimmed s t → InitText (.insertInitArgs s) t

/-- A history of builder calls leading from `c` to `c'`, with the texts of the accepted boot and
init arguments in call order; rejected calls contribute nothing. -/
inductive Trace : Cmdline → List Op → List Str → List Str → Cmdline → Prop
  | nil {c} : Trace c [] [] [] c
  | rejected {c op ops bs is c'} : (c.step op).2 ≠ .ok () → Trace (c.step op).1 ops bs is c' →
      Trace c (op :: ops) bs is c'
  | boot {c op ops bs is c' t} : (c.step op).2 = .ok () → BootText op t →
      Trace (c.step op).1 ops bs is c' → Trace c (op :: ops) (t :: bs) is c'
  | init {c op ops bs is c' t} : (c.step op).2 = .ok () → InitText op t →
      Trace (c.step op).1 ops bs is c' → Trace c (op :: ops) bs (t :: is) c'

end LinuxLoader.Spec
