import Verif.Spec.Cmdline

/-!
# How the Linux kernel reads a command line

Transcribed from the Linux sources (not part of `/repo`): `next_arg` (lib/cmdline.c), `parse_args`
(kernel/params.c), `memparse` (lib/cmdline.c) and `vm_cmdline_set`
(drivers/virtio/virtio_mmio.c). Only used in property statements.
-/

namespace LinuxLoader.Spec.Kernel

/-- `isspace` on ASCII. -/
def space (c : Char) : Bool := c.toNat ∈ [9, 10, 11, 12, 13, 32]

/-- `skip_spaces`. -/
def skipSpaces (s : Str) : Str := s.dropWhile space

/-- The scanning loop of `next_arg`: the token up to an unquoted space or the end, and the rest. -/
def scan : Bool → Str → Str × Str
  | _, [] => ([], [])
  | inQuote, c :: r =>
    if space c && !inQuote then ([], c :: r)
    else
      let (t, r') := scan (if c = '"' then !inQuote else inQuote) r
      (c :: t, r')

/-- Parameter and value: the token is cut at its first `=` that is not its first character
(`equals == 0` means "none" in `next_arg`). -/
def cutEquals : Str → Str × Option Str
  | [] => ([], none)
  | c :: t =>
    match t.dropWhile (· != '=') with
    | [] => (c :: t, none)
    | _ :: v => (c :: t.takeWhile (· != '='), some v)

/-- `s` ends with a double quote. -/
def endsQuoted (s : Str) : Bool := s.getLast? = some '"'

/-- Removal of quotes by `next_arg`; `quoted` says that the token started with a quote, which has
already been dropped. -/
def unquote (quoted : Bool) (tok : Str) (p : Str × Option Str) : Str × Option Str :=
  match p with
  | (param, some v) =>
    if v.head? = some '"' then
      (param, some (if endsQuoted tok then v.tail.dropLast else v.tail))
    else (param, some (if quoted && endsQuoted tok then v.dropLast else v))
  | (param, none) => (if quoted && endsQuoted tok then param.dropLast else param, none)

/-- `next_arg`: parameter, value, and the remaining arguments. -/
def nextArg (args : Str) : (Str × Option Str) × Str :=
  let quoted := args.head? = some '"'
  let (tok, rest) := scan quoted (if quoted then args.tail else args)
  (unquote quoted tok (cutEquals tok), skipSpaces rest.tail)

theorem scan_length (q : Bool) (s : Str) : (scan q s).1.length + (scan q s).2.length = s.length := by
  fun_induction scan q s with
  | case1 => rfl
  | case2 => simp
  | case3 q c r _ t r' h ih => rw [h] at ih; simp only [List.length_cons]; simp only at ih; omega

theorem skipSpaces_length (s : Str) : (skipSpaces s).length ≤ s.length :=
  (List.dropWhile_suffix _).length_le

theorem nextArg_length (args : Str) (h : args ≠ []) : (nextArg args).2.length < args.length := by
  have hp := List.length_pos_iff.2 h
  unfold nextArg
  simp only
  have h1 := skipSpaces_length
    (scan (decide (args.head? = some '"')) (if args.head? = some '"' then args.tail else args)).2.tail
  have h2 := scan_length (decide (args.head? = some '"'))
    (if args.head? = some '"' then args.tail else args)
  simp only [List.length_tail] at h1
  split at h2
  · simp only [List.length_tail] at h2; simp_all; omega
  · simp_all; omega

/-- `parse_args` after the leading `skip_spaces`: the parameters with their values up to a lone
`--`, and what follows that (the init arguments), if it occurs. -/
def parseLoop (args : Str) : List (Str × Option Str) × Option Str :=
  if args = [] then ([], none)
  else
    let r := nextArg args
    if r.1 = (['-', '-'], none) then ([], some r.2)
    else
      let (l, i) := parseLoop r.2
      (r.1 :: l, i)
termination_by args.length
decreasing_by exact nextArg_length args ‹_›

/-- `parse_args`. -/
def parseArgs (args : Str) : List (Str × Option Str) × Option Str := parseLoop (skipSpaces args)

/-! ## virtio_mmio.device= -/

/-- Value of a hexadecimal digit. -/
def digit (c : Char) : Option Nat :=
  let n := c.toNat
  if 48 ≤ n ∧ n ≤ 57 then some (n - 48)
  else if 97 ≤ n ∧ n ≤ 102 then some (n - 87)
  else if 65 ≤ n ∧ n ≤ 70 then some (n - 55)
  else none

/-- A digit in the given base. -/
def isDigitIn (base : Nat) (c : Char) : Bool :=
  match digit c with
  | some d => d < base
  | none => false

/-- `simple_strtoull(s, &end, base)`: value of the leading digits and the rest. -/
def number (base : Nat) (s : Str) : Nat × Str :=
  ((s.takeWhile (isDigitIn base)).foldl (fun a c => a * base + (digit c).getD 0) 0,
   s.dropWhile (isDigitIn base))

/-- `simple_strtoull(s, &end, 0)`: hexadecimal after `0x`, octal after `0`, decimal otherwise. -/
def numberAuto (s : Str) : Nat × Str :=
  match s with
  | '0' :: 'x' :: r => if (r.head?.map (isDigitIn 16)).getD false then number 16 r else number 8 s
  | '0' :: 'X' :: r => if (r.head?.map (isDigitIn 16)).getD false then number 16 r else number 8 s
  | '0' :: _ => number 8 s
  | _ => number 10 s

/-- `memparse`: a number with an optional multiplier suffix. -/
def memparse (s : Str) : Nat × Str :=
  let (n, r) := numberAuto s
  match r with
  | 'K' :: r => (n * 2 ^ 10, r)
  | 'k' :: r => (n * 2 ^ 10, r)
  | 'M' :: r => (n * 2 ^ 20, r)
  | 'm' :: r => (n * 2 ^ 20, r)
  | 'G' :: r => (n * 2 ^ 30, r)
  | 'g' :: r => (n * 2 ^ 30, r)
  | 'T' :: r => (n * 2 ^ 40, r)
  | 't' :: r => (n * 2 ^ 40, r)
  | 'P' :: r => (n * 2 ^ 50, r)
  | 'p' :: r => (n * 2 ^ 50, r)
  | 'E' :: r => (n * 2 ^ 60, r)
  | 'e' :: r => (n * 2 ^ 60, r)
  | r => (n, r)

/-- A decimal number with at least one digit (`%u`, `%d` without sign). -/
def decimal (s : Str) : Option (Nat × Str) :=
  if (s.head?.map (isDigitIn 10)).getD false then some (number 10 s) else none

/-- `<size>@<base>:<irq>[:<id>]`. -/
def parseDevice (s : Str) : Option (Nat × Nat × Nat × Option Nat) :=
  let (size, r) := memparse s
  match r with
  | '@' :: r =>
    let (base, r) := numberAuto r
    match r with
    | ':' :: r =>
      match decimal r with
      | some (irq, []) => some (size, base, irq, none)
      | some (irq, ':' :: r) =>
        match decimal r with
        | some (id, []) => some (size, base, irq, some id)
        | _ => none
      | _ => none
    | _ => none
  | _ => none

/-! ## Arguments the kernel reads back as given -/

/-- Double quotes come in pairs. -/
def Balanced (s : Str) : Prop := s.count '"' % 2 = 0

instance (s : Str) : Decidable (Balanced s) := by unfold Balanced; infer_instance

/-- `w` is the value `v` without its enclosing quotes, if it has them. -/
inductive Unquoted : Str → Str → Prop
  | enclosed {w} : Unquoted ('"' :: w ++ ['"']) w
  | plain {v} : ¬ Enclosed v → Unquoted v v

/-- Keys and values which the kernel reads as given: the key is not empty and does not start with a
quote, the value has no unmatched opening quote, and the quotes of both together come in pairs. -/
def KernelSafe (k v : Str) : Prop :=
  k ≠ [] ∧ k.head? ≠ some '"' ∧ (v.head? = some '"' → Enclosed v) ∧ Balanced (k ++ '=' :: v)

open Cmdline (Op)

/-- The parameter and value the kernel should see for an accepted call. Excluded are pairs that are
not `KernelSafe`, which the builder accepts but the kernel reads as something else (`C12_pair_exact`),
and lists with unbalanced values. -/
inductive Arg : Op → Str → Str → Prop
  | insert {k v w} : KernelSafe k v → Unquoted v w → Arg (.insert k v) k w
  | multiple {k vs w} : KernelSafe k (joinCommas vs) → (∀ v ∈ vs, Balanced v) →
      Unquoted (joinCommas vs) w → Arg (.insertMultiple k vs) k w
  | virtio {size base irq id} :
      Arg (.addVirtio size base irq id) "virtio_mmio.device".toList (deviceText size base irq id)

/-- A history of builder calls with the parameters the kernel should see, and the accepted init
arguments. -/
inductive History : Cmdline → List Op → List (Str × Str) → List Str → Cmdline → Prop
  | nil {c} : History c [] [] [] c
  | rejected {c op ops ps is c'} : (c.step op).2 ≠ .ok () → History (c.step op).1 ops ps is c' →
      History c (op :: ops) ps is c'
  | boot {c op ops ps is c' k v} : (c.step op).2 = .ok () → Arg op k v →
      History (c.step op).1 ops ps is c' → History c (op :: ops) ((k, v) :: ps) is c'
  | init {c op ops ps is c' t} : (c.step op).2 = .ok () → InitText op t →
      History (c.step op).1 ops ps is c' → History c (op :: ops) ps (t :: is) c'

end LinuxLoader.Spec.Kernel
