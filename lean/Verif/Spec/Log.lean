import Verif.Spec.Cmdline

/-! # What a log shows of a string -/

namespace LinuxLoader.Spec

/-- A string as it stands between the double quotes of a Rust string literal, if it consists of printable ASCII
characters: a backslash before each double quote and each backslash. -/
def quoted (s : Str) : Str := s.flatMap fun c => if c = '"' ∨ c = '\\' then ['\\', c] else [c]

/-- A text that stays on one line of a log and cannot control a terminal: printable ASCII characters, and others only if
they are printable according to the Unicode tables used and come from the logged strings `sources`. -/
def OneLine (printable : Char → Bool) (sources : List Str) (t : Str) : Prop :=
  ∀ c ∈ t, (0x20 ≤ c.toNat ∧ c.toNat ≤ 0x7e) ∨
    (0x80 ≤ c.toNat ∧ printable c = true ∧ ∃ s ∈ sources, c ∈ s)

end LinuxLoader.Spec
