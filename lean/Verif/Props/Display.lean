import Verif.Model.Display
import Verif.Lemmas.Kernel

/-! # C65: what the error values tell their user

A user of the crate sees an error through `Display` (`to_string`) and through the chain of
`Error::source`. The theorems say which distinctions survive. -/

namespace LinuxLoader

/-- The chain of messages a generic error reporter prints for a configurator error: the error's message,
then its source's. -/
def ConfigError.chain (e : ConfigError) : List Str := e.display :: e.source.toList

private def ElfError.all : List ElfError :=
  [.align, .bigEndianElfOnLittle, .invalidElfMagicNumber, .invalidProgramHeaderSize,
   .invalidProgramHeaderOffset, .invalidProgramHeaderAddress, .invalidEntryAddress, .overflow,
   .readElfHeader, .readKernelImage, .readProgramHeader, .seekKernelStart, .seekElfStart,
   .seekProgramHeader, .seekNoteHeader, .readNoteHeader, .invalidPvhNote]

private def BzError.all : List BzError :=
  [.invalidBzImage, .overflow, .readBzImageHeader, .readBzImageCompressedKernel, .seekBzImageEnd,
   .seekBzImageHeader, .seekBzImageCompressedKernel, .underflow]

private def PeError.all : List PeError :=
  [.seekImageEnd, .seekImageHeader, .readImageHeader, .readDtbImage, .seekDtbStart, .seekDtbEnd,
   .invalidImage, .invalidImageMagicNumber, .dtbTooBig, .readKernelImage, .invalidBaseAddrAlignment]

private def KernelError.all : List KernelError :=
  BzError.all.map .bzimage ++ ElfError.all.map .elf ++ PeError.all.map .pe ++
    [.invalidCommandLine, .commandLineCopy, .commandLineOverflow, .invalidKernelStartAddress,
     .memoryOverflow]

private def LinuxError.all : List LinuxError := [.zeroPagePastRamEnd, .zeroPageSetup]

private def PvhError.all : List PvhError :=
  [.memmapTableAddressMissing, .memmapTableMissing, .memmapTablePastRamEnd, .memmapTableSetup,
   .startInfoPastRamEnd, .startInfoSetup, .modulesAddressMissing, .modulesSetup]

private def FdtError.all : List FdtError := [.fdtPastRamEnd, .writeFdtToMemory]

private def ConfigError.all : List ConfigError :=
  LinuxError.all.map .linux ++ PvhError.all.map .pvh ++ FdtError.all.map .fdt ++
    [.list .missingStartAddress, .list .overflow, .list .invalidAddress]

private theorem ElfError.mem_all (e : ElfError) : e ∈ ElfError.all := by
  cases e <;> simp [ElfError.all]
private theorem BzError.mem_all (e : BzError) : e ∈ BzError.all := by
  cases e <;> simp [BzError.all]
private theorem PeError.mem_all (e : PeError) : e ∈ PeError.all := by
  cases e <;> simp [PeError.all]
private theorem LinuxError.mem_all (e : LinuxError) : e ∈ LinuxError.all := by
  cases e <;> simp [LinuxError.all]
private theorem PvhError.mem_all (e : PvhError) : e ∈ PvhError.all := by
  cases e <;> simp [PvhError.all]
private theorem FdtError.mem_all (e : FdtError) : e ∈ FdtError.all := by
  cases e <;> simp [FdtError.all]

private theorem KernelError.mem_all (e : KernelError) : e ∈ KernelError.all := by
  cases e <;> simp [KernelError.all, ElfError.mem_all, BzError.mem_all, PeError.mem_all]

private theorem ConfigError.mem_all (e : ConfigError) : e ∈ ConfigError.all := by
  cases e with
  | list l => cases l <;> simp [ConfigError.all]
  | _ => simp [ConfigError.all, LinuxError.mem_all, PvhError.mem_all, FdtError.mem_all]

/-- C65: two different errors of a kernel loader never print the same message: every variant of
`loader::Error`, with everything it wraps, on every architecture. -/
theorem C65_loader_display_injective (e f : KernelError) (h : e.display = f.display) : e = f := by
  have key : ∀ e ∈ KernelError.all, ∀ f ∈ KernelError.all, e.display = f.display → e = f := by
    decide +kernel
  exact key e e.mem_all f f.mem_all h

/-- C65: the conversion of the loaders' errors into `loader::Error` loses nothing. -/
theorem C65_wrap_injective (e f : LoadError) (h : e.toKernelError = f.toKernelError) : e = f := by
  cases e <;> cases f <;> simp_all [LoadError.toKernelError]

/-- C65: so the message of a failed `load` determines the failure. -/
theorem C65_load_message_injective (e f : LoadError)
    (h : e.toKernelError.display = f.toKernelError.display) : e = f :=
  C65_wrap_injective e f (C65_loader_display_injective _ _ h)

/-- C65: a `loader::Error` has a source exactly when it wraps an image format's error, and its own
message ends with the source's message. -/
theorem C65_loader_source (e : KernelError) :
    (e.source.isSome = true ↔ (∃ x, e = .bzimage x) ∨ (∃ x, e = .elf x) ∨ ∃ x, e = .pe x) ∧
      ∀ m, e.source = some m → m <:+ e.display := by
  constructor
  · cases e <;> simp [KernelError.source]
  · have key : ∀ e ∈ KernelError.all,
        e.source.all (fun m => m.isSuffixOf e.display) = true := by decide +kernel
    intro m h
    have := key e e.mem_all
    rw [h] at this
    simpa using this

/-- C65, limit: the message of the source alone does not name the image format — an ELF and a
bzImage arithmetic overflow read the same. -/
theorem C65_source_alone_refuted : ElfError.overflow.display = BzError.overflow.display := rfl

/-- C65: the chain (message, then source's message) of a configurator error determines it. -/
theorem C65_config_chain_injective (e f : ConfigError) (h : e.chain = f.chain) : e = f := by
  have key : ∀ e ∈ ConfigError.all, ∀ f ∈ ConfigError.all, e.chain = f.chain → e = f := by
    decide +kernel
  exact key e e.mem_all f f.mem_all h

private def sameProtocol : ConfigError → ConfigError → Bool
  | .linux _, .linux _ => true
  | .pvh _, .pvh _ => true
  | .fdt _, .fdt _ => true
  | _, _ => false

/-- C65: the message of a configurator error alone determines which protocol failed, or which of the
three list errors occurred, and nothing else: two errors print the same message exactly when they are
equal or both wrap errors of the same protocol. -/
theorem C65_config_display_exact (e f : ConfigError) :
    e.display = f.display ↔
      e = f ∨ (∃ x y, e = .linux x ∧ f = .linux y) ∨ (∃ x y, e = .pvh x ∧ f = .pvh y) ∨
        (∃ x y, e = .fdt x ∧ f = .fdt y) := by
  constructor
  · intro h
    have key : ∀ e ∈ ConfigError.all, ∀ f ∈ ConfigError.all, e.display = f.display →
        e = f ∨ sameProtocol e f = true := by decide +kernel
    rcases key e e.mem_all f f.mem_all h with h | h
    · exact .inl h
    · cases e <;> cases f <;> simp_all [sameProtocol]
  · rintro (rfl | ⟨x, y, rfl, rfl⟩ | ⟨x, y, rfl, rfl⟩ | ⟨x, y, rfl, rfl⟩) <;> rfl

private def nullary : List CmdlineError :=
  [.nullTerminator, .noBootArgsInserted, .invalidCapacity, .invalidAscii, .hasSpace, .hasEquals,
   .mmioSize, .tooLarge, .noQuoteSpace, .invalidQuote]

private theorem missing_display (k : Str) : (CmdlineError.missingVal k).display =
    "Missing value for key ".toList ++ k ++ ".".toList := by unfold CmdlineError.display; rfl

private theorem missing_head (k : Str) : (CmdlineError.missingVal k).display.head? = some 'M' := by
  have hm : "Missing value for key ".toList = 'M' :: "issing value for key ".toList := by
    decide +kernel
  rw [missing_display, hm, List.cons_append, List.cons_append, List.head?_cons]

private theorem nullary_or (e : CmdlineError) : (∃ k, e = .missingVal k) ∨ e ∈ nullary := by
  cases e <;> simp [nullary]

/-- C65: two different errors of the command line builder never print the same message. The key of
`MissingVal` is arbitrary. -/
theorem C65_cmdline_display_injective (e f : CmdlineError) (h : e.display = f.display) : e = f := by
  have hn : ∀ e ∈ nullary, e.display.head? ≠ some 'M' := by decide +kernel
  have key : ∀ e ∈ nullary, ∀ f ∈ nullary, e.display = f.display → e = f := by decide +kernel
  rcases nullary_or e with ⟨k, rfl⟩ | he
  · rcases nullary_or f with ⟨k', rfl⟩ | hf
    · rw [missing_display, missing_display] at h
      generalize "Missing value for key ".toList = A at h
      generalize ".".toList = B at h
      rw [List.append_cancel_left (List.append_cancel_right h)]
    · have := hn f hf
      rw [← h] at this
      exact absurd (missing_head _) this
  · rcases nullary_or f with ⟨k', rfl⟩ | hf
    · have := hn e he
      rw [h] at this
      exact absurd (missing_head _) this
    · exact key e he f hf h

private theorem present_display (a : Nat) : (PvhCap.present a).display =
    "PVH entry point present at guest address: ".toList ++ hexAlt a := by
  unfold PvhCap.display; rfl

/-- C65: what a loaded kernel's PVH capability prints determines it, address included: the hexadecimal
number in the message reads back as the entry point. -/
theorem C65_pvh_display_injective (p q : PvhCap) (h : p.display = q.display) : p = q := by
  have hx : ∀ a, Spec.Kernel.numberAuto (hexAlt a) = (a, []) := by
    intro a
    have := numberAuto_hex a [] (by simp)
    simpa [hexAlt] using this
  have h1 : ∀ q ∈ [PvhCap.notPresent, .ignored],
      "PVH entry point present at guest address: ".toList.isPrefixOf q.display = false := by
    decide +kernel
  have h2 : ∀ a, "PVH entry point present at guest address: ".toList.isPrefixOf
      (PvhCap.present a).display = true := by
    intro a
    rw [present_display]
    generalize "PVH entry point present at guest address: ".toList = A
    rw [List.isPrefixOf_iff_prefix]
    exact List.prefix_append ..
  have h3 : PvhCap.notPresent.display ≠ PvhCap.ignored.display := by decide +kernel
  cases p with
  | present a =>
    cases q with
    | present b =>
      rw [present_display, present_display] at h
      generalize "PVH entry point present at guest address: ".toList = A at h
      have h := List.append_cancel_left h
      have h1 := hx a
      rw [h, hx b] at h1
      rw [(Prod.mk.inj h1).1]
    | notPresent => have := h2 a; rw [h, h1 _ (by simp)] at this; exact absurd this (by simp)
    | ignored => have := h2 a; rw [h, h1 _ (by simp)] at this; exact absurd this (by simp)
  | notPresent =>
    cases q with
    | present a => have := h2 a; rw [← h, h1 _ (by simp)] at this; exact absurd this (by simp)
    | notPresent => rfl
    | ignored => exact absurd h h3
  | ignored =>
    cases q with
    | present a => have := h2 a; rw [← h, h1 _ (by simp)] at this; exact absurd this (by simp)
    | notPresent => exact absurd h.symm h3
    | ignored => rfl

/-- C65, non-vacuity: messages in full. -/
example :
    (KernelError.elf .invalidElfMagicNumber).display =
      "Kernel Loader: failed to load ELF kernel image: Kernel Loader: Invalid Elf magic number".toList
    ∧ (CmdlineError.missingVal "a".toList).display = "Missing value for key a.".toList
    ∧ (PvhCap.present 0x1000000).display =
      "PVH entry point present at guest address: 0x1000000".toList
    ∧ (PvhCap.present 0x123456789abcdef0).display =
      "PVH entry point present at guest address: 0x123456789abcdef0".toList
    ∧ (PvhCap.present 0).display = "PVH entry point present at guest address: 0x0".toList
    ∧ PvhCap.notPresent.display = "PVH entry point not present".toList
    ∧ PvhCap.ignored.display = "PVH entry point ignored".toList := by decide +kernel

end LinuxLoader
