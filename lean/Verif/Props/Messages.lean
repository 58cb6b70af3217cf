import Verif.Spec.Messages

/-! # C65: the texts of the messages, in full

The tables of `Verif.Spec.Messages` come from the source text; the theorems say that every error prints
its row of them. -/

namespace LinuxLoader
open Messages

private theorem of_table {E : Type} (t : List (E × String)) (disp : E → Str)
    (key : ∀ p ∈ t, disp p.1 = p.2.toList) {e : E} (h : e ∈ t.map Prod.fst) :
    ∃ p ∈ t, p.1 = e ∧ disp e = p.2.toList := by
  obtain ⟨p, hp, rfl⟩ := List.mem_map.1 h
  exact ⟨p, hp, rfl, key p hp⟩

/-- C65: every error of the command line builder other than `MissingVal` prints its row of the table. -/
theorem C65_cmdline_messages (e : CmdlineError) :
    (∃ k, e = .missingVal k ∧ e.display = "Missing value for key ".toList ++ k ++ ".".toList) ∨
      ∃ p ∈ cmdlineTexts, p.1 = e ∧ e.display = p.2.toList := by
  have key : ∀ p ∈ cmdlineTexts, p.1.display = p.2.toList := by decide +kernel
  have hm : (∃ k, e = .missingVal k) ∨ e ∈ cmdlineTexts.map Prod.fst := by
    cases e <;> simp [cmdlineTexts]
  rcases hm with ⟨k, rfl⟩ | hm
  · left
    refine ⟨k, rfl, ?_⟩
    unfold CmdlineError.display
    rfl
  · exact .inr (of_table _ CmdlineError.display key hm)

/-- C65: every error of the ELF loader prints its row of the table. -/
theorem C65_elf_messages (e : ElfError) : ∃ p ∈ elfTexts, p.1 = e ∧ e.display = p.2.toList :=
  of_table _ _ (by decide +kernel) (by cases e <;> decide)

/-- C65: every error of the bzImage loader prints its row of the table. -/
theorem C65_bzimage_messages (e : BzError) : ∃ p ∈ bzTexts, p.1 = e ∧ e.display = p.2.toList :=
  of_table _ _ (by decide +kernel) (by cases e <;> decide)

/-- C65: every error of the PE loader prints its row of the table. -/
theorem C65_pe_messages (e : PeError) : ∃ p ∈ peTexts, p.1 = e ∧ e.display = p.2.toList :=
  of_table _ _ (by decide +kernel) (by cases e <;> decide)

/-- C65: every error of the three configurators prints its row of the tables. -/
theorem C65_configurator_messages :
    (∀ e : LinuxError, ∃ p ∈ linuxTexts, p.1 = e ∧ e.display = p.2.toList) ∧
    (∀ e : PvhError, ∃ p ∈ pvhTexts, p.1 = e ∧ e.display = p.2.toList) ∧
    (∀ e : FdtError, ∃ p ∈ fdtTexts, p.1 = e ∧ e.display = p.2.toList) :=
  ⟨fun e => of_table _ _ (by decide +kernel) (by cases e <;> decide),
   fun e => of_table _ _ (by decide +kernel) (by cases e <;> decide),
   fun e => of_table _ _ (by decide +kernel) (by cases e <;> decide)⟩

/-- C65: what `loader::Error` prints: its own text, then for the error of a format that error's text. -/
theorem C65_kernel_messages (e : KernelError) :
    (∃ x, e = .elf x ∧ e.display =
      "Kernel Loader: failed to load ELF kernel image: ".toList ++ x.display) ∨
    (∃ x, e = .bzimage x ∧ e.display =
      "Kernel Loader: failed to load bzImage kernel image: ".toList ++ x.display) ∨
    (∃ x, e = .pe x ∧ e.display =
      "Kernel Loader: failed to load PE kernel image: ".toList ++ x.display) ∨
    ∃ p ∈ kernelTexts, p.1 = e ∧ e.display = p.2.toList := by
  have key : ∀ p ∈ kernelTexts, p.1.display = p.2.toList := by decide +kernel
  have h1 : "Kernel Loader: failed to load ELF kernel image: ".toList =
      "Kernel Loader: ".toList ++ "failed to load ELF kernel image: ".toList := by decide +kernel
  have h2 : "Kernel Loader: failed to load bzImage kernel image: ".toList =
      "Kernel Loader: ".toList ++ "failed to load bzImage kernel image: ".toList := by decide +kernel
  have h3 : "Kernel Loader: failed to load PE kernel image: ".toList =
      "Kernel Loader: ".toList ++ "failed to load PE kernel image: ".toList := by decide +kernel
  cases e with
  | elf x => exact .inl ⟨x, rfl, by rw [h1, List.append_assoc]; rfl⟩
  | bzimage x => exact .inr (.inl ⟨x, rfl, by rw [h2, List.append_assoc]; rfl⟩)
  | pe x => exact .inr (.inr (.inl ⟨x, rfl, by rw [h3, List.append_assoc]; rfl⟩))
  | invalidCommandLine => exact .inr (.inr (.inr (of_table _ KernelError.display key (by decide))))
  | commandLineCopy => exact .inr (.inr (.inr (of_table _ KernelError.display key (by decide))))
  | commandLineOverflow => exact .inr (.inr (.inr (of_table _ KernelError.display key (by decide))))
  | invalidKernelStartAddress => exact .inr (.inr (.inr (of_table _ KernelError.display key (by decide))))
  | memoryOverflow => exact .inr (.inr (.inr (of_table _ KernelError.display key (by decide))))

/-- C65: what `configurator::Error` prints. -/
theorem C65_config_messages :
    (∀ e : LinuxError, (ConfigError.linux e).display =
      "Boot Configurator: failed to configure boot parameter by Linux Boot protocol.".toList) ∧
    (∀ e : PvhError, (ConfigError.pvh e).display =
      "Boot Configurator: failed to configure boot parameter by PVH.".toList) ∧
    (∀ e : FdtError, (ConfigError.fdt e).display =
      "Boot Configurator: failed to configure boot parameter by FDT.".toList) ∧
    ∀ e : ListError, ∃ p ∈ listTexts, p.1 = .list e ∧ (ConfigError.list e).display = p.2.toList :=
  ⟨fun e => by cases e <;> decide +kernel, fun e => by cases e <;> decide +kernel,
   fun e => by cases e <;> decide +kernel,
   fun e => of_table _ ConfigError.display (by decide +kernel) (by cases e <;> decide)⟩

/-- C65, non-vacuity: the tables list every variant once. -/
example : (cmdlineTexts.map Prod.fst).Nodup ∧ cmdlineTexts.length = 10 ∧ (elfTexts.map Prod.fst).Nodup ∧
    elfTexts.length = 17 ∧ (bzTexts.map Prod.fst).Nodup ∧ bzTexts.length = 8 ∧
    (peTexts.map Prod.fst).Nodup ∧ peTexts.length = 11 ∧ (pvhTexts.map Prod.fst).Nodup ∧
    pvhTexts.length = 8 ∧ kernelTexts.length = 5 ∧ listTexts.length = 3 := by decide +kernel

end LinuxLoader
