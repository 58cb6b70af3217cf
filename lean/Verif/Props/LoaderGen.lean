import Verif.Model.LoaderGen
import Verif.Props.ZeroPage

/-!
# The helpers and trait implementations of the generated structures (C76, C77)
-/

namespace LinuxLoader
open Spec

/-! ## C76 -/

/-- **C76.** Symbol information is `16 * binding + type` (`ELF_ST_INFO` of the ELF specification). -/
theorem C76_symbol_info (info : UInt8) :
    info.toNat = 16 * (elfStBind info).toNat + (elfStType info).toNat ∧ (elfStType info).toNat < 16 := by
  unfold elfStBind elfStType
  rw [UInt8.toNat_shiftRight, UInt8.toNat_and]
  have h1 : (4 : UInt8).toNat % 8 = 4 := rfl
  have h2 : (0xf : UInt8).toNat = 2 ^ 4 - 1 := rfl
  rw [h1, h2, Nat.shiftRight_eq_div_pow, Nat.and_two_pow_sub_one_eq_mod]
  omega

/-- **C76.** `r_info` of 32-bit relocations is `256 * symbol + type` (`ELF32_R_INFO`). -/
theorem C76_rel32_info (info : UInt32) :
    info.toNat = 256 * (elf32RSym info).toNat + (elf32RType info).toNat ∧
    (elf32RSym info).toNat < 2 ^ 24 := by
  unfold elf32RSym elf32RType
  rw [UInt32.toNat_shiftRight, UInt32.toNat_toUInt8, UInt32.toNat_and]
  have h1 : (8 : UInt32).toNat % 32 = 8 := rfl
  have h2 : (0xff : UInt32).toNat = 2 ^ 8 - 1 := rfl
  have := info.toNat_lt
  rw [h1, h2, Nat.shiftRight_eq_div_pow, Nat.and_two_pow_sub_one_eq_mod]
  omega

/-- **C76.** `r_info` of 64-bit relocations is `2^32 * symbol + type` (`ELF64_R_INFO`). -/
theorem C76_rel64_info (info : UInt64) :
    info.toNat = 2 ^ 32 * (elf64RSym info).toNat + (elf64RType info).toNat := by
  unfold elf64RSym elf64RType
  rw [UInt64.toNat_toUInt32, UInt64.toNat_toUInt32, UInt64.toNat_shiftRight, UInt64.toNat_and]
  have h1 : (32 : UInt64).toNat % 64 = 32 := rfl
  have h2 : (0xffffffff : UInt64).toNat = 2 ^ 32 - 1 := rfl
  have := info.toNat_lt
  rw [h1, h2, Nat.shiftRight_eq_div_pow, Nat.and_two_pow_sub_one_eq_mod]
  omega

/-- **C76.** The helpers recover what was packed: `b`, `t` from `16 b + t`, and so on. -/
theorem C76_unpack :
    (∀ b t : Nat, b < 16 → t < 16 → (elfStBind (UInt8.ofNat (16 * b + t))).toNat = b ∧
      (elfStType (UInt8.ofNat (16 * b + t))).toNat = t) ∧
    (∀ y t : Nat, y < 2 ^ 24 → t < 256 → (elf32RSym (UInt32.ofNat (256 * y + t))).toNat = y ∧
      (elf32RType (UInt32.ofNat (256 * y + t))).toNat = t) ∧
    (∀ y t : Nat, y < 2 ^ 32 → t < 2 ^ 32 → (elf64RSym (UInt64.ofNat (2 ^ 32 * y + t))).toNat = y ∧
      (elf64RType (UInt64.ofNat (2 ^ 32 * y + t))).toNat = t) := by
  refine ⟨fun b t hb ht => ?_, fun y t hy ht => ?_, fun y t hy ht => ?_⟩
  · have h := C76_symbol_info (UInt8.ofNat (16 * b + t))
    rw [UInt8.toNat_ofNat'] at h
    omega
  · have h := C76_rel32_info (UInt32.ofNat (256 * y + t))
    rw [UInt32.toNat_ofNat'] at h
    have := (elf32RType (UInt32.ofNat (256 * y + t))).toNat_lt
    omega
  · have h := C76_rel64_info (UInt64.ofNat (2 ^ 32 * y + t))
    rw [UInt64.toNat_ofNat'] at h
    have := (elf64RType (UInt64.ofNat (2 ^ 32 * y + t))).toNat_lt
    have := (elf64RSym (UInt64.ofNat (2 ^ 32 * y + t))).toNat_lt
    omega

/-- A global function, `R_X86_64_PC32` against symbol 5. -/
example : elfStBind 0x12 = 1 ∧ elfStType 0x12 = 2 ∧ elf64RSym 0x500000002 = 5 ∧
    elf64RType 0x500000002 = 2 ∧ elf32RSym 0x502 = 5 ∧ elf32RType 0x502 = 2 := by decide

/-! ## C77 -/

/-- All exported structures of integers. -/
def genLayouts : List Layout.Layout :=
  open Layout in
  [screenInfo, apmBiosInfo, istInfo, edidInfo, bootE820Entry, eddDeviceParams, eddInfo, setupHeader,
    sysDescTable, olpcOfwHeader, efiInfo, bootParams, hvmStartInfo, hvmModlistEntry, hvmMemmapTableEntry,
    elf32Nhdr, elf64Ehdr, elf64Phdr, elf64Nhdr, elf32Ehdr, elf32Phdr, elf32Shdr, elf32Sym, elf32Rel,
    elf32Rela, elf32Verdef, elf32Verdaux, elf64Shdr, elf64Sym, elf64Rel, elf64Rela, elf64Verdef,
    elf64Verdaux, arm64ImageHeader, riscv64ImageHeader]

/-- Fields in order, inside the structure, with distinct names. -/
def WellLaid (l : Layout.Layout) : Prop :=
  l.fields.Pairwise (fun g h => g.2.1 + g.2.2 ≤ h.2.1) ∧ (∀ f ∈ l.fields, f.2.1 + f.2.2 ≤ l.size) ∧
  ∀ f ∈ l.fields, l.fields.lookup f.1 = some f.2

instance (l : Layout.Layout) : Decidable (WellLaid l) := by unfold WellLaid; infer_instance

theorem genLayouts_wellLaid : ∀ l ∈ genLayouts, WellLaid l := by decide +kernel

theorem defaultFields_typed {l : Layout.Layout} (h : WellLaid l) : Typed l (defaultFields l) := by
  intro f hf
  unfold defaultFields
  rw [h.2.2 f hf]
  exact List.length_replicate

theorem encodeFields_zeros (fs : List (String × Nat × Nat)) (vs : List (List UInt8))
    (hv : ∀ v ∈ vs, ∀ b ∈ v, b = 0) : ∀ acc : List UInt8, (∀ b ∈ acc, b = 0) →
      ∀ b ∈ encodeFields fs vs acc, b = 0 := by
  induction fs generalizing vs with
  | nil => intro acc ha; cases vs <;> exact ha
  | cons f fs ih =>
    intro acc ha
    cases vs with
    | nil => exact ha
    | cons v vs =>
      refine ih vs (fun w hw => hv w (by simp [hw])) _ fun b hb => ?_
      rcases List.mem_append.1 hb with hb | hb
      · rcases List.mem_append.1 hb with hb | hb
        · exact ha b hb
        · exact (List.mem_replicate.1 hb).2
      · exact hv v (by simp) b hb

/-- **C77.** The default value of every exported structure is all zeros in memory. -/
theorem C77_default_zero {l : Layout.Layout} (hl : l ∈ genLayouts) :
    encodeBy l (defaultFields l) = List.replicate l.size 0 := by
  have hw := genLayouts_wellLaid l hl
  obtain ⟨h1, -⟩ := encodeBy_spec l hw.1 hw.2.1 _ (defaultFields_typed hw)
  refine List.eq_replicate_iff.2 ⟨h1, fun b hb => ?_⟩
  unfold encodeBy encode at hb
  rcases List.mem_append.1 hb with hb | hb
  · refine encodeFields_zeros _ _ (fun v hv => ?_) [] (fun b hb => nomatch hb) b hb
    obtain ⟨f, -, rfl⟩ := List.mem_map.1 hv
    intro b hb
    unfold defaultFields at hb
    split at hb
    · exact (List.mem_replicate.1 hb).2
    · cases hb
  · exact (List.mem_replicate.1 hb).2

theorem assign_other {v : String → List UInt8} {as : List (String × List UInt8)} {n : String}
    (h : ∀ p ∈ as, p.1 ≠ n) : assign v as n = v n := by
  induction as generalizing v with
  | nil => rfl
  | cons p as ih =>
    obtain ⟨k, b⟩ := p
    rw [assign, ih fun q hq => h q (by simp [hq])]
    exact if_neg fun he => h (k, b) (by simp) he.symm

theorem assign_typed {l : Layout.Layout} (hw : WellLaid l) {v : String → List UInt8} (hv : Typed l v) :
    ∀ as : List (String × List UInt8), (∀ p ∈ as, ∃ o, (p.1, o, p.2.length) ∈ l.fields) →
      Typed l (assign v as) := by
  intro as
  induction as generalizing v with
  | nil => intro _; exact hv
  | cons p as ih =>
    obtain ⟨k, b⟩ := p
    intro h
    refine ih (fun f hf => ?_) fun q hq => h q (by simp [hq])
    split
    · rename_i he
      obtain ⟨o, ho⟩ := h (k, b) (by simp)
      have e1 := hw.2.2 f hf
      have e2 := hw.2.2 _ ho
      simp only at e2
      rw [he, e2] at e1
      rw [← Option.some.inj e1]
    · exact hv f hf

/-- **C77.** A zero page made from `boot_params::default()` by assignments to some fields, once written,
reads as zero in all the others: among them `sentinel`, which tells the kernel that the page was cleared,
and the pointers and counts of everything the VMM does not provide. -/
theorem C77_unset_fields (as : List (String × List UInt8))
    (hty : ∀ p ∈ as, ∃ o, (p.1, o, p.2.length) ∈ Layout.bootParams.fields) (a : GuestAddr) (m m' : Mem)
    (hw : m.WF)
    (h : linuxWrite (BootParams.new (encodeBy Layout.bootParams
      (assign (defaultFields Layout.bootParams) as)) a) m = (.ok (), m')) :
    ∀ p ∈ zeroPageDoc, (∀ q ∈ as, q.1 ≠ p.1) → ∀ x, InRange (a.toNat + p.2.1) p.2.2 x → m'.data x = 0 := by
  intro p hp hun x hx
  have hwl : WellLaid Layout.bootParams := genLayouts_wellLaid _ (by unfold genLayouts; simp)
  have hv := assign_typed hwl (defaultFields_typed hwl) as hty
  obtain ⟨hz, -⟩ := C63_zero_page _ hv a m m' hw h
  obtain ⟨h1, h2⟩ := hz p hp
  rw [assign_other hun] at h1 h2
  have hd : ∀ (i : Nat) (y : UInt8), (defaultFields Layout.bootParams p.1)[i]? = some y → y = 0 := by
    intro i y hy
    have hm := List.mem_of_getElem? hy
    unfold defaultFields at hm
    split at hm
    · exact (List.mem_replicate.1 hm).2
    · cases hm
  unfold InRange at hx
  have hi : x - (a.toNat + p.2.1) < (defaultFields Layout.bootParams p.1).length := by omega
  have := h2 _ _ (List.getElem?_eq_getElem hi)
  rw [show a.toNat + p.2.1 + (x - (a.toNat + p.2.1)) = x by omega] at this
  rw [this]
  exact hd _ _ (List.getElem?_eq_getElem hi)

/-- **C77.** Two values of an exported structure are equal (`==`) iff they are equal in memory. -/
theorem C77_eq_iff_bytes {l : Layout.Layout} (hl : l ∈ genLayouts) (v w : String → List UInt8)
    (hv : Typed l v) (hw : Typed l w) : derivedEq l v w = true ↔ encodeBy l v = encodeBy l w := by
  have hwl := genLayouts_wellLaid l hl
  unfold derivedEq
  rw [List.all_eq_true]
  constructor
  · intro h
    unfold encodeBy
    congr 1
    exact List.map_congr_left fun f hf => by simpa using h f hf
  · intro h f hf
    obtain ⟨-, h1⟩ := encodeBy_spec l hwl.1 hwl.2.1 v hv
    obtain ⟨-, h2⟩ := encodeBy_spec l hwl.1 hwl.2.1 w hw
    have h1 := h1 f hf
    have h2 := h2 f hf
    rw [h] at h1
    have : v f.1 = w f.1 := by
      apply List.ext_getElem
      · rw [hv f hf, hw f hf]
      · intro i hi hi'
        have e1 := h1 i _ (List.getElem?_eq_getElem hi)
        have e2 := h2 i _ (List.getElem?_eq_getElem hi')
        rw [e1] at e2
        exact Option.some.inj e2
    simpa using this

/-- A zero page with a memory map of one entry: the hypotheses hold, and the sentinel is 0. -/
example : (∀ p ∈ [("e820_entries", [(1 : UInt8)])], ∃ o, (p.1, o, p.2.length) ∈ Layout.bootParams.fields) ∧
    (assign (defaultFields Layout.bootParams) [("e820_entries", [1])] "e820_entries" = [1]) ∧
    ("sentinel", 0x1ef, 1) ∈ zeroPageDoc := by
  refine ⟨fun p hp => ?_, by decide +kernel, by decide +kernel⟩
  simp only [List.mem_cons, List.not_mem_nil, or_false] at hp
  subst hp
  exact ⟨0x1e8, by decide +kernel⟩

example := C77_default_zero (l := Layout.bootParams) (by simp [genLayouts])

end LinuxLoader
