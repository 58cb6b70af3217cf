import Verif.Model.Constants
import Verif.Spec.Constants
import Verif.Props.LoaderGen
import Verif.Props.BzImage

/-!
# Flags, kinds and bounds exported for the VMM (C101)

Vocabulary: `Spec/Constants.lean`.
-/

namespace LinuxLoader
open Spec Constants

/-- The constant `n` as a value of a field of `w` bits. -/
def flag (w : Nat) (n : String) : BitVec w := BitVec.ofNat w (value n)

theorem flags_are_bits : ∀ g ∈ Doc.flags, ∀ p ∈ g.2, p.2 < g.1 ∧ value p.1 = 2 ^ p.2 := by decide +kernel

theorem flags_named : ∀ g ∈ Doc.flags, g.2.Pairwise fun p q => p.1 ≠ q.1 ∧ p.2 ≠ q.2 := by decide +kernel

theorem flag_getLsbD {w : Nat} {fs : List (String × Nat)} (hg : (w, fs) ∈ Doc.flags) {p : String × Nat}
    (hp : p ∈ fs) (i : Nat) : (flag w p.1).getLsbD i = decide (i = p.2) := by
  obtain ⟨h1, h2⟩ := flags_are_bits _ hg p hp
  simp only at h1
  unfold flag
  rw [BitVec.getLsbD_ofNat, h2, Nat.testBit_two_pow]
  by_cases h : i = p.2
  · subst h; simp [h1]
  · simp [h, Ne.symm h]

/-- **C101.** Each flag is the documented bit: testing it tests that bit, setting it sets that bit and no other,
clearing it clears that bit and no other, whatever the value of the field. -/
theorem C101_flags {w : Nat} {fs : List (String × Nat)} (hg : (w, fs) ∈ Doc.flags) {p : String × Nat}
    (hp : p ∈ fs) (v : BitVec w) :
    (v &&& flag w p.1 ≠ 0 ↔ v.getLsbD p.2 = true) ∧
    (∀ i, (v ||| flag w p.1).getLsbD i = (v.getLsbD i || decide (i = p.2))) ∧
    (∀ i, (v &&& ~~~ flag w p.1).getLsbD i = (v.getLsbD i && !decide (i = p.2))) := by
  have hf := flag_getLsbD hg hp
  obtain ⟨hw, -⟩ := flags_are_bits _ hg p hp
  simp only at hw
  refine ⟨?_, fun i => ?_, fun i => ?_⟩
  · constructor
    · intro h
      refine Classical.byContradiction fun hn => h ?_
      apply BitVec.eq_of_getLsbD_eq
      intro i hi
      rw [BitVec.getLsbD_and, hf]
      by_cases he : i = p.2
      · subst he; simp [hn]
      · simp [he]
    · intro h he
      have := congrArg (fun b => b.getLsbD p.2) he
      simp [hf, h] at this
  · rw [BitVec.getLsbD_or, hf]
  · rw [BitVec.getLsbD_and, BitVec.getLsbD_not, hf]
    by_cases hi : i < w
    · simp [hi]
    · rw [BitVec.getLsbD_of_ge v i (by omega)]; simp

/-- **C101.** The fields of the flags, and that they are as wide as documented. -/
theorem C101_widths :
    (Doc.flags.map fun g => some g.1) =
      [(Layout.setupHeader, "loadflags"), (Layout.setupHeader, "xloadflags"), (Layout.setupHeader, "ram_size"),
        (Layout.eddInfo, "interface_support"), (Layout.eddDeviceParams, "info_flags"),
        (Layout.screenInfo, "capabilities"), (Layout.elf64Phdr, "p_flags"), (Layout.elf64Shdr, "sh_flags")].map
      fun f => (f.1.fields.lookup f.2).map fun q => 8 * q.2 := by decide +kernel

/-- **C101.** Flags of the same field are independent: setting or clearing one leaves the other as it was. -/
theorem C101_independent {w : Nat} {fs : List (String × Nat)} (hg : (w, fs) ∈ Doc.flags) {p q : String × Nat}
    (hp : p ∈ fs) (hq : q ∈ fs) (hne : p.1 ≠ q.1) (v : BitVec w) :
    (v ||| flag w p.1) &&& flag w q.1 = v &&& flag w q.1 ∧
    (v &&& ~~~ flag w p.1) &&& flag w q.1 = v &&& flag w q.1 := by
  have hb : p.2 ≠ q.2 := by
    have hn := flags_named _ hg
    intro he
    revert hp hq
    simp only at hn
    clear hg
    induction fs with
    | nil => intro hp; cases hp
    | cons a fs ih =>
      rw [List.pairwise_cons] at hn
      intro hp hq
      rcases List.mem_cons.1 hp with e | hp <;> rcases List.mem_cons.1 hq with e' | hq
      · exact hne (by rw [e, e'])
      · exact (hn.1 q hq).2 (by rw [← e, he])
      · exact (hn.1 p hp).2 (by rw [← e', he])
      · exact ih hn.2 hp hq
  obtain ⟨-, h1, h2⟩ := C101_flags hg hp v
  constructor
  all_goals
    apply BitVec.eq_of_getLsbD_eq
    intro i hi
    rw [BitVec.getLsbD_and (y := flag w q.1), BitVec.getLsbD_and (y := flag w q.1), flag_getLsbD hg hq]
    first
      | rw [h1]
      | rw [h2]
    by_cases he : i = q.2
    · have : i ≠ p.2 := fun h => hb (h.symm.trans he)
      simp [this]
    · simp [he]

/-- **C101.** The exported kinds have the documented values, so that different kinds are told apart. -/
theorem C101_kinds : ∀ g ∈ Doc.kinds, (∀ p ∈ g, value p.1 = p.2) ∧
    g.Pairwise fun p q => value p.1 ≠ value q.1 := by decide +kernel

/-- **C101.** A `setup_data` type is one of the exported kinds, possibly with `SETUP_INDIRECT`, iff its lower 31
bits are at most `SETUP_ENUM_MAX`; then it is at most `SETUP_TYPE_MAX`. -/
theorem C101_setup_types (t : Nat) (ht : t < 2 ^ 32) :
    (t % 2 ^ 31 ≤ value "SETUP_ENUM_MAX" ↔
      ∃ k ≤ 10, t = k ∨ t = k + value "SETUP_INDIRECT") ∧
    (t % 2 ^ 31 ≤ value "SETUP_ENUM_MAX" → t ≤ value "SETUP_TYPE_MAX") := by
  have h1 : value "SETUP_ENUM_MAX" = 10 := by decide +kernel
  have h2 : value "SETUP_INDIRECT" = 2 ^ 31 := by decide +kernel
  have h3 : value "SETUP_TYPE_MAX" = 2 ^ 31 + 10 := by decide +kernel
  rw [h1, h2, h3]
  refine ⟨⟨fun h => ⟨t % 2 ^ 31, h, by omega⟩, ?_⟩, by omega⟩
  rintro ⟨k, hk, h⟩
  omega

/-- **C101.** The ranges of extended segment types are disjoint, above the standard types, and contain the exported
types of their kind. -/
theorem C101_ranges :
    (∀ r ∈ Doc.segmentRanges, ∀ n ∈ r.2.2, value r.1 ≤ value n ∧ value n ≤ value r.2.1) ∧
    Doc.segmentRanges.Pairwise (fun r s => ∀ t, ¬ ((value r.1 ≤ t ∧ t ≤ value r.2.1) ∧
      (value s.1 ≤ t ∧ t ≤ value s.2.1))) ∧
    ∀ r ∈ Doc.segmentRanges, value "PT_TLS" < value r.1 := by
  refine ⟨by decide +kernel, ?_, by decide +kernel⟩
  have h1 : value "PT_HIOS" = 0x6fffffff := by decide +kernel
  have h2 : value "PT_LOPROC" = 0x70000000 := by decide +kernel
  unfold Doc.segmentRanges
  simp only [List.pairwise_cons, List.mem_cons, List.not_mem_nil, or_false, forall_eq, false_implies, implies_true,
    List.Pairwise.nil, and_true]
  intro t
  rw [h1, h2]
  omega

/-- **C101.** Bounds of the arrays of the zero page: entry `i` of the memory map, disk and disk signature tables lies
inside its field exactly for the indices below the exported bound; the exported offsets are those of the fields. -/
theorem C101_zero_page_bounds (i : Nat) :
    ((i + 1) * Layout.bootE820Entry.size ≤ 0xa00 ↔ i < value "E820_MAX_ENTRIES_ZEROPAGE") ∧
    ((i + 1) * Layout.eddInfo.size ≤ 0x1ec ↔ i < value "EDDMAXNR") ∧
    ((i + 1) * 4 ≤ 0x40 ↔ i < value "EDD_MBR_SIG_MAX") ∧
    (∀ f ∈ [("e820_table", 0x2d0, 0xa00), ("eddbuf", value "EDDBUF", 0x1ec),
      ("edd_mbr_sig_buffer", value "EDD_MBR_SIG_BUF", 0x40), ("eddbuf_entries", value "EDDNR", 1),
      ("edd_mbr_sig_buf_entries", value "EDD_MBR_SIG_NR_BUF", 1)],
      f ∈ Layout.bootParams.fields ∧ f ∈ zeroPageDoc) ∧
    Layout.eddInfo.size = value "EDDEXTSIZE" + value "EDDPARMSIZE" := by
  have h1 : Layout.bootE820Entry.size = 20 := by decide +kernel
  have h2 : Layout.eddInfo.size = 82 := by decide +kernel
  have h3 : value "E820_MAX_ENTRIES_ZEROPAGE" = 128 := by decide +kernel
  have h4 : value "EDDMAXNR" = 6 := by decide +kernel
  have h5 : value "EDD_MBR_SIG_MAX" = 16 := by decide +kernel
  refine ⟨by rw [h1, h3]; omega, by rw [h2, h4]; omega, by omega, by decide +kernel, by decide +kernel⟩

/-- **C101.** A symbol information byte made of exported binding and type is taken apart into them. -/
theorem C101_symbols : ∀ b ∈ ["STB_LOCAL", "STB_GLOBAL", "STB_WEAK"],
    ∀ t ∈ ["STT_NOTYPE", "STT_OBJECT", "STT_FUNC", "STT_SECTION", "STT_FILE", "STT_COMMON", "STT_TLS"],
      (elfStBind (UInt8.ofNat (16 * value b + value t))).toNat = value b ∧
      (elfStType (UInt8.ofNat (16 * value b + value t))).toNat = value t := by
  intro b hb t ht
  have h1 : ∀ b ∈ ["STB_LOCAL", "STB_GLOBAL", "STB_WEAK"], value b < 16 := by decide +kernel
  have h2 : ∀ t ∈ ["STT_NOTYPE", "STT_OBJECT", "STT_FUNC", "STT_SECTION", "STT_FILE", "STT_COMMON", "STT_TLS"],
    value t < 16 := by decide +kernel
  exact C76_unpack.1 _ _ (h1 b hb) (h2 t ht)

/-- **C101.** An image that `Elf::load` accepts has the exported magic number and byte order at the exported
indices, and the segments loaded are those with `PT_LOAD`. -/
theorem C101_elf {koff highmem : Option GuestAddr} {s s' : LS} {r : LoadResult}
    (hlen : s.rd.data.length < ISZ) (h : elfLoad koff highmem s = (.ok r, s')) :
    s.rd.data.take (value "SELFMAG") = elfmag ∧
    (∀ p ∈ [("EI_MAG0", "ELFMAG0"), ("EI_MAG1", "ELFMAG1"), ("EI_MAG2", "ELFMAG2"), ("EI_MAG3", "ELFMAG3"),
      ("EI_DATA", "ELFDATA2LSB")], (s.rd.data[value p.1]?).map UInt8.toNat = some (value p.2)) ∧
    (∀ h ∈ elfLoadable s.rd.data, h.type = value "PT_LOAD") := by
  have hk := (C36_elf_accepts_only_valid hlen h).1
  have hm := hk.magic
  have hd := hk.littleEndian
  have h4 : value "SELFMAG" = 4 := by decide +kernel
  have hg : ∀ i, i < 4 → s.rd.data[i]? = elfMagic[i]? := by
    intro i hi
    rw [← hm, List.getElem?_take, if_pos hi]
  have v : value "EI_MAG0" = 0 ∧ value "EI_MAG1" = 1 ∧ value "EI_MAG2" = 2 ∧ value "EI_MAG3" = 3 ∧
    value "EI_DATA" = 5 ∧ value "ELFMAG0" = 0x7f ∧ value "ELFMAG1" = 0x45 ∧ value "ELFMAG2" = 0x4c ∧
    value "ELFMAG3" = 0x46 ∧ value "ELFDATA2LSB" = 1 ∧ value "PT_LOAD" = 1 := by decide +kernel
  obtain ⟨v0, v1, v2, v3, v4, v5, v6, v7, v8, v9, v10⟩ := v
  refine ⟨by rw [h4, hm]; rfl, ?_, fun h hh => ?_⟩
  · simp only [List.mem_cons, List.not_mem_nil, or_false, forall_eq_or_imp, forall_eq]
    rw [v0, v1, v2, v3, v4, v5, v6, v7, v8, v9, hd, hg 0 (by omega), hg 1 (by omega), hg 2 (by omega), hg 3 (by omega)]
    decide
  · rw [v10]
    have := (List.mem_filter.1 hh).2
    exact (of_decide_eq_true this).1

/-- **C101.** A bzImage that is accepted has `LOADED_HIGH` among its load flags, and still has it when the VMM has set
any other flag. -/
theorem C101_loaded_high {koff highmem : Option GuestAddr} {s s' : LS} {r : LoadResult}
    (h : bzLoad koff highmem s = (.ok r, s')) :
    (BitVec.ofNat 8 (bzLoadflags s.rd.data) &&& flag 8 "LOADED_HIGH" ≠ 0) ∧
    ∀ n ∈ ["KASLR_FLAG", "QUIET_FLAG", "KEEP_SEGMENTS", "CAN_USE_HEAP"],
      (BitVec.ofNat 8 (bzLoadflags s.rd.data) ||| flag 8 n) &&& flag 8 "LOADED_HIGH" ≠ 0 := by
  have h1 : (8, [("LOADED_HIGH", 0), ("KASLR_FLAG", 1), ("QUIET_FLAG", 5), ("KEEP_SEGMENTS", 6),
    ("CAN_USE_HEAP", 7)]) ∈ Doc.flags := .head _
  have h2 : (BitVec.ofNat 8 (bzLoadflags s.rd.data) &&& flag 8 "LOADED_HIGH" ≠ 0) := by
    refine ((C101_flags h1 (p := ("LOADED_HIGH", 0)) (.head _) _).1).2 ?_
    obtain ⟨-, -, hb, -⟩ := C46_bz_accepts h
    rw [BitVec.getLsbD_ofNat]
    simp [Nat.testBit_zero, hb]
  refine ⟨h2, fun n hn => ?_⟩
  have : ∃ b, (n, b) ∈ [("LOADED_HIGH", 0), ("KASLR_FLAG", 1), ("QUIET_FLAG", 5), ("KEEP_SEGMENTS", 6),
      ("CAN_USE_HEAP", 7)] ∧ n ≠ "LOADED_HIGH" := by
    simp only [List.mem_cons, List.not_mem_nil, or_false] at hn
    rcases hn with rfl | rfl | rfl | rfl
    · exact ⟨1, by decide, by decide⟩
    · exact ⟨5, by decide, by decide⟩
    · exact ⟨6, by decide, by decide⟩
    · exact ⟨7, by decide, by decide⟩
  obtain ⟨b, hb, hne⟩ := this
  rw [(C101_independent h1 (p := (n, b)) (q := ("LOADED_HIGH", 0)) hb (.head _) hne _).1]
  exact h2

/-- **C101.** Different exported notes are told apart by name and type. -/
theorem C101_notes : noteConsts.Pairwise fun p q => p.1 ≠ q.1 ∧ p.2 ≠ q.2 := by decide +kernel

/-- Where each exported constant stands among the documented ones. -/
def constIdx : List Nat :=
  [46, 47, 48, 49, 50, 51, 52, 53, 54, 55, 56, 238, 57, 239, 240, 14, 13, 0, 1, 2, 3, 4, 5, 6, 7, 8, 9, 10, 11, 12,
  242, 241, 244, 245, 246, 247, 248, 249, 250, 251, 252, 253, 254, 255, 256, 257, 258, 15, 16, 17, 18, 19, 20, 21,
  22, 23, 24, 25, 26, 259, 260, 261, 262, 263, 264, 265, 266, 267, 268, 269, 270, 271, 272, 273, 27, 28, 243, 274,
  58, 59, 60, 61, 62, 63, 64, 76, 275, 276, 77, 277, 278, 279, 280, 281, 282, 283, 284, 285, 78, 79, 286, 81, 287,
  288, 289, 290, 82, 80, 291, 292, 293, 294, 295, 296, 297, 298, 299, 300, 301, 302, 83, 303, 304, 305, 306, 84,
  85, 307, 86, 308, 309, 310, 311, 312, 87, 88, 89, 90, 91, 92, 93, 94, 313, 314, 315, 316, 95, 96, 97, 98, 99,
  317, 71, 72, 73, 74, 75, 318, 319, 131, 132, 133, 134, 135, 136, 137, 138, 139, 140, 141, 142, 143, 144, 145,
  146, 147, 148, 149, 150, 151, 152, 153, 154, 320, 321, 322, 323, 324, 325, 326, 328, 327, 329, 155, 156, 157,
  158, 159, 160, 161, 330, 331, 332, 112, 113, 114, 333, 115, 116, 117, 118, 119, 120, 121, 334, 335, 31, 30, 29,
  100, 101, 102, 103, 104, 105, 106, 107, 108, 109, 110, 111, 336, 337, 338, 339, 340, 32, 33, 34, 35, 36, 37, 38,
  39, 40, 41, 42, 43, 44, 45, 341, 342, 343, 344, 345, 346, 347, 348, 349, 350, 122, 123, 124, 125, 126, 127, 128,
  129, 130, 351, 352, 353, 354, 355, 356, 65, 66, 67, 357, 68, 69, 70, 358, 359, 360, 361, 362, 363, 364, 365, 162,
  163, 164, 165, 366, 367, 368, 369, 166, 167, 168, 169, 170, 171, 172, 173, 174, 175, 176, 177, 178, 179, 180,
  181, 182, 183, 184, 185, 186, 187, 188, 189, 190, 191, 192, 193, 194, 195, 196, 197, 198, 199, 200, 201, 202,
  203, 204, 205, 206, 207, 208, 209, 210, 211, 212, 213, 214, 215, 216, 217, 218, 219, 220, 221, 222, 223, 224,
  225, 226, 227, 228, 229, 230, 231, 232, 233, 234, 235, 236, 237]

/-- Where each documented constant stands among the exported ones. -/
def docIdx : List Nat :=
  [17, 18, 19, 20, 21, 22, 23, 24, 25, 26, 27, 28, 29, 16, 15, 47, 48, 49, 50, 51, 52, 53, 54, 55, 56, 57, 58, 74,
  75, 218, 217, 216, 236, 237, 238, 239, 240, 241, 242, 243, 244, 245, 246, 247, 248, 249, 0, 1, 2, 3, 4, 5, 6, 7,
  8, 9, 10, 12, 78, 79, 80, 81, 82, 83, 84, 275, 276, 277, 279, 280, 281, 152, 153, 154, 155, 156, 85, 88, 98, 99,
  107, 101, 106, 120, 125, 126, 128, 134, 135, 136, 137, 138, 139, 140, 141, 146, 147, 148, 149, 150, 219, 220,
  221, 222, 223, 224, 225, 226, 227, 228, 229, 230, 203, 204, 205, 207, 208, 209, 210, 211, 212, 213, 260, 261,
  262, 263, 264, 265, 266, 267, 268, 159, 160, 161, 162, 163, 164, 165, 166, 167, 168, 169, 170, 171, 172, 173,
  174, 175, 176, 177, 178, 179, 180, 181, 182, 193, 194, 195, 196, 197, 198, 199, 290, 291, 292, 293, 298, 299,
  300, 301, 302, 303, 304, 305, 306, 307, 308, 309, 310, 311, 312, 313, 314, 315, 316, 317, 318, 319, 320, 321,
  322, 323, 324, 325, 326, 327, 328, 329, 330, 331, 332, 333, 334, 335, 336, 337, 338, 339, 340, 341, 342, 343,
  344, 345, 346, 347, 348, 349, 350, 351, 352, 353, 354, 355, 356, 357, 358, 359, 360, 361, 362, 363, 364, 365,
  366, 367, 368, 369, 11, 13, 14, 31, 30, 76, 32, 33, 34, 35, 36, 37, 38, 39, 40, 41, 42, 43, 44, 45, 46, 59, 60,
  61, 62, 63, 64, 65, 66, 67, 68, 69, 70, 71, 72, 73, 77, 86, 87, 89, 90, 91, 92, 93, 94, 95, 96, 97, 100, 102,
  103, 104, 105, 108, 109, 110, 111, 112, 113, 114, 115, 116, 117, 118, 119, 121, 122, 123, 124, 127, 129, 130,
  131, 132, 133, 142, 143, 144, 145, 151, 157, 158, 183, 184, 185, 186, 187, 188, 189, 191, 190, 192, 200, 201,
  202, 206, 214, 215, 231, 232, 233, 234, 235, 250, 251, 252, 253, 254, 255, 256, 257, 258, 259, 269, 270, 271,
  272, 273, 274, 278, 282, 283, 284, 285, 286, 287, 288, 289, 294, 295, 296, 297]

theorem mem_of_idx {α : Type _} {l m : List α} {is : List Nat} (h : l.map some = is.map fun i => m[i]?) :
    ∀ p ∈ l, p ∈ m := by
  intro p hp
  have : some p ∈ l.map some := List.mem_map_of_mem hp
  rw [h] at this
  obtain ⟨i, -, hi⟩ := List.mem_map.1 this
  exact List.mem_of_getElem? hi

theorem constants_documented : ∀ p ∈ constants, p ∈ Doc.values :=
  mem_of_idx (is := constIdx) (by decide +kernel)

theorem documented_constants : ∀ p ∈ Doc.values, p ∈ constants :=
  mem_of_idx (is := docIdx) (by decide +kernel)

/-- No two numbers of a list are equal. -/
def distinctB : List Nat → Bool
  | [] => true
  | a :: l => l.all (fun b => !(Nat.beq a b)) && distinctB l

theorem names_distinct (l : List (String × Nat)) (h : distinctB (l.map fun p => Doc.ascii p.1) = true) :
    l.Pairwise fun p q => p.1 ≠ q.1 := by
  induction l with
  | nil => exact .nil
  | cons a l ih =>
    simp only [List.map_cons, distinctB, Bool.and_eq_true, List.all_eq_true] at h
    refine List.pairwise_cons.2 ⟨fun b hb he => ?_, ih h.2⟩
    have := h.1 _ (List.mem_map_of_mem hb)
    rw [he] at this
    simp at this

theorem constants_distinct : constants.Pairwise fun p q => p.1 ≠ q.1 :=
  names_distinct _ (by decide +kernel)

theorem lookup_of_mem {l : List (String × Nat)} (hd : l.Pairwise fun p q => p.1 ≠ q.1) {p : String × Nat}
    (hp : p ∈ l) : l.lookup p.1 = some p.2 := by
  induction l with
  | nil => cases hp
  | cons a l ih =>
    rw [List.pairwise_cons] at hd
    rcases List.mem_cons.1 hp with rfl | hp
    · rw [List.lookup_cons_self]
    · have : (p.1 == a.1) = false := by simpa using (hd.1 p hp).symm
      rw [List.lookup_cons, this]
      exact ih hd.2 hp

/-- **C101.** Every documented constant is exported with the documented number, under one name, and nothing else is
exported. -/
theorem C101_values :
    (∀ p ∈ Doc.values, p ∈ constants ∧ value p.1 = p.2) ∧ (∀ p ∈ constants, p ∈ Doc.values) ∧
    constants.Pairwise fun p q => p.1 ≠ q.1 := by
  refine ⟨fun p hp => ?_, constants_documented, constants_distinct⟩
  have h := documented_constants p hp
  exact ⟨h, by unfold value; rw [lookup_of_mem constants_distinct h]; rfl⟩

/-- **C101.** The exported note types are exactly those with an exported owner name: the generic notes belong to
`GNU` and `CORE`, the others to `LINUX`. -/
theorem C101_note_owners :
    (∀ n ∈ noteConsts, n.2.1 = ((Doc.noteOwners.find? fun o => decide (n.1 ∈ o.2)).map Prod.fst).getD "LINUX") ∧
    ∃ l, constants = l ++ noteConsts.map (fun n => ("NT_" ++ n.1, n.2.2)) ∧
      ∀ p ∈ l, p.1.toList.take 3 ≠ ['N', 'T', '_'] := by
  refine ⟨by decide +kernel, constants.take (constants.length - noteConsts.length), ?_, by decide +kernel⟩
  have h : constants.drop (constants.length - noteConsts.length) =
    noteConsts.map (fun n => ("NT_" ++ n.1, n.2.2)) := by decide +kernel
  rw [← h, List.take_append_drop]

/-- **C101.** What does not hold: assemblers and linkers put `SHF_EXCLUDE` in bit 31 and `SHF_ORDERED` in bit 30 of
`sh_flags` (both reserved to processors, `SHF_MASKPROC`). The exported constants, like those of Linux they are
generated from, are other bits, reserved to operating systems: on a section marked with the former alone the exported
constant tests false. -/
theorem C101_exclude_refuted :
    ¬ (∀ v : BitVec 64, (v &&& flag 64 "SHF_EXCLUDE" ≠ 0 ↔ v.getLsbD 31 = true) ∧
      (v &&& flag 64 "SHF_ORDERED" ≠ 0 ↔ v.getLsbD 30 = true)) ∧
    (∀ n ∈ ["SHF_EXCLUDE", "SHF_ORDERED"], flag 64 n &&& flag 64 "SHF_MASKPROC" = 0 ∧
      flag 64 n &&& flag 64 "SHF_MASKOS" = flag 64 n) := by
  refine ⟨fun h => ?_, by decide +kernel⟩
  exact absurd ((h 0x80000000).1.2 (by decide)) (by decide +kernel)

example := C101_elf demoElf_short (ran demoElf_loads)
example := C101_loaded_high (ran demoBz_loads)
example := C101_flags (w := 8) (.head _) (p := ("CAN_USE_HEAP", 7)) (by decide) 0x01
example := C101_independent (w := 8) (.head _) (p := ("CAN_USE_HEAP", 7)) (q := ("LOADED_HIGH", 0)) (by decide)
  (by decide) (by decide) 0x01
example := C101_setup_types 0x80000009 (by decide)

end LinuxLoader
