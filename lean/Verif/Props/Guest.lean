import Verif.Spec.Guest
import Verif.Props.Boot
import Verif.Props.ZeroPage
import Verif.Props.CmdlineKernel

/-!
# From the builder to the running guest (C73, C74)

Vocabulary: `Spec/Guest.lean`, `Spec/Boot.lean`, `Spec/Kernel.lean`.
-/

namespace LinuxLoader
open Spec Spec.Kernel Cmdline

/-! ## Strings in memory -/

theorem cstr_holds {f : Nat → UInt8} {bs : List UInt8} (hz : (0 : UInt8) ∉ bs) {x n : Nat}
    (hn : bs.length ≤ n) (h : Holds f x (bs ++ [0])) : cstr f x n = bs := by
  induction bs generalizing x n with
  | nil =>
    cases n with
    | zero => rfl
    | succ n =>
      have := h 0 0 rfl
      rw [Nat.add_zero] at this
      rw [cstr, if_pos this]
  | cons b bs ih =>
    cases n with
    | zero => cases hn
    | succ n =>
      have h0 := h 0 b rfl
      rw [Nat.add_zero] at h0
      have hb : b ≠ 0 := fun hb => hz (hb ▸ .head _)
      rw [cstr, h0, if_neg hb, ih (fun hm => hz (.tail _ hm)) (by simpa using hn)]
      intro i c hc
      have := h (i + 1) c (by simpa using hc)
      rw [← this]; congr 1; omega

theorem ascii_utf8 {s : Str} (h : Printable s) : ascii s.utf8 = s := by
  induction s with
  | nil => rfl
  | cons c s ih =>
    have hc := h c (.head _)
    have e : Str.utf8 (c :: s) = UInt8.ofNat c.toNat :: Str.utf8 s := by
      show String.utf8EncodeChar c ++ Str.utf8 s = _
      rw [encodeChar_printable hc.2]; rfl
    rw [e]
    show Char.ofNat (UInt8.ofNat c.toNat).toNat :: ascii (Str.utf8 s) = _
    rw [ih fun d hd => h d (.tail _ hd), UInt8.toNat_ofNat', Nat.mod_eq_of_lt (by omega),
      Char.ofNat_toNat]

theorem cmdline_read {c : Cmdline} (hi : c.Inv) (hp : c.AllPrintable) {f : Nat → UInt8} {x n : Nat}
    (hn : c.capacity.toNat ≤ n + 1)
    (h : Holds f x ((text c.bootArgs c.initArgs).utf8 ++ [0])) :
    ascii (cstr f x n) = text c.bootArgs c.initArgs := by
  have ht := printable_text hp.1 hp.2
  rw [cstr_holds ?_ ?_ h, ascii_utf8 ht]
  · intro hm
    have := utf8_printable ht 0 hm
    simp at this
  · rw [utf8_length]
    have : (text c.bootArgs c.initArgs).utf8Len + 1 ≤ c.capacity.toNat := hi
    omega

theorem history_run {c₀ c : Cmdline} {ops pairs inits} (h : History c₀ ops pairs inits c) :
    c = c₀.run ops := by
  induction h with
  | nil => rfl
  | rejected _ _ ih => exact ih
  | boot _ _ _ ih => exact ih
  | init _ _ _ ih => exact ih

theorem history_read {cap : UInt64} {c₀ c : Cmdline} (h₀ : Cmdline.new cap = .ok c₀)
    {ops pairs inits} (hh : History c₀ ops pairs inits c) {n : Nat} (hn : cap.toNat ≤ n + 1)
    {f : Nat → UInt8} {x : Nat} (h : Holds f x ((text c.bootArgs c.initArgs).utf8 ++ [0])) :
    parseArgs (ascii (cstr f x n)) = (pairs.map (fun p => (p.1, some p.2)),
      if c.initArgs = [] then none else some (inits.foldl extend [])) := by
  obtain ⟨hinv, hcap, -, -⟩ := Inv.new h₀
  have he := history_run hh
  obtain ⟨h1, h2⟩ := hinv.run ops
  have h3 := (AllPrintable.new h₀).run hinv ops
  rw [← he] at h1 h2 h3
  rw [cmdline_read h1 h3 (by rw [h2, hcap]; exact hn) h]
  exact C12_kernel_sees_pairs cap c₀ c h₀ ops pairs inits hh

/-! ## Linux boot protocol -/

theorem single_piece {steps : List BootStep} {m : Mem} (had : ∀ st ∈ steps, st.Admissible)
    (hw : m.WF) (hdis : steps.Pairwise BootStep.Disjoint) (hok : (bootRun steps m).2.1 = true)
    {st : BootStep} (hst : st ∈ steps) {a : Nat} {bs : List UInt8} (hp : st.pieces = [(a, bs)]) :
    Holds (bootRun steps m).2.2.data a bs := by
  have hall := (C55_disjoint steps had m hw hdis).2.2.1 hok
  exact C55_pieces steps had m hw hdis st (by rw [hall]; exact hst) (by rw [hp]; simp) (a, bs)
    (by rw [hp]; simp)

theorem leField_congr {b b' : List UInt8} {o n : Nat}
    (h : ∀ i, o ≤ i → i < o + n → b[i]? = b'[i]?) : leField b o n = leField b' o n := by
  unfold leField
  congr 1
  apply List.ext_getElem?
  intro j
  rw [List.getElem?_take, List.getElem?_take, List.getElem?_drop, List.getElem?_drop]
  split
  · exact h _ (by omega) (by omega)
  · rfl

theorem readLE_field {f : Nat → UInt8} {a o n : Nat} {b : List UInt8} (h : Holds f a b)
    (hl : o + n ≤ b.length) : readLE f (a + o) n = leField b o n := by
  have hsub : SubAt b o ((b.drop o).take n) := by
    intro j x hx
    rw [List.getElem?_take] at hx
    split at hx
    · rw [List.getElem?_drop] at hx; exact hx
    · cases hx
  have := readLE_holds (holds_subAt h hsub)
  rw [List.length_take, List.length_drop, Nat.min_eq_left (by omega)] at this
  exact this

/-- **C73.** A guest booted through the Linux boot protocol. A VMM makes any sequence of calls, in any
order, on pairwise disjoint parts of memory, that all succeed. Among them are: loading a bzImage;
loading a command line built from scratch; writing a zero page whose `hdr` is the setup header returned
by the loader with `cmd_line_ptr` filled in (other fields than `code32_start` may also be changed),
`ext_cmd_line_ptr` holding the upper half of the address, and `e820_entries` and `e820_table` filled
in. Then the starting kernel, following the pointers in memory, finds exactly the parameters the VMM
inserted, the init arguments, the memory map, and, at the address in `code32_start`, itself. -/
theorem C73_linux_guest (steps : List BootStep) (had : ∀ st ∈ steps, st.Admissible) (m : Mem)
    (hw : m.WF) (hdis : steps.Pairwise BootStep.Disjoint) (hok : (bootRun steps m).2.1 = true)
    -- the kernel
    (rd : Reader) (koff highmem : Option GuestAddr) (hkernel : .bz rd koff highmem ∈ steps)
    (m₀ : Mem) (r : LoadResult) (hns : ∀ i n, rd.sched i ≠ .short n)
    (hres : (bzLoad koff highmem ⟨rd, m₀⟩).1 = .ok r)
    -- the command line
    (cap : UInt64) (c₀ c : Cmdline) (h₀ : Cmdline.new cap = .ok c₀) (ops : List Op)
    (pairs : List (Str × Str)) (inits : List Str) (hh : History c₀ ops pairs inits c)
    (ca : GuestAddr) (hcmdline : .cmdline ca c ∈ steps)
    -- the zero page
    (v : String → List UInt8) (hv : Typed Layout.bootParams v) (za : GuestAddr)
    (hzero : .linux (BootParams.new (encodeBy Layout.bootParams v) za) ∈ steps)
    (hhdr : ∃ h, r.setupHeader = some h ∧
      ∀ i, 0x214 - 0x1f1 ≤ i → i < 0x218 - 0x1f1 → (v "hdr")[i]? = h[i]?)
    (hptr : leField (v "hdr") (0x228 - 0x1f1) 4 = ca.toNat % 0x100000000)
    (hext : leField (v "ext_cmd_line_ptr") 0 4 = ca.toNat / 0x100000000)
    (es : List E820) (hes : v "e820_table" = (es.map fun e => e820Slice e.addr e.size e.type).flatten)
    (k : UInt8) (hk : v "e820_entries" = [k]) (hk128 : k.toNat ≤ 128) :
    let f := (bootRun steps m).2.2.data
    (∀ n, cap.toNat ≤ n + 1 → parseArgs (linuxCmdline f za.toNat n) =
      (pairs.map (fun p => (p.1, some p.2)),
       if c.initArgs = [] then none else some (inits.foldl extend []))) ∧
    linuxMemmap f za.toNat =
      (es.take k.toNat).map (fun e => (e.addr.toNat, e.size.toNat, e.type.toNat)) ∧
    (r.kernelLoad < 0x100000000 →
      linuxCode32 f za.toNat = r.kernelLoad ∧ Holds f (linuxCode32 f za.toNat) (bzKernel rd.data)) := by
  intro f
  have hzp : Holds f za.toNat (encodeBy Layout.bootParams v) :=
    single_piece had hw hdis hok hzero rfl
  have hcl : Holds f ca.toNat ((text c.bootArgs c.initArgs).utf8 ++ [0]) :=
    single_piece had hw hdis hok hcmdline rfl
  have hkn : Holds f (bzAddress rd.data koff) (bzKernel rd.data) :=
    single_piece had hw hdis hok hkernel rfl
  obtain ⟨-, hsub⟩ := bootParams_bytes v hv
  have hfield : ∀ p ∈ zeroPageDoc, (v p.1).length = p.2.2 ∧ Holds f (za.toNat + p.2.1) (v p.1) := by
    intro p hp
    obtain ⟨hm, -⟩ := zeroPage_matches p hp
    exact ⟨hv _ hm, holds_subAt hzp (hsub _ hm)⟩
  obtain ⟨lh, fh⟩ := hfield ("hdr", 0x1f1, 123) (by decide)
  obtain ⟨le, fe⟩ := hfield ("ext_cmd_line_ptr", 0x0c8, 4) (by decide)
  obtain ⟨-, fk⟩ := hfield ("e820_entries", 0x1e8, 1) (by decide)
  obtain ⟨lt, ft⟩ := hfield ("e820_table", 0x2d0, 0xa00) (by decide)
  simp only at lh fh le fe fk lt ft
  refine ⟨fun n hn => ?_, ?_, fun hlt => ?_⟩
  · have h1 := readLE_field (o := 0x228 - 0x1f1) (n := 4) fh (by omega)
    have h2 := readLE_field (o := 0) (n := 4) fe (by omega)
    rw [hptr, show za.toNat + 0x1f1 + (0x228 - 0x1f1) = za.toNat + 0x228 by omega] at h1
    rw [hext, Nat.add_zero] at h2
    have ha : linuxCmdlineAddr f za.toNat = ca.toNat := by
      unfold linuxCmdlineAddr
      rw [h1, h2]; omega
    unfold linuxCmdline
    rw [ha]
    exact history_read h₀ hh hn hcl
  · have hkr : readLE f (za.toNat + 0x1e8) 1 = k.toNat := by
      rw [hk] at fk
      have := readLE_holds fk
      simpa [leNat] using this
    have w20 : ∀ x ∈ es.map fun e => e820Slice e.addr e.size e.type, x.length = 20 := by
      intro x hx
      obtain ⟨e, -, rfl⟩ := List.mem_map.1 hx
      rw [e820Slice_eq]; simp
    rw [hes, flatten_length w20, List.length_map] at lt
    rw [hes] at ft
    unfold linuxMemmap
    rw [hkr]
    apply List.ext_getElem?
    intro i
    rw [List.getElem?_map, List.getElem?_map, List.getElem?_take]
    by_cases hi : i < k.toNat
    · rw [List.getElem?_range hi, if_pos hi]
      have hi' : i < es.length := by omega
      rw [List.getElem?_eq_getElem hi']
      have := holds_flatten w20 ft i _ (by rw [List.getElem?_map, List.getElem?_eq_getElem hi']; rfl)
      simp only [e820Slice_eq, Nat.mul_comm i 20] at this
      simp only [holds_append, leBytes_length, Nat.add_assoc] at this
      obtain ⟨h0, h1, h2⟩ := this
      simp only [← Nat.add_assoc] at h0 h1 h2
      simp only [Option.map_some, Option.some.injEq, Prod.mk.injEq]
      exact ⟨readLE_leBytes h0 (u64_lt _), readLE_leBytes h1 (u64_lt _), readLE_leBytes h2 (u32_lt _)⟩
    · rw [if_neg hi, List.getElem?_eq_none (by simpa using hi)]; rfl
  · obtain ⟨h, hs, heq⟩ := hhdr
    have hns' : NoShortReads ⟨rd, m₀⟩ := hns
    have hr' : bzLoad koff highmem ⟨rd, m₀⟩ = (.ok r, (bzLoad koff highmem ⟨rd, m₀⟩).2) :=
      Prod.ext hres rfl
    obtain ⟨hdr, e1, -, -, e4⟩ := C48_bz_setup_header hns' hr'
    rw [hs] at e1; cases e1
    obtain ⟨-, -, -, -, -, hka⟩ := C47_bz_kernel_in_place hr'
    have haddr : r.kernelLoad = bzAddress rd.data koff := by
      cases koff with
      | some q => exact hka q rfl
      | none => exact C47_bz_default_address hns' hr'
    have h1 := readLE_field (o := 0x214 - 0x1f1) (n := 4) fh (by omega)
    rw [show za.toNat + 0x1f1 + (0x214 - 0x1f1) = za.toNat + 0x214 by omega,
      leField_congr (b' := h) (by simpa using heq), e4, Nat.mod_eq_of_lt hlt] at h1
    have h2 : linuxCode32 f za.toNat = r.kernelLoad := h1
    refine ⟨h2, ?_⟩
    rw [h2, haddr]; exact hkn

/-! ## PVH -/

theorem range_entries {α β : Type} (l : List α) (g : Nat → β) (p : α → β) (n : Nat)
    (hn : n = l.length) (h : ∀ i x, l[i]? = some x → g i = p x) : (List.range n).map g = l.map p := by
  subst hn
  apply List.ext_getElem?
  intro i
  rw [List.getElem?_map, List.getElem?_map]
  by_cases hi : i < l.length
  · rw [List.getElem?_range hi, List.getElem?_eq_getElem hi]
    exact congrArg some (h i _ (List.getElem?_eq_getElem hi))
  · rw [List.getElem?_eq_none (by simpa using hi), List.getElem?_eq_none (by simpa using hi)]; rfl

/-- **C74.** A guest booted through PVH. A VMM makes any sequence of calls, in any order, on pairwise
disjoint parts of memory, that all succeed. Among them are: loading an ELF kernel with disjoint
segments; loading a command line built from scratch; writing PVH boot parameters whose start info points
to the memory map, the modules and the command line. Then the starting guest, following the pointers in
memory, finds exactly the parameters the VMM inserted, the init arguments, the memory map and the
modules, and every loadable segment of the kernel at its address. -/
theorem C74_pvh_guest (steps : List BootStep) (had : ∀ st ∈ steps, st.Admissible) (m : Mem)
    (hw : m.WF) (hdis : steps.Pairwise BootStep.Disjoint) (hok : (bootRun steps m).2.1 = true)
    -- the kernel
    (rd : Reader) (koff highmem : Option GuestAddr) (hkernel : .elf rd koff highmem ∈ steps)
    (hseg : (elfLoadable rd.data).Pairwise fun g h =>
      DisjointRanges (koffBase koff + g.paddr) (g.contents rd.data).length (koffBase koff + h.paddr)
        (h.contents rd.data).length)
    -- the command line
    (cap : UInt64) (c₀ c : Cmdline) (h₀ : Cmdline.new cap = .ok c₀) (ops : List Op)
    (pairs : List (Str × Str)) (inits : List Str) (hh : History c₀ ops pairs inits c)
    (ca : GuestAddr) (hcmdline : .cmdline ca c ∈ steps)
    -- the boot parameters
    (si : HvmStartInfo) (es : List HvmMemmapEntry) (ms : List HvmModlistEntry) (sa ea ma : GuestAddr)
    (hpvh : .pvh (((BootParams.new si.asSlice sa).setSections (es.map (·.asSlice)) ea).setModules
      (ms.map (·.asSlice)) ma) ∈ steps)
    (h1 : DisjointRanges sa.toNat 56 ea.toNat (24 * es.length))
    (h2 : DisjointRanges sa.toNat 56 ma.toNat (32 * ms.length))
    (h3 : DisjointRanges ea.toNat (24 * es.length) ma.toNat (32 * ms.length))
    (hmap : si.memmapPaddr = ea ∧ si.memmapEntries.toNat = es.length)
    (hmod : si.modlistPaddr = ma ∧ si.nrModules.toNat = ms.length)
    (hcl : si.cmdlinePaddr = ca) :
    let f := (bootRun steps m).2.2.data
    (∀ n, cap.toNat ≤ n + 1 → parseArgs (pvhCmdline f sa.toNat n) =
      (pairs.map (fun p => (p.1, some p.2)),
       if c.initArgs = [] then none else some (inits.foldl extend []))) ∧
    pvhMemmap f sa.toNat = es.map (fun e => (e.addr.toNat, e.size.toNat, e.type_.toNat)) ∧
    pvhModules f sa.toNat = ms.map (fun e => (e.paddr.toNat, e.size.toNat, e.cmdlinePaddr.toNat)) ∧
    StartInfoAt f sa.toNat si ∧
    ∀ h ∈ elfLoadable rd.data, Holds f (koffBase koff + h.paddr) (h.contents rd.data) := by
  intro f
  have hall := (C55_disjoint steps had m hw hdis).2.2.1 hok
  have hclh : Holds f ca.toNat ((text c.bootArgs c.initArgs).utf8 ++ [0]) :=
    single_piece had hw hdis hok hcmdline rfl
  have w1 : ∀ x ∈ es.map (·.asSlice), x.length = 24 := by
    intro x hx; obtain ⟨e, -, rfl⟩ := List.mem_map.1 hx; rw [memmapEntry_slice]; simp
  have w2 : ∀ x ∈ ms.map (·.asSlice), x.length = 32 := by
    intro x hx; obtain ⟨e, -, rfl⟩ := List.mem_map.1 hx; rw [modlistEntry_slice]; simp
  have w0 : si.asSlice.length = 56 := by rw [startInfo_slice]; simp
  have l1 : (es.map (·.asSlice)).flatten.length = 24 * es.length := by
    rw [flatten_length w1, List.length_map, Nat.mul_comm]
  have l2 : (ms.map (·.asSlice)).flatten.length = 32 * ms.length := by
    rw [flatten_length w2, List.length_map, Nat.mul_comm]
  have hp := C55_pieces steps had m hw hdis _ (by rw [hall]; exact hpvh) (by
    simp only [BootStep.pieces, pvhPieces, optPiece, BootParams.setModules, BootParams.setSections,
      BootParams.new, List.cons_append, List.nil_append, List.pairwise_cons, List.mem_cons,
      List.not_mem_nil, or_false, forall_eq_or_imp, forall_eq, false_implies, implies_true,
      List.Pairwise.nil, and_true, w0, l1, l2]
    exact ⟨⟨fun x hx => h1 x ⟨hx.2, hx.1⟩, h3⟩, h2⟩)
  have g1 : Holds f ea.toNat (es.map (·.asSlice)).flatten := hp (_, _) (.head _)
  have g2 : Holds f sa.toNat si.asSlice := hp (_, _) (.tail _ (.head _))
  have g3 : Holds f ma.toNat (ms.map (·.asSlice)).flatten := hp (_, _) (.tail _ (.tail _ (.head _)))
  have hsi := startInfo_at g2
  refine ⟨fun n hn => ?_, ?_, ?_, hsi, ?_⟩
  · unfold pvhCmdline
    rw [hsi.cmdlinePaddr, hcl]
    exact history_read h₀ hh hn hclh
  · refine range_entries _ _ _ _ (by rw [hsi.memmapEntries, hmap.2]) fun i e he => ?_
    rw [hsi.memmapPaddr, hmap.1, Nat.mul_comm 24 i]
    have := memmapEntry_at (holds_flatten w1 g1 i _ (by rw [List.getElem?_map, he]; rfl))
    exact Prod.ext this.addr (Prod.ext this.size this.type_)
  · refine range_entries _ _ _ _ (by rw [hsi.nrModules, hmod.2]) fun i e he => ?_
    rw [hsi.modlistPaddr, hmod.1, Nat.mul_comm 32 i]
    have := modlistEntry_at (holds_flatten w2 g3 i _ (by rw [List.getElem?_map, he]; rfl))
    exact Prod.ext this.paddr (Prod.ext this.size this.cmdlinePaddr)
  · intro h hh'
    have := C55_pieces steps had m hw hdis _ (by rw [hall]; exact hkernel) (by
      show ((elfLoadable rd.data).map _).Pairwise _
      rw [List.pairwise_map]
      exact hseg)
    exact this (_, _) (List.mem_map.2 ⟨h, hh', rfl⟩)

/-! ## Concrete boots -/

/-- `insert("k", "a b" in quotes)`, `insert_init_args("i")` on a command line of capacity 100. -/
def guestCmdline : Cmdline := ⟨"k=\"a b\"".toList, "i".toList, 100⟩

theorem guestCmdline_history : History ⟨[], [], 100⟩
    [.insert "k".toList "\"a b\"".toList, .insertInitArgs "i".toList] [("k".toList, "a b".toList)]
    ["i".toList] guestCmdline := by
  refine .boot (by decide) (.insert (k := "k".toList) (v := "\"a b\"".toList) (w := "a b".toList)
    ⟨by decide, by decide, fun _ => ⟨"a b".toList, by decide⟩, by decide⟩
    (.enclosed (w := "a b".toList))) (.init (t := "i".toList) (by decide) (.insertInitArgs ?_) ?_)
  · exact ⟨[], [], by decide, by decide, by decide, by decide, by decide⟩
  · have : (((⟨[], [], 100⟩ : Cmdline).step (.insert "k".toList "\"a b\"".toList)).1.step
      (.insertInitArgs "i".toList)).1 = guestCmdline := by decide
    exact this ▸ .nil

/-- The setup header of the demo bzImage as the loader returns it. -/
def guestHdr₀ : List UInt8 := mkBzHdr 1 0x53726448 0x20f 1 0x40

/-- The same with the command line at 0x100. -/
def guestHdr : List UInt8 := guestHdr₀.take 0x37 ++ leBytes 4 0x100 ++ guestHdr₀.drop 0x3b

/-- A zero page with this header and one memory map entry. -/
def guestZp : String → List UInt8 := fun n => if n = "e820_entries" then [1] else demoZp guestHdr n

/-- Kernel, command line and zero page. -/
def guestSteps : List BootStep :=
  [.cmdline 0x100 guestCmdline, .bz (.cursor demoBz) none none,
    .linux (BootParams.new (encodeBy Layout.bootParams guestZp) 0x1000)]

theorem pieces_range {s : BootStep} {l : List (Nat × Nat)}
    (hs : s.pieces.map (fun q => (q.1, q.2.length)) = l) {x : Nat} (h : InPieces s.pieces x) :
    ∃ q ∈ l, InRange q.1 q.2 x := by
  obtain ⟨q, hq, hr⟩ := h
  exact ⟨(q.1, q.2.length), hs ▸ List.mem_map.2 ⟨q, hq, rfl⟩, hr⟩

/-- All hypotheses of `C73_linux_guest` hold for it. -/
example : (∀ st ∈ guestSteps, st.Admissible) ∧ zpMem.WF ∧ guestSteps.Pairwise BootStep.Disjoint ∧
    (bootRun guestSteps zpMem).2.1 = true ∧ (∀ i n, (Reader.cursor demoBz).sched i ≠ .short n) ∧
    (bzLoad none none ⟨.cursor demoBz, bzState.mem⟩).1 = .ok ⟨0x40, 0x45, some guestHdr₀, .ignored⟩ ∧
    Cmdline.new 100 = .ok ⟨[], [], 100⟩ ∧ Typed Layout.bootParams guestZp ∧
    (∀ i, 0x214 - 0x1f1 ≤ i → i < 0x218 - 0x1f1 → (guestZp "hdr")[i]? = guestHdr₀[i]?) ∧
    leField (guestZp "hdr") (0x228 - 0x1f1) 4 = (0x100 : UInt64).toNat % 0x100000000 ∧
    leField (guestZp "ext_cmd_line_ptr") 0 4 = (0x100 : UInt64).toNat / 0x100000000 ∧
    guestZp "e820_table" = (((⟨0x100000, 0x8000000, 1⟩ : E820) :: List.replicate 127 ⟨0, 0, 0⟩).map
      fun e => e820Slice e.addr e.size e.type).flatten ∧ guestZp "e820_entries" = [1] := by
  have hns : ∀ i n, (Reader.cursor demoBz).sched i ≠ .short n := fun _ _ h => nomatch h
  refine ⟨?_, zpMem_wf, ?_, by decide +kernel, hns, by decide +kernel, by decide,
    by unfold Typed; decide +kernel, ?_, by decide +kernel, by decide +kernel, ?_, by decide +kernel⟩
  · intro st hst
    simp only [guestSteps, List.mem_cons, List.not_mem_nil, or_false] at hst
    rcases hst with rfl | rfl | rfl
    · trivial
    · exact .inl hns
    · trivial
  · have l1 : ∀ x, (BootStep.cmdline 0x100 guestCmdline).Targets x → 0x100 ≤ x ∧ x < 0x10d := by
      intro x hx
      have := pieces_range (l := [(0x100, 13)]) (by decide +kernel) (show InPieces _ x from hx)
      simpa [InRange] using this
    have l2 : ∀ x, (BootStep.bz (.cursor demoBz) none none).Targets x → 0x40 ≤ x ∧ x < 0x45 := by
      intro x hx
      have := pieces_range (l := [(0x40, 5)]) (by decide +kernel) (show InPieces _ x from hx)
      simpa [InRange] using this
    have l3 : ∀ x, (BootStep.linux (BootParams.new (encodeBy Layout.bootParams guestZp)
        0x1000)).Targets x → 0x1000 ≤ x ∧ x < 0x2000 := by
      intro x hx
      have := pieces_range (l := [(0x1000, 4096)]) (by decide +kernel) (show InPieces _ x from hx)
      simpa [InRange] using this
    simp only [guestSteps, List.pairwise_cons, List.mem_cons, List.not_mem_nil, or_false,
      forall_eq_or_imp, forall_eq, false_implies, implies_true, List.Pairwise.nil, and_true]
    refine ⟨⟨?_, ?_⟩, ?_⟩
    · rintro x ⟨h1, h2⟩; have := l1 x h1; have := l2 x h2; omega
    · rintro x ⟨h1, h2⟩; have := l1 x h1; have := l3 x h2; omega
    · rintro x ⟨h1, h2⟩; have := l2 x h1; have := l3 x h2; omega
  · have : ∀ i, i < 0x218 - 0x1f1 → 0x214 - 0x1f1 ≤ i → (guestZp "hdr")[i]? = guestHdr₀[i]? := by
      decide +kernel
    exact fun i h1 h2 => this i h2 h1
  · decide +kernel

/-- What C73 says of it, computed. -/
example : parseArgs (linuxCmdline (bootRun guestSteps zpMem).2.2.data 0x1000 99) =
      ([("k".toList, some "a b".toList)], some "i".toList) ∧
    linuxMemmap (bootRun guestSteps zpMem).2.2.data 0x1000 = [(0x100000, 0x8000000, 1)] ∧
    linuxCode32 (bootRun guestSteps zpMem).2.2.data 0x1000 = 0x40 := by
  decide +kernel

/-- Start info for a memory map of one entry at 0x1040, one module at 0x1080, a command line at
0x1100. -/
def guestInfo : HvmStartInfo := ⟨0x336ec578, 1, 0, 1, 0x1080, 0x1100, 0, 0x1040, 1, 0⟩

/-- Boot parameters with this start info at 0x1000. -/
def guestPvh : BootParams :=
  ((BootParams.new guestInfo.asSlice 0x1000).setSections
    ([HvmMemmapEntry.mk 0 0x9fc00 1 0].map (·.asSlice)) 0x1040).setModules
    ([HvmModlistEntry.mk 0x2000 0x10 0 0].map (·.asSlice)) 0x1080

/-- Boot parameters, ELF kernel and command line. -/
def guestPvhSteps : List BootStep :=
  [.pvh guestPvh, .elf (.cursor demoElf) none none, .cmdline 0x1100 guestCmdline]

/-- All hypotheses of `C74_pvh_guest` hold for it. -/
example : (∀ st ∈ guestPvhSteps, st.Admissible) ∧ bootMem.WF ∧
    guestPvhSteps.Pairwise BootStep.Disjoint ∧ (bootRun guestPvhSteps bootMem).2.1 = true ∧
    ((elfLoadable demoElf).Pairwise fun g h =>
      DisjointRanges (koffBase none + g.paddr) (g.contents demoElf).length (koffBase none + h.paddr)
        (h.contents demoElf).length) ∧
    DisjointRanges 0x1000 56 0x1040 24 ∧ DisjointRanges 0x1000 56 0x1080 32 ∧
    DisjointRanges 0x1040 24 0x1080 32 := by
  have hseg : (elfLoadable demoElf).map (fun h => (h.paddr, h.filesz, (h.contents demoElf).length)) =
      [(0x20, 4, 4), (0x40, 3, 3)] := by decide +kernel
  refine ⟨?_, bootMem_wf, ?_, by decide +kernel, ?_, ?_, ?_, ?_⟩
  · intro st hst
    simp only [guestPvhSteps, List.mem_cons, List.not_mem_nil, or_false] at hst
    rcases hst with rfl | rfl | rfl
    · trivial
    · show demoElf.length < ISZ
      decide +kernel
    · trivial
  · have hp : ∀ x, (BootStep.pvh guestPvh).Targets x → 0x1000 ≤ x ∧ x < 0x10a0 := by
      intro x hx
      have := pieces_range (l := [(0x1040, 24), (0x1000, 56), (0x1080, 32)]) (by decide +kernel)
        (show InPieces _ x from hx)
      simp only [InRange, List.mem_cons, List.not_mem_nil, or_false, exists_eq_or_imp,
        exists_eq_left] at this
      omega
    have he : ∀ x, (BootStep.elf (.cursor demoElf) none none).Targets x → x < 0x43 := by
      rintro x ⟨q, hq, hr⟩
      have : (q.paddr, q.filesz, (q.contents demoElf).length) ∈ [(0x20, 4, 4), (0x40, 3, 3)] :=
        hseg ▸ List.mem_map.2 ⟨q, hq, rfl⟩
      simp only [List.mem_cons, Prod.mk.injEq, List.not_mem_nil, or_false] at this
      unfold InRange koffBase at hr
      simp only at hr
      omega
    have hc : ∀ x, (BootStep.cmdline 0x1100 guestCmdline).Targets x → 0x1100 ≤ x := by
      rintro x ⟨q, hq, hr⟩
      rw [show (BootStep.cmdline 0x1100 guestCmdline).pieces =
        [(0x1100, (text guestCmdline.bootArgs guestCmdline.initArgs).utf8 ++ [0])] from rfl,
        List.mem_singleton] at hq
      subst hq
      exact hr.1
    simp only [guestPvhSteps, List.pairwise_cons, List.mem_cons, List.not_mem_nil, or_false,
      forall_eq_or_imp, forall_eq, false_implies, implies_true, List.Pairwise.nil, and_true]
    refine ⟨⟨?_, ?_⟩, ?_⟩
    · rintro x ⟨h1, h2⟩; have := hp x h1; have := he x h2; omega
    · rintro x ⟨h1, h2⟩; have := hp x h1; have := hc x h2; omega
    · rintro x ⟨h1, h2⟩; have := he x h1; have := hc x h2; omega
  · have hmap : ((elfLoadable demoElf).map
        (fun h => (h.paddr, h.filesz, (h.contents demoElf).length))).Pairwise
        fun g h => DisjointRanges g.1 g.2.2 h.1 h.2.2 := by
      rw [hseg]
      simp only [List.pairwise_cons, List.mem_cons, List.not_mem_nil, or_false, forall_eq,
        false_implies, implies_true, List.Pairwise.nil, and_true]
      intro x; simp only [InRange]; omega
    rw [List.pairwise_map] at hmap
    exact hmap.imp fun h => by simpa [koffBase] using h
  all_goals intro x; simp only [InRange]; omega

/-- What C74 says of it, computed. -/
example : parseArgs (pvhCmdline (bootRun guestPvhSteps bootMem).2.2.data 0x1000 99) =
      ([("k".toList, some "a b".toList)], some "i".toList) ∧
    pvhMemmap (bootRun guestPvhSteps bootMem).2.2.data 0x1000 = [(0, 0x9fc00, 1)] ∧
    pvhModules (bootRun guestPvhSteps bootMem).2.2.data 0x1000 = [(0x2000, 0x10, 0)] := by
  decide +kernel

end LinuxLoader
