import Verif.Spec.Payload
import Verif.Props.SetupHeader

/-!
# Initial ramdisk, setup_data and modules next to what the crate writes (C102)

Vocabulary: `Spec/Payload.lean`, `Spec/Guest.lean`, `Spec/Boot.lean`. The VMM's own writes are the step
`BootStep.own`.
-/

namespace LinuxLoader
open Spec Cmdline Spec.Kernel Spec.Setup

theorem bytesAt_holds {f : Nat → UInt8} {a : Nat} {bs : List UInt8} (h : Holds f a bs) :
    bytesAt f a bs.length = bs := by
  apply List.ext_getElem?
  intro i
  unfold bytesAt
  rw [List.getElem?_map]
  by_cases hi : i < bs.length
  · rw [List.getElem?_range hi, List.getElem?_eq_getElem hi]
    exact congrArg some (h i _ (List.getElem?_eq_getElem hi))
  · rw [List.getElem?_eq_none (by simpa using hi), List.getElem?_eq_none (by simpa using hi)]; rfl

/-- The fields of a zero page that has been written. -/
theorem zero_page_field {steps : List BootStep} (had : ∀ st ∈ steps, st.Admissible) {m : Mem}
    (hw : m.WF) (hdis : steps.Pairwise BootStep.Disjoint) (hok : (bootRun steps m).2.1 = true)
    {v : String → List UInt8} (hv : Typed Layout.bootParams v) {za : GuestAddr}
    (hzero : .linux (BootParams.new (encodeBy Layout.bootParams v) za) ∈ steps)
    (p : String × Nat × Nat) (hp : p ∈ zeroPageDoc) (o n : Nat) (hn : o + n ≤ p.2.2) :
    readLE (bootRun steps m).2.2.data (za.toNat + p.2.1 + o) n = leField (v p.1) o n := by
  have hzp : Holds (bootRun steps m).2.2.data za.toNat (encodeBy Layout.bootParams v) :=
    single_piece had hw hdis hok hzero rfl
  obtain ⟨hm, -⟩ := zeroPage_matches p hp
  exact readLE_field (holds_subAt hzp ((bootParams_bytes v hv).2 _ hm)) (by rw [hv _ hm]; exact hn)

/-- **C102.** A VMM makes any sequence of successful calls on pairwise disjoint parts of memory. Among them it
puts an initial ramdisk into memory itself, and writes a zero page with its address and size, each in two
halves. Then the guest finds the ramdisk. -/
theorem C102_initrd (steps : List BootStep) (had : ∀ st ∈ steps, st.Admissible) (m : Mem)
    (hw : m.WF) (hdis : steps.Pairwise BootStep.Disjoint) (hok : (bootRun steps m).2.1 = true)
    -- the zero page
    (v : String → List UInt8) (hv : Typed Layout.bootParams v) (za : GuestAddr)
    (hzero : .linux (BootParams.new (encodeBy Layout.bootParams v) za) ∈ steps)
    -- the ramdisk
    (ia : GuestAddr) (initrd : List UInt8) (hown : .own ia initrd ∈ steps)
    (h1 : leField (v "hdr") (0x218 - 0x1f1) 4 = ia.toNat % 0x100000000)
    (h2 : leField (v "ext_ramdisk_image") 0 4 = ia.toNat / 0x100000000)
    (h3 : leField (v "hdr") (0x21c - 0x1f1) 4 = initrd.length % 0x100000000)
    (h4 : leField (v "ext_ramdisk_size") 0 4 = initrd.length / 0x100000000) :
    linuxInitrd (bootRun steps m).2.2.data za.toNat = initrd := by
  have field := zero_page_field had hw hdis hok hv hzero
  have f1 := field ("hdr", 0x1f1, 123) (by decide) (0x218 - 0x1f1) 4 (by decide)
  have f2 := field ("ext_ramdisk_image", 0x0c0, 4) (by decide) 0 4 (by decide)
  have f3 := field ("hdr", 0x1f1, 123) (by decide) (0x21c - 0x1f1) 4 (by decide)
  have f4 := field ("ext_ramdisk_size", 0x0c4, 4) (by decide) 0 4 (by decide)
  simp only [Nat.add_zero, Nat.add_assoc, Nat.reduceAdd, Nat.reduceSub] at f1 f2 f3 f4
  simp only [Nat.reduceSub] at h1 h3
  rw [h1] at f1
  rw [h2] at f2
  rw [h3] at f3
  rw [h4] at f4
  unfold linuxInitrd
  rw [f1, f2, f3, f4, show ia.toNat % 0x100000000 + 0x100000000 * (ia.toNat / 0x100000000) = ia.toNat by omega,
    show initrd.length % 0x100000000 + 0x100000000 * (initrd.length / 0x100000000) = initrd.length by omega]
  exact bytesAt_holds (single_piece had hw hdis hok hown rfl)

theorem setupNodes_chain {f : Nat → UInt8} (nodes : List (GuestAddr × UInt32 × List UInt8))
    (hne : ∀ n ∈ nodes, n.1 ≠ 0 ∧ n.2.2.length < 0x100000000)
    (hh : ∀ q ∈ setupChain nodes, Holds f q.1.toNat q.2) (n : Nat) (hn : nodes.length < n) :
    setupNodes f ((nodes.head?.map fun n => n.1.toNat).getD 0) n =
      nodes.map fun x => (x.2.1.toNat, x.2.2) := by
  induction nodes generalizing n with
  | nil =>
    cases n with
    | zero => rfl
    | succ n => rfl
  | cons x rest ih =>
    obtain ⟨a, t, d⟩ := x
    cases n with
    | zero => cases hn
    | succ n =>
      obtain ⟨ha, hl⟩ := hne _ (.head _)
      have ha' : a.toNat ≠ 0 := fun h => ha (UInt64.toNat_inj.1 h)
      have h0 := hh (a, setupNode ((rest.head?.map fun n => n.1.toNat).getD 0) t.toNat d) (.head _)
      simp only [setupNode, holds_append, leBytes_length, List.length_append, Nat.reduceAdd] at h0
      obtain ⟨⟨⟨g1, g2⟩, g3⟩, g4⟩ := h0
      have hnext : (rest.head?.map fun n => n.1.toNat).getD 0 < 256 ^ 8 := by
        cases rest with
        | nil => decide
        | cons y _ => exact u64_lt _
      have e1 := readLE_leBytes g1 hnext
      have e2 := readLE_leBytes g2 (u32_lt t)
      have e3 := readLE_leBytes g3 (show d.length < 256 ^ 4 from hl)
      show setupNodes f a.toNat (n + 1) = _
      rw [setupNodes, if_neg ha', e1, e2, e3, bytesAt_holds g4,
        ih (fun y hy => hne y (.tail _ hy)) (fun q hq => hh q (.tail _ hq)) n (by simpa using hn)]
      rfl

/-- **C102.** The same for a linked list of `setup_data` of any length. -/
theorem C102_setup_data (steps : List BootStep) (had : ∀ st ∈ steps, st.Admissible) (m : Mem)
    (hw : m.WF) (hdis : steps.Pairwise BootStep.Disjoint) (hok : (bootRun steps m).2.1 = true)
    -- the zero page
    (v : String → List UInt8) (hv : Typed Layout.bootParams v) (za : GuestAddr)
    (hzero : .linux (BootParams.new (encodeBy Layout.bootParams v) za) ∈ steps)
    -- the nodes
    (nodes : List (GuestAddr × UInt32 × List UInt8))
    (hne : ∀ n ∈ nodes, n.1 ≠ 0 ∧ n.2.2.length < 0x100000000)
    (hown : ∀ q ∈ setupChain nodes, .own q.1 q.2 ∈ steps)
    (hptr : leField (v "hdr") (0x250 - 0x1f1) 8 = (nodes.head?.map fun n => n.1.toNat).getD 0)
    (n : Nat) (hn : nodes.length < n) :
    linuxSetupData (bootRun steps m).2.2.data za.toNat n = nodes.map fun x => (x.2.1.toNat, x.2.2) := by
  have f1 := zero_page_field had hw hdis hok hv hzero ("hdr", 0x1f1, 123) (by decide) (0x250 - 0x1f1) 8 (by decide)
  simp only [Nat.add_assoc, Nat.reduceAdd, Nat.reduceSub] at f1
  simp only [Nat.reduceSub] at hptr
  unfold linuxSetupData
  rw [f1, hptr]
  exact setupNodes_chain nodes hne (fun q hq => single_piece had hw hdis hok (hown q hq) rfl) n hn

/-- **C102.** A PVH guest: the VMM puts the contents of the modules and their command lines into memory itself.
Following the pointers, the guest finds all of them, in order. -/
theorem C102_modules (steps : List BootStep) (had : ∀ st ∈ steps, st.Admissible) (m : Mem)
    (hw : m.WF) (hdis : steps.Pairwise BootStep.Disjoint) (hok : (bootRun steps m).2.1 = true)
    -- the boot parameters
    (si : HvmStartInfo) (es : List HvmMemmapEntry) (ms : List HvmModlistEntry) (sa ea ma : GuestAddr)
    (hpvh : .pvh (((BootParams.new si.asSlice sa).setSections (es.map (·.asSlice)) ea).setModules
      (ms.map (·.asSlice)) ma) ∈ steps)
    (h1 : DisjointRanges sa.toNat 56 ea.toNat (24 * es.length))
    (h2 : DisjointRanges sa.toNat 56 ma.toNat (32 * ms.length))
    (h3 : DisjointRanges ea.toNat (24 * es.length) ma.toNat (32 * ms.length))
    (hmod : si.modlistPaddr = ma ∧ si.nrModules.toNat = ms.length)
    -- the modules: contents and command line of each
    (ds : List (List UInt8 × Option (List UInt8))) (hlen : ds.length = ms.length)
    (hdata : ∀ (i : Nat) e d, ms[i]? = some e → ds[i]? = some d →
      .own e.paddr d.1 ∈ steps ∧ e.size.toNat = d.1.length ∧
      (d.2 = none → e.cmdlinePaddr = 0) ∧
      ∀ c, d.2 = some c → e.cmdlinePaddr ≠ 0 ∧ 0 ∉ c ∧ .own e.cmdlinePaddr (c ++ [0]) ∈ steps)
    (n : Nat) (hn : ∀ d ∈ ds, ∀ c, d.2 = some c → c.length ≤ n) :
    pvhModuleData (bootRun steps m).2.2.data sa.toNat n = ds := by
  have hall := (C55_disjoint steps had m hw hdis).2.2.1 hok
  have hmods : pvhModules (bootRun steps m).2.2.data sa.toNat =
      ms.map (fun e => (e.paddr.toNat, e.size.toNat, e.cmdlinePaddr.toNat)) := by
    have w1 : ∀ x ∈ es.map (·.asSlice), x.length = 24 := by
      intro x hx; obtain ⟨e, -, rfl⟩ := List.mem_map.1 hx; rw [memmapEntry_slice]; simp
    have w2 : ∀ x ∈ ms.map (·.asSlice), x.length = 32 := by
      intro x hx; obtain ⟨e, -, rfl⟩ := List.mem_map.1 hx; rw [modlistEntry_slice]; simp
    have w0 : si.asSlice.length = 56 := by rw [startInfo_slice]; simp
    have l1 : (es.map (·.asSlice)).flatten.length = 24 * es.length := by
      rw [flatten_length w1, List.length_map, Nat.mul_comm]
    have l2 : (ms.map (·.asSlice)).flatten.length = 32 * ms.length := by
      rw [flatten_length w2, List.length_map, Nat.mul_comm]
    have hp := C55_pieces steps had m hw hdis _ (by rw [hall]; exact hpvh) (by
      simp only [BootStep.pieces, pvhPieces, optPiece, BootParams.setModules, BootParams.setSections,
        BootParams.new, List.cons_append, List.nil_append, List.pairwise_cons, List.mem_cons,
        List.not_mem_nil, or_false, forall_eq_or_imp, forall_eq, false_implies, implies_true,
        List.Pairwise.nil, and_true, w0, l1, l2]
      exact ⟨⟨fun x hx => h1 x ⟨hx.2, hx.1⟩, h3⟩, h2⟩)
    have g2 : Holds (bootRun steps m).2.2.data sa.toNat si.asSlice := hp (_, _) (.tail _ (.head _))
    have g3 : Holds (bootRun steps m).2.2.data ma.toNat (ms.map (·.asSlice)).flatten :=
      hp (_, _) (.tail _ (.tail _ (.head _)))
    have hsi := startInfo_at g2
    refine range_entries _ _ _ _ (by rw [hsi.nrModules, hmod.2]) fun i e he => ?_
    rw [hsi.modlistPaddr, hmod.1, Nat.mul_comm 32 i]
    have := modlistEntry_at (holds_flatten w2 g3 i _ (by rw [List.getElem?_map, he]; rfl))
    exact Prod.ext this.paddr (Prod.ext this.size this.cmdlinePaddr)
  unfold pvhModuleData
  rw [hmods, List.map_map]
  apply List.ext_getElem?
  intro i
  rw [List.getElem?_map]
  by_cases hi : i < ms.length
  · rw [List.getElem?_eq_getElem hi, List.getElem?_eq_getElem (by omega : i < ds.length)]
    obtain ⟨k1, k2, k3, k4⟩ := hdata i _ _ (List.getElem?_eq_getElem hi)
      (List.getElem?_eq_getElem (by omega : i < ds.length))
    have hmem : ds[i] ∈ ds := List.getElem_mem _
    refine congrArg some (Prod.ext ?_ ?_)
    · simp only [Function.comp_apply]
      rw [k2]
      exact bytesAt_holds (single_piece had hw hdis hok k1 rfl)
    · simp only [Function.comp_apply]
      cases hc : (ds[i]'(by omega)).2 with
      | none => rw [k3 hc]; rfl
      | some c =>
        obtain ⟨c1, c2, c3⟩ := k4 c hc
        have c0 : ms[i].cmdlinePaddr.toNat ≠ 0 := fun h => c1 (UInt64.toNat_inj.1 h)
        rw [if_neg c0, cstr_holds c2 (hn _ hmem c hc)
          (single_piece had hw hdis hok c3 rfl)]
  · rw [List.getElem?_eq_none (by simpa using hi), List.getElem?_eq_none (by omega)]; rfl

/-- **C102.** Devices: the capacity of the command line is taken from the setup header that the loader returned.
Then the virtio-mmio driver of the kernel, which follows `cmd_line_ptr` and keeps as many bytes as the kernel's
own image says, registers exactly the devices that the VMM has added. -/
theorem C102_devices (steps : List BootStep) (had : ∀ st ∈ steps, st.Admissible) (m : Mem)
    (hw : m.WF) (hdis : steps.Pairwise BootStep.Disjoint) (hok : (bootRun steps m).2.1 = true)
    -- the kernel
    (rd : Reader) (koff highmem : Option GuestAddr) (m₀ : Mem) (r : LoadResult)
    (hns : ∀ i n, rd.sched i ≠ .short n) (hres : (bzLoad koff highmem ⟨rd, m₀⟩).1 = .ok r)
    (hdr : List UInt8) (hr : r.setupHeader = some hdr)
    -- the command line
    (cap : UInt64) (hcap : cap.toNat = (demands (headerField hdr)).cmdlineLimit + 1)
    (c₀ c : Cmdline) (h₀ : Cmdline.new cap = .ok c₀) (ops : List Op)
    (pairs : List (Str × Str)) (inits : List Str) (hh : History c₀ ops pairs inits c)
    (hk : ∀ op ∈ ops, (∀ k v, op = .insert k v → ¬ IsDeviceParam k) ∧
      (∀ k vs, op = .insertMultiple k vs → ¬ IsDeviceParam k))
    (ca : GuestAddr) (hcmdline : .cmdline ca c ∈ steps)
    -- the zero page
    (v : String → List UInt8) (hv : Typed Layout.bootParams v) (za : GuestAddr)
    (hzero : .linux (BootParams.new (encodeBy Layout.bootParams v) za) ∈ steps)
    (hptr : leField (v "hdr") (0x228 - 0x1f1) 4 = ca.toNat % 0x100000000)
    (hext : leField (v "ext_cmd_line_ptr") 0 4 = ca.toNat / 0x100000000) :
    driver 0 (parseArgs (linuxCmdline (bootRun steps m).2.2.data za.toNat
      (demands (imageField rd.data)).cmdlineLimit)).1 = registrations 0 (devicesAdded c₀ ops) := by
  have field := zero_page_field had hw hdis hok hv hzero
  have f1 := field ("hdr", 0x1f1, 123) (by decide) (0x228 - 0x1f1) 4 (by decide)
  have f2 := field ("ext_cmd_line_ptr", 0x0c8, 4) (by decide) 0 4 (by decide)
  simp only [Nat.add_zero, Nat.add_assoc, Nat.reduceAdd, Nat.reduceSub] at f1 f2
  simp only [Nat.reduceSub] at hptr
  rw [hptr] at f1
  rw [hext] at f2
  have ha : linuxCmdlineAddr (bootRun steps m).2.2.data za.toNat = ca.toNat := by
    unfold linuxCmdlineAddr
    rw [f1, f2]; omega
  have hns' : NoShortReads ⟨rd, m₀⟩ := hns
  obtain ⟨hdr', e1, e2⟩ := C99_demands hns'
    (show bzLoad koff highmem ⟨rd, m₀⟩ = (.ok r, (bzLoad koff highmem ⟨rd, m₀⟩).2) from Prod.ext hres rfl)
  rw [hr] at e1
  cases e1
  unfold linuxCmdline
  rw [ha, history_read h₀ hh (by rw [hcap, e2]; exact Nat.le_refl _)
      (single_piece had hw hdis hok hcmdline rfl),
    ← C93_devices cap c₀ c h₀ ops pairs inits hh hk, C12_kernel_sees_pairs cap c₀ c h₀ ops pairs inits hh]

/-! ## Concrete guests -/

/-- Steps other than `Elf::load` are disjoint if the ranges of their pieces are. -/
theorem disjoint_ranges {steps : List BootStep} (hne : ∀ st ∈ steps, ∀ rd k h, st ≠ .elf rd k h)
    (h : (steps.map fun s => s.pieces.map fun q => (q.1, q.2.length)).Pairwise fun p q =>
      ∀ a ∈ p, ∀ b ∈ q, a.1 + a.2 ≤ b.1 ∨ b.1 + b.2 ≤ a.1) : steps.Pairwise BootStep.Disjoint := by
  rw [List.pairwise_map] at h
  refine h.imp_of_mem fun {s t} hs ht hst x hx => ?_
  have key : ∀ {s : BootStep}, (∀ rd k h, s ≠ .elf rd k h) → s.Targets x →
      ∃ q ∈ s.pieces.map (fun q => (q.1, q.2.length)), InRange q.1 q.2 x := by
    intro s hs hx
    cases s with
    | elf rd k h => exact absurd rfl (hs rd k h)
    | _ =>
      obtain ⟨q, hq, hr⟩ := hx
      exact ⟨_, List.mem_map.2 ⟨q, hq, rfl⟩, hr⟩
  obtain ⟨a, ha, ha'⟩ := key (hne s hs) hx.1
  obtain ⟨b, hb, hb'⟩ := key (hne t ht) hx.2
  have := hst a ha b hb
  unfold InRange at ha' hb'
  omega

/-- The setup header returned for a kernel at 0x80, filled in: ramdisk of 4 bytes at 0x2000, command line at
0x100, `setup_data` at 0x2100. -/
def payHdr : List UInt8 :=
  relocHdr.take (0x218 - 0x1f1) ++ leBytes 4 0x2000 ++ leBytes 4 4 ++
    (relocHdr.drop (0x220 - 0x1f1)).take 8 ++ leBytes 4 0x100 ++
    (relocHdr.drop (0x22c - 0x1f1)).take (0x250 - 0x22c) ++ leBytes 8 0x2100 ++ relocHdr.drop (0x258 - 0x1f1)

/-- Two nodes of `setup_data`: a seed and a device tree. -/
def payNodes : List (GuestAddr × UInt32 × List UInt8) := [(0x2100, 9, [7, 8, 9]), (0x2200, 2, [5])]

/-- The calls on a command line of capacity 101. -/
def payOps : List Op := [.addVirtio 0x1000 0x1000 5 (some 42)]

/-- The command line. -/
def payLine : Cmdline := (⟨[], [], 101⟩ : Cmdline).run payOps

theorem payLine_history : History ⟨[], [], 101⟩ payOps
    [("virtio_mmio.device".toList, "4K@0x1000:5:42".toList)] [] payLine :=
  .boot (by decide +kernel) .virtio .nil

/-- A zero page with this header. -/
def payZp : String → List UInt8 := demoZp payHdr

/-- Zero page, command line, kernel, ramdisk, nodes. -/
def paySteps : List BootStep :=
  [.own 0x2000 [1, 2, 3, 4], .linux (BootParams.new (encodeBy Layout.bootParams payZp) 0x1000),
    .cmdline 0x100 payLine, .own 0x2200 (setupNode 0 2 [5]), .bz relocState.rd (some 0x80) none,
    .own 0x2100 (setupNode 0x2200 9 [7, 8, 9])]

theorem paySteps_ok : (∀ st ∈ paySteps, st.Admissible) ∧ paySteps.Pairwise BootStep.Disjoint ∧
    (bootRun paySteps zpMem).2.1 = true ∧ Typed Layout.bootParams payZp := by
  refine ⟨?_, disjoint_ranges ?_ (by decide +kernel), by decide +kernel, by unfold Typed; decide +kernel⟩
  · intro st hst
    simp only [paySteps, List.mem_cons, List.not_mem_nil, or_false] at hst
    rcases hst with rfl | rfl | rfl | rfl | rfl | rfl
    all_goals first | trivial | exact .inl relocState_full
  · intro st hst rd k h
    simp only [paySteps, List.mem_cons, List.not_mem_nil, or_false] at hst
    rcases hst with rfl | rfl | rfl | rfl | rfl | rfl <;> exact nofun

example := C102_initrd paySteps paySteps_ok.1 zpMem zpMem_wf paySteps_ok.2.1 paySteps_ok.2.2.1 payZp
  paySteps_ok.2.2.2 0x1000 (.tail _ (.head _)) 0x2000 [1, 2, 3, 4] (.head _) (by decide +kernel)
  (by decide +kernel) (by decide +kernel) (by decide +kernel)

example := C102_setup_data paySteps paySteps_ok.1 zpMem zpMem_wf paySteps_ok.2.1 paySteps_ok.2.2.1 payZp
  paySteps_ok.2.2.2 0x1000 (.tail _ (.head _)) payNodes (by decide +kernel) (by
    intro q hq
    rw [show setupChain payNodes = [(0x2100, setupNode 0x2200 9 [7, 8, 9]), (0x2200, setupNode 0 2 [5])] from rfl] at hq
    simp only [List.mem_cons, List.not_mem_nil, or_false] at hq
    rcases hq with rfl | rfl <;> simp [paySteps]) (by decide +kernel) 3 (by decide)

example := C102_devices paySteps paySteps_ok.1 zpMem zpMem_wf paySteps_ok.2.1 paySteps_ok.2.2.1 relocState.rd
  (some 0x80) none relocState.mem _ relocState_full reloc_loads relocHdr rfl 101 (by decide +kernel)
  ⟨[], [], 101⟩ payLine (by decide +kernel) payOps _ _ payLine_history (by
    intro op hop
    simp only [payOps, List.mem_cons, List.not_mem_nil, or_false] at hop
    subst hop
    exact ⟨nofun, nofun⟩) 0x100 (by simp [paySteps]) payZp paySteps_ok.2.2.2 0x1000 (.tail _ (.head _))
  (by decide +kernel) (by decide +kernel)

/-- What they say, computed. -/
example : linuxInitrd (bootRun paySteps zpMem).2.2.data 0x1000 = [1, 2, 3, 4] ∧
    linuxSetupData (bootRun paySteps zpMem).2.2.data 0x1000 3 = [(9, [7, 8, 9]), (2, [5])] ∧
    driver 0 (parseArgs (linuxCmdline (bootRun paySteps zpMem).2.2.data 0x1000 100)).1 =
      [⟨0x1000, 0x1fff, 5, 42⟩] := by decide +kernel

/-- Start info with two modules at 0x1080, at 0x1300 and 0x1310, the second without a command line. -/
def payInfo : HvmStartInfo := ⟨0x336ec578, 1, 0, 2, 0x1080, 0, 0, 0x1040, 1, 0⟩

/-- The modules. -/
def payMods : List HvmModlistEntry := [⟨0x1300, 3, 0x1320, 0⟩, ⟨0x1310, 2, 0, 0⟩]

/-- Boot parameters, contents of the modules, a command line. -/
def payPvhSteps : List BootStep :=
  [.own 0x1310 [4, 5], .pvh (((BootParams.new payInfo.asSlice 0x1000).setSections
    ([HvmMemmapEntry.mk 0 0x9fc00 1 0].map (·.asSlice)) 0x1040).setModules (payMods.map (·.asSlice)) 0x1080),
   .own 0x1320 ([97, 98] ++ [0]), .own 0x1300 [1, 2, 3]]

theorem payPvhSteps_ok : (∀ st ∈ payPvhSteps, st.Admissible) ∧ payPvhSteps.Pairwise BootStep.Disjoint ∧
    (bootRun payPvhSteps bootMem).2.1 = true := by
  refine ⟨?_, disjoint_ranges ?_ (by decide +kernel), by decide +kernel⟩
  · intro st hst
    simp only [payPvhSteps, List.mem_cons, List.not_mem_nil, or_false] at hst
    rcases hst with rfl | rfl | rfl | rfl <;> trivial
  · intro st hst rd k h
    simp only [payPvhSteps, List.mem_cons, List.not_mem_nil, or_false] at hst
    rcases hst with rfl | rfl | rfl | rfl <;> exact nofun

example := C102_modules payPvhSteps payPvhSteps_ok.1 bootMem bootMem_wf payPvhSteps_ok.2.1 payPvhSteps_ok.2.2
  payInfo [HvmMemmapEntry.mk 0 0x9fc00 1 0] payMods 0x1000 0x1040 0x1080 (.tail _ (.head _))
  (show DisjointRanges 0x1000 56 0x1040 24 by intro x; simp only [InRange]; omega)
  (show DisjointRanges 0x1000 56 0x1080 64 by intro x; simp only [InRange]; omega)
  (show DisjointRanges 0x1040 24 0x1080 64 by intro x; simp only [InRange]; omega)
  ⟨rfl, rfl⟩ [([1, 2, 3], some [97, 98]), ([4, 5], none)] rfl (by
    intro i e d he hd
    match i with
    | 0 =>
      cases he; cases hd
      refine ⟨by simp [payPvhSteps], rfl, nofun, fun c hc => ?_⟩
      cases hc
      exact ⟨by decide, by decide, by simp [payPvhSteps]⟩
    | 1 =>
      cases he; cases hd
      exact ⟨by simp [payPvhSteps], rfl, fun _ => rfl, nofun⟩
    | i + 2 => cases he) 2 (by decide)

example : pvhModuleData (bootRun payPvhSteps bootMem).2.2.data 0x1000 2 =
    [([1, 2, 3], some [97, 98]), ([4, 5], none)] := by decide +kernel

/-- **C102 (refuted).** If all calls succeed, the guest finds the ramdisk (without disjointness): nothing in the
crate knows about the VMM's own data. -/
theorem C102_overlap_refuted : ¬ ∀ (steps : List BootStep) (m : Mem), (∀ st ∈ steps, st.Admissible) → m.WF →
    (bootRun steps m).2.1 = true → ∀ (ia : GuestAddr) (initrd : List UInt8), .own ia initrd ∈ steps →
    bytesAt (bootRun steps m).2.2.data ia.toNat initrd.length = initrd := by
  intro H
  have h := H [.own 0x1100 [1, 2, 3, 4], .cmdline 0x1102 demo] bootMem (by
    intro st hst
    simp only [List.mem_cons, List.not_mem_nil, or_false] at hst
    rcases hst with rfl | rfl <;> trivial) bootMem_wf (by decide +kernel) 0x1100 [1, 2, 3, 4] (.head _)
  revert h
  decide +kernel

end LinuxLoader
