import Verif.Props.Guest
import Verif.Props.VirtioDriver

/-!
# The kernel's limit on the command line (C97)

The kernel keeps at most `limit` bytes of its command line (without the NUL): `cmdline_size` of the setup
header, Documentation/arch/x86/boot.rst ("The maximum size of the command line without the terminating
zero"). It gets the bytes in front of the first NUL, at most so many: `cstr f a limit` (`Spec/Guest.lean`).
-/

namespace LinuxLoader
open Spec Cmdline Spec.Kernel

/-- What the kernel gets of a text at `x` with its NUL. -/
theorem cstr_limit {f : Nat → UInt8} {bs : List UInt8} (hz : (0 : UInt8) ∉ bs) {x n : Nat}
    (h : Holds f x (bs ++ [0])) : cstr f x n = bs.take n := by
  induction bs generalizing x n with
  | nil =>
    cases n with
    | zero => rfl
    | succ n =>
      have := h 0 0 rfl
      rw [Nat.add_zero] at this
      rw [cstr, if_pos this, List.take_nil]
  | cons b bs ih =>
    cases n with
    | zero => rfl
    | succ n =>
      have h0 := h 0 b rfl
      rw [Nat.add_zero] at h0
      have hb : b ≠ 0 := fun hb => hz (by rw [hb]; exact List.mem_cons_self)
      rw [cstr, h0, if_neg hb, List.take_succ_cons]
      congr 1
      refine ih (fun h' => hz (List.mem_cons_of_mem _ h')) fun i c hc => ?_
      have := h (i + 1) c (by simpa using hc)
      rw [show x + 1 + i = x + (i + 1) by omega]
      exact this

/-- The C string has no NUL inside. -/
theorem asCString_no_nul {c : Cmdline} {bs : List UInt8} (h : c.asCString = .ok bs) : (0 : UInt8) ∉ bs := by
  rw [asCString_eq] at h
  split at h
  · cases h
  · split at h
    · cases h
    · cases h
      rw [zero_mem_utf8, nul_mem]
      assumption

/-- **C97.** After a successful `load_cmdline` the kernel gets the first `limit` bytes of the line. -/
theorem C97_seen (a : GuestAddr) (c : Cmdline) (m m' : Mem) (h : loadCmdline a c m = (.ok (), m'))
    (limit : Nat) : cstr m'.data a.toNat limit = (text c.bootArgs c.initArgs).utf8.take limit := by
  obtain ⟨bs, hb, hs⟩ := C19_exact a c m m' h
  rw [← asCString_ok hb]
  exact cstr_limit (asCString_no_nul hb) hs.2.1

/-- **C97.** The kernel gets the complete line if and only if it has at most `limit` bytes. -/
theorem C97_complete_iff (a : GuestAddr) (c : Cmdline) (m m' : Mem)
    (h : loadCmdline a c m = (.ok (), m')) (limit : Nat) :
    cstr m'.data a.toNat limit = (text c.bootArgs c.initArgs).utf8 ↔
      (text c.bootArgs c.initArgs).utf8.length ≤ limit := by
  rw [C97_seen a c m m' h limit]
  constructor
  · intro he
    have := congrArg List.length he
    rw [List.length_take] at this
    omega
  · exact List.take_of_length_le

/-- **C97.** With a capacity of at most the limit and the NUL, whatever the builder calls: the kernel gets
the complete line. -/
theorem C97_capacity (cap : UInt64) (c₀ : Cmdline)
    (h₀ : Cmdline.new cap = .ok c₀ ∨ ∃ s, Cmdline.tryFrom s cap = .ok c₀) (ops : List Op)
    (a : GuestAddr) (m m' : Mem) (h : loadCmdline a (c₀.run ops) m = (.ok (), m')) (limit : Nat)
    (hl : cap.toNat ≤ limit + 1) :
    cstr m'.data a.toNat limit = (text (c₀.run ops).bootArgs (c₀.run ops).initArgs).utf8 := by
  refine (C97_complete_iff a _ m m' h limit).2 ?_
  obtain ⟨bs, hb, -⟩ := C19_exact a _ m m' h
  have := C01_capacity cap c₀ h₀ ops bs hb
  rw [← asCString_ok hb]
  simp only [bytesWithNul, List.length_append, List.length_singleton] at this
  omega

/-- **C97.** The virtio-mmio driver of a kernel that reads its command line from guest memory registers
exactly the devices that the VMM has added. -/
theorem C97_devices (cap : UInt64) (c₀ c : Cmdline) (h₀ : Cmdline.new cap = .ok c₀) (ops : List Op)
    (pairs : List (Str × Str)) (inits : List Str) (hh : History c₀ ops pairs inits c)
    (hk : ∀ op ∈ ops, (∀ k v, op = .insert k v → ¬ IsDeviceParam k) ∧
      (∀ k vs, op = .insertMultiple k vs → ¬ IsDeviceParam k))
    (a : GuestAddr) (m m' : Mem) (h : loadCmdline a c m = (.ok (), m')) (limit : Nat)
    (hl : cap.toNat ≤ limit + 1) :
    driver 0 (parseArgs (ascii (cstr m'.data a.toNat limit))).1 = registrations 0 (devicesAdded c₀ ops) := by
  obtain ⟨bs, hb, hs⟩ := C19_exact a c m m' h
  rw [asCString_ok hb] at hs
  rw [← C93_devices cap c₀ c h₀ ops pairs inits hh hk, history_read h₀ hh hl hs.2.1,
    C12_kernel_sees_pairs cap c₀ c h₀ ops pairs inits hh]

/-- A kernel of boot protocol 2.00 - 2.05 keeps 255 bytes (Documentation/arch/x86/boot.rst, field `cmdline_size`). -/
def oldLimit : Nat := 255

/-- The calls of a VMM whose line is one byte longer than that. -/
def longOps : List Op := [.insertStr (List.replicate 245 'x'), .insert "root".toList "sda12".toList]

/-- The line of 256 bytes. -/
def longLine : Cmdline := (⟨[], [], 4096⟩ : Cmdline).run longOps

/-- 64 KiB of guest memory. -/
def longMem : Mem := ⟨[⟨0, 0x10000⟩], fun _ => 0, true⟩

/-- The claim that `load_cmdline` succeeds only if the kernel gets the complete line. -/
def LimitChecked : Prop :=
  ∀ (a : GuestAddr) (c : Cmdline) (m m' : Mem), Reachable c → loadCmdline a c m = (.ok (), m') →
    cstr m'.data a.toNat oldLimit = (text c.bootArgs c.initArgs).utf8

theorem longLine_reachable : Reachable longLine :=
  .step _ (.step _ (.new (cap := 4096) (by decide +kernel)))

theorem longLine_ok : (loadCmdline 0x2000 longLine longMem).1 = .ok () := by decide +kernel

theorem longLine_text : text longLine.bootArgs longLine.initArgs =
    List.replicate 245 'x' ++ " root=sda12".toList := by decide +kernel

theorem longLine_length : (text longLine.bootArgs longLine.initArgs).utf8.length = 256 := by
  rw [longLine_text]; decide +kernel

/-- **C97 (refutes that the limit is checked).** -/
theorem C97_limit_refuted : ¬ LimitChecked := by
  intro h
  have := (C97_complete_iff 0x2000 longLine longMem _ (ran longLine_ok) oldLimit).1
    (h 0x2000 longLine longMem _ longLine_reachable (ran longLine_ok))
  rw [longLine_length] at this
  revert this
  decide

/-- **C97 (refutes that a parameter is kept or dropped as a whole).** Both calls succeed, `load_cmdline` succeeds,
and the kernel mounts another root file system. -/
theorem C97_value_refuted : Cmdline.new 4096 = .ok ⟨[], [], 4096⟩ ∧
    ((⟨[], [], 4096⟩ : Cmdline).step longOps[0]).2 = .ok () ∧
    (((⟨[], [], 4096⟩ : Cmdline).step longOps[0]).1.step longOps[1]).2 = .ok () ∧
    (loadCmdline 0x2000 longLine longMem).1 = .ok () ∧
    parseArgs (ascii (cstr (loadCmdline 0x2000 longLine longMem).2.data 0x2000 oldLimit)) =
      ([(List.replicate 245 'x', none), ("root".toList, some "sda1".toList)], none) := by
  refine ⟨by decide +kernel, by decide +kernel, by decide +kernel, longLine_ok, ?_⟩
  have := C97_seen 0x2000 longLine longMem _ (ran longLine_ok) oldLimit
  rw [show (0x2000 : GuestAddr).toNat = 0x2000 from rfl] at this
  rw [this, longLine_text]
  decide +kernel

example := C97_seen 0x2000 longLine longMem _ (ran longLine_ok)
example := C97_complete_iff 0x2000 longLine longMem _ (ran longLine_ok)
example := C97_capacity 4096 ⟨[], [], 4096⟩ (.inl (by decide +kernel)) longOps 0x2000 longMem _ (ran longLine_ok)
  4095 (by decide)

/-- A device, another parameter and a rejected device, through guest memory. -/
example : ∃ c, Cmdline.new 2048 = .ok ⟨[], [], 2048⟩ ∧ History ⟨[], [], 2048⟩
      [.addVirtio 0x1000 0x1000 5 (some 42), .insert "a".toList "b".toList, .addVirtio 0 0x1000 5 none]
      [("virtio_mmio.device".toList, "4K@0x1000:5:42".toList), ("a".toList, "b".toList)] [] c ∧
    (∀ op ∈ [Op.addVirtio 0x1000 0x1000 5 (some 42), .insert "a".toList "b".toList, .addVirtio 0 0x1000 5 none],
      (∀ k v, op = .insert k v → ¬ IsDeviceParam k) ∧ (∀ k vs, op = .insertMultiple k vs → ¬ IsDeviceParam k)) ∧
    (loadCmdline 0x2000 c longMem).1 = .ok () ∧ (2048 : UInt64).toNat ≤ 2047 + 1 := by
  refine ⟨_, by decide +kernel, .boot (by decide +kernel) .virtio
    (.boot (by decide +kernel) (.insert (k := "a".toList) (v := "b".toList) (w := "b".toList)
      ⟨by decide, by decide, fun h => absurd h (by decide), by decide⟩ (.plain ?_)) (.rejected (by decide +kernel) .nil)),
    ?_, by decide +kernel, by decide⟩
  · rintro ⟨w, hw⟩
    have := congrArg List.head? hw
    simp at this
  · intro op hop
    simp only [List.mem_cons, List.not_mem_nil, or_false] at hop
    rcases hop with rfl | rfl | rfl
    · exact ⟨nofun, nofun⟩
    · refine ⟨?_, nofun⟩
      rintro k v ⟨rfl, rfl⟩
      decide +kernel
    · exact ⟨nofun, nofun⟩

end LinuxLoader
