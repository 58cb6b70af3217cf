import Verif.Spec.VirtioDriver
import Verif.Props.CmdlineKernel

/-!
# virtio-mmio devices as the kernel's driver registers them (C93)

Vocabulary: `Spec/VirtioDriver.lean`.
-/

namespace LinuxLoader
open Spec Spec.Kernel
open Cmdline (Op)

theorem digits_head {b : Nat} (hb : 2 ≤ b) (hb' : b ≤ 16) (n : Nat) (r : Str) :
    ∃ c t, Nat.toDigits b n ++ r = c :: t ∧ isDigitIn b c = true := by
  have hne : Nat.toDigits b n ≠ [] := Nat.toDigits_ne_nil
  have hd := toDigits_isDigit (b := b) hb hb' n
  cases h : Nat.toDigits b n with
  | nil => exact absurd h hne
  | cons c t => exact ⟨c, t ++ r, rfl, hd c (by rw [h]; simp)⟩

theorem isDigitIn_not_space {c : Char} (h : isDigitIn 10 c = true) : space c = false ∧ c ≠ '-' := by
  unfold isDigitIn digit at h
  have : 48 ≤ c.toNat ∧ c.toNat ≤ 57 := by
    simp only at h
    split at h
    · rename_i d hd
      split at hd
      · assumption
      split at hd
      · cases hd; simp at h; omega
      split at hd
      · cases hd; simp at h; omega
      · cases hd
    · cases h
  constructor
  · unfold space
    simp only [List.mem_cons, List.not_mem_nil, or_false, decide_eq_false_iff_not]
    omega
  · rintro rfl
    revert this; decide

theorem skipSpaces_digit {c : Char} {t : Str} (h : isDigitIn 10 c = true) : skipSpaces (c :: t) = c :: t := by
  unfold skipSpaces
  simp [(isDigitIn_not_space h).1]

theorem signed_digit (num : Str → Nat × Str) {c : Char} {t : Str} (h : isDigitIn 10 c = true) :
    signed num (c :: t) = some (((num (c :: t)).1 : Int), (num (c :: t)).2) := by
  unfold signed
  rw [skipSpaces_digit h]
  simp [(isDigitIn_not_space h).2, h]

theorem u64_last (base size : UInt64) :
    (((base.toNat : Int) + size.toNat - 1) % 2 ^ 64).toNat = (base + size - 1).toNat := by
  rw [UInt64.toNat_sub, UInt64.toNat_add]
  have h1 := base.toNat_lt
  have h2 := size.toNat_lt
  simp only [show (1 : UInt64).toNat = 1 from rfl]
  omega

theorem vmCmdlineSet_deviceStr (next : Int) (size base : UInt64) (irq : UInt32) (id : Option UInt32)
    (hs : size ≠ 0) (v : Str) (hv : Cmdline.deviceStr size base irq id = "virtio_mmio.device=".toList ++ v) :
    let i := Device.number ⟨size, base, irq, id⟩ next
    vmCmdlineSet next v = if irq = 0 then (i, none)
      else (asInt (i + 1), some ⟨base.toNat, (base + size - 1).toNat, irq.toNat, i⟩) := by
  have hbase : ((base.toNat : Int) % 2 ^ 64).toNat = base.toNat := by have := base.toNat_lt; omega
  have hlast := u64_last base size
  have hirq : irq.toNat % 2 ^ 32 = irq.toNat := Nat.mod_eq_of_lt irq.toNat_lt
  have hirq0 : irq.toNat = 0 ↔ irq = 0 := by rw [← UInt32.toNat_inj]; rfl
  obtain ⟨c, t, hct, hc⟩ := digits_head (b := 10) (by omega) (by omega) irq.toNat
    ((id.map fun i => ':' :: Cmdline.decStr i.toNat).getD [])
  obtain ⟨tail, htail⟩ : ∃ x : Str, x = (id.map fun i => ':' :: Cmdline.decStr i.toNat).getD [] := ⟨_, rfl⟩
  have hv' : v = Cmdline.guestusizeToStr size ++ '@' :: ('0' :: 'x' :: (Cmdline.hexStr base.toNat ++ ':' ::
      (Cmdline.decStr irq.toNat ++ tail))) := by
    have e : Cmdline.deviceStr size base irq id = "virtio_mmio.device=".toList ++ (Cmdline.guestusizeToStr size ++ '@' ::
        ('0' :: 'x' :: (Cmdline.hexStr base.toNat ++ ':' :: (Cmdline.decStr irq.toNat ++ tail)))) := by
      show _ = Cmdline.virtioPrefix ++ _
      unfold Cmdline.deviceStr
      rw [htail]
      generalize Cmdline.virtioPrefix = p
      cases id <;> simp
    rw [e] at hv
    exact (List.append_cancel_left hv).symm
  have hnum : number 10 (Cmdline.decStr irq.toNat ++ tail) = (irq.toNat, tail) := by
    refine number_toDigits (b := 10) (by omega) (by omega) irq.toNat tail ?_
    rw [htail]
    cases id with
    | none => simp
    | some i => exact head_cons (by decide)
  intro i
  rw [hv']
  unfold vmCmdlineSet
  rw [memparse_guestusize hs]
  simp only
  rw [signed_digit _ (by decide), numberAuto_hex _ _ (head_cons (by decide))]
  simp only
  rw [← htail] at hct
  have hsk : skipSpaces (Cmdline.decStr irq.toNat ++ tail) = Cmdline.decStr irq.toNat ++ tail := by
    unfold Cmdline.decStr
    rw [hct]
    exact skipSpaces_digit hc
  rw [hsk]
  have hh : ((Cmdline.decStr irq.toNat ++ tail).head?.map (isDigitIn 10)).getD false = true := by
    unfold Cmdline.decStr
    rw [hct]
    simpa using hc
  rw [if_pos hh, hnum]
  simp only [hirq, hirq0, hbase, hlast]
  cases id with
  | none => simp only [Option.map_none, Option.getD_none] at htail; subst htail; simp only [ne_eq, not_true_eq_false, false_or]; rfl
  | some j =>
    simp only [Option.map_some, Option.getD_some] at htail
    subst htail
    simp only
    obtain ⟨c', t', hct', hc'⟩ := digits_head (b := 10) (by omega) (by omega) j.toNat []
    have hj : signed (number 10) (Cmdline.decStr j.toNat) = some ((j.toNat : Int), []) := by
      have hn := number_toDigits (b := 10) (by omega) (by omega) j.toNat [] (by simp)
      rw [List.append_nil] at hn hct'
      unfold Cmdline.decStr
      rw [hct'] at hn ⊢
      rw [signed_digit _ hc', hn]
    rw [hj]
    simp only [ne_eq, not_true_eq_false, false_or]
    rfl

/-- The devices the kernel's driver registers for the parameters of a history. -/
theorem driver_history {c₀ c : Cmdline} {ops : List Op} {pairs : List (Str × Str)} {inits : List Str}
    (hh : History c₀ ops pairs inits c)
    (hk : ∀ op ∈ ops, (∀ k v, op = .insert k v → ¬ IsDeviceParam k) ∧
      (∀ k vs, op = .insertMultiple k vs → ¬ IsDeviceParam k)) (next : Int) :
    driver next (pairs.map fun p => (p.1, some p.2)) = registrations next (devicesAdded c₀ ops) := by
  induction hh generalizing next with
  | nil => rfl
  | @rejected c op ops ps is c' hr _ ih =>
    rw [ih fun o ho => hk o (List.mem_cons_of_mem _ ho)]
    congr 1
    conv => rhs; unfold devicesAdded
    split
    · exact absurd ‹(Cmdline.step _ _).2 = _› hr
    · rfl
  | @boot c op ops ps is c' k v hr ha _ ih =>
    have ih := ih fun o ho => hk o (List.mem_cons_of_mem _ ho)
    have hop := hk op (List.mem_cons_self ..)
    simp only [List.map_cons]
    conv => rhs; unfold devicesAdded
    cases ha with
    | insert => simp only [List.nil_append]; rw [driver, if_neg (hop.1 _ _ rfl), ih]
    | multiple => simp only [List.nil_append]; rw [driver, if_neg (hop.2 _ _ rfl), ih]
    | @virtio size base irq id =>
      have hs : size ≠ 0 := by
        rintro rfl
        rw [show c.step (.addVirtio 0 base irq id) = (c, .err .mmioSize) from rfl] at hr
        cases hr
      simp only [hr, List.cons_append, List.nil_append]
      rw [driver, if_pos (by decide)]
      have := vmCmdlineSet_deviceStr next size base irq id hs _ (Cmdline.deviceStr_text size base irq id)
      simp only at this
      simp only [Option.getD_some, this]
      unfold registrations
      simp only
      split
      · simp only [Option.toList_none, List.nil_append]; exact ih _
      · simp only [Option.toList_some, List.cons_append, List.nil_append]; rw [ih]
  | @init c op ops ps is c' t hr hi _ ih =>
    rw [ih fun o ho => hk o (List.mem_cons_of_mem _ ho)]
    congr 1
    conv => rhs; unfold devicesAdded
    cases hi <;> rfl

/-- **C93.** On a fresh command line make any calls, the accepted key/value ones being safe for the kernel and none
of them naming `virtio_mmio.device` itself. From the rendered line the kernel's driver registers exactly the devices
of the accepted `add_virtio_mmio_device` calls with an interrupt other than 0, in order, each with the range and
the interrupt asked for, and with the id asked for or the one following that of the previous device. -/
theorem C93_devices (cap : UInt64) (c₀ c : Cmdline) (h₀ : Cmdline.new cap = .ok c₀) (ops : List Op)
    (pairs : List (Str × Str)) (inits : List Str) (hh : History c₀ ops pairs inits c)
    (hk : ∀ op ∈ ops, (∀ k v, op = .insert k v → ¬ IsDeviceParam k) ∧
      (∀ k vs, op = .insertMultiple k vs → ¬ IsDeviceParam k)) :
    driver 0 (parseArgs (text c.bootArgs c.initArgs)).1 = registrations 0 (devicesAdded c₀ ops) := by
  rw [C12_kernel_sees_pairs cap c₀ c h₀ ops pairs inits hh]
  exact driver_history hh hk 0

/-- A device, another parameter, and a rejected device. -/
example : ∃ c, Cmdline.new 100 = .ok ⟨[], [], 100⟩ ∧ History ⟨[], [], 100⟩
      [.addVirtio 0x1000 0x1000 5 (some 42), .insert "a".toList "b".toList, .addVirtio 0 0x1000 5 none]
      [("virtio_mmio.device".toList, "4K@0x1000:5:42".toList), ("a".toList, "b".toList)] [] c ∧
    ∀ op ∈ [Op.addVirtio 0x1000 0x1000 5 (some 42), .insert "a".toList "b".toList, .addVirtio 0 0x1000 5 none],
      (∀ k v, op = .insert k v → ¬ IsDeviceParam k) ∧ (∀ k vs, op = .insertMultiple k vs → ¬ IsDeviceParam k) := by
  refine ⟨_, by decide +kernel, .boot (by decide +kernel) .virtio
    (.boot (by decide +kernel) (.insert (k := "a".toList) (v := "b".toList) (w := "b".toList)
      ⟨by decide, by decide, fun h => absurd h (by decide), by decide⟩ (.plain ?_)) (.rejected (by decide +kernel) .nil)), ?_⟩
  · rintro ⟨w, hw⟩
    have := congrArg List.head? hw
    simp at this
  · intro op hop
    simp only [List.mem_cons, List.not_mem_nil, or_false] at hop
    rcases hop with rfl | rfl | rfl
    · exact ⟨nofun, nofun⟩
    · refine ⟨fun k v h => ?_, nofun⟩
      cases h
      decide
    · exact ⟨nofun, nofun⟩

/-- What the driver does with a line. -/
example : driver 0 (parseArgs "virtio_mmio.device=4K@0x1000:5:42 a=b virtio_mmio.device=3@0xfff:6 -- i".toList).1 =
    [⟨0x1000, 0x1fff, 5, 42⟩, ⟨0xfff, 0x1001, 6, 43⟩] := by decide +kernel

/-- **C93 (ids given).** If every device has an interrupt other than 0 and an id below `2^31`, the driver registers
them all, exactly as asked for. -/
theorem C93_given (next : Int) (ds : List Device)
    (h : ∀ d ∈ ds, d.irq ≠ 0 ∧ ∃ i : UInt32, d.id = some i ∧ i.toNat < 2 ^ 31) :
    registrations next ds = ds.map fun d =>
      ⟨d.base.toNat, (d.base + d.size - 1).toNat, d.irq.toNat, ((d.id.getD 0).toNat : Int)⟩ := by
  induction ds generalizing next with
  | nil => rfl
  | cons d ds ih =>
    obtain ⟨h0, i, hi, hlt⟩ := h d (List.mem_cons_self ..)
    unfold registrations
    have hn : d.number next = i.toNat := by
      unfold Device.number asInt
      rw [hi]
      simp only
      rw [Int.bmod_eq_of_le] <;> omega
    simp only [h0, ↓reduceIte, List.map_cons, ih _ fun d hd => h d (List.mem_cons_of_mem _ hd), hn, hi,
      Option.getD_some]

example := C93_given 7 [⟨0x1000, 0x2000, 5, some 3⟩, ⟨1, 0, 6, some 0⟩] (by
  intro d hd
  simp only [List.mem_cons, List.not_mem_nil, or_false] at hd
  rcases hd with rfl | rfl
  · exact ⟨by decide, 3, rfl, by decide⟩
  · exact ⟨by decide, 0, rfl, by decide⟩)

/-- **C93 (no ids given).** If no device has an id, and every one an interrupt other than 0, the driver registers
them all and numbers them from 0 on. -/
theorem C93_numbered (ds : List Device) (h : ∀ d ∈ ds, d.irq ≠ 0 ∧ d.id = none) (hl : ds.length < 2 ^ 31) :
    registrations 0 ds = ds.zipIdx.map fun d =>
      ⟨d.1.base.toNat, (d.1.base + d.1.size - 1).toNat, d.1.irq.toNat, (d.2 : Int)⟩ := by
  have key : ∀ (ds : List Device) (n : Nat), (∀ d ∈ ds, d.irq ≠ 0 ∧ d.id = none) → n + ds.length < 2 ^ 31 →
      registrations n ds = (ds.zipIdx n).map fun d =>
        ⟨d.1.base.toNat, (d.1.base + d.1.size - 1).toNat, d.1.irq.toNat, (d.2 : Int)⟩ := by
    intro ds
    induction ds with
    | nil => intro _ _ _; rfl
    | cons d ds ih =>
      intro n h hl
      obtain ⟨h0, hi⟩ := h d (List.mem_cons_self ..)
      rw [List.length_cons] at hl
      have hn : d.number n = n := by unfold Device.number; rw [hi]
      have hs : asInt ((n : Int) + 1) = ((n + 1 : Nat) : Int) := by
        unfold asInt
        rw [Int.bmod_eq_of_le] <;> omega
      unfold registrations
      simp only [h0, ↓reduceIte, hn, hs, List.zipIdx_cons, List.map_cons]
      rw [ih (n + 1) (fun d hd => h d (List.mem_cons_of_mem _ hd)) (by omega)]
  exact key ds 0 h (by omega)

example := C93_numbered [⟨0x1000, 0x2000, 5, none⟩, ⟨1, 0, 6, none⟩] (by
  intro d hd
  simp only [List.mem_cons, List.not_mem_nil, or_false] at hd
  rcases hd with rfl | rfl <;> exact ⟨by decide, rfl⟩) (by decide)

/-- **C93 (refutes that every accepted device is registered).** A device with interrupt 0 is accepted and the kernel
ignores it. -/
theorem C93_irq_refuted : ∃ c d : Cmdline, Cmdline.new 100 = .ok c ∧
    c.addVirtioMmioDevice 0x1000 0x2000 0 none = (d, .ok ()) ∧
    driver 0 (parseArgs (text d.bootArgs d.initArgs)).1 = [] := by
  refine ⟨⟨[], [], 100⟩, ⟨"virtio_mmio.device=4K@0x2000:0".toList, [], 100⟩, by decide +kernel, by decide +kernel,
    by decide +kernel⟩

/-- **C93 (refutes that accepted devices have different ids, and the ids asked for).** A device without id can get
that of another one; an id of `2^31` or more becomes negative. -/
theorem C93_id_refuted : ∃ c d : Cmdline, Cmdline.new 200 = .ok c ∧
    c.run [.addVirtio 0x1000 0x2000 5 none, .addVirtio 0x1000 0x3000 6 (some 0), .addVirtio 0x1000 0x4000 7 (some 0xffffffff)] = d ∧
    driver 0 (parseArgs (text d.bootArgs d.initArgs)).1 =
      [⟨0x2000, 0x2fff, 5, 0⟩, ⟨0x3000, 0x3fff, 6, 0⟩, ⟨0x4000, 0x4fff, 7, -1⟩] := by
  refine ⟨⟨[], [], 200⟩, _, by decide +kernel, rfl, by decide +kernel⟩

/-- The transcription of the driver's parsers on other texts than the crate's: all multipliers, number bases, blanks
and signs, and what is refused. -/
example :
    (["1", "2k", "2K", "3m", "3M", "4g", "4G", "5t", "5T", "6p", "6P", "7e", "7E", "0x10", "010", "9z"].map
        fun s => (memparse s.toList).1) =
      [1, 2 * 1024, 2 * 1024, 3 * 1024 ^ 2, 3 * 1024 ^ 2, 4 * 1024 ^ 3, 4 * 1024 ^ 3, 5 * 1024 ^ 4, 5 * 1024 ^ 4,
        6 * 1024 ^ 5, 6 * 1024 ^ 5, 7 * 1024 ^ 6, 7 * 1024 ^ 6, 16, 8, 9] ∧
    signed (number 10) "  -12x".toList = some (-12, "x".toList) ∧
    signed (number 10) " 7".toList = some (7, []) ∧ signed (number 10) "- 7".toList = none ∧
    signed (number 10) [] = none ∧
    vmCmdlineSet 3 "4K@0x1000:5".toList = (4, some ⟨0x1000, 0x1fff, 5, 3⟩) ∧
    vmCmdlineSet 3 "4K@ 0x1000: 5:-2".toList = (-1, some ⟨0x1000, 0x1fff, 5, -2⟩) ∧
    vmCmdlineSet 3 "1@-1:4294967301".toList = (4, some ⟨2 ^ 64 - 1, 2 ^ 64 - 1, 5, 3⟩) ∧
    vmCmdlineSet 3 "4K@0x1000:5:9:".toList = (9, none) ∧ vmCmdlineSet 3 "4K@0x1000:0:9".toList = (9, none) ∧
    vmCmdlineSet 3 "4K@0x1000:x".toList = (3, none) ∧ vmCmdlineSet 3 "4K@:5".toList = (3, none) ∧
    vmCmdlineSet 3 "4K 0x1000:5".toList = (3, none) := by decide +kernel

end LinuxLoader
