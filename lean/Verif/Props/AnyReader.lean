import Verif.Lemmas.AnyHonest
import Verif.Lemmas.AnyWork
import Verif.Props.BzImage
import Verif.Props.Pe
import Verif.Props.RawIo

/-!
# Readers that may do anything (C85)

`R` is any reader: it may deliver different bytes every time it is asked, as a file does that someone
else writes to while it is loaded. The theorems relate result and guest memory to the bytes that were
delivered (`log`, vocabulary in `Spec/AnyReader.lean`).
-/

namespace LinuxLoader
open Spec

/-- The state before a call: guest memory `m`, no request made yet. -/
abbrev fresh (m : Mem) : AnyState := ⟨m, []⟩

/-! ## ELF -/

/-- C85 (ELF, memory): whatever the reader does and however the call ends, only mapped bytes of the
segments described by the program headers delivered are changed; and none at all unless the ELF header
delivered passed all checks. -/
theorem C85_elf_frame (R : AnyReader) (koff highmem : Option GuestAddr) (m : Mem) :
    let out := G.elfLoad (anyIo R) koff highmem (fresh m)
    SameLayout m out.2.mem ∧
    ∀ x, out.2.mem.data x ≠ m.data x → m.mapped x = true ∧
      (∃ eh, delivered 64 out.2.log = [eh] ∧ ElfChecked koff highmem eh) ∧
      ∃ h ∈ deliveredPhdrs out.2.log, h.Loadable ∧ InRange (koffBase koff + h.paddr) h.filesz x :=
  elfLoad_any_frame koff highmem m

/-- C85 (ELF, result): a successful result is that of the headers delivered. Each was read once, so what
was checked is what was used. -/
theorem C85_elf_ok {R : AnyReader} {koff highmem : Option GuestAddr} {m : Mem} {r : LoadResult} {t : AnyState}
    (h : G.elfLoad (anyIo R) koff highmem (fresh m) = (.ok r, t)) :
    ∃ eh, delivered 64 t.log = [eh] ∧ ElfChecked koff highmem eh ∧
      (deliveredPhdrs t.log).length = elfPhnum eh ∧
      r.kernelLoad = koffBase koff + elfEntry eh ∧ r.setupHeader = none ∧
      IsMaxOf r.kernelEnd (((deliveredPhdrs t.log).filter fun h => decide h.Loadable).map fun h =>
        koffBase koff + h.paddr + h.memsz) ∧
      ∀ h ∈ deliveredPhdrs t.log, h.Loadable → koffBase koff + h.paddr + h.memsz < U64 ∧
        Mapped m (koffBase koff + h.paddr) h.filesz := by
  obtain ⟨eh, h1, h2, h3, h4, h5, h6, h7, -⟩ := elfLoad_any_ok h
  exact ⟨eh, h1, h2, h3, h4, h5, h6, h7⟩

/-- C85 (ELF, PVH): `PvhEntryPresent` is reported only if the reader delivered a Xen PVH note with this
entry point, and only if there is a note segment and no kernel offset was given. -/
theorem C85_elf_pvh {R : AnyReader} {koff highmem : Option GuestAddr} {m : Mem} {r : LoadResult} {t : AnyState}
    (h : G.elfLoad (anyIo R) koff highmem (fresh m) = (.ok r, t)) :
    ((∃ h ∈ deliveredPhdrs t.log, h.IsNote) ∧ koff = none → r.pvh ≠ .ignored) ∧
    ((∀ h ∈ deliveredPhdrs t.log, ¬ h.IsNote) ∨ koff ≠ none → r.pvh = .ignored) ∧
    ∀ v, r.pvh = .present v → v < 0x100000000 ∧ PvhDelivered t.log v := by
  obtain ⟨eh, -, -, -, -, -, -, -, h8, h9⟩ := elfLoad_any_ok h
  have hig : (∀ h ∈ deliveredPhdrs t.log, ¬ h.IsNote) ∨ koff ≠ none → r.pvh = .ignored := by
    intro hh
    by_cases hex : ∃ h ∈ deliveredPhdrs t.log, h.IsNote
    · rcases hh with hh | hh
      · obtain ⟨p, hp, hn⟩ := hex
        exact absurd hn (hh p hp)
      · exact h8.2.1 hex hh
    · exact h8.1 fun h hh hi => hex ⟨h, hh, hi⟩
  refine ⟨fun ⟨hex, hk⟩ => ?_, hig, fun v hv => ⟨?_, h9 v hv⟩⟩
  · rcases h8.2.2 hex hk with hc | ⟨v, -, hc⟩
    · rw [hc]; exact fun h => nomatch h
    · rw [hc]; exact fun h => nomatch h
  · by_cases hk : (∀ h ∈ deliveredPhdrs t.log, ¬ h.IsNote) ∨ koff ≠ none
    · rw [hig hk] at hv; cases hv
    · have hex : ∃ h ∈ deliveredPhdrs t.log, h.IsNote := Classical.byContradiction fun hn =>
        hk (.inl fun h hh hi => hn ⟨h, hh, hi⟩)
      have hkn : koff = none := Classical.byContradiction fun hn => hk (.inr hn)
      rcases h8.2.2 hex hkn with hc | ⟨w, hw, hc⟩
      · rw [hc] at hv; cases hv
      · rw [hc] at hv; cases hv; exact hw

/-- C85 (ELF, panics): loading with a kernel offset never panics; without, it does not if nothing is
delivered beyond `i64::MAX`. -/
theorem C85_elf_no_panic {R : AnyReader} {koff highmem : Option GuestAddr} (hR : koff ≠ none ∨ FileLike R) (m : Mem) :
    (G.elfLoad (anyIo R) koff highmem (fresh m)).1 ≠ .panic := noPanic_elfLoad hR _

/-- The bytes a hostile reader delivers: a valid ELF header, one note segment at the end of the address
space, and an empty note. -/
def hostileBytes (o : RdOp) : List UInt8 :=
  match o with
  | .readExact 64 => mkEhdr 0 64 56 1
  | .readExact 56 => mkPhdr 4 0xffffffffffffffff 0 16 16
  | _ => []

/-- A reader that accepts all requests. -/
def hostileReader : AnyReader where
  fails _ _ := false
  size _ := 0
  byte _ o i := (hostileBytes o)[i]?.getD 0
  stored _ _ _ := none

/-- C85 (refuted expectation: `Elf::load` never panics). A reader that claims to have data at offset
`2^64 - 1` makes `phdr.p_offset + read_size` overflow, which panics in builds with overflow checks. -/
theorem C85_elf_panic_refuted : ∃ (R : AnyReader) (m : Mem),
    (G.elfLoad (anyIo R) none none (fresh m)).1 = .panic :=
  ⟨hostileReader, elfMem, by decide +kernel⟩

/-! ## bzImage -/

/-- C85 (bzImage): whatever the reader does, no panic; only mapped bytes of the kernel, as described by
the size and the setup header delivered, are changed, and none unless they passed all checks; and a
successful result is that of the size and the setup header delivered, each read once. -/
theorem C85_bz (R : AnyReader) (koff highmem : Option GuestAddr) (m : Mem) :
    let out := G.bzLoad (anyIo R) koff highmem (fresh m)
    out.1 ≠ .panic ∧ SameLayout m out.2.mem ∧
    (∀ x, out.2.mem.data x ≠ m.data x → m.mapped x = true ∧
      ∃ size h, deliveredSizes out.2.log = [size] ∧ deliveredVolatile 123 out.2.log = [h] ∧
        BzChecked highmem size (bzWithHeader h) ∧
        InRange (bzAddress (bzWithHeader h) koff) (size - bzSetupBytes (bzWithHeader h)) x) ∧
    ∀ r, out.1 = .ok r → ∃ size h hdr, deliveredSizes out.2.log = [size] ∧
      deliveredVolatile 123 out.2.log = [h] ∧ BzChecked highmem size (bzWithHeader h) ∧
      Mapped m (bzAddress (bzWithHeader h) koff) (size - bzSetupBytes (bzWithHeader h)) ∧
      r.kernelLoad = bzAddress (bzWithHeader h) koff ∧
      r.kernelEnd = r.kernelLoad + (size - bzSetupBytes (bzWithHeader h)) ∧ r.kernelEnd < U64 ∧
      r.pvh = .ignored ∧ r.setupHeader = some hdr ∧ hdr.length = 123 ∧ h.length = 123 ∧
      (∀ i, (i < 0x23 ∨ 0x27 ≤ i) → hdr[i]? = h[i]?) ∧ leField hdr 0x23 4 = r.kernelLoad % 0x100000000 := by
  intro out
  have he := bz_ends (R := R) koff highmem m
  refine ⟨he.noPanic, he.layout, fun x hx => ?_, fun r hr => ?_⟩
  · obtain ⟨h1, size, h, h2, h3, -, -, h4, h5⟩ := he.frame x hx
    exact ⟨h1, size, h, h2, h3, h4, h5⟩
  · obtain ⟨size, h, h2, h3, hl, -, h4, h5, h6, rfl⟩ := he.result r hr
    refine ⟨size, h, _, h2, h3, h4, h5, rfl, rfl, h6, rfl, rfl, ?_, hl, fun i hi => setCode32_get _ _ _ hl hi,
      setCode32_field _ _ hl⟩
    unfold setCode32
    simp only [List.length_append, List.length_take, List.length_drop, leBytes_length, hl]
    omega

/-! ## PE and device trees -/

/-- C85 (PE): whatever the reader does, no panic; only mapped bytes of the image, as described by the
size and the header delivered, are changed, and none unless the header passed all checks; and a
successful result is that of the size and the header. -/
theorem C85_pe (R : AnyReader) (arch : PeArch) (koff highmem : Option GuestAddr) (m : Mem) :
    let out := G.peLoad (anyIo R) arch koff highmem (fresh m)
    out.1 ≠ .panic ∧ SameLayout m out.2.mem ∧
    (∀ x, out.2.mem.data x ≠ m.data x → m.mapped x = true ∧
      ∃ size h, deliveredSizes out.2.log = [size] ∧ delivered 64 out.2.log = [h] ∧
        PeChecked arch koff h ∧ InRange (peAddress arch h koff) size x) ∧
    ∀ r, out.1 = .ok r → ∃ size h, deliveredSizes out.2.log = [size] ∧ delivered 64 out.2.log = [h] ∧
      PeChecked arch koff h ∧ Mapped m (peAddress arch h koff) size ∧
      r.kernelLoad = peAddress arch h koff ∧ r.kernelEnd = r.kernelLoad + size ∧ r.kernelEnd < U64 ∧
      r.setupHeader = none ∧ r.pvh = .ignored := by
  intro out
  have he := pe_ends (R := R) arch koff highmem m
  refine ⟨he.noPanic, he.layout, fun x hx => ?_, fun r hr => ?_⟩
  · obtain ⟨h1, size, h, h2, h3, -, -, h4, h5⟩ := he.frame x hx
    exact ⟨h1, size, h, h2, h3, h4, h5⟩
  · obtain ⟨size, h, h2, h3, -, -, h4, h5, h6, rfl⟩ := he.result r hr
    exact ⟨size, h, h2, h3, h4, h5, rfl, rfl, h6, rfl, rfl⟩

/-- C85 (device trees): whatever the reader does, no panic; only mapped bytes of the range given by the
address and the size delivered — at most 2 MiB — are changed. -/
theorem C85_dtb (R : AnyReader) (a : GuestAddr) (m : Mem) :
    let out := G.loadDtb (anyIo R) a (fresh m)
    out.1 ≠ .panic ∧ SameLayout m out.2.mem ∧
    (∀ x, out.2.mem.data x ≠ m.data x → m.mapped x = true ∧
      ∃ size, deliveredSizes out.2.log = [size] ∧ size ≤ 0x200000 ∧ InRange a.toNat size x) ∧
    (out.1 = .ok () → ∃ size, deliveredSizes out.2.log = [size] ∧ size ≤ 0x200000 ∧ Mapped m a.toNat size) := by
  intro out
  have he := dtb_ends (R := R) a m
  exact ⟨he.noPanic, he.layout, he.frame, he.result ()⟩

/-- A file that is an `Image` kernel when its header is read, and is overwritten with 0xee before it is
read into guest memory. -/
def overwrittenPe (arch : PeArch) : AnyReader where
  fails _ _ := false
  size _ := 64
  byte _ o i := match o with
    | .readExact 64 => (leBytes 8 0 ++ leBytes 8 0 ++ leBytes 8 64 ++ leBytes 8 0 ++ leBytes 8 0 ++ leBytes 8 0 ++
        leBytes 8 0 ++ leBytes 4 arch.magic ++ leBytes 4 0)[i]?.getD 0
    | _ => 0
  stored _ _ _ := some 0xee

/-- C85 (refuted expectation: the image in guest memory is the one that was checked). `PE::load` reads
the header, checks it, and then reads the whole file again: if the file changes in between, the call
succeeds and the kernel in guest memory has no magic number. -/
theorem C85_pe_double_fetch_refuted (arch : PeArch) : ∃ (R : AnyReader) (m : Mem) (r : LoadResult),
    (G.peLoad (anyIo R) arch none none (fresh m)).1 = .ok r ∧
    ¬ PeMagicOk arch ((List.range 64).map fun i =>
      (G.peLoad (anyIo R) arch none none (fresh m)).2.mem.data (r.kernelLoad + i)) := by
  refine ⟨overwrittenPe arch, elfMem, ⟨0, 64, none, .ignored⟩, ?_, ?_⟩
  · cases arch <;> decide +kernel
  · cases arch <;> decide +kernel

/-! ## Files that do not change -/

/-- C85 (files): the readers of all the other theorems — a file that does not change, with any position
and any schedule of I/O errors and short reads — are among these readers, so the theorems above are about
them as well. -/
theorem C85_files (s : LS) (hlen : s.rd.data.length < U64) : ∃ R : AnyReader,
    (s.rd.data.length < ISZ → FileLike R) ∧
    (∀ koff highmem, (G.elfLoad (anyIo R) koff highmem (fresh s.mem)).1 = (elfLoad koff highmem s).1 ∧
      (G.elfLoad (anyIo R) koff highmem (fresh s.mem)).2.mem = (elfLoad koff highmem s).2.mem) ∧
    (∀ koff highmem, (G.bzLoad (anyIo R) koff highmem (fresh s.mem)).1 = (bzLoad koff highmem s).1 ∧
      (G.bzLoad (anyIo R) koff highmem (fresh s.mem)).2.mem = (bzLoad koff highmem s).2.mem) ∧
    (∀ arch koff highmem, (G.peLoad (anyIo R) arch koff highmem (fresh s.mem)).1 = (peLoad arch koff highmem s).1 ∧
      (G.peLoad (anyIo R) arch koff highmem (fresh s.mem)).2.mem = (peLoad arch koff highmem s).2.mem) ∧
    (∀ a, (G.loadDtb (anyIo R) a (fresh s.mem)).1 = (loadDtb a s).1 ∧
      (G.loadDtb (anyIo R) a (fresh s.mem)).2.mem = (loadDtb a s).2.mem) := by
  have hs := honestSim s hlen
  refine ⟨honestReader s, honest_fileLike, fun k h => ?_, fun k h => ?_, fun arch k h => ?_, fun a => ?_⟩
  · have := hs.elfLoad k h s _ (replays_start s)
    rw [same_elfLoad] at this
    exact ⟨this.1, this.2.1⟩
  · have := hs.bzLoad k h s _ (replays_start s)
    rw [same_bzLoad] at this
    exact ⟨this.1, this.2.1⟩
  · have := hs.peLoad arch k h s _ (replays_start s)
    rw [same_peLoad] at this
    exact ⟨this.1, this.2.1⟩
  · have := hs.loadDtb a s _ (replays_start s)
    rw [same_loadDtb] at this
    exact ⟨this.1, this.2.1⟩

/-! ## How many requests -/

/-- C85 (work): `BzImage::load` and `PE::load` make at most five requests and `load_dtb` three; `Elf::load`
makes at most three, one per program header the ELF header announces, and those that the program headers
delivered account for. So no reader can keep a loader busy for ever. -/
theorem C85_requests (R : AnyReader) (arch : PeArch) (koff highmem : Option GuestAddr) (a : GuestAddr) (m : Mem) :
    (G.bzLoad (anyIo R) koff highmem (fresh m)).2.log.length ≤ 5 ∧
    (G.peLoad (anyIo R) arch koff highmem (fresh m)).2.log.length ≤ 5 ∧
    (G.loadDtb (anyIo R) a (fresh m)).2.log.length ≤ 3 ∧
    (G.elfLoad (anyIo R) koff highmem (fresh m)).2.log.length ≤
      3 + ((delivered 64 (G.elfLoad (anyIo R) koff highmem (fresh m)).2.log).map elfPhnum).sum +
      ((deliveredPhdrs (G.elfLoad (anyIo R) koff highmem (fresh m)).2.log).map (phdrRequests koff)).sum := by
  refine ⟨?_, ?_, ?_, elfLoad_requests koff highmem m⟩
  · have : Costs 5 (G.bzLoad (anyIo R) koff highmem) := by
      unfold G.bzLoad G.bzRest
      refine Costs.mono (.bind (.seekEnd _) fun _ => .bind (.seek _ _) fun _ => .bind (.read _ _ _) fun _ =>
        .bind (.require _ _) fun _ => .bind (.require _ _) fun _ => .bind (.okOr _ _) fun _ => .bind (.okOr _ _) fun _ =>
        .bind (n := 0) ?_ fun _ => .bind (.seek _ _) fun _ => .bind (.transfer _ _ _) fun _ =>
        .bind (.okOr _ _) fun _ => .pure _) (by omega)
      cases highmem with
      | none => exact .pure _
      | some q => exact .require _ _
    simpa using this (fresh m)
  · have : Costs 5 (G.peLoad (anyIo R) arch koff highmem) := by
      unfold G.peLoad
      refine Costs.mono (.bind (.seekEnd _) fun _ => .bind (.seek _ _) fun _ => .bind (.read _ _ _) fun _ =>
        .bind (.require _ _) fun _ => .bind (n := 0) ?_ fun _ => .bind (.okOr _ _) fun _ => .bind (.seek _ _) fun _ =>
        .bind (.transfer _ _ _) fun _ => .bind (.okOr _ _) fun _ => .pure _) (by omega)
      cases koff with
      | none => exact .pure _
      | some q => exact .require _ _
    simpa using this (fresh m)
  · have : Costs 3 (G.loadDtb (anyIo R) a) := by
      unfold G.loadDtb
      exact Costs.mono (.bind (.seekEnd _) fun _ => .bind (.require _ _) fun _ => .bind (.seek _ _) fun _ =>
        .transfer _ _ _) (by omega)
    simpa using this (fresh m)

/-- A device of zeroes behind the headers of an ELF file with a note segment of `n` bytes. -/
def endlessReader (n : Nat) : AnyReader where
  fails _ o := match o with
    | .seekStart p => decide (0x8000000000000000 ≤ p)
    | _ => false
  size _ := 0
  byte _ o i := match o with
    | .readExact 64 => (mkEhdr 0 64 56 1)[i]?.getD 0
    | .readExact 56 => (mkPhdr 4 120 0 n n)[i]?.getD 0
    | _ => 0
  stored _ _ _ := none

theorem endless_noteLoop (n : Nat) (hn : n < 0x4000000000000000) (ph : Phdr) (ho : ph.offset = 120)
    (hf : ph.filesz = n) : ∀ fuel r (s : AnyState), ph.filesz < fuel + r → r < 0x4000000000000000 + 12 →
    s.log.length + 2 * ((ph.filesz - r + 11) / 12) ≤
      (G.noteLoop (anyIo (endlessReader n)) ph fuel r s).2.log.length
  | 0, r, s, hlt, _ => by
    rw [Nat.sub_eq_zero_of_le (by omega)]
    exact Nat.le_refl _
  | fuel + 1, r, s, hlt, hr => by
    unfold G.noteLoop
    by_cases hc : r < ph.filesz
    · rw [if_pos hc]
      have h1 : (anyIo (endlessReader n)).readExact 12 (.elf .readNoteHeader : LoadError) s =
          (.ok (List.replicate 12 0), s.add (.readExact 12) (.bytes (List.replicate 12 0))) := by
        show (anyRead (endlessReader n) (.readExact 12) 12 (.elf .readNoteHeader : LoadError) s) = _
        unfold anyRead
        rw [if_neg (by simp [endlessReader])]
        have : (List.range 12).map ((endlessReader n).byte s.ops (.readExact 12)) = List.replicate 12 0 := by
          simp [endlessReader, List.range, List.range.loop]
        rw [this]
      rw [LM.bind_ok h1]
      have h2 : G.notePvh (anyIo (endlessReader n)) (leField (List.replicate 12 0) 8 4) (leField (List.replicate 12 0) 0 4)
          (s.add (.readExact 12) (.bytes (List.replicate 12 0))) =
          (.ok false, s.add (.readExact 12) (.bytes (List.replicate 12 0))) := rfl
      rw [LM.bind_ok h2, if_neg (by simp)]
      have h3 : noteAdvance r (leField (List.replicate 12 0) 0 4) (leField (List.replicate 12 0) 4 4) = .ok (r + 12) := by
        show noteAdvance r 0 0 = _
        unfold noteAdvance
        rw [alignUp_4 (by omega)]
        simp only [Res.bind_ok, up4]
        simp only [Nat.zero_add, Nat.reduceDiv, Nat.zero_mul]
        rw [if_neg (by omega)]
        have hca : ∀ a b, a + b < U64 → checkedAdd a b = some (a + b) := fun a b h => by
          unfold checkedAdd; rw [if_pos h]
        have hU : r + 12 < U64 := by unfold U64; omega
        rw [hca r 12 hU]
        simp only [bind, Option.bind]
        rw [hca (r + 12) 0 hU]
        simp only [Nat.add_zero]
        rw [hca (r + 12) 0 hU]
        rfl
      have hof : ∀ (v : Nat) (t : AnyState), (LM.ofRes (.ok v) : LM AnyState LoadError Nat) t = (.ok v, t) :=
        fun _ _ => rfl
      rw [h3, LM.bind_ok (hof (r + 12) _)]
      have h4 : (plainAdd ph.offset (r + 12) : Res LoadError Nat) = .ok (ph.offset + (r + 12)) := by
        unfold plainAdd U64
        rw [if_pos (by omega)]
      rw [h4, LM.bind_ok (hof (ph.offset + (r + 12)) _)]
      have h5 : (anyIo (endlessReader n)).seekStart (ph.offset + (r + 12)) (.elf .seekNoteHeader : LoadError)
          (s.add (.readExact 12) (.bytes (List.replicate 12 0))) =
          (.ok (), (s.add (.readExact 12) (.bytes (List.replicate 12 0))).add (.seekStart (ph.offset + (r + 12))) .done) := by
        show anySeek (endlessReader n) (.seekStart (ph.offset + (r + 12))) (.elf .seekNoteHeader : LoadError) _ = _
        unfold anySeek
        rw [if_neg]
        simp only [endlessReader]
        rw [decide_eq_true_eq]
        omega
      rw [LM.bind_ok h5]
      have ih := endless_noteLoop n hn ph ho hf fuel (r + 12)
        ((s.add (.readExact 12) (.bytes (List.replicate 12 0))).add (.seekStart (ph.offset + (r + 12))) .done)
        (by omega) (by omega)
      simp only [AnyState.add, List.length_append, List.length_cons, List.length_nil] at ih ⊢
      omega
    · rw [if_neg hc, Nat.sub_eq_zero_of_le (by omega)]
      exact Nat.le_refl _

theorem leField_part (a x b : List UInt8) (o k : Nat) (ho : a.length = o) (hk : x.length = k) :
    leField (a ++ x ++ b) o k = leNat x := by
  unfold leField
  rw [List.append_assoc, ← ho, List.drop_left, ← hk, List.take_left]

theorem leField_left (a b : List UInt8) (o k : Nat) (h : o + k ≤ a.length) : leField (a ++ b) o k = leField a o k := by
  unfold leField
  rw [List.drop_append_of_le_length (by omega), List.take_append_of_le_length (by rw [List.length_drop]; omega)]

theorem mkPhdr_ofBytes (n : Nat) (hn : n < 0x10000000000000000) :
    Phdr.ofBytes (mkPhdr 4 120 0 n n) = ⟨4, 120, 0, n, n⟩ := by
  let p : List UInt8 := leBytes 4 4 ++ leBytes 4 5 ++ leBytes 8 120 ++ leBytes 8 0 ++ leBytes 8 0
  have hp : p.length = 32 := by decide +kernel
  have e1 : mkPhdr 4 120 0 n n = p ++ (leBytes 8 n ++ (leBytes 8 n ++ leBytes 8 4096)) := by
    unfold mkPhdr; simp only [p, List.append_assoc]
  have e2 : mkPhdr 4 120 0 n n = p ++ leBytes 8 n ++ (leBytes 8 n ++ leBytes 8 4096) := by
    rw [e1]; exact (List.append_assoc _ _ _).symm
  have e3 : mkPhdr 4 120 0 n n = (p ++ leBytes 8 n) ++ leBytes 8 n ++ leBytes 8 4096 := by
    rw [e2]; simp only [List.append_assoc]
  have h8 : leNat (leBytes 8 n) = n := by
    rw [leNat_leBytes]; exact Nat.mod_eq_of_lt hn
  unfold Phdr.ofBytes
  have f1 : leField (mkPhdr 4 120 0 n n) 0 4 = 4 := by
    rw [e1, leField_left _ _ _ _ (by omega)]; decide +kernel
  have f2 : leField (mkPhdr 4 120 0 n n) 8 8 = 120 := by
    rw [e1, leField_left _ _ _ _ (by omega)]; decide +kernel
  have f3 : leField (mkPhdr 4 120 0 n n) 24 8 = 0 := by
    rw [e1, leField_left _ _ _ _ (by omega)]; decide +kernel
  have f4 : leField (mkPhdr 4 120 0 n n) 32 8 = n := by
    rw [e2, leField_part _ _ _ _ _ hp (leBytes_length _ _), h8]
  have f5 : leField (mkPhdr 4 120 0 n n) 40 8 = n := by
    rw [e3, leField_part _ _ _ _ _ (by rw [List.length_append, hp, leBytes_length]) (leBytes_length _ _), h8]
  rw [f1, f2, f3, f4, f5]

theorem endless_seek (n p : Nat) (hp : p < 0x8000000000000000) (e : LoadError) (s : AnyState) :
    (anyIo (endlessReader n)).seekStart p e s = (.ok (), s.add (.seekStart p) .done) := by
  show anySeek (endlessReader n) (.seekStart p) e s = _
  unfold anySeek
  rw [if_neg]
  simp only [endlessReader]
  rw [decide_eq_true_eq]
  omega

theorem endless_eh (n : Nat) (e : LoadError) (s : AnyState) : (anyIo (endlessReader n)).readExact 64 e s =
    (.ok (mkEhdr 0 64 56 1), s.add (.readExact 64) (.bytes (mkEhdr 0 64 56 1))) := by
  show anyRead (endlessReader n) (.readExact 64) 64 e s = _
  unfold anyRead
  rw [if_neg (by simp [endlessReader])]
  have : (List.range 64).map ((endlessReader n).byte s.ops (.readExact 64)) = mkEhdr 0 64 56 1 :=
    range_map_getD (mkEhdr 0 64 56 1)
  rw [this]

theorem endless_ph (n : Nat) (e : LoadError) (s : AnyState) : (anyIo (endlessReader n)).readExact 56 e s =
    (.ok (mkPhdr 4 120 0 n n), s.add (.readExact 56) (.bytes (mkPhdr 4 120 0 n n))) := by
  show anyRead (endlessReader n) (.readExact 56) 56 e s = _
  unfold anyRead
  rw [if_neg (by simp [endlessReader])]
  have hl : (mkPhdr 4 120 0 n n).length = 56 := by
    unfold mkPhdr
    simp only [List.length_append, leBytes_length]
  have : (List.range 56).map ((endlessReader n).byte s.ops (.readExact 56)) = mkPhdr 4 120 0 n n := by
    have h := range_map_getD (mkPhdr 4 120 0 n n)
    rw [hl] at h
    exact h
  rw [this]

/-- The state of `Elf::load` on this reader before the loop over the notes. -/
def endlessStart (n : Nat) : AnyState :=
  ⟨elfMem, [(.seekStart 0, .done), (.readExact 64, .bytes (mkEhdr 0 64 56 1)), (.seekStart 64, .done),
    (.readExact 56, .bytes (mkPhdr 4 120 0 n n)), (.seekStart 120, .done)]⟩

theorem endless_run (n : Nat) (hn : n < 0x4000000000000000) :
    ∃ f : Option NoteLoop → LM AnyState LoadError LoadResult,
      (∀ r, Steps (fun _ => False) SegOp (f r)) ∧
      G.elfLoad (anyIo (endlessReader n)) none none (fresh elfMem) =
        (G.noteLoop (anyIo (endlessReader n)) ⟨4, 120, 0, n, n⟩ (n + 1) 0 >>= f) (endlessStart n) := by
  refine ⟨fun r => (match r with
    | none => pure PvhCap.notPresent
    | some n' => (LM.ofRes (alignUp n'.namesz 4) : LM AnyState LoadError Nat) >>= fun na =>
      (anyIo (endlessReader n)).seekCur ((na : Int) - 4) (.elf .seekNoteHeader : LoadError) >>= fun _ =>
      LM.require (decide (4 ≤ n'.descsz)) (.elf .invalidPvhNote) >>= fun _ =>
      (anyIo (endlessReader n)).readExact 4 (.elf .readNoteHeader) >>= fun d =>
      pure (.present (leNat d))) >>= fun c => pure ⟨0, 0, none, c⟩, fun r => ?_, ?_⟩
  · refine .bind ?_ fun _ => .pure _
    cases r with
    | none => exact .pure _
    | some n' =>
      exact .bind (.ofRes _) fun _ => .bind (.seek _ _ trivial) fun _ => .bind (.require _ _) fun _ =>
        .bind (.read _ _ _ (.inl rfl)) fun _ => .pure _
  · unfold G.elfLoad
    rw [LM.bind_ok (endless_seek n 0 (by omega) _ _), LM.bind_ok (endless_eh n _ _)]
    have hof : ∀ (t : AnyState), (LM.ofRes (validateHeader (mkEhdr 0 64 56 1)) : LM AnyState LoadError Unit) t =
        (.ok (), t) := fun t => by
      have : validateHeader (mkEhdr 0 64 56 1) = .ok () := by decide +kernel
      rw [this]; rfl
    rw [LM.bind_ok (hof _)]
    have hentry : ehEntry (mkEhdr 0 64 56 1) = 0 ∧ ehPhoff (mkEhdr 0 64 56 1) = 64 ∧ ehPhnum (mkEhdr 0 64 56 1) = 1 := by
      decide +kernel
    rw [hentry.1, hentry.2.1, hentry.2.2]
    have hce : ∀ t, G.checkEntry (anyIo (endlessReader n)) none 0 t = (.ok (), t) := fun _ => rfl
    have hkl : ∀ t, G.elfKernelLoad (anyIo (endlessReader n)) none 0 t = (.ok 0, t) := fun _ => rfl
    rw [LM.bind_ok (hce _), LM.bind_ok (hkl _), LM.bind_ok (endless_seek n 64 (by omega) _ _)]
    have hrp : ∀ t, G.readPhdrs (anyIo (endlessReader n)) 1 t =
        (.ok [⟨4, 120, 0, n, n⟩], t.add (.readExact 56) (.bytes (mkPhdr 4 120 0 n n))) := fun t => by
      unfold G.readPhdrs
      rw [LM.bind_ok (endless_ph n _ _), mkPhdr_ofBytes n (by omega)]
      rfl
    rw [LM.bind_ok (hrp _)]
    unfold G.loadSegments
    have h4 : (4 : Nat) ≠ PT_LOAD := by decide
    rw [if_pos (.inl h4), if_pos (show (4 : Nat) = PT_NOTE from rfl)]
    simp only
    rw [LM.bind_assoc']
    unfold G.parseNote
    rw [LM.bind_assoc', LM.bind_ok (endless_seek n 120 (by omega) _ _), LM.bind_assoc']
    rfl

/-- C85 (the bound is needed; refuted expectation: the work is bounded by the size of the headers). A
device behind the headers makes `Elf::load` read notes until the size in the program header is used up:
for every size `n` there is a reader that delivers one program header and is asked at least `n / 6`
times. -/
theorem C85_requests_grow (n : Nat) (hn : n < 0x4000000000000000) : ∃ R : AnyReader, FileLike R ∧
    deliveredPhdrs (G.elfLoad (anyIo R) none none (fresh elfMem)).2.log = [⟨4, 120, 0, n, n⟩] ∧
    n / 6 ≤ (G.elfLoad (anyIo R) none none (fresh elfMem)).2.log.length := by
  refine ⟨endlessReader n, fun ops p k hp _ => .inl ?_, ?_⟩
  · simp only [endlessReader]; exact decide_eq_true hp
  obtain ⟨f, hf, hrun⟩ := endless_run n hn
  rw [hrun]
  have hsteps : Steps (fun _ => False) SegOp
      (G.noteLoop (anyIo (endlessReader n)) ⟨4, 120, 0, n, n⟩ (n + 1) 0 >>= f) :=
    .bind (steps_noteLoop (.inl rfl) (.inr rfl) (fun _ => trivial) _ _ _) hf
  have hloop := endless_noteLoop n hn ⟨4, 120, 0, n, n⟩ rfl rfl (n + 1) 0 (endlessStart n) (by simp only; omega) (by omega)
  constructor
  · obtain ⟨l, hl, hso⟩ := (hsteps (endlessStart n)).log
    rw [hl, deliveredPhdrs_append]
    have h1 : deliveredPhdrs l = [] := by
      unfold deliveredPhdrs; rw [delivered_segOp (by omega) (by omega) hso]; rfl
    have h2 : deliveredPhdrs (endlessStart n).log = [Phdr.ofBytes (mkPhdr 4 120 0 n n)] := rfl
    rw [h1, h2, mkPhdr_ofBytes n (by omega)]
    rfl
  · have hge : (G.noteLoop (anyIo (endlessReader n)) ⟨4, 120, 0, n, n⟩ (n + 1) 0 (endlessStart n)).2.log.length ≤
        ((G.noteLoop (anyIo (endlessReader n)) ⟨4, 120, 0, n, n⟩ (n + 1) 0 >>= f) (endlessStart n)).2.log.length := by
      refine LM.post_bind (Q := fun _ (t : AnyState) => (G.noteLoop (anyIo (endlessReader n)) ⟨4, 120, 0, n, n⟩ (n + 1) 0
        (endlessStart n)).2.log.length ≤ t.log.length) (fun e s₁ h => ?_) (fun s₁ h => ?_) fun a s₁ h => ?_
      · rw [h]; exact Nat.le_refl _
      · rw [h]; exact Nat.le_refl _
      · rw [h]
        obtain ⟨l, hl, -⟩ := (hf a s₁).log
        rw [hl, List.length_append]
        exact Nat.le_add_right _ _
    simp only [Nat.sub_zero] at hloop
    omega

/-- The demo images are loaded by such readers: the hypotheses of `C85_elf_ok` and `C85_elf_pvh`, and the
results in `C85_bz` and `C85_pe`, are met. -/
example : ∃ R, FileLike R ∧
    (G.elfLoad (anyIo R) none none (fresh elfMem)).1 = .ok ⟨0x10, 0x43, none, .present 0x1000000⟩ := by
  obtain ⟨R, h1, h2, -⟩ := C85_files demoState (by decide +kernel)
  exact ⟨R, h1 (by decide +kernel), ((h2 none none).1).trans demoElf_loads⟩

example : ∃ R, (G.bzLoad (anyIo R) none (some 0x30) (fresh elfMem)).1 =
    .ok ⟨0x40, 0x45, some (mkBzHdr 1 0x53726448 0x20f 1 0x40), .ignored⟩ := by
  obtain ⟨R, -, -, h2, -⟩ := C85_files bzState (by decide +kernel)
  exact ⟨R, ((h2 none _).1).trans demoBz_loads⟩

/-- The program headers of the hostile reader: one note segment. -/
example : deliveredPhdrs (G.elfLoad (anyIo hostileReader) none none (fresh elfMem)).2.log =
    [⟨4, 0xffffffffffffffff, 0, 16, 16⟩] := by decide +kernel

/-- A reader of the demo image, as an arbitrary reader. -/
theorem demoReader : ∃ R, FileLike R ∧
    (G.elfLoad (anyIo R) none none (fresh elfMem)).1 = .ok ⟨0x10, 0x43, none, .present 0x1000000⟩ := by
  obtain ⟨R, h1, h2, -⟩ := C85_files demoState (by decide +kernel)
  exact ⟨R, h1 (by decide +kernel), ((h2 none none).1).trans demoElf_loads⟩

/-- So the theorems about successful loads have instances. -/
example : ∃ R, FileLike R ∧
    (∃ eh, delivered 64 (G.elfLoad (anyIo R) none none (fresh elfMem)).2.log = [eh] ∧ elfEntry eh = 0x10) ∧
    PvhDelivered (G.elfLoad (anyIo R) none none (fresh elfMem)).2.log 0x1000000 ∧
    (G.elfLoad (anyIo R) none none (fresh elfMem)).1 ≠ .panic := by
  obtain ⟨R, hf, h⟩ := demoReader
  obtain ⟨eh, h1, -, -, h2, -⟩ := C85_elf_ok (ran h)
  refine ⟨R, hf, ⟨eh, h1, ?_⟩, ((C85_elf_pvh (ran h)).2.2 _ rfl).2, C85_elf_no_panic (.inr hf) _⟩
  unfold koffBase at h2
  simp only [Nat.zero_add] at h2
  exact h2.symm

end LinuxLoader
