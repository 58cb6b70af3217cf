import Verif.Model.ZeroPage
import Verif.Spec.ZeroPage
import Verif.Props.Structs
import Verif.Props.BzImage

/-!
# The zero page (C63, C64)

Vocabulary: `Spec/ZeroPage.lean`.
-/

namespace LinuxLoader
open Spec

/-! ## Fields of an encoded structure -/

/-- `v` is at offset `o` of `b`. -/
def SubAt (b : List UInt8) (o : Nat) (v : List UInt8) : Prop := ∀ j x, v[j]? = some x → b[o + j]? = some x

theorem SubAt.append {b : List UInt8} {o : Nat} {v : List UInt8} (h : SubAt b o v) (t : List UInt8) :
    SubAt (b ++ t) o v := by
  intro j x hx
  have := h j x hx
  rw [List.getElem?_append_left (List.getElem?_eq_some_iff.1 this).1]
  exact this

theorem holds_subAt {f : Nat → UInt8} {a o : Nat} {b v : List UInt8} (hb : Holds f a b)
    (h : SubAt b o v) : Holds f (a + o) v := by
  intro j x hx
  rw [Nat.add_assoc]
  exact hb _ x (h j x hx)

theorem subAt_trans {b v w : List UInt8} {o p : Nat} (h : SubAt b o v) (h' : SubAt v p w) :
    SubAt b (o + p) w := by
  intro j x hx
  rw [Nat.add_assoc]
  exact h _ x (h' j x hx)

theorem encodeFields_spec (fs : List (String × Nat × Nat)) (v : String → List UInt8)
    (hv : ∀ f ∈ fs, (v f.1).length = f.2.2)
    (hp : fs.Pairwise fun g h => g.2.1 + g.2.2 ≤ h.2.1) (acc : List UInt8)
    (ha : ∀ f ∈ fs, acc.length ≤ f.2.1) :
    (∃ t, encodeFields fs (fs.map fun f => v f.1) acc = acc ++ t) ∧
    (∀ f ∈ fs, SubAt (encodeFields fs (fs.map fun f => v f.1) acc) f.2.1 (v f.1)) ∧
    (∀ n, acc.length ≤ n → (∀ f ∈ fs, f.2.1 + f.2.2 ≤ n) →
      (encodeFields fs (fs.map fun f => v f.1) acc).length ≤ n) := by
  induction fs generalizing acc with
  | nil =>
    exact ⟨⟨[], by simp [encodeFields]⟩, fun f hf => (nomatch hf),
      fun n hn _ => by simpa [encodeFields] using hn⟩
  | cons g fs ih =>
    obtain ⟨n, o, sz⟩ := g
    have ho : acc.length ≤ o := ha (n, o, sz) (by simp)
    have hsz : (v n).length = sz := hv (n, o, sz) (by simp)
    obtain ⟨hp1, hp2⟩ := List.pairwise_cons.1 hp
    have hl : (acc ++ List.replicate (o - acc.length) 0 ++ v n).length = o + sz := by
      simp only [List.length_append, List.length_replicate, hsz]; omega
    obtain ⟨⟨t, ht⟩, h2, h3⟩ := ih (fun f hf => hv f (by simp [hf])) hp2
      (acc ++ List.replicate (o - acc.length) 0 ++ v n) (fun f hf => by rw [hl]; exact hp1 f hf)
    simp only [List.map_cons, encodeFields]
    refine ⟨⟨List.replicate (o - acc.length) 0 ++ v n ++ t, by rw [ht]; simp⟩, ?_, ?_⟩
    · intro f hf
      rcases List.mem_cons.1 hf with rfl | hf
      · rw [ht]
        apply SubAt.append
        intro j x hx
        have hl' : (acc ++ List.replicate (o - acc.length) (0 : UInt8)).length = o := by
          simp only [List.length_append, List.length_replicate]; omega
        rw [List.getElem?_append_right (by simp only [hl']; omega), hl']
        rw [← hx]; congr 1; simp only; omega
      · exact h2 f hf
    · intro k hk hf
      refine h3 k ?_ fun f hf' => hf f (by simp [hf'])
      rw [hl]
      exact hf (n, o, sz) (by simp)

/-- Every field of a structure whose fields are in order and disjoint is in its byte image at its
offset; the image has the size of the structure. `C56_fields_disjoint` gives the hypotheses for every
`repr(C)` or packed structure. -/
theorem encodeBy_spec (l : Layout.Layout) (h1 : l.fields.Pairwise fun g h => g.2.1 + g.2.2 ≤ h.2.1)
    (h2 : ∀ f ∈ l.fields, f.2.1 + f.2.2 ≤ l.size) (v : String → List UInt8) (hv : Typed l v) :
    (encodeBy l v).length = l.size ∧ ∀ f ∈ l.fields, SubAt (encodeBy l v) f.2.1 (v f.1) := by
  obtain ⟨-, h4, h5⟩ := encodeFields_spec _ v hv h1 [] (fun _ _ => Nat.zero_le _)
  refine ⟨?_, fun f hf => (h4 f hf).append _⟩
  have := h5 l.size (Nat.zero_le _) h2
  unfold encodeBy encode
  simp only [List.length_append, List.length_replicate]
  omega

theorem lookup_mem {β : Type} {l : List (String × β)} {n : String} {b : β}
    (h : l.lookup n = some b) : (n, b) ∈ l := by
  induction l with
  | nil => cases h
  | cons p l ih =>
    obtain ⟨k, c⟩ := p
    rw [List.lookup_cons] at h
    by_cases hk : (n == k) = true
    · rw [hk] at h
      have : n = k := by simpa using hk
      cases h; subst this; simp
    · have : (n == k) = false := by simpa using hk
      rw [this] at h
      exact .tail _ (ih h)

/-- The fields of a structure are those of a table, offsets shifted by `base`. -/
def Matches (l : Layout.Layout) (base : Nat) (doc : List (String × Nat × Nat)) : Prop :=
  ∀ p ∈ doc, (p.1, p.2.1 - base, p.2.2) ∈ l.fields ∧ base ≤ p.2.1

instance (l : Layout.Layout) (b : Nat) (d : List (String × Nat × Nat)) : Decidable (Matches l b d) := by
  unfold Matches; infer_instance

theorem zeroPage_matches : Matches Layout.bootParams 0 zeroPageDoc := by decide +kernel
theorem setupHeader_matches : Matches Layout.setupHeader 0x1f1 setupHeaderDoc := by decide +kernel

theorem bootParams_bytes (v : String → List UInt8) (hv : Typed Layout.bootParams v) :
    (encodeBy Layout.bootParams v).length = 4096 ∧
    ∀ f ∈ Layout.bootParams.fields, SubAt (encodeBy Layout.bootParams v) f.2.1 (v f.1) := by
  have hs : Layout.bootParams.size = 4096 := by decide +kernel
  have := encodeBy_spec Layout.bootParams (by decide +kernel) (by decide +kernel) v hv
  rw [hs] at this
  exact this

theorem setupHeader_bytes (v : String → List UInt8) (hv : Typed Layout.setupHeader v) :
    (encodeBy Layout.setupHeader v).length = 123 ∧
    ∀ f ∈ Layout.setupHeader.fields, SubAt (encodeBy Layout.setupHeader v) f.2.1 (v f.1) := by
  have hs : Layout.setupHeader.size = 123 := by decide +kernel
  have := encodeBy_spec Layout.setupHeader (by decide +kernel) (by decide +kernel) v hv
  rw [hs] at this
  exact this

/-! ## C63 -/

/-- **C63.** After the Linux configurator has written a `boot_params` value, the kernel finds every
documented field of the zero page at its documented offset, whatever the values; the page has 4096
bytes and nothing else has changed. -/
theorem C63_zero_page (v : String → List UInt8) (hv : Typed Layout.bootParams v) (a : GuestAddr)
    (m m' : Mem) (hw : m.WF)
    (h : linuxWrite (BootParams.new (encodeBy Layout.bootParams v) a) m = (.ok (), m')) :
    (∀ p ∈ zeroPageDoc, (v p.1).length = p.2.2 ∧ Holds m'.data (a.toNat + p.2.1) (v p.1)) ∧
    ∀ x, ¬ InRange a.toNat 4096 x → m'.data x = m.data x := by
  have hs := C28_success _ m m' hw h
  obtain ⟨h1, h2⟩ := bootParams_bytes v hv
  refine ⟨fun p hp => ?_, fun x hx => hs.2.2 x ?_⟩
  · obtain ⟨hm, -⟩ := zeroPage_matches p hp
    exact ⟨hv _ hm, holds_subAt hs.2.1 (h2 _ hm)⟩
  · show ¬ InRange a.toNat (encodeBy Layout.bootParams v).length x
    rw [h1]; exact hx

/-- **C63** for the setup header: every integer field of `hdr` is read back by the kernel at its
documented offset in the zero page. -/
theorem C63_setup_header (v : String → List UInt8) (hv : Typed Layout.bootParams v)
    (w : String → Nat) (hh : v "hdr" = encodeBy Layout.setupHeader (intFields Layout.setupHeader w))
    (a : GuestAddr) (m m' : Mem) (hw : m.WF)
    (h : linuxWrite (BootParams.new (encodeBy Layout.bootParams v) a) m = (.ok (), m')) :
    ∀ p ∈ setupHeaderDoc, w p.1 < 256 ^ p.2.2 → readLE m'.data (a.toNat + p.2.1) p.2.2 = w p.1 := by
  intro p hp hlt
  obtain ⟨hz, -⟩ := C63_zero_page v hv a m m' hw h
  obtain ⟨-, hhdr⟩ := hz ("hdr", 0x1f1, 123) (by decide)
  have hty : Typed Layout.setupHeader (intFields Layout.setupHeader w) := by
    have hlk : ∀ f ∈ Layout.setupHeader.fields, Layout.setupHeader.fields.lookup f.1 = some f.2 := by
      decide +kernel
    intro f hf
    unfold intFields
    rw [hlk f hf]
    exact leBytes_length _ _
  obtain ⟨hm, hb⟩ := setupHeader_matches p hp
  have hf := (setupHeader_bytes _ hty).2 _ hm
  have hlk : ∀ f ∈ Layout.setupHeader.fields, Layout.setupHeader.fields.lookup f.1 = some f.2 := by
    decide +kernel
  have hval : intFields Layout.setupHeader w p.1 = leBytes p.2.2 (w p.1) := by
    unfold intFields
    rw [hlk _ hm]
  rw [hh] at hhdr
  have := holds_subAt hhdr hf
  simp only at this
  rw [hval, show a.toNat + 0x1f1 + (p.2.1 - 0x1f1) = a.toNat + p.2.1 by omega] at this
  exact readLE_leBytes this hlt

theorem e820Slice_eq (addr size : UInt64) (type : UInt32) : e820Slice addr size type =
    leBytes 8 addr.toNat ++ (leBytes 8 size.toNat ++ leBytes 4 type.toNat) := by
  have h1 : Layout.bootE820Entry.fields = [("addr", 0, 8), ("size", 8, 8), ("type", 16, 4)] := by
    decide +kernel
  have h2 : Layout.bootE820Entry.size = 20 := by decide +kernel
  simp [e820Slice, encode, h1, h2, encodeFields]

/-- **C63** for the memory map: every entry of the `e820_table` array is read back by the kernel at
`0x2d0 + 20 * i`. -/
theorem C63_e820 (v : String → List UInt8) (hv : Typed Layout.bootParams v) (es : List E820)
    (he : v "e820_table" = (es.map fun e => e820Slice e.addr e.size e.type).flatten)
    (a : GuestAddr) (m m' : Mem) (hw : m.WF)
    (h : linuxWrite (BootParams.new (encodeBy Layout.bootParams v) a) m = (.ok (), m')) :
    es.length = 128 ∧ ∀ i e, es[i]? = some e → E820At m'.data a.toNat i e := by
  obtain ⟨hz, -⟩ := C63_zero_page v hv a m m' hw h
  obtain ⟨hl, ht⟩ := hz ("e820_table", 0x2d0, 0xa00) (by decide)
  have w20 : ∀ x ∈ es.map fun e => e820Slice e.addr e.size e.type, x.length = 20 := by
    intro x hx
    obtain ⟨e, -, rfl⟩ := List.mem_map.1 hx
    rw [e820Slice_eq]; simp
  simp only at hl ht
  rw [he, flatten_length w20, List.length_map] at hl
  rw [he] at ht
  refine ⟨by omega, fun i e hi => ?_⟩
  have := holds_flatten w20 ht i _ (by rw [List.getElem?_map, hi]; rfl)
  simp only [e820Slice_eq, Nat.mul_comm i 20] at this
  simp only [holds_append, leBytes_length, Nat.add_assoc] at this
  obtain ⟨h0, h1, h2⟩ := this
  simp only [← Nat.add_assoc] at h0 h1 h2
  exact ⟨readLE_leBytes h0 (u64_lt _), readLE_leBytes h1 (u64_lt _), readLE_leBytes h2 (u32_lt _)⟩

/-! ## C64 -/

/-- **C64.** From bzImage to zero page: if the setup header returned by `BzImage::load` is put into
`boot_params.hdr` and these are written by the Linux configurator, the kernel finds at 0x214 of the
zero page the address where it has been loaded (modulo 4 GiB), and every other byte of its setup header
exactly as in its image. -/
theorem C64_bzimage_to_zero_page {koff highmem : Option GuestAddr} {s s' : LS} {r : LoadResult}
    (hns : NoShortReads s) (hb : bzLoad koff highmem s = (.ok r, s')) (v : String → List UInt8)
    (hv : Typed Layout.bootParams v) (hh : r.setupHeader = some (v "hdr")) (a : GuestAddr)
    (m m' : Mem) (hw : m.WF)
    (h : linuxWrite (BootParams.new (encodeBy Layout.bootParams v) a) m = (.ok (), m')) :
    readLE m'.data (a.toNat + 0x214) 4 = r.kernelLoad % 0x100000000 ∧
    ∀ i, 0x1f1 ≤ i → i < 0x1f1 + 123 → (i < 0x214 ∨ 0x218 ≤ i) →
      s.rd.data[i]? = some (m'.data (a.toNat + i)) := by
  obtain ⟨hdr, h1, h2, h3, h4⟩ := C48_bz_setup_header hns hb
  rw [hh] at h1
  cases h1
  obtain ⟨hz, -⟩ := C63_zero_page v hv a m m' hw h
  obtain ⟨-, hp⟩ := hz ("hdr", 0x1f1, 123) (by decide)
  simp only at hp
  constructor
  · rw [← h4]
    have hsub : SubAt (v "hdr") 0x23 ((((v "hdr").drop 0x23)).take 4) := by
      intro j x hx
      rw [List.getElem?_take] at hx
      split at hx
      · rw [List.getElem?_drop] at hx; exact hx
      · cases hx
    have := readLE_holds (holds_subAt hp hsub)
    have hlen : (((v "hdr").drop 0x23).take 4).length = 4 := by
      rw [List.length_take, List.length_drop]; omega
    rw [hlen] at this
    exact this
  · intro i hi1 hi2 hi3
    have h5 := h3 (i - 0x1f1) (by omega) (by omega)
    rw [show 0x1f1 + (i - 0x1f1) = i by omega] at h5
    rw [← h5]
    have hlt : i - 0x1f1 < (v "hdr").length := by omega
    have h6 := hp (i - 0x1f1) _ (List.getElem?_eq_getElem hlt)
    rw [show a.toNat + 0x1f1 + (i - 0x1f1) = a.toNat + i by omega] at h6
    rw [List.getElem?_eq_getElem hlt, h6]

/-! ## A concrete zero page -/

/-- All fields 0 except `hdr` and one memory map entry. -/
def demoZp (hdr : List UInt8) : String → List UInt8 := fun n =>
  if n = "hdr" then hdr
  else if n = "e820_table" then
    e820Slice 0x100000 0x8000000 1 ++ List.replicate (127 * 20) 0
  else match Layout.bootParams.fields.lookup n with
    | some (_, size) => List.replicate size 0
    | none => []

theorem eq_pair {α β : Type} {p : α × β} {x : α} (h : p.1 = x) : p = (x, p.2) := by
  cases p; cases h; rfl

/-- 16 KiB at 0. -/
def zpMem : Mem := ⟨[⟨0, 0x4000⟩], fun _ => 0xee, false⟩

/-- The hypotheses of C63 and C64 are met by the demo bzImage and its setup header. -/
example : ∃ r s' m', NoShortReads bzState ∧ bzLoad none none bzState = (.ok r, s') ∧
    r.setupHeader = some (demoZp (mkBzHdr 1 0x53726448 0x20f 1 0x40) "hdr") ∧
    linuxWrite (BootParams.new (encodeBy Layout.bootParams
      (demoZp (mkBzHdr 1 0x53726448 0x20f 1 0x40))) 0x1000) zpMem = (.ok (), m') := by
  refine ⟨⟨0x40, 0x45, some (mkBzHdr 1 0x53726448 0x20f 1 0x40), .ignored⟩,
    (bzLoad none none bzState).2, (linuxWrite (BootParams.new (encodeBy Layout.bootParams
      (demoZp (mkBzHdr 1 0x53726448 0x20f 1 0x40))) 0x1000) zpMem).2, ?_, ?_, ?_, ?_⟩
  · exact fun _ _ h => nomatch h
  · exact eq_pair (by decide +kernel)
  · decide +kernel
  · exact eq_pair (by decide +kernel)

theorem demoZp_typed : Typed Layout.bootParams (demoZp (mkBzHdr 1 0x53726448 0x20f 1 0x40)) := by
  unfold Typed
  decide +kernel

/-- Its memory map is one of 128 entries, as C63 for the memory map asks. -/
theorem demoZp_e820 (hdr : List UInt8) : demoZp hdr "e820_table" =
    (((⟨0x100000, 0x8000000, 1⟩ : E820) :: List.replicate 127 ⟨0, 0, 0⟩).map
      fun e => e820Slice e.addr e.size e.type).flatten := by
  have h : demoZp hdr "e820_table" = e820Slice 0x100000 0x8000000 1 ++ List.replicate (127 * 20) 0 := by
    unfold demoZp
    rw [if_neg (by decide), if_pos rfl]
  rw [h]
  decide +kernel

/-! The theorems applied to it. -/

theorem zpMem_wf : zpMem.WF := by
  constructor
  · intro r hr; simp only [zpMem, List.mem_singleton] at hr; subst hr; decide
  · simp [zpMem]

example := C63_zero_page _ demoZp_typed 0x1000 zpMem _ zpMem_wf (ran (by decide +kernel))

/-- Fields of a setup header. -/
def demoFields : String → Nat := fun n =>
  if n = "cmd_line_ptr" then 0x20000 else if n = "type_of_loader" then 0xff else if n = "boot_flag" then 0xaa55 else 0

example := C63_setup_header (demoZp (encodeBy Layout.setupHeader (intFields Layout.setupHeader demoFields)))
  (by unfold Typed; decide +kernel) demoFields rfl 0x1000 zpMem _ zpMem_wf (ran (by decide +kernel))
  ("cmd_line_ptr", 0x228, 4) (by decide) (by decide)

example := C63_e820 _ demoZp_typed _ (demoZp_e820 _) 0x1000 zpMem _ zpMem_wf (ran (by decide +kernel))

example := C64_bzimage_to_zero_page bzState_full (ran demoBz_loads) _ demoZp_typed rfl 0x1000 zpMem _ zpMem_wf
  (ran (by decide +kernel))

end LinuxLoader
