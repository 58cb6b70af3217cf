import Verif.Spec.Build
import Verif.Props.Elf
import Verif.Props.BzImage
import Verif.Props.Pe
import Verif.Props.ZeroPage

/-!
# Images built from their documented form are accepted (C78)
-/

namespace LinuxLoader
open Spec

/-! ## Fields of a file -/

theorem Spec.At.drop_eq {b : List UInt8} {o : Nat} {v : List UInt8} (h : At b o v) :
    b.drop o = v ++ b.drop (o + v.length) := by
  have := List.take_append_drop v.length (b.drop o)
  rw [h, List.drop_drop] at this
  exact this.symm

theorem Spec.At.bound {b : List UInt8} {o : Nat} {v : List UInt8} (h : At b o v) (hv : v ≠ []) :
    o + v.length ≤ b.length := by
  have := congrArg List.length h
  have hp : 0 < v.length := List.length_pos_iff.2 hv
  rw [List.length_take, List.length_drop] at this
  omega

theorem at_of_drop {b : List UInt8} {o : Nat} {v t : List UInt8} (h : b.drop o = v ++ t) : At b o v := by
  unfold At
  rw [h, List.take_left]

theorem Spec.At.part {b : List UInt8} {o : Nat} {v p q r : List UInt8} (h : At b o v) (hv : v = p ++ q ++ r) :
    At b (o + p.length) q := by
  subst hv
  have h1 := h.drop_eq
  rw [List.append_assoc, List.append_assoc] at h1
  have h2 := drop_at h1
  exact at_of_drop h2

theorem Spec.At.field {b : List UInt8} {o n v : Nat} (h : At b o (leBytes n v)) : leField b o n = v % 256 ^ n := by
  unfold leField
  unfold At at h
  rw [leBytes_length] at h
  rw [h, leNat_leBytes]

theorem Spec.At.value {b : List UInt8} {o o' n v : Nat} {w p r : List UInt8} (h : At b o w)
    (hv : w = p ++ leBytes n v ++ r) (ho : o + p.length = o') (hlt : v < 256 ^ n) :
    leField b o' n = v := by
  subst ho
  rw [(h.part hv).field, Nat.mod_eq_of_lt hlt]

theorem segHeader_length (g : Seg) (off : Nat) : (g.header off).length = 56 := by
  unfold Seg.header
  simp only [List.length_append, leBytes_length]

theorem exeHeader_length (x : Exe) (phoff : Nat) (h : x.ident.length = 10) : (x.header phoff).length = 64 := by
  unfold Exe.header elfMagic
  simp only [List.length_append, leBytes_length, h, List.length_cons, List.length_nil]

/-- The program header as the loader reads it. -/
def segPhdr (g : Seg) (off : Nat) : Phdr :=
  ⟨g.content.type, off, g.paddr, g.content.bytes.length, g.memsz⟩

section
variable {x : Exe} {img : List UInt8} {phoff : Nat} {off : Nat → Nat}

theorem laidOut_header (hf : x.Fits) (hl : LaidOut x img phoff off) :
    64 ≤ img.length ∧ img.take 4 = elfMagic ∧ img[5]? = some 1 ∧ elfEntry img = x.entry ∧
    elfPhoff img = phoff ∧ elfPhentsize img = 56 ∧ elfPhnum img = x.segs.length := by
  have hh := hl.header
  have hlen := exeHeader_length x phoff hf.ident
  have hi := hf.ident
  have hd := hh.drop_eq
  rw [List.drop_zero] at hd
  refine ⟨?_, ?_, ?_, ?_, ?_, ?_, ?_⟩
  · have := hh.bound (fun h => by rw [h] at hlen; cases hlen)
    omega
  · rw [hd]
    unfold Exe.header elfMagic
    simp only [List.append_assoc]
    rfl
  · rw [hd]
    unfold Exe.header elfMagic
    simp only [List.append_assoc]
    rfl
  · refine hh.value (n := 8) (p := elfMagic ++ [x.cls, 1] ++ x.ident ++ leBytes 2 x.etype ++
      leBytes 2 x.machine ++ leBytes 4 x.version) (r := leBytes 8 phoff ++ leBytes 8 x.shoff ++
      leBytes 4 x.eflags ++ leBytes 2 x.ehsize ++ leBytes 2 56 ++ leBytes 2 x.segs.length ++
      leBytes 2 x.shentsize ++ leBytes 2 x.shnum ++ leBytes 2 x.shstrndx) ?_ ?_ hf.entry
    · simp only [Exe.header, List.append_assoc]
    · simp only [List.length_append, leBytes_length, hi]; rfl
  · refine hh.value (n := 8) (p := elfMagic ++ [x.cls, 1] ++ x.ident ++ leBytes 2 x.etype ++
      leBytes 2 x.machine ++ leBytes 4 x.version ++ leBytes 8 x.entry) (r := leBytes 8 x.shoff ++
      leBytes 4 x.eflags ++ leBytes 2 x.ehsize ++ leBytes 2 56 ++ leBytes 2 x.segs.length ++
      leBytes 2 x.shentsize ++ leBytes 2 x.shnum ++ leBytes 2 x.shstrndx) ?_ ?_ hl.offsets.1
    · simp only [Exe.header, List.append_assoc]
    · simp only [List.length_append, leBytes_length, hi]; rfl
  · refine hh.value (n := 2) (p := elfMagic ++ [x.cls, 1] ++ x.ident ++ leBytes 2 x.etype ++
      leBytes 2 x.machine ++ leBytes 4 x.version ++ leBytes 8 x.entry ++ leBytes 8 phoff ++
      leBytes 8 x.shoff ++ leBytes 4 x.eflags ++ leBytes 2 x.ehsize) (r := leBytes 2 x.segs.length ++
      leBytes 2 x.shentsize ++ leBytes 2 x.shnum ++ leBytes 2 x.shstrndx) ?_ ?_ (by decide)
    · simp only [Exe.header, List.append_assoc]
    · simp only [List.length_append, leBytes_length, hi]; rfl
  · refine hh.value (n := 2) (p := elfMagic ++ [x.cls, 1] ++ x.ident ++ leBytes 2 x.etype ++
      leBytes 2 x.machine ++ leBytes 4 x.version ++ leBytes 8 x.entry ++ leBytes 8 phoff ++
      leBytes 8 x.shoff ++ leBytes 4 x.eflags ++ leBytes 2 x.ehsize ++ leBytes 2 56) (r :=
      leBytes 2 x.shentsize ++ leBytes 2 x.shnum ++ leBytes 2 x.shstrndx) ?_ ?_ hf.count
    · simp only [Exe.header, List.append_assoc]
    · simp only [List.length_append, leBytes_length, hi]; rfl

theorem bytes_length_lt {g : Seg} {i : Nat} (hlen : img.length < ISZ) (hc : At img i g.content.bytes) :
    g.content.bytes.length < U64 := by
  by_cases hz : g.content.bytes = []
  · rw [hz]; decide
  · have := hc.bound hz
    unfold ISZ at hlen
    unfold U64
    omega

theorem laidOut_phdr (hf : x.Fits) (hl : LaidOut x img phoff off) (hlen : img.length < ISZ) {i : Nat}
    {g : Seg} (hg : x.segs[i]? = some g) : phdrAt img i = segPhdr g (off i) := by
  obtain ⟨-, -, -, -, h5, -, -⟩ := laidOut_header hf hl
  have hh := hl.phdrs i g hg
  obtain ⟨f1, f2, f3⟩ := hf.segs g (List.mem_of_getElem? hg)
  have hb := bytes_length_lt hlen (hl.contents i g hg)
  unfold phdrAt segPhdr
  rw [h5]
  simp only
  congr 1
  · refine hh.value (p := []) (r := leBytes 4 g.flags ++ leBytes 8 (off i) ++ leBytes 8 g.vaddr ++
      leBytes 8 g.paddr ++ leBytes 8 g.content.bytes.length ++ leBytes 8 g.memsz ++ leBytes 8 g.align)
      ?_ rfl f1
    simp only [Seg.header, List.append_assoc, List.nil_append]
  · refine hh.value (p := leBytes 4 g.content.type ++ leBytes 4 g.flags) (r := leBytes 8 g.vaddr ++
      leBytes 8 g.paddr ++ leBytes 8 g.content.bytes.length ++ leBytes 8 g.memsz ++ leBytes 8 g.align)
      ?_ ?_ (hl.offsets.2 i g hg)
    · simp only [Seg.header, List.append_assoc]
    · simp only [List.length_append, leBytes_length]
  · refine hh.value (p := leBytes 4 g.content.type ++ leBytes 4 g.flags ++ leBytes 8 (off i) ++
      leBytes 8 g.vaddr) (r := leBytes 8 g.content.bytes.length ++ leBytes 8 g.memsz ++ leBytes 8 g.align)
      ?_ ?_ f2
    · simp only [Seg.header, List.append_assoc]
    · simp only [List.length_append, leBytes_length]
  · refine hh.value (p := leBytes 4 g.content.type ++ leBytes 4 g.flags ++ leBytes 8 (off i) ++
      leBytes 8 g.vaddr ++ leBytes 8 g.paddr) (r := leBytes 8 g.memsz ++ leBytes 8 g.align)
      ?_ ?_ hb
    · simp only [Seg.header, List.append_assoc]
    · simp only [List.length_append, leBytes_length]
  · refine hh.value (p := leBytes 4 g.content.type ++ leBytes 4 g.flags ++ leBytes 8 (off i) ++
      leBytes 8 g.vaddr ++ leBytes 8 g.paddr ++ leBytes 8 g.content.bytes.length) (r := leBytes 8 g.align)
      ?_ ?_ f3
    · simp only [Seg.header, List.append_assoc]
    · simp only [List.length_append, leBytes_length]

theorem range_map_zipIdx {α β : Type} (l : List α) (f : Nat → β) (g : α → Nat → β)
    (h : ∀ i a, l[i]? = some a → f i = g a i) :
    (List.range l.length).map f = l.zipIdx.map fun p => g p.1 p.2 := by
  apply List.ext_getElem?
  intro i
  rw [List.getElem?_map, List.getElem?_map, List.getElem?_zipIdx]
  by_cases hi : i < l.length
  · rw [List.getElem?_range hi, List.getElem?_eq_getElem hi]
    simp only [Option.map_some, Nat.zero_add]
    rw [h i _ (List.getElem?_eq_getElem hi)]
  · rw [List.getElem?_eq_none (by simpa using hi), List.getElem?_eq_none (by simpa using hi)]
    rfl

theorem laidOut_phdrs (hf : x.Fits) (hl : LaidOut x img phoff off) (hlen : img.length < ISZ) :
    elfPhdrs img = x.segs.zipIdx.map fun p => segPhdr p.1 (off p.2) := by
  obtain ⟨-, -, -, -, -, -, h7⟩ := laidOut_header hf hl
  unfold elfPhdrs
  rw [h7]
  exact range_map_zipIdx _ _ (fun g i => segPhdr g (off i)) fun i g hg => laidOut_phdr hf hl hlen hg

/-- The fates of the segments, one by one. -/
theorem filterMap_zipIdx {α β γ : Type} (P : α → Nat → Prop) (d : α → Nat → β) (keep : β → Bool)
    (val : β → γ) (spec : α → Option γ)
    (h : ∀ a i, P a i → spec a = if keep (d a i) then some (val (d a i)) else none) :
    ∀ (l : List α) (k : Nat), (∀ i a, l[i]? = some a → P a (k + i)) →
      (((l.zipIdx k).map fun p => d p.1 p.2).filter keep).map val = l.filterMap spec := by
  intro l
  induction l with
  | nil => intro k _; rfl
  | cons a l ih =>
    intro k hP
    have h0 := h a k (by simpa using hP 0 a rfl)
    have ih' := ih (k + 1) fun i b hb => by
      have := hP (i + 1) b (by simpa using hb)
      rwa [show k + (i + 1) = k + 1 + i by omega] at this
    rw [List.zipIdx_cons, List.map_cons, List.filterMap_cons, h0]
    simp only
    cases hk : keep (d a k) with
    | true => rw [List.filter_cons_of_pos hk]; simp only [if_true, List.map_cons, ih']
    | false => rw [List.filter_cons_of_neg (by simp [hk])]; simpa using ih'

theorem segPhdr_loadable {g : Seg} {o : Nat}
    (ho : ∀ t bs, g.content = .other t bs → t ≠ 1 ∧ t ≠ 4) :
    ((segPhdr g o).Loadable ↔ ∃ bs, g.content = .load bs ∧ bs ≠ []) ∧
    ((segPhdr g o).IsNote ↔ ∃ ns, g.content = .notes ns) := by
  unfold LinuxLoader.Phdr.Loadable LinuxLoader.Phdr.IsNote segPhdr
  cases hc : g.content with
  | load bs => simp [Content.type, Content.bytes]
  | notes ns => simp [Content.type]
  | other t bs => have := ho t bs hc; simp [Content.type, this]

theorem contents_laidOut (hl : LaidOut x img phoff off) {i : Nat} {g : Seg} (hg : x.segs[i]? = some g) :
    (segPhdr g (off i)).contents img = g.content.bytes := hl.contents i g hg

theorem laidOut_pieces (hf : x.Fits) (hl : LaidOut x img phoff off) (hlen : img.length < ISZ)
    (koff : Option GuestAddr) :
    elfPieces img koff = x.pieces koff ∧ elfEnds img koff = x.ends koff := by
  have key : ∀ (g : Seg) (i : Nat), x.segs[i]? = some g →
      g.piece koff = if decide (segPhdr g (off i)).Loadable then
        some (koffBase koff + (segPhdr g (off i)).paddr, (segPhdr g (off i)).contents img) else none := by
    intro g i hg
    have hm := List.mem_of_getElem? hg
    have hc := contents_laidOut hl hg
    have h1 := (segPhdr_loadable (o := off i) (hf.other g hm)).1
    rw [hc]
    unfold Seg.piece
    cases hcc : g.content with
    | load bs =>
      by_cases hb : bs = []
      · have hn : ¬ (segPhdr g (off i)).Loadable := fun h => by
          obtain ⟨bs', h2, h3⟩ := h1.1 h
          rw [hcc] at h2
          cases h2
          exact h3 hb
        simp [hn, hb]
      · have hn : (segPhdr g (off i)).Loadable := h1.2 ⟨bs, hcc, hb⟩
        simp only
        rw [if_neg hb, if_pos (by simpa using hn)]
        rfl
    | notes ns =>
      have hn : ¬ (segPhdr g (off i)).Loadable := fun h => by
        obtain ⟨bs', h2, h3⟩ := h1.1 h
        rw [hcc] at h2
        cases h2
      simp [hn]
    | other t bs =>
      have hn : ¬ (segPhdr g (off i)).Loadable := fun h => by
        obtain ⟨bs', h2, h3⟩ := h1.1 h
        rw [hcc] at h2
        cases h2
      simp [hn]
  unfold elfPieces elfEnds elfLoadable
  rw [laidOut_phdrs hf hl hlen]
  constructor
  · exact filterMap_zipIdx (fun g i => x.segs[i]? = some g) (fun g i => segPhdr g (off i))
      (fun h => decide h.Loadable) (fun h => (koffBase koff + h.paddr, h.contents img))
      (fun g => g.piece koff) (fun g i hg => key g i hg) x.segs 0 (fun i g hg => by simpa using hg)
  · refine filterMap_zipIdx (fun g i => x.segs[i]? = some g) (fun g i => segPhdr g (off i))
      (fun h => decide h.Loadable) (fun h => koffBase koff + h.paddr + h.memsz)
      (fun g => (g.piece koff).map fun p => p.1 + g.memsz) (fun g i hg => ?_) x.segs 0
      (fun i g hg => by simpa using hg)
    rw [key g i hg]
    split <;> rfl

theorem notesOutcome_error {ns : List Note} {e : ElfError} (h : notesOutcome ns = .error e) :
    e = .invalidPvhNote := by
  induction ns with
  | nil => cases h
  | cons n ns ih =>
    unfold notesOutcome at h
    split at h
    · split at h
      · cases h; rfl
      · cases h
    · exact ih h

/-- What a note segment in the file says is what its notes say. -/
theorem laidOut_note (hf : x.Fits) (hl : LaidOut x img phoff off) {i : Nat} {g : Seg}
    (hg : x.segs[i]? = some g) {ns : List Note} (hn : g.content = .notes ns) :
    segmentOutcome img (off i) (segPhdr g (off i)).filesz 0 = notesOutcome ns := by
  have hb : g.content.bytes = ns.flatMap Note.encode := by rw [hn]; rfl
  have hc := (hl.contents i g hg).drop_eq
  refine segmentOutcome_notes ns 0 (img.drop (off i + g.content.bytes.length))
    (hf.notes g (List.mem_of_getElem? hg) ns hn) ?_ ?_
  · rw [Nat.add_zero, hc, hb]
  · show 0 + _ = g.content.bytes.length
    rw [hb, Nat.zero_add]

theorem laidOut_mem (hf : x.Fits) (hl : LaidOut x img phoff off) (hlen : img.length < ISZ) (h : Phdr) :
    h ∈ elfPhdrs img ↔ ∃ i g, x.segs[i]? = some g ∧ h = segPhdr g (off i) := by
  rw [laidOut_phdrs hf hl hlen]
  constructor
  · intro hh
    obtain ⟨⟨g, i⟩, hp, rfl⟩ := List.mem_map.1 hh
    exact ⟨i, g, by simpa using List.mem_zipIdx_iff_getElem?.1 hp, rfl⟩
  · rintro ⟨i, g, hg, rfl⟩
    exact List.mem_map.2 ⟨(g, i), List.mem_zipIdx_iff_getElem?.2 (by simpa using hg), rfl⟩

theorem mem_noteLists {ns : List Note} : ns ∈ x.noteLists ↔ ∃ (i : Nat) (g : Seg), x.segs[i]? = some g ∧ g.content = .notes ns := by
  unfold Exe.noteLists
  rw [List.mem_filterMap]
  constructor
  · rintro ⟨g, hg, h⟩
    obtain ⟨i, hi⟩ := List.getElem?_of_mem hg
    refine ⟨i, g, hi, ?_⟩
    unfold Seg.noteList at h
    cases hc : g.content with
    | notes ns' => rw [hc] at h; cases h; rfl
    | load bs => rw [hc] at h; cases h
    | other t bs => rw [hc] at h; cases h
  · rintro ⟨i, g, hg, h⟩
    exact ⟨g, List.mem_of_getElem? hg, by unfold Seg.noteList; rw [h]⟩

/-- Nothing prevents loading iff the executable can be loaded. -/
theorem laidOut_obstacles (hf : x.Fits) (hl : LaidOut x img phoff off) (hlen : img.length < ISZ)
    (koff highmem : Option GuestAddr) (m : Mem) :
    FirstObstacle (elfObstacles img koff highmem m) none ↔ x.Loads koff highmem m := by
  obtain ⟨h1, h2, h3, h4, h5, h6, h7⟩ := laidOut_header hf hl
  rw [firstObstacle_none_iff]
  unfold elfObstacles
  constructor
  · intro ho
    have hhdr : ∀ o ∈ elfHeaderObstacles img koff highmem, ¬ o.2 := fun o hh =>
      ho o (List.mem_append_left _ hh)
    have hph : ∀ i g, x.segs[i]? = some g → ∀ o ∈ phdrObstacles img koff m (segPhdr g (off i)), ¬ o.2 :=
      fun i g hg o hh => ho o (List.mem_append_right _ (List.mem_flatMap.2
        ⟨_, (laidOut_mem hf hl hlen _).2 ⟨i, g, hg, rfl⟩, hh⟩))
    refine ⟨fun h hh => ?_, ?_, fun g hg a bs hp => ?_, fun hk ns hns => ?_⟩
    · have := hhdr (.elf .invalidEntryAddress, ∃ h, highmem = some h ∧ elfEntry img < h.toNat) (by
        simp [elfHeaderObstacles])
      rw [h4] at this
      exact Nat.le_of_not_lt fun hn => this ⟨h, hh, hn⟩
    · have := hhdr (.elf .overflow, U64 ≤ koffBase koff + elfEntry img) (by
        simp [elfHeaderObstacles])
      rw [h4] at this
      exact Nat.lt_of_not_le this
    · obtain ⟨i, hi⟩ := List.getElem?_of_mem hg
      have hh := hph i g hi
      have hload : ∃ bs', g.content = .load bs' ∧ bs' ≠ [] ∧ bs = bs' ∧ a = koffBase koff + g.paddr := by
        unfold Seg.piece at hp
        cases hc : g.content with
        | load bs' =>
          rw [hc] at hp
          simp only at hp
          by_cases hb : bs' = []
          · rw [if_pos hb] at hp; cases hp
          · rw [if_neg hb] at hp; cases hp; exact ⟨_, rfl, hb, rfl, rfl⟩
        | notes ns => rw [hc] at hp; cases hp
        | other t bs' => rw [hc] at hp; cases hp
      obtain ⟨bs', hc, hb, hbs, rfl⟩ := hload
      subst hbs
      have hL : (segPhdr g (off i)).Loadable := (segPhdr_loadable (hf.other g hg)).1.2 ⟨bs, hc, hb⟩
      have g1 := hh _ (.tail _ (.tail _ (.tail _ (.head _))))
      have g2 := hh _ (.tail _ (.tail _ (.tail _ (.tail _ (.head _)))))
      have g3 := hh _ (.tail _ (.tail _ (.tail _ (.tail _ (.tail _ (.head _))))))
      have hfs : (segPhdr g (off i)).filesz = bs.length := by show g.content.bytes.length = _; rw [hc]; rfl
      refine ⟨?_, Nat.lt_of_not_le fun hn => g1 ⟨hL, hn⟩, Nat.lt_of_not_le fun hn => g3 ⟨hL, hn⟩⟩
      rw [← hfs]
      exact Classical.byContradiction fun hn => g2 ⟨hL, .inr hn⟩
    · obtain ⟨i, g, hi, hc⟩ := mem_noteLists.1 hns
      have hh := hph i g hi
      have hN : (segPhdr g (off i)).IsNote :=
        (segPhdr_loadable (hf.other g (List.mem_of_getElem? hi))).2.2 ⟨ns, hc⟩
      have g1 := hh _ (.head _)
      have g2 := hh _ (.tail _ (.head _))
      have g3 := hh _ (.tail _ (.tail _ (.head _)))
      have hso := laidOut_note hf hl hi hc
      cases hout : notesOutcome ns with
      | ok c => exact ⟨c, rfl⟩
      | error e =>
        exfalso
        rcases notesOutcome_error hout with rfl
        refine g3 ⟨hN, hk, ?_⟩
        show segmentOutcome img (off i) _ 0 = _
        rw [hso, hout]
  · intro hL o ho
    rcases List.mem_append.1 ho with ho | ho
    · simp only [elfHeaderObstacles, List.mem_cons, List.not_mem_nil, or_false] at ho
      rcases ho with rfl | rfl | rfl | rfl | rfl | rfl | rfl | rfl
      · simp only; omega
      · exact fun h => h h2
      · exact fun h => h h3
      · exact fun h => h h6
      · have := hl.behind; simp only [h5]; omega
      · rintro ⟨h, hh, hn⟩
        have := hL.entry h hh
        rw [h4] at hn
        omega
      · have := hL.start
        simp only [h4]
        omega
      · intro hn
        refine hn fun i hi => ?_
        rw [h7] at hi
        have := (hl.phdrs i _ (List.getElem?_eq_getElem hi)).bound (fun hz => by
          have := segHeader_length x.segs[i] (off i)
          rw [hz] at this
          cases this)
        rw [segHeader_length] at this
        rw [h5]
        omega
    · obtain ⟨h, hh, ho⟩ := List.mem_flatMap.1 ho
      obtain ⟨i, g, hi, rfl⟩ := (laidOut_mem hf hl hlen _).1 hh
      have hg := List.mem_of_getElem? hi
      obtain ⟨k1, k2⟩ := segPhdr_loadable (o := off i) (hf.other g hg)
      have hnote : (segPhdr g (off i)).IsNote → koff = none →
          ∃ c, segmentOutcome img (segPhdr g (off i)).offset (segPhdr g (off i)).filesz 0 = .ok c := by
        intro hN hk
        obtain ⟨ns, hc⟩ := k2.1 hN
        obtain ⟨c, ho⟩ := hL.notes hk ns (mem_noteLists.2 ⟨i, g, hi, hc⟩)
        refine ⟨c, ?_⟩
        show segmentOutcome img (off i) _ 0 = _
        rw [laidOut_note hf hl hi hc, ho]
      have hload : (segPhdr g (off i)).Loadable → off i + g.content.bytes.length ≤ img.length ∧
          Mapped m (koffBase koff + g.paddr) g.content.bytes.length ∧ koffBase koff + g.paddr < U64 ∧
          koffBase koff + g.paddr + g.memsz < U64 := by
        intro hLd
        obtain ⟨bs, hc, hb⟩ := k1.1 hLd
        have hbb : g.content.bytes = bs := by rw [hc]; rfl
        obtain ⟨m1, m2, m3⟩ := hL.mapped g hg (koffBase koff + g.paddr) bs (by
          unfold Seg.piece; rw [hc]; simp only; rw [if_neg hb])
        rw [hbb]
        refine ⟨?_, m1, m2, m3⟩
        have := (hl.contents i g hi).bound (by rw [hbb]; exact hb)
        rwa [hbb] at this
      simp only [phdrObstacles, List.mem_cons, List.not_mem_nil, or_false] at ho
      rcases ho with rfl | rfl | rfl | rfl | rfl | rfl
      · rintro ⟨hN, hk, he⟩
        obtain ⟨c, hc⟩ := hnote hN hk
        rw [hc] at he; cases he
      · rintro ⟨hN, hk, he⟩
        obtain ⟨c, hc⟩ := hnote hN hk
        rw [hc] at he; cases he
      · rintro ⟨hN, hk, he⟩
        obtain ⟨c, hc⟩ := hnote hN hk
        rw [hc] at he; cases he
      · rintro ⟨hLd, hn⟩
        obtain ⟨-, -, m2, -⟩ := hload hLd
        exact absurd hn (Nat.not_le.2 m2)
      · rintro ⟨hLd, hn⟩
        obtain ⟨m0, m1, -, -⟩ := hload hLd
        rcases hn with hn | hn
        · exact absurd hn (Nat.not_lt.2 m0)
        · exact hn m1
      · rintro ⟨hLd, hn⟩
        obtain ⟨-, -, -, m3⟩ := hload hLd
        exact absurd hn (Nat.not_le.2 m3)

theorem capOf_some (k : GuestAddr) : ∀ phs : List Phdr, capOf img (some k) phs .ignored = .ignored := by
  intro phs
  induction phs with
  | nil => rfl
  | cons h t ih => unfold capOf; split <;> exact ih

theorem laidOut_pvh (hf : x.Fits) (hl : LaidOut x img phoff off) (hlen : img.length < ISZ)
    {koff highmem : Option GuestAddr} {m : Mem} (hL : x.Loads koff highmem m) :
    capOf img koff (elfPhdrs img) .ignored = x.pvh koff := by
  cases koff with
  | some k => exact capOf_some k _
  | none =>
    have ho := (laidOut_obstacles hf hl hlen none highmem m).2 hL
    have ho2 : FirstObstacle ((elfPhdrs img).flatMap (phdrObstacles img none m)) none :=
      firstObstacle_none_iff.2 fun o hh => firstObstacle_none_iff.1 ho o (List.mem_append_right _ hh)
    have hlast := capOf_last img m (elfPhdrs img) .ignored ho2
    have hmap : ((elfPhdrs img).filter fun h => decide h.IsNote).map
        (fun h => segmentOutcome img h.offset h.filesz 0) = x.noteLists.map notesOutcome := by
      rw [laidOut_phdrs hf hl hlen]
      rw [show x.noteLists.map notesOutcome = x.segs.filterMap fun g =>
          g.noteList.map notesOutcome from by
        unfold Exe.noteLists
        rw [List.map_filterMap]]
      refine filterMap_zipIdx (fun g i => x.segs[i]? = some g) (fun g i => segPhdr g (off i))
        (fun h => decide h.IsNote) (fun h => segmentOutcome img h.offset h.filesz 0) _
        (fun g i hg => ?_) x.segs 0 (fun i g hg => by simpa using hg)
      have hm := List.mem_of_getElem? hg
      have h1 := (segPhdr_loadable (o := off i) (hf.other g hm)).2
      unfold Seg.noteList
      cases hcc : g.content with
      | notes ns =>
        rw [if_pos (by simpa using h1.2 ⟨ns, hcc⟩)]
        exact congrArg some (laidOut_note hf hl hg hcc).symm
      | load bs =>
        rw [if_neg (fun h => by
          obtain ⟨ns, h2⟩ := h1.1 (by simpa using h)
          rw [hcc] at h2; cases h2)]
        rfl
      | other t bs =>
        rw [if_neg (fun h => by
          obtain ⟨ns, h2⟩ := h1.1 (by simpa using h)
          rw [hcc] at h2; cases h2)]
        rfl
    have hgl := congrArg List.getLast? hmap
    rw [List.getLast?_map, List.getLast?_map] at hgl
    unfold Exe.pvh
    cases hq : x.noteLists.getLast? with
    | none =>
      rw [hq] at hgl
      cases hp : ((elfPhdrs img).filter fun h => decide h.IsNote).getLast? with
      | none => rw [hp] at hlast; simpa using hlast
      | some h => rw [hp] at hgl; cases hgl
    | some ns =>
      rw [hq] at hgl
      cases hp : ((elfPhdrs img).filter fun h => decide h.IsNote).getLast? with
      | none => rw [hp] at hgl; cases hgl
      | some h =>
        rw [hp] at hgl hlast
        simp only [Option.map_some, Option.some.injEq] at hgl
        simp only at hlast
        rw [hlast] at hgl
        simp only [← hgl]

end

/-! ## C78 for ELF -/

/-- **C78.** A file that is a layout of an executable is loaded, by a reader without faults, iff the
executable can be loaded into this memory. -/
theorem C78_elf_accepted {x : Exe} {phoff : Nat} {off : Nat → Nat} {koff highmem : Option GuestAddr}
    {s : LS} (hf : x.Fits) (hl : LaidOut x s.rd.data phoff off) (hlen : s.rd.data.length < ISZ)
    (hff : FaultFree s) :
    (∃ r, (elfLoad koff highmem s).1 = .ok r) ↔ x.Loads koff highmem s.mem :=
  (C62_elf_outcome_exact hlen hff).1.trans (laidOut_obstacles hf hl hlen koff highmem s.mem)

/-- **C78.** If loading it succeeds, whatever the reader went through, the result tells the entry point,
the highest end of a segment and the PVH entry point of the executable, and memory holds its segments. -/
theorem C78_elf_result {x : Exe} {phoff : Nat} {off : Nat → Nat} {koff highmem : Option GuestAddr}
    {s s' : LS} {r : LoadResult} (hf : x.Fits) (hl : LaidOut x s.rd.data phoff off)
    (hlen : s.rd.data.length < ISZ) (h : elfLoad koff highmem s = (.ok r, s')) :
    r.kernelLoad = koffBase koff + x.entry ∧ IsMaxOf r.kernelEnd (x.ends koff) ∧
    r.setupHeader = none ∧ r.pvh = x.pvh koff ∧ SameLayout s.mem s'.mem ∧
    ∀ a, s'.mem.data a = (lastPiece (x.pieces koff) a).getD (s.mem.data a) := by
  obtain ⟨ho, hr, -⟩ := elfLoad_ok hlen h
  obtain ⟨-, -, hmax, -⟩ := C37_elf_result_fields hlen h
  obtain ⟨hs, hd⟩ := C35_elf_segments_in_place hlen h
  obtain ⟨hp1, hp2⟩ := laidOut_pieces hf hl hlen koff
  have hL := (laidOut_obstacles hf hl hlen koff highmem s.mem).1 ho
  obtain ⟨-, -, -, h4, -, -, -⟩ := laidOut_header hf hl
  rw [hp2] at hmax
  rw [hp1] at hd
  refine ⟨?_, hmax, ?_, ?_, hs, hd⟩
  · rw [hr, h4]
  · rw [hr]
  · rw [hr]; exact laidOut_pvh hf hl hlen hL

/-! ## The simplest file -/

theorem at_append_left {b v t : List UInt8} {o : Nat} (h : At b o v) (hv : o + v.length ≤ b.length) :
    At (b ++ t) o v := by
  unfold At at *
  rw [List.drop_append_of_le_length (by omega), List.take_append_of_le_length (by
    rw [List.length_drop]; omega)]
  exact h

theorem at_append_right {b v t : List UInt8} {o : Nat} (h : At t o v) : At (b ++ t) (b.length + o) v := by
  unfold At at *
  rw [List.drop_append, List.drop_of_length_le (by omega), List.nil_append]
  rw [show b.length + o - b.length = o by omega]
  exact h

/-- The `i`-th of some blocks put one after the other. -/
theorem flatMap_at {α : Type} (f : α → List UInt8) : ∀ (l : List α) (i : Nat) (a : α),
    l[i]? = some a → At (l.flatMap f) ((l.take i).flatMap f).length (f a) := by
  intro l
  induction l with
  | nil => intro i a h; cases h
  | cons b l ih =>
    intro i a h
    cases i with
    | zero =>
      simp only [List.getElem?_cons_zero, Option.some.injEq] at h
      subst h
      exact at_of_drop (t := l.flatMap f) (by simp)
    | succ i =>
      have := ih i a (by simpa using h)
      rw [List.flatMap_cons, List.take_succ_cons, List.flatMap_cons, List.length_append]
      exact at_append_right this

theorem flatMap_const_length {α : Type} (f : α → List UInt8) (k : Nat) (l : List α)
    (h : ∀ a ∈ l, (f a).length = k) : (l.flatMap f).length = k * l.length := by
  induction l with
  | nil => rfl
  | cons a l ih =>
    rw [List.flatMap_cons, List.length_append, h a (by simp), ih fun b hb => h b (by simp [hb]),
      List.length_cons, Nat.mul_succ]
    omega

/-- The length of the simplest file. -/
theorem link_length (x : Exe) (hi : x.ident.length = 10) :
    x.link.length = 64 + 56 * x.segs.length + (x.segs.flatMap (·.content.bytes)).length := by
  unfold Exe.link
  rw [List.length_append, List.length_append, exeHeader_length x 64 hi,
    flatMap_const_length _ 56 _ (fun p _ => segHeader_length _ _), List.length_zipIdx]

/-- **C78.** The simplest file is a layout of the executable. -/
theorem link_laidOut (x : Exe) (hf : x.Fits) (hlen : x.link.length < ISZ) :
    LaidOut x x.link 64 x.offset := by
  have hi := hf.ident
  have hh := exeHeader_length x 64 hi
  have hz : (x.segs.zipIdx.flatMap fun p => p.1.header (x.offset p.2)).length = 56 * x.segs.length := by
    rw [flatMap_const_length _ 56 _ (fun p _ => segHeader_length _ _), List.length_zipIdx]
  have hll := link_length x hi
  refine ⟨?_, Nat.le_refl _, fun i g hg => ?_, fun i g hg => ?_, by decide, fun i g hg => ?_⟩
  · exact at_of_drop (t := x.segs.zipIdx.flatMap (fun p => p.1.header (x.offset p.2)) ++
      x.segs.flatMap (·.content.bytes)) (by rw [List.drop_zero, Exe.link, List.append_assoc])
  · have h1 := flatMap_at (fun p : Seg × Nat => p.1.header (x.offset p.2)) x.segs.zipIdx i (g, i) (by
      rw [List.getElem?_zipIdx, hg]; simp)
    have h2 : ((x.segs.zipIdx.take i).flatMap fun p => p.1.header (x.offset p.2)).length = 56 * i := by
      rw [flatMap_const_length _ 56 _ (fun p _ => segHeader_length _ _), List.length_take,
        List.length_zipIdx, Nat.min_eq_left (Nat.le_of_lt (List.getElem?_eq_some_iff.1 hg).1)]
    rw [h2] at h1
    have hlt := (List.getElem?_eq_some_iff.1 hg).1
    unfold Exe.link
    refine at_append_left ?_ ?_
    · have := at_append_right (b := x.header 64) h1
      rwa [hh] at this
    · rw [List.length_append, hh, hz, segHeader_length]; omega
  · have h1 := flatMap_at (fun g : Seg => g.content.bytes) x.segs i g hg
    have := at_append_right (b := x.header 64 ++
      x.segs.zipIdx.flatMap (fun p => p.1.header (x.offset p.2))) h1
    rw [List.length_append, hh, hz] at this
    exact this
  · have : ((x.segs.take i).flatMap (·.content.bytes)).length ≤
        (x.segs.flatMap (·.content.bytes)).length := by
      conv => rhs; rw [← List.take_append_drop i x.segs, List.flatMap_append, List.length_append]
      omega
    unfold Exe.offset U64
    unfold ISZ at hlen
    omega

/-- A program: code with bss, an ignored segment, empty data, notes, data. -/
def demoExe : Exe where
  cls := 2
  ident := [1, 0, 0, 0, 0, 0, 0, 0, 0, 0]
  etype := 2
  machine := 62
  version := 1
  entry := 0x22
  eflags := 0
  ehsize := 64
  shoff := 0
  shentsize := 0
  shnum := 0
  shstrndx := 0
  segs := [⟨.load [0xa1, 0xa2, 0xa3, 0xa4], 5, 0, 0x20, 8, 4096⟩, ⟨.other 0x6474e551 [1, 2], 6, 0, 0, 0, 16⟩,
    ⟨.load [], 6, 0, 0x60, 16, 1⟩, ⟨.notes demoNotes, 4, 0, 0, 44, 4⟩, ⟨.load [0xb1], 6, 0, 0x30, 1, 1⟩]

theorem demoExe_fits : demoExe.Fits := by
  refine ⟨by decide, by decide, by decide, by decide, ?_, ?_⟩
  · intro g hg t bs h
    simp only [demoExe, List.mem_cons, List.not_mem_nil, or_false] at hg
    rcases hg with rfl | rfl | rfl | rfl | rfl <;> cases h
    decide
  · intro g hg ns h
    simp only [demoExe, List.mem_cons, List.not_mem_nil, or_false] at hg
    rcases hg with rfl | rfl | rfl | rfl | rfl <;> cases h
    intro n hn
    simp only [demoNotes, List.mem_cons, List.not_mem_nil, or_false] at hn
    rcases hn with rfl | rfl <;> unfold Note.Fits <;> decide

theorem demoExe_laidOut : LaidOut demoExe demoExe.link 64 demoExe.offset ∧ demoExe.link.length < ISZ :=
  ⟨link_laidOut _ demoExe_fits (by decide +kernel), by decide +kernel⟩

/-- It is loaded, and the result is what the executable says. -/
example : (elfLoad none (some 0x10) ⟨.cursor demoExe.link, elfMem⟩).1 =
      .ok ⟨0x22, 0x31, none, .present 0x1000000⟩ ∧
    demoExe.ends none = [0x28, 0x31] ∧ demoExe.pvh none = .present 0x1000000 ∧
    demoExe.pieces none = [(0x20, [0xa1, 0xa2, 0xa3, 0xa4]), (0x30, [0xb1])] := by decide +kernel

/-! ## C78 for bzImage -/

theorem at_bytes {b : List UInt8} {o n : Nat} {v : List UInt8} (h : At b o v) (hn : v.length = n) :
    (b.drop o).take n = v := by
  subst hn; exact h

section
variable {w : String → Nat} {kernel img : List UInt8}

theorem bzLaidOut_field (h : BzLaidOut w kernel img) {n : String} {o k : Nat}
    (hm : (n, o, k) ∈ setupHeaderDoc) : leField img o k = w n := by
  obtain ⟨h1, h2⟩ := h.fields _ hm
  rw [h2.field, Nat.mod_eq_of_lt h1]

theorem bzLaidOut_facts (h : BzLaidOut w kernel img) :
    BzMagicOk img ∧ bzVersion img = w "version" ∧ bzLoadflags img = w "loadflags" ∧
    bzCode32 img = w "code32_start" ∧ bzSetupBytes img ≤ img.length ∧ bzKernel img = kernel := by
  have hs : bzSetupSects img = w "setup_sects" := bzLaidOut_field h (by decide +kernel)
  refine ⟨?_, bzLaidOut_field h (by decide +kernel), bzLaidOut_field h (by decide +kernel),
    bzLaidOut_field h (by decide +kernel), ?_, ?_⟩
  · have := (h.fields ("header", 0x202, 4) (by decide +kernel)).2
    simp only at this
    rw [h.magic] at this
    unfold BzMagicOk
    rw [at_bytes this (leBytes_length 4 _)]
    decide
  · unfold bzSetupBytes; rw [hs]; exact h.sectors
  · unfold bzKernel bzSetupBytes; rw [hs]; exact h.kernel

end

/-- **C78.** A bzImage is loaded, by a reader without faults, iff its default address is at or above
`highmem` and the target range is mapped and does not end at `2^64`. -/
theorem C78_bz_accepted {w : String → Nat} {kernel : List UInt8} {koff highmem : Option GuestAddr} {s : LS}
    (hl : BzLaidOut w kernel s.rd.data) (hff : FaultFree s) :
    (∃ r, (bzLoad koff highmem s).1 = .ok r) ↔
      (∀ h, highmem = some h → h.toNat ≤ w "code32_start") ∧
      Accessible s.mem (bzTarget w koff) kernel.length ∧ bzTarget w koff + kernel.length < U64 := by
  obtain ⟨h1, h2, h3, h4, h5, h6⟩ := bzLaidOut_facts hl
  have ht : bzAddress s.rd.data koff = bzTarget w koff := by
    cases koff with
    | none => exact h4
    | some k => rfl
  rw [(C54_bz_outcome_exact hff).1, firstObstacle_none_iff]
  unfold bzObstacles
  rw [ht, h6, h4, h3, h2]
  simp only [List.mem_cons, List.not_mem_nil, or_false]
  constructor
  · intro ho
    refine ⟨fun h hh => ?_, ?_, ?_⟩
    · have := ho _ (.inr (.inr (.inl rfl)))
      exact Nat.le_of_not_lt fun hn => this ⟨h, hh, hn⟩
    · have := ho _ (.inr (.inr (.inr (.inl rfl))))
      exact Classical.byContradiction this
    · have := ho _ (.inr (.inr (.inr (.inr rfl))))
      exact Nat.lt_of_not_le this
  · rintro ⟨g1, g2, g3⟩ o (rfl | rfl | rfl | rfl | rfl)
    · have := hl.version
      have := hl.loadHigh
      rintro (hn | hn | hn)
      · exact hn h1
      · omega
      · omega
    · exact Nat.not_lt.2 h5
    · rintro ⟨h, hh, hn⟩
      exact absurd hn (Nat.not_lt.2 (g1 h hh))
    · exact fun hn => hn g2
    · exact Nat.not_le.2 g3

/-- **C78.** The result of a load whose reader does not deliver short: the address, the end, the kernel
in memory and nothing else changed, and a setup header with all the values of the image but
`code32_start`, which is the (low half of the) address. -/
theorem C78_bz_result {w : String → Nat} {kernel : List UInt8} {koff highmem : Option GuestAddr}
    {s s' : LS} {r : LoadResult} (hl : BzLaidOut w kernel s.rd.data) (hns : NoShortReads s)
    (h : bzLoad koff highmem s = (.ok r, s')) :
    r.kernelLoad = bzTarget w koff ∧ r.kernelEnd = bzTarget w koff + kernel.length ∧ r.pvh = .ignored ∧
    Stored s.mem s'.mem (bzTarget w koff) kernel ∧
    ∃ hdr, r.setupHeader = some hdr ∧ hdr.length = 123 ∧
      ∀ p ∈ setupHeaderDoc, leField hdr (p.2.1 - 0x1f1) p.2.2 =
        if p.1 = "code32_start" then bzTarget w koff % 0x100000000 else w p.1 := by
  obtain ⟨-, -, -, h4, -, h6⟩ := bzLaidOut_facts hl
  have ht : bzAddress s.rd.data koff = bzTarget w koff := by
    cases koff with
    | none => exact h4
    | some k => rfl
  obtain ⟨-, hr, hm⟩ := bzLoad_ok hns h
  obtain ⟨k1, -, -, -, -, -⟩ := C47_bz_kernel_in_place h
  obtain ⟨hdr, e1, e2, e3, e4⟩ := C48_bz_setup_header hns h
  have hk : r.kernelLoad = bzTarget w koff := by rw [hr, ← ht]
  rw [hk, h6] at k1
  refine ⟨hk, by rw [hr, ← ht, h6], by rw [hr], k1, hdr, e1, e2, fun p hp => ?_⟩
  have hshape : ∀ p ∈ setupHeaderDoc, 0x1f1 ≤ p.2.1 ∧ p.2.1 + p.2.2 ≤ 0x1f1 + 123 ∧
      ((p.1 = "code32_start" ∧ p.2.1 = 0x214 ∧ p.2.2 = 4) ∨
        (p.1 ≠ "code32_start" ∧ (p.2.1 + p.2.2 ≤ 0x214 ∨ 0x218 ≤ p.2.1))) := by decide +kernel
  obtain ⟨s1, s2, ⟨s3, s4, s5⟩ | ⟨s3, s4⟩⟩ := hshape p hp
  · rw [if_pos s3, s4, s5, ← hk]
    exact e4
  · rw [if_neg s3, ← bzLaidOut_field hl hp]
    refine congrArg leNat ?_
    apply List.ext_getElem?
    intro i
    rw [List.getElem?_take, List.getElem?_take]
    by_cases hi : i < p.2.2
    · rw [if_pos hi, if_pos hi, List.getElem?_drop, List.getElem?_drop, e3 _ (by omega) (by omega)]
      rw [show 0x1f1 + (p.2.1 - 0x1f1 + i) = p.2.1 + i by omega]
    · rw [if_neg hi, if_neg hi]

/-- The values of the demo image. -/
def demoBzValues : String → Nat := fun n =>
  match setupHeaderDoc.lookup n with
  | some (o, k) => leField demoBz o k
  | none => 0

theorem demoBz_laidOut : BzLaidOut demoBzValues [0xb1, 0xb2, 0xb3, 0xb4, 0xb5] demoBz := by
  constructor <;> decide +kernel

example : bzTarget demoBzValues none = 0x40 ∧ Accessible elfMem 0x40 5 := by
  refine ⟨by decide +kernel, ?_, fun h => by cases h⟩
  intro i hi
  have : ∀ i < 0x45, 0x40 ≤ i → elfMem.mapped i = true := by decide +kernel
  unfold InRange at hi
  exact this i (by omega) hi.1

/-! ## C78 for PE images -/

section
variable {arch : PeArch} {w : String → Nat} {img : List UInt8}

theorem peLaidOut_field (h : PeLaidOut arch w img) {n : String} {o k : Nat}
    (hm : (n, o, k) ∈ peDoc arch) : leField img o k = w n := by
  obtain ⟨h1, h2⟩ := h.fields _ hm
  rw [h2.field, Nat.mod_eq_of_lt h1]

theorem peLaidOut_facts (h : PeLaidOut arch w img) :
    64 ≤ img.length ∧ PeMagicOk arch img ∧ ∀ koff, peAddress arch img koff = peTarget arch w koff := by
  cases arch with
  | arm64 =>
    refine ⟨?_, ?_, fun koff => ?_⟩
    · have := (h.fields ("res5", 60, 4) (by decide +kernel)).2.bound
        (fun h => by have := congrArg List.length h; rw [leBytes_length] at this; cases this)
      rw [leBytes_length] at this
      exact this
    · have := (h.fields ("magic", 56, 4) (by decide +kernel)).2
      simp only at this
      rw [show w "magic" = _ from h.magic] at this
      unfold PeMagicOk
      rw [at_bytes this (leBytes_length 4 _)]
      decide
    · unfold peAddress peTarget peOffset
      rw [peLaidOut_field h (n := "image_size") (by decide +kernel),
        peLaidOut_field h (n := "text_offset") (by decide +kernel)]
  | riscv64 =>
    refine ⟨?_, ?_, fun koff => ?_⟩
    · have := (h.fields ("res3", 60, 4) (by decide +kernel)).2.bound
        (fun h => by have := congrArg List.length h; rw [leBytes_length] at this; cases this)
      rw [leBytes_length] at this
      exact this
    · have := (h.fields ("magic2", 56, 4) (by decide +kernel)).2
      simp only at this
      rw [show w "magic2" = _ from h.magic] at this
      unfold PeMagicOk
      rw [at_bytes this (leBytes_length 4 _)]
      decide
    · unfold peAddress peTarget peOffset
      rw [peLaidOut_field h (n := "image_size") (by decide +kernel),
        peLaidOut_field h (n := "text_offset") (by decide +kernel)]

end

/-- **C78.** An `Image` is loaded, by a reader without faults, iff `kernel_offset` is a multiple of 2 MiB
and the target range is mapped and does not end at `2^64`. -/
theorem C78_pe_accepted {arch : PeArch} {w : String → Nat} {koff highmem : Option GuestAddr} {s : LS}
    (hl : PeLaidOut arch w s.rd.data) (hff : FaultFree s) :
    (∃ r, (peLoad arch koff highmem s).1 = .ok r) ↔
      (∀ k, koff = some k → k.toNat % 0x200000 = 0) ∧
      Mapped s.mem (peTarget arch w koff) s.rd.data.length ∧
      peTarget arch w koff + s.rd.data.length < U64 := by
  obtain ⟨h1, h2, h3⟩ := peLaidOut_facts hl
  rw [(C54_pe_outcome_exact hff).1, firstObstacle_none_iff]
  unfold peObstacles
  rw [h3]
  simp only [List.mem_cons, List.not_mem_nil, or_false]
  constructor
  · intro ho
    refine ⟨fun k hk => ?_, ?_, ?_⟩
    · have := ho _ (.inr (.inr (.inl rfl)))
      exact Classical.byContradiction fun hn => this ⟨k, hk, hn⟩
    · exact Classical.byContradiction (ho _ (.inr (.inr (.inr (.inr (.inl rfl))))))
    · exact Nat.lt_of_not_le (ho _ (.inr (.inr (.inr (.inr (.inr rfl))))))
  · rintro ⟨g1, g2, g3⟩ o (rfl | rfl | rfl | rfl | rfl | rfl)
    · exact Nat.not_lt.2 h1
    · exact fun hn => hn h2
    · rintro ⟨k, hk, hn⟩
      exact hn (g1 k hk)
    · show ¬ _ ≤ _
      omega
    · exact fun hn => hn g2
    · exact Nat.not_le.2 g3

/-- **C78.** The result of a load: address, end, and the whole image in memory. -/
theorem C78_pe_result {arch : PeArch} {w : String → Nat} {koff highmem : Option GuestAddr} {s s' : LS}
    {r : LoadResult} (hl : PeLaidOut arch w s.rd.data) (h : peLoad arch koff highmem s = (.ok r, s')) :
    r.kernelLoad = peTarget arch w koff ∧ r.kernelEnd = peTarget arch w koff + s.rd.data.length ∧
    r.setupHeader = none ∧ r.pvh = .ignored ∧ Stored s.mem s'.mem (peTarget arch w koff) s.rd.data := by
  obtain ⟨-, -, h3⟩ := peLaidOut_facts hl
  obtain ⟨-, hr, -⟩ := peLoad_ok h
  obtain ⟨k1, -, -, -, -, -, -⟩ := C51_pe_image_in_place h
  have hk : r.kernelLoad = peTarget arch w koff := by rw [hr, h3]
  rw [hk] at k1
  exact ⟨hk, by rw [hr, h3], by rw [hr], by rw [hr], k1⟩

/-- The values of a demo image. -/
def demoPeValues (arch : PeArch) (img : List UInt8) : String → Nat := fun n =>
  match (peDoc arch).lookup n with
  | some (o, k) => leField img o k
  | none => 0

example : PeLaidOut .arm64 (demoPeValues .arm64 (mkPe 0x10 1 0x644d5241)) (mkPe 0x10 1 0x644d5241) ∧
    PeLaidOut .riscv64 (demoPeValues .riscv64 (mkPe 0x10 1 0x05435352)) (mkPe 0x10 1 0x05435352) := by
  refine ⟨⟨?_, ?_⟩, ⟨?_, ?_⟩⟩ <;> decide +kernel

example : peTarget .arm64 (demoPeValues .arm64 (mkPe 0x10 1 0x644d5241)) (some 0x200000) = 0x200010 ∧
    peTarget .arm64 (demoPeValues .arm64 (mkPe 0x10 0 0x644d5241)) none = 0x80000 ∧
    peTarget .riscv64 (demoPeValues .riscv64 (mkPe 0x10 0 0x05435352)) none = 0x10 := by decide +kernel

/-! The theorems applied to these images. -/

example := C78_elf_accepted (koff := none) (highmem := some 0x10) (s := ⟨⟨demoExe.link, 5, fun _ => .ok, 0⟩, elfMem⟩)
  demoExe_fits demoExe_laidOut.1 demoExe_laidOut.2 (fun _ => rfl)

example := C78_elf_result (koff := none) (highmem := some 0x10) (s := ⟨.cursor demoExe.link, elfMem⟩)
  (r := ⟨0x22, 0x31, none, .present 0x1000000⟩)
  demoExe_fits demoExe_laidOut.1 demoExe_laidOut.2 (ran (by decide +kernel))

example := C78_bz_accepted (koff := some 0x80) (highmem := none) (s := bzState) demoBz_laidOut bzState_ff

example := C78_bz_result demoBz_laidOut bzState_full (ran demoBz_loads_offset)

theorem demoPe_laidOut : PeLaidOut .arm64 (demoPeValues .arm64 (mkPe 0x10 1 0x644d5241)) (mkPe 0x10 1 0x644d5241) := by
  refine ⟨?_, ?_⟩ <;> decide +kernel

example := C78_pe_accepted (koff := some 0x200000) (highmem := none)
  (s := ⟨⟨mkPe 0x10 1 0x644d5241, 3, fun _ => .ok, 0⟩, peMem⟩) demoPe_laidOut (fun _ => rfl)

example := C78_pe_result demoPe_laidOut (ran demoPe_loads.1)

end LinuxLoader
