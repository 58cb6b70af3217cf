import Verif.Spec.Probe
import Verif.Lemmas.Shift
import Verif.Props.Pe

/-!
# Probing the format of an image (C81)

Vocabulary: `Spec/Probe.lean`.
-/

namespace LinuxLoader
open Spec

/-! ## Facts about single loaders -/

theorem load_shift (koff highmem : Option GuestAddr) (f : Format) : Shift (f.load koff highmem) := by
  cases f with
  | elf => exact shift_elfLoad _ _
  | bz => exact shift_bzLoad _ _
  | pe arch => exact shift_peLoad arch koff highmem

/-- No loader changes image or schedule. -/
theorem load_reader (koff highmem : Option GuestAddr) (f : Format) (s : LS) :
    (f.load koff highmem s).2.rd.data = s.rd.data ∧ (f.load koff highmem s).2.rd.sched = s.rd.sched := by
  cases f with
  | elf => exact (good_elfLoad _ _).data s
  | pe arch => exact (good_peLoad arch koff highmem).data s
  | bz =>
    have hv : ∀ n (e : LoadError) (s : LS), (readVolatile n e s).2.rd.data = s.rd.data ∧
        (readVolatile n e s).2.rd.sched = s.rd.sched := by
      intro n e s
      unfold readVolatile
      split <;> exact ⟨rfl, rfl⟩
    have hb : ∀ {α β : Type} {x : LM LS LoadError α} {g : α → LM LS LoadError β},
        (∀ s, (x s).2.rd.data = s.rd.data ∧ (x s).2.rd.sched = s.rd.sched) →
        (∀ a s, (g a s).2.rd.data = s.rd.data ∧ (g a s).2.rd.sched = s.rd.sched) →
        ∀ s, ((x >>= g) s).2.rd.data = s.rd.data ∧ ((x >>= g) s).2.rd.sched = s.rd.sched := by
      intro α β x g hx hg s
      have h1 := hx s
      rw [LM.bind_def]
      rcases hxs : x s with ⟨r, s'⟩
      rw [hxs] at h1
      cases r with
      | ok a => exact ⟨(hg a s').1.trans h1.1, (hg a s').2.trans h1.2⟩
      | err e => exact h1
      | panic => exact h1
    exact hb (Good.seekEnd _).data (fun _ => hb (Good.seekStart _ _).data fun _ => hb (hv _ _)
      fun _ => (good_bzRest _ _ _ _).data) s

/-- No loader depends on the position. -/
theorem load_position (koff highmem : Option GuestAddr) (f : Format) (s t : LS)
    (hd : t.rd.data = s.rd.data) (hs : t.rd.sched = s.rd.sched) (hc : t.rd.clock = s.rd.clock)
    (hm : t.mem = s.mem) :
    (f.load koff highmem t).1 = (f.load koff highmem s).1 ∧
    (f.load koff highmem t).2.mem = (f.load koff highmem s).2.mem := by
  cases f with
  | elf => exact C45_elf_position_irrelevant _ _ s t hd hs hc hm
  | bz => exact C45_bz_position_irrelevant _ _ s t hd hs hc hm
  | pe arch => exact C45_pe_position_irrelevant arch koff highmem s t hd hs hc hm

theorem elf_unrecognised {koff highmem : Option GuestAddr} {s : LS} (h : ¬ ElfHeaderOk s.rd.data) :
    (∃ e, (elfLoad koff highmem s).1 = .err e) ∧ (elfLoad koff highmem s).2.mem = s.mem := by
  unfold elfLoad
  by_cases f0 : ioFails s = true
  · rw [LM.bind_err (e := .elf .seekElfStart) (s' := { s with rd := s.rd.tick s.rd.pos }) (by
      unfold seekStart; rw [if_pos f0])]
    exact ⟨⟨_, rfl⟩, rfl⟩
  rw [LM.bind_ok (a := ()) (s' := { s with rd := s.rd.tick 0 }) (by unfold seekStart; rw [if_neg f0])]
  generalize hs1 : ({ s with rd := s.rd.tick 0 } : LS) = s1
  have e1 : s1.rd.rest = s.rd.data ∧ s1.mem = s.mem := by subst hs1; exact ⟨rfl, rfl⟩
  by_cases f1 : ioFails s1 = true ∨ s1.rd.rest.length < 64
  · rw [LM.bind_err (e := .elf .readElfHeader) (s' := { s1 with rd := s1.rd.tick s1.rd.pos }) (by
      unfold readExact; rw [if_pos f1])]
    exact ⟨⟨_, rfl⟩, e1.2⟩
  rw [LM.bind_ok (a := s1.rd.rest.take 64) (s' := { s1 with rd := s1.rd.tick (s1.rd.pos + 64) }) (by
    unfold readExact; rw [if_neg f1])]
  rw [not_or, e1.1] at f1
  rw [e1.1]
  rcases validate_cases s.rd.data koff highmem (by omega) with ⟨h1, -⟩ | ⟨e, he, -⟩
  · exact absurd h1 h
  · rw [LM.bind_err (e := e) (s' := { s1 with rd := s1.rd.tick (s1.rd.pos + 64) }) (by
      rw [he]; rfl)]
    exact ⟨⟨_, rfl⟩, e1.2⟩

/-! ## C81 -/

/-- **C81.** Whatever the reader does: a loader that does not recognise the header of the image fails
and leaves guest memory (and, the position aside, the reader) as it was. -/
theorem C81_unrecognised (koff highmem : Option GuestAddr) (f : Format) (s : LS)
    (h : ¬ f.Recognises s.rd.data) :
    (∃ e, (f.load koff highmem s).1 = .err e) ∧ (f.load koff highmem s).2.mem = s.mem ∧
    (f.load koff highmem s).2.rd.data = s.rd.data ∧
    (f.load koff highmem s).2.rd.sched = s.rd.sched := by
  suffices hh : (∃ e, (f.load koff highmem s).1 = .err e) ∧ (f.load koff highmem s).2.mem = s.mem by
    exact ⟨hh.1, hh.2, load_reader koff highmem f s⟩
  cases f with
  | elf => exact elf_unrecognised h
  | bz =>
    refine C46_bz_rejects (Classical.byContradiction fun hn => h ?_)
    unfold BzInvalid at hn
    simp only [not_or] at hn
    obtain ⟨h1, h2, h3, h4⟩ := hn
    exact ⟨Classical.byContradiction h1, by omega, by omega, by omega⟩
  | pe arch =>
    refine C52_pe_rejects (highmem := highmem) (Classical.byContradiction fun hn => h ?_)
    simp only [not_or] at hn
    exact ⟨by omega, Classical.byContradiction hn.2.1⟩

/-- **C81.** A loader that succeeds has recognised the image. -/
theorem C81_recognised {koff highmem : Option GuestAddr} {f : Format} {s : LS} {r : LoadResult}
    (h : (f.load koff highmem s).1 = .ok r) : f.Recognises s.rd.data := by
  refine Classical.byContradiction fun hn => ?_
  obtain ⟨⟨e, he⟩, -⟩ := C81_unrecognised koff highmem f s hn
  rw [h] at he
  cases he

/-- **C81.** Whatever the reader does: putting loaders in front that do not recognise the image has the
effect of letting some I/O events pass: the others start with the same image, guest memory and faults,
and the reader's position does not matter to them. -/
theorem C81_probe_skips (koff highmem : Option GuestAddr) (pre post : List Format) (s : LS)
    (hpre : ∀ f ∈ pre, ¬ f.Recognises s.rd.data) :
    ∃ p c, let t : LS := ⟨⟨s.rd.data, p, s.rd.sched, c⟩, s.mem⟩
      probe koff highmem (pre ++ post) s = probe koff highmem post t ∧
      ∀ f : Format, (f.load koff highmem t).1 =
          (f.load koff highmem ⟨⟨s.rd.data, s.rd.pos, s.rd.sched, c⟩, s.mem⟩).1 ∧
        (f.load koff highmem t).2.mem =
          (f.load koff highmem ⟨⟨s.rd.data, s.rd.pos, s.rd.sched, c⟩, s.mem⟩).2.mem := by
  suffices hh : ∃ p c, probe koff highmem (pre ++ post) s =
      probe koff highmem post ⟨⟨s.rd.data, p, s.rd.sched, c⟩, s.mem⟩ by
    obtain ⟨p, c, hp⟩ := hh
    exact ⟨p, c, hp, fun f => load_position koff highmem f _ _ rfl rfl rfl rfl⟩
  induction pre generalizing s with
  | nil => exact ⟨s.rd.pos, s.rd.clock, rfl⟩
  | cons f pre ih =>
    obtain ⟨⟨e, he⟩, hm, hd, hs⟩ := C81_unrecognised koff highmem f s (hpre f (.head _))
    rcases hx : f.load koff highmem s with ⟨r, s'⟩
    rw [hx] at he hm hd hs
    simp only at he hm hd hs
    subst he
    obtain ⟨p, c, hp⟩ := ih s' fun g hg => by rw [hd]; exact hpre g (.tail _ hg)
    rw [hd, hs, hm] at hp
    refine ⟨p, c, ?_⟩
    rw [List.cons_append, probe, hx]
    exact hp

/-- **C81.** On a reader without faults the first loader that recognises the image is the one that
counts: if it succeeds on its own, probing gives its result and its effect on guest memory. -/
theorem C81_probe_first {koff highmem : Option GuestAddr} {pre post : List Format} {f : Format}
    {s s' : LS} {r : LoadResult} (hff : FaultFree s) (hpre : ∀ g ∈ pre, ¬ g.Recognises s.rd.data)
    (h : f.load koff highmem s = (.ok r, s')) :
    (probe koff highmem (pre ++ f :: post) s).1 = some (f, r) ∧
    (probe koff highmem (pre ++ f :: post) s).2.mem = s'.mem := by
  obtain ⟨p, c, hp, hl⟩ := C81_probe_skips koff highmem pre (f :: post) s hpre
  have hl := hl f
  obtain ⟨h1, h2⟩ := load_shift koff highmem f s ⟨⟨s.rd.data, s.rd.pos, s.rd.sched, c⟩, s.mem⟩
    ⟨rfl, rfl, rfl, fun i => by show s.rd.sched _ = s.rd.sched _; rw [hff, hff]⟩
  rw [h] at h1 h2
  rw [hp, probe]
  rw [h1, h2.2.2.1] at hl
  rcases hx : f.load koff highmem ⟨⟨s.rd.data, p, s.rd.sched, c⟩, s.mem⟩ with ⟨r', t'⟩
  rw [hx] at hl
  obtain ⟨rfl, hm⟩ := hl
  exact ⟨rfl, hm⟩

/-- **C81.** If no loader recognises the image, probing fails and guest memory is unchanged, whatever
the reader does. -/
theorem C81_probe_none (koff highmem : Option GuestAddr) (fs : List Format) (s : LS)
    (h : ∀ f ∈ fs, ¬ f.Recognises s.rd.data) :
    (probe koff highmem fs s).1 = none ∧ (probe koff highmem fs s).2.mem = s.mem := by
  obtain ⟨p, c, hp, -⟩ := C81_probe_skips koff highmem fs [] s h
  rw [List.append_nil] at hp
  rw [hp]
  exact ⟨rfl, rfl⟩

/-- An ELF header without program headers in front of a bzImage. -/
def polyglot : List UInt8 := mkEhdr 0x10 64 56 0 ++ demoBz.drop 64

/-- **C81.** The order matters: there are images which both `Elf::load` and `BzImage::load` accept, with
different results. -/
theorem C81_order_matters : ∃ (s : LS) (r₁ r₂ : LoadResult), FaultFree s ∧ r₁ ≠ r₂ ∧
    (probe none none [.elf, .bz] s).1 = some (.elf, r₁) ∧
    (probe none none [.bz, .elf] s).1 = some (.bz, r₂) :=
  ⟨⟨.cursor polyglot, elfMem⟩, ⟨0x10, 0, none, .ignored⟩,
    ⟨0x40, 0x45, some (mkBzHdr 1 0x53726448 0x20f 1 0x40), .ignored⟩, fun _ => rfl, by decide +kernel⟩

/-- The demo bzImage is not recognised by `Elf::load`, and trying both gives the bzImage. -/
example : ¬ Format.elf.Recognises demoBz ∧ ¬ (Format.pe .arm64).Recognises demoBz ∧
    (probe none none [.elf, .pe .arm64, .bz] bzState).1 =
      some (.bz, ⟨0x40, 0x45, some (mkBzHdr 1 0x53726448 0x20f 1 0x40), .ignored⟩) :=
  ⟨fun h => absurd h.magic (by decide +kernel), fun h => absurd h.2 (by decide +kernel), by
    decide +kernel⟩

/-- The theorems applied: formats that do not recognise the demo image, then the one that does. -/
theorem demoBz_unrecognised : ∀ f ∈ [Format.elf, .pe .arm64], ¬ f.Recognises demoBz := by
  rintro f (_ | ⟨_, _ | ⟨_, ⟨⟩⟩⟩)
  · exact fun h => absurd h.magic (by decide +kernel)
  · exact fun h => absurd h.2 (by decide +kernel)

example := C81_unrecognised none (some 0x30) .elf bzState (demoBz_unrecognised _ (.head _))

example := C81_recognised (f := .bz) demoBz_loads

example := C81_probe_skips none (some 0x30) [.elf, .pe .arm64] [.bz] bzState demoBz_unrecognised

example := C81_probe_first (post := [.pe .riscv64]) (f := .bz) bzState_ff demoBz_unrecognised (ran demoBz_loads)

example := C81_probe_none none (some 0x30) [.elf, .pe .arm64] bzState demoBz_unrecognised

end LinuxLoader
