import Verif.Lemmas.RawLoaders
import Verif.Props.BzImage
import Verif.Props.Pe

/-!
# Readers, one system call at a time (C70)

`Model/RawIo.lean` has the loops of std and vm-memory, `Model/IoLoaders.lean` the loaders over them.
Vocabulary: `Spec/RawIo.lean`.
-/

namespace LinuxLoader
open Spec

/-- **C70.** The loaders with the operations as a parameter are the loaders. -/
theorem C70_same_code (arch : PeArch) (k h : Option GuestAddr) (a : GuestAddr) :
    G.elfLoad contractIo k h = elfLoad k h ∧ G.bzLoad contractIo k h = bzLoad k h ∧
    G.peLoad contractIo arch k h = peLoad arch k h ∧ G.loadDtb contractIo a = loadDtb a :=
  ⟨same_elfLoad k h, same_bzLoad k h, same_peLoad arch k h, same_loadDtb a⟩

theorem Refines.covered {ε α : Type} {cfg : RawCfg} {vol : Bool} {x : LM RawLS ε α} {y : LM LS ε α}
    (h : Refines cfg vol x y) : CoveredBy cfg x y := by
  intro s hm hh
  obtain ⟨es, he, hrun⟩ := h.run s hm hh
  obtain ⟨h1, h2, -⟩ := hrun (fun i => es[i]?.getD .ok) 0 fun i e hi => by
    rw [Nat.zero_add, hi]; rfl
  have mem : ∀ (i : Nat) (ev : IoEvent), es[i]?.getD .ok = ev → ev ≠ .ok → ev ∈ es := by
    intro i ev hi hne
    cases hg : es[i]? with
    | none => rw [hg] at hi; exact absurd hi.symm hne
    | some e => rw [hg] at hi; cases hi; exact List.mem_of_getElem? hg
  refine ⟨fun i => es[i]?.getD .ok, h1, h2, fun hf i => ?_, fun hc i w hw => ?_⟩
  · cases hev : es[i]?.getD .ok with
    | ok => exact .inl hev
    | fail k => exact .inr ⟨k, hev⟩
    | short k => exact absurd hf (he _ (mem i _ hev (by simp))).1
    | scatter w => exact absurd hf (he _ (mem i _ hev (by simp))).1
  · obtain ⟨-, hs, hr⟩ := he _ (mem i _ hw (by simp))
    rcases hc with hc | hc
    · rw [hs] at hc; cases hc
    · omega

theorem Refines.undisturbed {ε α : Type} {cfg : RawCfg} {vol : Bool} {x : LM RawLS ε α} {y : LM LS ε α}
    (h : Refines cfg vol x y) (s : RawLS) (hm : s.mem.emptyOk = cfg.slices) (hh : (x s).2.hung = false)
    (hs : s.Smooth) (hc : cfg.slices = false ∨ s.Full) (hv : vol = false ∨ s.Full) :
    (y (s.with fun _ => .ok)).1 = (x s).1 ∧ (y (s.with fun _ => .ok)).2.mem = (x s).2.mem := by
  obtain ⟨es, he, hrun⟩ := h.run s hm hh
  obtain ⟨h1, h2, -⟩ := hrun (fun _ => .ok) 0 fun i e hi => by
    have := he e (List.mem_of_getElem? hi)
    cases e with
    | ok => rfl
    | fail k => exact absurd ⟨hs, hc⟩ this
    | short k =>
      rcases hv with hv | hv
      · rw [this.2] at hv; cases hv
      · exact absurd hv this.1
    | scatter w =>
      rcases hc with hc | hc
      · rw [this.2.1] at hc; cases hc
      · exact absurd hc this.1
  exact ⟨h1, h2⟩

/-- **C70.** Whatever the single calls of `read` and `seek` do — short reads, interruptions, errors —
a load that ends is one of those described by the contract that all other theorems quantify over. -/
theorem C70_runs (cfg : RawCfg) (arch : PeArch) (k h : Option GuestAddr) (a : GuestAddr) :
    CoveredBy cfg (G.elfLoad (rawIo cfg) k h) (elfLoad k h) ∧
    CoveredBy cfg (G.bzLoad (rawIo cfg) k h) (bzLoad k h) ∧
    CoveredBy cfg (G.peLoad (rawIo cfg) arch k h) (peLoad arch k h) ∧
    CoveredBy cfg (G.loadDtb (rawIo cfg) a) (loadDtb a) :=
  ⟨(Refines.elfLoad (vol := false) k h).covered, (Refines.bzLoad k h).covered,
   (Refines.peLoad (vol := false) arch k h).covered, (Refines.loadDtb (vol := false) a).covered⟩

/-- **C70.** Short reads alone do not disturb the ELF, PE and DTB loaders. -/
theorem C70_short_reads (cfg : RawCfg) (arch : PeArch) (k h : Option GuestAddr) (a : GuestAddr) :
    Undisturbed cfg (G.elfLoad (rawIo cfg) k h) (elfLoad k h) ∧
    Undisturbed cfg (G.peLoad (rawIo cfg) arch k h) (peLoad arch k h) ∧
    Undisturbed cfg (G.loadDtb (rawIo cfg) a) (loadDtb a) :=
  ⟨fun s hm hh hs hc => (Refines.elfLoad (vol := false) k h).undisturbed s hm hh hs hc (.inl rfl),
   fun s hm hh hs hc => (Refines.peLoad (vol := false) arch k h).undisturbed s hm hh hs hc (.inl rfl),
   fun s hm hh hs hc => (Refines.loadDtb (vol := false) a).undisturbed s hm hh hs hc (.inl rfl)⟩

/-- **C70.** The bzImage loader needs full reads for this (see C57 for what else happens). -/
theorem C70_bz_full_reads (cfg : RawCfg) (k h : Option GuestAddr) (s : RawLS)
    (hm : s.mem.emptyOk = cfg.slices) (hh : (G.bzLoad (rawIo cfg) k h s).2.hung = false)
    (hs : s.Smooth) (hf : s.Full) :
    (bzLoad k h (s.with fun _ => .ok)).1 = (G.bzLoad (rawIo cfg) k h s).1 ∧
    (bzLoad k h (s.with fun _ => .ok)).2.mem = (G.bzLoad (rawIo cfg) k h s).2.mem :=
  (Refines.bzLoad k h).undisturbed s hm hh hs (.inr hf) (.inr hf)

theorem success_of_good {ε α : Type} {cfg : RawCfg} {x : LM RawLS ε α} {y : LM LS ε α}
    (h : CoveredBy cfg x y) (hg : Good y) : SuccessFaultFree cfg x y := by
  intro s hm hh a ha
  obtain ⟨sched, h1, h2, -, -⟩ := h s hm hh
  rcases hy : y (s.with sched) with ⟨r, s'⟩
  rw [hy] at h1 h2
  dsimp only at h1 h2
  rw [ha] at h1
  subst h1
  obtain ⟨t', j1, ⟨-, -, j2⟩, -⟩ := hg.ok (s.with sched) (s.with fun _ => .ok) a s' ⟨rfl, rfl, rfl⟩ (fun _ => rfl) hy
  rw [j1]
  exact ⟨rfl, j2.symm.trans h2⟩

/-- **C70.** A load that succeeds in spite of everything is as good as one without faults. -/
theorem C70_success (cfg : RawCfg) (arch : PeArch) (k h : Option GuestAddr) (a : GuestAddr) :
    SuccessFaultFree cfg (G.elfLoad (rawIo cfg) k h) (elfLoad k h) ∧
    SuccessFaultFree cfg (G.peLoad (rawIo cfg) arch k h) (peLoad arch k h) ∧
    SuccessFaultFree cfg (G.loadDtb (rawIo cfg) a) (loadDtb a) := by
  obtain ⟨h1, -, h3, h4⟩ := C70_runs cfg arch k h a
  exact ⟨success_of_good h1 (good_elfLoad k h), success_of_good h3 (good_peLoad arch k h),
    success_of_good h4 (good_loadDtb a)⟩

/-- **C70.** All loaders end if calls are not interrupted for ever. -/
theorem C70_terminates (slices : Bool) (arch : PeArch) (k h : Option GuestAddr) (a : GuestAddr) :
    Terminates slices (fun cfg => G.elfLoad (rawIo cfg) k h) ∧
    Terminates slices (fun cfg => G.bzLoad (rawIo cfg) k h) ∧
    Terminates slices (fun cfg => G.peLoad (rawIo cfg) arch k h) ∧
    Terminates slices (fun cfg => G.loadDtb (rawIo cfg) a) := by
  have key : ∀ {ε α : Type} {x : RawCfg → LM RawLS ε α}, Stops slices x → Terminates slices x :=
    fun hx s hs hr => by
      obtain ⟨F, r, h1, h2, -⟩ := hx s hs hr
      exact ⟨F, r, h2, h1⟩
  exact ⟨key (Stops.elfLoad k h), key (Stops.bzLoad k h), key (Stops.peLoad arch k h),
    key (Stops.loadDtb a)⟩

/-- A small ELF image with one segment of four bytes. -/
def tinyElf : List UInt8 := mkEhdr 0x10 64 56 1 ++ mkPhdr 1 120 0x20 4 8 ++ [0xa1, 0xa2, 0xa3, 0xa4]

/-- Memory with a region boundary in the middle of the segment. -/
def tinyState (slices : Bool) (raw : Nat → RawEvent) : RawLS :=
  ⟨tinyElf, 7, raw, 0, false, ⟨[⟨0, 0x22⟩, ⟨0x22, 0x100⟩], fun _ => 0, slices⟩⟩

/-- A reader that is interrupted once while the header is read, and has two short reads. -/
def roughRaw (i : Nat) : RawEvent :=
  if i = 1 then .intr else if i = 2 then .give 30 else if i = 7 then .give 0 else .give 199

/-- Non-vacuity: with `try_access` the load survives this. -/
example : let r := G.elfLoad (rawIo ⟨9, false⟩) none none (tinyState false roughRaw)
    r.2.hung = false ∧ r.1.isOk = true ∧
    (List.range 4).map (fun i => r.2.mem.data (0x20 + i)) = [0xa1, 0xa2, 0xa3, 0xa4] := by
  decide +kernel

/-- Such a reader recovers; one without the interruption is smooth. -/
example (b : Bool) : (tinyState b roughRaw).Recovers ∧ (tinyState b fun i => .give (i % 3)).Smooth :=
  ⟨fun i => ⟨i + 2, by omega, by
      dsimp only [tinyState, roughRaw]
      rw [if_neg (by omega)]
      split
      · simp
      · split <;> simp⟩,
   fun i => ⟨i % 3, rfl⟩⟩

/-- With too small a bound the loop of the first read is cut off. -/
example : (G.elfLoad (rawIo ⟨1, false⟩) none none (tinyState false roughRaw)).2.hung = true := by
  decide +kernel

/-- **C70 (finding).** With `get_slices` a short read at a region boundary leaves bytes of the image at
the wrong address: the second slice gets bytes that belong into the first. The load fails although
nothing is wrong with image, memory or disk. -/
theorem C70_short_read_misplaces : ∃ s : RawLS, s.mem.WF ∧ s.mem.emptyOk = true ∧ s.Smooth ∧
    (G.elfLoad (rawIo ⟨9, true⟩) none none s).2.hung = false ∧
    (G.elfLoad (rawIo ⟨9, true⟩) none none s).1 = .err (.elf .readKernelImage) ∧
    (List.range 4).map (fun i => (G.elfLoad (rawIo ⟨9, true⟩) none none s).2.mem.data (0x20 + i)) =
      [0xa1, 0, 0xa2, 0xa3] ∧
    (elfLoad none none (s.with fun _ => .ok)).1.isOk = true :=
  ⟨tinyState true fun i => if i = 5 then .give 0 else .give 199, ⟨by decide, by decide⟩, rfl,
    fun i => by dsimp only [tinyState]; split <;> exact ⟨_, rfl⟩,
    by decide +kernel, by decide +kernel, by decide +kernel, by decide +kernel⟩

/-- The short reads of `C70_short_reads` on the same memory, but with `try_access`. -/
example : let s := tinyState false fun i => if i = 5 then .give 0 else .give 199
    let r := G.elfLoad (rawIo ⟨9, false⟩) none none s
    r.2.hung = false ∧ r.1.isOk = true ∧
    (List.range 4).map (fun i => r.2.mem.data (0x20 + i)) = [0xa1, 0xa2, 0xa3, 0xa4] := by
  decide +kernel

/-- Failures of a call are seen: the second seek fails. -/
example : let r := G.loadDtb (rawIo ⟨9, true⟩) 0x20 (tinyState true fun i => if i = 1 then .fail else .give 9)
    r.2.hung = false ∧ r.1 = .err (.pe .seekDtbStart) := by
  decide +kernel

example := C70_bz_full_reads ⟨9, true⟩ none (some 0x30)
  ⟨demoBz, 7, fun _ => .give 5000, 0, false, elfMem⟩ rfl (by decide +kernel) (fun _ => ⟨_, rfl⟩)

end LinuxLoader
