import Verif.Lemmas.Panicking
import Verif.Props.IoErrors

/-!
# A panic of the reader or of guest memory reaches the caller, and nothing happens after it (C113)

`panicIo R panics` is the reader `R`, panicking at the requests `panics` says; `failingInstead R panics` is the
same reader, returning an error there. `Spec/Panicking.lean` has the vocabulary.
-/

namespace LinuxLoader
open Spec

/-! ## Readers -/

/-- C113 (ELF): the call with a reader that panics ends like the call with a reader that fails instead, with
the same requests made and the same guest memory, but with the panic instead of the error. -/
theorem C113_elf (R : AnyReader) (panics : List RdOp → RdOp → Bool) (koff highmem : Option GuestAddr) (m : Mem) :
    PanicsThrough panics (G.elfLoad (panicIo R panics) koff highmem (fresh m))
      (G.elfLoad (anyIo (failingInstead R panics)) koff highmem (fresh m)) := (twin_elfLoad koff highmem).through m

/-- C113 (bzImage). -/
theorem C113_bz (R : AnyReader) (panics : List RdOp → RdOp → Bool) (koff highmem : Option GuestAddr) (m : Mem) :
    PanicsThrough panics (G.bzLoad (panicIo R panics) koff highmem (fresh m))
      (G.bzLoad (anyIo (failingInstead R panics)) koff highmem (fresh m)) := (twin_bzLoad koff highmem).through m

/-- C113 (PE). -/
theorem C113_pe (R : AnyReader) (panics : List RdOp → RdOp → Bool) (arch : PeArch) (koff highmem : Option GuestAddr)
    (m : Mem) :
    PanicsThrough panics (G.peLoad (panicIo R panics) arch koff highmem (fresh m))
      (G.peLoad (anyIo (failingInstead R panics)) arch koff highmem (fresh m)) :=
  (twin_peLoad arch koff highmem).through m

/-- C113 (device tree). -/
theorem C113_dtb (R : AnyReader) (panics : List RdOp → RdOp → Bool) (a : GuestAddr) (m : Mem) :
    PanicsThrough panics (G.loadDtb (panicIo R panics) a (fresh m))
      (G.loadDtb (anyIo (failingInstead R panics)) a (fresh m)) := (twin_loadDtb a).through m

/-- C113 (what is left after a panic): in particular what is known of guest memory after a failed call
(C85) is known after a panic that was caught: only mapped bytes of loadable segments delivered are changed,
and none unless the ELF header delivered passed the checks. -/
theorem C113_frame (R : AnyReader) (panics : List RdOp → RdOp → Bool) (koff highmem : Option GuestAddr) (m : Mem) :
    let out := G.elfLoad (panicIo R panics) koff highmem (fresh m)
    SameLayout m out.2.mem ∧
    ∀ x, out.2.mem.data x ≠ m.data x → m.mapped x = true ∧
      (∃ eh, delivered 64 out.2.log = [eh] ∧ ElfChecked koff highmem eh) ∧
      ∃ h ∈ deliveredPhdrs out.2.log, h.Loadable ∧ InRange (koffBase koff + h.paddr) h.filesz x := by
  have h := C85_elf_frame (failingInstead R panics) koff highmem m
  dsimp only at h ⊢
  rw [← (C113_elf R panics koff highmem m).state] at h
  exact h

/-- Panics at the `n`-th request. -/
def panicAtNo (n : Nat) : List RdOp → RdOp → Bool := fun before _ => before.length == n

/-- C113: this says exactly how the call ends. -/
theorem C113_exact {ε α : Type} {panics : List RdOp → RdOp → Bool} {o₁ o₂ out' : Res ε α × AnyState}
    (h₁ : PanicsThrough panics o₁ out') (h₂ : PanicsThrough panics o₂ out') : o₁ = o₂ := by
  refine Prod.ext ?_ (h₁.state.trans h₂.state.symm)
  by_cases h : EndsInPanic panics out'.2.log
  · rw [(h₁.atPanic h).1, (h₂.atPanic h).1]
  · rw [h₁.otherwise h, h₂.otherwise h]

/-- C113: the same for guest memory. -/
theorem C113_memory_exact {ε α : Type} {panics : List MemReq → MemReq → Bool} {o₁ o₂ out' : Res ε α × MemLog}
    (h₁ : CutAtPanic panics o₁ out') (h₂ : CutAtPanic panics o₂ out') : o₁ = o₂ := by
  by_cases h : NoneOf panics out'.2
  · rw [h₁.otherwise h, h₂.otherwise h]
  · obtain ⟨n, hn⟩ : ∃ n, ∃ before o a after, out'.2 = before ++ (o, a) :: after ∧
        panics (before.map Prod.fst) o = true ∧ before.length = n := by
      refine Classical.byContradiction fun hn => h fun before o a after he => ?_
      cases hp : panics (before.map Prod.fst) o with
      | false => rfl
      | true => exact absurd ⟨_, before, o, a, after, he, hp, rfl⟩ hn
    induction n using Nat.strongRecOn with
    | ind n ih =>
      obtain ⟨before, o, a, after, he, hp, rfl⟩ := hn
      by_cases hb : NoneOf panics before
      · rw [h₁.cut before o a after he hb hp, h₂.cut before o a after he hb hp]
      · refine Classical.byContradiction fun hne => hb fun b' o' a' after' he' => ?_
        cases hp' : panics (b'.map Prod.fst) o' with
        | false => rfl
        | true =>
          refine absurd (ih b'.length ?_ ⟨b', o', a', after' ++ (o, a) :: after, ?_, hp', rfl⟩) hne
          · rw [he']; simp
          · rw [he, he']; simp


/-- The panic at each of the first six requests of the hostile reader is seen by the caller, and is the last
thing that happens; without one the call fails by itself. -/
theorem C113_example : (List.range 6).all (fun n =>
    decide ((G.elfLoad (panicIo hostileReader (panicAtNo n)) none none (fresh elfMem)).1 = .panic ∧
      (G.elfLoad (panicIo hostileReader (panicAtNo n)) none none (fresh elfMem)).2.log.length = n + 1)) = true := by
  decide +kernel

/-- So the first case of `PanicsThrough` has instances. -/
example : EndsInPanic (panicAtNo 4)
    (G.elfLoad (anyIo (failingInstead hostileReader (panicAtNo 4))) none none (fresh elfMem)).2.log :=
  ⟨[(.seekStart 0, .done), (.readExact 64, .bytes ((delivered 64 (G.elfLoad (anyIo hostileReader) none none (fresh elfMem)).2.log).headD [])),
    (.seekStart 64, .done), (.readExact 56, .bytes ((delivered 56 (G.elfLoad (anyIo hostileReader) none none (fresh elfMem)).2.log).headD []))],
    .seekStart 0xffffffffffffffff, by decide +kernel, by decide +kernel⟩

/-- A reader of a device tree that panics in the middle of the transfer: what was stored before stays. -/
theorem C113_half_transfer :
    let R : AnyReader := { fails := fun _ _ => false, size := fun _ => 4, byte := fun _ _ _ => 0,
                           stored := fun _ _ x => if x < 0x22 then some 0xaa else none }
    let out := G.loadDtb (panicIo R (panicAtNo 2)) 0x20 (fresh elfMem)
    out.1 = .panic ∧ (List.range 4).map (fun i => out.2.mem.data (0x20 + i)) = [0xaa, 0xaa,
      elfMem.data 0x22, elfMem.data 0x23] := by
  decide +kernel

/-! ## Guest memory -/

/-- C113 (`load_cmdline` and `write_bootparams`): with a guest memory that panics the calls do the same as with
one that does not, up to the first request at which it panics; there they panic, and make no further
request. -/
theorem C113_memory (M : AnyMem) (panics : List MemReq → MemReq → Bool) :
    (∀ a c, CutAtPanic panics (G.loadCmdline (panicMemOps M panics) a c []) (G.loadCmdline (anyMemOps M) a c [])) ∧
    (∀ p, CutAtPanic panics (G.linuxWrite (panicMemOps M panics) p []) (G.linuxWrite (anyMemOps M) p [])) ∧
    (∀ p, CutAtPanic panics (G.pvhWrite (panicMemOps M panics) p []) (G.pvhWrite (anyMemOps M) p [])) ∧
    (∀ p, CutAtPanic panics (G.fdtWrite (panicMemOps M panics) p []) (G.fdtWrite (anyMemOps M) p [])) :=
  ⟨fun a c => (cut_loadCmdline a c).cutAt, fun p => (cut_linuxWrite p).cutAt, fun p => (cut_pvhWrite p).cutAt,
    fun p => (cut_fdtWrite p).cutAt⟩

/-- Panics at the `n`-th request. -/
def memPanicAtNo (n : Nat) : List MemReq → MemReq → Bool := fun before _ => before.length == n

/-- A panic at each of the five requests of PVH boot parameters. -/
theorem C113_memory_example : (List.range 5).all (fun n =>
    decide ((G.pvhWrite (panicMemOps (memFailingAt 5) (memPanicAtNo n)) allPvh []).1 = .panic ∧
      (G.pvhWrite (panicMemOps (memFailingAt 5) (memPanicAtNo n)) allPvh []).2.length = n + 1)) = true := by
  decide +kernel

end LinuxLoader
