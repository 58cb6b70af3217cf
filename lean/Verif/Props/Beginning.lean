import Verif.Lemmas.BeginningElf

/-!
# C107: how far a failing call got

Calls store their pieces in order, each from its first byte on. Whatever happens, guest memory afterwards
has a beginning of what the call would have stored, and nothing else has changed.
-/

namespace LinuxLoader
open Spec

variable {P : Nat → List UInt8 → Nat → Prop}

/-- How the transfers of the call's reader can be cut. -/
def BootStep.Cuts (P : Nat → List UInt8 → Nat → Prop) (m : Mem) : BootStep → Prop
  | .elf rd _ _ | .bz rd _ _ | .pe _ rd _ _ | .dtb rd _ => Transfers P rd.sched m
  | _ => True

theorem cuts_straight {st : BootStep} (h : st.Straight) (m : Mem) : BootStep.Cuts anyCut m st := by
  cases st <;> first | exact transfers_any h m | trivial

theorem cuts_faultless {st : BootStep} (h : st.Faultless) (m : Mem) : BootStep.Cuts (unmappedCut m) m st := by
  cases st <;> first | exact transfers_clean h m | trivial

theorem exec_begun (st : BootStep) (had : st.Admissible) (m : Mem) (hc : BootStep.Cuts P m st)
    (hP : ∀ a bs j, unmappedCut m a bs j → P a bs j) : Begun P st.pieces m (st.exec m).2 := by
  cases st with
  | elf rd k h => exact begun_elfLoad k h ⟨rd, m⟩ hc
  | bz rd k h => exact begun_bzLoad k h ⟨rd, m⟩ had hc
  | pe arch rd k h => exact begun_peLoad arch k h ⟨rd, m⟩ hc
  | dtb rd a => exact begun_loadDtb a ⟨rd, m⟩ hc
  | cmdline a c => exact (begun_cmdline a c m).mono hP
  | linux p =>
    simp only [BootStep.exec, BootStep.pieces]
    rw [linuxWrite_eq]
    exact (begun_guarded _ _ _ _ m).mono hP
  | fdt p =>
    simp only [BootStep.exec, BootStep.pieces]
    rw [fdtWrite_eq]
    exact (begun_guarded _ _ _ _ m).mono hP
  | pvh p => exact (begun_pvh p m).mono hP
  | own a bytes =>
    simp only [BootStep.exec, BootStep.pieces]
    rw [writeSliceOr_eq]
    exact (begun_writeSlice m bytes a).mono hP

theorem bootRun_begun (steps : List BootStep) (had : ∀ st ∈ steps, st.Admissible) (m₀ m : Mem) (hw : m.WF)
    (hl : SameLayout m₀ m) (hc : ∀ st ∈ steps, BootStep.Cuts P m₀ st)
    (hP : ∀ a bs j, unmappedCut m₀ a bs j → P a bs j) :
    Begun P (steps.flatMap BootStep.pieces) m (bootRun steps m).2.2 := by
  induction steps generalizing m with
  | nil => exact .stop _ _
  | cons st rest ih =>
    have hcm : BootStep.Cuts P m st := by
      have := hc st (by simp)
      cases st <;> first
        | exact fun a n e t h1 h2 => this a n e t h1 ⟨h2.1.trans hl.1, h2.2.trans hl.2⟩
        | trivial
    have hb := exec_begun st (had st (by simp)) m hcm
      (fun a bs j h => hP a bs j ((reach_layout hl).1 h))
    obtain ⟨h1, -, h3⟩ := exec_spec st (had st (by simp)) m hw
    rw [List.flatMap_cons]
    unfold bootRun
    rcases hx : st.exec m with ⟨b, m₁⟩
    rw [hx] at hb h1 h3
    cases b with
    | false => exact hb.append _
    | true =>
      refine begun_after ?_
      obtain rfl := overlaid_unique ⟨h1, h3 rfl⟩
      exact ih (fun t ht => had t (by simp [ht])) _ (WF_layout h1 hw)
        ⟨h1.1.trans hl.1, h1.2.trans hl.2⟩ (fun t ht => hc t (by simp [ht]))

/-- **C107.** Whatever a call returns, and whatever I/O errors and short reads its reader comes up with:
guest memory afterwards is the old memory with a beginning of the call's pieces on it. -/
theorem C107_call (st : BootStep) (had : st.Admissible) (hst : st.Straight) (m : Mem) :
    LeftBehind st.pieces m (st.exec m).2 :=
  (exec_begun st had m (cuts_straight hst m) fun _ _ _ _ => trivial).left

/-- **C107.** Without faults of the reader, a piece is not cut off anywhere but at unmapped memory. -/
theorem C107_cut (st : BootStep) (had : st.Admissible) (hst : st.Faultless) (m : Mem) :
    StoppedAt st.pieces m (st.exec m).2 :=
  (exec_begun st had m (cuts_faultless hst m) fun _ _ _ h => h).stopped

/-- **C107.** The same for any sequence of calls up to the first failure: what is in memory at the end is
a beginning of what the whole sequence would have stored. -/
theorem C107_sequence (steps : List BootStep) (had : ∀ st ∈ steps, st.Admissible)
    (hst : ∀ st ∈ steps, st.Straight) (m : Mem) (hw : m.WF) :
    LeftBehind (steps.flatMap BootStep.pieces) m (bootRun steps m).2.2 ∧
    ((∀ st ∈ steps, st.Faultless) → StoppedAt (steps.flatMap BootStep.pieces) m (bootRun steps m).2.2) :=
  ⟨(bootRun_begun steps had m m hw ⟨rfl, rfl⟩ (fun st h => cuts_straight (hst st h) m)
      fun _ _ _ _ => trivial).left,
    fun hf => (bootRun_begun steps had m m hw ⟨rfl, rfl⟩ (fun st h => cuts_faultless (hf st h) m)
      fun _ _ _ h => h).stopped⟩

/-- **C107 (ELF, exactly).** When the headers are acceptable and `h` is the first program header with an
obstacle `e`, the call fails with `e`; the loadable segments before `h` are in memory, of `h` itself what
was transferred before the obstacle, and nothing of the segments behind it. -/
theorem C107_elf (koff highmem : Option GuestAddr) (s : LS) (hf : FaultFree s)
    (hlen : s.rd.data.length < ISZ) (pre post : List Phdr) (h : Phdr) (e : LoadError)
    (hok : FirstObstacle (elfHeaderObstacles s.rd.data koff highmem) none)
    (hp : elfPhdrs s.rd.data = pre ++ h :: post)
    (hpre : FirstObstacle (pre.flatMap (phdrObstacles s.rd.data koff s.mem)) none)
    (hh : FirstObstacle (phdrObstacles s.rd.data koff s.mem h) (some e)) :
    (elfLoad koff highmem s).1 = .err e ∧
    ∃ j, Reach s.mem (koffBase koff + h.paddr) (h.contents s.rd.data).length j ∧
      Overlaid ((pre.filter fun g => decide g.Loadable).map
            (fun g => (koffBase koff + g.paddr, g.contents s.rd.data)) ++
          stoppedPiece s.rd.data koff h e j) s.mem (elfLoad koff highmem s).2.mem := by
  obtain ⟨img, m, pos, clk, rfl⟩ : ∃ img m pos clk, s = clean img pos clk m :=
    ⟨_, _, _, _, faultFree_eq_clean hf⟩
  change img.length < ISZ at hlen
  change FirstObstacle (elfHeaderObstacles img koff highmem) none at hok
  change elfPhdrs img = _ at hp
  change FirstObstacle (pre.flatMap (phdrObstacles img koff m)) none at hpre
  change FirstObstacle (phdrObstacles img koff m h) (some e) at hh
  show _ ∧ ∃ j, Reach m _ (h.contents img).length j ∧ Overlaid (piecesOf img koff pre ++ _) m _
  obtain ⟨p', c', kl, hl⟩ := elfLoad_head img koff highmem pos clk m hok
  have hpa : ∀ g ∈ pre ++ h :: post, g.paddr < U64 := fun g hg => phdr_paddr_lt img g (hp ▸ hg)
  rw [hl, hp, loadSegments_append]
  rcases loadSegments_clean img koff hlen pre 0 .ignored p' c' m
    (fun g hg => hpa g (List.mem_append_left _ hg)) with ⟨-, p₁, c₁, h1⟩ | ⟨e', s', -, ho⟩
  · obtain ⟨r1, j, hj, r2⟩ := loadSegments_stop img koff h post hlen (hpa h (by simp))
      ((endsOf koff pre).foldl max 0) (capOf img koff pre .ignored) p₁ c₁
      (storeAll m (piecesOf img koff pre)) e
      (by
        have : phdrObstacles img koff (storeAll m (piecesOf img koff pre)) h = phdrObstacles img koff m h := by
          have hl := storeAll_layout m (piecesOf img koff pre)
          unfold phdrObstacles Mapped Mem.mapped
          rw [hl.1]
        rw [this]; exact hh)
    have hb : (loadSegments koff pre 0 .ignored >>= fun r => loadSegments koff (h :: post) r.1 r.2)
        (clean img p' c' m) = (.err e, (loadSegments koff (h :: post) ((endsOf koff pre).foldl max 0)
          (capOf img koff pre .ignored) (clean img p₁ c₁ (storeAll m (piecesOf img koff pre)))).2) := by
      rw [LM.bind_ok h1]
      exact Prod.ext r1 rfl
    rw [LM.bind_err hb]
    refine ⟨rfl, j, (reach_layout (storeAll_layout _ _)).1 hj, ?_⟩
    dsimp only
    rw [r2, ← storeAll_append]
    exact overlaid_storeAll _ _
  · exact absurd (firstObstacle_unique hpre ho) (fun h => nomatch h)

/-! ## Examples -/

/-- A failing transfer: two bytes of the second segment are delivered, then an I/O error; of the demo
image both segments are begun, the second one is incomplete. -/
def faultyElf : BootStep := .elf ⟨demoElf, 7, fun i => if i = 17 then .fail 2 else .ok, 0⟩ none none

theorem faultyElf_ok : faultyElf.Admissible ∧ faultyElf.Straight :=
  ⟨by show demoElf.length < ISZ; decide +kernel, fun i w h => by
    simp only at h; split at h <;> cases h⟩

example := C107_call faultyElf faultyElf_ok.1 faultyElf_ok.2 elfMem

example : (faultyElf.exec elfMem).1 = false ∧
    (List.range 4).map (fun i => (faultyElf.exec elfMem).2.data (0x20 + i)) = [0xa1, 0xa2, 0xa3, 0xa4] ∧
    (List.range 3).map (fun i => (faultyElf.exec elfMem).2.data (0x40 + i)) = [0xa2, 0xa3, 0] := by
  decide +kernel

example := C107_cut (.dtb (.cursor [7, 8]) 0x13ff) trivial (fun _ => rfl) bootMem

example := C107_sequence bootSteps bootSteps_ok.1 (by
    intro st hst
    simp only [bootSteps, List.mem_cons, List.not_mem_nil, or_false] at hst
    rcases hst with rfl | rfl | rfl | rfl
    · exact fun i w h => by cases h
    · trivial
    · trivial
    · exact fun i w h => by cases h)
  bootMem bootSteps_ok.2.1

/-- 0x72 bytes of guest memory: with `kernel_offset` 0x30 the second segment of the demo image, at 0x70,
is cut off after two bytes. -/
def cutoffMem : Mem := ⟨[⟨0, 0x72⟩], fun _ => 0, true⟩

theorem cutoffMem_mapped (x : Nat) : cutoffMem.mapped x = true ↔ x < 0x72 := by
  rw [Mem.mapped_iff]
  simp [cutoffMem]

example := C107_elf (some 0x30) none ⟨.cursor demoElf, cutoffMem⟩ (fun _ => rfl)
  (by show demoElf.length < ISZ; decide +kernel)
  [⟨1, 288, 0x20, 4, 8⟩, ⟨4, 292, 0, 44, 44⟩] [⟨1, 0, 0x60, 0, 16⟩] ⟨1, 289, 0x40, 3, 3⟩
  (.elf .readKernelImage)
  (by
    rw [firstObstacle_none_iff]
    intro o ho
    simp only [elfHeaderObstacles, List.mem_cons, List.not_mem_nil, or_false] at ho
    rcases ho with rfl | rfl | rfl | rfl | rfl | rfl | rfl | rfl
    · show ¬ demoElf.length < 64; decide +kernel
    · show ¬ demoElf.take 4 ≠ elfMagic; decide +kernel
    · show ¬ demoElf[5]? ≠ some 1; decide +kernel
    · show ¬ elfPhentsize demoElf ≠ 56; decide +kernel
    · show ¬ elfPhoff demoElf < 64; decide +kernel
    · rintro ⟨h, hh, -⟩; cases hh
    · show ¬ U64 ≤ 0x30 + elfEntry demoElf; decide +kernel
    · have h1 : elfPhnum demoElf = 4 := by decide +kernel
      have h2 : elfPhoff demoElf = 64 := by decide +kernel
      have h3 : demoElf.length = 336 := by decide +kernel
      refine fun hn => hn fun i hi => ?_
      change i < elfPhnum demoElf at hi
      show elfPhoff demoElf + 56 * i + 56 ≤ demoElf.length
      rw [h1] at hi
      omega)
  (by decide +kernel)
  (by
    rw [firstObstacle_none_iff]
    intro o ho
    simp only [List.flatMap_cons, List.flatMap_nil, List.append_nil, phdrObstacles, List.cons_append,
      List.nil_append, List.mem_cons, List.not_mem_nil, or_false] at ho
    rcases ho with rfl | rfl | rfl | rfl | rfl | rfl | rfl | rfl | rfl | rfl | rfl | rfl
    · exact fun h => nomatch h.2.1
    · exact fun h => nomatch h.2.1
    · exact fun h => nomatch h.2.1
    · exact fun h => absurd h.2 (by decide)
    · rintro ⟨-, h | h⟩
      · revert h
        show ¬ demoElf.length < _
        decide +kernel
      · refine h fun x hx => (cutoffMem_mapped x).2 ?_
        have h2 := hx.2
        have : koffBase (some (0x30 : GuestAddr)) = 0x30 := rfl
        rw [this] at h2
        omega
    · exact fun h => absurd h.2 (by decide)
    · exact fun h => nomatch h.2.1
    · exact fun h => nomatch h.2.1
    · exact fun h => nomatch h.2.1
    · exact fun h => absurd h.1.1 (by decide)
    · exact fun h => absurd h.1.1 (by decide)
    · exact fun h => absurd h.1.1 (by decide))
  (.later (fun h => nomatch h.2.1) (.later (fun h => nomatch h.2.1) (.later (fun h => nomatch h.2.1)
    (.later (fun h => absurd h.2 (by decide)) (.here ⟨⟨rfl, by decide⟩, .inr fun h =>
      absurd ((cutoffMem_mapped 0x72).1 (h 0x72 ⟨by decide, by decide⟩)) (by decide)⟩)))))

/-- So it is. -/
example : (elfLoad (some 0x30) none ⟨.cursor demoElf, cutoffMem⟩).1 = .err (.elf .readKernelImage) ∧
    (List.range 4).map (fun i => (elfLoad (some 0x30) none ⟨.cursor demoElf, cutoffMem⟩).2.mem.data (0x6f + i)) =
      [0, 0xa2, 0xa3, 0] := by
  decide +kernel

end LinuxLoader
