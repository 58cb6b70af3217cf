import Verif.Props.Boot
import Verif.Props.CmdlineLimit

/-!
# Different ways to put the same bytes into guest memory (C103)

Vocabulary: `Spec/Memory.lean`, `Spec/Boot.lean`.
-/

namespace LinuxLoader
open Spec

theorem stored_unique {m m₁ m₂ : Mem} {a : Nat} {bs : List UInt8} (h₁ : Stored m m₁ a bs)
    (h₂ : Stored m m₂ a bs) : m₁ = m₂ := by
  obtain ⟨r1, d1, e1⟩ := m₁
  obtain ⟨r2, d2, e2⟩ := m₂
  have hr : r1 = r2 := h₁.1.1.trans h₂.1.1.symm
  have he : e1 = e2 := h₁.1.2.trans h₂.1.2.symm
  have hd : d1 = d2 := by
    funext x
    exact (stored_lastPiece h₁ x).trans (stored_lastPiece h₂ x).symm
  subst hr he hd
  rfl

/-- **C103.** `load_dtb`, the FDT configurator, the Linux configurator and the VMM's own `write_slice`: whichever
two of them succeed with the same bytes at the same address leave the same guest memory. -/
theorem C103_same_effect (rd : Reader) (a : GuestAddr) (m : Mem) (hw : m.WF)
    (st : BootStep) (hst : st ∈ [.dtb rd a, .fdt (BootParams.new rd.data a), .linux (BootParams.new rd.data a),
      .own a rd.data]) (hok : (st.exec m).1 = true) : Stored m (st.exec m).2 a.toNat rd.data := by
  simp only [List.mem_cons, List.not_mem_nil, or_false] at hst
  rcases hst with rfl | rfl | rfl | rfl
  · obtain ⟨r, hr⟩ := isOk_iff.1 hok
    exact (C53_dtb_in_place (Prod.ext hr rfl)).2.2
  · obtain ⟨r, hr⟩ := isOk_iff.1 hok
    exact (C30_fdt _ m hw).2.2.1 hr
  · obtain ⟨r, hr⟩ := isOk_iff.1 hok
    exact C28_success _ m _ hw (Prod.ext hr rfl)
  · simp only [BootStep.exec] at hok ⊢
    rcases writeSliceOr_cases rd.data a () m with ⟨-, he⟩ | ⟨-, m1, h1, he⟩
    · rw [he]; exact Mem.stored_store _ _ _
    · rw [he] at hok; cases hok

example := C103_same_effect (.cursor [1, 2, 3]) 0x1000 bootMem bootMem_wf (.dtb (.cursor [1, 2, 3]) 0x1000)
  (.head _) (by decide +kernel)

theorem own_ok (a : GuestAddr) (bs : List UInt8) (m : Mem) :
    ((BootStep.own a bs).exec m).1 = true ↔ Accessible m a.toNat bs.length := by
  simp only [BootStep.exec]
  rcases writeSliceOr_cases bs a () m with ⟨h, he⟩ | ⟨h, m1, h1, he⟩ <;> rw [he]
  · simp [Res.isOk, h]
  · simp [Res.isOk, h]

theorem isOk_unit {ε : Type} {r : Res ε Unit} : r.isOk = true ↔ r = .ok () := by
  cases r <;> simp [Res.isOk]

theorem mapped_succ {m : Mem} {a n : Nat} :
    Mapped m a (n + 1) ↔ Accessible m a n ∧ m.mapped (a + n) = true := by
  constructor
  · intro h
    exact ⟨⟨fun x hx => h x ⟨hx.1, by have := hx.2; omega⟩, fun hn => .inr (h a ⟨by omega, by omega⟩)⟩,
      h _ ⟨by omega, by omega⟩⟩
  · rintro ⟨h1, h2⟩ x hx
    by_cases he : x = a + n
    · rw [he]; exact h2
    · exact h1.1 x ⟨hx.1, by have := hx.2; omega⟩

/-- **C103.** Who accepts what, compared with the VMM's own `write_slice`: the two configurators are the same but
for the names of the errors, and want the byte behind the blob to exist too; `load_dtb`, with a reader that works,
wants at most 2 MiB. -/
theorem C103_accepts (rd : Reader) (a : GuestAddr) (m : Mem) (hw : m.WF) (hff : FaultFree ⟨rd, m⟩) :
    (BootStep.fdt (BootParams.new rd.data a)).exec m = (BootStep.linux (BootParams.new rd.data a)).exec m ∧
    (((BootStep.fdt (BootParams.new rd.data a)).exec m).1 = true ↔
      ((BootStep.own a rd.data).exec m).1 = true ∧ m.mapped (a.toNat + rd.data.length) = true) ∧
    (((BootStep.dtb rd a).exec m).1 = true ↔
      ((BootStep.own a rd.data).exec m).1 = true ∧ rd.data.length ≤ 0x200000) := by
  refine ⟨?_, ?_, ?_⟩
  · simp only [BootStep.exec]
    rw [linuxWrite_eq, fdtWrite_eq]
    simp only [BootParams.new]
    unfold guardedWrite
    show (Res.isOk (LM.bind _ _ m).1, (LM.bind _ _ m).2) = (Res.isOk (LM.bind _ _ m).1, (LM.bind _ _ m).2)
    unfold LM.bind checkedOffsetOr writeSliceOr
    cases m.checkedOffset a rd.data.length with
    | none => rfl
    | some b =>
      dsimp only
      rcases m.writeSlice rd.data a with ⟨_ | _, m'⟩ <;> rfl
  · rw [own_ok, ← mapped_succ]
    simp only [BootStep.exec]
    rw [isOk_unit]
    exact (C30_fdt _ m hw).2.1
  · rw [own_ok]
    simp only [BootStep.exec]
    rw [isOk_unit, (C53_dtb_outcome (s := ⟨rd, m⟩) hff).1]
    exact And.comm

example := C103_accepts (.cursor [1, 2, 3]) 0x1000 bootMem bootMem_wf fun _ => rfl

/-- **C103.** A command line is put into memory as by the VMM's own `write_slice` of its text and NUL: accepted in
the same places, with the same memory afterwards. -/
theorem C103_cmdline (a : GuestAddr) (c : Cmdline) (m : Mem) (hw : m.WF) (bs : List UInt8)
    (hc : c.asCString = .ok bs) :
    ((BootStep.cmdline a c).exec m).1 = ((BootStep.own a (bs ++ [0])).exec m).1 ∧
    (((BootStep.cmdline a c).exec m).1 = true →
      ((BootStep.cmdline a c).exec m).2 = ((BootStep.own a (bs ++ [0])).exec m).2) := by
  have h1 : ((BootStep.cmdline a c).exec m).1 = true ↔ ((BootStep.own a (bs ++ [0])).exec m).1 = true := by
    rw [own_ok]
    simp only [BootStep.exec]
    rw [isOk_unit, (C20_decision a c m hw).2.2.1]
    simp only [hc, Res.ok.injEq, List.length_append, List.length_singleton]
    constructor
    · rintro ⟨_, rfl, h⟩
      exact ⟨h, fun hn => by omega⟩
    · intro h
      exact ⟨bs, rfl, h.1⟩
  refine ⟨Bool.eq_iff_iff.2 h1, fun hok => ?_⟩
  have h2 := C103_same_effect (.cursor (bs ++ [0])) a m hw (.own a (bs ++ [0])) (by simp [Reader.cursor]) (h1.1 hok)
  obtain ⟨r, hr⟩ := isOk_iff.1 hok
  obtain ⟨bs', hb, hs⟩ := C19_exact a c m ((BootStep.cmdline a c).exec m).2 (Prod.ext hr rfl)
  rw [hc] at hb
  cases hb
  exact stored_unique hs h2

example := C103_cmdline 0x1100 demo bootMem bootMem_wf [97, 61, 98, 32, 45, 45, 32, 120] (by decide +kernel)

/-- **C103 (refuted).** `load_dtb` and the FDT configurator accept the same blobs: a blob at the end of memory only
the former, one of more than 2 MiB only the latter. -/
theorem C103_same_refuted :
    (∃ (rd : Reader) (a : GuestAddr) (m : Mem), m.WF ∧ FaultFree ⟨rd, m⟩ ∧
      ((BootStep.dtb rd a).exec m).1 = true ∧ ((BootStep.fdt (BootParams.new rd.data a)).exec m).1 = false) ∧
    ∃ (rd : Reader) (a : GuestAddr) (m : Mem), m.WF ∧ FaultFree ⟨rd, m⟩ ∧
      ((BootStep.dtb rd a).exec m).1 = false ∧ ((BootStep.fdt (BootParams.new rd.data a)).exec m).1 = true := by
  obtain ⟨blob, hb⟩ : ∃ b : List UInt8, b.length = 0x200001 :=
    ⟨List.replicate 0x200001 0, List.length_replicate⟩
  have hwf : Mem.WF ⟨[⟨0, 0x400000⟩], fun _ => 0, true⟩ := by
    refine ⟨?_, .cons (fun _ h => nomatch h) .nil⟩
    intro r hr
    rw [List.mem_singleton] at hr
    subst hr
    decide
  refine ⟨⟨.cursor [7, 8], 0x13fe, bootMem, bootMem_wf, fun _ => rfl, by decide +kernel, by decide +kernel⟩,
    ⟨.cursor blob, 0, _, hwf, fun _ => rfl, ?_, isOk_unit.2 ((C30_fdt _ _ hwf).2.1.2 ?_)⟩⟩
  · rw [Bool.eq_false_iff]
    intro h
    have h1 : blob.length ≤ 0x200000 := (((C103_accepts (.cursor blob) 0 _ hwf fun _ => rfl).2.2).1 h).2
    omega
  · intro x hx
    have h2 : x < 0 + (blob.length + 1) := hx.2
    simp only [Mem.mapped, List.any_cons, List.any_nil, Bool.or_false, Bool.and_eq_true,
      decide_eq_true_eq]
    omega

end LinuxLoader
