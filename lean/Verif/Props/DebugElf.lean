import Verif.Model.ElfTypes
import Verif.Props.Debug

/-! # C111, continued: the ELF structures that the crate exports only -/

namespace LinuxLoader
open Types

private theorem dash_decStr (a b : Nat) (x y : Str) (e : Cmdline.decStr a ++ x = '-' :: (Cmdline.decStr b ++ y)) : False := by
  cases h : Cmdline.decStr a with
  | nil => exact Nat.toDigits_ne_nil h
  | cons c l =>
    rw [h, List.cons_append, List.cons.injEq] at e
    have := Cmdline.decStr_digits a c (by rw [h]; exact .head _)
    rw [e.1] at this
    exact absurd this (by decide)

private theorem code_debugInt : Code debugInt := by
  intro a b x y hx hy e
  cases a <;> cases b <;> simp only [debugInt, List.cons_append, List.cons.injEq, true_and] at e
  · obtain ⟨h1, h2⟩ := code_decStr _ _ x y hx hy e
    exact ⟨by rw [h1], h2⟩
  · exact (dash_decStr _ _ _ _ e).elim
  · exact (dash_decStr _ _ _ _ e.symm).elim
  · obtain ⟨h1, h2⟩ := code_decStr _ _ x y hx hy e
    exact ⟨by rw [Nat.add_right_cancel h1], h2⟩

/-- **C111.** The structures of `elf.rs` that the crate exports without using them: `{:?}` of two values is the same text
only if the values are the same; also for relocations with their signed addends. The types are those with the layouts
of C56. -/
theorem C111_elf :
    (∀ t ∈ elfOnly, t.1.layout = t.2.1 ∧ ∀ v w : t.1.Val, t.1.debug t.2.2 v = t.1.debug t.2.2 w → v = w) ∧
    (∀ (n : Nat) (name : String) (r q : Rela n), r.debug name = q.debug name → r = q) := by
  refine ⟨fun t ht => ⟨?_, fun v w => C111_structures t.1 t.2.2 v w⟩, fun n name r q h => ?_⟩
  · simp only [elfOnly, List.mem_cons, List.not_mem_nil, or_false] at ht
    rcases ht with rfl | rfl | rfl | rfl | rfl | rfl | rfl | rfl | rfl | rfl | rfl | rfl | rfl <;> rfl
  · have h0 : CodeList fun _ : Unit => ([] : List Str) := codeList_nil _ (fun _ => rfl) fun _ _ => rfl
    have h1 := codeList_cons (code_field "r_addend" code_debugInt) h0 (fun v => (v, ()))
      (fun a b e => (Prod.mk.inj e).1) _ fun _ => rfl
    have h2 := codeList_cons (code_field "r_info" code_decStr) h1 (fun v => v) (fun _ _ e => e) _ fun _ => rfl
    have h3 := codeList_cons (code_field "r_offset" code_decStr) h2 (fun v => v) (fun _ _ e => e) _ fun _ => rfl
    have := (code_struct name h3).inj (a := (r.offset.toNat, r.info.toNat, r.addend.toInt))
      (b := (q.offset.toNat, q.info.toNat, q.addend.toInt)) h
    simp only [Prod.mk.injEq] at this
    cases r; cases q
    simp only [Rela.mk.injEq]
    exact ⟨BitVec.eq_of_toNat_eq this.1, BitVec.eq_of_toNat_eq this.2.1, BitVec.eq_of_toInt_eq this.2.2⟩

example : Rela.debug "Elf64_Rela" (w := 8) ⟨0x1000#64, 8#64, BitVec.ofInt 64 (-16)⟩ =
    "Elf64_Rela { r_offset: 4096, r_info: 8, r_addend: -16 }".toList := by decide +kernel

example : elf32Sym.debug "Elf32_Sym" (elf32Sym.ofSlice [1, 0, 0, 0, 2, 0, 0, 0, 3, 0, 0, 0, 4, 5, 6, 0]) =
    "Elf32_Sym { st_name: 1, st_value: 2, st_size: 3, st_info: 4, st_other: 5, st_shndx: 6 }".toList := by decide +kernel

end LinuxLoader
