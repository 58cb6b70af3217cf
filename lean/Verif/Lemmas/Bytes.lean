import Verif.Spec.StartInfo
import Verif.Spec.Memory

namespace LinuxLoader
open Spec

@[simp] theorem leBytes_length (n v : Nat) : (leBytes n v).length = n := by
  induction n generalizing v with
  | zero => rfl
  | succ n ih => simp [leBytes, ih]

theorem leNat_leBytes (n v : Nat) : leNat (leBytes n v) = v % 256 ^ n := by
  induction n generalizing v with
  | zero => simp [leBytes, leNat, Nat.mod_one]
  | succ n ih =>
    simp only [leBytes, leNat, ih]
    have h1 : (UInt8.ofNat v).toNat = v % 256 := by simp
    rw [h1, Nat.pow_succ', Nat.mod_mul]

theorem leNat_lt (b : List UInt8) : leNat b < 256 ^ b.length := by
  induction b with
  | nil => simp [leNat]
  | cons x b ih =>
    have hx : x.toNat < 256 := x.toNat_lt
    simp only [leNat, List.length_cons, Nat.pow_succ']
    omega

theorem leField_lt (b : List UInt8) (o n : Nat) : leField b o n < 256 ^ n := by
  unfold leField
  refine Nat.lt_of_lt_of_le (leNat_lt _) (Nat.pow_le_pow_right (by decide) ?_)
  simp only [List.length_take]
  omega

theorem readLE_holds {f : Nat → UInt8} {x : Nat} {bs : List UInt8} (h : Holds f x bs) :
    readLE f x bs.length = leNat bs := by
  induction bs generalizing x with
  | nil => rfl
  | cons b bs ih =>
    simp only [List.length_cons, readLE, leNat]
    have h0 := h 0 b rfl
    rw [Nat.add_zero] at h0
    rw [h0, ih]
    intro i c hc
    have := h (i + 1) c (by simpa using hc)
    rw [← this]
    congr 1
    omega

theorem holds_append {f : Nat → UInt8} {a : Nat} {xs ys : List UInt8} :
    Holds f a (xs ++ ys) ↔ Holds f a xs ∧ Holds f (a + xs.length) ys := by
  constructor
  · intro h
    refine ⟨fun i b hb => h i b ?_, fun i b hb => ?_⟩
    · rw [List.getElem?_append_left (List.getElem?_eq_some_iff.1 hb).1]; exact hb
    · rw [Nat.add_assoc]
      apply h
      rw [List.getElem?_append_right (by omega)]
      rw [← hb]; congr 1; omega
  · rintro ⟨h1, h2⟩ i b hb
    by_cases hi : i < xs.length
    · rw [List.getElem?_append_left hi] at hb; exact h1 i b hb
    · rw [List.getElem?_append_right (by omega)] at hb
      have := h2 _ b hb
      rw [← this]; congr 1; omega

theorem readLE_leBytes {f : Nat → UInt8} {x n v : Nat} (h : Holds f x (leBytes n v))
    (hv : v < 256 ^ n) : readLE f x n = v := by
  have := readLE_holds h
  rw [leBytes_length, leNat_leBytes, Nat.mod_eq_of_lt hv] at this
  exact this

theorem holds_flatten {f : Nat → UInt8} {a w : Nat} {xs : List (List UInt8)}
    (hw : ∀ x ∈ xs, x.length = w) (h : Holds f a xs.flatten) :
    ∀ (i : Nat) (x : List UInt8), xs[i]? = some x → Holds f (a + i * w) x := by
  induction xs generalizing a with
  | nil => intro i x hx; simp at hx
  | cons y ys ih =>
    rw [List.flatten_cons, holds_append] at h
    intro i x hx
    cases i with
    | zero =>
      simp only [List.getElem?_cons_zero, Option.some.injEq] at hx
      subst hx
      simpa using h.1
    | succ i =>
      simp only [List.getElem?_cons_succ] at hx
      have h2 := h.2
      rw [hw y (by simp)] at h2
      have := ih (fun z hz => hw z (by simp [hz])) h2 i x hx
      rw [Nat.succ_mul]
      have he : a + (i * w + w) = a + w + i * w := by omega
      rw [he]; exact this

theorem flatten_length {w : Nat} {xs : List (List UInt8)} (hw : ∀ x ∈ xs, x.length = w) :
    xs.flatten.length = xs.length * w := by
  induction xs with
  | nil => simp
  | cons y ys ih =>
    rw [List.flatten_cons, List.length_append, hw y (by simp), ih (fun z hz => hw z (by simp [hz])),
      List.length_cons, Nat.succ_mul]
    omega

theorem startInfo_slice (v : HvmStartInfo) : v.asSlice =
    leBytes 4 v.magic.toNat ++ (leBytes 4 v.version.toNat ++ (leBytes 4 v.flags.toNat ++
    (leBytes 4 v.nrModules.toNat ++ (leBytes 8 v.modlistPaddr.toNat ++
    (leBytes 8 v.cmdlinePaddr.toNat ++ (leBytes 8 v.rsdpPaddr.toNat ++
    (leBytes 8 v.memmapPaddr.toNat ++ (leBytes 4 v.memmapEntries.toNat ++
    leBytes 4 v.reserved.toNat)))))))) := by
  have h1 : Layout.hvmStartInfo.fields = [("magic", 0, 4), ("version", 4, 4), ("flags", 8, 4),
    ("nr_modules", 12, 4), ("modlist_paddr", 16, 8), ("cmdline_paddr", 24, 8), ("rsdp_paddr", 32, 8),
    ("memmap_paddr", 40, 8), ("memmap_entries", 48, 4), ("reserved", 52, 4)] := by decide +kernel
  have h2 : Layout.hvmStartInfo.size = 56 := by decide +kernel
  simp [HvmStartInfo.asSlice, encode, h1, h2, encodeFields]

theorem modlistEntry_slice (v : HvmModlistEntry) : v.asSlice =
    leBytes 8 v.paddr.toNat ++ (leBytes 8 v.size.toNat ++ (leBytes 8 v.cmdlinePaddr.toNat ++
    leBytes 8 v.reserved.toNat)) := by
  have h1 : Layout.hvmModlistEntry.fields = [("paddr", 0, 8), ("size", 8, 8),
    ("cmdline_paddr", 16, 8), ("reserved", 24, 8)] := by decide +kernel
  have h2 : Layout.hvmModlistEntry.size = 32 := by decide +kernel
  simp [HvmModlistEntry.asSlice, encode, h1, h2, encodeFields]

theorem memmapEntry_slice (v : HvmMemmapEntry) : v.asSlice =
    leBytes 8 v.addr.toNat ++ (leBytes 8 v.size.toNat ++ (leBytes 4 v.type_.toNat ++
    leBytes 4 v.reserved.toNat)) := by
  have h1 : Layout.hvmMemmapTableEntry.fields = [("addr", 0, 8), ("size", 8, 8), ("type_", 16, 4),
    ("reserved", 20, 4)] := by decide +kernel
  have h2 : Layout.hvmMemmapTableEntry.size = 24 := by decide +kernel
  simp [HvmMemmapEntry.asSlice, encode, h1, h2, encodeFields]

theorem u32_lt (v : UInt32) : v.toNat < 256 ^ 4 := v.toNat_lt
theorem u64_lt (v : UInt64) : v.toNat < 256 ^ 8 := v.toNat_lt

theorem startInfo_at {f : Nat → UInt8} {a : Nat} {v : HvmStartInfo} (h : Holds f a v.asSlice) :
    StartInfoAt f a v := by
  rw [startInfo_slice] at h
  simp only [holds_append, leBytes_length, Nat.add_assoc, Nat.reduceAdd] at h
  obtain ⟨h0, h1, h2, h3, h4, h5, h6, h7, h8, h9⟩ := h
  exact ⟨readLE_leBytes h0 (u32_lt _), readLE_leBytes h1 (u32_lt _), readLE_leBytes h2 (u32_lt _),
    readLE_leBytes h3 (u32_lt _), readLE_leBytes h4 (u64_lt _), readLE_leBytes h5 (u64_lt _),
    readLE_leBytes h6 (u64_lt _), readLE_leBytes h7 (u64_lt _), readLE_leBytes h8 (u32_lt _),
    readLE_leBytes h9 (u32_lt _)⟩

theorem modlistEntry_at {f : Nat → UInt8} {a : Nat} {v : HvmModlistEntry}
    (h : Holds f a v.asSlice) : ModlistEntryAt f a v := by
  rw [modlistEntry_slice] at h
  simp only [holds_append, leBytes_length, Nat.add_assoc, Nat.reduceAdd] at h
  obtain ⟨h0, h1, h2, h3⟩ := h
  exact ⟨readLE_leBytes h0 (u64_lt _), readLE_leBytes h1 (u64_lt _), readLE_leBytes h2 (u64_lt _),
    readLE_leBytes h3 (u64_lt _)⟩

theorem memmapEntry_at {f : Nat → UInt8} {a : Nat} {v : HvmMemmapEntry}
    (h : Holds f a v.asSlice) : MemmapEntryAt f a v := by
  rw [memmapEntry_slice] at h
  simp only [holds_append, leBytes_length, Nat.add_assoc, Nat.reduceAdd] at h
  obtain ⟨h0, h1, h2, h3⟩ := h
  exact ⟨readLE_leBytes h0 (u64_lt _), readLE_leBytes h1 (u64_lt _), readLE_leBytes h2 (u32_lt _),
    readLE_leBytes h3 (u32_lt _)⟩

end LinuxLoader
