import Verif.Model.ByteOrder
import Verif.Props.HeaderIo
import Verif.Props.ElfKinds

/-! # C112: the byte order of the host -/

namespace LinuxLoader

private theorem foldl_be (b : List UInt8) : ∀ a : Nat,
    b.foldl (fun acc x => acc * 256 + x.toNat) a = a * 256 ^ b.length + beNat b := by
  induction b with
  | nil => intro a; simp [beNat]
  | cons x b ih =>
    intro a
    have h2 := ih (0 * 256 + x.toNat)
    have e : beNat (x :: b) = List.foldl (fun acc x => acc * 256 + x.toNat) (0 * 256 + x.toNat) b := rfl
    rw [List.foldl_cons, ih, e, h2, List.length_cons, Nat.pow_succ, Nat.zero_mul, Nat.zero_add, Nat.add_mul,
      Nat.mul_assoc, Nat.mul_comm 256, Nat.add_assoc]

private theorem beNat_cons (x : UInt8) (b : List UInt8) : beNat (x :: b) = x.toNat * 256 ^ b.length + beNat b := by
  have e : beNat (x :: b) = List.foldl (fun acc x => acc * 256 + x.toNat) (0 * 256 + x.toNat) b := rfl
  rw [e, foldl_be, Nat.zero_mul, Nat.zero_add]

private theorem beNat_snoc (x : UInt8) (b : List UInt8) : beNat (b ++ [x]) = beNat b * 256 + x.toNat := by
  unfold beNat; rw [List.foldl_append]; rfl

private theorem beNat_reverse : ∀ b : List UInt8, beNat b.reverse = leNat b
  | [] => rfl
  | x :: b => by rw [List.reverse_cons, beNat_snoc, beNat_reverse b, leNat]; omega

private theorem swap_leNat : ∀ l : List UInt8, swapBytes l.length (leNat l) = beNat l
  | [] => rfl
  | x :: l => by
    have hx := x.toNat_lt
    rw [List.length_cons, swapBytes, leNat, beNat_cons,
      show (x.toNat + 256 * leNat l) % 256 = x.toNat by omega,
      show (x.toNat + 256 * leNat l) / 256 = leNat l by omega, swap_leNat l]

private theorem swap_be (b : List UInt8) : swapBytes b.length (beNat b) = leNat b := by
  have h := swap_leNat b.reverse
  rwa [List.length_reverse, beNat_reverse, ← beNat_reverse b.reverse, List.reverse_reverse] at h

private theorem beBytes_eq : ∀ n v : Nat, beBytes n v = (leBytes n v).reverse
  | 0, _ => rfl
  | n + 1, v => by
    rw [leBytes, List.reverse_cons, ← beBytes_eq n (v / 256)]
    induction n generalizing v with
    | zero => simp [beBytes]
    | succ n ih =>
      rw [beBytes, ih, beBytes, List.cons_append]
      congr 2
      rw [Nat.div_div_eq_div_mul, Nat.pow_succ, Nat.mul_comm]

private theorem swap_le (n : Nat) : ∀ v, beBytes n (swapBytes n v) = leBytes n v := by
  intro v
  have h1 : swapBytes n v = leNat (leBytes n v).reverse := by
    induction n generalizing v with
    | zero => rfl
    | succ n ih =>
      rw [swapBytes, leBytes, List.reverse_cons, ih, leNat_append, List.length_reverse, leBytes_length]
      simp only [leNat, UInt8.toNat_ofNat', Nat.mul_zero, Nat.add_zero]
      rw [Nat.mul_comm, Nat.add_comm]
  rw [beBytes_eq, h1]
  have := leBytes_leNat (leBytes n v).reverse
  rw [List.length_reverse, leBytes_length] at this
  rw [this, List.reverse_reverse]

/-- **C112.** On a host of either byte order, `from_le` of an integer field of a header that was read as bytes is the
number that the documentation's little-endian bytes mean; and an integer stored in a header after `to_le` is written as
these bytes. -/
theorem C112_fields (host : ByteOrder) :
    (∀ (b : List UInt8) (o n : Nat), o + n ≤ b.length → host.fromLe n (host.field b o n) = leField b o n) ∧
    (∀ n v : Nat, host.bytes n (host.fromLe n v) = leBytes n v) := by
  constructor
  · intro b o n h
    cases host with
    | little => rfl
    | big =>
      have := swap_be ((b.drop o).take n)
      rwa [List.length_take, List.length_drop, Nat.min_eq_left (by omega)] at this
  · intro n v
    cases host with
    | little => rfl
    | big => exact swap_le n v

/-- **C112.** `PE::load` does the same on hosts of either byte order: the same result, error or none, the same memory,
for every image, every argument and every behaviour of the reader. -/
theorem C112_pe (host : ByteOrder) (arch : PeArch) (koff highmem : Option GuestAddr) (s : LS) :
    peLoadOn host arch koff highmem s = peLoad arch koff highmem s := by
  have hm : ∀ h : List UInt8, h.length = 64 → host.fromLe 4 (host.field h 56 4) = peMagic h :=
    fun h hl => (C112_fields host).1 h 56 4 (by omega)
  have ht : ∀ h : List UInt8, h.length = 64 → peTextOffsetOn host arch h = peTextOffset arch h := by
    intro h hl
    have h1 := (C112_fields host).1 h 16 8 (by omega)
    have h2 := (C112_fields host).1 h 8 8 (by omega)
    cases arch <;> simp only [peTextOffsetOn, peTextOffset, peImageSize, peTextField, h1, h2] <;> rfl
  unfold peLoadOn peLoad
  have step : ∀ {α β : Type} (x : LM LS LoadError α) (f g : α → LM LS LoadError β) (t : LS),
      (∀ a t', x t = (.ok a, t') → f a t' = g a t') → (x >>= f) t = (x >>= g) t := by
    intro α β x f g t h
    show LM.bind x f t = LM.bind x g t
    unfold LM.bind
    split
    · exact h _ _ ‹_›
    · rfl
    · rfl
  refine step _ _ _ s fun size s1 _ => step _ _ _ s1 fun _ s2 _ => step _ _ _ s2 fun h s3 hh => ?_
  have hl : h.length = 64 := by
    unfold readExact at hh
    split at hh
    · cases hh
    · rename_i hc
      cases hh
      rw [List.length_take]
      omega
  rw [hm h hl, ht h hl]

/-- **C112.** What the conversion is for: on a big-endian host the header of every accepted image has other numbers in
the fields `magic` and `magic2` themselves, so that a VMM that uses the exported headers there must convert as well. -/
theorem C112_needed {arch : PeArch} {koff highmem : Option GuestAddr} {s s' : LS} {r : LoadResult}
    (h : peLoad arch koff highmem s = (.ok r, s')) :
    (arch = .arm64 → ByteOrder.big.field s.rd.data 56 4 = 0x41524d64) ∧
    (arch = .riscv64 → ByteOrder.big.field s.rd.data 56 4 = 0x52534305) := by
  obtain ⟨ho, -, -⟩ := peLoad_ok h
  have o2 : ¬ ¬ Spec.PeMagicOk arch s.rd.data := firstObstacle_none_iff.1 ho _ (.tail _ (.head _))
  have o3 : Spec.PeMagicOk arch s.rd.data := Decidable.of_not_not o2
  refine ⟨?_, ?_⟩ <;> rintro rfl
  all_goals
    have o4 : (s.rd.data.drop 56).take 4 = _ := o3
    unfold ByteOrder.field
    simp only [o4]
    decide

/-! ## Cases that meet the hypotheses -/

example := (C112_fields .big).1 ((List.range 64).map UInt8.ofNat) 8 8 (by decide)

example : ByteOrder.big.field ((List.range 64).map UInt8.ofNat) 8 8 = 0x08090a0b0c0d0e0f ∧
    ByteOrder.big.fromLe 8 0x08090a0b0c0d0e0f = 0x0f0e0d0c0b0a0908 ∧
    ByteOrder.big.bytes 4 0x644d5241 = [0x64, 0x4d, 0x52, 0x41] ∧
    ByteOrder.big.bytes 4 (ByteOrder.big.fromLe 4 0x644d5241) = [0x41, 0x52, 0x4d, 0x64] := by decide +kernel

/-- An image that a big-endian host loads as well. -/
example : (peLoadOn .big .arm64 (some 0x200000) none ⟨⟨mkPe 0x10 1 0x644d5241, 3, fun _ => .ok, 0⟩, peMem⟩).1.isOk = true := by
  rw [C112_pe, demoPe_loads.1]; rfl

example := C112_needed (ran demoPe_loads.1)

end LinuxLoader
