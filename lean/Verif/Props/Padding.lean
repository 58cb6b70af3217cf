import Verif.Spec.Padding
import Verif.Lemmas.Bytes
import Verif.Lemmas.Config

/-!
# No padding reaches the guest, and every byte string is a value (C98)
-/

namespace LinuxLoader
open Layout Types Spec

/-- The types are those whose documented offsets are checked in C56. -/
theorem C98_same_types : ∀ p ∈ byteValued, p.1.layout = p.2 := by
  intro p hp
  simp only [byteValued, List.mem_cons, List.not_mem_nil, or_false] at hp
  rcases hp with rfl | rfl | rfl | rfl | rfl | rfl | rfl | rfl | rfl | rfl <;> decide +kernel

theorem tiles_le : ∀ {l : List (Nat × Nat)} {a e : Nat}, Tiles l a e → a ≤ e
  | [], _, _, h => Nat.le_of_eq h
  | (_, n) :: _, a, _, h => Nat.le_trans (Nat.le_add_right a n) (tiles_le h.2)

theorem leNat_inj : ∀ {b b' : List UInt8}, b.length = b'.length → leNat b = leNat b' → b = b'
  | [], [], _, _ => rfl
  | [], _ :: _, h, _ => by simp at h
  | _ :: _, [], h, _ => by simp at h
  | x :: b, y :: b', h, hv => by
    have h1 := x.toNat_lt
    have h2 := y.toNat_lt
    simp only [leNat] at hv
    rw [leNat_inj (b := b) (b' := b') (by simpa using h) (by omega), (UInt8.toNat_inj.1 (by omega) : x = y)]

theorem byteValued_noPadding : ∀ p ∈ byteValued, NoPadding p.1 := by
  intro p hp
  simp only [byteValued, List.mem_cons, List.not_mem_nil, or_false] at hp
  unfold NoPadding
  rcases hp with rfl | rfl | rfl | rfl | rfl | rfl | rfl | rfl | rfl | rfl <;> decide +kernel

/-- Integers that lie directly one behind the other determine the bytes. -/
theorem tiles_ext : ∀ (l : List (Nat × Nat)) (a e : Nat), Tiles l a e → ∀ b b' : List UInt8,
    b.length = e → b'.length = e → (∀ p ∈ l, leField b p.1 p.2 = leField b' p.1 p.2) → b.drop a = b'.drop a
  | [], a, e, h, b, b', hb, hb', _ => by
    have : a = e := h
    rw [List.drop_of_length_le (by omega), List.drop_of_length_le (by omega)]
  | (o, n) :: r, a, e, h, b, b', hb, hb', hv => by
    obtain ⟨rfl, h⟩ := h
    have ih := tiles_ext r (o + n) e h b b' hb hb' fun p hp => hv p (List.mem_cons_of_mem _ hp)
    have hle := tiles_le h
    have h0 := hv (o, n) (List.mem_cons_self ..)
    have : (b.drop o).take n = (b'.drop o).take n := by
      refine leNat_inj ?_ h0
      rw [List.length_take, List.length_take, List.length_drop, List.length_drop, hb, hb']
    rw [← List.take_append_drop n (b.drop o), ← List.take_append_drop n (b'.drop o), this, List.drop_drop,
      List.drop_drop, ih]

/-- ... and can have any values. -/
theorem tiles_exists : ∀ (l : List (Nat × Nat)) (a e : Nat), Tiles l a e → ∀ vs : List Nat,
    vs.length = l.length →
    (∀ (i v : Nat) (p : Nat × Nat), vs[i]? = some v → l[i]? = some p → v < 256 ^ p.2) →
    ∀ pre : List UInt8, pre.length = a → ∃ b, b.length = e ∧ pre <+: b ∧ l.map (fun p => leField b p.1 p.2) = vs
  | [], a, e, h, vs, hl, _, pre, hp => by
    have : a = e := h
    refine ⟨pre, by omega, List.prefix_rfl, ?_⟩
    rw [List.map_nil, List.eq_nil_of_length_eq_zero hl]
  | (o, n) :: r, a, e, h, [], hl, _, pre, hp => by simp at hl
  | (o, n) :: r, a, e, h, v :: vs, hl, hr, pre, hp => by
    obtain ⟨rfl, h⟩ := h
    obtain ⟨b, hb, ⟨t, rfl⟩, hv⟩ := tiles_exists r (o + n) e h vs (by simpa using hl)
      (fun i w p hw hp => hr (i + 1) w p (by simpa using hw) (by simpa using hp)) (pre ++ leBytes n v)
      (by rw [List.length_append, leBytes_length, hp])
    refine ⟨_, hb, ⟨leBytes n v ++ t, by rw [List.append_assoc]⟩, ?_⟩
    rw [List.map_cons, hv]
    congr 1
    show leField _ o n = v
    have hlt := hr 0 v (o, n) rfl rfl
    rw [leField, List.append_assoc, List.drop_left' hp, List.take_left' (leBytes_length n v), leNat_leBytes,
      Nat.mod_eq_of_lt hlt]

/-- **C98.** Every value of a `ByteValued` type has exactly one memory image: there are no bytes beside those of
its integers that could reveal other memory of the VMM, and every combination of integers is possible. -/
theorem C98_one_image (t : Ty) (l : Layout) (ht : (t, l) ∈ byteValued) (vs : List Nat) (hv : IsValue t vs) :
    ∃ b, IsImage t vs b ∧ ∀ b', IsImage t vs b' → b' = b := by
  have hn := byteValued_noPadding _ ht
  obtain ⟨b, hb, -, hbv⟩ := tiles_exists _ _ _ hn vs hv.1 hv.2 [] rfl
  refine ⟨b, ⟨hb, hbv⟩, fun b' h' => ?_⟩
  refine tiles_ext _ _ _ hn b' b h'.1 hb fun p hp => ?_
  exact List.map_inj_left.1 (h'.2.trans hbv.symm) p hp

/-- **C98.** Every byte string of the right size is the image of a value: reading an image file or guest memory
into the type gives a value whatever the bytes are. -/
theorem C98_every_pattern (t : Ty) (l : Layout) (ht : (t, l) ∈ byteValued) (b : List UInt8) (hb : b.length = l.size) :
    IsValue t (valuesIn t b) ∧ IsImage t (valuesIn t b) b := by
  refine ⟨⟨by simp [valuesIn], fun i v p hv hp => ?_⟩, by rw [C98_same_types _ ht]; exact hb, rfl⟩
  simp only [valuesIn, List.getElem?_map, hp, Option.map_some, Option.some.injEq] at hv
  subst hv
  refine Nat.lt_of_lt_of_le (leNat_lt _) (Nat.pow_le_pow_right (by omega) ?_)
  rw [List.length_take]
  omega

/-- **C98.** What a boot configurator writes depends only on the integers of the structures. -/
theorem C98_guest (th tsec tmod : Ty) (lh lsec lmod : Layout) (hh : (th, lh) ∈ byteValued)
    (hs : (tsec, lsec) ∈ byteValued) (hm : (tmod, lmod) ∈ byteValued) (b b' : List UInt8)
    (secs secs' mods mods' : List (List UInt8)) (ah as am : GuestAddr) (m : Mem)
    (h : ∃ v, IsImage th v b ∧ IsImage th v b')
    (hsl : secs.length = secs'.length) (hml : mods.length = mods'.length)
    (hsv : ∀ (i : Nat) x x', secs[i]? = some x → secs'[i]? = some x' → ∃ v, IsImage tsec v x ∧ IsImage tsec v x')
    (hmv : ∀ (i : Nat) x x', mods[i]? = some x → mods'[i]? = some x' → ∃ v, IsImage tmod v x ∧ IsImage tmod v x') :
    linuxWrite (BootParams.new b ah) m = linuxWrite (BootParams.new b' ah) m ∧
    pvhWrite (((BootParams.new b ah).setSections secs as).setModules mods am) m =
      pvhWrite (((BootParams.new b' ah).setSections secs' as).setModules mods' am) m := by
  have one : ∀ {t : Ty} {l : Layout}, (t, l) ∈ byteValued → ∀ {x x' : List UInt8},
      (∃ v, IsImage t v x ∧ IsImage t v x') → x = x' := by
    rintro t l ht x x' ⟨v, hx, hx'⟩
    refine tiles_ext _ _ _ (byteValued_noPadding _ ht) x x' hx.1 hx'.1 fun p hp => ?_
    exact List.map_inj_left.1 (hx.2.trans hx'.2.symm) p hp
  have many : ∀ {t : Ty} {l : Layout}, (t, l) ∈ byteValued → ∀ {xs xs' : List (List UInt8)},
      xs.length = xs'.length →
      (∀ (i : Nat) x x', xs[i]? = some x → xs'[i]? = some x' → ∃ v, IsImage t v x ∧ IsImage t v x') → xs = xs' := by
    intro t l ht xs xs' hl hv
    refine List.ext_getElem hl fun i h1 h2 => ?_
    exact one ht (hv i _ _ (List.getElem?_eq_getElem h1) (List.getElem?_eq_getElem h2))
  rw [one hh h, many hs hsl hsv, many hm hml hmv]
  exact ⟨rfl, rfl⟩

/-! ### Types of the VMM's own: packed structures never have padding, others can -/

theorem tiles_append : ∀ {l l' : List (Nat × Nat)} {a c e : Nat}, Tiles l a c → Tiles l' c e → Tiles (l ++ l') a e
  | [], _, a, c, e, h, h' => by
    have : a = c := h
    subst this; exact h'
  | (_, _) :: _, _, _, _, _, h, h' => ⟨h.1, tiles_append h.2 h'⟩

theorem tiles_shift (d : Nat) : ∀ {l : List (Nat × Nat)} {a e : Nat}, Tiles l a e →
    Tiles (l.map fun p => (d + p.1, p.2)) (d + a) (d + e)
  | [], a, e, h => congrArg (d + ·) h
  | (o, n) :: r, a, e, h => by
    refine ⟨congrArg (d + ·) h.1, ?_⟩
    have := tiles_shift d h.2
    rwa [← Nat.add_assoc] at this

/-- Arrays of a type without padding have none. -/
theorem C98_array (t : Ty) (n : Nat) (h : NoPadding t) : NoPadding (.arr t n) := by
  have key : ∀ n, Tiles ((List.range n).flatMap fun i => (leaves t).map fun p => (i * t.layout.size + p.1, p.2)) 0
      (t.layout.size * n) := by
    intro n
    induction n with
    | zero => exact rfl
    | succ n ih =>
      rw [List.range_succ, List.flatMap_append]
      refine tiles_append ih ?_
      rw [List.flatMap_singleton, Nat.mul_comm n, Nat.mul_succ]
      exact tiles_shift (t.layout.size * n) h
  unfold NoPadding
  rw [leaves, Ty.layout]
  exact key n

/-- The fields of a structure. -/
def fieldTypes : Fields → List Ty
  | .nil => []
  | .cons _ t rest => t :: fieldTypes rest

theorem roundUp_one (n : Nat) : roundUp n 1 = n := by simp [roundUp]

theorem maxAlign_one : ∀ fs : Fields, (∀ t ∈ fieldTypes fs, 0 < t.layout.align) → maxAlign 1 fs.layouts = 1
  | .nil, _ => rfl
  | .cons _ t rest, h => by
    have h1 := h t (by simp [fieldTypes])
    have h2 := maxAlign_one rest fun t ht => h t (by simp [fieldTypes, ht])
    rw [Fields.layouts, maxAlign, h2]
    omega

theorem packed_tiles : ∀ (fs : Fields) (off : Nat),
    (∀ t ∈ fieldTypes fs, NoPadding t ∧ 0 < t.layout.align) →
    Tiles (fieldLeaves 1 off fs) off (place 1 off fs.layouts).2
  | .nil, _, _ => rfl
  | .cons _ t rest, off, h => by
    obtain ⟨h1, h2⟩ := h t (by simp [fieldTypes])
    have hm : min 1 t.layout.align = 1 := by omega
    have ih := packed_tiles rest (off + t.layout.size) fun t ht => h t (by simp [fieldTypes, ht])
    rw [fieldLeaves, Fields.layouts, place]
    simp only [hm, roundUp_one]
    exact tiles_append (tiles_shift off h1) ih

/-- **C98.** A `repr(C, packed)` structure of types without padding has none. -/
theorem C98_packed (fs : Fields) (h : ∀ t ∈ fieldTypes fs, NoPadding t ∧ 0 < t.layout.align) :
    NoPadding (.struct 1 fs) := by
  have := packed_tiles fs 0 h
  unfold NoPadding
  rw [leaves, Ty.layout, structOf, maxAlign_one fs fun t ht => (h t ht).2, roundUp_one]
  exact this

/-- A `repr(C)` structure with padding: `struct { a: u8, b: u32 }`. -/
def paddedTy : Ty := .struct 16 (("a", i8) ::ₛ ("b", i32) ::ₛ .nil)

/-- **C98 (refutes that `repr(C)` is enough).** A header type of the VMM's own can have padding: then the same
value has different images, and the guest can read what happened to be in the VMM's memory. -/
theorem C98_reprC_refuted : ¬ NoPadding paddedTy ∧ ∃ (vs : List Nat) (b b' : List UInt8) (m : Mem) (x : Nat),
    IsValue paddedTy vs ∧ IsImage paddedTy vs b ∧ IsImage paddedTy vs b' ∧
    (linuxWrite (BootParams.new b 0) m).1 = .ok () ∧ (linuxWrite (BootParams.new b' 0) m).1 = .ok () ∧
    (linuxWrite (BootParams.new b 0) m).2.data x ≠ (linuxWrite (BootParams.new b' 0) m).2.data x := by
  refine ⟨by unfold NoPadding; decide +kernel, [1, 2], [1, 0, 0, 0, 2, 0, 0, 0], [1, 0xAA, 0xBB, 0xCC, 2, 0, 0, 0],
    ⟨[⟨0, 0x1000⟩], fun _ => 0, true⟩, 1, ?_, ⟨by decide +kernel, by decide +kernel⟩,
    ⟨by decide +kernel, by decide +kernel⟩, by decide +kernel, by decide +kernel, by decide +kernel⟩
  refine ⟨by decide +kernel, fun i v p hv hp => ?_⟩
  rw [show leaves paddedTy = [(0, 1), (4, 4)] by decide +kernel] at hp
  match i with
  | 0 => cases hv; cases hp; decide
  | 1 => cases hv; cases hp; decide
  | i + 2 => simp at hv

/-! ### The hypotheses are met -/

example : ∃ vs, IsValue setupHeader vs ∧ vs[8]? = some 0x53726448 := by
  refine ⟨valuesIn setupHeader (List.replicate 17 0 ++ [0x48, 0x64, 0x72, 0x53] ++ List.replicate 102 0),
    (C98_every_pattern setupHeader Layout.setupHeader (by simp [byteValued]) _ (by decide +kernel)).1, by decide +kernel⟩

example := C98_one_image hvmMemmapTableEntry Layout.hvmMemmapTableEntry (by simp [byteValued])
  (valuesIn hvmMemmapTableEntry (List.replicate 24 7))
  (C98_every_pattern hvmMemmapTableEntry Layout.hvmMemmapTableEntry (by simp [byteValued]) _ (by decide +kernel)).1

example : NoPadding bootE820Entry := C98_packed _ (by
  intro t ht
  simp only [field, fieldTypes, List.mem_cons, List.not_mem_nil, or_false] at ht
  rcases ht with rfl | rfl | rfl <;> exact ⟨by unfold NoPadding; decide, by decide⟩)

example : NoPadding (.arr bootE820Entry 128) := C98_array _ 128 (by unfold NoPadding; decide +kernel)

example := C98_guest hvmStartInfo hvmMemmapTableEntry hvmModlistEntry Layout.hvmStartInfo Layout.hvmMemmapTableEntry
  Layout.hvmModlistEntry (by simp [byteValued])
  (by simp [byteValued]) (by simp [byteValued]) (List.replicate 56 1) (List.replicate 56 1) [List.replicate 24 2]
  [List.replicate 24 2] [] [] 0x1000 0x2000 0x3000 ⟨[⟨0, 0x10000⟩], fun _ => 0, true⟩
  ⟨_, (C98_every_pattern hvmStartInfo Layout.hvmStartInfo (by simp [byteValued]) _ (by decide +kernel)).2,
    (C98_every_pattern hvmStartInfo Layout.hvmStartInfo (by simp [byteValued]) _ (by decide +kernel)).2⟩ rfl rfl
  (fun i x x' h h' => by
    cases i with
    | zero =>
      cases h; cases h'
      exact ⟨_, (C98_every_pattern hvmMemmapTableEntry Layout.hvmMemmapTableEntry (by simp [byteValued]) _ (by decide +kernel)).2,
        (C98_every_pattern hvmMemmapTableEntry Layout.hvmMemmapTableEntry (by simp [byteValued]) _ (by decide +kernel)).2⟩
    | succ i => simp at h)
  (fun i x x' h => by simp at h)

end LinuxLoader
