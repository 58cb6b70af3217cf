import Verif.Spec.ZeroPageDeep
import Verif.Props.ZeroPage
import Verif.Props.Padding
import Verif.Props.SetupHeader

/-!
# The zero page down to its integers (C105)
-/

namespace LinuxLoader
open Layout Types Spec

/-! ### Where a path leads -/

/-- Offset and type of the field of a name. -/
def locField (cap : Nat) : Nat → Fields → String → Option (Nat × Ty)
  | _, .nil, _ => none
  | off, .cons n t rest, s =>
    let o := roundUp off (min cap t.layout.align)
    if n = s then some (o, t) else locField cap (o + t.layout.size) rest s

/-- Offset and type of what a path leads to. -/
def locate : Ty → List Step → Option (Nat × Ty)
  | t, [] => some (0, t)
  | .arr t n, .index i :: p => if i < n then (locate t p).map fun q => (i * t.layout.size + q.1, q.2) else none
  | .struct cap fs, .field s :: p =>
    match locField cap 0 fs s with
    | some (o, t) => (locate t p).map fun q => (o + q.1, q.2)
    | none => none
  | _, _ => none

mutual
/-- Integers of at least one byte, and alignments that can be kept. -/
def soundTy : Ty → Bool
  | .int n => 0 < n
  | .arr t _ => soundTy t
  | .struct cap fs => 0 < cap && soundFields fs
/-- The same of fields. -/
def soundFields : Fields → Bool
  | .nil => true
  | .cons _ t rest => soundTy t && soundFields rest
end

/-! ### The memory image of a value -/

theorem fields_bytes (cap : Nat) (hc : 0 < cap) : ∀ (fs : Fields) (v : fs.Vals) (off : Nat) (acc : List UInt8),
    acc.length = off →
    (∀ t ∈ fieldTypes fs, 0 < t.layout.align ∧ ∀ x : t.Val, (t.asSlice x).length = t.layout.size) →
    (∃ r, encodeFields (place cap off fs.layouts).1 (fs.slices v) acc = acc ++ r) ∧
    (encodeFields (place cap off fs.layouts).1 (fs.slices v) acc).length = (place cap off fs.layouts).2 ∧
    ∀ s o t, locField cap off fs s = some (o, t) → t ∈ fieldTypes fs ∧ ∃ x, fs.find v s = some ⟨t, x⟩ ∧
      SubAt (encodeFields (place cap off fs.layouts).1 (fs.slices v) acc) o (t.asSlice x)
  | .nil, _, off, acc, ha, _ => by
    refine ⟨⟨[], by simp [Fields.layouts, place, encodeFields]⟩, by simpa [Fields.layouts, place, encodeFields] using ha,
      fun s o t h => ?_⟩
    simp [locField] at h
  | .cons n t rest, (x, xs), off, acc, ha, h => by
    obtain ⟨h1, h2⟩ := h t (by simp [fieldTypes])
    have hpos : 0 < min cap t.layout.align := by omega
    have hr := (roundUp_ge off _ hpos).1
    have hl : (acc ++ List.replicate (roundUp off (min cap t.layout.align) - acc.length) 0 ++ t.asSlice x).length =
        roundUp off (min cap t.layout.align) + t.layout.size := by
      simp only [List.length_append, List.length_replicate, h2 x]; omega
    obtain ⟨⟨r, i1⟩, i2, i3⟩ := fields_bytes cap hc rest xs (roundUp off (min cap t.layout.align) + t.layout.size) _ hl
      fun t ht => h t (by simp [fieldTypes, ht])
    simp only [Fields.layouts, place, Fields.slices, encodeFields]
    refine ⟨⟨List.replicate (roundUp off (min cap t.layout.align) - acc.length) 0 ++ t.asSlice x ++ r,
      by rw [i1]; simp⟩, i2, fun s o t' hs => ?_⟩
    simp only [locField] at hs
    by_cases hn : n = s
    · rw [if_pos hn] at hs
      cases hs
      refine ⟨by simp [fieldTypes], x, by rw [Fields.find, if_pos hn], ?_⟩
      rw [i1]
      apply SubAt.append
      intro j y hy
      have hl' : (acc ++ List.replicate (roundUp off (min cap t.layout.align) - acc.length) (0 : UInt8)).length =
          roundUp off (min cap t.layout.align) := by
        simp only [List.length_append, List.length_replicate]; omega
      rw [List.getElem?_append_right (by simp only [hl']; omega), hl', ← hy]
      congr 1; omega
    · rw [if_neg hn] at hs
      obtain ⟨j1, y, j2, j3⟩ := i3 s o t' hs
      exact ⟨by simp [fieldTypes, j1], y, by rw [Fields.find, if_neg hn]; exact j2, j3⟩

theorem struct_bytes (cap : Nat) (hc : 0 < cap) (fs : Fields) (v : fs.Vals)
    (h : ∀ t ∈ fieldTypes fs, 0 < t.layout.align ∧ ∀ x : t.Val, (t.asSlice x).length = t.layout.size) :
    ((Ty.struct cap fs).asSlice v).length = (Ty.struct cap fs).layout.size ∧
    ∀ s o t, locField cap 0 fs s = some (o, t) → t ∈ fieldTypes fs ∧ ∃ x, fs.find v s = some ⟨t, x⟩ ∧
      SubAt ((Ty.struct cap fs).asSlice v) o (t.asSlice x) := by
  obtain ⟨-, h2, h3⟩ := fields_bytes cap hc fs v 0 [] rfl h
  have hpos : 0 < maxAlign cap fs.layouts := by
    cases fs with
    | nil => exact Nat.one_pos
    | cons n t rest =>
      have := (h t (by simp [fieldTypes])).1
      simp only [Fields.layouts, maxAlign]; omega
  have hr := (roundUp_ge (place cap 0 fs.layouts).2 _ hpos).1
  constructor
  · show (encode (structOf cap fs.layouts) (fs.slices v)).length = (structOf cap fs.layouts).size
    rw [encode, structOf]
    simp only [List.length_append, List.length_replicate, h2]
    omega
  · intro s o t hs
    obtain ⟨i1, x, i2, i3⟩ := h3 s o t hs
    exact ⟨i1, x, i2, i3.append _⟩

mutual
theorem sound_ty : ∀ t : Ty, soundTy t = true →
    0 < t.layout.align ∧ ∀ x : t.Val, (t.asSlice x).length = t.layout.size
  | .int n, h => by
    refine ⟨by simpa [soundTy, Ty.layout] using h, fun x => ?_⟩
    rw [Ty.asSlice, Ty.layout]; exact leBytes_length _ _
  | .arr t n, h => by
    obtain ⟨h1, h2⟩ := sound_ty t (by simpa [soundTy] using h)
    refine ⟨h1, fun x => ?_⟩
    show (List.ofFn fun i => t.asSlice (x i)).flatten.length = t.layout.size * n
    rw [flatten_length (w := t.layout.size), List.length_ofFn, Nat.mul_comm]
    intro y hy
    obtain ⟨i, rfl⟩ := List.mem_ofFn.1 hy
    exact h2 _
  | .struct cap fs, h => by
    rw [soundTy, Bool.and_eq_true] at h
    have hc : 0 < cap := by simpa using h.1
    have hf := sound_fields fs h.2
    refine ⟨?_, fun x => (struct_bytes cap hc fs x hf).1⟩
    rw [Ty.layout, structOf]
    show 0 < maxAlign cap fs.layouts
    cases fs with
    | nil => exact Nat.one_pos
    | cons n t rest =>
      have := (hf t (by simp [fieldTypes])).1
      simp only [Fields.layouts, maxAlign]; omega
theorem sound_fields : ∀ fs : Fields, soundFields fs = true →
    ∀ t ∈ fieldTypes fs, 0 < t.layout.align ∧ ∀ x : t.Val, (t.asSlice x).length = t.layout.size
  | .nil, _, t, ht => by simp [fieldTypes] at ht
  | .cons n t rest, h, t', ht => by
    rw [soundFields, Bool.and_eq_true] at h
    rw [fieldTypes] at ht
    rcases List.mem_cons.1 ht with he | ht
    · exact he ▸ sound_ty t h.1
    · exact sound_fields rest h.2 t' ht
end

theorem sound_mem : ∀ fs : Fields, soundFields fs = true → ∀ t ∈ fieldTypes fs, soundTy t = true
  | .nil, _, t, ht => by simp [fieldTypes] at ht
  | .cons n t rest, h, t', ht => by
    rw [soundFields, Bool.and_eq_true] at h
    rw [fieldTypes] at ht
    rcases List.mem_cons.1 ht with rfl | ht
    · exact h.1
    · exact sound_mem rest h.2 t' ht

theorem subAt_flatten {w : Nat} : ∀ {xs : List (List UInt8)}, (∀ x ∈ xs, x.length = w) → ∀ (i : Nat) (x : List UInt8),
    xs[i]? = some x → SubAt xs.flatten (i * w) x
  | [], _, i, x, h => by simp at h
  | y :: xs, hw, 0, x, h => by
    cases h
    intro j z hz
    rw [List.flatten_cons, Nat.zero_mul, Nat.zero_add, List.getElem?_append_left (List.getElem?_eq_some_iff.1 hz).1]
    exact hz
  | y :: xs, hw, i + 1, x, h => by
    have ih := subAt_flatten (xs := xs) (fun x hx => hw x (by simp [hx])) i x (by simpa using h)
    have hy := hw y (by simp)
    intro j z hz
    rw [List.flatten_cons, Nat.add_mul, Nat.one_mul, List.getElem?_append_right (by omega), hy, ← ih j z hz]
    congr 1; omega

/-- An integer is in the memory image at the place its path leads to. -/
theorem get_locate : ∀ (p : List Step) (t : Ty), soundTy t = true → ∀ (v : t.Val) (o n : Nat),
    locate t p = some (o, .int n) →
    ∃ x, t.get v p = some x ∧ x < 256 ^ n ∧ SubAt (t.asSlice v) o (leBytes n x)
  | [], t, _, v, o, n, h => by
    rw [locate] at h
    cases h
    refine ⟨BitVec.toNat (w := 8 * n) v, by rw [Ty.get], ?_, ?_⟩
    · have := BitVec.isLt (w := 8 * n) v
      rwa [Nat.pow_mul] at this
    · rw [Ty.asSlice]
      intro j x hx
      simpa using hx
  | .index i :: p, .int _, _, _, _, _, h => by simp [locate] at h
  | .index i :: p, .struct _ _, _, _, _, _, h => by simp [locate] at h
  | .index i :: p, .arr t k, hs, v, o, n, h => by
    have hs' : soundTy t = true := by simpa [soundTy] using hs
    rw [locate] at h
    by_cases hi : i < k
    · rw [if_pos hi, Option.map_eq_some_iff] at h
      obtain ⟨⟨o', t'⟩, hl, he⟩ := h
      cases he
      obtain ⟨x, h1, h2, h3⟩ := get_locate p t hs' (v ⟨i, hi⟩) o' n hl
      refine ⟨x, by rw [Ty.get, dif_pos hi]; exact h1, h2, ?_⟩
      refine subAt_trans (v := t.asSlice (v ⟨i, hi⟩)) ?_ h3
      rw [Ty.asSlice]
      refine subAt_flatten (fun y hy => ?_) i _ ?_
      · obtain ⟨j, rfl⟩ := List.mem_ofFn.1 hy
        exact (sound_ty t hs').2 _
      · rw [List.getElem?_ofFn, dif_pos hi]
    · rw [if_neg hi] at h; cases h
  | .field s :: p, .int _, _, _, _, _, h => by simp [locate] at h
  | .field s :: p, .arr _ _, _, _, _, _, h => by simp [locate] at h
  | .field s :: p, .struct cap fs, hs, v, o, n, h => by
    rw [soundTy, Bool.and_eq_true] at hs
    have hc : 0 < cap := by simpa using hs.1
    rw [locate] at h
    cases hl : locField cap 0 fs s with
    | none => rw [hl] at h; cases h
    | some q =>
      obtain ⟨o1, t1⟩ := q
      rw [hl] at h
      simp only [Option.map_eq_some_iff] at h
      obtain ⟨⟨o', t'⟩, hl', he⟩ := h
      cases he
      obtain ⟨hm, x, hf, hsub⟩ := (struct_bytes cap hc fs v (sound_fields fs hs.2)).2 s o1 t1 hl
      obtain ⟨y, h1, h2, h3⟩ := get_locate p t1 (sound_mem fs hs.2 t1 hm) x o' n hl'
      exact ⟨y, by rw [Ty.get, hf]; exact h1, h2, subAt_trans hsub h3⟩

/-- The integer read into a structure is the one at the place its path leads to. -/
theorem ofSlices_find (cap : Nat) (b : List UInt8) : ∀ (fs : Fields) (off : Nat) (s : String) (o : Nat) (t : Ty),
    locField cap off fs s = some (o, t) → fs.find (Fields.ofSlices cap fs off b) s = some ⟨t, t.ofSlice (b.drop o)⟩
  | .nil, _, _, _, _, h => by simp [locField] at h
  | .cons n t rest, off, s, o, t', h => by
    simp only [locField] at h
    rw [Fields.ofSlices, Fields.find]
    by_cases hn : n = s
    · rw [if_pos hn] at h ⊢
      cases h; rfl
    · rw [if_neg hn] at h ⊢
      exact ofSlices_find cap b rest _ s o t' h

theorem get_ofSlice : ∀ (p : List Step) (t : Ty) (b : List UInt8) (o n : Nat), locate t p = some (o, .int n) →
    t.get (t.ofSlice b) p = some (leField b o n)
  | [], t, b, o, n, h => by
    rw [locate] at h
    cases h
    show some (BitVec.toNat (BitVec.ofNat (8 * n) (leNat (b.take n)))) = _
    rw [leField, List.drop_zero, BitVec.toNat_ofNat, Nat.pow_mul, Nat.mod_eq_of_lt]
    refine Nat.lt_of_lt_of_le (leNat_lt _) (Nat.pow_le_pow_right (by omega) ?_)
    rw [List.length_take]; omega
  | .index i :: p, .int _, _, _, _, h => by simp [locate] at h
  | .index i :: p, .struct _ _, _, _, _, h => by simp [locate] at h
  | .index i :: p, .arr t k, b, o, n, h => by
    rw [locate] at h
    by_cases hi : i < k
    · rw [if_pos hi, Option.map_eq_some_iff] at h
      obtain ⟨⟨o', t'⟩, hl, he⟩ := h
      cases he
      rw [Ty.get, dif_pos hi, Ty.ofSlice, get_ofSlice p t _ o' n hl, leField, leField, List.drop_drop]
    · rw [if_neg hi] at h; cases h
  | .field s :: p, .int _, _, _, _, h => by simp [locate] at h
  | .field s :: p, .arr _ _, _, _, _, h => by simp [locate] at h
  | .field s :: p, .struct cap fs, b, o, n, h => by
    rw [locate] at h
    cases hl : locField cap 0 fs s with
    | none => rw [hl] at h; cases h
    | some q =>
      obtain ⟨o1, t1⟩ := q
      rw [hl] at h
      simp only [Option.map_eq_some_iff] at h
      obtain ⟨⟨o', t'⟩, hl', he⟩ := h
      cases he
      rw [Ty.get, Ty.ofSlice, ofSlices_find cap b fs 0 s o1 t1 hl]
      show t1.get (t1.ofSlice (b.drop o1)) p = _
      rw [get_ofSlice p t1 _ o' n hl', leField, leField, List.drop_drop]

theorem subAt_drop {b v : List UInt8} {o : Nat} (h : SubAt b o v) : SubAt (b.drop o) 0 v := by
  intro j x hx
  rw [List.getElem?_drop, Nat.zero_add]
  exact h j x hx

theorem subAt_take {b v : List UInt8} (h : SubAt b 0 v) : b.take v.length = v := by
  refine List.ext_getElem? fun j => ?_
  rw [List.getElem?_take]
  split
  · rename_i hj
    have := h j v[j] (List.getElem?_eq_getElem hj)
    rw [Nat.zero_add] at this
    rw [this, List.getElem?_eq_getElem hj]
  · rename_i hj
    rw [List.getElem?_eq_none (by omega)]

mutual
/-- Reading back the bytes of a value gives the value. -/
theorem ofSlice_asSlice : ∀ (t : Ty), soundTy t = true → ∀ (v : t.Val) (b : List UInt8), SubAt b 0 (t.asSlice v) →
    t.ofSlice b = v
  | .int n, _, v, b, h => by
    have := subAt_take h
    have hl : (Ty.asSlice (.int n) v).length = n := leBytes_length _ _
    rw [hl] at this
    show BitVec.ofNat (8 * n) (leNat (b.take n)) = v
    rw [this]
    show BitVec.ofNat (8 * n) (leNat (leBytes n (BitVec.toNat (w := 8 * n) v))) = v
    apply BitVec.eq_of_toNat_eq
    have hv := BitVec.isLt (w := 8 * n) v
    rw [leNat_leBytes, BitVec.toNat_ofNat, Nat.pow_mul, Nat.mod_mod]
    rw [Nat.pow_mul] at hv
    exact Nat.mod_eq_of_lt hv
  | .arr t n, hs, v, b, h => by
    have hs' : soundTy t = true := by simpa [soundTy] using hs
    funext i
    refine ofSlice_asSlice t hs' (v i) _ (subAt_drop ?_)
    have h2 : SubAt (List.ofFn fun i => t.asSlice (v i)).flatten (i.val * t.layout.size) (t.asSlice (v i)) := by
      refine subAt_flatten (fun y hy => ?_) _ _ ?_
      · obtain ⟨j, rfl⟩ := List.mem_ofFn.1 hy
        exact (sound_ty t hs').2 _
      · rw [List.getElem?_ofFn, dif_pos i.isLt]
    have := subAt_trans h h2
    rwa [Nat.zero_add] at this
  | .struct cap fs, hs, v, b, h => by
    rw [soundTy, Bool.and_eq_true] at hs
    have hc : 0 < cap := by simpa using hs.1
    refine ofSlices_slices cap hc fs hs.2 v 0 [] b rfl ?_
    intro j x hx
    refine h j x ?_
    show (encodeFields (place cap 0 fs.layouts).1 (fs.slices v) [] ++ _)[j]? = some x
    rw [List.getElem?_append_left (List.getElem?_eq_some_iff.1 hx).1]
    exact hx
theorem ofSlices_slices (cap : Nat) (hc : 0 < cap) : ∀ (fs : Fields), soundFields fs = true → ∀ (v : fs.Vals) (off : Nat)
    (acc b : List UInt8), acc.length = off → SubAt b 0 (encodeFields (place cap off fs.layouts).1 (fs.slices v) acc) →
    Fields.ofSlices cap fs off b = v
  | .nil, _, _, _, _, _, _, _ => rfl
  | .cons n t rest, hs, (x, xs), off, acc, b, ha, h => by
    rw [soundFields, Bool.and_eq_true] at hs
    obtain ⟨h1, h2⟩ := sound_ty t hs.1
    have hpos : 0 < min cap t.layout.align := by omega
    have hr := (roundUp_ge off _ hpos).1
    have hl : (acc ++ List.replicate (roundUp off (min cap t.layout.align) - acc.length) 0 ++ t.asSlice x).length =
        roundUp off (min cap t.layout.align) + t.layout.size := by
      simp only [List.length_append, List.length_replicate, h2 x]; omega
    obtain ⟨⟨r, i1⟩, -, -⟩ := fields_bytes cap hc rest xs (roundUp off (min cap t.layout.align) + t.layout.size) _ hl
      (sound_fields rest hs.2)
    simp only [Fields.layouts, place, Fields.slices, encodeFields] at h
    have e2 := ofSlices_slices cap hc rest hs.2 xs _ _ b hl h
    have e1 : t.ofSlice (b.drop (roundUp off (min cap t.layout.align))) = x := by
      refine ofSlice_asSlice t hs.1 x _ (subAt_drop ?_)
      rw [i1] at h
      intro j y hy
      have hl' : (acc ++ List.replicate (roundUp off (min cap t.layout.align) - acc.length) (0 : UInt8)).length =
          roundUp off (min cap t.layout.align) := by
        simp only [List.length_append, List.length_replicate]; omega
      have hj := (List.getElem?_eq_some_iff.1 hy).1
      have := h (roundUp off (min cap t.layout.align) + j) y (by
        rw [List.getElem?_append_left (by rw [hl, ← h2 x]; omega), List.getElem?_append_right (by rw [hl']; omega), hl',
          ← hy]
        congr 1; omega)
      rwa [Nat.zero_add] at this
    rw [Fields.ofSlices, e1, e2]
end

/-! ### C105 -/

/-- The path leads to an integer of that size at that offset. -/
def leadsTo (t : Ty) (e : List Step × Nat × Nat) : Bool :=
  match locate t e.1 with
  | some (o, .int n) => o == e.2.1 && n == e.2.2
  | _ => false

theorem leadsTo_spec {t : Ty} {e : List Step × Nat × Nat} (h : leadsTo t e = true) :
    locate t e.1 = some (e.2.1, .int e.2.2) := by
  unfold leadsTo at h
  split at h
  · rename_i o n hl
    simp only [Bool.and_eq_true, beq_iff_eq] at h
    rw [hl, h.1, h.2]
  · cases h

/-- The array is as documented. -/
def arrayAt (t : Ty) (d : ArrayDoc) : Bool :=
  match locate t d.path with
  | some (o, .arr e n) => o == d.base && n == d.count && e.layout.size == d.stride && d.ints.all (leadsTo e)
  | _ => false

theorem locate_append : ∀ (p q : List Step) (t : Ty) (o : Nat) (t' : Ty), locate t p = some (o, t') →
    locate t (p ++ q) = (locate t' q).map fun r => (o + r.1, r.2)
  | [], q, t, o, t', h => by
    rw [locate] at h
    cases h
    simp
  | .index i :: p, q, .int _, _, _, h => by simp [locate] at h
  | .index i :: p, q, .struct _ _, _, _, h => by simp [locate] at h
  | .index i :: p, q, .arr t k, o, t', h => by
    rw [locate] at h
    by_cases hi : i < k
    · rw [if_pos hi, Option.map_eq_some_iff] at h
      obtain ⟨⟨o', t''⟩, hl, he⟩ := h
      cases he
      rw [List.cons_append, locate, if_pos hi, locate_append p q t o' _ hl, Option.map_map]
      simp only [Function.comp_def, Nat.add_assoc]
    · rw [if_neg hi] at h; cases h
  | .field s :: p, q, .int _, _, _, h => by simp [locate] at h
  | .field s :: p, q, .arr _ _, _, _, h => by simp [locate] at h
  | .field s :: p, q, .struct cap fs, o, t', h => by
    rw [locate] at h
    cases hl : locField cap 0 fs s with
    | none => rw [hl] at h; cases h
    | some r =>
      obtain ⟨o1, t1⟩ := r
      rw [hl] at h
      simp only [Option.map_eq_some_iff] at h
      obtain ⟨⟨o', t''⟩, hl', he⟩ := h
      cases he
      rw [List.cons_append, locate, hl]
      show (locate t1 (p ++ q)).map _ = _
      rw [locate_append p q t1 o' _ hl', Option.map_map]
      simp only [Function.comp_def, Nat.add_assoc]

theorem arrayAt_spec {t : Ty} {d : ArrayDoc} (h : arrayAt t d = true) (i : Nat) (hi : i < d.count)
    (e : List Step × Nat × Nat) (he : e ∈ d.ints) :
    locate t (d.path ++ .index i :: e.1) = some (d.base + (d.stride * i + e.2.1), .int e.2.2) := by
  unfold arrayAt at h
  split at h
  · rename_i o et n hl
    simp only [Bool.and_eq_true, beq_iff_eq, List.all_eq_true] at h
    obtain ⟨⟨⟨h1, h2⟩, h3⟩, h4⟩ := h
    rw [locate_append _ _ _ _ _ hl, locate, if_pos (by omega), leadsTo_spec (h4 e he)]
    simp only [Option.map_some, h1, h3, Nat.mul_comm i]
  · cases h

theorem zeroPageInts_located : ∀ e ∈ zeroPageInts, leadsTo bootParams e = true := by decide +kernel
theorem zeroPageArrays_located : ∀ d ∈ zeroPageArrays, arrayAt bootParams d = true := by decide +kernel
theorem bootParams_sound : soundTy bootParams = true := by decide +kernel

theorem zero_page_at {v : bootParams.Val} {a : GuestAddr} {m m' : Mem} (hw : m.WF)
    (h : linuxWrite (BootParams.new (bootParams.asSlice v) a) m = (.ok (), m')) {p : List Step} {o n : Nat}
    (hl : locate bootParams p = some (o, .int n)) :
    ∃ x, bootParams.get v p = some x ∧ readLE m'.data (a.toNat + o) n = x := by
  obtain ⟨x, h1, h2, h3⟩ := get_locate p bootParams bootParams_sound v o n hl
  exact ⟨x, h1, readLE_leBytes (holds_subAt (C28_success _ m m' hw h).2.1 h3) h2⟩

/-- **C105.** After the Linux configurator has written a `boot_params` value, the kernel finds every integer of the
zero page and of the structures in it at its documented place with its value. -/
theorem C105_zero_page (v : bootParams.Val) (a : GuestAddr) (m m' : Mem) (hw : m.WF)
    (h : linuxWrite (BootParams.new (bootParams.asSlice v) a) m = (.ok (), m')) :
    ∀ e ∈ zeroPageInts, ∃ x, bootParams.get v e.1 = some x ∧ readLE m'.data (a.toNat + e.2.1) e.2.2 = x :=
  fun e he => zero_page_at hw h (leadsTo_spec (zeroPageInts_located e he))

/-- **C105** for the arrays of the zero page, whatever the index. -/
theorem C105_arrays (v : bootParams.Val) (a : GuestAddr) (m m' : Mem) (hw : m.WF)
    (h : linuxWrite (BootParams.new (bootParams.asSlice v) a) m = (.ok (), m')) :
    ∀ d ∈ zeroPageArrays, ∀ i, i < d.count → ∀ e ∈ d.ints, ∃ x,
      bootParams.get v (d.path ++ .index i :: e.1) = some x ∧
      readLE m'.data (a.toNat + (d.base + d.stride * i) + e.2.1) e.2.2 = x := by
  intro d hd i hi e he
  have := zero_page_at hw h (arrayAt_spec (zeroPageArrays_located d hd) i hi e he)
  simpa only [Nat.add_assoc] using this

theorem distinguishable {t : Ty} (hs : soundTy t = true) (v w : t.Val) (a : GuestAddr) (m₁ m₂ m₁' m₂' : Mem)
    (h₁ : m₁.WF) (h₂ : m₂.WF) (hv : linuxWrite (BootParams.new (t.asSlice v) a) m₁ = (.ok (), m₁'))
    (hw : linuxWrite (BootParams.new (t.asSlice w) a) m₂ = (.ok (), m₂'))
    (h : ∀ x, InRange a.toNat t.layout.size x → m₁'.data x = m₂'.data x) : v = w := by
  have b1 := (C28_success _ m₁ m₁' h₁ hv).2.1
  have b2 := (C28_success _ m₂ m₂' h₂ hw).2.1
  have l1 := (sound_ty t hs).2 v
  have l2 := (sound_ty t hs).2 w
  have he : t.asSlice v = t.asSlice w := by
    refine List.ext_getElem (by omega) fun j hj1 hj2 => ?_
    have e1 := b1 j _ (List.getElem?_eq_getElem hj1)
    have e2 := b2 j _ (List.getElem?_eq_getElem hj2)
    rw [← e1, ← e2]
    exact h _ ⟨by simp only [BootParams.new]; omega, by simp only [BootParams.new]; omega⟩
  rw [← ofSlice_asSlice t hs v (t.asSlice w) (by rw [he]; intro j x hx; simpa using hx)]
  exact ofSlice_asSlice t hs w _ (by intro j x hx; simpa using hx)

theorem bootParams_size : bootParams.layout.size = 4096 := by decide +kernel

/-- **C105.** No two `boot_params` values look the same to the guest. -/
theorem C105_distinguishable (v w : bootParams.Val) (a : GuestAddr) (m₁ m₂ m₁' m₂' : Mem) (h₁ : m₁.WF) (h₂ : m₂.WF)
    (hv : linuxWrite (BootParams.new (bootParams.asSlice v) a) m₁ = (.ok (), m₁'))
    (hw : linuxWrite (BootParams.new (bootParams.asSlice w) a) m₂ = (.ok (), m₂'))
    (h : ∀ x, InRange a.toNat 4096 x → m₁'.data x = m₂'.data x) : v = w :=
  distinguishable bootParams_sound v w a m₁ m₂ m₁' m₂' h₁ h₂ hv hw (by rw [bootParams_size]; exact h)

theorem setupHeader_located : ∀ f ∈ setupHeaderDoc, 0x1f1 ≤ f.2.1 ∧ f.2.1 + f.2.2 ≤ 0x26c ∧
    (f.1 = "code32_start" ∨ f.2.1 + f.2.2 ≤ 0x214 ∨ 0x218 ≤ f.2.1) ∧
    leadsTo setupHeader ([.field f.1], f.2.1 - 0x1f1, f.2.2) = true := by decide +kernel

/-- **C105** for a header read from an image: the fields of the setup header returned by `BzImage::load`, accessed by
name, are those of the image at their documented offsets, except for `code32_start`, which is the load address. -/
theorem C105_returned_header {koff highmem : Option GuestAddr} {s s' : LS} {r : LoadResult} (hns : NoShortReads s)
    (h : bzLoad koff highmem s = (.ok r, s')) :
    ∃ hdr, r.setupHeader = some hdr ∧
      (∀ f ∈ setupHeaderDoc, f.1 ≠ "code32_start" →
        setupHeader.get (setupHeader.ofSlice hdr) [.field f.1] = some (leField s.rd.data f.2.1 f.2.2)) ∧
      setupHeader.get (setupHeader.ofSlice hdr) [.field "code32_start"] = some (r.kernelLoad % 0x100000000) := by
  obtain ⟨hdr, h1, h2, h3, h4⟩ := C48_bz_setup_header hns h
  refine ⟨hdr, h1, fun ⟨nm, off, k⟩ hf hne => ?_, ?_⟩
  · obtain ⟨g1, g2, g3, g4⟩ := setupHeader_located _ hf
    simp only at g1 g2 g3 g4 hne ⊢
    rw [get_ofSlice _ _ _ _ _ (leadsTo_spec g4)]
    refine congrArg some (leField_shift fun i hi => ?_)
    simp only at hi ⊢
    have := g3.resolve_left hne
    rw [h3 _ (by omega) (by omega)]
    congr 1
    omega
  · obtain ⟨-, -, -, g4⟩ := setupHeader_located ("code32_start", 0x214, 4) (by decide)
    rw [get_ofSlice _ _ _ _ _ (leadsTo_spec g4)]
    exact congrArg some h4

/-! ### A concrete zero page: an EFI system table, two memory map entries, a disk -/

/-- Its bytes. -/
def deepBytes : List UInt8 :=
  List.replicate 0x1c4 0 ++ [0x78, 0x56, 0x34, 0x12] ++ List.replicate (0x1e8 - 0x1c8) 0 ++ [2, 1] ++
  List.replicate (0x2d0 + 20 - 0x1ea) 0 ++ [0, 0, 0x10, 0, 0, 0, 0, 0, 0, 0, 0, 8, 0, 0, 0, 0, 1, 0, 0, 0] ++
  List.replicate (0xd00 - 0x2d0 - 40) 0 ++ [0x80] ++ List.replicate 0x2ff 0

/-- Its value. -/
def deepValue : bootParams.Val := bootParams.ofSlice deepBytes

theorem deep_written : (linuxWrite (BootParams.new (bootParams.asSlice deepValue) 0x1000) zpMem).1 = .ok () := by
  decide +kernel

/-- A value with the fields of the introduction set. -/
example : bootParams.get deepValue [.field "efi_info", .field "efi_systab"] = some 0x12345678 ∧
    bootParams.get deepValue [.field "e820_table", .index 1, .field "addr"] = some 0x100000 ∧
    bootParams.get deepValue [.field "eddbuf", .index 0, .field "device"] = some 0x80 ∧
    bootParams.get deepValue [.field "hdr", .index 0] = none := by decide +kernel

example := C105_zero_page deepValue 0x1000 zpMem _ zpMem_wf (ran deep_written)
  ([.field "efi_info", .field "efi_systab"], 0x1c4, 4) (by decide +kernel)

example := C105_arrays deepValue 0x1000 zpMem _ zpMem_wf (ran deep_written) _
  (.tail _ (.tail _ (.tail _ (.tail _ (.tail _ (.head _)))))) 1 (by decide) ([.field "addr"], 0, 8) (.head _)

example := C105_distinguishable deepValue deepValue 0x1000 zpMem zpMem _ _ zpMem_wf zpMem_wf (ran deep_written)
  (ran deep_written) (fun _ _ => rfl)

example := C105_returned_header bzState_full (ran demoBz_loads)

end LinuxLoader
