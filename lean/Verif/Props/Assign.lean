import Verif.Props.ZeroPageDeep

/-!
# Assignments to fields of `boot_params` (C105)
-/

namespace LinuxLoader
open Layout Types Spec

/-- `b'` is `b` with `w` at offset `o`. -/
def PatchAt (b b' : List UInt8) (o : Nat) (w : List UInt8) : Prop :=
  b'.length = b.length ∧ (∀ j, j < o ∨ o + w.length ≤ j → b'[j]? = b[j]?) ∧ SubAt b' o w

theorem PatchAt.trans {b b' c c' w : List UInt8} {o o' : Nat} (hb : SubAt b o c) (h : PatchAt b b' o c')
    (h' : PatchAt c c' o' w) : PatchAt b b' (o + o') w := by
  obtain ⟨h1, h2, h3⟩ := h
  obtain ⟨g1, g2, g3⟩ := h'
  refine ⟨h1, fun j hj => ?_, subAt_trans h3 g3⟩
  by_cases hi : o ≤ j ∧ j < o + c.length
  · have hlt : j - o < c.length := by omega
    have e1 := hb (j - o) _ (List.getElem?_eq_getElem hlt)
    have e2 := h3 (j - o) c'[j - o] (List.getElem?_eq_getElem (by omega))
    have e3 := g2 (j - o) (by omega)
    rw [List.getElem?_eq_getElem hlt, List.getElem?_eq_getElem (by omega)] at e3
    rw [show o + (j - o) = j by omega] at e1 e2
    rw [e1, e2, e3]
  · exact h2 j (by omega)

theorem encodeFields_tail : ∀ (fs : List (String × Nat × Nat)) (vs : List (List UInt8)) (L : Nat),
    ∃ r, ∀ acc : List UInt8, acc.length = L → encodeFields fs vs acc = acc ++ r
  | [], _, _ => ⟨[], fun acc _ => by simp [encodeFields]⟩
  | _ :: _, [], _ => ⟨[], fun acc _ => by simp [encodeFields]⟩
  | (n, o, k) :: fs, v :: vs, L => by
    obtain ⟨r, hr⟩ := encodeFields_tail fs vs (L + (o - L) + v.length)
    refine ⟨List.replicate (o - L) 0 ++ v ++ r, fun acc ha => ?_⟩
    rw [encodeFields, hr _ (by simp only [List.length_append, List.length_replicate, ha]), ha]
    simp

theorem update_here {n s : String} (h : n = s) (t : Ty) (rest : Fields) (x : t.Val) (xs : rest.Vals)
    (f : (t : Ty) → t.Val → t.Val) : (Fields.cons n t rest).update (x, xs) s f = ((f t x, xs) : t.Val × rest.Vals) :=
  if_pos h

theorem update_there {n s : String} (h : ¬ n = s) (t : Ty) (rest : Fields) (x : t.Val) (xs : rest.Vals)
    (f : (t : Ty) → t.Val → t.Val) :
    (Fields.cons n t rest).update (x, xs) s f = ((x, rest.update xs s f) : t.Val × rest.Vals) :=
  if_neg h

theorem leBytes_mod : ∀ n x : Nat, leBytes n (x % 256 ^ n) = leBytes n x
  | 0, _ => rfl
  | n + 1, x => by
    rw [leBytes, leBytes, Nat.pow_succ, Nat.mul_comm, Nat.mod_mul_right_div_self, leBytes_mod n]
    congr 1
    rw [← UInt8.toNat_inj, UInt8.toNat_ofNat', UInt8.toNat_ofNat']
    exact Nat.mod_mod_of_dvd _ (Nat.dvd_mul_right _ _)

theorem patch_middle {A c c' : List UInt8} {o k : Nat} (hA : A.length = o) (hc : c.length = k) (hc' : c'.length = k)
    (r : List UInt8) : PatchAt (A ++ c ++ r) (A ++ c' ++ r) o c' := by
  subst hA
  refine ⟨by simp [hc, hc'], fun j hj => ?_, ?_⟩
  · simp only [List.append_assoc]
    rcases hj with hj | hj
    · rw [List.getElem?_append_left hj, List.getElem?_append_left hj]
    · rw [List.getElem?_append_right (by omega), List.getElem?_append_right (by omega),
        List.getElem?_append_right (by omega), List.getElem?_append_right (by omega), hc, hc']
  · intro j z hz
    have hj := (List.getElem?_eq_some_iff.1 hz).1
    rw [List.append_assoc, List.getElem?_append_right (by omega), List.getElem?_append_left (by omega), ← hz]
    congr 1; omega

theorem fields_patch (cap : Nat) (hc : 0 < cap) (f : (t : Ty) → t.Val → t.Val) : ∀ (fs : Fields) (v : fs.Vals) (off : Nat)
    (acc : List UInt8), acc.length = off →
    (∀ t ∈ fieldTypes fs, 0 < t.layout.align ∧ ∀ x : t.Val, (t.asSlice x).length = t.layout.size) →
    ∀ s o t x, locField cap off fs s = some (o, t) → fs.find v s = some ⟨t, x⟩ →
      PatchAt (encodeFields (place cap off fs.layouts).1 (fs.slices v) acc)
        (encodeFields (place cap off fs.layouts).1 (fs.slices (fs.update v s f)) acc) o (t.asSlice (f t x))
  | .nil, _, off, acc, ha, _, s, o, t, x, h, _ => by simp [locField] at h
  | .cons n t rest, (y, ys), off, acc, ha, h, s, o, t', x, hl, hf => by
    obtain ⟨h1, h2⟩ := h t (by simp [fieldTypes])
    have hpos : 0 < min cap t.layout.align := by omega
    have hr := (roundUp_ge off _ hpos).1
    have hlen : ∀ z : t.Val, (acc ++ List.replicate (roundUp off (min cap t.layout.align) - acc.length) 0 ++
        t.asSlice z).length = roundUp off (min cap t.layout.align) + t.layout.size := by
      intro z
      simp only [List.length_append, List.length_replicate, h2 z]; omega
    simp only [Fields.layouts, place, Fields.slices, encodeFields]
    simp only [locField] at hl
    rw [Fields.find] at hf
    by_cases hn : n = s
    · rw [if_pos hn] at hl hf
      cases hl
      obtain ⟨-, rfl⟩ : t = t ∧ y = x := by
        injection hf with hf; injection hf with _ hf; exact ⟨rfl, hf⟩
      rw [update_here hn]
      simp only [Fields.slices, encodeFields]
      obtain ⟨r, hr'⟩ := encodeFields_tail (place cap (roundUp off (min cap t.layout.align) + t.layout.size) rest.layouts).1
        (rest.slices ys) _
      rw [hr' _ (hlen y), hr' _ (hlen (f t y))]
      have hl' : (acc ++ List.replicate (roundUp off (min cap t.layout.align) - acc.length) (0 : UInt8)).length =
          roundUp off (min cap t.layout.align) := by
        simp only [List.length_append, List.length_replicate]; omega
      exact patch_middle hl' (h2 y) (h2 (f t y)) r
    · rw [if_neg hn] at hl hf
      rw [update_there hn]
      simp only [Fields.slices, encodeFields]
      exact fields_patch cap hc f rest ys _ _ (hlen y) (fun t ht => h t (by simp [fieldTypes, ht])) s o t' x hl hf

theorem arr_patch {t : Ty} (hs : soundTy t = true) {k : Nat} (v u : Fin k → t.Val) (i : Nat) (hi : i < k)
    (h : ∀ j : Fin k, j.val ≠ i → u j = v j) :
    PatchAt (List.ofFn fun j => t.asSlice (v j)).flatten (List.ofFn fun j => t.asSlice (u j)).flatten
      (i * t.layout.size) (t.asSlice (u ⟨i, hi⟩)) := by
  have hw : ∀ u : Fin k → t.Val, ∀ y ∈ List.ofFn fun i => t.asSlice (u i), y.length = t.layout.size := by
    intro u y hy
    obtain ⟨j, rfl⟩ := List.mem_ofFn.1 hy
    exact (sound_ty t hs).2 _
  have hsub : ∀ u : Fin k → t.Val, ∀ j : Fin k,
      SubAt (List.ofFn fun i => t.asSlice (u i)).flatten (j.val * t.layout.size) (t.asSlice (u j)) := by
    intro u j
    refine subAt_flatten (hw u) _ _ ?_
    rw [List.getElem?_ofFn, dif_pos j.isLt]
  have hlen : ∀ u : Fin k → t.Val, (List.ofFn fun i => t.asSlice (u i)).flatten.length = k * t.layout.size := by
    intro u
    rw [flatten_length (hw u), List.length_ofFn]
  refine ⟨by rw [hlen, hlen], fun j hj => ?_, hsub u ⟨i, hi⟩⟩
  rw [(sound_ty t hs).2] at hj
  by_cases hj2 : j < k * t.layout.size
  · have hpos : 0 < t.layout.size := by
      rcases Nat.eq_zero_or_pos t.layout.size with h0 | h0
      · rw [h0] at hj2; omega
      · exact h0
    have hq : j / t.layout.size < k := by
      rw [Nat.div_lt_iff_lt_mul hpos]; exact hj2
    have hdm := Nat.div_add_mod j t.layout.size
    have hm := Nat.mod_lt j hpos
    have hne : j / t.layout.size ≠ i := by
      intro he
      rw [he, Nat.mul_comm] at hdm
      omega
    have key : ∀ u : Fin k → t.Val, (List.ofFn fun i => t.asSlice (u i)).flatten[j]? =
        (t.asSlice (u ⟨j / t.layout.size, hq⟩))[j % t.layout.size]? := by
      intro u
      have hlt : j % t.layout.size < (t.asSlice (u ⟨j / t.layout.size, hq⟩)).length := by
        rw [(sound_ty t hs).2]; exact hm
      have := hsub u ⟨j / t.layout.size, hq⟩ _ _ (List.getElem?_eq_getElem hlt)
      simp only [Nat.mul_comm (j / t.layout.size), hdm] at this
      rw [this, List.getElem?_eq_getElem hlt]
    rw [key, key, h _ hne]
  · rw [List.getElem?_eq_none (by rw [hlen]; omega), List.getElem?_eq_none (by rw [hlen]; omega)]

theorem struct_patch (cap : Nat) (fs : Fields) (v u : fs.Vals) {o : Nat} {w : List UInt8}
    (h : PatchAt (encodeFields (place cap 0 fs.layouts).1 (fs.slices v) [])
      (encodeFields (place cap 0 fs.layouts).1 (fs.slices u) []) o w) :
    PatchAt (encode (structOf cap fs.layouts) (fs.slices v)) (encode (structOf cap fs.layouts) (fs.slices u)) o w := by
  obtain ⟨p1, p2, p3⟩ := h
  have e : ∀ w : fs.Vals, encode (structOf cap fs.layouts) (fs.slices w) =
      encodeFields (place cap 0 fs.layouts).1 (fs.slices w) [] ++ List.replicate
        ((structOf cap fs.layouts).size - (encodeFields (place cap 0 fs.layouts).1 (fs.slices w) []).length) 0 :=
    fun _ => rfl
  rw [e, e, p1]
  refine ⟨by simp [p1], fun j hj => ?_, p3.append _⟩
  by_cases hj2 : j < (encodeFields (place cap 0 fs.layouts).1 (fs.slices v) []).length
  · rw [List.getElem?_append_left (by rw [p1]; exact hj2), List.getElem?_append_left hj2]
    exact p2 j hj
  · rw [List.getElem?_append_right (by rw [p1]; omega), List.getElem?_append_right (by omega), p1]

/-- What an assignment does to the memory image. -/
theorem set_patch : ∀ (p : List Step) (t : Ty), soundTy t = true → ∀ (v : t.Val) (o n x : Nat),
    locate t p = some (o, .int n) →
    PatchAt (t.asSlice v) (t.asSlice (t.set v p x)) o (leBytes n x)
  | [], t, _, v, o, n, x, h => by
    rw [locate] at h
    cases h
    have e : (Ty.int n).asSlice ((Ty.int n).set v [] x) = leBytes n x := by
      show leBytes n (BitVec.toNat (BitVec.ofNat (8 * n) x)) = leBytes n x
      rw [BitVec.toNat_ofNat, Nat.pow_mul]
      exact leBytes_mod n x
    have l : ((Ty.int n).asSlice v).length = n := leBytes_length _ _
    rw [e]
    refine ⟨by rw [l, leBytes_length], fun j hj => ?_, fun j y hy => by simpa using hy⟩
    rw [leBytes_length] at hj
    rw [List.getElem?_eq_none (by rw [leBytes_length]; omega), List.getElem?_eq_none (by omega)]
  | .index i :: p, .int _, _, _, _, _, _, h => by simp [locate] at h
  | .index i :: p, .struct _ _, _, _, _, _, _, h => by simp [locate] at h
  | .index i :: p, .arr t k, hs, v, o, n, x, h => by
    have hs' : soundTy t = true := by simpa [soundTy] using hs
    rw [locate] at h
    by_cases hi : i < k
    · rw [if_pos hi, Option.map_eq_some_iff] at h
      obtain ⟨⟨o', t'⟩, hl, he⟩ := h
      cases he
      have h1 := set_patch p t hs' (v ⟨i, hi⟩) o' n x hl
      have h2 := arr_patch hs' v (fun j => if j.val = i then t.set (v j) p x else v j) i hi
        (fun j hj => if_neg hj)
      simp only [if_pos] at h2
      refine PatchAt.trans (b := (Ty.arr t k).asSlice v) (c := t.asSlice (v ⟨i, hi⟩)) ?_ h2 h1
      refine subAt_flatten (fun y hy => ?_) _ _ ?_
      · obtain ⟨j, rfl⟩ := List.mem_ofFn.1 hy
        exact (sound_ty t hs').2 _
      · rw [List.getElem?_ofFn, dif_pos hi]
    · rw [if_neg hi] at h; cases h
  | .field s :: p, .int _, _, _, _, _, _, h => by simp [locate] at h
  | .field s :: p, .arr _ _, _, _, _, _, _, h => by simp [locate] at h
  | .field s :: p, .struct cap fs, hs, v, o, n, x, h => by
    rw [soundTy, Bool.and_eq_true] at hs
    have hc : 0 < cap := by simpa using hs.1
    have hfs := sound_fields fs hs.2
    rw [locate] at h
    cases hl : locField cap 0 fs s with
    | none => rw [hl] at h; cases h
    | some q =>
      obtain ⟨o1, t1⟩ := q
      rw [hl] at h
      simp only [Option.map_eq_some_iff] at h
      obtain ⟨⟨o', t'⟩, hl', he⟩ := h
      cases he
      obtain ⟨hlen, hst⟩ := struct_bytes cap hc fs v hfs
      obtain ⟨hm, y, hf, hsub⟩ := hst s o1 t1 hl
      have h1 := set_patch p t1 (sound_mem fs hs.2 t1 hm) y o' n x hl'
      refine PatchAt.trans hsub ?_ h1
      exact struct_patch cap fs v (fs.update v s fun t z => t.set z p x)
        (fields_patch cap hc (fun t z => t.set z p x) fs v 0 [] rfl hfs s o1 t1 y hl hf)

/-! ### C105 -/

theorem zeroPageInt_located {p : List Step} {o n : Nat} (h : ZeroPageInt p o n) :
    locate bootParams p = some (o, .int n) := by
  rcases h with h | ⟨d, hd, i, hi, e, he, rfl, rfl, rfl⟩
  · exact leadsTo_spec (zeroPageInts_located _ h)
  · rw [arrayAt_spec (zeroPageArrays_located d hd) i hi e he, Nat.add_assoc]

theorem assign_guest {t : Ty} (hs : soundTy t = true) {p : List Step} {o n : Nat} (hl : locate t p = some (o, .int n))
    (v : t.Val) (x : Nat) (a : GuestAddr) (m m₁ : Mem) (hw : m.WF)
    (h : linuxWrite (BootParams.new (t.asSlice v) a) m = (.ok (), m₁)) :
    ∃ m₂, linuxWrite (BootParams.new (t.asSlice (t.set v p x)) a) m = (.ok (), m₂) ∧
      readLE m₂.data (a.toNat + o) n = x % 256 ^ n ∧
      ∀ y, ¬ InRange (a.toNat + o) n y → m₂.data y = m₁.data y := by
  obtain ⟨q1, q2, q3⟩ := set_patch p t hs v o n x hl
  have hok : (linuxWrite (BootParams.new (t.asSlice (t.set v p x)) a) m).1 = .ok () := by
    refine (C29_exact _ m hw).2.1.2 ?_
    have := (C29_exact _ m hw).2.1.1 (by rw [h])
    simp only [BootParams.new] at this ⊢
    rw [q1]
    exact this
  have s1 : Stored m m₁ a.toNat (t.asSlice v) := C28_success _ m m₁ hw h
  have s2 : Stored m _ a.toNat (t.asSlice (t.set v p x)) := C28_success _ m _ hw (ran hok)
  refine ⟨_, ran hok, ?_, fun y hy => ?_⟩
  · rw [← leBytes_mod] at q3
    exact readLE_leBytes (holds_subAt s2.2.1 q3) (Nat.mod_lt _ (Nat.pow_pos (by omega)))
  · by_cases hin : InRange a.toNat (t.asSlice v).length y
    · obtain ⟨hy1, hy2⟩ := hin
      have hlt : y - a.toNat < (t.asSlice v).length := by omega
      have e1 := s1.2.1 (y - a.toNat) _ (List.getElem?_eq_getElem hlt)
      have e2 := s2.2.1 (y - a.toNat) (t.asSlice (t.set v p x))[y - a.toNat] (List.getElem?_eq_getElem (by omega))
      have e3 := q2 (y - a.toNat) (by
        rw [leBytes_length]
        by_cases hc : y - a.toNat < o
        · exact .inl hc
        · refine .inr ?_
          refine Nat.le_of_not_lt fun hc2 => hy ⟨by omega, by omega⟩)
      rw [List.getElem?_eq_getElem hlt, List.getElem?_eq_getElem (by omega)] at e3
      rw [show a.toNat + (y - a.toNat) = y by omega] at e1 e2
      rw [e1, e2]
      exact Option.some.inj e3
    · rw [s1.2.2 y hin, s2.2.2 y (by rw [q1]; exact hin)]

/-- **C105.** Assigning to a field of `boot_params`, at any depth and whatever the index, changes for the guest
exactly the bytes where the kernel looks for this field. -/
theorem C105_assign {p : List Step} {o n : Nat} (hz : ZeroPageInt p o n) (v : bootParams.Val) (x : Nat) (a : GuestAddr)
    (m m₁ : Mem) (hw : m.WF) (h : linuxWrite (BootParams.new (bootParams.asSlice v) a) m = (.ok (), m₁)) :
    ∃ m₂, linuxWrite (BootParams.new (bootParams.asSlice (bootParams.set v p x)) a) m = (.ok (), m₂) ∧
      readLE m₂.data (a.toNat + o) n = x % 256 ^ n ∧
      ∀ y, ¬ InRange (a.toNat + o) n y → m₂.data y = m₁.data y :=
  assign_guest bootParams_sound (zeroPageInt_located hz) v x a m m₁ hw h

example := C105_assign (p := [.field "hdr", .field "type_of_loader"]) (o := 0x210) (n := 1) (.inl (by decide +kernel))
  deepValue 0xff 0x1000 zpMem _ zpMem_wf (ran deep_written)

example := C105_assign (p := [.field "e820_table", .index 3, .field "size"]) (o := 0x2d0 + 20 * 3 + 8) (n := 8)
  (.inr ⟨_, .tail _ (.tail _ (.tail _ (.tail _ (.tail _ (.head _))))), 3, by decide, ([.field "size"], 8, 8),
    .tail _ (.head _), rfl, rfl, rfl⟩) deepValue 0x40000000 0x1000 zpMem _ zpMem_wf (ran deep_written)

end LinuxLoader
