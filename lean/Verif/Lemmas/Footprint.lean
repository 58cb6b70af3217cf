import Verif.Spec.Footprint
import Verif.Lemmas.Elf

/-! # The loaders on two images that agree where it matters -/

namespace LinuxLoader
open Spec

/-- Related outcomes. -/
def ResRel {ε α : Type} (R : α → α → Prop) : Res ε α → Res ε α → Prop
  | .ok a, .ok b => R a b
  | .err e, .err f => e = f
  | .panic, .panic => True
  | _, _ => False

theorem ResRel.refl {ε α : Type} (r : Res ε α) : ResRel Eq r r := by cases r <;> simp [ResRel]

theorem ResRel.eq {ε α : Type} {r r' : Res ε α} (h : ResRel Eq r r') : r = r' := by
  cases r <;> cases r' <;> simp_all [ResRel]

/-- `g` on the image `d'` does what `f` does on the present one, with results related by `R`. -/
structure AlikeR {ε α : Type} (d' : List UInt8) (R : α → α → Prop) (f g : LM LS ε α) (s : LS) : Prop where
  data : (f s).2.rd.data = s.rd.data
  st : (g (s.withImage d')).2 = (f s).2.withImage d'
  res : ResRel R (f s).1 (g (s.withImage d')).1

namespace AlikeR
variable {ε α β : Type} {d' : List UInt8} {s : LS}

theorem ofRes (r : Res ε α) : AlikeR d' Eq (LM.ofRes r) (LM.ofRes r) s := ⟨rfl, rfl, ResRel.refl _⟩

theorem pure (a : α) : AlikeR d' Eq (Pure.pure a : LM LS ε α) (Pure.pure a) s := ofRes (.ok a)

theorem pureR {R : α → α → Prop} {a b : α} (h : R a b) :
    AlikeR d' R (Pure.pure a : LM LS ε α) (Pure.pure b) s := ⟨rfl, rfl, h⟩

theorem okOr (o : Option α) (e : ε) : AlikeR d' Eq (LM.okOr o e) (LM.okOr o e) s := by
  cases o with
  | none => exact ofRes (.err e)
  | some a => exact ofRes (.ok a)

theorem require (b : Bool) (e : ε) : AlikeR d' Eq (LM.require b e) (LM.require b e) s := by
  cases b with
  | false => exact ofRes (.err e)
  | true => exact ofRes (.ok ())

theorem bind {R : α → α → Prop} {Q : β → β → Prop} {x y : LM LS ε α} {f g : α → LM LS ε β}
    (hx : AlikeR d' R x y s)
    (hf : ∀ a b s₁, x s = (.ok a, s₁) → s₁.rd.data = s.rd.data → R a b → AlikeR d' Q (f a) (g b) s₁) :
    AlikeR d' Q (x >>= f) (y >>= g) s := by
  obtain ⟨hd, hst, hr⟩ := hx
  rcases hxs : x s with ⟨r, s₁⟩
  rcases hys : y (s.withImage d') with ⟨q, t₁⟩
  rw [hxs] at hd hst hr
  rw [hys] at hst hr
  simp only at hd hst hr
  subst hst
  cases r with
  | ok a =>
    cases q with
    | ok b =>
      have h := hf a b s₁ hxs hd hr
      refine ⟨?_, ?_, ?_⟩
      · rw [LM.bind_ok hxs]; exact h.data.trans hd
      · rw [LM.bind_ok hxs, LM.bind_ok hys]; exact h.st
      · rw [LM.bind_ok hxs, LM.bind_ok hys]; exact h.res
    | err e => exact absurd hr (by simp [ResRel])
    | panic => exact absurd hr (by simp [ResRel])
  | err e =>
    cases q with
    | ok b => exact absurd hr (by simp [ResRel])
    | err e' =>
      refine ⟨?_, ?_, ?_⟩
      · rw [LM.bind_err hxs]; exact hd
      · rw [LM.bind_err hxs, LM.bind_err hys]
      · rw [LM.bind_err hxs, LM.bind_err hys]; exact hr
    | panic => exact absurd hr (by simp [ResRel])
  | panic =>
    cases q with
    | ok b => exact absurd hr (by simp [ResRel])
    | err e' => exact absurd hr (by simp [ResRel])
    | panic =>
      refine ⟨?_, ?_, ?_⟩
      · rw [LM.bind_panic hxs]; exact hd
      · rw [LM.bind_panic hxs, LM.bind_panic hys]
      · rw [LM.bind_panic hxs, LM.bind_panic hys]; exact hr

theorem bindEq {Q : β → β → Prop} {x y : LM LS ε α} {f g : α → LM LS ε β} (hx : AlikeR d' Eq x y s)
    (hf : ∀ a s₁, x s = (.ok a, s₁) → s₁.rd.data = s.rd.data → AlikeR d' Q (f a) (g a) s₁) :
    AlikeR d' Q (x >>= f) (y >>= g) s :=
  bind hx fun a _ s₁ h hd hab => hab ▸ hf a s₁ h hd

theorem ioFails_withImage : ioFails (s.withImage d') = ioFails s := rfl

theorem seekStart (p : Nat) (e : ε) : AlikeR d' Eq (seekStart p e) (seekStart p e) s := by
  have h := ioFails_withImage (s := s) (d' := d')
  cases hf : ioFails s with
  | true =>
    rw [hf] at h
    refine ⟨?_, ?_, ?_⟩ <;> simp only [LinuxLoader.seekStart, hf, h, if_true, ResRel] <;> rfl
  | false =>
    rw [hf] at h
    refine ⟨?_, ?_, ?_⟩ <;> simp only [LinuxLoader.seekStart, hf, h, Bool.false_eq_true, if_false, ResRel] <;> rfl

theorem seekCur (d : Int) (e : ε) : AlikeR d' Eq (seekCur d e) (seekCur d e) s := by
  have h := ioFails_withImage (s := s) (d' := d')
  by_cases hf : ioFails s = true ∨ (s.rd.pos : Int) + d < 0
  · have hf' : ioFails (s.withImage d') = true ∨ ((s.withImage d').rd.pos : Int) + d < 0 := hf
    refine ⟨?_, ?_, ?_⟩ <;> simp only [LinuxLoader.seekCur, if_pos hf, if_pos hf', ResRel] <;> rfl
  · have hf' : ¬ (ioFails (s.withImage d') = true ∨ ((s.withImage d').rd.pos : Int) + d < 0) := hf
    refine ⟨?_, ?_, ?_⟩ <;> simp only [LinuxLoader.seekCur, if_neg hf, if_neg hf', ResRel] <;> rfl

/-- `n` bytes are read from both images if both have them. -/
theorem readExact (n : Nat) (e : ε)
    (h : ∀ x, InRange s.rd.pos n x → (x < d'.length ↔ x < s.rd.data.length)) :
    AlikeR d' (fun b b' => b = (s.rd.data.drop s.rd.pos).take n ∧ b' = (d'.drop s.rd.pos).take n)
      (readExact n e) (readExact n e) s := by
  have hlen : (d'.length - s.rd.pos < n) ↔ (s.rd.data.length - s.rd.pos < n) := by
    by_cases hn : n = 0
    · subst hn; omega
    · have := h (s.rd.pos + n - 1) (by unfold InRange; omega)
      omega
  by_cases hf : ioFails s = true ∨ s.rd.rest.length < n
  · have hf' : ioFails (s.withImage d') = true ∨ (s.withImage d').rd.rest.length < n := by
      rcases hf with hf | hf
      · exact .inl hf
      · right
        simp only [Reader.rest, List.length_drop] at hf
        simp only [LS.withImage, Reader.rest, List.length_drop]
        omega
    refine ⟨?_, ?_, ?_⟩ <;> simp only [LinuxLoader.readExact, if_pos hf, if_pos hf', ResRel] <;> rfl
  · have hf' : ¬ (ioFails (s.withImage d') = true ∨ (s.withImage d').rd.rest.length < n) := by
      rintro (hf' | hf')
      · exact hf (.inl hf')
      · apply hf; right
        simp only [LS.withImage, Reader.rest, List.length_drop] at hf'
        simp only [Reader.rest, List.length_drop]
        omega
    refine ⟨?_, ?_, ?_⟩ <;> simp only [LinuxLoader.readExact, if_neg hf, if_neg hf', ResRel] <;>
      first | rfl | exact ⟨rfl, rfl⟩

end AlikeR

theorem slice_eq {d d' : List UInt8} {o k : Nat} (h : ∀ x, InRange o k x → d'[x]? = d[x]?) :
    (d'.drop o).take k = (d.drop o).take k := by
  apply List.ext_getElem?
  intro i
  rw [List.getElem?_take, List.getElem?_take]
  split
  · rw [List.getElem?_drop, List.getElem?_drop]
    exact h _ (by unfold InRange; omega)
  · rfl

theorem leField_agree {d d' : List UInt8} {o k : Nat} (h : ∀ x, InRange o k x → d'[x]? = d[x]?) :
    leField d' o k = leField d o k := by
  unfold leField; rw [slice_eq h]

theorem lt_length_agree {d d' : List UInt8} {x : Nat} (h : d'[x]? = d[x]?) :
    x < d'.length ↔ x < d.length := by
  have h1 := List.getElem?_eq_none_iff (l := d) (i := x)
  have h2 := List.getElem?_eq_none_iff (l := d') (i := x)
  rw [h] at h2
  have h3 := h1.symm.trans h2
  omega

theorem leField_slice {d : List UInt8} {p n o k : Nat} (h : o + k ≤ n) :
    leField ((d.drop p).take n) o k = leField d (p + o) k := by
  unfold leField
  rw [List.drop_take, List.drop_drop, List.take_take, Nat.min_eq_left (by omega)]

namespace AlikeR
variable {ε : Type} {d' : List UInt8} {s : LS}

/-- Bytes that agree. -/
theorem readExactEq (n : Nat) (e : ε) (h : ∀ x, InRange s.rd.pos n x → d'[x]? = s.rd.data[x]?) :
    AlikeR d' Eq (LinuxLoader.readExact n e) (LinuxLoader.readExact n e) s := by
  have hr := readExact (d' := d') (s := s) n e fun x hx => lt_length_agree (h x hx)
  refine ⟨hr.data, hr.st, ?_⟩
  have h3 := hr.res
  revert h3
  cases (LinuxLoader.readExact n e s).1 <;> cases (LinuxLoader.readExact n e (s.withImage d')).1 <;>
    simp only [ResRel, imp_self]
  rintro ⟨rfl, rfl⟩
  exact (slice_eq h).symm

theorem readIntoMem (a n : Nat) (e : ε) (h : ∀ x, InRange s.rd.pos n x → d'[x]? = s.rd.data[x]?) :
    AlikeR d' Eq (LinuxLoader.readIntoMem a n e) (LinuxLoader.readIntoMem a n e) s := by
  have hsc : scatterOf (s.withImage d') = scatterOf s := rfl
  cases hw : scatterOf s with
  | some w =>
    rw [hw] at hsc
    refine ⟨?_, ?_, ?_⟩ <;> simp only [LinuxLoader.readIntoMem, hw, hsc, ResRel] <;> rfl
  | none =>
    rw [hw] at hsc
    have hgot : ((s.withImage d').rd.rest.take (min ((s.withImage d').mem.mappedPrefix a n)
        (ioLimit (s.withImage d') n))) = s.rd.rest.take (min (s.mem.mappedPrefix a n) (ioLimit s n)) := by
      have hl : ioLimit s n ≤ n := by
        unfold ioLimit; split <;> omega
      exact slice_eq fun x hx => h x (by
        have hx' : s.rd.pos ≤ x ∧ x < s.rd.pos + min (s.mem.mappedPrefix a n) (ioLimit s n) := hx
        unfold InRange
        omega)
    have e1 : ∀ t : LS, scatterOf t = none → LinuxLoader.readIntoMem a n e t = readPrefix a n e t :=
      fun t ht => by simp only [LinuxLoader.readIntoMem, ht]
    have hdata : (readPrefix a n e s).2 = ⟨s.rd.tick (s.rd.pos + (s.rd.rest.take (min (s.mem.mappedPrefix a n)
        (ioLimit s n))).length), s.mem.store a (s.rd.rest.take (min (s.mem.mappedPrefix a n)
        (ioLimit s n)))⟩ := by
      simp only [readPrefix]; split <;> rfl
    have hdata' : (readPrefix a n e (s.withImage d')).2 = ⟨(s.withImage d').rd.tick ((s.withImage d').rd.pos +
        (s.rd.rest.take (min (s.mem.mappedPrefix a n)
        (ioLimit s n))).length), (s.withImage d').mem.store a (s.rd.rest.take (min (s.mem.mappedPrefix a n)
        (ioLimit s n)))⟩ := by
      simp only [readPrefix, hgot]; split <;> rfl
    refine ⟨?_, ?_, ?_⟩
    · rw [e1 _ hw, hdata]; rfl
    · rw [e1 _ hw, e1 _ hsc, hdata, hdata']; rfl
    · rw [e1 _ hw, e1 _ hsc]
      simp only [readPrefix, hgot]
      by_cases hc : (s.rd.rest.take (min (s.mem.mappedPrefix a n) (ioLimit s n))).length = n ∧
          ioFails s = false ∧ s.mem.canAccess a n = true
      · rw [if_pos hc, if_pos (show _ ∧ ioFails (s.withImage d') = false ∧
          (s.withImage d').mem.canAccess a n = true from hc)]
        exact ResRel.refl _
      · rw [if_neg hc, if_neg (show ¬ (_ ∧ ioFails (s.withImage d') = false ∧
          (s.withImage d').mem.canAccess a n = true) from hc)]
        exact ResRel.refl _

end AlikeR

/-! ## Elf::load -/

variable {d' : List UInt8}

theorem alike_notePvh {s : LS} (type namesz : Nat)
    (h : ∀ x, InRange s.rd.pos 4 x → d'[x]? = s.rd.data[x]?) :
    AlikeR d' Eq (notePvh type namesz) (notePvh type namesz) s := by
  unfold notePvh
  split
  · exact .bindEq (.readExactEq _ _ h) fun _ _ _ _ => .pure _
  · exact .pure _

theorem readExact_ok_pos {ε : Type} {n : Nat} {e : ε} {s s₁ : LS} {b : List UInt8}
    (h : readExact n e s = (.ok b, s₁)) : s₁.rd.pos = s.rd.pos + n ∧ s₁.rd.data = s.rd.data ∧
      b = (s.rd.data.drop s.rd.pos).take n := by
  unfold readExact at h
  split at h
  · cases h
  · cases h; exact ⟨rfl, rfl, rfl⟩

theorem seekStart_ok_pos {ε : Type} {p : Nat} {e : ε} {s s₁ : LS} {u : Unit}
    (h : seekStart p e s = (.ok u, s₁)) : s₁.rd.pos = p ∧ s₁.rd.data = s.rd.data := by
  unfold seekStart at h
  split at h
  · cases h
  · cases h; exact ⟨rfl, rfl⟩

theorem notePvh_true {type namesz : Nat} {s s₁ : LS} (h : notePvh type namesz s = (.ok true, s₁)) :
    namesz = 4 ∧ s₁.rd.pos = s.rd.pos + 4 := by
  unfold notePvh at h
  split at h
  · rename_i hc
    obtain ⟨b, t, h1, h2⟩ := LM.bind_eq_ok.1 h
    have hs : t = s₁ := congrArg Prod.snd h2
    exact ⟨hc.2, hs ▸ (readExact_ok_pos h1).1⟩
  · cases h

theorem ofRes_ok {ε α : Type} {r : Res ε α} {s s₁ : LS} {a : α} (h : LM.ofRes r s = (.ok a, s₁)) :
    r = .ok a ∧ s₁ = s := by
  unfold LM.ofRes at h
  simp only [Prod.mk.injEq] at h
  exact ⟨h.1, h.2.symm⟩

theorem plainAdd_ok {ε : Type} {a b c : Nat} (h : (plainAdd a b : Res ε Nat) = .ok c) : c = a + b := by
  unfold plainAdd at h
  split at h <;> cases h
  rfl

/-- Where the reader is when a PVH note was found. -/
theorem noteLoop_found {ph : Phdr} {n : NoteLoop} : ∀ {fuel r : Nat} {s s₁ : LS},
    noteLoop ph fuel r s = (.ok (some n), s₁) → s.rd.pos = ph.offset + r →
    n.namesz = 4 ∧ ∃ q, q < ph.filesz ∧ s₁.rd.pos = ph.offset + q + 16
  | 0, r, s, s₁, h, _ => by cases h
  | fuel + 1, r, s, s₁, h, hp => by
    unfold noteLoop at h
    split at h
    · rename_i hr
      obtain ⟨b, t, h1, h⟩ := LM.bind_eq_ok.1 h
      obtain ⟨f, t2, h2, h⟩ := LM.bind_eq_ok.1 h
      have k1 := readExact_ok_pos h1
      cases f with
      | true =>
        rw [if_pos rfl] at h
        cases h
        have k2 := notePvh_true h2
        exact ⟨k2.1, r, hr, by omega⟩
      | false =>
        rw [if_neg (by simp)] at h
        obtain ⟨rs, t3, h3, h⟩ := LM.bind_eq_ok.1 h
        obtain ⟨p, t4, h4, h⟩ := LM.bind_eq_ok.1 h
        obtain ⟨u, t5, h5, h⟩ := LM.bind_eq_ok.1 h
        have k4 := plainAdd_ok (ofRes_ok h4).1
        have k5 := seekStart_ok_pos h5
        exact noteLoop_found h (by omega)
    · cases h

theorem alike_noteLoop {ph : Phdr} {d : List UInt8}
    (hag : ph.filesz ≠ 0 → ∀ x, InRange ph.offset (ph.filesz + 19) x → d'[x]? = d[x]?) :
    ∀ (fuel r : Nat) (s : LS), s.rd.data = d → s.rd.pos = ph.offset + r →
      AlikeR d' Eq (noteLoop ph fuel r) (noteLoop ph fuel r) s
  | 0, r, s, _, _ => .ofRes _
  | fuel + 1, r, s, hd, hp => by
    unfold noteLoop
    split
    · rename_i hr
      have hag := hag (by omega)
      refine .bindEq (.readExactEq _ _ fun x hx => ?_) fun b s₁ h1 e1 => ?_
      · rw [hd]; exact hag x (by unfold InRange at hx ⊢; omega)
      have k1 := readExact_ok_pos h1
      refine .bindEq (alike_notePvh _ _ fun x hx => ?_) fun f s₂ h2 e2 => ?_
      · rw [e1, hd]; exact hag x (by unfold InRange at hx ⊢; omega)
      split
      · exact .pure _
      · refine .bindEq (.ofRes _) fun rs s₃ h3 e3 => ?_
        refine .bindEq (.ofRes _) fun p s₄ h4 e4 => ?_
        refine .bindEq (.seekStart _ _) fun u s₅ h5 e5 => ?_
        have k4 := plainAdd_ok (ofRes_ok h4).1
        have k5 := seekStart_ok_pos h5
        exact alike_noteLoop (d := d) (fun _ => hag) fuel rs s₅ (by rw [e5, e4, e3, e2, e1, hd]) (by omega)
    · exact .pure _

theorem alike_parseNote {ph : Phdr} {s : LS}
    (hag : ph.filesz ≠ 0 → ∀ x, InRange ph.offset (ph.filesz + 19) x → d'[x]? = s.rd.data[x]?) :
    AlikeR d' Eq (parseNote ph) (parseNote ph) s := by
  unfold parseNote
  refine .bindEq (.seekStart _ _) fun u s₁ h1 e1 => ?_
  have k1 := seekStart_ok_pos h1
  refine .bindEq (alike_noteLoop (d := s.rd.data) hag _ _ _ e1 (by omega)) fun r s₂ h2 e2 => ?_
  cases r with
  | none => exact .pure _
  | some n =>
    obtain ⟨hn, q, hq, hpos⟩ := noteLoop_found h2 (by omega)
    have hal : (alignUp n.namesz 4 : Res LoadError Nat) = .ok 4 := by rw [hn]; rfl
    simp only
    rw [hal]
    refine .bindEq (.ofRes _) fun na s₃ h3 e3 => ?_
    obtain ⟨hna, hs3⟩ := ofRes_ok h3
    cases hna
    subst hs3
    refine .bindEq (.seekCur _ _) fun u s₄ h4 e4 => ?_
    have k4 : s₄.rd.pos = ph.offset + q + 16 := by
      unfold seekCur at h4
      split at h4
      · cases h4
      · cases h4
        simp only [Reader.tick, hpos]
        omega
    refine .bindEq (.require _ _) fun v s₅ h5 e5 => ?_
    have k5 : s₅ = s₄ := by
      unfold LM.require at h5
      split at h5 <;> cases h5
      rfl
    subst k5
    refine .bindEq (.readExactEq _ _ fun x hx => ?_) fun b s₆ _ _ => .pure _
    rw [e4, e3, e2, e1]
    exact hag (by omega) x (by unfold InRange at hx ⊢; omega)

/-- The program header in the 56 bytes at `o`. -/
theorem ofBytes_slice (d : List UInt8) (o : Nat) : Phdr.ofBytes ((d.drop o).take 56) =
    { type := leField d o 4, offset := leField d (o + 8) 8, paddr := leField d (o + 24) 8,
      filesz := leField d (o + 32) 8, memsz := leField d (o + 40) 8 } := by
  unfold Phdr.ofBytes
  rw [leField_slice (by omega), leField_slice (by omega), leField_slice (by omega),
    leField_slice (by omega), leField_slice (by omega)]
  rfl

theorem ofBytes_agree {d : List UInt8} {o : Nat} (h : ∀ x, PhdrByte o x → d'[x]? = d[x]?) :
    Phdr.ofBytes ((d'.drop o).take 56) = Phdr.ofBytes ((d.drop o).take 56) := by
  rw [ofBytes_slice, ofBytes_slice]
  unfold PhdrByte InRange at h
  rw [leField_agree (d := d) (d' := d') (o := o) fun x hx => h x (by unfold InRange at hx; omega),
    leField_agree (d := d) (d' := d') (o := o + 8) fun x hx => h x (by unfold InRange at hx; omega),
    leField_agree (d := d) (d' := d') (o := o + 24) fun x hx => h x (by unfold InRange at hx; omega),
    leField_agree (d := d) (d' := d') (o := o + 32) fun x hx => h x (by unfold InRange at hx; omega),
    leField_agree (d := d) (d' := d') (o := o + 40) fun x hx => h x (by unfold InRange at hx; omega)]

theorem alike_readPhdrs {d : List UInt8} {o : Nat} : ∀ (n i : Nat) (s : LS),
    (∀ j, i ≤ j → j < i + n → (∀ x, PhdrByte (o + 56 * j) x → d'[x]? = d[x]?) ∧
      ∀ x, InRange (o + 56 * j) 56 x → (x < d'.length ↔ x < d.length)) →
    s.rd.data = d → s.rd.pos = o + 56 * i →
      AlikeR d' Eq (readPhdrs n) (readPhdrs n) s
  | 0, i, s, _, _, _ => .pure _
  | n + 1, i, s, h, hd, hp => by
    unfold readPhdrs
    have h0 := h i (by omega) (by omega)
    refine .bind (.readExact _ _ fun x hx => ?_) fun b b' s₁ h1 e1 hb => ?_
    · rw [hd]; exact h0.2 x (by rw [hp] at hx; exact hx)
    have k1 := readExact_ok_pos h1
    refine .bindEq (alike_readPhdrs n (i + 1) s₁ (fun j h1 h2 => h j (by omega) (by omega))
      (by rw [e1, hd]) (by omega)) fun rest s₂ _ _ => ?_
    have : Phdr.ofBytes b = Phdr.ofBytes b' := by
      rw [hb.1, hb.2, hp, hd]; exact (ofBytes_agree h0.1).symm
    rw [this]
    exact .pure _

theorem readPhdrs_mem {d : List UInt8} {o : Nat} : ∀ (n i : Nat) (s s₁ : LS) (l : List Phdr),
    readPhdrs n s = (.ok l, s₁) → s.rd.data = d → s.rd.pos = o + 56 * i →
    ∀ h ∈ l, ∃ j, j < i + n ∧ h = Phdr.ofBytes ((d.drop (o + 56 * j)).take 56)
  | 0, i, s, s₁, l, h, _, _ => by cases h; simp
  | n + 1, i, s, s₁, l, h, hd, hp => by
    unfold readPhdrs at h
    obtain ⟨b, t, h1, h⟩ := LM.bind_eq_ok.1 h
    obtain ⟨rest, t2, h2, h⟩ := LM.bind_eq_ok.1 h
    cases h
    have k1 := readExact_ok_pos h1
    intro x hx
    rcases List.mem_cons.1 hx with rfl | hx
    · exact ⟨i, by omega, by rw [k1.2.2, hd, hp]⟩
    · obtain ⟨j, hj, e⟩ := readPhdrs_mem (d := d) (o := o) n (i + 1) t _ rest h2 (by rw [k1.2.1, hd])
        (by omega) x hx
      exact ⟨j, by omega, e⟩

theorem alike_loadSegment {koff : Option GuestAddr} {ph : Phdr} {kend : Nat} {s : LS}
    (h : ∀ x, InRange ph.offset ph.filesz x → d'[x]? = s.rd.data[x]?) :
    AlikeR d' Eq (loadSegment koff ph kend) (loadSegment koff ph kend) s := by
  unfold loadSegment
  refine .bindEq (.seekStart _ _) fun u s₁ h1 e1 => ?_
  have k1 := seekStart_ok_pos h1
  refine .bindEq (.okOr _ _) fun a s₂ h2 e2 => ?_
  have k2 : s₂ = s₁ := by
    cases hsa : segmentAddr koff ph with
    | none => rw [hsa] at h2; cases h2
    | some v => rw [hsa] at h2; cases h2; rfl
  subst k2
  refine .bindEq (.readIntoMem _ _ _ fun x hx => ?_) fun v s₃ h3 e3 => ?_
  · rw [e1]; exact h x (by rw [k1.1] at hx; exact hx)
  exact .bindEq (.okOr _ _) fun _ _ _ _ => .pure _

theorem alike_loadSegments {koff : Option GuestAddr} {d : List UInt8} :
    ∀ (phs : List Phdr) (kend : Nat) (cap : PvhCap) (s : LS), s.rd.data = d →
    (∀ h ∈ phs, (h.Loadable → ∀ x, InRange h.offset h.filesz x → d'[x]? = d[x]?) ∧
      (koff = none → h.IsNote → h.filesz ≠ 0 →
        ∀ x, InRange h.offset (h.filesz + 19) x → d'[x]? = d[x]?)) →
    AlikeR d' Eq (loadSegments koff phs kend cap) (loadSegments koff phs kend cap) s
  | [], _, _, _, _, _ => .pure _
  | ph :: phs, kend, cap, s, hd, hag => by
    have hrest : ∀ h ∈ phs, _ := fun h hh => hag h (List.mem_cons_of_mem _ hh)
    have h0 := hag ph List.mem_cons_self
    unfold loadSegments
    split
    · split
      · rename_i hn
        cases koff with
        | some k => exact alike_loadSegments phs _ _ s hd hrest
        | none =>
          refine .bindEq (alike_parseNote fun hz => ?_) fun c s₁ h1 e1 => ?_
          · rw [hd]; exact h0.2 rfl hn hz
          exact alike_loadSegments phs _ _ s₁ (e1.trans hd) hrest
      · exact alike_loadSegments phs _ _ s hd hrest
    · rename_i hc
      refine .bindEq (alike_loadSegment ?_) fun e s₁ h1 e1 => ?_
      · rw [hd]
        refine h0.1 ⟨?_, ?_⟩
        · exact Decidable.not_not.1 fun h => hc (.inl h)
        · exact fun h => hc (.inr h)
      exact alike_loadSegments phs _ _ s₁ (e1.trans hd) hrest

theorem alike_elfLoad {koff highmem : Option GuestAddr} {s : LS} (h : ElfAlike s.rd.data d' koff) :
    AlikeR d' Eq (elfLoad koff highmem) (elfLoad koff highmem) s := by
  unfold elfLoad
  refine .bindEq (.seekStart _ _) fun u s₁ h1 e1 => ?_
  have k1 := seekStart_ok_pos h1
  refine .bind (.readExact _ _ fun x hx => ?_) fun b b' s₂ h2 e2 hb => ?_
  · rw [e1]
    refine h.needs x (.inl ?_)
    unfold InRange at hx; omega
  have k2 := readExact_ok_pos h2
  obtain ⟨hb, hb'⟩ := hb
  rw [k1.1, e1] at hb
  rw [k1.1] at hb'
  have hu : ∀ x, ElfHeaderByte x → d'[x]? = s.rd.data[x]? := fun x hx => h.uses x (.inl hx)
  have hget : ∀ x, x < 64 → ElfHeaderByte x → b'[x]? = b[x]? := fun x hx hh => by
    rw [hb, hb', List.getElem?_take, List.getElem?_take, if_pos hx, if_pos hx, List.getElem?_drop,
      List.getElem?_drop, Nat.zero_add]
    exact hu x hh
  have hf : ∀ o k, o + k ≤ 64 → (∀ x, InRange o k x → ElfHeaderByte x) → leField b' o k = leField b o k :=
    fun o k hok hx => leField_agree fun x hr => hget x (by unfold InRange at hr; omega) (hx x hr)
  have f1 : ehEntry b' = ehEntry b := hf 24 8 (by omega) fun x hx => by
    unfold ElfHeaderByte InRange at *; omega
  have f2 : ehPhoff b' = ehPhoff b := hf 32 8 (by omega) fun x hx => by
    unfold ElfHeaderByte InRange at *; omega
  have f3 : ehPhentsize b' = ehPhentsize b := hf 54 2 (by omega) fun x hx => by
    unfold ElfHeaderByte InRange at *; omega
  have f4 : ehPhnum b' = ehPhnum b := hf 56 2 (by omega) fun x hx => by
    unfold ElfHeaderByte InRange at *; omega
  have f5 : validateHeader b' = validateHeader b := by
    unfold validateHeader
    rw [f2, f3, hget 0 (by omega) (.inl (by omega)), hget 1 (by omega) (.inl (by omega)),
      hget 2 (by omega) (.inl (by omega)), hget 3 (by omega) (.inl (by omega)),
      hget 5 (by omega) (.inr (.inl rfl))]
  have g1 : ehPhoff b = elfPhoff s.rd.data := by
    rw [hb]; unfold ehPhoff elfPhoff; rw [leField_slice (by omega)]
  have g2 : ehPhnum b = elfPhnum s.rd.data := by
    rw [hb]; unfold ehPhnum elfPhnum; rw [leField_slice (by omega)]
  rw [f1, f2, f4, f5]
  refine .bindEq (.ofRes _) fun _ s₃ h3 e3 => ?_
  refine .bindEq ?_ fun _ s₄ h4 e4 => ?_
  · unfold checkEntry
    cases highmem with
    | none => exact .pure _
    | some a => exact .require _ _
  refine .bindEq ?_ fun kl s₅ h5 e5 => ?_
  · unfold elfKernelLoad
    cases koff with
    | none => exact .pure _
    | some a => exact .okOr _ _
  refine .bindEq (.seekStart _ _) fun _ s₆ h6 e6 => ?_
  have k6 := seekStart_ok_pos h6
  have hd6 : s₆.rd.data = s.rd.data := by rw [e6, e5, e4, e3, e2, e1]
  have hpos6 : s₆.rd.pos = elfPhoff s.rd.data + 56 * 0 := by rw [k6.1, g1]; omega
  refine .bindEq (alike_readPhdrs (d := s.rd.data) (o := elfPhoff s.rd.data) _ 0 _ (fun j _ hj => ?_) hd6 hpos6)
    fun phdrs s₇ h7 e7 => ?_
  · rw [g2, Nat.zero_add] at hj
    exact ⟨fun x hx => h.uses x (.inr (.inl ⟨j, hj, hx⟩)), fun x hx => h.needs x (.inr ⟨j, hj, hx⟩)⟩
  have hmem : ∀ ph ∈ phdrs, ph ∈ elfPhdrs s.rd.data := fun ph hph => by
    obtain ⟨j, hj, e⟩ := readPhdrs_mem _ 0 _ _ _ h7 hd6 hpos6 ph hph
    rw [g2, Nat.zero_add] at hj
    rw [e, ofBytes_slice]
    exact List.mem_map.2 ⟨j, List.mem_range.2 hj, rfl⟩
  refine .bindEq (alike_loadSegments phdrs _ _ s₇ (e7.trans hd6) fun ph hph => ⟨fun hl x hx => ?_,
    fun hk hn hz x hx => ?_⟩) fun r s₈ _ _ => .pure _
  · exact h.uses x (.inr (.inr (.inl ⟨ph, hmem ph hph, hl, hx⟩)))
  · exact h.uses x (.inr (.inr (.inr ⟨hk, ph, hmem ph hph, hn, hz, hx⟩)))

/-! ## BzImage::load -/

theorem alike_seekEnd {ε : Type} {e : ε} {s : LS} (h : d'.length = s.rd.data.length) :
    AlikeR d' Eq (seekEnd e) (seekEnd e) s := by
  have hi : ioFails (s.withImage d') = ioFails s := rfl
  cases hf : ioFails s with
  | true =>
    rw [hf] at hi
    refine ⟨?_, ?_, ?_⟩ <;> simp only [seekEnd, hf, hi, if_true, ResRel] <;> rfl
  | false =>
    rw [hf] at hi
    refine ⟨?_, ?_, ?_⟩ <;> simp only [seekEnd, hf, hi, Bool.false_eq_true, if_false, ResRel]
    · rfl
    · simp only [LS.withImage, h]; rfl
    · exact h.symm

theorem alike_readVolatile {ε : Type} {n : Nat} {e : ε} {s : LS}
    (h : ∀ x, InRange s.rd.pos n x → d'[x]? = s.rd.data[x]?) :
    AlikeR d' Eq (readVolatile n e) (readVolatile n e) s := by
  have hsl : ∀ k, k ≤ n → (s.withImage d').rd.rest.take k = s.rd.rest.take k := fun k hk =>
    slice_eq fun x hx => h x (by
      have hx' : s.rd.pos ≤ x ∧ x < s.rd.pos + k := hx
      unfold InRange; omega)
  have hsch : (s.withImage d').rd.sched (s.withImage d').rd.clock = s.rd.sched s.rd.clock := rfl
  cases hev : s.rd.sched s.rd.clock with
  | ok =>
    rw [hev] at hsch
    refine ⟨?_, ?_, ?_⟩ <;> simp only [readVolatile, hev, hsch, hsl n (Nat.le_refl n), ResRel] <;> rfl
  | fail k =>
    rw [hev] at hsch
    refine ⟨?_, ?_, ?_⟩ <;> simp only [readVolatile, hev, hsch, ResRel] <;> rfl
  | short k =>
    rw [hev] at hsch
    refine ⟨?_, ?_, ?_⟩ <;> simp only [readVolatile, hev, hsch, hsl (min k n) (by omega), ResRel] <;> rfl
  | scatter w =>
    rw [hev] at hsch
    refine ⟨?_, ?_, ?_⟩ <;> simp only [readVolatile, hev, hsch, ResRel] <;> rfl

theorem slice_agree {d : List UInt8} {o k : Nat} (h : (d'.drop o).take k = (d.drop o).take k) :
    ∀ x, InRange o k x → d'[x]? = d[x]? := fun x hx => by
  unfold InRange at hx
  have := congrArg (fun l => l[x - o]?) h
  simp only [List.getElem?_take, List.getElem?_drop] at this
  rw [if_pos (by omega), if_pos (by omega), show o + (x - o) = x by omega] at this
  exact this

theorem okOr_ok {ε α : Type} {o : Option α} {e : ε} {s s₁ : LS} {a : α}
    (h : LM.okOr o e s = (.ok a, s₁)) : o = some a ∧ s₁ = s := by
  cases o with
  | none => cases h
  | some b => cases h; exact ⟨rfl, rfl⟩

theorem require_ok {ε : Type} {b : Bool} {e : ε} {s s₁ : LS} {u : Unit}
    (h : LM.require b e s = (.ok u, s₁)) : b = true ∧ s₁ = s := by
  cases b with
  | false => cases h
  | true => cases h; exact ⟨rfl, rfl⟩

theorem bzSetupSize_some {n k : Nat} (h : bzSetupSize n = some k) :
    k = ((if n = 0 then 4 else n) + 1) * 512 := by
  unfold bzSetupSize at h
  generalize (if n = 0 then 4 else n) = m at h ⊢
  obtain ⟨v, h1, h2⟩ := Option.bind_eq_some_iff.1 h
  unfold checkedAdd at h1
  unfold checkedMul at h2
  split at h1
  · cases h1
    split at h2
    · cases h2; rfl
    · exact nomatch h2
  · exact nomatch h1

/-- Until the transfer, only the header matters, then the bytes from the setup size on. -/
theorem alike_bzRest {koff highmem : Option GuestAddr} {size : Nat} {hd : List UInt8} {s : LS}
    (h : shMagic hd ≠ 0 → ∀ x, ((if shSetupSects hd = 0 then 4 else shSetupSects hd) + 1) * 512 ≤ x →
      d'[x]? = s.rd.data[x]?) :
    AlikeR d' Eq (bzRest koff highmem size hd) (bzRest koff highmem size hd) s := by
  unfold bzRest
  refine .bindEq (.require _ _) fun _ s₁ h1 e1 => ?_
  refine .bindEq (.require _ _) fun _ s₂ h2 e2 => ?_
  refine .bindEq (.okOr _ _) fun setup s₃ h3 e3 => ?_
  have k3 := bzSetupSize_some (okOr_ok h3).1
  refine .bindEq (.okOr _ _) fun ksize s₄ h4 e4 => ?_
  refine .bindEq ?_ fun _ s₅ h5 e5 => ?_
  · unfold bzCheckHighmem
    cases highmem with
    | none => exact .pure _
    | some a => exact .require _ _
  refine .bindEq (.seekStart _ _) fun _ s₆ h6 e6 => ?_
  have k6 := seekStart_ok_pos h6
  refine .bindEq (.readIntoMem _ _ _ fun x hx => ?_) fun _ s₇ _ _ => ?_
  · rw [e6, e5, e4, e3, e2, e1]
    refine h ?_ x ?_
    · have hm := (require_ok h1).1
      intro h0
      rw [h0] at hm
      exact nomatch hm
    rw [← k3, ← k6.1]
    exact hx.1
  exact .bindEq (.okOr _ _) fun _ _ _ _ => .pure _

theorem bzSetupBytes_agree {img : List UInt8} (h : bzHeader d' = bzHeader img) :
    bzSetupBytes d' = bzSetupBytes img := by
  have : bzSetupSects d' = bzSetupSects img :=
    leField_agree fun x hx => slice_agree h x (by unfold InRange at *; omega)
  unfold bzSetupBytes
  rw [this]

/-- If the magic number was read, so was the number of setup sectors. -/
theorem readVolatile_sects {ε : Type} {e : ε} {s s₁ : LS} {hd : List UInt8}
    (h : readVolatile 123 e s = (.ok hd, s₁)) (hm : shMagic hd ≠ 0) :
    shSetupSects hd = leField s.rd.data s.rd.pos 1 := by
  have key : ∀ k, hd = s.rd.rest.take k ++ List.replicate (123 - (s.rd.rest.take k).length) 0 →
      shSetupSects hd = leField s.rd.data s.rd.pos 1 := by
    intro k he
    cases hg : s.rd.rest.take k with
    | nil =>
      rw [hg] at he
      exact absurd (by rw [he]; decide) hm
    | cons b bs =>
      rw [hg] at he
      have hr : ∃ t, s.rd.rest = b :: t := by
        cases hrest : s.rd.rest with
        | nil => rw [hrest] at hg; simp at hg
        | cons c t =>
          rw [hrest] at hg
          cases k with
          | zero => simp at hg
          | succ k => simp only [List.take_succ_cons, List.cons.injEq] at hg; exact ⟨t, by rw [hg.1]⟩
      obtain ⟨t, hr⟩ := hr
      have : leField s.rd.data s.rd.pos 1 = leNat (s.rd.rest.take 1) := rfl
      rw [this, hr, he]
      rfl
  unfold readVolatile at h
  split at h
  · cases h
  · cases h
  · rename_i k _
    cases h; exact key _ rfl
  · cases h; exact key _ rfl

theorem alike_bzLoad {koff highmem : Option GuestAddr} {s : LS} (h : BzAlike s.rd.data d') :
    AlikeR d' Eq (bzLoad koff highmem) (bzLoad koff highmem) s := by
  unfold bzLoad
  refine .bindEq (alike_seekEnd h.size) fun size s₁ h1 e1 => ?_
  refine .bindEq (.seekStart _ _) fun _ s₂ h2 e2 => ?_
  have k2 := seekStart_ok_pos h2
  refine .bindEq (alike_readVolatile fun x hx => ?_) fun hd s₃ h3 e3 => ?_
  · rw [e2, e1]; exact slice_agree h.header x (by rw [k2.1] at hx; exact hx)
  refine alike_bzRest fun hm x hx => ?_
  rw [readVolatile_sects h3 hm, k2.1, e2, e1] at hx
  have hx : bzSetupBytes s.rd.data ≤ x := hx
  rw [e3, e2, e1]
  have hk := h.kernel
  unfold bzKernel at hk
  rw [bzSetupBytes_agree h.header] at hk
  have := congrArg (fun l => l[x - bzSetupBytes s.rd.data]?) hk
  simp only [List.getElem?_drop] at this
  rw [show bzSetupBytes s.rd.data + (x - bzSetupBytes s.rd.data) = x by omega] at this
  exact this

/-! ## Bytes behind the end -/

/-- A successful run of `f` is the same on the image with `tail` behind it. -/
structure Longer {ε α : Type} (tail : List UInt8) (f : LM LS ε α) : Prop where
  data : ∀ s, (f s).2.rd.data = s.rd.data
  ok : ∀ s a s₁, f s = (.ok a, s₁) →
    f (s.withImage (s.rd.data ++ tail)) = (.ok a, s₁.withImage (s.rd.data ++ tail))

namespace Longer
variable {ε α β : Type} {tail : List UInt8}

theorem ofRes (r : Res ε α) : Longer tail (LM.ofRes r : LM LS ε α) :=
  ⟨fun _ => rfl, fun s a s₁ h => by obtain ⟨rfl, rfl⟩ := ofRes_ok h; rfl⟩

theorem pure (a : α) : Longer tail (Pure.pure a : LM LS ε α) := ofRes (.ok a)

theorem okOr (o : Option α) (e : ε) : Longer tail (LM.okOr o e : LM LS ε α) := by
  cases o with
  | none => exact ofRes (.err e)
  | some a => exact ofRes (.ok a)

theorem require (b : Bool) (e : ε) : Longer tail (LM.require b e : LM LS ε Unit) := by
  cases b with
  | false => exact ofRes (.err e)
  | true => exact ofRes (.ok ())

theorem bind {x : LM LS ε α} {f : α → LM LS ε β} (hx : Longer tail x) (hf : ∀ a, Longer tail (f a)) :
    Longer tail (x >>= f) where
  data := fun s => by
    have h := hx.data s
    rw [LM.bind_def]
    rcases hxs : x s with ⟨r, s₁⟩
    rw [hxs] at h
    cases r with
    | ok a => exact ((hf a).data s₁).trans h
    | err e => exact h
    | panic => exact h
  ok := fun s b s₂ h => by
    obtain ⟨a, s₁, h1, h2⟩ := LM.bind_eq_ok.1 h
    have hd := hx.data s
    rw [h1] at hd
    have k2 := (hf a).ok s₁ b s₂ h2
    rw [show s₁.rd.data = s.rd.data from hd] at k2
    exact LM.bind_eq_ok.2 ⟨a, _, hx.ok s a s₁ h1, k2⟩

theorem seekStart (p : Nat) (e : ε) : Longer tail (seekStart p e) where
  data := fun s => by unfold LinuxLoader.seekStart; split <;> rfl
  ok := fun s a s₁ h => by
    unfold LinuxLoader.seekStart at h ⊢
    split at h
    · cases h
    · rename_i hc
      rw [if_neg (show ¬ ioFails (s.withImage (s.rd.data ++ tail)) = true from hc)]
      cases h; rfl

theorem seekCur (d : Int) (e : ε) : Longer tail (seekCur d e) where
  data := fun s => by unfold LinuxLoader.seekCur; split <;> rfl
  ok := fun s a s₁ h => by
    unfold LinuxLoader.seekCur at h ⊢
    split at h
    · cases h
    · rename_i hc
      rw [if_neg (show ¬ (ioFails (s.withImage (s.rd.data ++ tail)) = true ∨
        ((s.withImage (s.rd.data ++ tail)).rd.pos : Int) + d < 0) from hc)]
      cases h; rfl

theorem take_append {d : List UInt8} {p n : Nat} (h : n ≤ (d.drop p).length) :
    ((d ++ tail).drop p).take n = (d.drop p).take n := by
  cases n with
  | zero => simp
  | succ n =>
    rw [List.length_drop] at h
    rw [List.drop_append_of_le_length (by omega), List.take_append_of_le_length (by rw [List.length_drop]; omega)]

theorem readExact (n : Nat) (e : ε) : Longer tail (readExact n e) where
  data := fun s => by unfold LinuxLoader.readExact; split <;> rfl
  ok := fun s a s₁ h => by
    unfold LinuxLoader.readExact at h ⊢
    split at h
    · cases h
    · rename_i hc
      have hl : n ≤ (s.rd.data.drop s.rd.pos).length := Nat.le_of_not_lt fun h => hc (.inr h)
      have hl' : ¬ ((s.withImage (s.rd.data ++ tail)).rd.rest.length < n) := by
        rw [List.length_drop] at hl
        simp only [LS.withImage, Reader.rest, List.length_drop, List.length_append]
        omega
      rw [if_neg (show ¬ (ioFails (s.withImage (s.rd.data ++ tail)) = true ∨
        (s.withImage (s.rd.data ++ tail)).rd.rest.length < n) from fun h =>
          h.elim (fun h => hc (.inl h)) hl')]
      cases h
      simp only [Prod.mk.injEq, Res.ok.injEq]
      exact ⟨take_append hl, rfl⟩

theorem readIntoMem (a n : Nat) (e : ε) : Longer tail (readIntoMem a n e) where
  data := fun s => by
    unfold LinuxLoader.readIntoMem readPrefix
    split
    · rfl
    · simp only; split <;> rfl
  ok := fun s u s₁ h => by
    cases hw : scatterOf s with
    | some w => simp only [LinuxLoader.readIntoMem, hw] at h; cases h
    | none =>
      have hw' : scatterOf (s.withImage (s.rd.data ++ tail)) = none := hw
      simp only [LinuxLoader.readIntoMem, hw, hw', readPrefix] at h ⊢
      split at h
      · rename_i hc
        have hmin : min (s.mem.mappedPrefix a n) (ioLimit s n) ≤ (s.rd.data.drop s.rd.pos).length := by
          have h1 := hc.1
          unfold Reader.rest at h1
          rw [List.length_take] at h1
          have hl : ioLimit s n ≤ n := by
            unfold ioLimit; split <;> omega
          omega
        have ht : (s.withImage (s.rd.data ++ tail)).rd.rest.take (min ((s.withImage (s.rd.data ++ tail)).mem.mappedPrefix a n)
            (ioLimit (s.withImage (s.rd.data ++ tail)) n)) =
            s.rd.rest.take (min (s.mem.mappedPrefix a n) (ioLimit s n)) := take_append hmin
        rw [ht]
        rw [if_pos (show _ ∧ ioFails (s.withImage (s.rd.data ++ tail)) = false ∧
          (s.withImage (s.rd.data ++ tail)).mem.canAccess a n = true from hc)]
        cases h; rfl
      · cases h

theorem notePvh (type namesz : Nat) : Longer tail (notePvh type namesz) := by
  unfold LinuxLoader.notePvh
  split
  · exact bind (readExact _ _) fun _ => pure _
  · exact pure _

theorem noteLoop (ph : Phdr) : ∀ fuel r, Longer tail (noteLoop ph fuel r)
  | 0, _ => ofRes _
  | fuel + 1, r => by
    unfold LinuxLoader.noteLoop
    split
    · refine bind (readExact _ _) fun _ => bind (notePvh _ _) fun f => ?_
      cases f with
      | true => exact pure _
      | false =>
        exact bind (ofRes _) fun rs => bind (ofRes _) fun _ => bind (seekStart _ _) fun _ => noteLoop ph fuel rs
    · exact pure _

theorem parseNote (ph : Phdr) : Longer tail (parseNote ph) := by
  unfold LinuxLoader.parseNote
  refine bind (seekStart _ _) fun _ => bind (noteLoop _ _ _) fun r => ?_
  cases r with
  | none => exact pure _
  | some n =>
    exact bind (ofRes _) fun _ => bind (seekCur _ _) fun _ => bind (require _ _) fun _ =>
      bind (readExact _ _) fun _ => pure _

theorem readPhdrs : ∀ n, Longer tail (readPhdrs n)
  | 0 => pure _
  | n + 1 => by
    unfold LinuxLoader.readPhdrs
    exact bind (readExact _ _) fun _ => bind (readPhdrs n) fun _ => pure _

theorem loadSegments (koff : Option GuestAddr) : ∀ phs kend cap, Longer tail (loadSegments koff phs kend cap)
  | [], _, _ => pure _
  | ph :: phs, kend, cap => by
    unfold LinuxLoader.loadSegments
    split
    · split
      · cases koff with
        | some k => exact loadSegments _ phs _ _
        | none => exact bind (parseNote _) fun _ => loadSegments _ phs _ _
      · exact loadSegments _ phs _ _
    · refine bind ?_ fun _ => loadSegments _ phs _ _
      unfold loadSegment
      exact bind (seekStart _ _) fun _ => bind (okOr _ _) fun _ => bind (readIntoMem _ _ _) fun _ =>
        bind (okOr _ _) fun _ => pure _

theorem elfLoad (koff highmem : Option GuestAddr) : Longer tail (elfLoad koff highmem) := by
  unfold LinuxLoader.elfLoad
  refine bind (seekStart _ _) fun _ => bind (readExact _ _) fun _ => bind (ofRes _) fun _ => bind ?_ fun _ =>
    bind ?_ fun _ => bind (seekStart _ _) fun _ => bind (readPhdrs _) fun _ => bind (loadSegments _ _ _ _)
    fun _ => pure _
  · unfold checkEntry
    cases highmem with
    | none => exact pure _
    | some a => exact require _ _
  · unfold elfKernelLoad
    cases koff with
    | none => exact pure _
    | some a => exact okOr _ _

end Longer
end LinuxLoader
