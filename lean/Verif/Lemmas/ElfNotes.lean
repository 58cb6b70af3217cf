import Verif.Lemmas.Elf

namespace LinuxLoader
open Spec

theorem pad4_length (b : List UInt8) : (pad4 b).length = up4 b.length := by
  unfold pad4 up4
  rw [List.length_append, List.length_replicate]
  omega

theorem encode_length (n : Note) :
    n.encode.length = 12 + up4 n.name.length + up4 n.desc.length := by
  unfold Note.encode
  simp only [List.length_append, leBytes_length, pad4_length]

theorem leField_at {img : List UInt8} {o v : Nat} {tl : List UInt8}
    (h : img.drop o = leBytes 4 v ++ tl) (hv : v < 0x100000000) : leField img o 4 = v := by
  unfold leField
  rw [h, List.take_append_of_le_length (by simp), List.take_of_length_le (by simp), leNat_leBytes]
  exact Nat.mod_eq_of_lt (by simpa using hv)

theorem drop_at {img : List UInt8} {o : Nat} {hd tl : List UInt8} (h : img.drop o = hd ++ tl) :
    img.drop (o + hd.length) = tl := by
  rw [← List.drop_drop, h, List.drop_left]

/-- Reading a note that lies at file offset `o`. -/
theorem segmentOutcome_note {img : List UInt8} {off size r : Nat} {n : Note} {tl : List UInt8}
    (hf : n.Fits) (hr : r < size) (h : img.drop (off + r) = n.encode ++ tl) :
    segmentOutcome img off size r =
      if n.IsPvh then
        if n.desc.length < 4 then .error .invalidPvhNote
        else .ok (.present (leNat (n.desc.take 4)))
      else segmentOutcome img off size (r + n.encode.length) := by
  obtain ⟨hf1, hf2, hf3⟩ := hf
  have hlen : off + r + n.encode.length ≤ img.length := by
    have := congrArg List.length h
    rw [List.length_drop, List.length_append] at this
    have := encode_length n
    omega
  rw [encode_length] at hlen
  unfold Note.encode at h
  simp only [List.append_assoc] at h
  have d1 := drop_at h
  rw [leBytes_length] at d1
  have d2 := drop_at d1
  rw [leBytes_length] at d2
  have d3 := drop_at d2
  rw [leBytes_length] at d3
  have d4 := drop_at d3
  rw [pad4_length] at d4
  have l1 : leField img (off + r) 4 = n.name.length := leField_at h (by omega)
  have l2 : leField img (off + r + 4) 4 = n.desc.length := leField_at d1 (by omega)
  have l3 : leField img (off + r + 8) 4 = n.type := leField_at (o := off + r + 4 + 4) d2 hf3
  have d3' : img.drop (off + r + 12) = pad4 n.name ++ (pad4 n.desc ++ tl) := d3
  have hname : n.name.length = 4 → (img.drop (off + r + 12)).take 4 = n.name := by
    intro h4
    rw [d3']
    have : pad4 n.name = n.name := by unfold pad4; simp [h4]
    rw [this, List.take_append_of_le_length (by omega), List.take_of_length_le (by omega)]
  have hdesc : n.name.length = 4 → 4 ≤ n.desc.length →
      leField img (off + r + 16) 4 = leNat (n.desc.take 4) := by
    intro h4 h5
    have e : off + r + 4 + 4 + 4 + up4 n.name.length = off + r + 16 := by
      rw [h4]; unfold up4; omega
    rw [e] at d4
    unfold leField
    rw [d4]
    congr 1
    unfold pad4
    rw [List.append_assoc, List.take_append_of_le_length h5]
  have hpvh : PvhAt img (off + r) ↔ n.IsPvh := by
    unfold PvhAt Note.IsPvh
    rw [l1, l3]
    constructor
    · rintro ⟨h1, h2, h3⟩
      exact ⟨h1, (hname h2) ▸ h3⟩
    · rintro ⟨h1, h2⟩
      have h4 : n.name.length = 4 := by rw [h2]; rfl
      exact ⟨h1, h4, (hname h4).trans h2⟩
  rw [segmentOutcome, dif_neg (by omega)]
  dsimp only
  rw [l1, l2, l3, if_neg (by omega), if_neg (by unfold up4 at hlen; omega)]
  by_cases hp : n.IsPvh
  · have h4 : n.name.length = 4 := by rw [hp.2]; rfl
    rw [if_pos (hpvh.2 hp), if_pos hp]
    by_cases h5 : n.desc.length < 4
    · rw [if_pos h5, if_pos h5]
    · rw [if_neg h5, if_neg h5, if_neg (by unfold up4 at hlen; omega), hdesc h4 (by omega)]
  · rw [if_neg (fun hh => hp (hpvh.1 hh)), if_neg hp, if_neg (by omega), encode_length]
    congr 1
    omega

theorem segmentOutcome_notes {img : List UInt8} {off size : Nat} :
    ∀ (ns : List Note) (r : Nat) (tl : List UInt8), (∀ n ∈ ns, n.Fits) →
      img.drop (off + r) = ns.flatMap Note.encode ++ tl →
      r + (ns.flatMap Note.encode).length = size →
      segmentOutcome img off size r = notesOutcome ns := by
  intro ns
  induction ns with
  | nil =>
    intro r tl _ _ hs
    rw [segmentOutcome, dif_pos (by simp at hs; omega)]
    rfl
  | cons n ns ih =>
    intro r tl hf h hs
    rw [List.flatMap_cons, List.append_assoc] at h
    rw [List.flatMap_cons, List.length_append] at hs
    have hel := encode_length n
    rw [segmentOutcome_note (hf n (by simp)) (by omega) h]
    unfold notesOutcome
    split
    · rfl
    · refine ih (r + n.encode.length) tl (fun x hx => hf x (by simp [hx])) ?_ (by omega)
      have := drop_at h
      rw [Nat.add_assoc] at this
      exact this

end LinuxLoader
