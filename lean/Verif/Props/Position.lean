import Verif.Spec.Position
import Verif.Props.Elf
import Verif.Props.BzImage
import Verif.Props.Pe
import Verif.Lemmas.AnyReader

/-!
# C109: where the reader stands after a call

A VMM that goes on reading from the file it has passed to a loader relies on the position the loader has
left behind.
-/

namespace LinuxLoader
open Spec

/-! ## The operations -/

theorem seekStart_at {ε : Type} {p : Nat} {e : ε} {s s' : LS} {u : Unit}
    (h : seekStart p e s = (.ok u, s')) : StandsAt s s' p := by
  rw [seekStart_eq_ok h]; exact ⟨rfl, rfl⟩

theorem seekEnd_at {ε : Type} {e : ε} {s s' : LS} {n : Nat}
    (h : seekEnd e s = (.ok n, s')) : n = s.rd.data.length ∧ StandsAt s s' s.rd.data.length := by
  obtain ⟨h1, h2⟩ := seekEnd_eq_ok h
  rw [h2]; exact ⟨h1, rfl, rfl⟩

theorem seekCur_at {ε : Type} {d : Int} {e : ε} {s s' : LS} {u : Unit}
    (h : seekCur d e s = (.ok u, s')) : StandsAt s s' ((s.rd.pos : Int) + d).toNat := by
  unfold seekCur at h
  split at h
  · cases h
  · cases h; exact ⟨rfl, rfl⟩

theorem readExact_at {ε : Type} {n : Nat} {e : ε} {s s' : LS} {b : List UInt8}
    (h : readExact n e s = (.ok b, s')) :
    b = (s.rd.data.drop s.rd.pos).take n ∧ StandsAt s s' (s.rd.pos + n) := by
  unfold readExact at h
  split at h
  · cases h
  · cases h; exact ⟨rfl, rfl, rfl⟩

theorem readVolatile_at {ε : Type} {n : Nat} {e : ε} {s s' : LS} {b : List UInt8}
    (h : readVolatile n e s = (.ok b, s')) : s'.rd.data = s.rd.data := by
  unfold readVolatile at h
  split at h <;> cases h <;> rfl

theorem readIntoMem_at {ε : Type} {a n : Nat} {e : ε} {s s' : LS} {u : Unit}
    (h : readIntoMem a n e s = (.ok u, s')) : StandsAt s s' (s.rd.pos + n) := by
  cases hw : scatterOf s with
  | some w => rw [readIntoMem_some hw] at h; cases h
  | none =>
    rw [readIntoMem_none hw] at h
    unfold readPrefix at h
    simp only at h
    split at h
    · rename_i hc
      cases h
      refine ⟨rfl, ?_⟩
      show s.rd.pos + _ = _
      rw [hc.1]
    · cases h

/-! ## Notes -/

theorem notePvh_at {t n : Nat} {b : Bool} {s s' : LS} (h : notePvh t n s = (.ok b, s')) :
    s'.rd.data = s.rd.data ∧
    (b = true → t = 18 ∧ n = 4 ∧ (s.rd.data.drop s.rd.pos).take 4 = [0x58, 0x65, 0x6e, 0] ∧
      s'.rd.pos = s.rd.pos + 4) ∧
    (b = false → ¬ (t = 18 ∧ n = 4 ∧ (s.rd.data.drop s.rd.pos).take 4 = [0x58, 0x65, 0x6e, 0])) := by
  unfold notePvh at h
  split at h
  · rename_i hc
    obtain ⟨nm, s₁, h1, h2⟩ := LM.bind_eq_ok.1 h
    obtain ⟨e1, e2, e3⟩ := readExact_at h1
    rw [LM.pure_apply] at h2
    cases h2
    refine ⟨e2, fun hb => ?_, fun hb => ?_⟩
    · refine ⟨hc.1, hc.2, ?_, e3⟩
      rw [← e1]; exact eq_of_beq hb
    · rintro ⟨-, -, hh⟩
      rw [← e1] at hh
      rw [hh] at hb
      cases hb
  · rename_i hc
    rw [LM.pure_apply] at h
    cases h
    exact ⟨rfl, (fun hb => nomatch hb), fun _ hh => hc ⟨hh.1, hh.2.1⟩⟩

theorem noteAdvance_at {r n d rs : Nat} (hn : n < 0x100000000) (hd : d < 0x100000000)
    (h : noteAdvance r n d = .ok rs) : rs = r + 12 + up4 n + up4 d := by
  unfold noteAdvance at h
  rw [alignUp_4 hn, alignUp_4 hd] at h
  simp only [Res.bind_ok] at h
  split at h
  · cases h
  · unfold okOr at h
    split at h
    · rename_i v hv
      cases h
      simp only [Option.bind_eq_bind, Option.bind_eq_some_iff] at hv
      obtain ⟨a, ha, b, hb, hc⟩ := hv
      have := (checkedAdd_some' ha).2
      have := (checkedAdd_some' hb).2
      have := (checkedAdd_some' hc).2
      omega
    · cases h

theorem noteLoop_at (ph : Phdr) : ∀ (fuel r : Nat) (s s' : LS) (o : Option NoteLoop),
    noteLoop ph fuel r s = (.ok o, s') → s.rd.pos = ph.offset + r →
    s'.rd.data = s.rd.data ∧
    (o = none → NotesEnd s.rd.data ph.offset ph.filesz r s'.rd.pos) ∧
    (∀ n, o = some n → n.namesz = 4 ∧ NotesEnd s.rd.data ph.offset ph.filesz r (s'.rd.pos + 4)) := by
  intro fuel
  induction fuel with
  | zero => intro r s s' o h; cases h
  | succ fuel ih =>
    intro r s s' o h hp
    unfold noteLoop at h
    split at h
    · rename_i hr
      rw [LM.bind_eq_ok] at h; obtain ⟨b, s₁, h1, h⟩ := h
      obtain ⟨e1, d1, p1⟩ := readExact_at h1
      rw [LM.bind_eq_ok] at h; obtain ⟨f, s₂, h2, h⟩ := h
      obtain ⟨d2, ht, hf⟩ := notePvh_at h2
      have f0 : leField b 0 4 = leField s.rd.data (ph.offset + r) 4 := by
        rw [e1, leField_window _ (by omega), hp]; rfl
      have f4 : leField b 4 4 = leField s.rd.data (ph.offset + r + 4) 4 := by
        rw [e1, leField_window _ (by omega), hp]
      have f8 : leField b 8 4 = leField s.rd.data (ph.offset + r + 8) 4 := by
        rw [e1, leField_window _ (by omega), hp]
      rw [d1, p1, hp, f8, f0] at ht hf
      cases f with
      | true =>
        obtain ⟨k1, k2, k3, k4⟩ := ht rfl
        rw [if_pos rfl, LM.pure_apply] at h
        cases h
        refine ⟨d2.trans d1, (fun hh => nomatch hh), fun n hn => ?_⟩
        cases hn
        refine ⟨f0.trans k2, ?_⟩
        rw [k4]
        exact .found hr ⟨k1, k2, k3⟩
      | false =>
        have hnot := hf rfl
        rw [if_neg (by decide)] at h
        rw [LM.bind_eq_ok] at h; obtain ⟨rs, s₃, h3, h⟩ := h
        rw [LM.bind_eq_ok] at h; obtain ⟨p, s₄, h4, h⟩ := h
        rw [LM.bind_eq_ok] at h; obtain ⟨u, s₅, h5, h⟩ := h
        rw [LM.ofRes_apply] at h3 h4
        have k3 := (Prod.mk.inj h3).1
        have k4 := (Prod.mk.inj h4).1
        have e3 := (Prod.mk.inj h3).2
        have e4 := (Prod.mk.inj h4).2
        subst e3 e4
        obtain ⟨d5, p5⟩ := seekStart_at h5
        have hrs := noteAdvance_at (leField_lt b 0 4) (leField_lt b 4 4) k3
        have hpp : p = ph.offset + rs := by
          unfold plainAdd at k4
          split at k4 <;> cases k4
          rfl
        have hd : s₅.rd.data = s.rd.data := d5.trans (d2.trans d1)
        have := ih rs s₅ s' o h (p5.trans hpp)
        rw [hd] at this
        rw [hrs, f0, f4] at this
        exact ⟨this.1, fun ho => .next hr hnot (this.2.1 ho),
          fun n hn => ⟨(this.2.2 n hn).1, .next hr hnot (this.2.2 n hn).2⟩⟩
    · rename_i hr
      rw [LM.pure_apply] at h
      cases h
      refine ⟨rfl, fun _ => ?_, (fun _ hn => nomatch hn)⟩
      rw [hp]
      exact .over (by omega)

theorem parseNote_at {ph : Phdr} {c : PvhCap} {s s' : LS} (h : parseNote ph s = (.ok c, s')) :
    s'.rd.data = s.rd.data ∧ NotesEnd s.rd.data ph.offset ph.filesz 0 s'.rd.pos := by
  unfold parseNote at h
  rw [LM.bind_eq_ok] at h; obtain ⟨u, s₁, h1, h⟩ := h
  obtain ⟨d1, p1⟩ := seekStart_at h1
  rw [LM.bind_eq_ok] at h; obtain ⟨o, s₂, h2, h⟩ := h
  obtain ⟨d2, hn, hs⟩ := noteLoop_at ph _ 0 _ _ _ h2 p1
  rw [d1] at hn hs d2
  cases o with
  | none =>
    simp only [LM.pure_apply] at h
    cases h
    exact ⟨d2, hn rfl⟩
  | some n =>
    obtain ⟨h4, he⟩ := hs n rfl
    simp only at h
    rw [LM.bind_eq_ok] at h; obtain ⟨na, s₃, h3, h⟩ := h
    rw [LM.ofRes_apply, h4, alignUp_4 (by omega)] at h3
    obtain ⟨h3, rfl⟩ := Prod.mk.inj h3
    cases h3
    rw [LM.bind_eq_ok] at h; obtain ⟨u, s₄, h5, h⟩ := h
    obtain ⟨d5, p5⟩ := seekCur_at h5
    rw [LM.bind_eq_ok] at h; obtain ⟨u, s₅, h6, h⟩ := h
    obtain ⟨-, rfl⟩ := LM.require_eq_ok.1 h6
    rw [LM.bind_eq_ok] at h; obtain ⟨b, s₆, h7, h⟩ := h
    obtain ⟨-, d7, p7⟩ := readExact_at h7
    rw [LM.pure_apply] at h
    cases h
    have h44 : ((up4 4 : Nat) : Int) - 4 = 0 := by decide
    rw [h44] at p5
    refine ⟨d7.trans (d5.trans d2), ?_⟩
    have : s'.rd.pos = s₂.rd.pos + 4 := by omega
    rw [this]
    exact he

/-! ## Segments -/

theorem loadSegment_at {koff : Option GuestAddr} {ph : Phdr} {kend e : Nat} {s s' : LS}
    (h : loadSegment koff ph kend s = (.ok e, s')) : StandsAt s s' (ph.offset + ph.filesz) := by
  unfold loadSegment at h
  rw [LM.bind_eq_ok] at h; obtain ⟨u, s₁, h1, h⟩ := h
  obtain ⟨d1, p1⟩ := seekStart_at h1
  rw [LM.bind_eq_ok] at h; obtain ⟨a, s₂, h2, h⟩ := h
  obtain ⟨-, rfl⟩ := LM.okOr_eq_ok.1 h2
  rw [LM.bind_eq_ok] at h; obtain ⟨u, s₃, h3, h⟩ := h
  obtain ⟨d3, p3⟩ := readIntoMem_at h3
  rw [LM.bind_eq_ok] at h; obtain ⟨x, s₄, h4, h⟩ := h
  obtain ⟨-, rfl⟩ := LM.okOr_eq_ok.1 h4
  rw [LM.pure_apply] at h
  cases h
  exact ⟨d3.trans d1, by rw [p3, p1]⟩

/-- Where the loop over the program headers `l` leaves the reader that was at `p₀`. -/
def SegsEnd (img : List UInt8) (koff : Option GuestAddr) (l : List Phdr) (p₀ p : Nat) : Prop :=
  match (l.filter fun h => decide (Visited koff h)).getLast? with
  | none => p = p₀
  | some g => if g.Loadable then p = g.offset + g.filesz else NotesEnd img g.offset g.filesz 0 p

theorem segsEnd_skip {img : List UInt8} {koff : Option GuestAddr} {h : Phdr} {l : List Phdr} {p₀ p : Nat}
    (hv : ¬ Visited koff h) (hs : SegsEnd img koff l p₀ p) : SegsEnd img koff (h :: l) p₀ p := by
  unfold SegsEnd at hs ⊢
  rw [List.filter_cons_of_neg (by simpa using hv)]
  exact hs

theorem segsEnd_visit {img : List UInt8} {koff : Option GuestAddr} {h : Phdr} {l : List Phdr} {p₀ p₁ p : Nat}
    (hv : Visited koff h) (h1 : if h.Loadable then p₁ = h.offset + h.filesz else NotesEnd img h.offset h.filesz 0 p₁)
    (hs : SegsEnd img koff l p₁ p) : SegsEnd img koff (h :: l) p₀ p := by
  unfold SegsEnd at hs ⊢
  rw [List.filter_cons_of_pos (by simpa using hv), List.getLast?_cons]
  cases hg : (l.filter fun h => decide (Visited koff h)).getLast? with
  | none =>
    rw [hg] at hs
    simp only at hs
    simp only [Option.getD_none]
    rw [hs]; exact h1
  | some g =>
    rw [hg] at hs
    exact hs

theorem loadSegments_at (koff : Option GuestAddr) : ∀ (phs : List Phdr) (kend : Nat) (cap : PvhCap)
    (s s' : LS) (x : Nat × PvhCap), loadSegments koff phs kend cap s = (.ok x, s') →
    s'.rd.data = s.rd.data ∧ SegsEnd s.rd.data koff phs s.rd.pos s'.rd.pos := by
  intro phs
  induction phs with
  | nil => intro kend cap s s' x h; cases h; exact ⟨rfl, rfl⟩
  | cons ph phs ih =>
    intro kend cap s s' x h
    unfold loadSegments at h
    have hlo : (ph.type ≠ PT_LOAD ∨ ph.filesz = 0) ↔ ¬ ph.Loadable := by
      unfold Phdr.Loadable PT_LOAD; omega
    split at h
    · rename_i hl
      have hl := hlo.1 hl
      split at h
      · rename_i hn
        cases koff with
        | some k =>
          obtain ⟨d, e⟩ := ih _ _ _ _ _ h
          exact ⟨d, segsEnd_skip (fun hv => hv.elim hl (fun hh => nomatch hh.2)) e⟩
        | none =>
          simp only at h
          rw [LM.bind_eq_ok] at h; obtain ⟨c, s₁, h1, h⟩ := h
          obtain ⟨d1, e1⟩ := parseNote_at h1
          obtain ⟨d, e⟩ := ih _ _ _ _ _ h
          rw [d1] at e
          exact ⟨d.trans d1, segsEnd_visit (.inr ⟨hn, rfl⟩) (by rw [if_neg hl]; exact e1) e⟩
      · rename_i hn
        obtain ⟨d, e⟩ := ih _ _ _ _ _ h
        exact ⟨d, segsEnd_skip (fun hv => hv.elim hl (fun hh => hn hh.1)) e⟩
    · rename_i hl
      have hl : ph.Loadable := by
        refine Decidable.byContradiction fun hh => hl (hlo.2 hh)
      rw [LM.bind_eq_ok] at h; obtain ⟨e0, s₁, h1, h⟩ := h
      obtain ⟨d1, p1⟩ := loadSegment_at h1
      obtain ⟨d, e⟩ := ih _ _ _ _ _ h
      rw [d1] at e
      exact ⟨d.trans d1, segsEnd_visit (.inl hl) (by rw [if_pos hl]; exact p1) e⟩

theorem readPhdrs_at : ∀ (n : Nat) (s s' : LS) (l : List Phdr), readPhdrs n s = (.ok l, s') →
    l = (List.range n).map (fun i => phdrOff s.rd.data (s.rd.pos + 56 * i)) ∧ StandsAt s s' (s.rd.pos + 56 * n) := by
  intro n
  induction n with
  | zero => intro s s' l h; cases h; exact ⟨rfl, rfl, rfl⟩
  | succ n ih =>
    intro s s' l h
    unfold readPhdrs at h
    rw [LM.bind_eq_ok] at h; obtain ⟨b, s₁, h1, h⟩ := h
    obtain ⟨e1, d1, p1⟩ := readExact_at h1
    rw [LM.bind_eq_ok] at h; obtain ⟨r, s₂, h2, h⟩ := h
    obtain ⟨e2, d2, p2⟩ := ih _ _ _ h2
    rw [LM.pure_apply] at h
    cases h
    refine ⟨?_, d2.trans d1, by omega⟩
    rw [e1, e2, d1, p1, ofBytes_window]
    simp only [List.range_succ_eq_map, List.map_cons, List.map_map, Nat.mul_zero, Nat.add_zero]
    congr 1
    apply List.map_congr_left
    intro i _
    simp only [Function.comp_apply]
    congr 1; omega

/-! ## C109 -/

/-- **C109.** After `Elf::load` has succeeded — on whatever reader, with whatever short reads — the image is
unchanged and the reader stands behind the last segment it has loaded or searched for notes, or behind the
program headers if it has done neither. -/
theorem C109_elf {koff highmem : Option GuestAddr} {s s' : LS} {r : LoadResult}
    (h : elfLoad koff highmem s = (.ok r, s')) :
    s'.rd.data = s.rd.data ∧ ElfEnd s.rd.data koff s'.rd.pos := by
  unfold elfLoad at h
  rw [LM.bind_eq_ok] at h; obtain ⟨u, s₁, h1, h⟩ := h
  obtain ⟨d1, p1⟩ := seekStart_at h1
  rw [LM.bind_eq_ok] at h; obtain ⟨eh, s₂, h2, h⟩ := h
  obtain ⟨e2, d2, p2⟩ := readExact_at h2
  rw [LM.bind_eq_ok] at h; obtain ⟨u, s₃, h3, h⟩ := h
  rw [LM.ofRes_apply] at h3
  obtain ⟨-, rfl⟩ := Prod.mk.inj h3
  rw [LM.bind_eq_ok] at h; obtain ⟨u, s₄, h4, h⟩ := h
  have e4 : s₄ = s₂ := by
    unfold checkEntry at h4
    split at h4
    · exact (LM.require_eq_ok.1 h4).2
    · cases h4; rfl
  subst e4
  rw [LM.bind_eq_ok] at h; obtain ⟨kl, s₅, h5, h⟩ := h
  have e5 : s₅ = s₄ := by
    unfold elfKernelLoad at h5
    split at h5
    · exact (LM.okOr_eq_ok.1 h5).2
    · cases h5; rfl
  subst e5
  rw [LM.bind_eq_ok] at h; obtain ⟨u, s₆, h6, h⟩ := h
  obtain ⟨d6, p6⟩ := seekStart_at h6
  rw [LM.bind_eq_ok] at h; obtain ⟨phs, s₇, h7, h⟩ := h
  obtain ⟨e7, d7, p7⟩ := readPhdrs_at _ _ _ _ h7
  rw [LM.bind_eq_ok] at h; obtain ⟨x, s₈, h8, h⟩ := h
  obtain ⟨d8, e8⟩ := loadSegments_at _ _ _ _ _ _ _ h8
  rw [LM.pure_apply] at h
  cases h
  have hd6 : s₆.rd.data = s.rd.data := d6.trans (d2.trans d1)
  have heh : eh = s.rd.data.take 64 := by rw [e2, p1, d1]; rfl
  have f2 : ehPhoff eh = elfPhoff s.rd.data := by rw [heh]; exact leField_take _ (by omega)
  have f3 : ehPhnum eh = elfPhnum s.rd.data := by rw [heh]; exact leField_take _ (by omega)
  have hphs : phs = elfPhdrs s.rd.data := by rw [e7, hd6, p6, f2, f3]; rfl
  rw [hphs, d7, hd6, p7, p6, f2, f3] at e8
  exact ⟨d8.trans (d7.trans hd6), e8⟩

theorem notesEnd_unique {img : List UInt8} {off size r p q : Nat} (h : NotesEnd img off size r p)
    (k : NotesEnd img off size r q) : p = q := by
  induction h with
  | over hr =>
    cases k with
    | over => rfl
    | found h' => omega
    | next h' => omega
  | found hr hp =>
    cases k with
    | over h' => omega
    | found => rfl
    | next _ h' => exact absurd hp h'
  | next hr hp _ ih =>
    cases k with
    | over h' => omega
    | found _ h' => exact absurd h' hp
    | next _ _ k => exact ih k

/-- **C109.** Successful loads of the same image, with `kernel_offset` or without, end at the same position,
whatever the reader's faults and first position, the guest memory, the offset and `highmem_start_address`. -/
theorem C109_determined {koff koff' highmem highmem' : Option GuestAddr} {s s' t t' : LS} {r r' : LoadResult}
    (h : elfLoad koff highmem s = (.ok r, s')) (k : elfLoad koff' highmem' t = (.ok r', t'))
    (hd : t.rd.data = s.rd.data) (hk : koff = none ↔ koff' = none) : t'.rd.pos = s'.rd.pos := by
  have h1 := (C109_elf h).2
  have h2 := (C109_elf k).2
  have hf : (fun h : Phdr => decide (Visited koff' h)) = fun h => decide (Visited koff h) := by
    funext g
    refine decide_eq_decide.2 ?_
    unfold Visited
    rw [hk]
  unfold ElfEnd at h1 h2
  rw [hd, hf] at h2
  split at h1
  · rename_i hg
    rw [hg] at h2
    rw [h1]; exact h2
  · rename_i g hg
    rw [hg] at h2
    simp only at h2
    split at h1
    · rename_i hl
      rw [if_pos hl] at h2
      rw [h1]; exact h2
    · rename_i hl
      rw [if_neg hl] at h2
      exact notesEnd_unique h2 h1

theorem notesEnd_outcome {img : List UInt8} {off size r p : Nat} (h : NotesEnd img off size r p) :
    (∀ a, segmentOutcome img off size r = .ok (.present a) → 4 ≤ p ∧ leField img (p - 4) 4 = a) ∧
    (segmentOutcome img off size r = .ok .notPresent → off + size ≤ p) := by
  induction h with
  | over hr =>
    rw [segmentOutcome, dif_pos hr]
    exact ⟨(fun a h => nomatch h), fun _ => by omega⟩
  | @found r hr hp =>
    rw [segmentOutcome, dif_neg (by omega)]
    simp only
    constructor
    · intro a h
      split at h
      · cases h
      · split at h
        · cases h
        · split at h
          · cases h
          · split at h
            · cases h
            · cases h
              exact ⟨by omega, rfl⟩
    · intro h
      split at h
      · cases h
      · split at h
        · cases h
        · split at h
          · cases h
          · split at h <;> cases h
  | @next r p hr hp _ ih =>
    rw [segmentOutcome, dif_neg (by omega)]
    simp only
    constructor
    · intro a h
      split at h
      · cases h
      · split at h
        · cases h
        · split at h
          · cases h
          · exact ih.1 a h
    · intro h
      split at h
      · cases h
      · split at h
        · cases h
        · split at h
          · cases h
          · exact ih.2 h

/-- **C109.** If the last thing `Elf::load` has looked at is a note segment, then the reader stands directly
behind the PVH entry point that is reported, or not before the end of the segment if none is. -/
theorem C109_pvh {highmem : Option GuestAddr} {s s' : LS} {r : LoadResult}
    (hlen : s.rd.data.length < ISZ) (h : elfLoad none highmem s = (.ok r, s'))
    {pre post : List Phdr} {g : Phdr} (hsplit : elfPhdrs s.rd.data = pre ++ g :: post) (hg : g.IsNote)
    (hpost : ∀ q ∈ post, ¬ q.Loadable ∧ ¬ q.IsNote) :
    (∀ a, r.pvh = .present a → 4 ≤ s'.rd.pos ∧ leField s.rd.data (s'.rd.pos - 4) 4 = a) ∧
    (r.pvh = .notPresent → g.offset + g.filesz ≤ s'.rd.pos) := by
  have hnl : ¬ g.Loadable := fun hl => by
    have h1 := hl.1
    have h2 : g.type = 4 := hg
    omega
  have hlast : ∀ (P : Phdr → Bool), P g = true → (∀ q ∈ post, P q = false) →
      ((elfPhdrs s.rd.data).filter P).getLast? = some g := by
    intro P h1 h2
    have hnil : post.filter P = [] := List.filter_eq_nil_iff.2 fun q hq => by rw [h2 q hq]; decide
    rw [hsplit, List.filter_append, List.filter_cons_of_pos h1, hnil]
    simp
  have he := (C109_elf h).2
  unfold ElfEnd at he
  rw [hlast _ (decide_eq_true (.inr ⟨hg, rfl⟩)) fun q hq => decide_eq_false fun hv =>
    hv.elim (hpost q hq).1 fun hh => (hpost q hq).2 hh.1] at he
  simp only at he
  rw [if_neg hnl] at he
  have ho := (C42_pvh_of_last_note hlen h).2 g
    (hlast _ (decide_eq_true hg) fun q hq => decide_eq_false (hpost q hq).2)
  have := notesEnd_outcome he
  rw [ho] at this
  exact ⟨fun a ha => this.1 a (by rw [ha]), fun ha => this.2 (by rw [ha])⟩

/-- **C109.** After `BzImage::load` has succeeded the image is unchanged and the reader stands at its end. -/
theorem C109_bz {koff highmem : Option GuestAddr} {s s' : LS} {r : LoadResult}
    (h : bzLoad koff highmem s = (.ok r, s')) : StandsAt s s' s.rd.data.length := by
  unfold bzLoad at h
  rw [LM.bind_eq_ok] at h; obtain ⟨size, s₁, h1, h⟩ := h
  obtain ⟨hsz, d1, p1⟩ := seekEnd_at h1
  rw [LM.bind_eq_ok] at h; obtain ⟨u, s₂, h2, h⟩ := h
  obtain ⟨d2, p2⟩ := seekStart_at h2
  rw [LM.bind_eq_ok] at h; obtain ⟨hd, s₃, h3, h⟩ := h
  have d3 := readVolatile_at h3
  unfold bzRest at h
  rw [LM.bind_eq_ok] at h; obtain ⟨u, s₄, h4, h⟩ := h
  obtain ⟨-, rfl⟩ := LM.require_eq_ok.1 h4
  rw [LM.bind_eq_ok] at h; obtain ⟨u, s₅, h5, h⟩ := h
  obtain ⟨-, rfl⟩ := LM.require_eq_ok.1 h5
  rw [LM.bind_eq_ok] at h; obtain ⟨setup, s₆, h6, h⟩ := h
  obtain ⟨-, rfl⟩ := LM.okOr_eq_ok.1 h6
  rw [LM.bind_eq_ok] at h; obtain ⟨ks, s₇, h7, h⟩ := h
  obtain ⟨hk, rfl⟩ := LM.okOr_eq_ok.1 h7
  rw [LM.bind_eq_ok] at h; obtain ⟨u, s₈, h8, h⟩ := h
  have e8 : s₈ = s₇ := by
    unfold bzCheckHighmem at h8
    split at h8
    · exact (LM.require_eq_ok.1 h8).2
    · cases h8; rfl
  subst e8
  rw [LM.bind_eq_ok] at h; obtain ⟨u, s₉, h9, h⟩ := h
  obtain ⟨d9, p9⟩ := seekStart_at h9
  rw [LM.bind_eq_ok] at h; obtain ⟨u, s₁₀, h10, h⟩ := h
  obtain ⟨d10, p10⟩ := readIntoMem_at h10
  rw [LM.bind_eq_ok] at h; obtain ⟨x, s₁₁, h11, h⟩ := h
  obtain ⟨-, rfl⟩ := LM.okOr_eq_ok.1 h11
  rw [LM.pure_apply] at h
  cases h
  refine ⟨d10.trans (d9.trans (d3.trans (d2.trans d1))), ?_⟩
  unfold checkedSub at hk
  split at hk
  · cases hk; omega
  · cases hk

/-- **C109.** The same for `PE::load`. -/
theorem C109_pe {arch : PeArch} {koff highmem : Option GuestAddr} {s s' : LS} {r : LoadResult}
    (h : peLoad arch koff highmem s = (.ok r, s')) : StandsAt s s' s.rd.data.length := by
  unfold peLoad at h
  rw [LM.bind_eq_ok] at h; obtain ⟨size, s₁, h1, h⟩ := h
  obtain ⟨hsz, d1, p1⟩ := seekEnd_at h1
  rw [LM.bind_eq_ok] at h; obtain ⟨u, s₂, h2, h⟩ := h
  obtain ⟨d2, p2⟩ := seekStart_at h2
  rw [LM.bind_eq_ok] at h; obtain ⟨hd, s₃, h3, h⟩ := h
  obtain ⟨-, d3, -⟩ := readExact_at h3
  rw [LM.bind_eq_ok] at h; obtain ⟨u, s₄, h4, h⟩ := h
  obtain ⟨-, rfl⟩ := LM.require_eq_ok.1 h4
  rw [LM.bind_eq_ok] at h; obtain ⟨u, s₅, h5, h⟩ := h
  have e5 : s₅ = s₄ := by
    unfold peCheckAlign at h5
    split at h5
    · exact (LM.require_eq_ok.1 h5).2
    · cases h5; rfl
  subst e5
  rw [LM.bind_eq_ok] at h; obtain ⟨a, s₆, h6, h⟩ := h
  obtain ⟨-, rfl⟩ := LM.okOr_eq_ok.1 h6
  rw [LM.bind_eq_ok] at h; obtain ⟨u, s₉, h9, h⟩ := h
  obtain ⟨d9, p9⟩ := seekStart_at h9
  rw [LM.bind_eq_ok] at h; obtain ⟨u, s₁₀, h10, h⟩ := h
  obtain ⟨d10, p10⟩ := readIntoMem_at h10
  rw [LM.bind_eq_ok] at h; obtain ⟨x, s₁₁, h11, h⟩ := h
  obtain ⟨-, rfl⟩ := LM.okOr_eq_ok.1 h11
  rw [LM.pure_apply] at h
  cases h
  exact ⟨d10.trans (d9.trans (d3.trans (d2.trans d1))), by omega⟩

/-- **C109.** The same for `load_dtb`. -/
theorem C109_dtb {a : GuestAddr} {s s' : LS} (h : loadDtb a s = (.ok (), s')) : StandsAt s s' s.rd.data.length := by
  unfold loadDtb at h
  rw [LM.bind_eq_ok] at h; obtain ⟨size, s₁, h1, h⟩ := h
  obtain ⟨hsz, d1, p1⟩ := seekEnd_at h1
  rw [LM.bind_eq_ok] at h; obtain ⟨u, s₄, h4, h⟩ := h
  obtain ⟨-, rfl⟩ := LM.require_eq_ok.1 h4
  rw [LM.bind_eq_ok] at h; obtain ⟨u, s₂, h2, h⟩ := h
  obtain ⟨d2, p2⟩ := seekStart_at h2
  obtain ⟨d10, p10⟩ := readIntoMem_at h
  exact ⟨d10.trans (d2.trans d1), by omega⟩

/-! ## Non-vacuity -/

/-- Two segments, then notes; the PVH note is the second one. -/
def noteLastElf : List UInt8 :=
  mkEhdr 0x10 64 56 3 ++ mkPhdr 1 232 0x20 4 8 ++ mkPhdr 1 233 0x40 3 3 ++ mkPhdr 4 236 0 44 44 ++
    [0xa1, 0xa2, 0xa3, 0xa4] ++ demoNotes.flatMap Note.encode ++ [0xff, 0xff]

theorem noteLastElf_loads : (elfLoad none none ⟨⟨noteLastElf, 7, fun i => .short (i % 3), 0⟩, elfMem⟩).1 =
    .ok ⟨0x10, 0x43, none, .present 0x1000000⟩ := by decide +kernel

/-- The reader stands behind the entry point, two bytes before the end. -/
example := C109_pvh (s := ⟨⟨noteLastElf, 7, fun i => .short (i % 3), 0⟩, elfMem⟩) (by decide +kernel)
  (ran noteLastElf_loads) (pre := [⟨1, 232, 0x20, 4, 8⟩, ⟨1, 233, 0x40, 3, 3⟩]) (g := ⟨4, 236, 0, 44, 44⟩)
  (post := []) (by decide +kernel) rfl (by simp)

example : (elfLoad none none ⟨⟨noteLastElf, 7, fun i => .short (i % 3), 0⟩, elfMem⟩).2.rd.pos = 280 ∧
    noteLastElf.length = 282 := by decide +kernel

example := C109_determined (highmem := some 0x8) (s := ⟨.cursor noteLastElf, elfMem⟩) (r := ⟨0x10, 0x43, none, .present 0x1000000⟩)
  (ran (by decide +kernel)) (ran noteLastElf_loads) rfl Iff.rfl

/-- In the demo image the last segment visited is the second loadable one: bytes 289 to 292. -/
example := C109_elf (ran demoElf_loads)

example := (C109_elf (ran demoElf_loads_offset)).2

example : (elfLoad none none demoState).2.rd.pos = 292 ∧
    (((elfPhdrs demoElf).filter fun h => decide (Visited none h)).getLast?).map (·.offset) = some 289 := by
  decide +kernel

/-- Nothing to load: behind the program headers. -/
example : (elfLoad none none ⟨.cursor (mkEhdr 0x10 64 56 1 ++ mkPhdr 2 0 0 9 9), elfMem⟩).1.isOk = true ∧
    (elfLoad none none ⟨.cursor (mkEhdr 0x10 64 56 1 ++ mkPhdr 2 0 0 9 9), elfMem⟩).2.rd.pos = 64 + 56 := by
  decide +kernel

example := C109_bz (ran demoBz_loads)

example := C109_pe (arch := .arm64) (koff := some 0x200000) (highmem := none)
  (s := ⟨⟨mkPe 0x10 1 0x644d5241, 3, fun _ => .ok, 0⟩, peMem⟩) (r := ⟨0x200010, 0x200054, none, .ignored⟩)
  (ran (by decide +kernel))

example := C109_dtb (a := 0x2001f0) (s := ⟨⟨List.replicate 16 0xd0, 9, fun _ => .ok, 0⟩, peMem⟩)
  (ran (by decide +kernel))

end LinuxLoader
