import Verif.Spec.SameProgram
import Verif.Props.Build
import Verif.Props.Boot

/-!
# What `Elf::load` does depends on the program only (C88)

Vocabulary: `Spec/Build.lean`, `Spec/SameProgram.lean`.
-/

namespace LinuxLoader
open Spec

theorem lastPiece_ne_none {ps : List (Nat × List UInt8)} {a : Nat} :
    lastPiece ps a ≠ none ↔ ∃ q ∈ ps, InRange q.1 q.2.length a := by
  constructor
  · intro h
    cases hl : lastPiece ps a with
    | none => exact absurd hl h
    | some b => exact lastPiece_some_in hl
  · induction ps with
    | nil => rintro ⟨q, hq, -⟩; cases hq
    | cons p ps ih =>
      rintro ⟨q, hq, hr⟩
      obtain ⟨b, bs⟩ := p
      simp only [lastPiece]
      cases hl : lastPiece ps a with
      | some c => exact fun h => by cases h
      | none =>
        rcases List.mem_cons.1 hq with rfl | hq
        · unfold InRange at hr
          simp only at hr ⊢
          rw [if_pos hr.1, List.getElem?_eq_getElem (by omega)]
          exact fun h => by cases h
        · exact absurd hl (ih ⟨q, hq, hr⟩)

theorem exists_max (l : List Nat) : ∃ v, IsMaxOf v l := by
  induction l with
  | nil => exact ⟨0, fun _ h => (nomatch h), .inr ⟨rfl, rfl⟩⟩
  | cons a l ih =>
    obtain ⟨v, h1, h2⟩ := ih
    by_cases hv : a ≤ v
    · rcases h2 with h2 | ⟨rfl, rfl⟩
      · refine ⟨v, fun x hx => ?_, .inl (.tail _ h2)⟩
        rcases List.mem_cons.1 hx with rfl | hx
        · exact hv
        · exact h1 x hx
      · have : a = 0 := by omega
        subst this
        exact ⟨0, by simp, .inl (.head _)⟩
    · refine ⟨a, fun x hx => ?_, .inl (.head _)⟩
      rcases List.mem_cons.1 hx with rfl | hx
      · exact Nat.le_refl _
      · have := h1 x hx; omega

theorem max_unique {l : List Nat} {v w : Nat} (h : IsMaxOf v l) (h' : IsMaxOf w l) : v = w := by
  rcases h with ⟨h1, h2⟩
  rcases h' with ⟨h3, h4⟩
  rcases h2 with h2 | ⟨rfl, rfl⟩ <;> rcases h4 with h4 | ⟨h5, h6⟩
  · have := h1 _ h4; have := h3 _ h2; omega
  · subst h5; cases h2
  · cases h4
  · omega

theorem pieces_koff (x : Exe) (koff : Option GuestAddr) :
    x.pieces koff = (x.pieces none).map fun p => (koffBase koff + p.1, p.2) := by
  unfold Exe.pieces
  rw [List.map_filterMap]
  congr 1
  funext g
  unfold Seg.piece
  split
  · split
    · rfl
    · simp [koffBase]
  · rfl

theorem ends_koff (x : Exe) (koff : Option GuestAddr) :
    x.ends koff = (x.ends none).map fun e => koffBase koff + e := by
  unfold Exe.ends
  rw [List.map_filterMap]
  congr 1
  funext g
  unfold Seg.piece
  split
  · split
    · rfl
    · simp [koffBase, Nat.add_assoc]
  · rfl

theorem pieces_ne_nil {x : Exe} {koff : Option GuestAddr} {p : Nat × List UInt8} (h : p ∈ x.pieces koff) :
    p.2 ≠ [] := by
  obtain ⟨g, -, hg⟩ := List.mem_filterMap.1 h
  unfold Seg.piece at hg
  split at hg
  · split at hg
    · cases hg
    · cases hg; assumption
  · cases hg

theorem ends_nil {x : Exe} {koff : Option GuestAddr} :
    x.ends koff = [] ↔ ∀ a, lastPiece (x.pieces koff) a = none := by
  constructor
  · intro h a
    apply lastPiece_outside
    intro p hp
    obtain ⟨g, hg, hgp⟩ := List.mem_filterMap.1 hp
    have : p.1 + g.memsz ∈ x.ends koff := List.mem_filterMap.2 ⟨g, hg, by rw [hgp]; rfl⟩
    rw [h] at this
    cases this
  · intro h
    rw [List.eq_nil_iff_forall_not_mem]
    intro e he
    obtain ⟨g, hg, hge⟩ := List.mem_filterMap.1 he
    cases hp : g.piece koff with
    | none => rw [hp] at hge; cases hge
    | some p =>
      have hm : p ∈ x.pieces koff := List.mem_filterMap.2 ⟨g, hg, hp⟩
      have := List.length_pos_iff.2 (pieces_ne_nil hm)
      exact lastPiece_ne_none.2 ⟨p, hm, Nat.le_refl _, by omega⟩ (h p.1)

theorem isMaxOf_shift {l : List Nat} {k v : Nat} (hl : l ≠ []) :
    IsMaxOf v (l.map fun e => k + e) ↔ ∃ w, v = k + w ∧ IsMaxOf w l := by
  unfold IsMaxOf
  simp only [List.mem_map, List.map_eq_nil_iff, hl, false_and, or_false, forall_exists_index, and_imp,
    forall_apply_eq_imp_iff₂]
  constructor
  · rintro ⟨h1, w, hw, rfl⟩
    exact ⟨w, rfl, fun x hx => by have := h1 x hx; omega, hw⟩
  · rintro ⟨w, rfl, h1, h2⟩
    exact ⟨fun x hx => by have := h1 x hx; omega, w, h2, rfl⟩

theorem SameProgram_symm {x y : Exe} (h : SameProgram x y) : SameProgram y x :=
  ⟨h.entry.symm, fun a => (h.bytes a).symm, fun v => (h.highest v).symm, h.notes.symm⟩

theorem same_bytes {x y : Exe} (h : SameProgram x y) (koff : Option GuestAddr) (a : Nat) :
    lastPiece (x.pieces koff) a = lastPiece (y.pieces koff) a := by
  rw [pieces_koff x, pieces_koff y]
  by_cases ha : koffBase koff ≤ a
  · rw [show a = koffBase koff + (a - koffBase koff) by omega, lastPiece_shift, lastPiece_shift]
    exact h.bytes _
  · have hlow : ∀ ps : List (Nat × List UInt8),
        lastPiece (ps.map fun p => (koffBase koff + p.1, p.2)) a = none := by
      intro ps
      apply lastPiece_outside
      intro q hq hr
      obtain ⟨p, -, rfl⟩ := List.mem_map.1 hq
      have := hr.1
      simp only at this
      omega
    rw [hlow, hlow]

theorem same_highest {x y : Exe} (h : SameProgram x y) (koff : Option GuestAddr) (v : Nat) :
    IsMaxOf v (x.ends koff) ↔ IsMaxOf v (y.ends koff) := by
  rw [ends_koff x, ends_koff y]
  by_cases hx : x.ends none = []
  · have hy : y.ends none = [] := ends_nil.2 fun a => by rw [← h.bytes]; exact ends_nil.1 hx a
    rw [hx, hy]
  · have hy : y.ends none ≠ [] := fun hy => hx (ends_nil.2 fun a => by rw [h.bytes]; exact ends_nil.1 hy a)
    rw [isMaxOf_shift hx, isMaxOf_shift hy]
    exact exists_congr fun w => and_congr Iff.rfl (h.highest w)

theorem loads_iff (x : Exe) (koff highmem : Option GuestAddr) (m : Mem) :
    x.Loads koff highmem m ↔
      (∀ h, highmem = some h → h.toNat ≤ x.entry) ∧ koffBase koff + x.entry < U64 ∧
      (∀ a, lastPiece (x.pieces koff) a ≠ none → m.mapped a = true) ∧
      (∀ v, IsMaxOf v (x.ends koff) → v < U64) ∧
      (koff = none → ∀ ns ∈ x.noteLists, ∃ c, notesOutcome ns = .ok c) := by
  constructor
  · rintro ⟨h1, h2, h3, h4⟩
    refine ⟨h1, h2, fun a ha => ?_, fun v hv => ?_, h4⟩
    · obtain ⟨p, hp, hr⟩ := lastPiece_ne_none.1 ha
      obtain ⟨g, hg, hgp⟩ := List.mem_filterMap.1 hp
      exact (h3 g hg p.1 p.2 hgp).1 a hr
    · rcases hv.2 with hv | ⟨-, rfl⟩
      · obtain ⟨g, hg, hgv⟩ := List.mem_filterMap.1 hv
        obtain ⟨p, hp, rfl⟩ := Option.map_eq_some_iff.1 hgv
        exact (h3 g hg p.1 p.2 hp).2.2
      · decide
  · rintro ⟨h1, h2, h3, h4, h5⟩
    refine ⟨h1, h2, fun g hg a bs hp => ?_, h5⟩
    have hm : (a, bs) ∈ x.pieces koff := List.mem_filterMap.2 ⟨g, hg, hp⟩
    have he : a + g.memsz ∈ x.ends koff := List.mem_filterMap.2 ⟨g, hg, by rw [hp]; rfl⟩
    obtain ⟨v, hv⟩ := exists_max (x.ends koff)
    have := hv.1 _ he
    have := h4 v hv
    exact ⟨fun b hb => h3 b (lastPiece_ne_none.2 ⟨_, hm, hb⟩), by omega, by omega⟩

/-- **C88.** The same program in two files, laid out in any way: one is loaded if and only if the other
is. -/
theorem C88_accepted {x y : Exe} {phoff phoff' : Nat} {off off' : Nat → Nat}
    {koff highmem : Option GuestAddr} {s t : LS} (hx : x.Fits) (hy : y.Fits)
    (hlx : LaidOut x s.rd.data phoff off) (hly : LaidOut y t.rd.data phoff' off')
    (hs : s.rd.data.length < ISZ) (ht : t.rd.data.length < ISZ) (hfs : FaultFree s) (hft : FaultFree t)
    (hm : s.mem = t.mem) (h : SameProgram x y) :
    (∃ r, (elfLoad koff highmem s).1 = .ok r) ↔ (∃ r, (elfLoad koff highmem t).1 = .ok r) := by
  rw [C78_elf_accepted hx hlx hs hfs, C78_elf_accepted hy hly ht hft, loads_iff, loads_iff, hm, h.entry, h.notes]
  simp only [same_bytes h, same_highest h]

/-- **C88.** If both are loaded, the results and guest memory are the same. -/
theorem C88_result {x y : Exe} {phoff phoff' : Nat} {off off' : Nat → Nat}
    {koff highmem : Option GuestAddr} {s s' t t' : LS} {r r' : LoadResult} (hx : x.Fits) (hy : y.Fits)
    (hlx : LaidOut x s.rd.data phoff off) (hly : LaidOut y t.rd.data phoff' off')
    (hs : s.rd.data.length < ISZ) (ht : t.rd.data.length < ISZ)
    (hm : s.mem = t.mem) (h : SameProgram x y)
    (h1 : elfLoad koff highmem s = (.ok r, s')) (h2 : elfLoad koff highmem t = (.ok r', t')) :
    r = r' ∧ SameLayout s'.mem t'.mem ∧ ∀ a, s'.mem.data a = t'.mem.data a := by
  obtain ⟨a1, a2, a3, a4, a5, a6⟩ := C78_elf_result hx hlx hs h1
  obtain ⟨b1, b2, b3, b4, b5, b6⟩ := C78_elf_result hy hly ht h2
  refine ⟨?_, ?_, fun a => ?_⟩
  · cases r; cases r'
    simp only at a1 a2 a3 a4 b1 b2 b3 b4
    rw [LoadResult.mk.injEq]
    refine ⟨?_, max_unique ((same_highest h koff _).1 a2) b2, by rw [a3, b3], ?_⟩
    · rw [a1, b1, h.entry]
    · rw [a4, b4]
      unfold Exe.pvh
      rw [h.notes]
  · unfold SameLayout at *
    rw [hm] at a5
    exact ⟨b5.1.trans a5.1.symm, b5.2.trans a5.2.symm⟩
  · rw [a6, b6, hm, same_bytes h]

theorem lastPiece_eq_some {ps : List (Nat × List UInt8)}
    (hd : ps.Pairwise fun p q => ∀ x, ¬ (InRange p.1 p.2.length x ∧ InRange q.1 q.2.length x)) (a : Nat) (b : UInt8) :
    lastPiece ps a = some b ↔ ∃ q ∈ ps, q.1 ≤ a ∧ q.2[a - q.1]? = some b := by
  have hin : ∀ q ∈ ps, q.1 ≤ a → ∀ c, q.2[a - q.1]? = some c → lastPiece ps a = some c := by
    intro q hq h1 c h2
    have h3 := (List.getElem?_eq_some_iff.1 h2).1
    have := lastPiece_holds hd (fun _ => c) q hq (a - q.1) c h2
    simp only [show q.1 + (a - q.1) = a by omega] at this
    have hne : lastPiece ps a ≠ none := lastPiece_ne_none.2 ⟨q, hq, h1, by omega⟩
    cases hl : lastPiece ps a with
    | none => exact absurd hl hne
    | some d => rw [hl] at this; exact congrArg some this
  constructor
  · intro h
    obtain ⟨q, hq, h1, h2⟩ := (lastPiece_ne_none (ps := ps) (a := a)).1 (by rw [h]; exact fun h => by cases h)
    have := hin q hq h1 (q.2[a - q.1]'(by omega)) (List.getElem?_eq_getElem _)
    rw [h] at this
    cases this
    exact ⟨q, hq, h1, List.getElem?_eq_getElem _⟩
  · rintro ⟨q, hq, h1, h2⟩
    exact hin q hq h1 b h2

/-- **C88.** Listing the segments in another order gives the same program, if no two of them have bytes for
the same address and the note segments stay in order. Fields which the loader does not use, such as
virtual addresses and permissions, make no difference either. -/
theorem C88_order {x y : Exe} (he : x.entry = y.entry)
    (hp : (x.segs.map fun g => (g.content, g.paddr, g.memsz)).Perm (y.segs.map fun g => (g.content, g.paddr, g.memsz)))
    (hn : x.noteLists = y.noteLists) (hd : x.segs.Pairwise Seg.Apart) : SameProgram x y := by
  -- a segment with only the fields used
  let mk : Content × Nat × Nat → Seg := fun t => ⟨t.1, 0, 0, t.2.1, t.2.2, 0⟩
  have hseg : ∀ z : Exe, (z.segs.map fun g => (g.content, g.paddr, g.memsz)).map mk =
      z.segs.map fun g => mk (g.content, g.paddr, g.memsz) := fun z => List.map_map
  have hpiece : ∀ z : Exe, z.pieces none =
      ((z.segs.map fun g => (g.content, g.paddr, g.memsz)).map mk).filterMap (·.piece none) := by
    intro z
    rw [hseg, List.filterMap_map]
    rfl
  have hend : ∀ z : Exe, z.ends none = ((z.segs.map fun g => (g.content, g.paddr, g.memsz)).map mk).filterMap
      fun g => (g.piece none).map fun p => p.1 + g.memsz := by
    intro z
    rw [hseg, List.filterMap_map]
    rfl
  have hpp : (x.pieces none).Perm (y.pieces none) := by
    rw [hpiece, hpiece]
    exact (hp.map mk).filterMap _
  have hep : (x.ends none).Perm (y.ends none) := by
    rw [hend, hend]
    exact (hp.map mk).filterMap _
  have hdx : (x.pieces none).Pairwise fun p q =>
      ∀ a, ¬ (InRange p.1 p.2.length a ∧ InRange q.1 q.2.length a) := by
    unfold Exe.pieces
    rw [List.pairwise_filterMap]
    exact hd.imp fun h p hp q hq => h p q hp hq
  have hdy : (y.pieces none).Pairwise fun p q =>
      ∀ a, ¬ (InRange p.1 p.2.length a ∧ InRange q.1 q.2.length a) :=
    hpp.pairwise hdx fun h a ha => h a ⟨ha.2, ha.1⟩
  refine ⟨he, fun a => ?_, fun v => ?_, hn⟩
  · apply Option.ext
    intro b
    rw [lastPiece_eq_some hdx, lastPiece_eq_some hdy]
    exact exists_congr fun q => and_congr hpp.mem_iff Iff.rfl
  · unfold IsMaxOf
    have : x.ends none = [] ↔ y.ends none = [] :=
      ⟨fun h => by rw [h] at hep; exact hep.nil_eq.symm, fun h => by rw [h] at hep; exact hep.eq_nil⟩
    simp only [hep.mem_iff, this]

theorem lastPiece_split (a : Nat) (bs cs : List UInt8) (x : Nat) :
    lastPiece [(a, bs ++ cs)] x = lastPiece [(a, bs), (a + bs.length, cs)] x := by
  simp only [lastPiece]
  by_cases h1 : a + bs.length ≤ x
  · rw [if_pos h1, if_pos (by omega), List.getElem?_append_right (by omega),
      show x - a - bs.length = x - (a + bs.length) by omega]
    cases hc : cs[x - (a + bs.length)]? with
    | some c => rfl
    | none => rw [if_pos (by omega), List.getElem?_eq_none (by omega)]
  · rw [if_neg h1]
    simp only
    by_cases h2 : a ≤ x
    · rw [if_pos h2, if_pos h2, List.getElem?_append_left (by omega)]
    · rw [if_neg h2, if_neg h2]

theorem isMaxOf_smaller {P Q : List Nat} {e e' v : Nat} (h : e' ≤ e) :
    IsMaxOf v (P ++ e :: Q) ↔ IsMaxOf v (P ++ e' :: e :: Q) := by
  unfold IsMaxOf
  simp only [List.mem_append, List.mem_cons, List.append_eq_nil_iff, reduceCtorEq, and_false, false_and,
    or_false]
  constructor
  · rintro ⟨h1, h2⟩
    refine ⟨?_, by rcases h2 with h2 | h2 | h2 <;> simp [h2]⟩
    rintro x (hx | rfl | rfl | hx)
    · exact h1 x (.inl hx)
    · have := h1 e (.inr (.inl rfl)); omega
    · exact h1 _ (.inr (.inl rfl))
    · exact h1 x (.inr (.inr hx))
  · rintro ⟨h1, h2⟩
    refine ⟨?_, ?_⟩
    · rintro x (hx | rfl | hx)
      · exact h1 x (.inl hx)
      · exact h1 _ (.inr (.inr (.inl rfl)))
      · exact h1 x (.inr (.inr (.inr hx)))
    · rcases h2 with h2 | rfl | h2 | h2
      · exact .inl h2
      · have := h1 e (.inr (.inr (.inl rfl)))
        exact .inr (.inl (by omega))
      · exact .inr (.inl h2)
      · exact .inr (.inr h2)

/-- **C88.** Dividing a segment in two gives the same program. -/
theorem C88_split {x y : Exe} {pre post : List Seg} {g g1 g2 : Seg} {bs cs : List UInt8}
    (he : x.entry = y.entry) (hx : x.segs = pre ++ g :: post) (hy : y.segs = pre ++ g1 :: g2 :: post)
    (hg : g.content = .load (bs ++ cs)) (h1 : g1.content = .load bs) (h2 : g2.content = .load cs)
    (hb : bs ≠ []) (hc : cs ≠ []) (p1 : g1.paddr = g.paddr) (p2 : g2.paddr = g.paddr + bs.length)
    (m1 : g1.memsz = bs.length) (m2 : g.memsz = bs.length + g2.memsz) : SameProgram x y := by
  have hbc : bs ++ cs ≠ [] := by simp [hb]
  have hp : ∀ k, g.piece k = some (koffBase k + g.paddr, bs ++ cs) := fun k => by
    unfold Seg.piece; rw [hg]; simp only; rw [if_neg hbc]
  have hp1 : ∀ k, g1.piece k = some (koffBase k + g.paddr, bs) := fun k => by
    unfold Seg.piece; rw [h1]; simp only; rw [if_neg hb, p1]
  have hp2 : ∀ k, g2.piece k = some (koffBase k + (g.paddr + bs.length), cs) := fun k => by
    unfold Seg.piece; rw [h2]; simp only; rw [if_neg hc, p2]
  refine ⟨he, fun a => ?_, fun v => ?_, ?_⟩
  · unfold Exe.pieces
    rw [hx, hy]
    simp only [List.filterMap_append, List.filterMap_cons, hp, hp1, hp2]
    generalize List.filterMap (fun g : Seg => g.piece none) pre = P
    generalize List.filterMap (fun g : Seg => g.piece none) post = Q
    rw [show P ++ (koffBase none + g.paddr, bs ++ cs) :: Q =
        P ++ ([(koffBase none + g.paddr, bs ++ cs)] ++ Q) from rfl,
      show P ++ (koffBase none + g.paddr, bs) :: (koffBase none + (g.paddr + bs.length), cs) :: Q =
        P ++ ([(koffBase none + g.paddr, bs), (koffBase none + g.paddr + bs.length, cs)] ++ Q) by
          rw [Nat.add_assoc]; rfl,
      lastPiece_append', lastPiece_append', lastPiece_append' P, lastPiece_append' _ Q, lastPiece_split]
  · unfold Exe.ends
    rw [hx, hy]
    simp only [List.filterMap_append, List.filterMap_cons, hp, hp1, hp2, Option.map_some, m1, m2]
    generalize List.filterMap (fun g : Seg => (g.piece none).map fun p => p.1 + g.memsz) pre = P
    generalize List.filterMap (fun g : Seg => (g.piece none).map fun p => p.1 + g.memsz) post = Q
    rw [show koffBase none + (g.paddr + bs.length) + g2.memsz =
      koffBase none + g.paddr + (bs.length + g2.memsz) by omega]
    exact isMaxOf_smaller (by omega)
  · unfold Exe.noteLists
    rw [hx, hy]
    simp [Seg.noteList, hg, h1, h2]

/-- `demoExe` with the segments in another order, its code divided in two, other virtual addresses, and no
empty and ignored segments. -/
def demoExe2 : Exe where
  cls := 2
  ident := [2, 0, 0, 0, 0, 0, 0, 0, 0, 0]
  etype := 3
  machine := 62
  version := 1
  entry := 0x22
  eflags := 1
  ehsize := 64
  shoff := 7
  shentsize := 0
  shnum := 0
  shstrndx := 0
  segs := [⟨.load [0xb1], 6, 0, 0x30, 1, 1⟩, ⟨.notes demoNotes, 4, 0, 0, 44, 4⟩,
    ⟨.load [0xa1], 5, 0x1000, 0x20, 1, 4096⟩, ⟨.load [0xa2, 0xa3, 0xa4], 5, 0x1001, 0x21, 7, 4096⟩]

theorem demoExe2_fits : demoExe2.Fits := by
  refine ⟨by decide, by decide, by decide, by decide, ?_, ?_⟩
  · intro g hg t bs h
    simp only [demoExe2, List.mem_cons, List.not_mem_nil, or_false] at hg
    rcases hg with rfl | rfl | rfl | rfl <;> cases h
  · intro g hg ns h
    simp only [demoExe2, List.mem_cons, List.not_mem_nil, or_false] at hg
    rcases hg with rfl | rfl | rfl | rfl <;> cases h
    intro n hn
    simp only [demoNotes, List.mem_cons, List.not_mem_nil, or_false] at hn
    rcases hn with rfl | rfl <;> unfold Note.Fits <;> decide

/-- `demoExe` in the order of `demoExe2`. -/
def demoExe1 : Exe := { demoExe with
  segs := [⟨.load [0xb1], 6, 0, 0x30, 1, 1⟩, ⟨.notes demoNotes, 4, 0, 0, 44, 4⟩,
    ⟨.load [0xa1, 0xa2, 0xa3, 0xa4], 5, 0, 0x20, 8, 4096⟩] }

/-- `demoExe` without its segments that are not used. -/
def demoExe0 : Exe := { demoExe with
  segs := [⟨.load [0xa1, 0xa2, 0xa3, 0xa4], 5, 0, 0x20, 8, 4096⟩, ⟨.notes demoNotes, 4, 0, 0, 44, 4⟩,
    ⟨.load [0xb1], 6, 0, 0x30, 1, 1⟩] }

theorem demo_same : SameProgram demoExe demoExe2 := by
  have h0 : SameProgram demoExe demoExe0 := by
    have hp : demoExe.pieces none = demoExe0.pieces none := by decide +kernel
    have he : demoExe.ends none = demoExe0.ends none := by decide +kernel
    exact ⟨rfl, fun a => by rw [hp], fun v => by rw [he], by decide +kernel⟩
  have h1 : SameProgram demoExe0 demoExe1 := by
    refine C88_order rfl ?_ (by decide +kernel) ?_
    · exact (List.perm_append_comm (l₁ := [_]) (l₂ := [_, _])).trans
        ((List.perm_append_comm (l₁ := [_]) (l₂ := [_])).append_right [_])
    · simp only [demoExe0, List.pairwise_cons, List.mem_cons, List.not_mem_nil, or_false, forall_eq_or_imp,
        forall_eq, List.Pairwise.nil, and_true]
      refine ⟨⟨fun p q _ hq => (by cases hq), fun p q hp hq a => ?_⟩, fun p q hp => (by cases hp),
        fun _ h => nomatch h⟩
      cases hp; cases hq
      unfold InRange
      simp only [koffBase, List.length_cons, List.length_nil]
      omega
  have h2 : SameProgram demoExe1 demoExe2 :=
    C88_split (pre := demoExe1.segs.take 2) (post := []) (bs := [0xa1]) (cs := [0xa2, 0xa3, 0xa4]) rfl rfl rfl
      rfl rfl rfl (by decide) (by decide) rfl rfl rfl rfl
  exact ⟨h0.entry.trans (h1.entry.trans h2.entry), fun a => (h0.bytes a).trans ((h1.bytes a).trans (h2.bytes a)),
    fun v => (h0.highest v).trans ((h1.highest v).trans (h2.highest v)),
    h0.notes.trans (h1.notes.trans h2.notes)⟩

theorem demoExe2_laidOut : LaidOut demoExe2 demoExe2.link 64 demoExe2.offset ∧ demoExe2.link.length < ISZ :=
  ⟨link_laidOut _ demoExe2_fits (by decide +kernel), by decide +kernel⟩

example := C88_accepted (koff := none) (highmem := some 0x10) (s := ⟨.cursor demoExe.link, elfMem⟩)
  (t := ⟨.cursor demoExe2.link, elfMem⟩) demoExe_fits demoExe2_fits demoExe_laidOut.1 demoExe2_laidOut.1
  demoExe_laidOut.2 demoExe2_laidOut.2 (fun _ => rfl) (fun _ => rfl) rfl demo_same

example := C88_result (koff := none) (highmem := some 0x10) (s := ⟨.cursor demoExe.link, elfMem⟩)
  (t := ⟨.cursor demoExe2.link, elfMem⟩) (r := ⟨0x22, 0x31, none, .present 0x1000000⟩)
  (r' := ⟨0x22, 0x31, none, .present 0x1000000⟩) demoExe_fits demoExe2_fits demoExe_laidOut.1
  demoExe2_laidOut.1 demoExe_laidOut.2 demoExe2_laidOut.2 rfl demo_same
  (ran (by decide +kernel)) (ran (by decide +kernel))

/-- **C88**, refuted: without the conditions on overlaps and notes the order of segments matters. -/
theorem C88_order_refuted :
    (∃ x y : Exe, x.Fits ∧ y.Fits ∧ y = { x with segs := x.segs.reverse } ∧ x.noteLists = y.noteLists ∧
      (elfLoad none none ⟨.cursor x.link, elfMem⟩).1 = (elfLoad none none ⟨.cursor y.link, elfMem⟩).1 ∧
      (elfLoad none none ⟨.cursor x.link, elfMem⟩).2.mem.data 0x20 = 1 ∧
      (elfLoad none none ⟨.cursor y.link, elfMem⟩).2.mem.data 0x20 = 2) ∧
    (∃ x y : Exe, x.Fits ∧ y.Fits ∧ y = { x with segs := x.segs.reverse } ∧ x.segs.Pairwise Seg.Apart ∧
      (elfLoad none none ⟨.cursor x.link, elfMem⟩).1 = .ok ⟨0x22, 0, none, .present 0x1000000⟩ ∧
      (elfLoad none none ⟨.cursor y.link, elfMem⟩).1 = .ok ⟨0x22, 0, none, .notPresent⟩) := by
  have hfit : ∀ segs : List Seg, segs.length < 0x10000 →
      (∀ g ∈ segs, g.content.type < 0x100000000 ∧ g.paddr < U64 ∧ g.memsz < U64) →
      (∀ g ∈ segs, (∃ bs, g.content = .load bs) ∨ ∃ ns, g.content = .notes ns ∧ (ns = [] ∨ ns = demoNotes)) →
      ({ demoExe with segs := segs } : Exe).Fits := by
    intro segs h1 h2 h3
    refine ⟨rfl, demoExe_fits.entry, h1, h2, ?_, ?_⟩
    · intro g hg t bs h
      rcases h3 g hg with ⟨bs', h'⟩ | ⟨ns, h', -⟩ <;> rw [h'] at h <;> cases h
    · intro g hg ns h n hn
      rcases h3 g hg with ⟨bs', h'⟩ | ⟨ns', h', rfl | rfl⟩ <;> rw [h'] at h <;> cases h
      · cases hn
      · exact demoExe_fits.notes ⟨.notes demoNotes, 4, 0, 0, 44, 4⟩ (by decide +kernel) _ rfl n hn
  refine ⟨⟨{ demoExe with segs := [⟨.load [2], 5, 0, 0x20, 1, 1⟩, ⟨.load [1], 5, 0, 0x20, 1, 1⟩] },
      { demoExe with segs := [⟨.load [1], 5, 0, 0x20, 1, 1⟩, ⟨.load [2], 5, 0, 0x20, 1, 1⟩] },
      hfit _ (by decide) (by decide) ?_, hfit _ (by decide) (by decide) ?_, rfl, rfl, by decide +kernel,
      by decide +kernel, by decide +kernel⟩,
    ⟨{ demoExe with segs := [⟨.notes [], 4, 0, 0, 0, 4⟩, ⟨.notes demoNotes, 4, 0, 0, 44, 4⟩] },
      { demoExe with segs := [⟨.notes demoNotes, 4, 0, 0, 44, 4⟩, ⟨.notes [], 4, 0, 0, 0, 4⟩] },
      hfit _ (by decide) (by decide) ?_, hfit _ (by decide) (by decide) ?_, rfl, ?_, by decide +kernel,
      by decide +kernel⟩⟩
  · intro g hg
    simp only [List.mem_cons, List.not_mem_nil, or_false] at hg
    rcases hg with rfl | rfl <;> exact .inl ⟨_, rfl⟩
  · intro g hg
    simp only [List.mem_cons, List.not_mem_nil, or_false] at hg
    rcases hg with rfl | rfl <;> exact .inl ⟨_, rfl⟩
  · intro g hg
    simp only [List.mem_cons, List.not_mem_nil, or_false] at hg
    rcases hg with rfl | rfl <;> exact .inr ⟨_, rfl, by simp⟩
  · intro g hg
    simp only [List.mem_cons, List.not_mem_nil, or_false] at hg
    rcases hg with rfl | rfl <;> exact .inr ⟨_, rfl, by simp⟩
  · simp only [List.pairwise_cons, List.mem_cons, List.not_mem_nil, or_false, forall_eq, List.Pairwise.nil,
      and_true]
    refine ⟨?_, fun _ h => (nomatch h)⟩
    intro p q hp
    cases hp

end LinuxLoader
