import Verif.Lemmas.AnyLoaders

/-! # The ELF loader with readers that may do anything -/

namespace LinuxLoader
open Spec

variable {R : AnyReader}

/-! ## PVH notes -/

theorem pvhDelivered_before {l l' : List (RdOp × Answer)} {v : Nat} (h : PvhDelivered l' v) :
    PvhDelivered (l ++ l') v := by
  obtain ⟨b, b', n, d, h1, h2, h3, h4, h5, h6⟩ := h
  refine ⟨delivered 12 l ++ b, delivered 4 l ++ b', n, d, ?_, h2, h3, h4, ?_, h6⟩
  · rw [delivered_append, h1, List.append_assoc]
  · rw [delivered_append, h5, List.append_assoc]

theorem pvhDelivered_after {l l' : List (RdOp × Answer)} {v : Nat} (h : PvhDelivered l v)
    (h12 : delivered 12 l' = []) (h4 : delivered 4 l' = []) : PvhDelivered (l ++ l') v := by
  obtain ⟨b, b', n, d, k1, k2, k3, k4, k5, k6⟩ := h
  refine ⟨b, b', n, d, ?_, k2, k3, k4, ?_, k6⟩
  · rw [delivered_append, k1, h12, List.append_nil]
  · rw [delivered_append, k5, h4, List.append_nil]

/-- The loop over the notes ends with the PVH note: its header and its name were the last things
delivered. -/
theorem noteLoop_delivered {ph : Phdr} {n : NoteLoop} : ∀ {fuel r : Nat} {s s₁ : AnyState},
    G.noteLoop (anyIo R) ph fuel r s = (.ok (some n), s₁) →
    ∃ l b b' note, s₁.log = s.log ++ l ∧ delivered 12 l = b ++ [note] ∧ leField note 8 4 = 18 ∧
      leField note 0 4 = 4 ∧ leField note 4 4 = n.descsz ∧ delivered 4 l = b' ++ [[0x58, 0x65, 0x6e, 0x00]]
  | 0, r, s, s₁, h => by cases h
  | fuel + 1, r, s, s₁, h => by
    unfold G.noteLoop at h
    split at h
    · obtain ⟨b, t, h1, h⟩ := LM.bind_eq_ok.1 h
      obtain ⟨f, t2, h2, h⟩ := LM.bind_eq_ok.1 h
      obtain ⟨-, ht⟩ := anyRead_ok h1
      cases f with
      | true =>
        rw [if_pos rfl] at h
        cases h
        unfold G.notePvh at h2
        split at h2
        · rename_i hc
          obtain ⟨nm, t3, h3, h2⟩ := LM.bind_eq_ok.1 h2
          obtain ⟨-, ht3⟩ := anyRead_ok h3
          have hnm : nm = [0x58, 0x65, 0x6e, 0] := by
            have := congrArg Prod.fst h2
            have : (nm == [0x58, 0x65, 0x6e, 0]) = true := by
              exact Res.ok.inj this
            exact eq_of_beq this
          have hs : t3 = s₁ := congrArg Prod.snd h2
          subst hs hnm
          refine ⟨[(.readExact 12, .bytes b), (.readExact 4, .bytes [0x58, 0x65, 0x6e, 0])], [], [], b, ?_, rfl, hc.1,
            hc.2, rfl, rfl⟩
          rw [ht3, ht]
          simp [AnyState.add]
        · cases h2
      | false =>
        rw [if_neg (by simp)] at h
        obtain ⟨rs, t3, h3, h⟩ := LM.bind_eq_ok.1 h
        obtain ⟨p, t4, h4, h⟩ := LM.bind_eq_ok.1 h
        obtain ⟨u, t5, h5, h⟩ := LM.bind_eq_ok.1 h
        obtain ⟨l, b', b'', note, hl, k1, k2, k3, k4, k5⟩ := noteLoop_delivered h
        obtain ⟨-, ht5⟩ := anySeek_ok h5
        have e3 : t2 = t3 := congrArg Prod.snd h3
        have e4 : t3 = t4 := congrArg Prod.snd h4
        obtain ⟨l2, hl2, -⟩ := (steps_notePvh (R := R) (T := fun _ => True) (P := fun _ => True) trivial
          (leField b 8 4) (leField b 0 4) t).log
        rw [h2] at hl2
        simp only at hl2
        refine ⟨(.readExact 12, .bytes b) :: (l2 ++ ((.seekStart p, .done) :: l)),
          delivered 12 ((.readExact 12, .bytes b) :: (l2 ++ [(.seekStart p, .done)])) ++ b',
          delivered 4 ((.readExact 12, .bytes b) :: (l2 ++ [(.seekStart p, .done)])) ++ b'', note, ?_, ?_,
          k2, k3, k4, ?_⟩
        · rw [hl, ht5, ← e4, ← e3]
          simp [AnyState.add, hl2, ht]
        · rw [List.append_assoc, ← k1, ← delivered_append]
          simp
        · rw [List.append_assoc, ← k5, ← delivered_append]
          simp
    · cases h

theorem parseNote_delivered {ph : Phdr} {v : Nat} {s s₁ : AnyState}
    (h : G.parseNote (anyIo R) ph s = (.ok (.present v), s₁)) : ∃ l, s₁.log = s.log ++ l ∧ PvhDelivered l v := by
  unfold G.parseNote at h
  obtain ⟨_, t1, h1, h⟩ := LM.bind_eq_ok.1 h
  obtain ⟨r, t2, h2, h⟩ := LM.bind_eq_ok.1 h
  obtain ⟨-, ht1⟩ := anySeek_ok h1
  cases r with
  | none => cases h
  | some n =>
    obtain ⟨l, b, b', note, hl, k1, k2, k3, k4, k5⟩ := noteLoop_delivered h2
    obtain ⟨na, t3, h3, h⟩ := LM.bind_eq_ok.1 h
    obtain ⟨_, t4, h4, h⟩ := LM.bind_eq_ok.1 h
    obtain ⟨_, t5, h5, h⟩ := LM.bind_eq_ok.1 h
    obtain ⟨d, t6, h6, hf⟩ := LM.bind_eq_ok.1 h
    have e3 : t2 = t3 := congrArg Prod.snd h3
    obtain ⟨-, ht4⟩ := anySeek_ok h4
    obtain ⟨hd, rfl⟩ := require_any h5
    obtain ⟨-, ht6⟩ := anyRead_ok h6
    have hv : v = leNat d ∧ t6 = s₁ := by
      cases hf
      exact ⟨rfl, rfl⟩
    obtain ⟨rfl, rfl⟩ := hv
    refine ⟨(.seekStart ph.offset, .done) :: (l ++ [(.seekCur ((na : Int) - 4), .done), (.readExact 4, .bytes d)]), ?_, b, b', note, d, ?_, k2, k3,
      ?_, ?_, rfl⟩
    · rw [ht6, ht4, ← e3]
      simp only [AnyState.add]
      rw [hl, ht1]
      simp [AnyState.add]
    · show delivered 12 (l ++ _) = _
      rw [delivered_append, k1]
      simp [delivered]
    · rw [k4]; simpa using hd
    · show delivered 4 (l ++ _) = _
      rw [delivered_append, k5]
      simp [delivered]

theorem segment_log {koff : Option GuestAddr} {ph : Phdr} {kend e : Nat} {s s₁ : AnyState}
    (h : G.loadSegment (anyIo R) koff ph kend s = (.ok e, s₁)) :
    ∃ l, s₁.log = s.log ++ l ∧ ∀ n, delivered n l = [] := by
  unfold G.loadSegment at h
  obtain ⟨_, t1, h1, h⟩ := LM.bind_eq_ok.1 h
  obtain ⟨a, t2, h2, h⟩ := LM.bind_eq_ok.1 h
  obtain ⟨_, t3, h3, h⟩ := LM.bind_eq_ok.1 h
  obtain ⟨v, t4, h4, hf⟩ := LM.bind_eq_ok.1 h
  obtain ⟨-, rfl⟩ := anySeek_ok h1
  obtain ⟨ha, rfl⟩ := okOr_any h2
  obtain ⟨hacc, ht3⟩ := anyTransfer_ok h3
  obtain ⟨hv, rfl⟩ := okOr_any h4
  have : t4 = s₁ := congrArg Prod.snd hf
  subst this
  refine ⟨[(.seekStart ph.offset, .done), (.readIntoMem a ph.filesz, .done)], ?_, fun n => ?_⟩
  · rw [ht3]; simp [AnyState.add]
  · simp [delivered]

theorem loadSegments_pvh {koff : Option GuestAddr} : ∀ (phs : List Phdr) (kend : Nat) (cap : PvhCap)
    (s s₁ : AnyState) (e v : Nat), G.loadSegments (anyIo R) koff phs kend cap s = (.ok (e, .present v), s₁) →
    ∃ l, s₁.log = s.log ++ l ∧
      (PvhDelivered l v ∨ (cap = .present v ∧ delivered 12 l = [] ∧ delivered 4 l = []))
  | [], kend, cap, s, s₁, e, v, h => by
    cases h
    exact ⟨[], by simp, .inr ⟨rfl, rfl, rfl⟩⟩
  | ph :: phs, kend, cap, s, s₁, e, v, h => by
    unfold G.loadSegments at h
    split at h
    · split at h
      · cases koff with
        | some k =>
          obtain ⟨l, hl, h1 | ⟨h1, -⟩⟩ := loadSegments_pvh phs _ _ _ _ _ _ h
          · exact ⟨l, hl, .inl h1⟩
          · cases h1
        | none =>
          obtain ⟨c, t, hp, h⟩ := LM.bind_eq_ok.1 h
          obtain ⟨l, hl, h1 | ⟨rfl, h2, h3⟩⟩ := loadSegments_pvh phs _ _ _ _ _ _ h
          · obtain ⟨l', hl', -⟩ := (steps_parseNote (R := R) (T := fun _ => False) (P := fun _ => True) trivial trivial
              (fun _ => trivial) (fun _ => trivial) ph s).log
            rw [hp] at hl'
            simp only at hl'
            exact ⟨l' ++ l, by rw [hl, hl', List.append_assoc], .inl (pvhDelivered_before h1)⟩
          · obtain ⟨l', hl', hd⟩ := parseNote_delivered hp
            exact ⟨l' ++ l, by rw [hl, hl', List.append_assoc], .inl (pvhDelivered_after hd h2 h3)⟩
      · exact loadSegments_pvh phs _ _ _ _ _ _ h
    · obtain ⟨e', t, hp, h⟩ := LM.bind_eq_ok.1 h
      obtain ⟨l', hl', hd⟩ := segment_log hp
      obtain ⟨l, hl, h1 | ⟨rfl, h2, h3⟩⟩ := loadSegments_pvh phs _ _ _ _ _ _ h
      · exact ⟨l' ++ l, by rw [hl, hl', List.append_assoc], .inl (pvhDelivered_before h1)⟩
      · exact ⟨l' ++ l, by rw [hl, hl', List.append_assoc], .inr ⟨rfl, by rw [delivered_append, hd, h2]; rfl,
          by rw [delivered_append, hd, h3]; rfl⟩⟩

/-! ## The whole loader -/

theorem eh_entry (eh : List UInt8) : ehEntry eh = elfEntry eh := rfl

/-- Up to the program headers nothing is written; what is delivered is what is used. -/
theorem elfLoad_any_frame (koff highmem : Option GuestAddr) (m : Mem) :
    SameLayout m (G.elfLoad (anyIo R) koff highmem ⟨m, []⟩).2.mem ∧
    ∀ x, (G.elfLoad (anyIo R) koff highmem ⟨m, []⟩).2.mem.data x ≠ m.data x → m.mapped x = true ∧
      (∃ eh, delivered 64 (G.elfLoad (anyIo R) koff highmem ⟨m, []⟩).2.log = [eh] ∧ ElfChecked koff highmem eh) ∧
      ∃ h ∈ deliveredPhdrs (G.elfLoad (anyIo R) koff highmem ⟨m, []⟩).2.log, h.Loadable ∧
        InRange (koffBase koff + h.paddr) h.filesz x := by
  unfold G.elfLoad
  have same : ∀ {t : AnyState} {Pr : Nat → Prop}, t.mem = m → SameLayout m t.mem ∧ ∀ x, t.mem.data x ≠ m.data x → Pr x :=
    fun {t Pr} h => ⟨by rw [h]; exact ⟨rfl, rfl⟩, fun x hx => absurd (by rw [h]) hx⟩
  let Q : Res LoadError LoadResult → AnyState → Prop := fun _ t => SameLayout m t.mem ∧
    ∀ x, t.mem.data x ≠ m.data x → m.mapped x = true ∧
      (∃ eh, delivered 64 t.log = [eh] ∧ ElfChecked koff highmem eh) ∧
      ∃ h ∈ deliveredPhdrs t.log, h.Loadable ∧ InRange (koffBase koff + h.paddr) h.filesz x
  refine LM.post_bind (Q := Q) (fun e s₁ h => same (mem_of (seek_mem _ _ _) h))
    (fun s₁ h => (not_panic_of (anySeek_noPanic _ _ _) h).elim) fun _ s₁ h1 => ?_
  obtain ⟨-, hs1⟩ := anySeek_ok h1
  have hm1 : s₁.mem = m := by rw [hs1]; rfl
  refine LM.post_bind (Q := Q) (fun e s₁ h => same ((mem_of (read_mem _ _ _ _) h).trans hm1))
    (fun s₁ h => (not_panic_of (anyRead_noPanic _ _ _ _) h).elim) fun eh s₂ h2 => ?_
  obtain ⟨hl, hs2⟩ := anyRead_ok h2
  have hm2 : s₂.mem = m := by rw [hs2]; exact hm1
  have hlog2 : s₂.log = [(.seekStart 0, .done), (.readExact 64, .bytes eh)] := by rw [hs2, hs1]; rfl
  refine LM.post_bind (Q := Q) (fun e s₁ h => same ?_)
    (fun s₁ h => (validateHeader_noPanic eh (congrArg Prod.fst h)).elim) fun _ s₃ h3 => ?_
  · have : s₂ = s₁ := congrArg Prod.snd h
    rw [← this]; exact hm2
  have e3 : s₂ = s₃ := congrArg Prod.snd h3
  have hval : ElfHeaderOk eh := validateHeader_any hl (congrArg Prod.fst h3)
  have hce : ∀ r t t', G.checkEntry (anyIo R) highmem (ehEntry eh) t = (r, t') → t' = t ∧ r ≠ .panic ∧
      (∀ u, r = .ok u → ∀ q, highmem = some q → q.toNat ≤ elfEntry eh) := by
    intro r t t' hh
    unfold G.checkEntry at hh
    cases highmem with
    | none => cases hh; exact ⟨rfl, (fun h => nomatch h), fun _ _ _ h => nomatch h⟩
    | some q =>
      dsimp only at hh
      rw [eh_entry] at hh
      by_cases hq : q.toNat ≤ elfEntry eh
      · rw [decide_eq_true hq] at hh
        cases hh
        exact ⟨rfl, (fun h => nomatch h), fun _ _ q' hq' => by cases hq'; exact hq⟩
      · rw [decide_eq_false hq] at hh
        cases hh
        exact ⟨rfl, (fun h => nomatch h), fun _ h => nomatch h⟩
  refine LM.post_bind (Q := Q) (fun e s₁ h => same ?_)
    (fun s₁ h => ((hce _ _ _ h).2.1 rfl).elim) fun _ s₄ h4 => ?_
  · rw [(hce _ _ _ h).1, ← e3]; exact hm2
  obtain ⟨e4, -, hhm⟩ := hce _ _ _ h4
  have hhm := hhm _ rfl
  have hkl : ∀ r t t', G.elfKernelLoad (anyIo R) koff (ehEntry eh) t = (r, t') → t' = t ∧ r ≠ .panic ∧
      (∀ u, r = .ok u → koffBase koff + elfEntry eh < U64 ∧ u = koffBase koff + elfEntry eh) := by
    intro r t t' hh
    unfold G.elfKernelLoad at hh
    cases koff with
    | none =>
      cases hh
      refine ⟨rfl, (fun h => nomatch h), fun u hu => ?_⟩
      have h0 : koffBase none + elfEntry eh = ehEntry eh := by simp [koffBase, eh_entry]
      cases hu
      rw [h0]
      exact ⟨leField_lt eh 24 8, rfl⟩
    | some k =>
      dsimp only at hh
      unfold checkedAdd at hh
      split at hh
      · rename_i hlt
        cases hh
        exact ⟨rfl, (fun h => nomatch h), fun u hu => by cases hu; exact ⟨hlt, rfl⟩⟩
      · cases hh
        exact ⟨rfl, (fun h => nomatch h), fun u hu => nomatch hu⟩
  refine LM.post_bind (Q := Q) (fun e s₁ h => same ?_)
    (fun s₁ h => ((hkl _ _ _ h).2.1 rfl).elim) fun kl s₅ h5 => ?_
  · rw [(hkl _ _ _ h).1, e4, ← e3]; exact hm2
  obtain ⟨e5, -, hk⟩ := hkl _ _ _ h5
  have hs5 : s₅ = s₂ := by rw [e5, e4, e3]
  refine LM.post_bind (Q := Q) (fun e s₁ h => same ?_)
    (fun s₁ h => (not_panic_of (anySeek_noPanic _ _ _) h).elim) fun _ s₆ h6 => ?_
  · rw [mem_of (seek_mem _ _ _) h, hs5]; exact hm2
  obtain ⟨-, hs6⟩ := anySeek_ok h6
  have hm6 : s₆.mem = m := by rw [hs6, hs5]; exact hm2
  have hlog6 : s₆.log = [(.seekStart 0, .done), (.readExact 64, .bytes eh), (.seekStart (ehPhoff eh), .done)] := by
    rw [hs6, hs5]; simp only [AnyState.add, hlog2]; rfl
  have hrp := steps_readPhdrs (R := R) (T := fun _ => False) (ehPhnum eh) s₆
  refine LM.post_bind (Q := Q) (fun e s₁ h => ?_)
    (fun s₁ h => (not_panic_of (noPanic_readPhdrs _ _) h).elim) fun phs s₇ h7 => ?_
  · rw [h] at hrp
    have hd := hrp.data_eq
    have hla := hrp.layout
    simp only [hm6] at hd hla
    exact ⟨hla, fun x hx => absurd (hd x) hx⟩
  rw [h7] at hrp
  have hd7 := hrp.data_eq
  have hla7 := hrp.layout
  simp only [hm6] at hd7 hla7
  obtain ⟨l, hl7, hph, -, ho⟩ := readPhdrs_delivered _ _ _ _ h7
  have hst := steps_loadSegments (R := R) (koff := koff) phs 0 .ignored s₇
  have key : ∀ t : AnyState, StepTo (fun x => ∃ h ∈ phs, h.Loadable ∧ InRange (koffBase koff + h.paddr) h.filesz x) SegOp s₇ t →
      Q (.err .memoryOverflow) t := by
    intro t hst
    refine ⟨⟨hst.layout.1.trans hla7.1, hst.layout.2.trans hla7.2⟩, fun x hx => ?_⟩
    obtain ⟨⟨h, hh, hx'⟩, hmap⟩ := hst.frame x (by rw [hd7]; exact hx)
    rw [StepTo.mapped_layout hla7] at hmap
    obtain ⟨l', hl', hso⟩ := hst.log
    have hlogt : t.log = [(.seekStart 0, .done), (.readExact 64, .bytes eh), (.seekStart (ehPhoff eh), .done)] ++ l ++ l' := by
      rw [hl', hl7, hlog6]
    refine ⟨hmap, ⟨eh, ?_, hval, hhm, (hk _ rfl).1⟩, h, ?_, hx'⟩
    · rw [hlogt, delivered_append, delivered_append, delivered_segOp (by omega) (by omega) hso,
        delivered_none (l := l) (fun e he => by rw [ho e he]; decide)]
      rfl
    · rw [hlogt, deliveredPhdrs_append, deliveredPhdrs_append, hph]
      exact List.mem_append_left _ (List.mem_append_right _ hh)
  refine LM.post_bind (Q := Q) (fun e s₁ h => ?_) (fun s₁ h => ?_) fun r s₈ h8 => ?_
  · rw [h] at hst; exact key _ hst
  · rw [h] at hst; exact key _ hst
  · rw [h8] at hst; exact key _ hst

theorem elfLoad_any_ok {koff highmem : Option GuestAddr} {m : Mem} {r : LoadResult} {t : AnyState}
    (h : G.elfLoad (anyIo R) koff highmem ⟨m, []⟩ = (.ok r, t)) :
    ∃ eh, delivered 64 t.log = [eh] ∧ ElfChecked koff highmem eh ∧
      (deliveredPhdrs t.log).length = elfPhnum eh ∧
      r.kernelLoad = koffBase koff + elfEntry eh ∧ r.setupHeader = none ∧
      IsMaxOf r.kernelEnd (((deliveredPhdrs t.log).filter fun h => decide h.Loadable).map fun h =>
        koffBase koff + h.paddr + h.memsz) ∧
      (∀ h ∈ deliveredPhdrs t.log, h.Loadable → koffBase koff + h.paddr + h.memsz < U64 ∧
        Mapped m (koffBase koff + h.paddr) h.filesz) ∧
      CapOk koff (deliveredPhdrs t.log) .ignored r.pvh ∧
      (∀ v, r.pvh = .present v → PvhDelivered t.log v) := by
  unfold G.elfLoad at h
  obtain ⟨_, s₁, h1, h⟩ := LM.bind_eq_ok.1 h
  obtain ⟨eh, s₂, h2, h⟩ := LM.bind_eq_ok.1 h
  obtain ⟨_, s₃, h3, h⟩ := LM.bind_eq_ok.1 h
  obtain ⟨_, s₄, h4, h⟩ := LM.bind_eq_ok.1 h
  obtain ⟨kl, s₅, h5, h⟩ := LM.bind_eq_ok.1 h
  obtain ⟨_, s₆, h6, h⟩ := LM.bind_eq_ok.1 h
  obtain ⟨phs, s₇, h7, h⟩ := LM.bind_eq_ok.1 h
  obtain ⟨⟨e, c⟩, s₈, h8, h⟩ := LM.bind_eq_ok.1 h
  obtain ⟨-, hs1⟩ := anySeek_ok h1
  obtain ⟨hl, hs2⟩ := anyRead_ok h2
  have e3 : s₂ = s₃ := congrArg Prod.snd h3
  have hval : ElfHeaderOk eh := validateHeader_any hl (congrArg Prod.fst h3)
  have h4' : s₄ = s₃ ∧ ∀ q, highmem = some q → q.toNat ≤ elfEntry eh := by
    unfold G.checkEntry at h4
    cases highmem with
    | none => cases h4; exact ⟨rfl, fun _ h => nomatch h⟩
    | some q =>
      obtain ⟨hq, rfl⟩ := require_any h4
      exact ⟨rfl, fun q' hq' => by cases hq'; rw [← eh_entry]; simpa using hq⟩
  have h5' : s₅ = s₄ ∧ koffBase koff + elfEntry eh < U64 ∧ kl = koffBase koff + elfEntry eh := by
    unfold G.elfKernelLoad at h5
    cases koff with
    | none =>
      cases h5
      have h0 : koffBase none + elfEntry eh = ehEntry eh := by simp [koffBase, eh_entry]
      rw [h0]
      exact ⟨rfl, leField_lt eh 24 8, rfl⟩
    | some k =>
      obtain ⟨hk, rfl⟩ := okOr_any h5
      obtain ⟨h1, rfl⟩ := checkedAdd_some' hk
      exact ⟨rfl, h1, rfl⟩
  obtain ⟨-, hs6⟩ := anySeek_ok h6
  have hs5 : s₅ = s₂ := by rw [h5'.1, h4'.1, e3]
  have hm6 : s₆.mem = m := by rw [hs6, hs5, hs2, hs1]; rfl
  have hlog6 : s₆.log = [(.seekStart 0, .done), (.readExact 64, .bytes eh), (.seekStart (ehPhoff eh), .done)] := by
    rw [hs6, hs5, hs2, hs1]; rfl
  have hrp := steps_readPhdrs (R := R) (T := fun _ => False) (ehPhnum eh) s₆
  rw [h7] at hrp
  have hla7 : SameLayout m s₇.mem := by have := hrp.layout; rw [hm6] at this; exact this
  obtain ⟨l, hl7, hph, hn, ho⟩ := readPhdrs_delivered _ _ _ _ h7
  have hst := steps_loadSegments (R := R) (koff := koff) phs 0 .ignored s₇
  rw [h8] at hst
  obtain ⟨l', hl', hso⟩ := hst.log
  simp only at hl'
  have et : s₈ = t := congrArg Prod.snd h
  have er : r = ⟨kl, e, none, c⟩ := (Res.ok.inj (congrArg Prod.fst h)).symm
  subst et er
  have hlogt : s₈.log = [(.seekStart 0, .done), (.readExact 64, .bytes eh), (.seekStart (ehPhoff eh), .done)] ++ l ++ l' := by
    rw [hl', hl7, hlog6]
  have hdp : deliveredPhdrs s₈.log = phs := by
    rw [hlogt, deliveredPhdrs_append, deliveredPhdrs_append, hph]
    have : deliveredPhdrs l' = [] := by
      unfold deliveredPhdrs; rw [delivered_segOp (by omega) (by omega) hso]; rfl
    rw [this, List.append_nil]
    rfl
  obtain ⟨k1, k2, k3, k4⟩ := loadSegments_any _ _ _ _ _ _ _ h8
  refine ⟨eh, ?_, ⟨hval, h4'.2, h5'.2.1⟩, ?_, h5'.2.2, rfl, ?_, ?_, ?_, ?_⟩
  · rw [hlogt, delivered_append, delivered_append, delivered_segOp (by omega) (by omega) hso,
      delivered_none (l := l) (fun e he => by rw [ho e he]; decide)]
    rfl
  · rw [hdp, hn]; rfl
  · rw [hdp]
    constructor
    · intro x hx
      obtain ⟨h, hh, rfl⟩ := List.mem_map.1 hx
      obtain ⟨hh, hl⟩ := List.mem_filter.1 hh
      exact (k3 h hh (of_decide_eq_true hl)).1
    · rcases k2 with k2 | ⟨h, hh, hl, k2⟩
      · by_cases hex : ∃ h ∈ phs, h.Loadable
        · obtain ⟨h, hh, hl⟩ := hex
          refine .inl ?_
          have := (k3 h hh hl).1
          refine List.mem_map.2 ⟨h, List.mem_filter.2 ⟨hh, decide_eq_true hl⟩, ?_⟩
          simp only
          omega
        · refine .inr ⟨?_, k2⟩
          rw [List.map_eq_nil_iff, List.filter_eq_nil_iff]
          intro h hh hl
          exact hex ⟨h, hh, of_decide_eq_true hl⟩
      · exact .inl (List.mem_map.2 ⟨h, List.mem_filter.2 ⟨hh, decide_eq_true hl⟩, k2.symm⟩)
  · rw [hdp]
    intro h hh hl
    obtain ⟨-, k, k'⟩ := k3 h hh hl
    exact ⟨k, fun x hx => by rw [← StepTo.mapped_layout hla7]; exact k' x hx⟩
  · rw [hdp]; exact k4
  · intro v hv
    have hv : c = .present v := hv
    subst hv
    obtain ⟨l2, hl2, hp | ⟨hp, -⟩⟩ := loadSegments_pvh _ _ _ _ _ _ _ h8
    · rw [hl2]; exact pvhDelivered_before hp
    · cases hp

end LinuxLoader
