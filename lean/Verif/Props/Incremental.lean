import Verif.Spec.Incremental
import Verif.Props.Boot

/-!
# Boot parameters built call by call, as the PVH guest finds them (C87)

Vocabulary: `Spec/BootParams.lean`, `Spec/Incremental.lean`.
-/

namespace LinuxLoader
open Spec BootParams

theorem span_of_image {a : Nat} {bs : List UInt8} {rest : List (Nat × List UInt8)} {b : List UInt8}
    (h : SparseImage a ((a, bs) :: rest) b) : Span ((a, bs) :: rest) a (a + b.length) :=
  ⟨⟨bs, rest, rfl⟩, h.tight, fun p hp => (h.covers p hp).2⟩

theorem span_unique {ps : List (Nat × List UInt8)} {a e a' e' : Nat} (h : Span ps a e) (h' : Span ps a' e') :
    a = a' ∧ e = e' := by
  obtain ⟨⟨bs, rest, rfl⟩, ⟨p, hp, hpe⟩, hle⟩ := h
  obtain ⟨⟨bs', rest', he⟩, ⟨q, hq, hqe⟩, hle'⟩ := h'
  cases he
  have := hle q hq
  have := hle' p hp
  exact ⟨rfl, by omega⟩

/-- The list in memory: inside its span the latest piece or zero, outside nothing. -/
theorem optPiece_span {bytes : Option (List UInt8)} {start : Option GuestAddr} {ps : List (Nat × List UInt8)}
    (h : ListReflects bytes start ps) (x : Nat) :
    (Spanned ps x → lastPiece (optPiece bytes start) x = some ((lastPiece ps x).getD 0)) ∧
    (¬ Spanned ps x → lastPiece (optPiece bytes start) x = none) := by
  cases ps with
  | nil =>
    obtain ⟨rfl, -⟩ := h.1 rfl
    refine ⟨?_, ?_⟩
    · rintro ⟨a, e, ⟨⟨_, _, hc⟩, _⟩, _⟩
      cases hc
    · intro _
      cases bytes <;> rfl
  | cons q rest =>
    obtain ⟨a, bs⟩ := q
    obtain ⟨s, b, rfl, rfl, rfl, hi⟩ := h.2 a bs rest rfl
    have hs := span_of_image hi
    show (_ → lastPiece [(s.toNat, b)] x = _) ∧ (_ → lastPiece [(s.toNat, b)] x = _)
    simp only [lastPiece]
    constructor
    · rintro ⟨a', e', hs', h1, h2⟩
      obtain ⟨rfl, rfl⟩ := span_unique hs hs'
      rw [if_pos h1, hi.content (x - s.toNat) (by omega), show s.toNat + (x - s.toNat) = x by omega]
      rfl
    · intro hn
      by_cases h1 : s.toNat ≤ x
      · rw [if_pos h1, List.getElem?_eq_none]
        apply Nat.le_of_not_lt
        intro h2
        exact hn ⟨_, _, hs, h1, by omega⟩
      · rw [if_neg h1]

theorem run_header (p : BootParams) (ops : List ParamOp) :
    (p.run ops).2.header = p.header ∧ (p.run ops).2.headerStart = p.headerStart := by
  induction ops generalizing p with
  | nil => exact ⟨rfl, rfl⟩
  | cons op ops ih =>
    obtain ⟨h1, h2, -⟩ := C27_independent p op
    obtain ⟨h3, h4⟩ := ih (p.step op).2
    exact ⟨h3.trans h1, h4.trans h2⟩

theorem run_modules_none (p : BootParams) (ops : List ParamOp) :
    (p.run ops).2.modules = none ↔ p.modules = none ∧ ∀ op ∈ ops, ¬ AboutModules op := by
  induction ops generalizing p with
  | nil => simp [BootParams.run]
  | cons op ops ih =>
    show ((p.step op).2.run ops).2.modules = none ↔ _
    rw [ih]
    cases op <;> simp [BootParams.step, BootParams.setSections, BootParams.setModules, BootParams.addSection,
      BootParams.addModule, AboutModules]

/-- **C87.** Build boot parameters by any calls, then write them for a PVH guest: guest memory has, at
every address, the latest accepted module element, zero in the gaps of the module list; else the start
info; else the latest accepted memory map element, zero in the gaps of that list; else what it had. -/
theorem C87_memory (header : List UInt8) (addr : GuestAddr) (ops : List ParamOp)
    (hz : ∀ op ∈ ops, RustSized op) (m m' : Mem) (hw : m.WF)
    (h : pvhWrite ((BootParams.new header addr).run ops).2 m = (.ok (), m')) :
    let calls := ((BootParams.new header addr).run ops).1
    SameLayout m m' ∧ ∀ x,
      (Spanned (modulePieces calls) x → m'.data x = (lastPiece (modulePieces calls) x).getD 0) ∧
      (¬ Spanned (modulePieces calls) x →
        (∀ b, addr.toNat ≤ x → header[x - addr.toNat]? = some b → m'.data x = b) ∧
        (¬ InRange addr.toNat header.length x →
          (Spanned (sectionPieces calls) x → m'.data x = (lastPiece (sectionPieces calls) x).getD 0) ∧
          (¬ Spanned (sectionPieces calls) x → m'.data x = m.data x))) := by
  intro calls
  obtain ⟨hs, hm⟩ := C22_sparse_image header addr ops hz
  have h1 : ((BootParams.new header addr).run ops).2.header = header := (run_header _ ops).1
  have h2 : ((BootParams.new header addr).run ops).2.headerStart = addr := (run_header _ ops).2
  obtain ⟨hl, hd⟩ := C31_success _ m m' hw h
  refine ⟨hl, fun x => ?_⟩
  have hx := hd x
  unfold pvhPieces at hx
  rw [h1, h2, lastPiece_append', lastPiece_append'] at hx
  obtain ⟨hm1, hm2⟩ := optPiece_span hm x
  obtain ⟨hs1, hs2⟩ := optPiece_span hs x
  refine ⟨fun hsp => ?_, fun hsp => ⟨fun b hb1 hb2 => ?_, fun hr => ⟨fun hss => ?_, fun hss => ?_⟩⟩⟩
  · rw [hm1 hsp] at hx
    exact hx
  · rw [hm2 hsp] at hx
    simp only [lastPiece] at hx
    rw [if_pos hb1, hb2] at hx
    exact hx
  all_goals
    rw [hm2 hsp, lastPiece_outside (ps := [(addr.toNat, header)]) (by
        intro q hq
        rw [List.mem_singleton] at hq
        subst hq
        exact hr)] at hx
  · rw [hs1 hss] at hx
    exact hx
  · rw [hs2 hss] at hx
    exact hx

/-- **C87.** In particular an element is found at the address that its `add_section` call returned, if no
later accepted element of its list, the start info or the module list covers any of it. -/
theorem C87_section_found (header : List UInt8) (addr : GuestAddr) (ops : List ParamOp)
    (hz : ∀ op ∈ ops, RustSized op) (m m' : Mem) (hw : m.WF)
    (h : pvhWrite ((BootParams.new header addr).run ops).2 m = (.ok (), m'))
    (before after : List ParamCall) (e : List UInt8) (at_ : Option GuestAddr) (a : GuestAddr)
    (hc : ((BootParams.new header addr).run ops).1 = before ++ (.addSection e at_, .ok a) :: after)
    (hset : ∀ c ∈ after, ∀ es b, c.1 ≠ .setSections es b)
    (hadd : ∀ c ∈ after, ∀ e' at' b, c = (.addSection e' at', .ok b) →
      ∀ x, ¬ (InRange a.toNat e.length x ∧ InRange b.toNat e'.length x))
    (hhdr : ∀ x, ¬ (InRange a.toNat e.length x ∧ InRange addr.toNat header.length x))
    (hmod : ∀ x, InRange a.toNat e.length x →
      ¬ Spanned (modulePieces ((BootParams.new header addr).run ops).1) x) :
    Holds m'.data a.toNat e := by
  have hm := (C87_memory header addr ops hz m m' hw h).2
  have hsec : ∃ pre, ∃ post : List (Nat × List UInt8),
      sectionPieces ((BootParams.new header addr).run ops).1 = pre ++ (a.toNat, e) :: post ∧
      ∀ q ∈ post, ∀ x, ¬ (InRange a.toNat e.length x ∧ InRange q.1 q.2.length x) := by
    rw [hc]
    unfold sectionPieces
    rw [List.foldl_append, List.foldl_cons]
    show ∃ pre post, List.foldl sectionPiece (_ ++ [(a.toNat, e)]) after = _ ∧ _
    generalize List.foldl sectionPiece [] before = acc
    clear hc hhdr hmod hm h
    -- later calls only append pieces that do not overlap
    have key : ∀ (l : List ParamCall) (post : List (Nat × List UInt8)),
        (∀ c ∈ l, ∀ es b, c.1 ≠ .setSections es b) →
        (∀ c ∈ l, ∀ e' at' b, c = (ParamOp.addSection e' at', .ok b) →
          ∀ x, ¬ (InRange a.toNat e.length x ∧ InRange b.toNat e'.length x)) →
        (∀ q ∈ post, ∀ x, ¬ (InRange a.toNat e.length x ∧ InRange q.1 q.2.length x)) →
        ∃ post', List.foldl sectionPiece (acc ++ (a.toNat, e) :: post) l = acc ++ (a.toNat, e) :: post' ∧
          ∀ q ∈ post', ∀ x, ¬ (InRange a.toNat e.length x ∧ InRange q.1 q.2.length x) := by
      intro l
      induction l with
      | nil => exact fun post _ _ hp => ⟨post, rfl, hp⟩
      | cons c l ih =>
        intro post hset hadd hp
        obtain ⟨op, r⟩ := c
        have hset' := fun c hc => hset c (List.mem_cons_of_mem _ hc)
        have hadd' := fun c hc => hadd c (List.mem_cons_of_mem _ hc)
        rw [List.foldl_cons]
        cases op with
        | setSections es b => exact absurd rfl (hset _ (.head _) es b)
        | setModules es b => exact ih post hset' hadd' hp
        | addModule e' at' => exact ih post hset' hadd' hp
        | addSection e' at' =>
          cases r with
          | ok b =>
            have : sectionPiece (acc ++ (a.toNat, e) :: post) (.addSection e' at', .ok b) =
                acc ++ (a.toNat, e) :: (post ++ [(b.toNat, e')]) := by
              simp [sectionPiece]
            rw [this]
            refine ih _ hset' hadd' fun q hq => ?_
            rcases List.mem_append.1 hq with hq | hq
            · exact hp q hq
            · rw [List.mem_singleton] at hq
              subst hq
              exact hadd _ (.head _) e' at' b rfl
          | err _ => exact ih post hset' hadd' hp
          | panic => exact ih post hset' hadd' hp
    obtain ⟨post, h1, h2⟩ := key after [] hset hadd (fun _ hq => nomatch hq)
    exact ⟨acc, post, h1, h2⟩
  obtain ⟨pre, post, hp, hpost⟩ := hsec
  intro i b hb
  have hi := (List.getElem?_eq_some_iff.1 hb).1
  have hin : InRange a.toNat e.length (a.toNat + i) := ⟨by omega, by omega⟩
  have hlast : lastPiece (sectionPieces ((BootParams.new header addr).run ops).1) (a.toNat + i) = some b := by
    rw [hp, lastPiece_append']
    simp only [lastPiece]
    rw [lastPiece_outside fun q hq hr => hpost q hq _ ⟨hin, hr⟩]
    simp [hb]
  have hspan : Spanned (sectionPieces ((BootParams.new header addr).run ops).1) (a.toNat + i) := by
    obtain ⟨hs, -⟩ := C22_sparse_image header addr ops hz
    apply Classical.byContradiction
    intro hn
    cases hps : sectionPieces ((BootParams.new header addr).run ops).1 with
    | nil => rw [hps] at hlast; cases hlast
    | cons q rest =>
      obtain ⟨a', bs'⟩ := q
      obtain ⟨s, b', -, -, rfl, him⟩ := hs.2 a' bs' rest hps
      rw [hps] at hn hp him
      have hmem : (a.toNat, e) ∈ (s.toNat, bs') :: rest := by rw [hp]; simp
      have := him.covers _ hmem
      simp only at this
      exact hn ⟨_, _, span_of_image him, by omega, by omega⟩
  have := ((hm (a.toNat + i)).2 (hmod _ hin)).2 fun hr => hhdr _ ⟨hin, hr⟩
  rw [this.1 hspan, hlast]
  rfl

/-- **C87.** Likewise a module is found at the address that its `add_module` call returned, if no
later accepted element covers any of it: modules are written last. -/
theorem C87_module_found (header : List UInt8) (addr : GuestAddr) (ops : List ParamOp)
    (hz : ∀ op ∈ ops, RustSized op) (m m' : Mem) (hw : m.WF)
    (h : pvhWrite ((BootParams.new header addr).run ops).2 m = (.ok (), m'))
    (before after : List ParamCall) (e : List UInt8) (at_ : Option GuestAddr) (a : GuestAddr)
    (hc : ((BootParams.new header addr).run ops).1 = before ++ (.addModule e at_, .ok a) :: after)
    (hset : ∀ c ∈ after, ∀ es b, c.1 ≠ .setModules es b)
    (hadd : ∀ c ∈ after, ∀ e' at' b, c = (.addModule e' at', .ok b) →
      ∀ x, ¬ (InRange a.toNat e.length x ∧ InRange b.toNat e'.length x)) :
    Holds m'.data a.toNat e := by
  have hm := (C87_memory header addr ops hz m m' hw h).2
  have hsec : ∃ pre, ∃ post : List (Nat × List UInt8),
      modulePieces ((BootParams.new header addr).run ops).1 = pre ++ (a.toNat, e) :: post ∧
      ∀ q ∈ post, ∀ x, ¬ (InRange a.toNat e.length x ∧ InRange q.1 q.2.length x) := by
    rw [hc]
    unfold modulePieces
    rw [List.foldl_append, List.foldl_cons]
    show ∃ pre post, List.foldl modulePiece (_ ++ [(a.toNat, e)]) after = _ ∧ _
    generalize List.foldl modulePiece [] before = acc
    clear hc hm h
    -- later calls only append pieces that do not overlap
    have key : ∀ (l : List ParamCall) (post : List (Nat × List UInt8)),
        (∀ c ∈ l, ∀ es b, c.1 ≠ .setModules es b) →
        (∀ c ∈ l, ∀ e' at' b, c = (ParamOp.addModule e' at', .ok b) →
          ∀ x, ¬ (InRange a.toNat e.length x ∧ InRange b.toNat e'.length x)) →
        (∀ q ∈ post, ∀ x, ¬ (InRange a.toNat e.length x ∧ InRange q.1 q.2.length x)) →
        ∃ post', List.foldl modulePiece (acc ++ (a.toNat, e) :: post) l = acc ++ (a.toNat, e) :: post' ∧
          ∀ q ∈ post', ∀ x, ¬ (InRange a.toNat e.length x ∧ InRange q.1 q.2.length x) := by
      intro l
      induction l with
      | nil => exact fun post _ _ hp => ⟨post, rfl, hp⟩
      | cons c l ih =>
        intro post hset hadd hp
        obtain ⟨op, r⟩ := c
        have hset' := fun c hc => hset c (List.mem_cons_of_mem _ hc)
        have hadd' := fun c hc => hadd c (List.mem_cons_of_mem _ hc)
        rw [List.foldl_cons]
        cases op with
        | setModules es b => exact absurd rfl (hset _ (.head _) es b)
        | setSections es b => exact ih post hset' hadd' hp
        | addSection e' at' => exact ih post hset' hadd' hp
        | addModule e' at' =>
          cases r with
          | ok b =>
            have : modulePiece (acc ++ (a.toNat, e) :: post) (.addModule e' at', .ok b) =
                acc ++ (a.toNat, e) :: (post ++ [(b.toNat, e')]) := by
              simp [modulePiece]
            rw [this]
            refine ih _ hset' hadd' fun q hq => ?_
            rcases List.mem_append.1 hq with hq | hq
            · exact hp q hq
            · rw [List.mem_singleton] at hq
              subst hq
              exact hadd _ (.head _) e' at' b rfl
          | err _ => exact ih post hset' hadd' hp
          | panic => exact ih post hset' hadd' hp
    obtain ⟨post, h1, h2⟩ := key after [] hset hadd (fun _ hq => nomatch hq)
    exact ⟨acc, post, h1, h2⟩
  obtain ⟨pre, post, hp, hpost⟩ := hsec
  intro i b hb
  have hi := (List.getElem?_eq_some_iff.1 hb).1
  have hin : InRange a.toNat e.length (a.toNat + i) := ⟨by omega, by omega⟩
  have hlast : lastPiece (modulePieces ((BootParams.new header addr).run ops).1) (a.toNat + i) = some b := by
    rw [hp, lastPiece_append']
    simp only [lastPiece]
    rw [lastPiece_outside fun q hq hr => hpost q hq _ ⟨hin, hr⟩]
    simp [hb]
  have hspan : Spanned (modulePieces ((BootParams.new header addr).run ops).1) (a.toNat + i) := by
    obtain ⟨-, hs⟩ := C22_sparse_image header addr ops hz
    apply Classical.byContradiction
    intro hn
    cases hps : modulePieces ((BootParams.new header addr).run ops).1 with
    | nil => rw [hps] at hlast; cases hlast
    | cons q rest =>
      obtain ⟨a', bs'⟩ := q
      obtain ⟨s, b', -, -, rfl, him⟩ := hs.2 a' bs' rest hps
      rw [hps] at hn hp him
      have hmem : (a.toNat, e) ∈ (s.toNat, bs') :: rest := by rw [hp]; simp
      have := him.covers _ hmem
      simp only at this
      exact hn ⟨_, _, span_of_image him, by omega, by omega⟩
  rw [(hm (a.toNat + i)).1 hspan, hlast]
  rfl

/-- **C87.** Writing succeeds exactly if some memory map element was accepted and the memory map, the start
info and the byte behind each are mapped, and no call was about modules or some element was accepted and
the module list is mapped. -/
theorem C87_accepted (header : List UInt8) (addr : GuestAddr) (ops : List ParamOp)
    (hz : ∀ op ∈ ops, RustSized op) (m : Mem) (hw : m.WF) :
    let calls := ((BootParams.new header addr).run ops).1
    (pvhWrite ((BootParams.new header addr).run ops).2 m).1 = .ok () ↔
      (∃ a e, Span (sectionPieces calls) a e ∧ Mapped m a (e - a + 1)) ∧
      Mapped m addr.toNat (header.length + 1) ∧
      ((∀ op ∈ ops, ¬ AboutModules op) ∨
        ∃ a e, Span (modulePieces calls) a e ∧ Accessible m a (e - a)) := by
  intro calls
  obtain ⟨hs, hm⟩ := C22_sparse_image header addr ops hz
  have h1 : ((BootParams.new header addr).run ops).2.header = header := (run_header _ ops).1
  have h2 : ((BootParams.new header addr).run ops).2.headerStart = addr := (run_header _ ops).2
  have hnone := run_modules_none (BootParams.new header addr) ops
  have hlast : ∀ a n, Mapped m a (n + 1) ↔ Mapped m a n ∧ m.mapped (a + n) = true := by
    intro a n
    constructor
    · exact fun h => ⟨fun x hx => h x ⟨hx.1, by have := hx.2; omega⟩, h _ ⟨by omega, by omega⟩⟩
    · rintro ⟨h, h'⟩ x hx
      unfold InRange at hx
      by_cases hxe : x = a + n
      · rw [hxe]; exact h'
      · exact h x ⟨hx.1, by omega⟩
  rw [(C32_first_obstacle _ m hw).2.1, firstObstacle_none_iff]
  unfold pvhObstacles
  simp only [List.mem_cons, List.not_mem_nil, or_false, forall_eq_or_imp, forall_eq]
  rw [h1, h2]
  -- sections
  have hsec : (¬ ((BootParams.new header addr).run ops).2.sections = none ∧
      ¬ ((BootParams.new header addr).run ops).2.sectionsStart = none ∧
      (¬ ∃ b a, ((BootParams.new header addr).run ops).2.sections = some b ∧
        ((BootParams.new header addr).run ops).2.sectionsStart = some a ∧ m.mapped (a.toNat + b.length) = false) ∧
      ¬ ∃ b a, ((BootParams.new header addr).run ops).2.sections = some b ∧
        ((BootParams.new header addr).run ops).2.sectionsStart = some a ∧ ¬ Mapped m a.toNat b.length) ↔
      ∃ a e, Span (sectionPieces calls) a e ∧ Mapped m a (e - a + 1) := by
    cases hps : sectionPieces ((BootParams.new header addr).run ops).1 with
    | nil =>
      obtain ⟨hst, -⟩ := hs.1 hps
      constructor
      · exact fun h => absurd hst h.2.1
      · rintro ⟨a, e, ⟨⟨_, _, hc⟩, -⟩, -⟩
        cases hc
    | cons q rest =>
      obtain ⟨a, bs⟩ := q
      obtain ⟨s, b, hst, hb, rfl, hi⟩ := hs.2 a bs rest hps
      rw [hps] at hi
      have hsp := span_of_image hi
      rw [hst, hb]
      constructor
      · rintro ⟨-, -, h3, h4⟩
        refine ⟨_, _, hsp, ?_⟩
        rw [hlast, show s.toNat + b.length - s.toNat = b.length by omega]
        refine ⟨Classical.byContradiction fun hn => h4 ⟨b, s, rfl, rfl, hn⟩, ?_⟩
        rw [← Bool.not_eq_false]
        exact fun hn => h3 ⟨b, s, rfl, rfl, hn⟩
      · rintro ⟨a', e', hsp', hmap⟩
        obtain ⟨rfl, rfl⟩ := span_unique hsp hsp'
        rw [hlast, show s.toNat + b.length - s.toNat = b.length by omega] at hmap
        refine ⟨by simp, by simp, ?_, ?_⟩
        · rintro ⟨b', a', hb', ha', hn⟩
          cases hb'; cases ha'
          rw [hmap.2] at hn; cases hn
        · rintro ⟨b', a', hb', ha', hn⟩
          cases hb'; cases ha'
          exact hn hmap.1
  have hmod : (¬ (((BootParams.new header addr).run ops).2.modules ≠ none ∧
        ((BootParams.new header addr).run ops).2.modulesStart = none) ∧
      ¬ ∃ b a, ((BootParams.new header addr).run ops).2.modules = some b ∧
        ((BootParams.new header addr).run ops).2.modulesStart = some a ∧ ¬ Accessible m a.toNat b.length) ↔
      ((∀ op ∈ ops, ¬ AboutModules op) ∨
        ∃ a e, Span (modulePieces calls) a e ∧ Accessible m a (e - a)) := by
    have hnone' : ((BootParams.new header addr).run ops).2.modules = none ↔ ∀ op ∈ ops, ¬ AboutModules op := by
      rw [hnone]
      exact ⟨fun h => h.2, fun h => ⟨rfl, h⟩⟩
    rw [← hnone']
    cases hps : modulePieces ((BootParams.new header addr).run ops).1 with
    | nil =>
      obtain ⟨hst, -⟩ := hm.1 hps
      rw [hst]
      constructor
      · exact fun h => .inl (Classical.byContradiction fun hn => h.1 ⟨hn, rfl⟩)
      · rintro (h | ⟨a, e, ⟨⟨_, _, hc⟩, -⟩, -⟩)
        · refine ⟨fun hn => hn.1 h, ?_⟩
          rintro ⟨b, a, -, ha, -⟩
          cases ha
        · cases hc
    | cons q rest =>
      obtain ⟨a, bs⟩ := q
      obtain ⟨s, b, hst, hb, rfl, hi⟩ := hm.2 a bs rest hps
      rw [hps] at hi
      have hsp := span_of_image hi
      rw [hst, hb]
      constructor
      · rintro ⟨-, h4⟩
        refine .inr ⟨_, _, hsp, ?_⟩
        rw [show s.toNat + b.length - s.toNat = b.length by omega]
        exact Classical.byContradiction fun hn => h4 ⟨b, s, rfl, rfl, hn⟩
      · rintro (h | ⟨a', e', hsp', hmap⟩)
        · cases h
        obtain ⟨rfl, rfl⟩ := span_unique hsp hsp'
        rw [show s.toNat + b.length - s.toNat = b.length by omega] at hmap
        refine ⟨by simp, ?_⟩
        rintro ⟨b', a', hb', ha', hn⟩
        cases hb'; cases ha'
        exact hn hmap
  rw [← hsec, ← hmod, hlast]
  constructor
  · rintro ⟨a1, a2, a3, a4, a5, a6, a7, a8⟩
    exact ⟨⟨a1, a2, a3, a4⟩, ⟨Classical.byContradiction a6, by simpa using a5⟩, a7, a8⟩
  · rintro ⟨⟨a1, a2, a3, a4⟩, ⟨a6, a5⟩, a7, a8⟩
    exact ⟨a1, a2, a3, a4, by simpa using a5, not_not_intro a6, a7, a8⟩

/-- Two memory map elements, one behind a gap; the first module has an address, the second none. -/
def incOps : List ParamOp :=
  [.addSection [4, 5] (some 0x1010), .addModule [6] (some 0x1030), .addSection [7] (some 0x1015),
    .addSection [8] (some 0x1008), .addModule [9, 10] none]

def incParams : BootParams := ((BootParams.new [1, 2, 3] 0x1000).run incOps).2

theorem incOps_sized : ∀ op ∈ incOps, RustSized op := by
  intro op h
  simp only [incOps, List.mem_cons, List.not_mem_nil, or_false] at h
  rcases h with rfl | rfl | rfl | rfl | rfl <;> (simp only [RustSized]; decide)

/-- The third `add_section` is refused: it is below the first element. -/
theorem incOps_calls : ((BootParams.new [1, 2, 3] 0x1000).run incOps).1 =
    [(.addSection [4, 5] (some 0x1010), .ok 0x1010), (.addModule [6] (some 0x1030), .ok 0x1030),
      (.addSection [7] (some 0x1015), .ok 0x1015), (.addSection [8] (some 0x1008), .err .invalidAddress),
      (.addModule [9, 10] none, .ok 0x1031)] := by decide +kernel

theorem incWrite : (pvhWrite incParams cfgMem).1 = .ok () := by decide +kernel

example := C87_memory [1, 2, 3] 0x1000 incOps incOps_sized cfgMem _ cfgMem_wf (ran incWrite)

/-- The gap is zeroed, the rest of memory is as before. -/
example : [0x1000, 0x1003, 0x100f, 0x1010, 0x1011, 0x1012, 0x1014, 0x1015, 0x1016, 0x102f, 0x1030, 0x1031,
      0x1032, 0x1033].map (pvhWrite incParams cfgMem).2.data =
    [1, 0xAA, 0xAA, 4, 5, 0, 0, 7, 0xAA, 0xAA, 6, 9, 10, 0xAA] := by decide +kernel

example : Holds (pvhWrite incParams cfgMem).2.data 0x1010 [4, 5] :=
  C87_section_found [1, 2, 3] 0x1000 incOps incOps_sized cfgMem _ cfgMem_wf (ran incWrite) [] _ [4, 5]
    (some 0x1010) 0x1010 incOps_calls
    (by
      intro c hc es b
      simp only [List.mem_cons, List.not_mem_nil, or_false] at hc
      rcases hc with rfl | rfl | rfl | rfl <;> exact ParamOp.noConfusion)
    (by
      intro c hc e' at' b hcb x
      simp only [List.mem_cons, List.not_mem_nil, or_false] at hc
      rcases hc with rfl | rfl | rfl | rfl <;> cases hcb
      rintro ⟨⟨_, h1⟩, ⟨h2, _⟩⟩
      simp at h1 h2
      omega)
    (by
      rintro x ⟨⟨h1, _⟩, ⟨_, h2⟩⟩
      simp at h1 h2
      omega)
    (by
      rintro x ⟨_, h1⟩ ⟨a, e, ⟨⟨bs, rest, h2⟩, -⟩, h3, -⟩
      rw [incOps_calls] at h2
      simp [modulePieces, modulePiece] at h1 h2
      omega)

example := C87_module_found [1, 2, 3] 0x1000 incOps incOps_sized cfgMem _ cfgMem_wf (ran incWrite)
    (((BootParams.new [1, 2, 3] 0x1000).run incOps).1.take 4) [] [9, 10] none 0x1031 (by decide +kernel)
    (fun _ h => nomatch h) (fun _ h => nomatch h)

example := (C87_accepted [1, 2, 3] 0x1000 incOps incOps_sized cfgMem cfgMem_wf).1 incWrite

/-- No call about the memory map: writing is refused. -/
example : (pvhWrite ((BootParams.new [1, 2, 3] 0x1000).run [.addModule [6] (some 0x1030)]).2 cfgMem).1 ≠
    .ok () := by decide +kernel

end LinuxLoader
