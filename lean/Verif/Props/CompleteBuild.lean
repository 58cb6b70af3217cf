import Verif.Spec.CompleteBuild
import Verif.Lemmas.Complete
import Verif.Props.CmdlineBuild
import Verif.Props.CmdlineParse
import Verif.Props.CmdlineKernel
import Verif.Props.BootParams

/-! # C115: the specifications of the builder and of boot parameter lists are complete -/

namespace LinuxLoader
open Spec Cmdline

theorem changedRight_iff {c : Cmdline} {obs : List (CmdlineError × Prop)} {new : Cmdline} {r₀ : Res CmdlineError Unit}
    {c₀ : Cmdline} (h : ChangedRight c obs new r₀ c₀) (r : Res CmdlineError Unit) (c' : Cmdline) :
    ChangedRight c obs new r c' ↔ r = r₀ ∧ c' = c₀ := by
  constructor
  · intro h'
    obtain ⟨o, ho⟩ := firstObstacle_total obs
    cases o with
    | none => rw [(h'.succeeds ho).1, (h'.succeeds ho).2, (h.succeeds ho).1, (h.succeeds ho).2]; exact ⟨rfl, rfl⟩
    | some e => rw [(h'.fails e ho).1, (h'.fails e ho).2, (h.fails e ho).1, (h.fails e ho).2]; exact ⟨rfl, rfl⟩
  · rintro ⟨rfl, rfl⟩
    exact h

theorem keyObstacles_none {k : Str} (h : FirstObstacle (keyObstacles k) none) : LegalKey k := by
  have h := firstObstacle_none_iff.1 h
  exact ⟨Classical.byContradiction (h (.invalidAscii, ¬ Printable k) (by simp [keyObstacles])),
    h (.hasSpace, ' ' ∈ k) (by simp [keyObstacles]), h (.hasEquals, '=' ∈ k) (by simp [keyObstacles])⟩

theorem keyObstacles_some {k : Str} {e : CmdlineError} (h : FirstObstacle (keyObstacles k) (some e)) :
    KeyProblem k e := by
  cases h with
  | here hp => exact .ascii hp
  | later h1 h => cases h with
    | here hp => exact .space (Classical.byContradiction h1) hp
    | later h2 h => cases h with
      | here hp => exact .equals (Classical.byContradiction h1) h2 hp
      | later _ h => cases h

theorem valueObstacles_none {v : Str} (h : FirstObstacle (valueObstacles v) none) : LegalValue v := by
  have h := firstObstacle_none_iff.1 h
  refine ⟨Classical.byContradiction (h (.invalidAscii, ¬ Printable v) (by simp [valueObstacles])),
    h (.invalidQuote, InnerQuote v) (by simp [valueObstacles]), fun hs => ?_⟩
  have := h (.noQuoteSpace, ' ' ∈ v ∧ ¬ Enclosed v) (by simp [valueObstacles])
  exact Classical.byContradiction fun hn => this ⟨hs, hn⟩

theorem valueObstacles_some {v : Str} {e : CmdlineError} (h : FirstObstacle (valueObstacles v) (some e)) :
    ValueProblem v e := by
  cases h with
  | here hp => exact .ascii hp
  | later h1 h => cases h with
    | here hp => exact .quote (Classical.byContradiction h1) hp
    | later h2 h => cases h with
      | here hp => exact .space (Classical.byContradiction h1) h2 hp.1 hp.2
      | later _ h => cases h

/-- The last obstacle of a new boot argument is its size. -/
theorem bootArgAdded {c : Cmdline} {obs : List (CmdlineError × Prop)} {arg : Str} {r : Res CmdlineError Unit}
    {c' : Cmdline} (herr : ∀ e, FirstObstacle obs (some e) → (c', r) = (c, .err e))
    (hok : FirstObstacle obs none → (c', r) = if Fits (extend c.bootArgs arg) c.initArgs c.capacity then
      ({ c with bootArgs := extend c.bootArgs arg }, .ok ()) else (c, .err .tooLarge)) :
    BootArgAdded c obs arg r c' := by
  constructor
  · intro h
    have hn := firstObstacle_none_iff.1 h
    have h1 : FirstObstacle obs none := firstObstacle_none_iff.2 fun o ho => hn o (List.mem_append_left _ ho)
    have h2 := hn (.tooLarge, ¬ Fits (extend c.bootArgs arg) c.initArgs c.capacity)
      (List.mem_append_right _ (List.mem_cons_self ..))
    have := hok h1
    rw [if_pos (Classical.byContradiction h2)] at this
    exact ⟨congrArg Prod.snd this, congrArg Prod.fst this⟩
  · intro e h
    rcases firstObstacle_append_cases h with h | ⟨hn, h⟩
    · have := herr e h
      exact ⟨congrArg Prod.snd this, congrArg Prod.fst this⟩
    · cases h with
      | here hp =>
        have := hok hn
        rw [if_neg hp] at this
        exact ⟨congrArg Prod.snd this, congrArg Prod.fst this⟩
      | later _ h => cases h

theorem opDone_step (c : Cmdline) (h : Reachable c) (op : Op) : OpDone c op (c.step op).2 (c.step op).1 := by
  cases op with
  | insert k v =>
    obtain ⟨h1, h2, h3⟩ := C10_insert c h k v
    refine bootArgAdded (fun e he => ?_) fun hn => ?_
    · rcases firstObstacle_append_cases he with he | ⟨hn, he⟩
      · exact h1 e (keyObstacles_some he)
      · exact h2 e (keyObstacles_none hn) (valueObstacles_some he)
    · have hn := firstObstacle_none_iff.1 hn
      exact h3 (keyObstacles_none (firstObstacle_none_iff.2 fun o ho => hn o (List.mem_append_left _ ho)))
        (valueObstacles_none (firstObstacle_none_iff.2 fun o ho => hn o (List.mem_append_right _ ho)))
  | insertMultiple k vs =>
    obtain ⟨h1, h2, h3, h4⟩ := C11_insert_multiple c h k vs
    refine bootArgAdded (fun e he => ?_) fun hn => ?_
    · rcases firstObstacle_append_cases he with he | ⟨hn, he⟩
      · exact h1 e (keyObstacles_some he)
      · cases he with
        | here hp => exact h2 (keyObstacles_none hn) hp
        | later _ he =>
          obtain ⟨us, v, ws, hs, hu, hv⟩ := firstObstacle_flatMap he
          refine h3 us v ws e (keyObstacles_none hn) hs (fun u hmem => ?_) (valueObstacles_some hv)
          have hu := firstObstacle_none_iff.1 hu
          exact valueObstacles_none (firstObstacle_none_iff.2 fun o ho =>
            hu o (List.mem_flatMap.2 ⟨u, hmem, ho⟩))
    · have hn := firstObstacle_none_iff.1 hn
      refine h4 (keyObstacles_none (firstObstacle_none_iff.2 fun o ho => hn o (List.mem_append_left _ ho)))
        (hn (.missingVal k, vs = []) (List.mem_append_right _ (List.mem_cons_self ..))) fun v hmem => ?_
      exact valueObstacles_none (firstObstacle_none_iff.2 fun o ho =>
        hn o (List.mem_append_right _ (List.mem_cons_of_mem _ (List.mem_flatMap.2 ⟨v, hmem, ho⟩))))
  | insertStr s =>
    obtain ⟨t, ht, -⟩ := C04_trimmed_total s
    have h1 := C04_insert_str c h s t ht
    refine ⟨t, ht, bootArgAdded (fun e he => ?_) fun hn => ?_⟩
    · cases he with
      | here hp => exact h1.trans (if_pos hp)
      | later _ he => cases he
    · have hp := firstObstacle_none_iff.1 hn (.invalidAscii, ¬ Printable t) (List.mem_cons_self ..)
      refine h1.trans ((if_neg hp).trans ?_)
      by_cases hf : Fits (extend c.bootArgs t) c.initArgs c.capacity
      · rw [if_neg (fun h => h hf), if_pos hf]
      · rw [if_pos hf, if_neg hf]
  | insertInitArgs s =>
    obtain ⟨t, ht, -⟩ := C04_trimmed_total s
    have h1 := C05_insert_init_args c h s t ht
    refine ⟨t, ht, fun hn => ?_, fun e he => ?_⟩
    · have hn := firstObstacle_none_iff.1 hn
      have hp := hn _ (List.mem_cons_self ..)
      have hf := hn _ (List.mem_cons_of_mem _ (List.mem_cons_self ..))
      have h2 := h1.trans ((if_neg hp).trans (if_neg hf))
      exact ⟨congrArg Prod.snd h2, congrArg Prod.fst h2⟩
    · cases he with
      | here hp =>
        have h2 := h1.trans (if_pos hp)
        exact ⟨congrArg Prod.snd h2, congrArg Prod.fst h2⟩
      | later hn he => cases he with
        | here hp =>
          have h2 := h1.trans ((if_neg hn).trans (if_pos hp))
          exact ⟨congrArg Prod.snd h2, congrArg Prod.fst h2⟩
        | later _ he => cases he
  | addVirtio size base irq id =>
    refine bootArgAdded (fun e he => ?_) fun hn => ?_
    · cases he with
      | here hp => exact (C13_virtio c h size base irq id).1 hp
      | later _ he => cases he
    · have hp := firstObstacle_none_iff.1 hn (.mmioSize, size = 0) (List.mem_cons_self ..)
      exact (C13_text c h size base irq id hp).1

/-- **C115 (one call).** Of all results and command lines exactly those of the builder call are right. -/
theorem C115_call (c : Cmdline) (h : Reachable c) (op : Op) (res : Res CmdlineError Unit) (c' : Cmdline) :
    OpDone c op res c' ↔ res = (c.step op).2 ∧ c' = (c.step op).1 := by
  have key := opDone_step c h op
  refine ⟨fun hd => ?_, fun ⟨h1, h2⟩ => by rw [h1, h2]; exact key⟩
  cases op with
  | insert k v => exact (changedRight_iff key res c').1 hd
  | insertMultiple k vs => exact (changedRight_iff key res c').1 hd
  | insertStr s =>
    obtain ⟨t, ht, hd⟩ := hd
    obtain ⟨u, hu, key⟩ := key
    obtain ⟨w, -, huniq⟩ := C04_trimmed_total s
    have htu : t = u := (huniq t ht).trans (huniq u hu).symm
    subst htu
    exact (changedRight_iff key res c').1 hd
  | insertInitArgs s =>
    obtain ⟨t, ht, hd⟩ := hd
    obtain ⟨u, hu, key⟩ := key
    obtain ⟨w, -, huniq⟩ := C04_trimmed_total s
    have htu : t = u := (huniq t ht).trans (huniq u hu).symm
    subst htu
    exact (changedRight_iff key res c').1 hd
  | addVirtio size base irq id => exact (changedRight_iff key res c').1 hd

/-- **C115 (histories).** Of all lists of results and final command lines exactly those of the sequence of calls are
right: result `i` is that of call `i` on the command line made by the calls before it. -/
theorem C115_history (ops : List Op) : ∀ (c : Cmdline), Reachable c → ∀ (rs : List (Res CmdlineError Unit)) (c' : Cmdline),
    RunDone c ops rs c' ↔
      c' = c.run ops ∧ rs.length = ops.length ∧
        ∀ i op, ops[i]? = some op → rs[i]? = some ((c.run (ops.take i)).step op).2 := by
  induction ops with
  | nil =>
    intro c h rs c'
    constructor
    · intro hd
      cases hd
      exact ⟨rfl, rfl, fun i op hi => by simp at hi⟩
    · rintro ⟨rfl, hl, -⟩
      rw [List.eq_nil_of_length_eq_zero hl]
      exact .nil
  | cons o ops ih =>
    intro c h rs c'
    constructor
    · intro hd
      cases hd with
      | cons h1 h2 =>
        obtain ⟨rfl, rfl⟩ := (C115_call c h o _ _).1 h1
        obtain ⟨a1, a2, a3⟩ := (ih _ (h.step o) _ _).1 h2
        refine ⟨a1, by simp [a2], fun i op hi => ?_⟩
        cases i with
        | zero => cases hi; rfl
        | succ i => exact a3 i op hi
    · rintro ⟨a1, a2, a3⟩
      cases rs with
      | nil => cases a2
      | cons r rs =>
        have h0 := a3 0 o rfl
        injection h0 with h0
        refine .cons ((C115_call c h o _ _).2 ⟨h0, rfl⟩) ((ih _ (h.step o) _ _).2 ⟨a1, ?_, fun i op hi => ?_⟩)
        · simpa using a2
        · exact a3 (i + 1) op hi

/-- **C115 (new, try_from, as_cstring).** Of all results exactly those of the calls are right. -/
theorem C115_ends :
    (∀ cap res, NewDone cap res ↔ res = Cmdline.new cap) ∧
    (∀ (s : Str), s.utf8Len < ISZ → ∀ cap res, ParseDone s cap res ↔ res = tryFrom s cap) ∧
    (∀ (c : Cmdline) res, RenderDone c res ↔ res = c.asCString) := by
  refine ⟨fun cap res => ?_, fun s hs cap res => ?_, fun c res => ?_⟩
  · unfold NewDone Cmdline.new
    by_cases h : cap = 0
    · subst h
      simp
    · simp [h]
  · obtain ⟨b, i, hsp, huniq⟩ := C14_split_unique s
    rw [C15_accepts_iff_fits s hs cap b i hsp]
    constructor
    · rintro ⟨b', i', hsp', h1, h2⟩
      obtain ⟨rfl, rfl⟩ := huniq b' i' hsp'
      split
      · exact h1 ‹_›
      · rename_i hn
        exact h2 (fun h => hn (.inl h)) (Classical.byContradiction fun h => hn (.inr h))
    · rintro rfl
      refine ⟨b, i, hsp, fun h => if_pos h, fun h1 h2 => if_neg ?_⟩
      rintro (h | h)
      · exact h1 h
      · exact h h2
  · rw [C09_as_cstring]
    unfold RenderDone
    dsimp only
    constructor
    · rintro ⟨h1, h2⟩
      split
      · exact h2 _ (.here ‹_›)
      · split
        · exact h2 _ (.later ‹_› (.here ‹_›))
        · exact h1 (.later ‹_› (.later ‹_› .none))
    · rintro rfl
      refine ⟨fun h => ?_, fun e h => ?_⟩
      · have h := firstObstacle_none_iff.1 h
        rw [if_neg (h _ (List.mem_cons_self ..)), if_neg (h _ (List.mem_cons_of_mem _ (List.mem_cons_self ..)))]
      · cases h with
        | here hp => rw [if_pos hp]
        | later hn h => cases h with
          | here hp => rw [if_neg hn, if_pos hp]
          | later _ h => cases h

theorem overlayAt_append (b e : List UInt8) (k : Nat) : (b ++ e)[k]? = overlayAt b b.length e k := by
  unfold overlayAt
  by_cases h : k < b.length
  · rw [if_neg (by omega), if_pos h, List.getElem?_append_left h]
  · rw [List.getElem?_append_right (by omega)]
    by_cases h2 : k < b.length + e.length
    · rw [if_pos ⟨by omega, h2⟩]
    · rw [if_neg (fun h' => h2 h'.2), if_neg h, if_neg h, List.getElem?_eq_none (by omega)]

theorem addDone_section (p : BootParams) (hp : ParamsReachable p) (e : List UInt8) (a : Option GuestAddr)
    (he : e.length < ISZ) :
    AddDone p.sections p.sectionsStart e a (p.addSection e a).1 (p.addSection e a).2.sections
      (p.addSection e a).2.sectionsStart := by
  refine ⟨(C24_outcome p e a).1, fun r hr => ?_, fun hn => ?_⟩
  · have h : p.addSection e a = (.ok r, (p.addSection e a).2) := Prod.ext hr rfl
    cases a with
    | none =>
      obtain ⟨s, h1, h2, h3, h4⟩ := C23_append p _ e r h
      refine ⟨s, _, by rw [h1]; rfl, h2, h4, fun k => ?_⟩
      rw [h3, show s.toNat + (p.sections.getD []).length - s.toNat = (p.sections.getD []).length by omega]
      exact overlayAt_append _ _ _
    | some a =>
      obtain ⟨rfl, s, b, h1, h2, -, h4, -, h6⟩ := C23_at_address p _ e a r h
      refine ⟨s, b, ?_, h1, h4, h6⟩
      rcases h2 with h2 | ⟨h2, rfl⟩ <;> rw [h2] <;> rfl
  · obtain ⟨h1, h2⟩ := (C24_failure_unchanged p hp e a he).1 hn
    refine ⟨?_, h2⟩
    rw [← h1]
    rfl

theorem addDone_module (p : BootParams) (hp : ParamsReachable p) (e : List UInt8) (a : Option GuestAddr)
    (he : e.length < ISZ) :
    AddDone p.modules p.modulesStart e a (p.addModule e a).1 (p.addModule e a).2.modules
      (p.addModule e a).2.modulesStart := by
  refine ⟨(C24_outcome p e a).2, fun r hr => ?_, fun hn => ?_⟩
  · have h : ({ p with sections := p.modules, sectionsStart := p.modulesStart } : BootParams).addSection e a =
        (.ok r, (({ p with sections := p.modules, sectionsStart := p.modulesStart } : BootParams).addSection e a).2) :=
      Prod.ext hr rfl
    cases a with
    | none =>
      obtain ⟨s, h1, h2, h3, h4⟩ := C23_append _ _ e r h
      refine ⟨s, p.modules.getD [] ++ e, ?_, h2, h4, fun k => ?_⟩
      · rw [show p.modulesStart = some s from h1]; rfl
      · rw [show r.toNat = s.toNat + (p.modules.getD []).length from h3,
          show s.toNat + (p.modules.getD []).length - s.toNat = (p.modules.getD []).length by omega]
        exact overlayAt_append _ _ _
    | some a =>
      obtain ⟨rfl, s, b, h1, h2, -, h4, -, h6⟩ := C23_at_address _ _ e a r h
      refine ⟨s, b, ?_, h1, h4, h6⟩
      rcases h2 with h2 | ⟨h2, rfl⟩
      · rw [show p.modulesStart = some s from h2]; rfl
      · rw [show p.modulesStart = none from h2]; rfl
  · obtain ⟨h1, h2⟩ := (C24_failure_unchanged p hp e a he).2 hn
    refine ⟨?_, h2⟩
    rw [← h1]
    rfl

theorem addDone_unique {list list₁ list₂ : Option (List UInt8)} {start start₁ start₂ a : Option GuestAddr}
    {e : List UInt8} {r₁ r₂ : Res ListError GuestAddr} (h₁ : AddDone list start e a r₁ list₁ start₁)
    (h₂ : AddDone list start e a r₂ list₂ start₂) : r₁ = r₂ ∧ list₁ = list₂ ∧ start₁ = start₂ := by
  obtain rfl := C24_exclusive h₁.outcome h₂.outcome
  refine ⟨rfl, ?_⟩
  by_cases h : ∃ r, r₁ = .ok r
  · obtain ⟨r, rfl⟩ := h
    obtain ⟨s, b, f1, rfl, rfl, f4⟩ := h₁.succeeds r rfl
    obtain ⟨t, c, g1, rfl, rfl, g4⟩ := h₂.succeeds r rfl
    rw [f1] at g1
    injection g1 with g1
    subst g1
    exact ⟨congrArg some (List.ext_getElem? fun k => by rw [f4 k, g4 k]), rfl⟩
  · have hn : ∀ r, r₁ ≠ .ok r := fun r hr => h ⟨r, hr⟩
    rw [(h₁.fails hn).1, (h₂.fails hn).1, (h₁.fails hn).2, (h₂.fails hn).2]
    exact ⟨rfl, rfl⟩

/-- **C115 (boot parameters).** Of all results and boot parameters exactly those of the call are right. -/
theorem C115_params (p : BootParams) (hp : ParamsReachable p) (op : ParamOp) (hs : RustSized op)
    (res : Res ListError GuestAddr) (p' : BootParams) :
    ParamDone p op res p' ↔ res = (p.step op).1 ∧ p' = (p.step op).2 := by
  cases op with
  | setSections es a => exact Iff.rfl
  | setModules es a => exact Iff.rfl
  | addSection e a =>
    have key := addDone_section p hp e a hs
    constructor
    · rintro ⟨h, h1, h2, h3, h4⟩
      obtain ⟨rfl, h5, h6⟩ := addDone_unique h key
      refine ⟨rfl, ?_⟩
      obtain ⟨_, _, _, _, _, _⟩ := p'
      simp only at h1 h2 h3 h4 h5 h6
      subst h1 h2 h3 h4 h5 h6
      rfl
    · rintro ⟨rfl, rfl⟩
      exact ⟨key, rfl, rfl, rfl, rfl⟩
  | addModule e a =>
    have key := addDone_module p hp e a hs
    constructor
    · rintro ⟨h, h1, h2, h3, h4⟩
      obtain ⟨rfl, h5, h6⟩ := addDone_unique h key
      refine ⟨rfl, ?_⟩
      obtain ⟨_, _, _, _, _, _⟩ := p'
      simp only at h1 h2 h3 h4 h5 h6
      subst h1 h2 h3 h4 h5 h6
      rfl
    · rintro ⟨rfl, rfl⟩
      exact ⟨key, rfl, rfl, rfl, rfl⟩

/-- **C115 (histories of boot parameters).** Of all lists of results and final boot parameters exactly those of the
sequence of calls are right. -/
theorem C115_params_history (ops : List ParamOp) : ∀ (p : BootParams), ParamsReachable p → (∀ op ∈ ops, RustSized op) →
    ∀ (rs : List (Res ListError GuestAddr)) (p' : BootParams),
    ParamsDone p ops rs p' ↔ rs = (p.run ops).1.map Prod.snd ∧ p' = (p.run ops).2 := by
  induction ops with
  | nil =>
    intro p h _ rs p'
    constructor
    · intro hd
      cases hd
      exact ⟨rfl, rfl⟩
    · rintro ⟨rfl, rfl⟩
      exact .nil
  | cons o ops ih =>
    intro p h hs rs p'
    have ho := hs o (List.mem_cons_self ..)
    have ih' := ih _ (h.step o ho) fun op hop => hs op (List.mem_cons_of_mem _ hop)
    constructor
    · intro hd
      cases hd with
      | cons h1 h2 =>
        obtain ⟨rfl, rfl⟩ := (C115_params p h o ho _ _).1 h1
        obtain ⟨rfl, rfl⟩ := (ih' _ _).1 h2
        exact ⟨rfl, rfl⟩
    · rintro ⟨rfl, rfl⟩
      exact .cons ((C115_params p h o ho _ _).2 ⟨rfl, rfl⟩) ((ih' _ _).2 ⟨rfl, rfl⟩)

/-! ## Non-vacuity: what is right and what is not -/

/-- Right: a boot argument is added in front of the init arguments, which stay. -/
example : OpDone demo (.insert "c".toList "d".toList) (.ok ()) ⟨"a=b c=d".toList, "x".toList, 100⟩ :=
  (C115_call demo demo_reachable _ _ _).2 (by decide +kernel)

/-- Wrong: success without a change, a change without success, the wrong error, a capacity that is no longer the same,
init arguments lost, and a key put behind its value. -/
example :
    ¬ OpDone demo (.insert "c".toList "d".toList) (.ok ()) demo ∧
    ¬ OpDone demo (.insert "c c".toList "d".toList) (.err .hasSpace) ⟨"a=b c".toList, "x".toList, 100⟩ ∧
    ¬ OpDone demo (.insert "c =".toList "d".toList) (.err .hasEquals) demo ∧
    ¬ OpDone demo (.insert "c".toList "d".toList) (.ok ()) ⟨"a=b c=d".toList, "x".toList, 93⟩ ∧
    ¬ OpDone demo (.insert "c".toList "d".toList) (.ok ()) ⟨"a=b c=d".toList, [], 100⟩ ∧
    ¬ OpDone demo (.insert "c".toList "d".toList) (.ok ()) ⟨"a=b d=c".toList, "x".toList, 100⟩ := by
  refine ⟨?_, ?_, ?_, ?_, ?_, ?_⟩ <;> rw [C115_call demo demo_reachable] <;> decide +kernel

/-- Multiple values, a device, init arguments: right and wrong. -/
example :
    OpDone demo (.insertMultiple "c".toList ["d".toList, "e".toList]) (.ok ())
      ⟨"a=b c=d,e".toList, "x".toList, 100⟩ ∧
    ¬ OpDone demo (.insertMultiple "c".toList []) (.ok ()) ⟨"a=b c=".toList, "x".toList, 100⟩ ∧
    OpDone demo (.insertMultiple "c".toList []) (.err (.missingVal "c".toList)) demo ∧
    OpDone demo (.insertInitArgs " y ".toList) (.ok ()) ⟨"a=b".toList, "x y".toList, 100⟩ ∧
    ¬ OpDone demo (.insertInitArgs " y ".toList) (.ok ()) ⟨"a=b".toList, "y x".toList, 100⟩ ∧
    OpDone demo (.insertStr "y".toList) (.ok ()) ⟨"a=b y".toList, "x".toList, 100⟩ ∧
    ¬ OpDone demo (.addVirtio 0 0 1 none) (.ok ()) ⟨"a=b virtio_mmio.device=0@0x0:1".toList, "x".toList, 100⟩ ∧
    OpDone demo (.addVirtio 4096 0x1000 5 none) (.ok ())
      ⟨"a=b virtio_mmio.device=4K@0x1000:5".toList, "x".toList, 100⟩ := by
  refine ⟨?_, ?_, ?_, ?_, ?_, ?_, ?_, ?_⟩ <;> rw [C115_call demo demo_reachable] <;> decide +kernel

/-- A command line with room for four bytes of text: the second argument is not added, the third is. -/
example : RunDone ⟨[], [], 5⟩ [.insertStr "ab".toList, .insertStr "cd".toList, .insertStr "e".toList]
    [.ok (), .err .tooLarge, .ok ()] ⟨"ab e".toList, [], 5⟩ := by
  refine (C115_history _ _ (Reachable.new (cap := 5) (by decide)) _ _).2
    ⟨by decide +kernel, rfl, fun i op hi => ?_⟩
  match i with
  | 0 => cases hi; decide +kernel
  | 1 => cases hi; decide +kernel
  | 2 => cases hi; decide +kernel
  | n + 3 => simp at hi

/-- Parsing and rendering: the separator has to go, and the text is the one that fits. -/
example :
    ParseDone "a -- b".toList 10 (.ok ⟨"a".toList, "b".toList, 10⟩) ∧
    ¬ ParseDone "a -- b".toList 10 (.ok ⟨"a -- b".toList, [], 10⟩) ∧
    ParseDone "a -- b".toList 6 (.err .invalidCapacity) ∧
    RenderDone ⟨[], "b".toList, 10⟩ (.err .noBootArgsInserted) ∧
    ¬ RenderDone demo (.ok [0x61, 0x3d, 0x62]) ∧
    NewDone 0 (.err .invalidCapacity) ∧ ¬ NewDone 0 (.ok ⟨[], [], 0⟩) := by
  obtain ⟨hn, hp, hr⟩ := C115_ends
  have hp := hp "a -- b".toList (by decide +kernel)
  exact ⟨(hp _ _).2 (by decide +kernel), fun h => absurd ((hp _ _).1 h) (by decide +kernel),
    (hp _ _).2 (by decide +kernel), (hr _ _).2 (by decide +kernel),
    fun h => absurd ((hr _ _).1 h) (by decide +kernel), (hn _ _).2 (by decide +kernel),
    fun h => absurd ((hn _ _).1 h) (by decide +kernel)⟩

/-- Boot parameters with a list of two bytes at 0x100. -/
def demoParams : BootParams := ⟨[1, 2], 0x50, some [3, 4], some 0x100, none, none⟩

theorem demoParams_reachable : ParamsReachable demoParams :=
  (ParamsReachable.new [1, 2] 0x50).step (.setSections [[3, 4]] 0x100) trivial

/-- Right: an element on top of the end of the list, one behind a hole, and one that is refused; and a first module
without an address, which leaves an empty list behind. -/
example :
    ParamDone demoParams (.addSection [9, 8] (some 0x101)) (.ok 0x101)
      { demoParams with sections := some [3, 9, 8] } ∧
    ParamDone demoParams (.addSection [9] (some 0x103)) (.ok 0x103)
      { demoParams with sections := some [3, 4, 0, 9] } ∧
    ParamDone demoParams (.addSection [9] (some 0xff)) (.err .invalidAddress) demoParams ∧
    ParamDone demoParams (.addModule [9] none) (.err .missingStartAddress) { demoParams with modules := some [] } := by
  refine ⟨?_, ?_, ?_, ?_⟩ <;> rw [C115_params demoParams demoParams_reachable _ (show _ < ISZ by decide)] <;> decide +kernel

/-- Wrong: the hole not filled with zeros, the list cut off behind the element, the element added to the other list,
and the start moved to the element. -/
example :
    ¬ ParamDone demoParams (.addSection [9] (some 0x103)) (.ok 0x103) { demoParams with sections := some [3, 4, 9] } ∧
    ¬ ParamDone demoParams (.addSection [9] (some 0x100)) (.ok 0x100) { demoParams with sections := some [9] } ∧
    ¬ ParamDone demoParams (.addModule [9] (some 0x102)) (.ok 0x102) { demoParams with sections := some [3, 4, 9] } ∧
    ¬ ParamDone demoParams (.addSection [9] (some 0x102)) (.ok 0x102)
      { demoParams with sections := some [3, 4, 9], sectionsStart := some 0x102 } := by
  refine ⟨?_, ?_, ?_, ?_⟩ <;> rw [C115_params demoParams demoParams_reachable _ (show _ < ISZ by decide)] <;> decide +kernel

/-- A refused element between two that are added, one of them in front of the end of the other. -/
example : ParamsDone demoParams [.addSection [9, 8] (some 0x101), .addSection [7] (some 0xff), .addSection [6] none]
    [.ok 0x101, .err .invalidAddress, .ok 0x103] { demoParams with sections := some [3, 9, 8, 6] } := by
  refine (C115_params_history _ _ demoParams_reachable (fun op hop => ?_) _ _).2
    (by decide +kernel)
  simp only [List.mem_cons, List.not_mem_nil, or_false] at hop
  rcases hop with rfl | rfl | rfl <;> exact (show _ < ISZ by decide)

end LinuxLoader
