import Verif.Lemmas.Ran
import Verif.Lemmas.BootParams

/-!
# Boot parameter lists (C22 – C27)

Vocabulary: `Spec/BootParams.lean`, `Spec/Memory.lean` (`lastPiece`).
-/

namespace LinuxLoader
open Spec

namespace BootParams

/-- The section list as buffer and start address; a missing list counts as empty. -/
def secList (p : BootParams) : PList := ⟨p.sections.getD [], p.sectionsStart⟩

/-- The module list as buffer and start address. -/
def modList (p : BootParams) : PList := ⟨p.modules.getD [], p.modulesStart⟩

theorem addSection_eq (p : BootParams) (e : List UInt8) (a : Option GuestAddr) :
    p.addSection e a = ((addToList e a p.secList).1,
      { p with sections := some (addToList e a p.secList).2.bytes,
               sectionsStart := (addToList e a p.secList).2.start }) := rfl

theorem addModule_eq (p : BootParams) (e : List UInt8) (a : Option GuestAddr) :
    p.addModule e a = ((addToList e a p.modList).1,
      { p with modules := some (addToList e a p.modList).2.bytes,
               modulesStart := (addToList e a p.modList).2.start }) := rfl

@[simp] theorem secList_addSection (p : BootParams) (e a) :
    (p.addSection e a).2.secList = (addToList e a p.secList).2 := rfl
@[simp] theorem modList_addSection (p : BootParams) (e a) :
    (p.addSection e a).2.modList = p.modList := rfl
@[simp] theorem secList_addModule (p : BootParams) (e a) :
    (p.addModule e a).2.secList = p.secList := rfl
@[simp] theorem modList_addModule (p : BootParams) (e a) :
    (p.addModule e a).2.modList = (addToList e a p.modList).2 := rfl

end BootParams

open BootParams

theorem reachable_inv {p : BootParams} (h : ParamsReachable p) : p.secList.Inv ∧ p.modList.Inv := by
  induction h with
  | new => exact ⟨fun _ => rfl, fun _ => rfl⟩
  | step op h hs ih =>
    cases op with
    | setSections es a => exact ⟨fun hc => (nomatch hc), ih.2⟩
    | setModules es a => exact ⟨ih.1, fun hc => (nomatch hc)⟩
    | addSection e a =>
      refine ⟨?_, ih.2⟩
      exact addToList_inv ih.1 hs
    | addModule e a => exact ⟨ih.1, addToList_inv ih.2 hs⟩

theorem image_set (bs : List UInt8) (a : GuestAddr) :
    PList.Image ⟨bs, some a⟩ [(a.toNat, bs)] := by
  unfold PList.Image
  refine ⟨rfl, ?_, ?_, ?_⟩
  · intro p hp; simp only [List.mem_singleton] at hp; subst hp; simp
  · exact ⟨_, List.mem_singleton.2 rfl, rfl⟩
  · intro k hk
    simp [lastPiece, List.getElem?_eq_getElem hk]

theorem step_image {p : BootParams} {ps ms} (op : ParamOp) (hz : RustSized op)
    (h1 : p.secList.Image ps) (h2 : p.modList.Image ms) :
    (p.step op).2.secList.Image (sectionPiece ps (op, (p.step op).1)) ∧
    (p.step op).2.modList.Image (modulePiece ms (op, (p.step op).1)) := by
  cases op with
  | setSections es a => exact ⟨image_set _ _, h2⟩
  | setModules es a => exact ⟨h1, image_set _ _⟩
  | addSection e a =>
    refine ⟨?_, by simpa [step, modulePiece] using h2⟩
    simp only [step, addSection_eq]
    cases hr : (addToList e a p.secList).1 with
    | ok r => exact addToList_image h1 hr
    | err x =>
      rw [addToList_fail h1.inv hz (by simp [hr])]; exact h1
    | panic => rw [addToList_fail h1.inv hz (by simp [hr])]; exact h1
  | addModule e a =>
    refine ⟨by simpa [step, sectionPiece] using h1, ?_⟩
    simp only [step, addModule_eq]
    cases hr : (addToList e a p.modList).1 with
    | ok r => exact addToList_image h2 hr
    | err x =>
      rw [addToList_fail h2.inv hz (by simp [hr])]; exact h2
    | panic => rw [addToList_fail h2.inv hz (by simp [hr])]; exact h2

theorem run_image (ops : List ParamOp) (hz : ∀ op ∈ ops, RustSized op) :
    ∀ (p : BootParams) (ps ms), p.secList.Image ps → p.modList.Image ms →
    (p.run ops).2.secList.Image ((p.run ops).1.foldl sectionPiece ps) ∧
    (p.run ops).2.modList.Image ((p.run ops).1.foldl modulePiece ms) := by
  induction ops with
  | nil => intro p ps ms h1 h2; exact ⟨h1, h2⟩
  | cons op ops ih =>
    intro p ps ms h1 h2
    obtain ⟨h1', h2'⟩ := step_image op (hz op (by simp)) h1 h2
    exact ih (fun o ho => hz o (by simp [ho])) _ _ _ h1' h2'

/-- What C22 says of a list: start address and buffer, against its pieces. -/
def ListReflects (bytes : Option (List UInt8)) (start : Option GuestAddr)
    (pieces : List (Nat × List UInt8)) : Prop :=
  (pieces = [] → start = none ∧ (bytes = none ∨ bytes = some [])) ∧
  ∀ a bs rest, pieces = (a, bs) :: rest →
    ∃ s b, start = some s ∧ bytes = some b ∧ s.toNat = a ∧ SparseImage a pieces b

theorem reflects_of_image {bytes : Option (List UInt8)} {start : Option GuestAddr} {ps}
    (h : PList.Image ⟨bytes.getD [], start⟩ ps) (hn : bytes = none → start = none) :
    ListReflects bytes start ps := by
  unfold PList.Image at h
  cases start with
  | none =>
    obtain ⟨rfl, hb⟩ := h
    simp only at hb
    refine ⟨fun _ => ⟨rfl, ?_⟩, fun a bs rest h => by cases h⟩
    cases bytes with
    | none => exact .inl rfl
    | some b => simp at hb; exact .inr (by rw [hb])
  | some s =>
    obtain ⟨hd, hi⟩ := h
    refine ⟨fun hp => by rw [hp] at hd; simp at hd, ?_⟩
    intro a bs rest hp
    rw [hp] at hd
    simp only [List.head?_cons, Option.map_some, Option.some.injEq] at hd
    cases bytes with
    | none => exact absurd (hn rfl) (by simp)
    | some b => exact ⟨s, b, rfl, rfl, hd.symm, by rw [hd]; exact hi⟩

theorem run_some (ops : List ParamOp) : ∀ p : BootParams,
    (p.sections = none → p.sectionsStart = none) → (p.modules = none → p.modulesStart = none) →
    ((p.run ops).2.sections = none → (p.run ops).2.sectionsStart = none) ∧
    ((p.run ops).2.modules = none → (p.run ops).2.modulesStart = none) := by
  induction ops with
  | nil => intro p h1 h2; exact ⟨h1, h2⟩
  | cons op ops ih =>
    intro p h1 h2
    apply ih
    · cases op <;> intro h <;> first | exact h1 h | cases h
    · cases op <;> intro h <;> first | exact h2 h | cases h

/-- **C22.** Boot parameter lists behave as a sparse memory image. After any history of calls on new
boot parameters (successful or not, on both lists, of any length), each list starts at the address of
the first of its pieces — the elements of the last `set_*` call and those added successfully since,
at the addresses returned —, ends where the last of them ends, and every byte is that of the latest
piece covering its address, or 0. Without pieces there is no start address and no content. -/
theorem C22_sparse_image (header : List UInt8) (addr : GuestAddr) (ops : List ParamOp)
    (hz : ∀ op ∈ ops, RustSized op) :
    let r := (BootParams.new header addr).run ops
    ListReflects r.2.sections r.2.sectionsStart (sectionPieces r.1) ∧
    ListReflects r.2.modules r.2.modulesStart (modulePieces r.1) := by
  intro r
  have h := run_image ops hz (BootParams.new header addr) [] [] ⟨rfl, rfl⟩ ⟨rfl, rfl⟩
  have hn := run_some ops (BootParams.new header addr) (fun _ => rfl) (fun _ => rfl)
  exact ⟨reflects_of_image h.1 hn.1, reflects_of_image h.2 hn.2⟩

/-- A history with a rejected call, an append, a gap and an overlap. -/
example : ∀ op ∈ [ParamOp.addSection [9] none, .addSection [1, 2] (some 0x10),
      .addSection [3, 4] none, .addSection [5] (some 0x16), .addModule [7] (some 0),
      .addSection [8, 8] (some 0x11), .addSection [6] (some 0xf)], RustSized op := by
  simp [RustSized, ISZ]

example :
    let r := (BootParams.new [] 0).run [.addSection [9] none, .addSection [1, 2] (some 0x10),
      .addSection [3, 4] none, .addSection [5] (some 0x16), .addModule [7] (some 0),
      .addSection [8, 8] (some 0x11), .addSection [6] (some 0xf)]
    r.2.sections = some [1, 8, 8, 4, 0, 0, 5] ∧
    sectionPieces r.1 = [(0x10, [1, 2]), (0x12, [3, 4]), (0x16, [5]), (0x11, [8, 8])] := by decide

/-- **C23.** Where an added element ends up: without an address it is appended and its address is
returned. -/
theorem C23_append (p p' : BootParams) (e : List UInt8) (r : GuestAddr)
    (h : p.addSection e none = (.ok r, p')) :
    ∃ s, p.sectionsStart = some s ∧ p'.sectionsStart = some s ∧
      r.toNat = s.toNat + (p.sections.getD []).length ∧
      p'.sections = some (p.sections.getD [] ++ e) := by
  rw [addSection_eq] at h
  simp only [Prod.mk.injEq] at h
  obtain ⟨h1, h2⟩ := h
  rcases start_cases p.secList none with ⟨hn, -⟩ | ⟨s, hs⟩
  · rw [addToList_none _ _ hn] at h1; cases h1
  · rcases addToList_eq e none p.secList s hs with ⟨-, h'⟩ | ⟨-, -, h'⟩ | ⟨-, -, -, h'⟩ |
      ⟨-, -, -, r', hr, h'⟩
    · rw [h'] at h1; cases h1
    · rw [h'] at h1; cases h1
    · rw [h'] at h1; cases h1
    · rw [h'] at h1 h2
      cases h1
      have hs' : p.sectionsStart = some s := by
        rcases hs with hs | ⟨-, hs⟩
        · exact hs
        · cases hs
      refine ⟨s, hs', ?_⟩
      subst h2
      refine ⟨rfl, hr, ?_⟩
      simp only [Option.map_none, Option.getD_none]
      have : s.toNat + p.secList.bytes.length - s.toNat = p.secList.bytes.length := by omega
      rw [this, overlay_end]
      rfl

example := C23_append ((BootParams.new [] 0).setSections [[1, 2]] 0x10) _ [3] 0x12 (ran (by decide))

/-- **C23**, with an address: it is returned, and the element is stored there, relative to the start
of the list (the address itself if there was none); bytes outside the element are kept, and a gap is
filled with zeros. -/
theorem C23_at_address (p p' : BootParams) (e : List UInt8) (a r : GuestAddr)
    (h : p.addSection e (some a) = (.ok r, p')) :
    r = a ∧ ∃ s b, p'.sectionsStart = some s ∧ (p.sectionsStart = some s ∨
        p.sectionsStart = none ∧ s = a) ∧ s.toNat ≤ a.toNat ∧
      p'.sections = some b ∧
      b.length = max (a.toNat - s.toNat + e.length) (p.sections.getD []).length ∧
      ∀ k, b[k]? = overlayAt (p.sections.getD []) (a.toNat - s.toNat) e k := by
  rw [addSection_eq] at h
  simp only [Prod.mk.injEq] at h
  obtain ⟨h1, h2⟩ := h
  rcases start_cases p.secList (some a) with ⟨-, hn⟩ | ⟨s, hs⟩
  · cases hn
  · rcases addToList_eq e (some a) p.secList s hs with ⟨-, h'⟩ | ⟨-, -, h'⟩ | ⟨-, -, -, h'⟩ |
      ⟨-, hle, -, r', hr, h'⟩
    · rw [h'] at h1; cases h1
    · rw [h'] at h1; cases h1
    · rw [h'] at h1; cases h1
    · rw [h'] at h1 h2
      cases h1
      subst h2
      simp only [Option.map_some, Option.getD_some] at hr hle ⊢
      refine ⟨UInt64.toNat.inj hr, s, _, rfl, ?_, hle, rfl, overlay_length _ _ _,
        fun k => overlay_get _ _ _ k⟩
      rcases hs with hs | ⟨hs, hs'⟩
      · exact .inl hs
      · simp only [Option.some.injEq] at hs'
        exact .inr ⟨hs, hs'.symm⟩

example := C23_at_address ((BootParams.new [] 0).setSections [[1, 2]] 0x10) _ [3] 0x14 0x14
  (ran (by decide))

/-- **C23** for modules: a module is added to the module list exactly as a section to the section
list. -/
theorem C23_modules (p : BootParams) (e : List UInt8) (a : Option GuestAddr) :
    let q : BootParams := { p with sections := p.modules, sectionsStart := p.modulesStart }
    (p.addModule e a).1 = (q.addSection e a).1 ∧
    (p.addModule e a).2.modules = (q.addSection e a).2.sections ∧
    (p.addModule e a).2.modulesStart = (q.addSection e a).2.sectionsStart := ⟨rfl, rfl, rfl⟩

/-- **C23**: appending elements one by one to `set_sections(xs, s)`, as long as every call succeeds,
leaves exactly the concatenation of all elements. -/
theorem C23_append_all (p : BootParams) (xs ys : List (List UInt8)) (s : GuestAddr)
    (hok : ∀ c ∈ ((p.setSections xs s).run (ys.map (.addSection · none))).1, ∃ a, c.2 = .ok a) :
    ((p.setSections xs s).run (ys.map (.addSection · none))).2 = p.setSections (xs ++ ys) s := by
  have key : ∀ (ys : List (List UInt8)) (q : BootParams) (b : List UInt8),
      q.sections = some b → q.sectionsStart = some s →
      (∀ c ∈ (q.run (ys.map (.addSection · none))).1, ∃ a, c.2 = .ok a) →
      (q.run (ys.map (.addSection · none))).2 =
        { q with sections := some (b ++ ys.flatten), sectionsStart := some s } := by
    intro ys
    induction ys with
    | nil => intro q b hb hs _; cases q; simp_all [run]
    | cons y ys ih =>
      intro q b hb hs hok
      simp only [List.map_cons, run, step] at hok ⊢
      obtain ⟨a, ha⟩ := hok _ (List.mem_cons_self ..)
      simp only at ha
      obtain ⟨s', h1, h2, h3, h4⟩ := C23_append q _ y a (Prod.ext ha rfl)
      rw [hs] at h1
      cases h1
      rw [hb, Option.getD_some] at h4
      rw [ih _ _ h4 h2 (fun c hc => hok c (List.mem_cons_of_mem _ hc))]
      have hrest : (q.addSection y none).2.header = q.header ∧
          (q.addSection y none).2.headerStart = q.headerStart ∧
          (q.addSection y none).2.modules = q.modules ∧
          (q.addSection y none).2.modulesStart = q.modulesStart := ⟨rfl, rfl, rfl, rfl⟩
      rw [hrest.1, hrest.2.1, hrest.2.2.1, hrest.2.2.2, List.flatten_cons, List.append_assoc]
  rw [key ys _ _ rfl rfl hok]
  simp [setSections]

example : ∀ c ∈ (((BootParams.new [] 0).setSections [[1, 2]] 0x10).run
    ([[3], [4, 5]].map (.addSection · none))).1, ∃ a, c.2 = .ok a := by
  intro c hc
  have : (((BootParams.new [] 0).setSections [[1, 2]] 0x10).run
    ([[3], [4, 5]].map (.addSection · none))).1 =
    [(.addSection [3] none, .ok 0x12), (.addSection [4, 5] none, .ok 0x13)] := by decide
  rw [this] at hc
  simp only [List.mem_cons, List.not_mem_nil, or_false] at hc
  rcases hc with rfl | rfl
  · exact ⟨_, rfl⟩
  · exact ⟨_, rfl⟩

theorem addToList_outcome (e : List UInt8) (addr : Option GuestAddr) (l : PList) :
    AddOutcome l.start addr l.bytes.length e.length (addToList e addr l).1 := by
  rcases start_cases l addr with ⟨hn, rfl⟩ | ⟨s, hs⟩
  · rw [addToList_none _ _ hn]; exact .missing hn rfl
  · have hf : startInForce l.start addr = some s := by
      rcases hs with hs | ⟨hs, ha⟩
      · rw [hs]; rfl
      · rw [hs, ha]; rfl
    rcases addToList_eq e addr l s hs with ⟨h1, h'⟩ | ⟨h1, h2, h'⟩ | ⟨h1, h2, h3, h'⟩ |
      ⟨h1, h2, h3, r, hr, h'⟩
    · rw [h']; exact .overflow s hf h1
    · rw [h']
      cases addr with
      | none => simp at h2; omega
      | some a => exact .invalid s a hf h1 rfl h2
    · rw [h']
      refine .tooBig s hf h1 ?_ ?_
      · rintro a rfl
        simp only [Option.map_some, Option.getD_some] at h2 h3
        exact ⟨h2, by omega⟩
      · rintro rfl
        simp only [Option.map_none, Option.getD_none] at h2 h3
        omega
    · rw [h']
      refine .ok s r hf h1 ?_ ?_
      · rintro a rfl
        simp only [Option.map_some, Option.getD_some] at h2 h3 hr
        exact ⟨UInt64.toNat.inj hr, h2, by omega, by omega⟩
      · rintro rfl
        simp only [Option.map_none, Option.getD_none] at h2 h3 hr
        exact ⟨hr, by omega⟩

/-- **C24.** The outcome of every call is the one described by `AddOutcome`, whose cases exclude one
another (`C24_exclusive`): `MissingStartAddress` iff there is no address at all, `Overflow` iff the
list's end exceeds `2^64 - 1`, `InvalidAddress` iff the given address precedes the start. -/
theorem C24_outcome (p : BootParams) (e : List UInt8) (a : Option GuestAddr) :
    AddOutcome p.sectionsStart a (p.sections.getD []).length e.length (p.addSection e a).1 ∧
    AddOutcome p.modulesStart a (p.modules.getD []).length e.length (p.addModule e a).1 :=
  ⟨addToList_outcome e a p.secList, addToList_outcome e a p.modList⟩

/-- `AddOutcome` is a function: it determines the outcome. -/
theorem C24_exclusive {ls a : Option GuestAddr} {len size : Nat} {x y : Res ListError GuestAddr}
    (hx : AddOutcome ls a len size x) (hy : AddOutcome ls a len size y) : x = y := by
  have hself : ∀ {s : GuestAddr}, startInForce ls a = some s → ls = none → a = none → False := by
    intro s h h1 h2; rw [h1, h2] at h; cases h
  cases hx with
  | missing h1 h2 =>
    cases hy with
    | missing => rfl
    | overflow s h => exact (hself h h1 h2).elim
    | invalid s b h => exact (hself h h1 h2).elim
    | tooBig s h => exact (hself h h1 h2).elim
    | ok s r h => exact (hself h h1 h2).elim
  | overflow s h1 h2 =>
    cases hy with
    | missing h h' => exact (hself h1 h h').elim
    | overflow => rfl
    | invalid s' b h h' => rw [h1] at h; cases h; omega
    | tooBig s' h h' => rw [h1] at h; cases h; omega
    | ok s' r h h' => rw [h1] at h; cases h; omega
  | invalid s b h1 h2 h3 h4 =>
    cases hy with
    | missing h h' => exact (hself h1 h h').elim
    | overflow s' h h' => rw [h1] at h; cases h; omega
    | invalid => rfl
    | tooBig s' h h' h'' => rw [h1] at h; cases h; have := (h'' b h3).1; omega
    | ok s' r h h' h'' => rw [h1] at h; cases h; have := (h'' b h3).2.1; omega
  | tooBig s h1 h2 h3 h4 =>
    cases hy with
    | missing h h' => exact (hself h1 h h').elim
    | overflow s' h h' => rw [h1] at h; cases h; omega
    | invalid s' b h h' h'' h3' => rw [h1] at h; cases h; have := (h3 b h'').1; omega
    | tooBig => rfl
    | ok s' r h h' h5 h6 =>
      rw [h1] at h; cases h
      cases a with
      | none => have := (h6 rfl).2; have := h4 rfl; omega
      | some b => have := h5 b rfl; have := (h3 b rfl).2; omega
  | ok s r h1 h2 h3 h4 =>
    cases hy with
    | missing h h' => exact (hself h1 h h').elim
    | overflow s' h h' => rw [h1] at h; cases h; omega
    | invalid s' b h h' h'' h3' => rw [h1] at h; cases h; have := (h3 b h'').2.1; omega
    | tooBig s' h h' h5 h6 =>
      rw [h1] at h; cases h
      cases a with
      | none => have := (h4 rfl).2; have := h6 rfl; omega
      | some b => have := h3 b rfl; have := (h5 b rfl).2; omega
    | ok s' r' h h' h5 h6 =>
      rw [h1] at h; cases h
      cases a with
      | none =>
        have h7 := (h4 rfl).1
        have h8 := (h6 rfl).1
        have : r = r' := UInt64.toNat.inj (by omega)
        rw [this]
      | some b => rw [(h3 b rfl).1, (h5 b rfl).1]

example {x : Res ListError GuestAddr} (hx : AddOutcome (some 5) (some 4) 1 1 x) :
    x = .err .invalidAddress :=
  C24_exclusive hx (C24_outcome ((BootParams.new [1] 0).setSections [[1]] 5) [2] (some 4)).1

/-- **C24**: a call that does not succeed changes neither the bytes nor the start address (on boot
parameters made through the API, a missing list counting as empty). -/
theorem C24_failure_unchanged (p : BootParams) (hp : ParamsReachable p) (e : List UInt8)
    (a : Option GuestAddr) (he : e.length < ISZ) :
    ((∀ r, (p.addSection e a).1 ≠ .ok r) →
      (p.addSection e a).2.sections.getD [] = p.sections.getD [] ∧
      (p.addSection e a).2.sectionsStart = p.sectionsStart) ∧
    ((∀ r, (p.addModule e a).1 ≠ .ok r) →
      (p.addModule e a).2.modules.getD [] = p.modules.getD [] ∧
      (p.addModule e a).2.modulesStart = p.modulesStart) := by
  obtain ⟨h1, h2⟩ := reachable_inv hp
  constructor
  · intro h
    have := addToList_fail h1 he h
    rw [addSection_eq, this]
    exact ⟨rfl, rfl⟩
  · intro h
    have := addToList_fail h2 he h
    rw [addModule_eq, this]
    exact ⟨rfl, rfl⟩

example : ParamsReachable (BootParams.new [1] 0) := .new _ _
example : ((BootParams.new [1] 0).addSection [2] none).1 = .err .missingStartAddress ∧
    (((BootParams.new [1] 0).setSections [[1]] 5).addSection [2] (some 4)).1
      = .err .invalidAddress ∧
    (((BootParams.new [1] 0).setSections [[1, 1]] 0xfffffffffffffffe).addSection [2] (some 4)).1
      = .err .overflow := by decide

/-- The eager overflow check: an explicit valid address is refused because *appending* would
overflow. -/
theorem C24_eager_overflow :
    (((BootParams.new [1] 0).setSections [[1, 1]] 0xfffffffffffffffe).addSection [2]
      (some 0xfffffffffffffffe)).1 = .err .overflow := by decide

/-- **C25**, refuted: a failed first `add_module` leaves an (empty) module list behind. -/
theorem C25_refuted : ∃ p e, ParamsReachable p ∧ (∀ r, (p.addModule e none).1 ≠ .ok r) ∧
    (p.addModule e none).2 ≠ p :=
  ⟨BootParams.new [1] 0, [2], .new _ _, (by intro r h; exact nomatch h), by decide⟩

/-- **C25**: it makes the PVH configuration fail that would have succeeded. -/
theorem C25_refuted_pvh : ∃ (p : BootParams) (e : List UInt8) (m : Mem), ParamsReachable p ∧ m.WF ∧
    (∀ r, (p.addModule e none).1 ≠ .ok r) ∧ (pvhWrite p m).1 = .ok () ∧
    (pvhWrite (p.addModule e none).2 m).1 = .err .modulesAddressMissing := by
  refine ⟨(BootParams.new [1] 0).setSections [[1]] 8, [2], ⟨[⟨0, 16⟩], fun _ => 0, false⟩,
    .step (.setSections [[1]] 8) (.new _ _) trivial, ?_, (by intro r h; exact nomatch h), by decide, by decide⟩
  constructor
  · intro r hr; simp only [List.mem_singleton] at hr; subst hr; decide
  · simp

/-- **C25**, the part that holds: once the list exists, a call that fails has no effect at all. -/
theorem C25_existing_list (p : BootParams) (hp : ParamsReachable p) (e : List UInt8)
    (a : Option GuestAddr) (he : e.length < ISZ) :
    (p.sections ≠ none → (∀ r, (p.addSection e a).1 ≠ .ok r) → (p.addSection e a).2 = p) ∧
    (p.modules ≠ none → (∀ r, (p.addModule e a).1 ≠ .ok r) → (p.addModule e a).2 = p) := by
  obtain ⟨h1, h2⟩ := reachable_inv hp
  constructor
  · intro hs h
    have := addToList_fail h1 he h
    rw [addSection_eq, this]
    cases p with | mk hd hst s ss mo ms =>
    cases s with
    | none => exact absurd rfl hs
    | some b => rfl
  · intro hs h
    have := addToList_fail h2 he h
    rw [addModule_eq, this]
    cases p with | mk hd hst s ss mo ms =>
    cases mo with
    | none => exact absurd rfl hs
    | some b => rfl

example := (C25_existing_list ((BootParams.new [1] 0).setSections [[1]] 5)
  ((ParamsReachable.new [1] 0).step (.setSections [[1]] 5) (by simp [RustSized]))
  [2] (some 4) (by decide)).1 (by decide)
  (fun r h => by
    have : (((BootParams.new [1] 0).setSections [[1]] 5).addSection [2] (some 4)).1 =
      .err .invalidAddress := by decide
    rw [this] at h; cases h)

/-- **C26**, refuted: an address far above the list start makes the call panic. -/
theorem C26_refuted : ∃ p e a, ParamsReachable p ∧ (p.addSection e (some a)).1 = .panic :=
  ⟨(BootParams.new [] 0).setSections [] 0, [1], 0xffffffffffffffff,
    .step (.setSections [] 0) (.new _ _) trivial, by decide⟩

/-- **C26**, the part that holds: no panic if the element ends within `isize::MAX` bytes of the
list's start and the list is shorter than that (as every `Vec` is). -/
theorem C26_no_panic (p : BootParams) (e : List UInt8) (a : Option GuestAddr)
    (hl : (p.sections.getD []).length < ISZ)
    (hn : a = none → (p.sections.getD []).length + e.length < ISZ)
    (ha : ∀ s b, startInForce p.sectionsStart a = some s → a = some b →
      b.toNat + e.length < s.toNat + ISZ) :
    (p.addSection e a).1 ≠ .panic := by
  intro hp
  have h := (C24_outcome p e a).1
  rw [hp] at h
  cases h with
  | tooBig s h1 h2 h3 h4 =>
    cases a with
    | none => have := h4 rfl; have := hn rfl; omega
    | some b =>
      have h5 := ha s b h1 rfl
      obtain ⟨h6, h7⟩ := h3 b rfl
      omega

example := C26_no_panic ((BootParams.new [] 0).setSections [[1]] 0x1000) [2] (some 0x5000) (by decide)
  (by decide) (by rintro s b ⟨⟩ ⟨⟩; decide)

/-- **C26** for modules. -/
theorem C26_no_panic_modules (p : BootParams) (e : List UInt8) (a : Option GuestAddr)
    (hl : (p.modules.getD []).length < ISZ)
    (hn : a = none → (p.modules.getD []).length + e.length < ISZ)
    (ha : ∀ s b, startInForce p.modulesStart a = some s → a = some b →
      b.toNat + e.length < s.toNat + ISZ) :
    (p.addModule e a).1 ≠ .panic :=
  C26_no_panic { p with sections := p.modules, sectionsStart := p.modulesStart } e a hl hn ha

example := C26_no_panic_modules ((BootParams.new [] 0).setModules [[1]] 0x1000) [2] (some 0x5000)
  (by decide) (by decide) (by rintro s b ⟨⟩ ⟨⟩; decide)

example : let p := (BootParams.new [] 0).setSections [[1]] 0x1000
    (p.addSection [2] (some 0x5000)).1 = .ok 0x5000 ∧ startInForce p.sectionsStart (some 0x5000)
      = some 0x1000 := by
  refine ⟨?_, rfl⟩
  have h := (C24_outcome ((BootParams.new [] 0).setSections [[1]] 0x1000) [2] (some 0x5000)).1
  have h2 : AddOutcome (some 0x1000) (some 0x5000) 1 1 (.ok (0x5000 : GuestAddr)) :=
    .ok 0x1000 0x5000 rfl (by decide)
      (by intro a ha; cases ha; exact ⟨rfl, by decide, by decide, by decide⟩) (by intro h; cases h)
  exact C24_exclusive h h2

/-- A call on the section list. -/
def onSections : ParamOp → Bool
  | .setSections .. => true
  | .addSection .. => true
  | _ => false

/-- **C27.** Calls on one list leave the other and the header alone. -/
theorem C27_independent (p : BootParams) (op : ParamOp) :
    (p.step op).2.header = p.header ∧ (p.step op).2.headerStart = p.headerStart ∧
    (onSections op = true → (p.step op).2.modules = p.modules ∧
      (p.step op).2.modulesStart = p.modulesStart) ∧
    (onSections op = false → (p.step op).2.sections = p.sections ∧
      (p.step op).2.sectionsStart = p.sectionsStart) := by
  cases op <;> simp [BootParams.step, onSections, setSections, setModules, addSection_eq, addModule_eq]

/-- **C27**: a call on sections and a call on modules commute, in outcome and effect. -/
theorem C27_commute (p : BootParams) (s m : ParamOp) (hs : onSections s = true)
    (hm : onSections m = false) :
    ((p.step s).2.step m).2 = ((p.step m).2.step s).2 ∧
    ((p.step s).2.step m).1 = (p.step m).1 ∧ ((p.step m).2.step s).1 = (p.step s).1 := by
  cases s <;> cases m <;> simp only [onSections, Bool.false_eq_true, reduceCtorEq] at hs hm <;>
    exact ⟨rfl, rfl, rfl⟩

example := C27_commute (BootParams.new [1] 0) (.addSection [1] (some 5)) (.addModule [2] none) rfl rfl

end LinuxLoader
