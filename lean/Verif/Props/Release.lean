import Verif.Model.Release
import Verif.Props.Elf
import Verif.Props.CmdlineBuild
import Verif.Props.BootParams

/-!
# Builds with and without overflow checks behave the same (C69)

Left of the equations: the model of a build without overflow checks (`Model/Release.lean`).
-/

namespace LinuxLoader
open Spec

theorem wrapAdd_of_plainAdd {ε : Type} {a b : Nat} {r : Nat} (h : (plainAdd a b : Res ε Nat) = .ok r) :
    Release.wrapAdd a b = r := by
  unfold plainAdd at h
  split at h
  · rename_i hlt; cases h; exact Nat.mod_eq_of_lt hlt
  · cases h

/-- Without a panic in the first, both computations are the same. -/
def Agree {σ ε α : Type} (f g : LM σ ε α) : Prop := ∀ s, (f s).1 ≠ .panic → g s = f s

namespace Agree
variable {σ ε α β : Type}

theorem refl (f : LM σ ε α) : Agree f f := fun _ _ => rfl

theorem bind {x x' : LM σ ε α} {f f' : α → LM σ ε β} (hx : Agree x x') (hf : ∀ a, Agree (f a) (f' a)) :
    Agree (x >>= f) (x' >>= f') := by
  intro s hs
  simp only [LM.bind_def] at hs ⊢
  have hx' := hx s
  cases h : x s with
  | mk r s' =>
    rw [h] at hs hx'
    cases r with
    | ok a => rw [hx' (by simp)]; exact hf a s' hs
    | err e => rw [hx' (by simp)]
    | panic => exact absurd rfl hs

theorem ofRes {r r' : Res ε α} (h : r ≠ .panic → r' = r) :
    Agree (LM.ofRes r : LM σ ε α) (LM.ofRes r') := by
  intro s hs; show (r', s) = (r, s); rw [h hs]

end Agree

theorem release_alignUp {a n : Nat} (h : alignUp a n ≠ .panic) : Release.alignUp a n = alignUp a n := by
  unfold Release.alignUp
  unfold alignUp at h ⊢
  split
  · rfl
  · rename_i hp
    rw [if_neg hp] at h
    simp only at h ⊢
    split
    · rfl
    · rename_i hm
      rw [if_neg hm] at h
      cases hr : (plainAdd (a ||| (n - 1)) 1 : Res LoadError Nat) with
      | ok r => rw [wrapAdd_of_plainAdd hr]
      | err e => unfold plainAdd at hr; split at hr <;> cases hr
      | panic => exact absurd hr h

theorem release_noteAdvance {r a b : Nat} (h : noteAdvance r a b ≠ .panic) :
    Release.noteAdvance r a b = noteAdvance r a b := by
  unfold Release.noteAdvance
  unfold noteAdvance at h ⊢
  have h1 : alignUp a 4 ≠ .panic := by intro hp; rw [hp] at h; exact h rfl
  rw [release_alignUp h1]
  cases ha : alignUp a 4 with
  | ok x =>
    rw [ha] at h
    simp only [Res.bind_ok] at h ⊢
    have h2 : alignUp b 4 ≠ .panic := by intro hp; rw [hp] at h; exact h rfl
    rw [release_alignUp h2]
  | err e => rfl
  | panic => exact absurd ha h1

theorem agree_noteLoop (ph : Phdr) (fuel rs : Nat) :
    Agree (noteLoop ph fuel rs) (Release.noteLoop ph fuel rs) := by
  induction fuel generalizing rs with
  | zero => exact .refl _
  | succ fuel ih =>
    unfold noteLoop Release.noteLoop
    split
    · refine .bind (.refl _) fun _ => .bind (.refl _) fun found => ?_
      split
      · exact .refl _
      · refine .bind (.ofRes release_noteAdvance) fun rs' => ?_
        intro s hs
        simp only [LM.bind_def, LM.ofRes_apply] at hs ⊢
        cases hr : (plainAdd ph.offset rs' : Res LoadError Nat) with
        | ok p =>
          rw [hr] at hs
          rw [wrapAdd_of_plainAdd hr]
          exact (Agree.bind (.refl _) fun _ => ih rs') s hs
        | err e => unfold plainAdd at hr; split at hr <;> cases hr
        | panic => rw [hr] at hs; exact absurd rfl hs
    · exact .refl _

theorem agree_parseNote (ph : Phdr) : Agree (parseNote ph) (Release.parseNote ph) := by
  unfold parseNote Release.parseNote
  refine .bind (.refl _) fun _ => .bind (agree_noteLoop _ _ _) fun r => ?_
  cases r with
  | none => exact .refl _
  | some n => exact .bind (.ofRes release_alignUp) fun _ => .refl _

theorem agree_loadSegments (koff : Option GuestAddr) (phs : List Phdr) (kend : Nat) (cap : PvhCap) :
    Agree (loadSegments koff phs kend cap) (Release.loadSegments koff phs kend cap) := by
  induction phs generalizing kend cap with
  | nil => exact .refl _
  | cons ph phs ih =>
    unfold loadSegments Release.loadSegments
    split
    · split
      · cases koff with
        | some k => exact ih _ _
        | none => exact .bind (agree_parseNote _) fun _ => ih _ _
      · exact ih _ _
    · exact .bind (.refl _) fun _ => ih _ _

theorem agree_elfLoad (koff highmem : Option GuestAddr) :
    Agree (elfLoad koff highmem) (Release.elfLoad koff highmem) := by
  unfold elfLoad Release.elfLoad
  exact .bind (.refl _) fun _ => .bind (.refl _) fun _ => .bind (.refl _) fun _ =>
    .bind (.refl _) fun _ => .bind (.refl _) fun _ => .bind (.refl _) fun _ => .bind (.refl _) fun _ =>
    .bind (agree_loadSegments _ _ _ _) fun _ => .refl _

/-- **C69.** `Elf::load` behaves the same in both builds: same outcome, reader state and guest memory,
for every image, argument, memory and I/O fault schedule. -/
theorem C69_elf (koff highmem : Option GuestAddr) (s : LS) (hlen : s.rd.data.length < ISZ) :
    Release.elfLoad koff highmem s = elfLoad koff highmem s :=
  agree_elfLoad koff highmem s (elfLoad_no_panic hlen)

theorem release_size {c : Cmdline} {n : Nat} (h : c.nullTerminatedSize = .ok n) :
    Release.nullTerminatedSize c = n := by
  unfold Cmdline.nullTerminatedSize at h
  unfold Release.nullTerminatedSize
  cases h1 : (plainAdd c.bootArgs.utf8Len 1 : Res CmdlineError Nat) with
  | ok m =>
    rw [h1] at h
    simp only [Res.bind_ok] at h
    rw [wrapAdd_of_plainAdd h1]
    simp only
    split
    · rename_i hi
      rw [if_pos hi] at h
      cases h2 : (plainAdd initArgsSeparator.utf8Len c.initArgs.utf8Len : Res CmdlineError Nat) with
      | ok k =>
        rw [h2] at h
        rw [wrapAdd_of_plainAdd h2]
        exact wrapAdd_of_plainAdd h
      | err e => rw [h2] at h; cases h
      | panic => rw [h2] at h; cases h
    · rename_i hi
      rw [if_neg hi] at h
      cases h; rfl
  | err e => rw [h1] at h; cases h
  | panic => rw [h1] at h; cases h

theorem nullTerminatedSize_ok {c : Cmdline} (h : Cmdline.Reachable c) : ∃ n, c.nullTerminatedSize = .ok n := by
  cases hn : c.nullTerminatedSize with
  | ok n => exact ⟨n, rfl⟩
  | err e =>
    unfold Cmdline.nullTerminatedSize plainAdd at hn
    repeat' split at hn
    all_goals simp [Res.bind] at hn
    all_goals (repeat' split at hn) <;> simp at hn
  | panic =>
    have h1 := C03_no_panic c h (.insertStr [])
    simp only [Cmdline.step, Cmdline.insertStr, Cmdline.checkInsertStr] at h1
    rw [hn] at h1
    exact absurd rfl h1

theorem release_insertStr {c : Cmdline} (h : Cmdline.Reachable c) (s : Str) :
    Release.insertStr c s = c.insertStr s := by
  obtain ⟨n, hn⟩ := nullTerminatedSize_ok h
  unfold Release.insertStr Cmdline.insertStr Release.checkInsertStr Cmdline.checkInsertStr
  rw [hn, release_size hn]
  rfl

theorem release_insertInit {c : Cmdline} (h : Cmdline.Reachable c) (s : Str) :
    Release.insertInitArgs c s = c.insertInitArgs s := by
  obtain ⟨n, hn⟩ := nullTerminatedSize_ok h
  unfold Release.insertInitArgs Cmdline.insertInitArgs Release.checkInsertInit Cmdline.checkInsertInit
  rw [hn, release_size hn]
  rfl

/-- **C69.** Every builder call on a command line a user can hold behaves the same in both builds. -/
theorem C69_cmdline (c : Cmdline) (h : Cmdline.Reachable c) (op : Cmdline.Op) :
    Release.step c op = c.step op := by
  cases op with
  | insert k v =>
    simp only [Release.step, Cmdline.step, Release.insert, Cmdline.insert, release_insertStr h]
    cases (validKey k).bind fun _ => validValue v <;> rfl
  | insertMultiple k vs =>
    simp only [Release.step, Cmdline.step, Release.insertMultiple, Cmdline.insertMultiple,
      release_insertStr h]
    cases (validKey k).bind fun _ =>
      if vs = [] then .err (.missingVal k) else Cmdline.validateValues vs <;> rfl
  | insertStr s => exact release_insertStr h s
  | insertInitArgs s => exact release_insertInit h s
  | addVirtio size base irq id =>
    simp only [Release.step, Cmdline.step, Release.addVirtioMmioDevice, Cmdline.addVirtioMmioDevice,
      release_insertStr h]

/-- **C69.** So does every history of builder calls. -/
theorem C69_history (c : Cmdline) (h : Cmdline.Reachable c) (ops : List Cmdline.Op) :
    Release.run c ops = c.run ops := by
  induction ops generalizing c with
  | nil => rfl
  | cons op ops ih =>
    unfold Release.run Cmdline.run at *
    simp only [List.foldl_cons]
    rw [C69_cmdline c h op]
    exact ih _ (.step op h)

/-- **C69.** Adding a section or module behaves the same in both builds, panics included: where the
checked addition panics, the wrapped one makes the following `splice` panic. (The list left behind by
a panic is not modelled: both models return the old one.) -/
theorem C69_list (elem : List UInt8) (a : Option GuestAddr) (l : PList) (he : elem.length < U64) :
    Release.addToList elem a l = addToList elem a l := by
  unfold Release.addToList addToList
  simp only
  generalize (if l.start.isNone = true then ({ l with start := a } : PList) else l) = l'
  cases l'.start with
  | none => rfl
  | some ls =>
    simp only
    cases addrAddNat ls l'.bytes.length with
    | none => rfl
    | some le =>
      simp only
      cases addrSub (a.getD le) ls with
      | none => rfl
      | some off =>
        simp only
        by_cases hlt : off.toNat + elem.length < U64
        · have hw : Release.wrapAdd off.toNat elem.length = off.toNat + elem.length := Nat.mod_eq_of_lt hlt
          have hp : (plainAdd off.toNat elem.length : Res ListError Nat) = .ok (off.toNat + elem.length) := by
            unfold plainAdd; rw [if_pos hlt]
          rw [hw, hp, Res.bind_ok]
          cases (vecResize l'.bytes (max (off.toNat + elem.length) l'.bytes.length)).bind fun b =>
            vecSplice b off.toNat (off.toNat + elem.length) elem <;> rfl
        · have hw : Release.wrapAdd off.toNat elem.length < off.toNat := by
            unfold Release.wrapAdd
            have ho : off.toNat < U64 := off.toNat_lt
            rw [Nat.mod_eq_sub_mod (by omega), Nat.mod_eq_of_lt (by omega)]
            omega
          have hp : (plainAdd off.toNat elem.length : Res ListError Nat) = .panic := by
            unfold plainAdd; rw [if_neg hlt]
          have hq : ((vecResize l'.bytes (max (Release.wrapAdd off.toNat elem.length) l'.bytes.length)).bind
              fun b => vecSplice b off.toNat (Release.wrapAdd off.toNat elem.length) elem :
              Res ListError (List UInt8)) = .panic := by
            unfold vecResize
            split
            · rw [Res.bind_ok]; unfold vecSplice; rw [if_neg (by omega)]
            · rfl
          rw [hq, hp, Res.bind_panic]

/-- Non-vacuity of the panic case: both builds panic on an element that ends above `2^64`. -/
example : (Release.addToList [1] (some 0xffffffffffffffff) ⟨[], some 0⟩).1 = .panic ∧
    (addToList [1] (some 0xffffffffffffffff) ⟨[], some 0⟩).1 = .panic := by decide +kernel

/-- Non-vacuity: the demo image with a PVH note. -/
example : (Release.elfLoad none none demoState).1.isOk = true := by decide +kernel

example := C69_elf (some 0x30) none demoState demoElf_short

example := C69_cmdline demo demo_reachable (.insert "k".toList "v".toList)

example := C69_history demo demo_reachable [.insert "k".toList "v".toList, .insertStr "é".toList]

example := C69_list [1, 2] (some 0x20) ⟨[3], some 0x10⟩ (by decide)

end LinuxLoader
