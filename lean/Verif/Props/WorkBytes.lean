import Verif.Props.WorkTight
import Verif.Lemmas.Trace

/-!
# How many bytes a loader stores (C75)

The record of `Model/Trace.lean` holds every byte stored in guest memory, so its length is the amount of
copying an image can cause. `NoScatter`: when a failing transfer spreads bytes over the target range
(short reads into several regions) the reader model does not tell how many there were.
-/

namespace LinuxLoader
open Spec

/-- Bytes stored so far. -/
def TS.stored {σ : Type} (t : TS σ) : Nat := t.log.flatten.length

/-- On an image `d`, started with the reader as `P` says, `y` stores at most `B` bytes; if it succeeds,
exactly `E`, and the result and the reader are as `Q` says. -/
def Stores {ε α : Type} (d : List UInt8) (P : Reader → Prop) (y : LM (TS LS) ε α) (B E : Nat)
    (Q : α → Reader → Prop) : Prop :=
  ∀ t, NoScatter t.st → t.st.rd.data = d → P t.st.rd →
    NoScatter (y t).2.st ∧ (y t).2.st.rd.data = d ∧
    ∃ k, (y t).2.stored = t.stored + k ∧ k ≤ B ∧ ∀ a, (y t).1 = .ok a → k = E ∧ Q a (y t).2.st.rd

/-- Nothing to say about the reader. -/
abbrev anyRd : Reader → Prop := fun _ => True
abbrev anyRes {α : Type} : α → Reader → Prop := fun _ _ => True

theorem stored_snoc {σ : Type} (s s' : σ) (log : List Writes) (w : Writes) :
    (TS.mk s (log ++ [w])).stored = (TS.mk s' log).stored + w.length := by
  unfold TS.stored
  rw [List.flatten_append, List.length_append, List.flatten_cons, List.flatten_nil, List.append_nil]

namespace Stores
variable {ε α β : Type} {d : List UInt8} {P : Reader → Prop}

theorem ofRes (r : Res ε α) (Q : α → Reader → Prop) (h : ∀ a rd, r = .ok a → P rd → Q a rd) :
    Stores d P (LM.ofRes r : LM (TS LS) ε α) 0 0 Q :=
  fun _ h1 h2 hp => ⟨h1, h2, 0, rfl, Nat.le_refl _, fun a ha => ⟨rfl, h a _ ha hp⟩⟩

theorem pure (a : α) (Q : α → Reader → Prop) (h : ∀ rd, P rd → Q a rd) :
    Stores d P (Pure.pure a : LM (TS LS) ε α) 0 0 Q :=
  ofRes (.ok a) Q fun b rd hb => by cases hb; exact h rd

theorem okOr (o : Option α) (e : ε) : Stores d P (LM.okOr o e : LM (TS LS) ε α) 0 0 (fun _ => P) := by
  cases o
  · exact ofRes (.err e) _ fun _ _ h => (by cases h)
  · exact ofRes (.ok _) _ fun _ _ _ h => h

theorem require (c : Bool) (e : ε) : Stores d P (LM.require c e : LM (TS LS) ε Unit) 0 0 (fun _ => P) := by
  cases c
  · exact ofRes (.err e) _ fun _ _ h => (by cases h)
  · exact ofRes (.ok _) _ fun _ _ _ h => h

theorem bind {x : LM (TS LS) ε α} {f : α → LM (TS LS) ε β} {B₁ B₂ E₁ E₂ : Nat}
    {Q : α → Reader → Prop} {R : β → Reader → Prop} (hx : Stores d P x B₁ E₁ Q)
    (hf : ∀ a, Stores d (Q a) (f a) B₂ E₂ R) : Stores d P (x >>= f) (B₁ + B₂) (E₁ + E₂) R := by
  intro t h1 h2 hp
  obtain ⟨g1, g2, k, hk, hkb, hq⟩ := hx t h1 h2 hp
  rw [LM.bind_def]
  rcases hxt : x t with ⟨r, t₁⟩
  rw [hxt] at g1 g2 hk hq
  simp only at g1 g2 hk hq
  cases r with
  | err e => exact ⟨g1, g2, k, hk, by omega, fun a ha => (by cases ha)⟩
  | panic => exact ⟨g1, g2, k, hk, by omega, fun a ha => (by cases ha)⟩
  | ok a =>
    obtain ⟨hE, hqa⟩ := hq a rfl
    obtain ⟨w1, w2, k', hk', hkb', hq'⟩ := hf a t₁ g1 g2 hqa
    refine ⟨w1, w2, k + k', by show (f a t₁).2.stored = _; omega, by omega, fun b hb => ?_⟩
    obtain ⟨hE', hqb⟩ := hq' b hb
    exact ⟨by omega, hqb⟩

theorem bindq {x : LM (TS LS) ε α} {f : α → LM (TS LS) ε β} {B E : Nat}
    {Q : α → Reader → Prop} {R : β → Reader → Prop} (hx : Stores d P x 0 0 Q)
    (hf : ∀ a, Stores d (Q a) (f a) B E R) : Stores d P (x >>= f) B E R := by
  have := bind hx hf
  rwa [Nat.zero_add, Nat.zero_add] at this

theorem weaken {y : LM (TS LS) ε α} {B B' E E' : Nat} {P' : Reader → Prop} {Q Q' : α → Reader → Prop}
    (h : Stores d P y B E Q) (hb : B ≤ B') (he : E = E') (hp : ∀ rd, P' rd → P rd)
    (hq : ∀ a rd, Q a rd → Q' a rd) : Stores d P' y B' E' Q' := by
  intro t h1 h2 h3
  obtain ⟨g1, g2, k, hk, hkb, hQ⟩ := h t h1 h2 (hp _ h3)
  exact ⟨g1, g2, k, hk, by omega, fun a ha => ⟨he ▸ (hQ a ha).1, hq _ _ (hQ a ha).2⟩⟩

/-- The precondition may be used to establish the claim. -/
theorem of_pre {y : LM (TS LS) ε α} {B E : Nat} {Q : α → Reader → Prop}
    (h : ∀ rd, P rd → Stores d P y B E Q) : Stores d P y B E Q :=
  fun t h1 h2 h3 => h _ h3 t h1 h2 h3

/-- An operation that stores nothing. -/
theorem quiet (env : Env) {x : LM LS ε α} {Q : α → Reader → Prop}
    (hfix : ∀ s, (x s).2.rd.data = s.rd.data ∧ (x s).2.rd.sched = s.rd.sched)
    (hq : ∀ s a, s.rd.data = d → P s.rd → (x s).1 = .ok a → Q a (x s).2.rd) :
    Stores d P (traced env (fun _ => []) x) 0 0 Q := by
  intro t h1 h2 hp
  unfold traced
  dsimp only
  generalize hs : MState.setData (env t.log.length (MState.data t.st)) t.st = s
  have hrd : s.rd = t.st.rd := by subst hs; rfl
  have hf := hfix s
  refine ⟨fun i w => ?_, by rw [hf.1, hrd, h2], 0, stored_snoc _ _ _ _, Nat.le_refl _, fun a ha =>
    ⟨rfl, hq s a (by rw [hrd, h2]) (hrd ▸ hp) ha⟩⟩
  rw [hf.2, hrd]
  exact h1 i w

theorem seekStart (env : Env) (p : Nat) (e : ε) :
    Stores d P ((tracedIo env).seekStart p e) 0 0 (fun _ rd => rd.pos = p) :=
  quiet env (fun s => by unfold LinuxLoader.seekStart; split <;> exact ⟨rfl, rfl⟩) fun s a _ _ h => by
    unfold LinuxLoader.seekStart at h ⊢
    split
    · rename_i hc; rw [if_pos hc] at h; cases h
    · rfl

theorem seekEnd (env : Env) (e : ε) :
    Stores d P ((tracedIo env).seekEnd e) 0 0 (fun n _ => n = d.length) :=
  quiet env (fun s => by unfold LinuxLoader.seekEnd; split <;> exact ⟨rfl, rfl⟩) fun s a hd _ h => by
    unfold LinuxLoader.seekEnd at h
    split at h
    · cases h
    · cases h; exact congrArg _ hd

theorem seekCur (env : Env) (j : Int) (e : ε) : Stores d P ((tracedIo env).seekCur j e) 0 0 anyRes :=
  quiet env (fun s => by unfold LinuxLoader.seekCur; split <;> exact ⟨rfl, rfl⟩) fun _ _ _ _ _ => trivial

theorem readExact (env : Env) (n p : Nat) (e : ε) :
    Stores d (fun rd => rd.pos = p) ((tracedIo env).readExact n e) 0 0
      (fun b rd => rd.pos = p + n ∧ b = (d.drop p).take n ∧ (n ≠ 0 → p + n ≤ d.length)) :=
  quiet env (fun s => by unfold LinuxLoader.readExact; split <;> exact ⟨rfl, rfl⟩) fun s a hd hp h => by
    rcases hr : LinuxLoader.readExact n e s with ⟨r, s'⟩
    rw [hr] at h
    simp only at h
    subst h
    obtain ⟨-, h2, -, h4, h5⟩ := readExact_ok_state hr
    rw [hd, hp] at h4 h5
    exact ⟨hp ▸ h2, h4, h5⟩

theorem readVolatile (env : Env) (n : Nat) (e : ε) : Stores d P ((tracedIo env).readVolatile n e) 0 0 anyRes :=
  quiet env (fun s => by unfold LinuxLoader.readVolatile; split <;> exact ⟨rfl, rfl⟩) fun _ _ _ _ _ => trivial

theorem _root_.LinuxLoader.storeWrites_length' : ∀ (bs : List UInt8) (a : Nat), (storeWrites a bs).length = bs.length
  | [], _ => rfl
  | _ :: bs, a => congrArg (· + 1) (storeWrites_length' bs (a + 1))

/-- A transfer: at most what is left of the file, and all of it on success. -/
theorem readIntoMem (env : Env) (p a n : Nat) (e : ε) :
    Stores d (fun rd => rd.pos = p) ((tracedIo env).readIntoMem a n e) (min n (d.length - p)) n anyRes := by
  intro t h1 h2 hp
  show NoScatter (traced env _ _ t).2.st ∧ _
  unfold tracedIo traced
  dsimp only
  generalize hs : MState.setData (env t.log.length (MState.data t.st)) t.st = s
  have hrd : s.rd = t.st.rd := by subst hs; rfl
  have hns : NoScatter s := by
    intro i w
    rw [hrd]
    exact h1 i w
  have hno : scatterOf s = none := by
    unfold scatterOf
    split
    · rename_i w hw; exact absurd hw (hns _ _)
    · rfl
  have hw : (readWrites a n s).length = (s.rd.rest.take (min (s.mem.mappedPrefix a n) (ioLimit s n))).length := by
    unfold readWrites
    rw [hno]
    exact storeWrites_length' _ _
  have hlim : ioLimit s n ≤ n := by
    unfold ioLimit
    split <;> omega
  rw [readIntoMem_none hno]
  have hle : (s.rd.rest.take (min (s.mem.mappedPrefix a n) (ioLimit s n))).length ≤ min n (d.length - p) := by
    rw [List.length_take, Reader.rest, List.length_drop, hrd, h2, hp]
    omega
  unfold readPrefix
  dsimp only
  split
  · rename_i hc
    exact ⟨hns, by show s.rd.data = d; rw [hrd, h2], _, stored_snoc _ _ _ _, by omega, fun a ha => ⟨by omega, trivial⟩⟩
  · exact ⟨hns, by show s.rd.data = d; rw [hrd, h2], _, stored_snoc _ _ _ _, by omega, fun a ha => (by cases ha)⟩

theorem readAny (env : Env) (n : Nat) (e : ε) : Stores d P ((tracedIo env).readExact n e) 0 0 anyRes :=
  quiet env (fun s => by unfold LinuxLoader.readExact; split <;> exact ⟨rfl, rfl⟩) fun _ _ _ _ _ => trivial

theorem anyPos {y : LM (TS LS) ε α} {B E : Nat} {Q : α → Reader → Prop}
    (h : ∀ p, Stores d (fun rd => rd.pos = p) y B E Q) : Stores d P y B E Q :=
  fun t h1 h2 _ => h t.st.rd.pos t h1 h2 rfl

end Stores

section Elf
variable {d : List UInt8} {P : Reader → Prop} (env : Env)

theorem notePvh_stores (ty n : Nat) : Stores d P (G.notePvh (tracedIo env) ty n) 0 0 anyRes := by
  unfold G.notePvh
  split
  · exact .bindq (.readAny env _ _) fun _ => .pure _ _ fun _ _ => trivial
  · exact .pure _ _ fun _ _ => trivial

theorem noteLoop_stores (ph : Phdr) : ∀ fuel r (P : Reader → Prop),
    Stores d P (G.noteLoop (tracedIo env) ph fuel r) 0 0 anyRes := by
  intro fuel
  induction fuel with
  | zero => intro r P; exact .ofRes _ _ fun _ _ _ _ => trivial
  | succ fuel ih =>
    intro r P
    unfold G.noteLoop
    split
    · refine .bindq (.readAny env _ _) fun b => .bindq (notePvh_stores env _ _) fun found => ?_
      split
      · exact .pure _ _ fun _ _ => trivial
      · exact .bindq (.ofRes _ anyRes fun _ _ _ _ => trivial) fun _ =>
          .bindq (.ofRes _ anyRes fun _ _ _ _ => trivial) fun _ => .bindq (.seekStart env _ _) fun _ => ih _ _
    · exact .pure _ _ fun _ _ => trivial

theorem parseNote_stores (ph : Phdr) : Stores d P (G.parseNote (tracedIo env) ph) 0 0 anyRes := by
  unfold G.parseNote
  refine .bindq (.seekStart env _ _) fun _ => .bindq (noteLoop_stores env ph _ _ _) fun r => ?_
  cases r with
  | none => exact .pure _ _ fun _ _ => trivial
  | some n =>
    exact .bindq (.ofRes _ anyRes fun _ _ _ _ => trivial) fun _ => .bindq (.seekCur env _ _) fun _ =>
      .bindq (.require _ _) fun _ => .bindq (.readAny env _ _) fun _ => .pure _ _ fun _ _ => trivial

theorem readPhdrs_stores : ∀ n p, Stores d (fun rd => rd.pos = p) (G.readPhdrs (tracedIo env) n) 0 0
    (fun l _ => l = (List.range n).map (fun i => phdrOff d (p + 56 * i)) ∧ (n ≠ 0 → p + 56 * n ≤ d.length)) := by
  intro n
  induction n with
  | zero => intro p; exact .pure _ _ fun _ _ => ⟨rfl, fun h => absurd rfl h⟩
  | succ n ih =>
    intro p
    unfold G.readPhdrs
    refine .bindq (.readExact env 56 p _) fun b => ?_
    refine .of_pre fun rd hb => ?_
    obtain ⟨-, hb, hle⟩ := hb
    have hle := hle (by omega)
    refine .bindq (.weaken (ih (p + 56)) (Nat.le_refl _) rfl (fun rd h => h.1) (fun _ _ h => h)) fun l =>
      .pure _ _ fun rd hl => ?_
    obtain ⟨hl, hn⟩ := hl
    refine ⟨?_, fun _ => ?_⟩
    · rw [hl, hb, ofBytes_window]
      simp only [List.range_succ_eq_map, List.map_cons, List.map_map, Nat.mul_zero, Nat.add_zero]
      congr 1
      apply List.map_congr_left
      intro i _
      simp only [Function.comp_apply]
      congr 1; omega
    · by_cases h0 : n = 0
      · omega
      · have := hn h0; omega

/-- Bytes in the file of the loadable ones. -/
def loadBytes (phs : List Phdr) : Nat := ((phs.filter fun h => decide h.Loadable).map (·.filesz)).sum

theorem loadSegment_stores (koff : Option GuestAddr) (ph : Phdr) (kend : Nat) :
    Stores d P (G.loadSegment (tracedIo env) koff ph kend) d.length ph.filesz anyRes := by
  unfold G.loadSegment
  refine .bindq (.seekStart env _ _) fun _ => .bindq (.okOr _ _) fun a => ?_
  exact .weaken (.bind (.readIntoMem env _ _ _ _) fun _ => .bindq (.okOr _ _) fun e =>
    .pure _ anyRes fun _ _ => trivial) (by omega) (by omega) (fun _ h => h) fun _ _ h => h

theorem loadSegments_stores (koff : Option GuestAddr) : ∀ (phs : List Phdr) (kend : Nat) (cap : PvhCap)
    (P : Reader → Prop), Stores d P (G.loadSegments (tracedIo env) koff phs kend cap)
      (phs.length * d.length) (loadBytes phs) anyRes := by
  intro phs
  induction phs with
  | nil =>
    intro kend cap P
    exact .weaken (.pure _ anyRes fun _ _ => trivial) (Nat.zero_le _) rfl (fun _ h => h) fun _ _ h => h
  | cons ph phs ih =>
    intro kend cap P
    have hB : (ph :: phs).length * d.length = d.length + phs.length * d.length := by
      rw [List.length_cons, Nat.add_mul, Nat.one_mul, Nat.add_comm]
    rw [hB]
    unfold G.loadSegments
    split
    · rename_i hc
      have hn : ¬ ph.Loadable := by
        rintro ⟨h1, h2⟩
        rcases hc with hc | hc
        · exact hc h1
        · exact h2 hc
      have hE : loadBytes (ph :: phs) = loadBytes phs := by
        unfold loadBytes
        rw [List.filter_cons_of_neg]
        rwa [decide_eq_true_eq]
      rw [hE]
      split
      · cases koff with
        | some k => exact (ih _ _ _).weaken (by omega) rfl (fun _ h => h) fun _ _ h => h
        | none =>
          exact .bindq (parseNote_stores env ph) fun c =>
            (ih _ _ _).weaken (by omega) rfl (fun _ h => h) fun _ _ h => h
      · exact (ih _ _ _).weaken (by omega) rfl (fun _ h => h) fun _ _ h => h
    · rename_i hc
      have hy : ph.Loadable := by
        refine ⟨Decidable.byContradiction fun h => hc (.inl h), fun h => hc (.inr h)⟩
      have hE : loadBytes (ph :: phs) = ph.filesz + loadBytes phs := by
        unfold loadBytes
        rw [List.filter_cons_of_pos (by rwa [decide_eq_true_eq]), List.map_cons, List.sum_cons]
      rw [hE]
      exact .bind (loadSegment_stores env koff ph kend) fun e => ih _ _ _

theorem checkEntry_stores (highmem : Option GuestAddr) (n : Nat) :
    Stores d P (G.checkEntry (tracedIo env) highmem n) 0 0 (fun _ => P) := by
  unfold G.checkEntry
  cases highmem with
  | none => exact .pure _ _ fun _ h => h
  | some h => exact .require _ _

theorem elfKernelLoad_stores (koff : Option GuestAddr) (n : Nat) :
    Stores d P (G.elfKernelLoad (tracedIo env) koff n) 0 0 (fun _ => P) := by
  unfold G.elfKernelLoad
  cases koff with
  | none => exact .pure _ _ fun _ h => h
  | some h => exact .okOr _ _

theorem elfLoad_stores (koff highmem : Option GuestAddr) : Stores d P (G.elfLoad (tracedIo env) koff highmem)
    (min (elfPhnum d) (d.length / 56) * d.length) (loadBytes (elfPhdrs d)) anyRes := by
  unfold G.elfLoad
  refine .bindq (.seekStart env 0 _) fun _ => .bindq (.readExact env 64 0 _) fun eh => ?_
  refine .of_pre fun rd hb => ?_
  obtain ⟨-, hb, hle⟩ := hb
  rw [List.drop_zero] at hb
  have f2 : ehPhoff eh = elfPhoff d := by rw [hb]; exact leField_take d (by omega)
  have f3 : ehPhnum eh = elfPhnum d := by rw [hb]; exact leField_take d (by omega)
  rw [f2, f3]
  refine .bindq (.ofRes _ anyRes fun _ _ _ _ => trivial) fun _ => .bindq (checkEntry_stores env _ _) fun _ =>
    .bindq (elfKernelLoad_stores env _ _) fun kl => .bindq (.seekStart env _ _) fun _ =>
    .bindq (readPhdrs_stores env _ _) fun phs => .of_pre fun rd hph => ?_
  obtain ⟨hph, hn⟩ := hph
  have hph : phs = elfPhdrs d := hph
  have hlen : phs.length = elfPhnum d := by
    rw [hph, elfPhdrs, List.length_map, List.length_range]
  have hmin : phs.length = min (elfPhnum d) (d.length / 56) := by
    by_cases h0 : elfPhnum d = 0
    · omega
    · have := hn h0
      omega
  exact .weaken (.bind (B₂ := 0) (E₂ := 0) (loadSegments_stores env koff phs 0 .ignored _) fun r =>
    .pure _ anyRes fun _ _ => trivial) (by rw [hmin]; exact Nat.le_refl _) (by rw [hph]; rfl)
    (fun _ h => h) fun _ _ h => h

end Elf

section Other
variable {d : List UInt8} {P : Reader → Prop} (env : Env)

/-- As `Stores`, with the number of bytes read off the result. -/
def StoresF {ε α : Type} (d : List UInt8) (P : Reader → Prop) (y : LM (TS LS) ε α) (B : Nat)
    (F : α → Nat) : Prop :=
  ∀ t, NoScatter t.st → t.st.rd.data = d → P t.st.rd →
    ∃ k, (y t).2.stored = t.stored + k ∧ k ≤ B ∧ ∀ a, (y t).1 = .ok a → k = F a

theorem StoresF.bindq {ε α β : Type} {x : LM (TS LS) ε α} {f : α → LM (TS LS) ε β} {B : Nat}
    {Q : α → Reader → Prop} {F : β → Nat} (hx : Stores d P x 0 0 Q)
    (hf : ∀ a, StoresF d (Q a) (f a) B F) : StoresF d P (x >>= f) B F := by
  intro t h1 h2 hp
  obtain ⟨g1, g2, k, hk, hkb, hq⟩ := hx t h1 h2 hp
  rw [LM.bind_def]
  rcases hxt : x t with ⟨r, t₁⟩
  rw [hxt] at g1 g2 hk hq
  simp only at g1 g2 hk hq
  cases r with
  | err e => exact ⟨k, hk, by omega, fun a ha => (by cases ha)⟩
  | panic => exact ⟨k, hk, by omega, fun a ha => (by cases ha)⟩
  | ok a =>
    obtain ⟨k', hk', hkb', hq'⟩ := hf a t₁ g1 g2 (hq a rfl).2
    refine ⟨k + k', by show (f a t₁).2.stored = _; omega, by omega, fun b hb => ?_⟩
    rw [← hq' b hb]
    omega

theorem Stores.toF {ε α : Type} {y : LM (TS LS) ε α} {B B' E : Nat} {Q : α → Reader → Prop} {F : α → Nat}
    (h : Stores d P y B E Q) (hb : B ≤ B') (hq : ∀ a rd, Q a rd → E = F a) : StoresF d P y B' F := by
  intro t h1 h2 h3
  obtain ⟨-, -, k, hk, hkb, hQ⟩ := h t h1 h2 h3
  exact ⟨k, hk, by omega, fun a ha => (hQ a ha).1.trans (hq _ _ (hQ a ha).2)⟩

theorem checkedAdd_some {a b c : Nat} (h : checkedAdd a b = some c) : c = a + b := by
  unfold checkedAdd at h
  split at h
  · cases h; rfl
  · cases h

/-- The transfer at the end of a load, and the result. -/
theorem lastTransfer (p a n : Nat) (e₁ e₂ : LoadError) (sh : Option (List UInt8)) :
    StoresF d (fun rd => rd.pos = p) (do
      (tracedIo env).readIntoMem a n e₁
      let e ← LM.okOr (checkedAdd a n) e₂
      Pure.pure ⟨a, e, sh, .ignored⟩ : LM (TS LS) LoadError LoadResult) (min n (d.length - p))
      (fun r => r.kernelEnd - r.kernelLoad) := by
  cases hc : checkedAdd a n with
  | none =>
    exact Stores.toF (.bind (B₂ := 0) (E₂ := 0) (.readIntoMem env p a n _) fun _ =>
      .bindq (Q := fun _ _ => False) (.ofRes (.err e₂) _ fun _ _ h => (by cases h)) fun e => .pure _ (fun _ _ => False)
        fun _ h => h) (Nat.le_refl _) fun _ _ h => h.elim
  | some v =>
    have hv := checkedAdd_some hc
    refine Stores.toF (.bind (B₂ := 0) (E₂ := 0) (.readIntoMem env p a n _) fun _ =>
      .bindq (Q := fun e _ => e = v) (.ofRes (.ok v) _ fun _ _ h _ => (by cases h; rfl)) fun e =>
        .pure _ (fun (r : LoadResult) _ => r.kernelEnd = v ∧ r.kernelLoad = a) fun _ h => ⟨h, rfl⟩) (Nat.le_refl _) fun r _ h => ?_
    rw [h.1, h.2]
    omega

theorem bzLoad_stores (koff highmem : Option GuestAddr) :
    StoresF d P (G.bzLoad (tracedIo env) koff highmem) d.length (fun r => r.kernelEnd - r.kernelLoad) := by
  unfold G.bzLoad
  refine .bindq (.seekEnd env _) fun size => .bindq (.seekStart env _ _) fun _ =>
    .bindq (.readVolatile env _ _) fun h => ?_
  unfold G.bzRest
  refine .bindq (.require _ _) fun _ => .bindq (.require _ _) fun _ => .bindq (.okOr _ _) fun setup =>
    .bindq (.okOr _ _) fun ksize => .bindq (Q := anyRes) ?_ fun _ => ?_
  · unfold G.bzCheckHighmem
    cases highmem with
    | none => exact .pure _ _ fun _ _ => trivial
    | some h => exact (Stores.require _ _).weaken (Nat.le_refl _) rfl (fun _ h => h) fun _ _ _ => trivial
  · refine .bindq (.seekStart env _ _) fun _ t h1 h2 h3 => ?_
    obtain ⟨k, hk, hkb, hq⟩ := lastTransfer env setup (bzMemOffset koff (shCode32 h)) ksize _ _ _ t h1 h2 h3
    exact ⟨k, hk, by omega, hq⟩

theorem peLoad_stores (arch : PeArch) (koff highmem : Option GuestAddr) :
    StoresF d P (G.peLoad (tracedIo env) arch koff highmem) d.length (fun r => r.kernelEnd - r.kernelLoad) := by
  unfold G.peLoad
  refine .bindq (.seekEnd env _) fun size => .bindq (.seekStart env _ _) fun _ =>
    .bindq (.readAny env _ _) fun h => .bindq (.require _ _) fun _ => .bindq (Q := anyRes) ?_ fun _ =>
    .bindq (.okOr _ _) fun a => .bindq (.seekStart env _ _) fun _ t h1 h2 h3 => ?_
  · unfold G.peCheckAlign
    cases koff with
    | none => exact .pure _ _ fun _ _ => trivial
    | some h => exact (Stores.require _ _).weaken (Nat.le_refl _) rfl (fun _ h => h) fun _ _ _ => trivial
  · obtain ⟨k, hk, hkb, hq⟩ := lastTransfer env 0 a size _ _ _ t h1 h2 h3
    exact ⟨k, hk, by omega, hq⟩

theorem loadDtb_stores (a : GuestAddr) :
    StoresF d P (G.loadDtb (tracedIo env) a) (min d.length 0x200000) (fun _ => d.length) := by
  unfold G.loadDtb
  refine .bindq (.seekEnd env _) fun size t h1 h2 h3 => ?_
  subst h3
  by_cases hs : d.length ≤ 0x200000
  · rw [decide_eq_true hs]
    exact StoresF.bindq (P := anyRd) (Q := anyRes) (.ofRes (.ok ()) _ fun _ _ _ _ => trivial)
      (fun _ => .bindq (.seekStart env _ _) fun _ => Stores.toF (.readIntoMem env _ _ _ _)
        (by omega) fun _ _ _ => rfl) t h1 h2 trivial
  · rw [decide_eq_false hs]
    exact ⟨0, rfl, Nat.zero_le _, fun a ha => (by cases ha)⟩

end Other

/-! ## C75 -/

theorem stored_start {σ : Type} (s : σ) : (TS.mk s []).stored = 0 := rfl

/-- **C75.** Loading an ELF image of `L` bytes stores at most `min phnum (L / 56) * L` bytes in guest
memory, whatever the reader and other users of the memory do; if it succeeds, exactly the sum of the
sizes of the loadable segments. -/
theorem C75_elf_bytes (env : Env) (koff highmem : Option GuestAddr) (s : LS) (hns : NoScatter s) :
    (G.elfLoad (tracedIo env) koff highmem ⟨s, []⟩).2.log.flatten.length ≤
      min (elfPhnum s.rd.data) (s.rd.data.length / 56) * s.rd.data.length ∧
    ∀ r, (G.elfLoad (tracedIo env) koff highmem ⟨s, []⟩).1 = .ok r →
      (G.elfLoad (tracedIo env) koff highmem ⟨s, []⟩).2.log.flatten.length =
        ((elfLoadable s.rd.data).map (·.filesz)).sum := by
  obtain ⟨-, -, k, hk, hkb, hq⟩ := elfLoad_stores (P := anyRd) env koff highmem ⟨s, []⟩ hns rfl trivial
  have hk : (G.elfLoad (tracedIo env) koff highmem ⟨s, []⟩).2.log.flatten.length = k := by
    rw [stored_start, Nat.zero_add] at hk; exact hk
  rw [hk]
  exact ⟨hkb, fun r hr => (hq r hr).1⟩

/-- **C75** for bzImage, PE and device tree blobs: never more than the image has; on success from
`kernel_load` to `kernel_end`, or all of the blob, which is at most 2 MiB. -/
theorem C75_other_bytes (env : Env) (arch : PeArch) (koff highmem : Option GuestAddr) (a : GuestAddr) (s : LS)
    (hns : NoScatter s) :
    ((G.bzLoad (tracedIo env) koff highmem ⟨s, []⟩).2.log.flatten.length ≤ s.rd.data.length ∧
      ∀ r, (G.bzLoad (tracedIo env) koff highmem ⟨s, []⟩).1 = .ok r →
        (G.bzLoad (tracedIo env) koff highmem ⟨s, []⟩).2.log.flatten.length = r.kernelEnd - r.kernelLoad) ∧
    ((G.peLoad (tracedIo env) arch koff highmem ⟨s, []⟩).2.log.flatten.length ≤ s.rd.data.length ∧
      ∀ r, (G.peLoad (tracedIo env) arch koff highmem ⟨s, []⟩).1 = .ok r →
        (G.peLoad (tracedIo env) arch koff highmem ⟨s, []⟩).2.log.flatten.length = r.kernelEnd - r.kernelLoad) ∧
    ((G.loadDtb (tracedIo env) a ⟨s, []⟩).2.log.flatten.length ≤ min s.rd.data.length 0x200000 ∧
      ((G.loadDtb (tracedIo env) a ⟨s, []⟩).1 = .ok () →
        (G.loadDtb (tracedIo env) a ⟨s, []⟩).2.log.flatten.length = s.rd.data.length)) := by
  refine ⟨?_, ?_, ?_⟩
  · obtain ⟨k, hk, hkb, hq⟩ := bzLoad_stores (P := anyRd) env koff highmem ⟨s, []⟩ hns rfl trivial
    rw [stored_start, Nat.zero_add] at hk
    unfold TS.stored at hk
    rw [hk]
    exact ⟨hkb, hq⟩
  · obtain ⟨k, hk, hkb, hq⟩ := peLoad_stores (P := anyRd) env arch koff highmem ⟨s, []⟩ hns rfl trivial
    rw [stored_start, Nat.zero_add] at hk
    unfold TS.stored at hk
    rw [hk]
    exact ⟨hkb, hq⟩
  · obtain ⟨k, hk, hkb, hq⟩ := loadDtb_stores (P := anyRd) env a ⟨s, []⟩ hns rfl trivial
    rw [stored_start, Nat.zero_add] at hk
    unfold TS.stored at hk
    rw [hk]
    exact ⟨hkb, hq ()⟩

/-! ## Copying is not proportional to the size of the image -/

/-- An executable with `p` segments at address `a`, all with the contents `bs`. -/
def blobExe (p a : Nat) (bs : List UInt8) : Exe :=
  { heavyExe 0 0 with segs := List.replicate p ⟨.load bs, 5, a, a, bs.length, 1⟩ }

/-- The same contents shared by all segments. -/
def blobElf (p a : Nat) (bs : List UInt8) : List UInt8 :=
  (blobExe p a bs).header 64 ++ (blobExe p a bs).segs.flatMap (fun g => g.header (64 + 56 * p)) ++ bs

theorem blobElf_length (p a : Nat) (bs : List UInt8) : (blobElf p a bs).length = 64 + 56 * p + bs.length := by
  unfold blobElf
  rw [List.length_append, List.length_append, exeHeader_length _ _ rfl,
    flatMap_const_length _ 56 _ (fun g _ => segHeader_length _ _)]
  rw [show (blobExe p a bs).segs.length = p from List.length_replicate]

theorem blobExe_fits {p a : Nat} {bs : List UInt8} (hp : p < 0x10000) (ha : a < U64) (hb : bs.length < U64) :
    (blobExe p a bs).Fits := by
  refine ⟨rfl, show 0 < U64 by decide, by rwa [show (blobExe p a bs).segs.length = p from List.length_replicate],
    fun g hg => ?_, fun g hg t bs h => ?_, fun g hg ns h => ?_⟩
  · have := (List.mem_replicate.1 hg).2
    subst this
    exact ⟨show 1 < 0x100000000 by decide, ha, hb⟩
  · have := (List.mem_replicate.1 hg).2
    subst this
    cases h
  · have := (List.mem_replicate.1 hg).2
    subst this
    cases h

theorem blobElf_laidOut {p a : Nat} {bs : List UInt8} (hp : p < 0x10000) :
    LaidOut (blobExe p a bs) (blobElf p a bs) 64 (fun _ => 64 + 56 * p) := by
  have hh : ((blobExe p a bs).header 64).length = 64 := exeHeader_length _ _ rfl
  have hl : (blobExe p a bs).segs.length = p := List.length_replicate
  have hz : ((blobExe p a bs).segs.flatMap fun g => g.header (64 + 56 * p)).length = 56 * p := by
    rw [flatMap_const_length _ 56 _ (fun g _ => segHeader_length _ _), hl]
  refine ⟨?_, Nat.le_refl _, fun i g hg => ?_, fun i g hg => ?_, by decide, fun i g hg => ?_⟩
  · exact at_of_drop (t := (blobExe p a bs).segs.flatMap (fun g => g.header (64 + 56 * p)) ++ bs)
      (by rw [List.drop_zero, blobElf, List.append_assoc])
  · have h1 := flatMap_at (fun g : Seg => g.header (64 + 56 * p)) (blobExe p a bs).segs i g hg
    have hlt := (List.getElem?_eq_some_iff.1 hg).1
    rw [flatMap_const_length _ 56 _ (fun g _ => segHeader_length _ _), List.length_take,
      Nat.min_eq_left (Nat.le_of_lt hlt)] at h1
    unfold blobElf
    refine at_append_left ?_ ?_
    · have := at_append_right (b := (blobExe p a bs).header 64) h1
      rwa [hh] at this
    · rw [List.length_append, hh, hz, segHeader_length]
      rw [hl] at hlt
      omega
  · have := (List.mem_replicate.1 (List.mem_of_getElem? hg)).2
    subst this
    have := at_append_right (b := (blobExe p a bs).header 64 ++
      (blobExe p a bs).segs.flatMap (fun g => g.header (64 + 56 * p))) (o := 0) (v := bs) (t := bs) (by
        unfold At; rw [List.drop_zero, List.take_of_length_le (Nat.le_refl _)])
    rw [List.length_append, hh, hz, Nat.add_zero] at this
    exact this
  · unfold U64; omega

theorem blobElf_loadBytes {p a : Nat} {bs : List UInt8} (hp : p < 0x10000) (ha : a < U64) (hb : bs ≠ [])
    (hlen : (blobElf p a bs).length < ISZ) :
    ((elfLoadable (blobElf p a bs)).map (·.filesz)).sum = p * bs.length := by
  have hbl : bs.length < U64 := by rw [blobElf_length] at hlen; unfold ISZ U64 at *; omega
  have hphs : elfPhdrs (blobElf p a bs) = List.replicate p ⟨1, 64 + 56 * p, a, bs.length, bs.length⟩ := by
    rw [laidOut_phdrs (blobExe_fits hp ha hbl) (blobElf_laidOut hp) hlen]
    exact zipIdx_replicate_map _ _ _ (fun i => rfl) p
  have hne : bs.length ≠ 0 := fun h => hb (List.length_eq_zero_iff.1 h)
  have hy : (Phdr.mk 1 (64 + 56 * p) a bs.length bs.length).Loadable := ⟨rfl, hne⟩
  unfold elfLoadable
  rw [hphs, List.filter_replicate, if_pos (decide_eq_true hy), List.map_replicate, List.sum_replicate_nat]

/-- **C75.** An image of `64 + 56 p + n` bytes, `p` program headers and `n` bytes of contents shared by
all of them, is accepted by any reader without faults if memory has a place for the contents, and
`p * n` bytes are stored. -/
theorem C75_bytes_quadratic (env : Env) (p a : Nat) (bs : List UInt8) (hp : p < 0x10000) (hb : bs ≠ [])
    (s : LS) (hff : FaultFree s) (hd : s.rd.data = blobElf p a bs) (hlen : 64 + 56 * p + bs.length < ISZ)
    (hm : Mapped s.mem a bs.length) (hend : a + bs.length < U64) :
    (∃ r, (elfLoad none none s).1 = .ok r ∧ (G.elfLoad (tracedIo env) none none ⟨s, []⟩).1 = .ok r) ∧
    (G.elfLoad (tracedIo env) none none ⟨s, []⟩).2.log.flatten.length = p * bs.length := by
  have hlen' : (blobElf p a bs).length < ISZ := by rw [blobElf_length]; exact hlen
  have hf : (blobExe p a bs).Fits := blobExe_fits hp (by omega) (by omega)
  have hload : (blobExe p a bs).Loads none none s.mem := by
    refine ⟨fun h hh => (nomatch hh), show 0 + 0 < U64 by decide, fun g hg a' bs' hpc => ?_, fun _ ns hns => ?_⟩
    · have := (List.mem_replicate.1 hg).2
      subst this
      unfold Seg.piece at hpc
      simp only [if_neg hb, Option.some.injEq, Prod.mk.injEq, koffBase, Nat.zero_add] at hpc
      obtain ⟨rfl, rfl⟩ := hpc
      exact ⟨hm, by omega, hend⟩
    · obtain ⟨i, g, hi, hc⟩ := mem_noteLists.1 hns
      have := (List.mem_replicate.1 (List.mem_of_getElem? hi)).2
      subst this
      cases hc
  obtain ⟨r, hr⟩ := (C78_elf_accepted (koff := none) (highmem := none) hf (hd ▸ blobElf_laidOut hp)
    (by rw [hd]; exact hlen') hff).2 hload
  have hns : NoScatter s := fun i w h => by rw [hff i] at h; cases h
  obtain ⟨t, r', s₁, -, hT⟩ := Tr.elfLoad none none s
  obtain ⟨hx, hy⟩ := hT (MState.data s)
  obtain ⟨g', hy, -⟩ := hy env []
  rw [LawfulMState.set_data] at hx hy
  have hrr : r' = .ok r := by rw [hx] at hr; exact hr
  have hok : (G.elfLoad (tracedIo env) none none ⟨s, []⟩).1 = .ok r :=
    (congrArg Prod.fst hy).trans hrr
  refine ⟨⟨r, hr, hok⟩, ?_⟩
  rw [(C75_elf_bytes env none none s hns).2 r hok, hd]
  exact blobElf_loadBytes hp (by omega) hb hlen'

/-- **C75 (refuted: copying is not proportional to the size of the image).** Loading an image of 7.6 MB
into a guest with 4 MB of memory stores more than 250 thousand million bytes. -/
theorem C75_bytes_linear_refuted : ∃ img : List UInt8, img.length = 7670024 ∧
    ∀ (env : Env) (s : LS), s.rd.data = img → FaultFree s → Mapped s.mem 0x100000 4000000 →
      (∃ r, (elfLoad none none s).1 = .ok r) ∧
      250000000000 < (G.elfLoad (tracedIo env) none none ⟨s, []⟩).2.log.flatten.length := by
  have hn : (List.replicate 4000000 (0 : UInt8)).length = 4000000 := List.length_replicate
  refine ⟨blobElf 65535 0x100000 (List.replicate 4000000 0), by rw [blobElf_length, hn], fun env s hd hff hm => ?_⟩
  obtain ⟨⟨r, h1, -⟩, h2⟩ := C75_bytes_quadratic env 65535 0x100000 _ (by decide) (fun h => by
    rw [h] at hn; exact absurd hn (by decide)) s hff hd (by rw [hn]; decide) (by rw [hn]; exact hm) (by rw [hn]; decide)
  refine ⟨⟨r, h1⟩, ?_⟩
  rw [h2, hn]
  decide

/-- A small one: 3 headers, 5 bytes, 15 bytes stored. -/
example : (blobElf 3 0 [1, 2, 3, 4, 5]).length = 237 ∧
    (G.elfLoad (tracedIo noEnv) none none ⟨⟨.cursor (blobElf 3 0 [1, 2, 3, 4, 5]), elfMem⟩, []⟩).2.log.flatten.length
      = 15 := by decide +kernel

/-- A guest with enough memory for the big one. -/
def blobMem : Mem := ⟨[⟨0x100000, 4000000⟩], fun _ => 0, true⟩

example : Mapped blobMem 0x100000 4000000 := fun x hx => by
  unfold InRange at hx
  simp only [blobMem, Mem.mapped, List.any_cons, List.any_nil, Bool.or_false, Bool.and_eq_true, decide_eq_true_eq]
  omega

/-- The second transfer fails after 2 bytes: 7 of at most `3 * 237`. -/
example : (G.elfLoad (tracedIo noEnv) none none
    ⟨⟨⟨blobElf 3 0 [1, 2, 3, 4, 5], 0, fun i => if i = 9 then .fail 2 else .ok, 0⟩, elfMem⟩, []⟩).2.log.flatten.length
      = 7 := by decide +kernel

example := C75_elf_bytes noEnv none none
  ⟨⟨blobElf 3 0 [1, 2, 3, 4, 5], 0, fun i => if i = 9 then .fail 2 else .ok, 0⟩, elfMem⟩
  (fun i w h => by dsimp only at h; split at h <;> cases h)

/-- A bzImage: the bytes from `kernel_load` to `kernel_end`. -/
example : ∃ r, (G.bzLoad (tracedIo noEnv) none none ⟨⟨.cursor demoBz, elfMem⟩, []⟩).1 = .ok r ∧
    r.kernelEnd - r.kernelLoad ≠ 0 ∧
    (G.bzLoad (tracedIo noEnv) none none ⟨⟨.cursor demoBz, elfMem⟩, []⟩).2.log.flatten.length =
      r.kernelEnd - r.kernelLoad := ⟨⟨0x40, 0x40 + (demoBz.length - 1024), some (setCode32 ((demoBz.drop 0x1f1).take 123) 0x40), .ignored⟩,
  by decide +kernel, by decide +kernel, by decide +kernel⟩

example := C75_other_bytes noEnv .arm64 none none 0 ⟨.cursor demoBz, elfMem⟩
  (fun i w h => by dsimp only [Reader.cursor] at h; cases h)

end LinuxLoader
