import Verif.Model.Reader
import Verif.Lemmas.Config
import Verif.Lemmas.Bytes

/-! # Lemmas about readers: faultless runs, and simulation of runs with faults -/

namespace LinuxLoader
open Spec

/-- A loader state with a faultless reader, in normal form. -/
def clean (img : List UInt8) (pos clk : Nat) (m : Mem) : LS := ⟨⟨img, pos, fun _ => .ok, clk⟩, m⟩

theorem readIntoMem_none {ε : Type} {a n : Nat} {e : ε} {s : LS} (h : scatterOf s = none) :
    readIntoMem a n e s = readPrefix a n e s := by
  unfold readIntoMem; rw [h]

theorem readIntoMem_some {ε : Type} {a n : Nat} {e : ε} {s : LS} {w : Nat → Option UInt8}
    (h : scatterOf s = some w) :
    readIntoMem a n e s = (.err e, ⟨s.rd.tick s.rd.pos, s.mem.scatter a n w⟩) := by
  unfold readIntoMem; rw [h]

theorem scatterOf_eq {s : LS} {w : Nat → Option UInt8} (h : scatterOf s = some w) :
    s.rd.sched s.rd.clock = .scatter w := by
  unfold scatterOf at h
  split at h
  · cases h; assumption
  · cases h

section Clean
variable {ε : Type} (img : List UInt8) (pos clk : Nat) (m : Mem)

@[simp] theorem seekStart_clean (p : Nat) (e : ε) :
    seekStart p e (clean img pos clk m) = (.ok (), clean img p (clk + 1) m) := rfl

@[simp] theorem seekEnd_clean (e : ε) :
    seekEnd e (clean img pos clk m) = (.ok img.length, clean img img.length (clk + 1) m) := rfl

theorem seekCur_zero_clean (e : ε) :
    seekCur 0 e (clean img pos clk m) = (.ok (), clean img pos (clk + 1) m) := by
  unfold seekCur
  simp [ioFails, clean, Reader.tick]

theorem readExact_clean (n : Nat) (e : ε) :
    readExact n e (clean img pos clk m) =
      if img.length < pos + n then
        if n = 0 then (.ok [], clean img (pos + n) (clk + 1) m)
        else (.err e, clean img pos (clk + 1) m)
      else (.ok ((img.drop pos).take n), clean img (pos + n) (clk + 1) m) := by
  unfold readExact
  simp only [ioFails, clean, Reader.rest, Reader.tick, List.length_drop, Bool.false_eq_true, false_or]
  by_cases h : img.length < pos + n
  · rw [if_pos h]
    by_cases h0 : n = 0
    · subst h0; simp
    · rw [if_neg h0, if_pos (by omega)]
  · rw [if_neg h, if_neg (by omega)]

variable {img pos clk m} in
theorem readExact_clean_ok {n : Nat} {e : ε} (h : pos + n ≤ img.length) :
    readExact n e (clean img pos clk m) =
      (.ok ((img.drop pos).take n), clean img (pos + n) (clk + 1) m) := by
  rw [readExact_clean, if_neg (by omega)]

variable {img pos clk m} in
theorem readExact_clean_err {n : Nat} {e : ε} (h : img.length < pos + n) (hn : n ≠ 0) :
    readExact n e (clean img pos clk m) = (.err e, clean img pos (clk + 1) m) := by
  rw [readExact_clean, if_pos h, if_neg hn]

theorem readIntoMem_clean (a n : Nat) (e : ε) (hn : n ≠ 0) :
    (pos + n ≤ img.length ∧ Mapped m a n ∧
      readIntoMem a n e (clean img pos clk m) =
        (.ok (), clean img (pos + n) (clk + 1) (m.store a ((img.drop pos).take n)))) ∨
    ((img.length < pos + n ∨ ¬ Mapped m a n) ∧ ∃ s', readIntoMem a n e (clean img pos clk m) = (.err e, s')) := by
  rw [readIntoMem_none rfl]
  unfold readPrefix
  simp only [ioFails, ioLimit, clean, Reader.rest, Reader.tick, List.length_take, List.length_drop]
  by_cases hm : Mapped m a n
  · by_cases hl : pos + n ≤ img.length
    · refine .inl ⟨hl, hm, ?_⟩
      rw [Mem.prefix_full hm, Nat.min_self]
      have hc : m.canAccess a n = true := Mem.canAccess_iff.2 ⟨hm, fun h => absurd h hn⟩
      have hmin : min n (img.length - pos) = n := by omega
      rw [hmin, if_pos ⟨rfl, trivial, hc⟩]
    · refine .inr ⟨.inl (by omega), ?_⟩
      rw [if_neg (by rintro ⟨h, -⟩; omega)]
      exact ⟨_, rfl⟩
  · refine .inr ⟨.inr hm, ?_⟩
    rw [if_neg]
    · exact ⟨_, rfl⟩
    · rintro ⟨-, -, h⟩
      exact hm (Mem.canAccess_iff.1 h).1

end Clean

/-! ## Simulation -/

/-- Same image, position and memory. -/
def Sim (s t : LS) : Prop := s.rd.data = t.rd.data ∧ s.rd.pos = t.rd.pos ∧ s.mem = t.mem

/-- No faults. -/
def Faultless (s : LS) : Prop := ∀ i, s.rd.sched i = .ok

/-- Everything that a successful (or panicking) run of `x` does is also done by the run without
faults; `x` never changes the image nor the schedule, nor the regions of guest memory. -/
structure Good {ε α : Type} (x : LM LS ε α) : Prop where
  ok : ∀ s t a s', Sim s t → Faultless t → x s = (.ok a, s') →
    ∃ t', x t = (.ok a, t') ∧ Sim s' t' ∧ Faultless t'
  panic : ∀ s t s', Sim s t → Faultless t → x s = (.panic, s') → ∃ t', x t = (.panic, t')
  data : ∀ s, (x s).2.rd.data = s.rd.data ∧ (x s).2.rd.sched = s.rd.sched
  layout : ∀ s, SameLayout s.mem (x s).2.mem

theorem Sim.refl (s : LS) : Sim s s := ⟨rfl, rfl, rfl⟩

namespace Good
variable {ε α β : Type}

theorem ofRes (r : Res ε α) : Good (LM.ofRes r : LM LS ε α) where
  ok := fun s t a s' hs hf h => by
    simp only [LM.ofRes_apply, Prod.mk.injEq] at h ⊢
    exact ⟨t, ⟨h.1, rfl⟩, h.2 ▸ hs, hf⟩
  panic := fun s t s' hs hf h => by
    simp only [LM.ofRes_apply, Prod.mk.injEq] at h ⊢
    exact ⟨t, h.1, rfl⟩
  data := fun _ => ⟨rfl, rfl⟩
  layout := fun _ => ⟨rfl, rfl⟩

theorem pure (a : α) : Good (Pure.pure a : LM LS ε α) := ofRes (.ok a)

theorem okOr (o : Option α) (e : ε) : Good (LM.okOr o e : LM LS ε α) := by
  cases o with
  | none => exact ofRes (.err e)
  | some a => exact ofRes (.ok a)

theorem require (b : Bool) (e : ε) : Good (LM.require b e : LM LS ε Unit) := by
  cases b with
  | false => exact ofRes (.err e)
  | true => exact ofRes (.ok ())

theorem bind {x : LM LS ε α} {f : α → LM LS ε β} (hx : Good x) (hf : ∀ a, Good (f a)) :
    Good (x >>= f) where
  ok := fun s t b s' hs hF h => by
    obtain ⟨a, s₁, h1, h2⟩ := LM.bind_eq_ok.1 h
    obtain ⟨t₁, k1, hs1, hF1⟩ := hx.ok s t a s₁ hs hF h1
    obtain ⟨t', k2, hs2, hF2⟩ := (hf a).ok s₁ t₁ b s' hs1 hF1 h2
    exact ⟨t', LM.bind_eq_ok.2 ⟨a, t₁, k1, k2⟩, hs2, hF2⟩
  panic := fun s t s' hs hF h => by
    rw [LM.bind_def] at h
    rcases hxs : x s with ⟨r, s₁⟩
    rw [hxs] at h
    cases r with
    | ok a =>
      obtain ⟨t₁, k1, hs1, hF1⟩ := hx.ok s t a s₁ hs hF hxs
      obtain ⟨t', k2⟩ := (hf a).panic s₁ t₁ s' hs1 hF1 h
      exact ⟨t', by rw [LM.bind_ok k1, k2]⟩
    | err e => cases h
    | panic =>
      obtain ⟨t₁, k1⟩ := hx.panic s t s₁ hs hF hxs
      exact ⟨t₁, LM.bind_panic k1⟩
  data := fun s => by
    have h := hx.data s
    rw [LM.bind_def]
    rcases hxs : x s with ⟨r, s₁⟩
    rw [hxs] at h
    cases r with
    | ok a =>
      have h2 := (hf a).data s₁
      exact ⟨h2.1.trans h.1, h2.2.trans h.2⟩
    | err e => exact h
    | panic => exact h
  layout := fun s => by
    have h := hx.layout s
    rw [LM.bind_def]
    rcases hxs : x s with ⟨r, s₁⟩
    rw [hxs] at h
    cases r with
    | ok a =>
      have h2 := (hf a).layout s₁
      exact ⟨h2.1.trans h.1, h2.2.trans h.2⟩
    | err e => exact h
    | panic => exact h

theorem ioFails_faultless {t : LS} (h : Faultless t) : ioFails t = false := by
  unfold ioFails; rw [h]

theorem seekStart (p : Nat) (e : ε) : Good (seekStart p e) where
  ok := fun s t a s' hs hF h => by
    unfold LinuxLoader.seekStart at h ⊢
    rw [ioFails_faultless hF]
    split at h
    · cases h
    · cases h
      exact ⟨_, rfl, ⟨hs.1, rfl, hs.2.2⟩, hF⟩
  panic := fun s t s' hs hF h => by
    unfold LinuxLoader.seekStart at h
    split at h <;> cases h
  data := fun s => by unfold LinuxLoader.seekStart; split <;> exact ⟨rfl, rfl⟩
  layout := fun s => by unfold LinuxLoader.seekStart; split <;> exact ⟨rfl, rfl⟩

theorem seekEnd (e : ε) : Good (seekEnd e) where
  ok := fun s t a s' hs hF h => by
    unfold LinuxLoader.seekEnd at h ⊢
    rw [ioFails_faultless hF]
    split at h
    · cases h
    · cases h
      refine ⟨{ t with rd := t.rd.tick t.rd.data.length }, ?_, ⟨hs.1, ?_, hs.2.2⟩, hF⟩
      · simp [hs.1]
      · simp [Reader.tick, hs.1]
  panic := fun s t s' hs hF h => by
    unfold LinuxLoader.seekEnd at h
    split at h <;> cases h
  data := fun s => by unfold LinuxLoader.seekEnd; split <;> exact ⟨rfl, rfl⟩
  layout := fun s => by unfold LinuxLoader.seekEnd; split <;> exact ⟨rfl, rfl⟩

theorem seekCur (d : Int) (e : ε) : Good (seekCur d e) where
  ok := fun s t a s' hs hF h => by
    unfold LinuxLoader.seekCur at h ⊢
    rw [ioFails_faultless hF]
    split at h
    · cases h
    · rename_i hn
      cases h
      rw [← hs.2.1]
      rw [if_neg (by simp only [Bool.false_eq_true, false_or]; exact fun hh => hn (.inr hh))]
      exact ⟨_, rfl, ⟨hs.1, rfl, hs.2.2⟩, hF⟩
  panic := fun s t s' hs hF h => by
    unfold LinuxLoader.seekCur at h
    split at h <;> cases h
  data := fun s => by unfold LinuxLoader.seekCur; split <;> exact ⟨rfl, rfl⟩
  layout := fun s => by unfold LinuxLoader.seekCur; split <;> exact ⟨rfl, rfl⟩

theorem rest_eq {s t : LS} (h : Sim s t) : s.rd.rest = t.rd.rest := by
  unfold Reader.rest; rw [h.1, h.2.1]

theorem readExact (n : Nat) (e : ε) : Good (readExact n e) where
  ok := fun s t a s' hs hF h => by
    unfold LinuxLoader.readExact at h ⊢
    rw [ioFails_faultless hF, ← rest_eq hs, ← hs.2.1]
    split at h
    · cases h
    · rename_i hn
      cases h
      rw [if_neg (by simp only [Bool.false_eq_true, false_or]; exact fun hh => hn (.inr hh))]
      exact ⟨_, rfl, ⟨hs.1, rfl, hs.2.2⟩, hF⟩
  panic := fun s t s' hs hF h => by
    unfold LinuxLoader.readExact at h
    split at h <;> cases h
  data := fun s => by unfold LinuxLoader.readExact; split <;> exact ⟨rfl, rfl⟩
  layout := fun s => by unfold LinuxLoader.readExact; split <;> exact ⟨rfl, rfl⟩

theorem ioLimit_ok {s : LS} (h : ioFails s = false) (n : Nat) : ioLimit s n = n := by
  unfold ioFails at h; unfold ioLimit
  cases hs : s.rd.sched s.rd.clock <;> rw [hs] at h <;> first | rfl | cases h

theorem readPrefix (a n : Nat) (e : ε) : Good (readPrefix a n e) where
  ok := fun s t u s' hs hF h => by
    unfold LinuxLoader.readPrefix at h ⊢
    dsimp only at h ⊢
    rw [ioFails_faultless hF, ← rest_eq hs, ← hs.2.1, ← hs.2.2, ioLimit_ok (ioFails_faultless hF)]
    split at h
    · rename_i hc
      rw [ioLimit_ok hc.2.1] at h hc
      cases h
      rw [if_pos ⟨hc.1, rfl, hc.2.2⟩]
      exact ⟨_, rfl, ⟨hs.1, rfl, rfl⟩, hF⟩
    · cases h
  panic := fun s t s' hs hF h => by
    unfold LinuxLoader.readPrefix at h
    dsimp only at h
    split at h <;> cases h
  data := fun s => by unfold LinuxLoader.readPrefix; dsimp only; split <;> exact ⟨rfl, rfl⟩
  layout := fun s => by unfold LinuxLoader.readPrefix; dsimp only; split <;> exact ⟨rfl, rfl⟩

theorem scatterOf_faultless {t : LS} (h : Faultless t) : scatterOf t = none := by
  unfold scatterOf; rw [h]

theorem readIntoMem (a n : Nat) (e : ε) : Good (readIntoMem a n e) where
  ok := fun s t u s' hs hF h => by
    rw [readIntoMem_none (scatterOf_faultless hF)]
    cases hw : scatterOf s with
    | some w => rw [readIntoMem_some hw] at h; cases h
    | none => rw [readIntoMem_none hw] at h; exact (readPrefix a n e).ok s t u s' hs hF h
  panic := fun s t s' hs hF h => by
    rw [readIntoMem_none (scatterOf_faultless hF)]
    cases hw : scatterOf s with
    | some w => rw [readIntoMem_some hw] at h; cases h
    | none => rw [readIntoMem_none hw] at h; exact (readPrefix a n e).panic s t s' hs hF h
  data := fun s => by
    cases hw : scatterOf s with
    | some w => rw [readIntoMem_some hw]; exact ⟨rfl, rfl⟩
    | none => rw [readIntoMem_none hw]; exact (readPrefix a n e).data s
  layout := fun s => by
    cases hw : scatterOf s with
    | some w => rw [readIntoMem_some hw]; exact ⟨rfl, rfl⟩
    | none => rw [readIntoMem_none hw]; exact (readPrefix a n e).layout s

end Good

/-- The memory is unchanged by `x`. -/
def Quiet {ε α : Type} (x : LM LS ε α) : Prop := ∀ s, (x s).2.mem = s.mem

namespace Quiet
variable {ε α β : Type}

theorem ofRes (r : Res ε α) : Quiet (LM.ofRes r : LM LS ε α) := fun _ => rfl
theorem pure (a : α) : Quiet (Pure.pure a : LM LS ε α) := fun _ => rfl
theorem okOr (o : Option α) (e : ε) : Quiet (LM.okOr o e : LM LS ε α) := by
  cases o <;> exact fun _ => rfl
theorem require (b : Bool) (e : ε) : Quiet (LM.require b e : LM LS ε Unit) := by
  cases b <;> exact fun _ => rfl
theorem seekStart (p : Nat) (e : ε) : Quiet (seekStart p e) := fun s => by
  unfold LinuxLoader.seekStart; split <;> rfl
theorem seekEnd (e : ε) : Quiet (seekEnd e) := fun s => by
  unfold LinuxLoader.seekEnd; split <;> rfl
theorem seekCur (d : Int) (e : ε) : Quiet (seekCur d e) := fun s => by
  unfold LinuxLoader.seekCur; split <;> rfl
theorem readExact (n : Nat) (e : ε) : Quiet (readExact n e) := fun s => by
  unfold LinuxLoader.readExact; split <;> rfl
theorem readVolatile (n : Nat) (e : ε) : Quiet (readVolatile n e) := fun s => by
  unfold LinuxLoader.readVolatile; split <;> rfl
theorem bind {x : LM LS ε α} {f : α → LM LS ε β} (hx : Quiet x) (hf : ∀ a, Quiet (f a)) :
    Quiet (x >>= f) := fun s => by
  have h := hx s
  rw [LM.bind_def]
  rcases hxs : x s with ⟨r, s₁⟩
  rw [hxs] at h
  cases r with
  | ok a => exact (hf a s₁).trans h
  | err e => exact h
  | panic => exact h

end Quiet

/-- `readIntoMem` puts a prefix of what the image has at the reader's position into its target range,
unless its event is `scatter`: then it fails, having changed mapped addresses of the target range only. -/
theorem readIntoMem_prefix {ε : Type} (a n : Nat) (e : ε) (s : LS) :
    (∃ k, k ≤ n ∧ (readIntoMem a n e s).2.mem = s.mem.store a (s.rd.rest.take k)) ∨
    (∃ w, s.rd.sched s.rd.clock = .scatter w ∧ (readIntoMem a n e s).1 = .err e ∧
      (readIntoMem a n e s).2.mem = s.mem.scatter a n w) := by
  cases hw : scatterOf s with
  | some w => rw [readIntoMem_some hw]; exact .inr ⟨w, scatterOf_eq hw, rfl, rfl⟩
  | none =>
    rw [readIntoMem_none hw]
    refine .inl ⟨min (s.mem.mappedPrefix a n) (ioLimit s n), ?_, ?_⟩
    · have := s.mem.mappedPrefix_le a n; omega
    · unfold readPrefix; dsimp only; split <;> rfl

theorem scatter_frame {m : Mem} {a n x : Nat} {w : Nat → Option UInt8} (h : ¬ InRange a n x) :
    (m.scatter a n w).data x = m.data x := by
  unfold Mem.scatter
  dsimp only
  rw [if_neg fun hc => h ⟨hc.1, hc.2.1⟩]

end LinuxLoader
