import Verif.Lemmas.RawIo

/-! # Lemmas: the loaders over single system calls -/

namespace LinuxLoader
open Spec

namespace Refines
variable {cfg : RawCfg} {vol : Bool}

theorem notePvh (t n : Nat) : Refines cfg vol (G.notePvh (rawIo cfg) t n) (G.notePvh contractIo t n) := by
  unfold G.notePvh
  split
  · exact bind (readExact _ _) fun _ => pure _
  · exact pure _

theorem noteLoop (ph : Phdr) (fuel r : Nat) :
    Refines cfg vol (G.noteLoop (rawIo cfg) ph fuel r) (G.noteLoop contractIo ph fuel r) := by
  induction fuel generalizing r with
  | zero => exact ofRes .panic
  | succ fuel ih =>
    unfold G.noteLoop
    split
    · refine bind (readExact _ _) fun h => bind (notePvh _ _) fun f => ?_
      split
      · exact pure _
      · exact bind (ofRes _) fun rs => bind (ofRes _) fun p => bind (seekStart _ _) fun _ => ih rs
    · exact pure _

theorem parseNote (ph : Phdr) : Refines cfg vol (G.parseNote (rawIo cfg) ph) (G.parseNote contractIo ph) := by
  unfold G.parseNote
  refine bind (seekStart _ _) fun _ => bind (noteLoop _ _ _) fun r => ?_
  cases r with
  | none => exact pure _
  | some n =>
    exact bind (ofRes _) fun na => bind (seekCur _ _) fun _ => bind (require _ _) fun _ =>
      bind (readExact _ _) fun _ => pure _

theorem readPhdrs (n : Nat) : Refines cfg vol (G.readPhdrs (rawIo cfg) n) (G.readPhdrs contractIo n) := by
  induction n with
  | zero => exact pure _
  | succ n ih => exact bind (readExact _ _) fun _ => bind ih fun _ => pure _

theorem loadSegment (koff : Option GuestAddr) (ph : Phdr) (kend : Nat) :
    Refines cfg vol (G.loadSegment (rawIo cfg) koff ph kend) (G.loadSegment contractIo koff ph kend) :=
  bind (seekStart _ _) fun _ => bind (okOr _ _) fun _ => bind (readIntoMem _ _ _) fun _ =>
    bind (okOr _ _) fun _ => pure _

theorem loadSegments (koff : Option GuestAddr) (phs : List Phdr) (kend : Nat) (cap : PvhCap) :
    Refines cfg vol (G.loadSegments (rawIo cfg) koff phs kend cap)
      (G.loadSegments contractIo koff phs kend cap) := by
  induction phs generalizing kend cap with
  | nil => exact pure _
  | cons ph phs ih =>
    unfold G.loadSegments
    split
    · split
      · cases koff with
        | some k => exact ih _ _
        | none => exact bind (parseNote _) fun c => ih _ _
      · exact ih _ _
    · exact bind (loadSegment _ _ _) fun e => ih _ _

theorem elfLoad (koff highmem : Option GuestAddr) :
    Refines cfg vol (G.elfLoad (rawIo cfg) koff highmem) (LinuxLoader.elfLoad koff highmem) := by
  rw [← same_elfLoad]
  refine bind (seekStart _ _) fun _ => bind (readExact _ _) fun eh => bind (ofRes _) fun _ =>
    bind ?_ fun _ => bind ?_ fun _ => bind (seekStart _ _) fun _ => bind (readPhdrs _) fun _ =>
    bind (loadSegments _ _ _ _) fun _ => pure _
  · cases highmem
    · exact pure _
    · exact require _ _
  · cases koff
    · exact pure _
    · exact okOr _ _

theorem bzLoad (koff highmem : Option GuestAddr) :
    Refines cfg true (G.bzLoad (rawIo cfg) koff highmem) (LinuxLoader.bzLoad koff highmem) := by
  rw [← same_bzLoad]
  refine bind (seekEnd _) fun size => bind (seekStart _ _) fun _ => bind (readVolatile _ _) fun h =>
    bind (require _ _) fun _ => bind (require _ _) fun _ => bind (okOr _ _) fun _ =>
    bind (okOr _ _) fun _ => bind ?_ fun _ => bind (seekStart _ _) fun _ =>
    bind (readIntoMem _ _ _) fun _ => bind (okOr _ _) fun _ => pure _
  cases highmem
  · exact pure _
  · exact require _ _

theorem peLoad (arch : PeArch) (koff highmem : Option GuestAddr) :
    Refines cfg vol (G.peLoad (rawIo cfg) arch koff highmem) (LinuxLoader.peLoad arch koff highmem) := by
  rw [← same_peLoad]
  refine bind (seekEnd _) fun size => bind (seekStart _ _) fun _ => bind (readExact _ _) fun h =>
    bind (require _ _) fun _ => bind ?_ fun _ => bind (okOr _ _) fun _ =>
    bind (seekStart _ _) fun _ => bind (readIntoMem _ _ _) fun _ => bind (okOr _ _) fun _ => pure _
  cases koff
  · exact pure _
  · exact require _ _

theorem loadDtb (a : GuestAddr) :
    Refines cfg vol (G.loadDtb (rawIo cfg) a) (LinuxLoader.loadDtb a) := by
  rw [← same_loadDtb]
  exact bind (seekEnd _) fun size => bind (require _ _) fun _ => bind (seekStart _ _) fun _ =>
    readIntoMem _ _ _

end Refines

/-! ## Termination -/

/-- The computation does not depend on the bound if that is large enough, and does not hang. -/
def Stops {ε α : Type} (sl : Bool) (x : RawCfg → LM RawLS ε α) : Prop :=
  ∀ s : RawLS, s.hung = false → s.Recovers →
    ∃ F r, (∀ fuel, F ≤ fuel → x ⟨fuel, sl⟩ s = r) ∧ r.2.hung = false ∧ r.2.raw = s.raw

namespace Stops
variable {ε α β : Type} {sl : Bool}

theorem const {x : LM RawLS ε α} (h : ∀ s, (x s).2.hung = s.hung ∧ (x s).2.raw = s.raw) :
    Stops sl fun _ => x :=
  fun s hs _ => ⟨0, x s, fun _ _ => rfl, (h s).1.trans hs, (h s).2⟩

theorem ofRes (r : Res ε α) : Stops sl fun _ => (LM.ofRes r : LM RawLS ε α) := const fun _ => ⟨rfl, rfl⟩
theorem pure (a : α) : Stops sl fun _ => (Pure.pure a : LM RawLS ε α) := ofRes (.ok a)

theorem okOr (o : Option α) (e : ε) : Stops sl fun _ => (LM.okOr o e : LM RawLS ε α) := by
  cases o
  · exact ofRes (.err e)
  · exact ofRes (.ok _)

theorem require (c : Bool) (e : ε) : Stops sl fun _ => (LM.require c e : LM RawLS ε Unit) := by
  cases c
  · exact ofRes (.err e)
  · exact ofRes (.ok _)

theorem bind {x : RawCfg → LM RawLS ε α} {f : RawCfg → α → LM RawLS ε β}
    (hx : Stops sl x) (hf : ∀ a, Stops sl fun c => f c a) : Stops sl fun c => x c >>= f c := by
  intro s hs hr
  obtain ⟨F, ⟨o, s₁⟩, h1, h2, h3⟩ := hx s hs hr
  cases o with
  | ok a =>
    obtain ⟨F', r', j1, j2, j3⟩ := hf a s₁ h2 (by unfold RawLS.Recovers at *; rw [h3]; exact hr)
    refine ⟨max F F', r', fun fuel hfu => ?_, j2, j3.trans h3⟩
    show (x ⟨fuel, sl⟩ >>= f ⟨fuel, sl⟩) s = r'
    rw [LM.bind_ok (h1 fuel (by omega))]
    exact j1 fuel (by omega)
  | err e =>
    refine ⟨F, (.err e, s₁), fun fuel hfu => ?_, h2, h3⟩
    exact LM.bind_err (h1 fuel hfu)
  | panic =>
    refine ⟨F, (.panic, s₁), fun fuel hfu => ?_, h2, h3⟩
    exact LM.bind_panic (h1 fuel hfu)

theorem rawSeek_keep (p : Option Nat) (e : ε) (s : RawLS) :
    (rawSeek p e s).2.hung = s.hung ∧ (rawSeek p e s).2.raw = s.raw := by
  unfold rawSeek; split <;> exact ⟨rfl, rfl⟩

theorem seekStart (p : Nat) (e : ε) : Stops sl fun c => (rawIo c).seekStart p e :=
  const (rawSeek_keep _ e)

theorem seekCur (d : Int) (e : ε) : Stops sl fun c => (rawIo c).seekCur d e :=
  const fun s => rawSeek_keep _ e s

theorem seekEnd (e : ε) : Stops sl fun c => (rawIo c).seekEnd e := by
  refine const fun s => ?_
  show ((rawSeek (some s.data.length) e >>= fun _ => Pure.pure s.data.length) s).2.hung = s.hung ∧
    ((rawSeek (some s.data.length) e >>= fun _ => Pure.pure s.data.length) s).2.raw = s.raw
  rw [LM.bind_def]
  unfold rawSeek
  cases s.raw s.clock <;> exact ⟨rfl, rfl⟩

theorem readVolatile (n : Nat) (e : ε) : Stops sl fun c => (rawIo c).readVolatile n e := by
  refine const fun s => ?_
  dsimp only [rawIo]
  cases s.raw s.clock <;> exact ⟨rfl, rfl⟩

/-- A loop stops. -/
def Ends {γ : Type} (x : Nat → RawLS → γ × RawLS) : Prop :=
  ∀ s : RawLS, s.hung = false → s.Recovers →
    ∃ F r, (∀ fuel, F ≤ fuel → x fuel s = r) ∧ r.2.hung = false ∧ r.2.raw = s.raw

/-- It is enough to look at states in which the next call is not interrupted. -/
theorem Ends.skip {γ : Type} {x : Nat → RawLS → γ × RawLS}
    (hi : ∀ fuel (s : RawLS), s.raw s.clock = .intr → x (fuel + 1) s = x fuel (s.tick s.pos))
    (hn : ∀ s : RawLS, s.hung = false → s.Recovers → s.raw s.clock ≠ .intr →
      ∃ F r, (∀ fuel, F ≤ fuel → x fuel s = r) ∧ r.2.hung = false ∧ r.2.raw = s.raw) : Ends x := by
  have key : ∀ d (s : RawLS), s.hung = false → s.Recovers → s.raw (s.clock + d) ≠ .intr →
      ∃ F r, (∀ fuel, F ≤ fuel → x fuel s = r) ∧ r.2.hung = false ∧ r.2.raw = s.raw := by
    intro d
    induction d with
    | zero => exact fun s hs hr h => hn s hs hr h
    | succ d ih =>
      intro s hs hr h
      cases hc : s.raw s.clock with
      | intr =>
        obtain ⟨F, r, h1, h2, h3⟩ := ih (s.tick s.pos) hs hr (by
          show s.raw (s.clock + 1 + d) ≠ _
          rw [show s.clock + 1 + d = s.clock + (d + 1) by omega]
          exact h)
        refine ⟨F + 1, r, fun fuel hf => ?_, h2, h3⟩
        obtain ⟨f, rfl⟩ : ∃ f, fuel = f + 1 := ⟨fuel - 1, by omega⟩
        rw [hi f s hc]
        exact h1 f (by omega)
      | give k => exact hn s hs hr (by rw [hc]; simp)
      | fail => exact hn s hs hr (by rw [hc]; simp)
  intro s hs hr
  obtain ⟨j, hj, hne⟩ := hr s.clock
  refine key (j - s.clock) s hs hr ?_
  rw [show s.clock + (j - s.clock) = j by omega]
  exact hne

theorem readRetry (n : Nat) : Ends (rawReadRetry n) := by
  refine Ends.skip (fun fuel s h => ?_) fun s hs hr hne => ?_
  · rw [rawReadRetry, h]
  · cases hc : s.raw s.clock with
    | intr => exact absurd hc hne
    | give k =>
      refine ⟨1, (some (s.rest.take (min (k + 1) n)),
        s.tick (s.pos + (s.rest.take (min (k + 1) n)).length)), fun fuel hf => ?_, hs, rfl⟩
      obtain ⟨f, rfl⟩ : ∃ f, fuel = f + 1 := ⟨fuel - 1, by omega⟩
      rw [rawReadRetry, hc]
    | fail =>
      refine ⟨1, (none, s.tick s.pos), fun fuel hf => ?_, hs, rfl⟩
      obtain ⟨f, rfl⟩ : ∃ f, fuel = f + 1 := ⟨fuel - 1, by omega⟩
      rw [rawReadRetry, hc]

theorem readExactLoop (n : Nat) (acc : List UInt8) : Ends fun fuel => rawReadExact fuel n acc := by
  induction n using Nat.strongRecOn generalizing acc with
  | ind n ih =>
    cases n with
    | zero =>
      intro s hs hr
      refine ⟨0, (some acc, s), fun fuel _ => ?_, hs, rfl⟩
      cases fuel <;> rfl
    | succ n =>
      refine Ends.skip (fun fuel s h => ?_) fun s hs hr hne => ?_
      · rw [rawReadExact, h]
      · cases hc : s.raw s.clock with
        | intr => exact absurd hc hne
        | fail =>
          refine ⟨1, (none, s.tick s.pos), fun fuel hf => ?_, hs, rfl⟩
          obtain ⟨f, rfl⟩ : ∃ f, fuel = f + 1 := ⟨fuel - 1, by omega⟩
          show rawReadExact (f + 1) (n + 1) acc s = _
          rw [rawReadExact, hc]
        | give k =>
          by_cases hg : s.rest.take (min (k + 1) (n + 1)) = []
          · refine ⟨1, (none, s.tick (s.pos + (s.rest.take (min (k + 1) (n + 1))).length)),
              fun fuel hf => ?_, hs, rfl⟩
            obtain ⟨f, rfl⟩ : ∃ f, fuel = f + 1 := ⟨fuel - 1, by omega⟩
            show rawReadExact (f + 1) (n + 1) acc s = _
            rw [rawReadExact, hc]
            dsimp only
            rw [if_pos hg]
          · have hlen : 0 < (s.rest.take (min (k + 1) (n + 1))).length := List.length_pos_iff.2 hg
            obtain ⟨F, r, h1, h2, h3⟩ := ih (n + 1 - (s.rest.take (min (k + 1) (n + 1))).length) (by omega)
              (acc ++ s.rest.take (min (k + 1) (n + 1)))
              (s.tick (s.pos + (s.rest.take (min (k + 1) (n + 1))).length)) hs hr
            refine ⟨F + 1, r, fun fuel hf => ?_, h2, h3⟩
            obtain ⟨f, rfl⟩ : ∃ f, fuel = f + 1 := ⟨fuel - 1, by omega⟩
            show rawReadExact (f + 1) (n + 1) acc s = _
            rw [rawReadExact, hc]
            dsimp only
            rw [if_neg hg]
            exact h1 f (by omega)

theorem readExact (n : Nat) (e : ε) : Stops sl fun c => (rawIo c).readExact n e := by
  intro s hs hr
  obtain ⟨F, ⟨o, s'⟩, h1, h2, h3⟩ := readExactLoop n [] s hs hr
  refine ⟨F, (match o with | some b => .ok b | none => .err e, s'), fun fuel hf => ?_, h2, h3⟩
  have := h1 fuel hf
  dsimp only [rawIo] at this ⊢
  rw [this]
  cases o <;> rfl

theorem regionRead (total len cur : Nat) : Ends fun fuel => rawRegionRead fuel total len cur := by
  intro s hs hr
  obtain ⟨F, ⟨o, s'⟩, h1, h2, h3⟩ := readRetry len s hs hr
  cases o with
  | none =>
    refine ⟨F, (none, s'), fun fuel hf => ?_, h2, h3⟩
    dsimp only
    unfold rawRegionRead
    rw [h1 fuel hf]
  | some got =>
    refine ⟨F, (some got.length, { s' with mem := s'.mem.store cur got }), fun fuel hf => ?_, h2, h3⟩
    dsimp only
    unfold rawRegionRead
    rw [h1 fuel hf]

theorem access (rs : List Region) (count : Nat) : ∀ (m cur total : Nat),
    Ends fun fuel => tryAccess rs count (rawRegionRead fuel) m cur total := by
  intro m
  induction m with
  | zero => intro cur total s hs hr; exact ⟨0, (none, s), fun _ _ => rfl, hs, rfl⟩
  | succ m ih =>
    intro cur total s hs hr
    cases hf : findRegion rs cur with
    | none =>
      refine ⟨0, (if total = 0 then none else some total, s), fun _ _ => ?_, hs, rfl⟩
      dsimp only
      rw [tryAccess, hf]
    | some r =>
      obtain ⟨F, ⟨o, s'⟩, h1, h2, h3⟩ :=
        regionRead total (min (r.start + r.len - cur) (count - total)) cur s hs hr
      have hr' : s'.Recovers := by unfold RawLS.Recovers at *; rw [h3]; exact hr
      have step : ∀ fuel, F ≤ fuel → tryAccess rs count (rawRegionRead fuel) (m + 1) cur total s =
          match (o, s') with
          | (none, s') => (none, s')
          | (some 0, s') => (some total, s')
          | (some (n + 1), s') =>
            if total + (n + 1) < count then
              tryAccess rs count (rawRegionRead fuel) m (cur + (n + 1)) (total + (n + 1)) s'
            else if total + (n + 1) = count then (some count, s')
            else (none, s') := by
        intro fuel hfu
        rw [tryAccess, hf]
        dsimp only
        rw [show rawRegionRead fuel total (min (r.start + r.len - cur) (count - total)) cur s = (o, s') from
          h1 fuel hfu]
        rcases o with _ | _ | n <;> rfl
      rcases o with _ | _ | n
      · exact ⟨F, (none, s'), fun fuel hfu => step fuel hfu, h2, h3⟩
      · exact ⟨F, (some total, s'), fun fuel hfu => step fuel hfu, h2, h3⟩
      · dsimp only at step
        by_cases hc : total + (n + 1) < count
        · obtain ⟨F', r', j1, j2, j3⟩ := ih (cur + (n + 1)) (total + (n + 1)) s' h2 hr'
          refine ⟨max F F', r', fun fuel hfu => ?_, j2, j3.trans h3⟩
          refine (step fuel (by omega)).trans ?_
          rw [if_pos hc]
          exact j1 fuel (by omega)
        · by_cases hd : total + (n + 1) = count
          · refine ⟨F, (some count, s'), fun fuel hfu => ?_, h2, h3⟩
            refine (step fuel hfu).trans ?_
            rw [if_neg hc, if_pos hd]
          · refine ⟨F, (none, s'), fun fuel hfu => ?_, h2, h3⟩
            refine (step fuel hfu).trans ?_
            rw [if_neg hc, if_neg hd]

theorem slices (l : List (Nat × Nat)) (total : Nat) : Ends fun fuel => rawReadSlices fuel l total := by
  induction l generalizing total with
  | nil => intro s hs hr; exact ⟨0, (some total, s), fun _ _ => rfl, hs, rfl⟩
  | cons q l ih =>
    obtain ⟨a, len⟩ := q
    intro s hs hr
    obtain ⟨F, ⟨o, s'⟩, h1, h2, h3⟩ := readRetry len s hs hr
    cases o with
    | none =>
      refine ⟨F, (none, s'), fun fuel hf => ?_, h2, h3⟩
      dsimp only
      rw [rawReadSlices, h1 fuel hf]
    | some got =>
      obtain ⟨F', r', j1, j2, j3⟩ := ih (total + got.length) { s' with mem := s'.mem.store a got } h2
        (by unfold RawLS.Recovers at *; dsimp only at h3 ⊢; rw [h3]; exact hr)
      refine ⟨max F F', r', fun fuel hf => ?_, j2, j3.trans h3⟩
      dsimp only
      rw [rawReadSlices, h1 fuel (by omega)]
      exact j1 fuel (by omega)

theorem readIntoMem (a n : Nat) (e : ε) : Stops sl fun c => (rawIo c).readIntoMem a n e := by
  intro s hs hr
  have key : ∃ F r, (∀ fuel, F ≤ fuel → rawReadFrom ⟨fuel, sl⟩ a n s = r) ∧ r.2.hung = false ∧
      r.2.raw = s.raw := by
    unfold rawReadFrom
    cases sl with
    | true =>
      simp only [if_true]
      cases stopOnError (getSlices s.mem.regions (n + 1) a n) with
      | none => exact ⟨0, (none, s), fun _ _ => rfl, hs, rfl⟩
      | some l => exact slices l 0 s hs hr
    | false =>
      simp only [Bool.false_eq_true, if_false]
      exact access s.mem.regions n (n + 1) a 0 s hs hr
  obtain ⟨F, r, h1, h2, h3⟩ := key
  refine ⟨F, (if r.1 = some n then .ok () else .err e, r.2), fun fuel hf => ?_, h2, h3⟩
  dsimp only [rawIo]
  rw [h1 fuel hf]

theorem notePvh (t n : Nat) : Stops sl fun c => G.notePvh (rawIo c) t n := by
  unfold G.notePvh
  by_cases h : t = 18 ∧ n = 4
  · simp only [if_pos h]
    exact bind (readExact _ _) fun _ => pure _
  · simp only [if_neg h]
    exact pure _

theorem noteLoop (ph : Phdr) (fuel r : Nat) : Stops sl fun c => G.noteLoop (rawIo c) ph fuel r := by
  induction fuel generalizing r with
  | zero => exact ofRes .panic
  | succ fuel ih =>
    unfold G.noteLoop
    by_cases h : r < ph.filesz
    · simp only [if_pos h]
      refine bind (readExact _ _) fun h => bind (notePvh _ _) fun f => ?_
      cases f with
      | true => exact pure _
      | false =>
        exact bind (ofRes _) fun rs => bind (ofRes _) fun p => bind (seekStart _ _) fun _ => ih rs
    · simp only [if_neg h]
      exact pure _

theorem parseNote (ph : Phdr) : Stops sl fun c => G.parseNote (rawIo c) ph := by
  unfold G.parseNote
  refine bind (seekStart _ _) fun _ => bind (noteLoop _ _ _) fun r => ?_
  cases r with
  | none => exact pure _
  | some n =>
    exact bind (ofRes _) fun na => bind (seekCur _ _) fun _ => bind (require _ _) fun _ =>
      bind (readExact _ _) fun _ => pure _

theorem readPhdrs (n : Nat) : Stops sl fun c => G.readPhdrs (rawIo c) n := by
  induction n with
  | zero => exact pure _
  | succ n ih => exact bind (readExact _ _) fun _ => bind ih fun _ => pure _

theorem loadSegment (koff : Option GuestAddr) (ph : Phdr) (kend : Nat) :
    Stops sl fun c => G.loadSegment (rawIo c) koff ph kend :=
  bind (seekStart _ _) fun _ => bind (okOr _ _) fun _ => bind (readIntoMem _ _ _) fun _ =>
    bind (okOr _ _) fun _ => pure _

theorem loadSegments (koff : Option GuestAddr) (phs : List Phdr) (kend : Nat) (cap : PvhCap) :
    Stops sl fun c => G.loadSegments (rawIo c) koff phs kend cap := by
  induction phs generalizing kend cap with
  | nil => exact pure _
  | cons ph phs ih =>
    unfold G.loadSegments
    by_cases h : ph.type ≠ PT_LOAD ∨ ph.filesz = 0
    · simp only [if_pos h]
      by_cases hn : ph.type = PT_NOTE
      · simp only [if_pos hn]
        cases koff with
        | some k => exact ih _ _
        | none => exact bind (parseNote _) fun c => ih _ _
      · simp only [if_neg hn]
        exact ih _ _
    · simp only [if_neg h]
      exact bind (loadSegment _ _ _) fun e => ih _ _

theorem elfLoad (koff highmem : Option GuestAddr) : Stops sl fun c => G.elfLoad (rawIo c) koff highmem := by
  refine bind (seekStart _ _) fun _ => bind (readExact _ _) fun eh => bind (ofRes _) fun _ =>
    bind ?_ fun _ => bind ?_ fun _ => bind (seekStart _ _) fun _ => bind (readPhdrs _) fun _ =>
    bind (loadSegments _ _ _ _) fun _ => pure _
  · cases highmem
    · exact pure _
    · exact require _ _
  · cases koff
    · exact pure _
    · exact okOr _ _

theorem bzLoad (koff highmem : Option GuestAddr) : Stops sl fun c => G.bzLoad (rawIo c) koff highmem := by
  refine bind (seekEnd _) fun size => bind (seekStart _ _) fun _ => bind (readVolatile _ _) fun h =>
    bind (require _ _) fun _ => bind (require _ _) fun _ => bind (okOr _ _) fun _ =>
    bind (okOr _ _) fun _ => bind ?_ fun _ => bind (seekStart _ _) fun _ =>
    bind (readIntoMem _ _ _) fun _ => bind (okOr _ _) fun _ => pure _
  cases highmem
  · exact pure _
  · exact require _ _

theorem peLoad (arch : PeArch) (koff highmem : Option GuestAddr) :
    Stops sl fun c => G.peLoad (rawIo c) arch koff highmem := by
  refine bind (seekEnd _) fun size => bind (seekStart _ _) fun _ => bind (readExact _ _) fun h =>
    bind (require _ _) fun _ => bind ?_ fun _ => bind (okOr _ _) fun _ =>
    bind (seekStart _ _) fun _ => bind (readIntoMem _ _ _) fun _ => bind (okOr _ _) fun _ => pure _
  cases koff
  · exact pure _
  · exact require _ _

theorem loadDtb (a : GuestAddr) : Stops sl fun c => G.loadDtb (rawIo c) a :=
  bind (seekEnd _) fun _ => bind (require _ _) fun _ => bind (seekStart _ _) fun _ =>
    readIntoMem _ _ _

end Stops

end LinuxLoader
