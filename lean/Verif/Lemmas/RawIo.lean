import Verif.Model.IoLoaders
import Verif.Spec.RawIo
import Verif.Lemmas.RegionWalk
import Verif.Lemmas.Reader

/-! # Lemmas: runs over single system calls are runs of the contract -/

namespace LinuxLoader
open Spec

/-! ## The code over the contract is the code -/

section Same

theorem bcongr {σ ε α β : Type} {x y : LM σ ε α} {f g : α → LM σ ε β} (h : x = y) (hf : ∀ a, f a = g a) :
    (x >>= f) = (y >>= g) := by
  rw [h, funext hf]

theorem same_notePvh (t n : Nat) : G.notePvh contractIo t n = notePvh t n := rfl

theorem same_noteLoop (ph : Phdr) (fuel r : Nat) : G.noteLoop contractIo ph fuel r = noteLoop ph fuel r := by
  induction fuel generalizing r with
  | zero => rfl
  | succ fuel ih =>
    unfold G.noteLoop noteLoop
    split
    · refine bcongr rfl fun h => bcongr rfl fun f => ?_
      split
      · rfl
      · exact bcongr rfl fun rs => bcongr rfl fun p => bcongr rfl fun _ => ih rs
    · rfl

theorem same_parseNote (ph : Phdr) : G.parseNote contractIo ph = parseNote ph := by
  unfold G.parseNote parseNote
  refine bcongr rfl fun _ => bcongr (same_noteLoop _ _ _) fun r => ?_
  cases r <;> rfl

theorem same_readPhdrs (n : Nat) : G.readPhdrs contractIo n = readPhdrs n := by
  induction n with
  | zero => rfl
  | succ n ih => exact bcongr rfl fun _ => bcongr ih fun _ => rfl

theorem same_loadSegments (koff : Option GuestAddr) (phs : List Phdr) (kend : Nat) (cap : PvhCap) :
    G.loadSegments contractIo koff phs kend cap = loadSegments koff phs kend cap := by
  induction phs generalizing kend cap with
  | nil => rfl
  | cons ph phs ih =>
    unfold G.loadSegments loadSegments
    split
    · split
      · cases koff with
        | some k => exact ih _ _
        | none => exact bcongr (same_parseNote _) fun c => ih _ _
      · exact ih _ _
    · exact bcongr rfl fun e => ih _ _

theorem same_elfLoad (koff highmem : Option GuestAddr) :
    G.elfLoad contractIo koff highmem = elfLoad koff highmem := by
  refine bcongr rfl fun _ => bcongr rfl fun eh => bcongr rfl fun _ => bcongr ?_ fun _ => bcongr ?_ fun _ =>
    bcongr rfl fun _ => bcongr (same_readPhdrs _) fun _ => bcongr (same_loadSegments _ _ _ _) fun _ => rfl
  · cases highmem <;> rfl
  · cases koff <;> rfl

theorem same_bzLoad (koff highmem : Option GuestAddr) :
    G.bzLoad contractIo koff highmem = bzLoad koff highmem := by
  cases koff <;> cases highmem <;> rfl

theorem same_peLoad (arch : PeArch) (koff highmem : Option GuestAddr) :
    G.peLoad contractIo arch koff highmem = peLoad arch koff highmem := by
  cases koff <;> rfl

theorem same_loadDtb (a : GuestAddr) : G.loadDtb contractIo a = loadDtb a := rfl

end Same

/-! ## Refinement -/

/-- Failures can be seen only if a call fails or is interrupted or, with `get_slices`, for short reads.
Short reads can be seen only by a single read (`vol`). Transfers can scatter bytes only with `get_slices`,
at least two regions, and short reads. -/
def EventOk (cfg : RawCfg) (vol : Bool) (s : RawLS) : IoEvent → Prop
  | .ok => True
  | .fail _ => ¬ (s.Smooth ∧ (cfg.slices = false ∨ s.Full))
  | .short _ => ¬ s.Full ∧ vol = true
  | .scatter _ => ¬ s.Full ∧ cfg.slices = true ∧ 2 ≤ s.mem.regions.length

/-- What a computation does not change. -/
def RawLS.Same (s t : RawLS) : Prop :=
  t.data = s.data ∧ t.raw = s.raw ∧ SameLayout s.mem t.mem

/-- Every run of `x` that does not hang is a run of `y` for suitable I/O events. -/
structure Refines {ε α : Type} (cfg : RawCfg) (vol : Bool) (x : LM RawLS ε α) (y : LM LS ε α) : Prop where
  hung : ∀ s : RawLS, s.hung = true → (x s).2.hung = true
  same : ∀ s : RawLS, s.Same (x s).2
  run : ∀ s : RawLS, s.mem.emptyOk = cfg.slices → (x s).2.hung = false →
    ∃ es : List IoEvent, (∀ e ∈ es, EventOk cfg vol s e) ∧
      ∀ sched clk, (∀ i e, es[i]? = some e → sched (clk + i) = e) →
        (y ⟨⟨s.data, s.pos, sched, clk⟩, s.mem⟩).1 = (x s).1 ∧
        (y ⟨⟨s.data, s.pos, sched, clk⟩, s.mem⟩).2.mem = (x s).2.mem ∧
        ((x s).1.isOk = true → (y ⟨⟨s.data, s.pos, sched, clk⟩, s.mem⟩).2.rd =
          ⟨s.data, (x s).2.pos, sched, clk + es.length⟩)

theorem RawLS.Same.refl (s : RawLS) : s.Same s := ⟨rfl, rfl, rfl, rfl⟩

theorem RawLS.Same.trans {s t u : RawLS} (h : s.Same t) (h' : t.Same u) : s.Same u :=
  ⟨h'.1.trans h.1, h'.2.1.trans h.2.1, h'.2.2.1.trans h.2.2.1, h'.2.2.2.trans h.2.2.2⟩

theorem EventOk.same {cfg : RawCfg} {vol : Bool} {s t : RawLS} (h : s.Same t) {e : IoEvent} (he : EventOk cfg vol t e) :
    EventOk cfg vol s e := by
  have hf : t.Full ↔ s.Full := by unfold RawLS.Full; rw [h.1, h.2.1]
  cases e with
  | ok => exact trivial
  | fail k =>
    refine fun hh => he ⟨?_, hh.2.imp id hf.2⟩
    intro i
    rw [h.2.1]
    exact hh.1 i
  | short k => exact ⟨fun hh => he.1 (hf.2 hh), he.2⟩
  | scatter w => exact ⟨fun hh => he.1 (hf.2 hh), he.2.1, by rw [← h.2.2.1]; exact he.2.2⟩

namespace Refines
variable {ε α β : Type} {cfg : RawCfg} {vol : Bool}

theorem ofRes (r : Res ε α) : Refines cfg vol (LM.ofRes r : LM RawLS ε α) (LM.ofRes r) where
  hung := fun _ h => h
  same := fun s => .refl s
  run := fun s _ _ => ⟨[], by simp, fun sched clk _ => ⟨rfl, rfl, fun _ => rfl⟩⟩

theorem pure (a : α) : Refines cfg vol (Pure.pure a : LM RawLS ε α) (Pure.pure a) := ofRes (.ok a)

theorem okOr (o : Option α) (e : ε) : Refines cfg vol (LM.okOr o e : LM RawLS ε α) (LM.okOr o e) := by
  cases o
  · exact ofRes (.err e)
  · exact ofRes (.ok _)

theorem require (c : Bool) (e : ε) : Refines cfg vol (LM.require c e : LM RawLS ε Unit) (LM.require c e) := by
  cases c
  · exact ofRes (.err e)
  · exact ofRes (.ok _)

theorem bind {x : LM RawLS ε α} {y : LM LS ε α} {f : α → LM RawLS ε β} {g : α → LM LS ε β}
    (hx : Refines cfg vol x y) (hf : ∀ a, Refines cfg vol (f a) (g a)) : Refines cfg vol (x >>= f) (y >>= g) where
  hung := fun s h => by
    have := hx.hung s h
    rw [LM.bind_def]
    rcases hxs : x s with ⟨r, s₁⟩
    rw [hxs] at this
    cases r with
    | ok a => exact (hf a).hung s₁ this
    | err e => exact this
    | panic => exact this
  same := fun s => by
    have := hx.same s
    rw [LM.bind_def]
    rcases hxs : x s with ⟨r, s₁⟩
    rw [hxs] at this
    cases r with
    | ok a => exact this.trans ((hf a).same s₁)
    | err e => exact this
    | panic => exact this
  run := fun s hm hh => by
    have hsame := hx.same s
    have hrun := hx.run s hm
    rw [LM.bind_def] at hh ⊢
    rcases hxs : x s with ⟨r, s₁⟩
    rw [hxs] at hh hsame hrun
    dsimp only at hsame hrun
    cases r with
    | ok a =>
      dsimp only at hh ⊢
      have h1 : s₁.hung = false := by
        cases h1 : s₁.hung with
        | false => rfl
        | true => rw [(hf a).hung s₁ h1] at hh; exact hh
      obtain ⟨es, he, hy⟩ := hrun h1
      obtain ⟨es', he', hg⟩ := (hf a).run s₁ (hsame.2.2.2.trans hm) hh
      refine ⟨es ++ es', ?_, fun sched clk hs => ?_⟩
      · intro e hmem
        rcases List.mem_append.1 hmem with h | h
        · exact he e h
        · exact (he' e h).same hsame
      · obtain ⟨k1, k2, k3⟩ := hy sched clk fun i e hi => hs i e (by
          rw [List.getElem?_append_left]
          · exact hi
          · exact (List.getElem?_eq_some_iff.1 hi).1)
        obtain ⟨j1, j2, j3⟩ := hg sched (clk + es.length) fun i e hi => by
          rw [Nat.add_assoc]
          refine hs _ e ?_
          rw [List.getElem?_append_right (by omega)]
          rw [show es.length + i - es.length = i by omega]
          exact hi
        have hst : y ⟨⟨s.data, s.pos, sched, clk⟩, s.mem⟩ =
            (.ok a, ⟨⟨s₁.data, s₁.pos, sched, clk + es.length⟩, s₁.mem⟩) := by
          refine Prod.ext k1 ?_
          have h3 := k3 rfl
          rcases hy2 : (y ⟨⟨s.data, s.pos, sched, clk⟩, s.mem⟩).2 with ⟨rd, mm⟩
          rw [hy2] at k2 h3
          dsimp only at k2 h3
          rw [k2, h3, hsame.1]
        rw [LM.bind_ok hst, List.length_append]
        refine ⟨j1, j2, fun hok => ?_⟩
        rw [j3 hok, hsame.1, Nat.add_assoc]
    | err e =>
      obtain ⟨es, he, hy⟩ := hrun hh
      refine ⟨es, he, fun sched clk hs => ?_⟩
      obtain ⟨k1, k2, -⟩ := hy sched clk hs
      rw [LM.bind_err (e := e) (s' := (y ⟨⟨s.data, s.pos, sched, clk⟩, s.mem⟩).2) (Prod.ext k1 rfl)]
      exact ⟨rfl, k2, fun h => by cases h⟩
    | panic =>
      obtain ⟨es, he, hy⟩ := hrun hh
      refine ⟨es, he, fun sched clk hs => ?_⟩
      obtain ⟨k1, k2, -⟩ := hy sched clk hs
      rw [LM.bind_panic (s' := (y ⟨⟨s.data, s.pos, sched, clk⟩, s.mem⟩).2) (Prod.ext k1 rfl)]
      exact ⟨rfl, k2, fun h => by cases h⟩

end Refines

/-! ## Loops -/

theorem rawReadRetry_spec (n fuel : Nat) (s : RawLS) :
    (s.hung = true → (rawReadRetry n fuel s).2.hung = true) ∧ s.Same (rawReadRetry n fuel s).2 ∧
    (rawReadRetry n fuel s).2.mem = s.mem ∧
    ∀ got, (rawReadRetry n fuel s).1 = some got →
      got = s.rest.take got.length ∧ got.length ≤ n ∧ got.length ≤ s.rest.length ∧
      (rawReadRetry n fuel s).2.pos = s.pos + got.length ∧ (s.Full → got = s.rest.take n) := by
  induction fuel generalizing s with
  | zero => exact ⟨fun _ => rfl, ⟨rfl, rfl, rfl, rfl⟩, rfl, fun got h => by cases h⟩
  | succ fuel ih =>
    unfold rawReadRetry
    cases hr : s.raw s.clock with
    | give k =>
      refine ⟨fun h => h, ⟨rfl, rfl, rfl, rfl⟩, rfl, fun got h => ?_⟩
      cases h
      refine ⟨?_, by rw [List.length_take]; omega, by rw [List.length_take]; omega, rfl, fun hf => ?_⟩
      · rw [List.length_take, ← List.take_eq_take_min]
      · have h1 := hf _ _ hr
        have h2 : s.rest.length ≤ s.data.length := by unfold RawLS.rest; rw [List.length_drop]; omega
        rw [List.take_eq_take_min, List.take_eq_take_min (i := n)]
        congr 1
        omega
    | intr => exact ih (s.tick s.pos)
    | fail => exact ⟨fun h => h, ⟨rfl, rfl, rfl, rfl⟩, rfl, fun got h => by cases h⟩

theorem rest_tick (s : RawLS) (n : Nat) : (s.tick (s.pos + n)).rest = s.rest.drop n := by
  unfold RawLS.rest RawLS.tick; rw [List.drop_drop]

theorem rawReadExact_spec (fuel n : Nat) (acc : List UInt8) (s : RawLS) :
    (s.hung = true → (rawReadExact fuel n acc s).2.hung = true) ∧ s.Same (rawReadExact fuel n acc s).2 ∧
    (rawReadExact fuel n acc s).2.mem = s.mem ∧
    ∀ b, (rawReadExact fuel n acc s).1 = some b →
      b = acc ++ s.rest.take n ∧ n ≤ s.rest.length ∧ (rawReadExact fuel n acc s).2.pos = s.pos + n := by
  induction fuel generalizing n acc s with
  | zero =>
    cases n with
    | zero =>
      refine ⟨fun h => h, .refl s, rfl, fun b h => ?_⟩
      cases h
      simp [rawReadExact]
    | succ n => exact ⟨fun _ => rfl, ⟨rfl, rfl, rfl, rfl⟩, rfl, fun b h => by cases h⟩
  | succ fuel ih =>
    cases n with
    | zero =>
      refine ⟨fun h => h, .refl s, rfl, fun b h => ?_⟩
      cases h
      simp [rawReadExact]
    | succ n =>
      unfold rawReadExact
      cases hr : s.raw s.clock with
      | give k =>
        dsimp only
        split
        · exact ⟨fun h => h, ⟨rfl, rfl, rfl, rfl⟩, rfl, fun got h => by cases h⟩
        · generalize hgot : s.rest.take (min (k + 1) (n + 1)) = got
          have hlen : got.length = min (min (k + 1) (n + 1)) s.rest.length := by
            rw [← hgot, List.length_take]
          obtain ⟨h1, h2, h3, h4⟩ := ih (n + 1 - got.length) (acc ++ got) (s.tick (s.pos + got.length))
          refine ⟨fun h => h1 h, RawLS.Same.trans (t := s.tick (s.pos + got.length)) ⟨rfl, rfl, rfl, rfl⟩ h2,
            h3, fun b hb => ?_⟩
          obtain ⟨k1, k2, k3⟩ := h4 b hb
          rw [rest_tick] at k1 k2
          rw [List.length_drop] at k2
          refine ⟨?_, by omega, ?_⟩
          · rw [k1, List.append_assoc]
            congr 1
            have : got = s.rest.take got.length := by
              rw [← hgot, List.length_take, ← List.take_eq_take_min]
            conv => lhs; lhs; rw [this]
            rw [← List.take_add]
            congr 1
            omega
          · rw [k3]
            show s.pos + got.length + _ = _
            omega
      | intr => exact ih (n + 1) acc (s.tick s.pos)
      | fail => exact ⟨fun h => h, ⟨rfl, rfl, rfl, rfl⟩, rfl, fun got h => by cases h⟩

/-- A transfer that has put a contiguous prefix into memory. -/
def Contig (s : RawLS) (a n : Nat) (r : Option Nat × RawLS) : Prop :=
  ∃ T, T ≤ n ∧ T ≤ s.rest.length ∧ Mapped s.mem a T ∧ r.2.mem = s.mem.store a (s.rest.take T)

/-- What a successful transfer has done. -/
def Done (s : RawLS) (a n : Nat) (r : Option Nat × RawLS) : Prop :=
  n ≤ s.rest.length ∧ Mapped s.mem a n ∧ r.2.mem = s.mem.store a (s.rest.take n) ∧
    r.2.pos = s.pos + n

theorem mapped_add {m : Mem} {a i j : Nat} (h1 : Mapped m a i) (h2 : Mapped m (a + i) j) :
    Mapped m a (i + j) := by
  intro x hx
  unfold InRange at hx
  by_cases hxi : x < a + i
  · exact h1 x ⟨hx.1, hxi⟩
  · exact h2 x ⟨by omega, by omega⟩

theorem mapped_sameLayout {m m' : Mem} (h : SameLayout m m') {a n : Nat} : Mapped m' a n ↔ Mapped m a n := by
  unfold Mapped Mem.mapped; rw [h.1]

theorem regionRead_spec (fuel : Nat) (total len cur : Nat) (s : RawLS) :
    (s.hung = true → (rawRegionRead fuel total len cur s).2.hung = true) ∧
    s.Same (rawRegionRead fuel total len cur s).2 ∧
    ((rawRegionRead fuel total len cur s).1 = none → (rawRegionRead fuel total len cur s).2.mem = s.mem) ∧
    ∀ k, (rawRegionRead fuel total len cur s).1 = some k →
      k ≤ len ∧ k ≤ s.rest.length ∧ (rawRegionRead fuel total len cur s).2.pos = s.pos + k ∧
      (rawRegionRead fuel total len cur s).2.mem = s.mem.store cur (s.rest.take k) := by
  obtain ⟨h1, h2, h3, h4⟩ := rawReadRetry_spec len fuel s
  unfold rawRegionRead
  rcases hx : rawReadRetry len fuel s with ⟨r, s'⟩
  rw [hx] at h1 h2 h3 h4
  cases r with
  | none => exact ⟨h1, h2, fun _ => h3, fun k hk => by cases hk⟩
  | some got =>
    obtain ⟨k1, k2, k3, k4, -⟩ := h4 got rfl
    refine ⟨h1, ⟨h2.1, h2.2.1, h2.2.2.1, h2.2.2.2⟩, fun h => (by cases h), fun k hk => ?_⟩
    cases hk
    refine ⟨k2, k3, k4, ?_⟩
    dsimp only at h3 ⊢
    rw [h3, ← k1]

theorem tryAccess_read (F count a : Nat) (s₀ : RawLS) :
    ∀ (fuel total : Nat) (s : RawLS), (total < count ∨ total = 0) → total ≤ count →
      s₀.Same s → s.mem = s₀.mem.store a (s₀.rest.take total) → s.pos = s₀.pos + total →
      total ≤ s₀.rest.length → Mapped s₀.mem a total →
      let r := tryAccess s₀.mem.regions count (rawRegionRead F) fuel (a + total) total s
      (s.hung = true → r.2.hung = true) ∧ s₀.Same r.2 ∧ Contig s₀ a count r ∧
      (r.1 = some count → Done s₀ a count r ∧ (count = 0 → s₀.mem.mapped a = true)) := by
  intro fuel
  induction fuel with
  | zero =>
    intro total s h0 hle hsame hmem hpos hlen hmap
    exact ⟨fun h => h, hsame, ⟨total, hle, hlen, hmap, hmem⟩, fun h => by cases h⟩
  | succ fuel ih =>
    intro total s h0 hle hsame hmem hpos hlen hmap
    unfold tryAccess
    cases hr : findRegion s₀.mem.regions (a + total) with
    | none =>
      refine ⟨fun h => h, hsame, ⟨total, hle, hlen, hmap, hmem⟩, fun h => ?_⟩
      dsimp only at h
      split at h
      · cases h
      · cases h; omega
    | some r =>
      have hreg := findRegion_mapped hr
      have hx1 := (findRegion_some hr).2.2
      dsimp only
      generalize hl : min (r.start + r.len - (a + total)) (count - total) = len
      obtain ⟨g1, g2, g3, g4⟩ := regionRead_spec F total len (a + total) s
      rcases hx : rawRegionRead F total len (a + total) s with ⟨o, s'⟩
      rw [hx] at g1 g2 g3 g4
      dsimp only at g1 g2 g3 g4
      have hrest : s.rest = s₀.rest.drop total := by
        unfold RawLS.rest; rw [hsame.1, hpos, List.drop_drop]
      cases o with
      | none =>
        exact ⟨g1, hsame.trans g2, ⟨total, hle, hlen, hmap, (g3 rfl).trans hmem⟩, fun h => by cases h⟩
      | some k =>
        obtain ⟨k1, k2, k3, k4⟩ := g4 k rfl
        rw [hrest, List.length_drop] at k2
        have hmem' : s'.mem = s₀.mem.store a (s₀.rest.take (total + k)) := by
          rw [k4, hmem, hrest, store_take _ _ _ _ _ hlen]
        have hmap' : Mapped s₀.mem a (total + k) := mapped_add hmap fun x hx =>
          hreg x (by unfold InRange at *; omega)
        cases k with
        | zero =>
          refine ⟨g1, hsame.trans g2, ⟨total, hle, hlen, hmap, hmem'⟩, fun h => ?_⟩
          cases h
          refine ⟨⟨hlen, hmap, hmem', ?_⟩, fun h => ?_⟩
          · rw [k3, hpos]; rfl
          · subst h
            exact hreg a ⟨by omega, by omega⟩
        | succ n =>
          dsimp only
          by_cases hc : total + (n + 1) < count
          · rw [if_pos hc, Nat.add_assoc a]
            have := ih (total + (n + 1)) s' (.inl hc) (by omega) (hsame.trans g2) hmem'
              (by rw [k3, hpos, Nat.add_assoc]) (by omega) hmap'
            exact ⟨fun h => this.1 (g1 h), this.2⟩
          · rw [if_neg hc]
            by_cases hd : total + (n + 1) = count
            · rw [if_pos hd]
              rw [hd] at hmem' hmap'
              exact ⟨g1, hsame.trans g2, ⟨count, Nat.le_refl _, by omega, hmap', hmem'⟩, fun _ =>
                ⟨⟨by omega, hmap', hmem', by rw [k3, hpos]; omega⟩, fun h => by omega⟩⟩
            · omega

/-! ### Slices -/

theorem getSlices_in (m : Mem) : ∀ (fuel a n : Nat) (q : Nat × Nat), q ∈ (getSlices m.regions fuel a n).1 →
    a ≤ q.1 ∧ q.1 + q.2 ≤ a + n ∧ Mapped m q.1 q.2 := by
  intro fuel
  induction fuel with
  | zero => intro a n q hq; cases hq
  | succ fuel ih =>
    intro a n q hq
    unfold getSlices at hq
    by_cases h0 : n = 0
    · rw [if_pos h0] at hq; cases hq
    · rw [if_neg h0] at hq
      cases hr : findRegion m.regions a with
      | none => rw [hr] at hq; cases hq
      | some r =>
        rw [hr] at hq
        dsimp only at hq
        rcases List.mem_cons.1 hq with rfl | hq
        · refine ⟨Nat.le_refl _, by dsimp only; omega, fun x hx => findRegion_mapped hr x ?_⟩
          unfold InRange at *; dsimp only at hx; omega
        · obtain ⟨h1, h2, h3⟩ := ih _ _ q hq
          exact ⟨by omega, by omega, h3⟩

theorem getSlices_single (m : Mem) (h : m.regions.length ≤ 1) (fuel a n : Nat) :
    (getSlices m.regions fuel a n).1.length ≤ 1 := by
  cases fuel with
  | zero => simp [getSlices]
  | succ fuel =>
    unfold getSlices
    split
    · simp
    · cases hr : findRegion m.regions a with
      | none => simp
      | some r =>
        dsimp only
        obtain ⟨h1, h2, h3⟩ := findRegion_some hr
        have hone : m.regions = [r] := by
          cases hm : m.regions with
          | nil => rw [hm] at h1; cases h1
          | cons q t =>
            rw [hm] at h h1
            cases t with
            | nil => rw [List.mem_singleton.1 h1]
            | cons _ _ => simp at h
        have : (getSlices m.regions fuel (a + min (r.start + r.len - a) n)
            (n - min (r.start + r.len - a) n)).1 = [] := by
          cases fuel with
          | zero => rfl
          | succ fuel =>
            unfold getSlices
            by_cases hz : n - min (r.start + r.len - a) n = 0
            · rw [if_pos hz]
            · rw [if_neg hz]
              have : findRegion m.regions (a + min (r.start + r.len - a) n) = none := by
                rw [hone]
                unfold findRegion
                rw [List.find?_eq_none]
                intro q hq
                rw [List.mem_singleton.1 hq]
                simp only [Bool.and_eq_true, decide_eq_true_eq, not_and]
                omega
              rw [this]
        rw [List.length_cons, this]
        exact Nat.le_refl _

theorem readSlices_frame (F : Nat) : ∀ (l : List (Nat × Nat)) (total : Nat) (s : RawLS),
    let r := rawReadSlices F l total s
    (s.hung = true → r.2.hung = true) ∧ s.Same r.2 ∧
    ∀ x, (∀ q ∈ l, ¬ InRange q.1 q.2 x) → r.2.mem.data x = s.mem.data x := by
  intro l
  induction l with
  | nil => intro total s; exact ⟨fun h => h, .refl s, fun _ _ => rfl⟩
  | cons q l ih =>
    obtain ⟨a, len⟩ := q
    intro total s
    obtain ⟨h1, h2, h3, h4⟩ := rawReadRetry_spec len F s
    unfold rawReadSlices
    rcases hx : rawReadRetry len F s with ⟨r, s'⟩
    rw [hx] at h1 h2 h3 h4
    cases r with
    | none => exact ⟨h1, h2, fun _ _ => by dsimp only at h3 ⊢; rw [h3]⟩
    | some got =>
      obtain ⟨k1, k2, k3, k4, -⟩ := h4 got rfl
      obtain ⟨i1, i2, i3⟩ := ih (total + got.length) { s' with mem := s'.mem.store a got }
      refine ⟨fun h => i1 (h1 h), RawLS.Same.trans (t := { s' with mem := s'.mem.store a got })
        ⟨h2.1, h2.2.1, h2.2.2.1, h2.2.2.2⟩ i2, fun x hx => ?_⟩
      rw [i3 x fun q hq => hx q (by simp [hq])]
      dsimp only at h3 ⊢
      rw [store_frame, h3]
      have := hx (a, len) (by simp)
      unfold InRange at *
      dsimp only at this
      omega

/-- A transfer through slices that has moved everything. -/
theorem getSlices_done (F : Nat) : ∀ (fuel a n total : Nat) (s : RawLS),
    n < fuel →
    let l := (getSlices s.mem.regions fuel a n).1
    let r := rawReadSlices F l total s
    (∀ k, r.1 = some k → k ≤ total + n) ∧ (r.1 = some (total + n) → Done s a n r) := by
  intro fuel
  induction fuel with
  | zero => intro a n total s h; omega
  | succ fuel ih =>
    intro a n total s hf
    unfold getSlices
    by_cases h0 : n = 0
    · subst h0
      rw [if_pos rfl]
      refine ⟨fun k hk => ?_, fun _ => ⟨Nat.zero_le _, ?_, ?_, rfl⟩⟩
      · cases hk; omega
      · intro x hx; unfold InRange at hx; omega
      · rw [List.take_zero, Mem.store_nil]; rfl
    · rw [if_neg h0]
      cases hr : findRegion s.mem.regions a with
      | none =>
        refine ⟨fun k hk => ?_, fun hk => ?_⟩
        · cases hk; omega
        · have := Option.some.inj hk
          omega
      | some r =>
        have hreg := findRegion_mapped hr
        have hx1 := (findRegion_some hr).2.2
        dsimp only
        generalize hl : min (r.start + r.len - a) n = len
        obtain ⟨h1, h2, h3, h4⟩ := rawReadRetry_spec len F s
        unfold rawReadSlices
        rcases hx : rawReadRetry len F s with ⟨o, s'⟩
        rw [hx] at h1 h2 h3 h4
        cases o with
        | none => exact ⟨fun k hk => (by cases hk), fun hk => by cases hk⟩
        | some got =>
          obtain ⟨k1, k2, k3, k4, -⟩ := h4 got rfl
          dsimp only at h3 k4 ⊢
          have hregs : s.mem.regions = ({ s' with mem := s'.mem.store a got } : RawLS).mem.regions := by
            show s.mem.regions = s'.mem.regions
            rw [h3]
          rw [hregs]
          obtain ⟨i1, i2⟩ := ih (a + len) (n - len) (total + got.length)
            { s' with mem := s'.mem.store a got } (by omega)
          refine ⟨fun k hk => ?_, fun hk => ?_⟩
          · have := i1 k hk; omega
          · have hle := i1 _ hk
            have hgl : got.length = len := by omega
            rw [show total + n = total + got.length + (n - len) by omega] at hk
            obtain ⟨j1, j2, j3, j4⟩ := i2 hk
            have hrest : ({ s' with mem := s'.mem.store a got } : RawLS).rest = s.rest.drop len := by
              unfold RawLS.rest
              show s'.data.drop s'.pos = _
              rw [h2.1, k4, hgl, List.drop_drop]
            rw [hrest, List.length_drop] at j1
            rw [hrest] at j3
            have hmap : Mapped s.mem a n := by
              have hj2 : Mapped s.mem (a + len) (n - len) :=
                fun x hx => by
                  have := j2 x hx
                  rw [← this]
                  show _ = s'.mem.mapped x
                  rw [h3]
              have := mapped_add (i := len) (fun x hx => hreg x (by unfold InRange at *; omega)) hj2
              rwa [show len + (n - len) = n by omega] at this
            refine ⟨by omega, hmap, ?_, ?_⟩
            · rw [j3]
              show (s'.mem.store a got).store (a + len) _ = _
              rw [h3, k1, hgl, store_take _ _ _ _ _ (by omega)]
              rw [show len + (n - len) = n by omega]
            · rw [j4]
              show s'.pos + _ = _
              rw [k4]
              omega

/-- A transfer through slices with full reads, or through one slice. -/
theorem getSlices_contig (F : Nat) : ∀ (fuel a n total : Nat) (s : RawLS),
    (s.Full ∨ (getSlices s.mem.regions fuel a n).1.length ≤ 1) →
    Contig s a n (rawReadSlices F (getSlices s.mem.regions fuel a n).1 total s) := by
  have nil : ∀ (a n total : Nat) (s : RawLS), Contig s a n (rawReadSlices F [] total s) :=
    fun a n total s => ⟨0, Nat.zero_le _, Nat.zero_le _,
      fun x hx => by unfold InRange at hx; omega, by rw [List.take_zero, Mem.store_nil]; rfl⟩
  intro fuel
  induction fuel with
  | zero => intro a n total s _; exact nil a n total s
  | succ fuel ih =>
    intro a n total s hs
    unfold getSlices at hs ⊢
    by_cases h0 : n = 0
    · rw [if_pos h0]; exact nil a n total s
    · rw [if_neg h0] at hs ⊢
      cases hr : findRegion s.mem.regions a with
      | none => exact nil a n total s
      | some r =>
        have hreg := findRegion_mapped hr
        rw [hr] at hs
        dsimp only at hs ⊢
        generalize hl : min (r.start + r.len - a) n = len at hs ⊢
        obtain ⟨h1, h2, h3, h4⟩ := rawReadRetry_spec len F s
        unfold rawReadSlices
        rcases hx : rawReadRetry len F s with ⟨o, s'⟩
        rw [hx] at h1 h2 h3 h4
        dsimp only at h3 h4
        cases o with
        | none =>
          exact ⟨0, Nat.zero_le _, Nat.zero_le _, fun x hx => by unfold InRange at hx; omega,
            by rw [List.take_zero, Mem.store_nil]; exact h3⟩
        | some got =>
          obtain ⟨k1, k2, k3, k4, k5⟩ := h4 got rfl
          dsimp only
          have one : Contig s a n (some 0, { s' with mem := s'.mem.store a got }) :=
            ⟨got.length, by omega, k3, fun x hx => hreg x (by unfold InRange at *; omega), by
              show s'.mem.store a got = _
              rw [h3, ← k1]⟩
          have hregs : s.mem.regions = ({ s' with mem := s'.mem.store a got } : RawLS).mem.regions := by
            show s.mem.regions = s'.mem.regions
            rw [h3]
          rcases hs with hs | hs
          · rw [hregs]
            have hfull : ({ s' with mem := s'.mem.store a got } : RawLS).Full := by
              unfold RawLS.Full at hs ⊢
              show ∀ i k, s'.raw i = _ → s'.data.length ≤ _
              rw [h2.1, h2.2.1]
              exact hs
            obtain ⟨T, t1, t2, t3, t4⟩ := ih (a + len) (n - len) (total + got.length) _ (.inl hfull)
            have hrest : ({ s' with mem := s'.mem.store a got } : RawLS).rest = s.rest.drop got.length := by
              unfold RawLS.rest
              show s'.data.drop s'.pos = _
              rw [h2.1, k4, List.drop_drop]
            rw [hrest] at t2 t4
            rw [List.length_drop] at t2
            have hgl : got.length = min len s.rest.length := by rw [k5 hs, List.length_take]
            have t3' : Mapped s.mem (a + len) T := fun x hx => by
              have := t3 x hx
              rw [← this]
              show _ = s'.mem.mapped x
              rw [h3]
            by_cases hshort : s.rest.length < len
            · have hT : T = 0 := by omega
              subst hT
              refine ⟨got.length, by omega, k3, fun x hx => hreg x (by unfold InRange at *; omega), ?_⟩
              rw [t4, List.take_zero, Mem.store_nil]
              show s'.mem.store a got = _
              rw [h3, ← k1]
            · refine ⟨len + T, by omega, by omega, mapped_add
                (fun x hx => hreg x (by unfold InRange at *; omega)) t3', ?_⟩
              rw [t4]
              show (s'.mem.store a got).store (a + len) _ = _
              have hg : got.length = len := by omega
              have hgot : got = s.rest.take len := by rw [← hg]; exact k1
              rw [hg, hgot, h3, store_take _ _ _ _ _ (by omega)]
          · have : (getSlices s.mem.regions fuel (a + len) (n - len)).1 = [] := by
              refine List.eq_nil_of_length_eq_zero ?_
              simp only [List.length_cons] at hs
              omega
            rw [this]
            exact one

/-! ### Calls that do not fail -/

theorem rawReadRetry_smooth {n fuel : Nat} {s : RawLS} (hs : s.Smooth)
    (hh : (rawReadRetry n fuel s).2.hung = false) :
    ∃ k, (rawReadRetry n fuel s).1 = some (s.rest.take (min (k + 1) n)) := by
  cases fuel with
  | zero => cases hh
  | succ fuel =>
    obtain ⟨k, hk⟩ := hs s.clock
    refine ⟨k, ?_⟩
    unfold rawReadRetry
    rw [hk]

theorem rawReadExact_smooth {fuel n : Nat} {acc : List UInt8} {s : RawLS} (hs : s.Smooth)
    (hh : (rawReadExact fuel n acc s).2.hung = false) (hn : (rawReadExact fuel n acc s).1 = none) :
    s.rest.length < n := by
  induction fuel generalizing n acc s with
  | zero =>
    cases n with
    | zero => cases hn
    | succ n => cases hh
  | succ fuel ih =>
    cases n with
    | zero => cases hn
    | succ n =>
      obtain ⟨k, hk⟩ := hs s.clock
      unfold rawReadExact at hh hn
      rw [hk] at hh hn
      dsimp only at hh hn
      split at hh
      · rename_i h0
        have := congrArg List.length h0
        rw [List.length_take] at this
        simp only [List.length_nil] at this
        omega
      · rename_i h0
        rw [if_neg h0] at hn
        have := ih (s := s.tick _) (fun i => hs i) hh hn
        rw [rest_tick, List.length_drop] at this
        generalize (s.rest.take (min (k + 1) (n + 1))).length = g at this
        omega

theorem prefix_zero {m : Mem} {a n : Nat} (h : m.mapped a = false) : m.mappedPrefix a n = 0 := by
  cases n with
  | zero => rfl
  | succ n => unfold Mem.mappedPrefix; rw [h]; rfl

theorem mappedPrefix_store (m : Mem) (b : Nat) (bs : List UInt8) (a n : Nat) :
    (m.store b bs).mappedPrefix a n = m.mappedPrefix a n := by
  induction n generalizing a with
  | zero => rfl
  | succ n ih =>
    unfold Mem.mappedPrefix
    rw [ih]
    rfl

theorem tryAccess_smooth (F count a : Nat) (s₀ : RawLS) (hsm : s₀.Smooth) :
    ∀ (fuel total : Nat) (s : RawLS), count - total < fuel → (total < count ∨ total = 0) → total ≤ count →
      s₀.Same s → s.mem = s₀.mem.store a (s₀.rest.take total) → s.pos = s₀.pos + total →
      total ≤ s₀.rest.length → Mapped s₀.mem a total →
      let r := tryAccess s₀.mem.regions count (rawRegionRead F) fuel (a + total) total s
      r.2.hung = false →
      r.2.mem = s₀.mem.store a (s₀.rest.take (s₀.mem.mappedPrefix a count)) ∧
      (r.1 ≠ some count → count ≤ s₀.rest.length → Mapped s₀.mem a count →
        count = 0 ∧ s₀.mem.mapped a = false) := by
  intro fuel
  induction fuel with
  | zero => intro total s h; omega
  | succ fuel ih =>
    intro total s hfuel h0 hle hsame hmem hpos hlen hmap
    have hsplit := mappedPrefix_split hle hmap
    unfold tryAccess
    cases hr : findRegion s₀.mem.regions (a + total) with
    | none =>
      have hun := findRegion_none hr
      intro _ hh
      rw [prefix_zero hun] at hsplit
      refine ⟨by rw [hsplit]; exact hmem, fun hne _ hm => ?_⟩
      rcases h0 with h0 | h0
      · have := hm (a + total) ⟨by omega, by omega⟩
        rw [hun] at this
        cases this
      · subst h0
        by_cases hc : count = 0
        · exact ⟨hc, hun⟩
        · have := hm a ⟨by omega, by omega⟩
          rw [show a + 0 = a from rfl] at hun
          rw [hun] at this
          cases this
    | some r =>
      have hreg := findRegion_mapped hr
      have hx1 := (findRegion_some hr).2.2
      dsimp only
      generalize hl : min (r.start + r.len - (a + total)) (count - total) = len
      obtain ⟨g1, g2, g3, g4⟩ := regionRead_spec F total len (a + total) s
      have hsms : s.Smooth := fun i => by rw [hsame.2.1]; exact hsm i
      have hrest : s.rest = s₀.rest.drop total := by
        unfold RawLS.rest; rw [hsame.1, hpos, List.drop_drop]
      have hsome : (rawRegionRead F total len (a + total) s).2.hung = false →
          ∃ k, (rawRegionRead F total len (a + total) s).1 = some (min (min (k + 1) len) s.rest.length) := by
        intro hh
        have : (rawReadRetry len F s).2.hung = false := by
          unfold rawRegionRead at hh
          split at hh <;> · rename_i hx; rw [hx]; exact hh
        obtain ⟨k, hk⟩ := rawReadRetry_smooth hsms this
        refine ⟨k, ?_⟩
        unfold rawRegionRead
        rcases hx : rawReadRetry len F s with ⟨o, s'⟩
        rw [hx] at hk
        dsimp only at hk
        subst hk
        dsimp only
        rw [List.length_take]
      rcases hx : rawRegionRead F total len (a + total) s with ⟨o, s'⟩
      rw [hx] at g1 g2 g3 g4 hsome
      dsimp only at g1 g2 g3 g4 hsome
      cases o with
      | none =>
        intro hh
        obtain ⟨k, hk⟩ := hsome hh
        cases hk
      | some j =>
        obtain ⟨k1, k2, k3, k4⟩ := g4 j rfl
        rw [hrest, List.length_drop] at k2
        have hmem' : s'.mem = s₀.mem.store a (s₀.rest.take (total + j)) := by
          rw [k4, hmem, hrest, store_take _ _ _ _ _ hlen]
        have hmap' : Mapped s₀.mem a (total + j) := mapped_add hmap fun x hx =>
          hreg x (by unfold InRange at *; omega)
        cases j with
        | zero =>
          intro hh
          obtain ⟨k, hk⟩ := hsome hh
          have hk := Option.some.inj hk
          rw [hrest, List.length_drop] at hk
          by_cases hc : count = 0
          · subst hc
            have : total = 0 := by omega
            subst this
            exact ⟨hmem', fun hne => absurd rfl hne⟩
          · have hrl : s₀.rest.length = total := by omega
            refine ⟨?_, fun hne hcl _ => ?_⟩
            · rw [hmem']
              rw [hsplit]
              rw [List.take_of_length_le (by omega), List.take_of_length_le (by omega)]
            · dsimp only at hne
              exact absurd (by rw [show total = count by omega]) hne
        | succ n =>
          dsimp only
          by_cases hc : total + (n + 1) < count
          · rw [if_pos hc, Nat.add_assoc a]
            exact ih (total + (n + 1)) s' (by omega) (.inl hc) (by omega) (hsame.trans g2) hmem'
              (by rw [k3, hpos, Nat.add_assoc]) (by omega) hmap'
          · rw [if_neg hc]
            by_cases hd : total + (n + 1) = count
            · rw [if_pos hd]
              rw [hd] at hmem' hmap'
              intro _
              refine ⟨?_, fun hne => absurd rfl hne⟩
              rw [Mem.prefix_full hmap']
              exact hmem'
            · omega

theorem readSlices_hung (F : Nat) (l : List (Nat × Nat)) (total : Nat) (s : RawLS)
    (h : (rawReadSlices F l total s).2.hung = false) : s.hung = false := by
  cases hs : s.hung with
  | false => rfl
  | true => rw [(readSlices_frame F l total s).1 hs] at h; exact h

theorem getSlices_smooth (F : Nat) : ∀ (fuel a n total : Nat) (s : RawLS), n < fuel → s.Smooth → s.Full →
    let r := rawReadSlices F (getSlices s.mem.regions fuel a n).1 total s
    r.2.hung = false →
    r.2.mem = s.mem.store a (s.rest.take (s.mem.mappedPrefix a n)) ∧
    ∃ k, r.1 = some k ∧ (n ≤ s.rest.length → Mapped s.mem a n → k = total + n) := by
  intro fuel
  induction fuel with
  | zero => intro a n total s h; omega
  | succ fuel ih =>
    intro a n total s hf hsm hfull
    unfold getSlices
    by_cases h0 : n = 0
    · subst h0
      rw [if_pos rfl]
      intro _ _
      exact ⟨by rw [show s.mem.mappedPrefix a 0 = 0 from rfl, List.take_zero, Mem.store_nil]; rfl,
        total, rfl, fun _ _ => rfl⟩
    · rw [if_neg h0]
      cases hr : findRegion s.mem.regions a with
      | none =>
        intro _ _
        have hun := findRegion_none hr
        refine ⟨by rw [prefix_zero hun, List.take_zero, Mem.store_nil]; rfl, total, rfl, fun _ hm => ?_⟩
        have := hm a ⟨by omega, by omega⟩
        rw [hun] at this
        cases this
      | some r =>
        have hreg := findRegion_mapped hr
        have hx1 := (findRegion_some hr).2.2
        dsimp only
        generalize hl : min (r.start + r.len - a) n = len
        obtain ⟨h1, h2, h3, h4⟩ := rawReadRetry_spec len F s
        have hsome := rawReadRetry_smooth (n := len) (fuel := F) hsm
        unfold rawReadSlices
        rcases hx : rawReadRetry len F s with ⟨o, s'⟩
        rw [hx] at h1 h2 h3 h4 hsome
        dsimp only at h3 h4 hsome
        cases o with
        | none =>
          intro hh
          obtain ⟨k, hk⟩ := hsome hh
          cases hk
        | some got =>
          intro hh
          obtain ⟨k1, k2, k3, k4, k5⟩ := h4 got rfl
          dsimp only at hh ⊢
          have hregs : s.mem.regions = ({ s' with mem := s'.mem.store a got } : RawLS).mem.regions := by
            show s.mem.regions = s'.mem.regions
            rw [h3]
          rw [hregs] at hh ⊢
          have hfull' : ({ s' with mem := s'.mem.store a got } : RawLS).Full := by
            unfold RawLS.Full at hfull ⊢
            show ∀ i k, s'.raw i = _ → s'.data.length ≤ _
            rw [h2.1, h2.2.1]
            exact hfull
          have hsm' : ({ s' with mem := s'.mem.store a got } : RawLS).Smooth := by
            intro i
            show ∃ k, s'.raw i = _
            rw [h2.2.1]
            exact hsm i
          obtain ⟨i1, k, i2, i3⟩ := ih (a + len) (n - len) (total + got.length)
            { s' with mem := s'.mem.store a got } (by omega) hsm' hfull' hh
          have hrest : ({ s' with mem := s'.mem.store a got } : RawLS).rest = s.rest.drop got.length := by
            unfold RawLS.rest
            show s'.data.drop s'.pos = _
            rw [h2.1, k4, List.drop_drop]
          have hgl : got.length = min len s.rest.length := by rw [k5 hfull, List.length_take]
          have hmp : ({ s' with mem := s'.mem.store a got } : RawLS).mem.mappedPrefix (a + len) (n - len) =
              s.mem.mappedPrefix (a + len) (n - len) := by
            show (s'.mem.store a got).mappedPrefix _ _ = _
            rw [h3]
            exact mappedPrefix_store _ _ _ _ _
          have hsplit : s.mem.mappedPrefix a n = len + s.mem.mappedPrefix (a + len) (n - len) :=
            mappedPrefix_split (by omega) (fun x hx => hreg x (by unfold InRange at *; omega))
          rw [hmp, hrest] at i1
          rw [hrest, List.length_drop] at i3
          refine ⟨?_, k, i2, fun hn hm => ?_⟩
          · rw [i1]
            show (s'.mem.store a got).store (a + len) _ = _
            by_cases hshort : s.rest.length < len
            · rw [List.drop_of_length_le (by omega), List.take_nil, Mem.store_nil, h3, hsplit, k5 hfull,
                List.take_of_length_le (by omega), List.take_of_length_le (by omega)]
            · have hg : got.length = len := by omega
              have hgot : got = s.rest.take len := by rw [← hg]; exact k1
              rw [hg, hgot, h3, store_take _ _ _ _ _ (by omega), hsplit]
          · have hg : got.length = len := by omega
            have := i3 (by omega) (fun x hx => by
              show (s'.mem.store a got).mapped x = true
              have := hm x (by unfold InRange at *; omega)
              rw [h3]
              exact this)
            omega

theorem rawReadFrom_smooth (cfg : RawCfg) (a n : Nat) (s : RawLS) (hsm : s.Smooth)
    (hc : cfg.slices = false ∨ s.Full) :
    let r := rawReadFrom cfg a n s
    r.2.hung = false →
    r.2.mem = s.mem.store a (s.rest.take (s.mem.mappedPrefix a n)) ∧
    (r.1 ≠ some n → n ≤ s.rest.length → Mapped s.mem a n →
      n = 0 ∧ cfg.slices = false ∧ s.mem.mapped a = false) := by
  unfold rawReadFrom
  by_cases hsl : cfg.slices = true
  · rw [if_pos hsl]
    have hfull : s.Full := by
      rcases hc with hc | hc
      · rw [hsl] at hc; cases hc
      · exact hc
    unfold stopOnError
    by_cases hn : (getSlices s.mem.regions (n + 1) a n).1 = [] ∧
        (getSlices s.mem.regions (n + 1) a n).2 = true
    · rw [if_pos hn]
      intro _ _
      have hun : s.mem.mapped a = false ∧ n ≠ 0 := by
        unfold getSlices at hn
        split at hn
        · cases hn.2
        · cases hr : findRegion s.mem.regions a with
          | none => exact ⟨findRegion_none hr, by omega⟩
          | some r => rw [hr] at hn; cases hn.1
      refine ⟨?_, fun _ _ hm => ?_⟩
      · rw [prefix_zero hun.1, List.take_zero, Mem.store_nil]
      · have := hm a ⟨by omega, by omega⟩
        rw [hun.1] at this
        cases this
    · rw [if_neg hn]
      intro _ hh
      obtain ⟨h1, k, h2, h3⟩ := getSlices_smooth cfg.fuel (n + 1) a n 0 s (by omega) hsm hfull hh
      refine ⟨h1, fun hne hl hm => absurd ?_ hne⟩
      have := h3 hl hm
      rw [Nat.zero_add] at this
      rw [← this]
      exact h2
  · rw [if_neg hsl]
    intro _ hh
    have := tryAccess_smooth cfg.fuel n a s hsm (n + 1) 0 s (by omega) (.inr rfl) (Nat.zero_le _) (.refl s)
      (by rw [List.take_zero, Mem.store_nil]) rfl (Nat.zero_le _)
      (fun x hx => by unfold InRange at hx; omega) hh
    refine ⟨this.1, fun h1 h2 h3 => ?_⟩
    obtain ⟨q1, q2⟩ := this.2 h1 h2 h3
    exact ⟨q1, by simpa using hsl, q2⟩

/-! ## The operations -/

namespace Refines
variable {ε : Type} {cfg : RawCfg} {vol : Bool}

/-- An operation that corresponds to one event. -/
theorem single {α : Type} {x : LM RawLS ε α} {y : LM LS ε α}
    (hung : ∀ s : RawLS, s.hung = true → (x s).2.hung = true) (same : ∀ s : RawLS, s.Same (x s).2)
    (run : ∀ s : RawLS, s.mem.emptyOk = cfg.slices → (x s).2.hung = false →
      ∃ e : IoEvent, EventOk cfg vol s e ∧ ∀ sched clk, sched clk = e →
        (y ⟨⟨s.data, s.pos, sched, clk⟩, s.mem⟩).1 = (x s).1 ∧
        (y ⟨⟨s.data, s.pos, sched, clk⟩, s.mem⟩).2.mem = (x s).2.mem ∧
        ((x s).1.isOk = true → (y ⟨⟨s.data, s.pos, sched, clk⟩, s.mem⟩).2.rd =
          ⟨s.data, (x s).2.pos, sched, clk + 1⟩)) : Refines cfg vol x y where
  hung := hung
  same := same
  run := fun s hm hh => by
    obtain ⟨e, he, h⟩ := run s hm hh
    refine ⟨[e], fun e' he' => ?_, fun sched clk hs => h sched clk ?_⟩
    · rw [List.mem_singleton.1 he']; exact he
    · exact hs 0 e rfl

theorem rawSeek_hung (p : Option Nat) (e : ε) (s : RawLS) (h : s.hung = true) :
    (rawSeek p e s).2.hung = true := by
  unfold rawSeek
  split <;> exact h

theorem rawSeek_same (p : Option Nat) (e : ε) (s : RawLS) : s.Same (rawSeek p e s).2 := by
  unfold rawSeek
  split <;> exact ⟨rfl, rfl, rfl, rfl⟩

theorem ioFails_ok {s : LS} (h : s.rd.sched s.rd.clock = .ok) : ioFails s = false := by
  unfold ioFails; rw [h]

theorem ioFails_fail {s : LS} {k : Nat} (h : s.rd.sched s.rd.clock = .fail k) : ioFails s = true := by
  unfold ioFails; rw [h]

theorem notSmooth {s : RawLS} {ev : RawEvent} (hr : s.raw s.clock = ev) (hev : ∀ k, ev ≠ .give k) :
    ¬ (s.Smooth ∧ (cfg.slices = false ∨ s.Full)) := by
  intro h
  obtain ⟨k, hk⟩ := h.1 s.clock
  exact hev k (hr ▸ hk)

theorem seek (p : Option Nat) (q : Nat) (e : ε) (s : RawLS) {y : LM LS ε Unit}
    (hf : ∀ sched clk k, sched clk = IoEvent.fail k → y ⟨⟨s.data, s.pos, sched, clk⟩, s.mem⟩ =
      (.err e, ⟨⟨s.data, s.pos, sched, clk + 1⟩, s.mem⟩))
    (hy : p = some q → ∀ sched clk, sched clk = IoEvent.ok → y ⟨⟨s.data, s.pos, sched, clk⟩, s.mem⟩ =
      (.ok (), ⟨⟨s.data, q, sched, clk + 1⟩, s.mem⟩))
    (hn : p = none → ∀ sched clk, sched clk = IoEvent.ok → y ⟨⟨s.data, s.pos, sched, clk⟩, s.mem⟩ =
      (.err e, ⟨⟨s.data, s.pos, sched, clk + 1⟩, s.mem⟩)) (hp : p = some q ∨ p = none) :
    ∃ ev : IoEvent, EventOk cfg vol s ev ∧ ∀ sched clk, sched clk = ev →
        (y ⟨⟨s.data, s.pos, sched, clk⟩, s.mem⟩).1 = (rawSeek p e s).1 ∧
        (y ⟨⟨s.data, s.pos, sched, clk⟩, s.mem⟩).2.mem = (rawSeek p e s).2.mem ∧
        ((rawSeek p e s).1.isOk = true → (y ⟨⟨s.data, s.pos, sched, clk⟩, s.mem⟩).2.rd =
          ⟨s.data, (rawSeek p e s).2.pos, sched, clk + 1⟩) := by
  unfold rawSeek
  rcases hp with rfl | rfl
  · cases hr : s.raw s.clock with
    | give k =>
      refine ⟨.ok, trivial, fun sched clk h => ?_⟩
      rw [hy rfl sched clk h]
      exact ⟨rfl, rfl, fun _ => rfl⟩
    | intr =>
      refine ⟨.fail 0, notSmooth hr (by simp), fun sched clk h => ?_⟩
      rw [hf sched clk 0 h]
      exact ⟨rfl, rfl, fun h => by cases h⟩
    | fail =>
      refine ⟨.fail 0, notSmooth hr (by simp), fun sched clk h => ?_⟩
      rw [hf sched clk 0 h]
      exact ⟨rfl, rfl, fun h => by cases h⟩
  · cases hr : s.raw s.clock <;>
    · refine ⟨.ok, trivial, fun sched clk h => ?_⟩
      rw [hn rfl sched clk h]
      exact ⟨rfl, rfl, fun h => by cases h⟩

theorem seekStart (p : Nat) (e : ε) :
    Refines cfg vol ((rawIo cfg).seekStart p e) (contractIo.seekStart p e) := by
  refine single (rawSeek_hung _ e) (rawSeek_same _ e) fun s _ _ => ?_
  refine seek (some p) p e s (fun sched clk k h => ?_) (fun _ sched clk h => ?_)
    (fun h => by cases h) (.inl rfl)
  · show LinuxLoader.seekStart p e _ = _
    unfold LinuxLoader.seekStart
    rw [if_pos (ioFails_fail h)]
    rfl
  · show LinuxLoader.seekStart p e _ = _
    unfold LinuxLoader.seekStart
    rw [if_neg (by rw [ioFails_ok h]; simp)]
    rfl

theorem seekCur (d : Int) (e : ε) :
    Refines cfg vol ((rawIo cfg).seekCur d e) (contractIo.seekCur d e) := by
  refine single (fun s h => rawSeek_hung _ e s h) (fun s => rawSeek_same _ e s) fun s _ _ => ?_
  refine seek _ ((s.pos : Int) + d).toNat e s (fun sched clk k h => ?_) (fun hp sched clk h => ?_)
    (fun hp sched clk h => ?_) ?_
  · show LinuxLoader.seekCur d e _ = _
    unfold LinuxLoader.seekCur
    rw [if_pos (.inl (ioFails_fail h))]
    rfl
  · show LinuxLoader.seekCur d e _ = _
    unfold LinuxLoader.seekCur
    have : ¬ (s.pos : Int) + d < 0 := by
      intro hn
      rw [if_pos hn] at hp
      cases hp
    rw [if_neg (by rw [ioFails_ok h]; simp; omega)]
    rfl
  · show LinuxLoader.seekCur d e _ = _
    unfold LinuxLoader.seekCur
    have : (s.pos : Int) + d < 0 := by
      refine Decidable.byContradiction fun hn => ?_
      rw [if_neg hn] at hp
      cases hp
    rw [if_pos (.inr this)]
    rfl
  · split
    · exact .inr rfl
    · exact .inl rfl

theorem seekEnd (e : ε) : Refines cfg vol ((rawIo cfg).seekEnd e) (contractIo.seekEnd e) := by
  have key : ∀ s : RawLS, ((rawIo cfg).seekEnd e s) =
      match s.raw s.clock with
      | .give _ => (.ok s.data.length, s.tick s.data.length)
      | _ => (.err e, s.tick s.pos) := by
    intro s
    show (rawSeek (some s.data.length) e >>= fun _ => Pure.pure s.data.length) s = _
    rw [LM.bind_def]
    unfold rawSeek
    cases hr : s.raw s.clock <;> rfl
  refine single (fun s h => ?_) (fun s => ?_) fun s _ _ => ?_
  · rw [key]; split <;> exact h
  · rw [key]; split <;> exact ⟨rfl, rfl, rfl, rfl⟩
  · rw [key]
    have hfail : ∀ sched clk k, sched clk = IoEvent.fail k →
        contractIo.seekEnd e ⟨⟨s.data, s.pos, sched, clk⟩, s.mem⟩ =
        (.err e, ⟨⟨s.data, s.pos, sched, clk + 1⟩, s.mem⟩) := fun sched clk k h => by
      show LinuxLoader.seekEnd e _ = _
      unfold LinuxLoader.seekEnd
      rw [if_pos (ioFails_fail h)]
      rfl
    cases hr : s.raw s.clock with
    | give k =>
      refine ⟨.ok, trivial, fun sched clk h => ?_⟩
      have : contractIo.seekEnd e ⟨⟨s.data, s.pos, sched, clk⟩, s.mem⟩ =
          (.ok s.data.length, ⟨⟨s.data, s.data.length, sched, clk + 1⟩, s.mem⟩) := by
        show LinuxLoader.seekEnd e _ = _
        unfold LinuxLoader.seekEnd
        rw [if_neg (by rw [ioFails_ok h]; simp)]
        rfl
      rw [this]
      exact ⟨rfl, rfl, fun _ => rfl⟩
    | intr =>
      refine ⟨.fail 0, notSmooth hr (by simp), fun sched clk h => ?_⟩
      rw [hfail sched clk 0 h]
      exact ⟨rfl, rfl, fun h => by cases h⟩
    | fail =>
      refine ⟨.fail 0, notSmooth hr (by simp), fun sched clk h => ?_⟩
      rw [hfail sched clk 0 h]
      exact ⟨rfl, rfl, fun h => by cases h⟩

theorem readExact (n : Nat) (e : ε) :
    Refines cfg vol ((rawIo cfg).readExact n e) (contractIo.readExact n e) := by
  have key : ∀ s : RawLS, ((rawIo cfg).readExact n e s) =
      match rawReadExact cfg.fuel n [] s with
      | (some b, s') => (.ok b, s')
      | (none, s') => (.err e, s') := fun s => rfl
  refine single (fun s h => ?_) (fun s => ?_) fun s _ hh => ?_
  · rw [key]
    have := (rawReadExact_spec cfg.fuel n [] s).1 h
    split <;> · rename_i hx; rw [hx] at this; exact this
  · rw [key]
    have := (rawReadExact_spec cfg.fuel n [] s).2.1
    split <;> · rename_i hx; rw [hx] at this; exact this
  · rw [key]
    obtain ⟨-, -, h3, h4⟩ := rawReadExact_spec cfg.fuel n [] s
    have h5 := rawReadExact_smooth (fuel := cfg.fuel) (n := n) (acc := []) (s := s)
    rcases hx : rawReadExact cfg.fuel n [] s with ⟨o, s'⟩
    rw [hx] at h3 h4 h5
    dsimp only at h3 h4 h5
    cases o with
    | none =>
      have hs' : s'.hung = false := by rw [key, hx] at hh; exact hh
      by_cases hl : s.rest.length < n
      · refine ⟨.ok, trivial, fun sched clk h => ?_⟩
        have : contractIo.readExact n e ⟨⟨s.data, s.pos, sched, clk⟩, s.mem⟩ =
            (.err e, ⟨⟨s.data, s.pos, sched, clk + 1⟩, s.mem⟩) := by
          show LinuxLoader.readExact n e _ = _
          unfold LinuxLoader.readExact
          rw [if_pos (.inr hl)]
          rfl
        rw [this]
        exact ⟨rfl, h3.symm, fun h => by cases h⟩
      refine ⟨.fail 0, fun hsm => hl (h5 hsm.1 hs' rfl), fun sched clk h => ?_⟩
      have : contractIo.readExact n e ⟨⟨s.data, s.pos, sched, clk⟩, s.mem⟩ =
          (.err e, ⟨⟨s.data, s.pos, sched, clk + 1⟩, s.mem⟩) := by
        show LinuxLoader.readExact n e _ = _
        unfold LinuxLoader.readExact
        rw [if_pos (.inl (ioFails_fail h))]
        rfl
      rw [this]
      exact ⟨rfl, h3.symm, fun h => by cases h⟩
    | some b =>
      obtain ⟨k1, k2, k3⟩ := h4 b rfl
      refine ⟨.ok, trivial, fun sched clk h => ?_⟩
      have : contractIo.readExact n e ⟨⟨s.data, s.pos, sched, clk⟩, s.mem⟩ =
          (.ok (s.rest.take n), ⟨⟨s.data, s.pos + n, sched, clk + 1⟩, s.mem⟩) := by
        show LinuxLoader.readExact n e _ = _
        unfold LinuxLoader.readExact
        rw [if_neg]
        · rfl
        · rw [ioFails_ok h]
          have : (Reader.rest ⟨s.data, s.pos, sched, clk⟩) = s.rest := rfl
          simp only [Bool.false_eq_true, false_or, this]
          omega
      rw [this, k1]
      exact ⟨rfl, h3.symm, fun _ => by dsimp only; rw [k3]⟩

theorem readVolatile (n : Nat) (e : ε) :
    Refines cfg true ((rawIo cfg).readVolatile n e) (contractIo.readVolatile n e) := by
  have key : ∀ s : RawLS, ((rawIo cfg).readVolatile n e s) =
      match s.raw s.clock with
      | .give k =>
        (.ok (s.rest.take (min (k + 1) n) ++ List.replicate (n - (s.rest.take (min (k + 1) n)).length) 0),
          s.tick (s.pos + (s.rest.take (min (k + 1) n)).length))
      | _ => (.err e, s.tick s.pos) := fun s => rfl
  refine single (fun s h => ?_) (fun s => ?_) fun s _ _ => ?_
  · rw [key]; split <;> exact h
  · rw [key]; split <;> exact ⟨rfl, rfl, rfl, rfl⟩
  · rw [key]
    have hfail : ∀ sched clk k, sched clk = IoEvent.fail k →
        contractIo.readVolatile n e ⟨⟨s.data, s.pos, sched, clk⟩, s.mem⟩ =
        (.err e, ⟨⟨s.data, s.pos, sched, clk + 1⟩, s.mem⟩) := fun sched clk k h => by
      show LinuxLoader.readVolatile n e _ = _
      unfold LinuxLoader.readVolatile
      dsimp only
      rw [h]
      rfl
    cases hr : s.raw s.clock with
    | give k =>
      by_cases hf : s.Full
      · refine ⟨.ok, trivial, fun sched clk h => ?_⟩
        have h1 := hf _ _ hr
        have h2 : s.rest.length ≤ s.data.length := by unfold RawLS.rest; rw [List.length_drop]; omega
        have hgot : s.rest.take (min (k + 1) n) = s.rest.take n := by
          rw [List.take_eq_take_min, List.take_eq_take_min (i := n)]
          congr 1
          omega
        have : contractIo.readVolatile n e ⟨⟨s.data, s.pos, sched, clk⟩, s.mem⟩ =
            (.ok (s.rest.take n ++ List.replicate (n - (s.rest.take n).length) 0),
              ⟨⟨s.data, s.pos + (s.rest.take n).length, sched, clk + 1⟩, s.mem⟩) := by
          show LinuxLoader.readVolatile n e _ = _
          unfold LinuxLoader.readVolatile
          dsimp only
          rw [h]
          rfl
        rw [this]
        dsimp only
        rw [hgot]
        exact ⟨rfl, rfl, fun _ => rfl⟩
      · refine ⟨.short (k + 1), ⟨hf, rfl⟩, fun sched clk h => ?_⟩
        have : contractIo.readVolatile n e ⟨⟨s.data, s.pos, sched, clk⟩, s.mem⟩ =
            (.ok (s.rest.take (min (k + 1) n) ++
                List.replicate (n - (s.rest.take (min (k + 1) n)).length) 0),
              ⟨⟨s.data, s.pos + (s.rest.take (min (k + 1) n)).length, sched, clk + 1⟩, s.mem⟩) := by
          show LinuxLoader.readVolatile n e _ = _
          unfold LinuxLoader.readVolatile
          dsimp only
          rw [h]
          rfl
        rw [this]
        exact ⟨rfl, rfl, fun _ => rfl⟩
    | intr =>
      refine ⟨.fail 0, notSmooth hr (by simp), fun sched clk h => ?_⟩
      rw [hfail sched clk 0 h]
      exact ⟨rfl, rfl, fun h => by cases h⟩
    | fail =>
      refine ⟨.fail 0, notSmooth hr (by simp), fun sched clk h => ?_⟩
      rw [hfail sched clk 0 h]
      exact ⟨rfl, rfl, fun h => by cases h⟩

end Refines

theorem rawReadFrom_spec (cfg : RawCfg) (a n : Nat) (s : RawLS) :
    let r := rawReadFrom cfg a n s
    (s.hung = true → r.2.hung = true) ∧ s.Same r.2 ∧
    (r.1 = some n → Done s a n r ∧ (cfg.slices = false → n = 0 → s.mem.mapped a = true)) ∧
    (Contig s a n r ∨ (¬ s.Full ∧ cfg.slices = true ∧ 2 ≤ s.mem.regions.length ∧
      ∀ x, ¬ (InRange a n x ∧ s.mem.mapped x = true) → r.2.mem.data x = s.mem.data x)) := by
  unfold rawReadFrom
  by_cases hc : cfg.slices = true
  · rw [if_pos hc]
    unfold stopOnError
    by_cases hn : (getSlices s.mem.regions (n + 1) a n).1 = [] ∧
        (getSlices s.mem.regions (n + 1) a n).2 = true
    · rw [if_pos hn]
      exact ⟨fun h => h, .refl s, fun h => (by cases h), .inl ⟨0, Nat.zero_le _, Nat.zero_le _,
        fun x hx => (by unfold InRange at hx; omega), by rw [List.take_zero, Mem.store_nil]⟩⟩
    · rw [if_neg hn]
      obtain ⟨h1, h2, h3⟩ := readSlices_frame cfg.fuel (getSlices s.mem.regions (n + 1) a n).1 0 s
      obtain ⟨-, d⟩ := getSlices_done cfg.fuel (n + 1) a n 0 s (by omega)
      refine ⟨h1, h2, fun h => ⟨d (by rw [Nat.zero_add]; exact h), fun h => ?_⟩, ?_⟩
      · rw [hc] at h; cases h
      · by_cases hf : s.Full ∨ (getSlices s.mem.regions (n + 1) a n).1.length ≤ 1
        · exact .inl (getSlices_contig cfg.fuel (n + 1) a n 0 s hf)
        · refine .inr ⟨fun h => hf (.inl h), hc, ?_, fun x hx => h3 x fun q hq hin => hx ?_⟩
          · by_cases hl : 2 ≤ s.mem.regions.length
            · exact hl
            · exact absurd (.inr (getSlices_single s.mem (by omega) _ _ _)) hf
          · obtain ⟨q1, q2, q3⟩ := getSlices_in s.mem _ _ _ q hq
            exact ⟨by unfold InRange at *; omega, q3 x hin⟩
  · rw [if_neg hc]
    have := tryAccess_read cfg.fuel n a s (n + 1) 0 s (.inr rfl) (Nat.zero_le _) (.refl s)
      (by rw [List.take_zero, Mem.store_nil]) rfl (Nat.zero_le _)
      (fun x hx => by unfold InRange at hx; omega)
    obtain ⟨h1, h2, h3, h4⟩ := this
    exact ⟨h1, h2, fun h => ⟨(h4 h).1, fun _ => (h4 h).2⟩, .inl h3⟩

theorem sameLayout_ext {m m' m'' : Mem} (h : SameLayout m m') (h' : SameLayout m m'')
    (hd : ∀ x, m'.data x = m''.data x) : m' = m'' := by
  obtain ⟨r', d', e'⟩ := m'
  obtain ⟨r'', d'', e''⟩ := m''
  obtain ⟨h1, h2⟩ := h
  obtain ⟨h3, h4⟩ := h'
  dsimp only at h1 h2 h3 h4 hd
  rw [h1, h2, h3, h4, funext hd]

theorem Refines.readIntoMem {ε : Type} {cfg : RawCfg} {vol : Bool} (a n : Nat) (e : ε) :
    Refines cfg vol ((rawIo cfg).readIntoMem a n e) (contractIo.readIntoMem a n e) := by
  have key : ∀ s : RawLS, ((rawIo cfg).readIntoMem a n e s) =
      (if (rawReadFrom cfg a n s).1 = some n then .ok () else .err e, (rawReadFrom cfg a n s).2) :=
    fun s => rfl
  refine Refines.single (fun s h => ?_) (fun s => ?_) fun s hm hh => ?_
  · rw [key]; exact (rawReadFrom_spec cfg a n s).1 h
  · rw [key]; exact (rawReadFrom_spec cfg a n s).2.1
  · rw [key] at hh ⊢
    obtain ⟨-, h2, h3, h4⟩ := rawReadFrom_spec cfg a n s
    have h5 := rawReadFrom_smooth cfg a n s
    generalize rawReadFrom cfg a n s = r at h2 h3 h4 h5 hh ⊢
    by_cases hr : r.1 = some n
    · obtain ⟨⟨d1, d2, d3, d4⟩, d5⟩ := h3 hr
      rw [if_pos hr]
      refine ⟨.ok, trivial, fun sched clk h => ?_⟩
      have : contractIo.readIntoMem a n e ⟨⟨s.data, s.pos, sched, clk⟩, s.mem⟩ =
          (.ok (), ⟨⟨s.data, s.pos + n, sched, clk + 1⟩, s.mem.store a (s.rest.take n)⟩) := by
        show LinuxLoader.readIntoMem a n e _ = _
        have hlim : ∀ k, ioLimit ⟨⟨s.data, s.pos, sched, clk⟩, s.mem⟩ k = k := fun k => by
          unfold ioLimit; dsimp only; rw [h]
        have hrest : (Reader.rest ⟨s.data, s.pos, sched, clk⟩) = s.rest := rfl
        rw [readIntoMem_none (by unfold scatterOf; dsimp only; rw [h])]
        unfold LinuxLoader.readPrefix
        dsimp only
        rw [hlim, hrest, Mem.prefix_full d2, Nat.min_self, List.length_take, Nat.min_eq_left d1,
          if_pos]
        · rfl
        · refine ⟨rfl, Refines.ioFails_ok h, ?_⟩
          unfold Mem.canAccess
          rw [Mem.prefix_full d2, hm]
          cases hs : cfg.slices with
          | true => simp
          | false =>
            by_cases hz : n = 0
            · simp [d5 hs hz]
            · simp [hz]
      rw [this]
      exact ⟨rfl, d3.symm, fun _ => by dsimp only; rw [d4]⟩
    · rw [if_neg hr]
      rcases h4 with ⟨T, t1, t2, t3, t4⟩ | ⟨f1, f2, f3, f4⟩
      · by_cases hsm : s.Smooth ∧ (cfg.slices = false ∨ s.Full)
        · obtain ⟨q1, q2⟩ := h5 hsm.1 hsm.2 hh
          refine ⟨.ok, trivial, fun sched clk h => ?_⟩
          have : contractIo.readIntoMem a n e ⟨⟨s.data, s.pos, sched, clk⟩, s.mem⟩ =
              (.err e, ⟨⟨s.data, s.pos + (s.rest.take (s.mem.mappedPrefix a n)).length, sched, clk + 1⟩,
                s.mem.store a (s.rest.take (s.mem.mappedPrefix a n))⟩) := by
            show LinuxLoader.readIntoMem a n e _ = _
            have hlim : ioLimit ⟨⟨s.data, s.pos, sched, clk⟩, s.mem⟩ n = n := by
              unfold ioLimit; dsimp only; rw [h]
            have hrest : (Reader.rest ⟨s.data, s.pos, sched, clk⟩) = s.rest := rfl
            rw [readIntoMem_none (by unfold scatterOf; dsimp only; rw [h])]
            unfold LinuxLoader.readPrefix
            dsimp only
            rw [hlim, hrest, Nat.min_eq_left (Mem.mappedPrefix_le _ _ _), if_neg]
            · rfl
            · intro hok
              obtain ⟨o1, -, o3⟩ := hok
              have hP := Mem.mappedPrefix_le s.mem a n
              rw [List.length_take] at o1
              unfold Mem.canAccess at o3
              simp only [Bool.and_eq_true, beq_iff_eq, Bool.or_eq_true, bne_iff_ne, ne_eq] at o3
              obtain ⟨z1, z2, z3⟩ := q2 hr (by omega) (Mem.prefix_eq_iff.1 o3.1)
              rcases o3.2 with (o | o) | o
              · exact o z1
              · rw [hm, z2] at o; cases o
              · rw [z3] at o; cases o
          rw [this]
          exact ⟨rfl, q1.symm, fun h => by cases h⟩
        refine ⟨.fail T, hsm, fun sched clk h => ?_⟩
        have : contractIo.readIntoMem a n e ⟨⟨s.data, s.pos, sched, clk⟩, s.mem⟩ =
            (.err e, ⟨⟨s.data, s.pos + T, sched, clk + 1⟩, s.mem.store a (s.rest.take T)⟩) := by
          show LinuxLoader.readIntoMem a n e _ = _
          have hlim : ioLimit ⟨⟨s.data, s.pos, sched, clk⟩, s.mem⟩ n = T := by
            unfold ioLimit; dsimp only; rw [h]; exact Nat.min_eq_left t1
          have hrest : (Reader.rest ⟨s.data, s.pos, sched, clk⟩) = s.rest := rfl
          rw [readIntoMem_none (by unfold scatterOf; dsimp only; rw [h])]
          unfold LinuxLoader.readPrefix
          dsimp only
          rw [hlim, hrest, mappedPrefix_split t1 t3, Nat.min_eq_right (by omega), List.length_take,
            Nat.min_eq_left t2, if_neg]
          · rfl
          · rw [Refines.ioFails_fail h]; simp
        rw [this]
        exact ⟨rfl, t4.symm, fun h => by cases h⟩
      · refine ⟨.scatter fun x => some (r.2.mem.data x), ⟨f1, f2, f3⟩, fun sched clk h => ?_⟩
        have : contractIo.readIntoMem a n e ⟨⟨s.data, s.pos, sched, clk⟩, s.mem⟩ =
            (.err e, ⟨⟨s.data, s.pos, sched, clk + 1⟩, s.mem.scatter a n fun x => some (r.2.mem.data x)⟩) := by
          show LinuxLoader.readIntoMem a n e _ = _
          rw [readIntoMem_some (w := fun x => some (r.2.mem.data x)) (by unfold scatterOf; dsimp only; rw [h])]
          rfl
        rw [this]
        refine ⟨rfl, ?_, fun h => by cases h⟩
        refine sameLayout_ext (m := s.mem) ⟨rfl, rfl⟩ h2.2.2 fun x => ?_
        unfold Mem.scatter
        dsimp only
        split
        · rfl
        · rename_i hx
          rw [f4 x]
          unfold InRange
          intro hh
          exact hx ⟨hh.1.1, hh.1.2, hh.2⟩

end LinuxLoader
