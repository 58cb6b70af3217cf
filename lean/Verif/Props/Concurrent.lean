import Verif.Lemmas.Trace
import Verif.Props.Boot

/-!
# Calls in concurrent threads, and crashes at any moment (C83)

Vocabulary: `Spec/Concurrent.lean`, `Spec/Boot.lean`.
-/

namespace LinuxLoader
open Spec MState LawfulMState

/-! ## Orders -/

theorem at'_append (k l : Writes) (x : Nat) : at' (k ++ l) x = at' k x ++ at' l x := List.filter_append ..

theorem at'_short {w : Writes} (h : (w.map Prod.fst).Nodup) (x : Nat) :
    at' w x = [] ∨ ∃ p, at' w x = [p] := by
  have hn : ((at' w x).map Prod.fst).Nodup := List.Nodup.sublist (List.Sublist.map _ List.filter_sublist) h
  have hx : ∀ p ∈ at' w x, p.1 = x := fun p hp => by
    have := (List.mem_filter.1 hp).2
    simpa using this
  match hw : at' w x with
  | [] => exact .inl rfl
  | [p] => exact .inr ⟨p, rfl⟩
  | p :: q :: l =>
    rw [hw] at hn hx
    refine absurd ?_ (List.nodup_cons.1 hn).1
    refine List.mem_map.2 ⟨q, .head _, ?_⟩
    rw [hx q (.tail _ (.head _)), hx p (.head _)]

theorem at'_perm {w w' : Writes} (hp : w'.Perm w) (h : (w.map Prod.fst).Nodup) (x : Nat) :
    at' w' x = at' w x := by
  have hf : (at' w' x).Perm (at' w x) := hp.filter _
  rcases at'_short h x with h0 | ⟨p, h1⟩
  · rw [h0] at hf ⊢; exact hf.eq_nil
  · rw [h1] at hf ⊢; exact List.perm_singleton.1 hf

theorem at'_linear {ops : List Writes} {l : Writes} (h : Linear ops l) (hd : DistinctT ops) (x : Nat) :
    at' l x = at' ops.flatten x := by
  induction h with
  | nil => rfl
  | cons hp _ ih =>
    rw [List.flatten_cons, at'_append, at'_append, at'_perm hp (hd _ (.head _)),
      ih fun w hw => hd w (.tail _ hw)]

theorem linear_mem {ops : List Writes} {l : Writes} (h : Linear ops l) {p : Nat × UInt8} (hp : p ∈ l) :
    ∃ op ∈ ops, p ∈ op := by
  induction h with
  | nil => cases hp
  | cons hw _ ih =>
    rcases List.mem_append.1 hp with hp | hp
    · exact ⟨_, .head _, hw.mem_iff.1 hp⟩
    · obtain ⟨op, h1, h2⟩ := ih hp
      exact ⟨op, .tail _ h1, h2⟩

theorem interleave_filter {α : Type} {ls : List (List α)} {r : List α} (h : Interleave ls r) (p : α → Bool) :
    Interleave (ls.map (List.filter p)) (r.filter p) := by
  induction h with
  | nil h =>
    refine .nil fun l hl => ?_
    obtain ⟨k, hk, rfl⟩ := List.mem_map.1 hl
    rw [h k hk]; rfl
  | @cons pre post x l r _ ih =>
    rw [List.map_append, List.map_cons] at ih ⊢
    rw [List.filter_cons, List.filter_cons]
    cases p x with
    | true => exact .cons ih
    | false => exact ih

theorem interleave_one {α : Type} {ls : List (List α)} {r : List α} (h : Interleave ls r)
    (hp : ls.Pairwise fun a b => a = [] ∨ b = []) : r = ls.flatten := by
  induction h with
  | nil h => exact (List.flatten_eq_nil_iff.2 h).symm
  | @cons pre post x l r hi ih =>
    obtain ⟨h1, h2, h3⟩ := List.pairwise_append.1 hp
    obtain ⟨h4, h5⟩ := List.pairwise_cons.1 h2
    have hpre : ∀ a ∈ pre, a = [] := fun a ha => (h3 a ha _ (.head _)).resolve_right (by simp)
    have hpost : ∀ a ∈ post, a = [] := fun a ha => (h4 a ha).resolve_left (by simp)
    have := ih (List.pairwise_append.2 ⟨h1, List.pairwise_cons.2
      ⟨fun a ha => .inr (hpost a ha), h5⟩, fun a ha _ _ => .inl (hpre a ha)⟩)
    rw [this, List.flatten_append, List.flatten_append, List.flatten_cons, List.flatten_cons,
      List.flatten_eq_nil_iff.2 hpre]
    rfl

theorem flatten_perm_one {α : Type} {ls ks : List (List α)} (h : ls.Perm ks)
    (hp : ls.Pairwise fun a b => a = [] ∨ b = []) : ls.flatten = ks.flatten := by
  induction h with
  | nil => rfl
  | cons l _ ih => rw [List.flatten_cons, List.flatten_cons, ih (List.pairwise_cons.1 hp).2]
  | swap a b l =>
    have := (List.pairwise_cons.1 hp).1 a (.head _)
    simp only [List.flatten_cons]
    rcases this with rfl | rfl <;> simp
  | trans h1 _ ih1 ih2 =>
    exact (ih1 hp).trans (ih2 ((h1.pairwise_iff fun h => h.symm).1 hp))

theorem at'_linears {threads : List (List Writes)} {ls : List Writes} (h : Linears threads ls)
    (hd : ∀ ops ∈ threads, DistinctT ops) (x : Nat) :
    ls.map (at' · x) = threads.map fun ops => at' ops.flatten x := by
  induction h with
  | nil => rfl
  | cons h1 _ ih =>
    rw [List.map_cons, List.map_cons, at'_linear h1 (hd _ (.head _)), ih fun o ho => hd o (.tail _ ho)]

theorem at'_ext {ext : List Writes} {l : Writes} (h : Linear ext l) {x : Nat}
    (hx : ∀ op ∈ ext, ∀ p ∈ op, p.1 ≠ x) : at' l x = [] := by
  refine List.filter_eq_nil_iff.2 fun p hp he => ?_
  obtain ⟨op, h1, h2⟩ := linear_mem h hp
  exact hx op h1 p h2 (by simpa using he)

/-- What is stored at an address, if at most one thread stores there. -/
theorem at'_schedule {ext : List Writes} {threads : List (List Writes)} {w : Writes} {x : Nat}
    (h : Schedule (ext :: threads) w) (hd : ∀ ops ∈ threads, DistinctT ops)
    (hx : ∀ op ∈ ext, ∀ p ∈ op, p.1 ≠ x)
    (hp : (threads.map fun ops => at' ops.flatten x).Pairwise fun a b => a = [] ∨ b = []) :
    at' w x = (threads.map fun ops => at' ops.flatten x).flatten := by
  obtain ⟨ls, hl, hi⟩ := h
  cases hl with
  | cons he hl =>
    have hf := interleave_filter hi fun p => p.1 == x
    have hm := at'_linears hl hd x
    have h0 := at'_ext he hx
    rw [List.map_cons] at hf
    have hf' : Interleave ([] :: threads.map fun ops => at' ops.flatten x) (at' w x) := by
      rw [← hm, ← h0]; exact hf
    rw [interleave_one hf' (List.pairwise_cons.2 ⟨fun _ _ => .inl rfl, hp⟩)]
    rfl

/-! ## Calls and threads with a record -/

/-- A call on boot memory. -/
theorem exec_tr (st : BootStep) (m : Mem) : ∃ t b m₁, DistinctT t ∧ ∀ g,
    st.exec (setData g m) = (b, setData (applyWrites t.flatten g) m₁) ∧
    ∀ env log, ∃ g', st.execT env ⟨setData g m, log⟩ = (b, ⟨setData g' m₁, log ++ t⟩) ∧
      (env = noEnv → g' = applyWrites t.flatten g) := by
  have reader : ∀ {ε α : Type} {x : LM LS ε α} {y : Env → LM (TS LS) ε α} (rd : Reader), Tr x y →
      ∃ t b m₁, DistinctT t ∧ ∀ g,
        ((x ⟨rd, setData g m⟩).1.isOk, (x ⟨rd, setData g m⟩).2.mem) =
          (b, setData (applyWrites t.flatten g) m₁) ∧
        ∀ env log, ∃ g', ((y env ⟨⟨rd, setData g m⟩, log⟩).1.isOk,
            (⟨(y env ⟨⟨rd, setData g m⟩, log⟩).2.st.mem, (y env ⟨⟨rd, setData g m⟩, log⟩).2.log⟩ : TS Mem)) =
            (b, ⟨setData g' m₁, log ++ t⟩) ∧
          (env = noEnv → g' = applyWrites t.flatten g) := by
    intro ε α x y rd h
    obtain ⟨t, r, s₁, hd, h⟩ := h ⟨rd, m⟩
    refine ⟨t, r.isOk, s₁.mem, hd, fun g => ⟨?_, fun env log => ?_⟩⟩
    · have := (h g).1
      rw [show (setData g (⟨rd, m⟩ : LS)) = ⟨rd, setData g m⟩ from rfl] at this
      rw [this]; rfl
    · obtain ⟨g', h1, h2⟩ := (h g).2 env log
      rw [show (setData g (⟨rd, m⟩ : LS)) = ⟨rd, setData g m⟩ from rfl] at h1
      exact ⟨g', by rw [h1]; rfl, h2⟩
  have plain : ∀ {ε α : Type} {x : LM Mem ε α} {y : Env → LM (TS Mem) ε α}, Tr x y →
      ∃ t b m₁, DistinctT t ∧ ∀ g,
        ((x (setData g m)).1.isOk, (x (setData g m)).2) = (b, setData (applyWrites t.flatten g) m₁) ∧
        ∀ env log, ∃ g', ((y env ⟨setData g m, log⟩).1.isOk, (y env ⟨setData g m, log⟩).2) =
            (b, ⟨setData g' m₁, log ++ t⟩) ∧
          (env = noEnv → g' = applyWrites t.flatten g) := by
    intro ε α x y h
    obtain ⟨t, r, s₁, hd, h⟩ := h m
    refine ⟨t, r.isOk, s₁, hd, fun g => ⟨by rw [(h g).1], fun env log => ?_⟩⟩
    obtain ⟨g', h1, h2⟩ := (h g).2 env log
    exact ⟨g', by rw [h1], h2⟩
  cases st with
  | elf rd k h => exact reader rd (Tr.elfLoad k h)
  | bz rd k h => exact reader rd (Tr.bzLoad k h)
  | pe arch rd k h => exact reader rd (Tr.peLoad arch k h)
  | dtb rd a => exact reader rd (Tr.loadDtb a)
  | cmdline a c => exact plain (Tr.loadCmdline a c)
  | linux p => exact plain (Tr.linuxWrite p)
  | fdt p => exact plain (Tr.fdtWrite p)
  | pvh p => exact plain (Tr.pvhWrite p)
  | own a bytes => exact plain (Tr.writeSlice bytes a ())

/-- A sequence of calls. -/
theorem bootRun_tr (steps : List BootStep) (m : Mem) : ∃ t done ok m₁, DistinctT t ∧ ∀ g,
    bootRun steps (setData g m) = (done, ok, setData (applyWrites t.flatten g) m₁) ∧
    ∀ env log, ∃ g', bootRunT env steps ⟨setData g m, log⟩ = (done, ok, ⟨setData g' m₁, log ++ t⟩) ∧
      (env = noEnv → g' = applyWrites t.flatten g) := by
  induction steps generalizing m with
  | nil =>
    exact ⟨[], [], true, m, fun w hw => (by cases hw), fun g => ⟨rfl, fun env log =>
      ⟨g, by rw [List.append_nil]; rfl, fun _ => rfl⟩⟩⟩
  | cons st rest ih =>
    obtain ⟨t, b, m₁, hd, h⟩ := exec_tr st m
    cases b with
    | false =>
      refine ⟨t, [], false, m₁, hd, fun g => ⟨?_, fun env log => ?_⟩⟩
      · unfold bootRun; rw [(h g).1]
      · obtain ⟨g', h1, h2⟩ := (h g).2 env log
        refine ⟨g', ?_, h2⟩
        unfold bootRunT; rw [h1]
    | true =>
      obtain ⟨t', done, ok, m₂, hd', h'⟩ := ih m₁
      refine ⟨t ++ t', st :: done, ok, m₂, fun w hw => ?_, fun g => ⟨?_, fun env log => ?_⟩⟩
      · rcases List.mem_append.1 hw with hw | hw
        · exact hd w hw
        · exact hd' w hw
      · unfold bootRun; rw [(h g).1]
        dsimp only
        rw [(h' _).1, List.flatten_append, applyWrites_append]
      · obtain ⟨g', h1, h2⟩ := (h g).2 env log
        obtain ⟨g'', h3, h4⟩ := (h' g').2 env (log ++ t)
        refine ⟨g'', ?_, fun he => ?_⟩
        · unfold bootRunT; rw [h1]
          dsimp only
          rw [h3, List.append_assoc]
        · rw [h4 he, h2 he, List.flatten_append, applyWrites_append]

theorem setData_of_layout {m m' : Mem} (h : SameLayout m m') : m' = setData m'.data m := by
  obtain ⟨r, d, e⟩ := m
  obtain ⟨r', d', e'⟩ := m'
  obtain ⟨h1, h2⟩ := h
  dsimp only at h1 h2
  subst h1 h2
  rfl

/-- **C83.** What a thread does — the outcomes of its calls and the bytes stored by each operation —
depends neither on the contents of guest memory nor on what other threads do to it in the meantime; no
operation stores to an address twice; and without other threads, memory at the end is what the recorded
bytes make of it. -/
theorem C83_interference (steps : List BootStep) (env env' : Env) (m m' : Mem) (h : SameLayout m m') :
    (bootRunT env steps ⟨m, []⟩).1 = (bootRun steps m).1 ∧
    (bootRunT env steps ⟨m, []⟩).2.1 = (bootRun steps m).2.1 ∧
    (bootRun steps m').1 = (bootRun steps m).1 ∧
    (bootRun steps m').2.1 = (bootRun steps m).2.1 ∧
    (bootRunT env' steps ⟨m', []⟩).2.2.log = (bootRunT env steps ⟨m, []⟩).2.2.log ∧
    (∀ op ∈ (bootRunT env steps ⟨m, []⟩).2.2.log, (op.map Prod.fst).Nodup) ∧
    (bootRun steps m).2.2.data = applyWrites (bootRunT env steps ⟨m, []⟩).2.2.log.flatten m.data ∧
    (bootRunT (fun _ f => f) steps ⟨m, []⟩).2.2.st = (bootRun steps m).2.2 := by
  obtain ⟨t, done, ok, m₁, hd, ht⟩ := bootRun_tr steps m
  obtain ⟨h1, h2⟩ := ht m.data
  obtain ⟨h1', h2'⟩ := ht m'.data
  rw [← setData_of_layout h] at h1' h2'
  rw [show setData m.data m = m from rfl] at h1 h2
  obtain ⟨g, h3, -⟩ := h2 env []
  obtain ⟨g', h3', -⟩ := h2' env' []
  obtain ⟨g0, h4, h5⟩ := h2 noEnv []
  rw [show (fun _ f => f : Env) = noEnv from rfl, h1, h1', h3, h3', h4, h5 rfl]
  exact ⟨rfl, rfl, rfl, rfl, rfl, hd, rfl, rfl⟩

/-- The code that is run with a record is that of the other models. -/
theorem C83_same_code (k h : Option GuestAddr) (arch : PeArch) (a : GuestAddr) (c : Cmdline) (p : BootParams) :
    G.elfLoad contractIo k h = elfLoad k h ∧ G.bzLoad contractIo k h = bzLoad k h ∧
    G.peLoad contractIo arch k h = peLoad arch k h ∧ G.loadDtb contractIo a = loadDtb a ∧
    G.loadCmdline plainOps a c = loadCmdline a c ∧ G.linuxWrite plainOps p = linuxWrite p ∧
    G.fdtWrite plainOps p = fdtWrite p ∧ G.pvhWrite plainOps p = pvhWrite p :=
  ⟨same_elfLoad k h, same_bzLoad k h, same_peLoad arch k h, same_loadDtb a, rfl, rfl, rfl, rfl⟩

/-- What is recorded for a thread. -/
theorem ops_spec (th : Thread) (m : Mem) :
    DistinctT (th.ops m) ∧
    (∀ m' env', SameLayout m m' → (Thread.mk th.steps env').ops m' = th.ops m) ∧
    th.outcome m = ((bootRun th.steps m).1, (bootRun th.steps m).2.1) ∧
    (bootRun th.steps m).2.2.data = applyWrites (th.ops m).flatten m.data := by
  obtain ⟨a, b, -, -, -, f, g, -⟩ := C83_interference th.steps th.env th.env m m ⟨rfl, rfl⟩
  exact ⟨f, fun m' env' h => (C83_interference th.steps th.env env' m m' h).2.2.2.2.1, Prod.ext a b, g⟩

/-- A thread stores only to its targets. -/
theorem ops_frame (th : Thread) (had : ∀ st ∈ th.steps, st.Admissible) (m : Mem) (hw : m.WF) (x : Nat)
    (hx : ∀ st ∈ th.steps, ¬ st.Targets x) : at' (th.ops m).flatten x = [] := by
  refine at'_nil_of_last ?_
  cases hl : lastAt (th.ops m).flatten x with
  | none => rfl
  | some b =>
    exfalso
    -- a memory with other contents at `x`
    let m' : Mem := { m with data := fun _ => b + 1 }
    have h1 := (bootRun_frame th.steps had m' hw).2.2 x hx
    have h2 := (ops_spec th m').2.2.2
    rw [show th.ops m' = th.ops m from (ops_spec th m).2.1 m' th.env ⟨rfl, rfl⟩] at h2
    rw [h2, applyWrites_last, hl] at h1
    have h3 : b = b + 1 := h1
    have h4 : ∀ b : UInt8, b ≠ b + 1 := by
      intro b hb
      have : b.toNat = (b + 1).toNat := congrArg _ hb
      rw [UInt8.toNat_add] at this
      have h5 := b.toNat_lt
      rw [show (1 : UInt8).toNat = 1 from rfl] at this
      omega
    exact h4 b h3

/-- At most one thread stores to an address. -/
theorem ops_disjoint {threads : List Thread} (had : ∀ th ∈ threads, ∀ st ∈ th.steps, st.Admissible)
    (m : Mem) (hw : m.WF) (hdis : ThreadsDisjoint threads) (x : Nat) :
    (threads.map fun th => at' (th.ops m).flatten x).Pairwise fun a b => a = [] ∨ b = [] := by
  refine List.pairwise_map.2 (hdis.imp_of_mem fun {s t} hs ht h => ?_)
  by_cases hx : ∃ st ∈ s.steps, st.Targets x
  · obtain ⟨a, ha, hax⟩ := hx
    exact .inr (ops_frame t (had t ht) m hw x fun b hb hbx => h a ha b hb x ⟨hax, hbx⟩)
  · exact .inl (ops_frame s (had s hs) m hw x fun a ha hax => hx ⟨a, ha, hax⟩)

theorem ops_schedule {threads : List Thread} (had : ∀ th ∈ threads, ∀ st ∈ th.steps, st.Admissible)
    (m : Mem) (hw : m.WF) (hdis : ThreadsDisjoint threads) {ext : List Writes} {w : Writes}
    (hs : Schedule (ext :: threads.map (·.ops m)) w) (x : Nat) (hx : ∀ op ∈ ext, ∀ p ∈ op, p.1 ≠ x) :
    at' w x = (threads.map fun th => at' (th.ops m).flatten x).flatten := by
  have hd : ∀ ops ∈ threads.map (·.ops m), DistinctT ops := by
    intro ops ho
    obtain ⟨th, -, rfl⟩ := List.mem_map.1 ho
    exact (ops_spec th m).1
  have := at'_schedule hs hd hx (by rw [List.map_map]; exact ops_disjoint had m hw hdis x)
  rw [List.map_map] at this
  exact this

theorem at'_flatten (l : List Writes) (x : Nat) : at' l.flatten x = (l.map (at' · x)).flatten := by
  induction l with
  | nil => rfl
  | cons a l ih => rw [List.flatten_cons, at'_append, ih]; rfl

/-- One after the other. -/
theorem oneByOne_spec (threads : List Thread) (had : ∀ th ∈ threads, ∀ st ∈ th.steps, st.Admissible)
    (m : Mem) (hw : m.WF) :
    SameLayout m (oneByOne threads m) ∧
    (oneByOne threads m).data = applyWrites (threads.map fun th => (th.ops m).flatten).flatten m.data := by
  suffices h : ∀ m', SameLayout m m' → SameLayout m (oneByOne threads m') ∧
      (oneByOne threads m').data =
        applyWrites (threads.map fun th => (th.ops m).flatten).flatten m'.data from h m ⟨rfl, rfl⟩
  induction threads with
  | nil => exact fun m' h => ⟨h, rfl⟩
  | cons th threads ih =>
    intro m' h
    have hl := (bootRun_frame th.steps (had th (.head _)) m' (WF_layout h hw)).1
    have h' : SameLayout m (bootRun th.steps m').2.2 := ⟨hl.1.trans h.1, hl.2.trans h.2⟩
    obtain ⟨h1, h2⟩ := ih (fun t ht => had t (.tail _ ht)) _ h'
    refine ⟨h1, h2.trans ?_⟩
    rw [(ops_spec th m').2.2.2, show th.ops m' = th.ops m from (ops_spec th m).2.1 m' th.env h,
      List.map_cons, List.flatten_cons, applyWrites_append]

/-- **C83.** Threads that make any calls on guest memory at the same time, no two of them with a target
address in common, while something else stores arbitrary bytes (`ext`): however the bytes they store are
interleaved, every call has the outcome it has on its own, and every address that `ext` does not touch
ends up with the contents it gets when the threads run one after the other. -/
theorem C83_concurrent (threads : List Thread) (had : ∀ th ∈ threads, ∀ st ∈ th.steps, st.Admissible)
    (m : Mem) (hw : m.WF) (hdis : ThreadsDisjoint threads) (ext : List Writes) (w : Writes)
    (hs : Schedule (ext :: threads.map (·.ops m)) w) :
    (∀ th ∈ threads, th.outcome m = ((bootRun th.steps m).1, (bootRun th.steps m).2.1)) ∧
    ∀ x, (∀ op ∈ ext, ∀ p ∈ op, p.1 ≠ x) → applyWrites w m.data x = (oneByOne threads m).data x := by
  refine ⟨fun th _ => (ops_spec th m).2.2.1, fun x hx => ?_⟩
  rw [(oneByOne_spec threads had m hw).2]
  refine applyWrites_congr_at ?_ _
  rw [ops_schedule had m hw hdis hs x hx, at'_flatten, List.map_map]
  rfl

/-- **C83.** In which order the threads run is irrelevant, too. -/
theorem C83_any_order (threads threads' : List Thread)
    (had : ∀ th ∈ threads, ∀ st ∈ th.steps, st.Admissible) (m : Mem) (hw : m.WF)
    (hdis : ThreadsDisjoint threads) (hp : threads.Perm threads') :
    oneByOne threads' m = oneByOne threads m := by
  have had' : ∀ th ∈ threads', ∀ st ∈ th.steps, st.Admissible := fun th h => had th (hp.mem_iff.2 h)
  obtain ⟨h1, h2⟩ := oneByOne_spec threads had m hw
  obtain ⟨h1', h2'⟩ := oneByOne_spec threads' had' m hw
  rw [setData_of_layout h1, setData_of_layout h1', h2, h2']
  refine congrArg (fun d => setData d m) (funext fun x => applyWrites_congr_at ?_ _)
  rw [at'_flatten, at'_flatten, List.map_map, List.map_map]
  exact (flatten_perm_one (hp.map _) (ops_disjoint had m hw hdis x)).symm

/-- **C83**, at every crash point. If everything stops after some of the bytes have been stored (`w'`),
nothing outside the targets of the calls has changed (apart from what `ext` did). If the threads then
start again, in any interleaving, every call has the same outcome as without the crash, and so have the
contents of memory, wherever `ext` did not touch it. -/
theorem C83_crash (threads : List Thread) (had : ∀ th ∈ threads, ∀ st ∈ th.steps, st.Admissible)
    (m : Mem) (hw : m.WF) (hdis : ThreadsDisjoint threads) (ext : List Writes) (w w' : Writes)
    (hs : Schedule (ext :: threads.map (·.ops m)) w) (hw' : w' <+: w)
    (again : List Thread) (hsame : again.map (·.steps) = threads.map (·.steps)) (v : Writes)
    (hv : Schedule ([] :: again.map (·.ops { m with data := applyWrites w' m.data })) v) :
    (∀ th ∈ again, th.outcome { m with data := applyWrites w' m.data } =
      ((bootRun th.steps m).1, (bootRun th.steps m).2.1)) ∧
    ∀ x, (∀ op ∈ ext, ∀ p ∈ op, p.1 ≠ x) →
      (¬ Targeted threads x → applyWrites w' m.data x = m.data x) ∧
      applyWrites v (applyWrites w' m.data) x = (oneByOne threads m).data x := by
  have hlay : SameLayout m { m with data := applyWrites w' m.data } := ⟨rfl, rfl⟩
  have hops : again.map (·.ops { m with data := applyWrites w' m.data }) = threads.map (·.ops m) := by
    have : ∀ (l k : List Thread), l.map (·.steps) = k.map (·.steps) →
        l.map (·.ops { m with data := applyWrites w' m.data }) = k.map (·.ops m) := by
      intro l
      induction l with
      | nil => intro k hk; cases k with
        | nil => rfl
        | cons b k => cases hk
      | cons a l ih =>
        intro k hk
        cases k with
        | nil => cases hk
        | cons b k =>
          rw [List.map_cons, List.map_cons, List.cons.injEq] at hk
          rw [List.map_cons, List.map_cons, ih k hk.2]
          refine congrArg (· :: _) ?_
          have := (ops_spec b m).2.1 _ a.env hlay
          rw [← hk.1] at this
          exact this
    exact this _ _ hsame
  refine ⟨fun th hth => ?_, fun x hx => ?_⟩
  · rw [(ops_spec th _).2.2.1]
    obtain ⟨-, -, h3, h4, -⟩ := C83_interference th.steps th.env th.env m _ hlay
    rw [h3, h4]
  · have key := ops_schedule had m hw hdis hs x hx
    have hpre : at' w' x <+: at' w x := hw'.filter _
    rw [hops] at hv
    have keyv := ops_schedule had m hw hdis hv x fun op h => by cases h
    refine ⟨fun hT => ?_, ?_⟩
    · have h0 : at' w x = [] := by
        rw [key]
        refine List.flatten_eq_nil_iff.2 fun l hl => ?_
        obtain ⟨th, hth, rfl⟩ := List.mem_map.1 hl
        exact ops_frame th (had th hth) m hw x fun st hst h => hT ⟨th, hth, st, hst, h⟩
      rw [h0] at hpre
      rw [applyWrites_at, List.prefix_nil.1 hpre]
      rfl
    · rw [← (C83_concurrent threads had m hw hdis ext w hs).2 x hx]
      rw [applyWrites_congr_at (keyv.trans key.symm)]
      refine applyWrites_again _ _ _ _ ?_
      by_cases h0 : at' w x = []
      · left
        rw [h0] at hpre
        rw [applyWrites_at, List.prefix_nil.1 hpre]
        rfl
      · exact .inr h0

/-! ## There are such executions -/

theorem linear_self (ops : List Writes) : Linear ops ops.flatten := by
  induction ops with
  | nil => exact .nil
  | cons w ops ih => exact .cons (.refl w) ih

theorem interleave_nil {α : Type} {ls : List (List α)} {r : List α} (h : Interleave ls r) :
    Interleave ([] :: ls) r := by
  induction h with
  | nil h => exact .nil fun l hl => (List.mem_cons.1 hl).elim id (h l)
  | @cons pre post x l r _ ih => exact .cons (pre := [] :: pre) ih

theorem interleave_self {α : Type} (ls : List (List α)) : Interleave ls ls.flatten := by
  induction ls with
  | nil => exact .nil fun l hl => by cases hl
  | cons l ls ih =>
    rw [List.flatten_cons]
    induction l with
    | nil => exact interleave_nil ih
    | cons a l ihl => exact .cons (pre := []) ihl

/-- Whatever the threads do, running them one after the other is one of the schedules. -/
theorem schedule_self (threads : List (List Writes)) :
    Schedule threads (threads.map List.flatten).flatten := by
  refine ⟨threads.map List.flatten, ?_, interleave_self _⟩
  induction threads with
  | nil => exact .nil
  | cons t ts ih => exact .cons (linear_self t) ih

/-! ## Calls with common targets -/

/-- Two threads that load a device tree blob of two bytes each to the same address. -/
def tornThreads : List Thread :=
  [⟨[.dtb (.cursor [1, 2]) 0], fun _ f => f⟩, ⟨[.dtb (.cursor [3, 4]) 0], fun _ f => f⟩]

/-- **C83**, refuted expectation: that concurrent calls are always equivalent to some order of them. If
they have targets in common, the result can be a mixture of what they store, although every call reports
success. -/
theorem C83_torn : ∃ (threads : List Thread) (m : Mem) (w : Writes), m.WF ∧
    (∀ th ∈ threads, ∀ st ∈ th.steps, st.Admissible) ∧
    Schedule ([] :: threads.map (·.ops m)) w ∧
    (∀ th ∈ threads, (th.outcome m).2 = true) ∧
    ∀ threads', threads.Perm threads' → applyWrites w m.data ≠ (oneByOne threads' m).data := by
  have hops : tornThreads.map (·.ops bootMem) =
      [[[], [], [(0, 1), (1, 2)]], [[], [], [(0, 3), (1, 4)]]] := by decide +kernel
  refine ⟨tornThreads, bootMem, [(0, 1), (0, 3), (1, 4), (1, 2)], bootMem_wf, ?_, ?_, ?_, ?_⟩
  · intro th hth st hst
    simp only [tornThreads, List.mem_cons, List.not_mem_nil, or_false] at hth
    rcases hth with rfl | rfl <;> (rw [List.mem_singleton.1 hst]; trivial)
  · rw [hops]
    have lin : ∀ p q : Nat × UInt8, Linear [[], [], [p, q]] [p, q] := fun p q =>
      .cons (w' := []) (.refl _) (.cons (w' := []) (.refl _) (.cons (w' := [p, q]) (.refl _) .nil))
    refine ⟨[[], [(0, 1), (1, 2)], [(0, 3), (1, 4)]], .cons .nil (.cons (lin _ _) (.cons (lin _ _) .nil)), ?_⟩
    refine .cons (pre := [[]]) (post := [[(0, 3), (1, 4)]]) (l := [(1, 2)]) ?_
    refine .cons (pre := [[], [(1, 2)]]) (post := []) (l := [(1, 4)]) ?_
    refine .cons (pre := [[], [(1, 2)]]) (post := []) (l := []) ?_
    refine .cons (pre := [[]]) (post := [[]]) (l := []) ?_
    exact .nil (by simp)
  · intro th hth
    simp only [tornThreads, List.mem_cons, List.not_mem_nil, or_false] at hth
    rcases hth with rfl | rfl <;> decide +kernel
  · intro threads' hp he
    have h0 : applyWrites [(0, 1), (0, 3), (1, 4), (1, 2)] bootMem.data 0 = 3 := by decide +kernel
    have h1 : applyWrites [(0, 1), (0, 3), (1, 4), (1, 2)] bootMem.data 1 = 2 := by decide +kernel
    rw [he] at h0 h1
    have hcase : threads' = tornThreads ∨ threads' = tornThreads.reverse := by
      have : ∀ (a b : Thread) (l : List Thread), [a, b].Perm l → l = [a, b] ∨ l = [b, a] := by
        intro a b l hl
        match l, hl.length_eq with
        | [c, d], _ =>
          rcases List.mem_cons.1 (hl.mem_iff.1 (.head _) : a ∈ [c, d]) with rfl | h
          · left
            have := (List.perm_cons a).1 hl
            rw [List.perm_singleton.1 this.symm]
          · rw [List.mem_singleton.1 h] at hl ⊢
            right
            have h2 := hl.trans (List.Perm.swap d c [])
            have := (List.perm_cons d).1 h2
            have := List.singleton_perm_singleton.1 this
            rw [this]
      exact this _ _ _ hp
    rcases hcase with rfl | rfl
    · exact absurd h1 (by decide +kernel)
    · exact absurd h0 (by decide +kernel)

/-! ## A concrete case -/

/-- The boot of `Props/Boot.lean` in three threads; one of them fails. -/
def bootThreads : List Thread :=
  [⟨bootSteps.take 2, fun n f x => f x + UInt8.ofNat n⟩, ⟨(bootSteps.drop 2).take 1, fun _ _ _ => 0⟩,
    ⟨bootSteps.drop 3, fun _ f => f⟩]

/-- The hypotheses of the theorems hold for it, and the threads store something. -/
theorem bootThreads_ok : (∀ th ∈ bootThreads, ∀ st ∈ th.steps, st.Admissible) ∧ ThreadsDisjoint bootThreads ∧
    (bootThreads.map fun th => (th.ops bootMem).flatten.length) = [16, 5, 1] ∧
    (bootThreads.map fun th => (th.outcome bootMem).2) = [true, true, false] := by
  refine ⟨?_, ?_, by decide +kernel, by decide +kernel⟩
  · intro th hth st hst
    have : st ∈ bootSteps := by
      simp only [bootThreads, List.mem_cons, List.not_mem_nil, or_false] at hth
      rcases hth with rfl | rfl | rfl
      · exact List.mem_of_mem_take hst
      · exact List.mem_of_mem_drop (List.mem_of_mem_take hst)
      · exact List.mem_of_mem_drop hst
    exact bootSteps_ok.1 st this
  · have h := bootSteps_ok.2.2
    simp only [bootSteps, List.pairwise_cons, List.mem_cons, List.not_mem_nil, or_false,
      forall_eq_or_imp, forall_eq] at h
    obtain ⟨⟨h1, h2, h3⟩, ⟨h4, h5⟩, h6, -⟩ := h
    unfold ThreadsDisjoint bootThreads
    simp only [bootSteps, List.pairwise_cons, List.mem_cons, List.not_mem_nil, or_false,
      forall_eq_or_imp, forall_eq, List.take, List.drop, List.Pairwise.nil, and_true, false_implies,
      implies_true]
    exact ⟨⟨⟨h2, h4⟩, h3, h5⟩, h6⟩

example := C83_any_order bootThreads bootThreads.reverse bootThreads_ok.1 bootMem bootSteps_ok.2.1
  bootThreads_ok.2.1 (List.reverse_perm _).symm

example := C83_concurrent bootThreads bootThreads_ok.1 bootMem bootSteps_ok.2.1 bootThreads_ok.2.1

example := C83_crash bootThreads bootThreads_ok.1 bootMem bootSteps_ok.2.1 bootThreads_ok.2.1

example := C83_interference bootSteps (fun n f x => f x + UInt8.ofNat n) (fun _ _ _ => 0) bootMem
  { bootMem with data := fun x => UInt8.ofNat x } ⟨rfl, rfl⟩

end LinuxLoader
