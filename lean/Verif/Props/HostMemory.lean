import Verif.Spec.HostMemory
import Verif.Props.AnyReader
import Verif.Props.Incremental
import Verif.Props.CmdlineBuild

/-!
# Memory of the VMM that the crate uses (C92)

Vocabulary: `Spec/HostMemory.lean`. The reader is arbitrary (`Model/AnyReader.lean`).
-/

namespace LinuxLoader
open Spec

variable {R : AnyReader}

/-- What a run adds to the record: buffers of at most `b` bytes, of which `n` in total, and `k` requests for
program headers. -/
def Buffers {ε α : Type} (b n k : Nat) (x : LM AnyState ε α) : Prop :=
  ∀ s, ∃ l, (x s).2.log = s.log ++ l ∧ (∀ e ∈ l, bufferSize e.1 ≤ b) ∧ (buffers l).sum ≤ n ∧
    l.countP (fun e => decide (IsPhdrRequest e)) ≤ k

namespace Buffers
variable {ε α β : Type} {b n k n' k' : Nat}

theorem ofRes (r : Res ε α) : Buffers b 0 0 (LM.ofRes r : LM AnyState ε α) :=
  fun s => ⟨[], by simp [LM.ofRes], by simp, Nat.le_refl _, Nat.le_refl _⟩

theorem pure (a : α) : Buffers b 0 0 (Pure.pure a : LM AnyState ε α) := ofRes (.ok a)

theorem okOr (o : Option α) (e : ε) : Buffers b 0 0 (LM.okOr o e : LM AnyState ε α) := by
  cases o with
  | none => exact ofRes (.err e)
  | some a => exact ofRes (.ok a)

theorem require (c : Bool) (e : ε) : Buffers b 0 0 (LM.require c e : LM AnyState ε Unit) := by
  cases c with
  | false => exact ofRes (.err e)
  | true => exact ofRes (.ok ())

theorem mono {x : LM AnyState ε α} (h : Buffers b n k x) (hn : n ≤ n') (hk : k ≤ k') : Buffers b n' k' x := fun s => by
  obtain ⟨l, h1, h2, h3, h4⟩ := h s
  exact ⟨l, h1, h2, Nat.le_trans h3 hn, Nat.le_trans h4 hk⟩

theorem bind {x : LM AnyState ε α} {f : α → LM AnyState ε β} (hx : Buffers b n k x)
    (hf : ∀ a, Buffers b n' k' (f a)) : Buffers b (n + n') (k + k') (x >>= f) := fun s => by
  obtain ⟨l, h1, h2, h3, h4⟩ := hx s
  refine LM.post_bind (Q := fun _ (t : AnyState) => ∃ l, t.log = s.log ++ l ∧ (∀ e ∈ l, bufferSize e.1 ≤ b) ∧
    (buffers l).sum ≤ n + n' ∧ l.countP (fun e => decide (IsPhdrRequest e)) ≤ k + k')
    (fun e s₁ h => ?_) (fun s₁ h => ?_) fun a s₁ h => ?_
  · rw [h] at h1; exact ⟨l, h1, h2, by omega, by omega⟩
  · rw [h] at h1; exact ⟨l, h1, h2, by omega, by omega⟩
  · rw [h] at h1
    obtain ⟨l', h1', h2', h3', h4'⟩ := hf a s₁
    refine ⟨l ++ l', by rw [h1', h1, List.append_assoc], fun e he => ?_, ?_, ?_⟩
    · rcases List.mem_append.1 he with he | he
      · exact h2 e he
      · exact h2' e he
    · unfold buffers at *
      rw [List.map_append, List.sum_append]
      omega
    · rw [List.countP_append]
      omega

theorem one (s : AnyState) (o : RdOp) (a : Answer) (hb : bufferSize o ≤ b) (hk : o = .readExact 56 → 1 ≤ k) :
    ∃ l, (s.add o a).log = s.log ++ l ∧ (∀ e ∈ l, bufferSize e.1 ≤ b) ∧ (buffers l).sum ≤ bufferSize o ∧
      l.countP (fun e => decide (IsPhdrRequest e)) ≤ k := by
  refine ⟨[(o, a)], rfl, by simpa using hb, by simp [buffers], ?_⟩
  by_cases h : o = .readExact 56
  · have := hk h
    simp [IsPhdrRequest, h]
    omega
  · simp [IsPhdrRequest, h]

theorem seek (o : RdOp) (e : ε) (h0 : bufferSize o = 0) : Buffers b 0 0 (anySeek R o e) := fun s => by
  have hk : o = .readExact 56 → 1 ≤ 0 := by rintro rfl; cases h0
  unfold anySeek
  split
  · have := one (b := b) (k := 0) s o .failed (by omega) hk; rw [h0] at this; exact this
  · have := one (b := b) (k := 0) s o .done (by omega) hk; rw [h0] at this; exact this

theorem seekEnd (e : ε) : Buffers b 0 0 (anySeekEnd R e) := fun s => by
  unfold anySeekEnd
  split <;> exact one s .seekEnd _ (Nat.zero_le _) (fun h => nomatch h)

theorem read (o : RdOp) (n : Nat) (e : ε) (h0 : bufferSize o = n) (hb : n ≤ b)
    (hk : o = .readExact 56 → 1 ≤ k) : Buffers b n k (anyRead R o n e) := fun s => by
  subst h0
  unfold anyRead
  split <;> exact one s o _ hb hk

theorem transfer (a n : Nat) (e : ε) : Buffers b 0 0 (anyTransfer R a n e) := fun s => by
  unfold anyTransfer
  simp only
  split <;> exact one { s with mem := _ } (.readIntoMem a n) _ (Nat.zero_le _) (fun h => nomatch h)

end Buffers

/-! ## Loaders -/

/-- What a run adds to the record, if the total does not matter. -/
def SmallBuffers {ε α : Type} (b k : Nat) (x : LM AnyState ε α) : Prop :=
  ∀ s, ∃ l, (x s).2.log = s.log ++ l ∧ (∀ e ∈ l, bufferSize e.1 ≤ b) ∧
    l.countP (fun e => decide (IsPhdrRequest e)) ≤ k

theorem Buffers.small {ε α : Type} {b n k : Nat} {x : LM AnyState ε α} (h : Buffers b n k x) : SmallBuffers b k x :=
  fun s => by
    obtain ⟨l, h1, h2, -, h4⟩ := h s
    exact ⟨l, h1, h2, h4⟩

theorem Steps.small {ε α : Type} {T : Nat → Prop} {x : LM AnyState ε α} (h : Steps T SegOp x) : SmallBuffers 64 0 x :=
  fun s => by
    obtain ⟨l, h1, h2⟩ := (h s).log
    refine ⟨l, h1, fun e he => ?_, ?_⟩
    · have := h2 e he
      obtain ⟨o, a⟩ := e
      cases o <;> simp only [SegOp, bufferSize] at this ⊢ <;> omega
    · rw [Nat.le_zero, List.countP_eq_zero]
      intro e he hc
      have := h2 e he
      have hc : e.1 = .readExact 56 := of_decide_eq_true hc
      rw [hc] at this
      simp [SegOp] at this

theorem SmallBuffers.bind {ε α β : Type} {b k k' : Nat} {x : LM AnyState ε α} {f : α → LM AnyState ε β}
    (hx : SmallBuffers b k x) (hf : ∀ a, SmallBuffers b k' (f a)) : SmallBuffers b (k + k') (x >>= f) := fun s => by
  obtain ⟨l, h1, h2, h4⟩ := hx s
  refine LM.post_bind (Q := fun _ (t : AnyState) => ∃ l, t.log = s.log ++ l ∧ (∀ e ∈ l, bufferSize e.1 ≤ b) ∧
    l.countP (fun e => decide (IsPhdrRequest e)) ≤ k + k')
    (fun e s₁ h => ?_) (fun s₁ h => ?_) fun a s₁ h => ?_
  · rw [h] at h1; exact ⟨l, h1, h2, by omega⟩
  · rw [h] at h1; exact ⟨l, h1, h2, by omega⟩
  · rw [h] at h1
    obtain ⟨l', h1', h2', h4'⟩ := hf a s₁
    refine ⟨l ++ l', by rw [h1', h1, List.append_assoc], fun e he => ?_, ?_⟩
    · rcases List.mem_append.1 he with he | he
      · exact h2 e he
      · exact h2' e he
    · rw [List.countP_append]
      omega

theorem SmallBuffers.mono {ε α : Type} {b k k' : Nat} {x : LM AnyState ε α} (h : SmallBuffers b k x) (hk : k ≤ k') :
    SmallBuffers b k' x := fun s => by
  obtain ⟨l, h1, h2, h4⟩ := h s
  exact ⟨l, h1, h2, Nat.le_trans h4 hk⟩

theorem small_readPhdrs : ∀ n, SmallBuffers 64 n (G.readPhdrs (anyIo R) n)
  | 0 => (Buffers.pure _).small
  | n + 1 => by
    unfold G.readPhdrs
    exact (SmallBuffers.bind (k := 1) (Buffers.read (.readExact 56) 56 _ rfl (by omega) (fun _ => Nat.le_refl _)).small fun _ =>
      .bind (small_readPhdrs n) fun _ => (Buffers.pure _).small).mono (by omega)

/-- **C92 (ELF).** Whatever the reader does: no buffer of `Elf::load` is longer than 64 bytes, and it gets at most
65535 program headers of 56 bytes, the only ones it keeps: less than 3.7 MB, whatever the size of the image. -/
theorem C92_elf (R : AnyReader) (koff highmem : Option GuestAddr) (m : Mem) :
    let log := (G.elfLoad (anyIo R) koff highmem (fresh m)).2.log
    (∀ n ∈ buffers log, n ≤ 64) ∧ log.countP (fun e => decide (IsPhdrRequest e)) ≤ 65535 := by
  intro log
  have key : SmallBuffers 64 65535 (G.elfLoad (anyIo R) koff highmem) := by
    unfold G.elfLoad
    refine (SmallBuffers.bind (k := 0) (Buffers.seek _ _ rfl).small fun _ =>
      .bind (k := 0) (Buffers.read (.readExact 64) _ _ rfl (Nat.le_refl _) (by simp)).small fun eh =>
      .bind (k := 0) (Buffers.ofRes _).small fun _ => .bind (k := 0) (k' := 65535) ?_ fun _ =>
      .bind (k := 0) (k' := 65535) ?_ fun _ =>
      .bind (k := 0) (Buffers.seek _ _ rfl).small fun _ =>
      .bind (k := 65535) ((small_readPhdrs _).mono ?_) fun phs =>
      .bind (k := 0) (steps_loadSegments phs _ _).small fun _ => (Buffers.pure _).small).mono (by omega)
    · unfold G.checkEntry
      cases highmem with
      | none => exact (Buffers.pure _).small
      | some q => exact (Buffers.require _ _).small
    · unfold G.elfKernelLoad
      cases koff with
      | none => exact (Buffers.pure _).small
      | some q => exact (Buffers.okOr _ _).small
    · have : leField eh 56 2 < 256 ^ 2 := leField_lt eh 56 2
      unfold ehPhnum
      omega
  obtain ⟨l, h1, h2, h3⟩ := key (fresh m)
  have hl : log = l := by show (G.elfLoad (anyIo R) koff highmem (fresh m)).2.log = l; rw [h1]; rfl
  rw [hl]
  refine ⟨fun n hn => ?_, h3⟩
  obtain ⟨e, he, rfl⟩ := List.mem_map.1 hn
  exact h2 e he

/-- **C92 (bzImage, PE, device tree).** The buffers of one call have together at most 123 bytes, 64 bytes, and none
respectively: everything else goes to guest memory directly. -/
theorem C92_images (R : AnyReader) (arch : PeArch) (koff highmem : Option GuestAddr) (a : GuestAddr) (m : Mem) :
    (buffers (G.bzLoad (anyIo R) koff highmem (fresh m)).2.log).sum ≤ 123 ∧
    (buffers (G.peLoad (anyIo R) arch koff highmem (fresh m)).2.log).sum ≤ 64 ∧
    (buffers (G.loadDtb (anyIo R) a (fresh m)).2.log).sum = 0 := by
  have use : ∀ {α : Type} {n : Nat} {x : LM AnyState LoadError α}, Buffers 123 n 0 x →
      (buffers (x (fresh m)).2.log).sum ≤ n := by
    intro α n x h
    obtain ⟨l, h1, -, h3, -⟩ := h (fresh m)
    rw [h1]
    exact h3
  have h1 : Buffers 123 123 0 (G.bzLoad (anyIo R) koff highmem) := by
    unfold G.bzLoad G.bzRest
    refine Buffers.mono (.bind (.seekEnd _) fun _ => .bind (.seek (.seekStart _) _ rfl) fun _ =>
      .bind (.read (k := 0) (.readVolatile 123) 123 _ rfl (Nat.le_refl _) (fun h => nomatch h)) fun _ =>
      .bind (.require _ _) fun _ => .bind (.require _ _) fun _ => .bind (.okOr _ _) fun _ => .bind (.okOr _ _) fun _ =>
      .bind (n := 0) (k := 0) ?_ fun _ => .bind (.seek (.seekStart _) _ rfl) fun _ => .bind (.transfer _ _ _) fun _ =>
      .bind (.okOr _ _) fun _ => .pure _) (by omega) (by omega)
    unfold G.bzCheckHighmem
    cases highmem with
    | none => exact .pure _
    | some q => exact .require _ _
  have h2 : Buffers 123 64 0 (G.peLoad (anyIo R) arch koff highmem) := by
    unfold G.peLoad
    refine Buffers.mono (.bind (.seekEnd _) fun _ => .bind (.seek (.seekStart _) _ rfl) fun _ =>
      .bind (.read (k := 0) (.readExact 64) 64 _ rfl (by omega) (by simp)) fun _ =>
      .bind (.require _ _) fun _ => .bind (n := 0) (k := 0) ?_ fun _ => .bind (.okOr _ _) fun _ =>
      .bind (.seek (.seekStart _) _ rfl) fun _ => .bind (.transfer _ _ _) fun _ => .bind (.okOr _ _) fun _ => .pure _)
      (by omega) (by omega)
    unfold G.peCheckAlign
    cases koff with
    | none => exact .pure _
    | some q => exact .require _ _
  have h3 : Buffers 123 0 0 (G.loadDtb (anyIo R) a) := by
    unfold G.loadDtb
    exact Buffers.mono (.bind (.seekEnd _) fun _ => .bind (.require _ _) fun _ => .bind (.seek (.seekStart _) _ rfl) fun _ =>
      .transfer _ _ _) (by omega) (by omega)
  exact ⟨use h1, use h2, Nat.le_zero.1 (use h3)⟩

/-! ## Boot parameters and command lines -/

/-- **C92 (boot parameters).** After any calls, a list has exactly the bytes from its first piece to the end of its
last one. -/
theorem C92_lists (header : List UInt8) (addr : GuestAddr) (ops : List ParamOp) (hz : ∀ op ∈ ops, RustSized op)
    (a e : Nat) :
    let r := (BootParams.new header addr).run ops
    (Span (sectionPieces r.1) a e → (r.2.sections.getD []).length = e - a) ∧
    (Span (modulePieces r.1) a e → (r.2.modules.getD []).length = e - a) := by
  intro r
  obtain ⟨h1, h2⟩ := C22_sparse_image header addr ops hz
  have key : ∀ {bytes start pieces}, ListReflects bytes start pieces → Span pieces a e →
      (bytes.getD []).length = e - a := by
    rintro bytes start pieces ⟨-, h⟩ ⟨⟨bs, rest, hp⟩, ⟨q, hq, hqe⟩, hmax⟩
    obtain ⟨s, b, -, rfl, -, hi⟩ := h a bs rest hp
    have e1 := (hi.covers q hq).2
    obtain ⟨q', hq', e2⟩ := hi.tight
    have e3 := hmax q' hq'
    simp only [Option.getD_some]
    omega
  exact ⟨key h1, key h2⟩

/-- A history with a gap: seven bytes for pieces of five. -/
example := C92_lists [] 0 [.addSection [1, 2] (some 0x10), .addSection [3, 4] none, .addSection [5] (some 0x16)]
  (by simp [RustSized, ISZ]) 0x10 0x17
example : Span (sectionPieces ((BootParams.new [] 0).run
    [.addSection [1, 2] (some 0x10), .addSection [3, 4] none, .addSection [5] (some 0x16)]).1) 0x10 0x17 :=
  ⟨⟨[1, 2], [(0x12, [3, 4]), (0x16, [5])], by decide⟩, ⟨(0x16, [5]), by decide, rfl⟩, by decide⟩

/-- **C92 (boot parameters; refutes that the memory used is bounded by what was added).** Two accepted elements of
one byte make a list of `n` bytes, for any `n` below `isize::MAX`. -/
theorem C92_lists_refuted (header : List UInt8) (addr : GuestAddr) (n : Nat) (h2 : 2 ≤ n) (hn : n < ISZ) :
    let r := (BootParams.new header addr).run [.addSection [1] (some 0), .addSection [2] (some (UInt64.ofNat (n - 1)))]
    (∀ c ∈ r.1, ∃ a, c.2 = .ok a) ∧ (r.2.sections.getD []).length = n := by
  intro r
  have hto : (UInt64.ofNat (n - 1)).toNat = n - 1 := by
    rw [UInt64.toNat_ofNat']
    exact Nat.mod_eq_of_lt (by unfold ISZ at hn; omega)
  have e1 : (BootParams.new header addr).addSection [1] (some 0) =
      (.ok 0, { BootParams.new header addr with sections := some [1], sectionsStart := some 0 }) := by
    have : addToList [1] (some 0) ⟨[], none⟩ = (.ok 0, ⟨[1], some 0⟩) := by decide +kernel
    unfold BootParams.addSection
    simp only [BootParams.new, Option.getD_none, this]
  have e2 := addToList_eq [2] (some (UInt64.ofNat (n - 1))) ⟨[1], some 0⟩ 0 (.inl rfl)
  simp only [Option.map_some, Option.getD_some, hto, List.length_cons, List.length_nil, UInt64.toNat_zero] at e2
  rcases e2 with ⟨h, -⟩ | ⟨-, h, -⟩ | ⟨-, -, h, -⟩ | ⟨-, -, -, x, -, h⟩
  · unfold U64 at h; omega
  · omega
  · omega
  · have e3 : (BootParams.addSection { BootParams.new header addr with sections := some [1], sectionsStart := some 0 }
        [2] (some (UInt64.ofNat (n - 1)))) = (.ok x, { BootParams.new header addr with
          sections := some (overlay [1] (n - 1 - 0) [2]), sectionsStart := some 0 }) := by
      unfold BootParams.addSection
      simp only [Option.getD_some, h]
    have hr : r = ([(.addSection [1] (some 0), .ok 0), (.addSection [2] (some (UInt64.ofNat (n - 1))), .ok x)],
        { BootParams.new header addr with
          sections := some (overlay [1] (n - 1 - 0) [2]), sectionsStart := some 0 }) := by
      show (BootParams.new header addr).run _ = _
      simp only [BootParams.run, BootParams.step, e1, e3]
    rw [hr]
    refine ⟨fun c hc => ?_, ?_⟩
    · rcases List.mem_cons.1 hc with rfl | hc
      · exact ⟨_, rfl⟩
      · rw [List.mem_singleton.1 hc]; exact ⟨_, rfl⟩
    · simp only [Option.getD_some, overlay_length, List.length_cons, List.length_nil]
      omega

example := C92_lists_refuted [] 0 0x10000000000 (by decide) (by decide)

/-- **C92 (command lines).** The two strings of a command line have together less bytes than its capacity. -/
theorem C92_cmdline (c : Cmdline) (h : Cmdline.Reachable c) :
    c.bootArgs.utf8Len + c.initArgs.utf8Len < c.capacity.toNat := by
  have := C01_text_fits c h
  unfold Fits text at this
  split at this
  · rename_i hi; rw [hi]; simp [Str.utf8Len] at this ⊢; omega
  · simp [Str.utf8Len] at this ⊢; omega

example := C92_cmdline demo demo_reachable

end LinuxLoader
