import Verif.Lemmas.AnyElf

/-! # How many requests the loaders make, whatever the reader answers -/

namespace LinuxLoader
open Spec

variable {R : AnyReader}

/-- At most `n` requests. -/
def Costs {ε α : Type} (n : Nat) (x : LM AnyState ε α) : Prop := ∀ s, (x s).2.log.length ≤ s.log.length + n

namespace Costs
variable {ε α β : Type}

theorem mono {n k : Nat} {x : LM AnyState ε α} (h : Costs n x) (hk : n ≤ k) : Costs k x :=
  fun s => Nat.le_trans (h s) (by omega)

theorem ofRes (r : Res ε α) : Costs 0 (LM.ofRes r : LM AnyState ε α) := fun _ => Nat.le_refl _

theorem pure (a : α) : Costs 0 (Pure.pure a : LM AnyState ε α) := ofRes (.ok a)

theorem okOr (o : Option α) (e : ε) : Costs 0 (LM.okOr o e : LM AnyState ε α) := by
  cases o with
  | none => exact ofRes (.err e)
  | some a => exact ofRes (.ok a)

theorem require (b : Bool) (e : ε) : Costs 0 (LM.require b e : LM AnyState ε Unit) := by
  cases b with
  | false => exact ofRes (.err e)
  | true => exact ofRes (.ok ())

theorem bindI {n k : Nat} {x : LM AnyState ε α} {f : α → LM AnyState ε β} (hx : Costs n x)
    (hf : ∀ a s s₁, x s = (.ok a, s₁) → Costs k (f a)) : Costs (n + k) (x >>= f) := fun s => by
  have h := hx s
  refine LM.post_bind (Q := fun _ (t : AnyState) => t.log.length ≤ s.log.length + (n + k)) (fun e s₁ h1 => ?_)
    (fun s₁ h1 => ?_) fun a s₁ h1 => ?_
  · rw [h1] at h; simp only at h; omega
  · rw [h1] at h; simp only at h; omega
  · rw [h1] at h
    have := hf a s s₁ h1 s₁
    simp only at h
    omega

theorem bind {n k : Nat} {x : LM AnyState ε α} {f : α → LM AnyState ε β} (hx : Costs n x)
    (hf : ∀ a, Costs k (f a)) : Costs (n + k) (x >>= f) := bindI hx fun a _ _ _ => hf a

theorem seek (o : RdOp) (e : ε) : Costs 1 (anySeek R o e) := fun s => by
  unfold anySeek; split <;> simp [AnyState.add]

theorem seekEnd (e : ε) : Costs 1 (anySeekEnd R e) := fun s => by
  unfold anySeekEnd; split <;> simp [AnyState.add]

theorem read (o : RdOp) (n : Nat) (e : ε) : Costs 1 (anyRead R o n e) := fun s => by
  unfold anyRead; split <;> simp [AnyState.add]

theorem transfer (a n : Nat) (e : ε) : Costs 1 (anyTransfer R a n e) := fun s => by
  unfold anyTransfer; simp only; split <;> simp [AnyState.add]

end Costs

theorem costs_notePvh (t n : Nat) : Costs 1 (G.notePvh (anyIo R) t n) := by
  unfold G.notePvh
  split
  · exact .bind (k := 0) (.read _ _ _) fun _ => .pure _
  · exact (Costs.pure _).mono (by omega)

theorem costs_noteLoop (ph : Phdr) : ∀ fuel r,
    Costs (3 * ((ph.filesz - r + 11) / 12)) (G.noteLoop (anyIo R) ph fuel r)
  | 0, _ => (Costs.ofRes _).mono (by omega)
  | fuel + 1, r => by
    unfold G.noteLoop
    split
    · rename_i hr
      refine Costs.mono (.bind (.read _ _ _) fun b => .bind (k := 1 + 3 * ((ph.filesz - (r + 12) + 11) / 12))
        (costs_notePvh _ _) fun f => ?_) (by omega)
      cases f with
      | true => exact (Costs.pure _).mono (by omega)
      | false =>
        refine Costs.mono (k := _) (.bindI (k := 1 + 3 * ((ph.filesz - (r + 12) + 11) / 12)) (.ofRes _)
          fun rs s s₁ h => ?_) (by omega)
        have h3' : noteAdvance r (leField b 0 4) (leField b 4 4) = .ok rs := congrArg Prod.fst h
        have hrs := (noteAdvance_any (r := r) (leField_lt4 b 0) (leField_lt4 b 4)).2 rs h3'
        exact Costs.mono (.bind (.ofRes _) fun p => .bind (.seek _ _) fun _ => costs_noteLoop ph fuel rs) (by omega)
    · exact (Costs.pure _).mono (by omega)

theorem costs_parseNote (ph : Phdr) : Costs (3 + 3 * ((ph.filesz + 11) / 12)) (G.parseNote (anyIo R) ph) := by
  unfold G.parseNote
  refine Costs.mono (.bind (.seek _ _) fun _ => .bind (k := 2) (costs_noteLoop ph _ 0) fun r => ?_) (by
    rw [Nat.sub_zero]; omega)
  cases r with
  | none => exact (Costs.pure _).mono (by omega)
  | some n =>
    exact Costs.mono (.bind (.ofRes _) fun _ => .bind (.seek _ _) fun _ => .bind (.require _ _) fun _ =>
      .bind (.read _ _ _) fun _ => .pure _) (by omega)

theorem costs_readPhdrs : ∀ n, Costs n (G.readPhdrs (anyIo R) n)
  | 0 => .pure _
  | n + 1 => by
    unfold G.readPhdrs
    exact Costs.mono (.bind (.read _ _ _) fun _ => .bind (costs_readPhdrs n) fun _ => .pure _) (by omega)

theorem costs_loadSegment (koff : Option GuestAddr) (ph : Phdr) (kend : Nat) :
    Costs 2 (G.loadSegment (anyIo R) koff ph kend) := by
  unfold G.loadSegment
  exact .bind (n := 1) (k := 1) (.seek _ _) fun _ => Costs.mono (.bind (.okOr _ _) fun _ => .bind (.transfer _ _ _) fun _ =>
    .bind (.okOr _ _) fun _ => .pure _) (by omega)

theorem costs_loadSegments (koff : Option GuestAddr) : ∀ phs kend cap,
    Costs ((phs.map (phdrRequests koff)).sum) (G.loadSegments (anyIo R) koff phs kend cap)
  | [], _, _ => .pure _
  | ph :: phs, kend, cap => by
    rw [List.map_cons, List.sum_cons]
    unfold G.loadSegments
    split
    · rename_i hc
      have hnl : ¬ ph.Loadable := fun hl => hc.elim (fun h => h hl.1) (fun h => hl.2 h)
      split
      · rename_i hn
        cases koff with
        | some k => exact (costs_loadSegments _ phs _ _).mono (by omega)
        | none =>
          refine .bind ((costs_parseNote ph).mono ?_) fun _ => costs_loadSegments _ phs _ _
          unfold phdrRequests
          rw [if_neg hnl, if_pos ⟨hn, rfl⟩]
          exact Nat.le_refl _
      · exact (costs_loadSegments _ phs _ _).mono (by omega)
    · rename_i hc
      refine .bind ((costs_loadSegment koff ph kend).mono ?_) fun _ => costs_loadSegments _ phs _ _
      unfold phdrRequests
      rw [if_pos ⟨Decidable.not_not.1 fun h => hc (.inl h), fun h => hc (.inr h)⟩]
      exact Nat.le_refl _

theorem ofRes_any {ε α : Type} {r : Res ε α} {s s₁ : AnyState} {r' : Res ε α}
    (h : LM.ofRes r s = (r', s₁)) : s₁ = s := (congrArg Prod.snd h).symm

/-- The state after operations that make no request. -/
theorem checkEntry_same {highmem : Option GuestAddr} {e : Nat} {s s₁ : AnyState} {r : Res LoadError Unit}
    (h : G.checkEntry (anyIo R) highmem e s = (r, s₁)) : s₁ = s := by
  unfold G.checkEntry at h
  cases highmem with
  | none => exact (congrArg Prod.snd h).symm
  | some q =>
    have := require_mem (decide (q.toNat ≤ e)) (.elf .invalidEntryAddress : LoadError) s
    simp only at h
    rw [h] at this
    exact this

theorem elfKernelLoad_same {koff : Option GuestAddr} {e : Nat} {s s₁ : AnyState} {r : Res LoadError Nat}
    (h : G.elfKernelLoad (anyIo R) koff e s = (r, s₁)) : s₁ = s := by
  unfold G.elfKernelLoad at h
  cases koff with
  | none => exact (congrArg Prod.snd h).symm
  | some q =>
    have := okOr_mem (checkedAdd q.toNat e) (.elf .overflow : LoadError) s
    simp only at h
    rw [h] at this
    exact this

theorem seek_len {ε : Type} {o : RdOp} {e : ε} {s s₁ : AnyState} {r : Res ε Unit}
    (h : anySeek R o e s = (r, s₁)) : s₁.log.length ≤ s.log.length + 1 := by
  have := Costs.seek (R := R) o e s
  rw [h] at this
  exact this

theorem read_len {ε : Type} {o : RdOp} {n : Nat} {e : ε} {s s₁ : AnyState} {r : Res ε (List UInt8)}
    (h : anyRead R o n e s = (r, s₁)) : s₁.log.length ≤ s.log.length + 1 := by
  have := Costs.read (R := R) o n e s
  rw [h] at this
  exact this

theorem elfLoad_requests (koff highmem : Option GuestAddr) (m : Mem) :
    (G.elfLoad (anyIo R) koff highmem ⟨m, []⟩).2.log.length ≤
      3 + ((delivered 64 (G.elfLoad (anyIo R) koff highmem ⟨m, []⟩).2.log).map elfPhnum).sum +
      ((deliveredPhdrs (G.elfLoad (anyIo R) koff highmem ⟨m, []⟩).2.log).map (phdrRequests koff)).sum := by
  unfold G.elfLoad
  let Q : Res LoadError LoadResult → AnyState → Prop := fun _ t => t.log.length ≤
    3 + ((delivered 64 t.log).map elfPhnum).sum + ((deliveredPhdrs t.log).map (phdrRequests koff)).sum
  have few : ∀ {t : AnyState}, t.log.length ≤ 3 → ∀ r, Q r t := fun {t} h r => by
    show t.log.length ≤ 3 + _ + _
    omega
  refine LM.post_bind (Q := Q) (fun e s₁ h => few (by have := seek_len h; simp only [List.length_nil] at this; omega) .panic)
    (fun s₁ h => (not_panic_of (anySeek_noPanic _ _ _) h).elim) fun _ s₁ h1 => ?_
  obtain ⟨-, hs1⟩ := anySeek_ok h1
  have hl1 : s₁.log.length = 1 := by rw [hs1]; rfl
  refine LM.post_bind (Q := Q) (fun e s₁ h => few (by have := read_len h; omega) .panic)
    (fun s₁ h => (not_panic_of (anyRead_noPanic _ _ _ _) h).elim) fun eh s₂ h2 => ?_
  obtain ⟨-, hs2⟩ := anyRead_ok h2
  have hlog2 : s₂.log = [(.seekStart 0, .done), (.readExact 64, .bytes eh)] := by rw [hs2, hs1]; rfl
  have hl2 : s₂.log.length = 2 := by rw [hlog2]; rfl
  refine LM.post_bind (Q := Q) (fun e s₁ h => few (by rw [ofRes_any h]; omega) .panic)
    (fun s₁ h => (validateHeader_noPanic eh (congrArg Prod.fst h)).elim) fun _ s₃ h3 => ?_
  obtain rfl := ofRes_any h3
  refine LM.post_bind (Q := Q) (fun e s₁ h => few (by rw [checkEntry_same h]; omega) .panic)
    (fun s₁ h => few (by rw [checkEntry_same h]; omega) .panic) fun _ s₃ h3 => ?_
  obtain rfl := checkEntry_same h3
  refine LM.post_bind (Q := Q) (fun e s₁ h => few (by rw [elfKernelLoad_same h]; omega) .panic)
    (fun s₁ h => few (by rw [elfKernelLoad_same h]; omega) .panic) fun kl s₃ h3 => ?_
  obtain rfl := elfKernelLoad_same h3
  refine LM.post_bind (Q := Q) (fun e s₁ h => few (by have := seek_len h; omega) .panic)
    (fun s₁ h => (not_panic_of (anySeek_noPanic _ _ _) h).elim) fun _ s₆ h6 => ?_
  obtain ⟨-, hs6⟩ := anySeek_ok h6
  have hlog6 : s₆.log = [(.seekStart 0, .done), (.readExact 64, .bytes eh), (.seekStart (ehPhoff eh), .done)] := by
    rw [hs6]; simp only [AnyState.add, hlog2]; rfl
  have hl6 : s₆.log.length = 3 := by rw [hlog6]; rfl
  have hrp := steps_readPhdrs (R := R) (T := fun _ => False) (ehPhnum eh) s₆
  have hcp := costs_readPhdrs (R := R) (ehPhnum eh) s₆
  have head : ∀ {t : AnyState} {P : RdOp → Prop} (_ : ∀ o, P o → o ≠ .readExact 64) (l : List (RdOp × Answer)),
      t.log = s₆.log ++ l → (∀ e ∈ l, P e.1) → delivered 64 t.log = [eh] := by
    intro t P hP l hl hp
    rw [hl, delivered_append, delivered_none (l := l) (fun e he => hP _ (hp e he)), hlog6]
    rfl
  have hn : ∀ {t : AnyState}, delivered 64 t.log = [eh] → ((delivered 64 t.log).map elfPhnum).sum = ehPhnum eh := by
    intro t ht
    rw [ht]
    show elfPhnum eh + 0 = _
    rfl
  refine LM.post_bind (Q := Q) (fun e s₁ h => ?_)
    (fun s₁ h => (not_panic_of (noPanic_readPhdrs _ _) h).elim) fun phs s₇ h7 => ?_
  · rw [h] at hrp hcp
    obtain ⟨l, hl, hp⟩ := hrp.log
    have := hn (head (P := fun o => o = .readExact 56) (fun o ho => by rw [ho]; decide) l hl hp)
    show s₁.log.length ≤ 3 + _ + _
    simp only at hcp this
    omega
  · rw [h7] at hcp
    obtain ⟨l, hl7, hph, -, ho⟩ := readPhdrs_delivered _ _ _ _ h7
    have hst := steps_loadSegments (R := R) (koff := koff) phs 0 .ignored s₇
    have hcs := costs_loadSegments (R := R) koff phs 0 .ignored s₇
    have key : ∀ t : AnyState, StepTo (fun x => ∃ h ∈ phs, h.Loadable ∧ InRange (koffBase koff + h.paddr) h.filesz x)
        SegOp s₇ t → t.log.length ≤ s₇.log.length + (phs.map (phdrRequests koff)).sum → Q .panic t := by
      intro t hst hlen
      obtain ⟨l', hl', hso⟩ := hst.log
      have hlogt : t.log = s₆.log ++ (l ++ l') := by rw [hl', hl7, List.append_assoc]
      have h64 := hn (t := t) (head (P := fun o => o ≠ .readExact 64) (fun o ho => ho) (l ++ l') hlogt (fun e he => by
        rcases List.mem_append.1 he with he | he
        · rw [ho e he]; decide
        · intro heq
          have := hso e he
          rw [heq] at this
          simp only [SegOp] at this
          omega))
      have hdp : deliveredPhdrs t.log = phs := by
        rw [hlogt, deliveredPhdrs_append, deliveredPhdrs_append, hph, hlog6]
        have : deliveredPhdrs l' = [] := by
          unfold deliveredPhdrs; rw [delivered_segOp (by omega) (by omega) hso]; rfl
        rw [this, List.append_nil]
        rfl
      show t.log.length ≤ 3 + _ + _
      rw [h64, hdp]
      simp only at hcp
      omega
    refine LM.post_bind (Q := Q) (fun e s₁ h => ?_) (fun s₁ h => ?_) fun r s₈ h8 => ?_
    · rw [h] at hst hcs; exact key _ hst hcs
    · rw [h] at hst hcs; exact key _ hst hcs
    · rw [h8] at hst hcs; exact key _ hst hcs

end LinuxLoader
