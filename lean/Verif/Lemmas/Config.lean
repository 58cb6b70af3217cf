import Verif.Spec.Pvh
import Verif.Lemmas.BootParams

namespace LinuxLoader
open Spec

/-- `checked_offset` followed by `write_slice`, as all configurators do it. -/
def guardedWrite {ε : Type} (bs : List UInt8) (a : GuestAddr) (e₁ e₂ : ε) : LM Mem ε Unit := do
  let _ ← checkedOffsetOr a bs.length e₁
  writeSliceOr bs a e₂

theorem guardedWrite_cases {ε : Type} (bs : List UInt8) (a : GuestAddr) (e₁ e₂ : ε) (m : Mem)
    (hw : m.WF) :
    (m.mapped (a.toNat + bs.length) = false ∧ guardedWrite bs a e₁ e₂ m = (.err e₁, m)) ∨
    (m.mapped (a.toNat + bs.length) = true ∧ ¬ Mapped m a.toNat bs.length ∧
      ∃ m', PrefixStored m m' a.toNat bs ∧ guardedWrite bs a e₁ e₂ m = (.err e₂, m')) ∨
    (m.mapped (a.toNat + bs.length) = true ∧ Mapped m a.toNat bs.length ∧
      guardedWrite bs a e₁ e₂ m = (.ok (), m.store a.toNat bs)) := by
  unfold guardedWrite
  rw [LM.bind_def, checkedOffsetOr_eq]
  cases hc : m.checkedOffset a bs.length with
  | none => exact .inl ⟨(checkedOffset_none hw).1 hc, rfl⟩
  | some e =>
    have hm := (checkedOffset_some hw).1 ⟨e, hc⟩
    right
    simp only
    rw [writeSliceOr_eq]
    obtain ⟨h1, h2, h3⟩ := Mem.writeSlice_spec m bs a
    by_cases hM : Mapped m a.toNat bs.length
    · right
      have hacc : Accessible m a.toNat bs.length := by
        refine ⟨hM, fun h0 => .inr ?_⟩
        rw [h0] at hm; exact hm
      have hcan := Mem.canAccess_iff.2 hacc
      refine ⟨hm, hM, ?_⟩
      rw [h2 hcan, hcan]; rfl
    · left
      refine ⟨hm, hM, _, h3, ?_⟩
      have : m.canAccess a.toNat bs.length = false := by
        cases hx : m.canAccess a.toNat bs.length with
        | false => rfl
        | true => exact absurd (Mem.canAccess_iff.1 hx).1 hM
      rw [this]; rfl

theorem writeSliceOr_cases {ε : Type} (bs : List UInt8) (a : GuestAddr) (e : ε) (m : Mem) :
    (Accessible m a.toNat bs.length ∧
      writeSliceOr bs a e m = (.ok (), m.store a.toNat bs)) ∨
    (¬ Accessible m a.toNat bs.length ∧
      ∃ m', PrefixStored m m' a.toNat bs ∧ writeSliceOr bs a e m = (.err e, m')) := by
  rw [writeSliceOr_eq]
  obtain ⟨h1, h2, h3⟩ := Mem.writeSlice_spec m bs a
  cases hx : m.canAccess a.toNat bs.length with
  | true => exact .inl ⟨Mem.canAccess_iff.1 hx, by rw [h2 hx]; rfl⟩
  | false =>
    refine .inr ⟨fun h => ?_, _, h3, rfl⟩
    rw [Mem.canAccess_iff.2 h] at hx; cases hx

theorem WF_store {m : Mem} (h : m.WF) (a : Nat) (bs : List UInt8) : (m.store a bs).WF := h

theorem Mapped_store {m : Mem} {a n b : Nat} {bs : List UInt8} :
    Mapped (m.store b bs) a n ↔ Mapped m a n := Iff.rfl

theorem Accessible_store {m : Mem} {a n b : Nat} {bs : List UInt8} :
    Accessible (m.store b bs) a n ↔ Accessible m a n := Iff.rfl

/-- What a prefix of a write changes. -/
theorem prefixStored_frame {m m' : Mem} {a : Nat} {bs : List UInt8} (h : PrefixStored m m' a bs) :
    SameLayout m m' ∧ ∀ x, ¬ InRange a bs.length x → m'.data x = m.data x := by
  obtain ⟨k, hk, -, h1, -, h3⟩ := h
  refine ⟨h1, fun x hx => h3 x fun hin => hx ?_⟩
  rw [List.length_take] at hin
  unfold InRange at hin ⊢
  omega

theorem store_frame {m : Mem} {a : Nat} {bs : List UInt8} {x : Nat} (hx : ¬ InRange a bs.length x) :
    (m.store a bs).data x = m.data x := (Mem.stored_store m a bs).2.2 x hx

theorem linuxWrite_eq (p : BootParams) :
    linuxWrite p = guardedWrite p.header p.headerStart .zeroPagePastRamEnd .zeroPageSetup := rfl

theorem fdtWrite_eq (p : BootParams) :
    fdtWrite p = guardedWrite p.header p.headerStart .fdtPastRamEnd .writeFdtToMemory := rfl

theorem LM.bind_assoc' {σ ε α β γ : Type} (x : LM σ ε α) (f : α → LM σ ε β) (g : β → LM σ ε γ) :
    (x >>= f) >>= g = x >>= fun a => f a >>= g := by
  funext s
  simp only [LM.bind_def]
  rcases x s with ⟨_ | _ | _, s'⟩ <;> rfl

theorem pvhWrite_eq {p : BootParams} {b : List UInt8} {a : GuestAddr} (hb : p.sections = some b)
    (ha : p.sectionsStart = some a) :
    pvhWrite p = (guardedWrite b a .memmapTablePastRamEnd .memmapTableSetup >>= fun _ =>
      guardedWrite p.header p.headerStart .startInfoPastRamEnd .startInfoSetup >>= fun _ =>
        pvhWriteModules p) := by
  unfold pvhWrite guardedWrite
  rw [hb, ha]
  simp only [LM.bind_assoc', LM.okOr_some]
  rfl

theorem pvhWriteModules_cases (p : BootParams) (m : Mem) :
    (p.modules = none ∧ pvhWriteModules p m = (.ok (), m)) ∨
    (p.modules ≠ none ∧ p.modulesStart = none ∧
      pvhWriteModules p m = (.err .modulesAddressMissing, m)) ∨
    ∃ b a, p.modules = some b ∧ p.modulesStart = some a ∧
      pvhWriteModules p m = writeSliceOr b a .modulesSetup m := by
  unfold pvhWriteModules
  cases hm : p.modules with
  | none => exact .inl ⟨rfl, rfl⟩
  | some b =>
    right
    cases ha : p.modulesStart with
    | none => exact .inl ⟨by simp, rfl, rfl⟩
    | some a => exact .inr ⟨b, a, rfl, rfl, rfl⟩

theorem firstObstacle_unique {ε : Type} {l : List (ε × Prop)} {r s : Option ε}
    (h : FirstObstacle l r) (h' : FirstObstacle l s) : r = s := by
  induction h with
  | none => cases h'; rfl
  | here hp => cases h' with
    | here => rfl
    | later hn => exact absurd hp hn
  | later hn _ ih => cases h' with
    | here hp => exact absurd hp hn
    | later _ h => exact ih h

/-- All outcomes of the PVH configurator: first obstacle, and the memory it leaves. -/
theorem pvhWrite_cases (p : BootParams) (m : Mem) (hw : m.WF) :
    ∃ r m', pvhWrite p m = (r, m') ∧
      SameLayout m m' ∧ (∀ x, ¬ InPieces (pvhPieces p) x → m'.data x = m.data x) ∧
      ((r = .ok () ∧ FirstObstacle (pvhObstacles p m) none ∧
          ∀ x, m'.data x = (lastPiece (pvhPieces p) x).getD (m.data x)) ∨
       ∃ e, r = .err e ∧ FirstObstacle (pvhObstacles p m) (some e) ∧
         (e = .memmapTableMissing ∨ e = .memmapTableAddressMissing ∨ e = .memmapTablePastRamEnd →
            m' = m)) := by
  cases hb : p.sections with
  | none =>
    refine ⟨.err .memmapTableMissing, m, by unfold pvhWrite; rw [hb]; rfl, ⟨rfl, rfl⟩,
      fun _ _ => rfl, .inr ⟨_, rfl, .here hb, fun _ => rfl⟩⟩
  | some b =>
  cases ha : p.sectionsStart with
  | none =>
    refine ⟨.err .memmapTableAddressMissing, m, by unfold pvhWrite; rw [hb, ha]; rfl, ⟨rfl, rfl⟩,
      fun _ _ => rfl, .inr ⟨_, rfl, .later (by simp [hb]) (.here ha), fun _ => rfl⟩⟩
  | some a =>
  have o1 : ¬ p.sections = none := by simp [hb]
  have o2 : ¬ p.sectionsStart = none := by simp [ha]
  have hin1 : ∀ x, ¬ InPieces (pvhPieces p) x → ¬ InRange a.toNat b.length x := fun x hx h =>
    hx ⟨(a.toNat, b), by simp [pvhPieces, optPiece, hb, ha], h⟩
  have hin2 : ∀ x, ¬ InPieces (pvhPieces p) x →
      ¬ InRange p.headerStart.toNat p.header.length x := fun x hx h =>
    hx ⟨(p.headerStart.toNat, p.header), by simp [pvhPieces], h⟩
  rw [pvhWrite_eq hb ha]
  rcases guardedWrite_cases b a PvhError.memmapTablePastRamEnd .memmapTableSetup m hw with
    ⟨h1, he⟩ | ⟨h1, h2, m1, hm1, he⟩ | ⟨h1, h2, he⟩
  · exact ⟨_, m, LM.bind_err he, ⟨rfl, rfl⟩, fun _ _ => rfl,
      .inr ⟨_, rfl, .later o1 (.later o2 (.here ⟨b, a, hb, ha, h1⟩)), fun _ => rfl⟩⟩
  · refine ⟨_, m1, LM.bind_err he, (prefixStored_frame hm1).1,
      fun x hx => (prefixStored_frame hm1).2 x (hin1 x hx),
      .inr ⟨_, rfl, .later o1 (.later o2 (.later ?_ (.here ⟨b, a, hb, ha, h2⟩))), by simp⟩⟩
    rintro ⟨b', a', hb', ha', h'⟩
    rw [hb] at hb'; rw [ha] at ha'; cases hb'; cases ha'
    rw [h1] at h'; cases h'
  · rw [LM.bind_ok he]
    have o3 : ¬ ∃ b a, p.sections = some b ∧ p.sectionsStart = some a ∧
        m.mapped (a.toNat + b.length) = false := by
      rintro ⟨b', a', hb', ha', h'⟩
      rw [hb] at hb'; rw [ha] at ha'; cases hb'; cases ha'
      rw [h1] at h'; cases h'
    have o4 : ¬ ∃ b a, p.sections = some b ∧ p.sectionsStart = some a ∧
        ¬ Mapped m a.toNat b.length := by
      rintro ⟨b', a', hb', ha', h'⟩
      rw [hb] at hb'; rw [ha] at ha'; cases hb'; cases ha'
      exact h' h2
    generalize hM : m.store a.toNat b = M at he ⊢
    have hMl : SameLayout m M := by rw [← hM]; exact ⟨rfl, rfl⟩
    have hMf : ∀ x, ¬ InPieces (pvhPieces p) x → M.data x = m.data x := fun x hx => by
      rw [← hM]; exact store_frame (hin1 x hx)
    have hMw : M.WF := by rw [← hM]; exact hw
    have hMm : ∀ x, M.mapped x = m.mapped x := by rw [← hM]; exact fun _ => rfl
    have hMM : ∀ x n, Mapped M x n ↔ Mapped m x n := by rw [← hM]; exact fun _ _ => Iff.rfl
    have hMA : ∀ x n, Accessible M x n ↔ Accessible m x n := by rw [← hM]; exact fun _ _ => Iff.rfl
    rcases guardedWrite_cases p.header p.headerStart PvhError.startInfoPastRamEnd .startInfoSetup
      M hMw with ⟨k1, ke⟩ | ⟨k1, k2, m1, hm1, ke⟩ | ⟨k1, k2, ke⟩
    · rw [hMm] at k1
      exact ⟨_, M, LM.bind_err ke, hMl, hMf, .inr ⟨_, rfl,
        .later o1 (.later o2 (.later o3 (.later o4 (.here k1)))), by simp⟩⟩
    · rw [hMm] at k1; rw [hMM] at k2
      obtain ⟨l1, l2⟩ := prefixStored_frame hm1
      refine ⟨_, m1, LM.bind_err ke, ⟨l1.1.trans hMl.1, l1.2.trans hMl.2⟩,
        fun x hx => (l2 x (hin2 x hx)).trans (hMf x hx), .inr ⟨_, rfl,
        .later o1 (.later o2 (.later o3 (.later o4 (.later (by simp [k1]) (.here k2))))), by simp⟩⟩
    · rw [hMm] at k1; rw [hMM] at k2
      rw [LM.bind_ok ke]
      have o5 : ¬ m.mapped (p.headerStart.toNat + p.header.length) = false := by simp [k1]
      have o6 : ¬ ¬ Mapped m p.headerStart.toNat p.header.length := fun h => h k2
      generalize hN : M.store p.headerStart.toNat p.header = N
      have hNl : SameLayout m N := by rw [← hN]; exact hMl
      have hNf : ∀ x, ¬ InPieces (pvhPieces p) x → N.data x = m.data x := fun x hx => by
        rw [← hN]; exact (store_frame (hin2 x hx)).trans (hMf x hx)
      have hNA : ∀ x n, Accessible N x n ↔ Accessible m x n := by rw [← hN]; exact hMA
      have hNd : ∀ x, N.data x = (lastPiece ([(a.toNat, b)] ++ [(p.headerStart.toNat, p.header)]) x).getD
          (m.data x) := by
        intro x
        rw [lastPiece_append]
        rw [← hN, ← hM]
        show Mem.put (Mem.put m.data _ _) _ _ x = _
        congr 1
        funext y
        have := lastPiece_append [] a.toNat b y m.data
        simp only [List.nil_append] at this
        rw [this]
        rfl
      rcases pvhWriteModules_cases p N with ⟨q1, qe⟩ | ⟨q1, q2, qe⟩ | ⟨mb, ma, q1, q2, qe⟩
      · refine ⟨_, N, qe, hNl, hNf, .inl ⟨rfl, .later o1 (.later o2 (.later o3 (.later o4 (.later o5
          (.later o6 (.later (by simp [q1]) (.later (by simp [q1]) .none))))))), ?_⟩⟩
        intro x
        rw [hNd x]
        simp [pvhPieces, optPiece, hb, ha, q1]
      · exact ⟨_, N, qe, hNl, hNf, .inr ⟨_, rfl, .later o1 (.later o2 (.later o3 (.later o4 (.later o5
          (.later o6 (.here ⟨q1, q2⟩)))))), by simp⟩⟩
      · have hin3 : ∀ x, ¬ InPieces (pvhPieces p) x → ¬ InRange ma.toNat mb.length x := fun x hx h =>
          hx ⟨(ma.toNat, mb), by simp [pvhPieces, optPiece, q1, q2], h⟩
        have o7 : ¬ (p.modules ≠ none ∧ p.modulesStart = none) := by simp [q2]
        rcases writeSliceOr_cases mb ma PvhError.modulesSetup N with ⟨w1, we⟩ | ⟨w1, m1, hm1, we⟩
        · rw [hNA] at w1
          refine ⟨_, N.store ma.toNat mb, qe.trans we, hNl,
            fun x hx => (store_frame (hin3 x hx)).trans (hNf x hx), .inl ⟨rfl,
            .later o1 (.later o2 (.later o3 (.later o4 (.later o5
            (.later o6 (.later o7 (.later ?_ .none))))))), ?_⟩⟩
          · rintro ⟨b', a', hb', ha', h'⟩
            rw [q1] at hb'; rw [q2] at ha'; cases hb'; cases ha'
            exact h' w1
          · intro x
            show Mem.put N.data _ _ x = _
            have hp : pvhPieces p = ([(a.toNat, b)] ++ [(p.headerStart.toNat, p.header)]) ++
                [(ma.toNat, mb)] := by simp [pvhPieces, optPiece, hb, ha, q1, q2]
            rw [hp, lastPiece_append _ _ _ x m.data]
            congr 1
            funext y
            exact hNd y
        · rw [hNA] at w1
          obtain ⟨l1, l2⟩ := prefixStored_frame hm1
          refine ⟨_, m1, qe.trans we, ⟨l1.1.trans hNl.1, l1.2.trans hNl.2⟩,
            fun x hx => (l2 x (hin3 x hx)).trans (hNf x hx), .inr ⟨_, rfl,
            .later o1 (.later o2 (.later o3 (.later o4 (.later o5
            (.later o6 (.later o7 (.here ⟨mb, ma, q1, q2, w1⟩))))))), by simp⟩⟩

end LinuxLoader
