import Verif.Spec.Capacity
import Verif.Props.CmdlineBuild
import Verif.Props.CmdlineKernel

/-! # The capacity that a command line needs (C95) -/

namespace LinuxLoader
open Spec Cmdline

theorem legal_boot {op : Op} {t : Str} (hl : LegalCall op) (ht : BootText op t) :
    t ≠ [] ∧ Printable t ∧ ∀ c : Cmdline, Reachable c → c.step op =
      if Fits (extend c.bootArgs t) c.initArgs c.capacity then ({ c with bootArgs := extend c.bootArgs t }, .ok ())
      else (c, .err .tooLarge) := by
  cases ht with
  | @insert k v =>
    refine ⟨by simp, ?_, fun c h => (C10_insert c h k v).2.2 hl.1 hl.2⟩
    rw [printable_append]
    exact ⟨hl.1.1, fun c hc => by
      rcases List.mem_cons.1 hc with rfl | hc
      · decide
      · exact hl.2.1 c hc⟩
  | @insertMultiple k vs =>
    refine ⟨by simp, ?_, fun c h => (C11_insert_multiple c h k vs).2.2.2 hl.1 hl.2.1 hl.2.2⟩
    rw [printable_append]
    refine ⟨hl.1.1, fun c hc => ?_⟩
    rcases List.mem_cons.1 hc with rfl | hc
    · decide
    · have : ∀ (vs : List Str), (∀ v ∈ vs, LegalValue v) → Printable (joinCommas vs) := by
        intro vs
        induction vs with
        | nil => intro _; simp [joinCommas, Printable]
        | cons v vs ih =>
          intro h
          cases vs with
          | nil => exact (h v (List.mem_cons_self ..)).1
          | cons w ws =>
            show Printable (v ++ ',' :: joinCommas (w :: ws))
            rw [printable_append]
            refine ⟨(h v (List.mem_cons_self ..)).1, fun c hc => ?_⟩
            rcases List.mem_cons.1 hc with rfl | hc
            · decide
            · exact ih (fun u hu => h u (List.mem_cons_of_mem _ hu)) c hc
      exact this vs hl.2.2 c hc
  | @insertStr s t ht =>
    obtain ⟨t', ht', hp, hne⟩ := hl
    obtain ⟨u, -, hu⟩ := C04_trimmed_total s
    have : t' = t := (hu t' ht').trans (hu t ht).symm
    subst this
    refine ⟨hne, hp, fun c h => ?_⟩
    show c.insertStr s = _
    rw [C04_insert_str c h s t' ht]
    simp only [hp, not_true_eq_false, ↓reduceIte, ite_not]
  | @virtio size base irq id =>
    have hv := Cmdline.visible_deviceStr size base irq id
    rw [Cmdline.deviceStr_text] at hv
    refine ⟨fun h => ?_, hv.printable, fun c h => ?_⟩
    · have := congrArg List.length h
      rw [List.length_append, show ("virtio_mmio.device=".toList).length = 19 from rfl] at this
      simp only [List.length_nil] at this
      omega
    · show c.addVirtioMmioDevice size base irq id = _
      rw [addVirtio_eq h.inv, if_neg hl, Cmdline.deviceStr_text]
      rfl

theorem legal_init {op : Op} {t : Str} (hl : LegalCall op) (ht : InitText op t) :
    t ≠ [] ∧ Printable t ∧ ∀ c : Cmdline, Reachable c → c.step op =
      if Fits c.bootArgs (extend c.initArgs t) c.capacity then ({ c with initArgs := extend c.initArgs t }, .ok ())
      else (c, .err .tooLarge) := by
  cases ht with
  | @insertInitArgs s t ht =>
    obtain ⟨t', ht', hp, hne⟩ := hl
    obtain ⟨u, -, hu⟩ := C04_trimmed_total s
    have : t' = t := (hu t' ht').trans (hu t ht).symm
    subst this
    refine ⟨hne, hp, fun c h => ?_⟩
    show c.insertInitArgs s = _
    have hc := C05_condition_is_fit c t' hne
    rw [C05_insert_init_args c h s t' ht]
    simp only [hp, not_true_eq_false, ↓reduceIte]
    by_cases hf : Fits c.bootArgs (extend c.initArgs t') c.capacity
    · rw [if_neg (by have := hc.2 hf; omega), if_pos hf]
    · rw [if_pos (Nat.lt_of_not_le fun h => hf (hc.1 h)), if_neg hf]

theorem fits_mono {b i b' i' : Str} {cap : UInt64} (hb : b.utf8Len ≤ b'.utf8Len) (hi : i.utf8Len ≤ i'.utf8Len)
    (h : Fits b' i' cap) : Fits b i cap := by
  unfold Fits at *
  rw [utf8Len_text] at *
  by_cases h0 : i = []
  · rw [if_pos h0]
    split at h <;> omega
  · have h1 : i' ≠ [] := by
      rintro rfl
      exact h0 (utf8Len_eq_zero.1 (by simpa using hi))
    rw [if_neg h0]
    rw [if_neg h1] at h
    omega

theorem foldl_extend_len (ts : List Str) (A : Str) : A.utf8Len ≤ (ts.foldl extend A).utf8Len := by
  induction ts generalizing A with
  | nil => exact Nat.le_refl _
  | cons t ts ih =>
    refine Nat.le_trans ?_ (ih (extend A t))
    rw [utf8Len_extend]
    split
    · rename_i h; subst h; simp
    · omega

theorem allAccepted_iff {ops : List Op} {boots inits : List Str} (ht : Texts ops boots inits)
    (hl : ∀ op ∈ ops, LegalCall op) (c : Cmdline) (h : Reachable c) :
    AllAccepted c ops ↔ Fits (boots.foldl extend c.bootArgs) (inits.foldl extend c.initArgs) c.capacity := by
  induction ht generalizing c with
  | nil => exact ⟨fun _ => h.inv, fun _ => trivial⟩
  | @boot op ops bs is t hb _ ih =>
    obtain ⟨-, -, hs⟩ := legal_boot (hl op (List.mem_cons_self ..)) hb
    have hs := hs c h
    have hr : Reachable (c.step op).1 := .step op h
    unfold AllAccepted
    rw [List.foldl_cons]
    split at hs
    · rw [hs] at hr ⊢
      rw [ih (fun o ho => hl o (List.mem_cons_of_mem _ ho)) _ hr]
      simp
    · rename_i hf
      rw [hs]
      refine ⟨(fun h => nomatch h.1), fun h => absurd (fits_mono ?_ ?_ h) hf⟩
      · exact foldl_extend_len _ _
      · exact foldl_extend_len _ _
  | @init op ops bs is t hb _ ih =>
    obtain ⟨-, -, hs⟩ := legal_init (hl op (List.mem_cons_self ..)) hb
    have hs := hs c h
    have hr : Reachable (c.step op).1 := .step op h
    unfold AllAccepted
    rw [List.foldl_cons]
    split at hs
    · rw [hs] at hr ⊢
      rw [ih (fun o ho => hl o (List.mem_cons_of_mem _ ho)) _ hr]
      simp
    · rename_i hf
      rw [hs]
      refine ⟨(fun h => nomatch h.1), fun h => absurd (fits_mono ?_ ?_ h) hf⟩
      · exact foldl_extend_len _ _
      · exact foldl_extend_len _ _

theorem texts_solid {ops : List Op} {boots inits : List Str} (ht : Texts ops boots inits)
    (hl : ∀ op ∈ ops, LegalCall op) : ∀ t ∈ boots ++ inits, t ≠ [] ∧ Printable t := by
  induction ht with
  | nil => simp
  | @boot op ops bs is t hb _ ih =>
    obtain ⟨h1, h2, -⟩ := legal_boot (hl op (List.mem_cons_self ..)) hb
    have ih := ih fun o ho => hl o (List.mem_cons_of_mem _ ho)
    intro u hu
    rcases List.mem_cons.1 hu with rfl | hu
    · exact ⟨h1, h2⟩
    · exact ih u hu
  | @init op ops bs is t hb _ ih =>
    obtain ⟨h1, h2, -⟩ := legal_init (hl op (List.mem_cons_self ..)) hb
    have ih := ih fun o ho => hl o (List.mem_cons_of_mem _ ho)
    intro u hu
    rcases List.mem_append.1 hu with hu | hu
    · exact ih u (by simp [hu])
    · rcases List.mem_cons.1 hu with rfl | hu
      · exact ⟨h1, h2⟩
      · exact ih u (by simp [hu])

theorem joinSp_room {ts : List Str} (h : ∀ t ∈ ts, t ≠ [] ∧ Printable t) (hne : ts ≠ []) :
    (joinSp ts).utf8Len + 1 = room ts := by
  induction ts with
  | nil => exact absurd rfl hne
  | cons t ts ih =>
    have ht := utf8Len_of_printable (h t (List.mem_cons_self ..)).2
    cases ts with
    | nil => simp [joinSp, room, ht]
    | cons u us =>
      have ih := ih (fun v hv => h v (List.mem_cons_of_mem _ hv)) (by simp)
      show (t ++ ' ' :: joinSp (u :: us)).utf8Len + 1 = _
      have : (' ' : Char).utf8Size = 1 := by decide
      rw [utf8Len_append, utf8Len_cons, this, ht]
      unfold room at *
      rw [List.map_cons, List.sum_cons, ← ih]
      omega

/-- **C95.** Any calls with legal arguments on a fresh command line are all accepted if and only if its capacity is at least
that of their arguments, each with one character behind it, and three more if there are init arguments. -/
theorem C95_capacity (cap : UInt64) (c₀ : Cmdline) (h₀ : Cmdline.new cap = .ok c₀) (ops : List Op)
    (boots inits : List Str) (ht : Texts ops boots inits) (hl : ∀ op ∈ ops, LegalCall op) :
    AllAccepted c₀ ops ↔ capacityNeeded boots inits ≤ cap.toNat := by
  have hs := texts_solid ht hl
  have hb := fun t (h : t ∈ boots) => hs t (by simp [h])
  have hi := fun t (h : t ∈ inits) => hs t (by simp [h])
  obtain ⟨-, hc, hb0, hi0⟩ := Inv.new h₀
  rw [allAccepted_iff ht hl c₀ (.new h₀), hb0, hi0, hc, foldl_extend_nil _ fun t h => (hb t h).1,
    foldl_extend_nil _ fun t h => (hi t h).1]
  unfold Fits capacityNeeded
  rw [utf8Len_text]
  have eb : (joinSp boots).utf8Len + 1 = max 1 (room boots) := by
    by_cases h : boots = []
    · subst h; simp [joinSp, room]
    · have := joinSp_room hb h
      omega
  by_cases h : inits = []
  · subst h
    simp only [joinSp, ↓reduceIte, Nat.add_zero]
    rw [eb]
  · have := joinSp_room hi h
    rw [if_neg (joinSp_ne_nil h fun t ht => (hi t ht).1), if_neg h]
    omega

/-- `insert("a", "b")`, `insert_init_args(" i ")`, a device: 4 + 2 + 34 + 3 characters. -/
example : Texts [.insert "a".toList "b".toList, .insertInitArgs " i ".toList, .addVirtio 0x1000 0x1000 5 (some 42)]
      ["a=b".toList, "virtio_mmio.device=4K@0x1000:5:42".toList] ["i".toList] ∧
    (∀ op ∈ [Op.insert "a".toList "b".toList, .insertInitArgs " i ".toList, .addVirtio 0x1000 0x1000 5 (some 42)],
      LegalCall op) ∧
    capacityNeeded ["a=b".toList, "virtio_mmio.device=4K@0x1000:5:42".toList] ["i".toList] = 43 := by
  have hi : Trimmed " i ".toList "i".toList :=
    ⟨" ".toList, " ".toList, by decide, by decide, by decide, by decide, by decide⟩
  have hd : "virtio_mmio.device=".toList ++ deviceText 0x1000 0x1000 5 (some 42) =
      "virtio_mmio.device=4K@0x1000:5:42".toList := by decide +kernel
  refine ⟨.boot .insert (.init (.insertInitArgs hi) (.boot (hd ▸ .virtio) .nil)), fun op hop => ?_, by decide +kernel⟩
  simp only [List.mem_cons, List.not_mem_nil, or_false] at hop
  rcases hop with rfl | rfl | rfl
  · refine ⟨by unfold LegalKey; decide, by decide, ?_, fun h => absurd h (by decide)⟩
    rintro ⟨a, b, h, ha, hb⟩
    have := congrArg List.length h
    have h1 := List.length_pos_iff.2 ha
    have h2 := List.length_pos_iff.2 hb
    simp at this
    omega
  · exact ⟨"i".toList, hi, by decide, by decide⟩
  · show (0x1000 : UInt64) ≠ 0
    decide

end LinuxLoader
