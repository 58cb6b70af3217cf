import Verif.Spec.BootParams
import Verif.Lemmas.Memory

namespace LinuxLoader
open Spec

theorem addrSub_some {a b d : UInt64} : addrSub a b = some d ↔ b.toNat ≤ a.toNat ∧ d.toNat = a.toNat - b.toNat := by
  unfold addrSub
  split
  · rename_i h
    have he : (a - b).toNat = a.toNat - b.toNat := UInt64.toNat_sub_of_le _ _ h
    constructor
    · intro hd; cases hd; exact ⟨h, he⟩
    · rintro ⟨-, hd⟩
      rw [Option.some.injEq]
      apply UInt64.toNat.inj
      rw [he, hd]
  · rename_i h
    constructor
    · intro hd; cases hd
    · rintro ⟨h', -⟩; exact absurd h' h

theorem addrSub_none {a b : UInt64} : addrSub a b = none ↔ a.toNat < b.toNat := by
  unfold addrSub; split <;> simp <;> omega

/-- The buffer after storing `e` at `off`. -/
def overlay (b : List UInt8) (off : Nat) (e : List UInt8) : List UInt8 :=
  (b ++ List.replicate (off + e.length - b.length) 0).take off ++ e ++
    (b ++ List.replicate (off + e.length - b.length) 0).drop (off + e.length)

theorem overlay_length (b : List UInt8) (off : Nat) (e : List UInt8) :
    (overlay b off e).length = max (off + e.length) b.length := by
  simp [overlay]; omega

theorem overlay_get (b : List UInt8) (off : Nat) (e : List UInt8) (k : Nat) :
    (overlay b off e)[k]? = overlayAt b off e k := by
  unfold overlay overlayAt
  rw [List.append_assoc, List.getElem?_append]
  have hl : (List.take off (b ++ List.replicate (off + e.length - b.length) 0)).length = off := by
    simp; omega
  rw [hl]
  by_cases h1 : k < off
  · rw [if_pos h1, if_neg (by omega), List.getElem?_take_of_lt h1, List.getElem?_append]
    by_cases h2 : k < b.length
    · rw [if_pos h2, if_pos h2]
    · rw [if_neg h2, if_neg h2, if_pos h1, List.getElem?_replicate, if_pos (by omega)]
  · rw [if_neg h1, List.getElem?_append]
    by_cases h2 : k - off < e.length
    · rw [if_pos h2, if_pos (by omega)]
    · rw [if_neg h2, if_neg (by omega), List.getElem?_drop]
      have : off + e.length + (k - off - e.length) = k := by omega
      rw [this, List.getElem?_append]
      by_cases h3 : k < b.length
      · rw [if_pos h3, if_pos h3]
      · rw [if_neg h3, if_neg h3, if_neg h1, List.getElem?_replicate, if_neg (by omega)]

theorem overlay_end (b e : List UInt8) : overlay b b.length e = b ++ e := by
  unfold overlay
  simp

/-- `addToList` once the start address is known. -/
theorem addToList_eq (elem : List UInt8) (addr : Option GuestAddr) (l : PList) (s : GuestAddr)
    (hs : l.start = some s ∨ l.start = none ∧ addr = some s) :
    let a := (addr.map (·.toNat)).getD (s.toNat + l.bytes.length)
    let l' : PList := { l with start := some s }
    (U64 ≤ s.toNat + l.bytes.length ∧ addToList elem addr l = (.err .overflow, l')) ∨
    (s.toNat + l.bytes.length < U64 ∧ a < s.toNat ∧
      addToList elem addr l = (.err .invalidAddress, l')) ∨
    (s.toNat + l.bytes.length < U64 ∧ s.toNat ≤ a ∧
      ISZ ≤ max (a - s.toNat + elem.length) l.bytes.length ∧
      addToList elem addr l = (.panic, l')) ∨
    (s.toNat + l.bytes.length < U64 ∧ s.toNat ≤ a ∧
      max (a - s.toNat + elem.length) l.bytes.length < ISZ ∧
      ∃ r : GuestAddr, r.toNat = a ∧
      addToList elem addr l = (.ok r, ⟨overlay l.bytes (a - s.toNat) elem, some s⟩)) := by
  have h0 : (if l.start.isNone then { l with start := addr } else l) = ({ l with start := some s } : PList) := by
    rcases hs with h | ⟨h, h'⟩
    · rw [h]; cases l; simp_all
    · rw [h, h']; simp
  intro a l'
  unfold addToList
  simp only [h0]
  cases hl : addrAddNat s l.bytes.length with
  | none => exact .inl ⟨addrAddNat_none.1 hl, rfl⟩
  | some e =>
    right
    have hv := addrAddNat_some.1 hl
    have hlt : s.toNat + l.bytes.length < U64 := by rw [← hv]; exact e.toNat_lt
    have ha : (addr.getD e).toNat = a := by
      cases addr with
      | none => exact hv
      | some b => rfl
    simp only
    cases hsub : addrSub (addr.getD e) s with
    | none => left; rw [addrSub_none, ha] at hsub; exact ⟨hlt, hsub, rfl⟩
    | some off =>
      right
      rw [addrSub_some, ha] at hsub
      obtain ⟨hsa, hoff⟩ := hsub
      simp only
      unfold plainAdd vecResize
      by_cases hbig : off.toNat + elem.length < U64
      · rw [if_pos hbig, Res.bind_ok]
        by_cases hcap : max (off.toNat + elem.length) l.bytes.length < ISZ
        · right
          rw [if_pos hcap, Res.bind_ok]
          refine ⟨hlt, hsa, by rw [← hoff]; exact hcap, addr.getD e, ha, ?_⟩
          unfold vecSplice
          have htake : l.bytes.take (max (off.toNat + elem.length) l.bytes.length) = l.bytes :=
            List.take_of_length_le (by omega)
          have hrep : max (off.toNat + elem.length) l.bytes.length - l.bytes.length
              = off.toNat + elem.length - l.bytes.length := by omega
          rw [htake, hrep, if_pos (by constructor; omega; simp; omega)]
          simp only
          rw [← hoff]
          rfl
        · left
          rw [if_neg hcap]
          exact ⟨hlt, hsa, by rw [← hoff]; omega, rfl⟩
      · left
        rw [if_neg hbig]
        refine ⟨hlt, hsa, ?_, rfl⟩
        rw [← hoff]
        have : ISZ ≤ U64 := by decide
        omega

theorem addToList_none (elem : List UInt8) (l : PList) (h : l.start = none) :
    addToList elem none l = (.err .missingStartAddress, l) := by
  unfold addToList
  rw [h]
  cases l; simp_all

/-- The start address in force during the call, if any. -/
theorem start_cases (l : PList) (addr : Option GuestAddr) :
    (l.start = none ∧ addr = none) ∨ ∃ s, l.start = some s ∨ l.start = none ∧ addr = some s := by
  cases h : l.start with
  | some s => exact .inr ⟨s, .inl rfl⟩
  | none => cases addr with
    | none => exact .inl ⟨rfl, rfl⟩
    | some s => exact .inr ⟨s, .inr ⟨rfl, rfl⟩⟩

/-- A call on a list without start address has to succeed or find no address. -/
def PList.Inv (l : PList) : Prop := l.start = none → l.bytes = []

/-- The list reflects the pieces. -/
def PList.Image (l : PList) (pieces : List (Nat × List UInt8)) : Prop :=
  match l.start with
  | none => pieces = [] ∧ l.bytes = []
  | some s => pieces.head?.map (·.1) = some s.toNat ∧ SparseImage s.toNat pieces l.bytes

theorem PList.Image.inv {l : PList} {ps} (h : l.Image ps) : l.Inv := by
  intro hs; unfold PList.Image at h; rw [hs] at h; exact h.2

/-- A call that does not succeed changes nothing. -/
theorem addToList_fail {elem : List UInt8} {addr : Option GuestAddr} {l : PList}
    (hi : l.Inv) (he : elem.length < ISZ) (h : ∀ a, (addToList elem addr l).1 ≠ .ok a) :
    (addToList elem addr l).2 = l := by
  rcases start_cases l addr with ⟨h1, rfl⟩ | ⟨s, hs⟩
  · rw [addToList_none _ _ h1]
  · have key : l.start = some s → ({ l with start := some s } : PList) = l := by
      intro h; cases l; simp_all
    rcases hs with hs | ⟨hs, ha⟩
    · rcases addToList_eq elem addr l s (.inl hs) with ⟨-, h'⟩ | ⟨-, -, h'⟩ | ⟨-, -, -, h'⟩ |
        ⟨-, -, -, r, -, h'⟩
      · rw [h']; exact key hs
      · rw [h']; exact key hs
      · rw [h']; exact key hs
      · rw [h'] at h; exact absurd rfl (h r)
    · have hb := hi hs
      subst ha
      rcases addToList_eq elem (some s) l s (.inr ⟨hs, rfl⟩) with ⟨hx, h'⟩ | ⟨-, hx, h'⟩ |
        ⟨-, -, hx, h'⟩ | ⟨-, -, -, r, -, h'⟩
      · rw [hb] at hx; have := s.toNat_lt; simp [U64] at hx; omega
      · simp at hx
      · rw [hb] at hx; simp at hx; omega
      · rw [h'] at h; exact absurd rfl (h r)

theorem addToList_inv {elem : List UInt8} {addr : Option GuestAddr} {l : PList}
    (hi : l.Inv) (he : elem.length < ISZ) : (addToList elem addr l).2.Inv := by
  by_cases h : ∃ a, (addToList elem addr l).1 = .ok a
  · rcases start_cases l addr with ⟨h1, rfl⟩ | ⟨s, hs⟩
    · rw [addToList_none _ _ h1]; exact hi
    · rcases addToList_eq elem addr l s hs with ⟨-, h'⟩ | ⟨-, -, h'⟩ | ⟨-, -, -, h'⟩ |
        ⟨-, -, -, r, -, h'⟩ <;> rw [h'] <;> intro hc <;> cases hc
  · rw [addToList_fail hi he (fun a ha => h ⟨a, ha⟩)]; exact hi

theorem head?_concat {α : Type} (l : List α) (x : α) : (l ++ [x]).head? = some (l.head?.getD x) := by
  cases l <;> rfl

/-- A successful call adds the piece. -/
theorem addToList_image {elem : List UInt8} {addr : Option GuestAddr} {l : PList} {ps}
    (hl : l.Image ps) {a : GuestAddr} (h : (addToList elem addr l).1 = .ok a) :
    (addToList elem addr l).2.Image (ps ++ [(a.toNat, elem)]) := by
  rcases start_cases l addr with ⟨h1, rfl⟩ | ⟨s, hs⟩
  · rw [addToList_none _ _ h1] at h; cases h
  · rcases addToList_eq elem addr l s hs with ⟨-, h'⟩ | ⟨-, -, h'⟩ | ⟨-, -, -, h'⟩ |
      ⟨h1, h2, h3, r, hr, h'⟩
    · rw [h'] at h; cases h
    · rw [h'] at h; cases h
    · rw [h'] at h; cases h
    · rw [h'] at h ⊢
      simp only [Res.ok.injEq] at h
      subst h
      rw [← hr] at h2 h3 ⊢
      unfold PList.Image at hl ⊢
      simp only
      rcases hs with hs | ⟨hs, ha⟩
      · rw [hs] at hl
        simp only at hl
        obtain ⟨hd, hc, ht, hcon⟩ := hl
        refine ⟨?_, ?_, ?_, ?_⟩
        · rw [head?_concat]
          cases hps : ps.head? with
          | none => rw [hps] at hd; cases hd
          | some p => rw [hps] at hd; simpa using hd
        · intro p hp
          rw [overlay_length]
          rcases List.mem_append.1 hp with hp | hp
          · have := hc p hp; omega
          · simp only [List.mem_singleton] at hp; subst hp; simp only; omega
        · by_cases hm : l.bytes.length ≤ r.toNat - s.toNat + elem.length
          · exact ⟨(r.toNat, elem), by simp, by rw [overlay_length]; simp only; omega⟩
          · obtain ⟨p, hp, hpe⟩ := ht
            exact ⟨p, by simp [hp], by rw [overlay_length]; omega⟩
        · intro k hk
          rw [overlay_length] at hk
          rw [overlay_get, lastPiece_concat]
          unfold overlayAt
          by_cases hin : r.toNat - s.toNat ≤ k ∧ k < r.toNat - s.toNat + elem.length
          · rw [if_pos hin, if_pos (by omega)]
            have : s.toNat + k - r.toNat = k - (r.toNat - s.toNat) := by omega
            rw [this, List.getElem?_eq_getElem (by omega)]
            rfl
          · rw [if_neg hin]
            have hno : (if r.toNat ≤ s.toNat + k then elem[s.toNat + k - r.toNat]? else none)
                = none := by
              split
              · rw [List.getElem?_eq_none (by omega)]
              · rfl
            rw [hno]
            simp only
            by_cases hkl : k < l.bytes.length
            · rw [if_pos hkl]; exact hcon k hkl
            · rw [if_neg hkl, if_pos (by omega)]
              have : lastPiece ps (s.toNat + k) = none := by
                clear hcon ht hd
                induction ps with
                | nil => rfl
                | cons p ps ih =>
                  have h1 := hc p (by simp)
                  simp only [lastPiece]
                  rw [ih (fun q hq => hc q (by simp [hq]))]
                  simp only
                  split
                  · rw [List.getElem?_eq_none (by omega)]
                  · rfl
              rw [this]; rfl
      · rw [hs] at hl
        simp only at hl
        obtain ⟨rfl, hb⟩ := hl
        subst ha
        simp only [Option.map_some, Option.getD_some] at hr
        refine ⟨by simp [hr], ?_, ?_, ?_⟩
        · intro p hp
          simp only [List.nil_append, List.mem_singleton] at hp
          subst hp
          rw [overlay_length]; simp only; omega
        · refine ⟨(r.toNat, elem), by simp, ?_⟩
          rw [overlay_length, hb]
          simp only [List.length_nil]
          omega
        · intro k hk
          rw [overlay_length, hb] at hk
          simp only [List.length_nil] at hk
          rw [overlay_get, hb]
          unfold overlayAt
          have : r.toNat - s.toNat = 0 := by omega
          rw [this, if_pos (by omega)]
          simp only [List.nil_append, lastPiece]
          rw [if_pos (by omega), List.getElem?_eq_getElem (by omega)]
          have : s.toNat + k - r.toNat = k - 0 := by omega
          simp only [this]
          rw [List.getElem?_eq_getElem (by omega)]
          rfl

end LinuxLoader
