import Verif.Lemmas.Cmdline

/-! # Lemmas about the builder operations -/

namespace LinuxLoader
open Spec

theorem enclosed_iff {s : Str} (hp : Printable s) : isQuoted s = true ↔ Enclosed s := by
  unfold isQuoted
  rw [utf8Len_of_printable hp]
  constructor
  · intro h
    split at h
    · cases h
    · rename_i hl
      cases s with
      | nil => simp at hl
      | cons a s =>
        simp only [List.head?_cons] at h
        obtain ⟨w, z, hz⟩ : ∃ w z, s = w ++ [z] := by
          rcases List.eq_nil_or_concat s with rfl | h
          · simp at hl
          · simpa using h
        subst hz
        rw [show a :: (w ++ [z]) = (a :: w) ++ [z] from rfl, List.getLast?_concat] at h
        simp at h
        obtain ⟨rfl, rfl⟩ := h
        exact ⟨w, rfl⟩
  · rintro ⟨w, rfl⟩
    rw [if_neg (by simp)]
    simp only [List.cons_append, List.head?_cons]
    rw [show '"' :: (w ++ ['"']) = ('"' :: w) ++ ['"'] from rfl, List.getLast?_concat]
    simp

theorem innerQuote_iff {s : Str} (hp : Printable s) :
    containsDoubleQuotes s = true ↔ InnerQuote s := by
  unfold containsDoubleQuotes
  rw [utf8Len_of_printable hp]
  constructor
  · intro h
    split at h
    · cases h
    · rename_i hl
      rw [List.any_eq_true] at h
      obtain ⟨x, hx, hxq⟩ := h
      simp only [beq_iff_eq] at hxq
      subst hxq
      obtain ⟨i, hi, hget⟩ := List.mem_iff_getElem.1 hx
      simp only [List.length_take, List.length_drop] at hi
      simp only [List.getElem_take, List.getElem_drop] at hget
      refine ⟨s.take (1 + i), s.drop (1 + i + 1), ?_, ?_, ?_⟩
      · have h1 : 1 + i < s.length := by omega
        rw [← hget, ← List.drop_eq_getElem_cons h1, List.take_append_drop]
      · intro h0
        have := congrArg List.length h0
        simp only [List.length_take, List.length_nil] at this; omega
      · intro h0
        have := congrArg List.length h0
        simp only [List.length_drop, List.length_nil] at this; omega
  · rintro ⟨a, b, rfl, ha, hb⟩
    have hal := List.length_pos_iff.2 ha
    have hbl := List.length_pos_iff.2 hb
    rw [if_neg (by simp; omega), List.any_eq_true]
    refine ⟨'"', ?_, by simp⟩
    cases a with
    | nil => exact absurd rfl ha
    | cons x a =>
      simp only [List.cons_append, List.drop_succ_cons, List.drop_zero, List.length_cons,
        List.length_append]
      rw [List.take_append, List.mem_append]
      right
      rw [show a.length + (b.length + 1) + 1 - 2 - a.length = b.length by omega]
      cases b with
      | nil => exact absurd rfl hb
      | cons y b => simp

theorem mem_contains {s : Str} {c : Char} : s.contains c = true ↔ c ∈ s := by simp

/-- Decision on keys. -/
theorem validKey_eq (k : Str) :
    (∃ e, KeyProblem k e ∧ validKey k = .err e) ∨ (LegalKey k ∧ validKey k = .ok ()) := by
  unfold validKey
  by_cases hp : Printable k
  · have hp' := (all_validChar_iff k).2 hp
    simp only [hp', Bool.not_true, Bool.false_eq_true, ↓reduceIte, List.contains_iff_mem]
    by_cases hs : ' ' ∈ k
    · exact .inl ⟨_, .space hp hs, by simp [hs]⟩
    · by_cases he : '=' ∈ k
      · exact .inl ⟨_, .equals hp hs he, by simp [hs, he]⟩
      · exact .inr ⟨⟨hp, hs, he⟩, by simp [hs, he]⟩
  · have hp' : k.all validChar = false := by
      rw [← Bool.not_eq_true, all_validChar_iff]; exact hp
    exact .inl ⟨_, .ascii hp, by simp [hp']⟩

/-- Decision on values. -/
theorem validValue_eq (v : Str) :
    (∃ e, ValueProblem v e ∧ validValue v = .err e) ∨ (LegalValue v ∧ validValue v = .ok ()) := by
  unfold validValue
  by_cases hp : Printable v
  · have hp' := (all_validChar_iff v).2 hp
    simp only [hp', Bool.not_true, Bool.false_eq_true, ↓reduceIte]
    by_cases hq : InnerQuote v
    · exact .inl ⟨_, .quote hp hq, by simp [(innerQuote_iff hp).2 hq]⟩
    · have hq' : containsDoubleQuotes v = false := by
        rw [← Bool.not_eq_true, innerQuote_iff hp]; exact hq
      simp only [hq', Bool.false_eq_true, ↓reduceIte, Bool.and_eq_true, List.contains_iff_mem,
        Bool.not_eq_true']
      by_cases hs : ' ' ∈ v
      · by_cases he : Enclosed v
        · exact .inr ⟨⟨hp, hq, fun _ => he⟩, by simp [(enclosed_iff hp).2 he]⟩
        · have he' : isQuoted v = false := by
            rw [← Bool.not_eq_true, enclosed_iff hp]; exact he
          exact .inl ⟨_, .space hp hq hs he, by simp [hs, he']⟩
      · exact .inr ⟨⟨hp, hq, fun h => absurd h hs⟩, by simp [hs]⟩
  · have hp' : v.all validChar = false := by
      rw [← Bool.not_eq_true, all_validChar_iff]; exact hp
    exact .inl ⟨_, .ascii hp, by simp [hp']⟩

theorem Spec.KeyProblem.not_legal {k e} (h : KeyProblem k e) : ¬ LegalKey k := by
  rintro ⟨h1, h2, h3⟩; cases h <;> contradiction

theorem Spec.ValueProblem.not_legal {v e} (h : ValueProblem v e) : ¬ LegalValue v := by
  rintro ⟨h1, h2, h3⟩
  cases h with
  | ascii h => exact h h1
  | quote _ h => exact h2 h
  | space _ _ h h' => exact h' (h3 h)

theorem Spec.KeyProblem.unique {k e e'} (h : KeyProblem k e) (h' : KeyProblem k e') : e = e' := by
  cases h <;> cases h' <;> first | rfl | contradiction

theorem Spec.ValueProblem.unique {v e e'} (h : ValueProblem v e) (h' : ValueProblem v e') : e = e' := by
  cases h <;> cases h' <;> first | rfl | contradiction

theorem validKey_ok {k : Str} (h : LegalKey k) : validKey k = .ok () := by
  rcases validKey_eq k with ⟨e, he, -⟩ | ⟨-, h'⟩
  · exact absurd h he.not_legal
  · exact h'

theorem validKey_err {k : Str} {e} (h : KeyProblem k e) : validKey k = .err e := by
  rcases validKey_eq k with ⟨e', he, h'⟩ | ⟨h', -⟩
  · rw [h', h.unique he]
  · exact absurd h' h.not_legal

theorem validValue_ok {v : Str} (h : LegalValue v) : validValue v = .ok () := by
  rcases validValue_eq v with ⟨e, he, -⟩ | ⟨-, h'⟩
  · exact absurd h he.not_legal
  · exact h'

theorem validValue_err {v : Str} {e} (h : ValueProblem v e) : validValue v = .err e := by
  rcases validValue_eq v with ⟨e', he, h'⟩ | ⟨h', -⟩
  · rw [h', h.unique he]
  · exact absurd h' h.not_legal

/-! ## `k=v` needs no trimming -/

theorem Spec.LegalKey.not_blank {k : Str} (h : LegalKey k) : ∀ c ∈ k, ¬ Blank c := by
  intro c hc hb
  have := blank_of_printable (h.1 c hc) hb
  exact h.2.1 (this ▸ hc)

theorem Spec.LegalValue.last {v : Str} (h : LegalValue v) : ∀ c, v.getLast? = some c → ¬ Blank c := by
  intro c hc hb
  have hm : c ∈ v := List.mem_of_getLast? hc
  have hsp := blank_of_printable (h.1 c hm) hb
  subst hsp
  obtain ⟨w, rfl⟩ := h.2.2 hm
  rw [List.getLast?_concat] at hc
  cases hc

theorem trim_kv {k w : Str} (hk : ∀ c ∈ k, ¬ Blank c)
    (hw : ∀ c, w.getLast? = some c → ¬ Blank c) : trim (k ++ '=' :: w) = k ++ '=' :: w := by
  apply trim_eq_self
  · intro c hc
    cases k with
    | nil => simp at hc; subst hc; decide
    | cons a k => simp at hc; subst hc; exact hk a (by simp)
  · intro c hc
    rw [List.getLast?_append] at hc
    rcases List.eq_nil_or_concat w with rfl | ⟨w, z, rfl⟩
    · simp at hc; subst hc; decide
    · rw [List.concat_eq_append] at hw hc
      rw [← List.cons_append, List.getLast?_concat] at hc
      exact hw c (by rw [List.getLast?_concat]; simpa using hc)

theorem joinComma_eq (vs : List Str) : Cmdline.joinComma vs = joinCommas vs := by
  induction vs with
  | nil => rfl
  | cons v vs ih =>
    cases vs with
    | nil => rfl
    | cons w ws => simp only [Cmdline.joinComma, joinCommas, ih]; simp

theorem joinCommas_last {vs : List Str} (h : ∀ v ∈ vs, LegalValue v) :
    ∀ c, (joinCommas vs).getLast? = some c → ¬ Blank c := by
  induction vs with
  | nil => intro c hc; simp [joinCommas] at hc
  | cons v vs ih =>
    cases vs with
    | nil => exact (h v (by simp)).last
    | cons w ws =>
      intro c hc
      simp only [joinCommas] at hc
      rw [List.getLast?_append] at hc
      have ih' := ih (fun x hx => h x (by simp [hx]))
      rcases hj : (joinCommas (w :: ws)).getLast? with _ | d
      · rw [List.getLast?_eq_none_iff] at hj
        rw [hj] at hc
        simp at hc; subst hc; decide
      · have : (',' :: joinCommas (w :: ws)).getLast? = some d := by
          rw [List.getLast?_cons, hj]; rfl
        rw [this] at hc
        simp at hc; subst hc
        exact ih' _ hj

theorem printable_joinCommas {vs : List Str} (h : ∀ v ∈ vs, Printable v) :
    Printable (joinCommas vs) := by
  induction vs with
  | nil => intro c hc; simp [joinCommas] at hc
  | cons v vs ih =>
    cases vs with
    | nil => exact h v (by simp)
    | cons w ws =>
      simp only [joinCommas]
      rw [printable_append]
      refine ⟨h v (by simp), ?_⟩
      intro c hc
      rw [List.mem_cons] at hc
      rcases hc with rfl | hc
      · decide
      · exact ih (fun x hx => h x (by simp [hx])) c hc

theorem printable_kv {k w : Str} (hk : Printable k) (hw : Printable w) :
    Printable (k ++ '=' :: w) := by
  rw [printable_append]
  refine ⟨hk, ?_⟩
  intro c hc
  rw [List.mem_cons] at hc
  rcases hc with rfl | hc
  · decide
  · exact hw c hc

namespace Cmdline

/-- Outcome of inserting a text that needs no trimming and is printable. -/
def placed (c : Cmdline) (t : Str) : Cmdline × Res CmdlineError Unit :=
  if Fits (extend c.bootArgs t) c.initArgs c.capacity then
    ({ c with bootArgs := extend c.bootArgs t }, .ok ())
  else (c, .err .tooLarge)

theorem insertStr_placed {c : Cmdline} (h : c.Inv) {s t : Str} (ht : trim s = t)
    (hp : Printable t) : c.insertStr s = c.placed t := by
  rw [insertStr_eq h, ht]
  unfold placed
  simp only [hp, not_true_eq_false, ↓reduceIte]
  split <;> simp_all

theorem insert_legal {c : Cmdline} (h : c.Inv) {k v : Str} (hk : LegalKey k) (hv : LegalValue v) :
    c.insert k v = c.placed (k ++ '=' :: v) := by
  unfold insert
  simp only [validKey_ok hk, validValue_ok hv, Res.bind_ok]
  rw [show k ++ ['='] ++ v = k ++ '=' :: v by simp]
  exact insertStr_placed h (trim_kv hk.not_blank hv.last) (printable_kv hk.1 hv.1)

theorem insert_badKey (c : Cmdline) {k v : Str} {e} (hk : KeyProblem k e) :
    c.insert k v = (c, .err e) := by
  unfold insert; simp [validKey_err hk]

theorem insert_badValue (c : Cmdline) {k v : Str} {e} (hk : LegalKey k) (hv : ValueProblem v e) :
    c.insert k v = (c, .err e) := by
  unfold insert; simp [validKey_ok hk, validValue_err hv]

theorem validateValues_ok {vs : List Str} (h : ∀ v ∈ vs, LegalValue v) :
    validateValues vs = .ok vs := by
  induction vs with
  | nil => rfl
  | cons v vs ih =>
    simp [validateValues, validValue_ok (h v (by simp)), ih (fun x hx => h x (by simp [hx])),
      Res.map]

theorem validateValues_err {vs ws : List Str} {v : Str} {e} (h : ∀ v ∈ vs, LegalValue v)
    (hv : ValueProblem v e) : validateValues (vs ++ v :: ws) = .err e := by
  induction vs with
  | nil => simp [validateValues, validValue_err hv]
  | cons u vs ih =>
    simp [validateValues, validValue_ok (h u (by simp)), ih (fun x hx => h x (by simp [hx])),
      Res.map]

theorem values_cases (vs : List Str) : (∀ v ∈ vs, LegalValue v) ∨
    ∃ us v ws e, vs = us ++ v :: ws ∧ (∀ u ∈ us, LegalValue u) ∧ ValueProblem v e := by
  induction vs with
  | nil => left; simp
  | cons v vs ih =>
    rcases validValue_eq v with ⟨e, he, -⟩ | ⟨hv, -⟩
    · exact .inr ⟨[], v, vs, e, rfl, by simp, he⟩
    · rcases ih with h | ⟨us, w, ws, e, rfl, hu, hw⟩
      · left; intro x hx; rw [List.mem_cons] at hx
        rcases hx with rfl | hx
        · exact hv
        · exact h x hx
      · right
        refine ⟨v :: us, w, ws, e, rfl, ?_, hw⟩
        intro x hx; rw [List.mem_cons] at hx
        rcases hx with rfl | hx
        · exact hv
        · exact hu x hx

theorem insertMultiple_legal {c : Cmdline} (h : c.Inv) {k : Str} {vs : List Str} (hk : LegalKey k)
    (hne : vs ≠ []) (hv : ∀ v ∈ vs, LegalValue v) :
    c.insertMultiple k vs = c.placed (k ++ '=' :: joinCommas vs) := by
  unfold insertMultiple
  simp only [validKey_ok hk, Res.bind_ok, hne, ↓reduceIte, validateValues_ok hv]
  rw [show k ++ ['='] ++ joinComma vs = k ++ '=' :: joinComma vs by simp, joinComma_eq]
  exact insertStr_placed h (trim_kv hk.not_blank (joinCommas_last hv))
    (printable_kv hk.1 (printable_joinCommas fun v hm => (hv v hm).1))

theorem insertMultiple_badKey (c : Cmdline) {k : Str} {vs : List Str} {e} (hk : KeyProblem k e) :
    c.insertMultiple k vs = (c, .err e) := by
  unfold insertMultiple; simp [validKey_err hk]

theorem insertMultiple_nil (c : Cmdline) {k : Str} (hk : LegalKey k) :
    c.insertMultiple k [] = (c, .err (.missingVal k)) := by
  unfold insertMultiple; simp [validKey_ok hk]

theorem insertMultiple_badValue (c : Cmdline) {k : Str} {us ws : List Str} {v : Str} {e}
    (hk : LegalKey k) (hu : ∀ u ∈ us, LegalValue u) (hv : ValueProblem v e) :
    c.insertMultiple k (us ++ v :: ws) = (c, .err e) := by
  unfold insertMultiple; simp [validKey_ok hk, validateValues_err hu hv]

/-! ## Digits and the virtio text -/

theorem isDigit_range {c : Char} (h : c.isDigit = true) : 48 ≤ c.toNat ∧ c.toNat ≤ 57 := by
  simp only [Char.isDigit, ge_iff_le, Bool.and_eq_true, decide_eq_true_eq,
    UInt32.le_iff_toNat_le] at h
  exact h

theorem decStr_digits (n : Nat) : ∀ c ∈ decStr n, 48 ≤ c.toNat ∧ c.toNat ≤ 57 :=
  fun _ hc => isDigit_range (Nat.isDigit_of_mem_toDigits (by omega) (by omega) hc)

theorem decStr_ne_nil (n : Nat) : decStr n ≠ [] := Nat.toDigits_ne_nil

/-- The sixteen hexadecimal digits. -/
def hexChars : List Char := "0123456789abcdef".toList

theorem digitChar_mem {d : Nat} (h : d < 16) : d.digitChar ∈ hexChars := by
  have : ∀ d : Fin 16, d.val.digitChar ∈ hexChars := by decide
  exact this ⟨d, h⟩

theorem hexStr_mem (n : Nat) : ∀ c ∈ hexStr n, c ∈ hexChars := by
  induction n using Nat.strongRecOn with
  | ind n ih =>
    intro c hc
    unfold hexStr at hc
    by_cases h : n < 16
    · rw [Nat.toDigits_of_lt_base h] at hc
      simp at hc; subst hc; exact digitChar_mem h
    · rw [Nat.toDigits_of_base_le (by omega) (by omega)] at hc
      rw [List.mem_append] at hc
      rcases hc with hc | hc
      · exact ih (n / 16) (by omega) c hc
      · simp at hc; subst hc; exact digitChar_mem (by omega)

theorem hexChars_graph : ∀ c ∈ hexChars, 0x20 < c.toNat ∧ c.toNat ≤ 0x7e := by decide

/-- Visible characters: printable and not a space. -/
def Visible (s : Str) : Prop := ∀ c ∈ s, 0x20 < c.toNat ∧ c.toNat ≤ 0x7e

theorem Visible.append {s t : Str} (h : Visible s) (h' : Visible t) : Visible (s ++ t) := by
  intro c hc; rw [List.mem_append] at hc
  rcases hc with hc | hc
  · exact h c hc
  · exact h' c hc

theorem Visible.printable {s : Str} (h : Visible s) : Printable s := by
  intro c hc; have := h c hc; omega

theorem Visible.not_blank {s : Str} (h : Visible s) : ∀ c ∈ s, ¬ Blank c := by
  intro c hc hb
  have h1 := h c hc
  have := blank_of_printable ⟨by omega, h1.2⟩ hb
  subst this
  simp at h1

theorem Visible.trim {s : Str} (h : Visible s) : LinuxLoader.trim s = s :=
  trim_eq_self (fun c hc => h.not_blank c (List.mem_of_head? hc))
    (fun c hc => h.not_blank c (List.mem_of_getLast? hc))

theorem visible_decStr (n : Nat) : Visible (decStr n) := by
  intro c hc; have := decStr_digits n c hc; omega

theorem visible_hexStr (n : Nat) : Visible (hexStr n) :=
  fun c hc => hexChars_graph c (hexStr_mem n c hc)

theorem visible_guestusize (n : UInt64) : Visible (guestusizeToStr n) := by
  unfold guestusizeToStr
  dsimp only
  repeat' split
  · exact (visible_decStr _).append (by unfold Visible; decide)
  · exact (visible_decStr _).append (by unfold Visible; decide)
  · exact (visible_decStr _).append (by unfold Visible; decide)
  · exact visible_decStr _

theorem visible_deviceStr (size base irq id) : Visible (deviceStr size base irq id) := by
  have h : Visible (virtioPrefix ++ guestusizeToStr size ++ ['@', '0', 'x'] ++ hexStr base.toNat
      ++ [':'] ++ decStr irq.toNat) := by
    refine ((((Visible.append ?_ (visible_guestusize _)).append ?_).append
      (visible_hexStr _)).append ?_).append (visible_decStr _) <;> (unfold Visible; decide)
  unfold deviceStr
  dsimp only
  cases id with
  | none => exact h
  | some id => exact h.append (Visible.append (by unfold Visible; decide) (visible_decStr _))

theorem guestusize_sizeText (size : UInt64) : guestusizeToStr size = sizeText size.toNat := by
  unfold guestusizeToStr sizeText decStr
  simp only [Nat.dvd_iff_mod_eq_zero]
  rfl

/-- The model builds the text of the specification. -/
theorem deviceStr_text (size base : UInt64) (irq : UInt32) (id : Option UInt32) :
    deviceStr size base irq id = "virtio_mmio.device=".toList ++ deviceText size base irq id := by
  show _ = virtioPrefix ++ _
  unfold deviceStr deviceText hexStr decStr
  rw [guestusize_sizeText]
  generalize virtioPrefix = p
  generalize sizeText _ = s
  cases id <;> simp [List.append_assoc]

theorem addVirtio_eq {c : Cmdline} (h : c.Inv) (size base irq id) :
    c.addVirtioMmioDevice size base irq id =
      if size = 0 then (c, .err .mmioSize) else c.placed (deviceStr size base irq id) := by
  unfold addVirtioMmioDevice
  split
  · rfl
  · exact insertStr_placed h (visible_deviceStr _ _ _ _).trim (visible_deviceStr _ _ _ _).printable

/-! ## Steps -/

theorem placed_fst (c : Cmdline) (t : Str) :
    (c.placed t).2 = .ok () ∧ Fits (extend c.bootArgs t) c.initArgs c.capacity ∧
      (c.placed t).1 = { c with bootArgs := extend c.bootArgs t } ∨
    (c.placed t) = (c, .err .tooLarge) := by
  unfold placed; split
  · rename_i h; exact .inl ⟨rfl, h, rfl⟩
  · exact .inr rfl

/-- What one builder call can do. -/
inductive StepCase (c : Cmdline) (op : Op) : Prop
  | rejected (e) (h : c.step op = (c, .err e))
  | boot (t) (ht : BootText op t) (hp : Printable t)
      (hf : Fits (extend c.bootArgs t) c.initArgs c.capacity)
      (h : c.step op = ({ c with bootArgs := extend c.bootArgs t }, .ok ()))
  | init (t) (ht : InitText op t) (hp : Printable t)
      (hf : Fits c.bootArgs (extend c.initArgs t) c.capacity)
      (h : c.step op = ({ c with initArgs := extend c.initArgs t }, .ok ()))

theorem StepCase.of_placed {c : Cmdline} {op : Op} {t : Str} (h : c.step op = c.placed t)
    (ht : BootText op t) (hp : Printable t) : StepCase c op := by
  rcases c.placed_fst t with ⟨h2, hf, h1⟩ | h'
  · refine .boot t ht hp hf ?_
    rw [h]; exact Prod.ext h1 h2
  · exact .rejected _ (h.trans h')

theorem fits_init {c : Cmdline} {t : Str} (h : c.Inv)
    (hf : ¬ (text c.bootArgs c.initArgs).utf8Len + (if c.initArgs = [] then 4 else 1)
          + t.utf8Len + 1 > c.capacity.toNat) :
    Fits c.bootArgs (extend c.initArgs t) c.capacity := by
  unfold Inv at h
  unfold Fits at h ⊢
  simp only [utf8Len_text, utf8Len_extend] at h hf ⊢
  by_cases hi : c.initArgs = []
  · simp only [hi, ↓reduceIte] at h hf ⊢
    have he : extend [] t = t := by simp [extend]
    rw [he]
    split <;> omega
  · have he : extend c.initArgs t ≠ [] := by simp [extend, hi]
    simp only [hi, ↓reduceIte, he] at h hf ⊢
    omega

theorem step_cases {c : Cmdline} (h : c.Inv) (op : Op) : StepCase c op := by
  cases op with
  | insert k v =>
    rcases validKey_eq k with ⟨e, he, -⟩ | ⟨hk, -⟩
    · exact .rejected e (insert_badKey c he)
    · rcases validValue_eq v with ⟨e, he, -⟩ | ⟨hv, -⟩
      · exact .rejected e (insert_badValue c hk he)
      · exact .of_placed (insert_legal h hk hv) .insert (printable_kv hk.1 hv.1)
  | insertMultiple k vs =>
    rcases validKey_eq k with ⟨e, he, -⟩ | ⟨hk, -⟩
    · exact .rejected e (insertMultiple_badKey c he)
    · by_cases hn : vs = []
      · subst hn; exact .rejected _ (insertMultiple_nil c hk)
      · rcases values_cases vs with hv | ⟨us, v, ws, e, rfl, hu, hv⟩
        · exact .of_placed (insertMultiple_legal h hk hn hv) .insertMultiple
            (printable_kv hk.1 (printable_joinCommas fun v hm => (hv v hm).1))
        · exact .rejected e (insertMultiple_badValue c hk hu hv)
  | insertStr s =>
    by_cases hp : Printable (trim s)
    · exact .of_placed (insertStr_placed h rfl hp) (.insertStr (trimmed_trim s)) hp
    · refine .rejected .invalidAscii ?_
      show c.insertStr s = _
      rw [insertStr_eq h]; simp [hp]
  | insertInitArgs s =>
    have heq : c.step (.insertInitArgs s) = c.insertInitArgs s := rfl
    rw [insertInitArgs_eq h] at heq
    by_cases hp : Printable (trim s)
    · rw [if_neg (not_not_intro hp)] at heq
      by_cases hf : (text c.bootArgs c.initArgs).utf8Len + (if c.initArgs = [] then 4 else 1)
          + (trim s).utf8Len + 1 > c.capacity.toNat
      · rw [if_pos hf] at heq; exact .rejected _ heq
      · rw [if_neg hf] at heq
        exact .init (trim s) (.insertInitArgs (trimmed_trim s)) hp (fits_init h hf) heq
    · rw [if_pos hp] at heq; exact .rejected _ heq
  | addVirtio size base irq id =>
    by_cases hz : size = 0
    · refine .rejected .mmioSize ?_
      show c.addVirtioMmioDevice size base irq id = _
      rw [addVirtio_eq h]; simp [hz]
    · refine .of_placed (t := deviceStr size base irq id) ?_ (deviceStr_text size base irq id ▸ .virtio)
        (visible_deviceStr _ _ _ _).printable
      show c.addVirtioMmioDevice size base irq id = _
      rw [addVirtio_eq h]; simp [hz]

theorem Inv.step {c : Cmdline} (h : c.Inv) (op : Op) : (c.step op).1.Inv := by
  rcases step_cases h op with ⟨e, h'⟩ | ⟨t, -, -, hf, h'⟩ | ⟨t, -, -, hf, h'⟩ <;> rw [h']
  · exact h
  · exact hf
  · exact hf

theorem step_capacity {c : Cmdline} (h : c.Inv) (op : Op) :
    (c.step op).1.capacity = c.capacity := by
  rcases step_cases h op with ⟨e, h'⟩ | ⟨t, -, -, hf, h'⟩ | ⟨t, -, -, hf, h'⟩ <;> rw [h']

theorem Inv.new {cap c} (h : Cmdline.new cap = .ok c) :
    c.Inv ∧ c.capacity = cap ∧ c.bootArgs = [] ∧ c.initArgs = [] := by
  unfold Cmdline.new at h
  split at h
  · cases h
  · rename_i hz
    cases h
    refine ⟨?_, rfl, rfl, rfl⟩
    simp only [Inv, Fits, text, utf8Len_nil, ↓reduceIte]
    have : cap.toNat ≠ 0 := fun h0 => hz (UInt64.toNat_inj.1 (by simpa using h0))
    omega

theorem tryFrom_eq (raw : Str) (cap : UInt64) :
    tryFrom raw cap = if cap = 0 then .err .invalidCapacity
      else if (text (splitRaw raw).1 (splitRaw raw).2).utf8Len + 1 ≥ U64 then .err .tooLarge
      else if ¬ Fits (splitRaw raw).1 (splitRaw raw).2 cap then .err .invalidCapacity
      else .ok ⟨(splitRaw raw).1, (splitRaw raw).2, cap⟩ := by
  unfold tryFrom
  split
  · rfl
  · obtain ⟨b, i⟩ := splitRaw raw
    simp only [utf8Len_text, Fits, checkedAdd, utf8Len_initSep]
    by_cases hi : i = []
    · simp only [hi, ↓reduceIte, ne_eq, not_true_eq_false]
      by_cases h1 : b.utf8Len + 1 < U64
      · simp only [h1, ↓reduceIte, okOr, Res.bind_ok]
        rw [if_neg (show ¬ b.utf8Len + 1 ≥ U64 by omega)]
        by_cases h9 : cap.toNat < b.utf8Len + 1 <;> simp [h9] <;> omega
      · simp only [h1, ↓reduceIte, okOr, Res.bind_err]
        rw [if_pos (by omega)]
    · simp only [hi, ↓reduceIte, ne_eq, not_false_eq_true]
      by_cases h1 : b.utf8Len + 4 + i.utf8Len + 1 < U64
      · rw [if_pos (by omega)]
        simp only [okOr, Res.bind_ok]
        rw [if_pos (by omega)]
        simp only [Res.bind_ok]
        rw [if_pos (by omega)]
        simp only [Res.bind_ok]
        rw [if_neg (show ¬ b.utf8Len + 4 + i.utf8Len + 1 ≥ U64 by omega)]
        split <;> simp_all <;> omega
      · rw [if_pos (show b.utf8Len + 4 + i.utf8Len + 1 ≥ U64 by omega)]
        by_cases h2 : b.utf8Len + 1 < U64
        · simp only [h2, ↓reduceIte, okOr, Res.bind_ok]
          by_cases h3 : b.utf8Len + 1 + 4 < U64
          · simp only [h3, ↓reduceIte, Res.bind_ok]
            rw [if_neg (by omega)]; rfl
          · simp only [h3, ↓reduceIte, Res.bind_err]
        · simp only [h2, ↓reduceIte, okOr, Res.bind_err]

theorem Inv.tryFrom {s cap c} (h : Cmdline.tryFrom s cap = .ok c) :
    c.Inv ∧ c.capacity = cap ∧ (c.bootArgs, c.initArgs) = splitRaw s := by
  rw [tryFrom_eq] at h
  split at h
  · cases h
  split at h
  · cases h
  split at h
  · cases h
  · rename_i hf
    cases h
    exact ⟨Decidable.byContradiction (p := Fits _ _ _) hf, rfl, rfl⟩

theorem Reachable.inv {c : Cmdline} (h : Reachable c) : c.Inv := by
  induction h with
  | new h => exact (Inv.new h).1
  | tryFrom h => exact (Inv.tryFrom h).1
  | step op _ ih => exact ih.step op

theorem Inv.run {c : Cmdline} (h : c.Inv) (ops : List Op) :
    (c.run ops).Inv ∧ (c.run ops).capacity = c.capacity := by
  induction ops generalizing c with
  | nil => exact ⟨h, rfl⟩
  | cons op ops ih =>
    have := ih (h.step op)
    exact ⟨this.1, this.2.trans (step_capacity h op)⟩

theorem Reachable.run {c : Cmdline} (h : Reachable c) (ops : List Op) : Reachable (c.run ops) := by
  induction ops generalizing c with
  | nil => exact h
  | cons op ops ih => exact ih (h.step op)

theorem asCString_ok {c : Cmdline} {bs} (h : c.asCString = .ok bs) :
    bs = (text c.bootArgs c.initArgs).utf8 := by
  unfold asCString cstringNew at h
  split at h
  · rename_i he
    simp only [utf8_nil, List.contains_nil, Bool.false_eq_true, ↓reduceIte] at h
    cases h
    simp [text, he.1, he.2]
  split at h
  · cases h
  split at h
  · rename_i hi
    split at h
    · cases h
    · cases h; simp [text, hi]
  · rename_i hi
    split at h
    · cases h
    · cases h; simp [text, hi, sep_eq]

end Cmdline
end LinuxLoader
