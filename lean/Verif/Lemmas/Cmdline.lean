import Verif.Spec.Cmdline

/-! # Lemmas about the command line model -/

namespace LinuxLoader
open Spec

/-! ## Characters and strings -/

theorem validChar_iff (c : Char) : validChar c = true ↔ 0x20 ≤ c.toNat ∧ c.toNat ≤ 0x7e := by
  simp only [validChar, Bool.and_eq_true, decide_eq_true_eq, Char.le_def, UInt32.le_iff_toNat_le]
  exact Iff.rfl

theorem all_validChar_iff (s : Str) : s.all validChar = true ↔ Printable s := by
  simp [List.all_eq_true, Printable, validChar_iff]

theorem isWhitespace_iff (c : Char) : isWhitespace c = true ↔ Blank c := by
  simp only [isWhitespace, Blank, whiteSpace, Bool.or_eq_true, Bool.and_eq_true, decide_eq_true_eq,
    beq_iff_eq, List.mem_cons, List.not_mem_nil, or_false]
  omega

theorem validStr_eq (s : Str) :
    validStr s = if Printable s then .ok () else .err .invalidAscii := by
  unfold validStr
  by_cases h : Printable s
  · simp [h, (all_validChar_iff s).2 h]
  · have : ¬ s.all validChar = true := fun h' => h ((all_validChar_iff s).1 h')
    rw [if_neg this, if_neg h]

@[simp] theorem utf8Len_nil : Str.utf8Len [] = 0 := rfl
@[simp] theorem utf8Len_cons (c : Char) (s : Str) :
    Str.utf8Len (c :: s) = c.utf8Size + Str.utf8Len s := by simp [Str.utf8Len]
@[simp] theorem utf8Len_append (s t : Str) :
    Str.utf8Len (s ++ t) = Str.utf8Len s + Str.utf8Len t := by simp [Str.utf8Len]
@[simp] theorem utf8_nil : Str.utf8 [] = [] := rfl
@[simp] theorem utf8_append (s t : Str) : Str.utf8 (s ++ t) = Str.utf8 s ++ Str.utf8 t := by
  simp [Str.utf8]

theorem utf8_length (s : Str) : (Str.utf8 s).length = Str.utf8Len s := by
  induction s with
  | nil => rfl
  | cons c s ih =>
    simp only [Str.utf8, List.flatMap_cons, List.length_append, utf8Len_cons,
      String.length_utf8EncodeChar]
    have := ih; simp only [Str.utf8] at this; omega

theorem length_le_utf8Len (s : Str) : s.length ≤ Str.utf8Len s := by
  induction s with
  | nil => simp
  | cons c s ih => have := Char.utf8Size_pos c; simp only [List.length_cons, utf8Len_cons]; omega

theorem utf8Len_eq_zero {s : Str} : Str.utf8Len s = 0 ↔ s = [] := by
  constructor
  · intro h; have := length_le_utf8Len s; exact List.length_eq_zero_iff.1 (by omega)
  · rintro rfl; rfl

/-- The model's UTF-8 encoding is that of Lean's own `String` library. -/
theorem utf8_eq_string (s : Str) : Str.utf8 s = (String.ofList s).toByteArray.data.toList := by
  simp [Str.utf8, String.toByteArray_ofList, List.utf8Encode]

theorem utf8Size_of_printable {c : Char} (h : c.toNat ≤ 0x7e) : c.utf8Size = 1 := by
  have : c.val ≤ 127 := by rw [UInt32.le_iff_toNat_le]; exact Nat.le_trans h (by decide)
  simp [Char.utf8Size, this]

theorem utf8Len_of_printable {s : Str} (h : Printable s) : Str.utf8Len s = s.length := by
  induction s with
  | nil => rfl
  | cons c s ih =>
    simp only [utf8Len_cons, List.length_cons]
    rw [ih (fun d hd => h d (by simp [hd])), utf8Size_of_printable (h c (by simp)).2]; omega

theorem sep_eq : initArgsSeparator = sep := by decide
theorem sep_def : sep = [' ', '-', '-', ' '] := by decide
@[simp] theorem utf8Len_sep : Str.utf8Len sep = 4 := by decide
@[simp] theorem utf8Len_initSep : Str.utf8Len initArgsSeparator = 4 := by decide
@[simp] theorem utf8Size_space : Char.utf8Size ' ' = 1 := by decide
@[simp] theorem utf8Size_eq : Char.utf8Size '=' = 1 := by decide

/-! ## Trimming -/

theorem trimEnd_spec (s : Str) :
    ∃ r, s = trimEnd s ++ r ∧ (∀ c ∈ r, Blank c) ∧
      (∀ c, (trimEnd s).getLast? = some c → ¬ Blank c) := by
  refine ⟨(s.reverse.takeWhile isWhitespace).reverse, ?_, ?_, ?_⟩
  · unfold trimEnd
    rw [← List.reverse_append, List.takeWhile_append_dropWhile, List.reverse_reverse]
  · intro c hc
    rw [List.mem_reverse] at hc
    exact (isWhitespace_iff c).1 (by
      have := List.all_takeWhile (p := isWhitespace) (l := s.reverse)
      exact List.all_eq_true.1 this c hc)
  · intro c hc
    unfold trimEnd at hc
    rw [List.getLast?_reverse] at hc
    have h2 := List.head?_dropWhile_not isWhitespace s.reverse
    rw [hc] at h2
    intro hb
    simp only [(isWhitespace_iff c).2 hb] at h2
    cases h2

theorem trimStart_spec (s : Str) :
    ∃ l, s = l ++ trimStart s ∧ (∀ c ∈ l, Blank c) ∧
      (∀ c, (trimStart s).head? = some c → ¬ Blank c) := by
  refine ⟨s.takeWhile isWhitespace, (List.takeWhile_append_dropWhile ..).symm, ?_, ?_⟩
  · intro c hc
    exact (isWhitespace_iff c).1 (List.all_eq_true.1 List.all_takeWhile c hc)
  · intro c hc hb
    have h2 := List.head?_dropWhile_not isWhitespace s
    unfold trimStart at hc
    rw [hc] at h2
    simp only [(isWhitespace_iff c).2 hb] at h2
    cases h2

/-- The model of `str::trim` computes the trimmed string. -/
theorem trimmed_trim (s : Str) : Trimmed s (trim s) := by
  obtain ⟨l, h1, h2, h3⟩ := trimStart_spec s
  obtain ⟨r, h4, h5, h6⟩ := trimEnd_spec (trimStart s)
  refine ⟨l, r, ?_, h2, h5, ?_, h6⟩
  · unfold trim; rw [List.append_assoc, ← h4, ← h1]
  · intro c hc
    refine h3 c ?_
    rw [h4]
    unfold trim at hc
    rw [List.head?_append, hc]; rfl

theorem dropWhile_append_blank {l t : Str} (hl : ∀ c ∈ l, Blank c)
    (ht : ∀ c, t.head? = some c → ¬ Blank c) : (l ++ t).dropWhile isWhitespace = t := by
  induction l with
  | nil =>
    cases t with
    | nil => rfl
    | cons c t =>
      have : isWhitespace c = false := by
        have := ht c rfl
        rw [← isWhitespace_iff] at this
        simpa using this
      simp [this]
  | cons c l ih =>
    have : isWhitespace c = true := (isWhitespace_iff c).2 (hl c (by simp))
    simp only [List.cons_append, List.dropWhile_cons, this, if_true]
    exact ih (fun d hd => hl d (by simp [hd]))

theorem dropWhile_all_blank {l : Str} (hl : ∀ c ∈ l, Blank c) :
    l.dropWhile isWhitespace = [] := by
  have := dropWhile_append_blank (t := []) hl (by simp)
  simpa using this

/-- Trimming is a function: `Trimmed` determines its result. -/
theorem trim_of_trimmed {s t : Str} (h : Trimmed s t) : trim s = t := by
  obtain ⟨l, r, rfl, hl, hr, hh, hg⟩ := h
  cases t with
  | nil =>
    have : ∀ c ∈ l ++ [] ++ r, Blank c := by
      intro c hc; simp at hc; rcases hc with hc | hc
      · exact hl c hc
      · exact hr c hc
    simp only [trim, trimStart, dropWhile_all_blank this, trimEnd]; rfl
  | cons c t =>
    simp only [trim, trimStart]
    rw [List.append_assoc, dropWhile_append_blank hl (by
      intro d hd; exact hh d (by simpa using hd))]
    simp only [trimEnd, List.reverse_append]
    rw [dropWhile_append_blank (by intro d hd; exact hr d (by simpa using hd)) (by
      intro d hd; rw [List.head?_reverse] at hd; exact hg d hd)]
    simp

theorem trimmed_iff {s t : Str} : Trimmed s t ↔ trim s = t :=
  ⟨trim_of_trimmed, fun h => h ▸ trimmed_trim s⟩

theorem trim_trim (s : Str) : trim (trim s) = trim s := by
  apply trim_of_trimmed
  obtain ⟨l, r, -, -, -, hh, hg⟩ := trimmed_trim s
  exact ⟨[], [], by simp, by simp, by simp, hh, hg⟩

theorem trim_eq_self {s : Str} (hh : ∀ c, s.head? = some c → ¬ Blank c)
    (hg : ∀ c, s.getLast? = some c → ¬ Blank c) : trim s = s :=
  trim_of_trimmed ⟨[], [], by simp, by simp, by simp, hh, hg⟩

theorem utf8Len_trim_le (s : Str) : (trim s).utf8Len ≤ s.utf8Len := by
  obtain ⟨l, r, h, -⟩ := trimmed_trim s
  have := congrArg Str.utf8Len h
  simp only [utf8Len_append] at this; omega

theorem blank_space : Blank ' ' := by decide

theorem blank_of_printable {c : Char} (h : 0x20 ≤ c.toNat ∧ c.toNat ≤ 0x7e) (hb : Blank c) :
    c = ' ' := by
  simp only [Blank, whiteSpace, List.mem_cons, List.not_mem_nil, or_false] at hb
  have h32 : c.toNat = 32 := by omega
  exact Char.ext (UInt32.toNat_inj.1 (by simpa using h32))

theorem Spec.Printable.mono {s t : Str} (h : Printable s) (hst : ∀ c ∈ t, c ∈ s) : Printable t :=
  fun c hc => h c (hst c hc)

theorem printable_append {s t : Str} : Printable (s ++ t) ↔ Printable s ∧ Printable t := by
  simp only [Printable, List.mem_append]
  constructor
  · intro h; exact ⟨fun c hc => h c (.inl hc), fun c hc => h c (.inr hc)⟩
  · rintro ⟨h1, h2⟩ c (hc | hc)
    · exact h1 c hc
    · exact h2 c hc

theorem printable_sep : Printable sep := by decide

theorem printable_extend {a s : Str} (ha : Printable a) (hs : Printable s) :
    Printable (extend a s) := by
  unfold extend; split
  · exact hs
  · rw [printable_append]; refine ⟨ha, ?_⟩
    intro c hc; rw [List.mem_cons] at hc
    rcases hc with rfl | hc
    · decide
    · exact hs c hc

/-! ## Sizes -/

theorem utf8Len_text (b i : Str) :
    (text b i).utf8Len = if i = [] then b.utf8Len else b.utf8Len + 4 + i.utf8Len := by
  unfold text; split <;> simp [Nat.add_assoc]

theorem utf8Len_extend (a s : Str) :
    (extend a s).utf8Len = if a = [] then s.utf8Len else a.utf8Len + 1 + s.utf8Len := by
  unfold extend; split <;> simp [Nat.add_assoc]

namespace Cmdline

/-- The invariant: the NUL terminated text fits the capacity. -/
def Inv (c : Cmdline) : Prop := Fits c.bootArgs c.initArgs c.capacity

theorem cap_lt (c : Cmdline) : c.capacity.toNat < U64 := by
  have := UInt64.toNat_lt c.capacity; unfold U64; omega

theorem nullTerminatedSize_eq {c : Cmdline} (h : c.Inv) :
    c.nullTerminatedSize = .ok ((text c.bootArgs c.initArgs).utf8Len + 1) := by
  have hc := c.cap_lt
  simp only [Inv, Fits, utf8Len_text] at h
  simp only [nullTerminatedSize, plainAdd, utf8Len_text]
  by_cases hi : c.initArgs = []
  · simp only [hi, ↓reduceIte] at h ⊢
    rw [if_pos (by omega)]; simp
  · simp only [hi, ↓reduceIte] at h ⊢
    rw [if_pos (by omega)]
    simp only [Res.bind_ok, utf8Len_initSep, ne_eq, hi, not_false_eq_true, ↓reduceIte]
    rw [if_pos (by omega)]
    simp only [Res.bind_ok]
    rw [if_pos (by omega)]
    congr 1; omega

theorem checkInsertStr_eq {c : Cmdline} (h : c.Inv) (slug : Str) :
    c.checkInsertStr slug =
      if ¬ Printable (trim slug) then .err .invalidAscii
      else if ¬ Fits (extend c.bootArgs (trim slug)) c.initArgs c.capacity then .err .tooLarge
      else .ok (trim slug) := by
  have hc := c.cap_lt
  unfold checkInsertStr
  simp only [validStr_eq, nullTerminatedSize_eq h]
  by_cases hp : Printable (trim slug)
  · simp only [hp, ↓reduceIte, Res.bind_ok, not_true_eq_false]
    simp only [Inv, Fits, utf8Len_text, utf8Len_extend, checkedAdd] at h ⊢
    by_cases hb : c.bootArgs = [] <;> by_cases hi : c.initArgs = []
    all_goals
      simp only [hb, hi, ne_eq, not_true_eq_false, not_false_eq_true, ↓reduceIte, Res.bind_ok,
        utf8Len_nil] at h ⊢
      repeat' split
      all_goals simp_all [okOr, Res.bind]
      all_goals (try grind)
  · simp [hp]

theorem insertStr_eq {c : Cmdline} (h : c.Inv) (slug : Str) :
    c.insertStr slug =
      if ¬ Printable (trim slug) then (c, .err .invalidAscii)
      else if ¬ Fits (extend c.bootArgs (trim slug)) c.initArgs c.capacity then (c, .err .tooLarge)
      else ({ c with bootArgs := extend c.bootArgs (trim slug) }, .ok ()) := by
  unfold insertStr
  rw [checkInsertStr_eq h]
  by_cases hp : Printable (trim slug)
  · by_cases hf : Fits (extend c.bootArgs (trim slug)) c.initArgs c.capacity
    · simp only [hp, hf, not_true_eq_false, ↓reduceIte]
      congr 2
      unfold extend
      by_cases hb : c.bootArgs = [] <;> simp [hb]
    · simp only [hp, hf, not_true_eq_false, not_false_eq_true, ↓reduceIte]
  · simp only [hp, not_false_eq_true, ↓reduceIte]

theorem checkInsertInit_eq {c : Cmdline} (h : c.Inv) (slug : Str) :
    c.checkInsertInit slug =
      if ¬ Printable (trim slug) then .err .invalidAscii
      else if (text c.bootArgs c.initArgs).utf8Len + (if c.initArgs = [] then 4 else 1)
          + (trim slug).utf8Len + 1 > c.capacity.toNat then .err .tooLarge
      else .ok (trim slug) := by
  have hc := c.cap_lt
  unfold checkInsertInit
  simp only [validStr_eq, nullTerminatedSize_eq h]
  by_cases hp : Printable (trim slug)
  · simp only [hp, ↓reduceIte, Res.bind_ok, not_true_eq_false]
    simp only [Inv, Fits, utf8Len_text, checkedAdd] at h ⊢
    by_cases hi : c.initArgs = []
    all_goals
      simp only [hi, ↓reduceIte, utf8Len_initSep] at h ⊢
      repeat' split
      all_goals simp_all [okOr, Res.bind]
      all_goals (try grind)
  · simp [hp]

theorem insertInitArgs_eq {c : Cmdline} (h : c.Inv) (slug : Str) :
    c.insertInitArgs slug =
      if ¬ Printable (trim slug) then (c, .err .invalidAscii)
      else if (text c.bootArgs c.initArgs).utf8Len + (if c.initArgs = [] then 4 else 1)
          + (trim slug).utf8Len + 1 > c.capacity.toNat then (c, .err .tooLarge)
      else ({ c with initArgs := extend c.initArgs (trim slug) }, .ok ()) := by
  unfold insertInitArgs
  rw [checkInsertInit_eq h]
  by_cases hp : Printable (trim slug)
  · by_cases hf : (text c.bootArgs c.initArgs).utf8Len + (if c.initArgs = [] then 4 else 1)
          + (trim slug).utf8Len + 1 > c.capacity.toNat
    · rw [if_neg (not_not_intro hp), if_pos hf, if_neg (not_not_intro hp), if_pos hf]
    · rw [if_neg (not_not_intro hp), if_neg hf, if_neg (not_not_intro hp), if_neg hf]
      simp only
      congr 2
      unfold extend
      by_cases hb : c.initArgs = [] <;> simp [hb]
  · simp only [hp, not_false_eq_true, ↓reduceIte]

end Cmdline
end LinuxLoader
