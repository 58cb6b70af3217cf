import Verif.Spec.Utf8
import Verif.Lemmas.Cmdline

/-! # Lemmas about strings as bytes -/

namespace LinuxLoader
open Spec

/-! ## Encoding of one character -/

theorem char_range (c : Char) : c.toNat < 0xD800 ∨ (0xDFFF < c.toNat ∧ c.toNat < 0x110000) := c.valid

theorem enc_cases (c : Char) :
    (c.toNat < 128 ∧ String.utf8EncodeChar c = [UInt8.ofNat c.toNat]) ∨
    (128 ≤ c.toNat ∧ c.toNat < 0x800 ∧ String.utf8EncodeChar c =
      [UInt8.ofNat (c.toNat / 64 % 32 + 0xC0), UInt8.ofNat (c.toNat % 64 + 0x80)]) ∨
    (0x800 ≤ c.toNat ∧ c.toNat < 0x10000 ∧ String.utf8EncodeChar c =
      [UInt8.ofNat (c.toNat / 4096 % 16 + 0xE0), UInt8.ofNat (c.toNat / 64 % 64 + 0x80),
        UInt8.ofNat (c.toNat % 64 + 0x80)]) ∨
    (0x10000 ≤ c.toNat ∧ String.utf8EncodeChar c =
      [UInt8.ofNat (c.toNat / 262144 % 8 + 0xF0), UInt8.ofNat (c.toNat / 4096 % 64 + 0x80),
        UInt8.ofNat (c.toNat / 64 % 64 + 0x80), UInt8.ofNat (c.toNat % 64 + 0x80)]) := by
  unfold String.utf8EncodeChar
  show (c.toNat < 128 ∧ (if c.toNat ≤ 127 then _ else if c.toNat ≤ 2047 then _ else
    if c.toNat ≤ 65535 then _ else _) = _) ∨ _
  by_cases h1 : c.toNat ≤ 127
  · exact .inl ⟨by omega, by rw [if_pos h1]; rfl⟩
  by_cases h2 : c.toNat ≤ 2047
  · exact .inr (.inl ⟨by omega, by omega, by
      show (if c.toNat ≤ 127 then _ else if c.toNat ≤ 2047 then _ else _) = _
      rw [if_neg h1, if_pos h2]; rfl⟩)
  by_cases h3 : c.toNat ≤ 65535
  · exact .inr (.inr (.inl ⟨by omega, by omega, by
      show (if c.toNat ≤ 127 then _ else if c.toNat ≤ 2047 then _ else if c.toNat ≤ 65535 then _ else _) = _
      rw [if_neg h1, if_neg h2, if_pos h3]; rfl⟩))
  · exact .inr (.inr (.inr ⟨by omega, by
      show (if c.toNat ≤ 127 then _ else if c.toNat ≤ 2047 then _ else if c.toNat ≤ 65535 then _ else _) = _
      rw [if_neg h1, if_neg h2, if_neg h3]; rfl⟩))

theorem u8 {n : Nat} (h : n < 256) : (UInt8.ofNat n).toNat = n := by
  rw [UInt8.toNat_ofNat']; omega

theorem next_enc (c : Char) (r : Bytes) :
    Byte.next (String.utf8EncodeChar c ++ r) = .ok (some (c.toNat, r)) := by
  have hr := char_range c
  rcases enc_cases c with ⟨h, e⟩ | ⟨h, h', e⟩ | ⟨h, h', e⟩ | ⟨h, e⟩ <;> rw [e]
  · show (if (UInt8.ofNat c.toNat).toNat < 128 then _ else _) = _
    rw [u8 (by omega), if_pos h]
    rfl
  · show (if (UInt8.ofNat _).toNat < 128 then _ else if (UInt8.ofNat _).toNat < 0xE0 then _ else _) = _
    rw [u8 (by omega), if_neg (by omega), if_pos (by omega)]
    simp only [Byte.accCont, Byte.firstByte]
    rw [u8 (by omega), u8 (by omega)]
    refine congrArg (fun x => Res.ok (some (x, r))) ?_
    omega
  · show (if (UInt8.ofNat _).toNat < 128 then _ else if (UInt8.ofNat _).toNat < 0xE0 then _ else
      if (UInt8.ofNat _).toNat < 0xF0 then _ else _) = _
    rw [u8 (by omega), if_neg (by omega), if_neg (by omega), if_pos (by omega)]
    simp only [Byte.accCont, Byte.firstByte]
    rw [u8 (by omega), u8 (by omega), u8 (by omega)]
    refine congrArg (fun x => Res.ok (some (x, r))) ?_
    omega
  · show (if (UInt8.ofNat _).toNat < 128 then _ else if (UInt8.ofNat _).toNat < 0xE0 then _ else
      if (UInt8.ofNat _).toNat < 0xF0 then _ else _) = _
    rw [u8 (by omega), if_neg (by omega), if_neg (by omega), if_neg (by omega)]
    simp only [Byte.accCont, Byte.firstByte]
    rw [u8 (by omega), u8 (by omega), u8 (by omega)]
    show Res.ok (some (_ + (UInt8.ofNat (c.toNat % 64 + 0x80)).toNat % 64, r)) = _
    rw [u8 (by omega)]
    refine congrArg (fun x => Res.ok (some (x, r))) ?_
    omega

theorem isCont_cont {n : Nat} (h : n < 64) : Byte.isCont (UInt8.ofNat (n + 0x80)) = true := by
  simp only [Byte.isCont, Bool.and_eq_true, decide_eq_true_eq]
  rw [u8 (by omega)]
  omega

theorem isCont_lead {n : Nat} (h : n < 0x80 ∨ 0xC0 ≤ n) (h' : n < 256) :
    Byte.isCont (UInt8.ofNat n) = false := by
  rw [Byte.isCont, u8 h', Bool.and_eq_false_iff]
  simp only [decide_eq_false_iff_not]
  omega

theorem nextBackRev_enc (c : Char) (r : Bytes) :
    Byte.nextBackRev ((String.utf8EncodeChar c).reverse ++ r) = .ok (some (c.toNat, r)) := by
  have hr := char_range c
  rcases enc_cases c with ⟨h, e⟩ | ⟨h, h', e⟩ | ⟨h, h', e⟩ | ⟨h, e⟩ <;> rw [e]
  · show (if (UInt8.ofNat c.toNat).toNat < 128 then _ else _) = _
    rw [u8 (by omega), if_pos h]
    rfl
  · show (if (UInt8.ofNat _).toNat < 128 then _ else if (!Byte.isCont (UInt8.ofNat (_ + 0xC0))) = true then _ else _) = _
    rw [u8 (by omega), if_neg (by omega), isCont_lead (by omega) (by omega)]
    simp only [Byte.accCont, Byte.firstByte, Bool.not_false, if_true]
    rw [u8 (by omega), u8 (by omega)]
    refine congrArg (fun x => Res.ok (some (x, r))) ?_
    omega
  · show (if (UInt8.ofNat _).toNat < 128 then _ else if (!Byte.isCont (UInt8.ofNat (_ + 0x80))) = true then _ else
      if (!Byte.isCont (UInt8.ofNat (_ + 0xE0))) = true then _ else _) = _
    rw [u8 (by omega), if_neg (by omega), isCont_cont (by omega), isCont_lead (by omega) (by omega)]
    simp only [Byte.accCont, Byte.firstByte, Bool.not_false, Bool.not_true, if_true, if_false, Bool.false_eq_true]
    rw [u8 (by omega), u8 (by omega), u8 (by omega)]
    refine congrArg (fun x => Res.ok (some (x, r))) ?_
    omega
  · show (if (UInt8.ofNat _).toNat < 128 then _ else if (!Byte.isCont (UInt8.ofNat (_ + 0x80))) = true then _ else
      if (!Byte.isCont (UInt8.ofNat (_ + 0x80))) = true then _ else _) = _
    rw [u8 (by omega), if_neg (by omega), isCont_cont (by omega), isCont_cont (by omega)]
    simp only [Byte.accCont, Byte.firstByte, Bool.not_true, if_false, Bool.false_eq_true]
    rw [u8 (by omega), u8 (by omega), u8 (by omega)]
    show Res.ok (some ((((UInt8.ofNat (c.toNat / 262144 % 8 + 0xF0)).toNat % _ * 64 + _) * 64 + _) * 64 + _, r)) = _
    rw [u8 (by omega)]
    refine congrArg (fun x => Res.ok (some (x, r))) ?_
    omega

theorem utf8_cons (c : Char) (s : Str) : Str.utf8 (c :: s) = String.utf8EncodeChar c ++ Str.utf8 s := rfl

theorem utf8_eq_nil {s : Str} : Str.utf8 s = [] ↔ s = [] := by
  rw [← List.length_eq_zero_iff, utf8_length, utf8Len_eq_zero]

theorem next_utf8 (c : Char) (s : Str) :
    Byte.next (Str.utf8 (c :: s)) = .ok (some (c.toNat, Str.utf8 s)) := next_enc c _

theorem nextBack_utf8 (s : Str) (c : Char) :
    Byte.nextBack (Str.utf8 (s ++ [c])) = .ok (some (c.toNat, Str.utf8 s)) := by
  have : Str.utf8 (s ++ [c]) = Str.utf8 s ++ String.utf8EncodeChar c := by
    rw [utf8_append, utf8_cons, utf8_nil, List.append_nil]
  rw [this]
  unfold Byte.nextBack
  rw [List.reverse_append, nextBackRev_enc]
  show Res.ok (some (_, (Str.utf8 s).reverse.reverse)) = _
  rw [List.reverse_reverse]

/-! ## Decoding -/

theorem charsAux_utf8 (s : Str) : ∀ n, s.length ≤ n →
    Byte.charsAux n (Str.utf8 s) = .ok (s.map Char.toNat) := by
  induction s with
  | nil => intro n _; cases n <;> rfl
  | cons c s ih =>
    intro n hn
    cases n with
    | zero => simp at hn
    | succ n =>
      rw [Byte.charsAux, next_utf8]
      show (Byte.charsAux n (Str.utf8 s)).map _ = _
      rw [ih n (by simpa using hn)]
      rfl

theorem length_le_utf8 (s : Str) : s.length ≤ (Str.utf8 s).length := by
  rw [utf8_length]; exact length_le_utf8Len s

theorem chars_utf8 (s : Str) : Byte.chars (Str.utf8 s) = .ok (s.map Char.toNat) :=
  charsAux_utf8 s _ (length_le_utf8 s)

theorem isWhitespace_toNat (c : Char) : Byte.isWhitespace c.toNat = isWhitespace c := rfl

theorem trimStartAux_utf8 (s : Str) : ∀ n, s.length ≤ n →
    Byte.trimStartAux n (Str.utf8 s) = .ok (Str.utf8 (trimStart s)) := by
  induction s with
  | nil => intro n _; cases n <;> rfl
  | cons c s ih =>
    intro n hn
    cases n with
    | zero => simp at hn
    | succ n =>
      rw [Byte.trimStartAux, next_utf8]
      show (if Byte.isWhitespace c.toNat = true then _ else _) = _
      rw [isWhitespace_toNat]
      unfold trimStart
      by_cases h : isWhitespace c = true
      · rw [if_pos h, ih n (by simpa using hn), List.dropWhile_cons_of_pos h]
        rfl
      · rw [if_neg h, List.dropWhile_cons_of_neg h]

theorem trimEndAux_utf8 (t : Str) : ∀ n, t.length ≤ n →
    Byte.trimEndAux n (Str.utf8 t.reverse) = .ok (Str.utf8 (trimEnd t.reverse)) := by
  induction t with
  | nil => intro n _; cases n <;> rfl
  | cons c s ih =>
    intro n hn
    cases n with
    | zero => simp at hn
    | succ n =>
      rw [List.reverse_cons, Byte.trimEndAux, nextBack_utf8]
      show (if Byte.isWhitespace c.toNat = true then _ else _) = _
      rw [isWhitespace_toNat]
      unfold trimEnd
      rw [List.reverse_append, List.reverse_reverse]
      show _ = Res.ok (Str.utf8 (List.dropWhile isWhitespace (c :: s)).reverse)
      by_cases h : isWhitespace c = true
      · rw [if_pos h, ih n (by simpa using hn), List.dropWhile_cons_of_pos h]
        unfold trimEnd
        rw [List.reverse_reverse]
      · rw [if_neg h, List.dropWhile_cons_of_neg h, List.reverse_cons]

theorem trim_utf8 (s : Str) : Byte.trim (Str.utf8 s) = .ok (Str.utf8 (trim s)) := by
  unfold Byte.trim
  rw [trimStartAux_utf8 s _ (length_le_utf8 s)]
  show Byte.trimEndAux _ _ = _
  have := trimEndAux_utf8 (trimStart s).reverse (Str.utf8 (trimStart s)).length
    (by rw [List.length_reverse]; exact length_le_utf8 _)
  rw [List.reverse_reverse] at this
  exact this

/-! ## Bytes of ASCII characters -/

/-- A byte below 128 in the encoding of a character is the character. -/
theorem ascii_mem_enc {c d : Char} (hd : d.toNat < 128) :
    UInt8.ofNat d.toNat ∈ String.utf8EncodeChar c ↔ c = d := by
  have hr := char_range c
  have key : ∀ n, n < 256 → 128 ≤ n → UInt8.ofNat d.toNat ≠ UInt8.ofNat n := by
    intro n h1 h2 h
    have := congrArg UInt8.toNat h
    rw [u8 h1, u8 (by omega)] at this
    omega
  constructor
  · intro h
    rcases enc_cases c with ⟨h1, e⟩ | ⟨h1, h', e⟩ | ⟨h1, h', e⟩ | ⟨h1, e⟩ <;> rw [e] at h <;>
      simp only [List.mem_cons, List.not_mem_nil, or_false] at h
    · have := congrArg UInt8.toNat h
      rw [u8 (by omega), u8 (by omega)] at this
      exact Char.ext (UInt32.toNat_inj.1 this.symm)
    · rcases h with h | h <;> exact absurd h (key _ (by omega) (by omega))
    · rcases h with h | h | h <;> exact absurd h (key _ (by omega) (by omega))
    · rcases h with h | h | h | h <;> exact absurd h (key _ (by omega) (by omega))
  · rintro rfl
    rcases enc_cases c with ⟨h1, e⟩ | ⟨h1, h', e⟩ | ⟨h1, h', e⟩ | ⟨h1, e⟩
    · rw [e]; exact .head _
    all_goals omega

theorem contains_utf8 {s : Str} {d : Char} (hd : d.toNat < 128) :
    (Str.utf8 s).contains (UInt8.ofNat d.toNat) = s.contains d := by
  rw [Bool.eq_iff_iff, List.contains_iff_mem, List.contains_iff_mem]
  unfold Str.utf8
  rw [List.mem_flatMap]
  constructor
  · rintro ⟨c, hc, h⟩
    exact (ascii_mem_enc hd).1 h ▸ hc
  · intro h
    exact ⟨d, h, (ascii_mem_enc hd).2 rfl⟩

theorem enc_ascii {d : Char} (hd : d.toNat < 128) : String.utf8EncodeChar d = [UInt8.ofNat d.toNat] := by
  rcases enc_cases d with ⟨h1, e⟩ | ⟨h1, h', e⟩ | ⟨h1, h', e⟩ | ⟨h1, e⟩
  · exact e
  all_goals omega

theorem count_utf8 {s : Str} {d : Char} (hd : d.toNat < 128) :
    (Str.utf8 s).count (UInt8.ofNat d.toNat) = s.count d := by
  induction s with
  | nil => rfl
  | cons c s ih =>
    rw [utf8_cons, List.count_append, ih, List.count_cons]
    by_cases h : c = d
    · subst h
      rw [enc_ascii hd]
      simp [Nat.add_comm]
    · have : (String.utf8EncodeChar c).count (UInt8.ofNat d.toNat) = 0 :=
        List.count_eq_zero.2 fun hm => h ((ascii_mem_enc hd).1 hm)
      rw [this]
      simp [h]

/-! ## Well-formed UTF-8 -/

theorem char_of_nat {n : Nat} (h : n < 0xD800 ∨ (0xDFFF < n ∧ n < 0x110000)) : ∃ c : Char, c.toNat = n := by
  refine ⟨Char.ofNat n, ?_⟩
  have hv : n.isValidChar := h
  simp only [Char.ofNat, dif_pos hv]
  rfl

theorem row_char {row : List (Nat × Nat)} {bs : Bytes} (hrow : row ∈ utf8Rows) (h : rowMatches row bs) :
    ∃ c : Char, bs = String.utf8EncodeChar c := by
  have key : ∀ (b : UInt8) n, b.toNat = n → b = UInt8.ofNat n := by
    rintro b n rfl; exact (UInt8.ofNat_toNat).symm
  simp only [utf8Rows, List.mem_cons, List.not_mem_nil, or_false] at hrow
  rcases hrow with rfl | hrow
  · rcases bs with _ | ⟨a, _ | ⟨b, t⟩⟩ <;> simp only [rowMatches, and_false] at h
    obtain ⟨c, hc⟩ := char_of_nat (n := a.toNat) (by omega)
    refine ⟨c, ?_⟩
    rcases enc_cases c with ⟨h1, e⟩ | ⟨h1, h', e⟩ | ⟨h1, h', e⟩ | ⟨h1, e⟩
    · rw [e, hc, UInt8.ofNat_toNat]
    all_goals omega
  rcases hrow with rfl | hrow
  · rcases bs with _ | ⟨a, _ | ⟨b, _ | ⟨b', t⟩⟩⟩ <;> simp only [rowMatches, and_false] at h
    obtain ⟨c, hc⟩ := char_of_nat (n := a.toNat % 32 * 64 + b.toNat % 64) (by omega)
    refine ⟨c, ?_⟩
    rcases enc_cases c with ⟨h1, e⟩ | ⟨h1, h', e⟩ | ⟨h1, h', e⟩ | ⟨h1, e⟩
    · omega
    · rw [e, key a (c.toNat / 64 % 32 + 0xC0) (by omega), key b (c.toNat % 64 + 0x80) (by omega)]
    all_goals omega
  have three : ∀ {lo hi lo' hi' : Nat}, 0xE0 ≤ lo → hi ≤ 0xEF → 0x80 ≤ lo' → hi' ≤ 0xBF →
      (lo = 0xE0 → 0xA0 ≤ lo') → (hi < 0xED ∨ 0xED < lo ∨ hi' ≤ 0x9F) →
      rowMatches [(lo, hi), (lo', hi'), (0x80, 0xBF)] bs → ∃ c : Char, bs = String.utf8EncodeChar c := by
    intro lo hi lo' hi' h1 h2 h3 h4 h5 h6 h
    rcases bs with _ | ⟨a, _ | ⟨b, _ | ⟨b', _ | ⟨b'', t⟩⟩⟩⟩ <;> simp only [rowMatches, and_false] at h
    obtain ⟨c, hc⟩ := char_of_nat (n := a.toNat % 16 * 4096 + b.toNat % 64 * 64 + b'.toNat % 64) (by omega)
    refine ⟨c, ?_⟩
    rcases enc_cases c with ⟨g1, e⟩ | ⟨g1, g', e⟩ | ⟨g1, g', e⟩ | ⟨g1, e⟩
    · omega
    · omega
    · rw [e, key a (c.toNat / 4096 % 16 + 0xE0) (by omega), key b (c.toNat / 64 % 64 + 0x80) (by omega),
        key b' (c.toNat % 64 + 0x80) (by omega)]
    · omega
  have four : ∀ {lo hi lo' hi' : Nat}, 0xF0 ≤ lo → hi ≤ 0xF4 → 0x80 ≤ lo' → hi' ≤ 0xBF →
      (lo = 0xF0 → 0x90 ≤ lo') → (hi = 0xF4 → hi' ≤ 0x8F) →
      rowMatches [(lo, hi), (lo', hi'), (0x80, 0xBF), (0x80, 0xBF)] bs →
      ∃ c : Char, bs = String.utf8EncodeChar c := by
    intro lo hi lo' hi' h1 h2 h3 h4 h5 h6 h
    rcases bs with _ | ⟨a, _ | ⟨b, _ | ⟨b', _ | ⟨b'', _ | ⟨x, t⟩⟩⟩⟩⟩ <;>
      simp only [rowMatches, and_false] at h
    obtain ⟨c, hc⟩ := char_of_nat (n := a.toNat % 8 * 262144 + b.toNat % 64 * 4096 + b'.toNat % 64 * 64 +
      b''.toNat % 64) (by omega)
    refine ⟨c, ?_⟩
    rcases enc_cases c with ⟨g1, e⟩ | ⟨g1, g', e⟩ | ⟨g1, g', e⟩ | ⟨g1, e⟩
    · omega
    · omega
    · omega
    · rw [e, key a (c.toNat / 262144 % 8 + 0xF0) (by omega), key b (c.toNat / 4096 % 64 + 0x80) (by omega),
        key b' (c.toNat / 64 % 64 + 0x80) (by omega), key b'' (c.toNat % 64 + 0x80) (by omega)]
  rcases hrow with rfl | rfl | rfl | rfl | rfl | rfl | rfl
  · exact three (by omega) (by omega) (by omega) (by omega) (by omega) (by omega) h
  · exact three (by omega) (by omega) (by omega) (by omega) (by omega) (by omega) h
  · exact three (by omega) (by omega) (by omega) (by omega) (by omega) (by omega) h
  · exact three (by omega) (by omega) (by omega) (by omega) (by omega) (by omega) h
  · exact four (by omega) (by omega) (by omega) (by omega) (by omega) (by omega) h
  · exact four (by omega) (by omega) (by omega) (by omega) (by omega) (by omega) h
  · exact four (by omega) (by omega) (by omega) (by omega) (by omega) (by omega) h

theorem char_row (c : Char) : ∃ row ∈ utf8Rows, rowMatches row (String.utf8EncodeChar c) := by
  have hr := char_range c
  rcases enc_cases c with ⟨h, e⟩ | ⟨h, h', e⟩ | ⟨h, h', e⟩ | ⟨h, e⟩ <;> rw [e]
  · refine ⟨[(0x00, 0x7F)], by decide, ?_⟩
    simp only [rowMatches, and_true]
    rw [u8 (by omega)]
    omega
  · refine ⟨[(0xC2, 0xDF), (0x80, 0xBF)], by decide, ?_⟩
    simp only [rowMatches, and_true]
    rw [u8 (by omega), u8 (by omega)]
    omega
  · have fin : ∀ lo hi lo' hi' : Nat, [(lo, hi), (lo', hi'), (0x80, 0xBF)] ∈ utf8Rows →
        (lo ≤ c.toNat / 4096 % 16 + 0xE0 ∧ c.toNat / 4096 % 16 + 0xE0 ≤ hi) →
        (lo' ≤ c.toNat / 64 % 64 + 0x80 ∧ c.toNat / 64 % 64 + 0x80 ≤ hi') →
        ∃ row ∈ utf8Rows, rowMatches row [UInt8.ofNat (c.toNat / 4096 % 16 + 0xE0),
          UInt8.ofNat (c.toNat / 64 % 64 + 0x80), UInt8.ofNat (c.toNat % 64 + 0x80)] := by
      intro lo hi lo' hi' hm h1 h2
      refine ⟨_, hm, ?_⟩
      simp only [rowMatches, and_true]
      rw [u8 (by omega), u8 (by omega), u8 (by omega)]
      omega
    by_cases h0 : c.toNat < 0x1000
    · exact fin 0xE0 0xE0 0xA0 0xBF (by decide) (by omega) (by omega)
    by_cases h1 : c.toNat < 0xD000
    · exact fin 0xE1 0xEC 0x80 0xBF (by decide) (by omega) (by omega)
    by_cases h2 : c.toNat < 0xE000
    · exact fin 0xED 0xED 0x80 0x9F (by decide) (by omega) (by omega)
    · exact fin 0xEE 0xEF 0x80 0xBF (by decide) (by omega) (by omega)
  · have fin : ∀ lo hi lo' hi' : Nat, [(lo, hi), (lo', hi'), (0x80, 0xBF), (0x80, 0xBF)] ∈ utf8Rows →
        (lo ≤ c.toNat / 262144 % 8 + 0xF0 ∧ c.toNat / 262144 % 8 + 0xF0 ≤ hi) →
        (lo' ≤ c.toNat / 4096 % 64 + 0x80 ∧ c.toNat / 4096 % 64 + 0x80 ≤ hi') →
        ∃ row ∈ utf8Rows, rowMatches row [UInt8.ofNat (c.toNat / 262144 % 8 + 0xF0),
          UInt8.ofNat (c.toNat / 4096 % 64 + 0x80), UInt8.ofNat (c.toNat / 64 % 64 + 0x80),
          UInt8.ofNat (c.toNat % 64 + 0x80)] := by
      intro lo hi lo' hi' hm h1 h2
      refine ⟨_, hm, ?_⟩
      simp only [rowMatches, and_true]
      rw [u8 (by omega), u8 (by omega), u8 (by omega), u8 (by omega)]
      omega
    by_cases h0 : c.toNat < 0x40000
    · exact fin 0xF0 0xF0 0x90 0xBF (by decide) (by omega) (by omega)
    by_cases h1 : c.toNat < 0x100000
    · exact fin 0xF1 0xF3 0x80 0xBF (by decide) (by omega) (by omega)
    · exact fin 0xF4 0xF4 0x80 0x8F (by decide) (by omega) (by omega)

/-- The well-formed byte strings are the encodings of sequences of characters. -/
theorem wellFormed_iff (bs : Bytes) : WellFormed bs ↔ ∃ s : Str, bs = Str.utf8 s := by
  constructor
  · intro h
    induction h with
    | nil => exact ⟨[], rfl⟩
    | char hrow hm _ ih =>
      obtain ⟨c, rfl⟩ := row_char hrow hm
      obtain ⟨s, rfl⟩ := ih
      exact ⟨c :: s, rfl⟩
  · rintro ⟨s, rfl⟩
    induction s with
    | nil => exact .nil
    | cons c s ih =>
      obtain ⟨row, h1, h2⟩ := char_row c
      exact .char h1 h2 ih

/-! ## Slicing and searching -/

theorem enc_head (c : Char) : ∃ b t, String.utf8EncodeChar c = b :: t ∧ Byte.isCont b = false := by
  have hr := char_range c
  rcases enc_cases c with ⟨h, e⟩ | ⟨h, h', e⟩ | ⟨h, h', e⟩ | ⟨h, e⟩ <;>
    exact ⟨_, _, e, isCont_lead (by omega) (by omega)⟩

theorem boundary_utf8 (a b : Str) :
    Byte.isCharBoundary (Str.utf8 (a ++ b)) (Str.utf8 a).length = true := by
  rw [utf8_append]
  unfold Byte.isCharBoundary
  split
  · rfl
  split
  · next h =>
    cases b with
    | nil => simp
    | cons c b =>
      obtain ⟨x, t, e, -⟩ := enc_head c
      rw [utf8_cons, e] at h
      simp at h
      omega
  · next h =>
    cases b with
    | nil => simp at h
    | cons c b =>
      obtain ⟨x, t, e, hx⟩ := enc_head c
      rw [utf8_cons, e, List.getElem?_append_right (Nat.le_refl _), Nat.sub_self]
      simp [hx]

theorem sliceTo_utf8 (a b : Str) :
    Byte.sliceTo (Str.utf8 (a ++ b)) (Str.utf8 a).length = .ok (Str.utf8 a) := by
  unfold Byte.sliceTo
  rw [if_pos (boundary_utf8 a b), utf8_append, List.take_left]

theorem sliceFrom_utf8 (a b : Str) :
    Byte.sliceFrom (Str.utf8 (a ++ b)) (Str.utf8 a).length = .ok (Str.utf8 b) := by
  unfold Byte.sliceFrom
  rw [if_pos (boundary_utf8 a b), utf8_append, List.drop_left]

theorem isPrefixOf_utf8 {p : Str} (hp : ∀ d ∈ p, d.toNat < 128) (s : Str) :
    (Str.utf8 p).isPrefixOf (Str.utf8 s) = p.isPrefixOf s := by
  induction p generalizing s with
  | nil => rfl
  | cons d p ih =>
    have hd := hp d (.head _)
    rw [utf8_cons, enc_ascii hd]
    cases s with
    | nil => rfl
    | cons c s =>
      rw [List.isPrefixOf_cons_cons] <;> try rfl
      by_cases h : c = d
      · subst h
        rw [utf8_cons, enc_ascii hd]
        show ((UInt8.ofNat c.toNat == UInt8.ofNat c.toNat) && (Str.utf8 p).isPrefixOf (Str.utf8 s)) = _
        rw [ih (fun d hd => hp d (.tail _ hd))]
        simp
      · obtain ⟨x, t, e, -⟩ := enc_head c
        rw [utf8_cons, e]
        show ((UInt8.ofNat d.toNat == x) && _) = _
        have : (UInt8.ofNat d.toNat == x) = false := by
          rw [beq_eq_false_iff_ne]
          rintro rfl
          exact h ((ascii_mem_enc hd).1 (by rw [e]; exact .head _))
        rw [this]
        have : (d == c) = false := by rw [beq_eq_false_iff_ne]; exact fun e => h e.symm
        rw [this]
        rfl

theorem separator_utf8 : Byte.separator = Str.utf8 initArgsSeparator := by decide +kernel

theorem sep_ascii : ∀ d ∈ initArgsSeparator, d.toNat < 128 := by decide

theorem find_skip (raw : Bytes) (l r : Bytes) (hl : ∀ b ∈ l, b ≠ 0x20) (i : Nat) :
    Byte.Cmdline.find raw i (l ++ r) = Byte.Cmdline.find raw (i + l.length) r := by
  induction l generalizing i with
  | nil => rfl
  | cons b l ih =>
    rw [List.cons_append, Byte.Cmdline.find, if_neg, ih (fun b hb => hl b (.tail _ hb))]
    · congr 1
      simp
      omega
    · intro h
      have hb := hl b (.head _)
      simp [Byte.separator, List.isPrefixOf] at h
      exact hb h.1.symm

theorem find_utf8 (pre rest : Str) :
    Byte.Cmdline.find (Str.utf8 (pre ++ rest)) (Str.utf8 pre).length (Str.utf8 rest) =
      .ok ((Cmdline.findSeparator pre rest).map fun p => (Str.utf8 p.1).length) := by
  suffices H : ∀ n pre rest, rest.length ≤ n →
    Byte.Cmdline.find (Str.utf8 (pre ++ rest)) (Str.utf8 pre).length (Str.utf8 rest) =
      .ok ((Cmdline.findSeparator pre rest).map fun p => (Str.utf8 p.1).length) from H _ _ _ (Nat.le_refl _)
  intro n
  induction n with
  | zero =>
    intro pre rest h
    rw [List.length_eq_zero_iff.1 (Nat.le_zero.1 h), Cmdline.findSeparator, utf8_nil, Byte.Cmdline.find]
    rfl
  | succ n ih =>
    intro pre rest h
    cases rest with
    | nil => rw [Cmdline.findSeparator, utf8_nil, Byte.Cmdline.find]; rfl
    | cons c rest =>
      rw [Cmdline.findSeparator]
      have hpre := isPrefixOf_utf8 sep_ascii (c :: rest)
      rw [← separator_utf8] at hpre
      obtain ⟨x, t, e, -⟩ := enc_head c
      by_cases hp : initArgsSeparator.isPrefixOf (c :: rest) = true
      · rw [if_pos hp]
        obtain ⟨r', hr'⟩ := List.isPrefixOf_iff_prefix.1 hp
        have hd : (c :: rest).drop 4 = r' := by rw [← hr']; rfl
        have ht : (c :: rest).take 4 = initArgsSeparator := by rw [← hr']; rfl
        have hs := sliceTo_utf8 pre (c :: rest)
        rw [utf8_cons, e, List.cons_append, Byte.Cmdline.find, ← List.cons_append, ← e, ← utf8_cons,
          hpre, if_pos hp, hs, Res.bind_ok]
        have hq : Byte.Cmdline.checkOutsideDoubleQuotes (Str.utf8 pre) =
            Cmdline.checkOutsideDoubleQuotes pre := by
          unfold Byte.Cmdline.checkOutsideDoubleQuotes Cmdline.checkOutsideDoubleQuotes
          have := count_utf8 (s := pre) (d := '"') (by decide)
          rw [← this]; rfl
        rw [hq]
        by_cases hq : Cmdline.checkOutsideDoubleQuotes pre = true
        · rw [if_pos hq, if_pos hq]
          rfl
        · rw [if_neg hq, if_neg hq, hd, ht]
          have hl : r'.length ≤ n := by
            have := congrArg List.length hr'
            simp [initArgsSeparator] at this h
            omega
          rw [← ih (pre ++ initArgsSeparator) r' hl, List.append_assoc, hr']
          have h4 : (Str.utf8 initArgsSeparator).length = 4 := by decide +kernel
          have h1 : (Str.utf8 (pre ++ initArgsSeparator)).length = (Str.utf8 pre).length + 4 := by
            rw [utf8_append, List.length_append, h4]
          have h2 : (Str.utf8 (c :: rest)).drop 4 = Str.utf8 r' := by
            rw [← hr', utf8_append, ← h4, List.drop_left]
          rw [h1, h2]
      · rw [if_neg hp]
        have hl : rest.length ≤ n := by simpa using h
        rw [← ih (pre ++ [c]) rest hl, List.append_assoc]
        have h1 : (Str.utf8 (pre ++ [c])).length = (Str.utf8 pre).length + (String.utf8EncodeChar c).length := by
          rw [utf8_append, List.length_append, utf8_cons, utf8_nil, List.append_nil]
        rw [h1]
        by_cases hc : c = ' '
        · subst hc
          rw [utf8_cons] at hpre ⊢
          have e : String.utf8EncodeChar ' ' = [0x20] := by decide +kernel
          rw [e] at hpre ⊢
          rw [List.cons_append, Byte.Cmdline.find, ← List.cons_append, hpre, if_neg hp]
          rfl
        · rw [utf8_cons, find_skip]
          · rfl
          · intro b hb h
            subst h
            exact hc ((ascii_mem_enc (d := ' ') (by decide)).1 hb)

end LinuxLoader
