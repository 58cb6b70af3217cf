import Verif.Spec.Kernel
import Verif.Lemmas.CmdlineRender

/-! # Lemmas about the kernel's view of a command line -/

namespace LinuxLoader
open Spec Spec.Kernel

/-! ## Digits -/

theorem digit_digitChar {d : Nat} (h : d < 16) : digit d.digitChar = some d := by
  have : ∀ d : Fin 16, digit d.val.digitChar = some d.val := by decide
  exact this ⟨d, h⟩

theorem isDigitIn_digitChar {b d : Nat} (hb : b ≤ 16) (h : d < b) :
    isDigitIn b d.digitChar = true := by
  simp [isDigitIn, digit_digitChar (show d < 16 by omega), h]

theorem toDigits_isDigit {b : Nat} (hb : 2 ≤ b) (hb' : b ≤ 16) (n : Nat) :
    ∀ c ∈ Nat.toDigits b n, isDigitIn b c = true := by
  induction n using Nat.strongRecOn with
  | ind n ih =>
    intro c hc
    by_cases h : n < b
    · rw [Nat.toDigits_of_lt_base h] at hc
      simp at hc; subst hc; exact isDigitIn_digitChar hb' h
    · rw [Nat.toDigits_of_base_le (by omega) (by omega)] at hc
      rw [List.mem_append] at hc
      rcases hc with hc | hc
      · exact ih (n / b) (Nat.div_lt_self (by omega) (by omega)) c hc
      · simp at hc; subst hc; exact isDigitIn_digitChar hb' (Nat.mod_lt _ (by omega))

theorem toDigits_value {b : Nat} (hb : 2 ≤ b) (hb' : b ≤ 16) (n : Nat) :
    (Nat.toDigits b n).foldl (fun a c => a * b + (digit c).getD 0) 0 = n := by
  induction n using Nat.strongRecOn with
  | ind n ih =>
    by_cases h : n < b
    · rw [Nat.toDigits_of_lt_base h]
      simp [digit_digitChar (show n < 16 by omega)]
    · rw [Nat.toDigits_of_base_le (by omega) (by omega), List.foldl_append,
        ih (n / b) (Nat.div_lt_self (by omega) (by omega))]
      have hm := Nat.mod_lt n (show 0 < b by omega)
      simp only [List.foldl_cons, List.foldl_nil, digit_digitChar (show n % b < 16 by omega),
        Option.getD_some]
      rw [Nat.mul_comm]; exact Nat.div_add_mod n b

theorem number_toDigits {b : Nat} (hb : 2 ≤ b) (hb' : b ≤ 16) (n : Nat) (r : Str)
    (hr : ∀ c, r.head? = some c → isDigitIn b c = false) :
    number b (Nat.toDigits b n ++ r) = (n, r) := by
  have hd := toDigits_isDigit hb hb' n
  have h1 : (Nat.toDigits b n ++ r).takeWhile (isDigitIn b) = Nat.toDigits b n := by
    rw [List.takeWhile_append_of_pos hd]
    cases r with
    | nil => simp
    | cons c r => simp [hr c rfl]
  have h2 : (Nat.toDigits b n ++ r).dropWhile (isDigitIn b) = r := by
    rw [List.dropWhile_append_of_pos hd]
    cases r with
    | nil => simp
    | cons c r => simp [hr c rfl]
  unfold number
  rw [h1, h2, toDigits_value hb hb']

theorem toDigits_head {n : Nat} (hn : n ≠ 0) :
    ∃ c r, Nat.toDigits 10 n = c :: r ∧ c ≠ '0' := by
  induction n using Nat.strongRecOn with
  | ind n ih =>
    by_cases h : n < 10
    · rw [Nat.toDigits_of_lt_base h]
      refine ⟨_, _, rfl, ?_⟩
      have : ∀ d : Fin 10, d.val ≠ 0 → d.val.digitChar ≠ '0' := by decide
      exact this ⟨n, h⟩ hn
    · rw [Nat.toDigits_of_base_le (by omega) (by omega)]
      obtain ⟨c, r, h1, h2⟩ := ih (n / 10) (by omega) (by omega)
      rw [h1]
      exact ⟨c, _, rfl, h2⟩

theorem numberAuto_dec {n : Nat} (hn : n ≠ 0) (r : Str)
    (hr : ∀ c, r.head? = some c → isDigitIn 10 c = false) :
    numberAuto (Cmdline.decStr n ++ r) = (n, r) := by
  obtain ⟨c, t, h1, h2⟩ := toDigits_head hn
  have h3 := number_toDigits (b := 10) (by omega) (by omega) n r hr
  unfold Cmdline.decStr
  rw [h1] at h3 ⊢
  unfold numberAuto
  split
  · rename_i heq; rw [List.cons_append] at heq; exact absurd (List.cons.inj heq).1 h2
  · rename_i heq; rw [List.cons_append] at heq; exact absurd (List.cons.inj heq).1 h2
  · rename_i heq; rw [List.cons_append] at heq; exact absurd (List.cons.inj heq).1 h2
  · exact h3

theorem numberAuto_hex (n : Nat) (r : Str)
    (hr : ∀ c, r.head? = some c → isDigitIn 16 c = false) :
    numberAuto ('0' :: 'x' :: (Cmdline.hexStr n ++ r)) = (n, r) := by
  have h3 := number_toDigits (b := 16) (by omega) (by omega) n r hr
  unfold numberAuto
  have : ((Cmdline.hexStr n ++ r).head?.map (isDigitIn 16)).getD false = true := by
    unfold Cmdline.hexStr
    have hne : Nat.toDigits 16 n ≠ [] := Nat.toDigits_ne_nil
    have hd := toDigits_isDigit (b := 16) (by omega) (by omega) n
    cases h : Nat.toDigits 16 n with
    | nil => exact absurd h hne
    | cons c t => simp; exact hd c (by rw [h]; simp)
  simp only [this, ↓reduceIte]
  exact h3

theorem decimal_decStr (n : Nat) (r : Str)
    (hr : ∀ c, r.head? = some c → isDigitIn 10 c = false) :
    decimal (Cmdline.decStr n ++ r) = some (n, r) := by
  have h3 := number_toDigits (b := 10) (by omega) (by omega) n r hr
  have : ((Cmdline.decStr n ++ r).head?.map (isDigitIn 10)).getD false = true := by
    unfold Cmdline.decStr
    have hne : Nat.toDigits 10 n ≠ [] := Nat.toDigits_ne_nil
    have hd := toDigits_isDigit (b := 10) (by omega) (by omega) n
    cases h : Nat.toDigits 10 n with
    | nil => exact absurd h hne
    | cons c t => simp; exact hd c (by rw [h]; simp)
  unfold decimal
  rw [if_pos this]
  unfold Cmdline.decStr
  rw [h3]

theorem head_cons {x : Char} {r : Str} {p : Char → Bool} (h : p x = false) :
    ∀ c, (x :: r : Str).head? = some c → p c = false := by
  intro c hc; simp at hc; subst hc; exact h

theorem memparse_guestusize {n : UInt64} (hn : n ≠ 0) (r : Str) :
    memparse (Cmdline.guestusizeToStr n ++ '@' :: r) = (n.toNat, '@' :: r) := by
  have h0 : n.toNat ≠ 0 := fun h => hn (UInt64.toNat_inj.1 (by simpa using h))
  unfold Cmdline.guestusizeToStr
  simp only
  split
  · rename_i h
    rw [List.append_assoc, List.singleton_append]
    unfold memparse
    rw [numberAuto_dec (by omega) _ (head_cons (x := 'G') (r := '@' :: r) (by decide))]
    show ((_, _) : Nat × Str) = _
    rw [Prod.mk.injEq]
    refine ⟨?_, rfl⟩
    omega
  split
  · rename_i h
    rw [List.append_assoc, List.singleton_append]
    unfold memparse
    rw [numberAuto_dec (by omega) _ (head_cons (x := 'M') (r := '@' :: r) (by decide))]
    show ((_, _) : Nat × Str) = _
    rw [Prod.mk.injEq]
    refine ⟨?_, rfl⟩
    omega
  split
  · rename_i h
    rw [List.append_assoc, List.singleton_append]
    unfold memparse
    rw [numberAuto_dec (by omega) _ (head_cons (x := 'K') (r := '@' :: r) (by decide))]
    show ((_, _) : Nat × Str) = _
    rw [Prod.mk.injEq]
    refine ⟨?_, rfl⟩
    omega
  · unfold memparse
    rw [numberAuto_dec h0 _ (head_cons (by decide))]
    rfl

theorem parseDevice_deviceStr (size base : UInt64) (irq : UInt32) (id : Option UInt32)
    (hs : size ≠ 0) : ∃ v, Cmdline.deviceStr size base irq id = "virtio_mmio.device=".toList ++ v ∧
      parseDevice v = some (size.toNat, base.toNat, irq.toNat, id.map UInt32.toNat) := by
  cases id with
  | none =>
    refine ⟨Cmdline.guestusizeToStr size ++ '@' :: ('0' :: 'x' :: (Cmdline.hexStr base.toNat
      ++ ':' :: (Cmdline.decStr irq.toNat ++ []))), by
        show _ = Cmdline.virtioPrefix ++ _
        unfold Cmdline.deviceStr
        generalize Cmdline.virtioPrefix = p
        simp, ?_⟩
    unfold parseDevice
    rw [memparse_guestusize hs]
    simp only
    rw [numberAuto_hex _ _ (head_cons (by decide))]
    simp only
    rw [decimal_decStr _ _ (by simp)]
    rfl
  | some id =>
    refine ⟨Cmdline.guestusizeToStr size ++ '@' :: ('0' :: 'x' :: (Cmdline.hexStr base.toNat
      ++ ':' :: (Cmdline.decStr irq.toNat ++ ':' :: (Cmdline.decStr id.toNat ++ [])))), by
        show _ = Cmdline.virtioPrefix ++ _
        unfold Cmdline.deviceStr
        generalize Cmdline.virtioPrefix = p
        simp, ?_⟩
    unfold parseDevice
    rw [memparse_guestusize hs]
    simp only
    rw [numberAuto_hex _ _ (head_cons (by decide))]
    simp only
    rw [decimal_decStr _ _ (head_cons (by decide))]
    simp only
    rw [decimal_decStr _ _ (by simp)]
    rfl

theorem parseDevice_deviceText (size base : UInt64) (irq : UInt32) (id : Option UInt32) (hs : size ≠ 0) :
    parseDevice (deviceText size base irq id) =
      some (size.toNat, base.toNat, irq.toNat, id.map UInt32.toNat) := by
  obtain ⟨v, hv, hp⟩ := parseDevice_deviceStr size base irq id hs
  rw [Cmdline.deviceStr_text] at hv
  rw [List.append_cancel_left hv, hp]

/-! ## Tokens -/

theorem space_printable {c : Char} (h : 0x20 ≤ c.toNat ∧ c.toNat ≤ 0x7e) :
    space c = true ↔ c = ' ' := by
  constructor
  · intro hs
    simp only [space, List.mem_cons, List.not_mem_nil, or_false, decide_eq_true_eq] at hs
    have h32 : c.toNat = 32 := by omega
    exact Char.ext (UInt32.toNat_inj.1 (by simpa using h32))
  · rintro rfl; decide

/-- Scanning passes over an unquoted stretch without spaces and quotes. -/
theorem scan_plain {s r : Str} (q : Bool) (hq : '"' ∉ s) (hs : q = false → ∀ c ∈ s, space c = false) :
    scan q (s ++ r) = (s ++ (scan q r).1, (scan q r).2) := by
  induction s with
  | nil => rfl
  | cons c s ih =>
    have hc : c ≠ '"' := fun h => hq (by simp [h])
    have ih' := ih (fun h => hq (by simp [h])) (fun h d hd => hs h d (by simp [hd]))
    have hcond : ¬ (space c && !q) = true := by
      cases q with
      | true => simp
      | false => simp [hs rfl c (by simp)]
    simp only [List.cons_append, scan, hcond, hc, ↓reduceIte, ih']
    rfl

theorem scan_quote (q : Bool) (r : Str) :
    scan q ('"' :: r) = ('"' :: (scan (!q) r).1, (scan (!q) r).2) := by
  have : ¬ (space '"' && !q) = true := by cases q <;> decide
  simp only [scan, this, ↓reduceIte]; rfl

/-- `r` is the end of the line or continues with a space. -/
def Ends (r : Str) : Prop := r = [] ∨ ∃ r', r = ' ' :: r'

theorem scan_ends {r : Str} (h : Ends r) : scan false r = ([], r) := by
  rcases h with rfl | ⟨r', rfl⟩
  · rfl
  · unfold scan; simp [show space ' ' = true by decide]

theorem cutEquals_kv {k w : Str} (hk : k ≠ []) (he : '=' ∉ k) :
    cutEquals (k ++ '=' :: w) = (k, some w) := by
  cases k with
  | nil => exact absurd rfl hk
  | cons c k =>
    have hall : ∀ x ∈ k, (x != '=') = true := by
      intro x hx
      have : x ≠ '=' := fun h => he (h ▸ List.mem_cons_of_mem c hx)
      simp [this]
    simp only [List.cons_append, cutEquals]
    rw [List.dropWhile_append_of_pos hall, List.takeWhile_append_of_pos hall]
    simp

theorem LegalKey.no_space {k : Str} (h : LegalKey k) : ∀ c ∈ k, space c = false := by
  intro c hc
  rw [← Bool.not_eq_true, space_printable (h.1 c hc)]
  rintro rfl; exact h.2.1 hc

theorem nextArg_of_scan {args tok rest : Str} (hh : args.head? ≠ some '"')
    (h : scan false args = (tok, rest)) :
    nextArg args = (unquote false tok (cutEquals tok), skipSpaces rest.tail) := by
  unfold nextArg
  simp only [hh, decide_false, ↓reduceIte, h]

theorem skipSpaces_head {c : Char} {t : Str} (h : space c = false) :
    skipSpaces (c :: t) = c :: t := by simp [skipSpaces, h]

theorem parseLoop_cons {args : Str} {k v rest : Str} (hne : args ≠ [])
    (h : nextArg args = ((k, some v), rest)) :
    parseLoop args = (((k, some v) :: (parseLoop rest).1), (parseLoop rest).2) := by
  rw [parseLoop]
  rw [if_neg hne]
  simp [h]

theorem parseLoop_nil : parseLoop [] = ([], none) := by rw [parseLoop]; simp

theorem parseLoop_dashes {i : Str} (hi : i ≠ []) (hh : ∀ c, i.head? = some c → space c = false) :
    parseLoop ('-' :: '-' :: ' ' :: i) = ([], some i) := by
  have hs : scan false ('-' :: '-' :: ' ' :: i) = (['-', '-'], ' ' :: i) := by
    have := scan_plain (s := ['-', '-']) (r := ' ' :: i) false (by decide) (by decide)
    rw [scan_ends (.inr ⟨i, rfl⟩)] at this
    simpa using this
  have hn : nextArg ('-' :: '-' :: ' ' :: i) = ((['-', '-'], none), i) := by
    rw [nextArg_of_scan (by simp) hs]
    have : skipSpaces i = i := by
      cases i with
      | nil => exact absurd rfl hi
      | cons c i => exact skipSpaces_head (hh c rfl)
    simp [this]
    decide
  rw [parseLoop, if_neg (by simp)]
  simp [hn]

theorem trace_inits_trimmed {c c' : Cmdline} {ops bs is} (ht : Trace c ops bs is c') :
    ∀ t ∈ is, ∀ x, t.head? = some x → ¬ Blank x := by
  induction ht with
  | nil => simp
  | rejected _ _ ih => exact ih
  | boot _ _ _ ih => exact ih
  | init _ hi _ ih =>
    intro t ht x hx
    rw [List.mem_cons] at ht
    rcases ht with rfl | ht
    · cases hi with
      | insertInitArgs htr => obtain ⟨l, r, -, -, -, hh, -⟩ := htr; exact hh x hx
    · exact ih t ht x hx

theorem blank_of_space {c : Char} (h : space c = true) : Blank c := by
  simp only [space, List.mem_cons, List.not_mem_nil, or_false, decide_eq_true_eq] at h
  simp only [Blank, whiteSpace, List.mem_cons]
  omega

theorem joinSp_head {l : List Str} (hne : ∀ s ∈ l, s ≠ [])
    (h : ∀ t ∈ l, ∀ x, t.head? = some x → ¬ Blank x) :
    ∀ x, (joinSp l).head? = some x → ¬ Blank x := by
  intro x hx
  cases l with
  | nil => simp [joinSp] at hx
  | cons a l =>
    have ha := hne a (by simp)
    refine h a (by simp) x ?_
    cases l with
    | nil => exact hx
    | cons b l =>
      cases a with
      | nil => exact absurd rfl ha
      | cons y a => simpa [joinSp] using hx

end LinuxLoader
