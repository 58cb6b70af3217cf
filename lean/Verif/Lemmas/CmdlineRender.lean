import Verif.Lemmas.CmdlineOps

/-! # Lemmas about rendering and call histories -/

namespace LinuxLoader
open Spec

theorem zero_mem_encodeChar (c : Char) : (0 : UInt8) ∈ String.utf8EncodeChar c ↔ c.toNat = 0 := by
  have key : ∀ n : Nat, n < 256 → ((0 : UInt8) = UInt8.ofNat n ↔ n = 0) := by
    intro n hn
    rw [← UInt8.toNat_inj, UInt8.toNat_ofNat']
    simp
    omega
  have hv : c.toNat = c.val.toNat := rfl
  rw [hv]
  unfold String.utf8EncodeChar
  simp only
  repeat' split
  all_goals simp only [List.mem_cons, List.not_mem_nil, or_false]
  · rw [key _ (by omega)]
  · rw [key _ (by omega), key _ (by omega)]; omega
  · rw [key _ (by omega), key _ (by omega), key _ (by omega)]; omega
  · rw [key _ (by omega), key _ (by omega), key _ (by omega), key _ (by omega)]; omega

theorem zero_mem_utf8 (s : Str) : (0 : UInt8) ∈ s.utf8 ↔ ∃ c ∈ s, c.toNat = 0 := by
  simp [Str.utf8, List.mem_flatMap, zero_mem_encodeChar]

theorem nul_mem {s : Str} : (∃ c ∈ s, c.toNat = 0) ↔ '\x00' ∈ s := by
  constructor
  · rintro ⟨c, hc, h⟩
    have : c = '\x00' := Char.ext (UInt32.toNat_inj.1 (by simpa using h))
    exact this ▸ hc
  · intro h; exact ⟨_, h, rfl⟩

theorem cstringNew_eq (s : Str) :
    Cmdline.cstringNew s = if '\x00' ∈ s then .err .nullTerminator else .ok s.utf8 := by
  unfold Cmdline.cstringNew
  simp only [List.contains_iff_mem, zero_mem_utf8, nul_mem]

theorem encodeChar_printable {c : Char} (h : c.toNat ≤ 0x7e) :
    String.utf8EncodeChar c = [UInt8.ofNat c.toNat] := by
  have hv : c.toNat = c.val.toNat := rfl
  unfold String.utf8EncodeChar
  simp only
  rw [if_pos (by omega), hv]

theorem utf8_printable {s : Str} (h : Printable s) :
    ∀ b ∈ s.utf8, 0x20 ≤ b.toNat ∧ b.toNat ≤ 0x7e := by
  intro b hb
  simp only [Str.utf8, List.mem_flatMap] at hb
  obtain ⟨c, hc, hb⟩ := hb
  have hp := h c hc
  rw [encodeChar_printable hp.2] at hb
  simp only [List.mem_singleton] at hb
  subst hb
  rw [UInt8.toNat_ofNat']
  omega

theorem nul_not_mem_printable {s : Str} (h : Printable s) : '\x00' ∉ s := by
  intro hm; have := h _ hm; simp at this

theorem nul_not_mem_sep : '\x00' ∉ sep := by decide

theorem printable_text {b i : Str} (hb : Printable b) (hi : Printable i) : Printable (text b i) := by
  unfold text; split
  · exact hb
  · exact printable_append.2 ⟨printable_append.2 ⟨hb, printable_sep⟩, hi⟩

theorem text_mono {s : Str} {b i : Str} : s = text b i → ∀ c ∈ b, c ∈ s := by
  rintro rfl c hc; unfold text; split
  · exact hc
  · simp [hc]

namespace Cmdline

theorem asCString_eq (c : Cmdline) :
    c.asCString = if c.bootArgs = [] ∧ c.initArgs ≠ [] then .err .noBootArgsInserted
      else if '\x00' ∈ text c.bootArgs c.initArgs then .err .nullTerminator
      else .ok (text c.bootArgs c.initArgs).utf8 := by
  unfold asCString
  by_cases hb : c.bootArgs = [] <;> by_cases hi : c.initArgs = []
  · simp [hb, hi, text, cstringNew_eq]
  · simp [hb, hi]
  · simp [hb, hi, text, cstringNew_eq]
  · simp [hb, hi, text, cstringNew_eq, sep_eq]

/-- All characters printable. -/
def AllPrintable (c : Cmdline) : Prop := Printable c.bootArgs ∧ Printable c.initArgs

theorem AllPrintable.step {c : Cmdline} (h : c.Inv) (hp : c.AllPrintable) (op : Op) :
    (c.step op).1.AllPrintable := by
  rcases step_cases h op with ⟨e, h'⟩ | ⟨t, -, ht, -, h'⟩ | ⟨t, -, ht, -, h'⟩ <;> rw [h']
  · exact hp
  · exact ⟨printable_extend hp.1 ht, hp.2⟩
  · exact ⟨hp.1, printable_extend hp.2 ht⟩

theorem AllPrintable.run {c : Cmdline} (h : c.Inv) (hp : c.AllPrintable) (ops : List Op) :
    (c.run ops).AllPrintable := by
  induction ops generalizing c with
  | nil => exact hp
  | cons op ops ih => exact ih (h.step op) (hp.step h op)

theorem AllPrintable.new {cap c} (h : Cmdline.new cap = .ok c) : c.AllPrintable := by
  obtain ⟨-, -, hb, hi⟩ := Inv.new h
  unfold AllPrintable; rw [hb, hi]; simp [Printable]

end Cmdline

/-! ## Joining -/

theorem extend_ne_nil {a s : Str} (h : a ≠ []) : extend a s ≠ [] := by simp [extend, h]

theorem foldl_extend_append (a : Str) (h : a ≠ []) (l : List Str) (hl : ∀ s ∈ l, s ≠ []) :
    l.foldl extend a = joinSp (a :: l) := by
  induction l generalizing a with
  | nil => rfl
  | cons s l ih =>
    rw [List.foldl_cons, ih _ (extend_ne_nil h) (fun x hx => hl x (by simp [hx]))]
    have hs : extend a s = a ++ ' ' :: s := by simp [extend, h]
    rw [hs]
    cases l with
    | nil => rfl
    | cons t l => simp [joinSp]

theorem foldl_extend_nil (l : List Str) (hl : ∀ s ∈ l, s ≠ []) : l.foldl extend [] = joinSp l := by
  cases l with
  | nil => rfl
  | cons s l =>
    rw [List.foldl_cons]
    have : extend [] s = s := by simp [extend]
    rw [this]
    exact foldl_extend_append s (hl s (by simp)) l (fun x hx => hl x (by simp [hx]))

theorem joinSp_eq_intercalate (l : List Str) : joinSp l = List.intercalate [' '] l := by
  induction l with
  | nil => rfl
  | cons a l ih =>
    cases l with
    | nil => simp [joinSp, List.intercalate]
    | cons b l => simp [joinSp, ih, List.intercalate, List.intersperse]

theorem joinSp_ne_nil {l : List Str} (h : l ≠ []) (hl : ∀ s ∈ l, s ≠ []) : joinSp l ≠ [] := by
  cases l with
  | nil => exact absurd rfl h
  | cons a l =>
    have := hl a (by simp)
    cases l with
    | nil => exact this
    | cons b l => simp [joinSp]

theorem BootText.unique {op t t'} (h : BootText op t) (h' : BootText op t') : t = t' := by
  cases h <;> cases h' <;> try rfl
  rename_i h1 h2
  rw [← trim_of_trimmed h1, ← trim_of_trimmed h2]

theorem InitText.unique {op t t'} (h : InitText op t) (h' : InitText op t') : t = t' := by
  cases h; cases h'
  rename_i h1 h2
  rw [← trim_of_trimmed h1, ← trim_of_trimmed h2]

theorem boot_init_disjoint {op t t'} (h : BootText op t) (h' : InitText op t') : False := by
  cases h <;> cases h'

theorem trace_exists {c : Cmdline} (h : c.Inv) (ops : List Cmdline.Op) :
    ∃ bs is, Trace c ops bs is (c.run ops) := by
  induction ops generalizing c with
  | nil => exact ⟨[], [], .nil⟩
  | cons op ops ih =>
    obtain ⟨bs, is, ht⟩ := ih (h.step op)
    rcases Cmdline.step_cases h op with ⟨e, h'⟩ | ⟨t, htt, -, -, h'⟩ | ⟨t, htt, -, -, h'⟩
    · exact ⟨bs, is, .rejected (by rw [h']; simp) ht⟩
    · exact ⟨t :: bs, is, .boot (by rw [h']) htt ht⟩
    · exact ⟨bs, t :: is, .init (by rw [h']) htt ht⟩

theorem trace_args {c c' : Cmdline} {ops bs is} (ht : Trace c ops bs is c') (h : c.Inv) :
    c'.bootArgs = bs.foldl extend c.bootArgs ∧ c'.initArgs = is.foldl extend c.initArgs ∧
      c' = c.run ops := by
  induction ht with
  | nil => exact ⟨rfl, rfl, rfl⟩
  | @rejected c op ops bs is c' hr _ ih =>
    have := ih (h.step op)
    rcases Cmdline.step_cases h op with ⟨e, h'⟩ | ⟨t, htt, -, -, h'⟩ | ⟨t, htt, -, -, h'⟩
    · rw [h'] at this
      refine ⟨this.1, this.2.1, ?_⟩
      rw [this.2.2]; show _ = (c.step op).1.run ops; rw [h']
    · exact absurd (by rw [h']) hr
    · exact absurd (by rw [h']) hr
  | @boot c op ops bs is c' t hr hb _ ih =>
    have := ih (h.step op)
    rcases Cmdline.step_cases h op with ⟨e, h'⟩ | ⟨t', htt, -, -, h'⟩ | ⟨t', htt, -, -, h'⟩
    · rw [h'] at hr; cases hr
    · have e := BootText.unique hb htt; subst e
      rw [h'] at this
      refine ⟨this.1, this.2.1, ?_⟩
      rw [this.2.2]; show _ = (c.step op).1.run ops; rw [h']
    · exact (boot_init_disjoint hb htt).elim
  | @init c op ops bs is c' t hr hb _ ih =>
    have := ih (h.step op)
    rcases Cmdline.step_cases h op with ⟨e, h'⟩ | ⟨t', htt, -, -, h'⟩ | ⟨t', htt, -, -, h'⟩
    · rw [h'] at hr; cases hr
    · exact (boot_init_disjoint htt hb).elim
    · have e := InitText.unique hb htt; subst e
      rw [h'] at this
      refine ⟨this.1, this.2.1, ?_⟩
      rw [this.2.2]; show _ = (c.step op).1.run ops; rw [h']

end LinuxLoader
