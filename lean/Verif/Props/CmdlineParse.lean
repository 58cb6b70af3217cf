import Verif.Lemmas.CmdlineParse
import Verif.Props.CmdlineBuild

/-! # Properties C08, C14–C16: parsing a command line -/

namespace LinuxLoader
open Spec Cmdline

/-- **C14.** A parsed command line is cut at the first separator outside double quotes. -/
theorem C14_split (s : Str) (cap : UInt64) (c : Cmdline) (h : tryFrom s cap = .ok c) :
    SplitsInto s c.bootArgs c.initArgs ∧ c.capacity = cap := by
  obtain ⟨-, h1, h2⟩ := Inv.tryFrom h
  have := splitRaw_spec s
  rw [← h2] at this
  exact ⟨this, h1⟩

/-- The split is unique and exists for every string: C14 determines the result. -/
theorem C14_split_unique (s : Str) :
    ∃ b i, SplitsInto s b i ∧ ∀ b' i', SplitsInto s b' i' → b' = b ∧ i' = i :=
  ⟨_, _, splitRaw_spec s, fun _ _ h => SplitsInto.unique h (splitRaw_spec s)⟩

example : tryFrom "a=\"x -- y\" b -- i -- j".toList 100
    = .ok ⟨"a=\"x -- y\" b".toList, "i -- j".toList, 100⟩ := by decide +kernel

/-- **C15.** `try_from` accepts exactly what fits. (Rust strings are shorter than `2^63` bytes.) -/
theorem C15_accepts_iff_fits (s : Str) (hs : s.utf8Len < ISZ) (cap : UInt64) (b i : Str)
    (h : SplitsInto s b i) :
    tryFrom s cap = if cap = 0 ∨ ¬ Fits b i cap then .err .invalidCapacity else .ok ⟨b, i, cap⟩ := by
  rw [tryFrom_eq, splitRaw_of h]
  have := SplitsInto.size h
  rw [if_neg (show ¬ (text b i).utf8Len + 1 ≥ U64 by unfold U64; unfold ISZ at hs; omega)]
  by_cases hz : cap = 0
  · simp [hz]
  · by_cases hf : Fits b i cap
    · simp [hz, hf]
    · simp [hz, hf]

example : SplitsInto "a -- b".toList "a".toList "b".toList := by
  have h : tryFrom "a -- b".toList 100 = .ok ⟨"a".toList, "b".toList, 100⟩ := by decide +kernel
  exact (C14_split _ _ _ h).1

/-- **C16.** Parsing the rendering of a parsed printable command line gives it back. -/
theorem C16_reparse (s : Str) (hp : Printable s) (cap : UInt64) (c : Cmdline)
    (h : tryFrom s cap = .ok c) (bs : List UInt8) (hr : c.asCString = .ok bs) :
    ∃ r : Str, r.utf8 = bs ∧ r = text c.bootArgs c.initArgs ∧ tryFrom r cap = .ok c := by
  obtain ⟨hs, hcap⟩ := C14_split s cap c h
  refine ⟨_, (asCString_ok hr).symm, rfl, ?_⟩
  have hre : c.bootArgs ≠ [] ∨ c.initArgs = [] := by
    rw [asCString_eq] at hr
    by_cases hb : c.bootArgs = []
    · by_cases hi : c.initArgs = []
      · exact .inr hi
      · rw [if_pos ⟨hb, hi⟩] at hr; cases hr
    · exact .inl hb
  have hidem := SplitsInto.idem hp hs hre
  have hinv := (Inv.tryFrom h).1
  have h0 : cap ≠ 0 := by
    intro h0; rw [tryFrom_eq, if_pos h0] at h; cases h
  rw [tryFrom_eq, splitRaw_of hidem, if_neg h0]
  unfold Cmdline.Inv at hinv
  rw [hcap] at hinv
  have hcl := UInt64.toNat_lt cap
  rw [if_neg (by unfold Fits at hinv; unfold U64; simp only; omega), if_neg (not_not_intro hinv)]
  rw [← hcap]

example : Printable "a  --  b c".toList ∧
    tryFrom "a  --  b c".toList 20 = .ok ⟨"a".toList, "b c".toList, 20⟩ := by decide +kernel

/-- Without the restriction to printable input C16 is false: a tab in front of the separator hides
a `--` that is uncovered when the tab is trimmed away. -/
theorem C16_refuted_for_tabs : ∃ s cap c, tryFrom s cap = .ok c ∧
    tryFrom (text c.bootArgs c.initArgs) cap ≠ .ok c :=
  ⟨"a --\t -- b".toList, 100, ⟨"a --".toList, "b".toList, 100⟩, by decide +kernel, by decide +kernel⟩

/-- **C08**, what is true: for printable input (and any builder calls afterwards) everything stays
printable. (`try_from` accepts other input too, see `C08_refuted` and `C08_nonprintable_kept`.) -/
theorem C08_printable (s : Str) (hp : Printable s) (cap : UInt64) (c : Cmdline)
    (h : tryFrom s cap = .ok c) (ops : List Op) :
    Printable (c.run ops).bootArgs ∧ Printable (c.run ops).initArgs ∧
      (c.run ops).asCString ≠ .err .nullTerminator := by
  have hs := (C14_split s cap c h).1
  have hsub := SplitsInto.subset hs
  have hall : c.AllPrintable := ⟨hp.mono hsub.1, hp.mono hsub.2⟩
  have hr := hall.run (Inv.tryFrom h).1 ops
  refine ⟨hr.1, hr.2, ?_⟩
  rw [asCString_eq]; split
  · simp
  · rw [if_neg (nul_not_mem_printable (printable_text hr.1 hr.2))]; simp

example : Printable "quiet -- x".toList ∧
    tryFrom "quiet -- x".toList 64 = .ok ⟨"quiet".toList, "x".toList, 64⟩ := by decide +kernel

/-- **C08**, converse: a printable result can only come from characters that are printable or white
space trimmed away; any other character of the input is kept, so it is the *only* way the property
fails. -/
theorem C08_nonprintable_kept (s : Str) (cap : UInt64) (c : Cmdline) (h : tryFrom s cap = .ok c)
    (x : Char) (hx : x ∈ s) (hb : ¬ Blank x) :
    x ∈ c.bootArgs ∨ x ∈ c.initArgs ∨ x ∈ sep := by
  rcases (C14_split s cap c h).1 with ⟨p, q, ⟨rfl, -⟩, hbt, hit⟩ | ⟨-, hbt, -⟩
  · obtain ⟨l, r, hp, hl, hr, -, -⟩ := hbt
    obtain ⟨l', r', hq, hl', hr', -, -⟩ := hit
    rw [hp, hq] at hx
    simp only [List.mem_append] at hx
    rcases hx with (((hx | hx) | hx) | hx) | ((hx | hx) | hx)
    · exact absurd (hl x hx) hb
    · exact .inl hx
    · exact absurd (hr x hx) hb
    · exact .inr (.inr hx)
    · exact absurd (hl' x hx) hb
    · exact .inr (.inl hx)
    · exact absurd (hr' x hx) hb
  · obtain ⟨l, r, hp, hl, hr, -, -⟩ := hbt
    rw [hp] at hx
    simp only [List.mem_append] at hx
    rcases hx with (hx | hx) | hx
    · exact absurd (hl x hx) hb
    · exact .inl hx
    · exact absurd (hr x hx) hb

example : tryFrom "é -- ü".toList 64 = .ok ⟨"é".toList, "ü".toList, 64⟩ ∧ ¬ Blank 'é' := by
  decide +kernel

theorem utf8_injective {s t : Str} (h : s.utf8 = t.utf8) : s = t := by
  rw [C09_bytes_are_utf8, C09_bytes_are_utf8] at h
  have h1 : (String.ofList s).toByteArray = (String.ofList t).toByteArray := by
    apply ByteArray.ext
    exact Array.toList_inj.1 h
  have h2 := String.toByteArray_inj.1 h1
  exact String.ofList_injective h2

/-- **C18** for parsed command lines: two lines parsed from printable strings that compare equal and
can be rendered have the same boot and init arguments, hence stay equal under the same accepted call. -/
theorem C18_parsed_congruence (s t : Str) (hs : Printable s) (ht : Printable t) (cap cap' : UInt64)
    (c d : Cmdline) (hc : tryFrom s cap = .ok c) (hd : tryFrom t cap' = .ok d)
    (he : Cmdline.eq c d = true) (bs : List UInt8) (hr : c.asCString = .ok bs) (op : Op)
    (h1 : (c.step op).2 = .ok ()) (h2 : (d.step op).2 = .ok ()) :
    c.bootArgs = d.bootArgs ∧ c.initArgs = d.initArgs ∧
    Cmdline.eq (c.step op).1 (d.step op).1 = true := by
  have hr' : d.asCString = .ok bs := by rw [← (C17_equality.2.2.2.1 c d).1 he, hr]
  obtain ⟨r, e1, -, e2⟩ := C16_reparse s hs cap c hc bs hr
  obtain ⟨r', e1', -, e2'⟩ := C16_reparse t ht cap' d hd bs hr'
  have hrr : r = r' := utf8_injective (e1.trans e1'.symm)
  subst hrr
  obtain ⟨b, i, -, hu⟩ := C14_split_unique r
  obtain ⟨u1, u2⟩ := hu _ _ (C14_split r cap c e2).1
  obtain ⟨u3, u4⟩ := hu _ _ (C14_split r cap' d e2').1
  have hb : c.bootArgs = d.bootArgs := u1.trans u3.symm
  have hi : c.initArgs = d.initArgs := u2.trans u4.symm
  exact ⟨hb, hi, (C18_congruence c d (.tryFrom hc) (.tryFrom hd) hb hi op h1 h2).1⟩

example : ∃ c d, tryFrom " a -- b".toList 50 = .ok c ∧ tryFrom "a --  b ".toList 60 = .ok d ∧
    Cmdline.eq c d = true ∧ (c.step (.insertStr ['x'])).2 = .ok () ∧
    (d.step (.insertStr ['x'])).2 = .ok () :=
  ⟨⟨"a".toList, "b".toList, 50⟩, ⟨"a".toList, "b".toList, 60⟩, by decide +kernel⟩

end LinuxLoader
