import Verif.Lemmas.CmdlineRender

/-! # Lemmas about `Cmdline::try_from` -/

namespace LinuxLoader
open Spec

theorem isPrefixOf_sep {s : Str} : initArgsSeparator.isPrefixOf s = true ↔ ∃ t, s = sep ++ t := by
  rw [List.isPrefixOf_iff_prefix, sep_eq]
  constructor
  · rintro ⟨t, h⟩; exact ⟨t, h.symm⟩
  · rintro ⟨t, h⟩; exact ⟨t, h.symm⟩

theorem even_iff (s : Str) :
    Cmdline.checkOutsideDoubleQuotes s = true ↔ s.count '"' % 2 = 0 := by
  simp [Cmdline.checkOutsideDoubleQuotes]

/-- What the separator search guarantees when started in the middle of the string. -/
def SearchSpec (pre rest : Str) : Option (Str × Str) → Prop
  | some (b, i) => pre ++ rest = b ++ sep ++ i ∧ b.count '"' % 2 = 0 ∧
      ∀ pre' post', pre ++ rest = pre' ++ sep ++ post' → pre.length ≤ pre'.length →
        pre'.count '"' % 2 = 0 → b.length ≤ pre'.length
  | none => ∀ pre' post', pre ++ rest = pre' ++ sep ++ post' → pre.length ≤ pre'.length →
      pre'.count '"' % 2 ≠ 0

theorem searchSpec_shift {pre d rest : Str} {o}
    (h : SearchSpec (pre ++ d) rest o)
    (hodd : ∀ pre' post', pre ++ (d ++ rest) = pre' ++ sep ++ post' → pre.length ≤ pre'.length →
      pre'.length < pre.length + d.length → pre'.count '"' % 2 ≠ 0) :
    SearchSpec pre (d ++ rest) o := by
  cases o with
  | none =>
    intro pre' post' heq hl
    by_cases hlt : pre'.length < pre.length + d.length
    · exact hodd pre' post' heq hl hlt
    · exact h pre' post' (by rw [List.append_assoc]; exact heq) (by simp; omega)
  | some p =>
    obtain ⟨b, i⟩ := p
    obtain ⟨h1, h2, h3⟩ := h
    refine ⟨by rw [← List.append_assoc]; exact h1, h2, ?_⟩
    intro pre' post' heq hl hev
    by_cases hlt : pre'.length < pre.length + d.length
    · exact absurd hev (hodd pre' post' heq hl hlt)
    · exact h3 pre' post' (by rw [List.append_assoc]; exact heq) (by simp; omega) hev

theorem prefix_of_len {a b c d : Str} (h : a ++ b = c ++ d) (hl : a.length ≤ c.length) :
    ∃ x, c = a ++ x ∧ b = x ++ d := by
  rcases List.append_eq_append_iff.1 h with ⟨x, h1, h2⟩ | ⟨x, h1, h2⟩
  · exact ⟨x, h1, h2⟩
  · have : x = [] := by
      have := congrArg List.length h1
      simp at this
      exact List.length_eq_zero_iff.1 (by omega)
    subst this
    exact ⟨[], by simpa using h1.symm, by simpa using h2.symm⟩

theorem findSeparator_spec (pre rest : Str) :
    SearchSpec pre rest (Cmdline.findSeparator pre rest) := by
  fun_induction Cmdline.findSeparator pre rest with
  | case1 pre =>
    intro pre' post' heq hl
    have := congrArg List.length heq
    simp [sep_def] at this
    omega
  | case2 pre c rest' hpre hev =>
    obtain ⟨t, ht⟩ := isPrefixOf_sep.1 hpre
    refine ⟨?_, (even_iff pre).1 hev, fun _ _ _ hl _ => hl⟩
    rw [ht]; simp [sep_def]
  | case3 pre c rest' hpre hev ih =>
    obtain ⟨t, ht⟩ := isPrefixOf_sep.1 hpre
    have h4 : List.take 4 (c :: rest') = sep := by rw [ht]; simp [sep_def]
    have h5 : List.drop 4 (c :: rest') = t := by rw [ht]; simp [sep_def]
    rw [h4, h5] at ih ⊢
    rw [ht]
    refine searchSpec_shift ih ?_
    intro pre' post' heq hl hlt hev'
    apply hev
    rw [even_iff]
    rw [List.append_assoc pre'] at heq
    obtain ⟨x, h1, h2⟩ := prefix_of_len heq hl
    have hx : '"' ∉ x := by
      intro hm
      have hxl : x.length < 4 := by
        have := congrArg List.length h1; simp [sep_def] at this hlt; omega
      have : x = (sep ++ t).take x.length := by rw [h2]; simp
      rw [this, List.take_append] at hm
      rw [List.mem_append] at hm
      rcases hm with hm | hm
      · have := List.mem_of_mem_take hm
        revert this; decide
      · rw [show x.length - sep.length = 0 by simp [sep_def]; omega] at hm
        simp at hm
    rw [h1, List.count_append, List.count_eq_zero.2 hx] at hev'
    simpa using hev'
  | case4 pre c rest' hpre ih =>
    show SearchSpec pre ([c] ++ rest') _
    refine searchSpec_shift ih ?_
    intro pre' post' heq hl hlt hev'
    apply hpre
    rw [isPrefixOf_sep]
    rw [List.append_assoc pre'] at heq
    obtain ⟨x, h1, h2⟩ := prefix_of_len heq hl
    have hx : x = [] := by
      have := congrArg List.length h1; simp at this hlt
      exact List.length_eq_zero_iff.1 (by omega)
    subst hx
    exact ⟨post', by simpa using h2⟩

theorem splitRaw_spec (s : Str) : SplitsInto s (Cmdline.splitRaw s).1 (Cmdline.splitRaw s).2 := by
  have h := findSeparator_spec [] s
  unfold Cmdline.splitRaw
  cases hf : Cmdline.findSeparator [] s with
  | none =>
    rw [hf] at h
    right
    refine ⟨fun pre post heq => h pre post (by simpa using heq) (by simp), trimmed_trim s, ?_⟩
    show trim [] = []
    decide
  | some p =>
    obtain ⟨b, i⟩ := p
    rw [hf] at h
    obtain ⟨h1, h2, h3⟩ := h
    left
    refine ⟨b, i, ⟨by simpa using h1, h2, ?_⟩, trimmed_trim b, trimmed_trim i⟩
    intro pre' post' heq hev
    exact h3 pre' post' (by simpa using heq) (by simp) hev

theorem Spec.CutAtFirstSep.unique {s p q p' q' : Str} (h : CutAtFirstSep s p q)
    (h' : CutAtFirstSep s p' q') : p = p' ∧ q = q' := by
  obtain ⟨h1, h2, h3⟩ := h
  obtain ⟨h1', h2', h3'⟩ := h'
  have hl : p.length = p'.length :=
    Nat.le_antisymm (h3 _ _ h1' h2') (h3' _ _ h1 h2)
  rw [h1, List.append_assoc, List.append_assoc] at h1'
  obtain ⟨e1, e2⟩ := List.append_inj h1' hl
  exact ⟨e1, List.append_cancel_left e2⟩

theorem Spec.SplitsInto.unique {s b i b' i' : Str} (h : SplitsInto s b i) (h' : SplitsInto s b' i') :
    b = b' ∧ i = i' := by
  rcases h with ⟨p, q, hc, hb, hi⟩ | ⟨hn, hb, rfl⟩ <;>
    rcases h' with ⟨p', q', hc', hb', hi'⟩ | ⟨hn', hb', rfl⟩
  · obtain ⟨rfl, rfl⟩ := CutAtFirstSep.unique hc hc'
    rw [← trim_of_trimmed hb, ← trim_of_trimmed hb', ← trim_of_trimmed hi, ← trim_of_trimmed hi']
    exact ⟨rfl, rfl⟩
  · exact absurd hc.2.1 (hn' _ _ hc.1)
  · exact absurd hc'.2.1 (hn _ _ hc'.1)
  · rw [← trim_of_trimmed hb, ← trim_of_trimmed hb']
    exact ⟨rfl, rfl⟩

theorem splitRaw_of {s b i : Str} (h : SplitsInto s b i) : Cmdline.splitRaw s = (b, i) := by
  obtain ⟨h1, h2⟩ := SplitsInto.unique (splitRaw_spec s) h
  exact Prod.ext h1 h2

theorem Spec.SplitsInto.size {s b i : Str} (h : SplitsInto s b i) :
    (text b i).utf8Len ≤ s.utf8Len := by
  rcases h with ⟨p, q, ⟨rfl, -⟩, hb, hi⟩ | ⟨-, hb, rfl⟩
  · have h1 := utf8Len_trim_le p
    have h2 := utf8Len_trim_le q
    rw [trim_of_trimmed hb] at h1
    rw [trim_of_trimmed hi] at h2
    rw [utf8Len_text]
    simp only [utf8Len_append, utf8Len_sep]
    split <;> omega
  · have h1 := utf8Len_trim_le s
    rw [trim_of_trimmed hb] at h1
    simpa [utf8Len_text] using h1

theorem Spec.Trimmed.subset {s t : Str} (h : Trimmed s t) : ∀ c ∈ t, c ∈ s := by
  obtain ⟨l, r, rfl, -⟩ := h
  intro c hc; simp [hc]

theorem Spec.Trimmed.self {s t : Str} (h : Trimmed s t) : Trimmed t t := by
  obtain ⟨l, r, -, -, -, hh, hg⟩ := h
  exact ⟨[], [], by simp, by simp, by simp, hh, hg⟩

theorem Spec.SplitsInto.subset {s b i : Str} (h : SplitsInto s b i) :
    (∀ c ∈ b, c ∈ s) ∧ ∀ c ∈ i, c ∈ s := by
  rcases h with ⟨p, q, ⟨rfl, -⟩, hb, hi⟩ | ⟨-, hb, rfl⟩
  · exact ⟨fun c hc => by simp [hb.subset c hc], fun c hc => by simp [hi.subset c hc]⟩
  · exact ⟨hb.subset, by simp⟩

theorem all_space {l s : Str} (hp : Printable s) (hs : ∀ c ∈ l, c ∈ s) (hb : ∀ c ∈ l, Blank c) :
    ∀ c ∈ l, c = ' ' := fun c hc => blank_of_printable (hp c (hs c hc)) (hb c hc)

theorem count_blank {l : Str} (hb : ∀ c ∈ l, Blank c) : l.count '"' = 0 := by
  rw [List.count_eq_zero]
  intro hm
  have := hb _ hm
  revert this; decide

/-- Re-reading the text of a split printable string gives the same split. -/
theorem Spec.SplitsInto.idem {s b i : Str} (hp : Printable s) (h : SplitsInto s b i)
    (hr : b ≠ [] ∨ i = []) : SplitsInto (text b i) b i := by
  rcases h with ⟨p, q, ⟨hs, hev, hmin⟩, hb, hi⟩ | ⟨hn, hb, rfl⟩
  · have hb' := hb
    obtain ⟨l, r, hlr, hl, hr', hh, hg⟩ := hb'
    have hcl := count_blank hl
    have hcr := count_blank hr'
    have hrsp : ∀ c ∈ r, c = ' ' :=
      all_space hp (fun c hc => by rw [hs, hlr]; simp [hc]) hr'
    -- a separator of `b` followed by a space would be an earlier separator of `s`
    have noEarlier : ∀ x y, b = x ++ [' ', '-', '-'] ++ y → (y = [] ∨ ∃ z, y = ' ' :: z) →
        x.count '"' % 2 = 0 → False := by
      intro x y hbx hy hx
      have key : ∃ post', s = (l ++ x) ++ sep ++ post' := by
        rcases hy with rfl | ⟨z, rfl⟩
        · cases r with
          | nil => exact ⟨'-' :: '-' :: ' ' :: q, by rw [hs, hlr, hbx]; simp [sep_def]⟩
          | cons c r =>
            have hc := hrsp c (by simp)
            subst hc
            exact ⟨r ++ sep ++ q, by rw [hs, hlr, hbx]; simp [sep_def]⟩
        · exact ⟨z ++ r ++ sep ++ q, by rw [hs, hlr, hbx]; simp [sep_def]⟩
      obtain ⟨post', hpost⟩ := key
      have := hmin _ _ hpost (by rw [List.count_append, hcl]; simpa using hx)
      rw [hlr, hbx] at this
      simp at this
      omega
    by_cases hie : i = []
    · subst hie
      right
      refine ⟨?_, by simpa [text] using hb.self, rfl⟩
      intro pre post heq hpe
      simp only [text, ↓reduceIte] at heq
      exact noEarlier pre (' ' :: post) (by rw [heq]; simp [sep_def]) (.inr ⟨_, rfl⟩) hpe
    · left
      have htx : text b i = b ++ sep ++ i := by simp [text, hie]
      refine ⟨b, i, ⟨htx, ?_, ?_⟩, hb.self, hi.self⟩
      · rw [hlr, List.count_append, List.count_append, hcl, hcr] at hev
        simpa using hev
      · intro pre' post' heq hpe
        rw [htx, List.append_assoc, List.append_assoc] at heq
        apply Decidable.byContradiction
        intro hlt
        obtain ⟨x, h1, h2⟩ := prefix_of_len heq.symm (by omega)
        rw [sep_def] at h2
        cases x with
        | nil => simp at h1; subst h1; exact hlt (Nat.le_refl _)
        | cons c1 x =>
          simp only [List.cons_append, List.nil_append, List.cons.injEq] at h2
          obtain ⟨rfl, h2⟩ := h2
          cases x with
          | nil => simp at h2
          | cons c2 x =>
            simp only [List.cons_append, List.cons.injEq] at h2
            obtain ⟨rfl, h2⟩ := h2
            cases x with
            | nil => simp at h2
            | cons c3 x =>
              simp only [List.cons_append, List.cons.injEq] at h2
              obtain ⟨rfl, h2⟩ := h2
              cases x with
              | nil => exact noEarlier pre' [] (by rw [h1]; simp) (.inl rfl) hpe
              | cons c4 x =>
                simp only [List.cons_append, List.cons.injEq] at h2
                obtain ⟨rfl, h2⟩ := h2
                exact noEarlier pre' (' ' :: x) (by rw [h1]; simp) (.inr ⟨_, rfl⟩) hpe
  · right
    obtain ⟨l, r, hlr, hl, hr', hh, hg⟩ := id hb
    refine ⟨?_, by simpa [text] using hb.self, rfl⟩
    intro pre post heq hpe
    simp only [text, ↓reduceIte] at heq
    refine hn (l ++ pre) (post ++ r) (by rw [hlr, heq]; simp) ?_
    rw [List.count_append, count_blank hl]; simpa using hpe

end LinuxLoader
