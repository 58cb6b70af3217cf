import Verif.Spec.KernelView
import Verif.Props.CmdlineKernel
import Verif.Props.CmdlineParse

/-!
# What the kernel sees of a parsed command line (C94)

Vocabulary: `Spec/KernelView.lean`.
-/

namespace LinuxLoader
open Spec Spec.Kernel
open Cmdline (Op tryFrom)

/-! ## The kernel's tokeniser on a line followed by white space -/

theorem skipSpaces_app (s R : Str) {x : Char} (hx : space x = true) : skipSpaces (s ++ x :: R) =
    if skipSpaces s = [] then skipSpaces R else skipSpaces s ++ x :: R := by
  induction s with
  | nil => simp [skipSpaces, hx]
  | cons c s ih =>
    unfold skipSpaces at *
    by_cases hc : space c = true
    · simp only [List.cons_append, List.dropWhile_cons, hc, ↓reduceIte]; exact ih
    · simp [hc]

theorem nextArg_app {A : Str} (h : A ≠ []) (hp : par false A = false) {x : Char} (hx : space x = true) (R : Str) :
    nextArg (A ++ x :: R) =
      ((nextArg A).1, if (nextArg A).2 = [] then skipSpaces R else (nextArg A).2 ++ x :: R) ∧
    par false (nextArg A).2 = false := by
  obtain ⟨h1, h2⟩ := body_append h (x :: R)
  obtain ⟨s1, s2⟩ := scan_append (quotedB A) (body A) (x :: R)
  rw [nextArg_eq (A ++ x :: R), h1, h2, nextArg_eq A]
  by_cases hr : (scan (quotedB A) (body A)).2 = []
  · obtain ⟨e1, e2⟩ := s1 hr
    rw [hr, e1, e2, par_body, hp]
    have : scan false (x :: R) = ([], x :: R) := by rw [scan]; simp [hx]
    simp [this, skipSpaces, par_nil]
  · obtain ⟨e1, e2⟩ := s2 hr
    rw [par_body, hp] at e2
    have ht : ((scan (quotedB A) (body A)).2 ++ x :: R).tail =
        (scan (quotedB A) (body A)).2.tail ++ x :: R := by
      cases hh : (scan (quotedB A) (body A)).2 with
      | nil => exact absurd hh hr
      | cons c s => rfl
    rw [e1]
    simp only [ht, skipSpaces_app _ _ hx]
    exact ⟨trivial, by rw [par_skipSpaces, e2]⟩

/-- `parse_args` on a longer line: how it goes on depends on whether it met `--`. -/
theorem parseLoop_app {x : Char} (hx : space x = true) (R : Str) (n : Nat) (A : Str) (hn : A.length ≤ n) (hA : A ≠ [])
    (hp : par false A = false) :
    ((parseLoop A).2 = none → parseLoop (A ++ x :: R) =
      ((parseLoop A).1 ++ (parseLoop (skipSpaces R)).1, (parseLoop (skipSpaces R)).2)) ∧
    (∀ t, (parseLoop A).2 = some t → par false t = false ∧ parseLoop (A ++ x :: R) =
      ((parseLoop A).1, some (if t = [] then skipSpaces R else t ++ x :: R))) := by
  induction n generalizing A with
  | zero => exact absurd (List.eq_nil_of_length_eq_zero (by omega)) hA
  | succ n ih =>
    have hA' : A ++ x :: R ≠ [] := by simp
    obtain ⟨e1, e2⟩ := nextArg_app hA hp hx R
    have hlen := nextArg_length A hA
    rw [parseLoop_step hA', parseLoop_step hA, e1]
    simp only
    by_cases hdd : (nextArg A).1 = (['-', '-'], none)
    · rw [if_pos hdd]
      refine ⟨(fun h => nomatch h), fun t ht => ?_⟩
      cases ht
      exact ⟨e2, by rw [if_pos hdd]⟩
    · rw [if_neg hdd]
      simp only [if_neg hdd]
      by_cases hs : (nextArg A).2 = []
      · rw [if_pos hs, hs, parseLoop_nil]
        exact ⟨fun _ => rfl, (fun t ht => nomatch ht)⟩
      · rw [if_neg hs]
        obtain ⟨i1, i2⟩ := ih _ (by omega) hs e2
        refine ⟨fun h => ?_, fun t ht => ?_⟩
        · rw [i1 h]; rfl
        · obtain ⟨j1, j2⟩ := i2 t ht
          exact ⟨j1, by rw [j2]⟩

theorem parseArgs_app {x : Char} (hx : space x = true) (A R : Str) (hp : par false A = false) :
    ((parseArgs A).2 = none → parseArgs (A ++ x :: R) = ((parseArgs A).1 ++ (parseArgs R).1, (parseArgs R).2)) ∧
    (∀ t, (parseArgs A).2 = some t → par false t = false ∧ parseArgs (A ++ x :: R) =
      ((parseArgs A).1, some (if t = [] then skipSpaces R else t ++ x :: R))) := by
  unfold parseArgs
  rw [skipSpaces_app _ _ hx]
  by_cases h : skipSpaces A = []
  · rw [if_pos h, h, parseLoop_nil]
    exact ⟨fun _ => rfl, (fun t ht => nomatch ht)⟩
  · rw [if_neg h]
    exact parseLoop_app hx R _ _ (Nat.le_refl _) h (by rw [par_skipSpaces]; exact hp)

theorem skipSpaces_all {r : Str} (h : ∀ c ∈ r, space c = true) : skipSpaces r = [] := by
  unfold skipSpaces
  induction r with
  | nil => rfl
  | cons c r ih => rw [List.dropWhile_cons, if_pos (h c (List.mem_cons_self ..))]; exact ih fun d hd => h d (List.mem_cons_of_mem _ hd)

theorem parseArgs_spaces {r : Str} (h : ∀ c ∈ r, space c = true) : parseArgs r = ([], none) := by
  unfold parseArgs; rw [skipSpaces_all h, parseLoop_nil]

theorem skipSpaces_idem (s : Str) : skipSpaces (skipSpaces s) = skipSpaces s := by
  induction s with
  | nil => rfl
  | cons c s ih =>
    by_cases hc : space c = true
    · unfold skipSpaces at *; simpa [hc] using ih
    · have hc : space c = false := by simpa using hc
      rw [skipSpaces_head hc, skipSpaces_head hc]

theorem parseArgs_skip (s : Str) : parseArgs (skipSpaces s) = parseArgs s := by
  unfold parseArgs; rw [skipSpaces_idem]

theorem parseArgs_lead {l : Str} (h : ∀ c ∈ l, space c = true) (A : Str) : parseArgs (l ++ A) = parseArgs A := by
  unfold parseArgs
  congr 1
  unfold skipSpaces
  rw [List.dropWhile_append_of_pos h]

/-- What the kernel does with white space behind a line. -/
theorem parseArgs_trail {r : Str} (h : ∀ c ∈ r, space c = true) (A : Str) (hp : par false A = false) :
    (parseArgs (A ++ r)).1 = (parseArgs A).1 ∧
    ((parseArgs A).2 = none → (parseArgs (A ++ r)).2 = none) ∧
    (∀ t, (parseArgs A).2 = some t → par false t = false ∧ ∃ t', (parseArgs (A ++ r)).2 = some t' ∧ (t' = t ∨ t' = t ++ r)) := by
  cases r with
  | nil =>
    rw [List.append_nil]
    refine ⟨rfl, id, fun t ht => ⟨?_, t, ht, .inl rfl⟩⟩
    exact ((parseArgs_app (x := ' ') (by decide) A [] hp).2 t ht).1
  | cons x R =>
    have hR : ∀ c ∈ R, space c = true := fun c hc => h c (List.mem_cons_of_mem _ hc)
    obtain ⟨h1, h2⟩ := parseArgs_app (h x (List.mem_cons_self ..)) A R hp
    cases hO : (parseArgs A).2 with
    | none => rw [h1 hO, parseArgs_spaces hR]; simp
    | some t =>
      obtain ⟨j1, j2⟩ := h2 t hO
      rw [j2]
      refine ⟨rfl, (fun h => nomatch h), fun t' ht' => ?_⟩
      cases ht'
      refine ⟨j1, _, rfl, ?_⟩
      split
      · rename_i h0; rw [skipSpaces_all hR, h0]; exact .inl rfl
      · exact .inr rfl

theorem par_spaces {r : Str} (h : ∀ c ∈ r, space c = true) (q : Bool) : par q r = q := by
  induction r with
  | nil => rfl
  | cons c r ih =>
    rw [par_cons, if_neg (space_ne_quote (h c (List.mem_cons_self ..)))]
    exact ih fun d hd => h d (List.mem_cons_of_mem _ hd)

theorem kernelView_trail {r : Str} (h : ∀ c ∈ r, space c = true) (A : Str) (hp : par false A = false) :
    kernelView (A ++ r) = kernelView A := by
  obtain ⟨h1, h2, h3⟩ := parseArgs_trail h A hp
  unfold kernelView
  rw [h1]
  cases hO : (parseArgs A).2 with
  | none => rw [h2 hO]
  | some t =>
    obtain ⟨j1, t', j2, j3⟩ := h3 t hO
    rw [j2]
    rcases j3 with rfl | rfl
    · rfl
    · simp only [(parseArgs_trail h t j1).1]

theorem kernelView_lead {l : Str} (h : ∀ c ∈ l, space c = true) (A : Str) : kernelView (l ++ A) = kernelView A := by
  unfold kernelView; rw [parseArgs_lead h]

/-- Nothing behind `--` is a parameter. -/
theorem parseArgs_dashes (X : Str) : parseArgs ('-' :: '-' :: ' ' :: X) = ([], some (skipSpaces X)) := by
  have hs : scan false ('-' :: '-' :: ' ' :: X) = (['-', '-'], ' ' :: X) := by
    have := scan_plain (s := ['-', '-']) (r := ' ' :: X) false (by decide) (by decide)
    rw [scan_ends (.inr ⟨X, rfl⟩)] at this
    simpa using this
  have hn : nextArg ('-' :: '-' :: ' ' :: X) = ((['-', '-'], none), skipSpaces X) := by
    rw [nextArg_of_scan (by simp) hs]
    simp
    decide
  unfold parseArgs
  rw [skipSpaces_head (by decide), parseLoop_step (by simp), hn]
  simp

/-- What the kernel sees of two parts with the separator between them. -/
theorem kernelView_sep (A X : Str) (hp : par false A = false) :
    kernelView (A ++ sep ++ X) =
      if (parseArgs A).2 = none then ((parseArgs A).1, (parseArgs X).1) else kernelView A := by
  have e : A ++ sep ++ X = A ++ ' ' :: ('-' :: '-' :: ' ' :: X) := by simp [sep_def]
  have sub : ∀ t, par false t = false → (parseArgs (t ++ ' ' :: ('-' :: '-' :: ' ' :: X))).1 = (parseArgs t).1 := by
    intro t ht
    obtain ⟨h1, h2⟩ := parseArgs_app (x := ' ') (by decide) t ('-' :: '-' :: ' ' :: X) ht
    cases hO : (parseArgs t).2 with
    | none => rw [h1 hO, parseArgs_dashes]; simp
    | some u => rw [(h2 u hO).2]
  rw [e]
  obtain ⟨h1, h2⟩ := parseArgs_app (x := ' ') (by decide) A ('-' :: '-' :: ' ' :: X) hp
  cases hO : (parseArgs A).2 with
  | none =>
    unfold kernelView
    rw [h1 hO, parseArgs_dashes]
    simp [parseArgs_skip]
  | some t =>
    obtain ⟨j1, j2⟩ := h2 t hO
    unfold kernelView
    rw [j2, hO]
    simp only [reduceCtorEq, ↓reduceIte]
    split
    · rename_i h0
      subst h0
      rw [parseArgs_skip, parseArgs_dashes, parseArgs_nil]
    · rw [sub t j1]

/-! ## Parsed command lines -/

theorem space_of_blank {c : Char} (ha : c.toNat < 0x80) (h : Blank c) : space c = true := by
  simp only [Blank, whiteSpace, List.mem_cons, List.not_mem_nil, or_false] at h
  simp only [space, List.mem_cons, List.not_mem_nil, or_false, decide_eq_true_eq]
  omega

/-- What white space at the ends does. -/
theorem trimmed_view {s t : Str} (ha : Ascii s) (h : Trimmed s t) (hp : par false s = false) :
    par false t = false ∧ kernelView s = kernelView t ∧ (parseArgs s).1 = (parseArgs t).1 ∧
      ((parseArgs s).2 = none ↔ (parseArgs t).2 = none) := by
  obtain ⟨l, r, rfl, hl, hr, -, -⟩ := h
  have hl : ∀ c ∈ l, space c = true := fun c hc => space_of_blank (ha c (by simp [hc])) (hl c hc)
  have hr : ∀ c ∈ r, space c = true := fun c hc => space_of_blank (ha c (by simp [hc])) (hr c hc)
  rw [par_append, par_append, par_spaces hl, par_spaces hr] at hp
  obtain ⟨h1, h2, h3⟩ := parseArgs_trail hr t hp
  rw [List.append_assoc, parseArgs_lead hl, kernelView_lead hl]
  refine ⟨hp, kernelView_trail hr t hp, h1, fun h => ?_, h2⟩
  cases hO : (parseArgs t).2 with
  | none => rfl
  | some u => obtain ⟨-, t', j, -⟩ := h3 u hO; rw [j] at h; cases h

/-- What the kernel sees of boot and init arguments, if it stops at the separator. -/
theorem kernelView_text (b i : Str) (hp : par false b = false) (hO : (parseArgs b).2 = none) :
    kernelView (text b i) = ((parseArgs b).1, (parseArgs i).1) := by
  unfold text
  split
  · rename_i hi
    subst hi
    unfold kernelView
    rw [hO, parseArgs_nil]
  · rw [kernelView_sep _ _ hp, if_pos hO]

theorem text_view (s : Str) (ha : Ascii s) (hb : Balanced s) (cap : UInt64) (c : Cmdline) (h : tryFrom s cap = .ok c) :
    kernelView (text c.bootArgs c.initArgs) = kernelView s ∧ par false c.bootArgs = false ∧ par false c.initArgs = false := by
  have hp : par false s = false := (par_false_iff s).2 hb
  rcases (C14_split s cap c h).1 with ⟨pre, post, ⟨hs, hpre, -⟩, tb, ti⟩ | ⟨-, tb, ti⟩
  · have hpp : par false pre = false := (par_false_iff pre).2 hpre
    have hpo : par false post = false := by
      rw [hs, par_append, par_append, hpp] at hp
      exact hp
    have a1 : Ascii pre := fun c hc => ha c (by rw [hs]; simp [hc])
    have a2 : Ascii post := fun c hc => ha c (by rw [hs]; simp [hc])
    obtain ⟨b1, b2, b3, b4⟩ := trimmed_view a1 tb hpp
    obtain ⟨i1, -, i3, -⟩ := trimmed_view a2 ti hpo
    refine ⟨?_, b1, i1⟩
    rw [hs, kernelView_sep _ _ hpp]
    unfold text
    by_cases hi : c.initArgs = []
    · rw [if_pos hi, ← b2]
      split
      · rename_i hO
        rw [i3, hi, parseArgs_nil]
        unfold kernelView
        rw [hO]
      · rfl
    · rw [if_neg hi, kernelView_sep _ _ b1]
      simp only [b3, b4, i3, b2]
  · obtain ⟨b1, b2, -⟩ := trimmed_view ha tb hp
    rw [ti]
    exact ⟨b2.symm, b1, rfl⟩

/-- **C94.** Let an ASCII line with balanced quotes be parsed by `try_from` and rendered again: from both the kernel
gets the same parameters, and init the same arguments. -/
theorem C94_same_view (s : Str) (ha : Ascii s) (hb : Balanced s) (cap : UInt64) (c : Cmdline)
    (h : tryFrom s cap = .ok c) (bs : List UInt8) (hr : c.asCString = .ok bs) :
    ∃ r : Str, r.utf8 = bs ∧ kernelView r = kernelView s := by
  refine ⟨text c.bootArgs c.initArgs, ?_, ?_⟩
  · rw [C09_as_cstring] at hr
    split at hr
    · cases hr
    split at hr
    · cases hr
    · exact Res.ok.inj hr
  · exact (text_view s ha hb cap c h).1

/-- White space of all kinds, a quoted separator, several separators. -/
example : ∃ c bs, tryFrom "\t a=\"x -- y\"  b --  \n init -- c ".toList 100 = .ok c ∧ c.asCString = .ok bs ∧
    Ascii "\t a=\"x -- y\"  b --  \n init -- c ".toList ∧ Balanced "\t a=\"x -- y\"  b --  \n init -- c ".toList ∧
    c.asCString = .ok (Str.utf8 "a=\"x -- y\"  b -- init -- c".toList) ∧
    kernelView "\t a=\"x -- y\"  b --  \n init -- c ".toList =
      ([("a".toList, some "x -- y".toList), ("b".toList, none)], [("init".toList, none)]) :=
  ⟨⟨"a=\"x -- y\"  b".toList, "init -- c".toList, 100⟩, _, by decide +kernel, rfl, by decide +kernel, by decide +kernel,
    by decide +kernel, by decide +kernel⟩

/-- **C94 (insertions).** Parse such a line and make any builder calls. If the kernel does not stop within the boot
arguments, and the texts of the accepted arguments have balanced quotes and no `--` of their own, then
the kernel and init get what they get from the line parsed, followed by what they get from each of these texts, in
order. -/
theorem C94_insertions (s : Str) (ha : Ascii s) (hb : Balanced s) (cap : UInt64) (c c' : Cmdline)
    (h : tryFrom s cap = .ok c) (ops : List Op) (boots inits : List Str) (ht : Trace c ops boots inits c')
    (hO : (parseArgs c.bootArgs).2 = none) (hI : (parseArgs c.initArgs).2 = none)
    (hq : ∀ t ∈ boots ++ inits, Balanced t ∧ (parseArgs t).2 = none) :
    kernelView (text c'.bootArgs c'.initArgs) =
      ((kernelView s).1 ++ boots.flatMap (fun t => (parseArgs t).1),
       (kernelView s).2 ++ inits.flatMap (fun t => (parseArgs t).1)) := by
  obtain ⟨h1, h2, h3⟩ := text_view s ha hb cap c h
  rw [← h1, kernelView_text _ _ h2 hO]
  obtain ⟨e1, e2, -⟩ := C06_fold c c' (.tryFrom h) ops boots inits ht
  obtain ⟨f1, f2⟩ := parseArgs_foldl boots (fun t h => (hq t (by simp [h])).1) (fun t h => (hq t (by simp [h])).2)
    c.bootArgs ((par_false_iff _).1 h2) hO
  obtain ⟨g1, g2⟩ := parseArgs_foldl inits (fun t h => (hq t (by simp [h])).1) (fun t h => (hq t (by simp [h])).2)
    c.initArgs ((par_false_iff _).1 h3) hI
  rw [e1, e2, kernelView_text _ _ ((par_false_iff _).2 f1) (by rw [f2]), f2, g2]

/-- `try_from("a=1 -- i")`, then `insert("b", "2")`. -/
example : ∃ c', tryFrom "a=1 -- i".toList 100 = .ok ⟨"a=1".toList, "i".toList, 100⟩ ∧
    Trace ⟨"a=1".toList, "i".toList, 100⟩ [.insert "b".toList "2".toList] ["b=2".toList] [] c' ∧
    (parseArgs "a=1".toList).2 = none ∧ (parseArgs "i".toList).2 = none ∧
    (∀ t ∈ ["b=2".toList] ++ [], Balanced t ∧ (parseArgs t).2 = none) :=
  ⟨_, by decide +kernel, .boot (by decide +kernel) .insert .nil, by decide +kernel, by decide +kernel, by
    intro t ht
    simp only [List.append_nil, List.mem_singleton] at ht
    subst ht
    exact ⟨by decide +kernel, by decide +kernel⟩⟩

/-- **C94 (refuted without balanced quotes).** White space behind an unmatched quote is part of a value for the
kernel, and `try_from` removes it. -/
theorem C94_unbalanced_refuted : ∃ s c, tryFrom s 100 = .ok c ∧ Ascii s ∧ c.asCString = .ok (Str.utf8 "a=\"b".toList) ∧
    kernelView s = ([("a".toList, some "b ".toList)], []) ∧
    kernelView "a=\"b".toList = ([("a".toList, some "b".toList)], []) :=
  ⟨"a=\"b ".toList, ⟨"a=\"b".toList, [], 100⟩, by decide +kernel, by decide +kernel, by decide +kernel, by decide +kernel,
    by decide +kernel⟩

/-- **C94 (refuted beyond ASCII).** `try_from` removes white space of Unicode, which the kernel keeps. -/
theorem C94_unicode_refuted : ∃ s c, tryFrom s 100 = .ok c ∧ Balanced s ∧ c.asCString = .ok (Str.utf8 "a".toList) ∧
    kernelView s = ([("a\u3000".toList, none)], []) ∧ kernelView "a".toList = ([("a".toList, none)], []) :=
  ⟨"a\u3000".toList, ⟨"a".toList, [], 100⟩, by decide +kernel, by decide +kernel, by decide +kernel, by decide +kernel,
    by decide +kernel⟩

/-- **C94 (refuted: a lone `--` of the kernel that the parser does not see).** Between tabs `--` ends the boot arguments
for the kernel but not for `try_from`: a parameter inserted later goes to init. -/
theorem C94_insertions_refuted : ∃ c c', tryFrom "a\t--\ti".toList 100 = .ok c ∧ c.insert "b".toList "2".toList = (c', .ok ()) ∧
    kernelView (text c'.bootArgs c'.initArgs) =
      ([("a".toList, none)], [("i".toList, none), ("b".toList, some "2".toList)]) :=
  ⟨⟨"a\t--\ti".toList, [], 100⟩, ⟨"a\t--\ti b=2".toList, [], 100⟩, by decide +kernel, by decide +kernel, by decide +kernel⟩

end LinuxLoader
