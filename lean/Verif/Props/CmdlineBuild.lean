import Verif.Lemmas.CmdlineRender

/-!
# Properties C01–C11, C17, C18, C59, C60: building a command line

Read together with `Spec/Cmdline.lean`. `Cmdline.run c ops` is the command line after the calls `ops`.
-/

namespace LinuxLoader
open Spec Cmdline

/-- Two command lines used as non-vacuity witnesses. -/
def demo : Cmdline := ⟨"a=b".toList, "x".toList, 100⟩

theorem demo_reachable : Reachable demo := by
  have h1 : Cmdline.new 100 = .ok ⟨[], [], 100⟩ := by decide
  have h2 := (Reachable.new h1).step (.insertStr "a=b".toList) |>.step (.insertInitArgs "x".toList)
  have h3 : ((((⟨[], [], 100⟩ : Cmdline).step (.insertStr "a=b".toList)).1).step
      (.insertInitArgs "x".toList)).1 = demo := by decide
  rw [← h3]; exact h2

/-- **C01.** However the command line was created and whatever calls were made on it, its NUL
terminated rendering is never longer than the capacity it was created with. -/
theorem C01_capacity (cap : UInt64) (c₀ : Cmdline)
    (h₀ : Cmdline.new cap = .ok c₀ ∨ ∃ s, Cmdline.tryFrom s cap = .ok c₀)
    (ops : List Op) (bs : List UInt8) (h : (c₀.run ops).asCString = .ok bs) :
    (bytesWithNul bs).length ≤ cap.toNat := by
  have hi : c₀.Inv ∧ c₀.capacity = cap := by
    rcases h₀ with h₀ | ⟨s, h₀⟩
    · exact ⟨(Inv.new h₀).1, (Inv.new h₀).2.1⟩
    · exact ⟨(Inv.tryFrom h₀).1, (Inv.tryFrom h₀).2.1⟩
  have hr := hi.1.run ops
  rw [asCString_ok h, bytesWithNul, List.length_append, utf8_length]
  have := hr.1
  unfold Cmdline.Inv Fits at this
  rw [hr.2, hi.2] at this
  exact this

example := C01_capacity 4 ⟨[], [], 4⟩ (.inl (by decide))
  [.insertStr "abc".toList, .insertStr "d".toList] [97, 98, 99] (by decide)

/-- **C01**, for command lines that cannot be rendered: the text with its NUL fits as well. -/
theorem C01_text_fits (c : Cmdline) (h : Reachable c) : Fits c.bootArgs c.initArgs c.capacity :=
  h.inv

example := C01_text_fits demo demo_reachable

example : ∃ c₀, Cmdline.new 4 = .ok c₀ ∧
    (c₀.run [.insertStr "abc".toList, .insertStr "d".toList]).asCString = .ok [97, 98, 99] :=
  ⟨⟨[], [], 4⟩, by decide, by decide⟩

/-- **C02.** A call that does not return `Ok` leaves the command line exactly as it was. -/
theorem C02_rejected_unchanged (c : Cmdline) (op : Op) (h : (c.step op).2 ≠ .ok ()) :
    (c.step op).1 = c := by
  have key : ∀ (c : Cmdline) (s : Str), (c.insertStr s).2 ≠ .ok () → (c.insertStr s).1 = c := by
    intro c s h
    unfold insertStr at h ⊢
    split <;> simp_all
  cases op with
  | insert k v =>
    simp only [step, Cmdline.insert] at h ⊢
    split <;> simp_all
  | insertMultiple k vs =>
    simp only [step, insertMultiple] at h ⊢
    split <;> simp_all
  | insertStr s => exact key c s h
  | insertInitArgs s =>
    simp only [step, insertInitArgs] at h ⊢
    split <;> simp_all
  | addVirtio size base irq id =>
    simp only [step, addVirtioMmioDevice] at h ⊢
    split <;> simp_all

example := C02_rejected_unchanged ⟨"a".toList, [], 4⟩ (.insertStr "xyz".toList) (by decide)

/-- The calls of a history that are accepted. -/
def acceptedOps (c : Cmdline) : List Op → List Op
  | [] => []
  | op :: ops =>
    if (c.step op).2 = .ok () then op :: acceptedOps (c.step op).1 ops else acceptedOps c ops

/-- **C02**, over histories: leaving out the rejected calls changes nothing. -/
theorem C02_history (c : Cmdline) (ops : List Op) : c.run ops = c.run (acceptedOps c ops) := by
  induction ops generalizing c with
  | nil => rfl
  | cons op ops ih =>
    show (c.step op).1.run ops = _
    unfold acceptedOps
    split
    · exact ih _
    · rename_i hr
      rw [C02_rejected_unchanged c op hr]; exact ih c

example : ((⟨[], [], 2⟩ : Cmdline).step (.insertStr "ab".toList)).2 ≠ .ok () := by decide

/-- **C03.** No builder call on a reachable command line overflows or otherwise panics. -/
theorem C03_no_panic (c : Cmdline) (h : Reachable c) (op : Op) : (c.step op).2 ≠ .panic := by
  rcases step_cases h.inv op with ⟨e, h'⟩ | ⟨t, -, -, -, h'⟩ | ⟨t, -, -, -, h'⟩ <;> rw [h'] <;> simp

example := C03_no_panic demo demo_reachable (.insert "k".toList "v".toList)

/-- **C03**: neither does rendering, conversion or parsing. -/
theorem C03_no_panic_render (c : Cmdline) : c.asCString ≠ .panic ∧ c.toVec ≠ .panic ∧
    (∀ s cap, tryFrom s cap ≠ .panic) ∧ ∀ cap, Cmdline.new cap ≠ .panic := by
  have h1 : c.asCString ≠ .panic := by
    rw [asCString_eq]; split
    · simp
    · split <;> simp
  refine ⟨h1, ?_, ?_, ?_⟩
  · unfold toVec; cases h : c.asCString <;> simp_all [Res.map]
  · intro s cap; rw [tryFrom_eq]; repeat' split
    all_goals simp
  · intro cap; unfold Cmdline.new; split <;> simp

/-- The size computation does panic on a value that no call history can produce; so C03 is a fact
about reachable command lines, not about the type. -/
example : ¬ ∀ n : Nat, plainAdd (ε := CmdlineError) n 1 ≠ .panic := by
  intro h; exact h U64 (by decide)

example : Reachable demo := demo_reachable

/-- **C04.** Exact behaviour of `insert_str`. -/
theorem C04_insert_str (c : Cmdline) (h : Reachable c) (slug t : Str) (ht : Trimmed slug t) :
    c.insertStr slug =
      if ¬ Printable t then (c, .err .invalidAscii)
      else if ¬ Fits (extend c.bootArgs t) c.initArgs c.capacity then (c, .err .tooLarge)
      else ({ c with bootArgs := extend c.bootArgs t }, .ok ()) := by
  have := insertStr_eq h.inv slug
  rwa [trim_of_trimmed ht] at this

example := C04_insert_str demo demo_reachable "  a b\t".toList "a b".toList
  ⟨"  ".toList, "\t".toList, by decide, by decide, by decide, by decide, by decide⟩

/-- Every string has exactly one trimmed form, so C04 and C05 cover every argument. -/
theorem C04_trimmed_total (s : Str) : ∃ t, Trimmed s t ∧ ∀ t', Trimmed s t' → t' = t :=
  ⟨trim s, trimmed_trim s, fun _ h => (trim_of_trimmed h).symm⟩

example : Trimmed "  a b\t".toList "a b".toList :=
  ⟨"  ".toList, "\t".toList, by decide, by decide, by decide, by decide, by decide⟩

/-- **C05.** Exact behaviour of `insert_init_args`. -/
theorem C05_insert_init_args (c : Cmdline) (h : Reachable c) (slug t : Str) (ht : Trimmed slug t) :
    c.insertInitArgs slug =
      if ¬ Printable t then (c, .err .invalidAscii)
      else if (text c.bootArgs c.initArgs).utf8Len + (if c.initArgs = [] then 4 else 1)
          + t.utf8Len + 1 > c.capacity.toNat then (c, .err .tooLarge)
      else ({ c with initArgs := extend c.initArgs t }, .ok ()) := by
  have := insertInitArgs_eq h.inv slug
  rwa [trim_of_trimmed ht] at this

example := C05_insert_init_args demo demo_reachable " y ".toList "y".toList
  ⟨" ".toList, " ".toList, by decide, by decide, by decide, by decide, by decide⟩

/-- **C05**: for a non-blank argument the size condition is that the resulting line fits. -/
theorem C05_condition_is_fit (c : Cmdline) (t : Str) (ht : t ≠ []) :
    ((text c.bootArgs c.initArgs).utf8Len + (if c.initArgs = [] then 4 else 1)
          + t.utf8Len + 1 ≤ c.capacity.toNat) ↔
      Fits c.bootArgs (extend c.initArgs t) c.capacity := by
  unfold Fits
  simp only [utf8Len_text, utf8Len_extend]
  by_cases hi : c.initArgs = []
  · have he : extend [] t = t := by simp [extend]
    simp only [hi, ↓reduceIte, he, ht]
  · have he : extend c.initArgs t ≠ [] := by simp [extend, hi]
    simp only [hi, ↓reduceIte, he]; omega

example := C05_condition_is_fit demo "y".toList (by decide)

/-- A blank first init argument is charged for the separator although it adds none: with three
bytes of room it is rejected as too large. -/
theorem C05_blank_is_charged :
    (⟨"ab".toList, [], 6⟩ : Cmdline).insertInitArgs [] = (⟨"ab".toList, [], 6⟩, .err .tooLarge) := by
  decide

/-- **C06.** After any history of builder calls on a fresh command line, in which at least one boot
argument and only non-blank arguments were accepted, the rendering is the ordered join. -/
theorem C06_ordered_join (cap : UInt64) (c₀ c : Cmdline) (h₀ : Cmdline.new cap = .ok c₀)
    (ops : List Op) (boots inits : List Str) (ht : Trace c₀ ops boots inits c)
    (hb : boots ≠ []) (hne : ∀ s ∈ boots ++ inits, s ≠ []) :
    c.asCString = .ok (text (joinSp boots) (joinSp inits)).utf8 := by
  obtain ⟨hinv, -, hb0, hi0⟩ := Inv.new h₀
  obtain ⟨h1, h2, h3⟩ := trace_args ht hinv
  rw [hb0, foldl_extend_nil _ (fun s hs => hne s (by simp [hs]))] at h1
  rw [hi0, foldl_extend_nil _ (fun s hs => hne s (by simp [hs]))] at h2
  have hp : c.AllPrintable := by rw [h3]; exact (AllPrintable.new h₀).run hinv ops
  rw [asCString_eq, h1, h2]
  have hnb : joinSp boots ≠ [] := joinSp_ne_nil hb (fun s hs => hne s (by simp [hs]))
  rw [if_neg (by simp [hnb]), if_neg]
  apply nul_not_mem_printable
  rw [← h1, ← h2]
  exact printable_text hp.1 hp.2

theorem demo_trace : Trace ⟨[], [], 100⟩
    [.insertInitArgs " i ".toList, .insert "k".toList "v".toList, .insertStr "é".toList]
    ["k=v".toList] ["i".toList] ⟨"k=v".toList, "i".toList, 100⟩ := by
  refine .init (t := "i".toList) (by decide) (.insertInitArgs ?_) ?_
  · exact ⟨" ".toList, " ".toList, by decide, by decide, by decide, by decide, by decide⟩
  refine .boot (t := "k=v".toList) (by decide) (.insert (k := "k".toList) (v := "v".toList)) ?_
  refine .rejected (by decide) ?_
  have : (((((⟨[], [], 100⟩ : Cmdline).step (.insertInitArgs " i ".toList)).1.step
    (.insert "k".toList "v".toList)).1).step (.insertStr "é".toList)).1
      = ⟨"k=v".toList, "i".toList, 100⟩ := by decide
  exact this ▸ .nil

example := C06_ordered_join 100 ⟨[], [], 100⟩ _ (by decide) _ _ _ demo_trace (by decide) (by decide)

/-- **C06** without the non-blank condition, and for any starting command line: the argument strings
are the accepted texts folded in with `extend`. -/
theorem C06_fold (c₀ c : Cmdline) (h₀ : Reachable c₀) (ops : List Op) (boots inits : List Str)
    (ht : Trace c₀ ops boots inits c) :
    c.bootArgs = boots.foldl extend c₀.bootArgs ∧ c.initArgs = inits.foldl extend c₀.initArgs ∧
      c = c₀.run ops :=
  trace_args ht h₀.inv

example := C06_fold _ _ (Reachable.new (cap := 100) (by decide)) _ _ _ demo_trace

/-- Every history has such a trace (so C06 applies to every history). -/
theorem C06_trace_exists (c₀ : Cmdline) (h₀ : Reachable c₀) (ops : List Op) :
    ∃ boots inits, Trace c₀ ops boots inits (c₀.run ops) := trace_exists h₀.inv ops

example := C06_trace_exists demo demo_reachable [.insertStr "b".toList, .insertStr "é".toList]

/-- `joinSp` is the usual join by one space. -/
theorem C06_joinSp (l : List Str) : joinSp l = List.intercalate [' '] l := joinSp_eq_intercalate l

/-- **C07.** Command lines built from `new` are printable ASCII, rendering never reports a NUL, and
the rendered bytes are printable followed by exactly one NUL. -/
theorem C07_printable (cap : UInt64) (c₀ : Cmdline) (h₀ : Cmdline.new cap = .ok c₀)
    (ops : List Op) :
    (c₀.run ops).asCString ≠ .err .nullTerminator ∧
    ∀ bs, (c₀.run ops).toVec = .ok bs →
      ∃ body, bs = body ++ [0] ∧ ∀ b ∈ body, 0x20 ≤ b.toNat ∧ b.toNat ≤ 0x7e := by
  have hp := (AllPrintable.new h₀).run (Inv.new h₀).1 ops
  have hpt := printable_text hp.1 hp.2
  constructor
  · rw [asCString_eq]; split
    · simp
    · rw [if_neg (nul_not_mem_printable hpt)]; simp
  · intro bs h
    unfold toVec at h
    cases hc : (c₀.run ops).asCString with
    | ok b =>
      rw [hc] at h
      simp only [Res.map, Res.ok.injEq] at h
      refine ⟨b, h.symm, ?_⟩
      rw [asCString_ok hc]
      exact utf8_printable hpt
    | err e => rw [hc] at h; cases h
    | panic => rw [hc] at h; cases h

example : ∃ c₀, Cmdline.new 50 = .ok c₀ ∧
    (c₀.run [.insertStr "ok ~".toList, .insertStr "\x07".toList]).toVec
      = .ok [111, 107, 32, 126, 0] := ⟨⟨[], [], 50⟩, by decide, by decide⟩

/-- **C08** is false of the code: `try_from` accepts a BEL character, so the rendering is not
printable, ... -/
theorem C08_refuted : ∃ c, tryFrom "a\x07".toList 100 = .ok c ∧ c.toVec = .ok [97, 7, 0] :=
  ⟨⟨"a\x07".toList, [], 100⟩, by decide +kernel, by decide⟩

/-- ... and it accepts NUL, so that the accepted command line cannot be rendered at all. -/
theorem C08_refuted_nul :
    ∃ c, tryFrom "a\x00b".toList 100 = .ok c ∧ c.asCString = .err .nullTerminator :=
  ⟨⟨"a\x00b".toList, [], 100⟩, by decide +kernel, by decide⟩

/-- **C09.** Outcome of rendering. -/
theorem C09_as_cstring (c : Cmdline) :
    c.asCString = if c.bootArgs = [] ∧ c.initArgs ≠ [] then .err .noBootArgsInserted
      else if '\x00' ∈ text c.bootArgs c.initArgs then .err .nullTerminator
      else .ok (text c.bootArgs c.initArgs).utf8 := asCString_eq c

/-- **C09**, conversion to `Vec<u8>`: same error, or the same bytes and one NUL, which is the only
zero byte. -/
theorem C09_vec (c : Cmdline) :
    (∀ e, c.asCString = .err e ↔ c.toVec = .err e) ∧
    (∀ bs, c.asCString = .ok bs → c.toVec = .ok (bs ++ [0]) ∧ 0 ∉ bs) ∧
    (∀ v, c.toVec = .ok v → ∃ bs, c.asCString = .ok bs ∧ v = bs ++ [0]) := by
  refine ⟨?_, ?_, ?_⟩
  · intro e; unfold toVec; cases h : c.asCString <;> simp [Res.map]
  · intro bs h
    refine ⟨by simp [toVec, h, Res.map, bytesWithNul], ?_⟩
    rw [asCString_eq] at h
    split at h
    · cases h
    · split at h
      · cases h
      · rename_i hn
        cases h
        rwa [zero_mem_utf8, nul_mem]
  · intro v h
    unfold toVec at h
    cases hc : c.asCString with
    | ok b => rw [hc] at h; simp only [Res.map, Res.ok.injEq] at h; exact ⟨b, rfl, h.symm⟩
    | err e => rw [hc] at h; cases h
    | panic => rw [hc] at h; cases h

/-- The bytes of a rendering are those of Lean's own UTF-8 encoder. -/
theorem C09_bytes_are_utf8 (s : Str) : s.utf8 = (String.ofList s).toByteArray.data.toList :=
  utf8_eq_string s

/-- **C10.** Exact behaviour of `insert`: key problems first, then value problems, then size; on
success `k=v` is appended verbatim. -/
theorem C10_insert (c : Cmdline) (h : Reachable c) (k v : Str) :
    (∀ e, KeyProblem k e → c.insert k v = (c, .err e)) ∧
    (∀ e, LegalKey k → ValueProblem v e → c.insert k v = (c, .err e)) ∧
    (LegalKey k → LegalValue v → c.insert k v =
      if Fits (extend c.bootArgs (k ++ '=' :: v)) c.initArgs c.capacity then
        ({ c with bootArgs := extend c.bootArgs (k ++ '=' :: v) }, .ok ())
      else (c, .err .tooLarge)) :=
  ⟨fun _ hk => insert_badKey c hk, fun _ hk hv => insert_badValue c hk hv,
    fun hk hv => insert_legal h.inv hk hv⟩

example := C10_insert demo demo_reachable "foo".toList "\"a b\"".toList

/-- Keys and values are either legal or have exactly one problem, so C10 covers every call. -/
theorem C10_total (k v : Str) :
    (LegalKey k ∨ ∃ e, KeyProblem k e) ∧ (LegalValue v ∨ ∃ e, ValueProblem v e) := by
  constructor
  · rcases validKey_eq k with ⟨e, he, -⟩ | ⟨hk, -⟩
    · exact .inr ⟨e, he⟩
    · exact .inl hk
  · rcases validValue_eq v with ⟨e, he, -⟩ | ⟨hk, -⟩
    · exact .inr ⟨e, he⟩
    · exact .inl hk

theorem legalKey_demo : LegalKey "foo".toList := by unfold LegalKey; decide
theorem legalValue_demo : LegalValue "\"a b\"".toList := by
  refine ⟨by decide, ?_, fun _ => ⟨"a b".toList, by decide⟩⟩
  rw [← innerQuote_iff (by decide)]; decide

example : demo.insert "foo".toList "\"a b\"".toList
    = (⟨"a=b foo=\"a b\"".toList, "x".toList, 100⟩, .ok ()) := by decide

/-- **C11.** Exact behaviour of `insert_multiple`. -/
theorem C11_insert_multiple (c : Cmdline) (h : Reachable c) (k : Str) (vs : List Str) :
    (∀ e, KeyProblem k e → c.insertMultiple k vs = (c, .err e)) ∧
    (LegalKey k → vs = [] → c.insertMultiple k vs = (c, .err (.missingVal k))) ∧
    (∀ us v ws e, LegalKey k → vs = us ++ v :: ws → (∀ u ∈ us, LegalValue u) → ValueProblem v e →
      c.insertMultiple k vs = (c, .err e)) ∧
    (LegalKey k → vs ≠ [] → (∀ v ∈ vs, LegalValue v) → c.insertMultiple k vs =
      if Fits (extend c.bootArgs (k ++ '=' :: joinCommas vs)) c.initArgs c.capacity then
        ({ c with bootArgs := extend c.bootArgs (k ++ '=' :: joinCommas vs) }, .ok ())
      else (c, .err .tooLarge)) :=
  ⟨fun _ hk => insertMultiple_badKey c hk,
   fun hk hn => by subst hn; exact insertMultiple_nil c hk,
   fun us v ws e hk hvs hu hv => by subst hvs; exact insertMultiple_badValue c hk hu hv,
   fun hk hn hv => insertMultiple_legal h.inv hk hn hv⟩

example := C11_insert_multiple demo demo_reachable "foo".toList ["a".toList, "b".toList]

/-- Every list of values is legal throughout or has a first illegal value. -/
theorem C11_total (vs : List Str) : (∀ v ∈ vs, LegalValue v) ∨
    ∃ us v ws e, vs = us ++ v :: ws ∧ (∀ u ∈ us, LegalValue u) ∧ ValueProblem v e :=
  values_cases vs

/-- **C11.** With one value `insert_multiple` is `insert`. -/
theorem C11_single (c : Cmdline) (k v : Str) : c.insertMultiple k [v] = c.insert k v := by
  unfold insertMultiple Cmdline.insert
  cases hk : validKey k <;> cases hv : validValue v <;>
    simp [Res.bind, validateValues, hv, Res.map, joinComma]

example : demo.insertMultiple "foo".toList ["a".toList, "b".toList]
    = (⟨"a=b foo=a,b".toList, "x".toList, 100⟩, .ok ()) := by decide

/-- **C17.** `==` is an equivalence relation, is equality of the renderings (or rendering errors),
and ignores the capacity. -/
theorem C17_equality :
    (∀ c, Cmdline.eq c c = true) ∧
    (∀ c d, Cmdline.eq c d = true → Cmdline.eq d c = true) ∧
    (∀ c d e, Cmdline.eq c d = true → Cmdline.eq d e = true → Cmdline.eq c e = true) ∧
    (∀ c d, Cmdline.eq c d = true ↔ c.asCString = d.asCString) ∧
    (∀ c d cap cap', Cmdline.eq { c with capacity := cap } { d with capacity := cap' }
      = Cmdline.eq c d) := by
  have h : ∀ c d : Cmdline, Cmdline.eq c d = true ↔ c.asCString = d.asCString := by
    intro c d; simp [Cmdline.eq]
  refine ⟨fun c => (h c c).2 rfl, fun c d hcd => (h d c).2 ((h c d).1 hcd).symm,
    fun c d e h1 h2 => (h c e).2 (((h c d).1 h1).trans ((h d e).1 h2)), h, ?_⟩
  intro c d cap cap'; rfl

example : Cmdline.eq demo { demo with capacity := 7 } = true := by decide

/-- **C18** is false of the code: `a -- b` given as one boot argument equals boot argument `a` with
init argument `b`, but after the same accepted insertion they differ. Both are reachable. -/
theorem C18_refuted : ∃ c d s, Reachable c ∧ Reachable d ∧ Cmdline.eq c d = true ∧
    (c.insertStr s).2 = .ok () ∧ (d.insertStr s).2 = .ok () ∧
    Cmdline.eq (c.insertStr s).1 (d.insertStr s).1 = false := by
  have h1 : Cmdline.new 100 = .ok ⟨[], [], 100⟩ := by decide
  refine ⟨_, _, "x".toList,
    (Reachable.new h1).step (.insertStr "a".toList) |>.step (.insertInitArgs "b".toList),
    (Reachable.new h1).step (.insertStr "a -- b".toList), ?_, ?_, ?_, ?_⟩ <;> decide

/-- **C18**, what is true: command lines with the same boot and the same init arguments stay equal
under any accepted call. (Equality of the renderings alone is not enough, see above.) -/
theorem C18_congruence (c d : Cmdline) (hc : Reachable c) (hd : Reachable d)
    (hb : c.bootArgs = d.bootArgs) (hi : c.initArgs = d.initArgs) (op : Op)
    (h1 : (c.step op).2 = .ok ()) (h2 : (d.step op).2 = .ok ()) :
    Cmdline.eq (c.step op).1 (d.step op).1 = true ∧
    (c.step op).1.bootArgs = (d.step op).1.bootArgs ∧
    (c.step op).1.initArgs = (d.step op).1.initArgs := by
  have key : (c.step op).1.bootArgs = (d.step op).1.bootArgs ∧
      (c.step op).1.initArgs = (d.step op).1.initArgs := by
    rcases step_cases hc.inv op with ⟨e, h⟩ | ⟨t, ht, -, -, h⟩ | ⟨t, ht, -, -, h⟩ <;>
      rcases step_cases hd.inv op with ⟨e', h'⟩ | ⟨t', ht', -, -, h'⟩ | ⟨t', ht', -, -, h'⟩ <;>
      rw [h] at h1 <;> rw [h'] at h2 <;> try cases h1 <;> try cases h2
    all_goals rw [h, h']
    · have := BootText.unique ht ht'; subst this; exact ⟨by simp [hb], hi⟩
    · exact (boot_init_disjoint ht ht').elim
    · exact (boot_init_disjoint ht' ht).elim
    · have := InitText.unique ht ht'; subst this; exact ⟨hb, by simp [hi]⟩
  refine ⟨?_, key⟩
  rw [C17_equality.2.2.2.1, asCString_eq, asCString_eq, key.1, key.2]

example := C18_congruence demo demo demo_reachable demo_reachable rfl rfl
  (.insertStr "b".toList) (by decide) (by decide)

/-- Equality is a congruence under the insertion of init arguments when both have boot arguments and
already have init arguments: then the last argument is appended to equal texts. -/
theorem C18_init_congruence (c d : Cmdline) (hc : Reachable c) (hd : Reachable d)
    (he : Cmdline.eq c d = true) (hb : c.bootArgs ≠ []) (hb' : d.bootArgs ≠ [])
    (hi : c.initArgs ≠ []) (hi' : d.initArgs ≠ []) (s t : Str) (ht : Trimmed s t)
    (h0 : ∃ bs, c.asCString = .ok bs)
    (h1 : (c.insertInitArgs s).2 = .ok ()) (h2 : (d.insertInitArgs s).2 = .ok ()) :
    ∃ b, (c.insertInitArgs s).1.asCString = .ok b ∧ (d.insertInitArgs s).1.asCString = .ok b := by
  have hinv := C05_insert_init_args c hc s t ht
  have hinv' := C05_insert_init_args d hd s t ht
  have hp : Printable t := by
    by_cases hp : Printable t
    · exact hp
    · rw [hinv, if_pos hp] at h1; cases h1
  rw [if_neg (not_not_intro hp)] at hinv hinv'
  have step : ∀ (x : Cmdline) (cond : Prop) [Decidable cond], x.bootArgs ≠ [] → x.initArgs ≠ [] →
      x.insertInitArgs s = (if cond then (x, .err .tooLarge)
        else ({ x with initArgs := extend x.initArgs t }, .ok ())) →
      (x.insertInitArgs s).2 = .ok () → (∃ bs, x.asCString = .ok bs) →
      (x.insertInitArgs s).1.asCString
        = .ok ((text x.bootArgs x.initArgs).utf8 ++ Str.utf8 (' ' :: t)) := by
    intro x cond _ xb xi hx hok hbs
    have hncond : ¬ cond := by
      intro hcond; rw [hx, if_pos hcond] at hok; cases hok
    rw [hx, if_neg hncond]
    rw [asCString_eq]
    have htext : text x.bootArgs (extend x.initArgs t) = text x.bootArgs x.initArgs ++ ' ' :: t := by
      simp [text, extend, xi]
    simp only [xb, false_and, ↓reduceIte, htext]
    obtain ⟨bs, hbs⟩ := hbs
    rw [asCString_eq] at hbs
    simp only [xb, false_and, ↓reduceIte] at hbs
    have hn : '\x00' ∉ text x.bootArgs x.initArgs := by
      intro hm; rw [if_pos hm] at hbs; cases hbs
    rw [if_neg, utf8_append]
    intro hm
    rw [List.mem_append, List.mem_cons] at hm
    rcases hm with hm | hm | hm
    · exact hn hm
    · cases hm
    · exact nul_not_mem_printable hp hm
  have heq := (C17_equality.2.2.2.1 c d).1 he
  have h0' : ∃ bs, d.asCString = .ok bs := by rw [← heq]; exact h0
  have hc2 := step c _ hb hi hinv h1 h0
  have hd2 := step d _ hb' hi' hinv' h2 h0'
  obtain ⟨bs, h0⟩ := h0
  have e1 := asCString_ok h0
  rw [heq] at h0
  have e2 := asCString_ok h0
  refine ⟨_, hc2, ?_⟩
  rw [hd2, ← e1, ← e2]

example : Reachable demo ∧ (demo.insertInitArgs "y".toList).2 = .ok () :=
  ⟨demo_reachable, by decide⟩

/-- **C59.** Boot and init insertions commute: if a boot argument and a non-blank init argument are
accepted in one order, they are accepted in the other, with the same result. -/
theorem C59_boot_init_commute (c : Cmdline) (h : Reachable c) (s i t : Str) (ht : Trimmed i t)
    (hne : t ≠ [])
    (h1 : (c.insertStr s).2 = .ok ()) (h2 : ((c.insertStr s).1.insertInitArgs i).2 = .ok ()) :
    (c.insertInitArgs i).2 = .ok () ∧ ((c.insertInitArgs i).1.insertStr s).2 = .ok () ∧
    ((c.insertInitArgs i).1.insertStr s).1 = ((c.insertStr s).1.insertInitArgs i).1 := by
  have hs := C04_insert_str c h s (trim s) (trimmed_trim s)
  have hp : Printable (trim s) := by
    by_cases hp : Printable (trim s)
    · exact hp
    · rw [hs, if_pos hp] at h1; cases h1
  rw [if_neg (not_not_intro hp)] at hs
  have hf : Fits (extend c.bootArgs (trim s)) c.initArgs c.capacity := by
    by_cases hf : Fits (extend c.bootArgs (trim s)) c.initArgs c.capacity
    · exact hf
    · rw [hs, if_pos hf] at h1; cases h1
  rw [if_neg (not_not_intro hf)] at hs
  have hr1 : Reachable (c.insertStr s).1 := h.step (.insertStr s)
  rw [hs] at h2 hr1
  have hi := C05_insert_init_args _ hr1 i t ht
  have hpt : Printable t := by
    by_cases hp : Printable t
    · exact hp
    · rw [hi, if_pos hp] at h2; cases h2
  rw [if_neg (not_not_intro hpt)] at hi
  have hfit2 : Fits (extend c.bootArgs (trim s)) (extend c.initArgs t) c.capacity := by
    have := C05_condition_is_fit ({ c with bootArgs := extend c.bootArgs (trim s) }) t hne
    simp only at this
    rw [← this]
    by_cases hc : (text (extend c.bootArgs (trim s)) c.initArgs).utf8Len
      + (if c.initArgs = [] then 4 else 1) + t.utf8Len + 1 > c.capacity.toNat
    · rw [hi, if_pos hc] at h2; cases h2
    · omega
  have hfit1 : Fits c.bootArgs (extend c.initArgs t) c.capacity := by
    have : (extend c.bootArgs (trim s)).utf8Len ≥ c.bootArgs.utf8Len := by
      rw [utf8Len_extend]; split
      · simp_all
      · omega
    unfold Fits at hfit2 ⊢
    rw [utf8Len_text] at hfit2 ⊢
    split at hfit2 <;> simp_all <;> omega
  have hc1 := C05_insert_init_args c h i t ht
  rw [if_neg (not_not_intro hpt),
    if_neg (by have := (C05_condition_is_fit c t hne).2 hfit1; omega)] at hc1
  have hr2 : Reachable (c.insertInitArgs i).1 := h.step (.insertInitArgs i)
  rw [hc1] at hr2 ⊢
  have hs2 := C04_insert_str _ hr2 s (trim s) (trimmed_trim s)
  rw [if_neg (not_not_intro hp), if_neg (not_not_intro hfit2)] at hs2
  refine ⟨rfl, by rw [hs2], ?_⟩
  rw [hs2, hs, hi]
  have := (C05_condition_is_fit ({ c with bootArgs := extend c.bootArgs (trim s) }) t hne).2 hfit2
  simp only at this ⊢
  rw [if_neg (by omega)]

example : (demo.insertStr "s".toList).2 = .ok () ∧
    ((demo.insertStr "s".toList).1.insertInitArgs "i".toList).2 = .ok () := by decide

/-- **C59 (the other direction).** Accepted init first means accepted boot first, with the same result. -/
theorem C59_init_boot_commute (c : Cmdline) (h : Reachable c) (s i t : Str) (ht : Trimmed i t)
    (hne : t ≠ [])
    (h1 : (c.insertInitArgs i).2 = .ok ()) (h2 : ((c.insertInitArgs i).1.insertStr s).2 = .ok ()) :
    (c.insertStr s).2 = .ok () ∧ ((c.insertStr s).1.insertInitArgs i).2 = .ok () ∧
    ((c.insertStr s).1.insertInitArgs i).1 = ((c.insertInitArgs i).1.insertStr s).1 := by
  suffices hk : (c.insertStr s).2 = .ok () ∧ ((c.insertStr s).1.insertInitArgs i).2 = .ok () from
    ⟨hk.1, hk.2, (C59_boot_init_commute c h s i t ht hne hk.1 hk.2).2.2.symm⟩
  have hi := C05_insert_init_args c h i t ht
  have hpt : Printable t := by
    by_cases hp : Printable t
    · exact hp
    · rw [hi, if_pos hp] at h1; cases h1
  rw [if_neg (not_not_intro hpt)] at hi
  have hfit1 : ¬((text c.bootArgs c.initArgs).utf8Len
      + (if c.initArgs = [] then 4 else 1) + t.utf8Len + 1 > c.capacity.toNat) := by
    intro hc
    rw [hi, if_pos hc] at h1; cases h1
  rw [if_neg hfit1] at hi
  have hr1 : Reachable (c.insertInitArgs i).1 := h.step (.insertInitArgs i)
  rw [hi] at h2 hr1
  have hs := C04_insert_str _ hr1 s (trim s) (trimmed_trim s)
  have hp : Printable (trim s) := by
    by_cases hp : Printable (trim s)
    · exact hp
    · rw [hs, if_pos hp] at h2; cases h2
  rw [if_neg (not_not_intro hp)] at hs
  have hfit2 : Fits (extend c.bootArgs (trim s)) (extend c.initArgs t) c.capacity := by
    by_cases hf : Fits (extend c.bootArgs (trim s)) (extend c.initArgs t) c.capacity
    · exact hf
    · rw [hs, if_pos hf] at h2; cases h2
  have hf : Fits (extend c.bootArgs (trim s)) c.initArgs c.capacity := by
    have : (extend c.initArgs t).utf8Len ≥ c.initArgs.utf8Len := by
      rw [utf8Len_extend]; split
      · simp_all
      · omega
    unfold Fits at hfit2 ⊢
    rw [utf8Len_text] at hfit2 ⊢
    have he : extend c.initArgs t ≠ [] := by
      unfold extend; split <;> simp_all
    rw [if_neg he] at hfit2
    split <;> omega
  have hs1 := C04_insert_str c h s (trim s) (trimmed_trim s)
  rw [if_neg (not_not_intro hp), if_neg (not_not_intro hf)] at hs1
  have hr2 : Reachable (c.insertStr s).1 := h.step (.insertStr s)
  rw [hs1] at hr2 ⊢
  have hi2 := C05_insert_init_args _ hr2 i t ht
  have := (C05_condition_is_fit ({ c with bootArgs := extend c.bootArgs (trim s) }) t hne).2 hfit2
  simp only at this
  rw [if_neg (not_not_intro hpt), if_neg (by simp only; omega)] at hi2
  exact ⟨rfl, by rw [hi2]⟩

example : (demo.insertInitArgs "i".toList).2 = .ok () ∧
    ((demo.insertInitArgs "i".toList).1.insertStr "s".toList).2 = .ok () := by decide

/-- **C60.** More capacity never hurts: a history all of whose calls are accepted is accepted call by
call with any larger capacity, with the same arguments. -/
theorem C60_capacity_monotone (c d : Cmdline) (hc : Reachable c) (hd : Reachable d)
    (hb : c.bootArgs = d.bootArgs) (hi : c.initArgs = d.initArgs)
    (hcap : c.capacity.toNat ≤ d.capacity.toNat) (op : Op) (h : (c.step op).2 = .ok ()) :
    (d.step op).2 = .ok () ∧ (d.step op).1.bootArgs = (c.step op).1.bootArgs ∧
      (d.step op).1.initArgs = (c.step op).1.initArgs := by
  have mono : ∀ b i, Fits b i c.capacity → Fits b i d.capacity := by
    intro b i h; unfold Fits at *; omega
  have boot : ∀ t, c.step op = c.placed t → d.step op = d.placed t →
      (d.step op).2 = .ok () ∧ (d.step op).1.bootArgs = (c.step op).1.bootArgs ∧
      (d.step op).1.initArgs = (c.step op).1.initArgs := by
    intro t h1 h2
    rw [h1] at h ⊢; rw [h2]
    unfold placed at h ⊢
    split at h
    · rename_i hf
      rw [if_pos hf, if_pos (by rw [← hb, ← hi]; exact mono _ _ hf)]
      exact ⟨rfl, by simp [hb], hi.symm⟩
    · cases h
  cases op with
  | insert k v =>
    rcases validKey_eq k with ⟨e, he, -⟩ | ⟨hk, -⟩
    · rw [show c.step (.insert k v) = _ from insert_badKey c he] at h; cases h
    · rcases validValue_eq v with ⟨e, he, -⟩ | ⟨hv, -⟩
      · rw [show c.step (.insert k v) = _ from insert_badValue c hk he] at h; cases h
      · exact boot _ (insert_legal hc.inv hk hv) (insert_legal hd.inv hk hv)
  | insertMultiple k vs =>
    rcases validKey_eq k with ⟨e, he, -⟩ | ⟨hk, -⟩
    · rw [show c.step (.insertMultiple k vs) = _ from insertMultiple_badKey c he] at h; cases h
    · by_cases hn : vs = []
      · subst hn
        rw [show c.step (.insertMultiple k []) = _ from insertMultiple_nil c hk] at h; cases h
      · rcases values_cases vs with hv | ⟨us, v, ws, e, rfl, hu, hv⟩
        · exact boot _ (insertMultiple_legal hc.inv hk hn hv) (insertMultiple_legal hd.inv hk hn hv)
        · rw [show c.step (.insertMultiple k _) = _ from insertMultiple_badValue c hk hu hv] at h
          cases h
  | insertStr s =>
    by_cases hp : Printable (trim s)
    · exact boot _ (insertStr_placed hc.inv rfl hp) (insertStr_placed hd.inv rfl hp)
    · rw [show c.step (.insertStr s) = _ from insertStr_eq hc.inv s, if_pos hp] at h; cases h
  | insertInitArgs s =>
    have h1 := insertInitArgs_eq hc.inv s
    have h2 := insertInitArgs_eq hd.inv s
    simp only [step] at h ⊢
    rw [h1] at h
    by_cases hp : Printable (trim s)
    · rw [if_neg (not_not_intro hp)] at h h1 h2
      by_cases hf : (text c.bootArgs c.initArgs).utf8Len + (if c.initArgs = [] then 4 else 1)
          + (trim s).utf8Len + 1 > c.capacity.toNat
      · rw [if_pos hf] at h; cases h
      · rw [if_neg hf] at h1
        rw [if_neg (by rw [← hb, ← hi]; omega)] at h2
        rw [h1, h2]
        exact ⟨rfl, hb.symm, by simp [hi]⟩
    · rw [if_pos hp] at h; cases h
  | addVirtio size base irq id =>
    have h1 := addVirtio_eq hc.inv size base irq id
    have h2 := addVirtio_eq hd.inv size base irq id
    by_cases hz : size = 0
    · simp only [step] at h; rw [h1, if_pos hz] at h; cases h
    · rw [if_neg hz] at h1 h2
      exact boot _ h1 h2

example : demo.capacity.toNat ≤ ({ demo with capacity := 200 } : Cmdline).capacity.toNat ∧
    (demo.step (.insertStr "q".toList)).2 = .ok () := by decide

end LinuxLoader
