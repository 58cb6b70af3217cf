import Verif.Lemmas.KernelSplit

/-! # Properties C12, C13, C58: what the kernel reads -/

namespace LinuxLoader
open Spec Spec.Kernel Cmdline

/-! ## Any arguments with balanced quotes -/

/-- **C12, C58.** On a fresh command line make any calls; let the texts of the accepted boot arguments
(of any kind, also by `insert_str`) be balanced in quotes and contain no `--` of their own. Then the
kernel's `parse_args` sees exactly what it sees in each of these texts alone, in order, and, after
`--`, exactly the init arguments. -/
theorem C12_kernel_composes (cap : UInt64) (c₀ c : Cmdline) (h₀ : Cmdline.new cap = .ok c₀)
    (ops : List Op) (boots inits : List Str) (ht : Trace c₀ ops boots inits c)
    (hq : ∀ t ∈ boots, Balanced t) (hd : ∀ t ∈ boots, (parseArgs t).2 = none) :
    parseArgs (text c.bootArgs c.initArgs) =
      (boots.flatMap (fun t => (parseArgs t).1),
       if c.initArgs = [] then none else some (inits.foldl extend [])) := by
  obtain ⟨hinv, -, hb0, hi0⟩ := Inv.new h₀
  obtain ⟨h1, h2, -⟩ := trace_args ht hinv
  rw [hb0] at h1
  rw [hi0] at h2
  obtain ⟨hc, hp⟩ := parseArgs_foldl boots hq hd [] (by decide) (by rw [parseArgs_nil])
  rw [parseArgs_nil, List.nil_append] at hp
  rw [h1, h2]
  unfold text
  by_cases hi : inits.foldl extend [] = []
  · rw [if_pos hi, if_pos hi, hp]
  · rw [if_neg hi, if_neg hi]
    have e : boots.foldl extend [] ++ sep ++ inits.foldl extend []
        = boots.foldl extend [] ++ ' ' :: ('-' :: '-' :: ' ' :: inits.foldl extend []) := by
      simp [sep_def]
    have hhead := foldl_extend_head inits (trace_inits_trimmed ht) [] (by simp)
    rw [e, parseArgs_append _ _ hc (by rw [hp]), hp]
    have : parseArgs ('-' :: '-' :: ' ' :: inits.foldl extend []) = ([], some (inits.foldl extend [])) := by
      unfold parseArgs
      rw [skipSpaces_head (by decide)]
      exact parseLoop_dashes hi (fun x hx => by
        rw [← Bool.not_eq_true]; exact fun hs => hhead x hx (blank_of_space hs))
    rw [this]
    simp

/-- `insert_str("quiet a=1")`, `insert("b", "x y" in quotes)`, `insert_init_args("-v")`. -/
example : Trace ⟨[], [], 100⟩ [.insertStr "quiet a=1".toList, .insert "b".toList "\"x y\"".toList,
      .insertInitArgs "-v".toList] ["quiet a=1".toList, "b=\"x y\"".toList] ["-v".toList]
      ⟨"quiet a=1 b=\"x y\"".toList, "-v".toList, 100⟩ ∧
    Balanced "quiet a=1".toList ∧ Balanced "b=\"x y\"".toList ∧
    parseArgs "quiet a=1".toList = ([("quiet".toList, none), ("a".toList, some "1".toList)], none) ∧
    parseArgs "b=\"x y\"".toList = ([("b".toList, some "x y".toList)], none) := by
  refine ⟨.boot (t := "quiet a=1".toList) (by decide) (.insertStr ?_)
    (.boot (t := "b=\"x y\"".toList) (by decide)
      (.insert (k := "b".toList) (v := "\"x y\"".toList)) (.init (t := "-v".toList) (by decide)
      (.insertInitArgs ?_) ?_)), by decide, by decide, by decide +kernel, by decide +kernel⟩
  · exact ⟨[], [], by decide, by decide, by decide, by decide, by decide⟩
  · exact ⟨[], [], by decide, by decide, by decide, by decide, by decide⟩
  · have : ((((⟨[], [], 100⟩ : Cmdline).step (.insertStr "quiet a=1".toList)).1.step
      (.insert "b".toList "\"x y\"".toList)).1.step (.insertInitArgs "-v".toList)).1 =
      ⟨"quiet a=1 b=\"x y\"".toList, "-v".toList, 100⟩ := by decide
    exact this ▸ .nil

/-- The balance condition of **C12** is necessary: behind an argument with unbalanced quotes the kernel
never sees a further argument as it is. -/
theorem C12_unbalanced_breaks (t r : Str) (hq : ¬ Balanced t) (hd : (parseArgs t).2 = none) :
    parseArgs (t ++ ' ' :: r) ≠ ((parseArgs t).1 ++ (parseArgs r).1, (parseArgs r).2) :=
  parseArgs_append_ne t r (parseArgs r) (by unfold Balanced at hq; omega) hd

example : ¬ Balanced "a=\"b".toList ∧ (parseArgs "a=\"b".toList).2 = none := by decide +kernel

/-! ## Key/value pairs -/

theorem nextArg_kv {k : Str} (hk : k ≠ []) (hh : k.head? ≠ some '"') (hs : ∀ c ∈ k, space c = false)
    (he : '=' ∉ k) (x : Str) :
    nextArg (k ++ '=' :: x) = ((k, some (uval false (k ++ '=' :: (scan (par false k) x).1)
      (scan (par false k) x).1)), skipSpaces (scan (par false k) x).2.tail) := by
  have h1 : scan false (k ++ ['=']) = (k ++ ['='], []) := scan_whole _ _ fun p c s e hc => by
    have hm : c ∈ k ++ ['='] := by rw [e]; simp
    rw [List.mem_append, List.mem_singleton] at hm
    rcases hm with hm | rfl
    · rw [hs c hm] at hc; cases hc
    · exact absurd hc (by decide)
  have h2 := ((scan_append false (k ++ ['=']) x).1 (by rw [h1])).2
  have h3 : par false (k ++ ['=']) = par false k := by rw [par_append]; rfl
  rw [h3] at h2
  have h4 : (k ++ '=' :: x).head? ≠ some '"' := by
    cases k with
    | nil => exact absurd rfl hk
    | cons c k => simpa using hh
  have e2 : ∀ y, k ++ ['='] ++ y = k ++ '=' :: y := by simp
  rw [e2, e2] at h2
  rw [nextArg_of_scan h4 h2, cutEquals_kv hk he, unquote_some]

theorem parseArgs_kv {k : Str} (hk : k ≠ []) (hh : k.head? ≠ some '"') (hs : ∀ c ∈ k, space c = false)
    (he : '=' ∉ k) (x : Str) :
    parseArgs (k ++ '=' :: x) = ((k, some (uval false (k ++ '=' :: (scan (par false k) x).1)
      (scan (par false k) x).1)) :: (parseArgs (scan (par false k) x).2.tail).1,
      (parseArgs (scan (par false k) x).2.tail).2) := by
  have hskip : skipSpaces (k ++ '=' :: x) = k ++ '=' :: x := by
    cases k with
    | nil => exact absurd rfl hk
    | cons c k => exact skipSpaces_head (hs c (by simp))
  conv => lhs; unfold parseArgs
  rw [hskip, parseLoop_step (by simp), nextArg_kv hk hh hs he]
  simp [parseArgs]

theorem uval_unquoted {k v w : Str} (hv : v.head? = some '"' → Enclosed v) (h : Unquoted v w) :
    uval false (k ++ '=' :: v) v = w := by
  cases h with
  | enclosed =>
    have he : endsQuoted (k ++ '=' :: ('"' :: w ++ ['"'])) = true := by
      unfold endsQuoted
      rw [show k ++ '=' :: ('"' :: w ++ ['"']) = (k ++ '=' :: '"' :: w) ++ ['"'] by simp,
        List.getLast?_concat]
      simp
    unfold uval
    rw [if_pos (by simp), if_pos he]
    simp
  | plain hne =>
    unfold uval
    rw [if_neg (fun h => hne (hv h))]
    simp

/-- The shapes of a legal value. -/
theorem legalValue_cases {v : Str} (h : LegalValue v) :
    ('"' ∉ v ∧ ' ' ∉ v) ∨ (∃ w, '"' ∉ w ∧ v = '"' :: w ++ ['"']) ∨
    (∃ u, '"' ∉ u ∧ v = '"' :: u ∧ ' ' ∉ v) ∨ ∃ u, u ≠ [] ∧ '"' ∉ u ∧ v = u ++ ['"'] ∧ ' ' ∉ v := by
  obtain ⟨-, hin, hsp⟩ := h
  have hinner : ∀ a b, v = a ++ '"' :: b → a = [] ∨ b = [] := by
    intro a b e
    by_cases ha : a = []
    · exact .inl ha
    · by_cases hb : b = []
      · exact .inr hb
      · exact absurd ⟨a, b, e, ha, hb⟩ hin
  by_cases hq : '"' ∈ v
  · by_cases henc : Enclosed v
    · obtain ⟨w, rfl⟩ := henc
      refine .inr (.inl ⟨w, fun hw => ?_, rfl⟩)
      obtain ⟨a, b, rfl⟩ := List.append_of_mem hw
      rcases hinner ('"' :: a) (b ++ ['"']) (by simp) with h | h
      · cases h
      · simp at h
    · have hns : ' ' ∉ v := fun hs => henc (hsp hs)
      obtain ⟨a, b, rfl⟩ := List.append_of_mem hq
      rcases hinner a b rfl with rfl | rfl
      · refine .inr (.inr (.inl ⟨b, fun hb => ?_, rfl, hns⟩))
        obtain ⟨c, d, rfl⟩ := List.append_of_mem hb
        rcases hinner ('"' :: c) d (by simp) with h | h
        · cases h
        · subst h; exact henc ⟨c, by simp⟩
      · cases a with
        | nil => exact .inr (.inr (.inl ⟨[], by simp, rfl, hns⟩))
        | cons x a =>
          refine .inr (.inr (.inr ⟨x :: a, by simp, fun ha => ?_, rfl, hns⟩))
          obtain ⟨c, d, e⟩ := List.append_of_mem ha
          rcases hinner c (d ++ ['"']) (by rw [e]; simp) with h | h
          · subst h
            simp only [List.nil_append, List.cons.injEq] at e
            obtain ⟨rfl, rfl⟩ := e
            exact henc ⟨a, rfl⟩
          · simp at h
  · exact .inl ⟨hq, fun hs => by obtain ⟨w, rfl⟩ := hsp hs; exact hq (by simp)⟩

theorem scan_nospace (q : Bool) {s : Str} (hs : ∀ c ∈ s, space c = false) (r : Str) :
    scan q (s ++ r) = (s ++ (scan (par q s) r).1, (scan (par q s) r).2) := by
  have h : scan q s = (s, []) := scan_whole q s fun p c t e hc => by
    rw [hs c (by rw [e]; simp)] at hc; cases hc
  exact ((scan_append q s r).1 (by rw [h])).2

theorem printable_space {v : Str} (hp : Printable v) (hs : ' ' ∉ v) : ∀ c ∈ v, space c = false := by
  intro c hc
  rw [← Bool.not_eq_true, space_printable (hp c hc)]
  rintro rfl; exact hs hc

theorem par_noquote (q : Bool) {s : Str} (h : '"' ∉ s) : par q s = q := by
  rw [par_eq, List.count_eq_zero.2 h]
  cases q <;> rfl

theorem scan_safe {k v : Str} (hv : LegalValue v) (hs : KernelSafe k v) :
    scan (par false k) v = (v, []) := by
  obtain ⟨-, -, h3, h4⟩ := hs
  have hb := (par_false_iff _).2 h4
  rw [par_append, par_cons] at hb
  simp only [show ¬ '=' = '"' by decide, ↓reduceIte] at hb
  have hend : ∀ q, ' ' ∉ v → scan q v = (v, []) := by
    intro q hns
    have := scan_nospace q (printable_space hv.1 hns) []
    simpa [scan] using this
  rcases legalValue_cases hv with ⟨-, h⟩ | ⟨w, hw, rfl⟩ | ⟨u, -, -, h⟩ | ⟨u, -, -, -, h⟩
  · exact hend _ h
  · have hk : par false k = false := by
      rw [show '"' :: w ++ ['"'] = ['"'] ++ (w ++ ['"']) by simp, par_append, par_append, par_noquote _ hw]
        at hb
      revert hb
      cases par false k <;> simp [par]
    rw [hk, show '"' :: w ++ ['"'] = '"' :: (w ++ ['"']) from rfl, scan_quote, Bool.not_false,
      scan_plain true hw (by simp), scan_quote]
    simp [scan]
  · exact hend _ h
  · exact hend _ h

/-- **C12** for one pair alone. -/
theorem C12_pair_alone (k v w : Str) (hk : LegalKey k) (hv : LegalValue v) (hw : Unquoted v w)
    (hs : KernelSafe k v) : parseArgs (k ++ '=' :: v) = ([(k, some w)], none) := by
  rw [parseArgs_kv hs.1 hs.2.1 (LegalKey.no_space hk) hk.2.2, scan_safe hv hs]
  simp only
  rw [uval_unquoted hs.2.2.1 hw]
  simp [parseArgs_nil]

example := C12_pair_alone "foo".toList "\"a b\"".toList "a b".toList ⟨by decide, by decide, by decide⟩
  ⟨by decide, by rw [← innerQuote_iff (by decide)]; decide, fun _ => ⟨"a b".toList, by decide⟩⟩
  (.enclosed (w := "a b".toList)) ⟨by decide, by decide, fun _ => ⟨"a b".toList, by decide⟩, by decide⟩

/-- **C12**, exactly: for a legal pair (one that `insert` accepts if it fits), the kernel sees the key
with the value, without its enclosing quotes, and after it whatever follows, if and only if the pair is
`KernelSafe`. -/
theorem C12_pair_exact (k v w : Str) (hk : LegalKey k) (hv : LegalValue v) (hw : Unquoted v w) :
    (∀ r, parseArgs (k ++ '=' :: v ++ ' ' :: r) =
      ((k, some w) :: (parseArgs r).1, (parseArgs r).2)) ↔ KernelSafe k v := by
  constructor
  · intro H
    have h0 := H []
    have hsp := LegalKey.no_space hk
    have hk0 : k ≠ [] := by
      rintro rfl
      have hp : parseArgs ([] ++ '=' :: v ++ ' ' :: []) = parseLoop ('=' :: (v ++ [' '])) := by
        unfold parseArgs
        rw [show ([] : Str) ++ '=' :: v ++ ' ' :: [] = '=' :: (v ++ [' ']) by simp,
          skipSpaces_head (by decide)]
      rw [hp, parseLoop_step (by simp), nextArg_eq] at h0
      have hq : quotedB ('=' :: (v ++ [' '])) = false := by simp [quotedB]
      have hbd : body ('=' :: (v ++ [' '])) = '=' :: (v ++ [' ']) := by simp [body]
      have hsc : scan false ('=' :: (v ++ [' '])) = ('=' :: (scan false (v ++ [' '])).1,
          (scan false (v ++ [' '])).2) := by
        rw [scan, if_neg (by decide)]; rfl
      rw [hq, hbd, hsc] at h0
      split at h0
      · exact absurd (Prod.mk.inj h0).1 (by simp)
      · have h1 := (List.cons.inj (Prod.mk.inj h0).1).1
        simp only at h1
        rcases cutEquals_cons '=' (scan false (v ++ [' '])).1 with ⟨-, e⟩ | ⟨x, -, e⟩
        · rw [e, unquote_none] at h1; cases (Prod.mk.inj h1).2
        · rw [e, unquote_some] at h1; cases (Prod.mk.inj h1).1
    have hkq : k.head? ≠ some '"' := by
      intro hh
      cases k with
      | nil => cases hh
      | cons c k' =>
        simp only [List.head?_cons, Option.some.injEq] at hh
        subst hh
        have hp : parseArgs ('"' :: k' ++ '=' :: v ++ ' ' :: []) =
            parseLoop ('"' :: (k' ++ ['='] ++ (v ++ [' ']))) := by
          unfold parseArgs
          rw [show '"' :: k' ++ '=' :: v ++ ' ' :: [] = '"' :: (k' ++ ['='] ++ (v ++ [' '])) by simp,
            skipSpaces_head (by decide)]
        have hq : quotedB ('"' :: (k' ++ ['='] ++ (v ++ [' ']))) = true := by simp [quotedB]
        have hbd : body ('"' :: (k' ++ ['='] ++ (v ++ [' ']))) = k' ++ ['='] ++ (v ++ [' ']) := by
          simp [body]
        have hns : ∀ c ∈ k' ++ ['='], space c = false := by
          intro c hc
          rw [List.mem_append, List.mem_singleton] at hc
          rcases hc with hc | rfl
          · exact hsp c (by simp [hc])
          · decide
        rw [hp, parseLoop_step (by simp), nextArg_eq, hq, hbd, scan_nospace true hns] at h0
        split at h0
        · exact absurd (Prod.mk.inj h0).1 (by simp)
        · have h1 := (List.cons.inj (Prod.mk.inj h0).1).1
          simp only at h1
          generalize (scan (par true (k' ++ ['='])) (v ++ [' '])).1 = z at h1
          by_cases hk' : k' = []
          · subst hk'
            rw [show ([] : Str) ++ ['='] ++ z = '=' :: z by simp] at h1
            rcases cutEquals_cons '=' z with ⟨-, e⟩ | ⟨x, -, e⟩
            · rw [e, unquote_none] at h1; cases (Prod.mk.inj h1).2
            · rw [e, unquote_some] at h1
              have := (Prod.mk.inj h1).1
              simp at this
          · rw [show k' ++ ['='] ++ z = k' ++ '=' :: z by simp,
              cutEquals_kv hk' (fun h => hk.2.2 (by simp [h])), unquote_some] at h1
            have := congrArg List.length (Prod.mk.inj h1).1
            simp at this
    have hval : uval false (k ++ '=' :: (scan (par false k) (v ++ [' '])).1)
        (scan (par false k) (v ++ [' '])).1 = w := by
      rw [show k ++ '=' :: v ++ ' ' :: [] = k ++ '=' :: (v ++ [' ']) by simp,
        parseArgs_kv hk0 hkq hsp hk.2.2] at h0
      exact Option.some.inj (Prod.mk.inj (List.cons.inj (Prod.mk.inj h0).1).1).2
    have hbal : Balanced (k ++ '=' :: v) ↔ par (par false k) v = false := by
      unfold Balanced
      rw [← par_false_iff, par_append, par_cons]
      simp only [show ¬ '=' = '"' by decide, ↓reduceIte]
    have hsp1 : scan true [' '] = ([' '], []) := by simp [scan]
    -- values whose first character is no quote
    have hplain : v.head? ≠ some '"' → ' ' ∉ v → w = v → KernelSafe k v := by
      intro hh hns hwv
      refine ⟨hk0, hkq, fun h => absurd h hh, hbal.2 ?_⟩
      cases hp : par (par false k) v with
      | false => rfl
      | true =>
        rw [scan_nospace _ (printable_space hv.1 hns), hp, hsp1, hwv] at hval
        simp only at hval
        have hh' : (v ++ [' ']).head? ≠ some '"' := by
          cases v with
          | nil => simp
          | cons c v => simpa using hh
        unfold uval at hval
        rw [if_neg hh'] at hval
        have := congrArg List.length hval
        simp at this
    rcases legalValue_cases hv with ⟨hq, hns⟩ | ⟨w', hw', e⟩ | ⟨u, hu, e, hns⟩ | ⟨u, hu0, hu, e, hns⟩
    · refine hplain (fun h => hq (List.mem_of_head? h)) hns ?_
      cases hw with
      | enclosed => exact absurd (by simp) hq
      | plain _ => rfl
    · have hww : w = w' := by
        cases hw with
        | enclosed => simpa using e
        | plain h => exact absurd ⟨w', e⟩ h
      refine ⟨hk0, hkq, fun _ => ⟨w', e⟩, hbal.2 ?_⟩
      have hpar : par (par false k) v = par false k := by
        rw [e, show '"' :: w' ++ ['"'] = ['"'] ++ (w' ++ ['"']) by simp, par_append, par_append,
          par_noquote _ hw']
        cases par false k <;> rfl
      rw [hpar]
      cases hp : par false k with
      | false => rfl
      | true =>
        rw [hp, e, show '"' :: w' ++ ['"'] ++ [' '] = '"' :: (w' ++ '"' :: [' ']) by simp, scan_quote,
          Bool.not_true, hww] at hval
        simp only at hval
        by_cases hs : ' ' ∈ w'
        · obtain ⟨w1, w2, e1, hn1⟩ := List.eq_append_cons_of_mem hs
          have hp1 : Printable w1 := fun c hc => hv.1 c (by rw [e, e1]; simp [hc])
          have hq1 : '"' ∉ w1 := fun h => hw' (by rw [e1]; simp [h])
          rw [e1, show w1 ++ ' ' :: w2 ++ '"' :: [' '] = w1 ++ ' ' :: (w2 ++ '"' :: [' ']) by simp,
            scan_nospace false (printable_space hp1 hn1), par_noquote _ hq1,
            scan_ends (.inr ⟨_, rfl⟩)] at hval
          have := congrArg List.length hval
          rw [uval_length] at this
          simp at this
          omega
        · have hp1 : Printable w' := fun c hc => hv.1 c (by rw [e]; simp [hc])
          rw [scan_nospace false (printable_space hp1 hs), par_noquote _ hw', scan_quote, Bool.not_false,
            hsp1] at hval
          have := congrArg List.length hval
          rw [uval_length] at this
          simp at this
          split at this <;> omega
    · exfalso
      have hwv : w = '"' :: u := by
        cases hw with
        | enclosed =>
          simp only [List.cons_append, List.cons.injEq, true_and] at e
          exact absurd (by rw [← e]; simp) hu
        | plain _ => exact e
      have hpu : Printable u := fun c hc => hv.1 c (by rw [e]; simp [hc])
      have hnu : ' ' ∉ u := fun h => hns (by rw [e]; simp [h])
      rw [e, show '"' :: u ++ [' '] = '"' :: (u ++ [' ']) from rfl, scan_quote,
        scan_nospace _ (printable_space hpu hnu), hwv] at hval
      simp only at hval
      generalize par (!par false k) u = q at hval
      have hy : '"' ∉ (scan q [' ']).1 := by cases q <;> simp [scan, space]
      unfold uval at hval
      rw [if_pos (by simp)] at hval
      have hmem : '"' ∈ u ++ (scan q [' ']).1 := by
        have h1 : '"' ∈ '"' :: u := by simp
        rw [← hval] at h1
        split at h1
        · exact List.dropLast_subset _ h1
        · exact h1
      rw [List.mem_append] at hmem
      rcases hmem with h | h
      · exact hu h
      · exact hy h
    · refine hplain ?_ hns ?_
      · rw [e]
        cases u with
        | nil => exact absurd rfl hu0
        | cons c u => simp; rintro rfl; exact hu (by simp)
      · cases hw with
        | enclosed =>
          have : u = '"' :: w := by
            have := List.append_inj' e.symm rfl
            exact this.1
          exact absurd (by rw [this]; simp) hu
        | plain _ => rfl
  · intro hs r
    rw [parseArgs_append _ _ hs.2.2.2 (by rw [C12_pair_alone k v w hk hv hw hs]),
      C12_pair_alone k v w hk hv hw hs]
    rfl

example : KernelSafe "k".toList "\"a b\"".toList ∧ KernelSafe "a\"x".toList "b\"".toList := by
  refine ⟨⟨by decide, by decide, fun _ => ⟨"a b".toList, by decide⟩, by decide⟩, by decide, by decide,
    fun h => ?_, by decide⟩
  exact absurd h (by decide)

theorem scan_balanced {v : Str} (hv : LegalValue v) (hb : Balanced v) : scan false v = (v, []) := by
  have hs : KernelSafe ['k'] v := by
    refine ⟨by simp, by simp, fun hh => ?_, ?_⟩
    · rcases legalValue_cases hv with ⟨hq, -⟩ | ⟨w, -, e⟩ | ⟨u, hu, e, -⟩ | ⟨u, hu0, hu, e, -⟩
      · exact absurd (List.mem_of_head? hh) hq
      · exact ⟨w, e⟩
      · unfold Balanced at hb
        rw [e, List.count_cons, List.count_eq_zero.2 hu] at hb
        simp at hb
      · rw [e] at hh
        cases u with
        | nil => exact absurd rfl hu0
        | cons c u =>
          simp only [List.cons_append, List.head?_cons, Option.some.injEq] at hh
          exact absurd (by simp [hh]) hu
    · unfold Balanced at *
      simpa [List.count_cons] using hb
  exact scan_safe hv hs

theorem scan_joinCommas (vs : List Str) (hv : ∀ v ∈ vs, LegalValue v) (hb : ∀ v ∈ vs, Balanced v) :
    scan false (joinCommas vs) = (joinCommas vs, []) ∧ par false (joinCommas vs) = false := by
  induction vs with
  | nil => exact ⟨rfl, rfl⟩
  | cons v vs ih =>
    have h1 := scan_balanced (hv v (by simp)) (hb v (by simp))
    have h2 := (par_false_iff v).2 (hb v (by simp))
    obtain ⟨h3, h4⟩ := ih (fun v h => hv v (by simp [h])) (fun v h => hb v (by simp [h]))
    cases vs with
    | nil => exact ⟨h1, h2⟩
    | cons u us =>
      have h5 := ((scan_append false v (',' :: joinCommas (u :: us))).1 (by rw [h1])).2
      have h6 : scan false (',' :: joinCommas (u :: us)) = (',' :: joinCommas (u :: us), []) := by
        rw [scan, if_neg (by decide), if_neg (by decide), h3]
      rw [h2, h6] at h5
      refine ⟨h5, ?_⟩
      show par false (v ++ ',' :: joinCommas (u :: us)) = false
      rw [par_append, h2, par_cons]
      exact h4

/-- What the kernel sees of an accepted call alone. -/
theorem Arg.seen {op k v} (ha : Arg op k v) {c : Cmdline} (hok : (c.step op).2 = .ok ()) :
    ∃ t, BootText op t ∧ Balanced t ∧ parseArgs t = ([(k, some v)], none) := by
  cases ha with
  | @insert k v w hs hw =>
    rcases validKey_eq k with ⟨e, he, -⟩ | ⟨hk, -⟩
    · rw [show c.step (.insert k v) = _ from Cmdline.insert_badKey c he] at hok; cases hok
    · rcases validValue_eq v with ⟨e, he, -⟩ | ⟨hv, -⟩
      · rw [show c.step (.insert k v) = _ from Cmdline.insert_badValue c hk he] at hok; cases hok
      · exact ⟨_, .insert, hs.2.2.2, C12_pair_alone _ _ _ hk hv hw hs⟩
  | @multiple k vs w hs hb hw =>
    rcases validKey_eq k with ⟨e, he, -⟩ | ⟨hk, -⟩
    · rw [show c.step (.insertMultiple k vs) = _ from Cmdline.insertMultiple_badKey c he] at hok
      cases hok
    · by_cases hn : vs = []
      · subst hn
        rw [show c.step (.insertMultiple k []) = _ from Cmdline.insertMultiple_nil c hk] at hok
        cases hok
      · rcases Cmdline.values_cases vs with hv | ⟨us, v, ws, e, rfl, hu, hv⟩
        · refine ⟨_, .insertMultiple, hs.2.2.2, ?_⟩
          obtain ⟨h1, h2⟩ := scan_joinCommas vs hv hb
          have hk0 : par false k = false := by
            have := (par_false_iff _).2 hs.2.2.2
            rw [par_append, par_cons] at this
            simp only [show ¬ '=' = '"' by decide, ↓reduceIte] at this
            rw [par_eq] at this h2
            revert this h2
            cases par false k <;> cases decide (List.count '"' (joinCommas vs) % 2 = 1) <;> simp
          rw [parseArgs_kv hs.1 hs.2.1 (LegalKey.no_space hk) hk.2.2, hk0, h1]
          simp only
          rw [uval_unquoted hs.2.2.1 hw]
          simp [parseArgs_nil]
        · rw [show c.step (.insertMultiple k _) = _ from
            Cmdline.insertMultiple_badValue c hk hu hv] at hok
          cases hok
  | @virtio size base irq id =>
    refine ⟨_, .virtio, ?_⟩
    have hds := Cmdline.deviceStr_text size base irq id
    have hvis := Cmdline.visible_deviceStr size base irq id
    have hdq := Cmdline.quote_notMem_deviceStr size base irq id
    rw [hds] at hvis hdq
    generalize deviceText size base irq id = v at hvis hdq ⊢
    have hv : Cmdline.Visible v := fun c hc => hvis c (by simp [hc])
    have hvq : '"' ∉ v := fun h => hdq (by simp [h])
    have e : "virtio_mmio.device=".toList ++ v = "virtio_mmio.device".toList ++ '=' :: v := by
      rw [show "virtio_mmio.device=".toList = "virtio_mmio.device".toList ++ ['='] by decide]
      simp
    have hns : ' ' ∉ v := fun hs => by
      have := hv _ hs
      simp at this
    rw [e]
    have hnotenc : ¬ Enclosed v := by
      rintro ⟨w, rfl⟩; exact hvq (by simp)
    have hbal : Balanced ("virtio_mmio.device".toList ++ '=' :: v) := by
      unfold Balanced
      rw [List.count_append, List.count_cons, List.count_eq_zero.2 hvq]
      decide
    have hs : KernelSafe "virtio_mmio.device".toList v :=
      ⟨by decide, by decide, fun h => absurd (List.mem_of_head? h) hvq, hbal⟩
    refine ⟨hbal, C12_pair_alone _ _ _ (by unfold LegalKey; decide) ⟨hv.printable, ?_, ?_⟩
      (.plain hnotenc) hs⟩
    · rintro ⟨a, b, rfl, -, -⟩; exact hvq (by simp)
    · exact fun h => absurd h hns

/-- **C12, C58**, for key/value arguments: on a fresh command line make any calls; let the accepted boot
calls be `insert`, `insert_multiple` and `add_virtio_mmio_device` calls whose keys and values are
kernel-safe (`Arg`). Then the kernel's `parse_args` sees exactly the inserted parameters and values, in
order, and, after `--`, exactly the init arguments. For other pairs this is false (`C12_pair_exact`,
`C12_unbalanced_breaks`, `C12_refuted_*`). -/
theorem C12_kernel_sees_pairs (cap : UInt64) (c₀ c : Cmdline)
    (h₀ : Cmdline.new cap = .ok c₀) (ops : List Op) (pairs : List (Str × Str)) (inits : List Str)
    (hh : History c₀ ops pairs inits c) :
    parseArgs (text c.bootArgs c.initArgs) =
      (pairs.map (fun p => (p.1, some p.2)),
       if c.initArgs = [] then none else some (inits.foldl extend [])) := by
  have key : ∀ {c₀ ops pairs inits c}, History c₀ ops pairs inits c → ∃ ts, Trace c₀ ops ts inits c ∧
      (∀ t ∈ ts, Balanced t) ∧ (∀ t ∈ ts, (parseArgs t).2 = none) ∧
      ts.flatMap (fun t => (parseArgs t).1) = pairs.map fun p => (p.1, some p.2) := by
    intro c₀ ops pairs inits c hh
    induction hh with
    | nil => exact ⟨[], .nil, by simp, by simp, rfl⟩
    | rejected hr _ ih =>
      obtain ⟨ts, h1, h2⟩ := ih
      exact ⟨ts, .rejected hr h1, h2⟩
    | boot hr ha _ ih =>
      obtain ⟨ts, h1, h2, h3, h4⟩ := ih
      obtain ⟨t, hb, hq, hp⟩ := Arg.seen ha hr
      refine ⟨t :: ts, .boot hr hb h1, ?_, ?_, ?_⟩
      · intro t' ht'
        rcases List.mem_cons.1 ht' with rfl | ht'
        · exact hq
        · exact h2 t' ht'
      · intro t' ht'
        rcases List.mem_cons.1 ht' with rfl | ht'
        · rw [hp]
        · exact h3 t' ht'
      · rw [List.flatMap_cons, hp, h4]; rfl
    | init hr hi _ ih =>
      obtain ⟨ts, h1, h2⟩ := ih
      exact ⟨ts, .init hr hi h1, h2⟩
  obtain ⟨ts, h1, h2, h3, h4⟩ := key hh
  rw [C12_kernel_composes cap c₀ c h₀ ops ts inits h1 h2 h3, h4]

example : History ⟨[], [], 100⟩
    [.insert "k".toList "\"a b\"".toList, .insertInitArgs "i".toList] [("k".toList, "a b".toList)]
    ["i".toList] ⟨"k=\"a b\"".toList, "i".toList, 100⟩ := by
  refine .boot (by decide) (.insert (k := "k".toList) (v := "\"a b\"".toList) (w := "a b".toList)
    ⟨by decide, by decide, fun _ => ⟨"a b".toList, by decide⟩, by decide⟩
    (.enclosed (w := "a b".toList))) (.init (t := "i".toList) (by decide) (.insertInitArgs ?_) ?_)
  · exact ⟨[], [], by decide, by decide, by decide, by decide, by decide⟩
  · have : (((⟨[], [], 100⟩ : Cmdline).step (.insert "k".toList "\"a b\"".toList)).1.step
      (.insertInitArgs "i".toList)).1 = ⟨"k=\"a b\"".toList, "i".toList, 100⟩ := by decide
    exact this ▸ .nil

/-- The full **C12** is false of the code: a key with a quote is accepted and makes the kernel join
two arguments. -/
theorem C12_refuted_key : ∃ c d, (c = (⟨[], [], 100⟩ : Cmdline)) ∧
    d = ((c.insert "a\"b".toList "1".toList).1.insert "c".toList "2".toList).1 ∧
    ((c.insert "a\"b".toList "1".toList).1.insert "c".toList "2".toList).2 = .ok () ∧
    parseArgs d.bootArgs = ([("a\"b".toList, some "1 c=2".toList)], none) :=
  ⟨_, _, rfl, rfl, by decide, by decide +kernel⟩

/-- ... a value with one unbalanced quote is accepted and swallows the next argument, ... -/
theorem C12_refuted_value : ∃ c d, (c = (⟨[], [], 100⟩ : Cmdline)) ∧
    d = ((c.insert "a".toList "\"".toList).1.insert "c".toList "2".toList).1 ∧
    ((c.insert "a".toList "\"".toList).1.insert "c".toList "2".toList).2 = .ok () ∧
    parseArgs d.bootArgs = ([("a".toList, some " c=2".toList)], none) :=
  ⟨_, _, rfl, rfl, by decide, by decide +kernel⟩

/-- ... and an empty key is accepted, and the kernel sees a parameter without value. -/
theorem C12_refuted_empty_key : ∃ c d, (c = (⟨[], [], 100⟩ : Cmdline)) ∧
    d = (c.insert [] "1".toList).1 ∧ (c.insert [] "1".toList).2 = .ok () ∧
    parseArgs d.bootArgs = ([("=1".toList, none)], none) :=
  ⟨_, _, rfl, rfl, by decide, by decide +kernel⟩

/-- **C58** fails with unbalanced quotes in the same way: the kernel then misses the `--`. -/
theorem C58_refuted_value : ∃ c, (c = ((⟨[], [], 100⟩ : Cmdline).run
      [.insert "a".toList "\"b".toList, .insertInitArgs "i".toList])) ∧
    c.asCString = .ok (Str.utf8 "a=\"b -- i".toList) ∧
    parseArgs (text c.bootArgs c.initArgs) = ([("a".toList, some "b -- i".toList)], none) :=
  ⟨_, rfl, by decide, by decide +kernel⟩

/-- **C13.** `add_virtio_mmio_device` rejects size 0; otherwise it fails exactly when the line does
not fit; on success it appends a `virtio_mmio.device=` argument which the kernel's grammar decodes to
exactly the requested size, base, irq and id. -/
theorem C13_virtio (c : Cmdline) (h : Reachable c) (size base : UInt64) (irq : UInt32)
    (id : Option UInt32) :
    (size = 0 → c.addVirtioMmioDevice size base irq id = (c, .err .mmioSize)) ∧
    (size ≠ 0 → ∃ v, parseDevice v = some (size.toNat, base.toNat, irq.toNat, id.map UInt32.toNat) ∧
      c.addVirtioMmioDevice size base irq id =
        if Fits (extend c.bootArgs ("virtio_mmio.device=".toList ++ v)) c.initArgs c.capacity then
          ({ c with bootArgs := extend c.bootArgs ("virtio_mmio.device=".toList ++ v) }, .ok ())
        else (c, .err .tooLarge)) := by
  constructor
  · intro hs; rw [addVirtio_eq h.inv, if_pos hs]
  · intro hs
    obtain ⟨v, hv, hp⟩ := parseDevice_deviceStr size base irq id hs
    refine ⟨v, hp, ?_⟩
    rw [addVirtio_eq h.inv, if_neg hs, hv]
    rfl

example : ((⟨[], [], 100⟩ : Cmdline).addVirtioMmioDevice 0x1000 0x1000 5 (some 42)).1.bootArgs
    = "virtio_mmio.device=4K@0x1000:5:42".toList := by decide +kernel

/-- **C13**, the text: the argument appended is `virtio_mmio.device=<size>@0x<base>:<irq>[:<id>]`, the size with the
largest of the suffixes `G`, `M`, `K` that divides it, and the kernel's grammar reads that text as the request. -/
theorem C13_text (c : Cmdline) (h : Reachable c) (size base : UInt64) (irq : UInt32) (id : Option UInt32)
    (hs : size ≠ 0) :
    (c.addVirtioMmioDevice size base irq id =
      if Fits (extend c.bootArgs ("virtio_mmio.device=".toList ++ deviceText size base irq id)) c.initArgs c.capacity then
        ({ c with bootArgs := extend c.bootArgs ("virtio_mmio.device=".toList ++ deviceText size base irq id) }, .ok ())
      else (c, .err .tooLarge)) ∧
    parseDevice (deviceText size base irq id) =
      some (size.toNat, base.toNat, irq.toNat, id.map UInt32.toNat) := by
  refine ⟨?_, parseDevice_deviceText size base irq id hs⟩
  rw [addVirtio_eq h.inv, if_neg hs, Cmdline.deviceStr_text]
  rfl

example : deviceText 0x100000 0xfee0_0000 11 none = "1M@0xfee00000:11".toList ∧
    deviceText 1536 0x1000 5 (some 42) = "1536@0x1000:5:42".toList := by decide +kernel

/-- **C13**, uniqueness: two accepted calls on the same command line that leave the same line were for the same
device. -/
theorem C13_injective (c : Cmdline) (h : Reachable c) (size size' base base' : UInt64) (irq irq' : UInt32)
    (id id' : Option UInt32)
    (hok : (c.addVirtioMmioDevice size base irq id).2 = .ok ())
    (hok' : (c.addVirtioMmioDevice size' base' irq' id').2 = .ok ())
    (he : (c.addVirtioMmioDevice size base irq id).1.bootArgs =
      (c.addVirtioMmioDevice size' base' irq' id').1.bootArgs) :
    size = size' ∧ base = base' ∧ irq = irq' ∧ id = id' := by
  have nz : ∀ {size base irq id}, (c.addVirtioMmioDevice size base irq id).2 = .ok () → size ≠ 0 := by
    rintro size base irq id hok rfl
    rw [(C13_virtio c h 0 base irq id).1 rfl] at hok
    cases hok
  have hs := nz hok
  have hs' := nz hok'
  obtain ⟨e, hp⟩ := C13_text c h size base irq id hs
  obtain ⟨e', hp'⟩ := C13_text c h size' base' irq' id' hs'
  rw [e] at hok he
  rw [e'] at hok' he
  by_cases hf : Fits (extend c.bootArgs ("virtio_mmio.device=".toList ++ deviceText size base irq id)) c.initArgs
      c.capacity
  case neg => rw [if_neg hf] at hok; cases hok
  by_cases hf' : Fits (extend c.bootArgs ("virtio_mmio.device=".toList ++ deviceText size' base' irq' id'))
      c.initArgs c.capacity
  case neg => rw [if_neg hf'] at hok'; cases hok'
  rw [if_pos hf, if_pos hf'] at he
  have ht : deviceText size base irq id = deviceText size' base' irq' id' := by
    simp only [extend] at he
    split at he
    · exact List.append_cancel_left he
    · exact List.append_cancel_left (List.cons.inj (List.append_cancel_left he)).2
  rw [ht, hp'] at hp
  simp only [Option.some.injEq, Prod.mk.injEq] at hp
  obtain ⟨h1, h2, h3, h4⟩ := hp
  refine ⟨(UInt64.toNat_inj.1 h1).symm, (UInt64.toNat_inj.1 h2).symm, (UInt32.toNat_inj.1 h3).symm, ?_⟩
  cases id <;> cases id' <;> simp at h4
  · rfl
  · rw [UInt32.toNat_inj.1 h4]

example : Reachable ⟨[], [], 100⟩ ∧
    ((⟨[], [], 100⟩ : Cmdline).addVirtioMmioDevice 0x1000 0x1000 5 (some 42)).2 = .ok () :=
  ⟨.new (cap := 100) (by decide +kernel), by decide +kernel⟩

end LinuxLoader
