import Verif.Lemmas.Kernel

/-! # The kernel's tokeniser on concatenated command lines -/

namespace LinuxLoader
open Spec Spec.Kernel

/-- Quote state after reading `s`. -/
def par (q : Bool) (s : Str) : Bool := s.foldl (fun q c => if c = '"' then !q else q) q

theorem par_nil (q : Bool) : par q [] = q := rfl
theorem par_cons (q : Bool) (c : Char) (s : Str) : par q (c :: s) = par (if c = '"' then !q else q) s := rfl
theorem par_append (q : Bool) (s t : Str) : par q (s ++ t) = par (par q s) t := by
  simp [par, List.foldl_append]

theorem par_eq (q : Bool) (s : Str) : par q s = (q != decide (s.count '"' % 2 = 1)) := by
  induction s generalizing q with
  | nil => cases q <;> rfl
  | cons c s ih =>
    rw [par_cons, ih, List.count_cons]
    by_cases hc : c = '"'
    · subst hc
      have : (List.count '"' s + 1) % 2 = 1 ↔ ¬ List.count '"' s % 2 = 1 := by omega
      simp only [beq_self_eq_true, ↓reduceIte, this]
      cases q <;> by_cases h : List.count '"' s % 2 = 1 <;> simp [h]
    · simp [hc]

theorem par_false_iff (s : Str) : par false s = false ↔ s.count '"' % 2 = 0 := by
  rw [par_eq]
  by_cases h : s.count '"' % 2 = 1
  · simp [h]
  · simp [h]; omega

theorem space_ne_quote {c : Char} (h : space c = true) : c ≠ '"' := by
  rintro rfl; revert h; decide

/-- What `scan` does, and on a longer line. -/
theorem scan_append (q : Bool) (A X : Str) :
    ((scan q A).2 = [] → (scan q A).1 = A ∧
      scan q (A ++ X) = (A ++ (scan (par q A) X).1, (scan (par q A) X).2)) ∧
    ((scan q A).2 ≠ [] → scan q (A ++ X) = ((scan q A).1, (scan q A).2 ++ X) ∧
      par false (scan q A).2.tail = par q A) := by
  fun_induction scan q A with
  | case1 q => simp [par_nil]
  | case2 q c r h =>
    simp only [Bool.and_eq_true, Bool.not_eq_true'] at h
    obtain ⟨h1, rfl⟩ := h
    refine ⟨fun h => (nomatch h), fun _ => ⟨?_, ?_⟩⟩
    · rw [List.cons_append, scan]; simp [h1]
    · simp [par_cons, space_ne_quote h1]
  | case3 q c r h t r' e ih =>
    simp only [e] at ih
    have hc : scan q (c :: r ++ X) = (c :: (scan (if c = '"' then !q else q) (r ++ X)).1,
        (scan (if c = '"' then !q else q) (r ++ X)).2) := by
      rw [List.cons_append, scan, if_neg h]
    refine ⟨fun hr => ?_, fun hr => ?_⟩
    · obtain ⟨h1, h2⟩ := ih.1 hr
      refine ⟨by simp only [h1], ?_⟩
      rw [hc, h2, par_cons]; rfl
    · obtain ⟨h1, h2⟩ := ih.2 hr
      exact ⟨by rw [hc, h1], by rw [par_cons]; exact h2⟩

theorem skipSpaces_append (s R : Str) : skipSpaces (s ++ ' ' :: R) =
    if skipSpaces s = [] then skipSpaces R else skipSpaces s ++ ' ' :: R := by
  induction s with
  | nil => simp [skipSpaces, show space ' ' = true by decide]
  | cons c s ih =>
    unfold skipSpaces at *
    by_cases hc : space c = true
    · simp only [List.cons_append, List.dropWhile_cons, hc, ↓reduceIte]; exact ih
    · simp [hc]

theorem par_skipSpaces (s : Str) : par false (skipSpaces s) = par false s := by
  induction s with
  | nil => rfl
  | cons c s ih =>
    unfold skipSpaces at *
    by_cases hc : space c = true
    · rw [List.dropWhile_cons, if_pos hc, ih, par_cons, if_neg (space_ne_quote hc)]
    · rw [List.dropWhile_cons, if_neg hc]

/-- The scanned part of `next_arg`. -/
def body (A : Str) : Str := if A.head? = some '"' then A.tail else A
def quotedB (A : Str) : Bool := decide (A.head? = some '"')

theorem nextArg_eq (A : Str) : nextArg A =
    (unquote (quotedB A) (scan (quotedB A) (body A)).1 (cutEquals (scan (quotedB A) (body A)).1),
      skipSpaces (scan (quotedB A) (body A)).2.tail) := by
  unfold nextArg quotedB body; rfl

theorem body_append {A : Str} (h : A ≠ []) (X : Str) :
    body (A ++ X) = body A ++ X ∧ quotedB (A ++ X) = quotedB A := by
  cases A with
  | nil => exact absurd rfl h
  | cons c A =>
    unfold body quotedB
    by_cases hc : c = '"' <;> simp [hc]

theorem par_body (A : Str) : par (quotedB A) (body A) = par false A := by
  cases A with
  | nil => rfl
  | cons c A =>
    unfold body quotedB
    by_cases hc : c = '"' <;> simp [hc, par_cons]

/-- `next_arg` on a longer line. -/
theorem nextArg_append {A : Str} (h : A ≠ []) (R : Str) :
    (∃ s, s ≠ [] ∧ par false s = par false A ∧ nextArg A = ((nextArg A).1, s) ∧
      nextArg (A ++ ' ' :: R) = ((nextArg A).1, s ++ ' ' :: R)) ∨
    (nextArg A).2 = [] ∧ (par false A = false → nextArg (A ++ ' ' :: R) = ((nextArg A).1, skipSpaces R)) ∧
      (par false A = true → ∃ x, (nextArg (A ++ ' ' :: R)).1 = unquote (quotedB A) (body A ++ ' ' :: x)
        (cutEquals (body A ++ ' ' :: x)) ∧
        (nextArg A).1 = unquote (quotedB A) (body A) (cutEquals (body A))) := by
  obtain ⟨h1, h2⟩ := body_append h (' ' :: R)
  obtain ⟨s1, s2⟩ := scan_append (quotedB A) (body A) (' ' :: R)
  rw [nextArg_eq (A ++ ' ' :: R), h1, h2, nextArg_eq A]
  by_cases hr : (scan (quotedB A) (body A)).2 = []
  · obtain ⟨e1, e2⟩ := s1 hr
    right
    rw [hr, e1, e2, par_body]
    refine ⟨rfl, fun hp => ?_, fun hp => ?_⟩
    · have : scan false (' ' :: R) = ([], ' ' :: R) := scan_ends (.inr ⟨R, rfl⟩)
      simp [hp, this]
    · rw [hp]
      have : scan true (' ' :: R) = (' ' :: (scan true R).1, (scan true R).2) := by
        rw [scan]; simp
      rw [this]
      exact ⟨_, rfl, rfl⟩
  · obtain ⟨e1, e2⟩ := s2 hr
    rw [par_body] at e2
    have ht : ((scan (quotedB A) (body A)).2 ++ ' ' :: R).tail =
        (scan (quotedB A) (body A)).2.tail ++ ' ' :: R := by
      cases hh : (scan (quotedB A) (body A)).2 with
      | nil => exact absurd hh hr
      | cons c s => rfl
    rw [e1]
    simp only [ht, skipSpaces_append]
    by_cases hs : skipSpaces (scan (quotedB A) (body A)).2.tail = []
    · right
      rw [if_pos hs, hs]
      refine ⟨rfl, fun _ => rfl, fun hp => ?_⟩
      rw [← e2, ← par_skipSpaces, hs] at hp
      cases hp
    · left
      rw [if_neg hs]
      exact ⟨_, hs, by rw [par_skipSpaces, e2], rfl, rfl⟩

theorem parseLoop_step {A : Str} (h : A ≠ []) : parseLoop A =
    if (nextArg A).1 = (['-', '-'], none) then ([], some (nextArg A).2)
    else ((nextArg A).1 :: (parseLoop (nextArg A).2).1, (parseLoop (nextArg A).2).2) := by
  rw [parseLoop, if_neg h]

theorem parseLoop_append (R : Str) (n : Nat) (A : Str) (hn : A.length ≤ n) (hA : A ≠ [])
    (hp : par false A = false) (hd : (parseLoop A).2 = none) :
    parseLoop (A ++ ' ' :: R) =
      ((parseLoop A).1 ++ (parseLoop (skipSpaces R)).1, (parseLoop (skipSpaces R)).2) := by
  induction n generalizing A with
  | zero => exact absurd (List.eq_nil_of_length_eq_zero (by omega)) hA
  | succ n ih =>
    have hA' : A ++ ' ' :: R ≠ [] := by simp
    rw [parseLoop_step hA] at hd
    by_cases hdd : (nextArg A).1 = (['-', '-'], none)
    · rw [if_pos hdd] at hd; cases hd
    rw [if_neg hdd] at hd
    rw [parseLoop_step hA', parseLoop_step hA, if_neg hdd]
    rcases nextArg_append hA R with ⟨s, hs, hps, e1, e2⟩ | ⟨e1, e2, -⟩
    · rw [e2]
      simp only
      rw [if_neg hdd]
      have hlen := nextArg_length A hA
      rw [e1] at hlen hd ⊢
      simp only at hlen hd ⊢
      rw [ih s (by omega) hs (by rw [hps, hp]) hd]
      rfl
    · rw [e2 hp]
      simp only
      rw [if_neg hdd, e1, parseLoop_nil]
      rfl

theorem parseArgs_append (A R : Str) (hp : A.count '"' % 2 = 0) (hd : (parseArgs A).2 = none) :
    parseArgs (A ++ ' ' :: R) = ((parseArgs A).1 ++ (parseArgs R).1, (parseArgs R).2) := by
  unfold parseArgs at *
  rw [skipSpaces_append]
  by_cases h : skipSpaces A = []
  · rw [if_pos h, h, parseLoop_nil]; rfl
  · rw [if_neg h]
    exact parseLoop_append R _ _ (Nat.le_refl _) h (by rw [par_skipSpaces]; exact (par_false_iff A).2 hp) hd

theorem endsQuoted_ext {t x : Str} (h : endsQuoted (t ++ ' ' :: x) = true) : x ≠ [] := by
  rintro rfl
  simp [endsQuoted] at h

theorem cutEquals_cons (c : Char) (t : Str) :
    (t.dropWhile (· != '=') = [] ∧ cutEquals (c :: t) = (c :: t, none)) ∨
    ∃ v, t.dropWhile (· != '=') = '=' :: v ∧ cutEquals (c :: t) = (c :: t.takeWhile (· != '='), some v) := by
  cases h : t.dropWhile (· != '=') with
  | nil => exact .inl ⟨rfl, by simp only [cutEquals, h]⟩
  | cons d v =>
    right
    have := List.head?_dropWhile_not (p := (· != '=')) t
    rw [h] at this
    simp at this
    subst this
    exact ⟨v, rfl, by simp only [cutEquals, h]⟩

theorem dropLast_if_length (b : Bool) (l : Str) :
    (if b = true then l.dropLast else l).length = l.length - if b then 1 else 0 := by
  cases b <;> simp

/-- The value part of `unquote`. -/
def uval (q : Bool) (t v : Str) : Str :=
  if v.head? = some '"' then (if endsQuoted t = true then v.tail.dropLast else v.tail)
  else (if (q && endsQuoted t) = true then v.dropLast else v)

theorem unquote_some (q : Bool) (t p v : Str) : unquote q t (p, some v) = (p, some (uval q t v)) := by
  unfold unquote uval
  simp only
  split <;> rfl

theorem unquote_none (q : Bool) (t p : Str) :
    unquote q t (p, none) = (if (q && endsQuoted t) = true then p.dropLast else p, none) := rfl

theorem uval_length (q : Bool) (t v : Str) : (uval q t v).length =
    v.length - (if v.head? = some '"' then 1 else 0) -
      (if ((v.head? = some '"') || q) && endsQuoted t then 1 else 0) := by
  unfold uval
  by_cases h : v.head? = some '"'
  · rw [if_pos h, dropLast_if_length]; simp [h]
  · rw [if_neg h, dropLast_if_length]; simp [h]

/-- Appending a space and more to an unfinished token changes what the kernel sees. -/
theorem unquote_ne (q : Bool) (t x : Str) :
    unquote q (t ++ ' ' :: x) (cutEquals (t ++ ' ' :: x)) ≠ unquote q t (cutEquals t) := by
  intro he
  have hlast := fun h => List.length_pos_iff.2 (@endsQuoted_ext t x h)
  cases t with
  | nil =>
    have h0 : unquote q [] (cutEquals []) = ([], none) := by
      simp [cutEquals, unquote]
    rw [h0, List.nil_append] at he
    rw [List.nil_append] at hlast
    rcases cutEquals_cons ' ' x with ⟨-, e⟩ | ⟨v, -, e⟩
    · rw [e, unquote_none] at he
      have hl := congrArg List.length (Prod.mk.inj he).1
      rw [dropLast_if_length] at hl
      simp only [List.length_cons, List.length_nil] at hl
      cases hq : endsQuoted (' ' :: x) with
      | false => simp [hq] at hl
      | true =>
        have := hlast hq
        split at hl <;> omega
    · rw [e, unquote_some] at he
      cases he
  | cons c u =>
    rw [List.cons_append] at he hlast
    rcases cutEquals_cons c u with ⟨hd, e⟩ | ⟨v, hd, e⟩
    · rw [e, unquote_none] at he
      rcases cutEquals_cons c (u ++ ' ' :: x) with ⟨-, e'⟩ | ⟨v, -, e'⟩
      · rw [e', unquote_none] at he
        have hl := congrArg List.length (Prod.mk.inj he).1
        rw [dropLast_if_length, dropLast_if_length] at hl
        simp only [List.length_cons, List.length_append] at hl
        cases hq : endsQuoted (c :: (u ++ ' ' :: x)) with
        | false => simp [hq] at hl; omega
        | true =>
          have := hlast hq
          split at hl <;> split at hl <;> omega
      · rw [e', unquote_some] at he
        cases (Prod.mk.inj he).2
    · rw [e, unquote_some] at he
      have hd' : (u ++ ' ' :: x).dropWhile (· != '=') = '=' :: (v ++ ' ' :: x) := by
        rw [List.dropWhile_append, hd]; simp
      rcases cutEquals_cons c (u ++ ' ' :: x) with ⟨h0, -⟩ | ⟨v', hv', e'⟩
      · rw [hd'] at h0; cases h0
      rw [hd'] at hv'
      cases hv'
      rw [e', unquote_some] at he
      have hl := congrArg List.length (Option.some.inj (Prod.mk.inj he).2)
      rw [uval_length, uval_length] at hl
      have hhead : (v ++ ' ' :: x).head? = some '"' → v.head? = some '"' := by
        cases v <;> simp
      simp only [List.length_append, List.length_cons] at hl
      by_cases hh : (v ++ ' ' :: x).head? = some '"'
      · rw [if_pos hh, if_pos (hhead hh)] at hl
        have hv : 0 < v.length := by cases v <;> simp at hh ⊢
        cases hq : endsQuoted (c :: (u ++ ' ' :: x)) with
        | false => simp [hq] at hl; omega
        | true =>
          have := hlast hq
          split at hl <;> split at hl <;> omega
      · rw [if_neg hh] at hl
        cases hq : endsQuoted (c :: (u ++ ' ' :: x)) with
        | false => simp [hq] at hl; omega
        | true =>
          have := hlast hq
          split at hl <;> split at hl <;> omega

theorem parseLoop_append_ne (R : Str) (X : List (Str × Option Str) × Option Str) (n : Nat) (A : Str)
    (hn : A.length ≤ n) (hA : A ≠ []) (hp : par false A = true) (hd : (parseLoop A).2 = none) :
    parseLoop (A ++ ' ' :: R) ≠ ((parseLoop A).1 ++ X.1, X.2) := by
  induction n generalizing A with
  | zero => exact absurd (List.eq_nil_of_length_eq_zero (by omega)) hA
  | succ n ih =>
    have hA' : A ++ ' ' :: R ≠ [] := by simp
    rw [parseLoop_step hA] at hd
    by_cases hdd : (nextArg A).1 = (['-', '-'], none)
    · rw [if_pos hdd] at hd; cases hd
    rw [if_neg hdd] at hd
    rw [parseLoop_step hA', parseLoop_step hA, if_neg hdd]
    rcases nextArg_append hA R with ⟨s, hs, hps, e1, e2⟩ | ⟨-, -, e2⟩
    · rw [e2]
      simp only
      rw [if_neg hdd]
      have hlen := nextArg_length A hA
      rw [e1] at hlen hd ⊢
      simp only at hlen hd ⊢
      intro he
      have h1 := (List.cons.inj (Prod.mk.inj he).1).2
      exact ih s (by omega) hs (by rw [hps, hp]) hd (Prod.ext h1 (Prod.mk.inj he).2)
    · obtain ⟨x, h1, h2⟩ := e2 hp
      intro he
      split at he
      · exact absurd (Prod.mk.inj he).1 (by simp)
      · have := (List.cons.inj (Prod.mk.inj he).1).1
        rw [h1, h2] at this
        exact unquote_ne _ _ _ this

theorem parseArgs_append_ne (A R : Str) (X : List (Str × Option Str) × Option Str)
    (hp : A.count '"' % 2 = 1) (hd : (parseArgs A).2 = none) :
    parseArgs (A ++ ' ' :: R) ≠ ((parseArgs A).1 ++ X.1, X.2) := by
  have hpar : par false (skipSpaces A) = true := by
    rw [par_skipSpaces, par_eq]; simp [hp]
  unfold parseArgs at *
  rw [skipSpaces_append]
  by_cases h : skipSpaces A = []
  · rw [h] at hpar; cases hpar
  · rw [if_neg h]
    exact parseLoop_append_ne R X _ _ (Nat.le_refl _) h hpar hd

theorem parseArgs_nil : parseArgs [] = ([], none) := by
  unfold parseArgs; exact parseLoop_nil

theorem extend_count (A t : Str) (hA : A.count '"' % 2 = 0) (ht : t.count '"' % 2 = 0) :
    (extend A t).count '"' % 2 = 0 := by
  unfold extend
  split
  · exact ht
  · rw [List.count_append, List.count_cons]
    simp; omega

/-- What the kernel sees in a line built from several arguments. -/
theorem parseArgs_foldl (ts : List Str) (hq : ∀ t ∈ ts, t.count '"' % 2 = 0)
    (hd : ∀ t ∈ ts, (parseArgs t).2 = none) (A : Str) (hA : A.count '"' % 2 = 0)
    (hdA : (parseArgs A).2 = none) :
    (ts.foldl extend A).count '"' % 2 = 0 ∧
    parseArgs (ts.foldl extend A) = ((parseArgs A).1 ++ ts.flatMap fun t => (parseArgs t).1, none) := by
  induction ts generalizing A with
  | nil => exact ⟨hA, Prod.ext (by simp) hdA⟩
  | cons t ts ih =>
    have hE : parseArgs (extend A t) = ((parseArgs A).1 ++ (parseArgs t).1, none) := by
      unfold extend
      split
      · rename_i h
        rw [h, parseArgs_nil]
        exact Prod.ext (by simp) (hd t (by simp))
      · rw [parseArgs_append A t hA hdA, hd t (by simp)]
    obtain ⟨h1, h2⟩ := ih (fun t h => hq t (by simp [h])) (fun t h => hd t (by simp [h])) (extend A t)
      (extend_count A t hA (hq t (by simp))) (by rw [hE])
    refine ⟨h1, ?_⟩
    rw [List.foldl_cons, h2, hE]
    simp

theorem foldl_extend_head (is : List Str) (h : ∀ t ∈ is, ∀ x, t.head? = some x → ¬ Blank x) (A : Str)
    (hA : ∀ x, A.head? = some x → ¬ Blank x) :
    ∀ x, (is.foldl extend A).head? = some x → ¬ Blank x := by
  induction is generalizing A with
  | nil => exact hA
  | cons t is ih =>
    refine ih (fun t' h' => h t' (by simp [h'])) (extend A t) ?_
    unfold extend
    split
    · exact h t (by simp)
    · intro x hx
      cases A with
      | nil => exact absurd rfl ‹_›
      | cons a A => exact hA x (by simpa using hx)

/-- A line which is one word for the kernel. -/
theorem scan_whole (q : Bool) (t : Str)
    (h : ∀ p c s, t = p ++ c :: s → space c = true → par q p = true) : scan q t = (t, []) := by
  induction t generalizing q with
  | nil => rfl
  | cons c t ih =>
    have hc : ¬ (space c && !q) = true := by
      intro hc
      simp only [Bool.and_eq_true, Bool.not_eq_true'] at hc
      have := h [] c t rfl hc.1
      rw [par_nil, hc.2] at this
      cases this
    rw [scan, if_neg hc, ih]
    intro p d s e hd
    exact h (c :: p) d s (by rw [e]; rfl) hd

/-- No double quote occurs in the device text. -/
theorem Cmdline.quote_notMem_deviceStr (size base : UInt64) (irq : UInt32) (id : Option UInt32) :
    '"' ∉ Cmdline.deviceStr size base irq id := by
  have hdec : ∀ n, '"' ∉ Cmdline.decStr n := fun n hm => by
    have := Cmdline.decStr_digits n _ hm; simp at this
  have hhex : ∀ n, '"' ∉ Cmdline.hexStr n := fun n hm => by
    have := Cmdline.hexStr_mem n _ hm; revert this; decide
  have hsz : '"' ∉ Cmdline.guestusizeToStr size := by
    unfold Cmdline.guestusizeToStr
    dsimp only
    repeat' split
    all_goals simp [hdec]
  have hpre : '"' ∉ Cmdline.virtioPrefix := by decide
  unfold Cmdline.deviceStr
  dsimp only
  cases id <;> simp [hdec, hhex, hsz, hpre]

end LinuxLoader
