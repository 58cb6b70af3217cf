import Verif.Model.Debug
import Verif.Lemmas.Kernel

/-! # Texts that can be read back: helper lemmas for C111 -/

namespace LinuxLoader
open Spec.Kernel

/-- The text does not begin with a digit. -/
def NoDigit (x : Str) : Prop := ∀ c, x.head? = some c → isDigitIn 10 c = false

/-- A way to write values such that the value and the text behind it can be read back, unless that text begins
with a digit. -/
def Code {α : Type} (f : α → Str) : Prop :=
  ∀ a b x y, NoDigit x → NoDigit y → f a ++ x = f b ++ y → a = b ∧ x = y

theorem NoDigit.cons {c : Char} {r : Str} (h : isDigitIn 10 c = false) : NoDigit (c :: r) := head_cons h
theorem NoDigit.nil : NoDigit [] := by intro c h; cases h

theorem Code.inj {α : Type} {f : α → Str} (h : Code f) {a b : α} (e : f a = f b) : a = b :=
  (h a b [] [] .nil .nil (by rw [e])).1

theorem code_decStr : Code Cmdline.decStr := by
  intro a b x y hx hy e
  have h1 := decimal_decStr a x hx
  rw [e, decimal_decStr b y hy] at h1
  simp only [Option.some.injEq, Prod.mk.injEq] at h1
  exact ⟨h1.1.symm, h1.2.symm⟩

theorem hex_inj {a b : Nat} {x y : Str}
    (e : Cmdline.hexStr a ++ '}' :: x = Cmdline.hexStr b ++ '}' :: y) : a = b ∧ x = y := by
  have h1 := number_toDigits (b := 16) (by omega) (by omega) a ('}' :: x) (head_cons (by decide))
  have h2 := number_toDigits (b := 16) (by omega) (by omega) b ('}' :: y) (head_cons (by decide))
  unfold Cmdline.hexStr at e
  rw [e, h2] at h1
  simp only [Prod.mk.injEq, List.cons.injEq, true_and] at h1
  exact ⟨h1.1.symm, h1.2.symm⟩

theorem hexStr_ne_nil (n : Nat) : Cmdline.hexStr n ≠ [] := Nat.toDigits_ne_nil

/-- The kinds of escaped characters. -/
theorem escape_cases (U : CharTables) (c : Char) :
    (U.escapeDebug c = ['\\', '0'] ∧ c = '\x00') ∨ (U.escapeDebug c = ['\\', 't'] ∧ c = '\t') ∨
    (U.escapeDebug c = ['\\', 'r'] ∧ c = '\r') ∨ (U.escapeDebug c = ['\\', 'n'] ∧ c = '\n') ∨
    (U.escapeDebug c = ['\\', '"'] ∧ c = '"') ∨ (U.escapeDebug c = ['\\', '\\'] ∧ c = '\\') ∨
    U.escapeDebug c = '\\' :: 'u' :: '{' :: (Cmdline.hexStr c.toNat ++ ['}']) ∨
    (U.escapeDebug c = [c] ∧ c ≠ '"' ∧ c ≠ '\\' ∧ U.isPrintable c = true) := by
  unfold CharTables.escapeDebug
  repeat' split
  all_goals simp_all [escapeUnicode]

theorem escape_inj (U : CharTables) (c d : Char) (x y : Str)
    (e : U.escapeDebug c ++ x = U.escapeDebug d ++ y) : c = d ∧ x = y := by
  rcases escape_cases U c with ⟨h, hc⟩ | ⟨h, hc⟩ | ⟨h, hc⟩ | ⟨h, hc⟩ | ⟨h, hc⟩ | ⟨h, hc⟩ | h | ⟨h, hc, hc', -⟩ <;>
  rcases escape_cases U d with ⟨k, hd⟩ | ⟨k, hd⟩ | ⟨k, hd⟩ | ⟨k, hd⟩ | ⟨k, hd⟩ | ⟨k, hd⟩ | k | ⟨k, hd, hd', -⟩ <;>
  rw [h, k] at e <;> simp only [List.cons_append, List.nil_append, List.append_assoc, List.cons.injEq, true_and] at e
  all_goals first
    | (subst hc hd; exact ⟨rfl, e⟩)
    | (exact absurd e.1 (by decide))
    | (exact absurd e.1 hc')
    | (exact absurd e.1.symm hd')
    | (have := hex_inj e; exact ⟨Char.ext (UInt32.toNat_inj.1 this.1), this.2⟩)
    | exact e

/-- No escape begins with a double quote. -/
theorem escape_head (U : CharTables) (c : Char) : ∃ a r, U.escapeDebug c = a :: r ∧ a ≠ '"' := by
  rcases escape_cases U c with ⟨h, -⟩ | ⟨h, -⟩ | ⟨h, -⟩ | ⟨h, -⟩ | ⟨h, -⟩ | ⟨h, -⟩ | h | ⟨h, hc, -⟩
  all_goals first
    | exact ⟨_, _, h, by decide⟩
    | exact ⟨_, _, h, hc⟩

theorem escapes_inj (U : CharTables) : ∀ (s t : Str) (x y : Str),
    s.flatMap U.escapeDebug ++ '"' :: x = t.flatMap U.escapeDebug ++ '"' :: y → s = t ∧ x = y
  | [], [], x, y, e => by simpa using e
  | [], d :: t, x, y, e => by
    obtain ⟨a, r, h, ha⟩ := escape_head U d
    simp only [List.flatMap_nil, List.nil_append, List.flatMap_cons, h, List.cons_append, List.cons.injEq] at e
    exact absurd e.1.symm ha
  | c :: s, [], x, y, e => by
    obtain ⟨a, r, h, ha⟩ := escape_head U c
    simp only [List.flatMap_nil, List.nil_append, List.flatMap_cons, h, List.cons_append, List.cons.injEq] at e
    exact absurd e.1 ha
  | c :: s, d :: t, x, y, e => by
    simp only [List.flatMap_cons, List.append_assoc] at e
    obtain ⟨h1, h2⟩ := escape_inj U c d _ _ e
    obtain ⟨h3, h4⟩ := escapes_inj U s t x y h2
    exact ⟨by rw [h1, h3], h4⟩

theorem code_debugStr (U : CharTables) : Code U.debugStr := by
  intro a b x y _ _ e
  unfold CharTables.debugStr at e
  simp only [List.cons_append, List.nil_append, List.append_assoc, List.cons.injEq, true_and] at e
  exact escapes_inj U a b x y e

theorem code_tuple {α : Type} {f : α → Str} (name : String) (h : Code f) : Code fun a => debugTuple name (f a) := by
  intro a b x y _ _ e
  unfold debugTuple at e
  simp only [List.append_assoc] at e
  have e := List.append_cancel_left (List.append_cancel_left e)
  obtain ⟨h1, h2⟩ := h a b _ _ (.cons (by decide)) (.cons (by decide)) e
  exact ⟨h1, List.append_cancel_left (as := [')']) h2⟩

theorem code_field {α : Type} {f : α → Str} (name : String) (h : Code f) : Code fun a => debugField name (f a) := by
  intro a b x y hx hy e
  unfold debugField at e
  simp only [List.append_assoc] at e
  exact h a b x y hx hy (List.append_cancel_left (List.append_cancel_left e))

/-- A sequence of values, each written by a code: what may follow does not begin with a digit. -/
def CodeList {α : Type} (f : α → List Str) : Prop :=
  (∀ a b, (f a).length = (f b).length) ∧
  ∀ a b x y, NoDigit x → NoDigit y → commaSeparated (f a) ++ x = commaSeparated (f b) ++ y → a = b ∧ x = y

theorem codeList_nil {α : Type} (f : α → List Str) (hf : ∀ a, f a = []) (h : ∀ a b : α, a = b) : CodeList f := by
  refine ⟨fun a b => by rw [hf, hf], fun a b x y _ _ e => ⟨h a b, ?_⟩⟩
  rw [hf, hf] at e; exact e

theorem codeList_cons {α β γ : Type} {f : α → Str} {g : β → List Str} (hf : Code f) (hg : CodeList g)
    (k : γ → α × β) (hk : ∀ a b, k a = k b → a = b) (F : γ → List Str) (hF : ∀ c, F c = f (k c).1 :: g (k c).2) :
    CodeList F := by
  refine ⟨fun a b => ?_, fun a b x y hx hy e => ?_⟩
  · rw [hF, hF]; simp [hg.1 (k a).2 (k b).2]
  · rw [hF, hF] at e
    have hlen := hg.1 (k a).2 (k b).2
    cases ha : g (k a).2 with
    | nil =>
      have hb : g (k b).2 = [] := List.length_eq_zero_iff.1 (by rw [← hlen, ha]; rfl)
      rw [ha, hb] at e
      obtain ⟨h1, h2⟩ := hf _ _ x y hx hy e
      have h3 := hg.2 (k a).2 (k b).2 [] [] .nil .nil (by rw [ha, hb])
      exact ⟨hk _ _ (Prod.ext h1 h3.1), h2⟩
    | cons p l =>
      cases hb : g (k b).2 with
      | nil => rw [ha, hb] at hlen; cases hlen
      | cons q m =>
        rw [ha, hb] at e
        simp only [commaSeparated, List.append_assoc] at e
        obtain ⟨h1, h2⟩ := hf _ _ _ _ (.cons (by decide)) (.cons (by decide)) e
        have h2 := List.append_cancel_left (as := [',', ' ']) h2
        rw [← ha, ← hb] at h2
        obtain ⟨h3, h4⟩ := hg.2 _ _ x y hx hy h2
        exact ⟨hk _ _ (Prod.ext h1 h3), h4⟩

theorem code_struct {α : Type} {f : α → List Str} (name : String) (h : CodeList f) :
    Code fun a => debugStruct name (f a) := by
  intro a b x y _ _ e
  unfold debugStruct at e
  simp only [List.append_assoc] at e
  have e := List.append_cancel_left (List.append_cancel_left e)
  obtain ⟨h1, h2⟩ := h.2 a b _ _ (.cons (by decide)) (.cons (by decide)) e
  exact ⟨h1, List.append_cancel_left (as := [' ', '}']) h2⟩

theorem code_list {α : Type} {f : α → List Str} (h : CodeList f) : Code fun a => debugList (f a) := by
  intro a b x y _ _ e
  unfold debugList at e
  simp only [List.append_assoc] at e
  have e := List.append_cancel_left e
  obtain ⟨h1, h2⟩ := h.2 a b _ _ (.cons (by decide)) (.cons (by decide)) e
  exact ⟨h1, List.append_cancel_left (as := [']']) h2⟩

theorem codeList_ofFn {α : Type} {f : α → Str} (h : Code f) : ∀ n, CodeList fun v : Fin n → α => List.ofFn fun i => f (v i)
  | 0 => codeList_nil _ (fun _ => List.ofFn_zero) fun a b => funext fun i => i.elim0
  | n + 1 => by
    refine codeList_cons h (codeList_ofFn h n) (fun v => (v 0, fun i => v i.succ)) ?_ _ fun v => ?_
    · intro a b e
      simp only [Prod.mk.injEq] at e
      funext i
      refine Fin.cases e.1 (fun j => congrFun e.2 j) i
    · exact List.ofFn_succ

namespace Types

mutual
theorem code_debug : ∀ (t : Ty) (name : String), Code (t.debug name)
  | .int n, name => by
    intro a b x y hx hy e
    have h := code_decStr (BitVec.toNat a) (BitVec.toNat b) x y hx hy (by simpa [Ty.debug] using e)
    exact ⟨BitVec.eq_of_toNat_eq h.1, h.2⟩
  | .arr t n, name => by
    have h := code_list (codeList_ofFn (code_debug t name) n)
    intro a b x y hx hy e
    exact h a b x y hx hy (by simpa [Ty.debug] using e)
  | .struct _ fs, name => by
    have h := code_struct name (codeList_debugs fs)
    intro a b x y hx hy e
    exact h a b x y hx hy (by simpa [Ty.debug] using e)
theorem codeList_debugs : ∀ fs : Fields, CodeList fs.debugs
  | .nil => codeList_nil _ (fun _ => by simp [Fields.debugs]) fun _ _ => rfl
  | .cons n t rest =>
    codeList_cons (code_field n (code_debug t (structName n))) (codeList_debugs rest)
      (fun v : t.Val × rest.Vals => v) (fun _ _ h => h) _ fun v => by
        obtain ⟨x, xs⟩ := v
        simp [Fields.debugs]
end

end Types
end LinuxLoader
