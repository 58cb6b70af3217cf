import Verif.Spec.CmdlineBatch
import Verif.Props.CmdlineBuild
import Verif.Props.CmdlineParse

/-!
# Algebra of insertions (C72)

Vocabulary: `Spec/Cmdline.lean`, `Spec/CmdlineBatch.lean`.
-/

namespace LinuxLoader
open Spec Cmdline

/-- The arguments an insertion changes. -/
def argsOf (init : Bool) (c : Cmdline) : Str := if init then c.initArgs else c.bootArgs

/-- The command line with these arguments replaced. -/
def withArgs (init : Bool) (c : Cmdline) (s : Str) : Cmdline :=
  if init then { c with initArgs := s } else { c with bootArgs := s }

/-- It fits. -/
def FitsC (c : Cmdline) : Prop := Fits c.bootArgs c.initArgs c.capacity

instance (c : Cmdline) : Decidable (FitsC c) := by unfold FitsC; infer_instance

theorem accept_eq {init : Bool} {c : Cmdline} (h : c.Inv) {s : Str} (hs : Solid s) :
    accept init c s = if Printable s ∧ FitsC (withArgs init c (extend (argsOf init c) s)) then
      some (withArgs init c (extend (argsOf init c) s)) else none := by
  have ht : trim s = s := trim_of_trimmed hs.1
  cases init with
  | false =>
    unfold accept
    simp only [Bool.false_eq_true, if_false]
    rw [insertStr_eq h, ht]
    show _ = if _ ∧ Fits (extend c.bootArgs s) c.initArgs c.capacity then
      some ({ c with bootArgs := extend c.bootArgs s } : Cmdline) else none
    by_cases hp : Printable s
    · by_cases hf : Fits (extend c.bootArgs s) c.initArgs c.capacity
      · simp [hp, hf]
      · simp [hp, hf]
    · simp [hp]
  | true =>
    have hc := C05_condition_is_fit c s hs.2
    have key : ∀ r, c.insertInitArgs s = r → accept true c s = if r.2 = .ok () then some r.1 else none := by
      rintro r rfl; rfl
    have hg : (FitsC (withArgs true c (extend (argsOf true c) s))) ↔
        Fits c.bootArgs (extend c.initArgs s) c.capacity := Iff.rfl
    have heq := insertInitArgs_eq h s
    rw [ht] at heq
    by_cases hp : Printable s
    · rw [if_neg (not_not_intro hp)] at heq
      by_cases hf : Fits c.bootArgs (extend c.initArgs s) c.capacity
      · have := hc.2 hf
        rw [if_neg (Nat.not_lt.2 this)] at heq
        rw [key _ heq, if_pos rfl, if_pos ⟨hp, hg.2 hf⟩]
        rfl
      · have hn := fun h => hf (hc.1 h)
        rw [if_pos (Nat.lt_of_not_le hn)] at heq
        rw [key _ heq, if_neg (by simp), if_neg (fun h => hf (hg.1 h.2))]
    · rw [if_pos hp] at heq
      rw [key _ heq, if_neg (by simp), if_neg (fun h => hp h.1)]

theorem accept_inv {init : Bool} {c c' : Cmdline} (h : c.Inv) {s : Str} (ha : accept init c s = some c') :
    c'.Inv := by
  unfold accept at ha
  cases init
  · simp only [Bool.false_eq_true, if_false] at ha
    split at ha
    · cases ha
      exact h.step (.insertStr s)
    · cases ha
  · simp only [if_true] at ha
    split at ha
    · cases ha
      exact h.step (.insertInitArgs s)
    · cases ha

theorem extend_extend {a s t : Str} (hs : s ≠ []) : extend (extend a s) t = extend a (s ++ ' ' :: t) := by
  unfold extend
  by_cases ha : a = []
  · simp [ha, hs]
  · simp [ha]

theorem solid_append {s t : Str} (hs : Solid s) (ht : Solid t) : Solid (s ++ ' ' :: t) := by
  obtain ⟨⟨_, _, _, _, _, h1, -⟩, hs0⟩ := hs
  obtain ⟨⟨_, _, _, _, _, -, h2⟩, ht0⟩ := ht
  refine ⟨⟨[], [], by simp, by simp, by simp, fun c hc => h1 c ?_, fun c hc => h2 c ?_⟩, by simp⟩
  · cases s with
    | nil => exact absurd rfl hs0
    | cons a s => exact hc
  · rw [List.getLast?_append, List.getLast?_cons] at hc
    cases ht' : t.getLast? with
    | none => exact absurd (List.getLast?_eq_none_iff.1 ht') ht0
    | some d =>
      rw [ht'] at hc
      simpa using hc

theorem printable_spaced {s t : Str} : Printable (s ++ ' ' :: t) ↔ Printable s ∧ Printable t := by
  unfold Printable
  constructor
  · exact fun h => ⟨fun c hc => h c (by simp [hc]), fun c hc => h c (by simp [hc])⟩
  · intro h c hc
    rcases List.mem_append.1 hc with hc | hc
    · exact h.1 c hc
    · rcases List.mem_cons.1 hc with rfl | hc
      · decide
      · exact h.2 c hc

theorem withArgs_twice (init : Bool) (c : Cmdline) (s t : Str) :
    withArgs init (withArgs init c s) t = withArgs init c t ∧ argsOf init (withArgs init c s) = s := by
  cases init <;> exact ⟨rfl, rfl⟩

theorem fits_shorter {init : Bool} {c : Cmdline} {s t : Str} (hs : s ≠ [])
    (h : FitsC (withArgs init c (extend (argsOf init c) (s ++ ' ' :: t)))) :
    FitsC (withArgs init c (extend (argsOf init c) s)) := by
  have hl : (s ++ ' ' :: t).utf8Len = s.utf8Len + 1 + t.utf8Len := by
    have := utf8Len_extend s t
    unfold extend at this
    rw [if_neg hs, if_neg hs] at this
    exact this
  have he : ∀ a : Str, (extend a s).utf8Len ≤ (extend a (s ++ ' ' :: t)).utf8Len := by
    intro a
    rw [utf8Len_extend, utf8Len_extend, hl]
    split <;> omega
  have hn : ∀ a : Str, extend a (s ++ ' ' :: t) ≠ [] := by
    intro a
    unfold extend
    split <;> simp
  have hn' : ∀ a : Str, extend a s ≠ [] := by
    intro a
    unfold extend
    split <;> simp [hs]
  unfold FitsC Fits at *
  cases init with
  | false =>
    dsimp only [withArgs, argsOf] at *
    simp only [Bool.false_eq_true, if_false] at *
    rw [utf8Len_text] at *
    have := he c.bootArgs
    split at h <;> rename_i hi <;> simp only [hi, if_true, if_false] <;> omega
  | true =>
    dsimp only [withArgs, argsOf] at *
    simp only [if_true] at *
    rw [utf8Len_text] at *
    rw [if_neg (hn _)] at h
    rw [if_neg (hn' _)]
    have := he c.initArgs
    omega

theorem accept_two {init : Bool} {c : Cmdline} (h : c.Inv) {s t : Str} (hs : Solid s) (ht : Solid t) :
    (accept init c s).bind (fun c' => accept init c' t) = accept init c (s ++ ' ' :: t) := by
  rw [accept_eq h (solid_append hs ht)]
  cases ha : accept init c s with
  | none =>
    rw [accept_eq h hs] at ha
    split at ha
    · cases ha
    · rename_i hn
      rw [if_neg]
      · rfl
      · exact fun hh => hn ⟨(printable_spaced.1 hh.1).1, fits_shorter hs.2 hh.2⟩
  | some c' =>
    have hi := accept_inv h ha
    rw [accept_eq h hs] at ha
    split at ha
    · rename_i hy
      cases ha
      show accept init _ t = _
      rw [accept_eq hi ht, (withArgs_twice _ _ _ _).1, (withArgs_twice _ _ _ []).2, extend_extend hs.2]
      simp only [printable_spaced, hy.1, true_and]
    · cases ha

/-- **C72.** Two insertions are accepted one after the other iff the strings joined by a space are
accepted at once, with the same result. -/
theorem C72_two (init : Bool) (c : Cmdline) (h : Reachable c) (s t : Str) (hs : Solid s) (ht : Solid t) :
    (accept init c s).bind (fun c' => accept init c' t) = accept init c (s ++ ' ' :: t) :=
  accept_two h.inv hs ht

theorem solid_demo : Solid "a=1".toList ∧ Solid "b c".toList :=
  ⟨⟨⟨[], [], by decide, by decide, by decide, by decide, by decide⟩, by decide⟩,
    ⟨⟨[], [], by decide, by decide, by decide, by decide, by decide⟩, by decide⟩⟩

example := C72_two true demo demo_reachable "a=1".toList "b c".toList solid_demo.1 solid_demo.2

theorem acceptAll_inv {init : Bool} {c : Cmdline} (h : c.Inv) {s : Str} {ss : List Str} (hs : Solid s)
    (hss : ∀ t ∈ ss, Solid t) :
    acceptAll init c (s :: ss) = accept init c (joinSp (s :: ss)) ∧ Solid (joinSp (s :: ss)) := by
  induction ss generalizing c s with
  | nil =>
    refine ⟨?_, hs⟩
    show (accept init c s).bind (fun c' => some c') = accept init c s
    cases accept init c s <;> rfl
  | cons t ss ih =>
    have ht := hss t (by simp)
    have hss' : ∀ u ∈ ss, Solid u := fun u hu => hss u (by simp [hu])
    have hj := (ih (c := c) h ht hss').2
    have hsol : Solid (s ++ ' ' :: joinSp (t :: ss)) := solid_append hs hj
    refine ⟨?_, hsol⟩
    show (accept init c s).bind (fun c' => acceptAll init c' (t :: ss)) =
      accept init c (s ++ ' ' :: joinSp (t :: ss))
    have step : (accept init c s).bind (fun c' => acceptAll init c' (t :: ss)) =
        (accept init c s).bind (fun c' => accept init c' (joinSp (t :: ss))) := by
      cases ha : accept init c s with
      | none => rfl
      | some c' => exact (ih (accept_inv h ha) ht hss').1
    rw [step]
    exact accept_two h hs hj

/-- **C72.** For any number of them. -/
theorem C72_batch (init : Bool) (c : Cmdline) (h : Reachable c) (ss : List Str) (hne : ss ≠ [])
    (hss : ∀ s ∈ ss, Solid s) : acceptAll init c ss = accept init c (joinSp ss) := by
  cases ss with
  | nil => exact absurd rfl hne
  | cons s ss =>
    exact (acceptAll_inv h.inv (hss s (by simp)) fun t ht => hss t (by simp [ht])).1

example := C72_batch false demo demo_reachable ["a=1".toList, "b c".toList] (by decide)
  (by rintro s (_ | ⟨_, _ | ⟨_, ⟨⟩⟩⟩) <;> first | exact solid_demo.1 | exact solid_demo.2)

/-- **C72.** `insert` of a legal key and a legal value is `insert_str` of `key=value`. -/
theorem C72_insert (c : Cmdline) (k v : Str) (hk : LegalKey k) (hv : LegalValue v) :
    c.insert k v = c.insertStr (k ++ '=' :: v) := by
  unfold Cmdline.insert
  rcases validKey_eq k with ⟨e, he, -⟩ | ⟨-, h1⟩
  · obtain ⟨h1, h2, h3⟩ := hk
    cases he <;> contradiction
  · rcases validValue_eq v with ⟨e, he, -⟩ | ⟨-, h2⟩
    · obtain ⟨h1, h2, h3⟩ := hv
      cases he
      · contradiction
      · contradiction
      · rename_i h4 h5 h6 h7
        exact absurd (h3 h6) h7
    · rw [h1, h2]
      show c.insertStr (k ++ ['='] ++ v) = _
      rw [List.append_assoc]
      rfl

example := C72_insert demo "foo".toList "\"a b\"".toList legalKey_demo legalValue_demo

/-- **C72.** What `try_from` accepts, the builder can build: if both parts are printable, a fresh
command line of the same capacity accepts them and becomes the parsed command line. -/
theorem C72_try_from (raw : Str) (cap : UInt64) (c c₀ : Cmdline) (h : Cmdline.tryFrom raw cap = .ok c)
    (h₀ : Cmdline.new cap = .ok c₀) (hb : Printable c.bootArgs) (hi : Printable c.initArgs) :
    (c₀.insertStr c.bootArgs).2 = .ok () ∧
    (c.initArgs = [] → (c₀.insertStr c.bootArgs).1 = c) ∧
    (c.initArgs ≠ [] → (c₀.insertStr c.bootArgs).1.insertInitArgs c.initArgs = (c, .ok ())) := by
  obtain ⟨hinv, hcap, hsp⟩ := Inv.tryFrom h
  obtain ⟨hinv₀, hcap₀, hb₀, hi₀⟩ := Inv.new h₀
  unfold splitRaw at hsp
  dsimp only at hsp
  have htb : trim c.bootArgs = c.bootArgs := by
    have := congrArg Prod.fst hsp
    dsimp only at this
    rw [this, trim_trim]
  have hti : trim c.initArgs = c.initArgs := by
    have := congrArg Prod.snd hsp
    dsimp only at this
    rw [this, trim_trim]
  have hfit : Fits c.bootArgs c.initArgs c.capacity := hinv
  have hfit1 : Fits c.bootArgs [] c.capacity := by
    unfold Fits at *
    rw [utf8Len_text] at *
    simp only [if_true]
    split at hfit <;> omega
  have h1 := insertStr_eq hinv₀ c.bootArgs
  rw [htb, hb₀, hi₀, hcap₀, ← hcap, if_neg (not_not_intro hb),
    show extend [] c.bootArgs = c.bootArgs from by simp [extend], if_neg (not_not_intro hfit1)] at h1
  refine ⟨by rw [h1], fun hnil => ?_, fun hne => ?_⟩
  · rw [h1]
    obtain ⟨b, i, q⟩ := c
    dsimp only at *
    subst hnil
    rw [hcap, ← hcap₀]
  · have hst : (c₀.insertStr c.bootArgs).1 = ⟨c.bootArgs, [], c.capacity⟩ := by
      rw [h1]
    have hinv1 : (⟨c.bootArgs, [], c.capacity⟩ : Cmdline).Inv := hfit1
    rw [hst, insertInitArgs_eq hinv1, hti, if_neg (not_not_intro hi), if_neg]
    · simp [extend]
    · unfold Fits at hfit
      rw [utf8Len_text, if_neg hne] at hfit
      simp only [text, if_true]
      omega

example := C72_try_from " a  b -- c ".toList 20 ⟨"a  b".toList, "c".toList, 20⟩ ⟨[], [], 20⟩
  (by decide +kernel) (by decide) (by decide) (by decide)

/-- Non-vacuity: two arguments into a command line that has one, and the three ways of inserting them. -/
example : let c : Cmdline := ⟨"x".toList, "i".toList, 100⟩
    Solid "a=1".toList ∧ Solid "b c".toList ∧
    acceptAll false c ["a=1".toList, "b c".toList] = some ⟨"x a=1 b c".toList, "i".toList, 100⟩ ∧
    accept false c "a=1 b c".toList = some ⟨"x a=1 b c".toList, "i".toList, 100⟩ ∧
    acceptAll true c ["a=1".toList, "b c".toList] = some ⟨"x".toList, "i a=1 b c".toList, 100⟩ ∧
    acceptAll false (⟨"x".toList, "i".toList, 12⟩ : Cmdline) ["a=1".toList, "b c".toList] = none := by
  refine ⟨⟨⟨[], [], by decide, by decide, by decide, by decide, by decide⟩, by decide⟩,
    ⟨⟨[], [], by decide, by decide, by decide, by decide, by decide⟩, by decide⟩, ?_⟩
  decide +kernel

example : LegalKey "foo".toList ∧ LegalValue "\"a b\"".toList := ⟨legalKey_demo, legalValue_demo⟩

example : Cmdline.tryFrom " a  b -- c ".toList 20 = .ok ⟨"a  b".toList, "c".toList, 20⟩ := by decide +kernel

/-- Without trimming the batch law fails: two spaces between arguments survive only in one call. -/
theorem C72_blank_refuted : ∃ (c : Cmdline) (s t : Str), Reachable c ∧
    (accept false c s).bind (fun c' => accept false c' t) ≠ accept false c (s ++ ' ' :: t) ∧
    (accept false c s).isSome = true ∧ (accept false c (s ++ ' ' :: t)).isSome = true :=
  ⟨⟨[], [], 100⟩, "a ".toList, "b".toList, .new (cap := 100) (by decide), by decide +kernel,
    by decide +kernel, by decide +kernel⟩

end LinuxLoader
