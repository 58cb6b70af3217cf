import Verif.Model.AsRef
import Verif.Props.CmdlineBuild

/-!
# Builder calls with arguments that change or panic (C91)

`env a i` is what the `i`-th call of `as_ref` gives if it is made on argument `a`.
-/

namespace LinuxLoader
open Spec Cmdline

theorem asRef_some {env : AsRefEnv} {a : Nat} {log : AsRefLog} {s : Str} (h : env a log.length = some s) :
    asRef env a log = (.ok s, log ++ [(a, some s)]) := by
  unfold asRef; rw [h]

theorem asRef_none {env : AsRefEnv} {a : Nat} {log : AsRefLog} (h : env a log.length = none) :
    asRef env a log = (.panic, log ++ [(a, none)]) := by
  unfold asRef; rw [h]

/-! ## One call, one question -/

/-- **C91 (insert_str, insert_init_args).** The argument is asked once; the call does with the answer what it
does with a fixed string. If the argument panics, so does the call, and the command line is unchanged. -/
theorem C91_str (env : AsRefEnv) (c : Cmdline) (a : Nat) (log : AsRefLog) :
    (∀ s, env a log.length = some s →
      c.insertStrDyn env a log = ((c.insertStr s).1, (c.insertStr s).2, log ++ [(a, some s)]) ∧
      c.insertInitArgsDyn env a log =
        ((c.insertInitArgs s).1, (c.insertInitArgs s).2, log ++ [(a, some s)])) ∧
    (env a log.length = none →
      c.insertStrDyn env a log = (c, .panic, log ++ [(a, none)]) ∧
      c.insertInitArgsDyn env a log = (c, .panic, log ++ [(a, none)])) := by
  refine ⟨fun s h => ?_, fun h => ?_⟩
  · simp only [insertStrDyn, insertInitArgsDyn, asRef_some h, and_self]
  · simp only [insertStrDyn, insertInitArgsDyn, asRef_none h, and_self]

/-- An argument that is a number in decimal, another one at every call, and panics at the fifth. -/
def fickle : AsRefEnv := fun _ i => if i = 5 then none else some (Nat.toDigits 10 i)

example := (C91_str fickle demo 0 []).1 ['0'] (by decide)
example := (C91_str fickle demo 0 (List.replicate 5 (0, none))).2 (by decide)

/-- **C91 (insert).** Key and value are asked once each; the call does with the answers what it does with
fixed strings: what is inserted is what was validated. -/
theorem C91_insert (env : AsRefEnv) (c : Cmdline) (a b : Nat) (log : AsRefLog) :
    (∀ k v, env a log.length = some k → env b (log.length + 1) = some v →
      c.insertDyn env a b log =
        ((c.insert k v).1, (c.insert k v).2, log ++ [(a, some k), (b, some v)])) ∧
    (env a log.length = none → c.insertDyn env a b log = (c, .panic, log ++ [(a, none)])) ∧
    (∀ k, env a log.length = some k → env b (log.length + 1) = none →
      c.insertDyn env a b log = (c, .panic, log ++ [(a, some k), (b, none)])) := by
  have hl : ∀ k : Str, (log ++ [(a, some k)]).length = log.length + 1 := fun k => by simp
  refine ⟨fun k v hk hv => ?_, fun h => ?_, fun k hk hv => ?_⟩
  · simp only [insertDyn, asRef_some hk, asRef_some (hl k ▸ hv : env b (log ++ [(a, some k)]).length = some v)]
    unfold Cmdline.insert
    cases (validKey k).bind fun _ => validValue v <;> simp
  · simp only [insertDyn, asRef_none h]
  · simp only [insertDyn, asRef_some hk, asRef_none (hl k ▸ hv : env b (log ++ [(a, some k)]).length = none)]
    simp

example := (C91_insert fickle demo 0 1 []).1 ['0'] ['1'] (by decide) (by decide)
example := (C91_insert fickle demo 0 1 (List.replicate 4 (0, none))).2.2 ['4'] (by decide) (by decide)

/-! ## `insert_multiple` asks each value twice -/

theorem validateValuesDyn_ok {env : AsRefEnv} : ∀ {vals : List Nat} {log log' : AsRefLog} {ws : List Str},
    validateValuesDyn env vals log = (.ok ws, log') →
    log'.length = log.length + 2 * vals.length ∧ ws.length = vals.length ∧
    ∀ i a, vals[i]? = some a → env a (log.length + 2 * i + 1) = ws[i]? ∧
      ∃ v, env a (log.length + 2 * i) = some v ∧ validValue v = .ok ()
  | [], log, log', ws, h => by
    simp only [validateValuesDyn, Prod.mk.injEq, Res.ok.injEq] at h
    obtain ⟨rfl, rfl⟩ := h
    exact ⟨rfl, rfl, fun i a hi => by simp at hi⟩
  | a :: as, log, log', ws, h => by
    cases hv : env a log.length with
    | none => simp [validateValuesDyn, asRef_none hv] at h
    | some v =>
      simp only [validateValuesDyn, asRef_some hv] at h
      cases hval : validValue v with
      | err e => simp [hval] at h
      | panic => simp [hval] at h
      | ok _ =>
        simp only [hval] at h
        have hl : (log ++ [(a, some v)]).length = log.length + 1 := by simp
        cases hw : env a (log.length + 1) with
        | none => simp [asRef_none (hl ▸ hw : env a (log ++ [(a, some v)]).length = none)] at h
        | some w =>
          simp only [asRef_some (hl ▸ hw : env a (log ++ [(a, some v)]).length = some w)] at h
          cases hr : validateValuesDyn env as (log ++ [(a, some v)] ++ [(a, some w)]) with
          | mk r log2 =>
            rw [hr] at h
            cases r with
            | err e => simp at h
            | panic => simp at h
            | ok ws' =>
              simp only [Prod.mk.injEq, Res.ok.injEq] at h
              obtain ⟨rfl, rfl⟩ := h
              obtain ⟨h1, h2, h3⟩ := validateValuesDyn_ok hr
              have hl2 : (log ++ [(a, some v)] ++ [(a, some w)]).length = log.length + 2 := by simp
              rw [hl2] at h1 h3
              refine ⟨by simp only [List.length_cons]; omega, by simp [h2], ?_⟩
              intro i b hi
              cases i with
              | zero =>
                simp only [List.getElem?_cons_zero, Option.some.injEq] at hi
                subst hi
                exact ⟨by simpa using hw, v, by simpa using hv, hval⟩
              | succ i =>
                simp only [List.getElem?_cons_succ] at hi ⊢
                have := h3 i b hi
                rw [show log.length + 2 * (i + 1) + 1 = log.length + 2 + 2 * i + 1 by omega,
                  show log.length + 2 * (i + 1) = log.length + 2 + 2 * i by omega]
                exact this

/-- **C91 (insert_multiple).** If it succeeds: the key was asked once and is valid; each value was asked
twice; the first answer was validated, the second one inserted. -/
theorem C91_multiple {env : AsRefEnv} {c c' : Cmdline} {a : Nat} {vals : List Nat} {log log' : AsRefLog}
    (h : c.insertMultipleDyn env a vals log = (c', .ok (), log')) :
    vals ≠ [] ∧ log'.length = log.length + 1 + 2 * vals.length ∧
    ∃ k ws, env a log.length = some k ∧ LegalKey k ∧ ws.length = vals.length ∧
      (∀ i b, vals[i]? = some b →
        (∃ v, env b (log.length + 1 + 2 * i) = some v ∧ LegalValue v) ∧
        env b (log.length + 1 + 2 * i + 1) = ws[i]?) ∧
      c.insertStr (k ++ ['='] ++ joinComma ws) = (c', .ok ()) := by
  cases hk : env a log.length with
  | none => simp [insertMultipleDyn, asRef_none hk] at h
  | some k =>
    simp only [insertMultipleDyn, asRef_some hk] at h
    cases hvk : validKey k with
    | err e => simp [hvk] at h
    | panic => simp [hvk] at h
    | ok _ =>
      simp only [hvk] at h
      by_cases hne : vals = []
      · simp [hne] at h
      · rw [if_neg hne] at h
        cases hr : validateValuesDyn env vals (log ++ [(a, some k)]) with
        | mk r log2 =>
          rw [hr] at h
          cases r with
          | err e => simp at h
          | panic => simp at h
          | ok ws =>
            simp only [Prod.mk.injEq] at h
            obtain ⟨hc, hres, hlog⟩ := h
            obtain ⟨h1, h2, h3⟩ := validateValuesDyn_ok hr
            have hl : (log ++ [(a, some k)]).length = log.length + 1 := by simp
            rw [hl] at h1 h3
            refine ⟨hne, by rw [← hlog]; exact h1, k, ws, rfl, ?_, h2, fun i b hi => ⟨?_, (h3 i b hi).1⟩, ?_⟩
            · rcases validKey_eq k with ⟨e, -, he⟩ | ⟨hl, -⟩
              · rw [hvk] at he; cases he
              · exact hl
            · obtain ⟨v, hv, hok⟩ := (h3 i b hi).2
              refine ⟨v, hv, ?_⟩
              rcases validValue_eq v with ⟨e, -, he⟩ | ⟨hl, -⟩
              · rw [hok] at he; cases he
              · exact hl
            · rw [← hc, ← hres]

/-- Argument 0 is the key `k`; argument 1 gives `v` when it is validated and `v init=/bin/sh` afterwards. -/
def twoFaced : AsRefEnv := fun a i =>
  if a = 0 then some ['k'] else if i % 2 = 1 then some ['v'] else some "v init=/bin/sh".toList

example := C91_multiple (env := twoFaced) (c := demo) (a := 0) (vals := [1, 1]) (log := [])
  (c' := (demo.insertMultipleDyn twoFaced 0 [1, 1] []).1)
  (log' := (demo.insertMultipleDyn twoFaced 0 [1, 1] []).2.2) (by decide +kernel)

/-- **C91 (refutes that `insert_multiple` only inserts validated values).** With an argument that changes between
the two questions it inserts another parameter; `insert` with the same argument does not. -/
theorem C91_multiple_refuted : ∃ (env : AsRefEnv) (c : Cmdline), Reachable c ∧
    (c.insertMultipleDyn env 0 [1] []).2.1 = .ok () ∧
    (c.insertMultipleDyn env 0 [1] []).1.asCString = .ok "k=v init=/bin/sh".toUTF8.toList ∧
    ∀ k v, c.insert k v ≠ ((c.insertMultipleDyn env 0 [1] []).1, .ok ()) := by
  have hc : Reachable ⟨[], [], 100⟩ := .new (cap := 100) (by decide)
  refine ⟨twoFaced, ⟨[], [], 100⟩, hc, by decide +kernel, by decide +kernel, ?_⟩
  intro k v h
  have he : (Cmdline.insertMultipleDyn twoFaced ⟨[], [], 100⟩ 0 [1] []).1 =
      ⟨"k=v init=/bin/sh".toList, [], 100⟩ := by decide +kernel
  rw [he] at h
  obtain ⟨hk, hv⟩ : LegalKey k ∧ LegalValue v := by
    unfold Cmdline.insert at h
    rcases validKey_eq k with ⟨e, -, hk⟩ | ⟨hl, hk⟩
    · simp [hk] at h
    · rcases validValue_eq v with ⟨e, -, hv⟩ | ⟨hl', hv⟩
      · simp [hk, hv] at h
      · exact ⟨hl, hl'⟩
  have hi := (C10_insert _ hc k v).2.2 hk hv
  rw [h] at hi
  have hb : k ++ '=' :: v = "k=v init=/bin/sh".toList := by
    split at hi
    · exact (congrArg (fun x => x.1.bootArgs) hi).symm
    · exact absurd (congrArg (fun x => x.2) hi) (by simp)
  match k, hk, hb with
  | [], _, hb => exact absurd (List.cons.inj hb).1 (by decide)
  | [a], _, hb =>
    have hv' : v = "v init=/bin/sh".toList := (List.cons.inj (List.cons.inj hb).2).2
    obtain ⟨w, hw⟩ := hv.2.2 (by rw [hv']; decide)
    rw [hv'] at hw
    exact absurd (List.cons.inj hw).1 (by decide)
  | a :: b :: k', hk, hb =>
    have hb' : b = '=' := (List.cons.inj (List.cons.inj hb).2).1
    exact hk.2.2 (by rw [hb']; simp)

/-! ## Histories -/

/-- What a builder call with arbitrary arguments does to the command line: nothing if it is not accepted, and
otherwise what some call with fixed strings does. -/
theorem C91_step (env : AsRefEnv) (c : Cmdline) (op : DynOp) (log : AsRefLog) :
    ((c.stepDyn env op log).2.1 ≠ .ok () ∧ (c.stepDyn env op log).1 = c) ∨
    ∃ op', ((c.stepDyn env op log).1, (c.stepDyn env op log).2.1) = c.step op' ∧ (c.step op').2 = .ok () := by
  have str : ∀ s (l : AsRefLog) (x : Cmdline × Res CmdlineError Unit × AsRefLog),
      x = ((c.insertStr s).1, (c.insertStr s).2, l) → (x.2.1 ≠ .ok () ∧ x.1 = c) ∨
      ∃ op', (x.1, x.2.1) = c.step op' ∧ (c.step op').2 = .ok () := by
    rintro s l x rfl
    by_cases h : (c.insertStr s).2 = .ok ()
    · exact .inr ⟨.insertStr s, rfl, h⟩
    · exact .inl ⟨h, C02_rejected_unchanged c (.insertStr s) h⟩
  have init : ∀ s (l : AsRefLog) (x : Cmdline × Res CmdlineError Unit × AsRefLog),
      x = ((c.insertInitArgs s).1, (c.insertInitArgs s).2, l) → (x.2.1 ≠ .ok () ∧ x.1 = c) ∨
      ∃ op', (x.1, x.2.1) = c.step op' ∧ (c.step op').2 = .ok () := by
    rintro s l x rfl
    by_cases h : (c.insertInitArgs s).2 = .ok ()
    · exact .inr ⟨.insertInitArgs s, rfl, h⟩
    · exact .inl ⟨h, C02_rejected_unchanged c (.insertInitArgs s) h⟩
  cases op with
  | insertStr a =>
    simp only [stepDyn, insertStrDyn]
    split
    · exact str _ _ _ rfl
    · exact .inl ⟨by simp, rfl⟩
    · exact .inl ⟨by simp, rfl⟩
  | insertInitArgs a =>
    simp only [stepDyn, insertInitArgsDyn]
    split
    · exact init _ _ _ rfl
    · exact .inl ⟨by simp, rfl⟩
    · exact .inl ⟨by simp, rfl⟩
  | insert a b =>
    simp only [stepDyn, insertDyn]
    repeat' split
    all_goals first | exact str _ _ _ rfl | exact .inl ⟨by simp, rfl⟩
  | insertMultiple a vs =>
    simp only [stepDyn, insertMultipleDyn]
    repeat' split
    all_goals first | exact str _ _ _ rfl | exact .inl ⟨by simp, rfl⟩
  | addVirtio size base irq id =>
    by_cases h : (c.addVirtioMmioDevice size base irq id).2 = .ok ()
    · exact .inr ⟨.addVirtio size base irq id, rfl, h⟩
    · exact .inl ⟨h, C02_rejected_unchanged c (.addVirtio size base irq id) h⟩

example := C91_step twoFaced demo (.insertMultiple 0 [1]) []
example := C91_step fickle demo (.insertMultiple 0 [1, 2]) []

/-- **C91.** Whatever the arguments do, including panics that the caller catches, and whatever history of calls:
the command line is one that calls with fixed strings can build too. -/
theorem C91_history (env : AsRefEnv) : ∀ (ops : List DynOp) (c : Cmdline) (log : AsRefLog),
    ∃ ops' : List Op, ops'.length ≤ ops.length ∧ (c.runDyn env ops log).1 = c.run ops'
  | [], c, log => ⟨[], Nat.le_refl _, rfl⟩
  | op :: ops, c, log => by
    obtain ⟨ops', hl, h⟩ := C91_history env ops (c.stepDyn env op log).1 (c.stepDyn env op log).2.2
    rcases C91_step env c op log with ⟨-, hu⟩ | ⟨op', he, -⟩
    · rw [hu] at h
      exact ⟨ops', Nat.le_succ_of_le hl, by rw [runDyn, hu]; exact h⟩
    · refine ⟨op' :: ops', Nat.succ_le_succ hl, ?_⟩
      show (Cmdline.runDyn env _ ops _).1 = (c.step op').1.run ops'
      rw [← he]
      exact h

/-- **C91.** So the rendering still fits the capacity and consists of printable ASCII characters. -/
theorem C91_safe {cap : UInt64} {c : Cmdline} (hc : Cmdline.new cap = .ok c) (env : AsRefEnv)
    (ops : List DynOp) (log : AsRefLog) :
    (c.runDyn env ops log).1.asCString ≠ .err .nullTerminator ∧
    ∀ bs, (c.runDyn env ops log).1.toVec = .ok bs → bs.length ≤ cap.toNat ∧
      ∃ body, bs = body ++ [0] ∧ ∀ b ∈ body, 0x20 ≤ b.toNat ∧ b.toNat ≤ 0x7e := by
  obtain ⟨ops', -, h⟩ := C91_history env ops c log
  rw [h]
  obtain ⟨h1, h2⟩ := C07_printable cap c hc ops'
  refine ⟨h1, fun bs hb => ⟨?_, h2 bs hb⟩⟩
  unfold toVec at hb
  cases hr : (c.run ops').asCString with
  | ok x =>
    rw [hr] at hb
    simp only [Res.map, Res.ok.injEq] at hb
    rw [← hb]
    exact C01_capacity cap c (.inl hc) ops' x hr
  | err e => rw [hr] at hb; simp [Res.map] at hb
  | panic => rw [hr] at hb; simp [Res.map] at hb

example := C91_safe (cap := 100) (c := ⟨[], [], 100⟩) (by decide) twoFaced
  [.insertMultiple 0 [1], .insertInitArgs 1] []

/-! ## Arguments that do not change -/

theorem asRef_fixed (f : Nat → Str) (a : Nat) (log : AsRefLog) :
    asRef (fun a _ => some (f a)) a log = (.ok (f a), log ++ [(a, some (f a))]) := rfl

theorem validateValuesDyn_fixed (f : Nat → Str) : ∀ (vals : List Nat) (log : AsRefLog),
    (validateValuesDyn (fun a _ => some (f a)) vals log).1 = validateValues (vals.map f)
  | [], log => rfl
  | a :: as, log => by
    simp only [validateValuesDyn, asRef_fixed, List.map_cons, validateValues]
    cases hv : validValue (f a) with
    | err e => rfl
    | panic => rfl
    | ok _ =>
      simp only [Res.bind_ok]
      rw [← validateValuesDyn_fixed f as (log ++ [(a, some (f a))] ++ [(a, some (f a))])]
      generalize validateValuesDyn (fun a _ => some (f a)) as _ = x
      obtain ⟨r, l⟩ := x
      cases r <;> rfl

/-- A builder call with arguments that give the same string `f a` every time (`&str`, `String`, ...), in terms
of the model of `Model/Cmdline.lean`. -/
def _root_.LinuxLoader.Cmdline.DynOp.fixed (f : Nat → Str) : DynOp → Op
  | .insert k v => .insert (f k) (f v)
  | .insertMultiple k vs => .insertMultiple (f k) (vs.map f)
  | .insertStr s => .insertStr (f s)
  | .insertInitArgs s => .insertInitArgs (f s)
  | .addVirtio size base irq id => .addVirtio size base irq id

/-- **C91.** For arguments that do not change, result and command line are those of the other theorems. -/
theorem C91_fixed (f : Nat → Str) (c : Cmdline) (op : DynOp) (log : AsRefLog) :
    ((c.stepDyn (fun a _ => some (f a)) op log).1, (c.stepDyn (fun a _ => some (f a)) op log).2.1) =
      c.step (op.fixed f) := by
  cases op with
  | insertStr a => rfl
  | insertInitArgs a => rfl
  | addVirtio size base irq id => rfl
  | insert a b =>
    have := (C91_insert (fun a _ => some (f a)) c a b log).1 _ _ rfl rfl
    simp only [stepDyn, this]
    rfl
  | insertMultiple a vs =>
    simp only [stepDyn, insertMultipleDyn, asRef_fixed, DynOp.fixed, step, insertMultiple]
    cases hv : validKey (f a) with
    | err e => rfl
    | panic => rfl
    | ok _ =>
      simp only [Res.bind_ok]
      by_cases hne : vs = []
      · simp [hne]
      · rw [if_neg hne, if_neg (by simpa using hne),
          ← validateValuesDyn_fixed f vs (log ++ [(a, some (f a))])]
        generalize validateValuesDyn (fun a _ => some (f a)) vs _ = x
        obtain ⟨r, l⟩ := x
        cases r <;> rfl

example := C91_fixed (fun a => if a = 0 then ['k'] else ['v']) demo (.insertMultiple 0 [1, 1]) []

end LinuxLoader
