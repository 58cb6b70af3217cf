import Verif.Props.Guest
import Verif.Props.VirtioDriver
import Verif.Props.KernelView

/-!
# What the kernel gets from the rendered bytes (C12, C58, C93, C94)

The theorems of these properties about the text of a command line, stated of the bytes that `as_cstring` returns.
-/

namespace LinuxLoader
open Spec Cmdline Spec.Kernel

/-- The bytes of a command line that was built by calls on a fresh one, as characters. -/
theorem built_ascii {cap : UInt64} {c₀ c : Cmdline} (h₀ : Cmdline.new cap = .ok c₀) {ops : List Op}
    (hc : c = c₀.run ops) {bs : List UInt8} (hr : c.asCString = .ok bs) :
    ascii bs = text c.bootArgs c.initArgs := by
  have h3 := (AllPrintable.new h₀).run (Inv.new h₀).1 ops
  rw [← hc] at h3
  rw [asCString_ok hr, ascii_utf8 (printable_text h3.1 h3.2)]

/-- **C12, C58.** For any history of calls whose accepted boot arguments have balanced quotes and no `--` of their own:
from the rendered bytes the kernel gets the parameters of the accepted arguments, in order, and hands the accepted
init arguments, joined by spaces, to init. -/
theorem C12_rendered_composes (cap : UInt64) (c₀ c : Cmdline) (h₀ : Cmdline.new cap = .ok c₀)
    (ops : List Op) (boots inits : List Str) (ht : Trace c₀ ops boots inits c)
    (hq : ∀ t ∈ boots, Balanced t) (hd : ∀ t ∈ boots, (parseArgs t).2 = none)
    (bs : List UInt8) (hr : c.asCString = .ok bs) :
    parseArgs (ascii bs) = (boots.flatMap (fun t => (parseArgs t).1),
      if inits.foldl extend [] = [] then none else some (inits.foldl extend [])) := by
  obtain ⟨-, h2, h3⟩ := trace_args ht (Inv.new h₀).1
  rw [(Inv.new h₀).2.2.2] at h2
  rw [built_ascii h₀ h3 hr, C12_kernel_composes cap c₀ c h₀ ops boots inits ht hq hd, h2]

/-- A history gives a trace with the same init arguments. -/
theorem history_init {cap : UInt64} {c₀ c : Cmdline} (h₀ : Cmdline.new cap = .ok c₀) {ops pairs inits}
    (hh : History c₀ ops pairs inits c) : c.initArgs = inits.foldl extend [] := by
  have key : ∀ {c₀ ops pairs inits c}, History c₀ ops pairs inits c → ∃ ts, Trace c₀ ops ts inits c := by
    intro c₀ ops pairs inits c hh
    induction hh with
    | nil => exact ⟨[], .nil⟩
    | rejected hr _ ih =>
      obtain ⟨ts, h⟩ := ih
      exact ⟨ts, .rejected hr h⟩
    | boot hr ha _ ih =>
      obtain ⟨ts, h⟩ := ih
      obtain ⟨t, hb, -, -⟩ := Arg.seen ha hr
      exact ⟨t :: ts, .boot hr hb h⟩
    | init hr hi _ ih =>
      obtain ⟨ts, h⟩ := ih
      exact ⟨ts, .init hr hi h⟩
  obtain ⟨ts, ht⟩ := key hh
  rw [(trace_args ht (Inv.new h₀).1).2.1, (Inv.new h₀).2.2.2]

/-- **C12, C58.** For any history of calls whose accepted key/value arguments are kernel-safe: from the rendered bytes
the kernel gets exactly the accepted pairs, in order, and hands the accepted init arguments to init. -/
theorem C12_rendered (cap : UInt64) (c₀ c : Cmdline) (h₀ : Cmdline.new cap = .ok c₀) (ops : List Op)
    (pairs : List (Str × Str)) (inits : List Str) (hh : History c₀ ops pairs inits c)
    (bs : List UInt8) (hr : c.asCString = .ok bs) :
    parseArgs (ascii bs) = (pairs.map (fun p => (p.1, some p.2)),
      if inits.foldl extend [] = [] then none else some (inits.foldl extend [])) := by
  rw [built_ascii h₀ (history_run hh) hr, C12_kernel_sees_pairs cap c₀ c h₀ ops pairs inits hh, history_init h₀ hh]

/-- **C93.** From the rendered bytes the kernel's driver registers exactly the devices added. -/
theorem C93_rendered (cap : UInt64) (c₀ c : Cmdline) (h₀ : Cmdline.new cap = .ok c₀) (ops : List Op)
    (pairs : List (Str × Str)) (inits : List Str) (hh : History c₀ ops pairs inits c)
    (hk : ∀ op ∈ ops, (∀ k v, op = .insert k v → ¬ IsDeviceParam k) ∧
      (∀ k vs, op = .insertMultiple k vs → ¬ IsDeviceParam k))
    (bs : List UInt8) (hr : c.asCString = .ok bs) :
    driver 0 (parseArgs (ascii bs)).1 = registrations 0 (devicesAdded c₀ ops) := by
  rw [built_ascii h₀ (history_run hh) hr]
  exact C93_devices cap c₀ c h₀ ops pairs inits hh hk

/-- **C94.** Builder calls on a parsed command line: what the kernel and init get from the rendered bytes. -/
theorem C94_insertions_rendered (s : Str) (ha : Ascii s) (hb : Balanced s) (cap : UInt64) (c c' : Cmdline)
    (h : tryFrom s cap = .ok c) (ops : List Op) (boots inits : List Str) (ht : Trace c ops boots inits c')
    (hO : (parseArgs c.bootArgs).2 = none) (hI : (parseArgs c.initArgs).2 = none)
    (hq : ∀ t ∈ boots ++ inits, Balanced t ∧ (parseArgs t).2 = none)
    (bs : List UInt8) (hr : c'.asCString = .ok bs) :
    ∃ r : Str, r.utf8 = bs ∧ kernelView r =
      ((kernelView s).1 ++ boots.flatMap (fun t => (parseArgs t).1),
       (kernelView s).2 ++ inits.flatMap (fun t => (parseArgs t).1)) :=
  ⟨_, (asCString_ok hr).symm, C94_insertions s ha hb cap c c' h ops boots inits ht hO hI hq⟩

/-- A pair with a quoted value and an argument of init. -/
example : ∃ c bs, Cmdline.new 100 = .ok ⟨[], [], 100⟩ ∧ History ⟨[], [], 100⟩
    [.insert "k".toList "\"a b\"".toList, .insertInitArgs "i".toList] [("k".toList, "a b".toList)]
    ["i".toList] c ∧ c.asCString = .ok bs ∧
    parseArgs (ascii bs) = ([("k".toList, some "a b".toList)], some "i".toList) := by
  refine ⟨_, "k=\"a b\" -- i".toUTF8.toList, by decide, .boot (by decide) (.insert (k := "k".toList) (v := "\"a b\"".toList)
    (w := "a b".toList) ⟨by decide, by decide, fun _ => ⟨"a b".toList, by decide⟩, by decide⟩
    (.enclosed (w := "a b".toList))) (.init (t := "i".toList) (by decide) (.insertInitArgs
      ⟨[], [], by decide, by decide, by decide, by decide, by decide⟩) .nil), by decide +kernel, by decide +kernel⟩

/-- A trace with an argument that is not a pair. -/
example : ∃ c, Cmdline.new 100 = .ok ⟨[], [], 100⟩ ∧
    Trace ⟨[], [], 100⟩ [.insertStr "quiet a=\"b c\"".toList] ["quiet a=\"b c\"".toList] [] c ∧
    Balanced "quiet a=\"b c\"".toList ∧ (parseArgs "quiet a=\"b c\"".toList).2 = none ∧
    c.asCString = .ok "quiet a=\"b c\"".toUTF8.toList :=
  ⟨_, by decide, .boot (by decide) (.insertStr ⟨[], [], by decide, by decide, by decide, by decide, by decide⟩) .nil,
    by decide, by decide +kernel, by decide +kernel⟩

/-- A device on a parsed line. -/
example : ∃ c c', tryFrom "a \t b=\"x y\" -- i".toList 100 = .ok c ∧ Ascii "a \t b=\"x y\" -- i".toList ∧
    Balanced "a \t b=\"x y\" -- i".toList ∧ (parseArgs c.bootArgs).2 = none ∧ (parseArgs c.initArgs).2 = none ∧
    Trace c [.insertStr "q".toList] ["q".toList] [] c' ∧ (∃ bs, c'.asCString = .ok bs) :=
  ⟨⟨"a \t b=\"x y\"".toList, "i".toList, 100⟩, _, by decide +kernel, by decide, by decide, by decide +kernel,
    by decide +kernel, .boot (by decide) (.insertStr ⟨[], [], by decide, by decide, by decide, by decide, by decide⟩) .nil,
    ⟨_, rfl⟩⟩

end LinuxLoader
