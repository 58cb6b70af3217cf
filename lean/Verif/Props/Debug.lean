import Verif.Lemmas.Debug
import Verif.Lemmas.CmdlineRender
import Verif.Lemmas.Ran
import Verif.Spec.Log
import Verif.Props.HeaderIo
import Verif.Props.BzImage
import Verif.Props.Elf
import Verif.Props.Pe

/-! # C111: what `{:?}` shows

A VMM logs values with `{:?}`; `unwrap` and `assert_eq!` print them so. -/

namespace LinuxLoader
open Spec

/-! ## Command lines -/

private theorem codeList_three {α β γ : Type} {f : α → Str} {g : β → Str} {h : γ → Str} (n m k : String)
    (hf : Code f) (hg : Code g) (hh : Code h) :
    CodeList fun v : α × β × γ => [debugField n (f v.1), debugField m (g v.2.1), debugField k (h v.2.2)] := by
  have h0 : CodeList fun _ : Unit => ([] : List Str) := codeList_nil _ (fun _ => rfl) fun _ _ => rfl
  have h1 : CodeList fun v : γ => [debugField k (h v)] :=
    codeList_cons (code_field k hh) h0 (fun v => (v, ())) (fun a b e => (Prod.mk.inj e).1) _ fun _ => rfl
  have h2 : CodeList fun v : β × γ => [debugField m (g v.1), debugField k (h v.2)] :=
    codeList_cons (code_field m hg) h1 (fun v => v) (fun _ _ e => e) _ fun _ => rfl
  exact codeList_cons (code_field n hf) h2 (fun v => v) (fun _ _ e => e) _ fun _ => rfl

/-- **C111.** `{:?}` of two command lines is the same text exactly if they have the same boot arguments, the same init
arguments and the same capacity, whatever Unicode tables std has. -/
theorem C111_cmdline (U : CharTables) (c d : Cmdline) :
    c.debug U = d.debug U ↔
      c.bootArgs = d.bootArgs ∧ c.initArgs = d.initArgs ∧ c.capacity = d.capacity := by
  constructor
  · intro h
    have hc := code_struct "Cmdline" (codeList_three "boot_args" "init_args" "capacity" (code_debugStr U)
      (code_debugStr U) code_decStr)
    have := hc.inj (a := (c.bootArgs, c.initArgs, c.capacity.toNat)) (b := (d.bootArgs, d.initArgs, d.capacity.toNat)) h
    simp only [Prod.mk.injEq] at this
    exact ⟨this.1, this.2.1, UInt64.toNat_inj.1 this.2.2⟩
  · intro ⟨h1, h2, h3⟩
    unfold Cmdline.debug
    rw [h1, h2, h3]

private theorem escape_printable (U : CharTables) (s : Str) (h : Printable s) : s.flatMap U.escapeDebug = quoted s := by
  unfold quoted
  induction s with
  | nil => rfl
  | cons c s ih =>
    rw [List.flatMap_cons, List.flatMap_cons, ih fun d hd => h d (.tail _ hd)]
    congr 1
    have hc := h c (.head _)
    have h0 : c ≠ '\x00' := by rintro rfl; exact absurd hc.1 (by decide)
    have h1 : c ≠ '\t' := by rintro rfl; exact absurd hc.1 (by decide)
    have h2 : c ≠ '\r' := by rintro rfl; exact absurd hc.1 (by decide)
    have h3 : c ≠ '\n' := by rintro rfl; exact absurd hc.1 (by decide)
    unfold CharTables.escapeDebug
    rw [if_neg h0, if_neg h1, if_neg h2, if_neg h3]
    by_cases h4 : c = '"'
    · rw [if_pos h4, if_pos (.inl h4), h4]
    · by_cases h5 : c = '\\'
      · rw [if_neg h4, if_pos h5, if_pos (.inr h5), h5]
      · have hlt : c.toNat < 0x80 := by omega
        have hg : ¬ U.isGraphemeExtended c = true := by unfold CharTables.isGraphemeExtended; rw [if_pos hlt]; simp
        have hp : U.isPrintable c = true := by
          unfold CharTables.isPrintable; rw [if_pos hlt]; exact decide_eq_true ⟨hc.1, by omega⟩
        rw [if_neg h4, if_neg h5, if_neg hg, if_pos hp, if_neg (by simp [h4, h5])]

/-- **C111.** `{:?}` of a command line put together with the builder shows the boot and the init arguments as they are,
with a backslash before each double quote and backslash, and the capacity in decimal. -/
theorem C111_built (U : CharTables) (cap : UInt64) (c₀ : Cmdline) (h₀ : Cmdline.new cap = .ok c₀) (ops : List Cmdline.Op) :
    (c₀.run ops).debug U =
      "Cmdline { boot_args: \"".toList ++ quoted (c₀.run ops).bootArgs ++ "\", init_args: \"".toList ++
        quoted (c₀.run ops).initArgs ++ "\", capacity: ".toList ++ Nat.toDigits 10 cap.toNat ++ " }".toList := by
  have hp := (Cmdline.AllPrintable.new h₀).run (Cmdline.Inv.new h₀).1 ops
  have hcap : (c₀.run ops).capacity = cap := by
    rw [(Cmdline.Inv.run (Cmdline.Inv.new h₀).1 ops).2, (Cmdline.Inv.new h₀).2.1]
  unfold Cmdline.debug debugStruct debugField CharTables.debugStr
  rw [escape_printable U _ hp.1, escape_printable U _ hp.2, hcap]
  show _ = (("Cmdline".toList ++ (" { ".toList ++ ("boot_args".toList ++ ": \"".toList)))) ++ _ ++
    ("\"".toList ++ (", ".toList ++ ("init_args".toList ++ ": \"".toList))) ++ _ ++
    ("\"".toList ++ (", ".toList ++ ("capacity".toList ++ ": ".toList))) ++ _ ++ _
  simp only [commaSeparated, List.append_assoc]
  rfl

/-! ## One line -/

private theorem oneLine_append {p : Char → Bool} {ss : List Str} {a b : Str} (ha : OneLine p ss a) (hb : OneLine p ss b) :
    OneLine p ss (a ++ b) := by
  intro c hc; rw [List.mem_append] at hc; exact hc.elim (ha c) (hb c)

private theorem oneLine_printable {p : Char → Bool} {ss : List Str} {a : Str} (ha : Printable a) : OneLine p ss a :=
  fun c hc => .inl (ha c hc)

private theorem printable_decStr (n : Nat) : Printable (Cmdline.decStr n) := by
  intro c hc; have := Cmdline.decStr_digits n c hc; omega

private theorem printable_hexStr (n : Nat) : Printable (Cmdline.hexStr n) := by
  intro c hc; have := Cmdline.visible_hexStr n c hc; omega

private theorem oneLine_escape (U : CharTables) (c : Char) (ss : List Str) (s : Str) (hs : s ∈ ss) (hc : c ∈ s) :
    OneLine U.printable ss (U.escapeDebug c) := by
  rcases escape_cases U c with ⟨h, -⟩ | ⟨h, -⟩ | ⟨h, -⟩ | ⟨h, -⟩ | ⟨h, -⟩ | ⟨h, -⟩ | h | ⟨h, -, -, hp⟩
  · rw [h]; exact oneLine_printable (by decide)
  · rw [h]; exact oneLine_printable (by decide)
  · rw [h]; exact oneLine_printable (by decide)
  · rw [h]; exact oneLine_printable (by decide)
  · rw [h]; exact oneLine_printable (by decide)
  · rw [h]; exact oneLine_printable (by decide)
  · rw [h]
    exact oneLine_append (a := ['\\', 'u', '{']) (oneLine_printable (by decide))
      (oneLine_append (oneLine_printable (printable_hexStr _)) (oneLine_printable (by decide)))
  · rw [h]
    intro d hd
    obtain rfl := List.mem_singleton.1 hd
    unfold CharTables.isPrintable at hp
    split at hp
    · have := of_decide_eq_true hp; exact .inl (by omega)
    · exact .inr ⟨by omega, hp, s, hs, hc⟩

private theorem oneLine_debugStr (U : CharTables) (s : Str) (ss : List Str) (hs : s ∈ ss) :
    OneLine U.printable ss (U.debugStr s) := by
  unfold CharTables.debugStr
  refine oneLine_append (oneLine_printable (by decide)) (oneLine_append ?_ (oneLine_printable (by decide)))
  intro c hc
  obtain ⟨d, hd, hc⟩ := List.mem_flatMap.1 hc
  exact oneLine_escape U d ss s hs hd c hc

private def plainErrors : List CmdlineError :=
  [.nullTerminator, .noBootArgsInserted, .invalidCapacity, .invalidAscii, .hasSpace, .hasEquals, .mmioSize, .tooLarge,
    .noQuoteSpace, .invalidQuote]

private theorem mem_plainErrors (e : CmdlineError) (h : ∀ k, e ≠ .missingVal k) : e ∈ plainErrors := by
  cases e with
  | missingVal k => exact absurd rfl (h k)
  | _ => simp [plainErrors]

private theorem plain_same (U V : CharTables) (e : CmdlineError) (h : ∀ k, e ≠ .missingVal k) : e.debug U = e.debug V := by
  cases e with
  | missingVal k => exact absurd rfl (h k)
  | _ => rfl

private def asciiOnly : CharTables := ⟨fun _ => false, fun _ => false⟩

/-- **C111.** `{:?}` of any command line, also of one parsed from an arbitrary string (C08), and of any error of the
builder stays on one line: no control character of a string gets into the text. -/
theorem C111_one_line (U : CharTables) :
    (∀ c : Cmdline, OneLine U.printable [c.bootArgs, c.initArgs] (c.debug U)) ∧
    (∀ k : Str, OneLine U.printable [k] (CmdlineError.debug U (.missingVal k))) ∧
    (∀ e : CmdlineError, (∀ k, e ≠ .missingVal k) → OneLine U.printable [] (e.debug U)) := by
  refine ⟨?_, ?_, ?_⟩
  · intro c
    have hb := oneLine_debugStr U c.bootArgs [c.bootArgs, c.initArgs] (.head _)
    have hi := oneLine_debugStr U c.initArgs [c.bootArgs, c.initArgs] (.tail _ (.head _))
    have hn := oneLine_printable (p := U.printable) (ss := [c.bootArgs, c.initArgs]) (printable_decStr c.capacity.toNat)
    unfold Cmdline.debug debugStruct debugField
    simp only [commaSeparated]
    generalize U.debugStr c.bootArgs = x at hb
    generalize U.debugStr c.initArgs = y at hi
    generalize Cmdline.decStr c.capacity.toNat = z at hn
    repeat' apply oneLine_append
    all_goals first
      | assumption
      | exact oneLine_printable (by decide)
  · intro k
    have hk := oneLine_debugStr U k [k] (.head _)
    show OneLine _ [k] (debugTuple "MissingVal" (U.debugStr k))
    unfold debugTuple
    generalize U.debugStr k = x at hk
    repeat' apply oneLine_append
    all_goals first
      | assumption
      | exact oneLine_printable (by decide)
  · intro e he
    have key : ∀ e ∈ plainErrors, Printable (CmdlineError.debug asciiOnly e) := by decide +kernel
    rw [plain_same U asciiOnly e he]
    exact oneLine_printable (key e (mem_plainErrors e he))

/-! ## Errors -/

private def elfErrors : List ElfError :=
  [.align, .bigEndianElfOnLittle, .invalidElfMagicNumber, .invalidProgramHeaderSize,
   .invalidProgramHeaderOffset, .invalidProgramHeaderAddress, .invalidEntryAddress, .overflow,
   .readElfHeader, .readKernelImage, .readProgramHeader, .seekKernelStart, .seekElfStart,
   .seekProgramHeader, .seekNoteHeader, .readNoteHeader, .invalidPvhNote]

private def bzErrors : List BzError :=
  [.invalidBzImage, .overflow, .readBzImageHeader, .readBzImageCompressedKernel, .seekBzImageEnd,
   .seekBzImageHeader, .seekBzImageCompressedKernel, .underflow]

private def peErrors : List PeError :=
  [.seekImageEnd, .seekImageHeader, .readImageHeader, .readDtbImage, .seekDtbStart, .seekDtbEnd,
   .invalidImage, .invalidImageMagicNumber, .dtbTooBig, .readKernelImage, .invalidBaseAddrAlignment]

private def kernelErrors : List KernelError :=
  bzErrors.map .bzimage ++ elfErrors.map .elf ++ peErrors.map .pe ++
    [.invalidCommandLine, .commandLineCopy, .commandLineOverflow, .invalidKernelStartAddress, .memoryOverflow]

private def pvhErrors : List PvhError :=
  [.memmapTableAddressMissing, .memmapTableMissing, .memmapTablePastRamEnd, .memmapTableSetup,
   .startInfoPastRamEnd, .startInfoSetup, .modulesAddressMissing, .modulesSetup]

private def configErrors : List ConfigError :=
  [.linux .zeroPagePastRamEnd, .linux .zeroPageSetup, .fdt .fdtPastRamEnd, .fdt .writeFdtToMemory,
    .list .missingStartAddress, .list .overflow, .list .invalidAddress] ++ pvhErrors.map .pvh

private theorem mem_kernelErrors (e : KernelError) : e ∈ kernelErrors := by
  cases e with
  | bzimage e => cases e <;> simp [kernelErrors, bzErrors]
  | elf e => cases e <;> simp [kernelErrors, elfErrors]
  | pe e => cases e <;> simp [kernelErrors, peErrors]
  | _ => simp [kernelErrors]

private theorem mem_configErrors (e : ConfigError) : e ∈ configErrors := by
  cases e with
  | linux e => cases e <;> simp [configErrors]
  | pvh e => cases e <;> simp [configErrors, pvhErrors]
  | fdt e => cases e <;> simp [configErrors]
  | list e => cases e <;> simp [configErrors]

/-- **C111.** `{:?}` of two errors is the same text only if the errors are the same: those of the kernel loaders, those
of the configurators (whose `Display` does not tell them apart, C65) and those of the command line builder. -/
theorem C111_errors :
    (∀ e f : KernelError, e.debug = f.debug → e = f) ∧
    (∀ e f : ConfigError, e.debug = f.debug → e = f) ∧
    (∀ (U : CharTables) (e f : CmdlineError), e.debug U = f.debug U → e = f) := by
  refine ⟨?_, ?_, ?_⟩
  · have key : ∀ e ∈ kernelErrors, ∀ f ∈ kernelErrors, e.debug = f.debug → e = f := by decide +kernel
    exact fun e f => key e (mem_kernelErrors e) f (mem_kernelErrors f)
  · have key : ∀ e ∈ configErrors, ∀ f ∈ configErrors, e.debug = f.debug → e = f := by decide +kernel
    exact fun e f => key e (mem_configErrors e) f (mem_configErrors f)
  · intro U e f h
    have hsame : ∀ e, (∀ k, e ≠ .missingVal k) → CmdlineError.debug U e = CmdlineError.debug asciiOnly e :=
      plain_same U asciiOnly
    have hplain : ∀ e ∈ plainErrors, '(' ∉ CmdlineError.debug asciiOnly e := by decide +kernel
    have key : ∀ e ∈ plainErrors, ∀ f ∈ plainErrors,
        CmdlineError.debug asciiOnly e =
          CmdlineError.debug asciiOnly f → e = f := by decide +kernel
    have hmiss : ∀ k, '(' ∈ CmdlineError.debug U (.missingVal k) := by
      intro k
      unfold CmdlineError.debug debugTuple
      simp
    by_cases he : ∃ k, e = .missingVal k
    · obtain ⟨k, rfl⟩ := he
      by_cases hf : ∃ l, f = .missingVal l
      · obtain ⟨l, rfl⟩ := hf
        rw [(code_tuple "MissingVal" (code_debugStr U)).inj h]
      · have hf' : ∀ l, f ≠ .missingVal l := fun l hl => hf ⟨l, hl⟩
        refine absurd (hmiss k) ?_
        rw [h, hsame f hf']
        exact hplain f (mem_plainErrors f hf')
    · have he' : ∀ l, e ≠ .missingVal l := fun l hl => he ⟨l, hl⟩
      by_cases hf : ∃ l, f = .missingVal l
      · obtain ⟨l, rfl⟩ := hf
        refine absurd (hmiss l) ?_
        rw [← h, hsame e he']
        exact hplain e (mem_plainErrors e he')
      · have hf' : ∀ l, f ≠ .missingVal l := fun l hl => hf ⟨l, hl⟩
        rw [hsame e he', hsame f hf'] at h
        exact key e (mem_plainErrors e he') f (mem_plainErrors f hf') h

/-! ## Structures and results -/

/-- **C111.** `{:?}` of two values of an exported structure (the ELF headers, the PVH structures, `setup_header`,
`boot_params`, the Image headers, with all their nested structures and arrays) is the same text only if all their
integers are the same. -/
theorem C111_structures (t : Types.Ty) (name : String) (v w : t.Val) (h : t.debug name v = t.debug name w) : v = w :=
  (Types.code_debug t name).inj h

private theorem infix_commaSeparated {x : Str} : ∀ {l : List Str}, x ∈ l → x <:+: commaSeparated l
  | [y], h => by rw [List.mem_singleton.1 h]; exact List.infix_rfl
  | y :: z :: l, h => by
    unfold commaSeparated
    rcases List.mem_cons.1 h with rfl | h
    · exact (List.prefix_append _ _).isInfix
    · exact (infix_commaSeparated h).trans ((List.suffix_append _ _).isInfix.trans (List.suffix_append _ _).isInfix)

private theorem find_debugs : ∀ (fs : Types.Fields) (v : fs.Vals) (n : String) (t : Types.Ty) (x : t.Val),
    fs.find v n = some ⟨t, x⟩ → debugField n (t.debug (Types.structName n) x) ∈ fs.debugs v
  | .nil, _, _, _, _, h => by simp [Types.Fields.find] at h
  | .cons m u rest, (y, ys), n, t, x, h => by
    simp only [Types.Fields.find] at h
    simp only [Types.Fields.debugs]
    split at h
    · rename_i hm
      subst hm
      cases h
      exact .head _
    · exact .tail _ (find_debugs rest ys n t x h)

private theorem mem_ofFn {α : Type} {n : Nat} (f : Fin n → α) (i : Fin n) : f i ∈ List.ofFn f :=
  List.mem_ofFn.2 ⟨i, rfl⟩

/-- **C111.** In `{:?}` of a structure every integer field stands with its name and its value in decimal, also the fields
of nested structures and of structures in arrays (`params.hdr.version`, `params.e820_table[3].addr`). -/
theorem C111_fields (n : String) (x : Nat) : ∀ (path : List Types.Step) (t : Types.Ty) (name : String) (v : t.Val),
    t.get v (path ++ [.field n]) = some x → n.toList ++ ": ".toList ++ Nat.toDigits 10 x <:+: t.debug name v := by
  have up : ∀ (cap : Nat) (fs : Types.Fields) (name : String) (v : fs.Vals) (s : String) (u : Types.Ty) (y : u.Val),
      fs.find v s = some ⟨u, y⟩ →
      debugField s (u.debug (Types.structName s) y) <:+: Types.Ty.debug (.struct cap fs) name v := by
    intro cap fs name v s u y h
    have h3 : Types.Ty.debug (.struct cap fs) name v = debugStruct name (fs.debugs v) := by simp only [Types.Ty.debug]
    rw [h3]
    unfold debugStruct
    refine (infix_commaSeparated (find_debugs fs v s u y h)).trans ?_
    exact (List.prefix_append _ _).isInfix.trans
      ((List.suffix_append _ _).isInfix.trans (List.suffix_append _ _).isInfix)
  intro path
  induction path with
  | nil =>
    intro t name v h
    cases t with
    | int k => simp [Types.Ty.get] at h
    | arr u k => simp [Types.Ty.get] at h
    | struct cap fs =>
      simp only [List.nil_append, Types.Ty.get] at h
      cases hf : fs.find v n with
      | none => rw [hf] at h; cases h
      | some w =>
        obtain ⟨u, y⟩ := w
        rw [hf] at h
        simp only at h
        cases u with
        | int k =>
          simp only [Types.Ty.get, Option.some.injEq] at h
          refine List.IsInfix.trans ?_ (up cap fs name v n _ y hf)
          have : n.toList ++ ": ".toList ++ Nat.toDigits 10 x =
              debugField n (Types.Ty.debug (.int k) (Types.structName n) y) := by
            rw [← h]
            simp only [debugField, Types.Ty.debug, Cmdline.decStr, List.append_assoc]
            rfl
          rw [this]
          exact List.infix_rfl
        | arr u k => simp [Types.Ty.get] at h
        | struct cap' fs' => simp [Types.Ty.get] at h
  | cons st path ih =>
    intro t name v h
    cases t with
    | int k => simp [Types.Ty.get] at h
    | arr u k =>
      cases st with
      | field s => simp [Types.Ty.get] at h
      | index i =>
        simp only [List.cons_append, Types.Ty.get] at h
        split at h
        · rename_i hi
          have h1 := ih u name (v ⟨i, hi⟩) h
          have h2 : Types.Ty.debug (.arr u k) name v = debugList (List.ofFn fun i => u.debug name (v i)) := by
            simp only [Types.Ty.debug]
          rw [h2]
          unfold debugList
          refine h1.trans ((infix_commaSeparated (mem_ofFn (fun i => u.debug name (v i)) ⟨i, hi⟩)).trans ?_)
          exact (List.prefix_append _ _).isInfix.trans (List.suffix_append _ _).isInfix
        · cases h
    | struct cap fs =>
      cases st with
      | index i => simp [Types.Ty.get] at h
      | field s =>
        simp only [List.cons_append, Types.Ty.get] at h
        cases hf : fs.find v s with
        | none => rw [hf] at h; cases h
        | some w =>
          obtain ⟨u, y⟩ := w
          rw [hf] at h
          refine (ih u (Types.structName s) y h).trans (List.IsInfix.trans ?_ (up cap fs name v s u y hf))
          unfold debugField
          exact (List.suffix_append _ _).isInfix.trans (List.suffix_append _ _).isInfix

private theorem take_text {l x : Str} {n : Nat} (h : n ≤ l.length) : (l ++ x).take n = l.take n :=
  List.take_append_of_le_length h

private theorem present_text (a : Nat) : PvhCap.debug (.present a) =
    "PvhEntryPresent".toList ++ (['('] ++ (debugAddress a ++ [')'])) := rfl

private theorem code_pvh : Code PvhCap.debug := by
  intro p q x y hx hy e
  have t1 : ∀ a z, (PvhCap.debug (.present a) ++ z).take 9 = "PvhEntryP".toList := by
    intro a z
    rw [present_text, List.append_assoc, take_text (by decide)]; decide
  have t2 : ∀ z, (PvhCap.debug .notPresent ++ z).take 9 = "PvhEntryN".toList := by
    intro z; rw [take_text (by decide)]; decide
  have t3 : ∀ z, (PvhCap.debug .ignored ++ z).take 9 = "PvhEntryI".toList := by
    intro z; rw [take_text (by decide)]; decide
  have e9 := congrArg (List.take 9) e
  cases p <;> cases q <;> simp only [t1, t2, t3] at e9
  · obtain ⟨h1, h2⟩ := code_tuple "PvhEntryPresent" (code_tuple "GuestAddress" code_decStr) _ _ x y hx hy e
    exact ⟨by rw [h1], h2⟩
  all_goals first
    | exact ⟨rfl, List.append_cancel_left e⟩
    | exact absurd e9 (by decide)

private theorem code_header : Code fun h : Option Types.setupHeader.Val =>
    match h with
    | none => "None".toList
    | some v => debugTuple "Some" (Types.setupHeader.debug "setup_header" v) := by
  intro p q x y hx hy e
  cases p with
  | none =>
    cases q with
    | none => exact ⟨rfl, List.append_cancel_left e⟩
    | some w =>
      have := congrArg (List.take 1) e
      unfold debugTuple at this
      simp only [List.append_assoc] at this
      rw [take_text (by decide), take_text (by decide)] at this
      exact absurd this (by decide)
  | some v =>
    cases q with
    | none =>
      have := congrArg (List.take 1) e
      unfold debugTuple at this
      simp only [List.append_assoc] at this
      rw [take_text (by decide), take_text (by decide)] at this
      exact absurd this (by decide)
    | some w =>
      obtain ⟨h1, h2⟩ := code_tuple "Some" (Types.code_debug Types.setupHeader "setup_header") v w x y hx hy e
      exact ⟨by rw [h1], h2⟩

private theorem elf_no_header {koff highmem : Option GuestAddr} {s s' : LS} {r : LoadResult}
    (h : elfLoad koff highmem s = (.ok r, s')) : r.setupHeader = none := by
  unfold elfLoad at h
  rw [LM.bind_eq_ok] at h; obtain ⟨_, _, -, h⟩ := h
  rw [LM.bind_eq_ok] at h; obtain ⟨_, _, -, h⟩ := h
  rw [LM.bind_eq_ok] at h; obtain ⟨_, _, -, h⟩ := h
  rw [LM.bind_eq_ok] at h; obtain ⟨_, _, -, h⟩ := h
  rw [LM.bind_eq_ok] at h; obtain ⟨_, _, -, h⟩ := h
  rw [LM.bind_eq_ok] at h; obtain ⟨_, _, -, h⟩ := h
  rw [LM.bind_eq_ok] at h; obtain ⟨_, _, -, h⟩ := h
  rw [LM.bind_eq_ok] at h; obtain ⟨_, _, -, h⟩ := h
  cases h
  rfl

private theorem header_inj {b c : List UInt8} (hb : b.length = 123) (hc : c.length = 123)
    (h : Types.setupHeader.ofSlice b = Types.setupHeader.ofSlice c) : b = c := by
  have hd : denseTy Types.setupHeader = true := by decide +kernel
  have hs : Types.setupHeader.layout.size = 123 := by decide +kernel
  have h1 := asSlice_ofSlice _ hd b (by rw [hs, hb]; exact Nat.le_refl _)
  have h2 := asSlice_ofSlice _ hd c (by rw [hs, hc]; exact Nat.le_refl _)
  rw [hs] at h1 h2
  rw [← hb, List.take_length] at h1
  rw [← hc, List.take_length] at h2
  rw [← h1, ← h2, h]

/-- **C111.** `{:?}` of the results of two successful loads is the same text exactly if the results are the same: on
x86_64 (`Elf::load`, `BzImage::load`) with every field of the setup header, on aarch64 and riscv64 (`PE::load`). -/
theorem C111_result {koff highmem koff' highmem' : Option GuestAddr} {s s' t t' : LS} {r q : LoadResult} :
    ((elfLoad koff highmem s = (.ok r, s') ∨ bzLoad koff highmem s = (.ok r, s')) →
      (elfLoad koff' highmem' t = (.ok q, t') ∨ bzLoad koff' highmem' t = (.ok q, t')) →
      (r.debug true = q.debug true ↔ r = q)) ∧
    (∀ arch arch', peLoad arch koff highmem s = (.ok r, s') → peLoad arch' koff' highmem' t = (.ok q, t') →
      (r.debug false = q.debug false ↔ r = q)) := by
  constructor
  · intro hr hq
    refine ⟨fun h => ?_, fun h => by rw [h]⟩
    have h0 : CodeList fun _ : Unit => ([] : List Str) := codeList_nil _ (fun _ => rfl) fun _ _ => rfl
    have h1 := codeList_cons (code_field "pvh_boot_cap" code_pvh) h0 (fun v => (v, ()))
      (fun a b e => (Prod.mk.inj e).1) _ fun _ => rfl
    have h2 := codeList_cons (code_field "setup_header" code_header) h1 (fun v => v) (fun _ _ e => e) _ fun _ => rfl
    have h3 := codeList_cons (code_field "kernel_end" code_decStr) h2 (fun v => v) (fun _ _ e => e) _ fun _ => rfl
    have h4 := codeList_cons (code_field "kernel_load" (code_tuple "GuestAddress" code_decStr)) h3 (fun v => v)
      (fun _ _ e => e) _ fun _ => rfl
    have h5 := code_struct "KernelLoaderResult" h4
    have view : ∀ r : LoadResult, r.debug true = debugStruct "KernelLoaderResult"
        [debugField "kernel_load" (debugTuple "GuestAddress" (Cmdline.decStr r.kernelLoad)),
          debugField "kernel_end" (Cmdline.decStr r.kernelEnd),
          debugField "setup_header" (match r.setupHeader.map Types.setupHeader.ofSlice with
            | none => "None".toList
            | some v => debugTuple "Some" (Types.setupHeader.debug "setup_header" v)),
          debugField "pvh_boot_cap" r.pvh.debug] := by
      intro r
      unfold LoadResult.debug debugSetupHeader debugAddress
      cases r.setupHeader <;> rfl
    rw [view r, view q] at h
    have := h5.inj (a := (r.kernelLoad, r.kernelEnd, r.setupHeader.map Types.setupHeader.ofSlice, r.pvh))
      (b := (q.kernelLoad, q.kernelEnd, q.setupHeader.map Types.setupHeader.ofSlice, q.pvh)) h
    simp only [Prod.mk.injEq] at this
    obtain ⟨e1, e2, e3, e4⟩ := this
    have len : ∀ {koff highmem : Option GuestAddr} {s s' : LS} {r : LoadResult},
        (elfLoad koff highmem s = (.ok r, s') ∨ bzLoad koff highmem s = (.ok r, s')) →
        ∀ b, r.setupHeader = some b → b.length = 123 := by
      intro koff highmem s s' r h b hb
      rcases h with h | h
      · rw [elf_no_header h] at hb; cases hb
      · obtain ⟨k, -, -, hr, -⟩ := bzLoad_ok_any h
        rw [hr] at hb
        cases hb
        have := bzBuf_length s.rd.data k
        unfold setCode32
        simp [this, leBytes_length]
    have e5 : r.setupHeader = q.setupHeader := by
      cases hb : r.setupHeader with
      | none => rw [hb] at e3; cases hc : q.setupHeader with
        | none => rfl
        | some c => rw [hc] at e3; cases e3
      | some b => rw [hb] at e3; cases hc : q.setupHeader with
        | none => rw [hc] at e3; cases e3
        | some c =>
          rw [hc] at e3
          rw [header_inj (len hr b hb) (len hq c hc) (Option.some.inj e3)]
    cases r; cases q
    simp only at e1 e2 e4 e5
    rw [e1, e2, e4, e5]
  · intro arch arch' hr hq
    refine ⟨fun h => ?_, fun h => by rw [h]⟩
    obtain ⟨-, hr, -⟩ := peLoad_ok hr
    obtain ⟨-, hq, -⟩ := peLoad_ok hq
    have h0 : CodeList fun _ : Unit => ([] : List Str) := codeList_nil _ (fun _ => rfl) fun _ _ => rfl
    have h1 := codeList_cons (code_field "kernel_end" code_decStr) h0 (fun v => (v, ()))
      (fun a b e => (Prod.mk.inj e).1) _ fun _ => rfl
    have h2 := codeList_cons (code_field "kernel_load" (code_tuple "GuestAddress" code_decStr)) h1 (fun v => v)
      (fun _ _ e => e) _ fun _ => rfl
    have := (code_struct "KernelLoaderResult" h2).inj (a := (r.kernelLoad, r.kernelEnd))
      (b := (q.kernelLoad, q.kernelEnd)) h
    simp only [Prod.mk.injEq] at this
    have hr1 : r = ⟨r.kernelLoad, r.kernelEnd, none, .ignored⟩ := by rw [hr]
    have hq1 : q = ⟨q.kernelLoad, q.kernelEnd, none, .ignored⟩ := by rw [hq]
    rw [hr1, hq1, this.1, this.2]

/-! ## Cases that meet the hypotheses -/

private def loggedLine : Cmdline := ⟨"root=/dev/vda a=\"b c\" ".toList.dropLast, "s\n\x1b[2J".toList, 100⟩

example : loggedLine.debug asciiOnly =
    "Cmdline { boot_args: \"root=/dev/vda a=\\\"b c\\\"\", init_args: \"s\\n\\u{1b}[2J\", capacity: 100 }".toList := by
  decide +kernel

/-- Two command lines that are equal (C18) and logged differently. -/
example : Cmdline.debug asciiOnly ⟨"a".toList, "b".toList, 10⟩ ≠ Cmdline.debug asciiOnly ⟨"a -- b".toList, [], 10⟩ :=
  fun h => absurd ((C111_cmdline asciiOnly _ _).1 h).1 (by decide)

example := C111_built asciiOnly 100 ⟨[], [], 100⟩ (by decide +kernel)
  [.insert "a".toList "\"b c\"".toList, .insertInitArgs "x\\y".toList]

example : (Cmdline.run ⟨[], [], 100⟩ [.insert "a".toList "\"b c\"".toList, .insertInitArgs "x\\y".toList]).debug asciiOnly =
    "Cmdline { boot_args: \"a=\\\"b c\\\"\", init_args: \"x\\\\y\", capacity: 100 }".toList := by decide +kernel

example : KernelError.debug (.elf .invalidPvhNote) = "Elf(InvalidPvhNote)".toList ∧
    ConfigError.debug (.pvh .memmapTableMissing) = "Pvh(MemmapTableMissing)".toList ∧
    CmdlineError.debug asciiOnly (.missingVal "a\nb".toList) = "MissingVal(\"a\\nb\")".toList := by decide +kernel

example : Types.hvmModlistEntry.debug "hvm_modlist_entry" (Types.hvmModlistEntry.ofSlice (List.replicate 32 1)) =
    ("hvm_modlist_entry { paddr: 72340172838076673, size: 72340172838076673, " ++
      "cmdline_paddr: 72340172838076673, reserved: 72340172838076673 }").toList := by decide +kernel

private def noteFields : Types.Fields :=
  .cons "n_namesz" Types.i32 (.cons "n_descsz" Types.i32 (.cons "n_type" Types.i32 .nil))

private def noteVals : noteFields.Vals := (4#32, 8#32, 18#32, ())

example : Types.elf64Nhdr = .struct 16 noteFields := rfl

example := C111_fields "n_descsz" 8 [] (.struct 16 noteFields) "Elf64_Nhdr" noteVals (by decide +kernel)

example (v : Types.bootParams.Val) (x : Nat) (h : Types.bootParams.get v [.field "e820_table", .index 3, .field "addr"] = some x) :
    "addr: ".toList ++ Nat.toDigits 10 x <:+: Types.bootParams.debug "boot_params" v :=
  C111_fields "addr" x [.field "e820_table", .index 3] Types.bootParams "boot_params" v h

example : Types.sysDescTable.debug "sys_desc_table" (Types.sysDescTable.ofSlice ((List.range 16).map UInt8.ofNat)) =
    "sys_desc_table { length: 256, table: [2, 3, 4, 5, 6, 7, 8, 9, 10, 11, 12, 13, 14, 15] }".toList := by decide +kernel

example : (elfLoad none none demoState).1.isOk = true ∧ (bzLoad none (some 0x30) bzState).1.isOk = true ∧
    (peLoad .arm64 (some 0x200000) none ⟨⟨mkPe 0x10 1 0x644d5241, 3, fun _ => .ok, 0⟩, peMem⟩).1.isOk = true :=
  ⟨by decide +kernel, by decide +kernel, by rw [demoPe_loads.1]; rfl⟩

example (r q : LoadResult)
    (h : (peLoad .arm64 (some 0x200000) none ⟨⟨mkPe 0x10 1 0x644d5241, 3, fun _ => .ok, 0⟩, peMem⟩).1 = .ok r)
    (k : (peLoad .riscv64 none none ⟨.cursor (mkPe 0x10 0 0x05435352), peMem⟩).1 = .ok q) :=
  (C111_result (koff := some 0x200000) (highmem := none) (koff' := none) (highmem' := none)).2 _ _ (ran h) (ran k)

example (r q : LoadResult) (h : (elfLoad none none demoState).1 = .ok r) (k : (bzLoad none (some 0x30) bzState).1 = .ok q) :=
  (C111_result (koff := none) (highmem := none) (koff' := none) (highmem' := some 0x30)).1 (.inl (ran h)) (.inr (ran k))

example : (LoadResult.debug true ⟨0x100000, 0x200000, none, .present 0x1000⟩) =
    ("KernelLoaderResult { kernel_load: GuestAddress(1048576), kernel_end: 2097152, setup_header: None, " ++
      "pvh_boot_cap: PvhEntryPresent(GuestAddress(4096)) }").toList := by decide +kernel

end LinuxLoader
