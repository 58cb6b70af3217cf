import Verif.Lemmas.ByteStr
import Verif.Lemmas.CmdlineParse
import Verif.Props.CmdlineBuild

/-!
# Strings as bytes (C82)

Vocabulary: `Spec/Utf8.lean`.
-/

namespace LinuxLoader
open Spec

theorem bind_enc {α β γ δ : Type} {x : Res CmdlineError α} {y : Byte.R β} {f : α → Res CmdlineError γ}
    {g : β → Byte.R δ} {h : α → β} {k : γ → δ} (hy : y = encRes h x)
    (hg : ∀ a, g (h a) = encRes k (f a)) : y.bind g = encRes k (x.bind f) := by
  subst hy
  cases x with
  | ok a => exact hg a
  | err e => rfl
  | panic => rfl

theorem all_validChar_utf8 (s : Str) : (s.map Char.toNat).all Byte.validChar = s.all validChar := by
  induction s with
  | nil => rfl
  | cons c s ih =>
    rw [List.map_cons, List.all_cons, List.all_cons, ih]
    refine congrArg (· && _) ?_
    rw [Bool.eq_iff_iff, validChar_iff]
    simp [Byte.validChar]

theorem validStr_utf8 (s : Str) : Byte.validStr s.utf8 = encRes id (validStr s) := by
  unfold Byte.validStr validStr
  rw [chars_utf8, Res.bind_ok, all_validChar_utf8]
  split <;> rfl

theorem len_utf8 (s : Str) : (Str.utf8 s).length = s.utf8Len := utf8_length s

theorem beq_toNat (c : Char) (d : Char) : (c.toNat == d.toNat) = (c == d) := by
  rw [Bool.eq_iff_iff, beq_iff_eq, beq_iff_eq]
  constructor
  · intro h; exact Char.ext (UInt32.toNat_inj.1 h)
  · rintro rfl; rfl

theorem isQuoted_utf8 (s : Str) : Byte.isQuoted s.utf8 = .ok (isQuoted s) := by
  unfold Byte.isQuoted isQuoted
  rw [len_utf8]
  split
  · rfl
  cases s with
  | nil => rfl
  | cons c s =>
    rw [next_utf8]
    rcases List.eq_nil_or_concat (c :: s) with h | ⟨s', d, h⟩
    · cases h
    · have hb := nextBack_utf8 s' d
      rw [List.concat_eq_append] at h
      rw [← h] at hb
      have hl : (c :: s).getLast? = some d := by rw [h]; simp
      rw [hl]
      show (Byte.nextBack (Str.utf8 (c :: s))).bind _ = _
      rw [hb]
      show Res.ok ((c.toNat == ('"').toNat) && (d.toNat == ('"').toNat)) = Res.ok (c == '"' && d == '"')
      rw [beq_toNat, beq_toNat]

theorem containsDoubleQuotes_utf8 (s : Str) :
    Byte.containsDoubleQuotes s.utf8 = .ok (containsDoubleQuotes s) := by
  unfold Byte.containsDoubleQuotes containsDoubleQuotes
  rw [len_utf8]
  split
  · rfl
  rw [chars_utf8]
  show Res.ok ((((s.map Char.toNat).drop 1).take (s.utf8Len - 2)).any (· == 0x22)) = _
  rw [← List.map_drop, ← List.map_take, List.any_map]
  refine congrArg Res.ok (congrArg (fun p => List.any _ p) ?_)
  funext c
  exact beq_toNat c '"'

theorem contains_space (s : Str) : s.utf8.contains 0x20 = s.contains ' ' :=
  contains_utf8 (d := ' ') (by decide)

theorem validKey_utf8 (k : Str) : Byte.validKey k.utf8 = encRes id (validKey k) := by
  unfold Byte.validKey validKey
  rw [chars_utf8, Res.bind_ok, all_validChar_utf8, contains_space,
    show k.utf8.contains 0x3D = k.contains '=' from contains_utf8 (d := '=') (by decide)]
  repeat' split
  all_goals rfl

theorem validValue_utf8 (v : Str) : Byte.validValue v.utf8 = encRes id (validValue v) := by
  unfold Byte.validValue validValue
  rw [chars_utf8, Res.bind_ok, all_validChar_utf8, contains_space, containsDoubleQuotes_utf8, isQuoted_utf8]
  simp only [Res.bind_ok]
  cases v.all validChar <;> cases containsDoubleQuotes v <;> cases v.contains ' ' <;>
    cases isQuoted v <;> rfl

theorem size_utf8 (c : Cmdline) : (encCmdline c).nullTerminatedSize = encRes id c.nullTerminatedSize := by
  unfold Byte.Cmdline.nullTerminatedSize Cmdline.nullTerminatedSize
  have h4 : Byte.separator.length = initArgsSeparator.utf8Len := by decide +kernel
  simp only [encCmdline, len_utf8, ne_eq, utf8_eq_nil, h4]
  have hp : ∀ a b, (plainAdd a b : Byte.R Nat) = encRes id (plainAdd a b) := by
    intro a b; unfold plainAdd; split <;> rfl
  refine bind_enc (h := id) (hp _ _) fun a => ?_
  simp only [id]
  split
  · exact bind_enc (h := id) (hp _ _) fun b => hp _ _
  · rfl

theorem okOr_enc {α : Type} (o : Option α) (e : CmdlineError) :
    (okOr o (encErr e) : Byte.R α) = encRes id (okOr o e) := by
  cases o <;> rfl

theorem enc_pair {c : Cmdline} {s : Res CmdlineError Str} {b : Byte.R Bytes} (hb : b = encRes Str.utf8 s)
    {f : Str → Cmdline} {g : Bytes → Byte.Cmdline} (hg : ∀ t, g t.utf8 = encCmdline (f t)) :
    (match b with
      | .ok s => (g s, Res.ok ())
      | .err e => (encCmdline c, .err e)
      | .panic => (encCmdline c, .panic)) =
    let r := (match s with
      | .ok s => (f s, Res.ok ())
      | .err e => (c, .err e)
      | .panic => (c, .panic))
    (encCmdline r.1, encRes id r.2) := by
  subst hb
  cases s with
  | ok s => simp only [encRes, hg]
  | err e => rfl
  | panic => rfl

theorem cap_check (size cap : Nat) (t : Str) :
    (if size > cap then .err .tooLarge else .ok t.utf8 : Byte.R Bytes) =
    encRes Str.utf8 (if size > cap then .err .tooLarge else .ok t) := by
  split <;> rfl

theorem insertStr_utf8 (c : Cmdline) (s : Str) : (encCmdline c).insertStr s.utf8 =
    (encCmdline (c.insertStr s).1, encRes id (c.insertStr s).2) := by
  unfold Byte.Cmdline.insertStr Cmdline.insertStr
  refine enc_pair ?_ fun t => ?_
  · unfold Cmdline.checkInsertStr
    rw [trim_utf8, Res.bind_ok]
    refine bind_enc (h := id) (validStr_utf8 _) fun _ => ?_
    refine bind_enc (h := id) (size_utf8 c) fun size => ?_
    simp only [id, encCmdline, ne_eq, utf8_eq_nil, len_utf8]
    refine bind_enc (h := id) ?_ fun size => ?_
    · split
      · exact okOr_enc _ .tooLarge
      · rfl
    refine bind_enc (h := id) (okOr_enc _ .tooLarge) fun size => ?_
    exact cap_check _ _ _
  · simp only [encCmdline, ne_eq, utf8_eq_nil, utf8_append]
    have : Str.utf8 [' '] = [0x20] := by decide +kernel
    split <;> simp [utf8_append, this]

theorem insertInitArgs_utf8 (c : Cmdline) (s : Str) : (encCmdline c).insertInitArgs s.utf8 =
    (encCmdline (c.insertInitArgs s).1, encRes id (c.insertInitArgs s).2) := by
  unfold Byte.Cmdline.insertInitArgs Cmdline.insertInitArgs
  refine enc_pair ?_ fun t => ?_
  · unfold Cmdline.checkInsertInit
    rw [trim_utf8, Res.bind_ok]
    refine bind_enc (h := id) (validStr_utf8 _) fun _ => ?_
    refine bind_enc (h := id) (size_utf8 c) fun size => ?_
    have h4 : Byte.separator.length = initArgsSeparator.utf8Len := by decide +kernel
    simp only [id, encCmdline, utf8_eq_nil, len_utf8, h4]
    refine bind_enc (h := id) (okOr_enc _ .tooLarge) fun size => ?_
    refine bind_enc (h := id) (okOr_enc _ .tooLarge) fun size => ?_
    exact cap_check _ _ _
  · simp only [encCmdline, ne_eq, utf8_eq_nil, utf8_append]
    have : Str.utf8 [' '] = [0x20] := by decide +kernel
    split <;> simp [utf8_append, this]

theorem insert_utf8 (c : Cmdline) (k v : Str) : (encCmdline c).insert k.utf8 v.utf8 =
    (encCmdline (c.insert k v).1, encRes id (c.insert k v).2) := by
  unfold Byte.Cmdline.insert Cmdline.insert
  have hx : ((Byte.validKey k.utf8).bind fun _ => Byte.validValue v.utf8) =
      encRes id ((validKey k).bind fun _ => validValue v) :=
    bind_enc (h := id) (validKey_utf8 k) fun _ => validValue_utf8 v
  rw [hx]
  cases (validKey k).bind fun _ => validValue v with
  | err e => rfl
  | panic => rfl
  | ok a =>
  show (encCmdline c).insertStr (k.utf8 ++ [0x3D] ++ v.utf8) =
    (encCmdline (c.insertStr (k ++ ['='] ++ v)).1, encRes id (c.insertStr (k ++ ['='] ++ v)).2)
  rw [← insertStr_utf8]
  refine congrArg _ ?_
  rw [utf8_append, utf8_append]
  rfl

theorem validateValues_utf8 (vs : List Str) : Byte.Cmdline.validateValues (vs.map Str.utf8) =
    encRes (List.map Str.utf8) (Cmdline.validateValues vs) := by
  induction vs with
  | nil => rfl
  | cons v vs ih =>
    rw [List.map_cons, Byte.Cmdline.validateValues, Cmdline.validateValues]
    refine bind_enc (h := id) (validValue_utf8 v) fun _ => ?_
    rw [ih]
    cases Cmdline.validateValues vs <;> rfl

theorem joinComma_utf8 (vs : List Str) :
    Byte.Cmdline.joinComma (vs.map Str.utf8) = (Cmdline.joinComma vs).utf8 := by
  induction vs with
  | nil => rfl
  | cons v vs ih =>
    cases vs with
    | nil => rfl
    | cons w vs =>
      rw [List.map_cons, List.map_cons, Byte.Cmdline.joinComma, Cmdline.joinComma, ← List.map_cons, ih,
        utf8_append, utf8_append]
      · rfl
      · simp
      · simp

theorem insertMultiple_utf8 (c : Cmdline) (k : Str) (vs : List Str) :
    (encCmdline c).insertMultiple k.utf8 (vs.map Str.utf8) =
    (encCmdline (c.insertMultiple k vs).1, encRes id (c.insertMultiple k vs).2) := by
  unfold Byte.Cmdline.insertMultiple Cmdline.insertMultiple
  have hx : ((Byte.validKey k.utf8).bind fun _ =>
        if vs.map Str.utf8 = [] then .err (.missingVal k.utf8)
        else Byte.Cmdline.validateValues (vs.map Str.utf8)) =
      encRes (List.map Str.utf8) ((validKey k).bind fun _ =>
        if vs = [] then .err (.missingVal k) else Cmdline.validateValues vs) := by
    refine bind_enc (h := id) (validKey_utf8 k) fun _ => ?_
    simp only [List.map_eq_nil_iff]
    by_cases h : vs = []
    · rw [if_pos h, if_pos h]; rfl
    · rw [if_neg h, if_neg h]; exact validateValues_utf8 vs
  rw [hx]
  cases (validKey k).bind fun _ =>
      if vs = [] then .err (.missingVal k) else Cmdline.validateValues vs with
  | err e => rfl
  | panic => rfl
  | ok us =>
    show (encCmdline c).insertStr (k.utf8 ++ [0x3D] ++ Byte.Cmdline.joinComma (us.map Str.utf8)) =
      (encCmdline (c.insertStr (k ++ ['='] ++ Cmdline.joinComma us)).1,
        encRes id (c.insertStr (k ++ ['='] ++ Cmdline.joinComma us)).2)
    rw [← insertStr_utf8, joinComma_utf8]
    refine congrArg _ ?_
    rw [utf8_append, utf8_append]
    rfl

/-! ## C82 -/

/-- **C82.** Working on bytes, every builder call has the result and the effect that it has on
characters. -/
theorem C82_step (c : Cmdline) (op : Cmdline.Op) : (encCmdline c).step (encOp op) =
    (encCmdline (c.step op).1, encRes id (c.step op).2) := by
  cases op with
  | insert k v => exact insert_utf8 c k v
  | insertMultiple k vs => exact insertMultiple_utf8 c k vs
  | insertStr s => exact insertStr_utf8 c s
  | insertInitArgs s => exact insertInitArgs_utf8 c s
  | addVirtio size base irq id =>
    show Byte.Cmdline.addVirtioMmioDevice _ _ _ _ _ =
      (encCmdline (c.addVirtioMmioDevice size base irq id).1,
        encRes _ (c.addVirtioMmioDevice size base irq id).2)
    unfold Byte.Cmdline.addVirtioMmioDevice Cmdline.addVirtioMmioDevice
    split
    · rfl
    · exact insertStr_utf8 c _

/-- **C82.** The same for `try_from`: no slicing off a character boundary. -/
theorem C82_try_from (raw : Str) (cap : UInt64) (hlen : raw.utf8Len < ISZ) :
    Byte.Cmdline.tryFrom raw.utf8 cap = encRes encCmdline (Cmdline.tryFrom raw cap) := by
  unfold Byte.Cmdline.tryFrom Cmdline.tryFrom
  split
  · rfl
  have hf := find_utf8 [] raw
  rw [List.nil_append] at hf
  rw [show (Str.utf8 []).length = 0 from rfl] at hf
  rw [hf, Res.bind_ok]
  have hs := findSeparator_spec [] raw
  have hsplit : (Byte.Cmdline.splitAt raw.utf8 ((Cmdline.findSeparator [] raw).map fun p => (Str.utf8 p.1).length)).bind
      (fun p => (Byte.trim p.1).bind fun boot => (Byte.trim p.2).map fun init => (boot, init)) =
      .ok ((Cmdline.splitRaw raw).1.utf8, (Cmdline.splitRaw raw).2.utf8) := by
    unfold Cmdline.splitRaw
    cases hfs : Cmdline.findSeparator [] raw with
    | none =>
      show (Byte.trim raw.utf8).bind _ = _
      rw [trim_utf8]
      rfl
    | some p =>
      obtain ⟨b, i⟩ := p
      rw [hfs] at hs
      have hraw : raw = b ++ sep ++ i := by simpa using hs.1
      rw [Option.map_some]
      unfold Byte.Cmdline.splitAt
      have h1 := sliceTo_utf8 b (sep ++ i)
      have h2 := sliceFrom_utf8 (b ++ sep) i
      rw [← List.append_assoc, ← hraw] at h1
      rw [← hraw] at h2
      have h4 : Byte.separator.length = (Str.utf8 sep).length := by decide +kernel
      have h3 : (plainAdd (Str.utf8 b).length Byte.separator.length : Byte.R Nat) =
          .ok (Str.utf8 (b ++ sep)).length := by
        rw [utf8_append, List.length_append, h4, plainAdd, if_pos]
        rw [hraw, utf8Len_append, utf8Len_append] at hlen
        rw [len_utf8, len_utf8]
        unfold ISZ at hlen
        unfold U64
        omega
      simp only
      rw [h1, Res.bind_ok, h3, Res.bind_ok, h2]
      show (Byte.trim b.utf8).bind _ = _
      rw [trim_utf8, Res.bind_ok]
      show (Byte.trim i.utf8).map _ = _
      rw [trim_utf8]
      rfl
  have assoc : ∀ {α β : Type} (p : Byte.R α) (t : α → Byte.R Bytes) (u : α → Byte.R Bytes)
      (k : Bytes → Bytes → Byte.R β),
      (p.bind fun p => (t p).bind fun b => (u p).bind fun i => k b i) =
      (p.bind fun p => (t p).bind fun b => (u p).map fun i => (b, i)).bind fun q => k q.1 q.2 := by
    intro α β p t u k
    cases p with
    | err e => rfl
    | panic => rfl
    | ok a =>
      simp only [Res.bind_ok]
      cases t a with
      | err e => rfl
      | panic => rfl
      | ok b =>
        simp only [Res.bind_ok]
        cases u a <;> rfl
  rw [assoc, hsplit, Res.bind_ok]
  obtain ⟨boot, init⟩ := Cmdline.splitRaw raw
  have h4 : Byte.separator.length = initArgsSeparator.utf8Len := by decide +kernel
  simp only [len_utf8, ne_eq, utf8_eq_nil, h4]
  refine bind_enc (h := id) (okOr_enc _ .tooLarge) fun size => ?_
  refine bind_enc (h := id) ?_ fun size => ?_
  · split
    · exact bind_enc (h := id) (okOr_enc _ .tooLarge) fun size => okOr_enc _ .tooLarge
    · rfl
  · simp only [id]
    split <;> rfl

theorem cstringNew_utf8 (s : Str) : Byte.Cmdline.cstringNew s.utf8 = encRes id (Cmdline.cstringNew s) := by
  unfold Byte.Cmdline.cstringNew Cmdline.cstringNew
  split <;> rfl

/-- **C82.** The same for `as_cstring`, the conversion to `Vec<u8>` and `==`. -/
theorem C82_render (c d : Cmdline) :
    (encCmdline c).asCString = encRes id c.asCString ∧ (encCmdline c).toVec = encRes id c.toVec ∧
    (encCmdline c).eq (encCmdline d) = c.eq d := by
  have h : ∀ c : Cmdline, (encCmdline c).asCString = encRes id c.asCString := by
    intro c
    unfold Byte.Cmdline.asCString Cmdline.asCString
    simp only [encCmdline, utf8_eq_nil]
    split
    · exact cstringNew_utf8 []
    split
    · rfl
    split
    · exact cstringNew_utf8 _
    · rw [← cstringNew_utf8, utf8_append, utf8_append, separator_utf8]
  refine ⟨h c, ?_, ?_⟩
  · unfold Byte.Cmdline.toVec Cmdline.toVec
    rw [h]
    cases c.asCString <;> rfl
  · unfold Byte.Cmdline.eq Cmdline.eq
    rw [h, h, Bool.eq_iff_iff, beq_iff_eq, beq_iff_eq]
    have herr : ∀ c : Cmdline, ∀ k, c.asCString ≠ .err (.missingVal k) := by
      intro c k
      unfold Cmdline.asCString Cmdline.cstringNew
      repeat' split
      all_goals simp
    constructor
    · intro he
      have h1 := herr c
      have h2 := herr d
      generalize c.asCString = x at *
      generalize d.asCString = y at *
      cases x with
      | ok a => cases y <;> simp_all [encRes]
      | panic => cases y <;> simp_all [encRes]
      | err e =>
        cases y with
        | ok a => simp [encRes] at he
        | panic => simp [encRes] at he
        | err e' => cases e <;> cases e' <;> simp_all [encRes, encErr]
    · intro he
      rw [he]

/-- **C82.** The well-formed byte strings of Table 3-7 are the encodings of sequences of characters, so
the theorems above cover every `str`. -/
theorem C82_strings (bs : Bytes) : WellFormed bs ↔ ∃ s : Str, bs = s.utf8 := wellFormed_iff bs

theorem op_of_wellFormed {op : Byte.Cmdline.Op} (h : opWellFormed op) : ∃ o, op = encOp o := by
  cases op with
  | insert k v =>
    obtain ⟨k, rfl⟩ := (wellFormed_iff _).1 h.1
    obtain ⟨v, rfl⟩ := (wellFormed_iff _).1 h.2
    exact ⟨.insert k v, rfl⟩
  | insertMultiple k vs =>
    obtain ⟨k, rfl⟩ := (wellFormed_iff _).1 h.1
    have : ∃ us : List Str, vs = us.map Str.utf8 := by
      have h2 := h.2
      clear h
      induction vs with
      | nil => exact ⟨[], rfl⟩
      | cons v vs ih =>
        obtain ⟨us, rfl⟩ := ih fun v hv => h2 v (.tail _ hv)
        obtain ⟨u, rfl⟩ := (wellFormed_iff _).1 (h2 v (.head _))
        exact ⟨u :: us, rfl⟩
    obtain ⟨us, rfl⟩ := this
    exact ⟨.insertMultiple k us, rfl⟩
  | insertStr s =>
    obtain ⟨s, rfl⟩ := (wellFormed_iff _).1 h
    exact ⟨.insertStr s, rfl⟩
  | insertInitArgs s =>
    obtain ⟨s, rfl⟩ := (wellFormed_iff _).1 h
    exact ⟨.insertInitArgs s, rfl⟩
  | addVirtio size base irq id => exact ⟨.addVirtio size base irq id, rfl⟩

/-- Every reachable command line, as bytes, is the encoding of a reachable one. -/
theorem reachable_of_byte {c : Byte.Cmdline} (h : ByteReachable c) :
    ∃ d, Cmdline.Reachable d ∧ c = encCmdline d := by
  induction h with
  | @new cap c h =>
    unfold Byte.Cmdline.new at h
    split at h
    · cases h
    · next hc =>
      cases h
      exact ⟨⟨[], [], cap⟩, .new (cap := cap) (by unfold Cmdline.new; rw [if_neg hc]), rfl⟩
  | @tryFrom s cap c hs hl h =>
    obtain ⟨s, rfl⟩ := (wellFormed_iff _).1 hs
    rw [len_utf8] at hl
    rw [C82_try_from s cap hl] at h
    cases hx : Cmdline.tryFrom s cap with
    | ok d => rw [hx] at h; cases h; exact ⟨d, .tryFrom hx, rfl⟩
    | err e => rw [hx] at h; cases h
    | panic => rw [hx] at h; cases h
  | step op ho _ ih =>
    obtain ⟨d, hd, rfl⟩ := ih
    obtain ⟨o, rfl⟩ := op_of_wellFormed ho
    exact ⟨_, .step o hd, by rw [C82_step]⟩

/-- **C82.** Whatever strings (of any characters of Unicode) a user passes, and in whatever order: no
call panics, in particular none slices a string inside a character or decodes malformed bytes; and the
boot and init arguments stay well-formed UTF-8. -/
theorem C82_no_panic {c : Byte.Cmdline} (h : ByteReachable c) :
    WellFormed c.bootArgs ∧ WellFormed c.initArgs ∧
    (∀ op, opWellFormed op → (c.step op).2 ≠ .panic) ∧ c.asCString ≠ .panic ∧ c.toVec ≠ .panic := by
  obtain ⟨d, hd, rfl⟩ := reachable_of_byte h
  have enc : ∀ {α β : Type} {f : α → β} {x : Res CmdlineError α}, x ≠ .panic → encRes f x ≠ .panic := by
    intro α β f x h
    cases x <;> simp_all [encRes]
  refine ⟨(wellFormed_iff _).2 ⟨_, rfl⟩, (wellFormed_iff _).2 ⟨_, rfl⟩, ?_, ?_, ?_⟩
  · intro op ho
    obtain ⟨o, rfl⟩ := op_of_wellFormed ho
    rw [C82_step]
    exact enc (C03_no_panic d hd o)
  · rw [(C82_render d d).1]
    exact enc (C03_no_panic_render d).1
  · rw [(C82_render d d).2.1]
    exact enc (C03_no_panic_render d).2.1

/-- **C82.** Nor does `try_from` panic. -/
theorem C82_try_from_no_panic {raw : Bytes} (h : WellFormed raw) (hlen : raw.length < ISZ) (cap : UInt64) :
    Byte.Cmdline.tryFrom raw cap ≠ .panic := by
  obtain ⟨s, rfl⟩ := (wellFormed_iff _).1 h
  rw [len_utf8] at hlen
  rw [C82_try_from s cap hlen]
  have := (C03_no_panic_render ⟨[], [], 1⟩).2.2.1 s cap
  cases hx : Cmdline.tryFrom s cap <;> simp_all [encRes]

/-- **C82.** Rendering is a well-formed string, too (`CString::to_str` on it succeeds). -/
theorem C82_render_wellFormed {c : Byte.Cmdline} (h : ByteReachable c) {r : Bytes}
    (hr : c.asCString = .ok r) : WellFormed r := by
  obtain ⟨d, -, rfl⟩ := reachable_of_byte h
  have key : ∀ s : Str, Byte.Cmdline.cstringNew s.utf8 = .ok r → WellFormed r := by
    intro s h
    unfold Byte.Cmdline.cstringNew at h
    split at h
    · cases h
    · cases h
      exact (wellFormed_iff _).2 ⟨s, rfl⟩
  unfold Byte.Cmdline.asCString at hr
  split at hr
  · exact key [] hr
  split at hr
  · cases hr
  split at hr
  · exact key d.bootArgs hr
  · refine key (d.bootArgs ++ initArgsSeparator ++ d.initArgs) ?_
    rw [utf8_append, utf8_append, ← separator_utf8]
    exact hr

/-- The hypothesis that arguments are strings matters: with bytes that are not UTF-8 a slice off a
boundary would panic. -/
example : Byte.sliceTo [0xC3, 0xA9] 1 = .panic ∧ ¬ Byte.trim [0x20, 0xC3] ≠ .panic := by decide +kernel

/-- "é -- ü", with a no-break space at the end: split at the separator and trimmed. -/
example : WellFormed [0xC3, 0xA9, 0x20, 0x2D, 0x2D, 0x20, 0xC3, 0xBC, 0xC2, 0xA0] ∧
    Byte.Cmdline.tryFrom [0xC3, 0xA9, 0x20, 0x2D, 0x2D, 0x20, 0xC3, 0xBC, 0xC2, 0xA0] 100 =
      .ok ⟨[0xC3, 0xA9], [0xC3, 0xBC], 100⟩ :=
  ⟨(wellFormed_iff _).2 ⟨"é -- ü\u00a0".toList, by decide +kernel⟩, by decide +kernel⟩

example := C82_try_from "é -- ü".toList 100 (by decide +kernel)

example := C82_try_from_no_panic (raw := [0xC3, 0xA9, 0x20]) ((wellFormed_iff _).2 ⟨"é ".toList, by decide +kernel⟩)
  (by decide) 3

theorem byteReachable_demo : ByteReachable ⟨[0xC3, 0xA9], [0xC3, 0xBC], 100⟩ :=
  .tryFrom (cap := 100) (s := [0xC3, 0xA9, 0x20, 0x2D, 0x2D, 0x20, 0xC3, 0xBC, 0xC2, 0xA0])
    ((wellFormed_iff _).2 ⟨"é -- ü\u00a0".toList, by decide +kernel⟩) (by decide) (by decide +kernel)

example := C82_no_panic byteReachable_demo

example := C82_render_wellFormed byteReachable_demo (r := [0xC3, 0xA9, 0x20, 0x2D, 0x2D, 0x20, 0xC3, 0xBC])
  (by decide +kernel)

end LinuxLoader
