import Verif.Model.LoadCmdline

/-!
# Tests (not proofs): the unit tests of src/cmdline/mod.rs and src/loader/mod.rs, replayed on the model
-/

namespace LinuxLoader.Tests
open Cmdline

/-- An empty command line of a capacity. -/
def cl (cap : UInt64) : Cmdline := ⟨[], [], cap⟩

example : Cmdline.new 100 = .ok (cl 100) ∧ Cmdline.new 0 = .err .invalidCapacity := by decide +kernel

/-- Results of a sequence of builder calls, and the rendering afterwards. -/
def play (c : Cmdline) : List Op → List (Res CmdlineError Unit) × Res CmdlineError (List UInt8)
  | [] => ([], c.toVec)
  | op :: ops => ((c.step op).2 :: (play (c.step op).1 ops).1, (play (c.step op).1 ops).2)

/-- `b"...\0"`. -/
def z (s : String) : Res CmdlineError (List UInt8) := .ok (Str.utf8 s.toList ++ [0])

def ins (k v : String) : Op := .insert k.toList v.toList
def str (s : String) : Op := .insertStr s.toList
def ini (s : String) : Op := .insertInitArgs s.toList
def mul (k : String) (vs : List String) : Op := .insertMultiple k.toList (vs.map String.toList)

-- test_insert_hello_world, test_insert_multi
example : play (cl 100) [] = ([], z "") := by decide +kernel
example : play (cl 100) [ins "hello" "world"] = ([.ok ()], z "hello=world") := by decide +kernel
example : play (cl 100) [ins "hello" "world", ins "foo" "bar"] =
    ([.ok (), .ok ()], z "hello=world foo=bar") := by decide +kernel

-- test_insert_space
example : play (cl 100) [ins "a " "b", ins "a" "b ", ins "a " "b ", ins " a" "b", ins "a" "hello \"world",
      ins "a" "\"foor bar\" \"foor bar\""] =
    ([.err .hasSpace, .err .noQuoteSpace, .err .hasSpace, .err .hasSpace, .err .invalidQuote,
      .err .invalidQuote], z "") := by decide +kernel
example : play (cl 100) [ins "a" "\"b b\"", ins "c" "\" d\""] =
    ([.ok (), .ok ()], z "a=\"b b\" c=\" d\"") := by decide +kernel

-- test_insert_equals
example : play (cl 100) [ins "a=" "b", ins "a=" "b ", ins "=a" "b"] =
    ([.err .hasEquals, .err .hasEquals, .err .hasEquals], z "") := by decide +kernel

-- test_insert_emoji
example : play (cl 100) [ins "heart" "💖", ins "💖" "love", str "heart=💖", mul "💖" ["heart", "love"],
      mul "heart" ["💖", "love"]] =
    ([.err .invalidAscii, .err .invalidAscii, .err .invalidAscii, .err .invalidAscii,
      .err .invalidAscii], z "") := by decide +kernel

-- test_insert_string
example : play (cl 13) [str "noapic"] = ([.ok ()], z "noapic") := by decide +kernel
example : play (cl 13) [str "noapic", str "nopci"] = ([.ok (), .ok ()], z "noapic nopci") := by
  decide +kernel

-- test_insert_too_large
example : play (cl 4) [ins "hello" "world", ins "a" "world", ins "hello" "b", ins "a" "b", ins "a" "b",
      str "a"] =
    ([.err .tooLarge, .err .tooLarge, .err .tooLarge, .ok (), .err .tooLarge, .err .tooLarge],
      z "a=b") := by decide +kernel
example : (play (cl 10) [ins "ab" "ba", ins "c" "da", ins "c" "d"]).1 =
    [.ok (), .err .tooLarge, .ok ()] := by decide +kernel
example : (play (cl 11) [ins "ab" "ba", ini "da", ini "d"]).1 = [.ok (), .err .tooLarge, .ok ()] := by
  decide +kernel
example : (play (cl 20) [ins "ab" "ba", ini "da", ini "abcdabcd", ini "abcdabc"]).1 =
    [.ok (), .ok (), .err .tooLarge, .ok ()] := by decide +kernel

-- test_add_virtio_mmio_device
example : (play (cl 5) [.addVirtio 0 0 0 none, .addVirtio 1 0 0 none]).1 =
    [.err .mmioSize, .err .tooLarge] := by decide +kernel
example : play (cl 150) [.addVirtio 1 0 1 none, .addVirtio (2 * 1024) 0x100 2 none,
      .addVirtio (3 * 1048576) 0x1000 3 none, .addVirtio (4 * 1073741824) 0x10000 4 (some 42)] =
    ([.ok (), .ok (), .ok (), .ok ()],
      z "virtio_mmio.device=1@0x0:1 virtio_mmio.device=2K@0x100:2 virtio_mmio.device=3M@0x1000:3 virtio_mmio.device=4G@0x10000:4:42") := by
  decide +kernel

-- test_insert_kv
example : (play (cl 10) [mul "foo=" [], mul "foo" [], mul "foo" ["bar "], mul "foo" ["bar", "baz"]]).1 =
    [.err .hasEquals, .err (.missingVal "foo".toList), .err .noQuoteSpace, .err .tooLarge] := by
  decide +kernel
example : play (cl 100) [mul "foo" ["bar"]] = ([.ok ()], z "foo=bar") := by decide +kernel
example : play (cl 100) [mul "foo" ["bar", "baz"]] = ([.ok ()], z "foo=bar,baz") := by decide +kernel

-- test_try_from_cmdline_for_vec
example : (cl 4096).toVec = z "" := by decide +kernel
example : (Cmdline.tryFrom "foo".toList 4096).bind Cmdline.toVec = z "foo" := by decide +kernel
example : (play (cl 4096) [ini "foo--bar"]).2 = .err .noBootArgsInserted := by decide +kernel

-- test_partial_eq
example : ((cl 20).run [str "hello world!"]).eq ((cl 30).run [str "hello"]) = false ∧
    ((cl 20).run [str "hello world!"]).eq ((cl 30).run [str "hello", str "world!"]) = true := by
  decide +kernel
example : (cl 4096).eq (cl 4096) = true ∧ ((cl 4096).run [.addVirtio 1 0 1 none]).eq (cl 4096) = false ∧
    ((cl 4096).run [.addVirtio 1 0 1 none]).eq ((cl 4096).run [.addVirtio 1 0 1 none]) = true := by
  decide +kernel

/-- Boot and init arguments of a parsed line. -/
def parts (s : String) : Res CmdlineError (Str × Str) :=
  (Cmdline.tryFrom s.toList 4096).map fun c => (c.bootArgs, c.initArgs)

-- test_try_from
example : Cmdline.tryFrom "foo --  bar".toList 0 = .err .invalidCapacity ∧
    Cmdline.tryFrom "foo --  bar".toList 10 = .err .invalidCapacity ∧
    (Cmdline.tryFrom "foo --  bar".toList 11).isOk = true := by decide +kernel
example : parts "hello=world foo=bar" = .ok ("hello=world foo=bar".toList, []) := by decide +kernel
example : parts "hello=world -- foo=bar" = .ok ("hello=world".toList, "foo=bar".toList) := by
  decide +kernel
example : parts "hello=world --foo=bar -- arg1 --arg2" =
    .ok ("hello=world --foo=bar".toList, "arg1 --arg2".toList) := by decide +kernel
example : parts "arg1-- arg2 --arg3" = .ok ("arg1-- arg2 --arg3".toList, []) := by decide +kernel
example : parts "--arg1-- -- arg2 -- --arg3" = .ok ("--arg1--".toList, "arg2 -- --arg3".toList) := by
  decide +kernel
example : parts "a=\"b -- c\" d -- e " = .ok ("a=\"b -- c\" d".toList, "e".toList) := by decide +kernel
example : parts "foo--bar=baz a=\"b -- c\"" = .ok ("foo--bar=baz a=\"b -- c\"".toList, []) := by
  decide +kernel
example : parts "--foo --bar" = .ok ("--foo --bar".toList, []) := by decide +kernel
example : parts "foo=\"bar--baz\" foo" = .ok ("foo=\"bar--baz\" foo".toList, []) := by decide +kernel

-- test_error_try_from
example : Cmdline.tryFrom [] 0 = .err .invalidCapacity := by decide +kernel
example : (Cmdline.tryFrom "console=ttyS0 nomodules -- /etc/password --param".toList 4096).bind
    Cmdline.toVec = z "console=ttyS0 nomodules -- /etc/password --param" := by decide +kernel

-- test_as_cstring
example : (play (cl 4096) [ini "/etc/password"]).2 = .err .noBootArgsInserted := by decide +kernel
example : play (cl 4096) [ini "/etc/password", ins "console" "ttyS0", str "nomodules", ini "--param"] =
    ([.ok (), .ok (), .ok (), .ok ()], z "console=ttyS0 nomodules -- /etc/password --param") := by
  decide +kernel

/-! ## src/loader/mod.rs -/

/-- `create_guest_mem`. -/
def gmem : Mem := ⟨[⟨0, 0x1000000⟩], fun _ => 1, true⟩

-- test_cmdline_overflow
example : (loadCmdline (0xffffffffffffffff - 5) ((cl 10).run [str "12345"]) gmem).1 =
      .err .commandLineOverflow ∧
    (loadCmdline (0x1000000 - 5) ((cl 10).run [str "12345"]) gmem).1 = .err .commandLineOverflow ∧
    (loadCmdline (0x1000000 - 6) ((cl 10).run [str "12345"]) gmem).1 = .ok () := by decide +kernel

-- test_cmdline_write_end_regresion
example : (loadCmdline 45 (cl 10) gmem).1 = .ok () ∧ (loadCmdline 45 (cl 10) gmem).2.data 45 = 0 := by
  decide +kernel
example : [45, 46, 47, 48].map (loadCmdline 45 ((cl 10).run [str "123"]) gmem).2.data =
    [0x31, 0x32, 0x33, 0] := by decide +kernel

end LinuxLoader.Tests
