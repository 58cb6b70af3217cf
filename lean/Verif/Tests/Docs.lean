import Verif.Tests.Cmdline
import Verif.Tests.Configurators

/-!
# Tests (not proofs): the examples in the documentation comments of /repo/src, replayed on the model
(those whose outcome the documentation asserts)
-/

namespace LinuxLoader.Tests
open Cmdline

-- cmdline/mod.rs:138-144, 161-164, 188-193, 216-225, 258-264, 306-316, 374-383, 417-428
example : play (cl 100) [str "foobar"] = ([.ok ()], z "foobar") := by decide +kernel
example : Cmdline.new 100 = .ok (cl 100) := by decide +kernel
example : (play (cl 100) [ins "foo" "bar"]).2 = z "foo=bar" := by decide +kernel
example : (play (cl 100) [mul "foo" ["bar", "baz"]]).2 = z "foo=bar,baz" := by decide +kernel
example : play (cl 100) [str "foo", ini "bar"] = ([.ok (), .ok ()], z "foo -- bar") := by decide +kernel
example : play (cl 20) [str "foo", ini "bar"] = ([.ok (), .ok ()], z "foo -- bar") := by decide +kernel
example : play (cl 100) [.addVirtio 4096 0x1000 5 (some 42)] =
    ([.ok ()], z "virtio_mmio.device=4K@0x1000:5:42") := by decide +kernel

-- cmdline/mod.rs:495-502
example : (Cmdline.tryFrom "foo -- bar".toList 100).bind (·.toVec) = z "foo -- bar" := by decide +kernel

-- configurator/mod.rs:190-207; `Header`, `Section` and `Module` are types of size 0
example : ((BootParams.new [] 0x1000).run [.setSections [[]] 0x2000, .setSections [] 0x3000]).2 =
    ⟨[], 0x1000, some [], some 0x3000, none, none⟩ := by decide +kernel

-- configurator/mod.rs:237-271
example : (((BootParams.new [] 0x1000).run [.addSection [] none, .addSection [] (some 0x2000),
      .addSection [] (some 0x2000), .addSection [] (some 0x1f00), .addSection [] none]).1.map Prod.snd) =
    [.err .missingStartAddress, .ok 0x2000, .ok 0x2000, .err .invalidAddress, .ok 0x2000] := by decide +kernel

-- configurator/mod.rs:299-316
example : ((BootParams.new [] 0x1000).run [.setModules [[]] 0x2000, .setModules [] 0x3000]).2 =
    ⟨[], 0x1000, none, none, some [], some 0x3000⟩ := by decide +kernel

-- configurator/mod.rs:346-380
example : (((BootParams.new [] 0x1000).run [.addModule [] none, .addModule [] (some 0x2000),
      .addModule [] (some 0x2000), .addModule [] (some 0x1f00), .addModule [] none]).1.map Prod.snd) =
    [.err .missingStartAddress, .ok 0x2000, .ok 0x2000, .err .invalidAddress, .ok 0x2000] := by decide +kernel

-- loader/mod.rs:208-222
example : (loadCmdline 0x1000 ((cl 10).step (ins "foo" "bar")).1 gm).1 = .ok () ∧
    (List.range 8).map (fun i => (loadCmdline 0x1000 ((cl 10).step (ins "foo" "bar")).1 gm).2.data (0x1000 + i)) =
      Str.utf8 "foo=bar".toList ++ [0] := by decide +kernel

end LinuxLoader.Tests
