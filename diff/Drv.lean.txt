import Verif
import Lean.Data.Json
open LinuxLoader Lean

def jS (j : Json) (k : String) : String := ((j.getObjVal? k).toOption.bind fun x => x.getStr?.toOption).getD ""
def jN (j : Json) (k : String) : Nat := ((j.getObjVal? k).toOption.bind fun x => x.getNat?.toOption).getD 0
def jN? (j : Json) (k : String) : Option Nat := ((j.getObjVal? k).toOption.bind fun x => x.getNat?.toOption)
def jA (j : Json) (k : String) : List Json := (((j.getObjVal? k).toOption.bind fun x => x.getArr?.toOption).getD #[]).toList
def jB (j : Json) (k : String) : List UInt8 := (jA j k).map fun x => (x.getNat?.toOption.getD 0).toUInt8
def jU? (j : Json) (k : String) : Option UInt64 := (jN? j k).map Nat.toUInt64
def jChars (j : Json) (k : String) : Str := (jA j k).map fun x => Char.ofNat (x.getNat?.toOption.getD 0)

def shRes {ε α} [Repr ε] (f : α → String) : Res ε α → String
  | .ok a => "ok " ++ f a
  | .err e => "err " ++ (toString (repr e)).replace "LinuxLoader." ""
  | .panic => "panic"
def shS (s : Str) : String := toString (s.map Char.toNat)
def shB (s : List UInt8) : String := toString s
def shC (c : Cmdline) : String := shS c.bootArgs ++ shS c.initArgs ++ toString c.capacity

def cmdlineOp (c : Cmdline) (j : Json) : Cmdline × Res CmdlineError Unit :=
  match jS j "op" with
  | "insert" => c.insert (jChars j "k") (jChars j "v")
  | "multi" => c.insertMultiple (jChars j "k") ((jA j "vs").map fun x => jChars x "s")
  | "str" => c.insertStr (jChars j "s")
  | "init" => c.insertInitArgs (jChars j "s")
  | "virtio" => c.addVirtioMmioDevice (jN j "size").toUInt64 (jN j "base").toUInt64 (jN j "irq").toUInt32 ((jN? j "id").map Nat.toUInt32)
  | _ => (c, .panic)

def doCmd (j : Json) : String := Id.run do
  let start := if jS j "from" = "raw" then Cmdline.tryFrom (jChars j "raw") (jN j "cap").toUInt64 else Cmdline.new (jN j "cap").toUInt64
  let mut out := shRes shC start
  match start with
  | .ok c0 =>
    let mut c := c0
    for o in jA j "ops" do
      let (c', r) := cmdlineOp c o
      c := c'
      out := out ++ " | " ++ shRes (fun _ => "") r ++ shC c
    out := out ++ " | " ++ shRes shB c.asCString
    return out
  | _ => return out

def memOf (j : Json) : Mem :=
  { regions := (jA j "regions").map fun r => ⟨jN r "start", jN r "len"⟩, data := fun x => (x * 7 + 3).toUInt8, emptyOk := jN j "emptyOk" = 1 }
def dump (m : Mem) : String := Id.run do
  let mut o := ""
  for r in m.regions do
    for i in List.range r.len do
      o := o ++ toString (m.data (r.start + i)) ++ ","
    o := o ++ ";"
  return o
def shPvh : PvhCap → String
  | .present v => s!"present {v}"
  | .notPresent => "notPresent"
  | .ignored => "ignored"
def shLR (r : LoadResult) : String := s!"{r.kernelLoad} {r.kernelEnd} {r.setupHeader.map shB} {shPvh r.pvh}"
def shO {ε α} [Repr ε] (f : α → String) (r : Res ε α × LS) : String := shRes f r.1 ++ " pos " ++ (match r.1 with | .ok _ => toString r.2.rd.pos | _ => "") ++ " mem " ++ dump r.2.mem

def doLoad (j : Json) : String :=
  let s : LS := ⟨⟨jB j "img", jN j "pos", fun _ => .ok, 0⟩, memOf j⟩
  match jS j "kind" with
  | "elf" => shO shLR (elfLoad (jU? j "koff") (jU? j "high") s)
  | "bz" => shO shLR (bzLoad (jU? j "koff") (jU? j "high") s)
  | "pearm" => shO shLR (peLoad .arm64 (jU? j "koff") (jU? j "high") s)
  | "perv" => shO shLR (peLoad .riscv64 (jU? j "koff") (jU? j "high") s)
  | "dtb" => shO (fun _ => "") (loadDtb (jN j "addr").toUInt64 s)
  | _ => "?"

def paramOp (p : BootParams) (j : Json) : Res ListError GuestAddr × BootParams :=
  match jS j "op" with
  | "ss" => (.ok 0, p.setSections ((jA j "es").map fun x => jB x "b") (jN j "a").toUInt64)
  | "sm" => (.ok 0, p.setModules ((jA j "es").map fun x => jB x "b") (jN j "a").toUInt64)
  | "as" => p.addSection (jB j "b") (jU? j "a")
  | "am" => p.addModule (jB j "b") (jU? j "a")
  | _ => (.panic, p)

def doParams (j : Json) : String := Id.run do
  let mut p := BootParams.new (jB j "hdr") (jN j "haddr").toUInt64
  let mut out := ""
  for o in jA j "ops" do
    let (r, p') := paramOp p o
    p := p'
    out := out ++ shRes (fun a => toString a) r ++ s!" {p.sections.map shB} {p.sectionsStart} {p.modules.map shB} {p.modulesStart} | "
  let m := memOf j
  let r1 := linuxWrite p m
  let r2 := pvhWrite p m
  let r3 := fdtWrite p m
  return out ++ shRes (fun _ => "") r1.1 ++ dump r1.2 ++ shRes (fun _ => "") r2.1 ++ dump r2.2 ++ shRes (fun _ => "") r3.1 ++ dump r3.2

def doLC (j : Json) : String :=
  match Cmdline.tryFrom (jChars j "raw") 1000 with
  | .ok c => let r := loadCmdline (jN j "addr").toUInt64 c (memOf j); shRes (fun _ => "") r.1 ++ dump r.2
  | _ => "bad"

def main : IO Unit := do
  let h ← IO.getStdin
  let mut go := true
  while go do
    let l ← h.getLine
    if l.isEmpty then go := false
    else
      match Json.parse l.trimAscii.toString with
      | .ok j => IO.println (match jS j "t" with
        | "cmd" => doCmd j
        | "load" => doLoad j
        | "params" => doParams j
        | "lc" => doLC j
        | _ => "??")
      | .error e => IO.println ("parse " ++ e)
