import Verif.Protocol.Load
import Verif.Text.Generate
/-
The command line tool (beschi/cli.py).

Not modelled: `argparse` (what it makes of the arguments is given; it exits with status 2 if it does not
understand them), what is written to the standard error stream, failures when reading or writing other
than those below (a full disk, say), and Ctrl-C.
-/
namespace Beschi.Cli
open Beschi.Text

/-- The result of `argparser.parse_args()` (cli.py L15-35; go.py L14-17, rust.py L14-17,
typescript.py L14-18). -/
structure Args where
  version : Bool := false
  lang : Option String := none
  output : Option String := none
  protocol : Option String := none
  ns : Option String := none
  indent : Option String := none
  embedProtocol : Bool := false
  goNoRename : Bool := false
  rustNoRename : Bool := false
  typescriptUseNamespace : Bool := false

/-- What the tool finds around it. -/
structure System where
  /-- the files that can be read -/
  files : String → Option (List UInt8)
  /-- `open(...).read()` and `tomllib.loads` (protocol.py L131-132): the text of a file and the data in
  it, unless decoding or parsing raises -/
  parse : List UInt8 → Option (String × Toml)
  /-- whether a file can be opened for writing -/
  writable : String → Bool
  /-- the bytes written to a file for a text; nothing if the encoding cannot express it -/
  encode : String → Option (List UInt8)
  /-- the bytes written to the standard output for a text -/
  encodeOut : String → Option (List UInt8)

/-- How the tool ends: its exit status, what is on the standard output, and the files. -/
structure Ending where
  status : Nat
  stdout : List UInt8
  files : String → Option (List UInt8)

/-- `VERSION_STRING` (cli.py L9) -/
def versionString : String := s!"{libName} v{libVersion}"

/-- The keys of `all_writers` (writers/__init__.py L11-20, the names in lower case); no writer is
experimental (writer.py's `in_progress`). -/
def target? : String → Option Target
  | "c" => some .c
  | "csharp" => some .csharp
  | "go" => some .go
  | "rust" => some .rust
  | "swift" => some .swift
  | "typescript" => some .typescript
  | "assemblyscript" => some .assemblyscript
  | "zig" => some .zig
  | _ => none

/-- `if args.x and len(args.x) > 0` (cli.py L64, L84) -/
def given : Option String → Option String
  | none => none
  | some s => if s.length > 0 then some s else none

/-- What an argument can be. -/
inductive Kw where
  | flag (b : Bool)
  | text (s : Option String)

/-- Python's `if x`. -/
def Kw.truthy : Kw → Bool
  | .flag b => b
  | .text none => false
  | .text (some s) => s.length > 0

/-- `args._get_kwargs()`: the arguments by name (cli.py L15-35; `--go-no-rename` becomes `go_no_rename`). -/
def kwargs (args : Args) : List (String × Kw) := [
  ("version", .flag args.version),
  ("lang", .text args.lang),
  ("output", .text args.output),
  ("protocol", .text args.protocol),
  ("namespace", .text args.ns),
  ("indent", .text args.indent),
  ("embed_protocol", .flag args.embedProtocol),
  ("go_no_rename", .flag args.goNoRename),
  ("rust_no_rename", .flag args.rustNoRename),
  ("typescript_use_namespace", .flag args.typescriptUseNamespace)]

/-- `additional_arguments` (cli.py L23-26) -/
def additional : List String := ["embed_protocol"]

/-- `{flag: val for flag, val in args._get_kwargs() if flag.startswith(args.lang) or flag in
additional_arguments}` (cli.py L81). -/
def extraArgs (args : Args) (lang : String) : List (String × Kw) :=
  (kwargs args).filter fun x => lang.toList.isPrefixOf x.1.toList || additional.contains x.1

/-- `extra_args[key]`, which raises KeyError. -/
def arg (extra : List (String × Kw)) (key : String) : Except Exn Bool :=
  match extra.lookup key with
  | some v => .ok v.truthy
  | none => .error (.key key)

/-- What a writer's constructor looks up in `extra_args` (`embed_protocol`: c.py L17, csharp.py L15,
go.py L36, rust.py L32, swift.py L15, typescript.py L23, assemblyscript.py L18, zig.py L17; the others:
go.py L20, rust.py L20, typescript.py L25), together with the indentation (cli.py L84-85) and the text
that is embedded (`protocol_string`, protocol.py L130). -/
def options (t : Target) (extra : List (String × Kw)) (indent : Option String) (text : String) : Except Exn Options := do
  let embed ← arg extra "embed_protocol"
  let o : Options := { indent := given indent, embed := if embed then some text else none }
  match t with
  | .go => pure { o with goNoRename := ← arg extra "go_no_rename" }
  | .rust => pure { o with rustNoRename := ← arg extra "rust_no_rename" }
  | .typescript => pure { o with typescriptUseNamespace := ← arg extra "typescript_use_namespace" }
  | _ => pure o

/-- `protocol.namespace = args.namespace` (cli.py L64-65). -/
def override (args : Args) (p : Protocol) : Protocol :=
  match given args.ns with
  | none => p
  | some n => { p with ns := some (.str n) }

/-- `sys.exit(1)`, or an exception that is not caught: the interpreter prints it and exits with status 1. -/
def fail (sys : System) : Ending := ⟨1, [], sys.files⟩

/-- `print(text)`: the text and a line break. -/
def print (sys : System) (text : String) : Ending :=
  match sys.encodeOut (text ++ "\n") with
  | none => fail sys
  | some bytes => ⟨0, bytes, sys.files⟩

/-- A file gets new contents. -/
def store (files : String → Option (List UInt8)) (path : String) (bytes : List UInt8) :
    String → Option (List UInt8) := fun f => if f = path then some bytes else files f

/-- `with open(path, "w") as f: f.write(text)` (cli.py L97-98): opening empties the file. -/
def save (sys : System) (path text : String) : Ending :=
  if sys.writable path then
    let files := store sys.files path []
    match sys.encode text with
    | none => ⟨1, [], files⟩
    | some bytes => ⟨0, [], store files path bytes⟩
  else fail sys

/-- `main` (cli.py L11-98).  The fuel is that of the loader, which need not end (cli.py L49); everything
it raises is caught (cli.py L50-62). -/
def main (fuel : Nat) (sys : System) (args : Args) : Option Ending :=
  if args.version then some (print sys versionString) else
  match args.protocol with
  | none => some (fail sys)
  | some path =>
    match args.lang with
    | none => some (fail sys)
    | some lang =>
      match sys.files path with
      | none => some (fail sys)
      | some bytes =>
        match sys.parse bytes with
        | none => some (fail sys)
        | some (text, data) =>
          match load fuel data with
          | none => none
          | some (.error _) => some (fail sys)
          | some (.ok p) =>
            match target? lang with
            | none => some (fail sys)
            | some t =>
              match options t (extraArgs args lang) args.indent text with
              | .error _ => some (fail sys)
              | .ok o =>
                match t.generate o (override args p) with
                | .error _ => some (fail sys)
                | .ok out =>
                  match args.output with
                  | none => some (print sys out)
                  | some file => some (save sys file out)

/-- The tool ends like this. -/
def Ends (sys : System) (args : Args) (e : Ending) : Prop := ∃ fuel, main fuel sys args = some e

end Beschi.Cli
