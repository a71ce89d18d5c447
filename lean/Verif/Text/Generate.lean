import Verif.Text.Rust
import Verif.Text.CSharp
import Verif.Text.Swift
import Verif.Text.TypeScript
import Verif.Text.AssemblyScript
import Verif.Text.Go
import Verif.Text.Zig
import Verif.Text.C
import Verif.Text.Boilerplate
import Verif.Lang.Rust
import Verif.Lang.Go
import Verif.Lang.Rename
/-
The text generated for a protocol: a writer is constructed, and its `generate` is called.
-/
namespace Beschi.Text

/-- The modules in beschi/writers. -/
inductive Target where
  | c
  | csharp
  | go
  | rust
  | swift
  | typescript
  | assemblyscript
  | zig
  deriving DecidableEq, Repr

/-- What is given besides the protocol: `writer.tab` if it is set afterwards (cli.py L84-85), the text to
embed (`protocol_string`, protocol.py L130), and the flags in `extra_args` (go.py L17, rust.py L17,
typescript.py L18). -/
structure Options where
  indent : Option String := none
  embed : Option String := none
  goNoRename : Bool := false
  rustNoRename : Bool := false
  typescriptUseNamespace : Bool := false

namespace Target

/-- The boilerplate files by index (writer.py L53-60). -/
def boilerplate : Target → Nat → List String
  | .c, 0 => Boilerplate.c0
  | .c, 1 => Boilerplate.c1
  | .c, 2 => Boilerplate.c2
  | .csharp, 0 => Boilerplate.cSharp0
  | .csharp, 1 => Boilerplate.cSharp1
  | .go, 0 => Boilerplate.go
  | .rust, 0 => Boilerplate.rust
  | .swift, 0 => Boilerplate.swift0
  | .swift, 1 => Boilerplate.swift1
  | .typescript, 0 => Boilerplate.typeScript
  | .assemblyscript, 0 => Boilerplate.assemblyScript
  | .zig, 0 => Boilerplate.zig
  | _, _ => []

/-- The writer after its construction (`writer_class(protocol, extra_args=...)`, cli.py L82) and the
change of its indentation (cli.py L84-85).  The constructors for Go and Rust rename the members of the
protocol first (go.py L20-32, rust.py L20-28). -/
def writer (t : Target) (o : Options) (p : Protocol) : Except Exn Writer :=
  match t with
  | .c => C.writer p o.indent o.embed (boilerplate .c)
  | .csharp => .ok (CSharp.writer p o.indent o.embed (boilerplate .csharp))
  | .go => .ok (Go.writer (p.rename (Lang.Go.namer o.goNoRename)) (!o.goNoRename) o.indent o.embed (boilerplate .go))
  | .rust => .ok (Rust.writer (p.rename (Lang.Rust.namer o.rustNoRename)) o.indent o.embed (boilerplate .rust))
  | .swift => .ok (Swift.writer p o.indent o.embed (boilerplate .swift))
  | .typescript => .ok (TypeScript.writer p o.typescriptUseNamespace o.indent o.embed (boilerplate .typescript))
  | .assemblyscript => .ok (AssemblyScript.writer p o.indent o.embed (boilerplate .assemblyscript))
  | .zig => .ok (Zig.writer p o.indent o.embed (boilerplate .zig))

/-- Its method `generate`. -/
def emit (t : Target) (w : Writer) : Emit Unit :=
  match t with
  | .c => C.generate w
  | .csharp => CSharp.generate w
  | .go => Go.generate w
  | .rust => Rust.generate w
  | .swift => Swift.generate w
  | .typescript => TypeScript.generate w
  | .assemblyscript => AssemblyScript.generate w
  | .zig => Zig.generate w

/-- The state of the writer when `generate` has ended. -/
def outcome (t : Target) (o : Options) (p : Protocol) : Except Exn Out :=
  match t.writer o p with
  | .error e => .error e
  | .ok w => match t.emit w ⟨0, []⟩ with
    | .error e => .error e
    | .ok (_, out) => .ok out

/-- What `generate` returns: `"\n".join(self.output)`. -/
def generate (t : Target) (o : Options) (p : Protocol) : Except Exn String :=
  (t.outcome o p).map fun out => "\n".intercalate out.lines

end Target

end Beschi.Text
