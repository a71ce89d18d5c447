import Verif.Text.Generate
/-
A program that imports beschi and uses one `Protocol` object for several writers.  The writers share the
object (`self.protocol = protocol`, writer.py L38), and two of the constructors change it.  (The command
line constructs one writer per process.)
-/
namespace Beschi.Text

namespace Target

/-- What the protocol is after the constructor of a writer has run: those for Go and Rust assign to
`var.name` (go.py L22-32, rust.py L22-28; the new values of enums are computed in go.py L23-26, but not
stored); the others leave the protocol alone. -/
def leaves (t : Target) (o : Options) (p : Protocol) : Protocol :=
  match t with
  | .go => p.rename (Lang.Go.namer o.goNoRename)
  | .rust => p.rename (Lang.Rust.namer o.rustNoRename)
  | _ => p

end Target

/-- A writer, and its `indent_level`, which `generate` does not reset (`self.output` it does: c.py L397,
csharp.py L249, go.py L300, rust.py L256, swift.py L234, typescript.py L381, zig.py L282). -/
structure Made where
  target : Target
  writer : Writer
  level : Int

/-- The objects of the program: the protocol, and the writers in the order of their construction. -/
structure Session where
  p : Protocol
  made : List Made

namespace Session

/-- `writer_class(protocol, extra_args=...)`, and `writer.tab = ...` if there is a choice (cli.py L82-85).
The new writer refers to the protocol as it is after the constructor. -/
def make (s : Session) (t : Target) (o : Options) : Except Exn Session :=
  match t.writer o s.p with
  | .error e => .error e
  | .ok w => .ok ⟨t.leaves o s.p, s.made ++ [⟨t, w, 0⟩]⟩

/-- `writer.generate()` for the writer constructed as the `i`-th, which looks at the protocol as it is
now. -/
def text (s : Session) (i : Nat) : Except Exn (String × Session) :=
  match s.made[i]? with
  | none => .error .index
  | some m => match m.target.emit { m.writer with p := s.p } ⟨m.level, []⟩ with
    | .error e => .error e
    | .ok (_, out) => .ok ("\n".intercalate out.lines, { s with made := s.made.set i { m with level := out.indent } })

end Session

/-- What the program does: construct a writer, or call `generate` of the `i`-th one. -/
inductive Act where
  | make (t : Target) (o : Options)
  | text (i : Nat)

/-- What the program does one after the other: the texts it gets and the objects in the end.  An exception
ends it. -/
def Session.run : Session → List Act → Except Exn (List String × Session)
  | s, [] => .ok ([], s)
  | s, .make t o :: as => match s.make t o with
    | .error e => .error e
    | .ok s => s.run as
  | s, .text i :: as => match s.text i with
    | .error e => .error e
    | .ok (x, s) => match s.run as with
      | .error e => .error e
      | .ok (xs, s) => .ok (x :: xs, s)

end Beschi.Text
