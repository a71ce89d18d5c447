import Verif.Cli.Main
/-
What the command line tool is expected to do (README.md, docs).
-/
namespace Beschi.Spec
open Beschi.Cli Beschi.Text

/-- The names of the languages. -/
inductive Language : String → Target → Prop
  | c : Language "c" .c
  | csharp : Language "csharp" .csharp
  | go : Language "go" .go
  | rust : Language "rust" .rust
  | swift : Language "swift" .swift
  | typescript : Language "typescript" .typescript
  | assemblyscript : Language "assemblyscript" .assemblyscript
  | zig : Language "zig" .zig

/-- The namespace that counts: the one given as an argument, unless it is empty. -/
def Effective (args : Args) (p q : Protocol) : Prop :=
  q = { p with ns := q.ns } ∧
    ((∃ n, args.ns = some n ∧ n ≠ "" ∧ q.ns = some (.str n)) ∨
      ((args.ns = none ∨ args.ns = some "") ∧ q.ns = p.ns))

/-- The options that count. -/
structure Effectively (args : Args) (text : String) (o : Options) : Prop where
  indent : (∃ s, args.indent = some s ∧ s ≠ "" ∧ o.indent = some s) ∨
    ((args.indent = none ∨ args.indent = some "") ∧ o.indent = none)
  embed : (args.embedProtocol = true ∧ o.embed = some text) ∨ (args.embedProtocol = false ∧ o.embed = none)
  go : o.goNoRename = args.goNoRename
  rust : o.rustNoRename = args.rustNoRename
  typescript : o.typescriptUseNamespace = args.typescriptUseNamespace

/-- The document that the arguments name, its text and what is in it. -/
def Document (sys : System) (args : Args) (text : String) (data : Toml) : Prop :=
  ∃ path bytes, args.protocol = some path ∧ sys.files path = some bytes ∧ sys.parse bytes = some (text, data)

/-- The text that the arguments ask for. -/
def Requested (sys : System) (args : Args) (out : String) : Prop :=
  ∃ text data p q lang t o, Document sys args text data ∧ Loads data (.ok p) ∧ Effective args p q ∧
    args.lang = some lang ∧ Language lang t ∧ Effectively args text o ∧ t.generate o q = .ok out

end Beschi.Spec
