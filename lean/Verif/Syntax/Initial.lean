import Verif.Lang.Create
/-
How the default values of members are written: what the languages have in common.
-/
namespace Beschi.Syntax
open Beschi.Spec Beschi.Lang

/-- The notation of default values. -/
structure InitialSyntax where
  no : String := "false"
  yes : String := "true"
  zero : String
  text : String := "\"\""
  /-- an empty list of elements of the given type -/
  list : String → String
  /-- an entry of an enum -/
  entry : String → String → String
  /-- a new object -/
  make : String → String

/-- The namespace, if it is given and a string. -/
def namespaceOf (p : Protocol) : Option String :=
  match p.ns with
  | some (.str n) => some n
  | _ => none

/-- The name of the first entry with this number. -/
def entryName (p : Protocol) (t : String) (i : Int) : String :=
  match p.enum? t with
  | some e => match e.values.find? (·.2 = i) with
    | some x => x.1
    | none => ""
  | none => ""

/-- The expression for the default value of a member of type `t`, or of elements of type `t` (`native` is
what the type is called in the language).  The default of a number with a fractional part is always zero. -/
def InitialSyntax.expr (I : InitialSyntax) (p : Protocol) (t native : String) : DExpr → String
  | .num (.bool b) => if b then I.yes else I.no
  | .num (.bits _) => I.zero
  | .num (.int i) => toString i
  | .num _ => ""
  | .text => I.text
  | .list => I.list native
  | .entry i => I.entry t (entryName p t i)
  | .make s => I.make s

end Beschi.Syntax
