import Verif.Spec.WellFormed
import Mathlib.Data.List.Forall2
/-
Specification of what a protocol description says (docs/protocols.md), for any description, however
it is written.  Nothing here mentions the loader's functions.
-/
namespace Beschi.Spec

/-- The entries of a section such as `[[structs]]`; a section that is left out has none. -/
def entries (kvs : List (String × Toml)) (key : String) : List Toml :=
  match kvs.lookup key with
  | some (.arr l) => l
  | _ => []

/-- An entry of the `[meta]` table. -/
def metaEntry (kvs : List (String × Toml)) (key : String) : Option Toml :=
  match kvs.lookup "meta" with
  | some (.table m) => m.lookup key
  | _ => none

/-- Does the type name look like that of a list? -/
def Bracketed (t : String) : Prop := t.toList.head? = some '[' ∧ t.toList.getLast? = some ']'

/-- The table declares this struct or message: it has its name, and the keys that do not start with
an underscore are its members in order, the types of lists in brackets. -/
def DescribesStruct (t : Toml) (s : Struct) : Prop :=
  ∃ kvs, t = .table kvs ∧ kvs.lookup "_name" = some (.str s.name) ∧
    kvs.filter (fun e => e.1.toList.head? != some '_') = s.members.map memberToml ∧
    ∀ v ∈ s.members, ¬ Bracketed v.vartype

/-- The dictionary that results from assigning the pairs one after the other: every key once, where
it was first assigned, with the value it was last given. -/
def Assigned {α : Type} (pairs d : List (String × α)) : Prop :=
  d.map (·.1) = (pairs.map (·.1)).eraseDups ∧ ∀ x ∈ d, pairs.reverse.lookup x.1 = some x.2

/-- The table is an entry of an enum with an explicit number. -/
def DescribesEntry (t : Toml) (x : String × Int) : Prop :=
  ∃ kvs, t = .table kvs ∧ kvs.lookup "_name" = some (.str x.1) ∧ kvs.lookup "_value" = some (.int x.2)

/-- The list gives these values: names without repetition, numbered from zero, or entries with
explicit numbers. -/
def DescribesValues (spec : List Toml) (values : List (String × Int)) : Prop :=
  (∃ names : List String, spec = names.map .str ∧ names.Nodup ∧
    values = names.zipIdx.map fun x => (x.1, (x.2 : Int))) ∨
  (∃ es, es ≠ [] ∧ List.Forall₂ DescribesEntry spec es ∧ Assigned es values)

/-- The table declares an enum with this name and list of values. -/
def DeclaresEnum (t : Toml) (d : String × List Toml) : Prop :=
  ∃ kvs, t = .table kvs ∧ kvs.lookup "_name" = some (.str d.1) ∧ kvs.lookup "_values" = some (.arr d.2)

/-- The size type is the one given in the `[meta]` table, or `uint32` if there is none. -/
def DescribesSize (t : Option Toml) (n : NumTy) : Prop :=
  t = some (.str n.name) ∨ t = none ∧ n = .uint32

/-- The description describes the protocol. -/
structure Described (kvs : List (String × Toml)) (p : Protocol) : Prop where
  ns : p.ns = metaEntry kvs "namespace"
  listSize : DescribesSize (metaEntry kvs "list_size_type") p.listSize
  stringSize : DescribesSize (metaEntry kvs "string_size_type") p.stringSize
  structs : List.Forall₂ DescribesStruct (entries kvs "structs") p.structs
  messages : List.Forall₂ DescribesStruct (entries kvs "messages") p.messages
  enums : ∃ decls dict, List.Forall₂ DeclaresEnum (entries kvs "enums") decls ∧ Assigned decls dict ∧
    List.Forall₂ (fun d e => e.name = d.1 ∧ DescribesValues d.2 e.values) dict p.enums

/-- A textual namespace has no whitespace. -/
def GoodNamespace (p : Protocol) : Prop := ∀ s, p.ns = some (.str s) → NoSpace s

/-- The sections of a description have the shape they should have: lists of entries, a table
`[meta]` with a textual namespace; no enum is declared twice. -/
structure Shaped (kvs : List (String × Toml)) : Prop where
  sections : ∀ key ∈ ["structs", "messages", "enums"], kvs.lookup key = none ∨
    ∃ l, kvs.lookup key = some (.arr l)
  info : kvs.lookup "meta" = none ∨ ∃ m, kvs.lookup "meta" = some (.table m)
  ns : metaEntry kvs "namespace" = none ∨ ∃ s, metaEntry kvs "namespace" = some (.str s)
  once : ((entries kvs "enums").filterMap enumDecl |>.map (·.1)).Nodup

end Beschi.Spec
