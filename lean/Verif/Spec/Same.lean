import Verif.Spec.Described
/-
Specification of descriptions that say the same: tables whose keys come in another order or that have
further keys which mean nothing; and of descriptions whose structs and enums come in another order.
-/
namespace Beschi.Spec

/-- The members: the keys that do not start with an underscore, in order. -/
def memberKeys (kvs : List (String × Toml)) : List (String × Toml) :=
  kvs.filter fun e => e.1.toList.head? != some '_'

/-- Two entries declare the same struct or message: the same name and the same members in the same
order; other keys that start with an underscore, and where the name stands, do not matter. -/
def SameStruct (t t' : Toml) : Prop :=
  t = t' ∨ ∃ kvs kvs', t = .table kvs ∧ t' = .table kvs' ∧ kvs.lookup "_name" = kvs'.lookup "_name" ∧
    memberKeys kvs = memberKeys kvs'

/-- Two tables give the same enum value: only the name and the number matter. -/
def SameValue (t t' : Toml) : Prop :=
  t = t' ∨ ∃ kvs kvs', t = .table kvs ∧ t' = .table kvs' ∧ kvs.lookup "_name" = kvs'.lookup "_name" ∧
    kvs.lookup "_value" = kvs'.lookup "_value"

/-- Two lists give the same enum values. -/
def SameValues (o o' : Option Toml) : Prop :=
  o = o' ∨ ∃ l l', o = some (.arr l) ∧ o' = some (.arr l') ∧ List.Forall₂ SameValue l l'

/-- Two entries declare the same enum: only the name and the list of values matter. -/
def SameEnum (t t' : Toml) : Prop :=
  t = t' ∨ ∃ kvs kvs', t = .table kvs ∧ t' = .table kvs' ∧ kvs.lookup "_name" = kvs'.lookup "_name" ∧
    SameValues (kvs.lookup "_values") (kvs'.lookup "_values")

/-- The section is a list with these entries; a section that is left out is like an empty one. -/
def IsSection (o : Option Toml) (l : List Toml) : Prop := o = some (.arr l) ∨ o = none ∧ l = []

/-- Two sections have the same entries in the same order. -/
def SameSection (R : Toml → Toml → Prop) (o o' : Option Toml) : Prop :=
  o = o' ∨ ∃ l l', IsSection o l ∧ IsSection o' l' ∧ List.Forall₂ R l l'

/-- The section is a table with these keys; if it is left out it is like an empty one. -/
def IsInfo (o : Option Toml) (m : List (String × Toml)) : Prop := o = some (.table m) ∨ o = none ∧ m = []

/-- Two `[meta]` tables say the same: only three keys matter. -/
def SameInfo (o o' : Option Toml) : Prop :=
  o = o' ∨ ∃ m m', IsInfo o m ∧ IsInfo o' m' ∧
    ∀ k ∈ ["namespace", "list_size_type", "string_size_type"], m.lookup k = m'.lookup k

/-- Two descriptions say the same. -/
structure SameDescription (kvs kvs' : List (String × Toml)) : Prop where
  info : SameInfo (kvs.lookup "meta") (kvs'.lookup "meta")
  structs : SameSection SameStruct (kvs.lookup "structs") (kvs'.lookup "structs")
  messages : SameSection SameStruct (kvs.lookup "messages") (kvs'.lookup "messages")
  enums : SameSection SameEnum (kvs.lookup "enums") (kvs'.lookup "enums")

/-- The keys of a description that mean something. -/
def sectionKeys : List String := ["meta", "structs", "messages", "enums"]

/-- The structs and the enums of one description are those of the other in any order; everything else
is the same. -/
structure Reordered (kvs kvs' : List (String × Toml)) : Prop where
  ns : metaEntry kvs' "namespace" = metaEntry kvs "namespace"
  listSize : metaEntry kvs' "list_size_type" = metaEntry kvs "list_size_type"
  stringSize : metaEntry kvs' "string_size_type" = metaEntry kvs "string_size_type"
  structs : (entries kvs' "structs").Perm (entries kvs "structs")
  messages : entries kvs' "messages" = entries kvs "messages"
  enums : (entries kvs' "enums").Perm (entries kvs "enums")

/-- Two protocols that differ in the order of their structs and enums only. -/
structure UpToOrder (p q : Protocol) : Prop where
  ns : q.ns = p.ns
  listSize : q.listSize = p.listSize
  stringSize : q.stringSize = p.stringSize
  structs : q.structs.Perm p.structs
  messages : q.messages = p.messages
  enums : q.enums.Perm p.enums

end Beschi.Spec
