import Verif.Spec.Described
/-
Specification of protocols that are extended without changing what is there.
-/
namespace Beschi.Spec

/-- The protocol `q` extends `p`: structs, enums and enum values may have been added anywhere, and messages
after those that were there; the size types and the number types that stand for enums are the same. -/
structure Extends (p q : Protocol) : Prop where
  listSize : q.listSize = p.listSize
  stringSize : q.stringSize = p.stringSize
  structs : ∀ s ∈ p.structs, s ∈ q.structs
  enums : ∀ e ∈ p.enums, ∃ e' ∈ q.enums, e'.name = e.name ∧ e'.encoding = e.encoding ∧ ∀ x ∈ e.values, x ∈ e'.values
  messages : p.messages <+: q.messages

/-- A description to which structs and enums have been added anywhere, and messages at the end of their
section; none of the enums has a name that is used by another one. -/
structure Added (kvs kvs' : List (String × Toml)) : Prop where
  listSize : metaEntry kvs' "list_size_type" = metaEntry kvs "list_size_type"
  stringSize : metaEntry kvs' "string_size_type" = metaEntry kvs "string_size_type"
  structs : ∀ t ∈ entries kvs "structs", t ∈ entries kvs' "structs"
  enums : ∀ t ∈ entries kvs "enums", t ∈ entries kvs' "enums"
  messages : entries kvs "messages" <+: entries kvs' "messages"
  once : ((entries kvs' "enums").filterMap enumDecl |>.map (·.1)).Nodup

end Beschi.Spec
