import Verif.Protocol.Accept
/-
The facts about a loaded protocol that the generated code depends on.  They survive the renaming
of members, so they are collected apart from `WellFormed`.
-/
namespace Beschi
open Spec

/-- What generators may assume about a protocol. -/
structure Usable (p : Protocol) : Prop where
  structsDistinct : (structNames p).Nodup
  messagesDistinct : (messageNames p).Nodup
  enumsDistinct : (enumNames p).Nodup
  structMessage : ∀ n ∈ structNames p, n ∉ messageNames p
  structEnum : ∀ n ∈ structNames p, n ∉ enumNames p
  messageEnum : ∀ n ∈ messageNames p, n ∉ enumNames p
  notBuiltin : ∀ n ∈ structNames p ++ messageNames p ++ enumNames p, n ∉ builtinTypes ∧ n ≠ "string"
  types : ∀ s ∈ p.structs ++ p.messages, ∀ v ∈ s.members, KnownType p v.vartype
  enums : ∀ e ∈ p.enums, GoodEnum e
  messageCount : p.messages.length ≤ 255
  listSize : IntegerType p.listSize
  stringSize : IntegerType p.stringSize
  acyclic : Acyclic p
  structFlag : ∀ s ∈ p.structs, s.isMessage = false
  messageFlag : ∀ s ∈ p.messages, s.isMessage = true

theorem goodName_notBuiltin {n : String} (h : GoodName n) : n ∉ builtinTypes ∧ n ≠ "string" := by
  constructor
  · intro hb
    apply h.notReserved
    have hl : lower n = n := char_toLower_of_ascii_lower n (by simp [hb])
    rw [hl]
    revert hb
    simp only [builtinTypes, reserved, List.mem_cons]
    rintro (h | h | h | h | h | h | h | h | h | h | h) <;> simp [h]
  · rintro rfl
    exact h.notReserved (by decide)

theorem Spec.WellFormed.usable {p : Protocol} (h : WellFormed p) (ha : Acyclic p) : Usable p where
  structsDistinct := h.structsDistinct
  messagesDistinct := h.messagesDistinct
  enumsDistinct := h.enumsDistinct
  structMessage := h.structMessage
  structEnum := h.structEnum
  messageEnum := h.messageEnum
  notBuiltin n hn := goodName_notBuiltin (h.goodNames n hn)
  types s hs v hv := (h.bodies s hs).memberType v hv
  enums := h.enums
  messageCount := h.messageCount
  listSize := h.listSize
  stringSize := h.stringSize
  acyclic := ha
  structFlag := h.structFlag
  messageFlag := h.messageFlag

/-- Every accepted protocol is usable. -/
theorem usable_of_loads {data : Toml} {p : Protocol} (h : Loads data (.ok p)) : Usable p := by
  obtain ⟨h1, fuel, h2⟩ := loads_ok_iff.1 h
  have hw := (loadPhase1_sound h1).1
  exact hw.usable (acyclic_of_checkAll hw.structsDistinct (fun s hs => List.mem_append_left _ hs) h2)

/-- The class of a type name, with the outcome of every test a generator makes on it. -/
inductive Kind (p : Protocol) (t : String) : Prop
  | num (n : NumTy) (e : t = n.name) (ne : t ≠ "string") (num : NumTy.ofName? t = some n)
      (enum : p.enum? t = none) (struct : p.struct? t = none) (message : p.message? t = none)
  | text (e : t = "string") (num : NumTy.ofName? t = none) (enum : p.enum? t = none)
      (struct : p.struct? t = none) (message : p.message? t = none)
  | enum (e : Enum) (mem : e ∈ p.enums) (name : e.name = t) (ne : t ≠ "string")
      (num : NumTy.ofName? t = none) (enum : p.enum? t = some e) (struct : p.struct? t = none)
      (message : p.message? t = none)
  | struct (s : Struct) (mem : s ∈ p.structs) (name : s.name = t) (ne : t ≠ "string")
      (num : NumTy.ofName? t = none) (enum : p.enum? t = none) (struct : p.struct? t = some s)
      (message : p.message? t = none)

theorem ofName?_none {t : String} (h : t ∉ builtinTypes) : NumTy.ofName? t = none := by
  cases ho : NumTy.ofName? t with
  | none => rfl
  | some n => exact absurd ((ofName?_isSome_iff t).1 (by simp [ho])) h

theorem name_ne_string (n : NumTy) : n.name ≠ "string" := by cases n <;> decide

theorem name_builtin (n : NumTy) : n.name ∈ builtinTypes := by cases n <;> decide

theorem enum?_none {p : Protocol} {t : String} (h : t ∉ enumNames p) : p.enum? t = none := by
  cases ho : p.enum? t with
  | none => rfl
  | some n => exact absurd ((isEnum_iff p t).1 (by simp [Protocol.isEnum, ho])) h

theorem struct?_none {p : Protocol} {t : String} (h : t ∉ structNames p) : p.struct? t = none := by
  cases ho : p.struct? t with
  | none => rfl
  | some n => exact absurd ((isStruct_iff p t).1 (by simp [Protocol.isStruct, ho])) h

theorem message?_none {p : Protocol} {t : String} (h : t ∉ messageNames p) :
    p.message? t = none := by
  cases ho : p.message? t with
  | none => rfl
  | some n => exact absurd ((isMessageName_iff p t).1 (by simp [Protocol.isMessageName, ho])) h

theorem enum?_of_mem {p : Protocol} (hn : (enumNames p).Nodup) {e : Enum} (he : e ∈ p.enums) :
    p.enum? e.name = some e := find?_of_mem_nodup _ _ hn he

theorem message?_of_mem {p : Protocol} (hn : (messageNames p).Nodup) {s : Struct}
    (hs : s ∈ p.messages) : p.message? s.name = some s := find?_of_mem_nodup _ _ hn hs

namespace Usable
variable {p : Protocol} (h : Usable p)
include h

theorem kind_num (n : NumTy) : Kind p n.name := by
  have hb := name_builtin n
  refine .num n rfl (name_ne_string n) (ofName?_name n) (enum?_none fun hm => ?_)
    (struct?_none fun hm => ?_) (message?_none fun hm => ?_)
  · exact (h.notBuiltin _ (by simp [hm])).1 hb
  · exact (h.notBuiltin _ (by simp [hm])).1 hb
  · exact (h.notBuiltin _ (by simp [hm])).1 hb

theorem kind_text : Kind p "string" := by
  refine .text rfl rfl (enum?_none fun hm => ?_)
    (struct?_none fun hm => ?_) (message?_none fun hm => ?_)
  · exact (h.notBuiltin _ (by simp [hm])).2 rfl
  · exact (h.notBuiltin _ (by simp [hm])).2 rfl
  · exact (h.notBuiltin _ (by simp [hm])).2 rfl

theorem kind_enum {e : Enum} (he : e ∈ p.enums) : Kind p e.name := by
  have hm : e.name ∈ enumNames p := List.mem_map_of_mem he
  have hb := h.notBuiltin e.name (by simp [hm])
  exact .enum e he rfl hb.2 (ofName?_none hb.1) (enum?_of_mem h.enumsDistinct he)
    (struct?_none fun hs => h.structEnum _ hs hm) (message?_none fun hs => h.messageEnum _ hs hm)

theorem kind_struct {s : Struct} (hs : s ∈ p.structs) : Kind p s.name := by
  have hm : s.name ∈ structNames p := List.mem_map_of_mem hs
  have hb := h.notBuiltin s.name (by simp [hm])
  exact .struct s hs rfl hb.2 (ofName?_none hb.1) (enum?_none fun he => h.structEnum _ hm he)
    (struct?_of_mem h.structsDistinct hs) (message?_none fun he => h.structMessage _ hm he)

/-- Every type a member may have falls in exactly one class. -/
theorem kind {t : String} (ht : KnownType p t) : Kind p t := by
  rcases ht with ht | rfl | ht | ht
  · have := (ofName?_isSome_iff t).2 ht
    obtain ⟨n, hn⟩ := Option.isSome_iff_exists.1 this
    rw [ofName?_some hn]
    exact h.kind_num n
  · exact h.kind_text
  · simp only [structNames, List.mem_map] at ht
    obtain ⟨s, hs, rfl⟩ := ht
    exact h.kind_struct hs
  · simp only [enumNames, List.mem_map] at ht
    obtain ⟨e, he, rfl⟩ := ht
    exact h.kind_enum he

theorem fits (t : String) : fits p p.structs.length t := fits_of_acyclic h.structsDistinct h.acyclic t

theorem known_of_struct {s : Struct} (hs : s ∈ p.structs) {v : Variable} (hv : v ∈ s.members) :
    KnownType p v.vartype := h.types s (by simp [hs]) v hv

theorem known_of_message {s : Struct} (hs : s ∈ p.messages) {v : Variable} (hv : v ∈ s.members) :
    KnownType p v.vartype := h.types s (by simp [hs]) v hv

end Usable

end Beschi
