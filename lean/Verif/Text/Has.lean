import Verif.Text.Runs
import Verif.Protocol.SizeLemmas
/-
The lookups of the generators succeed for an accepted protocol.
-/
namespace Beschi.Text
open Spec

theorem mem_of_lookup {d : List (String × String)} {k v : String} (h : d.lookup k = some v) : (k, v) ∈ d := by
  induction d with
  | nil => cases h
  | cons x xs ih =>
    obtain ⟨k', v'⟩ := x
    rw [List.lookup_cons] at h
    split at h
    · rename_i he
      cases h
      simp only [beq_iff_eq] at he
      simp [he]
    · exact List.mem_cons_of_mem _ (ih h)

/-- The texts in a table leave the brackets as they are. -/
def TableClosed (b : Bool) (d : List (String × String)) : Prop := ∀ x ∈ d, Closed b x.2

theorem has_of_isSome {b : Bool} {d : List (String × String)} {k : String} (hd : TableClosed b d)
    (h : (d.lookup k).isSome = true) : Has (Closed b) (Writer.look d k) := by
  unfold Writer.look
  cases hl : d.lookup k with
  | none => rw [hl] at h; cases h
  | some v => exact ⟨v, rfl, hd _ (mem_of_lookup hl)⟩

theorem lookup_append_left {d e : List (String × String)} {k : String} (h : (d.lookup k).isSome = true) :
    ((d ++ e).lookup k).isSome = true := by
  rw [List.lookup_append]
  cases hl : d.lookup k with
  | none => rw [hl] at h; cases h
  | some v => rfl

theorem lookup_append_right {d e : List (String × String)} {k : String} (h : (e.lookup k).isSome = true) :
    ((d ++ e).lookup k).isSome = true := by
  rw [List.lookup_append]
  cases hl : d.lookup k with
  | none => simpa using h
  | some v => rfl

theorem lookup_map {α} {xs : List α} {f : α → String} {x : α} (h : x ∈ xs) :
    ((xs.map fun y => (f y, f y)).lookup (f x)).isSome = true := by
  induction xs with
  | nil => cases h
  | cons y ys ih =>
    simp only [List.map_cons, List.lookup_cons]
    split
    · rfl
    · rcases List.mem_cons.1 h with rfl | h
      · simp_all
      · exact ih h

/-- The names in a protocol leave the brackets as they are. -/
structure NamesClosed (b : Bool) (p : Protocol) : Prop where
  bodies : ∀ s ∈ p.structs ++ p.messages, Closed b s.name
  members : ∀ s ∈ p.structs ++ p.messages, ∀ v ∈ s.members, Closed b v.name
  enums : ∀ e ∈ p.enums, Closed b e.name
  values : ∀ e ∈ p.enums, ∀ x ∈ e.values, Closed b x.1
  ns : ∀ s, p.ns = some (.str s) → Closed b s

/-- What the constructors establish, and what the texts that come from outside must satisfy. -/
structure Good (b : Bool) (w : Writer) : Prop where
  usable : Usable w.p
  numbers : ∀ n : NumTy, (w.mapping.lookup n.name).isSome = true
  mapping : TableClosed b w.mapping
  codecs : TableClosed b w.codecs
  defaults : TableClosed b w.defaults
  names : NamesClosed b w.p
  tab : Closed b w.tab
  nativeTab : Closed b w.nativeTab
  pref : Closed b w.pref
  embed : ClosedLines b (splitlines (w.embed.getD ""))

/-- The number types have entries in the second table. -/
def Coded (w : Writer) : Prop := ∀ n : NumTy, (w.codecs.lookup n.name).isSome = true

namespace Good
variable {b : Bool} {w : Writer} (g : Good b w)
include g

theorem types : TableClosed b w.types := by
  intro x hx
  unfold Writer.types at hx
  simp only [List.mem_append, List.mem_map, List.mem_singleton] at hx
  rcases hx with (((hx | ⟨e, he, rfl⟩) | ⟨s, hs, rfl⟩) | ⟨s, hs, rfl⟩) | rfl
  · exact g.mapping x hx
  · exact g.names.enums e he
  · exact g.names.bodies s (by simp [hs])
  · exact g.names.bodies s (by simp [hs])
  · exact closed_of_matched (matched_of_scan (by decide))

theorem types_num (n : NumTy) : (w.types.lookup n.name).isSome = true := by
  unfold Writer.types
  exact lookup_append_left (lookup_append_left (lookup_append_left (lookup_append_left (g.numbers n))))

theorem type_num (n : NumTy) : Has (Closed b) (w.type n.name) := has_of_isSome g.types (g.types_num n)

theorem listSize : Has (Closed b) w.listSize := g.type_num _
theorem stringSize : Has (Closed b) w.stringSize := g.type_num _
theorem byte : Has (Closed b) (w.type "byte") := g.type_num .byte
theorem uint32 : Has (Closed b) (w.type "uint32") := g.type_num .uint32
theorem string : Has (Closed b) (w.type "string") :=
  has_of_isSome g.types (lookup_append_right (by rfl))

theorem type_struct {s : Struct} (h : s ∈ w.p.structs) : Has (Closed b) (w.type s.name) :=
  has_of_isSome g.types (lookup_append_left (lookup_append_right (lookup_map h)))

theorem type_message {s : Struct} (h : s ∈ w.p.messages) : Has (Closed b) (w.type s.name) :=
  has_of_isSome g.types (lookup_append_left (lookup_append_left (lookup_append_right (lookup_map h))))

theorem type_body {s : Struct} (h : s ∈ w.p.structs ++ w.p.messages) : Has (Closed b) (w.type s.name) := by
  rcases List.mem_append.1 h with h | h
  · exact g.type_struct h
  · exact g.type_message h

theorem type_enum {e : Enum} (h : e ∈ w.p.enums) : Has (Closed b) (w.type e.name) :=
  has_of_isSome g.types (lookup_append_left (lookup_append_left (lookup_append_left (lookup_append_right (lookup_map h)))))

theorem type_known {t : String} (h : KnownType w.p t) : Has (Closed b) (w.type t) := by
  cases g.usable.kind h with
  | num n e => subst e; exact g.type_num n
  | text e => subst e; exact g.string
  | enum e mem name => subst name; exact g.type_enum mem
  | struct s mem name => subst name; exact g.type_struct mem

omit g in
theorem enum {t : String} (h : w.p.isEnum t = true) : Has (· ∈ w.p.enums) (w.enum t) := by
  unfold Protocol.isEnum at h
  unfold Writer.enum
  cases he : w.p.enum? t with
  | none => rw [he] at h; cases h
  | some e => exact ⟨e, rfl, List.mem_of_find?_eq_some he⟩

theorem defaultPair {e : Enum} (h : e ∈ w.p.enums) : Has (fun x => Closed b x.1) (Writer.defaultPair e) := by
  have := (g.usable.enums e h).nonempty
  have hc := g.names.values e h
  unfold Writer.defaultPair
  cases hv : e.values with
  | nil => exact absurd hv this
  | cons x xs => exact ⟨x, rfl, hc x (by simp [hv])⟩

omit g in
theorem leastPair_mem (x : String × Int) (ys : List (String × Int)) : Writer.leastPair x ys ∈ x :: ys := by
  induction ys generalizing x with
  | nil => simp [Writer.leastPair]
  | cons y ys ih =>
    unfold Writer.leastPair
    rcases List.mem_cons.1 (ih (if y.2 < x.2 then y else x)) with h | h
    · rw [h]; split <;> simp
    · simp [h]

theorem minimumPair {e : Enum} (h : e ∈ w.p.enums) : Has (fun x => Closed b x.1) (Writer.minimumPair e) := by
  have := (g.usable.enums e h).nonempty
  have hc := g.names.values e h
  unfold Writer.minimumPair
  cases hv : e.values with
  | nil => exact absurd hv this
  | cons x xs => exact ⟨_, rfl, hc _ (by rw [hv]; exact leastPair_mem x xs)⟩

theorem simple {v : Variable} (listed : Bool) (h : KnownType w.p v.vartype) :
    Has (· = w.p.simpleVar v listed) (w.simple v listed) := by
  unfold Writer.simple
  by_cases hl : v.isList = false ∨ listed = true
  · rw [(simpleVar_spec g.usable hl h).1]; exact ⟨_, rfl, rfl⟩
  · obtain ⟨h1, h2⟩ := not_or.1 hl
    have h1 : v.isList = true := by simpa using h1
    have h2 : listed = false := by simpa using h2
    subst h2
    rw [(simpleVar_list h1).1]; exact ⟨_, rfl, rfl⟩

theorem structSimple {s : Struct} (h : ∀ v ∈ s.members, KnownType w.p v.vartype) :
    Has (· = w.p.simpleStruct s) (w.structSimple s) := by
  unfold Writer.structSimple
  rw [(simpleStruct_spec g.usable h).1]; exact ⟨_, rfl, rfl⟩

theorem structSimple' {s : Struct} (h : s ∈ w.p.structs ++ w.p.messages) :
    Has (· = w.p.simpleStruct s) (w.structSimple s) := g.structSimple (g.usable.types s h)

theorem sizeOf_var {v : Variable} {listed : Bool} (h : KnownType w.p v.vartype)
    (hs : w.p.simpleVar v listed = true) : Has Any (w.sizeOf v.vartype) := by
  unfold Writer.sizeOf
  by_cases hl : v.isList = false ∨ listed = true
  · rw [(sizeOf_fixed g.usable h ((simpleVar_spec g.usable hl h).2.1 hs)).1]
    exact ⟨_, rfl, trivial⟩
  · obtain ⟨h1, h2⟩ := not_or.1 hl
    have h1 : v.isList = true := by simpa using h1
    have h2 : listed = false := by simpa using h2
    subst h2
    rw [(simpleVar_list h1).2] at hs; cases hs

theorem sizeOf_body {s : Struct} (h : s ∈ w.p.structs ++ w.p.messages) (hs : w.p.simpleStruct s = true) :
    Has Any (w.sizeOf s.name) := by
  unfold Writer.sizeOf
  rw [(Beschi.sizeOf_body g.usable h ((simpleStruct_spec g.usable (g.usable.types s h)).2.1 hs)).1]
  exact ⟨_, rfl, trivial⟩

/-- The members of a simple struct are simple. -/
theorem sizeOf_member {s : Struct} {v : Variable} (h : s ∈ w.p.structs ++ w.p.messages)
    (hs : w.p.simpleStruct s = true) (hv : v ∈ s.members) : Has Any (w.sizeOf v.vartype) := by
  have hb := (simpleStruct_spec g.usable (g.usable.types s h)).2.1 hs
  unfold Writer.sizeOf
  rw [(sizeOf_fixed g.usable (g.usable.types s h v hv) fun hx => hb ⟨v, hv, .inr hx⟩).1]
  exact ⟨_, rfl, trivial⟩

omit g in
theorem struct_of_isStruct {t : String} (h : w.p.isStruct t = true) :
    Has (fun s => s ∈ w.p.structs ∧ w.p.struct? t = some s) (w.struct t) := by
  unfold Protocol.isStruct at h
  unfold Writer.struct
  cases he : w.p.struct? t with
  | none => rw [he] at h; cases h
  | some e => exact ⟨e, rfl, List.mem_of_find?_eq_some he, rfl⟩

/-- What is neither of fixed size nor text is a struct. -/
theorem struct {v : Variable} {listed : Bool} (h : KnownType w.p v.vartype)
    (hl : v.isList = false ∨ listed = true) (hs : ¬ w.p.simpleVar v listed = true)
    (ht : ¬ (v.vartype == "string") = true) :
    Has (fun s => s ∈ w.p.structs ∧ w.p.struct? v.vartype = some s) (w.struct v.vartype) := by
  have hv : Varying w.p v.vartype := not_not.1 fun hx => hs ((simpleVar_spec g.usable hl h).2.2 hx)
  cases g.usable.kind h with
  | num n e => exact absurd hv (e ▸ varying_num g.usable n)
  | text e => exact absurd (by simp [e]) ht
  | enum e mem name => exact absurd hv (name ▸ varying_enum g.usable mem)
  | struct s mem name ne num enum struct =>
    unfold Writer.struct
    rw [struct]
    exact ⟨s, rfl, mem, rfl⟩

theorem struct_alone {v : Variable} (h : KnownType w.p v.vartype) (hl : ¬ v.isList = true)
    (hs : ¬ w.p.simpleVar v false = true) (ht : ¬ (v.vartype == "string") = true) :
    Has (fun s => s ∈ w.p.structs ∧ w.p.struct? v.vartype = some s) (w.struct v.vartype) :=
  g.struct h (.inl (by simpa using hl)) hs ht

theorem struct_element {v : Variable} (h : KnownType w.p v.vartype)
    (hs : ¬ w.p.simpleVar v true = true) (ht : ¬ (v.vartype == "string") = true) :
    Has (fun s => s ∈ w.p.structs ∧ w.p.struct? v.vartype = some s) (w.struct v.vartype) :=
  g.struct h (.inr rfl) hs ht

/-- What is neither a number, nor text, nor an enum is a struct. -/
theorem struct_left {v : Variable} (h : KnownType w.p v.vartype) (hn : ¬ Writer.isNum v.vartype = true)
    (ht : ¬ (v.vartype == "string") = true) (he : ¬ w.p.isEnum v.vartype = true) :
    Has (fun s => s ∈ w.p.structs ∧ w.p.struct? v.vartype = some s) (w.struct v.vartype) := by
  cases g.usable.kind h with
  | num n e _ num => exact absurd (by simp [Writer.isNum, num]) hn
  | text e => exact absurd (by simp [e]) ht
  | enum e mem name _ _ enum => exact absurd (by simp [Protocol.isEnum, enum]) he
  | struct s mem name ne num enum struct =>
    unfold Writer.struct
    rw [struct]
    exact ⟨s, rfl, mem, rfl⟩

/-- The name of a type of a member. -/
theorem vartype {t : String} (h : KnownType w.p t) : Closed b t := by
  cases g.usable.kind h with
  | num n e => subst e; cases n <;> exact closed_of_matched (matched_of_scan (by decide))
  | text e => subst e; exact closed_of_matched (matched_of_scan (by decide))
  | enum e mem name => subst name; exact g.names.enums e mem
  | struct s mem name => subst name; exact g.names.bodies s (by simp [mem])

theorem messageNumber {s : Struct} (h : s ∈ w.p.structs ++ w.p.messages) (hm : s.isMessage = true) :
    Has Any (w.messageNumber s.name) := by
  have h : s ∈ w.p.messages := by
    rcases List.mem_append.1 h with h | h
    · rw [g.usable.structFlag s h] at hm; cases hm
    · exact h
  unfold Writer.messageNumber
  cases hf : w.p.messages.findIdx? (·.name == s.name) with
  | some i => exact ⟨i, rfl, trivial⟩
  | none => rw [List.findIdx?_eq_none_iff] at hf; simpa using hf s h

theorem codec_num (c : Coded w) (n : NumTy) : Has (Closed b) (w.codec n.name) := has_of_isSome g.codecs (c n)

theorem codec_isNum (c : Coded w) {t : String} (h : Writer.isNum t = true) : Has (Closed b) (w.codec t) := by
  unfold Writer.isNum at h
  obtain ⟨n, hn⟩ := Option.isSome_iff_exists.1 h
  rw [ofName?_some hn]
  exact g.codec_num c n

theorem codec_isSome {t : String} (h : (w.codecs.lookup t).isSome = true) : Has (Closed b) (w.codec t) :=
  has_of_isSome g.codecs h

theorem type_isSome {t : String} (h : (w.types.lookup t).isSome = true) : Has (Closed b) (w.type t) :=
  has_of_isSome g.types h

theorem structName {s : Struct} (h : s ∈ w.p.structs) : Closed b s.name := g.names.bodies s (by simp [h])
theorem messageName {s : Struct} (h : s ∈ w.p.messages) : Closed b s.name := g.names.bodies s (by simp [h])
theorem memberName {s : Struct} {v : Variable} (hv : v ∈ s.members) (h : s ∈ w.p.structs ++ w.p.messages) :
    Closed b v.name := g.names.members s h v hv
theorem memberNames {s : Struct} (h : s ∈ w.p.structs ++ w.p.messages) :
    ∀ n ∈ s.members.map (·.name), Closed b n := fun n hn => by
  obtain ⟨v, hv, rfl⟩ := List.mem_map.1 hn
  exact g.memberName hv h
theorem valueName {e : Enum} {x : String × Int} (hx : x ∈ e.values) (h : e ∈ w.p.enums) : Closed b x.1 :=
  g.names.values e h x hx
theorem memberType {s : Struct} {v : Variable} (hv : v ∈ s.members) (h : s ∈ w.p.structs ++ w.p.messages) :
    KnownType w.p v.vartype := g.usable.types s h v hv

end Good

theorem has_headLine {ls : List String} (h : ls ≠ []) : Has (fun l => ls.head? = some l) (headLine ls) := by
  cases ls with
  | nil => exact absurd rfl h
  | cons l ls => exact ⟨l, rfl, rfl⟩

theorem closedLines_drop {b : Bool} {ls : List String} {h init : String} (hl : ClosedLines b ls)
    (hh : ls.head? = some h) (hi : Closed b init) : ClosedLines b (if h == init then ls.tail else ls) := by
  split
  · rename_i he
    simp only [beq_iff_eq] at he
    subst he
    cases ls with
    | nil => cases hh
    | cons l ls => cases hh; exact closedLines_tail hi hl
  · exact hl

/-- The namespace is missing or a text (the loader also accepts arrays and tables). -/
def PlainNs (p : Protocol) : Prop := p.ns = none ∨ ∃ s, p.ns = some (.str s)

theorem Good.nsText {b : Bool} {w : Writer} (g : Good b w) (h : PlainNs w.p) : Has (Closed b) w.nsText := by
  unfold Writer.nsText
  rcases h with h | ⟨s, h⟩
  · rw [h]; exact ⟨_, rfl, closed_of_matched (matched_of_scan (by decide))⟩
  · rw [h]; exact ⟨_, rfl, g.names.ns s h⟩

end Beschi.Text
