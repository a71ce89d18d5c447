import Verif.Wire.Layout
/-
Renaming of members (rust.py L19-28 and go.py L18-27 rename the members of all structs and messages
in the protocol before anything is generated).
-/
namespace Beschi
open Spec

/-- A member under its new name (`var.name = ...`, rust.py L25, L28; go.py). -/
def Variable.rename (f : String → String) (v : Variable) : Variable := { v with name := f v.name }

/-- A struct or message with its members renamed (rust.py L24-25, L27-28; go.py). -/
def Struct.rename (f : String → String) (s : Struct) : Struct :=
  { s with members := s.members.map (Variable.rename f) }

/-- The loops over `p.structs` and `p.messages` (rust.py L22-28; go.py L19-26). -/
def Protocol.rename (f : String → String) (p : Protocol) : Protocol :=
  { p with structs := p.structs.map (Struct.rename f), messages := p.messages.map (Struct.rename f) }

namespace Spec

mutual
/-- The same value with members called by their new names. -/
def Val.mapNames (f : String → String) : Val → Val
  | .list vs => .list (mapNamesList f vs)
  | .record fs => .record (mapNamesFields f fs)
  | .int i => .int i
  | .bool b => .bool b
  | .bits w => .bits w
  | .str s => .str s
/-- Elements of a list. -/
def mapNamesList (f : String → String) : List Val → List Val
  | [] => []
  | v :: vs => v.mapNames f :: mapNamesList f vs
/-- Members of an object. -/
def mapNamesFields (f : String → String) : List (String × Val) → List (String × Val)
  | [] => []
  | (n, v) :: fs => (f n, v.mapNames f) :: mapNamesFields f fs
end

theorem mapNamesList_length (f : String → String) : ∀ vs, (mapNamesList f vs).length = vs.length
  | [] => rfl
  | v :: vs => by simp [mapNamesList, mapNamesList_length f vs]

mutual
theorem Val.mapNames_id : ∀ v : Val, v.mapNames id = v
  | .list vs => by simp [Val.mapNames, mapNamesList_id vs]
  | .record fs => by simp [Val.mapNames, mapNamesFields_id fs]
  | .int _ => rfl
  | .bool _ => rfl
  | .bits _ => rfl
  | .str _ => rfl
theorem mapNamesList_id : ∀ vs, mapNamesList id vs = vs
  | [] => rfl
  | v :: vs => by simp [mapNamesList, Val.mapNames_id v, mapNamesList_id vs]
theorem mapNamesFields_id : ∀ fs, mapNamesFields id fs = fs
  | [] => rfl
  | (n, v) :: fs => by simp [mapNamesFields, Val.mapNames_id v, mapNamesFields_id fs]
end

end Spec

theorem Protocol.rename_id (p : Protocol) : p.rename id = p := by
  have : Struct.rename id = id := by
    funext s
    have : Variable.rename id = id := by funext v; rfl
    simp [Struct.rename, this]
  simp [Protocol.rename, this]

section
variable {f : String → String} {p : Protocol}

theorem structNames_rename : structNames (p.rename f) = structNames p := by
  simp [structNames, Protocol.rename, Function.comp_def, Struct.rename]
theorem messageNames_rename : messageNames (p.rename f) = messageNames p := by
  simp [messageNames, Protocol.rename, Function.comp_def, Struct.rename]
theorem enumNames_rename : enumNames (p.rename f) = enumNames p := rfl

theorem contains_rename {a b : String} (h : Contains (p.rename f) a b) : Contains p a b := by
  obtain ⟨s, hs, hn, hb, v, hv, ht⟩ := h
  simp only [Protocol.rename, List.mem_map] at hs
  obtain ⟨s0, hs0, rfl⟩ := hs
  simp only [Struct.rename, List.mem_map] at hv
  obtain ⟨v0, hv0, rfl⟩ := hv
  exact ⟨s0, hs0, hn, by rwa [structNames_rename] at hb, v0, hv0, ht⟩

theorem containsPlus_rename {a b : String} (h : ContainsPlus (p.rename f) a b) :
    ContainsPlus p a b := by
  induction h with
  | one h => exact .one (contains_rename h)
  | more h _ ih => exact .more (contains_rename h) ih

/-- Renaming members keeps a protocol usable. -/
theorem Usable.rename (h : Usable p) (f : String → String) : Usable (p.rename f) where
  structsDistinct := by rw [structNames_rename]; exact h.structsDistinct
  messagesDistinct := by rw [messageNames_rename]; exact h.messagesDistinct
  enumsDistinct := h.enumsDistinct
  structMessage := by rw [structNames_rename, messageNames_rename]; exact h.structMessage
  structEnum := by rw [structNames_rename]; exact h.structEnum
  messageEnum := by rw [messageNames_rename]; exact h.messageEnum
  notBuiltin := by
    rw [structNames_rename, messageNames_rename, enumNames_rename]; exact h.notBuiltin
  types s hs v hv := by
    simp only [Protocol.rename, ← List.map_append, List.mem_map] at hs
    obtain ⟨s0, hs0, rfl⟩ := hs
    simp only [Struct.rename, List.mem_map] at hv
    obtain ⟨v0, hv0, rfl⟩ := hv
    have := h.types s0 hs0 v0 hv0
    unfold KnownType at this ⊢
    rw [structNames_rename, enumNames_rename]
    exact this
  enums := h.enums
  messageCount := by simpa [Protocol.rename] using h.messageCount
  listSize := h.listSize
  stringSize := h.stringSize
  acyclic a ha := h.acyclic a (containsPlus_rename ha)
  structFlag s hs := by
    simp only [Protocol.rename, List.mem_map] at hs
    obtain ⟨s0, hs0, rfl⟩ := hs
    exact h.structFlag s0 hs0
  messageFlag s hs := by
    simp only [Protocol.rename, List.mem_map] at hs
    obtain ⟨s0, hs0, rfl⟩ := hs
    exact h.messageFlag s0 hs0

theorem decNum_mapNames {n : NumTy} {v : Val} {bs : List UInt8} (h : DecNum n v bs) :
    v.mapNames f = v := by
  cases h with
  | truthy => rfl
  | written h => cases h <;> rfl

mutual
theorem Layout.rename {A : Atoms} (hA : ∀ n v bs, A.num n v bs → DecNum n v bs) :
    ∀ {t v bs}, Layout A p t v bs → Layout A (p.rename f) t (v.mapNames f) bs
  | _, _, _, .num h => by rw [decNum_mapNames (hA _ _ _ h)]; exact .num h
  | _, _, _, .text h1 h2 => .text h1 h2
  | _, _, _, .enum h1 h2 h3 => .enum h1 h2 h3
  | _, _, _, .struct (s := s) h1 h2 => by
    have := LayoutFields.rename hA h2
    exact .struct (s := s.rename f) (List.mem_map_of_mem h1) this
theorem LayoutItems.rename {A : Atoms} (hA : ∀ n v bs, A.num n v bs → DecNum n v bs) :
    ∀ {t vs bs}, LayoutItems A p t vs bs → LayoutItems A (p.rename f) t (mapNamesList f vs) bs
  | _, _, _, .nil => .nil
  | _, _, _, .cons h1 h2 => .cons (Layout.rename hA h1) (LayoutItems.rename hA h2)
theorem LayoutFields.rename {A : Atoms} (hA : ∀ n v bs, A.num n v bs → DecNum n v bs) :
    ∀ {ms fs bs}, LayoutFields A p ms fs bs →
      LayoutFields A (p.rename f) (ms.map (Variable.rename f)) (mapNamesFields f fs) bs
  | _, _, _, .nil => .nil
  | _, _, _, .one (m := m) h1 h2 h3 =>
    .one (m := m.rename f) h1 (Layout.rename hA h2) (LayoutFields.rename hA h3)
  | _, _, _, .list (m := m) h1 h2 h3 h4 => by
    refine .list (m := m.rename f) h1 ?_ (LayoutItems.rename hA h3) (LayoutFields.rename hA h4)
    rw [mapNamesList_length]; exact h2
end

mutual
theorem Layout.unrename {A : Atoms} (hA : ∀ n v bs, A.num n v bs → DecNum n v bs) {q : Protocol}
    (hq : q = p.rename f) :
    ∀ {t w bs}, Layout A q t w bs → ∃ v, Layout A p t v bs ∧ w = v.mapNames f
  | _, _, _, .num h => ⟨_, .num h, (decNum_mapNames (hA _ _ _ h)).symm⟩
  | _, _, _, .text h1 h2 => ⟨_, .text (by subst hq; exact h1) h2, rfl⟩
  | _, _, _, .enum h1 h2 h3 => ⟨_, .enum (by subst hq; exact h1) h2 h3, rfl⟩
  | _, _, _, .struct (s := s) h1 h2 => by
    have h1' := h1
    rw [hq] at h1'
    simp only [Protocol.rename, List.mem_map] at h1'
    obtain ⟨s0, hs0, e⟩ := h1'
    obtain ⟨fs, h3, rfl⟩ := LayoutFields.unrename hA hq (ms0 := s0.members) h2 (by rw [← e]; rfl)
    rw [← e]
    exact ⟨.record fs, Layout.struct (s := s0) hs0 h3, rfl⟩
theorem LayoutItems.unrename {A : Atoms} (hA : ∀ n v bs, A.num n v bs → DecNum n v bs) {q : Protocol}
    (hq : q = p.rename f) :
    ∀ {t ws bs}, LayoutItems A q t ws bs → ∃ vs, LayoutItems A p t vs bs ∧ ws = mapNamesList f vs
  | _, _, _, .nil => ⟨[], .nil, rfl⟩
  | _, _, _, .cons h1 h2 => by
    obtain ⟨v, h3, rfl⟩ := Layout.unrename hA hq h1
    obtain ⟨vs, h4, rfl⟩ := LayoutItems.unrename hA hq h2
    exact ⟨v :: vs, .cons h3 h4, rfl⟩
theorem LayoutFields.unrename {A : Atoms} (hA : ∀ n v bs, A.num n v bs → DecNum n v bs) {q : Protocol}
    (hq : q = p.rename f) :
    ∀ {ms gs bs} {ms0 : List Variable}, LayoutFields A q ms gs bs →
      ms = ms0.map (Variable.rename f) →
      ∃ fs, LayoutFields A p ms0 fs bs ∧ gs = mapNamesFields f fs
  | _, _, _, [], .nil, _ => ⟨[], .nil, rfl⟩
  | _, _, _, m0 :: ms0, .nil, he => by cases he
  | _, _, _, [], .one _ _ _, he => by cases he
  | _, _, _, [], .list _ _ _ _, he => by cases he
  | _, _, _, m0 :: ms0, .one (m := m) h1 h2 h3, he => by
    simp only [List.map_cons, List.cons.injEq] at he
    obtain ⟨hm, hms⟩ := he
    obtain ⟨v, h4, rfl⟩ := Layout.unrename hA hq h2
    obtain ⟨fs, h5, rfl⟩ := LayoutFields.unrename hA hq h3 hms
    refine ⟨(m0.name, v) :: fs, .one ?_ ?_ h5, ?_⟩
    · rw [hm] at h1; exact h1
    · rw [hm] at h4; exact h4
    · rw [hm]; rfl
  | _, _, _, m0 :: ms0, .list (m := m) h1 h2 h3 h4, he => by
    simp only [List.map_cons, List.cons.injEq] at he
    obtain ⟨hm, hms⟩ := he
    obtain ⟨vs, h5, rfl⟩ := LayoutItems.unrename hA hq h3
    obtain ⟨fs, h6, rfl⟩ := LayoutFields.unrename hA hq h4 hms
    rw [mapNamesList_length] at h2
    refine ⟨(m0.name, .list vs) :: fs, .list ?_ ?_ ?_ h6, ?_⟩
    · rw [hm] at h1; exact h1
    · subst hq; exact h2
    · rw [hm] at h5; exact h5
    · rw [hm]; rfl
end

theorem written_dec : ∀ n v bs, written.num n v bs → DecNum n v bs := fun _ _ _ h => .written h
theorem readableRaw_dec : ∀ n v bs, readableRaw.num n v bs → DecNum n v bs := fun _ _ _ h => h

theorem EncMsg.rename {m : String} {v : Val} {bs : List UInt8} (h : EncMsg p m v bs) :
    EncMsg (p.rename f) m (v.mapNames f) bs := by
  obtain ⟨d, fs, h1, rfl, rfl, h2⟩ := h
  exact ⟨d.rename f, mapNamesFields f fs, List.mem_map_of_mem h1, rfl, rfl,
    LayoutFields.rename written_dec h2⟩

theorem Stream.rename {ms : List (String × Val)} {bs : List UInt8} (h : Stream p ms bs) :
    Stream (p.rename f) (ms.map fun x => (x.1, x.2.mapNames f)) bs := by
  induction h with
  | nil => exact .nil
  | @cons pre post d v bs ms rest hp he _ ih =>
    have := Stream.cons (p := p.rename f) (pre := pre.map (Struct.rename f))
      (post := post.map (Struct.rename f)) (d := d.rename f) (by simp [Protocol.rename, hp])
      (EncMsg.rename (f := f) he) ih
    simpa [Struct.rename] using this

end
end Beschi
