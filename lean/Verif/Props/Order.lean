import Verif.Spec.Same
import Verif.Props.Growth
/-
C47: what does not matter in a description.
-/
namespace Beschi.Props
open Lang Spec

/-! ### The same entries -/

theorem buildMembers_memberKeys (kvs : List (String × Toml)) : buildMembers kvs = buildMembers (memberKeys kvs) := by
  induction kvs with
  | nil => rfl
  | cons e kvs ih =>
    obtain ⟨n, t⟩ := e
    unfold memberKeys at ih ⊢
    rw [List.filter_cons]
    by_cases h : n.toList.head? = some '_'
    · simp only [h, bne_self_eq_false, Bool.false_eq_true, if_false]
      have hb : buildMember n t = .ok none := by
        unfold buildMember
        rw [if_pos (by simp [h])]
      rw [← ih, buildMembers, hb]
      cases buildMembers kvs <;> rfl
    · have : (n.toList.head? != some '_') = true := by simpa using h
      simp only [this, if_true]
      rw [buildMembers, buildMembers, ih]

theorem buildStruct_same {t t' : Toml} (h : SameStruct t t') (f : Bool) : buildStruct t f = buildStruct t' f := by
  rcases h with rfl | ⟨k, k', rfl, rfl, h1, h2⟩
  · rfl
  · simp only [buildStruct, get?_eq_lookup]
    rw [h1, buildMembers_memberKeys k, buildMembers_memberKeys k', h2]

theorem loadStructs_same {l l' : List Toml} (h : List.Forall₂ SameStruct l l') (p : Protocol) :
    loadStructs l p = loadStructs l' p := by
  induction h generalizing p with
  | nil => rfl
  | cons h _ ih => simp only [loadStructs, buildStruct_same h, ih]

theorem loadMessages_same {l l' : List Toml} (h : List.Forall₂ SameStruct l l') (p : Protocol) :
    loadMessages l p = loadMessages l' p := by
  induction h generalizing p with
  | nil => rfl
  | cons h _ ih => simp only [loadMessages, buildStruct_same h, ih]

theorem allStrings_same {l l' : List Toml} (h : List.Forall₂ SameValue l l') : allStrings l = allStrings l' := by
  induction h with
  | nil => rfl
  | cons h _ ih =>
    rcases h with rfl | ⟨k, k', rfl, rfl, _, _⟩
    · rename_i t _ _ _
      cases t <;> simp only [allStrings, ih]
    · rfl

theorem allTables_same {l l' : List Toml} (h : List.Forall₂ SameValue l l') (od : List (String × Int)) :
    (match allTables l with | some ts => some (enumEntries ts od) | none => none) =
      (match allTables l' with | some ts => some (enumEntries ts od) | none => none) := by
  induction h generalizing od with
  | nil => rfl
  | @cons t t' l l' h _ ih =>
    have key : ∀ k k' : List (String × Toml), enumEntry k = enumEntry k' →
        (match allTables (.table k :: l) with | some ts => some (enumEntries ts od) | none => none) =
        (match allTables (.table k' :: l') with | some ts => some (enumEntries ts od) | none => none) := by
      intro k k' hk
      simp only [allTables]
      cases h1 : allTables l <;> cases h2 : allTables l' <;>
        simp only [h1, h2, reduceCtorEq, Option.some.injEq, forall_const] at ih <;>
        simp only [Option.map_none, Option.map_some, enumEntries, hk]
      cases enumEntry k' with
      | error e => rfl
      | ok x => exact congrArg some (ih _)
    rcases h with rfl | ⟨k, k', rfl, rfl, h1, h2⟩
    · cases t <;> try rfl
      exact key _ _ rfl
    · refine key _ _ ?_
      simp only [enumEntry, get?_eq_lookup, h1, h2]

theorem enumValues_same {l l' : List Toml} (h : List.Forall₂ SameValue l l') (n : String) :
    enumValues n l = enumValues n l' := by
  unfold enumValues
  rw [allStrings_same h]
  have := allTables_same h []
  cases allStrings l' with
  | some _ => rfl
  | none =>
    cases h1 : allTables l <;> cases h2 : allTables l' <;>
      simp only [h1, h2, reduceCtorEq, Option.some.injEq] at this ⊢
    exact this

theorem loadEnumEntry_same {t t' : Toml} (h : SameEnum t t') : loadEnumEntry t = loadEnumEntry t' := by
  rcases h with rfl | ⟨k, k', rfl, rfl, h1, h2⟩
  · rfl
  · simp only [loadEnumEntry, get?_eq_lookup, h1]
    rcases h2 with h2 | ⟨l, l', h2, h3, h4⟩
    · rw [h2]
    · rw [h2, h3]
      simp only [buildEnum, enumValues_same h4]

theorem loadEnums_same {l l' : List Toml} (h : List.Forall₂ SameEnum l l') (p : Protocol) :
    loadEnums l p = loadEnums l' p := by
  induction h generalizing p with
  | nil => rfl
  | cons h _ ih => simp only [loadEnums, loadEnumEntry_same h, ih]

/-! ### The same description -/

theorem loadMeta_same {kvs kvs' : List (String × Toml)} (h : SameInfo (kvs.lookup "meta") (kvs'.lookup "meta")) :
    loadMeta kvs = loadMeta kvs' := by
  have key : ∀ {kvs : List (String × Toml)} {m}, IsInfo (kvs.lookup "meta") m →
      loadMeta kvs = loadMeta [("meta", .table m)] := by
    rintro kvs m (h | ⟨h, rfl⟩)
    · simp only [loadMeta, get?_eq_lookup, h]; rfl
    · simp only [loadMeta, get?_eq_lookup, h]; rfl
  rcases h with h | ⟨m, m', h1, h2, h3⟩
  · simp only [loadMeta, get?_eq_lookup, h]
  · rw [key h1, key h2]
    simp only [loadMeta, get?_eq_lookup, List.lookup_cons, beq_self_eq_true, metaNamespace, metaSize, metaGet]
    rw [h3 "namespace" (by simp), h3 "list_size_type" (by simp), h3 "string_size_type" (by simp)]

theorem sectionItems_same {R : Toml → Toml → Prop} {kvs kvs' : List (String × Toml)} {key : String} {β : Type}
    {f f' : List Toml → Except LoadErr β} (h : SameSection R (kvs.lookup key) (kvs'.lookup key))
    (hf : ∀ l l', l = l' ∨ List.Forall₂ R l l' → f l = f' l') :
    (sectionItems kvs key >>= f) = (sectionItems kvs' key >>= f') := by
  have sec : ∀ {kvs : List (String × Toml)} {l}, IsSection (kvs.lookup key) l → sectionItems kvs key = .ok l := by
    rintro kvs l (h | ⟨h, rfl⟩) <;> simp only [sectionItems, get?_eq_lookup, h]
  rcases h with h | ⟨l, l', h1, h2, h3⟩
  · have : sectionItems kvs key = sectionItems kvs' key := by simp only [sectionItems, get?_eq_lookup, h]
    rw [this]
    cases sectionItems kvs' key with
    | error e => rfl
    | ok l => exact hf l l (.inl rfl)
  · rw [sec h1, sec h2]
    exact hf l l' (.inr h3)

/-- C47: two descriptions that say the same are loaded alike: the same protocol, the same refusal, or
both do not end. -/
theorem C47_same {kvs kvs' : List (String × Toml)} (h : SameDescription kvs kvs') (fuel : Nat) :
    load fuel (.table kvs) = load fuel (.table kvs') := by
  have : loadPhase1 (.table kvs) = loadPhase1 (.table kvs') := by
    unfold loadPhase1
    simp only
    rw [loadMeta_same h.info]
    refine bind_congr fun p0 => sectionItems_same h.structs fun l l' hl => ?_
    have e1 : loadStructs l p0 = loadStructs l' p0 := hl.elim (fun e => by rw [e]) (loadStructs_same · p0)
    rw [e1]
    refine bind_congr fun p1 => sectionItems_same h.messages fun l l' hl => ?_
    have e2 : loadMessages l p1 = loadMessages l' p1 := hl.elim (fun e => by rw [e]) (loadMessages_same · p1)
    rw [e2]
    refine bind_congr fun p2 => sectionItems_same h.enums fun l l' hl => ?_
    have e3 : loadEnums l p2 = loadEnums l' p2 := hl.elim (fun e => by rw [e]) (loadEnums_same · p2)
    rw [e3]
  unfold load
  rw [this]

/-- C47: the sections of a description may come in any order.  (TOML forbids repeated keys.) -/
theorem C47_sections {kvs kvs' : List (String × Toml)} (hk : (kvs.map (·.1)).Nodup) (h : kvs.Perm kvs') (fuel : Nat) :
    load fuel (.table kvs) = load fuel (.table kvs') := by
  have hl : ∀ k, kvs.lookup k = kvs'.lookup k := by
    intro k
    have hk' : (kvs'.map (·.1)).Nodup := (h.map _).nodup_iff.1 hk
    have key : ∀ {l l' : List (String × Toml)}, (l'.map (·.1)).Nodup → (∀ x ∈ l, x ∈ l') → ∀ t,
        l.lookup k = some t → l'.lookup k = some t := by
      intro l l' hn hs t ht
      have hm := hs (k, t) (mem_of_lookup_some (x := (k, t)) ht)
      clear hs ht
      induction l' with
      | nil => cases hm
      | cons y l' ih =>
        rw [List.lookup_cons]
        rw [List.map_cons, List.nodup_cons] at hn
        rcases List.mem_cons.1 hm with rfl | hm
        · simp
        · have : k ≠ y.1 := fun e => hn.1 (e ▸ List.mem_map_of_mem (f := (·.1)) hm)
          rw [show (k == y.1) = false from by simpa using this]
          exact ih hn.2 hm
    have h1 := key hk' (fun x hx => h.subset hx)
    have h2 := key hk (fun x hx => h.symm.subset hx)
    cases e : kvs.lookup k with
    | some t => exact (h1 t e).symm
    | none => cases e' : kvs'.lookup k with
      | none => rfl
      | some t => rw [h2 t e'] at e; cases e
  exact C47_same ⟨.inl (hl _), .inl (hl _), .inl (hl _), .inl (hl _)⟩ fuel

/-- C47: a key that is not the name of a section may be added anywhere, with any value. -/
theorem C47_unknown_key {pre post : List (String × Toml)} {k : String} (t : Toml) (h : k ∉ sectionKeys) (fuel : Nat) :
    load fuel (.table (pre ++ (k, t) :: post)) = load fuel (.table (pre ++ post)) := by
  have hl : ∀ n ∈ sectionKeys, (pre ++ (k, t) :: post).lookup n = (pre ++ post).lookup n := by
    intro n hn
    have hne : (n == k) = false := by
      rw [beq_eq_false_iff_ne]
      rintro rfl
      exact h hn
    rw [List.lookup_append, List.lookup_append, List.lookup_cons, hne]
  exact C47_same ⟨.inl (hl _ (by simp [sectionKeys])), .inl (hl _ (by simp [sectionKeys])),
    .inl (hl _ (by simp [sectionKeys])), .inl (hl _ (by simp [sectionKeys]))⟩ fuel

/-! ### Structs and enums in another order -/

theorem eraseDups_nodup {l : List String} (h : l.Nodup) : l.eraseDups = l := by
  induction l with
  | nil => rfl
  | cons x l ih =>
    rw [List.nodup_cons] at h
    rw [List.eraseDups_cons, List.filter_eq_self.2 (fun y hy => by
      have : y ≠ x := fun e => h.1 (e ▸ hy)
      simpa using this), ih h.2]

theorem assigned_self {α : Type} {l : List (String × α)} (h : (l.map (·.1)).Nodup) : Assigned l l := by
  refine ⟨(eraseDups_nodup h).symm, fun x hx => ?_⟩
  have hn : ((l.reverse).map (·.1)).Nodup := by rw [List.map_reverse]; exact List.nodup_reverse.2 h
  have hm := List.mem_reverse.2 hx
  generalize l.reverse = r at hn hm
  induction r with
  | nil => cases hm
  | cons y r ih =>
    rw [List.lookup_cons]
    rw [List.map_cons, List.nodup_cons] at hn
    rcases List.mem_cons.1 hm with rfl | hm
    · simp
    · have : x.1 ≠ y.1 := fun e => hn.1 (e ▸ List.mem_map_of_mem (f := (·.1)) hm)
      rw [show (x.1 == y.1) = false from by simpa using this]
      exact ih hn.2 hm

theorem forall₂_perm {α β : Type} {R : α → β → Prop} {l l' : List α} {m : List β} (h : List.Forall₂ R l m)
    (hp : l'.Perm l) : ∃ m', List.Forall₂ R l' m' ∧ m'.Perm m := by
  obtain ⟨m', h1, h2⟩ := List.perm_comp_forall₂ hp h
  exact ⟨m', h1, h2⟩

theorem upToOrder_symm {p q : Protocol} (h : UpToOrder p q) : UpToOrder q p :=
  ⟨h.ns.symm, h.listSize.symm, h.stringSize.symm, h.structs.symm, h.messages.symm, h.enums.symm⟩

theorem upToOrder_extends {p q : Protocol} (h : UpToOrder p q) : Extends p q :=
  ⟨h.listSize, h.stringSize, fun s hs => h.structs.symm.subset hs,
    fun e he => ⟨e, h.enums.symm.subset he, rfl, rfl, fun _ hx => hx⟩, by rw [h.messages]⟩

theorem upToOrder_wellFormed {p q : Protocol} (h : UpToOrder p q) (w : WellFormed p) : WellFormed q := by
  have hs : (structNames q).Perm (structNames p) := h.structs.map _
  have he : (enumNames q).Perm (enumNames p) := h.enums.map _
  have hm : messageNames q = messageNames p := by unfold messageNames; rw [h.messages]
  have hb : ∀ s ∈ q.structs ++ q.messages, s ∈ p.structs ++ p.messages := by
    intro s hx
    rw [h.messages] at hx
    exact (h.structs.append_right _).subset hx
  exact {
    structsDistinct := hs.nodup_iff.2 w.structsDistinct
    messagesDistinct := hm ▸ w.messagesDistinct
    enumsDistinct := he.nodup_iff.2 w.enumsDistinct
    structMessage := fun n hn => hm ▸ w.structMessage n (hs.subset hn)
    structEnum := fun n hn hx => w.structEnum n (hs.subset hn) (he.subset hx)
    messageEnum := fun n hn hx => w.messageEnum n (hm ▸ hn) (he.subset hx)
    goodNames := fun n hn => w.goodNames n (by
      rw [hm] at hn
      exact ((hs.append_right _).append he).subset hn)
    bodies := fun s hx => by
      have g := w.bodies s (hb s hx)
      refine ⟨g.memberSpace, fun v hv => ?_, fun v hv => hm ▸ g.noMessage v hv, g.memberHidden⟩
      rcases g.memberType v hv with k | k | k | k
      · exact .inl k
      · exact .inr (.inl k)
      · exact .inr (.inr (.inl (hs.symm.subset k)))
      · exact .inr (.inr (.inr (he.symm.subset k)))
    enums := fun e hx => w.enums e (h.enums.subset hx)
    enumValueNames := fun e hx v hv => by
      obtain ⟨h1, h2, h3⟩ := w.enumValueNames e (h.enums.subset hx) v hv
      exact ⟨fun k => h1 (hs.subset k), hm ▸ h2, h3⟩
    messageCount := h.messages ▸ w.messageCount
    listSize := h.listSize ▸ w.listSize
    stringSize := h.stringSize ▸ w.stringSize
    structFlag := fun s hx => w.structFlag s (h.structs.subset hx)
    messageFlag := h.messages ▸ w.messageFlag }

theorem upToOrder_acyclic {p q : Protocol} (h : UpToOrder p q) (w : Acyclic p) : Acyclic q := by
  have hc : ∀ a b, Contains q a b → Contains p a b := by
    rintro a b ⟨s, h1, h2, h3, h4⟩
    exact ⟨s, h.structs.subset h1, h2, (h.structs.map _).subset h3, h4⟩
  have : ∀ {a b}, ContainsPlus q a b → ContainsPlus p a b := by
    intro a b h
    induction h with
    | one h => exact .one (hc _ _ h)
    | more h _ ih => exact .more (hc _ _ h) ih
  exact fun a ha => w a (this ha)

/-- C47: if the structs and enums of an accepted description are put in another order, it is accepted too, and
the protocol is the same but for this order. -/
theorem C47_reordered {kvs kvs' : List (String × Toml)} {p : Protocol} (hs : Shaped kvs) (hs' : Shaped kvs')
    (hr : Reordered kvs kvs') (h : Loads (.table kvs) (.ok p)) :
    ∃ q, Loads (.table kvs') (.ok q) ∧ UpToOrder p q := by
  obtain ⟨hd, hw, ha, hg, hn⟩ := (C39_accepted_iff hs).1 h
  obtain ⟨structs, s1, s2⟩ := forall₂_perm hd.structs hr.structs
  obtain ⟨decls, dict, e1, e2, e3⟩ := hd.enums
  have names : ∀ {ts : List Toml} {ds}, List.Forall₂ DeclaresEnum ts ds → ts.filterMap enumDecl = ds := by
    intro ts ds h
    induction h with
    | nil => rfl
    | cons h _ ih =>
      obtain ⟨_, rfl, x1, x2⟩ := h
      rw [List.filterMap_cons, enumDecl]
      simp only [x1, x2, ih]
  have hnd : (decls.map (·.1)).Nodup := by rw [← names e1]; exact hs.once
  have hdict : dict = decls := assigned_unique e2 (assigned_self hnd)
  subst hdict
  obtain ⟨decls', f1, f2⟩ := forall₂_perm e1 hr.enums
  obtain ⟨enums, g1, g2⟩ := forall₂_perm e3 f2
  have hnd' : (decls'.map (·.1)).Nodup := (f2.map _).nodup_iff.2 hnd
  let q : Protocol := { p with structs := structs, enums := enums }
  have hu : UpToOrder p q := ⟨rfl, rfl, rfl, s2, rfl, g2⟩
  refine ⟨q, (C39_accepted_iff hs').2 ⟨⟨?_, ?_, ?_, s1, ?_, decls', decls', f1, assigned_self hnd', g1⟩,
    upToOrder_wellFormed hu hw, upToOrder_acyclic hu ha, hg, fun e he => hn e (g2.subset he)⟩, hu⟩
  · rw [hr.ns]; exact hd.ns
  · rw [hr.listSize]; exact hd.listSize
  · rw [hr.stringSize]; exact hd.stringSize
  · rw [hr.messages]; exact hd.messages

/-- C47: the bytes of a message do not depend on the order of the structs and enums. -/
theorem C47_bytes {p q : Protocol} (h : UpToOrder p q) {m : String} {v : Val} {bs : List UInt8} :
    EncMsg p m v bs ↔ EncMsg q m v bs :=
  ⟨C45_bytes (upToOrder_extends h), C45_bytes (upToOrder_extends (upToOrder_symm h))⟩

/-- C47: nor do streams of messages. -/
theorem C47_stream {p q : Protocol} (h : UpToOrder p q) {ms : List (String × Val)} {bs : List UInt8} :
    Stream p ms bs ↔ Stream q ms bs :=
  ⟨C45_stream (upToOrder_extends h), C45_stream (upToOrder_extends (upToOrder_symm h))⟩

/-- C47: what is written by a program generated before the structs and enums were put in another order is
read by one generated afterwards, in any languages. -/
theorem C47_understood_partial {data data' : Toml} {p q : Protocol} (hp : Loads data (.ok p))
    (hq : Loads data' (.ok q)) (h : UpToOrder p q) (l l' : Language) (hs : l.Supported p) (hs' : l'.Supported q)
    {m : String} {v : Val} (hm : IsMessage p m v) (ht : Texts (l'.Faithful q) v) :
    ∃ bs, bytes ((l.library p).write m false (seen l v)) = .ok bs ∧
      ∀ pre rest, (pre ++ bs ++ rest).length < l'.limit →
        (l'.library q).read m (pre ++ bs ++ rest) pre.length = .ok (seen l' v, pre.length + bs.length) :=
  C45_old_read_partial hp hq (upToOrder_extends h) l l' hs hs' hm ht

/-! ### Examples -/

/-- The sections of the demo in another order, with a further section, and with a remark in each table. -/
example (fuel : Nat) : load fuel (.table [("remark", .str "x"), ("messages", .arr [.table [("a", .str "byte"),
      ("_note", .other), ("_name", .str "M")]]), ("meta", .table [("version", .int 2)])]) =
    load fuel (.table [("structs", .arr []), ("messages", .arr [.table [("_name", .str "M"), ("a", .str "byte")]])]) := by
  refine C47_same ?_ fuel
  refine ⟨.inr ⟨_, [], .inl rfl, .inr ⟨rfl, rfl⟩, by simp [List.lookup]⟩,
    .inr ⟨[], [], Or.inr ⟨rfl, rfl⟩, Or.inl rfl, .nil⟩,
    .inr ⟨_, _, .inl rfl, .inl rfl, .cons (.inr ⟨_, _, rfl, rfl, rfl, ?_⟩) .nil⟩, .inl rfl⟩
  rfl

/-- Two structs in one order and in the other. -/
def twoStructs (a b : Toml) : List (String × Toml) :=
  [("structs", .arr [a, b]), ("messages", .arr [.table [("_name", .str "M"), ("t", .str "T")]])]

/-- A struct `S`. -/
def declS : Toml := .table [("_name", .str "S"), ("x", .str "byte")]

/-- A struct `T` with a list of `S`. -/
def declT : Toml := .table [("_name", .str "T"), ("s", .str "[S]")]

theorem twoStructs_shaped (a b : Toml) : Shaped (twoStructs a b) where
  sections := by
    intro key hk
    simp only [List.mem_cons, List.not_mem_nil, or_false] at hk
    rcases hk with rfl | rfl | rfl
    · exact .inr ⟨_, rfl⟩
    · exact .inr ⟨_, rfl⟩
    · exact .inl rfl
  info := .inl rfl
  ns := .inl rfl
  once := .nil

example : ∃ q, Loads (.table (twoStructs declT declS)) (.ok q) ∧ q.structs.length = 2 := by
  have h : ∃ p, Loads (.table (twoStructs declS declT)) (.ok p) ∧ p.structs.length = 2 := ⟨_, ⟨10, rfl⟩, rfl⟩
  obtain ⟨p, hp, hl⟩ := h
  obtain ⟨q, hq, hu⟩ := C47_reordered (twoStructs_shaped declS declT) (twoStructs_shaped declT declS)
    ⟨rfl, rfl, rfl, .swap _ _ _, rfl, .refl _⟩ hp
  exact ⟨q, hq, hu.structs.length_eq.trans hl⟩

/-! ### Where it fails -/

/-- The structs of `hangingProtocol`, that on no cycle last. -/
def rotatedProtocol : Protocol where
  structs := [⟨"B", [⟨"c", "C", false⟩], false⟩, ⟨"C", [⟨"b", "B", false⟩], false⟩, ⟨"A", [⟨"b", "B", false⟩], false⟩]

/-- The sections of the description of a protocol with structs only. -/
def structsOnly (p : Protocol) : List (String × Toml) :=
  [("meta", .table [("list_size_type", .str "uint32"), ("string_size_type", .str "uint32")]),
    ("structs", .arr (p.structs.map structToml)), ("messages", .arr []), ("enums", .arr [])]

/-- C47, where it fails: if the description is not valid, the order of the structs can decide whether it is
refused or loading does not end. -/
theorem C47_fails_invalid : Reordered (structsOnly hangingProtocol) (structsOnly rotatedProtocol) ∧
    Diverges (.table (structsOnly hangingProtocol)) ∧
    Loads (.table (structsOnly rotatedProtocol)) (.error (.cycle "B" "B")) :=
  ⟨⟨rfl, rfl, rfl, List.perm_append_comm (l₁ := [_, _]) (l₂ := [_]), rfl, .refl _⟩,
    C04_diverges_of_lead_in hanging_wellFormed hanging_writable
      (pre := []) rfl (by simp) (fun h => hanging_contained _ _ h rfl)
      (.one (hanging_contains_iff.2 (.inl ⟨rfl, rfl⟩))) hanging_B,
    ⟨10, rfl⟩⟩

end Beschi.Props
