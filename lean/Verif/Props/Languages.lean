import Verif.Lang.Languages
import Verif.Wire.Typed
import Verif.Props.Demo
/-
Property theorems about conforming data, for all target languages and pairs of them: C08, C10-C14,
C18-C20, C22, C23, C25.

Most claims are made for every accepted protocol, and are false for some: where generated names
clash the code does not compile, and there are a number of other limitations, all listed in
`Language.Supported` (Verif/Lang/Support.lean), `Language.Faithful` and `Language.Measured`.  The
theorems here are proved under these conditions, hence called `_partial`; that the conditions cannot
be dropped is shown in Verif/Props/Limits.lean.
-/
namespace Beschi.Props
open Beschi Beschi.Spec Beschi.Lang

/-- What a library writes, in one piece. -/
def bytes (r : Except Fail (List (List UInt8))) : Except Fail (List UInt8) := r.map List.flatten

/-- A message as a language's program sees it: members have the language's names. -/
def seen (l : Language) (v : Val) : Val := v.mapNames l.rename

/-- Several messages as a language's program sees them. -/
def seenAll (l : Language) (ms : List (String × Val)) : List (String × Val) :=
  ms.map fun x => (x.1, seen l x.2)

theorem seenAll_eq (l : Language) (ms : List (String × Val)) : seenAll l ms = mapMsgs l.rename ms := rfl

theorem bytes_of {r : Except Fail (List (List UInt8))} {bs : List UInt8}
    (h : ∃ cs, r = .ok cs ∧ cs.flatten = bs) : bytes r = .ok bs := by
  obtain ⟨cs, rfl, rfl⟩ := h; rfl

theorem at_mk (pre bs rest : List UInt8) : At (pre ++ bs ++ rest) pre.length bs :=
  ⟨pre, rest, by simp, rfl⟩

/-! ### C08 -/

/-- The generated file compiles as a whole.  (In the other languages the model confines the failure to
compile to single functions.) -/
def Compiles : Language → Protocol → Prop
  | .c, p => C.fileOk p = true
  | .zig, p => Zig.fileOk p = true
  | _, _ => True

theorem C_library {p : Protocol} (hc : Compiles .c p) : Language.c.library p = C.core p := by
  rw [Language.library, C.library, show C.fileOk p = true from hc]; rfl

theorem Zig_library {p : Protocol} (hc : Compiles .zig p) : Language.zig.library p = Zig.core p := by
  rw [Language.library, Zig.library, show Zig.fileOk p = true from hc]; rfl

theorem messageArms_unknown {p : Protocol} {t : Nat} (ht : t = 0 ∨ p.messages.length < t) :
    (messageArms p 1).lookup t = none := dispatch_unknown ht

/-- C08: in every language the identifier of the k-th declared message (counted from 0) is k + 1,
which is between 1 and 255, and this identifier is taken for that message. -/
theorem C08_identifiers {data : Toml} {p : Protocol} (h : Loads data (.ok p)) (l : Language)
    (hc : Compiles l p) {k : Nat} {d : Struct} (hk : p.messages[k]? = some d) :
    (l.library p).ident d.name = some (k + 1) ∧ (l.library p).dispatch (k + 1) = some d.name ∧
      k + 1 ≤ 255 := by
  have hu := usable_of_loads h
  obtain ⟨pre, post, e, hl⟩ : ∃ pre post, p.messages = pre ++ d :: post ∧ pre.length = k := by
    obtain ⟨hlt, he⟩ := List.getElem?_eq_some_iff.1 hk
    refine ⟨p.messages.take k, p.messages.drop (k + 1), ?_, by rw [List.length_take]; omega⟩
    rw [← he, List.getElem_cons_drop, List.take_append_drop]
  have hcount := hu.messageCount
  have hlt : k < p.messages.length := by rw [e, List.length_append, List.length_cons]; omega
  subst hl
  have hi := messageIndex_of_split hu e
  have ha := messageArms_of_split e (first := 1)
  have hR : ∀ f : String → String, (messageIndex (p.rename f) d.name).map (· + 1) = some (pre.length + 1) ∧
      (messageArms (p.rename f) 1).lookup (pre.length + 1) = some d.name := by
    intro f
    have e' := rename_split (f := f) e
    have h1 := messageIndex_of_split (hu.rename f) e'
    have h2 := messageArms_of_split e' (first := 1)
    simp only [List.length_map, Struct.rename] at h1 h2
    exact ⟨by rw [h1]; rfl, h2⟩
  refine ⟨?_, ?_, by omega⟩
  · cases l with
    | c => rw [C_library hc]; simp [C.core, hi]
    | csharp lossy => simp [Language.library, CSharp.library, hi]
    | go noRename => exact (hR _).1
    | rust noRename => exact (hR _).1
    | swift mark => simp [Language.library, Swift.library, hi]
    | typescript lossy => simp [Language.library, TypeScript.library, hi]
    | assemblyscript lossy => simp [Language.library, AssemblyScript.library, hi]
    | zig => rw [Zig_library hc]; simp [Zig.core, hi]
  · cases l with
    | c => rw [C_library hc]; exact ha
    | csharp lossy => exact ha
    | go noRename => exact (hR _).2
    | rust noRename => exact (hR _).2
    | swift mark => exact ha
    | typescript lossy => exact ha
    | assemblyscript lossy => exact ha
    | zig => rw [Zig_library hc]; exact ha

/-- C08: identifiers of different messages are different. -/
theorem C08_distinct {data : Toml} {p : Protocol} (h : Loads data (.ok p)) (l l' : Language)
    (hc : Compiles l p) (hc' : Compiles l' p) {d d' : Struct} (hd : d ∈ p.messages) (hd' : d' ∈ p.messages)
    (he : (l.library p).ident d.name = (l'.library p).ident d'.name) : d = d' := by
  obtain ⟨k, hk⟩ := List.getElem?_of_mem hd
  obtain ⟨k', hk'⟩ := List.getElem?_of_mem hd'
  have h1 := (C08_identifiers h l hc hk).1
  have h2 := (C08_identifiers h l' hc' hk').1
  rw [h1, h2] at he
  simp only [Option.some.injEq, Nat.add_right_cancel_iff] at he
  subst he
  rw [hk] at hk'
  cases hk'
  rfl

/-- C08: no other byte is taken for a message. -/
theorem C08_unknown {data : Toml} {p : Protocol} (_h : Loads data (.ok p)) (l : Language) {t : Nat}
    (ht : t = 0 ∨ p.messages.length < t) : (l.library p).dispatch t = none := by
  have hR : ∀ f : String → String, (messageArms (p.rename f) 1).lookup t = none := fun f =>
    messageArms_unknown (by simpa [Protocol.rename] using ht)
  cases l with
  | c =>
    simp only [Language.library, C.library]
    split
    · exact messageArms_unknown ht
    · rfl
  | csharp lossy => exact messageArms_unknown ht
  | go noRename => exact hR _
  | rust noRename => exact hR _
  | swift mark => exact messageArms_unknown ht
  | typescript lossy => exact messageArms_unknown ht
  | assemblyscript lossy => exact messageArms_unknown ht
  | zig =>
    simp only [Language.library, Zig.library]
    split
    · exact messageArms_unknown ht
    · rfl

theorem faithful_nil (l : Language) (p : Protocol) (hu : Usable p) : l.Faithful p [] := by
  cases l <;> try trivial
  · exact fun rest => by simp
  · exact fun rest => by simp
  · have := hu.stringSize
    simp only [Language.Faithful, Zig.Short]
    revert this
    cases p.stringSize <;> simp [IntegerType, IntRange, NumTy.size]

mutual
theorem texts_default {p : Protocol} {T : List UInt8 → Prop} (hT : T []) : ∀ {t v}, IsDefault p t v → Texts T v
  | _, _, .num (n := n) => by cases n <;> trivial
  | _, _, .text => hT
  | _, _, .enum _ _ => trivial
  | _, _, .struct _ hf => by simp only [Texts]; exact texts_defaultFields hT hf
theorem texts_defaultFields {p : Protocol} {T : List UInt8 → Prop} (hT : T []) : ∀ {ms fs}, IsDefaultFields p ms fs →
    TextsFields T fs
  | _, _, .nil => trivial
  | _, _, .one _ h1 h2 => ⟨texts_default hT h1, texts_defaultFields hT h2⟩
  | _, _, .list _ h2 => ⟨trivial, texts_defaultFields hT h2⟩
end

section
variable {data : Toml} {p : Protocol} (h : Loads data (.ok p))
include h

/-! ### C10, C14 -/

/-- C10: every message has one form on the wire, the specified one (`EncMsg`), and every language
writes exactly that. -/
theorem C10_one_wire_format_partial {m : String} {v : Val} (hm : IsMessage p m v) :
    ∃ bs, EncMsg p m v bs ∧ ∀ l : Language, l.Supported p →
      bytes ((l.library p).write m false (seen l v)) = .ok bs := by
  have hu := usable_of_loads h
  obtain ⟨bs, hb⟩ := (isMessage_iff hu).1 hm
  exact ⟨bs, hb, fun l hs => bytes_of ((l.laws hu hs).write hb)⟩

/-- C14: with a tag, the same bytes after the message's identifier. -/
theorem C14_tagged_partial {m : String} {v : Val} (hm : IsMessage p m v) (l : Language)
    (hs : l.Supported p) : ∃ id bs, (l.library p).ident m = some id ∧ id ≤ 255 ∧
      bytes ((l.library p).write m false (seen l v)) = .ok bs ∧
      bytes ((l.library p).write m true (seen l v)) = .ok (UInt8.ofNat id :: bs) := by
  have hu := usable_of_loads h
  obtain ⟨bs, hb⟩ := (isMessage_iff hu).1 hm
  obtain ⟨d, fs, hd, rfl, _⟩ := id hm
  obtain ⟨pre, post, e⟩ := List.append_of_mem hd
  refine ⟨pre.length + 1, bs, (l.laws hu hs).ident e, ?_, bytes_of ((l.laws hu hs).write hb),
    bytes_of ((l.laws hu hs).tagged e hb)⟩
  have := hu.messageCount
  rw [e, List.length_append, List.length_cons] at this
  omega

/-! ### C11, C12 -/

/-- C12: what one language writes, another reads as the same message, using up exactly the bytes
written, wherever they are in a buffer. -/
theorem C12_interoperable_partial (l l' : Language) (hs : l.Supported p) (hs' : l'.Supported p)
    {m : String} {v : Val} (hm : IsMessage p m v) (ht : Texts (l'.Faithful p) v) :
    ∃ bs, bytes ((l.library p).write m false (seen l v)) = .ok bs ∧
      ∀ pre rest, (pre ++ bs ++ rest).length < l'.limit →
        (l'.library p).read m (pre ++ bs ++ rest) pre.length =
          .ok (seen l' v, pre.length + bs.length) := by
  have hu := usable_of_loads h
  obtain ⟨bs, hb⟩ := (isMessage_iff hu).1 hm
  exact ⟨bs, bytes_of ((l.laws hu hs).write hb), fun pre rest hl =>
    (l'.laws hu hs').read hb ht hl (at_mk pre bs rest)⟩

/-- C11: what a language writes, it reads back as the same message, using up exactly the bytes
written, wherever they are in a buffer. -/
theorem C11_round_trip_partial (l : Language) (hs : l.Supported p)
    {m : String} {v : Val} (hm : IsMessage p m v) (ht : Texts (l.Faithful p) v) :
    ∃ bs, bytes ((l.library p).write m false (seen l v)) = .ok bs ∧
      ∀ pre rest, (pre ++ bs ++ rest).length < l.limit →
        (l.library p).read m (pre ++ bs ++ rest) pre.length =
          .ok (seen l v, pre.length + bs.length) :=
  C12_interoperable_partial h l l hs hs hm ht

/-! ### C13 -/

/-- C13: the size reported for a message is the number of bytes written for it, one less than with
its identifier. -/
theorem C13_size_partial (l : Language) (hs : l.Supported p) {m : String} {v : Val}
    (hm : IsMessage p m v) (hz : Texts l.Measured v) :
    ∃ n bs tagged, (l.library p).size m (seen l v) = .ok n ∧
      bytes ((l.library p).write m false (seen l v)) = .ok bs ∧ bs.length = n ∧
      bytes ((l.library p).write m true (seen l v)) = .ok tagged ∧ tagged.length = n + 1 := by
  have hu := usable_of_loads h
  obtain ⟨bs, hb⟩ := (isMessage_iff hu).1 hm
  obtain ⟨d, fs, hd, rfl, _⟩ := id hm
  obtain ⟨pre, post, e⟩ := List.append_of_mem hd
  exact ⟨_, bs, _, (l.laws hu hs).size hb hz, bytes_of ((l.laws hu hs).write hb), rfl,
    bytes_of ((l.laws hu hs).tagged e hb), rfl⟩

/-! ### C18 -/

/-- C18: a message whose member holds a declared enum value, whichever it is, is read back with that
value in that member. -/
theorem C18_enum_values_partial (l : Language) (hs : l.Supported p) {d : Struct} (hd : d ∈ p.messages)
    {e : Enum} (he : e ∈ p.enums) {pre post : List Variable} {name : String}
    (hmem : d.members = pre ++ ⟨name, e.name, false⟩ :: post) {x : String} {i : Int}
    (hx : (x, i) ∈ e.values) {fs gs : List (String × Val)} (hfs : HasFields p pre fs)
    (hgs : HasFields p post gs)
    (ht : Texts (l.Faithful p) (.record (fs ++ (name, .int i) :: gs))) :
    ∃ bs, bytes ((l.library p).write d.name false (seen l (.record (fs ++ (name, .int i) :: gs)))) = .ok bs ∧
      (bs.length < l.limit → ∃ fs' gs', (l.library p).read d.name bs 0 =
        .ok (.record (fs' ++ (l.rename name, .int i) :: gs'), bs.length) ∧
        fs'.length = fs.length ∧ gs'.length = gs.length) := by
  have happ : ∀ {pre : List Variable} {fs : List (String × Val)}, HasFields p pre fs →
      HasFields p (pre ++ ⟨name, e.name, false⟩ :: post) (fs ++ (name, .int i) :: gs) := by
    intro pre
    induction pre with
    | nil => intro fs hfs; cases hfs; exact .one (m := ⟨name, e.name, false⟩) rfl (.enum he hx) hgs
    | cons m pre ih =>
      intro fs hfs
      cases hfs with
      | one h1 h2 h3 => exact .one h1 h2 (ih h3)
      | list h1 h2 h3 h4 => exact .list h1 h2 h3 (ih h4)
  obtain ⟨bs, h1, h2⟩ := C11_round_trip_partial h l hs (m := d.name)
    ⟨d, _, hd, rfl, rfl, hmem ▸ happ hfs⟩ ht
  refine ⟨bs, h1, fun hl => ?_⟩
  have := h2 [] [] (by simpa using hl)
  have hmap : ∀ as : List (String × Val), mapNamesFields l.rename (as ++ (name, .int i) :: gs) =
      mapNamesFields l.rename as ++ (l.rename name, .int i) :: mapNamesFields l.rename gs := by
    intro as
    induction as with
    | nil => simp [mapNamesFields, Val.mapNames]
    | cons a as ih => obtain ⟨n, v⟩ := a; simp [mapNamesFields, ih]
  have hlen : ∀ as : List (String × Val), (mapNamesFields l.rename as).length = as.length := by
    intro as
    induction as with
    | nil => rfl
    | cons a as ih => obtain ⟨n, v⟩ := a; simp [mapNamesFields, ih]
  exact ⟨mapNamesFields l.rename fs, mapNamesFields l.rename gs,
    by simpa [seen, Val.mapNames, hmap] using this, hlen fs, hlen gs⟩

/-! ### C19, C20 -/

/-- The bytes of a list of messages in a stream are what the library writes for each of them, tagged,
one after the other. -/
theorem C19_stream_written_partial (l : Language) (hs : l.Supported p) {ms : List (String × Val)}
    (hm : ∀ x ∈ ms, IsMessage p x.1 x.2) : ∃ bss : List (List UInt8), Stream p ms bss.flatten ∧
      List.Forall₂ (fun x bs => bytes ((l.library p).write x.1 true (seen l x.2)) = .ok bs) ms bss := by
  have hu := usable_of_loads h
  induction ms with
  | nil => exact ⟨[], .nil, .nil⟩
  | cons x ms ih =>
    obtain ⟨bss, h1, h2⟩ := ih (fun y hy => hm y (List.mem_cons_of_mem _ hy))
    obtain ⟨m, v⟩ := x
    obtain ⟨bs, hb⟩ := (isMessage_iff hu).1 (hm (m, v) List.mem_cons_self)
    obtain ⟨d, fs, hd, rfl, _⟩ := id hb
    obtain ⟨pre, post, e⟩ := List.append_of_mem hd
    exact ⟨(UInt8.ofNat (pre.length + 1) :: bs) :: bss, .cons e hb h1,
      .cons (bytes_of ((l.laws hu hs).tagged e hb)) h2⟩

/-- C19: a stream of messages up to the end of the data is returned exactly, if the limit is negative
or large enough. -/
theorem C19_all_partial (l : Language) (hs : l.Supported p) {ms : List (String × Val)}
    {bs : List UInt8} (hst : Stream p ms bs) (ht : ∀ x ∈ ms, Texts (l.Faithful p) x.2)
    (pre : List UInt8) (hl : (pre ++ bs).length < l.limit) {max : Int}
    (hmax : max < 0 ∨ (ms.length : Int) ≤ max) :
    ∃ q, (l.library p).process (pre ++ bs) pre.length max = .ok (seenAll l ms, q) := by
  have hu := usable_of_loads h
  exact (l.laws hu hs).processAll hst ht hl ⟨pre, [], by simp, rfl⟩ (by simp) hmax

/-- C19: with a limit of `k`, the first `k` messages are returned, and the position afterwards is
right behind the last of them, whatever follows. -/
theorem C19_limit_partial (l : Language) (hs : l.Supported p) {ms : List (String × Val)}
    {bs : List UInt8} (hst : Stream p ms bs) (ht : ∀ x ∈ ms, Texts (l.Faithful p) x.2)
    (pre rest : List UInt8) (hl : (pre ++ bs ++ rest).length < l.limit) {k : Nat} (hk : k ≤ ms.length) :
    ∃ bs1 bs2, bs = bs1 ++ bs2 ∧ Stream p (ms.take k) bs1 ∧
      (l.library p).process (pre ++ bs ++ rest) pre.length k =
        .ok (seenAll l (ms.take k), pre.length + bs1.length) := by
  have hu := usable_of_loads h
  have hsplit : ∃ bs1 bs2, bs = bs1 ++ bs2 ∧ Stream p (ms.take k) bs1 := by
    clear hl ht
    induction hst generalizing k with
    | nil => exact ⟨[], [], rfl, by simpa using Stream.nil⟩
    | @cons pre post d v a ms b e he _ ih =>
      cases k with
      | zero => exact ⟨[], _, rfl, .nil⟩
      | succ k =>
        obtain ⟨c1, c2, rfl, hc⟩ := ih (k := k) (by simpa using hk)
        exact ⟨UInt8.ofNat (pre.length + 1) :: a ++ c1, c2, by simp, .cons e he hc⟩
  obtain ⟨bs1, bs2, rfl, h1⟩ := hsplit
  refine ⟨bs1, bs2, rfl, h1, ?_⟩
  have := (l.laws hu hs).processLimit (b := pre ++ (bs1 ++ bs2) ++ rest) (pos := pre.length) h1
    (fun x hx => ht x (List.mem_of_mem_take hx)) hl ⟨pre, bs2 ++ rest, by simp, rfl⟩
  rw [List.length_take, Nat.min_eq_left hk] at this
  exact this

/-- C20: a zero byte where an identifier is expected ends the stream: the messages before it are
returned, whatever follows. -/
theorem C20_zero_ends_partial (l : Language) (hs : l.Supported p) {ms : List (String × Val)}
    {bs : List UInt8} (hst : Stream p ms bs) (ht : ∀ x ∈ ms, Texts (l.Faithful p) x.2)
    (pre rest : List UInt8) (hl : (pre ++ bs ++ 0 :: rest).length < l.limit) {max : Int}
    (hmax : max < 0 ∨ (ms.length : Int) < max) :
    ∃ q, (l.library p).process (pre ++ bs ++ 0 :: rest) pre.length max = .ok (seenAll l ms, q) := by
  have hu := usable_of_loads h
  exact (l.laws hu hs).processZero hst ht hl ⟨pre, rest, by simp, rfl⟩ hmax

/-! ### C22, C23 -/

/-- C22: what one language packs, another unpacks as the same messages, wherever it is in a buffer.
(AssemblyScript refuses to unpack fewer than twelve bytes.) -/
theorem C22_pack_unpack_partial (l l' : Language) (hs : l.Supported p) (hs' : l'.Supported p)
    {ms : List (String × Val)} (hm : ∀ x ∈ ms, IsMessage p x.1 x.2) (hn : ms.length < 2 ^ 31)
    (ht : ∀ x ∈ ms, Texts (l'.Faithful p) x.2) :
    ∃ bs, bytes ((l.library p).pack (seenAll l ms)) = .ok bs ∧
      ∀ pre rest, (pre ++ bs ++ rest).length < l'.limit → l'.least ≤ bs.length →
        (l'.library p).unpack (pre ++ bs ++ rest) pre.length = .ok (seenAll l' ms) := by
  have hu := usable_of_loads h
  obtain ⟨sb, hst⟩ := stream_exists hu hm
  refine ⟨bsci ++ littleEndian 4 ms.length ++ sb ++ [0], bytes_of ((l.laws hu hs).pack hst hn), ?_⟩
  intro pre rest hl hle
  refine (l'.laws hu hs').unpack hst ht hn ?_ hl (at_mk pre _ rest)
  simp only [List.length_append, littleEndian_length, List.length_cons, List.length_nil, bsci] at hle
  omega

/-- C22: packed data is the four letters, the number of messages, their stream and a zero byte, the
same in all languages. -/
theorem C22_packed_form_partial {ms : List (String × Val)} (hm : ∀ x ∈ ms, IsMessage p x.1 x.2)
    (hn : ms.length < 2 ^ 31) : ∃ bs, Stream p ms bs ∧ ∀ l : Language, l.Supported p →
      bytes ((l.library p).pack (seenAll l ms)) =
        .ok ([0x42, 0x53, 0x43, 0x49] ++ littleEndian 4 ms.length ++ bs ++ [0]) := by
  have hu := usable_of_loads h
  obtain ⟨sb, hst⟩ := stream_exists hu hm
  exact ⟨sb, hst, fun l hs => bytes_of ((l.laws hu hs).pack hst hn)⟩

/-- C23: the packed size reported is the number of bytes packed. -/
theorem C23_packed_size_partial (l : Language) (hs : l.Supported p) {ms : List (String × Val)}
    (hm : ∀ x ∈ ms, IsMessage p x.1 x.2) (hn : ms.length < 2 ^ 31) (hz : ∀ x ∈ ms, Texts l.Measured x.2) :
    ∃ n bs, (l.library p).packedSize (seenAll l ms) = .ok n ∧
      bytes ((l.library p).pack (seenAll l ms)) = .ok bs ∧ bs.length = n := by
  have hu := usable_of_loads h
  obtain ⟨sb, hst⟩ := stream_exists hu hm
  refine ⟨_, _, (l.laws hu hs).packedSize hst hz, bytes_of ((l.laws hu hs).pack hst hn), ?_⟩
  simp only [List.length_append, littleEndian_length, List.length_cons, List.length_nil, bsci]
  omega

/-! ### C25 -/

/-- C25: a freshly created message has the specified default values in every member (and these are
unique), and it can be written and read back.  For C, this is about the constant `.._default`. -/
theorem C25_defaults_partial (l : Language) (hs : l.Supported p) {d : Struct} (hd : d ∈ p.messages) :
    ∃ fs, IsDefaultFields p d.members fs ∧
      (l.library p).create d.name = .ok (seen l (.record fs)) ∧
      ∃ bs, bytes ((l.library p).write d.name false (seen l (.record fs))) = .ok bs ∧
        (bs.length < l.limit → (l.library p).read d.name bs 0 = .ok (seen l (.record fs), bs.length)) := by
  have hu := usable_of_loads h
  obtain ⟨fs, hf⟩ := default_fields_exist hu (s := d) (List.mem_append_right _ hd)
  obtain ⟨bs, hb⟩ := IsDefaultFields.enc hu hf
  have hm : EncMsg p d.name (.record fs) bs := ⟨d, fs, hd, rfl, rfl, hb⟩
  refine ⟨fs, hf, (l.laws hu hs).create hd hf, bs, bytes_of ((l.laws hu hs).write hm), fun hl => ?_⟩
  have := (l.laws hu hs).read (b := bs) (pos := 0) hm
    (by simp only [Texts]; exact texts_defaultFields (faithful_nil l p hu) hf) hl ⟨[], [], by simp, rfl⟩
  simpa [seen] using this

end

/-! ### The theorems apply to the demonstration protocol, in all languages -/

theorem demo_compiles {l : Language} : Compiles l demoProtocol := by
  cases l with
  | c => exact C.fileOk_of demo_c
  | zig => exact Zig.fileOk_of demo_usable demo_zig
  | _ => exact trivial

example (l : Language) : (l.library demoProtocol).ident "Ping" = some 3 :=
  (C08_identifiers demo_loads l demo_compiles (k := 2) rfl).1
example (l : Language) : (l.library demoProtocol).ident "Ping" ≠ (l.library demoProtocol).ident "Draw" := by
  intro h
  have := C08_distinct demo_loads l l demo_compiles demo_compiles (d := demoProtocol.messages[2])
    (d' := demoProtocol.messages[0]) (by decide) (by decide) h
  revert this
  decide
example (l : Language) : (l.library demoProtocol).dispatch 4 = none :=
  C08_unknown demo_loads l (.inr (by decide))

example : ∃ bs, EncMsg demoProtocol "Draw" demoDraw bs ∧ ∀ l : Language, l ≠ .go true →
    bytes ((l.library demoProtocol).write "Draw" false (seen l demoDraw)) = .ok bs := by
  obtain ⟨bs, h1, h2⟩ := C10_one_wire_format_partial demo_loads demoDraw_message
  exact ⟨bs, h1, fun l hl => h2 l (demo_supported hl)⟩

section
variable {l l' : Language} (hl : l ≠ .go true) (hl' : l' ≠ .go true)
include hl

example : ∃ id bs, (l.library demoProtocol).ident "Draw" = some id ∧ id ≤ 255 ∧
    bytes ((l.library demoProtocol).write "Draw" false (seen l demoDraw)) = .ok bs ∧
    bytes ((l.library demoProtocol).write "Draw" true (seen l demoDraw)) = .ok (UInt8.ofNat id :: bs) :=
  C14_tagged_partial demo_loads demoDraw_message l (demo_supported hl)

include hl' in
example : ∃ bs, bytes ((l.library demoProtocol).write "Draw" false (seen l demoDraw)) = .ok bs ∧
    ∀ pre rest, (pre ++ bs ++ rest).length < l'.limit →
      (l'.library demoProtocol).read "Draw" (pre ++ bs ++ rest) pre.length =
        .ok (seen l' demoDraw, pre.length + bs.length) :=
  C12_interoperable_partial demo_loads l l' (demo_supported hl) (demo_supported hl') demoDraw_message
    (demo_faithful l' _ List.mem_cons_self)

example : ∃ bs, bytes ((l.library demoProtocol).write "Draw" false (seen l demoDraw)) = .ok bs ∧
    ∀ pre rest, (pre ++ bs ++ rest).length < l.limit →
      (l.library demoProtocol).read "Draw" (pre ++ bs ++ rest) pre.length =
        .ok (seen l demoDraw, pre.length + bs.length) :=
  C11_round_trip_partial demo_loads l (demo_supported hl) demoDraw_message
    (demo_faithful l _ List.mem_cons_self)

example : ∃ n bs tagged, (l.library demoProtocol).size "Draw" (seen l demoDraw) = .ok n ∧
    bytes ((l.library demoProtocol).write "Draw" false (seen l demoDraw)) = .ok bs ∧ bs.length = n ∧
    bytes ((l.library demoProtocol).write "Draw" true (seen l demoDraw)) = .ok tagged ∧
    tagged.length = n + 1 :=
  C13_size_partial demo_loads l (demo_supported hl) demoDraw_message
    (demo_measured l _ List.mem_cons_self)

example : ∃ bs, bytes ((l.library demoProtocol).write "Ping" false (seen l demoPing)) = .ok bs ∧
    (bs.length < l.limit → ∃ fs' gs', (l.library demoProtocol).read "Ping" bs 0 =
      .ok (.record (fs' ++ (l.rename "how", .int 2) :: gs'), bs.length) ∧
      fs'.length = 1 ∧ gs'.length = 0) :=
  C18_enum_values_partial demo_loads l (demo_supported hl) (d := demoProtocol.messages[2]) (by decide)
    (e := demoProtocol.enums[0]) (by decide) (pre := [⟨"stamp", "int64", false⟩]) (post := [])
    (name := "how") rfl (x := "Circle") (i := 2) (by decide) (fs := [("stamp", .int (-2))]) (gs := [])
    (.one rfl (.num (n := .int64) (.int (by decide))) .nil) .nil
    (by simp [Texts, TextsFields])

example : ∃ bss : List (List UInt8), Stream demoProtocol demoMessages bss.flatten ∧
    List.Forall₂ (fun x bs => bytes ((l.library demoProtocol).write x.1 true (seen l x.2)) = .ok bs)
      demoMessages bss :=
  C19_stream_written_partial demo_loads l (demo_supported hl) demoMessages_messages

example (pre bs : List UInt8) (hs : Stream demoProtocol demoMessages bs)
    (hb : (pre ++ bs).length < l.limit) : ∃ q, (l.library demoProtocol).process (pre ++ bs) pre.length (-1) =
      .ok (seenAll l demoMessages, q) :=
  C19_all_partial demo_loads l (demo_supported hl) hs (demo_faithful l) pre hb (.inl (by decide))

example (pre bs rest : List UInt8) (hs : Stream demoProtocol demoMessages bs)
    (hb : (pre ++ bs ++ rest).length < l.limit) : ∃ bs1 bs2, bs = bs1 ++ bs2 ∧
      Stream demoProtocol (demoMessages.take 2) bs1 ∧
      (l.library demoProtocol).process (pre ++ bs ++ rest) pre.length 2 =
        .ok (seenAll l (demoMessages.take 2), pre.length + bs1.length) :=
  C19_limit_partial demo_loads l (demo_supported hl) hs (demo_faithful l) pre rest hb (k := 2) (by decide)

example (pre bs rest : List UInt8) (hs : Stream demoProtocol demoMessages bs)
    (hb : (pre ++ bs ++ 0 :: rest).length < l.limit) :
    ∃ q, (l.library demoProtocol).process (pre ++ bs ++ 0 :: rest) pre.length (-1) =
      .ok (seenAll l demoMessages, q) :=
  C20_zero_ends_partial demo_loads l (demo_supported hl) hs (demo_faithful l) pre rest hb (.inl (by decide))

include hl' in
example : ∃ bs, bytes ((l.library demoProtocol).pack (seenAll l demoMessages)) = .ok bs ∧
    ∀ pre rest, (pre ++ bs ++ rest).length < l'.limit → l'.least ≤ bs.length →
      (l'.library demoProtocol).unpack (pre ++ bs ++ rest) pre.length = .ok (seenAll l' demoMessages) :=
  C22_pack_unpack_partial demo_loads l l' (demo_supported hl) (demo_supported hl')
    demoMessages_messages (by decide) (demo_faithful l')

example : ∃ n bs, (l.library demoProtocol).packedSize (seenAll l demoMessages) = .ok n ∧
    bytes ((l.library demoProtocol).pack (seenAll l demoMessages)) = .ok bs ∧ bs.length = n :=
  C23_packed_size_partial demo_loads l (demo_supported hl) demoMessages_messages (by decide)
    (demo_measured l)

example : ∃ fs, IsDefaultFields demoProtocol demoProtocol.messages[0].members fs ∧
    (l.library demoProtocol).create "Draw" = .ok (seen l (.record fs)) := by
  obtain ⟨fs, h1, h2, _⟩ := C25_defaults_partial demo_loads l (demo_supported hl)
    (d := demoProtocol.messages[0]) (by decide)
  exact ⟨fs, h1, h2⟩

end
end Beschi.Props
