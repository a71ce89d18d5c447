import Verif.Wire.Default
import Verif.Props.Loader
/-
Property theorems about static sizes and the wire format itself: C09, C33, C34.
-/
namespace Beschi.Props
open Beschi Beschi.Spec

/-! ### C09 -/

/-- C09: for every type of an accepted protocol the fixed-size test answers (it never fails), and
answers yes exactly when neither a string nor a list can be reached inside the type. -/
theorem C09_simple_iff {data : Toml} {p : Protocol} (h : Loads data (.ok p)) {t : String}
    (ht : KnownType p t) (name : String) :
    ∃ b, varIsSimple p p.depth ⟨name, t, false⟩ false = .ok b ∧
      varIsSimple p p.depth ⟨name, t, true⟩ true = .ok b ∧
      varIsSimple p p.depth ⟨name, t, true⟩ false = .ok false ∧
      (b = true ↔ ¬ Varying p t) := by
  have hu := usable_of_loads h
  obtain ⟨h1, h2⟩ := simpleVar_spec hu (v := ⟨name, t, false⟩) (listed := false) (.inl rfl) ht
  obtain ⟨h3, h4⟩ := simpleVar_spec hu (v := ⟨name, t, true⟩) (listed := true) (.inr rfl) ht
  refine ⟨_, h1, ?_, ?_, h2⟩
  · rw [h3]
    refine congrArg _ ?_
    by_cases hv : Varying p t
    · have a : p.simpleVar ⟨name, t, true⟩ true ≠ true := fun e => h4.1 e hv
      have b : p.simpleVar ⟨name, t, false⟩ false ≠ true := fun e => h2.1 e hv
      simp only [ne_eq, Bool.not_eq_true] at a b
      rw [a, b]
    · rw [h4.2 hv, h2.2 hv]
  · simp [Protocol.depth, varIsSimple]

/-- C09, for a struct or message. -/
theorem C09_body_simple_iff {data : Toml} {p : Protocol} (h : Loads data (.ok p)) {s : Struct}
    (hs : s ∈ p.structs ++ p.messages) :
    ∃ b, structIsSimple p p.depth s = .ok b ∧ (b = true ↔ ¬ VaryingBody p s.members) :=
  ⟨_, simpleStruct_spec (usable_of_loads h) ((usable_of_loads h).types s hs)⟩

/-- C09: the static size of a fixed-size type is the number of bytes of every value of it (and
there is such a value). -/
theorem C09_size_exact {data : Toml} {p : Protocol} (h : Loads data (.ok p)) {t : String}
    (ht : KnownType p t) (hv : ¬ Varying p t) :
    ∃ k, getSizeOf p p.depth t = .ok k ∧ (∀ v bs, Enc p t v bs → bs.length = k) ∧
      ∃ v bs, Enc p t v bs := by
  have hu := usable_of_loads h
  obtain ⟨h1, h2⟩ := sizeOf_fixed hu ht hv
  obtain ⟨v, hd⟩ := default_exists hu ht
  obtain ⟨bs, hb⟩ := IsDefault.enc hu hd
  exact ⟨_, h1, fun v bs => h2 written written_det.sized v bs, v, bs, hb⟩

/-- C09, for a fixed-size message or struct body. -/
theorem C09_body_size_exact {data : Toml} {p : Protocol} (h : Loads data (.ok p)) {s : Struct}
    (hs : s ∈ p.structs ++ p.messages) (hv : ¬ VaryingBody p s.members) :
    ∃ k, getSizeOf p p.depth s.name = .ok k ∧
      ∀ fs bs, LayoutFields written p s.members fs bs → bs.length = k := by
  obtain ⟨h1, h2⟩ := sizeOf_body (usable_of_loads h) hs hv
  exact ⟨_, h1, fun fs bs => h2 written written_det.sized fs bs⟩

/-- C09: asking for the static size of any other type is refused. -/
theorem C09_size_refused {data : Toml} {p : Protocol} (h : Loads data (.ok p)) {t : String}
    (ht : KnownType p t) (hv : Varying p t) : ∃ e, getSizeOf p p.depth t = .error e ∧
      (e = .text ∨ e = .list) := by
  have hu := usable_of_loads h
  rcases getSizeOf_varying hu (p.structs.length + 1) t (fits_succ (hu.fits t)) ht hv with h1 | h1
  · exact ⟨_, h1, .inl rfl⟩
  · exact ⟨_, h1, .inr rfl⟩

example : getSizeOf sampleProtocol sampleProtocol.depth "Vec" = .ok 8 := by
  have hk : KnownType sampleProtocol "Vec" := .inr (.inr (.inl (by decide)))
  have hv : ¬ Varying sampleProtocol "Vec" := by
    obtain ⟨b, h1, _, _, h4⟩ := C09_simple_iff sample_loads hk "v"
    have : varIsSimple sampleProtocol sampleProtocol.depth ⟨"v", "Vec", false⟩ false = .ok true := rfl
    rw [this] at h1
    cases h1
    exact h4.1 rfl
  obtain ⟨k, hk, _⟩ := C09_size_exact sample_loads hk hv
  rfl

example : ∃ e, getSizeOf sampleProtocol sampleProtocol.depth "Path" = .error e ∧
    (e = .text ∨ e = .list) :=
  C09_size_refused sample_loads (.inr (.inr (.inl (by decide))))
    (.list (s := ⟨"Path", [⟨"points", "Vec", true⟩, ⟨"label", "string", false⟩], false⟩)
      (m := ⟨"points", "Vec", true⟩) (by simp [sampleProtocol]) (by simp) rfl)

/-! ### C33 -/

/-- C33: every value of a number type has bytes: integers in range, both booleans, every float
bit pattern. -/
theorem C33_has_bytes {n : NumTy} {v : Val}
    (h : (∃ i, v = .int i ∧ IntRange n i) ∨ (∃ b, n = .bool ∧ v = .bool b) ∨
      (∃ w, n = .float ∧ v = .bits w ∧ w < 2 ^ 32) ∨ (∃ w, n = .double ∧ v = .bits w ∧ w < 2 ^ 64)) :
    ∃ bs, Lang.toLE n v = some bs ∧ EncNum n v bs := by
  rcases h with ⟨i, rfl, h⟩ | ⟨b, rfl, rfl⟩ | ⟨w, rfl, rfl, h⟩ | ⟨w, rfl, rfl, h⟩
  · exact ⟨_, Lang.toLE_of_enc (.int h), .int h⟩
  · cases b
    · exact ⟨_, Lang.toLE_of_enc .false, .false⟩
    · exact ⟨_, Lang.toLE_of_enc .true, .true⟩
  · exact ⟨_, Lang.toLE_of_enc (.float h), .float h⟩
  · exact ⟨_, Lang.toLE_of_enc (.double h), .double h⟩

/-- C33: what is written for a number is its specified form and is read back as the same number. -/
theorem C33_round_trip {n : NumTy} {v : Val} {bs : List UInt8} (h : EncNum n v bs) :
    Lang.toLE n v = some bs ∧ bs.length = width n ∧ Lang.fromLE n bs = v :=
  ⟨Lang.toLE_of_enc h, (Lang.encNum_length h).trans (Lang.width_eq n).symm, Lang.fromLE_of_dec (.written h)⟩

/-- C33: the bytes written are unique, and distinct numbers have distinct bytes. -/
theorem C33_injective {n : NumTy} {v v' : Val} {bs bs' : List UInt8} (h : EncNum n v bs)
    (h' : EncNum n v' bs') : v = v' ↔ bs = bs' := by
  constructor
  · rintro rfl
    have := Lang.toLE_of_enc h
    rw [Lang.toLE_of_enc h'] at this
    cases this; rfl
  · rintro rfl
    rw [← Lang.fromLE_of_dec (.written h), ← Lang.fromLE_of_dec (.written h')]

/-- C33: every byte pattern of the right width is read as a number in range. -/
theorem C33_total {n : NumTy} {bs : List UInt8} (h : bs.length = width n) :
    ∃ bs', EncNum n (Lang.fromLE n bs) bs' := by
  have := Lang.dec_fromLE (h.trans (Lang.width_eq n))
  generalize Lang.fromLE n bs = v at this ⊢
  cases this with
  | written h => exact ⟨_, h⟩
  | truthy h => exact ⟨_, .true⟩

/-- C33: except for booleans the number read determines the bytes. -/
theorem C33_reread {n : NumTy} {bs : List UInt8} (hn : n ≠ .bool) (h : bs.length = width n) :
    Lang.toLE n (Lang.fromLE n bs) = some bs := by
  have := Lang.dec_fromLE (h.trans (Lang.width_eq n))
  generalize Lang.fromLE n bs = v at this ⊢
  cases this with
  | written h => exact Lang.toLE_of_enc h
  | truthy h => exact absurd rfl hn

/-- C33: a boolean byte reads as true exactly when it is not zero. -/
theorem C33_bool (b : UInt8) : Lang.fromLE .bool [b] = .bool (decide (b ≠ 0)) := by
  by_cases hb : b = 0
  · subst hb; rfl
  · rw [Lang.fromLE_of_dec (.truthy hb)]; simp [hb]

example : Lang.toLE .int16 (.int (-2)) = some [254, 255] ∧ ([254, 255] : List UInt8).length = 2 ∧
    Lang.fromLE .int16 [254, 255] = .int (-2) :=
  C33_round_trip (.int (by simp [IntRange]))
example : Lang.fromLE .bool [7] = .bool true := C33_bool 7
example : ∃ bs', EncNum .int32 (Lang.fromLE .int32 [1, 2, 3, 200]) bs' := C33_total rfl

/-! ### C34 -/

/-- C34: within one type the bytes determine the value, and no encoding is a proper prefix of
another (whatever follows). -/
theorem C34_unambiguous {data : Toml} {p : Protocol} (h : Loads data (.ok p)) {t : String}
    {v v' : Val} {bs bs' r r' : List UInt8} (h1 : Enc p t v bs) (h2 : Enc p t v' bs')
    (he : bs ++ r = bs' ++ r') : v = v' ∧ bs = bs' ∧ r = r' :=
  Layout.det written_det (usable_of_loads h) h1 h2 he

/-- C34, for messages. -/
theorem C34_message_unambiguous {data : Toml} {p : Protocol} (h : Loads data (.ok p)) {m : String}
    {v v' : Val} {bs bs' r r' : List UInt8} (h1 : EncMsg p m v bs) (h2 : EncMsg p m v' bs')
    (he : bs ++ r = bs' ++ r') : v = v' ∧ bs = bs' ∧ r = r' := by
  obtain ⟨d, fs, hd, hn, rfl, hl⟩ := h1
  obtain ⟨d', fs', hd', hn', rfl, hl'⟩ := h2
  have hu := usable_of_loads h
  cases mem_messages_unique hu hd hd' (hn.trans hn'.symm)
  obtain ⟨rfl, rfl, rfl⟩ := LayoutFields.det written_det hu hl hl' he
  exact ⟨rfl, rfl, rfl⟩

/-- C34: a stream of tagged messages can be split in only one way. -/
theorem C34_stream_unambiguous {data : Toml} {p : Protocol} (h : Loads data (.ok p))
    {ms ms' : List (String × Val)} {bs : List UInt8} (h1 : Stream p ms bs) (h2 : Stream p ms' bs) :
    ms = ms' := by
  have hu := usable_of_loads h
  induction h1 generalizing ms' with
  | nil => cases h2; rfl
  | @cons pre post d v a ms rest hp he hs ih =>
    generalize hbs : UInt8.ofNat (pre.length + 1) :: a ++ rest = bs at h2
    cases h2 with
    | nil => simp at hbs
    | @cons pre' post' d' v' a' ms' rest' hp' he' hs' =>
      simp only [List.cons_append, List.cons.injEq] at hbs
      obtain ⟨hid, hbs⟩ := hbs
      have l1 : pre.length < 255 := by
        have := hu.messageCount; rw [hp] at this; simp at this; omega
      have l2 : pre'.length < 255 := by
        have := hu.messageCount; rw [hp'] at this; simp at this; omega
      have hlen : pre.length = pre'.length := by
        have := congrArg UInt8.toNat hid
        simp only [UInt8.toNat_ofNat'] at this
        omega
      obtain ⟨_, hdd⟩ := List.append_inj (hp.symm.trans hp') hlen
      simp only [List.cons.injEq] at hdd
      obtain ⟨rfl, _⟩ := hdd
      obtain ⟨rfl, rfl, rfl⟩ := C34_message_unambiguous h he he' hbs
      rw [ih hs']

/-- A message body used in the examples: a path with one point and an empty label, colour 1. -/
def sampleMove : Val := .record [("path", .record [("points", .list [.record [("x", .bits 0),
  ("y", .bits 1065353216)]]), ("label", .str [])]), ("color", .int 1)]

/-- Its bytes. -/
def sampleMoveBytes : List UInt8 := [1, 0, 0, 0, 0, 0, 0, 0, 128, 63, 0, 0, 0, 0, 1]

theorem sampleMove_fields : LayoutFields written sampleProtocol
    [⟨"path", "Path", false⟩, ⟨"color", "Color", false⟩]
    [("path", .record [("points", .list [.record [("x", .bits 0), ("y", .bits 1065353216)]]),
      ("label", .str [])]), ("color", .int 1)] sampleMoveBytes := by
  have x0 : Enc sampleProtocol NumTy.float.name (.bits 0) (littleEndian 4 (0 : Nat)) :=
    .num (.float (by norm_num))
  have y0 : Enc sampleProtocol NumTy.float.name (.bits 1065353216) (littleEndian 4 (1065353216 : Nat)) :=
    .num (.float (by norm_num))
  have vec : Enc sampleProtocol "Vec" (.record [("x", .bits 0), ("y", .bits 1065353216)]) _ :=
    .struct (s := ⟨"Vec", [⟨"x", "float", false⟩, ⟨"y", "float", false⟩], false⟩)
      (by simp [sampleProtocol]) (.one rfl x0 (.one rfl y0 .nil))
  have path : Enc sampleProtocol "Path" (.record [("points", .list [.record [("x", .bits 0),
      ("y", .bits 1065353216)]]), ("label", .str [])]) _ :=
    .struct (s := ⟨"Path", [⟨"points", "Vec", true⟩, ⟨"label", "string", false⟩], false⟩)
      (by simp [sampleProtocol]) (.list (len := littleEndian 2 1) rfl (.int (by simp [IntRange, sampleProtocol]))
        (.cons vec .nil) (.one rfl (.text (len := littleEndian 4 0) (bs := []) (.int (by simp [IntRange, sampleProtocol]))
          ⟨rfl, validUtf8_nil⟩) .nil))
  have color : Enc sampleProtocol "Color" (.int 1) (littleEndian 1 1) :=
    .enum (e := ⟨"Color", [("Red", 0), ("Green", 1)], .byte⟩) 
      (by simp [sampleProtocol]) ⟨rfl, "Green", by simp⟩ (.int (by simp [IntRange]))
  exact .one (m := ⟨"path", "Path", false⟩) rfl path
    (.one (m := ⟨"color", "Color", false⟩) rfl color .nil)

theorem sampleMove_enc : EncMsg sampleProtocol "Move" sampleMove sampleMoveBytes :=
  ⟨_, _, List.mem_cons_self, rfl, rfl, sampleMove_fields⟩

example {v' : Val} {r r' bs' : List UInt8} (h : EncMsg sampleProtocol "Move" v' bs')
    (he : sampleMoveBytes ++ r = bs' ++ r') : sampleMove = v' ∧ sampleMoveBytes = bs' ∧ r = r' :=
  C34_message_unambiguous sample_loads sampleMove_enc h he

theorem sample_stream : Stream sampleProtocol [("Move", sampleMove), ("Stop", .record [])]
    (1 :: sampleMoveBytes ++ [2]) := by
  have h2 : Stream sampleProtocol [("Stop", .record [])] [2] :=
    .cons (p := sampleProtocol) (d := ⟨"Stop", [], true⟩) (bs := []) (rest := [])
      (pre := [⟨"Move", [⟨"path", "Path", false⟩, ⟨"color", "Color", false⟩], true⟩]) (post := [])
      rfl ⟨_, [], List.mem_cons_of_mem _ List.mem_cons_self, rfl, rfl, .nil⟩ .nil
  exact .cons (p := sampleProtocol) (pre := []) (post := [⟨"Stop", [], true⟩])
    (d := ⟨"Move", [⟨"path", "Path", false⟩, ⟨"color", "Color", false⟩], true⟩) rfl sampleMove_enc h2

example {ms : List (String × Val)} (h : Stream sampleProtocol ms (1 :: sampleMoveBytes ++ [2])) :
    [("Move", sampleMove), ("Stop", .record [])] = ms :=
  C34_stream_unambiguous sample_loads sample_stream h

end Beschi.Props
