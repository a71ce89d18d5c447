import Verif.Lang.C
import Verif.Lang.BufferProof
import Verif.Lang.CommonProof
/-
The C backend satisfies the laws.
-/
namespace Beschi.Lang
open Spec

namespace C

section
variable {p : Protocol} (h : Usable p)

theorem mem_memberFields (m : Variable) : [m.name].Sublist (memberFields m) := by
  unfold memberFields
  split
  · split <;> simp
  · split <;> simp

theorem names_sublist : ∀ ms : List Variable,
    (ms.map (·.name)).Sublist (ms.flatMap memberFields)
  | [] => by simp
  | m :: ms => by
    have := (mem_memberFields m).append (names_sublist ms)
    simpa using this

theorem Supported.names (hs : Supported p) : NamesDistinct p := fun s hb => by
  have := hs.fields s hb
  exact (List.nodup_append.1 this).2.1.sublist (names_sublist s.members)

theorem ordered_of : ∀ {pre sts : List Struct}, p.structs = pre ++ sts → Supported p →
    ordered p (pre.map (·.name)) sts = true
  | _, [], _, _ => rfl
  | pre, st :: sts, e, hs => by
    rw [ordered, Bool.and_eq_true, List.all_eq_true]
    constructor
    · intro m hm
      have := hs.order pre st sts e m hm
      cases hst : p.struct? m.vartype with
      | none => rfl
      | some s =>
        have : m.vartype ∈ structNames p := by
          have := struct?_some hst
          exact List.mem_map.2 ⟨s, this.1, this.2⟩
        simp only [Option.isNone_some, Bool.false_or, List.contains_iff_mem]
        exact hs.order pre st sts e m hm this
    · have := ordered_of (pre := pre ++ [st]) (sts := sts) (by simp [e]) hs
      simpa using this

theorem fileOk_of (hs : Supported p) : fileOk p = true := by
  unfold fileOk
  simp only [Bool.and_eq_true, List.all_eq_true, decide_eq_true_eq]
  refine ⟨⟨hs.file, ordered_of (pre := []) rfl hs⟩, fun st hst => ⟨hs.fields st hst, fun m hm => ?_⟩⟩
  unfold lengthsOk
  cases hl : m.isList with
  | false => rfl
  | true =>
    by_cases ht : m.vartype = "string"
    · simp [hs.texts st hst m hm hl ht]
    · simp [ht]

theorem library_eq (hs : Supported p) : library p = core p := by
  rw [library, fileOk_of hs]; rfl

theorem readable_readPrim (n : NumTy) : readable (readPrim n) = some n := by cases n <;> rfl

theorem primFor (n : NumTy) : PrimFor (readSem p) .eof (readPrim n) n := by
  intro b pos
  simp only [readSem, readNum, readable_readPrim]

include h in
theorem atomFor {t : String} (hk : KnownType p t) : AtomFor (readSem p) .eof p t (atom p t) := by
  unfold atom
  cases h.kind hk with
  | num n e ne num enum => rw [if_neg ne, enum, num]; subst e; exact .num (primFor n)
  | text e num => rw [if_pos e]; subst e; exact .text
  | enum e mem name ne num enum =>
    rw [if_neg ne, enum]; subst name; exact .enum mem (primFor _)
  | struct s mem name ne num enum =>
    rw [if_neg ne, enum, num]; subst name; exact .struct mem

include h in
theorem stmtFor {m : Variable} (hk : KnownType p m.vartype) :
    StmtFor (readSem p) .eof p m (deserializer p m) (.mem m.name) := by
  unfold deserializer
  cases hl : m.isList with
  | true => exact .list hl (primFor _) (atomFor h hk)
  | false => exact .one hl (atomFor h hk)

/-- The fields a member's reading assigns are those it was declared with. -/
theorem locs_sub {m : Variable} {x : String} (hx : Loc.mem x ∈ (deserializer p m).locs) :
    x ∈ memberFields m := by
  unfold deserializer at hx
  unfold memberFields
  cases hl : m.isList <;> rw [hl] at hx <;> by_cases ht : m.vartype = "string" <;>
    simp [RStmt.locs] at hx <;> rcases hx with rfl | rfl <;> simp [ht]

include h in
theorem funFor (hs : Supported p) {s : Struct} (hb : s ∈ bodies p) :
    FunFor (readSem p) .eof p s.members (fromBytes p s) where
  decls := List.nodup_nil
  body := by
    refine bodyFor_map (stmt := deserializer p) (dst := fun m => .mem m.name)
      (fun m hm => stmtFor h (h.known hb hm)) ?_ (by simp [fromBytes])
    have hn := (List.nodup_append.1 (hs.fields s hb)).2.1
    change (s.members.flatMap memberFields).Nodup at hn
    refine (List.nodup_flatMap.1 hn).2.imp ?_
    intro a b hd hx
    exact hd ((mem_memberFields a).subset (by simp)) (locs_sub hx)

theorem room_small {n : NumTy} {k : Nat} (hi : IntRange n k) (hk : k < 2 ^ 31 - 1) :
    room n k = some (k + 1 : Int) := by
  unfold room
  split
  · congr 1; omega
  · rw [if_pos (by omega)]; congr 1; omega
  · rw [if_pos (by omega)]; congr 1; omega
  · congr 1; omega

theorem readString_at {b : Buf} (hb : b.length < 2 ^ 31) {pos : Nat} {len bs : List UInt8}
    (hat : At b pos (len ++ bs)) (hl : DecNum p.stringSize (.int bs.length) len) :
    readString p b pos = .ok (.str bs, pos + (len ++ bs).length) := by
  have e := takeNum_at (e := .eof) hat.left hl
  have hle := hat.le
  have hpos : 0 < len.length := by rw [decNum_length hl]; cases p.stringSize <;> decide
  simp only [List.length_append] at hle
  rw [readString, readNum, readable_readPrim]
  simp only [e]
  rw [slice, if_neg (by omega), room_small (intRange_of_dec hl) (by omega)]
  simp only
  rw [if_neg (by omega), if_neg (by omega)]
  simp only [Int.toNat_natCast, takeN_at hat.right, List.length_append, Nat.add_assoc]

theorem solid_of (hs : Supported p) (hw : p.listSize = .uint64 ∨ p.listSize = .int64) {A : Atoms}
    {t : String} {v : Val} {bs : List UInt8} : Layout A p t v bs → Solid p t
  | .num (n := n) _ => .num n
  | .text _ _ => .text
  | .enum he _ _ => .enum he
  | .struct hm _ => hs.elements hw _ hm

include h in
theorem count_ok (hs : Supported p) {b : Buf} (hb : b.length < 2 ^ 31) {vs : List Val} {t : String}
    {len bs : List UInt8} {pos : Nat} {A : Atoms} (hA : ∀ n v bs, A.num n v bs → DecNum n v bs)
    (hn : A.num p.listSize (.int vs.length) len) (hi : LayoutItems A p t vs bs) (hat : At b pos bs) :
    (vs.length : Int) < 2 ^ 48 := by
  have hr := intRange_of_dec (hA _ _ _ hn)
  by_cases hw : p.listSize = .uint64 ∨ p.listSize = .int64
  · cases hi with
    | nil => simp
    | cons h1 h2 =>
      have := LayoutItems.solid h hA (solid_of hs hw h1) (.cons h1 h2)
      have := hat.le
      omega
  · revert hr hw
    cases p.listSize <;> intro hr hw <;>
      first | exact (hr : False).elim | exact absurd (Or.inl rfl) hw | exact absurd (Or.inr rfl) hw |
        (simp only [IntRange] at hr; omega)

theorem texts_all (v : Val) : Texts (fun _ => True) v := texts_true (fun _ => trivial) v

include h in
theorem completeness (hs : Supported p) {b : Buf} (hb : b.length < 2 ^ 31) :
    Completeness (readSem p) p (written.restrict fun _ => True) b where
  num _ _ _ := .written
  text pos len bs s hat hn ht := by
    obtain ⟨⟨rfl, hv⟩, _⟩ := ht
    exact readString_at hb hat (.written hn)
  enum e he i j hx := checkDeclared_declared h he hx
  count vs t len bs pos hn hi hat := by
    have := count_ok h hs hb (fun _ _ _ => DecNum.written) hn hi hat
    simp only [readSem]
    rw [if_neg (by omega), if_neg (by omega)]
    rfl

/-! ### Writing -/

theorem writable_writePrim (n : NumTy) : writable (writePrim n) = some n := by cases n <;> rfl

theorem wprimFor (n : NumTy) : WPrimFor (writeSem p) written (writePrim n) n := by
  intro v bs he
  simp only [writeSem, writeNum, writable_writePrim, toLE_of_enc he]

include h in
theorem watomFor {t : String} (hk : KnownType p t) :
    WAtomFor (writeSem p) written p t (watom p t) := by
  unfold watom
  cases h.kind hk with
  | num n e ne num enum => rw [if_neg ne, enum, num]; subst e; exact .num (wprimFor n)
  | text e num => rw [if_pos e]; subst e; exact .text
  | enum e mem name ne num enum =>
    rw [if_neg ne, enum]; subst name; exact .enum mem (wprimFor _)
  | struct s mem name ne num enum =>
    rw [if_neg ne, enum, num]; subst name; exact .struct mem

include h in
theorem wfunFor (hs : Supported p) {s : Struct} (hb : s ∈ bodies p) :
    WFunFor (writeSem p) written p s.members (writeBytes p s) where
  decls := List.nodup_nil
  names := hs.names s hb
  body := by
    simp only [writeBytes]
    rw [List.forall₂_map_right_iff, List.forall₂_same]
    intro m hm
    unfold serializer
    cases hl : m.isList with
    | true => exact .list hl (wprimFor _) (watomFor h (h.known hb hm))
    | false => exact .one hl (watomFor h (h.known hb hm))

theorem lengthField_enc {n : NumTy} {k : Nat} {bs : List UInt8} (he : EncNum n (.int k) bs) :
    lengthField n k = .ok k := by
  rw [lengthField, if_pos (inRange_iff.2 (intRange_of_dec (.written he)))]

theorem writes : Writes (writeSem p) p written where
  text len bs s hn ht := by
    obtain ⟨rfl, hv⟩ := ht
    refine ⟨[len, bs], ?_, by simp⟩
    have := wprimFor (p := p) _ _ _ hn
    simp only [writeSem] at this
    simp [writeSem, lengthField_enc hn, this, bind, Except.bind, pure, Except.pure]
  count k len hn := by simp only [writeSem]; exact lengthField_enc hn
  enum _ _ _ hd := hd.1

include h in
theorem write_encoded (hs : Supported p) {pre post : List Struct} {d : Struct} {v : Val}
    {bs : List UInt8} (tag : Bool) (e : p.messages = pre ++ d :: post) (he : EncMsg p d.name v bs) :
    ∃ cs, write p d.name tag v = .ok cs ∧
      cs.flatten = if tag then UInt8.ofNat (pre.length + 1) :: bs else bs :=
  writeMessage_encoded h writes (fun _ => wfunFor h hs) e he tag

include h in
/-- Writing into a buffer stores exactly the message's bytes, or fails because they do not fit. -/
theorem writeInto_enc (hs : Supported p) {pre post : List Struct} {d : Struct} {v : Val}
    {bs : List UInt8} (tag : Bool) (e : p.messages = pre ++ d :: post) (he : EncMsg p d.name v bs)
    {buf : Buf} {off : Nat} (ho : off ≤ buf.length) :
    writeInto p d.name tag v buf off =
      store .eof (if tag then UInt8.ofNat (pre.length + 1) :: bs else bs) buf off := by
  obtain ⟨cs, h1, h2⟩ := write_encoded h hs tag e he
  rw [writeInto, h1]
  simp only [fill_eq ho, h2]

/-! ### The laws -/

theorem index_inj {j k : Nat} (e : "i" ++ toString j = "i" ++ toString k) : j = k := by
  have e := congrArg (fun s : String => Nat.ofDigitChars 10 s.toList 0) ((String.append_right_inj _).1 e)
  simpa [toString, Nat.toList_repr, Nat.ofDigitChars_toDigits] using e

/-- The index variables of enclosing loops have different numbers. -/
theorem mfresh : ∀ (fuel : Nat) (ms : List Variable) (used : List String) (lvl : Nat),
    (∀ x ∈ used, x = "m" ∨ ∃ k < lvl, x = "i" ++ toString k) → MFresh style p fuel ms used lvl
  | 0, _, _, _, _ => trivial
  | fuel + 1, ms, used, lvl, hu => by
    have hf : "i" ++ toString lvl ∉ used := by
      intro hm
      rcases hu _ hm with e | ⟨k, hk, e⟩
      · have := congrArg (fun s => s.toList.head?) e
        simp at this
      · have := index_inj e
        omega
    intro m hm
    refine ⟨fun _ _ => hf, fun s hs => ?_⟩
    split
    · refine ⟨hf, mfresh fuel _ _ _ ?_⟩
      intro x hx
      rcases List.mem_cons.1 hx with rfl | hx
      · exact .inr ⟨lvl, by omega, rfl⟩
      · rcases hu x hx with e | ⟨k, hk, e⟩
        · exact .inl e
        · exact .inr ⟨k, by omega, e⟩
    · exact mfresh fuel _ _ _ hu

include h in
theorem size_encoded (hs : Supported p) {m : String} {v : Val} {bs : List UInt8} (he : EncMsg p m v bs) :
    size p m v = .ok bs.length :=
  sizeMessage_encoded h (Z := fun _ => True) hs.names.members (measuresText_bytes rfl rfl)
    (fun _ _ _ => mfresh _ _ _ _ (by simp)) he (texts_all v)

include h in
theorem defaultsFor : DefaultsFor p (default p) := by
  intro s hs m hm
  unfold default
  cases hl : m.isList with
  | true => simp
  | false =>
    simp only [Bool.false_eq_true, if_false]
    cases h.kind (h.types s hs m hm) with
    | num n e ne num enum struct => rw [num]; exact ⟨_, rfl, e ▸ .num n⟩
    | text e num => rw [num]; simp only; rw [if_pos e, e]; exact ⟨_, rfl, .text⟩
    | enum e mem name ne num enum =>
      rw [num]
      simp only
      rw [if_neg ne, enum]
      have := (h.enums e mem).nonempty
      cases hv : e.values with
      | nil => exact absurd hv this
      | cons x xs =>
        exact ⟨.entry x.2, by simp [hv], name ▸ DefaultFor.enum (x := x.1) mem (by rw [hv]; rfl)⟩
    | struct s mem name ne num enum struct =>
      rw [num]
      simp only
      rw [if_neg ne, enum]
      exact ⟨_, rfl, name ▸ .struct mem⟩

include h in
theorem read_encoded (hs : Supported p) {m : String} {v : Val} {bs : List UInt8} {b : Buf} {pos : Nat}
    (he : EncMsg p m v bs) (hb : b.length < 2 ^ 31) (hat : At b pos bs) :
    read p m b pos = .ok (v, pos + bs.length) :=
  readMessage_encoded h (completeness h hs hb) (fun _ => funFor h hs) he (texts_all v) hat

include h in
theorem step_reads (hs : Supported p) {b : Buf} (hb : b.length < 2 ^ 31) :
    StepReads (taggedStep (takeTag .eof b) (dispatch p) (fun m pos => read p m b pos) .invalid)
      p id (Texts fun _ => True) b :=
  taggedStep_reads h (fun _ _ _ hat => takeTag_at hat)
    (fun _ _ _ e => messageArms_of_split e)
    (fun m v bs pos he ht hat => by rw [Val.mapNames_id]; exact read_encoded h hs he hb hat)

include h in
theorem writeAll_enc (hs : Supported p) {ms : List (String × Val)} {bs : List UInt8}
    (hst : Stream p ms bs) : ∃ cs, writeAll (write p) ms = .ok cs ∧ cs.flatten = bs := by
  have := writeAll_stream (p := p) (f := id) (Q := fun _ => True) (wr := write p)
    (fun pre d post v bs e he _ => by rw [Val.mapNames_id]; exact write_encoded h hs true e he) hst
    (fun _ _ => trivial)
  rwa [mapMsgs_id] at this

include h in
theorem packInto_enc (hs : Supported p) {ms : List (String × Val)} {bs : List UInt8}
    (hst : Stream p ms bs) (buf : Buf) (hl : bs.length + 9 ≤ buf.length) :
    packInto p ms buf 0 =
      store .eof (bsci ++ littleEndian 4 ms.length ++ bs ++ [0]) buf 0 := by
  obtain ⟨cs, h1, h2⟩ := writeAll_enc h hs hst
  have e4 : bsci.length = 4 := rfl
  have hl4 : (littleEndian 4 (ms.length : Int)).length = 4 := littleEndian_length _ _
  rw [List.append_assoc, List.append_assoc, store_append]
  rw [packInto]
  have s0 : ∀ e, store e bsci buf 0 = .ok (buf.take 0 ++ bsci ++ buf.drop (0 + bsci.length), 0 + bsci.length) :=
    fun e => by rw [store, if_pos (by omega)]
  rw [s0, s0]
  simp only
  generalize hb1 : buf.take 0 ++ bsci ++ buf.drop (0 + bsci.length) = buf1
  have hlb : buf1.length = buf.length := by
    rw [← hb1]; simp only [List.length_append, List.length_take, List.length_drop]; omega
  rw [leBytes_eq, store_append, e4]
  cases hp : store .eof (littleEndian 4 ms.length) buf1 (0 + 4) with
  | error x => rfl
  | ok r =>
    obtain ⟨buf2, off⟩ := r
    obtain ⟨g1, g2, g3, _⟩ := store_ok hp
    simp only [h1]
    rw [fill_eq (by omega), h2, store_append]
    cases hp2 : store .eof bs buf2 off with
    | error x => rfl
    | ok r =>
      obtain ⟨buf3, off3⟩ := r
      obtain ⟨g4, g5, g6, _⟩ := store_ok hp2
      simp only
      rw [store, if_pos (by simp only [List.length_cons, List.length_nil]; omega)]

include h in
theorem pack_enc (hs : Supported p) {ms : List (String × Val)} {bs : List UInt8}
    (hst : Stream p ms bs) :
    pack p ms = .ok [bsci ++ littleEndian 4 ms.length ++ bs ++ [0]] := by
  have hz : packedSizeOf (size p) ms = .ok (bs.length + 9) := by
    have := packedSizeOf_stream (p := p) (f := id) (Q := fun _ => True) (size := size p)
      (fun m v bs he _ => by rw [Val.mapNames_id]; exact size_encoded h hs he) hst (fun _ _ => trivial)
    rwa [mapMsgs_id] at this
  have hlen : (bsci ++ littleEndian 4 ms.length ++ bs ++ [0]).length = bs.length + 9 := by
    simp [bsci, littleEndian_length]; omega
  simp only [pack, hz]
  rw [packInto_enc h hs hst _ (by simp), store_exact hlen]
  simp only
  rw [List.take_of_length_le (by omega)]

theorem limit_eq (n : Int) : limit n = .ok (if n < 2 ^ 31 then n else n - 2 ^ 32) := rfl

theorem process_none (b : Buf) (pos : Nat) : process p b pos 0 = .ok ([], pos) := by
  simp [process, processBytes]

/-- Unpacking from the start of a buffer has the common shape. -/
theorem unpackFrom_eq (b : Buf) :
    unpackFrom p b 0 = unpackWith .crash .eof .uint32 limit (process p b) b 0 := by
  rw [unpackFrom, unpackWith]
  cases hh : takeN .crash 4 b 0 with
  | error e => rfl
  | ok r =>
    obtain ⟨x, q⟩ := r
    obtain ⟨_, _, h3⟩ := takeN_ok hh
    subst h3
    simp only
    split
    · rfl
    · cases takeNum .eof .uint32 b (0 + 4) with
      | error e => rfl
      | ok r =>
        obtain ⟨v, q⟩ := r
        cases v with
        | int n =>
          by_cases h0 : n = 0
          · subst h0
            simp [limit, process_none]
          · simp only [if_neg h0, limit]
            cases process p b q _ with
            | error e => rfl
            | ok r =>
              simp only [checkCount]
              by_cases hz : r.1.length = 0
              · rw [if_pos hz, if_pos (by omega)]
              · rw [if_neg hz]
        | _ => rfl

include h in
theorem core_laws (hs : Supported p) :
    Laws (core p) p id (fun _ => True) (fun _ => True) (2 ^ 31) := by
  have hproc : ProcessLaws (process p) p (fun _ => True) (2 ^ 31) :=
    processLaws_of_steps (fun b hb => step_reads h hs hb)
        (finished := fun b pos => decide (b.length ≤ pos)) (fun b pos hp => by simpa using hp)
        (fun b pos hp => by left; simp [hp])
        (fun b pos hat => taggedStep_zero (fun _ _ _ hat => takeTag_at hat) hat)
  have hK : Laws { core p with pack := packWith [bsci] (fun n => .ok (littleEndian 4 n)) (write p) } p id
      (fun _ => True) (fun _ => True) (2 ^ 31) := by
    refine Laws.of_parts (header := [bsci]) (count := fun n => .ok (littleEndian 4 n))
      ?_ ?_ ?_ ?_ ?_ ?_ ?_ ?_ ?_ ?_ ?_ ?_ ?_
    · intro pre d post e
      simp [core, messageIndex_of_split h e]
    · intro pre d post e
      exact messageArms_of_split e
    · intro t ht _
      exact dispatch_unknown ht
    · intro pre d post v bs tag e he
      exact write_encoded h hs tag e he
    · intro m v bs b pos he ht hb hat
      exact read_encoded h hs he hb hat
    · intro m v bs he _
      exact size_encoded h hs he
    · intro d fs hd hf
      exact makeMessage_spec h (defaultsFor h) hd hf
    · exact hproc
    · intro ms; rfl
    · intro ms; rfl
    · rfl
    · intro n hn; rfl
    · intro ms bs b pos hst ht hn _ hb hat
      change unpackFrom p (b.drop pos) 0 = _
      rw [unpackFrom_eq]
      exact unpackWith_law hproc (fun n hn => .written (littleEndian4 n (by omega)))
        (fun n _ hn => by rw [limit, if_pos (by omega)]) hst ht hn (by rw [List.length_drop]; omega)
        (At.drop hat)
  exact
    { ident := hK.ident
      dispatch := hK.dispatch
      unknown := hK.unknown
      write := hK.write
      tagged := hK.tagged
      read := hK.read
      size := hK.size
      processAll := hK.processAll
      processZero := hK.processZero
      processLimit := hK.processLimit
      packedSize := hK.packedSize
      pack := fun {ms bs} hst hn => by
        rw [mapMsgs_id]
        exact ⟨_, pack_enc h hs hst, by simp⟩
      unpack := hK.unpack
      create := hK.create }

include h in
/-- The generated C library satisfies the laws. -/
theorem laws (hs : Supported p) :
    Laws (library p) p id (fun _ => True) (fun _ => True) (2 ^ 31) := by
  rw [library_eq hs]
  exact core_laws h hs

/-! ### Arbitrary data -/

/-- Text as it is. -/
abbrev asIs : Atoms := readableBy fun bs s => bs = s

theorem slice_ok {i : Int} {b : Buf} {pos pos' : Nat} {bs : List UInt8}
    (hr : slice p i b pos = .ok (bs, pos')) : At b pos bs ∧ (bs.length : Int) = i ∧ pos' = pos + bs.length := by
  unfold slice at hr
  split at hr
  · cases hr
  · split at hr
    · cases hr
    · split at hr
      · cases hr
      · split at hr
        · cases hr
        · obtain ⟨h1, h2, h3⟩ := takeN_ok hr
          exact ⟨h1, by omega, by omega⟩

theorem readString_ok {b : Buf} {pos pos' : Nat} {v : Val}
    (hr : readString p b pos = .ok (v, pos')) :
    ∃ len bs, v = .str bs ∧ At b pos (len ++ bs) ∧ pos' = pos + (len ++ bs).length ∧
      DecNum p.stringSize (.int bs.length) len := by
  rw [readString, readNum, readable_readPrim] at hr
  simp only at hr
  split at hr
  · cases hr
  · rename_i i q hq
    obtain ⟨len, h1, h2, h3⟩ := takeNum_ok hq
    split at hr
    · cases hr
    · rename_i bs q' ht
      cases hr
      obtain ⟨h4, h5, h6⟩ := slice_ok ht
      rw [h3] at h4
      refine ⟨len, bs, rfl, h1.append h4, ?_, by rw [h5]; exact h2⟩
      rw [List.length_append]; omega
  · cases hr

include h in
theorem soundness (b : Buf) : Soundness (readSem p) p asIs b where
  num _ _ _ hn := hn
  text pos v pos' _ hr := by
    obtain ⟨len, bs, rfl, h1, h2, h3⟩ := readString_ok hr
    exact ⟨len, bs, bs, rfl, h1, h2, h3, rfl⟩
  enum e he i v hv := checkDeclared_ok h he hv
  count i k hi hk := by
    simp only [readSem] at hk
    split at hk
    · cases hk
    · split at hk
      · cases hk
      · cases hk; omega

/-- With unsigned lengths of at most 32 bits, in buffers of less than 2^32 bytes, reading text does
not crash. -/
theorem slice_error {i : Int} {b : Buf} {pos : Nat} {x : Fail} (hi : IntRange p.stringSize i)
    (hsz : p.stringSize ∈ [NumTy.byte, .uint16, .uint32]) (hb : b.length < 2 ^ 32)
    (h0 : 0 < pos) (hp : pos ≤ b.length) (hr : slice p i b pos = .error x) : x = .eof ∨ x = .invalid := by
  unfold slice at hr
  split at hr
  · cases hr; exact .inl rfl
  · rename_i hle
    have h0 : 0 ≤ i ∧ i < 2 ^ 32 := by
      simp only [List.mem_cons, List.not_mem_nil, or_false] at hsz
      rcases hsz with e | e | e <;> rw [e] at hi <;> simp only [IntRange] at hi <;> omega
    have hlt : i + 1 < 2 ^ 32 := by omega
    have hroom : room p.stringSize i = some (i + 1) := by
      simp only [List.mem_cons, List.not_mem_nil, or_false] at hsz
      rcases hsz with e | e | e <;> rw [e] <;> simp only [room] <;> congr 1 <;> omega
    rw [hroom] at hr
    simp only at hr
    rw [if_neg (by omega), if_neg (by omega)] at hr
    exact .inl (takeN_error hr).1

theorem slice_fails {i : Int} {b : Buf} {pos : Nat} {x : Fail} (hr : slice p i b pos = .error x) :
    x = .eof ∨ x = .invalid ∨ x = .crash := by
  unfold slice at hr
  split at hr
  · cases hr; simp
  · split at hr
    · cases hr; simp
    · split at hr
      · cases hr; simp
      · split at hr
        · cases hr; simp
        · exact .inl (takeN_error hr).1

include h in
theorem polite {E : Fail → Prop} (he : E .eof) (hi : E .invalid) {b : Buf}
    (hc : E .crash ∨ p.stringSize ∈ [NumTy.byte, .uint16, .uint32] ∧
      ¬ (p.listSize = .uint64 ∨ p.listSize = .int64) ∧ b.length < 2 ^ 32) :
    Polite (readSem p) p E b where
  text _ pos x hp hr := by
    simp only [readSem, readString, readNum, readable_readPrim] at hr
    split at hr
    · rename_i ht; cases hr; rw [takeNum_error ht]; exact he
    · rename_i i q hq
      obtain ⟨len, h1, h2, h3⟩ := takeNum_ok hq
      have hle := h1.le
      have hi' := intRange_of_dec h2
      have hpos : 0 < len.length := by rw [decNum_length h2]; cases p.stringSize <;> decide
      split at hr
      · rename_i ht
        cases hr
        rcases hc with hc | ⟨hsz, _, hb⟩
        · rcases slice_fails ht with e | e | e <;> rw [e] <;> assumption
        · rcases slice_error hi' hsz hb (by omega) (by omega) ht with e | e <;> rw [e] <;> assumption
      · cases hr
    · rename_i r hne hr'
      obtain ⟨cnt, h3, h4, h5⟩ := takeNum_ok (v := r.1) (pos' := r.2) hr'
      obtain ⟨i, hi⟩ := dec_int (integral_of_integerType h.stringSize) h4
      exact absurd (Prod.ext hi rfl : r = (Val.int i, r.2)) (fun e => hne i r.2 e)
  textPos pos v pos' _ hr := by
    obtain ⟨len, bs, rfl, h1, h2, _⟩ := readString_ok hr
    have := h1.le
    omega
  enum e he i x hx := by rw [checkDeclared_error h he hx]; exact hi
  count i x hr hx := by
    simp only [readSem] at hx
    split at hx
    · cases hx; exact hi
    · split at hx
      · rename_i hbig
        cases hx
        rcases hc with hc | ⟨_, hw, _⟩
        · exact hc
        · exfalso
          revert hr hw
          cases p.listSize <;> intro hr hw <;>
            first | exact (hr : False).elim | exact absurd (Or.inl rfl) hw |
              exact absurd (Or.inr rfl) hw | (simp only [IntRange] at hr; omega)
      · cases hx

variable (hs : Supported p)
include h hs

theorem sound : ReadSound (library p) p id asIs (2 ^ 64) := by
  rw [library_eq hs]
  intro m b pos v pos' hp _ hr
  obtain ⟨bs, h1, h2, h3⟩ := readMessage_sound h (soundness h b) (fun _ => funFor h hs) hp hr
  exact ⟨v, bs, (Val.mapNames_id v).symm, h1, h2, h3⟩

theorem within {E : Fail → Prop} {lim : Nat} (he : E .eof) (hi : E .invalid)
    (hc : E .crash ∨ p.stringSize ∈ [NumTy.byte, .uint16, .uint32] ∧
      ¬ (p.listSize = .uint64 ∨ p.listSize = .int64) ∧ lim ≤ 2 ^ 32) :
    ReadWithin E (library p) p lim := by
  rw [library_eq hs]
  intro m b pos hm hp hb
  exact readMessage_within h he (polite h he hi (hc.imp id fun ⟨a, b, c⟩ => ⟨a, b, by omega⟩))
    (fun _ => funFor h hs) hm hp

theorem streamWithin {E : Fail → Prop} {lim : Nat} (he : E .eof) (hi : E .invalid)
    (hc : E .crash ∨ p.stringSize ∈ [NumTy.byte, .uint16, .uint32] ∧
      ¬ (p.listSize = .uint64 ∨ p.listSize = .int64) ∧ lim ≤ 2 ^ 32) :
    StreamWithin E (library p) lim := by
  have hw : ReadWithin E (library p) p lim := within h hs he hi hc
  rw [library_eq hs] at hw ⊢
  intro b pos max
  exact streamWithin_tagged (L := core p) (tagFail := .eof) (unknown := .invalid)
    (finished := fun b pos => decide (b.length ≤ pos)) he hi
    (fun _ _ ht => dispatch_known ht) (fun _ _ _ => rfl) hw

theorem streamRejects : StreamRejects (library p) p (fun _ => True) (2 ^ 31) := by
  rw [library_eq hs]
  exact streamRejects_tagged (L := core p) (tagFail := .eof)
    (unknown := .invalid) (finished := fun b pos => decide (b.length ≤ pos))
    (fun b pos hp => by simpa using hp) (fun _ _ _ => rfl)
    (fun _ hb => step_reads h hs hb)

theorem streamUnknown : StreamUnknown (library p) p (fun _ => True) (2 ^ 31) :=
  StreamRejects.unknown (streamRejects h hs)

theorem streamBroken : StreamBroken (library p) p (fun _ => True) asIs (2 ^ 31) :=
  StreamRejects.broken (f := id) (streamRejects h hs)
    (fun hp hb hr => sound h hs hp (by omega) hr)

omit h hs in
theorem at_undrop {b : Buf} {pos : Nat} {bs : List UInt8} (h : At (b.drop pos) 0 bs) (hne : bs ≠ []) :
    At b pos bs := by
  obtain ⟨pre, rest, h1, h2⟩ := h
  have hpre : pre = [] := List.eq_nil_of_length_eq_zero h2.symm
  subst hpre
  have hle : pos ≤ b.length := by
    by_contra hgt
    rw [List.drop_eq_nil_of_le (by omega)] at h1
    simp at h1
    exact hne h1.1
  exact ⟨b.take pos, rest, by rw [← List.nil_append (bs ++ rest), ← h1, List.take_append_drop],
    by rw [List.length_take]; omega⟩

omit h hs in
theorem unpackChecks : UnpackChecks (core p) (2 ^ 64) := by
  intro b pos ms _ hu
  change unpackFrom p (b.drop pos) 0 = _ at hu
  rw [unpackFrom_eq] at hu
  obtain ⟨cnt, h1, h2⟩ := unpackWith_ok hu
  exact ⟨cnt, at_undrop h1 (by simp [bsci]), h2⟩

theorem unpackFails {E : Fail → Prop} {lim : Nat} (he : E .eof) (hi : E .invalid) (hc : E .crash) :
    UnpackFails E (library p) lim := by
  have hp : StreamWithin E (library p) lim := streamWithin h hs he hi (.inl hc)
  rw [library_eq hs] at hp ⊢
  intro b pos e _ hb hu
  change unpackFrom p (b.drop pos) 0 = _ at hu
  rw [unpackFrom_eq] at hu
  refine unpackWith_error hc he rfl (fun _ _ _ _ hx => by cases hx) ?_ hi hu
  intro q k x hq hx
  have := hp (max := k) hq (by rw [List.length_drop]; omega)
  change Within E (b.drop pos) q (process p (b.drop pos) q k) at this
  rw [hx] at this
  exact this

end
end C
end Beschi.Lang
