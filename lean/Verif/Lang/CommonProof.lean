import Verif.Lang.Laws
import Verif.Lang.Support
import Verif.Lang.Text
/-
Proofs shared by the backends: from the statements emitted for single members to whole messages.
-/
namespace Beschi.Lang
open Spec

theorem unsigned_nonneg {n : NumTy} {i : Int} (hu : Unsigned n) (hr : IntRange n i) : 0 ≤ i := by
  revert hr hu
  cases n <;> intro hu hr <;> first | exact (hu : False).elim | (simp only [IntRange] at hr; omega)

theorem UsesText.unrename {f : String → String} {p : Protocol} (h : UsesText (p.rename f)) : UsesText p := by
  obtain ⟨s, hs, m, hm, ht⟩ := h
  simp only [Protocol.rename, ← List.map_append, List.mem_map] at hs
  obtain ⟨s0, h0, rfl⟩ := hs
  obtain ⟨m0, h1, rfl⟩ := List.mem_map.1 hm
  exact ⟨s0, h0, m0, h1, ht⟩

/-! ### Values that take at least one byte -/

section
variable {p : Protocol} (h : Usable p)

mutual
theorem Layout.solid (h : Usable p) {A : Atoms} (hA : ∀ n v bs, A.num n v bs → DecNum n v bs) :
    ∀ {t v bs}, Layout A p t v bs → Solid p t → 0 < bs.length
  | _, _, _, .num (n := n) hn, _ => by
    rw [decNum_length (hA _ _ _ hn)]; cases n <;> decide
  | _, _, _, .text hn _, _ => by
    have := decNum_length (hA _ _ _ hn)
    rw [List.length_append, this]
    have : 0 < p.stringSize.size := by cases p.stringSize <;> decide
    omega
  | _, _, _, .enum (e := e) _ _ hn, _ => by
    rw [decNum_length (hA _ _ _ hn)]; cases e.encoding <;> decide
  | _, _, _, .struct (s := s) hs hf, hsol => by
    generalize ht : s.name = t at hsol
    cases hsol with
    | num n => exact absurd ht.symm (num_ne_struct h hs)
    | text => exact absurd ht.symm (text_ne_struct h hs)
    | enum he => exact absurd ht.symm (enum_ne_struct h he hs)
    | list hs' hm hl =>
      cases mem_structs_unique h hs hs' ht
      exact LayoutFields.solid h hA hf ⟨_, hm, .inl hl⟩
    | inside hs' hm hi =>
      cases mem_structs_unique h hs hs' ht
      exact LayoutFields.solid h hA hf ⟨_, hm, .inr hi⟩
theorem LayoutFields.solid (h : Usable p) {A : Atoms} (hA : ∀ n v bs, A.num n v bs → DecNum n v bs) :
    ∀ {ms fs bs}, LayoutFields A p ms fs bs →
      (∃ m ∈ ms, m.isList = true ∨ Solid p m.vartype) → 0 < bs.length
  | _, _, _, .nil, hm => by simp at hm
  | _, _, _, .one hl h1 h2, ⟨m, hm, hx⟩ => by
    rw [List.length_append]
    rcases List.mem_cons.1 hm with rfl | hm
    · rcases hx with hx | hx
      · rw [hl] at hx; cases hx
      · have := Layout.solid h hA h1 hx
        omega
    · have := LayoutFields.solid h hA h2 ⟨m, hm, hx⟩
      omega
  | _, _, _, .list hl hn h1 h2, _ => by
    have := decNum_length (hA _ _ _ hn)
    rw [List.length_append, List.length_append, this]
    have : 0 < p.listSize.size := by cases p.listSize <;> decide
    omega
end

theorem LayoutItems.solid (h : Usable p) {A : Atoms} (hA : ∀ n v bs, A.num n v bs → DecNum n v bs)
    {t : String} (ht : Solid p t) : ∀ {vs bs}, LayoutItems A p t vs bs → vs.length ≤ bs.length
  | _, _, .nil => Nat.le_refl _
  | _, _, .cons h1 h2 => by
    have a := Layout.solid h hA h1 ht
    have b := LayoutItems.solid h hA ht h2
    rw [List.length_append, List.length_cons]
    omega
end

theorem mem_bodies_struct {p : Protocol} {s : Struct} (h : s ∈ p.structs) : s ∈ bodies p := by
  simp [bodies, h]
theorem mem_bodies_message {p : Protocol} {s : Struct} (h : s ∈ p.messages) : s ∈ bodies p := by
  simp [bodies, h]

theorem _root_.Beschi.Usable.known {p : Protocol} (h : Usable p) {s : Struct} (hs : s ∈ bodies p)
    {m : Variable} (hm : m ∈ s.members) : KnownType p m.vartype := h.types s hs m hm

theorem NamesDistinct.members {p : Protocol} (h : NamesDistinct p) : MembersDistinct p :=
  fun s hs => h s hs

theorem enc_ne_bool {e : Enum} (he : GoodEnum e) : e.encoding ≠ .bool := by
  have := GoodEnum.integral he
  intro hb
  rw [hb] at this
  cases this

theorem integerType_ne_bool {n : NumTy} (h : IntegerType n) : n ≠ .bool := by
  rintro rfl
  have := integral_of_integerType h
  cases this

theorem noBom_iff {s : List UInt8} : NoBom s ↔ bom.isPrefixOf s = false := by
  rw [Bool.eq_false_iff, ne_eq, List.isPrefixOf_iff_prefix, NoBom]
  constructor
  · rintro h ⟨r, rfl⟩
    exact h r rfl
  · rintro h r rfl
    exact h ⟨r, rfl⟩

/-- The message of an encoded value. -/
theorem encMsg_split {p : Protocol} {m : String} {v : Val} {bs : List UInt8} (h : EncMsg p m v bs) :
    ∃ pre d post, p.messages = pre ++ d :: post ∧ d.name = m := by
  obtain ⟨d, _, h1, h2, _⟩ := h
  obtain ⟨pre, post, e⟩ := List.append_of_mem h1
  exact ⟨pre, d, post, e, h2⟩

/-! ### Reading -/

/-- A function whose statements and results come from the members one by one reads the members. -/
theorem bodyFor_map {S : ReadSem} {e : Fail} {p : Protocol} {params : List Loc}
    {stmt : Variable → RStmt} {dst : Variable → Loc} : ∀ {ms : List Variable},
    (∀ m ∈ ms, StmtFor S e p m (stmt m) (dst m)) →
    (ms.Pairwise fun a b => dst a ∉ (stmt b).locs) →
    (∀ m ∈ ms, ∀ l ∈ (stmt m).locs, l ∉ params) →
    BodyFor S e p params ms (ms.map stmt) (ms.map fun m => (m.name, dst m))
  | [], _, _, _ => .nil
  | m :: ms, h1, h2, h3 => by
    rw [List.pairwise_cons] at h2
    refine .cons (h1 m (by simp)) ?_ (h3 m (by simp))
      (bodyFor_map (fun x hx => h1 x (by simp [hx])) h2.2 (fun x hx => h3 x (by simp [hx])))
    intro hm
    simp only [List.mem_flatMap, List.mem_map] at hm
    obtain ⟨s, ⟨x, hx, rfl⟩, hl⟩ := hm
    exact h2.1 x hx hl

/-- A function that stores every member in the object being built reads the members. -/
theorem bodyFor_mem {S : ReadSem} {e : Fail} {p : Protocol} {stmt : Variable → RStmt}
    {ms : List Variable} (h1 : ∀ m ∈ ms, StmtFor S e p m (stmt m) (.mem m.name))
    (h2 : ∀ m ∈ ms, ∀ x, .mem x ∈ (stmt m).locs → x = m.name) (h3 : (ms.map (·.name)).Nodup) :
    BodyFor S e p [] ms (ms.map stmt) (ms.map fun m => (m.name, .mem m.name)) := by
  refine bodyFor_map (dst := fun m => .mem m.name) h1 ?_ (by simp)
  rw [List.nodup_iff_pairwise_ne, List.pairwise_map] at h3
  refine h3.imp_of_mem ?_
  intro a b _ hb hne hmem
  exact hne (h2 b hb _ hmem)

section
variable {p : Protocol} (h : Usable p)

include h in
theorem checkDeclared_declared {e : Enum} (he : e ∈ p.enums) {i j : Int} (hd : Declared e i j) :
    checkDeclared p e.name i = .ok (.int j) := by
  obtain ⟨hj, x, hx⟩ := hd
  subst hj
  rw [checkDeclared, enum?_of_mem h.enumsDistinct he]
  simp only
  cases hf : e.values.find? (·.2 == j) with
  | none =>
    rw [List.find?_eq_none] at hf
    exact absurd (by simp) (hf _ hx)
  | some y =>
    have := List.find?_some hf
    simp only [beq_iff_eq] at this
    simp [this]

include h in
theorem checkDeclared_ok {e : Enum} (he : e ∈ p.enums) {i : Int} {v : Val}
    (hr : checkDeclared p e.name i = .ok v) : ∃ j, v = .int j ∧ Declared e i j := by
  rw [checkDeclared, enum?_of_mem h.enumsDistinct he] at hr
  simp only at hr
  split at hr
  · rename_i y hy
    cases hr
    have h1 := List.find?_some hy
    simp only [beq_iff_eq] at h1
    subst h1
    exact ⟨_, rfl, rfl, y.1, List.mem_of_find?_eq_some hy⟩
  · cases hr

include h in
theorem checkDeclared_error {e : Enum} (he : e ∈ p.enums) {i : Int} {x : Fail}
    (hr : checkDeclared p e.name i = .error x) : x = .invalid := by
  rw [checkDeclared, enum?_of_mem h.enumsDistinct he] at hr
  simp only at hr
  split at hr
  · cases hr
  · cases hr; rfl

variable {S : ReadSem} {e : Fail} {fn : Struct → RFun}

include h in
theorem funsFor_of_bodies (hF : ∀ s ∈ bodies p, FunFor S e p s.members (fn s)) :
    FunsFor S e p (fun s => (p.struct? s).map fn) := by
  intro s hm
  refine ⟨fn s, ?_, hF s (mem_bodies_struct hm)⟩
  simp [struct?_of_mem h.structsDistinct hm]

include h in
/-- A message of the format is read back. -/
theorem readMessage_encoded {T : List UInt8 → Prop} {b : Buf}
    (hC : Completeness S p (written.restrict T) b)
    (hF : ∀ s ∈ bodies p, FunFor S e p s.members (fn s)) {m : String} {v : Val} {bs : List UInt8}
    {pos : Nat} (he : EncMsg p m v bs) (ht : Texts T v) (hat : At b pos bs) :
    readMessage S fn p m b pos = .ok (v, pos + bs.length) := by
  obtain ⟨d, fs, hd, rfl, rfl, hl⟩ := he
  rw [readMessage, message?_of_mem h.messagesDistinct hd]
  exact fields_read h hC (funsFor_of_bodies h hF) (LayoutFields.restrict hl ht)
    (hF d (mem_bodies_message hd)) hat

/-- Only messages of the protocol can be read. -/
theorem readMessage_known {m : String} {b : Buf} {pos : Nat} {r : Val × Nat}
    (hr : readMessage S fn p m b pos = .ok r) : ∃ d ∈ p.messages, d.name = m ∧
      runFun S (readAtom S (fun s => (p.struct? s).map fn) b (depth p)) b pos (fn d) = .ok r := by
  unfold readMessage at hr
  split at hr
  · cases hr
  · rename_i st hst
    obtain ⟨h1, h2⟩ := message?_some hst
    exact ⟨st, h1, h2, hr⟩

include h in
/-- Whatever is read as a message is laid out as specified. -/
theorem readMessage_sound {A : Atoms} {b : Buf} (hS : Soundness S p A b)
    (hF : ∀ s ∈ bodies p, FunFor S e p s.members (fn s)) {m : String} {v : Val} {pos pos' : Nat}
    (hp : pos ≤ b.length) (hr : readMessage S fn p m b pos = .ok (v, pos')) :
    ∃ bs, DecMsg A p m v bs ∧ At b pos bs ∧ pos' = pos + bs.length := by
  obtain ⟨d, hd, rfl, hr'⟩ := readMessage_known hr
  obtain ⟨fs, bs, rfl, h1, h2, h3⟩ := fields_sound h hS (funsFor_of_bodies h hF)
    (hF d (mem_bodies_message hd)) hp hr'
  exact ⟨bs, ⟨d, fs, hd, rfl, rfl, h1⟩, h2, h3⟩

include h in
/-- Reading a message ends in a value, never beyond the data, or in a failure in `E`. -/
theorem readMessage_within {E : Fail → Prop} {b : Buf} (he : E e) (hS : Polite S p E b)
    (hF : ∀ s ∈ bodies p, FunFor S e p s.members (fn s)) {m : String} {pos : Nat}
    (hm : m ∈ messageNames p) (hp : pos ≤ b.length) : 
    Within E b pos (readMessage S fn p m b pos) := by
  obtain ⟨d, hd, rfl⟩ := List.mem_map.1 hm
  rw [readMessage, message?_of_mem h.messagesDistinct hd]
  exact fields_within h he hS (funsFor_of_bodies h hF) (mem_bodies_message hd) (hF d (mem_bodies_message hd)) hp

/-! ### Writing and measuring -/

include h in
theorem wfunsFor_of_bodies {W : WriteSem} {A : Atoms} {fn : Struct → WFun}
    (hF : ∀ s ∈ bodies p, WFunFor W A p s.members (fn s)) :
    WFunsFor W A p (fun s => (p.struct? s).map fn) := by
  intro s hm
  refine ⟨fn s, ?_, hF s (mem_bodies_struct hm)⟩
  simp [struct?_of_mem h.structsDistinct hm]

include h in
/-- A message of the format is written as specified. -/
theorem writeMessage_encoded {W : WriteSem} {fn : Struct → WFun} (hW : Writes W p written)
    (hF : ∀ s ∈ bodies p, WFunFor W written p s.members (fn s)) {pre post : List Struct} {d : Struct}
    {v : Val} {bs : List UInt8} (e : p.messages = pre ++ d :: post) (he : EncMsg p d.name v bs)
    (tag : Bool) : ∃ cs, writeMessage W fn p d.name tag v = .ok cs ∧
      cs.flatten = if tag then UInt8.ofNat (pre.length + 1) :: bs else bs := by
  obtain ⟨d', fs, hd', hn, rfl, hl⟩ := he
  have hd : d ∈ p.messages := by simp [e]
  cases mem_messages_unique h hd' hd hn
  obtain ⟨cs, h1, h2⟩ := fields_write h hW (wfunsFor_of_bodies h hF) hl (hF d (mem_bodies_message hd))
  rw [writeMessage, message?_of_mem h.messagesDistinct hd, messageIndex_of_split h e]
  simp only [h1, bind, Except.bind, pure, Except.pure]
  refine ⟨_, rfl, ?_⟩
  cases tag <;> simp [h2]

include h in
/-- The size computed for a message of the format is the number of its bytes. -/
theorem sizeMessage_encoded {M : MStyle} {Z : List UInt8 → Prop} {root : String} {lvl : Nat}
    (hd : MembersDistinct p) (hM : MeasuresText M (written.restrict Z))
    (hfresh : ∀ d ∈ p.messages, M.indexed = true → MFresh M p (depth p) d.members [root] lvl)
    {m : String} {v : Val} {bs : List UInt8} (he : EncMsg p m v bs) (hz : Texts Z v) :
    sizeMessage M root lvl p m v = .ok bs.length := by
  obtain ⟨d, fs, hm, rfl, rfl, hl⟩ := he
  obtain ⟨f, h1, h2⟩ := measureFun_spec h hd hM (st := d) (root := root) (lvl := lvl) (by simp [hm])
    (hfresh d hm) (LayoutFields.restrict hl hz)
  rw [sizeMessage, message?_of_mem h.messagesDistinct hm]
  simp only [h1, h2]

/-- Text measured in bytes. -/
theorem measuresText_bytes {M : MStyle} {Z : List UInt8 → Prop} (h1 : M.text = .bytes)
    (h2 : M.texts = .bytes) : MeasuresText M (written.restrict Z) where
  sized _ _ _ hn := encNum_length hn
  text bs s ht := by obtain ⟨⟨rfl, _⟩, _⟩ := ht; rw [h1]; rfl
  texts bs s ht := by obtain ⟨⟨rfl, _⟩, _⟩ := ht; rw [h2]; rfl

/-! ### Dispatch -/

theorem dispatch_unknown {t : Nat} (ht : t = 0 ∨ p.messages.length < t) :
    (messageArms p 1).lookup t = none := by
  rw [messageArms_lookup]
  split
  · rw [List.getElem?_eq_none (by omega)]; rfl
  · rfl

theorem dispatch_known {t : Nat} {m : String} (ht : (messageArms p 1).lookup t = some m) :
    m ∈ messageNames p := by
  rw [messageArms_lookup] at ht
  split at ht
  · simp only [Option.map_eq_some_iff] at ht
    obtain ⟨d, hd, rfl⟩ := ht
    exact List.mem_map_of_mem (List.mem_of_getElem? hd)
  · cases ht
end

/-! ### What is promised for arbitrary data -/

/-- Whatever the library reads as a message is laid out as the format says. -/
def ReadSound (L : Library) (p : Protocol) (f : String → String) (A : Atoms) (lim : Nat) : Prop :=
  ∀ {m b pos v pos'}, pos ≤ b.length → b.length < lim → L.read m b pos = .ok (v, pos') →
    ∃ w bs, v = w.mapNames f ∧ DecMsg A p m w bs ∧ At b pos bs ∧ pos' = pos + bs.length

/-- Reading a message ends in a value and a position that has neither moved back nor beyond the
data, or in a failure in `E`. -/
def ReadWithin (E : Fail → Prop) (L : Library) (p : Protocol) (lim : Nat) : Prop :=
  ∀ {m b pos}, m ∈ messageNames p → pos ≤ b.length → b.length < lim →
    Within E b pos (L.read m b pos)

/-- Processing a stream ends with a list and a position that has neither moved back nor beyond the
data, or in a failure in `E`. -/
def StreamWithin (E : Fail → Prop) (L : Library) (lim : Nat) : Prop :=
  ∀ {b pos max}, pos ≤ b.length → b.length < lim → Within E b pos (L.process b pos max)

/-- An unknown identifier or a message that cannot be read, met in a stream before the limit, makes
the library fail. -/
def StreamRejects (L : Library) (p : Protocol) (T : List UInt8 → Prop) (lim : Nat) : Prop :=
  ∀ {ms bs t b pos max}, Stream p ms bs → (∀ x ∈ ms, Texts T x.2) → b.length < lim →
    At b pos (bs ++ [t]) → t ≠ 0 → max < 0 ∨ (ms.length : Int) < max →
    (L.dispatch t.toNat = none → ∃ e, L.process b pos max = .error e) ∧
    (∀ m e, L.dispatch t.toNat = some m → L.read m b (pos + bs.length + 1) = .error e →
      L.process b pos max = .error e)

/-- An unknown identifier met in a stream before the limit makes the library fail. -/
def StreamUnknown (L : Library) (p : Protocol) (T : List UInt8 → Prop) (lim : Nat) : Prop :=
  ∀ {ms bs t b pos max}, Stream p ms bs → (∀ x ∈ ms, Texts T x.2) → b.length < lim →
    At b pos (bs ++ [t]) → t ≠ 0 → max < 0 ∨ (ms.length : Int) < max →
    L.dispatch t.toNat = none → ∃ e, L.process b pos max = .error e

/-- An identifier met in a stream before the limit that is not followed by bytes of the message it
announces makes the library fail. -/
def StreamBroken (L : Library) (p : Protocol) (T : List UInt8 → Prop) (A : Atoms) (lim : Nat) :
    Prop :=
  ∀ {ms bs t b pos max m}, Stream p ms bs → (∀ x ∈ ms, Texts T x.2) → b.length < lim →
    At b pos (bs ++ [t]) → t ≠ 0 → max < 0 ∨ (ms.length : Int) < max →
    L.dispatch t.toNat = some m →
    (∀ w cs, DecMsg A p m w cs → ¬ At b (pos + bs.length + 1) cs) →
    ∃ e, L.process b pos max = .error e

/-- Unpacking accepts only buffers with the right letters and the right number of messages. -/
def UnpackChecks (L : Library) (lim : Nat) : Prop :=
  ∀ {b pos ms}, b.length < lim → L.unpack b pos = .ok ms →
    ∃ cnt, At b pos (bsci ++ cnt) ∧ DecNum .uint32 (.int ms.length) cnt

/-- Unpacking fails only with failures in `E`. -/
def UnpackFails (E : Fail → Prop) (L : Library) (lim : Nat) : Prop :=
  ∀ {b pos e}, pos ≤ b.length → b.length < lim → L.unpack b pos = .error e → E e

/-- The failures that are reported to the caller. -/
def Reported (x : Fail) : Prop := x.reported = true

/-- The failures of code that compiles. -/
def Compiled (x : Fail) : Prop := x ≠ .illTyped ∧ x ≠ .fuel

section
variable {L : Library} {p : Protocol} {f : String → String} {A : Atoms}
  {T : List UInt8 → Prop} {lim : Nat} {E : Fail → Prop}

theorem DecMsg.unrename (hA : ∀ n v bs, A.num n v bs → DecNum n v bs) {m : String} {w : Val} {bs : List UInt8} (h : DecMsg A (p.rename f) m w bs) :
    ∃ v, DecMsg A p m v bs ∧ w = v.mapNames f := by
  obtain ⟨d, fs, h1, rfl, rfl, h2⟩ := h
  obtain ⟨d0, h0, rfl⟩ := List.mem_map.1 h1
  obtain ⟨gs, h3, rfl⟩ := LayoutFields.unrename (f := f) hA rfl h2 rfl
  exact ⟨.record gs, ⟨d0, gs, h0, rfl, rfl, h3⟩, rfl⟩

theorem ReadSound.rename (hA : ∀ n v bs, A.num n v bs → DecNum n v bs)
    (h : ReadSound L (p.rename f) id A lim) : ReadSound L p f A lim := by
  intro m b pos v pos' h1 h2 h3
  obtain ⟨w, bs, rfl, h4, h5⟩ := h h1 h2 h3
  obtain ⟨u, h6, rfl⟩ := DecMsg.unrename hA h4
  exact ⟨u, bs, Val.mapNames_id _, h6, h5⟩

theorem messageNames_rename' : messageNames (p.rename f) = messageNames p := messageNames_rename

theorem ReadWithin.rename (h : ReadWithin E L (p.rename f) lim) : ReadWithin E L p lim := by
  intro m b pos h1
  rw [← messageNames_rename' (f := f)] at h1
  exact h h1

theorem StreamRejects.rename (h : StreamRejects L (p.rename f) T lim) : StreamRejects L p T lim := by
  intro ms bs t b pos max h1 h2 h3 h4 h5 h6
  exact h (Stream.rename' (f := f) h1) (texts_mapMsgs h2) h3 h4 h5 (by simpa using h6)

/-! The common shape of stream processing. -/

theorem streamWithin_tagged {finished : Buf → Nat → Bool} {tagFail unknown : Fail}
    (ht : E tagFail) (hu : E unknown)
    (hdis : ∀ t m, L.dispatch t = some m → m ∈ messageNames p)
    (hproc : ∀ b pos max, L.process b pos max = processBytes (finished b)
      (taggedStep (takeTag tagFail b) L.dispatch (fun m pos => L.read m b pos) unknown) b pos max)
    (hr : ReadWithin E L p lim) : StreamWithin E L lim := by
  intro b pos max hp hb
  rw [hproc]
  refine processBytes_within (fun q hq _ => taggedStep_within (fun q hq => ?_) hu ?_ hq) hp
  · cases htag : takeTag tagFail b q with
    | error x => rw [(takeTag_error htag).1]; exact ht
    | ok r =>
      obtain ⟨h1, h2, _⟩ := takeTag_ok (t := r.1) (pos' := r.2) htag
      simp only
      omega
  · intro t m hm q hq
    exact hr (hdis t m hm) hq hb

theorem streamRejects_tagged {finished : Buf → Nat → Bool} {tagFail unknown : Fail}
    (hfin : ∀ b pos, pos < b.length → finished b pos = false)
    (hproc : ∀ b pos max, L.process b pos max = processBytes (finished b)
      (taggedStep (takeTag tagFail b) L.dispatch (fun m pos => L.read m b pos) unknown) b pos max)
    (hstep : ∀ b, b.length < lim → StepReads
      (taggedStep (takeTag tagFail b) L.dispatch (fun m pos => L.read m b pos) unknown) p f (Texts T) b) :
    StreamRejects L p T lim := by
  intro ms bs t b pos max h1 h2 h3 h4 h5 h6
  have hlt := h4.right.le
  simp only [List.length_singleton] at hlt
  constructor
  · intro hd
    refine ⟨unknown, ?_⟩
    rw [hproc]
    exact processBytes_bad (hstep b h3) (hfin b) h1 h2 h4.left (by omega) h6
      (taggedStep_unknown (fun _ _ _ => takeTag_at) h4.right h5 hd)
  · intro m e hd hr
    rw [hproc]
    exact processBytes_bad (hstep b h3) (hfin b) h1 h2 h4.left (by omega) h6
      (taggedStep_broken (fun _ _ _ => takeTag_at) h4.right h5 hd hr)

theorem StreamRejects.unknown (h : StreamRejects L p T lim) : StreamUnknown L p T lim :=
  fun h1 h2 h3 h4 h5 h6 => (h h1 h2 h3 h4 h5 h6).1

theorem StreamRejects.broken (h : StreamRejects L p T lim) (hs : ReadSound L p f A lim) :
    StreamBroken L p T A lim := by
  intro ms bs t b pos max m h1 h2 h3 h4 h5 h6 h7 h8
  cases hr : L.read m b (pos + bs.length + 1) with
  | error e => exact ⟨e, (h h1 h2 h3 h4 h5 h6).2 m e h7 hr⟩
  | ok r =>
    have hle := h4.le
    rw [List.length_append, List.length_singleton] at hle
    obtain ⟨w, cs, _, h9, h10, _⟩ := hs (by omega) h3 (v := r.1) (pos' := r.2) hr
    exact absurd h10 (h8 w cs h9)

/-! Libraries that cut the data before they process it. -/

theorem At.of_drop {b : Buf} {pos q : Nat} {bs : List UInt8} (hp : pos ≤ b.length)
    (h : At (b.drop pos) q bs) : At b (pos + q) bs := by
  obtain ⟨pre, rest, e, rfl⟩ := h
  refine ⟨b.take pos ++ pre, rest, ?_, ?_⟩
  · rw [List.append_assoc, ← e, List.take_append_drop]
  · rw [List.length_append, List.length_take]; omega

section
variable {K : Library}
  (hL : ∀ b pos max, L.process b pos max = rebased (fun b q => K.process b q max) b pos)
include hL

theorem rebased_error {b : Buf} {pos : Nat} {max : Int} {e : Fail}
    (h : K.process (b.drop pos) 0 max = .error e) : L.process b pos max = .error e := by
  rw [hL, rebased]
  simp only [h]

theorem StreamWithin.rebase (h : StreamWithin E K lim) : StreamWithin E L lim := by
  intro b pos max hp hb
  have := h (b := b.drop pos) (pos := 0) (max := max) (by omega) (by rw [List.length_drop]; omega)
  rw [hL, rebased]
  cases hr : K.process (b.drop pos) 0 max with
  | error e => rw [hr] at this; exact this
  | ok r =>
    rw [hr] at this
    simp only [Within, List.length_drop] at this ⊢
    omega

theorem StreamUnknown.rebase (hd : L.dispatch = K.dispatch) (h : StreamUnknown K p T lim) :
    StreamUnknown L p T lim := by
  intro ms bs t b pos max h1 h2 h3 h4 h5 h6 h7
  rw [hd] at h7
  obtain ⟨e, he⟩ := h h1 h2 (b := b.drop pos) (by rw [List.length_drop]; omega) (At.drop h4) h5 h6 h7
  exact ⟨e, rebased_error hL he⟩

theorem StreamBroken.rebase (hd : L.dispatch = K.dispatch) (h : StreamBroken K p T A lim) :
    StreamBroken L p T A lim := by
  intro ms bs t b pos max m h1 h2 h3 h4 h5 h6 h7 h8
  rw [hd] at h7
  have hle := h4.le
  obtain ⟨e, he⟩ := h h1 h2 (b := b.drop pos) (by rw [List.length_drop]; omega) (At.drop h4) h5 h6 h7
    (fun w cs h9 h10 => h8 w cs h9 (by
      have := At.of_drop (by omega) h10
      rwa [show pos + (0 + bs.length + 1) = pos + bs.length + 1 by omega] at this))
  exact ⟨e, rebased_error hL he⟩
end

/-- Unpacking in the common shape. -/
theorem unpackChecks_with {short countFail : Fail} {limit : Int → Except Fail Int}
    {proc : Buf → Nat → Int → Except Fail (List (String × Val) × Nat)}
    (hunpack : ∀ b pos, L.unpack b pos = unpackWith short countFail .uint32 limit (proc b) b pos) :
    UnpackChecks L lim := by
  intro b pos ms _ h
  rw [hunpack] at h
  exact unpackWith_ok h

theorem unpackFails_with {short countFail : Fail} {countTy : NumTy} {limit : Int → Except Fail Int}
    (hs : E short) (hc : E countFail) (hi : E .invalid) (hty : integral countTy = true)
    (hl : ∀ i e, IntRange countTy i → i ≠ 0 → limit i = .error e → E e)
    (hunpack : ∀ b pos, L.unpack b pos =
      unpackWith short countFail countTy limit (L.process b) b pos)
    (hp : StreamWithin E L lim) : UnpackFails E L lim := by
  intro b pos e _ hb h
  rw [hunpack] at h
  refine unpackWith_error hs hc hty hl ?_ hi h
  intro q k x hq hx
  have := hp (max := k) hq hb
  rw [hx] at this
  exact this

/-! ### Consequences -/

mutual
/-- Texts can be replaced by the bytes they were read from. -/
theorem _root_.Beschi.Layout.raw {A : Atoms} (hA : ∀ n v bs, A.num n v bs → DecNum n v bs) :
    ∀ {t v bs}, Layout A p t v bs → ∃ w, Layout readableRaw p t w bs
  | _, _, _, .num h => ⟨_, .num (hA _ _ _ h)⟩
  | _, _, _, .text h1 _ => ⟨_, .text (A := readableRaw) (hA _ _ _ h1) rfl⟩
  | _, _, _, .enum h1 _ h3 => ⟨_, .enum (A := readableRaw) h1 rfl (hA _ _ _ h3)⟩
  | _, _, _, .struct h1 h2 => by
    obtain ⟨gs, h3⟩ := LayoutFields.raw hA h2
    exact ⟨_, .struct h1 h3⟩
theorem _root_.Beschi.LayoutItems.raw {A : Atoms} (hA : ∀ n v bs, A.num n v bs → DecNum n v bs) :
    ∀ {t vs bs}, LayoutItems A p t vs bs →
      ∃ ws, LayoutItems readableRaw p t ws bs ∧ ws.length = vs.length
  | _, _, _, .nil => ⟨[], .nil, rfl⟩
  | _, _, _, .cons h1 h2 => by
    obtain ⟨w, h3⟩ := Layout.raw hA h1
    obtain ⟨ws, h4, h5⟩ := LayoutItems.raw hA h2
    exact ⟨w :: ws, .cons h3 h4, by simp [h5]⟩
theorem _root_.Beschi.LayoutFields.raw {A : Atoms} (hA : ∀ n v bs, A.num n v bs → DecNum n v bs) :
    ∀ {ms fs bs}, LayoutFields A p ms fs bs → ∃ gs, LayoutFields readableRaw p ms gs bs
  | _, _, _, .nil => ⟨[], .nil⟩
  | _, _, _, .one h1 h2 h3 => by
    obtain ⟨w, h4⟩ := Layout.raw hA h2
    obtain ⟨gs, h5⟩ := LayoutFields.raw hA h3
    exact ⟨_, .one h1 h4 h5⟩
  | _, _, _, .list h1 h2 h3 h4 => by
    obtain ⟨ws, h5, h6⟩ := LayoutItems.raw hA h3
    obtain ⟨gs, h7⟩ := LayoutFields.raw hA h4
    exact ⟨_, .list h1 (by rw [h6]; exact hA _ _ _ h2) h5 h7⟩
end

/-- Bytes a message can be read from, and bytes of the same message, that start at the same place
are the same bytes. -/
theorem DecMsg.same_bytes (h : Usable p) (hA : ∀ n v bs, A.num n v bs → DecNum n v bs) {m : String} {v w : Val} {bs cs r s : List UInt8}
    (h1 : EncMsg p m v bs) (h2 : DecMsg A p m w cs) (e : bs ++ r = cs ++ s) : bs = cs := by
  obtain ⟨d, fs, hd, rfl, rfl, hl⟩ := h1
  obtain ⟨d', gs, hd', hn, rfl, hl'⟩ := h2
  cases mem_messages_unique h hd' hd hn
  obtain ⟨fs', h3⟩ := LayoutFields.raw written_dec hl
  obtain ⟨gs', h4⟩ := LayoutFields.raw hA hl'
  exact (LayoutFields.det readableRaw_det h h3 h4 e).2.1

/-- The bytes of a message cut off before their end cannot be read. -/
theorem read_truncated (h : Usable p) (hA : ∀ n v bs, A.num n v bs → DecNum n v bs)
    (hs : ReadSound L p f A lim) {m : String} {v : Val}
    {pre bs : List UInt8} {x : UInt8} {rest : List UInt8} (he : EncMsg p m v (bs ++ x :: rest))
    (hb : (pre ++ bs).length < lim) : ∃ e, L.read m (pre ++ bs) pre.length = .error e := by
  cases hr : L.read m (pre ++ bs) pre.length with
  | error e => exact ⟨e, rfl⟩
  | ok r =>
    obtain ⟨w, cs, _, h1, h2, _⟩ := hs (by simp) hb (v := r.1) (pos' := r.2) hr
    obtain ⟨pre', rest', e1, e2⟩ := h2
    have e3 : bs = cs ++ rest' := by
      have := congrArg (List.drop pre.length) e1
      rw [List.drop_left, e2, List.drop_left] at this
      exact this
    have := DecMsg.same_bytes h hA he h1 (r := []) (s := rest' ++ x :: rest) (by simp [e3])
    have := congrArg List.length this
    rw [e3] at this
    simp at this
end

end Beschi.Lang
