import Verif.Lang.Zig
import Verif.Lang.CommonProof
/-
The Zig backend satisfies the laws.
-/
namespace Beschi.Lang
open Spec

namespace Zig

section
variable {p : Protocol} (h : Usable p)

theorem Supported.names (hs : Supported p) : NamesDistinct p := fun s hb =>
  (List.nodup_append.1 (hs.types s hb)).1

include h in
theorem simple_iff {s : Struct} (hb : s ∈ bodies p) :
    p.simpleStruct s = true ↔ ¬ VaryingBody p s.members :=
  (simpleStruct_spec h (fun _ hm => h.known hb hm)).2

/-- The type of a number or an enum. -/
def Scalar (p : Protocol) (t : String) : Prop :=
  (∃ n : NumTy, t = n.name) ∨ ∃ e ∈ p.enums, t = e.name

include h in
theorem fixed_members (hs : Supported p) {s : Struct} (hb : s ∈ bodies p)
    (hv : ¬ VaryingBody p s.members) {m : Variable} (hm : m ∈ s.members) :
    m.isList = false ∧ Scalar p m.vartype := by
  have hl : m.isList = false := by
    cases hl : m.isList with
    | false => rfl
    | true => exact absurd ⟨m, hm, .inl hl⟩ hv
  refine ⟨hl, ?_⟩
  rcases List.mem_append.1 hb with hst | hmsg
  · exact .inl ((hs.numbers s hst hv).2 m hm)
  · have hnot := hs.flat s hmsg hv m hm
    cases h.kind (h.known hb hm) with
    | num n e => exact .inl ⟨n, e⟩
    | text e => exact absurd ⟨m, hm, .inr (e ▸ .text)⟩ hv
    | enum e mem name => exact .inr ⟨e, mem, name.symm⟩
    | struct s mem name => exact absurd (name ▸ List.mem_map_of_mem mem) hnot

theorem scalar_known {t : String} (ht : Scalar p t) : KnownType p t := by
  rcases ht with ⟨n, rfl⟩ | ⟨e, he, rfl⟩
  · exact .inl (name_builtin n)
  · exact .inr (.inr (.inr (List.mem_map_of_mem he)))

include h in
theorem scalar_fixed {t : String} (ht : Scalar p t) : ¬ Varying p t := by
  rcases ht with ⟨n, rfl⟩ | ⟨e, he, rfl⟩
  · exact varying_num h n
  · exact varying_enum h he

/-! ### The file compiles -/

theorem sublist_read (s : Struct) :
    (["offset", "buffer"] ++ s.members.map fun m => s.name ++ "_" ++ m.name).Sublist
      (readerNames s) := by
  unfold readerNames
  refine List.Sublist.append (by decide) ?_
  induction s.members with
  | nil => simp
  | cons m ms ih =>
    simp only [List.map_cons, List.flatMap_cons, List.cons_append, List.nil_append]
    exact .cons _ (.cons_cons _ ih)

theorem readLocals_sublist (s : Struct) : (readLocals p s).Sublist (readerNames s) := by
  unfold readLocals
  split
  · exact sublist_read s
  · exact List.Sublist.refl _

include h in
theorem fileOk_of (hs : Supported p) : fileOk p = true := by
  have hfile : fileDecls p = fileNames p := rfl
  have hlocal : localDecls p = localNames p := rfl
  have hmsgs : (p.messages.map (·.name)).Nodup := h.messagesDistinct
  have hf := hs.file
  have hwb : "writeBytes" ∉ messageNames p := by
    have := (List.nodup_append.1 hf).1
    unfold fileNames at this
    exact fun hm => (List.nodup_append.1 this).2.2 "writeBytes" (by simp) "writeBytes" hm rfl
  simp only [fileOk, Bool.and_eq_true, decide_eq_true_eq, List.all_eq_true, Bool.not_eq_true']
  refine ⟨⟨⟨⟨?_, ?_⟩, ?_⟩, ?_⟩, ?_⟩
  · cases hm : p.messages with
    | nil => exact absurd hm hs.messages
    | cons => rfl
  · rw [hfile, hlocal]; exact hf
  · refine List.nodup_append.2 ⟨hmsgs, by decide, ?_⟩
    intro a ha b hb hab
    subst hab
    simp only [List.mem_cons, List.not_mem_nil, or_false] at hb
    rcases hb with rfl | rfl
    · exact hs.union ha
    · exact hwb ha
  · intro s hb
    refine ⟨?_, ?_⟩
    · refine List.Nodup.sublist ?_ (hs.types s hb)
      unfold typeDecls
      rw [List.append_assoc]
      refine List.Sublist.append (List.Sublist.refl _) ?_
      split <;> decide
    · rw [hfile]
      exact List.Nodup.sublist (List.Sublist.append (readLocals_sublist s) (List.Sublist.refl _))
        (hs.locals s hb)
  · intro s hst
    cases hsim : p.simpleStruct s with
    | false => rfl
    | true =>
      obtain ⟨hne, hall⟩ := hs.numbers s hst ((simple_iff h (mem_bodies_struct hst)).1 hsim)
      simp only [Bool.not_true, Bool.false_or, List.any_eq_true]
      match hm : s.members, hne with
      | m :: ms, _ =>
        obtain ⟨n, hn⟩ := hall m (by simp [hm])
        exact ⟨m, by simp, by simp [hn, ofName?_name]⟩

include h in
theorem library_eq (hs : Supported p) : library p = core p := by
  rw [library, if_pos (fileOk_of h hs)]

theorem sizeable_of {n : NumTy} (hn : Unsigned n) : sizeable n = true := by
  revert hn
  cases n <;> intro hn <;> first | rfl | exact (hn : False).elim

include h in
theorem readOk_of (hs : Supported p) : ∀ (fuel d : Nat) (ms : List Variable) (fixed : Bool),
    (∀ m ∈ ms, KnownType p m.vartype) → (∀ m ∈ ms, fits p d m.vartype) → d < fuel →
    (fixed = true → ∀ m ∈ ms, m.vartype ∉ structNames p) → readOk p fuel ms fixed = true := by
  intro fuel
  induction fuel with
  | zero => intro d _ _ _ _ hd; omega
  | succ fuel ih =>
    intro d ms fixed hk hfit hd hflat
    have hus := sizeable_of hs.unsigned
    have hul := sizeable_of (hs.sizes ▸ hs.unsigned)
    simp only [readOk, List.all_eq_true]
    intro m hm
    rw [hul, hus]
    simp only [Bool.or_true, Bool.true_and]
    cases h.kind (hk m hm) with
    | num n e ne num enum => simp [num]
    | text e num => simp [e]
    | enum e mem name ne num enum => simp [num, ne, enum]
    | struct s mem name ne num enum struct =>
      have hb := mem_bodies_struct mem
      have hf : fixed = false := by
        cases fixed with
        | false => rfl
        | true => exact absurd (name ▸ List.mem_map_of_mem mem) (hflat rfl m hm)
      simp only [num, Option.isSome_none, Bool.false_eq_true, if_false, if_neg ne, enum, struct, hf,
        Bool.not_false, Bool.true_and]
      match d, hfit m hm with
      | 0, hf' => rw [show p.struct? m.vartype = none from hf'] at struct; cases struct
      | d + 1, hf' =>
        refine ih d s.members _ (fun _ hm => h.known hb hm) (hf' s struct) (by omega) ?_
        intro hsim x hx hn
        obtain ⟨n, hn'⟩ := (hs.numbers s mem ((simple_iff h hb).1 hsim)).2 x hx
        obtain ⟨s', hs', e⟩ := List.mem_map.1 hn
        exact num_ne_struct h hs' (n := n) (by rw [← hn', e])

include h in
theorem readOk_message (hs : Supported p) {s : Struct} (hm : s ∈ p.messages) :
    readOk p (depth p) s.members (p.simpleStruct s) = true :=
  readOk_of h hs (depth p) p.structs.length s.members _ (fun _ hx => h.known (mem_bodies_message hm) hx)
    (fun _ _ => h.fits _) (by simp [depth])
    (fun hsim => hs.flat s hm ((simple_iff h (mem_bodies_message hm)).1 hsim))

/-! ### Reading structs of fixed size -/

theorem readable_native (n : NumTy) : readable (native n) = some n := by cases n <;> rfl

theorem readNum_native (n : NumTy) (b : Buf) (pos : Nat) :
    readNum (native n) b pos = takeNum .eof n b pos := by
  rw [readNum, readable_native]

include h in
theorem readFixedMember_at {A : Atoms} (hA : ∀ n v bs, A.num n v bs → DecNum n v bs)
    (hE : ∀ e i j, A.enum e i j → Declared e i j) {t : String} (ht : Scalar p t) {v : Val}
    {bs : List UInt8} (hl : Layout A p t v bs) {b : Buf} {pos : Nat} (hat : At b pos bs) :
    readFixedMember p t b pos = .ok v := by
  unfold readFixedMember
  rcases ht with ⟨n, rfl⟩ | ⟨e, he, rfl⟩
  · rw [ofName?_name]
    simp only [readNum_native, takeNum_at hat (hA _ _ _ (layout_num h hl))]
    rfl
  · obtain ⟨i, j, rfl, h1, h2⟩ := layout_enum h he hl
    have hnum : NumTy.ofName? e.name = none := ofName?_none fun hb =>
      (h.notBuiltin e.name (by simp [enumNames]; exact .inr (.inr ⟨e, he, rfl⟩))).1 hb
    rw [hnum]
    simp only [enum?_of_mem h.enumsDistinct he, readNum_native, takeNum_at hat (hA _ _ _ h2)]
    exact checkDeclared_declared h he (hE _ _ _ h1)

include h in
theorem readFixedMembers_at {A : Atoms} (hA : ∀ n v bs, A.num n v bs → DecNum n v bs)
    (hE : ∀ e i j, A.enum e i j → Declared e i j) {b : Buf} {pos : Nat} :
    ∀ {ms : List Variable} {fs : List (String × Val)} {bs : List UInt8} {simple : Nat},
    (∀ m ∈ ms, m.isList = false ∧ Scalar p m.vartype) → LayoutFields A p ms fs bs →
    At b (pos + simple) bs → readFixedMembers p b pos simple ms = .ok fs
  | [], _, _, _, _, .nil, _ => rfl
  | m :: ms, _, _, simple, hm, .one (a := x) _ h1 h2, hat => by
    have hsz := (sizeOf_fixed h (scalar_known (hm m (by simp)).2) (scalar_fixed h (hm m (by simp)).2)).2
      A (fun n v bs hn => decNum_length (hA n v bs hn)) _ _ h1
    have hr := hat.right
    rw [hsz, Nat.add_assoc] at hr
    simp only [readFixedMembers, readFixedMember_at h hA hE (hm m (by simp)).2 h1 hat.left,
      readFixedMembers_at hA hE (fun x hx => hm x (by simp [hx])) h2 hr]
    rfl
  | m :: ms, _, _, _, hm, .list hl _ _ _, _ => by
    rw [(hm m (by simp)).1] at hl; cases hl

include h in
theorem readFixed_at {A : Atoms} (hA : ∀ n v bs, A.num n v bs → DecNum n v bs)
    (hE : ∀ e i j, A.enum e i j → Declared e i j) (hs : Supported p) {s : Struct}
    (hb : s ∈ bodies p) (hv : ¬ VaryingBody p s.members) {fs : List (String × Val)}
    {bs : List UInt8} (hl : LayoutFields A p s.members fs bs) {b : Buf} {pos : Nat}
    (hat : At b pos bs) : readFixed p s b pos = .ok (.record fs, pos + bs.length) := by
  have hsz := (sizeOf_body h hb hv).2 A (fun n v bs hn => decNum_length (hA n v bs hn)) _ _ hl
  rw [readFixed, readFixedMembers_at h hA hE (fun m hm => fixed_members h hs hb hv hm) hl
    (by simpa using hat)]
  simp [bind, Except.bind, pure, Except.pure, hsz]

include h in
theorem readFixedMember_ok {B : Atoms} (hB : ∀ n v bs, DecNum n v bs → B.num n v bs)
    (hE : ∀ e i j, Declared e i j → B.enum e i j) {t : String} (ht : Scalar p t) {v : Val}
    {b : Buf} {pos : Nat} (hr : readFixedMember p t b pos = .ok v) :
    ∃ bs, Layout B p t v bs ∧ At b pos bs := by
  unfold readFixedMember at hr
  rcases ht with ⟨n, rfl⟩ | ⟨e, he, rfl⟩
  · rw [ofName?_name] at hr
    simp only [readNum_native] at hr
    cases ht : takeNum .eof n b pos with
    | error x => rw [ht] at hr; cases hr
    | ok r =>
      rw [ht] at hr
      cases hr
      obtain ⟨bs, h1, h2, _⟩ := takeNum_ok (v := r.1) (pos' := r.2) ht
      exact ⟨bs, .num (hB _ _ _ h2), h1⟩
  · have hnum : NumTy.ofName? e.name = none := ofName?_none fun hb =>
      (h.notBuiltin e.name (by simp [enumNames]; exact .inr (.inr ⟨e, he, rfl⟩))).1 hb
    rw [hnum] at hr
    simp only [enum?_of_mem h.enumsDistinct he, readNum_native] at hr
    split at hr
    · rename_i i q hq
      obtain ⟨bs, h1, h2, _⟩ := takeNum_ok hq
      obtain ⟨j, rfl, hd⟩ := checkDeclared_ok h he hr
      exact ⟨bs, .enum he (hE _ _ _ hd) (hB _ _ _ h2), h1⟩
    · cases hr
    · cases hr

include h in
theorem readFixedMembers_ok {B : Atoms} (hB : ∀ n v bs, DecNum n v bs → B.num n v bs)
    (hB' : Atoms.Sized B) (hE : ∀ e i j, Declared e i j → B.enum e i j) {b : Buf} {pos : Nat} :
    ∀ {ms : List Variable} {fs : List (String × Val)} {simple : Nat},
    (∀ m ∈ ms, m.isList = false ∧ Scalar p m.vartype) → pos + simple ≤ b.length →
    readFixedMembers p b pos simple ms = .ok fs →
    ∃ bs, LayoutFields B p ms fs bs ∧ At b (pos + simple) bs
  | [], fs, simple, _, hp, hr => by cases hr; exact ⟨[], .nil, .nil hp⟩
  | m :: ms, fs, simple, hm, hp, hr => by
    simp only [readFixedMembers, bind, Except.bind] at hr
    split at hr
    · cases hr
    · rename_i v hv
      split at hr
      · cases hr
      · rename_i gs hg
        cases hr
        obtain ⟨x, h1, h2⟩ := readFixedMember_ok h hB hE (hm m (by simp)).2 hv
        have hsz := (sizeOf_fixed h (scalar_known (hm m (by simp)).2)
          (scalar_fixed h (hm m (by simp)).2)).2 B hB' _ _ h1
        have hle := h2.le
        obtain ⟨y, h3, h4⟩ := readFixedMembers_ok hB hB' hE (fun x hx => hm x (by simp [hx]))
          (by omega) hg
        rw [← hsz, ← Nat.add_assoc] at h4
        exact ⟨x ++ y, .one (hm m (by simp)).1 h1 h3, h2.append h4⟩

include h in
theorem readFixed_ok {B : Atoms} (hB : ∀ n v bs, DecNum n v bs → B.num n v bs)
    (hB' : Atoms.Sized B) (hE : ∀ e i j, Declared e i j → B.enum e i j) (hs : Supported p)
    {s : Struct} (hb : s ∈ bodies p) (hv : ¬ VaryingBody p s.members) {b : Buf} {pos pos' : Nat}
    {v : Val} (hp : pos ≤ b.length) (hr : readFixed p s b pos = .ok (v, pos')) :
    ∃ fs bs, v = .record fs ∧ LayoutFields B p s.members fs bs ∧ At b pos bs ∧
      pos' = pos + bs.length := by
  simp only [readFixed, bind, Except.bind] at hr
  split at hr
  · cases hr
  · rename_i fs hf
    cases hr
    obtain ⟨bs, h1, h2⟩ := readFixedMembers_ok h hB hB' hE
      (fun m hm => fixed_members h hs hb hv hm) (by simpa using hp) hf
    exact ⟨fs, bs, rfl, h1, by simpa using h2, by rw [(sizeOf_body h hb hv).2 B hB' _ _ h1]⟩

include h in
theorem readFixedMember_error {E : Fail → Prop} (he : E .eof) (hi : E .invalid) {t : String}
    (ht : Scalar p t) {b : Buf} {pos : Nat} {x : Fail} (hr : readFixedMember p t b pos = .error x) :
    E x := by
  unfold readFixedMember at hr
  rcases ht with ⟨n, rfl⟩ | ⟨e, hm, rfl⟩
  · rw [ofName?_name] at hr
    simp only [readNum_native] at hr
    cases ht : takeNum .eof n b pos with
    | error y => rw [ht] at hr; cases hr; rw [takeNum_error ht]; exact he
    | ok r => rw [ht] at hr; cases hr
  · have hnum : NumTy.ofName? e.name = none := ofName?_none fun hb =>
      (h.notBuiltin e.name (by simp [enumNames]; exact .inr (.inr ⟨e, hm, rfl⟩))).1 hb
    rw [hnum] at hr
    simp only [enum?_of_mem h.enumsDistinct hm, readNum_native] at hr
    split at hr
    · rw [checkDeclared_error h hm hr]; exact hi
    · rename_i r hne hr'
      obtain ⟨cnt, h3, h4, h5⟩ := takeNum_ok (v := r.1) (pos' := r.2) hr'
      obtain ⟨i, hi⟩ := dec_int (GoodEnum.integral (h.enums _ hm)) h4
      exact absurd (Prod.ext hi rfl : r = (Val.int i, r.2)) (fun e => hne i r.2 e)
    · rename_i ht; cases hr; rw [takeNum_error ht]; exact he

include h in
theorem readFixedMembers_error {E : Fail → Prop} (he : E .eof) (hi : E .invalid) {b : Buf} {pos : Nat}
    {x : Fail} : ∀ {ms : List Variable} {simple : Nat},
    (∀ m ∈ ms, m.isList = false ∧ Scalar p m.vartype) →
    readFixedMembers p b pos simple ms = .error x → E x
  | [], _, _, hr => by cases hr
  | m :: ms, simple, hm, hr => by
    simp only [readFixedMembers, bind, Except.bind] at hr
    split at hr
    · rename_i y hy; cases hr; exact readFixedMember_error h he hi (hm m (by simp)).2 hy
    · split at hr
      · rename_i y hy; cases hr
        exact readFixedMembers_error he hi (fun x hx => hm x (by simp [hx])) hy
      · cases hr

include h in
theorem readFixed_within {E : Fail → Prop} (he : E .eof) (hi : E .invalid) (hs : Supported p)
    {s : Struct} (hb : s ∈ bodies p) (hv : ¬ VaryingBody p s.members) {b : Buf} {pos : Nat}
    (hp : pos ≤ b.length) : Within E b pos (readFixed p s b pos) := by
  cases hr : readFixed p s b pos with
  | error x =>
    simp only [readFixed, bind, Except.bind] at hr
    split at hr
    · rename_i hy
      cases hr
      exact readFixedMembers_error h he hi (fun m hm => fixed_members h hs hb hv hm) hy
    · cases hr
  | ok r =>
    obtain ⟨fs, bs, _, _, h1, h2⟩ := readFixed_ok (B := readableBy fun _ _ => True) h
      (fun _ _ _ hn => hn) (fun _ _ _ => decNum_length) (fun _ _ _ hd => hd) hs hb hv
      (v := r.1) (pos' := r.2) hp hr
    have := h1.le
    simp only [Within]
    omega

/-! ### Reading -/

theorem primFor (n : NumTy) : PrimFor (readSem p) .eof (native n) n := fun b pos => readNum_native n b pos

include h in
theorem isWhole_iff {s : Struct} (hm : s ∈ p.structs) :
    (readSem p).isWhole s.name = p.simpleStruct s := by
  simp [readSem, struct?_of_mem h.structsDistinct hm]

include h in
theorem atomFor {t : String} (hk : KnownType p t) : AtomFor (readSem p) .eof p t (atom p t) := by
  unfold atom
  cases h.kind hk with
  | num n e ne num enum => rw [num]; subst e; exact .num (primFor n)
  | text e num => rw [num]; simp only; rw [if_pos e]; subst e; exact .text
  | enum e mem name ne num enum =>
    rw [num]; simp only; rw [if_neg ne, enum]; subst name; exact .enum mem (primFor _)
  | struct s mem name ne num enum struct =>
    rw [num]; simp only; rw [if_neg ne, enum, struct]; subst name
    simp only
    split
    · rename_i hsim
      exact .whole mem (by rw [isWhole_iff h mem, hsim])
    · exact .struct mem

include h in
theorem stmtFor {s : Struct} {m : Variable} (hk : KnownType p m.vartype) :
    StmtFor (readSem p) .eof p m (deserializer p s m) (.var (s.name ++ "_" ++ m.name)) := by
  unfold deserializer
  cases hl : m.isList with
  | true => exact .list hl (primFor _) (atomFor h hk)
  | false => exact .one hl (atomFor h hk)

include h in
theorem funFor (hs : Supported p) {s : Struct} (hb : s ∈ bodies p) :
    FunFor (readSem p) .eof p s.members (fromBytes p s) where
  decls := List.nodup_nil
  body := by
    refine bodyFor_map (fun m hm => stmtFor h (h.known hb hm)) ?_ (by simp [fromBytes])
    have := hs.names s hb
    rw [List.nodup_iff_pairwise_ne, List.pairwise_map] at this
    refine this.imp ?_
    intro a b hne hm
    have : (.var (s.name ++ "_" ++ a.name) : Loc) = .var (s.name ++ "_" ++ b.name) := by
      unfold deserializer at hm
      cases hl : b.isList <;> rw [hl] at hm <;> simpa [RStmt.locs] using hm
    simp only [Loc.var.injEq] at this
    exact hne ((String.append_right_inj _).1 this)

theorem readString_at {b : Buf} (hb : b.length < 2 ^ 63) {pos : Nat} {len bs : List UInt8}
    (hat : At b pos (len ++ bs)) (hl : DecNum p.stringSize (.int bs.length) len)
    (ht : Short p bs) : readString p b pos = .ok (.str bs, pos + (len ++ bs).length) := by
  have e := takeNum_at (e := .eof) hat.left hl
  have hle := hat.le
  simp only [List.length_append] at hle
  rw [readString, readNum_native]
  simp only [e]
  rw [if_neg (by omega), if_neg (by omega)]
  simp only [Int.toNat_natCast, takeN_at hat.right]
  rw [if_pos (inRange_iff.2 ht)]
  simp only [List.length_append, Nat.add_assoc]

include h in
theorem completeness (hs : Supported p) {b : Buf} (hb : b.length < 2 ^ 63) :
    Completeness (readSem p) p (written.restrict (Short p)) b where
  num _ _ _ := .written
  text pos len bs s hat hn ht := by
    obtain ⟨⟨rfl, hv⟩, hsh⟩ := ht
    exact readString_at hb hat (.written hn) hsh
  enum e he i j hx := checkDeclared_declared h he hx
  count _ _ _ _ _ _ _ _ := by simp [readSem]
  whole s hm hw v bs pos hl hat := by
    obtain ⟨fs, rfl, hf⟩ := layout_struct h hm hl
    rw [isWhole_iff h hm] at hw
    have := readFixed_at h (A := written.restrict (Short p)) (fun _ _ _ => .written)
      (fun _ _ _ hx => hx) hs (mem_bodies_struct hm) ((simple_iff h (mem_bodies_struct hm)).1 hw) hf hat
    simpa [readSem, struct?_of_mem h.structsDistinct hm] using this

include h in
theorem read_eq (hs : Supported p) {d : Struct} (hd : d ∈ p.messages) (b : Buf) (pos : Nat) :
    read p d.name b pos = if p.simpleStruct d then readFixed p d b pos
      else readMessage (readSem p) (fromBytes p) p d.name b pos := by
  rw [read, message?_of_mem h.messagesDistinct hd]
  simp only [readOk_message h hs hd, Bool.not_true, Bool.false_eq_true, if_false]

include h in
theorem read_encoded (hs : Supported p) {m : String} {v : Val} {bs : List UInt8} {b : Buf} {pos : Nat}
    (he : EncMsg p m v bs) (ht : Texts (Short p) v) (hb : b.length < 2 ^ 63) (hat : At b pos bs) :
    read p m b pos = .ok (v, pos + bs.length) := by
  obtain ⟨d, fs, hd, rfl, rfl, hl⟩ := id he
  rw [read_eq h hs hd]
  split
  · rename_i hsim
    exact readFixed_at h (A := written) (fun _ _ _ => .written) (fun _ _ _ hx => hx) hs
      (mem_bodies_message hd) ((simple_iff h (mem_bodies_message hd)).1 hsim) hl hat
  · exact readMessage_encoded h (completeness h hs hb) (fun _ => funFor h hs) he ht hat

/-! ### Writing -/

/-- What storing bytes amounts to, with their number. -/
def stored (buf : Buf) (off : Nat) (bs : List UInt8) : Except Fail (Buf × Nat) :=
  (put buf off bs).map (·, bs.length)

/-- What storing bytes amounts to, with a position after them. -/
def reached (buf : Buf) (off start : Nat) (bs : List UInt8) : Except Fail (Buf × Nat) :=
  (put buf off bs).map (·, start + bs.length)

theorem put_length {buf buf' : Buf} {off : Nat} {bs : List UInt8} (hp : put buf off bs = .ok buf') :
    buf'.length = buf.length ∧ off + bs.length ≤ buf.length := by
  unfold put at hp
  split at hp
  · cases hp
    simp only [List.length_append, List.length_take, List.length_drop]
    omega
  · cases hp

theorem put_nil {buf : Buf} {off : Nat} (ho : off ≤ buf.length) : put buf off [] = .ok buf := by
  rw [put, if_pos (by simpa using ho)]
  simp

theorem put_append {buf : Buf} {off : Nat} {x y : List UInt8} :
    put buf off (x ++ y) = match put buf off x with
      | .error e => .error e
      | .ok buf' => put buf' (off + x.length) y := by
  unfold put
  by_cases hx : off + x.length ≤ buf.length
  · rw [if_pos hx]
    simp only
    have hlen : (buf.take off ++ x ++ buf.drop (off + x.length)).length = buf.length := by
      simp only [List.length_append, List.length_take, List.length_drop]; omega
    rw [hlen, List.length_append, ← Nat.add_assoc]
    by_cases hy : off + x.length + y.length ≤ buf.length
    · rw [if_pos hy, if_pos hy]
      have ht : (buf.take off).length = off := by rw [List.length_take]; omega
      congr 1
      have e1 : List.take (off + x.length) (buf.take off ++ x ++ buf.drop (off + x.length)) =
          buf.take off ++ x := by
        rw [List.take_left']; simp [ht]
      have e2 : List.drop (off + x.length + y.length)
          (buf.take off ++ x ++ buf.drop (off + x.length)) = buf.drop (off + x.length + y.length) := by
        rw [← List.drop_drop, List.drop_left' (by simp [ht]), List.drop_drop]
      rw [e1, e2]
      simp
    · rw [if_neg hy, if_neg hy]
  · rw [if_neg hx, if_neg (by rw [List.length_append]; omega)]

theorem writeNumber_enc {n : NumTy} {v : Val} {bs : List UInt8} (he : EncNum n v bs) (buf : Buf)
    (off : Nat) : writeNumber n buf off v = stored buf off bs := by
  rw [writeNumber, toLE_of_enc he, stored]
  simp only
  cases put buf off bs with
  | error e => rfl
  | ok b => simp only [Except.map, encNum_length he]

theorem intCast_enc {n : NumTy} {k : Nat} {bs : List UInt8} (he : EncNum n (.int k) bs) :
    intCast n k = .ok k := by
  rw [intCast, if_pos (inRange_iff.2 (intRange_of_dec (.written he)))]

theorem writeString_enc (hs : Supported p) {len bs : List UInt8}
    (he : EncNum p.stringSize (.int bs.length) len) (buf : Buf) (off : Nat) :
    writeString p buf off bs = stored buf off (len ++ bs) := by
  rw [hs.sizes] at he
  simp only [writeString, intCast_enc he, writeNumber_enc he, stored, put_append]
  cases hp : put buf off len with
  | error e => rfl
  | ok b =>
    simp only [Except.map]
    rw [← encNum_length he, List.length_append]
    cases put b (off + len.length) bs <;> rfl

include h in
theorem writeFixed_enc {off : Nat} : ∀ {ms : List Variable} {pre fs : List (String × Val)}
    {bs : List UInt8} {simple : Nat} {buf : Buf}, (∀ m ∈ ms, ∃ n : NumTy, m.vartype = n.name) →
    (∀ m ∈ ms, m.isList = false) → LayoutFields written p ms fs bs →
    ((pre ++ fs).map (·.1)).Nodup → off + simple ≤ buf.length →
    writeFixed p (pre ++ fs) off simple ms buf = reached buf (off + simple) simple bs
  | [], pre, _, _, simple, buf, _, _, .nil, _, ho => by
    rw [writeFixed, reached, put_nil ho]; rfl
  | m :: ms, pre, _, _, simple, buf, hm, hl, .one (v := v) (fs := fs) (a := x) (b := y) _ h1 h2, hnd, ho => by
    obtain ⟨n, hn⟩ := hm m (by simp)
    rw [hn] at h1
    have he : EncNum n v x := layout_num h h1
    have hsz : p.sizeOf m.vartype = x.length := by
      rw [hn]
      exact ((sizeOf_fixed h (scalar_known (.inl ⟨n, rfl⟩)) (varying_num h n)).2 written
        (fun _ _ _ hn => encNum_length hn) _ _ h1).symm
    have hlk : (pre ++ (m.name, v) :: fs).lookup m.name = some v := by
      rw [lookup_append_notMem]
      · simp
      · intro hmem
        rw [List.map_append, List.nodup_append] at hnd
        exact hnd.2.2 _ hmem _ (by simp) rfl
    simp only [writeFixed, hn, ofName?_name, hlk, writeNumber_enc he, stored, reached, put_append]
    cases hp : put buf (off + simple) x with
    | error e => rfl
    | ok buf' =>
      obtain ⟨hl1, hl2⟩ := put_length hp
      have := writeFixed_enc (off := off) (pre := pre ++ [(m.name, v)]) (simple := simple + x.length)
        (buf := buf') (fun x hx => hm x (by simp [hx])) (fun x hx => hl x (by simp [hx])) h2
        (by simpa using hnd) (by omega)
      rw [List.append_assoc, List.singleton_append] at this
      simp only [Except.map, ← hn, hsz, this, reached]
      rw [← Nat.add_assoc]
      cases put buf' (off + simple + x.length) y with
      | error e => rfl
      | ok b => simp [Nat.add_assoc]
  | m :: ms, _, _, _, _, _, _, hl, .list hl' _ _ _, _, _ => by
    rw [hl m (by simp)] at hl'; cases hl'

theorem reached_sub {buf : Buf} {off : Nat} {bs : List UInt8} :
    (match reached buf off off bs with
      | .error e => (.error e : Except Fail (Buf × Nat))
      | .ok (buf, last) => .ok (buf, last - off)) = stored buf off bs := by
  unfold reached stored
  cases put buf off bs <;> simp [Except.map]

theorem ok_length {buf buf' : Buf} {off k : Nat} {bs : List UInt8}
    (hp : stored buf off bs = .ok (buf', k)) :
    k = bs.length ∧ buf'.length = buf.length ∧ off + bs.length ≤ buf.length ∧
      put buf off bs = .ok buf' := by
  unfold stored at hp
  cases hput : put buf off bs with
  | error e => rw [hput] at hp; cases hp
  | ok b => rw [hput] at hp; cases hp; exact ⟨rfl, (put_length hput).1, (put_length hput).2, rfl⟩

mutual
theorem layoutWrite {p : Protocol} (h : Usable p) (hs : Supported p) :
    ∀ {t v bs}, Layout written p t v bs → ∀ {d fuel buf off}, fits p d t → d < fuel →
      off ≤ buf.length → writeValue p fuel t buf off v = stored buf off bs
  | _, _, _, .num (n := n) hn, d, fuel + 1, buf, off, hf, hd, ho => by
    simp only [writeValue, ofName?_name]
    exact writeNumber_enc hn buf off
  | _, _, _, .text h1 h2, d, fuel + 1, buf, off, hf, hd, ho => by
    obtain ⟨rfl, _⟩ := h2
    have : NumTy.ofName? "string" = none := rfl
    simp only [writeValue, this, if_pos]
    exact writeString_enc hs h1 buf off
  | _, _, _, .enum (e := e) he hx hn, d, fuel + 1, buf, off, hf, hd, ho => by
    obtain ⟨rfl, _⟩ := hx
    have hb := h.notBuiltin e.name (by simp [enumNames]; exact .inr (.inr ⟨e, he, rfl⟩))
    simp only [writeValue, ofName?_none hb.1, if_neg hb.2, enum?_of_mem h.enumsDistinct he]
    exact writeNumber_enc hn buf off
  | _, _, _, .struct (s := s) hm hfs, 0, fuel + 1, buf, off, hf, hd, ho => by
    have hf : p.struct? s.name = none := hf
    rw [struct?_of_mem h.structsDistinct hm] at hf
    cases hf
  | _, _, _, .struct (s := s) (fs := fs) hm hfs, d + 1, fuel + 1, buf, off, hf, hd, ho => by
    have hb := h.notBuiltin s.name (by simp [structNames]; exact .inl ⟨s, hm, rfl⟩)
    have hen : p.enum? s.name = none := enum?_none fun he => h.structEnum _ (List.mem_map_of_mem hm) he
    have hbd := mem_bodies_struct hm
    have hnd : (fs.map (·.1)).Nodup := by rw [layoutFields_names hfs]; exact hs.names s hbd
    simp only [writeValue, ofName?_none hb.1, if_neg hb.2, hen, struct?_of_mem h.structsDistinct hm]
    split
    · rename_i hsim
      have hv := (simple_iff h hbd).1 hsim
      have := writeFixed_enc h (off := off) (pre := []) (simple := 0) (buf := buf)
        (hs.numbers s hm hv).2 (fun m hm => (fixed_members h hs hbd hv hm).1) hfs (by simpa using hnd)
        (by simpa using ho)
      rw [List.nil_append] at this
      rw [this]
      simp [reached, stored]
    · have := fieldsWrite h hs hfs (pre := []) (buf := buf) (off := off) (by simpa using hnd)
        (hf s (struct?_of_mem h.structsDistinct hm)) (fuel := fuel) (by omega) ho
      rw [List.nil_append] at this
      rw [this]
      exact reached_sub
theorem itemsWrite {p : Protocol} (h : Usable p) (hs : Supported p) :
    ∀ {t vs bs}, LayoutItems written p t vs bs → ∀ {d fuel buf off}, fits p d t → d < fuel →
      off ≤ buf.length → writeItems (writeValue p fuel t) vs buf off = reached buf off off bs
  | _, _, _, .nil, d, fuel, buf, off, hf, hd, ho => by
    rw [writeItems, reached, put_nil ho]; rfl
  | _, _, _, .cons (a := x) (b := y) h1 h2, d, fuel, buf, off, hf, hd, ho => by
    simp only [writeItems, layoutWrite h hs h1 hf hd ho, reached, put_append]
    cases hp : put buf off x with
    | error e => simp [stored, hp, Except.map]
    | ok buf' =>
      obtain ⟨hl1, hl2⟩ := put_length hp
      simp only [stored, hp, Except.map]
      rw [itemsWrite h hs h2 hf hd (by omega), reached]
      cases put buf' (off + x.length) y with
      | error e => rfl
      | ok b => simp [Except.map, Nat.add_assoc]
theorem fieldsWrite {p : Protocol} (h : Usable p) (hs : Supported p) :
    ∀ {ms fs bs}, LayoutFields written p ms fs bs → ∀ {pre d fuel buf off},
      ((pre ++ fs).map (·.1)).Nodup → (∀ m ∈ ms, fits p d m.vartype) → d < fuel →
      off ≤ buf.length →
      writeMembers p (writeValue p fuel) (pre ++ fs) ms buf off = reached buf off off bs
  | _, _, _, .nil, pre, d, fuel, buf, off, hnd, hf, hd, ho => by
    rw [writeMembers, reached, put_nil ho]; rfl
  | _, _, _, .one (m := m) (v := v) (fs := fs) (a := x) (b := y) hl h1 h2, pre, d, fuel, buf, off, hnd, hf, hd, ho => by
    have hlk : (pre ++ (m.name, v) :: fs).lookup m.name = some v := by
      rw [lookup_append_notMem]
      · simp
      · intro hmem
        rw [List.map_append, List.nodup_append] at hnd
        exact hnd.2.2 _ hmem _ (by simp) rfl
    simp only [writeMembers, hlk, hl, Bool.false_eq_true, if_false,
      layoutWrite h hs h1 (hf m (by simp)) hd ho, reached, put_append]
    cases hp : put buf off x with
    | error e => simp [stored, hp, Except.map]
    | ok buf' =>
      obtain ⟨hl1, hl2⟩ := put_length hp
      simp only [stored, hp, Except.map]
      have := fieldsWrite h hs h2 (pre := pre ++ [(m.name, v)]) (buf := buf') (off := off + x.length)
        (by simpa using hnd) (fun m hm => hf m (by simp [hm])) hd (by omega)
      rw [List.append_assoc, List.singleton_append] at this
      rw [this, reached]
      cases put buf' (off + x.length) y with
      | error e => rfl
      | ok b => simp [Except.map, Nat.add_assoc]
  | _, _, _, .list (m := m) (vs := vs) (fs := fs) (len := len) (a := x) (b := y) hl hn h1 h2, pre, d, fuel, buf, off, hnd, hf, hd, ho => by
    have hlk : (pre ++ (m.name, Val.list vs) :: fs).lookup m.name = some (.list vs) := by
      rw [lookup_append_notMem]
      · simp
      · intro hmem
        rw [List.map_append, List.nodup_append] at hnd
        exact hnd.2.2 _ hmem _ (by simp) rfl
    have hlist : writeList p (writeValue p fuel m.vartype) buf off (.list vs) =
        stored buf off (len ++ x) := by
      simp only [writeList, intCast_enc hn, writeNumber_enc hn, stored, put_append]
      cases hp : put buf off len with
      | error e => rfl
      | ok buf' =>
        obtain ⟨hl1, hl2⟩ := put_length hp
        simp only [Except.map]
        rw [itemsWrite h hs h1 (hf m (by simp)) hd (by omega), reached]
        cases put buf' (off + len.length) x with
        | error e => rfl
        | ok b =>
          simp only [Except.map, List.length_append]
          congr 2; omega
    simp only [writeMembers, hlk, hl, if_true, hlist]
    rw [reached, put_append (x := len ++ x)]
    cases hp : put buf off (len ++ x) with
    | error e => simp [stored, hp, Except.map]
    | ok buf' =>
      obtain ⟨hl1, hl2⟩ := put_length hp
      simp only [stored, hp, Except.map]
      have := fieldsWrite h hs h2 (pre := pre ++ [(m.name, .list vs)]) (buf := buf')
        (off := off + (len ++ x).length)
        (by simpa using hnd) (fun m hm => hf m (by simp [hm])) hd (by omega)
      rw [List.append_assoc, List.singleton_append] at this
      rw [this, reached]
      cases put buf' (off + (len ++ x).length) y with
      | error e => rfl
      | ok b => simp [Except.map, Nat.add_assoc]
end

/-- The bytes of a message, with or without its identifier. -/
def tagged (tag : Bool) (i : Nat) (bs : List UInt8) : List UInt8 :=
  if tag then UInt8.ofNat (i + 1) :: bs else bs

include h in
theorem tag_enc {pre post : List Struct} {d : Struct} (e : p.messages = pre ++ d :: post) :
    EncNum .byte (.int (pre.length + 1)) [UInt8.ofNat (pre.length + 1)] := by
  have := h.messageCount
  have hlt : pre.length + 1 ≤ 255 := by
    rw [e] at this
    simp only [List.length_append, List.length_cons] at this
    omega
  have hr : IntRange .byte ((pre.length + 1 : Nat) : Int) := ⟨by omega, by omega⟩
  have := EncNum.int hr
  rw [← leBytes_eq] at this
  simp only [width, leBytes] at this
  rw [show (((pre.length + 1 : Nat) : Int) % 256).toNat = pre.length + 1 by omega] at this
  simpa using this

include h in
/-- Writing a message of the format into a buffer stores exactly its bytes, or fails because they do
not fit. -/
theorem writeBytes_enc (hs : Supported p) {pre post : List Struct} {d : Struct} {v : Val}
    {bs : List UInt8} (e : p.messages = pre ++ d :: post) (he : EncMsg p d.name v bs) (tag : Bool)
    {buf : Buf} {off : Nat} (ho : off ≤ buf.length) :
    writeBytes p d.name tag buf off v = stored buf off (tagged tag pre.length bs) := by
  obtain ⟨d', fs, hd', hn, rfl, hl⟩ := he
  have hd : d ∈ p.messages := by simp [e]
  cases mem_messages_unique h hd' hd hn
  have hnd : (fs.map (·.1)).Nodup := by
    rw [layoutFields_names hl]; exact hs.names _ (mem_bodies_message hd)
  have hw := fun {buf : Buf} {off : Nat} (ho : off ≤ buf.length) =>
    fieldsWrite h hs hl (pre := []) (d := p.structs.length) (fuel := depth p) (buf := buf) (off := off)
      (by simpa using hnd) (fun m _ => h.fits _) (by simp [depth]) ho
  simp only [List.nil_append] at hw
  simp only [writeBytes, message?_of_mem h.messagesDistinct hd, messageIndex_of_split h e]
  cases tag with
  | false =>
    simp only [writeTag, Bool.false_eq_true, if_false, hw ho, tagged]
    exact reached_sub
  | true =>
    have htag := tag_enc h e
    have hcons : UInt8.ofNat (pre.length + 1) :: bs = [UInt8.ofNat (pre.length + 1)] ++ bs := rfl
    simp only [writeTag, if_true, writeNumber_enc htag, tagged]
    rw [hcons, stored, stored, put_append]
    cases hp : put buf off [UInt8.ofNat (pre.length + 1)] with
    | error e => rfl
    | ok buf' =>
      obtain ⟨hl1, hl2⟩ := put_length hp
      simp only [List.length_singleton] at hl2
      simp only [Except.map, List.length_singleton]
      rw [hw (by omega), reached]
      cases put buf' (off + 1) bs with
      | error e => rfl
      | ok b =>
        simp only [Except.map, List.length_append, List.length_singleton]
        congr 2; omega

theorem put_exact {n : Nat} {bs : List UInt8} (hn : bs.length = n) :
    put (List.replicate n 0) 0 bs = .ok bs := by
  rw [put, if_pos (by simp [hn])]
  simp [hn]

include h in
theorem size_encoded (hs : Supported p) {m : String} {v : Val} {bs : List UInt8} (he : EncMsg p m v bs) :
    size p m v = .ok bs.length :=
  sizeMessage_encoded h (Z := fun _ => True) hs.names.members (measuresText_bytes rfl rfl)
    (fun _ _ hx => by cases hx) he (texts_true (fun _ => trivial) v)

include h in
theorem write_encoded (hs : Supported p) {pre post : List Struct} {d : Struct} {v : Val}
    {bs : List UInt8} (tag : Bool) (e : p.messages = pre ++ d :: post) (he : EncMsg p d.name v bs) :
    ∃ cs, write p d.name tag v = .ok cs ∧
      cs.flatten = if tag then UInt8.ofNat (pre.length + 1) :: bs else bs := by
  refine ⟨[tagged tag pre.length bs], ?_, by simp [tagged]⟩
  have hl : (tagged tag pre.length bs).length = bs.length + if tag then 1 else 0 := by
    cases tag <;> simp [tagged]
  simp only [write, size_encoded h hs he, writeBytes_enc h hs e he tag (Nat.zero_le _), stored]
  rw [put_exact hl]
  simp [Except.map]

/-! ### The laws -/

include h in
theorem defaultsFor : DefaultsFor p (default p) := by
  intro s hs m hm
  unfold default
  cases hl : m.isList with
  | true => simp
  | false =>
    simp only [Bool.false_eq_true, if_false]
    cases h.kind (h.types s hs m hm) with
    | num n e ne num enum struct => rw [num]; exact ⟨_, rfl, e ▸ .num n⟩
    | text e num => rw [num]; simp only; rw [if_pos e, e]; exact ⟨_, rfl, .text⟩
    | enum e mem name ne num enum =>
      rw [num]
      simp only
      rw [if_neg ne, enum]
      have := (h.enums e mem).nonempty
      cases hv : e.values with
      | nil => exact absurd hv this
      | cons x xs =>
        exact ⟨.entry x.2, by simp [hv], name ▸ DefaultFor.enum (x := x.1) mem (by rw [hv]; rfl)⟩
    | struct s mem name ne num enum struct =>
      rw [num]
      simp only
      rw [if_neg ne, enum]
      exact ⟨_, rfl, name ▸ .struct mem⟩

include h in
theorem processData_eq (hs : Supported p) (b : Buf) (pos : Nat) (max : Int) :
    processData p b pos max = processBytes (fun pos => decide (b.length ≤ pos))
      (taggedStep (takeTag .eof b) (dispatch p) (fun m pos => read p m b pos) .invalid) b pos max := by
  rw [processData, if_pos]
  rw [List.all_eq_true]
  exact fun s hm => readOk_message h hs hm

include h in
theorem step_reads (hs : Supported p) {b : Buf} (hb : b.length < 2 ^ 63) :
    StepReads (taggedStep (takeTag .eof b) (dispatch p) (fun m pos => read p m b pos) .invalid)
      p id (Texts (Short p)) b :=
  taggedStep_reads h (fun _ _ _ hat => takeTag_at hat)
    (fun _ _ _ e => messageArms_of_split e)
    (fun m v bs pos he ht hat => by rw [Val.mapNames_id]; exact read_encoded h hs he ht hb hat)

include h in
theorem writeAllInto_enc (hs : Supported p) {ms : List (String × Val)} {bs : List UInt8}
    (hst : Stream p ms bs) : ∀ {buf : Buf} {off : Nat}, off ≤ buf.length →
    writeAllInto p ms buf off = reached buf off off bs := by
  induction hst with
  | nil => intro buf off ho; rw [writeAllInto, reached, put_nil ho]; rfl
  | @cons pre post d v bs ms rest e he _ ih =>
    intro buf off ho
    simp only [writeAllInto, writeBytes_enc h hs e he true ho, reached]
    rw [put_append (x := UInt8.ofNat (pre.length + 1) :: bs)]
    simp only [stored, tagged, if_true]
    cases hp : put buf off (UInt8.ofNat (pre.length + 1) :: bs) with
    | error e => rfl
    | ok buf' =>
      obtain ⟨hl1, hl2⟩ := put_length hp
      simp only [Except.map]
      rw [ih (by omega), reached]
      cases put buf' (off + (UInt8.ofNat (pre.length + 1) :: bs).length) rest with
      | error e => rfl
      | ok b => simp [Except.map, Nat.add_assoc, Nat.add_comm 1]

theorem byte_enc (x : UInt8) : EncNum .byte (.int x.toNat) [x] := by
  have hr : IntRange .byte (x.toNat : Int) := ⟨by omega, by have := x.toNat_lt; omega⟩
  have := EncNum.int hr
  rw [← leBytes_eq] at this
  simp only [width, leBytes] at this
  rw [show ((x.toNat : Int) % 256).toNat = x.toNat by have := x.toNat_lt; omega] at this
  simpa using this

theorem writeLetters_enc : ∀ {xs : List UInt8} {buf : Buf} {off : Nat}, off ≤ buf.length →
    writeLetters xs buf off = reached buf off off xs
  | [], buf, off, ho => by rw [writeLetters, reached, put_nil ho]; rfl
  | x :: xs, buf, off, ho => by
    have hcons : x :: xs = [x] ++ xs := rfl
    simp only [writeLetters, writeNumber_enc (byte_enc x), reached]
    rw [hcons, put_append]
    simp only [stored]
    cases hp : put buf off [x] with
    | error e => rfl
    | ok buf' =>
      obtain ⟨hl1, hl2⟩ := put_length hp
      simp only [Except.map]
      rw [writeLetters_enc (by omega), reached]
      cases put buf' (off + [x].length) xs with
      | error e => rfl
      | ok b => simp [Except.map, Nat.add_comm, Nat.add_left_comm]

include h in
/-- Packing into a buffer stores exactly the packed bytes, or fails because they do not fit. -/
theorem packInto_enc (hs : Supported p) {ms : List (String × Val)} {bs : List UInt8}
    (hst : Stream p ms bs) (hn : ms.length < 2 ^ 32) (buf : Buf) :
    packInto p ms buf = put buf 0 (bsci ++ littleEndian 4 ms.length ++ bs ++ [0]) := by
  have hc := littleEndian4 ms.length hn
  have h0 : EncNum .byte (.int 0) [0] := byte_enc 0
  simp only [packInto, writeLetters_enc (Nat.zero_le _), reached, intCast_enc hc]
  rw [put_append, put_append, put_append]
  cases hp : put buf 0 bsci with
  | error e => rfl
  | ok buf1 =>
    obtain ⟨hl1, hl2⟩ := put_length hp
    simp only [Except.map, writeNumber_enc hc, stored]
    cases hp1 : put buf1 (0 + bsci.length) (littleEndian 4 ms.length) with
    | error e => rfl
    | ok buf2 =>
      obtain ⟨hl3, hl4⟩ := put_length hp1
      simp only
      rw [writeAllInto_enc h hs hst (by omega), reached, List.length_append, ← Nat.add_assoc]
      cases hp2 : put buf2 (0 + bsci.length + (littleEndian 4 ms.length).length) bs with
      | error e => rfl
      | ok buf3 =>
        simp only [Except.map, writeNumber_enc h0, stored, List.length_append, ← Nat.add_assoc]
        cases put buf3 (0 + bsci.length + (littleEndian 4 ms.length).length + bs.length) [0] <;> rfl

include h in
theorem pack_enc (hs : Supported p) {ms : List (String × Val)} {bs : List UInt8}
    (hst : Stream p ms bs) (hn : ms.length < 2 ^ 32) :
    pack p ms = .ok [bsci ++ littleEndian 4 ms.length ++ bs ++ [0]] := by
  have hz : packedSizeOf (size p) ms = .ok (bs.length + 9) := by
    have := packedSizeOf_stream (p := p) (f := id) (Q := fun _ => True) (size := size p)
      (fun m v bs he _ => by rw [Val.mapNames_id]; exact size_encoded h hs he) hst (fun _ _ => trivial)
    rwa [mapMsgs_id] at this
  simp only [pack, hz, packInto_enc h hs hst hn]
  rw [put_exact]
  · rfl
  · simp [bsci, littleEndian_length]; omega

include h in
theorem core_laws (hs : Supported p) :
    Laws (core p) p id (Short p) (fun _ => True) (2 ^ 63) := by
  have hK : Laws { core p with pack := packWith [bsci] (fun n => .ok (littleEndian 4 n)) (write p) } p id
      (Short p) (fun _ => True) (2 ^ 63) := by
    refine Laws.of_core (header := [bsci]) (count := fun n => .ok (littleEndian 4 n))
      (short := .crash) (countFail := .eof) (countTy := .uint32) (limit := limit)
      ?_ ?_ ?_ ?_ ?_ ?_ ?_ ?_ ?_ ?_ ?_ ?_ ?_ ?_ ?_
    · intro pre d post e
      simp [core, messageIndex_of_split h e]
    · intro pre d post e
      exact messageArms_of_split e
    · intro t ht _
      exact dispatch_unknown ht
    · intro pre d post v bs tag e he
      exact write_encoded h hs tag e he
    · intro m v bs b pos he ht hb hat
      exact read_encoded h hs he ht hb hat
    · intro m v bs he _
      exact size_encoded h hs he
    · intro d fs hd hf
      exact makeMessage_spec h (defaultsFor h) hd hf
    · refine ProcessLaws.rebase (process := processData p) ?_
      rw [show processData p = _ from funext fun b => funext fun pos => funext fun max =>
        processData_eq h hs b pos max]
      exact processLaws_of_steps (fun b hb => step_reads h hs hb)
        (finished := fun b pos => decide (b.length ≤ pos)) (fun b pos hp => by simpa using hp)
        (fun b pos hp => by left; simp [hp])
        (fun b pos hat => taggedStep_zero (fun _ _ _ hat => takeTag_at hat) hat)
    · intro ms; rfl
    · intro ms; rfl
    · rfl
    · intro n hn; rfl
    · intro b pos; rfl
    · intro n hn; exact .written (littleEndian4 n (by omega))
    · intro n _ hn; rw [limit, if_pos (by omega)]
  exact
    { ident := hK.ident
      dispatch := hK.dispatch
      unknown := hK.unknown
      write := hK.write
      tagged := hK.tagged
      read := hK.read
      size := hK.size
      processAll := hK.processAll
      processZero := hK.processZero
      processLimit := hK.processLimit
      packedSize := hK.packedSize
      pack := fun {ms bs} hst hn => by
        rw [mapMsgs_id]
        exact ⟨_, pack_enc h hs hst (by omega), by simp⟩
      unpack := hK.unpack
      create := hK.create }

include h in
/-- The generated Zig library satisfies the laws. -/
theorem laws (hs : Supported p) : Laws (library p) p id (Short p) (fun _ => True) (2 ^ 63) := by
  rw [library_eq h hs]; exact core_laws h hs

/-! ### Arbitrary data -/

theorem readString_ok {b : Buf} {pos pos' : Nat} {v : Val}
    (hr : readString p b pos = .ok (v, pos')) :
    ∃ len bs, v = .str bs ∧ At b pos (len ++ bs) ∧ pos' = pos + (len ++ bs).length ∧
      DecNum p.stringSize (.int bs.length) len := by
  rw [readString, readNum_native] at hr
  split at hr
  · cases hr
  · rename_i i q hq
    obtain ⟨len, h1, h2, h3⟩ := takeNum_ok hq
    split at hr
    · cases hr
    · split at hr
      · cases hr
      · split at hr
        · cases hr
        · rename_i bs q' ht
          split at hr
          · cases hr
            obtain ⟨h4, h5, h6⟩ := takeN_ok ht
            have hlen : (bs.length : Int) = i := by omega
            rw [h3] at h4
            refine ⟨len, bs, rfl, h1.append h4, ?_, by rw [hlen]; exact h2⟩
            rw [List.length_append]; omega
          · cases hr
  · cases hr

/-- Texts are taken as they are. -/
def asIs : Atoms := readableBy fun bs s => bs = s

include h in
theorem soundness (hs : Supported p) (b : Buf) : Soundness (readSem p) p asIs b where
  num _ _ _ hn := hn
  text pos v pos' _ hr := by
    obtain ⟨len, bs, rfl, h1, h2, h3⟩ := readString_ok hr
    exact ⟨len, bs, bs, rfl, h1, h2, h3, rfl⟩
  enum e he i v hv := checkDeclared_ok h he hv
  count i k hi hk := by
    simp only [readSem] at hk
    split at hk
    · cases hk
    · cases hk; omega
  whole s hm hw pos v pos' hp hr := by
    rw [isWhole_iff h hm] at hw
    simp only [readSem, struct?_of_mem h.structsDistinct hm] at hr
    obtain ⟨fs, bs, rfl, h1, h2, h3⟩ := readFixed_ok (B := asIs) h (fun _ _ _ hn => hn)
      (fun _ _ _ => decNum_length) (fun _ _ _ hd => hd) hs (mem_bodies_struct hm)
      ((simple_iff h (mem_bodies_struct hm)).1 hw) hp hr
    exact ⟨bs, .struct hm h1, h2, h3⟩

include h in
theorem polite {E : Fail → Prop} (he : E .eof) (hi : E .invalid) (hs : Supported p) (b : Buf)
    (hc : E .crash ∨ p.stringSize ∈ [NumTy.byte, .uint16, .uint32] ∧
      b.length < 2 ^ (8 * p.stringSize.size) - p.stringSize.size) : Polite (readSem p) p E b where
  text _ pos x hp hr := by
    simp only [readSem, readString, readNum_native] at hr
    split at hr
    · rename_i ht; cases hr; rw [takeNum_error ht]; exact he
    · rename_i i q hq
      obtain ⟨len, h1, h2, h3⟩ := takeNum_ok hq
      have hle := h1.le
      have hi' := intRange_of_dec h2
      have hlen := decNum_length h2
      split at hr
      · have := unsigned_nonneg hs.unsigned hi'; omega
      · split at hr
        · cases hr
          rcases hc with hc | ⟨hsz, hb⟩
          · exact hc
          · exfalso
            simp only [List.mem_cons, List.not_mem_nil, or_false] at hsz
            rcases hsz with e | e | e <;> rw [e] at hi' hb <;> simp only [IntRange] at hi' <;>
              simp only [NumTy.size] at hb <;> omega
        · split at hr
          · rename_i ht; cases hr; rw [(takeN_error ht).1]; exact he
          · rename_i bs q' ht
            split at hr
            · cases hr
            · rename_i hn
              cases hr
              rcases hc with hc | ⟨hsz, hb⟩
              · exact hc
              · exfalso
                obtain ⟨h4, h5, h6⟩ := takeN_ok ht
                have hle' := h4.le
                refine hn (inRange_iff.2 ?_)
                simp only [List.mem_cons, List.not_mem_nil, or_false] at hsz
                rcases hsz with e | e | e <;> rw [e] at hi' hb hlen ⊢ <;> simp only [IntRange] at hi' <;>
                  simp only [NumTy.size, IntRange] at hb hlen ⊢ <;> omega
    · rename_i r hne hr'
      obtain ⟨cnt, h3, h4, h5⟩ := takeNum_ok (v := r.1) (pos' := r.2) hr'
      obtain ⟨i, hi⟩ := dec_int (integral_of_integerType h.stringSize) h4
      exact absurd (Prod.ext hi rfl : r = (Val.int i, r.2)) (fun e => hne i r.2 e)
  textPos pos v pos' _ hr := by
    obtain ⟨len, bs, rfl, h1, h2, _⟩ := readString_ok hr
    have := h1.le
    omega
  enum e he i x hx := by rw [checkDeclared_error h he hx]; exact hi
  count i x hr hx := by
    simp only [readSem] at hx
    split at hx
    · have := unsigned_nonneg (hs.sizes ▸ hs.unsigned) hr; omega
    · cases hx
  whole s hm hw pos hp := by
    rw [isWhole_iff h hm] at hw
    have := readFixed_within h he hi hs (mem_bodies_struct hm)
      ((simple_iff h (mem_bodies_struct hm)).1 hw) hp
    simp only [readSem, struct?_of_mem h.structsDistinct hm]
    refine ⟨fun x hx => ?_, fun v q hx => ?_⟩ <;> rw [hx] at this <;> exact this

/-- The same library with a stream processed in place. -/
def inPlace (p : Protocol) : Library := { core p with process := processData p }

variable (hs : Supported p)
include h hs

theorem core_sound : ReadSound (core p) p id asIs (2 ^ 63) := by
  intro m b pos v pos' hp _ hr
  obtain ⟨d, hd, rfl⟩ : ∃ d ∈ p.messages, d.name = m := by
    simp only [core, read] at hr
    split at hr
    · cases hr
    · rename_i d hd
      exact ⟨d, message?_some hd⟩
  simp only [core] at hr
  rw [read_eq h hs hd] at hr
  split at hr
  · rename_i hsim
    obtain ⟨fs, bs, rfl, h1, h2, h3⟩ := readFixed_ok (B := asIs) h (fun _ _ _ hn => hn)
      (fun _ _ _ => decNum_length) (fun _ _ _ hd => hd) hs (mem_bodies_message hd)
      ((simple_iff h (mem_bodies_message hd)).1 hsim) hp hr
    exact ⟨.record fs, bs, (Val.mapNames_id _).symm, ⟨d, fs, hd, rfl, rfl, h1⟩, h2, h3⟩
  · obtain ⟨bs, h1, h2, h3⟩ := readMessage_sound h (soundness h hs b) (fun _ => funFor h hs) hp hr
    exact ⟨v, bs, (Val.mapNames_id v).symm, h1, h2, h3⟩

theorem sound : ReadSound (library p) p id asIs (2 ^ 63) := by
  rw [library_eq h hs]; exact core_sound h hs

section
variable {E : Fail → Prop} {lim : Nat} (he : E .eof) (hi : E .invalid)
  (hc : E .crash ∨ p.stringSize ∈ [NumTy.byte, .uint16, .uint32] ∧
    lim ≤ 2 ^ (8 * p.stringSize.size) - p.stringSize.size)
include he hi hc

theorem core_within : ReadWithin E (core p) p lim := by
  intro m b pos hm hp hb
  obtain ⟨d, hd, rfl⟩ := List.mem_map.1 hm
  simp only [core]
  rw [read_eq h hs hd]
  split
  · rename_i hsim
    exact readFixed_within h he hi hs (mem_bodies_message hd)
      ((simple_iff h (mem_bodies_message hd)).1 hsim) hp
  · exact readMessage_within h he (polite h he hi hs b (hc.imp id fun ⟨a, c⟩ => ⟨a, by omega⟩)) (fun _ => funFor h hs) hm hp

theorem within : ReadWithin E (library p) p lim := by
  rw [library_eq h hs]; exact core_within h hs he hi hc

theorem core_streamWithin : StreamWithin E (core p) lim :=
  StreamWithin.rebase (K := inPlace p) (fun _ _ _ => rfl) <|
    streamWithin_tagged (L := inPlace p) (tagFail := .eof) (unknown := .invalid)
    (finished := fun b pos => decide (b.length ≤ pos)) he hi
    (fun _ _ ht => dispatch_known ht) (fun b pos max => processData_eq h hs b pos max)
    (core_within h hs he hi hc)

theorem streamWithin : StreamWithin E (library p) lim := by
  rw [library_eq h hs]; exact core_streamWithin h hs he hi hc

omit hc in
theorem unpackFails (hc : E .crash) : UnpackFails E (library p) lim := by
  rw [library_eq h hs]
  refine unpackFails_with (short := .crash) (countFail := .eof) (countTy := .uint32)
    (limit := limit) hc he hi rfl (fun i e _ _ hx => ?_) (fun _ _ => rfl)
    (core_streamWithin h hs he hi (.inl hc))
  unfold limit at hx
  split at hx <;> cases hx
  exact hc
end

theorem streamRejects : StreamRejects (inPlace p) p (Short p) (2 ^ 63) :=
  streamRejects_tagged (L := inPlace p) (tagFail := .eof)
    (unknown := .invalid) (finished := fun b pos => decide (b.length ≤ pos))
    (fun b pos hp => by simpa using hp) (fun b pos max => processData_eq h hs b pos max)
    (fun _ hb => step_reads h hs hb)

theorem streamUnknown : StreamUnknown (library p) p (Short p) (2 ^ 63) := by
  rw [library_eq h hs]
  exact StreamUnknown.rebase (L := core p) (K := inPlace p) (fun _ _ _ => rfl) rfl
    (StreamRejects.unknown (streamRejects h hs))

theorem streamBroken : StreamBroken (library p) p (Short p) asIs (2 ^ 63) := by
  rw [library_eq h hs]
  exact StreamBroken.rebase (L := core p) (K := inPlace p) (fun _ _ _ => rfl) rfl
    (StreamRejects.broken (f := id) (streamRejects h hs) (core_sound h hs))

theorem unpackChecks : UnpackChecks (library p) (2 ^ 63) := by
  rw [library_eq h hs]
  exact unpackChecks_with (short := .crash) (countFail := .eof) (limit := limit)
    (proc := process p) (fun _ _ => rfl)

end
end Zig
end Beschi.Lang
