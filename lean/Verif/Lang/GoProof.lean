import Verif.Lang.Go
import Verif.Lang.CommonProof
/-
The Go backend satisfies the laws.
-/
namespace Beschi.Lang
open Spec

namespace Go

section
variable {p : Protocol} (h : Usable p)

theorem ofNative_native (n : NumTy) : ofNative (native n) = some n := by cases n <;> rfl

theorem Supported.names (hs : Supported p) : NamesDistinct p := fun s hb =>
  (List.nodup_append.1 (hs.distinct s hb)).1

theorem compiles_of (hs : Supported p) {s : Struct} (hb : s ∈ bodies p) : compiles p s = true := by
  simp only [compiles, Bool.and_eq_true, decide_eq_true_eq]
  exact ⟨⟨hs.package, hs.distinct s hb⟩, hs.locals s hb⟩

/-! ### Native reads -/

theorem nativePrim (n : NumTy) : PrimFor nativeSem .eof (native n) n := by
  intro b pos
  simp only [nativeSem, ofNative_native]

include h in
theorem nativeAtomFor {t : String} (hk : KnownType p t) :
    AtomFor nativeSem .eof p t (nativeAtom p t) := by
  unfold nativeAtom
  cases h.kind hk with
  | num n e ne num => subst e; rw [num]; exact .num (nativePrim n)
  | text e num => subst e; rw [num]; exact .text
  | enum e mem name ne num enum =>
    rw [num]
    simp only
    rw [if_neg ne, enum]
    subst name
    exact .enum mem (nativePrim _)
  | struct s mem name ne num enum =>
    rw [num]
    simp only
    rw [if_neg ne, enum]
    subst name
    exact .struct mem

include h in
theorem nativeFunsFor (hs : NamesDistinct p) :
    FunsFor nativeSem .eof p (fun s => (p.struct? s).map (nativeFun p)) := by
  refine funsFor_of_bodies h fun s hb => ⟨by simp [nativeFun], ?_⟩
  refine bodyFor_mem (fun m hm => ?_) (fun _ _ x hx => ?_) (hs s hb)
  · have := nativeAtomFor h (h.known hb hm)
    cases hl : m.isList with
    | true => exact .list hl (nativePrim _) this
    | false => exact .one hl this
  · rename_i m _
    cases hl : m.isList <;> rw [hl] at hx <;> simpa [RStmt.locs] using hx

/-- The same layout with text excluded. -/
def noText : Atoms where
  num := EncNum
  text _ _ := False
  enum := Declared

mutual
theorem layoutFixed : ∀ {t v bs}, Layout written p t v bs → ¬ Varying p t →
    Layout noText p t v bs
  | _, _, _, .num hn, _ => .num (A := noText) hn
  | _, _, _, .text _ _, hv => absurd .text hv
  | _, _, _, .enum h1 h2 h3, _ => .enum (A := noText) h1 h2 h3
  | _, _, _, .struct (s := s) hs hf, hv =>
    .struct hs (fieldsFixed hf fun _ hm => ⟨fun hl => hv (.list hs hm hl), fun hx => hv (.inside hs hm hx)⟩)
theorem fieldsFixed : ∀ {ms fs bs}, LayoutFields written p ms fs bs →
    (∀ m ∈ ms, ¬ m.isList = true ∧ ¬ Varying p m.vartype) → LayoutFields noText p ms fs bs
  | _, _, _, .nil, _ => .nil
  | _, _, _, .one hl h1 h2, hv =>
    .one hl (layoutFixed h1 (hv _ (by simp)).2) (fieldsFixed h2 fun m hm => hv m (by simp [hm]))
  | _, _, _, .list hl _ _ _, hv => absurd hl (hv _ (by simp)).1
end

theorem nativeComplete (b : Buf) : Completeness nativeSem p noText b where
  num _ _ _ hn := .written hn
  text _ _ _ _ _ _ ht := ht.elim
  enum _ _ i j hd := by rw [hd.1]; rfl
  count _ _ _ _ _ _ _ _ := by simp [nativeSem]

include h in
theorem settable_fixed (hs : Supported p) : ∀ {d fuel : Nat} {t : String}, KnownType p t → fits p d t →
    d < fuel → ¬ Varying p t → settable p fuel false t = true
  | d, 0, _, _, _, hd, _ => by omega
  | d, fuel + 1, t, hk, hf, hd, hv => by
    unfold settable
    cases h.kind hk with
    | num n e ne num => rw [num]; rfl
    | text e => subst e; exact absurd .text hv
    | enum e mem name ne num enum => rw [num, enum]; rfl
    | struct s mem name ne num enum struct =>
      rw [num, enum, struct]
      simp only [List.all_eq_true]
      intro m hm
      match d, hf with
      | 0, hf => rw [show p.struct? t = none from hf] at struct; cases struct
      | d + 1, hf =>
        have hv' : ¬ Varying p s.name := by rw [name]; exact hv
        obtain ⟨c, rest, e, h1, h2⟩ := hs.exported s mem hv' m hm
        have hex : exported m.name = true := by
          simp only [exported, e, List.head?_cons, Option.any_some, isUpperAZ, Bool.and_eq_true,
            decide_eq_true_eq]
          exact ⟨h1, h2⟩
        rw [hex]
        exact settable_fixed hs (h.known (mem_bodies_struct mem) hm) (hf s struct m hm) (by omega)
          (fun hx => hv' (.inside mem hm hx))

include h in
theorem readNative_at (hs : Supported p) {t : String} {v : Val} {bs : List UInt8} {b : Buf} {pos : Nat}
    (hk : KnownType p t) (hv : ¬ Varying p t) (hl : Layout written p t v bs) (hat : At b pos bs) :
    readNative p t b pos = .ok (v, pos + bs.length, none) := by
  have := Layout.read h (nativeComplete b) (nativeFunsFor h hs.names) (layoutFixed hl hv)
    (d := p.structs.length) (fuel := depth p) (h.fits t) (by simp [depth]) (nativeAtomFor h hk) hat
  rw [readNative, this]
  simp only
  rw [if_pos (settable_fixed h hs hk (h.fits t) (by simp [depth]) hv)]

/-! ### Reading what has been written -/

include h in
/-- Which read is chosen for a type. -/
theorem atom_cases {t : String} (hk : KnownType p t) :
    (t = "string" ∧ atom p t = .text) ∨
    (∃ e ∈ p.enums, e.name = t ∧ atom p t = .enum t) ∨
    (¬ Varying p t ∧ (∀ e ∈ p.enums, e.name ≠ t) ∧ atom p t = .native t) ∨
    (∃ s ∈ p.structs, s.name = t ∧ Varying p t ∧ atom p t = .call t) := by
  have hsp := simpleVar_spec h (v := ⟨"", t, false⟩) (listed := false) (.inl rfl) hk
  unfold atom
  cases h.kind hk with
  | num n e ne num enum =>
    refine .inr (.inr (.inl ?_))
    have hv : ¬ Varying p t := by rw [e]; exact varying_num h n
    rw [if_neg ne, enum]
    refine ⟨hv, fun x hx hn => num_ne_enum h hx (e ▸ hn.symm), ?_⟩
    simp [hsp.2.2 hv]
  | text e => exact .inl ⟨e, by rw [if_pos e]⟩
  | enum e mem name ne num enum =>
    exact .inr (.inl ⟨e, mem, name, by rw [if_neg ne, enum]; rfl⟩)
  | struct s mem name ne num enum =>
    rw [if_neg ne, enum]
    by_cases hv : Varying p t
    · refine .inr (.inr (.inr ⟨s, mem, name, hv, ?_⟩))
      have : p.simpleVar ⟨"", t, false⟩ false = false := by
        rw [Bool.eq_false_iff]; exact fun hx => hsp.2.1 hx hv
      simp [this]
    · refine .inr (.inr (.inl ⟨hv, fun x hx hn => enum_ne_struct h hx mem (hn.trans name.symm), ?_⟩))
      simp [hsp.2.2 hv]

theorem make_nat {k : Nat} (hk : k < 2 ^ 63) : make k = .ok k := by
  unfold make
  rw [if_neg (by omega)]
  simp

theorem readString_at {b : Buf} (hb : b.length < 2 ^ 63) {pos : Nat} {len bs : List UInt8}
    (hat : At b pos (len ++ bs)) (hl : DecNum p.stringSize (.int bs.length) len) :
    readString p b pos = .ok (.str bs, pos + (len ++ bs).length, none) := by
  have e := takeNum_at (e := .eof) hat.left hl
  have hle := hat.le
  simp only [List.length_append] at hle
  rw [readString]
  simp only [e]
  rw [make_nat (by omega)]
  simp only
  rw [takeN_at hat.right]
  simp [Nat.add_assoc]

theorem count_lt (h : Usable p) (hs : Supported p) {s : Struct} (hb : s ∈ bodies p) {m : Variable} (hm : m ∈ s.members)
    (hl : m.isList = true) {vs : List Val} {len bs : List UInt8}
    (hn : EncNum p.listSize (.int vs.length) len) (hi : LayoutItems written p m.vartype vs bs)
    (hbs : bs.length < 2 ^ 63) : vs.length < 2 ^ 63 := by
  by_cases hu : p.listSize = .uint64
  · have := LayoutItems.solid h written_dec (hs.elements hu s hb m hm hl) hi
    omega
  · have hr := intRange_of_dec (.written hn)
    have hty := h.listSize
    revert hr hu
    cases p.listSize <;> intro hu hr <;>
      first | exact (hr : False).elim | exact absurd rfl hu | (simp only [IntRange] at hr; omega)

section
variable {b : Buf}

mutual
theorem layoutRead (h : Usable p) (hs : Supported p) (hb : b.length < 2 ^ 63) :
    ∀ {t v bs}, Layout written p t v bs → KnownType p t → ∀ {d fuel pos}, fits p d t → d < fuel → At b pos bs →
      readAtom p b fuel (atom p t) pos = .ok (v, pos + bs.length, none)
  | _, _, _, _, _, _, 0, _, _, hd, _ => by omega
  | _, _, _, .num (n := n) hn, hk, d, fuel + 1, pos, hf, hd, hat => by
    rcases atom_cases h hk with ⟨e, _⟩ | ⟨e, he, hx, _⟩ | ⟨hv, _, ha⟩ | ⟨s, hsm, hx, _⟩
    · exact absurd e (name_ne_string n)
    · exact absurd hx.symm (num_ne_enum h he)
    · rw [ha]
      exact readNative_at h hs hk hv (.num (A := written) hn) hat
    · exact absurd hx.symm (num_ne_struct h hsm)
  | _, _, _, .text h1 h2, hk, d, fuel + 1, pos, hf, hd, hat => by
    obtain ⟨rfl, _⟩ := h2
    exact readString_at hb hat (.written h1)
  | _, _, _, .enum (e := e) he hx hn, hk, d, fuel + 1, pos, hf, hd, hat => by
    rcases atom_cases h hk with ⟨e', _⟩ | ⟨e', he', hx', ha⟩ | ⟨_, hne, ha⟩ | ⟨s, hsm, hx', _⟩
    · exact absurd e'.symm (text_ne_enum h he)
    · rw [ha]
      simp only [readAtom, readEnum, enum?_of_mem h.enumsDistinct he, takeNum_at hat (.written hn),
        checkDeclared_declared h he hx]
    · exact absurd rfl (hne e he)
    · exact absurd hx'.symm (enum_ne_struct h he hsm)
  | _, _, _, .struct (s := s) hsm hfs, hk, 0, fuel + 1, pos, hf, hd, hat => by
    have hf : p.struct? s.name = none := hf
    rw [struct?_of_mem h.structsDistinct hsm] at hf
    cases hf
  | _, _, _, .struct (s := s) hsm hfs, hk, d + 1, fuel + 1, pos, hf, hd, hat => by
    rcases atom_cases h hk with ⟨e', _⟩ | ⟨e', he', hx', ha⟩ | ⟨hv, hne, ha⟩ | ⟨s', _, _, _, ha⟩
    · exact absurd e'.symm (text_ne_struct h hsm)
    · exact absurd hx' (enum_ne_struct h he' hsm)
    · rw [ha]
      exact readNative_at h hs hk hv (.struct hsm hfs) hat
    · rw [ha]
      simp only [readAtom, struct?_of_mem h.structsDistinct hsm]
      rw [if_pos (compiles_of hs (mem_bodies_struct hsm)),
        fieldsRead h hs hb hfs (mem_bodies_struct hsm) (fun _ hm => hm)
          (hf _ (struct?_of_mem h.structsDistinct hsm)) (by omega) hat]
theorem itemsRead (h : Usable p) (hs : Supported p) (hb : b.length < 2 ^ 63) :
    ∀ {t vs bs}, LayoutItems written p t vs bs → KnownType p t → ∀ {d fuel pos}, fits p d t → d < fuel → At b pos bs →
      readItems (readAtom p b fuel (atom p t)) (zero p (depth p) t) vs.length pos = .ok (vs, pos + bs.length, none)
  | _, _, _, .nil, _, _, _, _, _, _, _ => rfl
  | _, _, _, .cons h1 h2, hk, d, fuel, pos, hf, hd, hat => by
    simp only [List.length_cons, readItems]
    rw [layoutRead h hs hb h1 hk hf hd hat.left]
    simp only
    rw [itemsRead h hs hb h2 hk hf hd hat.right]
    simp [Nat.add_assoc]
theorem fieldsRead (h : Usable p) (hs : Supported p) (hb : b.length < 2 ^ 63) :
    ∀ {ms fs bs}, LayoutFields written p ms fs bs → ∀ {s : Struct}, s ∈ bodies p →
      (∀ m ∈ ms, m ∈ s.members) → ∀ {d fuel pos}, (∀ m ∈ s.members, fits p d m.vartype) → d < fuel →
      At b pos bs →
      readBody p (readAtom p b fuel) b ms pos = .ok (fs, pos + bs.length, none)
  | _, _, _, .nil, _, _, _, _, _, _, _, _, _ => rfl
  | _, _, _, .one (m := m) hl h1 h2, s, hsb, hms, d, fuel, pos, hf, hd, hat => by
    simp only [readBody, readMember, hl, Bool.false_eq_true, if_false]
    rw [layoutRead h hs hb h1 (h.known hsb (hms m (by simp))) (hf m (hms m (by simp))) hd hat.left]
    simp only
    rw [fieldsRead h hs hb h2 hsb (fun m hm => hms m (by simp [hm])) hf hd hat.right]
    simp [Nat.add_assoc]
  | _, _, _, .list (m := m) hl hn h1 h2, s, hsb, hms, d, fuel, pos, hf, hd, hat => by
    have hle := hat.le
    simp only [List.length_append] at hle
    simp only [readBody, readMember, hl, if_true]
    rw [takeNum_at hat.left.left (.written hn)]
    simp only
    rw [make_nat (count_lt h hs hsb (hms m (by simp)) hl hn h1 (by omega))]
    simp only
    rw [itemsRead h hs hb h1 (h.known hsb (hms m (by simp))) (hf m (hms m (by simp))) hd
      hat.left.right]
    simp only
    have := hat.right
    rw [List.length_append, ← Nat.add_assoc] at this
    rw [fieldsRead h hs hb h2 hsb (fun m hm => hms m (by simp [hm])) hf hd this]
    simp [Nat.add_assoc]
end
end

include h in
theorem read_encoded (hs : Supported p) {m : String} {v : Val} {bs : List UInt8} {b : Buf} {pos : Nat}
    (he : EncMsg p m v bs) (hb : b.length < 2 ^ 63) (hat : At b pos bs) :
    read p m b pos = .ok (v, pos + bs.length) := by
  obtain ⟨d, fs, hd, rfl, rfl, hl⟩ := he
  rw [read, message?_of_mem h.messagesDistinct hd]
  simp only
  rw [if_pos (compiles_of hs (mem_bodies_message hd)),
    fieldsRead h hs hb hl (mem_bodies_message hd) (fun _ hm => hm) (d := p.structs.length)
      (fun m _ => h.fits _) (by simp [depth]) hat]

/-! ### Writing -/

theorem wprimFor (n : NumTy) : WPrimFor (writeSem p) written (native n) n := by
  intro v bs he
  simp only [writeSem, writeNum, ofNative_native, toLE_of_enc he]

include h in
theorem watomFor {t : String} (hk : KnownType p t) : WAtomFor (writeSem p) written p t (watom p t) := by
  unfold watom
  cases h.kind hk with
  | num n e ne num => subst e; rw [num]; exact .num (wprimFor n)
  | text e num => subst e; rw [num]; exact .text
  | enum e mem name ne num enum =>
    rw [num]
    simp only
    rw [if_neg ne, enum]
    subst name
    exact .enum mem (wprimFor _)
  | struct s mem name ne num enum =>
    rw [num]
    simp only
    rw [if_neg ne, enum]
    subst name
    exact .struct mem

include h in
theorem wfunFor (hs : Supported p) {s : Struct} (hb : s ∈ bodies p) :
    WFunFor (writeSem p) written p s.members (writeFun p s) := by
  have hd : (decls p s).Nodup := by rw [decls, if_pos (compiles_of hs hb)]; exact List.nodup_nil
  unfold writeFun
  split
  · rename_i hx
    rw [Bool.and_eq_true] at hx
    have hv := (simpleStruct_spec h (s := s) (fun v hv => h.known hb hv)).2.1 hx.2
    refine ⟨hd, hs.names s hb, ?_⟩
    simp only [nativeWrite]
    rw [List.forall₂_map_right_iff, List.forall₂_same]
    intro m hm
    refine .one ?_ (watomFor h (h.known hb hm))
    rw [Bool.eq_false_iff]
    exact fun hl => hv ⟨m, hm, .inl hl⟩
  · refine ⟨hd, hs.names s hb, ?_⟩
    simp only [writeBytes]
    rw [List.forall₂_map_right_iff, List.forall₂_same]
    intro m hm
    unfold serializer
    cases hl : m.isList with
    | true => exact .list hl (wprimFor _) (watomFor h (h.known hb hm))
    | false => exact .one hl (watomFor h (h.known hb hm))

theorem convert_range {n : NumTy} {i : Int} (hi : IntRange n i) : convert n i = i := by
  unfold convert
  cases n <;> first
    | exact (hi : False).elim
    | (simp only [IntRange] at hi; simp only [signed, NumTy.size, Bool.true_and, Bool.false_and]; norm_num; omega)

theorem writes : Writes (writeSem p) p written where
  text len bs s hn ht := by
    obtain ⟨rfl, hv⟩ := ht
    refine ⟨[len, bs], ?_, by simp⟩
    have := wprimFor (p := p) _ _ _ hn
    simp only [writeSem] at this
    simp [writeSem, convert_range (intRange_of_dec (.written hn)), this, bind, Except.bind, pure, Except.pure]
  count k len hn := by simp [writeSem, convert_range (intRange_of_dec (.written hn))]
  enum _ _ _ hd := hd.1
  loops k len _ := by simp [writeSem]

/-! ### Defaults -/

mutual
theorem zeroIs (h : Usable p) : ∀ {t v}, IsDefault p t v → p.enum? t = none →
    ∀ {d fuel k : Nat}, fits p d t → d < fuel → d ≤ k → (∀ s, p.struct? t = some s → hasEnums p k s = false) →
    v = zero p fuel t
  | _, _, _, _, _, 0, _, _, hd, _, _ => by omega
  | _, _, .num (n := n), _, _, _ + 1, _, _, _, _, _ => by simp [zero, ofName?_name]
  | _, _, .text, _, _, _ + 1, _, _, _, _, _ => by
    have : NumTy.ofName? "string" = none := by decide
    simp [zero, this]
  | _, _, .enum he _, hne, _, _ + 1, _, _, _, _, _ => by
    rw [enum?_of_mem h.enumsDistinct he] at hne; cases hne
  | _, _, .struct (s := s) hs hf, hne, 0, fuel + 1, k, hfit, hd, hk, hen => by
    have := struct?_of_mem h.structsDistinct hs
    rw [show p.struct? s.name = none from hfit] at this
    cases this
  | _, _, .struct (s := s) hs hf, hne, d + 1, fuel + 1, 0, hfit, hd, hk, hen => by omega
  | _, _, .struct (s := s) hs hf, hne, d + 1, fuel + 1, k + 1, hfit, hd, hk, hen => by
    have hst := struct?_of_mem h.structsDistinct hs
    have hnum : NumTy.ofName? s.name = none := by
      cases hq : NumTy.ofName? s.name with
      | none => rfl
      | some n => exact absurd (ofName?_some hq).symm (num_ne_struct h hs)
    have hstr : s.name ≠ "string" := fun e => text_ne_struct h hs e.symm
    have hen' := hen s hst
    simp only [hasEnums, List.any_eq_false] at hen'
    rw [zero, hnum]
    simp only
    rw [if_neg hstr, hne, hst]
    simp only
    congr 1
    refine zeroFields h hf (fun m hm => hfit s hst m hm) (by omega) (by omega : d ≤ k) ?_
    intro m hm
    have := hen' m hm
    split at this
    · exact absurd rfl this
    · rename_i hx
      refine ⟨by simpa using hx, fun s' hs' => ?_⟩
      rw [hs'] at this
      simpa using this
theorem zeroFields (h : Usable p) : ∀ {ms fs}, IsDefaultFields p ms fs →
    ∀ {d fuel k : Nat}, (∀ m ∈ ms, fits p d m.vartype) → d < fuel → d ≤ k →
    (∀ m ∈ ms, p.enum? m.vartype = none ∧ ∀ s, p.struct? m.vartype = some s → hasEnums p k s = false) →
    fs = ms.map fun m => (m.name, if m.isList then .list [] else zero p fuel m.vartype)
  | _, _, .nil, _, _, _, _, _, _, _ => rfl
  | _, _, .one (m := m) hl hd hr, d, fuel, k, hfit, hlt, hk, hen => by
    rw [List.map_cons, ← zeroFields h hr (fun m hm => hfit m (by simp [hm])) hlt hk
      (fun m hm => hen m (by simp [hm])), hl]
    simp only [Bool.false_eq_true, if_false]
    rw [← zeroIs h hd (hen m (by simp)).1 (hfit m (by simp)) hlt hk (hen m (by simp)).2]
  | _, _, .list (m := m) hl hr, d, fuel, k, hfit, hlt, hk, hen => by
    rw [List.map_cons, ← zeroFields h hr (fun m hm => hfit m (by simp [hm])) hlt hk
      (fun m hm => hen m (by simp [hm])), hl]
    simp
end

include h in
theorem defaultsFor : DefaultsFor' p (default p) := by
  intro s hs m hm
  unfold default
  cases hl : m.isList with
  | true => simp
  | false =>
    simp only [Bool.false_eq_true, if_false]
    have hz : (p.enum? m.vartype = none) →
        (∀ s, p.struct? m.vartype = some s → hasEnums p (depth p) s = false) →
        ∀ w, IsDefault p m.vartype w → w = zeroMember p m := by
      intro h1 h2 w hw
      rw [zeroMember, hl]
      simp only [Bool.false_eq_true, if_false]
      exact zeroIs h hw h1 (h.fits _) (by simp [depth]) (by simp [depth]) h2
    cases h.kind (h.types s hs m hm) with
    | num n e ne num enum struct =>
      rw [enum, struct]
      exact ⟨_, rfl, .inr ⟨_, rfl, hz enum (by rw [struct]; simp)⟩⟩
    | text e num enum struct =>
      rw [enum, struct]
      exact ⟨_, rfl, .inr ⟨_, rfl, hz enum (by rw [struct]; simp)⟩⟩
    | enum e mem name ne num enum =>
      rw [enum]
      have := (h.enums e mem).nonempty
      cases hv : e.values with
      | nil => exact absurd hv this
      | cons x xs =>
        exact ⟨.entry x.2, by simp [hv], .inl (name ▸ DefaultFor.enum (x := x.1) mem (by rw [hv]; rfl))⟩
    | struct s mem name ne num enum struct =>
      rw [enum, struct]
      simp only
      cases hh : hasEnums p (depth p) s with
      | true => exact ⟨_, by simp only [if_true], .inl (name ▸ DefaultFor.struct mem)⟩
      | false =>
        exact ⟨_, by simp only [Bool.false_eq_true, if_false], .inr ⟨_, rfl, hz enum (by rw [struct]; rintro _ ⟨⟩; exact hh)⟩⟩

/-! ### Streams -/

/-- The end of the data ends the stream, whether it is noticed before or after the identifier. -/
theorem process_eq (b : Buf) (pos : Nat) (max : Int) :
    process p b pos max = processBytes (fun pos => decide (b.length ≤ pos))
      (taggedStep (takeTag .eof b) (dispatch p) (fun m pos => read p m b pos) .invalid) b pos max := by
  unfold process processBytes
  split
  · rfl
  · generalize b.length + 2 - pos = fuel
    generalize ([] : List (String × Val)) = acc
    induction fuel generalizing acc pos with
    | zero => rfl
    | succ fuel ih =>
      unfold processLoop
      by_cases hp : b.length ≤ pos
      · have ht : takeTag .eof b pos = .error .eof := by
          rw [takeTag, List.getElem?_eq_none hp]
        rw [show decide (b.length ≤ pos) = true from decide_eq_true hp]
        simp only [step, ht, Bool.not_true, Bool.false_and, Bool.not_false, Bool.true_and]
        simp
      · have ht : takeTag .eof b pos = .ok ((b[pos]'(by omega)).toNat, pos + 1) := by
          rw [takeTag, List.getElem?_eq_getElem (by omega)]
        rw [show decide (b.length ≤ pos) = false from decide_eq_false hp]
        simp only [step, ht]
        split
        · split
          · rfl
          · rfl
          · exact ih _ _
        · rfl

include h in
theorem step_reads (hs : Supported p) {b : Buf} (hb : b.length < 2 ^ 63) :
    StepReads (taggedStep (takeTag .eof b) (dispatch p) (fun m pos => read p m b pos) .invalid) p id
      (Texts fun _ => True) b :=
  taggedStep_reads h (fun _ _ _ hat => takeTag_at hat)
    (fun _ _ _ e => messageArms_of_split e)
    (fun m v bs pos he _ hat => by rw [Val.mapNames_id]; exact read_encoded h hs he hb hat)

theorem dec_int32 {n : Nat} (hn : n < 2 ^ 31) : DecNum .int32 (.int n) (littleEndian 4 n) :=
  .written (.int (n := .int32) (by simp only [IntRange]; omega))

include h in
/-- The laws for a protocol whose members have been renamed. -/
theorem core_laws (hs : Supported p) :
    Laws (core p) p id (fun _ => True) (fun _ => True) (2 ^ 63) := by
  refine Laws.of_core (L := core p) (header := [bsci]) (count := fun n => .ok (leBytes 4 n))
    (short := .crash) (countFail := .eof) (countTy := .int32) (limit := .ok)
    ?_ ?_ ?_ ?_ ?_ ?_ ?_ ?_ ?_ ?_ ?_ ?_ ?_ ?_ ?_
  · intro pre d post e
    simp [core, messageIndex_of_split h e]
  · intro pre d post e
    exact messageArms_of_split e
  · intro t ht _
    exact dispatch_unknown ht
  · intro pre d post v bs tag e he
    exact writeMessage_encoded h writes (fun _ => wfunFor h hs) e he tag
  · intro m v bs b pos he _ hb hat
    exact read_encoded h hs he hb hat
  · intro m v bs he hz
    exact sizeMessage_encoded h hs.names.members (measuresText_bytes rfl rfl)
      (fun _ _ hx => by cases hx) he hz
  · intro d fs hd hf
    exact makeMessage_spec' h (defaultsFor h) hd hf
  · have := processLaws_of_steps (fun b hb => step_reads h hs hb)
      (finished := fun b pos => decide (b.length ≤ pos)) (fun b pos hp => by simpa using hp)
      (fun b pos hp => by left; simp [hp])
      (fun b pos hat => taggedStep_zero (fun _ _ _ hat => takeTag_at hat) hat)
    rw [show (core p).process = _ from
      funext fun b => funext fun pos => funext fun max => process_eq b pos max]
    exact this
  · intro ms; rfl
  · intro ms; rfl
  · rfl
  · intro n _; rw [leBytes_eq]
  · intro b pos; rfl
  · intro n hn; exact dec_int32 hn
  · intro n _ _; rfl

/-! ### Arbitrary data -/

/-- Either a value and a position that has not moved back nor beyond the data, with perhaps an error
in `E`, or a failure in `E`. -/
def WithinOutcome {α : Type} (E : Fail → Prop) (b : Buf) (pos : Nat) : Outcome α → Prop
  | .ok (_, q, x) => pos ≤ q ∧ q ≤ b.length ∧ ∀ e, x = some e → E e
  | .error x => E x

theorem small_nonneg {n : NumTy} (hn : n ∈ [NumTy.byte, .uint16, .uint32]) {i : Int} (hi : IntRange n i) :
    0 ≤ i ∧ i < 2 ^ 63 := by
  simp only [List.mem_cons, List.not_mem_nil, or_false] at hn
  rcases hn with rfl | rfl | rfl <;> simp only [IntRange] at hi <;> omega

theorem nativePolite {E : Fail → Prop}
    (hc : E .crash ∨ ¬ UsesText p ∧ p.listSize ∈ [NumTy.byte, .uint16, .uint32]) (b : Buf) :
    Polite nativeSem p E b where
  text hu _ _ _ hx := by
    cases hx
    rcases hc with hc | ⟨hc, _⟩
    · exact hc
    · exact absurd hu hc
  textPos _ _ _ _ hx := by cases hx
  enum _ _ _ _ hx := by cases hx
  count i x hi hx := by
    simp only [nativeSem] at hx
    split at hx
    · cases hx
      rcases hc with hc | ⟨_, hc⟩
      · exact hc
      · have := small_nonneg hc hi; omega
    · cases hx

section
variable {E : Fail → Prop} {b : Buf} (he : E .eof) (hi : E .invalid)
  (hc : E .crash ∨ ¬ UsesText p ∧ p.listSize ∈ [NumTy.byte, .uint16, .uint32])

include h he hc in
theorem readNative_within (hs : Supported p) {t : String} (hk : KnownType p t) (hv : ¬ Varying p t)
    {pos : Nat}
    (hp : pos ≤ b.length) : WithinOutcome E b pos (readNative p t b pos) := by
  have := readAtom_within h he (nativePolite hc b) (nativeFunsFor h hs.names) p.structs.length (depth p) t _
    (nativeAtomFor h hk) (fun ht => absurd (ht ▸ .text) hv) (h.fits t) (by simp [depth]) pos hp
  unfold readNative
  split
  · rename_i v q hq
    rw [hq] at this
    rw [if_pos (settable_fixed h hs hk (h.fits t) (by simp [depth]) hv)]
    exact ⟨this.1, this.2, by simp⟩
  · exact ⟨hp, Nat.le_refl _, by simpa using he⟩
  · rename_i x _ hq
    rw [hq] at this
    exact this

include h he hi in
theorem readEnum_within {e : Enum} (hm : e ∈ p.enums) {pos : Nat} (hp : pos ≤ b.length) :
    WithinOutcome E b pos (readEnum p e.name b pos) := by
  simp only [readEnum, enum?_of_mem h.enumsDistinct hm]
  split
  · exact ⟨hp, Nat.le_refl _, by simpa using he⟩
  · rename_i i q hq
    obtain ⟨bs, h1, _, h3⟩ := takeNum_ok hq
    have := h1.le
    split
    · exact ⟨by omega, by omega, by simp⟩
    · rename_i x hx
      rw [checkDeclared_error h hm hx]
      exact ⟨by omega, by omega, by simpa using hi⟩
  · rename_i r hne hr
    obtain ⟨bs, _, h2, _⟩ := takeNum_ok (v := r.1) (pos' := r.2) hr
    obtain ⟨i, hi⟩ := dec_int (GoodEnum.integral (h.enums e hm)) h2
    exact absurd (Prod.ext hi rfl : r = (Val.int i, r.2)) (fun e => hne i r.2 e)

theorem make_error {i : Int} {x : Fail} (hx : make i = .error x) : x = .crash := by
  unfold make at hx
  split at hx
  · cases hx; rfl
  · cases hx

include h hc in
theorem readString_within (hu : UsesText p) {pos : Nat} (hp : pos ≤ b.length) :
    WithinOutcome E b pos (readString p b pos) := by
  have hc : E .crash := hc.resolve_right fun h => h.1 hu
  unfold readString
  split
  · exact ⟨hp, Nat.le_refl _, by simp⟩
  · rename_i i q hq
    obtain ⟨bs, h1, _, h3⟩ := takeNum_ok hq
    have := h1.le
    split
    · rename_i hx; rw [make_error hx]; exact hc
    · split
      · rename_i hx; rw [(takeN_error hx).1]; exact hc
      · rename_i ht
        obtain ⟨h4, h5, h6⟩ := takeN_ok ht
        have := h4.le
        exact ⟨by omega, by omega, by simp⟩
  · rename_i r hne hr
    obtain ⟨bs, _, h2, _⟩ := takeNum_ok (v := r.1) (pos' := r.2) hr
    obtain ⟨i, hi⟩ := dec_int (integral_of_integerType h.stringSize) h2
    exact absurd (Prod.ext hi rfl : r = (Val.int i, r.2)) (fun e => hne i r.2 e)

theorem readItems_within {rd : Nat → Outcome Val} {z : Val}
    (hrd : ∀ pos, pos ≤ b.length → WithinOutcome E b pos (rd pos)) :
    ∀ k pos, pos ≤ b.length → WithinOutcome E b pos (readItems rd z k pos)
  | 0, pos, hp => ⟨Nat.le_refl _, hp, by simp⟩
  | k + 1, pos, hp => by
    have h1 := hrd pos hp
    unfold readItems
    split
    · rename_i hx; rw [hx] at h1; exact h1
    · rename_i hx; rw [hx] at h1; exact h1
    · rename_i v q hx
      rw [hx] at h1
      have h2 := readItems_within (z := z) hrd k q h1.2.1
      split
      · rename_i hy; rw [hy] at h2; exact h2
      · rename_i hy
        rw [hy] at h2
        exact ⟨Nat.le_trans h1.1 h2.1, h2.2.1, h2.2.2⟩

include h he hc in
theorem readMember_within {rd : GAtom → Nat → Outcome Val} {m : Variable}
    (hrd : ∀ pos, pos ≤ b.length → WithinOutcome E b pos (rd (atom p m.vartype) pos)) {pos : Nat}
    (hp : pos ≤ b.length) : WithinOutcome E b pos (readMember p rd b m pos) := by
  unfold readMember
  split
  · split
    · exact ⟨hp, Nat.le_refl _, by simpa using he⟩
    · rename_i i q hq
      obtain ⟨bs, h1, hi, h3⟩ := takeNum_ok hq
      have := h1.le
      split
      · rename_i hx
        rw [make_error hx]
        rcases hc with hc | ⟨_, hc⟩
        · exact hc
        · have := small_nonneg hc (intRange_of_dec hi)
          rw [make, if_neg (by omega)] at hx
          cases hx
      · rename_i k _
        have h2 := readItems_within (z := zero p (depth p) m.vartype) hrd k q (by omega)
        split
        · rename_i hx; rw [hx] at h2; exact h2
        · rename_i hx
          rw [hx] at h2
          exact ⟨by have := h2.1; omega, h2.2.1, h2.2.2⟩
    · rename_i r hne hr
      obtain ⟨bs, _, h2, _⟩ := takeNum_ok (v := r.1) (pos' := r.2) hr
      obtain ⟨i, hi⟩ := dec_int (integral_of_integerType h.listSize) h2
      exact absurd (Prod.ext hi rfl : r = (Val.int i, r.2)) (fun e => hne i r.2 e)
  · exact hrd pos hp

include h he hc in
theorem readBody_within {rd : GAtom → Nat → Outcome Val} : ∀ {ms : List Variable},
    (∀ m ∈ ms, ∀ pos, pos ≤ b.length → WithinOutcome E b pos (rd (atom p m.vartype) pos)) →
    ∀ {pos : Nat}, pos ≤ b.length → WithinOutcome E b pos (readBody p rd b ms pos)
  | [], _, pos, hp => ⟨Nat.le_refl _, hp, by simp⟩
  | m :: ms, hrd, pos, hp => by
    have h1 := readMember_within h he hc (hrd m (by simp)) hp
    unfold readBody
    split
    · rename_i hx; rw [hx] at h1; exact h1
    · rename_i hx; rw [hx] at h1; exact h1
    · rename_i v q hx
      rw [hx] at h1
      have h2 := readBody_within (ms := ms) (fun m hm => hrd m (by simp [hm])) h1.2.1
      split
      · rename_i hy; rw [hy] at h2; exact h2
      · rename_i hy
        rw [hy] at h2
        exact ⟨Nat.le_trans h1.1 h2.1, h2.2.1, h2.2.2⟩

include h he hi hc in
theorem readAtom_within (hs : Supported p) : ∀ (d fuel : Nat) (t : String), KnownType p t →
    (t = "string" → UsesText p) → fits p d t → d < fuel → ∀ pos, pos ≤ b.length →
    WithinOutcome E b pos (readAtom p b fuel (atom p t) pos) := by
  intro d fuel
  induction fuel generalizing d with
  | zero => intro t _ _ _ hd; omega
  | succ fuel ih =>
    intro t hk hu hf hd pos hp
    rcases atom_cases h hk with ⟨ht, ha⟩ | ⟨e, hm, hn, ha⟩ | ⟨hv, _, ha⟩ | ⟨s, hsm, hn, _, ha⟩ <;> rw [ha]
    · exact readString_within h hc (hu ht) hp
    · subst hn
      exact readEnum_within h he hi hm hp
    · exact readNative_within h he hc hs hk hv hp
    · subst hn
      have hst := struct?_of_mem h.structsDistinct hsm
      match d, hf with
      | 0, hf => rw [show p.struct? s.name = none from hf] at hst; cases hst
      | d + 1, hf =>
        have hb := mem_bodies_struct hsm
        simp only [readAtom, hst]
        rw [if_pos (compiles_of hs hb)]
        have := readBody_within h he hc (rd := readAtom p b fuel) (b := b) (ms := s.members)
          (fun m hm => ih d m.vartype (h.known hb hm) (fun ht => ⟨s, hb, m, hm, ht⟩)
            (hf s hst m hm) (by omega)) hp
        split
        · rename_i hx; rw [hx] at this; exact this
        · rename_i hx
          rw [hx] at this
          exact ⟨this.1, this.2.1, by simp⟩
end

include h in
theorem core_within (hs : Supported p) {E : Fail → Prop} {lim : Nat} (he : E .eof) (hi : E .invalid)
    (hc : E .crash ∨ ¬ UsesText p ∧ p.listSize ∈ [NumTy.byte, .uint16, .uint32]) : ReadWithin E (core p) p lim := by
  intro m b pos hm hp _
  obtain ⟨d, hd, rfl⟩ := List.mem_map.1 hm
  have hb := mem_bodies_message hd
  show Within E b pos (read p d.name b pos)
  rw [read, message?_of_mem h.messagesDistinct hd]
  simp only
  rw [if_pos (compiles_of hs hb)]
  have := readBody_within h he hc (rd := readAtom p b (depth p)) (b := b) (ms := d.members)
    (fun m hm => readAtom_within h he hi hc hs p.structs.length _ m.vartype (h.known hb hm)
      (fun ht => ⟨d, hb, m, hm, ht⟩) (h.fits _)
      (by simp [depth])) hp
  split
  · rename_i hx; rw [hx] at this; exact this
  · rename_i hx; rw [hx] at this; exact this.2.2 _ rfl
  · rename_i hx; rw [hx] at this; exact ⟨this.1, this.2.1⟩

/-! ### Data of fixed size -/

theorem nativeSound (b : Buf) : Soundness nativeSem p readableRaw b where
  num _ _ _ hn := hn
  text _ _ _ _ hx := by cases hx
  enum e _ i v hx := by cases hx; exact ⟨i, rfl, rfl⟩
  count i k _ hx := by
    simp only [nativeSem] at hx
    split at hx
    · cases hx
    · cases hx; omega

include h in
theorem readNative_sound (hs : NamesDistinct p) {t : String} (hk : KnownType p t) {b : Buf} {pos q : Nat}
    {v : Val} (hp : pos ≤ b.length) (hr : readNative p t b pos = .ok (v, q, none)) :
    ∃ bs, Layout readableRaw p t v bs ∧ At b pos bs ∧ q = pos + bs.length := by
  unfold readNative at hr
  split at hr
  · rename_i hq
    split at hr
    · cases hr
      exact readAtom_sound h (nativeSound b) (nativeFunsFor h hs) _ t _ (nativeAtomFor h hk) _ _ _ hp hq
    · cases hr
  · cases hr
  · cases hr

include h in
theorem readAtom_sound (hs : Supported p) {t : String} (hk : KnownType p t) (hv : ¬ Varying p t) {b : Buf}
    {fuel pos q : Nat} {v : Val} (hp : pos ≤ b.length)
    (hr : readAtom p b fuel (atom p t) pos = .ok (v, q, none)) :
    ∃ bs, Layout readableRaw p t v bs ∧ At b pos bs ∧ q = pos + bs.length := by
  cases fuel with
  | zero => cases hr
  | succ fuel =>
    rcases atom_cases h hk with ⟨rfl, _⟩ | ⟨e, hm, hn, ha⟩ | ⟨_, _, ha⟩ | ⟨_, _, _, hx, _⟩
    · exact absurd .text hv
    · subst hn
      rw [ha] at hr
      simp only [readAtom, readEnum, enum?_of_mem h.enumsDistinct hm] at hr
      split at hr
      · cases hr
      · rename_i i q' hq
        obtain ⟨bs, h1, h2, h3⟩ := takeNum_ok hq
        split at hr
        · rename_i v' hc
          cases hr
          obtain ⟨j, rfl, hj⟩ := checkDeclared_ok h hm hc
          exact ⟨bs, .enum (A := readableRaw) hm hj.1 h2, h1, h3⟩
        · cases hr
      · cases hr
    · rw [ha] at hr
      exact readNative_sound h hs.names hk hp hr
    · exact absurd hx hv

theorem readItems_sound {t : String} {rd : Nat → Outcome Val} {z : Val} {b : Buf}
    (hrd : ∀ pos v q, pos ≤ b.length → rd pos = .ok (v, q, none) →
      ∃ bs, Layout readableRaw p t v bs ∧ At b pos bs ∧ q = pos + bs.length) :
    ∀ k pos vs q, pos ≤ b.length → readItems rd z k pos = .ok (vs, q, none) →
      ∃ bs, LayoutItems readableRaw p t vs bs ∧ At b pos bs ∧ q = pos + bs.length ∧ vs.length = k
  | 0, pos, vs, q, hp, hr => by
    cases hr
    exact ⟨[], .nil, .nil hp, rfl, rfl⟩
  | k + 1, pos, vs, q, hp, hr => by
    unfold readItems at hr
    split at hr
    · cases hr
    · cases hr
    · rename_i v q' hx
      obtain ⟨bs, h1, h2, h3⟩ := hrd _ _ _ hp hx
      have := h2.le
      split at hr
      · cases hr
      · rename_i hy
        cases hr
        obtain ⟨cs, h4, h5, h6, h7⟩ := readItems_sound hrd k q' _ _ (by omega) hy
        rw [h3] at h5
        refine ⟨bs ++ cs, .cons h1 h4, h2.append h5, ?_, by simp [h7]⟩
        rw [List.length_append]; omega

theorem readMember_sound {rd : GAtom → Nat → Outcome Val} {m : Variable} {b : Buf}
    (hrd : ∀ pos v q, pos ≤ b.length → rd (atom p m.vartype) pos = .ok (v, q, none) →
      ∃ bs, Layout readableRaw p m.vartype v bs ∧ At b pos bs ∧ q = pos + bs.length)
    {pos q : Nat} {v : Val} (hp : pos ≤ b.length) (hr : readMember p rd b m pos = .ok (v, q, none)) :
    (m.isList = false ∧ ∃ bs, Layout readableRaw p m.vartype v bs ∧ At b pos bs ∧ q = pos + bs.length) ∨
    (m.isList = true ∧ ∃ vs len bs, v = .list vs ∧ DecNum p.listSize (.int vs.length) len ∧
      LayoutItems readableRaw p m.vartype vs bs ∧ At b pos (len ++ bs) ∧ q = pos + (len ++ bs).length) := by
  unfold readMember at hr
  split at hr
  · rename_i hl
    refine .inr ⟨hl, ?_⟩
    split at hr
    · cases hr
    · rename_i i q' hq
      obtain ⟨len, h1, h2, h3⟩ := takeNum_ok hq
      have := h1.le
      split at hr
      · cases hr
      · rename_i k hk
        split at hr
        · cases hr
        · rename_i vs _ _ hx
          cases hr
          obtain ⟨bs, h4, h5, h6, h7⟩ := readItems_sound hrd k q' _ _ (by omega) hx
          rw [h3] at h5
          refine ⟨vs, len, bs, rfl, ?_, h4, h1.append h5, by rw [List.length_append]; omega⟩
          unfold make at hk
          split at hk
          · cases hk
          · cases hk
            rwa [h7, Int.toNat_of_nonneg (by omega)]
    · cases hr
  · rename_i hl
    exact .inl ⟨by simpa using hl, hrd _ _ _ hp hr⟩

theorem readBody_sound {rd : GAtom → Nat → Outcome Val} {b : Buf} : ∀ {ms : List Variable},
    (∀ m ∈ ms, ∀ pos v q, pos ≤ b.length → rd (atom p m.vartype) pos = .ok (v, q, none) →
      ∃ bs, Layout readableRaw p m.vartype v bs ∧ At b pos bs ∧ q = pos + bs.length) →
    ∀ {pos q : Nat} {fs : List (String × Val)}, pos ≤ b.length →
    readBody p rd b ms pos = .ok (fs, q, none) →
    ∃ bs, LayoutFields readableRaw p ms fs bs ∧ At b pos bs ∧ q = pos + bs.length
  | [], _, pos, q, fs, hp, hr => by
    cases hr
    exact ⟨[], .nil, .nil hp, rfl⟩
  | m :: ms, hrd, pos, q, fs, hp, hr => by
    unfold readBody at hr
    split at hr
    · cases hr
    · cases hr
    · rename_i v q' hx
      have hm := readMember_sound (hrd m (by simp)) hp hx
      split at hr
      · cases hr
      · rename_i hy
        cases hr
        rcases hm with ⟨hl, bs, h1, h2, h3⟩ | ⟨hl, vs, len, bs, rfl, h0, h1, h2, h3⟩
        · have := h2.le
          obtain ⟨cs, h4, h5, h6⟩ := readBody_sound (fun m hm => hrd m (by simp [hm])) (by omega) hy
          rw [h3] at h5
          refine ⟨bs ++ cs, .one hl h1 h4, h2.append h5, ?_⟩
          rw [List.length_append]; omega
        · have := h2.le
          obtain ⟨cs, h4, h5, h6⟩ := readBody_sound (fun m hm => hrd m (by simp [hm])) (by omega) hy
          rw [h3] at h5
          refine ⟨len ++ bs ++ cs, .list (A := readableRaw) hl h0 h1 h4, h2.append h5, ?_⟩
          rw [List.length_append]; omega

include h in
/-- A message with members of fixed size and lists of such is read from its bytes only. -/
theorem core_sound (hs : Supported p) {d : Struct} (hd : d ∈ p.messages)
    (hv : ∀ m ∈ d.members, ¬ Varying p m.vartype) {b : Buf} {pos pos' : Nat} {v : Val}
    (hp : pos ≤ b.length) (hr : read p d.name b pos = .ok (v, pos')) :
    ∃ bs, DecMsg readableRaw p d.name v bs ∧ At b pos bs ∧ pos' = pos + bs.length := by
  have hb := mem_bodies_message hd
  rw [read, message?_of_mem h.messagesDistinct hd] at hr
  simp only at hr
  rw [if_pos (compiles_of hs hb)] at hr
  split at hr
  · cases hr
  · cases hr
  · rename_i fs q hx
    cases hr
    obtain ⟨bs, h1, h2, h3⟩ := readBody_sound (rd := readAtom p b (depth p))
      (fun m hm pos v q hp hr => readAtom_sound h hs (h.known hb hm) (hv m hm) hp hr) hp hx
    exact ⟨bs, ⟨d, fs, hd, rfl, rfl, h1⟩, h2, h3⟩

/-! ### Streams and packed buffers -/

include h in
theorem core_streamWithin (hs : Supported p) {E : Fail → Prop} {lim : Nat} (he : E .eof)
    (hi : E .invalid) (hc : E .crash ∨ ¬ UsesText p ∧ p.listSize ∈ [NumTy.byte, .uint16, .uint32]) :
    StreamWithin E (core p) lim :=
  streamWithin_tagged (L := core p) (tagFail := .eof) (unknown := .invalid)
    (finished := fun b pos => decide (b.length ≤ pos)) he hi
    (fun _ _ ht => dispatch_known ht) process_eq (core_within h hs he hi hc)

include h in
theorem core_streamRejects (hs : Supported p) : StreamRejects (core p) p (fun _ => True) (2 ^ 63) :=
  streamRejects_tagged (L := core p) (tagFail := .eof)
    (unknown := .invalid) (finished := fun b pos => decide (b.length ≤ pos))
    (fun b pos hp => by simpa using hp) process_eq
    (fun _ hb => step_reads h hs hb)

theorem core_unpackChecks : UnpackChecks (core p) (2 ^ 63) := by
  intro b pos ms _ hu
  obtain ⟨cnt, h1, h2⟩ := unpackWith_ok (short := .crash) (countFail := .eof) (countTy := .int32)
    (limit := .ok) (process := process p b) hu
  refine ⟨cnt, h1, ?_⟩
  cases h2 with
  | written h2 =>
    cases h2 with
    | int hr =>
      simp only [IntRange] at hr
      exact .written (.int (n := .uint32) (by simp only [IntRange]; omega))

include h in
theorem core_unpackFails (hs : Supported p) {E : Fail → Prop} {lim : Nat} (he : E .eof) (hi : E .invalid)
    (hc : E .crash) : UnpackFails E (core p) lim :=
  unpackFails_with (short := .crash) (countFail := .eof) (countTy := .int32)
    (limit := .ok) hc he hi rfl (fun _ _ _ _ hx => by cases hx) (fun _ _ => rfl)
    (core_streamWithin h hs he hi (.inl hc))

end

section
variable {p : Protocol} (h : Usable p) (noRename : Bool)
  (hs : Supported (p.rename (namer noRename)))
include h hs

/-- The generated Go library satisfies the laws. -/
theorem laws : Laws (library noRename p) p (namer noRename) (fun _ => True) (fun _ => True) (2 ^ 63) :=
  Laws.rename (core_laws (h.rename _) hs)

theorem within {E : Fail → Prop} {lim : Nat} (he : E .eof) (hi : E .invalid)
    (hc : E .crash ∨ ¬ UsesText p ∧ p.listSize ∈ [NumTy.byte, .uint16, .uint32]) :
    ReadWithin E (library noRename p) p lim :=
  ReadWithin.rename (core_within (h.rename _) hs he hi (hc.imp id fun ⟨a, b⟩ => ⟨fun hu => a hu.unrename, b⟩))

theorem streamWithin {E : Fail → Prop} {lim : Nat} (he : E .eof) (hi : E .invalid)
    (hc : E .crash ∨ ¬ UsesText p ∧ p.listSize ∈ [NumTy.byte, .uint16, .uint32]) :
    StreamWithin E (library noRename p) lim :=
  core_streamWithin (h.rename _) hs he hi (hc.imp id fun ⟨a, b⟩ => ⟨fun hu => a hu.unrename, b⟩)

theorem streamRejects : StreamRejects (library noRename p) p (fun _ => True) (2 ^ 63) :=
  StreamRejects.rename (core_streamRejects (h.rename _) hs)

omit h hs in
theorem unpackChecks : UnpackChecks (library noRename p) (2 ^ 63) :=
  core_unpackChecks

theorem unpackFails {E : Fail → Prop} {lim : Nat} (he : E .eof) (hi : E .invalid) (hc : E .crash) :
    UnpackFails E (library noRename p) lim :=
  core_unpackFails (h.rename _) hs he hi hc
end

end Go

end Beschi.Lang
