import Verif.Lang.CommonProof
import Verif.Spec.Shape
import Verif.Wire.Typed
/-
Generic lemmas about reading arbitrary data: the values that come out, and that what follows the data
read does not matter.
-/
namespace Beschi.Lang
open Spec

theorem isNum_of_dec {n : NumTy} {v : Val} {bs : List UInt8} (h : DecNum n v bs) : IsNum n v := by
  cases h with
  | written h => exact (isNum_iff).2 ⟨_, h⟩
  | truthy _ => exact .bool

/-! ### What is laid out as specified has the right shape -/

mutual
theorem Layout.shape {R : List UInt8 → List UInt8 → Prop} {p : Protocol} :
    ∀ {t v bs}, Layout (readableBy R) p t v bs → HasShape p t v
  | _, _, _, .num h => .num (isNum_of_dec h)
  | _, _, _, .text _ _ => .text
  | _, _, _, .enum he ⟨hj, _, hx⟩ _ => hj ▸ .enum he hx
  | _, _, _, .struct hs hf => .struct hs (LayoutFields.shape hf)
theorem LayoutItems.shape {R : List UInt8 → List UInt8 → Prop} {p : Protocol} :
    ∀ {t vs bs}, LayoutItems (readableBy R) p t vs bs → ItemsShape p t vs
  | _, _, _, .nil => .nil
  | _, _, _, .cons h1 h2 => .cons (Layout.shape h1) (LayoutItems.shape h2)
theorem LayoutFields.shape {R : List UInt8 → List UInt8 → Prop} {p : Protocol} :
    ∀ {ms fs bs}, LayoutFields (readableBy R) p ms fs bs → FieldsShape p ms fs
  | _, _, _, .nil => .nil
  | _, _, _, .one h1 h2 h3 => .one h1 (Layout.shape h2) (LayoutFields.shape h3)
  | _, _, _, .list h1 _ h2 h3 => .list h1 (LayoutItems.shape h2) (LayoutFields.shape h3)
end

/-- Whatever the library reads as a message has the right shape. -/
def ReadShaped (L : Library) (p : Protocol) (f : String → String) (lim : Nat) : Prop :=
  ∀ {m b pos v pos'}, pos ≤ b.length → b.length < lim → L.read m b pos = .ok (v, pos') →
    ∃ w, v = w.mapNames f ∧ MessageShape p m w

theorem ReadSound.shaped {L : Library} {p : Protocol} {f : String → String}
    {R : List UInt8 → List UInt8 → Prop} {lim : Nat} (h : ReadSound L p f (readableBy R) lim) :
    ReadShaped L p f lim := by
  intro m b pos v pos' hp hb hr
  obtain ⟨w, bs, rfl, ⟨d, fs, hd, rfl, rfl, hl⟩, _⟩ := h hp hb hr
  exact ⟨_, rfl, d, fs, hd, rfl, rfl, LayoutFields.shape hl⟩

theorem mapNames_num {f : String → String} {n : NumTy} {v : Val} (h : IsNum n v) : v.mapNames f = v := by
  cases h <;> rfl

mutual
theorem HasShape.unrename {f : String → String} {p : Protocol} :
    ∀ {t v}, HasShape (p.rename f) t v → ∃ w, v = w.mapNames f ∧ HasShape p t w
  | _, _, .num h => ⟨_, (mapNames_num h).symm, .num h⟩
  | _, _, .text => ⟨_, rfl, .text⟩
  | _, _, .enum he hx => ⟨_, rfl, .enum (p := p) he hx⟩
  | _, _, .struct hs hf => by
    obtain ⟨s0, h0, rfl⟩ := List.mem_map.1 hs
    obtain ⟨gs, rfl, hg⟩ := FieldsShape.unrename (f := f) (p := p) (ms := s0.members) rfl hf
    exact ⟨.record gs, rfl, .struct (s := s0) h0 hg⟩
theorem ItemsShape.unrename {f : String → String} {p : Protocol} :
    ∀ {t vs}, ItemsShape (p.rename f) t vs → ∃ ws, vs = mapNamesList f ws ∧ ItemsShape p t ws
  | _, _, .nil => ⟨[], rfl, .nil⟩
  | _, _, .cons h1 h2 => by
    obtain ⟨w, rfl, h3⟩ := HasShape.unrename h1
    obtain ⟨ws, rfl, h4⟩ := ItemsShape.unrename h2
    exact ⟨w :: ws, rfl, .cons h3 h4⟩
theorem FieldsShape.unrename {f : String → String} {p : Protocol} :
    ∀ {ms ms' fs}, ms' = ms.map (Variable.rename f) → FieldsShape (p.rename f) ms' fs →
      ∃ gs, fs = mapNamesFields f gs ∧ FieldsShape p ms gs
  | [], _, _, rfl, .nil => ⟨[], rfl, .nil⟩
  | m :: ms, _, _, he, .one h1 h2 h3 => by
    cases he
    obtain ⟨w, rfl, h4⟩ := HasShape.unrename h2
    obtain ⟨gs, rfl, h5⟩ := FieldsShape.unrename rfl h3
    exact ⟨(m.name, w) :: gs, rfl, .one h1 h4 h5⟩
  | m :: ms, _, _, he, .list h1 h2 h3 => by
    cases he
    obtain ⟨ws, rfl, h4⟩ := ItemsShape.unrename h2
    obtain ⟨gs, rfl, h5⟩ := FieldsShape.unrename rfl h3
    exact ⟨(m.name, .list ws) :: gs, rfl, .list h1 h4 h5⟩
end

theorem ReadShaped.rename {L : Library} {p : Protocol} {f : String → String} {lim : Nat}
    (h : ReadShaped L (p.rename f) id lim) : ReadShaped L p f lim := by
  intro m b pos v pos' hp hb hr
  obtain ⟨w, rfl, d, fs, hd, rfl, rfl, hf⟩ := h hp hb hr
  obtain ⟨d0, h0, rfl⟩ := List.mem_map.1 hd
  obtain ⟨gs, rfl, hg⟩ := FieldsShape.unrename (f := f) (p := p) (ms := d0.members) rfl hf
  exact ⟨.record gs, Val.mapNames_id _, d0, gs, h0, rfl, rfl, hg⟩

/-! ### The values that come out -/

/-- The runtime answers texts as texts, and declared enum values only. -/
structure Shapely (S : ReadSem) (p : Protocol) (b : Buf) : Prop where
  text : ∀ pos v pos', S.text b pos = .ok (v, pos') → ∃ s, v = .str s
  enum : ∀ e ∈ p.enums, ∀ i v, S.enum e.name i = .ok v → ∃ x j, v = .int j ∧ (x, j) ∈ e.values
  whole : ∀ s, S.isWhole s = false := by intro _; rfl

section
variable {S : ReadSem} {e : Fail} {p : Protocol} {fn : String → Option RFun} {b : Buf}

theorem readItems_shape {rd : Nat → Except Fail (Val × Nat)} {t : String}
    (hrd : ∀ pos v pos', rd pos = .ok (v, pos') → HasShape p t v) :
    ∀ k pos vs pos', readItems rd k pos = .ok (vs, pos') → ItemsShape p t vs
  | 0, pos, vs, pos', h => by cases h; exact .nil
  | k + 1, pos, vs, pos', h => by
    simp only [readItems, bind, Except.bind] at h
    split at h
    · cases h
    · rename_i r hr
      split at h
      · cases h
      · rename_i r' hr'
        cases h
        exact .cons (hrd _ _ _ hr) (readItems_shape hrd k _ _ _ hr')

theorem readMembers_shape {rd : RAtom → Nat → Except Fail (Val × Nat)}
    (hrd : ∀ t a, AtomFor S e p t a → ∀ pos v pos', rd a pos = .ok (v, pos') → HasShape p t v)
    {params : List Loc} {ms : List Variable} {sts : List RStmt} {rs : List (String × Loc)}
    (hb : BodyFor S e p params ms sts rs) :
    ∀ pos vs pos', readMembers S rd b pos sts = .ok (vs, pos') → FieldsShape p ms (zipNames ms vs) := by
  induction hb with
  | nil => intro pos vs pos' h; cases h; exact .nil
  | @cons m ms st sts dst rs hst _ _ hb ih =>
    intro pos vs pos' h
    cases hst with
    | one hl ha =>
      simp only [readMembers, bind, Except.bind] at h
      split at h
      · cases h
      · rename_i r hr
        split at h
        · cases h
        · rename_i r' hr'
          cases h
          exact .one hl (hrd _ _ ha _ _ _ hr) (ih _ _ _ hr')
    | list hl hp' ha =>
      simp only [readMembers, bind, Except.bind] at h
      split at h
      · cases h
      · split at h
        · cases h
        · split at h
          · cases h
          · split at h
            · cases h
            · rename_i q hq
              split at h
              · cases h
              · rename_i r' hr'
                cases h
                exact .list hl (readItems_shape (hrd _ _ ha) _ _ _ _ hq) (ih _ _ _ hr')

theorem readAtom_shape (hS : Shapely S p b) (hF : FunsFor S e p fn) :
    ∀ fuel t a, AtomFor S e p t a → ∀ pos v pos', readAtom S fn b fuel a pos = .ok (v, pos') →
      HasShape p t v
  | 0, t, a, ha, pos, v, pos', hr => by cases hr
  | fuel + 1, t, a, ha, pos, v, pos', hr => by
    cases ha with
    | num hpr =>
      simp only [readAtom] at hr
      rw [hpr] at hr
      obtain ⟨bs, h1, h2, h3⟩ := takeNum_ok hr
      exact .num (isNum_of_dec h2)
    | text =>
      obtain ⟨s, rfl⟩ := hS.text _ _ _ hr
      exact .text
    | enum he hpr =>
      simp only [readAtom, bind, Except.bind] at hr
      split at hr
      · cases hr
      · split at hr
        · cases hr
        · split at hr
          · cases hr
          · rename_i w hw
            cases hr
            obtain ⟨x, j, rfl, hx⟩ := hS.enum _ he _ _ hw
            exact .enum he hx
    | struct hs =>
      obtain ⟨f, hfn, hff⟩ := hF _ hs
      simp only [readAtom, hfn] at hr
      rw [runFun_eq hff] at hr
      split at hr
      · cases hr
      · rename_i vs q hq
        cases hr
        exact .struct hs (readMembers_shape (readAtom_shape hS hF fuel) hff.body _ _ _ hq)
    | whole hs hw => rw [hS.whole] at hw; cases hw

/-! ### What follows does not matter -/

/-- Texts that are read are read in the same way if more data follows. -/
def TextLocal (S : ReadSem) : Prop := ∀ b ext pos v pos', pos ≤ b.length →
  S.text b pos = .ok (v, pos') → pos' ≤ b.length ∧ S.text (b ++ ext) pos = .ok (v, pos')

variable {ext : Buf}

theorem takeNum_local {n : NumTy} {pos pos' : Nat} {v : Val} (h : takeNum e n b pos = .ok (v, pos')) :
    pos' ≤ b.length ∧ takeNum e n (b ++ ext) pos = .ok (v, pos') := by
  obtain ⟨bs, h1, h2, h3⟩ := takeNum_ok h
  have hle := h1.le
  refine ⟨by omega, ?_⟩
  obtain ⟨pre, rest, rfl, rfl⟩ := h1
  have hat : At (pre ++ (bs ++ rest) ++ ext) pre.length bs := ⟨pre, rest ++ ext, by simp, rfl⟩
  rw [takeNum_at hat h2, h3]

theorem readItems_local {rd rd' : Nat → Except Fail (Val × Nat)}
    (hrd : ∀ pos v pos', pos ≤ b.length → rd pos = .ok (v, pos') →
      pos' ≤ b.length ∧ rd' pos = .ok (v, pos')) :
    ∀ k pos vs pos', pos ≤ b.length → readItems rd k pos = .ok (vs, pos') →
      pos' ≤ b.length ∧ readItems rd' k pos = .ok (vs, pos')
  | 0, pos, vs, pos', hp, h => by cases h; exact ⟨hp, rfl⟩
  | k + 1, pos, vs, pos', hp, h => by
    simp only [readItems, bind, Except.bind] at h
    split at h
    · cases h
    · rename_i r hr
      split at h
      · cases h
      · rename_i r' hr'
        cases h
        obtain ⟨h1, h2⟩ := hrd _ _ _ hp hr
        obtain ⟨h3, h4⟩ := readItems_local hrd k _ _ _ h1 hr'
        exact ⟨h3, by simp [readItems, bind, Except.bind, pure, Except.pure, h2, h4]⟩

theorem readMembers_local {rd rd' : RAtom → Nat → Except Fail (Val × Nat)} {params : List Loc}
    {ms : List Variable} {sts : List RStmt} {rs : List (String × Loc)} (hb : BodyFor S e p params ms sts rs) :
    (∀ m ∈ ms, ∀ a, AtomFor S e p m.vartype a → ∀ pos v pos', pos ≤ b.length →
      rd a pos = .ok (v, pos') → pos' ≤ b.length ∧ rd' a pos = .ok (v, pos')) →
    ∀ pos vs pos', pos ≤ b.length → readMembers S rd b pos sts = .ok (vs, pos') →
      pos' ≤ b.length ∧ readMembers S rd' (b ++ ext) pos sts = .ok (vs, pos') := by
  induction hb with
  | nil => intro _ pos vs pos' hp h; cases h; exact ⟨hp, rfl⟩
  | @cons m ms st sts dst rs hst _ _ hb ih =>
    intro hrd pos vs pos' hp h
    have ih := ih (fun m hm => hrd m (by simp [hm]))
    have hrd := hrd m (by simp)
    cases hst with
    | one hl ha =>
      simp only [readMembers, bind, Except.bind] at h
      split at h
      · cases h
      · rename_i r hr
        split at h
        · cases h
        · rename_i r' hr'
          cases h
          obtain ⟨h1, h2⟩ := hrd _ ha _ _ _ hp hr
          obtain ⟨h3, h4⟩ := ih _ _ _ h1 hr'
          exact ⟨h3, by simp [readMembers, bind, Except.bind, pure, Except.pure, h2, h4]⟩
    | list hl hp' ha =>
      simp only [readMembers, bind, Except.bind] at h
      split at h
      · cases h
      · rename_i r hr
        split at h
        · cases h
        · rename_i i hi
          split at h
          · cases h
          · rename_i k hk
            split at h
            · cases h
            · rename_i q hq
              split at h
              · cases h
              · rename_i r' hr'
                cases h
                rw [hp'] at hr
                obtain ⟨h0, h0'⟩ := takeNum_local (ext := ext) hr
                obtain ⟨h1, h2⟩ := readItems_local (hrd _ ha) _ _ _ _ h0 hq
                obtain ⟨h3, h4⟩ := ih _ _ _ h1 hr'
                refine ⟨h3, ?_⟩
                simp only [readMembers, bind, Except.bind]
                rw [hp', h0']
                simp [hi, hk, h2, h4, pure, Except.pure]

theorem readAtom_local (hW : ∀ s, S.isWhole s = false) (hF : FunsFor S e p fn) :
    ∀ fuel t a, (HasText p t → TextLocal S) → AtomFor S e p t a → ∀ pos v pos', pos ≤ b.length →
      readAtom S fn b fuel a pos = .ok (v, pos') →
      pos' ≤ b.length ∧ readAtom S fn (b ++ ext) fuel a pos = .ok (v, pos')
  | 0, t, a, _, ha, pos, v, pos', hp, hr => by cases hr
  | fuel + 1, t, a, ht, ha, pos, v, pos', hp, hr => by
    cases ha with
    | num hpr =>
      simp only [readAtom] at hr ⊢
      rw [hpr] at hr ⊢
      exact takeNum_local hr
    | text => exact ht .text _ _ _ _ _ hp hr
    | enum he hpr =>
      simp only [readAtom, bind, Except.bind] at hr ⊢
      rw [hpr] at hr ⊢
      split at hr
      · cases hr
      · rename_i r hn
        obtain ⟨h1, h2⟩ := takeNum_local (ext := ext) hn
        rw [h2]
        split at hr
        · cases hr
        · rename_i hi
          split at hr
          · cases hr
          · rename_i hv
            cases hr
            exact ⟨h1, by simp only [hi, hv]; rfl⟩
    | @struct s hs =>
      obtain ⟨f, hfn, hff⟩ := hF _ hs
      simp only [readAtom, hfn] at hr ⊢
      rw [runFun_eq hff] at hr ⊢
      split at hr
      · cases hr
      · rename_i vs q hq
        cases hr
        obtain ⟨h1, h2⟩ := readMembers_local (ext := ext) hff.body
          (fun m hm a ha => readAtom_local hW hF fuel m.vartype a (fun hx => ht (.inside hs hm hx)) ha)
          _ _ _ hp hq
        rw [h2]
        exact ⟨h1, rfl⟩
    | whole hs hw => rw [hW] at hw; cases hw
end

/-- What the library reads as a message `m` is read in the same way if more data follows. -/
def ReadLocal (L : Library) (m : String) : Prop := ∀ b ext pos v pos', pos ≤ b.length →
  L.read m b pos = .ok (v, pos') → pos' ≤ b.length ∧ L.read m (b ++ ext) pos = .ok (v, pos')

section
variable {S : ReadSem} {e : Fail} {p : Protocol} {fn : Struct → RFun} (h : Usable p)
include h

theorem readMessage_shape (hS : ∀ b, Shapely S p b) (hF : ∀ s ∈ bodies p, FunFor S e p s.members (fn s))
    {m : String} {b : Buf} {pos pos' : Nat} {v : Val} (hr : readMessage S fn p m b pos = .ok (v, pos')) :
    MessageShape p m v := by
  obtain ⟨d, hd, rfl, hr'⟩ := readMessage_known hr
  have hff := hF d (mem_bodies_message hd)
  rw [runFun_eq hff] at hr'
  split at hr'
  · cases hr'
  · rename_i vs q hq
    cases hr'
    exact ⟨d, _, hd, rfl, rfl, readMembers_shape (readAtom_shape (hS b) (funsFor_of_bodies h hF) _)
      hff.body _ _ _ hq⟩

theorem readMessage_local (hW : ∀ s, S.isWhole s = false)
    (hF : ∀ s ∈ bodies p, FunFor S e p s.members (fn s)) {d : Struct} (hd : d ∈ p.messages)
    (ht : ∀ m ∈ d.members, HasText p m.vartype → TextLocal S) {b ext : Buf} {pos pos' : Nat} {v : Val}
    (hp : pos ≤ b.length) (hr : readMessage S fn p d.name b pos = .ok (v, pos')) :
    pos' ≤ b.length ∧ readMessage S fn p d.name (b ++ ext) pos = .ok (v, pos') := by
  have hff := hF d (mem_bodies_message hd)
  rw [readMessage, message?_of_mem h.messagesDistinct hd] at hr ⊢
  simp only at hr ⊢
  rw [runFun_eq hff] at hr ⊢
  split at hr
  · cases hr
  · rename_i vs q hq
    cases hr
    obtain ⟨h1, h2⟩ := readMembers_local (ext := ext) hff.body (fun m hm a ha =>
      readAtom_local hW (funsFor_of_bodies h hF) (depth p) m.vartype a (ht m hm) ha) _ _ _ hp hq
    rw [h2]
    exact ⟨h1, rfl⟩
end

/-- If more data does not matter, the bytes of a message cut off before their end cannot be read. -/
theorem ReadLocal.truncated {L : Library} {p : Protocol} {f : String → String} {T Z : List UInt8 → Prop}
    {lim least : Nat} (hL : Laws L p f T Z lim least) {m : String} (h : ReadLocal L m) {v : Val}
    {pre bs : List UInt8} {x : UInt8} {rest : List UInt8} (he : EncMsg p m v (bs ++ x :: rest))
    (ht : Texts T v) (hb : (pre ++ (bs ++ x :: rest)).length < lim) :
    ∃ e, L.read m (pre ++ bs) pre.length = .error e := by
  cases hr : L.read m (pre ++ bs) pre.length with
  | error e => exact ⟨e, rfl⟩
  | ok r =>
    obtain ⟨h1, h2⟩ := h _ (x :: rest) _ r.1 r.2 (by simp) hr
    have h3 := hL.read he ht (b := pre ++ bs ++ x :: rest) (pos := pre.length)
      (by simpa using hb) ⟨pre, [], by simp, rfl⟩
    rw [h2] at h3
    injection h3 with h3
    have := congrArg Prod.snd h3
    simp only [List.length_append, List.length_cons] at this h1
    omega

/-! ### Undeclared values are refused -/

/-- The runtime uses up the right number of bytes for what is laid out as specified, undeclared enum
values apart, and refuses these. -/
structure Strict (S : ReadSem) (p : Protocol) (b : Buf) : Prop where
  text : ∀ pos len bs v pos', At b pos (len ++ bs) → DecNum p.stringSize (.int bs.length) len →
    S.text b pos = .ok (v, pos') → pos' = pos + (len ++ bs).length
  enum : ∀ e ∈ p.enums, ∀ i v, S.enum e.name i = .ok v → ∃ x, (x, i) ∈ e.values
  count : ∀ (n : Nat) k, IntRange p.listSize n → S.count n = .ok k → k = n
  whole : ∀ s, S.isWhole s = false := by intro _; rfl

/-- Text as it is, declared enum values only. -/
def verbatim : Atoms := readableBy fun bs s => bs = s

theorem verbatim_le_raw : Spec.Atoms.Le verbatim readableRaw :=
  ⟨fun _ _ _ h => h, fun _ _ h => h, fun _ _ _ h => h.1⟩

section
variable {S : ReadSem} {e : Fail} {p : Protocol} {fn : String → Option RFun} {b : Buf}

mutual
theorem Layout.strict (h : Usable p) (hS : Strict S p b) (hF : FunsFor S e p fn) :
    ∀ {t w bs}, Layout readableRaw p t w bs → ∀ {fuel a pos v pos'}, AtomFor S e p t a → At b pos bs →
      readAtom S fn b fuel a pos = .ok (v, pos') → pos' = pos + bs.length ∧ Layout verbatim p t w bs
  | _, _, _, _, 0, a, pos, v, pos', ha, hat, hr => by cases hr
  | _, _, _, .num hn, fuel + 1, a, pos, v, pos', ha, hat, hr => by
    obtain ⟨prim, rfl, hp⟩ := atomFor_num h ha
    simp only [readAtom] at hr
    rw [hp, takeNum_at hat hn] at hr
    cases hr
    exact ⟨rfl, .num (A := verbatim) hn⟩
  | _, _, _, .text h1 h2, fuel + 1, a, pos, v, pos', ha, hat, hr => by
    cases atomFor_text h ha
    exact ⟨hS.text _ _ _ _ _ hat h1 hr, .text (A := verbatim) h1 h2⟩
  | _, _, _, .enum he hx hn, fuel + 1, a, pos, v, pos', ha, hat, hr => by
    obtain ⟨prim, rfl, hp⟩ := atomFor_enum h he ha
    simp only [readAtom] at hr
    rw [hp, takeNum_at hat hn] at hr
    simp only [bind, Except.bind, asInt] at hr
    split at hr
    · cases hr
    · rename_i hv
      cases hr
      obtain ⟨x, hx'⟩ := hS.enum _ he _ _ hv
      exact ⟨rfl, .enum (A := verbatim) he ⟨hx, x, hx'⟩ hn⟩
  | _, _, _, .struct hs hfs, fuel + 1, a, pos, v, pos', ha, hat, hr => by
    rcases atomFor_struct h hs ha with rfl | ⟨rfl, hw⟩
    · obtain ⟨f, hfn, hff⟩ := hF _ hs
      simp only [readAtom, hfn] at hr
      rw [runFun_eq hff] at hr
      split at hr
      · cases hr
      · rename_i vs q hq
        cases hr
        obtain ⟨h1, h2⟩ := LayoutFields.strict h hS hF hfs hff.body hat hq
        exact ⟨h1, .struct hs h2⟩
    · rw [hS.whole] at hw; cases hw
theorem LayoutItems.strict (h : Usable p) (hS : Strict S p b) (hF : FunsFor S e p fn) :
    ∀ {t ws bs}, LayoutItems readableRaw p t ws bs → ∀ {fuel a pos vs pos'}, AtomFor S e p t a →
      At b pos bs → readItems (readAtom S fn b fuel a) ws.length pos = .ok (vs, pos') →
      pos' = pos + bs.length ∧ LayoutItems verbatim p t ws bs
  | _, _, _, .nil, fuel, a, pos, vs, pos', ha, hat, hr => by cases hr; exact ⟨rfl, .nil⟩
  | _, _, _, .cons h1 h2, fuel, a, pos, vs, pos', ha, hat, hr => by
    simp only [List.length_cons, readItems, bind, Except.bind] at hr
    split at hr
    · cases hr
    · rename_i r hq
      obtain ⟨h3, h4⟩ := Layout.strict h hS hF h1 ha hat.left hq
      split at hr
      · cases hr
      · rename_i r' hq'
        cases hr
        rw [h3] at hq'
        obtain ⟨h5, h6⟩ := LayoutItems.strict h hS hF h2 ha hat.right hq'
        exact ⟨by rw [List.length_append]; omega, .cons h4 h6⟩
theorem LayoutFields.strict (h : Usable p) (hS : Strict S p b) (hF : FunsFor S e p fn) :
    ∀ {ms fs bs}, LayoutFields readableRaw p ms fs bs → ∀ {fuel params sts rs pos vs pos'},
      BodyFor S e p params ms sts rs → At b pos bs →
      readMembers S (readAtom S fn b fuel) b pos sts = .ok (vs, pos') →
      pos' = pos + bs.length ∧ LayoutFields verbatim p ms fs bs
  | _, _, _, .nil, fuel, params, _, _, pos, vs, pos', .nil, hat, hr => by cases hr; exact ⟨rfl, .nil⟩
  | _, _, _, .one hl h1 h2, fuel, params, _, _, pos, vs, pos', .cons (.one _ ha) _ _ hb, hat, hr => by
    simp only [readMembers, bind, Except.bind] at hr
    split at hr
    · cases hr
    · rename_i r hq
      obtain ⟨h3, h4⟩ := Layout.strict h hS hF h1 ha hat.left hq
      split at hr
      · cases hr
      · rename_i r' hq'
        cases hr
        rw [h3] at hq'
        obtain ⟨h5, h6⟩ := LayoutFields.strict h hS hF h2 hb hat.right hq'
        exact ⟨by rw [List.length_append]; omega, .one hl h4 h6⟩
  | _, _, _, .one hl h1 h2, fuel, params, _, _, pos, vs, pos', .cons (.list hl' _ _) _ _ hb, hat, hr => by
    rw [hl] at hl'; cases hl'
  | _, _, _, .list hl hn h1 h2, fuel, params, _, _, pos, vs, pos', .cons (.one hl' _) _ _ hb, hat, hr => by
    rw [hl] at hl'; cases hl'
  | _, _, _, .list hl hn h1 h2, fuel, params, _, _, pos, vs, pos', .cons (.list _ hp ha) _ _ hb, hat, hr => by
    simp only [readMembers] at hr
    rw [hp, takeNum_at hat.left.left hn] at hr
    simp only [bind, Except.bind, asInt] at hr
    split at hr
    · cases hr
    · rename_i k hk
      cases hS.count _ _ (intRange_of_dec hn) hk
      split at hr
      · cases hr
      · rename_i q hq
        obtain ⟨h3, h4⟩ := LayoutItems.strict h hS hF h1 ha hat.left.right hq
        split at hr
        · cases hr
        · rename_i r' hq'
          cases hr
          have h5 := hat.right
          rw [List.length_append, ← Nat.add_assoc, ← h3] at h5
          obtain ⟨h6, h7⟩ := LayoutFields.strict h hS hF h2 hb h5 hq'
          exact ⟨by simp only [List.length_append]; omega, .list (A := verbatim) hl hn h4 h7⟩
end
end

/-- From bytes of a message, undeclared enum values apart, the library reads a message only if there
are no undeclared values. -/
def ReadStrict (L : Library) (p : Protocol) (lim : Nat) : Prop :=
  ∀ {m b pos w bs v pos'}, b.length < lim → DecMsg readableRaw p m w bs → At b pos bs →
    L.read m b pos = .ok (v, pos') → DecMsg verbatim p m w bs

theorem ReadStrict.rename {L : Library} {p : Protocol} {f : String → String} {lim : Nat}
    (hu : Usable p) (h : ReadStrict L (p.rename f) lim) : ReadStrict L p lim := by
  intro m b pos w bs v pos' hb hd hat hr
  obtain ⟨d, fs, h1, rfl, rfl, hl⟩ := hd
  obtain ⟨u, h2, _⟩ := DecMsg.unrename (A := verbatim) (fun _ _ _ h => h) (h (w := (Val.record fs).mapNames f) hb
    ⟨d.rename f, _, List.mem_map_of_mem h1, rfl, rfl, LayoutFields.rename (fun _ _ _ h => h) hl⟩ hat hr)
  obtain ⟨d', gs, h1', hn, rfl, hl'⟩ := h2
  cases mem_messages_unique hu h1' h1 hn
  obtain ⟨rfl, _⟩ := LayoutFields.det (r := []) (r' := []) readableRaw_det hu hl (LayoutFields.mono verbatim_le_raw hl') rfl
  exact ⟨_, fs, h1, rfl, rfl, hl'⟩

theorem readMessage_strict {S : ReadSem} {e : Fail} {p : Protocol} {fn : Struct → RFun} (h : Usable p)
    {b : Buf} (hS : Strict S p b)
    (hF : ∀ s ∈ bodies p, FunFor S e p s.members (fn s)) {m : String} {w : Val} {bs : List UInt8}
    (hd : DecMsg readableRaw p m w bs) {pos pos' : Nat} {v : Val} (hat : At b pos bs)
    (hr : readMessage S fn p m b pos = .ok (v, pos')) : DecMsg verbatim p m w bs := by
  obtain ⟨d, fs, hd, rfl, rfl, hl⟩ := hd
  have hff := hF d (mem_bodies_message hd)
  rw [readMessage, message?_of_mem h.messagesDistinct hd] at hr
  simp only at hr
  rw [runFun_eq hff] at hr
  split at hr
  · cases hr
  · rename_i vs q hq
    exact ⟨d, fs, hd, rfl, rfl, (LayoutFields.strict h hS (funsFor_of_bodies h hF) hl hff.body hat hq).2⟩

mutual
theorem Layout.verbatim {R : List UInt8 → List UInt8 → Prop} {p : Protocol} :
    ∀ {t v bs}, Layout (readableBy R) p t v bs → ∃ w, Layout verbatim p t w bs
  | _, _, _, .num h => ⟨_, .num (A := Lang.verbatim) h⟩
  | _, _, _, .text h1 _ => ⟨_, .text (A := Lang.verbatim) h1 rfl⟩
  | _, _, _, .enum h1 h2 h3 => ⟨_, .enum (A := Lang.verbatim) h1 h2 h3⟩
  | _, _, _, .struct h1 h2 => by
    obtain ⟨gs, h3⟩ := LayoutFields.verbatim h2
    exact ⟨_, .struct h1 h3⟩
theorem LayoutItems.verbatim {R : List UInt8 → List UInt8 → Prop} {p : Protocol} :
    ∀ {t vs bs}, LayoutItems (readableBy R) p t vs bs →
      ∃ ws, LayoutItems verbatim p t ws bs ∧ ws.length = vs.length
  | _, _, _, .nil => ⟨[], .nil, rfl⟩
  | _, _, _, .cons h1 h2 => by
    obtain ⟨w, h3⟩ := Layout.verbatim h1
    obtain ⟨ws, h4, h5⟩ := LayoutItems.verbatim h2
    exact ⟨w :: ws, .cons h3 h4, by simp [h5]⟩
theorem LayoutFields.verbatim {R : List UInt8 → List UInt8 → Prop} {p : Protocol} :
    ∀ {ms fs bs}, LayoutFields (readableBy R) p ms fs bs → ∃ gs, LayoutFields verbatim p ms gs bs
  | _, _, _, .nil => ⟨[], .nil⟩
  | _, _, _, .one h1 h2 h3 => by
    obtain ⟨w, h4⟩ := Layout.verbatim h2
    obtain ⟨gs, h5⟩ := LayoutFields.verbatim h3
    exact ⟨_, .one h1 h4 h5⟩
  | _, _, _, .list h1 h2 h3 h4 => by
    obtain ⟨ws, h5, h6⟩ := LayoutItems.verbatim h3
    obtain ⟨gs, h7⟩ := LayoutFields.verbatim h4
    exact ⟨_, .list (A := Lang.verbatim) h1 (by rw [h6]; exact h2) h5 h7⟩
end

theorem ReadSound.strict {L : Library} {p : Protocol} {f : String → String}
    {R : List UInt8 → List UInt8 → Prop} {lim : Nat} (hu : Usable p)
    (h : ReadSound L p f (readableBy R) lim) : ReadStrict L p lim := by
  intro m b pos w bs v pos' hb hd hat hr
  have := hat.le
  obtain ⟨u, cs, rfl, ⟨d, fs, h1, rfl, rfl, hl⟩, h2, _⟩ := h (by omega) hb hr
  obtain ⟨d', gs, h1', hn, rfl, hl'⟩ := hd
  cases mem_messages_unique hu h1' h1 hn
  obtain ⟨ks, h3⟩ := LayoutFields.verbatim hl
  obtain ⟨pre, rest, e1, e2⟩ := hat
  obtain ⟨pre', rest', e3, e4⟩ := h2
  obtain ⟨e5, e6⟩ := List.append_inj (e1.symm.trans e3) (by omega)
  obtain ⟨rfl, rfl, _⟩ := LayoutFields.det readableRaw_det hu hl' (LayoutFields.mono verbatim_le_raw h3) e6
  exact ⟨_, _, h1, rfl, rfl, h3⟩

end Beschi.Lang
