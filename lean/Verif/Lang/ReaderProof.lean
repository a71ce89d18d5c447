import Verif.Lang.Reader
import Verif.Wire.Layout
/-
Generic lemmas about reading functions (Verif/Lang/Reader.lean): if every statement reads what the
member's type calls for, the function accepts exactly the bytes of the wire format.
-/
namespace Beschi.Lang
open Spec

/-- All locations a statement stores into. -/
def RStmt.locs : RStmt → List Loc
  | .one d _ => [d]
  | .list d l _ _ => [d, l]

/-- The primitive reads numbers of type `n`. -/
def PrimFor (S : ReadSem) (e : Fail) (prim : String) (n : NumTy) : Prop :=
  ∀ b pos, S.num prim b pos = takeNum e n b pos

/-- The read `a` is the right one for the type `t`. -/
inductive AtomFor (S : ReadSem) (e : Fail) (p : Protocol) : String → RAtom → Prop
  | num {n prim} : PrimFor S e prim n → AtomFor S e p n.name (.num prim)
  | text : AtomFor S e p "string" .text
  | enum {en prim} : en ∈ p.enums → PrimFor S e prim en.encoding →
      AtomFor S e p en.name (.enum prim en.name)
  | struct {s} : s ∈ p.structs → AtomFor S e p s.name (.call s.name)
  | whole {s} : s ∈ p.structs → S.isWhole s.name = true → AtomFor S e p s.name (.whole s.name)

/-- The statement is the right one for the member and stores its value in `dst`. -/
inductive StmtFor (S : ReadSem) (e : Fail) (p : Protocol) : Variable → RStmt → Loc → Prop
  | one {m a dst} : m.isList = false → AtomFor S e p m.vartype a →
      StmtFor S e p m (.one dst a) dst
  | list {m a dst len prim} : m.isList = true → PrimFor S e prim p.listSize →
      AtomFor S e p m.vartype a → StmtFor S e p m (.list dst len prim a) dst

/-- The statements read the members in order and nothing overwrites a member already read. -/
inductive BodyFor (S : ReadSem) (e : Fail) (p : Protocol) (params : List Loc) :
    List Variable → List RStmt → List (String × Loc) → Prop
  | nil : BodyFor S e p params [] [] []
  | cons {m ms st sts dst rs} : StmtFor S e p m st dst → dst ∉ sts.flatMap RStmt.locs →
      (∀ l ∈ st.locs, l ∉ params) → BodyFor S e p params ms sts rs →
      BodyFor S e p params (m :: ms) (st :: sts) ((m.name, dst) :: rs)

/-- The function reads these members. -/
structure FunFor (S : ReadSem) (e : Fail) (p : Protocol) (ms : List Variable) (f : RFun) : Prop where
  decls : f.decls.Nodup
  body : BodyFor S e p f.params ms f.body f.result

/-- Every struct has a reading function that reads its members. -/
def FunsFor (S : ReadSem) (e : Fail) (p : Protocol) (fn : String → Option RFun) : Prop :=
  ∀ s ∈ p.structs, ∃ f, fn s.name = some f ∧ FunFor S e p s.members f

/-- The bytes `bs` are found at position `pos` of `b`. -/
def At (b : Buf) (pos : Nat) (bs : List UInt8) : Prop :=
  ∃ pre rest, b = pre ++ (bs ++ rest) ∧ pos = pre.length

theorem At.left {b : Buf} {pos : Nat} {x y : List UInt8} (h : At b pos (x ++ y)) : At b pos x := by
  obtain ⟨pre, rest, rfl, rfl⟩ := h
  exact ⟨pre, y ++ rest, by simp, rfl⟩

theorem At.right {b : Buf} {pos : Nat} {x y : List UInt8} (h : At b pos (x ++ y)) :
    At b (pos + x.length) y := by
  obtain ⟨pre, rest, rfl, rfl⟩ := h
  exact ⟨pre ++ x, rest, by simp, by simp⟩

theorem At.le {b : Buf} {pos : Nat} {x : List UInt8} (h : At b pos x) :
    pos + x.length ≤ b.length := by
  obtain ⟨pre, rest, rfl, rfl⟩ := h
  simp only [List.length_append]; omega

theorem At.slice {b : Buf} {pos : Nat} {x : List UInt8} (h : At b pos x) :
    (b.drop pos).take x.length = x := by
  obtain ⟨pre, rest, rfl, rfl⟩ := h
  simp

theorem at_slice {b : Buf} {pos k : Nat} (h : pos + k ≤ b.length) :
    At b pos ((b.drop pos).take k) :=
  ⟨b.take pos, (b.drop pos).drop k, by simp, by simp; omega⟩

theorem At.append {b : Buf} {pos : Nat} {x y : List UInt8} (h1 : At b pos x)
    (h2 : At b (pos + x.length) y) : At b pos (x ++ y) := by
  have hl : pos + (x ++ y).length ≤ b.length := by
    have := h2.le
    simp only [List.length_append]; omega
  have := at_slice hl
  have e : (b.drop pos).take (x ++ y).length = x ++ y := by
    rw [List.length_append, List.take_add, h1.slice, List.drop_drop, h2.slice]
  rwa [e] at this

theorem At.nil {b : Buf} {pos : Nat} (h : pos ≤ b.length) : At b pos [] :=
  ⟨b.take pos, b.drop pos, by simp, by simp; omega⟩

/-- The runtime reads what the atoms `A` describe. -/
structure Completeness (S : ReadSem) (p : Protocol) (A : Atoms) (b : Buf) : Prop where
  num : ∀ n v bs, A.num n v bs → DecNum n v bs
  text : ∀ pos len bs s, At b pos (len ++ bs) → A.num p.stringSize (.int bs.length) len →
    A.text bs s → S.text b pos = .ok (.str s, pos + (len ++ bs).length)
  enum : ∀ e ∈ p.enums, ∀ i j, A.enum e i j → S.enum e.name i = .ok (.int j)
  count : ∀ (vs : List Val) t len bs pos, A.num p.listSize (.int vs.length) len →
    LayoutItems A p t vs bs → At b pos bs → S.count vs.length = .ok vs.length
  whole : ∀ s ∈ p.structs, S.isWhole s.name = true → ∀ v bs pos, Layout A p s.name v bs →
    At b pos bs → S.whole s.name b pos = .ok (v, pos + bs.length) := by
      intro _ _ h; exact absurd (show false = true from h) (by decide)

theorem takeN_at {e : Fail} {b : Buf} {pos : Nat} {bs : List UInt8} (h : At b pos bs) :
    takeN e bs.length b pos = .ok (bs, pos + bs.length) := by
  rw [takeN, if_pos h.le, h.slice]

theorem takeN_ok {e : Fail} {b : Buf} {pos pos' k : Nat} {bs : List UInt8}
    (h : takeN e k b pos = .ok (bs, pos')) : At b pos bs ∧ bs.length = k ∧ pos' = pos + k := by
  unfold takeN at h
  split at h
  · rename_i hl
    cases h
    exact ⟨at_slice hl, by simp; omega, rfl⟩
  · cases h

theorem takeN_error {e x : Fail} {b : Buf} {pos k : Nat} (h : takeN e k b pos = .error x) :
    x = e ∧ b.length < pos + k := by
  unfold takeN at h
  split at h
  · cases h
  · cases h; exact ⟨rfl, by omega⟩

theorem takeNum_at {e : Fail} {n : NumTy} {v : Val} {b : Buf} {pos : Nat} {bs : List UInt8}
    (h : At b pos bs) (hd : DecNum n v bs) : takeNum e n b pos = .ok (v, pos + bs.length) := by
  have := takeN_at (e := e) h
  rw [decNum_length hd] at this
  simp only [takeNum, this, fromLE_of_dec hd, decNum_length hd]

theorem takeNum_ok {e : Fail} {n : NumTy} {v : Val} {b : Buf} {pos pos' : Nat}
    (h : takeNum e n b pos = .ok (v, pos')) :
    ∃ bs, At b pos bs ∧ DecNum n v bs ∧ pos' = pos + bs.length := by
  unfold takeNum at h
  split at h
  · rename_i bs p' ht
    cases h
    obtain ⟨h1, h2, h3⟩ := takeN_ok ht
    exact ⟨bs, h1, dec_fromLE h2, by rw [h2, h3]⟩
  · cases h

theorem takeNum_error {e x : Fail} {n : NumTy} {b : Buf} {pos : Nat}
    (h : takeNum e n b pos = .error x) : x = e := by
  unfold takeNum at h
  split at h
  · cases h
  · rename_i y ht
    cases h
    exact (takeN_error ht).1

theorem num_ne_enum {p : Protocol} (h : Usable p) {n : NumTy} {e : Enum} (he : e ∈ p.enums) :
    n.name ≠ e.name := fun hn =>
  (h.notBuiltin n.name (by simp [enumNames]; exact .inr (.inr ⟨e, he, hn.symm⟩))).1 (name_builtin n)

theorem num_ne_struct {p : Protocol} (h : Usable p) {n : NumTy} {s : Struct} (hs : s ∈ p.structs) :
    n.name ≠ s.name := fun hn =>
  (h.notBuiltin n.name (by simp [structNames]; exact .inl ⟨s, hs, hn.symm⟩)).1 (name_builtin n)

theorem text_ne_enum {p : Protocol} (h : Usable p) {e : Enum} (he : e ∈ p.enums) :
    "string" ≠ e.name := fun hn =>
  (h.notBuiltin "string" (by simp [enumNames]; exact .inr (.inr ⟨e, he, hn.symm⟩))).2 rfl

theorem text_ne_struct {p : Protocol} (h : Usable p) {s : Struct} (hs : s ∈ p.structs) :
    "string" ≠ s.name := fun hn =>
  (h.notBuiltin "string" (by simp [structNames]; exact .inl ⟨s, hs, hn.symm⟩)).2 rfl

theorem enum_ne_struct {p : Protocol} (h : Usable p) {e : Enum} {s : Struct} (he : e ∈ p.enums)
    (hs : s ∈ p.structs) : e.name ≠ s.name := fun hn =>
  h.structEnum s.name (List.mem_map_of_mem hs) (List.mem_map.2 ⟨e, he, hn⟩)

theorem name_inj {n m : NumTy} (h : n.name = m.name) : n = m := by
  have := ofName?_name n
  rw [h, ofName?_name] at this
  cases this; rfl

section
variable {S : ReadSem} {e : Fail} {p : Protocol} (h : Usable p) {a : RAtom}
include h

theorem atomFor_num {n : NumTy} (ha : AtomFor S e p n.name a) :
    ∃ prim, a = .num prim ∧ PrimFor S e prim n := by
  generalize ht : n.name = t at ha
  cases ha with
  | num hp => cases name_inj ht; exact ⟨_, rfl, hp⟩
  | text => exact absurd ht (name_ne_string n)
  | enum he _ => exact absurd ht (num_ne_enum h he)
  | struct hs => exact absurd ht (num_ne_struct h hs)
  | whole hs _ => exact absurd ht (num_ne_struct h hs)

theorem atomFor_text (ha : AtomFor S e p "string" a) : a = .text := by
  generalize ht : "string" = t at ha
  cases ha with
  | num hp => exact absurd ht.symm (name_ne_string _)
  | text => rfl
  | enum he _ => exact absurd ht (text_ne_enum h he)
  | struct hs => exact absurd ht (text_ne_struct h hs)
  | whole hs _ => exact absurd ht (text_ne_struct h hs)

theorem atomFor_enum {en : Enum} (hen : en ∈ p.enums) (ha : AtomFor S e p en.name a) :
    ∃ prim, a = .enum prim en.name ∧ PrimFor S e prim en.encoding := by
  generalize ht : en.name = t at ha
  cases ha with
  | num hp => exact absurd ht.symm (num_ne_enum h hen)
  | text => exact absurd ht.symm (text_ne_enum h hen)
  | enum he hp => cases mem_enums_unique h hen he ht; exact ⟨_, rfl, hp⟩
  | struct hs => exact absurd ht (enum_ne_struct h hen hs)
  | whole hs _ => exact absurd ht (enum_ne_struct h hen hs)

theorem atomFor_struct {s : Struct} (hs : s ∈ p.structs) (ha : AtomFor S e p s.name a) :
    a = .call s.name ∨ a = .whole s.name ∧ S.isWhole s.name = true := by
  generalize ht : s.name = t at ha
  cases ha with
  | num hp => exact absurd ht.symm (num_ne_struct h hs)
  | text => exact absurd ht.symm (text_ne_struct h hs)
  | enum he hp => exact absurd ht.symm (enum_ne_struct h he hs)
  | struct _ => exact .inl rfl
  | whole _ hw => exact .inr ⟨rfl, hw⟩

end

/-! ### Running a function body -/

theorem params_free {params : List Loc} {env : REnv} (h : ∀ l ∈ env.map (·.1), l ∉ params) :
    params.any (fun l => env.any (fun e => e.1 == l)) = false := by
  simp only [List.any_eq_false, List.any_eq_true, beq_iff_eq, not_exists, not_and]
  intro l hl x hx hxl
  exact h x.1 (List.mem_map_of_mem hx) (hxl ▸ hl)

theorem execStmt_locs {S : ReadSem} {rd : RAtom → Nat → Except Fail (Val × Nat)} {b : Buf} {env env' : REnv}
    {pos pos' : Nat} {st : RStmt} (h : execStmt S rd b env pos st = .ok (env', pos')) :
    ∃ new, env' = new ++ env ∧ new.map (·.1) = st.locs := by
  cases st with
  | one dst a =>
    simp only [execStmt, bind, Except.bind] at h
    split at h
    · cases h
    · cases h; exact ⟨[_], rfl, rfl⟩
  | list dst len prim a =>
    simp only [execStmt, bind, Except.bind] at h
    repeat' split at h
    all_goals first | cases h; exact ⟨[_, _], rfl, rfl⟩ | cases h

theorem execBody_locs {S : ReadSem} {rd : RAtom → Nat → Except Fail (Val × Nat)} {params : List Loc}
    {b : Buf} : ∀ {sts : List RStmt} {env env' : REnv} {pos pos' : Nat},
    execBody S rd params b env pos sts = .ok (env', pos') →
    ∃ new, env' = new ++ env ∧ ∀ l ∈ new.map (·.1), l ∈ sts.flatMap RStmt.locs
  | [], _, _, _, _, h => by cases h; exact ⟨[], rfl, by simp⟩
  | st :: sts, env, env', pos, pos', h => by
    simp only [execBody] at h
    split at h
    · cases h
    · simp only [bind, Except.bind] at h
      split at h
      · cases h
      · rename_i r hr
        obtain ⟨new, he, hl⟩ := execStmt_locs hr
        obtain ⟨new', he', hl'⟩ := execBody_locs h
        refine ⟨new' ++ new, by simp [he', he], fun l hm => ?_⟩
        simp only [List.map_append, List.mem_append] at hm
        simp only [List.flatMap_cons, List.mem_append]
        rcases hm with hm | hm
        · exact .inr (hl' l hm)
        · exact .inl (hl ▸ hm)

theorem lookup_append_of_notMem {l : Loc} : ∀ {new : REnv} {env : REnv}, l ∉ new.map (·.1) →
    (new ++ env).lookup l = env.lookup l
  | [], _, _ => rfl
  | (k, v) :: new, env, h => by
    simp only [List.map_cons, List.mem_cons, not_or] at h
    simp only [List.cons_append, List.lookup_cons]
    rw [show (l == k) = false from by simpa using h.1]
    exact lookup_append_of_notMem h.2

/-- What running a body amounts to: reading the members one after the other. -/
def readMembers (S : ReadSem) (rd : RAtom → Nat → Except Fail (Val × Nat)) (b : Buf) :
    Nat → List RStmt → Except Fail (List Val × Nat)
  | pos, [] => .ok ([], pos)
  | pos, .one _ a :: sts => do
    let (v, pos) ← rd a pos
    let (vs, pos) ← readMembers S rd b pos sts
    return (v :: vs, pos)
  | pos, .list _ _ prim a :: sts => do
    let (n, pos) ← S.num prim b pos
    let i ← asInt n
    let k ← S.count i
    let (ws, pos) ← readItems (rd a) k pos
    let (vs, pos) ← readMembers S rd b pos sts
    return (.list ws :: vs, pos)

/-- The object built from the values read. -/
def zipNames (ms : List Variable) (vs : List Val) : List (String × Val) :=
  (ms.map (·.name)).zip vs

theorem readMembers_length {S : ReadSem} {rd : RAtom → Nat → Except Fail (Val × Nat)} {b : Buf} :
    ∀ {sts : List RStmt} {pos pos' : Nat} {vs : List Val},
    readMembers S rd b pos sts = .ok (vs, pos') → vs.length = sts.length
  | [], _, _, _, h => by cases h; rfl
  | .one _ a :: sts, pos, pos', vs, h => by
    simp only [readMembers, bind, Except.bind] at h
    split at h
    · cases h
    · split at h
      · cases h
      · rename_i r hr
        cases h
        simp [readMembers_length hr]
  | .list _ _ prim a :: sts, pos, pos', vs, h => by
    simp only [readMembers, bind, Except.bind] at h
    repeat' split at h
    all_goals first | cases h; rename_i r hr; simp [readMembers_length hr] | cases h

theorem execBody_eq {S : ReadSem} {e : Fail} {p : Protocol}
    {rd : RAtom → Nat → Except Fail (Val × Nat)} {params : List Loc} {b : Buf}
    {ms : List Variable} {sts : List RStmt} {rs : List (String × Loc)}
    (hb : BodyFor S e p params ms sts rs) :
    ∀ {env : REnv} {pos : Nat}, (∀ l ∈ env.map (·.1), l ∉ params) →
    match readMembers S rd b pos sts with
    | .error x => execBody S rd params b env pos sts = .error x
    | .ok (vs, pos') => ∃ env', execBody S rd params b env pos sts = .ok (env', pos') ∧
        buildResult env' rs = .ok (zipNames ms vs) := by
  induction hb with
  | nil =>
    intro env pos henv
    exact ⟨env, rfl, rfl⟩
  | @cons m ms st sts dst rs hst hdst hpar hb ih =>
    intro env pos henv
    cases hst with
    | one hl ha =>
      rename_i a
      simp only [readMembers, execBody, params_free henv, execStmt, bind, Except.bind]
      cases hrd : rd a pos with
      | error x => rfl
      | ok r =>
        obtain ⟨v, pos1⟩ := r
        simp only [pure, Except.pure, Bool.false_eq_true, ↓reduceIte]
        have henv' : ∀ l ∈ (((dst, v) :: env).map (·.1)), l ∉ params := by
          intro l hl'
          simp only [List.map_cons, List.mem_cons] at hl'
          rcases hl' with rfl | hl'
          · exact hpar _ (by simp [RStmt.locs])
          · exact henv l hl'
        have := ih (env := (dst, v) :: env) (pos := pos1) henv'
        cases hrm : readMembers S rd b pos1 sts with
        | error x => rw [hrm] at this; exact this
        | ok r =>
          obtain ⟨vs, pos2⟩ := r
          rw [hrm] at this
          obtain ⟨env', h1, h2⟩ := this
          refine ⟨env', h1, ?_⟩
          obtain ⟨new, rfl, hnew⟩ := execBody_locs h1
          simp only [buildResult]
          rw [lookup_append_of_notMem (fun hm => hdst (hnew _ hm))]
          simp only [List.lookup_cons, beq_self_eq_true, h2, bind, Except.bind]
          rfl
    | list hl hp ha =>
      rename_i a len prim
      simp only [readMembers, execBody, params_free henv, execStmt, bind, Except.bind]
      cases hn : S.num prim b pos with
      | error x => rfl
      | ok r =>
        obtain ⟨n, pos1⟩ := r
        simp only
        cases hi : asInt n with
        | error x => rfl
        | ok i =>
          simp only
          cases hc : S.count i with
          | error x => rfl
          | ok k =>
            simp only
            cases hrd : readItems (rd a) k pos1 with
            | error x => rfl
            | ok r =>
              obtain ⟨ws, pos2⟩ := r
              simp only [pure, Except.pure, Bool.false_eq_true, ↓reduceIte]
              have henv' : ∀ l ∈ (((dst, .list ws) :: (len, n) :: env).map (·.1)), l ∉ params := by
                intro l hl'
                simp only [List.map_cons, List.mem_cons] at hl'
                rcases hl' with rfl | rfl | hl'
                · exact hpar _ (by simp [RStmt.locs])
                · exact hpar _ (by simp [RStmt.locs])
                · exact henv l hl'
              have := ih (env := (dst, .list ws) :: (len, n) :: env) (pos := pos2) henv'
              cases hrm : readMembers S rd b pos2 sts with
              | error x => rw [hrm] at this; exact this
              | ok r =>
                obtain ⟨vs, pos3⟩ := r
                rw [hrm] at this
                obtain ⟨env', h1, h2⟩ := this
                refine ⟨env', h1, ?_⟩
                obtain ⟨new, rfl, hnew⟩ := execBody_locs h1
                simp only [buildResult]
                rw [lookup_append_of_notMem (fun hm => hdst (hnew _ hm))]
                simp only [List.lookup_cons, beq_self_eq_true, h2, bind, Except.bind]
                rfl

/-- Running a function that reads the given members. -/
theorem runFun_eq {S : ReadSem} {e : Fail} {p : Protocol}
    {rd : RAtom → Nat → Except Fail (Val × Nat)} {b : Buf} {ms : List Variable} {f : RFun}
    (hf : FunFor S e p ms f) (pos : Nat) :
    runFun S rd b pos f = match readMembers S rd b pos f.body with
      | .error x => .error x
      | .ok (vs, pos') => .ok (.record (zipNames ms vs), pos') := by
  unfold runFun
  rw [if_neg (not_not.2 hf.decls)]
  have := execBody_eq (rd := rd) (b := b) hf.body (env := []) (pos := pos) (by simp)
  cases hrm : readMembers S rd b pos f.body with
  | error x => rw [hrm] at this; simp only at this; simp [this, bind, Except.bind]
  | ok r =>
    obtain ⟨vs, pos'⟩ := r
    rw [hrm] at this
    obtain ⟨env', h1, h2⟩ := this
    simp [h1, h2, bind, Except.bind, pure, Except.pure]

/-! ### What is written can be read -/

section
variable {S : ReadSem} {e : Fail} {p : Protocol} {A : Atoms} {fn : String → Option RFun} {b : Buf}

theorem zipNames_fields {ms : List Variable} {fs : List (String × Val)} {bs : List UInt8}
    (h : LayoutFields A p ms fs bs) : zipNames ms (fs.map (·.2)) = fs := by
  induction ms generalizing fs bs with
  | nil => cases h; rfl
  | cons m ms ih =>
    cases h with
    | one _ _ h => simpa [zipNames] using ih h
    | list _ _ _ h => simpa [zipNames] using ih h

mutual
theorem Layout.read (h : Usable p) (hC : Completeness S p A b) (hF : FunsFor S e p fn) :
    ∀ {t v bs}, Layout A p t v bs → ∀ {d fuel a pos}, fits p d t → d < fuel →
      AtomFor S e p t a → At b pos bs →
      readAtom S fn b fuel a pos = .ok (v, pos + bs.length)
  | _, _, _, .num hn, d, fuel + 1, a, pos, hf, hd, ha, hat => by
    obtain ⟨prim, rfl, hp⟩ := atomFor_num h ha
    simp only [readAtom]
    rw [hp]
    exact takeNum_at hat (hC.num _ _ _ hn)
  | _, _, _, .text h1 h2, d, fuel + 1, a, pos, hf, hd, ha, hat => by
    cases atomFor_text h ha
    exact hC.text _ _ _ _ hat h1 h2
  | _, _, _, .enum he hx hn, d, fuel + 1, a, pos, hf, hd, ha, hat => by
    obtain ⟨prim, rfl, hp⟩ := atomFor_enum h he ha
    simp only [readAtom]
    rw [hp, takeNum_at hat (hC.num _ _ _ hn)]
    simp [bind, Except.bind, asInt, hC.enum _ he _ _ hx, pure, Except.pure]
  | _, _, _, .struct (s := s) hs hfs, 0, fuel + 1, a, pos, hf, hd, ha, hat => by
    have hf : p.struct? s.name = none := hf
    rw [struct?_of_mem h.structsDistinct hs] at hf
    cases hf
  | _, _, _, .struct hs hfs, d + 1, fuel + 1, a, pos, hf, hd, ha, hat => by
    rcases atomFor_struct h hs ha with rfl | ⟨rfl, hw⟩
    · obtain ⟨f, hfn, hff⟩ := hF _ hs
      simp only [readAtom, hfn]
      rw [runFun_eq hff, LayoutFields.read h hC hF hfs
        (hf _ (struct?_of_mem h.structsDistinct hs)) (by omega) hff.body hat]
      simp only
      rw [zipNames_fields hfs]
    · exact hC.whole _ hs hw _ _ _ (.struct hs hfs) hat
theorem LayoutItems.read (h : Usable p) (hC : Completeness S p A b) (hF : FunsFor S e p fn) :
    ∀ {t vs bs}, LayoutItems A p t vs bs → ∀ {d fuel a pos}, fits p d t → d < fuel →
      AtomFor S e p t a → At b pos bs →
      readItems (readAtom S fn b fuel a) vs.length pos = .ok (vs, pos + bs.length)
  | _, _, _, .nil, d, fuel, a, pos, hf, hd, ha, hat => rfl
  | _, _, _, .cons h1 h2, d, fuel, a, pos, hf, hd, ha, hat => by
    simp only [List.length_cons, readItems]
    rw [Layout.read h hC hF h1 hf hd ha hat.left]
    simp only [bind, Except.bind]
    rw [LayoutItems.read h hC hF h2 hf hd ha hat.right]
    simp [pure, Except.pure, Nat.add_assoc]
theorem LayoutFields.read (h : Usable p) (hC : Completeness S p A b) (hF : FunsFor S e p fn) :
    ∀ {ms fs bs}, LayoutFields A p ms fs bs → ∀ {d fuel params sts rs pos},
      (∀ m ∈ ms, fits p d m.vartype) → d < fuel →
      BodyFor S e p params ms sts rs → At b pos bs →
      readMembers S (readAtom S fn b fuel) b pos sts = .ok (fs.map (·.2), pos + bs.length)
  | _, _, _, .nil, d, fuel, params, _, _, pos, hf, hd, .nil, hat => rfl
  | _, _, _, .one hl h1 h2, d, fuel, params, _, _, pos, hf, hd, .cons (.one _ ha) _ _ hb, hat => by
    simp only [readMembers]
    rw [Layout.read h hC hF h1 (hf _ (by simp)) hd ha hat.left]
    simp only [bind, Except.bind]
    rw [LayoutFields.read h hC hF h2 (fun m hm => hf m (by simp [hm])) hd hb hat.right]
    simp [pure, Except.pure, Nat.add_assoc]
  | _, _, _, .one hl h1 h2, d, fuel, params, _, _, pos, hf, hd, .cons (.list hl' _ _) _ _ hb, hat => by
    rw [hl] at hl'; cases hl'
  | _, _, _, .list hl hn h1 h2, d, fuel, params, _, _, pos, hf, hd, .cons (.one hl' _) _ _ hb, hat => by
    rw [hl] at hl'; cases hl'
  | _, _, _, .list hl hn h1 h2, d, fuel, params, _, _, pos, hf, hd,
      .cons (.list _ hp ha) _ _ hb, hat => by
    simp only [readMembers]
    rw [hp, takeNum_at hat.left.left (hC.num _ _ _ hn)]
    simp only [bind, Except.bind, asInt]
    rw [hC.count _ _ _ _ _ hn h1 hat.left.right]
    simp only
    rw [LayoutItems.read h hC hF h1 (hf _ (by simp)) hd ha hat.left.right]
    simp only
    have := hat.right
    rw [List.length_append, ← Nat.add_assoc] at this
    rw [LayoutFields.read h hC hF h2 (fun m hm => hf m (by simp [hm])) hd hb this]
    simp [pure, Except.pure, Nat.add_assoc]
end

/-- The members of a struct or message are read back from their bytes. -/
theorem fields_read (h : Usable p) (hC : Completeness S p A b) (hF : FunsFor S e p fn)
    {ms : List Variable} {fs : List (String × Val)} {bs : List UInt8}
    (hl : LayoutFields A p ms fs bs) {f : RFun} (hf : FunFor S e p ms f) {pos : Nat}
    (hat : At b pos bs) :
    runFun S (readAtom S fn b (depth p)) b pos f = .ok (.record fs, pos + bs.length) := by
  rw [runFun_eq hf, LayoutFields.read h hC hF hl (d := p.structs.length) (fun m _ => h.fits _)
    (by simp [depth]) hf.body hat]
  simp only
  rw [zipNames_fields hl]
end

/-! ### What is read is laid out as specified -/

/-- The runtime accepts only what the atoms `B` describe. -/
structure Soundness (S : ReadSem) (p : Protocol) (B : Atoms) (b : Buf) : Prop where
  num : ∀ n v bs, DecNum n v bs → B.num n v bs
  text : ∀ pos v pos', pos ≤ b.length → S.text b pos = .ok (v, pos') → ∃ len bs s,
    v = .str s ∧ At b pos (len ++ bs) ∧ pos' = pos + (len ++ bs).length ∧
    B.num p.stringSize (.int bs.length) len ∧ B.text bs s
  enum : ∀ e ∈ p.enums, ∀ i v, S.enum e.name i = .ok v → ∃ j, v = .int j ∧ B.enum e i j
  count : ∀ i k, IntRange p.listSize i → S.count i = .ok k → i = k
  whole : ∀ s ∈ p.structs, S.isWhole s.name = true → ∀ pos v pos', pos ≤ b.length →
    S.whole s.name b pos = .ok (v, pos') →
    ∃ bs, Layout B p s.name v bs ∧ At b pos bs ∧ pos' = pos + bs.length := by
      intro _ _ h; exact absurd (show false = true from h) (by decide)

theorem asInt_ok {v : Val} {i : Int} (h : asInt v = .ok i) : v = .int i := by
  cases v <;> cases h
  rfl

theorem intRange_of_dec {n : NumTy} {i : Int} {bs : List UInt8} (h : DecNum n (.int i) bs) :
    IntRange n i := by
  generalize hv : Val.int i = v at h
  cases h with
  | written h => cases h <;> cases hv; assumption
  | truthy => cases hv

section
variable {S : ReadSem} {e : Fail} {p : Protocol} {B : Atoms} {fn : String → Option RFun} {b : Buf}

theorem readItems_sound {rd : Nat → Except Fail (Val × Nat)} {t : String}
    (hrd : ∀ pos v pos', pos ≤ b.length → rd pos = .ok (v, pos') →
      ∃ bs, Layout B p t v bs ∧ At b pos bs ∧ pos' = pos + bs.length) :
    ∀ k pos vs pos', pos ≤ b.length → readItems rd k pos = .ok (vs, pos') →
      ∃ bs, LayoutItems B p t vs bs ∧ At b pos bs ∧ pos' = pos + bs.length ∧ vs.length = k
  | 0, pos, vs, pos', hp, h => by
    cases h; exact ⟨[], .nil, .nil hp, rfl, rfl⟩
  | k + 1, pos, vs, pos', hp, h => by
    simp only [readItems, bind, Except.bind] at h
    split at h
    · cases h
    · rename_i r hr
      split at h
      · cases h
      · rename_i r' hr'
        cases h
        obtain ⟨bs, h1, h2, h3⟩ := hrd _ _ _ hp hr
        have := h2.le
        obtain ⟨bs', h4, h5, h6, h7⟩ := readItems_sound hrd k _ _ _ (by omega) hr'
        rw [h3] at h5
        exact ⟨bs ++ bs', .cons h1 h4, h2.append h5, by simp; omega, by simp [h7]⟩

theorem readMembers_sound (hS : Soundness S p B b) {rd : RAtom → Nat → Except Fail (Val × Nat)}
    (hrd : ∀ t a, AtomFor S e p t a → ∀ pos v pos', pos ≤ b.length → rd a pos = .ok (v, pos') →
      ∃ bs, Layout B p t v bs ∧ At b pos bs ∧ pos' = pos + bs.length)
    {params : List Loc} {ms : List Variable} {sts : List RStmt} {rs : List (String × Loc)}
    (hb : BodyFor S e p params ms sts rs) :
    ∀ pos vs pos', pos ≤ b.length → readMembers S rd b pos sts = .ok (vs, pos') →
      ∃ bs, LayoutFields B p ms (zipNames ms vs) bs ∧ At b pos bs ∧ pos' = pos + bs.length := by
  induction hb with
  | nil =>
    intro pos vs pos' hp h
    cases h; exact ⟨[], .nil, .nil hp, rfl⟩
  | @cons m ms st sts dst rs hst _ _ hb ih =>
    intro pos vs pos' hp h
    cases hst with
    | one hl ha =>
      simp only [readMembers, bind, Except.bind] at h
      split at h
      · cases h
      · rename_i r hr
        split at h
        · cases h
        · rename_i r' hr'
          cases h
          obtain ⟨bs, h1, h2, h3⟩ := hrd _ _ ha _ _ _ hp hr
          have := h2.le
          obtain ⟨bs', h4, h5, h6⟩ := ih _ _ _ (by omega) hr'
          rw [h3] at h5
          exact ⟨bs ++ bs', .one hl h1 h4, h2.append h5, by simp; omega⟩
    | list hl hp' ha =>
      simp only [readMembers, bind, Except.bind] at h
      split at h
      · cases h
      · rename_i r hr
        split at h
        · cases h
        · rename_i i hi
          split at h
          · cases h
          · rename_i k hk
            split at h
            · cases h
            · rename_i q hq
              split at h
              · cases h
              · rename_i r' hr'
                cases h
                rw [hp'] at hr
                obtain ⟨len, h0, hd, hle⟩ := takeNum_ok hr
                rw [asInt_ok hi] at hd
                have hik := hS.count _ _ (intRange_of_dec hd) hk
                subst hik
                have hle0 := h0.le
                obtain ⟨bs, h1, h2, h3, h3'⟩ := readItems_sound (hrd _ _ ha) _ _ _ _ (by omega) hq
                have := h2.le
                obtain ⟨bs', h4, h5, h6⟩ := ih _ _ _ (by omega) hr'
                rw [h3] at h5
                rw [hle] at h2
                have hx : At b pos ((len ++ bs) ++ bs') := (h0.append h2).append (by
                  rw [List.length_append, ← Nat.add_assoc, ← hle]; exact h5)
                refine ⟨len ++ bs ++ bs', .list hl ?_ h1 h4, hx, by simp; omega⟩
                rw [h3']
                exact hS.num _ _ _ hd

/-- Whatever is read successfully is laid out as specified. -/
theorem readAtom_sound (h : Usable p) (hS : Soundness S p B b) (hF : FunsFor S e p fn) :
    ∀ fuel t a, AtomFor S e p t a → ∀ pos v pos', pos ≤ b.length →
      readAtom S fn b fuel a pos = .ok (v, pos') →
      ∃ bs, Layout B p t v bs ∧ At b pos bs ∧ pos' = pos + bs.length
  | 0, t, a, ha, pos, v, pos', hp, hr => by cases hr
  | fuel + 1, t, a, ha, pos, v, pos', hp, hr => by
    cases ha with
    | num hpr =>
      simp only [readAtom] at hr
      rw [hpr] at hr
      obtain ⟨bs, h1, h2, h3⟩ := takeNum_ok hr
      exact ⟨bs, .num (hS.num _ _ _ h2), h1, h3⟩
    | text =>
      obtain ⟨len, bs, s, rfl, h1, h2, h3, h4⟩ := hS.text _ _ _ hp hr
      exact ⟨len ++ bs, .text h3 h4, h1, h2⟩
    | enum he hpr =>
      simp only [readAtom] at hr
      rw [hpr] at hr
      simp only [bind, Except.bind] at hr
      split at hr
      · cases hr
      · rename_i r ht
        split at hr
        · cases hr
        · rename_i i hi
          split at hr
          · cases hr
          · rename_i w hw
            cases hr
            obtain ⟨bs, h1, h2, h3⟩ := takeNum_ok ht
            rw [asInt_ok hi] at h2
            obtain ⟨j, rfl, hx⟩ := hS.enum _ he _ _ hw
            exact ⟨bs, .enum he hx (hS.num _ _ _ h2), h1, h3⟩
    | struct hs =>
      obtain ⟨f, hfn, hff⟩ := hF _ hs
      simp only [readAtom, hfn] at hr
      rw [runFun_eq hff] at hr
      split at hr
      · cases hr
      · rename_i vs q hq
        cases hr
        obtain ⟨bs, h1, h2, h3⟩ := readMembers_sound hS (readAtom_sound h hS hF fuel) hff.body _ _ _ hp hq
        exact ⟨bs, .struct hs h1, h2, h3⟩
    | whole hs hw => exact hS.whole _ hs hw _ _ _ hp hr

/-- A message read successfully is laid out as specified. -/
theorem fields_sound (h : Usable p) (hS : Soundness S p B b) (hF : FunsFor S e p fn)
    {ms : List Variable} {f : RFun} (hf : FunFor S e p ms f) {fuel pos pos' : Nat} {v : Val}
    (hp : pos ≤ b.length) (hr : runFun S (readAtom S fn b fuel) b pos f = .ok (v, pos')) :
    ∃ fs bs, v = .record fs ∧ LayoutFields B p ms fs bs ∧ At b pos bs ∧ pos' = pos + bs.length := by
  rw [runFun_eq hf] at hr
  split at hr
  · cases hr
  · rename_i vs q hq
    cases hr
    obtain ⟨bs, h1, h2, h3⟩ := readMembers_sound hS (readAtom_sound h hS hF fuel) hf.body _ _ _ hp hq
    exact ⟨_, bs, rfl, h1, h2, h3⟩
end

/-! ### Failures are always reported -/

/-- Some member is a text or a list of texts. -/
def UsesText (p : Protocol) : Prop :=
  ∃ s ∈ p.structs ++ p.messages, ∃ m ∈ s.members, m.vartype = "string"

/-- The runtime fails only with failures in `E`, and reads texts within the data. -/
structure Polite (S : ReadSem) (p : Protocol) (E : Fail → Prop) (b : Buf) : Prop where
  text : UsesText p → ∀ pos x, pos ≤ b.length → S.text b pos = .error x → E x
  textPos : ∀ pos v pos', pos ≤ b.length → S.text b pos = .ok (v, pos') → pos ≤ pos' ∧ pos' ≤ b.length
  enum : ∀ e ∈ p.enums, ∀ i x, S.enum e.name i = .error x → E x
  count : ∀ i x, IntRange p.listSize i → S.count i = .error x → E x
  whole : ∀ s ∈ p.structs, S.isWhole s.name = true → ∀ pos, pos ≤ b.length →
    (∀ x, S.whole s.name b pos = .error x → E x) ∧
    (∀ v q, S.whole s.name b pos = .ok (v, q) → pos ≤ q ∧ q ≤ b.length) := by
      intro _ _ h; exact absurd (show false = true from h) (by decide)

/-- Either a value and a position that has not moved back nor beyond the data, or a failure in `E`. -/
def Within {α : Type} (E : Fail → Prop) (b : Buf) (pos : Nat) : Except Fail (α × Nat) → Prop
  | .ok (_, pos') => pos ≤ pos' ∧ pos' ≤ b.length
  | .error x => E x

theorem Within.mono {α : Type} {E F : Fail → Prop} {b : Buf} {pos : Nat} {r : Except Fail (α × Nat)}
    (hEF : ∀ x, E x → F x) (h : Within E b pos r) : Within F b pos r := by
  cases r with
  | error x => exact hEF x h
  | ok r => exact h

theorem dec_int {n : NumTy} (hn : integral n = true) {v : Val} {bs : List UInt8} (h : DecNum n v bs) :
    ∃ i, v = .int i := by
  rw [← fromLE_of_dec h]
  cases n <;> simp only [integral, Bool.false_eq_true] at hn <;> exact ⟨_, rfl⟩

theorem integral_of_integerType {n : NumTy} (h : IntegerType n) : integral n = true := by
  cases n <;> simp_all [IntegerType, integral]

theorem GoodEnum.integral {e : Enum} (h : GoodEnum e) : integral e.encoding = true := by
  obtain ⟨h1, h2, h3, h4⟩ := h
  match hv : e.values, h1 with
  | x :: xs, _ =>
    have := h4 x.2 (by simp [hv])
    revert this
    cases e.encoding <;> simp [EnumRange, Lang.integral]

section
variable {S : ReadSem} {E : Fail → Prop} {e : Fail} {p : Protocol} {fn : String → Option RFun} {b : Buf}

theorem readItems_within {rd : Nat → Except Fail (Val × Nat)}
    (hrd : ∀ pos, pos ≤ b.length → Within E b pos (rd pos)) :
    ∀ k pos, pos ≤ b.length → Within E b pos (readItems rd k pos)
  | 0, pos, hp => ⟨Nat.le_refl _, hp⟩
  | k + 1, pos, hp => by
    simp only [readItems, bind, Except.bind]
    have := hrd pos hp
    split
    · rename_i hr; rw [hr] at this; exact this
    · rename_i r hr
      rw [hr] at this
      have h2 := readItems_within hrd k r.2 this.2
      split
      · rename_i hr; rw [hr] at h2; exact h2
      · rename_i r hr; rw [hr] at h2; exact ⟨Nat.le_trans this.1 h2.1, h2.2⟩

theorem takeNum_within (he : E e) (n : NumTy) (pos : Nat) :
    Within E b pos (takeNum e n b pos) := by
  cases h : takeNum e n b pos with
  | error x => rw [takeNum_error h]; exact he
  | ok r =>
    obtain ⟨bs, h1, _, h3⟩ := takeNum_ok (v := r.1) (pos' := r.2) h
    have := h1.le
    simp only [Within]
    omega

theorem readMembers_within (h : Usable p) (he : E e) (hS : Polite S p E b)
    {rd : RAtom → Nat → Except Fail (Val × Nat)} {params : List Loc} {ms : List Variable}
    {sts : List RStmt} {rs : List (String × Loc)} (hb : BodyFor S e p params ms sts rs) :
    (∀ m ∈ ms, ∀ a, AtomFor S e p m.vartype a → ∀ pos, pos ≤ b.length → Within E b pos (rd a pos)) →
    ∀ pos, pos ≤ b.length → Within E b pos (readMembers S rd b pos sts) := by
  induction hb with
  | nil => intro _ pos hp; exact ⟨Nat.le_refl _, hp⟩
  | @cons m ms st sts dst rs hst _ _ hb ih =>
    intro hrd pos hp
    have ih := ih (fun m hm => hrd m (by simp [hm]))
    cases hst with
    | one hl ha =>
      simp only [readMembers, bind, Except.bind]
      have h1 := hrd m (by simp) _ ha pos hp
      split
      · rename_i hr; rw [hr] at h1; exact h1
      · rename_i r hr
        rw [hr] at h1
        have h2 := ih r.2 h1.2
        split
        · rename_i hr; rw [hr] at h2; exact h2
        · rename_i r hr; rw [hr] at h2; exact ⟨Nat.le_trans h1.1 h2.1, h2.2⟩
    | list hl hpr ha =>
      simp only [readMembers, bind, Except.bind]
      rw [hpr]
      have h0 := takeNum_within (b := b) he p.listSize pos
      cases ht : takeNum e p.listSize b pos with
      | error x => rw [ht] at h0; exact h0
      | ok r =>
        rw [ht] at h0
        obtain ⟨bs, _, hd, _⟩ := takeNum_ok (v := r.1) (pos' := r.2) ht
        obtain ⟨i, hi⟩ := dec_int (integral_of_integerType h.listSize) hd
        simp only [hi, asInt]
        cases hc : S.count i with
        | error x => exact hS.count _ _ (intRange_of_dec (hi ▸ hd)) hc
        | ok k =>
          simp only
          have h1 := readItems_within (b := b) (hrd m (by simp) _ ha) k r.2 h0.2
          split
          · rename_i hr; rw [hr] at h1; exact h1
          · rename_i r hr
            rw [hr] at h1
            have h2 := ih r.2 h1.2
            split
            · rename_i hr; rw [hr] at h2; exact h2
            · rename_i r hr
              rw [hr] at h2
              exact ⟨Nat.le_trans h0.1 (Nat.le_trans h1.1 h2.1), h2.2⟩

theorem readAtom_within (h : Usable p) (he : E e) (hS : Polite S p E b)
    (hF : FunsFor S e p fn) :
    ∀ d fuel t a, AtomFor S e p t a → (t = "string" → UsesText p) → fits p d t → d < fuel →
      ∀ pos, pos ≤ b.length → Within E b pos (readAtom S fn b fuel a pos) := by
  intro d fuel
  induction fuel generalizing d with
  | zero => intro t a ha _ hf hd; omega
  | succ fuel ih =>
    intro t a ha hu hf hd pos hp
    cases ha with
    | num hpr =>
      simp only [readAtom]
      rw [hpr]
      exact takeNum_within he _ _
    | text =>
      simp only [readAtom]
      cases ht : S.text b pos with
      | error x => exact hS.text (hu rfl) _ _ hp ht
      | ok r => exact hS.textPos _ _ _ hp ht
    | enum hen hpr =>
      rename_i en prim
      simp only [readAtom]
      rw [hpr]
      have := takeNum_within (b := b) he en.encoding pos
      cases ht : takeNum e en.encoding b pos with
      | error x => rw [ht] at this; exact this
      | ok r =>
        rw [ht] at this
        obtain ⟨bs, _, hd, _⟩ := takeNum_ok (v := r.1) (pos' := r.2) ht
        obtain ⟨i, hi⟩ := dec_int (GoodEnum.integral (h.enums _ hen)) hd
        simp only [bind, Except.bind, hi, asInt]
        cases hv : S.enum en.name i with
        | error x => exact hS.enum _ hen _ _ hv
        | ok w => exact this
    | struct hs =>
      rename_i s
      obtain ⟨f, hfn, hff⟩ := hF _ hs
      simp only [readAtom, hfn]
      rw [runFun_eq hff]
      match d, hf with
      | 0, hf =>
        have hf : p.struct? s.name = none := hf
        rw [struct?_of_mem h.structsDistinct hs] at hf
        cases hf
      | d + 1, hf =>
        have := readMembers_within h he hS hff.body
          (fun m hm a ha => ih d m.vartype a ha (fun ht => ⟨s, List.mem_append_left _ hs, m, hm, ht⟩) (hf _ (struct?_of_mem h.structsDistinct hs) m hm) (by omega)) pos hp
        split
        · rename_i hr; rw [hr] at this; exact this
        · rename_i hr; rw [hr] at this; exact this
    | whole hs hw =>
      simp only [readAtom]
      have := hS.whole _ hs hw pos hp
      cases hx : S.whole _ b pos with
      | error x => exact this.1 x hx
      | ok r => exact this.2 r.1 r.2 hx

/-- Reading a message ends in a value, never beyond the data, or an expected failure. -/
theorem fields_within (h : Usable p) (he : E e) (hS : Polite S p E b)
    (hF : FunsFor S e p fn) {s : Struct} (hs : s ∈ p.structs ++ p.messages) {f : RFun}
    (hf : FunFor S e p s.members f) {pos : Nat}
    (hp : pos ≤ b.length) : Within E b pos (runFun S (readAtom S fn b (depth p)) b pos f) := by
  rw [runFun_eq hf]
  have := readMembers_within h he hS hf.body
    (fun m hm a ha => readAtom_within h he hS hF p.structs.length (depth p) m.vartype a ha
      (fun ht => ⟨s, hs, m, hm, ht⟩) (h.fits _) (by simp [depth])) pos hp
  split
  · rename_i hr; rw [hr] at this; exact this
  · rename_i hr; rw [hr] at this; exact this
end

end Beschi.Lang
