import Verif.Syntax.C
import Verif.Text.C
import Verif.Text.Lookup
import Verif.Text.CLibrary
/-
The text written for C is that of the functions in Verif/Lang/C.lean.
-/
namespace Beschi.Text.C.Link
open Beschi.Spec Beschi.Lang

variable {w : Writer} (T : Table w Syntax.C.native "char*") (hp : w.pref = Syntax.C.pre w.p)
  (hc : ∀ n : NumTy, w.codecs.lookup n.name = some (Lang.C.suffix n))

theorem c_full (p : Protocol) : (Syntax.C.sizes p).Full where
  init := by simp [Syntax.C.sizes]
  ret n := by simp [Syntax.C.sizes]
  add n := by simp [Syntax.C.sizes]
  addCount a n := by simp [Syntax.C.sizes]
  addText a := by simp [Syntax.C.sizes]
  addTextPlus k a := by simp [Syntax.C.sizes]
  loop v t a l hl := by
    simp [Syntax.C.sizes] at hl
    rcases hl with rfl; simp
  close := by simp [Syntax.C.sizes]

theorem upper_pre (p : Protocol) : upper (Syntax.C.pre p) = Syntax.C.up p := rfl

theorem read_prim (n : NumTy) : Syntax.C.read ("Read" ++ Lang.C.suffix n) = Syntax.C.native n := by cases n <;> rfl
theorem written_prim (n : NumTy) : Syntax.C.written ("Write" ++ Lang.C.suffix n) = Syntax.C.native n := by cases n <;> rfl

theorem one_int : toString (((1 : Nat) : Nat) : Int) = "1" := rfl
theorem one_nat : toString (1 : Nat) = "1" := rfl

theorem indexed_none {n : String} (h : ∀ c ∈ n.toList, c ≠ ']') : indexed n = none := by
  unfold indexed
  split
  · rename_i cs hs
    exact absurd rfl (h ']' (List.mem_reverse.1 (hs ▸ List.mem_cons_self)))
  · rfl

theorem indexed_element (x : String) : indexed (x ++ "[i1]") = some (x, "i1") := by
  unfold indexed
  have : (x ++ "[i1]").toList.reverse = ']' :: '1' :: 'i' :: '[' :: x.toList.reverse := by
    rw [String.toList_append]; simp
  rw [this]
  simp [takeDigits]

include hc in
theorem codec_eq (n : NumTy) : w.codec n.name = .ok (Lang.C.suffix n) := by
  unfold Writer.codec Writer.look; rw [hc]

include hp in
theorem check_emits (a : Nat) : Emits w (errCheckReturn w) a (inside a (Syntax.C.check w.p)) a := by
  unfold errCheckReturn
  apply Emits.of_eq
  · emits []
  rows [Syntax.C.check, Syntax.C.block, hp, upper_pre]

/-! ### Reading and writing -/

include T hp hc

/-- Reading of a value that is not a list. -/
theorem deserializer_one {n t len acc : String} (hk : KnownType w.p t) (fuel a : Nat)
    (hlen : len = acc ++ match indexed n with | some (x, i) => x ++ "_els_len[" ++ i ++ "]" | none => n ++ "_len") :
    Emits w (deserializer w (fuel + 1) ⟨n, t, false⟩ acc) a
      (inside a (Syntax.C.readAtom w.p (acc ++ n) len n (Lang.C.atom w.p t))) a := by
  rw [deserializer, if_neg (by simp)]
  unfold Lang.C.atom
  cases T.usable.kind hk with
  | num k e ne num enum =>
    have hi : Writer.isNum t = true := by rw [e]; cases k <;> rfl
    have hcd : w.codec t = .ok (Lang.C.suffix k) := by rw [e]; exact codec_eq hc k
    simp only [ne, Protocol.isEnum, enum, Option.isSome_none, hi, hcd, num, beq_iff_eq, Bool.false_eq_true, if_false, if_true, emit_lift_ok, emit_pure_bind]
    apply Emits.of_eq
    · emits [check_emits hp _]
    rows [Syntax.C.readAtom, hp, Lang.C.readPrim]
  | text e num enum =>
    simp only [e, beq_self_eq_true, if_true]
    cases hx : indexed n with
    | none =>
      simp only [hx] at hlen ⊢
      apply Emits.of_eq
      · emits [check_emits hp _]
      rows [Syntax.C.readAtom, hp, hlen]
    | some x =>
      simp only [hx] at hlen ⊢
      apply Emits.of_eq
      · emits [check_emits hp _]
      rows [Syntax.C.readAtom, hp, hlen]
  | enum e mem name ne num enum =>
    simp only [ne, Protocol.isEnum, enum, Option.isSome_some, Table.enum_eq enum, T.type_num, codec_eq hc, num, beq_iff_eq, if_false, if_true, emit_lift_ok, emit_pure_bind]
    apply Emits.of_eq
    · emits [check_emits hp _]
    rows [Syntax.C.readAtom, Syntax.C.block, Syntax.C.invalid, hp, Lang.C.readPrim, read_prim, upper_pre]
  | struct s mem name ne num enum struct =>
    have hi : Writer.isNum t = false := by simp [Writer.isNum, num]
    simp only [ne, Protocol.isEnum, enum, Option.isSome_none, hi, num, beq_iff_eq, Bool.false_eq_true, if_false]
    apply Emits.of_eq
    · emits [check_emits hp _]
    rows [Syntax.C.readAtom, hp]

omit hp hc in
theorem elementType_atom {t : String} (hk : KnownType w.p t) :
    Syntax.C.elementType w.p (Lang.C.atom w.p t) =
      (if (Writer.isNum t || t == "string") = true then "" else Syntax.C.pre w.p) ++ nativeType Syntax.C.native "char*" t := by
  unfold Lang.C.atom nativeType Writer.isNum
  cases T.usable.kind hk with
  | num n e ne num enum => simp [ne, enum, num, Syntax.C.elementType, Lang.C.readPrim, read_prim]
  | text e num enum => subst e; rfl
  | enum e mem name ne num enum => simp [ne, enum, num, Syntax.C.elementType]
  | struct s mem name ne num enum => simp [ne, enum, num, Syntax.C.elementType]

theorem deserializer_emits {m : Variable} (hn : ∀ c ∈ m.name.toList, c ≠ ']') (hk : KnownType w.p m.vartype) :
    Emits w (deserializer w w.p.depth m "dst->") 1
      (inside 1 (Syntax.C.readStmt w.p (Lang.C.deserializer w.p m))) 1 := by
  unfold Lang.C.deserializer Protocol.depth
  cases hl : m.isList with
  | false =>
    obtain ⟨n, t, l⟩ := m; cases hl
    simp only [Bool.false_eq_true, if_false]
    refine (deserializer_one T hp hc hk _ 1 (len := "dst->" ++ n ++ "_len") ?_).of_eq ?_
    · simp only [indexed_none hn]; simp only [cat_assoc]
    · rfl
  | true =>
    simp only [if_true]
    rw [deserializer, if_pos hl]
    have hel := elementType_atom T hk
    have hpf : (if (Writer.isNum m.vartype || m.vartype == "string") = true then (pure "" : Emit String) else pure w.pref) =
        pure (if (Writer.isNum m.vartype || m.vartype == "string") = true then "" else Syntax.C.pre w.p) := by
      rw [hp]; split <;> rfl
    simp only [T.listSize, T.stringSize, codec_eq hc, emit_lift_ok, emit_pure_bind, T.type_known hk, hpf]
    generalize (if (Writer.isNum m.vartype || m.vartype == "string") = true then "" else Syntax.C.pre w.p) = px at hel ⊢
    generalize nativeType Syntax.C.native "char*" m.vartype = ty at hel ⊢
    cases he : w.p.isEnum m.vartype with
    | false =>
      have hin := fun fuel a => deserializer_one T hp hc (n := m.name ++ "[i1]") (acc := "dst->") (len := "dst->" ++ m.name ++ "_els_len[i1]") hk fuel a
        (by simp only [indexed_element]; simp [cat_assoc])
      have hnm : (toString m.name ++ toString "[i" ++ toString (((1 : Nat) : Nat) : Int) ++ toString "]") = m.name ++ "[i1]" := by
        simp only [str_toString, one_int, cat_assoc]; rfl
      have hat : Lang.C.atom w.p m.vartype = .text ↔ m.vartype = "string" := by
        unfold Lang.C.atom
        cases T.usable.kind hk with
        | num n e ne num enum => simp [ne, enum, num]
        | text e num enum => simp [e]
        | enum e mem name ne num enum => simp [Protocol.isEnum, enum] at he
        | struct s mem name ne num enum => simp [ne, enum, num]
      have hany : ∀ y z, Syntax.C.readAtom w.p y z (m.name ++ "[i1]") (Lang.C.atom w.p m.vartype) =
          Syntax.C.readAtom w.p y z m.name (Lang.C.atom w.p m.vartype) := by
        intro y z
        unfold Lang.C.atom
        cases T.usable.kind hk with
        | num n e ne num enum => simp [ne, enum, num, Syntax.C.readAtom]
        | text e num enum => simp [e, Syntax.C.readAtom]
        | enum e mem name ne num enum => simp [Protocol.isEnum, enum] at he
        | struct s mem name ne num enum => simp [ne, enum, num, Syntax.C.readAtom]
      generalize Lang.C.atom w.p m.vartype = at_ at hat hany hel hin ⊢
      by_cases ht : m.vartype = "string"
      · have hat := hat.2 ht
        subst hat
        simp only [if_false, if_true, Bool.false_eq_true, ht, beq_self_eq_true]
        apply Emits.of_eq
        · emits [check_emits hp _]
          apply Emits.level
          rw [ht] at hin
          simp only [hnm]
          emits [check_emits hp _, hin _ _]
        rows [Syntax.C.readStmt, Syntax.C.block, Syntax.C.loop, Syntax.C.name, Syntax.C.room, Syntax.C.rooms, one_int, one_nat, hp, upper_pre,
          Lang.C.readPrim, read_prim, hany, ← hel]
      · simp only [if_false, Bool.false_eq_true, beq_iff_eq, ht]
        apply Emits.of_eq
        · emits [check_emits hp _]
          apply Emits.level
          simp only [hnm]
          emits [check_emits hp _, hin _ _]
        cases at_ with
        | text => exact absurd (hat.1 rfl) ht
        | _ => rows [Syntax.C.readStmt, Syntax.C.block, Syntax.C.loop, Syntax.C.name, Syntax.C.room, Syntax.C.rooms, one_int, one_nat, hp, upper_pre,
          Lang.C.readPrim, read_prim, hany, hel]
    | true =>
      obtain ⟨e, h1⟩ : ∃ e, w.p.enum? m.vartype = some e := Option.isSome_iff_exists.1 he
      have hat : Lang.C.atom w.p m.vartype = .enum (Lang.C.readPrim e.encoding) m.vartype ∧ m.vartype ≠ "string" := by
        cases T.usable.kind hk with
        | num m e ne num enum => rw [enum] at h1; cases h1
        | text e num enum => exact absurd (h1.symm.trans enum) (by simp)
        | enum e mem name ne num enum => rw [enum] at h1; cases h1; exact ⟨by simp [Lang.C.atom, ne, enum], ne⟩
        | struct s mem name ne num enum struct => rw [enum] at h1; cases h1
      rw [hat.1] at hel ⊢
      simp only [Lang.C.readPrim] at hel
      simp only [if_true, if_false, Bool.false_eq_true, beq_iff_eq, hat.2, Table.enum_eq h1, T.type_num, codec_eq hc, emit_lift_ok, emit_pure_bind]
      apply Emits.of_eq
      · emits [check_emits hp _]
        apply Emits.level
        emits [check_emits hp _]
      rows [Syntax.C.readStmt, Syntax.C.readAtom, Syntax.C.block, Syntax.C.invalid, Syntax.C.loop, Syntax.C.name, Syntax.C.room, Syntax.C.rooms, one_int, one_nat, hp, upper_pre,
        Lang.C.readPrim, read_prim, hel]

/-- Writing of a value that is not a list. -/
theorem serializer_one {n t len acc : String} (hk : KnownType w.p t) (fuel a : Nat)
    (hlen : len = acc ++ match indexed n with | some (x, i) => x ++ "_els_len[" ++ i ++ "]" | none => n ++ "_len") :
    Emits w (serializer w (fuel + 1) ⟨n, t, false⟩ acc) a
      (inside a (Syntax.C.writeAtom w.p (w.p.enum? t).isSome (acc ++ n) len (Lang.C.watom w.p t))) a := by
  rw [serializer, if_neg (by simp)]
  unfold Lang.C.watom
  cases T.usable.kind hk with
  | num k e ne num enum =>
    have hi : Writer.isNum t = true := by rw [e]; cases k <;> rfl
    have hcd : w.codec t = .ok (Lang.C.suffix k) := by rw [e]; exact codec_eq hc k
    simp only [ne, Protocol.isEnum, enum, Option.isSome_none, hi, hcd, num, beq_iff_eq, Bool.false_eq_true, if_false, if_true, emit_lift_ok, emit_pure_bind]
    apply Emits.of_eq
    · emits [check_emits hp _]
    rows [Syntax.C.writeAtom, hp, Lang.C.writePrim]
  | text e num enum =>
    simp only [e, beq_self_eq_true, if_true]
    cases hx : indexed n with
    | none =>
      simp only [hx] at hlen ⊢
      apply Emits.of_eq
      · emits [check_emits hp _]
      rows [Syntax.C.writeAtom, hp, hlen]
    | some x =>
      simp only [hx] at hlen ⊢
      apply Emits.of_eq
      · emits [check_emits hp _]
      rows [Syntax.C.writeAtom, hp, hlen]
  | enum e mem name ne num enum =>
    simp only [ne, Protocol.isEnum, enum, Option.isSome_some, Table.enum_eq enum, T.type_num, codec_eq hc, num, beq_iff_eq, if_false, if_true, emit_lift_ok, emit_pure_bind]
    apply Emits.of_eq
    · emits [check_emits hp _]
    rows [Syntax.C.writeAtom, hp, Lang.C.writePrim, written_prim]
  | struct s mem name ne num enum struct =>
    have hi : Writer.isNum t = false := by simp [Writer.isNum, num]
    simp only [ne, Protocol.isEnum, enum, Option.isSome_none, hi, num, beq_iff_eq, Bool.false_eq_true, if_false]
    apply Emits.of_eq
    · emits [check_emits hp _]
    rows [Syntax.C.writeAtom, hp]

theorem serializer_emits {m : Variable} (hn : ∀ c ∈ m.name.toList, c ≠ ']') (hk : KnownType w.p m.vartype) :
    Emits w (serializer w w.p.depth m "src->") 1
      (inside 1 (Syntax.C.writeStmt w.p m.vartype (Lang.C.serializer w.p m))) 1 := by
  unfold Lang.C.serializer Protocol.depth
  cases hl : m.isList with
  | false =>
    obtain ⟨n, t, l⟩ := m; cases hl
    simp only [Bool.false_eq_true, if_false]
    refine (serializer_one T hp hc hk _ 1 (len := "src->" ++ n ++ "_len") ?_).of_eq ?_
    · simp only [indexed_none hn]; simp only [cat_assoc]
    · rfl
  | true =>
    simp only [if_true]
    rw [serializer, if_pos hl]
    have hin := fun fuel a => serializer_one T hp hc (n := m.name ++ "[i1]") (acc := "src->") (len := "src->" ++ m.name ++ "_els_len[i1]") hk fuel a
      (by simp only [indexed_element]; simp [cat_assoc])
    have hnm : (toString m.name ++ toString "[i" ++ toString (((1 : Nat) : Nat) : Int) ++ toString "]") = m.name ++ "[i1]" := by
      simp only [str_toString, one_int, cat_assoc]; rfl
    simp only [T.listSize, codec_eq hc, emit_lift_ok, emit_pure_bind, emit_bind_assoc]
    apply Emits.of_eq
    · emits [check_emits hp _]
      apply Emits.level
      simp only [hnm]
      emits [check_emits hp _, hin _ _]
    rows [Syntax.C.writeStmt, Syntax.C.block, Syntax.C.loop, one_int, one_nat, hp, Lang.C.writePrim, written_prim]

/-! ### Sizes -/

omit T hp hc

/-- What precedes the name of a member. -/
def access (a : MPath) : String := if a.steps = [] then a.root ++ "->" else Syntax.C.path a ++ "."

theorem path_snoc (r : String) {ss : List MStep} (h : ss ≠ []) (x : MStep) :
    Syntax.C.path ⟨r, ss ++ [x]⟩ = Syntax.C.path ⟨r, ss⟩ ++ Syntax.step x := by
  cases ss with
  | nil => exact absurd rfl h
  | cons y ys =>
    simp only [Syntax.C.path, List.cons_append, List.map_append, List.map_cons, List.map_nil, join_snoc, cat_assoc]

theorem path_field (a : MPath) (n : String) : Syntax.C.path (a.dot n) = access a ++ n := by
  obtain ⟨r, ss⟩ := a
  cases ss with
  | nil => simp [access, MPath.dot, Syntax.C.path, Syntax.C.first, cat_assoc]
  | cons y ys =>
    have := path_snoc r (ss := y :: ys) (by simp) (.fld n)
    rw [show (⟨r, y :: ys⟩ : MPath).dot n = ⟨r, (y :: ys) ++ [.fld n]⟩ from rfl, this]
    simp only [access, Syntax.step, cat_assoc, str_toString, List.cons_ne_nil, if_false]

theorem path_index (a : MPath) (n v : String) :
    Syntax.C.path ((a.dot n).at v) = access a ++ n ++ "[" ++ v ++ "]" := by
  have := path_snoc a.root (ss := a.steps ++ [.fld n]) (by simp) (.idx v)
  rw [show (a.dot n).at v = ⟨a.root, (a.steps ++ [.fld n]) ++ [.idx v]⟩ from rfl, this,
    show (⟨a.root, a.steps ++ [.fld n]⟩ : MPath) = a.dot n from rfl, path_field]
  simp only [Syntax.step, str_toString, cat_assoc]

theorem length_index (a : MPath) (n v : String) :
    Syntax.C.length ((a.dot n).at v) = access a ++ n ++ "_els_len[" ++ v ++ "]" := by
  unfold Syntax.C.length
  have h1 : ((a.dot n).at v).steps = (a.steps ++ [.fld n]) ++ [.idx v] := rfl
  rw [h1, List.getLast?_concat, List.dropLast_concat]
  simp only []
  rw [show (⟨((a.dot n).at v).root, a.steps ++ [.fld n]⟩ : MPath) = a.dot n from rfl, path_field]

theorem access_field (a : MPath) (n : String) : access (a.dot n) = access a ++ n ++ "." := by
  rw [← path_field]
  unfold access
  rw [if_neg (by simp [MPath.dot])]

theorem access_index (a : MPath) (n v : String) : access ((a.dot n).at v) = access a ++ n ++ "[" ++ v ++ "]" ++ "." := by
  rw [← path_index]
  unfold access
  rw [if_neg (by simp [MPath.at])]

include T

theorem genMeasurement_step {fuel lvl : Nat} {s : Struct} (hs : s ∈ w.p.structs ++ w.p.messages) {at_ : MPath}
    (ih : ∀ {v s'} {at_ : MPath} {lvl : Nat}, v ∈ s.members → s' ∈ w.p.structs → w.p.struct? v.vartype = some s' →
      ∃ ls n, measureStruct Lang.C.style w.p fuel s' at_ lvl = some (ls, n) ∧
        Gives (genMeasurement w fuel s' (access at_)) lvl ((Syntax.C.sizes w.p).texts w.tab ls, n) lvl) :
    ∃ ls n, measureStruct Lang.C.style w.p (fuel + 1) s at_ lvl = some (ls, n) ∧
      Gives (genMeasurement w (fuel + 1) s (access at_)) lvl ((Syntax.C.sizes w.p).texts w.tab ls, n) lvl := by
  rw [genMeasurement, measureStruct]
  simp only [structSimple_eq T.usable hs, emit_lift_ok, emit_pure_bind]
  by_cases hz : w.p.simpleStruct s = true
  · refine ⟨_, _, by rw [if_pos hz], ?_⟩
    simp only [hz, if_true, sizeOf_struct_eq T.usable hs hz, emit_lift_ok, emit_pure_bind]
    texts [texts_one, Syntax.SizeSyntax.line, Syntax.C.sizes, Row.shown, repeated]
    exact .pure _
  · rw [if_neg hz, if_neg hz]
    rw [emit_eta fun _ => rfl]
    refine gives_struct (fun m hm => ?_) rfl (fun x => rfl)
    have hk := T.usable.types s hs m hm
    unfold measureMember
    cases hl : m.isList with
    | true =>
      simp only [simple_eq T.usable hk (.inr rfl), T.listSize, emit_lift_ok, emit_pure_bind, if_true]
      by_cases hs : w.p.simpleVar m true = true
      · refine ⟨_, _, if_pos hs, fun n ls => ?_⟩
        simp only [emit_bind_assoc]
        refine Gives.bind .level ?_
        rw [if_pos hs, sizeOf_eq T.usable hk (.inr rfl) hs]
        texts [texts_one, Syntax.SizeSyntax.line, Syntax.C.sizes, Row.shown, repeated, path_field]
        exact .pure _
      rw [if_neg hs]
      by_cases ht : m.vartype = "string"
      · refine ⟨_, _, if_pos ht, fun n ls => ?_⟩
        simp only [emit_bind_assoc]
        refine Gives.bind .level ?_
        rw [if_neg hs, if_pos (by simp [ht]), texts_loop (c_full w.p), texts_one]
        texts [Syntax.SizeSyntax.line, Syntax.C.sizes, Row.shown, repeated, path_field, length_index, Lang.C.style, MStyle.element, toString_cast]
        exact .pure _
      rw [if_neg ht]
      obtain ⟨s', h1, h2, h3⟩ := struct_varying T.usable hk (.inr rfl) hs ht
      obtain ⟨ls, n, h4, h5⟩ := ih (at_ := (at_.dot m.name).at ("i" ++ toString lvl)) (lvl := lvl + 1) hm h1 h2
      obtain ⟨ls, rfl⟩ := measured_init h3 h4
      refine ⟨_, _, by simp only [h2]; rw [show Lang.C.style.element (Lang.C.style.loopVar m.name lvl) (at_.dot m.name) = (at_.dot m.name).at ("i" ++ toString lvl) from rfl, h4], fun k lines => ?_⟩
      have h6 : Gives (genMeasurement w fuel s' (access at_ ++ (m.name ++ ("[i" ++ (toString lvl ++ "]."))))) (lvl + 1)
          ((Syntax.C.sizes w.p).texts w.tab (.init :: ls), n) (lvl + 1) := by
        rw [access_index] at h5
        simpa only [cat_assoc, mergeLiterals, String.reduceAppend] using h5
      simp only [emit_bind_assoc]
      refine Gives.bind .level ?_
      rw [if_neg hs, if_neg (by simpa using ht), texts_loop (c_full w.p)]
      simp only [emit_bind_assoc, struct_eq h2, emit_lift_ok, emit_pure_bind, toString_cast, cat_assoc, str_toString]
      refine Gives.bind .up ?_
      refine Gives.bind h6 ?_
      simp only [texts_cons, texts_append, texts_nil, dropInit, MLine.isInit, if_true]
      generalize (Syntax.C.sizes w.p).texts w.tab ls = X
      refine Gives.bind .down ?_
      refine Gives.bind (v := "*size = 0;") (.pure _) ?_
      refine (Gives.pure _).of_eq ?_
      texts [Syntax.SizeSyntax.line, Syntax.C.sizes, Row.shown, repeated, path_field, Lang.C.style, texts_one]
    | false =>
      simp only [simple_eq T.usable hk (.inl hl), emit_lift_ok, emit_pure_bind, if_false, Bool.false_eq_true]
      by_cases hs : w.p.simpleVar m false = true
      · refine ⟨_, _, if_pos hs, fun n ls => ?_⟩
        rw [if_pos hs, sizeOf_eq T.usable hk (.inl hl) hs]
        texts [Syntax.SizeSyntax.texts, Syntax.SizeSyntax.lines]
        exact .pure _
      rw [if_neg hs]
      by_cases ht : m.vartype = "string"
      · refine ⟨_, _, if_pos ht, fun n ls => ?_⟩
        rw [if_neg hs, if_pos (by simp [ht]), texts_one]
        texts [Syntax.SizeSyntax.line, Syntax.C.sizes, Row.shown, repeated, path_field]
        exact .pure _
      rw [if_neg ht]
      obtain ⟨s', h1, h2, h3⟩ := struct_varying T.usable hk (.inl hl) hs ht
      obtain ⟨ls, n, h4, h5⟩ := ih (at_ := at_.dot m.name) (lvl := lvl) hm h1 h2
      obtain ⟨ls, rfl⟩ := measured_init h3 h4
      refine ⟨_, _, by simp only [h2]; rw [show (if Lang.C.style.inlineDeeper then lvl + 1 else lvl) = lvl from rfl, h4], fun k lines => ?_⟩
      rw [if_neg hs, if_neg (by simpa using ht)]
      have h6 : Gives (genMeasurement w fuel s' (toString (access at_) ++ toString m.name ++ toString ".")) lvl
          ((Syntax.C.sizes w.p).texts w.tab (.init :: ls), n) lvl := by
        rw [access_field] at h5; exact h5
      simp only [struct_eq h2, emit_lift_ok, emit_pure_bind, emit_bind_assoc]
      refine Gives.bind h6 ?_
      simp only [texts_cons, dropInit, MLine.isInit, if_true]
      generalize (Syntax.C.sizes w.p).texts w.tab ls = X
      refine Gives.bind (v := "*size = 0;") (.pure _) ?_
      refine (Gives.pure _).of_eq ?_
      texts [Syntax.SizeSyntax.line, Syntax.C.sizes, Row.shown, repeated]

theorem genMeasurement_eq (fuel : Nat) {lvl : Nat} {s : Struct} (hs : s ∈ w.p.structs ++ w.p.messages)
    (hf : ∀ v ∈ s.members, fits w.p fuel v.vartype) {at_ : MPath} :
    ∃ ls n, measureStruct Lang.C.style w.p (fuel + 1) s at_ lvl = some (ls, n) ∧
      Gives (genMeasurement w (fuel + 1) s (access at_)) lvl ((Syntax.C.sizes w.p).texts w.tab ls, n) lvl := by
  induction fuel generalizing s at_ lvl with
  | zero => exact genMeasurement_step T hs (fun hv _ he => absurd (he.symm.trans (hf _ hv)) (by simp))
  | succ fuel ih => exact genMeasurement_step T hs (fun hv hs' he => ih (by simp [hs']) (hf _ hv _ he))

theorem measureFun_eq {s : Struct} (hs : s ∈ w.p.structs ++ w.p.messages) (lvl : Nat) :
    ∃ ls n, Gives (genMeasurement w w.p.depth s "m->") lvl ((Syntax.C.sizes w.p).texts w.tab ls, n) lvl ∧
      measureFun Lang.C.style w.p s "m" lvl = some ⟨if n > 0 then ls ++ [.add n] else ls, true⟩ := by
  obtain ⟨ls, n, h1, h2⟩ := genMeasurement_eq T (w.p.structs.length + 1) (lvl := lvl) hs
    (fun v _ => fits_succ (T.usable.fits v.vartype)) (at_ := ⟨"m", []⟩)
  refine ⟨ls, n, h2, ?_⟩
  unfold measureFun
  have : depth w.p = w.p.structs.length + 1 + 1 := rfl
  rw [this, h1]
  rfl

/-! ### Initial values -/

include hp

variable (hd : ∀ n : NumTy, w.defaults.lookup n.name = some (Syntax.C.zero n))
  (ho : ∀ t, NumTy.ofName? t = none → w.defaults.lookup t = none)
include hd ho

theorem genDefault_step {fuel a : Nat} {s : Struct} (hs : s ∈ w.p.structs ++ w.p.messages)
    (ih : ∀ {v s'}, v ∈ s.members → s' ∈ w.p.structs → w.p.struct? v.vartype = some s' →
      Emits w (genDefault w fuel s'.members) (a + 1) (inside (a + 1) (Syntax.C.initial w.p fuel s'.members)) (a + 1)) :
    Emits w (genDefault w (fuel + 1) s.members) a (inside a (Syntax.C.initial w.p (fuel + 1) s.members)) a := by
  rw [genDefault, Syntax.C.initial, inside_flatMap]
  refine Emits.each fun m hm => ?_
  have hk := T.usable.types s hs m hm
  unfold Syntax.C.initialOne Lang.C.default
  cases hl : m.isList with
  | true =>
    simp only [if_true]
    apply Emits.of_eq
    · emits [Emits.ite (fun _ => Emits.line _) (fun _ => Emits.pure)]
    simp only [beq_iff_eq]
    split <;> rows []
  | false =>
    simp only [Bool.false_eq_true, if_false]
    cases T.usable.kind hk with
    | num n e ne num enum =>
      have h1 : w.defaults.lookup m.vartype = some (Syntax.C.zero n) := by rw [e]; exact hd n
      have h2 : Writer.look w.defaults m.vartype = .ok (Syntax.C.zero n) := by unfold Writer.look; rw [h1]
      simp only [h1, h2, Option.isSome_some, if_true, num, emit_lift_ok, emit_pure_bind]
      refine (Emits.line _).of_eq ?_
      rows [Option.map_some, Option.getD_some]
    | text e num enum =>
      have h1 : (w.defaults.lookup m.vartype).isSome = false := by rw [e, ho _ (e ▸ num)]; rfl
      have num : NumTy.ofName? m.vartype = none := by rw [e]; rfl
      rw [e] at h1
      simp only [e, h1, Bool.false_eq_true, if_false, beq_self_eq_true, if_true, show NumTy.ofName? "string" = none from rfl]
      apply Emits.of_eq
      · emits []
      rows []
    | enum e mem name ne num enum =>
      obtain ⟨x, h2, h3, h4⟩ := default_pair T.usable mem
      have h1 : (w.defaults.lookup m.vartype).isSome = false := by rw [ho _ num]; rfl
      simp only [h1, ne, num, Protocol.isEnum, enum, Option.isSome_some, Table.enum_eq enum, h2, h4, beq_iff_eq, Bool.false_eq_true, if_false, if_true, emit_lift_ok, emit_pure_bind]
      refine (Emits.line _).of_eq ?_
      rows [entryName_default enum h4, hp, name]
    | struct s' mem name ne num enum struct =>
      have h1 : (w.defaults.lookup m.vartype).isSome = false := by rw [ho _ num]; rfl
      simp only [h1, ne, num, Protocol.isEnum, enum, Option.isSome_none, struct_eq struct, beq_iff_eq, Bool.false_eq_true, if_false, emit_lift_ok, emit_pure_bind]
      apply Emits.of_eq
      · emits [ih hm mem struct]
      rows [struct, Option.map_some, Option.getD_some]

theorem genDefault_emits (fuel : Nat) {a : Nat} {s : Struct} (hs : s ∈ w.p.structs ++ w.p.messages)
    (hf : ∀ v ∈ s.members, fits w.p fuel v.vartype) :
    Emits w (genDefault w (fuel + 1) s.members) a (inside a (Syntax.C.initial w.p (fuel + 1) s.members)) a := by
  induction fuel generalizing s a with
  | zero => exact genDefault_step T hp hd ho hs (fun hv _ he => absurd (he.symm.trans (hf _ hv)) (by simp))
  | succ fuel ih => exact genDefault_step T hp hd ho hs (fun hv hs' he => ih (by simp [hs']) (hf _ hv _ he))

theorem initial_emits {a : Nat} {s : Struct} (hs : s ∈ w.p.structs ++ w.p.messages) :
    Emits w (genDefault w w.p.depth s.members) a (inside a (Syntax.C.initial w.p (depth w.p) s.members)) a :=
  genDefault_emits T hp hd ho _ hs (fun v _ => fits_succ (T.usable.fits v.vartype))

/-! ### Release -/

omit hd ho hp

omit T in
theorem simple_list {m : Variable} (h : m.isList = true) : w.simple m false = .ok false ∧ w.p.simpleVar m false = false := by
  have : varIsSimple w.p w.p.depth m false = .ok false := by
    show (if m.isList && !false then _ else _) = _
    rw [h]; rfl
  unfold Writer.simple Protocol.simpleVar
  rw [this]; exact ⟨rfl, rfl⟩

omit T in
theorem simple_name (n t : String) : w.p.simpleVar ⟨n, t, false⟩ false = w.p.simpleVar ⟨"", t, false⟩ false := rfl

include hp

/-- A member, if what is not a list is known. -/
theorem destructor_var {k F a : Nat} {m : Variable} {acc : String} (hk : KnownType w.p m.vartype)
    (h1 : m.isList = false → Emits w (destructor w (F + 1) m acc) a
      (inside a (Syntax.C.cleanOne w.p k a m.vartype (acc ++ m.name))) a)
    (h2 : ∀ n, Emits w (destructor w F ⟨n, m.vartype, false⟩ acc) (a + 1)
      (inside (a + 1) (Syntax.C.cleanOne w.p k (a + 1) m.vartype (acc ++ n))) (a + 1)) :
    Emits w (destructor w (F + 1) m acc) a (inside a (Syntax.C.cleanVar w.p (Syntax.C.cleanOne w.p k) a acc m)) a := by
  unfold Syntax.C.cleanVar
  cases hl : m.isList with
  | false =>
    simp only [Bool.false_eq_true, if_false]
    by_cases hs : w.p.simpleVar m false = true
    · rw [if_pos hs, destructor]
      simp only [simple_eq T.usable hk (.inl hl), hs, emit_lift_ok, emit_pure_bind, if_true]
      exact Emits.pure
    · rw [if_neg hs]; exact h1 hl
  | true =>
    obtain ⟨e1, e2⟩ := simple_list (w := w) hl
    rw [destructor]
    simp only [e1, e2, hl, simple_eq T.usable hk (.inr rfl), T.listSize, emit_lift_ok, emit_pure_bind, if_true, if_false, Bool.false_eq_true]
    by_cases hs : w.p.simpleVar m true = true
    · rw [if_pos hs, if_pos hs]
      refine (Emits.line _).of_eq ?_
      rows [hp, upper_pre]
    · rw [if_neg hs, if_neg hs]
      apply Emits.of_eq
      · apply Emits.level
        emits [h2 _, Emits.ite (fun _ => Emits.line _) (fun _ => Emits.pure)]
      simp only [beq_iff_eq, toString_cast]
      split <;> rows [Syntax.C.loop, Syntax.C.block, hp, upper_pre, toString_cast]

/-- Something that is not a list, if the members of a struct are known. -/
theorem destructor_one {k F a : Nat} {n t acc : String} (hk : KnownType w.p t)
    (h : ∀ s' m acc, s' ∈ w.p.structs → w.p.struct? t = some s' → m ∈ s'.members →
      Emits w (destructor w F m acc) a (inside a (Syntax.C.cleanVar w.p (Syntax.C.cleanOne w.p k) a acc m)) a) :
    Emits w (destructor w (F + 1) ⟨n, t, false⟩ acc) a
      (inside a (Syntax.C.cleanOne w.p (k + 1) a t (acc ++ n))) a := by
  rw [destructor, Syntax.C.cleanOne]
  simp only [simple_eq T.usable (v := ⟨n, t, false⟩) hk (.inl rfl), simple_name n t, emit_lift_ok, emit_pure_bind, Bool.false_eq_true, if_false]
  by_cases hs : w.p.simpleVar ⟨"", t, false⟩ false = true
  · rw [if_pos hs, if_pos hs]; exact Emits.pure
  rw [if_neg hs, if_neg hs]
  by_cases ht : t = "string"
  · rw [if_pos (by simpa using ht), if_pos ht]
    refine (Emits.line _).of_eq ?_
    rows [hp, upper_pre]
  rw [if_neg (by simpa using ht), if_neg ht]
  obtain ⟨s', g1, g2, g3⟩ := struct_varying T.usable (v := ⟨"", t, false⟩) hk (.inl rfl) hs ht
  simp only [struct_eq g2, emit_lift_ok, emit_pure_bind]
  rw [show w.p.struct? t = some s' from g2, inside_flatMap]
  refine Emits.each fun m hm => ?_
  have := h s' m (acc ++ n ++ ".") g1 g2 hm
  exact this

/-- Enough fuel: two calls for each struct inside another. -/
theorem destructor_fuel (k : Nat) : ∀ {t : String} (_ : KnownType w.p t) (_ : fits w.p k t) (F a : Nat) (n acc : String),
    2 * k + 1 ≤ F → Emits w (destructor w F ⟨n, t, false⟩ acc) a
      (inside a (Syntax.C.cleanOne w.p (k + 1) a t (acc ++ n))) a := by
  induction k with
  | zero =>
    intro t hk hf F a n acc hF
    obtain ⟨F, rfl⟩ : ∃ F', F = F' + 1 := ⟨F - 1, by omega⟩
    exact destructor_one T hp hk fun s' m acc h1 h2 => absurd (h2.symm.trans hf) (by simp)
  | succ k ih =>
    intro t hk hf F a n acc hF
    obtain ⟨F, rfl⟩ : ∃ F', F = F' + 1 := ⟨F - 1, by omega⟩
    refine destructor_one T hp hk fun s' m acc h1 h2 hm => ?_
    obtain ⟨F, rfl⟩ : ∃ F', F = F' + 1 := ⟨F - 1, by omega⟩
    have hk' := T.usable.types s' (by simp [h1]) m hm
    have hf' := hf _ h2 m hm
    refine destructor_var T hp hk' (fun hl => ?_) (fun n => ih hk' hf' F (a + 1) n acc (by omega))
    obtain ⟨n, t, l⟩ := m; cases hl
    exact ih hk' hf' (F + 1) a n acc (by omega)

theorem destructor_emits {s : Struct} (hs : s ∈ w.p.structs ++ w.p.messages) {m : Variable} (hm : m ∈ s.members) :
    Emits w (destructor w (2 * w.p.depth) m "m->") 1
      (inside 1 (Syntax.C.cleanVar w.p (Syntax.C.cleanOne w.p (depth w.p)) 1 "m->" m)) 1 := by
  have hk := T.usable.types s hs m hm
  have hf : fits w.p (w.p.structs.length + 1) m.vartype := fits_succ (T.usable.fits m.vartype)
  obtain ⟨F, hF⟩ : ∃ F, 2 * w.p.depth = F + 1 := ⟨2 * w.p.depth - 1, by unfold Protocol.depth; omega⟩
  have hF' : 2 * (w.p.structs.length + 1) + 1 ≤ F := by unfold Protocol.depth at hF; omega
  rw [hF]
  refine destructor_var T hp hk (fun hl => ?_) (fun n => destructor_fuel T hp _ hk hf F 2 n _ hF')
  obtain ⟨n, t, l⟩ := m; cases hl
  exact destructor_fuel T hp _ hk hf (F + 1) 1 n _ (by omega)

/-! ### Functions of structs and messages -/

include hc hd ho

theorem genImplementation_emits (hb : ∀ s ∈ w.p.structs ++ w.p.messages, ∀ m ∈ s.members, ∀ c ∈ m.name.toList, c ≠ ']')
    {s : Struct} (hs : s ∈ w.p.structs ++ w.p.messages) :
    ∃ sz, measureFun Lang.C.style w.p s "m" 1 = some sz ∧
      Emits w (genImplementation w s.name s) 0 (inside 0 (Syntax.C.functions w.p s sz ++ flush [""])) 0 := by
  obtain ⟨ls, n, h1, h2⟩ := measureFun_eq T hs 1
  refine ⟨_, h2, ?_⟩
  unfold genImplementation
  have hk := T.usable.types s hs
  have hb := hb s hs
  have hl : ∀ a, inside a ((Syntax.C.sizes w.p).lines (if n > 0 then ls ++ [MLine.add n] else ls)) =
      inside a ((Syntax.C.sizes w.p).lines ls) ++ if n > 0 then [⟨a, "*size += " ++ (toString n ++ ";")⟩] else [] := by
    intro a
    split
    · rw [lines_append, inside_append]
      congr 1
      simp [Syntax.SizeSyntax.lines, Syntax.SizeSyntax.line, Syntax.C.sizes, inside, flush, cat_assoc]
    · rw [List.append_nil]
  have hm0 : (decide (s.members.length > 0) = true) = (List.map (Lang.C.deserializer w.p) s.members ≠ []) := by
    cases s.members <;> simp
  cases hm : s.isMessage with
  | true =>
    simp only [if_true, emit_bind_assoc]
    apply Emits.of_eq
    · emits [initial_emits T hp hd ho hs]
      apply Gives.emits h1
      emits [Emits.texts ls _,
        Emits.each fun m hm => destructor_emits T hp hs hm,
        check_emits hp _,
        Emits.each fun m hm => deserializer_emits T hp hc (hb m hm) (hk m hm),
        Emits.each fun m hm => serializer_emits T hp hc (hb m hm) (hk m hm),
        Emits.each fun m hm => Emits.line _,
        Emits.ite (fun _ => Emits.line _) (fun _ => Emits.pure)]
    simp only [hm0]
    rows [Syntax.C.functions, Syntax.C.constant, Syntax.C.size, Syntax.C.memory, Syntax.C.reader, Syntax.C.writer, Syntax.C.block, Syntax.C.readHead, Syntax.C.writeHead, Syntax.C.sizeHead,
      Syntax.C.createHead, Syntax.C.cleanupHead, Syntax.C.destroyHead,
      Syntax.C.fine, hm, hl, Lang.C.fromBytes, Lang.C.writeBytes, zip_map, hp, upper_pre]
  | false =>
    simp only [if_false, Bool.false_eq_true, emit_pure_bind]
    apply Emits.of_eq
    · emits [Emits.each fun m hm => deserializer_emits T hp hc (hb m hm) (hk m hm),
        Emits.each fun m hm => serializer_emits T hp hc (hb m hm) (hk m hm),
        Emits.ite (fun _ => Emits.line _) (fun _ => Emits.pure)]
    simp only [hm0]
    rows [Syntax.C.functions, Syntax.C.reader, Syntax.C.writer, Syntax.C.block, Syntax.C.readHead, Syntax.C.writeHead, Syntax.C.sizeHead,
      Syntax.C.createHead, Syntax.C.cleanupHead, Syntax.C.destroyHead,
      Syntax.C.fine, hm, Lang.C.fromBytes, Lang.C.writeBytes, zip_map, hp, upper_pre]

omit hc hd ho

/-! ### Types -/

theorem fields_emits {m : Variable} (hk : KnownType w.p m.vartype) (a : Nat) :
    Emits w (do
      if m.isList then
        w.line s!"{← w.listSize} {m.name}_len;"
        (do
          if m.vartype == "string" then
            w.line s!"{← w.listSize}* {m.name}_els_len;")
        if (Writer.isNum m.vartype || m.vartype == "string") then
          w.line s!"{← w.type m.vartype}* {m.name};"
        else if (w.p.isStruct m.vartype || w.p.isEnum m.vartype) then
          w.line s!"{w.pref}{m.vartype}* {m.name};"
      else if m.vartype == "string" then
        w.line s!"{← w.stringSize} {m.name}_len;"
        w.line s!"{← w.type m.vartype} {m.name};"
      else if Writer.isNum m.vartype then
        w.line s!"{← w.type m.vartype} {m.name};"
      else if w.p.isEnum m.vartype then
        w.line s!"{w.pref}{m.vartype} {m.name};"
      else if w.p.isStruct m.vartype then
        w.line s!"{w.pref}{m.vartype} {m.name};") a (inside a (flush (Syntax.C.fields w.p m))) a := by
  simp only [T.listSize, T.stringSize, T.type_known hk, emit_lift_ok, emit_pure_bind]
  unfold Syntax.C.fields Syntax.C.typeOf nativeType Writer.isNum
  cases hl : m.isList with
  | true =>
    simp only [if_true]
    cases T.usable.kind hk with
    | num n e ne num enum =>
      simp only [ne, num, Option.isSome_some, Bool.true_or, beq_iff_eq, if_true, if_false]
      apply Emits.of_eq
      · emits []
      rows []
    | text e num enum =>
      have num : NumTy.ofName? "string" = none := rfl
      simp only [e, num, Option.isSome_none, Bool.false_or, beq_self_eq_true, if_true]
      apply Emits.of_eq
      · emits []
      rows []
    | enum e mem name ne num enum =>
      have hs : (w.p.isStruct m.vartype || w.p.isEnum m.vartype) = true := by simp [Protocol.isEnum, enum]
      have hx : (m.vartype == "string") = false := by simpa using ne
      simp only [hx, hs, ne, num, Option.isSome_none, Bool.or_false, Bool.false_eq_true, if_true, if_false]
      apply Emits.of_eq
      · emits []
      rows [hp]
    | struct s mem name ne num enum struct =>
      have hs : (w.p.isStruct m.vartype || w.p.isEnum m.vartype) = true := by simp [Protocol.isStruct, struct]
      have hx : (m.vartype == "string") = false := by simpa using ne
      simp only [hx, hs, ne, num, Option.isSome_none, Bool.or_false, Bool.false_eq_true, if_true, if_false]
      apply Emits.of_eq
      · emits []
      rows [hp]
  | false =>
    simp only [Bool.false_eq_true, if_false]
    cases T.usable.kind hk with
    | num n e ne num enum =>
      simp only [ne, num, Option.isSome_some, beq_iff_eq, if_true, if_false]
      apply Emits.of_eq
      · emits []
      rows []
    | text e num enum =>
      have num : NumTy.ofName? "string" = none := rfl
      simp only [e, num, beq_self_eq_true, if_true]
      apply Emits.of_eq
      · emits []
      rows []
    | enum e mem name ne num enum =>
      have hs : w.p.isEnum m.vartype = true := by simp [Protocol.isEnum, enum]
      simp only [hs, ne, num, Option.isSome_none, beq_iff_eq, Bool.false_eq_true, if_true, if_false]
      apply Emits.of_eq
      · emits []
      rows [hp]
    | struct s mem name ne num enum struct =>
      have hs : w.p.isStruct m.vartype = true := by simp [Protocol.isStruct, struct]
      have he : w.p.isEnum m.vartype = false := by simp [Protocol.isEnum, enum]
      simp only [hs, he, ne, num, Option.isSome_none, beq_iff_eq, Bool.false_eq_true, if_true, if_false]
      apply Emits.of_eq
      · emits []
      rows [hp]

theorem genStruct_emits {s : Struct} (hs : s ∈ w.p.structs ++ w.p.messages) :
    Emits w (genStruct w s.name s) 0 (inside 0 (Syntax.C.type w.p s ++ flush ["", ""])) 0 := by
  unfold genStruct
  cases hm : s.isMessage with
  | true =>
    simp only [if_true]
    apply Emits.of_eq
    · emits [Emits.each fun m hm => fields_emits T hp (T.usable.types s hs m hm) _]
    rows [Syntax.C.type, Syntax.C.readHead, Syntax.C.writeHead, Syntax.C.sizeHead, Syntax.C.createHead, Syntax.C.cleanupHead,
      Syntax.C.destroyHead, hm, hp]
  | false =>
    simp only [if_false, Bool.false_eq_true]
    apply Emits.of_eq
    · emits [Emits.each fun m hm => fields_emits T hp (T.usable.types s hs m hm) _]
    rows [Syntax.C.type, Syntax.C.readHead, Syntax.C.writeHead, hm, hp]

omit T hp in
theorem commas_index {α : Type} (f : α × Nat → String) (l : List α) (k N : Nat) (hN : N = k + l.length - 1) :
    (l.zipIdx k).map (fun x => f x ++ if decide (x.2 < N) = true then "," else "") = Syntax.C.commas ((l.zipIdx k).map f) := by
  induction l generalizing k with
  | nil => rfl
  | cons x l ih =>
    cases l with
    | nil => simp [Syntax.C.commas, hN]
    | cons y ys =>
      have h := ih (k + 1) (by simp only [List.length_cons] at hN ⊢; omega)
      rw [List.zipIdx_cons, List.map_cons, h, List.map_cons]
      simp only [List.zipIdx_cons, List.map_cons, Syntax.C.commas]
      rw [if_pos (by simp only [List.length_cons] at hN; simp; omega)]

theorem genEnum_emits (e : Enum) :
    Emits w (genEnum w e.name e) 0 (inside 0 (Syntax.C.enum w.p e ++
      flush ["bool " ++ Syntax.C.pre w.p ++ "IsValid" ++ e.name ++ "(" ++ Syntax.C.native e.encoding ++ " value);", ""])) 0 := by
  unfold genEnum
  simp only [T.type_num, emit_lift_ok, emit_pure_bind]
  apply Emits.of_eq
  · emits [Emits.each fun x _ => Emits.line _]
  have h := commas_index (fun x : (String × Int) × Nat => Syntax.C.pre w.p ++ e.name ++ "_" ++ x.1.1 ++ " = " ++ toString x.1.2)
    e.values 0 (e.values.length - 1) (by simp)
  rw [show (e.values.zipIdx.map fun x : (String × Int) × Nat => Syntax.C.pre w.p ++ e.name ++ "_" ++ x.1.1 ++ " = " ++ toString x.1.2) =
    e.values.map fun x => Syntax.C.pre w.p ++ e.name ++ "_" ++ x.1 ++ " = " ++ toString x.2 by
      conv_rhs => rw [← List.zipIdx_map_fst 0 e.values]
      rw [List.map_map]; rfl] at h
  rw [Syntax.C.enum, ← h]
  rows [hp]

theorem genEnumImplementation_emits (e : Enum) :
    Emits w (genEnumImplementation w e.name e) 0 (inside 0 (Syntax.C.valid w.p e ++ flush [""])) 0 := by
  unfold genEnumImplementation
  simp only [T.type_num, emit_lift_ok, emit_pure_bind]
  apply Emits.of_eq
  · emits [Emits.each fun x _ => Emits.line _]
  rows [Syntax.C.valid, Syntax.C.block, hp]

/-! ### The file -/

/-- What the file contains. -/
def Contained (p : Protocol) (rs : List Row) : Prop :=
  (∃ e ∈ p.enums, rs = Syntax.C.enum p e) ∨ (∃ e ∈ p.enums, rs = Syntax.C.valid p e) ∨
  (∃ s ∈ p.structs ++ p.messages, rs = Syntax.C.type p s) ∨
  (∃ s ∈ p.structs ++ p.messages, ∃ sz, measureFun Lang.C.style p s "m" 1 = some sz ∧ rs = Syntax.C.functions p s sz) ∨
  rs = Syntax.C.messageTypes p (messageArms p 1) ∨ rs = Syntax.C.library p (messageArms p 1)

section
variable {rs : List Row} (hb : ∀ s ∈ w.p.structs ++ w.p.messages, ∀ m ∈ s.members, ∀ c ∈ m.name.toList, c ≠ ']')
include hc hd ho hb

/-- The parts of the file end at the level at which they start. -/
structure Level (w : Writer) : Prop where
  enums : Steps (each w.p.enums fun e => genEnum w e.name e) 0 0 Any
  types : ∀ s ∈ w.p.structs ++ w.p.messages, Steps (genStruct w s.name s) 0 0 Any
  structTypes : Steps (each w.p.structs fun s => genStruct w s.name s) 0 0 Any
  messageTypes : Steps (each w.p.messages fun s => genStruct w s.name s) 0 0 Any
  valid : Steps (each w.p.enums fun e => genEnumImplementation w e.name e) 0 0 Any
  bodies : ∀ s ∈ w.p.structs ++ w.p.messages, Steps (genImplementation w s.name s) 0 0 Any
  structs : Steps (each w.p.structs fun s => genImplementation w s.name s) 0 0 Any
  messages : Steps (each w.p.messages fun s => genImplementation w s.name s) 0 0 Any

theorem level : Level w := by
  have he : Steps (each w.p.enums fun e => genEnum w e.name e) 0 0 Any := .each fun e _ => (genEnum_emits T hp e).steps
  have hts : ∀ s ∈ w.p.structs ++ w.p.messages, Steps (genStruct w s.name s) 0 0 Any := fun s hs => (genStruct_emits T hp hs).steps
  have hs : Steps (each w.p.structs fun s => genStruct w s.name s) 0 0 Any := .each fun s hs => hts s (by simp [hs])
  have hm : Steps (each w.p.messages fun s => genStruct w s.name s) 0 0 Any := .each fun s hs => hts s (by simp [hs])
  have hei : Steps (each w.p.enums fun e => genEnumImplementation w e.name e) 0 0 Any :=
    .each fun e _ => (genEnumImplementation_emits T hp e).steps
  have his : ∀ s ∈ w.p.structs ++ w.p.messages, Steps (genImplementation w s.name s) 0 0 Any := fun s hs =>
    (genImplementation_emits T hp hc hd ho hb hs).choose_spec.2.steps
  have hsi : Steps (each w.p.structs fun s => genImplementation w s.name s) 0 0 Any := .each fun s hs => his s (by simp [hs])
  have hmi : Steps (each w.p.messages fun s => genImplementation w s.name s) 0 0 Any := .each fun s hs => his s (by simp [hs])
  exact ⟨he, hts, hs, hm, hei, his, hsi, hmi⟩

set_option maxRecDepth 4000 in
theorem generate_enum {e : Enum} (h : e ∈ w.p.enums) :
    Puts w.tab (generate w) 0 (inside 0 (Syntax.C.enum w.p e)) := by
  obtain ⟨he, hts, hs, hm, hei, his, hsi, hmi⟩ := level T hp hc hd ho hb
  unfold generate
  have k : Puts w.tab (each w.p.enums fun e => genEnum w e.name e) 0 (inside 0 (Syntax.C.enum w.p e)) :=
    .each (fun e _ => (genEnum_emits T hp e).steps) h
      ((genEnum_emits T hp e).puts (by rw [inside_append]; exact (List.prefix_append _ _).isInfix))
  find_puts [k.left (c := 0) (Q := Any) he fun _ _ => by steps [hs, hm, hei, hsi, hmi, (check_emits hp _).steps]] []

set_option maxRecDepth 4000 in
theorem generate_valid {e : Enum} (h : e ∈ w.p.enums) :
    Puts w.tab (generate w) 0 (inside 0 (Syntax.C.valid w.p e)) := by
  obtain ⟨he, hts, hs, hm, hei, his, hsi, hmi⟩ := level T hp hc hd ho hb
  unfold generate
  have k : Puts w.tab (each w.p.enums fun e => genEnumImplementation w e.name e) 0 (inside 0 (Syntax.C.valid w.p e)) :=
    .each (fun e _ => (genEnumImplementation_emits T hp e).steps) h
      ((genEnumImplementation_emits T hp e).puts (by rw [inside_append]; exact (List.prefix_append _ _).isInfix))
  find_puts [k.left (c := 0) (Q := Any) hei fun _ _ => by steps [hsi, hmi]] [he, hs, hm, (check_emits hp _).steps]

set_option maxRecDepth 4000 in
theorem generate_type {s : Struct} (h : s ∈ w.p.structs ++ w.p.messages) :
    Puts w.tab (generate w) 0 (inside 0 (Syntax.C.type w.p s)) := by
  obtain ⟨he, hts, hs, hm, hei, his, hsi, hmi⟩ := level T hp hc hd ho hb
  unfold generate
  have k : ∀ l : List Struct, (∀ s ∈ l, s ∈ w.p.structs ++ w.p.messages) → s ∈ l →
      Puts w.tab (each l fun s => genStruct w s.name s) 0 (inside 0 (Syntax.C.type w.p s)) := fun l hl hsl =>
    .each (fun s h => hts s (hl s h)) hsl
      ((genStruct_emits T hp h).puts (by rw [inside_append]; exact (List.prefix_append _ _).isInfix))
  rcases List.mem_append.1 h with h | h
  · have k := k _ (fun s hs => List.mem_append_left _ hs) h
    find_puts [k.left (c := 0) (Q := Any) hs fun _ _ => by steps [hm, hei, hsi, hmi, (check_emits hp _).steps]] [he]
  · have k := k _ (fun s hs => List.mem_append_right _ hs) h
    find_puts [k.left (c := 0) (Q := Any) hm fun _ _ => by steps [hei, hsi, hmi, (check_emits hp _).steps]] [he, hs]

set_option maxRecDepth 4000 in
theorem generate_functions {s : Struct} {sz : MFun} (h : s ∈ w.p.structs ++ w.p.messages) (hz : measureFun Lang.C.style w.p s "m" 1 = some sz) :
    Puts w.tab (generate w) 0 (inside 0 (Syntax.C.functions w.p s sz)) := by
  obtain ⟨he, hts, hs, hm, hei, his, hsi, hmi⟩ := level T hp hc hd ho hb
  unfold generate
  have k : ∀ l : List Struct, (∀ s ∈ l, s ∈ w.p.structs ++ w.p.messages) → s ∈ l →
      Puts w.tab (each l fun s => genImplementation w s.name s) 0 (inside 0 (Syntax.C.functions w.p s sz)) := fun l hl hsl => by
    refine .each (fun s h => his s (hl s h)) hsl ?_
    obtain ⟨sz', h1, h2⟩ := genImplementation_emits T hp hc hd ho hb h
    cases hz.symm.trans h1
    exact h2.puts (by rw [inside_append]; exact (List.prefix_append _ _).isInfix)
  rcases List.mem_append.1 h with h | h
  · have k := k _ (fun s hs => List.mem_append_left _ hs) h
    find_puts [k.left (c := 0) (Q := Any) hsi fun _ _ => by steps [hmi]] [he, hs, hm, hei, (check_emits hp _).steps]
  · have k := k _ (fun s hs => List.mem_append_right _ hs) h
    find_puts [k.left (c := 0) (Q := Any) hmi fun _ _ => by steps []] [he, hs, hm, hei, hsi, (check_emits hp _).steps]

set_option maxHeartbeats 400000 in
set_option maxRecDepth 4000 in
theorem generate_messageTypes :
    Puts w.tab (generate w) 0 (inside 0 (Syntax.C.messageTypes w.p (messageArms w.p 1))) := by
  obtain ⟨he, hts, hs, hm, hei, his, hsi, hmi⟩ := level T hp hc hd ho hb
  unfold generate
  iterate 11 skip_line []
  apply Puts.part (rs := inside 0 (Syntax.C.messageTypes w.p (messageArms w.p 1)))
  · apply Starts.puts
    apply Starts.of_eq
    · starts [Emits.each fun x _ => Emits.line _]
      steps [he, hs, hm, hei, hsi, hmi, (check_emits hp _).steps]
    have h := commas_index (fun x : Struct × Nat => Syntax.C.pre w.p ++ "MessageType_" ++ x.1.name ++ " = " ++ toString (x.2 + 1))
      w.p.messages 0 (w.p.messages.length - 1) (by simp)
    rw [Syntax.C.messageTypes, messageArms, List.map_map, Function.comp_def, ← h]
    rows [hp]
  · exact List.infix_rfl

set_option maxHeartbeats 1000000 in
set_option maxRecDepth 4000 in
theorem generate_library :
    Puts w.tab (generate w) 0 (inside 0 (Syntax.C.library w.p (messageArms w.p 1))) := by
  obtain ⟨he, hts, hs, hm, hei, his, hsi, hmi⟩ := level T hp hc hd ho hb
  unfold generate
  iterate 34 skip_line [he, hs, hm]
  apply Puts.part (rs := inside 0 (Syntax.C.library w.p (messageArms w.p 1) ++ flush [""]))
  · apply Starts.puts
    apply Starts.of_eq
    · starts_on [check_emits hp _, Emits.each fun x _ => by emits [check_emits hp _]]
      apply Starts.nil
      steps [hei, hsi, hmi]
    rows [Syntax.C.library, Syntax.C.typeOfMessage, Syntax.C.sizeAny, Syntax.C.writeAny, Syntax.C.destroyAny, Syntax.C.anyMessage,
      Syntax.C.process, Syntax.C.destroyList, Syntax.C.packedSize, Syntax.C.pack, Syntax.C.unpack, Syntax.C.result, Syntax.C.arm,
      Syntax.C.other, Syntax.C.room, Syntax.C.block, Syntax.C.fine, Syntax.C.invalid, Syntax.C.check, upper_pre,
      flatMap_index w.p.messages 0, messageArms, List.length_map, List.length_zipIdx, hp]
  · rw [inside_append]; exact (List.prefix_append _ _).isInfix

theorem generate_puts (h : Contained w.p rs) : Puts w.tab (generate w) 0 (inside 0 rs) := by
  unfold Contained at h
  obtain h | h | h | h | h | h := h
  · obtain ⟨e, h, rfl⟩ := h
    exact generate_enum T hp hc hd ho hb h
  · obtain ⟨e, h, rfl⟩ := h
    exact generate_valid T hp hc hd ho hb h
  · obtain ⟨e, h, rfl⟩ := h
    exact generate_type T hp hc hd ho hb h
  · obtain ⟨e, h, sz, hz, rfl⟩ := h
    exact generate_functions T hp hc hd ho hb h hz
  · rw [h]
    exact generate_messageTypes T hp hc hd ho hb
  · rw [h]
    exact generate_library T hp hc hd ho hb

/-- What is filled in for the prefix. -/
def Prefixed (w : Writer) (a b : String) : Prop :=
  w.subs = [("beschi", .text a), ("BESCHI", .text b)] ∨ w.subs = [] ∧ a = "beschi" ∧ b = "BESCHI"

omit T hp hc hd ho hb in
theorem Prefixed.boilerplate {a b : String} (h : Prefixed w a b) (rest : List (String × Sub)) (i : Nat) :
    w.addBoilerplate (w.subs ++ rest) i = w.addBoilerplate (("beschi", .text a) :: ("BESCHI", .text b) :: rest) i := by
  rcases h with h | ⟨h, rfl, rfl⟩
  · rw [h]; rfl
  · rw [h]
    unfold Writer.addBoilerplate
    rw [List.foldl_cons, List.foldl_cons, substitute_self (by decide), substitute_self (by decide)]
    rfl

omit T hp hd ho hb in
theorem codec_num (n : NumTy) : w.codec n.name = .ok (Lang.C.suffix n) := by
  unfold Writer.codec Writer.look
  rw [hc]

set_option maxRecDepth 4000 in
theorem generate_basics0 {a b : String} (hs : Prefixed w a b) (ha : ∀ c ∈ a.toList, nameLike c = true)
    (hbn : ∀ c ∈ b.toList, nameLike c = true) (hx : ¬ ['B', 'E', 'S', 'C', 'H', 'I'] <:+: a.toList)
    (hl : w.boilerplate 0 = Boilerplate.c0) (hn : w.nativeTab = "    ") (h : Library0 a b w.p.stringSize rs) :
    Puts w.tab (generate w) 0 (inside 0 rs) := by
  obtain ⟨he, hts, hss, hm, hei, his, hsi, hmi⟩ := level T hp hc hd ho hb
  unfold generate
  simp only [codec_num hc, T.stringSize, emit_lift_ok, emit_pure_bind, hs.boilerplate]
  iterate 7 skip_line []
  refine Puts.left (c := 0) (Q := Any) (library0_puts ha hbn hx hl hn h 0) Steps.boilerplate fun _ _ => ?_
  steps [he, hss, hm, hei, hsi, hmi, (check_emits hp _).steps]

set_option maxRecDepth 4000 in
theorem generate_basics1 {a b : String} (hs : Prefixed w a b) (ha : ∀ c ∈ a.toList, nameLike c = true)
    (hbn : ∀ c ∈ b.toList, nameLike c = true) (hx : ¬ ['B', 'E', 'S', 'C', 'H', 'I'] <:+: a.toList)
    (hl : w.boilerplate 1 = Boilerplate.c1) (hn : w.nativeTab = "    ") (h : Library1 a b w.p.stringSize rs) :
    Puts w.tab (generate w) 0 (inside 0 rs) := by
  obtain ⟨he, hts, hss, hm, hei, his, hsi, hmi⟩ := level T hp hc hd ho hb
  unfold generate
  simp only [codec_num hc, T.stringSize, emit_lift_ok, emit_pure_bind, hs.boilerplate]
  iterate 28 skip_line [he, hss, hm]
  refine Puts.left (c := 0) (Q := Any) (library1_puts ha hbn hx hl hn h 0) Steps.boilerplate fun _ _ => ?_
  steps [hei, hsi, hmi, (check_emits hp _).steps]

end

end Beschi.Text.C.Link
