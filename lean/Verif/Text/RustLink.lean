import Verif.Syntax.Rust
import Verif.Text.Rust
import Verif.Text.Lookup
import Verif.Text.RustLibrary
/-
The text written for Rust is that of the statements in Verif/Lang/Rust.lean.
-/
namespace Beschi.Text.Rust.Link
open Beschi.Spec Beschi.Lang

variable {w : Writer} (T : Table w Lang.Rust.native "String")

theorem rust_full : Syntax.Rust.sizes.Full where
  init := by decide
  ret n := by simp [Syntax.Rust.sizes, str_toString]
  add n := by simp [Syntax.Rust.sizes, str_toString]
  addCount a n := by simp [Syntax.Rust.sizes, str_toString]
  addText a := by simp [Syntax.Rust.sizes, str_toString]
  addTextPlus k a := by simp [Syntax.Rust.sizes, str_toString]
  loop v t a l hl := by simp [Syntax.Rust.sizes] at hl; subst hl; simp [str_toString]
  close := by decide

include T

theorem deserializer_one {n t : String} (hk : KnownType w.p t) (fuel a : Nat) (acc : String) :
    Emits w (deserializer w (fuel + 1) ⟨n, t, false⟩ acc) a (inside a (Syntax.Rust.readAtom n (Lang.Rust.atom w.p t))) a := by
  rw [deserializer, if_neg (by simp)]
  unfold Lang.Rust.atom
  cases T.usable.kind hk with
  | num m e ne num enum =>
    subst e
    have ht := T.type_num m
    cases m <;> simp only [NumTy.name] at num ht ⊢ <;>
    simp [Writer.isNum, num, ht] <;>
    refine (Emits.line _).of_eq ?_ <;>
    texts [Syntax.Rust.readAtom, Lang.Rust.numPrim, Lang.Rust.readPrim, Lang.Rust.native, Syntax.Rust.call]
  | text e num =>
    subst e
    simp [Writer.isNum, num]
    refine (Emits.line _).of_eq ?_ 
    texts [Syntax.Rust.readAtom]
  | enum e mem name ne num enum =>
    simp [Writer.isNum, num, ne, Protocol.isEnum, enum, Table.enum_eq enum, T.type_num]
    refine ((Emits.line _).bind (Emits.line _)).of_eq ?_ 
    cases e.encoding <;> 
    texts [Syntax.Rust.readAtom, Lang.Rust.readPrim, Lang.Rust.native, Syntax.Rust.call]
  | struct s mem name ne num enum struct =>
    simp [Writer.isNum, num, ne, Protocol.isEnum, enum]
    refine (Emits.line _).of_eq ?_ 
    texts [Syntax.Rust.readAtom]

theorem typeOf_atom {t : String} (hk : KnownType w.p t) :
    Syntax.Rust.typeOf (Lang.Rust.atom w.p t) = nativeType Lang.Rust.native "String" t := by
  unfold Lang.Rust.atom nativeType
  cases T.usable.kind hk with
  | num m e ne num enum => subst e; rw [num]; cases m <;> rfl
  | text e num => subst e; rw [num]; rfl
  | enum e mem name ne num enum => simp [num, ne, enum, Syntax.Rust.typeOf]
  | struct s mem name ne num enum struct => simp [num, ne, enum, Syntax.Rust.typeOf]

theorem deserializer_emits {m : Variable} (hk : KnownType w.p m.vartype) (a : Nat) (acc : String) :
    Emits w (deserializer w w.p.depth m acc) a (inside a (Syntax.Rust.readStmt (Lang.Rust.deserializer w.p m))) a := by
  unfold Lang.Rust.deserializer
  cases hl : m.isList with
  | false => 
    obtain ⟨n, t, l⟩ := m; cases hl
    exact deserializer_one T hk _ a acc
  | true =>
    unfold Protocol.depth
    rw [deserializer, if_pos hl]
    simp [T.listSize, T.lookup_known hk, T.type_known hk]
    apply Emits.of_eq
    · emits [deserializer_one T hk _ _ _]
    simp only [Syntax.Rust.readStmt, Syntax.Rust.place, typeOf_atom T hk, inside_append, inside_inside]
    cases hz : w.p.listSize <;>
    texts [Lang.Rust.readPrim, Lang.Rust.native, Syntax.Rust.call, Nat.add_comm]

theorem serializer_one {n t acc : String} (hk : KnownType w.p t) (fuel a : Nat) {listed : Bool}  :
    Emits w (serializer w (fuel + 1) ⟨n, t, false⟩ acc) a
      (inside a (Syntax.Rust.writeAtom w.p.stringSize (w.p.isEnum t) (acc ++ n) (Lang.Rust.watom w.p listed t))) a := by
  rw [serializer, if_neg (by simp)]
  unfold Lang.Rust.watom
  cases T.usable.kind hk with
  | num m e ne num enum =>
    subst e
    cases m <;> simp only [NumTy.name] at num enum ⊢ <;>
    simp [Writer.isNum, num, Protocol.isEnum, enum] <;>
    refine (Emits.line _).of_eq ?_ <;> cases listed <;>
    texts [Syntax.Rust.writeAtom, Lang.Rust.native, Lang.Rust.writable, Syntax.Rust.written]
  | text e num =>
    subst e
    simp [Writer.isNum, num, T.stringSize]
    refine ((Emits.line _).bind (Emits.line _)).of_eq ?_ 
    texts [Syntax.Rust.writeAtom]
  | enum e mem name ne num enum =>
    simp [Writer.isNum, num, ne, Protocol.isEnum, enum, Table.enum_eq enum, T.type_num]
    rcases enc_cases (T.usable.enums e mem) with he | he | he <;> rw [he] <;> simp only [NumTy.name] <;> simp <;>
    refine (Emits.line _).of_eq ?_ <;>
    texts [Syntax.Rust.writeAtom, Lang.Rust.native, Lang.Rust.writable, Syntax.Rust.written]
  | struct s mem name ne num enum struct =>
    simp [Writer.isNum, num, ne, Protocol.isEnum, enum]
    refine (Emits.line _).of_eq ?_ 
    texts [Syntax.Rust.writeAtom]

theorem serializer_emits {m : Variable} (hk : KnownType w.p m.vartype) (a : Nat) :
    Emits w (serializer w w.p.depth m "self.") a
      (inside a (Syntax.Rust.writeStmt w.p.stringSize (w.p.isEnum m.vartype) (Lang.Rust.serializer w.p m))) a := by
  unfold Lang.Rust.serializer
  cases hl : m.isList with
  | false => 
    obtain ⟨n, t, l⟩ := m; cases hl
    exact serializer_one T hk _ a
  | true =>
    unfold Protocol.depth
    rw [serializer, if_pos hl]
    simp [T.listSize]
    apply Emits.of_eq
    · emits [serializer_one T hk (listed := true) _ _]
    simp only [Syntax.Rust.writeStmt, inside_append, inside_inside]
    cases hz : w.p.listSize
    case bool => exact absurd hz T.usable.listSize.1
    all_goals cases w.p.isEnum m.vartype
    all_goals texts [Lang.Rust.native, Lang.Rust.writable, Syntax.Rust.written, Nat.add_comm]

theorem genMeasurement_step {fuel lvl : Nat} {s : Struct} (hs : s ∈ w.p.structs ++ w.p.messages) {at_ : MPath}
    (ih : ∀ {v s'} {at_ : MPath} {lvl : Nat}, v ∈ s.members → s' ∈ w.p.structs → w.p.struct? v.vartype = some s' →
      ∃ ls n, measureStruct Lang.Rust.style w.p fuel s' at_ lvl = some (ls, n) ∧
        genMeasurement w fuel s' (Syntax.path at_ ++ ".") = pure (Syntax.Rust.sizes.texts w.tab ls, n)) :
    ∃ ls n, measureStruct Lang.Rust.style w.p (fuel + 1) s at_ lvl = some (ls, n) ∧
      genMeasurement w (fuel + 1) s (Syntax.path at_ ++ ".") = pure (Syntax.Rust.sizes.texts w.tab ls, n) := by
  rw [genMeasurement, measureStruct]
  simp only [structSimple_eq T.usable hs, emit_lift_ok, emit_pure_bind]
  by_cases hz : w.p.simpleStruct s = true
  · refine ⟨_, _, by rw [if_pos hz], ?_⟩
    simp [hz, sizeOf_struct_eq T.usable hs hz]
    texts [texts_one, Syntax.SizeSyntax.line, Syntax.Rust.sizes, Row.shown, repeated]
  · rw [if_neg hz, if_neg hz]
    refine measured_struct (fun m hm => ?_) rfl (fun x => rfl)
    have hk := T.usable.types s hs m hm
    unfold measureMember
    cases hl : m.isList with
    | true =>
      simp only [simple_eq T.usable hk (.inr rfl), emit_lift_ok, emit_pure_bind, if_true]
      by_cases hs : w.p.simpleVar m true = true
      · refine ⟨_, _, if_pos hs, fun n ls => ?_⟩
        rw [if_pos hs, sizeOf_eq T.usable hk (.inr rfl) hs]
        texts [texts_one, Syntax.SizeSyntax.line, Syntax.Rust.sizes, Row.shown, repeated, path_dot]
      rw [if_neg hs]
      by_cases ht : m.vartype = "string"
      · refine ⟨_, _, if_pos ht, fun n ls => ?_⟩
        rw [if_neg hs, if_pos (by simp [ht]), texts_loop rust_full, texts_one]
        texts [Syntax.SizeSyntax.line, Syntax.Rust.sizes, Row.shown, repeated, path_dot, Lang.Rust.style, MStyle.element, path_root]
      rw [if_neg ht]
      obtain ⟨s', h1, h2, h3⟩ := struct_varying T.usable hk (.inr rfl) hs ht
      obtain ⟨ls, n, h4, h5⟩ := ih (at_ := ⟨"el", []⟩) (lvl := lvl + 1) hm h1 h2
      obtain ⟨ls, rfl⟩ := measured_init h3 h4
      refine ⟨_, _, by simp only [h2]; rw [show Lang.Rust.style.element (Lang.Rust.style.loopVar m.name lvl) (at_.dot m.name) = ⟨"el", []⟩ from rfl, h4], fun k lines => ?_⟩
      rw [if_neg hs, if_neg (by simpa using ht), texts_loop rust_full]
      have h6 : genMeasurement w fuel s' "el." = _ := h5
      simp only [struct_eq h2, emit_lift_ok, emit_pure_bind, h6, texts_cons, texts_append, texts_nil, dropInit, MLine.isInit, if_true]
      generalize Syntax.Rust.sizes.texts w.tab ls = X
      texts [Syntax.SizeSyntax.line, Syntax.Rust.sizes, Row.shown, repeated, path_dot, Lang.Rust.style, headLine, texts_one, dropInit, MLine.isInit]
    | false =>
      simp only [simple_eq T.usable hk (.inl hl), emit_lift_ok, emit_pure_bind, if_false, Bool.false_eq_true]
      by_cases hs : w.p.simpleVar m false = true
      · refine ⟨_, _, if_pos hs, fun n ls => ?_⟩
        rw [if_pos hs, sizeOf_eq T.usable hk (.inl hl) hs]
        texts [Syntax.SizeSyntax.texts, Syntax.SizeSyntax.lines]
      rw [if_neg hs]
      by_cases ht : m.vartype = "string"
      · refine ⟨_, _, if_pos ht, fun n ls => ?_⟩
        rw [if_neg hs, if_pos (by simp [ht]), texts_one]
        texts [Syntax.SizeSyntax.line, Syntax.Rust.sizes, Row.shown, repeated, path_dot]
      rw [if_neg ht]
      obtain ⟨s', h1, h2, h3⟩ := struct_varying T.usable hk (.inl hl) hs ht
      obtain ⟨ls, n, h4, h5⟩ := ih (at_ := at_.dot m.name) (lvl := lvl) hm h1 h2
      obtain ⟨ls, rfl⟩ := measured_init h3 h4
      refine ⟨_, _, by simp only [h2]; rw [show (if Lang.Rust.style.inlineDeeper then lvl + 1 else lvl) = lvl from rfl, h4], fun k lines => ?_⟩
      rw [if_neg hs, if_neg (by simpa using ht)]
      have h6 : genMeasurement w fuel s' (toString (Syntax.path at_ ++ ".") ++ toString m.name ++ toString ".") =
          pure (Syntax.Rust.sizes.texts w.tab (.init :: ls), n) := by
        rw [path_dot] at h5; exact h5
      simp only [struct_eq h2, emit_lift_ok, emit_pure_bind, h6, texts_cons, dropInit, MLine.isInit, if_true]
      generalize Syntax.Rust.sizes.texts w.tab ls = X
      texts [Syntax.SizeSyntax.line, Syntax.Rust.sizes, Row.shown, repeated, headLine, dropInit, MLine.isInit]

theorem genMeasurement_eq (fuel : Nat) {lvl : Nat} {s : Struct} (hs : s ∈ w.p.structs ++ w.p.messages)
    (hf : ∀ v ∈ s.members, fits w.p fuel v.vartype) {at_ : MPath} :
    ∃ ls n, measureStruct Lang.Rust.style w.p (fuel + 1) s at_ lvl = some (ls, n) ∧
      genMeasurement w (fuel + 1) s (Syntax.path at_ ++ ".") = pure (Syntax.Rust.sizes.texts w.tab ls, n) := by
  induction fuel generalizing s at_ lvl with
  | zero => exact genMeasurement_step T hs (fun hv _ he => absurd (he.symm.trans (hf _ hv)) (by simp))
  | succ fuel ih => exact genMeasurement_step T hs (fun hv hs' he => ih (by simp [hs']) (hf _ hv _ he))

theorem measureFun_eq {s : Struct} (hs : s ∈ w.p.structs ++ w.p.messages) :
    ∃ ls n, genMeasurement w w.p.depth s "self." = pure (Syntax.Rust.sizes.texts w.tab ls, n) ∧
      measureFun Lang.Rust.style w.p s "self" 0 =
        some ⟨if n > 0 then ls ++ [.add n] else ls, decide ((Syntax.Rust.sizes.texts w.tab ls).length > 1)⟩ := by
  obtain ⟨ls, n, h1, h2⟩ := genMeasurement_eq T (w.p.structs.length + 1) (lvl := 0) hs
    (fun v _ => fits_succ (T.usable.fits v.vartype)) (at_ := ⟨"self", []⟩)
  refine ⟨ls, n, h2, ?_⟩
  unfold measureFun
  have : depth w.p = w.p.structs.length + 1 + 1 := rfl
  rw [this, h1, measured_length h1]
  rfl

theorem member_emits {m : Variable} (hk : KnownType w.p m.vartype) (a : Nat) :
    Emits w (do
      if m.isList then
        if (w.types.lookup m.vartype).isSome then
          w.line s!"pub {m.name}: Vec<{← w.type m.vartype}>,"
        else
          w.line s!"pub {m.name}: Vec<{m.vartype}>,"
      else if (w.types.lookup m.vartype).isSome then
        w.line s!"pub {m.name}: {← w.type m.vartype},"
      else if w.p.isEnum m.vartype then
        let _e ← w.enum m.vartype
        w.line s!"pub {m.name}: {m.vartype}"
      else
        w.line s!"pub {m.name}: {m.vartype},") a [⟨a, s!"pub {m.name}: {Syntax.Rust.memberType w.p m},"⟩] a := by
  unfold Syntax.Rust.memberType
  rw [typeOf_atom T hk]
  cases hl : m.isList <;> simp [T.lookup_known hk, T.type_known hk]
  · exact Emits.line _
  · refine (Emits.line _).of_eq ?_
    texts []

theorem genStruct_emits {s : Struct} (hs : s ∈ w.p.structs ++ w.p.messages) (a : Nat) :
    ∃ sz, measureFun Lang.Rust.style w.p s "self" 0 = some sz ∧
      Emits w (genStruct w s.name s) a (inside a (Syntax.Rust.declaration w.p s ++ flush [""] ++
        Syntax.Rust.functions w.p (w.pref ++ "Error") (if s.isMessage then (Lang.Rust.core w.p).ident s.name else none) s sz ++
        flush [""])) a := by
  obtain ⟨ls, n, h1, h2⟩ := measureFun_eq T hs
  refine ⟨_, h2, ?_⟩
  unfold genStruct
  have hk := T.usable.types s hs
  rw [h1]
  have hf : ((Lang.Rust.fromBytes w.p s).result.map Syntax.Rust.field) = s.members.map (·.name) := by
    simp [Lang.Rust.fromBytes, Syntax.Rust.field]
  have hp : ((Lang.Rust.fromBytes w.p s).params = []) ↔ s.members.length = 0 := by
    unfold Lang.Rust.fromBytes
    cases s.members <;> simp
  have hl : ∀ a, inside a (Syntax.Rust.sizes.lines (if n > 0 then ls ++ [MLine.add n] else ls)) =
      inside a (Syntax.Rust.sizes.lines ls) ++ if n > 0 then [⟨a, s!"size += {n};"⟩] else [] := by
    intro a
    split
    · rw [lines_append, inside_append]
      congr 1
      simp [Syntax.SizeSyntax.lines, Syntax.SizeSyntax.line, Syntax.Rust.sizes, inside, flush]
    · rw [List.append_nil]
  cases hm : s.isMessage with
  | true =>
    obtain ⟨i, hi⟩ := message_number T.usable hs hm
    have hi' : (Lang.Rust.core w.p).ident s.name = some (i + 1) := by
      show (messageIndex w.p s.name).map (· + 1) = _
      unfold messageIndex; rw [hi]; rfl
    have hi'' : w.messageNumber s.name = .ok i := by unfold Writer.messageNumber; rw [hi]
    simp only [if_true, emit_pure_bind, hi', hi'', emit_lift_ok]
    apply Emits.of_eq
    · emits [Emits.each (g := fun m => [⟨_, s!"pub {m.name}: {Syntax.Rust.memberType w.p m},"⟩]) (fun m hm => member_emits T (hk m hm) _),
       Emits.each fun m hm => deserializer_emits T (hk m hm) _ _,
       Emits.each fun m hm => serializer_emits T (hk m hm) _,
       Emits.texts ls _,
       Emits.ite (fun _ => Emits.line _) (fun _ => Emits.pure)]
    rows [Syntax.Rust.functions, Syntax.Rust.declaration, Syntax.Rust.size, Syntax.Rust.reader, Syntax.Rust.writer, hf, hp,
      show (Lang.Rust.fromBytes w.p s).body = s.members.map (Lang.Rust.deserializer w.p) from rfl,
      show (Lang.Rust.writeBytes w.p s).body = s.members.map (Lang.Rust.serializer w.p) from rfl,
      hl, beq_iff_eq]
  | false =>
    simp only [if_false, Bool.false_eq_true, emit_pure_bind]
    apply Emits.of_eq
    · emits [Emits.each (g := fun m => [⟨_, s!"pub {m.name}: {Syntax.Rust.memberType w.p m},"⟩]) (fun m hm => member_emits T (hk m hm) _),
       Emits.each fun m hm => deserializer_emits T (hk m hm) _ _,
       Emits.each fun m hm => serializer_emits T (hk m hm) _,
       Emits.texts ls _,
       Emits.ite (fun _ => Emits.line _) (fun _ => Emits.pure)]
    rows [Syntax.Rust.functions, Syntax.Rust.declaration, Syntax.Rust.size, Syntax.Rust.reader, Syntax.Rust.writer, hf, hp,
      show (Lang.Rust.fromBytes w.p s).body = s.members.map (Lang.Rust.deserializer w.p) from rfl,
      show (Lang.Rust.writeBytes w.p s).body = s.members.map (Lang.Rust.serializer w.p) from rfl,
      hl, beq_iff_eq]

theorem genEnum_emits {e : Enum} (he : e ∈ w.p.enums) (a : Nat) :
    Emits w (genEnum w e.name e) a (inside a (Syntax.Rust.enum (w.pref ++ "Error") e ++ flush [""])) a := by
  unfold genEnum
  obtain ⟨x, hd, ht, _⟩ := default_pair T.usable he
  simp only [T.type_num, hd, emit_lift_ok, emit_pure_bind]
  apply Emits.of_eq
  · emits [Emits.each fun x _ => Emits.line _]
  rows [Syntax.Rust.enum, ht]

/-- The prefix that is used. -/
def prefOf (p : Protocol) : String :=
  match p.ns with
  | some (.str n) => n
  | _ => "Beschi"

omit T in
theorem prefOf_error (p : Protocol) : prefOf p ++ "Error" = Syntax.Rust.errorName p := by
  unfold prefOf Syntax.Rust.errorName
  cases p.ns with
  | none => rfl
  | some x => cases x <;> rfl

omit T in
theorem pref_steps (a : Nat) (subs : List (String × Sub)) :
    Steps (do
      if w.nsGiven then
        let subs := subs ++ [("Beschi", Sub.text (← w.nsText))]
        let w := { w with pref := (← w.nsText) }
        pure (subs, w)
      else
        pure (subs, { w with pref := "Beschi" })) a a (fun r => r.2 = { w with pref := prefOf w.p } ∧
          (prefOf w.p = "Beschi" ∧ r.1 = subs ∨ r.1 = subs ++ [("Beschi", Sub.text (prefOf w.p))])) := by
  refine Steps.ite (fun h => ?_) (fun h => ?_)
  · refine Steps.bind Steps.lift fun v hv => ?_
    refine Steps.bind Steps.lift fun u hu => Steps.pure ?_
    unfold Writer.nsGiven at h
    unfold Writer.nsText at hu
    cases hn : w.p.ns with
    | none => rw [hn] at h; cases h
    | some x =>
      unfold Writer.nsText at hv
      simp only [hn] at hu hv
      simp only [prefOf, hn]
      cases x <;> first | (cases hu; done) | (cases hu; cases hv; exact ⟨rfl, .inr rfl⟩)
  · refine Steps.pure ?_
    unfold Writer.nsGiven at h
    cases hn : w.p.ns with
    | none => simp only [prefOf, hn]; exact ⟨trivial, .inl ⟨trivial, trivial⟩⟩
    | some x => rw [hn] at h; simp at h

variable {tab : String} {rs : List Row}

theorem enums_steps : Steps (each w.p.enums fun e => genEnum w e.name e) 0 0 Any :=
  .each fun _ he => (genEnum_emits T he 0).steps

theorem structs_steps {l : List Struct} (h : ∀ s ∈ l, s ∈ w.p.structs ++ w.p.messages) :
    Steps (each l fun s => genStruct w s.name s) 0 0 Any :=
  .each fun s hs => (genStruct_emits T (h s hs) 0).choose_spec.2.steps

theorem enums_puts {e : Enum} (he : e ∈ w.p.enums) :
    Puts w.tab (each w.p.enums fun e => genEnum w e.name e) 0 (inside 0 (Syntax.Rust.enum (w.pref ++ "Error") e)) :=
  .each (fun _ he => (genEnum_emits T he 0).steps) he
    ((genEnum_emits T he 0).puts (by rw [inside_append]; exact (List.prefix_append _ _).isInfix))

theorem structs_puts {l : List Struct} (h : ∀ s ∈ l, s ∈ w.p.structs ++ w.p.messages) {s : Struct} (hs : s ∈ l) {sz : MFun}
    (hz : measureFun Lang.Rust.style w.p s "self" 0 = some sz) :
    Puts w.tab (each l fun s => genStruct w s.name s) 0 (inside 0 (Syntax.Rust.declaration w.p s ++ flush [""] ++
        Syntax.Rust.functions w.p (w.pref ++ "Error") (if s.isMessage then (Lang.Rust.core w.p).ident s.name else none) s sz)) := by
  refine .each (fun s hs => (genStruct_emits T (h s hs) 0).choose_spec.2.steps) hs ?_
  obtain ⟨sz', h1, h2⟩ := genStruct_emits T (h s hs) 0
  cases hz.symm.trans h1
  exact h2.puts (by rw [inside_append 0 (_ ++ _ ++ _)]; exact (List.prefix_append _ _).isInfix)

theorem generate_puts
    (h : (∃ e ∈ w.p.enums, rs = Syntax.Rust.enum (Syntax.Rust.errorName w.p) e) ∨
      (∃ s ∈ w.p.structs ++ w.p.messages, ∃ sz, measureFun Lang.Rust.style w.p s "self" 0 = some sz ∧
        rs = Syntax.Rust.declaration w.p s ++ flush [""] ++ Syntax.Rust.functions w.p (Syntax.Rust.errorName w.p)
          (if s.isMessage then (Lang.Rust.core w.p).ident s.name else none) s sz) ∨
      rs = inside 1 (Syntax.Rust.dispatch (Syntax.Rust.errorName w.p) (messageArms w.p 1))) :
    Puts w.tab (generate w) 0 (inside 0 rs) := by
  unfold generate
  iterate 6 skip_line []
  apply Puts.right
  · exact pref_steps _ _
  rintro ⟨subs, w'⟩ ⟨hw, _⟩
  have hw' : w' = _ := hw
  clear hw
  have T' : Table w' Lang.Rust.native "String" := by subst hw'; exact ⟨T.usable, T.num, T.str, T.own⟩
  have hp : w.p = w'.p := by rw [hw']
  have ht : w.tab = w'.tab := by rw [hw']
  have hf : Syntax.Rust.errorName w.p = w'.pref ++ "Error" := by rw [← prefOf_error, hw']
  rw [hf] at h
  rw [ht]
  rw [hp] at h
  clear hf ht hp hw'
  simp only []
  have he := enums_steps T'
  have hs := structs_steps T' (l := w'.p.structs) fun s hs => List.mem_append_left _ hs
  have hm := structs_steps T' (l := w'.p.messages) fun s hs => List.mem_append_right _ hs
  rcases h with ⟨e, h, rfl⟩ | ⟨s, h, sz, hz, rfl⟩ | rfl
  · find_puts [Puts.left (enums_puts T' h) he fun _ _ => hs.bind fun _ _ => hm] []
  · rcases List.mem_append.1 h with h | h
    · have k := structs_puts T' (l := w'.p.structs) (fun s hs => List.mem_append_left _ hs) h hz
      find_puts [k.left hs fun _ _ => hm] [he]
    · have k := structs_puts T' (l := w'.p.messages) (fun s hs => List.mem_append_right _ hs) h hz
      find_puts [k] [he, hs]
  · iterate 36 skip_line []
    apply Starts.puts
    apply Starts.of_eq
    · starts [Emits.each fun _ _ => Emits.line _]
      steps [he, hs, hm]
    rows [Syntax.Rust.dispatch, messageArms]

theorem generate_library (hb : w.boilerplate 0 = Boilerplate.rust) (hn : w.nativeTab = "    ")
    (h : Library w.p (Syntax.Rust.errorName w.p) rs) : Puts w.tab (generate w) 0 rs := by
  unfold generate
  simp only [T.stringSize, emit_lift_ok, emit_pure_bind]
  iterate 5 skip_line []
  apply Puts.right
  · exact pref_steps _ _
  rintro ⟨subs, w'⟩ ⟨hw, hf⟩
  have hw' : w' = _ := hw
  clear hw
  have T' : Table w' Lang.Rust.native "String" := by subst hw'; exact ⟨T.usable, T.num, T.str, T.own⟩
  have he := enums_steps T'
  have hs := structs_steps T' (l := w'.p.structs) fun s hs => List.mem_append_left _ hs
  have hm := structs_steps T' (l := w'.p.messages) fun s hs => List.mem_append_right _ hs
  have k : Puts w.tab (w'.addBoilerplate subs 0) 0 rs := by
    rw [← prefOf_error] at h
    subst hw'
    exact library_puts (w := { w with pref := prefOf w.p }) hb hn (hf.imp id id) h
  refine Puts.left (c := 0) (Q := Any) k Steps.boilerplate fun _ _ => ?_
  steps [he, hs, hm]

end Beschi.Text.Rust.Link

