import Verif.Syntax.Size
import Verif.Text.Emits
import Verif.Text.Has
/-
What the functions that write size computations have in common.
-/
namespace Beschi.Text
open Beschi.Spec Beschi.Lang Beschi.Syntax

theorem emit_eta {α : Type} {x : Emit α} {f : α → Emit α} (h : ∀ a, f a = pure a) : (x >>= f) = x := by
  funext o
  show Emit.bind x f o = _
  unfold Emit.bind
  cases hx : x o with
  | error e => rfl
  | ok r => simp only [h]; rfl

@[simp] theorem emit_pure_bind {α β : Type} (a : α) (f : α → Emit β) : ((pure a : Emit α) >>= f) = f a := rfl
theorem emit_bind_assoc {α β γ : Type} (x : Emit α) (f : α → Emit β) (g : β → Emit γ) :
    ((x >>= f) >>= g) = x >>= fun a => f a >>= g := by
  funext o
  show Emit.bind (Emit.bind x f) g o = Emit.bind x (fun a => Emit.bind (f a) g) o
  unfold Emit.bind
  cases x o <;> rfl

@[simp] theorem emit_lift_ok {α : Type} (a : α) : (monadLift (Except.ok a : Except Exn α) : Emit α) = pure a := rfl

/-- No line is empty. -/
def Solid (rs : List Row) : Prop := ∀ r ∈ rs, r.text ≠ ""

theorem solid_append {a b : List Row} (h : Solid a) (k : Solid b) : Solid (a ++ b) := fun r hr =>
  (List.mem_append.1 hr).elim (h r) (k r)

theorem solid_inside {rs : List Row} (h : Solid rs) (k : Nat) : Solid (inside k rs) := fun r hr => by
  obtain ⟨x, hx, rfl⟩ := List.mem_map.1 hr
  exact h x hx

theorem solid_flush {ls : List String} (h : ∀ l ∈ ls, l ≠ "") : Solid (flush ls) := fun r hr => by
  obtain ⟨x, hx, rfl⟩ := List.mem_map.1 hr
  exact h x hx

theorem inside_append (k : Nat) (a b : List Row) : inside k (a ++ b) = inside k a ++ inside k b := List.map_append

theorem inside_inside (j k : Nat) (a : List Row) : inside j (inside k a) = inside (k + j) a := by
  simp [inside, Nat.add_assoc]

theorem inside_zero (a : List Row) : inside 0 a = a := by simp [inside]

theorem flush_append (a b : List String) : flush (a ++ b) = flush a ++ flush b := List.map_append

theorem inside_flush (k : Nat) (a : List String) : inside k (flush a) = a.map (Row.mk k) := by
  simp [inside, flush]

theorem inside_nested (j k : Nat) (a : List Row) : inside j (inside k a) = inside (j + k) a := by
  rw [inside_inside, Nat.add_comm]

theorem inside_map {α} (k : Nat) (d : Nat) (f : α → String) (l : List α) :
    inside k (l.map fun x => ⟨d, f x⟩) = l.map fun x => ⟨k + d, f x⟩ := by
  simp [inside, Nat.add_comm]

theorem inside_nil (k : Nat) : inside k [] = [] := rfl

theorem inside_cons (k d : Nat) (t : String) (l : List Row) : inside k (⟨d, t⟩ :: l) = ⟨k + d, t⟩ :: inside k l := by
  simp [inside, Nat.add_comm]

theorem inside_ite (k : Nat) (c : Prop) [Decidable c] (a b : List Row) :
    inside k (if c then a else b) = if c then inside k a else inside k b := by
  split <;> rfl

theorem inside_flatMap {α} (k : Nat) (f : α → List Row) (l : List α) :
    inside k (l.flatMap f) = l.flatMap fun x => inside k (f x) := by
  induction l with
  | nil => rfl
  | cons x l ih => rw [List.flatMap_cons, List.flatMap_cons, inside_append, ih]

theorem flatMap_single {α β} (f : α → β) (l : List α) : (l.flatMap fun x => [f x]) = l.map f := by
  induction l with
  | nil => rfl
  | cons x l ih => rw [List.flatMap_cons, List.map_cons, ih]; rfl

theorem flush_eq (l : List String) : flush l = l.map fun x => ⟨0, x⟩ := rfl

/-- Both sides become a list of lines with their levels. -/
macro "rows" "[" ts:Lean.Parser.Tactic.simpLemma,* "]" : tactic => `(tactic|
  (simp only [flush_eq, inside_append, inside_nested, inside_nil, inside_cons, inside_ite, inside_flatMap, inside_map,
    flatMap_single, List.map_cons, List.map_nil, List.map_append, List.map_map, List.flatMap_map, List.append_assoc,
    List.cons_append, List.nil_append, List.append_nil, Function.comp_def, str_toString, cat_assoc, mergeLiterals,
    String.append_empty, String.empty_append,
    Nat.add_assoc, Nat.reduceAdd, Nat.add_zero, Nat.zero_add, List.zip_map', decide_eq_true_eq, String.reduceAppend,
    if_true, if_false, Bool.false_eq_true, ↓reduceIte, reduceCtorEq, $ts,*]))

theorem repeated_one (s : String) : repeated 1 s = s := by
  apply String.toList_injective
  rw [toList_repeated]; simp

/-- A line further inside. -/
theorem shown_inside {tab : String} {rs : List Row} (h : Solid rs) (k : Nat) :
    (inside k rs).map (Row.shown tab) = (rs.map (Row.shown tab)).map (repeated k tab ++ ·) := by
  simp only [inside, List.map_map]
  refine List.map_congr_left fun r hr => ?_
  have := h r hr
  simp only [Function.comp, Row.shown, if_neg this]
  rw [Nat.add_comm, repeated_add, String.append_assoc]

theorem shown_inside_one {tab : String} {rs : List Row} (h : Solid rs) :
    (inside 1 rs).map (Row.shown tab) = (rs.map (Row.shown tab)).map (tab ++ ·) := by
  rw [shown_inside h, repeated_one]

theorem shown_flush (tab : String) (ls : List String) : (flush ls).map (Row.shown tab) = ls := by
  simp only [flush, List.map_map]
  conv_rhs => rw [← List.map_id ls]
  refine List.map_congr_left fun l _ => ?_
  simp only [Function.comp, Row.shown, id]
  split
  · exact (‹l = ""›).symm
  · show repeated 0 tab ++ l = l
    simp [repeated]

theorem shown_ne {tab : String} {r : Row} (h : r.text ≠ "") : Row.shown tab r ≠ "" := by
  unfold Row.shown
  rw [if_neg h]
  intro e
  have := congrArg String.toList e
  rw [String.toList_append] at this
  have h2 := (List.append_eq_nil_iff.1 this).2
  exact h (String.toList_injective h2)

/-- Lines that are indented already are written further inside. -/
theorem Emits.lines {w : Writer} (rs : List Row) (a : Nat) :
    Emits w (Text.each (rs.map (Row.shown w.tab)) fun l => w.line l) a (inside a rs) a := by
  induction rs with
  | nil => exact Emits.pure
  | cons r rs ih =>
    rw [List.map_cons]
    refine ((Emits.line (w := w) (a := a) (Row.shown w.tab r)).bind (f := fun _ => Text.each (rs.map (Row.shown w.tab)) fun l => w.line l)
      ih).of_rows ?_
    simp only [inside, List.map_cons, List.cons_append, List.nil_append]
    congr 1
    by_cases h1 : r.text = ""
    · simp [Row.shown, h1]
    · have h2 := shown_ne (tab := w.tab) h1
      unfold Row.shown at h2 ⊢
      rw [if_neg h2, if_neg h1, if_neg h1, Nat.add_comm, repeated_add, String.append_assoc]

/-- No line of the computation is empty. -/
structure _root_.Beschi.Syntax.SizeSyntax.Full (S : SizeSyntax) : Prop where
  init : S.init ≠ ""
  ret : ∀ n, S.ret n ≠ ""
  add : ∀ n, S.add n ≠ ""
  addCount : ∀ a n, S.addCount a n ≠ ""
  addText : ∀ a, S.addText a ≠ ""
  addTextPlus : ∀ k a, S.addTextPlus k a ≠ ""
  loop : ∀ v t a, ∀ l ∈ S.loop v t a, l ≠ ""
  close : S.close ≠ ""

mutual
theorem solid_line {S : SizeSyntax} (h : S.Full) : ∀ l, Solid (S.line l)
  | .init => solid_flush (by simp [h.init])
  | .ret n => solid_flush (by simp [h.ret])
  | .add n => solid_flush (by simp [h.add])
  | .addCount a n => solid_flush (by simp [h.addCount])
  | .addText a _ => solid_flush (by simp [h.addText])
  | .addTextPlus k a _ => solid_flush (by simp [h.addTextPlus])
  | .each v t a body => solid_append (solid_append (solid_flush (h.loop _ _ _)) (solid_inside (solid_lines h body) 1))
      (solid_flush (by simp [h.close]))
  | .index v t a body => solid_append (solid_append (solid_flush (h.loop _ _ _)) (solid_inside (solid_lines h body) 1))
      (solid_flush (by simp [h.close]))
theorem solid_lines {S : SizeSyntax} (h : S.Full) : ∀ ls, Solid (S.lines ls)
  | [] => fun _ h => by cases h
  | l :: ls => solid_append (solid_line h l) (solid_lines h ls)
end

theorem lines_append (S : SizeSyntax) (a b : List MLine) : S.lines (a ++ b) = S.lines a ++ S.lines b := by
  induction a with
  | nil => rfl
  | cons l ls ih => simp only [List.cons_append, SizeSyntax.lines, ih, List.append_assoc]

theorem join_snoc (l : List String) (x : String) : String.join (l ++ [x]) = String.join l ++ x := by
  induction l with
  | nil => simp [String.join_cons]
  | cons y ys ih => rw [List.cons_append, String.join_cons, ih, String.join_cons, String.append_assoc]

theorem path_dot (a : MPath) (n : String) : path (a.dot n) = path a ++ "." ++ n := by
  unfold path MPath.dot
  simp only [List.map_append, List.map_cons, List.map_nil, join_snoc, step]
  rw [String.append_assoc, String.append_assoc]
  rfl

theorem path_at (a : MPath) (v : String) : path (a.at v) = path a ++ "[" ++ v ++ "]" := by
  unfold path MPath.at
  simp only [List.map_append, List.map_cons, List.map_nil, join_snoc, step]
  simp only [String.append_assoc]
  rfl

theorem path_root (v : String) : path { root := v } = v := by simp [path]

/-- The lines as they are passed on. -/
def _root_.Beschi.Syntax.SizeSyntax.texts (S : SizeSyntax) (tab : String) (ls : List MLine) : List String :=
  (S.lines ls).map (Row.shown tab)

variable {S : SizeSyntax} {tab : String}

theorem texts_append (a b : List MLine) : S.texts tab (a ++ b) = S.texts tab a ++ S.texts tab b := by
  simp [SizeSyntax.texts, lines_append]

theorem texts_one (l : MLine) : S.texts tab [l] = (S.line l).map (Row.shown tab) := by
  simp [SizeSyntax.texts, SizeSyntax.lines]

theorem texts_nil : S.texts tab [] = [] := rfl

theorem texts_cons (l : MLine) (ls : List MLine) :
    S.texts tab (l :: ls) = (S.line l).map (Row.shown tab) ++ S.texts tab ls := by
  simp [SizeSyntax.texts, SizeSyntax.lines]

theorem texts_loop (h : S.Full) (M : MStyle) (v t : String) (a : MPath) (body : List MLine) :
    S.texts tab [M.loop v t a body] = S.loop v t (S.path a) ++ ((S.texts tab body).map (tab ++ ·) ++ [S.close]) := by
  have hs := shown_inside_one (tab := tab) (solid_lines h body)
  unfold SizeSyntax.texts at *
  unfold MStyle.loop
  split <;>
    simp only [SizeSyntax.lines, SizeSyntax.line, List.append_nil, List.map_append, shown_flush, hs, List.append_assoc]

/-- The loop over the members. -/
theorem eachWith_members {M : MStyle} {p : Protocol} {rec : Struct → MPath → Nat → Option (List MLine × Nat)}
    {acc : MPath} {lvl : Nat} {ms : List Variable} {f : Nat × List String → Variable → Emit (Nat × List String)}
    (h : ∀ m ∈ ms, ∃ l a, measureMember M p rec acc lvl m = some (l, a) ∧
      ∀ n ls, f (n, ls) m = pure (n + a, ls ++ S.texts tab l)) :
    ∃ l a, measureMembers M p rec acc lvl ms = some (l, a) ∧
      ∀ n ls, eachWith ms (n, ls) f = pure (n + a, ls ++ S.texts tab l) := by
  induction ms with
  | nil => exact ⟨[], 0, rfl, fun n ls => by simp [eachWith, SizeSyntax.texts, SizeSyntax.lines]⟩
  | cons m ms ih =>
    obtain ⟨l1, a1, h1, h2⟩ := h m (by simp)
    obtain ⟨l2, a2, h3, h4⟩ := ih fun x hx => h x (by simp [hx])
    refine ⟨l1 ++ l2, a1 + a2, by simp only [measureMembers, h1, h3], fun n ls => ?_⟩
    simp only [eachWith, h2, emit_pure_bind, h4, texts_append, List.append_assoc, Nat.add_assoc]

/-- A struct that is not of fixed size. -/
theorem measured_struct {M : MStyle} {p : Protocol} {rec : Struct → MPath → Nat → Option (List MLine × Nat)}
    {acc : MPath} {lvl : Nat} {ms : List Variable} {init : List String}
    {f : Nat × List String → Variable → Emit (Nat × List String)} {g : Nat × List String → Emit (List String × Nat)}
    (h : ∀ m ∈ ms, ∃ l a, measureMember M p rec acc lvl m = some (l, a) ∧
      ∀ n ls, f (n, ls) m = pure (n + a, ls ++ S.texts tab l))
    (hi : init = S.texts tab [.init]) (hg : ∀ x, g x = pure (x.2, x.1)) :
    ∃ ls n, (match measureMembers M p rec acc lvl ms with
        | none => none
        | some (lines, accum) => some (.init :: lines, accum)) = some (ls, n) ∧
      (eachWith ms (0, init) f >>= g) = pure (S.texts tab ls, n) := by
  obtain ⟨ls, n, h1, h2⟩ := eachWith_members h
  refine ⟨.init :: ls, n, by rw [h1], ?_⟩
  rw [h2, emit_pure_bind, hg, hi]
  have : (MLine.init :: ls) = [.init] ++ ls := rfl
  rw [this, texts_append, Nat.zero_add]

/-- The first line for such a struct. -/
theorem measured_init {M : MStyle} {p : Protocol} {fuel lvl : Nat} {s : Struct} {acc : MPath} {ls : List MLine} {n : Nat}
    (h : p.simpleStruct s = false) (hm : measureStruct M p fuel s acc lvl = some (ls, n)) : ∃ l, ls = .init :: l := by
  cases fuel with
  | zero => cases hm
  | succ fuel =>
    rw [measureStruct, h] at hm
    simp only [Bool.false_eq_true, if_false] at hm
    split at hm
    · cases hm
    · cases hm; exact ⟨_, rfl⟩

theorem flatMap_index {α β : Type} (l : List α) (k : Nat) (f : α → List β) :
    l.flatMap f = (l.zipIdx k).flatMap fun x => f x.1 := by
  induction l generalizing k with
  | nil => rfl
  | cons a l ih => rw [List.zipIdx_cons, List.flatMap_cons, List.flatMap_cons, ih (k + 1)]

/-- Outside loops no number is added, before the end. -/
def NoAdd (ls : List MLine) : Prop := ∀ l ∈ ls, ∀ n, l ≠ .add n

theorem NoAdd.dropInit {ls : List MLine} (h : NoAdd ls) : NoAdd (dropInit ls) := by
  cases ls with
  | nil => exact h
  | cons l ls =>
    simp only [Lang.dropInit]
    split
    · exact fun x hx => h x (by simp [hx])
    · exact h

theorem NoAdd.member {M : MStyle} {p : Protocol} {rec : Struct → MPath → Nat → Option (List MLine × Nat)}
    {acc : MPath} {lvl : Nat} {m : Variable} (hr : ∀ {s a l ls n}, rec s a l = some (ls, n) → NoAdd ls)
    {ls : List MLine} {n : Nat} (h : measureMember M p rec acc lvl m = some (ls, n)) : NoAdd ls := by
  have one : ∀ l : MLine, (∀ n, l ≠ .add n) → NoAdd [l] := fun l hl x hx => by
    rw [List.mem_singleton.1 hx]; exact hl
  have loop : ∀ v t a b n, M.loop v t a b ≠ .add n := by
    intro v t a b n; unfold MStyle.loop; split <;> exact MLine.noConfusion
  unfold measureMember at h
  split at h
  · split at h
    · cases h; exact one _ fun n => MLine.noConfusion
    split at h
    · cases h; exact one _ (loop _ _ _ _)
    simp only [] at h
    split at h
    · cases h
    split at h
    · cases h
    cases h; exact one _ (loop _ _ _ _)
  · split at h
    · cases h; intro l hl; cases hl
    split at h
    · cases h; exact one _ fun n => MLine.noConfusion
    split at h
    · cases h
    split at h
    · cases h
    rename_i hx
    cases h; exact (hr hx).dropInit

theorem NoAdd.members {M : MStyle} {p : Protocol} {rec : Struct → MPath → Nat → Option (List MLine × Nat)}
    {acc : MPath} {lvl : Nat} (hr : ∀ {s a l ls n}, rec s a l = some (ls, n) → NoAdd ls) {ms : List Variable}
    {ls : List MLine} {n : Nat} (h : measureMembers M p rec acc lvl ms = some (ls, n)) : NoAdd ls := by
  induction ms generalizing ls n with
  | nil => cases h; intro l hl; cases hl
  | cons m ms ih =>
    unfold measureMembers at h
    split at h
    · rename_i h1 h2
      cases h
      intro l hl
      rcases List.mem_append.1 hl with hl | hl
      · exact NoAdd.member hr h1 l hl
      · exact ih h2 l hl
    · cases h

theorem measured_noAdd {M : MStyle} {p : Protocol} {fuel lvl : Nat} {s : Struct} {acc : MPath} {ls : List MLine} {n : Nat}
    (h : measureStruct M p fuel s acc lvl = some (ls, n)) : NoAdd ls := by
  induction fuel generalizing s acc lvl ls n with
  | zero => cases h
  | succ fuel ih =>
    rw [measureStruct] at h
    split at h
    · cases h
      intro l hl
      rw [List.mem_singleton.1 hl]
      exact fun n => MLine.noConfusion
    split at h
    · cases h
    rename_i hx
    cases h
    intro l hl
    rcases List.mem_cons.1 hl with rfl | hl
    · exact fun n => MLine.noConfusion
    · exact NoAdd.members ih hx l hl

theorem line_ne_nil (S : SizeSyntax) (l : MLine) : S.line l ≠ [] := by
  cases l <;> simp [SizeSyntax.line, flush]

/-- There is more than one line of text if there is more than one step. -/
theorem measured_length {M : MStyle} {p : Protocol} {fuel lvl : Nat} {s : Struct} {acc : MPath} {ls : List MLine} {n : Nat}
    (hm : measureStruct M p fuel s acc lvl = some (ls, n)) : decide ((S.texts tab ls).length > 1) = decide (ls.length > 1) := by
  cases fuel with
  | zero => cases hm
  | succ fuel =>
    rw [measureStruct] at hm
    split at hm
    · cases hm; rfl
    split at hm
    · cases hm
    rename_i l _ _
    cases hm
    cases l with
    | nil => rfl
    | cons x xs =>
      have h1 : 0 < (S.line x).length := List.length_pos_iff.2 (line_ne_nil S x)
      rw [decide_eq_decide]
      simp only [texts_cons, List.length_append, List.length_map, List.length_cons, SizeSyntax.line, flush, List.length_nil]
      omega

/-- The lines of a size computation, written one by one. -/
theorem Emits.texts {w : Writer} (ls : List MLine) (a : Nat) :
    Emits w (Text.each (S.texts w.tab ls) fun l => w.line l) a (inside a (S.lines ls)) a :=
  Emits.lines _ a

/-- What is neither of fixed size nor text is a struct that is not of fixed size. -/
theorem struct_varying {p : Protocol} (hu : Usable p) {v : Variable} {listed : Bool} (h : KnownType p v.vartype)
    (hl : v.isList = false ∨ listed = true) (hs : ¬ p.simpleVar v listed = true) (ht : v.vartype ≠ "string") :
    ∃ s ∈ p.structs, p.struct? v.vartype = some s ∧ p.simpleStruct s = false := by
  have hv : Varying p v.vartype := not_not.1 fun hx => hs ((simpleVar_spec hu hl h).2.2 hx)
  cases hu.kind h with
  | num n e => exact absurd hv (e ▸ varying_num hu n)
  | text e => exact absurd e ht
  | enum e mem name => exact absurd hv (name ▸ varying_enum hu mem)
  | struct s mem name ne num enum struct =>
    refine ⟨s, mem, struct, ?_⟩
    by_contra hc
    have hc : p.simpleStruct s = true := by simpa using hc
    have hb := (simpleStruct_spec hu (hu.types s (by simp [mem]))).2.1 hc
    exact hb ((varying_struct hu mem).1 (name ▸ hv))

theorem simple_eq {w : Writer} (hu : Usable w.p) {v : Variable} {listed : Bool} (h : KnownType w.p v.vartype)
    (hl : v.isList = false ∨ listed = true) : w.simple v listed = .ok (w.p.simpleVar v listed) := by
  unfold Writer.simple
  rw [(simpleVar_spec hu hl h).1]; rfl

theorem sizeOf_eq {w : Writer} (hu : Usable w.p) {v : Variable} {listed : Bool} (h : KnownType w.p v.vartype)
    (hl : v.isList = false ∨ listed = true) (hs : w.p.simpleVar v listed = true) :
    w.sizeOf v.vartype = .ok (w.p.sizeOf v.vartype) := by
  unfold Writer.sizeOf
  rw [(sizeOf_fixed hu h ((simpleVar_spec hu hl h).2.1 hs)).1]; rfl

theorem structSimple_eq {w : Writer} (hu : Usable w.p) {s : Struct} (h : s ∈ w.p.structs ++ w.p.messages) :
    w.structSimple s = .ok (w.p.simpleStruct s) := by
  unfold Writer.structSimple
  rw [(simpleStruct_spec hu (hu.types s h)).1]; rfl

theorem sizeOf_struct_eq {w : Writer} (hu : Usable w.p) {s : Struct} (h : s ∈ w.p.structs ++ w.p.messages)
    (hs : w.p.simpleStruct s = true) : w.sizeOf s.name = .ok (w.p.sizeOf s.name) := by
  unfold Writer.sizeOf
  rw [(sizeOf_body hu h ((simpleStruct_spec hu (hu.types s h)).2.1 hs)).1]; rfl

theorem struct_eq {w : Writer} {t : String} {s : Struct} (h : w.p.struct? t = some s) : w.struct t = .ok s := by
  unfold Writer.struct; rw [h]

theorem replaceChars_one (c d : Char) (cs : List Char) :
    replaceChars [c] [d] 0 cs = cs.map fun x => if c = x then d else x := by
  induction cs with
  | nil => rfl
  | cons x xs ih =>
    rw [replaceChars]
    by_cases h : c = x
    · subst h
      have : dropPrefix [c] (c :: xs) = some xs := by simp [dropPrefix]
      rw [this]
      simp [ih]
    · have : dropPrefix [c] (x :: xs) = none := by simp [dropPrefix, h]
      rw [this]
      simp [ih, h]

theorem toString_cast (k : Nat) : toString ((k : Nat) : Int) = toString k := by
  cases k <;> rfl

theorem zip_map {α β : Type} (l : List α) (f : α → β) : l.zip (l.map f) = l.map fun x => (x, f x) := by
  induction l with
  | nil => rfl
  | cons x xs ih => simp [ih]

/-! ### Computations that only look at the level -/

/-- Starting at level `a`, nothing is written and `v` is returned; afterwards the level is `b`. -/
def Gives {α : Type} (x : Emit α) (a : Nat) (v : α) (b : Nat) : Prop :=
  ∀ before, x ⟨a, before⟩ = .ok (v, ⟨b, before⟩)

namespace Gives
variable {a b c : Nat}

theorem pure {α : Type} (v : α) : Gives (Pure.pure v) a v a := fun _ => rfl

theorem bind {α β : Type} {x : Emit α} {f : α → Emit β} {v : α} {u : β} (h : Gives x a v b) (k : Gives (f v) b u c) :
    Gives (x >>= f) a u c := by
  intro before
  show Emit.bind x f _ = _
  unfold Emit.bind
  rw [h before]
  exact k before

theorem of_eq {α : Type} {x : Emit α} {v u : α} (h : Gives x a v b) (e : v = u) : Gives x a u b := e ▸ h

theorem level : Gives level a (a : Int) a := fun _ => rfl
theorem up : Gives (shift 1) a () (a + 1) := fun before => by simp [shift]
theorem down : Gives (shift (-1)) (a + 1) () a := fun before => by simp [shift]

/-- What follows can use the value. -/
theorem emits {α : Type} {w : Writer} {x : Emit α} {f : α → Emit Unit} {v : α} {r : List Row} (h : Gives x a v b)
    (k : Emits w (f v) b r c) : Emits w (x >>= f) a r c := by
  intro before
  show Emit.bind x f _ = _
  unfold Emit.bind
  rw [h before]
  exact k before

end Gives

/-- The loop over the members, where the level matters. -/
theorem gives_members {M : MStyle} {p : Protocol} {rec : Struct → MPath → Nat → Option (List MLine × Nat)}
    {acc : MPath} {lvl k : Nat} {ms : List Variable} {f : Nat × List String → Variable → Emit (Nat × List String)}
    (h : ∀ m ∈ ms, ∃ l a, measureMember M p rec acc lvl m = some (l, a) ∧
      ∀ n ls, Gives (f (n, ls) m) k (n + a, ls ++ S.texts tab l) k) :
    ∃ l a, measureMembers M p rec acc lvl ms = some (l, a) ∧
      ∀ n ls, Gives (eachWith ms (n, ls) f) k (n + a, ls ++ S.texts tab l) k := by
  induction ms with
  | nil => exact ⟨[], 0, rfl, fun n ls => by simp [eachWith, SizeSyntax.texts, SizeSyntax.lines]; exact .pure _⟩
  | cons m ms ih =>
    obtain ⟨l1, a1, h1, h2⟩ := h m (by simp)
    obtain ⟨l2, a2, h3, h4⟩ := ih fun x hx => h x (by simp [hx])
    refine ⟨l1 ++ l2, a1 + a2, by simp only [measureMembers, h1, h3], fun n ls => ?_⟩
    have := (h2 n ls).bind (f := fun b => eachWith ms b f) (h4 _ _)
    simpa only [eachWith, texts_append, List.append_assoc, Nat.add_assoc] using this

/-- A struct that is not of fixed size, where the level matters. -/
theorem gives_struct {M : MStyle} {p : Protocol} {rec : Struct → MPath → Nat → Option (List MLine × Nat)}
    {acc : MPath} {lvl k : Nat} {ms : List Variable} {init : List String}
    {f : Nat × List String → Variable → Emit (Nat × List String)} {g : Nat × List String → Emit (List String × Nat)}
    (h : ∀ m ∈ ms, ∃ l a, measureMember M p rec acc lvl m = some (l, a) ∧
      ∀ n ls, Gives (f (n, ls) m) k (n + a, ls ++ S.texts tab l) k)
    (hi : init = S.texts tab [.init]) (hg : ∀ x, g x = pure (x.2, x.1)) :
    ∃ ls n, (match measureMembers M p rec acc lvl ms with
        | none => none
        | some (lines, accum) => some (.init :: lines, accum)) = some (ls, n) ∧
      Gives (eachWith ms (0, init) f >>= g) k (S.texts tab ls, n) k := by
  obtain ⟨ls, n, h1, h2⟩ := gives_members h
  refine ⟨.init :: ls, n, by rw [h1], (h2 0 init).bind ?_⟩
  rw [hg, hi]
  have : (MLine.init :: ls) = [.init] ++ ls := rfl
  rw [this, texts_append, Nat.zero_add]
  exact .pure _

/-! ### Boilerplate -/

/-- Does the text begin with something that can be seen? -/
def inked (t : String) : Bool :=
  match t.toList with
  | c :: _ => c != ' ' && c != '\t'
  | [] => false

theorem inked_append {a : String} (h : inked a = true) (b : String) : inked (a ++ b) = true := by
  unfold inked at *
  rw [String.toList_append]
  cases ha : a.toList with
  | nil => rw [ha] at h; cases h
  | cons c cs => rw [ha] at h; exact h

theorem inked_ne {t : String} (h : inked t = true) : t ≠ "" := by
  rintro rfl; cases h

theorem each_append {α : Type} (a b : List α) (f : α → Emit Unit) :
    each (a ++ b) f = (each a f >>= fun _ => each b f) := by
  induction a with
  | nil => rfl
  | cons x xs ih =>
    rw [List.cons_append, each, each, ih, emit_bind_assoc]

/-- The text is empty or has no space in front. -/
def tidy (t : String) : Bool := t == "" || inked t

theorem tidy_of_inked {t : String} (h : inked t = true) : tidy t = true := by simp [tidy, h]

/-- The text starts with a space or a tab. -/
def blankTab (t : String) : Bool :=
  match t.toList with
  | c :: _ => c == ' ' || c == '\t'
  | [] => false

/-- Lines of boilerplate are indented anew. -/
theorem replaceIndent_shown {native tab : String} (hn : blankTab native = true) {rs : List Row}
    (h : ∀ r ∈ rs, tidy r.text = true) :
    (rs.map (Row.shown native)).map (replaceIndent · native tab) = rs.map (Row.shown tab) := by
  rw [List.map_map]
  refine List.map_congr_left fun r hr => ?_
  have hr := h r hr
  unfold blankTab at hn
  cases hc : native.toList with
  | nil => rw [hc] at hn; cases hn
  | cons b bs =>
  rw [hc] at hn
  simp only [Bool.or_eq_true, beq_iff_eq] at hn
  by_cases ht : r.text = ""
  · simp only [Function.comp, Row.shown, if_pos ht]
    have : Indented native "" 0 "" := by
      refine ⟨rfl, ?_⟩
      rw [hc]
      rintro ⟨x, hx⟩
      cases hx
    exact replaceIndent_eq this
  · have hr : inked r.text = true := by simpa [tidy, ht] using hr
    simp only [Function.comp, Row.shown, if_neg ht]
    refine replaceIndent_eq ⟨rfl, ?_⟩
    rw [hc]
    unfold inked at hr
    cases hl : r.text.toList with
    | nil => rw [hl] at hr; cases hr
    | cons c cs =>
      rw [hl] at hr
      simp only [Bool.and_eq_true, bne_iff_ne] at hr
      rintro ⟨x, hx⟩
      injection hx with h1 _
      subst h1
      rcases hn with hn | hn
      · exact hr.1 hn
      · exact hr.2 hn

/-- The lines of a boilerplate file, after the replacements. -/
theorem Puts.boilerplate {w : Writer} {subs : List (String × Sub)} {n k : Nat} {rs : List Row}
    (hn : blankTab w.nativeTab = true) (hi : ∀ r ∈ rs, tidy r.text = true)
    (h : rs.map (Row.shown w.nativeTab) <:+: subs.foldl substitute (w.boilerplate n)) :
    Puts w.tab (w.addBoilerplate subs n) k (inside k rs) := by
  unfold Writer.addBoilerplate
  obtain ⟨x, y, hxy⟩ := h
  rw [← hxy, List.map_append, List.map_append, replaceIndent_shown hn hi, List.append_assoc, each_append, each_append]
  have hl : ∀ l : List String, Steps (Text.each l w.line) k k Any := fun l => .each fun _ _ => .line
  refine Puts.right (hl _) fun _ _ => Puts.left ?_ (hl _) fun _ _ => hl _
  exact (Emits.lines _ k).puts List.infix_rfl

/-- A loop that only collects. -/
theorem eachWith_collect {α β : Type} {xs : List α} {f : List β → α → Emit (List β)} {g : α → List β}
    (h : ∀ b x, f b x = pure (b ++ g x)) (b : List β) : eachWith xs b f = pure (b ++ xs.flatMap g) := by
  induction xs generalizing b with
  | nil => simp [eachWith]
  | cons x xs ih => rw [eachWith, h, emit_pure_bind, ih, List.flatMap_cons, List.append_assoc]

/-- A placeholder that is a line of its own. -/
theorem substitute_lines {pre post new : List String} {old : String} (h1 : old ∉ pre) (h2 : old ∉ post) :
    substitute (pre ++ old :: post) (old, .lines new) = pre ++ (new ++ post) := by
  have h : ∀ l : List String, old ∉ l → (l.flatMap fun x => if x = old then new else [x]) = l := by
    intro l hl
    induction l with
    | nil => rfl
    | cons x xs ih =>
      rw [List.mem_cons, not_or] at hl
      rw [List.flatMap_cons, ih hl.2, if_neg (Ne.symm hl.1)]; rfl
  show ((pre ++ old :: post).flatMap _) = _
  rw [List.flatMap_append, List.flatMap_cons, h pre h1, h post h2, if_pos rfl]

end Beschi.Text
