import Verif.Text.Go
import Verif.Text.Rules
/-
The functions that write Go end without an exception, at the level at which they start, and with
matched brackets.
-/
namespace Beschi.Text.Go
open Spec

variable {b : Bool} {w : Writer}

theorem scan_cons_congr {c : Char} {cs ds : List Char} (h : ∀ S, scan S cs = scan S ds) (S : List Char) :
    scan S (c :: cs) = scan S (c :: ds) := by
  rw [scan_cons, scan_cons]
  simp only [h]

theorem scan_splitWords (m : Lang.Scan) (cs S : List Char) : scan S (Lang.splitWords m cs) = scan S cs := by
  fun_induction Lang.splitWords m cs generalizing S
  all_goals first
    | rfl
    | (refine scan_cons_congr (fun S => ?_) S
       first
        | solve_by_elim
        | (rw [scan_plain (by decide)]; solve_by_elim))

theorem scan_splitHumps (m : Bool) (cs S : List Char) : scan S (Lang.splitHumps m cs) = scan S cs := by
  fun_induction Lang.splitHumps m cs generalizing S
  all_goals first
    | rfl
    | (refine scan_cons_congr (fun S => ?_) S
       first
        | solve_by_elim
        | (rw [scan_plain (by decide)]; solve_by_elim))

theorem closed_snake {s : String} (h : Closed b s) : Closed b (Lang.snake s) := fun e S => by
  have := closed_lower (b := b) (s := String.ofList (Lang.splitHumps false (Lang.splitWords .between s.toList)))
    (fun e S => by rw [String.toList_ofList, scan_splitHumps, scan_splitWords]; exact h e S) e S
  unfold lower at this
  rw [String.toList_ofList, String.toList_ofList] at this
  unfold Lang.snake
  rw [String.toList_ofList]
  exact this

macro_rules | `(tactic| closed_leaf) => `(tactic| exact closed_snake (by closed))

/-- Enums are looked for in structs that are there. -/
theorem anyMember_has {f : Variable → Except Exn Bool} : ∀ {vs : List Variable},
    (∀ v ∈ vs, Has Any (f v)) → Has Any (anyMember vs f)
  | [], _ => ⟨_, rfl, trivial⟩
  | v :: vs, h => by
    obtain ⟨a, ha, _⟩ := h v (by simp)
    obtain ⟨c, hc, _⟩ := anyMember_has (vs := vs) fun x hx => h x (by simp [hx])
    refine ⟨if a then true else c, ?_, trivial⟩
    rw [anyMember, ha]
    cases a with
    | true => rfl
    | false => exact hc

theorem structHasEnums_has (fuel : Nat) {s : Struct}
    (hf : ∀ v ∈ s.members, fits w.p fuel v.vartype) : Has Any (structHasEnums w (fuel + 1) s) := by
  induction fuel generalizing s with
  | zero =>
    rw [structHasEnums]
    refine anyMember_has fun v hv => ?_
    split
    · exact ⟨_, rfl, trivial⟩
    · split
      · rename_i hs
        obtain ⟨s', _, _, he⟩ := Good.struct_of_isStruct hs
        exact absurd (he.symm.trans (hf v hv)) (by simp)
      · exact ⟨_, rfl, trivial⟩
  | succ fuel ih =>
    rw [structHasEnums]
    refine anyMember_has fun v hv => ?_
    split
    · exact ⟨_, rfl, trivial⟩
    · split
      · rename_i hs
        obtain ⟨s', h1, _, he⟩ := Good.struct_of_isStruct hs
        rw [h1]
        exact ih (hf v hv _ he)
      · exact ⟨_, rfl, trivial⟩

theorem structHasEnums_depth (g : Good b w) {s : Struct} : Has Any (structHasEnums w w.p.depth s) :=
  structHasEnums_has _ fun v _ => fits_succ (g.usable.fits v.vartype)

macro_rules | `(tactic| look) => `(tactic| exact structHasEnums_depth here%)

theorem longest_has (g : Good b w) {e : Enum} (h : e ∈ w.p.enums) : Has Any (longest e) := by
  unfold longest
  cases he : e.values with
  | nil => exact absurd he (g.usable.enums e h).nonempty
  | cons x xs => exact ⟨_, rfl, trivial⟩

macro_rules | `(tactic| look) => `(tactic| exact longest_has here% here%)

theorem closed_padRight {n : Nat} {v : String} (h : Closed b v) : Closed b (padRight n v) := by
  unfold padRight
  exact closed_append h (fun e => closed_times (b := b) (by closed) e)

theorem closed_names (g : Good b w) {e : Enum} (h : e ∈ w.p.enums) :
    Closed b (", ".intercalate (e.values.map fun x => s!"{e.name}{x.1}")) := by
  refine closed_intercalate (by closed) fun l hl => ?_
  obtain ⟨x, hx, rfl⟩ := List.mem_map.1 hl
  closed

macro_rules | `(tactic| closed_leaf) => `(tactic| exact closed_padRight (by closed))
macro_rules | `(tactic| closed_leaf) => `(tactic| with_reducible exact closed_names here% here%)

theorem deserializer_inner (g : Good b w) (fuel : Nat) {r d : Bool} {n t : String} (hk : KnownType w.p t) (hn : Closed b n)
    {acc : String} (ha : Closed b acc) (c : Int) : Runs b c 0 [] 0 [] Any (deserializer w (fuel + 1) ⟨n, t, false⟩ acc r d) := by
  rw [deserializer, if_neg (by simp)]
  follow

theorem deserializer_runs (g : Good b w) {r d : Bool} {v : Variable} (hk : KnownType w.p v.vartype) (hn : Closed b v.name)
    {acc : String} (ha : Closed b acc) (c : Int) : Runs b c 0 [] 0 [] Any (deserializer w w.p.depth v acc r d) := by
  cases hl : v.isList with
  | false => obtain ⟨n, t, l⟩ := v; cases hl; exact deserializer_inner g _ hk hn ha c
  | true =>
    unfold Protocol.depth
    rw [deserializer, if_pos hl]
    follow [deserializer_inner here% _ here% (by closed) (by closed)]

theorem serializer_inner (g : Good b w) (fuel : Nat) {n t : String} (hk : KnownType w.p t) (hn : Closed b n)
    {acc : String} (ha : Closed b acc) (c : Int) : Runs b c 0 [] 0 [] Any (serializer w (fuel + 1) ⟨n, t, false⟩ acc) := by
  rw [serializer, if_neg (by simp)]
  follow

theorem serializer_runs (g : Good b w) {v : Variable} (hk : KnownType w.p v.vartype) (hn : Closed b v.name)
    {acc : String} (ha : Closed b acc) (c : Int) : Runs b c 0 [] 0 [] Any (serializer w w.p.depth v acc) := by
  cases hl : v.isList with
  | false => obtain ⟨n, t, l⟩ := v; cases hl; exact serializer_inner g _ hk hn ha c
  | true =>
    unfold Protocol.depth
    rw [serializer, if_pos hl]
    follow [serializer_inner here% _ here% (by closed) (by closed)]

theorem genMeasurement_step (g : Good b w) {fuel : Nat} {s : Struct} (hs : s ∈ w.p.structs ++ w.p.messages)
    (ih : ∀ {v s' acc}, v ∈ s.members → s' ∈ w.p.structs → w.p.struct? v.vartype = some s' → Closed b acc →
      ∀ c, Runs b c 0 [] 0 [] (fun x => Texts b x.1) (genMeasurement w fuel s' acc))
    {acc : String} (ha : Closed b acc) (c : Int) :
    Runs b c 0 [] 0 [] (fun x => Texts b x.1) (genMeasurement w (fuel + 1) s acc) := by
  rw [genMeasurement]
  follow [ih here% here% here% (by closed)]

theorem genMeasurement_runs (g : Good b w) (fuel : Nat) {s : Struct} (hs : s ∈ w.p.structs ++ w.p.messages)
    (hf : ∀ v ∈ s.members, fits w.p fuel v.vartype) {acc : String} (ha : Closed b acc) (c : Int) :
    Runs b c 0 [] 0 [] (fun x => Texts b x.1) (genMeasurement w (fuel + 1) s acc) := by
  induction fuel generalizing s acc c with
  | zero => exact genMeasurement_step g hs (fun hv _ he _ => absurd (he.symm.trans (hf _ hv)) (by simp)) ha c
  | succ fuel ih => exact genMeasurement_step g hs (fun hv hs' he ha => ih (by simp [hs']) (hf _ hv _ he) ha) ha c

theorem genMeasurement_depth (g : Good b w) {s : Struct} (hs : s ∈ w.p.structs ++ w.p.messages)
    {acc : String} (ha : Closed b acc) (c : Int) :
    Runs b c 0 [] 0 [] (fun x => Texts b x.1) (genMeasurement w w.p.depth s acc) :=
  genMeasurement_runs g _ hs (fun v _ => fits_succ (g.usable.fits v.vartype)) ha c

theorem genEnum_runs (g : Good b w) {e : Enum} (h : e ∈ w.p.enums) (c : Int) :
    Runs b c 0 [] 0 [] Any (genEnum w e.name e) := by
  unfold genEnum
  follow

theorem genStruct_runs (g : Good b w) {s : Struct} (hs : s ∈ w.p.structs ++ w.p.messages) (c : Int) :
    Runs b c 0 [] 0 [] Any (genStruct w s.name s) := by
  unfold genStruct
  follow [genMeasurement_depth here% here% (by closed), deserializer_runs here% (Good.memberType here% here% here%) (by closed) (by closed),
    serializer_runs here% (Good.memberType here% here% here%) (by closed) (by closed)]

theorem generate_runs (g : Good b w) (hb : PlainBoilerplate b w) (hp : PlainNs w.p) :
    Runs b 0 0 [] 0 [] Any (generate w) := by
  unfold generate
  follow [genEnum_runs here% here%, genStruct_runs here% (List.mem_append_left _ here%),
    genStruct_runs here% (List.mem_append_right _ here%)]

end Beschi.Text.Go
