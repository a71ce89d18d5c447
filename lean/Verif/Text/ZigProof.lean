import Verif.Text.Zig
import Verif.Text.Rules
/-
The functions that write Zig end without an exception, at the level at which they start, and with
matched brackets.
-/
namespace Beschi.Text.Zig
open Spec

variable {b : Bool} {w : Writer}

/-- All these texts leave the brackets as they are. -/
def AllClosed (b : Bool) (ls : List String) : Prop := ∀ l ∈ ls, Closed b l

theorem simpleNames_runs (g : Good b w) {ss : List Struct} (hs : ∀ s ∈ ss, s ∈ w.p.structs ++ w.p.messages) (c : Int) :
    Runs b c 0 [] 0 [] (AllClosed b) (simpleNames w ss) := by
  unfold simpleNames
  refine runs_eachWith (fun _ h => by cases h) fun names hn s hs' => ?_
  refine runs_bind (runs_lift (g.structSimple' (hs s hs'))) fun a _ => runs_ite (fun _ => ?_) fun _ => runs_pure hn
  refine runs_pure fun l hl => ?_
  rcases List.mem_append.1 hl with hl | hl
  · exact hn l hl
  · rw [List.mem_singleton.1 hl]
    exact g.names.bodies s (hs s hs')

/-- The protocol in the comment. -/
theorem comment_runs (g : Good b w) (c : Int) :
    Runs b c 0 [] 0 [] Any (each (splitlines (w.embed.getD "")) fun l => w.line s!"// {l}") := by
  have h : ∀ ls : List String, (each ls fun l => w.line s!"// {l}") = each (ls.map fun l => s!"// {l}") fun s => w.line s := by
    intro ls
    induction ls with
    | nil => rfl
    | cons l ls ih => rw [List.map_cons, each, each, ih]
  rw [h]
  refine runs_lines g.tab (bumpLines_map (fun e l S => ?_) g.embed)
  have hc : Closed b "// " := by closed
  exact scan_closed_left (hc e) S

theorem closed_both {ls ms : List String} (h1 : AllClosed b ls) (h2 : AllClosed b ms) :
    Closed b (", ".intercalate (ls ++ ms)) :=
  closed_intercalate (by closed) fun l hl => (List.mem_append.1 hl).elim (h1 l) (h2 l)

theorem closed_enums (g : Good b w) : Closed b (", ".intercalate (w.p.enums.map (·.name))) :=
  closed_intercalate (by closed) fun l hl => by
    obtain ⟨e, he, rfl⟩ := List.mem_map.1 hl
    exact g.names.enums e he

macro_rules | `(tactic| closed_leaf) => `(tactic| exact closed_both here% here%)
macro_rules | `(tactic| closed_leaf) => `(tactic| exact closed_enums here%)

theorem deserializer_runs (g : Good b w) {v : Variable} (hk : KnownType w.p v.vartype) (hn : Closed b v.name)
    {acc : String} (ha : Closed b acc) {simple : Bool} {off : Int} (c : Int) :
    Runs b c 0 [] 0 [] Any (deserializer w w.p.depth v acc simple off) := by
  unfold Protocol.depth
  rw [deserializer]
  follow

theorem serializer_runs (g : Good b w) {v : Variable} (hk : KnownType w.p v.vartype) (hn : Closed b v.name)
    {acc : String} (ha : Closed b acc) {simple : Bool} {off : Int} (c : Int) :
    Runs b c 0 [] 0 [] Any (serializer w w.p.depth v acc simple off) := by
  unfold Protocol.depth
  rw [serializer]
  follow

theorem destructor_inner (g : Good b w) (fuel : Nat) {n t : String} (hk : KnownType w.p t) (hn : Closed b n)
    {acc : String} (ha : Closed b acc) (c : Int) : Runs b c 0 [] 0 [] Any (destructor w (fuel + 1) ⟨n, t, false⟩ acc) := by
  rw [destructor]
  have hl : ¬ (⟨n, t, false⟩ : Variable).isList = true := by simp
  follow

theorem destructor_runs (g : Good b w) {v : Variable} (hk : KnownType w.p v.vartype) (hn : Closed b v.name)
    {acc : String} (ha : Closed b acc) (c : Int) : Runs b c 0 [] 0 [] Any (destructor w w.p.depth v acc) := by
  unfold Protocol.depth
  rw [destructor]
  follow [destructor_inner here% _ here% (by closed) (by closed)]

theorem genMeasurement_step (g : Good b w) {fuel : Nat} {s : Struct} (hs : s ∈ w.p.structs ++ w.p.messages)
    (ih : ∀ {v s' acc d}, v ∈ s.members → s' ∈ w.p.structs → w.p.struct? v.vartype = some s' → Closed b acc →
      ∀ c, Runs b c 0 [] 0 [] (fun x => Texts b x.1) (genMeasurement w fuel s' acc d))
    {acc : String} {d : Nat} (ha : Closed b acc) (c : Int) :
    Runs b c 0 [] 0 [] (fun x => Texts b x.1) (genMeasurement w (fuel + 1) s acc d) := by
  rw [genMeasurement]
  follow [ih here% here% here% (by closed)]

theorem genMeasurement_runs (g : Good b w) (fuel : Nat) {s : Struct} (hs : s ∈ w.p.structs ++ w.p.messages)
    (hf : ∀ v ∈ s.members, fits w.p fuel v.vartype) {acc : String} {d : Nat} (ha : Closed b acc) (c : Int) :
    Runs b c 0 [] 0 [] (fun x => Texts b x.1) (genMeasurement w (fuel + 1) s acc d) := by
  induction fuel generalizing s acc d c with
  | zero => exact genMeasurement_step g hs (fun hv _ he _ => absurd (he.symm.trans (hf _ hv)) (by simp)) ha c
  | succ fuel ih => exact genMeasurement_step g hs (fun hv hs' he ha => ih (by simp [hs']) (hf _ hv _ he) ha) ha c

theorem genMeasurement_depth (g : Good b w) {s : Struct} (hs : s ∈ w.p.structs ++ w.p.messages)
    {acc : String} {d : Nat} (ha : Closed b acc) (c : Int) :
    Runs b c 0 [] 0 [] (fun x => Texts b x.1) (genMeasurement w w.p.depth s acc d) :=
  genMeasurement_runs g _ hs (fun v _ => fits_succ (g.usable.fits v.vartype)) ha c

theorem genEnum_runs (g : Good b w) {e : Enum} (h : e ∈ w.p.enums) (c : Int) :
    Runs b c 0 [] 0 [] Any (genEnum w e.name e) := by
  unfold genEnum
  follow

theorem genStruct_runs (g : Good b w) {s : Struct} (hs : s ∈ w.p.structs ++ w.p.messages) (c : Int) :
    Runs b c 0 [] 0 [] Any (genStruct w s.name s) := by
  unfold genStruct
  by_cases hm : s.isMessage = true <;>
  follow [destructor_runs here% (Good.memberType here% here% here%) (by closed) (by closed), genMeasurement_depth here% here% (by closed), deserializer_runs here% (Good.memberType here% here% here%) (by closed) (by closed),
    serializer_runs here% (Good.memberType here% here% here%) (by closed) (by closed)]

theorem generate_runs (g : Good b w) (hb : PlainBoilerplate b w) (hp : PlainNs w.p) :
    Runs b 0 0 [] 0 [] Any (generate w) := by
  unfold generate
  follow [comment_runs here%, simpleNames_runs here% (fun _ h => List.mem_append_left _ h),
    simpleNames_runs here% (fun _ h => List.mem_append_right _ h), genEnum_runs here% here%, genStruct_runs here% (List.mem_append_left _ here%),
    genStruct_runs here% (List.mem_append_right _ here%)]

end Beschi.Text.Zig
