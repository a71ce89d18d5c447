import Verif.Text.Generate
import Verif.Text.BoilerplateProof
import Verif.Text.RustProof
import Verif.Text.CSharpProof
import Verif.Text.SwiftProof
import Verif.Text.TypeScriptProof
import Verif.Text.GoProof
import Verif.Text.ZigProof
import Verif.Text.CProof
/-
All generators end without an exception at level 0, with matched brackets.
-/
namespace Beschi.Text
open Spec

variable {b : Bool} {p : Protocol} {o : Options}

theorem lineEnds_plain {c : Char} (h : lineEnds.contains c = true) : c ∉ brackets := by
  have h : c ∈ lineEnds := by simpa using h
  simp only [lineEnds, List.mem_cons, List.not_mem_nil, or_false] at h
  rcases h with rfl | rfl | rfl | rfl | rfl | rfl | rfl | rfl | rfl | rfl <;> decide

theorem splitChars_step {cur cs : List Char} {c : Char} (h : ∀ cs', c = '\r' → cs ≠ '\n' :: cs') :
    splitChars cur (c :: cs) =
      if lineEnds.contains c then cur :: splitChars [] cs else splitChars (cur ++ [c]) cs := by
  rw [splitChars]
  intro cs' e1 e2; exact h cs' e1 e2

theorem scan_splitChars (cur cs S : List Char) :
    scan S ((splitChars cur cs).flatMap id) = scan S (cur ++ cs) := by
  obtain ⟨n, hn⟩ : ∃ n, cs.length = n := ⟨_, rfl⟩
  induction n using Nat.strongRecOn generalizing cur cs S with
  | _ n ih =>
    cases cs with
    | nil => cases cur <;> simp [splitChars]
    | cons c cs =>
      by_cases hr : ∃ cs', c = '\r' ∧ cs = '\n' :: cs'
      · obtain ⟨cs', rfl, rfl⟩ := hr
        rw [splitChars, List.flatMap_cons, scan_append, scan_append]
        simp only [id]
        cases scan S cur with
        | none => rfl
        | some T =>
          simp only [Option.bind_some]
          rw [ih cs'.length (by simp at hn; omega) [] cs' T rfl, scan_plain (by decide), scan_plain (by decide)]
          rfl
      · rw [splitChars_step fun cs' e1 e2 => hr ⟨cs', e1, e2⟩]
        split
        · rename_i he
          rw [List.flatMap_cons, scan_append, scan_append]
          simp only [id]
          cases scan S cur with
          | none => rfl
          | some T =>
            simp only [Option.bind_some]
            rw [ih cs.length (by simp at hn; omega) [] cs T rfl, scan_plain (lineEnds_plain he)]
            rfl
        · rw [ih cs.length (by simp at hn; omega) _ cs S rfl]
          simp

/-- What the texts given besides the protocol must satisfy. -/
structure OptionsClosed (b : Bool) (o : Options) : Prop where
  indent : ∀ s, o.indent = some s → Closed b s
  embed : ∀ s, o.embed = some s → Closed b s

theorem closedLines_splitlines {s : String} (h : Closed b s) : ClosedLines b (splitlines s) := fun e R => by
  unfold splitlines
  have : ((splitChars [] s.toList).map String.ofList).flatMap (·.toList) = (splitChars [] s.toList).flatMap id := by
    rw [List.flatMap_map]; simp
  rw [this, scan_splitChars]
  exact h e R

theorem OptionsClosed.tab (h : OptionsClosed b o) {s : String} (hs : Closed b s) : Closed b (o.indent.getD s) := by
  cases hi : o.indent with
  | none => exact hs
  | some t => exact h.indent t hi

theorem OptionsClosed.lines (h : OptionsClosed b o) : ClosedLines b (splitlines (o.embed.getD "")) := by
  cases hi : o.embed with
  | none => exact closedLines_splitlines closed_empty
  | some t => exact closedLines_splitlines (h.embed t hi)

theorem NamesClosed.rename (h : NamesClosed b p) {f : String → String} (hf : ∀ s, Closed b s → Closed b (f s)) :
    NamesClosed b (p.rename f) where
  bodies s hs := by
    simp only [Protocol.rename, ← List.map_append, List.mem_map] at hs
    obtain ⟨s0, hs0, rfl⟩ := hs
    exact h.bodies s0 hs0
  members s hs v hv := by
    simp only [Protocol.rename, ← List.map_append, List.mem_map] at hs
    obtain ⟨s0, hs0, rfl⟩ := hs
    simp only [Struct.rename, List.mem_map] at hv
    obtain ⟨v0, hv0, rfl⟩ := hv
    exact hf _ (h.members s0 hs0 v0 hv0)
  enums := h.enums
  values := h.values
  ns := h.ns


theorem table_of {d : List (String × String)} (h : d.all (fun x => scan [] x.2.toList == some []) = true) :
    TableClosed b d := fun x hx => closed_of_matched (matched_of_scan (by
  have := List.all_eq_true.1 h x hx
  simpa using this))

theorem rust_good (hu : Usable p) (hn : NamesClosed b p) (ho : OptionsClosed b o) :
    Good b (Rust.writer p o.indent o.embed (Target.boilerplate .rust)) where
  usable := hu
  numbers n := by cases n <;> rfl
  mapping := table_of (d := Rust.mapping) (by decide)
  codecs := table_of (d := []) (by decide)
  defaults := table_of (d := []) (by decide)
  names := hn
  tab := ho.tab (by closed)
  nativeTab := by show Closed b "    "; closed
  pref := closed_empty
  embed := ho.lines

theorem csharp_good (hu : Usable p) (hn : NamesClosed b p) (ho : OptionsClosed b o) :
    Good b (CSharp.writer p o.indent o.embed (Target.boilerplate .csharp)) where
  usable := hu
  numbers n := by cases n <;> rfl
  mapping := table_of (d := CSharp.mapping) (by decide)
  codecs := table_of (d := CSharp.codecs) (by decide)
  defaults := table_of (d := []) (by decide)
  names := hn
  tab := ho.tab (by closed)
  nativeTab := by show Closed b "    "; closed
  pref := closed_empty
  embed := ho.lines

theorem swift_good (hu : Usable p) (hn : NamesClosed b p) (ho : OptionsClosed b o) :
    Good b (Swift.writer p o.indent o.embed (Target.boilerplate .swift)) where
  usable := hu
  numbers n := by cases n <;> rfl
  mapping := table_of (d := Swift.mapping) (by decide)
  codecs := table_of (d := []) (by decide)
  defaults := table_of (d := Swift.defaults) (by decide)
  names := hn
  tab := ho.tab (by closed)
  nativeTab := by show Closed b "    "; closed
  pref := closed_empty
  embed := ho.lines

theorem typescript_good (hu : Usable p) (hn : NamesClosed b p) (ho : OptionsClosed b o) (u : Bool) :
    Good b (TypeScript.writer p u o.indent o.embed (Target.boilerplate .typescript)) where
  usable := hu
  numbers n := by cases n <;> rfl
  mapping := table_of (d := TypeScript.mapping) (by decide)
  codecs := table_of (d := TypeScript.codecs) (by decide)
  defaults := table_of (d := []) (by decide)
  names := hn
  tab := ho.tab (by closed)
  nativeTab := by show Closed b "  "; closed
  pref := closed_empty
  embed := ho.lines

theorem assemblyscript_good (hu : Usable p) (hn : NamesClosed b p) (ho : OptionsClosed b o) :
    Good b (AssemblyScript.writer p o.indent o.embed (Target.boilerplate .assemblyscript)) where
  usable := hu
  numbers n := by cases n <;> rfl
  mapping := table_of (d := AssemblyScript.mapping) (by decide)
  codecs := table_of (d := AssemblyScript.codecs) (by decide)
  defaults := table_of (d := []) (by decide)
  names := hn
  tab := ho.tab (by closed)
  nativeTab := by show Closed b "  "; closed
  pref := closed_empty
  embed := ho.lines

theorem go_good (hu : Usable p) (hn : NamesClosed b p) (ho : OptionsClosed b o) (r : Bool) :
    Good b (Go.writer p r o.indent o.embed (Target.boilerplate .go)) where
  usable := hu
  numbers n := by cases n <;> rfl
  mapping := table_of (d := Go.mapping) (by decide)
  codecs := table_of (d := []) (by decide)
  defaults := table_of (d := []) (by decide)
  names := hn
  tab := ho.tab (by closed)
  nativeTab := by show Closed b "\t"; closed
  pref := closed_empty
  embed := ho.lines

theorem zig_good (hu : Usable p) (hn : NamesClosed b p) (ho : OptionsClosed b o) :
    Good b (Zig.writer p o.indent o.embed (Target.boilerplate .zig)) where
  usable := hu
  numbers n := by cases n <;> rfl
  mapping := table_of (d := Zig.mapping) (by decide)
  codecs := table_of (d := []) (by decide)
  defaults := table_of (d := Zig.defaults) (by decide)
  names := hn
  tab := ho.tab (by closed)
  nativeTab := by show Closed b "    "; closed
  pref := closed_empty
  embed := ho.lines

theorem c_good (hu : Usable p) (hn : NamesClosed b p) (ho : OptionsClosed b o) (hp : PlainNs p) :
    ∃ w, C.writer p o.indent o.embed (Target.boilerplate .c) = .ok w ∧ Good b w ∧ Coded w ∧ C.Defaulted w ∧
      C.OpenClose b w ∧ SubsClosed b w.subs := by
  have good : Good b {
      p := p, tab := o.indent.getD "    ", nativeTab := "    ", mapping := C.mapping,
      codecs := C.codecs, defaults := C.defaults, embed := o.embed, boilerplate := Target.boilerplate .c,
      pref := "beschi_" } := {
    usable := hu
    numbers := fun n => by cases n <;> rfl
    mapping := table_of (d := C.mapping) (by decide)
    codecs := table_of (d := C.codecs) (by decide)
    defaults := table_of (d := C.defaults) (by decide)
    names := hn
    tab := ho.tab (by closed)
    nativeTab := by show Closed b "    "; closed
    pref := by show Closed b "beschi_"; closed
    embed := ho.lines }
  rcases hp with hp | ⟨ns, hp⟩
  · refine ⟨_, by unfold C.writer; rw [hp], good, fun n => by cases n <;> rfl, fun n => by cases n <;> rfl,
      ⟨Boilerplate.c0_opens, Boilerplate.c1_closes, Boilerplate.c2_closed⟩, subs_nil⟩
  · have hc := hn.ns ns hp
    have hw : ∃ w, C.writer p o.indent o.embed (Target.boilerplate .c) = .ok w ∧ w = {
        p := p, tab := o.indent.getD "    ", nativeTab := "    ", mapping := C.mapping,
        codecs := C.codecs, defaults := C.defaults, embed := o.embed, boilerplate := Target.boilerplate .c,
        pref := ns ++ "_", subs := [("beschi", .text ns), ("BESCHI", .text (upper ns))] } :=
      ⟨_, by unfold C.writer; rw [hp], rfl⟩
    obtain ⟨w, hw, rfl⟩ := hw
    refine ⟨_, hw, ⟨good.usable, good.numbers, good.mapping, good.codecs,
      good.defaults, good.names, good.tab, good.nativeTab, ?_, good.embed⟩, fun n => by cases n <;> rfl,
      fun n => by cases n <;> rfl,
      ⟨Boilerplate.c0_opens, Boilerplate.c1_closes, Boilerplate.c2_closed⟩, ?_⟩
    · show Closed b (ns ++ "_")
      closed
    · show SubsClosed b [("beschi", .text ns), ("BESCHI", .text (upper ns))]
      subs

theorem scan_congr {c : Char} {xs ys : List Char} (h : ∀ S, scan S xs = scan S ys) (S : List Char) :
    scan S (c :: xs) = scan S (c :: ys) := by
  rw [scan_cons, scan_cons]
  simp only [h]

theorem upper_plain (c : Char) (hc : c ∉ brackets) : c.toUpper ∉ brackets := fun hu => by
  rcases toNat_upper c with h1 | h1
  · rw [h1] at hu; exact hc hu
  · have := bracket_codes hu; omega

theorem closed_capitalize {s : String} (h : Closed b s) : Closed b (Lang.capitalize s) := fun e S => by
  unfold Lang.capitalize
  cases hs : s.toList with
  | nil => simp only; exact h e S
  | cons c cs =>
    have h1 := h e S
    rw [hs] at h1
    simp only
    rw [String.toList_ofList, ← h1]
    by_cases hc : c ∈ brackets
    · have : c.toUpper = c := by
        simp only [brackets, List.mem_cons, List.not_mem_nil, or_false] at hc
        rcases hc with rfl | rfl | rfl | rfl | rfl | rfl <;> decide
      rw [this]
    · rw [scan_plain (upper_plain c hc), scan_plain hc]

theorem scan_underscore (S cs : List Char) : scan S ('_' :: cs) = scan S cs := scan_plain (by decide) S cs

theorem scan_splitWords (cs : List Char) : ∀ (st : Lang.Scan) (S : List Char),
    scan S (Lang.splitWords st cs) = scan S cs := by
  induction cs with
  | nil => intro st S; cases st <;> rfl
  | cons c cs ih =>
    have key : ∀ st S, scan S (c :: '_' :: Lang.splitWords st cs) = scan S (c :: cs) := fun st S =>
      scan_congr (fun S => by rw [scan_underscore]; exact ih st S) S
    intro st S
    cases st with
    | upper => exact scan_congr (ih _) S
    | lowers =>
      simp only [Lang.splitWords]
      split
      · exact scan_congr (ih _) S
      split
      · exact key _ S
      · exact scan_congr (ih _) S
    | between =>
      simp only [Lang.splitWords]
      split
      · exact key _ S
      · exact scan_congr (ih _) S

theorem scan_splitHumps (cs : List Char) : ∀ (skip : Bool) (S : List Char),
    scan S (Lang.splitHumps skip cs) = scan S cs := by
  induction cs with
  | nil => intro skip S; cases skip <;> rfl
  | cons c cs ih =>
    intro skip S
    simp only [Lang.splitHumps]
    split
    · exact scan_congr (fun S => by rw [scan_underscore]; exact ih _ S) S
    · exact scan_congr (ih _) S

theorem closed_snake {s : String} (h : Closed b s) : Closed b (Lang.snake s) := fun e S => by
  have := closed_lower (s := String.ofList (Lang.splitHumps false (Lang.splitWords .between s.toList))) (b := true)
    (fun _ S => by rw [String.toList_ofList, scan_splitHumps, scan_splitWords]; exact h e S) rfl S
  unfold lower at this
  rw [String.toList_ofList (l := Lang.splitHumps _ _)] at this
  exact this

theorem closed_go {s : String} (r : Bool) (h : Closed b s) : Closed b (Lang.Go.namer r s) := by
  cases r
  · exact closed_capitalize h
  · exact h

theorem closed_rust {s : String} (r : Bool) (h : Closed b s) : Closed b (Lang.Rust.namer r s) := by
  cases r
  · exact closed_snake h
  · exact h

theorem plain_of (t : Target) (ht : t ≠ .c) {w : Writer} (h : w.boilerplate = t.boilerplate) :
    PlainBoilerplate b w := fun n => by
  rw [h]
  have hnil : BumpLines b [] [] [] := bumpLines_nil
  cases t
  · exact absurd rfl ht
  · match n with
    | 0 => exact Boilerplate.cSharp0_closed
    | 1 => exact Boilerplate.cSharp1_closed
    | n + 2 => exact hnil
  · match n with
    | 0 => exact Boilerplate.go_closed
    | n + 1 => exact hnil
  · match n with
    | 0 => exact Boilerplate.rust_closed
    | n + 1 => exact hnil
  · match n with
    | 0 => exact Boilerplate.swift0_closed
    | 1 => exact Boilerplate.swift1_closed
    | n + 2 => exact hnil
  · match n with
    | 0 => exact Boilerplate.typeScript_closed
    | n + 1 => exact hnil
  · match n with
    | 0 => exact Boilerplate.assemblyScript_closed
    | n + 1 => exact hnil
  · match n with
    | 0 => exact Boilerplate.zig_closed
    | n + 1 => exact hnil

/-- The writer is constructed, and `generate` runs to its end. -/
theorem emit_runs (t : Target) (hu : Usable p) (hn : NamesClosed b p) (ho : OptionsClosed b o) (hp : PlainNs p) :
    ∃ w, t.writer o p = .ok w ∧ Runs b 0 0 [] 0 [] Any (t.emit w) := by
  cases t with
  | c =>
    obtain ⟨w, hw, g, cd, df, hb, hs⟩ := c_good hu hn ho hp
    exact ⟨w, hw, C.generate_runs g cd df hb hs⟩
  | csharp =>
    exact ⟨_, rfl, CSharp.generate_runs (csharp_good hu hn ho) (fun n => by cases n <;> rfl)
      (plain_of .csharp (by decide) rfl) hp⟩
  | go =>
    exact ⟨_, rfl, Go.generate_runs (go_good (hu.rename _) (hn.rename fun _ => closed_go _) ho _)
      (plain_of .go (by decide) rfl) hp⟩
  | rust =>
    exact ⟨_, rfl, Rust.generate_runs (rust_good (hu.rename _) (hn.rename fun _ => closed_rust _) ho)
      (plain_of .rust (by decide) rfl) hp⟩
  | swift =>
    exact ⟨_, rfl, Swift.generate_runs (swift_good hu hn ho) (plain_of .swift (by decide) rfl) hp⟩
  | typescript =>
    exact ⟨_, rfl, TypeScript.generate_runs (typescript_good hu hn ho _) (fun n => by cases n <;> rfl)
      (plain_of .typescript (by decide) rfl) hp⟩
  | assemblyscript =>
    exact ⟨_, rfl, TypeScript.generate_runs (assemblyscript_good hu hn ho) (fun n => by cases n <;> rfl)
      (plain_of .assemblyscript (by decide) rfl) hp⟩
  | zig =>
    exact ⟨_, rfl, Zig.generate_runs (zig_good hu hn ho) (plain_of .zig (by decide) rfl) hp⟩

theorem scan_joined (S : List Char) (ls : List String) :
    scan S ("\n".intercalate ls).toList = scan S (ls.flatMap (·.toList)) := by
  rw [String.toList_intercalate]
  induction ls generalizing S with
  | nil => rfl
  | cons l ls ih =>
    cases ls with
    | nil => simp
    | cons l' ls =>
      have : ("\n".toList.intercalate ((l :: l' :: ls).map String.toList)) =
          l.toList ++ '\n' :: ("\n".toList.intercalate ((l' :: ls).map String.toList)) := by
        simp [List.intercalate]
      rw [this, List.flatMap_cons, scan_append, scan_append]
      cases scan S l.toList with
      | none => rfl
      | some T =>
        simp only [Option.bind_some]
        rw [scan_plain (by decide)]
        exact ih T

theorem outcome_spec (t : Target) (hu : Usable p) (hn : NamesClosed b p) (ho : OptionsClosed b o) (hp : PlainNs p) :
    ∃ out, t.outcome o p = .ok out ∧ out.indent = 0 ∧ Closed b ("\n".intercalate out.lines) := by
  obtain ⟨w, hw, hr⟩ := emit_runs t hu hn ho hp
  obtain ⟨a, out, h1, h2, h3, _⟩ := hr ⟨0, []⟩ [] rfl (fun _ => rfl)
  refine ⟨out, ?_, by simpa using h2, fun e S => ?_⟩
  · unfold Target.outcome
    simp only [hw, h1]
  · rw [scan_joined]
    have := scan_frame (h3 e) S
    simpa using this

end Beschi.Text
