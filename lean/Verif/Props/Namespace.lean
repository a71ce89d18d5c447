import Verif.Props.Embed
import Verif.Props.Limits
import Verif.Text.Library
/-
C50: the namespace in the generated code.
-/
namespace Beschi.Props
open Beschi Beschi.Spec Beschi.Text

/-- The lines before anything that depends on the protocol: who wrote this, and the comment with the
protocol if that is asked for. -/
def preamble (t : Target) (o : Options) : List String :=
  firstLines t ++ (o.embed.map fun s => match t with
    | .zig => slashLines s
    | _ => blockLines s).getD []

/-- The text has this line right after the preamble and `skip` more lines. -/
def Opens (t : Target) (o : Options) (p : Protocol) (skip : Nat) (line : String) : Prop :=
  ∃ out between rest, t.outcome o p = .ok out ∧ between.length = skip ∧
    out.lines = preamble t o ++ between ++ line :: rest

/-! ### Lemmas -/

theorem lines_of_appends {x : Emit Unit} (h : Appends x) {i : Int} {ls : List String} {r : Except Exn (Unit × Out)}
    (hr : x ⟨i, ls⟩ = r) {u : Unit} {out : Out} (ho : r = .ok (u, out)) : ∃ rest, out.lines = ls ++ rest := by
  have := h i ls []
  rw [List.append_nil, hr, ho] at this
  cases hx : x ⟨i, []⟩ with
  | error e => rw [hx] at this; cases this
  | ok y =>
    rw [hx] at this
    obtain ⟨_, o⟩ := y
    cases this
    exact ⟨o.lines, rfl⟩

theorem shift_bind {β} (k : Int) (f : Unit → Emit β) (i : Int) (ls : List String) :
    (shift k >>= f) ⟨i, ls⟩ = f () ⟨i + k, ls⟩ := rfl

theorem outcome_emit {t : Target} {o : Options} {p : Protocol} {w : Writer} {out : Out} (hw : t.writer o p = .ok w)
    (h : t.outcome o p = .ok out) : ∃ u, t.emit w ⟨0, []⟩ = .ok (u, out) := by
  unfold Target.outcome at h
  rw [hw] at h
  simp only at h
  split at h
  · cases h
  · next e => cases h; exact ⟨_, e⟩

theorem each_zero {β} (w : Writer) (f : Unit → Emit β) (xs ls : List String) :
    (each xs w.line >>= f) ⟨0, ls⟩ = f () ⟨0, ls ++ xs⟩ := by
  induction xs generalizing ls with
  | nil => rw [List.append_nil]; rfl
  | cons x xs ih =>
    have : (each (x :: xs) w.line >>= f) ⟨0, ls⟩ = (w.line x >>= fun _ => each xs w.line >>= f) ⟨0, ls⟩ := rfl
    rw [this, line_zero, ih, List.append_assoc]
    rfl

/-- What is added for a boilerplate file. -/
theorem boilerplate_zero {β} (w : Writer) (f : Unit → Emit β) (subs : List (String × Sub)) (k : Nat) (ls : List String) :
    (w.addBoilerplate subs k >>= f) ⟨0, ls⟩ =
      f () ⟨0, ls ++ (subs.foldl substitute (w.boilerplate k)).map (replaceIndent · w.nativeTab w.tab)⟩ :=
  each_zero w f _ ls

theorem replaceChars_none {old new : List Char} {a : Char} {as : List Char} (ho : old = a :: as) :
    ∀ {cs : List Char}, a ∉ cs → replaceChars old new 0 cs = cs
  | [], _ => rfl
  | c :: cs, h => by
    have hc : a ≠ c := fun e => h (e ▸ List.mem_cons_self)
    subst ho
    simp only [replaceChars, dropPrefix, if_neg hc]
    rw [replaceChars_none rfl fun m => h (List.mem_cons_of_mem _ m)]

/-- Nothing is replaced if the first character does not occur. -/
theorem replace_none {s old : String} (new : String) {a : Char} {as : List Char} (ho : old.toList = a :: as)
    (h : a ∉ s.toList) : replace s old new = s := by
  unfold replace
  rw [replaceChars_none ho h, String.ofList_toList]

theorem replaceIndent_none {s old : String} (new : String) {a b : Char} {as cs : List Char} (ho : old.toList = a :: as)
    (hs : s.toList = b :: cs) (h : a ≠ b) : replaceIndent s old new = s := by
  have : ∀ fuel, stripIndent old.toList fuel s.toList = (0, s.toList) := by
    intro fuel
    cases fuel with
    | zero => rfl
    | succ n => simp only [stripIndent, ho, hs, dropPrefix, if_neg h]
  unfold replaceIndent
  rw [this]
  simp [times, String.join]

theorem package_line (n : String) : replace "package beschi" "beschi" n = "package " ++ n := by
  apply String.toList_injective
  simp only [replace, String.toList_ofList, String.toList_append]
  simp [replaceChars, dropPrefix]

theorem error_line (n : String) : replace "pub enum BeschiError {" "Beschi" n = "pub enum " ++ n ++ "Error {" := by
  apply String.toList_injective
  simp only [replace, String.toList_ofList, String.toList_append]
  simp [replaceChars, dropPrefix]

theorem guard_line (n : String) : replace "#ifndef INCLUDE_BESCHI_H" "BESCHI" n = "#ifndef INCLUDE_" ++ n ++ "_H" := by
  apply String.toList_injective
  simp only [replace, String.toList_ofList, String.toList_append]
  simp [replaceChars, dropPrefix]

theorem swift_head : ∃ rest : Writer → Emit Unit, (∀ w, Swift.generate w = (do
      w.line s!"// This file was automatically generated by {libName} v{libVersion}"
      w.line "// <https://github.com/sjml/beschi>"
      w.line "// Do not edit directly."
      w.blank
      w.line "import Foundation"
      w.blank
      w.block
      (do
        if w.nsGiven then
          w.line s!"public /* namespace */ enum {← w.nsText} \{"
          shift 1)
      rest w)) ∧ ∀ w, Appends (rest w) := by
  refine ⟨?_, fun w => ?_, fun w => ?_⟩
  rotate_left
  · unfold Swift.generate; rfl
  · appends

theorem typescript_head : ∃ rest : Writer → Emit Unit, (∀ w, TypeScript.generate w = (do
      w.line s!"// This file was automatically generated by {libName} v{libVersion}"
      w.line "// <https://github.com/sjml/beschi>"
      w.line "// Do not edit directly."
      w.blank
      w.block
      (do
        if w.useNamespace then
          w.line s!"namespace {← w.nsText} \{"
          shift 1)
      rest w)) ∧ ∀ w, Appends (rest w) := by
  refine ⟨?_, fun w => ?_, fun w => ?_⟩
  rotate_left
  · unfold TypeScript.generate; rfl
  · appends

theorem csharp_head : ∃ rest : Writer → Emit Unit, (∀ w, CSharp.generate w = (do
      w.line s!"// This file was automatically generated by {libName} v{libVersion}"
      w.line "// <https://github.com/sjml/beschi>"
      w.line "// Do not edit directly."
      w.blank
      w.block
      w.addBoilerplate [] 0
      (do
        if w.nsTrue then
          w.line s!"namespace {← w.nsText}"
          w.line "{"
          shift 1)
      rest w)) ∧ ∀ w, Appends (rest w) := by
  refine ⟨?_, fun w => ?_, fun w => ?_⟩
  rotate_left
  · unfold CSharp.generate; rfl
  · appends

theorem go_head : ∃ rest : Writer → Emit Unit, (∀ w, Go.generate w = (do
      w.line s!"// This file was automatically generated by {libName} v{libVersion}"
      w.line "// <https://github.com/sjml/beschi>"
      w.line "// Do not edit directly."
      w.blank
      w.block
      let subs : List (String × Sub) := [("{# STRING_SIZE_TYPE #}", .text (← w.stringSize))]
      let subs ← (do
        if w.nsTrue then
          let subs := subs ++ [("Beschi", Sub.text (← w.nsText))]
          let subs ← (do
            if w.rename then
              let subs := subs ++ [("beschi", Sub.text (Lang.snake (← w.nsText)))]
              pure subs
            else
              pure subs)
          pure subs
        else
          pure subs)
      w.addBoilerplate subs 0
      rest w)) ∧ ∀ w, Appends (rest w) := by
  refine ⟨?_, fun w => ?_, fun w => ?_⟩
  rotate_left
  · unfold Go.generate Writer.block; rfl
  · appends

theorem rust_head : ∃ (next : List (String × Sub) × Writer → Emit Unit) (rest : Writer → Emit Unit),
    (∀ w, Rust.generate w = (do
      w.line s!"// This file was automatically generated by {libName} v{libVersion}"
      w.line "// <https://github.com/sjml/beschi>"
      w.line "// Do not edit directly."
      w.blank
      w.block
      let subs : List (String × Sub) := [("{# STRING_SIZE_TYPE #}", .text (← w.stringSize))]
      let w := { w with pref := "Beschi" }
      (do
        if w.nsGiven then
          let subs := subs ++ [("Beschi", Sub.text (← w.nsText))]
          let w := { w with pref := (← w.nsText) }
          pure (subs, w)
        else
          pure (subs, w)) >>= next)) ∧
    (∀ subs w, next (subs, w) = (do w.addBoilerplate subs 0; rest w)) ∧ ∀ w, Appends (rest w) := by
  refine ⟨?_, ?_, fun w => ?_, fun subs w => ?_, fun w => ?_⟩
  rotate_left 2
  · unfold Rust.generate; rfl
  · rfl
  · appends

set_option maxRecDepth 4000 in
theorem c_head : ∃ rest : Writer → Emit Unit, (∀ w, C.generate w = (do
      w.line "/*"
      w.line s!"   This file was automatically generated by {libName} v{libVersion}"
      w.line "   <https://github.com/sjml/beschi>"
      w.line "   Do not edit directly."
      w.line "*/"
      w.blank
      w.block
      w.addBoilerplate (w.subs ++ [("{# STRING_SIZE_TYPE #}", .text (← w.codec w.p.stringSize.name)),
        ("{# STRING_SIZE_TYPE_LOWER #}", .text (Text.lower (← w.codec w.p.stringSize.name))),
        ("{# STRING_SIZE_TYPE_NATIVE #}", .text (← w.stringSize))]) 0
      rest w)) ∧ ∀ w, Appends (rest w) := by
  refine ⟨?_, fun w => ?_, fun w => ?_⟩
  rotate_left
  · unfold C.generate; rfl
  · appends

theorem upper_open {n : String} (h : '{' ∉ n.toList) : '{' ∉ (upper n).toList := by
  unfold upper
  rw [String.toList_ofList, List.mem_map]
  rintro ⟨c, hc, e⟩
  refine h ?_
  have : c = '{' := by
    unfold Char.toUpper at e
    split at e
    · next hl =>
      exfalso
      have hv := congrArg (fun c => c.val.toNat) e
      obtain ⟨h1, h2⟩ := hl
      simp [UInt32.le_iff_toNat_le] at hv h1 h2
      omega
    · exact e
  exact this ▸ hc

/-! ### C50 -/

/-- C50 in Swift: everything is inside of an enum with the name of the namespace. -/
theorem C50_swift {data : Toml} {p : Protocol} (h : Loads data (.ok p)) (o : Options) {n : String}
    (hn : p.ns = some (.str n)) : Opens .swift o p 0 ("public /* namespace */ enum " ++ n ++ " {") := by
  obtain ⟨out, ho, -⟩ := C38_level_partial h (.inr ⟨n, hn⟩) .swift o
  obtain ⟨u, he⟩ := outcome_emit (w := Swift.writer p o.indent o.embed (Target.boilerplate .swift)) rfl ho
  obtain ⟨rest, h1, h2⟩ := swift_head
  have hg : (Swift.writer p o.indent o.embed (Target.boilerplate .swift)).nsGiven = true := by
    simp [Writer.nsGiven, Swift.writer, hn]
  have ht : (Swift.writer p o.indent o.embed (Target.boilerplate .swift)).nsText = .ok n := by
    simp [Writer.nsText, Swift.writer, hn]
  have he : Swift.generate _ ⟨0, []⟩ = .ok (u, out) := he
  rw [h1, headingSwift_zero fun _ => (do Writer.block _; _), block_zero, hg, ht] at he
  generalize hw : Swift.writer p o.indent o.embed (Target.boilerplate .swift) = w at *
  have e : w.embed = o.embed := by rw [← hw]; rfl
  have he : (w.line s!"public /* namespace */ enum {n} \{" >>= fun _ => shift 1 >>= fun _ => rest w)
      ⟨0, headingSwift ++ (w.embed.map blockLines).getD []⟩ = .ok (u, out) := he
  rw [line_zero, shift_bind] at he
  obtain ⟨r, hr⟩ := lines_of_appends (h2 w) rfl he
  exact ⟨out, [], r, ho, rfl, by rw [hr, e]; simp [preamble, firstLines, toString]⟩

/-- The first line in TypeScript if the namespace is asked for, where there is none as well. -/
theorem typescript_opens {data : Toml} {p : Protocol} (h : Loads data (.ok p)) (hns : TextualNamespace p) (o : Options)
    (hu : o.typescriptUseNamespace = true) {n : String} (hn : p.ns = some (.str n) ∨ (p.ns = none ∧ n = "None")) :
    Opens .typescript o p 0 ("namespace " ++ n ++ " {") := by
  obtain ⟨out, ho, -⟩ := C38_level_partial h hns .typescript o
  obtain ⟨u, he⟩ := outcome_emit
    (w := TypeScript.writer p o.typescriptUseNamespace o.indent o.embed (Target.boilerplate .typescript)) rfl ho
  obtain ⟨rest, h1, h2⟩ := typescript_head
  have hg : (TypeScript.writer p o.typescriptUseNamespace o.indent o.embed (Target.boilerplate .typescript)).useNamespace = true := hu
  have ht : (TypeScript.writer p o.typescriptUseNamespace o.indent o.embed (Target.boilerplate .typescript)).nsText = .ok n := by
    rcases hn with hn | ⟨hn, rfl⟩ <;> simp [Writer.nsText, TypeScript.writer, hn]
  have he : TypeScript.generate _ ⟨0, []⟩ = .ok (u, out) := he
  rw [h1, heading_zero fun _ => (do Writer.block _; _), block_zero, hg, ht] at he
  generalize hw : TypeScript.writer p o.typescriptUseNamespace o.indent o.embed (Target.boilerplate .typescript) = w at *
  have e : w.embed = o.embed := by rw [← hw]; rfl
  have he : (w.line s!"namespace {n} \{" >>= fun _ => shift 1 >>= fun _ => rest w)
      ⟨0, heading ++ (w.embed.map blockLines).getD []⟩ = .ok (u, out) := he
  rw [line_zero, shift_bind] at he
  obtain ⟨r, hr⟩ := lines_of_appends (h2 w) rfl he
  exact ⟨out, [], r, ho, rfl, by rw [hr, e]; simp [preamble, firstLines, toString]⟩

/-- C50 in TypeScript: with `--typescript-use-namespace` everything is inside of the namespace. -/
theorem C50_typescript {data : Toml} {p : Protocol} (h : Loads data (.ok p)) (o : Options)
    (hu : o.typescriptUseNamespace = true) {n : String} (hn : p.ns = some (.str n)) :
    Opens .typescript o p 0 ("namespace " ++ n ++ " {") :=
  typescript_opens h (.inr ⟨n, hn⟩) o hu (.inl hn)

/-- C50 fails where there is no namespace: with `--typescript-use-namespace` one with the name `None` is
made up. -/
theorem C50_typescript_none {data : Toml} {p : Protocol} (h : Loads data (.ok p)) (o : Options)
    (hu : o.typescriptUseNamespace = true) (hn : p.ns = none) :
    Opens .typescript o p 0 "namespace None {" :=
  typescript_opens h (.inl hn) o hu (.inr ⟨hn, rfl⟩)

/-- C50 in C#: everything is inside of the namespace. -/
theorem C50_csharp {data : Toml} {p : Protocol} (h : Loads data (.ok p)) (o : Options) {n : String}
    (hn : p.ns = some (.str n)) (hne : n ≠ "") : Opens .csharp o p Boilerplate.cSharp0.length ("namespace " ++ n) := by
  obtain ⟨out, ho, -⟩ := C38_level_partial h (.inr ⟨n, hn⟩) .csharp o
  obtain ⟨u, he⟩ := outcome_emit (w := CSharp.writer p o.indent o.embed (Target.boilerplate .csharp)) rfl ho
  obtain ⟨rest, h1, h2⟩ := csharp_head
  have hg : (CSharp.writer p o.indent o.embed (Target.boilerplate .csharp)).nsTrue = true := by
    simp [Writer.nsTrue, CSharp.writer, hn, hne]
  have ht : (CSharp.writer p o.indent o.embed (Target.boilerplate .csharp)).nsText = .ok n := by
    simp [Writer.nsText, CSharp.writer, hn]
  have he : CSharp.generate _ ⟨0, []⟩ = .ok (u, out) := he
  have hb : (CSharp.writer p o.indent o.embed (Target.boilerplate .csharp)).boilerplate 0 = Boilerplate.cSharp0 := rfl
  rw [h1, heading_zero fun _ => (do Writer.block _; _), block_zero, hg, ht] at he
  generalize hw : CSharp.writer p o.indent o.embed (Target.boilerplate .csharp) = w at *
  have e : w.embed = o.embed := by rw [← hw]; rfl
  have he : (w.addBoilerplate [] 0 >>= fun _ => w.line s!"namespace {n}" >>= fun _ => w.line "{" >>= fun _ =>
      shift 1 >>= fun _ => rest w) ⟨0, heading ++ (w.embed.map blockLines).getD []⟩ = .ok (u, out) := he
  rw [boilerplate_zero, line_zero, line_zero, shift_bind] at he
  obtain ⟨r, hr⟩ := lines_of_appends (h2 w) rfl he
  refine ⟨out, (w.boilerplate 0).map (replaceIndent · w.nativeTab w.tab), "{" :: r, ho, ?_, ?_⟩
  · rw [List.length_map, hb]
  · rw [hr, e]; simp [preamble, firstLines, toString]

/-- The first line of the boilerplate file in Go. -/
theorem go_opens {data : Toml} {p : Protocol} (h : Loads data (.ok p)) (o : Options) {n : String}
    (hn : p.ns = some (.str n)) (hne : n ≠ "") :
    Opens .go o p 0 (if o.goNoRename then "package beschi" else "package " ++ Lang.snake n) := by
  obtain ⟨out, ho, -⟩ := C38_level_partial h (.inr ⟨n, hn⟩) .go o
  obtain ⟨u, he⟩ := outcome_emit (w := Go.writer (p.rename (Lang.Go.namer o.goNoRename)) (!o.goNoRename) o.indent o.embed
    (Target.boilerplate .go)) rfl ho
  obtain ⟨rest, h1, h2⟩ := go_head
  generalize hw : Go.writer (p.rename (Lang.Go.namer o.goNoRename)) (!o.goNoRename) o.indent o.embed
    (Target.boilerplate .go) = w at *
  have hp : w.p.ns = some (.str n) := by rw [← hw]; exact hn
  have hg : w.nsTrue = true := by simp [Writer.nsTrue, hp, hne]
  have ht : w.nsText = .ok n := by simp [Writer.nsText, hp]
  have hb : w.boilerplate 0 = ["package beschi"] ++ Boilerplate.go.drop 1 := by rw [← hw]; rfl
  have hr : w.rename = !o.goNoRename := by rw [← hw]; rfl
  have hi : w.nativeTab = "\t" := by rw [← hw]; rfl
  have e : w.embed = o.embed := by rw [← hw]; rfl
  have he : Go.generate w ⟨0, []⟩ = .ok (u, out) := he
  rw [h1, heading_zero fun _ => (do Writer.block _; _), block_zero, hg, ht, hr] at he
  cases hs : w.stringSize with
  | error x => rw [hs] at he; cases he
  | ok size =>
    rw [hs] at he
    have first : ∀ subs line, List.foldl substitute ["package beschi"] subs = [line] →
        (w.addBoilerplate subs 0 >>= fun _ => rest w) ⟨0, heading ++ (w.embed.map blockLines).getD []⟩ = .ok (u, out) →
        replaceIndent line w.nativeTab w.tab = line → Opens .go o p 0 line := by
      intro subs line hl hx hk
      rw [boilerplate_zero, hb, substitutes_append, hl] at hx
      obtain ⟨r, hr⟩ := lines_of_appends (h2 w) rfl hx
      refine ⟨out, [], ?rest, ho, rfl, ?_⟩
      rotate_left
      rw [hr, e]
      simp only [List.map_cons, hk, List.append_nil, List.append_assoc, List.cons_append,
        List.nil_append]
      rfl
    cases hq : o.goNoRename with
    | true =>
      rw [hq] at he
      refine first [("{# STRING_SIZE_TYPE #}", .text size), ("Beschi", .text n)] _ ?_ he ?_
      · simp only [List.foldl_cons, List.foldl_nil, substitute, List.map_cons, List.map_nil]
        rw [replace_none (a := '{') (as := "# STRING_SIZE_TYPE #}".toList) size (by rfl) (by decide),
          replace_none (a := 'B') (as := "eschi".toList) n (by rfl) (by decide)]
        rfl
      · rw [hi, if_pos rfl]
        exact replaceIndent_none (a := '\t') (as := []) (b := 'p') (cs := "ackage beschi".toList) _ rfl rfl (by decide)
    | false =>
      rw [hq] at he
      refine first [("{# STRING_SIZE_TYPE #}", .text size), ("Beschi", .text n), ("beschi", .text (Lang.snake n))] _ ?_ he ?_
      · simp only [List.foldl_cons, List.foldl_nil, substitute, List.map_cons, List.map_nil]
        rw [replace_none (a := '{') (as := "# STRING_SIZE_TYPE #}".toList) size (by rfl) (by decide),
          replace_none (a := 'B') (as := "eschi".toList) n (by rfl) (by decide), package_line]
        rfl
      · rw [hi]
        exact replaceIndent_none (a := '\t') (as := []) (b := 'p') (cs := "ackage ".toList ++ (Lang.snake n).toList) _ rfl
          (by simp) (by decide)

/-- C50 in Go: the package has the name of the namespace, in snake case. -/
theorem C50_go {data : Toml} {p : Protocol} (h : Loads data (.ok p)) (o : Options) (hr : o.goNoRename = false) {n : String}
    (hn : p.ns = some (.str n)) (hne : n ≠ "") : Opens .go o p 0 ("package " ++ Lang.snake n) := by
  simpa [hr] using go_opens h o hn hne

/-- C50 fails in Go with `--go-no-rename`: the package does not keep the name of the namespace, it is `beschi`
in every protocol. -/
theorem C50_go_no_rename {data : Toml} {p : Protocol} (h : Loads data (.ok p)) (o : Options) (hr : o.goNoRename = true)
    {n : String} (hn : p.ns = some (.str n)) (hne : n ≠ "") : Opens .go o p 0 "package beschi" := by
  simpa [hr] using go_opens h o hn hne

/-- C50 in Rust: the type of errors has the name of the namespace as a prefix. -/
theorem C50_rust {data : Toml} {p : Protocol} (h : Loads data (.ok p)) (o : Options) {n : String}
    (hn : p.ns = some (.str n)) : Opens .rust o p 6 ("pub enum " ++ n ++ "Error {") := by
  obtain ⟨out, ho, -⟩ := C38_level_partial h (.inr ⟨n, hn⟩) .rust o
  obtain ⟨u, he⟩ := outcome_emit (w := Rust.writer (p.rename (Lang.Rust.namer o.rustNoRename)) o.indent o.embed
    (Target.boilerplate .rust)) rfl ho
  obtain ⟨next, rest, h1, h2, h3⟩ := rust_head
  generalize hw : Rust.writer (p.rename (Lang.Rust.namer o.rustNoRename)) o.indent o.embed
    (Target.boilerplate .rust) = w at *
  have hp : w.p.ns = some (.str n) := by rw [← hw]; exact hn
  have hg : Writer.nsGiven { w with pref := "Beschi" } = true := by simp [Writer.nsGiven, hp]
  have ht : Writer.nsText { w with pref := "Beschi" } = .ok n := by simp [Writer.nsText, hp]
  have hb : w.boilerplate 0 = Boilerplate.rust.take 6 ++ (["pub enum BeschiError {"] ++ Boilerplate.rust.drop 7) := by
    rw [← hw]; rfl
  have hi : w.nativeTab = "    " := by rw [← hw]; rfl
  have e : w.embed = o.embed := by rw [← hw]; rfl
  have he : Rust.generate w ⟨0, []⟩ = .ok (u, out) := he
  rw [h1, heading_zero fun _ => (do Writer.block _; _), block_zero] at he
  simp only [hg, ht] at he
  cases hs : w.stringSize with
  | error x => rw [hs] at he; cases he
  | ok size =>
    rw [hs] at he
    have he : next ([("{# STRING_SIZE_TYPE #}", .text size), ("Beschi", .text n)], { w with pref := n })
      ⟨0, heading ++ (w.embed.map blockLines).getD []⟩ = .ok (u, out) := he
    rw [h2, boilerplate_zero] at he
    obtain ⟨r, hr⟩ := lines_of_appends (h3 _) rfl he
    have hl : List.foldl substitute ["pub enum BeschiError {"]
        [("{# STRING_SIZE_TYPE #}", .text size), ("Beschi", .text n)] = ["pub enum " ++ n ++ "Error {"] := by
      simp only [List.foldl_cons, List.foldl_nil, substitute, List.map_cons, List.map_nil]
      have : replace "pub enum BeschiError {" "{# STRING_SIZE_TYPE #}" size = "pub enum BeschiError {" := by
        apply String.toList_injective
        simp only [replace, String.toList_ofList]
        simp [replaceChars, dropPrefix]
      rw [this, error_line]
    have hk : replaceIndent ("pub enum " ++ n ++ "Error {") w.nativeTab w.tab = "pub enum " ++ n ++ "Error {" := by
      rw [hi]
      exact replaceIndent_none (a := ' ') (as := [' ', ' ', ' ']) (b := 'p')
        (cs := "ub enum ".toList ++ n.toList ++ "Error {".toList) _ rfl (by simp) (by decide)
    simp only [hb] at hr
    rw [substitutes_append, substitutes_append, hl] at hr
    refine ⟨out, (List.foldl substitute (Boilerplate.rust.take 6) [("{# STRING_SIZE_TYPE #}", .text size), ("Beschi", .text n)]).map (replaceIndent · w.nativeTab w.tab), ?rest, ho, ?_, ?_⟩
    rotate_left
    · simp only [List.foldl_cons, List.foldl_nil, substitute, List.length_map]
      rfl
    · rw [hr, e]
      simp only [List.map_append, List.map_cons, hk, List.append_assoc, List.cons_append,
        List.nil_append]
      rfl

/-- C50 in C: the header is guarded by the name of the namespace in upper case. -/
theorem C50_c {data : Toml} {p : Protocol} (h : Loads data (.ok p)) (o : Options) {n : String}
    (hn : p.ns = some (.str n)) (hb : '{' ∉ n.toList) : Opens .c o p 5 ("#ifndef INCLUDE_" ++ upper n ++ "_H") := by
  obtain ⟨out, ho, -⟩ := C38_level_partial h (.inr ⟨n, hn⟩) .c o
  cases hw : Target.c.writer o p with
  | error e =>
    unfold Target.outcome at ho
    rw [hw] at ho
    cases ho
  | ok w =>
  obtain ⟨u, he⟩ := outcome_emit hw ho
  obtain ⟨rest, h1, h2⟩ := c_head
  have hw : C.writer p o.indent o.embed (Target.boilerplate .c) = .ok w := hw
  unfold C.writer at hw
  simp only [hn, Except.ok.injEq] at hw
  have hs : w.subs = [("beschi", .text n), ("BESCHI", .text (upper n))] := by rw [← hw]
  have hl : w.boilerplate 0 = Boilerplate.c0.take 5 ++ (["#ifndef INCLUDE_BESCHI_H"] ++ Boilerplate.c0.drop 6) := by
    rw [← hw]; rfl
  have hi : w.nativeTab = "    " := by rw [← hw]
  have e : w.embed = o.embed := by rw [← hw]
  have he : C.generate w ⟨0, []⟩ = .ok (u, out) := he
  rw [h1, headingC_zero fun _ => (do Writer.block _; _), block_zero, hs] at he
  cases hc : w.codec w.p.stringSize.name with
  | error x => rw [hc] at he; cases he
  | ok a =>
  cases hz : w.stringSize with
  | error x => rw [hc, hz] at he; cases he
  | ok b =>
    rw [hc, hz] at he
    generalize hq : [("beschi", Sub.text n), ("BESCHI", .text (upper n)), ("{# STRING_SIZE_TYPE #}", .text a),
      ("{# STRING_SIZE_TYPE_LOWER #}", .text (Text.lower a)), ("{# STRING_SIZE_TYPE_NATIVE #}", .text b)] = subs
    have he : (w.addBoilerplate [("beschi", Sub.text n), ("BESCHI", .text (upper n)), ("{# STRING_SIZE_TYPE #}", .text a),
      ("{# STRING_SIZE_TYPE_LOWER #}", .text (Text.lower a)), ("{# STRING_SIZE_TYPE_NATIVE #}", .text b)] 0 >>= fun _ => rest w)
      ⟨0, headingC ++ (w.embed.map blockLines).getD []⟩ = .ok (u, out) := he
    rw [hq, boilerplate_zero] at he
    obtain ⟨r, hr⟩ := lines_of_appends (h2 w) rfl he
    have hg : List.foldl substitute ["#ifndef INCLUDE_BESCHI_H"] subs = ["#ifndef INCLUDE_" ++ upper n ++ "_H"] := by
      subst hq
      have hm : '{' ∉ ("#ifndef INCLUDE_" ++ upper n ++ "_H").toList := by
        simp [upper_open hb]
      simp only [List.foldl_cons, List.foldl_nil, substitute, List.map_cons, List.map_nil]
      rw [replace_none (a := 'b') (as := "eschi".toList) n (by rfl) (by decide), guard_line,
        replace_none (a := '{') (as := "# STRING_SIZE_TYPE #}".toList) _ (by rfl) hm,
        replace_none (a := '{') (as := "# STRING_SIZE_TYPE_LOWER #}".toList) _ (by rfl) hm,
        replace_none (a := '{') (as := "# STRING_SIZE_TYPE_NATIVE #}".toList) _ (by rfl) hm]
    have hk : replaceIndent ("#ifndef INCLUDE_" ++ upper n ++ "_H") w.nativeTab w.tab =
        "#ifndef INCLUDE_" ++ upper n ++ "_H" := by
      rw [hi]
      exact replaceIndent_none (a := ' ') (as := [' ', ' ', ' ']) (b := '#')
        (cs := "ifndef INCLUDE_".toList ++ (upper n).toList ++ "_H".toList) _ rfl (by simp) (by decide)
    rw [hl, substitutes_append, substitutes_append, hg] at hr
    refine ⟨out, (List.foldl substitute (Boilerplate.c0.take 5) subs).map (replaceIndent · w.nativeTab w.tab), ?rest, ho,
      ?_, ?_⟩
    rotate_left
    · subst hq
      simp only [List.foldl_cons, List.foldl_nil, substitute, List.length_map]
      rfl
    · rw [hr, e]
      simp only [List.map_append, List.map_cons, hk, List.append_assoc, List.cons_append, List.nil_append]
      rfl

/-- The text does not depend on the namespace. -/
def Ignores (t : Target) (o : Options) : Prop :=
  ∀ (p : Protocol) (n m : Option Toml), t.generate o { p with ns := n } = t.generate o { p with ns := m }

/-- C50 in TypeScript without the flag: the namespace is ignored, as documented. -/
theorem C50_typescript_ignores (o : Options) (h : o.typescriptUseNamespace = false) : Ignores .typescript o := by
  obtain ⟨a, b, c, d, e⟩ := o
  cases h
  intro p n m
  kernel_rfl

/-- C50 in AssemblyScript. -/
theorem C50_assemblyscript_ignores (o : Options) : Ignores .assemblyscript o := by
  intro p n m
  kernel_rfl

/-- C50 in Zig: the namespace is ignored, as documented. -/
theorem C50_zig_ignores (o : Options) : Ignores .zig o := by
  intro p n m
  kernel_rfl

/-- C50 with an empty namespace: it counts as none in C#. -/
theorem C50_csharp_empty (o : Options) (p : Protocol) :
    Target.csharp.generate o { p with ns := some (.str "") } = Target.csharp.generate o { p with ns := none } := by
  kernel_rfl

/-- C50 with an empty namespace: it counts as none in Go. -/
theorem C50_go_empty (o : Options) (p : Protocol) :
    Target.go.generate o { p with ns := some (.str "") } = Target.go.generate o { p with ns := none } := by
  kernel_rfl

/-- A message in an empty namespace. -/
def emptyDoc : Toml :=
  .table [("meta", .table [("namespace", .str "")]), ("messages", .arr [.table [("_name", .str "M")]])]

/-- What it loads to. -/
def emptyProtocol : Protocol where
  ns := some (.str "")
  listSize := .uint32
  stringSize := .uint32
  structs := []
  messages := [⟨"M", [], true⟩]
  enums := []

theorem empty_loads : Loads emptyDoc (.ok emptyProtocol) := ⟨10, rfl⟩

/-- C50 fails in Swift and TypeScript for an empty namespace, which is accepted: a block without a name is
written. -/
theorem C50_fails_empty : ∃ data p, Loads data (.ok p) ∧
    Opens .swift {} p 0 "public /* namespace */ enum  {" ∧
    Opens .typescript { typescriptUseNamespace := true } p 0 "namespace  {" :=
  ⟨_, _, empty_loads, C50_swift empty_loads {} rfl, C50_typescript empty_loads _ rfl rfl⟩

/-! ### Cases -/

example : Opens .swift {} demoProtocol 0 "public /* namespace */ enum Demo {" := C50_swift demo_loads {} rfl

example : Opens .typescript { typescriptUseNamespace := true, embed := some "[meta]" } demoProtocol 0 "namespace Demo {" :=
  C50_typescript demo_loads _ rfl rfl

example : Opens .csharp {} demoProtocol Boilerplate.cSharp0.length "namespace Demo" :=
  C50_csharp demo_loads {} rfl (by decide)

example : Opens .c {} demoProtocol 5 ("#ifndef INCLUDE_" ++ upper "Demo" ++ "_H") :=
  C50_c demo_loads {} rfl (by decide)

example : Opens .rust {} demoProtocol 6 "pub enum DemoError {" := C50_rust demo_loads {} rfl

example : Opens .go { goNoRename := true } demoProtocol 0 "package beschi" :=
  C50_go_no_rename demo_loads _ rfl rfl (by decide)

example : Opens .typescript { typescriptUseNamespace := true } bracketProtocol 0 "namespace None {" :=
  C50_typescript_none bracket_loads _ rfl rfl

example : Target.zig.generate {} { demoProtocol with ns := some (.str "Other") } = Target.zig.generate {} demoProtocol :=
  C50_zig_ignores {} demoProtocol _ _

/-- The package is not called `Demo` or `demo` then. -/
theorem C50_fails_go : Opens .go {} demoProtocol 0 ("package " ++ Lang.snake "Demo") ∧
    Opens .go { goNoRename := true } demoProtocol 0 "package beschi" :=
  ⟨C50_go demo_loads {} rfl rfl (by decide), C50_go_no_rename demo_loads _ rfl rfl (by decide)⟩

end Beschi.Props
