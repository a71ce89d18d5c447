import Verif.Text.Session
import Verif.Text.EmbedProof
import Verif.Props.Generated
import Verif.Props.Names
/-
C48: several writers for one `Protocol` object.
-/
namespace Beschi.Props
open Beschi Beschi.Spec Beschi.Lang Beschi.Text

/-! ### What is claimed -/

/-- The texts a program gets if each is what that writer generates for the protocol as loaded, with
nothing done before.  `made` are the writers constructed so far. -/
inductive Alone (p : Protocol) : List (Target × Options) → List Act → List String → Prop where
  | nil {made} : Alone p made [] []
  | make {made t o as xs} : Alone p (made ++ [(t, o)]) as xs → Alone p made (.make t o :: as) xs
  | text {made i t o as x xs} : made[i]? = some (t, o) → t.generate o p = .ok x →
    Alone p made as xs → Alone p made (.text i :: as) (x :: xs)

/-- The program only uses writers that it has constructed. -/
def Sensible : Nat → List Act → Prop
  | _, [] => True
  | n, .make _ _ :: as => Sensible (n + 1) as
  | n, .text i :: as => i < n ∧ Sensible n as

/-- The member names of a protocol in order. -/
def memberNames (p : Protocol) : List String := (p.structs ++ p.messages).flatMap fun s => s.members.map (·.name)

/-- Names are changed by the constructor: `--go-no-rename` or `--rust-no-rename` is missing. -/
def Renames (t : Target) (o : Options) : Prop :=
  (t = .go ∧ o.goNoRename = false) ∨ (t = .rust ∧ o.rustNoRename = false)

/-! ### Lemmas -/

theorem rename_id (p : Protocol) : p.rename id = p := by
  have hv : Variable.rename id = id := rfl
  have hs : Struct.rename id = id := by
    funext s
    simp [Struct.rename, hv]
  simp [Protocol.rename, hs]

theorem rename_rename (f g : String → String) (p : Protocol) : (p.rename f).rename g = p.rename (g ∘ f) := by
  simp [Protocol.rename, Struct.rename, Function.comp_def, Variable.rename]

theorem rename_congr {f g : String → String} {p : Protocol} (h : ∀ n ∈ memberNames p, f n = g n) :
    p.rename f = p.rename g := by
  have key : ∀ s ∈ p.structs ++ p.messages, Struct.rename f s = Struct.rename g s := by
    intro s hs
    unfold Struct.rename
    congr 1
    apply List.map_congr_left
    intro v hv
    unfold Variable.rename
    rw [h v.name (List.mem_flatMap.2 ⟨s, hs, List.mem_map_of_mem hv⟩)]
  unfold Protocol.rename
  rw [List.map_congr_left fun s hs => key s (List.mem_append_left _ hs),
    List.map_congr_left fun s hs => key s (List.mem_append_right _ hs)]

theorem toUpper_toUpper (c : Char) : c.toUpper.toUpper = c.toUpper := by
  by_cases h : 'a' ≤ c ∧ c ≤ 'z'
  · obtain ⟨h1, h2⟩ := h
    have h1 : 97 ≤ c.toNat := h1
    have h2 : c.toNat ≤ 122 := h2
    have : ∀ n : Fin 123, 97 ≤ n.val → (Char.ofNat n.val).toUpper.toUpper = (Char.ofNat n.val).toUpper := by decide
    have := this ⟨c.toNat, by omega⟩ h1
    simpa using this
  · have : c.toUpper = c := by
      unfold Char.toUpper
      rw [dif_neg]
      exact h
    rw [this, this]

theorem capitalize_capitalize (s : String) : capitalize (capitalize s) = capitalize s := by
  apply String.toList_inj.1
  unfold capitalize
  cases h : s.toList with
  | nil => simp [h]
  | cons c cs => simp [toUpper_toUpper]

theorem toLower_no_capital (c : Char) : ¬ Capital c.toLower := by
  have := snakeCase_no_capital none [c] c.toLower
  simpa [snakeCase, WordBegins] using this

theorem toLower_of_no_capital {c : Char} (h : ¬ Capital c) : c.toLower = c := by
  have := snakeCase_small none [c] (by simpa using h)
  simpa [snakeCase, WordBegins] using this

theorem startsWord_no_capitals {cs : List Char} (h : ∀ c ∈ cs, ¬ Capital c) : startsWord cs = false := by
  cases cs with
  | nil => rfl
  | cons c cs =>
    cases e : startsWord (c :: cs)
    · rfl
    · exact absurd (startsWord_cons.1 e).1 (h c List.mem_cons_self)

theorem splitWords_no_capitals (cs : List Char) (h : ∀ c ∈ cs, ¬ Capital c) (st : Scan) :
    splitWords st cs = cs := by
  induction cs generalizing st with
  | nil => cases st <;> rfl
  | cons c cs ih =>
    have hc : ∀ c ∈ cs, ¬ Capital c := fun d hd => h d (List.mem_cons_of_mem _ hd)
    have hs := startsWord_no_capitals hc
    cases st <;> simp [splitWords, hs, ih hc]

theorem splitHumps_no_capitals (cs : List Char) (h : ∀ c ∈ cs, ¬ Capital c) (skip : Bool) :
    splitHumps skip cs = cs := by
  induction cs generalizing skip with
  | nil => rfl
  | cons c cs ih =>
    have hc : ∀ c ∈ cs, ¬ Capital c := fun d hd => h d (List.mem_cons_of_mem _ hd)
    have hn : cs.head?.any isUpperAZ = false := by
      cases cs with
      | nil => rfl
      | cons d ds =>
        cases e : isUpperAZ d
        · simpa using e
        · exact absurd ((isUpperAZ_iff d).1 e) (hc d List.mem_cons_self)
    rw [splitHumps, hn]
    simp [ih hc]

/-- Text without capital letters is in snake case. -/
theorem snake_no_capitals {s : String} (h : ∀ c ∈ s.toList, ¬ Capital c) : snake s = s := by
  apply String.toList_inj.1
  rw [snake, String.toList_ofList, splitWords_no_capitals _ h, splitHumps_no_capitals _ h]
  conv_rhs => rw [← List.map_id s.toList]
  exact List.map_congr_left fun c hc => toLower_of_no_capital (h c hc)

theorem snake_snake (s : String) : snake (snake s) = snake s := by
  apply snake_no_capitals
  intro c hc
  rw [snake, String.toList_ofList, List.mem_map] at hc
  obtain ⟨d, -, rfl⟩ := hc
  exact toLower_no_capital d

/-- The protocol after a constructor is the one it was given, with other names. -/
theorem leaves_rename (t : Target) (o : Options) (p : Protocol) : ∃ f, t.leaves o p = p.rename f := by
  cases t with
  | go => exact ⟨_, rfl⟩
  | rust => exact ⟨_, rfl⟩
  | _ => exact ⟨id, (rename_id p).symm⟩

theorem leaves_of_not_renames {t : Target} {o : Options} (h : ¬ Renames t o) (p : Protocol) :
    t.leaves o p = p := by
  cases t with
  | go =>
    have : o.goNoRename = true := by
      cases e : o.goNoRename
      · exact absurd (.inl ⟨rfl, e⟩) h
      · rfl
    simp [Target.leaves, Go.namer, this, rename_id]
  | rust =>
    have : o.rustNoRename = true := by
      cases e : o.rustNoRename
      · exact absurd (.inr ⟨rfl, e⟩) h
      · rfl
    simp [Target.leaves, Rust.namer, this, rename_id]
  | _ => rfl

theorem leaves_leaves (t : Target) (o : Options) (p : Protocol) :
    t.leaves o (t.leaves o p) = t.leaves o p := by
  cases t with
  | go =>
    cases e : o.goNoRename
    · simp only [Target.leaves, e, Go.namer, rename_rename]
      exact rename_congr fun n _ => capitalize_capitalize n
    · simp [Target.leaves, e, Go.namer, rename_id]
  | rust =>
    cases e : o.rustNoRename
    · simp only [Target.leaves, e, Rust.namer, rename_rename]
      exact rename_congr fun n _ => snake_snake n
    · simp [Target.leaves, e, Rust.namer, rename_id]
  | _ => rfl

/-- A writer refers to the protocol that its constructor leaves. -/
theorem writer_p {t : Target} {o : Options} {p : Protocol} {w : Writer} (h : t.writer o p = .ok w) :
    w.p = t.leaves o p := by
  cases t with
  | c =>
    unfold Target.writer C.writer at h
    simp only at h
    split at h <;> cases h <;> rfl
  | _ => cases h; rfl

/-- A constructor looks only at the protocol it leaves. -/
theorem writer_leaves {t : Target} {o : Options} {p q : Protocol} (h : t.leaves o p = t.leaves o q) :
    t.writer o p = t.writer o q := by
  cases t with
  | go => exact congrArg (fun p => Except.ok (Go.writer p _ _ _ _)) h
  | rust => exact congrArg (fun p => Except.ok (Rust.writer p _ _ _)) h
  | _ => cases (show p = q from h); rfl

/-- What a session has to do with the writers constructed so far. -/
structure Kept (p q : Protocol) (made : List (Target × Options)) (s : Session) : Prop where
  object : s.p = p ∧ made = [] ∨ s.p = q
  writers : List.Forall₂ (fun x m => m.target = x.1 ∧ x.1.writer x.2 p = .ok m.writer ∧
    x.1.leaves x.2 p = q ∧ m.level = 0) made s.made

theorem run_kept {data : Toml} {p q : Protocol} (h : Loads data (.ok p)) (hns : TextualNamespace p)
    (as : List Act) (hq : ∀ t o, .make t o ∈ as → t.leaves o p = q ∧ t.leaves o q = q)
    {made : List (Target × Options)} {s : Session} (hs : Sensible made.length as) (hk : Kept p q made s) :
    ∃ xs s', s.run as = .ok (xs, s') ∧ Alone p made as xs := by
  induction as generalizing made s with
  | nil => exact ⟨[], s, rfl, .nil⟩
  | cons a as ih =>
    have hq' : ∀ t o, .make t o ∈ as → t.leaves o p = q ∧ t.leaves o q = q :=
      fun t o hm => hq t o (List.mem_cons_of_mem _ hm)
    cases a with
    | make t o =>
      obtain ⟨h1, h2⟩ := hq t o List.mem_cons_self
      obtain ⟨out, ho, -⟩ := C38_level_partial h hns t o
      cases hw : t.writer o p with
      | error e => simp [Target.outcome, hw] at ho
      | ok w =>
        have hsp : t.leaves o s.p = q := by
          rcases hk.object with ⟨e, -⟩ | e <;> rw [e] <;> assumption
        have hws : t.writer o s.p = .ok w := by rw [← hw]; exact writer_leaves (hsp.trans h1.symm)
        obtain ⟨xs, s', hr, hx⟩ := ih hq' (made := made ++ [(t, o)]) (s := ⟨q, s.made ++ [⟨t, w, 0⟩]⟩)
          (by simpa [Sensible] using hs)
          ⟨.inr rfl, List.rel_append hk.writers (.cons ⟨rfl, hw, h1, rfl⟩ .nil)⟩
        exact ⟨xs, s', by rw [Session.run, Session.make, hws]; simp only [hsp, hr], .make hx⟩
    | text i =>
      obtain ⟨hi, hs⟩ := (hs : i < made.length ∧ Sensible made.length as)
      have hl := hk.writers.length_eq
      have hi' : i < s.made.length := hl ▸ hi
      obtain ⟨g1, g2, g3, g4⟩ := List.forall₂_iff_get.1 hk.writers |>.2 i hi hi'
      simp only [List.get_eq_getElem] at g1 g2 g3 g4
      have hp : s.p = q := hk.object.resolve_left fun ⟨_, e⟩ => by simp [e] at hi
      have hwp : { s.made[i].writer with p := s.p } = s.made[i].writer := by
        rw [hp, ← g3, ← writer_p g2]
      obtain ⟨out, ho, hz⟩ := C38_level_partial h hns made[i].1 made[i].2
      have he : s.made[i].target.emit { s.made[i].writer with p := s.p } ⟨s.made[i].level, []⟩ = .ok ((), out) := by
        rw [hwp, g1, g4]
        unfold Target.outcome at ho
        rw [g2] at ho
        simp only at ho
        split at ho
        · cases ho
        · next e => cases ho; exact e
      have hset : s.made.set i { s.made[i] with level := out.indent } = s.made := by
        rw [hz, ← g4]
        exact List.set_getElem_self hi'
      obtain ⟨xs, s', hr, hx⟩ := ih hq' hs hk
      refine ⟨"\n".intercalate out.lines :: xs, s', ?_, .text (List.getElem?_eq_getElem hi) ?_ hx⟩
      · rw [Session.run, Session.text, List.getElem?_eq_getElem hi']
        simp only [he, hset, hr]
      · show made[i].1.generate made[i].2 p = _
        unfold Target.generate
        rw [ho]
        rfl

/-! ### C48

The full statement: whatever a program does with writers for one `Protocol` object, each text it gets is
the one that this writer generates for the protocol as loaded.

That is false if a constructor renames members (`C48_fails_after`, `C48_fails_before`,
`C48_fails_rust`). -/

/-- C48, as far as it holds: if no constructor renames members, each text is as if the writer had been
alone, in whatever order writers are constructed and used, and however often. -/
theorem C48_independent_partial {data : Toml} {p : Protocol} (h : Loads data (.ok p)) (hns : TextualNamespace p)
    {as : List Act} (hs : Sensible 0 as) (hr : ∀ t o, .make t o ∈ as → ¬ Renames t o) :
    ∃ xs s, Session.run ⟨p, []⟩ as = .ok (xs, s) ∧ s.p = p ∧ Alone p [] as xs := by
  obtain ⟨xs, s, h1, h2⟩ := run_kept (q := p) h hns as
    (fun t o hm => ⟨leaves_of_not_renames (hr t o hm) p, leaves_of_not_renames (hr t o hm) p⟩)
    (made := []) (s := ⟨p, []⟩) hs ⟨.inr rfl, .nil⟩
  refine ⟨xs, s, h1, ?_, h2⟩
  clear hs h2
  suffices ∀ (as : List Act) (s' : Session) (xs : List String), s'.run as = .ok (xs, s) →
      (∀ t o, .make t o ∈ as → ¬ Renames t o) → s.p = s'.p from this as ⟨p, []⟩ xs h1 hr
  clear h1 hr hns h xs as
  intro as
  induction as with
  | nil => intro s' xs h _; cases h; rfl
  | cons a as ih =>
    intro s' xs h hr
    have hr' : ∀ t o, .make t o ∈ as → ¬ Renames t o := fun t o hm => hr t o (List.mem_cons_of_mem _ hm)
    cases a with
    | make t o =>
      rw [Session.run, Session.make] at h
      split at h
      · cases h
      · next h1 =>
        split at h1
        · cases h1
        · cases h1
          rw [ih _ _ h hr']
          exact leaves_of_not_renames (hr t o List.mem_cons_self) _
    | text i =>
      rw [Session.run, Session.text] at h
      split at h
      · cases h
      · next h1 =>
        split at h
        · cases h
        · next h2 =>
          cases h
          rw [ih _ _ h2 hr']
          split at h1
          · cases h1
          · split at h1
            · cases h1
            · cases h1; rfl

/-- C48: the same if nothing is left to rename, since names are already in the style of all languages
for which there are writers. -/
theorem C48_conventional_partial {data : Toml} {p : Protocol} (h : Loads data (.ok p)) (hns : TextualNamespace p)
    {as : List Act} (hs : Sensible 0 as)
    (hg : ∀ o, .make .go o ∈ as → o.goNoRename = false →
      ∀ n ∈ memberNames p, capitalCase n.toList = n.toList)
    (hr : ∀ o, .make .rust o ∈ as → o.rustNoRename = false →
      ∀ n ∈ memberNames p, ∀ c ∈ n.toList, ¬ Capital c) :
    ∃ xs s, Session.run ⟨p, []⟩ as = .ok (xs, s) ∧ Alone p [] as xs := by
  refine run_kept (q := p) h hns as ?_ hs ⟨.inr rfl, .nil⟩
  intro t o hm
  have : t.leaves o p = p := by
    by_cases hn : Renames t o
    · rcases hn with ⟨rfl, e⟩ | ⟨rfl, e⟩
      · conv_rhs => rw [← rename_id p]
        refine rename_congr fun n hn => ?_
        apply String.toList_inj.1
        simp only [Go.namer, e, Bool.false_eq_true, if_false]
        rw [capitalize_eq, hg o hm e n hn]
        rfl
      · conv_rhs => rw [← rename_id p]
        refine rename_congr fun n hn => ?_
        simp only [Rust.namer, e, Bool.false_eq_true, if_false]
        exact snake_no_capitals (hr o hm e n hn)
    · exact leaves_of_not_renames hn p
  exact ⟨this, this⟩

/-- C48: the same if all writers are for Go, or all for Rust, and all rename or none does. -/
theorem C48_one_language_partial {data : Toml} {p : Protocol} (h : Loads data (.ok p)) (hns : TextualNamespace p)
    {as : List Act} (hs : Sensible 0 as) (noRename : Bool)
    (ha : (∀ t o, .make t o ∈ as → t = .go ∧ o.goNoRename = noRename) ∨
      (∀ t o, .make t o ∈ as → t = .rust ∧ o.rustNoRename = noRename)) :
    ∃ xs s, Session.run ⟨p, []⟩ as = .ok (xs, s) ∧ Alone p [] as xs := by
  rcases ha with ha | ha
  · refine run_kept (q := p.rename (Go.namer noRename)) h hns as ?_ hs ⟨.inl ⟨rfl, rfl⟩, .nil⟩
    intro t o hm
    obtain ⟨rfl, rfl⟩ := ha t o hm
    exact ⟨rfl, leaves_leaves .go o p⟩
  · refine run_kept (q := p.rename (Rust.namer noRename)) h hns as ?_ hs ⟨.inl ⟨rfl, rfl⟩, .nil⟩
    intro t o hm
    obtain ⟨rfl, rfl⟩ := ha t o hm
    exact ⟨rfl, leaves_leaves .rust o p⟩

/-- C48: whatever a program has done, the protocol is the one loaded with other names for members. -/
theorem C48_only_names {p : Protocol} {as : List Act} {xs : List String} {s : Session}
    (h : Session.run ⟨p, []⟩ as = .ok (xs, s)) : ∃ f, s.p = p.rename f := by
  suffices ∀ (as : List Act) (s' : Session) (xs : List String), s'.run as = .ok (xs, s) →
      ∃ f, s.p = s'.p.rename f from this as ⟨p, []⟩ xs h
  clear h xs as
  intro as
  induction as with
  | nil => intro s' xs h; cases h; exact ⟨id, (rename_id _).symm⟩
  | cons a as ih =>
    intro s' xs h
    cases a with
    | make t o =>
      rw [Session.run, Session.make] at h
      split at h
      · cases h
      · next h1 =>
        split at h1
        · cases h1
        · cases h1
          obtain ⟨f, hf⟩ := ih _ _ h
          obtain ⟨g, hg⟩ := leaves_rename t o s'.p
          exact ⟨f ∘ g, by rw [hf]; simp only [hg, rename_rename]⟩
    | text i =>
      rw [Session.run, Session.text] at h
      split at h
      · cases h
      · next h1 =>
        split at h
        · cases h
        · next h2 =>
          cases h
          obtain ⟨f, hf⟩ := ih _ _ h2
          refine ⟨f, hf.trans ?_⟩
          split at h1
          · cases h1
          · split at h1
            · cases h1
            · cases h1; rfl

/-- C48: the bytes that a library writes for a message, and what it reads from them, do not depend on
what the program had done before it was generated, but for the names of members. -/
theorem C48_bytes_partial {data : Toml} {p : Protocol} (h : Loads data (.ok p)) {as : List Act}
    {xs : List String} {s : Session} (hr : Session.run ⟨p, []⟩ as = .ok (xs, s)) :
    ∃ f, s.p = p.rename f ∧ ∀ (l : Language) (m : String) (v : Val) (bs : List UInt8), l.Supported s.p → EncMsg p m v bs →
      bytes ((l.library s.p).write m false (seen l (v.mapNames f))) = .ok bs ∧
      (Texts (l.Faithful s.p) (v.mapNames f) → bs.length < l.limit →
        (l.library s.p).read m bs 0 = .ok (seen l (v.mapNames f), bs.length)) := by
  obtain ⟨f, hf⟩ := C48_only_names hr
  refine ⟨f, hf, fun l m v bs hs he => ?_⟩
  rw [hf] at hs ⊢
  have hu := (usable_of_loads h).rename f
  have he' : EncMsg (p.rename f) m (v.mapNames f) bs := EncMsg.rename he
  refine ⟨bytes_of ((l.laws hu hs).write he'), fun ht hl => ?_⟩
  have := (l.laws hu hs).read he' ht hl (b := bs) (pos := 0) ⟨[], [], by simp, rfl⟩
  simpa [seen] using this

/-! ### Where it fails -/

/-- The lines generated. -/
def generatedLines (t : Target) (o : Options) (p : Protocol) : List String :=
  match t.outcome o p with
  | .ok out => out.lines
  | .error _ => []

/-- Both have a line `k`, and these lines first differ at character `j`. -/
def parts (k j : Nat) (ls ls' : List String) : Bool :=
  match ls[k]?, ls'[k]? with
  | some a, some b => a.toList.take j == b.toList.take j && (match a.toList[j]?, b.toList[j]? with
    | some c, some d => c != d && c != '\n' && d != '\n'
    | _, _ => false)
  | _, _ => false

theorem joined_append (pre : List String) (a : String) (post : List String) :
    ∃ r, ("\n".intercalate (pre ++ a :: post)).toList =
      pre.flatMap (fun l => l.toList ++ ['\n']) ++ (a.toList ++ r) := by
  rw [String.toList_intercalate]
  induction pre with
  | nil =>
    cases post with
    | nil => exact ⟨[], by simp⟩
    | cons b post => exact ⟨_, by simp [List.intercalate]; rfl⟩
  | cons l pre ih =>
    obtain ⟨r, hr⟩ := ih
    refine ⟨r, ?_⟩
    have : ("\n".toList.intercalate ((l :: (pre ++ a :: post)).map String.toList)) =
        l.toList ++ '\n' :: ("\n".toList.intercalate ((pre ++ a :: post).map String.toList)) := by
      cases pre <;> simp [List.intercalate]
    rw [List.cons_append, this, hr]
    simp

theorem joined_ne {ls ls' : List String} {k j : Nat} (h1 : ls.take k = ls'.take k)
    (h2 : parts k j ls ls' = true) : "\n".intercalate ls ≠ "\n".intercalate ls' := by
  intro e
  unfold parts at h2
  split at h2
  · next a b ha hb =>
    split at h2
    · next c d hc hd =>
      simp only [Bool.and_eq_true, beq_iff_eq, bne_iff_ne] at h2
      obtain ⟨ht, ⟨hn, -⟩, -⟩ := h2
      obtain ⟨hka, ga⟩ := List.getElem?_eq_some_iff.1 ha
      obtain ⟨hkb, gb⟩ := List.getElem?_eq_some_iff.1 hb
      obtain ⟨hja, gc⟩ := List.getElem?_eq_some_iff.1 hc
      obtain ⟨hjb, gd⟩ := List.getElem?_eq_some_iff.1 hd
      have e1 : ls = ls.take k ++ a :: ls.drop (k + 1) := by
        rw [← ga, ← List.drop_eq_getElem_cons hka, List.take_append_drop]
      have e2 : ls' = ls.take k ++ b :: ls'.drop (k + 1) := by
        rw [h1, ← gb, ← List.drop_eq_getElem_cons hkb, List.take_append_drop]
      have e3 : a.toList = a.toList.take j ++ c :: a.toList.drop (j + 1) := by
        rw [← gc, ← List.drop_eq_getElem_cons hja, List.take_append_drop]
      have e4 : b.toList = a.toList.take j ++ d :: b.toList.drop (j + 1) := by
        rw [ht, ← gd, ← List.drop_eq_getElem_cons hjb, List.take_append_drop]
      obtain ⟨r, hr⟩ := joined_append (ls.take k) a (ls.drop (k + 1))
      obtain ⟨r', hr'⟩ := joined_append (ls.take k) b (ls'.drop (k + 1))
      rw [← e1] at hr
      rw [← e2] at hr'
      rw [e, hr', e3, e4] at hr
      have := List.append_cancel_left hr
      rw [List.append_assoc, List.append_assoc] at this
      have := List.append_cancel_left this
      simp only [List.cons_append, List.cons.injEq] at this
      exact hn this.1.symm
    · simp at h2
  · cases h2

theorem generate_differs {t : Target} {o : Options} {p q : Protocol} {k j : Nat}
    (h1 : (generatedLines t o p).take k = (generatedLines t o q).take k)
    (h2 : parts k j (generatedLines t o p) (generatedLines t o q) = true) :
    t.generate o p ≠ t.generate o q := by
  intro e
  have := joined_ne h1 h2
  unfold Target.generate at e
  unfold generatedLines at this h2
  cases hp : t.outcome o p with
  | error => rw [hp] at h2; simp [parts] at h2
  | ok a => cases hq : t.outcome o q with
    | error => rw [hp, hq] at h2; simp [parts] at h2
    | ok b =>
      rw [hp, hq] at this e
      exact this (by simpa [Except.map] using e)

/-- One number, in a protocol without a namespace. -/
def sDoc : Toml := .table [("messages", .arr [.table [("_name", .str "M"), ("x", .str "byte")]])]
/-- What it loads to. -/
def sByte : Protocol where
  ns := none
  listSize := .uint32
  stringSize := .uint32
  structs := []
  messages := [⟨"M", [⟨"x", "byte", false⟩], true⟩]
  enums := []

theorem sByte_loads : Loads sDoc (.ok sByte) := ⟨10, rfl⟩

set_option maxRecDepth 100000 in
/-- The member is `x` in one text and `X` in the other. -/
theorem sByte_differs : Target.c.generate {} sByte ≠ Target.c.generate {} (Target.go.leaves {} sByte) :=
  generate_differs (k := 87) (j := 12) (by kernel_rfl) (by decide +kernel)

/-- What is generated after another writer has been constructed is what is generated for the protocol as
that constructor leaves it. -/
theorem run_after (t u : Target) (o i : Options) (p : Protocol) {xs : List String} {s : Session}
    (h : Session.run ⟨p, []⟩ [.make t o, .make u i, .text 1] = .ok (xs, s)) :
    ∃ x, xs = [x] ∧ u.generate i (t.leaves o p) = .ok x := by
  simp only [Session.run, Session.make] at h
  cases h1 : t.writer o p with
  | error => simp [h1] at h
  | ok w =>
    cases h2 : u.writer i (t.leaves o p) with
    | error => simp [h1, h2] at h
    | ok v =>
      have hv : { v with p := u.leaves i (t.leaves o p) } = v := by rw [← writer_p h2]
      simp only [h1, h2, Session.text, List.nil_append, List.cons_append, List.getElem?_cons_succ,
        List.getElem?_cons_zero, hv] at h
      cases h3 : u.emit v ⟨0, []⟩ with
      | error => simp [h3] at h
      | ok r =>
        simp only [h3] at h
        cases h
        exact ⟨_, rfl, by simp [Target.generate, Target.outcome, h2, h3, Except.map]⟩

/-- What is generated by a writer constructed before another one is what is generated for the protocol as
the other constructor leaves it. -/
theorem run_before (t : Target) (ht : t ≠ .go) (ht' : t ≠ .rust) (u : Target) (o i : Options) (p : Protocol)
    {xs : List String} {s : Session}
    (h : Session.run ⟨p, []⟩ [.make t o, .make u i, .text 0] = .ok (xs, s)) :
    ∃ x, xs = [x] ∧ t.generate o (u.leaves i p) = .ok x := by
  have hl : ∀ p, t.leaves o p = p := by cases t <;> simp_all [Target.leaves]
  simp only [Session.run, Session.make] at h
  cases h1 : t.writer o p with
  | error => simp [h1] at h
  | ok w =>
    cases h2 : u.writer i p with
    | error => simp [h1, hl, h2] at h
    | ok v =>
      have hw : t.writer o (u.leaves i p) = .ok { w with p := u.leaves i p } := by
        obtain ⟨f, hf⟩ := leaves_rename u i p
        rw [hf]
        cases t with
        | c =>
          unfold Target.writer C.writer at h1 ⊢
          simp only [Protocol.rename] at h1 ⊢
          split at h1 <;> cases h1 <;> simp_all
        | go => exact absurd rfl ht
        | rust => exact absurd rfl ht'
        | _ => cases h1; rfl
      simp only [h1, h2, hl, Session.text, List.nil_append, List.cons_append, List.getElem?_cons_zero] at h
      cases h3 : t.emit { w with p := u.leaves i p } ⟨0, []⟩ with
      | error => simp [h3] at h
      | ok r =>
        simp only [h3] at h
        cases h
        exact ⟨_, rfl, by simp [Target.generate, Target.outcome, hw, h3, Except.map]⟩

/-- C48 fails: after a writer for Go, that for C uses other names than it would alone. -/
theorem C48_fails_after : Loads sDoc (.ok sByte) ∧ TextualNamespace sByte ∧ ∀ xs s,
    Session.run ⟨sByte, []⟩ [.make .go {}, .make .c {}, .text 1] = .ok (xs, s) →
      ¬ Alone sByte [] [.make .go {}, .make .c {}, .text 1] xs := by
  refine ⟨sByte_loads, .inl rfl, fun xs s h ha => ?_⟩
  obtain ⟨x, rfl, hx⟩ := run_after _ _ _ _ _ h
  cases ha with | make ha => cases ha with | make ha => cases ha with | text h1 h2 _ =>
  cases h1
  exact sByte_differs (h2.trans hx.symm)

/-- C48 fails: even a writer constructed before that for Go uses other names if it is asked for its text
later. -/
theorem C48_fails_before : Loads sDoc (.ok sByte) ∧ TextualNamespace sByte ∧ ∀ xs s,
    Session.run ⟨sByte, []⟩ [.make .c {}, .make .go {}, .text 0] = .ok (xs, s) →
      ¬ Alone sByte [] [.make .c {}, .make .go {}, .text 0] xs := by
  refine ⟨sByte_loads, .inl rfl, fun xs s h ha => ?_⟩
  obtain ⟨x, rfl, hx⟩ := run_before _ (by decide) (by decide) _ _ _ _ h
  cases ha with | make ha => cases ha with | make ha => cases ha with | text h1 h2 _ =>
  cases h1
  exact sByte_differs (h2.trans hx.symm)

/-- A member called `aB`. -/
def wHump : Protocol := single [⟨"aB", "byte", false⟩]

/-- C48 fails: after a writer for Go, that for Rust does not see where words began: the member is called
`ab` instead of `a_b`. -/
theorem C48_fails_rust : Accepted wHump ∧
    (∀ xs s, Session.run ⟨wHump, []⟩ [.make .rust {}] = .ok (xs, s) → memberNames s.p = ["a_b"]) ∧
    (∀ xs s, Session.run ⟨wHump, []⟩ [.make .go {}, .make .rust {}] = .ok (xs, s) → memberNames s.p = ["ab"]) := by
  refine ⟨⟨10, rfl⟩, fun xs s h => ?_, fun xs s h => ?_⟩ <;> (cases h; decide)

/-! ### Cases -/

/-- Two writers in C# and Zig, used in turn and more than once; one for Go that does not rename. -/
def demoActs : List Act :=
  [.make .csharp {}, .text 0, .make .zig { indent := some "  " }, .make .go { goNoRename := true },
    .text 1, .text 0, .text 2, .text 0]

example : ∃ xs s, Session.run ⟨demoProtocol, []⟩ demoActs = .ok (xs, s) ∧ s.p = demoProtocol ∧
    Alone demoProtocol [] demoActs xs :=
  C48_independent_partial demo_loads (.inr ⟨"Demo", rfl⟩) (by simp [Sensible, demoActs])
    (by rintro t o h ; simp [demoActs] at h; rcases h with ⟨rfl, rfl⟩ | ⟨rfl, rfl⟩ | ⟨rfl, rfl⟩ <;> simp [Renames])

example : ∃ xs s, Session.run ⟨wByte, []⟩ [.make .rust {}, .make .c {}, .text 1, .text 0] = .ok (xs, s) ∧
    Alone wByte [] [.make .rust {}, .make .c {}, .text 1, .text 0] xs :=
  C48_conventional_partial (data := description wByte) ⟨10, rfl⟩ (.inr ⟨"W", rfl⟩) (by simp [Sensible])
    (by simp) (fun _ _ _ => by decide)

example : ∃ xs s, Session.run ⟨demoProtocol, []⟩ [.make .rust {}, .make .rust { indent := some "\t" }, .text 0, .text 1] =
    .ok (xs, s) ∧
    Alone demoProtocol [] [.make .rust {}, .make .rust { indent := some "\t" }, .text 0, .text 1] xs :=
  C48_one_language_partial demo_loads (.inr ⟨"Demo", rfl⟩) (by simp [Sensible]) false
    (.inr (by rintro t o h; simp at h; rcases h with ⟨rfl, rfl⟩ | ⟨rfl, rfl⟩ <;> exact ⟨rfl, rfl⟩))

/-- After a writer for Go, the library of another one, now without renaming, writes the byte of a message whose member is now called `X`. -/
example (xs : List String) (s : Session) (h : Session.run ⟨wByte, []⟩ [.make .go {}] = .ok (xs, s)) :
    ∃ f, s.p = wByte.rename f ∧ bytes (((Language.go true).library s.p).write "M" false
      (seen (.go true) ((Val.record [("x", .int 7)]).mapNames f))) = .ok [7] := by
  obtain ⟨f, hf, hb⟩ := C48_bytes_partial (data := description wByte) ⟨10, rfl⟩ h
  refine ⟨f, hf, (hb (.go true) "M" (.record [("x", .int 7)]) [7] ?_ (encMsg_of_encode (by decide))).1⟩
  cases h
  exact ⟨by decide, by decide, by decide, nofun, nofun⟩

end Beschi.Props
