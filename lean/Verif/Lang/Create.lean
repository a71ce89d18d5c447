import Verif.Lang.Library
import Verif.Lang.Rename
import Verif.Lang.ReaderProof
import Verif.Wire.Default
/-
How generated libraries create objects with default values: one expression per member, chosen by
the generator, evaluated when the object is created.
-/
namespace Beschi.Lang
open Spec

/-- The default given to one member (rust.py L156-160, L181; csharp.py L163-175; swift.py L149-163;
go.py L218-238; typescript.py L230-246; zig.py L164-176; c.py L202-222). -/
inductive DExpr where
  /-- a number literal or the language's zero -/
  | num (v : Val)
  /-- the empty text -/
  | text
  /-- the empty list -/
  | list
  /-- an enum entry -/
  | entry (i : Int)
  /-- a default object of another struct -/
  | make (s : String)

/-- Evaluate the default of one member. -/
def evalDefault (make : String → Except Fail Val) : DExpr → Except Fail Val
  | .num v => .ok v
  | .text => .ok (.str [])
  | .list => .ok (.list [])
  | .entry i => .ok (.int i)
  | .make s => make s

/-- Evaluate the defaults of the members in order; `gen` is the generator's choice. -/
def makeFields (gen : Variable → Except Fail DExpr) (make : String → Except Fail Val) :
    List Variable → Except Fail (List (String × Val))
  | [] => .ok []
  | m :: ms => do
    let d ← gen m
    let v ← evalDefault make d
    let fs ← makeFields gen make ms
    return (m.name, v) :: fs

/-- Create a default object of a struct; nested objects are created the same way. -/
def makeStruct (p : Protocol) (gen : Variable → Except Fail DExpr) : Nat → String → Except Fail Val
  | 0, _ => .error .fuel
  | fuel + 1, s => match p.struct? s with
    | none => .error .illTyped
    | some st => (makeFields gen (makeStruct p gen fuel) st.members).map .record

/-- Create a default message. -/
def makeMessage (p : Protocol) (gen : Variable → Except Fail DExpr) (m : String) : Except Fail Val :=
  match p.message? m with
  | none => .error .illTyped
  | some st => (makeFields gen (makeStruct p gen (depth p)) st.members).map .record

/-! ### Lemmas -/

/-- The generator's choice is the specified default. -/
inductive DefaultFor (p : Protocol) : String → DExpr → Prop
  | num (n : NumTy) : DefaultFor p n.name (.num (zeroOf n))
  | text : DefaultFor p "string" .text
  | enum {e x i} : e ∈ p.enums → e.values.head? = some (x, i) → DefaultFor p e.name (.entry i)
  | struct {s} : s ∈ p.structs → DefaultFor p s.name (.make s.name)

/-- The generator chooses the specified default for the members in question. -/
def DefaultsFor (p : Protocol) (gen : Variable → Except Fail DExpr) : Prop :=
  ∀ s ∈ p.structs ++ p.messages, ∀ m ∈ s.members,
    if m.isList = true then gen m = .ok .list else ∃ d, gen m = .ok d ∧ DefaultFor p m.vartype d

/-- The generator chooses the specified default for the members in question, or a constant that is
the only default there is. -/
def DefaultsFor' (p : Protocol) (gen : Variable → Except Fail DExpr) : Prop :=
  ∀ s ∈ p.structs ++ p.messages, ∀ m ∈ s.members,
    if m.isList = true then gen m = .ok .list else ∃ d, gen m = .ok d ∧
      (DefaultFor p m.vartype d ∨ ∃ v, d = .num v ∧ ∀ w, IsDefault p m.vartype w → w = v)

theorem DefaultsFor.general {p : Protocol} {gen : Variable → Except Fail DExpr}
    (h : DefaultsFor p gen) : DefaultsFor' p gen := by
  intro s hs m hm
  have := h s hs m hm
  split
  · rename_i hl; rwa [if_pos hl] at this
  · rename_i hl
    rw [if_neg hl] at this
    obtain ⟨d, h1, h2⟩ := this
    exact ⟨d, h1, .inl h2⟩

section
variable {p : Protocol} {gen : Variable → Except Fail DExpr}

theorem defaultFor_unique (h : Usable p) {t : String} {d : DExpr} (hd : DefaultFor p t d) :
    (∀ n : NumTy, t = n.name → d = .num (zeroOf n)) ∧ (t = "string" → d = .text) ∧
    (∀ e x i, e ∈ p.enums → e.values.head? = some (x, i) → t = e.name → d = .entry i) ∧
    (∀ s ∈ p.structs, t = s.name → d = .make s.name) := by
  cases hd with
  | num n =>
    refine ⟨fun m e => by rw [name_inj e], fun e => absurd e (name_ne_string n),
      fun e _ _ he _ hn => absurd hn (num_ne_enum h he), fun s hs hn => absurd hn (num_ne_struct h hs)⟩
  | text =>
    exact ⟨fun m e => absurd e.symm (name_ne_string m), fun _ => rfl,
      fun e _ _ he _ hn => absurd hn (text_ne_enum h he), fun s hs hn => absurd hn (text_ne_struct h hs)⟩
  | enum he hx =>
    refine ⟨fun m e => absurd e.symm (num_ne_enum h he), fun e => absurd e.symm (text_ne_enum h he),
      fun e' x' i' he' hx' hn => ?_, fun s hs hn => absurd hn (enum_ne_struct h he hs)⟩
    cases mem_enums_unique h he he' hn
    rw [hx] at hx'; cases hx'; rfl
  | struct hs =>
    exact ⟨fun m e => absurd e.symm (num_ne_struct h hs), fun e => absurd e.symm (text_ne_struct h hs),
      fun e' x' i' he' hx' hn => absurd hn.symm (enum_ne_struct h he' hs), fun s hs hn => by rw [hn]⟩

mutual
theorem IsDefault.made (h : Usable p) (hg : DefaultsFor' p gen) : ∀ {t v}, IsDefault p t v →
    ∀ {d fuel : Nat} {D : DExpr}, DefaultFor p t D → fits p d t → d ≤ fuel →
    evalDefault (makeStruct p gen fuel) D = .ok v
  | _, _, .num (n := n), _, _, D, hD, _, _ => by rw [(defaultFor_unique h hD).1 n rfl]; rfl
  | _, _, .text, _, _, D, hD, _, _ => by rw [(defaultFor_unique h hD).2.1 rfl]; rfl
  | _, _, .enum he hx, _, _, D, hD, _, _ => by
    rw [(defaultFor_unique h hD).2.2.1 _ _ _ he hx rfl]; rfl
  | _, _, .struct (s := s) hs hf, 0, _, D, hD, hfit, _ => by
    have := struct?_of_mem h.structsDistinct hs
    rw [show p.struct? s.name = none from hfit] at this
    cases this
  | _, _, .struct (s := s) hs hf, d + 1, 0, D, hD, hfit, hle => by omega
  | _, _, .struct (s := s) hs hf, d + 1, fuel + 1, D, hD, hfit, hle => by
    have hst := struct?_of_mem h.structsDistinct hs
    rw [(defaultFor_unique h hD).2.2.2 _ hs rfl, evalDefault, makeStruct, hst]
    simp only
    rw [IsDefaultFields.made h hg hf (hg s (by simp [hs])) (fun m hm => hfit s hst m hm)
      (by omega : d ≤ fuel)]
    rfl
theorem IsDefaultFields.made (h : Usable p) (hg : DefaultsFor' p gen) : ∀ {ms fs},
    IsDefaultFields p ms fs → ∀ {d fuel : Nat},
    (∀ m ∈ ms, if m.isList = true then gen m = .ok .list
      else ∃ d, gen m = .ok d ∧
        (DefaultFor p m.vartype d ∨ ∃ v, d = .num v ∧ ∀ w, IsDefault p m.vartype w → w = v)) →
    (∀ m ∈ ms, fits p d m.vartype) → d ≤ fuel →
    makeFields gen (makeStruct p gen fuel) ms = .ok fs
  | _, _, .nil, _, _, _, _, _ => rfl
  | _, _, .one (m := m) hl hd hr, d, fuel, hm, hfit, hle => by
    have ih := IsDefaultFields.made h hg hr (fun m' hm' => hm m' (by simp [hm']))
      (fun m' hm' => hfit m' (by simp [hm'])) hle
    have := hm m (by simp)
    rw [if_neg (by simp [hl])] at this
    obtain ⟨D, h1, h2 | ⟨w, rfl, hw⟩⟩ := this
    · simp only [makeFields, h1, bind, Except.bind, ih,
        IsDefault.made h hg hd h2 (hfit m (by simp)) hle, pure, Except.pure]
    · simp only [makeFields, h1, bind, Except.bind, ih, evalDefault, hw _ hd, pure, Except.pure]
  | _, _, .list (m := m) hl hr, d, fuel, hm, hfit, hle => by
    have ih := IsDefaultFields.made h hg hr (fun m' hm' => hm m' (by simp [hm']))
      (fun m' hm' => hfit m' (by simp [hm'])) hle
    have := hm m (by simp)
    rw [if_pos hl] at this
    simp only [makeFields, this, evalDefault, bind, Except.bind, ih, pure, Except.pure]
end

/-- A created message has the specified default members. -/
theorem makeMessage_spec' (h : Usable p) (hg : DefaultsFor' p gen) {st : Struct}
    (hst : st ∈ p.messages) {fs : List (String × Val)} (hf : IsDefaultFields p st.members fs) :
    makeMessage p gen st.name = .ok (.record fs) := by
  rw [makeMessage, message?_of_mem h.messagesDistinct hst]
  simp only
  rw [IsDefaultFields.made h hg hf (hg st (by simp [hst])) (d := p.structs.length)
    (fun m _ => h.fits _) (by simp [depth])]
  rfl

theorem makeMessage_spec (h : Usable p) (hg : DefaultsFor p gen) {st : Struct}
    (hst : st ∈ p.messages) {fs : List (String × Val)} (hf : IsDefaultFields p st.members fs) :
    makeMessage p gen st.name = .ok (.record fs) := makeMessage_spec' h hg.general hst hf
end

mutual
theorem IsDefault.rename {p : Protocol} {f : String → String} : ∀ {t v}, IsDefault p t v →
    IsDefault (p.rename f) t (v.mapNames f)
  | _, _, .num (n := n) => by
    have : (zeroOf n).mapNames f = zeroOf n := by cases n <;> rfl
    rw [this]; exact .num
  | _, _, .text => .text
  | _, _, .enum he hx => .enum (p := p.rename f) he hx
  | _, _, .struct (s := s) hs hf =>
    .struct (p := p.rename f) (s := s.rename f) (List.mem_map_of_mem hs) (IsDefaultFields.rename hf)
theorem IsDefaultFields.rename {p : Protocol} {f : String → String} : ∀ {ms fs},
    IsDefaultFields p ms fs →
    IsDefaultFields (p.rename f) (ms.map (Variable.rename f)) (mapNamesFields f fs)
  | _, _, .nil => .nil
  | _, _, .one (m := m) hl hd hr => .one (m := m.rename f) hl (IsDefault.rename hd) (IsDefaultFields.rename hr)
  | _, _, .list (m := m) hl hr => .list (m := m.rename f) hl (IsDefaultFields.rename hr)
end

end Beschi.Lang
