import Verif.Text.CSharp
import Verif.Text.Rules
/-
The functions that write C# end without an exception, at the level at which they start, and with
matched brackets.
-/
namespace Beschi.Text.CSharp
open Spec

variable {b : Bool} {w : Writer}

theorem deserializer_inner (g : Good b w) (cd : Coded w) (fuel : Nat) {n t : String} (hk : KnownType w.p t) (hn : Closed b n)
    {acc : String} (ha : Closed b acc) (c : Int) : Runs b c 0 [] 0 [] Any (deserializer w (fuel + 1) ⟨n, t, false⟩ acc) := by
  rw [deserializer, if_neg (by simp)]
  follow

theorem deserializer_runs (g : Good b w) (cd : Coded w) {v : Variable} (hk : KnownType w.p v.vartype) (hn : Closed b v.name)
    {acc : String} (ha : Closed b acc) (c : Int) : Runs b c 0 [] 0 [] Any (deserializer w w.p.depth v acc) := by
  cases hl : v.isList with
  | false => obtain ⟨n, t, l⟩ := v; cases hl; exact deserializer_inner g cd _ hk hn ha c
  | true =>
    unfold Protocol.depth
    rw [deserializer, if_pos hl]
    follow [deserializer_inner ‹_› ‹_› _ ‹_› (by closed) (by closed)]

theorem serializer_inner (g : Good b w) (cd : Coded w) (fuel : Nat) {n t : String} (hk : KnownType w.p t) (hn : Closed b n)
    {acc : String} (ha : Closed b acc) (c : Int) : Runs b c 0 [] 0 [] Any (serializer w (fuel + 1) ⟨n, t, false⟩ acc) := by
  rw [serializer, if_neg (by simp)]
  follow

theorem serializer_runs (g : Good b w) (cd : Coded w) {v : Variable} (hk : KnownType w.p v.vartype) (hn : Closed b v.name)
    {acc : String} (ha : Closed b acc) (c : Int) : Runs b c 0 [] 0 [] Any (serializer w w.p.depth v acc) := by
  cases hl : v.isList with
  | false => obtain ⟨n, t, l⟩ := v; cases hl; exact serializer_inner g cd _ hk hn ha c
  | true =>
    unfold Protocol.depth
    rw [serializer, if_pos hl]
    follow [serializer_inner ‹_› ‹_› _ ‹_› (by closed) (by closed)]

theorem genMeasurement_step (g : Good b w) (cd : Coded w) {fuel : Nat} {s : Struct} (hs : s ∈ w.p.structs ++ w.p.messages)
    (ih : ∀ {v s' acc}, v ∈ s.members → s' ∈ w.p.structs → w.p.struct? v.vartype = some s' → Closed b acc →
      ∀ c, Runs b c 0 [] 0 [] (fun x => Texts b x.1) (genMeasurement w fuel s' acc))
    {acc : String} (ha : Closed b acc) (c : Int) :
    Runs b c 0 [] 0 [] (fun x => Texts b x.1) (genMeasurement w (fuel + 1) s acc) := by
  rw [genMeasurement]
  follow [ih ‹_› ‹_› ‹_› (by closed)]

theorem genMeasurement_runs (g : Good b w) (cd : Coded w) (fuel : Nat) {s : Struct} (hs : s ∈ w.p.structs ++ w.p.messages)
    (hf : ∀ v ∈ s.members, fits w.p fuel v.vartype) {acc : String} (ha : Closed b acc) (c : Int) :
    Runs b c 0 [] 0 [] (fun x => Texts b x.1) (genMeasurement w (fuel + 1) s acc) := by
  induction fuel generalizing s acc c with
  | zero => exact genMeasurement_step g cd hs (fun hv _ he _ => absurd (he.symm.trans (hf _ hv)) (by simp)) ha c
  | succ fuel ih => exact genMeasurement_step g cd hs (fun hv hs' he ha => ih (by simp [hs']) (hf _ hv _ he) ha) ha c

theorem genMeasurement_depth (g : Good b w) (cd : Coded w) {s : Struct} (hs : s ∈ w.p.structs ++ w.p.messages)
    {acc : String} (ha : Closed b acc) (c : Int) :
    Runs b c 0 [] 0 [] (fun x => Texts b x.1) (genMeasurement w w.p.depth s acc) :=
  genMeasurement_runs g cd _ hs (fun v _ => fits_succ (g.usable.fits v.vartype)) ha c

theorem genEnum_runs (g : Good b w) (cd : Coded w) {e : Enum} (h : e ∈ w.p.enums) (c : Int) :
    Runs b c 0 [] 0 [] Any (genEnum w e.name e) := by
  unfold genEnum
  follow

theorem genStruct_runs (g : Good b w) (cd : Coded w) {s : Struct} (hs : s ∈ w.p.structs ++ w.p.messages) (c : Int) :
    Runs b c 0 [] 0 [] Any (genStruct w s.name s) := by
  unfold genStruct
  by_cases hm : s.isMessage = true <;>
  follow [genMeasurement_depth ‹_› ‹_› ‹_› (by closed), deserializer_runs ‹_› ‹_› (Good.memberType ‹_› ‹_› ‹_›) (by closed) (by closed),
    serializer_runs ‹_› ‹_› (Good.memberType ‹_› ‹_› ‹_›) (by closed) (by closed)]

theorem generate_runs (g : Good b w) (cd : Coded w) (hb : PlainBoilerplate b w) (hp : PlainNs w.p) :
    Runs b 0 0 [] 0 [] Any (generate w) := by
  unfold generate
  by_cases hns : w.nsTrue = true <;>
  follow [genEnum_runs ‹_› ‹_› ‹_›, genStruct_runs ‹_› ‹_› (List.mem_append_left _ ‹_›),
    genStruct_runs ‹_› ‹_› (List.mem_append_right _ ‹_›)]

end Beschi.Text.CSharp
