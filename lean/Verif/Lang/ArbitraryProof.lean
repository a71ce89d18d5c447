import Mathlib.Data.List.Forall2
import Verif.Lang.Languages
import Verif.Lang.ShapeProof
/-
Rust and C#: what comes out of arbitrary data, and that data which follows does not matter.
-/
namespace Beschi.Lang
open Spec

theorem shapely_declared {p : Protocol} (h : Usable p) {e : Enum} (he : e ∈ p.enums) {i : Int} {v : Val}
    (hv : checkDeclared p e.name i = .ok v) : ∃ x j, v = .int j ∧ (x, j) ∈ e.values := by
  obtain ⟨j, rfl, rfl, x, hx⟩ := checkDeclared_ok h he hv
  exact ⟨x, _, rfl, hx⟩

theorem takeN_local {e : Fail} {k : Nat} {b ext : Buf} {pos pos' : Nat} {bs : List UInt8}
    (h : takeN e k b pos = .ok (bs, pos')) :
    pos' ≤ b.length ∧ takeN e k (b ++ ext) pos = .ok (bs, pos') := by
  unfold takeN at h ⊢
  split at h
  · rename_i hk
    cases h
    refine ⟨hk, ?_⟩
    rw [if_pos (by rw [List.length_append]; omega)]
    rw [List.drop_append_of_le_length (by omega), List.take_append_of_le_length (by rw [List.length_drop]; omega)]
  · cases h

namespace Rust
variable {p : Protocol} (h : Usable p)
include h

theorem shapely (b : Buf) : Shapely (readSem p) p b where
  text pos v pos' hr := by
    simp only [readSem, readString] at hr
    split at hr
    · cases hr
    · split at hr
      · cases hr
      · split at hr
        · cases hr; exact ⟨_, rfl⟩
        · cases hr
    · cases hr
  enum e he i v hv := shapely_declared h he hv

theorem textLocal : TextLocal (readSem p) := by
  intro b ext pos v pos' _ hr
  simp only [readSem] at hr ⊢
  rw [readString, readNum_string h] at hr ⊢
  split at hr
  · cases hr
  · rename_i i q hq
    obtain ⟨_, h2⟩ := takeNum_local (ext := ext) hq
    rw [h2]
    simp only
    split at hr
    · cases hr
    · rename_i bs q' ht
      have h3 : q' ≤ b.length ∧ take (asUsize i) (b ++ ext) q = .ok (bs, q') := by
        unfold take at ht ⊢
        split at ht
        · cases ht
        · rename_i hn
          rw [if_neg hn]
          exact takeN_local ht
      rw [h3.2]
      simp only
      split at hr
      · cases hr
        exact ⟨h3.1, by simp only [*, if_true]⟩
      · cases hr
  · cases hr

omit h in
theorem shaped (h : Usable p) (noRename : Bool) (hs : Supported (p.rename (namer noRename))) :
    ReadShaped (library noRename p) p (namer noRename) (2 ^ 63) := by
  refine ReadShaped.rename ?_
  intro m b pos v pos' _ _ hr
  exact ⟨v, (Val.mapNames_id v).symm, readMessage_shape (h.rename _) (shapely (h.rename _))
    (fun _ => funFor (h.rename _) hs) hr⟩

omit h in
theorem readLocal (h : Usable p) (noRename : Bool) (hs : Supported (p.rename (namer noRename)))
    {d : Struct} (hd : d ∈ p.messages) : ReadLocal (library noRename p) d.name := by
  intro b ext pos v pos' hp hr
  exact readMessage_local (h.rename _) (fun _ => rfl) (fun _ => funFor (h.rename _) hs)
    (d := d.rename _) (List.mem_map_of_mem hd) (fun _ _ _ => textLocal (h.rename _)) hp hr

omit h in
theorem strict (h : Usable p) {b : Buf} (hb : b.length < 2 ^ 63) : Strict (readSem p) p b where
  text pos len bs v pos' hat hn hr := by
    obtain ⟨len', bs', rfl, h1, h2, h3, _⟩ := readString_ok h hb hr
    have e1 := takeNum_at (e := .eof) hat.left hn
    have e2 := takeNum_at (e := .eof) h1.left h3
    rw [e1] at e2
    simp only [Except.ok.injEq, Prod.mk.injEq, Val.int.injEq] at e2
    simp only [List.length_append] at h2 ⊢
    omega
  enum e he i v hv := by
    obtain ⟨j, _, _, x, hx⟩ := checkDeclared_ok h he hv
    exact ⟨x, hx⟩
  count n k _ hk := by
    simp only [readSem, Except.ok.injEq] at hk
    omega

omit h in
theorem readStrict (h : Usable p) (noRename : Bool) (hs : Supported (p.rename (namer noRename))) :
    ReadStrict (library noRename p) p (2 ^ 63) := by
  refine ReadStrict.rename (f := namer noRename) h ?_
  intro m b pos w bs v pos' hb hd hat hr
  exact readMessage_strict (h.rename _) (strict (h.rename _) hb) (fun _ => funFor (h.rename _) hs) hd hat hr
end Rust

namespace CSharp
variable {lossy : List UInt8 → List UInt8} {p : Protocol} (h : Usable p) (hs : Supported p)
include h

theorem shapely (b : Buf) : Shapely (readSem lossy p) p b where
  text pos v pos' hr := by
    simp only [readSem, readString] at hr
    split at hr
    · cases hr
    · split at hr
      · cases hr
      · cases hr; exact ⟨_, rfl⟩
    · cases hr
  enum e he i v hv := shapely_declared h he hv

include hs

theorem shaped : ReadShaped (library lossy p) p id (2 ^ 31) := by
  intro m b pos v pos' _ _ hr
  exact ⟨v, (Val.mapNames_id v).symm, readMessage_shape h (shapely h) (fun _ => funFor h hs) hr⟩

theorem readLocal {d : Struct} (hd : d ∈ p.messages) (ht : ∀ m ∈ d.members, ¬ HasText p m.vartype) :
    ReadLocal (library lossy p) d.name := by
  intro b ext pos v pos' hp hr
  exact readMessage_local h (fun _ => rfl) (fun _ => funFor h hs) hd
    (fun m hm hx => absurd hx (ht m hm)) hp hr

omit hs in
theorem strict {b : Buf} (hb : b.length < 2 ^ 31) : Strict (readSem lossy p) p b where
  text pos len bs v pos' hat hn hr := by
    have e := takeNum_at (e := .eof) hat.left hn
    have hle := hat.le
    simp only [List.length_append] at hle
    simp only [readSem] at hr
    rw [readString, readNum, readable_readPrim] at hr
    simp only [e] at hr
    rw [castInt_nat (by omega), if_neg (by omega)] at hr
    simp only [Except.ok.injEq, Prod.mk.injEq] at hr
    rw [← hr.2]
    simp only [List.length_append, List.length_take, List.length_drop]
    omega
  enum e he i v hv := by
    obtain ⟨j, _, _, x, hx⟩ := checkDeclared_ok h he hv
    exact ⟨x, hx⟩
  count n k _ hk := by
    simp only [readSem] at hk
    split at hk
    · cases hk
    · cases hk; rfl

theorem readStrict : ReadStrict (library lossy p) p (2 ^ 31) := by
  intro m b pos w bs v pos' hb hd hat hr
  exact readMessage_strict h (strict h hb) (fun _ => funFor h hs) hd hat hr
end CSharp

namespace Go
variable {p : Protocol} (h : Usable p)
include h

theorem atom_enum {e : Enum} (he : e ∈ p.enums) : atom p e.name = .enum e.name := by
  rw [atom, if_neg (fun hx => text_ne_enum h he hx.symm), if_pos (by rw [enum?_of_mem h.enumsDistinct he]; rfl)]

theorem readAtom_enum {e : Enum} (he : e ∈ p.enums) {b : Buf} {fuel pos q : Nat} {v : Val}
    (hr : readAtom p b fuel (atom p e.name) pos = .ok (v, q, none)) :
    ∃ x i, v = .int i ∧ (x, i) ∈ e.values := by
  cases fuel with
  | zero => cases hr
  | succ fuel =>
    rw [atom_enum h he] at hr
    simp only [readAtom, readEnum] at hr
    rw [enum?_of_mem h.enumsDistinct he] at hr
    simp only at hr
    split at hr
    · cases hr
    · split at hr
      · rename_i hv
        cases hr
        obtain ⟨x, j, rfl, hx⟩ := shapely_declared h he hv
        exact ⟨x, j, rfl, hx⟩
      · cases hr
    · cases hr

omit h in
theorem readItems_all {rd : Nat → Outcome Val} {P : Val → Prop}
    (hrd : ∀ pos v q, rd pos = .ok (v, q, none) → P v) {z : Val} :
    ∀ k pos vs q, readItems rd z k pos = .ok (vs, q, none) → ∀ w ∈ vs, P w
  | 0, pos, vs, q, hr => by cases hr; simp
  | k + 1, pos, vs, q, hr => by
    unfold readItems at hr
    split at hr
    · cases hr
    · cases hr
    · rename_i hx
      split at hr
      · cases hr
      · rename_i hy
        cases hr
        intro w hw
        rcases List.mem_cons.1 hw with rfl | hw
        · exact hrd _ _ _ hx
        · exact readItems_all hrd k _ _ _ hy w hw

theorem readMember_enum {b : Buf} {fuel pos q : Nat} {m : Variable} {v : Val}
    (hr : readMember p (readAtom p b fuel) b m pos = .ok (v, q, none)) : DirectEnum p m v := by
  intro e he ht
  unfold readMember at hr
  rw [ht] at hr
  split at hr
  · rename_i hl
    refine ⟨fun hl' => (by rw [hl] at hl'; cases hl'), fun _ => ?_⟩
    split at hr
    · cases hr
    · split at hr
      · cases hr
      · split at hr
        · cases hr
        · rename_i hx
          cases hr
          exact ⟨_, rfl, readItems_all (P := fun w => ∃ x i, w = .int i ∧ (x, i) ∈ e.values)
            (fun _ _ _ hr => readAtom_enum h he hr) _ _ _ _ hx⟩
    · cases hr
  · rename_i hl
    exact ⟨fun _ => readAtom_enum h he hr, fun hl' => absurd hl' hl⟩

theorem readBody_enum {b : Buf} {fuel : Nat} : ∀ {ms : List Variable} {pos q : Nat} {fs : List (String × Val)},
    readBody p (readAtom p b fuel) b ms pos = .ok (fs, q, none) →
    List.Forall₂ (fun m f => f.1 = m.name ∧ DirectEnum p m f.2) ms fs
  | [], pos, q, fs, hr => by cases hr; exact .nil
  | m :: ms, pos, q, fs, hr => by
    unfold readBody at hr
    split at hr
    · cases hr
    · cases hr
    · rename_i hx
      split at hr
      · cases hr
      · rename_i hy
        cases hr
        exact .cons ⟨rfl, readMember_enum h hx⟩ (readBody_enum hy)

omit h in
theorem directEnums (h : Usable p) (noRename : Bool) {d : Struct} (hd : d ∈ p.messages) {b : Buf}
    {pos pos' : Nat} {v : Val} (hr : (library noRename p).read d.name b pos = .ok (v, pos')) :
    ∃ fs, v = .record fs ∧
      List.Forall₂ (fun m f => f.1 = namer noRename m.name ∧ DirectEnum p m f.2) d.members fs := by
  have hd' : d.rename (namer noRename) ∈ (p.rename (namer noRename)).messages := List.mem_map_of_mem hd
  change read (p.rename (namer noRename)) (d.rename (namer noRename)).name b pos = _ at hr
  rw [read, message?_of_mem (h.rename _).messagesDistinct hd'] at hr
  simp only at hr
  split at hr
  · split at hr
    · cases hr
    · cases hr
    · rename_i fs q hx
      cases hr
      have := readBody_enum (h.rename _) hx
      exact ⟨fs, rfl, List.forall₂_map_left_iff.1 this⟩
  · cases hr
end Go
end Beschi.Lang
