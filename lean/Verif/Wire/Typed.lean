import Verif.Spec.Typed
import Verif.Wire.Layout
import Verif.Protocol.Usable
/-
Exactly the values of a type have bytes.
-/
namespace Beschi
open Spec

theorem isNum_iff {n : NumTy} {v : Val} : IsNum n v ↔ ∃ bs, EncNum n v bs := by
  constructor
  · rintro (h | @⟨b⟩ | h | h)
    · exact ⟨_, .int h⟩
    · cases b
      · exact ⟨_, .false⟩
      · exact ⟨_, .true⟩
    · exact ⟨_, .float h⟩
    · exact ⟨_, .double h⟩
  · rintro ⟨bs, h | h | h | h | h⟩
    · exact .int h
    · exact .bool
    · exact .bool
    · exact .float h
    · exact .double h

theorem enumRange_intRange {n : NumTy} {i : Int} (h : EnumRange n i) : IntRange n i := by
  cases n <;> first | exact h | exact h.elim

theorem encNum_range {n : NumTy} {i : Int} {bs : List UInt8} (h : EncNum n (.int i) bs) :
    IntRange n i := by
  cases h; assumption

section
variable {p : Protocol} (h : Usable p)

mutual
theorem HasType.enc (h : Usable p) : ∀ {t v}, HasType p t v → ∃ bs, Enc p t v bs
  | _, _, .num hn => by
    obtain ⟨bs, hb⟩ := isNum_iff.1 hn
    exact ⟨bs, .num (A := written) hb⟩
  | _, _, .text hv hl => ⟨_, .text (A := written) (.int hl) ⟨rfl, hv⟩⟩
  | _, _, .enum he hx =>
    ⟨_, .enum (A := written) he ⟨rfl, _, hx⟩ (.int (enumRange_intRange ((h.enums _ he).inRange _ (List.mem_map_of_mem hx))))⟩
  | _, _, .struct hs hf => by
    obtain ⟨bs, hb⟩ := HasFields.enc h hf
    exact ⟨bs, .struct hs hb⟩
theorem HaveType.enc (h : Usable p) : ∀ {t vs}, HaveType p t vs → ∃ bs, LayoutItems written p t vs bs
  | _, _, .nil => ⟨_, .nil⟩
  | _, _, .cons h1 h2 => by
    obtain ⟨a, ha⟩ := HasType.enc h h1
    obtain ⟨b, hb⟩ := HaveType.enc h h2
    exact ⟨_, .cons ha hb⟩
theorem HasFields.enc (h : Usable p) : ∀ {ms fs}, HasFields p ms fs → ∃ bs, LayoutFields written p ms fs bs
  | _, _, .nil => ⟨_, .nil⟩
  | _, _, .one hl h1 h2 => by
    obtain ⟨a, ha⟩ := HasType.enc h h1
    obtain ⟨b, hb⟩ := HasFields.enc h h2
    exact ⟨_, .one hl ha hb⟩
  | _, _, .list hl h1 hn h2 => by
    obtain ⟨a, ha⟩ := HaveType.enc h h1
    obtain ⟨b, hb⟩ := HasFields.enc h h2
    exact ⟨_, .list (A := written) hl (.int hn) ha hb⟩
end

mutual
theorem HasType.of_enc : ∀ {t v bs}, Enc p t v bs → HasType p t v
  | _, _, _, .num hn => .num (isNum_iff.2 ⟨_, hn⟩)
  | _, _, _, .text hn ht => by
    obtain ⟨rfl, hv⟩ := ht
    exact .text hv (encNum_range hn)
  | _, _, _, .enum he hd _ => by
    obtain ⟨rfl, x, hx⟩ := hd
    exact .enum he hx
  | _, _, _, .struct hs hf => .struct hs (HasFields.of_enc hf)
theorem HaveType.of_enc : ∀ {t vs bs}, LayoutItems written p t vs bs → HaveType p t vs
  | _, _, _, .nil => .nil
  | _, _, _, .cons h1 h2 => .cons (HasType.of_enc h1) (HaveType.of_enc h2)
theorem HasFields.of_enc : ∀ {ms fs bs}, LayoutFields written p ms fs bs → HasFields p ms fs
  | _, _, _, .nil => .nil
  | _, _, _, .one hl h1 h2 => .one hl (HasType.of_enc h1) (HasFields.of_enc h2)
  | _, _, _, .list hl hn h1 h2 => .list hl (HaveType.of_enc h1) (encNum_range hn) (HasFields.of_enc h2)
end

include h in
theorem isMessage_iff {m : String} {v : Val} : IsMessage p m v ↔ ∃ bs, EncMsg p m v bs := by
  constructor
  · rintro ⟨d, fs, hd, hn, hv, hf⟩
    obtain ⟨bs, hb⟩ := HasFields.enc h hf
    exact ⟨bs, d, fs, hd, hn, hv, hb⟩
  · rintro ⟨bs, d, fs, hd, hn, hv, hf⟩
    exact ⟨d, fs, hd, hn, hv, HasFields.of_enc hf⟩

include h in
/-- Every list of messages has a stream. -/
theorem stream_exists : ∀ {ms : List (String × Val)}, (∀ x ∈ ms, IsMessage p x.1 x.2) →
    ∃ bs, Stream p ms bs
  | [], _ => ⟨_, .nil⟩
  | (m, v) :: ms, hm => by
    obtain ⟨rest, hr⟩ := stream_exists (fun x hx => hm x (List.mem_cons_of_mem _ hx))
    obtain ⟨bs, hb⟩ := (isMessage_iff h).1 (hm (m, v) List.mem_cons_self)
    obtain ⟨d, fs, hd, rfl, _⟩ := id hb
    obtain ⟨pre, post, e⟩ := List.append_of_mem hd
    exact ⟨_, .cons e hb hr⟩

theorem stream_messages {ms : List (String × Val)} {bs : List UInt8} (hs : Stream p ms bs) :
    ∀ x ∈ ms, IsMessage p x.1 x.2 := by
  induction hs with
  | nil => simp
  | cons e hm _ ih =>
    intro x hx
    rcases List.mem_cons.1 hx with rfl | hx
    · obtain ⟨d, fs, hd, hn, hv, hf⟩ := hm
      exact ⟨d, fs, hd, hn, hv, HasFields.of_enc hf⟩
    · exact ih x hx

end
end Beschi
