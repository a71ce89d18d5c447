import Verif.Wire.Layout
/-
Computing the bytes of concrete messages, for examples and counterexamples.  `encode` is not part of
any model or specification: what it answers is proved to be as specified.
-/
namespace Beschi.Spec

instance (n : NumTy) (i : Int) : Decidable (IntRange n i) := by
  cases n <;> unfold IntRange <;> infer_instance

/-- The bytes of a number. -/
def encodeNum : NumTy → Val → Option (List UInt8)
  | n, .int i => if IntRange n i then some (littleEndian (width n) i) else none
  | .bool, .bool b => some [if b then 1 else 0]
  | .float, .bits w => if w < 2 ^ 32 then some (littleEndian 4 w) else none
  | .double, .bits w => if w < 2 ^ 64 then some (littleEndian 8 w) else none
  | _, _ => none

theorem encodeNum_sound {n : NumTy} {v : Val} {bs : List UInt8} (h : encodeNum n v = some bs) :
    EncNum n v bs := by
  unfold encodeNum at h
  split at h
  · split at h
    · cases h; exact .int ‹_›
    · cases h
  · rename_i b
    cases b <;> cases h
    · exact .false
    · exact .true
  · split at h
    · cases h; exact .float ‹_›
    · cases h
  · split at h
    · cases h; exact .double ‹_›
    · cases h
  · cases h

/-- ASCII text. -/
def asciiText (s : List UInt8) : Bool := s.all (· < 0x80)

theorem asciiText_valid {s : List UInt8} (h : asciiText s = true) : ValidUtf8 s := by
  induction s with
  | nil => exact ⟨[], rfl⟩
  | cons b s ih =>
    simp only [asciiText, List.all_cons, Bool.and_eq_true, decide_eq_true_eq] at h
    obtain ⟨cs, hcs⟩ := ih h.2
    have hb : b.toNat < 128 := UInt8.lt_iff_toNat_lt.1 h.1
    refine ⟨Char.ofNat b.toNat :: cs, ?_⟩
    have hv : (Char.ofNat b.toNat).val.toNat = b.toNat := by
      have hc : b.toNat.isValidChar := Or.inl (by omega)
      rw [Char.ofNat, dif_pos hc]
      rfl
    have he : String.utf8EncodeChar (Char.ofNat b.toNat) = [b] := by
      unfold String.utf8EncodeChar
      simp only [hv]
      rw [if_pos (by omega)]
      simp
    rw [List.flatMap_cons, hcs, he]
    rfl

/-- The bytes of list elements. -/
def encodeItems (f : Val → Option (List UInt8)) : List Val → Option (List UInt8)
  | [] => some []
  | v :: vs => do
    let a ← f v
    let b ← encodeItems f vs
    pure (a ++ b)

/-- The bytes of members. -/
def encodeFields (p : Protocol) (f : String → Val → Option (List UInt8)) :
    List Variable → List (String × Val) → Option (List UInt8)
  | [], [] => some []
  | m :: ms, (x, v) :: fs =>
    if m.name = x then
      match m.isList, v with
      | false, v => do
        let a ← f m.vartype v
        let b ← encodeFields p f ms fs
        pure (a ++ b)
      | true, .list vs => do
        let len ← encodeNum p.listSize (.int vs.length)
        let a ← encodeItems (f m.vartype) vs
        let b ← encodeFields p f ms fs
        pure (len ++ a ++ b)
      | _, _ => none
    else none
  | _, _ => none

/-- The bytes of a value of the named type; only texts accepted by `ok` are considered. -/
def encode (p : Protocol) (ok : List UInt8 → Bool) : Nat → String → Val → Option (List UInt8)
  | 0, _, _ => none
  | fuel + 1, t, v =>
    match NumTy.ofName? t, v with
    | some n, v => encodeNum n v
    | none, .str s =>
      if t = "string" ∧ ok s = true then (encodeNum p.stringSize (.int s.length)).map (· ++ s) else none
    | none, .int i =>
      match p.enum? t with
      | some e => if i ∈ e.values.map (·.2) then encodeNum e.encoding (.int i) else none
      | none => none
    | none, .record fs =>
      match p.struct? t with
      | some s => encodeFields p (encode p ok fuel) s.members fs
      | none => none
    | none, _ => none

/-- The bytes of a message. -/
def encodeMessage (p : Protocol) (ok : List UInt8 → Bool) (m : String) : Val → Option (List UInt8)
  | .record fs =>
    match p.message? m with
    | some d => encodeFields p (encode p ok (p.structs.length + 1)) d.members fs
    | none => none
  | _ => none

section
variable {p : Protocol} {ok : List UInt8 → Bool}

theorem encodeItems_sound {t : String} {f : Val → Option (List UInt8)}
    (hf : ∀ v bs, f v = some bs → Enc p t v bs) : ∀ {vs bs}, encodeItems f vs = some bs →
      LayoutItems written p t vs bs
  | [], _, h => by cases h; exact .nil
  | v :: vs, bs, h => by
    simp only [encodeItems, Option.bind_eq_bind, Option.bind_eq_some_iff, Option.pure_def,
      Option.some.injEq] at h
    obtain ⟨a, ha, b, hb, rfl⟩ := h
    exact .cons (hf _ _ ha) (encodeItems_sound hf hb)

theorem encodeFields_sound {f : String → Val → Option (List UInt8)}
    (hf : ∀ t v bs, f t v = some bs → Enc p t v bs) : ∀ {ms fs bs}, encodeFields p f ms fs = some bs →
      LayoutFields written p ms fs bs
  | [], [], _, h => by cases h; exact .nil
  | [], _ :: _, _, h => by cases h
  | _ :: _, [], _, h => by cases h
  | m :: ms, (x, v) :: fs, bs, h => by
    simp only [encodeFields] at h
    split at h
    · rename_i hx
      subst hx
      split at h
      · rename_i hl
        simp only [Option.bind_eq_bind, Option.bind_eq_some_iff, Option.pure_def,
          Option.some.injEq] at h
        obtain ⟨a, ha, b, hb, rfl⟩ := h
        exact .one hl (hf _ _ _ ha) (encodeFields_sound hf hb)
      · rename_i vs hl
        simp only [Option.bind_eq_bind, Option.bind_eq_some_iff, Option.pure_def,
          Option.some.injEq] at h
        obtain ⟨len, hlen, a, ha, b, hb, rfl⟩ := h
        exact .list hl (encodeNum_sound hlen) (encodeItems_sound (hf _) ha) (encodeFields_sound hf hb)
      · cases h
    · cases h

theorem ofName?_name {t : String} {n : NumTy} (h : NumTy.ofName? t = some n) : t = n.name := by
  unfold NumTy.ofName? at h
  split at h <;> first | (cases h; rfl) | cases h

theorem encode_sound (hok : ∀ s, ok s = true → ValidUtf8 s) : ∀ (fuel : Nat) (t : String) (v : Val)
    (bs : List UInt8), encode p ok fuel t v = some bs → Enc p t v bs
  | 0, _, _, _, h => by cases h
  | fuel + 1, t, v, bs, h => by
    unfold encode at h
    split at h
    · rename_i n _ hn
      rw [ofName?_name hn]
      exact .num (encodeNum_sound h)
    · split at h
      · rename_i hs
        simp only [Option.map_eq_some_iff] at h
        obtain ⟨len, hlen, rfl⟩ := h
        rw [hs.1]
        exact .text (encodeNum_sound hlen) ⟨rfl, hok _ hs.2⟩
      · cases h
    · split at h
      · rename_i i _ e he
        split at h
        · rename_i hi
          obtain ⟨x, hx, rfl⟩ := List.mem_map.1 hi
          have hn : e.name = t := by simpa using List.find?_some he
          rw [← hn]
          exact .enum (List.mem_of_find?_eq_some he) ⟨rfl, x.1, hx⟩ (encodeNum_sound h)
        · cases h
      · cases h
    · split at h
      · rename_i s hs
        have hn : s.name = t := by simpa using List.find?_some hs
        rw [← hn]
        exact .struct (List.mem_of_find?_eq_some hs) (encodeFields_sound (encode_sound hok fuel) h)
      · cases h
    · cases h

theorem encodeMessage_sound (hok : ∀ s, ok s = true → ValidUtf8 s) {m : String} {v : Val}
    {bs : List UInt8} (h : encodeMessage p ok m v = some bs) : EncMsg p m v bs := by
  unfold encodeMessage at h
  split at h
  · split at h
    · rename_i d hd
      exact ⟨d, _, List.mem_of_find?_eq_some hd, by simpa using List.find?_some hd, rfl,
        encodeFields_sound (encode_sound hok _) h⟩
    · cases h
  · cases h

/-- The bytes of a message whose texts are ASCII. -/
theorem encMsg_of_encode {m : String} {v : Val} {bs : List UInt8}
    (h : encodeMessage p asciiText m v = some bs) : EncMsg p m v bs :=
  encodeMessage_sound (fun _ => asciiText_valid) h

end
end Beschi.Spec
