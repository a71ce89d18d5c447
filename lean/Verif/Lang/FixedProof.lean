import Verif.Lang.Fixed
/-
Writing into a buffer of fixed size stores exactly the bytes of the message; reading through a view.
-/
namespace Beschi.Lang
open Spec

/-- A message with or without its number. -/
def tagging (tag : Bool) (i : Nat) (bs : List UInt8) : List UInt8 :=
  if tag then UInt8.ofNat (i + 1) :: bs else bs

namespace Fixed
variable {p : Protocol}

theorem place_keeps (r : Except Fail (List (List UInt8))) (buf : Buf) (off : Nat) :
    (place r buf off).1.length = buf.length ∧ (place r buf off).1.take off = buf.take off := by
  cases r with
  | error e => exact ⟨rfl, rfl⟩
  | ok cs => exact ⟨(fillState_keeps cs buf off).1, (fillState_keeps cs buf off).2 off (Nat.le_refl _)⟩

theorem place_room {r : Except Fail (List (List UInt8))} {buf : Buf} {off : Nat} {bs : List UInt8}
    (hr : ∃ cs, r = .ok cs ∧ cs.flatten = bs) (h : off + bs.length ≤ buf.length) :
    place r buf off = (buf.take off ++ bs ++ buf.drop (off + bs.length), .ok (off + bs.length)) := by
  obtain ⟨cs, rfl, rfl⟩ := hr
  exact fillState_room h

theorem place_full {r : Except Fail (List (List UInt8))} {buf : Buf} {off : Nat} {bs : List UInt8}
    (hr : ∃ cs, r = .ok cs ∧ cs.flatten = bs) (ho : off ≤ buf.length)
    (h : buf.length < off + bs.length) : (place r buf off).2 = .error .eof := by
  obtain ⟨cs, rfl, rfl⟩ := hr
  exact fillState_full ho h

/-- The pieces of a message. -/
theorem pieces (F : Fixed) (hu : Usable p) (hs : F.language.Supported p) {pre post : List Struct}
    {d : Struct} (e : p.messages = pre ++ d :: post) {v : Val} {bs : List UInt8}
    (he : EncMsg p d.name v bs) (tag : Bool) :
    ∃ cs, (F.language.library p).write d.name tag v = .ok cs ∧ cs.flatten = tagging tag pre.length bs := by
  have hid : ∀ x : Val, x.mapNames F.language.rename = x := fun x => by
    cases F <;> exact Val.mapNames_id x
  cases tag with
  | false => have := (F.language.laws hu hs).write he; rwa [hid] at this
  | true => have := (F.language.laws hu hs).tagged e he; rwa [hid] at this

theorem writeInto_zig (hu : Usable p) (hs : Zig.Supported p) {pre post : List Struct}
    {d : Struct} (e : p.messages = pre ++ d :: post) {v : Val} {bs : List UInt8}
    (he : EncMsg p d.name v bs) (tag : Bool) {buf : Buf} {off : Nat} (ho : off ≤ buf.length) :
    writeInto .zig p d.name tag v buf off =
      if off + (tagging tag pre.length bs).length ≤ buf.length then
        (buf.take off ++ tagging tag pre.length bs ++ buf.drop (off + (tagging tag pre.length bs).length),
          .ok (off + (tagging tag pre.length bs).length))
      else (buf, .error .crash) := by
  simp only [writeInto, Zig.writeBytes_enc hu hs e he tag ho, Zig.stored, Zig.put]
  rw [show Zig.tagged tag pre.length bs = tagging tag pre.length bs from rfl]
  by_cases h : off + (tagging tag pre.length bs).length ≤ buf.length
  · rw [if_pos h, if_pos h]; rfl
  · rw [if_neg h, if_neg h]; rfl

theorem writeInto_place {F : Fixed} (hF : F ≠ .zig) (hs : F.language.Supported p)
    (m : String) (tag : Bool) (v : Val) (buf : Buf) (off : Nat) :
    F.writeInto p m tag v buf off = place ((F.language.library p).write m tag v) buf off := by
  cases F with
  | c => rw [language, Language.library, C.library_eq hs]; rfl
  | typescript => rfl
  | assemblyscript => rfl
  | zig => exact absurd rfl hF

theorem packInto_room (F : Fixed) (hu : Usable p) (hs : F.language.Supported p)
    {ms : List (String × Val)} {bs : List UInt8} (hst : Stream p ms bs) (hn : ms.length < 2 ^ 31)
    {buf : Buf} (h : bs.length + 9 ≤ buf.length) :
    F.packInto p ms buf =
      .ok (bsci ++ littleEndian 4 ms.length ++ bs ++ [0] ++ buf.drop (bs.length + 9)) := by
  have hl : (bsci ++ littleEndian 4 ms.length ++ bs ++ [0]).length = bs.length + 9 := by
    simp [bsci, littleEndian]; omega
  have hp := (F.language.laws hu hs).pack hst hn
  have hid : mapMsgs F.language.rename ms = ms := by cases F <;> exact mapMsgs_id ms
  rw [hid] at hp
  cases F with
  | c =>
    rw [packInto, C.packInto_enc hu hs hst buf h, store, if_pos (by rw [hl]; omega), Nat.zero_add, hl]
    rfl
  | typescript =>
    obtain ⟨cs, h1, h2⟩ := hp
    rw [packInto, show packWith [bsci] (fun n => .ok (leBytes 4 n)) (TypeScript.write p) ms = .ok cs
      from h1]
    simp only
    rw [fill_eq (Nat.zero_le _), h2, store, if_pos (by rw [hl]; omega), Nat.zero_add, hl]
    rfl
  | assemblyscript =>
    obtain ⟨cs, h1, h2⟩ := hp
    rw [packInto, show packWith (bsci.map fun x => [x]) (fun n => .ok (leBytes 4 n))
      (AssemblyScript.write p) ms = .ok cs from h1]
    simp only
    rw [fillState_room (by rw [h2, hl]; omega), h2, Nat.zero_add, hl]
    rfl
  | zig =>
    rw [packInto, Zig.packInto_enc hu hs hst (by omega), Zig.put, if_pos (by rw [hl]; omega),
      Nat.zero_add, hl]
    rfl

theorem packInto_typescript (hu : Usable p) (hs : TypeScript.Supported p)
    {ms : List (String × Val)} {bs : List UInt8} (hst : Stream p ms bs) (hn : ms.length < 2 ^ 31)
    {buf : Buf} (h : buf.length < bs.length + 9) : packInto .typescript p ms buf = .error .eof := by
  have hl : (bsci ++ littleEndian 4 ms.length ++ bs ++ [0]).length = bs.length + 9 := by
    simp [bsci, littleEndian]; omega
  obtain ⟨cs, h1, h2⟩ := ((Language.typescript id).laws hu hs).pack hst hn
  rw [show mapMsgs (Language.typescript id).rename ms = ms from mapMsgs_id ms] at h1
  rw [packInto, show packWith [bsci] (fun n => .ok (leBytes 4 n)) (TypeScript.write p) ms = .ok cs
    from h1]
  simp only
  rw [fill_eq (Nat.zero_le _), h2, store, if_neg (by rw [hl]; omega)]
  rfl

theorem packInto_zig (hu : Usable p) (hs : Zig.Supported p)
    {ms : List (String × Val)} {bs : List UInt8} (hst : Stream p ms bs) (hn : ms.length < 2 ^ 31)
    {buf : Buf} (h : buf.length < bs.length + 9) : packInto .zig p ms buf = .error .crash := by
  have hl : (bsci ++ littleEndian 4 ms.length ++ bs ++ [0]).length = bs.length + 9 := by
    simp [bsci, littleEndian]; omega
  rw [packInto, Zig.packInto_enc hu hs hst (by omega), Zig.put, if_neg (by rw [hl]; omega)]

end Fixed

/-! ### Reading functions that differ only in how they read text -/

/-- The read a statement makes. -/
def RStmt.atom : RStmt → RAtom
  | .one _ a => a
  | .list _ _ _ a => a

section
variable {S S' : ReadSem}

theorem readItems_congr {rd rd' : Nat → Except Fail (Val × Nat)} (h : ∀ pos, rd pos = rd' pos) :
    readItems rd = readItems rd' := by
  rw [funext h]

theorem execStmt_congr (hn : S.num = S'.num) (hc : S.count = S'.count)
    {rd rd' : RAtom → Nat → Except Fail (Val × Nat)} {b : Buf} {env : REnv} {pos : Nat} {s : RStmt}
    (h : ∀ pos, rd s.atom pos = rd' s.atom pos) :
    execStmt S rd b env pos s = execStmt S' rd' b env pos s := by
  cases s with
  | one dst a => simp only [execStmt]; rw [show rd a pos = rd' a pos from h pos]
  | list dst len lp a =>
    simp only [execStmt, hn, hc]
    rw [show rd a = rd' a from funext h]

theorem execBody_congr (hn : S.num = S'.num) (hc : S.count = S'.count)
    {rd rd' : RAtom → Nat → Except Fail (Val × Nat)} {params : List Loc} {b : Buf} :
    ∀ {ss : List RStmt} {env : REnv} {pos : Nat}, (∀ s ∈ ss, ∀ pos, rd s.atom pos = rd' s.atom pos) →
      execBody S rd params b env pos ss = execBody S' rd' params b env pos ss
  | [], _, _, _ => rfl
  | s :: ss, env, pos, h => by
    simp only [execBody]
    split
    · rfl
    · rw [execStmt_congr hn hc (h s (by simp))]
      cases execStmt S' rd' b env pos s with
      | error e => rfl
      | ok r => exact execBody_congr hn hc (fun s hs => h s (by simp [hs]))

theorem runFun_congr (hn : S.num = S'.num) (hc : S.count = S'.count)
    {rd rd' : RAtom → Nat → Except Fail (Val × Nat)} {b : Buf} {pos : Nat} {f : RFun}
    (h : ∀ s ∈ f.body, ∀ pos, rd s.atom pos = rd' s.atom pos) :
    runFun S rd b pos f = runFun S' rd' b pos f := by
  unfold runFun
  rw [execBody_congr hn hc h]

/-- Reads that lead to no text do not depend on how text is read. -/
theorem readAtom_congr (hn : S.num = S'.num) (hc : S.count = S'.count) (he : S.enum = S'.enum)
    (hw : S.whole = S'.whole) {fn : String → Option RFun} {b : Buf} {G : RAtom → Prop}
    (ht : ¬ G .text) (hG : ∀ s f, G (.call s) → fn s = some f → ∀ st ∈ f.body, G st.atom) :
    ∀ (fuel : Nat) {a : RAtom} {pos : Nat}, G a →
      readAtom S fn b fuel a pos = readAtom S' fn b fuel a pos
  | 0, _, _, _ => rfl
  | fuel + 1, a, pos, h => by
    cases a with
    | num prim => simp only [readAtom, hn]
    | text => exact absurd h ht
    | enum prim e => simp only [readAtom, hn, he]
    | call s =>
      simp only [readAtom]
      cases hf : fn s with
      | none => rfl
      | some f =>
        exact runFun_congr hn hc fun st hst pos =>
          readAtom_congr hn hc he hw ht hG fuel (hG s f h hf st hst)
    | whole s => simp only [readAtom, hw]

theorem readItems_le {rd rd' : Nat → Except Fail (Val × Nat)}
    (h : ∀ pos r, rd pos = .ok r → rd' pos = .ok r) :
    ∀ {k pos : Nat} {r : List Val × Nat}, readItems rd k pos = .ok r → readItems rd' k pos = .ok r
  | 0, _, _, hr => hr
  | k + 1, pos, r, hr => by
    simp only [readItems, bind_ok] at hr ⊢
    obtain ⟨x, h1, y, h2, h3⟩ := hr
    exact ⟨x, h _ _ h1, y, readItems_le h h2, h3⟩

theorem execStmt_le (hn : S.num = S'.num) (hc : S.count = S'.count)
    {rd rd' : RAtom → Nat → Except Fail (Val × Nat)} (h : ∀ a pos r, rd a pos = .ok r → rd' a pos = .ok r)
    {b : Buf} {env : REnv} {pos : Nat} {s : RStmt} {r : REnv × Nat}
    (hr : execStmt S rd b env pos s = .ok r) : execStmt S' rd' b env pos s = .ok r := by
  cases s with
  | one dst a =>
    simp only [execStmt, bind_ok] at hr ⊢
    obtain ⟨x, h1, h2⟩ := hr
    exact ⟨x, h _ _ _ h1, h2⟩
  | list dst len lp a =>
    simp only [execStmt, bind_ok, hn, hc] at hr ⊢
    obtain ⟨x, h1, i, h2, k, h3, y, h4, h5⟩ := hr
    exact ⟨x, h1, i, h2, k, h3, y, readItems_le (h a) h4, h5⟩

theorem execBody_le (hn : S.num = S'.num) (hc : S.count = S'.count)
    {rd rd' : RAtom → Nat → Except Fail (Val × Nat)} (h : ∀ a pos r, rd a pos = .ok r → rd' a pos = .ok r)
    {params : List Loc} {b : Buf} :
    ∀ {ss : List RStmt} {env : REnv} {pos : Nat} {r : REnv × Nat},
      execBody S rd params b env pos ss = .ok r → execBody S' rd' params b env pos ss = .ok r
  | [], _, _, _, hr => hr
  | s :: ss, env, pos, r, hr => by
    simp only [execBody] at hr ⊢
    split at hr
    · cases hr
    · rename_i hp
      rw [if_neg hp]
      simp only [bind_ok] at hr ⊢
      obtain ⟨x, h1, h2⟩ := hr
      exact ⟨x, execStmt_le hn hc h h1, execBody_le hn hc h h2⟩

theorem runFun_le (hn : S.num = S'.num) (hc : S.count = S'.count)
    {rd rd' : RAtom → Nat → Except Fail (Val × Nat)} (h : ∀ a pos r, rd a pos = .ok r → rd' a pos = .ok r)
    {b : Buf} {pos : Nat} {f : RFun} {r : Val × Nat} (hr : runFun S rd b pos f = .ok r) :
    runFun S' rd' b pos f = .ok r := by
  unfold runFun at hr ⊢
  split at hr
  · cases hr
  · rename_i hp
    rw [if_neg hp]
    simp only [bind_ok] at hr ⊢
    obtain ⟨x, h1, h2⟩ := hr
    exact ⟨x, execBody_le hn hc h h1, h2⟩

/-- If text is read wherever it was read before, everything is. -/
theorem readAtom_le (hn : S.num = S'.num) (hc : S.count = S'.count) (he : S.enum = S'.enum)
    (hw : S.whole = S'.whole) {b : Buf} (ht : ∀ pos r, S.text b pos = .ok r → S'.text b pos = .ok r)
    {fn : String → Option RFun} :
    ∀ (fuel : Nat) {a : RAtom} {pos : Nat} {r : Val × Nat}, readAtom S fn b fuel a pos = .ok r →
      readAtom S' fn b fuel a pos = .ok r
  | 0, _, _, _, hr => hr
  | fuel + 1, a, pos, r, hr => by
    cases a with
    | num prim => simpa only [readAtom, hn] using hr
    | text => exact ht _ _ hr
    | enum prim e => simpa only [readAtom, hn, he] using hr
    | call s =>
      simp only [readAtom] at hr ⊢
      cases hf : fn s with
      | none => rw [hf] at hr; cases hr
      | some f =>
        rw [hf] at hr
        exact runFun_le hn hc (fun a pos r => readAtom_le hn hc he hw ht fuel) hr
    | whole s => simpa only [readAtom, hw] using hr

end

end Beschi.Lang
