import Verif.Lang.CAlloc
import Verif.Props.Memory
/-
C51: memory that runs out while reading in C.
-/
namespace Beschi.Props
open Beschi Beschi.Spec Beschi.Lang Beschi.Lang.C

/-- Some request from number `c` on and before number `c'` is refused. -/
def Refused (al : Allocator) (c c' : Nat) : Prop := ∃ k, c ≤ k ∧ k < c' ∧ al k = false

mutual
/-- The texts and lists in a value, each of which needs memory of its own. -/
def owned : Val → Nat
  | .str _ => 1
  | .list vs => 1 + ownedOfList vs
  | .record fs => ownedOfFields fs
  | _ => 0

/-- Those in a list of values. -/
def ownedOfList : List Val → Nat
  | [] => 0
  | v :: vs => owned v + ownedOfList vs

/-- Those in the members of a record. -/
def ownedOfFields : List (String × Val) → Nat
  | [] => 0
  | (_, v) :: fs => owned v + ownedOfFields fs
end

/-- No struct and no message has a list of texts. -/
def NoTextLists (p : Protocol) : Prop :=
  ∀ s ∈ p.structs ++ p.messages, ∀ m ∈ s.members, m.isList = true → m.vartype ≠ "string"

/-! ### Lemmas -/

/-- How an attempt is related to the outcome with enough memory. -/
structure Sound (al : Allocator) (texts : Prop) {α : Type} (x : Attempt α) (r : Except Fail α) : Prop where
  later : ∀ c, c ≤ (x c).2
  granted : ∀ c, ¬ Refused al c (x c).2 → (x c).1 = r.mapError .fail
  value : ∀ c v, (x c).1 = .ok v → r = .ok v
  refused : ¬ texts → ∀ c, Refused al c (x c).2 → (x c).1 = .error .noMemory
  kinds : ∀ c, (x c).1 = .error .noMemory ∨ (x c).1 = .error (.fail .crash) ∨ (x c).1 = .error (.fail .eof) ∨
    (x c).1 = r.mapError .fail

section
variable {al : Allocator} {texts : Prop} {p : Protocol} {b : Buf}

theorem bind_error {α β} {x : Attempt α} {f : α → Attempt β} {c c' : Nat} {e : Stop} (h : x c = (.error e, c')) :
    (x >>= f) c = (.error e, c') := by
  show Attempt.bind x f c = _
  unfold Attempt.bind
  rw [h]

theorem bind_ok {α β} {x : Attempt α} {f : α → Attempt β} {c c' : Nat} {a : α} (h : x c = (.ok a, c')) :
    (x >>= f) c = f a c' := by
  show Attempt.bind x f c = _
  unfold Attempt.bind
  rw [h]

theorem Sound.of {α} (r : Except Fail α) : Sound al texts (Attempt.of r) r where
  later c := Nat.le_refl c
  granted _ _ := rfl
  value c v h := by
    cases r with
    | error e => cases h
    | ok a => cases h; rfl
  refused _ c := fun ⟨k, h1, h2, _⟩ => absurd h2 (Nat.not_lt.2 h1)
  kinds _ := .inr (.inr (.inr rfl))

theorem Sound.pure {α} (a : α) : Sound al texts (pure a) (pure a) := Sound.of (.ok a)

theorem Sound.bind {α β} {x : Attempt α} {f : α → Attempt β} {r : Except Fail α} {g : α → Except Fail β}
    (hx : Sound al texts x r) (hf : ∀ a, Sound al texts (f a) (g a)) : Sound al texts (x >>= f) (r >>= g) := by
  have key : ∀ c, (∃ e, x c = (.error e, (x c).2) ∧ (x >>= f) c = (.error e, (x c).2)) ∨
      ∃ a, x c = (.ok a, (x c).2) ∧ (x >>= f) c = f a (x c).2 := by
    intro c
    rcases hx : x c with ⟨e | a, c'⟩
    · exact .inl ⟨e, rfl, bind_error hx⟩
    · exact .inr ⟨a, rfl, bind_ok hx⟩
  constructor
  · intro c
    rcases key c with ⟨e, -, h⟩ | ⟨a, -, h⟩ <;> rw [h]
    · exact hx.later c
    · exact (hx.later c).trans ((hf a).later _)
  · intro c hn
    rcases key c with ⟨e, h1, h⟩ | ⟨a, h1, h⟩ <;> rw [h] at hn ⊢
    · have := hx.granted c hn
      rw [h1] at this
      cases r with
      | error e' => cases this; rfl
      | ok a => cases this
    · have h2 := hx.granted c fun ⟨k, k1, k2, k3⟩ => hn ⟨k, k1, Nat.lt_of_lt_of_le k2 ((hf a).later _), k3⟩
      have h3 := (hf a).granted _ fun ⟨k, k1, k2, k3⟩ => hn ⟨k, (hx.later c).trans k1, k2, k3⟩
      rw [h1] at h2
      cases r with
      | error e' => cases h2
      | ok a' => cases h2; exact h3
  · intro c v hv
    rcases key c with ⟨e, h1, h⟩ | ⟨a, h1, h⟩ <;> rw [h] at hv
    · cases hv
    · have h2 := hx.value c a (by rw [h1])
      rw [h2]
      exact (hf a).value _ v hv
  · intro ht c hr
    rcases key c with ⟨e, h1, h⟩ | ⟨a, h1, h⟩ <;> rw [h] at hr ⊢
    · have := hx.refused ht c hr
      rw [h1] at this
      cases this
      rfl
    · obtain ⟨k, k1, k2, k3⟩ := hr
      rcases Nat.lt_or_ge k (x c).2 with hk | hk
      · have := hx.refused ht c ⟨k, k1, hk, k3⟩
        rw [h1] at this
        cases this
      · exact (hf a).refused ht _ ⟨k, hk, k2, k3⟩
  · intro c
    rcases key c with ⟨e, h1, h⟩ | ⟨a, h1, h⟩ <;> rw [h]
    · have := hx.kinds c
      rw [h1] at this
      rcases this with h2 | h2 | h2 | h2
      · cases h2; exact .inl rfl
      · cases h2; exact .inr (.inl rfl)
      · cases h2; exact .inr (.inr (.inl rfl))
      · cases r with
        | error e' => cases h2; exact .inr (.inr (.inr rfl))
        | ok a => cases h2
    · have h2 := hx.value c a (by rw [h1])
      rw [h2]
      exact (hf a).kinds _

theorem Sound.need {β} {y : Attempt β} {r : Except Fail β} (h : Sound al texts y r) :
    Sound al texts (need al >>= fun _ => y) r := by
  have hy : ∀ c, (C.need al >>= fun _ => y) c = if al c then y (c + 1) else (.error .noMemory, c + 1) := by
    intro c
    have hq : C.need al c = if al c then (.ok (), c + 1) else (.error .noMemory, c + 1) := by
      have : C.need al c = (if al c then (Pure.pure () : Attempt Unit) else fun c => (.error .noMemory, c)) (c + 1) := rfl
      rw [this]
      cases al c <;> rfl
    split
    · next ha => rw [if_pos ha] at hq; exact bind_ok hq
    · next ha => rw [if_neg ha] at hq; exact bind_error hq
  constructor
  · intro c
    rw [hy]
    split
    · exact (Nat.le_succ c).trans (h.later _)
    · exact Nat.le_succ c
  · intro c hn
    rw [hy] at hn ⊢
    split
    · next ha =>
      rw [if_pos ha] at hn
      exact h.granted _ fun ⟨k, k1, k2, k3⟩ => hn ⟨k, (Nat.le_succ c).trans k1, k2, k3⟩
    · next ha =>
      rw [if_neg ha] at hn
      exact absurd ⟨c, Nat.le_refl c, Nat.lt_succ_self c, by simpa using ha⟩ hn
  · intro c v hv
    rw [hy] at hv
    split at hv
    · exact h.value _ v hv
    · cases hv
  · intro ht c hr
    rw [hy] at hr ⊢
    split
    · next ha =>
      rw [if_pos ha] at hr
      obtain ⟨k, k1, k2, k3⟩ := hr
      refine h.refused ht _ ⟨k, ?_, k2, k3⟩
      rcases Nat.lt_or_ge c k with hk | hk
      · exact hk
      · rw [Nat.le_antisymm hk k1, ha] at k3; cases k3
    · rfl
  · intro c
    rw [hy]
    split
    · exact h.kinds _
    · exact .inl rfl

theorem string_sound (pos : Nat) : Sound al texts (allocString al p b pos) (readString p b pos) := by
  have e : readString p b pos = (readNum (readPrim p.stringSize) b pos >>= fun x => match x with
      | (n, pos) => match n with
        | .int i => (do
          let (bs, pos) ← slice p i b pos
          return (.str bs, pos) : Except Fail (Val × Nat))
        | _ => .error .illTyped) := by
    unfold readString
    cases readNum (readPrim p.stringSize) b pos with
    | error e => rfl
    | ok x =>
      obtain ⟨n, pos⟩ := x
      cases n <;> try rfl
      show _ = (slice p _ b pos >>= _)
      dsimp only
      cases slice p _ b pos <;> rfl
  rw [e]
  refine Sound.bind (.of _) fun ⟨n, pos⟩ => ?_
  cases n <;> try exact .of _
  dsimp only
  split
  · exact .of _
  · exact .need (.of _)

theorem items_sound {rd : Nat → Attempt (Val × Nat)} {rd' : Nat → Except Fail (Val × Nat)}
    (h : ∀ pos, Sound al texts (rd pos) (rd' pos)) : ∀ k pos, Sound al texts (allocItems rd k pos) (readItems rd' k pos)
  | 0, _ => .pure _
  | k + 1, pos => .bind (h pos) fun ⟨_, pos⟩ => .bind (items_sound h k pos) fun ⟨_, _⟩ => .pure _

theorem length_eof {pos : Nat} {e : Fail} (h : readNum (readPrim p.stringSize) b pos = .error e) : e = .eof := by
  have hr : readable (readPrim p.stringSize) = some p.stringSize := by cases p.stringSize <;> decide
  unfold readNum at h
  rw [hr] at h
  simp only [takeNum, takeN] at h
  split at h
  · cases h
  · next h' => split at h' <;> cases h'; cases h; rfl

theorem null_fails (pos c : Nat) : ∃ e, (e = .eof ∨ e = .crash) ∧ nullString p b pos c = (.error (.fail e), c) := by
  unfold nullString
  cases h : readNum (readPrim p.stringSize) b pos with
  | error e => exact ⟨e, .inl (length_eof h), bind_error rfl⟩
  | ok x => exact ⟨.crash, .inr rfl, bind_ok (a := x) rfl⟩

/-- The elements of a list of texts, if the memory for their lengths has been refused. -/
theorem null_items (k pos c : Nat) : (k = 0 ∧ allocItems (nullString p b) k pos c = (.ok ([], pos), c)) ∨
    ∃ e, (e = .eof ∨ e = .crash) ∧ allocItems (nullString p b) k pos c = (.error (.fail e), c) := by
  cases k with
  | zero => exact .inl ⟨rfl, rfl⟩
  | succ k =>
    obtain ⟨e, h, he⟩ := null_fails (p := p) (b := b) pos c
    exact .inr ⟨e, h, bind_error he⟩

theorem null_later (k pos c : Nat) : c ≤ (allocItems (nullString p b) k pos c).2 := by
  rcases null_items (p := p) (b := b) k pos c with ⟨-, h⟩ | ⟨e, -, h⟩ <;> rw [h]

theorem null_value {rd' : Nat → Except Fail (Val × Nat)} (k pos c : Nat) (v : List Val × Nat)
    (h : (allocItems (nullString p b) k pos c).1 = .ok v) : readItems rd' k pos = .ok v := by
  rcases null_items (p := p) (b := b) k pos c with ⟨rfl, h'⟩ | ⟨e, -, h'⟩ <;> rw [h'] at h <;> cases h
  rfl

/-- The memory for the lengths of texts, and the elements. -/
theorem elements_sound {rd : RAtom → Nat → Attempt (Val × Nat)} {rd' : RAtom → Nat → Except Fail (Val × Nat)}
    {a : RAtom} (h : ∀ pos, Sound al texts (rd a pos) (rd' a pos)) (ht : a = .text → texts) (k pos : Nat) :
    Sound al texts (lengths al a >>= fun there => allocItems (if there then rd a else nullString p b) k pos)
      (readItems (rd' a) k pos) := by
  have hi := items_sound h k pos
  by_cases ha : a = .text
  · have e : ∀ c, (lengths al a >>= fun there => allocItems (if there then rd a else nullString p b) k pos) c =
        allocItems (if al c then rd a else nullString p b) k pos (c + 1) := by
      intro c
      unfold lengths
      rw [if_pos ha]
      rfl
    constructor
    · intro c
      rw [e]
      split
      · exact (Nat.le_succ c).trans (hi.later _)
      · exact (Nat.le_succ c).trans (null_later _ _ _)
    · intro c hn
      rw [e] at hn ⊢
      split
      · next hc =>
        rw [if_pos hc] at hn
        exact hi.granted _ fun ⟨k, k1, k2, k3⟩ => hn ⟨k, (Nat.le_succ c).trans k1, k2, k3⟩
      · next hc =>
        refine absurd ⟨c, Nat.le_refl c, ?_, by simpa using hc⟩ hn
        rw [if_neg hc]
        exact Nat.lt_of_lt_of_le (Nat.lt_succ_self c)
          (null_later _ _ _)
    · intro c v hv
      rw [e] at hv
      split at hv
      · exact hi.value _ v hv
      · exact null_value k pos _ v hv
    · intro hx
      exact absurd (ht ha) hx
    · intro c
      rw [e]
      split
      · exact hi.kinds _
      · rcases null_items (p := p) (b := b) k pos (c + 1) with ⟨rfl, h⟩ | ⟨_, rfl | rfl, h⟩ <;> rw [h]
        · exact .inr (.inr (.inr rfl))
        · exact .inr (.inr (.inl rfl))
        · exact .inr (.inl rfl)
  · have e : (lengths al a >>= fun there => allocItems (if there then rd a else nullString p b) k pos) =
        allocItems (rd a) k pos := by
      unfold lengths
      rw [if_neg ha]
      rfl
    rw [e]
    exact hi

/-- A list of texts is read only if there may be one. -/
def Allowed (texts : Prop) : RStmt → Prop
  | .one _ _ => True
  | .list _ _ _ a => a = .text → texts

theorem stmt_sound {rd : RAtom → Nat → Attempt (Val × Nat)} {rd' : RAtom → Nat → Except Fail (Val × Nat)}
    (h : ∀ a pos, Sound al texts (rd a pos) (rd' a pos)) (env : REnv) (pos : Nat) {s : RStmt} (hs : Allowed texts s) :
    Sound al texts (allocStmt al p rd b env pos s) (execStmt (readSem p) rd' b env pos s) := by
  cases s with
  | one dst a => exact .bind (h a pos) fun ⟨v, pos⟩ => .pure _
  | list dst len lenPrim a =>
    refine .bind (.of _) fun ⟨n, pos⟩ => .bind (.of _) fun i => .need (.bind (.of _) fun k => ?_)
    have e : (lengths al a >>= fun there => allocItems (if there then rd a else nullString p b) k pos >>= fun x =>
        (Pure.pure ((dst, .list x.1) :: (len, n) :: env, x.2) : Attempt (REnv × Nat))) =
        ((lengths al a >>= fun there => allocItems (if there then rd a else nullString p b) k pos) >>= fun x =>
          Pure.pure ((dst, .list x.1) :: (len, n) :: env, x.2)) := by
      funext c
      rcases hl : lengths al a c with ⟨e | t, c'⟩
      · rw [bind_error hl, bind_error (bind_error hl)]
      · rw [bind_ok hl]
        rcases hi : allocItems (if t then rd a else nullString p b) k pos c' with ⟨e | v, c''⟩
        · rw [bind_error hi, bind_error ((bind_ok hl).trans hi)]
        · rw [bind_ok hi, bind_ok ((bind_ok hl).trans hi)]
    exact e ▸ .bind (elements_sound (h a) hs k pos) fun ⟨_, _⟩ => .pure _

theorem body_sound {rd : RAtom → Nat → Attempt (Val × Nat)} {rd' : RAtom → Nat → Except Fail (Val × Nat)}
    (h : ∀ a pos, Sound al texts (rd a pos) (rd' a pos)) : ∀ (ss : List RStmt) (env : REnv) (pos : Nat),
    (∀ s ∈ ss, Allowed texts s) →
    Sound al texts (allocBody al p rd b env pos ss) (execBody (readSem p) rd' [] b env pos ss)
  | [], _, _, _ => .pure _
  | s :: ss, env, pos, hs =>
    .bind (stmt_sound h env pos (hs s List.mem_cons_self)) fun ⟨env, pos⟩ =>
      body_sound h ss env pos fun s hm => hs s (List.mem_cons_of_mem _ hm)

theorem fun_sound {rd : RAtom → Nat → Attempt (Val × Nat)} {rd' : RAtom → Nat → Except Fail (Val × Nat)}
    (h : ∀ a pos, Sound al texts (rd a pos) (rd' a pos)) (st : Struct) (pos : Nat)
    (hs : ∀ m ∈ st.members, m.isList = true → m.vartype = "string" → texts) :
    Sound al texts (allocFun al p rd b pos (fromBytes p st)) (runFun (readSem p) rd' b pos (fromBytes p st)) := by
  have e : runFun (readSem p) rd' b pos (fromBytes p st) = (do
      let (env, pos) ← execBody (readSem p) rd' [] b [] pos (fromBytes p st).body
      let fs ← buildResult env (fromBytes p st).result
      return (.record fs, pos)) := by
    unfold runFun
    rw [if_neg (by simp [fromBytes])]
    rfl
  rw [e]
  refine .bind (body_sound h _ _ _ fun s hm => ?_) fun ⟨_, _⟩ => .bind (.of _) fun _ => .pure _
  obtain ⟨m, hm', rfl⟩ := List.mem_map.1 hm
  clear hm
  unfold deserializer
  split
  · next hl =>
    intro ha
    refine hs m hm' hl ?_
    unfold atom at ha
    split at ha
    · next hv => exact hv
    · split at ha
      · cases ha
      · split at ha <;> cases ha
  · trivial

/-- Texts in lists are allowed, or there are none. -/
def Texts (p : Protocol) (texts : Prop) : Prop :=
  ∀ s ∈ p.structs ++ p.messages, ∀ m ∈ s.members, m.isList = true → m.vartype = "string" → texts

theorem atom_sound (ht : Texts p texts) : ∀ (fuel : Nat) (a : RAtom) (pos : Nat), Sound al texts (allocAtom al p b fuel a pos)
    (readAtom (readSem p) (fun s => (p.struct? s).map (fromBytes p)) b fuel a pos)
  | 0, _, _ => .of _
  | fuel + 1, a, pos => by
    cases a with
    | num prim => exact .of _
    | text => exact string_sound pos
    | enum prim e => exact .bind (.of _) fun ⟨n, pos⟩ => .bind (.of _) fun i => .bind (.of _) fun v => .pure _
    | call s =>
      simp only [allocAtom, readAtom]
      cases hs : p.struct? s with
      | none => exact .of _
      | some st =>
        exact fun_sound (atom_sound ht fuel) st pos
          (ht st (List.mem_append_left _ (List.mem_of_find?_eq_some hs)))
    | whole s => exact .of _

theorem read_sound (ht : Texts p texts) (m : String) (pos : Nat) :
    Sound al texts (allocRead al p m b pos) (C.read p m b pos) := by
  unfold allocRead C.read readMessage
  cases hs : p.message? m with
  | none => exact .of _
  | some st =>
    exact fun_sound (atom_sound ht _) st pos (ht st (List.mem_append_right _ (List.mem_of_find?_eq_some hs)))

theorem attempt_assoc {α β γ} (x : Attempt α) (f : α → Attempt β) (g : β → Attempt γ) :
    ((x >>= f) >>= g) = (x >>= fun a => f a >>= g) := by
  funext c
  rcases hx : x c with ⟨e | a, c'⟩
  · rw [bind_error (bind_error hx), bind_error hx]
  · rw [bind_ok hx]
    rcases hf : f a c' with ⟨e | v, c''⟩
    · rw [bind_error hf, bind_error ((bind_ok hx).trans hf)]
    · rw [bind_ok hf, bind_ok ((bind_ok hx).trans hf)]

theorem room_sound {β} {n a : Nat} {f : Nat → Attempt β} {r : Except Fail β} (ha : 0 < a) (hn : n ≤ a)
    (h : ∀ room, n < room → Sound al texts (f room) r) :
    Sound al texts ((if n < a then Pure.pure a else do need al; Pure.pure (2 * a)) >>= f) r := by
  split
  · next hc => exact h a hc
  · rw [attempt_assoc]
    exact .need (h (2 * a) (by omega))

theorem loop_sound (ht : Texts p texts) (max : Int) : ∀ (fuel room : Nat) (acc : List (String × Val)) (pos : Nat),
    0 < room → acc.length ≤ room → Sound al texts (allocLoop al p b max fuel room acc pos)
      (processLoop (fun pos => decide (b.length ≤ pos))
        (taggedStep (takeTag .eof b) (dispatch p) (fun m pos => C.read p m b pos) .invalid) max fuel acc pos)
  | 0, _, _, _, _, _ => .of _
  | fuel + 1, room, acc, pos, hr, ha => by
    by_cases hc : pos < b.length ∧ (max < 0 ∨ (acc.length : Int) < max)
    · have hd : (!decide (b.length ≤ pos) && (decide (max < 0) || decide ((acc.length : Int) < max))) = true := by
        simpa using hc
      have e : processLoop (fun pos => decide (b.length ≤ pos))
            (taggedStep (takeTag .eof b) (dispatch p) (fun m pos => C.read p m b pos) .invalid) max (fuel + 1) acc pos =
          (takeTag .eof b pos >>= fun x => if x.1 = 0 then Except.ok (acc, x.2) else match dispatch p x.1 with
            | none => .error .invalid
            | some m => C.read p m b x.2 >>= fun y => processLoop (fun pos => decide (b.length ≤ pos))
              (taggedStep (takeTag .eof b) (dispatch p) (fun m pos => C.read p m b pos) .invalid) max fuel
                (acc ++ [(m, y.1)]) y.2) := by
        rw [processLoop, if_pos hd]
        cases htag : takeTag .eof b pos with
        | error e => simp only [taggedStep, htag]; rfl
        | ok x =>
          obtain ⟨t, q⟩ := x
          show _ = if t = 0 then _ else _
          by_cases h0 : t = 0
          · simp only [taggedStep, htag, if_pos h0]
          · rw [if_neg h0]
            cases hdis : dispatch p t with
            | none => simp only [taggedStep, htag, if_neg h0, hdis]
            | some m =>
              cases hr : C.read p m b q with
              | error e => simp only [taggedStep, htag, if_neg h0, hdis, hr]; rfl
              | ok y => simp only [taggedStep, htag, if_neg h0, hdis, hr]; rfl
      rw [e, allocLoop, if_pos hc]
      refine room_sound hr ha fun room hroom => ?_
      refine .bind (.of _) fun ⟨t, q⟩ => ?_
      dsimp only
      by_cases h0 : t = 0
      · rw [if_pos h0, if_pos h0]
        exact .of (.ok _)
      · rw [if_neg h0, if_neg h0]
        cases dispatch p t with
        | none => exact .of _
        | some m =>
          refine .need ?_
          rw [if_pos hroom]
          exact .bind (read_sound ht m q) fun ⟨v, q⟩ => loop_sound ht max fuel room _ q (by omega)
            (by rw [List.length_append, List.length_singleton]; exact hroom)
    · have hd : ¬ (!decide (b.length ≤ pos) && (decide (max < 0) || decide ((acc.length : Int) < max))) = true := by
        simpa using hc
      rw [allocLoop, processLoop, if_neg hc, if_neg hd]
      exact .of (.ok _)

theorem process_sound (ht : Texts p texts) (max : Int) (pos : Nat) :
    Sound al texts (allocProcess al p b pos max) (C.process p b pos max) := by
  refine .need ?_
  unfold C.process processBytes
  split
  · exact .of (.ok _)
  · exact loop_sound ht max _ _ _ _ (by decide) (by decide)

theorem unpack_sound (ht : Texts p texts) (pos : Nat) :
    Sound al texts (allocUnpack al p b pos) (C.unpackFrom p b pos) := by
  have e : C.unpackFrom p b pos = (takeN .crash 4 b 0 >>= fun x => if x.1 ≠ bsci then .error .invalid
      else takeNum .eof .uint32 b (pos + 4) >>= fun y => asInt y.1 >>= fun n => limit n >>= fun k =>
        C.process p b y.2 k >>= fun z => if (z.1.length : Int) ≠ n then .error .invalid else .ok z.1) := by
    unfold C.unpackFrom
    cases takeN .crash 4 b 0 with
    | error e => rfl
    | ok x =>
      obtain ⟨w, q⟩ := x
      show (if w ≠ bsci then _ else _) = if w ≠ bsci then _ else _
      split
      · rfl
      · cases takeNum .eof .uint32 b (pos + 4) with
        | error e => rfl
        | ok y =>
          obtain ⟨v, q⟩ := y
          cases v with
          | int n =>
            show (match C.process p b q _ with | .error e => _ | .ok (ms, _) => _) = (C.process p b q _ >>= _)
            cases C.process p b q _ <;> rfl
          | _ => rfl
  rw [e]
  refine .bind (.of _) fun ⟨w, _⟩ => ?_
  dsimp only
  split
  · exact .of _
  refine .bind (.of _) fun ⟨v, q⟩ => .bind (.of _) fun n => .bind (.of _) fun k =>
    .bind (process_sound ht k q) fun ⟨ms, _⟩ => ?_
  dsimp only
  split
  · exact .of _
  · exact .of (.ok _)

end

/-! ### C51 -/

section
variable (al : Allocator) (p : Protocol) (m : String) (b : Buf) (pos c : Nat) (max : Int)

/-- C51: reading succeeds only with the value that is read with enough memory. -/
theorem C51_value {v : Val × Nat} (h : (allocRead al p m b pos c).1 = .ok v) : C.read p m b pos = .ok v :=
  (read_sound (texts := True) (fun _ _ _ _ _ _ => trivial) m pos).value c v h

/-- C51 for streams. -/
theorem C51_stream_value {v : List (String × Val) × Nat} (h : (allocProcess al p b pos max c).1 = .ok v) :
    C.process p b pos max = .ok v :=
  (process_sound (texts := True) (fun _ _ _ _ _ _ => trivial) max pos).value c v h

/-- C51: if every request is granted, the outcome is the one described elsewhere. -/
theorem C51_granted (h : ¬ Refused al c (allocRead al p m b pos c).2) :
    (allocRead al p m b pos c).1 = (C.read p m b pos).mapError .fail :=
  (read_sound (texts := True) (fun _ _ _ _ _ _ => trivial) m pos).granted c h

/-- C51 for streams. -/
theorem C51_stream_granted (h : ¬ Refused al c (allocProcess al p b pos max c).2) :
    (allocProcess al p b pos max c).1 = (C.process p b pos max).mapError .fail :=
  (process_sound (texts := True) (fun _ _ _ _ _ _ => trivial) max pos).granted c h

/-- C51 for packed messages. -/
theorem C51_unpack_value {ms : List (String × Val)} (h : (allocUnpack al p b pos c).1 = .ok ms) :
    C.unpackFrom p b pos = .ok ms :=
  (unpack_sound (texts := True) (fun _ _ _ _ _ _ => trivial) pos).value c ms h

/-- C51 for packed messages. -/
theorem C51_unpack_granted (h : ¬ Refused al c (allocUnpack al p b pos c).2) :
    (allocUnpack al p b pos c).1 = (C.unpackFrom p b pos).mapError .fail :=
  (unpack_sound (texts := True) (fun _ _ _ _ _ _ => trivial) pos).granted c h

/-- C51: a request refused is reported as such.  Missing: protocols with lists of texts, for which this is
false. -/
theorem C51_refused_partial (hp : NoTextLists p) (h : Refused al c (allocRead al p m b pos c).2) :
    (allocRead al p m b pos c).1 = .error .noMemory :=
  (read_sound (texts := False) (fun s hs v hv hl ht => hp s hs v hv hl ht) m pos).refused id c h

/-- C51 for streams. -/
theorem C51_stream_refused_partial (hp : NoTextLists p) (h : Refused al c (allocProcess al p b pos max c).2) :
    (allocProcess al p b pos max c).1 = .error .noMemory :=
  (process_sound (texts := False) (fun s hs v hv hl ht => hp s hs v hv hl ht) max pos).refused id c h

/-- C51 for packed messages. -/
theorem C51_unpack_refused_partial (hp : NoTextLists p) (h : Refused al c (allocUnpack al p b pos c).2) :
    (allocUnpack al p b pos c).1 = .error .noMemory :=
  (unpack_sound (texts := False) (fun s hs v hv hl ht => hp s hs v hv hl ht) pos).refused id c h

/-- C51: whatever is refused, in any protocol, memory is reported to have run out, the generated code crashes,
the end of the data is reported, or the outcome is that with enough memory. -/
theorem C51_kinds : (allocRead al p m b pos c).1 = .error .noMemory ∨ (allocRead al p m b pos c).1 = .error (.fail .crash) ∨
    (allocRead al p m b pos c).1 = .error (.fail .eof) ∨
    (allocRead al p m b pos c).1 = (C.read p m b pos).mapError .fail :=
  (read_sound (texts := True) (fun _ _ _ _ _ _ => trivial) m pos).kinds c

/-- C51 for streams. -/
theorem C51_stream_kinds : (allocProcess al p b pos max c).1 = .error .noMemory ∨
    (allocProcess al p b pos max c).1 = .error (.fail .crash) ∨ (allocProcess al p b pos max c).1 = .error (.fail .eof) ∨
    (allocProcess al p b pos max c).1 = (C.process p b pos max).mapError .fail :=
  (process_sound (texts := True) (fun _ _ _ _ _ _ => trivial) max pos).kinds c

/-- C51 for packed messages. -/
theorem C51_unpack_kinds : (allocUnpack al p b pos c).1 = .error .noMemory ∨
    (allocUnpack al p b pos c).1 = .error (.fail .crash) ∨ (allocUnpack al p b pos c).1 = .error (.fail .eof) ∨
    (allocUnpack al p b pos c).1 = (C.unpackFrom p b pos).mapError .fail :=
  (unpack_sound (texts := True) (fun _ _ _ _ _ _ => trivial) pos).kinds c

end

/-! ### How often memory is asked for -/

/-- On success, there were at least as many requests as `f` of the result, apart from `k` made before. -/
def Asks {α : Type} (x : Attempt α) (k : Nat) (f : α → Nat) : Prop := ∀ c a c', x c = (.ok a, c') → c + f a ≤ c' + k

section
variable {al : Allocator} {p : Protocol} {b : Buf}

theorem Asks.bind {α β} {x : Attempt α} {g : α → Attempt β} {k : Nat} {f : α → Nat} {f' : β → Nat}
    (hx : Asks x k f) (hg : ∀ a c c', x c = (.ok a, c') → Asks (g a) (f a) f') : Asks (x >>= g) k f' := by
  intro c v c' h
  rcases e : x c with ⟨e' | a, c1⟩
  · rw [bind_error e] at h
    cases h
  · rw [bind_ok e] at h
    have h1 := hx c a c1 e
    have h2 := hg a c c1 e c1 v c' h
    omega

theorem Asks.pure {α} {a : α} {k : Nat} {f : α → Nat} (h : f a ≤ k) : Asks (pure a) k f := by
  intro c v c' e
  cases e
  omega

theorem Asks.of {α} {r : Except Fail α} {k : Nat} {f : α → Nat} (h : ∀ a, r = .ok a → f a ≤ k) :
    Asks (Attempt.of r) k f := by
  intro c v c' e
  cases r with
  | error e' => cases e
  | ok a =>
    cases e
    exact Nat.add_le_add_left (h _ rfl) _

theorem Asks.need (k : Nat) : Asks (need al) k (fun _ => k + 1) := by
  intro c v c' e
  have : C.need al c = (if al c then (Pure.pure () : Attempt Unit) else fun c => (.error .noMemory, c)) (c + 1) := rfl
  rw [this] at e
  cases h : al c with
  | false => rw [h] at e; cases e
  | true => rw [h] at e; cases e; dsimp only; omega

theorem Asks.request (k : Nat) : Asks (request al) k (fun _ => k) := by
  intro c v c' e
  cases e
  dsimp only
  omega

theorem of_ok {α} {r : Except Fail α} {a : α} {c c' : Nat} (h : Attempt.of r c = (.ok a, c')) : r = .ok a := by
  cases r with
  | error e => cases h
  | ok v => cases h; rfl

theorem readNum_owned {prim : String} {pos : Nat} {v : Val × Nat} (h : readNum prim b pos = .ok v) : owned v.1 = 0 := by
  unfold readNum at h
  split at h
  · next n _ =>
    unfold takeNum at h
    split at h
    · cases h
      cases n <;> simp [fromLE, signed, owned]
    · cases h
  · cases h

theorem asInt_owned {v : Val} {i : Int} (h : asInt v = .ok i) : owned v = 0 := by
  cases v <;> first | rfl | cases h

theorem checkDeclared_owned {e : String} {i : Int} {v : Val} (h : checkDeclared p e i = .ok v) : owned v = 0 := by
  unfold checkDeclared at h
  split at h
  · cases h
  · split at h
    · cases h; rfl
    · cases h

theorem string_asks (k pos : Nat) : Asks (allocString al p b pos) k (fun r => k + owned r.1) := by
  have hs : ∀ (i : Int) (pos : Nat) (k : Nat), Asks (Attempt.of (do
      let (bs, pos) ← slice p i b pos
      return ((.str bs : Val), pos))) (k + 1) (fun r => k + owned r.1) := by
    intro i pos k
    refine .of fun a h => ?_
    cases hsl : slice p i b pos with
    | error e => rw [hsl] at h; cases h
    | ok x => rw [hsl] at h; cases h; exact Nat.le_refl _
  refine .bind (f := fun _ => k) (.of fun _ _ => Nat.le_refl _) fun ⟨n, q⟩ _ _ _ => ?_
  dsimp only
  cases n with
  | int i =>
    dsimp only
    split
    · next hc =>
      refine .of fun a h => ?_
      cases hsl : slice p i b q with
      | error e => rw [hsl] at h; cases h
      | ok x =>
        unfold slice at hsl
        rcases hc with hc | hc
        · rw [if_pos hc] at hsl; cases hsl
        · split at hsl
          · cases hsl
          · rw [hc] at hsl; cases hsl
    · exact .bind (.need k) fun _ _ _ _ => hs i q k
  | _ => exact .of fun a h => by cases h

theorem null_asks (k pos : Nat) (f : Val × Nat → Nat) : Asks (nullString p b pos) k f :=
  .bind (f := fun _ => k) (.of fun _ _ => Nat.le_refl _) fun _ _ _ _ => .of fun _ h => by cases h

theorem items_asks {rd : Nat → Attempt (Val × Nat)} (h : ∀ k pos, Asks (rd pos) k (fun r => k + owned r.1)) :
    ∀ (n k pos : Nat), Asks (allocItems rd n pos) k (fun r => k + ownedOfList r.1)
  | 0, k, pos => .pure (Nat.le_refl k)
  | n + 1, k, pos => .bind (h k pos) fun ⟨v, pos⟩ _ _ _ => .bind (items_asks h n _ pos) fun ⟨vs, pos⟩ _ _ _ =>
      .pure (by simp only [ownedOfList]; omega)

/-- The texts and lists in what has been read. -/
def ownedOfEnv (env : REnv) : Nat := (env.map fun x => owned x.2).sum

theorem stmt_asks {rd : RAtom → Nat → Attempt (Val × Nat)} (h : ∀ a k pos, Asks (rd a pos) k (fun r => k + owned r.1))
    (env : REnv) (pos : Nat) (s : RStmt) :
    Asks (allocStmt al p rd b env pos s) (ownedOfEnv env) (fun r => ownedOfEnv r.1) := by
  cases s with
  | one dst a =>
    exact .bind (h a _ pos) fun ⟨v, pos⟩ _ _ _ => .pure (by simp [ownedOfEnv]; omega)
  | list dst len lenPrim a =>
    refine .bind (f := fun _ => ownedOfEnv env) (.of fun _ _ => Nat.le_refl _) fun ⟨n, q⟩ _ _ _ => ?_
    refine .bind (f := fun _ => ownedOfEnv env) (.of fun _ _ => Nat.le_refl _) fun i _ _ hi => ?_
    have hn := asInt_owned (of_ok hi)
    refine .bind (.need _) fun _ _ _ _ => ?_
    refine .bind (f := fun _ => ownedOfEnv env + 1) (.of fun _ _ => Nat.le_refl _) fun k _ _ _ => ?_
    refine .bind (f := fun _ => ownedOfEnv env + 1) ?_ fun there _ _ _ => ?_
    · unfold lengths
      split
      · exact .request _
      · exact .pure (Nat.le_refl _)
    refine .bind (items_asks (fun k pos => ?_) _ _ _) fun ⟨vs, q⟩ _ _ _ => .pure ?_
    · cases there
      · exact null_asks _ _ _
      · exact h a k pos
    · simp [ownedOfEnv, hn, owned]
      omega

theorem body_asks {rd : RAtom → Nat → Attempt (Val × Nat)} (h : ∀ a k pos, Asks (rd a pos) k (fun r => k + owned r.1)) :
    ∀ (ss : List RStmt) (env : REnv) (pos : Nat),
      Asks (allocBody al p rd b env pos ss) (ownedOfEnv env) (fun r => ownedOfEnv r.1)
  | [], _, _ => .pure (Nat.le_refl _)
  | s :: ss, env, pos => .bind (stmt_asks h env pos s) fun ⟨env, pos⟩ _ _ _ => body_asks h ss env pos

theorem owned_remove {l : Loc} {v : Val} : ∀ {env : REnv}, env.lookup l = some v →
    owned v + ownedOfEnv (env.filter fun x => x.1 ≠ l) ≤ ownedOfEnv env
  | [], h => by cases h
  | (l', v') :: env, h => by
    have hle : ∀ env : REnv, ownedOfEnv (env.filter fun x => x.1 ≠ l) ≤ ownedOfEnv env := by
      intro env
      induction env with
      | nil => exact Nat.le_refl _
      | cons x env ih =>
        rw [List.filter_cons]
        split
        · simp only [ownedOfEnv, List.map_cons, List.sum_cons] at ih ⊢; omega
        · simp only [ownedOfEnv, List.map_cons, List.sum_cons] at ih ⊢; omega
    by_cases hl : l' = l
    · subst hl
      rw [List.lookup_cons_self] at h
      cases h
      have := hle env
      simp [ownedOfEnv] at this ⊢
      omega
    · have hb : (l == l') = false := by simpa using fun e => hl e.symm
      rw [List.lookup_cons, hb] at h
      have := owned_remove h
      rw [List.filter_cons, if_pos (by simpa using hl)]
      simp only [ownedOfEnv, List.map_cons, List.sum_cons] at this ⊢
      omega

theorem lookup_remove {l l' : Loc} (hl : l' ≠ l) : ∀ env : REnv,
    (env.filter fun x => x.1 ≠ l).lookup l' = env.lookup l'
  | [] => rfl
  | (k, v) :: env => by
    rw [List.filter_cons]
    by_cases hk : k = l
    · subst hk
      have hb : (l' == k) = false := by simpa using hl
      rw [if_neg (by simp), List.lookup_cons, hb]
      exact lookup_remove hl env
    · rw [if_pos (by simpa using hk), List.lookup_cons, List.lookup_cons, lookup_remove hl env]

theorem build_remove {l : Loc} {env : REnv} : ∀ {rs : List (String × Loc)}, l ∉ rs.map (·.2) →
    buildResult (env.filter fun x => x.1 ≠ l) rs = buildResult env rs
  | [], _ => rfl
  | (n, l') :: rs, h => by
    simp only [List.map_cons, List.mem_cons, not_or] at h
    unfold buildResult
    rw [lookup_remove (Ne.symm h.1), build_remove h.2]

theorem build_owned : ∀ {rs : List (String × Loc)} {env : REnv} {fs : List (String × Val)}, (rs.map (·.2)).Nodup →
    buildResult env rs = .ok fs → ownedOfFields fs ≤ ownedOfEnv env
  | [], _, _, _, h => by cases h; exact Nat.zero_le _
  | (n, l) :: rs, env, fs, hd, h => by
    rw [List.map_cons, List.nodup_cons] at hd
    unfold buildResult at h
    cases hl : env.lookup l with
    | none => rw [hl] at h; cases h
    | some v =>
      rw [hl] at h
      cases hb : buildResult env rs with
      | error e => rw [hb] at h; cases h
      | ok gs =>
        rw [hb] at h
        cases h
        have h1 := owned_remove hl
        have h2 := build_owned hd.2 ((build_remove hd.1).trans hb)
        simp only [ownedOfFields]
        dsimp only at h2
        omega

theorem fun_asks {rd : RAtom → Nat → Attempt (Val × Nat)} (h : ∀ a k pos, Asks (rd a pos) k (fun r => k + owned r.1))
    {st : Struct} (hd : (st.members.map (·.name)).Nodup) (k pos : Nat) :
    Asks (allocFun al p rd b pos (fromBytes p st)) k (fun r => k + owned r.1) := by
  have key : Asks (allocFun al p rd b pos (fromBytes p st)) 0 (fun r => owned r.1) := by
    refine .bind (body_asks h _ [] pos) fun ⟨env, q⟩ _ _ _ => ?_
    refine .bind (f := ownedOfFields) (.of fun fs hf => build_owned ?_ hf) fun fs _ _ _ => .pure (Nat.le_refl _)
    simp only [fromBytes, List.map_map]
    have : st.members.map ((fun x : String × Loc => x.2) ∘ fun m => (m.name, Loc.mem m.name)) =
        (st.members.map (·.name)).map Loc.mem := by
      rw [List.map_map]; rfl
    rw [this]
    exact hd.map fun _ _ h => Loc.mem.inj h
  intro c a c' e
  have := key c a c' e
  dsimp only at this ⊢
  omega

theorem atom_asks (hd : MembersDistinct p) : ∀ (fuel : Nat) (a : RAtom) (k pos : Nat),
    Asks (allocAtom al p b fuel a pos) k (fun r => k + owned r.1)
  | 0, _, _, _ => .of fun _ h => by cases h
  | fuel + 1, a, k, pos => by
    cases a with
    | num prim => exact .of fun v h => by simp [readNum_owned h]
    | text => exact string_asks k pos
    | enum prim e =>
      refine .bind (f := fun _ => k) (.of fun _ _ => Nat.le_refl _) fun ⟨n, q⟩ _ _ _ => ?_
      refine .bind (f := fun _ => k) (.of fun _ _ => Nat.le_refl _) fun i _ _ _ => ?_
      refine .bind (f := fun _ => k) (.of fun _ _ => Nat.le_refl _) fun v _ _ hv => .pure ?_
      simp [checkDeclared_owned (of_ok hv)]
    | call s =>
      simp only [allocAtom]
      cases hs : p.struct? s with
      | none => exact .of fun _ h => by cases h
      | some st =>
        exact fun_asks (atom_asks hd fuel) (hd st (List.mem_append_left _ (List.mem_of_find?_eq_some hs))) k pos
    | whole s => exact .of fun _ h => by cases h

theorem read_asks (hd : MembersDistinct p) (m : String) (k pos : Nat) :
    Asks (allocRead al p m b pos) k (fun r => k + owned r.1) := by
  unfold allocRead
  cases hs : p.message? m with
  | none => exact .of fun _ h => by cases h
  | some st =>
    exact fun_asks (atom_asks hd _) (hd st (List.mem_append_right _ (List.mem_of_find?_eq_some hs))) k pos

theorem loop_asks (hd : MembersDistinct p) (max : Int) : ∀ (fuel room : Nat) (acc : List (String × Val)) (pos : Nat),
    Asks (allocLoop al p b max fuel room acc pos) (1 + acc.length + ownedOfFields acc)
      (fun r => 1 + r.1.length + ownedOfFields r.1)
  | 0, _, _, _ => .of fun _ h => by cases h
  | fuel + 1, room, acc, pos => by
    unfold allocLoop
    split
    · refine .bind (f := fun _ => 1 + acc.length + ownedOfFields acc) ?_ fun room _ _ _ => ?_
      · split
        · exact .pure (Nat.le_refl _)
        · exact .bind (.need _) fun _ _ _ _ => .pure (Nat.le_succ _)
      refine .bind (f := fun _ => 1 + acc.length + ownedOfFields acc) (.of fun _ _ => Nat.le_refl _)
        fun ⟨t, q⟩ _ _ _ => ?_
      dsimp only
      split
      · exact .pure (Nat.le_refl _)
      · split
        · exact .of fun _ h => by cases h
        · next m _ =>
          refine .bind (.need _) fun _ _ _ _ => ?_
          split
          case isFalse => exact .of fun _ h => by cases h
          refine .bind (read_asks hd m _ q) fun ⟨v, q⟩ _ _ _ => ?_
          have happ : ∀ l : List (String × Val), ownedOfFields (l ++ [(m, v)]) = ownedOfFields l + owned v := by
            intro l
            induction l with
            | nil => simp [ownedOfFields]
            | cons x l ih => simp only [List.cons_append, ownedOfFields, ih]; omega
          have := loop_asks hd max fuel room (acc ++ [(m, v)]) q
          rw [happ, List.length_append, List.length_singleton] at this
          intro c a c' e
          have := this c a c' e
          dsimp only at this ⊢
          omega
    · exact .pure (Nat.le_refl _)

/-- C51: each text and each list of a value that was read has been asked memory for. -/
theorem C51_asked (hd : MembersDistinct p) {m : String} {pos c c' : Nat} {v : Val × Nat}
    (h : allocRead al p m b pos c = (.ok v, c')) : c + owned v.1 ≤ c' := by
  have := read_asks hd m 0 pos c v c' h
  dsimp only at this
  omega

theorem process_asks (hd : MembersDistinct p) (max : Int) (pos : Nat) :
    Asks (allocProcess al p b pos max) 0 (fun r => 1 + r.1.length + ownedOfFields r.1) := by
  refine .bind (.need _) fun _ _ _ _ => ?_
  split
  · exact .pure (Nat.le_refl _)
  · exact loop_asks hd max _ _ [] _

/-- C51 for streams: there is a further request for the list of messages and one for each message. -/
theorem C51_stream_asked (hd : MembersDistinct p) {max : Int} {pos c c' : Nat} {v : List (String × Val) × Nat}
    (h : allocProcess al p b pos max c = (.ok v, c')) : c + 1 + v.1.length + ownedOfFields v.1 ≤ c' := by
  have := process_asks hd max pos c v c' h
  dsimp only at this
  omega

/-- C51 for packed messages. -/
theorem C51_unpack_asked (hd : MembersDistinct p) {pos c c' : Nat} {ms : List (String × Val)}
    (h : allocUnpack al p b pos c = (.ok ms, c')) : c + 1 + ms.length + ownedOfFields ms ≤ c' := by
  have key : Asks (allocUnpack al p b pos) 0 (fun ms => 1 + ms.length + ownedOfFields ms) := by
    refine .bind (f := fun _ => 0) (.of fun _ _ => Nat.le_refl _) fun ⟨w, _⟩ _ _ _ => ?_
    dsimp only
    split
    · exact .of fun _ h => by cases h
    refine .bind (f := fun _ => 0) (.of fun _ _ => Nat.le_refl _) fun ⟨v, q⟩ _ _ _ => ?_
    refine .bind (f := fun _ => 0) (.of fun _ _ => Nat.le_refl _) fun n _ _ _ => ?_
    refine .bind (f := fun _ => 0) (.of fun _ _ => Nat.le_refl _) fun k _ _ _ => ?_
    refine .bind (process_asks hd k q) fun ⟨ms, _⟩ _ _ _ => ?_
    dsimp only
    split
    · exact .of fun _ h => by cases h
    · exact .pure (Nat.le_refl _)
  have := key c ms c' h
  dsimp only at this
  omega

end

/-! ### Cases -/

/-- A message with a text and a list of numbers. -/
def entryDoc : Toml := .table [("messages", .arr [.table [("_name", .str "Entry"), ("title", .str "string"),
  ("ids", .str "[uint16]")]])]

/-- What it loads to. -/
def entryProtocol : Protocol where
  ns := none
  listSize := .uint32
  stringSize := .uint32
  structs := []
  messages := [⟨"Entry", [⟨"title", "string", false⟩, ⟨"ids", "uint16", true⟩], true⟩]
  enums := []

theorem entry_loads : Loads entryDoc (.ok entryProtocol) := ⟨10, rfl⟩

theorem entry_plain : NoTextLists entryProtocol := by
  unfold NoTextLists
  decide

/-- The title "Hi" and two numbers. -/
def entry : Buf := [2, 0, 0, 0, 72, 105, 2, 0, 0, 0, 1, 0, 2, 1]

/-- Two requests are made. -/
example : (allocRead (fun _ => true) entryProtocol "Entry" entry 0 0).2 = 2 := by decide +kernel

theorem entry_distinct : MembersDistinct entryProtocol := by
  unfold MembersDistinct
  decide

theorem entry_read : ∃ v, allocRead (fun _ => true) entryProtocol "Entry" entry 0 0 = (.ok (v, 14), 2) ∧ owned v = 2 :=
  ⟨_, rfl, rfl⟩

/-- There cannot be fewer. -/
example : ∃ v c', allocRead (fun _ => true) entryProtocol "Entry" entry 0 0 = (.ok v, c') ∧ 0 + owned v.1 ≤ c' :=
  let ⟨_, h, _⟩ := entry_read
  ⟨_, _, h, C51_asked entry_distinct h⟩

theorem entry_processed : ∃ v q, allocProcess (fun _ => true) entryProtocol (1 :: entry) 0 (-1) 0 =
    (.ok ([("Entry", v)], q), 4) ∧ ownedOfFields [("Entry", v)] = 2 := ⟨_, _, rfl, rfl⟩

/-- In a stream, with its list and one message, there are four. -/
example : ∃ v c', allocProcess (fun _ => true) entryProtocol (1 :: entry) 0 (-1) 0 = (.ok v, c') ∧
    0 + 1 + v.1.length + ownedOfFields v.1 ≤ c' :=
  let ⟨_, _, h, _⟩ := entry_processed
  ⟨_, _, h, C51_stream_asked entry_distinct h⟩

/-- The second one, for the list, is refused. -/
example : (allocRead (fun k => k != 1) entryProtocol "Entry" entry 0 0).1 = .error .noMemory :=
  C51_refused_partial _ _ _ _ _ _ entry_plain ⟨1, by decide, by decide +kernel, rfl⟩

/-- In a stream, the fourth one. -/
example : (allocProcess (fun k => k != 3) entryProtocol (1 :: entry) 0 (-1) 0).1 = .error .noMemory :=
  C51_stream_refused_partial _ _ _ _ _ _ entry_plain ⟨3, by decide, by decide +kernel, rfl⟩

/-- The same message, packed; the fourth request, for its list, is refused. -/
example : (allocUnpack (fun k => k != 3) entryProtocol ([66, 83, 67, 73, 1, 0, 0, 0, 1] ++ entry) 0 0).1 =
    .error .noMemory :=
  C51_unpack_refused_partial _ _ _ _ _ entry_plain ⟨3, by decide, by decide +kernel, rfl⟩

/-- A message with a list of texts. -/
def tagsDoc : Toml := .table [("messages", .arr [.table [("_name", .str "Tags"), ("tags", .str "[string]")]])]

/-- What it loads to. -/
def tagsProtocol : Protocol where
  ns := none
  listSize := .uint32
  stringSize := .uint32
  structs := []
  messages := [⟨"Tags", [⟨"tags", "string", true⟩], true⟩]
  enums := []

theorem tags_loads : Loads tagsDoc (.ok tagsProtocol) := ⟨10, rfl⟩

theorem tags_supported : C.Supported tagsProtocol where
  file := by decide
  fields := by decide
  order := by
    intro pre s post e
    simp [tagsProtocol] at e
  texts := by decide
  elements := by simp [tagsProtocol]

/-- One text, "Hi". -/
def tags : Buf := [1, 0, 0, 0, 2, 0, 0, 0, 72, 105]

/-- C51 fails for lists of texts: if the memory for their lengths is refused, reading data that is in order
stores through a null pointer. -/
theorem C51_fails : ∃ data p, Loads data (.ok p) ∧ C.Supported p ∧ ∃ al m b,
    (∃ v, C.read p m b 0 = .ok (v, b.length)) ∧ (allocRead al p m b 0 0).1 = .error (.fail .crash) :=
  ⟨_, _, tags_loads, tags_supported, fun k => k != 1, "Tags", tags, ⟨_, rfl⟩, rfl⟩

end Beschi.Props
