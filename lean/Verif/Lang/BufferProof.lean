import Verif.Lang.Buffer
/-
Writing into a buffer piece by piece stores all pieces, or fails because they do not fit.
-/
namespace Beschi.Lang

theorem store_nil {e : Fail} {buf : Buf} {off : Nat} (ho : off ≤ buf.length) :
    store e [] buf off = .ok (buf, off) := by
  rw [store, if_pos (by simpa using ho)]
  simp

theorem store_ok {e : Fail} {bs : List UInt8} {buf buf' : Buf} {off off' : Nat}
    (hp : store e bs buf off = .ok (buf', off')) :
    buf'.length = buf.length ∧ off' = off + bs.length ∧ off' ≤ buf.length ∧
      buf' = buf.take off ++ bs ++ buf.drop off' := by
  unfold store at hp
  split at hp
  · rename_i hl
    cases hp
    refine ⟨?_, rfl, hl, rfl⟩
    simp only [List.length_append, List.length_take, List.length_drop]
    omega
  · cases hp

theorem store_error {e x : Fail} {bs : List UInt8} {buf : Buf} {off : Nat}
    (hp : store e bs buf off = .error x) : x = e ∧ buf.length < off + bs.length := by
  unfold store at hp
  split at hp
  · cases hp
  · cases hp; exact ⟨rfl, by omega⟩

theorem store_append {e : Fail} {x y : List UInt8} {buf : Buf} {off : Nat} :
    store e (x ++ y) buf off = match store e x buf off with
      | .error e => .error e
      | .ok (buf, off) => store e y buf off := by
  unfold store
  by_cases hx : off + x.length ≤ buf.length
  · rw [if_pos hx]
    have hl : (buf.take off ++ x ++ buf.drop (off + x.length)).length = buf.length := by
      simp only [List.length_append, List.length_take, List.length_drop]; omega
    simp only [hl, List.length_append, ← Nat.add_assoc]
    by_cases hy : off + x.length + y.length ≤ buf.length
    · rw [if_pos hy, if_pos hy]
      have h1 : (buf.take off ++ x).length = off + x.length := by
        simp only [List.length_append, List.length_take]; omega
      have e1 : List.take (off + x.length) (buf.take off ++ x ++ buf.drop (off + x.length)) =
          buf.take off ++ x := by rw [List.take_left' h1]
      have e2 : List.drop (off + x.length + y.length)
          (buf.take off ++ x ++ buf.drop (off + x.length)) = buf.drop (off + x.length + y.length) := by
        rw [← List.drop_drop, List.drop_left' h1, List.drop_drop]
      rw [e1, e2]
      simp
    · rw [if_neg hy, if_neg hy]
  · rw [if_neg hx, if_neg (by simp only [List.length_append]; omega)]

/-- Piece by piece is the same as all at once. -/
theorem fill_eq {e : Fail} : ∀ {cs : List (List UInt8)} {buf : Buf} {off : Nat}, off ≤ buf.length →
    fill e cs buf off = store e cs.flatten buf off
  | [], buf, off, ho => by rw [fill, List.flatten_nil, store_nil ho]
  | c :: cs, buf, off, ho => by
    rw [fill, List.flatten_cons, store_append]
    cases hp : store e c buf off with
    | error x => rfl
    | ok r =>
      obtain ⟨buf', off'⟩ := r
      obtain ⟨h1, h2, h3, _⟩ := store_ok hp
      exact fill_eq (by omega)

theorem store_exact {e : Fail} {n : Nat} {bs : List UInt8} (hn : bs.length = n) :
    store e bs (List.replicate n 0) 0 = .ok (bs, n) := by
  rw [store, if_pos (by simp [hn])]
  simp [hn]

theorem store_keeps {e : Fail} {bs : List UInt8} {buf buf' : Buf} {off off' : Nat}
    (h : store e bs buf off = .ok (buf', off')) {k : Nat} (hk : k ≤ off) : buf'.take k = buf.take k := by
  obtain ⟨_, h2, h3, rfl⟩ := store_ok h
  rw [List.append_assoc, List.take_append_of_le_length (by rw [List.length_take]; omega),
    List.take_take, Nat.min_eq_left hk]

/-- Whatever happens, the buffer keeps its length and everything before the starting position. -/
theorem fillState_keeps {e : Fail} : ∀ (cs : List (List UInt8)) (buf : Buf) (off : Nat),
    (fillState e cs buf off).1.length = buf.length ∧
      ∀ k ≤ off, (fillState e cs buf off).1.take k = buf.take k
  | [], buf, off => ⟨rfl, fun _ _ => rfl⟩
  | c :: cs, buf, off => by
    unfold fillState
    cases h : store e c buf off with
    | error x => exact ⟨rfl, fun _ _ => rfl⟩
    | ok r =>
      obtain ⟨buf', off'⟩ := r
      obtain ⟨h1, h2, _⟩ := store_ok h
      obtain ⟨i1, i2⟩ := fillState_keeps cs buf' off' (e := e)
      exact ⟨i1.trans h1, fun k hk => (i2 k (by omega)).trans (store_keeps h hk)⟩

theorem fillState_fill {e : Fail} : ∀ (cs : List (List UInt8)) (buf : Buf) (off : Nat),
    match fill e cs buf off with
    | .ok r => fillState e cs buf off = (r.1, .ok r.2)
    | .error x => (fillState e cs buf off).2 = .error x
  | [], buf, off => rfl
  | c :: cs, buf, off => by
    unfold fill fillState
    cases h : store e c buf off with
    | error x => rfl
    | ok r => exact fillState_fill cs r.1 r.2

/-- Writing into a buffer with room. -/
theorem fillState_room {e : Fail} {cs : List (List UInt8)} {buf : Buf} {off : Nat}
    (h : off + cs.flatten.length ≤ buf.length) : fillState e cs buf off =
      (buf.take off ++ cs.flatten ++ buf.drop (off + cs.flatten.length), .ok (off + cs.flatten.length)) := by
  have := fillState_fill (e := e) cs buf off
  rw [fill_eq (by omega), store, if_pos h] at this
  exact this

/-- Writing into a buffer without room. -/
theorem fillState_full {e : Fail} {cs : List (List UInt8)} {buf : Buf} {off : Nat}
    (ho : off ≤ buf.length) (h : buf.length < off + cs.flatten.length) :
    (fillState e cs buf off).2 = .error e := by
  have := fillState_fill (e := e) cs buf off
  rw [fill_eq ho, store, if_neg (by omega)] at this
  exact this

end Beschi.Lang
