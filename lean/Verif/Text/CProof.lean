import Verif.Text.C
import Verif.Text.Rules
/-
The functions that write C end without an exception, at the level at which they start, and with
matched brackets.
-/
namespace Beschi.Text.C
open Spec

variable {b : Bool} {w : Writer}

/-- Digits. -/
theorem takeDigits_spec (cs : List Char) : (takeDigits cs).1 ++ (takeDigits cs).2 = cs ∧
    ∀ c ∈ (takeDigits cs).1, c.isDigit = true := by
  induction cs with
  | nil => simp [takeDigits]
  | cons c cs ih =>
    rw [takeDigits]
    split
    · rename_i h
      refine ⟨by simp [ih.1], fun x hx => ?_⟩
      rcases List.mem_cons.1 hx with rfl | hx
      · exact h
      · exact ih.2 x hx
    · simp

/-- The parts of a name with an index. -/
theorem indexed_spec {s n i : String} (h : indexed s = some (n, i)) :
    ∃ ds : List Char, s = n ++ "[" ++ i ++ "]" ∧ i = String.ofList ('i' :: ds) ∧ ∀ c ∈ ds, c.isDigit = true := by
  unfold indexed at h
  split at h
  · rename_i cs hs
    have hd := takeDigits_spec cs
    split at h
    · cases h
    · rename_i ds rest _ ht
      rw [ht] at hd
      cases h
      refine ⟨ds.reverse, ?_, rfl, fun c hc => hd.2 c (List.mem_reverse.1 hc)⟩
      have : s.toList = (']' :: cs).reverse := by rw [← hs, List.reverse_reverse]
      rw [← String.toList_inj, this, ← hd.1]
      simp
    · cases h
  · cases h

theorem closed_digits {ds : List Char} (h : ∀ c ∈ ds, c.isDigit = true) : Closed b (String.ofList ('i' :: ds)) :=
  closed_of_noBrackets fun _ c hc hb => by
    rw [String.toList_ofList] at hc
    have hd : c = 'i' ∨ c.isDigit = true := (List.mem_cons.1 hc).imp id (h c)
    simp only [Spec.brackets, List.mem_cons, List.not_mem_nil, or_false] at hb
    rcases hb with rfl | rfl | rfl | rfl | rfl | rfl <;> exact absurd hd (by decide)

theorem indexed_closed {s n i : String} (h : indexed s = some (n, i)) (hs : Closed b s) : Closed b n ∧ Closed b i := by
  obtain ⟨ds, rfl, rfl, hd⟩ := indexed_spec h
  refine ⟨fun e S => ?_, closed_digits hd⟩
  have hi : Closed b (String.ofList ('i' :: ds)) := closed_digits hd
  have hb : Closed b ("[" ++ String.ofList ('i' :: ds) ++ "]") := by closed
  have h1 := hs e S
  rw [String.append_assoc, String.append_assoc, ← String.append_assoc (s₁ := "["), String.toList_append, scan_append] at h1
  cases hn : scan S n.toList with
  | none => rw [hn] at h1; cases h1
  | some T => rw [hn] at h1; exact (hb e T).symm.trans h1

macro_rules | `(tactic| closed_leaf) => `(tactic| exact And.left (indexed_closed here% (by closed)))
macro_rules | `(tactic| closed_leaf) => `(tactic| exact And.right (indexed_closed here% (by closed)))

theorem errCheckReturn_runs (g : Good b w) (c : Int) : Runs b c 0 [] 0 [] Any (errCheckReturn w) := by
  unfold errCheckReturn
  follow

theorem deserializer_inner (g : Good b w) (cd : Coded w) (fuel : Nat) {n t : String} (hk : KnownType w.p t) (hn : Closed b n)
    {acc : String} (ha : Closed b acc) (c : Int) : Runs b c 0 [] 0 [] Any (deserializer w (fuel + 1) ⟨n, t, false⟩ acc) := by
  rw [deserializer, if_neg (by simp)]
  follow [errCheckReturn_runs here%]

theorem deserializer_runs (g : Good b w) (cd : Coded w) {v : Variable} (hk : KnownType w.p v.vartype) (hn : Closed b v.name)
    {acc : String} (ha : Closed b acc) (c : Int) : Runs b c 0 [] 0 [] Any (deserializer w w.p.depth v acc) := by
  cases hl : v.isList with
  | false => obtain ⟨n, t, l⟩ := v; cases hl; exact deserializer_inner g cd _ hk hn ha c
  | true =>
    unfold Protocol.depth
    rw [deserializer, if_pos hl]
    follow [errCheckReturn_runs here%, deserializer_inner here% here% _ here% (by closed) (by closed)]

theorem serializer_inner (g : Good b w) (cd : Coded w) (fuel : Nat) {n t : String} (hk : KnownType w.p t) (hn : Closed b n)
    {acc : String} (ha : Closed b acc) (c : Int) : Runs b c 0 [] 0 [] Any (serializer w (fuel + 1) ⟨n, t, false⟩ acc) := by
  rw [serializer, if_neg (by simp)]
  follow [errCheckReturn_runs here%]

theorem serializer_runs (g : Good b w) (cd : Coded w) {v : Variable} (hk : KnownType w.p v.vartype) (hn : Closed b v.name)
    {acc : String} (ha : Closed b acc) (c : Int) : Runs b c 0 [] 0 [] Any (serializer w w.p.depth v acc) := by
  cases hl : v.isList with
  | false => obtain ⟨n, t, l⟩ := v; cases hl; exact serializer_inner g cd _ hk hn ha c
  | true =>
    unfold Protocol.depth
    rw [serializer, if_pos hl]
    follow [errCheckReturn_runs here%, serializer_inner here% here% _ here% (by closed) (by closed)]

theorem genMeasurement_step (g : Good b w) (cd : Coded w) {fuel : Nat} {s : Struct} (hs : s ∈ w.p.structs ++ w.p.messages)
    (ih : ∀ {v s' acc}, v ∈ s.members → s' ∈ w.p.structs → w.p.struct? v.vartype = some s' → Closed b acc →
      ∀ c, Runs b c 0 [] 0 [] (fun x => Texts b x.1) (genMeasurement w fuel s' acc))
    {acc : String} (ha : Closed b acc) (c : Int) :
    Runs b c 0 [] 0 [] (fun x => Texts b x.1) (genMeasurement w (fuel + 1) s acc) := by
  rw [genMeasurement]
  follow [ih here% here% here% (by closed)]

theorem genMeasurement_runs (g : Good b w) (cd : Coded w) (fuel : Nat) {s : Struct} (hs : s ∈ w.p.structs ++ w.p.messages)
    (hf : ∀ v ∈ s.members, fits w.p fuel v.vartype) {acc : String} (ha : Closed b acc) (c : Int) :
    Runs b c 0 [] 0 [] (fun x => Texts b x.1) (genMeasurement w (fuel + 1) s acc) := by
  induction fuel generalizing s acc c with
  | zero => exact genMeasurement_step g cd hs (fun hv _ he _ => absurd (he.symm.trans (hf _ hv)) (by simp)) ha c
  | succ fuel ih => exact genMeasurement_step g cd hs (fun hv hs' he ha => ih (by simp [hs']) (hf _ hv _ he) ha) ha c

theorem genMeasurement_depth (g : Good b w) (cd : Coded w) {s : Struct} (hs : s ∈ w.p.structs ++ w.p.messages)
    {acc : String} (ha : Closed b acc) (c : Int) :
    Runs b c 0 [] 0 [] (fun x => Texts b x.1) (genMeasurement w w.p.depth s acc) :=
  genMeasurement_runs g cd _ hs (fun v _ => fits_succ (g.usable.fits v.vartype)) ha c

/-- The defaults are there for all numbers. -/
def Defaulted (w : Writer) : Prop := ∀ n : NumTy, (w.defaults.lookup n.name).isSome = true

theorem struct_default (g : Good b w) (df : Defaulted w) {v : Variable} (h : KnownType w.p v.vartype)
    (hn : ¬ (w.defaults.lookup v.vartype).isSome = true) (ht : ¬ (v.vartype == "string") = true)
    (he : ¬ w.p.isEnum v.vartype = true) :
    Has (fun s => s ∈ w.p.structs ∧ w.p.struct? v.vartype = some s) (w.struct v.vartype) := by
  refine g.struct_left h (fun hm => ?_) ht he
  unfold Writer.isNum at hm
  obtain ⟨n, hm⟩ := Option.isSome_iff_exists.1 hm
  exact hn (ofName?_some hm ▸ df n)

macro_rules | `(tactic| look) => `(tactic| exact struct_default here% here% (Good.memberType here% here% here%) here% here% here%)
macro_rules | `(tactic| look) => `(tactic| exact has_of_isSome (Good.defaults here%) here%)

theorem genDefault_step (g : Good b w) (df : Defaulted w) {fuel : Nat} {s : Struct} (hs : s ∈ w.p.structs ++ w.p.messages)
    (ih : ∀ {v s'}, v ∈ s.members → s' ∈ w.p.structs → w.p.struct? v.vartype = some s' →
      ∀ c, Runs b c 0 [] 0 [] Any (genDefault w fuel s'.members)) (c : Int) :
    Runs b c 0 [] 0 [] Any (genDefault w (fuel + 1) s.members) := by
  rw [genDefault]
  follow [ih here% here% here%]

theorem genDefault_runs (g : Good b w) (df : Defaulted w) (fuel : Nat) {s : Struct} (hs : s ∈ w.p.structs ++ w.p.messages)
    (hf : ∀ v ∈ s.members, fits w.p fuel v.vartype) (c : Int) :
    Runs b c 0 [] 0 [] Any (genDefault w (fuel + 1) s.members) := by
  induction fuel generalizing s c with
  | zero => exact genDefault_step g df hs (fun hv _ he => absurd (he.symm.trans (hf _ hv)) (by simp)) c
  | succ fuel ih => exact genDefault_step g df hs (fun hv hs' he => ih (by simp [hs']) (hf _ hv _ he)) c

theorem genDefault_depth (g : Good b w) (df : Defaulted w) {s : Struct} (hs : s ∈ w.p.structs ++ w.p.messages) (c : Int) :
    Runs b c 0 [] 0 [] Any (genDefault w w.p.depth s.members) :=
  genDefault_runs g df _ hs (fun v _ => fits_succ (g.usable.fits v.vartype)) c

theorem destructor_step (g : Good b w) {fuel : Nat} {v : Variable} (hk : KnownType w.p v.vartype) (hn : Closed b v.name)
    (hl : ¬ v.isList = true)
    (ih : ∀ {s' v' acc}, s' ∈ w.p.structs → w.p.struct? v.vartype = some s' → v' ∈ s'.members → Closed b acc →
      ∀ c, Runs b c 0 [] 0 [] Any (destructor w fuel v' acc))
    {acc : String} (ha : Closed b acc) (c : Int) : Runs b c 0 [] 0 [] Any (destructor w (fuel + 1) v acc) := by
  rw [destructor]
  follow [ih here% here% here% (by closed)]

theorem destructor_list (g : Good b w) {fuel : Nat} {v : Variable} (hk : KnownType w.p v.vartype) (hn : Closed b v.name)
    (hl : v.isList = true)
    (ih : ∀ {n acc}, Closed b n → Closed b acc → ∀ c, Runs b c 0 [] 0 [] Any (destructor w fuel ⟨n, v.vartype, false⟩ acc))
    {acc : String} (ha : Closed b acc) (c : Int) : Runs b c 0 [] 0 [] Any (destructor w (fuel + 1) v acc) := by
  rw [destructor]
  follow [ih (by closed) (by closed)]

/-- Enough fuel: two calls for each struct inside another. -/
theorem destructor_fuel (g : Good b w) (k : Nat) : ∀ {v : Variable} (_ : KnownType w.p v.vartype) (_ : Closed b v.name)
    (_ : fits w.p k v.vartype) {acc : String} (_ : Closed b acc) (m : Nat) (c : Int),
    (v.isList = false → 2 * k + 1 ≤ m → Runs b c 0 [] 0 [] Any (destructor w m v acc)) ∧
    (2 * k + 2 ≤ m → Runs b c 0 [] 0 [] Any (destructor w m v acc)) := by
  have both : ∀ (k : Nat) (single : ∀ {v : Variable} (_ : KnownType w.p v.vartype) (_ : Closed b v.name)
      (_ : fits w.p k v.vartype) {acc : String} (_ : Closed b acc) (m : Nat) (c : Int),
      v.isList = false → 2 * k + 1 ≤ m → Runs b c 0 [] 0 [] Any (destructor w m v acc)) {v : Variable}
      (_ : KnownType w.p v.vartype) (_ : Closed b v.name)
      (_ : fits w.p k v.vartype) {acc : String} (_ : Closed b acc) (m : Nat) (c : Int),
      (v.isList = false → 2 * k + 1 ≤ m → Runs b c 0 [] 0 [] Any (destructor w m v acc)) ∧
      (2 * k + 2 ≤ m → Runs b c 0 [] 0 [] Any (destructor w m v acc)) := by
    intro k single v hk hn hf acc ha m c
    refine ⟨single hk hn hf ha m c, fun hm => ?_⟩
    cases hl : v.isList with
    | false => exact single hk hn hf ha m c hl (by omega)
    | true =>
      obtain ⟨m, rfl⟩ : ∃ m', m = m' + 1 := ⟨m - 1, by omega⟩
      exact destructor_list g hk hn hl (fun hn' ha' c => single (v := ⟨_, v.vartype, false⟩) hk hn' hf ha' m c rfl (by omega)) ha c
  induction k with
  | zero =>
    intro v0 h1 h2 h3 acc0 h4 m0 c0
    refine both _ (fun {v} hk hn hf acc ha m c hl hm => ?_) h1 h2 h3 h4 m0 c0
    obtain ⟨m, rfl⟩ : ∃ m', m = m' + 1 := ⟨m - 1, by omega⟩
    exact destructor_step g hk hn (by simp [hl]) (fun _ he => absurd (he.symm.trans hf) (by simp)) ha c
  | succ k ih =>
    intro v0 h1 h2 h3 acc0 h4 m0 c0
    refine both _ (fun {v} hk hn hf acc ha m c hl hm => ?_) h1 h2 h3 h4 m0 c0
    obtain ⟨m, rfl⟩ : ∃ m', m = m' + 1 := ⟨m - 1, by omega⟩
    refine destructor_step g hk hn (by simp [hl]) (fun {s' v' acc'} hs he hv ha c => ?_) ha c
    have hs' : s' ∈ w.p.structs ++ w.p.messages := by simp [hs]
    exact (ih (g.memberType hv hs') (g.memberName hv hs') (hf _ he v' hv) ha m c).2 (by omega)

theorem destructor_runs (g : Good b w) {v : Variable} (hk : KnownType w.p v.vartype) (hn : Closed b v.name)
    {acc : String} (ha : Closed b acc) (c : Int) : Runs b c 0 [] 0 [] Any (destructor w (2 * w.p.depth) v acc) :=
  (destructor_fuel g w.p.structs.length hk hn (g.usable.fits v.vartype) ha _ c).2 (by unfold Protocol.depth; omega)

theorem genEnum_runs (g : Good b w) {e : Enum} (h : e ∈ w.p.enums) (c : Int) :
    Runs b c 0 [] 0 [] Any (genEnum w e.name e) := by
  unfold genEnum
  follow

theorem genEnumImplementation_runs (g : Good b w) {e : Enum} (h : e ∈ w.p.enums) (c : Int) :
    Runs b c 0 [] 0 [] Any (genEnumImplementation w e.name e) := by
  unfold genEnumImplementation
  follow

theorem genStruct_runs (g : Good b w) {s : Struct} (hs : s ∈ w.p.structs ++ w.p.messages) (c : Int) :
    Runs b c 0 [] 0 [] Any (genStruct w s.name s) := by
  unfold genStruct
  follow

theorem genImplementation_runs (g : Good b w) (cd : Coded w) (df : Defaulted w) {s : Struct}
    (hs : s ∈ w.p.structs ++ w.p.messages) (c : Int) :
    Runs b c 0 [] 0 [] Any (genImplementation w s.name s) := by
  unfold genImplementation
  follow [errCheckReturn_runs here%, genDefault_depth here% here% here%, genMeasurement_depth here% here% here% (by closed),
    deserializer_runs here% here% (Good.memberType here% here% here%) (by closed) (by closed),
    serializer_runs here% here% (Good.memberType here% here% here%) (by closed) (by closed),
    destructor_runs here% (Good.memberType here% here% here%) (by closed) (by closed)]

/-- The first file opens a block that the second one closes. -/
structure OpenClose (b : Bool) (w : Writer) : Prop where
  opens : BumpLines b [] ['}'] (w.boilerplate 0)
  closes : BumpLines b ['}'] [] (w.boilerplate 1)
  ends : ClosedLines b (w.boilerplate 2)

theorem boilerplate0 {c : Int} {i : Nat} {S : List Char} {subs : List (String × Sub)} (g : Good b w) (h : OpenClose b w)
    (hs : SubsClosed b subs) : Runs b c i S i ('}' :: S) Any (w.addBoilerplate subs 0) :=
  runs_boilerplate g.tab g.nativeTab hs fun e R => h.opens e (S ++ R)

theorem boilerplate1 {c : Int} {i : Nat} {S : List Char} {subs : List (String × Sub)} (g : Good b w) (h : OpenClose b w)
    (hs : SubsClosed b subs) : Runs b c i ('}' :: S) i S Any (w.addBoilerplate subs 1) :=
  runs_boilerplate g.tab g.nativeTab hs fun e R => h.closes e (S ++ R)

theorem boilerplate2 {c : Int} {i : Nat} {S : List Char} {subs : List (String × Sub)} (g : Good b w) (h : OpenClose b w)
    (hs : SubsClosed b subs) : Runs b c i S i S Any (w.addBoilerplate subs 2) :=
  runs_boilerplate g.tab g.nativeTab hs (h.ends.bump S)

macro_rules | `(tactic| call) => `(tactic| first
  | exact boilerplate0 here% here% (by subs)
  | exact boilerplate1 here% here% (by subs)
  | exact boilerplate2 here% here% (by subs))

set_option maxRecDepth 10000 in
theorem generate_runs (g : Good b w) (cd : Coded w) (df : Defaulted w) (hb : OpenClose b w) (hs : SubsClosed b w.subs) :
    Runs b 0 0 [] 0 [] Any (generate w) := by
  unfold generate
  follow [errCheckReturn_runs here%, genEnum_runs here% here%, genEnumImplementation_runs here% here%,
    genStruct_runs here% (List.mem_append_left _ here%), genStruct_runs here% (List.mem_append_right _ here%),
    genImplementation_runs here% here% here% (List.mem_append_left _ here%),
    genImplementation_runs here% here% here% (List.mem_append_right _ here%)]

end Beschi.Text.C
