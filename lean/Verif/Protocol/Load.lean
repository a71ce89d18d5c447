import Verif.Protocol.Basic
/-
`Protocol.__init__` (beschi/protocol.py L118-255), function by function.
-/
namespace Beschi

/-- Dictionary lookup in a table. -/
def Toml.get? (kvs : List (String × Toml)) (k : String) : Option Toml :=
  (kvs.find? (·.1 == k)).map (·.2)

/-- `string.whitespace` (protocol.py L33-34). -/
def whitespaceChars : List Char := [' ', '\t', '\n', '\r', '\x0b', '\x0c']

/-- `_contains_whitespace` (protocol.py L33-34) on a string. -/
def containsWhitespace (s : String) : Bool := s.toList.any (fun c => whitespaceChars.contains c)

/-- RESERVED_WORDS (protocol.py L31). -/
def reservedWords : List String := NumTy.all.map NumTy.name ++ ["string", "list"]

/-- `s.lower()` restricted to ASCII letters (protocol.py L190, L215).  Python lower-cases all of
Unicode; the only non-ASCII character whose lower case is an ASCII letter alone is the Kelvin sign
(to `k`), and no reserved word contains `k`, so the membership test below is exact. -/
def asciiLower (s : String) : String := String.ofList (s.toList.map Char.toLower)

/-- `name.lower() in RESERVED_WORDS` (protocol.py L190, L215). -/
def isReserved (s : String) : Bool := reservedWords.contains (asciiLower s)

/-- `valid_sizes` (protocol.py L137). -/
def validSizes : List NumTy := [.byte, .uint16, .int16, .uint32, .int32, .uint64, .int64]

/-- The size-type checks (protocol.py L138-145): only strings in `valid_sizes` pass. -/
def parseSize (t : Toml) : Option NumTy :=
  match t with
  | .str s => match NumTy.ofName? s with
    | some n => if validSizes.contains n then some n else none
    | none => none
  | _ => none

/-- Substring test `key in s` for strings (protocol.py L133, L138, L142 when `meta` is a string). -/
def isInfix (k : List Char) : List Char → Bool
  | [] => k.isEmpty
  | c :: cs => k.isPrefixOf (c :: cs) || isInfix k cs

/-- `key in protocol_data["meta"]` followed by the access (protocol.py L133-145).  A table is
looked up; for an array or a string `in` tests membership and the access then raises TypeError;
other values are not containers.  `none` in the result means the key is absent. -/
def metaGet (m : Toml) (key : String) : Except LoadErr (Option Toml) :=
  match m with
  | .table kvs => .ok (Toml.get? kvs key)
  | .arr l => if l.any (fun e => match e with | .str s => s == key | _ => false)
      then .error .metaShape else .ok none
  | .str s => if isInfix key.toList s.toList then .error .metaShape else .ok none
  | _ => .error .metaShape

/-- The namespace check (protocol.py L133-136).  Strings are searched for whitespace characters;
arrays and tables are searched for whitespace elements/keys; numbers raise TypeError. -/
def checkNamespace (t : Toml) : Except LoadErr Toml :=
  match t with
  | .str s => if containsWhitespace s then .error .namespaceWhitespace else .ok t
  | .arr l => if l.any (fun e => match e with
        | .str s => whitespaceChars.any (fun c => s == String.ofList [c]) | _ => false)
      then .error .namespaceWhitespace else .ok t
  | .table kvs => if kvs.any (fun e => whitespaceChars.any (fun c => e.1 == String.ofList [c]))
      then .error .namespaceWhitespace else .ok t
  | _ => .error .namespaceShape

/-- The namespace part of the `meta` section (protocol.py L133-136). -/
def metaNamespace (m : Toml) : Except LoadErr (Option Toml) :=
  match metaGet m "namespace" with
  | .error e => .error e
  | .ok none => .ok none
  | .ok (some t) => some <$> checkNamespace t

/-- One size type of the `meta` section, with its default `uint32` (protocol.py L121-122,
L138-145). -/
def metaSize (m : Toml) (key : String) (err : LoadErr) : Except LoadErr NumTy :=
  match metaGet m key with
  | .error e => .error e
  | .ok none => .ok .uint32
  | .ok (some t) => match parseSize t with
    | some n => .ok n
    | none => .error err

/-- The `meta` section (protocol.py L132-145): namespace, list size type, string size type. -/
def loadMeta (data : List (String × Toml)) : Except LoadErr Protocol :=
  match Toml.get? data "meta" with
  | none => .ok {}
  | some m => do
    let ns ← metaNamespace m
    let ls ← metaSize m "list_size_type" .badListSize
    let ss ← metaSize m "string_size_type" .badStringSize
    .ok { ns := ns, listSize := ls, stringSize := ss }

/-- The loop source `for x in protocol_data[key]` (protocol.py L147-149, L169, L174, L179), with
the default `[]`.  A table or string iterates over strings, none of which is a table; that is
represented by returning its keys or characters as strings. -/
def sectionItems (data : List (String × Toml)) (key : String) : Except LoadErr (List Toml) :=
  match Toml.get? data key with
  | none => .ok []
  | some (.arr l) => .ok l
  | some (.table kvs) => .ok (kvs.map (fun e => .str e.1))
  | some (.str s) => .ok (s.toList.map (fun c => .str (String.ofList [c])))
  | some _ => .error (.notIterable key)

/-- `x[0] == "[" and x[-1] == "]"` on a non-empty string (protocol.py L158, L160). -/
def isBracketed (s : String) : Bool := s.toList.head? == some '[' && s.toList.getLast? == some ']'

/-- `x[1:-1]` (protocol.py L159). -/
def stripBrackets (s : String) : String := String.ofList (s.toList.drop 1).dropLast

/-- One member declaration (protocol.py L156-165); `none` for names starting with `_`.
Indexing an empty string raises IndexError.  Simplification: a member type that is not a string
raises at once; Python raises for each of these too, for arrays possibly only in
`validate_struct` (unknown type or unhashable), so the description is rejected either way. -/
def buildMember (varName : String) (varType : Toml) : Except LoadErr (Option Variable) :=
  if varName.toList.head? == some '_' then .ok none else
  match varType with
  | .str s =>
    if s.toList.isEmpty then .error (.emptyMemberType varName)
    else if isBracketed s then
      let listed := stripBrackets s
      if listed.toList.isEmpty then .error (.emptyMemberType varName)
      else if isBracketed listed then .error (.listOfLists varName)
      else .ok (some { name := varName, vartype := listed, isList := true })
    else .ok (some { name := varName, vartype := s, isList := false })
  | _ => .error (.memberTypeShape varName)

/-- The member loop of `build_struct` (protocol.py L156-166). -/
def buildMembers : List (String × Toml) → Except LoadErr (List Variable)
  | [] => .ok []
  | (n, t) :: rest => do
    let v? ← buildMember n t
    let vs ← buildMembers rest
    match v? with
    | some v => .ok (v :: vs)
    | none => .ok vs

/-- `build_struct` (protocol.py L151-167).  Simplification: data that is not a table, or a `_name`
that is not a string, raises at once (in Python a non-string `_name` raises at the latest in
`validate_struct` at `len(s.name)`). -/
def buildStruct (data : Toml) (isMessage : Bool) : Except LoadErr Struct :=
  match data with
  | .table kvs =>
    match Toml.get? kvs "_name" with
    | none => .error .missingName
    | some (.str n) => do
      let ms ← buildMembers kvs
      .ok { name := n, members := ms, isMessage := isMessage }
    | some _ => .error .nameNotString
  | _ => .error .entryShape

/-- The struct loop (protocol.py L169-173). -/
def loadStructs : List Toml → Protocol → Except LoadErr Protocol
  | [], p => .ok p
  | d :: rest, p => do
    let s ← buildStruct d false
    if p.isStruct s.name then .error (.duplicateStruct s.name)
    else loadStructs rest { p with structs := p.structs ++ [s] }

/-- The message loop (protocol.py L174-178). -/
def loadMessages : List Toml → Protocol → Except LoadErr Protocol
  | [], p => .ok p
  | d :: rest, p => do
    let s ← buildStruct d true
    if p.isMessageName s.name then .error (.duplicateMessage s.name)
    else loadMessages rest { p with messages := p.messages ++ [s] }

/-- `d[k] = v` on an insertion-ordered dictionary (protocol.py L91, L187): an existing key keeps
its place and gets the new value. -/
def dictSet {β : Type} (k : String) (v : β) : List (String × β) → List (String × β)
  | [] => [(k, v)]
  | (k', v') :: rest => if k' == k then (k', v) :: rest else (k', v') :: dictSet k v rest

/-- `all(isinstance(entry, str) for entry in value_spec)` with the names (protocol.py L70). -/
def allStrings : List Toml → Option (List String)
  | [] => some []
  | .str s :: rest => (allStrings rest).map (s :: ·)
  | _ :: _ => none

/-- `all(isinstance(entry, dict) ...)` (protocol.py L75). -/
def allTables : List Toml → Option (List (List (String × Toml)))
  | [] => some []
  | .table kvs :: rest => (allTables rest).map (kvs :: ·)
  | _ :: _ => none

/-- `dict((entry, idx) for idx, entry in enumerate(value_spec))` (protocol.py L74). -/
def enumerateFrom (i : Nat) : List String → List (String × Int)
  | [] => []
  | s :: rest => (s, (i : Int)) :: enumerateFrom (i + 1) rest

/-- One entry of a table-form enum (protocol.py L80-90). -/
def enumEntry (kvs : List (String × Toml)) : Except LoadErr (String × Int) :=
  match Toml.get? kvs "_name" with
  | none => .error .enumEntryMissingName
  | some (.str n) =>
    match Toml.get? kvs "_value" with
    | none => .error .enumEntryMissingValue
    | some (.int i) => .ok (n, i)
    | some _ => .error .enumEntryValueNotInt
  | some _ => .error .enumEntryNameNotString

/-- The loop over table entries (protocol.py L78-92). -/
def enumEntries : List (List (String × Toml)) → List (String × Int) →
    Except LoadErr (List (String × Int))
  | [], od => .ok od
  | kvs :: rest, od => do
    let (n, i) ← enumEntry kvs
    enumEntries rest (dictSet n i od)

/-- `min`/`max` over the values (protocol.py L94-95): `none` for an empty list. -/
def minValue : List Int → Option Int
  | [] => none
  | x :: xs => some (xs.foldl min x)
/-- See `minValue`. -/
def maxValue : List Int → Option Int
  | [] => none
  | x :: xs => some (xs.foldl max x)

/-- `NUMERIC_TYPE_RANGES[opt][0] <= min and max <= NUMERIC_TYPE_RANGES[opt][1]` (protocol.py L99). -/
def fitsRange (lo hi : Int) (opt : NumTy) : Bool :=
  match opt.range? with
  | some (a, b) => decide (lo ≥ a) && decide (hi ≤ b)
  | none => false

/-- The first-fit loop over `["byte", "int16", "int32"]` (protocol.py L97-103). -/
def pickEncoding (lo hi : Int) : Option NumTy := [NumTy.byte, .int16, .int32].find? (fitsRange lo hi)

/-- Values of an enum from its value list (protocol.py L67-92). -/
def enumValues (name : String) (spec : List Toml) : Except LoadErr (List (String × Int)) :=
  match allStrings spec with
  | some names => if names.Nodup then .ok (enumerateFrom 0 names)
      else .error (.enumDuplicateValueName name)
  | none => match allTables spec with
    | some tables => enumEntries tables []
    | none => .error (.enumMixed name)

/-- `Enum.__init__` (protocol.py L66-103).  `min()` of an empty dictionary raises ValueError. -/
def buildEnum (name : String) (spec : List Toml) : Except LoadErr Enum := do
  let values ← enumValues name spec
  match minValue (values.map (·.2)), maxValue (values.map (·.2)) with
  | some lo, some hi => match pickEncoding lo hi with
    | some enc => .ok { name := name, values := values, encoding := enc }
    | none => .error (.enumOutOfRange name)
  | _, _ => .error (.enumEmpty name)

/-- One `[[enums]]` entry (protocol.py L179-186).  Non-string names raise at the latest in
`validate_enum`; here at once. -/
def loadEnumEntry (data : Toml) : Except LoadErr Enum :=
  match data with
  | .table kvs =>
    match Toml.get? kvs "_name" with
    | none => .error .missingName
    | some nameT => match Toml.get? kvs "_values" with
      | none => .error .missingValues
      | some (.arr l) => match nameT with
        | .str n => buildEnum n l
        | _ => .error .nameNotString
      | some _ => .error .valuesNotList
  | _ => .error .entryShape

/-- `self.enums[e.name] = e` (protocol.py L187): an enum with the same name is replaced in place. -/
def setEnum (e : Enum) : List Enum → List Enum
  | [] => [e]
  | e' :: rest => if e'.name == e.name then e :: rest else e' :: setEnum e rest

/-- The enum loop (protocol.py L179-187). -/
def loadEnums : List Toml → Protocol → Except LoadErr Protocol
  | [], p => .ok p
  | d :: rest, p => do
    let e ← loadEnumEntry d
    loadEnums rest { p with enums := setEnum e p.enums }

/-- `var.vartype in valid_types` (protocol.py L222-223). -/
def validType (p : Protocol) (t : String) : Bool :=
  p.isStruct t || p.isEnum t || (NumTy.ofName? t).isSome || t == "string"

/-- The member loop of `validate_struct` (protocol.py L219-228). -/
def validateMembers (p : Protocol) (s : Struct) : List Variable → Except LoadErr Unit
  | [] => .ok ()
  | v :: rest =>
    if containsWhitespace v.name then .error (.whitespaceMember v.name)
    else if !validType p v.vartype then
      if s.isMessage && p.isMessageName v.vartype then .error (.messageInMessage s.name v.vartype)
      else .error (.unknownType s.name v.vartype)
    else validateMembers p s rest

/-- `validate_struct` (protocol.py L208-228). -/
def validateStruct (p : Protocol) (s : Struct) : Except LoadErr Unit :=
  if s.name.toList.isEmpty then .error .emptyName
  else if containsWhitespace s.name then .error (.whitespaceName s.name)
  else if isReserved s.name then .error (.reservedName s.name)
  else if s.isMessage && p.isStruct s.name then .error (.messageShadowsStruct s.name)
  else validateMembers p s s.members

/-- The value-name loop of `validate_enum` (protocol.py L200-206). -/
def validateEnumNames (p : Protocol) (e : Enum) : List (String × Int) → Except LoadErr Unit
  | [] => .ok ()
  | (v, _) :: rest =>
    if p.isStruct v then .error (.enumValueShadowsStruct e.name v)
    else if p.isMessageName v then .error (.enumValueShadowsMessage e.name v)
    else if containsWhitespace v then .error (.enumValueWhitespace e.name v)
    else validateEnumNames p e rest

/-- `validate_enum` (protocol.py L189-206). -/
def validateEnum (p : Protocol) (e : Enum) : Except LoadErr Unit :=
  if e.name.toList.isEmpty then .error .emptyName
  else if containsWhitespace e.name then .error (.whitespaceName e.name)
  else if isReserved e.name then .error (.reservedName e.name)
  else if e.values.isEmpty then .error (.enumEmpty e.name)
  else if !(decide ((e.values.map (·.2)).Nodup)) then .error (.enumDuplicateNumbers e.name)
  else if p.isStruct e.name then .error (.enumShadowsStruct e.name)
  else if p.isMessageName e.name then .error (.enumShadowsMessage e.name)
  else validateEnumNames p e e.values

/-- `[f(x) for x in xs]` where `f` may raise (protocol.py L230-232, L254-255). -/
def forEach {α ε : Type} (f : α → Except ε Unit) : List α → Except ε Unit
  | [] => .ok ()
  | x :: xs => do f x; forEach f xs

/-- Everything before the cycle check (protocol.py L130-235). -/
def loadPhase1 (data : Toml) : Except LoadErr Protocol :=
  match data with
  | .table kvs => do
    let p0 ← loadMeta kvs
    let p1 ← loadStructs (← sectionItems kvs "structs") p0
    let p2 ← loadMessages (← sectionItems kvs "messages") p1
    let p ← loadEnums (← sectionItems kvs "enums") p2
    forEach (validateStruct p) p.structs
    forEach (validateStruct p) p.messages
    forEach (validateEnum p) p.enums
    if p.messages.length > 255 then .error .tooManyMessages else .ok p
  | _ => .error .topLevelShape

/-- The inner `for cvar in ...` loop of the cycle check (protocol.py L248-252).  The stack is kept
with its top (Python's last element) first. -/
def scanMembers (p : Protocol) (start : String) : List Variable → List String →
    Except LoadErr (List String)
  | [], fr => .ok fr
  | v :: vs, fr =>
    if v.vartype == start then .error (.cycle start v.vartype)
    else if !p.isStruct v.vartype then scanMembers p start vs fr
    else scanMembers p start vs (v.vartype :: fr)

/-- The `while` loop of `check_for_cycles` (protocol.py L244-252).  `encountered` never changes
after its creation, so it is the single name `start`.  `none`: still running after `fuel`
iterations. -/
def cycleLoop (p : Protocol) (start : String) : Nat → List String → Option (Except LoadErr Unit)
  | 0, _ => none
  | _ + 1, [] => some (.ok ())
  | n + 1, t :: fr =>
    if t == start then some (.error (.cycle start t)) else
    match p.struct? t with
    | none => some (.error (.unknownType start t))
    | some st => match scanMembers p start st.members fr with
      | .error e => some (.error e)
      | .ok fr' => cycleLoop p start n fr'

/-- The initial frontier (protocol.py L243), top of stack first. -/
def initialFrontier (p : Protocol) (s : Struct) : List String :=
  ((s.members.map (·.vartype)).filter p.isStruct).reverse

/-- `check_for_cycles(s)` (protocol.py L241-252). -/
def checkForCycles (p : Protocol) (fuel : Nat) (s : Struct) : Option (Except LoadErr Unit) :=
  cycleLoop p s.name fuel (initialFrontier p s)

/-- `[check_for_cycles(s) for s in ...]` (protocol.py L254-255). -/
def checkAll (p : Protocol) (fuel : Nat) : List Struct → Option (Except LoadErr Unit)
  | [] => some (.ok ())
  | s :: rest => match checkForCycles p fuel s with
    | none => none
    | some (.error e) => some (.error e)
    | some (.ok ()) => checkAll p fuel rest

/-- `Protocol(filename)` on the parsed document (protocol.py L118-255), giving each cycle check
`fuel` iterations; `none` means the constructor has not returned. -/
def load (fuel : Nat) (data : Toml) : Option (Except LoadErr Protocol) :=
  match loadPhase1 data with
  | .error e => some (.error e)
  | .ok p => match checkAll p fuel (p.structs ++ p.messages) with
    | none => none
    | some (.error e) => some (.error e)
    | some (.ok ()) => some (.ok p)

/-- The constructor returns or raises `r`. -/
def Loads (data : Toml) (r : Except LoadErr Protocol) : Prop := ∃ fuel, load fuel data = some r

/-- The constructor never returns. -/
def Diverges (data : Toml) : Prop := ∀ fuel, load fuel data = none

end Beschi
