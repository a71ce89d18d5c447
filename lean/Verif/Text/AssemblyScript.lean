import Verif.Text.TypeScript
/-
The text written for AssemblyScript (beschi/writers/assemblyscript.py): the functions are those of
TypeScript, with `self.is_assembly_script` set.
-/
namespace Beschi.Text.AssemblyScript

/-- What is added to `self.type_mapping` (assemblyscript.py L21-31). -/
def mapping : List (String × String) := [
  ("byte", "u8"), ("bool", "bool"), ("uint16", "u16"), ("int16", "i16"), ("uint32", "u32"),
  ("int32", "i32"), ("uint64", "u64"), ("int64", "i64"), ("float", "f32"), ("double", "f64"),
  ("string", "string")]

/-- `self.base_serializers` (assemblyscript.py L33-44). -/
def codecs : List (String × String) := [
  ("byte", "Byte"), ("bool", "Bool"), ("uint16", "Uint16"), ("int16", "Int16"), ("uint32", "Uint32"),
  ("int32", "Int32"), ("uint64", "Uint64"), ("int64", "Int64"), ("float", "Float32"),
  ("double", "Float64")]

/-- `AssemblyScriptWriter` after `__init__` (assemblyscript.py L15-46). -/
def writer (p : Protocol) (tab : Option String) (embed : Option String) (boilerplate : Nat → List String) : Writer :=
  { p, tab := tab.getD "  ", nativeTab := "  ", mapping, codecs, embed, assembly := true, boilerplate }

/-- `generate` is inherited (assemblyscript.py L11, typescript.py). -/
def generate (w : Writer) : Emit Unit := TypeScript.generate w

end Beschi.Text.AssemblyScript
