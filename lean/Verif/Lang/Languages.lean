import Verif.Lang.RustProof
import Verif.Lang.CSharpProof
import Verif.Lang.SwiftProof
import Verif.Lang.TypeScriptProof
import Verif.Lang.AssemblyScriptProof
import Verif.Lang.GoProof
import Verif.Lang.ZigProof
import Verif.Lang.CProof
/-
All target languages together.
-/
namespace Beschi.Lang
open Spec

/-- The target languages (`writers/__init__.py` and `cli.py`).  For Go and Rust, whether members are
renamed (`--go-no-rename`, `--rust-no-rename`); for languages whose runtime never refuses text that is
not valid UTF-8, or may drop a byte order mark, what the runtime makes of such text, about which
nothing is assumed. -/
inductive Language where
  | c
  | csharp (lossy : List UInt8 → List UInt8)
  | go (noRename : Bool)
  | rust (noRename : Bool)
  | swift (mark : List UInt8 → List UInt8)
  | typescript (lossy : List UInt8 → List UInt8)
  | assemblyscript (lossy : List UInt8 → List UInt8)
  | zig

namespace Language

/-- The library generated for a protocol. -/
def library : Language → Protocol → Library
  | .c => C.library
  | .csharp lossy => CSharp.library lossy
  | .go noRename => Go.library noRename
  | .rust noRename => Rust.library noRename
  | .swift mark => Swift.library mark
  | .typescript lossy => TypeScript.library lossy
  | .assemblyscript lossy => AssemblyScript.library lossy
  | .zig => Zig.library

/-- What members are called in the generated code. -/
def rename : Language → String → String
  | .go noRename => Go.namer noRename
  | .rust noRename => Rust.namer noRename
  | _ => id

/-- The protocols for which the generated code is claimed to work. -/
def Supported : Language → Protocol → Prop
  | .c, p => C.Supported p
  | .csharp _, p => CSharp.Supported p
  | .go noRename, p => Go.Supported (p.rename (Go.namer noRename))
  | .rust noRename, p => Rust.Supported (p.rename (Rust.namer noRename))
  | .swift _, p => Swift.Supported p
  | .typescript _, p => TypeScript.Supported p
  | .assemblyscript _, p => AssemblyScript.Supported p
  | .zig, p => Zig.Supported p

/-- The texts that are claimed to be read back as they were written: Swift and TypeScript may drop a
byte order mark; Zig cannot read texts of almost maximal length. -/
def Faithful : Language → Protocol → List UInt8 → Prop
  | .swift _, _ => NoBom
  | .typescript _, _ => NoBom
  | .zig, p => Zig.Short p
  | _, _ => fun _ => True

/-- The texts whose size is claimed to be computed correctly: C# counts UTF-16 units. -/
def Measured : Language → List UInt8 → Prop
  | .csharp _ => Ascii
  | _ => fun _ => True

/-- Buffers that are claimed to work are shorter than this. -/
def limit : Language → Nat
  | .c | .csharp _ | .assemblyscript _ => 2 ^ 31
  | .typescript _ => 2 ^ 53
  | _ => 2 ^ 63

/-- Packed data shorter than this is not claimed to be unpacked. -/
def least : Language → Nat
  | .assemblyscript _ => 12
  | _ => 0

theorem laws (l : Language) {p : Protocol} (h : Usable p) (hs : l.Supported p) :
    Laws (l.library p) p l.rename (l.Faithful p) l.Measured l.limit l.least := by
  cases l with
  | c => exact C.laws h hs
  | csharp lossy => exact CSharp.laws h hs
  | go noRename => exact Go.laws h noRename hs
  | rust noRename => exact Rust.laws h noRename hs
  | swift mark => exact Swift.laws h hs
  | typescript lossy => exact TypeScript.laws h hs
  | assemblyscript lossy => exact AssemblyScript.laws h hs
  | zig => exact Zig.laws h hs

end Language
end Beschi.Lang
