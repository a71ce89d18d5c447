import Verif.Props.Loader
import Verif.Props.Described
import Verif.Props.Format
import Verif.Lang.RustProof
import Verif.Lang.CSharpProof
import Verif.Lang.SwiftProof
import Verif.Lang.TypeScriptProof
import Verif.Lang.AssemblyScriptProof
import Verif.Lang.GoProof
import Verif.Lang.ZigProof
import Verif.Lang.CProof
import Verif.Props.Languages
import Verif.Props.Arbitrary
import Verif.Props.Limits
import Verif.Props.Buffers
import Verif.Props.Names
import Verif.Props.SizeTypes
import Verif.Props.Memory
import Verif.Props.ZigMemory
import Verif.Props.Generated
import Verif.Props.Embed
import Verif.Props.Cli
import Verif.Props.Syntax
import Verif.Props.Growth
import Verif.Props.Views
import Verif.Props.Order
import Verif.Props.Session
import Verif.Props.Namespace
import Verif.Props.Allocation
