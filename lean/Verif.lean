import Verif.Props.Utils
import Verif.Props.Elf
import Verif.Props.Signature
import Verif.Props.SigSound
import Verif.Props.ConfigTool
import Verif.Props.Arch
import Verif.Props.Dummy
import Verif.Props.Kconfig
import Verif.Props.Kernel
import Verif.Props.Extract
import Verif.Props.Location
import Verif.Props.X86Emu
import Verif.Props.Build
import Verif.Props.Output
import Verif.Props.Main
import Verif.Props.Help
import Verif.Props.Sections
import Verif.Props.Origin
import Verif.Props.EndToEnd
import Verif.Props.Cli
import Verif.Props.Failures
import Verif.Props.Page
import Verif.Props.Switch
import Verif.Props.Diag
import Verif.Props.Rg
import Verif.Props.Rejected
import Verif.Props.Abi
import Verif.Props.Found
import Verif.Props.Marks
import Verif.Props.Described
import Verif.Props.Ends
import Verif.Props.Prefer
import Verif.Props.Record
import Verif.Props.Log
import Verif.Props.Enabled
import Verif.Props.Chars
import Verif.Props.Popen
import Verif.Props.LocDiag
import Verif.Props.Asked
import Verif.Props.Source
import Verif.Props.EmuDiag
import Verif.Props.Skipped
import Verif.Props.Whole
import Verif.Props.DepDiag
import Verif.Props.Stderr
import Verif.Props.Repro
import Verif.Props.Crash
import Verif.Props.Later
import Verif.Props.Defined
import Verif.Props.Object
import Verif.Props.Regex
import Verif.Props.Pattern
import Verif.Props.Shared
import Verif.Props.Stub
import Verif.Props.Url
import Verif.Props.Image
import Verif.Props.Table
import Verif.Props.Digits
import Verif.Props.Names
import Verif.Props.Formats
import Verif.Props.Variants
