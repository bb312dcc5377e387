import Verif.Props.Ctypes
import Verif.Props.Memory
import Verif.Props.Search
import Verif.Props.Regs
import Verif.Props.Breakpoint
import Verif.Props.Signals
import Verif.Props.Status
import Verif.Props.Debugger
import Verif.Props.Strace
import Verif.Props.Gdb
import Verif.Props.Hexdump
import Verif.Props.Expr
import Verif.Props.Proc
import Verif.Props.Format
import Verif.Props.Binding
import Verif.Props.Tools
import Verif.Props.Child
import Verif.Props.Backtrace
import Verif.Props.Call
import Verif.Props.Names
import Verif.Props.Fault
import Verif.Props.Disasm
import Verif.Props.GdbBreak
import Verif.Props.ArgText
import Verif.Props.ArgText2
import Verif.Props.Wrappers
import Verif.Props.GdbCmd
import Verif.Props.Xray
import Verif.Props.Dump
import Verif.Props.ProcInfo
import Verif.Props.Log
import Verif.Props.Arith
import Verif.Props.Report
import Verif.Props.Lines
import Verif.Props.Decode
import Verif.Props.Life
import Verif.Props.Cpu
import Verif.Props.Fair
import Verif.Props.Machine
import Verif.Props.Itrace
import Verif.Props.Bsd
import Verif.Props.BsdLife
import Verif.Props.Codegen
import Verif.Props.BsdWrap
import Verif.Props.BsdCall
import Verif.Props.MemBind
import Verif.Props.Pass
import Verif.Props.Classes
import Verif.Props.Session
import Verif.Props.Follow
import Verif.Props.Quit
import Verif.Props.Simple
import Verif.Props.Tree
import Verif.Props.SocketText
import Verif.Props.Distinct
import Verif.Props.Watch
import Verif.Props.Printed
import Verif.Props.TreeLines
import Verif.Props.CallText
import Verif.Props.Prompt
import Verif.Spec.React
import Verif.Lemmas.Local
import Verif.Props.React
import Verif.Lemmas.Fuel
import Verif.Spec.Open
import Verif.Lemmas.Open
import Verif.Props.Open
import Verif.Spec.OpenLines
import Verif.Lemmas.LocalOut
import Verif.Props.OpenLines
import Verif.Spec.CallNames
import Verif.Props.CallNames
import Verif.Spec.Free
import Verif.Props.Free
import Verif.Model.CmdLine
import Verif.Spec.CmdLine
import Verif.Props.CmdLine
import Verif.Spec.Method
import Verif.Props.Method
import Verif.Model.Program
import Verif.Spec.Program
import Verif.Props.Program
import Verif.Model.GdbProgram
import Verif.Spec.GdbProgram
import Verif.Lemmas.GdbKeep
import Verif.Props.GdbProgram
import Verif.Spec.Minds
import Verif.Lemmas.Minds
import Verif.Lemmas.Minds2
import Verif.Props.Minds
import Verif.Spec.Ends
import Verif.Lemmas.Ends
import Verif.Props.Ends
import Verif.Props.ShortText
import Verif.Spec.Asks
import Verif.Lemmas.Asks
import Verif.Lemmas.Asks2
import Verif.Lemmas.Asks3
import Verif.Props.Asks
import Verif.Spec.Stopped
import Verif.Lemmas.Stopped
import Verif.Props.Stopped
import Verif.Spec.GdbEnds
import Verif.Lemmas.GdbEnds
import Verif.Props.GdbEnds
import Verif.Spec.Errors
import Verif.Lemmas.Errors
import Verif.Props.Errors
import Verif.Spec.GdbErrors
import Verif.Lemmas.GdbErrors
import Verif.Props.GdbErrors
import Verif.Spec.AsksGdb
import Verif.Lemmas.AsksGdb
import Verif.Lemmas.AsksGdb2
import Verif.Props.AsksGdb
import Verif.Spec.Kills
import Verif.Lemmas.Kills
import Verif.Props.Kills
import Verif.Spec.Spares
import Verif.Lemmas.Spares
import Verif.Lemmas.GdbSpares
import Verif.Lemmas.Hale
import Verif.Lemmas.HaleGdb
import Verif.Props.Spares
import Verif.Spec.Heeds
import Verif.Props.Heeds
