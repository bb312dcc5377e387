import Verif.Model.Call
import Verif.Model.Strace

/-! The tables that `strace.py` selects calls from, for each CPU. -/

namespace PT

/-- What `strace.py:5-6` imports: `SYSCALL_NAMES`, `SYSCALL_PROTOTYPES`, `FILENAME_ARGUMENTS`, `SOCKET_SYSCALL_NAMES`. -/
def straceTables (cpu : CallCpu) : SysTables where
  names := (cpu.names.getD []).map fun p => p.2.toList
  prototypes := PT.prototypes.map fun p => (p.1.toList, p.2.2.map fun a => a.2.toList)
  filenameArguments := Tables.filenameArguments.map String.toList
  socketNames := cpu.sockets.map String.toList

end PT
