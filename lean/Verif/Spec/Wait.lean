import Verif.Model.Status

/-! What a wait status means on Linux, bit by bit (`wait(2)`, `ptrace(2)`). -/

namespace PT.Spec

/-- Bits 0 to 6 are 0 for an exit with the code in bits 8 to 15, and otherwise the signal that killed the process, unless they are all set. Then bit 7
is clear and the process has stopped: for the event in the bits from 16 on, or, if they are 0, with the signal in bits 8 to 15. -/
def waitMeaning (st : Int) : StatusKind :=
  if st % 128 = 0 then .exited (st / 256 % 256).toNat
  else if st % 128 ≠ 127 then .killed (st % 128).toNat
  else if st / 128 % 2 = 1 then .unknown
  else if st / 65536 = 0 then .signal (st / 256 % 256).toNat
  else .event (st / 65536)

end PT.Spec
