/-! Independent specification of Intel sub-registers: which bits of which full register (Intel SDM vol. 1,
sections 3.4.1 and 3.4.3). -/

namespace PT.Spec

/-- Bit field of a sub-register. -/
structure Field where
  full : String
  low : Nat
  width : Nat
  deriving DecidableEq, Repr

/-- The field's value in a register. -/
def Field.get (f : Field) (value : Nat) : Nat := value / 2 ^ f.low % 2 ^ f.width

/-- EFLAGS bits. -/
def intelFlag : List (String × Field) := [
  ("cf", ⟨"eflags", 0, 1⟩), ("pf", ⟨"eflags", 2, 1⟩), ("af", ⟨"eflags", 4, 1⟩), ("zf", ⟨"eflags", 6, 1⟩),
  ("sf", ⟨"eflags", 7, 1⟩), ("tf", ⟨"eflags", 8, 1⟩), ("if", ⟨"eflags", 9, 1⟩), ("df", ⟨"eflags", 10, 1⟩),
  ("of", ⟨"eflags", 11, 1⟩), ("iopl", ⟨"eflags", 12, 2⟩)]

/-- Sub-registers of the 64 bit registers. -/
def intel64 : List (String × Field) := [
  ("al", ⟨"rax", 0, 8⟩), ("bl", ⟨"rbx", 0, 8⟩), ("cl", ⟨"rcx", 0, 8⟩), ("dl", ⟨"rdx", 0, 8⟩),
  ("ah", ⟨"rax", 8, 8⟩), ("bh", ⟨"rbx", 8, 8⟩), ("ch", ⟨"rcx", 8, 8⟩), ("dh", ⟨"rdx", 8, 8⟩),
  ("ax", ⟨"rax", 0, 16⟩), ("bx", ⟨"rbx", 0, 16⟩), ("cx", ⟨"rcx", 0, 16⟩), ("dx", ⟨"rdx", 0, 16⟩),
  ("eax", ⟨"rax", 0, 32⟩), ("ebx", ⟨"rbx", 0, 32⟩), ("ecx", ⟨"rcx", 0, 32⟩), ("edx", ⟨"rdx", 0, 32⟩)]
  ++ intelFlag

/-- Sub-registers of the 32 bit registers. -/
def intel32 : List (String × Field) := [
  ("al", ⟨"eax", 0, 8⟩), ("bl", ⟨"ebx", 0, 8⟩), ("cl", ⟨"ecx", 0, 8⟩), ("dl", ⟨"edx", 0, 8⟩),
  ("ah", ⟨"eax", 8, 8⟩), ("bh", ⟨"ebx", 8, 8⟩), ("ch", ⟨"ecx", 8, 8⟩), ("dh", ⟨"edx", 8, 8⟩),
  ("ax", ⟨"eax", 0, 16⟩), ("bx", ⟨"ebx", 0, 16⟩), ("cx", ⟨"ecx", 0, 16⟩), ("dx", ⟨"edx", 0, 16⟩)]
  ++ intelFlag

end PT.Spec
