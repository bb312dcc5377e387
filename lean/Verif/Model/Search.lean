import Verif.Model.Memory

/-
Model of `MemoryMapping.search` (`/repo/ptrace/debugger/memory_mapping.py:69-100`).
-/

namespace PT

/-- `data.find(pat)` of Python `bytes` (runtime primitive), `none` for -1. -/
def pyFind (data pat : Bytes) : Option Nat :=
  (List.range (data.length + 1)).find? fun i => pat.isPrefixOf (data.drop i)

/-- `buf_len` (`memory_mapping.py:73-76`). -/
def searchBufLen (pat : Bytes) : Nat :=
  if 64 * 1024 < pat.length then pat.length else 64 * 1024

/-- What a run of the generator produced: the addresses yielded so far, how it ended, the state. -/
structure SearchRun where
  yields : List Nat
  outcome : Except Exc Unit
  state : MemSt

/-- The `while remaining >= bytestr_len` loop (`memory_mapping.py:81-100`), at most `fuel` iterations
(`Exc.diverge` when they are used up). The test `data == ""` (line 89) compares `bytes` with `str` and is
always false on Python 3. The difference `requested - bytestr_len + 1` is a natural number because
`requested >= bytestr_len`. -/
def searchLoop (k : Kernel) (pat : Bytes) (buf_len : Nat) : Nat → Nat → Nat → MemSt → SearchRun
  | 0, _, _, s => ⟨[], .error .diverge, s⟩
  | fuel + 1, covered, remaining, s =>
    if remaining < pat.length then ⟨[], .ok (), s⟩
    else
      let requested := if remaining > buf_len then buf_len else remaining
      match readBytes k covered requested s with
      | (.error e, s') => ⟨[], .error e, s'⟩
      | (.ok data, s') =>
        match pyFind data pat with
        | none =>
          let skip := requested - pat.length + 1
          searchLoop k pat buf_len fuel (covered + skip) (remaining - skip) s'
        | some offset =>
          let skip := offset + pat.length
          let r := searchLoop k pat buf_len fuel (covered + skip) (remaining - skip) s'
          { r with yields := (covered + offset) :: r.yields }

/-- `MemoryMapping.search` (`memory_mapping.py:69-100`) of the mapping `[start, stop)`. -/
def search (k : Kernel) (pat : Bytes) (fuel start stop : Nat) (s : MemSt) : SearchRun :=
  searchLoop k pat (searchBufLen pat) fuel start (stop - start) s

end PT
