import Verif.Model.Py

/-
Model of `ptrace/debugger/child.py`: the helpers that retry interrupted calls, and `createChild`.

`fork` is modelled by two functions: what the child does with its copy of the descriptor table, and what the parent does with
what the child wrote. The numbers that `pipe()` and `open()` return are chosen by the environment. A message through the pipe
arrives whole (it is much shorter than the capacity of a pipe). `MAXFD` is `sysconf("SC_OPEN_MAX")` at import.
-/

namespace PT

/-- `EINTR` -/
def EINTR : Nat := 4

/-- `_waitpid_no_intr`, `_read_no_intr`, `_write_no_intr` (`child.py:41-74`): the loop around `call`. -/
def noIntr {σ α : Type} (call : Py σ α) : Nat → Py σ α
  | 0 => Py.raise .diverge
  | fuel + 1 => fun s =>
    match call s with
    | (.error (.os e), s') => if e = EINTR then noIntr call fuel s' else (.error (.os e), s')
    | r => r

/-- `_waitpid_no_intr` (`child.py:41-50`). -/
def waitpidNoIntr {σ : Type} (waitpid : Nat → Nat → Py σ (Nat × Nat)) (fuel pid options : Nat) : Py σ (Nat × Nat) :=
  noIntr (waitpid pid options) fuel

/-- `_read_no_intr` (`child.py:53-62`). -/
def readNoIntr {σ : Type} (read : Nat → Nat → Py σ Bytes) (fuel fd size : Nat) : Py σ Bytes := noIntr (read fd size) fuel

/-- `_write_no_intr` (`child.py:65-74`). -/
def writeNoIntr {σ : Type} (write : Nat → Bytes → Py σ Nat) (fuel fd : Nat) (data : Bytes) : Py σ Nat := noIntr (write fd data) fuel

/-! ### Descriptors -/

/-- What a descriptor refers to. -/
inductive FdDesc where
  | other (n : Nat)
  | errRead
  | errWrite
  | null
  deriving DecidableEq, Repr

/-- A descriptor with its close-on-exec flag. -/
structure Fd where
  desc : FdDesc
  cloexec : Bool
  deriving DecidableEq, Repr

/-- A descriptor table; `none` is closed. -/
abbrev FdTable := Nat → Option Fd

def FdTable.put (t : FdTable) (fd : Nat) (v : Option Fd) : FdTable := fun x => if x = fd then v else t x

/-- Errors of the child: `ChildError` of `PTRACE_TRACEME`, `ChildError` of `exec`, other `OSError`. -/
inductive ChildErr where
  | trace (errno : Nat)
  | exec (errno : Nat)
  | os (errno : Nat)
  deriving DecidableEq, Repr

/-- The world of the child. -/
structure ChildEnv where
  maxfd : Nat
  /-- the descriptors returned by `pipe()` -/
  pipeR : Nat
  pipeW : Nat
  /-- the descriptor of `open(devnull)`; `none` is an `IOError` -/
  nullFd : Option Nat
  /-- error of `PTRACE_TRACEME` -/
  traceme : Option Nat
  /-- error of `exec` -/
  exec : Option Nat

/-- `EBADF` -/
def EBADF : Nat := 9

/-- `close(fd)` where an error is not ignored. -/
def closeFd (t : FdTable) (fd : Nat) : Except ChildErr FdTable :=
  if t fd = none then .error (.os EBADF) else .ok (t.put fd none)

/-- `for fd in pass_fds: set_inheritable(fd, True)` (`child.py:99-100`). -/
def setInheritable (t : FdTable) : List Nat → Except ChildErr FdTable
  | [] => .ok t
  | fd :: fds =>
    match t fd with
    | none => .error (.os EBADF)
    | some f => setInheritable (t.put fd (some { f with cloexec := false })) fds

/-- The loop that closes descriptors (`child.py:102-110`); errors of `close` are ignored. -/
def closeOthers (maxfd errpipe : Nat) (passFds : List Nat) (t : FdTable) : FdTable :=
  (List.range' 3 (maxfd - 3)).foldl (fun t fd => if fd = errpipe ∨ fd ∈ passFds then t else t.put fd none) t

/-- `os.dup2(fd, fd2)`: the copy is inheritable; nothing happens when both are the same. -/
def dup2 (t : FdTable) (fd fd2 : Nat) : FdTable :=
  if fd = fd2 then t else t.put fd2 ((t fd).map fun f => { f with cloexec := false })

/-- The redirection of `_execChild` (`child.py:124-132`). -/
def redirect (env : ChildEnv) (noStdout : Bool) (t : FdTable) : Except ChildErr FdTable :=
  if noStdout then
    match env.nullFd with
    | some n => .ok ((dup2 (dup2 (t.put n (some ⟨.null, true⟩)) n 1) 1 2).put n none)
    | none =>
      match closeFd t 2 with
      | .error e => .error e
      | .ok t => closeFd t 1
  else .ok t

/-- How the child ends: in the new program (with the table just before `exec`), by `exit(255)` with what was written to the error
pipe, or with an exception that leaves `createChild` in the child. -/
inductive ChildEnd where
  | execed (before : FdTable)
  | exited (written : Option ChildErr)
  | raised (e : ChildErr)

/-- The end of `_createChild` for an error inside the `try` (`child.py:114-120`): the message goes to whatever descriptor
`errpipe_write` is now. -/
def report (env : ChildEnv) (t : FdTable) (e : ChildErr) : ChildEnd :=
  match t env.pipeW with
  | none => .raised (.os EBADF)
  | some f => .exited (if f.desc = .errWrite then some e else none)

/-- `_createChild` (`child.py:87-120`) and `_execChild` (`child.py:123-139`). An error in the redirection leaves the table as it was then;
only descriptors 1 and 2 are concerned. -/
def childMain (env : ChildEnv) (noStdout closeFds : Bool) (passFds : List Nat) (t : FdTable) : ChildEnd :=
  match env.traceme with
  | some e => .raised (.trace e)
  | none =>
    match setInheritable t passFds with
    | .error e => .raised e
    | .ok t =>
      let t := if closeFds then closeOthers env.maxfd env.pipeW passFds t else t
      match redirect env noStdout t with
      | .error e => report env (t.put 2 none) e
      | .ok t =>
        match env.exec with
        | none => .execed t
        | some e => report env t (.exec e)

/-- `createChild` in the child (`child.py:154-173`): the pipe, `_set_cloexec_flag(errpipe_write)`, and `close(errpipe_read)`. `os.pipe`
sets close-on-exec on both ends anyway. -/
def createChildChild (env : ChildEnv) (noStdout closeFds : Bool) (passFds : List Nat) (t : FdTable) : ChildEnd :=
  let closeFds := if passFds ≠ [] ∧ closeFds = false then true else closeFds
  let t := (t.put env.pipeR (some ⟨.errRead, true⟩)).put env.pipeW (some ⟨.errWrite, true⟩)
  childMain env noStdout closeFds passFds (t.put env.pipeR none)

/-- How `createChild` ends in the parent: the pid, or the child's exception, with whether `waitpid` was called before. -/
inductive ParentEnd where
  | pid
  | raised (e : ChildErr) (reaped : Bool)
  deriving DecidableEq, Repr

/-- `createChild` in the parent with `_createParent` (`child.py:77-84`): the read returns what was written, or nothing when all write
ends are closed. -/
def createChildParent : ChildEnd → ParentEnd
  | .exited (some e) => .raised e true
  | _ => .pid

/-- The descriptor table after a successful `exec`. -/
def afterExec (t : FdTable) : FdTable := fun fd => match t fd with
  | some f => if f.cloexec then none else some f
  | none => none

end PT
