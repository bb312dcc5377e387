/-! The command lines of strace.py and gdb.py, as their help describes them. -/

namespace PT.Spec

/-- What a switch takes. -/
inductive CmdTakes where
  | nothing
  | number
  | text
  /-- prints the help -/
  | help
  deriving DecidableEq, Repr

/-- A switch: its name and its letter. -/
structure Switch where
  name : List Char
  letter : Option Char
  takes : CmdTakes
  deriving DecidableEq, Repr

/-- What is set. -/
inductive Setting where
  | on
  | number (n : Int)
  | text (s : List Char)
  deriving DecidableEq, Repr

/-- A decimal number as people write it: no zero in front. -/
def decimalText : Int → List Char
  | .ofNat n => (toString n).toList
  | .negSucc n => '-' :: (toString (n + 1)).toList

/-- What is written for a value; `num n t` tells that the text `t` is the number `n`. -/
inductive Writes (num : Int → List Char → Prop) : CmdTakes → Setting → List Char → Prop where
  | text (s : List Char) : Writes num .text (.text s) s
  | number {n : Int} {t : List Char} (h : num n t) : Writes num .number (.number n) t

/-- A word means a switch if it is its name, or the beginning of its name and of no other. -/
def Means (man : List Switch) (word : List Char) (s : Switch) : Prop :=
  s ∈ man ∧ (word = s.name ∨ (word ≠ [] ∧ word <+: s.name ∧ ∀ s' ∈ man, word <+: s'.name → s' = s))

/-- A switch for a letter. -/
def Letter (man : List Switch) (c : Char) (s : Switch) : Prop := s ∈ man ∧ s.letter = some c

/-- Letters of switches that take nothing. -/
inductive Letters (man : List Switch) : List (List Char × Setting) → List Char → Prop where
  | nil : Letters man [] []
  | cons {c : Char} {s : Switch} {is : List (List Char × Setting)} {cs : List Char} (h : Letter man c s) (ht : s.takes = .nothing)
      (hs : Letters man is cs) : Letters man ((s.name, .on) :: is) (c :: cs)

/-- These words on a command line make these settings. -/
inductive CmdWords (num : Int → List Char → Prop) (man : List Switch) : List (List Char × Setting) → List (List Char) → Prop where
  | nil : CmdWords num man [] []
  /-- `--name` -/
  | name {w : List Char} {s : Switch} {is ws} (h : Means man w s) (ht : s.takes = .nothing) (hs : CmdWords num man is ws) :
      CmdWords num man ((s.name, .on) :: is) (('-' :: '-' :: w) :: ws)
  /-- `--name value` -/
  | nameThen {w v : List Char} {s : Switch} {x is ws} (h : Means man w s) (hv : Writes num s.takes x v) (hs : CmdWords num man is ws) :
      CmdWords num man ((s.name, x) :: is) (('-' :: '-' :: w) :: v :: ws)
  /-- `--name=value` -/
  | nameWith {w v : List Char} {s : Switch} {x is ws} (h : Means man w s) (hv : Writes num s.takes x v) (hs : CmdWords num man is ws) :
      CmdWords num man ((s.name, x) :: is) (('-' :: '-' :: (w ++ '=' :: v)) :: ws)
  /-- `-abc` -/
  | letters {js : List (List Char × Setting)} {cs : List Char} {is ws} (h : Letters man js cs) (hc : cs ≠ []) (hs : CmdWords num man is ws) :
      CmdWords num man (js ++ is) (('-' :: cs) :: ws)
  /-- `-abc value` -/
  | lettersThen {js : List (List Char × Setting)} {cs v : List Char} {c : Char} {s : Switch} {x is ws} (h : Letters man js cs) (hc : Letter man c s)
      (hv : Writes num s.takes x v) (hs : CmdWords num man is ws) : CmdWords num man (js ++ (s.name, x) :: is) (('-' :: (cs ++ [c])) :: v :: ws)
  /-- `-abcvalue` -/
  | lettersWith {js : List (List Char × Setting)} {cs v : List Char} {c : Char} {s : Switch} {x is ws} (h : Letters man js cs) (hc : Letter man c s)
      (hv : Writes num s.takes x v) (hne : v ≠ []) (hs : CmdWords num man is ws) : CmdWords num man (js ++ (s.name, x) :: is) (('-' :: (cs ++ c :: v)) :: ws)

/-- This word looks like a switch. -/
def Dashed (w : List Char) : Prop := ∃ c t, w = '-' :: c :: t

/-- A command line: these settings are made, and these words are the program and its arguments. Switches may stand anywhere up to a `--`. -/
inductive CmdLine (num : Int → List Char → Prop) (man : List Switch) : List (List Char × Setting) → List (List Char) → List (List Char) → Prop where
  | nil : CmdLine num man [] [] []
  /-- `--`: all that comes is the program -/
  | rest (prog : List (List Char)) : CmdLine num man [] prog (['-', '-'] :: prog)
  | words {is js ws prog args} (hw : CmdWords num man is ws) (h : CmdLine num man js prog args) : CmdLine num man (is ++ js) prog (ws ++ args)
  | plain {is prog args} {w : List Char} (hw : ¬Dashed w) (h : CmdLine num man is prog args) : CmdLine num man is (w :: prog) (w :: args)

/-- Decimal numbers without a zero in front. -/
def Decimal (n : Int) (t : List Char) : Prop := t = decimalText n

/-- What is set in the end: the last one counts. -/
def lastSetting (is : List (List Char × Setting)) (name : List Char) : Option Setting := (is.reverse.find? fun i => i.1 = name).map Prod.snd

/-- The switches of both programs. -/
def commonManual : List Switch :=
  [⟨"help".toList, some 'h', .help⟩, ⟨"pid".toList, some 'p', .number⟩, ⟨"fork".toList, some 'f', .nothing⟩, ⟨"trace-exec".toList, none, .nothing⟩,
   ⟨"trace-clone".toList, none, .nothing⟩, ⟨"no-stdout".toList, none, .nothing⟩, ⟨"quiet".toList, some 'q', .nothing⟩,
   ⟨"verbose".toList, some 'v', .nothing⟩, ⟨"debug".toList, none, .nothing⟩]

/-- The switches of strace.py only. -/
def straceOnly : List Switch :=
  [⟨"enter".toList, none, .nothing⟩, ⟨"profiler".toList, none, .nothing⟩, ⟨"type".toList, none, .nothing⟩, ⟨"name".toList, none, .nothing⟩,
   ⟨"string-length".toList, some 's', .number⟩, ⟨"array-count".toList, none, .number⟩, ⟨"raw-socketcall".toList, none, .nothing⟩,
   ⟨"output".toList, some 'o', .text⟩, ⟨"ignore-regex".toList, none, .text⟩, ⟨"address".toList, none, .nothing⟩, ⟨"syscalls".toList, some 'e', .text⟩,
   ⟨"socket".toList, none, .nothing⟩, ⟨"filename".toList, none, .nothing⟩, ⟨"show-pid".toList, none, .nothing⟩, ⟨"list-syscalls".toList, none, .nothing⟩,
   ⟨"show-ip".toList, some 'i', .nothing⟩]

def gdbManual : List Switch := commonManual
def straceManual : List Switch := commonManual ++ straceOnly

/-- What holds for a switch that is not on the command line. -/
def factory (name : List Char) : Option Setting :=
  if name = "string-length".toList then some (.number 300) else if name = "array-count".toList then some (.number 20) else none

/-- What holds for a switch on this command line. -/
def settingOf (is : List (List Char × Setting)) (name : List Char) : Option Setting := (lastSetting is name).orElse fun _ => factory name

/-- Is this switch on the command line? -/
def isSet (is : List (List Char × Setting)) (name : String) : Bool := lastSetting is name.toList == some .on

/-- The text given for a switch. -/
def givenText (is : List (List Char × Setting)) (name : String) : Option (List Char) := match lastSetting is name.toList with
  | some (.text t) => some t
  | _ => none

end PT.Spec
