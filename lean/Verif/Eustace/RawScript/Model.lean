import Mathlib.Data.List.Basic

/-! Model of src/roses/fullstace/rawbinary/create_rawbinary_files.sh and of
the two scripts which it takes in, buildall_lookups.sh and
buildall_rawbinary.sh: which commands the shell makes of their lines, and
what these leave behind. -/

namespace Verif.Eustace.RawScript

/-- What one line of the script is made of
(src/roses/fullstace/rawbinary/create_rawbinary_files.sh:1-65): words, a `#`
which begins a word, and a `\` which is the last thing on its line.
Simplified: quotes are left out, and a variable is kept as the word written. -/
inductive Tok where
  | word (s : String)
  | hash
  | backslash
deriving DecidableEq

/-- The words of a line up to the first `#`, and whether the next line
continues the command: only when the line ends in a `\` which is not inside a
comment.  The lines are those of
src/roses/fullstace/rawbinary/create_rawbinary_files.sh:27-60; the rule is the
one of the shell (a comment goes up to the end of its line, and a `\` in it
has no meaning). -/
def readLine : List Tok → List String × Bool
  | [] => ([], false)
  | .hash :: _ => ([], false)
  | [.backslash] => ([], true)
  | .backslash :: rest => readLine rest
  | .word s :: rest => (s :: (readLine rest).1, (readLine rest).2)

/-- A command is kept when it has any words
(src/roses/fullstace/rawbinary/create_rawbinary_files.sh:21-26: empty lines
and lines of comment only are no commands). -/
def keep (c : List String) (cs : List (List String)) : List (List String) :=
  if c = [] then cs else c :: cs

/-- The commands of the lines, with the words already read for the command at
hand (src/roses/fullstace/rawbinary/create_rawbinary_files.sh:27-60, as the
shell reads them). -/
def commandsFrom (acc : List String) : List (List Tok) → List (List String)
  | [] => keep acc []
  | l :: ls =>
    if (readLine l).2 then commandsFrom (acc ++ (readLine l).1) ls
    else keep (acc ++ (readLine l).1) (commandsFrom [] ls)

/-- The commands of a script
(src/roses/fullstace/rawbinary/create_rawbinary_files.sh:1-65). -/
def commands (ls : List (List Tok)) : List (List String) := commandsFrom [] ls

/-- Lines 27 to 60 of
src/roses/fullstace/rawbinary/create_rawbinary_files.sh, without the lines
which print messages (34-36, 46-48, 54-56). -/
def script : List (List Tok) :=
  [ [.word "python", .word "-m", .word "eumopps.catalogue.build", .backslash],
    [.word "--pathdefault", .word "$DIRECTORY", .backslash],
    [.hash, .word "--nochecksum", .backslash],
    [.hash, .word "--allow_unversioned_code", .backslash],
    [.word "rawbinary_inputs.json", .backslash],
    [.word "$DIRECTORY/catalogue.nc"],
    [],
    [.word "python", .word "-m", .word "eumopps.catalogue.build", .backslash],
    [.word "--pathdefault", .word "$DIRECTORY", .backslash],
    [.hash, .word "--nochecksum", .backslash],
    [.hash, .word "--allow_unversioned_code", .backslash],
    [.word "--update", .backslash],
    [.word "rawbinary_generation.json", .backslash],
    [.word "$DIRECTORY/catalogue.nc"],
    [],
    [.word "source", .word "buildall_lookups.sh", .backslash],
    [.hash, .word "--allow_unversioned_code", .backslash],
    [.word "$DIRECTORY/catalogue.nc"],
    [],
    [.word "source", .word "buildall_rawbinary.sh", .backslash],
    [.hash, .word "--allow_unversioned_code", .backslash],
    [.word "$DIRECTORY/catalogue.nc"] ]

/-- What there is in the working directory, what has been done, and whether
the shell has ended
(src/roses/fullstace/rawbinary/create_rawbinary_files.sh:10-65). -/
structure State where
  /-- files of the run before -/
  previous : Bool
  /-- the catalogue holds the inputs -/
  catalogue : Bool
  /-- the catalogue also holds the operations -/
  updated : Bool
  /-- the lookups were built -/
  lookups : Bool
  /-- the jobs were sent -/
  submitted : Bool
  /-- the shell has ended -/
  ended : Bool
deriving DecidableEq

/-- `if [ -d ... ]; then rm -rf ...; fi; mkdir -p ...`
(src/roses/fullstace/rawbinary/create_rawbinary_files.sh:12-18): the directory
is there and empty. -/
def clear (_ : State) : State := ⟨false, false, false, false, false, false⟩

/-- The file names on the command line of the build
(src/eumopps/catalogue/build.py:101-111): all words which are no option and
no value of `--pathdefault`.  Simplified: `--dataset_filter` is left out. -/
def positionals : List String → List String
  | [] => []
  | [w] =>
    if w = "--pathdefault" ∨ w = "--update" ∨ w = "--overwrite" ∨ w = "--nochecksum"
        ∨ w = "--allow_unversioned_code" then [] else [w]
  | w :: v :: rest =>
    if w = "--pathdefault" then positionals rest
    else if w = "--update" ∨ w = "--overwrite" ∨ w = "--nochecksum"
        ∨ w = "--allow_unversioned_code" then positionals (v :: rest)
    else w :: positionals (v :: rest)

/-- `eumopps.catalogue.build` (src/eumopps/catalogue/build.py:97-115): two
file names are needed, otherwise the command line is refused and nothing is
written.  Simplified: with `--update` the catalogue has to be there, without
it the inputs are always taken up. -/
def build (args : List String) (s : State) : State :=
  if (positionals args).length = 2 then
    if "--update" ∈ args then
      { s with updated := s.catalogue || s.updated }
    else { s with catalogue := true }
  else s

/-- `source buildall_lookups.sh`
(src/roses/fullstace/rawbinary/buildall_lookups.sh:23-40): without words after
the file name the script which is taken in sees the words of the script which
takes it (`user`); when there are none `exit 1` ends the shell.  Simplified:
the lookups are built when the catalogue with its operations is there and its
name is the first word. -/
def sourceLookups (user args : List String) (s : State) : State :=
  let seen := if args = [] then user else args
  if seen = [] then { s with ended := true }
  else { s with lookups := s.lookups || (s.updated && seen.head? == some "$DIRECTORY/catalogue.nc") }

/-- `source buildall_rawbinary.sh`
(src/roses/fullstace/rawbinary/buildall_rawbinary.sh:24-47), likewise. -/
def sourceRawbinary (user args : List String) (s : State) : State :=
  let seen := if args = [] then user else args
  if seen = [] then { s with ended := true }
  else { s with submitted :=
    s.submitted || (s.updated && seen.head? == some "$DIRECTORY/catalogue.nc") }

/-- One command (src/roses/fullstace/rawbinary/create_rawbinary_files.sh:27-60).
A command which is not one of the three kinds is a file name, which the shell
does not find or may not run; the shell goes on, as there is no `set -e`. -/
def step (user : List String) (s : State) (c : List String) : State :=
  if s.ended then s
  else if c.take 3 = ["python", "-m", "eumopps.catalogue.build"] then build (c.drop 3) s
  else if c.take 2 = ["source", "buildall_lookups.sh"] then sourceLookups user (c.drop 2) s
  else if c.take 2 = ["source", "buildall_rawbinary.sh"] then sourceRawbinary user (c.drop 2) s
  else s

/-- The whole script, called with the words `user`
(src/roses/fullstace/rawbinary/create_rawbinary_files.sh:1-65). -/
def run (ls : List (List Tok)) (user : List String) (s : State) : State :=
  (commands ls).foldl (step user) (clear s)

end Verif.Eustace.RawScript
