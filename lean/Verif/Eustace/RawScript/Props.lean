import Verif.Eustace.RawScript.Model

/-! C182: the script which creates the raw binary files.

A command may go over lines which end in `\`.  The script puts lines of
comment between such lines, and a comment ends the command.  So the build gets
no file names, and the script ends after it has deleted the run before. -/

namespace Verif.Eustace.RawScript

/-- Specification: a line of words only. -/
def plain (ws : List String) : List Tok := ws.map Tok.word

/-- Specification: a line of words which goes on. -/
def goesOn (ws : List String) : List Tok := ws.map Tok.word ++ [Tok.backslash]

theorem readLine_plain (ws : List String) : readLine (plain ws) = (ws, false) := by
  induction ws with
  | nil => rfl
  | cons w ws ih =>
    simp only [plain, List.map_cons, readLine] at ih ⊢
    rw [ih]

theorem readLine_goesOn (ws : List String) : readLine (goesOn ws) = (ws, true) := by
  induction ws with
  | nil => rfl
  | cons w ws ih =>
    simp only [goesOn, List.map_cons, List.cons_append, readLine] at ih ⊢
    rw [ih]

theorem commandsFrom_goesOn (lines : List (List String)) (acc : List String)
    (rest : List (List Tok)) :
    commandsFrom acc (lines.map goesOn ++ rest) = commandsFrom (acc ++ lines.flatten) rest := by
  induction lines generalizing acc with
  | nil => simp
  | cons l ls ih =>
    simp only [List.map_cons, List.cons_append, commandsFrom, readLine_goesOn, if_true]
    rw [ih]
    simp [List.append_assoc]

/-- C182: lines which go on make one command with the line after them, however
many there are. -/
theorem c182_joined (lines : List (List String)) (last : List String) (rest : List (List Tok))
    (h : lines.flatten ++ last ≠ []) :
    commands (lines.map goesOn ++ plain last :: rest)
      = (lines.flatten ++ last) :: commands rest := by
  rw [commands, commandsFrom_goesOn]
  simp only [commandsFrom, readLine_plain, Bool.false_eq_true, if_false, List.nil_append, keep]
  rw [if_neg h, commands]

/-- C182: a comment between them ends the command, whatever the comment says
and also when it ends in `\`; the lines after it begin a command of their
own. -/
theorem c182_comment_ends (lines : List (List String)) (comment : List Tok)
    (rest : List (List Tok)) (h : lines.flatten ≠ []) :
    commands (lines.map goesOn ++ (Tok.hash :: comment) :: rest)
      = lines.flatten :: commands rest := by
  rw [commands, commandsFrom_goesOn]
  simp only [commandsFrom, readLine, Bool.false_eq_true, if_false, List.nil_append,
    List.append_nil, keep]
  rw [if_neg h, commands]

/-- C182: a comment which stands alone is no command. -/
theorem c182_comment_alone (comment : List Tok) (rest : List (List Tok)) :
    commands ((Tok.hash :: comment) :: rest) = commands rest := by
  simp [commands, commandsFrom, readLine, keep]

/-- The two lines of a build, a comment and a file name. -/
example : commands
    ([["build"], ["--pathdefault", "d"]].map goesOn
      ++ [[Tok.hash, Tok.word "x", Tok.backslash], plain ["in.json"]])
    = [["build", "--pathdefault", "d"], ["in.json"]] := by
  rw [c182_comment_ends _ _ _ (by simp)]
  rfl

/-- C182: the commands which the shell makes of the script. -/
theorem c182_commands :
    commands script =
      [ ["python", "-m", "eumopps.catalogue.build", "--pathdefault", "$DIRECTORY"],
        ["rawbinary_inputs.json", "$DIRECTORY/catalogue.nc"],
        ["python", "-m", "eumopps.catalogue.build", "--pathdefault", "$DIRECTORY"],
        ["--update", "rawbinary_generation.json", "$DIRECTORY/catalogue.nc"],
        ["source", "buildall_lookups.sh"],
        ["$DIRECTORY/catalogue.nc"],
        ["source", "buildall_rawbinary.sh"],
        ["$DIRECTORY/catalogue.nc"] ] := rfl

/-- C182 (violation): called without words, as its own text says, the script
deletes whatever the run before had left, builds no catalogue, and ends at the
lookups. -/
theorem c182_run_violated (s : State) :
    run script [] s = ⟨false, false, false, false, false, true⟩ := by
  simp [run, c182_commands, step, clear, build, positionals, sourceLookups]

/-- C182 (violation): whatever words the script is called with, there is no
catalogue, there are no lookups and no jobs at its end. -/
theorem c182_never_built_violated (user : List String) (s : State) :
    (run script user s).previous = false ∧ (run script user s).catalogue = false
      ∧ (run script user s).updated = false
      ∧ (run script user s).lookups = false ∧ (run script user s).submitted = false := by
  cases user with
  | nil => rw [c182_run_violated]; simp
  | cons u us =>
    simp [run, c182_commands, step, clear, build, positionals, sourceLookups, sourceRawbinary]

/-- Specification: a line which holds a comment only. -/
def isComment : List Tok → Bool
  | Tok.hash :: _ => true
  | _ => false

/-- C182: with the lines of comment taken out the same script does all that it
is there for, whatever words it is called with: it builds the catalogue, takes
up the operations, builds the lookups and sends the jobs. -/
theorem c182_without_comments (user : List String) (s : State) :
    run (script.filter (fun l => !isComment l)) user s
      = ⟨false, true, true, true, true, false⟩ := by
  have h : commands (script.filter (fun l => !isComment l)) =
      [ ["python", "-m", "eumopps.catalogue.build", "--pathdefault", "$DIRECTORY",
          "rawbinary_inputs.json", "$DIRECTORY/catalogue.nc"],
        ["python", "-m", "eumopps.catalogue.build", "--pathdefault", "$DIRECTORY",
          "--update", "rawbinary_generation.json", "$DIRECTORY/catalogue.nc"],
        ["source", "buildall_lookups.sh", "$DIRECTORY/catalogue.nc"],
        ["source", "buildall_rawbinary.sh", "$DIRECTORY/catalogue.nc"] ] := rfl
  simp [run, h, step, clear, build, positionals, sourceLookups, sourceRawbinary]

/-- C182: a build which is not given two file names changes nothing, in any
state of the directory; a build with two file names and no `--update` makes
the catalogue. -/
theorem c182_build (args : List String) (s : State) :
    ((positionals args).length ≠ 2 → build args s = s)
      ∧ ((positionals args).length = 2 → "--update" ∉ args → (build args s).catalogue = true) := by
  constructor
  · intro h; simp [build, h]
  · intro h hu; simp [build, h, hu]

/-- Specification: the words which are no file names. -/
def isFlag (w : String) : Prop :=
  w = "--update" ∨ w = "--overwrite" ∨ w = "--nochecksum" ∨ w = "--allow_unversioned_code"

/-- C182: options before the two file names do not count as file names. -/
theorem c182_positionals (flags : List String) (path a b : String)
    (hf : ∀ w ∈ flags, isFlag w) (ha : ¬ isFlag a) (hb : ¬ isFlag b)
    (ha' : a ≠ "--pathdefault") (hb' : b ≠ "--pathdefault") :
    positionals ("--pathdefault" :: path :: flags ++ [a, b]) = [a, b] := by
  simp only [isFlag] at hf ha hb
  have h : positionals (flags ++ [a, b]) = [a, b] := by
    induction flags with
    | nil => simp [positionals, ha, hb, ha', hb']
    | cons f fs ih =>
      have h1 := hf f (by simp)
      have hp : f ≠ "--pathdefault" := by
        rcases h1 with h | h | h | h <;> subst h <;> simp
      have ih' := ih (fun w hw => hf w (by simp [hw]))
      cases fs with
      | nil =>
        simp only [List.cons_append, List.nil_append] at ih' ⊢
        rw [positionals, if_neg hp, if_pos h1, ih']
      | cons g gs =>
        simp only [List.cons_append] at ih' ⊢
        rw [positionals, if_neg hp, if_pos h1, ih']
  simp only [List.cons_append]
  rw [positionals.eq_3, if_pos rfl]
  exact h

example : positionals ["--pathdefault", "d", "--update", "--nochecksum", "in.json", "c.nc"]
    = ["in.json", "c.nc"] :=
  c182_positionals ["--update", "--nochecksum"] "d" "in.json" "c.nc" (by simp [isFlag])
    (by simp [isFlag]) (by simp [isFlag]) (by simp) (by simp)

end Verif.Eustace.RawScript
