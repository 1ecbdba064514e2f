import Verif.Eustace.OptimiseJobs.Model
import Verif.Eustace.Insitu.OceanProps
import Verif.Eustace.SphereView.Files

/-!
C161: each region of the level is optimised by exactly one of the submitted jobs, and the merging reads exactly what the jobs
wrote.  Fails: the settings are looked up in a module which does not have them, so that no job writes anything.
-/

namespace Verif.Eustace.OptimiseJobs

open Verif Verif.Eustace.Mesh Verif.Eustace.Locator

/-! ### Text -/

theorem str_decimal (n : ℤ) : str n = Insitu.Ocean.decimal n := rfl

theorem str_ne_nil (n : ℤ) : str n ≠ [] := Insitu.Ocean.decimal_ne_nil n

theorem str_no_space (n : ℤ) : ' ' ∉ str n := by
  intro h
  have := Insitu.Ocean.decimal_not_space n _ h
  exact absurd this (by decide)

theorem str_no_dot (n : ℤ) : '.' ∉ str n := by
  intro h
  rw [str] at h
  split at h
  · rcases List.mem_cons.1 h with h | h
    · exact absurd h (by decide)
    · exact absurd (Insitu.Ocean.toDigits_digit _ _ h) (by decide)
  · exact absurd (Insitu.Ocean.toDigits_digit _ _ h) (by decide)

theorem intOf_str (n : ℤ) : Insitu.Ocean.intOf (str n) = some n := by
  have hs := Insitu.Ocean.strip_of 0 0 _ (Insitu.Ocean.decimal_ne_nil n) (Insitu.Ocean.decimal_not_space n)
  simp only [List.replicate_zero, List.nil_append, List.append_nil] at hs
  rw [str_decimal, Insitu.Ocean.intOf, hs, Insitu.Ocean.decimal]
  by_cases hn : n < 0
  · rw [if_pos hn, Insitu.Ocean.signed, Insitu.Ocean.digitsOf_toDigits]
    show some (-(n.natAbs : ℤ)) = some n
    congr 1
    omega
  · rw [if_neg hn]
    have hd := Insitu.Ocean.toDigits_digit n.toNat
    rw [Insitu.Ocean.signed.eq_def]
    split
    · rename_i ds he
      exact absurd (hd '-' (by rw [he]; exact List.mem_cons_self)) (by decide)
    · rename_i ds he
      exact absurd (hd '+' (by rw [he]; exact List.mem_cons_self)) (by decide)
    · rw [Insitu.Ocean.digitsOf_toDigits]
      show some (n.toNat : ℤ) = some n
      rw [Int.toNat_of_nonneg (by omega)]

theorem str_inj {m n : ℤ} (h : str m = str n) : m = n := by
  have h1 := intOf_str m
  rw [h, intOf_str n] at h1
  exact (Option.some.inj h1).symm

theorem str_value (n : ℤ) : isOption (str n) = false := by
  rw [str]
  split
  · rw [isOption]
    have h1 : (Nat.toDigits 10 n.natAbs).all Char.isDigit = true := List.all_eq_true.2 (Insitu.Ocean.toDigits_digit _)
    have h2 : Nat.toDigits 10 n.natAbs ≠ [] := Nat.toDigits_ne_nil
    simp only [h1, Bool.and_true, Bool.not_eq_false', decide_eq_true_eq]
    simpa using h2
  · have hd := Insitu.Ocean.toDigits_digit n.toNat
    rw [isOption.eq_def]
    split
    · rename_i rest he
      exact absurd (hd '-' (by rw [he]; exact List.mem_cons_self)) (by decide)
    · rfl

theorem append_sep {a b s t : Text} {c : Char} (ha : c ∉ a) (hb : c ∉ b) (h : a ++ c :: s = b ++ c :: t) : a = b ∧ s = t := by
  induction a generalizing b with
  | nil =>
    cases b with
    | nil => simpa using h
    | cons x b =>
      simp only [List.nil_append, List.cons_append, List.cons.injEq] at h
      exact absurd (by rw [h.1]; exact List.mem_cons_self) hb
  | cons x a ih =>
    cases b with
    | nil =>
      simp only [List.nil_append, List.cons_append, List.cons.injEq] at h
      exact absurd (by rw [h.1]; exact List.mem_cons_self) ha
    | cons y b =>
      simp only [List.cons_append, List.cons.injEq] at h
      obtain ⟨h1, h2⟩ := ih (fun m => ha (List.mem_cons_of_mem _ m)) (fun m => hb (List.mem_cons_of_mem _ m)) h.2
      exact ⟨by rw [h.1, h1], h2⟩

theorem wordsFrom_append (w acc rest : Text) (h : ' ' ∉ w) : wordsFrom acc (w ++ rest) = wordsFrom (w.reverse ++ acc) rest := by
  induction w generalizing acc with
  | nil => rfl
  | cons c w ih =>
    have hc : c ≠ ' ' := fun e => h (by rw [e]; exact List.mem_cons_self)
    rw [List.cons_append, wordsFrom, if_neg hc, ih _ (fun m => h (List.mem_cons_of_mem _ m))]
    simp

theorem words_join : ∀ ws : List Text, (∀ w ∈ ws, w ≠ [] ∧ ' ' ∉ w) → shellWords (joinSpace ws) = ws
  | [], _ => rfl
  | [w], h => by
    obtain ⟨h1, h2⟩ := h w List.mem_cons_self
    have := wordsFrom_append w [] [] h2
    rw [List.append_nil, List.append_nil] at this
    rw [joinSpace, shellWords, this, wordsFrom, if_neg (by simpa using h1), List.reverse_reverse]
  | w :: w' :: ws, h => by
    obtain ⟨h1, h2⟩ := h w List.mem_cons_self
    have ih := words_join (w' :: ws) fun x hx => h x (List.mem_cons_of_mem _ hx)
    rw [joinSpace, shellWords, wordsFrom_append w [] _ h2, List.append_nil, wordsFrom, if_pos rfl,
      if_neg (by simpa using h1), List.reverse_reverse]
    rw [shellWords] at ih
    rw [ih]
    simp

/-! ### The regions -/

theorem fold_four (n k : ℕ) : (List.range n).foldl (fun n _ => n * 4) k = k * 4 ^ n := by
  induction n with
  | zero => simp
  | succ n ih => rw [List.range_succ, List.foldl_append, ih]; simp [pow_succ, mul_assoc]

theorem nOperations_eq (n : ℕ) : nOperations n = 20 * 4 ^ n := by
  rw [nOperations, Int.toNat_natCast, fold_four]

/-- **C161.**  At every level there are as many operations as the mesh of that level has triangles. -/
theorem c161_count (srt : Argsort) (level : ℕ) : nOperations level = (sphereMesh srt level).triangles.length := by
  rw [nOperations_eq]
  exact ((c28_counts srt midOnSphere basePoints rfl level).2.2).symm

/-! ### The commands -/

theorem pycommand_words (r : ℤ) : shellWords (pycommand r) =
    ["python2.7".toList, "-m".toList, "eustace.analysis.advanced_standard.examples.optimise".toList,
      "--neighbourhood_level".toList, str 3, "--region_index".toList, str r, "--regionspec".toList, "LocalSubRegion".toList] := by
  have e : pycommand r = joinSpace ["python2.7".toList, "-m".toList,
      "eustace.analysis.advanced_standard.examples.optimise".toList, "--neighbourhood_level".toList, str 3,
      "--region_index".toList, str r, "--regionspec".toList, "LocalSubRegion".toList] := by
    have h : "-m eustace.analysis.advanced_standard.examples.optimise".toList =
      "-m".toList ++ ' ' :: "eustace.analysis.advanced_standard.examples.optimise".toList := by decide
    rw [pycommand, h]
    simp only [joinSpace, List.append_assoc, List.cons_append]
    rfl
  rw [e, words_join]
  intro w hw
  simp only [List.mem_cons, List.not_mem_nil, or_false] at hw
  rcases hw with rfl | rfl | rfl | rfl | rfl | rfl | rfl | rfl | rfl
  all_goals first
    | exact ⟨str_ne_nil _, str_no_space _⟩
    | exact ⟨by decide, by decide⟩

theorem parse_command (r : ℤ) :
    parseArgs defaults ["--neighbourhood_level".toList, str 3, "--region_index".toList, str r, "--regionspec".toList,
      "LocalSubRegion".toList] = .ok ⟨3, r, "LocalSubRegion".toList, none⟩ := by
  have h1 : setOption defaults "--neighbourhood_level".toList (str 3) = .ok defaults := by
    rw [setOption, if_neg (by rw [str_value]; decide), if_pos rfl, intOf_str]
    rfl
  have h2 : setOption defaults "--region_index".toList (str r) = .ok ⟨3, r, "LocalSubRegion".toList, none⟩ := by
    rw [setOption, if_neg (by rw [str_value]; decide), if_neg (by decide), if_pos rfl, intOf_str]
    rfl
  have h3 : setOption ⟨3, r, "LocalSubRegion".toList, none⟩ "--regionspec".toList "LocalSubRegion".toList =
      .ok ⟨3, r, "LocalSubRegion".toList, none⟩ := by
    rw [setOption, if_neg (by decide), if_neg (by decide), if_neg (by decide), if_pos rfl, if_pos (by decide)]
  simp only [parseArgs, h1, h2, h3]

theorem command_arguments (r : ℤ) : moduleArguments (pycommand r) =
    some ("eustace.analysis.advanced_standard.examples.optimise".toList,
      ["--neighbourhood_level".toList, str 3, "--region_index".toList, str r, "--regionspec".toList, "LocalSubRegion".toList]) := by
  rw [moduleArguments, pycommand_words]
  exact if_pos ⟨rfl, rfl⟩

/-- **C161.**  The jobs are one for each triangle of the level, in order; the command line of a job, as the shell and argparse
take it apart, asks for the optimisation of exactly this region, of the kind `LocalSubRegion`, and not for the merging. -/
theorem c161_commands (srt : Argsort) : submitJobs.length = (sphereMesh srt 3).triangles.length ∧
    ∀ r job, submitJobs[r]? = some job → ∃ arguments,
      moduleArguments job.command = some ("eustace.analysis.advanced_standard.examples.optimise".toList, arguments) ∧
      parseArgs defaults arguments = .ok ⟨3, (r : ℕ), "LocalSubRegion".toList, none⟩ := by
  constructor
  · rw [submitJobs, List.length_map, List.length_range]
    exact c161_count srt 3
  · intro r job h
    rw [submitJobs, List.getElem?_map, Option.map_eq_some_iff] at h
    obtain ⟨k, hk, rfl⟩ := h
    obtain ⟨_, rfl⟩ := List.getElem?_eq_some_iff.1 hk
    rw [List.getElem_range]
    exact ⟨_, command_arguments r, parse_command r⟩

example : submitJobs.length = 1280 := by
  rw [submitJobs, List.length_map, List.length_range]
  exact nOperations_eq 3

/-- **C161.**  Whatever level, region and kind of region are asked for, argparse gives exactly these; other kinds are refused. -/
theorem c161_options (a : Args) (l r : ℤ) (kind : Text) :
    (kind ∈ [['L', 'o', 'c', 'a', 'l', 'S', 'u', 'b', 'R', 'e', 'g', 'i', 'o', 'n'],
        ['L', 'o', 'c', 'a', 'l', 'S', 'u', 'p', 'e', 'r', 'T', 'r', 'i', 'a', 'n', 'g', 'l', 'e']] →
      parseArgs a ["--neighbourhood_level".toList, str l, "--region_index".toList, str r, "--regionspec".toList, kind] =
        .ok ⟨l, r, kind, a.merge⟩) ∧
    (kind ∉ [['L', 'o', 'c', 'a', 'l', 'S', 'u', 'b', 'R', 'e', 'g', 'i', 'o', 'n'],
        ['L', 'o', 'c', 'a', 'l', 'S', 'u', 'p', 'e', 'r', 'T', 'r', 'i', 'a', 'n', 'g', 'l', 'e']] →
      ∃ e, parseArgs a ["--neighbourhood_level".toList, str l, "--region_index".toList, str r, "--regionspec".toList, kind] =
        .error e) := by
  have hc : choices = [['L', 'o', 'c', 'a', 'l', 'S', 'u', 'b', 'R', 'e', 'g', 'i', 'o', 'n'],
        ['L', 'o', 'c', 'a', 'l', 'S', 'u', 'p', 'e', 'r', 'T', 'r', 'i', 'a', 'n', 'g', 'l', 'e']] := by decide
  have h1 : setOption a "--neighbourhood_level".toList (str l) = .ok { a with level := l } := by
    rw [setOption, if_neg (by rw [str_value]; decide), if_pos rfl, intOf_str]
  have h2 : setOption { a with level := l } "--region_index".toList (str r) = .ok { a with level := l, region := r } := by
    rw [setOption, if_neg (by rw [str_value]; decide), if_neg (by decide), if_pos rfl, intOf_str]
  rw [← hc]
  constructor
  · intro hk
    have h3 : setOption { a with level := l, region := r } "--regionspec".toList kind = .ok ⟨l, r, kind, a.merge⟩ := by
      have ho : isOption kind = false := by
        rw [hc] at hk
        simp only [List.mem_cons, List.not_mem_nil, or_false] at hk
        rcases hk with rfl | rfl <;> rfl
      rw [setOption, if_neg (by rw [ho]; decide), if_neg (by decide), if_neg (by decide), if_pos rfl, if_pos hk]
    simp only [parseArgs, h1, h2, h3]
  · intro hk
    have h3 : setOption { a with level := l, region := r } "--regionspec".toList kind = .error .other := by
      by_cases ho : isOption kind = true
      · rw [setOption, if_pos ho]
      · rw [setOption, if_neg ho, if_neg (by decide), if_neg (by decide)]
        exact (if_pos rfl).trans (if_neg hk)
    refine ⟨.other, ?_⟩
    simp only [parseArgs, h1, h2, h3]

example : parseArgs defaults ["--neighbourhood_level".toList, str 2, "--region_index".toList, str 7, "--regionspec".toList,
    "LocalSuperTriangle".toList] = .ok ⟨2, 7, "LocalSuperTriangle".toList, none⟩ :=
  (c161_options defaults 2 7 "LocalSuperTriangle".toList).1 (by decide)

/-! ### Names of files -/

theorem jobName_inj {e e' : Text} {r r' : ℤ} {s s' : Text} (he : e = '.' :: s) (he' : e' = '.' :: s')
    (h : jobName e r = jobName e' r') : r = r' ∧ e = e' := by
  rw [jobName, jobName, List.append_assoc, List.append_assoc, List.append_assoc, List.append_assoc] at h
  have h1 := List.append_cancel_left (List.append_cancel_left (List.append_cancel_left h))
  simp only [List.cons.injEq, true_and] at h1
  have h2 := List.append_cancel_left h1
  simp only [List.cons.injEq, true_and] at h2
  rw [he, he'] at h2
  obtain ⟨h3, h4⟩ := append_sep (str_no_dot r) (str_no_dot r') h2
  exact ⟨str_inj h3, by rw [he, he', h4]⟩

/-- **C161.**  No two jobs share a file, and the files of one job are three. -/
theorem c161_job_files : (submitJobs.flatMap fun j => [j.script, j.log, j.err]).Nodup := by
  have hs : ".sh".toList = '.' :: "sh".toList := by decide
  have ho : ".out".toList = '.' :: "out".toList := by decide
  have he : ".err".toList = '.' :: "err".toList := by decide
  rw [List.nodup_flatMap]
  constructor
  · intro j hj
    rw [submitJobs, List.mem_map] at hj
    obtain ⟨r, _, rfl⟩ := hj
    simp only [List.nodup_cons, List.mem_cons, List.not_mem_nil, or_false, not_or, not_false_eq_true, List.nodup_nil, and_true]
    refine ⟨⟨?_, ?_⟩, ?_⟩
    · intro h; exact absurd (jobName_inj hs ho h).2 (by decide)
    · intro h; exact absurd (jobName_inj hs he h).2 (by decide)
    · intro h; exact absurd (jobName_inj ho he h).2 (by decide)
  · rw [submitJobs, List.pairwise_map]
    refine List.nodup_range.imp ?_
    intro a b hab
    rw [Function.onFun, List.disjoint_left]
    intro x hx hy
    simp only [List.mem_cons, List.not_mem_nil, or_false] at hx hy
    apply hab
    have : (a : ℤ) = b := by
      rcases hx with rfl | rfl | rfl <;> rcases hy with hy | hy | hy
      · exact (jobName_inj hs hs hy).1
      · exact (jobName_inj hs ho hy).1
      · exact (jobName_inj hs he hy).1
      · exact (jobName_inj ho hs hy).1
      · exact (jobName_inj ho ho hy).1
      · exact (jobName_inj ho he hy).1
      · exact (jobName_inj he hs hy).1
      · exact (jobName_inj he ho hy).1
      · exact (jobName_inj he he hy).1
    exact_mod_cast this

/-- **C161.**  Regions have files of their own: the name tells the division of the mesh, the level and the region; and none of
them is the file of the merged values. -/
theorem c161_region_files {n l r n' l' r' : ℤ} :
    (regionFile n l r = regionFile n' l' r' → n = n' ∧ l = l' ∧ r = r') ∧ regionFile n l r ≠ mergedFile n' l' := by
  have hnpy : ".npy".toList = '.' :: "npy".toList := by decide
  constructor
  · intro h
    rw [regionFile, regionFile] at h
    have h1 := List.append_cancel_left h
    obtain ⟨a, h2⟩ := append_sep (str_no_dot n) (str_no_dot n') h1
    obtain ⟨b, h3⟩ := append_sep (str_no_dot l) (str_no_dot l') h2
    rw [hnpy] at h3
    obtain ⟨c, _⟩ := append_sep (str_no_dot r) (str_no_dot r') h3
    exact ⟨str_inj a, str_inj b, str_inj c⟩
  · intro h
    rw [regionFile, mergedFile] at h
    have h1 := List.append_cancel_left h
    obtain ⟨_, h2⟩ := append_sep (str_no_dot n) (str_no_dot n') h1
    rw [hnpy] at h2
    obtain ⟨_, h3⟩ := append_sep (str_no_dot l) (str_no_dot l') h2
    have hd : '.' ∈ "npy".toList := by rw [← h3]; simp
    exact absurd hd (by decide)

/-! ### What the merging reads -/

variable {α : Type}

/-- The files after the region has been optimised. -/
def afterFit (fit : ℤ → ℤ → Text → Except PyErr α) (r : ℤ) (d : Disk α) : Disk α :=
  match fit 3 r "LocalSubRegion".toList with
  | .error _ => d
  | .ok theta => d.write (regionFile 7 3 r) theta

theorem run_pycommand {names : List String} (hs : "ShortScaleSetup" ∈ names) (fit : ℤ → ℤ → Text → Except PyErr α)
    (combine : ℤ → ℤ → List (Option α) → Except PyErr α) (r : ℤ) (d : Disk α) :
    runCommand names fit combine (pycommand r) d = afterFit fit r d := by
  rw [runCommand, command_arguments]
  simp only [parseAndRun, parse_command, Args.merges, localOptimisation, divisions, if_pos hs]
  rw [if_neg (by decide), afterFit]
  cases fit 3 r "LocalSubRegion".toList <;> rfl

theorem afterFit_other (fit : ℤ → ℤ → Text → Except PyErr α) {r : ℤ} {name : Text} (h : name ≠ regionFile 7 3 r) (d : Disk α) :
    afterFit fit r d name = d name := by
  rw [afterFit]
  cases fit 3 r "LocalSubRegion".toList with
  | error e => rfl
  | ok theta => exact if_neg h

theorem afterFit_same (fit : ℤ → ℤ → Text → Except PyErr α) (r : ℤ) (d : Disk α) :
    afterFit fit r d (regionFile 7 3 r) = ((fit 3 r "LocalSubRegion".toList).toOption).or (d (regionFile 7 3 r)) := by
  rw [afterFit]
  cases fit 3 r "LocalSubRegion".toList with
  | error e => rfl
  | ok theta => exact if_pos rfl

theorem run_regions {names : List String} (hs : "ShortScaleSetup" ∈ names) (fit : ℤ → ℤ → Text → Except PyErr α)
    (combine : ℤ → ℤ → List (Option α) → Except PyErr α) :
    ∀ (l : List ℕ) (d : Disk α), l.Nodup →
    (∀ r ∈ l, runJobs names fit combine (l.map fun r : ℕ => pycommand r) d (regionFile 7 3 r) =
      ((fit 3 r "LocalSubRegion".toList).toOption).or (d (regionFile 7 3 r))) ∧
    ∀ name, (∀ r ∈ l, name ≠ regionFile 7 3 r) → runJobs names fit combine (l.map fun r : ℕ => pycommand r) d name = d name
  | [], d, _ => ⟨fun _ h => absurd h List.not_mem_nil, fun _ _ => rfl⟩
  | a :: l, d, hn => by
    obtain ⟨ha, hl⟩ := List.nodup_cons.1 hn
    obtain ⟨h1, h2⟩ := run_regions hs fit combine l (afterFit fit a d) hl
    have e : runJobs names fit combine ((a :: l).map fun r : ℕ => pycommand r) d =
        runJobs names fit combine (l.map fun r : ℕ => pycommand r) (afterFit fit a d) := by
      rw [runJobs, List.map_cons, List.foldl_cons, run_pycommand hs]; rfl
    rw [e]
    constructor
    · intro r hr
      rcases List.mem_cons.1 hr with rfl | hr
      · rw [h2 _ fun s hs' hc => ?_, afterFit_same]
        have := (c161_region_files.1 hc).2.2
        exact ha (by rw [show r = s from by exact_mod_cast this]; exact hs')
      · rw [h1 r hr, afterFit_other fit _ d]
        intro hc
        have := (c161_region_files.1 hc).2.2
        exact ha (by rw [← show r = a from by exact_mod_cast this]; exact hr)
    · intro name hname
      rw [h2 name fun r hr => hname r (List.mem_cons_of_mem _ hr), afterFit_other fit (hname a List.mem_cons_self) d]

theorem commands_eq : submitJobs.map Job.command = (List.range (nOperations 3)).map fun r : ℕ => pycommand r := by
  rw [submitJobs, List.map_map]; rfl

/-- **C161** (if the settings were there).  The submitted jobs are run in any order, and any of them may fail: then the file of
a region holds what was found for this region, or if its job failed what it held before, and no other file is touched. -/
theorem c161_files_partial {names : List String} (hs : "ShortScaleSetup" ∈ names) (fit : ℤ → ℤ → Text → Except PyErr α)
    (combine : ℤ → ℤ → List (Option α) → Except PyErr α) (d : Disk α) (commands : List Text)
    (hp : commands.Perm (submitJobs.map Job.command)) :
    (∀ r : ℕ, r < 20 * 4 ^ 3 → runJobs names fit combine commands d (regionFile 7 3 r) =
      ((fit 3 r "LocalSubRegion".toList).toOption).or (d (regionFile 7 3 r))) ∧
    ∀ name, (∀ r : ℕ, r < 20 * 4 ^ 3 → name ≠ regionFile 7 3 r) → runJobs names fit combine commands d name = d name := by
  rw [commands_eq] at hp
  obtain ⟨l, hl, rfl⟩ : ∃ l : List ℕ, l.Perm (List.range (nOperations 3)) ∧ commands = l.map fun r : ℕ => pycommand r := by
    have hinj : Function.Injective fun r : ℕ => pycommand r := by
      intro a b h
      have h1 := pycommand_words a
      simp only at h
      rw [h, pycommand_words b] at h1
      simp only [List.cons.injEq, true_and, and_true] at h1
      exact_mod_cast (str_inj h1).symm
    have hall : ∀ c ∈ commands, ∃ r : ℕ, (fun r : ℕ => pycommand r) r = c := by
      intro c hc
      have := hp.mem_iff.1 hc
      rw [List.mem_map] at this
      obtain ⟨r, _, h⟩ := this
      exact ⟨r, h⟩
    obtain ⟨l, rfl⟩ : ∃ l : List ℕ, commands = l.map fun r : ℕ => pycommand r := by
      clear hp
      induction commands with
      | nil => exact ⟨[], rfl⟩
      | cons c cs ih =>
        obtain ⟨r, hr⟩ := hall c List.mem_cons_self
        obtain ⟨l, hl⟩ := ih fun x hx => hall x (List.mem_cons_of_mem _ hx)
        exact ⟨r :: l, by rw [List.map_cons, hl, ← hr]⟩
    exact ⟨l, (List.map_perm_map_iff hinj).1 hp, rfl⟩
  obtain ⟨h1, h2⟩ := run_regions hs fit combine l d (hl.nodup_iff.2 List.nodup_range)
  have hm : ∀ r : ℕ, r ∈ l ↔ r < 20 * 4 ^ 3 := by
    intro r
    rw [hl.mem_iff, List.mem_range, show nOperations 3 = 20 * 4 ^ 3 from nOperations_eq 3]
  exact ⟨fun r hr => h1 r ((hm r).2 hr), fun name hname => h2 name fun r hr => hname r ((hm r).1 hr)⟩

/-- **C161** (if the settings were there).  The merging after the jobs is given, for the regions in order, what was found for
the region, and nothing for a region whose job failed; and it leaves the files of the regions as they are. -/
theorem c161_merge_partial {names : List String} (hs : "ShortScaleSetup" ∈ names) (fit : ℤ → ℤ → Text → Except PyErr α)
    (combine : ℤ → ℤ → List (Option α) → Except PyErr α) (d : Disk α) (hd : ∀ r : ℕ, r < 20 * 4 ^ 3 → d (regionFile 7 3 r) = none)
    (commands : List Text) (hp : commands.Perm (submitJobs.map Job.command)) (level : ℤ) (spec : Text) :
    mergeHyperparameters names combine level spec (runJobs names fit combine commands d) =
      (combine 7 3 ((List.range (20 * 4 ^ 3)).map fun r : ℕ => (fit 3 r "LocalSubRegion".toList).toOption)).map
        fun merged => (runJobs names fit combine commands d).write (mergedFile 7 3) merged := by
  have hf := (c161_files_partial hs fit combine d commands hp).1
  have e : ((List.range (nOperations 3)).map fun r : ℕ => runJobs names fit combine commands d (regionFile 7 3 r)) =
      (List.range (20 * 4 ^ 3)).map fun r : ℕ => (fit 3 r "LocalSubRegion".toList).toOption := by
    rw [show nOperations 3 = 20 * 4 ^ 3 from nOperations_eq 3]
    refine List.map_congr_left fun r hr => ?_
    rw [hf r (List.mem_range.1 hr), hd r (List.mem_range.1 hr), Option.or_none]
  rw [mergeHyperparameters, divisions, if_pos hs]
  simp only [e]
  cases combine 7 3 ((List.range (20 * 4 ^ 3)).map fun r : ℕ => (fit 3 r "LocalSubRegion".toList).toOption) <;> rfl

theorem regionContents_some {N : ℕ} (l : List (Linear.Vec 2)) :
    regionContents (l.map fun t => some (Content.region (N := N) t)) = .ok (l.map some) := by
  induction l with
  | nil => rfl
  | cons t l ih => rw [List.map_cons, regionContents, ih]; rfl

/-- **C161** (if the settings were there).  When every job succeeds, in any order, the merging afterwards writes finite
parameters for every point of the mesh. -/
theorem c161_everywhere_partial (srt : Argsort) {names : List String} (hs : "ShortScaleSetup" ∈ names)
    (fit : ℤ → ℤ → Text → Linear.Vec 2) (d : Disk (Content (sphereMesh srt 7).points.length))
    (commands : List Text) (hp : commands.Perm (submitJobs.map Job.command)) (level : ℤ) (spec : Text) :
    ∃ (logSigma logRho : Fin (sphereMesh srt 7).points.length → ℝ) (d' : Disk (Content (sphereMesh srt 7).points.length)),
      mergeHyperparameters names (combineFiles srt 7) level spec
        (runJobs names (fun l r s => .ok (.region (fit l r s))) (combineFiles srt 7) commands d) = .ok d' ∧
      d' (mergedFile 7 3) = some (.merged (fun k => some (logSigma k)) fun k => some (logRho k)) := by
  have hf := (c161_files_partial hs (fun l r s => .ok (.region (fit l r s))) (combineFiles srt 7) d commands hp).1
  have e : ((List.range (nOperations 3)).map fun r : ℕ =>
      runJobs names (fun l r s => .ok (.region (fit l r s))) (combineFiles srt 7) commands d (regionFile 7 3 r)) =
      ((List.range (20 * 4 ^ 3)).map fun r : ℕ => fit 3 r "LocalSubRegion".toList).map
        fun t => some (Content.region (N := (sphereMesh srt 7).points.length) t) := by
    rw [show nOperations 3 = 20 * 4 ^ 3 from nOperations_eq 3, List.map_map]
    refine List.map_congr_left fun r hr => ?_
    rw [hf r (List.mem_range.1 hr)]; rfl
  obtain ⟨r, ls, lr, hr, h1, h2⟩ := SphereView.c65_files_complete srt good_plain 7 (by norm_num) 3 (by norm_num)
    ((List.range (20 * 4 ^ 3)).map fun r : ℕ => fit 3 r "LocalSubRegion".toList)
    (by rw [List.length_map, List.length_range, c28_n_triangles srt midOnSphere basePoints rfl 3,
      (c28_counts srt midOnSphere basePoints rfl 3).2.2])
  have hc : combineFiles srt 7 7 3 (((List.range (20 * 4 ^ 3)).map fun r : ℕ => fit 3 r "LocalSubRegion".toList).map
        fun t => some (Content.region (N := (sphereMesh srt 7).points.length) t)) = .ok (.merged r.1 r.2) := by
    rw [combineFiles, regionContents_some]
    simp only
    rw [show SphereView.mergeFiles (sphereMesh srt 7) (3 : ℤ).toNat _ = .ok r from hr]
  refine ⟨ls, lr, (runJobs names (fun l r s => .ok (.region (fit l r s))) (combineFiles srt 7) commands d).write (mergedFile 7 3)
    (.merged r.1 r.2), ?_, ?_⟩
  · rw [mergeHyperparameters, divisions, if_pos hs]
    simp only [e, hc]
  · refine (if_pos rfl).trans ?_
    exact congrArg₂ (fun a b => some (Content.merged (N := (sphereMesh srt 7).points.length) a b)) (funext h1) (funext h2)

example : ∃ names, "ShortScaleSetup" ∈ names ∧ climatologyNames ⊆ names :=
  ⟨"ShortScaleSetup" :: climatologyNames, List.mem_cons_self, List.subset_cons_self _ _⟩

/-! ### Where it fails -/

/-- **C161 fails.**  The settings are looked up in the module `moving_climatology`, which does not have them: whatever the command
line, and whatever the optimisation would find, the program ends with an error, with AttributeError for every command line
which argparse accepts. -/
theorem c161_settings_violated (fit : ℤ → ℤ → Text → Except PyErr α) (combine : ℤ → ℤ → List (Option α) → Except PyErr α)
    (arguments : List Text) (d : Disk α) :
    (∃ e, parseAndRun climatologyNames fit combine arguments d = .error e) ∧
    ((∃ a, parseArgs defaults arguments = .ok a) → parseAndRun climatologyNames fit combine arguments d = .error .attributeError) := by
  have hdiv : divisions climatologyNames = .error .attributeError := if_neg (by decide)
  have key : ∀ a, parseArgs defaults arguments = .ok a →
      parseAndRun climatologyNames fit combine arguments d = .error .attributeError := by
    intro a ha
    simp only [parseAndRun, ha, mergeHyperparameters, localOptimisation, hdiv]
    split <;> rfl
  refine ⟨?_, fun ⟨a, ha⟩ => key a ha⟩
  cases h : parseArgs defaults arguments with
  | error e => exact ⟨e, by simp only [parseAndRun, h]⟩
  | ok a => exact ⟨_, key a h⟩

/-- **C161 fails.**  None of the submitted jobs writes a file. -/
theorem c161_jobs_violated (fit : ℤ → ℤ → Text → Except PyErr α) (combine : ℤ → ℤ → List (Option α) → Except PyErr α)
    (commands : List Text) (d : Disk α) : runJobs climatologyNames fit combine commands d = d := by
  induction commands generalizing d with
  | nil => rfl
  | cons c cs ih =>
    have h : runCommand climatologyNames fit combine c d = d := by
      rw [runCommand]
      split
      · rfl
      · rename_i name arguments _
        obtain ⟨e, he⟩ := (c161_settings_violated fit combine arguments d).1
        rw [he]
    rw [runJobs, List.foldl_cons, h]
    exact ih d

/-- **C161 fails.**  The merging takes no notice of the level it is given: after the regions of any other level have been
optimised, merging this level finds no file at all. -/
theorem c161_level_violated {names : List String} (hs : "ShortScaleSetup" ∈ names) (fit : ℤ → ℤ → Text → Except PyErr α)
    (combine : ℤ → ℤ → List (Option α) → Except PyErr α) (level : ℤ) (hl : level ≠ 3) (spec : Text) (regions : List ℤ) :
    mergeHyperparameters names combine level spec
      (regions.foldl (fun d r => (localOptimisation names fit ⟨level, r, spec, none⟩ d).toOption.getD d) fun _ => none) =
    (combine 7 3 (List.replicate (20 * 4 ^ 3) none)).map fun merged =>
      (regions.foldl (fun d r => (localOptimisation names fit ⟨level, r, spec, none⟩ d).toOption.getD d) fun _ => none).write
        (mergedFile 7 3) merged := by
  have key : ∀ (regions : List ℤ) (d : Disk α), (∀ r : ℤ, d (regionFile 7 3 r) = none) → ∀ r : ℤ,
      (regions.foldl (fun d r => (localOptimisation names fit ⟨level, r, spec, none⟩ d).toOption.getD d) d)
        (regionFile 7 3 r) = none := by
    intro regions
    induction regions with
    | nil => exact fun d hd r => hd r
    | cons a regions ih =>
      intro d hd
      rw [List.foldl_cons]
      refine ih _ fun r => ?_
      simp only [localOptimisation, divisions, if_pos hs]
      cases fit level a spec with
      | error e => exact hd r
      | ok theta =>
        refine (if_neg ?_).trans (hd r)
        intro h
        exact hl ((c161_region_files.1 h).2.1).symm
  generalize hD : (regions.foldl (fun d r => (localOptimisation names fit ⟨level, r, spec, none⟩ d).toOption.getD d)
    fun _ => none) = D
  have hn : ∀ r : ℤ, D (regionFile 7 3 r) = none := by
    intro r
    rw [← hD]
    exact key regions (fun _ => none) (fun _ => rfl) r
  have e : ((List.range (nOperations 3)).map fun r : ℕ => D (regionFile 7 3 r)) = List.replicate (20 * 4 ^ 3) none := by
    rw [show nOperations 3 = 20 * 4 ^ 3 from nOperations_eq 3, List.eq_replicate_iff]
    refine ⟨by rw [List.length_map, List.length_range], ?_⟩
    intro b hb
    obtain ⟨r, _, rfl⟩ := List.mem_map.1 hb
    exact hn r
  rw [mergeHyperparameters, divisions, if_pos hs]
  simp only [e]
  cases combine 7 3 (List.replicate (20 * 4 ^ 3) none) <;> rfl

/-- **C161 fails.**  `--merge False` merges, like any other word. -/
theorem c161_false_violated (names : List String) (fit : ℤ → ℤ → Text → Except PyErr α)
    (combine : ℤ → ℤ → List (Option α) → Except PyErr α) (d : Disk α) (word : Text) (hw : word ≠ []) (ho : isOption word = false) :
    parseAndRun names fit combine ["--merge".toList, word] d = mergeHyperparameters names combine 3 "LocalSubRegion".toList d := by
  have h : setOption defaults "--merge".toList word = .ok { defaults with merge := some word } := by
    rw [setOption, if_neg (by rw [ho]; decide), if_neg (by decide), if_neg (by decide), if_neg (by decide), if_pos rfl]
  simp only [parseAndRun, parseArgs, h]
  exact if_pos (by simpa [Args.merges] using hw)

example : "False".toList ≠ [] ∧ isOption "False".toList = false := by decide

/-- **C161 fails.**  The name of the file does not tell the kind of region: what was found for a region of one kind is lost when
the same region is optimised as the other kind. -/
theorem c161_spec_violated {names : List String} (fit : ℤ → ℤ → Text → Except PyErr α) (level region : ℤ) (spec spec' : Text)
    (d d1 d2 : Disk α) (h1 : localOptimisation names fit ⟨level, region, spec, none⟩ d = .ok d1)
    (h2 : localOptimisation names fit ⟨level, region, spec', none⟩ d1 = .ok d2) :
    localOptimisation names fit ⟨level, region, spec', none⟩ d = .ok d2 := by
  simp only [localOptimisation] at h1 h2 ⊢
  cases hn : divisions names with
  | error e => rw [hn] at h1; cases h1
  | ok n =>
    simp only [hn] at h1 h2 ⊢
    cases hf : fit level region spec with
    | error e => rw [hf] at h1; cases h1
    | ok theta =>
      simp only [hf] at h1
      cases hg : fit level region spec' with
      | error e => rw [hg] at h2; cases h2
      | ok theta' =>
        simp only [hg] at h2 ⊢
        cases h1
        cases h2
        congr 1
        funext name
        by_cases hc : name = regionFile n level region
        · exact (if_pos hc).trans (if_pos hc).symm
        · exact (if_neg hc).trans ((if_neg hc).trans (if_neg hc)).symm

end Verif.Eustace.OptimiseJobs
