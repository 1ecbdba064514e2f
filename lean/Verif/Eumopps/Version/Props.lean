import Verif.Eumopps.Version.Model
import Verif.Eumopps.Build.Props
import Verif.Eumopps.Run.Props
import Verif.Eustace.Insitu.OceanProps
import Verif.PyLemmas

/-! C163: operations are run by the code with which the catalogue was built. -/

namespace Verif.Eumopps.Version

open Verif Verif.Eumopps.Catalogue Verif.Eumopps.Operation Verif.Eumopps.Run Verif.Eumopps.Build
open Verif.Eustace.Insitu.Ocean (intOf strip signed digitsOf toDigits_digit digitsOf_toDigits digit_not_space)

/-! ### Specification -/

/-- The state of a working copy as far as `svnversion` tells it. -/
inductive WorkingCopy where
  | versioned (low high : Nat) (modified switched sparse : Bool)
  | unversioned
  deriving DecidableEq

/-- What `svnversion` writes (its documentation): revisions, `M` for modifications, `S` for switched and `P` for partial copies. -/
def report : WorkingCopy → Text
  | .versioned low high modified switched sparse =>
    Nat.toDigits 10 low ++ ((if low = high then [] else ':' :: Nat.toDigits 10 high) ++
      ((if modified then ['M'] else []) ++ ((if switched then ['S'] else []) ++ if sparse then ['P'] else []))) ++ ['\n']
  | .unversioned => "Unversioned directory\n".toList

/-- A copy of one revision, as it is in the repository. -/
def Clean (w : WorkingCopy) (r : Nat) : Prop := w = .versioned r r false false false

/-- A machine with working copies of both packages, and the code in them. -/
structure Machine (C : Type) where
  copies : Package → WorkingCopy
  code : Package → C
  rpm : Text

/-- What programs say on it. -/
def Machine.host (m : Machine C) : Host := ⟨fun p => some (report (m.copies p)), some m.rpm⟩

/-- Clean copies have the code of the repository. -/
def Machine.Faithful (m : Machine C) (repository : Nat → Package → C) : Prop :=
  ∀ p r, Clean (m.copies p) r → m.code p = repository r p

/-- The name of a package. -/
def Package.text : Package → Text
  | .eumopps => "eumopps".toList
  | .eustace => "eustace".toList

/-- An operation is run by the code of a package: that of eumopps, and that which has its module. -/
def Uses (op : StoredOp) (p : Package) : Prop :=
  p = .eumopps ∨ (p.text ++ ['.']) <+: (moduleName op.pythonClass op.pythonFunction).toList

/-! ### Texts -/

theorem strip_line {s : Text} (hne : s ≠ []) (h : ∀ c ∈ s, c.isWhitespace = false) : strip (s ++ ['\n']) = s := by
  cases s with
  | nil => exact absurd rfl hne
  | cons c t =>
    have hc := h c List.mem_cons_self
    rw [strip, List.cons_append, List.dropWhile_cons_of_neg (by rw [hc]; decide), ← List.cons_append, List.reverse_append,
      List.reverse_singleton, List.singleton_append, List.dropWhile_cons_of_pos (by decide)]
    have hlast : ∀ (l : Text), (∀ c ∈ l, c.isWhitespace = false) → l.dropWhile Char.isWhitespace = l := by
      intro l hl
      cases l with
      | nil => rfl
      | cons a b => rw [List.dropWhile_cons_of_neg (by rw [hl a List.mem_cons_self]; decide)]
    rw [hlast _ (fun a ha => h a (List.mem_reverse.1 ha)), List.reverse_reverse]

theorem signed_digit {c : Char} {t : Text} (h : c.isDigit = true) : signed (c :: t) = (digitsOf (c :: t)).map fun n : Nat => (n : Int) := by
  unfold signed
  split
  · rename_i e
    injection e with e _
    subst e
    exact absurd h (by decide)
  · rename_i e
    injection e with e _
    subst e
    exact absurd h (by decide)
  · rfl

theorem parse_line {low : Nat} {rest : Text} (h : ∀ c ∈ rest, c.isWhitespace = false) :
    parseRevisionString (Nat.toDigits 10 low ++ rest ++ ['\n']) =
      (digitsOf (Nat.toDigits 10 low ++ rest)).map fun n : Nat => (n : Int) := by
  have hne : Nat.toDigits 10 low ++ rest ≠ [] := by
    intro e
    exact Nat.toDigits_ne_nil (List.append_eq_nil_iff.1 e).1
  rw [parseRevisionString, intOf, strip_line hne]
  · cases hd : Nat.toDigits 10 low with
    | nil => exact absurd hd Nat.toDigits_ne_nil
    | cons c t =>
      rw [List.cons_append]
      exact signed_digit (toDigits_digit low c (by rw [hd]; exact List.mem_cons_self))
  · intro c hc
    rcases List.mem_append.1 hc with hc | hc
    · exact digit_not_space (toDigits_digit _ c hc)
    · exact h c hc

theorem digitsOf_bad {s : Text} {c : Char} (hc : c ∈ s) (h : c.isDigit = false) : digitsOf s = none := by
  rw [digitsOf, if_neg]
  rintro ⟨_, h2⟩
  have := List.all_eq_true.1 h2 c hc
  rw [h] at this
  cases this

/-- The number which is read from a report. -/
theorem parse_report (w : WorkingCopy) (n : Int) : parseRevisionString (report w) = some n ↔ ∃ r : Nat, Clean w r ∧ n = r := by
  cases w with
  | unversioned =>
    constructor
    · intro h
      have : parseRevisionString (report .unversioned) = none := by decide
      rw [this] at h
      cases h
    · rintro ⟨r, h, _⟩
      cases h
  | versioned low high modified switched sparse =>
    have hspace : ∀ c ∈ ((if low = high then [] else ':' :: Nat.toDigits 10 high) ++ ((if modified then ['M'] else []) ++
        ((if switched then ['S'] else []) ++ if sparse then ['P'] else [])) : Text), c.isWhitespace = false := by
      intro c hc
      rcases List.mem_append.1 hc with hc | hc
      · split at hc
        · cases hc
        · rcases List.mem_cons.1 hc with rfl | hc
          · decide
          · exact digit_not_space (toDigits_digit _ c hc)
      · revert hc
        cases modified <;> cases switched <;> cases sparse <;> simp <;> (intro h; revert h) <;> rintro h <;>
          (rcases h with rfl | rfl | rfl) <;> decide
    unfold report
    rw [parse_line hspace]
    by_cases hb : low = high ∧ modified = false ∧ switched = false ∧ sparse = false
    · obtain ⟨rfl, rfl, rfl, rfl⟩ := hb
      simp only [if_true, Bool.false_eq_true, if_false, List.append_nil, digitsOf_toDigits, Option.map_some, Option.some.injEq]
      constructor
      · rintro rfl
        exact ⟨low, rfl, rfl⟩
      · rintro ⟨r, h, rfl⟩
        cases h
        rfl
    · constructor
      · intro h
        exfalso
        have : ∃ c ∈ Nat.toDigits 10 low ++ ((if low = high then [] else ':' :: Nat.toDigits 10 high) ++
            ((if modified then ['M'] else []) ++ ((if switched then ['S'] else []) ++ if sparse then ['P'] else []))),
            c.isDigit = false := by
          by_cases h1 : low = high
          · by_cases h2 : modified = true
            · exact ⟨'M', by simp [h2], by decide⟩
            · by_cases h3 : switched = true
              · exact ⟨'S', by simp [h3], by decide⟩
              · by_cases h4 : sparse = true
                · exact ⟨'P', by simp [h4], by decide⟩
                · exact absurd ⟨h1, by simpa using h2, by simpa using h3, by simpa using h4⟩ hb
          · exact ⟨':', by simp [h1], by decide⟩
        obtain ⟨c, hc, hd⟩ := this
        rw [digitsOf_bad hc hd] at h
        cases h
      · rintro ⟨r, h, _⟩
        exact absurd (by cases h; exact ⟨rfl, rfl, rfl, rfl⟩) hb

theorem ofDigitChars_zeros (k : Nat) (s : Text) : Nat.ofDigitChars 10 (List.replicate k '0' ++ s) 0 = Nat.ofDigitChars 10 s 0 := by
  induction k with
  | zero => rfl
  | succ k ih =>
    rw [List.replicate_succ, List.cons_append, Nat.ofDigitChars_cons]
    exact ih

theorem id_injective {r q : Nat} (h : revisionIdForNumber r = revisionIdForNumber q) : r = q := by
  have hv : ∀ r : Nat, Nat.ofDigitChars 10 (revisionIdForNumber r).tail 0 = r := by
    intro r
    unfold revisionIdForNumber zeroPad
    rw [if_neg (by omega), List.tail_cons, ofDigitChars_zeros]
    exact Nat.ofDigitChars_ten_toDigits
  rw [← hv r, ← hv q, h]

theorem id_head (n : Int) : ∃ t, revisionIdForNumber n = 'R' :: t := ⟨_, rfl⟩

theorem id_ne_bypass (n : Int) : revisionIdForNumber n ≠ bypassWarning := by
  intro h
  obtain ⟨t, ht⟩ := id_head n
  rw [ht] at h
  exact absurd (List.cons.inj h).1 (by decide)

/-! ### Identifiers -/

/-- C163: the identifier of a clean copy has its revision; other copies have none, unless that is allowed, in which case it says so. -/
theorem c163_identifier (allow : Bool) (w : WorkingCopy) (s : Text) : revisionId allow (some (report w)) = .ok s ↔
    (∃ r : Nat, Clean w r ∧ s = revisionIdForNumber r) ∨ (allow = true ∧ (∀ r, ¬ Clean w r) ∧ s = "UNVERSIONED".toList) := by
  unfold revisionId
  simp only
  cases hp : parseRevisionString (report w) with
  | some n =>
    obtain ⟨r, hr, rfl⟩ := (parse_report w n).1 hp
    constructor
    · intro h
      cases h
      exact .inl ⟨r, hr, rfl⟩
    · rintro (⟨q, hq, rfl⟩ | ⟨_, h, _⟩)
      · unfold Clean at hr hq
        rw [hr] at hq
        cases hq
        rfl
      · exact absurd hr (h r)
  | none =>
    have hno : ∀ r, ¬ Clean w r := by
      intro r hr
      have := (parse_report w r).2 ⟨r, hr, rfl⟩
      rw [hp] at this
      cases this
    constructor
    · intro h
      cases allow with
      | false => cases h
      | true =>
        cases h
        exact .inr ⟨rfl, hno, rfl⟩
    · rintro (⟨r, hr, _⟩ | ⟨rfl, _, rfl⟩)
      · exact absurd hr (hno r)
      · rfl

/-- C163: identifiers tell revisions apart, and from unversioned code. -/
theorem c163_distinct (r q : Nat) : (revisionIdForNumber r = revisionIdForNumber q ↔ r = q) ∧
    revisionIdForNumber r ≠ "UNVERSIONED".toList :=
  ⟨⟨id_injective, fun h => h ▸ rfl⟩, id_ne_bypass r⟩

/-- Revision 1335. -/
example : revisionId false (some (report (.versioned 1335 1335 false false false))) = .ok "R001335".toList := by decide
example : revisionId false (some (report (.versioned 1335 1340 true false false))) = .error .other := by decide

/-! ### Tool chains -/

theorem ofList_injective {a b : Text} (h : String.ofList a = String.ofList b) : a = b := by
  have := congrArg String.toList h
  simpa using this

theorem eumopps_ok {h : Host} {allow : Bool} {l : List String} (e : eumoppsVersions h allow = .ok l) :
    ∃ s, revisionId allow (h.svnversion .eumopps) = .ok s ∧ l = [String.ofList ("eumopps-".toList ++ s)] := by
  unfold eumoppsVersions at e
  cases hr : revisionId allow (h.svnversion .eumopps) with
  | error x => rw [hr] at e; cases e
  | ok s => rw [hr] at e; cases e; exact ⟨s, rfl, rfl⟩

theorem eustace_ok {h : Host} {allow : Bool} {l : List String} (e : eustaceVersions h allow = .ok l) :
    ∃ out s, h.rpm = some out ∧ revisionId allow (h.svnversion .eustace) = .ok s ∧
      l = [String.ofList (strip out), String.ofList ("eustace-".toList ++ s)] := by
  unfold eustaceVersions at e
  cases ho : h.rpm with
  | none => rw [ho] at e; cases e
  | some out =>
    rw [ho] at e
    simp only at e
    cases hr : revisionId allow (h.svnversion .eustace) with
    | error x => rw [hr] at e; cases e
    | ok s => rw [hr] at e; cases e; exact ⟨out, s, rfl, rfl, rfl⟩

/-- What is in a tool chain. -/
theorem toolchain_ok {h : Host} {allow : Bool} {name : String} {l : List String} (e : runtimeToolchain h allow name = .ok l) :
    ∃ s b, revisionId allow (h.svnversion .eumopps) = .ok s ∧ l = String.ofList ("eumopps-".toList ++ s) :: b ∧
      (String.ofList (name.toList.takeWhile (· ≠ '.')) = "eustace" → eustaceVersions h allow = .ok b) := by
  unfold runtimeToolchain at e
  simp only at e
  split at e
  · cases e
  · rename_i p hp
    cases ha : eumoppsVersions h allow with
    | error x => rw [ha] at e; cases e
    | ok a =>
      rw [ha] at e
      cases hb : p with
      | error x => rw [hb] at e; cases e
      | ok b =>
        rw [hb] at e
        cases e
        obtain ⟨s, hs, rfl⟩ := eumopps_ok ha
        refine ⟨s, b, hs, rfl, fun hn => ?_⟩
        rw [hn] at hp
        rw [if_neg (by decide), if_pos rfl] at hp
        injection hp with hp
        rw [hp, hb]

theorem first_part {name : String} (h : ("eustace".toList ++ ['.']) <+: name.toList) :
    String.ofList (name.toList.takeWhile (· ≠ '.')) = "eustace" := by
  obtain ⟨t, ht⟩ := h
  rw [← ht]
  rfl

theorem clean_of_equal {allow : Bool} {a b : WorkingCopy} {s : Text} (ha : revisionId allow (some (report a)) = .ok s)
    (hb : revisionId false (some (report b)) = .ok s) : ∃ r, Clean a r ∧ Clean b r := by
  rcases (c163_identifier _ _ _).1 hb with ⟨r, hr, rfl⟩ | ⟨h, _⟩
  · rcases (c163_identifier _ _ _).1 ha with ⟨q, hq, e⟩ | ⟨_, _, e⟩
    · rw [id_injective e] at hr
      exact ⟨q, hq, hr⟩
    · exact absurd e (id_ne_bypass r)
  · cases h

theorem mem_of_load {ops : List StoredOp} {m : String} {op : StoredOp} (h : loadOperation ops m = .ok op) : op ∈ ops := by
  unfold loadOperation at h
  cases hf : findoperation ops m with
  | error e => rw [hf] at h; cases h
  | ok g =>
    rw [hf] at h
    cases g with
    | none => cases h
    | some g =>
      cases h
      obtain ⟨i, _, hi, _⟩ := c22_found.1 hf
      exact List.mem_of_getElem? hi

/-- What was run, and its tool chain. -/
theorem commandrun_ran {h : Host} {flag : Bool} {w : World α} {ts m : String} {index : Int} {ubs batch : Option Int} {jl allow : Bool}
    {t : Tree} {a : α} {warned : Bool} (e : commandrun h flag w ts m index ubs batch jl allow = .ok (.ran t a warned)) :
    ∃ op current, loadOperation w.ops m = .ok op ∧
      runtimeToolchain h flag (moduleName op.pythonClass op.pythonFunction) = .ok current ∧
      warned = decide (current ≠ op.toolchain) ∧ (current = op.toolchain ∨ allow = true) := by
  unfold commandrun at e
  cases hi : operationIndex index ubs batch with
  | error x => rw [hi] at e; cases e
  | ok i =>
    rw [hi] at e
    simp only at e
    cases ho : loadOperation w.ops m with
    | error x => rw [ho] at e; cases e
    | ok op =>
      rw [ho] at e
      simp only at e
      cases hc : runtimeToolchain h flag (moduleName op.pythonClass op.pythonFunction) with
      | error x => rw [hc] at e; cases e
      | ok current =>
        rw [hc] at e
        simp only at e
        cases ht : resolveAt w op i ts with
        | error x => rw [ht] at e; cases e
        | ok t' =>
          rw [ht] at e
          simp only [gate] at e
          split at e
          · cases e
          · split at e
            · cases e
            · rename_i hg
              cases hx : operationRun w.exec op t' with
              | error x => rw [hx] at e; cases e
              | ok v =>
                rw [hx] at e
                cases e
                refine ⟨op, current, rfl, hc, rfl, ?_⟩
                by_cases h1 : current = op.toolchain
                · exact .inl h1
                · right
                  cases allow with
                  | true => rfl
                  | false => exact absurd ⟨h1, rfl⟩ hg

/-- What a build stores as tool chain. -/
theorem build_toolchain {h : Host} {flag : Bool} {search : DataSet → Except PyErr DataSet} {id : String} {file : Option FullCatalogue}
    {d : Description} {update : Bool} {pd : Option String} {c : FullCatalogue}
    (e : buildVersioned h flag search id file d update none pd = .ok c) {op : StoredOp} (hop : op ∈ c.operations)
    (hnew : update = true → op ∉ (file.map (·.operations)).getD []) :
    runtimeToolchain h flag (moduleName op.pythonClass op.pythonFunction) = .ok op.toolchain := by
  unfold buildVersioned at e
  split at e
  · cases e
  · split at e
    · cases e
    · rename_i l hl
      obtain ⟨_, new, hn, hops⟩ := c21_stored e
      have hmem : op ∈ new := by
        rw [hops] at hop
        rcases List.mem_append.1 hop with h1 | h1
        · cases update with
          | false => simp at h1
          | true => exact absurd (by simpa using h1) (hnew rfl)
        · exact h1
      obtain ⟨o, ho, hs⟩ : ∃ o ∈ d.operations, StoredFor ⟨search, fun o => ((runtimeToolchain h flag
          (moduleName o.pythonClass o.pythonFunction)).toOption).getD [], id⟩ o op := by
        clear hops e hl
        generalize d.operations = os at hn
        induction hn with
        | nil => simp at hmem
        | @cons o g os l h1 _ ih =>
          rcases List.mem_cons.1 hmem with rfl | hm
          · exact ⟨o, List.mem_cons_self, h1⟩
          · obtain ⟨o', ho', hs⟩ := ih hm
            exact ⟨o', List.mem_cons_of_mem _ ho', hs⟩
      obtain ⟨_, h2, h3, h4, _⟩ := hs
      obtain ⟨x, _, hx⟩ : ∃ x ∈ l, runtimeToolchain h flag (moduleName o.pythonClass o.pythonFunction) = .ok x := by
        clear hops e hn h2 h3 h4
        generalize d.operations = os at hl ho
        induction os generalizing l with
        | nil => simp at ho
        | cons q os ih =>
          rw [List.mapM_cons] at hl
          cases hq : runtimeToolchain h flag (moduleName q.pythonClass q.pythonFunction) with
          | error x => simp [hq, bind, Except.bind] at hl
          | ok x =>
            simp only [hq, bind, Except.bind] at hl
            cases hr : os.mapM fun o => runtimeToolchain h flag (moduleName o.pythonClass o.pythonFunction) with
            | error y => rw [hr] at hl; cases hl
            | ok y =>
              rw [hr] at hl
              cases hl
              rcases List.mem_cons.1 ho with rfl | ho
              · exact ⟨x, List.mem_cons_self, hq⟩
              · obtain ⟨z, hz, hz'⟩ := ih y hr ho
                exact ⟨z, List.mem_cons_of_mem _ hz, hz'⟩
      rw [h2, h3, h4]
      show _ = Except.ok ((runtimeToolchain h flag (moduleName o.pythonClass o.pythonFunction)).toOption.getD [])
      rw [hx]
      rfl

/-- C163: an operation of a catalogue is run, unless unversioned code is allowed, only by the code with which it was put there,
whether or not unversioned code was allowed then: the copies of all packages which it uses are clean and at the same revision. -/
theorem c163_same_code {C : Type} (repository : Nat → Package → C) (m₁ m₂ : Machine C) (h₁ : m₁.Faithful repository)
    (h₂ : m₂.Faithful repository) {flag : Bool} {search : DataSet → Except PyErr DataSet} {id : String} {file : Option FullCatalogue}
    {d : Description} {update : Bool} {pd : Option String} {c : FullCatalogue}
    (hb : buildVersioned m₁.host flag search id file d update none pd = .ok c) {w : World α} (hw : w.ops = c.operations)
    {ts m : String} {index : Int} {ubs batch : Option Int} {jl : Bool} {t : Tree} {a : α} {warned : Bool}
    (hr : commandrunMain m₂.host w ts m index ubs batch jl false = .ok (.ran t a warned)) :
    warned = false ∧ ∃ op, loadOperation w.ops m = .ok op ∧
      ((update = true → op ∉ (file.map (·.operations)).getD []) → ∀ p, Uses op p → m₁.code p = m₂.code p ∧
        ∃ r, Clean (m₁.copies p) r ∧ Clean (m₂.copies p) r) := by
  obtain ⟨op, current, ho, hc, hwarn, hg⟩ := commandrun_ran hr
  have heq : current = op.toolchain := by
    rcases hg with h | h
    · exact h
    · cases h
  subst heq
  refine ⟨by simpa using hwarn, op, ho, fun hnew p hp => ?_⟩
  have hold := build_toolchain hb (hw ▸ mem_of_load ho) hnew
  obtain ⟨s, b, hs, hl, he⟩ := toolchain_ok hold
  obtain ⟨s', b', hs', hl', he'⟩ := toolchain_ok hc
  rw [hl] at hl'
  obtain ⟨e1, e2⟩ := List.cons.inj hl'
  subst e2
  have e1 : s = s' := List.append_cancel_left (ofList_injective e1)
  subst e1
  have hclean : ∃ r, Clean (m₁.copies p) r ∧ Clean (m₂.copies p) r := by
    cases p with
    | eumopps => exact clean_of_equal hs hs'
    | eustace =>
      rcases hp with hp | hp
      · cases hp
      · obtain ⟨o1, r1, _, hr1, hb1⟩ := eustace_ok (he (first_part hp))
        obtain ⟨o2, r2, _, hr2, hb2⟩ := eustace_ok (he' (first_part hp))
        rw [hb1] at hb2
        simp only [List.cons.injEq, and_true] at hb2
        have : r1 = r2 := List.append_cancel_left (ofList_injective hb2.2)
        subst this
        exact clean_of_equal hr1 hr2
  obtain ⟨r, hr1, hr2⟩ := hclean
  exact ⟨(h₁ p r hr1).trans (h₂ p r hr2).symm, r, hr1, hr2⟩

/-- C163: a copy which is not clean runs nothing unless that is allowed. -/
theorem c163_refused {C : Type} (m : Machine C) {w : World α} {ts name : String} {index : Int} {ubs batch : Option Int} {jl : Bool}
    {t : Tree} {a : α} {warned : Bool} (hr : commandrunMain m.host w ts name index ubs batch jl false = .ok (.ran t a warned)) :
    ∃ r, Clean (m.copies .eumopps) r := by
  obtain ⟨op, current, _, hc, _, _⟩ := commandrun_ran hr
  obtain ⟨s, _, hs, _, _⟩ := toolchain_ok hc
  rcases (c163_identifier _ _ _).1 hs with ⟨r, h, _⟩ | ⟨h, _⟩
  · exact ⟨r, h⟩
  · cases h

/-! ### Where it fails -/

/-- An operation of the package eustace. -/
def sampleOp (toolchain : List String) : StoredOp := ⟨none, none, some "eustace.f", toolchain, 1, .leaf (.lit (.int 7))⟩

/-- C163 fails where unversioned code is allowed: between two different copies with modifications there is not even a warning. -/
theorem c163_unversioned_violated {C : Type} (x y : C) : ∃ m₁ m₂ : Machine C, m₁.code = (fun _ => x) ∧ m₂.code = (fun _ => y) ∧
    ∃ c, runtimeToolchain m₁.host true "eustace.f" = .ok c ∧
      commandrunMain m₂.host ⟨⟨[]⟩, [sampleOp c], "id", fun _ => [], fun _ => .ok (5 : Nat)⟩ "now" "eustace.f" 0 none none false true =
        .ok (.ran (.leaf (.lit (.int 7))) 5 false) :=
  ⟨⟨fun _ => .versioned 10 10 true false false, fun _ => x, []⟩, ⟨fun _ => .versioned 20 20 true false false, fun _ => y, []⟩, rfl, rfl,
    ["eumopps-UNVERSIONED", "", "eustace-UNVERSIONED"],
    by
      show runtimeToolchain ⟨fun _ => some (report (.versioned 10 10 true false false)), some []⟩ true "eustace.f" = _
      decide,
    by
      show commandrunMain ⟨fun _ => some (report (.versioned 20 20 true false false)), some []⟩
        (⟨⟨[]⟩, [sampleOp ["eumopps-UNVERSIONED", "", "eustace-UNVERSIONED"]], "id", fun _ => [], fun _ => .ok 5⟩ : World Nat)
        "now" "eustace.f" 0 none none false true = _
      decide⟩

/-- C163 fails in a process which has once allowed unversioned code: a later build which does not allow it records such code. -/
theorem c163_sticky_violated : ∃ (m : Machine Unit) (d : Description) (c : FullCatalogue), (∀ p r, ¬ Clean (m.copies p) r) ∧
    (buildFromJsonFile m.host false (fun d => .ok d) "id" none d false none none false).2 = .error .other ∧
    (buildFromJsonFile m.host (buildFromJsonFile m.host false (fun d => .ok d) "id" none ⟨[], []⟩ false none none true).1
      (fun d => .ok d) "id" none d false none none false).2 = .ok c :=
  ⟨⟨fun _ => .unversioned, fun _ => (), []⟩, ⟨[⟨"x", "", []⟩], []⟩, ⟨[⟨"x", "", []⟩], [], "id"⟩, fun _ _ h => (nomatch h), by decide,
    by decide⟩

/-- C163: where there is no program `svnversion`, nothing can be run or even listed, also if unversioned code is allowed. -/
theorem c163_no_program_violated (h : Host) (hh : h.svnversion .eumopps = none) (flag : Bool) (w : World α) (ts m : String) (index : Int)
    (ubs batch : Option Int) (jl allow : Bool) : ∃ e, commandrun h flag w ts m index ubs batch jl allow = .error e := by
  unfold commandrun
  cases operationIndex index ubs batch with
  | error e => exact ⟨e, rfl⟩
  | ok i =>
    simp only
    cases loadOperation w.ops m with
    | error e => exact ⟨e, rfl⟩
    | ok op =>
      simp only
      cases hc : runtimeToolchain h flag (moduleName op.pythonClass op.pythonFunction) with
      | error e => exact ⟨e, rfl⟩
      | ok l =>
        obtain ⟨s, _, hs, _, _⟩ := toolchain_ok hc
        rw [hh] at hs
        cases hs

/-- C163: a copy which is not clean does not let operations be listed. -/
theorem c163_list_violated {C : Type} (m : Machine C) (hm : ∀ r, ¬ Clean (m.copies .eumopps) r) (w : World α) (ts name : String)
    (index : Int) (ubs batch : Option Int) : ∃ e, commandrunMain m.host w ts name index ubs batch true false = .error e := by
  unfold commandrunMain commandrun
  cases operationIndex index ubs batch with
  | error e => exact ⟨e, rfl⟩
  | ok i =>
    simp only
    cases loadOperation w.ops name with
    | error e => exact ⟨e, rfl⟩
    | ok op =>
      simp only
      cases hc : runtimeToolchain m.host false (moduleName op.pythonClass op.pythonFunction) with
      | error e => exact ⟨e, rfl⟩
      | ok l =>
        obtain ⟨s, _, hs, _, _⟩ := toolchain_ok hc
        rcases (c163_identifier _ _ _).1 hs with ⟨r, h, _⟩ | ⟨h, _⟩
        · exact absurd h (hm r)
        · cases h

/-- A clean copy of one revision runs an operation recorded by another clean copy of it. -/
example : commandrunMain (Machine.host ⟨fun _ => .versioned 12 12 false false false, fun _ => (), "vm-2\n".toList⟩)
    ⟨⟨[]⟩, [sampleOp ["eumopps-R000012", "vm-2", "eustace-R000012"]], "id", fun _ => [], fun _ => .ok (5 : Nat)⟩ "now" "eustace.f" 0
    none none false false = .ok (.ran (.leaf (.lit (.int 7))) 5 false) := by decide

/-- The build which records it. -/
example : buildVersioned (Machine.host ⟨fun _ => .versioned 12 12 false false false, fun _ => (), "vm-2\n".toList⟩) false (fun d => .ok d)
    "id" none ⟨[], [⟨none, none, some "eustace.f", ⟨.leaf (.lit (.int 7)), ⟨1, fun _ => .ok 0, fun _ => .ok 0, fun _ _ => ⟨"", none⟩,
      fun _ => true⟩, []⟩⟩]⟩ false none none =
    .ok ⟨[], [sampleOp ["eumopps-R000012", "vm-2", "eustace-R000012"]], "id"⟩ := by decide +kernel

end Verif.Eumopps.Version
