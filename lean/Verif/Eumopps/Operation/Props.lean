import Verif.Eumopps.Operation.Lemmas

/-! Properties C09, C10 and C66: alignment of per-operation parameters and selection of one operation. -/
namespace Verif.Eumopps.Operation
open Verif Verif.Py Verif.Eumopps.Catalogue Verif.Eumopps.Placeholder Verif.Eumopps.Placeholder.Spec Spec

theorem resolve_ok {op : Op} {cat cat' : Catalogue} {pd : Option String} {t' : Tree} {n : Nat}
    (h : resolveOperationReferences op cat pd = .ok (t', n, cat')) :
    ∃ cat1 t1 skip, addDatasets op cat pd = .ok cat1 ∧
      walk (resolveInput op.step cat1) op.runmodule (List.replicate op.step.count false) = .ok (t1, skip) ∧
      n = (restrictTo skip).length ∧ walk (resolveOutput op.step (restrictTo skip)) t1 cat1 = .ok (t', cat') := by
  unfold resolveOperationReferences at h
  cases h1 : addDatasets op cat pd with
  | error e => rw [h1] at h; cases h
  | ok cat1 =>
    rw [h1] at h
    simp only at h
    cases h2 : walk (resolveInput op.step cat1) op.runmodule (List.replicate op.step.count false) with
    | error e => rw [h2] at h; cases h
    | ok r =>
      obtain ⟨t1, skip⟩ := r
      rw [h2] at h
      simp only at h
      cases h3 : walk (resolveOutput op.step (restrictTo skip)) t1 cat1 with
      | error e => rw [h3] at h; cases h
      | ok r =>
        obtain ⟨t2, c2⟩ := r
        rw [h3] at h
        simp only [Except.ok.injEq, Prod.mk.injEq] at h
        obtain ⟨rfl, rfl, rfl⟩ := h
        exact ⟨cat1, t1, skip, rfl, h2, rfl, h3⟩

theorem withPath_ok {pd : Option String} {d d' : DataSet} (h : withPath pd d = .ok d') :
    d'.name = d.name ∧ d'.subsets = d.subsets ∧ d'.path ≠ "" ∧ (d.path ≠ "" → d'.path = d.path) ∧
      (d.path = "" → pd = some d'.path) := by
  unfold withPath at h
  split at h
  · rename_i h0
    cases pd with
    | none => cases h
    | some q =>
      simp only at h
      split at h
      · cases h
      · rename_i hq; cases h; exact ⟨rfl, rfl, hq, fun h => absurd h0 h, fun _ => rfl⟩
  · rename_i hq; cases h; exact ⟨rfl, rfl, hq, fun _ => rfl, fun h => absurd h hq⟩

theorem addDatasets_ok {op : Op} {cat cat1 : Catalogue} {pd : Option String} (h : addDatasets op cat pd = .ok cat1) :
    Spec.Added op.newdatasets pd cat cat1 := by
  unfold addDatasets at h
  cases hm : op.newdatasets.mapM (withPath pd) with
  | error e => rw [hm] at h; cases h
  | ok new =>
    rw [hm] at h
    have hc : cat1 = ⟨cat.datasets ++ new⟩ := by cases h; rfl
    obtain ⟨a, b⟩ := mapM_ok hm
    refine ⟨new, by rw [hc], a, ?_⟩
    intro k d hd
    obtain ⟨d', h1, h2⟩ := b k d hd
    exact ⟨d', h1, withPath_ok h2⟩

theorem c09_core {op : Op} {cat cat' : Catalogue} {pd : Option String} {t' : Tree} {n : Nat}
    (h : resolveOperationReferences op cat pd = .ok (t', n, cat')) :
    ∃ (cat1 : Catalogue) (keep : List Nat), Added op.newdatasets pd cat cat1 ∧ Keeps cat1 cat' ∧
      keep.Pairwise (· < ·) ∧
      (∀ i, i ∈ keep ↔ i < op.step.count ∧ ∀ l, Occurs l op.runmodule → ¬ SkipCause cat1 op.step l i) ∧
      n = keep.length ∧
      TreeRel (LeafResolved cat1 cat' op.step keep) op.runmodule t' := by
  obtain ⟨cat1, t1, skip, h1, h2, h3, h4⟩ := resolve_ok h
  obtain ⟨i1, i2, i3⟩ := input_phase h2
  obtain ⟨o1, o2⟩ := output_phase h4
  obtain ⟨r1, r2⟩ := restrictTo_spec skip
  have hmem : ∀ i, i ∈ restrictTo skip ↔
      i < op.step.count ∧ ∀ l, Occurs l op.runmodule → ¬ SkipCause cat1 op.step l i := by
    intro i
    rw [r2 i]
    have hi3 := i3 i
    constructor
    · intro hf
      have hlt := (List.getElem?_eq_some_iff.1 hf).1
      refine ⟨by omega, ?_⟩
      intro l hl hc
      have := hi3.2 ⟨by omega, l, hl, hc⟩
      rw [hf] at this; cases this
    · rintro ⟨hlt, hn⟩
      have hlt' : i < skip.length := by omega
      cases hb : skip[i]? with
      | none => rw [List.getElem?_eq_none_iff] at hb; omega
      | some b =>
        cases b with
        | false => rfl
        | true =>
          obtain ⟨_, l, hl, hc⟩ := hi3.1 hb
          exact absurd hc (hn l hl)
  refine ⟨cat1, restrictTo skip, addDatasets_ok h1, o1, r1, hmem, h3, TreeRel.comp ?_ i2 o2⟩
  have hlt : ∀ k i : Nat, (restrictTo skip)[k]? = some i → i < op.step.count :=
    fun k i hk => ((hmem i).1 (List.mem_of_getElem? hk)).1
  intro a b c hab hbc
  cases a with
  | inputFileList inp =>
    obtain ⟨ps, rfl, hv⟩ := hab
    obtain ⟨ps', rfl, hl, hv'⟩ := hbc
    refine ⟨ps', rfl, hl, ?_⟩
    intro k i hk
    obtain ⟨v, e1, e2⟩ := hv' k i hk
    obtain ⟨w, e3, e4⟩ := hv i (hlt k i hk)
    rw [e2] at e3; cases e3
    exact ⟨v, e1, e4⟩
  | inputFile inp =>
    obtain ⟨ps, rfl, hv⟩ := hab
    obtain ⟨ps', rfl, hl, hv'⟩ := hbc
    refine ⟨ps', rfl, hl, ?_⟩
    intro k i hk
    obtain ⟨v, e1, e2⟩ := hv' k i hk
    obtain ⟨w, e3, e4⟩ := hv i (hlt k i hk)
    rw [e2] at e3; cases e3
    exact ⟨v, e1, e4⟩
  | stepTime =>
    obtain ⟨ps, rfl, hv⟩ := hab
    obtain ⟨ps', rfl, hl, hv'⟩ := hbc
    refine ⟨ps', rfl, hl, ?_⟩
    intro k i hk
    obtain ⟨v, e1, e2⟩ := hv' k i hk
    obtain ⟨w, e3, e4⟩ := hv i (hlt k i hk)
    rw [e2] at e3; cases e3
    exact ⟨w, e1, e4⟩
  | stepIndex =>
    obtain ⟨ps, rfl, hv⟩ := hab
    obtain ⟨ps', rfl, hl, hv'⟩ := hbc
    refine ⟨ps', rfl, hl, ?_⟩
    intro k i hk
    obtain ⟨v, e1, e2⟩ := hv' k i hk
    have e3 := hv i (hlt k i hk)
    rw [e2] at e3; cases e3
    exact e1
  | outputFile nm si => simp only [LeafFull] at hab; subst hab; exact hbc
  | plist kd ps => simp only [LeafFull] at hab; subst hab; exact hbc
  | lit v => simp only [LeafFull] at hab; subst hab; exact hbc
  | timestamp => simp only [LeafFull] at hab; subst hab; exact hbc
  | catalogueId => simp only [LeafFull] at hab; subst hab; exact hbc

/-- **C09.** After references are resolved, the kept operations are (in order) exactly the steps for which no `skip` input
lacks a file; the count is their number; and everywhere in the parameter tree position `k` of a per-operation list belongs
to the `k`-th kept step (`Spec.LeafResolved`), while containers and other values are unchanged. -/
theorem c09_alignment {op : Op} {cat cat' : Catalogue} {pd : Option String} {t' : Tree} {n : Nat}
    (h : resolveOperationReferences op cat pd = .ok (t', n, cat')) :
    ∃ (cat1 : Catalogue) (keep : List Nat), Added op.newdatasets pd cat cat1 ∧
      keep.Pairwise (· < ·) ∧
      (∀ i, i ∈ keep ↔ i < op.step.count ∧ ∀ l, Occurs l op.runmodule → ¬ SkipCause cat1 op.step l i) ∧
      n = keep.length ∧
      TreeRel (LeafResolved cat1 cat' op.step keep) op.runmodule t' := by
  obtain ⟨cat1, keep, a, _, b⟩ := c09_core h
  exact ⟨cat1, keep, a, b⟩

/-- **C09.** Every per-operation list anywhere in the resolved parameters has exactly the operation count as its length. -/
theorem c09_lengths {op : Op} {cat cat' : Catalogue} {pd : Option String} {t' : Tree} {n : Nat}
    (h : resolveOperationReferences op cat pd = .ok (t', n, cat')) (kd : PKind) (ps : List Lit)
    (ho : Occurs (.plist kd ps) t') : ps.length = n := by
  obtain ⟨cat1, keep, _, _, _, hn, hr⟩ := c09_alignment h
  obtain ⟨l, _, hl⟩ := TreeRel.right hr _ ho
  rw [hn]
  cases l with
  | inputFileList inp => obtain ⟨ps', h1, h2, _⟩ := hl; cases h1; exact h2
  | inputFile inp => obtain ⟨ps', h1, h2, _⟩ := hl; cases h1; exact h2
  | stepTime => obtain ⟨ps', h1, h2, _⟩ := hl; cases h1; exact h2
  | stepIndex => obtain ⟨ps', h1, h2, _⟩ := hl; cases h1; exact h2
  | outputFile nm si => obtain ⟨ps', h1, h2, _⟩ := hl; cases h1; exact h2
  | plist kd' ps0 => obtain ⟨ps', h1, h2, _⟩ := hl; cases h1; exact h2
  | lit v => cases hl
  | timestamp => cases hl
  | catalogueId => cases hl

/-- **C10.** Selecting operation `i` replaces every per-operation list by its own value for `i` (path names for file
references), time stamps and catalogue identifiers by the given ones, and leaves everything else unchanged. -/
theorem c10_single {t t' : Tree} {count : Nat} {cat : Catalogue} {ident ts : String} {i : Nat}
    (h : resolveSingleOperation t count cat ident (i : Int) ts = .ok t') :
    TreeRel (LeafSingle cat count ident ts i) t t' := single_phase h

/-- **C10.** Selection fails if some list does not have the operation count as its length. -/
theorem c10_mismatch_fails {t : Tree} {count : Nat} {cat : Catalogue} {ident ts : String} {i : Int} {kd : PKind}
    {ps : List Lit} (ho : Occurs (.plist kd ps) t) (hl : ps.length ≠ count) (t' : Tree) :
    resolveSingleOperation t count cat ident i ts ≠ .ok t' := by
  unfold resolveSingleOperation
  cases hw : walk (resolveSingle count cat ident i ts) t () with
  | error e => simp
  | ok r =>
    refine absurd hw (walk_fails ?_ t () r ho)
    intro s r
    simp only [resolveSingle]
    rw [if_pos (by omega)]
    simp

/-- **C10.** Selection fails for an index at or beyond the count if the parameters contain any per-operation list. -/
theorem c10_beyond_fails {t : Tree} {count : Nat} {cat : Catalogue} {ident ts : String} {i : Int} {kd : PKind}
    {ps : List Lit} (ho : Occurs (.plist kd ps) t) (hi : (count : Int) ≤ i) (t' : Tree) :
    resolveSingleOperation t count cat ident i ts ≠ .ok t' := by
  unfold resolveSingleOperation
  cases hw : walk (resolveSingle count cat ident i ts) t () with
  | error e => simp
  | ok r =>
    refine absurd hw (walk_fails ?_ t () r ho)
    intro s r
    simp only [resolveSingle]
    split
    · simp
    · rename_i hc
      have hg : getItem ps i = .error .indexError := by
        unfold getItem idx
        rw [if_pos (by omega)]
        have : ps[i.toNat]? = none := by
          rw [List.getElem?_eq_none_iff]; omega
        rw [this]
      simp [plistSingle, hg]

/-- **C10, negative result.** An index outside `0 .. count-1` is not always refused: index -1 silently selects the last
operation, and parameters without any per-operation list accept every index. -/
theorem c10_index_range_violated :
    (∃ t t' : Tree, resolveSingleOperation t 2 ⟨[]⟩ "id" (-1) "now" = .ok t' ∧
      t = .leaf (.plist .value [.int 10, .int 11]) ∧ t' = .leaf (.lit (.int 11))) ∧
    (∃ t : Tree, resolveSingleOperation t 2 ⟨[]⟩ "id" 1000 "now" = .ok t) :=
  ⟨⟨_, _, rfl, rfl, rfl⟩, ⟨.leaf (.lit (.int 3)), rfl⟩⟩

/-- **C66.** End to end: if references were resolved, giving `n` operations, and operation `k` is selected from the
resolved parameters and the resolved catalogue, then the module receives exactly the files, time, index and output path of
the `k`-th kept step (`Spec.LeafRun`). -/
theorem c66_end_to_end {op : Op} {cat cat' : Catalogue} {pd : Option String} {t' t'' : Tree} {n : Nat} {k : Nat}
    {ident ts : String} (h : resolveOperationReferences op cat pd = .ok (t', n, cat')) (hk : k < n)
    (h2 : resolveSingleOperation t' n cat' ident (k : Int) ts = .ok t'') :
    ∃ (cat1 : Catalogue) (keep : List Nat) (i : Nat), Added op.newdatasets pd cat cat1 ∧
      keep.Pairwise (· < ·) ∧
      (∀ i, i ∈ keep ↔ i < op.step.count ∧ ∀ l, Occurs l op.runmodule → ¬ SkipCause cat1 op.step l i) ∧
      keep[k]? = some i ∧
      TreeRel (LeafRun cat1 op.step ident ts i) op.runmodule t'' := by
  obtain ⟨cat1, keep, a1, a2, a3, a4, a5, a6⟩ := c09_core h
  have hki : keep[k]? = some (keep[k]'(by omega)) := by simp
  exact ⟨cat1, keep, _, a1, a3, a4, hki, TreeRel.comp (S := LeafSingle cat' n ident ts k) (U := LeafRun cat1 op.step ident ts _)
      (fun a b c hab hbc => leaf_run a2 hki hab hbc) a6 (single_phase h2)⟩

theorem added_unique {new : List DataSet} {pd : Option String} {cat a b : Catalogue} (h1 : Added new pd cat a)
    (h2 : Added new pd cat b) : a = b := by
  obtain ⟨x, hx1, hx2, hx3⟩ := h1
  obtain ⟨y, hy1, hy2, hy3⟩ := h2
  have : x = y := by
    apply List.ext_getElem?
    intro k
    cases hd : new[k]? with
    | none =>
      rw [List.getElem?_eq_none_iff] at hd
      rw [List.getElem?_eq_none_iff.2 (by omega), List.getElem?_eq_none_iff.2 (by omega)]
    | some d =>
      obtain ⟨d1, e1, e2, e3, e4, e5, e6⟩ := hx3 k d hd
      obtain ⟨d2, f1, f2, f3, f4, f5, f6⟩ := hy3 k d hd
      rw [e1, f1]
      congr 1
      cases d1; cases d2
      simp only at e2 e3 e4 e5 e6 f2 f3 f4 f5 f6
      subst e2 e3 f2 f3
      by_cases hp : d.path = ""
      · have := (e6 hp).symm.trans (f6 hp)
        simp at this; simp [this]
      · simp [e5 hp, f5 hp]
  cases a; cases b
  simp only at hx1 hy1
  rw [hx1, hy1, this]

/-- **C66.** Every operation of a resolved catalogue can be selected, provided the template holds no ready-made lists and
inputs which allow missing data refer to subsets with at least one file. -/
theorem c66_selectable_partial {op : Op} {cat cat' cat1 : Catalogue} {pd : Option String} {t' : Tree} {n : Nat} {k : Nat}
    {ident ts : String} (h : resolveOperationReferences op cat pd = .ok (t', n, cat')) (hk : k < n)
    (hcat : Added op.newdatasets pd cat cat1)
    (hno : ∀ kd ps, ¬ Occurs (.plist kd ps) op.runmodule)
    (hne : ∀ l inp s, Occurs l op.runmodule → inputOf l = some inp → inp.missingData = .allowed →
      cat1.datasubset inp.datasetname inp.subsetindex = some s → s.entries ≠ []) :
    ∃ t'', resolveSingleOperation t' n cat' ident (k : Int) ts = .ok t'' := by
  obtain ⟨cat1', keep, a1, a2, a3, a4, a5, a6⟩ := c09_core h
  have : cat1' = cat1 := added_unique a1 hcat
  subst this
  have hki : keep[k]? = some (keep[k]'(by omega)) := by simp
  unfold resolveSingleOperation
  cases hw : walk (resolveSingle n cat' ident (k : Int) ts) t' () with
  | ok r => exact ⟨r.1, rfl⟩
  | error e =>
    exfalso
    obtain ⟨l', s1, ho, he⟩ := walk_error t' () e hw
    obtain ⟨l, hol, hr⟩ := TreeRel.right a6 _ ho
    have fin : ∀ (kd : PKind) (ps : List Lit), l' = .plist kd ps → ps.length = keep.length →
        (∃ v, plistSingle cat' kd ps (k : Int) = .ok v) → False := by
      intro kd ps h1 h2 h3
      obtain ⟨v, hv⟩ := h3
      subst h1
      simp only [resolveSingle] at he
      rw [if_neg (by omega), hv] at he
      cases he
    have inp : ∀ (i : InputFileList) (ps : List Lit) (kd : PKind), inputOf l = some i →
        (∃ v, ps[k]? = some v ∧ InputValue cat1' op.step i (keep[k]'(by omega)) v) →
        ∃ v, plistSingle cat' kd ps (k : Int) = .ok v := by
      intro i ps kd hi ⟨v, hv, hval⟩
      obtain ⟨ls, refs, qs, rfl, e2, e3⟩ := loads_of_input a2 hval (fun hm s hs => hne l i s hol hi hm hs)
      exact plistSingle_file_ok hv e2 e3 kd
    cases l with
    | inputFileList i =>
      obtain ⟨ps, h1, h2, h3⟩ := hr
      exact fin _ _ h1 h2 (inp i ps _ rfl (h3 k _ hki))
    | inputFile i =>
      obtain ⟨ps, h1, h2, h3⟩ := hr
      exact fin _ _ h1 h2 (inp i ps _ rfl (h3 k _ hki))
    | stepTime =>
      obtain ⟨ps, h1, h2, h3⟩ := hr
      obtain ⟨t, ht, _⟩ := h3 k _ hki
      exact fin _ _ h1 h2 (plistSingle_value_ok ht)
    | stepIndex =>
      obtain ⟨ps, h1, h2, h3⟩ := hr
      exact fin _ _ h1 h2 (plistSingle_value_ok (h3 k _ hki))
    | outputFile nm si =>
      obtain ⟨ps, h1, h2, h3⟩ := hr
      obtain ⟨v, hv, s, p, d, s', j, e', _, _, _, g4, g5, g6, _, rfl⟩ := h3 k _ hki
      obtain ⟨q, hq⟩ := loadDataPathname_pos g4 g5 g6
      refine fin _ _ h1 h2 (plistSingle_file_ok (refs := [⟨d, si, j⟩]) (qs := [q]) hv (Reference.toList_toIntegers [⟨d, si, j⟩]) ?_ _)
      simp only [loadDataPathnames, List.mapM_cons, hq, List.mapM_nil]
      rfl
    | plist kd ps => exact hno kd ps hol
    | lit v => simp only [LeafResolved] at hr; subst hr; cases he
    | timestamp => simp only [LeafResolved] at hr; subst hr; cases he
    | catalogueId => simp only [LeafResolved] at hr; subst hr; cases he

/-- **C66, negative result.** The side condition on empty subsets cannot be dropped: an input that allows missing data and
refers to a subset without any file resolves without error, but then no operation can be selected. -/
theorem c66_selectable_violated :
    ∃ (op : Op) (cat cat' : Catalogue) (t' : Tree), resolveOperationReferences op cat none = .ok (t', 3, cat') ∧
      Occurs (.inputFile ⟨"in", 0, .allowed⟩) op.runmodule ∧
      ∀ k : Int, 0 ≤ k → k < 3 → resolveSingleOperation t' 3 cat' "id" k "now" = .error .keyError := by
  refine ⟨⟨.leaf (.inputFile ⟨"in", 0, .allowed⟩), demoStep, []⟩, ⟨[⟨"in", "/in", [⟨some ["%d"], []⟩]⟩]⟩,
    ⟨[⟨"in", "/in", [⟨some ["%d"], []⟩]⟩]⟩,
    .leaf (.plist .file [.ints [0, 0, -1], .ints [0, 0, -1], .ints [0, 0, -1]]), rfl, rfl, ?_⟩
  intro k h0 h3
  have : k = 0 ∨ k = 1 ∨ k = 2 := by omega
  rcases this with rfl | rfl | rfl <;> rfl

/-! Non-vacuity: an operation with a `skip` input, a fixed input, a time, an index and a new output data set. -/

def demoOp : Op where
  runmodule := .node .dict (.cons "a" (.leaf (.inputFileList ⟨"in", 0, .skip⟩))
    (.cons "b" (.node .list (.cons "" (.leaf (.inputFile ⟨"fix", 0, .notAllowed⟩)) (.cons "" (.leaf .stepTime)
      (.cons "" (.leaf .stepIndex) .nil)))) (.cons "c" (.leaf (.outputFile "new" 0))
      (.cons "d" (.leaf (.lit (.int 5))) (.cons "e" (.leaf .timestamp) .nil)))))
  step := demoStep
  newdatasets := [⟨"new", "", [⟨some ["n"], []⟩]⟩]

def demoResolved : Tree :=
  .node .dict (.cons "a" (.leaf (.plist .fileList [.ints [0, 0, 1], .ints [0, 0, 0, 0, 0, 2]]))
    (.cons "b" (.node .list (.cons "" (.leaf (.plist .file [.ints [2, 0, 1], .ints [2, 0, 0]]))
      (.cons "" (.leaf (.plist .value [.time 0, .time 48]))
      (.cons "" (.leaf (.plist .value [.int 0, .int 2])) .nil))))
    (.cons "c" (.leaf (.plist .file [.ints [3, 0, 0], .ints [3, 0, 1]]))
      (.cons "d" (.leaf (.lit (.int 5))) (.cons "e" (.leaf .timestamp) .nil)))))

def demoCat' : Catalogue :=
  ⟨demoCat.datasets ++ [⟨"new", "/new", [⟨some ["n"], [⟨"n0", none⟩, ⟨"n1", none⟩]⟩]⟩]⟩

/-- Step 1 has no file and is dropped; two operations remain. -/
example : resolveOperationReferences demoOp demoCat (some "/new") = .ok (demoResolved, 2, demoCat') := by rfl

/-- Selecting the second operation gives the files of step 2. -/
example : resolveSingleOperation demoResolved 2 demoCat' "id" 1 "now" = .ok
    (.node .dict (.cons "a" (.leaf (.lit (.paths [some "/in/a", some "/in/c"])))
      (.cons "b" (.node .list (.cons "" (.leaf (.lit (.str "/fix/o1"))) (.cons "" (.leaf (.lit (.time 48)))
        (.cons "" (.leaf (.lit (.int 2))) .nil)))) (.cons "c" (.leaf (.lit (.str "/new/n1")))
        (.cons "d" (.leaf (.lit (.int 5))) (.cons "e" (.leaf (.lit (.str "now"))) .nil)))))) := by
  decide +kernel

end Verif.Eumopps.Operation
