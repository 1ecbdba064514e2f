import Verif.Eumopps.Run.Spec
import Verif.Eumopps.Operation.Props

/-! Properties C11, C22, C23 and C67. -/
namespace Verif.Eumopps.Run
open Verif Verif.Py Verif.Eumopps.Catalogue Verif.Eumopps.Operation Verif.Eumopps.Operation.Spec Spec

/-! ### Operation lookup -/

/-- The callings of one operation, in field order. -/
def callings (m : String) (g : StoredOp) : List Field :=
  [Field.name, Field.cls, Field.function].filter (fun f => decide (fieldOf g f = some m))

theorem discoveredIn_eq (m : String) (g : StoredOp) : discoveredIn m g = (callings m g).map (fun _ => g) := by
  unfold discoveredIn callings
  by_cases h1 : g.name = some m <;> by_cases h2 : g.pythonClass = some m <;>
    by_cases h3 : g.pythonFunction = some m <;> simp [fieldOf, h1, h2, h3]

theorem callings_nodup (m : String) (g : StoredOp) : (callings m g).Nodup :=
  List.Pairwise.filter _ (by decide)

theorem mem_callings {m : String} {g : StoredOp} {f : Field} : f ∈ callings m g ↔ fieldOf g f = some m := by
  unfold callings
  cases f <;> simp

/-- All (index, field) pairs by which `m` is called. -/
def allCallings (m : String) (ops : List StoredOp) (start : Nat) : List (Nat × Field × StoredOp) :=
  (ops.zipIdx start).flatMap (fun x => (callings m x.1).map (fun f => (x.2, f, x.1)))

theorem discovered_eq (m : String) (ops : List StoredOp) (start : Nat) :
    ops.flatMap (discoveredIn m) = (allCallings m ops start).map (fun x => x.2.2) := by
  induction ops generalizing start with
  | nil => rfl
  | cons g ops ih =>
    simp only [List.flatMap_cons, allCallings, List.zipIdx_cons, List.map_append, List.map_map, Function.comp_def]
    rw [ih (start + 1), discoveredIn_eq]
    rfl

theorem mem_allCallings {m : String} {ops : List StoredOp} {i : Nat} {f : Field} {g : StoredOp} :
    (i, f, g) ∈ allCallings m ops 0 ↔ ops[i]? = some g ∧ fieldOf g f = some m := by
  simp only [allCallings, List.mem_flatMap, List.mem_map, Prod.exists, Prod.mk.injEq]
  constructor
  · rintro ⟨g', j, h1, f', h2, rfl, rfl, rfl⟩
    rw [List.mem_zipIdx_iff_getElem?] at h1
    exact ⟨h1, mem_callings.1 h2⟩
  · rintro ⟨h1, h2⟩
    exact ⟨g, i, List.mem_zipIdx_iff_getElem?.2 h1, f, mem_callings.2 h2, rfl, rfl, rfl⟩

theorem allCallings_nodup (m : String) (ops : List StoredOp) (start : Nat) : (allCallings m ops start).Nodup := by
  induction ops generalizing start with
  | nil => exact List.nodup_nil
  | cons g ops ih =>
    simp only [allCallings, List.zipIdx_cons, List.flatMap_cons]
    rw [List.nodup_append]
    refine ⟨?_, ih (start + 1), ?_⟩
    · refine List.Pairwise.map _ ?_ (callings_nodup m g)
      intro a b hab h
      simp only [Prod.mk.injEq, true_and, and_true] at h
      exact hab h
    · intro a ha b hb hab
      subst hab
      simp only [List.mem_map] at ha
      obtain ⟨f, _, rfl⟩ := ha
      simp only [List.mem_flatMap, List.mem_map, Prod.exists, Prod.mk.injEq] at hb
      obtain ⟨g', j, h1, f', _, h2, _⟩ := hb
      have := List.le_snd_of_mem_zipIdx h1
      simp only at this
      omega

/-- **C22.** A lookup returns an operation exactly if there is a single (operation, field) pair with the given text, and
then it is the operation of that pair. -/
theorem c22_found {ops : List StoredOp} {m : String} {g : StoredOp} :
    findoperation ops m = .ok (some g) ↔
      ∃ i f, ops[i]? = some g ∧ fieldOf g f = some m ∧ ∀ i' f', Called ops m i' f' → i' = i ∧ f' = f := by
  have hd := discovered_eq m ops 0
  unfold findoperation
  constructor
  · intro h
    split at h
    · cases h
    · rw [hd] at h
      cases hc : allCallings m ops 0 with
      | nil => rw [hc] at h; simp at h
      | cons x l =>
        cases l with
        | cons y l => rw [hc] at h; simp at h
        | nil =>
          obtain ⟨i, f, g'⟩ := x
          rw [hc] at h
          simp only [List.map_cons, List.map_nil, Except.ok.injEq, Option.some.injEq] at h
          subst h
          have hm := mem_allCallings.1 (by rw [hc]; simp : (i, f, g') ∈ allCallings m ops 0)
          refine ⟨i, f, hm.1, hm.2, ?_⟩
          rintro i' f' ⟨g2, h1, h2⟩
          have := mem_allCallings.2 ⟨h1, h2⟩
          rw [hc] at this
          simp only [List.mem_singleton, Prod.mk.injEq] at this
          exact ⟨this.1, this.2.1⟩
  · rintro ⟨i, f, h1, h2, h3⟩
    rw [if_neg (by intro h0; rw [h0] at h1; simp at h1), hd]
    have hall : ∀ x ∈ allCallings m ops 0, x = (i, f, g) := by
      rintro ⟨i', f', g'⟩ hx
      obtain ⟨a, b⟩ := mem_allCallings.1 hx
      obtain ⟨rfl, rfl⟩ := h3 i' f' ⟨g', a, b⟩
      rw [a] at h1; cases h1; rfl
    have hmem : (i, f, g) ∈ allCallings m ops 0 := mem_allCallings.2 ⟨h1, h2⟩
    have hnd := allCallings_nodup m ops 0
    cases hc : allCallings m ops 0 with
    | nil => rw [hc] at hmem; simp at hmem
    | cons x l =>
      rw [hc] at hall hnd
      have hx := hall x (by simp)
      cases l with
      | nil => rw [hx]; rfl
      | cons y l =>
        have hy := hall y (by simp)
        rw [hx, hy] at hnd
        simp at hnd

/-- **C22.** Nothing is returned exactly if the catalogue has operations but none with this text; a lookup with two or
more such pairs raises an error. -/
theorem c22_not_found {ops : List StoredOp} {m : String} :
    (findoperation ops m = .ok none ↔ ops ≠ [] ∧ ∀ i f, ¬ Called ops m i f) ∧
    (findoperation ops m = .error .valueError ↔ ∃ i f i' f', (i, f) ≠ (i', f') ∧ Called ops m i f ∧ Called ops m i' f') := by
  have hd := discovered_eq m ops 0
  have key : ∀ i f, Called ops m i f ↔ ∃ g, (i, f, g) ∈ allCallings m ops 0 := by
    intro i f
    constructor
    · rintro ⟨g, h1, h2⟩; exact ⟨g, mem_allCallings.2 ⟨h1, h2⟩⟩
    · rintro ⟨g, h⟩; exact ⟨g, mem_allCallings.1 h⟩
  unfold findoperation
  by_cases h0 : ops = []
  · subst h0
    simp [Called]
  · rw [if_neg h0, hd]
    have hnd := allCallings_nodup m ops 0
    cases hc : allCallings m ops 0 with
    | nil =>
      simp only [hc] at key
      simp [h0, key]
    | cons x l =>
      obtain ⟨i, f, g⟩ := x
      have hx : Called ops m i f := (key i f).2 ⟨g, by rw [hc]; simp⟩
      cases l with
      | nil =>
        refine ⟨⟨fun h => (by cases h), fun h => absurd hx (h.2 i f)⟩, ⟨fun h => (by cases h), ?_⟩⟩
        rintro ⟨i1, f1, i2, f2, hne, h1, h2⟩
        obtain ⟨g1, h1⟩ := (key _ _).1 h1
        obtain ⟨g2, h2⟩ := (key _ _).1 h2
        rw [hc] at h1 h2
        simp only [List.mem_singleton, Prod.mk.injEq] at h1 h2
        exact absurd (by rw [h1.1, h1.2.1, h2.1, h2.2.1]) hne
      | cons y l =>
        obtain ⟨i', f', g'⟩ := y
        have hy : Called ops m i' f' := (key i' f').2 ⟨g', by rw [hc]; simp⟩
        refine ⟨⟨fun h => (by cases h), fun h => absurd hx (h.2 i f)⟩, ⟨fun _ => ⟨i, f, i', f', ?_, hx, hy⟩, fun _ => rfl⟩⟩
        intro heq
        simp only [Prod.mk.injEq] at heq
        obtain ⟨rfl, rfl⟩ := heq
        have hg : g = g' := by
          have a := (mem_allCallings.1 (by rw [hc]; simp : (i, f, g) ∈ allCallings m ops 0)).1
          have b := (mem_allCallings.1 (by rw [hc]; simp : (i, f, g') ∈ allCallings m ops 0)).1
          rw [a] at b; cases b; rfl
        rw [hc, hg] at hnd
        simp at hnd

/-- **C22, negative result.** A single operation whose name equals its own function name cannot be found. -/
theorem c22_unique_operation_violated :
    ∃ (g : StoredOp), findoperation [g] "pkg.f" = .error .valueError ∧ g.name = some "pkg.f" :=
  ⟨⟨some "pkg.f", none, some "pkg.f", [], 1, .leaf (.lit (.int 0))⟩, by decide, rfl⟩

/-! ### Batches -/

theorem ceil_spec (count b : Nat) (hb : 0 < b) :
    let nb := if count % b ≠ 0 then count / b + 1 else count / b
    count ≤ nb * b ∧ ∀ k, count ≤ k * b → nb ≤ k := by
  have hm := Nat.mod_add_div count b
  have hlt := Nat.mod_lt count hb
  have hc : b * (count / b) = count / b * b := Nat.mul_comm _ _
  intro nb
  by_cases h : count % b ≠ 0
  · have hnb : nb = count / b + 1 := by simp only [nb]; rw [if_pos h]
    rw [hnb]
    refine ⟨by rw [Nat.add_mul]; omega, ?_⟩
    intro k hk
    by_contra hlt'
    have : k ≤ count / b := by omega
    have := Nat.mul_le_mul_right b this
    omega
  · have hnb : nb = count / b := by simp only [nb]; rw [if_neg h]
    rw [hnb]
    refine ⟨by omega, ?_⟩
    intro k hk
    by_contra hlt'
    have : k + 1 ≤ count / b := by omega
    have := Nat.mul_le_mul_right b this
    rw [Nat.add_mul] at this
    omega

/-- **C11.** The advertised number of batches is the least one that suffices for the operations of the named module (and
zero if there is no such module); a zero batch size is an error. -/
theorem c11_batch_count {ops : List StoredOp} {m : String} {g : Option StoredOp} {b : Nat}
    (h : findoperation ops m = .ok g) :
    (0 < b → ∃ nb, operationcount ops m b = .ok nb ∧ (g.map (·.count)).getD 0 ≤ nb * b ∧
      ∀ k, (g.map (·.count)).getD 0 ≤ k * b → nb ≤ k) ∧
    (b = 0 → operationcount ops m b = .error .zeroDivision) := by
  unfold operationcount
  rw [h]
  constructor
  · intro hb
    have hs := ceil_spec ((g.map (·.count)).getD 0) b hb
    simp only [Nat.ne_of_gt hb, if_false]
    cases g with
    | none => simp
    | some g =>
      simp only [Option.map_some, Option.getD_some] at hs ⊢
      by_cases hm : g.count % b ≠ 0
      · rw [if_pos hm]; rw [if_pos hm] at hs; exact ⟨_, rfl, hs⟩
      · rw [if_neg hm]; rw [if_neg hm] at hs; exact ⟨_, rfl, hs⟩
  · intro hb; simp [hb]

/-- **C11.** Every operation index is reached by exactly one (batch, position) pair within the advertised batches. -/
theorem c11_unique_pair {count b nb : Nat} (hb : 0 < b) (hnb : count ≤ nb * b) {i : Nat} (hi : i < count) :
    ∃ q p, (q < nb ∧ p < b ∧ operationIndex (p : Int) (some b) (some q) = .ok (i : Int)) ∧
      ∀ q' p' : Nat, p' < b → operationIndex (p' : Int) (some b) (some q') = .ok (i : Int) → q' = q ∧ p' = p := by
  have hidx : ∀ q p : Nat, operationIndex (p : Int) (some b) (some q) = .ok ((q : Int) * b + p) := by
    intro q p
    simp only [operationIndex, Option.getD_some]
    rw [if_pos (by omega)]
  have hdiv := Nat.div_add_mod i b
  refine ⟨i / b, i % b, ⟨?_, Nat.mod_lt i hb, ?_⟩, ?_⟩
  · rw [Nat.div_lt_iff_lt_mul hb]; omega
  · rw [hidx]
    congr 1
    have : i / b * b + i % b = i := by rw [Nat.mul_comm]; omega
    exact_mod_cast this
  · intro q' p' hp' h
    rw [hidx] at h
    have h' : q' * b + p' = i := by
      have : ((q' : Int) * b + p') = i := by injection h
      exact_mod_cast this
    subst h'
    rw [Nat.mul_comm q' b, Nat.mul_add_div hb, Nat.mul_add_mod]
    rw [Nat.div_eq_of_lt hp', Nat.mod_eq_of_lt hp']
    simp

/-- **C11.** Position `p` of batch `q` does exactly what running operation `q * b + p` directly does. -/
theorem c11_batch_position {w : World α} {ts m : String} {b : Nat} (hb : 0 < b) (q p : Int) (jl allow : Bool) :
    commandrun w ts m p (some b) (some q) jl allow = commandrun w ts m (q * b + p) none none jl allow := by
  unfold commandrun operationIndex
  simp only [Option.getD_some, Option.getD_none]
  rw [if_pos (by omega)]
  simp

/-- **C11.** A position past the end addresses no operation: the call raises ValueError and nothing is run. Proved only
for run modules that contain some per-operation list. -/
theorem c11_past_end_partial {w : World α} {ts m : String} {i : Int} {jl allow : Bool} {op : StoredOp}
    (hop : loadOperation w.ops m = .ok op) (hi : (op.count : Int) ≤ i) {kd : PKind} {ps : List Lit}
    (ho : Occurs (.plist kd ps) op.runmodule) (eff : Effect α) :
    commandrun w ts m i none none jl allow ≠ .ok eff := by
  unfold commandrun operationIndex
  simp only [Option.getD_none, ne_eq, not_true_eq_false, if_false, hop]
  unfold resolveAt
  cases hr : resolveSingleOperation op.runmodule op.count w.cat w.identifier i ts with
  | ok t => exact absurd hr (c10_beyond_fails ho hi t)
  | error e => cases e <;> simp

/-- **C11, negative result.** A run module without per-operation lists is run for a position past the end. -/
theorem c11_past_end_violated :
    ∃ (w : World Nat) (op : StoredOp), loadOperation w.ops "f" = .ok op ∧ op.count = 3 ∧
      operationcount w.ops "f" 2 = .ok 2 ∧
      commandrun w "now" "f" 1 (some 2) (some 1) false false = .ok (.ran (.leaf (.lit (.int 7))) 5 false) :=
  ⟨⟨⟨[]⟩, [⟨none, none, some "f", [], 3, .leaf (.lit (.int 7))⟩], "id", fun _ => [], fun _ => .ok 5⟩,
    ⟨none, none, some "f", [], 3, .leaf (.lit (.int 7))⟩, by decide, rfl, by decide, by decide⟩

/-! ### Tool chain -/

/-- **C23.** Whenever something was executed, list mode was off, it was the selected operation with the parameters of the
requested index, and either the recorded tool chain equals the current one or mismatch was explicitly allowed (and then a
warning was printed). -/
theorem c23_executed {w : World α} {ts m : String} {index : Int} {ubs batch : Option Int} {jl allow : Bool} {t : Tree}
    {a : α} {warned : Bool} (h : commandrun w ts m index ubs batch jl allow = .ok (.ran t a warned)) :
    jl = false ∧ ∃ op i, loadOperation w.ops m = .ok op ∧ operationIndex index ubs batch = .ok i ∧
      resolveSingleOperation op.runmodule op.count w.cat w.identifier i ts = .ok t ∧ w.exec t = .ok a ∧
      (w.runtimeToolchain op = op.toolchain ∧ warned = false ∨
        w.runtimeToolchain op ≠ op.toolchain ∧ allow = true ∧ warned = true) := by
  unfold commandrun at h
  cases hi : operationIndex index ubs batch with
  | error e => rw [hi] at h; cases h
  | ok i =>
    rw [hi] at h
    simp only at h
    cases ho : loadOperation w.ops m with
    | error e => rw [ho] at h; cases h
    | ok op =>
      rw [ho] at h
      simp only at h
      cases hr : resolveAt w op i ts with
      | error e => rw [hr] at h; cases h
      | ok t0 =>
        rw [hr] at h
        simp only at h
        have hres : resolveSingleOperation op.runmodule op.count w.cat w.identifier i ts = .ok t0 := by
          unfold resolveAt at hr
          split at hr
          · cases hr; assumption
          · cases hr
          · cases hr
        unfold gate at h
        cases jl with
        | true => simp at h
        | false =>
          simp only [Bool.false_eq_true, if_false] at h
          split at h
          · cases h
          · rename_i hn
            cases hx : operationRun w.exec op t0 with
            | error e => rw [hx] at h; cases h
            | ok a0 =>
              rw [hx] at h
              simp only [Except.ok.injEq, Effect.ran.injEq] at h
              obtain ⟨rfl, rfl, rfl⟩ := h
              refine ⟨rfl, op, i, rfl, rfl, hres, ?_, ?_⟩
              · unfold operationRun at hx
                split at hx
                · cases hx
                · exact hx
              · by_cases he : w.runtimeToolchain op = op.toolchain
                · left; simp [he]
                · right
                  refine ⟨he, ?_, by simp [he]⟩
                  cases allow with
                  | true => rfl
                  | false => exact absurd ⟨he, rfl⟩ hn

/-- **C23.** On a mismatch that is not allowed the call raises (whatever executing would do), and list mode never executes. -/
theorem c23_gate {w : World α} {ts m : String} {index : Int} {ubs batch : Option Int} {jl allow : Bool} :
    (∀ op, loadOperation w.ops m = .ok op → w.runtimeToolchain op ≠ op.toolchain → allow = false → jl = false →
      ∃ e, commandrun w ts m index ubs batch jl allow = .error e) ∧
    (jl = true → ∀ t a wn, commandrun w ts m index ubs batch jl allow ≠ .ok (.ran t a wn)) := by
  constructor
  · intro op ho hne ha hj
    cases hc : commandrun w ts m index ubs batch jl allow with
    | error e => exact ⟨e, rfl⟩
    | ok eff =>
      cases eff with
      | ran t a wn =>
        obtain ⟨_, op', i, h1, _, _, _, h5⟩ := c23_executed hc
        rw [ho] at h1; cases h1
        rcases h5 with h5 | h5
        · exact absurd h5.1 hne
        · rw [ha] at h5; cases h5.2.1
      | listed t =>
        exfalso
        subst hj ha
        unfold commandrun at hc
        split at hc
        · cases hc
        · rw [ho] at hc
          simp only at hc
          split at hc
          · cases hc
          · simp only [gate] at hc
            simp [hne] at hc
  · intro hj t a wn h
    have := (c23_executed h).1
    rw [hj] at this; cases this

/-- **C23.** An operation that resolves, whose tool chain agrees, and which names a function, is executed. -/
theorem c23_runs {w : World α} {ts m : String} {index : Int} {ubs batch : Option Int} {allow : Bool} {op : StoredOp}
    {i : Int} {t : Tree} {a : α} (hi : operationIndex index ubs batch = .ok i) (ho : loadOperation w.ops m = .ok op)
    (hr : resolveSingleOperation op.runmodule op.count w.cat w.identifier i ts = .ok t)
    (htc : w.runtimeToolchain op = op.toolchain) (hc : op.pythonClass = none) (hx : w.exec t = .ok a) :
    commandrun w ts m index ubs batch false allow = .ok (.ran t a false) := by
  simp [commandrun, hi, ho, resolveAt, hr, gate, htc, operationRun, hc, hx]

/-- **C23, negative result.** An operation whose run module is a class instance never runs: NameError. -/
theorem c23_class_module_violated {w : World α} {ts m : String} {index : Int} {ubs batch : Option Int} {allow : Bool}
    {op : StoredOp} (ho : loadOperation w.ops m = .ok op) (hc : op.pythonClass.isSome) (eff : Effect α) :
    commandrun w ts m index ubs batch false allow ≠ .ok eff := by
  intro h
  unfold commandrun at h
  split at h
  · cases h
  · rw [ho] at h
    simp only at h
    split at h
    · cases h
    · simp only [gate, operationRun, hc, Bool.false_eq_true, if_false, if_true] at h
      split at h <;> cases h

/-! ### Running a whole batch -/

/-- **C67.** If a batch run succeeds, the outer function gets the results of exactly the operations
`batch * size, ..., batch * size + size - 1`, in this order. -/
theorem c67_batch {w : World α} {ts m : String} {size : Nat} {batch : Int} {allow : Bool} {l : List α}
    (h : (multipleCommandsRun w ts m size batch allow).outcome = .ok l) :
    l.length = size ∧ (multipleCommandsRun w ts m size batch allow).executed.length = size ∧
    ∀ p < size, ∃ t a wn, l[p]? = some a ∧ (multipleCommandsRun w ts m size batch allow).executed[p]? = some t ∧
      commandrun w ts m (batch * size + p) none none false allow = .ok (.ran t a wn) := by
  unfold multipleCommandsRun at h ⊢
  by_cases h0 : size = 0
  · rw [if_pos h0] at h; cases h
  · rw [if_neg h0] at h ⊢
    have key : ∀ (ps : List Nat) (l : List α), (batchLoop w ts m size batch allow ps).outcome = .ok l →
        l.length = ps.length ∧ (batchLoop w ts m size batch allow ps).executed.length = ps.length ∧
        ∀ (k p : Nat), ps[k]? = some p → ∃ t a wn, l[k]? = some a ∧
          (batchLoop w ts m size batch allow ps).executed[k]? = some t ∧
          commandrun w ts m (batch * size + p) none none false allow = .ok (.ran t a wn) := by
      intro ps
      induction ps with
      | nil => intro l hl; simp only [batchLoop, Except.ok.injEq] at hl; subst hl; simp [batchLoop]
      | cons p ps ih =>
        intro l hl
        unfold batchLoop at hl ⊢
        cases hc : commandrun w ts m (p : Int) (some (size : Int)) (some batch) false allow with
        | error e => rw [hc] at hl; cases hl
        | ok eff =>
          rw [hc] at hl
          cases eff with
          | listed t =>
            exfalso
            rw [c11_batch_position (by omega)] at hc
            unfold commandrun at hc
            split at hc
            · cases hc
            · split at hc
              · cases hc
              · split at hc
                · cases hc
                · simp only [gate, Bool.false_eq_true, if_false] at hc
                  split at hc
                  · cases hc
                  · split at hc <;> cases hc
          | ran t a wn =>
            simp only at hl ⊢
            cases hb : (batchLoop w ts m size batch allow ps).outcome with
            | error e => rw [hb] at hl; cases hl
            | ok l' =>
              rw [hb] at hl
              simp only [Except.ok.injEq] at hl
              subst hl
              obtain ⟨i1, i2, i3⟩ := ih l' hb
              refine ⟨by simp [i1], by simp [i2], ?_⟩
              intro k q hk
              cases k with
              | zero =>
                simp only [List.getElem?_cons_zero, Option.some.injEq] at hk
                subst hk
                rw [c11_batch_position (by omega)] at hc
                exact ⟨t, a, wn, rfl, rfl, hc⟩
              | succ k => simpa using i3 k q (by simpa using hk)
    obtain ⟨k1, k2, k3⟩ := key _ l h
    refine ⟨by simpa using k1, by simpa using k2, ?_⟩
    intro p hp
    exact k3 p p (List.getElem?_range hp)

/-- **C67, negative result.** The last, incomplete batch of an operation cannot be run: its first operations are executed
and then ValueError is raised, so the outer function is not called (commandrun.py 80-81 says such positions are allowed). -/
theorem c67_last_batch_violated :
    ∃ (w : World Tree) (t : Tree), operationcount w.ops "f" 2 = .ok 2 ∧
      (multipleCommandsRun w "now" "f" 2 1 false).executed = [t] ∧
      (multipleCommandsRun w "now" "f" 2 1 false).outcome = .error .valueError := by
  refine ⟨⟨⟨[]⟩, [⟨none, none, some "f", [], 3, .leaf (.plist .value [.int 4, .int 5, .int 6])⟩], "id", fun _ => [], .ok⟩,
    .leaf (.lit (.int 6)), by decide, by decide, by decide⟩

/-- Non-vacuity of C11, C23 and C67: batch 0 runs operations 0 and 1; and a mismatch is refused. -/
def demoWorld (rt : List String) : World Tree :=
  ⟨⟨[]⟩, [⟨some "op", none, some "f", ["v1"], 3, .leaf (.plist .value [.int 4, .int 5, .int 6])⟩], "id", fun _ => rt, .ok⟩
example : (multipleCommandsRun (demoWorld ["v1"]) "now" "op" 2 0 false).outcome =
    .ok [.leaf (.lit (.int 4)), .leaf (.lit (.int 5))] := by decide
example : commandrun (demoWorld ["v2"]) "now" "op" 0 none none false false = .error .valueError := by decide
example : commandrun (demoWorld ["v2"]) "now" "op" 0 none none false true =
    .ok (.ran (.leaf (.lit (.int 4))) (.leaf (.lit (.int 4))) true) := by decide
example : commandrun (demoWorld ["v2"]) "now" "f" 2 none none true false = .ok (.listed (.leaf (.lit (.int 6)))) := by decide

end Verif.Eumopps.Run
