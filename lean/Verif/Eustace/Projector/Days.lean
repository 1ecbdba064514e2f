import Verif.Eustace.Projector.Cells

/-! C110: output for many days is that of each day alone. -/

namespace Verif.Eustace.Projector

open Verif Verif.Eustace.Elements

noncomputable section

/-! ### Blocks -/

/-- The product of arrays with agreeing shapes. -/
def times (A S : Arr) : Arr := ⟨A.rows, S.cols, fun i k => ∑ j ∈ Finset.range A.cols, A.get i j * S.get j k⟩

theorem mul_times (A S : Arr) (h : A.cols = S.rows) : mul A S = .ok (times A S) := by
  unfold mul
  rw [if_neg (by simp [h])]
  rfl

theorem blockLoop_eq (statistic : List ℝ → ℝ) (A S : Arr) (h : A.cols = S.rows) (size : Nat) :
    ∀ (blocks : List Nat) (output : Nat → ℝ), ∃ out, blockLoop statistic A S size blocks output = .ok out ∧
      ∀ i, ((∃ b ∈ blocks, b * size ≤ i ∧ i < min ((b + 1) * size) A.rows) → out i = statistic (rowOf (times A S) i)) ∧
        ((∀ b ∈ blocks, ¬ (b * size ≤ i ∧ i < min ((b + 1) * size) A.rows)) → out i = output i) := by
  intro blocks
  induction blocks with
  | nil => intro output; exact ⟨output, rfl, fun i => ⟨by simp, fun _ => rfl⟩⟩
  | cons b rest ih =>
    intro output
    have hm : mul (sliceRows A (b * size) (min ((b + 1) * size) A.rows)) S =
        .ok (times (sliceRows A (b * size) (min ((b + 1) * size) A.rows)) S) := mul_times _ _ h
    obtain ⟨out, h1, h2⟩ := ih fun i => if b * size ≤ i ∧ i < min ((b + 1) * size) A.rows then
      statistic (rowOf (times (sliceRows A (b * size) (min ((b + 1) * size) A.rows)) S) (i - b * size)) else output i
    refine ⟨out, ?_, ?_⟩
    · simp only [blockLoop, hm, h1]
    · intro i
      have hrow : b * size ≤ i →
          rowOf (times (sliceRows A (b * size) (min ((b + 1) * size) A.rows)) S) (i - b * size) = rowOf (times A S) i := by
        intro hi
        simp only [rowOf, times, sliceRows, Nat.add_sub_cancel' hi]
      constructor
      · rintro ⟨b', hb', hi⟩
        by_cases hin : ∃ b ∈ rest, b * size ≤ i ∧ i < min ((b + 1) * size) A.rows
        · exact (h2 i).1 hin
        · have hout : ∀ b ∈ rest, ¬ (b * size ≤ i ∧ i < min ((b + 1) * size) A.rows) := fun x hx hx' => hin ⟨x, hx, hx'⟩
          rw [(h2 i).2 hout]
          rcases List.mem_cons.1 hb' with rfl | hb'
          · rw [if_pos hi, hrow hi.1]
          · exact absurd hi (hout b' hb')
      · intro hnone
        rw [(h2 i).2 fun x hx => hnone x (List.mem_cons_of_mem _ hx)]
        rw [if_neg (hnone b (by simp))]

theorem block_exists (rows size i : Nat) (hs : 0 < size) (hi : i < rows) :
    ∃ b ∈ List.range ⌈(rows : ℝ) / size⌉₊, b * size ≤ i ∧ i < min ((b + 1) * size) rows := by
  refine ⟨i / size, ?_, Nat.div_mul_le_self i size, ?_⟩
  · rw [List.mem_range, Nat.lt_ceil, lt_div_iff₀ (by exact_mod_cast hs)]
    have : i / size * size < rows := lt_of_le_of_lt (Nat.div_mul_le_self i size) hi
    exact_mod_cast this
  · rw [lt_min_iff]
    refine ⟨?_, hi⟩
    have := Nat.lt_div_mul_add hs (a := i)
    rw [Nat.add_mul, Nat.one_mul]
    exact this

/-- C110: a statistic of samples does not depend on the blocks in which it is computed: it is that of the row of values of each
output. -/
theorem c110_blocks (p : Projector) (A S : Arr) (hd : p.design = some A) (hs : A.cols = S.rows) (hb : 0 < p.blocking)
    (hle : p.blocking ≤ A.rows) (statistic : List ℝ → ℝ) :
    ∃ y, p.statistic statistic S = .ok y ∧ y.rows = A.rows ∧ y.cols = 1 ∧
      ∀ i < A.rows, y.get i 0 = statistic ((List.range S.cols).map fun k => ∑ j ∈ Finset.range A.cols, A.get i j * S.get j k) := by
  have hsize : 0 < A.rows / p.blocking := Nat.div_pos hle hb
  obtain ⟨out, h1, h2⟩ := blockLoop_eq statistic A S hs (A.rows / p.blocking)
    (List.range ⌈(A.rows : ℝ) / ((A.rows / p.blocking : Nat) : ℝ)⌉₊) fun _ => 0
  refine ⟨⟨A.rows, 1, fun i _ => out i⟩, ?_, rfl, rfl, ?_⟩
  · unfold Projector.statistic
    simp only [hd]
    rw [if_neg (by omega), if_neg (by omega), h1]
  · intro i hi
    exact (h2 i).1 (block_exists A.rows _ i hsize hi)

/-- C110 fails for more blocks than outputs: there is no statistic at all. -/
theorem c110_blocks_violated (p : Projector) (A S : Arr) (hd : p.design = some A) (hlt : A.rows < p.blocking)
    (statistic : List ℝ → ℝ) : p.statistic statistic S = .error .zeroDivision := by
  unfold Projector.statistic
  simp only [hd]
  rw [if_neg (by omega), if_pos (Nat.div_eq_of_lt hlt)]

/-- C110 fails for a solution without samples: the deviation is asked for its shape instead of being left out, as the expected
value and the sample values are. -/
theorem c110_samples_violated (p : Projector) (h : p.samples = none) :
    p.sampleDeviation false = .error .attributeError ∧ p.sampleValues none = .ok none ∧ p.sampleStd false = .ok none := by
  refine ⟨?_, ?_, ?_⟩
  · simp [Projector.sampleDeviation, h]
  · simp [Projector.sampleValues, h]
  · simp [Projector.sampleStd, h]

/-! ### Days -/

theorem cellLoop_timeless (w : World) (p q : Projector) (e : Element) (he : Timeless e) (h1 : p.latitudes = q.latitudes)
    (h2 : p.longitudes = q.longitudes) (h3 : p.resolution = q.resolution) (h4 : p.sampling = q.sampling) :
    ∀ (l : List (Nat × Nat)) (total : Option (Arr × List ℝ)), cellLoop w p e l total = cellLoop w q e l total := by
  intro l
  induction l with
  | nil => intro total; rfl
  | cons z rest ih =>
    intro total
    obtain ⟨a, b⟩ := z
    simp only [cellLoop, h1, h2, h3, h4]
    have : e.design (gridObs w p.time (pointsOf q.latitudes q.resolution.1 q.sampling.1 a)
        (pointsOf q.longitudes q.resolution.2 q.sampling.2 b)) =
        e.design (gridObs w q.time (pointsOf q.latitudes q.resolution.1 q.sampling.1 a)
        (pointsOf q.longitudes q.resolution.2 q.sampling.2 b)) :=
      timeless_design (gridObs w p.time (pointsOf q.latitudes q.resolution.1 q.sampling.1 a)
        (pointsOf q.longitudes q.resolution.2 q.sampling.2 b)) (gridObs w q.time (pointsOf q.latitudes q.resolution.1 q.sampling.1 a)
        (pointsOf q.longitudes q.resolution.2 q.sampling.2 b)) rfl rfl rfl e he
    rw [this]
    cases (e.design (gridObs w q.time (pointsOf q.latitudes q.resolution.1 q.sampling.1 a)
        (pointsOf q.longitudes q.resolution.2 q.sampling.2 b))).matrix with
    | error err => rfl
    | ok block =>
      dsimp only
      have hloc : (gridObs w p.time (pointsOf q.latitudes q.resolution.1 q.sampling.1 a)
          (pointsOf q.longitudes q.resolution.2 q.sampling.2 b)).locations =
          (gridObs w q.time (pointsOf q.latitudes q.resolution.1 q.sampling.1 a)
          (pointsOf q.longitudes q.resolution.2 q.sampling.2 b)).locations := rfl
      rw [hloc]
      cases scaleRows (weightArray ((gridObs w q.time (pointsOf q.latitudes q.resolution.1 q.sampling.1 a)
          (pointsOf q.longitudes q.resolution.2 q.sampling.2 b)).locations.map Prod.fst)) block with
      | error err => rfl
      | ok weighted =>
        dsimp only
        cases total with
        | none => exact ih _
        | some t =>
          obtain ⟨D, nrm⟩ := t
          dsimp only
          cases add D weighted with
          | error err => rfl
          | ok D' => exact ih _

theorem evaluate_timeless (w : World) (p q : Projector) (c : Component) (hp : p.component = some c) (hq : q.component = some c)
    (he : Timeless c.element) (h1 : p.latitudes = q.latitudes) (h2 : p.longitudes = q.longitudes)
    (h3 : p.resolution = q.resolution) (h4 : p.sampling = q.sampling) :
    (∃ e, p.evaluateDesign w = .error e ∧ q.evaluateDesign w = .error e) ∨
      ∃ A, p.evaluateDesign w = .ok { p with design := some A } ∧ q.evaluateDesign w = .ok { q with design := some A } := by
  unfold Projector.evaluateDesign
  rw [h4]
  by_cases hz : q.sampling.1 = 0 ∨ q.sampling.2 = 0
  · rw [if_pos hz, if_pos hz]
    exact .inl ⟨_, rfl, rfl⟩
  · rw [if_neg hz, if_neg hz]
    simp only [hp, hq]
    rw [cellLoop_timeless w p q c.element he h1 h2 h3 h4]
    cases cellLoop w q c.element
        ((List.range q.sampling.1).flatMap fun a => (List.range q.sampling.2).map fun b => (a, b)) none with
    | error err => exact .inl ⟨_, rfl, rfl⟩
    | ok t =>
      cases t with
      | none => exact .inl ⟨_, rfl, rfl⟩
      | some t =>
        obtain ⟨D, nrm⟩ := t
        dsimp only
        cases scaleRows (nrm.map fun x => 1 / x) D with
        | error err => exact .inl ⟨_, rfl, rfl⟩
        | ok D' => exact .inr ⟨D', rfl, rfl⟩

theorem evaluate_ok (w : World) (p q : Projector) (h : p.evaluateDesign w = .ok q) : ∃ A, q = { p with design := some A } := by
  unfold Projector.evaluateDesign at h
  by_cases hz : p.sampling.1 = 0 ∨ p.sampling.2 = 0
  · rw [if_pos hz] at h; simp at h
  · rw [if_neg hz] at h
    cases hc : p.component with
    | none => simp [hc] at h
    | some c =>
      simp only [hc] at h
      cases hl : cellLoop w p c.element
          ((List.range p.sampling.1).flatMap fun a => (List.range p.sampling.2).map fun b => (a, b)) none with
      | error err => simp [hl] at h
      | ok t =>
        cases t with
        | none => simp [hl] at h
        | some t =>
          obtain ⟨D, nrm⟩ := t
          simp only [hl] at h
          cases hs : scaleRows (nrm.map fun x => 1 / x) D with
          | error err => simp only [hs, reduceCtorEq] at h
          | ok D' => simp only [hs, Except.ok.injEq] at h; exact ⟨D', h.symm⟩

theorem setComponent_cases (p : Projector) (c : Component) (keep : Bool) :
    (∃ e, ∀ q : Projector, ∀ keep', q.time = p.time → q.setComponent c keep' = .error e) ∨
      ∃ x S P, ∀ q : Projector, ∀ keep', q.time = p.time → q.setComponent c keep' =
        .ok { q with component := some c, state := x, samples := S, prior := P, design := if keep' then q.design else none } := by
  cases h1 : readQuantity .state p.time c.solution with
  | error e => exact .inl ⟨e, fun q k hq => by simp only [Projector.setComponent, hq, h1]⟩
  | ok x =>
    cases h2 : readQuantity .sample p.time c.solution with
    | error e => exact .inl ⟨e, fun q k hq => by simp only [Projector.setComponent, hq, h1, h2]⟩
    | ok S =>
      cases h3 : readQuantity .priorSample p.time c.solution with
      | error e => exact .inl ⟨e, fun q k hq => by simp only [Projector.setComponent, hq, h1, h2, h3]⟩
      | ok P => exact .inr ⟨x, S, P, fun q k hq => by simp only [Projector.setComponent, hq, h1, h2, h3]⟩

/-- A component with one state for all times. -/
def IndexFree (c : Component) : Prop := ∃ read, c.solution = .indexFree read

/-- The projector of an earlier day does what a new one does. -/
def SlowReady (w : World) (g : Grid) (c : Component) (p : Option Projector) : Prop :=
  ∀ t, slowStep w g c t p = slowStep w g c t none

def LocalReady (w : World) (g : Grid) (c : Component) (p : Option Projector) : Prop :=
  ∀ t, localStep w g c t p = localStep w g c t none

theorem slow_ready (w : World) (g : Grid) (c : Component) (hc : IndexFree c) (t : Int) (p : Projector)
    (h : slowStep w g c t none = .ok p) : SlowReady w g c (some p) := by
  obtain ⟨read, hc⟩ := hc
  intro t'
  unfold slowStep known at h ⊢
  have hread : ∀ q t t', readQuantity q t c.solution = readQuantity q t' c.solution := by
    intro q t t'; rw [hc]; rfl
  have key : ∀ t, (g.projector t).setComponent c false = match (g.projector 0).setComponent c false with
      | .error e => .error e
      | .ok q => .ok { q with time := t } := by
    intro t
    unfold Projector.setComponent
    rw [hread .state (g.projector t).time (g.projector 0).time, hread .sample (g.projector t).time (g.projector 0).time,
      hread .priorSample (g.projector t).time (g.projector 0).time]
    cases readQuantity .state (g.projector 0).time c.solution with
    | error e => rfl
    | ok x =>
      cases readQuantity .sample (g.projector 0).time c.solution with
      | error e => rfl
      | ok S =>
        cases readQuantity .priorSample (g.projector 0).time c.solution with
        | error e => rfl
        | ok P => rfl
  rw [key t'] 
  rw [key t] at h
  cases h0 : (g.projector 0).setComponent c false with
  | error e => simp [h0] at h
  | ok q =>
    simp only [h0] at h
    obtain ⟨A, rfl⟩ := evaluate_ok w _ _ h
    rfl

theorem local_ready (w : World) (g : Grid) (c : Component) (hc : Timeless c.element) (t : Int) (p : Projector)
    (h : localStep w g c t none = .ok p) : LocalReady w g c (some p) := by
  intro t'
  unfold localStep at h ⊢
  dsimp only at h ⊢
  rcases setComponent_cases (g.projector t) c false with ⟨e, h1⟩ | ⟨x, S, P, h1⟩
  · rw [h1 (g.projector t) false rfl] at h; simp at h
  · rw [h1 (g.projector t) false rfl] at h
    dsimp only at h
    rcases setComponent_cases (g.projector t') c false with ⟨e, h2⟩ | ⟨x', S', P', h2⟩
    · rw [h2 (g.projector t') false rfl, h2 (p.updateTimeIndex t' true) true rfl]
    · rw [h2 (g.projector t') false rfl, h2 (p.updateTimeIndex t' true) true rfl]
      dsimp only
      rcases evaluate_timeless w
        { g.projector t with component := some c, state := x, samples := S, prior := P, design := if false then (g.projector t).design else none }
        { g.projector t' with component := some c, state := x', samples := S', prior := P', design := if false then (g.projector t').design else none }
        c rfl rfl hc rfl rfl rfl rfl with ⟨e, h3, -⟩ | ⟨A, h3, h4⟩
      · rw [h3] at h; simp at h
      · rw [h3] at h
        have := Except.ok.inj h
        subst this
        rw [h4]
        rfl

/-- The output of days one after another, each from its own run: the first failure stops. -/
def eachDay (day : Int → Except PyErr (List Output)) : List Int → Except PyErr (List Output)
  | [] => .ok []
  | t :: rest =>
    match day t with
    | .error e => .error e
    | .ok o =>
      match eachDay day rest with
      | .error e => .error e
      | .ok os => .ok (o ++ os)

theorem batch_days (w : World) (g : Grid) (indices : List Nat) (a b c : Component) (ha : IndexFree a) (hb : IndexFree b)
    (hc : Timeless c.element) : ∀ (days : List Int) (p q r : Option Projector), SlowReady w g a p → SlowReady w g b q →
      LocalReady w g c r → batchLoop w g indices a b c days p q r = eachDay (fun t => outputGridBatch w g indices a b c [t]) days := by
  intro days
  induction days with
  | nil => intro p q r _ _ _; rfl
  | cons t rest ih =>
    intro p q r hp hq hr
    unfold eachDay outputGridBatch
    simp only [batchLoop]
    rw [hp t, hq t, hr t]
    cases h1 : slowStep w g a t none with
    | error e => rfl
    | ok p' =>
      dsimp only
      cases p'.fields indices true with
      | error e => rfl
      | ok f =>
        dsimp only
        cases h2 : slowStep w g b t none with
        | error e => rfl
        | ok q' =>
          dsimp only
          cases q'.fields indices true with
          | error e => rfl
          | ok f' =>
            dsimp only
            cases h3 : localStep w g c t none with
            | error e => rfl
            | ok r' =>
              dsimp only
              cases r'.fields indices true with
              | error e => rfl
              | ok f'' =>
                dsimp only
                rw [ih (some p') (some q') (some r') (slow_ready w g a ha t p' h1) (slow_ready w g b hb t q' h2)
                  (local_ready w g c hc t r' h3)]
                rfl

/-- C110: the output for many days is that of each day alone, although the projectors are used again: for the climatology and the
large scale component one state is stored for all days, and the design matrix of the local component, which is kept from the
first day, depends on no time. -/
theorem c110_days (w : World) (g : Grid) (indices : List Nat) (a b c : Component) (ha : IndexFree a) (hb : IndexFree b)
    (hc : Timeless c.element) (days : List Int) :
    outputGridBatch w g indices a b c days = eachDay (fun t => outputGridBatch w g indices a b c [t]) days :=
  batch_days w g indices a b c ha hb hc days none none none (fun _ => rfl) (fun _ => rfl) fun _ => rfl

end

end Verif.Eustace.Projector
