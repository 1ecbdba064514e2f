import Verif.Eustace.Fit.Spec
import Verif.Eustace.CostFunction.Marginal
import Verif.Eustace.CostFunction.Derivative
import Verif.Eustace.Elements.DerivativeProps

/-!
C173: the optimisation of hyperparameters minimises what it should and keeps what the minimiser found.
-/

namespace Verif.Eustace.Fit

open Verif Matrix Verif.Eustace.Linear Verif.Eustace.Qinv Verif.Eustace.CostFunction Verif.Eustace.Components
open Verif.Eustace.Elements (Hyper getArray setArray put putAll leaves leavesAll count Proper ProperAll Balanced BalancedAll)

noncomputable section

/-! ### Values which are set again -/

mutual

theorem put_put : ∀ (h : Hyper) (w v : List ℝ), w.length = count h → put (put h w) v = put h v
  | .covariate _, w, v, _ => by simp [put]
  | .stationary _ _, w, v, _ => by simp [put]
  | .expanded _ _, w, v, _ => by simp [put]
  | .seasonal _, w, v, _ => by simp [put]
  | .spaceTime _ _ _, w, v, _ => by simp [put]
  | .combination parts, w, v, hw => by
    simp only [put]
    rw [putAll_putAll parts w v (by simpa [count, leaves] using hw)]

theorem putAll_putAll : ∀ (parts : List Hyper) (w v : List ℝ), w.length = (leavesAll parts).length →
    putAll (putAll parts w) v = putAll parts v
  | [], w, v, _ => by simp [putAll]
  | h :: rest, w, v, hw => by
    simp only [leavesAll, List.length_append] at hw
    have hle : count h ≤ w.length := by unfold count; omega
    have h1 : (w.take (count h)).length = count h := by simp [hle]
    simp only [putAll]
    rw [Elements.count_put h _ h1, put_put h _ _ h1, putAll_putAll rest _ _ (by rw [List.length_drop]; unfold count; omega)]

end

theorem set_again (h : Hyper) (hp : Proper h) (w v : List ℝ) (hw : w.length = count h) (hv : v.length = count h) :
    setArray (put h w) v = .ok (put h v) := by
  rw [Elements.setArray_proper _ v (Elements.proper_put h w hp hw) (by rw [Elements.count_put h w hw, hv]), put_put h w v hw]

/-! ### One day -/

variable {n : Nat}

/-- What is stored for a day belongs to observations: a measurement with their increments, and a state. -/
def Stored (states : Int → Option (Vec n)) (m : Option Int × Option (Update n)) (bs : List (Batch n)) : Prop :=
  ∃ t u x, m = (some t, some u) ∧ states t = some x ∧ (replicateOf u x).Holds bs

theorem gather_ok (states : Int → Option (Vec n)) {ms : List (Option Int × Option (Update n))} {days : List (List (Batch n))}
    (h : List.Forall₂ (Stored states) ms days) :
    ∃ rs, gather states ms = .ok rs ∧ List.Forall₂ (fun (r : Replicate n) bs => r.priorMean = 0 ∧ r.Holds bs) rs days := by
  induction h with
  | nil => exact ⟨[], rfl, .nil⟩
  | cons h1 _ ih =>
    obtain ⟨t, u, x, rfl, hx, hh⟩ := h1
    obtain ⟨rs, hr, hf⟩ := ih
    exact ⟨replicateOf u x :: rs, by rw [gather, hx]; simp only; rw [hr], .cons ⟨rfl, hh⟩ hf⟩

/-! ### Costs and derivatives -/

/-- What is needed of prior and factorisations: for all values of the right number, the precision is there and positive
definite, its derivatives are there and are its derivatives, and factorisations are there with a pattern which suffices. -/
structure Regular (c : PriorOf n) (cholesky : (Q : Mat n) → Except PyErr (Solver Q)) (rs : List (Replicate n)) (h : Hyper)
    (Q : List ℝ → Mat n) (D : List ℝ → Nat → Mat n) : Prop where
  proper : Proper h
  precision : ∀ w, w.length = count h → c.precision (put h w) = .ok (Q w)
  posDef : ∀ w, w.length = count h → (Q w).PosDef
  derivative : ∀ w, w.length = count h → ∀ k < count h, c.derivative (put h w) k = .ok (D w k)
  slope : ∀ w, w.length = count h → ∀ k < count h, HasMatrixDeriv (fun t => Q (w.set k t)) (D w k) (w.getD k 0)
  increments : ∀ r ∈ rs, r.qIncrement.PosSemidef
  factor : ∀ w, w.length = count h → ∃ s, cholesky (Q w) = .ok s ∧ Closed s.cholmod.L
  factors : ∀ w, w.length = count h → ∀ r ∈ rs, ∃ s, cholesky (Q w + r.qIncrement) = .ok s ∧ Closed s.cholmod.L
  pattern : ∀ w, w.length = count h → ∀ k < count h, ∀ a b, D w k a b ≠ 0 →
    Q w b a ≠ 0 ∧ ∀ r ∈ rs, (Q w + r.qIncrement) b a ≠ 0

variable {c : PriorOf n} {cholesky : (Q : Mat n) → Except PyErr (Solver Q)} {rs : List (Replicate n)} {h : Hyper}
  {Q : List ℝ → Mat n} {D : List ℝ → Nat → Mat n}

theorem posteriors_ok {P : Mat n} (rs : List (Replicate n))
    (hc : ∀ r ∈ rs, ∃ s, cholesky (P + r.qIncrement) = .ok s ∧ Closed s.cholmod.L) :
    ∃ ss, posteriors cholesky P rs = .ok ss ∧ ss.map Sigma.fst = rs ∧ ∀ s ∈ ss, Closed s.2.cholmod.L := by
  induction rs with
  | nil => exact ⟨[], rfl, rfl, by simp⟩
  | cons r rs ih =>
    obtain ⟨ss, h1, h2, h3⟩ := ih fun q hq => hc q (List.mem_cons_of_mem _ hq)
    obtain ⟨s, hs, hcl⟩ := hc r List.mem_cons_self
    refine ⟨⟨r, s⟩ :: ss, by rw [posteriors, hs]; simp only; rw [h1], by simp [h2], ?_⟩
    intro q hq
    rcases List.mem_cons.1 hq with rfl | hq
    · exact hcl
    · exact h3 q hq

theorem qFunction_ok (R : Regular c cholesky rs h Q D) (w v : List ℝ) (hw : w.length = count h) (hv : v.length = count h) :
    qFunction c (put h w) v = .ok (put h v, Q v) := by
  rw [qFunction, set_again h R.proper w v hw hv]
  simp only
  rw [R.precision v hv]

theorem dqList_ok (R : Regular c cholesky rs h Q D) (v : List ℝ) (hv : v.length = count h) (ks : List Nat)
    (hk : ∀ k ∈ ks, k < count h) : dqList c v ks (put h v) = .ok (put h v, ks.map (D v)) := by
  induction ks with
  | nil => rfl
  | cons k ks ih =>
    rw [dqList, dqFunction, set_again h R.proper v v hv hv]
    simp only
    rw [R.derivative v hv k (hk k List.mem_cons_self)]
    simp only
    rw [ih fun q hq => hk q (List.mem_cons_of_mem _ hq)]
    rfl

theorem costOf_ok (R : Regular c cholesky rs h Q D) (w v : List ℝ) (hw : w.length = count h) (hv : v.length = count h) :
    costOf c cholesky rs (put h w) v = .ok (put h v, replicateCost (Q v) rs) := by
  obtain ⟨s, hs, -⟩ := R.factor v hv
  obtain ⟨ss, h1, -, -⟩ := posteriors_ok rs (R.factors v hv)
  rw [costOf, qFunction_ok R w v hw hv]
  simp only
  rw [hs]
  simp only
  rw [h1]

theorem ofFn_update {p : Nat} (θ : Vec p) (j : Fin p) (t : ℝ) :
    List.ofFn (Function.update θ j t) = (List.ofFn θ).set j t := by
  apply List.ext_getElem
  · simp
  · intro i h1 h2
    rw [List.getElem_set, List.getElem_ofFn, List.getElem_ofFn, Function.update_apply]
    simp only [List.length_ofFn] at h1
    by_cases hij : (j : Nat) = i
    · rw [if_pos hij, if_pos (Fin.ext hij.symm)]
    · rw [if_neg hij, if_neg fun e => hij (congrArg Fin.val e).symm]

/-- What the minimiser gets as derivative are the partial derivatives of what it gets as cost. -/
theorem gradientOf_ok (R : Regular c cholesky rs h Q D) (w v : List ℝ) (hw : w.length = count h) (hv : v.length = count h) :
    gradientOf c cholesky rs (put h w) v = .ok (put h v, slopes (fun v => replicateCost (Q v) rs) v) := by
  obtain ⟨s, hs, hcl⟩ := R.factor v hv
  obtain ⟨ss, h1, h2, h3⟩ := posteriors_ok rs (R.factors v hv)
  set θ : Vec v.length := fun i => v[i] with hθ
  have hof : List.ofFn θ = v := List.ofFn_getElem
  have hmem : ∀ q ∈ ss, q.1 ∈ rs := fun q hq => h2 ▸ List.mem_map_of_mem hq
  have key : ∀ (P : Mat n) (_ : P = (fun θ : Vec v.length => Q (List.ofFn θ)) θ) (s : Solver P)
      (ss : List ((r : Replicate n) × Solver (P + r.qIncrement))) (_ : Closed s.cholmod.L) (_ : ss.map Sigma.fst = rs)
      (_ : ∀ s ∈ ss, Closed s.2.cholmod.L) (_ : ∀ q ∈ ss, q.1 ∈ rs),
      ∃ g, replicateDerivative P (fun j : Fin v.length => D v j) s ss = .ok g ∧
        List.ofFn g = slopes (fun v => replicateCost (Q v) rs) v := by
    intro P hP s ss hcl h2 h3 hmem
    subst hP
    obtain ⟨g, hg, hgd⟩ := c86_replicates (Qf := fun θ : Vec v.length => Q (List.ofFn θ)) (θ := θ)
      (dQ := fun j : Fin v.length => D v j)
      (fun j => by
        have := R.slope v hv j (hv ▸ j.2)
        have e : (fun t => Q (List.ofFn (Function.update θ j t))) = fun t => Q (v.set j t) := by
          funext t
          rw [ofFn_update, hof]
        rw [e]
        simpa [hθ] using this)
      (by simp only [hof]; exact R.posDef v hv) s hcl ss
      (fun q hq => by simp only [hof]; exact (R.posDef v hv).add_posSemidef (R.increments _ (hmem q hq))) h3
      (fun j a b hne => by simp only [hof]; exact (R.pattern v hv j (hv ▸ j.2) a b hne).1)
      (fun q hq j a b hne => by simp only [hof]; exact (R.pattern v hv j (hv ▸ j.2) a b hne).2 q.1 (hmem q hq))
    refine ⟨g, hg, ?_⟩
    rw [slopes]
    apply List.ext_getElem
    · simp
    · intro i hi1 hi2
      simp only [List.length_ofFn] at hi1
      rw [List.getElem_ofFn, List.getElem_map, List.getElem_range]
      have := (hgd ⟨i, hi1⟩).deriv
      rw [h2] at this
      rw [← this]
      have e : (fun t => replicateCost (Q (List.ofFn (Function.update θ ⟨i, hi1⟩ t))) rs) =
          fun t => replicateCost (Q (v.set i t)) rs := by
        funext t
        rw [ofFn_update, hof]
      rw [e]
      simp [hθ, hi1]
  obtain ⟨g, hg, hgs⟩ := key (Q v) (by simp only; rw [hof]) s ss hcl h2 h3 hmem
  rw [gradientOf, qFunction_ok R w v hw hv]
  simp only
  rw [hs]
  simp only
  rw [dqList_ok R v hv _ fun k hk => hv ▸ List.mem_range.1 hk]
  simp only
  rw [h1]
  simp only
  have e : (fun j : Fin v.length => ((List.range v.length).map (D v)).getD j 0) = fun j : Fin v.length => D v j := by
    funext j
    simp
  rw [e, hg]
  simp only
  rw [hgs]

/-! ### The whole run -/

theorem fit_ok (R : Regular c cholesky rs h Q D) (m : Minimiser) (hm : m.Sized (count h)) (w : List ℝ) (hw : w.length = count h)
    (path : List (List ℝ)) :
    ∃ w', w'.length = count h ∧ fit c cholesky rs m (put h w) path =
      .ok (put h w', (m.against (fun v => replicateCost (Q v) rs) (slopes fun v => replicateCost (Q v) rs)).1,
        (m.against (fun v => replicateCost (Q v) rs) (slopes fun v => replicateCost (Q v) rs)).2.1,
        path ++ (m.against (fun v => replicateCost (Q v) rs) (slopes fun v => replicateCost (Q v) rs)).2.2) := by
  induction m generalizing w path with
  | done s x => exact ⟨w, hw, by simp [fit, Minimiser.against]⟩
  | cost x next ih =>
    simp only [Minimiser.Sized] at hm
    obtain ⟨w', h1, h2⟩ := ih _ (hm.2 _) x hm.1 path
    refine ⟨w', h1, ?_⟩
    rw [fit, costOf_ok R w x hw hm.1]
    exact h2
  | gradient x next ih =>
    simp only [Minimiser.Sized] at hm
    obtain ⟨w', h1, h2⟩ := ih _ (hm.2 _) x hm.1 path
    refine ⟨w', h1, ?_⟩
    rw [fit, gradientOf_ok R w x hw hm.1]
    exact h2
  | callback x next ih =>
    simp only [Minimiser.Sized] at hm
    obtain ⟨w', h1, h2⟩ := ih hm w hw (path ++ [x])
    refine ⟨w', h1, ?_⟩
    rw [fit, h2]
    simp [Minimiser.against]

theorem against_sized {p : Nat} (f : List ℝ → ℝ) (g : List ℝ → List ℝ) (m : Minimiser) (hm : m.Sized p) :
    (m.against f g).2.1.length = p := by
  induction m with
  | done s x => exact hm
  | cost x next ih => exact ih _ (hm.2 _)
  | gradient x next ih => exact ih _ (hm.2 _)
  | callback x next ih => exact ih hm

/-- **C173.**  Whatever the minimiser asks for, and in whatever order, it is run on the cost of all days and its partial
derivatives; afterwards the component and the file have the values it found if it succeeded, and otherwise those at the start. -/
theorem c173_kept (R : Regular c cholesky rs h Q D) (hb : Balanced h) (minimize : List ℝ → Minimiser)
    (hm : (minimize (leaves h)).Sized (count h)) (st : Storage n) (hg : gather st.states st.measurement = .ok rs)
    (success : Bool) (x : List ℝ) (path : List (List ℝ))
    (hr : (minimize (leaves h)).against (fun v => replicateCost (Q v) rs) (slopes fun v => replicateCost (Q v) rs) =
      (success, x, path)) :
    ∃ h', optimize c cholesky minimize st h = .ok (h', leaves h :: path) ∧ setArray h (if success then x else leaves h) = .ok h' ∧
      getArray h' = .ok (if success then x else leaves h) ∧
      optimizeComponent c cholesky minimize st h true = .ok (h', some (if success then x else leaves h)) ∧
      c.precision h' = .ok (Q (if success then x else leaves h)) := by
  have hx : x.length = count h := by
    have := against_sized (fun v => replicateCost (Q v) rs) (slopes fun v => replicateCost (Q v) rs) _ hm
    rwa [hr] at this
  obtain ⟨w', h1, h2⟩ := fit_ok R (minimize (leaves h)) hm (leaves h) rfl [leaves h]
  rw [hr, Elements.put_leaves h hb] at h2
  have hl : (if success = true then x else leaves h).length = count h := by split <;> [exact hx; rfl]
  have ho : optimize c cholesky minimize st h = .ok (put h (if success = true then x else leaves h), leaves h :: path) := by
    rw [optimize, hg]
    simp only
    rw [Elements.getArray_proper h R.proper]
    simp only
    rw [h2]
    simp only
    rw [set_again h R.proper w' _ h1 hl]
    rfl
  have ha : getArray (put h (if success = true then x else leaves h)) = .ok (if success then x else leaves h) := by
    rw [Elements.getArray_proper _ (Elements.proper_put h _ R.proper hl), Elements.leaves_put h _ hl]
  refine ⟨_, ho, Elements.setArray_proper h _ R.proper hl, ha, ?_, R.precision _ hl⟩
  rw [optimizeComponent, ho]
  simp only [if_true]
  rw [ha]

theorem joint_eq {days : List (List (Batch n))}
    (hf : List.Forall₂ (fun (r : Replicate n) bs => r.priorMean = 0 ∧ r.Holds bs) rs days) (P : Mat n) :
    ((rs.zip days).map fun d => marginalLikelihood P d.1.priorMean d.2).prod = jointLikelihood P days := by
  rw [jointLikelihood]
  conv_rhs => rw [← List.map_snd_zip (l₁ := rs) (l₂ := days) hf.length_eq.ge, List.map_map]
  exact congrArg List.prod (List.map_congr_left fun d hd => by rw [((List.forall₂_iff_zip.1 hf).2 hd).1]; rfl)

/-- Smaller cost means that the observations of all days are more likely. -/
theorem cost_order {days : List (List (Batch n))}
    (hf : List.Forall₂ (fun (r : Replicate n) bs => r.priorMean = 0 ∧ r.Holds bs) rs days)
    (hR : ∀ bs ∈ days, ∀ b ∈ bs, b.R.PosDef) {P P' : Mat n} (hP : P.PosDef) (hP' : P'.PosDef) :
    replicateCost P rs ≤ replicateCost P' rs ↔ jointLikelihood P' days ≤ jointLikelihood P days := by
  have := c85_replicates_order (data := rs.zip days) (fun d hd => ((List.forall₂_iff_zip.1 hf).2 hd).2)
    (fun d hd => hR d.2 (List.of_mem_zip hd).2) hP hP'
  rwa [List.map_fst_zip hf.length_eq.le, joint_eq hf, joint_eq hf] at this

/-- **C173.**  If the minimiser does not end with success at a higher cost than at the start, the observations of all days
together are at least as likely with the hyperparameters in the file as with those at the start. -/
theorem c173_likelihood (hb : Balanced h) (minimize : List ℝ → Minimiser) (hd : Descends minimize)
    (hm : (minimize (leaves h)).Sized (count h)) (st : Storage n) (days : List (List (Batch n)))
    (hs : List.Forall₂ (Stored st.states) st.measurement days) (hR : ∀ bs ∈ days, ∀ b ∈ bs, b.R.PosDef)
    (R : ∀ rs, gather st.states st.measurement = .ok rs → Regular c cholesky rs h Q D) :
    ∃ h' values, optimizeComponent c cholesky minimize st h true = .ok (h', some values) ∧ c.precision h' = .ok (Q values) ∧
      c.precision h = .ok (Q (leaves h)) ∧ jointLikelihood (Q (leaves h)) days ≤ jointLikelihood (Q values) days := by
  obtain ⟨rs, hg, hf⟩ := gather_ok st.states hs
  have R := R rs hg
  have hx := against_sized (fun v => replicateCost (Q v) rs) (slopes fun v => replicateCost (Q v) rs) _ hm
  have hd := hd (fun v => replicateCost (Q v) rs) (slopes fun v => replicateCost (Q v) rs) (leaves h)
  rcases hr : (minimize (leaves h)).against (fun v => replicateCost (Q v) rs) (slopes fun v => replicateCost (Q v) rs) with
    ⟨success, x, path⟩
  obtain ⟨h', -, -, -, h3, h4⟩ := c173_kept R hb minimize hm st hg success x path hr
  rw [hr] at hx hd
  refine ⟨h', _, h3, h4, ?_, ?_⟩
  · have := R.precision (leaves h) rfl
    rwa [Elements.put_leaves h hb] at this
  · cases success with
    | false => simp
    | true =>
      simp only [if_true]
      have hle := hd rfl
      simp only at hle
      exact (cost_order hf hR (R.posDef x hx) (R.posDef (leaves h) rfl)).1 hle

/-- The cost is minus the logarithm of the likelihood of all days, up to a constant. -/
theorem cost_log {days : List (List (Batch n))}
    (hf : List.Forall₂ (fun (r : Replicate n) bs => r.priorMean = 0 ∧ r.Holds bs) rs days)
    (hR : ∀ bs ∈ days, ∀ b ∈ bs, b.R.PosDef) {P : Mat n} (hP : P.PosDef) :
    Real.log (jointLikelihood P days) =
      -replicateCost P rs + Real.log ((rs.zip days).map fun d => likelihood d.2 d.1.setPoint).prod := by
  have hz : ∀ d ∈ rs.zip days, d.1.priorMean = 0 ∧ d.1.Holds d.2 := fun d hd => (List.forall₂_iff_zip.1 hf).2 hd
  have := c85_replicates (data := rs.zip days) (fun d hd => (hz d hd).2) (fun d hd => hR d.2 (List.of_mem_zip hd).2) hP
  rw [List.map_fst_zip hf.length_eq.le, joint_eq hf] at this
  rw [this, Real.log_mul (Real.exp_pos _).ne' ?_, Real.log_exp]
  refine (List.prod_pos fun a ha => ?_).ne'
  obtain ⟨d, hd, rfl⟩ := List.mem_map.1 ha
  exact likelihood_pos (hR d.2 (List.of_mem_zip hd).2) _

/-- **C173.**  If the minimiser succeeds only where no derivative is above its tolerance, then at the values in the file no
partial derivative of the logarithm of the likelihood of all days is above it. -/
theorem c173_settled (hb : Balanced h) (minimize : List ℝ → Minimiser) (tolerance : ℝ) (hd : Settles tolerance minimize)
    (hm : (minimize (leaves h)).Sized (count h)) (st : Storage n) (days : List (List (Batch n)))
    (hs : List.Forall₂ (Stored st.states) st.measurement days) (hR : ∀ bs ∈ days, ∀ b ∈ bs, b.R.PosDef)
    (R : ∀ rs, gather st.states st.measurement = .ok rs → Regular c cholesky rs h Q D) :
    ∃ h' values, optimizeComponent c cholesky minimize st h true = .ok (h', some values) ∧ c.precision h' = .ok (Q values) ∧
      (values = leaves h ∨ ∀ j < values.length,
        |deriv (fun t => Real.log (jointLikelihood (Q (values.set j t)) days)) (values.getD j 0)| ≤ tolerance) := by
  obtain ⟨rs, hg, hf⟩ := gather_ok st.states hs
  have R := R rs hg
  have hx := against_sized (fun v => replicateCost (Q v) rs) (slopes fun v => replicateCost (Q v) rs) _ hm
  have hd := hd (fun v => replicateCost (Q v) rs) (slopes fun v => replicateCost (Q v) rs) (leaves h)
  rcases hr : (minimize (leaves h)).against (fun v => replicateCost (Q v) rs) (slopes fun v => replicateCost (Q v) rs) with
    ⟨success, x, path⟩
  obtain ⟨h', -, -, -, h3, h4⟩ := c173_kept R hb minimize hm st hg success x path hr
  rw [hr] at hx hd
  refine ⟨h', _, h3, h4, ?_⟩
  cases success with
  | false => exact .inl (by simp)
  | true =>
    refine .inr fun j hj => ?_
    simp only [if_true] at hj ⊢
    have hmem : deriv (fun t => replicateCost (Q (x.set j t)) rs) (x.getD j 0) ∈
        slopes (fun v => replicateCost (Q v) rs) x := by
      rw [slopes]
      exact List.mem_map.2 ⟨j, List.mem_range.2 hj, rfl⟩
    have hle := hd rfl _ hmem
    have e : (fun t => Real.log (jointLikelihood (Q (x.set j t)) days)) =
        fun t => -replicateCost (Q (x.set j t)) rs + Real.log ((rs.zip days).map fun d => likelihood d.2 d.1.setPoint).prod := by
      funext t
      exact cost_log hf hR (R.posDef _ (by rw [List.length_set]; exact hx))
    rw [e, deriv_add_const, deriv.fun_neg, abs_neg]
    exact hle

/-! ### Elements -/

mutual

theorem fits_put : ∀ (e : Elements.Element) (h : Hyper) (w : List ℝ), Elements.Fits e h → w.length = count h →
    Elements.Fits e (put h w)
  | .bias _ _, h, w, hf, _ => by cases h <;> simp [Elements.Fits, put] at hf ⊢
  | .grandMean, h, w, hf, _ => by cases h <;> simp [Elements.Fits, put] at hf ⊢
  | .geography _, h, w, hf, _ => by cases h <;> simp [Elements.Fits, put] at hf ⊢
  | .latitudeHarmonics, h, w, hf, hw => by
    cases h <;> simp only [Elements.Fits] at hf
    rename_i parts
    simp only [put, Elements.Fits]
    refine ⟨by rw [Elements.putAll_length]; exact hf.1, ?_⟩
    have : ∀ (parts : List Hyper) (w : List ℝ), (∀ a ∈ parts, ∃ v, a = .covariate v) →
        ∀ a ∈ putAll parts w, ∃ v, a = Hyper.covariate v := by
      intro parts
      induction parts with
      | nil => intro w _ a ha; simp [putAll] at ha
      | cons b rest ih =>
        intro w hall a ha
        rw [putAll] at ha
        rcases List.mem_cons.1 ha with rfl | ha
        · obtain ⟨v, rfl⟩ := hall b List.mem_cons_self
          exact ⟨_, by rw [put]⟩
        · exact ih _ (fun q hq => hall q (List.mem_cons_of_mem _ hq)) a ha
    exact this parts w hf.2
  | .latitudeSpline _ _ _ _, h, w, hf, _ => by cases h <;> simp [Elements.Fits, put] at hf ⊢
  | .stationary _, h, w, hf, _ => by cases h <;> simp [Elements.Fits, put] at hf ⊢
  | .nonstationary m, h, w, hf, hw => by
    cases h <;> simp only [Elements.Fits] at hf
    simp only [count, leaves, List.length_append] at hw
    simp only [put, Elements.Fits, List.length_take, List.length_drop]
    omega
  | .spatialBias _ _, h, w, hf, _ => by cases h <;> simp [Elements.Fits, put] at hf ⊢
  | .seasonal _ k mean, h, w, hf, hw => by
    cases h <;> simp only [Elements.Fits] at hf
    simp only [count, leaves] at hw
    simp only [put, Elements.Fits]
    omega
  | .kronecker _, h, w, hf, _ => by cases h <;> simp [Elements.Fits, put] at hf ⊢
  | .annualKronecker _, h, w, hf, _ => by cases h <;> simp [Elements.Fits, put] at hf ⊢
  | .factor _, h, w, hf, _ => by cases h <;> simp [Elements.Fits, put] at hf ⊢
  | .combination elements, h, w, hf, hw => by
    cases h <;> simp only [Elements.Fits] at hf
    simp only [put, Elements.Fits]
    exact fitsAll_put elements _ w hf (by simpa [count, leaves] using hw)

theorem fitsAll_put : ∀ (es : List Elements.Element) (hs : List Hyper) (w : List ℝ), Elements.FitsAll es hs →
    w.length = (leavesAll hs).length → Elements.FitsAll es (putAll hs w)
  | [], [], w, _, _ => by simp [putAll, Elements.FitsAll]
  | [], _ :: _, w, hf, _ => by simp [Elements.FitsAll] at hf
  | _ :: _, [], w, hf, _ => by simp [Elements.FitsAll] at hf
  | e :: es, h :: hs, w, hf, hw => by
    simp only [Elements.FitsAll] at hf
    simp only [leavesAll, List.length_append] at hw
    have hle : count h ≤ w.length := by unfold count; omega
    simp only [putAll, Elements.FitsAll]
    exact ⟨fits_put e h _ hf.1 (by simp [hle]), fitsAll_put es hs _ hf.2 (by rw [List.length_drop]; unfold count; omega)⟩

end

/-- A result, or zero where there is none. -/
def okay (r : Except PyErr (Mat n)) : Mat n :=
  match r with
  | .ok A => A
  | .error _ => 0

/-- The precision of an element for given values. -/
def precisionAt (e : Elements.Element) (n : Nat) (h : Hyper) (w : List ℝ) : Mat n := okay ((ofElement e n).precision (put h w))

/-- The derivatives which an element gives for given values. -/
def derivativeAt (e : Elements.Element) (n : Nat) (h : Hyper) (w : List ℝ) (k : Nat) : Mat n :=
  okay ((ofElement e n).derivative (put h w) k)

/-- **C173 for all elements** without periodic lattices, also combinations: with factorisations whose patterns suffice, all that
the other theorems need of the prior is there. -/
theorem c173_elements (e : Elements.Element) (h : Hyper) (obs : Elements.Obs) (hf : Elements.Fits e h) (ha : Elements.Allowed e)
    (hsm : Elements.Smooth e) (hso : Elements.Solid e) (hp : Proper h) (n : Nat) (hn : (e.design obs).size = n)
    (cholesky : (Q : Mat n) → Except PyErr (Solver Q)) (rs : List (Replicate n))
    (hi : ∀ r ∈ rs, r.qIncrement.PosSemidef)
    (hc : ∀ w, w.length = count h → ∃ s, cholesky (precisionAt e n h w) = .ok s ∧ Closed s.cholmod.L)
    (hcs : ∀ w, w.length = count h → ∀ r ∈ rs, ∃ s, cholesky (precisionAt e n h w + r.qIncrement) = .ok s ∧
      Closed s.cholmod.L)
    (hpat : ∀ w, w.length = count h → ∀ k < count h, ∀ a b, derivativeAt e n h w k a b ≠ 0 →
      precisionAt e n h w b a ≠ 0 ∧ ∀ r ∈ rs, (precisionAt e n h w + r.qIncrement) b a ≠ 0) :
    Regular (ofElement e n) cholesky rs h (precisionAt e n h) (derivativeAt e n h) := by
  subst hn
  have hprec : ∀ w, w.length = count h → ∃ p A, e.prior (put h w) = .ok p ∧ p.precision = .ok A ∧
      Elements.Pos (e.design obs).size A := fun w hw => Elements.c90_precision obs e _ (fits_put e h w hf hw) ha hso
  have hder : ∀ w, w.length = count h → Elements.DerivAt e (put h w) := fun w hw =>
    Elements.element_deriv e _ (fits_put e h w hf hw) ha hsm (Elements.proper_put h w hp hw)
  refine ⟨hp, fun w hw => ?_, fun w hw => ?_, fun w hw k hk => ?_, fun w hw k hk => ?_, hi, hc, hcs, hpat⟩
  · obtain ⟨p, A, h1, h2, -⟩ := hprec w hw
    rw [precisionAt, ofElement]
    simp only
    rw [h1]
    simp only
    rw [h2]
    rfl
  · obtain ⟨p, A, h1, h2, h3⟩ := hprec w hw
    rw [precisionAt, ofElement]
    simp only
    rw [h1]
    simp only
    rw [h2]
    exact ((Elements.pos_iff _ A).1 h3).2.2
  · obtain ⟨p, A, h1, -, -⟩ := hprec w hw
    obtain ⟨D, -, h2, -⟩ := hder w hw p h1 k (by rw [Elements.count_put h w hw]; exact hk)
    rw [derivativeAt, ofElement]
    simp only
    rw [h1]
    simp only
    rw [h2]
    rfl
  · obtain ⟨p, A, h1, -, -⟩ := hprec w hw
    obtain ⟨D, Q, h2, h3, h4⟩ := hder w hw p h1 k (by rw [Elements.count_put h w hw]; exact hk)
    rw [Elements.leaves_put h w hw] at h3 h4
    have eD : derivativeAt e (e.design obs).size h w k = Elements.toMatrix _ D := by
      rw [derivativeAt, ofElement]
      simp only
      rw [h1]
      simp only
      rw [h2]
      rfl
    have eQ : (fun t => precisionAt e (e.design obs).size h (w.set k t)) = fun t => Elements.toMatrix _ (Q t) := by
      funext t
      obtain ⟨p', q1, q2⟩ := h3 t
      rw [put_put h w _ hw] at q1
      rw [precisionAt, ofElement]
      simp only
      rw [q1]
      simp only
      rw [q2]
      rfl
    rw [eD, eQ]
    intro i j
    simpa [Elements.toMatrix] using h4.entry i j

end

end Verif.Eustace.Fit
