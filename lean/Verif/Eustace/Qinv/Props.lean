import Verif.Eustace.Qinv.Model
import Mathlib.LinearAlgebra.Matrix.Block
import Mathlib.LinearAlgebra.Matrix.PosDef
import Mathlib.Tactic.Linarith
import Mathlib.Tactic.FieldSimp
import Mathlib.Tactic.Ring
import Mathlib.Tactic.FinCases
import Mathlib.Tactic.NormNum

/-!
The partial inverse (C44) and the trace computed with it.
-/

namespace Verif.Eustace.Qinv

open Matrix Verif.Eustace.Linear

/-! ### Specification -/

/-- The pattern of the factor is closed: two entries below the diagonal in a column make a third one. -/
def Closed {n : Nat} (L : Mat n) : Prop :=
  ∀ i j k : Fin n, i < j → j < k → L j i ≠ 0 → L k i ≠ 0 → L k j ≠ 0

/-- Rows and columns of `Q` which the factor connects. -/
def Connected {n : Nat} {Q : Mat n} (f : Cholmod Q) (a b : Fin n) : Prop :=
  f.L (f.p.symm a) (f.p.symm b) ≠ 0 ∨ f.L (f.p.symm b) (f.p.symm a) ≠ 0

/-! ### Entries with natural indices -/

/-- Entry of a matrix, zero outside. -/
noncomputable def ent {n : Nat} (M : Mat n) (i j : Nat) : ℝ := if h : i < n ∧ j < n then M ⟨i, h.1⟩ ⟨j, h.2⟩ else 0

theorem ent_fin {n : Nat} (M : Mat n) (i j : Fin n) : ent M i j = M i j := by
  simp [ent]

variable {n : Nat}

theorem skip_spec (f : Nat → Nat) (k : Nat) : ∀ p, skip f k p ≤ p ∧
    (∀ r, skip f k p < r → r ≤ p → k < f r) ∧ (skip f k p = 0 ∨ f (skip f k p) ≤ k)
  | 0 => ⟨Nat.le_refl _, fun r h1 h2 => by simp [skip] at h1; omega, Or.inl rfl⟩
  | p + 1 => by
    obtain ⟨h1, h2, h3⟩ := skip_spec f k p
    unfold skip
    split
    · next h =>
      refine ⟨by omega, fun r hr hr' => ?_, h3⟩
      by_cases e : r = p + 1
      · subst e; exact h
      · exact h2 r hr (by omega)
    · next h => exact ⟨Nat.le_refl _, fun r hr hr' => by omega, Or.inr (by omega)⟩

/-- Distinct positions of a column have distinct rows. -/
theorem Layout.inj {indices indptr : Nat → Nat} {pat : Fin n → Fin n → Prop} (h : Layout n indices indptr pat)
    (j : Fin n) {p q : Nat} (hp : indptr j ≤ p ∧ p < indptr (j + 1)) (hq : indptr j ≤ q ∧ q < indptr (j + 1))
    (he : indices p = indices q) : p = q := by
  rcases Nat.lt_trichotomy p q with hl | hl | hl
  · have := h.sorted j p q hp.1 hl hq.2; omega
  · exact hl
  · have := h.sorted j q p hq.1 hl hp.2; omega

theorem Layout.le_of_le {indices indptr : Nat → Nat} {pat : Fin n → Fin n → Prop} (h : Layout n indices indptr pat)
    (j : Fin n) {p q : Nat} (hp : indptr j ≤ p ∧ p < indptr (j + 1)) (hq : indptr j ≤ q ∧ q < indptr (j + 1))
    (hle : p ≤ q) : indices p ≤ indices q := by
  rcases Nat.lt_or_ge p q with hl | hl
  · exact (h.sorted j p q hp.1 hl hq.2).le
  · have : p = q := by omega
    rw [this]

theorem Layout.indptr_mono {indices indptr : Nat → Nat} {pat : Fin n → Fin n → Prop}
    (h : Layout n indices indptr pat) {a b : Nat} (hab : a ≤ b) (hb : b ≤ n) : indptr a ≤ indptr b := by
  induction b with
  | zero => have : a = 0 := by omega
            rw [this]
  | succ b ih =>
    rcases Nat.lt_or_ge a (b + 1) with hl | hl
    · exact (ih (by omega) (by omega)).trans (h.mono ⟨b, by omega⟩)
    · have : a = b + 1 := by omega
      rw [this]

/-- A position belongs to one column only. -/
theorem Layout.column_unique {indices indptr : Nat → Nat} {pat : Fin n → Fin n → Prop}
    (h : Layout n indices indptr pat) {i j : Fin n} {p : Nat} (hi : indptr i ≤ p ∧ p < indptr (i + 1))
    (hj : indptr j ≤ p ∧ p < indptr (j + 1)) : i = j := by
  rcases Nat.lt_trichotomy i.val j.val with hl | hl | hl
  · have := h.indptr_mono (a := i + 1) (b := j) (by omega) (by omega); omega
  · exact Fin.ext hl
  · have := h.indptr_mono (a := j + 1) (b := i) (by omega) (by omega); omega

/-! ### The loop over a column of the factor -/

section Loops

variable {L : Csc} {stored pat : Fin n → Fin n → Prop} {sI sP : Nat → Nat} {sD : Nat → ℝ} {V : Mat n}

theorem mergeLoop_spec (hL : Layout n L.indices L.indptr stored) (hS : Layout n sI sP pat) (i j : Fin n) {a d : Nat}
    (ha : sP j ≤ a ∧ a < sP (j + 1)) (hai : sI a = i)
    (hd : L.indptr i ≤ d) (hdi : L.indices d = i)
    (hD : ∀ q, sP j ≤ q → q < sP (j + 1) → i < sI q → sD q = ent V (sI q) j)
    (hm : ∀ p, d < p → p < L.indptr (i + 1) → L.data p ≠ 0 → ∃ q, sP j ≤ q ∧ q < sP (j + 1) ∧ sI q = L.indices p) :
    ∀ (pL : Nat) (pS : Nat) (v : ℝ), d ≤ pL → pL < L.indptr (i + 1) → a ≤ pS → pS < sP (j + 1) →
      (∀ p, sP j ≤ p → p < sP (j + 1) → sI p ≤ L.indices pL → p ≤ pS) →
      ∃ pS', mergeLoop L sI sD i pL pS v =
          .ok (v - ∑ p ∈ Finset.Ioc d pL, L.data p * ent V (L.indices p) j, d, pS') ∧ a ≤ pS' ∧ pS' < sP (j + 1) := by
  intro pL
  induction pL with
  | zero =>
    intro pS v h1 _ h3 h4 _
    have : d = 0 := by omega
    subst this
    refine ⟨pS, ?_, h3, h4⟩
    rw [mergeLoop, if_neg (by omega)]
    simp
  | succ pL ih =>
    intro pS v h1 h2 h3 h4 hcov
    rw [mergeLoop]
    rcases Nat.eq_or_lt_of_le h1 with he | hlt
    · rw [if_neg (by rw [← he]; omega)]
      refine ⟨pS, ?_, h3, h4⟩
      rw [← he]
      simp
    · have hik : (i : Nat) < L.indices (pL + 1) := by
        rw [← hdi]; exact hL.sorted i d (pL + 1) hd hlt h2
      rw [if_pos hik]
      obtain ⟨s1, s2, s3⟩ := skip_spec sI (L.indices (pL + 1)) pS
      set q := skip sI (L.indices (pL + 1)) pS with hq
      have haq : a ≤ q := by
        by_contra hlt'
        have := s2 a (by omega) h3
        omega
      have hqk : sI q ≤ L.indices (pL + 1) := by
        rcases s3 with h0 | h0
        · have : a = q := by omega
          rw [← this]; omega
        · exact h0
      have hq' : sP j ≤ q ∧ q < sP (j + 1) := ⟨by omega, by omega⟩
      have hless : L.indices pL < L.indices (pL + 1) := hL.sorted i pL (pL + 1) (by omega) (by omega) h2
      have hcov' : ∀ p, sP j ≤ p → p < sP (j + 1) → sI p ≤ L.indices (pL + 1) → p ≤ q := by
        intro p hp1 hp2 hp3
        have hps := hcov p hp1 hp2 hp3
        by_contra hlt'
        have := s2 p (by omega) hps
        omega
      have hsum : ∑ p ∈ Finset.Ioc d (pL + 1), L.data p * ent V (L.indices p) j =
          (∑ p ∈ Finset.Ioc d pL, L.data p * ent V (L.indices p) j) +
            L.data (pL + 1) * ent V (L.indices (pL + 1)) j :=
        Finset.sum_Ioc_succ_top (by omega) _
      by_cases hmatch : L.indices (pL + 1) = sI q
      · have hqa : q ≠ a := fun e => by rw [e] at hmatch; omega
        obtain ⟨q', hq'e⟩ : ∃ q', q = q' + 1 := ⟨q - 1, by omega⟩
        have hstep : mergeStep L sI sD (pL + 1) pS v = .ok (v - L.data (pL + 1) * sD q, q') := by
          unfold mergeStep
          rw [← hq]
          dsimp only
          rw [if_pos hmatch, hq'e]
        rw [hstep]
        dsimp only
        obtain ⟨pS', e1, e2, e3⟩ := ih q' (v - L.data (pL + 1) * sD q) (by omega) (by omega) (by omega) (by omega) (by
          intro p hp1 hp2 hp3
          have h5 := hcov' p hp1 hp2 (by omega)
          have h6 : p ≠ q := fun e => by rw [e] at hp3; omega
          omega)
        refine ⟨pS', ?_, e2, e3⟩
        rw [e1, hsum, hD q hq'.1 hq'.2 (by omega), hmatch]
        congr 2
        ring
      · have hstep : mergeStep L sI sD (pL + 1) pS v = .ok (v, q) := by
          unfold mergeStep
          rw [← hq]
          dsimp only
          rw [if_neg hmatch]
        rw [hstep]
        dsimp only
        have hz : L.data (pL + 1) = 0 := by
          by_contra hne
          obtain ⟨q0, h5, h6, h7⟩ := hm (pL + 1) hlt h2 hne
          have h8 := hcov' q0 h5 h6 (by omega)
          have h9 := hS.le_of_le j ⟨h5, h6⟩ hq' h8
          omega
        obtain ⟨pS', e1, e2, e3⟩ := ih q v (by omega) (by omega) haq hq'.2 (by
          intro p hp1 hp2 hp3
          exact hcov' p hp1 hp2 (by omega))
        refine ⟨pS', ?_, e2, e3⟩
        rw [e1, hsum, hz]
        simp

theorem findRow_spec (hS : Layout n sI sP pat) (i j : Fin n) {a : Nat}
    (ha : sP j ≤ a ∧ a < sP (j + 1)) (hai : sI a = i) :
    ∀ p, a ≤ p → p < sP (j + 1) → findRow sI i p = .ok a := by
  intro p
  induction p with
  | zero =>
    intro h1 h2
    have : a = 0 := by omega
    subst this
    rw [findRow, if_neg (by omega)]
  | succ p ih =>
    intro h1 h2
    rw [findRow]
    rcases Nat.eq_or_lt_of_le h1 with he | hlt
    · rw [if_neg (by rw [← he]; omega), he]
    · have := hS.sorted j a (p + 1) ha.1 hlt h2
      rw [if_pos (by omega)]
      exact ih (by omega) (by omega)

/-! ### Columns -/

/-- What is known when the entries of column `i` from position `P` on have been computed. -/
def Good (sI sP : Nat → Nat) (V : Mat n) (i : Fin n) (P : Nat) (data : Nat → ℝ) : Prop :=
  ∀ (c : Fin n) (p : Nat), sP c ≤ p → p < sP (c + 1) →
    ((i : Nat) < sI p ∧ i < c) ∨ (c = i ∧ P ≤ p ∧ (i : Nat) ≤ sI p) ∨
      (sI p = i ∧ i ≤ c ∧ ∃ q, sP i ≤ q ∧ q < sP (i + 1) ∧ P ≤ q ∧ sI q = c) →
    data p = ent V (sI p) c

/-- What is known when all columns from `i` on have been computed. -/
def Done (sI sP : Nat → Nat) (V : Mat n) (i : Nat) (data : Nat → ℝ) : Prop :=
  ∀ (c : Fin n) (p : Nat), sP c ≤ p → p < sP (c + 1) → i ≤ sI p → i ≤ c → data p = ent V (sI p) c

/-- The recursion for the inverse `V` of `L Lᵀ`. -/
def Recursion (M V : Mat n) : Prop :=
  ∀ i j : Fin n, i ≤ j → ent V j i * M i i + ∑ k ∈ Finset.Ioo (i : Nat) n, ent M k i * ent V k j =
    if i = j then 1 / M i i else 0

/-- The factor in compressed columns, and the pattern of the result. -/
structure Ctx (L : Csc) (stored : Fin n → Fin n → Prop) (sI sP : Nat → Nat) (M V : Mat n) : Prop where
  layoutL : Layout n L.indices L.indptr stored
  layoutS : Layout n sI sP (sumPattern M)
  value : ∀ j : Fin n, ∀ q, L.indptr j ≤ q → q < L.indptr (j + 1) → ∀ i : Fin n, L.indices q = i → L.data q = M i j
  keeps : ∀ i j, M i j ≠ 0 → stored i j
  triangle : ∀ i j, stored i j → j ≤ i
  lower : ∀ i j, i < j → M i j = 0
  diagonal : ∀ i, 0 < M i i
  closed : Closed M
  symm : ∀ i j, V i j = V j i
  recursion : Recursion M V

variable {M : Mat n}

theorem sumPattern_symm (i j : Fin n) : sumPattern M i j ↔ sumPattern M j i := by
  unfold sumPattern; rw [add_comm]

theorem sumPattern_lower (hx : Ctx L stored sI sP M V) {i j : Fin n} (h : j < i) : sumPattern M i j ↔ M i j ≠ 0 := by
  unfold sumPattern; rw [hx.lower j i h, add_zero]

theorem sumPattern_diag (hx : Ctx L stored sI sP M V) (i : Fin n) : sumPattern M i i := by
  unfold sumPattern
  have := hx.diagonal i
  intro h
  linarith

theorem cell_spec (hx : Ctx L stored sI sP M V) (i : Fin n) (pI : Nat) (hp1 : sP i ≤ pI) (hp2 : pI < sP (i + 1))
    (hg : Good sI sP V i (pI + 1) sD) :
    ∃ sD', cell L sI sP i pI sD = .ok sD' ∧ Good sI sP V i pI sD' := by
  have hS := hx.layoutS
  have hL := hx.layoutL
  obtain ⟨j, hj, hpat⟩ := hS.row i pI hp1 hp2
  unfold cell
  rw [hj]
  dsimp only
  by_cases hji : (j : Nat) < i
  · rw [if_pos hji]
    refine ⟨sD, rfl, ?_⟩
    intro c p h1 h2 h3
    refine hg c p h1 h2 ?_
    rcases h3 with h | ⟨h, h', h''⟩ | ⟨h, h', q, hq1, hq2, hq3, hq4⟩
    · exact Or.inl h
    · subst h
      have : p ≠ pI := fun e => by rw [e] at h''; omega
      exact Or.inr (Or.inl ⟨rfl, by omega, h''⟩)
    · have : q ≠ pI := fun e => by
        rw [e, hj] at hq4
        have : (i : Nat) ≤ c := h'
        omega
      exact Or.inr (Or.inr ⟨h, h', q, hq1, hq2, by omega, hq4⟩)
  · rw [if_neg hji]
    have hij : i ≤ j := by omega
    -- position of row i in column j
    obtain ⟨a, ha1, ha2, hai⟩ := hS.position i j ((sumPattern_symm _ _).1 hpat)
    -- position of the diagonal in column i of the factor
    obtain ⟨d, hd1, hd2, hdi⟩ := hL.position i i (hx.keeps i i (hx.diagonal i).ne')
    have hdv : L.data d = M i i := hx.value i d hd1 hd2 i hdi
    have hD : ∀ q, sP j ≤ q → q < sP (j + 1) → i < sI q → sD q = ent V (sI q) j := by
      intro q h1 h2 h3
      refine hg j q h1 h2 ?_
      rcases Nat.eq_or_lt_of_le (show (i : Nat) ≤ j from hij) with he | hlt
      · have he' : j = i := Fin.ext he.symm
        subst he'
        have : pI < q := by
          by_contra hle
          have := hS.le_of_le j ⟨h1, h2⟩ ⟨hp1, hp2⟩ (by omega)
          omega
        exact Or.inr (Or.inl ⟨rfl, by omega, by omega⟩)
      · exact Or.inl ⟨h3, hlt⟩
    have hm : ∀ p, d < p → p < L.indptr (i + 1) → L.data p ≠ 0 →
        ∃ q, sP j ≤ q ∧ q < sP (j + 1) ∧ sI q = L.indices p := by
      intro p h1 h2 h3
      obtain ⟨k, hk, hks⟩ := hL.row i p (by omega) h2
      have hik : i < k := by
        have := hL.sorted i d p hd1 h1 h2
        rw [hdi, hk] at this
        exact this
      rw [hx.value i p (by omega) h2 k hk] at h3
      have hpk : sumPattern M k j := by
        rcases Nat.eq_or_lt_of_le (show (i : Nat) ≤ j from hij) with he | hlt
        · have he' : j = i := Fin.ext he.symm
          subst he'
          exact (sumPattern_lower hx hik).2 h3
        · have hji' : M j i ≠ 0 := (sumPattern_lower hx hlt).1 hpat
          rcases Nat.lt_trichotomy j.val k.val with hl | hl | hl
          · exact (sumPattern_lower hx hl).2 (hx.closed i j k hlt hl hji' h3)
          · have : j = k := Fin.ext hl
            subst this
            exact sumPattern_diag hx j
          · exact (sumPattern_symm _ _).1 ((sumPattern_lower hx hl).2 (hx.closed i k j hik hl h3 hji'))
      obtain ⟨q, hq1, hq2, hq3⟩ := hS.position k j hpk
      exact ⟨q, hq1, hq2, by rw [hq3, hk]⟩
    obtain ⟨pS', e1, e2, e3⟩ := mergeLoop_spec hL hS i j ⟨ha1, ha2⟩ hai hd1 hdi hD hm (L.indptr (i + 1) - 1)
      (sP (j + 1) - 1) 0.0 (by omega) (by omega) (by omega) (by omega) (fun p _ h _ => by omega)
    rw [e1]
    dsimp only
    rw [findRow_spec hS i j ⟨ha1, ha2⟩ hai pS' e2 e3]
    dsimp only
    -- the value
    have hsum : ∑ p ∈ Finset.Ioc d (L.indptr (i + 1) - 1), L.data p * ent V (L.indices p) j =
        ∑ k ∈ Finset.Ioo (i : Nat) n, ent M k i * ent V k j := by
      have hinj : Set.InjOn L.indices (Finset.Ioc d (L.indptr (i + 1) - 1) : Set Nat) := by
        intro p hp q hq he
        rw [Finset.mem_coe, Finset.mem_Ioc] at hp hq
        exact hL.inj i ⟨by omega, by omega⟩ ⟨by omega, by omega⟩ he
      have h1 : ∑ p ∈ Finset.Ioc d (L.indptr (i + 1) - 1), L.data p * ent V (L.indices p) j =
          ∑ p ∈ Finset.Ioc d (L.indptr (i + 1) - 1), ent M (L.indices p) i * ent V (L.indices p) j := by
        refine Finset.sum_congr rfl fun p hp => ?_
        rw [Finset.mem_Ioc] at hp
        obtain ⟨k, hk, -⟩ := hL.row i p (by omega) (by omega)
        rw [hx.value i p (by omega) (by omega) k hk, hk, ent_fin M]
      rw [h1, ← Finset.sum_image (f := fun k => ent M k i * ent V k j) hinj]
      refine Finset.sum_subset ?_ ?_
      · intro k hk
        rw [Finset.mem_image] at hk
        obtain ⟨p, hp, rfl⟩ := hk
        rw [Finset.mem_Ioc] at hp
        obtain ⟨k, hk, -⟩ := hL.row i p (by omega) (by omega)
        have := hL.sorted i d p hd1 hp.1 (by omega)
        rw [Finset.mem_Ioo]
        omega
      · intro k hk hnot
        rw [Finset.mem_Ioo] at hk
        have hz : ent M k i = 0 := by
          by_contra hne
          have hkn : ent M k i = M ⟨k, hk.2⟩ i := ent_fin M ⟨k, hk.2⟩ i
          rw [hkn] at hne
          obtain ⟨p, h5, h6, h7⟩ := hL.position _ _ (hx.keeps _ _ hne)
          apply hnot
          rw [Finset.mem_image]
          refine ⟨p, ?_, h7⟩
          have hdp : d < p := by
            by_contra hle
            have := hL.le_of_le i ⟨h5, h6⟩ ⟨hd1, hd2⟩ (by omega)
            rw [h7, hdi] at this
            simp only at this
            omega
          rw [Finset.mem_Ioc]
          omega
        rw [hz, zero_mul]
    have hMi := (hx.diagonal i).ne'
    have hval : (if (i : Nat) = j then ((0.0 - ∑ p ∈ Finset.Ioc d (L.indptr (i + 1) - 1),
        L.data p * ent V (L.indices p) j) + 1.0 / L.data d) / L.data d
        else (0.0 - ∑ p ∈ Finset.Ioc d (L.indptr (i + 1) - 1), L.data p * ent V (L.indices p) j) / L.data d) =
        ent V j i := by
      rw [hsum, hdv]
      have hr := hx.recursion i j hij
      by_cases he : i = j
      · subst he
        rw [if_pos rfl] at hr ⊢
        rw [div_eq_iff hMi]
        norm_num
        norm_num at hr
        linarith
      · rw [if_neg he] at hr
        rw [if_neg (fun h => he (Fin.ext h)), div_eq_iff hMi]
        norm_num
        linarith
    rw [hval]
    refine ⟨_, rfl, ?_⟩
    intro c p h1 h2 h3
    by_cases hpa : p = a
    · subst hpa
      have hc := hS.column_unique ⟨h1, h2⟩ ⟨ha1, ha2⟩
      subst hc
      rw [Function.update_self, hai, ent_fin, ent_fin, hx.symm]
    · rw [Function.update_of_ne hpa]
      by_cases hpI : p = pI
      · subst hpI
        have hc := hS.column_unique ⟨h1, h2⟩ ⟨hp1, hp2⟩
        subst hc
        rw [Function.update_self, hj]
      · rw [Function.update_of_ne hpI]
        refine hg c p h1 h2 ?_
        rcases h3 with h | ⟨h, h', h''⟩ | ⟨h, h', q, hq1, hq2, hq3, hq4⟩
        · exact Or.inl h
        · exact Or.inr (Or.inl ⟨h, by omega, h''⟩)
        · have : q ≠ pI := fun e => by
            subst e
            rw [hj] at hq4
            have hcj : c = j := Fin.ext hq4.symm
            subst hcj
            exact hpa (hS.inj c ⟨h1, h2⟩ ⟨ha1, ha2⟩ (by rw [h, hai]))
          exact Or.inr (Or.inr ⟨h, h', q, hq1, hq2, by omega, hq4⟩)

theorem column_spec (hx : Ctx L stored sI sP M V) (i : Fin n) :
    ∀ (c : Nat) (sD : Nat → ℝ), sP i + c ≤ sP (i + 1) → Good sI sP V i (sP i + c) sD →
      ∃ sD', column L sI sP i c sD = .ok sD' ∧ Good sI sP V i (sP i) sD' := by
  intro c
  induction c with
  | zero => intro sD _ hg; exact ⟨sD, rfl, hg⟩
  | succ c ih =>
    intro sD hc hg
    obtain ⟨s1, h1, h2⟩ := cell_spec hx i (sP i + c) (by omega) (by omega) hg
    obtain ⟨s2, h3, h4⟩ := ih s1 (by omega) h2
    exact ⟨s2, by rw [column, h1]; exact h3, h4⟩

theorem columns_spec (hx : Ctx L stored sI sP M V) :
    ∀ (i : Nat) (sD : Nat → ℝ), i ≤ n → Done sI sP V i sD →
      ∃ sD', columns L sI sP i sD = .ok sD' ∧ Done sI sP V 0 sD' := by
  intro i
  induction i with
  | zero => intro sD _ hd; exact ⟨sD, rfl, hd⟩
  | succ i ih =>
    intro sD hi hd
    have hin : i < n := hi
    have hS := hx.layoutS
    have hmono := hS.mono ⟨i, hin⟩
    simp only at hmono
    obtain ⟨s1, h1, h2⟩ := column_spec hx ⟨i, hin⟩ (sP (i + 1) - sP i) sD (by simp only; omega) (by
      intro c p hp1 hp2 h
      simp only at h
      rcases h with h | ⟨h, h', h''⟩ | ⟨h, h', q, hq1, hq2, hq3, hq4⟩
      · have : i < c.val := h.2
        exact hd c p hp1 hp2 (by omega) (by omega)
      · subst h; simp only at hp2; omega
      · omega)
    obtain ⟨s2, h3, h4⟩ := ih s1 (by omega) (by
      intro c p hp1 hp2 hr hc
      refine h2 c p hp1 hp2 ?_
      by_cases hci : c = (⟨i, hin⟩ : Fin n)
      · exact Or.inr (Or.inl ⟨hci, by rw [← hci]; exact hp1, hr⟩)
      · have hci' : i ≠ c.val := fun e => hci (Fin.ext e.symm)
        by_cases hri : sI p = i
        · obtain ⟨k, hk, hpat⟩ := hS.row c p hp1 hp2
          have hki : k = (⟨i, hin⟩ : Fin n) := Fin.ext (by rw [← hk, hri])
          rw [hki] at hpat
          obtain ⟨q, hq1, hq2, hq3⟩ := hS.position c ⟨i, hin⟩ ((sumPattern_symm _ _).1 hpat)
          exact Or.inr (Or.inr ⟨hri, hc, q, hq1, hq2, hq1, hq3⟩)
        · exact Or.inl ⟨by simp only; omega, by
            show i < c.val
            omega⟩)
    refine ⟨s2, ?_, h4⟩
    rw [columns]
    simp only at h1
    rw [h1]
    exact h3

end Loops

/-! ### The inverse obeys the recursion -/

theorem recursion_inverse {M V : Mat n} (hlow : ∀ i j, i < j → M i j = 0) (hdiag : ∀ i, 0 < M i i)
    (hV : V * (M * Mᵀ) = 1) (hsym : ∀ i j, V i j = V j i) : Recursion M V := by
  intro i j hij
  have hU : (V * M) * Mᵀ = 1 := by rw [Matrix.mul_assoc, hV]
  have htri : BlockTriangular Mᵀ id := fun a b hab => hlow b a hab
  have hinv : V * M = (Mᵀ)⁻¹ := (inv_eq_left_inv hU).symm
  have hunit : IsUnit Mᵀ := IsUnit.of_mul_eq_one _ (mul_eq_one_comm.1 hU)
  have hUt : BlockTriangular (V * M) id := by
    rw [hinv]
    have : Invertible Mᵀ := hunit.invertible
    exact blockTriangular_inv_of_blockTriangular htri
  have hentry : (V * M) j i = if i = j then 1 / M i i else 0 := by
    by_cases he : i = j
    · subst he
      rw [if_pos rfl, eq_div_iff (hdiag i).ne']
      have h1 : ((V * M) * Mᵀ) i i = 1 := by rw [hU, one_apply_eq]
      rw [mul_apply, Finset.sum_eq_single i] at h1
      · exact h1
      · intro k _ hk
        rcases lt_or_gt_of_ne hk with hl | hl
        · rw [hUt hl, zero_mul]
        · rw [transpose_apply, hlow i k hl, mul_zero]
      · simp
    · rw [if_neg he]
      exact hUt (lt_of_le_of_ne hij he)
  rw [← hentry, mul_apply]
  have h1 : ∑ k : Fin n, V j k * M k i = ∑ k ∈ Finset.range n, ent V j k * ent M k i := by
    rw [Finset.sum_range]
    refine Finset.sum_congr rfl fun k _ => ?_
    rw [ent_fin, ent_fin]
  have h2 : ∑ k ∈ Finset.range n, ent V j k * ent M k i = ∑ k ∈ Finset.Ico (i : Nat) n, ent V j k * ent M k i := by
    symm
    refine Finset.sum_subset ?_ ?_
    · intro k hk
      rw [Finset.mem_Ico] at hk
      rw [Finset.mem_range]
      omega
    · intro k hk hnot
      rw [Finset.mem_range] at hk
      rw [Finset.mem_Ico] at hnot
      have : ent M k i = 0 := by
        rw [show ent M k i = M ⟨k, hk⟩ i from ent_fin M ⟨k, hk⟩ i]
        exact hlow _ _ (by show k < i.val; omega)
      rw [this, mul_zero]
  rw [h1, h2, ← Finset.sum_Ioo_add_eq_sum_Ico i.isLt, ent_fin V j i, ent_fin M i i, add_comm]
  congr 1
  refine Finset.sum_congr rfl fun k hk => ?_
  rw [Finset.mem_Ioo] at hk
  rw [mul_comm]
  congr 1
  rw [show ent V k j = V ⟨k, hk.2⟩ j from ent_fin V ⟨k, hk.2⟩ j,
    show ent V j k = V j ⟨k, hk.2⟩ from ent_fin V j ⟨k, hk.2⟩, hsym]

/-! ### C44 -/

theorem permutation_conj {n : Nat} (p : Equiv.Perm (Fin n)) (T : Mat n) (a b : Fin n) :
    ((permutation p)ᵀ * T * permutation p) a b = T (p.symm a) (p.symm b) := by
  rw [mul_apply, Finset.sum_eq_single (p.symm b)]
  · rw [mul_apply, Finset.sum_eq_single (p.symm a)]
    · simp [permutation]
    · intro r _ hr
      have : a ≠ p r := fun e => hr (by rw [e]; simp)
      simp [permutation, this]
    · simp
  · intro r _ hr
    have : b ≠ p r := fun e => hr (by rw [e]; simp)
    simp [permutation, this]
  · simp

theorem toMatrix_apply {sI sP : Nat → Nat} {pat : Fin n → Fin n → Prop} (hS : Layout n sI sP pat) (data : Nat → ℝ)
    {V : Mat n} (hd : Done sI sP V 0 data) (i j : Fin n) :
    (pat i j → Csc.toMatrix ⟨data, sI, sP⟩ n i j = V i j) ∧ (¬ pat i j → Csc.toMatrix ⟨data, sI, sP⟩ n i j = 0) := by
  constructor
  · intro h
    obtain ⟨p, h1, h2, h3⟩ := hS.position i j h
    have : Csc.toMatrix ⟨data, sI, sP⟩ n i j =
      ∑ q ∈ Finset.Ico (sP j) (sP (j + 1)), if sI q = i then data q else 0 := rfl
    rw [this, Finset.sum_eq_single p]
    · rw [if_pos h3, hd j p h1 h2 (Nat.zero_le _) (Nat.zero_le _), h3, ent_fin]
    · intro q hq hne
      rw [Finset.mem_Ico] at hq
      exact if_neg fun e => hne (hS.inj j hq ⟨h1, h2⟩ (by rw [e, h3]))
    · intro hn
      exact absurd (Finset.mem_Ico.2 ⟨h1, h2⟩) hn
  · intro h
    have : Csc.toMatrix ⟨data, sI, sP⟩ n i j =
      ∑ q ∈ Finset.Ico (sP j) (sP (j + 1)), if sI q = i then data q else 0 := rfl
    rw [this]
    refine Finset.sum_eq_zero fun q hq => ?_
    rw [Finset.mem_Ico] at hq
    refine if_neg fun e => ?_
    obtain ⟨k, hk, hpat⟩ := hS.row j q hq.1 hq.2
    have : k = i := Fin.ext (by rw [← hk, e])
    subst this
    exact h hpat

theorem connected_iff {Q : Mat n} (f : Cholmod Q) (a b : Fin n) :
    sumPattern f.L (f.p.symm a) (f.p.symm b) ↔ Connected f a b := by
  unfold sumPattern Connected
  rcases lt_trichotomy (f.p.symm a) (f.p.symm b) with h | h | h
  · rw [f.lower _ _ h]; simp
  · rw [h]
    have := f.diagonal (f.p.symm b)
    constructor
    · intro _; exact Or.inl this.ne'
    · intro _; linarith
  · rw [f.lower _ _ h]; simp

/-- C44: if the pattern of the factor is closed, the routine never fails, its result is the inverse wherever the factor
connects row and column, and zero elsewhere. -/
theorem c44_partial_inverse {Q : Mat n} (f : Cholmod Q) (s : Sigma f.L) (hc : Closed f.L) :
    ∃ S, qInv f s = .ok S ∧ ∀ a b, (Connected f a b → S a b = Q⁻¹ a b) ∧ (¬ Connected f a b → S a b = 0) := by
  have hdet : f.L.det ≠ 0 := by
    rw [det_of_lowerTriangular f.L (fun a b hab => f.lower a b hab)]
    exact Finset.prod_ne_zero_iff.2 fun i _ => (f.diagonal i).ne'
  have hunit : IsUnit (f.L * f.Lᵀ).det := by
    rw [det_mul, det_transpose]
    exact (mul_ne_zero hdet hdet).isUnit
  have hV : (f.L * f.Lᵀ)⁻¹ * (f.L * f.Lᵀ) = 1 := nonsing_inv_mul _ hunit
  have hsym : ∀ i j, (f.L * f.Lᵀ)⁻¹ i j = (f.L * f.Lᵀ)⁻¹ j i := by
    intro i j
    have h : ((f.L * f.Lᵀ)⁻¹)ᵀ = (f.L * f.Lᵀ)⁻¹ := by
      rw [transpose_nonsing_inv, transpose_mul, transpose_transpose]
    exact congrFun (congrFun h j) i
  have hx : Ctx f.csc f.stored s.indices s.indptr f.L (f.L * f.Lᵀ)⁻¹ :=
    ⟨f.layout, s.layout, f.value, f.keeps, f.triangle, f.lower, f.diagonal, hc, hsym,
      recursion_inverse f.lower f.diagonal hV hsym⟩
  obtain ⟨data, h1, h2⟩ := columns_spec hx n (fun _ => 0) (Nat.le_refl _) (by
    intro c p _ _ _ h
    have := c.isLt
    omega)
  refine ⟨(permutation f.p)ᵀ * Csc.toMatrix ⟨data, s.indices, s.indptr⟩ n * permutation f.p, by rw [qInv, h1], ?_⟩
  intro a b
  rw [permutation_conj, ← connected_iff]
  have hq : Q⁻¹ a b = (f.L * f.Lᵀ)⁻¹ (f.p.symm a) (f.p.symm b) := by
    rw [f.factor, inv_submatrix_equiv]
    simp
  rw [hq]
  exact toMatrix_apply s.layout data h2 _ _

/-- With a closed pattern the factor connects every row and column at which the matrix itself is not zero. -/
theorem connected_of_entry {Q : Mat n} (f : Cholmod Q) (hc : Closed f.L) (a b : Fin n) (h : Q a b ≠ 0) :
    Connected f a b := by
  have he : Q a b = (f.L * f.Lᵀ) (f.p.symm a) (f.p.symm b) := by
    rw [f.factor]; simp
  rw [he, mul_apply] at h
  obtain ⟨k, -, hk⟩ := Finset.exists_ne_zero_of_sum_ne_zero h
  rw [transpose_apply] at hk
  have ha : f.L (f.p.symm a) k ≠ 0 := left_ne_zero_of_mul hk
  have hb : f.L (f.p.symm b) k ≠ 0 := right_ne_zero_of_mul hk
  have hka : k ≤ f.p.symm a := not_lt.1 fun hl => ha (f.lower _ _ hl)
  have hkb : k ≤ f.p.symm b := not_lt.1 fun hl => hb (f.lower _ _ hl)
  unfold Connected
  rcases eq_or_lt_of_le hka with ea | la
  · right; rw [← ea]; exact hb
  · rcases eq_or_lt_of_le hkb with eb | lb
    · left; rw [← eb]; exact ha
    · rcases lt_trichotomy (f.p.symm a) (f.p.symm b) with hl | hl | hl
      · right; exact hc k _ _ la hl ha hb
      · left; rw [hl]; exact (f.diagonal _).ne'
      · left; exact hc k _ _ lb hl hb ha

/-- C44: with a closed pattern the result is the inverse wherever the matrix itself is not zero, and on the
diagonal. -/
theorem c44_entries {Q : Mat n} (f : Cholmod Q) (s : Sigma f.L) (hc : Closed f.L) :
    ∃ S, qInv f s = .ok S ∧ (∀ a b, Q a b ≠ 0 → S a b = Q⁻¹ a b) ∧ ∀ a, S a a = Q⁻¹ a a := by
  obtain ⟨S, h1, h2⟩ := c44_partial_inverse f s hc
  exact ⟨S, h1, fun a b h => (h2 a b).1 (connected_of_entry f hc a b h),
    fun a => (h2 a a).1 (Or.inl (f.diagonal _).ne')⟩

/-- C44: the trace of the inverse times a derivative whose pattern is within that of the matrix. -/
theorem c44_trace {Q dQ : Mat n} (f : Cholmod Q) (s : Sigma f.L) (hc : Closed f.L)
    (hd : ∀ a b, dQ a b ≠ 0 → Q b a ≠ 0) :
    ∃ S, qInv f s = .ok S ∧ traceIQdQ S dQ = trace (Q⁻¹ * dQ) := by
  obtain ⟨S, h1, h2, -⟩ := c44_entries f s hc
  refine ⟨S, h1, ?_⟩
  rw [traceIQdQ, trace]
  refine Finset.sum_congr rfl fun i _ => ?_
  rw [diag_apply, mul_apply, mul_apply]
  refine Finset.sum_congr rfl fun k _ => ?_
  by_cases hz : dQ k i = 0
  · rw [hz, mul_zero, mul_zero]
  · rw [h2 i k (hd k i hz)]

end Verif.Eustace.Qinv
