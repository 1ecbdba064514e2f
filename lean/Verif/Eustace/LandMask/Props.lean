import Verif.Eustace.LandMask.Model
import Mathlib.Data.List.Basic
import Mathlib.Tactic.Ring
import Mathlib.Tactic.Linarith
import Mathlib.Tactic.NormNum
import Mathlib.Tactic.FieldSimp

/-! The grid, matching of latitudes and the joined masks of ice. -/

namespace Verif.Eustace.LandMask

open Verif Verif.Eustace.LandModel

theorem fix_small (n : ℤ) (h0 : 0 ≤ n) (h : n < 32768) : fix n = n := by unfold fix; omega

theorem strip_eq (p1 p2 res : ℝ) (g : Bool) (n : ℕ) (hn : stripLength p1 p2 res g = n) (h : n < 32768) :
    strip p1 p2 res g = .ok (if p1 < p2 then (List.range n).map fun (i : ℕ) => p1 + (if g then 0 else res / 2) + i * res
      else (List.range n).map fun (i : ℕ) => p1 - (if g then 0 else res / 2) - i * res) := by
  have hf : fix ⌊stripLength p1 p2 res g⌋ = n := by
    rw [hn, Int.floor_natCast]; exact fix_small n (by omega) (by omega)
  simp only [strip, hf]
  rw [if_neg (by rw [hn]; simp)]
  split_ifs <;> simp

/-- Without `grid_points` the strip has the middles of equal cells. -/
theorem c180_strip_cells (p1 p2 res : ℝ) (n : ℕ) (h0 : 0 < n) (h : n < 32768) (hr : 0 < res) (hp : |p2 - p1| = n * res) :
    ∃ l, strip p1 p2 res false = .ok l ∧ l.length = n ∧ ∀ i : ℕ, i < n → l[i]? = some (p1 + (p2 - p1) * ((i + 1 / 2) / n)) := by
  have hn0 : (n : ℝ) ≠ 0 := by exact_mod_cast h0.ne'
  have hlen : stripLength p1 p2 res false = n := by
    simp only [stripLength, abs_div, hp, abs_of_pos hr]
    field_simp
    simp
  refine ⟨_, strip_eq p1 p2 res false n hlen h, by split_ifs <;> simp, fun i hi => ?_⟩
  split_ifs with hlt hfalse
  · exact absurd hfalse (by simp)
  · rw [abs_of_pos (by linarith)] at hp
    simp only [List.getElem?_map, List.getElem?_range hi, Option.map_some, Option.some.injEq]
    rw [hp]; field_simp; ring
  · exact absurd ‹_› (by simp)
  · rw [abs_of_nonpos (by linarith)] at hp
    simp only [List.getElem?_map, List.getElem?_range hi, Option.map_some, Option.some.injEq]
    rw [show p2 - p1 = -(n * res) by linarith]; field_simp; ring

/-- With `grid_points` the strip goes from the one end to the other in equal steps. -/
theorem c180_strip_points (p1 p2 res : ℝ) (n : ℕ) (h0 : 0 < n) (h : n + 1 < 32768) (hr : 0 < res) (hp : |p2 - p1| = n * res) :
    ∃ l, strip p1 p2 res true = .ok l ∧ l.length = n + 1 ∧ ∀ i : ℕ, i ≤ n → l[i]? = some (p1 + (p2 - p1) * (i / n)) := by
  have hn0 : (n : ℝ) ≠ 0 := by exact_mod_cast h0.ne'
  have hlen : stripLength p1 p2 res true = ((n + 1 : ℕ) : ℝ) := by
    simp only [stripLength, abs_div, hp, abs_of_pos hr]
    push_cast
    field_simp
    try simp
  refine ⟨_, strip_eq p1 p2 res true (n + 1) hlen h, by split_ifs <;> simp, fun i hi => ?_⟩
  have hi' : i < n + 1 := by omega
  by_cases hlt : p1 < p2
  · rw [abs_of_pos (by linarith)] at hp
    simp only [if_pos hlt, List.getElem?_map, List.getElem?_range hi', Option.map_some, Option.some.injEq, if_true]
    rw [hp]; field_simp; ring
  · rw [abs_of_nonpos (by linarith)] at hp
    simp only [if_neg hlt, List.getElem?_map, List.getElem?_range hi', Option.map_some, Option.some.injEq, if_true]
    rw [show p2 - p1 = -(n * res) by linarith]; field_simp; ring

/-- A range which is not a whole number of cells is refused. -/
theorem c180_strip_refused (p1 p2 res : ℝ) (g : Bool) (h : ∀ n : ℤ, |(p2 - p1) / res| ≠ n) : strip p1 p2 res g = .error .other := by
  simp only [strip]
  rw [if_pos]
  intro heq
  simp only [stripLength] at heq
  cases g with
  | false => exact h _ (by simpa using heq.symm)
  | true =>
    refine h (fix ⌊|(p2 - p1) / res| + 1⌋ - 1) ?_
    simp only [if_true] at heq
    push_cast
    linarith

example : ∃ l, strip (-90) 90 0.25 false = .ok l ∧ l.length = 720 ∧ l[0]? = some (-89.875 : ℝ) := by
  obtain ⟨l, h1, h2, h3⟩ := c180_strip_cells (-90) 90 0.25 720 (by norm_num) (by norm_num) (by norm_num) (by norm_num)
  exact ⟨l, h1, h2, by rw [h3 0 (by norm_num)]; norm_num⟩

theorem neighbours_mem : ∀ (c : List Elem) (p : Elem × Elem), p ∈ neighbours c → p.1 ∈ c ∧ p.2 ∈ c
  | [], p, h => by simp [neighbours] at h
  | [x], p, h => by simp [neighbours] at h
  | x :: y :: rest, p, h => by
    simp only [neighbours, List.mem_cons] at h
    rcases h with h | h
    · subst h; simp
    · obtain ⟨h1, h2⟩ := neighbours_mem (y :: rest) p h
      exact ⟨List.mem_cons_of_mem _ h1, List.mem_cons_of_mem _ h2⟩

/-- Two elements of the same value are neighbours in a sorted list if there are no others of that value in the same vector. -/
theorem neighbours_complete : ∀ (c : List Elem), c.Nodup → c.Pairwise (fun x y => x.1 ≤ y.1) →
    (∀ x ∈ c, ∀ y ∈ c, x.1 = y.1 → x.2.1 = y.2.1 → x = y) →
    ∀ x ∈ c, ∀ y ∈ c, x.1 = y.1 → x.2.1 ≠ y.2.1 → (x, y) ∈ neighbours c ∨ (y, x) ∈ neighbours c
  | [], _, _, _, x, hx, _, _, _, _ => by simp at hx
  | [z], _, _, _, x, hx, y, hy, _, hv => by
    simp only [List.mem_singleton] at hx hy
    subst hx; subst hy
    exact absurd rfl hv
  | z :: w :: rest, hn, hs, hi, x, hx, y, hy, he, hv => by
    have hs' := List.pairwise_cons.1 hs
    have hs2 := List.pairwise_cons.1 hs'.2
    have hi' : ∀ x ∈ w :: rest, ∀ y ∈ w :: rest, x.1 = y.1 → x.2.1 = y.2.1 → x = y := fun x hx y hy =>
      hi x (List.mem_cons_of_mem _ hx) y (List.mem_cons_of_mem _ hy)
    -- an element of the tail with the value of the head is its neighbour
    have head : ∀ y ∈ w :: rest, z.1 = y.1 → z.2.1 ≠ y.2.1 → y = w := by
      intro y hy he hv
      have h1 : z.1 ≤ w.1 := hs'.1 w (List.mem_cons_self)
      have h2 : w.1 ≤ y.1 := by
        rcases List.mem_cons.1 hy with h | h
        · rw [h]
        · exact hs2.1 y h
      have hzw : z.1 = w.1 := le_antisymm h1 (by rw [he]; exact h2)
      have hyw : y.1 = w.1 := by rw [← he, hzw]
      by_cases hvw : z.2.1 = w.2.1
      · have hzeq : z = w := hi z List.mem_cons_self w (List.mem_cons_of_mem _ List.mem_cons_self) hzw hvw
        exact absurd (hzeq ▸ List.mem_cons_self) (List.nodup_cons.1 hn).1
      · refine hi' y hy w List.mem_cons_self hyw ?_
        revert hv hvw
        clear * -
        cases z.2.1 <;> cases y.2.1 <;> cases w.2.1 <;> simp
    rcases List.mem_cons.1 hx with hxz | hxr
    · rcases List.mem_cons.1 hy with hyz | hyr
      · subst hxz; subst hyz; exact absurd rfl hv
      · subst hxz
        have := head y hyr he hv
        subst this
        left; simp [neighbours]
    · rcases List.mem_cons.1 hy with hyz | hyr
      · subst hyz
        have := head x hxr he.symm (Ne.symm hv)
        subst this
        right; simp [neighbours]
      · rcases neighbours_complete (w :: rest) (List.nodup_cons.1 hn).2 hs'.2 hi' x hxr y hyr he hv with h | h
        · left; simp [neighbours, h]
        · right; simp [neighbours, h]

theorem mem_combined (a b : List ℝ) (x : Elem) : x ∈ combined a b ↔ (if x.2.1 then b else a)[x.2.2]? = some x.1 := by
  obtain ⟨v, w, i⟩ := x
  simp only [combined, List.mem_append, List.mem_map, List.mem_zipIdx_iff_getElem?, Prod.mk.injEq]
  constructor
  · rintro (⟨y, hy, rfl, rfl, rfl⟩ | ⟨y, hy, rfl, rfl, rfl⟩)
    · simpa using hy
    · simpa using hy
  · cases w with
    | false => intro h; exact Or.inl ⟨(v, i), by simpa using h, rfl, rfl, rfl⟩
    | true => intro h; exact Or.inr ⟨(v, i), by simpa using h, rfl, rfl, rfl⟩

theorem zipIdx_nodup (l : List ℝ) : l.zipIdx.Nodup := by
  refine List.Nodup.of_map Prod.snd ?_
  rw [List.zipIdx_map_snd]
  exact List.nodup_range'

theorem combined_nodup (a b : List ℝ) : (combined a b).Nodup := by
  unfold combined
  refine List.Nodup.append ?_ ?_ ?_
  · exact (zipIdx_nodup a).map (fun x y h => by simp only [Prod.mk.injEq] at h; exact Prod.ext h.1 h.2.2)
  · exact (zipIdx_nodup b).map (fun x y h => by simp only [Prod.mk.injEq] at h; exact Prod.ext h.1 h.2.2)
  · intro x h1 h2
    simp only [List.mem_map] at h1 h2
    obtain ⟨y, _, rfl⟩ := h1
    obtain ⟨z, _, hz⟩ := h2
    simp at hz

theorem getElem?_inj_nodup (l : List ℝ) (h : l.Nodup) (i j : ℕ) (v : ℝ) (hi : l[i]? = some v) (hj : l[j]? = some v) : i = j := by
  have hlt : i < l.length := by
    by_contra hc
    rw [List.getElem?_eq_none (by omega)] at hi
    simp at hi
  exact (List.getElem?_inj hlt h).1 (hi.trans hj.symm)

theorem combined_inj (a b : List ℝ) (ha : a.Nodup) (hb : b.Nodup) (x y : Elem) (hx : x ∈ combined a b) (hy : y ∈ combined a b)
    (he : x.1 = y.1) (hv : x.2.1 = y.2.1) : x = y := by
  rw [mem_combined] at hx hy
  obtain ⟨v, w, i⟩ := x
  obtain ⟨v', w', j⟩ := y
  simp only at he hv hx hy
  subst he; subst hv
  cases w with
  | false => simp only [Bool.false_eq_true, if_false] at hx hy; rw [getElem?_inj_nodup a ha i j v hx hy]
  | true => simp only [if_true] at hx hy; rw [getElem?_inj_nodup b hb i j v hx hy]

/-- A sorted list whose last value is its first has only one value. -/
theorem one_value (c : List Elem) (hs : c.Pairwise (fun x y => x.1 ≤ y.1)) (f l : Elem) (hf : c.head? = some f) (hl : c.getLast? = some l)
    (he : l.1 = f.1) (x : Elem) (hx : x ∈ c) : x.1 = f.1 := by
  have h1 : f.1 ≤ x.1 := by
    cases c with
    | nil => simp at hx
    | cons z rest =>
      simp only [List.head?_cons, Option.some.injEq] at hf
      subst hf
      rcases List.mem_cons.1 hx with h | h
      · rw [h]
      · exact (List.pairwise_cons.1 hs).1 x h
  have h2 : x.1 ≤ l.1 := by
    have hc : c = c.dropLast ++ [l] := by
      have hne : c ≠ [] := by rintro rfl; simp at hx
      rw [List.getLast?_eq_some_getLast hne, Option.some.injEq] at hl
      rw [← hl, List.dropLast_append_getLast]
    rw [hc] at hs hx
    rcases List.mem_append.1 hx with h | h
    · exact (List.pairwise_append.1 hs).2.2 x h l (by simp)
    · rw [List.mem_singleton.1 h]
  linarith

theorem mem_duplicates (a b : List ℝ) (ha : a.Nodup) (hb : b.Nodup) (ha2 : 2 ≤ a.length) (c : List Elem) (hc : c.Perm (combined a b))
    (hs : c.Pairwise (fun x y => x.1 ≤ y.1)) (p : Elem × Elem) :
    p ∈ duplicates c ↔ p ∈ neighbours c ∧ p.1.1 = p.2.1 ∧ p.1.2.1 ≠ p.2.2.1 := by
  have hround : (around c).filterMap (fun p => if p.1.1 = p.2.1.1 ∧ p.1.2.1 ≠ p.2.1.2.1 then some (p.1, p.2.2) else none) = [] := by
    unfold around
    split
    · rename_i f l hf hl
      simp only [List.filterMap_cons, List.filterMap_nil]
      rw [if_neg]
      rintro ⟨he, -⟩
      have h0 : ((a[0]'(by omega)), false, 0) ∈ c := hc.mem_iff.2 ((mem_combined a b _).2 (by simp))
      have h1 : ((a[1]'(by omega)), false, 1) ∈ c := hc.mem_iff.2 ((mem_combined a b _).2 (by simp))
      have e0 := one_value c hs f l hf hl he _ h0
      have e1 := one_value c hs f l hf hl he _ h1
      have := (List.Nodup.getElem_inj_iff ha (hi := by omega) (hj := by omega)).1 (e0.trans e1.symm)
      omega
    · rfl
  unfold duplicates
  rw [hround, List.append_nil]
  simp only [List.mem_filterMap, List.mem_map]
  constructor
  · rintro ⟨q, ⟨r, hr, rfl⟩, h⟩
    by_cases hcond : r.1.1 = r.2.1 ∧ r.1.2.1 ≠ r.2.2.1
    · rw [if_pos hcond, Option.some.injEq] at h
      subst h
      exact ⟨hr, hcond⟩
    · rw [if_neg hcond] at h
      simp at h
  · rintro ⟨h, hcond⟩
    exact ⟨(p.1, p.2, p.2), ⟨p, h, rfl⟩, by rw [if_pos hcond]⟩

/-- The pairs of subscripts of pairs from different vectors. -/
def subPairs (d : List (Elem × Elem)) : List (ℕ × ℕ) :=
  d.map fun p => if p.1.2.1 then (p.2.2.2, p.1.2.2) else (p.1.2.2, p.2.2.2)

theorem subscripts_eq : ∀ (d : List (Elem × Elem)), (∀ p ∈ d, p.1.2.1 ≠ p.2.2.1) →
    subscripts false d = (subPairs d).map Prod.fst ∧ subscripts true d = (subPairs d).map Prod.snd
  | [], _ => by simp [subscripts, subPairs]
  | ((v, w, i), (v', w', j)) :: rest, h => by
    obtain ⟨h1, h2⟩ := subscripts_eq rest fun p hp => h p (List.mem_cons_of_mem _ hp)
    have h0 : w ≠ w' := h _ List.mem_cons_self
    simp only [subscripts, subPairs] at h1 h2 ⊢
    cases w <;> cases w' <;> simp_all

theorem zip_fst_snd (l : List (ℕ × ℕ)) : (l.map Prod.fst).zip (l.map Prod.snd) = l ∧
    (l.map Prod.snd).zip (l.map Prod.fst) = l.map Prod.swap := by
  induction l with
  | nil => simp
  | cons x rest ih => simp only [List.map_cons, List.zip_cons_cons, ih.1, ih.2]; exact ⟨trivial, rfl⟩

theorem mem_subPairs (a b : List ℝ) (ha : a.Nodup) (hb : b.Nodup) (ha2 : 2 ≤ a.length) (c : List Elem) (hc : c.Perm (combined a b))
    (hs : c.Pairwise (fun x y => x.1 ≤ y.1)) (i j : ℕ) :
    (i, j) ∈ subPairs (duplicates c) ↔ ∃ v, a[i]? = some v ∧ b[j]? = some v := by
  simp only [subPairs, List.mem_map]
  constructor
  · rintro ⟨⟨⟨v, w, k⟩, ⟨v', w', k'⟩⟩, hp, hij⟩
    rw [mem_duplicates a b ha hb ha2 c hc hs] at hp
    obtain ⟨hn, he, hv⟩ := hp
    obtain ⟨m1, m2⟩ := neighbours_mem c _ hn
    have m1' := (mem_combined a b _).1 (hc.mem_iff.1 m1)
    have m2' := (mem_combined a b _).1 (hc.mem_iff.1 m2)
    simp only at he hv m1' m2' hij
    subst he
    cases w <;> cases w' <;> simp at hv hij m1' m2'
    · obtain ⟨rfl, rfl⟩ := hij; exact ⟨v, m1', m2'⟩
    · obtain ⟨rfl, rfl⟩ := hij; exact ⟨v, m2', m1'⟩
  · rintro ⟨v, h1, h2⟩
    have m1 : ((v, false, i) : Elem) ∈ c := hc.mem_iff.2 ((mem_combined a b _).2 (by simpa using h1))
    have m2 : ((v, true, j) : Elem) ∈ c := hc.mem_iff.2 ((mem_combined a b _).2 (by simpa using h2))
    have hn : c.Nodup := hc.nodup_iff.2 (combined_nodup a b)
    rcases neighbours_complete c hn hs (fun x hx y hy => combined_inj a b ha hb x y (hc.mem_iff.1 hx) (hc.mem_iff.1 hy)) _ m1 _ m2 rfl (by simp)
      with h | h
    · exact ⟨_, (mem_duplicates a b ha hb ha2 c hc hs _).2 ⟨h, rfl, by simp⟩, by simp⟩
    · exact ⟨_, (mem_duplicates a b ha hb ha2 c hc hs _).2 ⟨h, rfl, by simp⟩, by simp⟩

/-- `match` gives the subscripts of all equal elements, in pairs, however `sort` orders equal elements. -/
theorem c180_match (a b : List ℝ) (ha : a.Nodup) (hb : b.Nodup) (ha2 : 2 ≤ a.length) (c : List Elem) (hc : c.Perm (combined a b))
    (hs : c.Pairwise (fun x y => x.1 ≤ y.1)) (hm : ∃ v, v ∈ a ∧ v ∈ b) :
    (matchSorted c).1.length = (matchSorted c).2.length ∧
      ∀ i j, (i, j) ∈ (matchSorted c).1.zip (matchSorted c).2 ↔ ∃ v, a[i]? = some v ∧ b[j]? = some v := by
  have hd : duplicates c ≠ [] := by
    obtain ⟨v, h1, h2⟩ := hm
    obtain ⟨i, hi⟩ := List.getElem?_of_mem h1
    obtain ⟨j, hj⟩ := List.getElem?_of_mem h2
    have := (mem_subPairs a b ha hb ha2 c hc hs i j).2 ⟨v, hi, hj⟩
    intro h
    rw [h] at this
    simp [subPairs] at this
  obtain ⟨e1, e2⟩ := subscripts_eq (duplicates c) fun p hp => ((mem_duplicates a b ha hb ha2 c hc hs p).1 hp).2.2
  unfold matchSorted
  simp only [if_neg hd, e1, e2]
  refine ⟨by simp, fun i j => ?_⟩
  rw [(zip_fst_snd _).1]
  exact mem_subPairs a b ha hb ha2 c hc hs i j

example : ((matchSorted [(1, false, 1), (2, true, 0), (2, false, 0), (5, true, 1)]).1 = [0]) ∧
    ([(1, false, 1), (2, true, 0), (2, false, 0), (5, true, 1)] : List Elem).Perm (combined [2, 1] [2, 5]) := by
  constructor
  · have hd : duplicates [(1, false, 1), (2, true, 0), (2, false, 0), (5, true, 1)] = [((2, true, 0), (2, false, 0))] := by
      norm_num [duplicates, neighbours, around, List.filterMap_cons]
    simp [matchSorted, hd, subscripts]
  · simp only [combined, List.zipIdx, List.map, List.cons_append, List.nil_append]
    refine List.Perm.trans (List.Perm.cons _ (List.Perm.swap _ _ _)) ?_
    refine List.Perm.trans (List.Perm.swap _ _ _) ?_
    refine List.Perm.cons _ (List.Perm.refl _)

theorem putRows_eq (mask : Types) : ∀ (l : List (ℕ × ℕ)) (temp : Types) (x y : ℕ),
    (∃ sub, (y, sub) ∈ l ∧ putRows temp mask l x y = mask x sub) ∨ ((∀ sub, (y, sub) ∉ l) ∧ putRows temp mask l x y = temp x y)
  | [], temp, x, y => by right; simp [putRows]
  | (row, sub) :: rest, temp, x, y => by
    simp only [putRows]
    rcases putRows_eq mask rest (fun x y => if y = row then mask x sub else temp x y) x y with ⟨s, hs, he⟩ | ⟨hs, he⟩
    · exact Or.inl ⟨s, List.mem_cons_of_mem _ hs, he⟩
    · by_cases h : y = row
      · subst h
        exact Or.inl ⟨sub, List.mem_cons_self, by rw [he]; simp⟩
      · refine Or.inr ⟨fun s hmem => ?_, by rw [he]; simp [h]⟩
        rcases List.mem_cons.1 hmem with hh | hh
        · exact h (by simpa using congrArg Prod.fst hh)
        · exact hs s hh

/-- One mask put into the grid: the rows of the latitudes it has are its own. -/
theorem put_mask (m : MaskFile) (grid : List ℝ) (hm : m.lats.Nodup) (hg : grid.Nodup) (h2 : 2 ≤ m.lats.length) (c : List Elem)
    (hc : c.Perm (combined m.lats grid)) (hs : c.Pairwise (fun x y => x.1 ≤ y.1)) (hsome : ∃ v, v ∈ m.lats ∧ v ∈ grid) (temp : Types)
    (x y : ℕ) (v : ℝ) (hv : grid[y]? = some v) :
    (∀ j, m.lats[j]? = some v → putRows temp m.types ((matchSorted c).2.zip (matchSorted c).1) x y = m.types x j) ∧
      (v ∉ m.lats → putRows temp m.types ((matchSorted c).2.zip (matchSorted c).1) x y = temp x y) := by
  have hmem : ∀ sub, (y, sub) ∈ (matchSorted c).2.zip (matchSorted c).1 ↔ m.lats[sub]? = some v := by
    intro sub
    have h := (c180_match m.lats grid hm hg h2 c hc hs hsome).2 sub y
    have hswap : (y, sub) ∈ (matchSorted c).2.zip (matchSorted c).1 ↔ (sub, y) ∈ (matchSorted c).1.zip (matchSorted c).2 := by
      rw [← List.zip_swap (matchSorted c).1 (matchSorted c).2, List.mem_map]
      constructor
      · rintro ⟨p, hp, he⟩
        have : p = (sub, y) := by rw [← Prod.swap_swap p, he]; rfl
        rwa [← this]
      · intro hp; exact ⟨_, hp, rfl⟩
    rw [hswap, h, hv]
    constructor
    · rintro ⟨w, h1, h2⟩
      rw [h1, ← h2]
    · intro h1; exact ⟨v, h1, rfl⟩
  rcases putRows_eq m.types ((matchSorted c).2.zip (matchSorted c).1) temp x y with ⟨sub, hsub, he⟩ | ⟨hnone, he⟩
  · rw [hmem] at hsub
    refine ⟨fun j hj => ?_, fun hn => absurd (List.mem_of_getElem? hsub) hn⟩
    rw [he, getElem?_inj_nodup m.lats hm sub j v hsub hj]
  · refine ⟨fun j hj => absurd ((hmem j).2 hj) (hnone j), fun _ => he⟩

/-- The joined masks: each row has the types of the second mask if it has the latitude of that row, otherwise those of the first, otherwise
nought. -/
theorem c180_joined (n k : ℕ) (hn : 0 < n) (m1 m2 : MaskFile) (s1 s2 : List Elem)
    (grid : List ℝ) (hgrid : grid = (List.range n).map fun (i : ℕ) => -90 + 180 * (((i : ℝ) + 1 / 2) / n))
    (h1 : m1.lats.Nodup) (h2 : m2.lats.Nodup) (l1 : 2 ≤ m1.lats.length) (l2 : 2 ≤ m2.lats.length)
    (p1 : s1.Perm (combined m1.lats grid)) (p2 : s2.Perm (combined m2.lats grid))
    (o1 : s1.Pairwise (fun x y => x.1 ≤ y.1)) (o2 : s2.Pairwise (fun x y => x.1 ≤ y.1))
    (c1 : ∃ v, v ∈ m1.lats ∧ v ∈ grid) (c2 : ∃ v, v ∈ m2.lats ∧ v ∈ grid) (t : Types)
    (ht : joinMasks (180 / n) (360 / k) m1 m2 s1 s2 = .ok t) (x y : ℕ) (hy : y < n) (v : ℝ)
    (hv : v = -90 + 180 * (((y : ℝ) + 1 / 2) / n)) :
    (∀ j, m2.lats[j]? = some v → t x y = m2.types x j) ∧
      (v ∉ m2.lats → (∀ j, m1.lats[j]? = some v → t x y = m1.types x j) ∧ (v ∉ m1.lats → t x y = 0)) := by
  have hn0 : (n : ℝ) ≠ 0 := by exact_mod_cast hn.ne'
  have hnodup : grid.Nodup := by
    rw [hgrid]
    refine List.nodup_range.map fun i j h => ?_
    field_simp at h
    have : (i : ℝ) = j := by linarith
    exact_mod_cast this
  have hgy : grid[y]? = some v := by
    rw [hgrid, hv, List.getElem?_map, List.getElem?_range hy, Option.map_some]
  unfold joinMasks at ht
  split at ht
  · simp at ht
  · split_ifs at ht with hcond
    simp only [Except.ok.injEq] at ht
    subst ht
    have b2 := put_mask m2 grid h2 hnodup l2 s2 p2 o2 c2
      (putRows (fun _ _ => 0) m1.types ((matchSorted s1).2.zip (matchSorted s1).1)) x y v hgy
    have b1 := put_mask m1 grid h1 hnodup l1 s1 p1 o1 c1 (fun _ _ => 0) x y v hgy
    refine ⟨b2.1, fun hnot => ?_⟩
    rw [b2.2 hnot]
    exact b1

theorem greatest_mono (f : ℕ → ℝ) (hf : Monotone f) (k : ℕ) : greatest ((List.range (k + 1)).map f) = f k := by
  have hh : ((List.range (k + 1)).map f).headD 0 = f 0 := by rw [List.range_succ_eq_map]; rfl
  unfold greatest
  rw [hh]
  induction k with
  | zero => simp
  | succ k ih =>
    rw [List.range_succ, List.map_append, List.foldl_append, ih (by rw [List.range_succ_eq_map]; rfl)]
    simp only [List.map_cons, List.map_nil, List.foldl_cons, List.foldl_nil]
    exact max_eq_right (hf (by omega))

theorem least_mono (f : ℕ → ℝ) (hf : Monotone f) (k : ℕ) : least ((List.range (k + 1)).map f) = f 0 := by
  have hh : ((List.range (k + 1)).map f).headD 0 = f 0 := by rw [List.range_succ_eq_map]; rfl
  unfold least
  rw [hh]
  induction k with
  | zero => simp
  | succ k ih =>
    rw [List.range_succ, List.map_append, List.foldl_append, ih (by rw [List.range_succ_eq_map]; rfl)]
    simp only [List.map_cons, List.map_nil, List.foldl_cons, List.foldl_nil]
    exact min_eq_left (hf (by omega))

theorem grid_strip (p h : ℝ) (hp : 0 < p) (n : ℕ) (hn : 0 < n) (hn' : n < 32768) (hh : h = 2 * p / n) :
    strip (-p) p h false = .ok ((List.range n).map fun (i : ℕ) => -p + h / 2 + i * h) := by
  have hn0 : (n : ℝ) ≠ 0 := by exact_mod_cast hn.ne'
  have hn1 : (0 : ℝ) < n := by exact_mod_cast hn
  rw [strip_eq (-p) p h false n ?_ hn']
  · simp only [if_pos (show -p < p by linarith), Bool.false_eq_true, if_false]
  · simp only [stripLength, Bool.false_eq_true, if_false, add_zero, hh]
    have : (p - -p) / (2 * p / n) = n := by field_simp; ring
    rw [this, abs_of_pos hn1]

/-- The masks are taken exactly if the outermost longitudes of the first are those of the grid. -/
theorem c180_accepted (n k : ℕ) (hn : 0 < n) (hn' : n < 32768) (hk : 0 < k) (hk' : k < 32768) (m1 m2 : MaskFile) (s1 s2 : List Elem) :
    (∃ t, joinMasks (180 / n) (360 / k) m1 m2 s1 s2 = .ok t) ↔
      greatest m1.lons = 180 - 180 / k ∧ least m1.lons = -180 + 180 / k := by
  have hk0 : (k : ℝ) ≠ 0 := by exact_mod_cast hk.ne'
  obtain ⟨k', rfl⟩ : ∃ k', k = k' + 1 := ⟨k - 1, by omega⟩
  have hmono : Monotone fun (i : ℕ) => (-180 : ℝ) + 360 / ((k' + 1 : ℕ) : ℝ) / 2 + i * (360 / ((k' + 1 : ℕ) : ℝ)) := by
    intro i j hij
    have : (i : ℝ) ≤ j := by exact_mod_cast hij
    have h2 : (0 : ℝ) ≤ 360 / ((k' + 1 : ℕ) : ℝ) := by positivity
    have := mul_le_mul_of_nonneg_right this h2
    simp only
    linarith
  have hg := greatest_mono _ hmono k'
  have hl := least_mono _ hmono k'
  have hgen : generateGrid (-90) 90 (-180) 180 (180 / n) (360 / ((k' + 1 : ℕ) : ℝ)) false = .ok
      ((List.range n).map fun (i : ℕ) => -90 + 180 / (n : ℝ) / 2 + i * (180 / (n : ℝ)),
        (List.range (k' + 1)).map fun (i : ℕ) => (-180 : ℝ) + 360 / ((k' + 1 : ℕ) : ℝ) / 2 + i * (360 / ((k' + 1 : ℕ) : ℝ))) := by
    unfold generateGrid
    rw [grid_strip 90 (180 / n) (by norm_num) n hn hn' (by norm_num), grid_strip 180 _ (by norm_num) (k' + 1) hk hk' (by norm_num)]
  have eg : (-180 : ℝ) + 360 / ((k' + 1 : ℕ) : ℝ) / 2 + (k' : ℝ) * (360 / ((k' + 1 : ℕ) : ℝ)) = 180 - 180 / ((k' + 1 : ℕ) : ℝ) := by
    push_cast at hk0 ⊢
    field_simp
    ring
  have el : (-180 : ℝ) + 360 / ((k' + 1 : ℕ) : ℝ) / 2 + ((0 : ℕ) : ℝ) * (360 / ((k' + 1 : ℕ) : ℝ)) = -180 + 180 / ((k' + 1 : ℕ) : ℝ) := by
    push_cast at hk0 ⊢
    field_simp
    ring
  unfold joinMasks
  rw [hgen]
  simp only [hg, hl, eg, el]
  constructor
  · rintro ⟨t, ht⟩
    by_contra hc
    rw [if_pos (by tauto)] at ht
    simp at ht
  · rintro ⟨h1, h2⟩
    rw [if_neg (by tauto)]
    exact ⟨_, rfl⟩

/-- The longitudes of the second mask are not looked at, nor the order of those of the first: turned the other way the masks are taken, and
no column is moved. -/
theorem c180_longitudes_violated : ∃ (m1 m1' m2 m2' : MaskFile) (s1 s2 : List Elem) (t : Types),
    m1.lons = [-90, 90] ∧ m1'.lons = [90, -90] ∧ m1'.lats = m1.lats ∧ m1'.types = m1.types ∧
    m2.lons = [-90, 90] ∧ m2'.lons = [0, 7] ∧ m2'.lats = m2.lats ∧ m2'.types = m2.types ∧
    joinMasks 90 180 m1 m2 s1 s2 = .ok t ∧ joinMasks 90 180 m1' m2' s1 s2 = .ok t := by
  let m1 : MaskFile := ⟨[-45, 45], [-90, 90], fun x _ => x⟩
  let m2 : MaskFile := ⟨[-45, 45], [-90, 90], fun x _ => x⟩
  have h := (c180_accepted 2 2 (by norm_num) (by norm_num) (by norm_num) (by norm_num) m1 m2 [] []).2
    (by constructor <;> norm_num [greatest, least, m1])
  obtain ⟨t, ht⟩ := h
  refine ⟨m1, { m1 with lons := [90, -90] }, m2, { m2 with lons := [0, 7] }, [], [], t, rfl, rfl, rfl, rfl, rfl, rfl, rfl, rfl, ?_, ?_⟩
  · norm_num at ht; exact ht
  · norm_num at ht
    rw [← ht]
    have e1 : greatest [90, -90] = greatest [-90, 90] := by norm_num [greatest]
    have e2 : least [90, -90] = least [-90, 90] := by norm_num [least]
    unfold joinMasks
    simp only [e1, e2, m1]

/-- A second mask none of whose latitudes is on the grid is not refused: its first row is put in the row of the south pole. -/
theorem c180_no_match_violated (n k : ℕ) (m1 m2 : MaskFile) (s1 s2 : List Elem) (grid : List ℝ)
    (hgrid : grid = (List.range n).map fun (i : ℕ) => -90 + 180 * (((i : ℝ) + 1 / 2) / n)) (hn : 0 < n)
    (h2 : m2.lats.Nodup) (l2 : 2 ≤ m2.lats.length) (p2 : s2.Perm (combined m2.lats grid)) (o2 : s2.Pairwise (fun x y => x.1 ≤ y.1))
    (hnone : ∀ v ∈ m2.lats, v ∉ grid) (t : Types) (ht : joinMasks (180 / n) (360 / k) m1 m2 s1 s2 = .ok t) (x : ℕ) :
    -90 + 180 * ((1 / 2) / (n : ℝ)) ∉ m2.lats ∧ t x 0 = m2.types x 0 := by
  have hn0 : (n : ℝ) ≠ 0 := by exact_mod_cast hn.ne'
  have hnodup : grid.Nodup := by
    rw [hgrid]
    refine List.nodup_range.map fun i j h => ?_
    field_simp at h
    have : (i : ℝ) = j := by linarith
    exact_mod_cast this
  have hd : duplicates s2 = [] := by
    rcases hdd : subPairs (duplicates s2) with _ | ⟨⟨i, j⟩, rest⟩
    · simpa [subPairs] using hdd
    · obtain ⟨v, hv1, hv2⟩ := (mem_subPairs m2.lats grid h2 hnodup l2 s2 p2 o2 i j).1 (by rw [hdd]; exact List.mem_cons_self)
      exact absurd (List.mem_of_getElem? hv2) (hnone v (List.mem_of_getElem? hv1))
  constructor
  · intro hmem
    refine hnone _ hmem ?_
    rw [hgrid, List.mem_map]
    exact ⟨0, List.mem_range.2 hn, by norm_num⟩
  · unfold joinMasks at ht
    split at ht
    · simp at ht
    · split_ifs at ht with hcond
      simp only [Except.ok.injEq] at ht
      subst ht
      simp [matchSorted, hd, putRows]

/-- Two masks as in the code: one in the south and one in the north, on the grid of 45 degrees. -/
example : ∃ (m1 m2 : MaskFile) (s1 s2 : List Elem) (t : Types) (grid : List ℝ),
    grid = ((List.range 4).map fun (i : ℕ) => -90 + 180 * (((i : ℝ) + 1 / 2) / (4 : ℕ))) ∧
    m1.lats.Nodup ∧ m2.lats.Nodup ∧ m1.lats.length = 2 ∧ m2.lats.length = 2 ∧
    s1.Perm (combined m1.lats grid) ∧ s2.Perm (combined m2.lats grid) ∧
    s1.Pairwise (fun x y => x.1 ≤ y.1) ∧ s2.Pairwise (fun x y => x.1 ≤ y.1) ∧
    (∃ v, v ∈ m1.lats ∧ v ∈ grid) ∧ (∃ v, v ∈ m2.lats ∧ v ∈ grid) ∧
    joinMasks (180 / (4 : ℕ)) (360 / (2 : ℕ)) m1 m2 s1 s2 = .ok t := by
  let m1 : MaskFile := ⟨[22.5, 67.5], [-90, 90], fun _ _ => 1⟩
  let m2 : MaskFile := ⟨[-67.5, -22.5], [-90, 90], fun _ _ => 1⟩
  let s1 : List Elem := [(-67.5, true, 0), (-22.5, true, 1), (22.5, false, 0), (22.5, true, 2), (67.5, true, 3), (67.5, false, 1)]
  let s2 : List Elem := [(-67.5, true, 0), (-67.5, false, 0), (-22.5, false, 1), (-22.5, true, 1), (22.5, true, 2), (67.5, true, 3)]
  obtain ⟨t, ht⟩ := (c180_accepted 4 2 (by norm_num) (by norm_num) (by norm_num) (by norm_num) m1 m2 s1 s2).2
    (by constructor <;> norm_num [greatest, least, m1])
  have hg : ((List.range 4).map fun (i : ℕ) => -90 + 180 * (((i : ℝ) + 1 / 2) / (4 : ℕ))) = [-67.5, -22.5, 22.5, 67.5] := by
    norm_num [List.range_succ]
  have perm : ∀ (s : List Elem) (a b : List ℝ), s.Nodup → (combined a b).Nodup → (∀ x, x ∈ s ↔ x ∈ combined a b) →
      s.Perm (combined a b) := fun s a b h1 h2 h => (List.perm_ext_iff_of_nodup h1 h2).2 h
  refine ⟨m1, m2, s1, s2, t, _, rfl, by norm_num [m1], by norm_num [m2], rfl, rfl, ?_, ?_, ?_, ?_, ⟨22.5, ?_, ?_⟩, ⟨-22.5, ?_, ?_⟩, ht⟩
  · rw [hg]
    refine perm _ _ _ (by norm_num [s1]) (combined_nodup _ _) fun x => ?_
    simp only [s1, m1, combined, List.zipIdx, List.map, List.cons_append, List.nil_append, List.mem_cons, List.not_mem_nil]
    tauto
  · rw [hg]
    refine perm _ _ _ (by norm_num [s2]) (combined_nodup _ _) fun x => ?_
    simp only [s2, m2, combined, List.zipIdx, List.map, List.cons_append, List.nil_append, List.mem_cons, List.not_mem_nil]
    tauto
  · norm_num [s1]
  · norm_num [s2]
  · simp [m1]
  · rw [hg]; simp
  · simp [m2]
  · rw [hg]; simp

end Verif.Eustace.LandMask
