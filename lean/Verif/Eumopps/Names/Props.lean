import Verif.Eumopps.Names.Model
import Verif.PyLemmas

/-! Property C16: file names built from patterns. -/
namespace Verif.Eumopps.Names
open Verif Verif.Calendar

/-! ### Specification: simultaneous substitution -/

/-- `Expands f s r`: reading `s` from left to right, every `%c` for which `f c` is defined is replaced by its text, all other
characters are copied. -/
inductive Expands (f : Char → Option (List Char)) : List Char → List Char → Prop
  | nil : Expands f [] []
  | field {c v t r} : f c = some v → Expands f t r → Expands f ('%' :: c :: t) (v ++ r)
  | copy {x t r} : (x = '%' → ∀ c u, t = c :: u → f c = none) → Expands f t r → Expands f (x :: t) (x :: r)

/-- The texts of the six fields. -/
def fields (t : DateTime) (c : Char) : Option (List Char) :=
  if c = 'Y' then some (pad 4 t.date.year) else if c = 'm' then some (pad 2 t.date.month)
  else if c = 'd' then some (pad 2 t.date.day) else if c = 'H' then some (pad 2 t.hour)
  else if c = 'M' then some (pad 2 t.minute) else if c = 'S' then some (pad 2 t.second) else none

/-! ### Digits -/

theorem pad_length : ∀ k n, (pad k n).length = k
  | 0, _ => rfl
  | k + 1, n => by simp [pad, pad_length k]

theorem digit_cases (n : Nat) : digit n ∈ ['0', '1', '2', '3', '4', '5', '6', '7', '8', '9'] := by
  unfold digit
  have h : n % 10 < 10 := by omega
  generalize n % 10 = m at h
  match m, h with
  | 0, _ | 1, _ | 2, _ | 3, _ | 4, _ | 5, _ | 6, _ | 7, _ | 8, _ | 9, _ => decide

theorem digit_inj {a b : Nat} (h : digit a = digit b) : a % 10 = b % 10 := by
  have h2 := congrArg Char.toNat h
  unfold digit at h2
  have key : ∀ m, m < 10 → (Char.ofNat (48 + m)).toNat = 48 + m := by
    intro m hm
    match m, hm with
    | 0, _ | 1, _ | 2, _ | 3, _ | 4, _ | 5, _ | 6, _ | 7, _ | 8, _ | 9, _ => decide
  rw [key _ (by omega), key _ (by omega)] at h2
  omega

theorem pad_digits : ∀ k n, ∀ x ∈ pad k n, x ∈ ['0', '1', '2', '3', '4', '5', '6', '7', '8', '9']
  | 0, _, x, h => by simp [pad] at h
  | k + 1, n, x, h => by
    simp only [pad, List.mem_append, List.mem_singleton] at h
    rcases h with h | h
    · exact pad_digits k _ x h
    · rw [h]; exact digit_cases n

theorem pad_inj : ∀ k {a b : Nat}, a < 10 ^ k → b < 10 ^ k → pad k a = pad k b → a = b
  | 0, a, b, ha, hb, _ => by simp at ha hb; omega
  | k + 1, a, b, ha, hb, h => by
    simp only [pad] at h
    have hl : (pad k (a / 10)).length = (pad k (b / 10)).length := by rw [pad_length, pad_length]
    obtain ⟨h1, h2⟩ := List.append_inj h hl
    have hd := digit_inj (by simpa using h2)
    have h10 : 10 ^ (k + 1) = 10 ^ k * 10 := Nat.pow_succ 10 k
    have := pad_inj k (a := a / 10) (b := b / 10) (by omega) (by omega) h1
    omega

/-! ### Sequential replacement is simultaneous substitution -/

/-- Extension of a substitution by one field. -/
def extend (f : Char → Option (List Char)) (c : Char) (r : List Char) : Char → Option (List Char) :=
  fun x => if x = c then some r else f x

theorem Expands.clean {f : Char → Option (List Char)} {v : List Char} (hv : ∀ x ∈ v, x ≠ '%') {t r : List Char}
    (h : Expands f t r) : Expands f (v ++ t) (v ++ r) := by
  induction v with
  | nil => exact h
  | cons x v ih =>
    refine .copy (fun hx => absurd hx (hv x (by simp))) (ih (fun y hy => hv y (by simp [hy])))

theorem replace_head {c : Char} {r : List Char} {y : Char} {t : List Char} :
    (∃ u, t = c :: u ∧ y = '%' ∧ replace c r (y :: t) = r ++ replace c r u) ∨
    (replace c r (y :: t) = y :: replace c r t) := by
  match t with
  | [] => right; simp [replace]
  | z :: u =>
    by_cases h : y = '%' ∧ z = c
    · left; exact ⟨u, by rw [h.2], h.1, by simp [replace, h]⟩
    · right; simp only [replace]; rw [if_neg h]

/-- Text without `%` is copied. -/
theorem expands_clean_split {f : Char → Option (List Char)} : ∀ v : List Char, (∀ x ∈ v, x ≠ '%') → ∀ w out,
    Expands f (v ++ w) out → ∃ o, out = v ++ o ∧ Expands f w o
  | [], _, w, out, h => ⟨out, rfl, h⟩
  | a :: v, hv, w, out, h => by
    generalize hs : a :: v ++ w = s at h
    cases h with
    | nil => cases hs
    | field _ _ =>
      simp only [List.cons_append, List.cons.injEq] at hs
      exact absurd hs.1 (hv _ (by simp))
    | copy _ h2 =>
      simp only [List.cons_append, List.cons.injEq] at hs
      obtain ⟨rfl, rfl⟩ := hs
      obtain ⟨o, rfl, h3⟩ := expands_clean_split v (fun y hy => hv y (by simp [hy])) w _ h2
      exact ⟨o, rfl, h3⟩

/-- Expanding after one replacement is expanding with that field added. -/
theorem expands_replace {f : Char → Option (List Char)} {c : Char} {r : List Char}
    (hr : ∀ x ∈ r, x ≠ '%' ∧ f x = none) (hne : r ≠ []) (hc : c ≠ '%') (hfp : f '%' = none) :
    ∀ (n : Nat) (s out : List Char), s.length ≤ n → Expands f (replace c r s) out → Expands (extend f c r) s out
  | _, [], out, _, h => by
    simp only [replace] at h; cases h; exact .nil
  | 0, x :: t, _, hl, _ => by simp at hl
  | n + 1, x :: t, out, hl, h => by
    rcases replace_head (c := c) (r := r) (y := x) (t := t) with ⟨u, rfl, rfl, he⟩ | he
    · rw [he] at h
      -- `r` is copied, then the rest is expanded
      obtain ⟨o, rfl, h2⟩ := expands_clean_split r (fun x hx => (hr x hx).1) _ _ h
      refine .field (by simp [extend]) (expands_replace hr hne hc hfp n u o (by simp at hl; omega) h2)
    · rw [he] at h
      generalize hw : x :: replace c r t = w at h
      cases h with
      | nil => cases hw
      | @field c' v t' r' hf h2 =>
        simp only [List.cons.injEq] at hw
        obtain ⟨rfl, hw⟩ := hw
        -- replace c r t starts with a field letter c', so t starts with it as well
        match t, hw, he, hl with
        | [], hw, _, _ => simp [replace] at hw
        | z :: u, hw, he, hl =>
          rcases replace_head (c := c) (r := r) (y := z) (t := u) with ⟨u', rfl, rfl, he2⟩ | he2
          · rw [he2] at hw
            match r, hne, hr, hw with
            | d :: ds, _, hr, hw =>
              simp only [List.cons_append, List.cons.injEq] at hw
              have := (hr d (by simp)).2
              rw [hw.1, hf] at this; cases this
          · rw [he2, List.cons.injEq] at hw
            obtain ⟨rfl, rfl⟩ := hw
            have hzc : z ≠ c := by
              rintro rfl
              simp only [replace, true_and, if_true] at he
              match r, hne, hr, he with
              | d :: ds, _, hr, he =>
                simp only [List.cons_append, List.cons.injEq] at he
                exact (hr d (by simp)).1 he.1
            refine .field (by simp [extend, hzc, hf]) (expands_replace hr hne hc hfp n u r' (by simp at hl; omega) h2)
      | @copy x' t' r' hx h2 =>
        simp only [List.cons.injEq] at hw
        obtain ⟨rfl, rfl⟩ := hw
        refine .copy ?_ (expands_replace hr hne hc hfp n t r' (by simp at hl; omega) h2)
        rintro rfl c' u rfl
        have hcc : c' ≠ c := by
          rintro rfl
          simp only [replace, true_and, if_true] at he
          match r, hne, hr, he with
          | d :: ds, _, hr, he =>
            simp only [List.cons_append, List.cons.injEq] at he
            exact (hr d (by simp)).1 he.1
        simp only [extend, hcc, if_false]
        by_cases hp : c' = '%'
        · rw [hp]; exact hfp
        · rcases replace_head (c := c) (r := r) (y := c') (t := u) with ⟨u', _, hh, _⟩ | he2
          · exact absurd hh hp
          · exact hx rfl c' _ he2

theorem expands_none (s : List Char) : Expands (fun _ => none) s s := by
  induction s with
  | nil => exact .nil
  | cons x t ih => exact .copy (fun _ _ _ _ => rfl) ih

theorem expands_unique {f : Char → Option (List Char)} {s a b : List Char} (ha : Expands f s a) (hb : Expands f s b) : a = b := by
  induction ha generalizing b with
  | nil => cases hb; rfl
  | field hf _ ih =>
    cases hb with
    | field hf' h' => rw [hf] at hf'; cases hf'; rw [ih h']
    | copy hx _ => have := hx rfl _ _ rfl; rw [hf] at this; cases this
  | copy hx _ ih =>
    cases hb with
    | field hf' _ => have := hx rfl _ _ rfl; rw [hf'] at this; cases this
    | copy _ h' => rw [ih h']

/-! ### The code -/

theorem list_of_length4 {l : List α} (h : l.length = 4) : ∃ a b c d, l = [a, b, c, d] := by
  match l, h with
  | [a, b, c, d], _ => exact ⟨a, b, c, d, rfl⟩

theorem list_of_length2 {l : List α} (h : l.length = 2) : ∃ a b, l = [a, b] := by
  match l, h with
  | [a, b], _ => exact ⟨a, b, rfl⟩

theorem slices (t : DateTime) :
    slice (isoformat t) 0 4 = pad 4 t.date.year ∧ slice (isoformat t) 5 7 = pad 2 t.date.month ∧
    slice (isoformat t) 8 10 = pad 2 t.date.day ∧ slice (isoformat t) 11 13 = pad 2 t.hour ∧
    slice (isoformat t) 14 16 = pad 2 t.minute ∧ slice (isoformat t) 17 19 = pad 2 t.second := by
  unfold isoformat
  obtain ⟨a, b, c, d, h1⟩ := list_of_length4 (pad_length 4 t.date.year)
  obtain ⟨e, f, h2⟩ := list_of_length2 (pad_length 2 t.date.month)
  obtain ⟨g, h, h3⟩ := list_of_length2 (pad_length 2 t.date.day)
  obtain ⟨i, j, h4⟩ := list_of_length2 (pad_length 2 t.hour)
  obtain ⟨k, l, h5⟩ := list_of_length2 (pad_length 2 t.minute)
  obtain ⟨m, n, h6⟩ := list_of_length2 (pad_length 2 t.second)
  rw [h1, h2, h3, h4, h5, h6]
  exact ⟨rfl, rfl, rfl, rfl, rfl, rfl⟩

theorem pad_field {k n : Nat} : ∀ x ∈ pad k n, x ≠ '%' ∧ x ≠ 'Y' ∧ x ≠ 'm' ∧ x ≠ 'd' ∧ x ≠ 'H' ∧ x ≠ 'M' ∧ x ≠ 'S' ∧ x ≠ '/' := by
  intro x hx
  have := pad_digits k n x hx
  simp only [List.mem_cons, List.not_mem_nil, or_false] at this
  rcases this with rfl | rfl | rfl | rfl | rfl | rfl | rfl | rfl | rfl | rfl <;> decide

theorem pad_ne_nil {k n : Nat} (h : 0 < k) : pad k n ≠ [] := by
  intro hc; have := pad_length k n; rw [hc] at this; simp at this; omega

/-- **C16.** The built name is the simultaneous substitution of the six fields: year in four digits, the others in two. -/
theorem c16_substitution (pattern : List Char) (t : DateTime) : Expands (fields t) pattern (buildFromPattern pattern t) := by
  obtain ⟨s1, s2, s3, s4, s5, s6⟩ := slices t
  unfold buildFromPattern
  simp only [s1, s2, s3, s4, s5, s6]
  let f0 : Char → Option (List Char) := fun _ => none
  let f1 := extend f0 'S' (pad 2 t.second)
  let f2 := extend f1 'M' (pad 2 t.minute)
  let f3 := extend f2 'H' (pad 2 t.hour)
  let f4 := extend f3 'd' (pad 2 t.date.day)
  let f5 := extend f4 'm' (pad 2 t.date.month)
  let f6 := extend f5 'Y' (pad 4 t.date.year)
  have hf : f6 = fields t := by
    funext c; simp only [f6, f5, f4, f3, f2, f1, f0, extend, fields]
  rw [← hf]
  refine expands_replace (f := f5) ?_ (pad_ne_nil (by omega)) (by decide) (by simp [f5, f4, f3, f2, f1, f0, extend]) _ _ _ (Nat.le_refl _)
    (expands_replace (f := f4) ?_ (pad_ne_nil (by omega)) (by decide) (by simp [f5, f4, f3, f2, f1, f0, extend]) _ _ _ (Nat.le_refl _)
    (expands_replace (f := f3) ?_ (pad_ne_nil (by omega)) (by decide) (by simp [f5, f4, f3, f2, f1, f0, extend]) _ _ _ (Nat.le_refl _)
    (expands_replace (f := f2) ?_ (pad_ne_nil (by omega)) (by decide) (by simp [f5, f4, f3, f2, f1, f0, extend]) _ _ _ (Nat.le_refl _)
    (expands_replace (f := f1) ?_ (pad_ne_nil (by omega)) (by decide) (by simp [f5, f4, f3, f2, f1, f0, extend]) _ _ _ (Nat.le_refl _)
    (expands_replace (f := f0) ?_ (pad_ne_nil (by omega)) (by decide) (by simp [f5, f4, f3, f2, f1, f0, extend]) _ _ _ (Nat.le_refl _)
    (expands_none _))))))
  all_goals
    intro x hx
    obtain ⟨p0, p1, p2, p3, p4, p5, p6, _⟩ := pad_field x hx
    refine ⟨p0, ?_⟩
    simp [f5, f4, f3, f2, f1, f0, extend, p1, p2, p3, p4, p5, p6]

/-- **C16.** `build` writes the fourteen digits YYYYmmddHHMMSS. -/
theorem c16_build (t : DateTime) : build t = pad 4 t.date.year ++ pad 2 t.date.month ++ pad 2 t.date.day ++
    pad 2 t.hour ++ pad 2 t.minute ++ pad 2 t.second := by
  obtain ⟨s1, s2, s3, s4, s5, s6⟩ := slices t
  unfold build; simp only [s1, s2, s3, s4, s5, s6]

/-! ### Names of different days differ -/

/-- Splitting an expansion at a `%`. -/
theorem expands_split {f : Char → Option (List Char)} (hfp : f '%' = none) : ∀ (a : List Char) {t r : List Char},
    Expands f (a ++ '%' :: t) r → ∃ u v, r = u ++ v ∧ Expands f a u ∧ Expands f ('%' :: t) v
  | [], t, r, h => ⟨[], r, rfl, .nil, h⟩
  | x :: a, t, r, h => by
    generalize hw : x :: a ++ '%' :: t = w at h
    cases h with
    | nil => cases hw
    | @field c v t' r' hf h2 =>
      simp only [List.cons_append, List.cons.injEq] at hw
      obtain ⟨rfl, hw⟩ := hw
      match a, hw with
      | [], hw =>
        simp only [List.nil_append, List.cons.injEq] at hw
        rw [← hw.1, hfp] at hf; cases hf
      | y :: a, hw =>
        simp only [List.cons_append, List.cons.injEq] at hw
        obtain ⟨rfl, rfl⟩ := hw
        obtain ⟨u, w, rfl, h3, h4⟩ := expands_split hfp a h2
        exact ⟨v ++ u, w, by simp, .field hf h3, h4⟩
    | @copy x' t' r' hx h2 =>
      simp only [List.cons_append, List.cons.injEq] at hw
      obtain ⟨rfl, rfl⟩ := hw
      obtain ⟨u, w, rfl, h3, h4⟩ := expands_split hfp a h2
      refine ⟨x :: u, w, by simp, .copy ?_ h3, h4⟩
      intro hp c u' he
      exact hx hp c (u' ++ '%' :: t) (by rw [he]; simp)

/-- Same layout: expansions under two substitutions with texts of equal lengths made of digits have the same length and
agree about slashes at either end. -/
theorem expands_shape {f g : Char → Option (List Char)} (hfg : ∀ c, (f c = none ↔ g c = none))
    (hlen : ∀ c v w, f c = some v → g c = some w → v.length = w.length) {s a : List Char} (ha : Expands f s a) :
    ∀ {b : List Char}, Expands g s b → a.length = b.length := by
  induction ha with
  | nil => intro b hb; cases hb; rfl
  | field hf _ ih =>
    intro b hb
    cases hb with
    | field hg h' => simp [hlen _ _ _ hf hg, ih h']
    | copy hx _ => have := (hfg _).2 (hx rfl _ _ rfl); rw [hf] at this; cases this
  | copy hx _ ih =>
    intro b hb
    cases hb with
    | field hg _ => have := (hfg _).1 (hx rfl _ _ rfl); rw [hg] at this; cases this
    | copy _ h' => simp [ih h']

theorem fields_percent (t : DateTime) : fields t '%' = none := by simp [fields]

/-- Letters of the fields. -/
theorem fields_cases (c : Char) : c = 'Y' ∨ c = 'm' ∨ c = 'd' ∨ c = 'H' ∨ c = 'M' ∨ c = 'S' ∨ ∀ t, fields t c = none := by
  by_cases h1 : c = 'Y'
  · simp [h1]
  by_cases h2 : c = 'm'
  · simp [h2]
  by_cases h3 : c = 'd'
  · simp [h3]
  by_cases h4 : c = 'H'
  · simp [h4]
  by_cases h5 : c = 'M'
  · simp [h5]
  by_cases h6 : c = 'S'
  · simp [h6]
  simp [fields, h1, h2, h3, h4, h5, h6]

theorem fields_none (t t' : DateTime) (c : Char) : fields t c = none ↔ fields t' c = none := by
  rcases fields_cases c with rfl | rfl | rfl | rfl | rfl | rfl | h
  all_goals first | simp [h] | simp [fields]

theorem fields_length (t t' : DateTime) (c : Char) (v w : List Char) (h : fields t c = some v) (h' : fields t' c = some w) :
    v.length = w.length := by
  rcases fields_cases c with rfl | rfl | rfl | rfl | rfl | rfl | hn
  all_goals first
    | (rw [hn] at h; cases h; done)
    | (simp only [fields, Char.reduceEq, if_true, if_false, Option.some.injEq] at h h'
       rw [← h, ← h', pad_length, pad_length])

theorem build_length (p : List Char) (t t' : DateTime) : (buildFromPattern p t).length = (buildFromPattern p t').length :=
  expands_shape (fields_none t t') (fields_length t t') (c16_substitution p t) (c16_substitution p t')

/-- A field of a pattern occurs in the built name, and equal names have equal fields. -/
theorem build_field {p a b : List Char} {c : Char} (hp : p = a ++ '%' :: c :: b) {t : DateTime} {v : List Char}
    (hv : fields t c = some v) :
    ∃ u w, buildFromPattern p t = u ++ v ++ w ∧ u = buildFromPattern a t := by
  have h := c16_substitution p t
  rw [hp] at h
  obtain ⟨u, w, e, h1, h2⟩ := expands_split (fields_percent t) a h
  cases h2 with
  | @field _ _ _ r' hf h3 =>
    rw [hv] at hf; cases hf
    exact ⟨u, r', by rw [hp, e]; simp, expands_unique h1 (c16_substitution a t)⟩
  | copy hx _ => have := hx rfl _ _ rfl; rw [hv] at this; cases this

theorem build_field_eq {p a b : List Char} {c : Char} (hp : p = a ++ '%' :: c :: b) {t t' : DateTime} {v v' : List Char}
    (hv : fields t c = some v) (hv' : fields t' c = some v') (h : buildFromPattern p t = buildFromPattern p t') : v = v' := by
  obtain ⟨u, w, e, hu⟩ := build_field hp hv
  obtain ⟨u', w', e', hu'⟩ := build_field hp hv'
  rw [e, e', List.append_assoc, List.append_assoc] at h
  have hl : u.length = u'.length := by rw [hu, hu']; exact build_length a t t'
  have h2 := (List.append_inj h hl).2
  exact (List.append_inj h2 (fields_length t t' c v v' hv hv')).1

/-- First and last character of a built name: a slash stays a slash, anything else never becomes one. -/
theorem expands_head {t : DateTime} {s r : List Char} (h : Expands (fields t) s r) :
    (r.head? = some '/' ↔ s.head? = some '/') ∧ (r = [] ↔ s = []) := by
  cases h with
  | nil => simp
  | @field c v t' r' hf h2 =>
    have hv : ∃ d ds, v = d :: ds ∧ d ≠ '/' := by
      have key : ∀ k n, 0 < k → ∃ d ds, pad k n = d :: ds ∧ d ≠ '/' := by
        intro k n hk
        match hd : pad k n with
        | [] => exact absurd hd (pad_ne_nil hk)
        | d :: ds => exact ⟨d, ds, rfl, (pad_field d (by rw [hd]; simp)).2.2.2.2.2.2.2⟩
      unfold fields at hf
      repeat' split at hf
      all_goals first | cases hf | skip
      all_goals exact key _ _ (by omega)
    obtain ⟨d, ds, rfl, hd⟩ := hv
    simp [hd]
  | copy _ _ => simp

theorem getLast?_append_ne (a : List α) {b : List α} (h : b ≠ []) : (a ++ b).getLast? = b.getLast? := by
  rw [List.getLast?_append]
  match b, h with
  | x :: b, _ => simp [List.getLast?_cons]

theorem expands_last {t : DateTime} {s r : List Char} (h : Expands (fields t) s r) :
    (r.getLast? = some '/' ↔ s.getLast? = some '/') := by
  induction h with
  | nil => simp
  | @field c v t' r' hf h2 ih =>
    have hv : (∀ x ∈ v, x ≠ '/') ∧ v ≠ [] ∧ c ≠ '/' := by
      unfold fields at hf
      repeat' split at hf
      all_goals first | cases hf | skip
      all_goals
        rename_i hc
        refine ⟨fun x hx => (pad_field x hx).2.2.2.2.2.2.2, pad_ne_nil (by omega), ?_⟩
        rw [hc]; decide
    have hnil := (expands_head h2).2
    match r', t', ih, hnil with
    | [], t', ih, hnil =>
      have : t' = [] := hnil.1 rfl
      subst this
      simp only [List.append_nil]
      constructor
      · intro hl
        exact absurd rfl (hv.1 _ (List.mem_of_getLast? hl))
      · intro hl; simp at hl; exact absurd hl hv.2.2
    | x :: r', [], ih, hnil => simp at hnil
    | x :: r', y :: t', ih, hnil =>
      rw [getLast?_append_ne _ (by simp), ih]
      simp [List.getLast?_cons_cons]
  | @copy x t' r' hx h2 ih =>
    have hnil := (expands_head h2).2
    match r', t', ih, hnil with
    | [], t', ih, hnil =>
      have : t' = [] := hnil.1 rfl
      subst this; simp
    | x' :: r', [], ih, hnil => simp at hnil
    | x' :: r', y :: t', ih, hnil =>
      rw [List.getLast?_cons_cons, List.getLast?_cons_cons]; exact ih

/-- Prefixes produced by a partial join, for two times: same length, same emptiness, same final slash. -/
structure Same (a b : List Char) : Prop where
  length : a.length = b.length
  last : a.getLast? = some '/' ↔ b.getLast? = some '/'

theorem same_build (p : List Char) (t t' : DateTime) : Same (buildFromPattern p t) (buildFromPattern p t') :=
  ⟨build_length p t t', by rw [expands_last (c16_substitution p t), expands_last (c16_substitution p t')]⟩

theorem head_build (p : List Char) (t : DateTime) : (buildFromPattern p t).head? = some '/' ↔ p.head? = some '/' :=
  (expands_head (c16_substitution p t)).1

theorem nil_of_length {a b : List Char} (h : a.length = b.length) : a = [] ↔ b = [] := by
  rw [← List.length_eq_zero_iff, ← List.length_eq_zero_iff, h]

theorem getLast_append_build (a p : List Char) (t : DateTime) :
    (a ++ buildFromPattern p t).getLast? = some '/' ↔
      (if p = [] then a.getLast? = some '/' else p.getLast? = some '/') := by
  have hl := expands_last (c16_substitution p t)
  have hn := (expands_head (c16_substitution p t)).2
  split
  · rename_i h; rw [hn.2 h, List.append_nil]
  · rename_i h
    rw [getLast?_append_ne _ (fun hc => h (hn.1 hc))]
    exact hl

theorem join_same {a b : List Char} (h : Same a b) (p : List Char) (t t' : DateTime) :
    Same (join2 a (buildFromPattern p t)) (join2 b (buildFromPattern p t')) := by
  have hb := same_build p t t'
  have hn := nil_of_length h.length
  unfold join2
  by_cases hh : p.head? = some '/'
  · rw [if_pos ((head_build p t).2 hh), if_pos ((head_build p t').2 hh)]; exact hb
  · rw [if_neg (fun hc => hh ((head_build p t).1 hc)), if_neg (fun hc => hh ((head_build p t').1 hc))]
    by_cases hc : a = [] ∨ a.getLast? = some '/'
    · rw [if_pos hc, if_pos (by rw [← hn, ← h.last]; exact hc)]
      refine ⟨by simp [h.length, hb.length], ?_⟩
      rw [getLast_append_build, getLast_append_build]
      split
      · exact h.last
      · exact Iff.rfl
    · rw [if_neg hc, if_neg (by rw [← hn, ← h.last]; exact hc)]
      refine ⟨by simp [h.length, hb.length], ?_⟩
      have e : ∀ (x y : List Char), x ++ '/' :: y = (x ++ ['/']) ++ y := by intros; simp
      rw [e a, e b, getLast_append_build, getLast_append_build]
      split
      · simp
      · exact Iff.rfl

theorem join_inj {a b : List Char} (h : Same a b) {p : List Char} (hp : p.head? ≠ some '/') {t t' : DateTime}
    (he : join2 a (buildFromPattern p t) = join2 b (buildFromPattern p t')) :
    a = b ∧ buildFromPattern p t = buildFromPattern p t' := by
  have hn := nil_of_length h.length
  unfold join2 at he
  rw [if_neg (fun hc => hp ((head_build p t).1 hc)), if_neg (fun hc => hp ((head_build p t').1 hc))] at he
  by_cases hc : a = [] ∨ a.getLast? = some '/'
  · rw [if_pos hc, if_pos (by rw [← hn, ← h.last]; exact hc)] at he
    exact List.append_inj he h.length
  · rw [if_neg hc, if_neg (by rw [← hn, ← h.last]; exact hc)] at he
    obtain ⟨h1, h2⟩ := List.append_inj he h.length
    exact ⟨h1, by simpa using h2⟩

theorem fold_same (ps : List (List Char)) (t t' : DateTime) : ∀ {a b : List Char}, Same a b →
    Same ((ps.map fun p => buildFromPattern p t).foldl join2 a) ((ps.map fun p => buildFromPattern p t').foldl join2 b) := by
  induction ps with
  | nil => intro a b h; exact h
  | cons p ps ih => intro a b h; exact ih (join_same h p t t')

theorem fold_inj (ps : List (List Char)) (hp : ∀ p ∈ ps, p.head? ≠ some '/') (t t' : DateTime) : ∀ {a b : List Char}, Same a b →
    (ps.map fun p => buildFromPattern p t).foldl join2 a = (ps.map fun p => buildFromPattern p t').foldl join2 b →
    a = b ∧ ∀ p ∈ ps, buildFromPattern p t = buildFromPattern p t' := by
  induction ps with
  | nil => intro a b _ he; exact ⟨he, by simp⟩
  | cons p ps ih =>
    intro a b h he
    obtain ⟨h1, h2⟩ := ih (fun q hq => hp q (by simp [hq])) (join_same h p t t') he
    obtain ⟨h3, h4⟩ := join_inj h (hp p (by simp)) h1
    exact ⟨h3, by simpa using ⟨h4, h2⟩⟩

/-- A pattern has the field `%c`. -/
def HasField (c : Char) (p : List Char) : Prop := ∃ a b, p = a ++ '%' :: c :: b

/-- **C16.** If each of `%Y`, `%m` and `%d` lies within one of the patterns and no pattern but the first is absolute, then
two times (years below 10000) of different days never get the same file name. (The code tests for the fields in the
concatenation of the patterns and does not look for absolute patterns: see `c16_violated`.) -/
theorem c16_names_differ_partial {p : List Char} {ps : List (List Char)} (habs : ∀ q ∈ ps, q.head? ≠ some '/')
    (hY : ∃ q ∈ p :: ps, HasField 'Y' q) (hm : ∃ q ∈ p :: ps, HasField 'm' q) (hd : ∃ q ∈ p :: ps, HasField 'd' q)
    {t t' : DateTime} (hv : t.date.Valid) (hv' : t'.date.Valid) (hy : t.date.year < 10000) (hy' : t'.date.year < 10000)
    (hne : t.date ≠ t'.date) : filename (p :: ps) t ≠ filename (p :: ps) t' := by
  intro he
  unfold filename joinAll at he
  simp only [List.map_cons, Except.ok.injEq] at he
  obtain ⟨h1, h2⟩ := fold_inj ps habs t t' (same_build p t t') he
  have hall : ∀ q ∈ p :: ps, buildFromPattern q t = buildFromPattern q t' := by simpa using ⟨h1, h2⟩
  have hfield : ∀ c v v', (∃ q ∈ p :: ps, HasField c q) → fields t c = some v → fields t' c = some v' → v = v' := by
    rintro c v v' ⟨q, hq, a, b, hab⟩ hf hf'
    exact build_field_eq hab hf hf' (hall q hq)
  have e1 := pad_inj 4 (by omega) (by omega) (hfield 'Y' _ _ hY rfl rfl)
  have hM : ∀ d : Date, d.Valid → d.month < 10 ^ 2 ∧ d.day < 10 ^ 2 := by
    intro d hd
    have h1 := hd.2.1
    have h2 := hd.2.2.2
    have h3 : daysInMonth d.year d.month ≤ 31 := by unfold daysInMonth; split <;> split <;> omega
    omega
  have e2 := pad_inj 2 (hM _ hv).1 (hM _ hv').1 (hfield 'm' _ _ hm rfl rfl)
  have e3 := pad_inj 2 (hM _ hv).2 (hM _ hv').2 (hfield 'd' _ _ hd rfl rfl)
  apply hne
  cases h : t.date; cases h' : t'.date
  rw [h, h'] at e1 e2 e3
  simp_all

/-- A part of a join not followed by absolute parts appears in the result. -/
theorem fold_sub (ps : List (List Char)) (hp : ∀ p ∈ ps, p.head? ≠ some '/') (t : DateTime) : ∀ (a : List Char),
    ∃ w, (ps.map fun p => buildFromPattern p t).foldl join2 a = a ++ w ∧
      ∀ p ∈ ps, ∃ x y, w = x ++ buildFromPattern p t ++ y := by
  induction ps with
  | nil => intro a; exact ⟨[], by simp, by simp⟩
  | cons p ps ih =>
    intro a
    obtain ⟨w, hw, hs⟩ := ih (fun q hq => hp q (by simp [hq])) (join2 a (buildFromPattern p t))
    have hj : ∃ z, join2 a (buildFromPattern p t) = a ++ z ++ buildFromPattern p t := by
      unfold join2
      rw [if_neg (fun hc => hp p (by simp) ((head_build p t).1 hc))]
      split
      · exact ⟨[], by simp⟩
      · exact ⟨['/'], by simp⟩
    obtain ⟨z, hz⟩ := hj
    refine ⟨z ++ buildFromPattern p t ++ w, ?_, ?_⟩
    · simp only [List.map_cons, List.foldl_cons]; rw [hw, hz]; simp
    · intro q hq
      rcases List.mem_cons.1 hq with rfl | hq
      · exact ⟨z, w, by simp⟩
      · obtain ⟨x, y, rfl⟩ := hs q hq
        exact ⟨z ++ buildFromPattern p t ++ x, y, by simp⟩

/-- **C16.** The name contains the day in fixed-width digits wherever a pattern has the field. -/
theorem c16_contains {p : List Char} {ps : List (List Char)} (habs : ∀ q ∈ ps, q.head? ≠ some '/')
    {q : List Char} (hq : q ∈ p :: ps) {c : Char} (hc : HasField c q) (t : DateTime) {v : List Char} (hv : fields t c = some v) :
    ∃ x y, filename (p :: ps) t = .ok (x ++ v ++ y) := by
  obtain ⟨a, b, hab⟩ := hc
  obtain ⟨u, w, e, _⟩ := build_field hab hv
  obtain ⟨w', hw, hs⟩ := fold_sub ps habs t (buildFromPattern p t)
  unfold filename joinAll
  simp only [List.map_cons]
  rw [hw]
  rcases List.mem_cons.1 hq with rfl | hq
  · exact ⟨u, w ++ w', by rw [e]; simp⟩
  · obtain ⟨x, y, rfl⟩ := hs q hq
    exact ⟨buildFromPattern p t ++ x ++ u, w ++ y, by rw [e]; simp⟩

/-- `sub in s` is the presence of a contiguous part. -/
theorem hasSub_iff (sub : List Char) : ∀ s, hasSub sub s = true ↔ ∃ a b, s = a ++ sub ++ b
  | [] => by
    rw [hasSub, List.isPrefixOf_iff_prefix]
    constructor
    · rintro ⟨b, hb⟩; exact ⟨[], b, by simpa using hb.symm⟩
    · rintro ⟨a, b, h⟩
      have h' := congrArg List.length h
      simp only [List.length_nil, List.length_append] at h'
      have : sub = [] := List.length_eq_zero_iff.1 (by omega)
      rw [this]; exact List.prefix_refl _
  | x :: t => by
    rw [hasSub, Bool.or_eq_true, List.isPrefixOf_iff_prefix, hasSub_iff sub t]
    constructor
    · rintro (⟨b, hb⟩ | ⟨a, b, h⟩)
      · exact ⟨[], b, by simpa using hb.symm⟩
      · exact ⟨x :: a, b, by simp [h]⟩
    · rintro ⟨a, b, h⟩
      cases a with
      | nil => left; exact ⟨b, by simpa using h.symm⟩
      | cons y a =>
        simp only [List.cons_append, List.cons.injEq] at h
        right; exact ⟨a, b, h.2⟩

theorem hasSub_field (c : Char) (s : List Char) : hasSub ['%', c] s = true ↔ HasField c s := by
  rw [hasSub_iff]
  unfold HasField
  constructor <;> rintro ⟨a, b, h⟩ <;> exact ⟨a, b, by simpa using h⟩

/-- **C16.** A single pattern accepted by the test of the code does give different names to different days. -/
theorem c16_accepted_single_partial {p : List Char} (h : dailyUnique [p] = true) {t t' : DateTime} (hv : t.date.Valid)
    (hv' : t'.date.Valid) (hy : t.date.year < 10000) (hy' : t'.date.year < 10000) (hne : t.date ≠ t'.date) :
    filename [p] t ≠ filename [p] t' := by
  unfold dailyUnique at h
  simp only [List.flatten_cons, List.flatten_nil, List.append_nil, Bool.and_eq_true, hasSub_field] at h
  exact c16_names_differ_partial (by simp) ⟨p, by simp, h.1.1⟩ ⟨p, by simp, h.1.2⟩ ⟨p, by simp, h.2⟩ hv hv' hy hy' hne

/-- A name depends only on the fields occurring in the pattern. -/
theorem expands_congr {t t' : DateTime} {p r : List Char} (h : Expands (fields t) p r)
    (hf : ∀ c, HasField c p → fields t c = fields t' c) : Expands (fields t') p r := by
  induction h with
  | nil => exact .nil
  | @field c v u r hc _ ih =>
    refine .field ((hf c ⟨[], u, rfl⟩).symm.trans hc) (ih fun c' ⟨a, b, e⟩ => hf c' ⟨'%' :: c :: a, b, by simp [e]⟩)
  | @copy x u r hx _ ih =>
    exact .copy (fun e c w hw => (fields_none t t' c).1 (hx e c w hw)) (ih fun c' ⟨a, b, e⟩ => hf c' ⟨x :: a, b, by simp [e]⟩)

/-- **C16.** Patterns refused by the test of the code do give two different days the same name: the test refuses nothing it
need not refuse. -/
theorem c16_refused {ps : List (List Char)} (h : dailyUnique ps = false) :
    ∃ t t' : DateTime, t.date.Valid ∧ t'.date.Valid ∧ t.date ≠ t'.date ∧ filename ps t = filename ps t' := by
  have key : ∀ c : Char, ∀ t t' : DateTime, (∀ c', c' ≠ c → fields t c' = fields t' c') → ¬ HasField c ps.flatten →
      filename ps t = filename ps t' := by
    intro c t t' hc hn
    unfold filename
    congr 1
    apply List.map_congr_left
    intro q hq
    refine expands_unique (expands_congr (c16_substitution q t) ?_) (c16_substitution q t')
    intro c' hc'
    apply hc
    rintro rfl
    obtain ⟨u, w, e⟩ := List.append_of_mem hq
    obtain ⟨a, b, hab⟩ := hc'
    exact hn ⟨u.flatten ++ a, b ++ w.flatten, by simp [e, hab]⟩
  have hcase : ¬ HasField 'Y' ps.flatten ∨ ¬ HasField 'm' ps.flatten ∨ ¬ HasField 'd' ps.flatten := by
    simp only [← hasSub_field]
    unfold dailyUnique at h
    cases h1 : hasSub ['%', 'Y'] ps.flatten <;> cases h2 : hasSub ['%', 'm'] ps.flatten <;>
      cases h3 : hasSub ['%', 'd'] ps.flatten <;> simp_all
  rcases hcase with h | h | h
  · refine ⟨⟨⟨2000, 1, 1⟩, 0, 0, 0⟩, ⟨⟨2001, 1, 1⟩, 0, 0, 0⟩, by decide, by decide, by decide, key 'Y' _ _ ?_ h⟩
    intro c hc; simp [fields, hc]
  · refine ⟨⟨⟨2000, 1, 1⟩, 0, 0, 0⟩, ⟨⟨2000, 2, 1⟩, 0, 0, 0⟩, by decide, by decide, by decide, key 'm' _ _ ?_ h⟩
    intro c hc; simp [fields, hc]
  · refine ⟨⟨⟨2000, 1, 1⟩, 0, 0, 0⟩, ⟨⟨2000, 1, 2⟩, 0, 0, 0⟩, by decide, by decide, by decide, key 'd' _ _ ?_ h⟩
    intro c hc; simp [fields, hc]

example : dailyUnique ["surface_%Y%m%d.nc".toList] = true := by decide
example : dailyUnique ["%Y".toList, "surface_%m.nc".toList] = false := by decide

/-- **C16, negative result.** Two pattern lists accepted as "uniquely defining the day" that give every day of a month
(every day at all) the same name: a field split over two patterns, and an absolute last pattern. -/
theorem c16_violated :
    (let ps := [['%', 'Y', '%', 'm', '%'], ['d']]
     dailyUnique ps = true ∧ ∀ t t' : DateTime, t.date.year = t'.date.year → t.date.month = t'.date.month →
        filename ps t = filename ps t') ∧
    (let ps := [['%', 'Y', '%', 'm', '%', 'd'], ['/', 'x']]
     dailyUnique ps = true ∧ ∀ t t' : DateTime, filename ps t = filename ps t') := by
  have build_eq : ∀ {p t r}, Expands (fields t) p r → buildFromPattern p t = r :=
    fun h => expands_unique (c16_substitution _ _) h
  refine ⟨⟨by decide, ?_⟩, by decide, ?_⟩
  · intro t t' hy hm
    have e1 : ∀ t, buildFromPattern ['%', 'Y', '%', 'm', '%'] t = pad 4 t.date.year ++ (pad 2 t.date.month ++ ['%']) := by
      intro t
      refine build_eq (.field rfl (.field rfl (.copy ?_ .nil)))
      intro _ c u h; cases h
    have e2 : ∀ t, buildFromPattern ['d'] t = ['d'] := fun t => build_eq (.copy (by simp) .nil)
    unfold filename
    simp only [List.map_cons, List.map_nil, e1, e2, hy, hm]
  · intro t t'
    have e2 : ∀ t, buildFromPattern ['/', 'x'] t = ['/', 'x'] := fun t => build_eq (.copy (by simp) (.copy (by simp) .nil))
    unfold filename joinAll
    simp only [List.map_cons, List.map_nil, List.foldl_cons, List.foldl_nil, e2]
    simp [join2]

example : HasField 'd' "surface_%Y%m%d.nc".toList := ⟨"surface_%Y%m".toList, ".nc".toList, by decide⟩
example : filename ["%Y".toList, "surface_%Y%m%d.nc".toList] ⟨⟨1984, 2, 29⟩, 0, 0, 0⟩ = .ok "1984/surface_19840229.nc".toList := by
  decide

end Verif.Eumopps.Names
