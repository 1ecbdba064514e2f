import Verif.Eumopps.Persist.Json
import Verif.Eumopps.Names.Props
import Verif.Eumopps.Periods.Props
import Mathlib.Tactic.IntervalCases

/-! C20: loading a saved object gives it back, if attributes with false values are those its class sets by default. -/

namespace Verif.Eumopps.Persist

open Verif Verif.Py Verif.Calendar Verif.Eumopps.Names Verif.Eumopps.Time Verif.Eumopps.Periods

/-! ### Times -/

theorem number_append (s : List Char) (c : Char) : number (s ++ [c]) =
    (number s).bind fun n => if '0' ≤ c ∧ c ≤ '9' then some (10 * n + (c.toNat - 48)) else none := by
  unfold number
  rw [List.foldl_append]
  rfl

theorem digit_value (n : Nat) : ('0' ≤ digit n ∧ digit n ≤ '9') ∧ (digit n).toNat - 48 = n % 10 := by
  have h : n % 10 < 10 := Nat.mod_lt _ (by omega)
  unfold digit
  generalize n % 10 = k at *
  interval_cases k <;> decide

theorem number_pad : ∀ (k n : Nat), n < 10 ^ k → number (pad k n) = some n
  | 0, n, h => by
    have : n = 0 := by simpa using h
    subst this
    rfl
  | k + 1, n, h => by
    rw [pad, number_append, number_pad k (n / 10) (by rw [Nat.pow_succ] at h; omega), Option.bind_some]
    obtain ⟨h1, h2⟩ := digit_value n
    rw [if_pos h1, h2]
    congr 1
    omega

theorem slice_at (a s b : List Char) : slice (a ++ s ++ b) a.length (a.length + s.length) = s := by
  unfold slice
  rw [List.append_assoc, List.drop_left, show a.length + s.length - a.length = s.length by omega, List.take_left]

theorem arith_clock {r : Int} (h0 : 0 ≤ r) (h1 : r < 86400000000) (hm : r % 1000000 = 0) :
    (r / 3600000000).toNat < 24 ∧ (r % 3600000000 / 60000000).toNat < 60 ∧ (r % 60000000 / 1000000).toNat < 60 ∧
    (3600 * ((r / 3600000000).toNat : Int) + 60 * ((r % 3600000000 / 60000000).toNat : Int) + ((r % 60000000 / 1000000).toNat : Int)) * 1000000 = r := by
  have a : (0 : Int) ≤ r / 3600000000 := by omega
  have b : (0 : Int) ≤ r % 3600000000 / 60000000 := by omega
  have c : (0 : Int) ≤ r % 60000000 / 1000000 := by omega
  rw [Int.toNat_of_nonneg a, Int.toNat_of_nonneg b, Int.toNat_of_nonneg c]
  refine ⟨by omega, by omega, by omega, by omega⟩

/-- Times which survive: whole seconds, years 1 to 9999. -/
def TimeOk (t : Int) : Prop := 0 ≤ t ∧ t % secUs = 0 ∧ 1 ≤ (dateOf t).year ∧ (dateOf t).year < 10000

theorem parse_build {t : Int} (h : TimeOk t) : parseTime (buildTime t) = .ok t := by
  obtain ⟨h0, hw, hy1, hy2⟩ := h
  have hv := dateOf_valid t
  have hsu : (secUs : Int) = 1000000 := rfl
  have hdu : (dayUs : Int) = 86400000000 := rfl
  rw [hsu] at hw
  obtain ⟨c1, c2, c3, c4⟩ := arith_clock (r := t % 86400000000) (by omega) (by omega) (by omega)
  have e1 : (clock t).hour = (t % 86400000000 / 3600000000).toNat := rfl
  have e2 : (clock t).minute = (t % 86400000000 % 3600000000 / 60000000).toNat := by
    show (t % (3600 * secUs) / (60 * secUs)).toNat = _
    rw [hsu, show (3600 : Int) * 1000000 = 3600000000 by norm_num, show (60 : Int) * 1000000 = 60000000 by norm_num,
      Int.emod_emod_of_dvd _ (by norm_num : (3600000000 : Int) ∣ 86400000000)]
  have e3 : (clock t).second = (t % 86400000000 % 60000000 / 1000000).toNat := by
    show (t % (60 * secUs) / secUs).toNat = _
    rw [hsu, show (60 : Int) * 1000000 = 60000000 by norm_num, Int.emod_emod_of_dvd _ (by norm_num : (60000000 : Int) ∣ 86400000000)]
  rw [← e1] at c1 c4
  rw [← e2] at c2 c4
  rw [← e3] at c3 c4
  have ed : (clock t).date = dateOf t := rfl
  have hb := c16_build (clock t)
  rw [ed] at hb
  generalize (clock t).hour = H at *
  generalize (clock t).minute = M at *
  generalize (clock t).second = S at *
  have hmid : midnight (dateOf t) + t % 86400000000 = t := by
    unfold midnight dateOf
    rw [(ofNumber_spec _).2, hdu]
    omega
  generalize hD : dateOf t = D at *
  obtain ⟨v1, v2, v3, v4⟩ := hv
  have hmo : D.day < 10 ^ 2 := by
    have : daysInMonth D.year D.month ≤ 31 := by unfold daysInMonth; split <;> (try split) <;> omega
    omega
  have p4 := pad_length 4 D.year
  have q1 := pad_length 2 D.month
  have q2 := pad_length 2 D.day
  have q3 := pad_length 2 H
  have q4 := pad_length 2 M
  have q5 := pad_length 2 S
  have n4 := number_pad 4 D.year (by omega)
  have n1 := number_pad 2 D.month (by omega)
  have n2 := number_pad 2 D.day hmo
  have n3 := number_pad 2 H (by omega)
  have n5 := number_pad 2 M (by omega)
  have n6 := number_pad 2 S (by omega)
  unfold parseTime buildTime
  rw [String.toList_ofList, hb]
  generalize pad 4 D.year = a at *
  generalize pad 2 D.month = b at *
  generalize pad 2 D.day = c at *
  generalize pad 2 H = d at *
  generalize pad 2 M = e at *
  generalize pad 2 S = f at *
  have s1 : slice (a ++ b ++ c ++ d ++ e ++ f) 0 4 = a := by
    have := slice_at [] a (b ++ c ++ d ++ e ++ f)
    simpa [p4] using this
  have s2 : slice (a ++ b ++ c ++ d ++ e ++ f) 4 6 = b := by
    have := slice_at a b (c ++ d ++ e ++ f)
    simpa [p4, q1] using this
  have s3 : slice (a ++ b ++ c ++ d ++ e ++ f) 6 8 = c := by
    have := slice_at (a ++ b) c (d ++ e ++ f)
    simpa [p4, q1, q2] using this
  have s4 : slice (a ++ b ++ c ++ d ++ e ++ f) 8 10 = d := by
    have := slice_at (a ++ b ++ c) d (e ++ f)
    simpa [p4, q1, q2, q3] using this
  have s5 : slice (a ++ b ++ c ++ d ++ e ++ f) 10 12 = e := by
    have := slice_at (a ++ b ++ c ++ d) e f
    simpa [p4, q1, q2, q3, q4] using this
  have s6 : slice (a ++ b ++ c ++ d ++ e ++ f) 12 14 = f := by
    have := slice_at (a ++ b ++ c ++ d ++ e) f []
    simpa [p4, q1, q2, q3, q4, q5] using this
  rw [if_neg (by simp [p4, q1, q2, q3, q4, q5]), s1, s2, s3, s4, s5, s6, n4, n1, n2, n3, n5, n6]
  have hc : 1 ≤ D.year ∧ 1 ≤ D.month ∧ D.month ≤ 12 ∧ 1 ≤ D.day ∧ D.day ≤ daysInMonth D.year D.month ∧ H < 24 ∧ M < 60 ∧ S < 60 :=
    ⟨hy1, v1, v2, v3, v4, c1, c2, c3⟩
  simp only [hc, and_self, if_true]
  rw [hsu, c4]
  exact congrArg _ hmid

/-! ### Objects -/

/-- Attributes of an instance which its class gives back: each false value is what the class makes of the default of the parameter. -/
def Defaults (ps : List Param) (f : List (String × Value)) : Prop :=
  List.Forall₂ (fun p kv => p.name = kv.1 ∧ p.settle kv.2 = kv.2 ∧
    (truthy kv.2 = false → ∃ d, p.default = some d ∧ p.settle d = kv.2)) ps f

/-- Values which JSON files keep. -/
inductive JsonOk (C : Classes) : Value → Prop
  | none : JsonOk C .none
  | str (s) : JsonOk C (.scalar (.str s))
  | int (n) : JsonOk C (.scalar (.int n))
  | float (b) : JsonOk C (.scalar (.float b))
  | time {t} : TimeOk t → JsonOk C (.scalar (.time t))
  | list {l} : (∀ v ∈ l, JsonOk C v) → JsonOk C (.list l)
  | dict {f} : (∀ kv ∈ f, kv.1 ≠ classId) → (∀ kv ∈ f, JsonOk C kv.2) → JsonOk C (.obj none f)
  | inst {c f ps} : c ≠ "datetime.datetime" → C c = some ps → (ps.map (·.name)).Nodup → classId ∉ ps.map (·.name) → Defaults ps f →
      (∀ kv ∈ f, JsonOk C kv.2) → JsonOk C (.obj (some c) f)

theorem load_list {C : Classes} : ∀ {l : List Value}, (∀ v ∈ l, loadObject C v = .ok v) → loadList C l = .ok l
  | [], _ => rfl
  | v :: l, h => by
    rw [loadList, h v (by simp)]
    simp only
    rw [load_list fun w hw => h w (by simp [hw])]

theorem load_fields {C : Classes} : ∀ {f : List (String × Value)}, (∀ kv ∈ f, loadObject C kv.2 = .ok kv.2) → loadFields C f = .ok f
  | [], _ => rfl
  | (k, v) :: f, h => by
    rw [loadFields, h (k, v) (by simp)]
    simp only
    rw [load_fields fun w hw => h w (by simp [hw])]

/-- Loading leaves alone what is loaded already. -/
theorem load_ok {C : Classes} {v : Value} (h : JsonOk C v) : loadObject C v = .ok v := by
  induction h with
  | none => rfl
  | str s => rfl
  | int n => rfl
  | float b => rfl
  | time h => rfl
  | @list l _ ih => rw [loadObject, load_list ih]
  | @dict f hk _ _ =>
    rw [loadObject, dictGet_eq_none hk]
  | inst => rfl

theorem decode_list {C : Classes} : ∀ {l : List Value}, (∀ v ∈ l, decode C (encode v) = .ok v) → decodeList C (encodeList l) = .ok l
  | [], _ => rfl
  | v :: l, h => by
    rw [encodeList, decodeList, h v (by simp)]
    simp only
    rw [decode_list fun w hw => h w (by simp [hw])]

theorem decode_fields {C : Classes} : ∀ {f : List (String × Value)}, (∀ kv ∈ f, decode C (encode kv.2) = .ok kv.2) →
    decodeFields C (encodeFields f) = .ok f
  | [], _ => rfl
  | (k, v) :: f, h => by
    rw [encodeFields, decodeFields, h (k, v) (by simp)]
    simp only
    rw [decode_fields fun w hw => h w (by simp [hw])]

theorem decode_append {C : Classes} {a b : List (String × Json)} {x y : List (String × Value)} (hb : decodeFields C b = .ok y) :
    decodeFields C a = .ok x → decodeFields C (a ++ b) = .ok (x ++ y) := by
  induction a generalizing x with
  | nil => intro h; cases h; exact hb
  | cons kv a ih =>
    obtain ⟨k, j⟩ := kv
    intro h
    rw [decodeFields] at h
    rw [List.cons_append, decodeFields]
    cases hj : decode C j with
    | error e => rw [hj] at h; cases h
    | ok v =>
      rw [hj] at h
      simp only at h ⊢
      cases ha : decodeFields C a with
      | error e => rw [ha] at h; cases h
      | ok x' =>
        rw [ha] at h
        cases h
        rw [ih ha]
        rfl

theorem decode_kept {C : Classes} : ∀ {f : List (String × Value)}, (∀ kv ∈ f, truthy kv.2 = true → decode C (encode kv.2) = .ok kv.2) →
    decodeFields C (encodeKept f) = .ok (f.filter fun kv => truthy kv.2)
  | [], _ => rfl
  | (k, v) :: f, h => by
    rw [encodeKept]
    have ih := decode_kept (f := f) fun w hw => h w (by simp [hw])
    by_cases ht : truthy v = true
    · rw [if_pos ht, decodeFields, h (k, v) (by simp) ht]
      simp only
      rw [ih, List.filter_cons_of_pos (by simpa using ht)]
    · rw [if_neg ht, ih, List.filter_cons_of_neg (by simpa using ht)]

/-- Reading back an instance: its class is called with the attributes which are true. -/
theorem instance_load {C : Classes} {c : String} {f : List (String × Value)} (hc : c ≠ "datetime.datetime") (hk : ∀ kv ∈ f, kv.1 ≠ classId)
    (hd : ∀ kv ∈ f, truthy kv.2 = true → decode C (encode kv.2) = .ok kv.2 ∧ loadObject C kv.2 = .ok kv.2) :
    decode C (encode (.obj (some c) f)) = make C c (f.filter fun kv => truthy kv.2) := by
  have h1 := decode_append (b := [(classId, .str c)]) (y := [(classId, .scalar (.str c))]) rfl
    (decode_kept (f := f) fun kv h ht => (hd kv h ht).1)
  rw [encode, decode, h1]
  simp only
  rw [loadObject, dictGet_append_single, if_pos rfl]
  simp only
  have h2 : loadFields C ((f.filter fun kv => truthy kv.2) ++ [(classId, .scalar (.str c))]) =
      .ok ((f.filter fun kv => truthy kv.2) ++ [(classId, .scalar (.str c))]) := by
    apply load_fields
    intro kv hkv
    rcases List.mem_append.1 hkv with h | h
    · obtain ⟨ha, hb⟩ := List.mem_filter.1 h
      exact (hd kv ha hb).2
    · rw [List.mem_singleton] at h
      subst h
      rfl
  rw [if_neg hc, h2]
  simp only
  congr 1
  rw [List.filter_append, List.filter_eq_self.2, show List.filter (fun kv : String × Value => decide (kv.1 ≠ classId))
    [(classId, .scalar (.str c))] = [] by simp, List.append_nil]
  intro kv hkv
  simpa using hk kv (List.mem_filter.1 hkv).1

/-- What a class makes of the true attributes of an instance with suitable defaults is the instance. -/
theorem make_kept {C : Classes} {c : String} {f : List (String × Value)} {ps : List Param} (hc : C c = some ps) (hn : (ps.map (·.name)).Nodup)
    (hd : Defaults ps f) : make C c (f.filter fun kv => truthy kv.2) = .ok (.obj (some c) f) := by
  have hkeys : f.map (·.1) = ps.map (·.name) := by
    clear hc hn
    unfold Defaults at hd
    induction hd with
    | nil => rfl
    | cons h _ ih => rw [List.map_cons, List.map_cons, ih, h.1]
  have hnf : (f.map (·.1)).Nodup := hkeys ▸ hn
  have hnk : ((f.filter fun kv => truthy kv.2).map (·.1)).Nodup := hnf.sublist (List.Sublist.map _ List.filter_sublist)
  unfold make
  rw [hc]
  simp only
  rw [if_neg ?_]
  · have : ps.mapM (argument (f.filter fun kv => truthy kv.2)) = .ok f := by
      -- each parameter gives its attribute
      have hall : List.Forall₂ (fun p kv => argument (f.filter fun kv => truthy kv.2) p = .ok kv) ps f := by
        have : ∀ (ps' : List Param) (f' : List (String × Value)), (∀ kv ∈ f', kv ∈ f) → Defaults ps' f' →
            List.Forall₂ (fun p kv => argument (f.filter fun kv => truthy kv.2) p = .ok kv) ps' f' := by
          intro ps' f' hsub hd'
          unfold Defaults at hd'
          induction hd' with
          | nil => exact .nil
          | @cons p kv ps' f' h _ ih =>
            refine .cons ?_ (ih fun x hx => hsub x (by simp [hx]))
            obtain ⟨h1, h2, h3⟩ := h
            have hmem := hsub kv (by simp)
            unfold argument
            by_cases ht : truthy kv.2 = true
            · rw [dictGet_eq_some hnk (k := p.name) (v := kv.2) (by
                rw [h1]; exact List.mem_filter.2 ⟨hmem, ht⟩)]
              simp only
              rw [h2, h1]
            · rw [dictGet_eq_none (k := p.name) (fun e he hname => ?_)]
              · obtain ⟨d, hd1, hd2⟩ := h3 (by simpa using ht)
                simp only [hd1]
                rw [hd2, h1]
              · obtain ⟨ha, hb⟩ := List.mem_filter.1 he
                have : e = kv := by
                  rw [h1] at hname
                  exact List.inj_on_of_nodup_map hnf ha hmem hname
                subst this
                exact ht hb
        exact this ps f (fun _ h => h) hd
      clear hkeys hnf hnk hn hc hd
      generalize (f.filter fun kv => truthy kv.2) = g at hall
      induction hall with
      | nil => rfl
      | cons h _ ih => rw [List.mapM_cons, h, ih]; rfl
    rw [this]
  · intro h
    rw [List.any_eq_true] at h
    obtain ⟨kv, h1, h2⟩ := h
    have : kv.1 ∈ ps.map (·.name) := by
      rw [← hkeys]
      exact List.mem_map_of_mem (List.mem_filter.1 h1).1
    simp at h2
    simp at this
    obtain ⟨p, hp, hpn⟩ := this
    exact h2 p hp hpn

/-- **C20, partial.** Values of any depth are given back by loading, if instances have false values only where their class sets them by
default, times are whole seconds of the years 1 to 9999, and no dictionary has a key `python_class`.  Missing from the full claim: see
`c20_zero_violated`, `c20_required_violated` and `c20_microseconds_violated`. -/
theorem c20_round_trip_partial {C : Classes} {v : Value} (h : JsonOk C v) : decode C (encode v) = .ok v := by
  induction h with
  | none => rfl
  | str s => rfl
  | int n => rfl
  | float b => rfl
  | @time t h =>
    rw [encode, decode]
    have e : decodeFields C [(classId, .str "datetime.datetime"), (timeKey, .str (buildTime t))] =
        .ok [(classId, .scalar (.str "datetime.datetime")), (timeKey, .scalar (.str (buildTime t)))] := rfl
    rw [e]
    simp only
    rw [loadObject]
    have e1 : dictGet [(classId, Value.scalar (.str "datetime.datetime")), (timeKey, .scalar (.str (buildTime t)))] classId =
        some (.scalar (.str "datetime.datetime")) := rfl
    have e2 : dictGet [(classId, Value.scalar (.str "datetime.datetime")), (timeKey, .scalar (.str (buildTime t)))] timeKey =
        some (.scalar (.str (buildTime t))) := rfl
    rw [e1, e2]
    simp only [if_true]
    rw [parse_build h]
  | @list l _ ih => rw [encode, decode, decode_list ih]
  | @dict f hk hg ih =>
    rw [encode, decode, decode_fields ih]
    exact load_ok (.dict hk hg)
  | @inst c f ps h1 h2 h3 h4 h5 h6 ih =>
    have hk : ∀ kv ∈ f, kv.1 ≠ classId := by
      intro kv hkv hc
      have hkeys : f.map (·.1) = ps.map (·.name) := by
        clear h1 h2 h3 h4 h6 ih hkv
        unfold Defaults at h5
        induction h5 with
        | nil => rfl
        | cons h _ ih => rw [List.map_cons, List.map_cons, ih, h.1]
      exact h4 (hkeys ▸ hc ▸ List.mem_map_of_mem hkv)
    rw [instance_load h1 hk fun kv h _ => ⟨ih kv h, load_ok (h6 kv h)⟩]
    exact make_kept h2 h3 h5

/-- **C20.** For an instance of any class, whatever its attributes: the loaded object is what the class makes of the attributes which are not
false (each of which is kept). -/
theorem c20_attributes {C : Classes} {c : String} {f : List (String × Value)} (hc : c ≠ "datetime.datetime") (hk : ∀ kv ∈ f, kv.1 ≠ classId)
    (hd : ∀ kv ∈ f, truthy kv.2 = true → JsonOk C kv.2) :
    decode C (encode (.obj (some c) f)) = make C c (f.filter fun kv => truthy kv.2) :=
  instance_load hc hk fun kv h ht => ⟨c20_round_trip_partial (hd kv h ht), load_ok (hd kv h ht)⟩

/-- The values which Python takes as false. -/
inductive IsFalse : Value → Prop
  | none : IsFalse .none
  | text : IsFalse (.scalar (.str ""))
  | zero : IsFalse (.scalar (.int 0))
  | float : IsFalse (.scalar (.float 0))
  | negative : IsFalse (.scalar (.float 0x8000000000000000))
  | list : IsFalse (.list [])
  | dict : IsFalse (.obj none [])

/-- **C20.** Exactly the values None, "", 0, 0.0, -0.0, [] and {} are not written: any other attribute is. -/
theorem c20_not_written (k : String) (v : Value) (f : List (String × Value)) :
    (IsFalse v → encodeKept ((k, v) :: f) = encodeKept f) ∧ (¬ IsFalse v → encodeKept ((k, v) :: f) = (k, encode v) :: encodeKept f) := by
  rw [encodeKept]
  constructor
  · intro h
    rw [if_neg]
    cases h <;> decide
  · intro h
    rw [if_pos]
    cases v with
    | none => exact absurd .none h
    | scalar s =>
      cases s with
      | str s =>
        simp only [truthy, bne_iff_ne]
        intro e; subst e; exact h .text
      | int n =>
        simp only [truthy, bne_iff_ne]
        intro e; subst e; exact h .zero
      | float b =>
        simp only [truthy, Bool.and_eq_true, bne_iff_ne]
        exact ⟨fun e => h (e ▸ .float), fun e => h (e ▸ .negative)⟩
      | time t => rfl
    | list l =>
      cases l with
      | nil => exact absurd .list h
      | cons a l => rfl
    | obj c f =>
      cases c with
      | some c => rfl
      | none =>
        cases f with
        | nil => exact absurd .dict h
        | cons a l => rfl

example : ¬ IsFalse (.scalar (.int (-1))) := by intro h; cases h

/-- A file entry. -/
def entry (name time tags checksum size : Value) : Value :=
  .obj (some "eumopps.catalogue.dataset.CatalogueFileEntry") [("name", name), ("time", time), ("tags", tags), ("checksum", checksum), ("size", size)]

/-- **C20, negative result.** The size of an empty file is not kept: 0 is loaded as None.  Likewise an empty list of tags. -/
theorem c20_zero_violated (name : String) (hn : name ≠ "") :
    decode catalogueClasses (encode (entry (.scalar (.str name)) .none (.list []) .none (.scalar (.int 0)))) =
      .ok (entry (.scalar (.str name)) .none .none .none .none) := by
  unfold entry
  rw [c20_attributes (by decide) (by simp [classId]) (by
    intro kv h ht
    simp only [List.mem_cons, List.not_mem_nil, or_false] at h
    rcases h with rfl | rfl | rfl | rfl | rfl
    · exact .str _
    all_goals (exfalso; revert ht; decide))]
  have hf : (List.filter (fun kv : String × Value => truthy kv.2)
      [("name", .scalar (.str name)), ("time", .none), ("tags", .list []), ("checksum", .none), ("size", .scalar (.int 0))]) =
      [("name", .scalar (.str name))] := by
    simp [truthy, hn]
  rw [hf]
  rfl

/-- **C20, negative result.** An instance whose class needs an argument which is false can be saved but not loaded. -/
theorem c20_required_violated :
    decode catalogueClasses (encode (.obj (some "eumopps.catalogue.storage.DataStorageFiles") [("patterns", .list [])])) = .error .typeError := by
  rfl

/-- **C20, negative result.** Microseconds are lost: two different times are saved alike. -/
theorem c20_microseconds_violated (C : Classes) {t : Int} (h : TimeOk t) :
    decode C (encode (.scalar (.time (t + 1)))) = .ok (.scalar (.time t)) := by
  have hb : buildTime (t + 1) = buildTime t := by
    unfold buildTime clock
    obtain ⟨h0, hw, _⟩ := h
    have hsu : (secUs : Int) = 1000000 := rfl
    have hdu : (dayUs : Int) = 86400000000 := rfl
    rw [hsu] at hw
    have hdate : dateOf (t + 1) = dateOf t := by
      unfold dateOf
      rw [hdu, show (t + 1) / 86400000000 = t / 86400000000 by omega]
    rw [hdate, hdu, hsu, show (t + 1) % 86400000000 / (3600 * 1000000) = t % 86400000000 / (3600 * 1000000) by omega,
      show (t + 1) % (3600 * 1000000) / (60 * 1000000) = t % (3600 * 1000000) / (60 * 1000000) by omega,
      show (t + 1) % (60 * 1000000) / 1000000 = t % (60 * 1000000) / 1000000 by omega]
  have := c20_round_trip_partial (C := C) (.time h)
  rw [encode] at this ⊢
  rw [hb]
  exact this

/-! ### A case which meets the hypotheses -/

theorem timeOk_year (y : Nat) (h1 : 1 ≤ y) (h2 : y < 10000) : TimeOk (yearStart y) := by
  refine ⟨yearStart_nonneg y, ?_, by rw [year_yearStart]; exact h1, by rw [year_yearStart]; exact h2⟩
  unfold yearStart midnight
  have hsu : (secUs : Int) = 1000000 := rfl
  have hdu : (dayUs : Int) = 86400000000 := rfl
  rw [hsu, hdu]
  generalize Date.number _ = n
  omega

/-- A data set with one subset, one file, and no other files. -/
def exampleSet : Value :=
  .obj (some "eumopps.catalogue.dataset.CatalogueDataSet") [("name", .scalar (.str "surface")), ("path", .scalar (.str "/data")), ("toolchain", .none),
    ("subsets", .list [.obj (some "eumopps.catalogue.dataset.CatalogueDataSubset")
      [("layout", .obj (some "eumopps.catalogue.storage.DataStorageFiles") [("patterns", .list [.scalar (.str "%Y%m%d.nc")])]),
       ("matches", .list [entry (.scalar (.str "20000101.nc")) (.scalar (.time (yearStart 2000))) .none (.scalar (.str "1234")) (.scalar (.int 17))]),
       ("value_errors", .list []), ("archive_unused", .list [])]]),
    ("non_matching", .none)]

example : decode catalogueClasses (encode exampleSet) = .ok exampleSet := by
  apply c20_round_trip_partial
  have ht := timeOk_year 2000 (by norm_num) (by norm_num)
  have hnil : ∀ kv ∈ ([] : List (String × Value)), JsonOk catalogueClasses kv.2 := by simp
  have hnil' : ∀ v ∈ ([] : List Value), JsonOk catalogueClasses v := by simp
  refine .inst (ps := _) (by decide) rfl (by decide) (by decide) ?_ ?_
  · refine .cons ?_ (.cons ?_ (.cons ?_ (.cons ?_ (.cons ?_ .nil)))) <;> exact ⟨rfl, rfl, fun _ => ⟨.none, by first | exact ⟨rfl, rfl⟩ | (exfalso; revert ‹_›; decide)⟩⟩
  refine List.forall_mem_cons.2 ⟨.str _, List.forall_mem_cons.2 ⟨.str _, List.forall_mem_cons.2 ⟨.none, List.forall_mem_cons.2 ⟨.list ?_,
    List.forall_mem_cons.2 ⟨.none, hnil⟩⟩⟩⟩⟩
  refine List.forall_mem_cons.2 ⟨.inst (ps := _) (by decide) rfl (by decide) (by decide) ?_ ?_, hnil'⟩
  · refine .cons ?_ (.cons ?_ (.cons ?_ (.cons ?_ .nil))) <;> exact ⟨rfl, rfl, fun _ => ⟨.none, by first | exact ⟨rfl, rfl⟩ | (exfalso; revert ‹_›; decide)⟩⟩
  refine List.forall_mem_cons.2 ⟨.inst (ps := _) (by decide) rfl (by decide) (by decide) ?_ ?_, List.forall_mem_cons.2 ⟨.list ?_,
    List.forall_mem_cons.2 ⟨.list hnil', List.forall_mem_cons.2 ⟨.list hnil', hnil⟩⟩⟩⟩
  · refine .cons ?_ .nil
    exact ⟨rfl, rfl, fun h => by exfalso; revert h; decide⟩
  · exact List.forall_mem_cons.2 ⟨.list (List.forall_mem_cons.2 ⟨.str _, hnil'⟩), hnil⟩
  · refine List.forall_mem_cons.2 ⟨.inst (ps := _) (by decide) rfl (by decide) (by decide) ?_ ?_, hnil'⟩
    · refine .cons ?_ (.cons ?_ (.cons ?_ (.cons ?_ (.cons ?_ .nil)))) <;> exact ⟨rfl, rfl, fun _ => ⟨.none, by first | exact ⟨rfl, rfl⟩ | (exfalso; revert ‹_›; decide)⟩⟩
    · exact List.forall_mem_cons.2 ⟨.str _, List.forall_mem_cons.2 ⟨.time ht, List.forall_mem_cons.2 ⟨.none, List.forall_mem_cons.2 ⟨.str _,
        List.forall_mem_cons.2 ⟨.int _, hnil⟩⟩⟩⟩⟩

end Verif.Eumopps.Persist
