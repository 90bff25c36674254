import Verif.Model.Uncertainty
import Mathlib.Analysis.Calculus.Deriv.Inv
import Mathlib.Analysis.Calculus.Deriv.Mul
import Mathlib.Analysis.SpecialFunctions.Pow.Deriv

/-!
# Perturbation of spectroscopic parameters and propagation of uncertainty: C59, C60
-/

namespace Verif.Props

open Verif.Py Verif.Model Real

/-! ## C59 -/

/-- A value as a user sees it. -/
inductive Seen where
  | flt (x : ℝ)
  | int (n : ℤ)
  | arr (l : List ℝ)

/-- What a user sees in an attribute. -/
def seen (m : PMem) : PV → Option Seen
  | .flt x => some (.flt x)
  | .int n => some (.int n)
  | .arr a => (m.arrays[a]?).map .arr

/-- What a user sees under a name of a dictionary: value and uncertainty. -/
def look (m : PMem) (d : PDict) (name : String) : Option (Seen × Seen) :=
  (d.lookup name).bind fun oid => (m.objs[oid]?).bind fun o =>
    (seen m o.value).bind fun v => (seen m o.uncer).map fun u => (v, u)

/-- All references point to something. -/
structure Valid (m : PMem) (d : PDict) : Prop where
  ids : ∀ name oid, d.lookup name = some oid → oid < m.objs.length
  refs : ∀ o ∈ m.objs, ∀ a, (o.value = .arr a ∨ o.uncer = .arr a) → a < m.arrays.length

/-- The value of the perturbed parameter: old value plus or minus uncertainty, everywhere or (arrays with an array of
uncertainties of the same length) only at the index asked for, counted from the end if negative. -/
def Shifted (sgn : ℝ) (index : Option ℤ) : Seen → Seen → Seen → Prop
  | .flt x, .flt y, .flt z => z = x + sgn * y
  | .flt x, .int y, .flt z => z = x + sgn * y
  | .int x, .flt y, .flt z => z = x + sgn * y
  | .flt x, .arr u, .arr w => w.length = u.length ∧ ∀ k (hu : k < u.length) (hw : k < w.length), w[k] = x + sgn * u[k]
  | .arr v, .flt y, .arr w => w.length = v.length ∧ ∀ k (hv : k < v.length) (hw : k < w.length), w[k] = v[k] + sgn * y
  | .arr v, .arr u, .arr w => w.length = v.length ∧ (u.length = v.length →
      ∀ k (hv : k < v.length) (hu : k < u.length) (hw : k < w.length),
        (index = none ∨ index = some (k : ℤ) ∨ index = some ((k : ℤ) - v.length) → w[k] = v[k] + sgn * u[k]) ∧
        (¬ (index = none ∨ index = some (k : ℤ) ∨ index = some ((k : ℤ) - v.length)) → w[k] = v[k]))
  | _, _, _ => False

/-- No change made to `name2` in place can be seen under `name`: the two names have different objects and the value
array of `name2` is no array of `name`. -/
def Separate (m : PMem) (d : PDict) (name name2 : String) : Prop :=
  ∀ o1 o2 p1 p2, d.lookup name = some o1 → d.lookup name2 = some o2 → m.objs[o1]? = some p1 → m.objs[o2]? = some p2 →
    o1 ≠ o2 ∧ ∀ a, p2.value = .arr a → p1.value ≠ .arr a ∧ p1.uncer ≠ .arr a

theorem lookup_map_snd (d : PDict) (n : ℕ) (name : String) :
    (d.map fun e => (e.1, n + e.2)).lookup name = (d.lookup name).map (n + ·) := by
  induction d with
  | nil => rfl
  | cons e d ih =>
    obtain ⟨k, v⟩ := e
    simp only [List.map_cons, List.lookup_cons]
    by_cases h : name == k
    · simp [h]
    · simp only [h]
      exact ih

theorem pyIndex_spec {n : ℕ} {i : ℤ} {k : ℕ} (h : pyIndex n i = some k) : k < n ∧ (i = k ∨ i = (k : ℤ) - n) := by
  unfold pyIndex at h
  split_ifs at h with h1 h2
  · have := Option.some.inj h; omega
  · have := Option.some.inj h; omega

theorem addAt_spec {sgn : ℝ} {v u w : List ℝ} {index : Option ℤ} (h : addAt sgn v u index = .ok w) :
    Shifted sgn index (.arr v) (.arr u) (.arr w) := by
  unfold addAt at h
  cases index with
  | none =>
    simp only at h
    split_ifs at h with hl
    · have := Except.ok.inj h; subst this
      refine ⟨by simp [hl], fun _ k hv hu hw => ⟨fun _ => by simp, fun hc => absurd (.inl rfl) hc⟩⟩
    · split at h
      · have := Except.ok.inj h; subst this
        exact ⟨by simp, fun hc => absurd hc hl⟩
      · cases h
  | some i =>
    simp only at h
    split at h
    · rename_i iv iu e1 e2
      split at h
      · rename_i x y ex ey
        have := Except.ok.inj h; subst this
        refine ⟨by simp, fun hl k hv hu hw => ?_⟩
        rw [hl] at e2
        rw [e1] at e2
        cases e2
        obtain ⟨h1, h2⟩ := pyIndex_spec e1
        obtain ⟨_, rfl⟩ := List.getElem?_eq_some_iff.mp ex
        obtain ⟨_, rfl⟩ := List.getElem?_eq_some_iff.mp ey
        rw [List.getElem_set]
        constructor
        · intro hc
          have : iv = k := by
            rcases hc with hc | hc | hc
            · cases hc
            · have := Option.some.inj hc; omega
            · have := Option.some.inj hc; omega
          subst this
          simp
        · intro hc
          rw [if_neg]
          rintro rfl
          apply hc
          rcases h2 with h2 | h2
          · exact .inr (.inl (by rw [h2]))
          · exact .inr (.inr (by rw [h2]))
      · cases h
    · cases h

/-- The effect of one step on the memory. -/
theorem perturbObj_frame {sgn : ℝ} {index : Option ℤ} {m m' : PMem} {oid : ℕ}
    (h : perturbObj sgn index m oid = .ok m') :
    ∃ o v', m.objs[oid]? = some o ∧ m'.objs.length = m.objs.length ∧ m'.objs[oid]? = some ⟨v', o.uncer⟩ ∧
      (∀ o' ≠ oid, m'.objs[o']? = m.objs[o']?) ∧ m.arrays.length ≤ m'.arrays.length ∧
      (∀ a < m.arrays.length, o.value ≠ .arr a → m'.arrays[a]? = m.arrays[a]?) ∧
      (∀ a, v' = .arr a → a < m'.arrays.length ∧ (o.value = .arr a ∨ m.arrays.length ≤ a)) ∧
      ∀ x y, seen m o.value = some x → seen m o.uncer = some y →
        ∃ z, seen m' v' = some z ∧ Shifted sgn index x y z := by
  unfold perturbObj at h
  split at h
  · cases h
  · rename_i o ho
    have hlt := (List.getElem?_eq_some_iff.mp ho).1
    have hset : ∀ v', (m.objs.set oid ⟨v', o.uncer⟩)[oid]? = some ⟨v', o.uncer⟩ := fun v' => by
      rw [List.getElem?_set_self hlt]
    have hoth : ∀ v' : PV, ∀ o' ≠ oid, (m.objs.set oid ⟨v', o.uncer⟩)[o']? = m.objs[o']? := fun v' o' hne => by
      rw [List.getElem?_set_ne (Ne.symm hne)]
    refine ⟨o, ?_⟩
    obtain ⟨val, unc⟩ := o
    simp only at h hset hoth ⊢
    cases val with
    | flt x =>
      cases unc with
      | flt y =>
        obtain rfl := Except.ok.inj h
        exact ⟨_, ho, by simp, hset _, hoth _, le_rfl, fun a _ _ => rfl, (fun a h => by cases h),
          fun x' y' h1 h2 => by
            cases h1; cases h2; exact ⟨_, rfl, rfl⟩⟩
      | int y =>
        obtain rfl := Except.ok.inj h
        exact ⟨_, ho, by simp, hset _, hoth _, le_rfl, fun a _ _ => rfl, (fun a h => by cases h),
          fun x' y' h1 h2 => by
            cases h1; cases h2; exact ⟨_, rfl, rfl⟩⟩
      | arr b =>
        simp only at h
        split at h
        · cases h
        · rename_i u hu
          obtain rfl := Except.ok.inj h
          refine ⟨_, ho, by simp, hset _, hoth _, by simp, fun a ha _ => ?_, fun a h => ?_, fun x' y' h1 h2 => ?_⟩
          · rw [List.getElem?_append_left ha]
          · cases h; exact ⟨by simp, .inr le_rfl⟩
          · cases h1
            simp only [seen, hu, Option.map_some] at h2
            cases h2
            refine ⟨.arr (u.map fun y => x + sgn * y), by simp [seen], by simp, fun k h1 h2 => by simp⟩
    | int x =>
      cases unc with
      | flt y =>
        obtain rfl := Except.ok.inj h
        exact ⟨_, ho, by simp, hset _, hoth _, le_rfl, fun a _ _ => rfl, (fun a h => by cases h),
          fun x' y' h1 h2 => by
            cases h1; cases h2; exact ⟨_, rfl, rfl⟩⟩
      | int y => cases h
      | arr b => cases h
    | arr a =>
      cases unc with
      | flt y =>
        simp only at h
        split at h
        · cases h
        · rename_i v hv
          obtain rfl := Except.ok.inj h
          refine ⟨_, ho, by simp, hset _, hoth _, by simp, fun a ha _ => ?_, fun a h => ?_, fun x' y' h1 h2 => ?_⟩
          · rw [List.getElem?_append_left ha]
          · cases h; exact ⟨by simp, .inr le_rfl⟩
          · simp only [seen, hv, Option.map_some] at h1
            cases h1; cases h2
            refine ⟨.arr (v.map fun x => x + sgn * y), by simp [seen], by simp, fun k h1 h2 => by simp⟩
      | int y => cases h
      | arr b =>
        simp only at h
        split at h
        · rename_i v u hv hu
          split at h
          · rename_i w hw
            obtain rfl := Except.ok.inj h
            have ha := (List.getElem?_eq_some_iff.mp hv).1
            refine ⟨_, ho, rfl, ho, fun _ _ => rfl, by simp, fun a' _ hne => ?_, fun a' h => ?_, fun x' y' h1 h2 => ?_⟩
            · rw [List.getElem?_set_ne]
              rintro rfl
              exact hne rfl
            · cases h; exact ⟨by simpa using ha, .inl rfl⟩
            · simp only [seen, hv, Option.map_some] at h1
              simp only [seen, hu, Option.map_some] at h2
              cases h1; cases h2
              exact ⟨.arr w, by simp [seen, List.getElem?_set_self ha], addAt_spec hw⟩
          · cases h
        · cases h

/-- The part of the memory a run of the loop leaves alone: objects whose id is not named, and arrays that are the value
of no named object. -/
theorem loop_frame {d : PDict} {mode : PMode} {index : Option ℤ} {names : List String} {m : PMem} :
    let r := perturbLoop d mode index names m
    m.arrays.length ≤ r.2.arrays.length ∧ r.2.objs.length = m.objs.length ∧
    (∀ o, (∀ n ∈ names, d.lookup n ≠ some o) → r.2.objs[o]? = m.objs[o]?) ∧
    (∀ a < m.arrays.length, (∀ n ∈ names, ∀ o p, d.lookup n = some o → m.objs[o]? = some p → p.value ≠ .arr a) →
      r.2.arrays[a]? = m.arrays[a]?) ∧
    (∀ (o : ℕ) (p' : PObj), r.2.objs[o]? = some p' → ∃ p : PObj, m.objs[o]? = some p ∧ p'.uncer = p.uncer ∧
      ∀ a, p'.value = .arr a → p.value = .arr a ∨ (m.arrays.length ≤ a ∧ a < r.2.arrays.length)) := by
  induction names generalizing m with
  | nil => exact ⟨le_rfl, rfl, fun _ _ => rfl, fun _ _ _ => rfl, fun o p hp => ⟨p, hp, rfl, fun a ha => .inl ha⟩⟩
  | cons name names ih =>
    have step : ∀ (sgn : ℝ) (oid : ℕ) (m' : PMem), d.lookup name = some oid → perturbObj sgn index m oid = .ok m' →
        let r := perturbLoop d mode index names m'
        m.arrays.length ≤ r.2.arrays.length ∧ r.2.objs.length = m.objs.length ∧
        (∀ o, (∀ n ∈ name :: names, d.lookup n ≠ some o) → r.2.objs[o]? = m.objs[o]?) ∧
        (∀ a < m.arrays.length,
          (∀ n ∈ name :: names, ∀ o p, d.lookup n = some o → m.objs[o]? = some p → p.value ≠ .arr a) →
          r.2.arrays[a]? = m.arrays[a]?) ∧
        (∀ (o : ℕ) (p' : PObj), r.2.objs[o]? = some p' → ∃ p : PObj, m.objs[o]? = some p ∧ p'.uncer = p.uncer ∧
          ∀ a, p'.value = .arr a → p.value = .arr a ∨ (m.arrays.length ≤ a ∧ a < r.2.arrays.length)) := by
      intro sgn oid m' hl hm'
      obtain ⟨o, v', f1, f2, f3, f4, f5, f6, f7, _⟩ := perturbObj_frame hm'
      obtain ⟨i1, i2, i3, i4, i5⟩ := ih (m := m')
      refine ⟨f5.trans i1, i2.trans f2, fun o' ho' => ?_, fun a ha hna => ?_, fun o' p' hp' => ?_⟩
      · rw [i3 o' fun n hn => ho' n (by simp [hn])]
        apply f4
        rintro rfl
        exact ho' name (by simp) hl
      · rw [i4 a (ha.trans_le f5) fun n hn o' p hl' hp => ?_]
        · exact f6 a ha (hna name (by simp) oid o hl f1)
        · by_cases e : o' = oid
          · subst e
            rw [f3] at hp
            cases hp
            intro hv
            rcases (f7 a hv).2 with h | h
            · exact hna name (by simp) o' o hl f1 h
            · omega
          · rw [f4 o' e] at hp
            exact hna n (by simp [hn]) o' p hl' hp
      · obtain ⟨p, hp, hu, hv⟩ := i5 o' p' hp'
        by_cases e : o' = oid
        · subst e
          rw [f3] at hp
          cases hp
          refine ⟨o, f1, hu, fun a ha => ?_⟩
          rcases hv a ha with h | h
          · obtain ⟨h1, h2⟩ := f7 a h
            exact h2.imp_right fun h2 => ⟨h2, h1.trans_le i1⟩
          · exact .inr ⟨f5.trans h.1, h.2⟩
        · rw [f4 o' e] at hp
          exact ⟨p, hp, hu, fun a ha => (hv a ha).imp_right fun h => ⟨f5.trans h.1, h.2⟩⟩
    have triv : ∀ e : PyErr, let r : Except PyErr Unit × PMem := (.error e, m)
        m.arrays.length ≤ r.2.arrays.length ∧ r.2.objs.length = m.objs.length ∧
        (∀ o, (∀ n ∈ name :: names, d.lookup n ≠ some o) → r.2.objs[o]? = m.objs[o]?) ∧
        (∀ a < m.arrays.length,
          (∀ n ∈ name :: names, ∀ o p, d.lookup n = some o → m.objs[o]? = some p → p.value ≠ .arr a) →
          r.2.arrays[a]? = m.arrays[a]?) ∧
        (∀ (o : ℕ) (p' : PObj), r.2.objs[o]? = some p' → ∃ p : PObj, m.objs[o]? = some p ∧ p'.uncer = p.uncer ∧
          ∀ a, p'.value = .arr a → p.value = .arr a ∨ (m.arrays.length ≤ a ∧ a < r.2.arrays.length)) :=
      fun e => ⟨le_rfl, rfl, fun _ _ => rfl, fun _ _ _ => rfl, fun o p hp => ⟨p, hp, rfl, fun a ha => .inl ha⟩⟩
    simp only
    unfold perturbLoop
    split
    · exact triv _
    · rename_i oid hl
      cases mode with
      | max =>
        simp only
        split
        · rename_i m' hm'; exact step _ _ _ hl hm'
        · exact triv _
      | min =>
        simp only
        split
        · rename_i m' hm'; exact step _ _ _ hl hm'
        · exact triv _
      | non =>
        obtain ⟨i1, i2, i3, i4, i5⟩ := ih (m := m)
        exact ⟨i1, i2, fun o ho => i3 o fun n hn => ho n (by simp [hn]),
          fun a ha hna => i4 a ha fun n hn => hna n (by simp [hn]), i5⟩
      | ran => exact triv _
      | other => exact triv _

theorem copy_lookup (m : PMem) (d : PDict) (name : String) :
    (m.deepcopy d).2.lookup name = (d.lookup name).map (m.objs.length + ·) := lookup_map_snd _ _ _

theorem copy_obj (m : PMem) (d : PDict) (o : ℕ) : (m.deepcopy d).1.objs[m.objs.length + o]? =
    (m.objs[o]?).map fun p => ⟨p.value.shift m.arrays.length, p.uncer.shift m.arrays.length⟩ := by
  simp [PMem.deepcopy, List.getElem?_append_right]

theorem copy_obj_old (m : PMem) (d : PDict) {o : ℕ} (h : o < m.objs.length) :
    (m.deepcopy d).1.objs[o]? = m.objs[o]? := by
  simp [PMem.deepcopy, List.getElem?_append_left h]

theorem copy_array (m : PMem) (d : PDict) (a : ℕ) :
    (m.deepcopy d).1.arrays[m.arrays.length + a]? = m.arrays[a]? := by
  simp [PMem.deepcopy, List.getElem?_append_right]

theorem copy_array_old (m : PMem) (d : PDict) {a : ℕ} (h : a < m.arrays.length) :
    (m.deepcopy d).1.arrays[a]? = m.arrays[a]? := by
  simp [PMem.deepcopy, List.getElem?_append_left h]

theorem seen_shift (m : PMem) (d : PDict) (v : PV) :
    seen (m.deepcopy d).1 (v.shift m.arrays.length) = seen m v := by
  cases v with
  | flt x => rfl
  | int x => rfl
  | arr a => simp only [PV.shift, seen, copy_array]

theorem shift_arr {v : PV} {n b : ℕ} (h : v.shift n = .arr b) : ∃ a, v = .arr a ∧ b = n + a := by
  cases v with
  | flt x => cases h
  | int x => cases h
  | arr a => cases h; exact ⟨a, rfl, rfl⟩

theorem seen_of {m : PMem} {v : PV} (h : ∀ a, v = .arr a → a < m.arrays.length) : ∃ s, seen m v = some s := by
  cases v with
  | flt x => exact ⟨_, rfl⟩
  | int x => exact ⟨_, rfl⟩
  | arr a =>
    have := h a rfl
    exact ⟨.arr m.arrays[a], by simp [seen, List.getElem?_eq_getElem this]⟩

theorem seen_congr {m m' : PMem} {v : PV} (h : ∀ a, v = .arr a → m'.arrays[a]? = m.arrays[a]?) :
    seen m' v = seen m v := by
  cases v with
  | flt x => rfl
  | int x => rfl
  | arr a => simp only [seen, h a rfl]

/-- The names a call works on. -/
def workedOn (d : PDict) (what : List String) : List String := if what = [] then d.map Prod.fst else what

theorem perturbation_eq (m : PMem) (d : PDict) (what : List String) (mode : String) (index : Option ℤ) :
    (parametersPerturbation m (some d) what mode index).2 =
      (perturbLoop (m.deepcopy d).2 (PMode.ofString mode) index (workedOn d what) (m.deepcopy d).1).2 ∧
    (∀ d', (parametersPerturbation m (some d) what mode index).1 = .ok d' → d' = (m.deepcopy d).2 ∧
      (perturbLoop (m.deepcopy d).2 (PMode.ofString mode) index (workedOn d what) (m.deepcopy d).1).1 = .ok ()) := by
  have hn : (if what = [] then (m.deepcopy d).2.map Prod.fst else what) = workedOn d what := by
    unfold workedOn
    split_ifs
    · simp only [PMem.deepcopy, List.map_map]
      rfl
    · rfl
  unfold parametersPerturbation
  simp only [hn]
  split
  · rename_i m' h
    rw [h]
    exact ⟨rfl, fun d' hd => ⟨(Except.ok.inj hd).symm, rfl⟩⟩
  · rename_i e m' h
    rw [h]
    exact ⟨rfl, fun d' hd => by cases hd⟩

/-- The stored parameters are never changed, whether the call returns or raises: everything visible in the stored
dictionary is as before. -/
theorem C59_stored_unchanged {m : PMem} {d : PDict} (hv : Valid m d) (what : List String) (mode : String)
    (index : Option ℤ) (name : String) :
    look (parametersPerturbation m (some d) what mode index).2 d name = look m d name := by
  rw [(perturbation_eq m d what mode index).1]
  obtain ⟨_, _, f3, f4, _⟩ := loop_frame (d := (m.deepcopy d).2) (mode := PMode.ofString mode) (index := index)
    (names := workedOn d what) (m := (m.deepcopy d).1)
  unfold look
  cases hl : d.lookup name with
  | none => rfl
  | some o =>
    have ho := hv.ids name o hl
    simp only [Option.bind_some]
    have harr : ∀ a < m.arrays.length, (perturbLoop (m.deepcopy d).2 (PMode.ofString mode) index (workedOn d what)
        (m.deepcopy d).1).2.arrays[a]? = m.arrays[a]? := by
      intro a ha
      rw [f4 a (by simp [PMem.deepcopy]; omega) fun n _ o' p hl' hp => ?_, copy_array_old m d ha]
      rw [copy_lookup] at hl'
      obtain ⟨o2, _, rfl⟩ := Option.map_eq_some_iff.mp hl'
      rw [copy_obj] at hp
      obtain ⟨p2, _, rfl⟩ := Option.map_eq_some_iff.mp hp
      intro h
      obtain ⟨b, _, hb⟩ := shift_arr h
      omega
    rw [f3 o fun n _ hl' => ?_, copy_obj_old m d ho]
    · rw [List.getElem?_eq_getElem ho]
      simp only [Option.bind_some]
      have href := hv.refs m.objs[o] (List.getElem_mem ho)
      rw [seen_congr fun a ha => harr a (href a (.inl ha)), seen_congr fun a ha => harr a (href a (.inr ha))]
    · rw [copy_lookup] at hl'
      obtain ⟨o2, _, h2⟩ := Option.map_eq_some_iff.mp hl'
      omega

/-- Parameters that are not worked on and share nothing with a parameter that is, come out as they are stored. -/
theorem C59_others_kept {m : PMem} {d d' : PDict} (hv : Valid m d) {what : List String} {mode : String}
    {index : Option ℤ} (h : (parametersPerturbation m (some d) what mode index).1 = .ok d') {name : String}
    (hsep : ∀ n ∈ workedOn d what, Separate m d name n) :
    look (parametersPerturbation m (some d) what mode index).2 d' name = look m d name := by
  obtain ⟨e1, e2⟩ := perturbation_eq m d what mode index
  obtain ⟨rfl, _⟩ := e2 d' h
  rw [e1]
  obtain ⟨_, _, f3, f4, _⟩ := loop_frame (d := (m.deepcopy d).2) (mode := PMode.ofString mode) (index := index)
    (names := workedOn d what) (m := (m.deepcopy d).1)
  unfold look
  rw [copy_lookup]
  cases hl : d.lookup name with
  | none => rfl
  | some o =>
    have ho := hv.ids name o hl
    simp only [Option.map_some, Option.bind_some]
    have hp1 := List.getElem?_eq_getElem ho
    have href := hv.refs m.objs[o] (List.getElem_mem ho)
    rw [f3 _ fun n hn hl' => ?_, copy_obj, hp1]
    · simp only [Option.map_some, Option.bind_some]
      have harr : ∀ a, (m.objs[o].value = .arr a ∨ m.objs[o].uncer = .arr a) →
          (perturbLoop (m.deepcopy d).2 (PMode.ofString mode) index (workedOn d what)
            (m.deepcopy d).1).2.arrays[m.arrays.length + a]? = (m.deepcopy d).1.arrays[m.arrays.length + a]? := by
        intro a ha
        have hlt := href a ha
        refine f4 _ (by simp only [PMem.deepcopy, List.length_append]; omega) fun n hn o' p hl' hp hval => ?_
        rw [copy_lookup] at hl'
        obtain ⟨o2, ho2, rfl⟩ := Option.map_eq_some_iff.mp hl'
        rw [copy_obj] at hp
        obtain ⟨p2, hp2, rfl⟩ := Option.map_eq_some_iff.mp hp
        obtain ⟨b, hb, hb'⟩ := shift_arr hval
        obtain rfl : a = b := by omega
        have := (hsep n hn o o2 _ p2 hl ho2 hp1 hp2).2 a hb
        exact ha.elim this.1 this.2
      have hs : ∀ v, (v = m.objs[o].value ∨ v = m.objs[o].uncer) →
          seen (perturbLoop (m.deepcopy d).2 (PMode.ofString mode) index (workedOn d what)
            (m.deepcopy d).1).2 (v.shift m.arrays.length) = seen m v := by
        intro v hv'
        refine Eq.trans (seen_congr fun b hb => ?_) (seen_shift m d v)
        obtain ⟨a, ha, rfl⟩ := shift_arr hb
        exact harr a (hv'.imp (fun h => h.symm.trans ha) fun h => h.symm.trans ha)
      rw [hs _ (.inl rfl), hs _ (.inr rfl)]
    · rw [copy_lookup] at hl'
      obtain ⟨o2, ho2, h2⟩ := Option.map_eq_some_iff.mp hl'
      obtain rfl : o = o2 := by omega
      exact (hsep n hn o o _ _ hl ho2 hp1 hp1).1 rfl

theorem loop_append (d : PDict) (mode : PMode) (index : Option ℤ) (pre post : List String) (m : PMem) {r : PMem}
    (h : perturbLoop d mode index (pre ++ post) m = (.ok (), r)) :
    ∃ m1, perturbLoop d mode index pre m = (.ok (), m1) ∧ perturbLoop d mode index post m1 = (.ok (), r) := by
  induction pre generalizing m with
  | nil => exact ⟨m, rfl, h⟩
  | cons n pre ih =>
    rw [List.cons_append, perturbLoop] at h
    rw [perturbLoop]
    cases hl : d.lookup n with
    | none => rw [hl] at h; cases h
    | some o =>
      rw [hl] at h
      cases mode with
      | max =>
        simp only at h ⊢
        cases hp : perturbObj 1 index m o with
        | error e => rw [hp] at h; cases h
        | ok m' => rw [hp] at h; exact ih m' h
      | min =>
        simp only at h ⊢
        cases hp : perturbObj (-1) index m o with
        | error e => rw [hp] at h; cases h
        | ok m' => rw [hp] at h; exact ih m' h
      | non => exact ih m h
      | ran => cases h
      | other => cases h

/-- A parameter that is worked on once, and shares nothing with the others, comes out shifted by plus (`max`) or minus
(`min`) its uncertainty at the requested entries, with the uncertainty as stored. -/
theorem C59_shift {m : PMem} {d d' : PDict} (hv : Valid m d) {what : List String} {mode : String} {sgn : ℝ}
    (hmode : (mode = "max" ∧ sgn = 1) ∨ (mode = "min" ∧ sgn = -1)) {index : Option ℤ}
    (h : (parametersPerturbation m (some d) what mode index).1 = .ok d') {name : String} {pre post : List String}
    (hwhat : workedOn d what = pre ++ name :: post) (hsep : ∀ n ∈ pre ++ post, Separate m d name n)
    (hself : ∀ o p a, d.lookup name = some o → m.objs[o]? = some p → p.value = .arr a → p.uncer ≠ .arr a) :
    ∃ x y z, look m d name = some (x, y) ∧
      look (parametersPerturbation m (some d) what mode index).2 d' name = some (z, y) ∧ Shifted sgn index x y z := by
  obtain ⟨e1, e2⟩ := perturbation_eq m d what mode index
  obtain ⟨rfl, hok⟩ := e2 d' h
  rw [e1]
  set D := (m.deepcopy d).2 with hD
  set C := (m.deepcopy d).1 with hC
  set md := PMode.ofString mode with hmd
  rcases hrun : perturbLoop D md index (workedOn d what) C with ⟨res, R⟩
  rw [hrun] at hok
  simp only at hok
  subst hok
  rw [hwhat] at hrun
  obtain ⟨m1, r1, r2⟩ := loop_append _ _ _ _ _ _ hrun
  have hstep : ∃ o m2, D.lookup name = some o ∧ perturbObj sgn index m1 o = .ok m2 ∧
      perturbLoop D md index post m2 = (.ok (), R) := by
    rw [perturbLoop] at r2
    cases hl : D.lookup name with
    | none => rw [hl] at r2; cases r2
    | some o =>
      rw [hl] at r2
      rcases hmode with ⟨rfl, rfl⟩ | ⟨rfl, rfl⟩
      · rw [show md = .max from rfl] at r2 ⊢
        simp only at r2
        cases hp : perturbObj 1 index m1 o with
        | error e => rw [hp] at r2; cases r2
        | ok m' => rw [hp] at r2; exact ⟨o, m', rfl, hp, r2⟩
      · rw [show md = .min by simp [hmd, PMode.ofString]] at r2 ⊢
        simp only at r2
        cases hp : perturbObj (-1) index m1 o with
        | error e => rw [hp] at r2; cases r2
        | ok m' => rw [hp] at r2; exact ⟨o, m', rfl, hp, r2⟩
  obtain ⟨O, m2, hO, hp, r3⟩ := hstep
  have hO' := hO
  rw [hD, copy_lookup] at hO'
  obtain ⟨o, ho, rfl⟩ := Option.map_eq_some_iff.mp hO'
  have holt := hv.ids name o ho
  have hp1 := List.getElem?_eq_getElem holt
  set p1 := m.objs[o] with hp1d
  have href := hv.refs p1 (List.getElem_mem holt)
  obtain ⟨x, hx⟩ := seen_of (m := m) fun a ha => href a (.inl ha)
  obtain ⟨y, hy⟩ := seen_of (m := m) fun a ha => href a (.inr ha)
  -- the part before
  obtain ⟨f1, _, f3, f4, f5⟩ := loop_frame (d := D) (mode := md) (index := index) (names := pre) (m := C)
  rw [r1] at f1 f3 f4 f5
  simp only at f1 f3 f4 f5
  have hCobj : C.objs[m.objs.length + o]? =
      some ⟨p1.value.shift m.arrays.length, p1.uncer.shift m.arrays.length⟩ := by
    rw [hC, copy_obj, hp1]; rfl
  have hClen : C.arrays.length = m.arrays.length + m.arrays.length := by rw [hC]; simp [PMem.deepcopy]
  have hnamed : ∀ n ∈ pre ++ post, ∀ O' , D.lookup n = some O' → O' ≠ m.objs.length + o ∧
      ∀ p a, C.objs[O']? = some p → (p1.value = .arr a ∨ p1.uncer = .arr a) → p.value ≠ .arr (m.arrays.length + a) := by
    intro n hn O' hl'
    rw [hD, copy_lookup] at hl'
    obtain ⟨o2, ho2, rfl⟩ := Option.map_eq_some_iff.mp hl'
    constructor
    · intro hc
      obtain rfl : o = o2 := by omega
      exact (hsep n hn o o _ _ ho ho2 hp1 hp1).1 rfl
    · intro p a hp ha hval
      rw [hC, copy_obj] at hp
      obtain ⟨p2, hp2, rfl⟩ := Option.map_eq_some_iff.mp hp
      obtain ⟨b, hb, hb'⟩ := shift_arr hval
      obtain rfl : a = b := by omega
      have := (hsep n hn o o2 _ p2 ho ho2 hp1 hp2).2 a hb
      exact ha.elim this.1 this.2
  have hm1obj : m1.objs[m.objs.length + o]? =
      some ⟨p1.value.shift m.arrays.length, p1.uncer.shift m.arrays.length⟩ := by
    rw [f3 _ fun n hn hc => (hnamed n (by simp [hn]) _ hc).1 rfl, hCobj]
  have hm1arr : ∀ a, (p1.value = .arr a ∨ p1.uncer = .arr a) →
      m1.arrays[m.arrays.length + a]? = C.arrays[m.arrays.length + a]? := by
    intro a ha
    have := href a ha
    exact f4 _ (by omega) fun n hn O' p hl' hp => (hnamed n (by simp [hn]) O' hl').2 p a hp ha
  -- the step
  obtain ⟨q, v', g1, g2, g3, g4, g5, g6, g7, g8⟩ := perturbObj_frame hp
  rw [hm1obj] at g1
  cases g1
  simp only at g3 g6 g7 g8
  have hxs : seen m1 (p1.value.shift m.arrays.length) = some x := by
    rw [seen_congr (m := C), hC, seen_shift, hx]
    intro b hb
    obtain ⟨a, ha, rfl⟩ := shift_arr hb
    exact hm1arr a (.inl ha)
  have hys : seen m1 (p1.uncer.shift m.arrays.length) = some y := by
    rw [seen_congr (m := C), hC, seen_shift, hy]
    intro b hb
    obtain ⟨a, ha, rfl⟩ := shift_arr hb
    exact hm1arr a (.inr ha)
  obtain ⟨z, hz, hsh⟩ := g8 x y hxs hys
  have hys2 : seen m2 (p1.uncer.shift m.arrays.length) = some y := by
    rw [← hys]
    apply seen_congr
    intro b hb
    obtain ⟨a, ha, rfl⟩ := shift_arr hb
    have := href a (.inr ha)
    refine g6 _ (by omega) fun hc => ?_
    obtain ⟨a', ha', h'⟩ := shift_arr hc
    obtain rfl : a = a' := by omega
    exact hself o p1 a ho hp1 ha' ha
  -- the part after
  obtain ⟨k1, _, k3, k4, _⟩ := loop_frame (d := D) (mode := md) (index := index) (names := post) (m := m2)
  rw [r3] at k1 k3 k4
  simp only at k1 k3 k4
  have hRobj : R.objs[m.objs.length + o]? = some ⟨v', p1.uncer.shift m.arrays.length⟩ := by
    rw [k3 _ fun n hn hc => (hnamed n (by simp [hn]) _ hc).1 rfl, g3]
  have hm2named : ∀ n ∈ post, ∀ O' p b, D.lookup n = some O' → m2.objs[O']? = some p →
      (v' = .arr b ∨ p1.uncer.shift m.arrays.length = .arr b) → p.value ≠ .arr b := by
    intro n hn O' p b hl' hp' hb hval
    obtain ⟨n1, n2⟩ := hnamed n (by simp [hn]) O' hl'
    rw [g4 O' n1] at hp'
    obtain ⟨p0, hp0, _, hv0⟩ := f5 O' p hp'
    have hbC : ∀ a, (p1.value = .arr a ∨ p1.uncer = .arr a) → b = m.arrays.length + a → False := by
      intro a ha hba
      subst hba
      rcases hv0 _ hval with h | h
      · exact n2 p0 a hp0 ha h
      · have := href a ha; omega
    have hblt : b < m1.arrays.length := by
      rcases hv0 _ hval with h | h
      · rw [hD, copy_lookup] at hl'
        obtain ⟨o2, ho2, rfl⟩ := Option.map_eq_some_iff.mp hl'
        rw [hC, copy_obj] at hp0
        obtain ⟨p2, hp2, rfl⟩ := Option.map_eq_some_iff.mp hp0
        obtain ⟨a2, ha2, rfl⟩ := shift_arr h
        have := hv.refs p2 (List.mem_of_getElem? hp2) a2 (.inl ha2)
        omega
      · exact h.2
    rcases hb with hb | hb
    · rcases (g7 b hb).2 with h | h
      · obtain ⟨a, ha, rfl⟩ := shift_arr h
        exact hbC a (.inl ha) rfl
      · omega
    · obtain ⟨a, ha, rfl⟩ := shift_arr hb
      exact hbC a (.inr ha) rfl
  refine ⟨x, y, z, ?_, ?_, hsh⟩
  · simp only [look, ho, Option.bind_some, hp1, hx, hy, Option.map_some]
  · have hz' : seen R v' = some z := by
      rw [← hz]
      apply seen_congr
      intro b hb
      exact k4 b (g7 b hb).1 fun n hn O' p hl' hp' => hm2named n hn O' p b hl' hp' (.inl hb)
    have hy' : seen R (p1.uncer.shift m.arrays.length) = some y := by
      rw [← hys2]
      apply seen_congr
      intro b hb
      obtain ⟨a, ha, rfl⟩ := shift_arr hb
      have := href a (.inr ha)
      exact k4 _ (by omega) fun n hn O' p hl' hp' => hm2named n hn O' p _ hl' hp' (.inr hb)
    simp only [look, hO, Option.bind_some, hRobj, hz', hy', Option.map_some]

theorem loop_non (d : PDict) (index : Option ℤ) (names : List String) (m : PMem) :
    (perturbLoop d .non index names m).2 = m := by
  induction names with
  | nil => rfl
  | cons n names ih =>
    rw [perturbLoop]
    cases d.lookup n with
    | none => rfl
    | some o => exact ih

/-- The mode `non`, which is the default, returns a copy in which every parameter is as stored. -/
theorem C59_non (m : PMem) {d d' : PDict} {what : List String} {index : Option ℤ}
    (h : (parametersPerturbation m (some d) what "non" index).1 = .ok d') (name : String) :
    look (parametersPerturbation m (some d) what "non" index).2 d' name = look m d name := by
  obtain ⟨e1, e2⟩ := perturbation_eq m d what "non" index
  obtain ⟨rfl, _⟩ := e2 d' h
  rw [e1, show PMode.ofString "non" = .non by simp [PMode.ofString], loop_non]
  unfold look
  rw [copy_lookup]
  cases hl : d.lookup name with
  | none => rfl
  | some o =>
    simp only [Option.map_some, Option.bind_some, copy_obj]
    cases m.objs[o]? with
    | none => rfl
    | some p => simp only [Option.map_some, Option.bind_some, seen_shift]

/-- Errors: no stored parameters; an unknown name; a mode that is not one of the four; the mode is not looked at when
there is nothing to do. -/
theorem C59_errors (m : PMem) (d : PDict) (what : List String) (mode : String) (index : Option ℤ) :
    (parametersPerturbation m none what mode index).1 = .error .attributeError ∧
    (∀ n rest, what = n :: rest → d.lookup n = none →
      (parametersPerturbation m (some d) what mode index).1 = .error .keyError) ∧
    (∀ n rest o, what = n :: rest → d.lookup n = some o → mode ∉ ["max", "min", "non", "ran"] →
      (parametersPerturbation m (some d) what mode index).1 = .error .valueError) ∧
    (∃ d', (parametersPerturbation m (some []) [] mode index).1 = .ok d') := by
  refine ⟨rfl, fun n rest hw hl => ?_, fun n rest o hw hl hm => ?_, ⟨_, rfl⟩⟩
  · subst hw
    unfold parametersPerturbation
    simp only [reduceCtorEq, if_false]
    rw [perturbLoop, copy_lookup, hl]
    rfl
  · subst hw
    have : PMode.ofString mode = .other := by
      unfold PMode.ofString
      simp only [List.mem_cons, List.not_mem_nil, or_false, not_or] at hm
      simp [hm.1, hm.2.1, hm.2.2.1, hm.2.2.2]
    unfold parametersPerturbation
    simp only [reduceCtorEq, if_false]
    rw [perturbLoop, copy_lookup, hl, this]
    rfl

/-- Two parameters with a common array, as `oxygen_parameters` builds them for `O2gamma` and `O2gamma_NL`
(absmod_uncertainty.py:165-166). -/
noncomputable def sharedMem : PMem := ⟨[[1, 2], [0.5, 0.25]], [⟨.arr 0, .arr 1⟩, ⟨.arr 0, .flt 0⟩]⟩

def sharedDict : PDict := [("O2gamma", 0), ("O2gamma_NL", 1)]

/-- Perturbing one of two parameters that share an array perturbs the other one as well. -/
theorem C59_shared_refuted : ∃ d', (parametersPerturbation sharedMem (some sharedDict) ["O2gamma"] "max" none).1 = .ok d' ∧
    look sharedMem sharedDict "O2gamma_NL" = some (.arr [1, 2], .flt 0) ∧
    look (parametersPerturbation sharedMem (some sharedDict) ["O2gamma"] "max" none).2 d' "O2gamma_NL" =
      some (.arr [1 + 1 * 0.5, 2 + 1 * 0.25], .flt 0) :=
  ⟨_, rfl, rfl, rfl⟩

/-- A dictionary without sharing. -/
noncomputable def plainMem : PMem := ⟨[[1, 2], [0.5, 0.25]], [⟨.arr 0, .arr 1⟩, ⟨.flt 3, .flt 0.1⟩]⟩

def plainDict : PDict := [("S", 0), ("con_Xs", 1)]

theorem plain_valid : Valid plainMem plainDict := by
  constructor
  · intro name oid h
    obtain ⟨l1, l2, h1, _⟩ := List.lookup_eq_some_iff.mp h
    have : (name, oid) ∈ plainDict := by rw [h1]; simp
    simp [plainDict] at this
    rcases this with h | h <;> simp [plainMem, h.2]
  · intro o ho a ha
    simp [plainMem] at ho
    rcases ho with rfl | rfl
    · rcases ha with h | h <;> cases h <;> simp [plainMem]
    · rcases ha with h | h <;> cases h

theorem plain_separate : Separate plainMem plainDict "S" "con_Xs" ∧ Separate plainMem plainDict "con_Xs" "S" := by
  constructor
  · rintro o1 o2 p1 p2 h1 h2 h3 h4
    cases h1; cases h2; cases h3; cases h4
    exact ⟨by decide, fun a h => by cases h⟩
  · rintro o1 o2 p1 p2 h1 h2 h3 h4
    cases h1; cases h2; cases h3; cases h4
    exact ⟨by decide, fun a h => ⟨fun h => (by cases h), fun h => (by cases h)⟩⟩

example : ∃ z, look (parametersPerturbation plainMem (some plainDict) [] "min" (some 0)).2
    (plainMem.deepcopy plainDict).2 "S" = some (z, .arr [0.5, 0.25]) ∧
    Shifted (-1) (some 0) (.arr [1, 2]) (.arr [0.5, 0.25]) z := by
  obtain ⟨x, y, z, h1, h2, h3⟩ := C59_shift (what := []) (mode := "min") (sgn := -1) (index := some 0) (name := "S") (pre := []) (post := ["con_Xs"])
    (d' := (plainMem.deepcopy plainDict).2) plain_valid (.inr ⟨rfl, rfl⟩) rfl rfl
    (fun n hn => by simp at hn; subst hn; exact plain_separate.1)
    (fun o p a h1 h2 h3 h4 => by cases h1; cases h2; cases h3; cases h4)
  cases h1
  exact ⟨z, h2, h3⟩

example : look (parametersPerturbation plainMem (some plainDict) ["con_Xs"] "max" none).2
    (plainMem.deepcopy plainDict).2 "S" = some (.arr [1, 2], .arr [0.5, 0.25]) :=
  C59_others_kept plain_valid rfl fun n hn => by
    simp [workedOn] at hn; subst hn; exact plain_separate.1

/-! ### First order propagation of uncertainty (C60) -/

/-- The variance of `F(A, B)` to first order: `s` is the square root of
`F_A² σ_A² + F_B² σ_B² + 2 F_A F_B cov(A, B)`, with `F_A`, `F_B` the partial derivatives of `F` at `(A, B)`. -/
def FirstOrder (F : ℝ → ℝ → ℝ) (A B sA sB cov s : ℝ) : Prop :=
  ∃ fa fb, HasDerivAt (fun x => F x B) fa A ∧ HasDerivAt (fun y => F A y) fb B ∧
    0 ≤ s ∧ s ^ 2 = fa ^ 2 * sA ^ 2 + fb ^ 2 * sB ^ 2 + 2 * fa * fb * cov

theorem quad_nonneg {sA sB cov : ℝ} (hc : cov ^ 2 ≤ sA ^ 2 * sB ^ 2) (u v : ℝ) :
    0 ≤ u ^ 2 * sA ^ 2 + v ^ 2 * sB ^ 2 + 2 * u * v * cov := by
  have h1 : |cov| ≤ |sA * sB| := sq_le_sq.mp (by rwa [mul_pow])
  have h2 : |u * v * cov| ≤ |u * sA| * |v * sB| := by
    rw [abs_mul, ← abs_mul (u * sA)]
    calc |u * v| * |cov| ≤ |u * v| * |sA * sB| := mul_le_mul_of_nonneg_left h1 (abs_nonneg _)
      _ = _ := by rw [← abs_mul]; ring_nf
  have h3 := neg_abs_le (u * v * cov)
  nlinarith [sq_nonneg (|u * sA| - |v * sB|), sq_abs (u * sA), sq_abs (v * sB)]

/-- Scaled variables and linear combinations: the value is the function value and the uncertainty is the first order
one, for every covariance two variables with these uncertainties can have. -/
theorem C60_linear (A B a b : ℝ) {sA sB cov : ℝ} (hA : 0 ≤ sA) (hc : cov ^ 2 ≤ sA ^ 2 * sB ^ 2) :
    (∃ s, uncertaintyPropagation "aA" A B sA sB a b cov = .ok (some (a * A), some s) ∧
      FirstOrder (fun x _ => a * x) A B sA sB cov s) ∧
    (∃ s, uncertaintyPropagation "aA+bB" A B sA sB a b cov = .ok (some (a * A + b * B), some s) ∧
      FirstOrder (fun x y => a * x + b * y) A B sA sB cov s) ∧
    (∃ s, uncertaintyPropagation "aA-bB" A B sA sB a b cov = .ok (some (a * A - b * B), some s) ∧
      FirstOrder (fun x y => a * x - b * y) A B sA sB cov s) := by
  refine ⟨⟨_, rfl, a, 0, ?_, ?_, by positivity, ?_⟩, ⟨√(a ^ 2 * sA ^ 2 + b ^ 2 * sB ^ 2 + 2 * a * b * cov), ?_, a, b,
    ?_, ?_, Real.sqrt_nonneg _, ?_⟩, ⟨√(a ^ 2 * sA ^ 2 + b ^ 2 * sB ^ 2 - 2 * a * b * cov), ?_, a, -b, ?_, ?_,
    Real.sqrt_nonneg _, ?_⟩⟩
  · simpa using (hasDerivAt_id A).const_mul a
  · exact hasDerivAt_const _ _
  · rw [mul_pow, sq_abs]; ring
  · have := quad_nonneg hc a b
    simp [uncertaintyPropagation, npSqrt, this]
  · simpa using ((hasDerivAt_id A).const_mul a).add_const (b * B)
  · simpa using ((hasDerivAt_id B).const_mul b).const_add (a * A)
  · exact Real.sq_sqrt (quad_nonneg hc a b)
  · have := quad_nonneg hc a (-b)
    have h' : 0 ≤ a ^ 2 * sA ^ 2 + b ^ 2 * sB ^ 2 - 2 * a * b * cov := by linarith
    simp only [uncertaintyPropagation, npSqrt, String.reduceEq, if_false, if_true, h']
  · simpa using ((hasDerivAt_id A).const_mul a).sub_const (b * B)
  · simpa using ((hasDerivAt_id B).const_mul b).const_sub (a * A)
  · have := quad_nonneg hc a (-b)
    rw [Real.sq_sqrt (by linarith)]
    ring

/-- Products and quotients of nonzero variables. -/
theorem C60_product {A B : ℝ} (hA : A ≠ 0) (hB : B ≠ 0) (a b : ℝ) {sA sB cov : ℝ} (hc : cov ^ 2 ≤ sA ^ 2 * sB ^ 2) :
    (∃ s, uncertaintyPropagation "A*B" A B sA sB a b cov = .ok (some (A * B), some s) ∧
      FirstOrder (fun x y => x * y) A B sA sB cov s) ∧
    (∃ s, uncertaintyPropagation "A/B" A B sA sB a b cov = .ok (some (A / B), some s) ∧
      FirstOrder (fun x y => x / y) A B sA sB cov s) := by
  have hAB : A * B ≠ 0 := mul_ne_zero hA hB
  have n1 : 0 ≤ (sA / A) ^ 2 + (sB / B) ^ 2 + 2 * cov / (A * B) := by
    have := quad_nonneg hc (1 / A) (1 / B)
    have e : (sA / A) ^ 2 + (sB / B) ^ 2 + 2 * cov / (A * B) =
      (1 / A) ^ 2 * sA ^ 2 + (1 / B) ^ 2 * sB ^ 2 + 2 * (1 / A) * (1 / B) * cov := by field_simp
    rwa [e]
  have n2 : 0 ≤ (sA / A) ^ 2 + (sB / B) ^ 2 - 2 * cov / (A * B) := by
    have := quad_nonneg hc (1 / A) (-(1 / B))
    have e : (sA / A) ^ 2 + (sB / B) ^ 2 - 2 * cov / (A * B) =
      (1 / A) ^ 2 * sA ^ 2 + (-(1 / B)) ^ 2 * sB ^ 2 + 2 * (1 / A) * (-(1 / B)) * cov := by field_simp; ring
    rwa [e]
  refine ⟨⟨|A * B| * √((sA / A) ^ 2 + (sB / B) ^ 2 + 2 * cov / (A * B)), ?_, B, A, ?_, ?_, by positivity, ?_⟩,
    ⟨|A / B| * √((sA / A) ^ 2 + (sB / B) ^ 2 - 2 * cov / (A * B)), ?_, 1 / B, -A / B ^ 2, ?_, ?_, by positivity, ?_⟩⟩
  · simp only [uncertaintyPropagation, npDiv, npSqrt, String.reduceEq, if_false, if_true, hA, hB, hAB]
    simp only [Option.bind_eq_bind, Option.bind_some, n1, if_true]
    rfl
  · simpa using (hasDerivAt_id A).mul_const B
  · simpa using (hasDerivAt_id B).const_mul A
  · rw [mul_pow, sq_abs, Real.sq_sqrt n1]
    field_simp
  · simp only [uncertaintyPropagation, npDiv, npSqrt, String.reduceEq, if_false, if_true, hA, hB, hAB]
    simp only [Option.bind_eq_bind, Option.bind_some, n2, if_true]
    rfl
  · simpa using (hasDerivAt_id A).div_const B
  · have := (hasDerivAt_const B A).div (hasDerivAt_id B) hB
    have e : (0 * id B - A * 1) / id B ^ 2 = -A / B ^ 2 := by simp
    rw [e] at this
    exact this
  · rw [mul_pow, sq_abs, Real.sq_sqrt n2]
    field_simp
    ring

/-- Powers of a positive variable. -/
theorem C60_power {A : ℝ} (hA : 0 < A) (B a b : ℝ) {sA : ℝ} (sB cov : ℝ) (hs : 0 ≤ sA) :
    ∃ s, uncertaintyPropagation "A^a" A B sA sB a b cov = .ok (some (A ^ a), some s) ∧
      FirstOrder (fun x _ => x ^ a) A B sA sB cov s := by
  refine ⟨|a| * A ^ (a - 1) * sA, ?_, a * A ^ (a - 1), 0, Real.hasDerivAt_rpow_const (.inl hA.ne'),
    hasDerivAt_const _ _, by positivity, ?_⟩
  · simp [uncertaintyPropagation, npPow, hA]
  · rw [mul_pow, mul_pow, sq_abs]; ring

/-- Outside these ranges the result is not the first order uncertainty: a product with a zero factor has a finite first
order uncertainty but none is returned, and a power of a negative variable can come out with a negative "uncertainty". -/
theorem C60_refuted :
    (uncertaintyPropagation "A*B" 0 1 1 1 1 1 0 = .ok (some (0 * 1), none) ∧
      FirstOrder (fun x y => x * y) 0 1 1 1 0 1) ∧
    (∃ F, uncertaintyPropagation "A^a" (-1) 0 1 0 2 1 0 = .ok (F, some (-2))) := by
  refine ⟨⟨?_, 1, 0, ?_, ?_, by norm_num, by norm_num⟩, ?_⟩
  · simp [uncertaintyPropagation, npDiv]
  · simpa using (hasDerivAt_id (0 : ℝ)).mul_const 1
  · simpa using (hasDerivAt_id (1 : ℝ)).const_mul 0
  · have h : npPow (-1) (2 - 1) = some (-1) := by
      have he : ∃ n : ℤ, (2 - 1 : ℝ) = n := ⟨1, by norm_num⟩
      have hch : he.choose = 1 := by
        have := he.choose_spec
        have h1 : ((1 : ℤ) : ℝ) = he.choose := by rw [← this]; norm_num
        exact (Int.cast_injective h1).symm
      rw [npPow, if_neg (by norm_num), if_neg (by norm_num), dif_pos he, hch]
      norm_num
    refine ⟨npPow (-1) 2, ?_⟩
    simp only [uncertaintyPropagation, String.reduceEq, if_false, if_true, h, Option.map_some]
    norm_num

/-- Any other function name raises. -/
theorem C60_names (fn : String) (A B sA sB a b cov : ℝ) :
    (∃ r, uncertaintyPropagation fn A B sA sB a b cov = .ok r) ↔
      fn ∈ ["aA", "aA+bB", "aA-bB", "A*B", "A/B", "A^a"] := by
  unfold uncertaintyPropagation
  simp only [List.mem_cons, List.not_mem_nil, or_false]
  constructor
  · rintro ⟨r, hr⟩
    by_contra hc
    simp only [not_or] at hc
    simp [hc.1, hc.2.1, hc.2.2.1, hc.2.2.2.1, hc.2.2.2.2.1, hc.2.2.2.2.2] at hr
  · rintro (rfl | rfl | rfl | rfl | rfl | rfl) <;> simp

example : ∃ s, uncertaintyPropagation "A/B" 2 (-3) 0.5 0.25 1 1 (-0.125) = .ok (some (2 / -3), some s) ∧
    FirstOrder (fun x y => x / y) 2 (-3) 0.5 0.25 (-0.125) s :=
  (C60_product (by norm_num) (by norm_num) 1 1 (by norm_num)).2

example : ∃ s, uncertaintyPropagation "A^a" 2 0 0.5 0 (-1.5) 1 0 = .ok (some (2 ^ (-1.5 : ℝ)), some s) ∧
    FirstOrder (fun x _ => x ^ (-1.5 : ℝ)) 2 0 0.5 0 0 s :=
  C60_power (by norm_num) 0 (-1.5) 1 0 0 (by norm_num)

end Verif.Props
