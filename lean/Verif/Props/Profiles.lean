import Verif.Model.Profiles
import Verif.Props.Construct
import Verif.Props.EndToEnd

/-!
# Built-in atmospheres (C71)
-/

namespace Verif.Props

open Verif.Model Verif.Py Verif.Lemmas Verif.Spec

/-- Entry `k` of a column as a fraction. -/
def Col.rat (c : Col) (k : ℕ) : ℚ := (c.digits.getD k 0 : ℤ) / 10 ^ c.scale

theorem Col.val_eq (c : Col) (k : ℕ) : c.val k = ((Col.rat c k : ℚ) : ℝ) := by
  unfold Col.val Col.rat
  push_cast
  rfl

/-- C71: `gl_atm` works for exactly the six identifiers that `atm_profiles` lists, and raises `UnboundLocalError` for any
other integer. -/
theorem C71_identifiers (atm : ℤ) :
    ((∃ A, glAtm atm = .ok A) ↔ ∃ n, (atm, n) ∈ atmNames) ∧
    ((∀ n, (atm, n) ∉ atmNames) → glAtm atm = .error .unboundLocalError) := by
  by_cases h : 0 ≤ atm ∧ atm ≤ 5
  · obtain ⟨h0, h5⟩ := h
    have hn : ∃ n, (atm, n) ∈ atmNames := by
      interval_cases atm
      exacts [⟨"Tropical", by decide⟩, ⟨"Midlatitude Summer", by decide⟩, ⟨"Midlatitude Winter", by decide⟩,
        ⟨"Subarctic Summer", by decide⟩, ⟨"Subarctic Winter", by decide⟩, ⟨"US Standard", by decide⟩]
    have hA : ∃ A, glAtm atm = .ok A := by interval_cases atm <;> exact ⟨_, rfl⟩
    exact ⟨iff_of_true hA hn, fun h => absurd hn.choose_spec (h _)⟩
  · have he : glAtm atm = .error .unboundLocalError := by
      unfold glAtm atmFile
      simp only
      rw [if_neg (by omega), if_neg (by omega), if_neg (by omega), if_neg (by omega), if_neg (by omega), if_neg (by omega)]
      rfl
    have hn : ∀ n, (atm, n) ∉ atmNames := by
      intro n hn
      simp only [atmNames, List.mem_cons, Prod.mk.injEq, List.not_mem_nil, or_false] at hn
      omega
    refine ⟨iff_of_false ?_ ?_, fun _ => he⟩
    · rintro ⟨A, hA⟩
      rw [he] at hA
      cases hA
    · rintro ⟨n, h⟩
      exact hn n h

example : (∃ A, glAtm 5 = .ok A) ∧ glAtm 6 = .error .unboundLocalError :=
  ⟨(C71_identifiers 5).1.2 ⟨"US Standard", by decide⟩, (C71_identifiers 6).2 (by simp [atmNames])⟩

/-- The documentation of `gl_atm` numbers the atmospheres from 1 (tropical) to 6 (U.S. standard). -/
def documentedOptions : List (ℤ × String) := [(1, "Tropical"), (2, "Midlatitude Summer"), (3, "Midlatitude Winter"),
  (4, "Subarctic Summer"), (5, "Subarctic Winter"), (6, "US Standard")]

/-- C71: with the documented numbers every atmosphere is another one than documented, and the last does not exist. -/
theorem C71_documented_refuted : ∀ o ∈ documentedOptions, o ∉ atmNames ∧
    (o.1 ≠ 6 → ∃ n, (o.1, n) ∈ atmNames ∧ n ≠ o.2) ∧ (o.1 = 6 → glAtm o.1 = .error .unboundLocalError) := by
  intro o ho
  simp only [documentedOptions, List.mem_cons, List.not_mem_nil, or_false] at ho
  rcases ho with rfl | rfl | rfl | rfl | rfl | rfl
  · exact ⟨by decide, fun _ => ⟨"Midlatitude Summer", by decide, by decide⟩, fun h => absurd h (by decide)⟩
  · exact ⟨by decide, fun _ => ⟨"Midlatitude Winter", by decide, by decide⟩, fun h => absurd h (by decide)⟩
  · exact ⟨by decide, fun _ => ⟨"Subarctic Summer", by decide, by decide⟩, fun h => absurd h (by decide)⟩
  · exact ⟨by decide, fun _ => ⟨"Subarctic Winter", by decide, by decide⟩, fun h => absurd h (by decide)⟩
  · exact ⟨by decide, fun _ => ⟨"US Standard", by decide, by decide⟩, fun h => absurd h (by decide)⟩
  · exact ⟨by decide, fun h => absurd rfl h, fun _ => rfl⟩

/-- The six atmospheres. -/
def atmospheres : List (ℤ × Atmosphere) := [0, 1, 2, 3, 4, 5].filterMap fun i : ℤ => match glAtm i with
  | .ok A => some (i, A)
  | .error _ => none

theorem atmospheres_of_ok {atm : ℤ} {A : Atmosphere} (h : glAtm atm = .ok A) : (atm, A) ∈ atmospheres := by
  obtain ⟨n, hn⟩ := (C71_identifiers atm).1.1 ⟨A, h⟩
  simp only [atmNames, List.mem_cons, Prod.mk.injEq, List.not_mem_nil, or_false] at hn
  refine List.mem_filterMap.2 ⟨atm, ?_, by rw [h]⟩
  rcases hn with ⟨rfl, -⟩ | ⟨rfl, -⟩ | ⟨rfl, -⟩ | ⟨rfl, -⟩ | ⟨rfl, -⟩ | ⟨rfl, -⟩ <;> decide

set_option maxRecDepth 100000 in
theorem atmospheres_shape : ∀ x ∈ atmospheres, x.2.a.digits.length = 50 ∧ x.2.p.digits.length = 50 ∧
    x.2.d.digits.length = 50 ∧ x.2.t.digits.length = 50 ∧ x.2.md.length = 7 ∧ ∀ c ∈ x.2.md, c.digits.length = 50 := by
  decide +kernel

set_option maxRecDepth 100000 in
theorem atmospheres_levels : ∀ x ∈ atmospheres, (∀ i < 49, Col.rat x.2.a i < Col.rat x.2.a (i + 1) ∧
    Col.rat x.2.p (i + 1) < Col.rat x.2.p i ∧ Col.rat x.2.d (i + 1) < Col.rat x.2.d i) := by
  decide +kernel

set_option maxRecDepth 100000 in
theorem atmospheres_ranges : ∀ x ∈ atmospheres, ∀ i < 50,
    (0 < Col.rat x.2.p i ∧ 0 < Col.rat x.2.d i) ∧ (161 ≤ Col.rat x.2.t i ∧ Col.rat x.2.t i ≤ 380) ∧
    ∀ c ∈ x.2.md, 0 < Col.rat c i ∧ Col.rat c i ≤ 209000 := by
  decide +kernel

/-- Altitudes of the AFGL profiles in km: every kilometre up to 25, then every 2.5 km up to 50, then every 5 km. -/
def afglAltitude (k : ℕ) : ℚ := if k ≤ 25 then k else if k ≤ 35 then 25 + 5 / 2 * (k - 25) else 50 + 5 * (k - 35)

set_option maxRecDepth 100000 in
theorem atmospheres_heights : ∀ x ∈ atmospheres, ∀ i < 50, Col.rat x.2.a i = afglAltitude i := by
  decide +kernel

/-- `n k T / p` with the density in cm⁻³ and the pressure in mbar. -/
def gasLaw (d t p : ℚ) : ℚ := d * 1000000 * (1380649 / 10 ^ 29) * t / (p * 100)

set_option maxRecDepth 100000 in
theorem atmospheres_gas : ∀ x ∈ atmospheres, ∀ i < 50, |gasLaw (Col.rat x.2.d i) (Col.rat x.2.t i) (Col.rat x.2.p i) - 1| ≤
    (if x.1 = 0 ∧ i = 49 then 15 / 1000 else 12 / 10000) := by
  decide +kernel

/-- C71: each built-in atmosphere has 50 levels at the AFGL altitudes 0 to 120 km; pressure and density are positive and
fall from level to level; the temperature lies between 161 and 380 K, the seven gases between 0 (exclusive) and 209000
ppmv.  Density, temperature and pressure obey the gas law within 0.12 per cent, except at 120 km in the tropical
atmosphere (1.5 per cent). -/
theorem C71_physical {atm : ℤ} {A : Atmosphere} (h : glAtm atm = .ok A) :
    (A.a.digits.length = 50 ∧ A.p.digits.length = 50 ∧ A.d.digits.length = 50 ∧ A.t.digits.length = 50 ∧
      A.md.length = 7 ∧ ∀ c ∈ A.md, c.digits.length = 50) ∧
    (∀ i < 50, A.a.val i = (afglAltitude i : ℝ)) ∧
    (∀ i j, i < j → j < 50 → A.a.val i < A.a.val j ∧ A.p.val j < A.p.val i ∧ A.d.val j < A.d.val i) ∧
    (∀ i < 50, 0 < A.p.val i ∧ 0 < A.d.val i ∧ 161 ≤ A.t.val i ∧ A.t.val i ≤ 380 ∧
      ∀ c ∈ A.md, 0 < c.val i ∧ c.val i ≤ 209000) ∧
    (∀ i < 50, |A.d.val i * 1e6 * 1.380649e-23 * A.t.val i / (A.p.val i * 100) - 1| ≤
      if atm = 0 ∧ i = 49 then 0.015 else 0.0012) := by
  have hx := atmospheres_of_ok h
  refine ⟨atmospheres_shape _ hx, fun i hi => ?_, fun i j hij hj => ?_, fun i hi => ?_, fun i hi => ?_⟩
  · rw [Col.val_eq, atmospheres_heights _ hx i hi]
  · have key : ∀ n, i + 1 + n < 50 → Col.rat A.a i < Col.rat A.a (i + 1 + n) ∧ Col.rat A.p (i + 1 + n) < Col.rat A.p i ∧
        Col.rat A.d (i + 1 + n) < Col.rat A.d i := by
      intro n
      induction n with
      | zero => exact fun hn => atmospheres_levels _ hx i (by omega)
      | succ n ih =>
        intro hn
        obtain ⟨h1, h2, h3⟩ := ih (by omega)
        obtain ⟨g1, g2, g3⟩ := atmospheres_levels _ hx (i + 1 + n) (by omega)
        exact ⟨h1.trans g1, g2.trans h2, g3.trans h3⟩
    obtain ⟨n, rfl⟩ : ∃ n, j = i + 1 + n := ⟨j - (i + 1), by omega⟩
    obtain ⟨h1, h2, h3⟩ := key n hj
    simp only [Col.val_eq]
    exact ⟨by exact_mod_cast h1, by exact_mod_cast h2, by exact_mod_cast h3⟩
  · obtain ⟨⟨h1, h2⟩, ⟨h3, h4⟩, h5⟩ := atmospheres_ranges _ hx i hi
    simp only [Col.val_eq]
    refine ⟨by exact_mod_cast h1, by exact_mod_cast h2, by exact_mod_cast h3, by exact_mod_cast h4, fun c hc => ?_⟩
    exact_mod_cast h5 c hc
  · have hg := atmospheres_gas _ hx i hi
    simp only [Col.val_eq]
    have hr : (Col.rat A.d i : ℝ) * 1e6 * 1.380649e-23 * (Col.rat A.t i : ℝ) / ((Col.rat A.p i : ℝ) * 100) =
        ((gasLaw (Col.rat A.d i) (Col.rat A.t i) (Col.rat A.p i) : ℚ) : ℝ) := by
      unfold gasLaw
      push_cast
      norm_num
    rw [hr]
    simp only at hg
    split_ifs at hg ⊢
    · have : ((|gasLaw (Col.rat A.d i) (Col.rat A.t i) (Col.rat A.p i) - 1| : ℚ) : ℝ) ≤ ((15 / 1000 : ℚ) : ℝ) :=
        by exact_mod_cast hg
      push_cast at this
      norm_num at this ⊢
      exact this
    · have : ((|gasLaw (Col.rat A.d i) (Col.rat A.t i) (Col.rat A.p i) - 1| : ℚ) : ℝ) ≤ ((12 / 10000 : ℚ) : ℝ) :=
        by exact_mod_cast hg
      push_cast at this
      norm_num at this ⊢
      exact this

example : ∃ A, glAtm 0 = .ok A ∧ A.a.val 49 = 120 := by
  obtain ⟨A, hA⟩ := (C71_identifiers 0).1.2 ⟨"Tropical", by decide⟩
  refine ⟨A, hA, ?_⟩
  rw [(C71_physical hA).2.1 49 (by norm_num)]
  norm_num [afglAltitude]

/-- Pressure (mbar), temperature (K), density (cm⁻³) and mixing ratios (ppmv) at the ground in the six
atmospheres, recorded by name from the shipped tables. -/
def groundAir : List (String × List ℚ × List (String × ℚ)) := [
  ("Tropical", [1013, 299.7, 2.45e19],
    [("H2O", 2.593e4), ("CO2", 330), ("O3", 0.02869), ("N2O", 0.32), ("CO", 0.15), ("CH4", 1.7), ("O2", 2.09e5)]),
  ("Midlatitude Summer", [1013, 294.2, 2.496e19],
    [("H2O", 1.876e4), ("CO2", 330), ("O3", 0.03017), ("N2O", 0.32), ("CO", 0.15), ("CH4", 1.7), ("O2", 2.09e5)]),
  ("Midlatitude Winter", [1018, 272.2, 2.711e19],
    [("H2O", 4.316e3), ("CO2", 330), ("O3", 0.02778), ("N2O", 0.32), ("CO", 0.15), ("CH4", 1.7), ("O2", 2.09e5)]),
  ("Subarctic Summer", [1010, 287.2, 2.549e19],
    [("H2O", 1.194e4), ("CO2", 330), ("O3", 0.02412), ("N2O", 0.31), ("CO", 0.15), ("CH4", 1.7), ("O2", 2.09e5)]),
  ("Subarctic Winter", [1013, 257.2, 2.855e19],
    [("H2O", 1.405e3), ("CO2", 330), ("O3", 0.01802), ("N2O", 0.32), ("CO", 0.15), ("CH4", 1.7), ("O2", 2.09e5)]),
  ("US Standard", [1013, 288.2, 2.548e19],
    [("H2O", 7.745e3), ("CO2", 330), ("O3", 0.0266), ("N2O", 0.32), ("CO", 0.15), ("CH4", 1.7), ("O2", 2.09e5)])]

set_option maxRecDepth 100000 in
theorem atmospheres_ground : ∀ x ∈ atmospheres, ∀ n, (x.1, n) ∈ atmNames → ∀ v, groundAir.lookup n = some v →
    [x.2.p, x.2.t, x.2.d].map (Col.rat · 0) = v.1 ∧ ∀ g ∈ gasNames, ∀ y, v.2.lookup g.2 = some y →
      (x.2.md[g.1.toNat]?).map (Col.rat · 0) = some y := by
  have : ∀ x ∈ atmospheres, ∀ m ∈ atmNames, m.1 = x.1 → (groundAir.lookup m.2).all fun v =>
    decide ([x.2.p, x.2.t, x.2.d].map (Col.rat · 0) = v.1) && gasNames.all fun g => (v.2.lookup g.2).all fun y =>
      decide ((x.2.md[g.1.toNat]?).map (Col.rat · 0) = some y) := by decide +kernel
  intro x hx n hn v hv
  have h := this x hx _ hn rfl
  simp only [hv, Option.all_some, Bool.and_eq_true, decide_eq_true_eq, List.all_eq_true] at h
  exact ⟨h.1, fun g hg y hy => by have := h.2 g hg; rw [hy] at this; simpa using this⟩

/-- C71: the atmosphere returned for an identifier is the one of that name: its ground values are the recorded ones, and
the column of the matrix of gases for the identifier of a gas is that gas. -/
theorem C71_ground {atm : ℤ} {A : Atmosphere} (h : glAtm atm = .ok A) {n : String} (hn : (atm, n) ∈ atmNames) :
    ∃ p t d gases, groundAir.lookup n = some ([p, t, d], gases) ∧ A.p.val 0 = p ∧ A.t.val 0 = t ∧ A.d.val 0 = d ∧
      gases.length = 7 ∧
      ∀ g ∈ gasNames, ∀ y, gases.lookup g.2 = some y → ∃ c, A.md[g.1.toNat]? = some c ∧ c.val 0 = y := by
  obtain ⟨p, t, d, gs, hv, hl⟩ : ∃ p t d gs, groundAir.lookup n = some ([p, t, d], gs) ∧ gs.length = 7 := by
    simp only [atmNames, List.mem_cons, Prod.mk.injEq, List.not_mem_nil, or_false] at hn
    rcases hn with ⟨-, rfl⟩ | ⟨-, rfl⟩ | ⟨-, rfl⟩ | ⟨-, rfl⟩ | ⟨-, rfl⟩ | ⟨-, rfl⟩ <;> exact ⟨_, _, _, _, rfl, rfl⟩
  obtain ⟨h1, h2⟩ := atmospheres_ground _ (atmospheres_of_ok h) n hn _ hv
  simp only [List.map_cons, List.map_nil, List.cons.injEq, and_true] at h1
  refine ⟨p, t, d, gs, hv, by rw [Col.val_eq, h1.1], by rw [Col.val_eq, h1.2.1], by rw [Col.val_eq, h1.2.2], hl,
    fun g hg y hy => ?_⟩
  obtain ⟨c, hc, hc'⟩ := Option.map_eq_some_iff.1 (h2 g hg y hy)
  exact ⟨c, hc, by rw [Col.val_eq, hc']⟩

example {A : Atmosphere} (h : glAtm 4 = .ok A) : A.t.val 0 = 257.2 := by
  obtain ⟨p, t, d, gs, hv, -, ht, -⟩ := C71_ground h (n := "Subarctic Winter") (by decide)
  cases hv
  rw [ht]
  norm_num

/-- Mixing ratio (ppmv) at the ground of each gas, recorded by name from the shipped tables. -/
def surfacePpmv : List (String × ℚ) := [("NO", 3e-4), ("SO2", 3e-4), ("NO2", 2.3e-5), ("NH3", 5e-4), ("HNO3", 5e-5),
  ("OH", 4.4e-8), ("HF", 1e-8), ("HCL", 1e-3), ("HBR", 1.7e-6), ("HI", 3e-6), ("CLO", 1e-8), ("OCS", 6e-4),
  ("H2CO", 2.4e-3), ("HOCL", 7.7e-6), ("N2", 7.81e5), ("HCN", 1.7e-4), ("CH3CL", 7e-4), ("H2O2", 2e-4), ("C2H2", 3e-4),
  ("C2H6", 2e-3), ("PH3", 1e-14), ("COF2", 5e-6), ("SF6", 1.42e-6), ("H2S", 1e-4), ("CCL3F", 1.4e-4),
  ("CCL2F2", 2.4e-4), ("CCLF3", 5e-6), ("CF4", 5.78e-5), ("CHCl2F", 1.6e-6), ("CHCLF2", 6e-5), ("C2CL3F3", 1.9e-5),
  ("C2CL2F4", 1.2e-5), ("C2CLF5", 4e-6), ("CCL4", 1.3e-4), ("CLONO2", 4.737e-6), ("N2O5", 1.312e-10),
  ("HNO4", 8.851e-7)]

/-- Outcome of a lookup as data: length, smallness and first value of the column. -/
def goodGas (r : Except PyErr Col) (x : ℚ) : Bool := match r with
  | .ok c => c.digits.length == 50 && Col.rat c 0 == x && c.digits.all (0 < ·)
  | .error _ => false

set_option maxRecDepth 100000 in
theorem gases_table : ∀ g ∈ gasNames,
    (7 ≤ g.1 ∧ g.1 ≤ 27 → ∃ x, surfacePpmv.lookup g.2 = some x ∧ goodGas (glAtmMinor g.1) x = true) ∧
    (28 ≤ g.1 ∧ g.1 ≤ 43 → ∃ x, surfacePpmv.lookup g.2 = some x ∧ goodGas (glAtmTrace g.1) x = true) := by
  have : ∀ g ∈ gasNames, (7 ≤ g.1 ∧ g.1 ≤ 27 → (surfacePpmv.lookup g.2).any (goodGas (glAtmMinor g.1)) = true) ∧
    (28 ≤ g.1 ∧ g.1 ≤ 43 → (surfacePpmv.lookup g.2).any (goodGas (glAtmTrace g.1)) = true) := by decide +kernel
  intro g hg
  obtain ⟨h1, h2⟩ := this g hg
  exact ⟨fun h => by simpa [Option.any_eq_true] using h1 h, fun h => by simpa [Option.any_eq_true] using h2 h⟩

theorem goodGas_iff {r : Except PyErr Col} {x : ℚ} (h : goodGas r x = true) :
    ∃ c, r = .ok c ∧ c.digits.length = 50 ∧ c.val 0 = x ∧ ∀ i < 50, 0 < c.val i := by
  cases r with
  | error _ => simp [goodGas] at h
  | ok c =>
    simp only [goodGas, Bool.and_eq_true, beq_iff_eq, List.all_eq_true, decide_eq_true_eq] at h
    obtain ⟨⟨h1, h2⟩, h3⟩ := h
    refine ⟨c, rfl, h1, by rw [Col.val_eq, h2], fun i hi => ?_⟩
    unfold Col.val
    have hm : c.digits.getD i 0 ∈ c.digits := by
      rw [List.getD_eq_getElem?_getD, List.getElem?_eq_getElem (by omega), Option.getD_some]
      exact List.getElem_mem _
    have : (0 : ℝ) < (c.digits.getD i 0 : ℤ) := by exact_mod_cast h3 _ hm
    positivity

/-- C71: for the identifier of each minor gas `gl_atm_minor`, and of each trace gas `gl_atm_trace`, returns 50 positive
values that start with that gas's recorded value at the ground. -/
theorem C71_gases : ∀ g ∈ gasNames,
    (7 ≤ g.1 ∧ g.1 ≤ 27 → ∃ x c, surfacePpmv.lookup g.2 = some x ∧ glAtmMinor g.1 = .ok c ∧ c.digits.length = 50 ∧
      c.val 0 = x ∧ ∀ i < 50, 0 < c.val i) ∧
    (28 ≤ g.1 ∧ g.1 ≤ 43 → ∃ x c, surfacePpmv.lookup g.2 = some x ∧ glAtmTrace g.1 = .ok c ∧ c.digits.length = 50 ∧
      c.val 0 = x ∧ ∀ i < 50, 0 < c.val i) := by
  intro g hg
  obtain ⟨h1, h2⟩ := gases_table g hg
  refine ⟨fun h => ?_, fun h => ?_⟩
  · obtain ⟨x, hx, hq⟩ := h1 h
    obtain ⟨c, hc⟩ := goodGas_iff hq
    exact ⟨x, c, hx, hc⟩
  · obtain ⟨x, hx, hq⟩ := h2 h
    obtain ⟨c, hc⟩ := goodGas_iff hq
    exact ⟨x, c, hx, hc⟩

theorem colAt_neg (mtx : List Col) {i : ℤ} (h1 : -mtx.length ≤ i) (h2 : i < 0) :
    colAt mtx i = colAt mtx (i + mtx.length) := by
  unfold colAt
  rw [if_neg (by omega), if_pos (by omega), if_pos (by omega)]

theorem colAt_error (mtx : List Col) (i : ℤ) :
    (i < -mtx.length ∨ mtx.length ≤ i) ↔ colAt mtx i = .error .indexError := by
  unfold colAt
  by_cases h0 : 0 ≤ i
  · rw [if_pos h0]
    by_cases h : i.toNat < mtx.length
    · rw [List.getElem?_eq_getElem h]
      simp only [reduceCtorEq, iff_false]
      omega
    · rw [List.getElem?_eq_none (by omega)]
      simp only [iff_true]
      omega
  · rw [if_neg h0]
    by_cases h : 0 ≤ i + mtx.length
    · rw [if_pos h, List.getElem?_eq_getElem (by omega)]
      simp only [reduceCtorEq, iff_false]
      omega
    · rw [if_neg h]
      simp only [iff_true]
      omega

/-- C71: an identifier of another group is not refused if it is not too far below: 21 (16) identifiers below the right
range the profile of the gas 21 (16) numbers higher is returned; everything else raises `IndexError`. -/
theorem C71_wrong_identifier (g : ℤ) :
    (-14 ≤ g ∧ g ≤ 6 → glAtmMinor g = glAtmMinor (g + 21)) ∧ (g < -14 ∨ 27 < g ↔ glAtmMinor g = .error .indexError) ∧
    (12 ≤ g ∧ g ≤ 27 → glAtmTrace g = glAtmTrace (g + 16)) ∧ (g < 12 ∨ 43 < g ↔ glAtmTrace g = .error .indexError) := by
  have hm : (gasMinor.length : ℤ) = 21 := rfl
  have ht : (gasTrace.length : ℤ) = 16 := rfl
  unfold glAtmMinor glAtmTrace
  refine ⟨fun h => ?_, ?_, fun h => ?_, ?_⟩
  · rw [colAt_neg _ (by omega) (by omega), hm]
    congr 1
    ring
  · rw [← colAt_error, hm]
    omega
  · rw [colAt_neg _ (by omega) (by omega), ht]
    congr 1
    ring
  · rw [← colAt_error, ht]
    omega

/-- Asked for the minor-gas profile of oxygen (6) the library answers with PH3 (27), and asked for the trace-gas profile
of PH3 (27) it answers with HNO4 (43). -/
example : glAtmMinor 6 = glAtmMinor 27 ∧ glAtmTrace 27 = glAtmTrace 43 :=
  ⟨(C71_wrong_identifier 6).1 (by norm_num), (C71_wrong_identifier 27).2.2.1 (by norm_num)⟩

/-- The numbers of a column as a list. -/
noncomputable def Col.list (c : Col) : List ℝ := c.digits.map fun d : ℤ => (d : ℝ) / 10 ^ c.scale

theorem Col.list_get (c : Col) (i : ℕ) (hi : i < c.digits.length) : (Col.list c)[i]? = some (c.val i) := by
  unfold Col.list Col.val
  rw [List.getElem?_map, List.getElem?_eq_getElem hi, List.getD_eq_getElem?_getD, List.getElem?_eq_getElem hi]
  rfl

/-- C71: the workflow of the documentation. Take any built-in atmosphere, convert its water vapour to a mass mixing
ratio (`ppmv2gkg`) and that to relative humidity (`mr2rh`, first result, divided by 100), and make a simulator from
these arrays for any frequencies up to 1199 GHz and angles between 0 and 180 degrees: construction succeeds and leaves
the arrays as they are (the heights start at 0), and after any history of calls in the process that selects one of the
ten usable models last, running it returns a table with one row per angle and frequency, each brightness temperature
between 0 K and the warmest level. -/
theorem C71_workflow {atm : ℤ} {A : Atmosphere} (hA : glAtm atm = .ok A) {w rh : ℕ → ℝ}
    (hw : ∀ c, A.md[0]? = some c → ∀ i < 50, ppmv2gkg (c.val i) 0 = .ok (w i))
    (hrh : ∀ i < 50, ∃ r, (mr2rh A.p.val A.t.val w none i).1 = some r ∧ rh i = r / 100)
    (fl : Flip) {h : Heap} {a : CtorArgs} (hz : h a.z = Col.list A.a) (hp : h a.p = Col.list A.p)
    (ht : h a.t = Col.list A.t) (hr : h a.rh = (List.range 50).map rh) (hf : ∀ x ∈ h a.frq, 0 < x ∧ x ≤ 1199)
    (hang : ∀ x ∈ h a.angles, 0 < x ∧ x < 180)
    (hopt : a.absmdl = "" ∧ a.o3n = none ∧ a.amu = none ∧ a.rayTracing = false ∧ a.cloudy = false) {M : ℝ}
    (hM : ∀ i < 50, A.t.val i ≤ M) :
    ∃ s, construct fl h a = (.ok s, h) ∧
      ∀ (ops : List Op) (i : ℕ), (own i ops).settings = some (s.settings h) → (own i ops).ranCloudy = false →
      ∀ m ∈ ["R98", "R03", "R16", "R17", "R18", "R19", "R19SD", "R20", "R20SD", "R24"],
      (lastSel ops).h2o = some m ∧ (lastSel ops).o2 = some m ∧ (lastSel ops).n2 = some m →
      ∃ rows, (World.after shipped ops).result shipped i = some (.ok rows) ∧ PossibleRows (s.settings h) M rows := by
  obtain ⟨⟨la, lp, ld, lt, lm, lmc⟩, halt, hmono, hrange, -⟩ := C71_physical hA
  obtain ⟨habs, ho3, hamu, hray, hcl⟩ := hopt
  have hnr : ¬ Repeats (h a.z) := by
    rintro ⟨i, x, h1, h2⟩
    rw [hz] at h1 h2
    have hi : i + 1 < 50 := by
      by_contra hn
      rw [List.getElem?_eq_none (by simp [Col.list, la]; omega)] at h2
      cases h2
    rw [Col.list_get _ _ (by omega)] at h1 h2
    have := (hmono i (i + 1) (by omega) hi).1
    rw [Option.some_inj.1 h1, Option.some_inj.1 h2] at this
    exact lt_irrefl _ this
  have hne : h a.p ≠ [] := by
    intro hn
    rw [hp] at hn
    have := congrArg List.length hn
    simp [Col.list, lp] at this
  have hne' : h a.z ≠ [] := by
    intro hn
    rw [hz] at hn
    have := congrArg List.length hn
    simp [Col.list, la] at this
  obtain ⟨z0, zs, hzs⟩ := List.exists_cons_of_ne_nil hne'
  have hz0 : z0 = 0 := by
    have h0 := Col.list_get A.a 0 (by omega)
    rw [← hz, hzs, halt 0 (by norm_num)] at h0
    simpa [afglAltitude] using h0
  have hc : ∃ s, construct fl h a = (.ok s, h) ∧ s.settings h = {
      nl := 50, z := fun i => (h a.z).getD i 0, z0 := 0,
      p := fun i => (h a.p).getD i 0, tk := fun i => (h a.t).getD i 0, rh := fun i => (h a.rh).getD i 0,
      nf := (h a.frq).length, frq := fun i => (h a.frq).getD i 0, nang := (h a.angles).length,
      angles := fun i => (h a.angles).getD i 0, o3n := none, amu := none, rayTracing := false, satellite := a.fromSat,
      cloudy := false, ice := false, es := List.replicate (h a.frq).length 1, clouds := none, dens := none } := by
    rw [(construct_eq fl h a).2 hnr]
    unfold ctorTail
    have hlen : (h a.z).length = 50 := by rw [hz]; simp [Col.list, la]
    have hw' : h.write a.z ((h a.z).map (· - z0)) = h := by
      funext b
      unfold Heap.write
      by_cases hb : b = a.z
      · subst hb
        simp [hz0]
      · simp [Function.update_of_ne hb]
    simp only [if_neg hne, hzs, habs, ne_eq, not_true, if_false]
    rw [← hzs, hw']
    refine ⟨_, rfl, ?_⟩
    simp only [SimObj.settings, ho3, hamu, hray, hcl, hlen, hz0, Option.map_none]
  obtain ⟨s, hc, hset⟩ := hc
  refine ⟨s, hc, fun ops i hown hran m hm hsel => ?_⟩
  rw [hset] at hown ⊢
  have hget {b : Addr} {c : Col} (hb : h b = Col.list c) (hl : c.digits.length = 50) (i : ℕ) (hi : i < 50) :
      (h b).getD i 0 = c.val i := by
    rw [hb, List.getD_eq_getElem?_getD, Col.list_get c i (by omega), Option.getD_some]
  have hmem {l : List ℝ} {i : ℕ} (hi : i < l.length) : l.getD i 0 ∈ l := by
    rw [List.getD_eq_getElem?_getD, List.getElem?_eq_getElem hi, Option.getD_some]
    exact List.getElem_mem _
  obtain ⟨c, hc0⟩ : ∃ c, A.md[0]? = some c := ⟨_, List.getElem?_eq_getElem (by omega)⟩
  have hrh' (i : ℕ) (hi : i < 50) : 0 ≤ rh i ∧ rh i * eswat (A.t.val i) ≤ A.p.val i := by
    have hppm : 0 < c.val i := ((hrange i hi).2.2.2.2 c (List.mem_of_getElem? hc0)).1
    have hwi : w i = c.val i / 1000000.0 * (1.6726485e-27 * ((gasAmus 0).getD 0 : ℚ)) /
        (1.6726485e-27 * ((gasAmus 99).getD 0 : ℚ)) * 1000 := by
      have := hw c hc0 i hi
      simpa [ppmv2gkg, gasMass, gasAmus, bind, Except.bind, pure, Except.pure] using this.symm
    have hw0 : 0 < w i := by
      rw [hwi]
      simp only [gasAmus, Option.getD_some]
      push_cast
      positivity
    obtain ⟨r, h1, h2⟩ := hrh i hi
    have hes : 0 < eswat (A.t.val i) := eswat_pos _
    have hpp := (hrange i hi).1
    have hd : (1000.0 : ℝ) * epsRatio + w i ≠ 0 := by unfold epsRatio; positivity
    simp only [mr2rh, mr2e, npDiv_of_ne hd, Option.bind_some, satvap, npDiv_of_ne hes.ne', Option.some_inj] at h1
    have hr' : rh i = A.p.val i * w i / (1000.0 * epsRatio + w i) / eswat (A.t.val i) := by
      rw [h2, ← h1]
      norm_num
      ring
    have hd' : 0 < (1000.0 : ℝ) * epsRatio + w i := by unfold epsRatio; positivity
    refine ⟨by rw [hr']; positivity, ?_⟩
    rw [hr', div_mul_cancel₀ _ hes.ne', div_le_iff₀ hd']
    have : 0 < (1000.0 : ℝ) * epsRatio := by unfold epsRatio; positivity
    nlinarith
  have hrget (i : ℕ) (hi : i < 50) : (h a.rh).getD i 0 = rh i := by
    rw [hr, List.getD_eq_getElem?_getD, List.getElem?_map, List.getElem?_range hi]
    rfl
  refine C67_clear ops i _ hown ?_ rfl hran rfl hm hsel (fun i hi => ?_) ?_
  · refine ⟨by simp, by simp, fun j hj => hf _ (hmem hj), fun i hi => ?_, fun i hi => ?_, fun i hi => ?_, fun i hi => ?_,
      fun i hi => ?_, fun k hk => hang _ (hmem hk), rfl, rfl, rfl⟩
    · simp only [hget ht lt i hi]
      linarith [(hrange i hi).2.2.1]
    · simp only [hget hp lp i hi]
      exact (hrange i hi).1
    · simp only [hrget i hi]
      exact (hrh' i hi).1
    · simp only [hrget i hi, hget ht lt i hi, hget hp lp i hi]
      exact (hrh' i hi).2
    · have hi' : i + 1 < 50 := hi
      simp only [hget hz la i (by omega), hget hz la (i + 1) hi']
      exact (hmono i (i + 1) (by omega) hi').1.le
  · simp only [hget ht lt i hi]
    exact hM i hi
  · have hM' : 2.728 ≤ M := by
      have h1 := hM 0 (by norm_num)
      have h2 := (hrange 0 (by norm_num)).2.2.1
      norm_num
      linarith
    cases hsat : a.fromSat with
    | true =>
      refine Or.inl ⟨rfl, fun es hes => ?_⟩
      rw [List.eq_of_mem_replicate hes]
      norm_num
    | false => exact Or.inr ⟨rfl, hM'⟩

/-- The U.S. standard atmosphere seen at three frequencies and two angles with R24. -/
example (fl : Flip) : ∃ s h a, construct fl h a = (.ok s, h) ∧ (h a.angles).length = 2 ∧ (h a.frq).length = 3 ∧
    ∃ rows, (World.after shipped [.construct (s.settings h), .initAbsmdl "R24"]).result shipped 0 = some (.ok rows) ∧
      PossibleRows (s.settings h) 380 rows := by
  obtain ⟨A, hA⟩ := (C71_identifiers 5).1.2 ⟨"US Standard", by decide⟩
  have lm := (C71_physical hA).1.2.2.2.2.1
  obtain ⟨c, hc⟩ : ∃ c, A.md[0]? = some c := ⟨_, List.getElem?_eq_getElem (by omega)⟩
  have hcp (i : ℕ) (hi : i < 50) : 0 < c.val i := (((C71_physical hA).2.2.2.1 i hi).2.2.2.2 c (List.mem_of_getElem? hc)).1
  have hex (i : ℕ) : ∃ w, ppmv2gkg (c.val i) 0 = .ok w ∧ (i < 50 → 0 < w) := by
    refine ⟨_, rfl, fun hi => ?_⟩
    have := hcp i hi
    show 0 < c.val i / 1000000.0 * (1.6726485e-27 * (((gasAmus 0).getD 0 : ℚ) : ℝ)) /
      (1.6726485e-27 * (((gasAmus 99).getD 0 : ℚ) : ℝ)) * 1000
    simp only [gasAmus, Option.getD_some]
    push_cast
    positivity
  choose w hw hw0 using hex
  have hrx (i : ℕ) (hi : i < 50) : ∃ r, (mr2rh A.p.val A.t.val w none i).1 = some r := by
    have h0 := hw0 i hi
    have hd : (1000.0 : ℝ) * epsRatio + w i ≠ 0 := by unfold epsRatio; positivity
    exact ⟨_, by simp only [mr2rh, mr2e, npDiv_of_ne hd, Option.bind_some, satvap, npDiv_of_ne (eswat_pos (A.t.val i)).ne']; rfl⟩
  let rh : ℕ → ℝ := fun i => ((mr2rh A.p.val A.t.val w none i).1).getD 0 / 100
  let h : Heap := fun b => if b = 0 then Col.list A.a else if b = 1 then Col.list A.p else if b = 2 then Col.list A.t else
    if b = 3 then (List.range 50).map rh else if b = 4 then [22.24, 60, 183.31] else [90, 30]
  let a : CtorArgs := { z := 0, p := 1, t := 2, rh := 3, frq := 4, angles := 5, o3n := none, amu := none, absmdl := "",
                        rayTracing := false, fromSat := true, cloudy := false }
  obtain ⟨s, hs, hrun⟩ := C71_workflow hA (w := w) (rh := rh)
    (fun c' hc' i _ => by rw [hc] at hc'; cases hc'; exact hw i)
    (fun i hi => by obtain ⟨r, hr⟩ := hrx i hi; exact ⟨r, hr, by simp only [rh, hr, Option.getD_some]⟩)
    fl (h := h) (a := a) rfl rfl rfl rfl (by simp [h, a]; norm_num) (by simp [h, a]; norm_num) ⟨rfl, rfl, rfl, rfl, rfl⟩
    (M := 380) (fun i hi => ((C71_physical hA).2.2.2.1 i hi).2.2.2.1)
  exact ⟨s, h, a, hs, rfl, rfl, hrun _ 0 rfl rfl "R24" (by decide) ⟨rfl, rfl, rfl⟩⟩

end Verif.Props
