import Verif.Model.Extrapolation
import Verif.Props.Weighting
import Verif.Props.Utils
import Mathlib.Analysis.Complex.ExponentialBounds

/-!
# Profile extrapolation: C53-C56
-/

namespace Verif.Props

open Verif.Py Verif.Model Real

/-! ## C56: season and latitude -/

theorem season_cases (lat : ℝ) (m : ℤ) :
    getSeason lat m = "summer" ∨ getSeason lat m = "winter" ∨ getSeason lat m = "standard" := by
  unfold getSeason; split_ifs <;> simp

/-- The season of a month is the season of the opposite hemisphere half a year later. -/
theorem C56_hemispheres (lat : ℝ) {m : ℤ} (h1 : 1 ≤ m) (h2 : m ≤ 12) :
    getSeason (-lat) (if m ≤ 6 then m + 6 else m - 6) = getSeason lat m := by
  have e1 : (-lat > 20) = (lat < -20) := by
    apply propext; constructor <;> intro h <;> linarith
  have e2 : (-lat < -20) = (lat > 20) := by
    apply propext; constructor <;> intro h <;> linarith
  have e3 : ((if m ≤ 6 then m + 6 else m - 6) ∈ ([6, 7, 8] : List ℤ)) = (m ∈ ([1, 2, 12] : List ℤ)) := by
    simp only [List.mem_cons, List.not_mem_nil, or_false]
    apply propext; split_ifs <;> omega
  have e4 : ((if m ≤ 6 then m + 6 else m - 6) ∈ ([1, 2, 12] : List ℤ)) = (m ∈ ([6, 7, 8] : List ℤ)) := by
    simp only [List.mem_cons, List.not_mem_nil, or_false]
    apply propext; split_ifs <;> omega
  unfold getSeason
  simp only [e1, e2, e3, e4, or_comm]

/-- Within 20 degrees of the equator and in the months March-May and September-November the annual (standard)
atmosphere is used; in June-August and December-February it is used nowhere else. -/
theorem C56_standard_iff (lat : ℝ) {m : ℤ} (h1 : 1 ≤ m) (h2 : m ≤ 12) :
    getSeason lat m = "standard" ↔ |lat| ≤ 20 ∨ (3 ≤ m ∧ m ≤ 5) ∨ (9 ≤ m ∧ m ≤ 11) := by
  unfold getSeason
  simp only [List.mem_cons, List.not_mem_nil, or_false]
  rw [abs_le]
  rcases lt_or_ge lat (-20) with hl | hl
  · have h3 : ¬ lat > 20 := by linarith
    have h4 : ¬ (-20 ≤ lat ∧ lat ≤ 20) := fun h => by linarith [h.1]
    simp only [h3, hl, h4, false_and, true_and, false_or]
    split_ifs <;> simp <;> omega
  · rcases lt_or_ge 20 lat with hg | hg
    · have h3 : ¬ lat < -20 := by linarith
      have h4 : ¬ (-20 ≤ lat ∧ lat ≤ 20) := fun h => by linarith [h.2]
      simp only [h3, gt_iff_lt, hg, h4, false_and, true_and, false_or, or_false]
      split_ifs <;> simp <;> omega
    · have h3 : ¬ lat < -20 := by linarith
      have h4 : ¬ lat > 20 := by linarith
      simp [h3, h4, hl, hg]

/-- North and south have the same reference atmosphere; any other season name raises. -/
theorem C56_symmetric (lat h : ℝ) (s : String) :
    ituTemperature (-lat) h s = ituTemperature lat h s ∧ ituPressureAt (-lat) h s = ituPressureAt lat h s ∧
    ituVapour (-lat) h s = ituVapour lat h s ∧
    (s ≠ "summer" → s ≠ "winter" → ituTemperature lat h s = .error .valueError ∧
      ituPressureAt lat h s = .error .valueError ∧ ituVapour lat h s = .error .valueError) := by
  refine ⟨?_, ?_, ?_, fun h1 h2 => ?_⟩
  · simp only [ituTemperature, abs_neg]
  · simp only [ituPressureAt, abs_neg]
  · simp only [ituVapour, abs_neg]
  · simp [ituTemperature, ituPressureAt, ituVapour, h1, h2]

/-- Below 22 degrees summer and winter agree (the low-latitude atmosphere is annual). -/
theorem C56_low_latitude {lat : ℝ} (hl : |lat| < 22) (h : ℝ) :
    ituTemperature lat h "summer" = ituTemperature lat h "winter" ∧
    ituPressureAt lat h "summer" = ituPressureAt lat h "winter" ∧
    ituVapour lat h "summer" = ituVapour lat h "winter" := by
  simp [ituTemperature, ituPressureAt, ituVapour, hl]

example : getSeason 45 7 = "summer" ∧ getSeason (-45) 1 = "summer" ∧ getSeason 45 4 = "standard" := by
  refine ⟨?_, ?_, ?_⟩ <;> norm_num [getSeason]

/-! ## C53 -/

theorem climate_ok (lat : ℝ) (m : ℤ) (h : ℝ) : ∃ c, climate lat (getSeason lat m) h = .ok c := by
  rcases season_cases lat m with e | e | e <;> rw [e] <;> unfold climate
  · rw [if_pos (by decide)]; exact ⟨_, rfl⟩
  · rw [if_pos (by decide)]; exact ⟨_, rfl⟩
  · rw [if_neg (by decide)]; exact ⟨_, rfl⟩

theorem mapM_ok {α β : Type} {f : α → Except PyErr β} {l : List α} (h : ∀ x ∈ l, ∃ y, f x = .ok y) :
    ∃ r, l.mapM f = .ok r ∧ r.length = l.length ∧ ∀ i (hi : i < l.length) (hr : i < r.length), f l[i] = .ok r[i] := by
  induction l with
  | nil => exact ⟨[], rfl, rfl, fun i hi => by cases hi⟩
  | cons a l ih =>
    obtain ⟨b, hb⟩ := h a (by simp)
    obtain ⟨r, h1, h2, h3⟩ := ih fun x hx => h x (by simp [hx])
    refine ⟨b :: r, by rw [List.mapM_cons, hb, h1]; rfl, by simp [h2], fun i hi hr => ?_⟩
    cases i with
    | zero => exact hb
    | succ i => exact h3 i (by simpa using hi) (by simpa using hr)

theorem npMax_ok {z : List ℝ} (hz : z ≠ []) : ∃ m, npMax z = some m := by
  cases z with
  | nil => exact absurd rfl hz
  | cons a l => exact ⟨_, rfl⟩

/-- The levels inserted above height `m`: every 3.2 km below 50 km. -/
theorem arange_mem {m y : ℝ} : y ∈ npArange (m + 3.2) 50 3.2 ↔ ∃ k : ℕ, y = m + (k + 1) * 3.2 ∧ y < 50 := by
  unfold npArange
  simp only [List.mem_map, List.mem_range]
  constructor
  · rintro ⟨i, hi, rfl⟩
    have hi' := Nat.lt_ceil.mp hi
    rw [lt_div_iff₀ (by norm_num)] at hi'
    exact ⟨i, by ring, by linarith⟩
  · rintro ⟨k, rfl, hk⟩
    refine ⟨k, ?_, by ring⟩
    rw [Nat.lt_ceil, lt_div_iff₀ (by norm_num)]
    linarith

theorem arange_sorted (m : ℝ) : (npArange (m + 3.2) 50 3.2).Pairwise (· < ·) := by
  unfold npArange
  rw [List.pairwise_map]
  refine List.pairwise_lt_range.imp fun {i j} hij => ?_
  have : (i : ℝ) < j := by exact_mod_cast hij
  norm_num; linarith

/-- The state after a call on heights below 50 km: the input, the inserted levels, and the older heights above all of
these. -/
theorem extrapolate_state {H z : List ℝ} (hz : z ≠ []) (h50 : ∀ x ∈ z, x < 50) :
    ∃ m mk, npMax z = some m ∧ m < 50 ∧ npMax (z ++ npArange (m + 3.2) 50 3.2) = some mk ∧ m ≤ mk ∧ mk < 50 ∧
      (∀ x ∈ z ++ npArange (m + 3.2) 50 3.2, x ≤ mk) ∧
      ∀ lat month p t rh, (extrapolate H lat month z p t rh).2 =
        z ++ npArange (m + 3.2) 50 3.2 ++ H.filter fun x => decide (mk < x) := by
  obtain ⟨m, hm⟩ := npMax_ok hz
  obtain ⟨mk, hmk⟩ := npMax_ok (z := z ++ npArange (m + 3.2) 50 3.2) (by simp [hz])
  have hm' := npMax_spec hm
  have hmk' := npMax_spec hmk
  have hm50 := h50 m hm'.1
  have h1 : m ≤ mk := hmk'.2 m (by simp [hm'.1])
  have h2 : mk < 50 := by
    rcases List.mem_append.mp hmk'.1 with h | h
    · exact h50 _ h
    · obtain ⟨k, _, hk⟩ := arange_mem.mp h; exact hk
  refine ⟨m, mk, hm, hm50, hmk, h1, h2, hmk'.2, fun lat month p t rh => ?_⟩
  unfold extrapolate
  simp only [hm, hmk, if_pos hm50]
  split
  · rfl
  · split_ifs <;> rfl

theorem filter_above {H z : List ℝ} {m mk : ℝ} (hz : ∀ x ∈ z, x ≤ m) (h1 : m ≤ mk) :
    (z ++ npArange (m + 3.2) 50 3.2 ++ H.filter fun x => decide (mk < x)).filter (fun x => decide (m < x)) =
      npArange (m + 3.2) 50 3.2 ++ H.filter fun x => decide (mk < x) := by
  rw [List.filter_append, List.filter_append]
  have e1 : z.filter (fun x => decide (m < x)) = [] := by
    rw [List.filter_eq_nil_iff]; intro x hx; simpa using hz x hx
  have e2 : (npArange (m + 3.2) 50 3.2).filter (fun x => decide (m < x)) = npArange (m + 3.2) 50 3.2 := by
    rw [List.filter_eq_self]
    intro x hx
    obtain ⟨k, rfl, _⟩ := arange_mem.mp hx
    have : 0 < ((k : ℝ) + 1) * 3.2 := by positivity
    simpa using this
  have e3 : (H.filter fun x => decide (mk < x)).filter (fun x => decide (m < x)) =
      H.filter fun x => decide (mk < x) := by
    rw [List.filter_eq_self]
    intro x hx
    have := (List.mem_filter.mp hx).2
    have : mk < x := by simpa using this
    simpa using h1.trans_lt this
  rw [e1, e2, e3, List.nil_append]

/-- The call succeeds exactly on non-empty profiles that stay below 50 km and whose pressure and temperature arrays
are as long as the heights. -/
theorem C53_succeeds_iff (H : List ℝ) (lat : ℝ) (month : ℤ) (z p t rh : List ℝ) :
    (∃ r, (extrapolate H lat month z p t rh).1 = .ok r) ↔
      z ≠ [] ∧ (∀ x ∈ z, x < 50) ∧ p.length = z.length ∧ t.length = z.length := by
  constructor
  · rintro ⟨r, hr⟩
    have hz : z ≠ [] := by
      rintro rfl; unfold extrapolate at hr; simp [npMax] at hr
    obtain ⟨m, hm⟩ := npMax_ok hz
    have hm' := npMax_spec hm
    have h50 : m < 50 := by
      by_contra hc
      unfold extrapolate at hr
      simp only [hm, if_neg hc] at hr
      cases hr
    have hall : ∀ x ∈ z, x < 50 := fun x hx => (hm'.2 x hx).trans_lt h50
    obtain ⟨m', mk, e1, _, e3, e4, _, _, _⟩ := extrapolate_state (H := H) hz hall
    rw [hm] at e1; cases e1
    obtain ⟨cl, hcl, hlen, _⟩ := mapM_ok (f := climate lat (getSeason lat month))
      (l := npArange (m + 3.2) 50 3.2 ++ H.filter fun x => decide (mk < x)) fun x _ => climate_ok lat month x
    unfold extrapolate at hr
    simp only [hm, e3, if_pos h50, filter_above hm'.2 e4, hcl] at hr
    split_ifs at hr with hc
    · simp only [List.length_append, List.length_map, hlen] at hc
      exact ⟨hz, hall, by omega, by omega⟩
  · rintro ⟨hz, hall, hp, ht⟩
    obtain ⟨m, mk, e1, e2, e3, e4, _, _, _⟩ := extrapolate_state (H := H) hz hall
    have hm' := npMax_spec e1
    obtain ⟨cl, hcl, hlen, _⟩ := mapM_ok (f := climate lat (getSeason lat month))
      (l := npArange (m + 3.2) 50 3.2 ++ H.filter fun x => decide (mk < x)) fun x _ => climate_ok lat month x
    unfold extrapolate
    simp only [e1, e3, if_pos e2, filter_above hm'.2 e4, hcl]
    rw [if_pos]
    · exact ⟨_, rfl⟩
    · simp only [List.length_append, List.length_map, hlen]
      omega

/-- A profile that reaches 50 km raises `UnboundLocalError` and leaves the object as it was. -/
theorem C53_high_profile (H : List ℝ) (lat : ℝ) (month : ℤ) {z : List ℝ} (p t rh : List ℝ) {x : ℝ} (hx : x ∈ z)
    (h : 50 ≤ x) : extrapolate H lat month z p t rh = (.error .unboundLocalError, H) := by
  obtain ⟨m, hm⟩ := npMax_ok (List.ne_nil_of_mem hx)
  have := (npMax_spec hm).2 x hx
  unfold extrapolate
  simp only [hm]
  rw [if_neg (by linarith)]

theorem extrapolate_result {H z p t rh : List ℝ} {lat : ℝ} {month : ℤ} {r : Extrapolated}
    (h : (extrapolate H lat month z p t rh).1 = .ok r) :
    ∃ hs ps ts rs, r.height = z ++ hs ∧ r.pres = p.map some ++ ps ∧ r.temp = t.map some ++ ts ∧
      r.rh = rh.map some ++ rs ∧
      p.length = z.length ∧ t.length = z.length ∧
      ps.length = hs.length ∧ ts.length = hs.length ∧ rs.length = hs.length ∧
      (∀ x ∈ z, ∀ y ∈ hs, x < y) ∧
      (∀ y ∈ hs, y ∈ H ∨ ∃ x ∈ z, ∃ k : ℕ, y = x + (k + 1) * 3.2 ∧ y < 50) ∧
      (∀ y ∈ H, 50 ≤ y → y ∈ hs) ∧
      ∀ i (h1 : i < hs.length) (h2 : i < ts.length) (h3 : i < ps.length) (h4 : i < rs.length),
        ∃ w, climate lat (getSeason lat month) hs[i] = .ok (ts[i], ps[i], w) ∧ rs[i] = climateRh w ts[i] ps[i] := by
  obtain ⟨hz, hall, hp, ht⟩ := (C53_succeeds_iff H lat month z p t rh).mp ⟨r, h⟩
  obtain ⟨m, mk, e1, e2, e3, e4, e5, e6, _⟩ := extrapolate_state (H := H) hz hall
  have hm' := npMax_spec e1
  obtain ⟨cl, hcl, hlen, hval⟩ := mapM_ok (f := climate lat (getSeason lat month))
    (l := npArange (m + 3.2) 50 3.2 ++ H.filter fun x => decide (mk < x)) fun x _ => climate_ok lat month x
  unfold extrapolate at h
  simp only [e1, e3, if_pos e2, filter_above hm'.2 e4, hcl] at h
  rw [if_pos (by simp only [List.length_append, List.length_map, hlen]; omega)] at h
  obtain rfl := Except.ok.inj h
  refine ⟨_, _, _, _, List.append_assoc _ _ _, rfl, rfl, rfl, hp, ht, by simp only [List.length_map, hlen],
    by simp only [List.length_map, hlen], by simp only [List.length_map, hlen], fun x hx y hy => ?_, fun y hy => ?_,
    fun y hy h50 => ?_, fun i h1 h2 h3 h4 => ?_⟩
  · have hxm := hm'.2 x hx
    rcases List.mem_append.mp hy with hy | hy
    · obtain ⟨k, rfl, _⟩ := arange_mem.mp hy
      have : 0 < ((k : ℝ) + 1) * 3.2 := by positivity
      linarith
    · have := (List.mem_filter.mp hy).2
      have : mk < y := by simpa using this
      linarith
  · rcases List.mem_append.mp hy with hy | hy
    · exact .inr ⟨m, hm'.1, arange_mem.mp hy⟩
    · exact .inl (List.mem_filter.mp hy).1
  · refine List.mem_append_right _ (List.mem_filter.mpr ⟨hy, ?_⟩)
    simpa using e5.trans_le h50
  · have hi : i < cl.length := by simpa using h2
    refine ⟨cl[i].2.2, ?_, by simp only [List.getElem_map]⟩
    rw [hval i h1 hi]
    simp only [List.getElem_map]

/-- The climatological values are those of the public functions. -/
theorem climate_spec {lat h : ℝ} {s : String} {a b c : Option ℝ} (hc : climate lat s h = .ok (a, b, c)) :
    (s ≠ "standard" → ituTemperature lat h s = .ok a ∧ ituPressureAt lat h s = .ok b ∧ ituVapour lat h s = .ok c) ∧
    (s = "standard" → stdTemperature h 288.15 = a ∧ stdPressure h 0 0 = b ∧ stdVapour h 2 7.5 = c) := by
  unfold climate at hc
  constructor
  · intro hs
    rw [if_pos hs] at hc
    revert hc
    cases ituTemperature lat h s with
    | error e => intro h; cases h
    | ok a =>
      cases ituPressureAt lat h s with
      | error e => intro h; cases h
      | ok b =>
        cases ituVapour lat h s with
        | error e => intro h; cases h
        | ok c => intro h; cases h; exact ⟨rfl, rfl, rfl⟩
  · intro hs
    rw [if_neg (by simp [hs])] at hc
    cases hc; exact ⟨rfl, rfl, rfl⟩

/-- The result begins with the measured profile, unchanged; the added heights all exceed every measured one; all four
arrays have the same length (if the humidity was as long as the heights); and the added values are the reference
atmosphere of the object at the added heights. -/
theorem C53_result {H z p t rh : List ℝ} {lat : ℝ} {month : ℤ} {r : Extrapolated}
    (h : (extrapolate H lat month z p t rh).1 = .ok r) :
    ∃ hs ps ts rs, r.height = z ++ hs ∧ r.pres = p.map some ++ ps ∧ r.temp = t.map some ++ ts ∧
      r.rh = rh.map some ++ rs ∧
      p.length = z.length ∧ t.length = z.length ∧
      ps.length = hs.length ∧ ts.length = hs.length ∧ rs.length = hs.length ∧
      (∀ x ∈ z, ∀ y ∈ hs, x < y) ∧
      (∀ y ∈ hs, y ∈ H ∨ ∃ x ∈ z, ∃ k : ℕ, y = x + (k + 1) * 3.2 ∧ y < 50) ∧
      (∀ y ∈ H, 50 ≤ y → y ∈ hs) ∧
      ∀ i (h1 : i < hs.length) (h2 : i < ts.length) (h3 : i < ps.length),
        (getSeason lat month ≠ "standard" →
          ituTemperature lat hs[i] (getSeason lat month) = .ok ts[i] ∧
          ituPressureAt lat hs[i] (getSeason lat month) = .ok ps[i]) ∧
        (getSeason lat month = "standard" → stdTemperature hs[i] 288.15 = ts[i] ∧ stdPressure hs[i] 0 0 = ps[i]) := by
  obtain ⟨hs, ps, ts, rs, a1, a2, a3, a4, a5, a6, a7, a8, a9, a10, a11, a12, hv⟩ := extrapolate_result h
  refine ⟨hs, ps, ts, rs, a1, a2, a3, a4, a5, a6, a7, a8, a9, a10, a11, a12, fun i h1 h2 h3 => ?_⟩
  obtain ⟨w, hw, _⟩ := hv i h1 h2 h3 (by omega)
  have := climate_spec hw
  exact ⟨fun hs => ⟨(this.1 hs).1, (this.1 hs).2.1⟩, fun hs => ⟨(this.2 hs).1, (this.2 hs).2.1⟩⟩

/-- If the measured heights and the heights of the object are strictly increasing, so are the returned heights (and
those of the object afterwards). -/
theorem C53_increasing {H z : List ℝ} (hz : z ≠ []) (h50 : ∀ x ∈ z, x < 50) (hs : z.Pairwise (· < ·))
    (hH : H.Pairwise (· < ·)) (lat : ℝ) (month : ℤ) (p t rh : List ℝ) :
    (extrapolate H lat month z p t rh).2.Pairwise (· < ·) := by
  obtain ⟨m, mk, e1, e2, e3, e4, e5, e6, e7⟩ := extrapolate_state (H := H) hz h50
  have hm' := npMax_spec e1
  rw [e7, List.pairwise_append, List.pairwise_append]
  refine ⟨⟨hs, arange_sorted m, fun x hx y hy => ?_⟩, hH.filter _, fun x hx y hy => ?_⟩
  · obtain ⟨k, rfl, _⟩ := arange_mem.mp hy
    have : 0 < ((k : ℝ) + 1) * 3.2 := by positivity
    linarith [hm'.2 x hx]
  · have := (List.mem_filter.mp hy).2
    have : mk < y := by simpa using this
    exact (e6 x hx).trans_lt this

/-- The returned heights are the object's heights afterwards. -/
theorem C53_heights_shared {H z p t rh : List ℝ} {lat : ℝ} {month : ℤ} {r : Extrapolated}
    (h : (extrapolate H lat month z p t rh).1 = .ok r) : (extrapolate H lat month z p t rh).2 = r.height := by
  obtain ⟨hz, hall, hp, ht⟩ := (C53_succeeds_iff H lat month z p t rh).mp ⟨r, h⟩
  obtain ⟨m, mk, e1, e2, e3, e4, e5, e6, _⟩ := extrapolate_state (H := H) hz hall
  have hm' := npMax_spec e1
  obtain ⟨cl, hcl, hlen, hval⟩ := mapM_ok (f := climate lat (getSeason lat month))
    (l := npArange (m + 3.2) 50 3.2 ++ H.filter fun x => decide (mk < x)) fun x _ => climate_ok lat month x
  have hif : (t.map some ++ cl.map fun c => c.1).length = (z ++ npArange (m + 3.2) 50 3.2 ++ H.filter fun x => decide (mk < x)).length ∧
      (p.map some ++ cl.map fun c => c.2.1).length = (z ++ npArange (m + 3.2) 50 3.2 ++ H.filter fun x => decide (mk < x)).length := by
    simp only [List.length_append, List.length_map, hlen]; omega
  unfold extrapolate at h ⊢
  simp only [e1, e3, if_pos e2, filter_above hm'.2 e4, hcl] at h ⊢
  rw [if_pos hif] at h ⊢
  obtain rfl := Except.ok.inj h
  rfl

theorem linspace_sorted {a b : ℝ} (h : a < b) (n : ℕ) : (linspace a b n).Pairwise (· < ·) := by
  unfold linspace
  rw [List.pairwise_map]
  refine List.pairwise_lt_range.imp fun {i j} hij => ?_
  have h1 : (i : ℝ) < j := by exact_mod_cast hij
  have h2 : 0 < (b - a) / ((n : ℝ) + 1) := div_pos (by linarith) (by positivity)
  have := mul_lt_mul_of_pos_right h1 h2
  linarith

theorem linspace_mem {a b x : ℝ} {n : ℕ} (h : a ≤ b) (hx : x ∈ linspace a b n) : a ≤ x ∧ x ≤ b := by
  unfold linspace at hx
  obtain ⟨i, hi, rfl⟩ := List.mem_map.mp hx
  have hi' : (i : ℝ) ≤ n + 1 := by
    have := List.mem_range.mp hi
    exact_mod_cast (by omega : i ≤ n + 1)
  have hd : 0 ≤ b - a := by linarith
  have hn : (0 : ℝ) < n + 1 := by positivity
  constructor
  · have : 0 ≤ (i : ℝ) * ((b - a) / (n + 1)) := by positivity
    linarith
  · have : (i : ℝ) * ((b - a) / (n + 1)) ≤ (n + 1) * ((b - a) / (n + 1)) :=
      mul_le_mul_of_nonneg_right hi' (by positivity)
    rw [mul_div_cancel₀ _ hn.ne'] at this
    linarith

theorem default_sorted : defaultHeights.Pairwise (· < ·) := by
  unfold defaultHeights
  rw [List.pairwise_append, List.pairwise_append]
  refine ⟨⟨linspace_sorted (by norm_num) _, linspace_sorted (by norm_num) _, fun x hx y hy => ?_⟩,
    linspace_sorted (by norm_num) _, fun x hx y hy => ?_⟩
  · linarith [(linspace_mem (by norm_num) hx).2, (linspace_mem (by norm_num) hy).1]
  · have hy' := (linspace_mem (by norm_num) hy).1
    rcases List.mem_append.mp hx with hx | hx
    · linarith [(linspace_mem (by norm_num) hx).2]
    · linarith [(linspace_mem (by norm_num) hx).2]

/-- A new object: the heights are increasing and end at 100 km, so the extrapolated profile reaches 100 km. -/
theorem C53_reaches_top {z p t rh : List ℝ} {lat : ℝ} {month : ℤ} {r : Extrapolated}
    (h : (extrapolate defaultHeights lat month z p t rh).1 = .ok r) : (100 : ℝ) ∈ r.height := by
  obtain ⟨hs, _, _, _, e, _, _, _, _, _, _, _, _, _, _, hmem, _⟩ := C53_result h
  rw [e]
  refine List.mem_append_right _ (hmem 100 ?_ (by norm_num))
  unfold defaultHeights linspace
  refine List.mem_append_right _ (List.mem_map.mpr ⟨9, by simp, by norm_num⟩)

example : ∃ r, (extrapolate defaultHeights 45 7 [0, 1, 10] [1000, 900, 250] [290, 285, 220] [0.5, 0.4, 0.1]).1 = .ok r := by
  rw [C53_succeeds_iff]
  exact ⟨by simp, by intro x hx; simp at hx; rcases hx with rfl | rfl | rfl <;> norm_num, rfl, rfl⟩

/-! ## C54 -/

/-- Repeating a call on the same heights (whatever the other arguments) leaves the heights as the first call made
them. -/
theorem C54_repeat {H z : List ℝ} (hz : z ≠ []) (h50 : ∀ x ∈ z, x < 50) (lat lat' : ℝ) (month month' : ℤ)
    (p t rh p' t' rh' : List ℝ) :
    (extrapolate (extrapolate H lat month z p t rh).2 lat' month' z p' t' rh').2 =
      (extrapolate H lat month z p t rh).2 := by
  obtain ⟨m, mk, e1, e2, e3, e4, e5, e6, e7⟩ := extrapolate_state (H := H) hz h50
  obtain ⟨m', mk', f1, f2, f3, f4, f5, f6, f7⟩ := extrapolate_state (H := (extrapolate H lat month z p t rh).2) hz h50
  rw [e1] at f1; cases f1
  rw [e3] at f3; cases f3
  rw [f7, e7, List.filter_append]
  have g1 : (z ++ npArange (m + 3.2) 50 3.2).filter (fun x => decide (mk < x)) = [] := by
    rw [List.filter_eq_nil_iff]; intro x hx; simpa using e6 x hx
  rw [g1, List.nil_append, List.filter_filter]
  simp

/-- A call of `profile_extrapolation`. -/
structure ExCall where
  lat : ℝ
  month : ℤ
  z : List ℝ
  p : List ℝ
  t : List ℝ
  rh : List ℝ

/-- The heights of an object after a history of calls (failing calls included). -/
noncomputable def exHistory (H : List ℝ) (cs : List ExCall) : List ℝ :=
  cs.foldl (fun H c => (extrapolate H c.lat c.month c.z c.p c.t c.rh).2) H

/-- Whatever was extrapolated before, the heights of 50 km and more stay as they were. -/
theorem C54_top_kept (H : List ℝ) (cs : List ExCall) :
    (exHistory H cs).filter (fun x => decide (50 ≤ x)) = H.filter fun x => decide (50 ≤ x) := by
  unfold exHistory
  induction cs generalizing H with
  | nil => rfl
  | cons c cs ih =>
    rw [List.foldl_cons, ih]
    by_cases hz : c.z = []
    · unfold extrapolate; simp [hz, npMax]
    · by_cases h50 : ∀ x ∈ c.z, x < 50
      · obtain ⟨m, mk, e1, e2, e3, e4, e5, e6, e7⟩ := extrapolate_state (H := H) hz h50
        rw [e7, List.filter_append]
        have g1 : (c.z ++ npArange (m + 3.2) 50 3.2).filter (fun x => decide (50 ≤ x)) = [] := by
          rw [List.filter_eq_nil_iff]; intro x hx; simpa using (e6 x hx).trans_lt e5
        rw [g1, List.nil_append, List.filter_filter]
        apply List.filter_congr
        intro x _
        by_cases hx : 50 ≤ x
        · simp [hx, e5.trans_le hx]
        · simp [hx]
      · push Not at h50
        obtain ⟨x, hx, hx50⟩ := h50
        rw [C53_high_profile H c.lat c.month c.p c.t c.rh hx hx50]

/-- After any history of calls on increasing heights the heights of an object are increasing. -/
theorem C54_increasing {H : List ℝ} (hH : H.Pairwise (· < ·)) (cs : List ExCall)
    (hcs : ∀ c ∈ cs, c.z.Pairwise (· < ·)) : (exHistory H cs).Pairwise (· < ·) := by
  unfold exHistory
  induction cs generalizing H with
  | nil => exact hH
  | cons c cs ih =>
    rw [List.foldl_cons]
    refine ih ?_ fun c hc => hcs c (by simp [hc])
    by_cases hz : c.z = []
    · unfold extrapolate; simpa [hz, npMax] using hH
    · by_cases h50 : ∀ x ∈ c.z, x < 50
      · exact C53_increasing hz h50 (hcs c (by simp)) hH _ _ _ _ _
      · push Not at h50
        obtain ⟨x, hx, hx50⟩ := h50
        rw [C53_high_profile H c.lat c.month c.p c.t c.rh hx hx50]
        exact hH

/-- What a used object returns: the same as another object exactly when both have the same heights above the last
inserted level. -/
theorem C54_same_iff {H H' z : List ℝ} (hz : z ≠ []) (h50 : ∀ x ∈ z, x < 50) (lat : ℝ) (month : ℤ)
    (p t rh : List ℝ) : ∃ mk < 50, (∀ x ∈ z, x ≤ mk) ∧ (46.8 ≤ mk) ∧
    ((extrapolate H lat month z p t rh).2 = (extrapolate H' lat month z p t rh).2 ↔
      H.filter (fun x => decide (mk < x)) = H'.filter fun x => decide (mk < x)) := by
  obtain ⟨m, mk, e1, e2, e3, e4, e5, e6, e7⟩ := extrapolate_state (H := H) hz h50
  obtain ⟨m', mk', f1, f2, f3, f4, f5, f6, f7⟩ := extrapolate_state (H := H') hz h50
  rw [e1] at f1; cases f1
  rw [e3] at f3; cases f3
  refine ⟨mk, e5, fun x hx => e6 x (by simp [hx]), ?_, ?_⟩
  · by_contra hlt
    push Not at hlt
    rcases List.mem_append.mp (npMax_spec e3).1 with h | h
    · have hmm : mk = m := le_antisymm ((npMax_spec e1).2 _ h) e4
      have : m + 3.2 ∈ npArange (m + 3.2) 50 3.2 := arange_mem.mpr ⟨0, by norm_num, by linarith⟩
      have := e6 _ (List.mem_append_right _ this)
      linarith
    · obtain ⟨k, hk, _⟩ := arange_mem.mp h
      have : mk + 3.2 ∈ npArange (m + 3.2) 50 3.2 :=
        arange_mem.mpr ⟨k + 1, by rw [hk]; push_cast; ring, by linarith⟩
      have := e6 _ (List.mem_append_right _ this)
      linarith
  · rw [e7, f7]
    exact List.append_right_inj _

/-- A used object can give levels a new object does not give: after a profile up to 10 km, a profile up to 45 km gets
the extra level 48.4 km. -/
theorem C54_history_refuted (lat : ℝ) (month : ℤ) (p t rh p' t' rh' : List ℝ) :
    (48.4 : ℝ) ∈ (extrapolate (extrapolate defaultHeights lat month [10] p t rh).2 lat month [45] p' t' rh').2 ∧
    (48.4 : ℝ) ∉ (extrapolate defaultHeights lat month [45] p' t' rh').2 := by
  have hz : ∀ a : ℝ, a < 50 → ∀ x ∈ [a], x < 50 := by intro a ha x hx; simp at hx; rw [hx]; exact ha
  have key : ∀ H : List ℝ, ∃ mk, mk = 48.2 ∧ (extrapolate H lat month [45] p' t' rh').2 =
      [45] ++ npArange (45 + 3.2) 50 3.2 ++ H.filter fun x => decide (mk < x) := by
    intro H
    obtain ⟨m, mk, e1, e2, e3, e4, e5, e6, e7⟩ := extrapolate_state (H := H) (z := [45]) (by simp) (hz 45 (by norm_num))
    obtain rfl : (45 : ℝ) = m := by simpa [npMax] using e1
    refine ⟨mk, ?_, e7 _ _ _ _ _⟩
    apply le_antisymm
    · rcases List.mem_append.mp (npMax_spec e3).1 with h | h
      · simp at h; rw [h]; norm_num
      · obtain ⟨k, hk, hk50⟩ := arange_mem.mp h
        have : k = 0 := by
          have : (k : ℝ) < 1 := by nlinarith
          have : k < 1 := by exact_mod_cast this
          omega
        subst this
        rw [hk]; norm_num
    · exact e6 _ (List.mem_append_right _ (arange_mem.mpr ⟨0, by norm_num, by norm_num⟩))
  constructor
  · obtain ⟨m, mk, e1, e2, e3, e4, e5, e6, e7⟩ := extrapolate_state (H := defaultHeights) (z := [10]) (by simp)
      (hz 10 (by norm_num))
    obtain rfl : (10 : ℝ) = m := by simpa [npMax] using e1
    obtain ⟨mk', h1, h2⟩ := key (extrapolate defaultHeights lat month [10] p t rh).2
    rw [h2, e7, h1]
    refine List.mem_append_right _ (List.mem_filter.mpr ⟨?_, by norm_num⟩)
    refine List.mem_append_left _ (List.mem_append_right _ (arange_mem.mpr ⟨11, by norm_num, by norm_num⟩))
  · obtain ⟨mk', h1, h2⟩ := key defaultHeights
    rw [h2]
    intro hmem
    rcases List.mem_append.mp hmem with h | h
    · rcases List.mem_append.mp h with h | h
      · simp at h; norm_num at h
      · obtain ⟨k, hk, hk50⟩ := arange_mem.mp h
        have h1 : (k : ℝ) < 1 := by nlinarith
        have h2 : k < 1 := by exact_mod_cast h1
        obtain rfl : k = 0 := by omega
        norm_num at hk
    · have := (List.mem_filter.mp h).1
      revert this
      unfold defaultHeights linspace
      simp only [List.range_succ_eq_map, List.range_zero, List.map_cons, List.map_nil, List.cons_append,
        List.nil_append]
      norm_num

/-! ## C55 -/

theorem rho2rh_first {w t p : ℝ} (hp : p ≠ 0) (hne : p ≠ w * t / 216.7) :
    climateRh (some w) (some t) (some p) = some (100 * (w * t / 216.7) / eswat t) := by
  set e := w * t / 216.7 with he
  have hd : p - e ≠ 0 := sub_ne_zero.mpr hne
  have hs := eswat_pos t
  have hk : epsRatio ≠ 0 := by norm_num [epsRatio]
  have hden : 1000.0 * epsRatio + 1000.0 * epsRatio * e / (p - e) ≠ 0 := by
    have : 1000.0 * epsRatio + 1000.0 * epsRatio * e / (p - e) = 1000.0 * epsRatio * p / (p - e) := by
      field_simp; ring
    rw [this]
    exact div_ne_zero (mul_ne_zero (mul_ne_zero (by norm_num) hk) hp) hd
  have hmr : p * (1000.0 * epsRatio * e / (p - e)) / (1000.0 * epsRatio + 1000.0 * epsRatio * e / (p - e)) = e := by
    rw [div_eq_iff hden]
    field_simp
    ring
  simp only [climateRh, Option.bind_some, rho2rh, ← he, e2mr, npDiv_of_ne hd, mr2rh, mr2e, npDiv_of_ne hden, hmr,
    satvap, npDiv_of_ne hs.ne']
  norm_num

/-- The humidity of every added level is the relative humidity in PERCENT (`100 * e / es` with the vapour pressure `e`
of the reference density at the reference temperature), while the measured part is documented, and kept, as a
fraction. -/
theorem C55_added_humidity_percent {H z p t rh : List ℝ} {lat : ℝ} {month : ℤ} {r : Extrapolated}
    (h : (extrapolate H lat month z p t rh).1 = .ok r) {i : ℕ} {y T P W : ℝ}
    (hy : r.height[z.length + i]? = some y) (hT : r.temp[z.length + i]? = some (some T))
    (hP : r.pres[z.length + i]? = some (some P))
    (hW : (getSeason lat month ≠ "standard" ∧ ituVapour lat y (getSeason lat month) = .ok (some W)) ∨
      (getSeason lat month = "standard" ∧ stdVapour y 2 7.5 = some W))
    (hP0 : P ≠ 0) (hPe : P ≠ W * T / 216.7) :
    r.rh[rh.length + i]? = some (some (100 * (W * T / 216.7) / eswat T)) := by
  obtain ⟨hs, ps, ts, rs, a1, a2, a3, a4, a5, a6, a7, a8, a9, _, _, _, hv⟩ := extrapolate_result h
  rw [a1, List.getElem?_append_right (by omega), Nat.add_sub_cancel_left] at hy
  rw [a2, List.getElem?_append_right (by rw [List.length_map]; omega), List.length_map, a5, Nat.add_sub_cancel_left] at hP
  rw [a3, List.getElem?_append_right (by rw [List.length_map]; omega), List.length_map, a6, Nat.add_sub_cancel_left] at hT
  rw [a4, List.getElem?_append_right (by rw [List.length_map]; omega), List.length_map, Nat.add_sub_cancel_left]
  obtain ⟨i1, e1⟩ := List.getElem?_eq_some_iff.mp hy
  obtain ⟨i2, e2⟩ := List.getElem?_eq_some_iff.mp hT
  obtain ⟨i3, e3⟩ := List.getElem?_eq_some_iff.mp hP
  have i4 : i < rs.length := by omega
  obtain ⟨w, hw, hrs⟩ := hv i i1 i2 i3 i4
  rw [e1, e2, e3] at hw
  rw [e2, e3] at hrs
  have hc := climate_spec hw
  have hwW : w = some W := by
    rcases hW with ⟨h1, h2⟩ | ⟨h1, h2⟩
    · have := (hc.1 h1).2.2
      rw [h2] at this
      exact (Except.ok.inj this).symm
    · have := (hc.2 h1).2.2
      rw [h2] at this; exact this.symm
  rw [hwW, rho2rh_first hP0 hPe] at hrs
  rw [List.getElem?_eq_getElem i4, hrs]

/-- A rough upper bound of the saturation vapour pressure. -/
theorem eswat_le {t : ℝ} (h0 : 0 < t) (h1 : t ≤ 290) : eswat t < 100 := by
  unfold eswat
  dsimp only
  set y := 373.16 / t with hy
  have hy1 : 1.28 ≤ y := by rw [hy, le_div_iff₀ h0]; nlinarith
  have hy0 : 0 < y := by linarith
  have hlog : logb 10 y ≤ (y - 1) / 2.3 := by
    have h10 : (2.3 : ℝ) ≤ Real.log 10 := by
      rw [Real.le_log_iff_exp_le (by norm_num)]
      have := Real.exp_one_lt_d9
      have e : Real.exp 2.3 = Real.exp 1 ^ 2 * Real.exp 0.3 := by
        rw [← Real.exp_nat_mul, ← Real.exp_add]; norm_num
      have h3 : Real.exp 0.3 ≤ 1.35 := by
        have := Real.exp_bound' (x := 0.3) (by norm_num) (by norm_num) (n := 4) (by norm_num)
        refine this.trans ?_
        norm_num [Finset.sum_range_succ, Nat.factorial]
      have h4 : Real.exp 1 ^ 2 ≤ 2.7182818286 ^ 2 := by gcongr
      rw [e]
      calc Real.exp 1 ^ 2 * Real.exp 0.3 ≤ 2.7182818286 ^ 2 * 1.35 := by gcongr
        _ ≤ 10 := by norm_num
    unfold logb
    have h5 := Real.log_le_sub_one_of_pos hy0
    rw [div_le_div_iff₀ (by linarith) (by norm_num)]
    have h6 : 0 ≤ y - 1 := by linarith
    nlinarith
  have hb1 : (1 : ℝ) ≤ (10.0 : ℝ) ^ ((11.344 : ℝ) * (1.0 - 1.0 / y)) := by
    apply Real.one_le_rpow (by norm_num)
    have : 1.0 / y ≤ 1 := by rw [div_le_one hy0]; norm_num; linarith
    norm_num at this ⊢; linarith
  have hb2 : (10.0 : ℝ) ^ (-1.0 * (3.49149 : ℝ) * (y - 1.0)) ≤ 1 := by
    apply Real.rpow_le_one_of_one_le_of_nonpos (by norm_num)
    norm_num; linarith
  have h13 : (1013.246 : ℝ) = 10 ^ logb 10 (1013.246 : ℝ) := by
    rw [Real.rpow_logb] <;> norm_num
  have : (100 : ℝ) = (10.0 : ℝ) ^ (2 : ℝ) := by norm_num
  rw [this]
  apply Real.rpow_lt_rpow_of_exponent_lt (by norm_num)
  have h14 : logb 10 (1013.246 : ℝ) < 3.1 := by
    rw [Real.logb_lt_iff_lt_rpow (by norm_num) (by norm_num)]
    have e : (10 : ℝ) ^ (3.1 : ℝ) = 10 ^ (3 : ℝ) * 10 ^ (0.1 : ℝ) := by rw [← Real.rpow_add (by norm_num)]; norm_num
    have h1 : (1.1 : ℝ) ≤ (10 : ℝ) ^ (0.1 : ℝ) := by
      have : (1.1 : ℝ) = (1.1 ^ (10 : ℝ)) ^ (0.1 : ℝ) := by
        rw [← Real.rpow_mul (by norm_num)]; norm_num
      rw [this]
      apply Real.rpow_le_rpow (by positivity) (by norm_num) (by norm_num)
    rw [e]
    have : (10 : ℝ) ^ (3 : ℝ) = 1000 := by norm_num
    rw [this]; linarith
  norm_num at hb1 hb2 hlog h14 ⊢
  linarith

/-- The units are mixed: a measured profile with fractional humidity 0.5 gets a first added level whose "fraction" is
larger than 1. -/
theorem C55_mixed_units_refuted : ∃ r v, (extrapolate defaultHeights 21 7 [0] [1012] [300] [0.5]).1 = .ok r ∧
    r.rh[0]? = some (some (0.5 : ℝ)) ∧ r.rh[1]? = some (some v) ∧ 1 < v := by
  obtain ⟨r, hr⟩ := (C53_succeeds_iff defaultHeights 21 7 [0] [1012] [300] [0.5]).mpr
    ⟨by simp, by intro x hx; simp at hx; rw [hx]; norm_num, rfl, rfl⟩
  have hseason : getSeason 21 7 = "summer" := by norm_num [getSeason]
  obtain ⟨hs, ps, ts, rs, a1, a2, a3, a4, a5, a6, a7, a8, a9, _, _, _, hv⟩ := extrapolate_result hr
  have hh : r.height[1]? = some (3.2 : ℝ) := by
    have := C53_heights_shared hr
    obtain ⟨m, mk, e1, e2, e3, e4, e5, e6, e7⟩ := extrapolate_state (H := defaultHeights) (z := [0]) (by simp)
      (by intro x hx; simp at hx; rw [hx]; norm_num)
    obtain rfl : (0 : ℝ) = m := by simpa [npMax] using e1
    rw [← this, e7]
    have hc : ⌈((50 : ℝ) - (0 + 3.2)) / 3.2⌉₊ = 14 + 1 := by
      rw [Nat.ceil_eq_iff (by norm_num)]; norm_num
    unfold npArange
    rw [hc, List.range_succ_eq_map]
    simp
  have hl : 0 < hs.length := by
    rw [a1] at hh
    have := (List.getElem?_eq_some_iff.mp hh).1
    simp at this; omega
  have hy : hs[0] = 3.2 := by
    rw [a1] at hh
    obtain ⟨h1, h2⟩ := List.getElem?_eq_some_iff.mp hh
    simpa using h2
  obtain ⟨w, hw, hrs⟩ := hv 0 hl (by omega) (by omega) (by omega)
  rw [hseason, hy] at hw
  have hcl := (climate_spec hw).1 (by decide)
  have hlat : |(21 : ℝ)| < 22 := by norm_num
  have hT : ts[0] = some (300.4222 - 6.3533 * 3.2 + 0.005886 * 3.2 ^ 2) := by
    have := hcl.1
    rw [ituTemperature, if_pos rfl, if_pos hlat, lowTemperature, if_pos (by norm_num)] at this
    exact (Except.ok.inj this).symm
  have hP : ps[0] = some (1012.0306 - 109.0338 * 3.2 + 3.6316 * 3.2 ^ 2) := by
    have := hcl.2.1
    rw [ituPressureAt, if_pos rfl, if_pos hlat, lowPressure, ituPressure, if_pos (by norm_num)] at this
    exact (Except.ok.inj this).symm
  have hW : w = some (19.6542 * exp (-0.2313 * 3.2 - 0.1122 * 3.2 ^ 2 + 0.01351 * 3.2 ^ 3 - 0.0005923 * 3.2 ^ 4)) := by
    have := hcl.2.2
    rw [ituVapour, if_pos rfl, if_pos hlat, lowVapour, if_pos (by norm_num)] at this
    exact (Except.ok.inj this).symm
  set x : ℝ := -0.2313 * 3.2 - 0.1122 * 3.2 ^ 2 + 0.01351 * 3.2 ^ 3 - 0.0005923 * 3.2 ^ 4 with hx
  have hx2 : -2 ≤ x ∧ x ≤ 0 := by rw [hx]; norm_num
  have hexp1 : exp x ≤ 1 := Real.exp_le_one_iff.mpr hx2.2
  have hexp2 : 0.1 ≤ exp x := by
    have h1 : exp (-2) ≤ exp x := Real.exp_le_exp.mpr hx2.1
    have h2 : (0.1 : ℝ) ≤ exp (-2) := by
      have e : exp (-2) = (exp 1 ^ 2)⁻¹ := by rw [← Real.exp_nat_mul, ← Real.exp_neg]; norm_num
      rw [e, le_inv_comm₀ (by norm_num) (by positivity)]
      have := Real.exp_one_lt_d9
      calc exp 1 ^ 2 ≤ 2.7182818286 ^ 2 := by gcongr
        _ ≤ (0.1 : ℝ)⁻¹ := by norm_num
    exact h2.trans h1
  set T : ℝ := 300.4222 - 6.3533 * 3.2 + 0.005886 * 3.2 ^ 2 with hTd
  set P : ℝ := 1012.0306 - 109.0338 * 3.2 + 3.6316 * 3.2 ^ 2 with hPd
  have hT2 : 280 ≤ T ∧ T ≤ 290 := by rw [hTd]; norm_num
  have hP2 : 600 ≤ P := by rw [hPd]; norm_num
  have hm1 : exp x * T ≤ 1 * 290 := mul_le_mul hexp1 hT2.2 (by linarith [hT2.1]) (by norm_num)
  have hm2 : 0.1 * 280 ≤ exp x * T := mul_le_mul hexp2 hT2.1 (by norm_num) (by positivity)
  have he : 19.6542 * exp x * T / 216.7 ≤ 30 := by
    rw [div_le_iff₀ (by norm_num), mul_assoc]; norm_num at hm1 ⊢; linarith
  have he2 : 2 ≤ 19.6542 * exp x * T / 216.7 := by
    rw [le_div_iff₀ (by norm_num), mul_assoc]; norm_num at hm2 ⊢; linarith
  rw [hT, hP, hW, rho2rh_first (by linarith) (by intro h; linarith)] at hrs
  refine ⟨r, 100 * (19.6542 * rexp x * T / 216.7) / eswat T, hr, by rw [a4]; rfl, ?_, ?_⟩
  · rw [a4]
    show (some (0.5 : ℝ) :: rs)[0 + 1]? = _
    rw [List.getElem?_cons_succ, List.getElem?_eq_getElem (by omega), hrs]
  · rw [lt_div_iff₀ (eswat_pos T)]
    have := eswat_le (t := T) (by linarith) hT2.2
    generalize 19.6542 * rexp x * T / 216.7 = q at he2 ⊢
    generalize eswat T = s at this ⊢
    linarith

end Verif.Props
