import Verif.Model.Plot
import Verif.Props.Weighting

/-!
# C76, C77, C78, C79: what the plots of the weighting functions show
-/

namespace Verif.Props

open Verif.Py Verif.Model Real

/-! ## Helpers -/

theorem mapM_ok_of {α β : Type} (g : α → Except PyErr β) (l : List α) (h : ∀ x ∈ l, ∃ y, g x = .ok y) :
    ∃ r, l.mapM g = .ok r ∧ r.length = l.length ∧ ∀ (i : ℕ) (x : α), l[i]? = some x → ∃ y, g x = .ok y ∧ r[i]? = some y := by
  induction l with
  | nil => exact ⟨[], rfl, rfl, by simp⟩
  | cons a l ih =>
    obtain ⟨y, hy⟩ := h a List.mem_cons_self
    obtain ⟨r, hr, hl, hi⟩ := ih fun x hx => h x (List.mem_cons_of_mem _ hx)
    refine ⟨y :: r, ?_, by simp [hl], ?_⟩
    · rw [List.mapM_cons, hy]; simp only [bind, Except.bind, hr]; rfl
    · intro i x hx
      cases i with
      | zero =>
        simp only [List.getElem?_cons_zero, Option.some.injEq] at hx
        subst hx; exact ⟨y, hy, by simp⟩
      | succ i => simpa using hi i x (by simpa using hx)

theorem mapM_error_of {α β : Type} (g : α → Except PyErr β) (l : List α) {n : ℕ} {x : α} {e : PyErr}
    (hx : l[n]? = some x) (he : g x = .error e) (h : ∀ i < n, ∀ x, l[i]? = some x → ∃ y, g x = .ok y) :
    l.mapM g = .error e := by
  induction l generalizing n with
  | nil => simp at hx
  | cons a l ih =>
    rw [List.mapM_cons]
    cases n with
    | zero =>
      simp only [List.getElem?_cons_zero, Option.some.injEq] at hx
      subst hx; rw [he]; rfl
    | succ n =>
      obtain ⟨y, hy⟩ := h 0 (by omega) a (by simp)
      rw [hy]
      have := ih (n := n) (by simpa using hx) fun i hi x hx => h (i + 1) (by omega) x (by simpa using hx)
      simp only [bind, Except.bind, this]

/-- `k` is the first place where the list is highest. -/
def FirstTop (l : List ℝ) (k : ℕ) : Prop :=
  ∃ v, l[k]? = some v ∧ (∀ x ∈ l, x ≤ v) ∧ ∀ j < k, ∀ x, l[j]? = some x → x < v

theorem idx_range {n m : ℕ} (h : m < n) : (List.range n).idxOf m = m := by
  have := List.Nodup.idxOf_getElem (List.nodup_range (n := n)) m (by simpa using h)
  simpa using this

theorem argmax_first {l : List ℝ} (hl : l ≠ []) : ∃ k, npArgmax l = some k ∧ FirstTop l k := by
  unfold npArgmax
  cases h : (List.range l.length).argmax fun i => l.getD i 0 with
  | none =>
    rw [List.argmax_eq_none] at h
    simp at h; exact absurd h hl
  | some m =>
    have hm : m ∈ (List.range l.length).argmax fun i => l.getD i 0 := h
    obtain ⟨h1, h2, h3⟩ := List.mem_argmax_iff.mp hm
    have hm' : m < l.length := by simpa using h1
    have e : ∀ i (hi : i < l.length), l.getD i 0 = l[i] := fun i hi => by
      simp [List.getD, List.getElem?_eq_getElem hi]
    refine ⟨m, rfl, l[m], List.getElem?_eq_getElem hm', ?_, ?_⟩
    · intro x hx
      obtain ⟨i, hi, rfl⟩ := List.getElem_of_mem hx
      have := h2 i (by simpa using hi)
      rwa [e i hi, e m hm'] at this
    · intro j hj x hx
      have hjl : j < l.length := by omega
      rw [List.getElem?_eq_getElem hjl, Option.some.injEq] at hx
      subst hx
      by_contra hc
      have := h3 j (by simpa using hjl) (by rw [e j hjl, e m hm']; exact not_lt.mp hc)
      rw [idx_range hm', idx_range hjl] at this
      omega

theorem firstTop_scale {l : List ℝ} {k : ℕ} {m : ℝ} (hm : 0 < m) (h : FirstTop l k) :
    FirstTop (l.map fun x => x / m) k := by
  obtain ⟨v, h1, h2, h3⟩ := h
  refine ⟨v / m, by simp [h1], ?_, ?_⟩
  · intro x hx
    obtain ⟨y, hy, rfl⟩ := List.mem_map.mp hx
    exact div_le_div_of_nonneg_right (h2 y hy) hm.le
  · intro j hj x hx
    rw [List.getElem?_map] at hx
    cases hy : l[j]? with
    | none => rw [hy] at hx; simp at hx
    | some y =>
      rw [hy] at hx
      simp only [Option.map_some, Option.some.injEq] at hx
      rw [← hx]
      exact div_lt_div_of_pos_right (h3 j hj y hy) hm

theorem peakHeight_ok {z row : List ℝ} (h2 : 2 ≤ z.length) (hr : row.length = z.length) :
    ∃ k h, FirstTop row.tail k ∧ z[k]? = some h ∧ k + 1 < z.length ∧ peakHeight z.dropLast row = .ok h := by
  have hne : row.tail ≠ [] := by
    intro e
    have := congrArg List.length e
    simp at this; omega
  obtain ⟨k, hk, ht⟩ := argmax_first hne
  obtain ⟨v, hv, -⟩ := id ht
  have hkl : k < row.tail.length := (List.getElem?_eq_some_iff.mp hv).1
  simp only [List.length_tail] at hkl
  have hkz : k < z.length := by omega
  refine ⟨k, z[k], ht, List.getElem?_eq_getElem hkz, by omega, ?_⟩
  unfold peakHeight
  rw [hk]
  have : z.dropLast[k]? = some z[k] := by
    rw [List.getElem?_eq_getElem (by simp; omega), List.getElem_dropLast]
  simp only [this]

theorem pressureAxis_ok {z p : List ℝ} (h : z ≠ []) (ylim : Option (ℝ × ℝ)) : ∃ r, pressureAxis z p ylim = .ok r := by
  cases z with
  | nil => exact absurd rfl h
  | cons a l => exact ⟨_, rfl⟩

theorem npMin_spec {z : List ℝ} {m : ℝ} (h : npMin z = some m) : m ∈ z ∧ ∀ x ∈ z, m ≤ x := by
  cases z with
  | nil => cases h
  | cons a l =>
    simp only [npMin, Option.some.injEq] at h
    subst h
    induction l generalizing a with
    | nil => simp
    | cons b l ih =>
      obtain ⟨h1, h2⟩ := ih (min a b)
      simp only [List.foldl_cons]
      constructor
      · rcases List.mem_cons.mp h1 with e | e
        · rcases min_choice a b with h | h <;> rw [h] at e <;> rw [h, e] <;> simp
        · exact List.mem_cons_of_mem _ (List.mem_cons_of_mem _ e)
      · intro x hx
        have hm := h2 (min a b) List.mem_cons_self
        rcases List.mem_cons.mp hx with rfl | hx
        · exact hm.trans (min_le_left _ _)
        · rcases List.mem_cons.mp hx with rfl | hx
          · exact hm.trans (min_le_right _ _)
          · exact h2 x (List.mem_cons_of_mem _ hx)

/-! ## C76 -/

/-- The curve a satellite plot should show for the frequency `f` with the weights `row` on the heights `z`, in units of
`m`: one point for every level except the lowest, drawn at the height of the level below, the label carrying the
lowest height where the curve is highest, dashed when that height is 0. -/
structure SatelliteCurve (z row : List ℝ) (m f : ℝ) (c : Curve) : Prop where
  freq : c.freq = some f
  sizes : c.xs.length + 1 = z.length ∧ c.ys.length = c.xs.length
  points : ∀ k, k + 1 < z.length → ∃ x h, row[k + 1]? = some x ∧ z[k]? = some h ∧ c.xs[k]? = some (x / m) ∧ c.ys[k]? = some h
  peak : ∃ k h, FirstTop c.xs k ∧ z[k]? = some h ∧ c.peak = some h ∧ (c.dashed = true ↔ h = 0)

theorem satCurve_ok {z row : List ℝ} (h2 : 2 ≤ z.length) (hr : row.length = z.length) {m : ℝ} (hm : 0 < m) (f : ℝ) :
    ∃ c, satCurve z.dropLast row (some m) f = .ok c ∧ c.xs = row.tail.map (fun x => x / m) ∧ SatelliteCurve z row m f c := by
  obtain ⟨k, h, ht, hz, hk, hp⟩ := peakHeight_ok h2 hr
  refine ⟨⟨row.tail.map fun x => x / m, z.dropLast, @decide (h = 0) (Classical.propDecidable _), some f, some h⟩, ?_, rfl,
    rfl, ⟨by simp; omega, by simp; omega⟩, ?_, ?_⟩
  · unfold satCurve
    rw [hp]
    simp only [bind, Except.bind, if_neg hm.ne', drawn]
    rw [if_pos (by simp; omega)]
  · intro j hj
    refine ⟨row[j + 1], z[j], List.getElem?_eq_getElem _, List.getElem?_eq_getElem _, ?_, ?_⟩
    · rw [List.getElem?_map, List.getElem?_tail, List.getElem?_eq_getElem]; rfl
    · rw [List.getElem?_eq_getElem (by simp; omega), List.getElem_dropLast]
  · exact ⟨k, h, firstTop_scale hm ht, hz, rfl, by simp⟩

theorem plot_ok {w : WF} {wgt m : List (List ℝ)} {ncol : ℕ} {nz : Bool} {norm frq : List ℝ}
    (hc : w.channels wgt ncol = .ok (m, some frq)) (hn : normalizers m ncol nz = .ok norm) (hz : w.zinterp ≠ [])
    (ylim : Option (ℝ × ℝ)) (P : ℕ → ℝ → Curve → Prop)
    (h : ∀ i f, frq[i]? = some f → ∃ c, plotCurve w.satellite w.zinterp m norm f i = .ok c ∧ P i f c) :
    ∃ fig, w.plot wgt ncol ylim nz = .ok (fig, { w with frequencies := some frq }) ∧
      fig.curves.length = frq.length ∧ ∀ i f, frq[i]? = some f → ∃ c, fig.curves[i]? = some c ∧ P i f c := by
  obtain ⟨p, hp⟩ := pressureAxis_ok (p := w.pinterp) hz ylim
  have key : ∀ x ∈ frq.zipIdx, ∃ c, plotCurve w.satellite w.zinterp m norm x.1 x.2 = .ok c ∧ P x.2 x.1 c := by
    intro x hx
    obtain ⟨i, hi, rfl⟩ := List.getElem_of_mem hx
    simp only [List.getElem_zipIdx, zero_add]
    exact h i _ (List.getElem?_eq_getElem (by simpa using hi))
  obtain ⟨r, h1, h3, h4⟩ := mapM_ok_of _ frq.zipIdx fun x hx => (key x hx).imp fun _ h => h.1
  refine ⟨⟨r, [], p⟩, ?_, by simpa using h3, ?_⟩
  · unfold WF.plot
    rw [hc]
    simp only [bind, Except.bind, pure, Except.pure, hn]
    rw [h1]
    simp only [hp]
  · intro i f hfi
    have hx : frq.zipIdx[i]? = some (f, i) := by simp [hfi]
    obtain ⟨c, e, hc⟩ := h4 i _ hx
    obtain ⟨c', e', hc'⟩ := key _ (List.mem_of_getElem? hx)
    rw [e'] at e
    simp only [Except.ok.injEq] at e
    exact ⟨c, hc, e ▸ hc'⟩

theorem plot_same {w : WF} {frq : List ℝ} (hf : w.frequencies = some frq) : { w with frequencies := some frq } = w := by
  cases w; simp_all

/-- **C76.** A satellite plot without averaging shows one curve per frequency, in order, as long as there are no more
frequencies than levels; the object is left as it was. -/
theorem C76_satellite {w : WF} {wgt : List (List ℝ)} {frq : List ℝ} (hs : w.satellite = true) (hb : w.bandpass = none)
    (hf : w.frequencies = some frq) (hw : wgt.length = frq.length) (h2 : 2 ≤ w.zinterp.length)
    (hr : ∀ r ∈ wgt, r.length = w.zinterp.length) (hn : wgt.length ≤ w.zinterp.length) (ylim : Option (ℝ × ℝ)) :
    ∃ fig, w.plot wgt w.zinterp.length ylim false = .ok (fig, w) ∧ fig.curves.length = frq.length ∧
      ∀ (i : ℕ) (f : ℝ) (row : List ℝ), frq[i]? = some f → wgt[i]? = some row →
        ∃ c, fig.curves[i]? = some c ∧ SatelliteCurve w.zinterp row 1 f c := by
  obtain ⟨fig, h1, h3, h4⟩ := plot_ok (w := w) (wgt := wgt) (ncol := w.zinterp.length) (nz := false)
    (by unfold WF.channels; rw [hb, hf]) rfl (by intro e; simp [e] at h2) ylim
    (fun i f c => ∀ row, wgt[i]? = some row → SatelliteCurve w.zinterp row 1 f c) (by
      intro i f hi
      have hi' : i < wgt.length := by rw [hw]; exact (List.getElem?_eq_some_iff.mp hi).1
      obtain ⟨c, hc, -, hc'⟩ := satCurve_ok h2 (hr _ (List.getElem_mem hi')) one_pos f
      refine ⟨c, ?_, ?_⟩
      · rw [plotCurve, List.getElem?_eq_getElem hi']
        simp only [hs, if_true]
        rw [List.getElem?_replicate, if_pos (by omega)]
        exact hc
      · intro row h
        rw [List.getElem?_eq_getElem hi', Option.some.injEq] at h
        rw [← h]; exact hc')
  refine ⟨fig, by rw [h1, plot_same hf], h3, fun i f row hi hr => ?_⟩
  obtain ⟨c, hc, hc'⟩ := h4 i f hi
  exact ⟨c, hc, hc' row hr⟩

/-- **C76, violation.** With more frequencies than levels the same plot fails: the array of ones that stands for "not
normalized" has one entry per level instead of one per frequency. -/
theorem C76_too_many {w : WF} {wgt : List (List ℝ)} {frq : List ℝ} (hs : w.satellite = true) (hb : w.bandpass = none)
    (hf : w.frequencies = some frq) (hw : wgt.length = frq.length) (h2 : 2 ≤ w.zinterp.length)
    (hr : ∀ r ∈ wgt, r.length = w.zinterp.length) (hn : w.zinterp.length < wgt.length) (ylim : Option (ℝ × ℝ)) :
    w.plot wgt w.zinterp.length ylim false = .error .indexError := by
  have hrun : ∀ (i : ℕ) (f : ℝ), i < wgt.length → plotCurve w.satellite w.zinterp wgt (List.replicate w.zinterp.length 1) f i =
      satCurve w.zinterp.dropLast (wgt.getD i []) (List.replicate w.zinterp.length (1 : ℝ))[i]? f := by
    intro i f hi
    rw [plotCurve, List.getElem?_eq_getElem hi]
    simp only [hs, if_true, List.getD, List.getElem?_eq_getElem hi, Option.getD_some]
  have hrow : ∀ i < wgt.length, (wgt.getD i []).length = w.zinterp.length := by
    intro i hi
    simp only [List.getD, List.getElem?_eq_getElem hi, Option.getD_some]
    exact hr _ (List.getElem_mem hi)
  have hnf : w.zinterp.length < frq.length := by omega
  have he := mapM_error_of (fun x : ℝ × ℕ => plotCurve w.satellite w.zinterp wgt (List.replicate w.zinterp.length 1) x.1 x.2)
    frq.zipIdx (n := w.zinterp.length) (x := (frq[w.zinterp.length], w.zinterp.length)) (e := .indexError)
    (by simp [hnf]) (by
      simp only
      rw [hrun _ _ hn]
      obtain ⟨k, h, -, -, -, hp⟩ := peakHeight_ok h2 (hrow _ hn)
      unfold satCurve
      rw [hp]
      simp [bind, Except.bind]) (by
      intro i hi x hx
      have hx' : x.2 = i := by
        rw [List.getElem?_zipIdx] at hx
        cases h : frq[i]? with
        | none => simp [h] at hx
        | some a => simp only [h, Option.map_some, Option.some.injEq] at hx; rw [← hx]; simp
      obtain ⟨c, hc, -⟩ := satCurve_ok h2 (hrow i (by omega)) one_pos x.1
      refine ⟨c, ?_⟩
      rw [hrun _ _ (by omega), hx', List.getElem?_replicate, if_pos hi]
      exact hc)
  unfold WF.plot WF.channels normalizers
  rw [hb]
  simp only [bind, Except.bind, hf, Bool.false_eq_true, if_false]
  rw [he]

/-- **C76.** A normalized satellite plot divides every curve by the greatest weight of its frequency over all levels,
the lowest one included, which is not drawn: the curve reaches 1 exactly when that greatest weight is also attained
above the lowest level. -/
theorem C76_normalized {w : WF} {wgt : List (List ℝ)} {frq : List ℝ} (hs : w.satellite = true) (hb : w.bandpass = none)
    (hf : w.frequencies = some frq) (hw : wgt.length = frq.length) (h2 : 2 ≤ w.zinterp.length)
    (hr : ∀ r ∈ wgt, r.length = w.zinterp.length) (hpos : ∀ r ∈ wgt, ∃ x ∈ r, 0 < x) (ylim : Option (ℝ × ℝ)) :
    ∃ fig, w.plot wgt w.zinterp.length ylim true = .ok (fig, w) ∧ fig.curves.length = frq.length ∧
      ∀ (i : ℕ) (f : ℝ) (row : List ℝ), frq[i]? = some f → wgt[i]? = some row →
        ∃ c m, fig.curves[i]? = some c ∧ IsGreatest {x | x ∈ row} m ∧ SatelliteCurve w.zinterp row m f c ∧
          (∀ x ∈ c.xs, x ≤ 1) ∧ (1 ∈ c.xs ↔ m ∈ row.tail) := by
  have hmax : ∀ r ∈ wgt, ∃ m, npMax r = some m ∧ IsGreatest {x | x ∈ r} m ∧ 0 < m := by
    intro r hrm
    cases h : npMax r with
    | none =>
      cases r with
      | nil => have := hr _ hrm; simp at this; omega
      | cons a l => simp [npMax] at h
    | some m =>
      obtain ⟨h3, h4⟩ := npMax_spec h
      obtain ⟨x, hx, hx0⟩ := hpos r hrm
      exact ⟨m, rfl, ⟨h3, h4⟩, hx0.trans_le (h4 x hx)⟩
  have hnorm : ∃ norm, wgt.mapM npMax = some norm ∧ ∀ (i : ℕ) (r : List ℝ), wgt[i]? = some r → norm[i]? = npMax r := by
    clear hr hw hpos
    induction wgt with
    | nil => exact ⟨[], rfl, by simp⟩
    | cons a l ih =>
      obtain ⟨m, hm, -⟩ := hmax a List.mem_cons_self
      obtain ⟨n, hn, hn'⟩ := ih fun r h => hmax r (List.mem_cons_of_mem _ h)
      refine ⟨m :: n, by simp [List.mapM_cons, hm, hn], ?_⟩
      intro i r hi
      cases i with
      | zero => simp only [List.getElem?_cons_zero, Option.some.injEq] at hi ⊢; rw [← hi, hm]
      | succ i => simpa using hn' i r (by simpa using hi)
  obtain ⟨norm, hn1, hn2⟩ := hnorm
  obtain ⟨fig, h1, h3, h4⟩ := plot_ok (w := w) (wgt := wgt) (ncol := w.zinterp.length) (nz := true) (norm := norm)
    (by unfold WF.channels; rw [hb, hf]) (by unfold normalizers; rw [hn1]; rfl) (by intro e; simp [e] at h2) ylim
    (fun i f c => ∀ row, wgt[i]? = some row → ∃ m, IsGreatest {x | x ∈ row} m ∧ SatelliteCurve w.zinterp row m f c ∧
      (∀ x ∈ c.xs, x ≤ 1) ∧ (1 ∈ c.xs ↔ m ∈ row.tail)) (by
      intro i f hi
      have hi' : i < wgt.length := by rw [hw]; exact (List.getElem?_eq_some_iff.mp hi).1
      have hmem := List.getElem_mem hi'
      obtain ⟨m, hm, hg, hm0⟩ := hmax _ hmem
      obtain ⟨c, hc, hxs, hc'⟩ := satCurve_ok h2 (hr _ hmem) hm0 f
      refine ⟨c, ?_, ?_⟩
      · rw [plotCurve, List.getElem?_eq_getElem hi']
        simp only [hs, if_true]
        rw [hn2 i _ (List.getElem?_eq_getElem hi'), hm]
        exact hc
      · intro row h
        rw [List.getElem?_eq_getElem hi', Option.some.injEq] at h
        rw [h] at hg hc' hxs
        refine ⟨m, hg, hc', ?_, ?_⟩
        · intro x hx
          rw [hxs] at hx
          obtain ⟨y, hy, rfl⟩ := List.mem_map.mp hx
          exact (div_le_one hm0).mpr (hg.2 (List.mem_of_mem_tail hy))
        · rw [hxs, List.mem_map]
          constructor
          · rintro ⟨y, hy, e⟩
            rw [div_eq_one_iff_eq hm0.ne'] at e
            rwa [← e]
          · intro h
            exact ⟨m, h, div_self hm0.ne'⟩)
  refine ⟨fig, by rw [h1, plot_same hf], h3, fun i f row hi hr => ?_⟩
  obtain ⟨c, hc, hc'⟩ := h4 i f hi
  obtain ⟨m, hm⟩ := hc' row hr
  exact ⟨c, m, hc, hm⟩

/-- **C76.** A ground-based plot shows every level at its own height; the `normalized` option has no effect. -/
theorem C76_ground {w : WF} {wgt : List (List ℝ)} {frq : List ℝ} (hs : w.satellite = false) (hb : w.bandpass = none)
    (hf : w.frequencies = some frq) (hw : wgt.length = frq.length) (h2 : w.zinterp ≠ [])
    (hr : ∀ r ∈ wgt, r.length = w.zinterp.length) (ylim : Option (ℝ × ℝ)) (normalized : Bool) :
    ∃ fig, w.plot wgt w.zinterp.length ylim normalized = .ok (fig, w) ∧ fig.curves.length = frq.length ∧
      ∀ (i : ℕ) (f : ℝ) (row : List ℝ), frq[i]? = some f → wgt[i]? = some row →
        fig.curves[i]? = some ⟨row, w.zinterp, false, some f, none⟩ := by
  have hnorm : ∃ norm, normalizers wgt w.zinterp.length normalized = .ok norm := by
    unfold normalizers
    cases normalized with
    | false => exact ⟨_, rfl⟩
    | true =>
      have : ∃ norm, wgt.mapM npMax = some norm := by
        clear hw
        induction wgt with
        | nil => exact ⟨[], rfl⟩
        | cons a l ih =>
          obtain ⟨n, hn⟩ := ih fun r h => hr r (List.mem_cons_of_mem _ h)
          have ha := hr a List.mem_cons_self
          cases a with
          | nil => exact absurd (List.length_eq_zero_iff.mp ha.symm) h2
          | cons x t => exact ⟨_, by simp only [List.mapM_cons, npMax, hn]; rfl⟩
      obtain ⟨n, hn⟩ := this
      exact ⟨n, by rw [hn]; rfl⟩
  obtain ⟨norm, hn⟩ := hnorm
  obtain ⟨fig, h1, h3, h4⟩ := plot_ok (w := w) (wgt := wgt) (ncol := w.zinterp.length) (nz := normalized) (norm := norm)
    (by unfold WF.channels; rw [hb, hf]) hn h2 ylim
    (fun i f c => ∀ row, wgt[i]? = some row → c = ⟨row, w.zinterp, false, some f, none⟩) (by
      intro i f hi
      have hi' : i < wgt.length := by rw [hw]; exact (List.getElem?_eq_some_iff.mp hi).1
      refine ⟨⟨wgt[i], w.zinterp, false, some f, none⟩, ?_, ?_⟩
      · rw [plotCurve, List.getElem?_eq_getElem hi']
        simp only [hs, Bool.false_eq_true, if_false, groundCurve, drawn]
        rw [if_pos (hr _ (List.getElem_mem hi'))]
      · intro row h
        rw [List.getElem?_eq_getElem hi', Option.some.injEq] at h
        rw [h])
  refine ⟨fig, by rw [h1, plot_same hf], h3, fun i f row hi hr => ?_⟩
  obtain ⟨c, hc, hc'⟩ := h4 i f hi
  rw [hc, hc' row hr]

/-- **C76.** What a satellite plot of computed weights shows at height `z k`: the transmittance between that height and
the top, times the absorption coefficient of the level *above*; it is the weighting function of that height exactly
when the two coefficients agree. -/
theorem C76_height {w : WF} {frq : List ℝ} {n nf : ℕ} {tau a : ℕ → ℕ → ℝ} {wgt : List (List ℝ)}
    (hs : w.satellite = true) (hb : w.bandpass = none) (hf : w.frequencies = some frq) (hnf : frq.length = nf)
    (hz : w.zinterp.Nodup) (hl : w.zinterp.length = n + 1) (h1 : 1 ≤ n) (hn : nf ≤ n + 1)
    (hgen : wfCore true w.zinterp (tab nf (n + 1) tau) (tab nf (n + 1) a) = some wgt) (ylim : Option (ℝ × ℝ)) :
    ∃ fig, w.plot wgt w.zinterp.length ylim false = .ok (fig, w) ∧
      ∀ i < nf, ∃ c, fig.curves[i]? = some c ∧ ∀ k < n, ∃ h, w.zinterp[k]? = some h ∧ c.ys[k]? = some h ∧
        c.xs[k]? = some (exp (-opacityBetween (tau i) n k) * a i (k + 1)) ∧
        (exp (-opacityBetween (tau i) n k) * a i (k + 1) = weightSpec (tau i) (a i) n k ↔ a i (k + 1) = a i k) := by
  rw [C50_satellite hz hl] at hgen
  simp only [Option.some.injEq] at hgen
  subst hgen
  obtain ⟨fig, h3, -, h4⟩ := C76_satellite (wgt := tab nf (n + 1) fun f j =>
    exp (-(∑ k ∈ Finset.Ico j (n + 1), tau f k)) * a f j) hs hb hf (by simp [tab, hnf]) (by omega)
    (by intro r hr; simp only [tab, List.mem_map] at hr; obtain ⟨i, -, rfl⟩ := hr; simp [hl])
    (by simp [tab]; omega) ylim
  refine ⟨fig, h3, fun i hi => ?_⟩
  obtain ⟨c, hc, hc'⟩ := h4 i (frq[i]'(by omega)) _ (List.getElem?_eq_getElem _) (by
    simp only [tab, List.getElem?_map, List.getElem?_range hi, Option.map_some]; rfl)
  refine ⟨c, hc, fun k hk => ?_⟩
  obtain ⟨x, h, hx, hh, hcx, hcy⟩ := hc'.points k (by omega)
  refine ⟨h, hh, hcy, ?_, ?_⟩
  · rw [hcx]
    simp only [List.getElem?_map, List.getElem?_range (show k + 1 < n + 1 by omega), Option.map_some,
      Option.some.injEq] at hx
    rw [← hx, div_one]
    congr 3
    have := (C50_satellite_shift (tau i) (a i) (show k + 1 ≤ n by omega)).2 (by omega)
    simpa using this
  · rw [weightSpec]
    constructor
    · intro h; exact mul_left_cancel₀ (exp_pos _).ne' h
    · intro h; rw [h]

/-! ## C77 -/

theorem mapM_id_some {α : Type} (l : List α) : (l.map some).mapM id = some l := by
  induction l with
  | nil => rfl
  | cons a l ih => simp [List.mapM_cons, ih]

/-- Mean over the frequencies of channel `i` of the weights at level `c`. -/
noncomputable def channelMean (W : ℕ → ℕ → ℝ) (bp : List ℕ) (i c : ℕ) : ℝ :=
  (∑ f ∈ Finset.Ico ((bp.take i).sum) ((bp.take i).sum + bp.getD i 0), W f c) / bp.getD i 0

theorem means_ok (W : ℕ → ℕ → ℝ) {nf ncol : ℕ} {bp : List ℕ} (hsum : bp.sum ≤ nf) (hpos : ∀ b ∈ bp, 0 < b) :
    allFinite (meanChannel (tab nf ncol W) ncol bp 0) = some (tab bp.length ncol (channelMean W bp)) := by
  obtain ⟨h1, h2⟩ := C51_mean W (ncol := ncol) bp hsum hpos
  have e : meanChannel (tab nf ncol W) ncol bp 0 = (tab bp.length ncol (channelMean W bp)).map (List.map some) := by
    apply List.ext_getElem?
    intro i
    by_cases hi : i < bp.length
    · obtain ⟨row, hr, hl, hc⟩ := h2 i bp[i] (List.getElem?_eq_getElem hi)
      rw [hr]
      simp only [tab, List.map_map, List.getElem?_map, List.getElem?_range hi, Option.map_some, Option.some.injEq]
      apply List.ext_getElem?
      intro c
      by_cases hcc : c < ncol
      · rw [hc c hcc]
        simp [List.getElem?_range hcc, channelMean, List.getD, List.getElem?_eq_getElem hi]
      · rw [List.getElem?_eq_none (by omega), List.getElem?_eq_none (by simp; omega)]
    · rw [List.getElem?_eq_none (by omega), List.getElem?_eq_none (by simp [tab]; omega)]
  rw [e, allFinite]
  induction tab bp.length ncol (channelMean W bp) with
  | nil => rfl
  | cons a l ih => simp only [List.map_cons, List.mapM_cons, mapM_id_some, ih]; rfl

theorem labels_ok {frq : List ℝ} {bp : List ℕ} (hl : bp.length ≤ frq.length) (hpos : ∀ b ∈ bp, 0 < b) :
    ∃ fs : List ℝ, (plotFrequencies frq bp).mapM id = some fs ∧ fs.length = bp.length ∧
      ∀ (i b : ℕ), bp[i]? = some b → fs[i]? = npMean ((frq.drop i).take b) := by
  have key : ∀ (i b : ℕ), bp[i]? = some b →
      npMean ((frq.drop i).take b) = some (((frq.drop i).take b).sum / ((frq.drop i).take b).length) := by
    intro i b hb
    unfold npMean
    have hi := (List.getElem?_eq_some_iff.mp hb).1
    have := hpos b (List.mem_of_getElem? hb)
    rw [npDiv_of_ne]
    have : 0 < ((frq.drop i).take b).length := by simp; omega
    exact_mod_cast this.ne'
  refine ⟨bp.mapIdx fun i b => ((frq.drop i).take b).sum / ((frq.drop i).take b).length, ?_, by simp, ?_⟩
  · rw [← mapM_id_some (bp.mapIdx _)]
    congr 1
    apply List.ext_getElem?
    intro i
    rw [plotFrequencies, List.getElem?_map, List.getElem?_mapIdx, List.getElem?_mapIdx]
    cases hb : bp[i]? with
    | none => rfl
    | some b => simp only [Option.map_some, key i b hb]
  · intro i b hb
    rw [List.getElem?_mapIdx, hb, key i b hb]; rfl

theorem channels_ok {w : WF} {W : ℕ → ℕ → ℝ} {nf ncol : ℕ} {bp : List ℕ} {frq fs : List ℝ} (hb : w.bandpass = some bp)
    (hf : w.frequencies = some frq) (hne : bp ≠ []) (hsum : bp.sum ≤ nf) (hpos : ∀ b ∈ bp, 0 < b)
    (hfs : (plotFrequencies frq bp).mapM id = some fs) :
    w.channels (tab nf ncol W) ncol = .ok (tab bp.length ncol (channelMean W bp), some fs) := by
  unfold WF.channels
  rw [hb]
  cases bp with
  | nil => exact absurd rfl hne
  | cons b l => simp only [hf, means_ok W hsum hpos, hfs]

/-- **C77.** A satellite plot of averaged channels shows one curve per channel, the mean of the weights of the
frequencies of that channel; the object is left with one frequency per channel. -/
theorem C77_satellite {w : WF} {W : ℕ → ℕ → ℝ} {nf n : ℕ} {bp : List ℕ} {frq : List ℝ} (hs : w.satellite = true)
    (hb : w.bandpass = some bp) (hf : w.frequencies = some frq) (hl : w.zinterp.length = n + 1) (h1 : 1 ≤ n)
    (hne : bp ≠ []) (hsum : bp.sum ≤ nf) (hpos : ∀ b ∈ bp, 0 < b) (hlf : bp.length ≤ frq.length) (hn : bp.length ≤ n + 1)
    (ylim : Option (ℝ × ℝ)) :
    ∃ fig fs, w.plot (tab nf (n + 1) W) (n + 1) ylim false = .ok (fig, { w with frequencies := some fs }) ∧
      fig.curves.length = bp.length ∧ fs.length = bp.length ∧
      ∀ (i b : ℕ), bp[i]? = some b → ∃ c f, fig.curves[i]? = some c ∧ fs[i]? = some f ∧
        npMean ((frq.drop i).take b) = some f ∧
        SatelliteCurve w.zinterp ((List.range (n + 1)).map fun k =>
          (∑ j ∈ Finset.Ico ((bp.take i).sum) ((bp.take i).sum + b), W j k) / b) 1 f c := by
  obtain ⟨fs, hfs, hfl, hfi⟩ := labels_ok hlf hpos
  obtain ⟨fig, h3, h4, h5⟩ := plot_ok (nz := false) (channels_ok (W := W) (ncol := n + 1) hb hf hne hsum hpos hfs) rfl
    (by intro e; simp [e] at hl) ylim
    (fun i f c => SatelliteCurve w.zinterp ((List.range (n + 1)).map (channelMean W bp i)) 1 f c) (by
      intro i f hi
      have hi' : i < bp.length := by rw [← hfl]; exact (List.getElem?_eq_some_iff.mp hi).1
      obtain ⟨c, hc, -, hc'⟩ := satCurve_ok (z := w.zinterp) (row := (List.range (n + 1)).map (channelMean W bp i))
        (by omega) (by simp [hl]) one_pos f
      refine ⟨c, ?_, hc'⟩
      rw [plotCurve]
      simp only [tab, List.getElem?_map, List.getElem?_range hi', Option.map_some, hs, if_true]
      rw [List.getElem?_replicate, if_pos (by omega)]
      exact hc)
  refine ⟨fig, fs, h3, by omega, hfl, fun i b hbi => ?_⟩
  have hi : i < fs.length := by rw [hfl]; exact (List.getElem?_eq_some_iff.mp hbi).1
  obtain ⟨c, hc, hc'⟩ := h5 i fs[i] (List.getElem?_eq_getElem hi)
  refine ⟨c, fs[i], hc, List.getElem?_eq_getElem hi, ?_, ?_⟩
  · rw [← hfi i b hbi, List.getElem?_eq_getElem hi]
  · have : (channelMean W bp i) = fun k =>
        (∑ j ∈ Finset.Ico ((bp.take i).sum) ((bp.take i).sum + b), W j k) / b := by
      funext k; simp [channelMean, List.getD, hbi]
    rw [← this]; exact hc'

/-- **C77.** The same for a ground-based plot. -/
theorem C77_ground {w : WF} {W : ℕ → ℕ → ℝ} {nf n : ℕ} {bp : List ℕ} {frq : List ℝ} (hs : w.satellite = false)
    (hb : w.bandpass = some bp) (hf : w.frequencies = some frq) (hl : w.zinterp.length = n + 1)
    (hne : bp ≠ []) (hsum : bp.sum ≤ nf) (hpos : ∀ b ∈ bp, 0 < b) (hlf : bp.length ≤ frq.length)
    (ylim : Option (ℝ × ℝ)) :
    ∃ fig fs, w.plot (tab nf (n + 1) W) (n + 1) ylim false = .ok (fig, { w with frequencies := some fs }) ∧
      fig.curves.length = bp.length ∧ fs.length = bp.length ∧
      ∀ (i b : ℕ), bp[i]? = some b → ∃ f, fs[i]? = some f ∧ npMean ((frq.drop i).take b) = some f ∧
        fig.curves[i]? = some ⟨(List.range (n + 1)).map fun k =>
          (∑ j ∈ Finset.Ico ((bp.take i).sum) ((bp.take i).sum + b), W j k) / b, w.zinterp, false, some f, none⟩ := by
  obtain ⟨fs, hfs, hfl, hfi⟩ := labels_ok hlf hpos
  obtain ⟨fig, h3, h4, h5⟩ := plot_ok (nz := false) (channels_ok (W := W) (ncol := n + 1) hb hf hne hsum hpos hfs) rfl
    (by intro e; simp [e] at hl) ylim
    (fun i f c => c = ⟨(List.range (n + 1)).map (channelMean W bp i), w.zinterp, false, some f, none⟩) (by
      intro i f hi
      have hi' : i < bp.length := by rw [← hfl]; exact (List.getElem?_eq_some_iff.mp hi).1
      refine ⟨_, ?_, rfl⟩
      rw [plotCurve]
      simp only [tab, List.getElem?_map, List.getElem?_range hi', Option.map_some, hs, Bool.false_eq_true, if_false,
        groundCurve, drawn]
      rw [if_pos (by simp [hl])])
  refine ⟨fig, fs, h3, by omega, hfl, fun i b hbi => ?_⟩
  have hi : i < fs.length := by rw [hfl]; exact (List.getElem?_eq_some_iff.mp hbi).1
  obtain ⟨c, hc, hc'⟩ := h5 i fs[i] (List.getElem?_eq_getElem hi)
  refine ⟨fs[i], List.getElem?_eq_getElem hi, ?_, ?_⟩
  · rw [← hfi i b hbi, List.getElem?_eq_getElem hi]
  · have : (channelMean W bp i) = fun k =>
        (∑ j ∈ Finset.Ico ((bp.take i).sum) ((bp.take i).sum + b), W j k) / b := by
      funext k; simp [channelMean, List.getD, hbi]
    rw [hc, hc', this]

theorem satelliteCurve_unique {z row : List ℝ} {m f g : ℝ} {c d : Curve} (hc : SatelliteCurve z row m f c)
    (hd : SatelliteCurve z row m g d) : c.xs = d.xs ∧ c.ys = d.ys := by
  have := hc.sizes; have := hd.sizes
  have h : ∀ k : ℕ, c.xs[k]? = d.xs[k]? ∧ c.ys[k]? = d.ys[k]? := by
    intro k
    by_cases hk : k + 1 < z.length
    · obtain ⟨x, h, e1, e2, e3, e4⟩ := hc.points k hk
      obtain ⟨x', h', e1', e2', e3', e4'⟩ := hd.points k hk
      rw [e1, Option.some.injEq] at e1'; rw [e2, Option.some.injEq] at e2'
      exact ⟨by rw [e3, e3', e1'], by rw [e4, e4', e2']⟩
    · rw [List.getElem?_eq_none (by omega), List.getElem?_eq_none (by omega), List.getElem?_eq_none (by omega),
        List.getElem?_eq_none (by omega)]
      exact ⟨rfl, rfl⟩
  exact ⟨List.ext_getElem? fun k => (h k).1, List.ext_getElem? fun k => (h k).2⟩

/-- **C77.** Plotting the same weights of averaged channels a second time draws the same curves, but the labels are now
computed from the labels of the first plot. -/
theorem C77_again {w : WF} {W : ℕ → ℕ → ℝ} {nf n : ℕ} {bp : List ℕ} {frq : List ℝ} (hs : w.satellite = true)
    (hb : w.bandpass = some bp) (hf : w.frequencies = some frq) (hl : w.zinterp.length = n + 1) (h1 : 1 ≤ n)
    (hne : bp ≠ []) (hsum : bp.sum ≤ nf) (hpos : ∀ b ∈ bp, 0 < b) (hlf : bp.length ≤ frq.length) (hn : bp.length ≤ n + 1)
    (ylim : Option (ℝ × ℝ)) :
    ∃ fig w' fig' w'', w.plot (tab nf (n + 1) W) (n + 1) ylim false = .ok (fig, w') ∧
      w'.plot (tab nf (n + 1) W) (n + 1) ylim false = .ok (fig', w'') ∧ fig'.curves.length = fig.curves.length ∧
      ∀ (i : ℕ) (c : Curve), fig.curves[i]? = some c → ∃ c', fig'.curves[i]? = some c' ∧ c'.xs = c.xs ∧ c'.ys = c.ys ∧
        ∃ fs b, w'.frequencies = some fs ∧ bp[i]? = some b ∧ c.freq = npMean ((frq.drop i).take b) ∧
          c'.freq = npMean ((fs.drop i).take b) := by
  obtain ⟨fig, fs, h3, h4, h5, h6⟩ := C77_satellite (W := W) hs hb hf hl h1 hne hsum hpos hlf hn ylim
  obtain ⟨fig', fs', h3', h4', h5', h6'⟩ := C77_satellite (w := { w with frequencies := some fs }) (W := W) hs hb rfl hl h1
    hne hsum hpos h5.ge hn ylim
  refine ⟨fig, _, fig', _, h3, h3', by omega, fun i c hc => ?_⟩
  have hi : i < bp.length := by rw [← h4]; exact (List.getElem?_eq_some_iff.mp hc).1
  obtain ⟨d, f, e1, -, e2, e3⟩ := h6 i bp[i] (List.getElem?_eq_getElem hi)
  obtain ⟨d', f', e1', -, e2', e3'⟩ := h6' i bp[i] (List.getElem?_eq_getElem hi)
  rw [hc, Option.some.injEq] at e1
  subst e1
  obtain ⟨u1, u2⟩ := satelliteCurve_unique e3' e3
  exact ⟨d', e1', u1, u2, fs, bp[i], rfl, List.getElem?_eq_getElem hi, by rw [e2, e3.freq], by rw [e2', e3'.freq]⟩

/-- **C77, violation.** Four frequencies in two channels: the first plot labels the channels 2 and 6.5 GHz, the second one
4.25 and 6.5 GHz. -/
theorem C77_again_refuted : ∃ (w : WF) (wgt : List (List ℝ)) (fig fig' : Figure) (w' w'' : WF),
    w.plot wgt 2 none false = .ok (fig, w') ∧ w'.plot wgt 2 none false = .ok (fig', w'') ∧
    fig.curves.map (·.freq) = [some 2, some (13 / 2)] ∧ fig'.curves.map (·.freq) = [some (17 / 4), some (13 / 2)] := by
  have hm : ∀ (fs : List ℝ) (a b : ℝ), fs.length = 2 → fs[0]? = some a → fs[1]? = some b → fs = [a, b] := by
    intro fs a b hl h0 h1
    match fs, hl with
    | [x, y], _ => simp at h0 h1; simp [h0, h1]
  let w : WF := ⟨[0, 1], [1000, 900], [280, 270], [0.5, 0.4], some [1, 3, 10, 20], true, 1, "R24", 90, some [2, 2]⟩
  obtain ⟨fig, fs, h3, h4, h5, h6⟩ := C77_satellite (w := w) (W := fun _ _ => 1) (nf := 4) (n := 1) (bp := [2, 2])
    (frq := [1, 3, 10, 20]) rfl rfl rfl rfl le_rfl (by simp) (by simp) (by simp) (by simp) (by simp) none
  obtain ⟨fig', fs', h3', h4', h5', h6'⟩ := C77_satellite (w := { w with frequencies := some fs }) (W := fun _ _ => 1)
    (nf := 4) (n := 1) (bp := [2, 2])
    (frq := fs) rfl rfl rfl rfl le_rfl (by simp) (by simp) (by simp) h5.ge (by simp) none
  refine ⟨w, tab 4 2 fun _ _ => 1, fig, fig', _, _, h3, h3', ?_⟩
  have two : ∀ (cs : List Curve) (a b : Curve), cs.length = 2 → cs[0]? = some a → cs[1]? = some b → cs = [a, b] := by
    intro cs a b hl h0 h1
    match cs, hl with
    | [x, y], _ => simp at h0 h1; simp [h0, h1]
  obtain ⟨c0, f0, a0, b0, m0, s0⟩ := h6 0 2 rfl
  obtain ⟨c1, f1, a1, b1, m1, s1⟩ := h6 1 2 rfl
  have hf0 : f0 = 2 := by
    have : npMean (([1, 3, 10, 20] : List ℝ).drop 0 |>.take 2) = some 2 := by simp [npMean, npDiv]; norm_num
    rw [this, Option.some.injEq] at m0; exact m0.symm
  have hf1 : f1 = 13 / 2 := by
    have : npMean (([1, 3, 10, 20] : List ℝ).drop 1 |>.take 2) = some (13 / 2) := by simp [npMean, npDiv]; norm_num
    rw [this, Option.some.injEq] at m1; exact m1.symm
  have hfs : fs = [2, 13 / 2] := by rw [hm fs f0 f1 h5 b0 b1, hf0, hf1]
  obtain ⟨d0, g0, a0', b0', m0', s0'⟩ := h6' 0 2 rfl
  obtain ⟨d1, g1, a1', b1', m1', s1'⟩ := h6' 1 2 rfl
  have hg0 : g0 = 17 / 4 := by
    have : npMean (fs.drop 0 |>.take 2) = some (17 / 4) := by rw [hfs]; simp [npMean, npDiv]; norm_num
    rw [this, Option.some.injEq] at m0'; exact m0'.symm
  have hg1 : g1 = 13 / 2 := by
    have : npMean (fs.drop 1 |>.take 2) = some (13 / 2) := by rw [hfs]; simp [npMean, npDiv]
    rw [this, Option.some.injEq] at m1'; exact m1'.symm
  rw [two _ _ _ h4 a0 a1, two _ _ _ h4' a0' a1']
  simp only [List.map_cons, List.map_nil, s0.freq, s1.freq, s0'.freq, s1'.freq, hf0, hf1, hg0, hg1, and_self]

/-! ## C78 -/

/-- Group of the frequency with number `i` when the groups have the sizes `gs`. -/
def groupOf : List ℕ → ℕ → Option ℕ
  | [], _ => none
  | g :: gs, i => if i < g then some 0 else (groupOf gs (i - g)).map (· + 1)

theorem increments_get (gs : List ℕ) (cnt : ℝ) (i : ℕ) :
    (increments cnt gs)[i]? = (groupOf gs i).map fun g : ℕ => cnt + 0.40 * g := by
  induction gs generalizing cnt i with
  | nil => simp [increments, groupOf]
  | cons g gs ih =>
    rw [increments, groupOf]
    split_ifs with h
    · rw [List.getElem?_append_left (by simpa using h), List.getElem?_replicate, if_pos h]
      simp
    · rw [List.getElem?_append_right (by simpa using not_lt.mp h), List.length_replicate, ih, Option.map_map]
      congr 1; funext k
      simp only [Function.comp, Nat.cast_add, Nat.cast_one]
      ring

theorem groupOf_isSome (gs : List ℕ) (i : ℕ) : (groupOf gs i).isSome ↔ i < gs.sum := by
  induction gs generalizing i with
  | nil => simp [groupOf]
  | cons g gs ih =>
    rw [groupOf]
    split_ifs with h
    · simp; omega
    · rw [Option.isSome_map, ih, List.sum_cons]; omega

theorem groupOf_sum (gs : List ℕ) (i g : ℕ) :
    groupOf gs i = some g ↔ (gs.take g).sum ≤ i ∧ i < (gs.take (g + 1)).sum := by
  induction gs generalizing i g with
  | nil => simp [groupOf]
  | cons b gs ih =>
    rw [groupOf]
    split_ifs with h
    · cases g with
      | zero => simp [h]
      | succ g => simp; omega
    · cases g with
      | zero => simp; omega
      | succ g =>
        have := ih (i - b) g
        simp only [Option.map_eq_some_iff, List.take_succ_cons, List.sum_cons]
        constructor
        · rintro ⟨a, ha, e⟩
          have : a = g := by omega
          subst this
          have := this.mp ha; omega
        · intro hh
          exact ⟨g, this.mpr (by omega), rfl⟩

theorem last_get (gs : List ℕ) (a : ℤ) (g : ℕ) (hg : g < gs.length) :
    (lastOfGroup a gs)[g]? = some (a + ((gs.take (g + 1)).sum : ℕ) - 1) := by
  induction gs generalizing a g with
  | nil => simp at hg
  | cons b gs ih =>
    cases g with
    | zero => simp [lastOfGroup]
    | succ g =>
      rw [lastOfGroup, List.getElem?_cons_succ, ih _ _ (by simpa using hg), List.take_succ_cons, List.sum_cons]
      push_cast; congr 1; ring

theorem last_length (gs : List ℕ) (a : ℤ) : (lastOfGroup a gs).length = gs.length := by
  induction gs generalizing a with
  | nil => rfl
  | cons b gs ih => simp [lastOfGroup, ih]

/-- The curve the grouped plot should show for the weights `row` of a frequency in group number `g`: the weights of the
levels above the lowest, at the heights of the levels below, all moved right by `0.40 g`. -/
structure GroupedCurve (z row : List ℝ) (g : ℕ) (c : Curve) : Prop where
  sizes : c.xs.length + 1 = z.length ∧ c.ys.length = c.xs.length
  points : ∀ k, k + 1 < z.length → ∃ x h, row[k + 1]? = some x ∧ z[k]? = some h ∧ c.xs[k]? = some (x + 0.40 * g) ∧
    c.ys[k]? = some h
  dashed : ∃ k h, FirstTop row.tail k ∧ z[k]? = some h ∧ (c.dashed = true ↔ h = 0)

theorem groupCurve_ok {z row : List ℝ} (h2 : 2 ≤ z.length) (hr : row.length = z.length) (g : ℕ) :
    ∃ c, groupCurve z.dropLast row (some (0 + 0.40 * g)) = .ok c ∧ GroupedCurve z row g c := by
  obtain ⟨k, h, ht, hz, hk, hp⟩ := peakHeight_ok h2 hr
  refine ⟨⟨row.tail.map fun x => x + (0 + 0.40 * g), z.dropLast, @decide (h = 0) (Classical.propDecidable _), none, none⟩,
    ?_, ⟨by simp; omega, by simp; omega⟩, ?_, ?_⟩
  · unfold groupCurve
    rw [hp]
    simp only [bind, Except.bind, drawn]
    rw [if_pos (by simp; omega)]
  · intro j hj
    refine ⟨row[j + 1], z[j], List.getElem?_eq_getElem _, List.getElem?_eq_getElem _, ?_, ?_⟩
    · rw [List.getElem?_map, List.getElem?_tail, List.getElem?_eq_getElem, zero_add]; rfl
    · rw [List.getElem?_eq_getElem (by simp; omega), List.getElem_dropLast]
  · exact ⟨k, h, ht, hz, by simp⟩

/-- **C78.** The grouped plot: every frequency is drawn in the column of its group, and every group carries its label
0.02 to the right of the least drawn weight of its last frequency, at 14/15 of the height one kilometre below the top
of the plot. -/
theorem C78_grouped {w : WF} {wgt : List (List ℝ)} {frq : List ℝ} {gs : List ℕ} {labels : List String} {top : ℝ}
    (hs : w.satellite = true) (hf : w.frequencies = some frq) (hw : wgt.length = frq.length) (h2 : 2 ≤ w.zinterp.length)
    (hr : ∀ r ∈ wgt, r.length = w.zinterp.length) (hg : gs.sum = frq.length) (hpos : ∀ g ∈ gs, 0 < g)
    (hlab : labels.length = gs.length) (ylim : Option (ℝ × ℝ))
    (htop : (∀ l, ylim = some l → top = l.2) ∧ (ylim = none → IsGreatest {h | h ∈ w.zinterp.dropLast} top)) :
    ∃ fig, w.plotGrouped wgt ylim gs labels = .ok fig ∧ fig.curves.length = frq.length ∧ fig.texts.length = gs.length ∧
      (∀ (i : ℕ) (row : List ℝ), wgt[i]? = some row → ∃ c g, fig.curves[i]? = some c ∧ (gs.take g).sum ≤ i ∧
        i < (gs.take (g + 1)).sum ∧ GroupedCurve w.zinterp row g c) ∧
      ∀ (g : ℕ) (s : String), labels[g]? = some s → ∃ t row m, fig.texts[g]? = some t ∧ t.s = s ∧
        wgt[(gs.take (g + 1)).sum - 1]? = some row ∧ IsLeast {x | x ∈ row.tail} m ∧ t.x = m + 0.40 * g + 0.02 ∧
        t.y = 14 / 15 * (top - 1) := by
  obtain ⟨p, hp⟩ := pressureAxis_ok (z := w.zinterp) (p := w.pinterp) (by intro e; simp [e] at h2) ylim
  have key : ∀ i ∈ List.range frq.length, ∃ c, plotGroupCurve w.zinterp.dropLast wgt (increments 0 gs) i = .ok c ∧
      ∀ row, wgt[i]? = some row → ∃ g, (gs.take g).sum ≤ i ∧ i < (gs.take (g + 1)).sum ∧ GroupedCurve w.zinterp row g c := by
    intro i hi
    have hi' : i < wgt.length := by rw [hw]; simpa using hi
    obtain ⟨g, hgi⟩ := Option.isSome_iff_exists.mp ((groupOf_isSome gs i).mpr (by omega))
    obtain ⟨c, hc, hc'⟩ := groupCurve_ok h2 (hr _ (List.getElem_mem hi')) g
    have hsum := (groupOf_sum gs i g).mp hgi
    refine ⟨c, ?_, ?_⟩
    · rw [plotGroupCurve, List.getElem?_eq_getElem hi', increments_get, hgi]
      exact hc
    · intro row h
      rw [List.getElem?_eq_getElem hi', Option.some.injEq] at h
      exact ⟨g, hsum.1, hsum.2, h ▸ hc'⟩
  obtain ⟨r, h1, h3, h4⟩ := mapM_ok_of _ (List.range frq.length) fun x hx => (key x hx).imp fun _ h => h.1
  have htop' : plotTop w.zinterp.dropLast ylim = some top := by
    cases ylim with
    | some l => rw [plotTop, htop.1 l rfl]
    | none =>
      replace htop := htop.2 rfl
      rw [plotTop]
      cases hm : npMax w.zinterp.dropLast with
      | none =>
        cases hz : w.zinterp.dropLast with
        | nil => have := congrArg List.length hz; simp at this; omega
        | cons a l => rw [hz] at hm; simp [npMax] at hm
      | some m =>
        obtain ⟨e1, e2⟩ := npMax_spec hm
        rw [le_antisymm (htop.2 e1) (e2 _ htop.1)]
  have tkey : ∀ (g : ℕ) (s : String), labels[g]? = some s → ∃ t row m,
      groupText w.zinterp.dropLast wgt (increments 0 gs) ylim (0 + ((gs.take (g + 1)).sum : ℕ) - 1) s = .ok t ∧ t.s = s ∧
        wgt[(gs.take (g + 1)).sum - 1]? = some row ∧ IsLeast {x | x ∈ row.tail} m ∧ t.x = m + 0.40 * g + 0.02 ∧
        t.y = 14 / 15 * (top - 1) := by
    intro g s hgs
    have hgl : g < gs.length := by rw [← hlab]; exact (List.getElem?_eq_some_iff.mp hgs).1
    have htake : (gs.take (g + 1)).sum = (gs.take g).sum + gs[g] := by
      rw [List.take_add_one, List.getElem?_eq_getElem hgl, List.sum_append]; simp
    have h0 := hpos _ (List.getElem_mem hgl)
    have hle : (gs.take (g + 1)).sum ≤ gs.sum := by
      conv_rhs => rw [← List.take_append_drop (g + 1) gs, List.sum_append]
      omega
    have hlast : (gs.take (g + 1)).sum - 1 < wgt.length := by omega
    have hgo : groupOf gs ((gs.take (g + 1)).sum - 1) = some g := (groupOf_sum _ _ _).mpr (by omega)
    have hcast : (0 + ((gs.take (g + 1)).sum : ℕ) - 1 : ℤ) = (((gs.take (g + 1)).sum - 1 : ℕ) : ℤ) := by omega
    have hrl := hr _ (List.getElem_mem hlast)
    cases hmin : npMin (wgt[(gs.take (g + 1)).sum - 1]).tail with
    | none =>
      cases ht : (wgt[(gs.take (g + 1)).sum - 1]).tail with
      | nil => have := congrArg List.length ht; simp at this; omega
      | cons a l => rw [ht] at hmin; simp [npMin] at hmin
    | some m =>
      refine ⟨⟨0.02 + (m + (0 + 0.40 * g)), (top - 1) - (top - 1) / 15, s⟩, _, m, ?_, rfl,
        List.getElem?_eq_getElem hlast, npMin_spec hmin, by ring, by ring⟩
      unfold groupText
      rw [htop', hcast]
      simp only [pyAt, Int.natCast_nonneg, if_true, Int.toNat_natCast, List.getElem?_eq_getElem hlast, increments_get,
        hgo, Option.map_some, hmin]
  obtain ⟨tx, h5, h6, h7⟩ := mapM_ok_of
    (fun a : ℤ × String => groupText w.zinterp.dropLast wgt (increments 0 gs) ylim a.1 a.2)
    ((lastOfGroup 0 gs).zip labels) (by
      intro x hx
      obtain ⟨g, hgl, rfl⟩ := List.getElem_of_mem hx
      simp only [List.length_zip, last_length] at hgl
      have hgl' : g < labels.length := by omega
      obtain ⟨t, _, _, ht, -⟩ := tkey g _ (List.getElem?_eq_getElem hgl')
      refine ⟨t, ?_⟩
      have := last_get gs 0 g (by omega)
      rw [List.getElem?_eq_getElem (by rw [last_length]; omega), Option.some.injEq] at this
      rw [List.getElem_zip, this]
      exact ht)
  refine ⟨⟨r, tx, p⟩, ?_, by simpa using h3, by rw [h6, List.length_zip, last_length]; omega, ?_, ?_⟩
  · unfold WF.plotGrouped
    rw [if_pos hs, if_neg (by omega)]
    simp only [hf, bind, Except.bind, pure, Except.pure, h1, h5, hp]
  · intro i row hi
    have hi' : i < frq.length := by rw [← hw]; exact (List.getElem?_eq_some_iff.mp hi).1
    obtain ⟨c, e, hc⟩ := h4 i i (by simp [hi'])
    obtain ⟨c', e', hc'⟩ := key i (by simpa using hi')
    rw [e'] at e
    simp only [Except.ok.injEq] at e
    subst e
    obtain ⟨g, hg⟩ := hc' row hi
    exact ⟨c', g, hc, hg⟩
  · intro g s hgs
    have hgl : g < gs.length := by rw [← hlab]; exact (List.getElem?_eq_some_iff.mp hgs).1
    obtain ⟨t, row, m, ht, hrest⟩ := tkey g s hgs
    obtain ⟨t', e, ht'⟩ := h7 g (0 + ((gs.take (g + 1)).sum : ℕ) - 1, s) (by
      rw [List.getElem?_zip_eq_some]; exact ⟨last_get gs 0 g hgl, hgs⟩)
    simp only at e
    rw [ht] at e
    simp only [Except.ok.injEq] at e
    exact ⟨t', row, m, ht', e ▸ hrest⟩

/-- **C78.** When all weights lie between 0 and 0.40 per kilometre the columns of different groups do not overlap. -/
theorem C78_columns {z row row' : List ℝ} {g g' : ℕ} {c c' : Curve} (hc : GroupedCurve z row g c)
    (hc' : GroupedCurve z row' g' c') (hg : g < g') (hw : ∀ x ∈ row, x ≤ 0.40) (hw' : ∀ x ∈ row', 0 ≤ x) :
    ∀ x ∈ c.xs, ∀ x' ∈ c'.xs, x ≤ x' := by
  have one : ∀ {row : List ℝ} {g : ℕ} {c : Curve}, GroupedCurve z row g c → ∀ x ∈ c.xs, ∃ y ∈ row, x = y + 0.40 * g := by
    intro row g c hc x hx
    obtain ⟨k, hk, rfl⟩ := List.getElem_of_mem hx
    have := hc.sizes
    obtain ⟨y, h, e1, -, e2, -⟩ := hc.points k (by omega)
    rw [List.getElem?_eq_getElem hk, Option.some.injEq] at e2
    exact ⟨y, List.mem_of_getElem? e1, e2⟩
  intro x hx x' hx'
  obtain ⟨y, hy, rfl⟩ := one hc x hx
  obtain ⟨y', hy', rfl⟩ := one hc' x' hx'
  have h1 := hw y hy
  have h2 := hw' y' hy'
  have : (g : ℝ) + 1 ≤ g' := by exact_mod_cast hg
  linarith

/-- **C78.** The errors: a ground-based object, fewer labels than groups, or fewer grouped frequencies than frequencies. -/
theorem C78_errors (w : WF) (wgt : List (List ℝ)) (ylim : Option (ℝ × ℝ)) (gs : List ℕ) (labels : List String) :
    (w.satellite = false → w.plotGrouped wgt ylim gs labels = .error .valueError) ∧
    (w.satellite = true → labels.length < gs.length → w.plotGrouped wgt ylim gs labels = .error .indexError) ∧
    (∀ frq, w.satellite = true → w.frequencies = some frq → wgt.length = frq.length → 2 ≤ w.zinterp.length →
      (∀ r ∈ wgt, r.length = w.zinterp.length) → gs.sum < frq.length → gs.length ≤ labels.length →
      w.plotGrouped wgt ylim gs labels = .error .indexError) := by
  refine ⟨fun h => by simp [WF.plotGrouped, h], fun h hl => by simp [WF.plotGrouped, h, hl], ?_⟩
  intro frq hs hf hw h2 hr hg hl
  have hnone : ∀ i, gs.sum ≤ i → groupOf gs i = none := by
    intro i hi
    rw [← Option.not_isSome_iff_eq_none, groupOf_isSome]; omega
  have he := mapM_error_of (fun i => plotGroupCurve w.zinterp.dropLast wgt (increments 0 gs) i) (List.range frq.length)
    (n := gs.sum) (x := gs.sum) (e := .indexError) (by simp [hg]) (by
      have hi : gs.sum < wgt.length := by omega
      obtain ⟨k, h, -, -, -, hp⟩ := peakHeight_ok h2 (hr _ (List.getElem_mem hi))
      simp only [plotGroupCurve, List.getElem?_eq_getElem hi, groupCurve, hp, bind, Except.bind, increments_get,
        hnone _ le_rfl, Option.map_none]) (by
      intro i hi x hx
      rw [List.getElem?_range (by omega), Option.some.injEq] at hx
      subst hx
      have hi' : i < wgt.length := by omega
      obtain ⟨g, hgi⟩ := Option.isSome_iff_exists.mp ((groupOf_isSome gs i).mpr hi)
      obtain ⟨c, hc, -⟩ := groupCurve_ok h2 (hr _ (List.getElem_mem hi')) g
      refine ⟨c, ?_⟩
      rw [plotGroupCurve, List.getElem?_eq_getElem hi', increments_get, hgi]
      exact hc)
  unfold WF.plotGrouped
  rw [if_pos hs, if_neg (by omega)]
  simp only [hf, bind, Except.bind, he]

/-! ## C79 -/

theorem pressuresAt_nodup {z p : List ℝ} (hz : z.Nodup) (hp : p.length = z.length) {i : ℕ} (hi : i < z.length) :
    pressuresAt z p z[i] = [p[i]] := by
  unfold pressuresAt
  induction z generalizing p i with
  | nil => simp at hi
  | cons a z ih =>
    cases p with
    | nil => simp at hp
    | cons b p =>
      obtain ⟨h1, h2⟩ := List.nodup_cons.mp hz
      cases i with
      | zero =>
        simp only [List.getElem_cons_zero, List.zip_cons_cons, List.filter_cons, decide_true, if_true, List.map_cons,
          List.cons.injEq, true_and, List.map_eq_nil_iff, List.filter_eq_nil_iff, decide_eq_true_eq]
        intro c hc e
        exact h1 (e ▸ (List.of_mem_zip hc).1)
      | succ i =>
        have hi' : i < z.length := by simpa using hi
        have hne : a ≠ z[i] := fun e => h1 (e ▸ List.getElem_mem hi')
        simp only [List.getElem_cons_succ, List.zip_cons_cons, List.filter_cons, hne, decide_false, Bool.false_eq_true,
          if_false]
        exact ih h2 (by simpa using hp) hi'

theorem pressuresAt_absent {z p : List ℝ} {h : ℝ} (hn : h ∉ z) : pressuresAt z p h = [] := by
  unfold pressuresAt
  simp only [List.map_eq_nil_iff, List.filter_eq_nil_iff, decide_eq_true_eq]
  intro c hc e
  exact hn (e ▸ (List.of_mem_zip hc).1)

theorem plot_pressures {w w' : WF} {wgt : List (List ℝ)} {ncol : ℕ} {ylim : Option (ℝ × ℝ)} {nz : Bool} {fig : Figure}
    (h : w.plot wgt ncol ylim nz = .ok (fig, w')) : pressureAxis w.zinterp w.pinterp ylim = .ok fig.pressures := by
  unfold WF.plot at h
  simp only [bind, Except.bind, pure, Except.pure] at h
  split at h
  · cases h
  split at h
  · cases h
  split at h
  · cases h
  split at h
  · cases h
  split at h
  · cases h
  · rename_i v hv
    simp only [Except.ok.injEq, Prod.mk.injEq] at h
    rw [← h.1]; exact hv

theorem plotGrouped_pressures {w : WF} {wgt : List (List ℝ)} {ylim : Option (ℝ × ℝ)} {gs : List ℕ} {ls : List String}
    {fig : Figure} (h : w.plotGrouped wgt ylim gs ls = .ok fig) :
    pressureAxis w.zinterp w.pinterp ylim = .ok fig.pressures := by
  unfold WF.plotGrouped at h
  simp only [bind, Except.bind, pure, Except.pure] at h
  split at h
  · split at h
    · cases h
    split at h
    · cases h
    split at h
    · cases h
    split at h
    · cases h
    split at h
    · cases h
    · rename_i v hv
      simp only [Except.ok.injEq] at h
      rw [← h]; exact hv
  · cases h

/-- The figure a plotting method has drawn for the object `w` with the height limits `ylim`. -/
inductive Drew (w : WF) (ylim : Option (ℝ × ℝ)) (fig : Figure) : Prop where
  | plot (wgt : List (List ℝ)) (ncol : ℕ) (nz : Bool) (w' : WF) (h : w.plot wgt ncol ylim nz = .ok (fig, w'))
  | grouped (wgt : List (List ℝ)) (gs : List ℕ) (ls : List String) (h : w.plotGrouped wgt ylim gs ls = .ok fig)

/-- **C79.** The pressure axis of a plot of an object made from a rising profile.  Without height limits its ends are the
profile's pressures at height 0 and at the top of the grid; with limits that are grid heights they are the profile's
pressures at those heights (interpolated); a limit that is no grid height gets no pressure at all. -/
theorem C79_axis {z p t rh : List ℝ} {step m : ℝ} (hs : 0 < step) (hz : z.Pairwise (· < ·)) (hm : npMax z = some m)
    (hm0 : 0 ≤ m) (hp : p.length = z.length) (ht : t.length = z.length) (hrh : rh.length = z.length) :
    ∃ (w : WF) (n : ℕ), WF.new z p t rh step = .ok w ∧ m ≤ n * step ∧ n * step < m + step ∧
      ∀ (frq : Option (List ℝ)) (sat : Bool) (bp : Option (List ℕ)) (ylim : Option (ℝ × ℝ)) (fig : Figure),
        Drew { w with frequencies := frq, satellite := sat, bandpass := bp } ylim fig →
        (ylim = none → ∃ a b, fig.pressures = ([a], [b]) ∧ npInterp (z.zip p) 0 = some a ∧
          npInterp (z.zip p) (n * step) = some b) ∧
        (∀ i j : ℕ, i ≤ n → j ≤ n → ylim = some (i * step, j * step) → ∃ a b, fig.pressures = ([a], [b]) ∧
          npInterp (z.zip p) (i * step) = some a ∧ npInterp (z.zip p) (j * step) = some b) ∧
        (∀ lo hi : ℝ, ylim = some (lo, hi) →
          ((∀ i : ℕ, i ≤ n → lo ≠ i * step) → fig.pressures.1 = []) ∧ ((∀ i : ℕ, i ≤ n → hi ≠ i * step) → fig.pressures.2 = [])) := by
  obtain ⟨w, n, h1, h2, h3, h4, h5, -, -, h6⟩ := C52_grid hs hz hm hm0 hp ht hrh
  refine ⟨w, n, h1, h3, h4, ?_⟩
  have hlen : w.zinterp.length = n + 1 := by rw [h2]; simp
  have hget : ∀ i (hi : i < w.zinterp.length), w.zinterp[i] = (i : ℝ) * step := by
    intro i hi; simp [h2]
  have hnd : w.zinterp.Nodup := by
    rw [h2]
    refine List.Nodup.map ?_ List.nodup_range
    intro a b e
    have : (a : ℝ) = b := mul_right_cancel₀ hs.ne' e
    exact_mod_cast this
  have at_ : ∀ i : ℕ, i ≤ n → ∃ a, pressuresAt w.zinterp w.pinterp (i * step) = [a] ∧ npInterp (z.zip p) (i * step) = some a := by
    intro i hi
    have hil : i < w.zinterp.length := by omega
    refine ⟨w.pinterp[i]'(by omega), ?_, ?_⟩
    · rw [← hget i hil]; exact pressuresAt_nodup hnd (by omega) hil
    · rw [← (h6 i hi).1, List.getElem?_eq_getElem]
  have absent : ∀ h : ℝ, (∀ i ≤ n, h ≠ (i : ℝ) * step) → pressuresAt w.zinterp w.pinterp h = [] := by
    intro h hh
    apply pressuresAt_absent
    rw [h2]
    intro hc
    obtain ⟨i, hi, rfl⟩ := List.mem_map.mp hc
    exact hh i (by have := List.mem_range.mp hi; omega) rfl
  intro frq sat bp ylim fig hd
  have hax : pressureAxis w.zinterp w.pinterp ylim = .ok fig.pressures := by
    cases hd with
    | plot wgt ncol nz w' h => have := plot_pressures h; exact this
    | grouped wgt gs ls h => have := plotGrouped_pressures h; exact this
  unfold pressureAxis at hax
  have hmn : npMin w.zinterp = some 0 := by
    cases hmin : npMin w.zinterp with
    | none => cases hzz : w.zinterp with
      | nil => simp [hzz] at hlen
      | cons a l => rw [hzz] at hmin; simp [npMin] at hmin
    | some lo =>
      obtain ⟨e1, e2⟩ := npMin_spec hmin
      have h0 : (0 : ℝ) ∈ w.zinterp := by
        rw [h2]; exact List.mem_map.mpr ⟨0, by simp, by simp⟩
      rw [h2] at e1
      obtain ⟨i, -, rfl⟩ := List.mem_map.mp e1
      rw [le_antisymm (e2 _ h0) (by positivity)]
  have hmx : npMax w.zinterp = some (n * step) := by
    cases hmax : npMax w.zinterp with
    | none => cases hzz : w.zinterp with
      | nil => simp [hzz] at hlen
      | cons a l => rw [hzz] at hmax; simp [npMax] at hmax
    | some hi =>
      obtain ⟨e1, e2⟩ := npMax_spec hmax
      have h0 : (n : ℝ) * step ∈ w.zinterp := by
        rw [h2]; exact List.mem_map.mpr ⟨n, by simp, rfl⟩
      rw [h2] at e1
      obtain ⟨i, hi', rfl⟩ := List.mem_map.mp e1
      have : (i : ℝ) ≤ n := by exact_mod_cast (by have := List.mem_range.mp hi'; omega : i ≤ n)
      rw [le_antisymm (mul_le_mul_of_nonneg_right this hs.le) (e2 _ h0)]
  rw [hmn, hmx] at hax
  simp only [Except.ok.injEq] at hax
  refine ⟨?_, ?_, ?_⟩
  · rintro rfl
    obtain ⟨a, ha, ha'⟩ := at_ 0 (by omega)
    obtain ⟨b, hb, hb'⟩ := at_ n le_rfl
    simp only [Nat.cast_zero, zero_mul] at ha ha'
    refine ⟨a, b, ?_, ha', hb'⟩
    rw [← hax, ← ha, ← hb]
  · rintro i j hi hj rfl
    obtain ⟨a, ha, ha'⟩ := at_ i hi
    obtain ⟨b, hb, hb'⟩ := at_ j hj
    refine ⟨a, b, ?_, ha', hb'⟩
    rw [← hax, ← ha, ← hb]
  · rintro lo hi rfl
    rw [← hax]
    exact ⟨fun h => absent lo h, fun h => absent hi h⟩

/-! ## Concrete cases -/

/-- Three levels, two frequencies. -/
noncomputable def plotWF (sat : Bool) (frq : List ℝ) (bp : Option (List ℕ)) : WF :=
  ⟨[0, 1, 2], [1000, 900, 800], [280, 270, 260], [0.5, 0.4, 0.3], some frq, sat, 1, "R24", 90, bp⟩

/-- C76: two frequencies on three levels. -/
example : ∃ fig, (plotWF true [50, 183] none).plot [[0.1, 0.3, 0.2], [0.4, 0.1, 0.2]] 3 none true =
      .ok (fig, plotWF true [50, 183] none) ∧ fig.curves.length = 2 :=
  (C76_normalized (w := plotWF true [50, 183] none) (wgt := [[0.1, 0.3, 0.2], [0.4, 0.1, 0.2]]) rfl rfl rfl rfl
    (by simp [plotWF]) (by simp [plotWF]) (by simp; norm_num) none).imp fun _ h => ⟨h.1, h.2.1⟩

/-- C76: four frequencies on three levels cannot be plotted. -/
example : (plotWF true [50, 60, 70, 80] none).plot (tab 4 3 fun _ _ => 1) 3 none false = .error .indexError :=
  C76_too_many (w := plotWF true [50, 60, 70, 80] none) rfl rfl rfl rfl (by simp [plotWF])
    (by simp [tab, plotWF, List.range_succ]) (by simp [tab, plotWF]) none

/-- C76: a ground-based plot. -/
example : ∃ fig, (plotWF false [50] none).plot [[0.1, 0.3, 0.2]] 3 none true = .ok (fig, plotWF false [50] none) ∧
    fig.curves[0]? = some ⟨[0.1, 0.3, 0.2], [0, 1, 2], false, some 50, none⟩ :=
  (C76_ground (w := plotWF false [50] none) (wgt := [[0.1, 0.3, 0.2]]) rfl rfl rfl rfl (by simp [plotWF])
    (by simp [plotWF]) none true).imp fun _ h => ⟨h.1, h.2.2 0 50 _ rfl rfl⟩

/-- C76: the height shown. -/
example : ∃ wgt, wfCore true (plotWF true [50] none).zinterp (tab 1 3 fun _ _ => 1) (tab 1 3 fun _ k => k) = some wgt ∧
    ∃ fig, (plotWF true [50] none).plot wgt 3 none false = .ok (fig, plotWF true [50] none) := by
  refine ⟨_, C50_satellite (by simp [plotWF]) rfl _ _, ?_⟩
  exact (C76_height (w := plotWF true [50] none) (n := 2) (nf := 1) rfl rfl rfl rfl (by simp [plotWF]) rfl (by norm_num)
    (by norm_num) (C50_satellite (by simp [plotWF]) rfl _ _) none).imp fun _ h => h.1

/-- C77: channels of one and two frequencies. -/
example : ∃ fig fs, (plotWF true [50, 60, 62] (some [1, 2])).plot (tab 3 3 fun f k => f + k) 3 none false =
    .ok (fig, plotWF true fs (some [1, 2])) ∧ fig.curves.length = 2 := by
  obtain ⟨fig, fs, h, h', -⟩ := C77_satellite (w := plotWF true [50, 60, 62] (some [1, 2])) (W := fun f k => f + k)
    (nf := 3) (n := 2) (bp := [1, 2]) (frq := [50, 60, 62]) rfl rfl rfl rfl (by norm_num) (by simp) (by simp) (by simp)
    (by simp) (by simp) none
  exact ⟨fig, fs, h, h'⟩

/-- C78: two groups. -/
example : ∃ fig, (plotWF true [50, 60, 183] none).plotGrouped [[0.1, 0.3, 0.2], [0.4, 0.1, 0.2], [0, 0.2, 0.1]] none [2, 1]
    ["O2", "H2O"] = .ok fig ∧ fig.texts.length = 2 :=
  (C78_grouped (w := plotWF true [50, 60, 183] none) (top := 1) rfl rfl rfl (by simp [plotWF]) (by simp [plotWF]) rfl
    (by simp) rfl none (by
      refine ⟨by simp, fun _ => ?_⟩
      constructor
      · simp [plotWF]
      · intro x hx
        simp only [plotWF, Set.mem_ofPred_eq, List.dropLast_cons_cons, List.dropLast_singleton, List.mem_cons,
          List.not_mem_nil, or_false] at hx
        rcases hx with rfl | rfl <;> norm_num)).imp
    fun _ h => ⟨h.1, h.2.2.1⟩

/-- C79: the profile used by the axis theorem. -/
example : ∃ w, WF.new [0, 10] [1000, 300] [290, 230] [0.5, 0.1] 1 = .ok w := by
  obtain ⟨w, n, h, -⟩ := C79_axis (z := [0, 10]) (p := [1000, 300]) (t := [290, 230]) (rh := [0.5, 0.1]) (step := 1) (m := 10)
    one_pos (by simp) (by simp [npMax]) (by norm_num) rfl rfl rfl
  exact ⟨w, h⟩

end Verif.Props
