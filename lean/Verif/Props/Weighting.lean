import Verif.Model.Weighting
import Verif.Props.History

/-!
# C50, C51, C52: weighting functions
-/

namespace Verif.Props

open Verif.Py Verif.Model Real Finset

/-! ## Helpers -/

/-- The matrix with entries `f i j`. -/
def tab (m n : ℕ) (f : ℕ → ℕ → ℝ) : List (List ℝ) := (List.range m).map fun i => (List.range n).map (f i)

theorem cumsum_length (a : ℝ) (l : List ℝ) : (cumsumFrom a l).length = l.length := by
  induction l generalizing a with
  | nil => rfl
  | cons x l ih => simp [cumsumFrom, ih]

theorem cumsum_get (a : ℝ) (l : List ℝ) (j : ℕ) (hj : j < l.length) :
    (cumsumFrom a l)[j]'(by rw [cumsum_length]; exact hj) = a + (l.take (j + 1)).sum := by
  induction l generalizing a j with
  | nil => simp at hj
  | cons x l ih =>
    cases j with
    | zero => simp [cumsumFrom]
    | succ j =>
      have := ih (a + x) j (by simpa using hj)
      simp only [cumsumFrom, List.getElem_cons_succ, this, List.take_succ_cons, List.sum_cons]
      ring

theorem sum_map_range (f : ℕ → ℝ) (n : ℕ) : ((List.range n).map f).sum = ∑ k ∈ range n, f k := by
  induction n with
  | zero => simp
  | succ n ih => rw [List.range_succ, List.map_append, List.sum_append, ih, sum_range_succ]; simp

/-- Running sum of a row. -/
theorem cumsum_row (f : ℕ → ℝ) (n : ℕ) :
    cumsumFrom 0 ((List.range n).map f) = (List.range n).map fun j => ∑ k ∈ range (j + 1), f k := by
  apply List.ext_getElem
  · simp [cumsum_length]
  · intro j h1 h2
    have hj : j < n := by simpa using h2
    rw [cumsum_get 0 _ j (by simpa using hj)]
    rw [← List.map_take, List.take_range, min_eq_left (by omega), sum_map_range]
    simp

/-- Running sum of a row taken from its end. -/
theorem cumsum_row_rev (f : ℕ → ℝ) (n : ℕ) :
    (cumsumFrom 0 ((List.range n).map f).reverse).reverse = (List.range n).map fun j => ∑ k ∈ Ico j n, f k := by
  apply List.ext_getElem
  · simp [cumsum_length]
  · intro j h1 h2
    have hj : j < n := by simpa using h2
    rw [List.getElem_reverse, cumsum_get 0 _ _ (by simp [cumsum_length]; omega)]
    simp only [cumsum_length, List.length_reverse, List.length_map, List.length_range, List.getElem_map,
      List.getElem_range, zero_add]
    rw [show n - 1 - j + 1 = n - j by omega]
    have : ((List.range n).map f).reverse.take (n - j) = (((List.range n).map f).drop j).reverse := by
      rw [List.reverse_drop]; simp
    rw [this, List.sum_reverse, ← List.map_drop]
    have h3 := List.sum_take_add_sum_drop ((List.range n).map f) j
    rw [← List.map_take, List.take_range, min_eq_left hj.le, sum_map_range, sum_map_range, ← List.map_drop] at h3
    rw [← sum_range_add_sum_Ico f hj.le] at h3
    linarith

theorem argminAbs_of {z : List ℝ} (hz : z.Nodup) {i : ℕ} (hi : i < z.length) : argminAbs z z[i] = some i := by
  unfold argminAbs
  cases h : (List.range z.length).argmin fun k => |z.getD k 0 - z[i]| with
  | none =>
    rw [List.argmin_eq_none] at h
    simp at h; subst h; simp at hi
  | some m =>
    have hm : m ∈ (List.range z.length).argmin fun k => |z.getD k 0 - z[i]| := h
    obtain ⟨h1, h2, -⟩ := List.mem_argmin_iff.mp hm
    have hm' : m < z.length := by simpa using h1
    have h3 := h2 i (by simpa using hi)
    simp only [List.getD, List.getElem?_eq_getElem hi, List.getElem?_eq_getElem hm', Option.getD_some, sub_self,
      abs_zero] at h3
    have h4 : z[m] = z[i] := by
      have := abs_nonpos_iff.mp h3; linarith
    rw [hz.getElem_inj_iff.mp h4]

theorem zip_tab (m n : ℕ) (f g : ℕ → ℕ → ℝ) :
    List.zipWith (List.zipWith (· * ·)) (tab m n f) (tab m n g) = tab m n fun i j => f i j * g i j := by
  unfold tab
  rw [List.zipWith_map, List.zipWith_self]
  congr 1; funext i
  rw [List.zipWith_map, List.zipWith_self]

/-! ## C50 -/

/-- Opacity between levels `i` and `j`: the sum of the layers above the lower and up to the upper one (layer `k` lies
between levels `k - 1` and `k`). -/
noncomputable def opacityBetween (tau : ℕ → ℝ) (i j : ℕ) : ℝ := ∑ k ∈ Ioc (min i j) (max i j), tau k

/-- The weighting function `|d transmittance / ds|` at level `j` of a sensor at level `s`: transmittance between
them times the absorption coefficient. -/
noncomputable def weightSpec (tau a : ℕ → ℝ) (s j : ℕ) : ℝ := exp (-opacityBetween tau s j) * a j

/-- Ground-based weighting functions of any number of frequencies and levels, entry by entry. -/
theorem C50_ground {z : List ℝ} (hz : z.Nodup) {n nf : ℕ} (hn : z.length = n + 1) (tau a : ℕ → ℕ → ℝ)
    (h0 : ∀ f, tau f 0 = 0) :
    wfCore false z (tab nf (n + 1) tau) (tab nf (n + 1) a) =
      some (tab nf (n + 1) fun f j => weightSpec (tau f) (a f) 0 j) := by
  have hpos : 0 < z.length := by omega
  have hh : z.head? = some z[0] := by
    cases z with
    | nil => simp at hn
    | cons x l => rfl
  unfold wfCore
  simp only [hh, argminAbs_of hz hpos, Option.bind_eq_bind, Option.bind_some, Bool.false_eq_true, if_false,
    Option.pure_def, Option.some.injEq]
  have e1 : cumsumRows (List.map (List.drop 0) (tab nf (n + 1) tau)) =
      tab nf (n + 1) fun f j => ∑ k ∈ range (j + 1), tau f k := by
    simp only [cumsumRows, tab, List.map_map]
    congr 1; funext f
    simp only [Function.comp, List.drop_zero]
    exact cumsum_row _ _
  have e2 : List.map (List.drop 0) (tab nf (n + 1) a) = tab nf (n + 1) a := by simp [tab]
  rw [e1, e2]
  have e3 : ∀ F : ℕ → ℕ → ℝ, List.map (List.map fun x => exp (-x)) (tab nf (n + 1) F) =
      tab nf (n + 1) fun f j => exp (-F f j) := by
    intro F; simp [tab, Function.comp_def]
  rw [e3, zip_tab]
  congr 1
  funext f j
  unfold weightSpec opacityBetween
  have : ∑ k ∈ range (j + 1), tau f k = ∑ k ∈ Ioc (min 0 j) (max 0 j), tau f k := by
    rw [sum_range_succ', h0 f, add_zero]
    simp only [Nat.zero_le, min_eq_left, max_eq_right]
    rw [← Finset.sum_image (f := fun k => tau f k) (g := fun k => k + 1) (s := range j) (by
      intro x _ y _ h; simpa using h)]
    congr 1
    ext k; simp only [mem_image, Finset.mem_range, mem_Ioc]
    constructor
    · rintro ⟨m, hm, rfl⟩; omega
    · rintro ⟨h1, h2⟩; exact ⟨k - 1, by omega, by omega⟩
  rw [this]

/-- Satellite weighting functions, entry by entry: the opacity at level `j` contains the layer below the level. -/
theorem C50_satellite {z : List ℝ} (hz : z.Nodup) {n nf : ℕ} (hn : z.length = n + 1) (tau a : ℕ → ℕ → ℝ) :
    wfCore true z (tab nf (n + 1) tau) (tab nf (n + 1) a) =
      some (tab nf (n + 1) fun f j => exp (-(∑ k ∈ Ico j (n + 1), tau f k)) * a f j) := by
  have hpos : n < z.length := by omega
  have hh : z.getLast? = some z[n] := by
    rw [List.getLast?_eq_getElem?, hn, Nat.add_sub_cancel, List.getElem?_eq_getElem hpos]
  unfold wfCore
  simp only [hh, argminAbs_of hz hpos, Option.bind_eq_bind, Option.bind_some, if_true,
    Option.pure_def, Option.some.injEq]
  have e2 : ∀ F, List.map (List.take (n + 1)) (tab nf (n + 1) F) = tab nf (n + 1) F := by
    intro F
    simp only [tab, List.map_map]
    congr 1; funext f
    simp [Function.comp, ← List.map_take, List.take_range]
  rw [e2, e2]
  have e1 : fliplr (cumsumRows (fliplr (tab nf (n + 1) tau)).reverse).reverse =
      tab nf (n + 1) fun f j => ∑ k ∈ Ico j (n + 1), tau f k := by
    simp only [fliplr, cumsumRows, ← List.map_reverse, List.reverse_reverse, tab, List.map_map]
    congr 1; funext f
    simp only [Function.comp]
    exact cumsum_row_rev _ _
  have e3 : ∀ F : ℕ → ℕ → ℝ, List.map (List.map fun x => exp (-x)) (tab nf (n + 1) F) =
      tab nf (n + 1) fun f j => exp (-F f j) := by
    intro F; simp [tab, Function.comp_def]
  rw [e1, e3, zip_tab]

theorem sum_Ico_eq (tau : ℕ → ℝ) {j n : ℕ} (hj : j ≤ n) :
    ∑ k ∈ Ico j (n + 1), tau k = tau j + opacityBetween tau n j := by
  rw [sum_eq_sum_Ico_succ_bot (by omega)]
  unfold opacityBetween
  rw [min_eq_right hj, max_eq_left hj]
  congr 1
  apply sum_congr _ fun _ _ => rfl
  ext k; simp only [mem_Ico, mem_Ioc]; omega

/-- The satellite entry of level `j` is the weighting function times the transmittance of the layer below the level:
the transmittance that belongs to level `j - 1`. -/
theorem C50_satellite_shift (tau a : ℕ → ℝ) {j n : ℕ} (hj : j ≤ n) :
    exp (-(∑ k ∈ Ico j (n + 1), tau k)) * a j = exp (-tau j) * weightSpec tau a n j ∧
    (1 ≤ j → exp (-(∑ k ∈ Ico j (n + 1), tau k)) = exp (-opacityBetween tau n (j - 1))) := by
  constructor
  · rw [sum_Ico_eq tau hj, weightSpec, neg_add, exp_add]; ring
  · intro h1
    unfold opacityBetween
    rw [min_eq_right (by omega), max_eq_left (by omega)]
    congr 2
    apply sum_congr _ fun _ _ => rfl
    ext k; simp only [mem_Ico, mem_Ioc]; omega

/-- Satellite entries are right exactly at the levels below which the layer is transparent (or where there is no
absorption). -/
theorem C50_satellite_exact_iff (tau a : ℕ → ℝ) {j n : ℕ} (hj : j ≤ n) :
    exp (-(∑ k ∈ Ico j (n + 1), tau k)) * a j = weightSpec tau a n j ↔ tau j = 0 ∨ a j = 0 := by
  rw [(C50_satellite_shift tau a hj).1, weightSpec]
  constructor
  · intro h
    by_cases ha : a j = 0
    · exact Or.inr ha
    · left
      have hne : exp (-opacityBetween tau n j) * a j ≠ 0 := mul_ne_zero (exp_pos _).ne' ha
      have : exp (-tau j) = 1 := by
        have := mul_right_cancel₀ hne (h.trans (one_mul _).symm)
        exact this
      rw [exp_eq_one_iff] at this
      linarith
  · rintro (h | h) <;> simp [h]

/-- Satellite weighting functions for the concrete two-level atmosphere with one opaque layer are wrong. -/
theorem C50_satellite_refuted : ∃ w, wfCore true [0, 1] (tab 1 2 fun _ k => if k = 1 then 1 else 0)
      (tab 1 2 fun _ _ => 1) = some w ∧
    w ≠ tab 1 2 fun _ j => weightSpec (fun k => if k = 1 then 1 else 0) (fun _ => 1) 1 j := by
  refine ⟨_, C50_satellite (by simp) rfl _ _, fun h => ?_⟩
  have h1 := congrArg (fun m : List (List ℝ) => (m[0]?.bind (·[1]?))) h
  simp only [tab, List.getElem?_map] at h1
  simp only [Option.map_some, Option.bind_some, List.getElem?_map,
    List.getElem?_eq_getElem, List.getElem_range, List.length_range, Nat.one_lt_ofNat, Nat.lt_add_one, zero_lt_one,
    Option.some.injEq] at h1
  have := (C50_satellite_exact_iff (fun k => if k = 1 then 1 else 0) (fun _ => 1) (le_refl 1)).mp h1
  simp at this

/-- With non-negative opacities and absorption every weight lies between 0 and the absorption coefficient, and the
implied transmittance grows towards the sensor. -/
theorem C50_bounds {z : List ℝ} (hz : z.Nodup) {n nf : ℕ} (hn : z.length = n + 1) (tau a : ℕ → ℕ → ℝ)
    (h0 : ∀ f, tau f 0 = 0) (ht : ∀ f k, 0 ≤ tau f k) (ha : ∀ f k, 0 ≤ a f k) (sat : Bool) :
    ∃ T : ℕ → ℕ → ℝ, wfCore sat z (tab nf (n + 1) tau) (tab nf (n + 1) a) =
        some (tab nf (n + 1) fun f j => T f j * a f j) ∧
      (∀ f j, 0 < T f j ∧ T f j ≤ 1 ∧ 0 ≤ T f j * a f j ∧ T f j * a f j ≤ a f j) ∧
      ∀ f j, if sat then T f j ≤ T f (j + 1) else T f (j + 1) ≤ T f j := by
  have hb : ∀ x y : ℝ, 0 ≤ x → 0 ≤ y → 0 < exp (-x) ∧ exp (-x) ≤ 1 ∧ 0 ≤ exp (-x) * y ∧ exp (-x) * y ≤ y := by
    intro x y hx hy
    have h1 : exp (-x) ≤ 1 := exp_le_one_iff.mpr (by linarith)
    exact ⟨exp_pos _, h1, by positivity, mul_le_of_le_one_left hy h1⟩
  cases sat with
  | true =>
    refine ⟨_, C50_satellite hz hn tau a, fun f j => hb _ _ (sum_nonneg fun k _ => ht f k) (ha f j), fun f j => ?_⟩
    simp only [if_true]
    rw [exp_le_exp, neg_le_neg_iff]
    exact sum_le_sum_of_subset_of_nonneg (Ico_subset_Ico_left (Nat.le_succ j)) fun k _ _ => ht f k
  | false =>
    refine ⟨fun f j => exp (-opacityBetween (tau f) 0 j), C50_ground hz hn tau a h0,
      fun f j => hb _ _ (sum_nonneg fun k _ => ht f k) (ha f j), fun f j => ?_⟩
    simp only [Bool.false_eq_true, if_false]
    rw [exp_le_exp, neg_le_neg_iff]
    unfold opacityBetween
    refine sum_le_sum_of_subset_of_nonneg (fun k => ?_) fun k _ _ => ht f k
    simp only [mem_Ioc]; omega

/-! ### The whole calculation -/

theorem expInt_first {z : Bool} {nl : ℕ} {x d : Val} {iend : ℕ} {factor s : ℝ} {xds : Val}
    (h : expInt z nl x d 1 iend factor = .ok (s, xds)) : xds 0 = 0 := by
  unfold expInt at h
  rcases Nat.lt_or_ge iend 1 with hlt | hle
  · rw [forRangeE_of_le (by omega)] at h
    simp only at h
    split_ifs at h
    cases h; rfl
  · have hI := forRangeE_inv (lo := 1) (hi := iend) (f := expIntBody z nl x d)
      (s := (0.0, fun _ => 0)) (I := fun _ (s : ℝ × (ℕ → ℝ)) => s.2 0 = 0)
      (E := fun r => ∀ s, r = Except.ok s → s.2 0 = 0) hle rfl (by
        intro k st hk1 _ hst
        unfold expIntBody
        split_ifs with hk
        · right; exact ⟨_, rfl, fun s hs => by cases hs⟩
        · cases hv : layerValue z (prevEntry x nl k) (x k) with
          | none => right; exact ⟨_, rfl, fun s hs => by cases hs; exact hst⟩
          | some v =>
            left
            refine ⟨_, rfl, ?_⟩
            show Function.update st.2 k (v * d k) 0 = 0
            rw [Function.update_of_ne (by omega)]; exact hst)
    rcases hI with ⟨s', e, hs⟩ | ⟨r, e, hs⟩
    · rw [e] at h
      simp only at h
      split_ifs at h
      cases h
      exact hs
    · rw [e] at h
      exact hs _ h

theorem integ_first {z : Bool} {nl : ℕ} {x d : Val} {factor : ℝ} {s : Option ℝ} {f : Val}
    (h : integ z nl x (.ok d) 1 factor = .ok (s, some f)) : f 0 = 0 := by
  simp only [integ] at h
  cases he : expInt z nl x d 1 nl factor with
  | error x => rw [he] at h; cases h
  | ok r => rw [he] at h; cases h; exact expInt_first (xds := r.2) (s := r.1) he

theorem mapM_some {α β : Type*} {f : α → Option β} {g : α → β} {l : List α} (h : ∀ x ∈ l, f x = some (g x)) :
    l.mapM f = some (l.map g) := by
  induction l with
  | nil => rfl
  | cons a l ih =>
    rw [List.mapM_cons, h a List.mem_cons_self, ih fun x hx => h x (List.mem_cons_of_mem _ hx)]
    rfl

/-- A calculation of weighting functions that ends normally over a path of finite non-negative increments, whatever
the absorption routines: the result is built from the layer opacities of the run, which are non-negative (first one 0), and
from its absorption coefficients; ground weights are the weighting function of the surface, satellite weights
those of the top level times the transmittance of the layer below.  The process is left with the last oxygen model
selected. -/
theorem C50_run {A : AbsRoutines} {lastO2 : String} {g g' : Globals} {w : WF} {frq : List ℝ}
    {r : Option (List (List ℝ))} (hf : w.frequencies = some frq)
    (hgen : w.generate A lastO2 g = (.ok r, g')) (hz : w.zinterp.Nodup) (hp : GoodPath (w.settings frq) 0) :
    ∃ (n : ℕ) (tau : ℕ → ℕ → ℝ), w.zinterp.length = n + 1 ∧
      (let o := (execute A (wfSelect lastO2 w.model g) ⟨w.settings frq, Store.zero⟩).2.out
       (∀ f < frq.length, (o.cell f 0).taulay = some (tau f) ∧ tau f 0 = 0 ∧ ∀ k, 0 ≤ tau f k) ∧
       r = some (tab frq.length (n + 1) fun f j =>
        (if w.satellite then exp (-tau f j) * weightSpec (tau f) (fun i => (o.cell f 0).awet i + (o.cell f 0).adry i) n j
         else weightSpec (tau f) (fun i => (o.cell f 0).awet i + (o.cell f 0).adry i) 0 j))) ∧
      g'.sel = { g.sel with h2o := some w.model, n2 := some w.model, liq := some w.model, o2 := some lastO2 } := by
  unfold WF.generate at hgen
  rw [hf] at hgen
  simp only at hgen
  by_cases hpn : w.pinterp = []
  · rw [if_pos hpn] at hgen; cases hgen
  rw [if_neg hpn] at hgen
  have hsel := (execute_keeps (A := A) (wfSelect lastO2 w.model g) ⟨w.settings frq, Store.zero⟩).1
  rcases hex : execute A (wfSelect lastO2 w.model g) ⟨w.settings frq, Store.zero⟩ with ⟨res, s⟩
  rw [hex] at hgen hsel
  cases res with
  | error x => cases hgen
  | ok rows =>
    simp only at hgen
    have hrun : (execute A (wfSelect lastO2 w.model g) ⟨w.settings frq, Store.zero⟩).1 = .ok rows := by rw [hex]
    have hcell : ∀ j, ∃ t : Val, j < frq.length → (s.out.cell j 0).taulay = some t ∧ t 0 = 0 ∧ ∀ k, 0 ≤ t k := by
      intro j
      by_cases hj : j < frq.length
      · obtain ⟨g1, e, rho, -, hv, -, hc⟩ := (execute_ok hrun).ex
        obtain ⟨d, hd1, hd2⟩ := hp e rho hv
        obtain ⟨es, h1, h2⟩ := (hc 0 (by simp [WF.settings])).2 j hj
        have hset : (⟨w.settings frq, Store.zero⟩ : Inst).set = w.settings frq := rfl
        rw [hset, hd1] at h2
        have hok := cellStep_ok h2
        rw [hex] at hok
        change CellOk A (w.settings frq) e (.ok d) j _ _ (s.out.cell j 0) at hok
        obtain ⟨wt, y, l, i, e1, e2, e3, e4, hn⟩ := cell_nonneg hd2 hok
          (Or.inr ⟨fun _ => 0, fun _ => 0, rfl, rfl, fun _ => le_rfl, fun _ => le_rfl⟩)
        obtain ⟨a, -, -, -, q1, q2⟩ := hok.clear
        rw [e1] at q1; rw [e2] at q2
        have hst := hok.stale rfl
        have l0 : l = fun _ => 0 := by
          have := hst.1; rw [e3] at this; exact (Option.some.inj this).symm
        have i0 : i = fun _ => 0 := by
          have := hst.2; rw [e4] at this; exact (Option.some.inj this).symm
        refine ⟨fun n => wt n + y n + i n + l n, fun _ => ⟨?_, ?_, fun k => ?_⟩⟩
        · simp only [Cell.taulay, e1, e2, e3, e4]
        · simp only [integ_first q1, integ_first q2, l0, i0]; norm_num
        · obtain ⟨a1, a2, a3, a4⟩ := hn k; show 0 ≤ wt k + y k + i k + l k; positivity
      · exact ⟨fun _ => 0, fun h => absurd h hj⟩
    choose tau htau using hcell
    have hrows : ((List.range frq.length).mapM fun j => (s.out.cell j 0).wfRow (w.settings frq).nl) =
        some ((List.range frq.length).map fun j => ((List.range w.zinterp.length).map (tau j),
          (List.range w.zinterp.length).map fun i => (s.out.cell j 0).awet i + (s.out.cell j 0).adry i)) := by
      apply mapM_some
      intro j hj
      simp only [Cell.wfRow, (htau j (by simpa using hj)).1, Option.map_some, WF.settings]
    rw [hrows] at hgen
    simp only [List.map_map, Function.comp_def] at hgen
    obtain ⟨n, hn⟩ : ∃ n, w.zinterp.length = n + 1 := by
      cases hl : w.zinterp with
      | nil =>
        rw [hl] at hgen
        simp [wfCore, argminAbs] at hgen
      | cons a l => exact ⟨l.length, rfl⟩
    refine ⟨n, tau, hn, ⟨fun f hf => htau f hf, ?_⟩, ?_⟩
    · have key : ∀ m, wfCore w.satellite w.zinterp (tab frq.length (n + 1) tau)
          (tab frq.length (n + 1) fun j i => (s.out.cell j 0).awet i + (s.out.cell j 0).adry i) = some m →
          r = some m := by
        intro m hm
        unfold tab at hm
        rw [hn, hm] at hgen
        cases hgen; rfl
      cases hs : w.satellite with
      | true =>
        have := key _ (hs ▸ C50_satellite hz hn tau _)
        rw [this]
        congr 1
        unfold tab
        apply List.map_congr_left
        intro f _
        apply List.map_congr_left
        intro j hj
        simp only [if_true]
        exact (C50_satellite_shift (tau f) (fun i => (s.out.cell f 0).awet i + (s.out.cell f 0).adry i) (by simpa [Nat.lt_succ_iff] using hj)).1
      | false =>
        have e0 : tab frq.length (n + 1) tau = tab frq.length (n + 1) fun f k => if f < frq.length then tau f k else 0 := by
          unfold tab
          apply List.map_congr_left
          intro f hf
          apply List.map_congr_left
          intro j _
          simp only [List.mem_range.mp hf, if_true]
        have h1 := C50_ground (nf := frq.length) hz hn (fun f k => if f < frq.length then tau f k else 0)
          (fun j i => (s.out.cell j 0).awet i + (s.out.cell j 0).adry i) (fun f => by
            by_cases h : f < frq.length
            · simp [h, (htau f h).2.1]
            · simp [h])
        rw [← e0] at h1
        have := key _ (hs ▸ h1)
        rw [this]
        congr 1
        unfold tab
        apply List.map_congr_left
        intro f hf
        apply List.map_congr_left
        intro j _
        have hf' : f < frq.length := by simpa using hf
        simp only [hf', if_true]
        simp
    · have hg : g' = s.g := by
        revert hgen
        split <;> (intro h; cases h <;> rfl)
      rw [hg]; exact hsel

/-- The demo routines over a three-level grid: the calculation ends normally and `C50_run` applies. -/
noncomputable def demoWF : WF :=
  ⟨[0, 1, 2], [1000, 900, 800], [300, 290, 280], [0, 0, 0], some [22, 31], true, 1, "R24", 90, none⟩

theorem demoWF_index (i : ℕ) : 1 ≤ (refractivity1 ((demoWF.settings [22, 31]).p i)
    ((demoWF.settings [22, 31]).tk i) 0).2.2 := by
  rcases i with _ | _ | _ | i <;> norm_num [refractivity1, WF.settings, demoWF]

theorem demoWF_path : GoodPath (demoWF.settings [22, 31]) 0 := by
  refine goodPath_zenith rfl (by norm_num [WF.settings, demoWF]) (by norm_num [WF.settings, demoWF])
    (by norm_num [WF.settings, demoWF]) (fun i hi => ?_) fun e rho hv i _ => ?_
  · have : i = 0 ∨ i = 1 := by simp [WF.settings, demoWF] at hi; omega
    rcases this with rfl | rfl <;> norm_num [WF.settings, demoWF]
  · have he : e i = 0 := by
      unfold vapor at hv
      simp only [WF.settings, Bool.false_eq_true, if_false, Except.ok.injEq, Prod.mk.injEq] at hv
      rw [← hv.1]
      have : demoWF.rhinterp.getD i 0 = 0 := by
        rcases i with _ | _ | _ | i <;> simp [demoWF]
      beta_reduce
      rw [this, zero_mul]
    rw [he]
    exact demoWF_index i

example : ∃ m g', demoWF.generate demoA "R24" demoG = (.ok (some m), g') ∧ m.length = 2 ∧
    g'.sel.o2 = some "R24" := by
  have hsel : Selected demoA (wfSelect "R24" demoWF.model demoG).sel :=
    ⟨⟨_, _, rfl, rfl⟩, ⟨_, _, rfl, rfl⟩, ⟨_, rfl⟩, ⟨_, rfl⟩⟩
  obtain ⟨rows, hrun⟩ := execute_total_path demoA_total hsel (I := ⟨demoWF.settings [22, 31], Store.zero⟩) rfl
    (by norm_num [WF.settings, demoWF]) (by simp [WF.settings]) (fun h => by cases h)
    (fun e rho hv k hk => by
      obtain rfl : k = 0 := by simp [WF.settings] at hk; exact hk
      obtain ⟨d, h, _⟩ := demoWF_path e rho hv
      exact ⟨d, h⟩)
  have hne : ∃ r g', demoWF.generate demoA "R24" demoG = (.ok r, g') := by
    rcases hex : execute demoA (wfSelect "R24" demoWF.model demoG) ⟨demoWF.settings [22, 31], Store.zero⟩ with ⟨q, s⟩
    rw [hex] at hrun
    obtain rfl : q = .ok rows := hrun
    unfold WF.generate
    have hfr : demoWF.frequencies = some [22, 31] := rfl
    simp only [hfr, hex]
    rw [if_neg (by simp [demoWF])]
    cases List.mapM (fun j => Cell.wfRow (demoWF.settings [22, 31]).nl (s.out.cell j 0)) (List.range [22, 31].length) with
    | none => exact ⟨_, _, rfl⟩
    | some rws =>
      have hw : ∀ t a, ∃ m, wfCore demoWF.satellite demoWF.zinterp t a = some m := by
        intro t a
        have h2 : demoWF.zinterp.getLast? = some 2 := rfl
        have h3 := argminAbs_of (z := demoWF.zinterp) (by simp [demoWF]) (i := 2) (by simp [demoWF])
        have h4 : demoWF.zinterp[2]'(by simp [demoWF]) = 2 := rfl
        rw [h4] at h3
        exact ⟨_, by simp only [wfCore, show demoWF.satellite = true from rfl, if_true, h2, h3, Option.bind_eq_bind,
          Option.bind_some, Option.pure_def]; rfl⟩
      obtain ⟨m, hm⟩ := hw (rws.map Prod.fst) (rws.map Prod.snd)
      simp only [hm]
      exact ⟨_, _, rfl⟩
  obtain ⟨r, g', hgen⟩ := hne
  obtain ⟨n, tau, _, ⟨_, hr⟩, hg⟩ := C50_run rfl hgen (by simp [demoWF]) demoWF_path
  subst hr
  exact ⟨_, g', hgen, by simp [tab], by rw [hg]⟩

/-! ## C51 -/

theorem column_tab (w : ℕ → ℕ → ℝ) {nf ncol c lo b : ℕ} (hc : c < ncol) (h : lo + b ≤ nf) :
    column (((tab nf ncol w).drop lo).take b) c = (List.range' lo b).map fun f => w f c := by
  unfold column tab
  rw [← List.map_drop, ← List.map_take, List.map_map]
  have : (List.drop lo (List.range nf)).take b = List.range' lo b := by
    rw [List.range_eq_range', List.drop_range']
    simp only [zero_add, mul_one]
    rw [show nf - lo = b + (nf - lo - b) by omega, ← List.range'_append_1, List.take_left' (by simp)]
  rw [this]
  apply List.map_congr_left
  intro f _
  simp [List.getD, hc]

theorem sum_map_range' (f : ℕ → ℝ) (lo b : ℕ) : ((List.range' lo b).map f).sum = ∑ k ∈ Ico lo (lo + b), f k := by
  induction b with
  | zero => simp
  | succ b ih =>
    rw [List.range'_concat, List.map_append, List.sum_append, ih, ← add_assoc, sum_Ico_succ_top (by omega)]
    simp

/-- Channel averaging: with a bandpass table that fits into the number of frequencies, channel `i` is the average of
its own frequencies (the ones after those of the earlier channels), level by level. -/
theorem C51_mean (w : ℕ → ℕ → ℝ) {nf ncol : ℕ} (bp : List ℕ) (hsum : bp.sum ≤ nf) (hpos : ∀ b ∈ bp, 0 < b) :
    (meanChannel (tab nf ncol w) ncol bp 0).length = bp.length ∧
    ∀ i b, bp[i]? = some b → ∃ row, (meanChannel (tab nf ncol w) ncol bp 0)[i]? = some row ∧ row.length = ncol ∧
      ∀ c < ncol, row[c]? = some (some
        ((∑ f ∈ Ico ((bp.take i).sum) ((bp.take i).sum + b), w f c) / b)) := by
  have key : ∀ (bp : List ℕ) (cnt : ℕ), cnt + bp.sum ≤ nf → (∀ b ∈ bp, 0 < b) →
      (meanChannel (tab nf ncol w) ncol bp cnt).length = bp.length ∧
      ∀ i b, bp[i]? = some b → ∃ row, (meanChannel (tab nf ncol w) ncol bp cnt)[i]? = some row ∧
        row.length = ncol ∧ ∀ c < ncol, row[c]? = some (some
        ((∑ f ∈ Ico (cnt + (bp.take i).sum) (cnt + (bp.take i).sum + b), w f c) / b)) := by
    intro bp
    induction bp with
    | nil => intro cnt _ _; exact ⟨rfl, fun i b h => by simp at h⟩
    | cons b0 l ih =>
      intro cnt h1 h2
      simp only [List.sum_cons] at h1
      obtain ⟨i1, i2⟩ := ih (cnt + b0) (by omega) fun b hb => h2 b (List.mem_cons_of_mem _ hb)
      refine ⟨by simp [meanChannel, i1], fun i b hb => ?_⟩
      cases i with
      | zero =>
        simp only [List.getElem?_cons_zero, Option.some.injEq] at hb
        subst hb
        refine ⟨_, rfl, by simp, fun c hc => ?_⟩
        rw [List.getElem?_map, List.getElem?_range hc, Option.map_some, column_tab w hc (by omega), npMean,
          sum_map_range']
        have hb0 : (b0 : ℝ) ≠ 0 := by
          have := h2 b0 List.mem_cons_self
          positivity
        simp [npDiv, hb0]
      | succ i =>
        obtain ⟨row, r1, r2, r3⟩ := i2 i b (by simpa using hb)
        refine ⟨row, by simpa [meanChannel] using r1, r2, fun c hc => ?_⟩
        rw [r3 c hc]
        simp [add_assoc]
  obtain ⟨k1, k2⟩ := key bp 0 (by simpa using hsum) hpos
  exact ⟨k1, fun i b hb => by simpa using k2 i b hb⟩

/-- The frequency printed for channel `i` is the average of the `b` frequencies from position `i` on (not from the
position where the channel begins). -/
theorem C51_labels (frq : List ℝ) (bp : List ℕ) {i b : ℕ} (hb : bp[i]? = some b) :
    (plotFrequencies frq bp).length = bp.length ∧
    (plotFrequencies frq bp)[i]? = some (npMean ((frq.drop i).take b)) ∧
    ((bp.take i).sum = i → (plotFrequencies frq bp)[i]? = some (npMean ((frq.drop (bp.take i).sum).take b))) := by
  have h : (plotFrequencies frq bp)[i]? = some (npMean ((frq.drop i).take b)) := by
    simp [plotFrequencies, List.getElem?_mapIdx, hb]
  exact ⟨by simp [plotFrequencies], h, fun e => by rw [e]; exact h⟩

/-- Two channels of two frequencies each: the second label is not the average of the second channel. -/
theorem C51_labels_refuted : plotFrequencies [1, 3, 10, 20] [2, 2] = [some 2, some (13 / 2)] ∧
    npMean (([1, 3, 10, 20].drop 2).take 2) = some 15 := by
  constructor
  · simp [plotFrequencies, npMean, npDiv]; norm_num
  · simp [npMean, npDiv]; norm_num

example : (meanChannel (tab 4 1 fun f _ => f) 1 [1, 3] 0)[1]? = some [some 2] := by
  obtain ⟨row, h1, h2, h3⟩ := (C51_mean (nf := 4) (ncol := 1) (fun f _ => f) [1, 3] (by simp) (by simp)).2 1 3 rfl
  rw [h1]
  have h4 := h3 0 (by norm_num)
  match row, h2 with
  | [x], _ =>
    simp only [List.getElem?_cons_zero, Option.some.injEq] at h4
    rw [h4]
    norm_num [Finset.sum_Ico_succ_top]

/-! ## C52 -/

/-- Strictly increasing abscissae. -/
def Rising (l : List (ℝ × ℝ)) : Prop := l.Pairwise fun a b => a.1 < b.1

/-- At a table point the interpolation returns the table value. -/
theorem C52_exact {l : List (ℝ × ℝ)} (hl : Rising l) {x y : ℝ} (h : (x, y) ∈ l) : npInterp l x = some y := by
  induction l with
  | nil => simp at h
  | cons a l ih =>
    obtain ⟨ha, hl'⟩ := List.pairwise_cons.mp hl
    cases l with
    | nil =>
      simp only [List.mem_singleton] at h
      simp [npInterp, ← h]
    | cons b l =>
      rw [npInterp]
      rcases List.mem_cons.mp h with h | h
      · rw [← h]; simp
      · have hx : a.1 < x := ha _ h
        have hbx : b.1 ≤ x := by
          rcases List.mem_cons.mp h with e | h'
          · rw [← e]
          · exact ((List.pairwise_cons.mp hl').1 _ h').le
        rw [if_neg (not_le.mpr hx), if_neg (not_lt.mpr hbx)]
        exact ih hl' h

/-- Between two neighbouring table points the interpolation is the straight line through them. -/
theorem C52_linear {pre post : List (ℝ × ℝ)} {a b : ℝ × ℝ} (hl : Rising (pre ++ a :: b :: post)) {x : ℝ}
    (h1 : a.1 ≤ x) (h2 : x ≤ b.1) :
    npInterp (pre ++ a :: b :: post) x = some (((b.1 - x) * a.2 + (x - a.1) * b.2) / (b.1 - a.1)) := by
  have hab : a.1 < b.1 := by
    have := (List.pairwise_append.mp hl).2.1
    exact (List.pairwise_cons.mp this).1 b List.mem_cons_self
  have hne : b.1 - a.1 ≠ 0 := by linarith
  rcases h2.eq_or_lt with rfl | h2
  · rw [C52_exact hl (x := b.1) (y := b.2) (by simp)]
    congr 1; field_simp; ring
  induction pre with
  | nil =>
    rw [List.nil_append, npInterp]
    rcases h1.eq_or_lt with rfl | h1
    · rw [if_pos le_rfl]; congr 1; field_simp; ring
    · rw [if_neg (not_le.mpr h1), if_pos h2]; congr 1; field_simp; ring
  | cons c pre ih =>
    obtain ⟨hc, hl'⟩ := List.pairwise_cons.mp hl
    have hca := hc a (by simp)
    have key : npInterp (c :: (pre ++ a :: b :: post)) x = npInterp (pre ++ a :: b :: post) x := by
      cases hp : pre ++ a :: b :: post with
      | nil => simp at hp
      | cons d t =>
        rw [npInterp, if_neg (by linarith), if_neg]
        have hd : d.1 ≤ a.1 := by
          replace hl' : (pre ++ a :: b :: post).Pairwise _ := hl'
          rw [hp] at hl'
          have hm : a ∈ d :: t := by rw [← hp]; simp
          rcases List.mem_cons.mp hm with e | h'
          · rw [e]
          · exact ((List.pairwise_cons.mp hl').1 _ h').le
        linarith
    rw [List.cons_append, key]
    exact ih hl'

/-- Outside the table the interpolation returns the value at the nearer end. -/
theorem C52_clamped {l : List (ℝ × ℝ)} (hl : Rising l) {a b : ℝ × ℝ} (ha : l.head? = some a) (hb : l.getLast? = some b)
    (x : ℝ) : (x ≤ a.1 → npInterp l x = some a.2) ∧ (b.1 ≤ x → npInterp l x = some b.2) := by
  induction l generalizing a with
  | nil => simp at ha
  | cons c l ih =>
    simp only [List.head?_cons, Option.some.injEq] at ha
    subst ha
    obtain ⟨hc, hl'⟩ := List.pairwise_cons.mp hl
    cases l with
    | nil =>
      simp only [List.getLast?_singleton, Option.some.injEq] at hb
      subst hb
      simp [npInterp]
    | cons d l =>
      have hb' : (d :: l).getLast? = some b := by rw [← hb, List.getLast?_cons_cons]
      have hbm : b ∈ d :: l := List.mem_of_getLast? hb'
      have hcb := hc b hbm
      have hdb : d.1 ≤ b.1 := by
        rcases List.mem_cons.mp hbm with e | h'
        · rw [e]
        · exact ((List.pairwise_cons.mp hl').1 _ h').le
      refine ⟨fun hx => by rw [npInterp, if_pos hx], fun hx => ?_⟩
      rw [npInterp, if_neg (by linarith), if_neg (by linarith)]
      exact (ih hl' rfl hb').2 hx

/-- Interpolated values never leave the range of the table values. -/
theorem C52_range {l : List (ℝ × ℝ)} (hl : Rising l) (hne : l ≠ []) {lo hi : ℝ} (h : ∀ a ∈ l, lo ≤ a.2 ∧ a.2 ≤ hi)
    (x : ℝ) : ∃ v, npInterp l x = some v ∧ lo ≤ v ∧ v ≤ hi := by
  induction l with
  | nil => exact absurd rfl hne
  | cons a l ih =>
    obtain ⟨ha, hl'⟩ := List.pairwise_cons.mp hl
    cases l with
    | nil => exact ⟨a.2, rfl, h a List.mem_cons_self⟩
    | cons b l =>
      rw [npInterp]
      have h1 := h a List.mem_cons_self
      have h2 := h b (by simp)
      split_ifs with c1 c2
      · exact ⟨_, rfl, h1⟩
      · refine ⟨_, rfl, ?_⟩
        have hab : 0 < b.1 - a.1 := by linarith
        set t := (x - a.1) / (b.1 - a.1) with ht
        have t0 : 0 ≤ t := by apply div_nonneg <;> linarith
        have t1 : t ≤ 1 := by rw [ht, div_le_one hab]; linarith
        have e : a.2 + (b.2 - a.2) / (b.1 - a.1) * (x - a.1) = (1 - t) * a.2 + t * b.2 := by
          rw [ht]; field_simp; ring
        rw [e]
        constructor <;> nlinarith
      · exact ih hl' (by simp) fun a ha => h a (List.mem_cons_of_mem _ ha)

theorem npMax_spec {z : List ℝ} {m : ℝ} (h : npMax z = some m) : m ∈ z ∧ ∀ x ∈ z, x ≤ m := by
  cases z with
  | nil => cases h
  | cons a l =>
    simp only [npMax, Option.some.injEq] at h
    subst h
    induction l generalizing a with
    | nil => simp
    | cons b l ih =>
      obtain ⟨h1, h2⟩ := ih (max a b)
      simp only [List.foldl_cons]
      constructor
      · rcases List.mem_cons.mp h1 with e | e
        · rcases max_choice a b with h | h <;> rw [h] at e <;> rw [h, e] <;> simp
        · exact List.mem_cons_of_mem _ (List.mem_cons_of_mem _ e)
      · intro x hx
        have hm := h2 (max a b) List.mem_cons_self
        rcases List.mem_cons.mp hx with rfl | hx
        · exact (le_max_left _ _).trans hm
        rcases List.mem_cons.mp hx with rfl | hx
        · exact (le_max_right _ _).trans hm
        · exact h2 x (List.mem_cons_of_mem _ hx)

theorem arange_spec {m step : ℝ} (hs : 0 < step) (hm : 0 ≤ m) :
    ∃ n : ℕ, npArange0 (m + step) step = (List.range (n + 1)).map (fun i : ℕ => (i : ℝ) * step) ∧
      m ≤ n * step ∧ n * step < m + step := by
  have hx : 0 < (m + step) / step := by positivity
  obtain ⟨n, hn⟩ : ∃ n, ⌈(m + step) / step⌉₊ = n + 1 :=
    ⟨⌈(m + step) / step⌉₊ - 1, by have := Nat.ceil_pos.mpr hx; omega⟩
  refine ⟨n, by rw [npArange0, hn], ?_, ?_⟩
  · have h1 := Nat.le_ceil ((m + step) / step)
    rw [hn, div_le_iff₀ hs] at h1
    push_cast at h1; linarith
  · have h1 := Nat.ceil_lt_add_one hx.le
    rw [hn] at h1
    push_cast at h1
    have h2 : (n : ℝ) < (m + step) / step := by linarith
    rwa [lt_div_iff₀ hs] at h2

/-- The profile a new weighting-function object works on: an equidistant grid from 0 to the first grid height at or
above the top of the input, and arrays of the same length whose values come from interpolating the input. -/
theorem C52_grid {z p t rh : List ℝ} {step m : ℝ} (hs : 0 < step) (hz : z.Pairwise (· < ·)) (hm : npMax z = some m)
    (hm0 : 0 ≤ m) (hp : p.length = z.length) (ht : t.length = z.length) (hrh : rh.length = z.length) :
    ∃ w n, WF.new z p t rh step = .ok w ∧ w.zinterp = (List.range (n + 1)).map (fun i : ℕ => (i : ℝ) * step) ∧
      m ≤ n * step ∧ n * step < m + step ∧
      w.pinterp.length = n + 1 ∧ w.tinterp.length = n + 1 ∧ w.rhinterp.length = n + 1 ∧
      ∀ i ≤ n, w.pinterp[i]? = npInterp (z.zip p) (i * step) ∧ w.tinterp[i]? = npInterp (z.zip t) (i * step) ∧
        w.rhinterp[i]? = npInterp (z.zip rh) (i * step) := by
  obtain ⟨n, e, h1, h2⟩ := arange_spec hs hm0
  have hzne : z ≠ [] := by rintro rfl; cases hm
  have hall : ∀ f : List ℝ, f.length = z.length → ∃ g : ℝ → ℝ, ∀ x, npInterp (z.zip f) x = some (g x) := by
    intro f hf
    have hr : Rising (z.zip f) := by
      unfold Rising
      have := hz
      rw [← List.map_fst_zip (l₁ := z) (l₂ := f) (by omega), List.pairwise_map] at this
      exact this
    have hne : z.zip f ≠ [] := by
      intro h0
      have := congrArg List.length h0
      rw [List.length_zip, hf, min_self] at this
      exact hzne (List.length_eq_zero_iff.mp this)
    have : ∀ x, ∃ v, npInterp (z.zip f) x = some v := by
      intro x
      clear hr
      revert hne
      induction z.zip f with
      | nil => exact fun hne => absurd rfl hne
      | cons a l ih =>
        intro _
        cases l with
        | nil => exact ⟨_, rfl⟩
        | cons b l =>
          rw [npInterp]
          split_ifs
          · exact ⟨_, rfl⟩
          · exact ⟨_, rfl⟩
          · exact ih (by simp)
    choose g hg using this
    exact ⟨g, hg⟩
  have hmap : ∀ (f : List ℝ) (g : ℝ → ℝ), (∀ x, npInterp (z.zip f) x = some (g x)) →
      interpAll z f (npArange0 (m + step) step) = some ((List.range (n + 1)).map fun i : ℕ => g (i * step)) := by
    intro f g hg
    unfold interpAll
    rw [mapM_some (g := g) fun x _ => hg x, e, List.map_map]
    rfl
  obtain ⟨gp, hgp⟩ := hall p hp
  obtain ⟨gt, hgt⟩ := hall t ht
  obtain ⟨gr, hgr⟩ := hall rh hrh
  refine ⟨_, n, by simp only [WF.new, hm, hp, ht, hrh, and_self, if_true, hmap p gp hgp, hmap t gt hgt, hmap rh gr hgr]; rfl,
    e, h1, h2, by simp, by simp, by simp, fun i hi => ?_⟩
  have hi' : i < n + 1 := by omega
  simp [hi', hgp, hgt, hgr]

example : ∃ w, WF.new [0, 2, 5] [1000, 800, 500] [300, 290, 270] [1, 0.5, 0] 1.5 = .ok w ∧
    w.pinterp[1]? = some 850 ∧ w.pinterp[4]? = some 500 := by
  have hm : npMax [0, 2, 5] = some 5 := by norm_num [npMax]
  obtain ⟨w, n, h, hg, h1, h2, _, _, _, hv⟩ := C52_grid (z := [0, 2, 5]) (p := [1000, 800, 500])
    (t := [300, 290, 270]) (rh := [1, 0.5, 0]) (step := 1.5) (m := 5) (by norm_num) (by simp; norm_num) hm
    (by norm_num) rfl rfl rfl
  have hn : 4 ≤ n := by
    by_contra hc
    have : (n : ℝ) ≤ 3 := by exact_mod_cast (by omega : n ≤ 3)
    linarith
  refine ⟨w, h, ?_, ?_⟩
  · rw [(hv 1 (by omega)).1]
    norm_num [npInterp]
  · rw [(hv 4 (by omega)).1]
    norm_num [npInterp]

end Verif.Props
