import Mathlib.Analysis.Complex.ExponentialBounds
import Verif.Lemmas.LayerMono
import Verif.Props.Opacity

/-!
# C112: a model that absorbs more

Two runs over the same scene, with whatever absorption models, line lists and perturbed parameters: absorption at the
levels against opacity of the layers against brightness temperature.
-/

namespace Verif.Props

open Verif.Py Verif.Spec Verif.Model Real

/-! ## `exponential_integration` for two profiles -/

section layers
variable {z : Bool} {nl : ℕ} {x x' ds xds xds' : ℕ → ℝ} {factor s s' : ℝ}

theorem layer_of (hn : 1 ≤ nl) (hx : ∀ i < nl, 0 < x i) (h : expInt z nl x ds 1 nl factor = .ok (s, xds)) :
    s = factor * ∑ i ∈ Finset.Ico 1 nl, xds i ∧
    ∀ i, 1 ≤ i → i < nl → ∃ v, layerValue z (x (i - 1)) (x i) = some v ∧ xds i = v * ds i := by
  have key : ∀ i, 1 ≤ i → i < nl → layerValue z (prevEntry x nl i) (x i) =
      some (if |x i - x (i - 1)| < 1e-9 then x i else expProfileMean (x (i - 1)) (x i)) := fun i h1 h2 => by
    have hp : prevEntry x nl i = x (i - 1) := by unfold prevEntry; rw [if_neg (by omega)]
    rw [hp]
    exact layerValue_pos (hx _ (by omega)) (hx i h2)
  rw [expInt_ok hn key] at h
  simp only [Except.ok.injEq, Prod.mk.injEq] at h
  obtain ⟨rfl, rfl⟩ := h
  refine ⟨?_, fun i h1 h2 => ⟨_, layerValue_pos (hx _ (by omega)) (hx i h2), by simp [h1, h2]⟩⟩
  rw [mul_comm]
  congr 1
  refine Finset.sum_congr rfl fun i hi => ?_
  simp only [Finset.mem_Ico.1 hi, and_self, if_true]

/-- Raising positive level values lowers no layer by more than 1e-9 times its path length. -/
theorem C112_layer (hn : 1 ≤ nl) (hx : ∀ i < nl, 0 < x i) (hle : ∀ i < nl, x i ≤ x' i) (hd : ∀ i < nl, 0 ≤ ds i)
    (h : expInt z nl x ds 1 nl factor = .ok (s, xds)) (h' : expInt z nl x' ds 1 nl factor = .ok (s', xds'))
    {i : ℕ} (h1 : 1 ≤ i) (h2 : i < nl) : xds i ≤ xds' i + 1e-9 * ds i := by
  obtain ⟨v, a, e⟩ := (layer_of hn hx h).2 i h1 h2
  obtain ⟨v', a', e'⟩ := (layer_of hn (fun i hi => (hx i hi).trans_le (hle i hi)) h').2 i h1 h2
  rw [e, e', ← add_mul]
  exact mul_le_mul_of_nonneg_right
    (layerValue_mono (hx _ (by omega)) (hx i h2) (hle _ (by omega)) (hle i h2) a a') (hd i h2)

/-- No layer changes between "nearly equal values" and "different values". -/
def SameKind (nl : ℕ) (x x' : ℕ → ℝ) : Prop :=
  ∀ i, 1 ≤ i → i < nl → (|x i - x (i - 1)| < 1e-9 ↔ |x' i - x' (i - 1)| < 1e-9)

/-- It lowers none at all if no layer changes its kind. -/
theorem C112_layer_exact (hn : 1 ≤ nl) (hx : ∀ i < nl, 0 < x i) (hle : ∀ i < nl, x i ≤ x' i) (hd : ∀ i < nl, 0 ≤ ds i)
    (hs : SameKind nl x x')
    (h : expInt z nl x ds 1 nl factor = .ok (s, xds)) (h' : expInt z nl x' ds 1 nl factor = .ok (s', xds'))
    {i : ℕ} (h1 : 1 ≤ i) (h2 : i < nl) : xds i ≤ xds' i := by
  obtain ⟨v, a, e⟩ := (layer_of hn hx h).2 i h1 h2
  obtain ⟨v', a', e'⟩ := (layer_of hn (fun i hi => (hx i hi).trans_le (hle i hi)) h').2 i h1 h2
  rw [e, e']
  exact mul_le_mul_of_nonneg_right
    (layerValue_mono_same (hx _ (by omega)) (hx i h2) (hle _ (by omega)) (hle i h2) (hs i h1 h2) a a') (hd i h2)

/-- The total likewise: it drops by no more than 1e-9 times the length of the path. -/
theorem C112_total (hn : 1 ≤ nl) (hx : ∀ i < nl, 0 < x i) (hle : ∀ i < nl, x i ≤ x' i) (hd : ∀ i < nl, 0 ≤ ds i)
    (hf : 0 ≤ factor)
    (h : expInt z nl x ds 1 nl factor = .ok (s, xds)) (h' : expInt z nl x' ds 1 nl factor = .ok (s', xds')) :
    s ≤ s' + factor * (1e-9 * ∑ i ∈ Finset.Ico 1 nl, ds i) ∧ (SameKind nl x x' → s ≤ s') := by
  rw [(layer_of hn hx h).1, (layer_of hn (fun i hi => (hx i hi).trans_le (hle i hi)) h').1]
  constructor
  · rw [← mul_add, Finset.mul_sum (f := ds), ← Finset.sum_add_distrib]
    refine mul_le_mul_of_nonneg_left (Finset.sum_le_sum fun i hi => ?_) hf
    obtain ⟨h1, h2⟩ := Finset.mem_Ico.1 hi
    exact C112_layer hn hx hle hd h h' h1 h2
  · intro hs
    refine mul_le_mul_of_nonneg_left (Finset.sum_le_sum fun i hi => ?_) hf
    obtain ⟨h1, h2⟩ := Finset.mem_Ico.1 hi
    exact C112_layer_exact hn hx hle hd hs h h' h1 h2

theorem threshold_layer : expProfileMean 1.05e-9 0.05e-9 / 2 > 0.1e-9 := by
  rw [expProfileMean_eq (by norm_num) (by norm_num) (by norm_num), gt_iff_lt, lt_div_iff₀ (by norm_num)]
  have h21 : log (0.05e-9 / 1.05e-9 : ℝ) = -log 21 := by rw [← log_inv]; norm_num
  have hp : 0 < log (21 : ℝ) := log_pos (by norm_num)
  have h4 : log (21 : ℝ) < 4 := by
    have h3 : exp 1 > 2.7 := by have := exp_one_gt_d9; linarith
    rw [log_lt_iff_lt_exp (by norm_num)]
    have : exp (4 : ℝ) = exp 1 ^ 4 := by rw [← exp_nat_mul]; norm_num
    rw [this]
    calc (21 : ℝ) < 2.7 ^ 4 := by norm_num
      _ ≤ exp 1 ^ 4 := by gcongr
  rw [h21, div_neg, ← neg_div, lt_div_iff₀ hp]
  nlinarith

/-- The slack is needed: raising the upper of two positive values can take a layer across the threshold of 1e-9, and more
than half its integral is lost. -/
theorem C112_threshold_refuted : ∃ (x x' : ℕ → ℝ) (s s' : ℝ) (xds xds' : ℕ → ℝ), (∀ i < 2, 0 < x i ∧ x i ≤ x' i) ∧
    expInt true 2 x (fun _ => 1) 1 2 1 = .ok (s, xds) ∧ expInt true 2 x' (fun _ => 1) 1 2 1 = .ok (s', xds') ∧
    s' < s / 2 ∧ xds' 1 < xds 1 / 2 := by
  let x : ℕ → ℝ := fun i => if i = 0 then 1.05e-9 else 0.05e-9
  let x' : ℕ → ℝ := fun i => if i = 0 then 1.05e-9 else 0.1e-9
  have hx : ∀ i < 2, 0 < x i ∧ x i ≤ x' i := fun i _ => by
    simp only [x, x']
    split_ifs <;> norm_num
  obtain ⟨s, xds, h, -⟩ := C15_sum (z := true) (ds := fun _ => 1) (factor := 1) (show 1 ≤ 2 by decide)
    fun i hi => (hx i hi).1.le
  obtain ⟨s', xds', h', -⟩ := C15_sum (z := true) (ds := fun _ => 1) (factor := 1) (show 1 ≤ 2 by decide)
    fun i hi => ((hx i hi).1.trans_le (hx i hi).2).le
  obtain ⟨e1, e2⟩ := layer_of (by decide) (fun i hi => (hx i hi).1) h
  obtain ⟨e1', e2'⟩ := layer_of (by decide) (fun i hi => (hx i hi).1.trans_le (hx i hi).2) h'
  obtain ⟨v, v1, v2⟩ := e2 1 le_rfl (by decide)
  obtain ⟨v', v1', v2'⟩ := e2' 1 le_rfl (by decide)
  rw [layerValue_pos (hx 0 (by decide)).1 (hx 1 (by decide)).1, Option.some_inj] at v1
  rw [layerValue_pos ((hx 0 (by decide)).1.trans_le (hx 0 (by decide)).2)
    ((hx 1 (by decide)).1.trans_le (hx 1 (by decide)).2), Option.some_inj] at v1'
  simp only [x, x', if_true, one_ne_zero, if_false] at v1 v1'
  rw [if_neg (by rw [not_lt, le_abs]; right; norm_num)] at v1
  rw [if_pos (by rw [abs_lt]; constructor <;> norm_num)] at v1'
  have key : xds' 1 < xds 1 / 2 := by
    rw [v2, v2', ← v1, ← v1', mul_one, mul_one]
    exact threshold_layer
  refine ⟨x, x', s, s', xds, xds', hx, h, h', ?_, key⟩
  rw [e1, e1', Nat.Ico_succ_singleton, Finset.sum_singleton, Finset.sum_singleton, one_mul, one_mul]
  exact key

/-- The positive values are needed: an absorption of exactly zero at one end of a layer counts as half the value at the
other end, a small positive one counts for less.  So replacing a zero by a positive value of at most an eighth of its
neighbour lowers the integral of the layer. -/
theorem C112_zero_refuted (hn : 1 ≤ nl) (hx : ∀ i < nl, 0 ≤ x i) (hx' : ∀ i < nl, 0 ≤ x' i)
    (h : expInt true nl x ds 1 nl factor = .ok (s, xds)) (h' : expInt true nl x' ds 1 nl factor = .ok (s', xds'))
    {i : ℕ} (h1 : 1 ≤ i) (h2 : i < nl) (hd : 0 < ds i) {b ε : ℝ} (hb : 2e-9 ≤ b) (hε : 0 < ε) (hle : ε ≤ b / 8)
    (hv : x (i - 1) = 0 ∧ x i = b ∧ x' (i - 1) = ε ∧ x' i = b ∨ x (i - 1) = b ∧ x i = 0 ∧ x' (i - 1) = b ∧ x' i = ε) :
    xds' i < xds i := by
  have hb0 : 0 < b := by linarith
  have hl : 2 < log (b / ε) := by
    have h8 : (8 : ℝ) ≤ b / ε := by rw [le_div_iff₀ hε]; linarith
    have : log 8 ≤ log (b / ε) := log_le_log (by norm_num) h8
    have e8 : log (8 : ℝ) = 3 * log 2 := by rw [show (8 : ℝ) = 2 ^ 3 by norm_num, log_pow]; norm_num
    have := log_two_gt_d9
    linarith
  have hlt : (b - ε) / log (b / ε) < b / 2 := by
    rw [div_lt_iff₀ (by linarith)]
    nlinarith
  have hmean := expProfileMean_eq hε hb0 (by linarith : ε ≠ b)
  rcases hv with ⟨a1, a2, a3, a4⟩ | ⟨a1, a2, a3, a4⟩
  · rw [(C14_degenerate hn hx h h1 h1 h2).2 (by rw [a1, a2, sub_zero, le_abs]; left; linarith) (Or.inl a1),
      C14_exponential_mean hn hx' h' h1 h1 h2 (a3 ▸ hε) (a4 ▸ hb0) (by rw [a3, a4, le_abs]; left; linarith), a1, a2, a3, a4,
      hmean, if_pos rfl, zero_add]
    exact mul_lt_mul_of_pos_right hlt hd
  · rw [(C14_degenerate hn hx h h1 h1 h2).2 (by rw [a1, a2, zero_sub, abs_neg, le_abs]; left; linarith) (Or.inr a2),
      C14_exponential_mean hn hx' h' h1 h1 h2 (a3 ▸ hb0) (a4 ▸ hε) (by rw [a3, a4, le_abs]; right; linarith), a1, a2, a3, a4,
      expProfileMean_eq hb0 hε (by linarith), logMean_symm hb0 hε, if_pos rfl, add_zero]
    exact mul_lt_mul_of_pos_right hlt hd

/-- A dry level in a moist profile: 0 against 0.001 Np/km below 0.01 Np/km. -/
example : ∃ s s' xds xds', expInt true 2 (fun i => if i = 0 then 0 else 0.01) (fun _ => 1) 1 2 1 = .ok (s, xds) ∧
    expInt true 2 (fun i => if i = 0 then 0.001 else 0.01) (fun _ => 1) 1 2 1 = .ok (s', xds') ∧ xds' 1 < xds 1 := by
  have hx : ∀ i < 2, (0 : ℝ) ≤ (fun i : ℕ => if i = 0 then (0 : ℝ) else 0.01) i := fun i _ => by
    simp only; split_ifs <;> norm_num
  have hx' : ∀ i < 2, (0 : ℝ) ≤ (fun i : ℕ => if i = 0 then (0.001 : ℝ) else 0.01) i := fun i _ => by
    simp only; split_ifs <;> norm_num
  obtain ⟨s, xds, h, -⟩ := C15_sum (z := true) (ds := fun _ => 1) (factor := 1) (show 1 ≤ 2 by decide) hx
  obtain ⟨s', xds', h', -⟩ := C15_sum (z := true) (ds := fun _ => 1) (factor := 1) (show 1 ≤ 2 by decide) hx'
  exact ⟨s, s', xds, xds', h, h', C112_zero_refuted (by decide) hx hx' h h' le_rfl (by decide) one_pos
    (b := 0.01) (ε := 0.001) (by norm_num) (by norm_num) (by norm_num) (Or.inl (by simp))⟩

end layers

/-! ## Two runs over one scene -/

section runs
variable {A A' : AbsRoutines} {g g' : Globals} {I I' : Inst} {rows rows' : List Row}

/-- The second object simulates the scene of the first, with other perturbed parameters and another ozone profile at
most. -/
def SameScene (I I' : Inst) : Prop := ∃ u n, I'.set = { I.set with amu := u, o3n := n }

/-- The clouds of both runs: the same liquid model for the same clouds, or no clouds. -/
def SameClouds (A A' : AbsRoutines) (g g' : Globals) (I I' : Inst) : Prop :=
  I.set.cloudy = true ∧ A'.liq = A.liq ∧ g'.sel.liq = g.sel.liq ∨
  I.set.cloudy = false ∧ NoClouds I.out ∧ NoClouds I'.out

/-- The second run absorbs at least as much at every level, at frequency `j` and angle `k`. -/
def Absorbs (I : Inst) (c c' : Cell) : Prop :=
  ∀ i < I.set.nl, 0 < c.awet i ∧ c.awet i ≤ c'.awet i ∧ 0 < c.adry i ∧ c.adry i ≤ c'.adry i

theorem initLineList_sel {A : AbsRoutines} {g g1 : Globals} (h : initLineList A g = .ok g1) : g1.sel = g.sel := by
  unfold initLineList at h
  cases h1 : g.sel.h2o.bind A.h2oFile with
  | none => simp [h1] at h
  | some w =>
    simp only [h1] at h
    cases h2 : g.sel.o2.bind A.o2File with
    | none => simp [h2] at h
    | some o =>
      simp only [h2, Except.ok.injEq] at h
      rw [← h]

theorem cellGlobals_sel (S : Settings) (g : Globals) (es : ℝ) : (cellGlobals S g es).sel = g.sel := by
  unfold cellGlobals
  split_ifs <;> simp

/-- Integration of two profiles along one path. -/
theorem integ_pair {z : Bool} {nl : ℕ} {x x' d : Val} {s s' : Option ℝ} {xs xs' : Option Val} (hn : 1 ≤ nl)
    (hx : ∀ i < nl, 0 < x i ∧ x i ≤ x' i) (hd : ∀ i < nl, 0 ≤ d i)
    (h : integ z nl x (.ok d) 1 1 = .ok (s, xs)) (h' : integ z nl x' (.ok d) 1 1 = .ok (s', xs')) :
    ∃ S S' f f', s = some S ∧ s' = some S' ∧ xs = some f ∧ xs' = some f' ∧
      S ≤ S' + 1e-9 * ∑ i ∈ Finset.Ico 1 nl, d i ∧
      (SameKind nl x x' → S ≤ S' ∧ ∀ i, 1 ≤ i → i < nl → f i ≤ f' i) := by
  simp only [integ] at h h'
  cases he : expInt z nl x d 1 nl 1 with
  | error x => rw [he] at h; cases h
  | ok r =>
    cases he' : expInt z nl x' d 1 nl 1 with
    | error x => rw [he'] at h'; cases h'
    | ok r' =>
      rw [he] at h
      rw [he'] at h'
      cases h; cases h'
      have t := C112_total hn (fun i hi => (hx i hi).1) (fun i hi => (hx i hi).2) hd zero_le_one he he'
      rw [one_mul] at t
      exact ⟨_, _, _, _, rfl, rfl, rfl, rfl, t.1, fun hs => ⟨t.2 hs, fun i h1 h2 =>
        C112_layer_exact hn (fun i hi => (hx i hi).1) (fun i hi => (hx i hi).2) hd hs he he' h1 h2⟩⟩

/-- A layer of positive length between two levels of larger absorption has the larger integral. -/
theorem integ_pair_strict {z : Bool} {nl : ℕ} {x x' d f f' : Val} {s s' : Option ℝ} (hn : 1 ≤ nl)
    (hx : ∀ i < nl, 0 < x i ∧ x i ≤ x' i) (hs : SameKind nl x x')
    (h : integ z nl x (.ok d) 1 1 = .ok (s, some f)) (h' : integ z nl x' (.ok d) 1 1 = .ok (s', some f')) {i : ℕ}
    (h1 : 1 ≤ i) (h2 : i < nl) (hd : 0 < d i) (ha : x (i - 1) < x' (i - 1)) (hb : x i < x' i) : f i < f' i := by
  simp only [integ] at h h'
  cases he : expInt z nl x d 1 nl 1 with
  | error x => rw [he] at h; cases h
  | ok r =>
    cases he' : expInt z nl x' d 1 nl 1 with
    | error x => rw [he'] at h'; cases h'
    | ok r' =>
      rw [he] at h
      rw [he'] at h'
      cases h; cases h'
      obtain ⟨v, a, e⟩ := (layer_of hn (fun i hi => (hx i hi).1) he).2 i h1 h2
      obtain ⟨v', a', e'⟩ := (layer_of hn (fun i hi => (hx i hi).1.trans_le (hx i hi).2) he').2 i h1 h2
      rw [e, e']
      exact mul_lt_mul_of_pos_right
        (layerValue_strict (hx _ (by omega)).1 (hx i h2).1 ha hb (hs i h1 h2) a a') hd

/-- Layer `i` lies between two levels at which water vapour, or two at which dry air absorbs more in the second run. -/
def MoreAt (c c' : Cell) (i : ℕ) : Prop :=
  c.awet (i - 1) < c'.awet (i - 1) ∧ c.awet i < c'.awet i ∨ c.adry (i - 1) < c'.adry (i - 1) ∧ c.adry i < c'.adry i

/-- What the two runs have in common. -/
theorem scene_views (h : (execute A g I).1 = .ok rows) (h' : (execute A' g' I').1 = .ok rows') (hsc : SameScene I I')
    (hcl : SameClouds A A' g g' I I') (hn : 1 ≤ I.set.nl) {j k : ℕ} (hj : j < I.set.nf) (hk : k < I.set.nang)
    (hp : GoodPath I.set k)
    (hab : Absorbs I ((execute A g I).2.out.cell j k) ((execute A' g' I').2.out.cell j k)) :
    let c := (execute A g I).2.out.cell j k
    let c' := (execute A' g' I').2.out.cell j k
    ∃ (d : Val) (w y w' y' : ℝ), (∀ i < I.set.nl, 0 ≤ d i) ∧
      (∀ e rho, vapor I.set.tk I.set.rh I.set.ice = .ok (e, rho) →
        pathOf I.set (fun i => (refractivity1 (I.set.p i) (I.set.tk i) (e i)).2.2) k = .ok d) ∧
      c.sptauwet = some w ∧ c'.sptauwet = some w' ∧ c.sptaudry = some y ∧ c'.sptaudry = some y' ∧
      w ≤ w' + 1e-9 * ∑ i ∈ Finset.Ico 1 I.set.nl, d i ∧ y ≤ y' + 1e-9 * ∑ i ∈ Finset.Ico 1 I.set.nl, d i ∧
      (SameKind I.set.nl c.awet c'.awet → w ≤ w') ∧ (SameKind I.set.nl c.adry c'.adry → y ≤ y') ∧
      (SameKind I.set.nl c.awet c'.awet → SameKind I.set.nl c.adry c'.adry →
        ∃ τ τ' es out out', c.taulay = some τ ∧ c'.taulay = some τ' ∧ Thicker I.set.nl τ τ' ∧ I.set.es[j]? = some es ∧
          planck I.set.satellite es (I.set.frq j) I.set.nl I.set.tk τ = some out ∧
          c.tbtotal = bright out.hvk out.boftotl ∧
          planck I.set.satellite es (I.set.frq j) I.set.nl I.set.tk τ' = some out' ∧
          c'.tbtotal = bright out'.hvk out'.boftotl ∧
          ∀ i, 1 ≤ i → i < I.set.nl → 0 < d i → MoreAt c c' i → τ i < τ' i) := by
  obtain ⟨u, n, hu⟩ := hsc
  intro c c'
  obtain ⟨g1, e, rho, hl, hv, -, hc⟩ := (execute_ok h).ex
  obtain ⟨g1', e', rho', hl', hv', -, hc'⟩ := (execute_ok h').ex
  have ev : vapor I.set.tk I.set.rh I.set.ice = .ok (e', rho') := by rw [hu] at hv'; exact hv'
  rw [hv] at ev; cases ev
  obtain ⟨d, hd1, hd2⟩ := hp e rho hv
  obtain ⟨es, q1, q2⟩ := (hc k hk).2 j hj
  obtain ⟨es', r1, r2⟩ := (hc' k (by rw [hu]; exact hk)).2 j (by rw [hu]; exact hj)
  have ee : I.set.es[j]? = some es' := by rw [hu] at r1; exact r1
  rw [q1] at ee; cases ee
  have hpp : ∀ (n : Val) k, pathOf I'.set n k = pathOf I.set n k := fun n k => by rw [hu]; rfl
  have hd1' : pathOf I'.set (fun i => (refractivity1 (I'.set.p i) (I'.set.tk i) (e i)).2.2) k = .ok d := by
    rw [hpp, hu]; exact hd1
  rw [hd1] at q2
  rw [hd1'] at r2
  have ok := cellStep_ok q2
  have ok' := cellStep_ok r2
  have sn : I'.set.nl = I.set.nl := by rw [hu]
  have sc : I'.set.cloudy = I.set.cloudy := by rw [hu]
  obtain ⟨a, -, a2, a3, a4, a5⟩ := ok.clear
  obtain ⟨b, -, b2, b3, b4, b5⟩ := ok'.clear
  rw [sn] at b4 b5
  have hw : ∀ i < I.set.nl, 0 < (fun i => (a i).1) i ∧ (fun i => (a i).1) i ≤ (fun i => (b i).1) i := fun i hi => by
    rw [← a2, ← b2]; exact ⟨(hab i hi).1, (hab i hi).2.1⟩
  have hy : ∀ i < I.set.nl, 0 < (fun i => (a i).2) i ∧ (fun i => (a i).2) i ≤ (fun i => (b i).2) i := fun i hi => by
    rw [← a3, ← b3]; exact ⟨(hab i hi).2.2.1, (hab i hi).2.2.2⟩
  obtain ⟨w, w', f, f', w1, w2, w3, w4, w5, w6⟩ := integ_pair hn hw hd2 a4 b4
  obtain ⟨y, y', l, l', y1, y2, y3, y4, y5, y6⟩ := integ_pair hn hy hd2 a5 b5
  rw [← a2, ← b2] at w6
  rw [← a3, ← b3] at y6
  refine ⟨d, w, y, w', y', hd2, fun e0 rho0 h0 => ?_, w1, w2, y1, y2, w5, y5, fun s => (w6 s).1, fun s => (y6 s).1, ?_⟩
  · rw [hv] at h0; cases h0; exact hd1
  intro s1 s2
  have hst : I.set.cloudy = true ∨ CleanClouds I := hcl.imp (·.1) fun hn j k =>
    ⟨_, _, (hn.2.1 j k).1, (hn.2.1 j k).2, fun _ => le_rfl, fun _ => le_rfl⟩
  obtain ⟨v1, v2, lq, ic, e1, e2, e3, e4, hnn⟩ := cell_nonneg hd2 ok (hst.imp id fun h => h j k)
  rw [w3] at e1; cases e1
  rw [y3] at e2; cases e2
  have hlq : c'.ptauliq = some lq ∧ c'.ptauice = some ic := by
    rcases hcl with ⟨hc1, hc2, hc3⟩ | ⟨hc1, hc2, hc3⟩
    · obtain ⟨dl, di, p, m1, m2, m3, m4⟩ := ok.cloud hc1
      obtain ⟨dl', di', p', m1', m2', m3', m4'⟩ := ok'.cloud (by rw [sc]; exact hc1)
      have : I.set.dens = some (dl', di') := by rw [hu] at m1'; exact m1'
      rw [m1] at this; cases this
      have hp : cloudyAbs A (cellGlobals I.set { g1 with fromSat := I.set.satellite } es).sel.liq I.set.nl I.set.tk dl di
          (I.set.frq j) = .ok p' := by
        rw [cellGlobals_sel] at m2' ⊢
        have s1 : g1'.sel.liq = g1.sel.liq := by rw [initLineList_sel hl', initLineList_sel hl, hc3]
        rw [← m2']
        simp only [s1]
        rw [hu]
        unfold cloudyAbs cloudyLevel liqTerm
        rw [hc2]
      rw [m2] at hp; cases hp
      rw [sn, m3] at m3'
      rw [sn, m4] at m4'
      simp only [Except.ok.injEq, Prod.mk.injEq] at m3' m4'
      exact ⟨m3'.2 ▸ e3, m4'.2 ▸ e4⟩
    · have t := ok.stale hc1
      have t' := ok'.stale (by rw [sc]; exact hc1)
      exact ⟨by rw [← t'.ptauliq, (hc3 j k).1, ← (hc2 j k).1, t.ptauliq]; exact e3,
        by rw [← t'.ptauice, (hc3 j k).2, ← (hc2 j k).2, t.ptauice]; exact e4⟩
  have ht : c.taulay = some fun n => f n + l n + ic n + lq n := by
    simp only [Cell.taulay, c, w3, y3, e3, e4]
  have ht' : c'.taulay = some fun n => f' n + l' n + ic n + lq n := by
    simp only [Cell.taulay, c', w4, y4]
    simp only [c'] at hlq
    rw [hlq.1, hlq.2]
  obtain ⟨out, ho, hb, -⟩ := ok.rad _ ht
  obtain ⟨out', ho', hb', -⟩ := ok'.rad _ ht'
  rw [cellGlobals_emissivity, cellGlobals_fromSat] at ho ho'
  refine ⟨_, _, es, out, out', ht, ht', fun i h1 h2 => ?_, q1, ho, hb, by rw [hu] at ho'; exact ho', hb',
    fun i h1 h2 h3 hm => ?_⟩
  · obtain ⟨n1, n2, n3, n4⟩ := hnn i
    have := (w6 s1).2 i h1 h2
    have := (y6 s2).2 i h1 h2
    constructor <;> simp only <;> linarith
  · have l1 := (w6 s1).2 i h1 h2
    have l2 := (y6 s2).2 i h1 h2
    simp only [c, c'] at s1 s2
    simp only [MoreAt, c, c'] at hm
    rw [a2, b2] at s1 hm
    rw [a3, b3] at s2 hm
    rw [w3] at a4
    rw [w4] at b4
    rw [y3] at a5
    rw [y4] at b5
    rcases hm with ⟨m1, m2⟩ | ⟨m1, m2⟩
    · have := integ_pair_strict hn hw s1 a4 b4 h1 h2 h3 m1 m2
      linarith
    · have := integ_pair_strict hn hy s2 a5 b5 h1 h2 h3 m1 m2
      linarith

/-- The reported opacities of water vapour and dry air: neither drops by more than 1e-9 Np/km times the path, and not at
all if no layer changes its kind.  Any viewing geometry with a finite path. -/
theorem C112_opacity (h : (execute A g I).1 = .ok rows) (h' : (execute A' g' I').1 = .ok rows') (hsc : SameScene I I')
    (hcl : SameClouds A A' g g' I I') (hn : 1 ≤ I.set.nl) {j k : ℕ} (hj : j < I.set.nf) (hk : k < I.set.nang)
    (hp : GoodPath I.set k)
    (hab : Absorbs I ((execute A g I).2.out.cell j k) ((execute A' g' I').2.out.cell j k)) :
    let c := (execute A g I).2.out.cell j k
    let c' := (execute A' g' I').2.out.cell j k
    ∃ (d : Val) (w y w' y' : ℝ), (∀ i < I.set.nl, 0 ≤ d i) ∧
      (∀ e rho, vapor I.set.tk I.set.rh I.set.ice = .ok (e, rho) →
        pathOf I.set (fun i => (refractivity1 (I.set.p i) (I.set.tk i) (e i)).2.2) k = .ok d) ∧
      c.sptauwet = some w ∧ c'.sptauwet = some w' ∧ c.sptaudry = some y ∧ c'.sptaudry = some y' ∧
      w ≤ w' + 1e-9 * ∑ i ∈ Finset.Ico 1 I.set.nl, d i ∧ y ≤ y' + 1e-9 * ∑ i ∈ Finset.Ico 1 I.set.nl, d i ∧
      (SameKind I.set.nl c.awet c'.awet → w ≤ w') ∧ (SameKind I.set.nl c.adry c'.adry → y ≤ y') := by
  obtain ⟨d, w, y, w', y', a1, a2, a3, a4, a5, a6, a7, a8, a9, a10, -⟩ := scene_views h h' hsc hcl hn hj hk hp hab
  exact ⟨d, w, y, w', y', a1, a2, a3, a4, a5, a6, a7, a8, a9, a10⟩

/-- From the ground, through air that does not get warmer with height: the model that absorbs more gives the higher
brightness temperature. -/
theorem C112_ground (h : (execute A g I).1 = .ok rows) (h' : (execute A' g' I').1 = .ok rows') (hsc : SameScene I I')
    (hcl : SameClouds A A' g g' I I') (hn : 1 ≤ I.set.nl) {j k : ℕ} (hj : j < I.set.nf) (hk : k < I.set.nang)
    (hp : GoodPath I.set k)
    (hab : Absorbs I ((execute A g I).2.out.cell j k) ((execute A' g' I').2.out.cell j k))
    (hw : SameKind I.set.nl ((execute A g I).2.out.cell j k).awet ((execute A' g' I').2.out.cell j k).awet)
    (hy : SameKind I.set.nl ((execute A g I).2.out.cell j k).adry ((execute A' g' I').2.out.cell j k).adry)
    (hsat : I.set.satellite = false) (hf : 0 < I.set.frq j) (hc : Cooling I.set.nl I.set.tk)
    (htop : 2.728 ≤ I.set.tk (I.set.nl - 1))
    (hop : ∀ τ, ((execute A' g' I').2.out.cell j k).taulay = some τ → opacityBelow τ (I.set.nl - 1) < 125) :
    ∃ Tb Tb', ((execute A g I).2.out.cell j k).tbtotal = some Tb ∧
      ((execute A' g' I').2.out.cell j k).tbtotal = some Tb' ∧ Tb ≤ Tb' := by
  obtain ⟨_, -, -, -, -, -, -, -, -, -, -, -, -, -, -, key⟩ := scene_views h h' hsc hcl hn hj hk hp hab
  obtain ⟨τ, τ', es, out, out', t1, t2, ht, -, p1, b1, p2, b2, -⟩ := key hw hy
  rw [hsat] at p1 p2
  obtain ⟨a, b, c, d, e⟩ := C82_ground hf hc htop ht (Or.inl (hop τ' t2)) p1 p2
  exact ⟨a, b, b1.trans c, b2.trans d, e⟩

/-- From a satellite over a black surface, through air that does not get warmer with height: the model that absorbs more
gives the lower brightness temperature. -/
theorem C112_satellite (h : (execute A g I).1 = .ok rows) (h' : (execute A' g' I').1 = .ok rows') (hsc : SameScene I I')
    (hcl : SameClouds A A' g g' I I') (hn : 1 ≤ I.set.nl) {j k : ℕ} (hj : j < I.set.nf) (hk : k < I.set.nang)
    (hp : GoodPath I.set k)
    (hab : Absorbs I ((execute A g I).2.out.cell j k) ((execute A' g' I').2.out.cell j k))
    (hw : SameKind I.set.nl ((execute A g I).2.out.cell j k).awet ((execute A' g' I').2.out.cell j k).awet)
    (hy : SameKind I.set.nl ((execute A g I).2.out.cell j k).adry ((execute A' g' I').2.out.cell j k).adry)
    (hsat : I.set.satellite = true) (hf : 0 < I.set.frq j) (hc : Cooling I.set.nl I.set.tk) (hes : I.set.es[j]? = some 1)
    (hop : ∀ τ, ((execute A g I).2.out.cell j k).taulay = some τ → opacityBelow τ (I.set.nl - 1) < 125) :
    ∃ Tb Tb', ((execute A g I).2.out.cell j k).tbtotal = some Tb ∧
      ((execute A' g' I').2.out.cell j k).tbtotal = some Tb' ∧ Tb' ≤ Tb := by
  obtain ⟨_, -, -, -, -, -, -, -, -, -, -, -, -, -, -, key⟩ := scene_views h h' hsc hcl hn hj hk hp hab
  obtain ⟨τ, τ', es, out, out', t1, t2, ht, he, p1, b1, p2, b2, -⟩ := key hw hy
  rw [hes] at he; cases he
  rw [hsat] at p1 p2
  obtain ⟨a, b, c, d, e⟩ := C82_satellite hf hc ht (hop τ t1) p1 p2
  exact ⟨a, b, b1.trans c, b2.trans d, e⟩

end runs

/-! ## Two concrete runs -/

/-- Absorption routines with half the values of `demoA`. -/
noncomputable def thinA : AbsRoutines :=
  { demoA with h2o := fun _ _ _ _ _ _ => .ok (1 / 2, 0), o2 := fun _ _ _ _ _ _ => .ok (1, 0) }

theorem thinA_total : TotalRoutines thinA :=
  ⟨fun _ _ _ _ _ _ => ⟨_, rfl⟩, fun _ _ _ _ _ _ => ⟨_, rfl⟩, fun _ _ _ _ => ⟨_, rfl⟩,
    fun _ _ _ _ _ _ => ⟨_, rfl⟩, fun _ _ _ _ => ⟨_, rfl⟩⟩

theorem thin_level {G : Globals} {p t e f : ℝ} {i : ℕ} {r : ℝ × ℝ} (h : clearLevel thinA G none p t e f i = .ok r) :
    r = (0.182 * f * (1 / 2) * db2np, 0.182 * f * db2np) := by
  unfold clearLevel at h
  simp only at h
  split at h
  · have hn : n2Term thinA G.sel t ((p / 10.0 - e / 10.0) * 10) f = .ok 0 ∨
        n2Term thinA G.sel t ((p / 10.0 - e / 10.0) * 10) f = .error .valueError := by
      unfold n2Term
      split
      · exact Or.inr rfl
      · split_ifs
        · exact Or.inl rfl
        · exact Or.inl rfl
    have h1 : ∀ m l x v y f, thinA.h2o m l x v y f = .ok (1 / 2, 0) := fun _ _ _ _ _ _ => rfl
    have h2 : ∀ m l x v y f, thinA.o2 m l x v y f = .ok (1, 0) := fun _ _ _ _ _ _ => rfl
    have ho : o3Term thinA G none t p f i = .ok 0 := by simp [o3Term, ozoneActive]
    rcases hn with hn | hn
    · simp only [hn, ho, h1, h2, bind, Except.bind, pure, Except.pure, Except.ok.injEq] at h
      rw [← h]
      norm_num
    · simp only [hn, h1, h2, bind, Except.bind] at h
      cases h
  · cases h

theorem thin_runs (sat : Bool) : ∃ rows, (execute thinA demoG ⟨tipS sat, Store.zero⟩).1 = .ok rows :=
  execute_total thinA_total (⟨⟨_, _, rfl, rfl⟩, ⟨_, _, rfl, rfl⟩, ⟨_, rfl⟩, ⟨_, rfl⟩⟩ : Selected thinA demoG.sel) rfl
    (show 1 ≤ 3 by decide) (by simp [tipS, demoS]) (by simp [CloudInput, tipS]) rfl
    fun k hk => (sin_pos_of_angle (demo_angles k hk).1 (demo_angles k hk).2).ne'

theorem db2np_pos' : 0 < db2np := by
  unfold db2np
  have : 0 < log (10.0:ℝ) := log_pos (by norm_num)
  positivity

theorem tip_values {sat : Bool} {k : ℕ} (hk : k < 2) {rows : List Row}
    (h : (execute demoA demoG ⟨tipS sat, Store.zero⟩).1 = .ok rows) {i : ℕ} (hi : i < 3) :
    ((execute demoA demoG ⟨tipS sat, Store.zero⟩).2.out.cell 0 k).awet i = 0.182 * 22 * db2np ∧
    ((execute demoA demoG ⟨tipS sat, Store.zero⟩).2.out.cell 0 k).adry i = 0.182 * 22 * 2 * db2np := by
  obtain ⟨g1, e, rho, hl, -, -, hc⟩ := (execute_ok h).ex
  obtain ⟨es, q1, q2⟩ := (hc k hk).2 0 (show 0 < 2 by decide)
  obtain ⟨u, u1, u2, u3, -, -⟩ := (cellStep_ok q2).clear
  have := demo_level ((tabulateE_ok u1).1 i hi)
  rw [u2, u3]
  simp only
  rw [this]
  simp [tipS, demoS]

theorem thin_values {sat : Bool} {k : ℕ} (hk : k < 2) {rows : List Row}
    (h : (execute thinA demoG ⟨tipS sat, Store.zero⟩).1 = .ok rows) {i : ℕ} (hi : i < 3) :
    ((execute thinA demoG ⟨tipS sat, Store.zero⟩).2.out.cell 0 k).awet i = 0.182 * 22 * (1 / 2) * db2np ∧
    ((execute thinA demoG ⟨tipS sat, Store.zero⟩).2.out.cell 0 k).adry i = 0.182 * 22 * db2np := by
  obtain ⟨g1, e, rho, hl, -, -, hc⟩ := (execute_ok h).ex
  obtain ⟨es, q1, q2⟩ := (hc k hk).2 0 (show 0 < 2 by decide)
  obtain ⟨u, u1, u2, u3, -, -⟩ := (cellStep_ok q2).clear
  have := thin_level ((tabulateE_ok u1).1 i hi)
  rw [u2, u3]
  simp only
  rw [this]
  simp [tipS, demoS]

theorem thin_absorbs {sat : Bool} {k : ℕ} (hk : k < 2) {rows rows' : List Row}
    (h : (execute thinA demoG ⟨tipS sat, Store.zero⟩).1 = .ok rows)
    (h' : (execute demoA demoG ⟨tipS sat, Store.zero⟩).1 = .ok rows') :
    let c := (execute thinA demoG ⟨tipS sat, Store.zero⟩).2.out.cell 0 k
    let c' := (execute demoA demoG ⟨tipS sat, Store.zero⟩).2.out.cell 0 k
    Absorbs ⟨tipS sat, Store.zero⟩ c c' ∧ SameKind 3 c.awet c'.awet ∧ SameKind 3 c.adry c'.adry := by
  have hd := db2np_pos'
  refine ⟨fun i hi => ?_, fun i h1 h2 => ?_, fun i h1 h2 => ?_⟩
  · rw [(thin_values hk h hi).1, (thin_values hk h hi).2, (tip_values hk h' hi).1, (tip_values hk h' hi).2]
    refine ⟨by positivity, ?_, by positivity, ?_⟩ <;> nlinarith
  · rw [(thin_values hk h h2).1, (tip_values hk h' h2).1, (thin_values hk h (show i - 1 < 3 by omega)).1,
      (tip_values hk h' (show i - 1 < 3 by omega)).1, sub_self, sub_self]
  · rw [(thin_values hk h h2).2, (tip_values hk h' h2).2, (thin_values hk h (show i - 1 < 3 by omega)).2,
      (tip_values hk h' (show i - 1 < 3 by omega)).2, sub_self, sub_self]

theorem tip_scene (sat : Bool) : SameScene ⟨tipS sat, Store.zero⟩ ⟨tipS sat, Store.zero⟩ ∧
    SameClouds thinA demoA demoG demoG ⟨tipS sat, Store.zero⟩ ⟨tipS sat, Store.zero⟩ ∧
    ∀ k < 2, GoodPath (tipS sat) k :=
  ⟨⟨none, none, rfl⟩, Or.inr ⟨rfl, fun _ _ => ⟨rfl, rfl, rfl, rfl, rfl⟩, fun _ _ => ⟨rfl, rfl, rfl, rfl, rfl⟩⟩,
    fun k hk => goodPath_plane rfl (demo_angles k hk).1 (demo_angles k hk).2 fun i _ => by simp [tipS, demoS]⟩

example : ∃ Tb Tb', ((execute thinA demoG ⟨tipS false, Store.zero⟩).2.out.cell 0 1).tbtotal = some Tb ∧
    ((execute demoA demoG ⟨tipS false, Store.zero⟩).2.out.cell 0 1).tbtotal = some Tb' ∧ Tb ≤ Tb' := by
  obtain ⟨rows, h⟩ := thin_runs false
  obtain ⟨rows', h'⟩ := tip_runs false
  obtain ⟨s1, s2, s3⟩ := tip_scene false
  obtain ⟨a1, a2, a3⟩ := thin_absorbs (k := 1) (by decide) h h'
  exact C112_ground h h' s1 s2 (show 1 ≤ 3 by decide) (show 0 < 2 by decide) (show 1 < 2 by decide) (s3 1 (by decide)) a1 a2
    a3 rfl (by norm_num [tipS, demoS]) (tip_cooling false) (by norm_num [tipS, demoS])
    fun τ ht => tip_opacity (by decide) h' ht

example : ∃ Tb Tb', ((execute thinA demoG ⟨tipS true, Store.zero⟩).2.out.cell 0 1).tbtotal = some Tb ∧
    ((execute demoA demoG ⟨tipS true, Store.zero⟩).2.out.cell 0 1).tbtotal = some Tb' ∧ Tb' ≤ Tb := by
  obtain ⟨rows, h⟩ := thin_runs true
  obtain ⟨rows', h'⟩ := tip_runs true
  obtain ⟨s1, s2, s3⟩ := tip_scene true
  obtain ⟨a1, a2, a3⟩ := thin_absorbs (k := 1) (by decide) h h'
  refine C112_satellite h h' s1 s2 (show 1 ≤ 3 by decide) (show 0 < 2 by decide) (show 1 < 2 by decide) (s3 1 (by decide)) a1
    a2 a3 rfl (by norm_num [tipS, demoS]) (tip_cooling true) (by simp [tipS, demoS]) fun τ ht => ?_
  obtain ⟨_, -, -, -, -, -, -, -, -, -, -, -, -, -, -, key⟩ :=
    scene_views h h' s1 s2 (show 1 ≤ 3 by decide) (show 0 < 2 by decide) (show 1 < 2 by decide) (s3 1 (by decide)) a1
  obtain ⟨σ, σ', -, -, -, t1, t2, t3, -⟩ := key a2 a3
  rw [ht] at t1; cases t1
  exact (opacityBelow_mono fun i h1 h2 => (t3 i h1 (by simp only [tipS, demoS] at h2 ⊢; omega)).2).trans_lt
    (tip_opacity (by decide) h' t2)

end Verif.Props
