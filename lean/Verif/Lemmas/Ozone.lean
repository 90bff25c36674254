import Verif.Model.AbsOzone
import Verif.Lemmas.WaterSum
import Verif.Lemmas.ErrorFn

/-!
# Ozone absorption: tables, window, line shapes
-/

namespace Verif.Lemmas

open Verif.Model Verif.Py

/-- Attributes read by the ozone routine. -/
def ozoneReads : List String := ["reftline", "len(fl)", "fl", "s1", "b", "w", "x"]

/-- Every entry `d` of the column has `lo ≤ d ≤ hi` (bounds in thousandths). -/
def colBetween (lo hi : ℤ) (c : Col) : Bool :=
  c.digits.all fun d => decide (lo * 10 ^ c.scale ≤ 1000 * d) && decide (1000 * d ≤ hi * 10 ^ c.scale)

/-- Are neighbouring entries in order? -/
def colSorted : List ℤ → Bool
  | a :: b :: l => decide (a ≤ b) && colSorted (b :: l)
  | _ => true

set_option maxRecDepth 100000 in
theorem ozoneGroups_ok : ∀ g ∈ ozoneGroups,
    (∀ a ∈ ozoneReads, hasAttr ozoneAssign g.2 a = true) ∧
    (∀ a ∈ ["reftline", "fl", "s1", "b", "w", "x"], posAttr ozoneAssign g.2 a = true) ∧
    0 < g.2.rows ∧ (∀ c ∈ g.2.cols, c.digits.length = g.2.rows) := by decide +kernel

set_option maxRecDepth 100000 in
theorem ozoneGroups_range : ∀ g ∈ ozoneGroups,
    ((g.2.cols[1]?.map fun c => colSorted c.digits && colBetween 96000 1001000 c).getD false) = true ∧
    ((g.2.cols[4]?.map (colBetween 1900 2700)).getD false) = true ∧
    ((g.2.cols[5]?.map (colBetween 0 1000)).getD false) = true ∧
    g.2.reftline.digits = [296] ∧ g.2.reftline.scale = 0 := by decide +kernel

theorem colSorted_le : ∀ {l : List ℤ}, colSorted l = true → ∀ {i j : ℕ}, i ≤ j → j < l.length → l.getD i 0 ≤ l.getD j 0
  | [], _, _, _, _, h => by simp at h
  | [a], _, i, j, hij, h => by
    simp only [List.length_singleton, Nat.lt_one_iff] at h
    obtain rfl : i = 0 := by omega
    subst h
    exact le_rfl
  | a :: b :: l, hs, i, j, hij, h => by
    simp only [colSorted, Bool.and_eq_true, decide_eq_true_eq] at hs
    have ih := @colSorted_le (b :: l) hs.2
    rcases j with _ | j
    · obtain rfl : i = 0 := by omega
      exact le_rfl
    · have hj : j < (b :: l).length := by simpa using h
      rcases i with _ | i
      · have := @ih 0 j (by omega) hj
        simp only [List.getD_cons_zero, List.getD_cons_succ] at this ⊢
        exact hs.1.trans this
      · have := @ih i j (by omega) hj
        simpa only [List.getD_cons_succ] using this

theorem colBetween_val {lo hi : ℤ} {c : Col} (h : colBetween lo hi c = true) {k : ℕ} (hk : k < c.digits.length) :
    (lo : ℝ) / 1000 ≤ c.val k ∧ c.val k ≤ (hi : ℝ) / 1000 := by
  simp only [colBetween, List.all_eq_true, Bool.and_eq_true, decide_eq_true_eq] at h
  have hm : c.digits.getD k 0 ∈ c.digits := by
    rw [List.getD_eq_getElem?_getD, List.getElem?_eq_getElem hk, Option.getD_some]
    exact List.getElem_mem hk
  obtain ⟨h1, h2⟩ := h _ hm
  have h1' : (lo : ℝ) * 10 ^ c.scale ≤ 1000 * ((c.digits.getD k 0 : ℤ) : ℝ) := by exact_mod_cast h1
  have h2' : 1000 * ((c.digits.getD k 0 : ℤ) : ℝ) ≤ (hi : ℝ) * 10 ^ c.scale := by exact_mod_cast h2
  have hp : (0 : ℝ) < 10 ^ c.scale := by positivity
  unfold Col.val
  rw [le_div_iff₀ hp, div_le_iff₀ hp]
  constructor <;> linarith

/-- A line list for ozone with physical signs. -/
structure GoodO3 (ll : LineList) where
  (n : ℕ) (fl s1 b w x reft : Val)
  hn : ll "len(fl)" = some fun _ => (n : ℝ)
  hfl : ll "fl" = some fl
  hs1 : ll "s1" = some s1
  hb : ll "b" = some b
  hw : ll "w" = some w
  hx : ll "x" = some x
  hr : ll "reftline" = some reft
  pos : ∀ k < n, 0 < s1 k ∧ 0.0019 ≤ w k ∧ 0 ≤ x k ∧ x k ≤ 1 ∧ 96 ≤ fl k ∧ fl k ≤ 1001
  sorted : ∀ i j, i ≤ j → j < n → fl i ≤ fl j
  reft_eq : reft 0 = 296

theorem ozoneFile_some {m : String} {F : LineList} (hF : ozoneFile m = some F) :
    ∃ T, ozoneGroups.lookup m = some T ∧ (m, T) ∈ ozoneGroups ∧
      F = fun a => (lastAssign ozoneAssign a).bind (Src.val T) := by
  unfold ozoneFile at hF
  cases hT : ozoneGroups.lookup m with
  | none => simp [hT] at hF
  | some T =>
    rw [hT, Option.map_some, Option.some_inj] at hF
    have hmem : (m, T) ∈ ozoneGroups := by
      rw [List.lookup_eq_some_iff] at hT
      obtain ⟨l₁, l₂, h, -⟩ := hT
      simp [h]
    exact ⟨T, rfl, hmem, hF.symm⟩

theorem ozoneFile_reads {m : String} {F : LineList} (hF : ozoneFile m = some F) (old : LineList) (a : String)
    (ha : a ∈ ozoneReads) : ∃ v, F a = some v ∧ reloadLL F old a = some v := by
  obtain ⟨T, -, hmem, rfl⟩ := ozoneFile_some hF
  obtain ⟨v, hv⟩ := hasAttr_some ((ozoneGroups_ok _ hmem).1 a ha)
  exact ⟨v, hv, reload_some hv⟩

theorem goodO3_of_file {m : String} {F : LineList} (hF : ozoneFile m = some F) (old : LineList) :
    Nonempty (GoodO3 (reloadLL F old)) := by
  obtain ⟨T, -, hmem, rfl⟩ := ozoneFile_some hF
  have hrng := ozoneGroups_range _ hmem
  obtain ⟨-, hp, hrow, hlen⟩ := ozoneGroups_ok _ hmem
  simp only at hrng hp hrow hlen
  have h1 (a : String) (ha : a ∈ ["reftline", "fl", "s1", "b", "w", "x"]) := posAttr_some (hp a ha)
  obtain ⟨s1, hs1, ps1⟩ := h1 "s1" (by simp)
  obtain ⟨b, hb, -⟩ := h1 "b" (by simp)
  obtain ⟨r1, r2, r3, r4, r5⟩ := hrng
  cases c1 : T.cols[1]? with
  | none => simp [c1] at r1
  | some C1 =>
  cases c4 : T.cols[4]? with
  | none => simp [c4] at r2
  | some C4 =>
  cases c5 : T.cols[5]? with
  | none => simp [c5] at r3
  | some C5 =>
  simp only [c1, c4, c5, Option.map_some, Option.getD_some, Bool.and_eq_true] at r1 r2 r3
  have l1 := hlen C1 (List.mem_of_getElem? c1)
  have l4 := hlen C4 (List.mem_of_getElem? c4)
  have l5 := hlen C5 (List.mem_of_getElem? c5)
  refine ⟨⟨T.rows, C1.val, s1, b, fun k => C4.val k / 1000.0, C5.val, fun _ => T.reftline.val 0, ?_, ?_, reload_some hs1,
    reload_some hb, ?_, ?_, ?_, fun k hk => ?_, fun i j hij hj => ?_, ?_⟩⟩
  · exact reload_some rfl
  · exact reload_some (by
      show (T.cols[1]?).map Col.val = _
      rw [c1]; rfl)
  · exact reload_some (by
      show (T.cols[4]?).map (fun c => (fun k => c.val k / 1000.0 : ℕ → ℝ)) = _
      rw [c4]; rfl)
  · exact reload_some (by
      show (T.cols[5]?).map Col.val = _
      rw [c5]; rfl)
  · exact reload_some (by
      show (if 0 < T.reftline.digits.length then some fun _ => T.reftline.val 0 else none) = _
      rw [r4]; rfl)
  · have e1 := colBetween_val r1.2 (k := k) (by omega)
    have e4 := colBetween_val r2 (k := k) (by omega)
    have e5 := colBetween_val r3 (k := k) (by omega)
    norm_num at e1 e4 e5
    refine ⟨ps1 k hk, ?_, ?_, ?_, ?_, ?_⟩
    · norm_num; linarith
    · linarith
    · linarith
    · linarith
    · linarith
  · have h : C1.digits.getD i 0 ≤ C1.digits.getD j 0 := colSorted_le r1.1 hij (by omega)
    have : ((C1.digits.getD i 0 : ℤ) : ℝ) ≤ ((C1.digits.getD j 0 : ℤ) : ℝ) := by exact_mod_cast h
    unfold Col.val
    gcongr
  · simp [Col.val, r4, r5]

/-- The loop with `break` over a sorted list adds up the lines inside the window. -/
theorem o3Loop_eq {n : ℕ} {fl : ℕ → ℝ} {f : ℝ} {term : ℕ → Option ℝ} {g : ℕ → ℝ}
    (hs : ∀ i j, i ≤ j → j < n → fl i ≤ fl j) (hg : ∀ k < n, |fl k - f| ≤ 1 → term k = some (g k)) :
    o3Loop n fl f term = some (∑ k ∈ (Finset.range n).filter (fun k => |fl k - f| ≤ 1), g k) := by
  unfold o3Loop
  have key := forRange_inv (lo := 0) (hi := n) (f := fun k (st : Option ℝ × Bool) =>
    if st.2 then st
    else if f + 1.0 < fl k then (st.1, true)
    else if f - 1.0 ≤ fl k then ((do
      let s ← st.1
      let c ← term k
      return s + c), false)
    else st) (s := (some 0, false))
    (fun i st => st.1 = some (∑ k ∈ (Finset.range i).filter (fun k => |fl k - f| ≤ 1), g k) ∧
      (st.2 = true → ∃ j < i, f + 1 < fl j)) (Nat.zero_le n) (by simp) ?_
  · exact key.1
  · rintro i ⟨s, stop⟩ - hi ⟨h1, h2⟩
    simp only at h1 h2
    rw [Finset.range_add_one, Finset.filter_insert]
    cases stop with
    | true =>
      obtain ⟨j, hj, hjf⟩ := h2 rfl
      have := hs j i hj.le hi
      have hne : ¬|fl i - f| ≤ 1 := by
        intro h
        have := (abs_le.1 h).2
        linarith
      simp only [if_true, if_neg hne]
      exact ⟨h1, fun _ => ⟨j, by omega, hjf⟩⟩
    | false =>
      norm_num only
      simp only [Bool.false_eq_true, if_false]
      by_cases ha : f + 1 < fl i
      · have hne : ¬|fl i - f| ≤ 1 := by
          intro h
          have := (abs_le.1 h).2
          linarith
        rw [if_pos ha, if_neg hne]
        exact ⟨h1, fun _ => ⟨i, by omega, ha⟩⟩
      · rw [if_neg ha]
        by_cases hb : f - 1 ≤ fl i
        · have hin : |fl i - f| ≤ 1 := abs_le.2 ⟨by linarith, by linarith⟩
          rw [if_pos hb, if_pos hin, Finset.sum_insert (by simp), h1, hg i hi hin]
          exact ⟨by simp [add_comm], by simp⟩
        · have hne : ¬|fl i - f| ≤ 1 := by
            intro h
            have := (abs_le.1 h).1
            linarith
          rw [if_neg hb, if_neg hne]
          exact ⟨h1, by simp⟩

theorem o3Lorentz_some {fl s1 b w x t p ti : ℝ} (f : ℝ) (hfl : 0 < fl) (hw : 0 < w) (ht : 0 < t) (hp : 0 ≤ p)
    (hti : 0 < ti) :
    o3Lorentz fl s1 b w x t p ti f = some (
      let c := w * p * ti ^ x
      let W := 0.5346 * c + √(0.2166 * c * c + 0.6931 * (3.85e-15 * t * fl ^ 2))
      s1 * Real.exp (b * (1 - ti)) * ((f / fl) ^ 2 * W / ((f - fl) ^ 2 + W * W))) ∧
    0 < 0.5346 * (w * p * ti ^ x) + √(0.2166 * (w * p * ti ^ x) * (w * p * ti ^ x) + 0.6931 * (3.85e-15 * t * fl ^ 2)) := by
  have hx : 0 < ti ^ x := Real.rpow_pos_of_pos hti x
  have hc : 0 ≤ w * p * ti ^ x := by positivity
  have hr : 0 < √(0.2166 * (w * p * ti ^ x) * (w * p * ti ^ x) + 0.6931 * (3.85e-15 * t * fl ^ 2)) := by positivity
  have hW : 0 < 0.5346 * (w * p * ti ^ x) +
      √(0.2166 * (w * p * ti ^ x) * (w * p * ti ^ x) + 0.6931 * (3.85e-15 * t * fl ^ 2)) := by positivity
  refine ⟨?_, hW⟩
  unfold o3Lorentz
  have h0 : 0 ≤ 0.2166 * (w * p * ti ^ x) * (w * p * ti ^ x) + 0.6931 * (3.85e-15 * t * fl ^ 2) := by positivity
  simp only [fpow_of_pos hti, npSqrt, if_pos h0, npDiv_of_ne hfl.ne', bind, Option.bind_some, pure]
  rw [npDiv_of_ne (by positivity)]
  norm_num

theorem o3Voigt_some {fl s1 b w x t p ti : ℝ} (f : ℝ) (hfl : 0 < fl) (ht : 0 < t) (hti : 0 < ti)
    (hy : 1 / 10000 ≤ w * p * ti ^ x / (0.62065e-7 * fl * √t)) :
    ∃ er, dcerror ((fl - f) / (0.62065e-7 * fl * √t)) (w * p * ti ^ x / (0.62065e-7 * fl * √t)) = some er ∧ 0 < er.re ∧
    o3Voigt fl s1 b w x t p ti f = some (s1 * Real.exp (b * (1 - ti)) * er.re / (0.62065e-7 * fl * √t)) := by
  obtain ⟨er, he, hpos⟩ := dcerror_pos ((fl - f) / (0.62065e-7 * fl * √t)) hy
  refine ⟨er, he, hpos, ?_⟩
  have hs : 0 < √t := Real.sqrt_pos.2 ht
  have hb : 0.62065e-7 * fl * √t ≠ 0 := by positivity
  unfold o3Voigt
  simp only [fpow_of_pos hti, npSqrt, if_pos ht.le, npDiv_of_ne hb, bind, Option.bind_some, pure, he]
  norm_num

/-- Above 0.0001 hPa and below 400 K the pressure width is not too small compared with the Doppler width. -/
theorem o3_width {fl w x t p : ℝ} (hfl : 0 < fl) (hfl' : fl ≤ 1001) (hw : 0.0019 ≤ w) (hx0 : 0 ≤ x) (hx : x ≤ 1)
    (ht : 0 < t) (ht' : t ≤ 400) (hp : 0.0001 ≤ p) :
    1 / 10000 ≤ w * p * (296 / t) ^ x / (0.62065e-7 * fl * √t) := by
  have hs : 0 < √t := Real.sqrt_pos.2 ht
  have hs' : √t ≤ 20 := by rw [Real.sqrt_le_left (by norm_num)]; linarith
  have hr : 0.74 ≤ (296 / t) ^ x := by
    rcases le_or_gt 1 (296 / t) with h | h
    · have := Real.one_le_rpow h hx0
      linarith
    · have h0 : 0 < 296 / t := by positivity
      have := Real.rpow_le_rpow_of_exponent_ge h0 h.le hx
      rw [Real.rpow_one] at this
      have h1 : 0.74 ≤ 296 / t := by
        rw [le_div_iff₀ ht]
        linarith
      linarith
  rw [le_div_iff₀ (by positivity)]
  have h1 : 0.62065e-7 * fl * √t ≤ 0.62065e-7 * 1001 * 20 := by gcongr
  have h2 : 0.0019 * 0.0001 * 0.74 ≤ w * p * (296 / t) ^ x := by gcongr
  norm_num at h1 h2 ⊢
  linarith

theorem o3_congr {m : String} {ll ll' : LineList} (h : ∀ a ∈ ozoneReads, attr ll a = attr ll' a) (t p f d : ℝ) :
    o3Absorption m ll t p f d = o3Absorption m ll' t p f d := by
  unfold o3Absorption
  simp only [ozoneReads, List.mem_cons, List.not_mem_nil, or_false, forall_eq_or_imp, forall_eq] at h
  obtain ⟨h1, h2, h3, h4, h5, h6, h7⟩ := h
  rw [h1, h2, h3, h4, h5, h6, h7]

/-- Value of the routine once the lines in the window are known. -/
theorem o3_eval {m : String} {ll : LineList} (G : GoodO3 ll) {t p f d : ℝ} (ht : 0 < t) {g : ℕ → ℝ}
    (hg : ∀ k < G.n, |G.fl k - f| ≤ 1 → (if m ∈ ["R22", "R22SD"] then o3Voigt (G.fl k) (G.s1 k) (G.b k) (G.w k) (G.x k) t p
      (296 / t) f else o3Lorentz (G.fl k) (G.s1 k) (G.b k) (G.w k) (G.x k) t p (296 / t) f) = some (g k)) :
    o3Absorption m ll t p f d = .ok (some ((if m ∈ ["R22", "R22SD"] then 0.56419e-10 else 3.183e-11) * d *
      (1 - Real.exp (-1008 / t)) * (296 / t) ^ (2.5 : ℝ) *
      ∑ k ∈ Finset.range G.n, if |G.fl k - f| ≤ 1 then g k else 0)) := by
  have hti : 0 < 296 / t := by positivity
  unfold o3Absorption
  by_cases h0 : d = 0
  · simp [h0]
  · rw [if_neg h0]
    simp only [attr_some G.hn, attr_some G.hfl, attr_some G.hs1, attr_some G.hb, attr_some G.hw, attr_some G.hx,
      attr_some G.hr, bind, Except.bind, pure, Except.pure, npDiv_of_ne ht.ne', Option.bind_some, G.reft_eq,
      fpow_of_pos hti, numLines_nat]
    by_cases hm : m ∈ ["R22", "R22SD"]
    · simp only [if_pos hm] at hg ⊢
      rw [o3Loop_eq G.sorted hg, Finset.sum_filter, Option.bind_some]
      congr 2
      generalize (∑ k ∈ Finset.range G.n, if |G.fl k - f| ≤ 1 then g k else 0) = S
      norm_num
      ring
    · simp only [if_neg hm] at hg ⊢
      rw [o3Loop_eq G.sorted hg, Finset.sum_filter, Option.bind_some]
      congr 2
      generalize (∑ k ∈ Finset.range G.n, if |G.fl k - f| ≤ 1 then g k else 0) = S
      norm_num
      ring

/-- On the real axis the approximation dips below zero. -/
theorem dcerror_neg : ∃ w, dcerror 6.27 0 = some w ∧ w.re < 0 := by
  have hp : errPoly ((6.27 : ℝ) ^ 2) 0 < 0 := by
    unfold errPoly
    norm_num
  rw [← errPoly_eq] at hp
  have hB : errB ⟨|0|, -6.27⟩ ≠ 0 := by
    rw [abs_zero, errB_eq]
    intro h
    have hr := congrArg Complex.re h
    have hi := congrArg Complex.im h
    simp only [Complex.zero_re, Complex.zero_im] at hr hi
    rw [hr, hi] at hp
    simp at hp
  unfold dcerror
  simp only [cDiv, if_neg hB, bind, Option.bind, if_pos (le_refl (0 : ℝ)), pure]
  refine ⟨_, rfl, ?_⟩
  rw [Complex.div_re, ← add_div]
  apply div_neg_of_neg_of_pos _ (Complex.normSq_pos.2 hB)
  rw [abs_zero, errA_eq, errB_eq]
  exact hp

end Verif.Lemmas
