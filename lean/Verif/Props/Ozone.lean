import Verif.Lemmas.Ozone

/-!
# Ozone absorption (C38), independence of earlier loads (C39)
-/

namespace Verif.Props

open Verif.Model Verif.Py Verif.Lemmas

/-- C38: the names with an ozone line table. -/
theorem C38_names (m : String) : (ozoneFile m).isSome ↔ m = "R18" ∨ m = "R22" ∨ m = "R23" := by
  unfold ozoneFile
  rw [Option.isSome_map, List.lookup_isSome_iff]
  simp only [ozoneGroups, List.mem_cons, List.not_mem_nil, or_false]
  constructor
  · rintro ⟨b, rfl | rfl | rfl, h⟩ <;> simp at h <;> simp [h]
  · rintro (rfl | rfl | rfl)
    · exact ⟨_, Or.inl rfl, by decide⟩
    · exact ⟨_, Or.inr (Or.inl rfl), by decide⟩
    · exact ⟨_, Or.inr (Or.inr rfl), by decide⟩

/-- C39: what the process had loaded before does not matter. -/
theorem C39_ozone {m : String} {F : LineList} (hF : ozoneFile m = some F) (old old' : LineList) (t p f d : ℝ) :
    o3Absorption m (reloadLL F old) t p f d = o3Absorption m (reloadLL F old') t p f d := by
  refine o3_congr (fun a ha => ?_) t p f d
  obtain ⟨v, h1, h2⟩ := ozoneFile_reads hF old a ha
  obtain ⟨v', h1', h2'⟩ := ozoneFile_reads hF old' a ha
  rw [attr_some h2, attr_some h2']
  rw [h1, Option.some_inj] at h1'
  rw [h1']

example : ∃ F F', ozoneFile "R18" = some F ∧ ozoneFile "R22" = some F' ∧
    o3Absorption "R18" (reloadLL F (reloadLL F' fun _ => none)) 250 10 110 1e18 =
      o3Absorption "R18" (reloadLL F fun _ => none) 250 10 110 1e18 := by
  obtain ⟨F, hF⟩ := Option.isSome_iff_exists.1 ((C38_names "R18").2 (by simp))
  obtain ⟨F', hF'⟩ := Option.isSome_iff_exists.1 ((C38_names "R22").2 (by simp))
  exact ⟨F, F', hF, hF', C39_ozone hF _ _ _ _ _ _⟩

/-- What one ozone line contributes at frequency `f` (Lorentz shape with a width combining pressure and Doppler
broadening). -/
noncomputable def o3Line (fl s1 b w x t p f : ℝ) : ℝ :=
  let c := w * p * (296 / t) ^ x
  let W := 0.5346 * c + √(0.2166 * c ^ 2 + 0.6931 * (3.85e-15 * t * fl ^ 2))
  s1 * Real.exp (b * (1 - 296 / t)) * ((f / fl) ^ 2 * (W / ((f - fl) ^ 2 + W ^ 2)))

/-- C38: R18 and R23 return the density times the sum over exactly the lines at most 1 GHz away. -/
theorem C38_window {m : String} (hm : m = "R18" ∨ m = "R23") {F : LineList} (hF : ozoneFile m = some F)
    (old : LineList) {t p : ℝ} (ht : 0 < t) (hp : 0 ≤ p) (f d : ℝ) :
    ∃ (n : ℕ) (fl s1 b w x : Val), F "len(fl)" = some (fun _ => (n : ℝ)) ∧ F "fl" = some fl ∧ F "s1" = some s1 ∧
      F "b" = some b ∧ F "w" = some w ∧ F "x" = some x ∧
      o3Absorption m (reloadLL F old) t p f d = .ok (some (3.183e-11 * d * (1 - Real.exp (-1008 / t)) *
        (296 / t) ^ (2.5 : ℝ) * ∑ k ∈ Finset.range n, if |fl k - f| ≤ 1 then o3Line (fl k) (s1 k) (b k) (w k) (x k) t p f
          else 0)) := by
  obtain ⟨G⟩ := goodO3_of_file hF old
  have hF' (a : String) (ha : a ∈ ozoneReads) {v : Val} (h : reloadLL F old a = some v) : F a = some v := by
    obtain ⟨u, h1, h2⟩ := ozoneFile_reads hF old a ha
    rw [h1, ← h2, h]
  refine ⟨G.n, G.fl, G.s1, G.b, G.w, G.x, hF' _ (by decide) G.hn, hF' _ (by decide) G.hfl, hF' _ (by decide) G.hs1,
    hF' _ (by decide) G.hb, hF' _ (by decide) G.hw, hF' _ (by decide) G.hx, ?_⟩
  have hti : 0 < 296 / t := by positivity
  have hm' : m ∉ ["R22", "R22SD"] := by rcases hm with rfl | rfl <;> decide
  rw [o3_eval G ht (g := fun k => o3Line (G.fl k) (G.s1 k) (G.b k) (G.w k) (G.x k) t p f) fun k hk _ => ?_]
  · rw [if_neg hm']
  · rw [if_neg hm']
    obtain ⟨_, h2, _, _, h5, _⟩ := G.pos k hk
    rw [(o3Lorentz_some f (by linarith) (by norm_num at h2 ⊢; linarith) ht hp hti).1, o3Line]
    simp only [Option.some_inj, pow_two]
    rw [mul_div_assoc, mul_assoc 0.2166]

/-- C38: with a shipped table and a density that is not negative, the absorption is finite and not negative; it is zero
if there is no ozone or no line within 1 GHz, and positive otherwise.  For R22 this is shown above 0.0001 hPa and below
400 K. -/
theorem C38_sign {m : String} {F : LineList} (hF : ozoneFile m = some F) (old : LineList) {t p f d : ℝ} (ht : 0 < t)
    (hp : 0 ≤ p) (hf : 0 < f) (hd : 0 ≤ d) (h22 : m = "R22" → t ≤ 400 ∧ 0.0001 ≤ p) :
    ∃ (n : ℕ) (fl : Val) (a : ℝ), F "len(fl)" = some (fun _ => (n : ℝ)) ∧ F "fl" = some fl ∧
      o3Absorption m (reloadLL F old) t p f d = .ok (some a) ∧ 0 ≤ a ∧ (0 < a ↔ 0 < d ∧ ∃ k < n, |fl k - f| ≤ 1) := by
  have hti : 0 < 296 / t := by positivity
  have hq : 0 < 1 - Real.exp (-1008 / t) := by
    have : Real.exp (-1008 / t) < 1 := Real.exp_lt_one_iff.2 (div_neg_of_neg_of_pos (by norm_num) ht)
    linarith
  have hpw : 0 < (296 / t) ^ (2.5 : ℝ) := Real.rpow_pos_of_pos hti _
  have hsum (n : ℕ) (fl g : ℕ → ℝ) (hg : ∀ k < n, 0 < g k) (C : ℝ) (hC : 0 < C) :
      0 ≤ C * d * (∑ k ∈ Finset.range n, if |fl k - f| ≤ 1 then g k else 0) ∧
      (0 < C * d * (∑ k ∈ Finset.range n, if |fl k - f| ≤ 1 then g k else 0) ↔ 0 < d ∧ ∃ k < n, |fl k - f| ≤ 1) := by
    have hnn : ∀ k ∈ Finset.range n, 0 ≤ (if |fl k - f| ≤ 1 then g k else 0) := by
      intro k hk
      split_ifs
      · exact (hg k (Finset.mem_range.1 hk)).le
      · exact le_rfl
    have h0 := Finset.sum_nonneg hnn
    refine ⟨by positivity, ?_⟩
    constructor
    · intro h
      have h1 : 0 < d := by
        rcases hd.lt_or_eq with h1 | h1
        · exact h1
        · rw [← h1] at h; simp at h
      refine ⟨h1, ?_⟩
      by_contra hc
      push Not at hc
      have : (∑ k ∈ Finset.range n, if |fl k - f| ≤ 1 then g k else 0) = 0 := by
        refine Finset.sum_eq_zero fun k hk => ?_
        rw [if_neg (by have := hc k (Finset.mem_range.1 hk); linarith)]
      rw [this] at h
      simp at h
    · rintro ⟨h1, k, hk, hkf⟩
      have : 0 < ∑ k ∈ Finset.range n, if |fl k - f| ≤ 1 then g k else 0 := by
        refine Finset.sum_pos' hnn ⟨k, Finset.mem_range.2 hk, ?_⟩
        rw [if_pos hkf]
        exact hg k hk
      positivity
  obtain ⟨G⟩ := goodO3_of_file hF old
  have hF' (a : String) (ha : a ∈ ozoneReads) {v : Val} (h : reloadLL F old a = some v) : F a = some v := by
    obtain ⟨u, h1, h2⟩ := ozoneFile_reads hF old a ha
    rw [h1, ← h2, h]
  have hline : ∀ k < G.n, ∃ c, (if m ∈ ["R22", "R22SD"] then o3Voigt (G.fl k) (G.s1 k) (G.b k) (G.w k) (G.x k) t p
      (296 / t) f else o3Lorentz (G.fl k) (G.s1 k) (G.b k) (G.w k) (G.x k) t p (296 / t) f) = some c ∧ 0 < c := by
    intro k hk
    obtain ⟨p1, p2, p3, p4, p5, p6⟩ := G.pos k hk
    have hfl : 0 < G.fl k := by linarith
    have hw : 0 < G.w k := by norm_num at p2 ⊢; linarith
    by_cases hm : m ∈ ["R22", "R22SD"]
    · have hmm : m = "R22" := by
        simp only [List.mem_cons, List.not_mem_nil, or_false] at hm
        rcases hm with h | h
        · exact h
        · have := (C38_names m).1 (by rw [hF]; rfl)
          rw [h] at this
          exact absurd this (by decide)
      obtain ⟨ht', hp'⟩ := h22 hmm
      obtain ⟨er, -, he, h⟩ := o3Voigt_some (s1 := G.s1 k) (b := G.b k) f hfl ht hti (o3_width hfl p6 p2 p3 p4 ht ht' hp')
      rw [if_pos hm, h]
      have hs : 0 < √t := Real.sqrt_pos.2 ht
      exact ⟨_, rfl, by positivity⟩
    · rw [if_neg hm]
      obtain ⟨h, hW⟩ := o3Lorentz_some (s1 := G.s1 k) (b := G.b k) (x := G.x k) f hfl hw ht hp hti
      rw [h]
      exact ⟨_, rfl, by positivity⟩
  choose! g hg hg0 using hline
  have hC : (0 : ℝ) < (if m ∈ ["R22", "R22SD"] then 0.56419e-10 else 3.183e-11) := by split_ifs <;> norm_num
  have := hsum G.n G.fl g hg0 ((if m ∈ ["R22", "R22SD"] then 0.56419e-10 else 3.183e-11) *
      (1 - Real.exp (-1008 / t)) * (296 / t) ^ (2.5 : ℝ)) (by positivity)
  refine ⟨G.n, G.fl, _, hF' _ (by decide) G.hn, hF' _ (by decide) G.hfl, o3_eval G ht fun k hk _ => hg k hk, ?_⟩
  have e (S : ℝ) : (if m ∈ ["R22", "R22SD"] then (0.56419e-10 : ℝ) else 3.183e-11) * d * (1 - Real.exp (-1008 / t)) *
      (296 / t) ^ (2.5 : ℝ) * S = (if m ∈ ["R22", "R22SD"] then 0.56419e-10 else 3.183e-11) *
      (1 - Real.exp (-1008 / t)) * (296 / t) ^ (2.5 : ℝ) * d * S := by ring
  rw [e]
  exact this

example : ∃ F a, ozoneFile "R22" = some F ∧ o3Absorption "R22" (reloadLL F fun _ => none) 250 10 50 1e18 = .ok (some a) ∧
    0 ≤ a := by
  obtain ⟨F, hF⟩ := Option.isSome_iff_exists.1 ((C38_names "R22").2 (by simp))
  obtain ⟨n, fl, a, -, -, h, h', -⟩ := C38_sign hF (fun _ => none) (t := 250) (p := 10) (f := 50) (d := 1e18) (by norm_num)
    (by norm_num) (by norm_num) (by norm_num) (fun _ => ⟨by norm_num, by norm_num⟩)
  exact ⟨F, a, hF, h, h'⟩

/-- The lowest line frequency of R18 and R23. -/
noncomputable def firstLine (m : String) : ℝ := if m = "R18" then 101.737569 else 96.22834

theorem firstLines : (ozoneR18.cols[1]?.map fun c => (c.digits.getD 0 0, c.scale)) = some (101737569, 6) ∧
    (ozoneR23.cols[1]?.map fun c => (c.digits.getD 0 0, c.scale)) = some (96228340, 6) := by decide +kernel

theorem colHead {T : RawTable} {z : ℤ} {k : ℕ} {r : ℝ}
    (h : (T.cols[1]?.map fun c => (c.digits.getD 0 0, c.scale)) = some (z, k)) (hr : (z : ℝ) / 10 ^ k = r) :
    ∃ c, T.cols[1]? = some c ∧ c.val 0 = r := by
  cases hc : T.cols[1]? with
  | none => simp [hc] at h
  | some c =>
    simp only [hc, Option.map_some, Option.some_inj, Prod.mk.injEq] at h
    exact ⟨c, rfl, by rw [Col.val, h.1, h.2, hr]⟩

/-- C38: the spectrum has a step: below 1 GHz under the first line R18 and R23 return exactly zero, from there on a
positive number that does not shrink to zero at the edge. -/
theorem C38_step {m : String} (hm : m = "R18" ∨ m = "R23") {F : LineList} (hF : ozoneFile m = some F) (old : LineList)
    {t p d : ℝ} (ht : 0 < t) (hp : 0 ≤ p) (hd : 0 < d) :
    (∀ f, 0 < f → f < firstLine m - 1 → o3Absorption m (reloadLL F old) t p f d = .ok (some 0)) ∧
    ∃ a, 0 < a ∧ o3Absorption m (reloadLL F old) t p (firstLine m - 1) d = .ok (some a) := by
  have hm' : m ≠ "R22" := by rcases hm with rfl | rfl <;> decide
  obtain ⟨T, hT, hmem, hFT⟩ := ozoneFile_some hF
  have hrows : 0 < T.rows := (ozoneGroups_ok _ hmem).2.2.1
  have h0 : ∃ fl, F "fl" = some fl ∧ fl 0 = firstLine m := by
    have hc : ∃ c, T.cols[1]? = some c ∧ c.val 0 = firstLine m := by
      rcases hm with rfl | rfl
      · obtain rfl : ozoneR18 = T := by simpa [ozoneGroups, List.lookup] using hT
        exact colHead firstLines.1 (by norm_num [firstLine])
      · obtain rfl : ozoneR23 = T := by simpa [ozoneGroups, List.lookup] using hT
        exact colHead firstLines.2 (by rw [firstLine, if_neg (by decide)]; norm_num)
    obtain ⟨c, hc, hv⟩ := hc
    refine ⟨c.val, ?_, hv⟩
    rw [hFT]
    show (T.cols[1]?).map Col.val = _
    rw [hc]; rfl
  obtain ⟨fl, hfl, hfl0⟩ := h0
  have hlen : F "len(fl)" = some fun _ => (T.rows : ℝ) := by rw [hFT]; rfl
  have hfirst : 96 < firstLine m := by unfold firstLine; split_ifs <;> norm_num
  have huse {f : ℝ} (hf : 0 < f) := C38_sign hF old (t := t) (p := p) (f := f) (d := d) ht hp hf hd.le
    (fun h => absurd h hm')
  obtain ⟨G⟩ := goodO3_of_file hF old
  have hGfl : G.fl = fl := by
    have := G.hfl
    rw [reload_some hfl, Option.some_inj] at this
    exact this.symm
  have hGn : G.n = T.rows := by
    have := G.hn
    rw [reload_some hlen, Option.some_inj] at this
    exact_mod_cast (congrFun this 0).symm
  constructor
  · intro f hf hlt
    obtain ⟨n, fl', a, h1, h2, h, hn, hiff⟩ := huse hf
    rw [hfl, Option.some_inj] at h2
    rw [hlen, Option.some_inj] at h1
    have hnn : T.rows = n := by exact_mod_cast congrFun h1 0
    subst h2 hnn
    have : ¬0 < a := by
      rw [hiff]
      rintro ⟨-, k, hk, hkf⟩
      have := G.sorted 0 k (Nat.zero_le k) (by omega)
      rw [hGfl, hfl0] at this
      have := (abs_le.1 hkf).2
      linarith
    have ha : a = 0 := le_antisymm (not_lt.1 this) hn
    rw [h, ha]
  · obtain ⟨n, fl', a, h1, h2, h, hn, hiff⟩ := huse (f := firstLine m - 1) (by linarith)
    rw [hfl, Option.some_inj] at h2
    rw [hlen, Option.some_inj] at h1
    have hnn : T.rows = n := by exact_mod_cast congrFun h1 0
    subst h2 hnn
    refine ⟨a, hiff.2 ⟨hd, 0, hrows, ?_⟩, h⟩
    rw [hfl0]
    norm_num

/-- C38: absorption is proportional to the ozone density, also for the meaningless negative densities (a single zero is
the only value the check `o3n.any() <= 0` catches). -/
theorem C38_linear {m : String} {F : LineList} (hF : ozoneFile m = some F) (old : LineList) {t p f d a c : ℝ}
    (h : o3Absorption m (reloadLL F old) t p f d = .ok (some a)) (hd : d ≠ 0) :
    o3Absorption m (reloadLL F old) t p f (c * d) = .ok (some (c * a)) := by
  by_cases hc : c = 0
  · subst hc
    simp [o3Absorption]
  have hring (K S q r e : ℝ) : K * S * q * r * (e * (c * d)) = c * (K * S * q * r * (e * d)) := by ring
  obtain ⟨G⟩ := goodO3_of_file hF old
  unfold o3Absorption at h ⊢
  rw [if_neg hd] at h
  rw [if_neg (mul_ne_zero hc hd)]
  simp only [attr_some G.hn, attr_some G.hfl, attr_some G.hs1, attr_some G.hb, attr_some G.hw, attr_some G.hx,
    attr_some G.hr, bind, Except.bind, pure, Except.pure, Except.ok.injEq] at h ⊢
  cases h1 : npDiv (G.reft 0) t with
  | none => simp [h1] at h
  | some ti =>
  cases h2 : fpow ti 2.5 with
  | none => simp [h1, h2] at h
  | some ti2 =>
  cases h3 : npDiv (-1008.0) t with
  | none => simp [h1, h2, h3] at h
  | some qe =>
  simp only [h1, h2, h3, Option.bind_some] at h ⊢
  by_cases hm : m ∈ ["R22", "R22SD"]
  · simp only [if_pos hm] at h ⊢
    cases h4 : o3Loop (numLines fun _ => (G.n : ℝ)) G.fl f
        (fun k => o3Voigt (G.fl k) (G.s1 k) (G.b k) (G.w k) (G.x k) t p ti f) with
    | none => simp [h4] at h
    | some S =>
      simp only [h4, Option.bind_some, Option.some_inj] at h ⊢
      rw [← h]
      exact hring _ _ _ _ _
  · simp only [if_neg hm] at h ⊢
    cases h4 : o3Loop (numLines fun _ => (G.n : ℝ)) G.fl f
        (fun k => o3Lorentz (G.fl k) (G.s1 k) (G.b k) (G.w k) (G.x k) t p ti f) with
    | none => simp [h4] at h
    | some S =>
      simp only [h4, Option.bind_some, Option.some_inj] at h ⊢
      rw [← h]
      exact hring _ _ _ _ _

example : ∃ F a, ozoneFile "R18" = some F ∧ o3Absorption "R18" (reloadLL F fun _ => none) 250 10 110.5 (-1e18) =
    .ok (some a) ∧ a ≤ 0 := by
  obtain ⟨F, hF⟩ := Option.isSome_iff_exists.1 ((C38_names "R18").2 (by simp))
  obtain ⟨n, fl, a, -, -, h, h', -⟩ := C38_sign hF (fun _ => none) (t := 250) (p := 10) (f := 110.5) (d := 1e18)
    (by norm_num) (by norm_num) (by norm_num) (by norm_num) (fun h => absurd h (by decide))
  have := C38_linear hF (fun _ => none) (c := -1) h (by norm_num)
  rw [neg_one_mul, neg_one_mul] at this
  exact ⟨F, -a, hF, this, by linarith⟩

example : ∃ F, ozoneFile "R23" = some F ∧
    o3Absorption "R23" (reloadLL F fun _ => none) 250 10 95.2 1e18 = .ok (some 0) ∧
    ∃ a, 0 < a ∧ o3Absorption "R23" (reloadLL F fun _ => none) 250 10 (96.22834 - 1) 1e18 = .ok (some a) := by
  obtain ⟨F, hF⟩ := Option.isSome_iff_exists.1 ((C38_names "R23").2 (by simp))
  obtain ⟨h1, h2⟩ := C38_step (Or.inr rfl) hF (fun _ => none) (t := 250) (p := 10) (d := 1e18) (by norm_num) (by norm_num)
    (by norm_num)
  have e : firstLine "R23" = 96.22834 := by rw [firstLine, if_neg (by decide)]
  rw [e] at h1 h2
  exact ⟨F, hF, h1 _ (by norm_num) (by norm_num), h2⟩

theorem o3R22_lines : (ozoneR22.cols[1]?.map fun c => (c.digits.getD 0 0, c.digits.getD 1 0, c.scale, c.digits.length)) =
    some (101736870, 110836040, 6, 463) ∧ ozoneR22.rows = 463 := by decide +kernel

/-- C38: the Voigt profile of R22 is an approximation that becomes negative in the wings of a pure Doppler line: at zero
pressure, 256 K, 6.27 Doppler widths below the first line the absorption by ozone is negative. -/
theorem C38_R22_negative {F : LineList} (hF : ozoneFile "R22" = some F) (old : LineList) {d : ℝ} (hd : 0 < d) :
    ∃ a, a < 0 ∧ o3Absorption "R22" (reloadLL F old) 256 0 (101.73687 - 6.27 * (0.62065e-7 * 101.73687 * 16)) d =
      .ok (some a) := by
  obtain ⟨G⟩ := goodO3_of_file hF old
  obtain ⟨T, hT, hmem, hFT⟩ := ozoneFile_some hF
  obtain rfl : ozoneR22 = T := by simpa [ozoneGroups, List.lookup] using hT
  obtain ⟨hl, hrows⟩ := o3R22_lines
  have hfl : G.fl 0 = 101.73687 ∧ G.fl 1 = 110.83604 := by
    cases hc : ozoneR22.cols[1]? with
    | none => simp [hc] at hl
    | some c =>
      simp only [hc, Option.map_some, Option.some_inj, Prod.mk.injEq] at hl
      have h1 : F "fl" = some c.val := by
        rw [hFT]
        show (ozoneR22.cols[1]?).map Col.val = _
        rw [hc]; rfl
      have h2 := G.hfl
      rw [reload_some h1, Option.some_inj] at h2
      rw [← h2, Col.val, Col.val, hl.1, hl.2.1, hl.2.2.1]
      norm_num
  have hn : G.n = 463 := by
    have hlen : F "len(fl)" = some fun _ => (ozoneR22.rows : ℝ) := by rw [hFT]; rfl
    have := G.hn
    rw [reload_some hlen, Option.some_inj, hrows] at this
    exact_mod_cast (congrFun this 0).symm
  have hs : √(256 : ℝ) = 16 := by rw [show (256 : ℝ) = 16 ^ 2 by norm_num]; exact Real.sqrt_sq (by norm_num)
  obtain ⟨er, he, hneg⟩ := dcerror_neg
  set f : ℝ := 101.73687 - 6.27 * (0.62065e-7 * 101.73687 * 16) with hf
  have hwin (k : ℕ) (hk : k < G.n) : |G.fl k - f| ≤ 1 ↔ k = 0 := by
    constructor
    · intro h
      by_contra h0
      have h1 := G.sorted 1 k (by omega) hk
      rw [hfl.2] at h1
      have h2 := (abs_le.1 h).2
      rw [hf] at h2
      norm_num at h1 h2
      linarith
    · rintro rfl
      rw [hfl.1, hf, abs_le]
      constructor <;> norm_num
  have hv : o3Voigt (G.fl 0) (G.s1 0) (G.b 0) (G.w 0) (G.x 0) 256 0 (296 / 256) f =
      some (G.s1 0 * Real.exp (G.b 0 * (1 - 296 / 256)) * er.re / (0.62065e-7 * 101.73687 * 16)) := by
    have hb : (0.62065e-7 * 101.73687 * 16 : ℝ) ≠ 0 := by norm_num
    have ha : (101.73687 - f) / (0.62065e-7 * 101.73687 * 16) = 6.27 := by
      rw [hf]
      field_simp
      ring
    unfold o3Voigt
    simp only [fpow_of_pos (show (0 : ℝ) < 296 / 256 by norm_num), npSqrt, if_pos (show (0 : ℝ) ≤ 256 by norm_num), hs,
      hfl.1, npDiv_of_ne hb, bind, Option.bind_some, pure, mul_zero, zero_mul, zero_div, ha, he]
    norm_num
  refine ⟨_, ?_, o3_eval G (by norm_num) (g := fun _ => G.s1 0 * Real.exp (G.b 0 * (1 - 296 / 256)) * er.re /
    (0.62065e-7 * 101.73687 * 16)) fun k hk hw => ?_⟩
  · have hsum : (∑ k ∈ Finset.range G.n, if |G.fl k - f| ≤ 1 then G.s1 0 * Real.exp (G.b 0 * (1 - 296 / 256)) * er.re /
        (0.62065e-7 * 101.73687 * 16) else 0) =
        G.s1 0 * Real.exp (G.b 0 * (1 - 296 / 256)) * er.re / (0.62065e-7 * 101.73687 * 16) := by
      rw [Finset.sum_eq_single_of_mem 0 (Finset.mem_range.2 (by omega)) fun k hk h0 => ?_]
      · rw [if_pos ((hwin 0 (by omega)).2 rfl)]
      · rw [if_neg fun h => h0 ((hwin k (Finset.mem_range.1 hk)).1 h)]
    rw [hsum, if_pos (by decide)]
    have h1 : 0 < 1 - Real.exp (-1008 / 256) := by
      have : Real.exp (-1008 / 256) < 1 := Real.exp_lt_one_iff.2 (by norm_num)
      linarith
    have h2 : (0 : ℝ) < (296 / 256) ^ (2.5 : ℝ) := by positivity
    have h3 := (G.pos 0 (by omega)).1
    apply mul_neg_of_pos_of_neg (by positivity)
    apply div_neg_of_neg_of_pos (mul_neg_of_pos_of_neg (by positivity) hneg) (by norm_num)
  · rw [if_pos (by decide), (hwin k hk).1 hw]
    exact hv

example : ∃ F, ozoneFile "R22" = some F ∧ ∃ a, a < 0 ∧ o3Absorption "R22" (reloadLL F fun _ => none) 256 0
    (101.73687 - 6.27 * (0.62065e-7 * 101.73687 * 16)) 1e18 = .ok (some a) := by
  obtain ⟨F, hF⟩ := Option.isSome_iff_exists.1 ((C38_names "R22").2 (by simp))
  exact ⟨F, hF, C38_R22_negative hF _ (by norm_num)⟩

end Verif.Props
