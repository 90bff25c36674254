import Verif.Props.CloudEffect

/-!
# C122: added opacity is visible

C82 says which way more opacity moves a brightness temperature; here, when it moves it at all.
-/

namespace Verif.Props

open Verif.Py Verif.Spec Verif.Model Real

section layers
variable {B τ τ' : ℕ → ℝ} {n m : ℕ} {near far b b' s t : ℝ}

theorem layer_entering (h : b < b') :
    layerSource near far t * (1 - exp (-t)) + b * exp (-t) < layerSource near far t * (1 - exp (-t)) + b' * exp (-t) := by
  have := mul_lt_mul_of_pos_right h (exp_pos (-t))
  linarith

theorem layer_mono_strict (h : s < t) (h1 : far ≤ near) (h2 : b < far) :
    layerSource near far s * (1 - exp (-s)) + b * exp (-s) <
      layerSource near far t * (1 - exp (-t)) + b * exp (-t) := by
  have e : exp (-t) < exp (-s) := exp_lt_exp.2 (by linarith)
  have p := exp_pos (-t)
  have q : 2 / (1 + exp (-s)) ≤ 2 / (1 + exp (-t)) := by gcongr
  have a1 := mul_le_mul_of_nonneg_left q (sub_nonneg.2 h1)
  have a2 := mul_lt_mul_of_pos_left e (sub_pos.2 h2)
  rw [layer_eq, layer_eq]
  nlinarith

theorem layer_lt_near (ht : 0 ≤ t) (h1 : far ≤ near) (h2 : b < near) :
    layerSource near far t * (1 - exp (-t)) + b * exp (-t) < near := by
  have := layer_le_near ht h1 (le_refl near)
  have := layer_entering (near := near) (far := far) (t := t) h2
  linarith

theorem layer_anti_strict (h : s < t) (h1 : near ≤ far) (h2 : far ≤ b) (h3 : near < b) :
    layerSource near far t * (1 - exp (-t)) + b * exp (-t) <
      layerSource near far s * (1 - exp (-s)) + b * exp (-s) := by
  have e : exp (-t) < exp (-s) := exp_lt_exp.2 (by linarith)
  have p := exp_pos (-t)
  have q : 2 / (1 + exp (-s)) < 2 / (1 + exp (-t)) := by gcongr
  rw [layer_eq, layer_eq]
  rcases h1.eq_or_lt with g | g
  · have a2 := mul_lt_mul_of_pos_left e (sub_pos.2 (g ▸ h3 : far < b))
    rw [g]
    nlinarith
  · have a1 := mul_lt_mul_of_pos_left q (sub_pos.2 g)
    have a2 := mul_le_mul_of_nonneg_left e.le (sub_nonneg.2 h2)
    nlinarith

theorem near_lt_layer (ht : 0 ≤ t) (h1 : near ≤ far) (h2 : near < b) :
    near < layerSource near far t * (1 - exp (-t)) + b * exp (-t) := by
  have := near_le_layer ht h1 (le_refl near)
  have := layer_entering (near := near) (far := far) (t := t) h2
  linarith

/-- Radiance not increasing with height and larger than what enters at the top: a thicker layer sends more down. -/
theorem sky_thicker_strict (h : ∀ i, 1 ≤ i → i ≤ n → 0 ≤ τ i ∧ τ i ≤ τ' i) (hB : ∀ i < n, B (i + 1) ≤ B i)
    (hb : b ≤ b') (hb' : b' ≤ B n) (hs : b < b' ∨ b < B n ∧ ∃ i, 1 ≤ i ∧ i ≤ n ∧ τ i < τ' i) :
    skyRadiance B τ n + b * transDown τ n < skyRadiance B τ' n + b' * transDown τ' n := by
  induction n generalizing b b' with
  | zero =>
    rcases hs with hs | ⟨-, i, h1, h2, -⟩
    · simpa using hs
    · omega
  | succ n ih =>
    rw [sky_peel, sky_peel]
    obtain ⟨h0, h1⟩ := h (n + 1) (by omega) le_rfl
    have hd := hB n (by omega)
    refine ih (fun i a c => h i a (by omega)) (fun i hi => hB i (by omega))
      (layer_mono h1 hd (hb.trans hb') hb) (layer_le_near (h0.trans h1) hd (hb'.trans hd)) ?_
    rcases hs with hs | ⟨hs, i, i1, i2, i3⟩
    · exact Or.inl ((layer_mono h1 hd (hb.trans hb') le_rfl).trans_lt (layer_entering hs))
    · rcases Nat.lt_or_ge i (n + 1) with hi | hi
      · exact Or.inr ⟨layer_lt_near h0 hd (hs.trans_le hd), i, i1, by omega, i3⟩
      · obtain rfl : i = n + 1 := by omega
        refine Or.inl ((layer_mono_strict i3 hd hs).trans_le ?_)
        have := mul_le_mul_of_nonneg_right hb (exp_pos (-τ' (n + 1))).le
        linarith

/-- Radiance not increasing with height and not larger than what enters at the bottom: a thicker layer whose upper
level is colder than that sends less up. -/
theorem up_thicker_strict (hm : m ≤ n) (h : ∀ i, m < i → i ≤ n → 0 ≤ τ i ∧ τ i ≤ τ' i)
    (hB : ∀ i < n, B (i + 1) ≤ B i) (hb : b' ≤ b) (hb' : B m ≤ b')
    (hs : b' < b ∨ ∃ i, m < i ∧ i ≤ n ∧ τ i < τ' i ∧ B i < b) :
    upRadiance B τ' n m + b' * transUp τ' n m < upRadiance B τ n m + b * transUp τ n m := by
  induction hm using Nat.decreasingInduction generalizing b b' with
  | self =>
    rcases hs with hs | ⟨i, h1, h2, -⟩
    · simpa using hs
    · omega
  | of_succ k hk ih =>
    rw [up_peel hk, up_peel hk]
    obtain ⟨h0, h1⟩ := h (k + 1) (by omega) hk
    have hd := hB k hk
    refine ih (fun i a c => h i (by omega) c) (layer_anti h1 hd (hb'.trans hb) hb)
      (near_le_layer (h0.trans h1) hd (hd.trans hb')) ?_
    rcases hs with hs | ⟨i, i1, i2, i3, i4⟩
    · exact Or.inl ((layer_entering hs).trans_le (layer_anti h1 hd (hb'.trans hb) le_rfl))
    · rcases Nat.lt_or_ge (k + 1) i with hi | hi
      · refine Or.inr ⟨i, hi, i2, i3, ?_⟩
        have mono : ∀ d, k + 1 + d ≤ n → B (k + 1 + d) ≤ B (k + 1) := fun d => by
          induction d with
          | zero => intro _; exact le_rfl
          | succ d ihd => intro hd; exact (hB (k + 1 + d) (by omega)).trans (ihd (by omega))
        have mi : B i ≤ B (k + 1) := by
          have := mono (i - (k + 1)) (by omega)
          rwa [show k + 1 + (i - (k + 1)) = i by omega] at this
        rcases (hd.trans (hb'.trans hb)).eq_or_lt with g | g
        · have := near_le_layer (t := τ (k + 1)) (b := b) h0 hd g.le
          rw [g] at this ⊢
          exact i4.trans_le this
        · exact mi.trans_lt (near_lt_layer h0 hd g)
      · obtain rfl : i = k + 1 := by omega
        refine Or.inl (lt_of_le_of_lt ?_ (layer_anti_strict i3 hd (hb'.trans hb) i4))
        have := mul_le_mul_of_nonneg_right hb (exp_pos (-τ' (k + 1))).le
        linarith

/-- Layers that are as warm as what enters at the bottom do not matter. -/
theorem up_same (hm : m ≤ n) (hB : ∀ i < n, B (i + 1) ≤ B i) (hb : B m ≤ b)
    (h : ∀ i, m < i → i ≤ n → τ i = τ' i ∨ B i = b) :
    upRadiance B τ' n m + b * transUp τ' n m = upRadiance B τ n m + b * transUp τ n m := by
  induction hm using Nat.decreasingInduction generalizing b with
  | self => simp
  | of_succ k hk ih =>
    rw [up_peel hk, up_peel hk]
    have hd := hB k hk
    have mono : ∀ d, k + 1 + d ≤ n → B (k + 1 + d) ≤ B (k + 1) := fun d => by
      induction d with
      | zero => intro _; exact le_rfl
      | succ d ihd => intro hd; exact (hB (k + 1 + d) (by omega)).trans (ihd (by omega))
    have flat {x : ℝ} (e : B (k + 1) = b) :
        layerSource (B (k + 1)) (B k) x * (1 - exp (-x)) + b * exp (-x) = b := by
      have e' : B k = b := le_antisymm hb (e ▸ hd)
      rw [e, e']
      unfold layerSource
      have := exp_pos (-x)
      field_simp
      ring
    by_cases e : B (k + 1) = b
    · rw [flat e, flat e]
      exact ih e.le fun i a c => h i (by omega) c
    · have le : B (k + 1) ≤ b := hd.trans hb
      have lt : B (k + 1) < b := lt_of_le_of_ne le e
      have all : ∀ i, k < i → i ≤ n → τ i = τ' i := fun i a c => by
        refine (h i a c).resolve_right fun q => ?_
        have := mono (i - (k + 1)) (by omega)
        rw [show k + 1 + (i - (k + 1)) = i by omega, q] at this
        linarith
      rw [all (k + 1) (by omega) hk]
      have tr (j : ℕ) (hj : k + 1 ≤ j) (hj2 : j ≤ n) : transUp τ' n j = transUp τ n j := by
        unfold transUp opacityAbove
        congr 2
        exact Finset.sum_congr rfl fun i hi => by
          rw [Finset.mem_Icc] at hi
          exact (all i (by omega) hi.2).symm
      rw [tr (k + 1) le_rfl hk]
      congr 1
      unfold upRadiance
      refine Finset.sum_congr rfl fun i hi => ?_
      rw [Finset.mem_Icc] at hi
      rw [tr i (by omega) hi.2, tr (i - 1) (by omega) (by omega), all i (by omega) hi.2]

end layers

theorem bright_lt {hvk b b' : ℝ} (hh : 0 < hvk) (hb : 0 < b) (h : b < b') :
    ∃ T T', bright hvk b = some T ∧ bright hvk b' = some T' ∧ T < T' := by
  obtain ⟨T, h1, rfl⟩ := exists_tk2b hh hb
  obtain ⟨T', h2, rfl⟩ := exists_tk2b hh (hb.trans h)
  refine ⟨T, T', bright_tk2b hh h1, bright_tk2b hh h2, ?_⟩
  by_contra hc
  push Not at hc
  linarith [tk2b_mono hh h2 hc]

section planck
variable {frq es es' : ℝ} {nl : ℕ} {t τ τ' : ℕ → ℝ} {out out' : PlanckOut}

/-- **C122.** Looking up through air that does not get warmer with height and is everywhere warmer than the cosmic
background: adding opacity to any layer raises the brightness temperature, and only that does. -/
theorem C122_ground (hf : 0 < frq) (hc : Cooling nl t) (htop : 2.728 < t (nl - 1)) (hτ : Thicker nl τ τ')
    (hop : opacityBelow τ' (nl - 1) < 125)
    (h : planck false es frq nl t τ = some out) (h' : planck false es' frq nl t τ' = some out') :
    ∃ Tb Tb', bright out.hvk out.boftotl = some Tb ∧ bright out'.hvk out'.boftotl = some Tb' ∧
      (Tb < Tb' ↔ ∃ i, 1 ≤ i ∧ i < nl ∧ τ i < τ' i) ∧ (Tb = Tb' ↔ ∀ i, 1 ≤ i → i < nl → τ' i = τ i) := by
  obtain ⟨hn, e1, -, -, -, e5, e6, e7⟩ := planck_ground h
  obtain ⟨-, f1, -, -, -, f5, f6, f7⟩ := planck_ground h'
  have hh := hvkOf_pos hf
  have hm : opacityBelow τ (nl - 1) ≤ opacityBelow τ' (nl - 1) :=
    opacityBelow_mono fun i h1 h2 => (hτ i h1 (by omega)).2
  have hp := cosmic_pos hf
  have hs := sky_nonneg hf hc hn fun i h1 h2 => (hτ i h1 h2).1
  have pos : 0 < out.boftotl := by
    rw [e7, (e5 (hm.trans_lt hop)).1]
    positivity
  have ct : tk2b (hvkOf frq) cTcosmicbkg < tk2b (hvkOf frq) (t (nl - 1)) :=
    tk2b_strictMono hh (by norm_num [cTcosmicbkg]) (by unfold cTcosmicbkg; exact htop)
  by_cases hx : ∃ i, 1 ≤ i ∧ i < nl ∧ τ i < τ' i
  · obtain ⟨i, i1, i2, i3⟩ := hx
    have lt : out.boftotl < out'.boftotl := by
      rw [e7, f7, (e5 (hm.trans_lt hop)).1, (f5 hop).1]
      have := sky_thicker_strict (B := fun i => tk2b (hvkOf frq) (t i)) (τ := τ) (τ' := τ')
        (b := tk2b (hvkOf frq) cTcosmicbkg) (fun i h1 h2 => hτ i h1 (by omega)) (cooling_radiance hf hc) le_rfl
        ct.le (Or.inr ⟨ct, i, i1, by omega, i3⟩)
      unfold transDown at this
      linarith
    rw [e1, f1]
    obtain ⟨T, T', b1, b2, b3⟩ := bright_lt hh pos lt
    refine ⟨T, T', b1, b2, ⟨fun _ => ⟨i, i1, i2, i3⟩, fun _ => b3⟩, fun q => absurd q b3.ne, fun q => ?_⟩
    have := q i i1 i2
    linarith
  · push Not at hx
    have eq : ∀ i, 1 ≤ i → i < nl → τ' i = τ i := fun i h1 h2 => le_antisymm (hx i h1 h2) (hτ i h1 h2).2
    have same : out'.boftotl = out.boftotl := by
      have o : opacityBelow τ' (nl - 1) = opacityBelow τ (nl - 1) :=
        Finset.sum_congr rfl fun i hi => by rw [Finset.mem_Icc] at hi; exact eq i hi.1 (by omega)
      rw [e7, f7, (e5 (hm.trans_lt hop)).1, (f5 hop).1, o]
      congr 1
      exact skyRadiance_congr2 (fun _ _ => rfl) fun i h1 h2 => eq i h1 (by omega)
    obtain ⟨T, hT, e⟩ := exists_tk2b hh pos
    rw [e1, f1, same, ← e, bright_tk2b hh hT]
    refine ⟨T, T, rfl, rfl, ⟨fun q => absurd q (lt_irrefl _), fun ⟨i, i1, i2, i3⟩ => ?_⟩, fun _ => eq, fun _ => rfl⟩
    have := eq i i1 i2
    linarith

/-- **C122.** Looking down on a black surface through air that does not get warmer with height: adding opacity lowers the
brightness temperature if and only if some of it is added to a layer whose upper level is colder than the surface. -/
theorem C122_satellite (hf : 0 < frq) (hc : Cooling nl t) (hτ : Thicker nl τ τ')
    (hop : opacityBelow τ' (nl - 1) < 125)
    (h : planck true 1 frq nl t τ = some out) (h' : planck true 1 frq nl t τ' = some out') :
    ∃ Tb Tb', bright out.hvk out.boftotl = some Tb ∧ bright out'.hvk out'.boftotl = some Tb' ∧
      (Tb' < Tb ↔ ∃ i, 1 ≤ i ∧ i < nl ∧ τ i < τ' i ∧ t i < t 0) ∧
      (Tb' = Tb ↔ ∀ i, 1 ≤ i → i < nl → τ' i = τ i ∨ t i = t 0) := by
  obtain ⟨hn, e1, -, -, -, e5, e6, e7⟩ := planck_sat h
  obtain ⟨-, f1, -, -, -, f5, f6, f7⟩ := planck_sat h'
  have hh := hvkOf_pos hf
  have hm : opacityBelow τ (nl - 1) ≤ opacityBelow τ' (nl - 1) :=
    opacityBelow_mono fun i h1 h2 => (hτ i h1 (by omega)).2
  have hp : 0 < tk2b (hvkOf frq) (t 0) := tk2b_pos hh (hc.1 0 hn)
  have hs := up_nonneg hf hc hn fun i h1 h2 => (hτ i h1 h2).1.trans (hτ i h1 h2).2
  have pos : 0 < out'.boftotl := by
    rw [f7, (f5 hop).1]
    positivity
  have warm (i : ℕ) (hi : i < nl) : t i ≤ t 0 := by
    induction i with
    | zero => exact le_rfl
    | succ i ih => exact (hc.2 i hi).trans (ih (by omega))
  by_cases hx : ∃ i, 1 ≤ i ∧ i < nl ∧ τ i < τ' i ∧ t i < t 0
  · obtain ⟨i, i1, i2, i3, i4⟩ := hx
    have lt : out'.boftotl < out.boftotl := by
      rw [e7, f7, (e5 (hm.trans_lt hop)).1, (f5 hop).1]
      have := up_thicker_strict (B := fun i => tk2b (hvkOf frq) (t i)) (τ := τ) (τ' := τ')
        (b := tk2b (hvkOf frq) (t 0)) (Nat.zero_le (nl - 1)) (fun i h1 h2 => hτ i h1 (by omega))
        (cooling_radiance hf hc) le_rfl le_rfl
        (Or.inr ⟨i, i1, by omega, i3, tk2b_strictMono hh (hc.1 i i2) i4⟩)
      unfold transUp at this
      rw [opacityAbove_zero, opacityAbove_zero] at this
      linarith
    rw [e1, f1]
    obtain ⟨T, T', b1, b2, b3⟩ := bright_lt hh pos lt
    refine ⟨T', T, b2, b1, ⟨fun _ => ⟨i, i1, i2, i3, i4⟩, fun _ => b3⟩, fun q => absurd q b3.ne, fun q => ?_⟩
    rcases q i i1 i2 with q | q <;> linarith
  · push Not at hx
    have eq : ∀ i, 1 ≤ i → i < nl → τ' i = τ i ∨ t i = t 0 := fun i h1 h2 => by
      rcases (hτ i h1 h2).2.eq_or_lt with q | q
      · exact Or.inl q.symm
      · exact Or.inr (le_antisymm (warm i h2) (hx i h1 h2 q))
    have same : out'.boftotl = out.boftotl := by
      rw [e7, f7, (e5 (hm.trans_lt hop)).1, (f5 hop).1]
      have := up_same (B := fun i => tk2b (hvkOf frq) (t i)) (τ := τ) (τ' := τ')
        (b := tk2b (hvkOf frq) (t 0)) (Nat.zero_le (nl - 1)) (cooling_radiance hf hc) le_rfl
        (fun i h1 h2 => (eq i h1 (by omega)).imp Eq.symm fun q => by rw [q])
      unfold transUp at this
      rw [opacityAbove_zero, opacityAbove_zero] at this
      linarith
    obtain ⟨T, hT, e⟩ := exists_tk2b hh (same ▸ pos)
    rw [e1, f1, same, ← e, bright_tk2b hh hT]
    refine ⟨T, T, rfl, rfl, ⟨fun q => absurd q (lt_irrefl _), fun ⟨i, i1, i2, i3, i4⟩ => ?_⟩, fun _ => eq, fun _ => rfl⟩
    rcases eq i i1 i2 with q | q <;> linarith

end planck

/-! ## Clouds -/

section clouds
variable {A : AbsRoutines} {g : Globals} {I I' : Inst} {rows rows' : List Row}

/-- **C122.** From the ground, a cloud that stays below total opacity raises the brightness temperature if and only if one
of the stored cloud opacities is positive; otherwise the two are equal. -/
theorem C122_cloud_ground (h : (execute A g I).1 = .ok rows) (h' : (execute A g I').1 = .ok rows') (ha : AddsCloud I I')
    {j k : ℕ} (hj : j < I.set.nf) (hk : k < I.set.nang) (hp : GoodPath I.set k)
    (hsat : I.set.satellite = false) (hf : 0 < I.set.frq j) (hc : Cooling I.set.nl I.set.tk)
    (htop : 2.728 < I.set.tk (I.set.nl - 1))
    (hop : ∀ τ, ((execute A g I').2.out.cell j k).taulay = some τ → opacityBelow τ (I.set.nl - 1) < 125) :
    ∃ Tb Tb' lq ic, ((execute A g I).2.out.cell j k).tbtotal = some Tb ∧
      ((execute A g I').2.out.cell j k).tbtotal = some Tb' ∧
      ((execute A g I').2.out.cell j k).ptauliq = some lq ∧ ((execute A g I').2.out.cell j k).ptauice = some ic ∧
      (Tb < Tb' ↔ ∃ i, 1 ≤ i ∧ i < I.set.nl ∧ (0 < lq i ∨ 0 < ic i)) ∧
      (Tb = Tb' ↔ ∀ i, 1 ≤ i → i < I.set.nl → lq i = 0 ∧ ic i = 0) := by
  obtain ⟨τ, τ', es, out, out', t1, t2, ht, -, p1, b1, p2, b2⟩ := cloud_thicker h h' ha hj hk hp
  obtain ⟨σ, σ', lq, ic, s1, s2, s3, s4, s5, s6⟩ := C116_opacity h h' ha hj hk hp
  rw [t1] at s1; cases s1
  rw [t2] at s2; cases s2
  rw [hsat] at p1 p2
  obtain ⟨a, b, c, d, e, f⟩ := C122_ground hf hc htop ht (hop τ' t2) p1 p2
  refine ⟨a, b, lq, ic, b1.trans c, b2.trans d, s3, s4, e.trans ?_, f.trans ?_⟩
  · refine exists_congr fun i => and_congr_right fun _ => and_congr_right fun _ => ?_
    obtain ⟨-, q1, q2⟩ := s6 i
    rw [s5 i]
    constructor
    · intro hlt
      by_contra hcon
      push Not at hcon
      linarith [hcon.1, hcon.2]
    · rintro (q | q) <;> linarith
  · refine forall_congr' fun i => imp_congr_right fun _ => imp_congr_right fun _ => ?_
    obtain ⟨-, q1, q2⟩ := s6 i
    rw [s5 i]
    exact ⟨fun q => ⟨by linarith, by linarith⟩, fun ⟨q, r⟩ => by linarith⟩

/-- **C122.** From a satellite over a black surface, such a cloud lowers the brightness temperature if and only if one of
the stored cloud opacities is positive in a layer whose upper level is colder than the surface; otherwise the two are
equal. -/
theorem C122_cloud_satellite (h : (execute A g I).1 = .ok rows) (h' : (execute A g I').1 = .ok rows')
    (ha : AddsCloud I I') {j k : ℕ} (hj : j < I.set.nf) (hk : k < I.set.nang) (hp : GoodPath I.set k)
    (hsat : I.set.satellite = true) (hf : 0 < I.set.frq j) (hc : Cooling I.set.nl I.set.tk) (hes : I.set.es[j]? = some 1)
    (hop : ∀ τ, ((execute A g I').2.out.cell j k).taulay = some τ → opacityBelow τ (I.set.nl - 1) < 125) :
    ∃ Tb Tb' lq ic, ((execute A g I).2.out.cell j k).tbtotal = some Tb ∧
      ((execute A g I').2.out.cell j k).tbtotal = some Tb' ∧
      ((execute A g I').2.out.cell j k).ptauliq = some lq ∧ ((execute A g I').2.out.cell j k).ptauice = some ic ∧
      (Tb' < Tb ↔ ∃ i, 1 ≤ i ∧ i < I.set.nl ∧ (0 < lq i ∨ 0 < ic i) ∧ I.set.tk i < I.set.tk 0) ∧
      (Tb' = Tb ↔ ∀ i, 1 ≤ i → i < I.set.nl → (lq i = 0 ∧ ic i = 0) ∨ I.set.tk i = I.set.tk 0) := by
  obtain ⟨τ, τ', es, out, out', t1, t2, ht, he, p1, b1, p2, b2⟩ := cloud_thicker h h' ha hj hk hp
  obtain ⟨σ, σ', lq, ic, s1, s2, s3, s4, s5, s6⟩ := C116_opacity h h' ha hj hk hp
  rw [t1] at s1; cases s1
  rw [t2] at s2; cases s2
  rw [hes] at he; cases he
  rw [hsat] at p1 p2
  obtain ⟨a, b, c, d, e, f⟩ := C122_satellite hf hc ht (hop τ' t2) p1 p2
  refine ⟨a, b, lq, ic, b1.trans c, b2.trans d, s3, s4, e.trans ?_, f.trans ?_⟩
  · refine exists_congr fun i => and_congr_right fun _ => and_congr_right fun _ => and_congr_left fun _ => ?_
    obtain ⟨-, q1, q2⟩ := s6 i
    rw [s5 i]
    constructor
    · intro hlt
      by_contra hcon
      push Not at hcon
      linarith [hcon.1, hcon.2]
    · rintro (q | q) <;> linarith
  · refine forall_congr' fun i => imp_congr_right fun _ => imp_congr_right fun _ => or_congr_left ?_
    obtain ⟨-, q1, q2⟩ := s6 i
    rw [s5 i]
    exact ⟨fun q => ⟨by linarith, by linarith⟩, fun ⟨q, r⟩ => by linarith⟩

/-- **C122.** The liquid water models of the library: liquid on two neighbouring levels between 210 K and 396 K is seen
from the ground. -/
theorem C122_shipped_ground (h : (execute shipped g I).1 = .ok rows) (h' : (execute shipped g I').1 = .ok rows')
    (ha : AddsCloud I I') {m : String} (hm : g.sel.liq = some m)
    (hmem : m ∈ ["R98", "R03", "R16", "R17", "R19", "R19SD", "R20", "R22SD", "R23", "R23SD", "R24"])
    {j k : ℕ} (hj : j < I.set.nf) (hk : k < I.set.nang) (hr : I.set.rayTracing = false)
    (ha0 : 0 < I.set.angles k) (ha1 : I.set.angles k < 180) (hz : ∀ i, i + 1 < I.set.nl → I.set.z i ≤ I.set.z (i + 1))
    (hf : 0 < I.set.frq j) {dl di : Val} (hd : I'.set.dens = some (dl, di))
    (hT : ∀ i < I.set.nl, 0 < dl i → 210 ≤ I.set.tk i ∧ I.set.tk i ≤ 396)
    {i : ℕ} (h1 : 1 ≤ i) (h2 : i < I.set.nl) (hzi : I.set.z (i - 1) < I.set.z i) (hi0 : 0 < dl (i - 1)) (hi1 : 0 < dl i)
    (hsat : I.set.satellite = false) (hc : Cooling I.set.nl I.set.tk) (htop : 2.728 < I.set.tk (I.set.nl - 1))
    (hop : ∀ τ, ((execute shipped g I').2.out.cell j k).taulay = some τ → opacityBelow τ (I.set.nl - 1) < 125) :
    ∃ Tb Tb', ((execute shipped g I).2.out.cell j k).tbtotal = some Tb ∧
      ((execute shipped g I').2.out.cell j k).tbtotal = some Tb' ∧ Tb < Tb' := by
  obtain ⟨-, -, lq, -, -, l3, l4, -⟩ := C116_shipped h h' ha hm hmem hj hk hr ha0 ha1 hz hf hd hT h1 h2 hzi hi0 hi1
  obtain ⟨Tb, Tb', lq', ic, e1, e2, e3, -, e5, -⟩ := C122_cloud_ground h h' ha hj hk
    (goodPath_plane hr ha0 ha1 hz) hsat hf hc htop hop
  rw [l3] at e3; cases e3
  exact ⟨Tb, Tb', e1, e2, e5.2 ⟨i, h1, h2, Or.inl l4⟩⟩

/-- **C122.** The same from a satellite over a black surface, if the upper of the two levels is colder than the surface. -/
theorem C122_shipped_satellite (h : (execute shipped g I).1 = .ok rows) (h' : (execute shipped g I').1 = .ok rows')
    (ha : AddsCloud I I') {m : String} (hm : g.sel.liq = some m)
    (hmem : m ∈ ["R98", "R03", "R16", "R17", "R19", "R19SD", "R20", "R22SD", "R23", "R23SD", "R24"])
    {j k : ℕ} (hj : j < I.set.nf) (hk : k < I.set.nang) (hr : I.set.rayTracing = false)
    (ha0 : 0 < I.set.angles k) (ha1 : I.set.angles k < 180) (hz : ∀ i, i + 1 < I.set.nl → I.set.z i ≤ I.set.z (i + 1))
    (hf : 0 < I.set.frq j) {dl di : Val} (hd : I'.set.dens = some (dl, di))
    (hT : ∀ i < I.set.nl, 0 < dl i → 210 ≤ I.set.tk i ∧ I.set.tk i ≤ 396)
    {i : ℕ} (h1 : 1 ≤ i) (h2 : i < I.set.nl) (hzi : I.set.z (i - 1) < I.set.z i) (hi0 : 0 < dl (i - 1)) (hi1 : 0 < dl i)
    (hsat : I.set.satellite = true) (hc : Cooling I.set.nl I.set.tk) (hes : I.set.es[j]? = some 1)
    (hcold : I.set.tk i < I.set.tk 0)
    (hop : ∀ τ, ((execute shipped g I').2.out.cell j k).taulay = some τ → opacityBelow τ (I.set.nl - 1) < 125) :
    ∃ Tb Tb', ((execute shipped g I).2.out.cell j k).tbtotal = some Tb ∧
      ((execute shipped g I').2.out.cell j k).tbtotal = some Tb' ∧ Tb' < Tb := by
  obtain ⟨-, -, lq, -, -, l3, l4, -⟩ := C116_shipped h h' ha hm hmem hj hk hr ha0 ha1 hz hf hd hT h1 h2 hzi hi0 hi1
  obtain ⟨Tb, Tb', lq', ic, e1, e2, e3, -, e5, -⟩ := C122_cloud_satellite h h' ha hj hk
    (goodPath_plane hr ha0 ha1 hz) hsat hf hc hes hop
  rw [l3] at e3; cases e3
  exact ⟨Tb, Tb', e1, e2, e5.2 ⟨i, h1, h2, Or.inl l4, hcold⟩⟩

end clouds

/-! ## Concrete cases -/

theorem overcast_seen (sat : Bool) {lq : Val}
    (h : ((execute demoA demoG ⟨overcastS sat, Store.zero⟩).2.out.cell 0 1).ptauliq = some lq) : 0 < lq 1 := by
  obtain ⟨rows, h1⟩ := tip_runs sat
  obtain ⟨rows', h2⟩ := overcast_runs sat
  obtain ⟨-, -, l, -, -, l3, l4, -⟩ := C116_seen h1 h2 (overcast_adds sat) (show 0 < 2 by decide) (show 1 < 2 by decide) rfl
    (demo_angles 1 (by decide)).1 (demo_angles 1 (by decide)).2 (fun i _ => by simp [tipS, demoS])
    (dl := fun _ => 1) (di := fun _ => 0) rfl
    (fun i _ _ m v _ hv => by simp only [demoA] at hv; cases hv; norm_num) le_rfl
    (show 1 < 3 by decide) (by norm_num [tipS, demoS]) one_pos one_pos
  rw [h] at l3; cases l3
  exact l4

/-- From the ground the cloud raises the brightness temperature. -/
example : ∃ Tb Tb', ((execute demoA demoG ⟨tipS false, Store.zero⟩).2.out.cell 0 1).tbtotal = some Tb ∧
    ((execute demoA demoG ⟨overcastS false, Store.zero⟩).2.out.cell 0 1).tbtotal = some Tb' ∧ Tb < Tb' := by
  obtain ⟨rows, h⟩ := tip_runs false
  obtain ⟨rows', h'⟩ := overcast_runs false
  obtain ⟨Tb, Tb', lq, ic, e1, e2, e3, -, e5, -⟩ := C122_cloud_ground h h' (overcast_adds false)
    (show 0 < 2 by decide) (show 1 < 2 by decide)
    ((tip_scene false).2.2 1 (by decide)) rfl (by norm_num [tipS, demoS]) (tip_cooling false) (by norm_num [tipS, demoS])
    fun τ ht => overcast_opacity (by decide) ht
  exact ⟨Tb, Tb', e1, e2, e5.2 ⟨1, le_rfl, by decide, Or.inl (overcast_seen false e3)⟩⟩

/-- From the satellite it lowers it. -/
example : ∃ Tb Tb', ((execute demoA demoG ⟨tipS true, Store.zero⟩).2.out.cell 0 1).tbtotal = some Tb ∧
    ((execute demoA demoG ⟨overcastS true, Store.zero⟩).2.out.cell 0 1).tbtotal = some Tb' ∧ Tb' < Tb := by
  obtain ⟨rows, h⟩ := tip_runs true
  obtain ⟨rows', h'⟩ := overcast_runs true
  obtain ⟨Tb, Tb', lq, ic, e1, e2, e3, -, e5, -⟩ := C122_cloud_satellite h h' (overcast_adds true)
    (show 0 < 2 by decide) (show 1 < 2 by decide)
    ((tip_scene true).2.2 1 (by decide)) rfl (by norm_num [tipS, demoS]) (tip_cooling true) (by simp [tipS, demoS])
    fun τ ht => overcast_opacity (by decide) ht
  exact ⟨Tb, Tb', e1, e2, e5.2 ⟨1, le_rfl, by decide, Or.inl (overcast_seen true e3), by norm_num [tipS, demoS]⟩⟩

end Verif.Props
