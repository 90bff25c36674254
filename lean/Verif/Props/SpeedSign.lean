import Verif.Lemmas.SpeedSign
import Verif.Lemmas.Dimers
import Verif.Props.AllGases
import Verif.Props.Humidity

/-!
# C115: moist air absorbs with every model

The speed-dependent models replace the Lorentz profile near the centre of a line by a rational expression in a complex
square root, and subtract the value of the Lorentz profile at the cut-off; nothing in the code keeps the difference from
being negative.  Between 200 K and 330 K it is not.
-/

namespace Verif.Props

open Verif Verif.Py Verif.Model Verif.Spec Verif.Lemmas Real

theorem speed_cases {m : String} {F : LineList} (hF : waterFile m = some F) :
    m ∈ ["R98", "R03", "R16", "R17", "R18", "R19", "R20"] ∨ m ∈ speedWater := by
  have hm := water_names hF
  simp only [speedWater, List.mem_cons, List.not_mem_nil, or_false] at hm ⊢
  rcases hm with h | h | h | h | h | h | h | h | h | h | h | h | h | h <;> simp [h]

/-- Bounds of the pressures that the routine recovers from the density. -/
theorem air_bounds {m : String} {T p e : ℝ} (hT : 0 < T) (hp' : p ≤ 110) (he : 0 < e) (he' : e ≤ 50) :
    vapourPressure m T e ≤ 510 ∧ dryPressure m T p e ≤ 1200 := by
  have e1 : vapourDensity T e * T = 180.1528 / 0.0831451 * e := by
    unfold vapourDensity
    field_simp
    norm_num
  have key : 9.9 * e ≤ vapourPressure m T e ∧ vapourPressure m T e ≤ 10.1 * e := by
    unfold vapourPressure
    rw [e1]
    split_ifs <;> norm_num <;> constructor <;> linarith
  unfold dryPressure
  constructor <;> linarith [key.1, key.2]

/-- **C115.** The routine, any model, between 200 K and 330 K, up to 1100 hPa of dry air and 500 hPa of vapour: it returns
finite values, the lines give nothing negative and the continuum is positive.  (R23SD and R24 have a continuum up to
1199 GHz only.) -/
theorem C115_routine {m : String} {F : LineList} (hF : waterFile m = some F) (old : LineList) {p T e f : ℝ} (hT : 200 ≤ T)
    (hT' : T ≤ 330) (hp : 0 ≤ p) (hp' : p ≤ 110) (he : 0 < e) (he' : e ≤ 50) (hf : 0 < f)
    (hfm : m ∈ ["R23SD", "R24"] → f < 4 * ckdStep) :
    ∃ n c, h2oAbsorption m (reloadLL F old) p (300.0 / T) e f = .ok (some (n, c)) ∧ 0 ≤ n ∧ 0 < c := by
  have hT0 : 0 < T := by linarith
  have hvx : (0 : ℝ) < 300.0 / T := div_pos (by norm_num) hT0
  rcases speed_cases hF with hm | hm
  · exact C35_nonneg hm hF old hp hvx he hf
  obtain ⟨⟨npp, ncpp⟩, h⟩ := C32_water (e := e) hF old hp hvx he.le hf hfm
  refine ⟨npp, ncpp, h, ?_, ?_⟩
  · obtain ⟨n, hn⟩ := file_len hF
    obtain ⟨c, hc⟩ : ∃ c : String → ℕ → ℝ, ∀ a v, F a = some v → c a = v := ⟨fun a => (F a).getD 0, fun a v h => by simp [h]⟩
    have key := C68_water_lines hF old hc hn hp hvx he hf h
    rw [inverse_temperature hT0] at key
    obtain ⟨b1, b2⟩ := air_bounds (m := m) (p := p) hT0 hp' he he'
    obtain ⟨ht, hr, hpv, hpd, hden⟩ := waterAir_props m hp hvx he
    obtain ⟨e1, e2, e3, e4⟩ := waterAir_formula hF p e hvx
    rw [e3, inverse_temperature hT0] at hpv
    rw [e4, inverse_temperature hT0] at hpd
    rw [e2, inverse_temperature hT0] at hr
    have C := columns_of_file hF old hc hn
    have hsum : 0 ≤ Spec.lineSum m c n T (dryPressure m T p e) (vapourPressure m T e) f := by
      unfold Spec.lineSum
      refine Finset.sum_nonneg fun i hi => ?_
      have hi := Finset.mem_range.1 hi
      refine mul_nonneg (mul_nonneg ?_ (sq_nonneg _)) (resonances_nonneg hm hF hc hn hT hT' hpd b2 hpv b1 f hi)
      have hs1 : 0 < c "s1" i := by
        obtain ⟨G⟩ := goodLines_of_file hF old
        have h1 : G.s1 = c "s1" := by
          have := C.read "s1" (by simp [waterReads, waterCommon])
          rw [G.hs1, Option.some_inj] at this
          exact this
        have h2 : G.n = n := by
          have := C.read "len(fl)" (by simp [waterReads, waterCommon])
          rw [G.hn, Option.some_inj, C.len] at this
          exact_mod_cast congrFun this 0
        rw [← h1]
        exact (G.pos i (h2 ▸ hi)).2.1
      have : 0 < c "reftline" 0 / T := div_pos C.reft.1 hT0
      unfold strength
      positivity
    have hl : 0 ≤ lineAbsorption m (vapourDensity T e) (Spec.lineSum m c n T (dryPressure m T p e) (vapourPressure m T e) f) := by
      unfold lineAbsorption
      split_ifs <;> positivity
    rw [← key] at hl
    have hlog : 0 < log 10 / 10 := div_pos (log_pos (by norm_num)) (by norm_num)
    have h1 := nonneg_of_mul_nonneg_left hl hlog
    exact nonneg_of_mul_nonneg_left h1 (by positivity)
  · obtain ⟨ht, hr, hpv, hpd, hden⟩ := waterAir_props m hp hvx he
    have hdb0 := db2np_pos
    by_cases hM : m = "MWL24"
    · subst hM
      obtain ⟨n, hn⟩ := file_len hF
      obtain ⟨c, hc⟩ : ∃ c : String → ℕ → ℝ, ∀ a v, F a = some v → c a = v :=
        ⟨fun a => (F a).getD 0, fun a v h => by simp [h]⟩
      have key := C98_dimers hF old (⟨hc, hn⟩ : WaterColumns F c n) hp hT0 he hf h
      obtain ⟨e1, e2, e3, e4⟩ := waterAir_formula hF p e hvx
      rw [e3, inverse_temperature hT0] at hpv
      rw [e4, inverse_temperature hT0] at hpd
      have hD := dimerContinuum_pos hT hT' hf
      have hpos : 0 < ncpp * (0.182 * f) * (log 10 / 10) := by
        rw [key]
        positivity
      have hlog : 0 < log 10 / 10 := div_pos (log_pos (by norm_num)) (by norm_num)
      have h1 := (mul_pos_iff_of_pos_right hlog).1 hpos
      exact (mul_pos_iff_of_pos_right (by positivity)).1 h1
    · obtain ⟨s, hs⟩ : ∃ s, waterSum m (reloadLL F old) (waterAir m p (300.0 / T) e) f = .ok (some s) := by
        obtain ⟨n, hn⟩ := file_len hF
        exact ⟨_, waterSum_formula hF (columns_of_file hF old (c := fun a => (F a).getD 0) (fun a v h => by simp [h]) hn) f ht
          hpv hpd⟩
      obtain ⟨-, con, k, h1, h2, h3⟩ := h2o_parts hvx hr.ne' (by positivity) hs h
      have hk : 0 < k := by
        by_cases hN : m ∈ ["R23SD", "R24"]
        · rw [if_pos hN] at h2
          obtain ⟨q, q1, q2⟩ := C36_new_models (p := p) (vx := 300.0 / T) hN hF old hp
            (by rw [le_div_iff₀ hT0]; norm_num; linarith) (by rw [div_le_iff₀ hT0]; norm_num; linarith) he hf (hfm hN)
          rw [q1] at h2
          cases h2
          exact q2
        · rw [if_neg hN] at h2
          obtain ⟨G⟩ := goodLines_of_file hF old
          obtain ⟨q, q1, q2⟩ := waterCon_pos (m := m) (vx := 300.0 / T) (f := f) G (file_cs hF hN old G.hcs) hM ht hpv hpd hf
          rw [q1] at h1
          cases h1
          cases h2
          exact q2
      rw [h3]
      positivity

/-- Case: R24 at the centre of the 183 GHz line, and in its wing, 1000 hPa of dry air, 10 hPa of vapour, 280 K. -/
example : ∃ F, waterFile "R24" = some F ∧ (∃ n c, h2oAbsorption "R24" (reloadLL F fun _ => none) 100 (300.0 / 280) 1 183.31 =
    .ok (some (n, c)) ∧ 0 ≤ n ∧ 0 < c) ∧ ∃ n c, h2oAbsorption "R24" (reloadLL F fun _ => none) 100 (300.0 / 280) 1 186.31 =
    .ok (some (n, c)) ∧ 0 ≤ n ∧ 0 < c := by
  obtain ⟨F, hF⟩ : ∃ F, waterFile "R24" = some F := ⟨_, rfl⟩
  exact ⟨F, hF, C115_routine hF _ (by norm_num) (by norm_num) (by norm_num) (by norm_num) (by norm_num) (by norm_num)
    (by norm_num) (fun _ => by norm_num [ckdStep]), C115_routine hF _ (by norm_num) (by norm_num) (by norm_num) (by norm_num)
    (by norm_num) (by norm_num) (by norm_num) (fun _ => by norm_num [ckdStep])⟩

/-- **C115.** One level of the simulator: with vapour in the air the reported absorption by water vapour is positive.  The
rest of the call (oxygen, nitrogen, ozone) is arbitrary. -/
theorem C115_level {m : String} {W : LineList} (hW : waterFile m = some W) {g : Globals} (hg : g.sel.h2o = some m)
    {old : LineList} (hl : g.h2oll = reloadLL W old) {o3 : Option Val} {p T e f : ℝ} {i : ℕ} {r : ℝ × ℝ} (hT : 200 ≤ T)
    (hT' : T ≤ 330) (hp' : p ≤ 1100) (he : 0 < e) (hep : e ≤ p) (he' : e ≤ 500) (hf : 0 < f)
    (hfm : m ∈ ["R23SD", "R24"] → f < 4 * ckdStep) (h : clearLevel shipped g o3 p T e f i = .ok r) : 0 < r.1 := by
  have e10 : ∀ x : ℝ, x / 10.0 = x / 10 := fun x => by norm_num
  obtain ⟨a, b, hab, ha, hb⟩ := C115_routine (p := p / 10.0 - e / 10.0) (e := e / 10.0) hW old hT hT'
    (by rw [e10, e10]; linarith) (by rw [e10, e10]; linarith) (by rw [e10]; positivity) (by rw [e10]; linarith) hf hfm
  unfold clearLevel at h
  rw [hg] at h
  have hsh : shipped.h2o m g.h2oll (p / 10.0 - e / 10.0) (300.0 / T) (e / 10.0) f = .ok (a, b) := by
    rw [hl]; exact finite_some hab
  have hdb0 := db2np_pos
  cases ho : g.sel.o2 with
  | none => rw [ho] at h; cases h
  | some mo =>
    rw [ho] at h
    simp only [hsh, bind, Except.bind] at h
    split at h
    · cases h
    · split at h
      · cases h
      · split at h
        · cases h
        · cases h
          show 0 < 0.182 * f * (a + b) * db2np
          positivity

/-- Air in the range of C115. -/
structure Warm (S : Settings) : Prop where
  tk : ∀ i < S.nl, 200 ≤ S.tk i ∧ S.tk i ≤ 330
  p : ∀ i < S.nl, S.p i ≤ 1100
  rh : ∀ i < S.nl, 0 < S.rh i
  vapour : ∀ i < S.nl, S.rh i * eswat (S.tk i) ≤ S.p i ∧ S.rh i * eswat (S.tk i) ≤ 500

/-- **C115.** A run of the simulator in plane geometry, with any model: the absorption by water vapour reported for every
level, the opacity of every layer and the total opacity of water vapour are positive. -/
theorem C115_run {m : String} {W : LineList} (hW : waterFile m = some W) {g : Globals} (hg : g.sel.h2o = some m) {I : Inst}
    {rows : List Row} (h : (execute shipped g I).1 = .ok rows) (hice : I.set.ice = false) (hamu : I.set.amu = none)
    (hray : I.set.rayTracing = false) (hn : 2 ≤ I.set.nl) (hz : ∀ i, i + 1 < I.set.nl → I.set.z i < I.set.z (i + 1))
    (hM : Warm I.set) {j k : ℕ} (hj : j < I.set.nf) (hk : k < I.set.nang) (hf : 0 < I.set.frq j)
    (hfm : m ∈ ["R23SD", "R24"] → I.set.frq j < 4 * ckdStep) (ha : 0 < I.set.angles k) (ha' : I.set.angles k < 180) :
    let c := (execute shipped g I).2.out.cell j k
    (∀ i < I.set.nl, 0 < c.awet i) ∧
    ∃ w f, c.sptauwet = some w ∧ c.ptauwet = some f ∧ 0 < w ∧ ∀ i, 1 ≤ i → i < I.set.nl → 0 < f i := by
  intro c
  obtain ⟨g1, e, rho, hl, hv, -, hc⟩ := (execute_ok h).ex
  obtain ⟨e0, rho0, q1, q2⟩ := vapor_eq (S := I.set) hice
  rw [hv] at q1; cases q1
  have hg1 : g1.sel.h2o = some m ∧ ∃ old, g1.h2oll = reloadLL W old := by
    unfold initLineList at hl
    simp only [shipped, hg, Option.bind_some, hW] at hl
    split at hl
    · cases hl
    · cases hl
      exact ⟨hg, _, rfl⟩
  obtain ⟨hg1, old, hll⟩ := hg1
  obtain ⟨es, -, hstep⟩ := (hc k hk).2 j hj
  have hs := sin_pos_of_angle ha ha'
  rw [pathOf_plane hray hs.ne', cellGlobals_amu hamu] at hstep
  have ok := cellStep_ok hstep
  obtain ⟨a, a1, a2, -, a4, -⟩ := ok.clear
  have key : ∀ i < I.set.nl, 0 < (a i).1 := fun i hi => by
    have l := (tabulateE_ok a1).1 i hi
    obtain ⟨t1, t2⟩ := hM.tk i hi
    obtain ⟨v1, v2⟩ := hM.vapour i hi
    have r0 := hM.rh i hi
    have es0 := eswat_pos (I.set.tk i)
    have ee : e i = I.set.rh i * eswat (I.set.tk i) := q2 i
    rw [← ee] at v1 v2
    exact C115_level hW (by exact hg1) (by exact hll) t1 t2 (hM.p i hi) (by rw [ee]; positivity) v1 v2 hf hfm l
  have hd : ∀ i, 1 ≤ i → i < I.set.nl → 0 < (if i = 0 then (0 : ℝ) else
      (I.set.z i - I.set.z (i - 1)) * (1 / sin (I.set.angles k * π / 180))) := fun i h1 hi => by
    rw [if_neg (by omega)]
    have := hz (i - 1) (by omega)
    rw [show i - 1 + 1 = i by omega] at this
    exact mul_pos (by linarith) (by positivity)
  simp only [integ] at a4
  have hx : ∀ i < I.set.nl, 0 ≤ (fun i => (a i).1) i := fun i hi => (key i hi).le
  obtain ⟨s, xds, h1, h2⟩ := C15_sum (z := true) (ds := fun i => if i = 0 then (0 : ℝ) else
      (I.set.z i - I.set.z (i - 1)) * (1 / sin (I.set.angles k * π / 180))) (factor := 1) (show 1 ≤ I.set.nl by omega) hx
  rw [h1] at a4
  have pos : ∀ i, 1 ≤ i → i < I.set.nl → 0 < xds i := fun i i1 i2 => by
    have b := (C14_between (by omega) hx h1 i1 (by omega) i2 (hd i i1 i2).le).1
    exact lt_of_lt_of_le (mul_pos (lt_min (key (i - 1) (by omega)) (key i i2)) (hd i i1 i2)) b
  have nn : ∀ i, 0 ≤ xds i := C15_nonneg (fun i hi => by
    rcases Nat.eq_zero_or_pos i with h0 | h0
    · rw [if_pos h0]
    · exact (hd i h0 hi).le) h1
  have hs0 : 0 < s := by
    rw [h2, one_mul]
    exact Finset.sum_pos' (fun i _ => nn i) ⟨1, Finset.mem_range.2 (by omega), pos 1 le_rfl (by omega)⟩
  have a5 := Prod.mk.inj (Except.ok.inj a4)
  refine ⟨fun i hi => ?_, s, xds, a5.1.symm, a5.2.symm, hs0, pos⟩
  simp only [c, a2]
  exact key i hi

theorem moistS_warm : Warm (moistS 0.5) where
  tk := moistS_moist.tk
  p i hi := (moistS_moist.p i hi).2
  rh i hi := (moistS_moist.rh i hi).1
  vapour i hi := by
    have h1 := moistS_moist.vapour i hi
    have h2 := moistS_moist.p i hi
    have h3 := eswat_pos ((moistS 0.5).tk i)
    have h4 : (moistS 0.5).rh i = 0.5 := rfl
    rw [h4]
    constructor <;> linarith

/-- Three levels at 50 per cent humidity, 22 and 23 GHz, both angles, with each of the three speed-dependent models that
`init_absmdl` accepts for all gases. -/
example (m : String) (hm : m ∈ ["R19SD", "R20SD", "R24"]) (j k i : ℕ) (hj : j < 2) (hk : k < 2) (hi : i < 3) :
    (∃ rows, (execute shipped (selected Globals.init m) ⟨moistS 0.5, Store.zero⟩).1 = .ok rows) ∧
    0 < ((execute shipped (selected Globals.init m) ⟨moistS 0.5, Store.zero⟩).2.out.cell j k).awet i := by
  have good := moistS_good (r := 0.5) (by norm_num) (by norm_num)
  obtain ⟨rows, h⟩ := (C32_init_absmdl m Globals.init (I := ⟨moistS 0.5, Store.zero⟩) good rfl
      (fun h => by simp [ozoneActive, Globals.init] at h) (realS_frq false)).1 (by
        simp only [List.mem_cons, List.not_mem_nil, or_false] at hm ⊢; tauto)
  obtain ⟨W, hW⟩ := Option.isSome_iff_exists.1 ((C35_names m).2 (by
    simp only [List.mem_cons, List.not_mem_nil, or_false] at hm ⊢; tauto))
  exact ⟨⟨rows, h⟩, (C115_run hW (g := selected Globals.init m) rfl (I := ⟨moistS 0.5, Store.zero⟩) h rfl rfl rfl
    (show 2 ≤ 3 by decide) (fun i _ => by simp [moistS, realS, demoS]) moistS_warm hj hk (good.frq j hj)
    (fun _ => realS_frq false j hj) (demo_angles k hk).1 (demo_angles k hk).2).1 i hi⟩

/-- One level with MWL24, at 1000 hPa, 290 K, 10 hPa of vapour, 22.235 GHz. -/
example {g : Globals} {W : LineList} {r : ℝ × ℝ} (hW : waterFile "MWL24" = some W) (hg : g.sel.h2o = some "MWL24")
    (hl : g.h2oll = reloadLL W Globals.init.h2oll) (h : clearLevel shipped g none 1000 290 10 22.235 0 = .ok r) : 0 < r.1 :=
  C115_level hW hg hl (by norm_num) (by norm_num) (by norm_num) (by norm_num) (by norm_num) (by norm_num) (by norm_num)
    (fun h => absurd h (by decide)) h

end Verif.Props
