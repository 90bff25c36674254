import Verif.Props.Water
import Verif.Props.OxygenFormula
import Verif.Props.Dispatch

/-!
# C88: model names that stand for the same absorption
-/

namespace Verif.Props

open Verif.Model Verif.Py Verif.Lemmas Verif.Spec Real

/-! ## Water vapour -/

theorem file_R17 : waterFile "R17" = waterFile "R16" := by
  have h1 : waterGroups.lookup "R17" = some waterR17 := rfl
  have h2 : waterGroups.lookup "R16" = some waterR16 := rfl
  have h3 : waterR17 = waterR16 := rfl
  have h4 : waterAssign "R17" = waterAssign "R16" := by decide
  unfold waterFile
  rw [h1, h2, h3, h4]

theorem file_R24 : waterFile "R24" = waterFile "R23SD" := by
  have h1 : waterGroups.lookup "R24" = some waterR24 := rfl
  have h2 : waterGroups.lookup "R23SD" = some waterR23SD := rfl
  have h3 : waterR24 = waterR23SD := rfl
  have h4 : waterAssign "R24" = waterAssign "R23SD" := by decide
  unfold waterFile
  rw [h1, h2, h3, h4]

theorem sum_R24 (ll : LineList) (A : WaterAir) (f : ℝ) : waterSum "R24" ll A f = waterSum "R23SD" ll A f := by
  have h1 : isSD "R24" = true := by decide +kernel
  have h2 : isSD "R23SD" = true := by decide +kernel
  unfold waterSum
  rw [if_pos h1, if_pos h2]
  unfold waterSumSD
  simp only [newSD, show ("R24" = "R20SD") = False by decide, show ("R23SD" = "R20SD") = False by decide,
    show ("R24" ∈ ["R21SD", "R22SD", "R23SD", "R24", "MWL24"]) = True by decide,
    show ("R23SD" ∈ ["R21SD", "R22SD", "R23SD", "R24", "MWL24"]) = True by decide]

theorem sum_R22SD (ll : LineList) (A : WaterAir) (f : ℝ) : waterSum "R22SD" ll A f = waterSum "R23SD" ll A f := by
  have h1 : isSD "R22SD" = true := by decide +kernel
  have h2 : isSD "R23SD" = true := by decide +kernel
  unfold waterSum
  rw [if_pos h1, if_pos h2]
  unfold waterSumSD
  simp only [newSD, show ("R22SD" = "R20SD") = False by decide, show ("R23SD" = "R20SD") = False by decide,
    show ("R22SD" ∈ ["R21SD", "R22SD", "R23SD", "R24", "MWL24"]) = True by decide,
    show ("R23SD" ∈ ["R21SD", "R22SD", "R23SD", "R24", "MWL24"]) = True by decide]

theorem sum_R17 (ll : LineList) (A : WaterAir) (f : ℝ) : waterSum "R17" ll A f = waterSum "R16" ll A f := by
  have h1 : isSD "R17" = false := by decide +kernel
  have h2 : isSD "R16" = false := by decide +kernel
  unfold waterSum
  rw [h1, h2]
  simp only [Bool.false_eq_true, if_false]
  rw [if_pos (by decide), if_pos (by decide)]
  unfold waterSumOld
  simp only [show ("R17" = "R98") = False by decide, show ("R16" = "R98") = False by decide,
    show ("R17" = "R03") = False by decide, show ("R16" = "R03") = False by decide]

theorem h2o_R24 (ll : LineList) (p vx e f : ℝ) : h2oAbsorption "R24" ll p vx e f = h2oAbsorption "R23SD" ll p vx e f := by
  have hA : waterAir "R24" p vx e = waterAir "R23SD" p vx e := by simp [waterAir]
  have hcon (A : WaterAir) : waterCon "R24" ll A vx f = waterCon "R23SD" ll A vx f := by
    unfold waterCon
    simp only [show ("R24" ∈ ["R03", "R98"]) = False by decide, show ("R23SD" ∈ ["R03", "R98"]) = False by decide,
      show ("R24" = "MWL24") = False by decide, show ("R23SD" = "MWL24") = False by decide]
  have hu (A : WaterAir) (s c : ℝ) : waterUnits "R24" A s c = waterUnits "R23SD" A s c := by
    unfold waterUnits
    rw [if_neg (by decide), if_pos rfl, if_pos (by decide)]
    congr 2
    have : h2oMass ≠ 0 := by unfold h2oMass; norm_num
    have := Real.pi_ne_zero
    generalize (1e-10 : ℝ) = u
    field_simp
  unfold h2oAbsorption
  rw [hA]
  simp only [hcon, hu, sum_R24, show ("R24" ∈ ["R23SD", "R24"]) = True by decide,
    show ("R23SD" ∈ ["R23SD", "R24"]) = True by decide]

/-- **C88.** R23SD and R24 are the same water vapour model: both results agree at every pressure, temperature, humidity and
frequency (including failures). -/
theorem C88_R24 {F F' : LineList} (hF : waterFile "R23SD" = some F) (hF' : waterFile "R24" = some F')
    (old old' : LineList) (p vx e f : ℝ) :
    h2oAbsorption "R24" (reloadLL F' old') p vx e f = h2oAbsorption "R23SD" (reloadLL F old) p vx e f := by
  have : F' = F := by rw [file_R24, hF, Option.some_inj] at hF'; exact hF'.symm
  subst this
  rw [h2o_R24]
  exact C39_water hF _ _ p vx e f

/-- **C88.** R17 has the continuum of R16, and its line absorption times 3344/3335. -/
theorem C88_R17 {F F' : LineList} (hF : waterFile "R16" = some F) (hF' : waterFile "R17" = some F')
    (old old' : LineList) (p vx e f : ℝ) :
    h2oAbsorption "R17" (reloadLL F' old') p vx e f =
      (h2oAbsorption "R16" (reloadLL F old) p vx e f).map (Option.map fun r => (3344 / 3335 * r.1, r.2)) := by
  have : F' = F := by rw [file_R17, hF, Option.some_inj] at hF'; exact hF'.symm
  subst this
  rw [C39_water hF' old' old]
  generalize reloadLL F' old = ll
  have hA : waterAir "R17" p vx e = { waterAir "R16" p vx e with den := 3344 / 3335 * (waterAir "R16" p vx e).den } := by
    simp only [waterAir, List.mem_cons, List.not_mem_nil, or_false, show ("R17" = "R03") = False by decide,
      show ("R17" = "R16") = False by decide, show ("R17" = "R98") = False by decide,
      show ("R16" = "R03") = False by decide, show ("R16" = "R17") = False by decide,
      show ("R16" = "R22SD") = False by decide, show ("R16" = "R23SD") = False by decide,
      show ("R16" = "R24") = False by decide, show ("R16" = "MWL24") = False by decide,
      show ("R17" = "R22SD") = False by decide, show ("R17" = "R23SD") = False by decide,
      show ("R17" = "R24") = False by decide, show ("R17" = "MWL24") = False by decide, or_true, or_false, true_or,
      false_or, if_true, if_false, WaterAir.mk.injEq, true_and]
    rw [← mul_assoc]
    norm_num
  have hcon (A : WaterAir) (d : ℝ) : waterCon "R17" ll { A with den := d } vx f = waterCon "R16" ll A vx f := by
    unfold waterCon
    simp only [show ("R17" ∈ ["R03", "R98"]) = False by decide, show ("R16" ∈ ["R03", "R98"]) = False by decide,
      show ("R17" = "MWL24") = False by decide, show ("R16" = "MWL24") = False by decide]
  have hsum (A : WaterAir) (d : ℝ) : waterSum "R17" ll { A with den := d } f = waterSum "R16" ll A f := by
    rw [sum_R17]
    unfold waterSum
    rw [show isSD "R16" = false by decide +kernel]
    simp only [Bool.false_eq_true, if_false]
    rw [if_pos (by decide), if_pos (by decide)]
    rfl
  have hu (A : WaterAir) (k s c : ℝ) :
      waterUnits "R17" { A with den := k * A.den } s c = (waterUnits "R16" A s c).map (k * ·) := by
    unfold waterUnits
    rw [if_neg (by decide), if_neg (by decide), if_neg (by decide), if_neg (by decide)]
    unfold npDiv
    split_ifs
    · rfl
    · simp only [Option.map_some, Option.some_inj]; ring
  unfold h2oAbsorption
  rw [hA]
  by_cases hv : 0 < vx
  · simp only [if_pos hv]
    by_cases hr : (waterAir "R16" p vx e).rho = 0
    · simp [hr, Except.map]
    · simp only [hr, if_false, show ("R17" ∈ ["R23SD", "R24"]) = False by decide,
        show ("R16" ∈ ["R23SD", "R24"]) = False by decide, hcon, hsum, hu]
      cases waterCon "R16" ll (waterAir "R16" p vx e) vx f with
      | error x => rfl
      | ok con =>
        cases waterSum "R16" ll (waterAir "R16" p vx e) f with
        | error x => rfl
        | ok summ =>
          simp only [Except.map, bind, Except.bind, pure, Except.pure]
          cases con <;> cases summ <;> try rfl
          rename_i con summ
          simp only [Option.bind_some]
          cases waterUnits "R16" (waterAir "R16" p vx e) summ (0.182 * f) <;> try rfl
          simp only [Option.map_some, Option.bind_some]
          cases npDiv (con / db2np) (0.182 * f) <;> rfl
  · simp [hv, Except.map]

theorem file_R22SD {F F' : LineList} (hF : waterFile "R22SD" = some F) (hF' : waterFile "R23SD" = some F') {a : String}
    (ha : a ∉ ["reftcon", "cf", "xcf", "cs", "xcs"]) : F a = F' a := by
  have h1 : waterGroups.lookup "R22SD" = some waterR22SD := rfl
  have h2 : waterGroups.lookup "R23SD" = some waterR23SD := rfl
  have h4 : waterAssign "R22SD" = waterAssign "R23SD" := by decide
  have h3 (s : Src) (hs : ∀ c, s ≠ .ctr c) : s.val waterR22SD = s.val waterR23SD := by
    cases s with
    | col c => rfl
    | milli c => rfl
    | ctr c => exact absurd rfl (hs c)
    | reft => rfl
    | extra c => rfl
    | rows => rfl
  unfold waterFile at hF hF'
  rw [h1, Option.map_some, Option.some_inj] at hF
  rw [h2, Option.map_some, Option.some_inj] at hF'
  subst hF
  subst hF'
  show (lastAssign (waterAssign "R22SD") a).bind _ = (lastAssign (waterAssign "R23SD") a).bind _
  rw [h4]
  cases hl : lastAssign (waterAssign "R23SD") a with
  | none => rfl
  | some s =>
    rw [Option.bind_some, Option.bind_some]
    refine h3 s fun c hc => ha ?_
    subst hc
    have key : ∀ e ∈ waterAssign "R23SD", (match e.2 with | .ctr _ => true | _ => false) = true →
        e.1 ∈ ["reftcon", "cf", "xcf", "cs", "xcs"] := by decide
    unfold lastAssign at hl
    obtain ⟨e, he, h⟩ := Option.map_eq_some_iff.1 hl
    have hm := List.mem_of_find?_eq_some he
    have hp := List.find?_some he
    simp only [decide_eq_true_eq] at hp
    rw [← hp]
    exact key e (List.mem_reverse.1 hm) (by rw [h])

theorem units_R22SD (A : WaterAir) (s c : ℝ) : waterUnits "R22SD" A s c = waterUnits "R23SD" A s c := by
  unfold waterUnits
  rw [if_pos (by decide), if_pos (by decide)]

/-- The first number of a result is the line sum in the units of the model. -/
theorem h2o_lines {m : String} {ll : LineList} {p vx e f : ℝ} {r : ℝ × ℝ}
    (h : h2oAbsorption m ll p vx e f = .ok (some r)) :
    (waterAir m p vx e).rho = 0 ∧ r.1 = 0 ∨ (waterAir m p vx e).rho ≠ 0 ∧ ∃ s, waterSum m ll (waterAir m p vx e) f = .ok (some s) ∧
      waterUnits m (waterAir m p vx e) s (0.182 * f) = some r.1 := by
  unfold h2oAbsorption at h
  by_cases hv : 0 < vx
  · simp only [if_pos hv] at h
    by_cases hr : (waterAir m p vx e).rho = 0
    · simp only [if_pos hr, Except.ok.injEq, Option.some.injEq] at h
      exact .inl ⟨hr, by rw [← h]⟩
    · rw [if_neg hr] at h
      refine .inr ⟨hr, ?_⟩
      cases hc : waterCon m ll (waterAir m p vx e) vx f with
      | error x => rw [hc] at h; simp [bind, Except.bind] at h
      | ok con =>
        rw [hc] at h
        simp only [bind, Except.bind] at h
        cases hn : (if m ∈ ["R23SD", "R24"] then waterConNew ll (waterAir m p vx e) vx f else .ok con : Except PyErr (Option ℝ)) with
        | error x => rw [hn] at h; simp at h
        | ok con' =>
          rw [hn] at h
          cases hs : waterSum m ll (waterAir m p vx e) f with
          | error x => rw [hs] at h; simp at h
          | ok s =>
            rw [hs] at h
            simp only [pure, Except.pure, Except.ok.injEq] at h
            cases con' with
            | none => cases h
            | some c =>
            cases s with
            | none => cases h
            | some s =>
            simp only [Option.bind_some] at h
            cases hu : waterUnits m (waterAir m p vx e) s (0.182 * f) with
            | none => rw [hu] at h; cases h
            | some u =>
            rw [hu, Option.bind_some] at h
            cases hw : npDiv (c / db2np) (0.182 * f) with
            | none => rw [hw] at h; cases h
            | some w =>
            rw [hw] at h
            cases h
            exact ⟨s, rfl, hu⟩
  · rw [if_neg hv] at h; cases h

/-- **C88.** R22SD and R23SD (hence R24) have the same line absorption; they differ in the continuum only. -/
theorem C88_R22SD {F F' : LineList} (hF : waterFile "R22SD" = some F) (hF' : waterFile "R23SD" = some F')
    (old old' : LineList) {p vx e f : ℝ} {r r' : ℝ × ℝ}
    (h : h2oAbsorption "R22SD" (reloadLL F old) p vx e f = .ok (some r))
    (h' : h2oAbsorption "R23SD" (reloadLL F' old') p vx e f = .ok (some r')) : r.1 = r'.1 := by
  have hA : waterAir "R22SD" p vx e = waterAir "R23SD" p vx e := by simp [waterAir]
  have hs : waterSum "R22SD" (reloadLL F old) (waterAir "R22SD" p vx e) f =
      waterSum "R23SD" (reloadLL F' old') (waterAir "R23SD" p vx e) f := by
    rw [sum_R22SD, hA]
    refine waterSum_congr (fun a ha hn => ?_) _ f
    have ha' : a ∈ waterReads "R22SD" := by
      have : waterReads "R22SD" = waterReads "R23SD" := by decide +kernel
      rw [this]; exact ha
    obtain ⟨v, h1, h2⟩ := file_reads hF old a ha'
    obtain ⟨v', h3, h4⟩ := file_reads hF' old' a ha
    rw [file_R22SD hF hF' hn, h3] at h1
    rw [attr_some h2, attr_some h4, Option.some_inj.1 h1]
  rcases h2o_lines h with ⟨h1, h2⟩ | ⟨h1, s, h2, h3⟩
  · rcases h2o_lines h' with ⟨-, h4⟩ | ⟨h4, -⟩
    · rw [h2, h4]
    · exact absurd (hA ▸ h1) h4
  · rcases h2o_lines h' with ⟨h4, -⟩ | ⟨-, s', h4, h5⟩
    · exact absurd (hA ▸ h4) h1
    · rw [hs, h4] at h2
      cases h2
      rw [units_R22SD, hA, h5, Option.some_inj] at h3
      exact h3.symm

/-! ## Oxygen -/

theorem oxyFile_R18 : oxygenFile "R18" = oxygenFile "R17" := by
  have h1 : oxygenGroups.lookup "R18" = some oxygenR18 := rfl
  have h2 : oxygenGroups.lookup "R17" = some oxygenR17 := rfl
  have h3 : oxygenR18 = oxygenR17 := rfl
  have h4 : oxygenAssign "R18" = oxygenAssign "R17" := by decide
  unfold oxygenFile
  rw [h1, h2, h3, h4]

theorem oxyFile_R19 : oxygenFile "R19" = oxygenFile "R18" := by
  have h1 : oxygenGroups.lookup "R19" = some oxygenR19 := rfl
  have h2 : oxygenGroups.lookup "R18" = some oxygenR18 := rfl
  have h3 : oxygenR19 = oxygenR18 := rfl
  have h4 : oxygenAssign "R19" = oxygenAssign "R18" := by decide
  unfold oxygenFile
  rw [h1, h2, h3, h4]

theorem oxyFile_R19SD : oxygenFile "R19SD" = oxygenFile "R19" := by
  have h1 : oxygenGroups.lookup "R19SD" = some oxygenR19SD := rfl
  have h2 : oxygenGroups.lookup "R19" = some oxygenR19 := rfl
  have h3 : oxygenR19SD = oxygenR19 := rfl
  have h4 : oxygenAssign "R19SD" = oxygenAssign "R19" := by decide
  unfold oxygenFile
  rw [h1, h2, h3, h4]

theorem oxyFile_R20SD : oxygenFile "R20SD" = oxygenFile "R20" := by
  have h1 : oxygenGroups.lookup "R20SD" = some oxygenR20SD := rfl
  have h2 : oxygenGroups.lookup "R20" = some oxygenR20 := rfl
  have h3 : oxygenR20SD = oxygenR20 := rfl
  have h4 : oxygenAssign "R20SD" = oxygenAssign "R20" := by decide
  unfold oxygenFile
  rw [h1, h2, h3, h4]

/-- The pairs of names. -/
def oxygenTwins : List (String × String) := [("R17", "R18"), ("R19", "R19SD"), ("R20", "R20SD")]

/-- **C88.** As oxygen models R17 and R18, R19 and R19SD, R20 and R20SD are the same: both results agree at every pressure,
temperature, humidity and frequency. -/
theorem C88_oxygen {m m' : String} (hm : (m, m') ∈ oxygenTwins) {F F' : LineList} (hF : oxygenFile m = some F)
    (hF' : oxygenFile m' = some F') (old old' : LineList) (p vx e f : ℝ) :
    o2Absorption m' (reloadLL F' old') p vx e f = o2Absorption m (reloadLL F old) p vx e f := by
  simp only [oxygenTwins, List.mem_cons, Prod.mk.injEq, List.not_mem_nil, or_false] at hm
  rcases hm with ⟨rfl, rfl⟩ | ⟨rfl, rfl⟩ | ⟨rfl, rfl⟩
  · have : F' = F := by rw [oxyFile_R18, hF, Option.some_inj] at hF'; exact hF'.symm
    subst this
    rw [C39_oxygen hF old old']
    simp [o2Absorption, oxyAir, oxySum, oxyApart, oxyAbs, oxyCon, oxyWhole]
  · have : F' = F := by rw [oxyFile_R19SD, hF, Option.some_inj] at hF'; exact hF'.symm
    subst this
    rw [C39_oxygen hF old old']
    simp [o2Absorption, oxyAir, oxySum, oxyApart, oxyAbs, oxyWhole]
  · have : F' = F := by rw [oxyFile_R20SD, hF, Option.some_inj] at hF'; exact hF'.symm
    subst this
    rw [C39_oxygen hF old old']
    simp [o2Absorption, oxyAir, oxySum, oxyApart, oxyAbs, oxyWhole]

/-- **C88.** In dry air R19 differs from R18 only in the accounting: R18 returns resonant and non-resonant absorption
separately, R19 their sum.  The sums agree unless R18 cut off a negative resonant part; then R19 is not above R18. -/
theorem C88_R19_dry {F F' : LineList} (hF : oxygenFile "R18" = some F) (hF' : oxygenFile "R19" = some F')
    (old old' : LineList) {p vx f : ℝ} (hp : 0 < p) (hv : 0 < vx) (hf : 0 < f) :
    ∃ a b a', o2Absorption "R18" (reloadLL F old) p vx 0 f = .ok (some (a, b)) ∧
      o2Absorption "R19" (reloadLL F' old') p vx 0 f = .ok (some (a', 0)) ∧ 0 ≤ a ∧ 0 < b ∧ a' ≤ a + b ∧
      (0 < a → a' = a + b) := by
  have : F' = F := by rw [oxyFile_R19, hF, Option.some_inj] at hF'; exact hF'.symm
  subst this
  obtain ⟨n, hn⟩ : ∃ n : ℕ, F' "len(f)" = some fun _ => (n : ℝ) := by
    obtain ⟨T, -, rfl⟩ := oxygenFile_some hF
    obtain ⟨u, hu, -⟩ := oxyFile_reads hF (fun _ => none) "len(f)" (by decide)
    simp only [if_true] at hu ⊢
    obtain ⟨c, hc, -⟩ := Option.map_eq_some_iff.1 hu
    exact ⟨c.digits.length, by rw [hc]; rfl⟩
  have hc (a : String) (v : Val) (h : F' a = some v) : (fun a => (F' a).getD 0) a = v := by simp [h]
  have hw := (oxyColumns_of_file hF old hc hn).wb
  have hv0 (m : String) : oxyVapour m (300 / vx) 0 = 0 := by simp [oxyVapour, vapourDensity]
  obtain ⟨a, b, h1, h2, h3⟩ := C69_oxygen (m := "R18") (by decide) hF old hc hn hp.le hv le_rfl (by linarith) hf
    (hv0 _).symm rfl rfl
  obtain ⟨a', b', h4, h5, h6⟩ := C69_oxygen (m := "R19") (by decide) hF' old' hc hn hp.le hv le_rfl (by linarith) hf
    (hv0 _).symm rfl rfl
  have hd : broadening "R19" ((fun a => (F' a).getD 0) "x" 0) vx (10 * p + 10 * 0 - 0) 0 =
      broadening "R18" ((fun a => (F' a).getD 0) "x" 0) vx (10 * p + 10 * 0 - 0) 0 := by simp [broadening]
  rw [hd] at h5 h6
  have hd0 : 0 < broadening "R18" ((fun a => (F' a).getD 0) "x" 0) vx (10 * p + 10 * 0 - 0) 0 := by
    simp only [broadening, String.reduceEq, if_false]
    have : 0 < vx ^ (fun a => (F' a).getD 0) "x" 0 := Real.rpow_pos_of_pos hv _
    simp only [mul_zero, add_zero, sub_zero, zero_mul]
    positivity
  generalize broadening "R18" ((fun a => (F' a).getD 0) "x" 0) vx (10 * p + 10 * 0 - 0) 0 = d at h2 h3 h5 h6 hd0
  have hl : oxyLines "R19" (fun a => (F' a).getD 0) n vx (10 * p + 10 * 0) d f =
      oxyLines "R18" (fun a => (F' a).getD 0) n vx (10 * p + 10 * 0) d f := by
    simp [oxyLines, mixing, mixing2, oxyCentre, secondOrder]
  rw [hl] at h5
  generalize oxyLines "R18" (fun a => (F' a).getD 0) n vx (10 * p + 10 * 0) d f = L at h2 h5
  beta_reduce at h3 h5 h6 hw
  generalize (F' "wb300").getD 0 0 = wb at h3 h5 h6 hw
  have hs18 : separateBand "R18" := by simp [separateBand]
  have hs19 : ¬separateBand "R19" := by simp [separateBand]
  have hu (m : String) (hm : m = "R18" ∨ m = "R19") : oxyUnits m = 1.6097e11 := by
    rcases hm with rfl | rfl <;> simp [oxyUnits]
  simp only [if_pos hs18, if_neg hs19, hu "R18" (.inl rfl), hu "R19" (.inr rfl), oxyFinish, String.reduceEq, or_self,
    if_false, add_zero, mul_zero, sub_zero] at h2 h3 h5 h6
  have hD : 0 < debye 1.584e-17 vx (wb * d) f := by
    unfold debye
    have := mul_pos hw hd0
    positivity
  generalize debye 1.584e-17 vx (wb * d) f = D at h3 h5 hD
  have hK : 0 < 1.6097e11 * (10 * p) * vx ^ 3 := by positivity
  generalize 1.6097e11 * (10 * p) * vx ^ 3 = K at h2 h3 h5 hK
  have hlog : (0 : ℝ) < log 10 := log_pos (by norm_num)
  have hQ : 0 < 0.182 * f * (log 10 / 10) := by positivity
  rw [mul_assoc] at h2 h3 h5 h6
  generalize 0.182 * f * (log 10 / 10) = Q at h2 h3 h5 h6 hQ
  have hb' : b' = 0 := by
    rcases mul_eq_zero.1 h6 with h | h
    · exact h
    · exact absurd h hQ.ne'
  subst hb'
  have hKD := mul_pos hK hD
  refine ⟨a, b, a', h1, h4, ?_, ?_, ?_, fun ha => ?_⟩
  · by_contra h
    have := mul_neg_of_neg_of_pos (not_le.1 h) hQ
    linarith [le_max_left 0 (K * L)]
  · by_contra h
    have := mul_nonpos_of_nonpos_of_nonneg (not_lt.1 h) hQ.le
    linarith
  · refine le_of_mul_le_mul_right ?_ hQ
    rw [h5, add_mul, h2, h3]
    refine max_le (by linarith [le_max_left 0 (K * L)]) ?_
    rw [mul_add]
    linarith [le_max_right 0 (K * L)]
  · have := mul_pos ha hQ
    rw [h2] at this
    have hL : 0 < K * L := by
      by_contra h
      rw [max_eq_left (not_lt.1 h)] at this
      exact lt_irrefl _ this
    refine mul_right_cancel₀ hQ.ne' ?_
    rw [h5, add_mul, h2, h3, max_eq_right hL.le, mul_add, max_eq_right (by linarith)]

/-! The files exist, and absorption is computed. -/

example : ∃ F F' r r', waterFile "R22SD" = some F ∧ waterFile "R23SD" = some F' ∧
    h2oAbsorption "R22SD" (reloadLL F F') 90 1 1 183 = .ok (some r) ∧
    h2oAbsorption "R23SD" (reloadLL F' F) 90 1 1 183 = .ok (some r') ∧ r.1 = r'.1 := by
  obtain ⟨F, hF⟩ := Option.isSome_iff_exists.1 ((C35_names "R22SD").2 (by decide))
  obtain ⟨F', hF'⟩ := Option.isSome_iff_exists.1 ((C35_names "R23SD").2 (by decide))
  obtain ⟨r, h⟩ := C32_water (p := 90) (vx := 1) (e := 1) (f := 183) hF F' (by norm_num) (by norm_num) (by norm_num)
    (by norm_num) (fun _ => by norm_num [ckdStep])
  obtain ⟨r', h'⟩ := C32_water (p := 90) (vx := 1) (e := 1) (f := 183) hF' F (by norm_num) (by norm_num) (by norm_num)
    (by norm_num) (fun _ => by norm_num [ckdStep])
  exact ⟨F, F', r, r', hF, hF', h, h', C88_R22SD hF hF' _ _ h h'⟩

/-- R16 and R17 differ. -/
example : ∃ F F' r r', waterFile "R16" = some F ∧ waterFile "R17" = some F' ∧
    h2oAbsorption "R16" (reloadLL F F') 90 1 1 183 = .ok (some r) ∧
    h2oAbsorption "R17" (reloadLL F' F) 90 1 1 183 = .ok (some r') ∧ r' = (3344 / 3335 * r.1, r.2) := by
  obtain ⟨F, hF⟩ := Option.isSome_iff_exists.1 ((C35_names "R16").2 (by decide))
  obtain ⟨F', hF'⟩ := Option.isSome_iff_exists.1 ((C35_names "R17").2 (by decide))
  obtain ⟨a, b, h, -⟩ := C35_nonneg (p := 90) (vx := 1) (e := 1) (f := 183) (by decide) hF F' (by norm_num) (by norm_num)
    (by norm_num) (by norm_num)
  exact ⟨F, F', (a, b), _, hF, hF', h, by rw [C88_R17 hF hF' F' F, h]; rfl, rfl⟩

example : ∃ F F', oxygenFile "R18" = some F ∧ oxygenFile "R19" = some F' ∧
    ∃ a b a', o2Absorption "R18" (reloadLL F F') 90 1 0 60 = .ok (some (a, b)) ∧
      o2Absorption "R19" (reloadLL F' F) 90 1 0 60 = .ok (some (a', 0)) ∧ 0 ≤ a ∧ 0 < b ∧ a' ≤ a + b ∧
      (0 < a → a' = a + b) := by
  obtain ⟨F, hF⟩ := Option.isSome_iff_exists.1 ((C37_names "R18").2 (by decide))
  obtain ⟨F', hF'⟩ := Option.isSome_iff_exists.1 ((C37_names "R19").2 (by decide))
  exact ⟨F, F', hF, hF', C88_R19_dry hF hF' _ _ (by norm_num) (by norm_num) (by norm_num)⟩

end Verif.Props
