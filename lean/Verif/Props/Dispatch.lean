import Verif.Model.Shipped
import Verif.Model.History
import Verif.Lemmas.Runs
import Verif.Lemmas.WaterSD
import Verif.Props.Simulator
import Verif.Props.Water
import Verif.Props.Continuum
import Verif.Props.Oxygen
import Verif.Props.Ozone
import Verif.Props.LiquidNitrogen
import Verif.Props.Cloud
import Verif.Props.Utils
import Verif.Props.Extrapolation

/-!
# C32: which absorption model names run
-/

namespace Verif.Props

open Verif.Model Verif.Py Verif.Lemmas Real

/-! ## The routines one by one -/

/-- C32: for every model name with a water vapour table the routine returns finite numbers, for all air temperatures,
pressures and humidities; R23SD and R24 only below 1199.17 GHz (see `C36_fails`). -/
theorem C32_water {m : String} {F : LineList} (hF : waterFile m = some F) (old : LineList) {p vx e f : ℝ} (hp : 0 ≤ p)
    (hv : 0 < vx) (he : 0 ≤ e) (hf : 0 < f) (hfm : m ∈ ["R23SD", "R24"] → f < 4 * ckdStep) :
    ∃ r, h2oAbsorption m (reloadLL F old) p vx e f = .ok (some r) := by
  rcases he.eq_or_lt with rfl | he
  · exact ⟨_, C35_dry _ _ _ _ hv⟩
  obtain ⟨G⟩ := goodLines_of_file hF old
  obtain ⟨ht, hr, hpv, hpd, hden⟩ := waterAir_props m hp hv he
  have htc : 0 < G.reftcon 0 / (waterAir m p vx e).t := div_pos G.preft.2.1 ht
  have htl : 0 < G.reftline 0 / (waterAir m p vx e).t := div_pos G.preft.1 ht
  have hq : 0.182 * f ≠ 0 := by positivity
  by_cases hpl : m ∈ ["R98", "R03", "R16", "R17", "R18", "R19", "R20"]
  · obtain ⟨n, c, h, -⟩ := C35_nonneg hpl hF old hp hv he hf
    exact ⟨_, h⟩
  have hsd : isSD m = true := by
    have := (C35_names m).1 (by simp [hF])
    simp only [List.mem_cons, List.not_mem_nil, or_false] at this hpl
    rcases this with rfl | rfl | rfl | rfl | rfl | rfl | rfl | rfl | rfl | rfl | rfl | rfl | rfl | rfl
    all_goals first | (exact absurd hpl (by decide)) | decide +kernel
  obtain ⟨s, hs⟩ := waterSumSD_some hsd hF old f ht hpv hpd
  have hsum : waterSum m (reloadLL F old) (waterAir m p vx e) f = .ok (some s) := by
    unfold waterSum
    rw [if_pos hsd, hs]
  have hcon : ∃ c, waterCon m (reloadLL F old) (waterAir m p vx e) vx f = .ok (some c) := by
    unfold waterCon
    simp only [attr_some G.hreftcon, attr_some G.hcf, attr_some G.hxcf, attr_some G.hcs, attr_some G.hxcs, bind,
      Except.bind, pure, Except.pure, fpow_of_pos htc, Option.map_some, Option.bind_some]
    split_ifs <;> exact ⟨_, rfl⟩
  obtain ⟨c, hc⟩ := hcon
  have hnew : ∃ c', (if m ∈ ["R23SD", "R24"] then waterConNew (reloadLL F old) (waterAir m p vx e) vx f
      else .ok (some c) : Except PyErr (Option ℝ)) = .ok (some c') := by
    by_cases hm : m ∈ ["R23SD", "R24"]
    · rw [if_pos hm]
      obtain ⟨-, hcs⟩ := newCon hm hF old G
      obtain ⟨g, -, hg⟩ := C36_continuous vx
      unfold waterConNew
      simp only [attr_some G.hreftline, attr_some G.hcf, attr_some G.hxcf, attr_some G.hcs, attr_some G.hxcs, bind,
        Except.bind, if_neg hcs, hg f hf.le (hfm hm), fpow_of_pos htl, pure, Except.pure, Option.map_some]
      exact ⟨_, rfl⟩
    · exact ⟨c, if_neg hm⟩
  obtain ⟨c', hc'⟩ := hnew
  have hun : ∃ n, waterUnits m (waterAir m p vx e) s (0.182 * f) = some n := by
    unfold waterUnits
    simp only [npDiv_of_ne hq]
    split_ifs <;> exact ⟨_, rfl⟩
  obtain ⟨n, hn⟩ := hun
  unfold h2oAbsorption
  rw [if_pos hv]
  simp only [if_neg hr.ne', hc, bind, Except.bind, hc', hsum, pure, Except.pure, Option.bind_some, hn, npDiv_of_ne hq]
  exact ⟨_, rfl⟩

/-- The newest model at the centre of the 183 GHz line. -/
example : ∃ F, waterFile "R24" = some F ∧
    ∃ r, h2oAbsorption "R24" (reloadLL F fun _ => none) 100 1 1 183.31 = .ok (some r) :=
  ⟨_, rfl, C32_water rfl _ (by norm_num) one_pos zero_le_one (by norm_num) fun _ => by unfold ckdStep; norm_num⟩

/-- C32: the nitrogen routine returns a finite number for these sixteen names and raises `ValueError` for all others. -/
theorem C32_nitrogen (m : String) {t p f : ℝ} (ht : 0 < t) :
    (m ∈ ["R98", "R03", "R16", "R17", "R18", "R19", "R19SD", "R20", "R20SD", "R21SD", "R22", "R22SD", "R23", "R23SD",
      "R24", "MWL24"] → ∃ a, n2Absorption m t p f = .ok (some a)) ∧
    (m ∉ ["R98", "R03", "R16", "R17", "R18", "R19", "R19SD", "R20", "R20SD", "R21SD", "R22", "R22SD", "R23", "R23SD",
      "R24", "MWL24"] → n2Absorption m t p f = .error .valueError) := by
  constructor
  · intro hm
    obtain ⟨l, e, n, d, hc, -⟩ := n2Coeff_pos (m := m) hm f
    unfold n2Absorption
    rw [hc]
    simp only [Except.map, if_pos ht]
    exact ⟨_, rfl⟩
  · intro hm
    simp only [List.mem_cons, List.not_mem_nil, or_false, not_or] at hm
    unfold n2Absorption n2Coeff
    simp [hm, Except.map]

example : n2Absorption "R21" 300 1000 50 = .error .valueError := (C32_nitrogen "R21" (by norm_num)).2 (by decide)

/-- C32: the liquid water routine answers for these eleven names (over the temperature ranges of C33) and raises
`ValueError` for all others: among them R18 and R20SD, which every other species accepts. -/
theorem C32_liquid (m : String) {w f t : ℝ} (hw : 0 < w) :
    (m ∈ ["R98", "R03"] → 0 < f → 0 < t → t ≤ 396 → ∃ a, liquidAbs m w f t = .ok (some a)) ∧
    (m ∈ ["R16", "R17", "R19", "R19SD", "R20", "R22SD", "R23", "R23SD", "R24"] → 0 < f → 210 ≤ t →
      ∃ a, liquidAbs m w f t = .ok (some a)) ∧
    (m ∉ ["R98", "R03", "R16", "R17", "R19", "R19SD", "R20", "R22SD", "R23", "R23SD", "R24"] →
      liquidAbs m w f t = .error .valueError) := by
  refine ⟨fun hm hf h0 h1 => ?_, fun hm hf h0 => ?_, fun hm => ?_⟩
  · obtain ⟨a, ha, -⟩ := C33_positive_debye m (by simpa using hm) w f t hw hf h0 h1
    exact ⟨a, ha⟩
  · obtain ⟨a, ha, -⟩ := C33_positive_dilec m hm w f t hw hf h0
    exact ⟨a, ha⟩
  · simp only [List.mem_cons, List.not_mem_nil, or_false, not_or] at hm
    unfold liquidAbs liquidEps
    rw [if_neg (not_le.2 hw)]
    simp [liqDebye, liqDilec, hm, Except.map]

example : liquidAbs "R18" 0.1 30 280 = .error .valueError ∧ liquidAbs "R20SD" 0.1 30 280 = .error .valueError :=
  ⟨(C32_liquid "R18" (by norm_num)).2.2 (by decide), (C32_liquid "R20SD" (by norm_num)).2.2 (by decide)⟩

/-- C32: with any of the three ozone tables loaded, the ozone routine returns a finite number under every model name. -/
theorem C32_ozone (m : String) {m' : String} {F : LineList} (hF : ozoneFile m' = some F) (old : LineList) {t p : ℝ} (f d : ℝ)
    (ht : 0 < t) (hp : 0 ≤ p) : ∃ a, o3Absorption m (reloadLL F old) t p f d = .ok (some a) := by
  obtain ⟨G⟩ := goodO3_of_file hF old
  have hti : 0 < 296 / t := by positivity
  have h : ∀ k, ∃ g, k < G.n → (if m ∈ ["R22", "R22SD"] then o3Voigt (G.fl k) (G.s1 k) (G.b k) (G.w k) (G.x k) t p
      (296 / t) f else o3Lorentz (G.fl k) (G.s1 k) (G.b k) (G.w k) (G.x k) t p (296 / t) f) = some g := by
    intro k
    by_cases hk : k < G.n
    · obtain ⟨hs, hw, hx0, hx1, hfl, -⟩ := G.pos k hk
      have hfl0 : 0 < G.fl k := by linarith
      have hw0 : 0 < G.w k := by linarith
      by_cases hm : m ∈ ["R22", "R22SD"]
      · rw [if_pos hm]
        have hs : 0 < √t := Real.sqrt_pos.2 ht
        have hb : 0.62065e-7 * G.fl k * √t ≠ 0 := by positivity
        obtain ⟨er, he⟩ := dcerror_some ((G.fl k - f) / (0.62065e-7 * G.fl k * √t))
          (G.w k * p * (296 / t) ^ G.x k / (0.62065e-7 * G.fl k * √t))
        unfold o3Voigt
        simp only [fpow_of_pos hti, npSqrt, if_pos ht.le, npDiv_of_ne hb, bind, Option.bind_some, he]
        exact ⟨_, fun _ => rfl⟩
      · rw [if_neg hm]
        exact ⟨_, fun _ => (o3Lorentz_some f hfl0 hw0 ht hp hti).1⟩
    · exact ⟨0, fun h => absurd h hk⟩
  choose g hg using h
  exact ⟨_, o3_eval G ht fun k hk _ => hg k hk⟩

/-- C32: without one it raises `AttributeError` as soon as there is ozone. -/
theorem C32_ozone_unloaded (m : String) {ll : LineList} (h : ll "reftline" = none) (t p f : ℝ) {d : ℝ} (hd : d ≠ 0) :
    o3Absorption m ll t p f d = .error .attributeError := by
  unfold o3Absorption
  rw [if_neg hd]
  simp [attr, h, bind, Except.bind]

example : ∃ F, ozoneFile "R18" = some F ∧ (∃ a, o3Absorption "R24" (reloadLL F fun _ => none) 250 10 110.8 1e18 = .ok (some a)) ∧
    o3Absorption "R24" (fun _ => none) 250 10 110.8 1e18 = .error .attributeError :=
  ⟨_, rfl, C32_ozone _ (m' := "R18") rfl _ _ _ (by norm_num) (by norm_num), C32_ozone_unloaded _ rfl _ _ _ (by norm_num)⟩

/-! ## Whole runs -/

/-- Line list of the first two species as `execute` loads them. -/
theorem shipped_load {g : Globals} {mw mo : String} {W O : LineList} (hw : g.sel.h2o = some mw) (ho : g.sel.o2 = some mo)
    (hW : waterFile mw = some W) (hO : oxygenFile mo = some O) :
    initLineList shipped g = .ok { g with h2oll := reloadLL W g.h2oll, o2ll := reloadLL O g.o2ll } := by
  unfold initLineList
  simp only [shipped, hw, ho, Option.bind_some, hW, hO]

/-- C32: a run with a water vapour or oxygen name that has no table (or none selected) ends with `AbsModelError`,
whatever else is set. -/
theorem C32_no_table (g : Globals) (I : Inst) (h : (∀ m, g.sel.h2o = some m → m ∉ ["R98", "R03", "R16", "R17", "R18", "R19",
      "R19SD", "R20", "R20SD", "R21SD", "R22SD", "R23SD", "R24", "MWL24"]) ∨
    (∀ m, g.sel.o2 = some m → m ∉ ["R98", "R03", "R16", "R17", "R18", "R19", "R19SD", "R20", "R20SD", "R22", "R23",
      "R24"])) : (execute shipped g I).1 = .error .other := by
  have key : ∃ g', initLineList shipped g = .error (.other, g') := by
    unfold initLineList
    simp only [shipped]
    cases hw : g.sel.h2o.bind waterFile with
    | none => exact ⟨_, rfl⟩
    | some W =>
      cases ho : g.sel.o2.bind oxygenFile with
      | none => exact ⟨_, rfl⟩
      | some O =>
        exfalso
        obtain ⟨m, h1, h2⟩ := Option.bind_eq_some_iff.1 hw
        obtain ⟨m', h1', h2'⟩ := Option.bind_eq_some_iff.1 ho
        rcases h with h | h
        · exact h m h1 ((C35_names m).1 (by simp [h2]))
        · exact h m' h1' ((C37_names m').1 (by simp [h2']))
  obtain ⟨g', hg⟩ := key
  unfold execute
  simp only [hg]

example (I : Inst) : (execute shipped Globals.init I).1 = .error .other :=
  C32_no_table _ _ (Or.inl fun m h => by simp [Globals.init] at h)

/-- Input of a physically sensible run: heights and angles give finite paths, temperatures, pressures and frequencies
are positive, humidity is not negative and the vapour pressure derived from it does not exceed the pressure. -/
structure GoodInput (S : Settings) : Prop where
  levels : 1 ≤ S.nl
  emissivity : S.nf ≤ S.es.length
  frq : ∀ j < S.nf, 0 < S.frq j
  tk : ∀ i < S.nl, 0 < S.tk i
  p : ∀ i < S.nl, 0 < S.p i
  rh : ∀ i < S.nl, 0 ≤ S.rh i
  vapour : ∀ i < S.nl, S.rh i * eswat (S.tk i) ≤ S.p i
  ice : S.ice = false
  amu : S.amu = none
  path : ∀ k < S.nang, GoodPath S k

theorem vapor_eq {S : Settings} (hi : S.ice = false) :
    ∃ e rho, vapor S.tk S.rh S.ice = .ok (e, rho) ∧ ∀ i, e i = S.rh i * eswat (S.tk i) := by
  unfold vapor
  rw [hi]
  refine ⟨_, _, rfl, fun i => ?_⟩
  simp only
  rw [vaporExponent_eswat]

theorem cellGlobals_amu {S : Settings} (h : S.amu = none) (g : Globals) (es : ℝ) :
    cellGlobals S g es = { g with emissivity := es } := by
  unfold cellGlobals amuApply
  rw [h]
  split_ifs <;> rfl

theorem finite_some {α : Type*} {r : Except PyErr (Option α)} {a : α} (h : r = .ok (some a)) : finite r = .ok a := by
  rw [h]; rfl

theorem finite_error {α : Type*} {r : Except PyErr (Option α)} {x : PyErr} (h : r = .error x) : finite r = .error x := by
  rw [h]; rfl

/-- The water vapour and oxygen parts of a level, for any nitrogen and ozone part. -/
theorem clearLevel_eq {g : Globals} {mw mo : String} {W O lw lo : LineList} (hw : g.sel.h2o = some mw)
    (ho : g.sel.o2 = some mo) (hW : waterFile mw = some W) (hO : oxygenFile mo = some O)
    (hlw : g.h2oll = reloadLL W lw) (hlo : g.o2ll = reloadLL O lo) (o3n : Option Val) {p t e f : ℝ} (i : ℕ) (hp : 0 < p)
    (ht : 0 < t) (he : 0 ≤ e) (hep : e ≤ p) (hf : 0 < f) (hfm : mw ∈ ["R23SD", "R24"] → f < 4 * ckdStep) :
    ∃ w o : ℝ, clearLevel shipped g o3n p t e f i = (do
      let aN2 ← n2Term shipped g.sel t ((p / 10.0 - e / 10.0) * 10) f
      let aO3 ← o3Term shipped g o3n t p f i
      return (w, o + aN2 + aO3)) := by
  have hv : 0 < 300.0 / t := by positivity
  have hk : 0 ≤ e / 10.0 := by positivity
  have hpd : 0 ≤ p / 10.0 - e / 10.0 := by
    rw [← sub_div]; exact div_nonneg (by linarith) (by norm_num)
  obtain ⟨r, hr⟩ := C32_water hW lw hpd hv hk hf hfm
  obtain ⟨n, c, hn, -⟩ := C37_sign hO lo hpd hv hk (by
    rw [sub_add_cancel]; positivity) hf
  unfold clearLevel
  simp only [hw, ho, hlw, hlo]
  rw [show shipped.h2o mw (reloadLL W lw) (p / 10.0 - e / 10.0) (300.0 / t) (e / 10.0) f = .ok r from finite_some hr,
    show shipped.o2 mo (reloadLL O lo) (p / 10.0 - e / 10.0) (300.0 / t) (e / 10.0) f = .ok (n, c) from finite_some hn]
  exact ⟨_, _, rfl⟩

/-- If ozone takes part, one of the three ozone tables has been loaded. -/
def OzoneReady (g : Globals) (o3n : Option Val) : Prop :=
  ozoneActive g.sel o3n → ∃ m F old, ozoneFile m = some F ∧ g.o3ll = reloadLL F old

theorem o3Term_runs {g : Globals} {o3n : Option Val} (h : OzoneReady g o3n) {t p f : ℝ} (i : ℕ) (ht : 0 < t) (hp : 0 < p) :
    ∃ a, o3Term shipped g o3n t p f i = .ok a := by
  unfold o3Term
  by_cases ha : ozoneActive g.sel o3n
  · rw [if_pos ha]
    obtain ⟨m, F, old, hF, hg⟩ := h ha
    rw [hg]
    cases g.sel.o3 with
    | none => exact ⟨_, rfl⟩
    | some m' =>
      cases o3n with
      | none => exact ⟨_, rfl⟩
      | some n =>
        obtain ⟨a, hr⟩ := C32_ozone m' hF old f (n i) ht hp.le
        exact ⟨a, finite_some hr⟩
  · exact ⟨0, if_neg ha⟩

/-- Nitrogen names accepted by a run: those of the routine, and the empty name, which switches nitrogen off. -/
def n2Runs : List String := ["", "R98", "R03", "R16", "R17", "R18", "R19", "R19SD", "R20", "R20SD", "R21SD", "R22", "R22SD",
  "R23", "R23SD", "R24", "MWL24"]

theorem n2Term_runs {sel : Sel} {mn : String} (hn : sel.n2 = some mn) (hm : mn ∈ n2Runs) {t p f : ℝ} (ht : 0 < t) :
    ∃ a, n2Term shipped sel t p f = .ok a := by
  unfold n2Term
  rw [hn]
  simp only
  by_cases h : mn = ""
  · exact ⟨0, if_pos h⟩
  · rw [if_neg h]
    obtain ⟨a, ha⟩ := (C32_nitrogen mn ht).1 ((List.mem_cons.1 hm).resolve_left h)
    exact ⟨a, finite_some ha⟩

theorem n2Term_fails {sel : Sel} (hm : ∀ m, sel.n2 = some m → m ∉ n2Runs) {t p f : ℝ} (ht : 0 < t) :
    n2Term shipped sel t p f = .error .valueError := by
  unfold n2Term
  cases h : sel.n2 with
  | none => rfl
  | some m =>
    have := hm m h
    simp only [n2Runs, List.mem_cons, not_or] at this
    simp only [if_neg this.1]
    exact finite_error ((C32_nitrogen m ht).2 (by
      simp only [List.mem_cons, not_or]; exact this.2))

/-- The liquid water names and the temperatures for which they answer. -/
def LiquidRuns (liq : Option String) (t : ℝ) : Prop :=
  ∃ m, liq = some m ∧ ((m ∈ ["R98", "R03"] ∧ t ≤ 396) ∨
    (m ∈ ["R16", "R17", "R19", "R19SD", "R20", "R22SD", "R23", "R23SD", "R24"] ∧ 210 ≤ t))

theorem liqTerm_runs {liq : Option String} {t d f : ℝ} (h : 0 < d → LiquidRuns liq t) (ht : 0 < t) (hf : 0 < f) :
    ∃ a, liqTerm shipped liq t d f = .ok a := by
  unfold liqTerm
  by_cases hd : 0 < d
  · rw [if_pos hd]
    obtain ⟨m, rfl, ⟨hm, h1⟩ | ⟨hm, h1⟩⟩ := h hd
    · obtain ⟨a, ha⟩ := (C32_liquid m hd).1 hm hf ht h1
      exact ⟨a, finite_some ha⟩
    · obtain ⟨a, ha⟩ := (C32_liquid m hd).2.1 hm hf h1
      exact ⟨a, finite_some ha⟩
  · exact ⟨0, if_neg hd⟩

/-- C32: every combination of a water vapour name, an oxygen name and a nitrogen name from the lists completes a run of
any sensible input (with ozone, if an ozone table has been loaded); with clouds, if also the liquid water name is from its list and the liquid layers are
not colder than 210 K (the older names: not warmer than 396 K). -/
theorem C32_completes {g : Globals} {I : Inst} {mw mo mn : String} (hI : GoodInput I.set)
    (hw : g.sel.h2o = some mw) (ho : g.sel.o2 = some mo) (hn : g.sel.n2 = some mn)
    (hmw : mw ∈ ["R98", "R03", "R16", "R17", "R18", "R19", "R19SD", "R20", "R20SD", "R21SD", "R22SD", "R23SD", "R24", "MWL24"])
    (hmo : mo ∈ ["R98", "R03", "R16", "R17", "R18", "R19", "R19SD", "R20", "R20SD", "R22", "R23", "R24"])
    (hmn : mn ∈ n2Runs) (ho3 : OzoneReady g I.set.o3n)
    (hfm : mw ∈ ["R23SD", "R24"] → ∀ j < I.set.nf, I.set.frq j < 4 * ckdStep) (hc : CloudInput I.set)
    (hliq : I.set.cloudy = true → ∀ dl di, I.set.dens = some (dl, di) → ∀ i < I.set.nl, 0 < dl i →
      LiquidRuns g.sel.liq (I.set.tk i)) :
    ∃ rows, (execute shipped g I).1 = .ok rows := by
  obtain ⟨W, hW⟩ := Option.isSome_iff_exists.1 ((C35_names mw).2 hmw)
  obtain ⟨O, hO⟩ := Option.isSome_iff_exists.1 ((C37_names mo).2 hmo)
  obtain ⟨e, rho, hv, hve⟩ := vapor_eq (S := I.set) hI.ice
  refine execute_of_levels (shipped_load hw ho hW hO) hI.levels hI.emissivity hc hv (fun k hk => ?_) ?_ ?_
  · obtain ⟨d, hd, -⟩ := hI.path k hk e rho hv
    exact ⟨d, hd⟩
  · intro es j hj i hi
    rw [cellGlobals_amu hI.amu]
    have he : 0 ≤ e i := by rw [hve]; exact mul_nonneg (hI.rh i hi) (eswat_pos _).le
    obtain ⟨w, o, hcl⟩ := clearLevel_eq (g := { g with
        h2oll := reloadLL W g.h2oll, o2ll := reloadLL O g.o2ll, fromSat := I.set.satellite, emissivity := es })
      (lw := g.h2oll) (lo := g.o2ll) hw ho hW hO rfl rfl I.set.o3n i (hI.p i hi) (hI.tk i hi) he
      (by rw [hve]; exact hI.vapour i hi) (hI.frq j hj) (fun h => hfm h j hj)
    rw [hcl]
    obtain ⟨a, ha⟩ := n2Term_runs (sel := g.sel) (t := I.set.tk i) (p := (I.set.p i / 10.0 - e i / 10.0) * 10)
      (f := I.set.frq j) hn hmn (hI.tk i hi)
    obtain ⟨b, hb⟩ := o3Term_runs (g := { g with
      h2oll := reloadLL W g.h2oll, o2ll := reloadLL O g.o2ll, fromSat := I.set.satellite, emissivity := es })
      (f := I.set.frq j) ho3 i (hI.tk i hi) (hI.p i hi)
    rw [ha, hb]
    exact ⟨_, rfl⟩
  · intro hcl dl di hdn j hj i hi
    exact liqTerm_runs (fun h => hliq hcl dl di hdn i hi h) (hI.tk i hi) (hI.frq j hj)

/-- C32: with the same input, a nitrogen name outside the list (or none selected) ends the run with `ValueError`. -/
theorem C32_nitrogen_name {g : Globals} {I : Inst} {mw mo : String} (hI : GoodInput I.set)
    (hw : g.sel.h2o = some mw) (ho : g.sel.o2 = some mo)
    (hmw : mw ∈ ["R98", "R03", "R16", "R17", "R18", "R19", "R19SD", "R20", "R20SD", "R21SD", "R22SD", "R23SD", "R24", "MWL24"])
    (hmo : mo ∈ ["R98", "R03", "R16", "R17", "R18", "R19", "R19SD", "R20", "R20SD", "R22", "R23", "R24"])
    (hmn : ∀ m, g.sel.n2 = some m → m ∉ n2Runs)
    (hfm : mw ∈ ["R23SD", "R24"] → ∀ j < I.set.nf, I.set.frq j < 4 * ckdStep) (hc : CloudInput I.set)
    (hang : 0 < I.set.nang) (hnf : 0 < I.set.nf) :
    (execute shipped g I).1 = .error .valueError := by
  obtain ⟨W, hW⟩ := Option.isSome_iff_exists.1 ((C35_names mw).2 hmw)
  obtain ⟨O, hO⟩ := Option.isSome_iff_exists.1 ((C37_names mo).2 hmo)
  obtain ⟨e, rho, hv, hve⟩ := vapor_eq (S := I.set) hI.ice
  have key (es : ℝ) (i : ℕ) (hi : i < I.set.nl) : clearLevel shipped (cellGlobals I.set { g with
      h2oll := reloadLL W g.h2oll, o2ll := reloadLL O g.o2ll, fromSat := I.set.satellite } es) I.set.o3n (I.set.p i)
      (I.set.tk i) (e i) (I.set.frq 0) i = .error .valueError := by
    rw [cellGlobals_amu hI.amu]
    have he : 0 ≤ e i := by rw [hve]; exact mul_nonneg (hI.rh i hi) (eswat_pos _).le
    obtain ⟨w, o, hcl⟩ := clearLevel_eq (g := { g with
        h2oll := reloadLL W g.h2oll, o2ll := reloadLL O g.o2ll, fromSat := I.set.satellite, emissivity := es })
      (lw := g.h2oll) (lo := g.o2ll) hw ho hW hO rfl rfl I.set.o3n i (hI.p i hi) (hI.tk i hi) he
      (by rw [hve]; exact hI.vapour i hi) (hI.frq 0 hnf) (fun h => hfm h 0 hnf)
    rw [hcl, n2Term_fails hmn (hI.tk i hi)]
    rfl
  refine execute_clear_error (shipped_load hw ho hW hO) hc hv hang hnf hI.emissivity ?_ (x := .valueError)
    (fun es i hi => Or.inr (key es i hi)) ⟨0, hI.levels, fun es => key es 0 hI.levels⟩
  obtain ⟨d, hd, -⟩ := hI.path 0 hang e rho hv
  exact ⟨d, hd⟩

/-- C32: a cloud with liquid water and a liquid water name outside the list (or none selected): `ValueError`. -/
theorem C32_liquid_name {g : Globals} {I : Inst} {mw mo mn : String} (hI : GoodInput I.set)
    (hw : g.sel.h2o = some mw) (ho : g.sel.o2 = some mo) (hn : g.sel.n2 = some mn)
    (hmw : mw ∈ ["R98", "R03", "R16", "R17", "R18", "R19", "R19SD", "R20", "R20SD", "R21SD", "R22SD", "R23SD", "R24", "MWL24"])
    (hmo : mo ∈ ["R98", "R03", "R16", "R17", "R18", "R19", "R19SD", "R20", "R20SD", "R22", "R23", "R24"])
    (hmn : mn ∈ n2Runs) (ho3 : OzoneReady g I.set.o3n)
    (hfm : mw ∈ ["R23SD", "R24"] → ∀ j < I.set.nf, I.set.frq j < 4 * ckdStep) (hc : CloudInput I.set)
    (hang : 0 < I.set.nang) (hnf : 0 < I.set.nf) (hcl : I.set.cloudy = true) {dl di : Val}
    (hdn : I.set.dens = some (dl, di)) (hd : ∃ i < I.set.nl, 0 < dl i)
    (hml : ∀ m, g.sel.liq = some m → m ∉ ["R98", "R03", "R16", "R17", "R19", "R19SD", "R20", "R22SD", "R23", "R23SD",
      "R24"]) : (execute shipped g I).1 = .error .valueError := by
  obtain ⟨W, hW⟩ := Option.isSome_iff_exists.1 ((C35_names mw).2 hmw)
  obtain ⟨O, hO⟩ := Option.isSome_iff_exists.1 ((C37_names mo).2 hmo)
  obtain ⟨e, rho, hv, hve⟩ := vapor_eq (S := I.set) hI.ice
  have hfail (i : ℕ) (hi : 0 < dl i) : liqTerm shipped g.sel.liq (I.set.tk i) (dl i) (I.set.frq 0) = .error .valueError := by
    unfold liqTerm
    rw [if_pos hi]
    cases h : g.sel.liq with
    | none => rfl
    | some m => exact finite_error ((C32_liquid m hi).2.2 (hml m h))
  obtain ⟨i0, hi0, hd0⟩ := hd
  refine execute_liquid_error (shipped_load hw ho hW hO) hI.levels hc hv hang hnf hI.emissivity ?_ ?_ hcl hdn
    (x := .valueError) ?_ ⟨i0, hi0, hfail i0 hd0⟩
  · obtain ⟨d, hd, -⟩ := hI.path 0 hang e rho hv
    exact ⟨d, hd⟩
  · intro es i hi
    rw [cellGlobals_amu hI.amu]
    have he : 0 ≤ e i := by rw [hve]; exact mul_nonneg (hI.rh i hi) (eswat_pos _).le
    obtain ⟨w, o, hcl⟩ := clearLevel_eq (g := { g with
        h2oll := reloadLL W g.h2oll, o2ll := reloadLL O g.o2ll, fromSat := I.set.satellite, emissivity := es })
      (lw := g.h2oll) (lo := g.o2ll) hw ho hW hO rfl rfl I.set.o3n i (hI.p i hi) (hI.tk i hi) he
      (by rw [hve]; exact hI.vapour i hi) (hI.frq 0 hnf) (fun h => hfm h 0 hnf)
    rw [hcl]
    obtain ⟨a, ha⟩ := n2Term_runs (sel := g.sel) (t := I.set.tk i) (p := (I.set.p i / 10.0 - e i / 10.0) * 10)
      (f := I.set.frq 0) hn hmn (hI.tk i hi)
    obtain ⟨b, hb⟩ := o3Term_runs (g := { g with
      h2oll := reloadLL W g.h2oll, o2ll := reloadLL O g.o2ll, fromSat := I.set.satellite, emissivity := es })
      (f := I.set.frq 0) ho3 i (hI.tk i hi) (hI.p i hi)
    rw [ha, hb]
    exact ⟨_, rfl⟩
  · intro i hi
    by_cases hdi : 0 < dl i
    · exact Or.inr (hfail i hdi)
    · exact Or.inl ⟨0, by unfold liqTerm; rw [if_neg hdi]⟩

/-- The state after `init_absmdl(m)`. -/
def selected (g : Globals) (m : String) : Globals :=
  { g with sel := { g.sel with h2o := some m, o2 := some m, n2 := some m, liq := some m } }

/-- It is what the history model does. -/
example (w : World) (m : String) : (w.step shipped (.initAbsmdl m)).g = selected w.g m := rfl

/-- C32: `init_absmdl` takes any string, but only these ten can then be used: a clear-sky run completes for exactly
them, and every other name ends in `AbsModelError`. -/
theorem C32_init_absmdl (m : String) (g : Globals) {I : Inst} (hI : GoodInput I.set) (hcl : I.set.cloudy = false)
    (ho3 : OzoneReady g I.set.o3n) (hf : ∀ j < I.set.nf, I.set.frq j < 4 * ckdStep) :
    (m ∈ ["R98", "R03", "R16", "R17", "R18", "R19", "R19SD", "R20", "R20SD", "R24"] →
      ∃ rows, (execute shipped (selected g m) I).1 = .ok rows) ∧
    (m ∉ ["R98", "R03", "R16", "R17", "R18", "R19", "R19SD", "R20", "R20SD", "R24"] →
      (execute shipped (selected g m) I).1 = .error .other) := by
  constructor
  · intro hm
    refine C32_completes (g := selected g m) hI rfl rfl rfl ?_ ?_ ?_ ho3 (fun _ => hf) (fun h => by simp [hcl] at h)
      (fun h => by simp [hcl] at h)
    all_goals
      simp only [n2Runs, List.mem_cons, List.not_mem_nil, or_false] at hm ⊢
      tauto
  · intro hm
    refine C32_no_table _ _ ?_
    by_cases h : m ∈ ["R98", "R03", "R16", "R17", "R18", "R19", "R19SD", "R20", "R20SD", "R21SD", "R22SD", "R23SD", "R24",
      "MWL24"]
    · right
      rintro m' ⟨⟩ h'
      simp only [List.mem_cons, List.not_mem_nil, or_false] at hm h h'
      rcases h with rfl | rfl | rfl | rfl | rfl | rfl | rfl | rfl | rfl | rfl | rfl | rfl | rfl | rfl <;>
        first | exact hm (by decide) | exact absurd h' (by decide)
    · left
      rintro m' ⟨⟩
      exact h

/-- C32: of these ten, R18 and R20SD cannot run a cloud with liquid water. -/
theorem C32_init_absmdl_cloudy (m : String) (g : Globals) {I : Inst} (hI : GoodInput I.set) (hc : CloudInput I.set)
    (hcl : I.set.cloudy = true) (hang : 0 < I.set.nang) (hnf : 0 < I.set.nf) {dl di : Val}
    (hdn : I.set.dens = some (dl, di)) (hd : ∃ i < I.set.nl, 0 < dl i)
    (hT : ∀ i < I.set.nl, 0 < dl i → 210 ≤ I.set.tk i ∧ I.set.tk i ≤ 396)
    (ho3 : OzoneReady g I.set.o3n) (hf : ∀ j < I.set.nf, I.set.frq j < 4 * ckdStep) :
    (m ∈ ["R98", "R03", "R16", "R17", "R19", "R19SD", "R20", "R24"] →
      ∃ rows, (execute shipped (selected g m) I).1 = .ok rows) ∧
    (m ∈ ["R18", "R20SD"] → (execute shipped (selected g m) I).1 = .error .valueError) := by
  constructor
  · intro hm
    refine C32_completes (g := selected g m) hI rfl rfl rfl ?_ ?_ ?_ ho3 (fun _ => hf) hc ?_
    rotate_left 3
    · intro _ dl' di' hdn' i hi h0
      rw [hdn] at hdn'
      cases hdn'
      refine ⟨m, rfl, ?_⟩
      obtain ⟨h1, h2⟩ := hT i hi h0
      simp only [List.mem_cons, List.not_mem_nil, or_false] at hm ⊢
      tauto
    all_goals
      simp only [n2Runs, List.mem_cons, List.not_mem_nil, or_false] at hm ⊢
      tauto
  · intro hm
    refine C32_liquid_name (g := selected g m) hI rfl rfl rfl ?_ ?_ ?_ ho3 (fun _ => hf) hc hang hnf hcl hdn hd ?_
    rotate_left 3
    · rintro m' ⟨⟩
      simp only [List.mem_cons, List.not_mem_nil, or_false] at hm
      rcases hm with rfl | rfl <;> decide
    all_goals
      simp only [n2Runs, List.mem_cons, List.not_mem_nil, or_false] at hm ⊢
      tauto

/-- C32: a run with an ozone profile, an ozone name the simulator accepts and no ozone table ever loaded (for five of
the eight accepted names there is none to load) ends in `AttributeError` if any level has ozone. -/
theorem C32_ozone_never_loaded {g : Globals} {I : Inst} {mw mo mn : String} (hI : GoodInput I.set)
    (hw : g.sel.h2o = some mw) (ho : g.sel.o2 = some mo) (hn : g.sel.n2 = some mn)
    (hmw : mw ∈ ["R98", "R03", "R16", "R17", "R18", "R19", "R19SD", "R20", "R20SD", "R21SD", "R22SD", "R23SD", "R24", "MWL24"])
    (hmo : mo ∈ ["R98", "R03", "R16", "R17", "R18", "R19", "R19SD", "R20", "R20SD", "R22", "R23", "R24"])
    (hmn : mn ∈ n2Runs) {m3 : String} (h3 : g.sel.o3 = some m3)
    (hm3 : m3 ∈ ["R18", "R21", "R21SD", "R22", "R22SD", "R23", "R23SD", "R24"]) (hl3 : g.o3ll "reftline" = none)
    {o3n : Val} (hz : I.set.o3n = some o3n) (hz0 : ∃ i < I.set.nl, o3n i ≠ 0)
    (hfm : mw ∈ ["R23SD", "R24"] → ∀ j < I.set.nf, I.set.frq j < 4 * ckdStep) (hc : CloudInput I.set)
    (hang : 0 < I.set.nang) (hnf : 0 < I.set.nf) :
    (execute shipped g I).1 = .error .attributeError := by
  obtain ⟨W, hW⟩ := Option.isSome_iff_exists.1 ((C35_names mw).2 hmw)
  obtain ⟨O, hO⟩ := Option.isSome_iff_exists.1 ((C37_names mo).2 hmo)
  obtain ⟨e, rho, hv, hve⟩ := vapor_eq (S := I.set) hI.ice
  have hact : ozoneActive g.sel I.set.o3n := ⟨by simp [hz], m3, h3, hm3⟩
  have key (es : ℝ) (i : ℕ) (hi : i < I.set.nl) : ∃ w o a : ℝ, clearLevel shipped (cellGlobals I.set { g with
      h2oll := reloadLL W g.h2oll, o2ll := reloadLL O g.o2ll, fromSat := I.set.satellite } es) I.set.o3n (I.set.p i)
      (I.set.tk i) (e i) (I.set.frq 0) i = (do
        let aO3 ← (if o3n i = 0 then .ok 0 else .error .attributeError : Except PyErr ℝ)
        return (w, o + a + aO3)) := by
    rw [cellGlobals_amu hI.amu]
    have he : 0 ≤ e i := by rw [hve]; exact mul_nonneg (hI.rh i hi) (eswat_pos _).le
    obtain ⟨w, o, hcl⟩ := clearLevel_eq (g := { g with
        h2oll := reloadLL W g.h2oll, o2ll := reloadLL O g.o2ll, fromSat := I.set.satellite, emissivity := es })
      (lw := g.h2oll) (lo := g.o2ll) hw ho hW hO rfl rfl I.set.o3n i (hI.p i hi) (hI.tk i hi) he
      (by rw [hve]; exact hI.vapour i hi) (hI.frq 0 hnf) (fun h => hfm h 0 hnf)
    rw [hcl]
    obtain ⟨a, ha⟩ := n2Term_runs (sel := g.sel) (t := I.set.tk i) (p := (I.set.p i / 10.0 - e i / 10.0) * 10)
      (f := I.set.frq 0) hn hmn (hI.tk i hi)
    refine ⟨w, o, a, ?_⟩
    rw [ha]
    have h3t : o3Term shipped { g with
        h2oll := reloadLL W g.h2oll, o2ll := reloadLL O g.o2ll, fromSat := I.set.satellite, emissivity := es } I.set.o3n
        (I.set.tk i) (I.set.p i) (I.set.frq 0) i = if o3n i = 0 then .ok 0 else .error .attributeError := by
      unfold o3Term
      rw [if_pos hact]
      simp only [h3, hz]
      by_cases h0 : o3n i = 0
      · rw [if_pos h0, h0]
        exact finite_some (by unfold o3Absorption; rw [if_pos rfl])
      · rw [if_neg h0]
        exact finite_error (C32_ozone_unloaded m3 hl3 _ _ _ h0)
    rw [h3t]
    rfl
  obtain ⟨i0, hi0, hz0⟩ := hz0
  refine execute_clear_error (shipped_load hw ho hW hO) hc hv hang hnf hI.emissivity ?_ (x := .attributeError)
    (fun es i hi => ?_) ⟨i0, hi0, fun es => ?_⟩
  · obtain ⟨d, hd, -⟩ := hI.path 0 hang e rho hv
    exact ⟨d, hd⟩
  · obtain ⟨w, o, a, h⟩ := key es i hi
    rw [h]
    by_cases h0 : o3n i = 0
    · rw [if_pos h0]; exact Or.inl ⟨_, rfl⟩
    · rw [if_neg h0]; exact Or.inr rfl
  · obtain ⟨w, o, a, h⟩ := key es i0 hi0
    rw [h, if_neg hz0]
    rfl

/-! ## Only the selected models matter -/

/-- Two sets of routines and line tables that agree under the five selected names. -/
structure SameFor (sel : Sel) (A A' : AbsRoutines) : Prop where
  h2o : ∀ m, sel.h2o = some m → A.h2o m = A'.h2o m ∧ A.h2oFile m = A'.h2oFile m
  o2 : ∀ m, sel.o2 = some m → A.o2 m = A'.o2 m ∧ A.o2File m = A'.o2File m
  n2 : ∀ m, sel.n2 = some m → m ≠ "" → A.n2 m = A'.n2 m
  o3 : ∀ m, sel.o3 = some m → A.o3 m = A'.o3 m
  liq : ∀ m, sel.liq = some m → A.liq m = A'.liq m

theorem forRangeE_congr {ρ σ : Type*} (P : σ → Prop) {f f' : ℕ → σ → Except ρ σ} (h : ∀ i s, P s → f i s = f' i s)
    (hP : ∀ i s s', P s → f i s = .ok s' → P s') (n : ℕ) {s : σ} (hs : P s) :
    forRangeE 0 n f s = forRangeE 0 n f' s ∧ ∀ s', forRangeE 0 n f s = .ok s' → P s' := by
  induction n with
  | zero =>
    rw [forRangeE_of_le le_rfl, forRangeE_of_le le_rfl]
    exact ⟨rfl, fun s' h => by cases h; exact hs⟩
  | succ n ih =>
    rw [forRangeE_succ (Nat.zero_le _), forRangeE_succ (Nat.zero_le _), ← ih.1]
    cases hr : forRangeE 0 n f s with
    | error e => exact ⟨rfl, fun s' h => by cases h⟩
    | ok t => exact ⟨h n t (ih.2 t hr), fun s' h' => hP n t s' (ih.2 t hr) h'⟩

theorem cellStep_same {A A' : AbsRoutines} {g : Globals} (h : SameFor g.sel A A') (S : Settings) (e : Val) (ds : Path)
    (j : ℕ) (c : Cell) : cellStep A S e ds j g c = cellStep A' S e ds j g c := by
  have h1 (i : ℕ) : clearLevel A g S.o3n (S.p i) (S.tk i) (e i) (S.frq j) i =
      clearLevel A' g S.o3n (S.p i) (S.tk i) (e i) (S.frq j) i := by
    have hn (t p f : ℝ) : n2Term A g.sel t p f = n2Term A' g.sel t p f := by
      unfold n2Term
      cases hm : g.sel.n2 with
      | none => rfl
      | some m =>
        by_cases h0 : m = ""
        · simp [h0]
        · simp [h0, h.n2 m hm h0]
    have ho (t p f : ℝ) : o3Term A g S.o3n t p f i = o3Term A' g S.o3n t p f i := by
      unfold o3Term
      cases hm : g.sel.o3 with
      | none => rfl
      | some m => cases S.o3n <;> simp only [h.o3 m hm]
    unfold clearLevel
    cases hw : g.sel.h2o with
    | none => rfl
    | some mw =>
      cases hx : g.sel.o2 with
      | none => rfl
      | some mo => simp only [(h.h2o mw hw).1, (h.o2 mo hx).1, hn, ho]
  have h2 (c : Cell) : cellCloud A g.sel.liq S ds (S.frq j) c = cellCloud A' g.sel.liq S ds (S.frq j) c := by
    have hl (t d : ℝ) : liqTerm A g.sel.liq t d (S.frq j) = liqTerm A' g.sel.liq t d (S.frq j) := by
      unfold liqTerm
      cases hm : g.sel.liq with
      | none => rfl
      | some m => simp only [h.liq m hm]
    unfold cellCloud cloudyAbs cloudyLevel
    simp only [hl]
  unfold cellStep clearsky
  simp only [h1, h2]

/-- C32: the run depends on the routines and tables of the five selected models only. -/
theorem C32_selected_only {A A' : AbsRoutines} {g : Globals} (h : SameFor g.sel A A') (I : Inst) :
    execute A g I = execute A' g I := by
  have hinit : initLineList A g = initLineList A' g := by
    unfold initLineList
    have hw : g.sel.h2o.bind A.h2oFile = g.sel.h2o.bind A'.h2oFile := by
      cases hm : g.sel.h2o with
      | none => rfl
      | some m => exact (h.h2o m hm).2
    have ho : g.sel.o2.bind A.o2File = g.sel.o2.bind A'.o2File := by
      cases hm : g.sel.o2 with
      | none => rfl
      | some m => exact (h.o2 m hm).2
    simp only [hw, ho]
  have hsel : ∀ g', initLineList A' g = .ok g' → g'.sel = g.sel := by
    intro g' hg
    unfold initLineList at hg
    split at hg
    · cases hg
    · simp only at hg
      split at hg
      · cases hg
      · cases hg; rfl
  have hfreq (e : Val) (ds : Path) (k j : ℕ) (s : RunState) (hs : s.g.sel = g.sel) :
      freqBody A I.set e ds k j s = freqBody A' I.set e ds k j s := by
    unfold freqBody
    cases I.set.es[j]? with
    | none => rfl
    | some es =>
      have : ∀ G : Globals, G.sel = g.sel → ∀ c, cellStep A I.set e ds j G c = cellStep A' I.set e ds j G c :=
        fun G hG c => cellStep_same (hG ▸ h) _ _ _ _ _
      simp only
      rw [this _ (by split_ifs <;> simp [hs])]
  have hfreqP (e : Val) (ds : Path) (k j : ℕ) (s s' : RunState) (hs : s.g.sel = g.sel)
      (hr : freqBody A I.set e ds k j s = .ok s') : s'.g.sel = g.sel := by
    unfold freqBody at hr
    cases hes : I.set.es[j]? with
    | none => simp [hes] at hr
    | some es =>
      simp only [hes] at hr
      split at hr
      · cases hr
      · cases hr
        simp only
        split_ifs <;> simp [hs]
  have hloop (e : Val) (ds : Path) (k : ℕ) {s : RunState} (hs : s.g.sel = g.sel) :
      forRangeE 0 I.set.nf (freqBody A I.set e ds k) s = forRangeE 0 I.set.nf (freqBody A' I.set e ds k) s ∧
      ∀ s', forRangeE 0 I.set.nf (freqBody A I.set e ds k) s = .ok s' → s'.g.sel = g.sel :=
    forRangeE_congr (fun s : RunState => s.g.sel = g.sel) (fun j s hs => hfreq e ds k j s hs)
      (fun j s s' hs hr => hfreqP e ds k j s s' hs hr) _ hs
  unfold execute
  rw [hinit]
  cases hi : initLineList A' g with
  | error x => rfl
  | ok g' =>
    have hg' := hsel g' hi
    simp only
    cases vapor I.set.tk I.set.rh I.set.ice with
    | error x => rfl
    | ok er =>
      simp only
      have := (forRangeE_congr (fun s : RunState => s.g.sel = g.sel)
        (f := angleBody A I.set er.1 er.2 (fun i => (refractivity1 (I.set.p i) (I.set.tk i) (er.1 i)).2.1)
          (fun i => (refractivity1 (I.set.p i) (I.set.tk i) (er.1 i)).1)
          (fun i => (refractivity1 (I.set.p i) (I.set.tk i) (er.1 i)).2.2))
        (f' := angleBody A' I.set er.1 er.2 (fun i => (refractivity1 (I.set.p i) (I.set.tk i) (er.1 i)).2.1)
          (fun i => (refractivity1 (I.set.p i) (I.set.tk i) (er.1 i)).1)
          (fun i => (refractivity1 (I.set.p i) (I.set.tk i) (er.1 i)).2.2))
        (fun k s hs => ?_) (fun k s s' hs hr => ?_) I.set.nang
        (s := ⟨{ g' with fromSat := I.set.satellite }, I.out⟩) hg').1
      · rw [this]
      · unfold angleBody
        simp only
        split
        · rfl
        · rename_i q _
          exact (hloop er.1 _ k (s := ⟨s.g, s.out.setPath k q⟩) hs).1
      · unfold angleBody at hr
        simp only at hr
        split at hr
        · cases hr
        · rename_i q _
          exact (hloop er.1 _ k (s := ⟨s.g, s.out.setPath k q⟩) hs).2 _ hr

/-- Breaking the liquid routine under every name but "R24" changes nothing for a selection of R24. -/
example (A : AbsRoutines) (g : Globals) (I : Inst) (hg : g.sel.liq = some "R24") : execute A g I = execute
    { A with liq := fun m => if m = "R24" then A.liq m else fun _ _ _ => .error .other } g I := by
  have h : SameFor g.sel A
      { A with liq := fun m => if m = "R24" then A.liq m else fun _ _ _ => .error .other } := by
    constructor
    · exact fun _ _ => ⟨rfl, rfl⟩
    · exact fun _ _ => ⟨rfl, rfl⟩
    · exact fun _ _ _ => rfl
    · exact fun _ _ => rfl
    · intro m hm
      rw [hg, Option.some_inj] at hm
      simp [hm]
  exact C32_selected_only h I

/-- The shipped routines read, under each name, only what the table of that name defines; so the C27 and C28
theorems apply to them. -/
theorem C32_own_tables : ReadsOwnList shipped := by
  constructor
  · intro m w hw L L' h
    funext p vx e f
    show finite _ = finite _
    rw [h2o_congr (m := m) (ll := L) (ll' := L') fun a ha => ?_]
    obtain ⟨v, hv, -⟩ := file_reads hw (fun _ => none) a ha
    unfold attr
    rw [h a (by rw [hv]; rfl)]
  · intro m w hw L L' h
    funext p vx e f
    show finite _ = finite _
    rw [o2_congr (m := m) (ll := L) (ll' := L') fun a ha => ?_]
    obtain ⟨v, hv, -⟩ := oxyFile_reads hw (fun _ => none) a ha
    unfold attr
    rw [h a (by rw [hv]; rfl)]

/-! ## A concrete input -/

/-- Three levels, two frequencies, two angles, a liquid cloud, or none. -/
noncomputable def realS (cloudy : Bool) : Settings :=
  { demoS with tk := fun i => 288 - 6 * i, p := fun i => 1000 - 100 * i, cloudy := cloudy }

theorem realS_good (c : Bool) : GoodInput (realS c) where
  levels := by simp [realS, demoS]
  emissivity := by simp [realS, demoS]
  frq j _ := by simp only [realS, demoS]; positivity
  tk i hi := by
    have : (i : ℝ) < 3 := by exact_mod_cast hi
    simp only [realS]; linarith
  p i hi := by
    have : (i : ℝ) < 3 := by exact_mod_cast hi
    simp only [realS]; linarith
  rh i _ := by simp only [realS, demoS]; norm_num
  vapour i hi := by
    have h3 : (i : ℝ) < 3 := by exact_mod_cast hi
    have h0 : (0 : ℝ) ≤ i := Nat.cast_nonneg i
    have h := eswat_le (t := 288 - 6 * i) (by linarith) (by linarith)
    have := eswat_pos (288 - 6 * i)
    simp only [realS, demoS]
    norm_num
    linarith
  ice := rfl
  amu := rfl
  path k hk := goodPath_plane rfl (demo_angles k hk).1 (demo_angles k hk).2 fun i _ => by simp [realS, demoS]

theorem realS_frq (c : Bool) : ∀ j < (realS c).nf, (realS c).frq j < 4 * ckdStep := by
  intro j hj
  have : (j : ℝ) < 2 := by exact_mod_cast hj
  simp only [realS, demoS, ckdStep]
  norm_num
  linarith

/-- In a new process: R24 runs, R23 (an oxygen name only) and a misspelt name do not. -/
example : (∃ rows, (execute shipped (selected Globals.init "R24") ⟨realS false, Store.zero⟩).1 = .ok rows) ∧
    (execute shipped (selected Globals.init "R23") ⟨realS false, Store.zero⟩).1 = .error .other ∧
    (execute shipped (selected Globals.init "r24") ⟨realS false, Store.zero⟩).1 = .error .other := by
  have h (m : String) := C32_init_absmdl m Globals.init (I := ⟨realS false, Store.zero⟩) (realS_good false) rfl
    (fun h => by simp [ozoneActive, Globals.init] at h) (realS_frq false)
  exact ⟨(h _).1 (by decide), (h _).2 (by decide), (h _).2 (by decide)⟩

/-- A cloud: R24 runs, R18 does not. -/
example : (∃ rows, (execute shipped (selected Globals.init "R24") ⟨realS true, Store.zero⟩).1 = .ok rows) ∧
    (execute shipped (selected Globals.init "R18") ⟨realS true, Store.zero⟩).1 = .error .valueError := by
  have h (m : String) := C32_init_absmdl_cloudy m Globals.init (I := ⟨realS true, Store.zero⟩) (realS_good true)
    (fun _ => ⟨_, _, _, _, rfl, rfl⟩) rfl (by decide) (by decide) (dl := fun _ => 1) (di := fun _ => 0) rfl
    ⟨0, by decide, one_pos⟩ (fun i hi _ => by
      have h3 : (i : ℝ) < 3 := by exact_mod_cast hi
      have h0 : (0 : ℝ) ≤ i := Nat.cast_nonneg i
      simp only [realS]
      constructor <;> linarith) (fun h => by simp [ozoneActive, Globals.init] at h) (realS_frq true)
  exact ⟨(h _).1 (by decide), (h _).2 (by decide)⟩

end Verif.Props
