import Verif.Props.Absorbing
import Verif.Props.Dispatch
import Verif.Props.Ozone

/-!
# C117: what an ozone profile changes

Two runs that differ in the ozone profile only.  The runs are compared through what they report.
-/

namespace Verif.Props

open Verif.Py Verif.Spec Verif.Model Real

variable {A : AbsRoutines} {g : Globals} {I I' : Inst} {rows rows' : List Row} {κ : ℕ → ℝ}

/-- The density at level `i`; a run without an ozone profile has none. -/
noncomputable def ozoneAt (n : Option Val) (i : ℕ) : ℝ :=
  match n with
  | none => 0
  | some v => v i

/-- The same run with another ozone profile, or none. -/
def ChangesOzone (I I' : Inst) : Prop :=
  I.set.amu = none ∧ I'.out = I.out ∧ ∃ n, I'.set = { I.set with o3n := n }

/-- An ozone model is selected whose absorption at frequency `f` is `κ i` times the density at level `i`. -/
def OzoneLaw (A : AbsRoutines) (g : Globals) (S : Settings) (f : ℝ) (κ : ℕ → ℝ) : Prop :=
  ∃ m, g.sel.o3 = some m ∧ m ∈ ozoneModels ∧ ∀ i < S.nl, ∀ d, A.o3 m g.o3ll (S.tk i) (S.p i) f d = .ok (κ i * d)

theorem initLineList_o3ll {A : AbsRoutines} {g g1 : Globals} (h : initLineList A g = .ok g1) : g1.o3ll = g.o3ll := by
  unfold initLineList at h
  cases h1 : g.sel.h2o.bind A.h2oFile with
  | none => simp [h1] at h
  | some w =>
    simp only [h1] at h
    cases h2 : g.sel.o2.bind A.o2File with
    | none => simp [h2] at h
    | some o =>
      simp only [h2, Except.ok.injEq] at h
      rw [← h]

theorem ozone_law_term {S : Settings} {f : ℝ} (h : OzoneLaw A g S f κ) {G : Globals} (h1 : G.sel = g.sel)
    (h2 : G.o3ll = g.o3ll) (n : Option Val) {i : ℕ} (hi : i < S.nl) :
    o3Term A G n (S.tk i) (S.p i) f i = .ok (κ i * ozoneAt n i) := by
  obtain ⟨m, hm, hmem, hk⟩ := h
  unfold o3Term ozoneAt
  cases n with
  | none => simp [ozoneActive]
  | some v =>
    rw [if_pos ⟨rfl, m, by rw [h1, hm], hmem⟩, h1, hm, h2]
    exact hk i hi (v i)

/-- The two runs level by level. -/
theorem ozone_views (h : (execute A g I).1 = .ok rows) (h' : (execute A g I').1 = .ok rows') (hc : ChangesOzone I I')
    {j k : ℕ} (hj : j < I.set.nf) (hk : k < I.set.nang) (hl : OzoneLaw A g I.set (I.set.frq j) κ) :
    let c := (execute A g I).2.out.cell j k
    let c' := (execute A g I').2.out.cell j k
    (c'.awet = c.awet ∧ c'.sptauwet = c.sptauwet ∧ c'.ptauwet = c.ptauwet) ∧
      (∀ i < I.set.nl, c'.adry i = c.adry i + κ i * (ozoneAt I'.set.o3n i - ozoneAt I.set.o3n i)) ∧
      ((∀ i < I.set.nl, c'.adry i = c.adry i) → c' = c) := by
  obtain ⟨ham, hout, n, hu⟩ := hc
  intro c c'
  obtain ⟨g1, e, rho, hli, hv, -, hce⟩ := (execute_ok h).ex
  obtain ⟨g1', e', rho', hli', hv', -, hce'⟩ := (execute_ok h').ex
  rw [hli] at hli'; cases hli'
  have ev : vapor I.set.tk I.set.rh I.set.ice = .ok (e', rho') := by rw [hu] at hv'; exact hv'
  rw [hv] at ev; cases ev
  obtain ⟨es, q1, q2⟩ := (hce k hk).2 j hj
  obtain ⟨es', r1, r2⟩ := (hce' k (by rw [hu]; exact hk)).2 j (by rw [hu]; exact hj)
  have ee : I.set.es[j]? = some es' := by rw [hu] at r1; exact r1
  rw [q1] at ee; cases ee
  have hpp : pathOf I'.set (fun i => (refractivity1 (I'.set.p i) (I'.set.tk i) (e i)).2.2) k =
      pathOf I.set (fun i => (refractivity1 (I.set.p i) (I.set.tk i) (e i)).2.2) k := by rw [hu]; rfl
  rw [hpp, hout, cellGlobals_amu (by rw [hu]; exact ham)] at r2
  rw [cellGlobals_amu ham] at q2
  have hsat : I'.set.satellite = I.set.satellite := by rw [hu]
  rw [hsat] at r2
  generalize hG : ({ { g1 with fromSat := I.set.satellite } with emissivity := es } : Globals) = G at q2 r2
  have hG1 : G.sel = g.sel := by rw [← hG]; exact (initLineList_sel hli : g1.sel = g.sel)
  have hG2 : G.o3ll = g.o3ll := by rw [← hG]; exact (initLineList_o3ll hli : g1.o3ll = g.o3ll)
  obtain ⟨a, a1, a2, a3, a4, -⟩ := (cellStep_ok q2).clear
  obtain ⟨b, b1, b2, b3, b4, -⟩ := (cellStep_ok r2).clear
  have sn : I'.set.nl = I.set.nl := by rw [hu]
  have sf : I'.set.frq = I.set.frq := by rw [hu]
  have key : ∀ i < I.set.nl, (b i).1 = (a i).1 ∧
      (b i).2 = (a i).2 + κ i * (ozoneAt I'.set.o3n i - ozoneAt I.set.o3n i) := fun i hi => by
    have x := (tabulateE_ok a1).1 i hi
    have y := (tabulateE_ok b1).1 i (by rw [sn]; exact hi)
    rw [sf, show I'.set.p = I.set.p by rw [hu], show I'.set.tk = I.set.tk by rw [hu]] at y
    unfold clearLevel at x y
    rw [ozone_law_term hl hG1 hG2 _ hi] at x y
    cases hw : G.sel.h2o with
    | none => rw [hw] at x; cases x
    | some mw =>
      cases ho : G.sel.o2 with
      | none => rw [hw, ho] at x; cases x
      | some mo =>
        simp only [hw, ho, bind, Except.bind, pure, Except.pure] at x y
        cases e1 : A.h2o mw G.h2oll (I.set.p i / 10.0 - e i / 10.0) (300.0 / I.set.tk i) (e i / 10.0) (I.set.frq j) with
        | error _ => rw [e1] at x; cases x
        | ok w =>
          cases e2 : A.o2 mo G.o2ll (I.set.p i / 10.0 - e i / 10.0) (300.0 / I.set.tk i) (e i / 10.0) (I.set.frq j) with
          | error _ => rw [e1] at x; simp only [e2] at x; cases x
          | ok o =>
            cases e3 : n2Term A G.sel (I.set.tk i) ((I.set.p i / 10.0 - e i / 10.0) * 10) (I.set.frq j) with
            | error _ => rw [e1] at x; simp only [e2, e3] at x; cases x
            | ok z =>
              rw [e1] at x y
              simp only [e2, e3, Except.ok.injEq] at x y
              rw [← x, ← y]
              exact ⟨rfl, by simp only; ring⟩
  have out : ∀ i, I.set.nl ≤ i → b i = a i := fun i hi => by
    rw [(tabulateE_ok a1).2 i hi, (tabulateE_ok b1).2 i (by rw [sn]; exact hi)]
  have hwet : (fun i => (b i).1) = fun i => (a i).1 := by
    funext i
    rcases lt_or_ge i I.set.nl with hi | hi
    · exact (key i hi).1
    · simp only [out i hi]
  rw [sn, hwet, a4] at b4
  have hw := Prod.mk.inj (Except.ok.inj b4)
  refine ⟨⟨?_, hw.1.symm, hw.2.symm⟩, fun i hi => ?_, fun hz => ?_⟩
  · show c'.awet = c.awet
    rw [b2, a2, hwet]
  · show c'.adry i = c.adry i + _
    rw [b3, a3]
    exact (key i hi).2
  · have hab : b = a := by
      funext i
      rcases lt_or_ge i I.set.nl with hi | hi
      · have := hz i hi
        simp only [c, c', a3, b3] at this
        exact Prod.ext (key i hi).1 this
      · exact out i hi
    unfold cellStep at q2 r2
    rw [a1] at q2
    rw [b1, hab] at r2
    simp only at q2 r2
    have : (.ok c' : Except (PyErr × Cell) Cell) = .ok c := by
      rw [← q2, ← r2, hu]
      rfl
    exact Except.ok.inj this

/-- Ozone leaves the absorption by water vapour alone and adds to that of dry air in proportion to its density, level by
level. -/
theorem C117_level (h : (execute A g I).1 = .ok rows) (h' : (execute A g I').1 = .ok rows') (hc : ChangesOzone I I')
    {j k : ℕ} (hj : j < I.set.nf) (hk : k < I.set.nang) (hl : OzoneLaw A g I.set (I.set.frq j) κ) :
    let c := (execute A g I).2.out.cell j k
    let c' := (execute A g I').2.out.cell j k
    (c'.awet = c.awet ∧ c'.sptauwet = c.sptauwet ∧ c'.ptauwet = c.ptauwet) ∧
      ∀ i < I.set.nl, c'.adry i = c.adry i + κ i * (ozoneAt I'.set.o3n i - ozoneAt I.set.o3n i) :=
  ⟨(ozone_views h h' hc hj hk hl).1, (ozone_views h h' hc hj hk hl).2.1⟩

/-- Where ozone does not absorb, or where its density is not changed, everything reported for the frequency and angle is
the same. -/
theorem C117_same (h : (execute A g I).1 = .ok rows) (h' : (execute A g I').1 = .ok rows') (hc : ChangesOzone I I')
    {j k : ℕ} (hj : j < I.set.nf) (hk : k < I.set.nang) (hl : OzoneLaw A g I.set (I.set.frq j) κ)
    (hz : ∀ i < I.set.nl, κ i = 0 ∨ ozoneAt I'.set.o3n i = ozoneAt I.set.o3n i) :
    (execute A g I').2.out.cell j k = (execute A g I).2.out.cell j k := by
  obtain ⟨-, h2, h3⟩ := ozone_views h h' hc hj hk hl
  refine h3 fun i hi => ?_
  rw [h2 i hi]
  rcases hz i hi with e | e
  · rw [e]; ring
  · rw [e]; ring

theorem sameKind_refl {nl : ℕ} {x : ℕ → ℝ} : SameKind nl x x := fun _ _ _ => Iff.rfl

theorem ozone_absorbs (h : (execute A g I).1 = .ok rows) (h' : (execute A g I').1 = .ok rows') (hc : ChangesOzone I I')
    {j k : ℕ} (hj : j < I.set.nf) (hk : k < I.set.nang) (hl : OzoneLaw A g I.set (I.set.frq j) κ)
    (hκ : ∀ i < I.set.nl, 0 ≤ κ i) (hmore : ∀ i < I.set.nl, ozoneAt I.set.o3n i ≤ ozoneAt I'.set.o3n i)
    (hpos : ∀ i < I.set.nl, 0 < ((execute A g I).2.out.cell j k).awet i ∧ 0 < ((execute A g I).2.out.cell j k).adry i) :
    Absorbs I ((execute A g I).2.out.cell j k) ((execute A g I').2.out.cell j k) := fun i hi => by
  obtain ⟨h1, h2, -⟩ := ozone_views h h' hc hj hk hl
  refine ⟨(hpos i hi).1, by rw [h1.1], (hpos i hi).2, ?_⟩
  rw [h2 i hi]
  have := mul_nonneg (hκ i hi) (sub_nonneg.2 (hmore i hi))
  linarith

theorem changes_scene (hc : ChangesOzone I I') : SameScene I I' := by
  obtain ⟨ham, -, n, hu⟩ := hc
  exact ⟨none, n, by rw [hu, ← ham]⟩

/-- The clouds of the two runs: a simulation of clouds, or no cloud results on the object. -/
theorem changes_clouds (hc : ChangesOzone I I') (hcl : I.set.cloudy = true ∨ I.set.cloudy = false ∧ NoClouds I.out) :
    SameClouds A A g g I I' :=
  hcl.imp (fun h => ⟨h, rfl, rfl⟩) fun h => ⟨h.1, h.2, by rw [hc.2.1]; exact h.2⟩

/-- More ozone: the reported opacity of dry air does not drop by more than 1e-9 Np/km times the path, and not at all if no
layer changes its kind; that of water vapour is the same. -/
theorem C117_opacity (h : (execute A g I).1 = .ok rows) (h' : (execute A g I').1 = .ok rows') (hc : ChangesOzone I I')
    (hcl : I.set.cloudy = true ∨ I.set.cloudy = false ∧ NoClouds I.out) (hn : 1 ≤ I.set.nl)
    {j k : ℕ} (hj : j < I.set.nf) (hk : k < I.set.nang) (hl : OzoneLaw A g I.set (I.set.frq j) κ)
    (hp : GoodPath I.set k)
    (hκ : ∀ i < I.set.nl, 0 ≤ κ i) (hmore : ∀ i < I.set.nl, ozoneAt I.set.o3n i ≤ ozoneAt I'.set.o3n i)
    (hpos : ∀ i < I.set.nl, 0 < ((execute A g I).2.out.cell j k).awet i ∧ 0 < ((execute A g I).2.out.cell j k).adry i) :
    let c := (execute A g I).2.out.cell j k
    let c' := (execute A g I').2.out.cell j k
    ∃ (d : Val) (w y y' : ℝ), (∀ i < I.set.nl, 0 ≤ d i) ∧
      (∀ e rho, vapor I.set.tk I.set.rh I.set.ice = .ok (e, rho) →
        pathOf I.set (fun i => (refractivity1 (I.set.p i) (I.set.tk i) (e i)).2.2) k = .ok d) ∧
      c.sptauwet = some w ∧ c'.sptauwet = some w ∧ c.sptaudry = some y ∧ c'.sptaudry = some y' ∧
      y ≤ y' + 1e-9 * ∑ i ∈ Finset.Ico 1 I.set.nl, d i ∧ (SameKind I.set.nl c.adry c'.adry → y ≤ y') := by
  have hab := ozone_absorbs h h' hc hj hk hl hκ hmore hpos
  obtain ⟨d, w, y, w', y', a1, a2, a3, a4, a5, a6, a7, a8, a9, a10⟩ :=
    C112_opacity h h' (changes_scene hc) (changes_clouds hc hcl) hn hj hk hp hab
  refine ⟨d, w, y, y', a1, a2, a3, ?_, a5, a6, a8, a10⟩
  rw [(ozone_views h h' hc hj hk hl).1.2.1]
  exact a3

/-- From the ground, in air that does not get warmer with height, more ozone does not lower the brightness temperature. -/
theorem C117_ground (h : (execute A g I).1 = .ok rows) (h' : (execute A g I').1 = .ok rows') (hc : ChangesOzone I I')
    (hcl : I.set.cloudy = true ∨ I.set.cloudy = false ∧ NoClouds I.out) (hn : 1 ≤ I.set.nl)
    {j k : ℕ} (hj : j < I.set.nf) (hk : k < I.set.nang) (hl : OzoneLaw A g I.set (I.set.frq j) κ)
    (hp : GoodPath I.set k)
    (hκ : ∀ i < I.set.nl, 0 ≤ κ i) (hmore : ∀ i < I.set.nl, ozoneAt I.set.o3n i ≤ ozoneAt I'.set.o3n i)
    (hpos : ∀ i < I.set.nl, 0 < ((execute A g I).2.out.cell j k).awet i ∧ 0 < ((execute A g I).2.out.cell j k).adry i)
    (hy : SameKind I.set.nl ((execute A g I).2.out.cell j k).adry ((execute A g I').2.out.cell j k).adry)
    (hsat : I.set.satellite = false) (hf : 0 < I.set.frq j) (hco : Cooling I.set.nl I.set.tk)
    (htop : 2.728 ≤ I.set.tk (I.set.nl - 1))
    (hop : ∀ τ, ((execute A g I').2.out.cell j k).taulay = some τ → opacityBelow τ (I.set.nl - 1) < 125) :
    ∃ Tb Tb', ((execute A g I).2.out.cell j k).tbtotal = some Tb ∧
      ((execute A g I').2.out.cell j k).tbtotal = some Tb' ∧ Tb ≤ Tb' :=
  C112_ground h h' (changes_scene hc) (changes_clouds hc hcl) hn hj hk hp (ozone_absorbs h h' hc hj hk hl hκ hmore hpos)
    (by rw [(ozone_views h h' hc hj hk hl).1.1]; exact sameKind_refl) hy hsat hf hco htop hop

/-- From a satellite over a black surface it does not raise it. -/
theorem C117_satellite (h : (execute A g I).1 = .ok rows) (h' : (execute A g I').1 = .ok rows') (hc : ChangesOzone I I')
    (hcl : I.set.cloudy = true ∨ I.set.cloudy = false ∧ NoClouds I.out) (hn : 1 ≤ I.set.nl)
    {j k : ℕ} (hj : j < I.set.nf) (hk : k < I.set.nang) (hl : OzoneLaw A g I.set (I.set.frq j) κ)
    (hp : GoodPath I.set k)
    (hκ : ∀ i < I.set.nl, 0 ≤ κ i) (hmore : ∀ i < I.set.nl, ozoneAt I.set.o3n i ≤ ozoneAt I'.set.o3n i)
    (hpos : ∀ i < I.set.nl, 0 < ((execute A g I).2.out.cell j k).awet i ∧ 0 < ((execute A g I).2.out.cell j k).adry i)
    (hy : SameKind I.set.nl ((execute A g I).2.out.cell j k).adry ((execute A g I').2.out.cell j k).adry)
    (hsat : I.set.satellite = true) (hf : 0 < I.set.frq j) (hco : Cooling I.set.nl I.set.tk)
    (hes : I.set.es[j]? = some 1)
    (hop : ∀ τ, ((execute A g I).2.out.cell j k).taulay = some τ → opacityBelow τ (I.set.nl - 1) < 125) :
    ∃ Tb Tb', ((execute A g I).2.out.cell j k).tbtotal = some Tb ∧
      ((execute A g I').2.out.cell j k).tbtotal = some Tb' ∧ Tb' ≤ Tb :=
  C112_satellite h h' (changes_scene hc) (changes_clouds hc hcl) hn hj hk hp (ozone_absorbs h h' hc hj hk hl hκ hmore hpos)
    (by rw [(ozone_views h h' hc hj hk hl).1.1]; exact sameKind_refl) hy hsat hf hco hes hop

/-! ## The ozone models of the library -/

/-- The centres of the lines in the list of ozone model `m`. -/
def ozoneCentre (m : String) (x : ℝ) : Prop :=
  ∃ (F : LineList) (n : ℕ) (fl : Val) (k : ℕ), ozoneFile m = some F ∧ F "len(fl)" = some (fun _ => (n : ℝ)) ∧ F "fl" = some fl ∧ k < n ∧ fl k = x

/-- Every ozone model that has a line list obeys such a law once it is selected and its list is loaded.  The absorption per
molecule is positive exactly within 1 GHz of a line. -/
theorem C117_law {m : String} {F old : LineList} (hF : ozoneFile m = some F) (hm : g.sel.o3 = some m)
    (hll : g.o3ll = reloadLL F old) (S : Settings) {f : ℝ} (hf : 0 < f) (ht : ∀ i < S.nl, 0 < S.tk i)
    (hp : ∀ i < S.nl, 0 < S.p i) (h22 : m = "R22" → ∀ i < S.nl, S.tk i ≤ 400 ∧ 0.0001 ≤ S.p i) :
    ∃ κ, OzoneLaw shipped g S f κ ∧
      ∀ i < S.nl, 0 ≤ κ i ∧ (0 < κ i ↔ ∃ x, ozoneCentre m x ∧ |x - f| ≤ 1) := by
  have key : ∀ i, ∃ a, i < S.nl → (∀ d, shipped.o3 m g.o3ll (S.tk i) (S.p i) f d = .ok (a * d)) ∧ 0 ≤ a ∧
      (0 < a ↔ ∃ x, ozoneCentre m x ∧ |x - f| ≤ 1) := fun i => by
    by_cases hi : i < S.nl
    · obtain ⟨n, fl, a, e1, e2, e3, e4, e5⟩ := C38_sign hF old (f := f) (d := 1) (ht i hi) (hp i hi).le hf zero_le_one
        fun h => h22 h i hi
      refine ⟨a, fun _ => ⟨fun d => ?_, e4, ?_⟩⟩
      · have := C38_linear hF old (c := d) e3 one_ne_zero
        rw [mul_one] at this
        simp only [shipped, hll, this, finite]
        rw [mul_comm]
      · rw [e5]
        constructor
        · rintro ⟨-, k, hk, hx⟩
          exact ⟨fl k, ⟨F, n, fl, k, hF, e1, e2, hk, rfl⟩, hx⟩
        · rintro ⟨x, ⟨F', n', fl', k, h1, h2, h3, h4, rfl⟩, hx⟩
          rw [hF] at h1; cases h1
          rw [e1] at h2
          rw [e2] at h3; cases h3
          have hn : (n : ℝ) = n' := congrFun (Option.some.inj h2) 0
          have hn : n = n' := by exact_mod_cast hn
          exact ⟨one_pos, k, hn ▸ h4, hx⟩
    · exact ⟨0, fun h => absurd h hi⟩
  choose κ hκ using key
  refine ⟨κ, ⟨m, hm, ?_, fun i hi => (hκ i hi).1⟩, fun i hi => (hκ i hi).2⟩
  rcases (C38_names m).1 (by rw [hF]; rfl) with rfl | rfl | rfl <;> decide

/-- With a model of the library: at frequencies more than 1 GHz from every line of its list, ozone changes nothing. -/
theorem C117_away {m : String} {F old : LineList} (hF : ozoneFile m = some F) (hm : g.sel.o3 = some m)
    (hll : g.o3ll = reloadLL F old) (h : (execute shipped g I).1 = .ok rows) (h' : (execute shipped g I').1 = .ok rows')
    (hc : ChangesOzone I I') {j k : ℕ} (hj : j < I.set.nf) (hk : k < I.set.nang) (hf : 0 < I.set.frq j)
    (ht : ∀ i < I.set.nl, 0 < I.set.tk i) (hp : ∀ i < I.set.nl, 0 < I.set.p i)
    (h22 : m = "R22" → ∀ i < I.set.nl, I.set.tk i ≤ 400 ∧ 0.0001 ≤ I.set.p i)
    (haway : ∀ x, ozoneCentre m x → 1 < |x - I.set.frq j|) :
    (execute shipped g I').2.out.cell j k = (execute shipped g I).2.out.cell j k := by
  obtain ⟨κ, hl, hz⟩ := C117_law hF hm hll I.set hf ht hp h22
  refine C117_same h h' hc hj hk hl fun i hi => Or.inl ?_
  by_contra hne
  obtain ⟨x, hx, hd⟩ := (hz i hi).2.1 (lt_of_le_of_ne (hz i hi).1 (Ne.symm hne))
  exact absurd hd (not_le.2 (haway x hx))

/-! ## Concrete runs -/

/-- `demoA` with an ozone absorption of a hundredth of the density. -/
noncomputable def demoO : AbsRoutines := { demoA with o3 := fun _ _ _ _ _ d => .ok (1 / 100 * d) }

theorem demoO_total : TotalRoutines demoO :=
  ⟨fun _ _ _ _ _ _ => ⟨_, rfl⟩, fun _ _ _ _ _ _ => ⟨_, rfl⟩, fun _ _ _ _ => ⟨_, rfl⟩,
    fun _ _ _ _ _ _ => ⟨_, rfl⟩, fun _ _ _ _ => ⟨_, rfl⟩⟩

/-- A process in which an ozone model is selected too. -/
noncomputable def demoGO : Globals := { demoG with sel := { demoG.sel with o3 := some "R18" } }

/-- The scene of `tipS` with density `n` of ozone at every level. -/
noncomputable def demoOzoneS (sat : Bool) (n : ℝ) : Settings := { tipS sat with o3n := some fun _ => n }

theorem moreOzone_runs (sat : Bool) (n : ℝ) : ∃ rows, (execute demoO demoGO ⟨demoOzoneS sat n, Store.zero⟩).1 = .ok rows :=
  execute_total demoO_total (⟨⟨_, _, rfl, rfl⟩, ⟨_, _, rfl, rfl⟩, ⟨_, rfl⟩, ⟨_, rfl⟩⟩ : Selected demoO demoGO.sel) rfl
    (show 1 ≤ 3 by decide) (by simp [demoOzoneS, tipS, demoS]) (by simp [CloudInput, demoOzoneS, tipS]) rfl
    fun k hk => (sin_pos_of_angle (demo_angles k hk).1 (demo_angles k hk).2).ne'

theorem moreOzone_law (sat : Bool) (n f : ℝ) : OzoneLaw demoO demoGO (demoOzoneS sat n) f fun _ => 1 / 100 :=
  ⟨"R18", rfl, by decide, fun _ _ _ => rfl⟩

theorem ozone_changes (sat : Bool) (n n' : ℝ) : ChangesOzone ⟨demoOzoneS sat n, Store.zero⟩ ⟨demoOzoneS sat n', Store.zero⟩ :=
  ⟨rfl, rfl, _, rfl⟩

theorem demoO_level {G : Globals} (hG : G.sel = demoGO.sel) {p t e f n : ℝ} {i : ℕ} :
    clearLevel demoO G (some fun _ => n) p t e f i = .ok (0.182 * f * db2np, 0.182 * f * 2 * db2np + n / 100) := by
  have ho : o3Term demoO G (some fun _ => n) t p f i = .ok (1 / 100 * n) := by
    unfold o3Term
    rw [if_pos ⟨rfl, "R18", by rw [hG]; rfl, by decide⟩, hG]
    rfl
  have hn : n2Term demoO demoGO.sel t ((p / 10.0 - e / 10.0) * 10) f = .ok 0 := by
    simp [n2Term, demoGO, demoG, demoO, demoA]
  unfold clearLevel
  simp only [ho, hn, hG]
  simp only [demoGO, demoG, demoO, demoA, bind, Except.bind, pure, Except.pure, Except.ok.injEq, Prod.mk.injEq]
  constructor <;> ring

theorem moreOzone_values {sat : Bool} {n : ℝ} {k : ℕ} (hk : k < 2) {i : ℕ} (hi : i < 3) :
    ((execute demoO demoGO ⟨demoOzoneS sat n, Store.zero⟩).2.out.cell 0 k).awet i = 0.182 * 22 * db2np ∧
    ((execute demoO demoGO ⟨demoOzoneS sat n, Store.zero⟩).2.out.cell 0 k).adry i = 0.182 * 22 * 2 * db2np + n / 100 := by
  obtain ⟨rows, h⟩ := moreOzone_runs sat n
  obtain ⟨g1, e, rho, hl, -, -, hc⟩ := (execute_ok h).ex
  obtain ⟨es, q1, q2⟩ := (hc k hk).2 0 (show 0 < 2 by decide)
  obtain ⟨u, u1, u2, u3, -, -⟩ := (cellStep_ok q2).clear
  have hG : (cellGlobals (demoOzoneS sat n) { g1 with fromSat := (demoOzoneS sat n).satellite } es).sel = demoGO.sel := by
    rw [cellGlobals_sel]; exact (initLineList_sel hl : g1.sel = demoGO.sel)
  have := (tabulateE_ok u1).1 i hi
  have hx := (demoO_level hG (n := n) (i := i)).symm.trans this
  rw [u2, u3]
  simp only
  rw [← Except.ok.inj hx]
  simp [demoOzoneS, tipS, demoS]

theorem moreOzone_opacity {sat : Bool} {n : ℝ} (h0 : 0 ≤ n) (h1 : n ≤ 100) {k : ℕ} (hk : k < 2) {τ : Val}
    (ht : ((execute demoO demoGO ⟨demoOzoneS sat n, Store.zero⟩).2.out.cell 0 k).taulay = some τ) :
    opacityBelow τ 2 < 125 := by
  obtain ⟨rows, h⟩ := moreOzone_runs sat n
  have hd := db2np_pos'
  have hd1 := db2np_le
  have ha := demo_angles k hk
  have key := clear_opacity_le h rfl (show 0 < 2 by decide) hk (show 0 < 3 by decide) ha.1 ha.2
    (fun i _ => by simp [demoOzoneS, tipS, demoS]) rfl (fun _ _ => ⟨rfl, rfl, rfl, rfl, rfl⟩) (a := 0.182 * 22)
    (b := 0.182 * 22 * 2 + 1)
    (fun i hi => by
      rw [(moreOzone_values hk hi).1]
      constructor
      · positivity
      · nlinarith)
    (fun i hi => by
      rw [(moreOzone_values hk hi).2]
      constructor
      · positivity
      · nlinarith) ht
  refine lt_of_le_of_lt key ?_
  have hs : 1 / 2 ≤ sin ((tipS sat).angles k * π / 180) := by
    have : k = 0 ∨ k = 1 := by omega
    rcases this with rfl | rfl
    · simp only [tipS, demoS]
      norm_num
      rw [show 90 * π / 180 = π / 2 by ring, sin_pi_div_two]
      norm_num
    · simp only [tipS, demoS]
      norm_num
      rw [show 30 * π / 180 = π / 6 by ring, sin_pi_div_six]
  have hp : 0 < sin ((tipS sat).angles k * π / 180) := by linarith
  simp only [demoOzoneS, tipS, demoS] at hs hp ⊢
  rw [div_mul_eq_mul_div, div_lt_iff₀ hp]
  norm_num
  linarith

theorem moreOzone_path (sat : Bool) (n : ℝ) {k : ℕ} (hk : k < 2) : GoodPath (demoOzoneS sat n) k :=
  goodPath_plane rfl (demo_angles k hk).1 (demo_angles k hk).2 fun i _ => by simp [demoOzoneS, tipS, demoS]

theorem moreOzone_pos {sat : Bool} {n : ℝ} (h0 : 0 ≤ n) : ∀ i < 3,
    0 < ((execute demoO demoGO ⟨demoOzoneS sat n, Store.zero⟩).2.out.cell 0 1).awet i ∧
    0 < ((execute demoO demoGO ⟨demoOzoneS sat n, Store.zero⟩).2.out.cell 0 1).adry i := fun i hi => by
  have hd := db2np_pos'
  rw [(moreOzone_values (by decide) hi).1, (moreOzone_values (by decide) hi).2]
  constructor <;> positivity

theorem moreOzone_kind {sat : Bool} {n n' : ℝ} : SameKind 3
    ((execute demoO demoGO ⟨demoOzoneS sat n, Store.zero⟩).2.out.cell 0 1).adry
    ((execute demoO demoGO ⟨demoOzoneS sat n', Store.zero⟩).2.out.cell 0 1).adry := fun i h1 h2 => by
  have h3 : i - 1 < 3 := by omega
  rw [(moreOzone_values (by decide) h2).2, (moreOzone_values (by decide) h2).2, (moreOzone_values (by decide) h3).2,
    (moreOzone_values (by decide) h3).2, sub_self, sub_self]

example : ∃ Tb Tb', ((execute demoO demoGO ⟨demoOzoneS false 1, Store.zero⟩).2.out.cell 0 1).tbtotal = some Tb ∧
    ((execute demoO demoGO ⟨demoOzoneS false 100, Store.zero⟩).2.out.cell 0 1).tbtotal = some Tb' ∧ Tb ≤ Tb' := by
  obtain ⟨rows, h⟩ := moreOzone_runs false 1
  obtain ⟨rows', h'⟩ := moreOzone_runs false 100
  exact C117_ground h h' (ozone_changes _ _ _) (Or.inr ⟨rfl, fun _ _ => ⟨rfl, rfl, rfl, rfl, rfl⟩⟩) (show 1 ≤ 3 by decide)
    (show 0 < 2 by decide) (show 1 < 2 by decide) (moreOzone_law _ _ _) (moreOzone_path _ _ (by decide)) (fun _ _ => by norm_num)
    (fun _ _ => by norm_num [ozoneAt, demoOzoneS]) (moreOzone_pos zero_le_one) moreOzone_kind rfl
    (by norm_num [demoOzoneS, tipS, demoS]) (tip_cooling false) (by norm_num [demoOzoneS, tipS, demoS])
    fun τ ht => moreOzone_opacity (by norm_num) le_rfl (by decide) ht

example : ∃ Tb Tb', ((execute demoO demoGO ⟨demoOzoneS true 1, Store.zero⟩).2.out.cell 0 1).tbtotal = some Tb ∧
    ((execute demoO demoGO ⟨demoOzoneS true 100, Store.zero⟩).2.out.cell 0 1).tbtotal = some Tb' ∧ Tb' ≤ Tb := by
  obtain ⟨rows, h⟩ := moreOzone_runs true 1
  obtain ⟨rows', h'⟩ := moreOzone_runs true 100
  exact C117_satellite h h' (ozone_changes _ _ _) (Or.inr ⟨rfl, fun _ _ => ⟨rfl, rfl, rfl, rfl, rfl⟩⟩)
    (show 1 ≤ 3 by decide) (show 0 < 2 by decide) (show 1 < 2 by decide) (moreOzone_law _ _ _) (moreOzone_path _ _ (by decide))
    (fun _ _ => by norm_num) (fun _ _ => by norm_num [ozoneAt, demoOzoneS]) (moreOzone_pos zero_le_one) moreOzone_kind rfl
    (by norm_num [demoOzoneS, tipS, demoS]) (tip_cooling true) (by simp [demoOzoneS, tipS, demoS])
    fun τ ht => moreOzone_opacity zero_le_one (by norm_num) (by decide) ht

/-- With R24 for the other gases and R18 for ozone, at 22 GHz (more than 1 GHz from every ozone line) the two runs of a
real profile with and without ozone agree in everything. -/
example : ∃ F, ozoneFile "R18" = some F ∧
    let g := selected { Globals.init with sel := { Globals.init.sel with o3 := some "R18" }
                                          o3ll := reloadLL F fun _ => none } "R24"
    (execute shipped g ⟨{ realS false with o3n := some fun _ => 1e18 }, Store.zero⟩).2.out.cell 0 1 =
      (execute shipped g ⟨realS false, Store.zero⟩).2.out.cell 0 1 := by
  obtain ⟨F, hF⟩ := Option.isSome_iff_exists.1 ((C38_names "R18").2 (by simp))
  refine ⟨F, hF, ?_⟩
  intro g
  have hr := realS_good false
  obtain ⟨rows, h⟩ := (C32_init_absmdl "R24" { Globals.init with sel := { Globals.init.sel with o3 := some "R18" }
                                                                 o3ll := reloadLL F fun _ => none }
    (I := ⟨realS false, Store.zero⟩) hr rfl (fun _ => ⟨_, F, _, hF, rfl⟩) (realS_frq false)).1 (by decide)
  obtain ⟨rows', h'⟩ := (C32_init_absmdl "R24" { Globals.init with sel := { Globals.init.sel with o3 := some "R18" }
                                                                   o3ll := reloadLL F fun _ => none }
    (I := ⟨{ realS false with o3n := some fun _ => 1e18 }, Store.zero⟩)
    ⟨hr.levels, hr.emissivity, hr.frq, hr.tk, hr.p, hr.rh, hr.vapour, hr.ice, hr.amu, hr.path⟩ rfl
    (fun _ => ⟨_, F, _, hF, rfl⟩) (realS_frq false)).1 (by decide)
  refine C117_away hF (old := fun _ => none) rfl rfl h h' ⟨rfl, rfl, _, rfl⟩ (show 0 < 2 by decide) (show 1 < 2 by decide)
    (hr.frq 0 (show 0 < 2 by decide)) hr.tk hr.p (fun h => absurd h (by decide)) fun x hx => ?_
  by_contra hc
  have hf : (realS false).frq 0 = 22 := by simp [realS, demoS]
  obtain ⟨n, fl, a, e1, e2, e3, -, e5⟩ := C38_sign hF (fun _ => none) (t := 250) (p := 10) (f := 22) (d := 1) (by norm_num)
    (by norm_num) (by norm_num) zero_le_one (fun h => absurd h (by decide))
  have z := (C38_step (Or.inl rfl) hF (fun _ => none) (t := 250) (p := 10) (d := 1) (by norm_num) (by norm_num) one_pos).1 22
    (by norm_num) (by rw [firstLine, if_pos rfl]; norm_num)
  rw [z] at e3
  cases e3
  obtain ⟨F', n', fl', k, h1, h2, h3, h4, rfl⟩ := hx
  rw [hF] at h1; cases h1
  rw [e1] at h2
  rw [e2] at h3; cases h3
  have hn : (n : ℝ) = n' := congrFun (Option.some.inj h2) 0
  have hn : n = n' := by exact_mod_cast hn
  exact lt_irrefl 0 (e5.2 ⟨one_pos, k, hn ▸ h4, by rw [← hf]; exact not_lt.1 hc⟩)

end Verif.Props
