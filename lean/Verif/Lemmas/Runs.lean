import Verif.Lemmas.SimulatorCell

/-!
# Runs that end normally, and runs that fail in the first cell, from what happens at each level
-/

namespace Verif.Model

open Verif.Py Real

/-- A run ends normally if no level raises. -/
theorem execute_of_levels {A : AbsRoutines} {g g1 : Globals} {I : Inst} (hl : initLineList A g = .ok g1)
    (hn : 1 ≤ I.set.nl) (hes : I.set.nf ≤ I.set.es.length) (hc : CloudInput I.set) {e rho : Val}
    (hv : vapor I.set.tk I.set.rh I.set.ice = .ok (e, rho))
    (hd : ∀ k < I.set.nang,
      ∃ d, pathOf I.set (fun i => (refractivity1 (I.set.p i) (I.set.tk i) (e i)).2.2) k = .ok d)
    (hclear : ∀ es, ∀ j < I.set.nf, ∀ i < I.set.nl, ∃ r,
      clearLevel A (cellGlobals I.set { g1 with fromSat := I.set.satellite } es) I.set.o3n (I.set.p i) (I.set.tk i) (e i)
        (I.set.frq j) i = .ok r)
    (hcloud : I.set.cloudy = true → ∀ dl di, I.set.dens = some (dl, di) → ∀ j < I.set.nf, ∀ i < I.set.nl, ∃ r,
      liqTerm A g1.sel.liq (I.set.tk i) (dl i) (I.set.frq j) = .ok r) :
    ∃ rows, (execute A g I).1 = .ok rows := by
  have hcell : ∀ k < I.set.nang, ∀ j < I.set.nf, ∃ es c', I.set.es[j]? = some es ∧
      cellStep A I.set e (pathOf I.set (fun i => (refractivity1 (I.set.p i) (I.set.tk i) (e i)).2.2) k) j
        (cellGlobals I.set { g1 with fromSat := I.set.satellite } es) (I.out.cell j k) = .ok c' := by
    intro k hk j hj
    refine ⟨I.set.es[j], ?_⟩
    obtain ⟨d, hd⟩ := hd k hk
    rw [hd]
    obtain ⟨c', h⟩ := cellStep_total (A := A) (S := I.set) (e := e) (j := j) (c := I.out.cell j k) (d := d)
      (g := cellGlobals I.set { g1 with fromSat := I.set.satellite } I.set.es[j]) hn hc
      (tabulateE_total fun i hi => hclear _ j hj i hi) fun hcl dl di hdn => tabulateE_total fun i hi => by
        obtain ⟨r, hr⟩ := hcloud hcl dl di hdn j hj i hi
        rw [cellGlobals_sel]
        unfold cloudyLevel
        simp only [hr, Except.map]
        exact ⟨_, rfl⟩
    exact ⟨c', by simp [show j < I.set.es.length by omega], h⟩
  have hpath : ∀ k < I.set.nang, ∃ q,
      pathStep I.set rho (fun i => (refractivity1 (I.set.p i) (I.set.tk i) (e i)).2.1)
        (fun i => (refractivity1 (I.set.p i) (I.set.tk i) (e i)).1)
        (pathOf I.set (fun i => (refractivity1 (I.set.p i) (I.set.tk i) (e i)).2.2) k)
        (I.out.path k) = .ok q := by
    intro k hk
    obtain ⟨d, hd⟩ := hd k hk
    rw [hd]
    exact pathStep_total hc
  have : Nonempty PathOut := ⟨PathOut.zero⟩
  have : Nonempty Cell := ⟨Cell.zero⟩
  choose! P hP using hpath
  choose! E C hC using hcell
  exact ⟨_, (execute_of_steps (P := P) (C := fun j k => C k j) hl hv fun k hk =>
    ⟨hP k hk, fun j hj => ⟨E k j, hC k hk j hj⟩⟩).1⟩

/-- If every entry is fine or raises `x`, and one raises, the table raises `x`. -/
theorem tabulateE_error {α : Type*} {n : ℕ} {f : ℕ → Except PyErr α} {d : α} {x : PyErr}
    (h : ∀ i < n, (∃ r, f i = .ok r) ∨ f i = .error x) (hx : ∃ i < n, f i = .error x) :
    tabulateE n f d = .error x := by
  unfold tabulateE
  rcases forRangeE_inv (f := fun i s => (f i).map fun v => Function.update s i v) (s := fun _ : ℕ => d) (lo := 0)
    (hi := n) (I := fun k _ => ∀ i < k, ∃ r, f i = .ok r) (E := fun y => y = x) (Nat.zero_le _)
    (fun i hi => absurd hi (Nat.not_lt_zero i)) (by
      intro k s _ hk hinv
      rcases h k hk with ⟨r, hr⟩ | hr
      · refine Or.inl ⟨_, by rw [hr]; rfl, fun i hi => ?_⟩
        rcases Nat.lt_succ_iff_lt_or_eq.1 hi with hi | rfl
        · exact hinv i hi
        · exact ⟨r, hr⟩
      · exact Or.inr ⟨x, by rw [hr]; rfl, rfl⟩) with ⟨t, -, hall⟩ | ⟨y, hy, rfl⟩
  · obtain ⟨i, hi, hxi⟩ := hx
    obtain ⟨r, hr⟩ := hall i hi
    rw [hr] at hxi; cases hxi
  · exact hy

/-- An exception in the first cell is the outcome of the run. -/
theorem execute_first_error {A : AbsRoutines} {g g1 : Globals} {I : Inst} (hl : initLineList A g = .ok g1)
    (hc : CloudInput I.set) {e rho : Val} (hv : vapor I.set.tk I.set.rh I.set.ice = .ok (e, rho))
    (hang : 0 < I.set.nang) (hnf : 0 < I.set.nf) {es : ℝ} (hes : I.set.es[0]? = some es) {d : Val}
    (hd : pathOf I.set (fun i => (refractivity1 (I.set.p i) (I.set.tk i) (e i)).2.2) 0 = .ok d) {x : PyErr} {c : Cell}
    (hx : cellStep A I.set e (.ok d) 0 (cellGlobals I.set { g1 with fromSat := I.set.satellite } es)
      (I.out.cell 0 0) = .error (x, c)) : (execute A g I).1 = .error x := by
  obtain ⟨q, hq⟩ := pathStep_total (S := I.set) (rho := rho)
    (wetn := fun i => (refractivity1 (I.set.p i) (I.set.tk i) (e i)).2.1)
    (dryn := fun i => (refractivity1 (I.set.p i) (I.set.tk i) (e i)).1) (d := d) (q := I.out.path 0) hc
  unfold execute
  simp only [hl, hv]
  rw [forRangeE_step hang]
  have hb : ∃ s, angleBody A I.set e rho (fun i => (refractivity1 (I.set.p i) (I.set.tk i) (e i)).2.1)
      (fun i => (refractivity1 (I.set.p i) (I.set.tk i) (e i)).1)
      (fun i => (refractivity1 (I.set.p i) (I.set.tk i) (e i)).2.2) 0
      ⟨{ g1 with fromSat := I.set.satellite }, I.out⟩ = .error (x, s) := by
    unfold angleBody
    simp only [hd, hq]
    rw [forRangeE_step hnf, freqBody_eq (GInv.refl I.set { g1 with fromSat := I.set.satellite })]
    simp only [hes]
    have : (I.out.setPath 0 q).cell 0 0 = I.out.cell 0 0 := rfl
    rw [this, hx]
    exact ⟨_, rfl⟩
  obtain ⟨s, hs⟩ := hb
  rw [hs]
  rfl

/-- A level of the clear-sky absorption that raises `x` ends the run with `x`. -/
theorem execute_clear_error {A : AbsRoutines} {g g1 : Globals} {I : Inst} (hl : initLineList A g = .ok g1)
    (hc : CloudInput I.set) {e rho : Val} (hv : vapor I.set.tk I.set.rh I.set.ice = .ok (e, rho))
    (hang : 0 < I.set.nang) (hnf : 0 < I.set.nf) (hes : I.set.nf ≤ I.set.es.length)
    (hd : ∃ d, pathOf I.set (fun i => (refractivity1 (I.set.p i) (I.set.tk i) (e i)).2.2) 0 = .ok d) {x : PyErr}
    (h : ∀ es, ∀ i < I.set.nl, (∃ r, clearLevel A (cellGlobals I.set { g1 with fromSat := I.set.satellite } es) I.set.o3n
        (I.set.p i) (I.set.tk i) (e i) (I.set.frq 0) i = .ok r) ∨
      clearLevel A (cellGlobals I.set { g1 with fromSat := I.set.satellite } es) I.set.o3n
        (I.set.p i) (I.set.tk i) (e i) (I.set.frq 0) i = .error x)
    (hx : ∃ i < I.set.nl, ∀ es, clearLevel A (cellGlobals I.set { g1 with fromSat := I.set.satellite } es) I.set.o3n
        (I.set.p i) (I.set.tk i) (e i) (I.set.frq 0) i = .error x) : (execute A g I).1 = .error x := by
  obtain ⟨d, hd⟩ := hd
  obtain ⟨i, hi, hxi⟩ := hx
  refine execute_first_error hl hc hv hang hnf (es := I.set.es[0]) (by simp) hd (c := I.out.cell 0 0) ?_
  unfold cellStep clearsky
  rw [tabulateE_error (h _) ⟨i, hi, hxi _⟩]

/-- A level of the liquid absorption that raises `x` ends the run with `x` if the clear-sky part is fine. -/
theorem execute_liquid_error {A : AbsRoutines} {g g1 : Globals} {I : Inst} (hl : initLineList A g = .ok g1)
    (hn : 1 ≤ I.set.nl) (hc : CloudInput I.set) {e rho : Val}
    (hv : vapor I.set.tk I.set.rh I.set.ice = .ok (e, rho))
    (hang : 0 < I.set.nang) (hnf : 0 < I.set.nf) (hes : I.set.nf ≤ I.set.es.length)
    (hd : ∃ d, pathOf I.set (fun i => (refractivity1 (I.set.p i) (I.set.tk i) (e i)).2.2) 0 = .ok d)
    (hclear : ∀ es, ∀ i < I.set.nl, ∃ r,
      clearLevel A (cellGlobals I.set { g1 with fromSat := I.set.satellite } es) I.set.o3n (I.set.p i) (I.set.tk i) (e i)
        (I.set.frq 0) i = .ok r) (hcl : I.set.cloudy = true) {dl di : Val} (hdn : I.set.dens = some (dl, di)) {x : PyErr}
    (h : ∀ i < I.set.nl, (∃ r, liqTerm A g1.sel.liq (I.set.tk i) (dl i) (I.set.frq 0) = .ok r) ∨
      liqTerm A g1.sel.liq (I.set.tk i) (dl i) (I.set.frq 0) = .error x)
    (hx : ∃ i < I.set.nl, liqTerm A g1.sel.liq (I.set.tk i) (dl i) (I.set.frq 0) = .error x) :
    (execute A g I).1 = .error x := by
  obtain ⟨d, hd⟩ := hd
  have hcloud : cloudyAbs A g1.sel.liq I.set.nl I.set.tk dl di (I.set.frq 0) = .error x := by
    refine tabulateE_error (fun i hi => ?_) ?_
    · rcases h i hi with ⟨r, hr⟩ | hr
      · exact Or.inl ⟨_, by unfold cloudyLevel; rw [hr]; rfl⟩
      · exact Or.inr (by unfold cloudyLevel; rw [hr]; rfl)
    · obtain ⟨i, hi, hr⟩ := hx
      exact ⟨i, hi, by unfold cloudyLevel; rw [hr]; rfl⟩
  obtain ⟨a, ha⟩ := tabulateE_total (d := ((0, 0) : ℝ × ℝ)) (hclear I.set.es[0])
  obtain ⟨s1, x1, e1⟩ := integ_path_ok (z := true) (x := fun i => (a i).1) (d := d) (factor := 1) hn
  obtain ⟨s2, x2, e2⟩ := integ_path_ok (z := true) (x := fun i => (a i).2) (d := d) (factor := 1) hn
  have : ∃ c, cellStep A I.set e (.ok d) 0 (cellGlobals I.set { g1 with fromSat := I.set.satellite } I.set.es[0])
      (I.out.cell 0 0) = .error (x, c) := by
    unfold cellStep clearsky cellClear
    simp only [ha, e1, e2, Except.bind]
    unfold cellCloud
    simp only [hcl, if_true, hdn, cellGlobals_sel, hcloud]
    exact ⟨_, rfl⟩
  obtain ⟨c, hcc⟩ := this
  exact execute_first_error hl hc hv hang hnf (es := I.set.es[0]) (by simp) hd hcc

end Verif.Model
