import Verif.Lemmas.Simulator
import Verif.Props.Integration
import Verif.Props.Radiance

/-! # Content of one cell after a run, success of runs -/

namespace Verif.Model

open Verif.Py Verif.Props Real

/-- What a normally ending `cellStep` leaves in the cell. -/
structure CellOk (A : AbsRoutines) (S : Settings) (e : Val) (ds : Path) (j : ℕ) (g : Globals) (c c' : Cell) :
    Prop where
  clear : ∃ a, clearsky A g S e (S.frq j) = .ok a ∧ c'.awet = (fun i => (a i).1) ∧ c'.adry = (fun i => (a i).2) ∧
    integ true S.nl (fun i => (a i).1) ds 1 1 = .ok (c'.sptauwet, c'.ptauwet) ∧
    integ true S.nl (fun i => (a i).2) ds 1 1 = .ok (c'.sptaudry, c'.ptaudry)
  cloud : S.cloudy = true → ∃ dl di b, S.dens = some (dl, di) ∧
    cloudyAbs A g.sel.liq S.nl S.tk dl di (S.frq j) = .ok b ∧
    integ false S.nl (fun i => (b i).1) ds 1 1 = .ok (c'.sptauliq, c'.ptauliq) ∧
    integ false S.nl (fun i => (b i).2) ds 1 1 = .ok (c'.sptauice, c'.ptauice)
  stale : S.cloudy = false → StaleEq c c'
  nonfin : c'.taulay = none → c'.tbtotal = none ∧ c'.tbatm = none ∧ c'.tmr = none
  rad : ∀ tau, c'.taulay = some tau → ∃ out, planck g.fromSat g.emissivity (S.frq j) S.nl S.tk tau = some out ∧
    c'.tbtotal = bright out.hvk out.boftotl ∧ c'.tbatm = bright out.hvk (out.boftatm (S.nl - 1)) ∧
    c'.tmr = out.boftmr.bind (bright out.hvk) ∧
    (S.cloudy = true → ∃ b t cs, S.clouds = some ((b, t) :: cs) ∧
      c'.tmrcld = (cloudTemp b t out.hvk out.tauprof out.boftatm).join)

theorem Except.bind_ok' {ε α β : Type*} {x : Except ε α} {f : α → Except ε β} {b : β} (h : x.bind f = .ok b) :
    ∃ a, x = .ok a ∧ f a = .ok b := by
  cases x with
  | error e => cases h
  | ok a => exact ⟨a, rfl, h⟩

theorem cellRadiance_ok {g : Globals} {S : Settings} {frq : ℝ} {c c' : Cell} (h : cellRadiance g S frq c = .ok c') :
    (c'.awet = c.awet ∧ c'.adry = c.adry ∧ c'.ptauwet = c.ptauwet ∧ c'.ptaudry = c.ptaudry ∧
      c'.ptauliq = c.ptauliq ∧ c'.ptauice = c.ptauice ∧ c'.sptauwet = c.sptauwet ∧ c'.sptaudry = c.sptaudry ∧
      c'.sptauliq = c.sptauliq ∧ c'.sptauice = c.sptauice ∧ c'.taulay = c.taulay) ∧
    (S.cloudy = false → c'.tmrcld = c.tmrcld) ∧
    (c.taulay = none → c'.tbtotal = none ∧ c'.tbatm = none ∧ c'.tmr = none) ∧
    ∀ tau, c.taulay = some tau → ∃ out, planck g.fromSat g.emissivity frq S.nl S.tk tau = some out ∧
      c'.tbtotal = bright out.hvk out.boftotl ∧ c'.tbatm = bright out.hvk (out.boftatm (S.nl - 1)) ∧
      c'.tmr = out.boftmr.bind (bright out.hvk) ∧
      (S.cloudy = true → ∃ b t cs, S.clouds = some ((b, t) :: cs) ∧
        c'.tmrcld = (cloudTemp b t out.hvk out.tauprof out.boftatm).join) := by
  unfold cellRadiance at h
  cases ht : c.taulay with
  | none =>
    rw [ht] at h
    simp only at h
    split_ifs at h with hcl
    · rcases hc : S.clouds with _ | _ | ⟨x, cs⟩
      · rw [hc] at h; cases h
      · rw [hc] at h; cases h
      · rw [hc] at h
        cases h
        exact ⟨⟨rfl, rfl, rfl, rfl, rfl, rfl, rfl, rfl, rfl, rfl, ht⟩, fun h => by simp [hcl] at h,
          fun _ => ⟨rfl, rfl, rfl⟩, fun _ h => by cases h⟩
    · cases h
      exact ⟨⟨rfl, rfl, rfl, rfl, rfl, rfl, rfl, rfl, rfl, rfl, ht⟩, fun _ => rfl,
          fun _ => ⟨rfl, rfl, rfl⟩, fun _ h => by cases h⟩
  | some tau =>
    rw [ht] at h
    simp only at h
    cases hp : planck g.fromSat g.emissivity frq S.nl S.tk tau with
    | none => rw [hp] at h; cases h
    | some out =>
      rw [hp] at h
      simp only at h
      split_ifs at h with hcl
      · rcases hc : S.clouds with _ | _ | ⟨⟨b, t⟩, cs⟩
        · rw [hc] at h; cases h
        · rw [hc] at h; cases h
        · rw [hc] at h
          cases h
          exact ⟨⟨rfl, rfl, rfl, rfl, rfl, rfl, rfl, rfl, rfl, rfl, ht⟩, fun h => by simp [hcl] at h,
            (fun h => by cases h),
            fun tau' h => by cases h; exact ⟨out, hp, rfl, rfl, rfl, fun _ => ⟨b, t, cs, rfl, rfl⟩⟩⟩
      · cases h
        exact ⟨⟨rfl, rfl, rfl, rfl, rfl, rfl, rfl, rfl, rfl, rfl, ht⟩, fun _ => rfl,
            (fun h => by cases h),
            fun tau' h => by cases h; exact ⟨out, hp, rfl, rfl, rfl, fun h => absurd h hcl⟩⟩

theorem cellStep_ok {A : AbsRoutines} {S : Settings} {e : Val} {ds : Path} {j : ℕ} {g : Globals} {c c' : Cell}
    (h : cellStep A S e ds j g c = .ok c') : CellOk A S e ds j g c c' := by
  unfold cellStep at h
  cases ha : clearsky A g S e (S.frq j) with
  | error x => rw [ha] at h; cases h
  | ok a =>
    rw [ha] at h
    simp only at h
    obtain ⟨c1, h1, h⟩ := Except.bind_ok' h
    obtain ⟨c2, h2, h3⟩ := Except.bind_ok' h
    obtain ⟨⟨r1, r2, r3, r4, r5, r6, r7, r8, r9, r10, r11⟩, r12, r13, r14⟩ := cellRadiance_ok h3
    unfold cellClear at h1
    simp only at h1
    cases hw : integ true S.nl (fun i => (a i).1) ds 1 1 with
    | error x => rw [hw] at h1; cases h1
    | ok w =>
      rw [hw] at h1
      simp only at h1
      cases hd : integ true S.nl (fun i => (a i).2) ds 1 1 with
      | error x => rw [hd] at h1; cases h1
      | ok d =>
        rw [hd] at h1
        simp only at h1
        cases h1
        unfold cellCloud at h2
        by_cases hcl : S.cloudy = true
        · simp only [hcl, if_true] at h2
          cases hdn : S.dens with
          | none => rw [hdn] at h2; cases h2
          | some dd =>
            obtain ⟨dl, di⟩ := dd
            rw [hdn] at h2
            simp only at h2
            cases hb : cloudyAbs A g.sel.liq S.nl S.tk dl di (S.frq j) with
            | error x => rw [hb] at h2; cases h2
            | ok b =>
              rw [hb] at h2
              simp only at h2
              cases hli : integ false S.nl (fun i => (b i).1) ds 1 1 with
              | error x => rw [hli] at h2; cases h2
              | ok l =>
                rw [hli] at h2
                simp only at h2
                cases hii : integ false S.nl (fun i => (b i).2) ds 1 1 with
                | error x => rw [hii] at h2; cases h2
                | ok i =>
                  rw [hii] at h2
                  simp only at h2
                  cases h2
                  refine ⟨⟨a, ha, r1, r2, ?_, ?_⟩, fun _ => ⟨dl, di, b, hdn, hb, ?_, ?_⟩,
                    fun h => by simp [hcl] at h, ?_, ?_⟩
                  · rw [r7, r3, hw]
                  · rw [r8, r4, hd]
                  · rw [r9, r5, hli]
                  · rw [r10, r6, hii]
                  · intro ht; rw [r11] at ht; exact r13 ht
                  · intro t ht; rw [r11] at ht; exact r14 t ht
        · rw [if_neg hcl] at h2
          cases h2
          refine ⟨⟨a, ha, r1, r2, ?_, ?_⟩, fun h => absurd h hcl, fun hf => ?_, ?_, ?_⟩
          · rw [r7, r3, hw]
          · rw [r8, r4, hd]
          · exact ⟨r5.symm, r6.symm, r9.symm, r10.symm, (r12 hf).symm⟩
          · intro ht; rw [r11] at ht; exact r13 ht
          · intro t ht; rw [r11] at ht; exact r14 t ht

/-- Path integrals left by a normally ending `pathStep`. -/
theorem pathStep_ok {S : Settings} {rho wetn dryn : Val} {ds : Path} {q q' : PathOut}
    (h : pathStep S rho wetn dryn ds q = .ok q') :
    (∃ x, integ true S.nl rho ds 0 0.1 = .ok (q'.srho, x)) ∧
    (∃ x, integ true S.nl wetn ds 0 0.1 = .ok (q'.swet, x)) ∧
    (∃ x, integ true S.nl dryn ds 0 0.1 = .ok (q'.sdry, x)) ∧
    (S.cloudy = true → ∃ dl di cl, S.dens = some (dl, di) ∧ S.clouds = some cl ∧
      cloudDen dl ds cl = .ok q'.sliq ∧ cloudDen di ds cl = .ok q'.sice) ∧
    (S.cloudy = false → q'.sliq = q.sliq ∧ q'.sice = q.sice) := by
  unfold pathStep at h
  cases h1 : integ true S.nl rho ds 0 0.1 with
  | error x => rw [h1] at h; cases h
  | ok a =>
  rw [h1] at h
  simp only at h
  cases h2 : integ true S.nl wetn ds 0 0.1 with
  | error x => rw [h2] at h; cases h
  | ok b =>
  rw [h2] at h
  simp only at h
  cases h3 : integ true S.nl dryn ds 0 0.1 with
  | error x => rw [h3] at h; cases h
  | ok c =>
  rw [h3] at h
  simp only at h
  by_cases hcl : S.cloudy = true
  · simp only [hcl, if_true] at h
    rcases hd : S.dens with _ | ⟨dl, di⟩
    · rw [hd] at h; cases h
    rcases hc : S.clouds with _ | cl
    · rw [hd, hc] at h; cases h
    rw [hd, hc] at h
    simp only at h
    cases h4 : cloudDen dl ds cl with
    | error x => rw [h4] at h; cases h
    | ok l =>
    rw [h4] at h
    simp only at h
    cases h5 : cloudDen di ds cl with
    | error x => rw [h5] at h; cases h
    | ok i =>
    rw [h5] at h
    cases h
    exact ⟨⟨a.2, rfl⟩, ⟨b.2, rfl⟩, ⟨c.2, rfl⟩, fun _ => ⟨dl, di, cl, rfl, rfl, h4, h5⟩,
      fun h => by simp [hcl] at h⟩
  · rw [if_neg hcl] at h
    cases h
    exact ⟨⟨a.2, rfl⟩, ⟨b.2, rfl⟩, ⟨c.2, rfl⟩, fun h => absurd h hcl, fun _ => ⟨rfl, rfl⟩⟩

/-! ## Success -/

theorem integ_path_ok {z : Bool} {nl : ℕ} {x d : Val} {ibeg : ℕ} {factor : ℝ} (h : ibeg ≤ nl) :
    ∃ s xds, integ z nl x (.ok d) ibeg factor = .ok (some s, some xds) := by
  obtain ⟨r, hr⟩ := C15_total (z := z) (x := x) (ds := d) (factor := factor) h
  exact ⟨r.1, r.2, by simp only [integ, hr, Except.map]⟩

/-- Cloud input is present when it is needed. -/
def CloudInput (S : Settings) : Prop :=
  S.cloudy = true → ∃ dl di c cs, S.dens = some (dl, di) ∧ S.clouds = some (c :: cs)

theorem pathStep_total {S : Settings} {rho wetn dryn d : Val} {q : PathOut} (hc : CloudInput S) :
    ∃ q', pathStep S rho wetn dryn (.ok d) q = .ok q' := by
  unfold pathStep
  obtain ⟨s1, x1, e1⟩ := integ_path_ok (z := true) (x := rho) (d := d) (factor := 0.1) (Nat.zero_le S.nl)
  obtain ⟨s2, x2, e2⟩ := integ_path_ok (z := true) (x := wetn) (d := d) (factor := 0.1) (Nat.zero_le S.nl)
  obtain ⟨s3, x3, e3⟩ := integ_path_ok (z := true) (x := dryn) (d := d) (factor := 0.1) (Nat.zero_le S.nl)
  simp only [e1, e2, e3]
  by_cases hcl : S.cloudy = true
  · obtain ⟨dl, di, c, cs, h1, h2⟩ := hc hcl
    simp only [hcl, if_true, h1, h2, cloudDen]
    exact ⟨_, rfl⟩
  · rw [if_neg hcl]; exact ⟨_, rfl⟩

theorem cellStep_total {A : AbsRoutines} {S : Settings} {e d : Val} {j : ℕ} {g : Globals} {c : Cell}
    (hn : 1 ≤ S.nl) (hc : CloudInput S) (hclear : ∃ a, clearsky A g S e (S.frq j) = .ok a)
    (hcloud : S.cloudy = true → ∀ dl di, S.dens = some (dl, di) →
      ∃ b, cloudyAbs A g.sel.liq S.nl S.tk dl di (S.frq j) = .ok b) :
    ∃ c', cellStep A S e (.ok d) j g c = .ok c' := by
  obtain ⟨a, ha⟩ := hclear
  unfold cellStep cellClear
  obtain ⟨s1, x1, e1⟩ := integ_path_ok (z := true) (x := fun i => (a i).1) (d := d) (factor := 1) hn
  obtain ⟨s2, x2, e2⟩ := integ_path_ok (z := true) (x := fun i => (a i).2) (d := d) (factor := 1) hn
  simp only [ha, e1, e2, Except.bind]
  unfold cellCloud
  by_cases hcl : S.cloudy = true
  · obtain ⟨dl, di, c, cs, h1, h2⟩ := hc hcl
    obtain ⟨b, hb⟩ := hcloud hcl dl di h1
    obtain ⟨s3, x3, e3⟩ := integ_path_ok (z := false) (x := fun i => (b i).1) (d := d) (factor := 1) hn
    obtain ⟨s4, x4, e4⟩ := integ_path_ok (z := false) (x := fun i => (b i).2) (d := d) (factor := 1) hn
    simp only [hcl, if_true, h1, hb, e3, e4]
    unfold cellRadiance Cell.taulay
    simp only [hcl, if_true, h2]
    obtain ⟨out, ho⟩ := planck_exists (s := g.fromSat) (es := g.emissivity) (frq := S.frq j) (t := S.tk)
      (τ := fun n => x1 n + x2 n + x4 n + x3 n) (show S.nl ≠ 0 by omega)
    simp only [ho]
    exact ⟨_, rfl⟩
  · rw [if_neg hcl]
    simp only
    unfold cellRadiance
    rw [if_neg hcl]
    split
    · exact ⟨_, rfl⟩
    · rename_i tau _
      obtain ⟨out, ho⟩ := planck_exists (s := g.fromSat) (es := g.emissivity) (frq := S.frq j) (t := S.tk)
        (τ := tau) (show S.nl ≠ 0 by omega)
      simp only [ho]
      rw [if_neg hcl]
      exact ⟨_, rfl⟩

/-- Absorption routines that never raise. -/
structure TotalRoutines (A : AbsRoutines) : Prop where
  h2o : ∀ m L a b c d, ∃ r, A.h2o m L a b c d = .ok r
  o2 : ∀ m L a b c d, ∃ r, A.o2 m L a b c d = .ok r
  n2 : ∀ m a b c, ∃ r, A.n2 m a b c = .ok r
  o3 : ∀ m L a b c d, ∃ r, A.o3 m L a b c d = .ok r
  liq : ∀ m a b c, ∃ r, A.liq m a b c = .ok r

/-- All selections that a run needs are made. -/
structure Selected (A : AbsRoutines) (sel : Sel) : Prop where
  h2o : ∃ m w, sel.h2o = some m ∧ A.h2oFile m = some w
  o2 : ∃ m w, sel.o2 = some m ∧ A.o2File m = some w
  n2 : ∃ m, sel.n2 = some m
  liq : ∃ m, sel.liq = some m

theorem tabulateE_total {α : Type*} {n : ℕ} {f : ℕ → Except PyErr α} {d : α} (h : ∀ i < n, ∃ r, f i = .ok r) :
    ∃ a, tabulateE n f d = .ok a := by
  unfold tabulateE
  rcases forRangeE_inv (f := fun i s => (f i).map fun v => Function.update s i v) (s := fun _ : ℕ => d) (lo := 0)
    (hi := n) (I := fun _ _ => True) (E := fun _ => False) (Nat.zero_le _) trivial (by
      intro k s _ hk _
      obtain ⟨r, hr⟩ := h k hk
      exact Or.inl ⟨_, by rw [hr]; rfl, trivial⟩) with ⟨t, h, -⟩ | ⟨_, _, h⟩
  · exact ⟨t, h⟩
  · exact h.elim

theorem clearsky_total {A : AbsRoutines} (hA : TotalRoutines A) {g : Globals} (hs : Selected A g.sel)
    {S : Settings} {e : Val} {frq : ℝ} : ∃ a, clearsky A g S e frq = .ok a := by
  refine tabulateE_total fun i _ => ?_
  unfold clearLevel
  obtain ⟨m, w, h1, -⟩ := hs.h2o
  obtain ⟨m', w', h2, -⟩ := hs.o2
  obtain ⟨m'', h3⟩ := hs.n2
  simp only [h1, h2]
  obtain ⟨r1, e1⟩ := hA.h2o m g.h2oll (S.p i / 10.0 - e i / 10.0) (300.0 / S.tk i) (e i / 10.0) frq
  obtain ⟨r2, e2⟩ := hA.o2 m' g.o2ll (S.p i / 10.0 - e i / 10.0) (300.0 / S.tk i) (e i / 10.0) frq
  have e3 : ∃ r, n2Term A g.sel (S.tk i) ((S.p i / 10.0 - e i / 10.0) * 10) frq = .ok r := by
    unfold n2Term
    rw [h3]
    simp only
    split_ifs
    · exact ⟨_, rfl⟩
    · exact hA.n2 _ _ _ _
  have e4 : ∃ r, o3Term A g S.o3n (S.tk i) (S.p i) frq i = .ok r := by
    unfold o3Term
    split_ifs
    · split
      · exact hA.o3 _ _ _ _ _ _
      · exact ⟨_, rfl⟩
    · exact ⟨_, rfl⟩
  obtain ⟨r3, e3⟩ := e3
  obtain ⟨r4, e4⟩ := e4
  rw [e1, e2, e3, e4]
  exact ⟨_, rfl⟩

theorem cloudyAbs_total {A : AbsRoutines} (hA : TotalRoutines A) {liq : Option String} (hs : ∃ m, liq = some m)
    {nl : ℕ} {t dl di : Val} {frq : ℝ} : ∃ a, cloudyAbs A liq nl t dl di frq = .ok a := by
  refine tabulateE_total fun i _ => ?_
  obtain ⟨m, rfl⟩ := hs
  unfold cloudyLevel liqTerm
  simp only
  split_ifs
  · obtain ⟨r, hr⟩ := hA.liq m (dl i) frq (t i)
    rw [hr]; exact ⟨_, rfl⟩
  · exact ⟨_, rfl⟩
  · obtain ⟨r, hr⟩ := hA.liq m (dl i) frq (t i)
    rw [hr]; exact ⟨_, rfl⟩
  · exact ⟨_, rfl⟩

theorem cellGlobals_sel (S : Settings) (g : Globals) (es : ℝ) : (cellGlobals S g es).sel = g.sel := by
  unfold cellGlobals
  split_ifs <;> simp

theorem cellGlobals_fromSat (S : Settings) (g : Globals) (es : ℝ) :
    (cellGlobals S g es).fromSat = g.fromSat := by
  unfold cellGlobals
  split_ifs <;> simp

theorem initLineList_total {A : AbsRoutines} {g : Globals} (hs : Selected A g.sel) :
    ∃ g1, initLineList A g = .ok g1 ∧ g1.sel = g.sel := by
  obtain ⟨m, w, h1, h1'⟩ := hs.h2o
  obtain ⟨m', w', h2, h2'⟩ := hs.o2
  unfold initLineList
  simp only [h1, h2, Option.bind_some, h1', h2']
  exact ⟨_, rfl, rfl⟩

theorem pathOf_plane {S : Settings} {refi : Val} {k : ℕ} (hr : S.rayTracing = false)
    (hs : sin (S.angles k * π / 180) ≠ 0) :
    pathOf S refi k = .ok fun i => if i = 0 then 0 else
      (S.z i - S.z (i - 1)) * (1 / sin (S.angles k * π / 180)) := by
  unfold pathOf npDiv
  rw [hr, if_neg hs]
  simp

/-- A run over finite paths ends normally if the selections are made, the absorption routines do not raise, and the
cloud input is there if needed. -/
theorem execute_total_path {A : AbsRoutines} (hA : TotalRoutines A) {g : Globals} (hs : Selected A g.sel) {I : Inst}
    (hice : I.set.ice = false) (hn : 1 ≤ I.set.nl) (hes : I.set.nf ≤ I.set.es.length) (hc : CloudInput I.set)
    (hd : ∀ e rho, vapor I.set.tk I.set.rh I.set.ice = .ok (e, rho) → ∀ k < I.set.nang,
      ∃ d, pathOf I.set (fun i => (refractivity1 (I.set.p i) (I.set.tk i) (e i)).2.2) k = .ok d) :
    ∃ rows, (execute A g I).1 = .ok rows := by
  obtain ⟨g1, hl, hsel⟩ := initLineList_total hs
  have hv : ∃ er, vapor I.set.tk I.set.rh I.set.ice = .ok er := by
    unfold vapor; rw [hice]; exact ⟨_, rfl⟩
  obtain ⟨⟨e, rho⟩, hv⟩ := hv
  have hcell : ∀ k < I.set.nang, ∀ j < I.set.nf, ∃ es c', I.set.es[j]? = some es ∧
      cellStep A I.set e (pathOf I.set (fun i => (refractivity1 (I.set.p i) (I.set.tk i) (e i)).2.2) k) j
        (cellGlobals I.set { g1 with fromSat := I.set.satellite } es) (I.out.cell j k) = .ok c' := by
    intro k hk j hj
    refine ⟨I.set.es[j], ?_⟩
    obtain ⟨d, hd⟩ := hd e rho hv k hk
    rw [hd]
    have hsel' : (cellGlobals I.set { g1 with fromSat := I.set.satellite } I.set.es[j]).sel = g.sel := by
      rw [cellGlobals_sel]; exact hsel
    obtain ⟨c', h⟩ := cellStep_total (A := A) (S := I.set) (e := e) (j := j) (c := I.out.cell j k) (d := d)
      (g := cellGlobals I.set { g1 with fromSat := I.set.satellite } I.set.es[j]) hn hc
      (clearsky_total hA (by rw [hsel']; exact hs)) fun _ dl di _ =>
        cloudyAbs_total hA (by rw [hsel']; exact hs.liq)
    exact ⟨c', by simp [show j < I.set.es.length by omega], h⟩
  have hpath : ∀ k < I.set.nang, ∃ q,
      pathStep I.set rho (fun i => (refractivity1 (I.set.p i) (I.set.tk i) (e i)).2.1)
        (fun i => (refractivity1 (I.set.p i) (I.set.tk i) (e i)).1)
        (pathOf I.set (fun i => (refractivity1 (I.set.p i) (I.set.tk i) (e i)).2.2) k)
        (I.out.path k) = .ok q := by
    intro k hk
    obtain ⟨d, hd⟩ := hd e rho hv k hk
    rw [hd]
    exact pathStep_total hc
  have : Nonempty PathOut := ⟨PathOut.zero⟩
  have : Nonempty Cell := ⟨Cell.zero⟩
  choose! P hP using hpath
  choose! E C hC using hcell
  exact ⟨_, (execute_of_steps (P := P) (C := fun j k => C k j) hl hv fun k hk =>
    ⟨hP k hk, fun j hj => ⟨E k j, hC k hk j hj⟩⟩).1⟩

/-- A run without ray tracing at non-horizontal angles ends normally if the selections are made, the absorption
routines do not raise, and the cloud input is there if needed. -/
theorem execute_total {A : AbsRoutines} (hA : TotalRoutines A) {g : Globals} (hs : Selected A g.sel) {I : Inst}
    (hice : I.set.ice = false) (hn : 1 ≤ I.set.nl) (hes : I.set.nf ≤ I.set.es.length) (hc : CloudInput I.set)
    (hr : I.set.rayTracing = false) (ha : ∀ k < I.set.nang, sin (I.set.angles k * π / 180) ≠ 0) :
    ∃ rows, (execute A g I).1 = .ok rows :=
  execute_total_path hA hs hice hn hes hc fun _ _ _ k hk => ⟨_, pathOf_plane hr (ha k hk)⟩

end Verif.Model
