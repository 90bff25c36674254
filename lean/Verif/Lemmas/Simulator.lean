import Verif.Model.Simulator

/-! # Lemmas about the simulator -/

namespace Verif.Py

/-- Two loops with early return stay related. -/
theorem forRangeE_rel {ρ ρ' σ σ' : Type*} {lo hi : ℕ} {f : ℕ → σ → Except ρ σ} {f' : ℕ → σ' → Except ρ' σ'}
    {s : σ} {s' : σ'} (R : ℕ → σ → σ' → Prop) (E : ρ → ρ' → Prop) (hle : lo ≤ hi) (h0 : R lo s s')
    (hs : ∀ i s s', lo ≤ i → i < hi → R i s s' →
      (∃ t t', f i s = .ok t ∧ f' i s' = .ok t' ∧ R (i + 1) t t') ∨
      (∃ e e', f i s = .error e ∧ f' i s' = .error e' ∧ E e e')) :
    (∃ t t', forRangeE lo hi f s = .ok t ∧ forRangeE lo hi f' s' = .ok t' ∧ R hi t t') ∨
      (∃ e e', forRangeE lo hi f s = .error e ∧ forRangeE lo hi f' s' = .error e' ∧ E e e') := by
  induction hi, hle using Nat.le_induction with
  | base => exact Or.inl ⟨s, s', forRangeE_of_le le_rfl f s, forRangeE_of_le le_rfl f' s', h0⟩
  | succ n hn ih =>
    rw [forRangeE_succ hn, forRangeE_succ hn]
    rcases ih fun i s s' h1 h2 => hs i s s' h1 (Nat.lt_succ_of_lt h2) with
      ⟨t, t', h1, h2, h3⟩ | ⟨e, e', h1, h2, h3⟩
    · rw [h1, h2]; exact hs n t t' hn (Nat.lt_succ_self n) h3
    · exact Or.inr ⟨e, e', by rw [h1]; rfl, by rw [h2]; rfl, h3⟩

/-- A loop that ends normally: the invariant holds at the end. -/
theorem forRangeE_ok_inv {ρ σ : Type*} {lo hi : ℕ} {f : ℕ → σ → Except ρ σ} {s t : σ}
    (I : ℕ → σ → Prop) (hle : lo ≤ hi) (h0 : I lo s)
    (hs : ∀ i s s', lo ≤ i → i < hi → I i s → f i s = .ok s' → I (i + 1) s')
    (h : forRangeE lo hi f s = .ok t) : I hi t := by
  rcases forRangeE_inv (f := f) (s := s) I (fun _ => True) hle h0 (by
    intro i s h1 h2 h3
    cases hf : f i s with
    | ok s' => exact Or.inl ⟨s', rfl, hs i s s' h1 h2 h3 hf⟩
    | error e => exact Or.inr ⟨e, rfl, trivial⟩) with ⟨t', e, hI⟩ | ⟨e', e, -⟩
  · rw [e] at h; cases h; exact hI
  · rw [e] at h; cases h

end Verif.Py

namespace Verif.Model

open Verif.Py Real

theorem AttrUpd.apply_idem (u : AttrUpd) (o : Option Val) : u.apply (u.apply o) = u.apply o := by
  cases u with
  | keep => rfl
  | assign v => rfl
  | slice m =>
    cases o with
    | none => rfl
    | some w =>
      simp only [AttrUpd.apply, Option.map_some]
      congr 1
      funext n
      cases m n <;> rfl

@[simp] theorem amuApply_sel (u : Option Amu) (o : Option Val) (g : Globals) :
    (amuApply u o g).sel = g.sel := by cases u <;> rfl
@[simp] theorem amuApply_fromSat (u : Option Amu) (o : Option Val) (g : Globals) :
    (amuApply u o g).fromSat = g.fromSat := by cases u <;> rfl
@[simp] theorem amuApply_emissivity (u : Option Amu) (o : Option Val) (g : Globals) :
    (amuApply u o g).emissivity = g.emissivity := by cases u <;> rfl

theorem amuApply_emis (u : Option Amu) (o : Option Val) (g : Globals) (x : ℝ) :
    { amuApply u o g with emissivity := x } = amuApply u o { g with emissivity := x } := by
  cases u <;> rfl

theorem amuApply_idem (u : Option Amu) (o : Option Val) (g : Globals) :
    amuApply u o (amuApply u o g) = amuApply u o g := by
  cases u with
  | none => rfl
  | some u =>
    unfold amuApply
    simp only
    rcases g with ⟨⟨h2o, o2, n2, liq, o3⟩, a, b, c, d, e⟩
    congr 1
    · cases h2o with
      | none => rfl
      | some m => funext x; exact AttrUpd.apply_idem _ _
    · cases o2 with
      | none => rfl
      | some m => funext x; exact AttrUpd.apply_idem _ _
    · split_ifs with h
      · funext x; exact AttrUpd.apply_idem _ _
      · rfl

theorem tabulateE_ok {α : Type*} {n : ℕ} {f : ℕ → Except PyErr α} {d : α} {a : ℕ → α}
    (h : tabulateE n f d = .ok a) : (∀ i < n, f i = .ok (a i)) ∧ ∀ i, n ≤ i → a i = d := by
  unfold tabulateE at h
  refine forRangeE_ok_inv (I := fun n a => (∀ i < n, f i = .ok (a i)) ∧ ∀ i, n ≤ i → a i = d)
    (Nat.zero_le n) ⟨fun i hi => absurd hi (Nat.not_lt_zero i), fun _ _ => rfl⟩ ?_ h
  intro i s s' _ _ hI hf
  cases hv : f i with
  | error e => rw [hv] at hf; cases hf
  | ok v =>
    rw [hv] at hf; cases hf
    beta_reduce
    constructor
    · intro j hj
      rcases Nat.lt_succ_iff_lt_or_eq.1 hj with h1 | h1
      · rw [Function.update_of_ne (by omega)]; exact hI.1 j h1
      · subst h1; rw [Function.update_self]; exact hv
    · intro j hj
      rw [Function.update_of_ne (by omega)]; exact hI.2 j (by omega)

theorem tabulateE_of_ok {α : Type*} {n : ℕ} {f : ℕ → Except PyErr α} {d : α} {a : ℕ → α}
    (h : ∀ i < n, f i = .ok (a i)) (h2 : ∀ i, n ≤ i → a i = d) : tabulateE n f d = .ok a := by
  unfold tabulateE
  have key : ∀ m ≤ n, forRangeE 0 m (fun i s => (f i).map fun v => Function.update s i v) (fun _ => d) =
      .ok fun i => if i < m then a i else d := by
    intro m
    induction m with
    | zero => intro _; rw [forRangeE_of_le le_rfl]; simp
    | succ m ih =>
      intro hm
      rw [forRangeE_succ (Nat.zero_le m), ih (by omega)]
      show (f m).map _ = _
      rw [h m (by omega)]
      show Except.ok _ = _
      congr 1
      funext i
      beta_reduce
      rw [Function.update_apply]
      split_ifs with h1 h2 h3 h4 h5 <;> first | rfl | (subst h1; rfl) | (exfalso; omega)
  rw [key n le_rfl]
  congr 1
  funext i
  split_ifs with hi
  · rfl
  · exact (h2 i (by omega)).symm

/-- Line lists that agree on the attributes of a file. -/
def AgreeLL (w : LineList) (L L' : LineList) : Prop := ∀ a, (w a).isSome → L a = L' a

/-- The absorption routines of water vapour and oxygen read only attributes that the line list of the same
model defines. -/
structure ReadsOwnList (A : AbsRoutines) : Prop where
  h2o : ∀ m w, A.h2oFile m = some w → ∀ L L', AgreeLL w L L' → A.h2o m L = A.h2o m L'
  o2 : ∀ m w, A.o2File m = some w → ∀ L L', AgreeLL w L L' → A.o2 m L = A.o2 m L'

theorem agree_reload (w L L' : LineList) : AgreeLL w (reloadLL w L) (reloadLL w L') := by
  intro a ha
  unfold reloadLL
  cases h : w a with
  | none => rw [h] at ha; cases ha
  | some v => rfl

/-- Process states that cannot be told apart by a run whose selection and ozone profile are given. -/
structure GRel (A : AbsRoutines) (o3n : Option Val) (g g' : Globals) : Prop where
  sel : g.sel = g'.sel
  fromSat : g.fromSat = g'.fromSat
  h2o : ∃ m w, g.sel.h2o = some m ∧ A.h2oFile m = some w ∧ AgreeLL w g.h2oll g'.h2oll
  o2 : ∃ m w, g.sel.o2 = some m ∧ A.o2File m = some w ∧ AgreeLL w g.o2ll g'.o2ll
  o3 : ozoneActive g.sel o3n → g.o3ll = g'.o3ll

theorem GRel.emis {A : AbsRoutines} {o3n : Option Val} {g g' : Globals} (h : GRel A o3n g g') (x y : ℝ) :
    GRel A o3n { g with emissivity := x } { g' with emissivity := y } :=
  ⟨h.sel, h.fromSat, h.h2o, h.o2, h.o3⟩

theorem GRel.amu {A : AbsRoutines} {o3n : Option Val} {g g' : Globals} (h : GRel A o3n g g')
    (u : Option Amu) : GRel A o3n (amuApply u o3n g) (amuApply u o3n g') := by
  cases u with
  | none => exact h
  | some u =>
    refine ⟨h.sel, h.fromSat, ?_, ?_, ?_⟩
    · obtain ⟨m, w, h1, h2, h3⟩ := h.h2o
      refine ⟨m, w, h1, h2, fun a ha => ?_⟩
      have h1' : g'.sel.h2o = some m := by rw [← h.sel]; exact h1
      simp only [amuApply, h1, h1']
      rw [h3 a ha]
    · obtain ⟨m, w, h1, h2, h3⟩ := h.o2
      refine ⟨m, w, h1, h2, fun a ha => ?_⟩
      have h1' : g'.sel.o2 = some m := by rw [← h.sel]; exact h1
      simp only [amuApply, h1, h1']
      rw [h3 a ha]
    · intro ho
      have ho' : ozoneActive g.sel o3n := ho
      have ho'' : ozoneActive g'.sel o3n := by rw [← h.sel]; exact ho'
      simp only [amuApply, if_pos ho', if_pos ho'']
      rw [h.o3 ho']

theorem clearLevel_congr {A : AbsRoutines} (hA : ReadsOwnList A) {o3n : Option Val} {g g' : Globals}
    (h : GRel A o3n g g') (p t e frq : ℝ) (i : ℕ) :
    clearLevel A g o3n p t e frq i = clearLevel A g' o3n p t e frq i := by
  obtain ⟨mw, w, a1, a2, a3⟩ := h.h2o
  obtain ⟨mo, o, b1, b2, b3⟩ := h.o2
  have a1' : g'.sel.h2o = some mw := by rw [← h.sel]; exact a1
  have b1' : g'.sel.o2 = some mo := by rw [← h.sel]; exact b1
  have ho : o3Term A g o3n t p frq i = o3Term A g' o3n t p frq i := by
    unfold o3Term
    rw [h.sel]
    split_ifs with ho
    · rw [h.o3 (by rw [h.sel]; exact ho)]
    · rfl
  unfold clearLevel
  simp only [a1', b1', hA.h2o mw w a2 _ _ a3, hA.o2 mo o b2 _ _ b3, ho, h.sel]

theorem clearsky_congr {A : AbsRoutines} (hA : ReadsOwnList A) {S : Settings} {g g' : Globals}
    (h : GRel A S.o3n g g') (e : Val) (frq : ℝ) : clearsky A g S e frq = clearsky A g' S e frq := by
  unfold clearsky
  congr 1
  funext i
  exact clearLevel_congr hA h _ _ _ _ _

/-- The parts of a cell that a clear-sky run does not overwrite. -/
structure StaleEq (c c' : Cell) : Prop where
  ptauliq : c.ptauliq = c'.ptauliq
  ptauice : c.ptauice = c'.ptauice
  sptauliq : c.sptauliq = c'.sptauliq
  sptauice : c.sptauice = c'.sptauice
  tmrcld : c.tmrcld = c'.tmrcld

theorem cellStep_congr {A : AbsRoutines} (hA : ReadsOwnList A) {S : Settings} {g g' : Globals}
    (h : GRel A S.o3n g g') (hes : g.emissivity = g'.emissivity) (e : Val) (ds : Path) (j : ℕ) {c c' : Cell}
    (hc : S.cloudy = true ∨ StaleEq c c') :
    (∃ r, cellStep A S e ds j g c = .ok r ∧ cellStep A S e ds j g' c' = .ok r) ∨
    (∃ x r r', cellStep A S e ds j g c = .error (x, r) ∧ cellStep A S e ds j g' c' = .error (x, r')) := by
  unfold cellStep
  rw [clearsky_congr hA h, h.sel]
  cases clearsky A g' S e (S.frq j) with
  | error x => exact Or.inr ⟨x, _, _, rfl, rfl⟩
  | ok a =>
    simp only
    unfold cellClear
    simp only
    cases integ true S.nl (fun i => (a i).1) ds 1 1 with
    | error x => exact Or.inr ⟨x, _, _, rfl, rfl⟩
    | ok w =>
      simp only
      cases integ true S.nl (fun i => (a i).2) ds 1 1 with
      | error x => exact Or.inr ⟨x, _, _, rfl, rfl⟩
      | ok d =>
        simp only [Except.bind]
        unfold cellCloud cellRadiance Cell.taulay
        rw [h.fromSat, hes]
        by_cases hcl : S.cloudy = true
        · simp only [hcl, if_true]
          cases S.dens with
          | none => exact Or.inr ⟨_, _, _, rfl, rfl⟩
          | some dd =>
            simp only
            cases cloudyAbs A g'.sel.liq S.nl S.tk dd.1 dd.2 (S.frq j) with
            | error x => exact Or.inr ⟨x, _, _, rfl, rfl⟩
            | ok b =>
              simp only
              cases integ false S.nl (fun i => (b i).1) ds 1 1 with
              | error x => exact Or.inr ⟨x, _, _, rfl, rfl⟩
              | ok l =>
                simp only
                cases integ false S.nl (fun i => (b i).2) ds 1 1 with
                | error x => exact Or.inr ⟨x, _, _, rfl, rfl⟩
                | ok ii =>
                  simp only
                  rcases w with ⟨w1, w2⟩
                  rcases d with ⟨d1, d2⟩
                  rcases l with ⟨l1, l2⟩
                  rcases ii with ⟨i1, i2⟩
                  rcases w2 with _ | w2 <;> rcases d2 with _ | d2 <;> rcases l2 with _ | l2 <;>
                    rcases i2 with _ | i2 <;> simp only
                  all_goals first
                    | (rcases S.clouds with _ | _ | ⟨⟨b, t⟩, cs⟩
                       · exact Or.inr ⟨_, _, _, rfl, rfl⟩
                       · exact Or.inr ⟨_, _, _, rfl, rfl⟩
                       · exact Or.inl ⟨_, rfl, rfl⟩)
                    | (cases planck g'.fromSat g'.emissivity (S.frq j) S.nl S.tk
                          (fun n => w2 n + d2 n + i2 n + l2 n) with
                       | none => exact Or.inr ⟨_, _, _, rfl, rfl⟩
                       | some out =>
                         rcases S.clouds with _ | _ | ⟨⟨b, t⟩, cs⟩
                         · exact Or.inr ⟨_, _, _, rfl, rfl⟩
                         · exact Or.inr ⟨_, _, _, rfl, rfl⟩
                         · exact Or.inl ⟨_, rfl, rfl⟩)
        · have hs := hc.resolve_left hcl
          rcases c with ⟨k1, k2, k3, k4, k5, k6, k7, k8, k9, k10, k11, k12, k13, k14⟩
          rcases c' with ⟨m1, m2, m3, m4, m5, m6, m7, m8, m9, m10, m11, m12, m13, m14⟩
          obtain ⟨s1, s2, s3, s4, s5⟩ := hs
          simp only at s1 s2 s3 s4 s5
          subst s1 s2 s3 s4 s5
          simp only [if_neg hcl]
          rcases w with ⟨w1, w2⟩
          rcases d with ⟨d1, d2⟩
          rcases w2 with _ | w2 <;> rcases d2 with _ | d2 <;> rcases k5 with _ | k5 <;>
            rcases k6 with _ | k6 <;> simp only
          all_goals first
            | exact Or.inl ⟨_, rfl, rfl⟩
            | (cases planck g'.fromSat g'.emissivity (S.frq j) S.nl S.tk
                  (fun n => w2 n + d2 n + k6 n + k5 n) with
               | none => exact Or.inr ⟨_, _, _, rfl, rfl⟩
               | some out => exact Or.inl ⟨_, rfl, rfl⟩)

/-- Everything a cell needs, given the process state at the start of the loops. -/
noncomputable def cellGlobals (S : Settings) (g : Globals) (es : ℝ) : Globals :=
  if S.nl = 0 then { g with emissivity := es } else amuApply S.amu S.o3n { g with emissivity := es }

/-- During a run the process state is the initial one up to emissivity and `amu` assignments. -/
def GInv (S : Settings) (g0 g : Globals) : Prop :=
  ∃ x, g = { g0 with emissivity := x } ∨ (S.nl ≠ 0 ∧ g = amuApply S.amu S.o3n { g0 with emissivity := x })

theorem GInv.refl (S : Settings) (g : Globals) : GInv S g g := ⟨g.emissivity, Or.inl rfl⟩

theorem GInv.cell {S : Settings} {g0 g : Globals} (h : GInv S g0 g) (es : ℝ) :
    (if S.nl = 0 then { g with emissivity := es } else amuApply S.amu S.o3n { g with emissivity := es }) =
      cellGlobals S g0 es := by
  unfold cellGlobals
  rcases h with ⟨x, rfl | ⟨hn, rfl⟩⟩
  · rfl
  · rw [if_neg hn, if_neg hn, amuApply_emis, amuApply_idem]

theorem GInv.step (S : Settings) (g0 : Globals) (es : ℝ) : GInv S g0 (cellGlobals S g0 es) := by
  unfold cellGlobals
  split_ifs with h
  · exact ⟨es, Or.inl rfl⟩
  · exact ⟨es, Or.inr ⟨h, rfl⟩⟩

theorem freqBody_eq {A : AbsRoutines} {S : Settings} {e : Val} {ds : Path} {k j : ℕ} {g0 : Globals}
    {s : RunState} (h : GInv S g0 s.g) :
    freqBody A S e ds k j s = match S.es[j]? with
      | none => .error (.indexError, s)
      | some es => match cellStep A S e ds j (cellGlobals S g0 es) (s.out.cell j k) with
        | .error (x, c) => .error (x, ⟨cellGlobals S g0 es, s.out.setCell j k c⟩)
        | .ok c => .ok ⟨cellGlobals S g0 es, s.out.setCell j k c⟩ := by
  unfold freqBody
  cases S.es[j]? with
  | none => rfl
  | some es =>
    simp only [h.cell es]
    cases cellStep A S e ds j (cellGlobals S g0 es) (s.out.cell j k) <;> rfl

/-! ## A normally ending run -/

/-- The frequency loop, when it ends normally. -/
theorem freqLoop_ok {A : AbsRoutines} {S : Settings} {e : Val} {ds : Path} {k n : ℕ} {g0 : Globals}
    {s t : RunState} (hg : GInv S g0 s.g) (h : forRangeE 0 n (freqBody A S e ds k) s = .ok t) :
    GInv S g0 t.g ∧ t.out.path = s.out.path ∧
    (∀ j k', (k' ≠ k ∨ n ≤ j) → t.out.cell j k' = s.out.cell j k') ∧
    ∀ j < n, ∃ es, S.es[j]? = some es ∧
      cellStep A S e ds j (cellGlobals S g0 es) (s.out.cell j k) = .ok (t.out.cell j k) := by
  refine forRangeE_ok_inv (I := fun n t => GInv S g0 t.g ∧ t.out.path = s.out.path ∧
    (∀ j k', (k' ≠ k ∨ n ≤ j) → t.out.cell j k' = s.out.cell j k') ∧
    ∀ j < n, ∃ es, S.es[j]? = some es ∧
      cellStep A S e ds j (cellGlobals S g0 es) (s.out.cell j k) = .ok (t.out.cell j k))
    (Nat.zero_le n) ⟨hg, rfl, fun _ _ _ => rfl, fun j hj => absurd hj (Nat.not_lt_zero j)⟩ ?_ h
  intro i u u' _ _ ⟨h1, h2, h3, h4⟩ hf
  rw [freqBody_eq h1] at hf
  cases hes : S.es[i]? with
  | none => rw [hes] at hf; cases hf
  | some es =>
    rw [hes] at hf
    simp only at hf
    rw [h3 i k (Or.inr le_rfl)] at hf
    cases hc : cellStep A S e ds i (cellGlobals S g0 es) (s.out.cell i k) with
    | error x => rw [hc] at hf; cases hf
    | ok c =>
      rw [hc] at hf
      simp only [Except.ok.injEq] at hf
      subst hf
      refine ⟨GInv.step S g0 es, h2, ?_, ?_⟩
      · intro j k' hjk
        simp only [Store.setCell]
        rw [if_neg (by omega)]
        exact h3 j k' (by omega)
      · intro j hj
        rcases Nat.lt_succ_iff_lt_or_eq.1 hj with hlt | rfl
        · obtain ⟨es', a, b⟩ := h4 j hlt
          refine ⟨es', a, ?_⟩
          simp only [Store.setCell]
          rw [if_neg (by omega)]
          exact b
        · refine ⟨es, hes, ?_⟩
          simp only [Store.setCell, and_self, if_true]
          exact hc

/-- What a normally ending run has computed. -/
structure RunOk (A : AbsRoutines) (g : Globals) (I : Inst) (rows : List Row) (o : Store) : Prop where
  ex : ∃ g1 e rho, initLineList A g = .ok g1 ∧ vapor I.set.tk I.set.rh I.set.ice = .ok (e, rho) ∧
    rows = table I.set o ∧
    ∀ k < I.set.nang,
      pathStep I.set rho (fun i => (refractivity1 (I.set.p i) (I.set.tk i) (e i)).2.1)
        (fun i => (refractivity1 (I.set.p i) (I.set.tk i) (e i)).1)
        (pathOf I.set (fun i => (refractivity1 (I.set.p i) (I.set.tk i) (e i)).2.2) k)
        (I.out.path k) = .ok (o.path k) ∧
      ∀ j < I.set.nf, ∃ es, I.set.es[j]? = some es ∧
        cellStep A I.set e (pathOf I.set (fun i => (refractivity1 (I.set.p i) (I.set.tk i) (e i)).2.2) k) j
          (cellGlobals I.set { g1 with fromSat := I.set.satellite } es) (I.out.cell j k) = .ok (o.cell j k)

theorem execute_ok {A : AbsRoutines} {g : Globals} {I : Inst} {rows : List Row}
    (h : (execute A g I).1 = .ok rows) : RunOk A g I rows (execute A g I).2.out := by
  unfold execute at h ⊢
  cases hl : initLineList A g with
  | error x => rw [hl] at h; cases h
  | ok g1 =>
    simp only [hl] at h ⊢
    cases hv : vapor I.set.tk I.set.rh I.set.ice with
    | error x => rw [hv] at h; cases h
    | ok er =>
      obtain ⟨e, rho⟩ := er
      simp only [hv] at h ⊢
      set wetn : Val := fun i => (refractivity1 (I.set.p i) (I.set.tk i) (e i)).2.1
      set dryn : Val := fun i => (refractivity1 (I.set.p i) (I.set.tk i) (e i)).1
      set refi : Val := fun i => (refractivity1 (I.set.p i) (I.set.tk i) (e i)).2.2
      set g0 : Globals := { g1 with fromSat := I.set.satellite } with hg0
      cases hr : forRangeE 0 I.set.nang (angleBody A I.set e rho wetn dryn refi) ⟨g0, I.out⟩ with
      | error x => rw [hr] at h; cases h
      | ok t =>
        rw [hr] at h
        simp only [Except.ok.injEq] at h
        have key := forRangeE_ok_inv (f := angleBody A I.set e rho wetn dryn refi) (s := ⟨g0, I.out⟩) (t := t)
          (I := fun n t => GInv I.set g0 t.g ∧
            (∀ j k, (n ≤ k ∨ I.set.nf ≤ j) → t.out.cell j k = I.out.cell j k) ∧
            (∀ k, n ≤ k → t.out.path k = I.out.path k) ∧
            ∀ k < n, pathStep I.set rho wetn dryn (pathOf I.set refi k) (I.out.path k) = .ok (t.out.path k) ∧
              ∀ j < I.set.nf, ∃ es, I.set.es[j]? = some es ∧
                cellStep A I.set e (pathOf I.set refi k) j (cellGlobals I.set g0 es) (I.out.cell j k) =
                  .ok (t.out.cell j k))
          (Nat.zero_le _) ⟨GInv.refl _ _, fun _ _ _ => rfl, fun _ _ => rfl,
            fun k hk => absurd hk (Nat.not_lt_zero k)⟩ (by
            intro k u u' _ _ ⟨i1, i2, i3, i4⟩ hf
            unfold angleBody at hf
            simp only at hf
            rw [i3 k le_rfl] at hf
            cases hp : pathStep I.set rho wetn dryn (pathOf I.set refi k) (I.out.path k) with
            | error x => rw [hp] at hf; cases hf
            | ok q =>
              rw [hp] at hf
              simp only at hf
              obtain ⟨j1, j2, j3, j4⟩ := freqLoop_ok (g0 := g0) (s := ⟨u.g, u.out.setPath k q⟩) i1 hf
              simp only [Store.setPath] at j2 j3 j4
              refine ⟨j1, ?_, ?_, ?_⟩
              · intro j k' hjk
                rw [j3 j k' (by omega)]
                exact i2 j k' (by omega)
              · intro k' hk'
                rw [j2]
                simp only
                rw [if_neg (by omega)]
                exact i3 k' (by omega)
              · intro k' hk'
                rcases Nat.lt_succ_iff_lt_or_eq.1 hk' with hlt | rfl
                · obtain ⟨a, b⟩ := i4 k' hlt
                  refine ⟨?_, ?_⟩
                  · rw [j2]; simp only; rw [if_neg (by omega)]; exact a
                  · intro j hj
                    obtain ⟨es, c1, c2⟩ := b j hj
                    exact ⟨es, c1, by rw [j3 j k' (by omega)]; exact c2⟩
                · refine ⟨?_, ?_⟩
                  · rw [j2]; simp only [if_true]; exact hp
                  · intro j hj
                    obtain ⟨es, c1, c2⟩ := j4 j hj
                    exact ⟨es, c1, by rw [i2 j k' (by omega)] at c2; exact c2⟩) hr
        refine ⟨g1, e, rho, hl, hv, ?_, key.2.2.2⟩
        rw [← h]

theorem freqLoop_of_steps {A : AbsRoutines} {S : Settings} {e : Val} {ds : Path} {k : ℕ} {g0 : Globals}
    {s : RunState} {C : ℕ → Cell} (hg : GInv S g0 s.g)
    (hc : ∀ j < S.nf, ∃ es, S.es[j]? = some es ∧
      cellStep A S e ds j (cellGlobals S g0 es) (s.out.cell j k) = .ok (C j)) :
    ∃ t, forRangeE 0 S.nf (freqBody A S e ds k) s = .ok t := by
  rcases forRangeE_inv (f := freqBody A S e ds k) (s := s) (lo := 0) (hi := S.nf)
    (I := fun n t => GInv S g0 t.g ∧ ∀ j, n ≤ j → t.out.cell j k = s.out.cell j k) (E := fun _ => False)
    (Nat.zero_le _) ⟨hg, fun _ _ => rfl⟩ (by
      intro j u _ hj ⟨h1, h2⟩
      obtain ⟨es, a, b⟩ := hc j hj
      left
      rw [freqBody_eq h1, a]
      simp only
      rw [h2 j le_rfl, b]
      refine ⟨_, rfl, GInv.step _ _ _, fun j' hj' => ?_⟩
      simp only [Store.setCell]
      rw [if_neg (by omega)]
      exact h2 j' (by omega)) with ⟨t, h, -⟩ | ⟨_, _, h⟩
  · exact ⟨t, h⟩
  · exact h.elim

/-- If every path and cell computation succeeds, so does the run. -/
theorem execute_of_steps {A : AbsRoutines} {g g1 : Globals} {I : Inst} {e rho : Val} {P : ℕ → PathOut}
    {C : ℕ → ℕ → Cell} (hl : initLineList A g = .ok g1) (hv : vapor I.set.tk I.set.rh I.set.ice = .ok (e, rho))
    (hk : ∀ k < I.set.nang,
      pathStep I.set rho (fun i => (refractivity1 (I.set.p i) (I.set.tk i) (e i)).2.1)
        (fun i => (refractivity1 (I.set.p i) (I.set.tk i) (e i)).1)
        (pathOf I.set (fun i => (refractivity1 (I.set.p i) (I.set.tk i) (e i)).2.2) k)
        (I.out.path k) = .ok (P k) ∧
      ∀ j < I.set.nf, ∃ es, I.set.es[j]? = some es ∧
        cellStep A I.set e (pathOf I.set (fun i => (refractivity1 (I.set.p i) (I.set.tk i) (e i)).2.2) k) j
          (cellGlobals I.set { g1 with fromSat := I.set.satellite } es) (I.out.cell j k) = .ok (C j k)) :
    (execute A g I).1 = .ok (table I.set ⟨C, P⟩) ∧
      ∀ j < I.set.nf, ∀ k < I.set.nang, (execute A g I).2.out.cell j k = C j k := by
  have hok : ∃ rows, (execute A g I).1 = .ok rows := by
    unfold execute
    simp only [hl, hv]
    set wetn : Val := fun i => (refractivity1 (I.set.p i) (I.set.tk i) (e i)).2.1
    set dryn : Val := fun i => (refractivity1 (I.set.p i) (I.set.tk i) (e i)).1
    set refi : Val := fun i => (refractivity1 (I.set.p i) (I.set.tk i) (e i)).2.2
    set g0 : Globals := { g1 with fromSat := I.set.satellite } with hg0
    rcases forRangeE_inv (f := angleBody A I.set e rho wetn dryn refi) (s := ⟨g0, I.out⟩) (lo := 0)
      (hi := I.set.nang) (I := fun n t => GInv I.set g0 t.g ∧
        (∀ j k, n ≤ k → t.out.cell j k = I.out.cell j k) ∧ (∀ k, n ≤ k → t.out.path k = I.out.path k))
      (E := fun _ => False) (Nat.zero_le _) ⟨GInv.refl _ _, fun _ _ _ => rfl, fun _ _ => rfl⟩ (by
        intro k u _ hkk ⟨i1, i2, i3⟩
        obtain ⟨a, b⟩ := hk k hkk
        left
        unfold angleBody
        simp only
        rw [i3 k le_rfl, a]
        simp only
        obtain ⟨t, ht⟩ := freqLoop_of_steps (A := A) (S := I.set) (e := e) (ds := pathOf I.set refi k) (k := k)
          (g0 := g0) (s := ⟨u.g, u.out.setPath k (P k)⟩) (C := fun j => C j k) i1 (by
            intro j hj
            obtain ⟨es, c1, c2⟩ := b j hj
            refine ⟨es, c1, ?_⟩
            show cellStep A I.set e (pathOf I.set refi k) j (cellGlobals I.set g0 es) (u.out.cell j k) = _
            rw [i2 j k le_rfl]; exact c2)
        obtain ⟨j1, j2, j3, -⟩ := freqLoop_ok (g0 := g0) (s := ⟨u.g, u.out.setPath k (P k)⟩) i1 ht
        refine ⟨t, ht, j1, ?_, ?_⟩
        · intro j k' hk'
          rw [j3 j k' (by omega)]
          exact i2 j k' (by omega)
        · intro k' hk'
          rw [j2]
          simp only [Store.setPath]
          rw [if_neg (by omega)]
          exact i3 k' (by omega)) with ⟨t, h, -⟩ | ⟨_, _, h⟩
    · rw [h]; exact ⟨_, rfl⟩
    · exact h.elim
  obtain ⟨rows, hr⟩ := hok
  obtain ⟨g1', e', rho', hl', hv', hrow, hcell⟩ := (execute_ok hr).ex
  rw [hl] at hl'; cases hl'
  rw [hv] at hv'; cases hv'
  have hC : ∀ j < I.set.nf, ∀ k < I.set.nang, (execute A g I).2.out.cell j k = C j k := by
    intro j hj k hk'
    obtain ⟨es, c1, c2⟩ := (hcell k hk').2 j hj
    obtain ⟨es', c1', c2'⟩ := (hk k hk').2 j hj
    rw [c1] at c1'; cases c1'
    rw [c2] at c2'
    exact Except.ok.inj c2'
  refine ⟨?_, hC⟩
  rw [hr, hrow]
  congr 1
  unfold table
  refine List.flatMap_congr fun k hk => ?_
  refine List.map_congr_left fun j hj => ?_
  rw [hC j (List.mem_range.1 hj) k (List.mem_range.1 hk)]

/-! ## Runs from different process states -/

theorem pathStep_congr {S : Settings} {rho wetn dryn : Val} {ds : Path} {q q' : PathOut} :
    (∃ r r', pathStep S rho wetn dryn ds q = .ok r ∧ pathStep S rho wetn dryn ds q' = .ok r') ∨
    (∃ x r r', pathStep S rho wetn dryn ds q = .error (x, r) ∧
      pathStep S rho wetn dryn ds q' = .error (x, r')) := by
  unfold pathStep
  cases integ true S.nl rho ds 0 0.1 with
  | error x => exact Or.inr ⟨x, _, _, rfl, rfl⟩
  | ok a =>
    cases integ true S.nl wetn ds 0 0.1 with
    | error x => exact Or.inr ⟨x, _, _, rfl, rfl⟩
    | ok b =>
      cases integ true S.nl dryn ds 0 0.1 with
      | error x => exact Or.inr ⟨x, _, _, rfl, rfl⟩
      | ok c =>
        by_cases hc : S.cloudy = true
        · simp only [if_pos hc]
          rcases S.dens with _ | ⟨l, i⟩
          · exact Or.inr ⟨_, _, _, rfl, rfl⟩
          · rcases S.clouds with _ | cl
            · exact Or.inr ⟨_, _, _, rfl, rfl⟩
            · simp only
              cases cloudDen l ds cl with
              | error x => exact Or.inr ⟨x, _, _, rfl, rfl⟩
              | ok b =>
                simp only
                cases cloudDen i ds cl with
                | error x => exact Or.inr ⟨x, _, _, rfl, rfl⟩
                | ok b => exact Or.inl ⟨_, _, rfl, rfl⟩
        · simp only [if_neg hc]; exact Or.inl ⟨_, _, rfl, rfl⟩

theorem initLineList_congr {A : AbsRoutines} {g g' : Globals} (hs : g.sel = g'.sel) {o3n : Option Val}
    (ho : ozoneActive g.sel o3n → g.o3ll = g'.o3ll) (b : Bool) :
    (∃ g1 g1', initLineList A g = .ok g1 ∧ initLineList A g' = .ok g1' ∧
      GRel A o3n { g1 with fromSat := b } { g1' with fromSat := b }) ∨
    (∃ x g1 g1', initLineList A g = .error (x, g1) ∧ initLineList A g' = .error (x, g1')) := by
  unfold initLineList
  rw [← hs]
  cases hw : g.sel.h2o.bind A.h2oFile with
  | none => exact Or.inr ⟨_, _, _, rfl, rfl⟩
  | some w =>
    simp only
    cases hoo : g.sel.o2.bind A.o2File with
    | none => exact Or.inr ⟨_, _, _, rfl, rfl⟩
    | some o =>
      refine Or.inl ⟨_, _, rfl, rfl, ?_⟩
      obtain ⟨m, hm, hf⟩ := Option.bind_eq_some_iff.1 hw
      obtain ⟨m', hm', hf'⟩ := Option.bind_eq_some_iff.1 hoo
      exact ⟨rfl, rfl, ⟨m, w, hm, hf, agree_reload _ _ _⟩, ⟨m', o, hm', hf', agree_reload _ _ _⟩, ho⟩

theorem GRel.cellGlobals {A : AbsRoutines} {S : Settings} {g g' : Globals} (h : GRel A S.o3n g g') (es : ℝ) :
    GRel A S.o3n (cellGlobals S g es) (cellGlobals S g' es) := by
  unfold Model.cellGlobals
  split_ifs
  · exact h.emis _ _
  · exact (h.emis _ _).amu _

theorem cellGlobals_emissivity (S : Settings) (g : Globals) (es : ℝ) :
    (cellGlobals S g es).emissivity = es := by
  unfold Model.cellGlobals
  split_ifs <;> simp

/-- Two runs with the same settings and selection give the same outcome, whatever else happened in the process,
provided ozone is inactive (or the ozone lists agree) and either the run is cloudy or the clouds left on the two
objects agree. -/
theorem execute_congr {A : AbsRoutines} (hA : ReadsOwnList A) {g g' : Globals} {I I' : Inst}
    (hS : I.set = I'.set) (hs : g.sel = g'.sel) (ho : ozoneActive g.sel I.set.o3n → g.o3ll = g'.o3ll)
    (hc : I.set.cloudy = true ∨ ∀ j < I.set.nf, ∀ k < I.set.nang, StaleEq (I.out.cell j k) (I'.out.cell j k)) :
    (execute A g I).1 = (execute A g' I').1 := by
  unfold execute
  rw [← hS]
  rcases initLineList_congr (A := A) hs ho I.set.satellite with ⟨g1, g1', e1, e2, hG⟩ | ⟨x, g1, g1', e1, e2⟩
  · simp only [e1, e2]
    cases hv : vapor I.set.tk I.set.rh I.set.ice with
    | error x => rfl
    | ok er =>
      obtain ⟨e, rho⟩ := er
      simp only
      set g0 : Globals := { g1 with fromSat := I.set.satellite } with hg0
      set g0' : Globals := { g1' with fromSat := I.set.satellite } with hg0'
      set wetn : Val := fun i => (refractivity1 (I.set.p i) (I.set.tk i) (e i)).2.1
      set dryn : Val := fun i => (refractivity1 (I.set.p i) (I.set.tk i) (e i)).1
      set refi : Val := fun i => (refractivity1 (I.set.p i) (I.set.tk i) (e i)).2.2
      have key := forRangeE_rel (f := angleBody A I.set e rho wetn dryn refi)
        (f' := angleBody A I.set e rho wetn dryn refi) (lo := 0) (hi := I.set.nang) (s := ⟨g0, I.out⟩)
        (s' := ⟨g0', I'.out⟩)
        (R := fun n t t' => GInv I.set g0 t.g ∧ GInv I.set g0' t'.g ∧
          (∀ j < I.set.nf, ∀ k < n, t.out.cell j k = t'.out.cell j k) ∧
          (I.set.cloudy = true ∨ ∀ j < I.set.nf, ∀ k, n ≤ k → k < I.set.nang →
            StaleEq (t.out.cell j k) (t'.out.cell j k)))
        (E := fun x x' => x.1 = x'.1) (Nat.zero_le _)
        ⟨GInv.refl _ _, GInv.refl _ _, fun _ _ k hk => absurd hk (Nat.not_lt_zero k),
          hc.imp id fun h j hj k _ hk => h j hj k hk⟩ (by
          intro k u u' _ hk ⟨i1, i2, i3, i4⟩
          unfold angleBody
          simp only
          rcases pathStep_congr (S := I.set) (rho := rho) (wetn := wetn) (dryn := dryn)
            (ds := pathOf I.set refi k) (q := u.out.path k) (q' := u'.out.path k) with
            ⟨r, r', h1, h2⟩ | ⟨x, r, r', h1, h2⟩
          · simp only [h1, h2]
            have inner := forRangeE_rel (f := freqBody A I.set e (pathOf I.set refi k) k)
              (f' := freqBody A I.set e (pathOf I.set refi k) k) (lo := 0) (hi := I.set.nf)
              (s := ⟨u.g, u.out.setPath k r⟩) (s' := ⟨u'.g, u'.out.setPath k r'⟩)
              (R := fun n t t' => GInv I.set g0 t.g ∧ GInv I.set g0' t'.g ∧
                (∀ j < n, t.out.cell j k = t'.out.cell j k) ∧
                (∀ j k', k' ≠ k → t.out.cell j k' = u.out.cell j k' ∧ t'.out.cell j k' = u'.out.cell j k') ∧
                (∀ j, n ≤ j → t.out.cell j k = u.out.cell j k ∧ t'.out.cell j k = u'.out.cell j k))
              (E := fun x x' => x.1 = x'.1) (Nat.zero_le _)
              ⟨i1, i2, fun j hj => absurd hj (Nat.not_lt_zero j), fun _ _ _ => ⟨rfl, rfl⟩, fun _ _ => ⟨rfl, rfl⟩⟩
              (by
                intro j v v' _ hj ⟨m1, m2, m3, m4, m5⟩
                rw [freqBody_eq m1, freqBody_eq m2]
                cases I.set.es[j]? with
                | none => exact Or.inr ⟨_, _, rfl, rfl, rfl⟩
                | some es =>
                  simp only
                  have hst : I.set.cloudy = true ∨ StaleEq (v.out.cell j k) (v'.out.cell j k) := by
                    rcases i4 with h | h
                    · exact Or.inl h
                    · right
                      rw [(m5 j le_rfl).1, (m5 j le_rfl).2]
                      exact h j hj k le_rfl hk
                  rcases cellStep_congr hA (hG.cellGlobals es)
                    (by rw [cellGlobals_emissivity, cellGlobals_emissivity]) e (pathOf I.set refi k) j hst with
                    ⟨c, c1, c2⟩ | ⟨x, c, c', c1, c2⟩
                  · rw [c1, c2]
                    refine Or.inl ⟨_, _, rfl, rfl, GInv.step _ _ _, GInv.step _ _ _, ?_, ?_, ?_⟩
                    · intro j' hj'
                      simp only [Store.setCell]
                      by_cases hjj : j' = j
                      · rw [if_pos (by tauto), if_pos (by tauto)]
                      · rw [if_neg (by tauto), if_neg (by tauto)]
                        exact m3 j' (by omega)
                    · intro j' k' hk'
                      simp only [Store.setCell]
                      rw [if_neg (by tauto), if_neg (by tauto)]
                      exact m4 j' k' hk'
                    · intro j' hj'
                      simp only [Store.setCell]
                      rw [if_neg (by omega), if_neg (by omega)]
                      exact m5 j' (by omega)
                  · rw [c1, c2]
                    exact Or.inr ⟨_, _, rfl, rfl, rfl⟩)
            rcases inner with ⟨t, t', h3, h4, m1, m2, m3, m4, m5⟩ | ⟨x, x', h3, h4, h5⟩
            · refine Or.inl ⟨t, t', h3, h4, m1, m2, ?_, ?_⟩
              · intro j hj k' hk'
                rcases Nat.lt_succ_iff_lt_or_eq.1 hk' with hlt | rfl
                · rw [(m4 j k' (by omega)).1, (m4 j k' (by omega)).2]
                  exact i3 j hj k' hlt
                · exact m3 j hj
              · rcases i4 with h | h
                · exact Or.inl h
                · right
                  intro j hj k' hk1 hk2
                  rw [(m4 j k' (by omega)).1, (m4 j k' (by omega)).2]
                  exact h j hj k' (by omega) hk2
            · exact Or.inr ⟨x, x', h3, h4, h5⟩
          · simp only [h1, h2]
            exact Or.inr ⟨_, _, rfl, rfl, rfl⟩)
      rcases key with ⟨t, t', h1, h2, -, -, h3, -⟩ | ⟨⟨x, t⟩, ⟨x', t'⟩, h1, h2, h3⟩
      · rw [h1, h2]
        simp only
        congr 1
        unfold table
        refine List.flatMap_congr fun k hk => ?_
        refine List.map_congr_left fun j hj => ?_
        rw [h3 j (List.mem_range.1 hj) k (List.mem_range.1 hk)]
      · rw [h1, h2]
        simp only at h3 ⊢
        rw [h3]
  · simp only [e1, e2]

end Verif.Model
