import Verif.Model.Construct
import Verif.Props.Simulator

/-!
# C24, C25, C30, C31: construction of a simulator, its settings, cloud heights
-/

namespace Verif.Props

open Verif.Py Verif.Model

/-- Two consecutive entries are equal. -/
def Repeats (l : List ℝ) : Prop := ∃ i x, l[i]? = some x ∧ l[i + 1]? = some x

/-- Heights relative to the first one. -/
def rebased (l : List ℝ) : List ℝ := l.map (· - l.headD 0)

theorem ediff1d_zero (l : List ℝ) : (∃ x ∈ ediff1d l, x = 0) ↔ Repeats l := by
  induction l with
  | nil => simp [ediff1d, Repeats]
  | cons a l ih =>
    cases l with
    | nil => simp [ediff1d, Repeats]
    | cons b l =>
      have step : Repeats (a :: b :: l) ↔ a = b ∨ Repeats (b :: l) := by
        constructor
        · rintro ⟨i, x, h1, h2⟩
          cases i with
          | zero =>
            simp only [List.getElem?_cons_zero, Option.some.injEq, List.getElem?_cons_succ] at h1 h2
            exact Or.inl (h1.trans h2.symm)
          | succ i => exact Or.inr ⟨i, x, by simpa using h1, by simpa using h2⟩
        · rintro (h | ⟨i, x, h1, h2⟩)
          · exact ⟨0, a, by simp, by simp [h]⟩
          · exact ⟨i + 1, x, by simpa using h1, by simpa using h2⟩
      rw [step, ← ih]
      simp only [ediff1d, List.mem_cons, exists_eq_or_imp, sub_eq_zero, eq_comm (a := a)]

theorem pyAll_iff (l : List ℝ) : pyAll (ediff1d l) = true ↔ ¬ Repeats l := by
  rw [← ediff1d_zero]; unfold pyAll; push Not; exact decide_eq_true_iff

theorem construct_eq (fl : Flip) (h : Heap) (a : CtorArgs) :
    (Repeats (h a.z) → construct fl h a = (.error .systemExit, h)) ∧
    (¬ Repeats (h a.z) → construct fl h a = ctorTail h a a.z a.p a.t a.rh) := by
  have hi := pyAll_iff (h a.z)
  constructor
  · intro hr
    have : pyAll (ediff1d (h a.z)) = false := by
      by_contra hc
      exact hi.mp (by simpa using hc) hr
    simp [construct, this, boolGt0, boolLt0]
  · intro hr
    simp [construct, hi.mpr hr, boolGt0]

/-- The one way construction succeeds, and the state it leaves. -/
theorem construct_ok {fl : Flip} {h h' : Heap} {a : CtorArgs} {s : SimObj}
    (hc : construct fl h a = (.ok s, h')) :
    ¬ Repeats (h a.z) ∧ h a.p ≠ [] ∧ h a.z ≠ [] ∧ a.absmdl = "" ∧
      h' = h.write a.z (rebased (h a.z)) ∧ s.z = a.z ∧ s.p = a.p ∧ s.tk = a.t ∧ s.rh = a.rh ∧
      s.z0 = (h a.z).headD 0 ∧ s.nl = (h a.z).length ∧ s.nf = (h a.frq).length ∧
      s.cloudy = a.cloudy ∧ s.es = List.replicate s.nf 1 ∧ s.satellite = a.fromSat ∧ s.dens = none ∧
      s.clouds = none := by
  by_cases hr : Repeats (h a.z)
  · rw [(construct_eq fl h a).1 hr] at hc; cases hc
  · rw [(construct_eq fl h a).2 hr] at hc
    unfold ctorTail at hc
    by_cases hp : h a.p = []
    · rw [if_pos hp] at hc; cases hc
    rw [if_neg hp] at hc
    cases hz : h a.z with
    | nil => rw [hz] at hc; cases hc
    | cons z0 l =>
      simp only [hz] at hc
      by_cases hm : a.absmdl = ""
      · rw [if_neg (by simpa using hm)] at hc
        cases hc
        refine ⟨by rwa [hz] at hr, hp, by simp, hm, ?_⟩
        simp [rebased]
      · rw [if_pos hm] at hc; cases hc

theorem construct_ice {fl : Flip} {h h' : Heap} {a : CtorArgs} {s : SimObj}
    (hc : construct fl h a = (.ok s, h')) : s.ice = false := by
  obtain ⟨hr, hp, hz, hm, -⟩ := construct_ok hc
  rw [(construct_eq fl h a).2 hr] at hc
  unfold ctorTail at hc
  rw [if_neg hp] at hc
  cases hz' : h a.z with
  | nil => exact absurd hz' hz
  | cons z0 l =>
    simp only [hz'] at hc
    rw [if_neg (by simpa using hm)] at hc
    cases hc; rfl

/-! ## C24 -/

/-- What the constructor does with every profile: it is refused with `SystemExit` exactly when two consecutive
heights are equal; empty arrays and a model name are refused otherwise; all the rest is accepted. -/
theorem C24_outcome (fl : Flip) (h : Heap) (a : CtorArgs) :
    (Repeats (h a.z) → (construct fl h a).1 = .error .systemExit) ∧
    (¬ Repeats (h a.z) → h a.p = [] → (construct fl h a).1 = .error .valueError) ∧
    (¬ Repeats (h a.z) → h a.p ≠ [] → h a.z = [] → (construct fl h a).1 = .error .indexError) ∧
    (¬ Repeats (h a.z) → h a.p ≠ [] → h a.z ≠ [] → a.absmdl ≠ "" →
      (construct fl h a).1 = .error .attributeError) ∧
    (¬ Repeats (h a.z) → h a.p ≠ [] → h a.z ≠ [] → a.absmdl = "" → ∃ s, (construct fl h a).1 = .ok s) := by
  obtain ⟨h1, h2⟩ := construct_eq fl h a
  refine ⟨fun hr => by rw [h1 hr], fun hr hp => ?_, fun hr hp hz => ?_, fun hr hp hz hm => ?_,
    fun hr hp hz hm => ?_⟩ <;> rw [h2 hr] <;> unfold ctorTail
  · rw [if_pos hp]
  · rw [if_neg hp, hz]
  · rw [if_neg hp]
    cases hz' : h a.z with
    | nil => exact absurd hz' hz
    | cons => simp [hm]
  · rw [if_neg hp]
    cases hz' : h a.z with
    | nil => exact absurd hz' hz
    | cons => simp [hm]

/-- Whatever is accepted keeps the given order: the simulator refers to the arrays it was given, and level `i`
of its heights is level `i` of the given heights minus the first height. -/
theorem C24_never_flipped {fl : Flip} {h h' : Heap} {a : CtorArgs} {s : SimObj}
    (hc : construct fl h a = (.ok s, h')) :
    s.z = a.z ∧ s.p = a.p ∧ s.tk = a.t ∧ s.rh = a.rh ∧ s.nl = (h a.z).length ∧
      ∀ i x, (h a.z)[i]? = some x → (s.settings h').z i = x - (h a.z).headD 0 := by
  obtain ⟨_, _, _, _, rfl, hz, hp, ht, hrh, _, hn, _⟩ := construct_ok hc
  refine ⟨hz, hp, ht, hrh, hn, fun i x hi => ?_⟩
  simp [SimObj.settings, Heap.write, hz, rebased, List.getD, hi]

/-- A heap with a descending profile at address 0 and another one going up and down at address 4. -/
def ctorHeap : Heap := fun a => if a = 0 then [12, 5, 1] else if a = 4 then [1, 5, 3] else [1000, 500, 100]

/-- Arguments referring to the profile at an address. -/
def ctorArgs (z : Addr) : CtorArgs :=
  ⟨z, 1, 2, 3, 5, 6, none, none, "", false, true, true⟩

theorem not_repeats_cons {a b c : ℝ} (h1 : a ≠ b) (h2 : b ≠ c) : ¬ Repeats [a, b, c] := by
  rintro ⟨i, x, hx, hy⟩
  rcases i with _ | _ | _ | i
  · simp only [List.getElem?_cons_zero, List.getElem?_cons_succ, Option.some.injEq] at hx hy
    exact h1 (hx.trans hy.symm)
  · simp only [List.getElem?_cons_zero, List.getElem?_cons_succ, Option.some.injEq] at hx hy
    exact h2 (hx.trans hy.symm)
  · simp at hy
  · simp at hx

/-- A descending profile is accepted as it is. -/
example : ∃ s h', construct ⟨10, 11, 12, 13⟩ ctorHeap (ctorArgs 0) = (.ok s, h') := by
  obtain ⟨s, hs⟩ := (C24_outcome ⟨10, 11, 12, 13⟩ ctorHeap (ctorArgs 0)).2.2.2.2
    (by simpa [ctorHeap, ctorArgs] using not_repeats_cons (by norm_num) (by norm_num))
    (by simp [ctorHeap, ctorArgs]) (by simp [ctorHeap, ctorArgs]) rfl
  exact ⟨s, _, Prod.ext hs rfl⟩

/-- So is one that is not monotone. -/
example : ∃ s h', construct ⟨10, 11, 12, 13⟩ ctorHeap (ctorArgs 4) = (.ok s, h') := by
  obtain ⟨s, hs⟩ := (C24_outcome ⟨10, 11, 12, 13⟩ ctorHeap (ctorArgs 4)).2.2.2.2
    (by simpa [ctorHeap, ctorArgs] using not_repeats_cons (by norm_num) (by norm_num))
    (by simp [ctorHeap, ctorArgs]) (by simp [ctorHeap, ctorArgs]) rfl
  exact ⟨s, _, Prod.ext hs rfl⟩

example : Repeats [1, 2, 2] := ⟨1, 2, by simp, by simp⟩

/-! ## C25 -/

theorem rebased_idem (l : List ℝ) : rebased (rebased l) = rebased l := by
  cases l with
  | nil => rfl
  | cons a l => simp [rebased]

theorem rebased_head (l : List ℝ) : (rebased l).headD 0 = 0 := by cases l <;> simp [rebased]

/-- A successful construction shifts the caller's height array so that it starts at 0, keeps the removed offset,
and touches no other array. -/
theorem C25_shift {fl : Flip} {h h' : Heap} {a : CtorArgs} {s : SimObj} (hc : construct fl h a = (.ok s, h')) :
    h' a.z = (h a.z).map (· - s.z0) ∧ (h' a.z).head? = some 0 ∧ (h a.z).head? = some s.z0 ∧
      ∀ b, b ≠ a.z → h' b = h b := by
  obtain ⟨_, _, hz, _, rfl, _, _, _, _, h0, _⟩ := construct_ok hc
  rw [h0]
  cases hl : h a.z with
  | nil => exact absurd hl hz
  | cons x l =>
    refine ⟨by simp [Heap.write, rebased], by simp [Heap.write, rebased], by simp, fun b hb => ?_⟩
    simp [Heap.write, hb]

/-- A refused construction leaves every array as it is, unless the refusal is the one caused by a model name:
then the caller's heights have been shifted although no simulator exists. -/
theorem C25_refused {fl : Flip} {h h' : Heap} {a : CtorArgs} {x : PyErr}
    (hc : construct fl h a = (.error x, h')) :
    (x ≠ .attributeError → h' = h) ∧ (x = .attributeError → h' = h.write a.z (rebased (h a.z))) := by
  by_cases hr : Repeats (h a.z)
  · rw [(construct_eq fl h a).1 hr] at hc; cases hc; simp
  · rw [(construct_eq fl h a).2 hr] at hc
    unfold ctorTail at hc
    by_cases hp : h a.p = []
    · rw [if_pos hp] at hc; cases hc; simp
    rw [if_neg hp] at hc
    cases hz : h a.z with
    | nil => rw [hz] at hc; cases hc; simp
    | cons z0 l =>
      simp only [hz] at hc
      by_cases hm : a.absmdl = ""
      · rw [if_neg (by simpa using hm)] at hc; cases hc
      · rw [if_pos hm] at hc; cases hc; simp [rebased]

/-- Construction of any number of simulators, one after the other. -/
noncomputable def constructs (h : Heap) (l : List (Flip × CtorArgs)) : Heap :=
  l.foldl (fun h a => (construct a.1 h a.2).2) h

theorem construct_heap (fl : Flip) (h : Heap) (a : CtorArgs) (b : Addr) :
    (construct fl h a).2 b = h b ∨ (b = a.z ∧ (construct fl h a).2 b = rebased (h b)) := by
  rcases hc : construct fl h a with ⟨r, h'⟩
  cases r with
  | error x =>
    by_cases hx : x = .attributeError
    · rw [(C25_refused hc).2 hx]
      by_cases hb : b = a.z
      · subst hb; exact Or.inr ⟨rfl, by simp [Heap.write]⟩
      · left; simp [Heap.write, hb]
    · rw [(C25_refused hc).1 hx]; exact Or.inl rfl
  | ok s =>
    obtain ⟨_, _, _, _, rfl, _⟩ := construct_ok hc
    by_cases hb : b = a.z
    · subst hb; exact Or.inr ⟨rfl, by simp [Heap.write]⟩
    · left; simp [Heap.write, hb]

/-- Over any sequence of constructions an array is shifted at most once, and only if it was passed as the heights
of one of them. -/
theorem C25_sequence (h : Heap) (l : List (Flip × CtorArgs)) (b : Addr) :
    (constructs h l b = h b ∨ constructs h l b = rebased (h b)) ∧
    ((∀ a ∈ l, a.2.z ≠ b) → constructs h l b = h b) := by
  induction l generalizing h with
  | nil => exact ⟨Or.inl rfl, fun _ => rfl⟩
  | cons a l ih =>
    obtain ⟨i1, i2⟩ := ih (construct a.1 h a.2).2
    have hs := construct_heap a.1 h a.2 b
    have e : constructs h (a :: l) = constructs (construct a.1 h a.2).2 l := rfl
    constructor
    · rw [e]
      rcases hs with hs | ⟨_, hs⟩ <;> rw [hs] at i1
      · exact i1
      · rw [rebased_idem] at i1; exact Or.inr (i1.elim id id)
    · intro hn
      rw [e, i2 fun x hx => hn x (List.mem_cons_of_mem _ hx)]
      rcases hs with hs | ⟨hb, _⟩
      · exact hs
      · exact absurd hb.symm (hn a List.mem_cons_self)

/-- A simulator built from heights that already belong to a simulator records observation height 0 and changes
no array. -/
theorem C25_second {fl fl' : Flip} {h h' h2 : Heap} {a a' : CtorArgs} {s s' : SimObj} (l : List (Flip × CtorArgs))
    (hc : construct fl h a = (.ok s, h')) (hz : a'.z = a.z)
    (hc' : construct fl' (constructs h' l) a' = (.ok s', h2)) : s'.z0 = 0 ∧ h2 = constructs h' l := by
  obtain ⟨_, _, _, _, hh, _⟩ := construct_ok hc
  have hb : h' a.z = rebased (h a.z) := by rw [hh]; simp [Heap.write]
  have hl : constructs h' l a.z = rebased (h a.z) := by
    rcases (C25_sequence h' l a.z).1 with e | e <;> rw [e, hb]
    exact rebased_idem _
  obtain ⟨_, _, _, _, hh', _, _, _, _, h0, _⟩ := construct_ok hc'
  rw [hz, hl] at hh' h0
  refine ⟨by rw [h0, rebased_head], ?_⟩
  rw [hh', rebased_idem, ← hl]
  exact Function.update_eq_self _ _

/-! ## C30 -/

/-- `l` is the last level at which the heights take the value `c`. -/
def LastAt (zs : List ℝ) (c : ℝ) (l : ℕ) : Prop := zs[l]? = some c ∧ ∀ m, zs[m]? = some c → m ≤ l

theorem resolve_spec (z : ℕ → ℝ) (nl : ℕ) (c : ℝ) :
    ((∀ i < nl, z i ≠ c) → resolveLevel z nl c = 0) ∧
    ((∃ i < nl, z i = c) → resolveLevel z nl c < nl ∧ z (resolveLevel z nl c) = c ∧
      ∀ m < nl, z m = c → m ≤ resolveLevel z nl c) := by
  induction nl with
  | zero => exact ⟨fun _ => by simp [resolveLevel], by rintro ⟨i, hi, _⟩; omega⟩
  | succ n ih =>
    have e : resolveLevel z (n + 1) c = if z n = c then n else resolveLevel z n c := by
      unfold resolveLevel; rw [forRange_succ (Nat.zero_le n)]
    rw [e]
    by_cases hn : z n = c
    · simp only [hn, if_true]
      exact ⟨fun h => absurd hn (h n (by omega)), fun _ => ⟨by omega, trivial, fun m hm _ => by omega⟩⟩
    · simp only [hn, if_false]
      refine ⟨fun h => ih.1 fun i hi => h i (by omega), ?_⟩
      rintro ⟨i, hi, hz⟩
      have hi' : i < n := by
        rcases Nat.lt_succ_iff_lt_or_eq.mp hi with h | h
        · exact h
        · exact absurd (h ▸ hz) hn
      obtain ⟨a, b, d⟩ := ih.2 ⟨i, hi', hz⟩
      refine ⟨by omega, b, fun m hm hm' => ?_⟩
      rcases Nat.lt_succ_iff_lt_or_eq.mp hm with h | h
      · exact d m h hm'
      · exact absurd (h ▸ hm') hn

/-- Level recorded by a simulator for a cloud boundary at height `b` above sea level. -/
noncomputable def levelOf (h : Heap) (s : SimObj) (b : ℝ) : ℕ :=
  resolveLevel (fun i => (h s.z).getD i 0) s.nl (b - s.z0)

/-- The recorded table when the simulator is flagged cloudy: one pair of levels per cloud, and the densities. -/
theorem initCloudy_cloudy {h : Heap} {s : SimObj} (hc : s.cloudy = true) (cldh : List (ℝ × ℝ)) (ice liq : List ℝ) :
    (initCloudy h s cldh ice liq).clouds = some (cldh.map fun b => (levelOf h s b.1, levelOf h s b.2)) ∧
      (initCloudy h s cldh ice liq).dens = some (liq, ice) := by
  simp [initCloudy, hc, levelOf, Function.comp_def]

/-- For a simulator just built from heights `zs` (or one whose heights have since been passed to any number of
other constructions): a cloud boundary equal to some profile height is recorded as the last level with that height,
any other boundary as level 0. -/
theorem C30_levels {fl : Flip} {h h' : Heap} {a : CtorArgs} {s : SimObj} (l : List (Flip × CtorArgs))
    (hc : construct fl h a = (.ok s, h')) (hcl : s.cloudy = true) (cldh : List (ℝ × ℝ)) (ice liq : List ℝ) :
    ∃ lev : List (ℕ × ℕ), (initCloudy (constructs h' l) s cldh ice liq).clouds = some lev ∧
      lev.length = cldh.length ∧ (initCloudy (constructs h' l) s cldh ice liq).dens = some (liq, ice) ∧
      ∀ (j : ℕ) (b t : ℝ), cldh[j]? = some (b, t) → ∃ lb lt, lev[j]? = some (lb, lt) ∧
        (b ∈ h a.z → LastAt (h a.z) b lb) ∧ (b ∉ h a.z → lb = 0) ∧
        (t ∈ h a.z → LastAt (h a.z) t lt) ∧ (t ∉ h a.z → lt = 0) := by
  obtain ⟨_, _, _, _, hh, hz, _, _, _, h0, hn, _⟩ := construct_ok hc
  have hl : constructs h' l a.z = rebased (h a.z) := by
    have hb : h' a.z = rebased (h a.z) := by rw [hh]; simp [Heap.write]
    rcases (C25_sequence h' l a.z).1 with e | e <;> rw [e, hb]
    exact rebased_idem _
  have key : ∀ b, (b ∈ h a.z → LastAt (h a.z) b (levelOf (constructs h' l) s b)) ∧
      (b ∉ h a.z → levelOf (constructs h' l) s b = 0) := by
    intro b
    have hv : ∀ i < (h a.z).length, ∀ c, ((rebased (h a.z)).getD i 0 = c - (h a.z).headD 0 ↔ (h a.z)[i]? = some c) := by
      intro i hi c
      simp [rebased, List.getD, hi]
    unfold levelOf
    rw [hz, hl, hn, h0]
    obtain ⟨r1, r2⟩ := resolve_spec (fun i => (rebased (h a.z)).getD i 0) (h a.z).length (b - (h a.z).headD 0)
    constructor
    · intro hb
      obtain ⟨i, hi, hib⟩ := List.getElem_of_mem hb
      obtain ⟨q1, q2, q3⟩ := r2 ⟨i, hi, (hv i hi b).mpr (by rw [List.getElem?_eq_getElem hi, hib])⟩
      refine ⟨(hv _ q1 b).mp q2, fun m hm => ?_⟩
      have hml : m < (h a.z).length := (List.getElem?_eq_some_iff.mp hm).1
      exact q3 m hml ((hv m hml b).mpr hm)
    · intro hb
      exact r1 fun i hi he => hb (List.mem_of_getElem? ((hv i hi b).mp he))
  obtain ⟨e1, e2⟩ := initCloudy_cloudy (h := constructs h' l) hcl cldh ice liq
  refine ⟨_, e1, by simp, e2, fun j b t hj => ⟨_, _, by simp [hj], (key b).1, (key b).2, (key t).1, (key t).2⟩⟩

/-- In particular, with distinct heights, a cloud from level `i` to level `j` is recorded as exactly that. -/
theorem C30_exact {fl : Flip} {h h' : Heap} {a : CtorArgs} {s : SimObj}
    (hc : construct fl h a = (.ok s, h')) (hcl : s.cloudy = true) (hd : (h a.z).Nodup)
    {i j : ℕ} (hi : i < (h a.z).length) (hj : j < (h a.z).length) (ice liq : List ℝ) :
    (initCloudy h' s [((h a.z)[i], (h a.z)[j])] ice liq).clouds = some [(i, j)] := by
  obtain ⟨lev, e, hlen, _, hlev⟩ := C30_levels [] hc hcl [((h a.z)[i], (h a.z)[j])] ice liq
  obtain ⟨lb, lt, e1, b1, _, t1, _⟩ := hlev 0 _ _ rfl
  have hb := (b1 (List.getElem_mem _)).1
  have ht := (t1 (List.getElem_mem _)).1
  have hbi : lb = i := by
    obtain ⟨q, hq⟩ := List.getElem?_eq_some_iff.mp hb
    exact (hd.getElem_inj_iff).mp hq
  have hti : lt = j := by
    obtain ⟨q, hq⟩ := List.getElem?_eq_some_iff.mp ht
    exact (hd.getElem_inj_iff).mp hq
  subst hbi; subst hti
  have e' : (initCloudy h' s [((h a.z)[lb], (h a.z)[lt])] ice liq).clouds = some lev := e
  rw [e']
  match lev, hlen, e1 with
  | [x], _, e1 => simpa using e1

/-- A second simulator built from the same height array resolves a cloud boundary `b` to the level the first one
gives to `b + z0`: cloud heights above sea level that were right for the first are wrong for the second. -/
theorem C25_second_levels {fl fl' : Flip} {h h' h2 : Heap} {a a' : CtorArgs} {s s' : SimObj}
    (hc : construct fl h a = (.ok s, h')) (hz : a'.z = a.z) (hc' : construct fl' h' a' = (.ok s', h2)) (b : ℝ) :
    levelOf h2 s' b = levelOf h2 s (b + s.z0) := by
  obtain ⟨h0, hh⟩ := C25_second [] hc hz hc'
  have hh : h2 = h' := hh
  obtain ⟨_, _, _, _, e, q, _, _, _, _, qn, _⟩ := construct_ok hc
  obtain ⟨_, _, _, _, _, q', _, _, _, _, qn', _⟩ := construct_ok hc'
  unfold levelOf
  rw [q', hz, ← q, h0, qn', hz, qn, e]
  simp [Heap.write, rebased]

/-- A simulator that is not flagged cloudy records level 0 for every boundary and stores no density. -/
theorem C30_not_flagged {h : Heap} {s : SimObj} (hc : s.cloudy = false) (cldh : List (ℝ × ℝ)) (ice liq : List ℝ) :
    (initCloudy h s cldh ice liq).clouds = some (List.replicate cldh.length (0, 0)) ∧
      (initCloudy h s cldh ice liq).dens = s.dens := by
  simp [initCloudy, hc, Function.comp_def, List.map_const']

/-- Raising the flag after describing the clouds of a new simulator is too late: the first run fails with
`AttributeError`. -/
theorem C30_flag_too_late {A : AbsRoutines} {g : Globals} (hs : Selected A g.sel) {fl : Flip}
    {h h' : Heap} {a : CtorArgs} {s : SimObj} (hc : construct fl h a = (.ok s, h')) (hcl : a.cloudy = false)
    (cldh : List (ℝ × ℝ)) (ice liq : List ℝ) (hr : s.rayTracing = false) (hn : 0 < s.nang)
    (hang : Real.sin ((s.settings h').angles 0 * Real.pi / 180) ≠ 0) (o : Store) :
    (execute A g ⟨{ initCloudy h' s cldh ice liq with cloudy := true }.settings h', o⟩).1
      = .error .attributeError := by
  obtain ⟨_, _, _, _, _, _, _, _, _, _, _, _, hsc, _, _, hd, _⟩ := construct_ok hc
  rw [hcl] at hsc
  have hice : s.ice = false := construct_ice hc
  obtain ⟨_, hd'⟩ := C30_not_flagged (h := h') hsc cldh ice liq
  rw [hd] at hd'
  generalize hS : SimObj.settings h' { initCloudy h' s cldh ice liq with cloudy := true } = S
  have h1 : S.ice = false := by rw [← hS]; simp [SimObj.settings, initCloudy, hsc, hice]
  have h2 : S.nang = s.nang := by rw [← hS]; simp [SimObj.settings, initCloudy, hsc]
  have h3 : S.rayTracing = false := by rw [← hS]; simp [SimObj.settings, initCloudy, hsc, hr]
  have h4 : S.angles = (s.settings h').angles := by rw [← hS]; simp [SimObj.settings, initCloudy, hsc]
  have h5 : S.cloudy = true := by rw [← hS]; simp [SimObj.settings]
  have h6 : S.dens = none := by rw [← hS]; simp [SimObj.settings, hd']
  obtain ⟨g1, hl, -⟩ := initLineList_total hs
  rw [← h4] at hang
  unfold execute
  simp only [hl]
  have hv : ∃ er, vapor S.tk S.rh S.ice = .ok er := by unfold vapor; rw [h1]; exact ⟨_, rfl⟩
  obtain ⟨⟨e, rho⟩, hv⟩ := hv
  simp only [hv]
  rw [forRangeE_step (by omega)]
  have hp : ∀ (x y w : Val) (q : PathOut) (d : Val), ∃ q', pathStep S x y w (.ok d) q = .error (.attributeError, q') := by
    intro x y w q d
    obtain ⟨r1, q1, hr1⟩ := integ_path_ok (z := true) (x := x) (d := d) (factor := 0.1) (Nat.zero_le S.nl)
    obtain ⟨r2, q2, hr2⟩ := integ_path_ok (z := true) (x := y) (d := d) (factor := 0.1) (Nat.zero_le S.nl)
    obtain ⟨r3, q3, hr3⟩ := integ_path_ok (z := true) (x := w) (d := d) (factor := 0.1) (Nat.zero_le S.nl)
    unfold pathStep
    simp only [hr1, hr2, hr3, h5, h6, if_true]
    exact ⟨_, rfl⟩
  unfold angleBody
  simp only [pathOf_plane h3 hang]
  obtain ⟨q', hq'⟩ := hp rho (fun i => (refractivity1 (S.p i) (S.tk i) (e i)).2.1)
    (fun i => (refractivity1 (S.p i) (S.tk i) (e i)).1) (o.path 0)
    (fun i => if i = 0 then 0 else (S.z i - S.z (i - 1)) * (1 / Real.sin (S.angles 0 * Real.pi / 180)))
  simp only [hq', Except.bind]

theorem ctor_demo (cloudy : Bool) (z : Addr) (hz : ¬ Repeats (ctorHeap z)) (hz' : ctorHeap z ≠ []) :
    ∃ s h', construct ⟨10, 11, 12, 13⟩ ctorHeap { ctorArgs z with cloudy := cloudy } = (.ok s, h') := by
  obtain ⟨s, hs⟩ := (C24_outcome ⟨10, 11, 12, 13⟩ ctorHeap { ctorArgs z with cloudy := cloudy }).2.2.2.2
    hz (by simp [ctorHeap, ctorArgs]) hz' rfl
  exact ⟨s, _, Prod.ext hs rfl⟩

theorem ctor_demo0 : ¬ Repeats (ctorHeap 0) := by
  simpa [ctorHeap] using not_repeats_cons (by norm_num) (by norm_num)

/-- Heights 12, 5, 1: the first simulator puts a cloud between 5 and 1 at levels 1 and 2; a second simulator built
from the same array puts it at levels 0 and 0. -/
example : ∃ s h' s' h2, construct ⟨10, 11, 12, 13⟩ ctorHeap (ctorArgs 0) = (.ok s, h') ∧
    construct ⟨10, 11, 12, 13⟩ h' (ctorArgs 0) = (.ok s', h2) ∧ levelOf h2 s 5 = 1 ∧ levelOf h2 s 1 = 2 ∧
    levelOf h2 s' 5 = 0 ∧ levelOf h2 s' 1 = 0 := by
  obtain ⟨s, h', hc⟩ := ctor_demo true 0 ctor_demo0 (by simp [ctorHeap])
  obtain ⟨_, _, _, _, hh, hz, _, _, _, h0, hn, _⟩ := construct_ok hc
  have hr : ¬ Repeats (h' 0) := by
    rw [hh]
    simpa [Heap.write, rebased, ctorHeap, ctorArgs] using not_repeats_cons (by norm_num) (by norm_num)
  obtain ⟨s', hs'⟩ := (C24_outcome ⟨10, 11, 12, 13⟩ h' (ctorArgs 0)).2.2.2.2 hr
    (by rw [hh]; simp [Heap.write, ctorHeap, ctorArgs]) (by rw [hh]; simp [Heap.write, rebased, ctorHeap, ctorArgs]) rfl
  have hc' : construct ⟨10, 11, 12, 13⟩ h' (ctorArgs 0) = (.ok s', (construct ⟨10, 11, 12, 13⟩ h' (ctorArgs 0)).2) :=
    Prod.ext hs' rfl
  refine ⟨s, h', s', _, hc, hc', ?_⟩
  obtain ⟨_, he⟩ := C25_second [] hc rfl hc'
  rw [C25_second_levels hc rfl hc', C25_second_levels hc rfl hc', he]
  have e : ∀ b, levelOf (constructs h' []) s b =
      resolveLevel (fun i => [(0:ℝ), -7, -11].getD i 0) 3 (b - 12) := by
    intro b
    unfold levelOf
    rw [hz, hn, h0]
    simp [constructs, hh, Heap.write, rebased, ctorHeap, ctorArgs]
    norm_num
  rw [e, e, e, e, h0]
  simp only [resolveLevel, forRange_succ (Nat.zero_le _), forRange_self, ctorArgs, ctorHeap]
  norm_num

/-- The hypotheses of `C30_exact` and of `C30_flag_too_late` are met by that simulator. -/
example : ∃ s h', construct ⟨10, 11, 12, 13⟩ ctorHeap { ctorArgs 0 with cloudy := false } = (.ok s, h') ∧
    s.rayTracing = false ∧ 0 < s.nang := by
  obtain ⟨s, h', hc⟩ := ctor_demo false 0 ctor_demo0 (by simp [ctorHeap])
  refine ⟨s, h', hc, ?_⟩
  rw [(construct_eq _ _ _).2 ctor_demo0] at hc
  simp only [ctorTail, ctorHeap, ctorArgs] at hc
  norm_num at hc
  obtain ⟨rfl, -⟩ := hc
  simp

/-! ## C31 -/

/-- The geometry setter accepts exactly the two booleans. -/
theorem C31_satellite (s : SimObj) (v : PyVal) :
    (∀ b, v = .bool b → (setSatellite s v).1 = .ok () ∧ (setSatellite s v).2 = { s with satellite := b }) ∧
    ((∀ b, v ≠ .bool b) → (setSatellite s v).1 = .error .valueError ∧ (setSatellite s v).2 = s) := by
  constructor
  · rintro b rfl; exact ⟨rfl, rfl⟩
  · intro h
    cases v with
    | bool b => exact absurd rfl (h b)
    | _ => exact ⟨rfl, rfl⟩

/-- The emissivity setter accepts exactly floats (replicated to every frequency) and arrays (taken as they are,
whatever their length); everything else, integers included, is refused and changes nothing. -/
theorem C31_emissivity (s : SimObj) (v : PyVal) :
    (∀ x, v = .float x ∨ v = .npFloat64 x → (setEmissivity s v).1 = .ok () ∧
      (setEmissivity s v).2.es.length = s.nf ∧ (∀ y ∈ (setEmissivity s v).2.es, y = x)) ∧
    (∀ l, v = .ndarray l → (setEmissivity s v).1 = .ok () ∧ (setEmissivity s v).2.es = l) ∧
    ((∀ x, v ≠ .float x ∧ v ≠ .npFloat64 x) → (∀ l, v ≠ .ndarray l) →
      (setEmissivity s v).1 = .error .valueError ∧ (setEmissivity s v).2 = s) ∧
    { (setEmissivity s v).2 with es := s.es } = s := by
  refine ⟨?_, ?_, ?_, ?_⟩
  · rintro x (rfl | rfl)
    · exact ⟨rfl, by simp [setEmissivity, PyVal.asFloat], fun y hy => List.eq_of_mem_replicate hy⟩
    · exact ⟨rfl, by simp [setEmissivity, PyVal.asFloat], fun y hy => List.eq_of_mem_replicate hy⟩
  · rintro l rfl; exact ⟨rfl, rfl⟩
  · intro h1 h2
    cases v with
    | float x => exact absurd rfl (h1 x).1
    | npFloat64 x => exact absurd rfl (h1 x).2
    | ndarray l => exact absurd rfl (h2 l)
    | _ => exact ⟨rfl, rfl⟩
  · cases v <;> rfl

/-- In a simulator just built the emissivity is 1 at every frequency, and the geometry is the one asked for. -/
theorem C31_initial {fl : Flip} {h h' : Heap} {a : CtorArgs} {s : SimObj} (hc : construct fl h a = (.ok s, h')) :
    s.es = List.replicate (h a.frq).length 1 ∧ s.satellite = a.fromSat := by
  obtain ⟨_, _, _, _, _, _, _, _, _, _, _, hf, _, he, hs, _⟩ := construct_ok hc
  exact ⟨hf ▸ he, hs⟩

/-- Passing a non-empty absorption model name to the constructor never yields a simulator. -/
theorem C31_model_argument (fl : Flip) (h : Heap) (a : CtorArgs) (hm : a.absmdl ≠ "") (s : SimObj) :
    (construct fl h a).1 ≠ .ok s := by
  intro hs
  rcases hc : construct fl h a with ⟨r, h'⟩
  rw [hc] at hs
  obtain rfl : r = .ok s := hs
  exact hm (construct_ok hc).2.2.2.1

example (s : SimObj) : (setEmissivity s (.int 1)).1 = .error .valueError :=
  ((C31_emissivity s (.int 1)).2.2.1 (by simp) (by simp)).1

end Verif.Props
