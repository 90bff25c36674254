import Verif.Model.OzoneParams
import Verif.Props.ParamAlias
import Verif.Props.Ozone

/-!
# C90: ozone parameters
-/

namespace Verif.Props

open Verif.Model Verif.Py Verif.Lemmas Real

variable {m k a : String} {T : RawTable} {base : ℕ} {old ll P P' : Refs} {h : Mem} {F : LineList}

/-- Loading gives the values of the file, and keeps what earlier loads left over. -/
theorem o3load_view (hT : ozoneGroups.lookup m = some T) (hF : ozoneFile m = some F) (hold : Fresh old base) :
    (loadOzone T base old).view (placed T base h) = reloadLL F (old.view h) := by
  unfold ozoneFile at hF
  rw [hT, Option.map_some, Option.some_inj] at hF
  funext a
  have e : ((lastAssign ozoneAssign a).bind (Src.ref T base)).map (Ref.val (placed T base h)) = F a := by
    rw [← hF]
    show _ = (lastAssign ozoneAssign a).bind (Src.val T)
    cases lastAssign ozoneAssign a with
    | none => rfl
    | some s => exact src_view s
  unfold Refs.view loadOzone reloadLL
  rw [← e]
  cases (lastAssign ozoneAssign a).bind (Src.ref T base) with
  | some r => rfl
  | none =>
    show (old a).map _ = (old a).map _
    cases ho : old a with
    | none => rfl
    | some r =>
      cases r with
      | num x => rfl
      | arr b => simp [Ref.val, placed_below (hold a b ho)]

/-- The six names and the attributes they stand for. -/
def ozoneNames : List (String × String) :=
  [("O3_FL", "fl"), ("O3_S1", "s1"), ("O3_B", "b"), ("O3_W", "w"), ("O3_X", "x"), ("O3_SR", "sr")]

/-- The entries of the dictionary. -/
theorem o3Refs (hP : ozoneParams ll = .ok P) :
    (∀ e ∈ ozoneNames, P e.1 = ll e.2 ∧ (ll e.2).isSome) ∧ ∀ k, (P k).isSome → k ∈ ozoneNames.map Prod.fst := by
  unfold ozoneParams at hP
  obtain ⟨fl, e1, hP⟩ := bind_ok hP
  obtain ⟨s1, e2, hP⟩ := bind_ok hP
  obtain ⟨b, e3, hP⟩ := bind_ok hP
  obtain ⟨w, e4, hP⟩ := bind_ok hP
  obtain ⟨x, e5, hP⟩ := bind_ok hP
  obtain ⟨sr, e6, hP⟩ := bind_ok hP
  have e1 := get_ok e1
  have e2 := get_ok e2
  have e3 := get_ok e3
  have e4 := get_ok e4
  have e5 := get_ok e5
  have e6 := get_ok e6
  cases hP
  refine ⟨by simp [ozoneNames, e1, e2, e3, e4, e5, e6, List.lookup], fun k hk => ?_⟩
  obtain ⟨r, hr⟩ := Option.isSome_iff_exists.1 hk
  exact List.mem_map.2 (by
    have := List.mem_map_of_mem (f := Prod.fst) (lookup_mem hr)
    exact List.mem_map.1 (mem_of_all (l' := ozoneNames.map Prod.fst) rfl this))

/-- The line list after taking a full dictionary. -/
theorem take_eq (hP : ∀ e ∈ ozoneNames, (P e.1).isSome) (ll : Refs) : ∃ ll', takeAll P ozoneTakes ll = (ll', none) ∧
    (∀ e ∈ ozoneNames, ll' e.2 = P e.1) ∧ ∀ a, a ∉ ozoneNames.map Prod.snd → ll' a = ll a := by
  have g (k a : String) (hk : (k, a) ∈ ozoneNames) := Option.isSome_iff_exists.1 (hP (k, a) hk)
  obtain ⟨v1, e1⟩ := g "O3_FL" "fl" (by decide)
  obtain ⟨v2, e2⟩ := g "O3_S1" "s1" (by decide)
  obtain ⟨v3, e3⟩ := g "O3_B" "b" (by decide)
  obtain ⟨v4, e4⟩ := g "O3_W" "w" (by decide)
  obtain ⟨v5, e5⟩ := g "O3_X" "x" (by decide)
  obtain ⟨v6, e6⟩ := g "O3_SR" "sr" (by decide)
  simp only at e1 e2 e3 e4 e5 e6
  refine ⟨(((((ll.set "fl" v1).set "s1" v2).set "b" v3).set "w" v4).set "x" v5).set "sr" v6,
    by simp only [ozoneTakes, takeAll, e1, e2, e3, e4, e5, e6], ?_, ?_⟩
  · simp [ozoneNames, Refs.set, e1, e2, e3, e4, e5, e6]
  · intro a ha
    simp only [ozoneNames, List.map_cons, List.map_nil, List.mem_cons, List.not_mem_nil, or_false, not_or] at ha
    simp [Refs.set, ha]

set_option maxRecDepth 10000 in
theorem ozone_arrays : ∀ g ∈ ozoneGroups, ∀ e ∈ ozoneNames,
    (isCol g.2 (lastAssign ozoneAssign e.2) || isMilli g.2 (lastAssign ozoneAssign e.2)) = true := by decide +kernel

theorem o3load_arr (hT : ozoneGroups.lookup m = some T) {e : String × String} (he : e ∈ ozoneNames) :
    ∃ s b, lastAssign ozoneAssign e.2 = some s ∧ s.ref T base = some (.arr b) ∧
      loadOzone T base old e.2 = some (.arr b) := by
  have := ozone_arrays (m, T) (lookup_mem hT) e he
  rw [Bool.or_eq_true] at this
  rcases this with hc | hc
  · unfold isCol at hc
    split at hc
    · rename_i c e1
      rw [decide_eq_true_eq] at hc
      exact ⟨.col c, base + 2 * c, e1, by simpa [Src.ref] using hc, by simpa [loadOzone, e1, Src.ref] using by simp [hc]⟩
    · cases hc
  · unfold isMilli at hc
    split at hc
    · rename_i c e1
      rw [decide_eq_true_eq] at hc
      exact ⟨.milli c, base + 2 * c + 1, e1, by simpa [Src.ref] using hc, by
        simpa [loadOzone, e1, Src.ref] using by simp [hc]⟩
    · cases hc

theorem o3assigned_distinct : ∀ a ∈ ozoneAssign.map Prod.fst, ∀ b ∈ ozoneAssign.map Prod.fst,
    lastAssign ozoneAssign a = lastAssign ozoneAssign b → a = b := by decide +kernel

theorem o3load_unique (hold : Fresh old base) {s : Src} (hs : lastAssign ozoneAssign a = some s) {b : ℕ}
    (hb : s.ref T base = some (.arr b)) {a' : String} (ha' : loadOzone T base old a' = some (.arr b)) : a' = a := by
  unfold loadOzone at ha'
  cases e : (lastAssign ozoneAssign a').bind (Src.ref T base) with
  | some r =>
    rw [e] at ha'
    simp only [Option.orElse_some, Option.some.injEq] at ha'
    subst ha'
    obtain ⟨s', h1, h2⟩ := Option.bind_eq_some_iff.1 e
    have := ref_inj hb h2
    subst this
    exact o3assigned_distinct a' (lastAssign_mem h1) a (lastAssign_mem hs) (h1.trans hs.symm)
  | none =>
    rw [e] at ha'
    have h1 := hold a' b (by simpa using ha')
    have h2 := (ref_bounds hb).1
    omega

/-- C90: the dictionary exists for every model with a table, whatever was loaded before, and has exactly the six names. -/
theorem C90_available (hT : ozoneGroups.lookup m = some T) :
    ∃ P, ozoneParams (loadOzone T base old) = .ok P ∧ ∀ k, (P k).isSome ↔ k ∈ ozoneNames.map Prod.fst := by
  have g (k a : String) (hk : (k, a) ∈ ozoneNames) := o3load_arr (base := base) (old := old) hT hk
  obtain ⟨_, b1, -, -, e1⟩ := g "O3_FL" "fl" (by decide)
  obtain ⟨_, b2, -, -, e2⟩ := g "O3_S1" "s1" (by decide)
  obtain ⟨_, b3, -, -, e3⟩ := g "O3_B" "b" (by decide)
  obtain ⟨_, b4, -, -, e4⟩ := g "O3_W" "w" (by decide)
  obtain ⟨_, b5, -, -, e5⟩ := g "O3_X" "x" (by decide)
  obtain ⟨_, b6, -, -, e6⟩ := g "O3_SR" "sr" (by decide)
  have hP : ∃ P, ozoneParams (loadOzone T base old) = .ok P := by
    unfold ozoneParams
    rw [get_some e1, get_some e2, get_some e3, get_some e4, get_some e5, get_some e6]
    exact ⟨_, rfl⟩
  obtain ⟨P, hP⟩ := hP
  obtain ⟨R1, R2⟩ := o3Refs hP
  refine ⟨P, hP, fun k => ⟨R2 k, fun hk => ?_⟩⟩
  obtain ⟨e, he, rfl⟩ := List.mem_map.1 hk
  rw [(R1 e he).1]
  exact (R1 e he).2

/-- **C90.** Handing back the unperturbed dictionary has no effect at all: neither on the result nor on the line list. -/
theorem C90_unperturbed (hP : ozoneParams ll = .ok P) (h : Mem) (t p f d : ℝ) :
    o3With m (some P) ll h t p f d = o3With m none ll h t p f d := by
  obtain ⟨R1, -⟩ := o3Refs hP
  obtain ⟨ll', h1, h2, h3⟩ := take_eq (P := P) (fun e he => by rw [(R1 e he).1]; exact (R1 e he).2) ll
  have : ll' = ll := by
    funext a
    by_cases ha : a ∈ ozoneNames.map Prod.snd
    · obtain ⟨e, he, rfl⟩ := List.mem_map.1 ha
      rw [h2 e he, (R1 e he).1]
    · exact h3 a ha
  subst this
  unfold o3With
  simp only [h1]

/-- C90: every array of the dictionary is that of the line list.  Changing it in place changes all later absorption
without parameters in that attribute, and no other entry. -/
theorem C90_shared (hT : ozoneGroups.lookup m = some T) (hF : ozoneFile m = some F) (hold : Fresh old base)
    (hP : ozoneParams (loadOzone T base old) = .ok P) (hk : (k, a) ∈ ozoneNames) (v : Val) :
    ∃ h'', editInPlace P k v (placed T base h) = .ok h'' ∧
      (∀ t p f d, (o3With m none (loadOzone T base old) h'' t p f d).1 =
        o3Absorption m ((reloadLL F (old.view h)).set a v) t p f d) ∧
      ∀ k' ≠ k, P.view h'' k' = P.view (placed T base h) k' := by
  obtain ⟨R1, R2⟩ := o3Refs hP
  obtain ⟨s, b, hs, hb, hl⟩ := o3load_arr (base := base) (old := old) hT hk
  have hPk : P k = some (.arr b) := (R1 _ hk).1.trans hl
  refine ⟨Function.update (placed T base h) b v, by simp [editInPlace, hPk], fun t p f d => ?_, fun k' hne => ?_⟩
  · unfold o3With
    simp only
    rw [view_update hl (fun a' ha' => o3load_unique hold hs hb ha'), o3load_view hT hF hold]
  · show (P k').map _ = (P k').map _
    cases hp : P k' with
    | none => rfl
    | some r =>
      cases r with
      | num x => rfl
      | arr c =>
        have hc : c ≠ b := by
          rintro rfl
          obtain ⟨e, he, rfl⟩ := List.mem_map.1 (R2 k' (by rw [hp]; rfl))
          have h1 := o3load_unique hold hs hb ((R1 e he).1.symm.trans hp)
          have inj : ∀ e ∈ ozoneNames, ∀ e' ∈ ozoneNames, e.2 = e'.2 → e.1 = e'.1 := by decide
          exact hne (inj e he (k, a) hk h1)
        simp [Ref.val, hc]

/-- C90: loading the line list undoes every change, whatever was done before. -/
theorem C90_reload (hT : ozoneGroups.lookup m = some T) (hF : ozoneFile m = some F) (hold : Fresh old base)
    (t p f d : ℝ) : (o3With m none (loadOzone T base old) (placed T base h) t p f d).1 =
      o3Absorption m (reloadLL F fun _ => none) t p f d := by
  unfold o3With
  simp only
  rw [o3load_view hT hF hold]
  exact C39_ozone hF _ _ _ _ _ _

/-- C90: the parameters of a call stay: every later call without parameters gives what a call with them gives. -/
theorem C90_stay (hP : ∀ e ∈ ozoneNames, (P e.1).isSome) (h : Mem) (t p f d t' p' f' d' : ℝ) :
    (o3With m none (o3With m (some P) ll h t p f d).2 h t' p' f' d').1 = (o3With m (some P) ll h t' p' f' d').1 := by
  obtain ⟨ll', h1, -, -⟩ := take_eq hP ll
  unfold o3With
  simp only [h1]

/-- C90: a dictionary without some ozone entry, e.g. one of water vapour and oxygen only, raises `KeyError`, also where
there is no ozone. -/
theorem C90_missing {e : String × String} (he : e ∈ ozoneNames) (hP : P e.1 = none) (h : Mem) (t p f d : ℝ) :
    (o3With m (some P) ll h t p f d).1 = .error .keyError := by
  have key : ∀ (l : List (String × String)) (ll : Refs), e ∈ l → ∃ ll', takeAll P l ll = (ll', some .keyError) := by
    intro l
    induction l with
    | nil => intro ll h; cases h
    | cons e' l ih =>
      intro ll hm
      obtain ⟨k, a⟩ := e'
      unfold takeAll
      cases hk : P k with
      | none => exact ⟨_, rfl⟩
      | some v =>
        refine ih _ ?_
        rcases List.mem_cons.1 hm with rfl | hm
        · rw [hk] at hP; cases hP
        · exact hm
  obtain ⟨ll', h1⟩ := key ozoneTakes ll he
  unfold o3With
  simp only [h1]

/-- C90: and the entries before the missing one have been taken by then. -/
theorem C90_missing_shift (h1 : ∀ e ∈ ozoneNames, e.1 ≠ "O3_SR" → (P e.1).isSome) (h2 : P "O3_SR" = none) (h : Mem)
    (t p f d : ℝ) : ∀ e ∈ ozoneNames, e.1 ≠ "O3_SR" → (o3With m (some P) ll h t p f d).2 e.2 = P e.1 := by
  have g (k a : String) (hk : (k, a) ∈ ozoneNames) (hn : k ≠ "O3_SR") := Option.isSome_iff_exists.1 (h1 (k, a) hk hn)
  obtain ⟨v1, e1⟩ := g "O3_FL" "fl" (by decide) (by decide)
  obtain ⟨v2, e2⟩ := g "O3_S1" "s1" (by decide) (by decide)
  obtain ⟨v3, e3⟩ := g "O3_B" "b" (by decide) (by decide)
  obtain ⟨v4, e4⟩ := g "O3_W" "w" (by decide) (by decide)
  obtain ⟨v5, e5⟩ := g "O3_X" "x" (by decide) (by decide)
  simp only at e1 e2 e3 e4 e5
  unfold o3With
  simp [ozoneNames, ozoneTakes, takeAll, Refs.set, e1, e2, e3, e4, e5, h2]

/-- C90: the shift-to-width ratio has no effect on any absorption. -/
theorem C90_shift_no_effect (hP : ∀ e ∈ ozoneNames, (P e.1).isSome) (hP' : (P' "O3_SR").isSome)
    (he : ∀ k ≠ "O3_SR", P' k = P k) (h : Mem) (t p f d : ℝ) :
    (o3With m (some P') ll h t p f d).1 = (o3With m (some P) ll h t p f d).1 := by
  have hall : ∀ e ∈ ozoneNames, (P' e.1).isSome := fun e hm => by
    by_cases hk : e.1 = "O3_SR"
    · rw [hk]; exact hP'
    · rw [he _ hk]; exact hP e hm
  obtain ⟨l1, a1, a2, a3⟩ := take_eq hP ll
  obtain ⟨l2, b1, b2, b3⟩ := take_eq hall ll
  unfold o3With
  simp only [a1, b1]
  refine o3_congr (fun a ha => ?_) t p f d
  have : l2 a = l1 a := by
    by_cases hm : a ∈ ozoneNames.map Prod.snd
    · obtain ⟨e, hm', rfl⟩ := List.mem_map.1 hm
      have hk : e.1 ≠ "O3_SR" := by
        have : ∀ e ∈ ozoneNames, e.2 ∈ ozoneReads → e.1 ≠ "O3_SR" := by decide
        exact this e hm' ha
      rw [a2 e hm', b2 e hm', he _ hk]
    · rw [a3 a hm, b3 a hm]
  unfold attr Refs.view
  rw [this]

theorem o3Voigt_scale (c fl s1 b w x t p ti f : ℝ) :
    o3Voigt fl (c * s1) b w x t p ti f = (o3Voigt fl s1 b w x t p ti f).map (c * ·) := by
  unfold o3Voigt
  simp only [bind]
  cases fpow ti x with
  | none => rfl
  | some tx =>
  cases npSqrt t with
  | none => rfl
  | some st =>
  simp only [Option.bind_some]
  generalize 0.62065e-7 * fl * st = bd
  cases npDiv (fl - f) bd with
  | none => rfl
  | some a1 =>
  cases npDiv (w * p * tx) bd with
  | none => rfl
  | some a2 =>
  simp only [Option.bind_some]
  cases dcerror a1 a2 with
  | none => rfl
  | some er =>
  simp only [Option.bind_some]
  unfold npDiv
  split_ifs
  · rfl
  · simp only [Option.map_some]
    congr 1
    ring

theorem o3Lorentz_scale (c fl s1 b w x t p ti f : ℝ) :
    o3Lorentz fl (c * s1) b w x t p ti f = (o3Lorentz fl s1 b w x t p ti f).map (c * ·) := by
  unfold o3Lorentz
  simp only [bind]
  cases fpow ti x with
  | none => rfl
  | some tx =>
  simp only [Option.bind_some]
  cases npSqrt (0.2166 * (w * p * tx) * (w * p * tx) + 0.6931 * (3.85e-15 * t * fl ^ 2)) with
  | none => rfl
  | some rt =>
  simp only [Option.bind_some]
  cases npDiv f fl with
  | none => rfl
  | some q =>
  simp only [Option.bind_some]
  generalize npDiv (q ^ 2 * _) _ = z
  cases z with
  | none => rfl
  | some z =>
    simp only [Option.bind_some, pure, Option.map_some]
    congr 1
    ring

/-- The body of the loop over the lines. -/
noncomputable def o3Step (fl : ℕ → ℝ) (f : ℝ) (term : ℕ → Option ℝ) (k : ℕ) (st : Option ℝ × Bool) : Option ℝ × Bool :=
  if st.2 then st
  else if f + 1.0 < fl k then (st.1, true)
  else if f - 1.0 ≤ fl k then ((do
    let s ← st.1
    let c ← term k
    return s + c), false)
  else st

theorem o3Loop_step (n : ℕ) (fl : ℕ → ℝ) (f : ℝ) (term : ℕ → Option ℝ) :
    o3Loop n fl f term = (forRange 0 n (o3Step fl f term) (some 0, false)).1 := rfl

theorem o3Loop_scale (c : ℝ) (n : ℕ) (fl : ℕ → ℝ) (f : ℝ) {term term' : ℕ → Option ℝ}
    (ht : ∀ k, term' k = (term k).map (c * ·)) : o3Loop n fl f term' = (o3Loop n fl f term).map (c * ·) := by
  have key : forRange 0 n (o3Step fl f term') (some 0, false) =
      ((forRange 0 n (o3Step fl f term) (some 0, false)).1.map (c * ·),
        (forRange 0 n (o3Step fl f term) (some 0, false)).2) := by
    induction n with
    | zero => simp
    | succ n ih =>
      rw [forRange_succ (Nat.zero_le n), forRange_succ (Nat.zero_le n), ih]
      generalize forRange 0 n (o3Step fl f term) (some 0, false) = st
      obtain ⟨s, q⟩ := st
      unfold o3Step
      simp only [ht]
      split_ifs <;> try rfl
      cases s <;> cases term n <;> simp [mul_add]
  rw [o3Loop_step, o3Loop_step, key]

/-- Lines from the first one above the window on are never looked at. -/
theorem o3Loop_break {n n' k : ℕ} {fl fl' : ℕ → ℝ} {f : ℝ} {term term' : ℕ → Option ℝ} (hk : k < n) (hk' : k < n')
    (hf : f + 1 < fl k) (hf' : f + 1 < fl' k) (h1 : ∀ i < k, fl' i = fl i) (h2 : ∀ i < k, term' i = term i) :
    o3Loop n' fl' f term' = o3Loop n fl f term := by
  have stop (n : ℕ) (fl : ℕ → ℝ) (term : ℕ → Option ℝ) (hk : k < n) (hf : f + 1 < fl k) :
      o3Loop n fl f term = (forRange 0 k (o3Step fl f term) (some 0, false)).1 := by
    rw [o3Loop_step]
    have : (forRange 0 n (o3Step fl f term) (some 0, false)).1 =
        (forRange 0 k (o3Step fl f term) (some 0, false)).1 ∧
        (forRange 0 n (o3Step fl f term) (some 0, false)).2 = true := by
      induction n, hk using Nat.le_induction with
      | base =>
        rw [forRange_succ (Nat.zero_le k)]
        generalize forRange 0 k (o3Step fl f term) (some 0, false) = st
        unfold o3Step
        have hf1 : f + 1.0 < fl k := by norm_num; exact hf
        split_ifs with c
        · exact ⟨rfl, c⟩
        · exact ⟨rfl, rfl⟩
      | succ n hn ih =>
        rw [forRange_succ (Nat.zero_le n)]
        have e (st : Option ℝ × Bool) (hst : st.2 = true) : o3Step fl f term n st = st := by
          unfold o3Step
          rw [if_pos hst]
        rw [e _ ih.2]
        exact ih
    exact this.1
  rw [stop n fl term hk hf, stop n' fl' term' hk' hf']
  congr 1
  clear hk hk' hf hf' stop
  induction k with
  | zero => simp
  | succ k ih =>
    rw [forRange_succ (Nat.zero_le k), forRange_succ (Nat.zero_le k),
      ih (fun i hi => h1 i (Nat.lt_succ_of_lt hi)) (fun i hi => h2 i (Nat.lt_succ_of_lt hi))]
    generalize forRange 0 k (o3Step fl f term) (some 0, false) = st
    unfold o3Step
    rw [h1 k (Nat.lt_succ_self k), h2 k (Nat.lt_succ_self k)]

/-- The routine with the line strengths multiplied. -/
theorem o3_scale {L L' : LineList} {s : Val} (c : ℝ) (hs : L "s1" = some s) (hs' : L' "s1" = some fun i => c * s i)
    (hL : ∀ a ∈ ozoneReads, a ≠ "s1" → L' a = L a) (t p f d : ℝ) :
    o3Absorption m L' t p f d = (o3Absorption m L t p f d).map (Option.map (c * ·)) := by
  have ha (a : String) (h1 : a ∈ ozoneReads) (h2 : a ≠ "s1") : attr L' a = attr L a := by
    unfold attr; rw [hL a h1 h2]
  unfold o3Absorption
  by_cases hd : d = 0
  · rw [if_pos hd, if_pos hd]
    simp [Except.map]
  · rw [if_neg hd, if_neg hd, ha "reftline" (by decide) (by decide), ha "len(fl)" (by decide) (by decide), ha "fl" (by decide) (by decide),
      ha "b" (by decide) (by decide), ha "w" (by decide) (by decide), ha "x" (by decide) (by decide), attr_some hs,
      attr_some hs']
    cases attr L "reftline" with
    | error e => rfl
    | ok reft =>
    cases attr L "len(fl)" with
    | error e => rfl
    | ok n =>
    cases attr L "fl" with
    | error e => rfl
    | ok fl =>
    cases attr L "b" with
    | error e => rfl
    | ok b =>
    cases attr L "w" with
    | error e => rfl
    | ok w =>
    cases attr L "x" with
    | error e => rfl
    | ok x =>
    simp only [bind, Except.bind, pure, Except.pure, Except.map]
    congr 1
    cases npDiv (reft 0) t with
    | none => rfl
    | some ti =>
    simp only [Option.bind_some]
    cases fpow ti 2.5 with
    | none => rfl
    | some ti2 =>
    simp only [Option.bind_some]
    cases npDiv (-1008.0) t with
    | none => rfl
    | some qe =>
    simp only [Option.bind_some]
    split_ifs
    · rw [o3Loop_scale c _ _ _ (fun k => o3Voigt_scale c (fl k) (s k) (b k) (w k) (x k) t p ti f)]
      generalize o3Loop _ _ _ _ = z
      cases z with
      | none => rfl
      | some z =>
        simp only [Option.map_some, Option.bind_some]
        congr 1
        generalize (0.56419e-4 : ℝ) = a, (1e-06 : ℝ) * d = q, 1.0 - Real.exp qe = r
        ring
    · rw [o3Loop_scale c _ _ _ (fun k => o3Lorentz_scale c (fl k) (s k) (b k) (w k) (x k) t p ti f)]
      generalize o3Loop _ _ _ _ = z
      cases z with
      | none => rfl
      | some z =>
        simp only [Option.map_some, Option.bind_some]
        congr 1
        generalize (3.183e-05 : ℝ) = a, (1e-06 : ℝ) * d = q, 1.0 - Real.exp qe = r
        ring

/-- The view of the line list during a call with parameters. -/
theorem with_view (hP : ∀ e ∈ ozoneNames, (P e.1).isSome) (ll : Refs) (h : Mem) :
    ∃ L : LineList, (∀ t p f d, (o3With m (some P) ll h t p f d).1 = o3Absorption m L t p f d) ∧
      (∀ e ∈ ozoneNames, L e.2 = P.view h e.1) ∧ ∀ a, a ∉ ozoneNames.map Prod.snd → L a = ll.view h a := by
  obtain ⟨l1, a1, a2, a3⟩ := take_eq hP ll
  refine ⟨l1.view h, fun t p f d => ?_, fun e he => ?_, fun a ha => ?_⟩
  · unfold o3With
    simp only [a1]
  · unfold Refs.view; rw [a2 e he]
  · unfold Refs.view; rw [a3 a ha]

/-- C90: multiplying the line strengths of a dictionary multiplies the absorption. -/
theorem C90_strength (hP : ∀ e ∈ ozoneNames, (P e.1).isSome) {s : Val} {h h' : Mem} (c : ℝ)
    (hs : P.view h "O3_S1" = some s) (hs' : P'.view h' "O3_S1" = some fun i => c * s i)
    (he : ∀ e ∈ ozoneNames, e.1 ≠ "O3_S1" → P'.view h' e.1 = P.view h e.1) (hl : ll.view h' = ll.view h)
    (t p f d : ℝ) : (o3With m (some P') ll h' t p f d).1 =
      ((o3With m (some P) ll h t p f d).1).map (Option.map (c * ·)) := by
  have hP' : ∀ e ∈ ozoneNames, (P' e.1).isSome := fun e hm => by
    have : (P'.view h' e.1).isSome := by
      by_cases hk : e.1 = "O3_S1"
      · rw [hk, hs']; rfl
      · rw [he e hm hk]; simpa [Refs.view] using hP e hm
    simpa [Refs.view] using this
  obtain ⟨L, a1, a2, a3⟩ := with_view (m := m) hP ll h
  obtain ⟨L', b1, b2, b3⟩ := with_view (m := m) hP' ll h'
  rw [a1, b1]
  refine o3_scale c ((a2 ("O3_S1", "s1") (by decide)).trans hs) ((b2 ("O3_S1", "s1") (by decide)).trans hs')
    (fun a _ hne => ?_) t p f d
  by_cases hm : a ∈ ozoneNames.map Prod.snd
  · obtain ⟨e, hm', rfl⟩ := List.mem_map.1 hm
    have : ∀ e ∈ ozoneNames, e.2 ≠ "s1" → e.1 ≠ "O3_S1" := by decide
    rw [a2 e hm', b2 e hm', he e hm' (this e hm' hne)]
  · rw [a3 a hm, b3 a hm, hl]

/-- C90: the loop over the lines stops at the first one more than 1 GHz above the frequency.  When line `k` of a
dictionary has been moved there, no later line contributes any more, wherever it is. -/
theorem C90_break (hP : ∀ e ∈ ozoneNames, (P e.1).isSome) (hP' : ∀ e ∈ ozoneNames, (P' e.1).isSome) {h h' : Mem} {k : ℕ}
    {f : ℝ} (he : ∀ e ∈ ozoneNames, ∃ v v', P.view h e.1 = some v ∧ P'.view h' e.1 = some v' ∧ (∀ i < k, v' i = v i) ∧
      (e.1 = "O3_FL" → f + 1 < v k ∧ f + 1 < v' k)) (hl : ll.view h' = ll.view h) {n : ℕ}
    (hn : ll.view h "len(fl)" = some fun _ => (n : ℝ)) (hk : k < n) (t p d : ℝ) :
    (o3With m (some P') ll h' t p f d).1 = (o3With m (some P) ll h t p f d).1 := by
  obtain ⟨L, a1, a2, a3⟩ := with_view (m := m) hP ll h
  obtain ⟨L', b1, b2, b3⟩ := with_view (m := m) hP' ll h'
  rw [a1, b1]
  obtain ⟨fl, fl', c1, d1, e1, g1⟩ := he ("O3_FL", "fl") (by decide)
  obtain ⟨s, s', c2, d2, e2, -⟩ := he ("O3_S1", "s1") (by decide)
  obtain ⟨b, b', c3, d3, e3, -⟩ := he ("O3_B", "b") (by decide)
  obtain ⟨w, w', c4, d4, e4, -⟩ := he ("O3_W", "w") (by decide)
  obtain ⟨x, x', c5, d5, e5, -⟩ := he ("O3_X", "x") (by decide)
  obtain ⟨g1, g2⟩ := g1 rfl
  have hr : L' "reftline" = L "reftline" := by rw [a3 _ (by decide), b3 _ (by decide), hl]
  have hn1 : L "len(fl)" = some fun _ => (n : ℝ) := by rw [a3 _ (by decide), hn]
  have hn2 : L' "len(fl)" = some fun _ => (n : ℝ) := by rw [b3 _ (by decide), hl, hn]
  have hr' : attr L' "reftline" = attr L "reftline" := by unfold attr; rw [hr]
  unfold o3Absorption
  rw [attr_some hn1, attr_some hn2, hr', attr_some ((a2 _ (by decide : ("O3_FL", "fl") ∈ ozoneNames)).trans c1),
    attr_some ((b2 _ (by decide : ("O3_FL", "fl") ∈ ozoneNames)).trans d1),
    attr_some ((a2 _ (by decide : ("O3_S1", "s1") ∈ ozoneNames)).trans c2),
    attr_some ((b2 _ (by decide : ("O3_S1", "s1") ∈ ozoneNames)).trans d2),
    attr_some ((a2 _ (by decide : ("O3_B", "b") ∈ ozoneNames)).trans c3),
    attr_some ((b2 _ (by decide : ("O3_B", "b") ∈ ozoneNames)).trans d3),
    attr_some ((a2 _ (by decide : ("O3_W", "w") ∈ ozoneNames)).trans c4),
    attr_some ((b2 _ (by decide : ("O3_W", "w") ∈ ozoneNames)).trans d4),
    attr_some ((a2 _ (by decide : ("O3_X", "x") ∈ ozoneNames)).trans c5),
    attr_some ((b2 _ (by decide : ("O3_X", "x") ∈ ozoneNames)).trans d5)]
  simp only [bind, Except.bind, numLines_nat]
  have V (ti : ℝ) := o3Loop_break hk hk g1 g2 e1
    (term := fun k => o3Voigt (fl k) (s k) (b k) (w k) (x k) t p ti f)
    (term' := fun k => o3Voigt (fl' k) (s' k) (b' k) (w' k) (x' k) t p ti f)
    (fun i hi => by rw [e1 i hi, e2 i hi, e3 i hi, e4 i hi, e5 i hi])
  have W (ti : ℝ) := o3Loop_break hk hk g1 g2 e1
    (term := fun k => o3Lorentz (fl k) (s k) (b k) (w k) (x k) t p ti f)
    (term' := fun k => o3Lorentz (fl' k) (s' k) (b' k) (w' k) (x' k) t p ti f)
    (fun i hi => by rw [e1 i hi, e2 i hi, e3 i hi, e4 i hi, e5 i hi])
  simp only [V, W]

/-- C90: in particular a first line moved more than 1 GHz above the frequency removes the ozone absorption there, all
other lines notwithstanding. -/
theorem C90_first_line (hP : ∀ e ∈ ozoneNames, (P e.1).isSome) {h : Mem} {fl r : Val} {f t : ℝ}
    (hfl : P.view h "O3_FL" = some fl) (h0 : f + 1 < fl 0) {n : ℕ} (hn : ll.view h "len(fl)" = some fun _ => (n : ℝ))
    (hpos : 0 < n) (hr : ll.view h "reftline" = some r) (hr0 : 0 < r 0) (ht : 0 < t) (p d : ℝ) :
    (o3With m (some P) ll h t p f d).1 = .ok (some 0) := by
  obtain ⟨L, a1, a2, a3⟩ := with_view (m := m) hP ll h
  rw [a1]
  have g (e : String × String) (he : e ∈ ozoneNames) : ∃ v, L e.2 = some v := by
    rw [a2 e he]
    obtain ⟨v, hv⟩ := Option.isSome_iff_exists.1 (hP e he)
    exact ⟨v.val h, by simp [Refs.view, hv]⟩
  obtain ⟨s, e2⟩ := g ("O3_S1", "s1") (by decide)
  obtain ⟨b, e3⟩ := g ("O3_B", "b") (by decide)
  obtain ⟨w, e4⟩ := g ("O3_W", "w") (by decide)
  obtain ⟨x, e5⟩ := g ("O3_X", "x") (by decide)
  have hq : 0 < r 0 / t := div_pos hr0 ht
  have z (term : ℕ → Option ℝ) : o3Loop n fl f term = some 0 := by
    rw [o3Loop_break (n := 1) (n' := n) (k := 0) (fl := fl) (term := term) Nat.one_pos hpos h0 h0 (fun _ _ => rfl)
      (fun _ _ => rfl)]
    rw [o3Loop_step, forRange_succ (le_refl 0)]
    have hf1 : f + 1.0 < fl 0 := by norm_num; exact h0
    simp [o3Step, hf1]
  unfold o3Absorption
  rw [attr_some ((a2 _ (by decide : ("O3_FL", "fl") ∈ ozoneNames)).trans hfl), attr_some e2, attr_some e3, attr_some e4,
    attr_some e5, attr_some ((a3 "reftline" (by decide)).trans hr), attr_some ((a3 "len(fl)" (by decide)).trans hn)]
  simp only [bind, Except.bind, numLines_nat, z, npDiv, if_neg ht.ne', fpow_of_pos hq, Option.bind_some]
  split_ifs <;> simp [pure, Except.pure]

example (h : Mem) (v : Val) : ∃ T F P h'', ozoneGroups.lookup "R18" = some T ∧ ozoneFile "R18" = some F ∧
    ozoneParams (loadOzone T 0 fun _ => none) = .ok P ∧ editInPlace P "O3_S1" v (placed T 0 h) = .ok h'' ∧
    (o3With "R18" none (loadOzone T 0 fun _ => none) h'' 250 100 110 1).1 =
      o3Absorption "R18" ((reloadLL F fun _ => none).set "s1" v) 250 100 110 1 := by
  obtain ⟨F, hF⟩ : ∃ F, ozoneFile "R18" = some F := ⟨_, rfl⟩
  obtain ⟨T, hT⟩ : ∃ T, ozoneGroups.lookup "R18" = some T := ⟨_, rfl⟩
  obtain ⟨P, hP, -⟩ := C90_available hT (base := 0) (old := fun _ => none)
  obtain ⟨h'', h1, h2, -⟩ := C90_shared hT hF (h := h) (fun _ _ hh => by cases hh) hP (k := "O3_S1") (a := "s1")
    (by decide) v
  exact ⟨T, F, P, h'', hT, hF, hP, h1, h2 _ _ _ _⟩

/-- Doubling the strengths of a dictionary in place. -/
example {P ll : Refs} {h : Mem} (hP : ∀ e ∈ ozoneNames, (P e.1).isSome) {b : ℕ} (hb : P "O3_S1" = some (.arr b))
    (hP1 : ∀ k ≠ "O3_S1", P k ≠ some (.arr b)) (hl : ∀ a, ll a ≠ some (.arr b)) (t p f d : ℝ) :
    (o3With "R22" (some P) ll (Function.update h b fun i => 2 * h b i) t p f d).1 =
      ((o3With "R22" (some P) ll h t p f d).1).map (Option.map (2 * ·)) := by
  have fr (Q : Refs) (a : String) (hQ : Q a ≠ some (.arr b)) :
      Q.view (Function.update h b fun i => 2 * h b i) a = Q.view h a := by
    unfold Refs.view
    cases e : Q a with
    | none => rfl
    | some r =>
      cases r with
      | num x => rfl
      | arr c =>
        have : c ≠ b := by rintro rfl; exact hQ e
        simp [Ref.val, this]
  exact C90_strength hP 2 (s := h b) (by simp [Refs.view, hb, Ref.val]) (by simp [Refs.view, hb, Ref.val])
    (fun e _ hne => fr P e.1 (hP1 e.1 hne)) (funext fun a => fr ll a (hl a)) t p f d

/-- A dictionary of single arrays: the lines of the file with the first one moved to 200 GHz give no absorption at
110.8 GHz. -/
example : ∃ (P ll : Refs) (h : Mem), (∀ e ∈ ozoneNames, (P e.1).isSome) ∧
    (o3With "R18" (some P) ll h 250 100 110.8 1).1 = .ok (some 0) := by
  refine ⟨fun _ => some (.arr 0), fun a => some (.num (if a = "len(fl)" then (3 : ℕ) else 296)),
    fun _ i => if i = 0 then 200 else 110.8, fun _ _ => rfl, ?_⟩
  refine C90_first_line (fl := fun i => if i = 0 then 200 else 110.8) (r := fun _ => 296) (n := 3) (fun _ _ => rfl) ?_ ?_ ?_
    (by norm_num) ?_ (by norm_num) (by norm_num) _ _
  · rfl
  · norm_num
  · rfl
  · simp [Refs.view, Ref.val]

end Verif.Props
