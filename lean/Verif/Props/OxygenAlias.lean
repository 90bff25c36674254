import Verif.Model.OxygenAlias
import Verif.Props.ParamAlias
import Verif.Props.OxygenParameters
import Verif.Props.Oxygen

/-!
# C89: the oxygen parameter dictionary shares all its arrays with the loaded line list
-/

namespace Verif.Props

open Verif.Model Verif.Py Verif.Lemmas Real

variable {m k a : String} {T : List (String × Col)} {base : ℕ} {old P : Refs} {h : Mem} {F : LineList}

/-- The entries that are arrays, with the attribute of the line list whose array it is. -/
def oxyShared (m : String) : List (String × String) :=
  [("O2FL", "f"), ("O2S", "s300"), ("O2BE", "be"), ("O2gamma", "w300"), ("O2gamma_NL", "w300")] ++
    if "R19" < m then [("y0", "y0"), ("y1", "y1"), ("dnu0", "dnu0"), ("dnu1", "dnu1")]
    else [("O2_V", "v"), ("O2_V_NL", "v"), ("Y300", "y300"), ("Y300_NL", "y300")]

/-- The entries that are numbers. -/
def oxyNumbers : List String := ["Snr", "WB300", "X11", "X16", "X05", "O2_nS", "w2a"]

/-- The entries of the dictionary. -/
theorem oxyRefs {ll : Refs} (hP : oxygenParams m ll = .ok P) :
    (∀ e ∈ oxyShared m, P e.1 = ll e.2) ∧ P "WB300" = ll "wb300" ∧ P "X05" = ll "x" ∧
    (∀ k ∈ ["Snr", "X11", "X16", "O2_nS", "w2a"], ∃ x, P k = some (.num x)) ∧
    (∀ k, (P k).isSome → k ∈ (oxyShared m).map Prod.fst ++ oxyNumbers) := by
  unfold oxygenParams at hP
  obtain ⟨f, e1, hP⟩ := bind_ok hP
  obtain ⟨s, e2, hP⟩ := bind_ok hP
  obtain ⟨be, e3, hP⟩ := bind_ok hP
  obtain ⟨w, e4, hP⟩ := bind_ok hP
  obtain ⟨wb, e5, hP⟩ := bind_ok hP
  obtain ⟨x, e6, hP⟩ := bind_ok hP
  have e1 := get_ok e1
  have e2 := get_ok e2
  have e3 := get_ok e3
  have e4 := get_ok e4
  have e5 := get_ok e5
  have e6 := get_ok e6
  have keys {l : List (String × Ref)} {k : String} (hk : (l.lookup k).isSome) : k ∈ l.map Prod.fst := by
    obtain ⟨r, hr⟩ := Option.isSome_iff_exists.1 hk
    exact List.mem_map.2 ⟨_, lookup_mem hr, rfl⟩
  unfold oxyShared
  by_cases hm : "R19" < m
  · simp only [if_pos hm] at hP ⊢
    obtain ⟨y0, e7, hP⟩ := bind_ok hP
    obtain ⟨y1, e8, hP⟩ := bind_ok hP
    obtain ⟨d0, e9, hP⟩ := bind_ok hP
    obtain ⟨d1, e10, hP⟩ := bind_ok hP
    have e7 := get_ok e7
    have e8 := get_ok e8
    have e9 := get_ok e9
    have e10 := get_ok e10
    cases hP
    refine ⟨?_, e5.symm, e6.symm, ?_, fun k hk => mem_of_all ?_ (keys hk)⟩
    · simp [e1, e2, e3, e4, e7, e8, e9, e10, List.lookup]
    · simp [List.lookup]
    · rfl
  · simp only [if_neg hm] at hP ⊢
    obtain ⟨v, e7, hP⟩ := bind_ok hP
    obtain ⟨y, e8, hP⟩ := bind_ok hP
    have e7 := get_ok e7
    have e8 := get_ok e8
    cases hP
    refine ⟨?_, e5.symm, e6.symm, ?_, fun k hk => mem_of_all ?_ (keys hk)⟩
    · simp [e1, e2, e3, e4, e7, e8, List.lookup]
    · simp [List.lookup]
    · rfl

/-- An attribute with an array of its own. -/
theorem oxyLoad_arr (ha : a ∈ oxygenAssign m) (hi : a ∉ oxygenItems) (hl : a ≠ "len(f)") :
    loadOxygen m T base old a = some (.arr (base + (oxygenAssign m).idxOf a)) := by
  unfold loadOxygen
  rw [if_neg hl, if_pos ha, if_neg hi]

/-- No other attribute refers to that array. -/
theorem oxyLoad_unique (hold : Fresh old base) {a' : String}
    (h' : loadOxygen m T base old a' = some (.arr (base + (oxygenAssign m).idxOf a))) : a' = a := by
  unfold loadOxygen at h'
  split_ifs at h' with h1 h2 h3
  · cases hT : T.lookup "f" <;> simp [hT] at h'
  · cases hT : T.lookup a' <;> simp [hT] at h'
  · simp only [Option.some.injEq, Ref.arr.injEq, Nat.add_left_cancel_iff] at h'
    exact (List.idxOf_inj h2).1 h'
  · have := hold a' _ h'
    omega

/-- In the models with a dictionary the attributes of the array entries are read as arrays. -/
theorem shared_read (hm : m ∈ oxygenWithParams) {e : String × String} (he : e ∈ oxyShared m) :
    e.2 ∈ oxygenAssign m ∧ e.2 ∉ oxygenItems ∧ e.2 ≠ "len(f)" := by
  have : ∀ m ∈ oxygenWithParams, ∀ e ∈ oxyShared m, e.2 ∈ oxygenAssign m ∧ e.2 ∉ oxygenItems ∧ e.2 ≠ "len(f)" := by
    decide +kernel
  exact this m hm e he

/-- Only the first entry of `x` and `wb300` matters. -/
theorem o2_scalar {ll ll' : LineList} (h : ∀ a ∈ oxyReads m, a ∉ oxygenItems → ll a = ll' a)
    {x x' w w' : Val} (hx : ll "x" = some x) (hx' : ll' "x" = some x') (hw : ll "wb300" = some w)
    (hw' : ll' "wb300" = some w') (h1 : x 0 = x' 0) (h2 : w 0 = w' 0) (p vx e f : ℝ) :
    o2Absorption m ll p vx e f = o2Absorption m ll' p vx e f := by
  have key : o2Absorption m ll p vx e f = o2Absorption m ((ll'.set "x" x).set "wb300" w) p vx e f := by
    refine o2_congr (fun a ha => ?_) p vx e f
    unfold attr LineList.set
    by_cases c1 : a = "wb300"
    · subst c1; simp [hw]
    · by_cases c2 : a = "x"
      · subst c2; simp [hx]
      · simp only [if_neg c1, if_neg c2]
        rw [h a ha (by simp [oxygenItems, c1, c2])]
  rw [key]
  have ha (a : String) (c1 : a ≠ "wb300") (c2 : a ≠ "x") : attr ((ll'.set "x" x).set "wb300" w) a = attr ll' a := by
    unfold attr LineList.set
    simp only [if_neg c1, if_neg c2]
  have hs (A : OxyAir) (b : ℝ) : oxySum m ((ll'.set "x" x).set "wb300" w) A b f = oxySum m ll' A b f := by
    unfold oxySum oxySumOld oxySumMid oxySum23 oxySum24 oxySumNew
    simp only [ha "len(f)" (by decide) (by decide), ha "f" (by decide) (by decide), ha "s300" (by decide) (by decide),
      ha "be" (by decide) (by decide), ha "w300" (by decide) (by decide), ha "y300" (by decide) (by decide),
      ha "v" (by decide) (by decide), ha "y0" (by decide) (by decide), ha "y1" (by decide) (by decide),
      ha "g0" (by decide) (by decide), ha "g1" (by decide) (by decide), ha "dnu0" (by decide) (by decide),
      ha "dnu1" (by decide) (by decide)]
  have b1 : attr ((ll'.set "x" x).set "wb300" w) "x" = .ok x := by simp [attr, LineList.set]
  have b2 : attr ((ll'.set "x" x).set "wb300" w) "wb300" = .ok w := by simp [attr, LineList.set]
  have b3 : attr ll' "x" = .ok x' := by simp [attr, hx']
  have b4 : attr ll' "wb300" = .ok w' := by simp [attr, hw']
  unfold o2Absorption
  simp only [b1, b2, b3, b4, bind, Except.bind, hs, h1, h2]

section
variable (hT : oxygenGroups.lookup m = some T) (hF : oxygenFile m = some F)
include hT hF

theorem oxyFile_eq : F = fun a =>
    if a = "len(f)" then (T.lookup "f").map fun c _ => (c.digits.length : ℝ)
    else if a ∈ oxygenAssign m then (T.lookup a).map Col.val
    else none := by
  unfold oxygenFile at hF
  rw [hT, Option.bind_some] at hF
  split_ifs at hF
  exact (Option.some.inj hF).symm

/-- What the loaded attributes refer to, compared with the values of the file. -/
theorem oxyLoad_view (ha : a ∈ oxyReads m) : ∃ u v, (loadOxygen m T base old).view (placedOxygen m T base h) a = some u ∧
    reloadLL F (fun _ => none) a = some v ∧ u 0 = v 0 ∧ (a ∉ oxygenItems → u = v) := by
  obtain ⟨v, h1, h2⟩ := oxyFile_reads hF (fun _ => none) a ha
  rw [h2]
  rw [oxyFile_eq hT hF] at h1
  unfold Refs.view loadOxygen
  by_cases c1 : a = "len(f)"
  · simp only [if_pos c1] at h1 ⊢
    cases hl : T.lookup "f" with
    | none => rw [hl] at h1; cases h1
    | some c =>
      rw [hl] at h1
      cases h1
      exact ⟨_, _, rfl, rfl, rfl, fun _ => rfl⟩
  · simp only [if_neg c1] at h1 ⊢
    split_ifs at h1 ⊢ with c2 c3
    · cases hl : T.lookup a with
      | none => rw [hl] at h1; cases h1
      | some c =>
        rw [hl] at h1
        cases h1
        exact ⟨_, _, rfl, rfl, rfl, fun hn => absurd c3 hn⟩
    · refine ⟨_, _, rfl, rfl, ?_⟩
      have e : Ref.val (placedOxygen m T base h) (.arr (base + (oxygenAssign m).idxOf a)) = v := by
        show placedOxygen m T base h _ = v
        unfold placedOxygen
        rw [if_neg (by omega), Nat.add_sub_cancel_left, List.getElem?_eq_getElem (List.idxOf_lt_length_of_mem c2),
          List.getElem_idxOf, Option.bind_some]
        cases hl : T.lookup a with
        | none => rw [hl] at h1; cases h1
        | some c => rw [hl] at h1; exact Option.some.inj h1
      exact ⟨congrFun e 0, fun _ => e⟩

/-- Loading the line list, in any state of the process, gives the absorption of the shipped table; in particular it
undoes every earlier change of arrays. -/
theorem C89_reload (p vx e f : ℝ) : o2Now m (loadOxygen m T base old) (placedOxygen m T base h) p vx e f =
    o2Absorption m (reloadLL F fun _ => none) p vx e f := by
  obtain ⟨x, x', a1, a2, a3, -⟩ := oxyLoad_view hT hF (base := base) (old := old) (h := h) (a := "x")
    (by simp [oxyReads, oxyCommon])
  obtain ⟨w, w', b1, b2, b3, -⟩ := oxyLoad_view hT hF (base := base) (old := old) (h := h) (a := "wb300")
    (by simp [oxyReads, oxyCommon])
  refine o2_scalar (fun a ha hi => ?_) a1 a2 b1 b2 a3 b3 p vx e f
  obtain ⟨u, v, c1, c2, -, c3⟩ := oxyLoad_view hT hF (base := base) (old := old) (h := h) ha
  rw [c1, c2, c3 hi]

omit hF in
/-- The dictionary exists for the seven models of C40, whatever was loaded before. -/
theorem C89_available (hm : m ∈ oxygenWithParams) : ∃ P, oxygenParams m (loadOxygen m T base old) = .ok P := by
  refine oxygenParams_ok fun a ha => ?_
  rcases oxygenGroups_params _ (lookup_mem hT) with ⟨-, hh⟩ | ⟨hn, -⟩
  · have := hh a ha
    unfold loadOxygen
    have hl : a ≠ "len(f)" := by
      rintro rfl
      revert ha
      unfold oxygenParamReads
      split_ifs <;> decide
    rw [if_neg hl, if_pos this.1]
    split_ifs
    · simpa using this.2
    · rfl
  · exact absurd hm hn

/-- **C89.** Changing any array of the dictionary in place changes the line list: every later absorption without
parameters is computed with the changed array.  Within the dictionary it changes exactly the entries for the same
attribute: the entry for all lines and the one for the neglected lines (`_NL`) are one array. -/
theorem C89_shared (hold : Fresh old base) (hm : m ∈ oxygenWithParams)
    (hP : oxygenParams m (loadOxygen m T base old) = .ok P) (hk : (k, a) ∈ oxyShared m) (v : Val) :
    ∃ h'', editInPlace P k v (placedOxygen m T base h) = .ok h'' ∧
      (∀ p vx e f, o2Now m (loadOxygen m T base old) h'' p vx e f =
        o2Absorption m ((reloadLL F fun _ => none).set a v) p vx e f) ∧
      ∀ k', P.view h'' k' = if (k', a) ∈ oxyShared m then some v else P.view (placedOxygen m T base h) k' := by
  obtain ⟨R1, R2, R3, R4, R5⟩ := oxyRefs hP
  obtain ⟨s1, s2, s3⟩ := shared_read hm hk
  change a ∈ oxygenAssign m at s1
  change a ∉ oxygenItems at s2
  change a ≠ "len(f)" at s3
  have hl : loadOxygen m T base old a = some (.arr (base + (oxygenAssign m).idxOf a)) := oxyLoad_arr s1 s2 s3
  have hPk : P k = some (.arr (base + (oxygenAssign m).idxOf a)) := (R1 _ hk).trans hl
  have hu (a' : String) (h' : loadOxygen m T base old a' = some (.arr (base + (oxygenAssign m).idxOf a))) : a' = a :=
    oxyLoad_unique hold h'
  refine ⟨Function.update (placedOxygen m T base h) (base + (oxygenAssign m).idxOf a) v, by simp [editInPlace, hPk],
    fun p vx e f => ?_, fun k' => ?_⟩
  · unfold o2Now
    rw [view_update hl hu]
    have nx : "x" ≠ a := by rintro rfl; exact s2 (by decide)
    have nw : "wb300" ≠ a := by rintro rfl; exact s2 (by decide)
    obtain ⟨x, x', a1, a2, a3, -⟩ := oxyLoad_view hT hF (base := base) (old := old) (h := h) (a := "x")
      (by simp [oxyReads, oxyCommon])
    obtain ⟨w, w', b1, b2, b3, -⟩ := oxyLoad_view hT hF (base := base) (old := old) (h := h) (a := "wb300")
      (by simp [oxyReads, oxyCommon])
    refine o2_scalar (fun b hb hi => ?_) (x := x) (x' := x') (w := w) (w' := w') ?_ ?_ ?_ ?_ a3 b3 p vx e f
    · obtain ⟨u, v', c1, c2, -, c3⟩ := oxyLoad_view hT hF (base := base) (old := old) (h := h) hb
      unfold LineList.set
      rw [c1, c2, c3 hi]
    · unfold LineList.set; rw [if_neg nx, a1]
    · unfold LineList.set; rw [if_neg nx, a2]
    · unfold LineList.set; rw [if_neg nw, b1]
    · unfold LineList.set; rw [if_neg nw, b2]
  · split_ifs with hk'
    · unfold Refs.view
      rw [R1 _ hk', hl]
      simp [Ref.val]
    · show (P k').map _ = (P k').map _
      cases hp : P k' with
      | none => rfl
      | some r =>
        cases r with
        | num x => rfl
        | arr c =>
          have hc : c ≠ base + (oxygenAssign m).idxOf a := by
            rintro rfl
            have h5 := R5 k' (by rw [hp]; rfl)
            rcases List.mem_append.1 h5 with h6 | h6
            · obtain ⟨e, he, rfl⟩ := List.mem_map.1 h6
              have := hu e.2 ((R1 e he).symm.trans hp)
              exact hk' (by rw [← this]; exact he)
            · have wb : loadOxygen m T base old "wb300" ≠ some (.arr (base + (oxygenAssign m).idxOf a)) := fun hh =>
                s2 (by rw [← hu _ hh]; decide)
              have wx : loadOxygen m T base old "x" ≠ some (.arr (base + (oxygenAssign m).idxOf a)) := fun hh =>
                s2 (by rw [← hu _ hh]; decide)
              by_cases q1 : k' = "WB300"
              · subst q1; exact wb (R2.symm.trans hp)
              · by_cases q2 : k' = "X05"
                · subst q2; exact wx (R3.symm.trans hp)
                · obtain ⟨x, hx⟩ := R4 k' (by
                    simp only [oxyNumbers, List.mem_cons, List.not_mem_nil, or_false] at h6 ⊢
                    tauto)
                  rw [hx] at hp
                  cases hp
          simp [Ref.val, hc]

/-- The other entries are numbers and cannot be changed in place. -/
theorem C89_numbers (hP : oxygenParams m (loadOxygen m T base old) = .ok P) (hk : k ∈ oxyNumbers) (v : Val) (g : Mem) :
    editInPlace P k v g = .error .typeError := by
  obtain ⟨-, R2, R3, R4, -⟩ := oxyRefs hP
  have item (a : String) (ha : a ∈ oxyReads m) (hi : a ∈ oxygenItems) (hl : a ≠ "len(f)") (hx : a ∈ oxygenAssign m) :
      ∃ x, loadOxygen m T base old a = some (.num x) := by
    obtain ⟨u, -, c1, -⟩ := oxyLoad_view hT hF (base := base) (old := old) (h := g) ha
    unfold Refs.view at c1
    unfold loadOxygen at c1 ⊢
    rw [if_neg hl, if_pos hx, if_pos hi] at c1 ⊢
    cases hT : T.lookup a with
    | none => rw [hT] at c1; cases c1
    | some c => exact ⟨_, rfl⟩
  have key : ∃ x, P k = some (.num x) := by
    by_cases q1 : k = "WB300"
    · subst q1
      rw [R2]
      exact item _ (by simp [oxyReads, oxyCommon]) (by decide) (by decide) (by simp [oxygenAssign])
    · by_cases q2 : k = "X05"
      · subst q2
        rw [R3]
        exact item _ (by simp [oxyReads, oxyCommon]) (by decide) (by decide) (by simp [oxygenAssign])
      · refine R4 k ?_
        simp only [oxyNumbers, List.mem_cons, List.not_mem_nil, or_false] at hk ⊢
        tauto
  obtain ⟨x, hx⟩ := key
  simp [editInPlace, hx]

end

/-- These are all entries. -/
theorem C89_classes {ll : Refs} (hP : oxygenParams m ll = .ok P) (hk : (P k).isSome) :
    k ∈ (oxyShared m).map Prod.fst ++ oxyNumbers := (oxyRefs hP).2.2.2.2 k hk

/-- A new process, model R20: setting the widths "for neglected lines" in place sets the widths of all lines, and with
them the absorption. -/
example (h : Mem) (v : Val) : ∃ T F P h'', oxygenGroups.lookup "R20" = some T ∧ oxygenFile "R20" = some F ∧
    oxygenParams "R20" (loadOxygen "R20" T 0 fun _ => none) = .ok P ∧
    editInPlace P "O2gamma_NL" v (placedOxygen "R20" T 0 h) = .ok h'' ∧ P.view h'' "O2gamma" = some v ∧
    o2Now "R20" (loadOxygen "R20" T 0 fun _ => none) h'' 100 1 1 60 =
      o2Absorption "R20" ((reloadLL F fun _ => none).set "w300" v) 100 1 1 60 := by
  obtain ⟨F, hF⟩ := Option.isSome_iff_exists.1 ((C37_names "R20").2 (by decide))
  have hT : ∃ T, oxygenGroups.lookup "R20" = some T := ⟨_, rfl⟩
  obtain ⟨T, hT⟩ := hT
  obtain ⟨P, hP⟩ := C89_available hT (base := 0) (old := fun _ => none) (by decide)
  obtain ⟨h'', h1, h2, h3⟩ := C89_shared hT hF (h := h) (fun _ _ hh => by cases hh) (by decide) hP (k := "O2gamma_NL")
    (a := "w300") (by decide) v
  exact ⟨T, F, P, h'', hT, hF, hP, h1, by rw [h3, if_pos (by decide)], h2 _ _ _ _⟩

end Verif.Props
