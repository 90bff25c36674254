import Verif.Lemmas.ParamAlias
import Verif.Props.Parameters

/-!
# C86: parameter dictionaries share arrays with the loaded line list
-/

namespace Verif.Props

open Verif.Model Verif.Py Verif.Lemmas Real

variable {m k a : String} {T : RawTable} {base : ℕ} {old P : Refs} {h h' : Mem} {F : LineList}

/-- `SpectroscopicParameter.water_parameters(m)`, absmod_uncertainty.py:105-107 and following: the line list is loaded
(new arrays from `base` on), then the dictionary is made. -/
noncomputable def askWater (m : String) (T : RawTable) (base : ℕ) (old : Refs) (h : Mem) : Except PyErr (Refs × Mem) :=
  waterParamsRef m (loadWater m T base old) (base + 2 * T.cols.length) (placed T base h)

/-- The entries whose array is that of the line list, with the attribute it belongs to. -/
def waterShared (m : String) : List (String × String) :=
  [("FL", "fl"), ("S", "s1"), ("B2", "b2"), ("n_a", "x"), ("n_w", "xs")] ++
    if "R17" < m then [("n_da", "xh"), ("n_dw", "xhs")] else [("SR", "sr")]

/-- The entries with an array of their own. -/
def waterCopied (m : String) : List String :=
  ["gamma_a", "gamma_w"] ++ if "R17" < m then ["delta_a", "delta_w"] else []

/-- The entries that are numbers. -/
def waterNumbers : List String :=
  ["con_Cf", "con_Cs", "con_Xf", "con_Xs", "con_Cf_factr", "con_Cs_factr", "wv_nS"]

/-- A column of the table. -/
def isCol (T : RawTable) : Option Src → Bool
  | some (.col c) => c < T.cols.length
  | _ => false

/-- A derived array. -/
def isMilli (T : RawTable) : Option Src → Bool
  | some (.milli c) => c < T.cols.length
  | _ => false

/-- A number. -/
def isCtr (T : RawTable) : Option Src → Bool
  | some (.ctr c) => c < T.ctr.digits.length
  | _ => false

set_option maxRecDepth 10000 in
theorem shared_cols : ∀ g ∈ waterGroups, g.1 ∉ ["R98", "MWL24"] → ∀ e ∈ waterShared g.1,
    isCol g.2 (lastAssign (waterAssign g.1) e.2) = true := by decide +kernel

set_option maxRecDepth 10000 in
theorem copied_arrays : ∀ g ∈ waterGroups, g.1 ∉ ["R98", "MWL24"] →
    ∀ a ∈ ["w0", "w0s"] ++ (if "R17" < g.1 then ["sh", "shs"] else []),
      isMilli g.2 (lastAssign (waterAssign g.1) a) = true := by decide +kernel

set_option maxRecDepth 10000 in
theorem con_numbers : ∀ g ∈ waterGroups, ∀ a ∈ ["cf", "cs", "xcf", "xcs"],
    isCtr g.2 (lastAssign (waterAssign g.1) a) = true := by decide +kernel

theorem col_ref (hc : isCol T (lastAssign (waterAssign m) a) = true) :
    ∃ s b, lastAssign (waterAssign m) a = some s ∧ s.ref T base = some (.arr b) ∧
      loadWater m T base old a = some (.arr b) := by
  unfold isCol at hc
  split at hc
  · rename_i c e
    rw [decide_eq_true_eq] at hc
    refine ⟨.col c, base + 2 * c, e, by simp [Src.ref, hc], ?_⟩
    simp [loadWater, e, Src.ref, hc]
  · cases hc

theorem milli_ref (hc : isMilli T (lastAssign (waterAssign m) a) = true) :
    ∃ b, loadWater m T base old a = some (.arr b) := by
  unfold isMilli at hc
  split at hc
  · rename_i c e
    rw [decide_eq_true_eq] at hc
    exact ⟨_, by simp [loadWater, e, Src.ref, hc]; rfl⟩
  · cases hc

theorem ctr_ref (hc : isCtr T (lastAssign (waterAssign m) a) = true) :
    ∃ x, loadWater m T base old a = some (.num x) := by
  unfold isCtr at hc
  split at hc
  · rename_i c e
    rw [decide_eq_true_eq] at hc
    exact ⟨_, by simp [loadWater, e, Src.ref, hc]; rfl⟩
  · cases hc

theorem mem_of_all {α : Type} [DecidableEq α] {l l' : List α} {x : α} (hl : (l.all fun y => l'.contains y) = true)
    (hx : x ∈ l) : x ∈ l' := by
  simpa using List.all_eq_true.1 hl x hx

/-- The dictionary exists for every model of the table except R98 and MWL24. -/
theorem C86_available (hT : waterGroups.lookup m = some T) (hold : Fresh old base) (hm : m ∉ ["R98", "MWL24"]) :
    ∃ P h', askWater m T base old h = .ok (P, h') := by
  have hF : waterFile m = some (fun a => (lastAssign (waterAssign m) a).bind (Src.val T)) := by
    unfold waterFile; rw [hT]; rfl
  refine waterParamsRef_ok fun a ha => ?_
  rcases waterGroups_params (m, T) (lookup_mem hT) with ⟨-, hh⟩ | ⟨hn, -⟩
  · obtain ⟨v, hv⟩ := hasAttr_some (hh a ha)
    have := congrFun (load_view (h := h) hT hF hold) a
    unfold Refs.view reloadLL at this
    have e : (lastAssign (waterAssign m) a).bind (Src.val T) = some v := hv
    simp only [e, Option.orElse_some] at this
    cases hl : loadWater m T base old a with
    | none => rw [hl] at this; cases this
    | some r => rfl
  · exact absurd hn hm

section
variable (hT : waterGroups.lookup m = some T) (hF : waterFile m = some F) (hold : Fresh old base)
  (hP : askWater m T base old h = .ok (P, h'))
include hT hF hold hP

/-- The dictionary has the values of `waterParams`: everything proved about those (C40) holds of it. -/
theorem C86_values : waterParams m (reloadLL F (old.view h)) = .ok (P.view h') := by
  rw [← load_view hT hF hold]
  exact (waterRefs hP).values (load_fresh hold)

/-- Making the dictionary does not change the line list: absorption without parameters is as after loading. -/
theorem C86_asking (p vx e f : ℝ) :
    h2oNow m (loadWater m T base old) h' p vx e f = h2oAbsorption m (reloadLL F (old.view h)) p vx e f := by
  unfold h2oNow
  rw [view_frame (load_fresh hold) (waterRefs hP).frame, load_view hT hF hold]

/-- **C86.** Changing one of the arrays in `waterShared` in place changes the line list itself: every later absorption
without parameters is computed with the changed array. -/
theorem C86_shared (hm : m ∉ ["R98", "MWL24"]) (hk : (k, a) ∈ waterShared m) (v : Val) :
    ∃ h'', editInPlace P k v h' = .ok h'' ∧ ∀ p vx e f,
      h2oNow m (loadWater m T base old) h'' p vx e f =
        h2oAbsorption m ((reloadLL F (old.view h)).set a v) p vx e f := by
  have R := waterRefs hP
  obtain ⟨s, b, hs, hb, hl⟩ := col_ref (old := old) (base := base) (shared_cols (m, T) (lookup_mem hT) hm (k, a) hk)
  have hPk : P k = some (.arr b) := by
    rw [← hl]
    refine (R.shared (k, a) ?_).2
    unfold waterShared at hk
    simp only [List.mem_append] at hk ⊢
    rcases hk with hk | hk
    · exact Or.inl (mem_of_all (by decide) hk)
    · exact Or.inr hk
  refine ⟨Function.update h' b v, by simp [editInPlace, hPk], fun p vx e f => ?_⟩
  unfold h2oNow
  rw [view_update hl (fun a' ha' => load_unique hT hold hs hb ha'), view_frame (load_fresh hold) R.frame,
    load_view hT hF hold]

/-- For instance, multiplying the line strengths in place multiplies the line part of every later absorption without
parameters. -/
theorem C86_strengths (hm : m ∉ ["R98", "MWL24"]) {s : Val} (hs : (P.view h') "S" = some s) (c : ℝ) :
    ∃ h'', editInPlace P "S" (fun i => c * s i) h' = .ok h'' ∧ ∀ p vx e f,
      h2oNow m (loadWater m T base old) h'' p vx e f =
        (h2oNow m (loadWater m T base old) h' p vx e f).map (Option.map fun r => (c * r.1, r.2)) := by
  obtain ⟨h'', h1, h2⟩ := C86_shared hT hF hold hP hm (k := "S") (a := "s1") (by simp [waterShared]) fun i => c * s i
  refine ⟨h'', h1, fun p vx e f => ?_⟩
  rw [h2, C86_asking hT hF hold hP]
  refine h2o_scale c ?_ p vx e f
  obtain ⟨K, -, -, -, -, h5, -⟩ := waterParams_common (C86_values hT hF hold hP)
  rw [h5, ← hs, K.h5]

omit hF in
/-- Widths and shifts (`waterCopied`) are copies: changing them in place has no effect on absorption without
parameters. -/
theorem C86_copied (hm : m ∉ ["R98", "MWL24"]) (hk : k ∈ waterCopied m) (v : Val) :
    ∃ h'', editInPlace P k v h' = .ok h'' ∧ ∀ p vx e f,
      h2oNow m (loadWater m T base old) h'' p vx e f = h2oNow m (loadWater m T base old) h' p vx e f := by
  have R := waterRefs hP
  have key : ∃ b, base + 2 * T.cols.length ≤ b ∧ P k = some (.arr b) := by
    have go (a : String) (n : ℕ) (hn : base + 2 * T.cols.length ≤ n)
        (he : (k, a, n) ∈ [("gamma_a", "w0", base + 2 * T.cols.length), ("gamma_w", "w0s", base + 2 * T.cols.length + 1)] ++
          (if "R17" < m then [("delta_a", "sh", base + 2 * T.cols.length + 2),
            ("delta_w", "shs", base + 2 * T.cols.length + 3)] else []))
        (ha : a ∈ ["w0", "w0s"] ++ (if "R17" < m then ["sh", "shs"] else [])) :
        ∃ b, base + 2 * T.cols.length ≤ b ∧ P k = some (.arr b) := by
      obtain ⟨r, h1, h2⟩ := R.scaled (k, a, n) he
      obtain ⟨b, hb⟩ := milli_ref (old := old) (base := base) (copied_arrays (m, T) (lookup_mem hT) hm a ha)
      rw [hb] at h1
      cases h1
      exact ⟨n, hn, h2⟩
    unfold waterCopied at hk
    simp only [List.mem_append, List.mem_cons, List.not_mem_nil, or_false] at hk
    rcases hk with (rfl | rfl) | hk
    · exact go "w0" _ le_rfl (by simp) (by simp)
    · exact go "w0s" _ (Nat.le_add_right _ 1) (by simp) (by simp)
    · split_ifs at hk with h17
      · simp only [List.mem_cons, List.not_mem_nil, or_false] at hk
        rcases hk with rfl | rfl
        · exact go "sh" _ (Nat.le_add_right _ 2) (by simp [h17]) (by simp [h17])
        · exact go "shs" _ (Nat.le_add_right _ 3) (by simp [h17]) (by simp [h17])
      · cases hk
  obtain ⟨b, hb, hPk⟩ := key
  refine ⟨Function.update h' b v, by simp [editInPlace, hPk], fun p vx e f => ?_⟩
  unfold h2oNow
  rw [view_frame (load_fresh hold) fun c hc => Function.update_of_ne (by omega) _ _]

omit hF hold in
/-- The continuum coefficients are numbers: they cannot be changed in place. -/
theorem C86_numbers (hk : k ∈ waterNumbers) (v : Val) : editInPlace P k v h' = .error .typeError := by
  have R := waterRefs hP
  have key : ∃ x, P k = some (.num x) := by
    have go (a : String) (he : (k, a) ∈ [("con_Cf", "cf"), ("con_Cs", "cs"), ("con_Xf", "xcf"), ("con_Xs", "xcs")]) :
        ∃ x, P k = some (.num x) := by
      have h1 := (R.shared (k, a) (List.mem_append_left _ (mem_of_all (by decide) he))).2
      obtain ⟨x, hx⟩ := ctr_ref (old := old) (base := base) (con_numbers (m, T) (lookup_mem hT) a (by
        simp only [List.mem_cons, List.not_mem_nil, or_false, Prod.mk.injEq] at he
        rcases he with ⟨-, rfl⟩ | ⟨-, rfl⟩ | ⟨-, rfl⟩ | ⟨-, rfl⟩ <;> simp))
      exact ⟨x, h1.trans hx⟩
    simp only [waterNumbers, List.mem_cons, List.not_mem_nil, or_false] at hk
    rcases hk with rfl | rfl | rfl | rfl | rfl | rfl | rfl
    · exact go "cf" (by simp)
    · exact go "cs" (by simp)
    · exact go "xcf" (by simp)
    · exact go "xcs" (by simp)
    · exact R.numbers _ (by simp)
    · exact R.numbers _ (by simp)
    · exact R.numbers _ (by simp)
  obtain ⟨x, hx⟩ := key
  simp [editInPlace, hx]

omit hT hF hold in
/-- These are all entries. -/
theorem C86_classes (hk : (P k).isSome) : k ∈ (waterShared m).map Prod.fst ++ waterCopied m ++ waterNumbers := by
  obtain ⟨r, hr⟩ := Option.isSome_iff_exists.1 hk
  have := (waterRefs hP).keys k r hr
  unfold waterShared waterCopied waterNumbers
  split_ifs at this ⊢
  · exact mem_of_all (by decide) this
  · exact mem_of_all (by decide) this

omit hP in
/-- Loading the line list again undoes every change, whatever was done to the memory in between. -/
theorem C86_reload (h'' : Mem) (p vx e f : ℝ) :
    h2oNow m (loadWater m T base old) (placed T base h'') p vx e f = h2oAbsorption m (reloadLL F fun _ => none) p vx e f := by
  unfold h2oNow
  rw [load_view hT hF hold]
  refine h2o_congr (fun a ha => ?_) p vx e f
  obtain ⟨v, h1, h2⟩ := file_reads hF (old.view h'') a ha
  obtain ⟨v', h3, h4⟩ := file_reads hF (fun _ => none) a ha
  rw [h1] at h3
  cases h3
  unfold attr
  rw [h2, h4]

omit hT hF in
/-- But not in the dictionary: its arrays survive the next load. -/
theorem C86_kept {T' : RawTable} {base' : ℕ} (hb : base + 2 * T.cols.length + 4 ≤ base') (h'' : Mem) :
    P.view (placed T' base' h'') = P.view h'' := by
  have R := waterRefs hP
  refine view_frame (c := base') (fun k b hk => ?_) fun b hb' => placed_below hb'
  have := R.fresh (load_fresh hold) k _ hk b rfl
  omega

end

/-- Doubling the strengths of the R17 dictionary in place, in a new process. -/
example : ∃ T P h' s h'' n c, waterGroups.lookup "R17" = some T ∧
    askWater "R17" T 0 (fun _ => none) (fun _ _ => 0) = .ok (P, h') ∧ (P.view h') "S" = some s ∧
    editInPlace P "S" (fun i => 2 * s i) h' = .ok h'' ∧
    h2oNow "R17" (loadWater "R17" T 0 fun _ => none) h' 90 1 1 22.2 = .ok (some (n, c)) ∧
    h2oNow "R17" (loadWater "R17" T 0 fun _ => none) h'' 90 1 1 22.2 = .ok (some (2 * n, c)) := by
  obtain ⟨F, hF⟩ := Option.isSome_iff_exists.1 ((C35_names "R17").2 (by decide))
  obtain ⟨T, hT⟩ : ∃ T, waterGroups.lookup "R17" = some T := ⟨_, rfl⟩
  have hold : Fresh (fun _ => none) 0 := fun k b hk => by cases hk
  obtain ⟨P, h', hP⟩ := C86_available (h := fun _ _ => 0) hT hold (by decide)
  obtain ⟨K, -⟩ := waterParams_common (C86_values hT hF hold hP)
  obtain ⟨h'', h1, h2⟩ := C86_strengths hT hF hold hP (by decide) K.h5 2
  obtain ⟨n, c, h3, -⟩ := C35_nonneg (m := "R17") (by simp) hF (fun _ => none) (p := 90) (vx := 1) (e := 1)
    (f := 22.2) (by norm_num) (by norm_num) (by norm_num) (by norm_num)
  have h4 : h2oNow "R17" (loadWater "R17" T 0 fun _ => none) h' 90 1 1 22.2 = .ok (some (n, c)) := by
    rw [C86_asking hT hF hold hP]
    exact h3
  exact ⟨T, P, h', K.s, h'', n, c, hT, hP, K.h5, h1, h4, by rw [h2, h4]; rfl⟩

end Verif.Props
