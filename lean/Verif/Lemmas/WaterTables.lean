import Verif.Lemmas.Water

/-!
# Facts about the shipped line tables, checked on every table entry
-/

namespace Verif.Lemmas

open Verif.Model Verif.Py

/-- Sign test of a whole column. -/
def posCol (rows : ℕ) (c : Col) : Bool := c.digits.length == rows && c.digits.all fun d => decide (0 < d)

theorem posCol_val {rows : ℕ} {c : Col} (h : posCol rows c = true) {k : ℕ} (hk : k < rows) : 0 < c.val k := by
  simp only [posCol, Bool.and_eq_true, beq_iff_eq, List.all_eq_true, decide_eq_true_eq] at h
  obtain ⟨hl, h⟩ := h
  have hk' : k < c.digits.length := by omega
  unfold Col.val
  have : 0 < c.digits.getD k 0 := by
    rw [List.getD_eq_getElem?_getD, List.getElem?_eq_getElem hk', Option.getD_some]
    exact h _ (List.getElem_mem hk')
  have : (0 : ℝ) < ((c.digits.getD k 0 : ℤ) : ℝ) := by exact_mod_cast this
  positivity

/-- Is every entry of the source positive? -/
def posSrc (T : RawTable) : Src → Bool
  | .col c => (T.cols[c]?.map (posCol T.rows)).getD false
  | .milli c => (T.cols[c]?.map (posCol T.rows)).getD false
  | .ctr c => decide (0 < T.ctr.digits.getD c 0) && decide (c < T.ctr.digits.length)
  | .reft => decide (0 < T.reftline.digits.getD 0 0) && decide (0 < T.reftline.digits.length)
  | .extra _ => false
  | .rows => false

theorem val_pos {c : Col} {k : ℕ} (h : 0 < c.digits.getD k 0) : 0 < c.val k := by
  unfold Col.val
  have : (0 : ℝ) < ((c.digits.getD k 0 : ℤ) : ℝ) := by exact_mod_cast h
  positivity

theorem posSrc_val {T : RawTable} {s : Src} (h : posSrc T s = true) :
    ∃ v, s.val T = some v ∧ ∀ k < T.rows, 0 < v k := by
  cases s with
  | col c =>
    simp only [posSrc] at h
    cases hc : T.cols[c]? with
    | none => simp [hc] at h
    | some v => exact ⟨v.val, by simp [Src.val, hc], fun k hk => posCol_val (by simpa [hc] using h) hk⟩
  | milli c =>
    simp only [posSrc] at h
    cases hc : T.cols[c]? with
    | none => simp [hc] at h
    | some v =>
      refine ⟨fun k => v.val k / 1000.0, by simp [Src.val, hc], fun k hk => ?_⟩
      have := posCol_val (c := v) (rows := T.rows) (by simpa [hc] using h) hk
      positivity
  | ctr c =>
    simp only [posSrc, Bool.and_eq_true, decide_eq_true_eq] at h
    exact ⟨fun _ => T.ctr.val c, by simp [Src.val, h.2], fun _ _ => val_pos h.1⟩
  | reft =>
    simp only [posSrc, Bool.and_eq_true, decide_eq_true_eq] at h
    exact ⟨fun _ => T.reftline.val 0, by simp [Src.val, h.2], fun _ _ => val_pos h.1⟩
  | extra c => simp [posSrc] at h
  | rows => simp [posSrc] at h

/-- Does the attribute exist after loading? -/
def hasAttr (assign : List (String × Src)) (T : RawTable) (a : String) : Bool :=
  match lastAssign assign a with
  | none => false
  | some (.col c) => (T.cols[c]?).isSome
  | some (.milli c) => (T.cols[c]?).isSome
  | some (.ctr c) => decide (c < T.ctr.digits.length)
  | some .reft => decide (0 < T.reftline.digits.length)
  | some (.extra c) => decide (c < T.extra.digits.length)
  | some .rows => true

theorem hasAttr_some {assign : List (String × Src)} {T : RawTable} {a : String} (h : hasAttr assign T a = true) :
    ∃ v, (lastAssign assign a).bind (Src.val T) = some v := by
  unfold hasAttr at h
  cases hl : lastAssign assign a with
  | none => simp [hl] at h
  | some s =>
    rw [hl] at h
    cases s with
    | col c =>
      obtain ⟨v, hv⟩ := Option.isSome_iff_exists.1 h
      exact ⟨v.val, by simp [Src.val, hv]⟩
    | milli c =>
      obtain ⟨v, hv⟩ := Option.isSome_iff_exists.1 h
      exact ⟨fun k => v.val k / 1000.0, by simp only [Option.bind_some, Src.val, hv, Option.map_some]⟩
    | ctr c => exact ⟨_, by simp only [Option.bind_some, Src.val]; rw [if_pos (by simpa using h)]⟩
    | reft => exact ⟨_, by simp only [Option.bind_some, Src.val]; rw [if_pos (by simpa using h)]⟩
    | extra c => exact ⟨_, by simp only [Option.bind_some, Src.val]; rw [if_pos (by simpa using h)]⟩
    | rows => exact ⟨_, rfl⟩

/-- Is the attribute present and positive in every entry? -/
def posAttr (assign : List (String × Src)) (T : RawTable) (a : String) : Bool :=
  ((lastAssign assign a).map (posSrc T)).getD false

theorem posAttr_some {assign : List (String × Src)} {T : RawTable} {a : String} (h : posAttr assign T a = true) :
    ∃ v, (lastAssign assign a).bind (Src.val T) = some v ∧ ∀ k < T.rows, 0 < v k := by
  unfold posAttr at h
  cases hl : lastAssign assign a with
  | none => simp [hl] at h
  | some s =>
    rw [hl] at h
    exact posSrc_val h

/-- Attributes that every water vapour routine reads. -/
def waterCommon : List String := ["len(fl)", "fl", "s1", "b2", "w0", "x", "w0s", "xs", "reftline", "reftcon", "cf", "xcf",
  "cs", "xcs"]

/-- The attributes read by the water vapour routine of a model. -/
def waterReads (m : String) : List String :=
  waterCommon ++
  (if m ∈ ["R03", "R16", "R17"] then ["sr"] else []) ++
  (if m ∈ ["R18", "R19", "R20"] ∨ isSD m then ["sh", "xh", "shs", "xhs"] else []) ++
  (if m ∈ ["R19", "R20"] ∨ isSD m then ["aair", "aself"] else []) ++
  (if isSD m then ["w2", "w2s"] else []) ++
  (if m ∈ newSD then ["xw2", "xw2s", "d2", "d2s"] else []) ++
  (if m = "R20SD" then ["d2air", "d2self"] else [])

set_option maxRecDepth 10000 in
theorem waterGroups_reads :
    ∀ g ∈ waterGroups, ∀ a ∈ waterReads g.1, hasAttr (waterAssign g.1) g.2 a = true := by decide +kernel

set_option maxRecDepth 10000 in
theorem waterGroups_pos : ∀ g ∈ waterGroups, ∀ a ∈ ["fl", "s1", "b2", "w0", "x", "w0s", "reftline", "reftcon", "cf", "xcf"],
    posAttr (waterAssign g.1) g.2 a = true := by decide +kernel

set_option maxRecDepth 10000 in
theorem waterGroups_cs : ∀ g ∈ waterGroups, g.1 ∉ ["R23SD", "R24"] → posAttr (waterAssign g.1) g.2 "cs" = true := by
  decide +kernel

set_option maxRecDepth 10000 in
/-- Every column of every table has one entry per line. -/
theorem waterGroups_lengths : ∀ g ∈ waterGroups, 0 < g.2.rows ∧ ∀ c ∈ g.2.cols, c.digits.length = g.2.rows := by
  decide +kernel

theorem waterGroups_len (m : String) : lastAssign (waterAssign m) "len(fl)" = some .rows := by
  unfold waterAssign lastAssign
  split_ifs <;> decide

end Verif.Lemmas
