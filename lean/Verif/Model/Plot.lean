import Verif.Model.Weighting

/-!
# What the plotting methods of the weighting functions draw

`pyrtlib/weighting_functions.py:203-377`.  A figure is the list of curves handed to `plt.plot` in order, the texts
handed to `plt.text` and the limits of the pressure axis; fonts, colours, title, grid, `xlim`, `figsize`, `dpi` and the
rendering of numbers in labels are left out.
-/

namespace Verif.Model

open Verif.Py Real

/-- One call `plt.plot(xs, ys, linestyle=…, label=…)`: `freq` and `peak` are the numbers written in the label (`peak`
only for satellite plots). -/
structure Curve where
  xs : List ℝ
  ys : List ℝ
  dashed : Bool
  freq : Option ℝ
  peak : Option ℝ

/-- One call `plt.text(x, y, s)`. -/
structure Text where
  x : ℝ
  y : ℝ
  s : String

/-- The figure. -/
structure Figure where
  curves : List Curve
  texts : List Text
  /-- the two arguments of `ax_twinx.set_ylim` (the last call made) -/
  pressures : List ℝ × List ℝ

/-- `np.argmax(l)`: the first position of the maximum; `none` (`ValueError`) for an empty array. -/
noncomputable def npArgmax (l : List ℝ) : Option ℕ := (List.range l.length).argmax fun i => l.getD i 0

/-- `np.min(z)` of a list; `none` (`ValueError`) for the empty one. -/
noncomputable def npMin : List ℝ → Option ℝ
  | [] => none
  | a :: l => some (l.foldl min a)

/-- `a[i]` with Python's negative indices; `none`: `IndexError`. -/
def pyAt {α : Type} (a : List α) (i : ℤ) : Option α :=
  if 0 ≤ i then a[i.toNat]? else if 0 ≤ i + a.length then a[(i + a.length).toNat]? else none

/-- Position of the maximum of `wgt[i, 1:]` looked up in the heights: `y[np.argmax(wgt[i, 1:])]`,
weighting_functions.py:252, 254, 343. -/
noncomputable def peakHeight (y row : List ℝ) : Except PyErr ℝ :=
  match npArgmax row.tail with
  | none => .error .valueError
  | some k =>
    match y[k]? with
    | none => .error .indexError
    | some h => .ok h

/-- `plt.plot(xs, ys, …)`: x and y must have the same length (`ValueError`). -/
def drawn (c : Curve) : Except PyErr Curve := if c.xs.length = c.ys.length then .ok c else .error .valueError

open Classical in
/-- A curve of a satellite plot, weighting_functions.py:252-254, with `normalize[i]` (`none`: `IndexError`). -/
noncomputable def satCurve (y row : List ℝ) (norm : Option ℝ) (f : ℝ) : Except PyErr Curve := do
  let h ← peakHeight y row
  match norm with
  | none => .error .indexError
  | some m =>
    if m = 0 then .error .notFinite
    else drawn ⟨row.tail.map fun x => x / m, y, decide (h = 0), some f, some h⟩

/-- A curve of a ground-based plot, weighting_functions.py:256-257. -/
def groundCurve (z row : List ℝ) (f : ℝ) : Except PyErr Curve := drawn ⟨row, z, false, some f, none⟩

/-- Entries that are all finite. -/
def allFinite (m : List (List (Option ℝ))) : Option (List (List ℝ)) := m.mapM fun r => r.mapM id

/-- Channel averaging at the start of `plot_wf`, weighting_functions.py:231-234: the weights to draw and the frequencies
stored on the object (`notFinite`: a band without frequencies, numpy goes on with nan). -/
noncomputable def WF.channels (w : WF) (wgt : List (List ℝ)) (ncol : ℕ) :
    Except PyErr (List (List ℝ) × Option (List ℝ)) :=
  match w.bandpass with
  | none => .ok (wgt, w.frequencies)
  | some [] => .ok ([], some [])
  | some bp =>
    match w.frequencies with
    | none => .error .typeError
    | some frq =>
      match allFinite (meanChannel wgt ncol bp 0), (plotFrequencies frq bp).mapM id with
      | some m, some fs => .ok (m, some fs)
      | _, _ => .error .notFinite

open Classical in
/-- `self.pinterp[np.where(self.zinterp == h)]` -/
noncomputable def pressuresAt (z p : List ℝ) (h : ℝ) : List ℝ :=
  ((z.zip p).filter fun a => decide (a.1 = h)).map Prod.snd

/-- The pressure axis, weighting_functions.py:279-283 and 365-369. -/
noncomputable def pressureAxis (z p : List ℝ) (ylim : Option (ℝ × ℝ)) : Except PyErr (List ℝ × List ℝ) :=
  match npMin z, npMax z with
  | some lo, some hi =>
    .ok (match ylim with
      | none => (pressuresAt z p lo, pressuresAt z p hi)
      | some l => (pressuresAt z p l.1, pressuresAt z p l.2))
  | _, _ => .error .valueError

/-- `normalize`, weighting_functions.py:245-246: the maxima of the rows, or as many ones as there are *columns*. -/
noncomputable def normalizers (wgt : List (List ℝ)) (ncol : ℕ) (normalized : Bool) : Except PyErr (List ℝ) :=
  if normalized then
    match wgt.mapM npMax with
    | none => .error .valueError
    | some m => .ok m
  else .ok (List.replicate ncol 1)

/-- The body of the loop over the frequencies, weighting_functions.py:250-257, with `y = self.zinterp[:-1]` of
line 241. -/
noncomputable def plotCurve (sat : Bool) (z : List ℝ) (wgt : List (List ℝ)) (norm : List ℝ) (f : ℝ) (i : ℕ) :
    Except PyErr Curve :=
  match wgt[i]? with
  | none => .error .indexError
  | some row => if sat then satCurve z.dropLast row norm[i]? f else groundCurve z row f

/-- `WeightingFunctions.plot_wf(wgt, ylim=…, normalized=…)`, weighting_functions.py:203-289, for a matrix `wgt` with
`ncol` columns; returns the figure and the object as it is left behind. -/
noncomputable def WF.plot (w : WF) (wgt : List (List ℝ)) (ncol : ℕ) (ylim : Option (ℝ × ℝ)) (normalized : Bool) :
    Except PyErr (Figure × WF) := do
  let c ← w.channels wgt ncol
  let w := { w with frequencies := c.2 }
  let norm ← normalizers c.1 ncol normalized
  match w.frequencies with
  | none => .error .typeError
  | some frq =>
    let curves ← frq.zipIdx.mapM fun fi => plotCurve w.satellite w.zinterp c.1 norm fi.1 fi.2
    let p ← pressureAxis w.zinterp w.pinterp ylim
    return (⟨curves, [], p⟩, w)

/-- `max_increment`, weighting_functions.py:328-333: the shift of every frequency, 0.40 more from group to group. -/
noncomputable def increments (cnt : ℝ) : List ℕ → List ℝ
  | [] => []
  | g :: gs => List.replicate g cnt ++ increments (cnt + 0.40) gs

/-- `np.cumsum(np.array(grouped_frequencies)) - 1`, weighting_functions.py:348, continued from `a`. -/
def lastOfGroup (a : ℤ) : List ℕ → List ℤ
  | [] => []
  | g :: gs => (a + g - 1) :: lastOfGroup (a + g) gs

open Classical in
/-- A curve of the grouped plot, weighting_functions.py:343-345. -/
noncomputable def groupCurve (y row : List ℝ) (inc : Option ℝ) : Except PyErr Curve := do
  let h ← peakHeight y row
  match inc with
  | none => .error .indexError
  | some d => drawn ⟨row.tail.map fun x => x + d, y, decide (h = 0), none, none⟩

/-- The body of the loop over the frequencies, weighting_functions.py:342-345. -/
noncomputable def plotGroupCurve (y : List ℝ) (wgt : List (List ℝ)) (incs : List ℝ) (i : ℕ) : Except PyErr Curve :=
  match wgt[i]? with
  | none => .error .indexError
  | some row => groupCurve y row incs[i]?

/-- `ylim[1] if ylim else np.max(y)`, weighting_functions.py:349. -/
noncomputable def plotTop (y : List ℝ) : Option (ℝ × ℝ) → Option ℝ
  | some l => some l.2
  | none => npMax y

/-- The text of one group, weighting_functions.py:347-354. -/
noncomputable def groupText (y : List ℝ) (wgt : List (List ℝ)) (incs : List ℝ) (ylim : Option (ℝ × ℝ)) (last : ℤ)
    (label : String) : Except PyErr Text :=
  match plotTop y ylim with
  | none => .error .valueError
  | some top =>
    match pyAt wgt last, pyAt incs last with
    | some row, some d =>
      match npMin row.tail with
      | none => .error .valueError
      | some m => .ok ⟨0.02 + (m + d), (top - 1) - (top - 1) / 15, label⟩
    | _, _ => .error .indexError

/-- `WeightingFunctions.plot_wf_grouped(wgt, ylim=…, grouped_frequencies=…, grouped_labels=…)`,
weighting_functions.py:291-377; both lists given (the defaults `None` raise `TypeError`). -/
noncomputable def WF.plotGrouped (w : WF) (wgt : List (List ℝ)) (ylim : Option (ℝ × ℝ)) (groups : List ℕ)
    (labels : List String) : Except PyErr Figure :=
  if w.satellite then do
    let y := w.zinterp.dropLast
    let incs := increments 0 groups
    if labels.length < groups.length then .error .indexError
    else
      match w.frequencies with
      | none => .error .typeError
      | some frq =>
        let curves ← (List.range frq.length).mapM fun i => plotGroupCurve y wgt incs i
        let texts ← ((lastOfGroup 0 groups).zip labels).mapM fun a => groupText y wgt incs ylim a.1 a.2
        let p ← pressureAxis w.zinterp w.pinterp ylim
        return ⟨curves, texts, p⟩
  else .error .valueError

end Verif.Model
