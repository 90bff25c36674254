# Design of the pyrtlib model and proofs

The Lean 4 project in `lean/` is a hand-written model of `/repo/pyrtlib`, function by function.
Every model definition cites the file and the lines it mirrors and says where it simplifies.

## 1. How the code is modelled

| Python | Lean |
| --- | --- |
| `float` / `np.float64` | `ℝ` (Mathlib). Rounding, overflow and denormals are NOT modelled, except that C118, C119 and C120 give rounding errors of the radiance code, of the layer integration and of plane-parallel paths. |
| NaN / inf that the code can produce from finite inputs | made explicit: `Option ℝ`, `none` = "numpy returns a non-finite value here" (0/0, log of a non-positive number, `np.nan` constants). No theorem uses Lean's `x / 0 = 0`. |
| 1-d arrays | functions `ℕ → ℝ` together with their length, or `List ℝ`; out-of-range and negative (wrap-around) indexing is explicit wherever the code can reach it. |
| `for i in range(a, b)` | `forRange a b`, a left fold that passes the whole mutable state; early `return` inside a loop is a fold over `Except`. |
| exceptions, `SystemExit`, `return None` | values of an error type (`Except PyErr _`, `Option _`). |
| mutable objects, aliasing | explicit heap (`Addr → List ℝ`) where aliasing matters (constructor of `TbCloudRTE`, spectroscopic parameter dictionaries). |
| class attributes (`H2OAbsModel.model`, `RTEquation._from_sat`, line lists, ...) | fields of an explicit global state, operations are state transformers; histories are lists of operations. |
| warnings, prints, plots | not modelled (no observable effect on results), except where a warning accompanies an early return. |

Layout of `lean/Verif/`

* `Py/*.lean` - Python primitives (`forRange`, list indexing, strings).
* `Model/*.lean` - the model of the code, one module per source file (or part of it).
* `Lemmas/*.lean` - helper lemmas.
* `Spec/*.lean` - small independent specifications (prefix sums, mean of an exponential, ...), not using model helpers.
* `Props/*.lean` - the property theorems, named `C<nn>_...`, each followed by an `example` that meets its hypotheses in a non-trivial case.

## 2. Trusted base

* The Lean 4.33 kernel and the axioms `propext`, `Classical.choice`, `Quot.sound` (Mathlib's reals need them). `#print axioms` on every property theorem must show at most these three. No own axioms, no `sorry`, no `native_decide`, no `bv_decide`.
* The correspondence between model and code: read from the source, not extracted. Real arithmetic stands for float64: a statement such as "equals" is about the formula, not about its rounded evaluation; inequalities that are strict in ℝ may become equalities after rounding. For the radiance code, the layer integration and plane-parallel paths C118, C119 and C120 bound the difference; they assume that numpy's `exp`, `log` and `sin` are accurate to one unit in the last place and that nothing overflows or underflows.
* Library behaviour assumed from documentation: numpy elementwise operations, `np.where`, `np.append`, `np.interp`, `np.cumsum`, slicing, `deepcopy` preserving sharing inside one call, `itertools.compress`, `str.zfill`, `str.split`, `posixpath.join`.
* `pandas.read_csv` with `delim_whitespace`, `usecols` and `names`, as modelled in `Model/Wyoming`: words of a line are fields, lines can be longer or shorter than six, at least one must have six; a column is numeric when all words are numbers. (`delim_whitespace` is deprecated since pandas 2.2.)
* `pandas.read_fwf` (Python engine, `names` given so no header row) as modelled in `Model/IgraTable`: fields are cut by column and stripped of blanks, tabs and line ends; rows whose fields are all empty are skipped; each converter runs on the stripped text of its column; afterwards results equal to one of the `na_values` become not-a-number. A column without converter is kept as text (station identifiers start with a letter).
* The numbers in `Model/Tables*.lean` were produced from the netCDF (HDF5) files by the scripts in `tools/` (an own minimal reader, since no netCDF library is available here); that reading is trusted.
* Formulas and numbers in the specifications (C36, C68-C71, C80, C81, C87) come from /repo, rewritten in closed form or recorded by name. No publication was available for comparison. These claims say that the code computes the stated formula, or takes a quantity from the stated place; they do not say that the formula or the number agrees with the literature.
* Not modelled: netCDF/zip/HTTP transport, matplotlib rendering (only the data handed to it, C76-C79), the `examples/` folder, docs, packaging.

## 3. Properties

For each property: what is modelled, how it is proved.

### Radiative transfer core (`rt_equation.py`, `utils.tk2b_mod`)

* **C01, C02** `tk2b_mod`, `bright` as real functions (`bright` returns `Option`: it is undefined where the code takes the log of a non-positive number). Proof: `exp`/`log` algebra, strict monotonicity.
* **C03-C13** `planck` is modelled as the two loops with the three arrays updated in place (`Function.update`), both branches, with the class attributes `_from_sat`, `_emissivity` as arguments. A loop invariant (`Lemmas/PlanckLoop`) gives the recurrences; the physics statements follow by induction over the number of levels: radiance is a convex combination of level radiances (C03, C04, C11), closed form in the isothermal case (C05), prefix/suffix sums (C06), monotonicity in each level radiance (C07), index reversal (C08), cutting a profile (C09), the switch at 125 (C10), emissivity (C12; documented reflected term is proved absent), `tbatm` (C13; the satellite value is proved to be identically 0). The specification (`Spec/Radiance`) is a recursive slab radiance and independent prefix sums.
* **C14-C17** `exponential_integration` as a loop with early return and Python index wrap-around `x[-1]`. C14 compares the layer value with the interval integral of the exponential profile (Mathlib `intervalIntegral`). C15/C16/C17 by loop invariants.
* **C18, C19** `cloud_integrated_density`, `cloud_radiating_temperature` on top of the planck arrays.
* **C20** `vapor`, `eswat_goffgratch`; the `ice` option calls an array and therefore always raises.
* **C21, C22** `ray_tracing` loop with its full state; C21 from `sqrt(dz² + ...) ≥ |dz|` and `x ≥ sin x`; C22 compares with the law of straight lines (the code multiplies by `r` where the exact formula has `r_s`): the negation is proved.

### Simulator (`tb_spectrum.py`)

* **C23, C26, C29** `execute` as a pure function of instance settings and an arbitrary absorption routine (a parameter), plane-parallel or ray-traced path. C26 combines C15 (layers never negative) with C03/C04.
* **C24, C25, C30, C31** constructor on an explicit heap (in-place `self.z -= self.z0`), `all(dz) > 0` as Python evaluates it, setters on a small universe of Python values.
* **C27, C28** state machine: global class attributes + any number of instances, operations construct / init_absmdl / setters / init_cloudy / execute; statements quantify over all operation lists.

### Absorption models (`absorption_model.py`)

* **C32** dispatch on model names, all strings, first per routine, then for whole runs with the real routines and
  tables (`Model/Shipped.lean`): completion with finite values needs that no division by zero, overflow of the
  continued fraction or missing attribute occurs at any level, which is proved for every name with a table
  (`dcerror_some`, `waterSumSD_some`, ...). `C32_selected_only` says that only the selected names matter;
  `C32_own_tables` discharges the hypothesis of C27 and C28 for the shipped routines.
* **C33** `liquid_water_absorption` and `dilec12` over ℂ with the principal logarithm; division by 0 and log of 0 are `none`. Positivity is dissipation: the imaginary part of the dielectric constant is negative because each relaxation term is (an inequality on complex arguments for the band term), and the Clausius-Mossotti map keeps the sign. The bound 210 K keeps the supercooled pole away; 396 K is where `eps1 > eps2` ends.
* **C34** `n2_absorption` for all model names, including the MWL24 routine with its exponent loop; real-power monotonicity.
* **C35, C36, C39** `h2o_absorption` branch by branch for all model names, on an explicit line list (`Model/AbsWater`); line lists come from the shipped netCDF tables (`Model/Tables*`, every stored float written as the shortest decimal that denotes it) through the assignments of `h2oll.py` (`Model/LineLists`). Signs of the table columns are checked on all entries (`Lemmas/WaterTables`, `decide +kernel` over the finite tables); the rest is real analysis: a Lorentz profile cut at 750 GHz is `max 0 (L(d) - L(750))`, sums of non-negative terms. The speed-dependent models' own shape is modelled (with the rational approximation of the complex error function); its sign is C115. C36: node values, continuity, positivity by a neighbour-ratio argument. C39: the routine reads only attributes that every load of that model's table assigns.
* **C37** `o2_absorption` branch by branch (`Model/AbsOxygen`): the two-sided line shape with first-order mixing, the second-order forms of R20 and later, the speed-dependent shape of the 118 GHz line in R23/R24 through `_dcerror`. Finiteness of the latter needs that `_dcerror` has a positive real part for imaginary argument at least 1e-4 (`Lemmas/ErrorFn`: both polynomials written out, all coefficients of a rational expression in x and y positive) and that the complex square root has a large enough real part. The two negative line sums are evaluated exactly on the shipped tables in fractions (`decide +kernel` over 49 and 40 lines), since all exponentials and powers are 1 at 300 K.
* **C38** `o3_absorption` (`Model/AbsOzone`): the loop with `break` carries a stop flag; for sorted tables (checked on all entries) an invariant turns it into the sum over the window. Sign: Lorentz lines directly; the Voigt lines of R22 through `dcerror_pos`, whose condition (argument at least 1e-4) is derived from bounds on all table entries. The negative value at zero pressure is one evaluation of the same polynomial identity.
* **C40, C61** parameter dictionaries (`Model/Parameters`). Water: a dictionary is a partial map from names to arrays;
  the assignments at the head of the routine are a function on line lists. A line-list attribute that no formula of
  the selected model reads cannot carry a parameter into the result, so the parameters without effect follow from the
  attributes read (`waterReads`, `oxyReads`) and the map from attributes to parameters (`waterKeysOf`). Oxygen: the
  routine writes into arrays, so dictionary and line list hold references into a memory with arbitrary sharing.
  Simplified: arrays are as long as the line list they are used with.
* **C68, C69** closed formulas for water vapour and oxygen in mathematical notation (`Spec/WaterFormula`,
  `Spec/OxygenFormula`: `∑`, `exp`, real powers, complex square root), written from the publications' form and not from
  the loops. Proof: the loops are sums (`forRange_sum`), the early models' and late models' unit factors and
  intermediate variables cancel. Columns are named as in the table; `c` ranges over the columns of the shipped table.
  For R23/R24 the code first shifts the mixing coefficients; the theorem says which condition (sum rule) the shifted
  ones satisfy and what form the shift has, which determines them.
* **C70** `_dcerror` on all of ℂ: conjugation passes through both polynomials; the denominator has no zero in the
  closed right half plane (`Lemmas/ErrorFn`). The difference to the reflection formula is computed exactly.
* **C71** the six profile tables and 37 gas columns as exact decimals (`Model/TablesAtmosphere`, generated from the
  text of the source); whole-table checks by `decide +kernel`; then C45-type conversions, the constructor (C36 model)
  and C67 joined into the documented workflow.
* **C67** joins C32 (runs complete), C27 (only the selection matters, over all histories), C29 (layout) and C26
  (bounds) for the shipped routines and tables.

### Utilities (`utils.py`)

* **C41-C47** real formulas, `field_simp`/monotonicity proofs with explicit domains.
* **C48** `gas_mass` as the chain of comparisons on all integers, against an independent table of molecules and mass
  numbers. **C49** the frequency lists as exact decimals; whole tables checked by `decide`, all other names by the
  string comparison of the lookup.
* **C66** `get_wind_components` with `sin`/`cos`; Pythagoras and sign.

### Other modules

* **C50** weighting functions: arrays as functions, cumulative sums by induction.
* **C51, C52** band averaging on lists of lists with explicit slices; `np.interp` on the equidistant grid of
  `np.arange` (proved: clamped, piecewise linear, exact at nodes).
* **C53, C54** `profile_extrapolation` with the mutable `_height` as state; lists. `C54_assigned`,
  `C54_renewed`: calls and assignments to `height` in any order. **C55** units of the humidity that
  is appended. **C56-C58** the reference and standard atmospheres as piecewise polynomials/exponentials with every
  interval and its filler value (`nan`, constants); ranges by interval arithmetic on each piece, monotonicity by
  derivative signs.
* **C59** parameter perturbation on a heap with arbitrary sharing. **C60** `uncertainty_propagation` against the
  first-order variance with `HasDerivAt` for the partial derivatives.
* **C62-C65** IGRA line selection (induction over soundings), time and coordinate converters on digit strings, choice
  of file name and of column widths by type of sounding. Dates are checked against an independent calendar.
* **C72** `read_data` of both reanalysis readers (`Model/Reanalysis`): a file is its dimensions, coordinates and
  variables; the ball tree is any function that returns a nearest point in the haversine metric (its ties are left
  open). The specification measures distance by the chord between points of the unit sphere; the haversine formula is
  proved to give the same order. Conversion of hours to dates is not modelled.
* **C73** the whole path from the lines of an archive file to the two tables (`Model/IgraTable`). The specification is a
  structured archive (`Record`, `Level`, `Entry`) together with its text; the theorems say that reading the text gives the
  structure back, by induction over soundings and per-column lemmas on right-justified fields. Coordinates within a tenth
  of a degree of 0 are excluded (C64); release times are only said to be present or absent (their value is wrong, C63).
  Only files of raw soundings are covered; derived ones are never read as such (C65).
* **C74** the two preformatted texts of a Wyoming reply to the table (`Model/Wyoming`). The specification is a listing of
  levels with optional decimal numbers in columns of seven characters. Proved: the exact result for every pattern of
  missing entries, the right result for patterns without gaps, and the failure for wind-only levels. The extraction of the
  texts from HTML is not modelled; `strptime` only with two-digit fields.
* **C75** requests (`Model/Endpoint`): a server is any function from addresses to replies. The specification splits an
  address at `?`, `&` and `=`. Sessions, encodings of addresses and unpacking of zip files are not modelled.
* **C76-C79** the plotting methods (`Model/Plot`) return the arguments of `plt.plot`, `plt.text` and of the pressure axis'
  `set_ylim`. Specifications are the structures `SatelliteCurve` and `GroupedCurve` (points, label, line style) and
  interpolation of the profile for the axis. In floats a grid height `i * step` can differ from the limit a user types
  (C79 is about exact heights).
* **C80, C81** closed formulas (`Spec/CloudNitrogen`) written from the publications named in the docstrings, in real
  arithmetic where the code uses complex numbers (Debye terms); the models are those of C33 and C34. Proved by
  unfolding each branch and equating closed forms; the conjugate logarithm is turned into a logarithm of conjugates because
  the ratio of the band limits is off the negative axis (`C80_nitrogen`, `C80_order`, `C81_debye`, `C81_dielectric`,
  `C81_static`, `C81_dilec`).
* **C82, C83** two runs of the model of `planck` (C03-C13) with layer opacities ordered layer by layer. One layer sends
  `(near - far) (2/(1+e) - 1) + far - (far - b) e` to the observer with `e = exp(-tau)` and `b` entering behind it, which is
  monotone in `e` when near, far and `b` are ordered; induction from the far end (`Lemmas/Opacity`) gives the stack, for both
  directions (`C82_ground`, `C82_ground_cut`, `C82_satellite`); counterexamples without the conditions are
  `C82_satellite_reflecting` and `C82_ground_inversion`. C83 applies this to two angles of one `execute`, whose layer
  opacities differ by the ratio of the sines (as in C23).
* **C84** `constants` is a dictionary lookup (`Model/Constants`, names as strings, empty name like `None` because both are
  falsy). Conversions are compared with the gas law written out and with `mr2rho` and `virtual_temperature`; the numerical
  factors between them are bounded by `norm_num` (`C84_vapour_density`, `C84_virtual`).
* **C85** two runs of the model of `planck`. Scaling: `hvk` and temperatures occur only in their ratio. Splitting: induction
  over the levels above and below the split layer (`Lemmas/Refine`), whose two emissions telescope because near and far
  temperatures are equal.
* **C86** memory is a function from addresses to arrays (`Model/ParamAlias`): attributes of the line list and entries of the
  dictionary are references or numbers. Column reads of `h2oll.py` are views of the table that was just read, `/ 1000`
  and `* 1000` make new arrays. The claim is stated as absorption computed from the memory after an in-place edit, compared
  with absorption from a line list that has the edited column. Writing single elements is a special case of writing an array.
* **C87** checks on every entry of the tables, in rational arithmetic by the kernel (`Lemmas/TableRat`), carried over to the
  real values that the loading model returns. `Spec/LineTables` records the entries for 22 and 183 GHz
  by name of the quantity, in the unit of the routine. A script extracted them from the same shipped tables with its own list of
  column numbers. They were **not** compared with any publication. `C87_recorded` thus detects a wrong column or unit in the
  loading code, but not a wrong number in the tables; the range checks (`C87_water` and others) are the only check on the numbers.
* **C88** branch by branch comparison of the model functions for two names, plus equality of the tables (`rfl`). For R18/R19 the
  closed formulas of C69.
* **C89** as C86 for oxygen (`Model/OxygenAlias`): each variable read is a new array, `wb300` and `x` are numbers. Array addresses
  are distinct, so an edit through the dictionary is one changed attribute. Loading gives the absorption of the table (only the
  first entry of `wb300` and `x` is read).
* **C90** ozone parameters (`Model/OzoneParams`): the assignments `self.o3ll.a = amu[k].value` one by one, so that a missing key
  leaves the earlier ones in force. Line strengths factor out of every term and hence out of the loop (induction over the lines);
  the loop state is frozen once a line above the window has been met. Arrays of a dictionary have as many lines as the list.
* **C91** the map from the radiance of `T` to that of `T + d` is concave (its derivative is a ratio `W(g)/W(L)` with
  `W(x) = x² e^x / (e^x - 1)²`; monotone because `x coth(x/2)` is). Every step of the radiance recursion is a mean of non-negative
  radiances, so the concave map passes through the recursion (induction over the layers, `Lemmas/PlanckShift`). Missing weight
  (emissivity below 1, opaque limit) counts as radiance 0. The mean radiating temperature follows by letting it enter as background.
* **C92** one layer as a function of its opacity is Lipschitz with the range of the three radiances involved (explicit weights);
  induction over the layers with the incoming radiance generalised (`Lemmas/OpacityError`). Conversion to temperature by the mean
  value theorem.
* **C93** specification: interval integral of a continuous function (`Spec/Continuous`). The layer value lies between the two end
  values (C14), hence both it and the mean of the function are within the swing of the layer; sum; uniform continuity on the compact
  path. Two traps avoided: functions are only assumed continuous on the path (extended by `IccExtend` in the proofs), and the zero
  treatment of layers with a vanishing end value is inside the swing.
* **C94** specification: the integral form of the radiative transfer equation. The code represents the source
  term of a layer by one number between the end radiances, so with exact opacities the error of a layer is at most the swing times
  the weight of the layer; errors of the opacities through C92. `Props/Opaque` removes the hypothesis that the opacity is below 125 Np: scaling a
  temperature down scales its radiance down at least as much (convexity of exp), so dropping a share of the radiance costs at most
  that share of the temperature.
* **C95** the cell of a run is exhibited as a sample of the slant path (`run_sampled`), so C94 applies; continuity and sign of the
  absorption coefficients of the shipped models from the closed formulas of C68 and C69 and the signs of C35 and C37 (`Lemmas/AbsContinuous`,
  `Props/ShippedLimit`); completion from C32. Excluded: speed-dependent profiles (they switch to another formula at ten half-widths,
  which makes the coefficient discontinuous in height) and R98 oxygen (can be negative).
* **C96** specification `Spec/ClearSky`: absorption in Np/km from temperature, pressure and vapour pressure in hPa, one closed formula
  each for water vapour, oxygen and nitrogen. The model converts to kPa and inverse temperature, obtains refractivities, converts to
  dB/km and to Np/km; `C96_level` and `C96_profile` show that all of it cancels. Not covered: water vapour R23SD, R24, MWL24 (their
  continuum is interpolated), oxygen R23, R24, ozone (closed formula in C38).
* **C97** refinement: the data frame of `execute` equals a table written down in closed form (`closedRow`: Goff-Gratch vapour pressure,
  C96 absorption, layer means, slant factor, layered radiances, background, inversion of the Planck function), for clear sky without
  refraction. Side condition `Absorbing` (no negative coefficient) is discharged for the models of C95 in `C97_plain`.
* **C98** the same refinement for everything C96/C97 leave out. `Spec/AllGases` writes down every water vapour model (self continuum by
  spline for R23SD and R24, dimers for MWL24), every oxygen model (sum rules of R23 and R24), ozone with Lorentz or Voigt lines, liquid and
  ice; `Spec/Sky` the layered simulation with gas, cloud and arbitrary layer lengths. `C98_level`, `C98_cloud`: coefficients of a level.
  `C98_table`: the whole data frame, for any finite non-negative path lengths. `C98_plane`, `C98_zenith` supply these lengths without
  refraction and for rays within a degree of the zenith. `C98_absorb` discharges the sign condition. Not covered: `ice = True` (raises
  `TypeError`), perturbed spectroscopy, R23SD and R24 at or above 1199.17 GHz (their interpolation raises there: C36).

Properties that the unchanged code violates are stated as the user would want them, the negation is proved with a witness (`..._refuted`), and what does hold is proved as `..._partial` or as an exact characterisation. They are collected in section 4.

* **C99** attributes `model`, `h2oll`, `o2ll`, `o3ll` of the absorption classes with Python's rules for class and instance attributes
  (`Model/ClassAttr`: lookup along the base classes, properties on instances only, assignment on a class replaces the property).
  Theorems by induction over programs of assignments: what a class sees is the last assignment to it or its nearest base; instances
  never change a simulation's selection (`C99_selection`, bridge to the `World` of C27); validation exists only before the first assignment
  to the class.
* **C100** `session_manager` and endpoints as a program of statements (`Model/Sessions`), invariant by induction over the program: the
  session of the i-th endpoint is determined by the last `set_session_options` before it. Options that are mutable objects are shared
  between sessions in Python; not modelled.
* **C101** `EUMETSATProduct.authentication` and `list_collections`; the services behind `eumdac` are a parameter. `product_search` only
  forwards its arguments.
* **C102** order of accuracy of the layer opacities. Specification `Spec.LogCurved`: the absorption coefficient is positive and its
  logarithm has curvature at most `K` (`log α + K u²/2` convex, `log α - K u²/2` concave; no differentiability needed, and implied by a
  bound on the second derivative, `C102_of_deriv`). On a layer of length `h` the code's exponential mean is within the factor
  `exp(±K h²/8)` of the integral; by summation the total is within `(exp(K δ²/8) - 1)` of itself plus `1e-9` per unit of length (from
  the branch for nearly equal values). `K = 0` is the exponential atmosphere, where the method is exact up to that branch. This
  sharpens C93, which is first order.
* **C103** order of accuracy of the radiance. Further specification: `Spec.Curved` (a function bends by at most `K`), `Spec.LogLipschitz`
  (absorption changes by at most a factor `exp(G d)` over a distance `d`). On one layer the code's source is a weighted mean of the two
  level radiances with weights `1/2 + O(τ)`; against the exact weight function this costs `swing · O(h)`, the curvature costs
  `K h²/8` (`two_point`). Summed over layers and combined with C102 and C92: `C103_ground`, `C103_satellite` (explicit bounds) and
  `C103_order_ground`, `C103_order_satellite` (one constant for all grids: error at most `C (δ² + 1e-9)`). This strengthens C94.
  `C103_smooth_ground`, `C103_smooth_satellite` get the constants by compactness: temperature and (positive) absorption twice
  continuously differentiable is enough.
* **C104** what opaque air hides. `C104_hidden_ground`, `C104_hidden_satellite` compare two runs of `planck` that agree up to a level
  counted from the observer (the rest, including the number of levels, is arbitrary); `C104_near_ground`, `C104_near_satellite` bound the
  distance to the radiance of the near side of the first layer; `C104_brightness` is the limit in brightness temperature, uniform in
  the rest of the atmosphere. Added because exchanging the near and far side of the layers in both loops leaves C08 and the bounds of C94 true (by hand analysis).
* **C105** integral of the weighting functions. Specification `Spec/Weights.lean` on the `Sky` of C98. `C105_weights`: closed form of
  the matrix returned by `generate_wf` (all usable models, any path). `C105_radiance`, `C105_integral`: trapezoidal rule with these
  weights against the radiance of the air and against `1 - exp(-τ)`; per layer the difference factors exactly
  (`trapezoid_layer`, with `tanh x ≥ x - x³/3`). `C105_layer_mean`: the remaining term is of second order as well.
  `C105_ground_run` puts both programs together. `C105_inputs`: the run behind the weighting functions is that of a simulator
  constructed on the grid with the object's angle and given its geometry and emissivity by the setters; `C105_same_run`: hence the two runs are equal
  and the matrix is computed from the arrays of that simulator. Satellite: `C105_satellite_low`, `C105_satellite_refuted` (follows the shift of C50).
* **C106** `implemented_models` as the group names of the three tables (order of creation, read from the link records of the
  files); `C106_runs`, `C106_only`, `C106_one_name` compare it with what runs (from C32); `C106_weighting` for `generate_wf`, whose
  oxygen model is the last one listed. **C107** the two setters of `WeightingFunctions` on the Python values of C31, by
  induction over sequences of assignments. Simplified: the emissivity of the object is a float.

**C108 Slant rays through a refracting atmosphere.** `Spec/BentRay.lean` states Snell's law for spherical shells, the distance
of two points on spheres, the ratio of an arc to its chord and the mean index, independently of the model. `Lemmas/RaySnell.lean`
compares the elevation computed by the code (a half-angle formula, refined unless the half-angle argument is large) with Snell's
law: the refined quotient multiplies the sine of a quarter of the change by a factor between `√(r₀/r)` and 1. `C108_traced` runs
the loop of `ray_tracing` by an invariant (the record of the lower level holds elevation, bending, radius and tangent of the level
below; the increments so far are those of the formula) and gives all increments in closed form. `C108_path` and `C108_goodPath`
discharge the path hypothesis of the theorems on whole simulations (C32, C67, C98) for slant ray tracing, from conditions on heights
and refractivities that a user can check: no duct, at most 100 km, refractivity at most 5000, elevation from 0.1 to 89 degrees.
Example: the shipped simulator runs for three levels of dry air at 30 and 31 degrees. Rays that are trapped: C109. Out of
scope: elevations below the horizon.

**C109 Rays that are trapped.** `ducting_iff` shows that the test for ducting in the loop is Snell's law. `C109_cut`: the loop
returns the path of the atmosphere cut off below the first unreachable level, with zeros above. `C109_table` carries this to the
data frame of a simulation through the closed formula (C98): layers of no length drop out of every sum. `C109_vanishes` is the
extreme case. Example: dry air warmer by 40 K per 100 m, at a tenth of a degree; 2.728 K is returned for air of 288 K and more.

**C110 The refractive index of air.** `Spec/Refractivity.lean` writes Thayer's equations; `C110_formula` identifies them with the
code. Signs, bounds and the three monotonicity statements are inequalities between polynomials of the reciprocal temperature
(`dry_cool`, `wet_cool`). `C110_never_refused`, `C110_zenith`, `C110_slant` use them to remove hypotheses on the index from C21 and
C108. An example shows that the index can be below 1 far outside the range (50 K).

**C111 The shipped covariances.** `Model/TablesCovariance.lean` holds the entries of the three files as exact multiples of a power of
two; `Model/Covariance.lean` the products and the root of the tutorial. A covariance matrix gives every combination of
parameters a variance that is not negative. For the water vapour parameters (and the four O2 widths at the end of the R19 list) this
is proved, with a margin. For the oxygen parameters it is false: `C111_refuted` has a Jacobian with three entries, `C111_defect` the
size of the defect from both sides, `C111_mixing` the parts where it is only rounding. Lower bounds of a quadratic form with integer
coefficients come from a sum of squares with integer coefficients plus a remainder that the diagonal outweighs
(`Lemmas/GramCheck`). The squares are in `Lemmas/CovarianceCert`, written by `tools/gencov.py` and checked by the kernel.
Not examined: which Jacobians the simulator actually produces.

**C112 A model that absorbs more.** Two runs on the same scene, one of whose models absorbs at least as much at every level (this
is stated on the reported absorption, so it covers two models, two dictionaries of parameters, or ozone on and off). The
logarithmic mean is monotone in both values (`Lemmas/LayerMono`: it is the mean of an exponential profile), so are the layers
(`C112_layer_exact`), the opacities (`C112_opacity`) and, with C82, the brightness temperatures (`C112_ground`, `C112_satellite`).
Within the code this has two gaps, both by comparison with 1e-9 and with 0: `C112_layer` bounds the first, `C112_threshold_refuted`
and `C112_zero_refuted` show both.

**C113 The direction of a perturbation.** `Spec/WaterParameters.lean` says which value takes the place of which column;
`C113_formula` is the closed form of C68 for any dictionary, also one whose values were never shipped. From it: strengths
(`C113_strength`), continuum (`C113_continuum`), widths in the wings and at the centre (`C113_wing`, `C113_centre`; models whose line
shift does not depend on the width). `C113_self_switch` is the exception. Out of scope: speed-dependent models for strengths and
widths, oxygen.

**C114 More humid air absorbs more.** `Spec.waterAbsorption` (C96) as a function of the vapour pressure at constant total pressure,
for the seven models with Lorentzian lines (R98 to R20 without SD). Vapour enters three ways: as density (raises), as
broadening (lowers the centre of a line), as shift (moves a line, and can carry a resonance past the 750 GHz cut-off).
`Lemmas/Humidity.lean` bounds the derivative of density times profile for "gentle" lines (vapour broadens at least as much as air, widths much smaller
than 750 GHz, small shifts), checks by `decide +kernel` on the whole shipped tables that every line is gentle between 200 and
330 K, and leaves a rest near the cut-off that the continuum outweighs (`continuum_humid`). No condition on the frequency.
`C114_level` is the result for a level of `clearsky_absorption`, `C114_run` for two runs of the simulator that differ in the
humidity (plane geometry; the opacity with the allowance of C112). Out of scope: vapour above a tenth of the pressure, the
speed-dependent models, R24 and MWL24, and the total opacity (dry air absorbs less when vapour displaces it).

**C115 Moist air absorbs with every model.** Completes C35 for the seven speed-dependent models. With `g = 2(1 - √π z h(z))`, `h` the
rational function of Hui et al., the profile is `Re(g(z)/q)`, `z² = ζ/q`. `Lemmas/SpeedShape.lean`: in the right half plane, for
2 ≤ |z| ≤ 16, `|z|² |z² g(z) - 1| ≤ 3.53` (the numerator and denominator of `z² g - 1` are rounded to few digits; the squared moduli
differ by a polynomial in the real part and the square of the imaginary part, whose few negative coefficients are covered by squares).
`Lemmas/SpeedSign.lean`: hence the profile is `1/ζ` up to a relative error, at least `8.6e-4/w` within ten half-widths, which exceeds the
subtracted constant `w/(750² + w²)` for half-widths up to 21 GHz; the ratios that this needs (speed dependence between 0.04 and 0.181 of the
width, small shift) are checked on the whole shipped tables (`waterGroups_speed`). `Lemmas/Dimers.lean`: the MWL24 continuum is positive
because the constant of metastable dimers is, a comparison of a polynomial of degree 9 with an exponential on nine pieces of 200-330 K.
Then `C115_routine`, `C115_level`, `C115_run` (plane geometry), `C115_traced` (ray tracing). Out of scope: temperatures outside
200-330 K, trapped rays.

**C116 What a cloud changes.** Two runs of the simulator model (`execute`) from the same process state with arbitrary absorption
routines: one clear on an object without old cloud results, one with `cloudy`, cloud levels and densities set. `cloud_views` compares the
two cells; `C116_gases` (everything about the gases is identical), `C116_opacity` (layer opacities add up), `C116_ground` and
`C116_satellite` (C82 applied to the two opacity profiles), `C116_seen` and `C116_shipped` (strict increase between two cloudy levels),
`C116_isolated` (no two neighbouring cloudy levels: all brightness temperatures are those of the clear run, since the integration of
cloud absorption sets layers with one zero end to zero). Not claimed: a strict change of the brightness temperature.

**C117 What an ozone profile changes.** Two runs that differ in the ozone profile (or its absence) only, `amu` unused. The statements are
for any ozone routine that is proportional to the density (`OzoneLaw`); `C117_law` shows from C38 that R18, R22 and R23 are, with a
coefficient that is positive exactly within 1 GHz of a line of their list. `C117_level`, `C117_same`, `C117_away` (whole cell identical),
`C117_opacity`, `C117_ground`, `C117_satellite` (through C112, whose `SameScene` now allows for another ozone profile).

**C118 Rounding.** `Model/Rounded.lean` writes `tk2b_mod`, `hvk`, both loops of `planck`, the background and `bright` a second time over an
arbitrary arithmetic `F` (one function per operation, arguments in Python's order of evaluation). `C118_same_program`: with real
arithmetic this is the model of all other properties. `Arith.Accurate F u`: every operation has relative error at most `u`. Method:
relative errors through everything that only adds, multiplies or divides positive numbers (`Near`); `exp(x) - 1` through
`e^x/(e^x-1) ≤ (1+x)/x`; transmittances with absolute error `2ku` because `P e^{-P/2} ≤ 1`; the sum over layers by induction with the
exact partial sums bounded by the warmest radiance, so that the relative part is not multiplied by the number of levels; the two sides of
the switch at 125 differ by `e^{-120}`. Results: `C118_level`, `C118_round_trip`, `C118_radiance`, `C118_temperature` (any `u ≤ 1e-15`),
`C118_double`, `C118_kelvin`, `C118_isothermal`, `C118_upper` (double precision). The layer opacities are inputs here. The example
arithmetic `shaved` is wrong in every operation.

**C119 Rounding of the layer integration.** `Model/RoundedInt.lean` writes `exponential_integration` and the sum `ptaulay` over an
arbitrary arithmetic; `C119_same_program`: with real arithmetic it is `expInt`, for all arguments including those that raise or return
early. `C119_layer`: relative error `4u + 1.3·10⁹ X u` of a layer value, because `|log(b/a)| ≥ |b-a|/X` with `|b-a|` at least about `10⁻⁹`
in that branch; plus `1.1·10⁻⁹` if `|b-a|` lies within `3·10⁻⁹ u` of the threshold, where the rounded program may take the other branch
(all three branch values lie between `a` and `b`, except the zero of `zeroflg = False`). `C119_sharp` shows that the loss is real: an
arithmetic of double precision accuracy, error `10⁻⁷`. `C119_integral` (reported integrals), `C119_opacities` (four constituents),
`C119_satellite` (with C92 and C118, brightness temperature from absorption profiles and path lengths), `C119_any` (both viewing directions and any emissivity, for temperatures above
`hν/k` plus the error), `C119_run`, `C119_run_error` (the temperature of a clear plane-parallel run, from the absorption it stores),
`C119_negative`. `C119_every_run`, `C119_every_run_error`: the same for cloudy runs and for any path with finite lengths, refracted
ones included (path lengths taken as given). Not covered: rounding in the absorption models and in ray tracing.

**C120 Rounding of plane-parallel paths.** `Model/RoundedPath.lean` adds a sine and a value of `π` to the arithmetic and writes `amass`
and `ds` of `execute` over it; `C120_same_program`: with real arithmetic these are the paths of a run, for every angle. `C120_path`: ten
units of roundoff, from `|sin x' - sin x| ≤ |x' - x|` and Jordan's inequality `sin x ≥ 2x/π`. `C120_opacities`: exact layer opacities
are linear in the path (`opacities_linear`), so C119 on the rounded path gives the bound. `C120_tb`, `C120_run` as in C119 through
`tb_perturbed`. `C120_horizon`: why the range of angles ends; it also marks a place where real arithmetic and double precision
differ qualitatively (180 degrees: non-finite in the model, finite in Python). Not covered: rounding in the absorption models.

**C121 What a view depends on.** Two runs, each with its own settings, from one process state. `clearLevel_same` and
`cellGlobals_lists`: the lines in use and the value of a level depend on the selection, the uncertainty perturbations and that level
(`SameLevel`), not on emissivity, direction or other levels; `C121_level` takes this to the arrays stored by `execute`. `stored_layers`:
opacities of a clear plane-parallel run from the stored absorption; `C121_layer` compares two of them at shifted indices. `C121_ground`,
`C121_satellite`: C104 with the equalities just proved, and from radiances to kelvins by `tb_from_radiance` (slope of the Planck function
above `hν/k`). Examples: a fourth level on top of, or below, a scene with three levels.

**C122 Added opacity is visible.** Strict form of C82 and C116. `layer_mono_strict`, `layer_anti_strict`, `near_lt_layer`,
`layer_lt_near`: one layer; `sky_thicker_strict`, `up_thicker_strict`: induction over the layers, carrying that what enters a layer is
already different or that a thickened layer is still to come. `up_same`: layers as warm as the surface below them do not matter. Together
exact conditions (`C122_ground`, `C122_satellite`), for clouds in terms of the stored cloud opacities (`C122_cloud_ground`,
`C122_cloud_satellite`), and with C116 for liquid water models of the library (`C122_shipped_ground`, `C122_shipped_satellite`;
examples in `Props/Stretch.lean`). Requires the opacity below 125, where the code still adds what is behind the atmosphere.
`Props/StrictEffect.lean` adds the strict forms of C112 (`C122_more_ground`, `C122_more_satellite`) and C117 (`C122_ozone_ground`,
`C122_ozone_satellite`): more absorption on both levels of a layer crossed by a path of positive length makes its opacity strictly
larger, for each branch of the layer mean (`expProfileMean_strict`, `layerValue_strict`).

**C123 Heights enter as layer thicknesses.** Two runs that differ in the heights (`Stretches`): `C123_opacity` (C15 and the closed form of
plane-parallel paths, for all four kinds of opacity), `C123_origin` (factor 1: same opacities and temperatures), `C123_ground` and
`C123_satellite` (C122 with opacities multiplied by a factor above 1). Only without ray tracing; the ray tracer uses the station height
(C108). Cloud levels are kept as level numbers. Examples with R24: a factor small enough for opacities below 60 exists by
`C123_opacity` itself (`haze_thin`).

**C124 Brightness temperatures are accurate to second order.** C103 gave radiances of a sampled path; here complete runs and
temperatures. `C124_path_ground`, `C124_path_satellite`: C103 with smoothness on an open set around the path, radiances turned into
temperatures by the slope of the Planck function at a common lower bound (`low_ground`, `low_satellite`); `sampled_thin` shows that fine
levels keep the simulated opacity below 125. `C124_ground`, `C124_satellite`: runs of `execute` read off from the atmosphere
(`run_sampled` of C95). Smoothness of the absorption is a hypothesis: the shipped oxygen models clip at zero and some water vapour models
shift lines across the cut-off, where absorption as a function of height can have kinks (C95 has plain convergence for those). Example:
routines with absorption inversely proportional to temperature.
`C124_shipped` (SmoothShipped.lean, AbsSmooth.lean): the closed formulas of C68/C69 are twice continuously differentiable in the state
of the air, except where a profile is clipped; hence the two hypotheses, frequency off the 750 GHz cut-off of every line
(`OffCutoff`) and a positive oxygen value. The example shows both at 1 GHz in a column of ten kilometres: the distances by the
line table of R98, the sign by bounding all 49 lines of the R19 table against the zero-frequency band (`oxygen_low`). R98 oxygen and the
speed-dependent models are left out.

**C125 Opacity and emissivity can be read back from a result table.** `row_columns` links a row to the run: the total of each
layer integration is the sum of its layers (also when it stops early, `expInt_total`), so the four opacity columns add up to the
opacity used by `planck`. `mean_radiance` solves the closed form of `planck` for the mean radiating temperature. `C125_ground`,
`C125_tip`, `C125_emissivity` state the inversions with Planck's law written out (`planckLaw`); `C125_opaque` is the limit branch,
`C125_positive` gives the hypothesis of positive opacity. Examples: the clear scene at 90 and 30 degrees from both sides, and one
degree above the horizon.

**C126 How far brightness temperatures mix linearly.** RayleighJeans.lean: with `x = h f / k`, `T - x B(T)` increases with `T`, lies
between `x/2 - x²/(12 T)` and `x/2` (series of the exponential up to the fifth power), and `B` is convex (its slope
`planckW (x/T) / x` is monotone, from C92). Applied to the relations of C125: lower bounds by convexity (`mix_le`, emissivity below
one through `B(sT) ≤ s B(T)`), upper bounds by the difference of the defects (`mix_eq`).

**C127 Mean radiating temperature and elevation.** By `taulay_ratio` (C125) the layer opacities of two plane-parallel views are
proportional, with factor `c = sin a' / sin a ≥ 1`. MeanTemperature.lean: with transmissions `v ≤ u ≤ 1` to the upper and lower boundary of a
layer, the share of the layer relative to the air before it, `(u - v) / (1 - u)`, does not grow when `u`, `v` become `u^c`, `v^c`
(`opaque_share_mono`, slopes of the convex power); induction over the layers turns this into an inequality of the weighted means of radiances falling with height
(`sky_mean_mono`, cross-multiplied). The satellite case reverses the layers (`up_mean_mono`). `C127_scaled` is the statement for
`planck`, `C127_elevation` for runs.

**C128 What the side of the observer and the surface change.** `viewedFrom` is the same object with other `satellite` and
`emissivity`. `same_air` compares the two runs cell by cell: absorption is a function of model selection and line lists, which the
two settings do not touch (`clearsky_same`), and opacities are integrals of it along the same path; cloud columns are either
computed from the same densities or left over from the same earlier run. `C128_opacity`, `C128_ground` (equality of whole cells),
`C128_emissivity` (difference of two instances of C125_emissivity), `C128_sides` (`up_le_sky`: layer by layer, the air below is
warmer than the layer added on top). Examples: the clear scene from both sides and with emissivities 1 and 1/2.

**C129 Requests to the radiosonde archive by period.** `igraRequest` (`Model/IgraRequest`) composes the dates of the argument,
the download of C75, unzipping (a parameter: lines of the first member) and the tables of C73. `HasArchive` says in terms
of the server what the station's file contains: any list of well-formed soundings in chronological order. `C129_single`,
`C129_period`, `C129_split` (`inRange_split`, induction over the file), `C129_shared` (multiplicity of every time),
`C129_files`, `C129_error`, `C129_times`; `C129_derived` compares the requested name with all names of the archive by length.
Times without zone; a bad zip file is whatever error the parameter returns.

**C130 Files downloaded from the reanalysis archive.** `eraRequest` (`Model/ReanalysisRequest`) maps a file system (names to
files) and an archive (queries to files or errors) to the next file system. `isoformat_inj`: fields of fixed width and an optional
fraction determine the time; hence `C130_names`. `C130_history` (induction over any list of downloads) gives the content of every
file; `C130_kept`, `C130_overwritten`, `C130_hour`, `C130_eumetsat` are consequences. `C130_readable` connects with C72: what
`read_data` asks for is among what is requested, and the requested area has as many rows as columns if nodes are counted from its
corner (hypothesis on the archive, structure `Answers`); `C130_fixed_grid` shows that with nodes of a fixed grid it need not.
Which of the two the archive does is not in the code. An archive that refuses is assumed to leave no file.

**C131 Response to the temperature of a level.** `Spec/Jacobian` gives each level its share of the view: far side of one layer, near
side of the next, surface. `sum_levels` turns the sum over layers of C03/C04 into a sum over levels (`C131_shares`). Opacities being
fixed, the radiance is differentiable in the temperatures and `bright` has the reciprocal slope of Planck's law (inverse function
theorem, `bright_deriv`), so `C131_rate` holds for any simultaneous change; `C131_level` is the partial derivative. The sum of the
responses is the derivative along uniform warming, at most one by C91 (`C131_sum`); `C131_order` is the monotonicity of the slope (C92).

**C132 Response to the opacity of a layer.** Modelled: `planck` and `bright`, unchanged. `Spec/LayerResponse.lean` defines what arrives from behind a layer
(`fromAbove`, `fromBelow`: the radiances of the partial column on the other side) and what added opacity emits
(`addedSource`). `BrightOpacity` says that `Tb x` is the value the code computes when the layer has opacity `x`, for
all `x` near the actual one; `bright_opacity` proves that such a function exists. Proved by cutting the column at both
boundaries of the layer, so that the radiance is an affine function of the view through one layer, and by
differentiating that view. `C132_cooling` needs emissivity one for a satellite, because without reflection a surface
that emits less is a cold background. Out of reach: columns of total opacity at or above 125, where the code drops the
background (C10).

**C133 All opacities, air mass, emissivity.** `sky_curve` (induction that takes off the lowest layer) and `up_curve` (induction
that takes off the highest layer) differentiate the radiance along a change of all opacities and of the radiance behind the
column. `C133_sum` states the result with the responses of C132, given only as derivatives of the values the code computes when
one opacity changes. `C133_emissivity` is the case of constant opacities, `C133_cooling` combines the sum with C132_cooling.
`bright_along` shows that the hypotheses are met close to any scene with positive temperatures.

**C134 Requests to the Wyoming archive.** `Model/WyomingRequest.lean` joins the download (C75) with the reading of the page (C74) in
the order of the code. The server is any function from addresses to replies; `BeautifulSoup` is any function from texts to pages
(the texts that `pre` and `h2` elements begin with), so nothing is assumed about HTML. Specification: `WSounding` and `ShowsFirst`
(the page begins with the listing and the description of a sounding). `C134_sounding`, `C134_faithful`, `C134_only`,
`C134_unchecked`, `C134_error`; `C134_refuted` is a request answered with a sounding of another day and station.

**C135 The list of stations.** `stationsRequest` in the same model file; the page is given by the titles of its areas, any
function of the text. `C135_page` and `C135_slash` cover all region names, `C135_table` transfers C75_stations, `C135_request`
connects the list with the query of C75, `C135_regions` is the table of the documentation.

**C136 Everything at once.** `view_curve` differentiates one layer with its two boundary values, its opacity and what lies behind
it all moving; `sky_all` and `up_all` carry this through the stack by induction. `C136_total` says the rate is the sum of the
single-quantity responses times their rates. The responses are not given by a formula: they are any derivatives of the values computed
by the model when only that quantity is changed (`Function.update`), so the statement does not lean on the formulas of C131 to C133.
`C136_exists` shows that all these derivatives exist in every admissible scene.

**C137 Refracted slant views.** C83 compares angles in plane geometry only. Here `integ_grow` says that the layer integrals of one
profile are the same non-negative factors times the path, also for profiles with negative values; `longer_views` compares two views of
one run of which one has the longer path in every layer (clouds included); `traced_paths` takes the paths from C21 (zenith) and C108
(slant). `C137_layers`, `C137_ground`, `C137_satellite` follow with C82. `C115_traced` (same file) extends C115 to ray tracing. Out of
scope: two slant views against each other (the length of a refracted path as a function of elevation is not shown to be monotone).

## 4. Deviations found

Each entry names the theorem(s) that prove the deviation (all by witness or as an exact characterisation).

| | What a user may expect | What the code does | Theorem |
| --- | --- | --- | --- |
| C12 | the surface reflects the sky (documentation of `planck`) | reflected term is never added; emissivity 0 makes a dark surface | `C12_no_reflection`, `C12_mirror_is_dark` |
| C13 | `tbatm` is the brightness temperature of the atmosphere | 0 for every satellite run | `C13_tbatm_satellite_zero` |
| C16 | a negative value is reported | integration stops silently and the total loses its unit factor | `C16_truncation`, `C16_factor_lost` |
| C17 | start level 0 means nothing special | the last level is read as predecessor of the first | `C17_last_negative`, `C17_needs_zero_increment` |
| C18 | cloud water path covers base to top | top layer omitted; one-layer clouds are dry | `C18_top_layer_missing`, `C18_one_layer_cloud_is_dry` |
| C20 | `ice=True` uses ice saturation | always raises | `C20_ice_raises` |
| C22 | no refraction, straight ray | ray is longer than the straight line | `C22_angle_not_straight`, `C22_first_layer_overshoots` |
| C24 | descending profiles are flipped (message in the code) | never flipped | `C24_never_flipped` |
| C25 | arguments are not modified | height array is shifted in place, even if construction then fails | `C25_shift`, `C25_refused`, `C25_second` |
| C27 | runs are independent | ozone parameters set by one run stay for later runs | `C27_ozone_leak_refuted` |
| C28 | switching clouds off removes them | the old cloud opacities stay in the total | `C28_refuted` |
| C30 | unknown cloud heights are refused | they become level 0; flag set after `init_cloudy` has no clouds | `C30_flag_too_late` |
| C31 | the constructor takes a model name | any non-empty name raises | `C31_model_argument` |
| C32 | accepted names work | R18, R20SD fail with clouds; five ozone names have no table; `init_absmdl` takes any string | `C32_init_absmdl_cloudy`, `C32_ozone_never_loaded` |
| C36 | new continuum up to its table end | `IndexError` from 1199.17 GHz on; an override multiplies instead of replacing | `C36_fails`, `C36_override` |
| C37 | absorption is not negative | the line sum of R98 is negative in places; the clamp acts before the continuum is added | `C37_R98_negative`, `C37_cut_too_early` |
| C38 | smooth spectrum | a step where a line enters the 1 GHz window; R22 negative at zero pressure | `C38_step`, `C38_R22_negative` |
| C40 | the unperturbed dictionary changes nothing | R16 and R17 scale both continua by 1.11 and 0.79; no dictionary for R98, MWL24 (water) and five oxygen models, or one with values of another model | `C40_water_unperturbed_refuted`, `C40_water_names`, `C40_water_stale`, `C40_oxygen_names` |
| C40 | a perturbed parameter has an effect | the continuum parameters of R98, R03, MWL24 and others are ignored | `C40_water_no_effect`, `C40_oxygen_no_effect` |
| C42 | humidity converts back and forth | differs by a fixed factor; thin air gives negative humidity | `C42_round_trip`, `C42_thin_air` |
| C45 | 0 degrees Celsius is 273.15 K | 273.25 K | `C45_offset_refuted` |
| C48 | one mass per gas | CCl3F has the mass of another molecule; ids 32-43 are unknown | `C48_masses_refuted` |
| C49 | one entry per channel | MWS lists a frequency twice | `C49_mws_refuted` |
| C50 | satellite weighting function | transmittance of one level too many | `C50_satellite_refuted` |
| C109 | values are returned only for directions in which a ray crosses the atmosphere | a trapped ray silently ends below the duct; the air above counts as empty (down to 2.728 K from the ground) | `C109_cut`, `C109_table`, `C109_vanishes` |
| C111 | the shipped matrices are covariance matrices, so the standard deviation of a brightness temperature is a number | the oxygen part is indefinite far beyond rounding; a Jacobian with three entries gives nan. The matrices are also slightly asymmetric | `C111_refuted`, `C111_defect`, `C111_symmetry` |
| C112 | more absorption at a level means more opacity | values that come within 1e-9 of each other change from logarithmic mean to the lower value, a zero counts as half its neighbour; both lower the integral | `C112_threshold_refuted`, `C112_zero_refuted` |
| C113 | a larger self-continuum coefficient means more absorption | in R23SD and R24 every positive `con_Cs` removes the self-continuum | `C113_self_switch` |
| C106 | a listed model can be selected by its name | `init_absmdl` needs the name in both lists (R22SD, R22, ... are in one only) | `C106_one_name_refuted` |
| C105 | weighting functions integrate to the absorbed fraction | satellite weights fall short (one layer of opacity 1: 0.37 instead of 0.63) | `C105_satellite_low`, `C105_satellite_refuted` |
| C51 | label is the mean frequency of its channel | taken from other frequencies | `C51_labels_refuted` |
| C76 | any number of frequencies can be plotted | `IndexError` when there are more frequencies than levels | `C76_too_many` |
| C76 | weights at their heights | the coefficient of the level above is shown | `C76_height` |
| C77 | plotting leaves the object alone | its frequencies are replaced; labels of a second plot are wrong | `C77_again`, `C77_again_refuted` |
| C79 | any height limits | a limit off the grid has no pressure | `C79_axis` |
| C53 | profiles are extrapolated | `UnboundLocalError` for profiles that reach 50 km | `C53_high_profile` |
| C54 | one object, many profiles | levels depend on the profile before | `C54_history_refuted` |
| C55 | one unit of humidity | fraction continued by percent | `C55_mixed_units_refuted` |
| C57 | pressure falls with height | both winter profiles rise at 72 km | `C57_winter_pressure_refuted` |
| C58 | surface values are used; pressure falls | ignored; a gap below 86 km and a rise at 20 km | `C58_surface_values_ignored`, `C58_gap_refuted`, `C58_pressure_refuted` |
| C59 | perturbing one parameter perturbs one | parameters that share an array move together | `C59_shared_refuted` |
| C60 | first-order propagation | wrong for factor 0 and for negative base | `C60_refuted` |
| C61 | arguments are not modified | entries 34 to 48 of the mixing arrays are overwritten for models up to R19 | `C61_refuted`, `C61_overwritten` |
| C62 | date selection | wrong for unsorted files | `C62_unsorted_refuted` |
| C63 | HHMM release times | mis-read | `C63_release_refuted` |
| C64 | coordinates near 0 degrees | wrong or rejected | `C64_short_refuted` |
| C65 | derived soundings | file is never requested, columns never used; every request fails | `C65_derived_refuted`, `C129_derived` |
| C70 | `_dcerror` is valid in all quadrants | below the real axis a conjugation is missing | `C70_lower`, `C70_reflection_refuted` |
| C71 | identifiers 1 to 6 in the documentation of `gl_atm` | the code counts from 0; 6 raises | `C71_documented_refuted` |
| C71 | gas identifiers outside the group | negative index: another gas is returned | `C71_wrong_identifier` |
| C72 | the profile of the nearest grid node | only nodes with equal row and column number are searched | `C72_diagonal_only`, `C72_refuted` |
| C72 | units as attached to the table | humidity is a fraction, labelled per cent | `C72_units_refuted` |
| C74 | temperatures of the archive | empty fields shift the columns: wind direction becomes temperature | `C74_wind_as_temperature`, `C74_refuted` |
| C73 | levels with a measured value | a level with pressure, height and relative humidity only is dropped | `C73_levels` (`hasData`), example `demoDry` |
| C72 | files with several times or a non-square grid | raise | `C72_succeeds_era`, `C72_succeeds_eps` |
| C84 | `kgkg_to_kgm3` converts kg/kg to kg/m3 | it returns the density of the moist air, to be multiplied by the user | `C84_dry_air` |
| C84 | the documented constants | `gravity` is accepted but not documented | `C84_undocumented` |
| C88 | different names are different models | R23SD = R24 (water vapour); R17 = R18, R19 = R19SD, R20 = R20SD (oxygen) | `C88_R24`, `C88_oxygen` |
| C89 | a dictionary of oxygen parameters is the user's own | every array is that of the line list; `_NL` entries are the array of all lines | `C89_shared` |
| C90 | parameters passed to a call act on that call | they stay in the line list until it is loaded again | `C90_stay`, `C90_reload` |
| C90 | a dictionary of ozone parameters is the user's own | every array is that of the line list | `C90_shared` |
| C90 | perturbing any ozone parameter changes ozone absorption | `O3_SR` has no effect; a line moved up hides all later ones | `C90_shift_no_effect`, `C90_break`, `C90_first_line` |
| C90 | a run with water vapour and oxygen parameters and an ozone profile | raises `KeyError` | `C90_missing` |
| C86 | a dictionary of parameters is the user's own | editing five to seven of its arrays in place changes the line list of the model | `C86_shared`, `C86_strengths` |
| C99 | `AbsModel.model = 'R16'` selects a model (docstring) | no effect once `H2OAbsModel.model` was assigned | `C99_documented_refuted` |
| C99 | values that are not non-empty strings are refused as model | only on instances, and not after an assignment to the class | `C99_unvalidated` |
| C99 | the setter accepts what `set_ll` installs | it raises | `C99_line_list` |
| C100 | requests carry the agent of the library | not if the options contain `headers` | `C100_agent_refuted` |
| C101 | any key and secret can be stored | cut at a colon | `C101_secret_refuted` |
| C130 | a downloaded file belongs to the place it was requested for | the name contains the time only; a download for another place at the same time replaces it | `C130_overwritten` |
| C130 | `EUMETSATProduct.request_data` downloads | it returns a name and downloads nothing | `C130_eumetsat` |
| C134 | the table is the sounding of the requested hour and station | time and station are read from the page and never compared with the request | `C134_refuted`, `C134_unchecked` |

## 5. What the mutation log shows

`seeded/LOG.jsonl` records edits of the model in a scratch copy and the declarations in which the build then failed. A failing build
is not the same as a claim that excludes the edit:

* "rejected: a theorem of the claim fails": a theorem named after the claim no longer checks. Its proof script broke; usually, not
  always, because its statement is false of the edited model.
* "build fails in helper lemmas": the failure is upstream, and the theorems of the claim were not reached. About half of the entries
  are of this kind. By itself this shows that the model cannot be edited unnoticed, not that the claim is strong enough.
* For 110 of these the closed formulas of C20, C33, C36, C68, C69, C70, C80, C81 and C98 were evaluated in floating point on both
  sides for the edited definitions, without any proof (`tools/stmt_check.py`). The two sides differ, so the statement named in the
  entry is false of the edited program. For the unedited model they agree to 1e-13 (C70: 1e-10; mean radiating temperature of a thick
  cloud: 1e-4). For another 25 edits no difference showed on the points evaluated; these are not settled by this method.
* Where the claim was examined further (refuted for the edited model by a witness, found still true, or tightened), the `result`
  says so.

## 6. Does the model compute what the code computes?

The proofs are about the Lean definitions. Whether those definitions are the program was checked in two ways.

* By reading: every definition cites the lines it transcribes.
* By numbers: `tools/float_check.py` copies the definitions under `lean/Verif/Py` and `lean/Verif/Model` into a file in which `ℝ`
  denotes double-precision floats, compiles it, and compares its output with the results stored in the repository. Nothing in
  /repo is executed; the test inputs are rewritten in `tools/float_main.txt`. A few lines are patched by the script
  (decidability proofs, the complex square root, how table columns are stored); they are listed in `PATCH`.

Run `python3 tools/float_check.py WORKDIR` (about 2.5 minutes). What it printed for the committed model:

* 33 simulations, 181 brightness temperatures each: the fourteen absorption models from a satellite, five from the ground, a traced
  ray at 37 degrees, a cloud, ozone, the six standard atmospheres, two perturbation tests, and the ERA5 file read by the modelled
  reader, from the ground and from a satellite. All are within 1e-7 relative, the tolerance of the tests. Most are within 1e-13;
  those involving R19SD, ozone or the ERA5 file are within 7e-10.
* 36 groups of values asserted by the unit tests of the conversions, absorption functions, reference atmospheres, uncertainty
  propagation, frequency tables and weighting-function peaks. All are as the tests demand, including those compared for equality.

What this does not cover: routines with no stored result (the IGRA and Wyoming readers, most exceptions, the plots), inputs far from
those of the tests, and the difference between reals and floats in the theorems themselves.

A by-product: the test `test_pyrtlib_sat_R21SD_ERA5_cloudy` calls `init_cloudy` without setting `cloudy`, and its expected values are
reproduced by the model without any cloud.
