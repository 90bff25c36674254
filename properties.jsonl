{"id": "C01", "title": "Radiance and brightness temperature are inverse to each other", "statement": "Converting a positive temperature to modified Planck radiance and back returns the same temperature, and converting a positive radiance to brightness temperature and back returns the same radiance, at every positive frequency; zero radiance maps to temperature 0.", "quantifier": "for all frequencies > 0, all temperatures > 0 and all radiances > 0", "why_tests_cant": "The domain is a continuum; a test can only sample points of it.", "anchors": ["pyrtlib/rt_equation.py::RTEquation.bright", "pyrtlib/utils.py::tk2b_mod"]}
{"id": "C02", "title": "Radiance conversion preserves order", "statement": "A strictly warmer body has strictly larger radiance at the same frequency, a strictly larger radiance has strictly larger brightness temperature, and at fixed temperature radiance strictly decreases with frequency.", "quantifier": "for all pairs of temperatures/radiances/frequencies in the positive reals", "why_tests_cant": "Monotonicity relates every pair of inputs; sampling pairs cannot exclude an inversion elsewhere.", "anchors": ["pyrtlib/rt_equation.py::RTEquation.bright", "pyrtlib/utils.py::tk2b_mod"]}
{"id": "C03", "title": "Upwelling brightness temperature stays within the temperatures of the scene", "statement": "With a black surface (emissivity 1) and satellite geometry the total brightness temperature lies between the coldest and the warmest profile temperature whenever total opacity is below the opaque limit of 125 Np, and never exceeds the warmest temperature for any opacity; for any emissivity in [0,1] the upper bound still holds.", "quantifier": "for all frequencies > 0, all profile lengths >= 1, all positive temperature profiles, all non-negative layer opacities", "why_tests_cant": "Profiles have unbounded length and real entries; the bound is a maximum principle over all of them.", "anchors": ["pyrtlib/rt_equation.py::RTEquation.planck", "pyrtlib/rt_equation.py::RTEquation.bright"]}
{"id": "C04", "title": "Downwelling brightness temperature stays between cosmic background and profile temperatures", "statement": "With ground geometry the total brightness temperature lies between the minimum and the maximum of the cosmic background temperature and the profile temperatures when the total opacity is below 125 Np; the upper bound holds for any opacity.", "quantifier": "for all frequencies > 0, all profile lengths >= 1, all positive temperature profiles, all non-negative layer opacities", "why_tests_cant": "Maximum principle over arbitrary-length real profiles.", "anchors": ["pyrtlib/rt_equation.py::RTEquation.planck", "pyrtlib/rt_equation.py::RTEquation.bright"]}
{"id": "C05", "title": "An isothermal scene radiates at its own temperature", "statement": "If all levels have the same temperature T: looking down on a black surface gives total brightness temperature exactly T (opacity below 125 Np); looking up, the atmospheric radiance is exactly B(T)(1-exp(-tau)) and the total is B(T)(1-exp(-tau))+B(Tc)exp(-tau); in both geometries the mean radiating temperature is exactly T for every opacity in (0,125).", "quantifier": "for all T > 0, all frequencies > 0, all profile lengths and non-negative layer opacities", "why_tests_cant": "Equality must hold for every number of levels and every opacity distribution.", "anchors": ["pyrtlib/rt_equation.py::RTEquation.planck", "pyrtlib/rt_equation.py::RTEquation.bright"]}
{"id": "C06", "title": "Opacity bookkeeping is the same from above and from below", "statement": "The opacity profile reported for level i is the sum of the layer opacities between the antenna and level i; it is zero at the antenna, non-decreasing away from it, and the total opacity is the same in both geometries; the entry of the layer array for the lowest level never influences any output.", "quantifier": "for all profile lengths, all layer opacity arrays", "why_tests_cant": "Loop invariant over arbitrary-length loops running in both directions.", "anchors": ["pyrtlib/rt_equation.py::RTEquation.planck"]}
{"id": "C07", "title": "Warming any level never lowers the brightness temperature", "statement": "Raising one or more level temperatures (layer opacities fixed) never lowers atmospheric radiance, total radiance or total brightness temperature, in either geometry.", "quantifier": "for all pairs of pointwise ordered positive temperature profiles, all non-negative opacities, emissivity in [0,1]", "why_tests_cant": "Pairwise relation over all profiles of all lengths.", "anchors": ["pyrtlib/rt_equation.py::RTEquation.planck", "pyrtlib/rt_equation.py::RTEquation.bright"]}
{"id": "C08", "title": "Up/down reciprocity", "statement": "The atmospheric radiance emitted upward by a profile equals the radiance emitted downward by the same profile turned upside down (layer opacities moved with their layers); likewise for the opacity profiles.", "quantifier": "for all frequencies, all profile lengths, all temperatures and layer opacities", "why_tests_cant": "Relates two different code branches on every input.", "anchors": ["pyrtlib/rt_equation.py::RTEquation.planck"]}
{"id": "C09", "title": "Stacking layers composes", "statement": "Looking up, the radiance of two stacked slabs is the radiance of the lower slab plus the transmittance of the lower slab times the radiance of the upper slab; an added layer with zero opacity at the observer side or inside an arbitrary profile leaves all radiances unchanged.", "quantifier": "for all ways of cutting an arbitrary-length profile", "why_tests_cant": "A compositional law over all cut positions and profiles.", "anchors": ["pyrtlib/rt_equation.py::RTEquation.planck"]}
{"id": "C10", "title": "The opaque limit is a switch at 125 Np and its jump is negligible", "statement": "The background is dropped exactly when the total opacity is >= 125 Np; when it is, the total radiance differs from the full formula (background attenuated by exp(-tau)) by at most background*exp(-125), in both geometries.", "quantifier": "for all profiles and opacities, on both sides of the limit", "why_tests_cant": "The error bound must hold for every profile at or beyond the switch.", "anchors": ["pyrtlib/rt_equation.py::RTEquation.planck"]}
{"id": "C11", "title": "Mean radiating temperature is a mean and is undefined exactly for a transparent atmosphere", "statement": "For total opacity in (0,125) the mean radiating temperature lies between the coldest and the warmest level; from 125 on it is the brightness temperature itself; for total opacity exactly 0 the mean radiance is the non-finite 0/0 although atmospheric and total radiance are well defined.", "quantifier": "for all profiles with positive temperatures and non-negative opacities, both geometries", "why_tests_cant": "Bound over all profiles; the undefined case is a measure-zero set that sampling never meets.", "anchors": ["pyrtlib/rt_equation.py::RTEquation.planck", "pyrtlib/rt_equation.py::RTEquation.bright"]}
{"id": "C12", "title": "Surface emissivity acts affinely, and reflected sky radiance is never added", "statement": "In satellite geometry the background term is emissivity*B(surface)*exp(-tau) for opacity below 125 Np, so total radiance is affine and non-decreasing in emissivity; the reflected downwelling term announced by the documentation is identically zero, so with emissivity 0 the surface contributes nothing.", "quantifier": "for all emissivities, profiles and opacities", "why_tests_cant": "The absence of a contribution has to be shown for every profile.", "anchors": ["pyrtlib/rt_equation.py::RTEquation.planck", "pyrtlib/tb_spectrum.py::TbCloudRTE.emissivity"]}
{"id": "C13", "title": "Atmosphere-only brightness temperature versus geometry", "statement": "In ground geometry the atmosphere-only brightness temperature never exceeds the total one. In satellite geometry the reported atmosphere-only brightness temperature (tbatm) is 0 for every profile, because the value is taken at the antenna end of the integral.", "quantifier": "for all profiles, opacities, frequencies", "why_tests_cant": "The satellite claim is an identity over all profiles; an approximate reference test stores whatever the code returns.", "anchors": ["pyrtlib/rt_equation.py::RTEquation.planck", "pyrtlib/tb_spectrum.py::TbCloudRTE.execute"]}
{"id": "C14", "title": "Layer value of exponential integration is the true mean of the exponential profile", "statement": "For two different positive level values (difference at least 1e-9) the layer value used by the integration equals the integral mean over the layer of the exponential interpolation between them, and in every non-error case it lies between the two level values.", "quantifier": "for all pairs of non-negative level values, both settings of the zero flag", "why_tests_cant": "Identity with an integral over a continuum of inputs.", "anchors": ["pyrtlib/rt_equation.py::RTEquation.exponential_integration"]}
{"id": "C15", "title": "Layer integrals add up to the total and are never negative", "statement": "When no negative value is met, the returned total is factor times the sum of the returned layer integrals and scaling the path by a constant scales total and layers by it; with non-negative path increments every returned layer integral is >= 0 whatever the profile, including profiles with negative values.", "quantifier": "for all profiles, path arrays, index ranges and factors", "why_tests_cant": "Loop property for arbitrary-length inputs, including the early-exit path.", "anchors": ["pyrtlib/rt_equation.py::RTEquation.exponential_integration"]}
{"id": "C16", "title": "A negative profile value truncates the integral silently", "statement": "If the integration meets a negative value at layer i, it returns the layers before i unchanged, zero for layer i and all later ones, and a total that is the sum of the layers before i WITHOUT the unit factor; no exception is raised.", "quantifier": "for all profiles, all positions of the first negative value", "why_tests_cant": "Universal over position and profile.", "anchors": ["pyrtlib/rt_equation.py::RTEquation.exponential_integration"]}
{"id": "C17", "title": "Starting the integration at level 0 is harmless only because the first path increment is 0", "statement": "Integrating from level 0 reads the last profile value as predecessor of the first; if the first path increment is 0 and no value is negative the result equals integration from level 1. If the last value alone is negative, total and every layer are 0 when starting at level 0, although starting at level 1 returns the layers below the last one.", "quantifier": "for all profiles and path arrays", "why_tests_cant": "Equality of two executions on every input.", "anchors": ["pyrtlib/rt_equation.py::RTEquation.exponential_integration", "pyrtlib/tb_spectrum.py::TbCloudRTE.execute"]}
{"id": "C18", "title": "Cloud water path covers the cloud layers", "statement": "The integrated cloud density is non-negative, additive over clouds, and equals the trapezoidal sum over the layers base+1 .. top-1: the uppermost layer of every cloud is left out, so a cloud one layer thick has zero integrated density whatever its water content.", "quantifier": "for all density profiles, path arrays, cloud lists", "why_tests_cant": "Universal over cloud positions and profile lengths.", "anchors": ["pyrtlib/rt_equation.py::RTEquation.cloud_integrated_density"]}
{"id": "C19", "title": "Cloud radiating temperature is a temperature of the cloud", "statement": "In both geometries, if the opacity between antenna and cloud is at most 125 Np and the cloud opacity is in (0,125], the cloud radiating temperature lies between the coldest and warmest level from base to top; it is undefined (None) exactly when the opacity between antenna and cloud exceeds 125 Np.", "quantifier": "for all profiles, all cloud bases and tops", "why_tests_cant": "Maximum principle over all sub-ranges of all profiles.", "anchors": ["pyrtlib/rt_equation.py::RTEquation.cloud_radiating_temperature", "pyrtlib/rt_equation.py::RTEquation.planck"]}
{"id": "C20", "title": "Vapour pressure and density obey the gas law and scale with humidity", "statement": "Vapour pressure equals relative humidity times the Goff-Gratch saturation pressure over water offered by the utility function, density satisfies e = rho*Rv*T, both are linear in relative humidity and non-negative; requesting the ice option raises an error for every profile.", "quantifier": "for all positive temperatures and all humidities, all profile lengths", "why_tests_cant": "Exact identities over the reals and an error that must occur on every input.", "anchors": ["pyrtlib/rt_equation.py::RTEquation.vapor", "pyrtlib/utils.py::eswat_goffgratch"]}
{"id": "C21", "title": "Ray-traced paths are never shorter than the layer is thick", "statement": "Within one degree of zenith the path increments are exactly the height differences (summing to the total height); at any other elevation every completed path increment is at least the layer thickness; a path is refused exactly when some refractive index is below 1.", "quantifier": "for all height profiles, refractive index profiles, elevations and observation heights for which the bending per layer is below a full turn", "why_tests_cant": "Geometric inequality through a stateful loop of arbitrary length.", "anchors": ["pyrtlib/rt_equation.py::RTEquation.ray_tracing"]}
{"id": "C22", "title": "Ray tracing without refraction gives straight lines", "statement": "For a constant refractive index the ray should be a straight line. When the local elevation more than doubles inside the first layer, the returned first path increment is strictly longer than the straight line to that level: walking that distance along the straight ray ends strictly above the level (the code uses cos(theta) = cos(theta0) - z/r0 instead of r*cos(theta) = r0*cos(theta0), which differs for every z > 0).", "quantifier": "for all constant-index atmospheres, all elevations in (0,90) taking that branch", "why_tests_cant": "The deviation is small and only visible against the exact law, not against stored outputs.", "anchors": ["pyrtlib/rt_equation.py::RTEquation.ray_tracing"]}
{"id": "C23", "title": "Plane-parallel slant scaling", "statement": "Without ray tracing, every integrated quantity at elevation angle a equals the zenith value divided by sin(a); angles a and 180-a give identical results.", "quantifier": "for all profiles, all absorption profiles, all angles in (0,180)", "why_tests_cant": "Relates executions at a continuum of angles through the whole pipeline.", "anchors": ["pyrtlib/tb_spectrum.py::TbCloudRTE.execute", "pyrtlib/rt_equation.py::RTEquation.exponential_integration"]}
{"id": "C24", "title": "Which height profiles the simulator accepts", "statement": "Among non-empty profiles, construction is refused for their heights exactly when two consecutive heights are equal; in every other case (including descending and non-monotone heights) the profile is accepted in the given order and never turned upside down, contrary to the message in the code. Empty profiles are refused with an error.", "quantifier": "for all height profiles of any length", "why_tests_cant": "Universal over profiles; a test runs a few of them.", "anchors": ["pyrtlib/tb_spectrum.py::TbCloudRTE.__init__"]}
{"id": "C25", "title": "Construction and the caller's arrays", "statement": "Building a simulator shifts the height array object passed by the caller so that it starts at 0, leaves every other array untouched, and building a second simulator from the same array leaves the heights as they are but records observation height 0 instead of the original one, so that the same cloud heights resolve to different levels. A refused construction leaves all arrays unchanged, except when the refusal is caused by passing a model name: the heights are then shifted although no simulator exists. Over any sequence of constructions an array is shifted at most once.", "quantifier": "for all heaps, all profiles, all sequences of constructions", "why_tests_cant": "A property of object aliasing and call histories.", "anchors": ["pyrtlib/tb_spectrum.py::TbCloudRTE.__init__", "pyrtlib/tb_spectrum.py::TbCloudRTE.init_cloudy"]}
{"id": "C26", "title": "End-to-end bounds of the simulation for any absorption model", "statement": "Whatever values the absorption models return (even negative ones), with increasing heights and angles in (0,180) every layer opacity reported is >= 0, hence with emissivity 1 and total opacity below 125 Np the simulated satellite brightness temperatures lie between the minimum and maximum profile temperature and ground ones between those extended by the cosmic background.", "quantifier": "for all absorption models, profiles, frequencies, angles in (0,180), both geometries, clear and cloudy", "why_tests_cant": "Quantifies over every possible absorption routine.", "anchors": ["pyrtlib/tb_spectrum.py::TbCloudRTE.execute", "pyrtlib/rt_equation.py::RTEquation.exponential_integration", "pyrtlib/rt_equation.py::RTEquation.planck"]}
{"id": "C27", "title": "Simulators share their absorption-model selection", "statement": "A run uses the absorption models selected by the most recent selection call in the process, on whichever simulator it was made; apart from that selection and the simulator's own settings, a run's result does not depend on what other simulators did before (including their geometry and emissivity).", "quantifier": "for all finite histories of constructions, selections, setting changes and runs on any number of simulators", "why_tests_cant": "Quantifies over all call histories.", "anchors": ["pyrtlib/tb_spectrum.py::TbCloudRTE.execute", "pyrtlib/tb_spectrum.py::TbCloudRTE.init_absmdl", "pyrtlib/absorption_model.py::AbsModel"]}
{"id": "C28", "title": "Turning clouds off after a cloudy run", "statement": "Re-running a simulator should give the same result as a fresh simulator with the same settings. This holds whenever the simulator never ran cloudy before (or runs cloudy again); after a cloudy run, switching clouds off leaves the cloud opacities of that run in the total.", "quantifier": "for all histories of runs of one simulator", "why_tests_cant": "History dependence; tests use one run per object.", "anchors": ["pyrtlib/tb_spectrum.py::TbCloudRTE.execute"]}
{"id": "C29", "title": "Result table layout and channel independence", "statement": "The result has (number of angles)*(number of frequencies) rows in angle-major order, and the row of angle k and frequency j is the result of a simulation with only that angle, that frequency and that emissivity entry.", "quantifier": "for all lists of angles and frequencies", "why_tests_cant": "Universal over list lengths and positions.", "anchors": ["pyrtlib/tb_spectrum.py::TbCloudRTE.execute"]}
{"id": "C30", "title": "Cloud heights resolve to profile levels", "statement": "If every cloud base and top coincides with a profile height (heights distinct) the recorded level is the unique matching level; a height that matches no level silently becomes level 0, and a simulator not flagged cloudy records level 0 everywhere and stores no cloud densities, so that flagging it afterwards makes the run fail.", "quantifier": "for all profiles and cloud height tables", "why_tests_cant": "Universal over profiles and cloud tables.", "anchors": ["pyrtlib/tb_spectrum.py::TbCloudRTE.init_cloudy"]}
{"id": "C31", "title": "Settings validation of the simulator", "statement": "Geometry accepts exactly booleans; emissivity accepts exactly floats (replicated to all frequencies) and arrays (taken as they are, any length) and rejects everything else including integers; a rejected setting leaves the simulator unchanged; passing a non-empty absorption model name to the constructor always fails.", "quantifier": "for all values of all Python types modelled, all simulator states", "why_tests_cant": "Quantifies over all values and states.", "anchors": ["pyrtlib/tb_spectrum.py::TbCloudRTE.satellite", "pyrtlib/tb_spectrum.py::TbCloudRTE.emissivity", "pyrtlib/tb_spectrum.py::TbCloudRTE.__init__"]}
{"id": "C32", "title": "Which absorption model names run", "statement": "For sensible input, a clear-sky run after init_absmdl(name) completes with finite results exactly for R98, R03, R16, R17, R18, R19, R19SD, R20, R20SD and R24; every other string is accepted by init_absmdl but the run then raises AbsModelError. With liquid cloud R18 and R20SD raise ValueError as well. Names set per species: an unknown nitrogen or liquid name raises ValueError; an accepted ozone name without a loaded ozone table raises AttributeError as soon as a level contains ozone. The run depends on the routines and tables of the selected names only.", "quantifier": "for all strings used as model name", "why_tests_cant": "Quantifies over all strings and over all six dispatch chains.", "anchors": ["pyrtlib/absorption_model.py::LiqAbsModel.liquid_water_absorption", "pyrtlib/absorption_model.py::N2AbsModel.n2_absorption", "pyrtlib/absorption_model.py::H2OAbsModel.set_ll", "pyrtlib/absorption_model.py::O2AbsModel.set_ll", "pyrtlib/rt_equation.py::RTEquation.clearsky_absorption"]}
{"id": "C41", "title": "Humidity conversions round-trip", "statement": "Mixing ratio <-> vapour pressure and mixing ratio <-> vapour density conversions are mutually inverse on their domains and consistent with each other through the gas law.", "quantifier": "for all pressures, temperatures, mixing ratios in the stated domains", "why_tests_cant": "Exact identities on a continuum.", "anchors": ["pyrtlib/utils.py::mr2e", "pyrtlib/utils.py::e2mr", "pyrtlib/utils.py::mr2rho", "pyrtlib/utils.py::rho2mr"]}
{"id": "C42", "title": "Relative humidity conversions agree at saturation", "statement": "Both relative-humidity definitions returned for a mixing ratio are 100 exactly at the saturation mixing ratio and lie on the same side of 100; converting humidity to density with the simulator and back with the utility reproduces it up to the fixed factor 1/(216.7*Rv) (not 1).", "quantifier": "for all pressures, temperatures and vapour amounts in the stated domains", "why_tests_cant": "Exact identities on a continuum; a comparison with stored output of the code accepts whatever factor it has.", "anchors": ["pyrtlib/utils.py::mr2rh", "pyrtlib/utils.py::rho2rh", "pyrtlib/rt_equation.py::RTEquation.vapor"]}
{"id": "C43", "title": "Choice between water and ice saturation", "statement": "Saturation pressure uses the ice formula exactly at temperatures at or below a given truthy conversion temperature and the water formula otherwise, for each element independently; the water formula is strictly positive.", "quantifier": "for all temperature arrays and conversion temperatures", "why_tests_cant": "Universal over arrays and thresholds.", "anchors": ["pyrtlib/utils.py::satvap", "pyrtlib/utils.py::satmix"]}
{"id": "C44", "title": "Standard-atmosphere height and pressure conversions are inverse and decreasing", "statement": "pressure_to_height and height_to_pressure are inverse to each other on the domain where both are defined, and strictly decreasing.", "quantifier": "for all positive pressures and all heights below the formula's pole", "why_tests_cant": "Exact identities on a continuum.", "anchors": ["pyrtlib/utils.py::pressure_to_height", "pyrtlib/utils.py::height_to_pressure"]}
{"id": "C45", "title": "Celsius/Kelvin conversion", "statement": "The two conversions are inverse to each other; the offset used is 273.25 rather than 273.15, so no temperature is converted correctly.", "quantifier": "for all temperatures", "why_tests_cant": "The existing tests encode the wrong offset.", "anchors": ["pyrtlib/utils.py::to_kelvin", "pyrtlib/utils.py::to_celsius"]}
{"id": "C46", "title": "Virtual temperature and layer thickness", "statement": "Virtual temperature is at least the temperature for non-negative mixing ratio (equal when dry); thickness profiles start at 0, are strictly increasing for decreasing pressure, are additive over layers, and equal the hypsometric formula for an isothermal dry profile.", "quantifier": "for all profiles of any length", "why_tests_cant": "Universal over profile lengths and values.", "anchors": ["pyrtlib/utils.py::virtual_temperature", "pyrtlib/utils.py::atmospheric_tickness"]}
{"id": "C47", "title": "Relative humidity from dew point", "statement": "Relative humidity is positive, equals 1 when dew point equals temperature, is strictly increasing in dew point and at most 1 when the dew point does not exceed the temperature, for each of the coefficient sets.", "quantifier": "for all temperatures and dew points above the formula's pole, all option combinations", "why_tests_cant": "Monotonicity over a continuum.", "anchors": ["pyrtlib/utils.py::dewpoint2rh"]}
{"id": "C50", "title": "Weighting function is transmittance times absorption", "statement": "From the ground every weight is the absorption at a level times the transmittance between the ground and that level. From a satellite it should be the absorption times the transmittance between the level and the top; the returned value uses the transmittance from the level below instead, so it is exact precisely where the layer below has no opacity (or the absorption is zero). Weights of non-negative absorption are non-negative and never exceed the absorption. Generating weights leaves the last listed oxygen model selected whatever model was asked for.", "quantifier": "for all numbers of frequencies and levels, all non-negative layer opacities, and every run of the generator", "why_tests_cant": "Cumulative-sum identity for all sizes; history effect on the selected model.", "anchors": ["pyrtlib/weighting_functions.py::WeightingFunctions.generate_wf"]}
{"id": "C51", "title": "Channel averaging of weighting functions and its labels", "statement": "With a list of band sizes the plotted weight of channel i at every level is the mean of the weights of the frequencies of that channel and of no other; the channel label should be the mean of the same frequencies, but it is computed from the frequencies starting at position i, so it is right when the earlier channels have one frequency each and is wrong in general.", "quantifier": "for all band-size lists, all weight tables and all frequency lists", "why_tests_cant": "Universal over channel layouts; tests look at one plot.", "anchors": ["pyrtlib/weighting_functions.py::WeightingFunctions.plot_wf", "pyrtlib/weighting_functions.py::WeightingFunctions._mean_channel"]}
{"id": "C52", "title": "Interpolation grid of the weighting functions", "statement": "The profile is resampled on the equidistant heights 0, step, 2*step, ... up to the first such height at or above the top of the profile; the resampled values equal the given ones at given heights, are linear between neighbours, constant beyond the ends and never outside the range of the given values.", "quantifier": "for all profiles with strictly increasing heights and all positive steps", "why_tests_cant": "Universal over profiles and heights between levels.", "anchors": ["pyrtlib/weighting_functions.py::WeightingFunctions.__init__"]}
{"id": "C53", "title": "Extrapolation keeps the measured profile and returns consistent arrays", "statement": "Extrapolating a profile returns height, pressure, temperature and humidity arrays of equal length whose first entries are exactly the input; heights above the input are all larger than its maximum.", "quantifier": "for all measured profiles with maximum height below 50 km", "why_tests_cant": "Universal over profiles.", "anchors": ["pyrtlib/climatology/extrapolation.py::ProfileExtrapolation.profile_extrapolation"]}
{"id": "C54", "title": "Re-using an extrapolation object", "statement": "Extrapolating the same heights twice with one object gives the same heights; extrapolating different profiles with one object can give levels that depend on the earlier profile, unlike a fresh object. Assigning an array to height makes the object forget everything before; assigning the heights of a new object makes it return what a new object returns. Any other value is refused with ValueError and has no effect. Objects exist for the mode ITU-Annex1 only.", "quantifier": "for all sequences of calls and assignments on one object", "why_tests_cant": "History dependence.", "anchors": ["pyrtlib/climatology/extrapolation.py::ProfileExtrapolation.profile_extrapolation", "pyrtlib/climatology/extrapolation.py::ProfileExtrapolation.height"]}
{"id": "C59", "title": "Perturbing spectroscopic parameters never touches the stored ones", "statement": "Producing a perturbed parameter set leaves the stored parameter set unchanged, shifts exactly the requested entries by plus/minus their uncertainty, and leaves every other parameter that shares no storage with a perturbed one unchanged.", "quantifier": "for all parameter dictionaries, sharing patterns, parameter lists, modes and indices", "why_tests_cant": "Heap aliasing and arbitrary dictionaries.", "anchors": ["pyrtlib/uncertainty/absmod_uncertainty.py::AbsModUncertainty.parameters_perturbation"]}
{"id": "C60", "title": "Propagation of uncertainty", "statement": "The uncertainty returned for a scaled variable, a linear combination, a product or quotient of nonzero variables, or a power of a positive variable is the square root of the first-order variance built from the partial derivatives of that function; any other function name is rejected; a zero factor gives no finite uncertainty and a power of a negative variable can give a negative one.", "quantifier": "for all real variables, uncertainties, multipliers and admissible covariances, all function names", "why_tests_cant": "Equality of real functions of seven arguments with a derivative-based specification.", "anchors": ["pyrtlib/uncertainty/absmod_uncertainty.py::AbsModUncertainty.uncertainty_propagation"]}
{"id": "C62", "title": "Date-range selection of sounding archives", "statement": "For an archive of well-formed soundings in chronological order, selecting a date range returns exactly the header records and body lines of the soundings whose time lies in the closed range, in order, with one date per body line; an empty selection raises an error.", "quantifier": "for all archives of any size and all date ranges", "why_tests_cant": "Parser correctness over all files.", "anchors": ["pyrtlib/apiwebservices/igra2.py::IGRAUpperAir._select_date_range"]}
{"id": "C63", "title": "Sounding time fields", "statement": "Elapsed times in MMMSS form convert to seconds correctly; release times in HHMM form are mis-read for all times except those stated, because the four digits are padded to five.", "quantifier": "for all hours, minutes and seconds", "why_tests_cant": "Universal over digit strings; no test covers the field.", "anchors": ["pyrtlib/apiwebservices/igra2.py::IGRAUpperAir._ctime"]}
{"id": "C48", "title": "Gas masses by identifier", "statement": "A mass is known exactly for the gas identifiers 0..31 and 99 (air), every other identifier raises; for identifiers 0..30 it is the proton mass times the mass number of the molecule with that identifier in the atmospheric profile tables; identifier 31 (CCl3F) gets the mass of another molecule, and the profile identifiers 32..43 have no mass. Mixing ratios in ppmv convert to g/kg in proportion to the mass ratio to air.", "quantifier": "for all integer identifiers and all mixing ratios", "why_tests_cant": "Quantifies over all identifiers; the table is compared with an independent composition table.", "anchors": ["pyrtlib/utils.py::gas_mass", "pyrtlib/utils.py::ppmv2gkg", "pyrtlib/climatology/atmospheric_profiles.py::AtmosphericProfiles"]}
{"id": "C49", "title": "Instrument channel tables", "statement": "The frequency lookups accept exactly the listed instrument names in any letter case and raise for every other string; ground lists are strictly increasing; every satellite list except MWS is strictly increasing and contains with each sideband of a band centre the mirrored one; the MWS list contains one channel twice and lacks its mirror channel.", "quantifier": "for all strings used as instrument name", "why_tests_cant": "Quantifies over all strings, letter cases, and all channels.", "anchors": ["pyrtlib/utils.py::get_frequencies", "pyrtlib/utils.py::get_frequencies_sat"]}
{"id": "C55", "title": "Humidity of extrapolated levels", "statement": "The humidity of every level that an extrapolation adds should be in the unit of the measured humidity (a fraction); it is the relative humidity in percent, 100 times vapour pressure over saturation pressure of the reference atmosphere at that level, so a fractional input is continued by values larger than one.", "quantifier": "for all measured profiles below 50 km, all latitudes and months, all added levels", "why_tests_cant": "Unit relation for every added level of every profile.", "anchors": ["pyrtlib/climatology/extrapolation.py::ProfileExtrapolation.profile_extrapolation", "pyrtlib/utils.py::rho2rh"]}
{"id": "C56", "title": "Season selection is symmetric between hemispheres", "statement": "The season used at a latitude and month is the one used at the opposite latitude half a year later; within 20 degrees of the equator and in spring and autumn the annual atmosphere is used; the seasonal atmospheres are the same north and south, ignore the season within 22 degrees, and reject every other season name.", "quantifier": "for all latitudes, all months 1-12, all heights, all strings as season", "why_tests_cant": "Quantifies over all real latitudes and strings.", "anchors": ["pyrtlib/climatology/extrapolation.py::ProfileExtrapolation._get_season", "pyrtlib/climatology/extrapolation.py::_ITU835_6.temperature", "pyrtlib/climatology/extrapolation.py::_ITU835_6.pressure", "pyrtlib/climatology/extrapolation.py::_ITU835_6.water_vapour_density"]}
{"id": "C57", "title": "Reference atmospheres are physical between 0 and 100 km", "statement": "The seasonal reference pressures are finite and positive exactly on 0-100 km, and should fall strictly with height; the low-latitude and summer ones do, the two winter ones rise slightly across 72 km. Temperatures lie between 150 and 310 K on 0-100 km; outside they are nan except the low-latitude one, which is 184 K even below ground. Vapour densities are non-negative and zero exactly above the stated top (or below ground).", "quantifier": "for all heights", "why_tests_cant": "Universal over real heights, including the joints of the pieces.", "anchors": ["pyrtlib/climatology/extrapolation.py::_ITU835_6.low_latitude_pressure", "pyrtlib/climatology/extrapolation.py::_ITU835_6.mid_latitude_pressure_winter", "pyrtlib/climatology/extrapolation.py::_ITU835_6.high_latitude_temperature_winter"]}
{"id": "C58", "title": "Standard atmosphere", "statement": "Standard temperature and pressure are finite and positive at every height from the ground up; the surface temperature and pressure passed by the caller have no effect; above 100 km and in a narrow gap below 86 km the values are two filler constants; the pressure rises across the 20 km joint; the vapour density has the given surface value and falls by e per scale height, and is not a number for scale height zero.", "quantifier": "for all heights and all surface values", "why_tests_cant": "Universal over heights and arguments; the gap is 40 mm wide.", "anchors": ["pyrtlib/climatology/extrapolation.py::_ITU835_6.standard_temperature", "pyrtlib/climatology/extrapolation.py::_ITU835_6.standard_pressure", "pyrtlib/climatology/extrapolation.py::_ITU835_6.standard_water_vapour_density"]}
{"id": "C64", "title": "Sounding station coordinates", "statement": "A station latitude or longitude field written with at least four digits, with or without a minus sign, is converted to its value in ten-thousandths of a degree; shorter fields (places within a tenth of a degree of the equator or zero meridian) are converted to a wrong value or rejected.", "quantifier": "for all digit strings of any length and both signs", "why_tests_cant": "Parser correctness over all inputs.", "anchors": ["pyrtlib/apiwebservices/igra2.py::IGRAUpperAir._get_fwf_params"]}
{"id": "C65", "title": "Which sounding file is requested and how it is read", "statement": "The request for raw soundings names the period-of-record or current file of the station; the request for derived soundings never names the station's derived file, and no reply is ever read with the columns of derived soundings.", "quantifier": "for all stations and option combinations", "why_tests_cant": "All station identifiers.", "anchors": ["pyrtlib/apiwebservices/igra2.py::IGRAUpperAir.request_data", "pyrtlib/apiwebservices/igra2.py::IGRAUpperAir._get_fwf_params"]}
{"id": "C66", "title": "Wind components", "statement": "The wind components computed from speed and direction have that speed, and point away from the direction the wind comes from.", "quantifier": "for all real speeds and directions", "why_tests_cant": "Identity over the reals.", "anchors": ["pyrtlib/apiwebservices/igra2.py::get_wind_components"]}
{"id": "C33", "title": "Absorption by cloud liquid water", "statement": "Without liquid water the absorption is 0 whatever else is passed, including an unknown model name. With liquid water it is proportional to the water content, and finite and strictly positive: for the two double-Debye models at every temperature up to 396 K, for the other nine accepted models at every temperature from 210 K up (supercooled included).", "quantifier": "for all water contents, all positive frequencies, all temperatures in the stated range, all accepted model names", "why_tests_cant": "Sign of a complex dielectric expression over a continuum of frequencies and temperatures.", "anchors": ["pyrtlib/absorption_model.py::LiqAbsModel.liquid_water_absorption", "pyrtlib/utils.py::dilec12"]}
{"id": "C34", "title": "Absorption by nitrogen", "statement": "For every accepted model nitrogen absorption is finite and strictly positive at positive temperature, pressure and frequency, and is proportional to the square of the pressure. For every model except MWL24 colder air absorbs more, and from frequency f to k f (k at least 1) absorption grows by a factor between k^2/2 and k^2.", "quantifier": "for all positive temperatures, pressures and frequencies, all accepted model names", "why_tests_cant": "Continuum of states; inequalities between any two states.", "anchors": ["pyrtlib/absorption_model.py::N2AbsModel.n2_absorption", "pyrtlib/absorption_model.py::N2AbsModel.n2_absorption_mwl24"]}
{"id": "C35", "title": "Absorption by water vapour has a sign and no jumps at the cut-off", "statement": "For moist air (vapour pressure above zero, dry pressure not negative, positive temperature) and every positive frequency, the seven models without speed dependence (R98, R03, R16, R17, R18, R19, R20), with their shipped line tables, return a finite line absorption that is never negative and a strictly positive continuum absorption. Each line contributes its Lorentz profile minus the profile's value at 750 GHz, or nothing where that is negative, so the cut-off introduces no jump. Dry air gives exactly zero for every model. A line table exists for exactly fourteen model names.", "quantifier": "for all temperatures, pressures, humidities, frequencies; all entries of the shipped tables; whatever was loaded before", "why_tests_cant": "Sign of a sum of differences over a continuum of states; the tables have up to hundreds of entries.", "anchors": ["pyrtlib/absorption_model.py::H2OAbsModel.h2o_absorption", "pyrtlib/_lineshape/h2oll.py", "pyrtlib/_lineshape/h2o_lineshape.nc"]}
{"id": "C36", "title": "Self-continuum of water vapour from the MT-CKD table", "statement": "The self-continuum returned at a tabulated frequency (multiple of 299.792458 GHz) is the tabulated value; in between it is continuous in frequency, and strictly positive for temperatures between 34 and 2500 K. From 1199.17 GHz on the call raises IndexError although the table reaches 1498.96 GHz, so R23SD and R24 fail there for moist air. If R23SD or R24 are given a positive self-continuum coefficient (as the uncertainty tools do), it is multiplied by the temperature exponent instead of being scaled with a power of temperature, and with the shipped exponent 0 the self-continuum vanishes.", "quantifier": "for all frequencies and all temperatures in the stated ranges", "why_tests_cant": "Interpolation between nodes over a continuum; overshoot of a cubic interpolation cannot be excluded by sampling.", "anchors": ["pyrtlib/absorption_model.py::H2OAbsModel.h2o_continuum", "pyrtlib/absorption_model.py::H2OAbsModel.h2o_absorption"]}
{"id": "C37", "title": "Absorption by oxygen is finite and, but for R98, never negative", "statement": "For every oxygen model with a shipped line table (R98, R03, R16, R17, R18, R19, R19SD, R20, R20SD, R22, R23, R24) and every positive pressure, temperature and frequency, with any vapour pressure, o2_absorption returns finite numbers. The line term is never negative, except for R98. The second number, the dry continuum, is positive for R98, R03, R16, R17, R18 and zero for the others, whose first number contains it. R17, R18, R19 and R19SD use one and the same table of lines; in dry air R17/R18 cut the line sum at zero before the continuum is added, R19/R19SD after, so at 300 K, 1000 hPa, 200 GHz R17 and R18 report strictly more absorption than R19 from the same lines. In that state R98 returns a negative line absorption.", "quantifier": "all twelve oxygen models, all states of the air (dry pressure >= 0, vapour pressure >= 0, not both 0, any temperature), all frequencies > 0, any line list loaded before", "why_tests_cant": "sums over up to 51 lines with mixing coefficients of both signs, over a continuum of states; unit tests pin a handful of spectra", "anchors": ["pyrtlib/absorption_model.py::O2AbsModel.o2_absorption", "pyrtlib/utils.py::_dcerror", "pyrtlib/_lineshape/o2_lineshape.nc", "pyrtlib/_lineshape/o2ll.py"]}
{"id": "C38", "title": "Absorption by ozone: window, sign, steps", "statement": "Line tables for ozone exist exactly for R18, R22 and R23. The absorption is proportional to the ozone density; R18 and R23 return exactly the sum over the lines at most 1 GHz away from the frequency (the loop that stops early misses none). With a density that is not negative the result is finite and never negative, and positive exactly when there is ozone and a line within 1 GHz (for R22: above 0.0001 hPa and below 400 K). Because of the sharp window the spectrum has steps: just below 1 GHz under the first line the result is exactly zero, at 1 GHz distance it is a positive number. A negative density is not rejected and gives the negative of the absorption. At zero pressure the Voigt profile of R22 becomes negative in the wing of a line (256 K, 6.27 Doppler widths below the first line).", "quantifier": "all temperatures and pressures > 0, all frequencies, all densities, all entries of the three shipped tables, any line list loaded before", "why_tests_cant": "a sum over up to 464 lines with an early exit that is only correct for sorted tables; sign of a rational approximation over a half plane", "anchors": ["pyrtlib/absorption_model.py::O3AbsModel.o3_absorption", "pyrtlib/absorption_model.py::O3AbsModel.set_ll", "pyrtlib/utils.py::_dcerror", "pyrtlib/_lineshape/o3_lineshape.nc", "pyrtlib/_lineshape/o3ll.py"]}
{"id": "C39", "title": "Absorption depends on the selected model, not on models used earlier", "statement": "After the line table of a model has been loaded the absorption computed for that model is the same whatever tables had been loaded into the same process before (attributes of earlier tables stay behind in the shared line-list object, but none of them is read).", "quantifier": "for all earlier contents of the line-list object, all models with a table, all states of the air and frequencies", "why_tests_cant": "All histories of earlier loads.", "anchors": ["pyrtlib/absorption_model.py::H2OAbsModel.h2o_absorption", "pyrtlib/absorption_model.py::O2AbsModel.o2_absorption", "pyrtlib/absorption_model.py::O3AbsModel.o3_absorption", "pyrtlib/utils.py::import_lineshape", "pyrtlib/_lineshape/h2oll.py", "pyrtlib/_lineshape/o2ll.py"]}
{"id": "C40", "title": "A run with the unperturbed spectroscopic parameters is the run without parameters", "statement": "Passing the parameter dictionary that the library returns for a model back into the absorption call should change nothing. This holds for water vapour for every model name after R17 and for R03, and for oxygen for every model whose dictionary can be obtained. It does not hold for water vapour R16 and R17: the foreign continuum comes out multiplied by 1.11 and the self continuum by 0.79, so the result differs at all dry pressures but at most one. In a new process the dictionary can be obtained for all water vapour models with a table except R98 and MWL24, and for seven of the twelve oxygen models; for the others the call raises AttributeError, or, after another model has been used, returns values that belong to the other model. Multiplying all water vapour line strengths by c multiplies the line absorption by c and leaves the continuum alone. Many parameters have no effect on the result, among them all continuum parameters for R98, R03 and MWL24, all shift parameters for MWL24, and all line-mixing parameters for R23 and R24 at zeroth order.", "quantifier": "for all models, all line tables, all parameter values, all states of the air and frequencies, whatever was loaded before", "why_tests_cant": "Equality of two runs for all states; absence of any effect for all values of a parameter.", "anchors": ["pyrtlib/absorption_model.py::H2OAbsModel.h2o_absorption", "pyrtlib/absorption_model.py::O2AbsModel.o2_absorption", "pyrtlib/uncertainty/absmod_uncertainty.py::SpectroscopicParameter.water_parameters", "pyrtlib/uncertainty/absmod_uncertainty.py::SpectroscopicParameter.oxygen_parameters"]}
{"id": "C61", "title": "A run does not modify the parameters it is given", "statement": "A call of the oxygen absorption with a parameter dictionary changes no array other than the width array of the loaded line list and, for the models up to R19, the caller's own mixing arrays Y300 and O2_V. The latter is a side effect: after the call their entries 34 to 48 hold the values given as Y300_NL and O2_V_NL. Witness: the shipped R17 table with another array under Y300_NL.", "quantifier": "for all dictionaries, all arrangements of shared arrays in memory, all models, all states of the air", "why_tests_cant": "All arrangements of aliasing between caller, line list and dictionary.", "anchors": ["pyrtlib/absorption_model.py::O2AbsModel.o2_absorption"]}
{"id": "C67", "title": "After any history, a sensible simulation with a usable model returns a physically possible table", "statement": "Whatever was done before in the process (simulators built and run, models chosen, runs that raised), if one of the usable model names was chosen last, executing a simulator with sensible input returns one row per angle and frequency in order, each with a finite brightness temperature between 0 K and the warmest level (ground view: or the cosmic background, whichever is warmer).", "quantifier": "for all histories of calls, all sensible profiles, frequencies up to 1199 GHz, angles, emissivities between 0 and 1, all usable model names, clear sky or liquid cloud", "why_tests_cant": "Joins every part of the calculation with the shipped line tables over all call histories and a continuum of inputs.", "anchors": ["pyrtlib/tb_spectrum.py::TbCloudRTE.execute", "pyrtlib/tb_spectrum.py::TbCloudRTE.init_absmdl", "pyrtlib/absorption_model.py::H2OAbsModel.h2o_absorption", "pyrtlib/absorption_model.py::O2AbsModel.o2_absorption"]}
{"id": "C68", "title": "Water vapour absorption is a closed formula of its line table", "statement": "The line term returned for any water vapour model equals the closed formula: the sum over every line of that model's shipped table, each counted once, of strength times the line profile (both resonances, cut-off at 750 GHz with the base subtracted, the speed-dependent profile close to the lines that have one), with widths and shifts from foreign and self broadening. The continuum equals its closed formula with the model's own coefficients; of the two newest models with the tabulated self term.", "quantifier": "for all fourteen models, all non-negative dry pressures, positive vapour pressures, temperatures and frequencies (continuum of the newest models: below 1199.17 GHz)", "why_tests_cant": "Equality with an independent formula at every point of a continuum; a test compares a few points with the code's own earlier output.", "anchors": ["pyrtlib/absorption_model.py::H2OAbsModel.h2o_absorption", "pyrtlib/absorption_model.py::H2OAbsModel.h2o_continuum"]}
{"id": "C69", "title": "Oxygen absorption is a closed formula of its line table", "statement": "The absorption returned for any oxygen model equals the closed formula: the sum over every line of that model's shipped table with both resonances, line mixing of first (and in the newer models second) order and shifted centres, plus the zero-frequency band, which the five oldest models return as the second value and the others include; negative totals are cut off except in R98. In R23 the second-order mixing coefficients in use sum to zero with their weights, in R24 the first-order coefficients and the zero-frequency band obey the sum rule too.", "quantifier": "for all twelve models, all non-negative dry and vapour pressures not both zero, positive temperatures and frequencies", "why_tests_cant": "Equality with an independent formula at every point of a continuum, and conservation rules that hold at every temperature.", "anchors": ["pyrtlib/absorption_model.py::O2AbsModel.o2_absorption"]}
{"id": "C70", "title": "Complex error function used by the Voigt and speed-dependent profiles", "statement": "The function returns a finite number for every argument, takes mirror images in the imaginary axis to conjugates, and above the real axis equals a rational approximation with the coefficients in the code (real, positive and at most 1 on the imaginary axis). Below the real axis, where its documentation also claims validity, it omits a conjugation: the reflection formula of the complex error function fails there, by more than 0.4 at 1 - i.", "quantifier": "for all real x and y", "why_tests_cant": "Symmetries over the whole complex plane; the failing half plane is not reached by the shipped models and so by no comparison of spectra.", "anchors": ["pyrtlib/utils.py::_dcerror"]}
{"id": "C71", "title": "Built-in atmospheres and the documented workflow", "statement": "The six built-in atmospheres are selected by exactly the identifiers that the list of atmospheres shows; any other integer raises. Each has 50 levels at the AFGL altitudes with pressure and density falling, temperatures between 161 and 380 K, positive gases, and obeys the gas law within 0.12 per cent (one level: 1.5 per cent). Converting its water vapour to mixing ratio and relative humidity and building a simulator from it, for any frequencies up to 1199 GHz and any elevation angles, always succeeds, leaves the caller's arrays unchanged, and running it after any history of calls gives a brightness temperature between 0 K and the warmest level for every angle and frequency. The numbers 1 to 6 given in the documentation of the call are off by one, so each names another atmosphere and the last raises. Minor and trace gas profiles start with the recorded surface value of the gas asked for; a number below the group's range is not refused but answered with another gas.", "quantifier": "for all atmospheres, all integers as identifiers, all frequency and angle lists, all call histories, ten models", "why_tests_cant": "Whole tables of 6x50 levels and 37 gases, all integers, and all histories and frequency lists of the workflow at once.", "anchors": ["pyrtlib/climatology/atmospheric_profiles.py::AtmosphericProfiles.gl_atm", "pyrtlib/climatology/atmospheric_profiles.py::AtmosphericProfiles.gl_atm_minor", "pyrtlib/climatology/atmospheric_profiles.py::AtmosphericProfiles.gl_atm_trace", "pyrtlib/climatology/atmospheric_profiles.py::AtmosphericProfiles.atm_profiles", "pyrtlib/utils.py::ppmv2gkg", "pyrtlib/utils.py::mr2rh", "pyrtlib/tb_spectrum.py::TbCloudRTE.execute"]}
{"id": "C72", "title": "Reading a profile from a reanalysis file", "statement": "Both readers of reanalysis files return the profile of the grid node that is nearest, on the sphere, to the requested point among the nodes whose row and column number agree, lowest level first, with humidity as a fraction and every other variable unchanged; asking for such a node returns its data. Other nodes are never looked at: a file can have a node exactly at the requested point and the data of another node are returned. A file is read exactly if it has as many latitudes as longitudes, one time and all variables, otherwise an exception is raised. With pressures ordered as in the archive the heights increase strictly; for ERA5 they start at zero and obey the hypsometric equation with the virtual temperature of the table, for EUMETSAT files they are those of the standard atmosphere. The units attached to the ERA5 table call the humidity fraction per cent. The area requested from the archive is the square around the point.", "quantifier": "for all files (any grid, levels, values), all requested points, any nearest-neighbour search that breaks ties as it likes", "why_tests_cant": "All grids and points; a test that reads one file at one point cannot tell a search of the whole grid from a search of its diagonal.", "anchors": ["pyrtlib/apiwebservices/erafive.py::ERA5Reanalysis.read_data", "pyrtlib/apiwebservices/erafive.py::ERA5Reanalysis._find_nearest", "pyrtlib/apiwebservices/erafive.py::ERA5Reanalysis.request_data", "pyrtlib/apiwebservices/eps_sandbox.py::EUMETSATProduct.read_data", "pyrtlib/apiwebservices/eps_sandbox.py::EUMETSATProduct.find_nearest"]}
{"id": "C73", "title": "Tables of radiosonde soundings", "statement": "For an archive file in chronological order and a range of dates that contains a sounding, the first table has exactly the levels of the soundings in the range that carry a temperature, a dew-point depression, a wind direction or a wind speed, in file order and each with the time of its sounding; every column holds the archived value in the announced unit (pressure in hPa, temperatures in degrees, seconds, metres per second), entries that are missing or were removed are not a number, dew point is temperature minus depression, and the wind components are those of the archived wind to one decimal. Levels with only pressure, height or relative humidity are left out. The second table has one row per sounding with station, time, number of levels in the file and place. A range without soundings raises ValueError.", "quantifier": "for all archives of well-formed soundings (any number, any levels, any combination of missing entries), all ranges of dates", "why_tests_cant": "All files, all patterns of missing entries and all column widths; a test reads one file.", "anchors": ["pyrtlib/apiwebservices/igra2.py::IGRAUpperAir.request_data", "pyrtlib/apiwebservices/igra2.py::IGRAUpperAir._get_data", "pyrtlib/apiwebservices/igra2.py::IGRAUpperAir._get_fwf_params", "pyrtlib/apiwebservices/igra2.py::IGRAUpperAir._clean_body_df"]}
{"id": "C74", "title": "Reading a sounding of the Wyoming archive", "statement": "The table returned for a listing has, for listings where nothing follows a missing entry of a line, exactly the levels with temperature and dew point, each with its pressure, height, temperature, dew point, relative humidity and mixing ratio, and with the station, number, time, place and elevation that the archive gives (also when the station has no identifier). In general this fails: empty fields are not seen, so the columns hold the first six values present whatever they are, and a level is kept when it has four values of any kind. A level with pressure, height and wind only is returned with the wind direction as temperature and the wind speed as dew point. A listing without a line of six values raises ValueError.", "quantifier": "for all listings of levels with any pattern of missing entries, all numbers that leave a blank between columns, all station data", "why_tests_cant": "All patterns of missing entries; a test with complete levels cannot show the shifted columns.", "anchors": ["pyrtlib/apiwebservices/wyomingupperair.py::WyomingUpperAir._get_data", "pyrtlib/apiwebservices/wyomingupperair.py::WyomingUpperAir.request_data"]}
{"id": "C75", "title": "What is requested from the sounding archives and how replies are taken", "statement": "The request to the Wyoming archive asks for exactly the given year, month, day, hour (as begin and end) and station; requests for different hours or stations have different addresses. The request for raw radiosonde archive files is the address of the archive followed by the file of the station. A status other than 200 is an HTTPError for the Wyoming archive and a ValueError for the other; a Wyoming reply that contains the words for missing data is a ValueError; any other reply is used unchanged. The list of stations has one row per code, in order of first appearance, with the name that appears last.", "quantifier": "for all servers (any reply to any address), all times with four-digit years, all stations, all maps of stations", "why_tests_cant": "All servers, times and stations at once; tests need the network.", "anchors": ["pyrtlib/apiwebservices/webservices.py::HTTPEndPoint", "pyrtlib/apiwebservices/wyomingupperair.py::WyomingUpperAir._get_data_raw", "pyrtlib/apiwebservices/wyomingupperair.py::WyomingUpperAir.get_stations", "pyrtlib/apiwebservices/igra2.py::IGRAUpperAir._get_data_raw"]}
{"id": "C76", "title": "What a plot of weighting functions shows", "statement": "A plot of weighting functions has one curve per frequency, in order, labelled with that frequency. A ground-based plot shows every level at its own height. A satellite plot leaves out the lowest level and shows the weight of each other level at the height of the level below, so that what it shows at a height is the transmittance from there to the top times the absorption coefficient of the next level; the label names the lowest height at which the drawn curve is highest, and the curve is dashed exactly when that height is 0. With `normalized` every satellite curve is divided by the greatest weight of its frequency over all levels and never exceeds 1; it reaches 1 exactly when that weight is attained above the lowest level. Without it the plot should work for any number of frequencies, but it fails with IndexError as soon as there are more frequencies than levels. Plotting without channel averaging leaves the object as it was.", "quantifier": "for all height grids, all tables of weights, all lists of frequencies, all height limits", "why_tests_cant": "Universal over tables and grids; the tests only call the method and look at nothing.", "anchors": ["pyrtlib/weighting_functions.py::WeightingFunctions.plot_wf"]}
{"id": "C77", "title": "Plots of averaged channels", "statement": "With band sizes set, a plot has one curve per channel, whose values are the means of the weights of the frequencies of that channel. Plotting should not change the object; it replaces its frequencies by the channel labels, so that plotting the same weights again draws the same curves with labels computed from the labels of the first plot, which are different in general.", "quantifier": "for all band sizes, weight tables and frequency lists", "why_tests_cant": "Two calls with all channel layouts; tests call the method once.", "anchors": ["pyrtlib/weighting_functions.py::WeightingFunctions.plot_wf", "pyrtlib/weighting_functions.py::WeightingFunctions._mean_channel"]}
{"id": "C78", "title": "The grouped plot", "statement": "In the grouped plot every frequency belongs to the group that its position falls in by the group sizes; its satellite curve is moved right by 0.40 times the number of the group, so that groups do not overlap when all weights lie between 0 and 0.40 per km. Every group carries its own label 0.02 right of the least drawn weight of its last frequency, at a height fixed by the top of the plot. The method raises ValueError for a ground-based object, and IndexError when there are fewer labels than groups or when the group sizes do not cover all frequencies.", "quantifier": "for all group sizes, labels, tables of weights and height grids", "why_tests_cant": "Universal over layouts of groups; the test calls the method with one and looks at nothing.", "anchors": ["pyrtlib/weighting_functions.py::WeightingFunctions.plot_wf_grouped"]}
{"id": "C79", "title": "The pressure axis of the plots", "statement": "Without height limits the pressure axis of both plots runs from the pressure of the profile at height 0 to its pressure at the top of the height grid. With height limits that are grid heights it runs between the pressures of the profile, interpolated, at those heights. A limit that is not a grid height has no pressure, and an empty array is handed to the axis.", "quantifier": "for all rising profiles, grid steps, height limits and plots", "why_tests_cant": "Universal over profiles and limits; tests use limits on the grid only and do not look at the axis.", "anchors": ["pyrtlib/weighting_functions.py::WeightingFunctions.plot_wf", "pyrtlib/weighting_functions.py::WeightingFunctions.plot_wf_grouped"]}
{"id": "C80", "title": "Nitrogen absorption is a closed formula", "statement": "At positive temperature T, N2AbsModel.n2_absorption returns exactly: R98 6.4e-14 (p f)^2 (300/T)^3.55; R03 1.29 and R16, R17, R18, R19, R19SD 1.34 times 6.5e-14 (p f)^2 (300/T)^3.6, R20, R20SD, R21SD, R22, R22SD, R23, R23SD, R24 9.95e-14 (p f)^2 (300/T)^3.22, each of these times a roll-off that falls from 1 to 1/2 with its half-way point at 450 GHz; MWL24 0.84e5 times the absorption in 1/cm by pairs of nitrogen molecules of Serov et al. At 300 K R03 is below R19, and R19 below R24, at every pressure and frequency.", "quantifier": "for all positive temperatures, all pressures, frequencies and accepted model names", "why_tests_cant": "Equality of functions of three real variables for fifteen models; tests compare a few rounded values and cannot see a wrong coefficient of a frequency polynomial away from their frequencies.", "anchors": ["pyrtlib/absorption_model.py::N2AbsModel.n2_absorption", "pyrtlib/absorption_model.py::N2AbsModel.n2_absorption_mwl24"]}
{"id": "C81", "title": "Cloud liquid absorption is a closed formula", "statement": "Whenever LiqAbsModel.liquid_water_absorption returns a number for a positive amount of water, it is 0.18858 f w e2/((e1+2)^2+e2^2), with e1 and e2 the real part and the loss of the dielectric constant of water: two Debye relaxations (Liebe et al. 1991 for R98, MPM93 relaxation frequency for R03), or, for the other nine names, Patek's static constant less Ellison's Debye term plus Rosenkranz's band B written with principal logarithms. At zero frequency dilec12 returns Patek's static constant; from 210 K on it returns a number at every frequency.", "quantifier": "for all temperatures, frequencies and positive liquid contents, all accepted model names", "why_tests_cant": "Equality of complex-valued functions of two real variables including branch choices of logarithms; no sample excludes a wrong branch elsewhere.", "anchors": ["pyrtlib/absorption_model.py::LiqAbsModel.liquid_water_absorption", "pyrtlib/utils.py::dilec12"]}
{"id": "C82", "title": "More opacity warms the sky and darkens the view from space", "statement": "For temperatures that do not increase with height: seen from the ground, an atmosphere whose layers all have at least the opacity of another one has at least its brightness temperature, if the top is not colder than 2.728 K and both total opacities lie on the same side of 125 Np; across 125 Np the radiance can drop by at most the cosmic background times exp(-125). Seen from a satellite above a surface of emissivity 1, it has at most its brightness temperature if the thinner one is below 125 Np. Both conditions matter: over a surface of smaller emissivity an isothermal scene gets strictly warmer with opacity, and a thicker cold layer below warm air makes the sky colder.", "quantifier": "for all numbers of levels, all non-increasing positive temperature profiles, all pairs of non-negative layer opacities ordered layer by layer, all frequencies", "why_tests_cant": "A monotonicity over functions of the height; no finite set of profiles shows it.", "anchors": ["pyrtlib/rt_equation.py::RTEquation.planck", "pyrtlib/rt_equation.py::RTEquation.bright"]}
{"id": "C83", "title": "Lower elevation angles", "statement": "Within one run without ray tracing, for temperatures that do not increase with height and heights in order, the brightness temperature of a ground-based view at a lower elevation (between 0 and 90 degrees) is not below that of a higher one, for every absorption model (total opacity of the lower view below 125 Np, no level colder than 2.728 K). For satellite views over emissivity 1 it is not above it (steeper view below 125 Np). Holds for clear runs of objects without cloud results left and for cloudy runs.", "quantifier": "for all profiles of that kind, all pairs of angles, frequencies, absorption routines and cloud layers", "why_tests_cant": "Relates two angles for all profiles and absorption values; tests compare a few numbers of single runs.", "anchors": ["pyrtlib/tb_spectrum.py::TbCloudRTE.execute", "pyrtlib/rt_equation.py::RTEquation.planck", "pyrtlib/rt_equation.py::RTEquation.exponential_integration"]}
{"id": "C84", "title": "Constants and unit conversions", "statement": "constants() lists exactly the names that can be asked for, without repetition; any other name raises ValueError and every value is positive. The documented names with their units are all present; 'gravity' is the only undocumented one. Every value agrees with the published one of its name within a stated relative deviation (1e-3 for the background temperature, 1e-4 or better otherwise). The neper conversion times ln 10 is 10 within 1e-8, and the gas constant is the product of the Avogadro and Boltzmann constants within 1e-5 but not exactly. kgkg_to_kgm3 returns the density of the moist air (that of dry air for zero humidity, never a converted humidity): the specific humidity times the result is the vapour density of mr2rho within 5e-5, and the result agrees with the gas law for virtual_temperature within 7e-5 of the specific humidity. ppmv_to_moleculesm3 takes the pressure in Pa, is additive and proportional to the mixing ratio, and a million ppmv are all molecules of the air. At temperature 0 neither conversion gives a finite number.", "quantifier": "for all names asked for; for all specific humidities in [0,1), mixing ratios, pressures and temperatures", "why_tests_cant": "Universal over strings and real arguments, and relates three functions to each other; the tests look at single values.", "anchors": ["pyrtlib/utils.py::constants", "pyrtlib/utils.py::kgkg_to_kgm3", "pyrtlib/utils.py::ppmv_to_moleculesm3", "pyrtlib/utils.py::mr2rho", "pyrtlib/utils.py::virtual_temperature"]}
{"id": "C85", "title": "Scaling with frequency and refinement of isothermal layers", "statement": "For given layer opacities and emissivity, radiances seen by a satellite depend only on the ratio of frequency to temperatures: multiplying both by c leaves radiances unchanged and multiplies brightness temperatures by c. Seen from the ground the emission of the atmosphere scales in the same way but the cosmic background does not: for c > 1 the total radiance falls if the opacity is below 125 Np, otherwise it is unchanged. An isothermal layer may be split in two whose opacities add up without changing total, background or mean radiance in either view; for a layer that is not isothermal this fails.", "quantifier": "for all numbers of levels, temperatures, opacities, frequencies, factors c and ways to split a layer", "why_tests_cant": "Relates runs with different level counts and scaled inputs; needs induction over the levels.", "anchors": ["pyrtlib/rt_equation.py::RTEquation.planck", "pyrtlib/rt_equation.py::RTEquation.bright"]}
{"id": "C86", "title": "Dictionaries of water vapour parameters share arrays with the line list", "statement": "The dictionary returned by SpectroscopicParameter.water_parameters (all models of the line file but R98 and MWL24) has the values of the loaded line list and making it changes no absorption. Changing in place its arrays FL, S, B2, n_a, n_w and n_da, n_dw (SR for R03 to R17) changes every later absorption computed without parameters, e.g. multiplying S in place multiplies the line absorption by the same factor, until the line list is loaded again. Widths and shifts (gamma_a, gamma_w, delta_a, delta_w) are copies without this effect. The continuum values and wv_nS are numbers that cannot be changed in place. The arrays of the dictionary survive a later load of the line list.", "quantifier": "for all models, states of memory, in-place changes and arguments of the absorption", "why_tests_cant": "Aliasing: whether a later call in the same process gives other numbers depends on the history of changes, for any array contents.", "anchors": ["pyrtlib/uncertainty/absmod_uncertainty.py::SpectroscopicParameter.water_parameters", "pyrtlib/absorption_model.py::H2OAbsModel.h2o_absorption", "pyrtlib/absorption_model.py::AbsModel.set_ll"]}
{"id": "C87", "title": "The loaded line lists are sensible and each quantity comes from its own column", "statement": "After set_ll every water vapour list has its lines in order of frequency, widths in air between 1 and 3.3 MHz/mbar and four to ten times as large in vapour, temperature exponents between 0.37 and 0.79 (air) and 0 and 1.2 (vapour); the lines at 22 and 183 GHz have, under the attribute named for each quantity and in the unit of the routine, the values recorded by name from the shipped table of that model, to twelve digits (this fixes columns and units; the numbers themselves are not compared with any publication). In the speed-dependent models the speed dependence is below 16 per cent of the width, present at 183 GHz and absent above 200 GHz. The continuum of every list is within ten per cent of that of R98 in its strengths and has its exponents and reference temperature, except that R23SD and R24 have 296 K and a negative number for the self strength, their self continuum being tabulated. Ozone lists are in order of frequency with widths between 1.9 and 2.7 MHz/mbar, strengths between 1.2e-13 and 1.7e-11 and temperature coefficients between 0.02 and 5.1. In the oxygen lists the first line is the one at 118.7503 GHz, lines 1 to 37 (33 in R98, R03) are exactly those between 50 and 70 GHz, all others lie above 230 GHz.", "quantifier": "for every model of the three line files, every line and every attribute", "why_tests_cant": "Exhaustive over all tables, lines and attributes; stored brightness temperatures at a few frequencies need not show a swapped column or exponent.", "anchors": ["pyrtlib/_lineshape/h2oll.py", "pyrtlib/_lineshape/o2ll.py", "pyrtlib/_lineshape/o3ll.py", "pyrtlib/absorption_model.py::AbsModel.set_ll"]}
{"id": "C88", "title": "Model names that stand for the same absorption", "statement": "As water vapour models R23SD and R24 give identical results in all circumstances; R22SD has their line absorption and differs in the continuum only; R17 has the continuum of R16 and its line absorption times 3344/3335. As oxygen models R17 and R18, R19 and R19SD, R20 and R20SD give identical results. In dry air R19 returns as one number what R18 returns as two, unless R18 cut off a negative resonant part.", "quantifier": "for all pressures, temperatures, humidities and frequencies, whatever was loaded before", "why_tests_cant": "Equality of functions of four real arguments, including where they fail; a test can compare them at sample points only.", "anchors": ["pyrtlib/absorption_model.py::H2OAbsModel.h2o_absorption", "pyrtlib/absorption_model.py::O2AbsModel.o2_absorption", "pyrtlib/_lineshape/h2o_lineshape.nc", "pyrtlib/_lineshape/o2_lineshape.nc"]}
{"id": "C89", "title": "Oxygen parameter arrays are those of the loaded line list", "statement": "A dictionary of oxygen parameters should be the user's own. Every array in it is the array of the loaded line list: changing it in place changes all later oxygen absorption computed without parameters, until the line list is loaded again, which restores the shipped table. The entry for all lines and the entry for the neglected lines (O2gamma and O2gamma_NL, O2_V and O2_V_NL, Y300 and Y300_NL) are one array, so changing one changes the other; no other entry changes. The remaining seven entries are numbers and refuse change in place.", "quantifier": "for the seven models with a dictionary, every entry, every new content, every state of the process before", "why_tests_cant": "A test edits O2S in place but looks only at the dictionary afterwards, never at the absorption of a later run; and no test can range over all entries, contents and earlier states.", "anchors": ["pyrtlib/uncertainty/absmod_uncertainty.py::SpectroscopicParameter.oxygen_parameters", "pyrtlib/_lineshape/o2ll.py", "pyrtlib/absorption_model.py::O2AbsModel.o2_absorption"]}
{"id": "C90", "title": "Ozone parameters: what a dictionary does, and for how long", "statement": "The dictionary of ozone parameters of a model has exactly six entries. Passing it back unperturbed has no effect. Multiplying its line strengths multiplies the ozone absorption by the same factor; the shift-to-width ratio has no effect at all. The lines are taken in order until one lies more than 1 GHz above the frequency, so a line moved there hides all later lines, and a first line moved there removes ozone absorption. A dictionary lacking an ozone entry raises KeyError, with earlier entries already in force. Against expectation, the parameters of a call stay in force for later calls without parameters, and every array is the one of the line list, so an edit in place changes later runs; loading the line list again restores the shipped table.", "quantifier": "for every model with an ozone table, every dictionary and content, every state of the process, every temperature, pressure, frequency and ozone density", "why_tests_cant": "The tests run one perturbed profile and edit O3_S1 in place looking only at the dictionary; absence of effects, later calls and unsorted lines need all dictionaries and all histories.", "anchors": ["pyrtlib/uncertainty/absmod_uncertainty.py::SpectroscopicParameter.ozono_parameters", "pyrtlib/_lineshape/o3ll.py", "pyrtlib/absorption_model.py::O3AbsModel.o3_absorption"]}
{"id": "C91", "title": "A temperature error is never amplified", "statement": "With the opacities of the layers given, let two temperature profiles differ by at most d kelvin at every level. Then the brightness temperatures computed from them differ by at most d, for ground and satellite view, any emissivity from 0 to 1, any frequency, and on both sides of the opaque limit. The same holds for the brightness temperature of the atmospheric emission up to every level and for the mean radiating temperature. If the second profile is nowhere more than d warmer, the scene looks at most d warmer. The bound is attained by an isothermal scene over a black surface.", "quantifier": "for every number of levels, every pair of profiles of positive temperatures, all non-negative opacities, every positive frequency, emissivity from 0 to 1, both geometries", "why_tests_cant": "The claim compares any two profiles and rests on a convexity property of the Planck function; finitely many runs cannot show that no profile amplifies an error.", "anchors": ["pyrtlib/rt_equation.py::RTEquation.planck", "pyrtlib/rt_equation.py::RTEquation.bright", "pyrtlib/utils.py::tk2b_mod"]}
{"id": "C92", "title": "Effect of an opacity error on the radiance", "statement": "With the temperatures given, changing the opacities of the layers changes the total radiance by at most the sum of the absolute changes times the range of black-body radiances in the scene (ground view: from the cosmic background to the warmest level; satellite view: from the coldest level times the emissivity to the warmest). Crossing the opaque limit adds at most the background behind 125 Np. As brightness temperature over a black surface or the cosmic background, the change is at most the range of temperatures times the sum of the changes, divided by the relative slope of the Planck function at the lowest temperature, which lies between 0 and 1.", "quantifier": "for every number of levels, every profile, every two sets of non-negative opacities, every positive frequency, emissivity from 0 to 1, both geometries", "why_tests_cant": "A uniform bound over all profiles and all pairs of opacities; tests compare single runs with stored numbers.", "anchors": ["pyrtlib/rt_equation.py::RTEquation.planck", "pyrtlib/rt_equation.py::RTEquation.bright", "pyrtlib/utils.py::tk2b_mod"]}
{"id": "C93", "title": "Layer opacities against the integral of the absorption coefficient", "statement": "Sample a continuous non-negative absorption coefficient at levels and integrate it with the layer integration of the library. The opacity of a layer differs from the true integral over the layer by at most the swing of the coefficient within the layer times its length; the total likewise by the sum. If the coefficient falls with height and no layer is longer than d, the total is within d times the difference of the two end values. When the longest layer goes to zero, the error of the total goes to zero, whatever the levels.", "quantifier": "for every continuous non-negative absorption coefficient on a path of any length, every number and position of levels, both ways of treating zeros", "why_tests_cant": "A limit over all level sets and a bound over all continuous functions; a test evaluates one set of levels.", "anchors": ["pyrtlib/rt_equation.py::RTEquation.exponential_integration"]}
{"id": "C94", "title": "The radiance against the solution of the radiative transfer equation", "statement": "For absorption and temperature given as continuous functions along the path, the total radiance returned for the layers differs from the solution of the radiative transfer equation (an integral over the path, cosmic background or surface behind it) by at most: the swing of the black-body radiance within a layer, times the emissivity of the whole path, plus the range of radiances times the error of the opacities, plus, for paths of 125 Np and more, the background behind 125 Np. The error goes to zero when the layers get thinner, and the brightness temperatures converge: exactly below 125 Np, and otherwise up to a share exp(-125) of the result (looking down: times the ratio of surface radiance to the radiance of the coldest place).", "quantifier": "for every continuous temperature and every finite family of continuous non-negative absorption coefficients on a path of any length, every number and position of levels, every positive frequency, both geometries, emissivity from 0 to 1 (brightness temperatures: above 0), ground view: no colder than the cosmic background", "why_tests_cant": "Compares the layered sum with an integral equation for all atmospheres and all level sets; tests have no continuous reference.", "anchors": ["pyrtlib/rt_equation.py::RTEquation.planck", "pyrtlib/rt_equation.py::RTEquation.bright", "pyrtlib/rt_equation.py::RTEquation.exponential_integration", "pyrtlib/utils.py::tk2b_mod"]}
{"id": "C95", "title": "Simulations converge when levels are added", "statement": "Give pressure, temperature and relative humidity as continuous functions of height, read them off at levels and simulate (clear sky, no refraction, no ozone). With every model without speed-dependent line profile (and R98 oxygen excepted) each such run completes, and there is one brightness temperature, that of the radiative transfer equation with the absorption coefficients of the selected models, such that all simulations with sufficiently thin layers are arbitrarily close to it, up to a share of the order of exp(-125). This holds for every frequency and every elevation angle between the horizons, in both geometries, independent of how the levels are placed.", "quantifier": "for every continuous atmosphere with positive pressure, temperatures bounded away from zero and vapour pressure not above the pressure, every set of levels, every positive frequency, every elevation strictly between 0 and 180 degrees, water models R98, R03, R16-R20, oxygen models R03, R16-R20, R19SD, R20SD, R22, every nitrogen model", "why_tests_cant": "An epsilon-delta statement over all atmospheres and level sets about the whole simulator; tests run fixed profiles.", "anchors": ["pyrtlib/tb_spectrum.py::TbCloudRTE.execute", "pyrtlib/rt_equation.py::RTEquation.planck", "pyrtlib/rt_equation.py::RTEquation.clearsky_absorption", "pyrtlib/rt_equation.py::RTEquation.exponential_integration", "pyrtlib/absorption_model.py::H2OAbsModel.h2o_absorption", "pyrtlib/absorption_model.py::O2AbsModel.o2_absorption", "pyrtlib/absorption_model.py::N2AbsModel.n2_absorption"]}
{"id": "C96", "title": "Clear-sky absorption is the published formula in the units of the documentation", "statement": "The coefficients returned for clear air, in Np/km, are those of closed formulas of temperature, pressure, vapour pressure and frequency: water vapour lines plus continuum as the wet part; oxygen lines, zero-frequency band and nitrogen continuum as the dry part. The unit conversions in between (hPa to kPa and back, dB to Np, inverse temperature) leave no trace, and the value at a level depends on that level only. For the models without speed dependence none of the coefficients is negative (R98 oxygen excepted).", "quantifier": "for every temperature and pressure above zero, every vapour pressure from zero to the pressure, every positive frequency, every profile, every water vapour model except R23SD, R24 and MWL24, every oxygen model except R23 and R24, every nitrogen model", "why_tests_cant": "Tests compare with stored numbers of a few atmospheres; equality with a formula for all temperatures, pressures and frequencies is not testable.", "anchors": ["pyrtlib/rt_equation.py::RTEquation.clearsky_absorption", "pyrtlib/absorption_model.py::H2OAbsModel.h2o_absorption", "pyrtlib/absorption_model.py::O2AbsModel.o2_absorption", "pyrtlib/absorption_model.py::N2AbsModel.n2_absorption"]}
{"id": "C97", "title": "A clear-sky simulation is a closed formula of its inputs", "statement": "The data frame returned for a clear sky without refraction is determined row by row by a formula: opacities are sums over layers of exponential means times slant length; the total brightness temperature inverts the Planck function of attenuated background plus layered emission; the mean radiating temperature is undefined exactly when the opacity vanishes; the atmospheric brightness temperature of a satellite run is 0; liquid and ice columns are 0. Rows come angle by angle, frequencies within. Nothing else enters: no earlier run (unless it left clouds), no other frequency or angle, no process-wide setting besides the three selected models.", "quantifier": "for every number of levels, frequencies and angles strictly between 0 and 180 degrees, every non-decreasing height profile, all positive temperatures and pressures, humidity with vapour pressure not above the pressure, every non-negative emissivity, up- and downwelling; every model of C96 as long as no coefficient is negative", "why_tests_cant": "A refinement statement about the entire pipeline; a test fixes the inputs and has no independent formula to compare with.", "anchors": ["pyrtlib/tb_spectrum.py::TbCloudRTE.execute", "pyrtlib/rt_equation.py::RTEquation.planck", "pyrtlib/rt_equation.py::RTEquation.bright", "pyrtlib/rt_equation.py::RTEquation.vapor", "pyrtlib/rt_equation.py::RTEquation.exponential_integration", "pyrtlib/rt_equation.py::RTEquation.clearsky_absorption"]}
{"id": "C98", "title": "Every simulation is a closed formula of its inputs", "statement": "With any of the shipped absorption models, with or without an ozone profile, clouds and bent rays, the data frame is determined row by row by a formula of the levels: absorption per level as published for the selected model (self continuum by spline, water dimers, oxygen sum rules, Voigt lines of ozone, liquid by dielectric model, ice), layer opacities by exponential means (nothing from a cloud layer whose coefficient vanishes at one end) times the length of the layer along the path, layered emission, attenuated background, inversion of the Planck function; cloud layers enter the wet and dry columns nowhere, only the liquid and ice columns and the total. The mean radiating temperature of the cloud uses the layers between its base and top only.", "quantifier": "for every number of levels, frequencies and angles, all positive temperatures and pressures, humidity with vapour pressure not above the pressure, every shipped combination of models, any ozone and cloud profiles, up- and downwelling, with or without refraction as long as the path lengths are finite and non-negative, and no coefficient negative", "why_tests_cant": "A refinement statement about the entire pipeline with all its branches; tests compare a few runs with numbers produced by the same code.", "anchors": ["pyrtlib/tb_spectrum.py::TbCloudRTE.execute", "pyrtlib/absorption_model.py::H2OAbsModel.h2o_absorption", "pyrtlib/absorption_model.py::O2AbsModel.o2_absorption", "pyrtlib/absorption_model.py::O3AbsModel.o3_absorption", "pyrtlib/absorption_model.py::LiqAbsModel.liquid_water_absorption", "pyrtlib/rt_equation.py::RTEquation.cloudy_absorption", "pyrtlib/rt_equation.py::RTEquation.cloud_radiating_temperature", "pyrtlib/rt_equation.py::RTEquation.ray_tracing"]}
{"id": "C99", "title": "What assigning a model or a line list to a class or an object does", "statement": "Assigning to the model or line-list attribute of an absorption class is seen by that class and by subclasses without an own assignment, and by nobody else; the last assignment counts. Assignments on objects affect only that object and never a simulation. A value that is not a non-empty string (for a line list: not a method) raises ValueError on an object only as long as nothing was assigned to its class; the line-list module the library itself installs is among the refused values. Selecting through the base class, as a docstring shows, has no effect on a subclass that was assigned before.", "quantifier": "for every program of assignments to classes and objects, in any order and number", "why_tests_cant": "The outcome depends on the history of assignments in the whole process; each test starts from one history.", "anchors": ["pyrtlib/absorption_model.py::AbsModel.model", "pyrtlib/absorption_model.py::H2OAbsModel.h2oll", "pyrtlib/absorption_model.py::AbsModel.set_ll", "pyrtlib/tb_spectrum.py::TbCloudRTE.init_absmdl"]}
{"id": "C100", "title": "An endpoint keeps the session options in force when it was created", "statement": "The session of an endpoint has exactly the options of the last set_session_options call before its creation; earlier calls are replaced, not merged, and later ones do not reach it. The user agent of the library is sent unless the options contain headers. Queries go to the base address without one trailing slash; an empty address raises IndexError.", "quantifier": "for every sequence of option calls and endpoint creations, all options and all addresses", "why_tests_cant": "A statement about all interleavings of calls on one shared object.", "anchors": ["pyrtlib/apiwebservices/webservices.py::HTTPSessionManager", "pyrtlib/apiwebservices/webservices.py::HTTPEndPoint"]}
{"id": "C101", "title": "EUMETSAT collections: credentials and search by keyword", "statement": "list_collections returns the collections whose title contains the keyword, in the order of the store, with matching identifiers; without keyword or with an empty one all of them; AttributeError before authentication. Credentials are read from the first two lines of ~/.eumdacrc up to a second colon; a missing line or colon raises IndexError, a missing file leaves the object unauthenticated.", "quantifier": "for every catalogue, keyword and content of the file", "why_tests_cant": "Needs the remote service and credentials; tests cannot enumerate catalogues or files.", "anchors": ["pyrtlib/apiwebservices/eps_sandbox.py::EUMETSATProduct.list_collections", "pyrtlib/apiwebservices/eps_sandbox.py::EUMETSATProduct.authentication"]}
{"id": "C102", "title": "Layer opacities are accurate to second order", "statement": "For an absorption coefficient whose logarithm bends by at most K, the opacity computed from levels no more than d apart differs from the integral of the coefficient by at most a fraction exp(K d^2 / 8) - 1 of it, plus 1e-9 per unit of path. For exponentially varying absorption only the last term remains, whatever the levels.", "quantifier": "for every positive continuous absorption profile with bounded curvature of its logarithm, every number and spacing of levels", "why_tests_cant": "A bound over all profiles and all grids, against an integral that tests cannot evaluate exactly.", "anchors": ["pyrtlib/rt_equation.py::RTEquation.exponential_integration"]}
{"id": "C103", "title": "Simulated radiances are accurate to second order", "statement": "If temperature and the absorption of each constituent are twice continuously differentiable along the path, there is one constant C such that the radiance simulated from any set of levels no more than d apart (d at most one unit of length) differs from the exact solution of the transfer equation by at most C (d^2 + 1e-9), seen from the ground or from a satellite.", "quantifier": "for every smooth temperature and positive smooth absorption profiles of total opacity below 125 Np, every number and spacing of levels, every frequency", "why_tests_cant": "An order of convergence over all profiles and all grids, against an integral that tests cannot evaluate exactly; agreement on a few grids does not give the order.", "anchors": ["pyrtlib/rt_equation.py::RTEquation.planck", "pyrtlib/rt_equation.py::RTEquation.exponential_integration"]}
{"id": "C104", "title": "Opaque air hides what lies behind it", "statement": "Two atmospheres that agree, counted from the observer, up to some level differ in the received radiance by at most the transmittance up to that level times the radiance of the warmest air, whatever lies behind (other temperatures, opacities, number of levels, surface, emissivity). If the layer next to the observer is opaque enough, the brightness temperature is as close as desired to the air temperature on the observer's side of that layer, not the far side.", "quantifier": "for every frequency, all positive temperatures and non-negative opacities, every number of levels, seen from the ground or from a satellite", "why_tests_cant": "Relates pairs of atmospheres that differ in an arbitrary way behind a level; a wrong choice of layer side is invisible to reciprocity and to the convergence order and shows only for layers of large opacity.", "anchors": ["pyrtlib/rt_equation.py::RTEquation.planck"]}
{"id": "C105", "title": "Weighting functions weigh what the simulator computes", "statement": "For a ground-based instrument the weighting functions are transmittance times absorption in closed form; integrated along the path by the trapezoidal rule they give the absorbed fraction 1 - exp(-opacity), and applied to the black-body radiances of the levels they give the brightness temperature of the atmosphere that the simulator reports for the same inputs, up to a sum over the layers of products of two small quantities (the steps of absorption and radiance across the layer, its opacity, and the squared logarithmic step of the absorption). For a satellite every weight above the surface is too small by the transmittance of the layer below its level, so that all integrals fall short, by up to the opacity of the thickest layer, and the bound is violated.", "quantifier": "for every clear atmosphere on the internal grid with any usable models, every list of frequencies, any viewing path, both geometries", "why_tests_cant": "The weights, the opacities and the brightness temperature come from different routines; their agreement is a statement about sums over arbitrarily many layers with an error bound, which no stored number can express.", "anchors": ["pyrtlib/weighting_functions.py::WeightingFunctions.generate_wf", "pyrtlib/rt_equation.py::RTEquation.exponential_integration", "pyrtlib/rt_equation.py::RTEquation.planck"]}
{"id": "C106", "title": "The listed absorption models are those that run", "statement": "The names returned by AbsModel.implemented_models() for water vapour and oxygen are exactly those with which a simulation of sensible input can complete: every combination of a listed water vapour model, a listed oxygen model, a nitrogen name from either list and a listed and loaded ozone model completes, and a water vapour or oxygen name that is not listed ends every run in AbsModelError. A single name given to init_absmdl works if and only if it is in the lists of both gases (several listed names are not). Weighting functions replace the oxygen model by the last one listed (R24) and leave it selected, so they work for exactly the names listed for water vapour. The list printed in the documentation lacks six of the names.", "quantifier": "for all strings as model names, all sensible atmospheres, any state left behind by earlier calls", "why_tests_cant": "The claim is about all names and all inputs, and about routines, line tables and the listing agreeing with each other; a test runs a few names on one profile.", "anchors": ["pyrtlib/absorption_model.py::AbsModel.implemented_models", "pyrtlib/absorption_model.py::O3AbsModel.set_ll", "pyrtlib/weighting_functions.py::WeightingFunctions._perform_calculation"]}
{"id": "C107", "title": "Settings of weighting functions", "statement": "The geometry of a WeightingFunctions object accepts the two Python booleans only, the frequencies an array only; anything else (numpy booleans, integers, lists) raises ValueError and changes nothing. After any sequence of assignments the last accepted ones are in force and the rest is as constructed (model R24, elevation 90, emissivity 1, satellite). Asking for weighting functions before frequencies were accepted raises TypeError and leaves the process as it was.", "quantifier": "for every Python value of the modelled kinds and every finite sequence of assignments", "why_tests_cant": "Sequences of accepted and refused assignments are unbounded in number and length; tests try single values.", "anchors": ["pyrtlib/weighting_functions.py::WeightingFunctions.satellite", "pyrtlib/weighting_functions.py::WeightingFunctions.frequencies", "pyrtlib/weighting_functions.py::WeightingFunctions.generate_wf"]}
{"id": "C108", "title": "Slant rays through a refracting atmosphere", "statement": "With ray tracing, a ray that leaves the antenna at an elevation between 0 and 89 degrees through an atmosphere that does not trap it has a finite path length in every layer, at least the thickness of the layer and 0 at the antenna. The length is that of an arc between two spheres around the centre of the Earth, whose ends have elevations and bending angles such that the bending of a layer is its change of the refractive index times the mean cotangent of the elevation over the mean index. The elevations follow Snell's law for spherical shells: they are never below the initial one, never reach the vertical, and are at most those of Snell's law and at least slightly less (by the square root of the ratio of radii on the sine of a quarter of the change) as long as they stay below about twice the initial one; beyond that the code switches to a formula whose 1 - cos is too large by the ratio of radii. A simulation over up to 100 km with refractivities up to 5000 that fall by less than 157 per km, at elevations between 0.1 and 89 degrees, therefore never fails for lack of a path.", "quantifier": "for all numbers of levels, heights, refractive indices of at least 1 and elevations under the stated conditions", "why_tests_cant": "All profiles and angles; a test compares a few lengths with earlier output of the same code.", "anchors": ["pyrtlib/rt_equation.py::RTEquation.ray_tracing", "pyrtlib/rt_equation.py::RTEquation.refractivity", "pyrtlib/tb_spectrum.py::TbCloudRTE.execute"]}
{"id": "C109", "title": "Rays that are trapped by the atmosphere", "statement": "A simulation with ray tracing should not return values for a direction in which no ray crosses the atmosphere. It does: the ray is given up exactly at the first level that it cannot reach by Snell's law (refractive index times radius at most their product at the antenna times the cosine of the elevation); apart from a warning nothing fails, all layers from that level on count as having no length, and the returned table is exactly that of the atmosphere without that level and everything above it. If the ray is trapped in the lowest layer the sky seen from the ground is reported as cold as space (2.728 K, no opacity), whatever the air. Rays that reach every level are followed through every layer.", "quantifier": "for all atmospheres with refractive indices of at least 1, all elevations other than within a degree of the vertical, all numbers of levels, frequencies and angles, all models of the gases", "why_tests_cant": "Over all profiles; ducts occur only in special profiles near the horizon, which the test data does not contain.", "anchors": ["pyrtlib/rt_equation.py::RTEquation.ray_tracing", "pyrtlib/tb_spectrum.py::TbCloudRTE.execute"]}
{"id": "C110", "title": "The refractive index of air", "statement": "The refractivities of dry air and of water vapour returned for given pressure, temperature and vapour pressure are those of Thayer's equations with compressibility, and the refractive index is 1 plus their sum in units of a millionth. Neither is negative, so the index is at least 1 (above 1 where there is air) and ray tracing is never refused for an atmosphere with pressures up to 1100 hPa, temperatures from 180 to 400 K and vapour pressures up to the total pressure and 100 hPa. In that range denser, moister and colder air refracts more. A simulation with ray tracing then always has a path within a degree of the zenith, and at elevations from 0.1 to 89 degrees whenever there is no duct.", "quantifier": "for all pressures, temperatures and vapour pressures in the stated ranges, all profiles and angles", "why_tests_cant": "Signs and monotonicity over three continuous variables; tests compare the index of one profile.", "anchors": ["pyrtlib/rt_equation.py::RTEquation.refractivity", "pyrtlib/rt_equation.py::RTEquation.ray_tracing"]}
{"id": "C111", "title": "The shipped covariances of spectroscopic parameters", "statement": "Propagating a shipped covariance matrix through a Jacobian, as in the tutorial, gives for each frequency the root of the variance of the linearised brightness temperature; a Jacobian without exactly one column per parameter raises ValueError, and the columns of the tutorial are the documented parameters in order. The variance is the sum of the contributions of the first 105 (oxygen) parameters and of the others. The others give a number whatever the Jacobian, positive unless all derivatives are zero. The oxygen part should do the same but does not: all three matrices are indefinite. A Jacobian with three non-zero entries yields nan; the variance can be below minus 40 per cent of what it would be without correlations, never below minus 41 per cent. Within the mixing parameters the defect is at the level of single precision. The matrices are not symmetric, by up to 5.9e-11.", "quantifier": "for all three matrices and all Jacobians (any real entries, any number of frequencies)", "why_tests_cant": "Non-negativity for all Jacobians is a statement on the whole matrix; the tests compare sub-blocks of two of the matrices.", "anchors": ["pyrtlib/uncertainty/covariance_matrix/__init__.py:R17_111,R17_112,R19", "docs/script_examples/uncertainty_tutorial.py"]}
{"id": "C112", "title": "A model that absorbs more", "statement": "Two runs on the same profile and clouds, one reporting at every level at least the absorption of the other (both positive): no reported opacity of water vapour or dry air is lower by more than 1e-9 Np/km times the path, and none is lower at all unless a layer passes the near-equality threshold of the integration. In air that does not get warmer with height the brightness temperature from the ground is then not lower, and from a satellite over a black surface not higher. The exceptions exist: raising one value across the threshold can lose more than half of a layer, and replacing an absorption of exactly zero by a small positive value lowers the layer.", "quantifier": "for all pairs of absorption models or parameters, profiles, clouds, frequencies and elevations with a finite path (total opacity below 125 for the brightness temperatures)", "why_tests_cant": "A comparison of two runs for all inputs; the exceptions sit at a threshold that no test profile hits.", "anchors": ["pyrtlib/rt_equation.py::RTEquation.exponential_integration", "pyrtlib/rt_equation.py::RTEquation.planck", "pyrtlib/tb_spectrum.py::TbCloudRTE.execute"]}
{"id": "C113", "title": "Which way a spectroscopic parameter moves the absorption of water vapour", "statement": "A run with a dictionary of water vapour parameters computes the formula of the model with the values of the dictionary (widths and shifts converted from MHz to GHz), whatever the values. So stronger lines never lower the line absorption, raise it within 750 GHz of a strengthened line, and leave the continuum; the continuum coefficients change the continuum linearly and nothing else; a larger width in air lowers the absorption at the centre of the line and does not lower it two half-widths away or more. In R23SD and R24, however, any positive coefficient of the self-continuum removes the self-continuum altogether, whatever its value, and lowers the absorption.", "quantifier": "for all dictionaries with positive widths and line centres, all moist air and frequencies; all models without speed dependence (strengths), R98, R18, R19, R20 (widths), R16 to R22SD (continuum), 34-2500 K and below 1199 GHz (the switch)", "why_tests_cant": "The tests compare brightness temperatures for a perturbed width (one profile) with stored numbers; the direction for all values is not checked, and the switch in R23SD and R24 is never reached.", "anchors": ["pyrtlib/absorption_model.py:H2OAbsModel.h2o_absorption", "pyrtlib/uncertainty/absmod_uncertainty.py:SpectroscopicParameter.water_parameters"]}
{"id": "C114", "title": "More humid air absorbs more", "statement": "Raising the relative humidity at constant pressure and temperature raises the absorption by water vapour reported at each level where it was raised, at every frequency, although more vapour also broadens and shifts the lines; and it does not lower the reported opacity of water vapour by more than 1e-9 Np/km times the path, nor at all if no layer changes between nearly equal and different values at its ends.", "quantifier": "for all seven models without speed dependence (R98, R03, R16, R17, R18, R19, R20), all frequencies, 200-330 K, pressures up to 1100 hPa, vapour up to a tenth of the pressure, all profiles, angles above the horizon without ray tracing", "why_tests_cant": "The tests run a handful of profiles at their own humidity and compare with stored numbers; a decrease at some frequency (line centres, the cut-off 750 GHz from a line) for some change of humidity would go unnoticed.", "anchors": ["pyrtlib/absorption_model.py:H2OAbsModel.h2o_absorption", "pyrtlib/rt_equation.py:RTEquation.clearsky_absorption", "pyrtlib/tb_spectrum.py:TbCloudRTE.execute"]}
{"id": "C115", "title": "Moist air absorbs with every water vapour model", "statement": "Wherever there is vapour in the air, every shipped water vapour model, the speed-dependent ones included, returns finite values: the line absorption is not negative and the continuum is positive. So the absorption by water vapour reported for each level is positive, and so are the opacity of each layer and the total opacity of water vapour (with ray tracing: along rays that no duct traps, between 0.1 and 89 degrees).", "quantifier": "for all fourteen water vapour models, all frequencies (R23SD and R24: below 1199 GHz), 200-330 K, total pressure up to 1100 hPa, vapour pressure above 0 and up to 500 hPa, all profiles with increasing heights, all angles above the horizon", "why_tests_cant": "Near a line centre the speed-dependent profile is a rational function of a complex square root minus a constant, and one continuum contains a difference of two equilibrium constants; nothing in the code keeps these positive. Tests compare a few frequencies and profiles with stored numbers.", "anchors": ["pyrtlib/absorption_model.py:H2OAbsModel.h2o_absorption", "pyrtlib/absorption_model.py:H2OAbsModel.h2o_continuum_mwl24", "pyrtlib/utils.py:_dcerror", "pyrtlib/rt_equation.py:RTEquation.clearsky_absorption", "pyrtlib/tb_spectrum.py:TbCloudRTE.execute"]}
{"id": "C116", "title": "What a cloud changes", "statement": "Adding a cloud to a run changes nothing that is reported about the gases; the opacity of each layer grows by the opacities reported for liquid and ice, which are not negative. So in air that does not get warmer with height a cloud cannot lower the brightness temperature seen from the ground, nor raise that seen from a satellite over a black surface. Liquid on two neighbouring levels makes the layer between them more opaque, with every liquid water model. Liquid or ice on isolated levels only has no effect at all: brightness temperatures are exactly those of the clear run and the reported cloud opacity is zero, however much water there is.", "quantifier": "for all profiles, clouds, absorption routines, frequencies and elevations with a finite path (total opacity below 125 for the brightness temperatures; 210-396 K for the strict increase; isolated levels: absorption of at least 1e-9 Np/km, 1 GHz and above)", "why_tests_cant": "A relation between two runs for all inputs; the tests run one cloudy profile and compare with stored numbers.", "anchors": ["pyrtlib/tb_spectrum.py::TbCloudRTE.execute", "pyrtlib/rt_equation.py::RTEquation.cloudy_absorption", "pyrtlib/rt_equation.py::RTEquation.exponential_integration", "pyrtlib/rt_equation.py::RTEquation.planck"]}
{"id": "C117", "title": "What an ozone profile changes", "statement": "Giving a simulator another ozone profile, or one at all, leaves everything reported about water vapour as it is and changes the reported absorption of dry air at each level by an amount proportional to the change of density there; with the ozone models of the library the factor is positive within 1 GHz of an ozone line and zero elsewhere. So at frequencies more than 1 GHz from every line ozone changes nothing at all in the results, and near a line more ozone does not lower the opacity of dry air (but for the near-equality threshold of the integration), nor, in air that does not get warmer with height, the brightness temperature from the ground, nor raise that from a satellite over a black surface.", "quantifier": "for all profiles, clouds, models of the other gases, frequencies, elevations with a finite path, and all pairs of ozone profiles; ozone models R18, R22 (pressures of at least 1e-4 hPa, up to 400 K) and R23", "why_tests_cant": "A relation between two runs for all profiles; the tests compare a few runs with ozone with stored numbers.", "anchors": ["pyrtlib/absorption_model.py:O3AbsModel.o3_absorption", "pyrtlib/rt_equation.py::RTEquation.clearsky_absorption", "pyrtlib/tb_spectrum.py::TbCloudRTE.execute", "pyrtlib/tb_spectrum.py::TbCloudRTE.__init__"]}
{"id": "C118", "title": "What rounding does to a brightness temperature", "statement": "The total radiance and the brightness temperature that the library computes in floating point from given temperatures and layer opacities differ from the exact value of the formulas by a known amount: with every operation, exponential, logarithm and constant accurate to 2^-52, up to 101 levels give an error below 2e-8 K and up to 1001 levels below 5e-7 K, for brightness temperatures of at least 0.048 K per GHz, whether or not the accumulated opacity falls on the same side of the cut-off of 125. Converting a temperature to radiance and back returns it to 18 (1+x)^2/x units of roundoff, x = h nu / k T. So, in double precision, an isothermal scene over a black surface shows its temperature to 2e-8 K and no brightness temperature exceeds the warmest temperature of its scene by more than 5e-7 K.", "quantifier": "for every arithmetic with that accuracy (no overflow or underflow), all temperature profiles between 2.7 and 350 K, all non-negative layer opacities, emissivities in [0,1], 1-1000 GHz, both viewing directions; general bounds in terms of the roundoff for other ranges", "why_tests_cant": "The tests compare a few runs with stored results to a tolerance; how large the accumulated error of sums, differences 1-exp(-tau) and exp(x)-1 can get over all profiles cannot be seen from runs in the same arithmetic.", "anchors": ["pyrtlib/utils.py::tk2b_mod", "pyrtlib/rt_equation.py::RTEquation.planck", "pyrtlib/rt_equation.py::RTEquation.bright", "pyrtlib/tb_spectrum.py::TbCloudRTE.execute"]}
{"id": "C119", "title": "What rounding does to layer opacities", "statement": "The integration over layers is much less accurate than the arithmetic it runs in. Two neighbouring values that differ by more than 1e-9 Np/km go through a quotient with the logarithm of their ratio, so in double precision a layer opacity has a relative error of up to about 3e-7 times the largest absorption in Np/km; values 1 and 1+2e-9 and a quotient wrong by one unit in the last place give an error of 1e-7. If a difference lies within rounding of the threshold 1e-9 the other branch can be taken, which costs at most another 1.1e-9 Np/km per constituent. From these follow bounds for the reported opacities and, with the errors of the radiance code, for the brightness temperature computed from given absorption profiles and path lengths: a sharper bound for a satellite over a black surface, and one for both viewing directions and every emissivity as long as the brightness temperature exceeds h nu / k by the error. This covers the temperature that any run reports, clear or cloudy, along straight or refracted paths. Negative values stop the rounded program exactly where they stop the exact one.", "quantifier": "for every arithmetic with relative error at most u <= 1e-15 per operation (no overflow or underflow), all non-negative absorption profiles up to X with X u <= 1e-12, all non-negative path lengths; brightness temperatures: double precision, 1-1000 GHz, up to 1001 levels, at least 0.048 K per GHz and 2.7 K up to 350 K, opacity up to 124", "why_tests_cant": "The loss appears only for neighbouring values that nearly agree, and the tests compare in the same arithmetic with a tolerance; a bound over all profiles cannot be observed.", "anchors": ["pyrtlib/rt_equation.py::RTEquation.exponential_integration", "pyrtlib/rt_equation.py::RTEquation.planck", "pyrtlib/rt_equation.py::RTEquation.bright", "pyrtlib/tb_spectrum.py::TbCloudRTE.execute"]}
{"id": "C120", "title": "What rounding does to slant paths", "statement": "Without ray tracing the length of a path through a layer is right up to ten units of roundoff for elevations up to 90 degrees: subtraction of heights, value of pi, sine and quotient together lose no more. With the errors of the layer integration and of the radiance code this bounds the difference between the brightness temperature of a clear run in real arithmetic and what double precision makes of the same heights, angle, temperatures and absorption. The bound cannot extend to the opposite horizon: for 180 degrees there is no finite path in real arithmetic, while a value of pi that is slightly too small gives a finite path of more than 5e15 times the layer thickness.", "quantifier": "for every arithmetic with relative error at most u <= 1e-15 per operation, sine and value of pi (no overflow or underflow), all heights, all elevations above 0 up to 90 degrees; opacities: non-decreasing heights, non-negative absorption up to X with X u <= 1e-12; brightness temperatures: double precision, 1-1000 GHz, up to 1001 levels, 2.728 to 350 K, path up to 1e6 km, opacity up to 124, either viewing direction, emissivity between 0 and 1, brightness temperature above h nu / k plus the error", "why_tests_cant": "The tests compare values computed in the same arithmetic, at a few angles; an error bound over all angles and profiles cannot be observed.", "anchors": ["pyrtlib/tb_spectrum.py::TbCloudRTE.execute", "pyrtlib/rt_equation.py::RTEquation.exponential_integration", "pyrtlib/rt_equation.py::RTEquation.planck"]}
{"id": "C121", "title": "What a view depends on", "statement": "In two clear runs from the same process state the absorption stored for a level depends on pressure, temperature, humidity and ozone of that level alone, and the opacity of a layer on its two levels and its thickness alone: not on the number of levels, their position in the arrays, the height of the station or anything in other layers. Hence the brightness temperature seen from the ground depends on the air above level c, and the one seen from a satellite on the air below the c+1 highest levels and on the surface and its emissivity, by no more than M/0.9 times the transmittance of the shared air (M: highest temperature). Cutting a profile at a height, extending it upwards or moving the surface below opaque air changes results by no more than that.", "quantifier": "for every pair of successful clear plane-parallel runs from the same process state, with any absorption routines that store non-negative values, any two frequencies and angles (0 to 180 degrees) that coincide, any numbers of levels; radiances: non-decreasing heights, positive temperatures up to M (at least 2.728 K from the ground), positive frequency, emissivities between 0 and 1, brightness temperature of one run above h nu / k plus the bound", "why_tests_cant": "Each test runs one complete profile; that nothing outside a layer enters its opacity, for all profiles, cannot be seen from stored values.", "anchors": ["pyrtlib/tb_spectrum.py::TbCloudRTE.execute", "pyrtlib/rt_equation.py::RTEquation.clearsky_absorption", "pyrtlib/rt_equation.py::RTEquation.exponential_integration", "pyrtlib/rt_equation.py::RTEquation.planck"]}
{"id": "C122", "title": "Added opacity is visible", "statement": "Where temperature does not rise with height and the opacity stays below the limit of 125, more opacity in any layer strictly raises the brightness temperature seen from the ground, and nothing but added opacity does. Seen from a satellite over a black surface it strictly lowers the brightness temperature if and only if some of it lies in a layer whose upper level is colder than the surface; otherwise the result is exactly the same. In particular a cloud changes a result if and only if one of its layer opacities is positive (from space: in such a layer), and liquid water on two neighbouring levels always changes it with the liquid water models of the library. An absorption model that gives more vapour or dry-air absorption on both levels of a layer, or more ozone on both, likewise changes the result.", "quantifier": "for every temperature profile not rising with height (from the ground: warmer than 2.728 K at the top), every positive frequency and all pairs of non-negative layer opacities of which one is nowhere smaller; runs: every pair of successful runs that differ by a cloud, any absorption routines, straight or bent paths; shipped liquid models: plane-parallel views, 210 to 396 K where there is liquid; absorption models and ozone: as C112 and C117, with a layer of positive path length", "why_tests_cant": "Tests compare a few cloudy profiles with stored values; that no added opacity is ever lost, and where it is necessarily lost, are statements over all profiles.", "anchors": ["pyrtlib/rt_equation.py::RTEquation.planck", "pyrtlib/rt_equation.py::RTEquation.bright", "pyrtlib/rt_equation.py::RTEquation.cloudy_absorption", "pyrtlib/tb_spectrum.py::TbCloudRTE.execute"]}
{"id": "C123", "title": "Heights enter as layer thicknesses", "statement": "Without ray tracing, moving the origin of the heights changes nothing in the results. Multiplying all heights by a factor leaves every absorption coefficient as it is and multiplies the opacity of every layer, and each total opacity, of water vapour, dry air, liquid and ice by that factor. Where temperature does not rise with height, a factor above one raises the brightness temperature from the ground if there is any opacity, and lowers the one from a satellite over a black surface if and only if a layer with opacity has an upper level colder than the surface. Heights given in metres instead of kilometres therefore give a thousand times the opacity.", "quantifier": "for every pair of successful plane-parallel runs that differ in the heights by an affine map, any absorption routines, clear or cloudy with the same cloud levels, every angle that is not along the horizon; brightness temperatures: angles between 0 and 180 degrees, non-decreasing heights, opacity below 125 after the multiplication", "why_tests_cant": "A test fixes the heights of one profile; this is a relation between pairs of runs, over all profiles and factors.", "anchors": ["pyrtlib/tb_spectrum.py::TbCloudRTE.execute", "pyrtlib/rt_equation.py::RTEquation.exponential_integration", "pyrtlib/rt_equation.py::RTEquation.planck"]}
{"id": "C124", "title": "Brightness temperatures are accurate to second order", "statement": "If temperature and the absorption coefficients of the selected models are twice continuously differentiable functions of height and absorption is positive, there are a constant and a largest distance of levels such that every clear simulation on levels that are nowhere farther apart than a distance d below it returns, for that frequency and elevation, the brightness temperature of the radiative transfer equation within the constant times (d squared plus 1e-9). Halving the distances divides the error by four, whatever the levels, until the floor set by the branch for nearly equal absorption is reached. On such levels the simulated opacity stays below the limit of 125 by itself. With the shipped water vapour, oxygen and nitrogen models without speed-dependent profiles, twice continuously differentiable pressure, temperature and (positive) humidity are enough, as long as the frequency is nowhere exactly 750 GHz from the shifted centre of a line and the oxygen model gives a positive value.", "quantifier": "for every atmosphere with such profiles, any absorption routines, every positive frequency, every elevation between 0 and 180 degrees, from the ground (nowhere colder than 2.728 K) or from a satellite over any emissivity above 0 up to 1, all sets of levels, slant opacity below 125 less 2e-9 per kilometre of path", "why_tests_cant": "An order of convergence is a statement about all refinements of all profiles; tests run fixed levels.", "anchors": ["pyrtlib/tb_spectrum.py::TbCloudRTE.execute", "pyrtlib/rt_equation.py::RTEquation.planck", "pyrtlib/rt_equation.py::RTEquation.bright", "pyrtlib/rt_equation.py::RTEquation.exponential_integration"]}
{"id": "C125", "title": "Opacity and emissivity can be read back from a result table", "statement": "The columns of each row of the result table belong together. From the ground, the sum of the four opacity columns is log((B(tmr) - B(2.728)) / (B(tmr) - B(tbtotal))), B being Planck's law at the frequency of the row; brightness temperature and mean radiating temperature are then ordered 2.728 < tbtotal < tmr. Hence in plane-parallel geometry the opacities computed from the temperatures at any two elevations agree exactly after multiplication by the sine of the elevation: simulated tipping curves are straight lines through the origin. From a satellite the emissivity is recovered exactly from tbtotal, tmr, the opacities and the temperature of the lowest level. From 125 Np on tmr equals tbtotal and neither can be recovered.", "quantifier": "for every row of every successful run with any absorption routines, clear (no cloud output left on the object) or cloudy, any path with non-negative increments (ray traced or not), positive frequency, total opacity between 0 and 125; ground: all levels warmer than 2.728 K; satellite: positive temperatures, any non-negative emissivity", "why_tests_cant": "The tests compare single columns of a few rows with stored numbers; that the columns determine each other, in every run, cannot be seen from them.", "anchors": ["pyrtlib/tb_spectrum.py::TbCloudRTE.execute", "pyrtlib/rt_equation.py::RTEquation.planck", "pyrtlib/rt_equation.py::RTEquation.bright", "pyrtlib/rt_equation.py::RTEquation.exponential_integration"]}
{"id": "C126", "title": "How far brightness temperatures mix linearly", "statement": "The rule of thumb Tb = 2.728 e^(-tau) + tmr (1 - e^(-tau)), applied to the columns of a result row from the ground, never gives too high a brightness temperature and is too low by at most e^(-tau) h f / (2 k): 0.024 K per GHz, less with opacity. The opacity computed from temperatures instead of radiances, log((tmr - 2.728) / (tmr - tbtotal)), is never too small and too large by at most -log(1 - h f / (2 k (tmr - 2.728))), whatever the opacity. From a satellite, emissivity times surface temperature in place of 2.728: never too high, too low by at most (1 - emissivity) e^(-tau) h f / (2 k) + (h f / k)^2 / (12 m), m being the lowest temperature of the profile; over a black surface this is below 0.04 K up to 200 GHz and 200 K.", "quantifier": "for every row of every successful run with any absorption routines, clear (no cloud output left on the object) or cloudy, any path with non-negative increments, positive frequency, opacity between 0 and 125; ground: all levels warmer than 2.728 K; satellite: positive temperatures, emissivity between 0 and 1", "why_tests_cant": "The tests never compare columns with each other; a sign and a bound of an approximation error over all profiles and frequencies cannot be observed.", "anchors": ["pyrtlib/tb_spectrum.py::TbCloudRTE.execute", "pyrtlib/rt_equation.py::RTEquation.planck", "pyrtlib/rt_equation.py::RTEquation.bright"]}
{"id": "C127", "title": "Mean radiating temperature and elevation", "statement": "Where temperature does not rise with height, the mean radiating temperature (column tmr) seen from the ground is at a lower elevation never lower than at a higher one; seen from a satellite never higher. A slant view weights the air near the observer more heavily, so correcting a tip curve with the zenith value is an error of known sign. More generally the same holds when all layer opacities are multiplied by one factor of at least 1.", "quantifier": "for every pair of rows of one frequency of every successful plane-parallel run with any absorption routines, clear (no cloud output left on the object) or cloudy, elevations 0 < a <= a' <= 90, heights not decreasing, positive temperatures not rising with height, positive frequency, opacity of the higher view above 0 and of the lower view below 125", "why_tests_cant": "The tests check tmr against stored numbers only; an inequality between two views over all cooling profiles cannot be observed.", "anchors": ["pyrtlib/tb_spectrum.py::TbCloudRTE.execute", "pyrtlib/rt_equation.py::RTEquation.planck", "pyrtlib/rt_equation.py::RTEquation.bright", "pyrtlib/rt_equation.py::RTEquation.exponential_integration"]}
{"id": "C128", "title": "What the side of the observer and the surface change", "statement": "Switching a simulator between ground and satellite, or giving it another emissivity, leaves all stored absorption and opacity columns as they are. From the ground the emissivity changes nothing at all: the whole table is the same. From a satellite it leaves the mean radiating temperature alone, and the radiances of two emissivities differ by (e' - e) B(T0) exp(-tau), T0 being the lowest level: two runs give the transmittance of the air. Where temperature does not rise with height, the mean radiating temperature seen from the satellite is never higher than the one seen from the ground.", "quantifier": "for every pair of successful runs, from the same process state, of one object that differ in satellite and emissivity only, with any absorption routines and any geometry; opacities and ground tables without further hypotheses (clear or cloudy, plane-parallel or ray-traced, fresh or used objects); temperatures: path increments not negative, clear (no cloud output left on the object) or cloudy, positive frequency and temperatures, opacity between 0 and 125, emissivities not negative", "why_tests_cant": "Every test runs one configuration; that a setting has no influence on a result, for all inputs, cannot be observed.", "anchors": ["pyrtlib/tb_spectrum.py::TbCloudRTE.execute", "pyrtlib/tb_spectrum.py::TbCloudRTE.emissivity", "pyrtlib/rt_equation.py::RTEquation.planck", "pyrtlib/rt_equation.py::RTEquation.bright"]}
{"id": "C129", "title": "Requests to the radiosonde archive by period", "statement": "IGRAUpperAir.request_data(time, site) returns the soundings of the station's file whose time lies between the two times, both included, in the order of the file; one time stands for the period from it to itself. Requests for adjoining periods with no sounding in between, put one after the other, give exactly the two tables of the whole period; with a common end every sounding at that time appears twice as often as in the file and every other one as often. The full file and the file of recent years give the same tables where they hold the same soundings. ValueError is raised if the server has no such file, if and only if no sounding lies in the period (in particular if it ends before it begins), and if a list without exactly two times is given. With derived=True every request fails, since no file of the archive has the name that is asked for.", "quantifier": "for every server, station (derived: 11 characters), and file of any number of well-formed raw soundings in chronological order, all periods", "why_tests_cant": "The tests make single requests over the network; completeness and absence of duplicates over all files and periods cannot be observed.", "anchors": ["pyrtlib/apiwebservices/igra2.py::IGRAUpperAir.request_data", "pyrtlib/apiwebservices/igra2.py::IGRAUpperAir._get_data_raw"]}
{"id": "C130", "title": "Files downloaded from the reanalysis archive", "statement": "ERA5Reanalysis.request_data(path, time, lonlat) writes one file and changes no other; within a folder two downloads have the same file name if and only if their times are the same, down to the microsecond. After any sequence of downloads the file of a time holds the answer to the last successful one for that time: with different times every file is kept, but a download for another place at the same time replaces the first one, and both calls return the same name. Two times within one hour give two files of the same content, since only the hour is requested. If the archive counts nodes from the corner of the requested area, every downloaded file can be read by read_data, for every place, resolution and offset, and the table has the 37 pressures from 1000 down to 1 hPa; if it returns the nodes of a fixed quarter-degree grid, the default request at longitude 0.1, latitude 0 gives a file for which read_data raises ValueError. EUMETSATProduct.request_data downloads nothing: the file it names does not exist unless ERA5Reanalysis wrote it.", "quantifier": "for every archive (any answers or refusals), every initial content of the file system, all lists of downloads, all valid times without zone, places, resolutions and offsets", "why_tests_cant": "The downloads need an account and a network; the tests contain none. What remains of earlier files after any sequence of downloads is a statement about all sequences.", "anchors": ["pyrtlib/apiwebservices/erafive.py::ERA5Reanalysis.request_data", "pyrtlib/apiwebservices/erafive.py::ERA5Reanalysis.read_data", "pyrtlib/apiwebservices/eps_sandbox.py::EUMETSATProduct.request_data"]}
{"id": "C131", "title": "Response to the temperature of a level", "statement": "For fixed layer opacities the radiance is a sum over levels of a share of the view times the black-body radiance of the level, plus the attenuated cosmic background from the ground. The shares depend on opacities only, are not negative and add up to 1 - exp(-tau) from the ground and 1 - (1-e) exp(-tau) from a satellite. The brightness temperature is differentiable in the temperatures; its derivative with respect to a level is share times the slope of Planck's law at the level over the slope at the brightness temperature, and if all temperatures change at given rates it changes at the sum of rates times these responses. Responses are not negative and add up to at most one: a Jacobian computed by perturbing temperatures must satisfy this. A level colder than the brightness temperature responds with at most its share, a warmer one with at least its share.", "quantifier": "for every number of levels, all positive temperatures, non-negative layer opacities with total below 125, every positive frequency, both viewing directions, emissivities above 0 up to 1, any differentiable change of the temperatures; opacities held fixed", "why_tests_cant": "Derivatives are limits over all small perturbations; tests compare single radiances and finite differences would carry rounding error.", "anchors": ["pyrtlib/rt_equation.py::RTEquation.planck", "pyrtlib/rt_equation.py::RTEquation.bright", "pyrtlib/utils.py::tk2b_mod"]}
{"id": "C132", "title": "Response of brightness temperature to the opacity of a layer", "statement": "When the opacity of one layer changes and everything else stays, the brightness temperature is differentiable in it. The derivative is the transmittance from the antenna to the far side of the layer, times the difference between what added opacity emits and what arrives from behind the layer, divided by the slope of the Planck function at the brightness temperature. What added opacity emits is the far boundary's radiance plus 2/(1+exp(-opacity))^2 times the difference of the two boundaries: the mean of the two in a transparent layer. So the brightness temperature rises with the opacity exactly when this emission exceeds what arrives from behind. Where the air does not get warmer with height, more opacity in any layer never lowers the value seen from the ground and never raises the value seen by a satellite over a surface of emissivity one.", "quantifier": "for every positive frequency, positive emissivity, number of levels, layer, positive temperatures and non-negative opacities that add up to less than 125, seen from the ground and from a satellite; the last sentence for levels at least as warm as the cosmic background", "why_tests_cant": "A test compares two finite differences for one profile. The sign and size of the derivative for all profiles and layers is what a retrieval of humidity or cloud water relies on.", "anchors": ["pyrtlib/rt_equation.py::RTEquation.planck", "pyrtlib/rt_equation.py::RTEquation.bright"]}
{"id": "C133", "title": "Response to all opacities at once, to the air mass and to the emissivity", "statement": "When the opacities of all layers change together, the rate of the brightness temperature is the sum over the layers of the response to that layer alone times the rate of its opacity. Seen from a satellite, a changing emissivity adds its rate times the surface radiance seen through the whole column, over the slope of the Planck function at the brightness temperature; seen from the ground the emissivity has no part. Where the air does not get warmer with height, any change in which no opacity falls, such as a larger air mass, never lowers the value from the ground and never raises the value from a satellite over a surface of emissivity one.", "quantifier": "for every positive frequency, number of levels, positive temperatures, every differentiable change of the opacities and of the emissivity through non-negative opacities that add up to less than 125 and a positive emissivity; the last sentence for levels at least as warm as the cosmic background", "why_tests_cant": "Sensitivities are combined linearly in retrievals and in error budgets. Tests with finite steps in one scene do not show that the single responses add up for all scenes.", "anchors": ["pyrtlib/rt_equation.py::RTEquation.planck", "pyrtlib/rt_equation.py::RTEquation.bright"]}
{"id": "C134", "title": "Requests to the Wyoming archive", "statement": "WyomingUpperAir.request_data asks one address, made of year, month, day, hour and station, and its result depends on nothing but the reply to it. If the page shows a sounding whose lines have no gaps, the table holds its levels with temperature and dew point, and the time, station, coordinates and elevation written on the page; further soundings on the page are ignored. Hence an archive that answers with the sounding of the hour and station gives the table that was asked for. The reply is not compared with the request: a page of another time or station is returned without an error. A status other than 200 raises HTTPError, a page that says that there are no data raises ValueError, a page without a listing, heading or description raises IndexError.", "quantifier": "for every server, hour, station, every list of levels and every description of a sounding between 1969 and 2068", "why_tests_cant": "Tests depend on a live server and on one sounding. They cannot show what happens for all pages, nor that a wrong page is accepted.", "anchors": ["pyrtlib/apiwebservices/wyomingupperair.py::WyomingUpperAir.request_data", "pyrtlib/apiwebservices/wyomingupperair.py::WyomingUpperAir._get_data", "pyrtlib/apiwebservices/wyomingupperair.py::WyomingUpperAir._get_data_raw"]}
{"id": "C135", "title": "The list of stations of a region", "statement": "WyomingUpperAir.get_stations asks for the page of the region and depends on nothing but the reply; different regions, among them the ten of the documentation, have different pages. A status other than 200 raises HTTPError. The table has one row for each station code on the page, in the order of the first mention, with the name of the last. A code of the table put into WyomingUpperAir.request_data is the station that request asks for; that request names the region naconf whatever region the list was for. A region that begins with a slash replaces the whole address.", "quantifier": "for every server, every page, every region name, every list of areas with or without stations; for the request, codes without the characters that separate parts of a query", "why_tests_cant": "Tests depend on a live server and one region.", "anchors": ["pyrtlib/apiwebservices/wyomingupperair.py::WyomingUpperAir.get_stations", "pyrtlib/apiwebservices/webservices.py::HTTPEndPoint"]}
{"id": "C136", "title": "Temperatures, opacities and emissivity changing together", "statement": "When level temperatures, layer opacities and the surface emissivity change at the same time, the rate of change of the computed brightness temperature is the sum over levels of the response to that level temperature alone times its rate, plus the sum over layers of the response to that opacity alone times its rate, plus the response to the emissivity alone times its rate. Every one of these responses exists.", "quantifier": "for all frequencies above zero, numbers of levels, viewing directions, scenes with positive temperatures and emissivity and opacities that are not negative with a total below 125, and all differentiable changes through such a scene", "why_tests_cant": "a test can compare finite differences in a few scenes and for one quantity at a time; that single-quantity responses add up for every simultaneous change is a statement about derivatives in every scene", "anchors": ["pyrtlib/rt_equation.py::RTEquation.planck", "pyrtlib/rt_equation.py::RTEquation.bright"]}
{"id": "C137", "title": "Refracted slant views against the zenith view", "statement": "In a run with ray tracing, no layer is less opaque in a slant view (0.1 to 89 degrees, no ducts, at most 100 km) than in the zenith view of the same run, whatever absorption model is used and with or without clouds. In an atmosphere that does not get warmer with height a ground-based instrument therefore sees the slant sky not colder than the zenith, and a satellite over a black surface sees the slant view not warmer than the nadir view (total opacity below 125 Np).", "quantifier": "for all profiles, refractivities, elevations, frequencies, absorption routines and cloud layers under the stated conditions", "why_tests_cant": "Relates two views for every profile and absorption value through the ray tracing and the radiative transfer; tests compare stored numbers of single runs.", "anchors": ["pyrtlib/tb_spectrum.py::TbCloudRTE.execute", "pyrtlib/rt_equation.py::RTEquation.ray_tracing", "pyrtlib/rt_equation.py::RTEquation.exponential_integration", "pyrtlib/rt_equation.py::RTEquation.planck"]}
