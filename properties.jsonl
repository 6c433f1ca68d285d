{"id": "C01", "title": "Unit conversion round trip", "statement": "For every conversion object built by units.setup and any two units it lists, converting a value from a to b and back from b to a (same exponent) returns the value that was supplied.", "quantifier": "all setup() constants that are positive, all conversion objects, all ordered pairs of listed units, all values (scalars and arrays of any length), all integer exponents", "why_tests_cant": "real-valued inputs, arbitrary setup constants, arbitrary exponents and array lengths", "anchors": ["src/pyromat/units.py:Conversion.__call__", "src/pyromat/units.py:setup"]}
{"id": "C02", "title": "Unit conversion is path independent", "statement": "Converting a to b and then b to c gives the same result as converting a to c directly, with any exponent.", "quantifier": "all setup constants, conversion objects, triples of listed units, values and integer exponents", "why_tests_cant": "continuum of values and constants", "anchors": ["src/pyromat/units.py:Conversion.__call__", "src/pyromat/units.py:setup"]}
{"id": "C03", "title": "The exponent argument raises the factor to that power", "statement": "Converting with exponent n multiplies the value by the n-th power of the factor used with no exponent (volume from length with 3, per-quantity conversions with -1). At exponent 0 the documented meaning (units**0, factor 1) is what a user would expect.", "quantifier": "all integer exponents, units, values", "why_tests_cant": "unbounded exponents", "anchors": ["src/pyromat/units.py:Conversion.__call__", "src/pyromat/units.py:matter"]}
{"id": "C04", "title": "Unit tables are coherent", "statement": "For every choice of positive constants passed to setup, every factor is positive and the derived units satisfy their definitions: 12 in = 1 ft, 3 ft = 1 yd, 5280 ft = 1 mile, 16 oz = 1 lb, slug = lbf s^2/ft, 760 Torr = 1 atm = pstd bar, psi = lbf/in^2, 144 psf = psi, column-height pressures = density*g*height, volume units are cubes of length units, 231 in^3 = gal, BTU = cal*(lb/g)*(F/C), a normal cubic metre holds p/(R T) moles, molar units scale as the mass units they are named after.", "quantifier": "all positive setup arguments", "why_tests_cant": "setup arguments are real parameters", "anchors": ["src/pyromat/units.py:setup"]}
{"id": "C05", "title": "Mass/molar conversion is consistent for any molecular weight", "statement": "matter() is invertible and path independent over the union of mass and molar units for a given non-zero molecular weight, one kmol converts to mw kilograms, and the exponent argument behaves as in C03.", "quantifier": "all mass and molar units in any combination, all non-zero molecular weights, all values and non-zero integer exponents", "why_tests_cant": "continuum of weights and values, all unit triples", "anchors": ["src/pyromat/units.py:matter", "src/pyromat/units.py:ismass"]}
{"id": "C06", "title": "Unsupported unit names are rejected", "statement": "A conversion naming a unit its table does not list raises an error and yields no number; omitting the unit uses the configured default; a conversion object with no configured default raises a parameter error when a unit is omitted.", "quantifier": "all strings as unit names, all configurations", "why_tests_cant": "all strings", "anchors": ["src/pyromat/units.py:Conversion.__call__", "src/pyromat/units.py:matter", "src/pyromat/units.py:temperature_scale", "src/pyromat/units.py:ismass"]}
{"id": "C07", "title": "Temperature scale conversion is a consistent affine change of scale", "statement": "temperature_scale between K, C, R, F and eV is invertible and path independent, and agrees with the definitions T_K = T_C + 273.15, T_R = 1.8 T_K, T_F = T_R - 459.67.", "quantifier": "all values and all pairs and triples of the five scales", "why_tests_cant": "continuum of values", "anchors": ["src/pyromat/units.py:temperature_scale"]}
{"id": "C08", "title": "Temperature differences convert with temperature()", "statement": "The difference of two temperatures converted with temperature_scale() equals the converted difference with temperature(), for every pair of scales.", "quantifier": "all pairs of values, all pairs of the five scales", "why_tests_cant": "continuum of values", "anchors": ["src/pyromat/units.py:temperature_scale", "src/pyromat/units.py:temperature"]}
{"id": "C09", "title": "Gauge and absolute pressure are inverse", "statement": "abs_to_gauge undoes gauge_to_abs (and conversely) for the same units and atmospheric pressure; zero gauge is atmospheric; changing units commutes with the adjustment.", "quantifier": "all values, atmospheric pressures, pressure units", "why_tests_cant": "continuum of values", "anchors": ["src/pyromat/units.py:gauge_to_abs", "src/pyromat/units.py:abs_to_gauge"]}
{"id": "C10", "title": "In-place and copying conversions agree and respect the caller's data", "statement": "With inplace=True and an array argument the caller's array holds the converted values afterwards; with inplace=False the caller's array is unchanged; the returned values are the same either way and element i depends only on element i.", "quantifier": "all arrays of any length, all units, both modes", "why_tests_cant": "arrays of any length", "anchors": ["src/pyromat/units.py:Conversion.__call__", "src/pyromat/units.py:temperature_scale", "src/pyromat/units.py:matter", "src/pyromat/units.py:gauge_to_abs"]}
{"id": "C11", "title": "Read-only configuration parameters never change", "statement": "No sequence of configuration operations (assignment, bulk update, loading configuration files, restoring defaults) changes the value of a read-only parameter (install_dir, version).", "quantifier": "all histories of operations with arbitrary keys and values", "why_tests_cant": "unbounded histories", "anchors": ["src/pyromat/utility.py:PMConfigEntry", "src/pyromat/utility.py:PMConfig"]}
{"id": "C12", "title": "Appended configuration parameters never lose data", "statement": "Under any history of assignments, updates and file loads the earlier list of an appended parameter (config_file, dat_dir, reg_dir) is a prefix of the later list; only restore_default shrinks it, to exactly the default.", "quantifier": "all histories of operations", "why_tests_cant": "unbounded histories", "anchors": ["src/pyromat/utility.py:PMConfigEntry.write", "src/pyromat/utility.py:PMConfig"]}
{"id": "C13", "title": "The set of configuration parameters is fixed and unknown names are rejected", "statement": "Reading or assigning an unknown parameter raises a parameter error and changes nothing; no operation adds or removes a parameter.", "quantifier": "all names, all histories", "why_tests_cant": "unbounded histories, all strings", "anchors": ["src/pyromat/utility.py:PMConfig.__getitem__", "src/pyromat/utility.py:PMConfig.__setitem__"]}
{"id": "C14", "title": "Configuration values always have their declared type", "statement": "After any history each parameter's value has the declared type (bool, float, string, or list of strings for appended parameters).", "quantifier": "all histories with arbitrary Python values", "why_tests_cant": "unbounded histories, arbitrary values", "anchors": ["src/pyromat/utility.py:PMConfigEntry.write", "src/pyromat/utility.py:PMConfig.__setitem__"]}
{"id": "C15", "title": "A rejected assignment leaves the configuration unchanged", "statement": "When a value cannot be cast to the declared type or the parameter is read-only, the stored configuration is the same as before; an accepted assignment to a normal parameter is what a later read returns, and other parameters are untouched.", "quantifier": "all states, names and values", "why_tests_cant": "all states and values", "anchors": ["src/pyromat/utility.py:PMConfigEntry.write", "src/pyromat/utility.py:PMConfig.__setitem__"]}
{"id": "C16", "title": "Configuration file loading terminates, runs each file once, last file wins", "statement": "Loading the configuration always terminates on a finite file system even when files refer to each other cyclically, executes each distinct file at most once in the order they are listed, and the value of a normal parameter is the one assigned by the last executed file that assigns it.", "quantifier": "all finite file systems with arbitrary cross references", "why_tests_cant": "cyclic reference graphs of any size", "anchors": ["src/pyromat/utility.py:PMConfig.load", "src/pyromat/utility.py:PMConfig.update"]}
{"id": "C17", "title": "Restoring defaults", "statement": "restore_default(item) on a writable parameter makes it read as its default whatever the history, leaves other parameters alone, and does nothing to read-only ones; restore_default() with no argument is documented to do so for all parameters.", "quantifier": "all histories, all parameters", "why_tests_cant": "unbounded histories", "anchors": ["src/pyromat/utility.py:PMConfig.restore_default", "src/pyromat/utility.py:PMConfigEntry.restore_default"]}
{"id": "C18", "title": "Default temperature and pressure are independent of the working units", "statement": "config.def_T() and config.def_p() denote the same physical temperature and pressure whatever unit_temperature / unit_pressure are configured.", "quantifier": "all default values, default units and working units", "why_tests_cant": "continuum of values and unit combinations", "anchors": ["src/pyromat/utility.py:PMConfig.def_T", "src/pyromat/utility.py:PMConfig.def_p"]}
{"id": "C19", "title": "Message wrapping keeps every word and the width", "statement": "split_lines returns -1 exactly when lead and tail leave no room; otherwise every non-blank character of the text appears in the output in order, every line carries the lead and tail and no line is longer than the width.", "quantifier": "all texts, leads, tails, widths", "why_tests_cant": "all strings", "anchors": ["src/pyromat/utility.py:split_lines"]}
{"id": "C20", "title": "Suppressing and reviving data files are inverse", "statement": "suppress_file and revive_file each refuse any path of the wrong form without touching the file system; on the right form one undoes the other, no data file is lost when the target name is free, and a suppressed file is not loaded.", "quantifier": "all paths, all file systems", "why_tests_cant": "all strings and file systems", "anchors": ["src/pyromat/utility.py:suppress_file", "src/pyromat/utility.py:revive_file", "src/pyromat/dat.py:load"]}
{"id": "C21", "title": "Duplicate data precedence", "statement": "After loading, the record stored under an id is the one from the last (dat_overwrite) or first (otherwise) readable file carrying that id in directory-traversal order, counting the record loaded earlier; ids not mentioned in any file keep their record.", "quantifier": "all directory trees, all file contents, all prior collections", "why_tests_cant": "directory trees of any shape and size", "anchors": ["src/pyromat/dat.py:load"]}
{"id": "C22", "title": "dat_exist_fatal stops on the first duplicate", "statement": "With dat_exist_fatal the load raises a data error exactly when two readable files (or a file and the existing collection) share an id; without it, it never raises because of duplicates.", "quantifier": "all directory trees and prior collections", "why_tests_cant": "trees of any size", "anchors": ["src/pyromat/dat.py:load"]}
{"id": "C23", "title": "Check mode reports without changing the collection", "statement": "load(check=True) leaves the loaded collection untouched, and its report lists exactly the added, changed, removed, redundant, suppressed and unreadable items.", "quantifier": "all directory trees, all collections", "why_tests_cant": "trees of any size", "anchors": ["src/pyromat/dat.py:load"]}
{"id": "C24", "title": "Only well-formed unsuppressed data files are loaded", "statement": "Every record that a load adds comes from a readable file whose name ends in .hpd and which carries id, doc and class with a registered class; malformed files are skipped without affecting the other files; hidden sub-directory files are visited only when recursion is enabled.", "quantifier": "all directory trees", "why_tests_cant": "trees of any size", "anchors": ["src/pyromat/dat.py:load", "src/pyromat/utility.py:load_file"]}
{"id": "C25", "title": "get returns exactly the loaded record", "statement": "get(name) returns the record loaded under that id and raises a parameter error for every other name.", "quantifier": "all names, all collections", "why_tests_cant": "all strings", "anchors": ["src/pyromat/__init__.py:get"]}
{"id": "C26", "title": "search returns exactly the matching records", "statement": "search() returns every record satisfying all of the given criteria and no other; with no criteria it returns everything; adding criteria can only shrink the result; the collection is not modified.", "quantifier": "all collections, all combinations of criteria", "why_tests_cant": "collections of any size, all criteria", "anchors": ["src/pyromat/__init__.py:search"]}
{"id": "C27", "title": "Registry precedence", "statement": "After loading the registry, a class name is bound to the last (reg_overwrite) or first definition found in the directories in order; reg_exist_fatal raises exactly on a duplicate; files beginning with '.' or '_' and non-.py files are ignored.", "quantifier": "all registry directories", "why_tests_cant": "directories of any size", "anchors": ["src/pyromat/reg.py:regload"]}
{"id": "C28", "title": "Hill formula is canonical", "statement": "The Hill formula of a substance does not depend on the order of its atom table, lists carbon first, hydrogen second when carbon is present, other elements alphabetically, each with its count; substances with charge of magnitude above one are also formatted.", "quantifier": "all atom tables", "why_tests_cant": "all dictionaries and charges", "anchors": ["src/pyromat/reg.py:__basedata__.hill"]}
{"id": "C29", "title": "Ideal-gas argument checking is exact", "statement": "A property call on an ideal gas is accepted exactly when it gives at most two distinct state properties among T,p,d,v,e,h,s with at most one of T,e,h and not both d and v; every other combination raises a parameter error; omitted values are replaced by the configured default; keyword order does not matter.", "quantifier": "all argument lists (positional and keyword)", "why_tests_cant": "all combinations and counts of arguments", "anchors": ["src/pyromat/registry/ig.py:_argparse", "src/pyromat/registry/ig2.py:_argparse"]}
{"id": "C30", "title": "Every accepted pair describes one consistent ideal-gas state", "statement": "Whatever accepted pair of properties is given, the state computed satisfies p = d R T, reproduces the given T, p, d or v exactly, and given entropy exactly when paired with temperature; density and specific volume are reciprocal.", "quantifier": "all substances, all accepted argument pairs, all positive values", "why_tests_cant": "continuum of states", "anchors": ["src/pyromat/registry/ig.py:_argparse", "src/pyromat/registry/ig.py:d", "src/pyromat/registry/ig.py:v", "src/pyromat/registry/ig2.py:_argparse"]}
{"id": "C31", "title": "Ideal-gas (Shomate) properties are thermodynamically consistent", "statement": "For every coefficient set, cp is the temperature derivative of enthalpy at constant pressure, ds/dT = cp/T, dg/dT = -s, e = h - R T, g = h - T s, f = e - T s, cp - cv = R and gam = cp/cv.", "quantifier": "all coefficient tables, all temperatures in a piece, all pressures", "why_tests_cant": "continuum of coefficients and states", "anchors": ["src/pyromat/registry/ig.py:_cp", "src/pyromat/registry/ig.py:_h", "src/pyromat/registry/ig.py:_s", "src/pyromat/registry/ig.py:_g", "src/pyromat/registry/ig.py:_f"]}
{"id": "C32", "title": "Ideal-gas (NASA polynomial) properties are thermodynamically consistent", "statement": "As C31 for the polynomial class.", "quantifier": "all coefficient tables, all temperatures in a piece, all pressures", "why_tests_cant": "continuum of coefficients and states", "anchors": ["src/pyromat/registry/ig2.py:_cp", "src/pyromat/registry/ig2.py:_h", "src/pyromat/registry/ig2.py:_s", "src/pyromat/registry/ig2.py:_g", "src/pyromat/registry/ig2.py:_f"]}
{"id": "C33", "title": "Piecewise temperature ranges partition the valid interval", "statement": "For an ascending list of temperature limits every temperature in [Tmin,Tmax] is evaluated by exactly one piece and temperatures outside by none.", "quantifier": "all limit lists, all temperatures", "why_tests_cant": "lists of any length, continuum of temperatures", "anchors": ["src/pyromat/registry/ig.py:_crange", "src/pyromat/registry/ig2.py:_crange"]}
{"id": "C34", "title": "Out-of-range temperatures never yield numbers computed outside the fit", "statement": "If every temperature is out of range the call raises; otherwise exactly the out-of-range elements are replaced by the configured out-of-bounds value and the in-range elements are unaffected by them.", "quantifier": "all arrays", "why_tests_cant": "arrays of any length", "anchors": ["src/pyromat/registry/ig.py:_argparse", "src/pyromat/registry/ig2.py:_argparse", "src/pyromat/registry/mp1.py:_argparse"]}
{"id": "C35", "title": "Scalar inversion stays in bounds, terminates, and is accurate when it says so", "statement": "The one-dimensional inverse solver used for T(h), T(s) etc. always terminates, never returns a value outside the substance's temperature limits, and when it returns without a warning the property at the last evaluated point matched the target within tolerance.", "quantifier": "all functions, targets, starting points, bounds and tolerances", "why_tests_cant": "all functions and iteration counts", "anchors": ["src/pyromat/registry/ig.py:_iter1", "src/pyromat/registry/ig2.py:_iter1", "src/pyromat/registry/mp1.py:_iter1"]}
{"id": "C36", "title": "Isentropic pressure inversion is exact", "statement": "p computed from (s,T) reproduces s exactly: s(T, p(s,T)) = s; and s decreases by R ln(p2/p1) between pressures at one temperature.", "quantifier": "all substances, temperatures, pressures, entropies", "why_tests_cant": "continuum of states", "anchors": ["src/pyromat/registry/ig.py:_argparse", "src/pyromat/registry/ig.py:s", "src/pyromat/registry/ig2.py:s"]}
{"id": "C37", "title": "Results do not depend on the working unit system", "statement": "A property evaluated under any configured unit system equals the unit conversion of the value evaluated under the internal units, for inputs denoting the same physical state.", "quantifier": "all unit configurations, all states", "why_tests_cant": "product of all unit choices and a continuum of states", "anchors": ["src/pyromat/registry/ig.py:cp", "src/pyromat/registry/ig.py:h", "src/pyromat/registry/ig.py:s", "src/pyromat/registry/ig.py:d", "src/pyromat/registry/mp1.py:hsd", "src/pyromat/registry/mp1.py:h", "src/pyromat/registry/mp1.py:s"]}
{"id": "C38", "title": "Ideal-gas mixture properties are the mole-weighted sums", "statement": "For a mixture: mole and mass fractions are non-negative and sum to one, mw is the mole-weighted mean, cp,h,e are mole-weighted sums, entropy equals the sum of component entropies at their partial pressures, the mixing entropy is non-negative, the temperature limits are the intersection of component limits, and C31's identities hold for the mixture.", "quantifier": "all compositions with positive amounts (by mass or mole), any number of components, all component functions", "why_tests_cant": "mixtures of any number of components", "anchors": ["src/pyromat/registry/igmix.py:_bootstrap", "src/pyromat/registry/igmix.py:_cp", "src/pyromat/registry/igmix.py:_s", "src/pyromat/registry/igmix.py:_h", "src/pyromat/registry/igmix.py:_g"]}
{"id": "C39", "title": "Mixture arithmetic is substance-wise", "statement": "Adding mixtures adds the quantity of each substance (absent = 0); addition is commutative and associative; scaling multiplies every quantity; subtraction undoes addition; operands are not modified by the non in-place operators.", "quantifier": "all mixtures of any substances, all scalars", "why_tests_cant": "mixtures of any size", "anchors": ["src/pyromat/igtools.py:IgtMix.__add__", "src/pyromat/igtools.py:IgtMix.__iadd__", "src/pyromat/igtools.py:IgtMix.__sub__", "src/pyromat/igtools.py:IgtMix.__mul__"]}
{"id": "C40", "title": "Mixing conserves mass, moles and atoms", "statement": "Total mass, total moles and the count of every element of a sum are the sums of those of the operands; mass equals moles times mean molecular weight.", "quantifier": "all mixtures", "why_tests_cant": "mixtures of any size", "anchors": ["src/pyromat/igtools.py:IgtMix.mass", "src/pyromat/igtools.py:IgtMix.molar", "src/pyromat/igtools.py:IgtMix.atoms", "src/pyromat/igtools.py:IgtMix._mw"]}
{"id": "C41", "title": "Mole and mass fractions", "statement": "Mole fractions X and mass fractions Y each sum to one, are unchanged by scaling the mixture, and determine each other through the molecular weights.", "quantifier": "all mixtures with positive total", "why_tests_cant": "mixtures of any size", "anchors": ["src/pyromat/igtools.py:IgtMix.X", "src/pyromat/igtools.py:IgtMix.Y"]}
{"id": "C42", "title": "Mixture shape broadcasting follows numpy", "statement": "The shape computed for two broadcastable arrays is the numpy broadcast shape and incompatible shapes raise.", "quantifier": "all pairs of shapes", "why_tests_cant": "shapes of any rank", "anchors": ["src/pyromat/igtools.py:IgtMix._broadcast_shape"]}
{"id": "C43", "title": "Mixture temperature limits", "statement": "The temperature limits of a mixture are the range where every component is valid.", "quantifier": "all mixtures", "why_tests_cant": "mixtures of any size", "anchors": ["src/pyromat/igtools.py:IgtMix.Tlim"]}
{"id": "C44", "title": "Mixture string parsing", "statement": "A string 'q1 name1 + q2 name2 ...' produces exactly those quantities, with 1 where no quantity is given.", "quantifier": "all strings", "why_tests_cant": "all strings", "anchors": ["src/pyromat/igtools.py:parse_mixstr"]}
{"id": "C45", "title": "Mixture element access", "statement": "Setting the quantity of a substance (or inserting, removing one) changes that substance only and is what a later read returns; conversion to a dictionary and back preserves the mixture; loops, tolist() and items() list the same constituents in the same order, items() with what indexing gives.", "quantifier": "all mixtures, all substances, all quantities", "why_tests_cant": "mixtures of any size", "anchors": ["src/pyromat/igtools.py:IgtMix.__setitem__", "src/pyromat/igtools.py:IgtMix.insert", "src/pyromat/igtools.py:IgtMix.remove", "src/pyromat/igtools.py:IgtMix.todict", "src/pyromat/igtools.py:IgtMix.tolist", "src/pyromat/igtools.py:IgtMix.items", "src/pyromat/igtools.py:IgtMix.__iter__"]}
{"id": "C46", "title": "One-variable polynomial evaluation and derivatives", "statement": "The polynomial evaluation behind saturation and ideal-gas parts equals x^post * sum c_i (x^pre)^i and the returned derivatives are its first and second derivatives.", "quantifier": "all coefficient lists, exponents, arguments", "why_tests_cant": "polynomials of any length", "anchors": ["src/pyromat/registry/mp1.py:_poly1"]}
{"id": "C47", "title": "Two-variable polynomial evaluation and derivatives", "statement": "The two-variable evaluation equals the sum over groups of x^px y^py sum c_ij (x^a)^i (y^b)^j, and the returned five derivatives are its partial derivatives.", "quantifier": "all coefficient lists", "why_tests_cant": "polynomials of any length", "anchors": ["src/pyromat/registry/mp1.py:_poly2"]}
{"id": "C48", "title": "Ideal part of the Helmholtz energy", "statement": "The derivatives returned with the ideal-gas part are its partial derivatives.", "quantifier": "all coefficient data, all reduced temperatures and densities > 0", "why_tests_cant": "continuum", "anchors": ["src/pyromat/registry/mp1.py:_ao"]}
{"id": "C49", "title": "Residual part of the Helmholtz energy", "statement": "The derivatives returned with the residual part (polynomial, exponential, Gaussian and non-analytic terms) are its partial derivatives, and an element of an array result depends only on that element.", "quantifier": "all coefficient data, all states", "why_tests_cant": "continuum", "anchors": ["src/pyromat/registry/mp1.py:_ar"]}
{"id": "C50", "title": "Multiphase properties derive from one Helmholtz function", "statement": "p = d^2 df/dd, s = -df/dT, e = f + T s, h = e + p/d, g = h - T s, cv = de/dT at constant d, and the cp and speed-of-sound formulas are the thermodynamic ones; the returned T and d derivatives of e, h, s are their derivatives.", "quantifier": "all Helmholtz functions, all states", "why_tests_cant": "continuum of states and coefficients", "anchors": ["src/pyromat/registry/mp1.py:_p", "src/pyromat/registry/mp1.py:_e", "src/pyromat/registry/mp1.py:_h", "src/pyromat/registry/mp1.py:_s", "src/pyromat/registry/mp1.py:_f", "src/pyromat/registry/mp1.py:_g", "src/pyromat/registry/mp1.py:_cp", "src/pyromat/registry/mp1.py:_cv", "src/pyromat/registry/mp1.py:_a"]}
{"id": "C51", "title": "Saturated mixtures obey the lever rule", "statement": "Under the dome the quality lies in [0,1], the specific volume, energy, enthalpy and entropy are the quality-weighted sums of the saturated values, quality and density invert each other, and d and v are reciprocal.", "quantifier": "all states under the dome", "why_tests_cant": "continuum of states", "anchors": ["src/pyromat/registry/mp1.py:_argparse", "src/pyromat/registry/mp1.py:d", "src/pyromat/registry/mp1.py:v", "src/pyromat/registry/mp1.py:h", "src/pyromat/registry/mp1.py:s", "src/pyromat/registry/mp1.py:e", "src/pyromat/registry/mp1.py:x"]}
{"id": "C52", "title": "Bracketed solver invariants", "statement": "The bracketed solver never evaluates or returns a point outside the bracket, the bracket only shrinks, always contains a solution of a continuous function, and a target that is not bracketed is reported rather than answered.", "quantifier": "all functions (including adversarial derivative values), targets, brackets", "why_tests_cant": "all functions and iteration counts", "anchors": ["src/pyromat/registry/mp1.py:_hybrid1"]}
{"id": "C53", "title": "Bracketed solver accuracy", "statement": "When the bracketed solver stops before its iteration limit, either the function matches the target within the relative tolerance or a solution lies within the relative tolerance of the returned point.", "quantifier": "all continuous functions, targets, brackets, tolerances", "why_tests_cant": "all functions", "anchors": ["src/pyromat/registry/mp1.py:_hybrid1"]}
{"id": "C54", "title": "Multiphase argument checking is exact", "statement": "A multiphase property call is accepted exactly for the documented combinations of T,p,d,v,x,e,h,s; every other combination raises a parameter error.", "quantifier": "all argument lists", "why_tests_cant": "all combinations", "anchors": ["src/pyromat/registry/mp1.py:_argparse"]}
{"id": "C55", "title": "Saturation calls outside the two-phase range are rejected", "statement": "Saturation properties at a temperature or pressure outside [triple, critical] raise a parameter error and never return numbers.", "quantifier": "all temperatures and pressures", "why_tests_cant": "continuum", "anchors": ["src/pyromat/registry/mp1.py:_sat_argparse", "src/pyromat/registry/mp1.py:_Ts", "src/pyromat/registry/mp1.py:_argparse"]}
{"id": "C56", "title": "Saturation curve fits and derivatives", "statement": "The fitted saturation functions return the correct temperature derivatives for each of the supported forms.", "quantifier": "all coefficient data", "why_tests_cant": "continuum", "anchors": ["src/pyromat/registry/mp1.py:_satfit"]}
{"id": "C57", "title": "General one-dimensional solver respects its limits and reports failure", "statement": "The general solver never evaluates outside the limits the user gave and reports non-convergence.", "quantifier": "all functions, limits, starting points", "why_tests_cant": "all functions and iteration counts", "anchors": ["src/pyromat/solve.py:solve1n"]}
{"id": "C58", "title": "Array argument broadcasting of the solver", "statement": "Array arguments must share one length (scalars and length-1 arrays broadcast), otherwise a parameter error is raised.", "quantifier": "all argument lists", "why_tests_cant": "lists of any length", "anchors": ["src/pyromat/solve.py:_vectorize_args"]}
{"id": "C59", "title": "Sparse polynomial evaluation (IF-97)", "statement": "The sparse evaluation equals the sum of c x^i y^j and its derivatives, for ascending exponent lists including negative exponents.", "quantifier": "all coefficient lists", "why_tests_cant": "polynomials of any length", "anchors": ["src/pyromat/registry/if97.py:_peval"]}
{"id": "C60", "title": "IF-97 region classification", "statement": "Every (T,p) in the declared validity range is assigned exactly one region and everything outside is rejected.", "quantifier": "all temperatures and pressures", "why_tests_cant": "continuum", "anchors": ["src/pyromat/registry/if97.py:_region"]}
{"id": "C61", "title": "IF-97 saturation pressure and temperature are inverse", "statement": "Ts(ps(T)) = T and ps(Ts(p)) = p on the saturation line.", "quantifier": "all saturation temperatures", "why_tests_cant": "continuum", "anchors": ["src/pyromat/registry/if97.py:_ps", "src/pyromat/registry/if97.py:_Ts"]}
{"id": "C62", "title": "Adding records by hand", "statement": "After dat.new(data) with complete data and a known class, get returns the record and other ids are untouched; rejected data leaves the collection unchanged; after clear() no record can be got.", "quantifier": "all dictionaries, all collections", "why_tests_cant": "all data dictionaries", "anchors": ["src/pyromat/dat.py:new", "src/pyromat/dat.py:clear"]}
{"id": "C63", "title": "Evaluating a property does not change the caller's arrays", "statement": "Arrays passed as arguments to a property method hold the same values after the call as before.", "quantifier": "all argument pairs, arrays and unit systems", "why_tests_cant": "aliasing depends on the configured units and on the values", "anchors": ["src/pyromat/registry/ig.py:_argparse", "src/pyromat/registry/ig2.py:_argparse", "src/pyromat/registry/igmix.py:_argparse"]}
{"id": "C64", "title": "A constituent listed with amount zero changes nothing", "statement": "A mixture that lists a constituent with amount zero has the properties of the mixture without it: enthalpy, energies, heat capacities and entropy.", "quantifier": "all compositions, states and unit systems", "why_tests_cant": "any number of constituents, continuum of states", "anchors": ["src/pyromat/registry/igmix.py:_bootstrap", "src/pyromat/registry/igmix.py:_s"]}
{"id": "C65", "title": "A mixture with an unknown constituent is reported", "statement": "Every use of a mixture whose contents name a substance that is not an ideal gas of the collection raises a data error.", "quantifier": "all contents, all calls, all call histories", "why_tests_cant": "histories of calls", "anchors": ["src/pyromat/registry/igmix.py:_bootstrap"]}
{"id": "C66", "title": "Steam properties derive from the Gibbs energy", "statement": "In regions 1, 2 and 5 the enthalpy, entropy, density, internal energy and heat capacities that steam methods return are the derivatives of one Gibbs energy per region, in the configured units.", "quantifier": "all temperatures and pressures of the regions, all unit systems, arrays of any length", "why_tests_cant": "continuum; derivatives", "anchors": ["src/pyromat/registry/if97.py:h", "src/pyromat/registry/if97.py:s", "src/pyromat/registry/if97.py:d", "src/pyromat/registry/if97.py:e", "src/pyromat/registry/if97.py:cp", "src/pyromat/registry/if97.py:cv", "src/pyromat/registry/if97.py:_g1", "src/pyromat/registry/if97.py:_g2", "src/pyromat/registry/if97.py:_g5"]}
{"id": "C67", "title": "Steam near the critical point: density solves the pressure equation", "statement": "In region 3 the density used is within a stated distance of one whose pressure by the Helmholtz energy is exactly the pressure given, and all properties are derivatives of that Helmholtz energy at this density.", "quantifier": "all temperatures and pressures of region 3, all unit systems", "why_tests_cant": "continuum; iteration", "anchors": ["src/pyromat/registry/if97.py:_f3", "src/pyromat/registry/if97.py:h"]}
{"id": "C68", "title": "Steam at a quality", "statement": "With temperature and quality the methods return the mixture by mass of saturated liquid and vapour at the saturation pressure; hsd returns the same values as h, s and d.", "quantifier": "all temperatures, qualities, coefficient sets, unit systems", "why_tests_cant": "continuum", "anchors": ["src/pyromat/registry/if97.py:h", "src/pyromat/registry/if97.py:hsd"]}
{"id": "C69", "title": "A call gives back the properties it was given", "statement": "Temperature, density, specific volume and quality given to a multiphase call come back as the same numbers from the methods of the same names, energy, enthalpy and entropy do so in the two-phase region, and a temperature with a quality fixes every property whatever pressure is given with them.", "quantifier": "all argument pairs and triples, by position or keyword, all substances and unit systems, arrays of any length, any numerical inversion", "why_tests_cant": "continuum; combinations of arguments", "anchors": ["src/pyromat/registry/mp1.py:_argparse", "src/pyromat/registry/mp1.py:T", "src/pyromat/registry/mp1.py:d", "src/pyromat/registry/mp1.py:v", "src/pyromat/registry/mp1.py:x", "src/pyromat/registry/mp1.py:h"]}
{"id": "C70", "title": "A call that prints no warning returns a state that fits what it was given", "statement": "If a multiphase call prints no warning, the single-phase state it returns for a pressure within the limits has that pressure, and the state it returns for an energy, enthalpy or entropy has that value, each to the relative tolerance 1e-6 of the solver: the value is matched to it, or a point within it solves the equation. A saturated state found from a pressure is at a temperature one Newton step from one whose saturation pressure is the pressure given to the tolerance.", "quantifier": "all argument pairs, substances, unit systems, arrays of any length", "why_tests_cant": "continuum; iterations of up to 50 steps", "anchors": ["src/pyromat/registry/mp1.py:_argparse", "src/pyromat/registry/mp1.py:_d", "src/pyromat/registry/mp1.py:_T", "src/pyromat/registry/mp1.py:_Ts", "src/pyromat/registry/mp1.py:_hybrid1", "src/pyromat/registry/mp1.py:_tditer", "src/pyromat/registry/mp1.py:_tpiter"]}
{"id": "C71", "title": "Multiphase results do not depend on the units", "statement": "Two unit systems, and the same call written in each: every property method, heat capacity, speed of sound and saturation method raises the same error in both or returns values that denote the same physical quantities.", "quantifier": "all pairs of unit systems, argument combinations by position or keyword, substances, arrays of any length, any numerical inversion", "why_tests_cant": "continuum; combinations of units", "anchors": ["src/pyromat/registry/mp1.py:_argparse", "src/pyromat/registry/mp1.py:T", "src/pyromat/registry/mp1.py:h", "src/pyromat/registry/mp1.py:cp", "src/pyromat/registry/mp1.py:a", "src/pyromat/registry/mp1.py:T_h", "src/pyromat/registry/mp1.py:Ts"]}
{"id": "C72", "title": "Bundled results agree with the single-property methods", "statement": "Every entry of the dictionary returned by state() and every member of the tuple returned by hsd() is what the method of that name returns for the same arguments, and they raise the errors the methods raise.", "quantifier": "all arguments, substances, unit systems, arrays of any length", "why_tests_cant": "continuum; combinations of arguments and units", "anchors": ["src/pyromat/registry/mp1.py:state", "src/pyromat/registry/mp1.py:hsd"]}
{"id": "C73", "title": "Identities between the energies of a state", "statement": "For one multiphase call, the numbers returned satisfy g = h - T s, f = e - T s and h = e + p v, at every element, in one phase or two.", "quantifier": "all argument combinations, substances, unit systems, arrays of any length, any numerical inversion", "why_tests_cant": "continuum; combinations of arguments and units", "anchors": ["src/pyromat/registry/mp1.py:g", "src/pyromat/registry/mp1.py:f", "src/pyromat/registry/mp1.py:h", "src/pyromat/registry/mp1.py:e", "src/pyromat/registry/mp1.py:_argparse"]}
{"id": "C74", "title": "Heat capacity is the temperature derivative of the internal energy", "statement": "At a given temperature and density the cv returned is the derivative, by temperature at constant density, of the e returned: off the dome and under it, where the amounts of liquid and vapour change along the derivative.", "quantifier": "all temperatures and densities off the saturation curves, substances, unit systems", "why_tests_cant": "continuum; derivatives", "anchors": ["src/pyromat/registry/mp1.py:cv", "src/pyromat/registry/mp1.py:_cv", "src/pyromat/registry/mp1.py:e"]}
{"id": "C75", "title": "cp and the speed of sound are slopes of the other properties", "statement": "At a single-phase state cp is the derivative of the h returned, by temperature, along the states of the same pressure; the square of a is the derivative of the pressure returned, by density, along the states of the same entropy; gam is cp over cv. At quality 0 or more a is NaN and cp and gam are infinite.", "quantifier": "all single-phase temperatures and densities off the saturation curves and all two-phase states, substances, unit systems, ways of giving the state", "why_tests_cant": "continuum; derivatives along curves that have to be shown to exist", "anchors": ["src/pyromat/registry/mp1.py:cp", "src/pyromat/registry/mp1.py:gam", "src/pyromat/registry/mp1.py:a"]}
{"id": "C76", "title": "The phase returned matches the saturation curve", "statement": "When a call returns a single-phase state below the critical temperature, it is vapor (density at most 1.01 times the saturated vapor's) if the pressure given is below the saturation pressure of the temperature, and liquid (density at least 0.99 times the saturated liquid's) if it is not below; likewise with energy, enthalpy or entropy above the saturated vapor's, or not above; with pressure and density, or pressure and an energy, the temperature returned is above the saturation temperature for vapor and below it for liquid.", "quantifier": "all single-phase answers, substances, unit systems, units of input and forms of the call below the critical point", "why_tests_cant": "the multiphase equation of state has several solutions for the same arguments; which of them an iteration finds cannot be sampled", "anchors": ["src/pyromat/registry/mp1.py:_d", "src/pyromat/registry/mp1.py:_T", "src/pyromat/registry/mp1.py:_argparse"]}
{"id": "C77", "title": "A call whose arguments have a solution in the data range is answered", "statement": "If a state with the arguments given exists within the range of the data, the call returns it as numbers: temperature, density and quality; a mixture with quality between 0 and 1 if the arguments lie between the saturated values, otherwise a single-phase state.", "quantifier": "all pairs of arguments (T,p), (p,d), (e or h or s with T, p or d), substances, unit systems", "why_tests_cant": "continuum of arguments; failures of an iteration depend on the values it passes through", "anchors": ["src/pyromat/registry/mp1.py:_argparse", "src/pyromat/registry/mp1.py:_hybrid1", "src/pyromat/registry/mp1.py:_d", "src/pyromat/registry/mp1.py:_T"]}
{"id": "C78", "title": "Asking for the quality adds it and changes nothing else", "statement": "Every multiphase property method called with quality=True returns the value it returns without it and, second, what x returns for the same arguments, and raises the same errors; the deprecated T_h, T_s and d_s return what T and d return for the same arguments and pass the quality on.", "quantifier": "all arguments, by position or keyword, substances, unit systems, arrays of any length, any numerical inversion", "why_tests_cant": "all methods with all argument combinations", "anchors": ["src/pyromat/registry/mp1.py:T", "src/pyromat/registry/mp1.py:h", "src/pyromat/registry/mp1.py:cp", "src/pyromat/registry/mp1.py:T_h", "src/pyromat/registry/mp1.py:T_s", "src/pyromat/registry/mp1.py:d_s"]}
{"id": "C79", "title": "A multiphase call does not change the caller's arrays", "statement": "Arrays of temperatures, pressures, densities and qualities passed to a multiphase call hold the same numbers afterwards.", "quantifier": "all argument combinations, arrays of any length, unit systems, substances", "why_tests_cant": "aliasing depends on units, shapes and values", "anchors": ["src/pyromat/registry/mp1.py:_argparse"]}
{"id": "C80", "title": "A call with arrays gives, element by element, what calls with single numbers give", "statement": "A multiphase call with arrays returns at every position the value that the call with the numbers of that position alone returns, whatever the other positions hold; and it returns whenever each of those calls does.", "quantifier": "all argument combinations, arrays of any length, mixtures of phases, unit systems, substances", "why_tests_cant": "the solvers run on the whole array at once with masks, so interference between elements depends on which combination of states is in the array", "anchors": ["src/pyromat/registry/mp1.py:_argparse", "src/pyromat/registry/mp1.py:_hybrid1", "src/pyromat/registry/mp1.py:_tpiter1"]}
{"id": "C81", "title": "Properties of a dynamic mixture are sums over its constituents", "statement": "The enthalpy, internal energy and heat capacity that a dynamic mixture returns are, at every position, the sums over its constituents of the amount times what the constituent itself returns at that temperature; entropy, Gibbs and Helmholtz energy are such sums with each constituent at its partial pressure; and the calls are answered.", "quantifier": "all mixtures, positions, arrays of any shape, unit systems", "why_tests_cant": "any number of constituents, shapes and continuum of states", "anchors": ["src/pyromat/igtools.py:h", "src/pyromat/igtools.py:e", "src/pyromat/igtools.py:cp", "src/pyromat/igtools.py:s", "src/pyromat/igtools.py:g", "src/pyromat/igtools.py:f", "src/pyromat/igtools.py:_propeval", "src/pyromat/igtools.py:_sp"]}
{"id": "C82", "title": "Thermodynamic identities of dynamic mixtures", "statement": "At every position and state the heat capacities of a dynamic mixture differ by the gas constant times the amount of matter, the heat capacity ratio is their quotient, enthalpy and internal energy differ by the gas constant times amount and absolute temperature, and Gibbs and Helmholtz energies are enthalpy and internal energy less absolute temperature times entropy.", "quantifier": "all mixtures, amounts, argument lists, shapes, unit systems", "why_tests_cant": "continuum of states and amounts; any number of constituents", "anchors": ["src/pyromat/igtools.py:cp", "src/pyromat/igtools.py:cv", "src/pyromat/igtools.py:gam", "src/pyromat/igtools.py:h", "src/pyromat/igtools.py:e", "src/pyromat/igtools.py:s", "src/pyromat/igtools.py:g", "src/pyromat/igtools.py:f", "src/pyromat/igtools.py:R"]}
{"id": "C83", "title": "A dynamic mixture reports the properties it was given", "statement": "Temperature, pressure, density and specific volume given to a property call of a dynamic mixture come back as the same numbers at every position, enthalpy, internal energy and entropy come back within the documented tolerance, and the pressure, density and temperature reported obey the ideal gas law.", "quantifier": "all pairs of arguments, by position or keyword, shapes, unit systems, mixtures", "why_tests_cant": "continuum; combinations of arguments, shapes and units", "anchors": ["src/pyromat/igtools.py:_argparse", "src/pyromat/igtools.py:T", "src/pyromat/igtools.py:p", "src/pyromat/igtools.py:d", "src/pyromat/igtools.py:v"]}
{"id": "C84", "title": "Argument checking of dynamic mixtures", "statement": "A property call of a dynamic mixture is accepted for the documented combinations of T, p, d, v, e, h, s and for arrays whose shapes agree, missing arguments take the configured defaults, and every other combination raises a parameter error.", "quantifier": "all argument lists, shapes", "why_tests_cant": "all combinations and shapes", "anchors": ["src/pyromat/igtools.py:_argparse", "src/pyromat/igtools.py:_broadcast_shape"]}
{"id": "C85", "title": "Converting between dynamic and static mixtures keeps composition and properties", "statement": "toigmix returns one static mixture per position, in storage order, with the documented names and the composition at that position; at the same temperature and pressure the dynamic mixture reports the amount of matter times what the static mixture reports for enthalpy, internal energy, heat capacities, entropy, Gibbs and Helmholtz energy. fromigmix gives one unit of matter of the same composition, and both round trips keep the composition.", "quantifier": "all mixtures, shapes, positions, states and unit systems", "why_tests_cant": "any number of constituents and positions, continuum of states", "anchors": ["src/pyromat/igtools.py:toigmix", "src/pyromat/igtools.py:fromigmix", "src/pyromat/registry/igmix.py:X", "src/pyromat/registry/igmix.py:Y", "src/pyromat/registry/igmix.py:s"]}
{"id": "C86", "title": "States of a dynamic mixture outside its temperature limits", "statement": "A call whose states all lie outside the temperature limits of the mixture raises PMParamError; in an array call with some states outside, those elements are NaN in the result and the others are answered as if asked alone; no method reports a temperature outside the limits; and within the limits every property is a number.", "quantifier": "all mixtures, forms of call, array shapes and unit systems", "why_tests_cant": "any shapes and mixtures of states inside and outside, continuum of states", "anchors": ["src/pyromat/igtools.py:_argparse", "src/pyromat/igtools.py:Tlim", "src/pyromat/igtools.py:_propeval"]}
{"id": "C87", "title": "Saturated liquid and vapour properties of steam", "statement": "hs, es, ds and ss return, for every temperature or pressure given between the triple and the critical point, the saturated liquid value and the saturated vapour value: what h, e, d and s return for the same temperature or pressure at quality 0 and 1, in the documented units; outside these limits they raise PMParamError; with tp=True they add the saturation temperature and pressure that Ts and ps return.", "quantifier": "all temperatures or pressures, as numbers or arrays, coefficient sets, unit systems", "why_tests_cant": "continuum of states; combinations of units and forms of the argument", "anchors": ["src/pyromat/registry/if97.py:hs", "src/pyromat/registry/if97.py:es", "src/pyromat/registry/if97.py:ds", "src/pyromat/registry/if97.py:ss", "src/pyromat/registry/if97.py:ps", "src/pyromat/registry/if97.py:Ts"]}
{"id": "C88", "title": "Steam temperature from enthalpy and pressure", "statement": "T_h(h,p) returns the temperature of the state with that enthalpy and pressure, and with quality=True its quality (-1 outside the saturation line): on the saturation line the saturation temperature and the quality h was computed with, in single-phase regions a temperature that has the given enthalpy to the tolerance of the fit or iteration, and an error outside the range of the formulation; arrays are treated element by element, in the working units.", "quantifier": "all enthalpies and pressures, numbers or arrays, all unit settings", "why_tests_cant": "The answer is piecewise over nine zones with boundaries that are themselves computed, two zones are iterations, and the units enter in three places; tests sample a few states in default units.", "anchors": ["src/pyromat/registry/if97.py:T_h", "src/pyromat/registry/if97.py:_th1", "src/pyromat/registry/if97.py:_th3", "src/pyromat/registry/if97.py:_th5", "src/pyromat/registry/if97.py:_b23", "src/pyromat/registry/if97.py:_b2bc"]}
{"id": "C89", "title": "Steam temperature from entropy and pressure", "statement": "T_s(s,p) returns the temperature of the state with that entropy and pressure, and with quality=True its quality: on the saturation line the saturation temperature and the quality s was computed with, in single-phase regions a temperature that has the given entropy to the tolerance of the fit or iteration, and an error outside the range of the formulation; in the working units.", "quantifier": "all entropies and pressures, all unit settings", "why_tests_cant": "As for T_h; the method also calls user methods inside, so that its zones depend on the unit settings.", "anchors": ["src/pyromat/registry/if97.py:T_s", "src/pyromat/registry/if97.py:_ts1", "src/pyromat/registry/if97.py:_ts3", "src/pyromat/registry/if97.py:_ts5", "src/pyromat/registry/if97.py:_b23"]}
{"id": "C90", "title": "Redundancy conflicts are repaired by keeping one file", "statement": "red_repair() keeps exactly the selected file of every conflict and suppresses or deletes the others; no other file is touched, no conflict ever loses its last file, and afterwards every identifier is in one readable file, so that a load succeeds even when conflicts are fatal.", "quantifier": "all lists of conflicts, all file systems, all actions and selections, all sequences of answers by the user (including an aborted dialogue)", "why_tests_cant": "Depends on the whole history of answers and on the state of the files; tests do not delete files.", "anchors": ["src/pyromat/utility.py:red_repair", "src/pyromat/utility.py:suppress_file", "src/pyromat/dat.py:load"]}
{"id": "C91", "title": "updatefiles() records the collection permanently", "statement": "After updatefiles(verbose=False), whatever was added, changed or removed in memory and whatever conflicts and unreadable files there were, a fresh load gives exactly the collection that was in memory, each entry from the file it belongs in; files of removed entries are suppressed (deleted on request), unreadable files are suppressed (deleted on request), files that agree with memory are untouched, and a check finds nothing left to do.", "quantifier": "all collections, all contents of the data directories, all configurations", "why_tests_cant": "Quantifies over arbitrary edits of the collection and arbitrary files; a test would have to overwrite data files and can only try a few.", "anchors": ["src/pyromat/dat.py:updatefiles", "src/pyromat/dat.py:load", "src/pyromat/utility.py:red_repair", "src/pyromat/utility.py:suppress_file"]}
{"id": "C92", "title": "info() tables list every member once, in order and aligned", "statement": "info() called with a set, list or tuple of several substances, or with criteria that several loaded substances satisfy, writes a table to the target stream only: one row for every member (for criteria: exactly the loaded substances satisfying them), in the order of the identifiers and independent of the order in which the members come, all rows in the same columns, every property marked exactly when the substance has it, with the column titles before the first row and after every fifteen; when nothing satisfies the criteria it says so; the caller's object is left alone.", "quantifier": "all collections of substances of any size with class names of up to five characters (as all shipped ones), all criteria, all names and identifiers", "why_tests_cant": "all sets, set iteration orders and text lengths", "anchors": ["src/pyromat/__init__.py:info", "src/pyromat/__init__.py:search"]}
{"id": "C93", "title": "info() for one substance tells all its data", "statement": "info() for one substance - given as object, identifier, one-element set, list, tuple or other iterable, or as the only one satisfying criteria - writes the same summary to the target stream: title, formula on two aligned lines that overlay to symbols with amounts and charge, then names, molecular weight, CAS and InChI identifiers, class, file and time in labelled lines, and the documentation wrapped without loss; unknown identifiers are refused with a parameter error and nothing written; the caller's objects are left alone.", "quantifier": "all substances (any atoms, names, texts), all ways of naming one, all target streams", "why_tests_cant": "all texts and atom tables", "anchors": ["src/pyromat/__init__.py:info", "src/pyromat/__init__.py:get", "src/pyromat/utility.py:print_line"]}
{"id": "C94", "title": "The shipped ideal gases answer every call within their range", "statement": "For every ideal gas that comes with the package, every property method returns a number at every temperature within the limits of its data file, both included, and raises a parameter error outside; a call without arguments answers for the default state.", "quantifier": "all 982 shipped data files of classes ig and ig2, all temperatures and pressures, property methods and unit systems", "why_tests_cant": "the tests use a handful of substances at a few temperatures", "anchors": ["src/pyromat/registry/ig.py:_argparse", "src/pyromat/registry/ig2.py:_argparse", "src/pyromat/data/ig", "src/pyromat/data/ig2"]}
{"id": "C95", "title": "Heat capacities of the shipped ideal gases are physical", "statement": "For every ideal gas that comes with the package and every state that is answered, cp exceeds 2.33 times and cv 1.33 times the gas constant, 1 < gam, cp and cv differ by the gas constant, and enthalpy and internal energy rise with temperature.", "quantifier": "all 982 shipped data files, all states, forms of call and unit systems", "why_tests_cant": "a sign error in one coefficient of one of 2000 polynomials shows only in some interval of temperatures", "anchors": ["src/pyromat/registry/ig.py:cp", "src/pyromat/registry/ig.py:cv", "src/pyromat/registry/ig.py:gam", "src/pyromat/registry/ig.py:h", "src/pyromat/registry/ig2.py:cp", "src/pyromat/registry/ig2.py:cv", "src/pyromat/registry/ig2.py:gam", "src/pyromat/registry/ig2.py:h", "src/pyromat/data/ig", "src/pyromat/data/ig2"]}
{"id": "C96", "title": "Enthalpy and internal energy can be inverted for the shipped ideal gases", "statement": "For every ideal gas that comes with the package, a call with an enthalpy (or internal energy) that prints no warning gives a state whose enthalpy (internal energy) is the one given to 8 (10) parts in a million and the small jump of the data at its breakpoints; the temperature recovered from the enthalpy (internal energy) of a state differs from the temperature of the state by no more than the corresponding amount divided by a heat capacity.", "quantifier": "all 982 shipped data files, all targets, forms of call, arrays of any length and unit systems", "why_tests_cant": "continuum of targets; the accuracy depends on the slopes of all the polynomials", "anchors": ["src/pyromat/registry/ig.py:_iter1", "src/pyromat/registry/ig.py:_argparse", "src/pyromat/registry/ig2.py:_iter1", "src/pyromat/registry/ig2.py:_argparse", "src/pyromat/data/ig", "src/pyromat/data/ig2"]}
{"id": "C97", "title": "The shipped multi-phase substances have a sound saturation curve", "statement": "For every multi-phase substance that comes with the package: at any temperatures from the triple to the critical point the saturation densities are positive and the liquid is denser than the vapor below the critical temperature; the saturation pressure is positive and grows with temperature; every pressure from the triple to the critical pressure is the saturation pressure of exactly one temperature in the searched range, and the saturation temperature returned without a warning is one step of the search or less from a temperature with that saturation pressure to one part in a million.", "quantifier": "all 7 shipped data files of this class, all temperatures and pressures in the range, arrays of any length, all unit systems", "why_tests_cant": "continuum of temperatures; the ordering of two fitted curves that meet at the critical point cannot be sampled", "anchors": ["src/pyromat/registry/mp1.py:_ps", "src/pyromat/registry/mp1.py:_dsl", "src/pyromat/registry/mp1.py:_dsv", "src/pyromat/registry/mp1.py:_Ts", "src/pyromat/registry/mp1.py:ps", "src/pyromat/registry/mp1.py:ds", "src/pyromat/registry/mp1.py:Ts", "src/pyromat/data/mp"]}
{"id": "C98", "title": "The shipped multi-phase substances are thermodynamically consistent", "statement": "For every multi-phase substance that comes with the package, pressure, entropy, energy, enthalpy, Gibbs energy and heat capacity derive from one Helmholtz energy at every positive temperature and density; what cv, cp and the speed of sound return are the derivatives of what e, h and p return at constant density, pressure and entropy.", "quantifier": "all 7 shipped data files, all temperatures inside the limits and all positive densities off the saturation curve, all unit systems", "why_tests_cant": "derivatives over a continuum of states for all coefficients of all files", "anchors": ["src/pyromat/registry/mp1.py:_p", "src/pyromat/registry/mp1.py:_s", "src/pyromat/registry/mp1.py:_e", "src/pyromat/registry/mp1.py:_h", "src/pyromat/registry/mp1.py:cv", "src/pyromat/registry/mp1.py:cp", "src/pyromat/registry/mp1.py:a", "src/pyromat/data/mp"]}
{"id": "C99", "title": "Molecular weights agree with the atoms", "statement": "For every shipped substance (ideal gas or multi-phase) the molecular weight is the sum of the standard atomic weights of its atoms to 3 parts in 10 000; for a dynamic mixture of shipped gases mass() is the atomic weights times atoms() to the same accuracy, so that two mixtures with the same atoms, as before and after a reaction, have the same mass.", "quantifier": "all 989 shipped data files, all dynamic mixtures of shipped gases of any shape with nonnegative amounts, all consistent units of mass and amount", "why_tests_cant": "a wrong entry in one of 989 files affects only mixtures with that substance", "anchors": ["src/pyromat/registry/ig.py:mw", "src/pyromat/registry/ig.py:atoms", "src/pyromat/igtools.py:mass", "src/pyromat/igtools.py:atoms", "src/pyromat/registry/mp1.py:mw", "src/pyromat/data"]}
{"id": "C100", "title": "Mixtures of shipped gases have physical heat capacities and can be inverted", "statement": "For a mixture (class igmix) of any shipped gases in any positive amounts, by mole or mass, cp is at least 2.33 and cv at least 1.33 times the gas constant and 1 < gam <= 1.752 at every answered state; a call with an enthalpy or internal energy that prints no warning reports it to 8 or 10 parts in a million and the jump of the data (300 kJ/kmol). The shipped mixtures (air and two shielding gases) list shipped gases only, answer exactly from 200 to 6000 K and have molecular weights 28.9649, 26.7136 and 26.6718 kg/kmol to 0.0001.", "quantifier": "all lists of shipped gases and amounts, all states, forms of call, arrays of any length and unit systems; the 3 shipped mixtures", "why_tests_cant": "any number of constituents out of 982 and a continuum of amounts and states", "anchors": ["src/pyromat/registry/igmix.py:_bootstrap", "src/pyromat/registry/igmix.py:cp", "src/pyromat/registry/igmix.py:cv", "src/pyromat/registry/igmix.py:gam", "src/pyromat/registry/igmix.py:h", "src/pyromat/registry/igmix.py:e", "src/pyromat/registry/igmix.py:_argparse", "src/pyromat/data/igmix"]}
{"id": "C101", "title": "Multi-phase substances become ideal gases at vanishing density", "statement": "For every multi-phase substance that comes with the package and every temperature strictly inside its limits, as the density falls to zero the properties returned for that temperature and density tend to those of an ideal gas: pressure to density times gas constant times temperature, internal energy to a function of temperature alone, enthalpy to that plus R T, entropy plus R log density to a function of temperature alone, the heat capacities to the slope of that energy and R more, the speed of sound to sqrt(R T cp/cv); the gas constant is the universal one over the molecular weight to one part in a million, and the limiting heat capacity at constant volume is at least 2 R.", "quantifier": "all 7 shipped data files of this class, all temperatures inside the limits, all accuracies, all unit systems", "why_tests_cant": "a limit over a continuum of densities for every temperature; a wrong coefficient of one term shows at low density only", "anchors": ["src/pyromat/registry/mp1.py:_ao", "src/pyromat/registry/mp1.py:_ar", "src/pyromat/registry/mp1.py:p", "src/pyromat/registry/mp1.py:e", "src/pyromat/registry/mp1.py:h", "src/pyromat/registry/mp1.py:s", "src/pyromat/registry/mp1.py:cv", "src/pyromat/registry/mp1.py:cp", "src/pyromat/registry/mp1.py:a", "src/pyromat/data/mp"]}
{"id": "C102", "title": "Constants and limits are reported in the working units and bound what calls accept", "statement": "critical(), triple(), Tlim(), plim(), R() and mw() of a multi-phase substance, and critical(), triple() and mw() of steam, are the values of the data file in the working units; ps and the liquid-vapor methods answer at a temperature exactly when it is from the reported triple to the reported critical temperature, Ts and those methods refuse pressures outside the reported ones, and a temperature given with a density is accepted exactly within Tlim(). For every shipped multi-phase substance the triple point is below the critical point, both are within the limits, and at the critical temperature ps gives the critical pressure within 0.1 % and ds the critical density within 2.1 %.", "quantifier": "all substances, unit systems, temperatures and pressures; all 7 shipped data files", "why_tests_cant": "all unit systems and the continuum of arguments around the limits", "anchors": ["src/pyromat/registry/mp1.py:critical", "src/pyromat/registry/mp1.py:triple", "src/pyromat/registry/mp1.py:Tlim", "src/pyromat/registry/mp1.py:plim", "src/pyromat/registry/mp1.py:R", "src/pyromat/registry/mp1.py:mw", "src/pyromat/registry/if97.py:critical", "src/pyromat/registry/if97.py:triple", "src/pyromat/registry/if97.py:mw", "src/pyromat/registry/mp1.py:ps", "src/pyromat/registry/mp1.py:ds", "src/pyromat/registry/mp1.py:Ts"]}
{"id": "C103", "title": "Entropy of the shipped ideal gases rises with temperature and can be inverted", "statement": "For every ideal gas in the distribution, in every unit system, the entropy at fixed pressure rises with temperature by at least 2.33 R times the logarithm of the ratio of the absolute temperatures, but for less than 0.08 kJ/kmol/K; a call given an entropy and a pressure, or an entropy and a density, that prints no warning answers for a state with that entropy within about ten parts in a million plus that step, and a temperature recovered from an entropy is the original one within the same bounds.", "quantifier": "all 982 shipped ideal gases, unit systems, temperatures, pressures, densities between 1e-30 and 1e30 kmol/m3, arrays", "why_tests_cant": "the continuum of temperatures for every data file, and the limits between pieces of a fit", "anchors": ["src/pyromat/registry/ig.py:s", "src/pyromat/registry/ig2.py:s", "src/pyromat/registry/ig.py:T_s", "src/pyromat/registry/ig2.py:T_s", "src/pyromat/registry/ig.py:_iter1", "src/pyromat/registry/ig2.py:_iter1"]}
{"id": "C104", "title": "Unit conversions in floating point are accurate to a few roundings", "statement": "If every arithmetic operation and every constant is accurate to a relative error eps (2^-53 for doubles, barring overflow and underflow), then every conversion, with every unit, exponent and mass-molar change, raises what it raises in exact arithmetic or returns numbers within 72 eps of the exact ones times the size of the exponent; temperature scales are right to 9 eps (T + 300 K); and a value converted to another unit and back returns within 5 eps.", "quantifier": "all units, exponents, values and arrays, molecular weights, settings of the constants, and every arithmetic with relative error eps per operation", "why_tests_cant": "rounding errors depend on every intermediate value; no sample bounds them", "anchors": ["src/pyromat/units.py:Conversion.__call__", "src/pyromat/units.py:setup", "src/pyromat/units.py:matter", "src/pyromat/units.py:temperature_scale"]}
{"id": "C105", "title": "Properties of shipped ideal gases in floating point", "statement": "If every arithmetic operation, logarithm and constant is accurate to a relative error eps (2^-53 for doubles, barring overflow and underflow), then for every shipped ideal gas, in every unit system, cp, cv, h, e, s, g and f, called with numbers or arrays of temperatures and of pressures, densities or specific volumes, return for every element between the limits the exact value of the property within 400 eps (300 eps for one temperature and one pressure) times the size of the terms that are added up, at a temperature that is off by at most 4.1 eps (T + 300 K), and not at all if temperatures are in kelvin; elements outside the limits are NaN, and an error is raised if all are.", "quantifier": "all shipped ideal gases, unit systems, arrays of temperatures and of pressures, densities or volumes, and every arithmetic with relative error eps per operation", "why_tests_cant": "cancellation between large terms depends on the coefficients of every file and on every temperature; no sample bounds it", "anchors": ["src/pyromat/registry/ig.py:ig._cp", "src/pyromat/registry/ig.py:ig._h", "src/pyromat/registry/ig.py:ig._s", "src/pyromat/registry/ig.py:ig._g", "src/pyromat/registry/ig2.py:ig2._cp", "src/pyromat/registry/ig2.py:ig2._h", "src/pyromat/registry/ig2.py:ig2._s", "src/pyromat/registry/ig2.py:ig2._g"]}
{"id": "C106", "title": "The ideal-gas law in floating point", "statement": "If every arithmetic operation and every constant is accurate to a relative error eps (2^-53 for doubles, barring overflow and underflow), then for a call with single numbers at a temperature that is not within rounding of a limit of the gas: d(T,p), v(T,p) and p(T=,d=) return the exact values within 240 eps of themselves; T(p=,d=) the exact temperature within 230 eps (T + 300 K); and the pressure computed from the density computed from a pressure is that pressure within 480 eps.", "quantifier": "all ideal gases whose data begin at 200 K or above (all shipped ones do), unit systems, temperatures, pressures and densities, and every arithmetic with relative error eps per operation", "why_tests_cant": "rounding errors depend on every intermediate value; no sample bounds them", "anchors": ["src/pyromat/registry/ig.py:ig._argparse", "src/pyromat/registry/ig.py:ig.d", "src/pyromat/registry/ig.py:ig.v", "src/pyromat/registry/ig.py:ig.p", "src/pyromat/registry/ig.py:ig.T", "src/pyromat/registry/ig2.py:ig2.d"]}
{"id": "C107", "title": "Temperatures are found from enthalpies and energies", "statement": "When an enthalpy (or internal energy) that the gas has at some temperature within its limits is given back together with a pressure, density, volume or entropy, the call succeeds, prints no convergence warning and returns that temperature to about a part in a million - for each element of arrays alike. (Proved for the gases whose cp(), respectively cv(), varies by at most a factor of 5/3, which 681 respectively 588 of the 982 do, and temperatures at least 50 K from the limits of the file.)", "quantifier": "all shipped ideal gases, unit systems, arrays of enthalpies or energies, and second arguments", "why_tests_cant": "twenty passes of an iteration started in the middle of the range must end near the answer from every target; tests sample a few targets", "anchors": ["src/pyromat/registry/ig.py:ig._iter1", "src/pyromat/registry/ig.py:ig._argparse", "src/pyromat/registry/ig2.py:ig2._iter1", "src/pyromat/registry/ig.py:ig.T"]}
{"id": "C108", "title": "The self-test of an ideal gas tells whether its data are sound", "statement": "The _test() of an ideal gas returns False if its temperature limits do not ascend, do not match the number of pieces, or a piece does not have the right number of coefficients, and True if these and all other criteria hold.", "quantifier": "all stored data, tables, gases and unit systems, and all shipped gases", "why_tests_cant": "a verdict over every possible table; no test of the package calls the self-test", "anchors": ["src/pyromat/registry/ig.py:ig._test", "src/pyromat/registry/ig2.py:ig2._test"]}
{"id": "C109", "title": "The self-test of a multi-phase substance tells whether its data are sound", "statement": "The _test() of a multi-phase substance returns True when the documented criteria hold and False otherwise: the integrity checks accept exactly the documented form of the coefficients, and a comparison with tabulated values succeeds exactly when every value agrees to the given fraction.", "quantifier": "all contents of the coefficient groups, tables and outcomes of the property methods", "why_tests_cant": "the form of nested lists is unbounded, and a verdict must fail for every deviation; no test of the package calls the self-test", "anchors": ["src/pyromat/registry/mp1.py:mp1._test", "src/pyromat/utility.py:proptest"]}
{"id": "C110", "title": "An interrupted updatefiles() loses no entry and can be repeated", "statement": "When a quiet updatefiles() ends at any point - between two file operations or in the middle of a write - every data file is as it was, or holds an entry that is in memory, or has been suppressed (deleted with deletefiles) because its record was in conflict or removed from the collection; entries that were saved stay; whatever is then read was on file before or is in memory; and after any number of interrupted calls the next complete one succeeds, after which a load gives exactly the collection in memory.", "quantifier": "all collections, files and directories, all points of interruption, incomplete writes, and any number of interrupted calls", "why_tests_cant": "a crash can happen at any operation and any byte, in any number of calls; tests run to completion", "anchors": ["src/pyromat/dat.py:updatefiles", "src/pyromat/utility.py:red_repair", "src/pyromat/utility.py:suppress_file"]}
{"id": "C111", "title": "Whatever is done in a session can be saved and read again", "statement": "Start from any data files and an empty collection, then load, clear, add, change and remove entries, begin updates of the files that may be interrupted anywhere, and change files by other means, in any order: at any point a quiet updatefiles() that is not interrupted succeeds, and the next session that loads the files finds exactly the entries that were in memory.  A session that only loads conflict-free files changes nothing when it updates.", "quantifier": "all data files and all histories of loads (with any configuration, failing or not), additions, changes, removals, interrupted updates and outside changes of files", "why_tests_cant": "histories are unbounded and their steps interact through files and memory; tests run one history", "anchors": ["src/pyromat/dat.py:load", "src/pyromat/dat.py:new", "src/pyromat/dat.py:clear", "src/pyromat/dat.py:updatefiles"]}
{"id": "C112", "title": "Polynomials of the multi-phase class are evaluated accurately", "statement": "Every polynomial of the documented form in one or two variables, and its first and second derivatives, come out of the evaluation in floating point with an error of no more than about three roundings per power of the sizes of the terms they are made of; asking for fewer derivatives returns the very same rounded numbers; without rounding the evaluation is the exact one.", "quantifier": "all lists of groups, coefficients, exponents and positive arguments, and all arithmetics with a bounded relative error, double precision among them", "why_tests_cant": "the rounding errors of nested Horner schemes depend on all coefficients and arguments; tests compare a few values with a tolerance", "anchors": ["src/pyromat/registry/mp1.py:_poly1", "src/pyromat/registry/mp1.py:_poly2"]}
{"id": "C113", "title": "Pressures of multi-phase substances are accurate in floating point", "statement": "For every residual Helmholtz energy of the documented form without non-analytic terms, the energy, its first derivatives and the pressure at a given temperature and density come out of the evaluation in floating point with an error of no more than a stated number of roundings of the sizes of the terms they are made of; for the shipped substances other than water and carbon dioxide, within the documented limits and in double precision, the pressure is off by no more than 1.1e-10 of that size.", "quantifier": "every data of the documented form with bounded exponents, every positive temperature and density with bounded arguments of exponentials, every arithmetic accurate to a bound; for the shipped substances every temperature above the lower limit and every density up to the upper limit", "why_tests_cant": "cancellation between terms of different sign depends on the state; a test evaluates at a few states and compares with numbers computed in the same arithmetic", "anchors": ["src/pyromat/registry/mp1.py:_ar", "src/pyromat/registry/mp1.py:_p"]}
{"id": "C114", "title": "Energies and entropies of multi-phase substances are accurate in floating point", "statement": "For every ideal part of the documented form, its value and first derivatives, and for every such substance without non-analytic terms the internal energy, enthalpy, entropy, free energy and Gibbs energy at a given temperature and density, come out of the evaluation in floating point with an error of no more than a stated number of roundings of the sizes of the terms they are made of; for the shipped substances other than water and carbon dioxide, within the documented limits and in double precision, they are off by no more than 1.1e-10 of that size.", "quantifier": "every data of the documented form with bounded exponents, every positive temperature and density with bounded arguments of exponentials, every arithmetic accurate to a bound; for the shipped substances every temperature and density within the limits", "why_tests_cant": "cancellation between terms of different sign and in 1-exp(-x) depends on the state; a test evaluates at a few states and compares with numbers computed in the same arithmetic", "anchors": ["src/pyromat/registry/mp1.py:_ao", "src/pyromat/registry/mp1.py:_e", "src/pyromat/registry/mp1.py:_h", "src/pyromat/registry/mp1.py:_s", "src/pyromat/registry/mp1.py:_f", "src/pyromat/registry/mp1.py:_g"]}
{"id": "C115", "title": "Saturation pressures and densities are accurate in floating point", "statement": "For every saturation curve of one of the four documented forms, the saturation pressure or density at a temperature below the critical one comes out of the evaluation in floating point with an error of no more than a stated number of roundings of its size; the number grows no faster than Tc/(Tc-T) as the critical temperature is approached. For every shipped substance in double precision, from the triple point to within 1e-7 of the critical temperature, the saturation pressure and the vapour density have a relative error of at most 2.1e-11 times Tc/(Tc-T), and the liquid density an error of at most that multiple of the size of its terms.", "quantifier": "every curve of the documented forms with bounded exponents, every positive temperature below the critical one, every arithmetic accurate to a bound; for the shipped substances every temperature from the triple point to within 1e-7 of the critical point", "why_tests_cant": "digits are lost in 1-T/Tc as the critical point is approached and are then amplified by powers and exponentials; a test evaluates at a few temperatures and compares with numbers computed in the same arithmetic", "anchors": ["src/pyromat/registry/mp1.py:_satfit", "src/pyromat/registry/mp1.py:_ps", "src/pyromat/registry/mp1.py:_dsl", "src/pyromat/registry/mp1.py:_dsv"]}
{"id": "C116", "title": "Temperatures found from enthalpies and internal energies are accurate in floating point", "statement": "The search for the temperature of a given enthalpy or internal energy, carried out in floating point, never leaves the temperature limits, ends with a number, NaN or an analysis error, and, when it stops without a warning, ends at a point where the function it inverts has the target value to the tolerance of the search times a stated factor, apart from jumps of the function, the error of its evaluation and the rounding of the steps. For every shipped ideal gas whose temperature limits the arithmetic holds exactly (in double precision the 868 of 982 gases with limits in whole kelvins), the enthalpy at the temperature found is the one given within 8.1 parts per million, the internal energy within 11, apart from the jump of the data file at its limits (30 kJ/kmol, 300 for Rb) and 0.000006 kJ/kmol; and a temperature is recovered from its own enthalpy or internal energy within those energies divided by 2.33 (1.33) times the gas constant.", "quantifier": "every target value, every function and derivative within stated error bounds, every arithmetic accurate to a bound, every number of passes; every shipped ideal gas whose limits the arithmetic holds", "why_tests_cant": "the search takes a different path for each target and rounds at every step, so that agreement at sampled values says nothing about others, and a test computes the value it compares with in the same arithmetic", "anchors": ["src/pyromat/registry/ig.py:_iter1", "src/pyromat/registry/ig.py:_h", "src/pyromat/registry/ig.py:_e", "src/pyromat/registry/ig.py:_argparse", "src/pyromat/registry/ig2.py:_iter1", "src/pyromat/registry/ig2.py:_h", "src/pyromat/registry/ig2.py:_e"]}
{"id": "C117", "title": "Properties of ideal-gas mixtures are accurate in floating point", "statement": "Computed in floating point, the mole and mass fractions of a mixture of n ideal gases, given in any amounts by mole or by mass, are off by at most 1.01(n+7) roundings of themselves and the molecular weight by 1.01(2n+9). The density and the specific volume at a temperature and a pressure, and the pressure at a temperature and a density, are off by at most 2.1(n+120) roundings of themselves, and a pressure is recovered from the density computed from it within 4.1(n+120). The specific heats, enthalpy, internal energy, entropy, Gibbs energy and free energy that the methods of the mixture return, in any unit system, are those of the exact mixture rules at a temperature that differs by the rounding of its conversion to kelvin, within 71(n+10) roundings of the size of the terms that are added up. For the three mixtures that come with the package, in double precision and with temperatures in kelvin, that is 1.2e-13 of this size at every temperature from 200 K to 6000 K and every positive pressure.", "quantifier": "every mixture of shipped ideal gases, with any number of constituents in any positive amounts by mole or by mass; every temperature within the limits and every positive pressure; every unit system; every arithmetic accurate to a bound", "why_tests_cant": "the error grows with the number of constituents and depends on all amounts, and a test computes the value it compares with in the same arithmetic", "anchors": ["src/pyromat/registry/igmix.py:_bootstrap", "src/pyromat/registry/igmix.py:cp", "src/pyromat/registry/igmix.py:cv", "src/pyromat/registry/igmix.py:h", "src/pyromat/registry/igmix.py:e", "src/pyromat/registry/igmix.py:s", "src/pyromat/registry/igmix.py:g", "src/pyromat/registry/igmix.py:f", "src/pyromat/registry/igmix.py:d", "src/pyromat/registry/igmix.py:v", "src/pyromat/registry/igmix.py:p"]}
