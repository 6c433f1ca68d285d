# Formal model of PYroMat in Lean 4 - design

Source: `/repo/src/pyromat` (version string 2.2.6).  Everything below `lean/Verif/` is
Lean 4.33.0 + single Mathlib modules.  Each area has up to four kinds of file:

* `Model.lean` - the code, function by function, with a `/repo` citation on every definition;
* `Spec.lean` - the small independent specification a reader compares the English property to;
* `Lemmas.lean` - helpers;
* `Props.lean` - the property theorems (one section per `Cnn`), each followed by a
  non-vacuity `example`.

## Trusted base

* Lean's kernel; the only axioms used are `propext`, `Classical.choice`, `Quot.sound`
  (Lean core / Mathlib).  No `sorry`, `admit`, own axioms, `native_decide`, `bv_decide`.
* The reading of the Python text into the model (nothing in `/repo` is executed).
* IEEE floating point is idealised as the exact ordered field (`K`, instantiated at `Q`/`R`):
  rounding, overflow, NaN propagation are *not* modelled unless a section says so.  `Verif/Float` models rounding
  (not overflow or underflow) for the claims that say so: every operation accurate to a relative error eps.
* NumPy arrays are lists (or single elements when the routine is elementwise); shapes are
  only modelled where the property is about shapes.
* The file system, JSON parsing and `exec` of configuration/registry files are parameters
  (a file either fails to parse or yields a finite dictionary).
* Printing (warnings, verbose output) is not modelled, except as a flag where a property
  is about the warning.

## Plan per property

| id | model | proof |
|----|-------|-------|
| C01-C03 | `Conversion.__call__` over association-list tables in any field; `setup` for arbitrary constants | field algebra; `zpow` laws; negation witness for `exponent=0` |
| C04 | the nine tables of `setup` as functions of its arguments | positivity of every entry, unit identities by `field_simp` |
| C05 | `matter` | factor = g(from)/g(to) with g(mass)=table/mw; algebra |
| C06 | error branch of `__call__`, `matter`, `ismass`, `temperature_scale` | case analysis; negation witnesses for the two silent paths |
| C07, C08 | `temperature_scale` branch by branch | affine maps; bound on the rounded Fahrenheit offset |
| C09, C10 | gauge/abs; returned array and caller's array as a pair | algebra; list lemmas |
| C11-C15, C17 | `PMConfigEntry`, `PMConfig` as a state machine with Python values | invariants by induction over histories |
| C16 | `PMConfig.load` worklist over an abstract finite file system | well-founded measure, invariant on visited files, last-writer fold |
| C18 | `def_T`, `def_p` on top of units | C02/C07 |
| C19 | `split_lines` on character lists | induction over words; counterexamples for the lead/width parts |
| C20 | `suppress_file`, `revive_file` over a map file system | case analysis |
| C21-C24 | `dat.load` as a fold over a directory tree, check and normal mode | fold invariants, refinement to first/last-match spec |
| C25, C26 | `get`, `search` | `search` = filter by the conjunction of documented criteria |
| C27 | `regload` | as C21 |
| C28 | `hill` | permutation invariance through sorting; negation for the charge branch |
| C29 | `_argparse` decision logic of ig / ig2 | decision table over arbitrary argument lists |
| C30, C36 | numeric branches of `_argparse` | real algebra with `log`/`exp` |
| C31, C32 | Shomate and NASA formulas as written (Horner) | `HasDerivAt` |
| C33, C34 | `_crange`, out-of-bounds masking | list induction |
| C35 | `_iter1` with fuel = the code's own iteration limit, arbitrary callback | loop invariants |
| C37 | property wrappers with unit configuration | factor algebra; negation for `hsd` |
| C38 | `igmix._bootstrap` and weighted sums | list sums, `Real.log` inequalities |
| C63 | caller's arrays as cells of the ideal-gas pipeline | case analysis; negation witnesses |
| C64, C65 | `igmix._bootstrap` with zero amounts and unknown species, over call histories | list sums; negation witnesses |
| C39-C45 | `IgtMix` as substances plus a numpy array (shape, values) with one row per substance; `parse_mixstr` over characters | refinement to the map (substance, position) -> amount; induction on the list of substances, on shapes and on the terms of the string |
| C46-C50, C56 | `_poly1`, `_poly2`, `_ao`, `_ar`, `_satfit`, property formulas | induction on coefficient lists, `HasDerivAt` |
| C51 | dome branch of `_argparse`, mixing formulas | field algebra |
| C52, C53 | `_hybrid1` (scalar element) | loop invariant, intermediate value theorem |
| C54, C55 | `_argparse`, `_sat_argparse` decision logic; `_Ts` by iteration | decision tables; negation witnesses below the triple point |
| C57, C58 | `solve1n`, `_vectorize_args` | loop invariants; negation for silent failure |
| C59 | `_peval` | induction over the list with a division-free invariant, derivatives by composition rules |
| C60 | `_region`, every property method, `Tlim`, `plim` | case analysis; lists by induction |
| C61 | `_ps`, `_Ts`, `ps`, `Ts` | quadratic algebra, one-branch condition, intermediate value theorem |
| C66 | `_g1`, `_g2`, `_g5`, `h`, `s`, `d`, `e`, `cp`, `cv` | chain rule from C59 |
| C67 | `_f3`, region 3 of the same methods | bisection invariant, intermediate value theorem, chain rule |
| C68 | the quality branch, `hsd` | algebra; agreement element by element |
| C69 | `_argparse` to the property methods of `mp1` | provenance of every element returned (`Origin`), unit round trips, lever rule |
| C70 | `_d`, `_T`, `_Ts`, `_hybrid1`, `_tditer`, `_tpiter`, `_argparse` | bracket invariant of the solver, carried through `Origin` to the numbers returned; warnings turned into exceptions (`quietSol`) |
| C71 | `_argparse`, every property method, `T_h`, `T_s`, saturation methods of `mp1` in two configurations | arguments equal in SI give the same internal states, converted back by unit algebra |
| C72 | `state`, `hsd` of `mp1` | closed form of both results, compared element by element with the methods |
| C73 | the energy methods of `mp1` | closed forms of the methods at one element, algebra of the Helmholtz formulas |
| C74 | `cv`, `_cv` and `e` of `mp1` | chain rule along the saturation curves at constant density; smoothness of the fitted residual part |
| C75 | `cp`, `gam`, `a` of `mp1` | implicit function theorem gives the lines of constant pressure and entropy; chain rule along them |
| C76 | the limits `_d`, `_T` and `_argparse` hand to the solvers | every answer stays within its limits (invariant of the solver loop); the limits lie on one side of the saturation curve |
| C77 | the same, on scalar calls | a bracketed element always ends with a number (induction over the passes); the limits of each form bracket the solution |
| C78 | `Mp/Quality.lean`: every method with its `quality` keyword, `T_h`, `T_s`, `d_s` | case analysis on the bound call; `AddsQuality` is the specification |
| C79 | the caller's arrays kept by the model of `_argparse` (`MOut.callerT` ...) | which arrays stay uncopied for each form, and what is written to them |
| C80 | the masked array loops of `_argparse` and of each inversion | each inversion treats an element of an array as it treats the element alone; composed through `_argparse` and the methods |
| C81 | `IgtMix.cp, h, e, s, g, f`, `_propeval`, `_sp` | the accumulation loop is a weighted sum; each term is what the constituent's own method returns (C32 model); entropy terms at the partial pressure |
| C82 | `IgtMix.cp, cv, gam, h, e, s, g, f, R` | the identities hold for each constituent (coherent data); sums, the mixing terms cancel; unit conversions cancel |
| C83 | `IgtMix._argparse` and `T, p, d, v` | inversion of each stage of `_argparse`: broadcasting keeps what position `i` reads, conversions are inverse to each other |
| C84 | `IgtMix._argparse`, `_broadcast_shape`, defaults | decision tree of the rules; shapes: broadcasting succeeds for arrays that suit one shape |
| C85 | `IgtMix.toigmix`, `fromigmix` with the model of `igmix` (C38) | the loop over positions is row-major; the dictionary it writes is a listing to which the theorems about static mixtures apply; the partial-pressure form of the static entropy (C38) against that of the dynamic one (C81) |
| C86 | range test at the end of `IgtMix._argparse`, `_propeval`, all property methods | the limits the test uses are the lowest lower and the highest upper limit of the constituents (as in C43); `numpy.broadcast_to` results are read-only, so the masking write raises when the temperatures were given; NaN carries through the sums over constituents |
| C87 | `if97.hs`, `es`, `ds`, `ss` with the model of `ps`, `Ts`, `_g1`, `_g2` and the unit conversion | both sides reduce to the same Gibbs energies at the saturation state; the unit factor is compared with the documented one; the argument test is modelled with the type of the value a conversion returns, since a Python number has no `any` |
| C88 | `if97.T_h` with `_th1`, `_th2a`, `_th2b`, `_th2c`, `_th3`, `_th5`, `_b23`, `_b2bc` and the unit factors | each zone of the pressure-enthalpy plane is reduced to its equation; the answers of the two iterations are shown to pass their own convergence test, which is the error in enthalpy (and pressure) by the Gibbs or Helmholtz energy; the mixture round trip follows from the lever rule |
| C89 | `if97.T_s` with `_ts1`, `_ts2a`, `_ts2b`, `_ts2c`, `_ts3`, `_ts5`, and the calls of `Ts` and `s` inside | as C88, in the default units; in other units the calls inside take bar and kelvin for working units, which is shown by two disagreements |
| C90 | `utility.red_repair`: the quiet loop, the menus as a function of the list of answers, `os.remove` and `suppress_file` on a flat file system | a conflict's files are swept one by one; induction over conflicts and over answers; the effect on `load` through the records found below the data directories |
| C91 | `dat.updatefiles` with both checks, repair, unreadable files, added, changed and removed entries | the report of the check is described by C23; the three write steps become lists of writes and removals with distinct targets; each identifier's records afterwards are computed file by file |
| C92 | `info` with several members: sort, column widths, heading, rows, as the list of writes to the target stream | the rows are described column by column; the widths bound every text; a stable sort by a total order on distinct identifiers does not depend on the order given; criteria through C26 |
| C93 | `info` with one member: `pop`, title, the two formula lines, labelled lines, time, documentation through C19 | induction over the atoms for the overlay of the two lines; the writes up to the first exception |
| C94 | the 982 shipped data files as literals (`Verif/Shipped/Data*.lean`, written by `tools/shipped.py`), `ig` and `ig2` objects made from them | the limits and rows of every file are checked by kernel evaluation of a verified checker; C34 and C31 for the rest |
| C95 | as C94; polynomials bounded on every piece by Horner evaluation over natural numbers with bisection | the checker is proved sound over the reals for all coefficient lists; growth through the mean value theorem on every piece and the jumps between pieces |
| C96 | as C94; `_iter1` of C30 | the regularity C30 asks for is derived from the checked bounds of every file |
| C97 | `data/mp/*.hpd` (7 files) as data; saturation methods of C55 | one checker per curve (signs of the coefficients, intervals in the scaled temperature), run on all files by the kernel and proved right: order, monotony and ends of the curves; intermediate values for the inverse |
| C98 | as C97; `_ao`, `_ar`, `cv`, `cp`, `a` | checked side conditions of C50, C74 and C75 for every file; the non-analytic terms of carbon dioxide and water by replacing the wrong mixed derivative, which these routines do not use |
| C99 | molecular weight and atoms of all 989 data files; `mass`, `atoms` of C40 | a table of standard atomic weights as specification, each file checked by the kernel to 3 parts in 10 000; sums over the constituents for mixtures |
| C100 | `data/igmix/*.hpd` (3 files) as data; mixtures of C38 made of the gases of C94 | weighted means of the bounds of C95 and C96; identifiers of the 982 files proved distinct so that each mixture finds its constituents |
| C101 | as C98 | limits at zero density of every term of the Helmholtz energy and of its scaled density derivatives (powers, exponentials, Gaussian and non-analytic terms); the files are checked to have only positive powers of density (except Gaussian terms of methane, which leave a part of order e⁻⁴⁰) |
| C102 | `critical`, `triple`, `Tlim`, `plim`, `R`, `mw` of mp1 and if97 | unit conversions as in C50; the ends of the accepted ranges from C55 and C87 with strictly monotone unit conversions; order of the limits and values of the saturation fits at the critical point checked in every shipped file |
| C103 | entropy of the shipped ideal gases: `s`, `T` given `s` with `p` or `d` | on each piece the heat capacity bounds of C97 bound the slope against ln T; the steps at the limits are computed with a table of logarithms proved to 1e-8 and checked in every shipped file; a fall at a limit is a counterexample to monotonicity; the iteration's stopping test then bounds the entropy returned |
| C104 | `units.py` with rounded arithmetic: `setup`, the nine conversion objects, `matter`, `temperature_scale` | the formulas of `setup` as trees, evaluated by any arithmetic; evaluated exactly they are the model of C01; each operation accurate to eps, rounding to 53 bits being one such arithmetic; factors in the form exp(theta) accumulate through products, quotients and powers |
| C105 | the polynomials of `ig` and `ig2` and their property methods with rounded arithmetic, for arrays of temperatures and of pressures, densities or volumes, on the shipped data | the formulas as trees in the order of the code; the size of the added terms is carried along with the number of roundings; the sizes are bounded for every shipped file and piece by a kernel-evaluated check over the coefficients |
| C106 | `d`, `v`, `p`, `T` of `ig` and `ig2` with rounded arithmetic, for single numbers | only products and quotients: roundings counted as in C104; temperatures above 200 K turn the absolute error of their scale into a relative one |
| C107 | `_iter1` as called by `_argparse` for `h` and `e`, on all shipped data | the step of a pass keeps within 0.725 of the distance (slopes within a factor 5/3, steps between pieces small against 50 K), and squares it below 45 K, so 20 passes suffice; bounds on the slope of cp checked for every file on integers in the kernel |
| C108 | the verdict of `ig._test` and `ig2._test` (not the report) up to the statement that always fails; shipped data | case analysis; numbers of coefficients of all shipped files checked in the kernel |
| C109 | the verdict of `mp1._test` on any JSON contents of `AOgroup` and `ARgroup`, `utility.proptest`; shipped data | induction over the nested lists against a separate description of legal groups; widths of shipped tables checked in the kernel |
| C110 | a quiet `updatefiles` as a list of single file operations, proved to have the same effect as the model of the whole call; ends of the process between operations, incomplete and failing writes (renaming and deleting are taken to be atomic) | invariant over the interrupted execution: each data file is in one of four states; the preconditions of C91 are preserved, so by induction over the attempts C91 applies to the last one |
| C111 | sessions as histories of steps on the pair of collection and files: load, clear, new, change and removal of an entry, interrupted or complete update, harmless outside change of files | invariant by induction over the history: one entry per identifier, every entry has a data file of its own, everything can be loaded; this discharges the preconditions of C91 and C110 |
| C112 | `_poly1` and `_poly2` with one rounded operation for each operation of the code, arguments possibly rounded before | simulation of three runs of the loops (exact, rounded, exact with all terms positive); the third is the sum of the sizes by C46/C47 |
| C113 | `_ar` (without non-analytic terms) with first derivatives and `_p` with one rounded operation for each operation of the code | errors counted operation by operation; an absolute error in the argument of an exponential becomes a relative one; bounds of the shipped data by kernel computation |
| C114 | `_ao` with first derivatives and `_e`, `_h`, `_s`, `_f`, `_g` with one rounded operation for each operation of the code | errors counted as in C113; `1-exp(-x)` amplifies by a bounded factor; a logarithm turns a relative error into an absolute one; bounds of the shipped data by kernel computation |
| C115 | values of `_satfit`, `_ps`, `_dsl`, `_dsv` with one rounded operation for each operation of the code | the error of `1-T/Tc` as a relative error with an amplification factor; the polynomial of C112 at a rounded argument; an exponential turns an absolute error into a relative one; bounds of the shipped data by kernel computation |
| C116 | `_iter1` for one element with one rounded operation for each operation of the code, `_h` and `_e` with their derivatives | the pull-back loop keeps the guess near the last step by induction on the halvings; the loop by induction on the passes; the shipped gases by the regularity of C96 and the rounding errors of C105 |
| C117 | `_bootstrap` of mixtures, the inner routines and the methods `cp`, `cv`, `h`, `e`, `s`, `g`, `f`, `d`, `v`, `p`, with one rounded operation for each operation of the code | sums by induction on the constituents: those of positive numbers keep their relative error, the others an error relative to the size of their terms; each constituent by C105, units by C104, exact values by C100 |

Disagreements between code and documented behaviour are listed at the end of this file as
they are proved.

## Disagreements found (code vs. documentation)

Each is a theorem with a concrete witness in the model; the part of the property that holds is
proved beside it as a `_partial` theorem.

* `C03_exponent_zero_defect` (`Verif/Units/Props.lean`): C03 fails at exponent 0: `length(1, 'ft', 'in', exponent=0)` returns 12, not 1 (`if exponent:` at `units.py:149` treats 0 as "not given").
* `C06_same_unknown_unit_defect` (`Verif/Units/Props.lean`): C06 fails when both names are the same unlisted string: the value is returned (`units.py:145-146`).
* `C06_temperature_scale_defect` (`Verif/Units/Props.lean`): C06 fails for `temperature_scale`: an unlisted name is silently treated as Kelvin.
* `C103_fall_defect` (`Verif/Shipped/PropsEntropyFall.lean`): **C103 disagreement.** The entropy of a gas at fixed pressure should rise with temperature. For 437 of the 982 shipped gases it falls at a limit between two pieces of the fit: as near to the limit as one likes there are temperatures `x < y` with `s(x) > s(y)`. For rubidium `ig.Rb` it falls by more than 0.07 kJ/kmol/K.
* `C108_ig2_never_passes_defect` (`Verif/Gas/PropsSelfTest.lean`): **C108 disagreement.** A gas of the second ideal-gas class whose stored data are intact never gets a verdict either: the table handed to the self-test is ignored in favour of a stored one (`ig2.py:474`), and the reference pressure is read from an attribute that is never set (`ig2.py:476`). So no gas passes.
* `C108_ig_never_passes_defect` (`Verif/Gas/PropsSelfTest.lean`): **C108 disagreement.** A gas whose stored data are intact never gets a verdict from the self-test of the first ideal-gas class: in every unit system the call fails with an error, at the latest on the unit `'pa'`, which is not listed (`ig.py:722`). So no gas passes, whatever its table says.
* `C108_shipped_never_pass_defect` (`Verif/Shipped/PropsSelfTest.lean`): **C108 disagreement.** No shipped ideal gas passes its self-test, with any table, in any unit system. All the data files of the first class are intact, and the call fails with an error for each; each file of the second class has well-formed data, yet gets the verdict False, since its pieces have the seven coefficients its formulas need and the test asks for eight (`ig2.py:393-397`).
* `C109_nan_agrees_defect` (`Verif/Mp/PropsSelfTest.lean`): **C109 disagreement.** A result that is not a number counts as agreeing with any truth value (`utility.py:817`).
* `C109_tables_ignored_defect` (`Verif/Mp/PropsSelfTest.lean`): **C109 disagreement.** The tables have no bearing on the verdict: data that pass the integrity checks pass the whole test whenever it comes to an end, even if no saturation property agrees with the table, since each comparison is joined by `or` (`mp1.py:540-554`); and data that fail the integrity checks pass as soon as one comparison agrees.
* `C109_unchecked_defect` (`Verif/Mp/PropsSelfTest.lean`): **C109 disagreement.** A negative scale, a term with a negative exponent of the second variable, and text in place of a coefficient pass the integrity checks, and a missing scale is an error instead of a verdict (`mp1.py:389-404`, `384`).
* `C10_same_unit_alias_defect` (`Verif/Units/Props.lean`): C10, aliasing: even with `inplace=False` the object returned for equal units *is* the caller's object (`units.py:145-146`), so a later in-place edit of the result edits the input.
* `C110_lost_defect` (`Verif/Data/PropsCrash.lean`): **C110 disagreement.** A changed entry is written over its only file, and `open(fil,'w')` empties the file first (`dat.py:530`): when the process ends before the text is written, the identifier is on file neither as it was before nor as it was to be, although it was in the collection before and is so after a complete update.
* `C111_copy_defect` (`Verif/Data/PropsSession.lean`): **C111 disagreement.** A new entry made by copying the data of an existing one and giving it another identifier names that entry's file, as `new` demands a `'fromfile'` item (`dat.py:334-356`, see `C62_new_fromfile_defect`). `updatefiles` then writes the new entry over the file without a warning (`dat.py:479-491`): the existing entry, unchanged in memory, is no longer on file.
* `C14_untyped_entry_defect` (`Verif/Config/Props.lean`): Disagreement with `utility.py:79-83` ("etype: ... if None, no type cast is applied"): creating an entry without a type raises `NameError`.
* `C15_partial_append_defect` (`Verif/Config/Props.lean`): C15 fails for appended parameters: `config['dat_dir'] = ['a', bad]` with an object whose `str()` raises is rejected, but `'a'` stays appended.
* `C16_import_time_defect` (`Verif/Config/Props.lean`): Disagreement: while PYroMat is being imported the object `pm.config` does not exist yet, so the warning about a repeated reference raises `AttributeError`: with the cyclic pair of files the import fails instead of skipping the repetition.
* `C17_restore_all_defect` (`Verif/Config/Props.lean`): Disagreement with the documentation of `restore_default` (`utility.py:343-349`: "if p is None, all parameters are restored"): in every state the call raises `AttributeError` and restores nothing.
* `C19_blank_line_defect` (`Verif/Text/Props.lean`): Defect: a first word that exactly fills the line is preceded by an empty line.
* `C19_double_lead_defect` (`Verif/Text/Props.lean`): Defect: a word longer than the line puts two leads on one line, which then exceeds the width (here width 6, lead `> `, the first line is 8 characters long).
* `C19_second_paragraph_defect` (`Verif/Text/Props.lean`): Defect: paragraphs after the first do not get the lead on their first line.
* `C20_overwrite_defect` (`Verif/Data/Props.lean`): C20 needs the target name to be free: if `x.hpd~` already exists, suppressing `x.hpd` silently destroys it.
* `C23_changed_defect` (`Verif/Data/Check.lean`): Disagreement: with two files for one identifier (and `dat_overwrite`, not fatal) a check made immediately after a fresh load reports the identifier as changed although nothing changed.
* `C23_unknown_class_defect` (`Verif/Data/Check.lean`): Disagreement: a check raises a data error on a file whose class is unknown (and on duplicates when they are fatal) instead of reporting it.
* `C24_recursion_defect` (`Verif/Data/Props.lean`): **C24 disagreement.** ... but a sub-directory whose name ends in `.hpd` is entered even though recursion is off: its file is loaded (`dat.py:145-153`).
* `C26_collection_defect` (`Verif/Registry/Props.lean`): Disagreement: the documentation says the collection keyword must match the prefix of the identifier (the part before the dot); the code accepts any beginning of the identifier: searching collection `i`, or `ig.N2`, matches `ig.N2O`.
* `C27_listing_order_defect` (`Verif/Registry/Props.lean`): Disagreement: which definition wins inside one directory depends on the order in which the operating system lists the files (the listing is not sorted, unlike for data files).
* `C28_charge_defect` (`Verif/Registry/Props.lean`): Disagreement: for a substance with a charge of magnitude above one `hill()` raises (an undefined variable is formatted).
* `C29_single_energy_defect` (`Verif/Gas/PropsArgs.lean`): C29 fails for a single energy or enthalpy: `cp(h=...)` follows the documented rule (one property, the other defaulted) but is always rejected, because the default added is a temperature.
* `C30_shared_entropy_defect` (`Verif/Gas/PropsMore.lean`): C30 fails for one entropy and several pressures. Whenever such a call returns, two elements with different pressures cannot both have the entropy given: all elements are given one and the same temperature.
* `C37_T_default_defect` (`Verif/Gas/PropsMore.lean`): C37 fails for `T()` with a single argument. Two configurations that differ only in the working pressure unit (bar, Pa), with the same default pressure 1.01325 stored in bar: the same density gives 300 K under the first and a parameter error under the second, because the stored number is used without conversion.
* `C39_failed_iadd_defect` (`Verif/Igt/PropsArith.lean`): **C39 disagreement.** An addition that is rejected leaves the mixture changed: after `a += b` with incompatible shapes has raised, `a` lists the substances of `b` but has no amounts for them (`igtools.py:415-423`).
* `C39_rank_defect` (`Verif/Igt/PropsArith.lean`): **C39 disagreement.** For mixtures of different rank addition depends on the order of the operands: enlarging `a` matches axes from the right, so the substance axis of the old array lines up with a position axis of the new one. Here `a` holds 3 kmol of substance 7 and 5 kmol of substance 8; in `a + b` the sum has 5 kmol of substance 7 at position (1, 0), in `b + a` it has 3 kmol (`igtools.py:427-430`).
* `C39_scale_defect` (`Verif/Igt/PropsArith.lean`): **C39 disagreement.** Scaling a mixture by a two-dimensional array whose first axis happens to match the number of substances scales the substances by different factors instead of the positions: multiplying the mixture of 3 and 5 kmol by `[[1], [2]]` gives 3 and 10 kmol (`igtools.py:497-501`).
* `C40_mass_defect` (`Verif/Igt/PropsMeasure.lean`): **C40 disagreement.** `mass()` converts with the molecular weight in the configured units as if it were in kg per kmol: with `unit_mass` g and `unit_molar` kmol a mixture of 94 kg is reported as 94 000 000 g (`igtools.py:1304-1308`).
* `C40_mw_defect` (`Verif/Igt/PropsMeasure.lean`): **C40 disagreement.** `mw()` is documented for every dynamic mixture, but when one of the constituents is itself a stored mixture, such as air, the call raises `KeyError`, in every configuration.
* `C42_rank_defect` (`Verif/Igt/PropsArith.lean`): **C42 disagreement.** The shape routine is documented to replicate NumPy's `broadcast_shapes`, but pads the shorter shape on the right: `(2, 3)` with `(3,)`, which NumPy joins to `(2, 3)`, is rejected, `(2, 3)` with `(2,)`, which NumPy rejects, gives `(2, 3)`, and two scalars give an empty array instead of a scalar (`igtools.py:589-598`).
* `C43_hull_defect` (`Verif/Igt/PropsMeasure.lean`): **C43 disagreement.** `Tlim()` is documented as the widest range over which all constituents are valid, but reports the union of the ranges: for gases valid on 200-600 K and on 300-1000 K it reports 200-1000 K, although neither gas is valid on the whole of it (`igtools.py:1518-1526`).
* `C44_empty_defect` (`Verif/Igt/PropsParse.lean`): **C44 disagreement.** The empty string is not reported as a bad mixture string: the loop variable is unset and Python raises `UnboundLocalError` (`igtools.py:25-28`).
* `C44_exponent_defect` (`Verif/Igt/PropsParse.lean`): **C44 disagreement.** A quantity in exponent notation is cut at the letter: `'1e3N2'` gives quantity 1 of a substance called `e3N2` (`igtools.py:25-34`).
* `C44_repeated_name_defect` (`Verif/Igt/PropsParse.lean`): **C44 disagreement.** A substance named twice keeps only the last quantity: `'2 N2 + 3 N2'` gives 3, not 5 (`igtools.py:35`). Stated for any letter and white-space tests and any `float` that accepts these texts.
* `C45_element_assignment_defect` (`Verif/Igt/PropsAccess.lean`): **C45 disagreement.** The documented assignment to one element, `m['N2', 4] = x`, never succeeds: after the index has been resolved the substance list is indexed with the whole tuple, a `TypeError` (`igtools.py:978`; the example in the class documentation is `igtools.py:294-300`).
* `C45_insert_units_defect` (`Verif/Igt/PropsAccess.lean`): **C45 disagreement.** `insert` without units takes the quantity in kmol although reading and every other operation use `unit_matter`: with `unit_matter` mol, inserting 2 and reading it back gives 2000 (`igtools.py:1104-1106`).
* `C45_items_units_defect` (`Verif/Igt/PropsListing.lean`): **C45 disagreement.** `items()`, documented to work like that of a dictionary, gives quantities in kmol whatever units are configured, while indexing and `todict()` give them in `unit_matter`: with `unit_matter` mol, a mixture of one kmol has the item 1 and reads 1000 when indexed with the same substance (`igtools.py:1340` and `940`).
* `C45_position_assignment_defect` (`Verif/Igt/PropsAccess.lean`): **C45 disagreement.** Nor does the documented assignment of a mixture to a position, `m[:, 4] = {...}` (`igtools.py:957-963`): every row goes through the assignment above.
* `C45_slice_defect` (`Verif/Igt/PropsAccess.lean`): **C45 disagreement.** Assigning a mixture to a slice converts its amounts, already in kmol, a second time: with `unit_matter` mol, `m[:] = m` reduces the mixture to a thousandth (`igtools.py:963`).
* `C47_pre_exponent_defect` (`Verif/Mp/PropsPoly.lean`): **C47 disagreement.** With x pre-exponent 1 and another y pre-exponent the y-derivatives are those with respect to `y^prey`: the correction depends on the x pre-exponent only (`mp1.py:767`). For `p(x, y) = (y²)^1` at `y = 3` the routine returns 1 instead of 6.
* `C49_array_defect` (`Verif/Mp/PropsAr.lean`): **C49 disagreement.** An element of an array result depends on the other elements, and is wrong: if any element is within 1e-6 of the critical density, the derivatives of all elements are computed by formulas that lose the sign of `dd - 1` (`mp1.py:1687-1701`, `1737-1746`). For `dd ((tt-1)² + (dd-1)²)` at (2, 1/2) the density derivative is 3/4, and the routine returns it when asked alone; together with the state (2, 1) it returns 7/4.
* `C49_mixed_defect` (`Verif/Mp/PropsAr.lean`): **C49 disagreement.** The mixed derivative of a non-analytic term is wrong away from the critical point as well: it uses the second temperature derivative of the distance where the mixed one is meant (`mp1.py:1789`). Carbon dioxide and water have such terms. For `dd ((tt-1)² + (dd-1)²)` at (2, 2) the routine returns 6 instead of 2.
* `C50_mixed_defect` (`Verif/Mp/PropsThermo.lean`): **C50 disagreement.** With non-analytic terms, as carbon dioxide and water have, the temperature derivative returned with the pressure is not the derivative of the pressure, because the mixed derivative of the residual part is wrong (`C49_mixed_defect`); heat capacity `cp` and speed of sound use the same number. For a fluid with residual part `dd ((tt-1)² + (dd-1)²)` at `T = 1`, `d = 2` the derivative is 10 and the routine returns -22.
* `C51_negative_quality_defect` (`Verif/Mp/PropsInvert.lean`): **C51 disagreement.** With all of `T`, `p` and `x` given, a quality between -1 and 0 is passed through: `x()` returns the number given instead of the documented -1 (`mp1.py:2806-2849`).
* `C52_endpoint_defect` (`Verif/Mp/PropsHybrid.lean`): **C52 disagreement.** A target that the function takes exactly at the lower limit (of an increasing function) is refused as not bracketed, although the limit is a solution.
* `C52_nan_defect` (`Verif/Mp/PropsHybrid.lean`): **C52 disagreement.** A bracketed target may be answered with NaN without any error or warning: `1 - 2x² + x³` decreases from 1 to 0 on [0, 1] with derivative `-4x + 3x²`; asked for 1, which it takes at 0, where the slope is 0, the first guess is 0/0.
* `C54_quality_defect` (`Verif/Mp/PropsForms.lean`): **C54 disagreement.** The documentation of the arguments lists `e`, `h` and `s` as usable with quality (`mp1.py:2326-2328`: "requires p, d, v, or x"), but every such call is refused.
* `C55_quality_T_defect` (`Verif/Mp/PropsSatCalls.lean`): **C55 disagreement.** With a quality, a temperature below the triple point but within the data's limits is accepted: the call returns numbers from the saturation curves continued below the triple point (`mp1.py:2886-2896`). The limits shipped for carbon dioxide (from 186 K, triple point 216.592 K) and methane (from 90.69 K, triple point 90.6941 K) allow it.
* `C55_quality_p_defect` (`Verif/Mp/PropsSatCalls.lean`): **C55 disagreement.** With a quality, a pressure below the triple point but within the data's limits (whose lower limit is zero for every shipped substance) is accepted, and the temperature used is halfway between the triple and the critical point, whatever the pressure (`mp1.py:2941-2955`, `2046-2053`).
* `C57_limits_defect` (`Verif/Solve/PropsSolve.lean`): **C57 disagreement.** The limits are not enforced when the solver backs up from a bad step: the step itself was not cut to the limits, so half of it may still end outside (`solve.py:441-443`). For `f(x) = 1 - (x - 1/2)/10 + 21/5 (x - 1/2)²` between 0 and 1, the third evaluation is at 11/2.
* `C57_np_float_defect` (`Verif/Solve/PropsSolve.lean`): **C57 disagreement.** With numpy 1.24 or later every call for a single element raises `AttributeError`, because `np.float` is gone (`solve.py:461-462`).
* `C57_perturbation_defect` (`Verif/Solve/PropsSolve.lean`): **C57 disagreement.** A property given without its derivative is also evaluated above the upper limit whenever the solver stands on it: the slope is estimated at a slightly larger value (`solve.py:475-481`).
* `C57_silent_defect` (`Verif/Solve/PropsSolve.lean`): **C57 disagreement.** Failure to converge is never reported: `count` is at most `max_iter - 1` after the loop, so the test at `solve.py:457` never succeeds. If no evaluation matches the target, the call returns the number 0.
* `C57_start_keyword_defect` (`Verif/Solve/PropsSolve.lean`): **C57 disagreement.** The callables for the start and the limits are documented to be called without the unknown (`solve.py:174-179`). In a call with two targets the start for the second is asked with the unknown among the keywords, left there by the first (`solve.py:417`).
* `C57_zero_iterations_defect` (`Verif/Solve/PropsSolve.lean`): **C57 disagreement.** With `max_iter = 0` the call raises `UnboundLocalError` (`solve.py:414`, `457`).
* `C60_lower_defect` (`Verif/If97/PropsCalls.lean`): **C60 disagreement.** The lower limits of `Tlim` and `plim` are not limits of the calls: a temperature below 273.15 K, or a pressure of at least zero below the triple-point pressure, gets a value.
* `C62_new_fromfile_defect` (`Verif/Data/Props.lean`): Disagreement with the documentation of `new` (`dat.py:334-344`: the minimum elements are `id`, `class` and `doc`, and `new` adds `fromfile`): data without `fromfile` is always rejected with a data error.
* `C63_entropy_defect` (`Verif/Gas/PropsMore.lean`): C63 fails for entropies: with working units kJ, kmol and kelvin, a successful call with an array of two or more entropies and a pressure adds `R ln(p/p_ref)` to every element of the caller's array.
* `C63_temperature_defect` (`Verif/Gas/PropsMore.lean`): C63 fails for temperatures: with the working temperature unit kelvin, the element of the caller's temperature array that is out of range is overwritten with NaN.
* `C64_zero_amount_defect` (`Verif/Gas/PropsMixMore.lean`): C64 fails for the entropy: with a second constituent listed with amount zero the entropy of the mixture is NaN.
* `C65_failed_setup_defect` (`Verif/Gas/PropsMixMore.lean`): C65 fails: the first call on a mixture with a missing species raises the data error, but the object is then marked as set up, and the second call returns an unnormalised sum (60 for a gas of heat capacity 30).
* `C66_entropy_defect` (`Verif/If97/PropsSteam.lean`): **C66 disagreement.** With temperatures in degrees Fahrenheit or Rankine the entropy is 3.24 times the value of the Gibbs energy: the conversion multiplies by the ratio of the temperature units where it has to divide.
* `C66_gam_defect` (`Verif/If97/PropsSatMethods.lean`): **C66 disagreement.** `gam`, documented as the ratio of `cp` and `cv`, raises `NameError` for all arguments (`if97.py:1957`).
* `C68_hsd_defect` (`Verif/If97/PropsSteam.lean`): **C68 disagreement.** With temperature and quality but no pressure, `hsd` does not use the saturation pressure but the default one: its density differs from that of `d`, for saturated vapour at 273.16 K.
* `C71_T_h_default_defect` (`Verif/Mp/PropsUnits.lean`): **C71 disagreement.** `T_h(h)` and `T_s(s)` without pressure and density take the number stored as default pressure in the working pressure unit, not in `def_p_unit`, so their result depends on the working unit: with the default pressure 1.01325 bar and any substance whose pressure range starts above 2 Pa, the call in Pa raises `PMParamError`, and the same call in bar does not.
* `C72_hsd_defect` (`Verif/Mp/PropsBundle.lean`): **C72 disagreement.** `hsd` converts enthalpy and entropy per kg with the factor for an amount of matter instead of its inverse. With matter in kmol the enthalpy it returns is that of `h` divided by the square of the molecular weight.
* `C72_state_cv_defect` (`Verif/Mp/PropsBundle.lean`): **C72 disagreement.** Under the dome `state` gives NaN for `cv` although the method `cv` returns a number for the same arguments.
* `C76_low_pressure_defect` (`Verif/Mp/PropsPhase.lean`): **C76 disagreement.** With a pressure below the triple point and a density between the saturation densities halfway between the triple and the critical temperature, a two-phase state at that temperature is returned, whatever the pressure (`mp1.py:2217-2246`, `2046-2053`).
* `C77_low_pressure_defect` (`Verif/Mp/PropsAnswer.lean`): **C77 disagreement.** At pressures below the triple-point pressure a call with pressure and density fails although a state exists. If the vapor at temperature `t`, more than one percent below the middle of triple and critical temperature, and the given density has the given pressure, and the pressure at that density is higher at every higher temperature, then `p` returns that pressure, but the call with pressure and density raises a parameter error.
* `C78_quality_dropped_defect` (`Verif/Mp/PropsQuality.lean`): **C78 disagreement.** `T_h(h, quality=True)` and `T_s(s, quality=True)` without pressure and density never return the quality that their documentation promises: for every substance, unit system and argument the result is the temperature alone.
* `C79_density_defect` (`Verif/Mp/PropsCaller.lean`): **C79 disagreement.** In kg and m3, a call with an array of densities and an array of as many pressures replaces, in the caller's array, the density of every element under the dome by the density of the saturated liquid (the method `d` then writes the mixture's density back; no other method does).
* `C79_range_defect` (`Verif/Mp/PropsCaller.lean`): **C79 disagreement.** With the temperature unit K, a call that returns overwrites with NaN every element of the caller's array of temperatures that is out of range, and with the pressure unit Pa every pressure that is.
* `C80_cv_defect` (`Verif/Mp/ArrayCases.lean`): **C80 disagreement.** Of two temperatures below and above the critical one, with a density between the saturation densities at the first, each alone gives `cv` a number, but together they make it raise `ValueError` (`mp1.py:4334-4346`).
* `C80_pressure_defect` (`Verif/Mp/ArrayCases.lean`): **C80 disagreement.** A pressure outside the data's limits, with a quality, makes a call with it alone raise `PMParamError`, but in an array with another pressure it gets the temperature halfway between the triple and the critical point (`mp1.py:2496-2507`, `2941-2955`, `2046-2053`).
* `C81_shape_defect` (`Verif/Igt/PropsAnswered.lean`): **C81 disagreement.** A mixture with one amount per substance, asked for entropy, Gibbs or Helmholtz energy at two or more temperatures at once, always raises `IndexError` (the mask of empty amounts has the shape of the mixture, `igtools.py:905-909`), although enthalpy, internal energy and heat capacity are answered (`C84_answered`).
* `C84_entropy_density_defect` (`Verif/Igt/PropsGiven.lean`): **C84 disagreement.** Entropy with density, or with specific volume, follows the documented rule (two of T, p, d, v, e, h, s, at most one of T, e, h and not both d and v) but is never answered (`igtools.py:776-779`).
* `C84_single_energy_defect` (`Verif/Igt/ThermoArgs.lean`): **C84 disagreement.** A single energy or enthalpy follows the documented rule (one property, the other defaulted) but is always refused, because the default added is a temperature (`igtools.py:671-680`).
* `C85_absent_defect` (`Verif/Igt/PropsStaticDefects.lean`): **C85 disagreement.** When a constituent is listed with amount zero at a position, the static mixture for that position reports NaN as entropy, Gibbs and Helmholtz energy at every temperature and pressure (its mixing entropy is `0 * log 0`, `igmix.py:161-169`), while the dynamic mixture skips the constituent and reports a number (`C81_answers_entropy_partial`; example below).
* `C85_nested_defect` (`Verif/Igt/PropsStaticDefects.lean`): **C85 disagreement.** A constituent that the collection does not hold as an ordinary gas, such as a static mixture (`ig.air`), which a dynamic mixture accepts: `toigmix` returns, but the first call of any property method of the instance raises `PMDataError` (`igmix.py:120-131`).
* `C85_submixture_defect` (`Verif/Igt/PropsStaticDefects.lean`): **C85 disagreement.** The mixture at one position, `m[:, j]`, has no axes left, and `toigmix` raises `TypeError` for it (`len` is asked of a product that is the float 1.0, `igtools.py:988-991,1164`), although the mixture at that position is one of those which `toigmix` of the whole mixture returns (`C85_instances`).
* `C86_gap_defect` (`Verif/Igt/PropsRange.lean`): **C86 disagreement.** A temperature within the limits of the mixture, as `Tlim()` reports them, at which one of the constituents has no data (documented as impossible, see `C43_hull_defect`): enthalpy, internal energy and heat capacity are NaN, without warning or error, even if the amount of that constituent is zero.
* `C86_mixed_defect` (`Verif/Igt/PropsRange.lean`): **C86 disagreement.** When some of the temperatures given are outside the limits of the mixture and some are not, the elements outside are meant to be set to `config['def_oob']` with a warning (`igtools.py:859-862`), but every property method raises `ValueError`: the array written to came from `np.broadcast_to` and is read-only.
* `C87_entropy_defect` (`Verif/If97/PropsSatMethods.lean`): **C87 disagreement.** The documented unit of `ss` is energy per matter and temperature in the working units, but no temperature conversion is made (`if97.py:1251-1252`): in degrees Rankine or Fahrenheit, or eV, the number returned is wrong by the size of a kelvin in that unit.
* `C87_scalar_defect` (`Verif/If97/PropsSatMethods.lean`): **C87 disagreement.** With the default units (K and bar) a single temperature or a single pressure given as a Python number, and the documented call without arguments, make `hs`, `es`, `ds` and `ss` raise `AttributeError`: they compare without making an array first, as `ps` and `Ts` do (`if97.py:1003-1012`).
* `C88_limit_defect` (`Verif/If97/PropsInverse.lean`): **C88 disagreement.** At exactly 500 bar `h` answers above 1073.15 K, but `T_h` refuses these enthalpies.
* `C88_matter_defect` (`Verif/If97/PropsInverse.lean`): **C88 disagreement.** With an amount of matter other than kg, the enthalpy of a mixture of liquid and vapour is not read in its units, and the answer is never temperature and quality of the mixture.
* `C88_pressure_defect` (`Verif/If97/PropsInverse.lean`): **C88 disagreement.** `T_h` does not convert pressures: with pressures in Pa every pressure above 1000 Pa is refused, whatever the enthalpy, though `h` answers there.
* `C89_celsius_defect` (`Verif/If97/PropsInverseS.lean`): **C89 disagreement.** With temperatures in °C, whenever `T_s` reports a saturated state its temperature is 273.15 degrees below the saturation temperature that `Ts` reports.
* `C89_pressure_defect` (`Verif/If97/PropsInverseS.lean`): **C89 disagreement.** With pressures in Pa `T_s` refuses every pressure below 165.292 bar, whatever the entropy: the converted pressure is handed to `Ts`, which takes it for Pa.
* `C90_case_defect` (`Verif/Data/PropsRepair.lean`): **C90 disagreement.** The action is documented as case-insensitive (`utility.py:646-648`), but run quietly `'S'` and `'D'` are silently ignored.
* `C90_delete_defect` (`Verif/Data/PropsRepair.lean`): **C90 disagreement.** The action `'d'` is documented, but run quietly it never deletes anything: the variable counting the files has no value, and every call with a conflict ends in `UnboundLocalError` (`utility.py:745`).
* `C90_enter_defect` (`Verif/Data/PropsRepair.lean`): **C90 disagreement.** In the dialogue the answer must be I, D or S, but just pressing Enter is accepted too: the user is then asked for the file to keep, told that all other files will be renamed immediately, and nothing is done (`utility.py:702-719`).
* `C90_select_defect` (`Verif/Data/PropsRepair.lean`): **C90 disagreement.** "All but one of the files" are to be suppressed, but a selection outside the list, such as `-1`, is not refused: it suppresses every file of the conflict.
* `C91_bad_defect` (`Verif/Data/PropsUpdate.lean`): **C91 disagreement.** Run quietly without `deletefiles`, the update is to suppress the files that fail to load, but it calls a function that does not exist and swallows the error (`dat.py:461-464`): unreadable files stay as they are.
* `C91_conflict_defect` (`Verif/Data/UpdateExamples.lean`): **C91 disagreement.** "Files in conflicts that are not resolved will be disqualified from other operations", but they are not: when the user leaves the conflict unresolved, the first of the two files is overwritten all the same, without a question.
* `C91_prompt_bad_defect` (`Verif/Data/PropsUpdate.lean`): **C91 disagreement.** "It is strongly recommended that the operation be performed verbosely", but with Python 3 it then ends in `NameError` at the first prompt (`raw_input`): when there is an unreadable file (`dat.py:433`), ...
* `C91_prompt_delete_defect` (`Verif/Data/PropsUpdate.lean`): **C91 disagreement.** ... and when a removed entry's file is to be deleted (`dat.py:557`).
* `C91_repeat_defect` (`Verif/Data/PropsUpdate.lean`): **C91 disagreement.** The update is to "bring the files into agreement", but an entry made from scratch never agrees: its `fromfile` is not set when its file is written, so every later check reports it as changed, and every later update writes it again (`dat.py:476-500`, `234`).
* `C93_emptied_defect` (`Verif/Registry/PropsSummary.lean`): **C93 disagreement.** Printing a set or list with one substance in it removes the substance from the caller's set or list: the next `info` on the same object reports that no substance matched.
* `C93_iterable_defect` (`Verif/Registry/PropsSummary.lean`): **C93 disagreement.** "When it is called with an iterable of PYroMat data instances": a tuple with one substance in it raises an attribute error, and a generator of any length a type error; nothing is written.
* `C93_no_file_defect` (`Verif/Registry/PropsSummary.lean`): **C93 disagreement.** A substance that was not loaded from an existing file (one that was made in memory, or whose file has since been removed) has no summary: `info` raises an operating-system exception after the file name, and its documentation is never printed.
* `C93_stream_defect` (`Verif/Registry/PropsSummary.lean`): **C93 disagreement.** "If the target keyword is set to a file stream, the output will be sent there instead of standard out": the documentation of the substance is printed on standard output all the same, whenever there is anything in it to print.
* `C93_zero_charge_defect` (`Verif/Registry/PropsSummary.lean`): **C93 disagreement.** A substance whose atoms list zero electrons, which is neutral, is shown with the charge `+0`.
* `C94_default_defect` (`Verif/Shipped/PropsGas.lean`): **C94 disagreement.** Calling a property method with no arguments asks for the default state, 298.15 K as shipped. For 475 of the 982 shipped gases - hydrogen sulfide `ig.H2S`, sulfur dioxide `ig.O2S`, hydrogen chloride `ig.HCl` among them - 298.15 K is outside the temperature limits of the file (mostly 300 K) and every such call raises a parameter error, in every unit system.
* `C95_fall_defect` (`Verif/Shipped/PropsFall.lean`): **C95 disagreement.** The enthalpy of a gas should rise with temperature. For 447 of the 982 shipped gases it falls at a limit between two pieces of the fit: as near to the limit as one likes there are temperatures `x < y` with `h(x) > h(y)`. For rubidium `ig.Rb` it falls by more than 283 kJ/kmol, so that for enthalpies in that band two temperatures about 13 K apart are equally right.
* `C97_critical_pressure_defect` (`Verif/Shipped/PropsMp.lean`): **C97 disagreement.** For R-134a the critical pressure on file, 4.05928 MPa, is 0.07 % above the saturation pressure at the critical temperature, 4.05629 MPa. `Ts` accepts the pressures between them, but no temperature has them as saturation pressure: the search does not converge, and no call returns a number without a warning.
* `C97_triple_pressure_defect` (`Verif/Shipped/PropsMp.lean`): **C97 disagreement.** For R-134a and HFO-1234ze(E) (`mp.C3H2F4_1`) the triple pressure on file is more than 1 % and 4 % below the saturation pressure at the triple temperature. `Ts` accepts it, but `ps` returns no pressure that small at any temperature it accepts.

## What is modelled and what is not

| area | modelled | not modelled |
|------|----------|--------------|
| `units.py` | all conversions, `setup`, `matter`, temperature, gauge/absolute | printing; array shapes other than scalar/1-d; rounding is modelled in `Verif/Float` only, overflow and underflow nowhere |
| `config.py` | `PMConfigEntry`, `PMConfig` (write, load, restore) | the live list `config['dat_dir']` hands out can be mutated by the caller; `exec` of a file is its resulting dictionary |
| `utility.py`, `dat.py` | `split_lines`, `suppress_file`, `revive_file`, `red_repair`, `load`, `new`, `clear`, `updatefiles` (directories without sub-directories) | `psglob`, printing |
| `reg.py`, `__init__.py` | `regload`, `get`, `search`, `hill`, `info` | |
| `registry/ig.py`, `ig2.py` | every inner function, `_argparse`, `_iter1`, every user method, aliasing of caller arrays as a `cell` | numpy broadcast-write side effects beyond `cell`; finite `def_oob` (NaN only); division by zero is total in Lean where numpy gives inf; rounding is modelled in `Verif/Float` for calls with one temperature and pressure (or density) and for the search from an enthalpy or internal energy only |
| `data/ig`, `data/ig2` | all 982 files: class, identifier, limits, coefficients, molecular weight, reference pressure, atoms | translated by `tools/shipped.py` (trusted; rerun it to compare); decimals are taken exactly, not rounded to the nearest double; other entries of the files |
| `data/mp` | all 7 files of class mp1: limits, triple and critical point, saturation and Helmholtz groups, molecular weight, gas constant, atoms | translated by `tools/shipped_mp.py` (trusted); decimals taken exactly; other entries of the files |
| `data/igmix` | the 3 files: identifier, contents, `bymass` (`Verif/Shipped/PropsMixes.lean`, by hand) | the documentation text |
| `registry/igmix.py` | `_bootstrap`, the weighted sums, all methods through the common ideal-gas pipeline, `X`, `Y`, `atoms` | `contents` order of equal keys; printing; rounding is modelled in `Verif/Float` for the composition and for calls with one temperature and pressure (or density) only |
| `igtools.py` | `parse_mixstr`, `IgtMix` construction, arithmetic, indexing, `insert`, `remove`, `todict`, `tolist`, `items`, iteration, `X`, `Y`, `mass`, `molar`, `mw`, `atoms`, `Tlim`; `_argparse`, `_propeval`, `_sp`, `_pref`, `_iter1` and the property methods; `toigmix`, `fromigmix` | slices share memory with the mixture (views); keys `N2` and `ig.N2` in one dictionary; `a - dict`; printing |
| `solve.py` | `_vectorize_args` (with `ignore=[]`), `solve1n` construction checks, `__call__`, `_fdf_f`, `_fdf_f_df` | NaN and infinite values; exceptions raised by the user's property; division by a zero slope (0 in Lean, infinity in numpy); verbose printing; the callability checks of the constructor |
| `registry/mp1.py` | `_poly1`, `_poly2`, `_ao`, `_ar` (arrays as lists of states, the two `any()` tests included), `_satfit`, `_ps`, `_dsl`, `_dsv`, `_p`, `_e`, `_h`, `_s`, `_f`, `_g`, `_a`, `_cp`, `_cv`, `_hybrid1`, `_argparse`, `_sat_argparse`, every user property method including `state`, `hsd`, the constants and the saturation methods, `_Ts`, `_d`, `_T`, `_tditer`, `_tpiter` and the iterations of `_argparse` (`Verif/Mp/Solvers.lean`), aliasing of the caller's arrays | most theorems hold for any inversions (parameter `Sol`), with `codeSol` as the code's own; division by zero outside the solver steps; broadcasting of arrays of different shapes; a power of zero with a negative exponent is 0 in Lean and infinity in numpy; printed warnings |
| `registry/if97.py` | `_peval`, `_g1`, `_g2`, `_g5`, `_f3`, `_b23`, `_region`, `_ps`, `_Ts`, the methods `h`, `s`, `d`, `e`, `cp`, `cv`, `hsd`, `gam`, `hs`, `es`, `ds`, `ss`, `ps`, `Ts`, `Tlim`, `plim`, `critical`, `triple`, `mw`, `T_h`, `T_s` with the backward equations and iterations | NaN arguments; the coefficients of the backward equations, hence their accuracy; division by zero and the logarithm of zero (0 in Lean); no steam data file is in the repository, so coefficients are parameters (those of the IAPWS report for the saturation line) |
