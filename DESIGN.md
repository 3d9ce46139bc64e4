# Formal model of `beyonce` in Lean 4

The code under study is `/repo`: a Python package for circumplanetary ring
systems and the *Shallot* explorer, which tabulates the disks that explain an
eclipse.  It was read as text only; it was neither built nor run.

* `lean/Verif/*.lean`: the model, one file per file of `/repo`.
* `lean/Verif/Props/*.lean`: the theorems.  The theorems named `Cxx_…` are the
  ones that `MANIFEST.json` lists for property `Cxx` of `properties.jsonl`.
* `seeded/LOG.jsonl`: wrong programs that the theorems were tried against.

## Trusted base

* The Lean 4.33.0 kernel and the installed Mathlib.
* The axioms `propext`, `Classical.choice` and `Quot.sound`; see *Axioms*.
* The reading of the Python source by hand.  Each definition cites its lines.
* The models of the run time and the libraries (`Num`, `RealFns`, `Cube`,
  `Files`, `Double`, and the numpy functions in `GridParameters`, `Validate` and
  `BuildGrid`).  They were written from the documented behaviour of Python and
  numpy, and could not be compared with a running numpy.
* The simplifications in *What is modelled*.

There are no own axioms, no `sorry`, no `native_decide`, no `bv_decide`.

## What is modelled

| Python | Model | Simplified away |
|---|---|---|
| float | `XF K`: `nan`, `ninf`, `fin x`, `pinf`, with IEEE comparisons and special values; `K` any linearly ordered field, the real numbers where geometry is involved | rounding, overflow, signed zero (exceptions below) |
| int, bool, numpy scalars, strings, arrays | constructors of `PyVal`, kept apart because `validate.py` and division by zero tell them apart | wrap-around of numpy integers; saved integers fit into 64 bits |
| ndarray | shape and flat data in C order | strides; views, except where a method of the class writes through one (masked reads) |
| exceptions | `Except Err`; a method returns the state it had reached next to the error (`Meth`) | messages, except in `Messages` and `ConstructorMessages` |
| object identity | `Ring` objects in a heap (C09, C10); the parameters object passed in and out of a build (C66); arrays of properties (C84, C85) | sharing of arrays between a grid and its caller |
| `sqrt`, `sin`, `arctan2`, … | class `RealFns`; over ℝ the functions of Mathlib | accuracy of the library, except in C104, C105, C108–C111, C115 and C119–C121 |
| files | association list from paths to nodes; saving is a list of primitive steps; a crash is a prefix of it, possibly with the next write torn | permissions, races, symlinks; `shutil.rmtree` is one step |
| `.npy` files | the saved value; a torn file cannot be loaded | pickling |
| loops | structural recursion, or `partial_fixpoint` with a proof that they end (C58) | |
| matplotlib | the numbers handed to it | drawing |

Exceptions and details:

* C15, C86, C92 and C93 are about rounding: the code of `RingSystem`, and a second copy of
  `GridParameters` (`GridRounded`, proved equal to the first without rounding), take a
  rounding function that is applied after every float operation.  `Double` is binary64 without limits
  of the exponent.
* C104, C105, C108–C111, C115 and C119–C121 are about a second copy of the formulas of `Geometry`, of the
  fit, the build and the closest point (`GeometryRounded`, `GradientRounded`, `FitRounded`, `BuildRounded` and `ClosestRounded`, proved equal to the first without rounding) that takes a
  library: a rounding function and functions in place of `np.sin` and the like.
  `Accurate` says that all are right up to a relative error u, that rounding
  is monotone and that 1 is a floating point number.  Overflow and underflow are
  not modelled.  C122 is about a second copy of the printed statistics (`StatsRounded`), with the order in
  which numpy adds; C125–C128 about second copies of `get_patch`, `ring_gradients`, `plot` and the viewer (`PatchRounded`,
  `NotebookRounded`, `DrawRounded`, `ViewerRounded`).
* Signed zero: with `dx = 0` and `fx > fy` the angle of the code is that of
  `arctan2(-0.0, negative)`, so its tilt is 0 where the model has 180.  Both
  are the same direction; C56_axis is stated modulo 180.
* `np.interp` is transcribed from its C source, search included, because the
  samples need not be sorted.
* A `bool` as an index into a cube raises in the model (numpy would return an
  array of another shape).
* The viewer of `Viewer` copies the data of its property.  `ViewerShared` has
  them by reference: viewers beside their property, for C129.
* The working directory is the empty path.  It is a directory, but `exists?`
  does not see it, so theorems about directories ask for a path that is not
  empty.
* `load` and intermittently saved builds never read back what they write, so a
  build is the pure build together with its list of file operations.  `BuildLog`
  executes them statement by statement, and C131 proves that this is the same.

* A `__repr__` is modelled by the values it formats (`Report`), or by the
  exception it raises, and then by the text with all its digits and blanks
  (`Texts`).  Means and medians are exact, except in C122.  There is no negative zero, so
  `-0.0000` is only printed for negative numbers.

* A logger is a level and a number of handlers, found by its name.  The names
  are the numbers of a random generator, which is any sequence.

* In `GridHeap` the arrays are objects, and properties and gradients have
  references to them.  The vectors of the parameters, `_circular_radius`,
  `shear` and the diagnostics stay values, as no getter returns them.  Arrays
  that a caller passes to a method are read and not kept.  `set_mask` of a
  property, called by the caller with an array of their own, does keep it: this
  is in `PropertyHeap` and not in the sessions of C102.  A loaded grid is covered
  as any grid whose arrays were made one by one (`C102_loaded`).

Not modelled: `tqdm`, the plots of the notebooks and the reading of their data files, messages of exceptions other than those in `Messages` and `ConstructorMessages`, windows and colour bars, and the data files.  Grid vectors are arrays
of doubles: limits of type `np.longdouble` would make them `float128`, which `_build_grid` refuses.

| file of `/repo` | model |
|---|---|
| `validate.py`, `errors.py` | `Validate`, `Messages` (with the texts of exceptions) |
| `Ring.py` | `Ring`, `RingPatch`; the texts of exceptions in constructors and setters in `ConstructorMessages` |
| `RingSystem.py` | `RingSystem` (by value), `RingHeap` (by reference) |
| `GridParameters.py` | `GridParameters`, `GridRounded` (with rounding) |
| `GridDiagnostics.py` | `GridDiagnostics` |
| `GridProperty.py`, `GridPropertyName.py`, `GridPropertyUnit.py` | `GridProperty` (by value), `PropertyHeap` (by reference), `Viewer`, `PlotSlice` |
| `__repr__` of the four | `Report` |
| all texts: `__repr__`, `__str__`, titles, keys | `Texts` |
| `RingSystem.__repr__`, the log messages and `_set_logger` | `RingLog` |
| `Shallot.py` by reference: who has which array | `GridHeap`, `GridHeapBuild` |
| the static methods of `Shallot.py` in floating point, the steps from measurements to masks and fit, and the build | `GeometryRounded`, `GradientRounded`, `FitRounded`, `BuildRounded` |
| `ShallotGrid._set_logger` in `__init__` and `load` | `GridLogger` |
| the messages of level INFO of `Shallot.py` | `ShallotLog` |
| building and loading with files and messages of both levels, `Shallot.py` | `BuildLog` |
| `j1407_analysis.ipynb`, `pds_analysis.ipynb`: `ring_gradients`, the scales, the loops over solutions and their ring systems | `Notebook` |
| the same: columns of the files, numbers of the papers, measurements read back, printed table | `NotebookData` |
| `determine_closest_grid_point`, the printed statistics in floating point | `ClosestRounded`, `StatsRounded` |
| `Ring.get_patch`, `RingSystem.plot`, the curves of the notebooks in floating point | `PatchRounded`, `DrawRounded`, `NotebookRounded` |
| `GridPropertyViewer` in floating point | `ViewerRounded` |
| a property and its viewers by reference | `ViewerShared` |
| `RingSystem.plot`, `_get_patches`, `get_rings_data` and the getters | `RingDraw` |
| `Shallot.py` | `Geometry` (formulas), `BuildGrid` (building), `Shallot` (methods of a built grid), `ShallotFiles` (saving and loading) |

`Verif/Conformance` carries the tests in `/repo` over to the model: one `example` for
every test of every file, with the authors' arguments and expected values (in
rational numbers, so `approx` becomes equality), including the texts letter by
letter.  They all hold.  They are checks of the model, not claims; nothing depends on them.

## How the properties are proved

| id | file in `Props` | how |
|---|---|---|
| C01–C04 | Validate | iff-characterisations against independent predicates |
| C05, C06 | Ring | invariant over histories of setters |
| C07 | RingPatch | vertices over ℝ against the ellipse equation |
| C08, C11–C13 | RingSystemInv, RingSystemEdit | invariant over histories; list operations |
| C09, C10, C69 | RingHeap, RingSystemEdit | heap of ring objects; invariant for histories without sharing |
| C14, C16–C19 | SplitMerge | transmission as a function of the radius; runs of equal transmission as independent specification |
| C15 | Rounding | error bound for any rounding with relative error u; binary64 witness |
| C20 | RingSystemEdit | limits that `plot` computes |
| C21–C24 | GridParameters | `np.linspace` transcribed |
| C25, C26, C29, C32, C37 | GridFiles, GridDiagnostics, GridProperty, GridGradient | file model, crash as a prefix |
| C27, C28 | GridDiagnostics | finite map against the dictionary |
| C30, C31, C33 | GridProperty | histories of reads and masks |
| C34–C36 | GridGradient | element-wise masks |
| C38–C50, C74 | Sound, Keeps, Stale, AddExact, Getters, GettersExact, AddGradients, Remove, RemoveRepeated, Fit, Rescale, Points, Solutions, SolutionsExact, Measured, Solved, Closest | the grid as a state machine; `Sound` is kept by every method |
| C51–C55, C60 | Geometry | real geometry; `arctan2` as `Complex.arg` |
| C56 | Quadrants | mirroring for any size |
| C57–C59 | Sampling, Convergence, SmallestDisk | the loops end; piecewise linear interpolation |
| C72, C73, C66 | Build, Complete | a build against the vectors of its cells |
| C75 | Disks | C53 carried to every grid point |
| C61, C62, C64, C65 | ShallotSave, ShallotLoad, Owned, RoundTrip, SavedBuild | file model |
| C63 | BuildFrom, Resume, Resumed | every prefix of a build's file operations |
| C67, C68, C70, C71 | Viewer | event histories of the viewer |
| C76–C80 | Report, Scheme, GridReport | printed values against the data; `Scheme` carries an invariant of properties and gradients through all methods of a grid |
| C81–C83 | RingDraw | patches on the axes one by one; a row of the rotation matrix has norm 1, so no image is farther than a radius; the constructor is computed on its own data |
| C86 | SplitRounded | error bounds of the computed parts for any rounding with relative error u, then induction over the rings in the loop of `merge_rings`; binary64 witnesses |
| C87, C88 | RingLog | each logged method against the method without log; induction over sessions and over constructions |
| C89 | GetGradients | induction over the gradients still to be read |
| C90 | PlotSlice | the constructor of the viewer computed for all arguments; a point of an even grid against the pixel borders |
| C91 | Covered | `Scheme` with "as built or NaN" carries C75 through any history; a quadratic that is 1 at both end points decides which points of the line lie inside; the map of `get_patch` is inverted |
| C92, C93 | GridRounded | error bounds through `np.linspace` for any rounding; `Double` proves that binary64 rounding is monotone, odd and idempotent; binary64 witnesses |
| C94 | Tangent | the ellipse of the disk is a level curve of a quadratic form in the scale factors, so the slope in the code is that of its tangent; `Scheme` with "as built or NaN" for scale factors and gradients carries it through any history |
| C95 | Candidate | the tangent to a disk at a point is unique, so C94 decides whether a stored gradient is below the threshold of C34; C38 puts the masks together |
| C96 | Printed | the loop over the gradients gives one report for each; `Owned` gives the titles; with C60 and C39 what was measured is printed |
| C97 | Explained | C95 gives the candidates, `fitLoop_spec` with the exact scale of C60 the value of the fit as a sum over the measurements, C45 the order, C75 and C91 the disks; raises iff asked for too many |
| C98 | ShallotLog | each logged method against the method without log; balances of messages against fit, gradients and their number, kept by every call; induction over sessions |
| C99 | GridLogger | what each call requests of the loggers; the invariant of C88 over sessions of constructions and loads |
| C100 | Digits | the text is read back by an independent reader of decimals |
| C101 | Words, Texts, GridTexts, ChangeTexts | a text is split at blanks; the words of the parts are computed, so equal texts give equal words, and C100 gives the numbers |
| C106, C107 | Messages, OverlapMessages | the functions with messages, without their messages, are the functions of C01 to C04; each message is put together from whole parts; the words of a message give what it is about |
| C104 | Near, GeometryRounded | a calculus of relative errors; the cancellation in the denominator gives the condition number; binary64 witnesses |
| C105 | AxesRounded, DoubleLib | the computed angle is the exact one of a nearby vector; where that is far from the exact angle the ellipse is nearly round, so the distances differ little; `DoubleLib` is a correctly rounded binary64 library to which all this applies |
| C108 | EdgeRounded | the quadratic form of the computed ellipse on the exact one, in the frame of the exact axes; an accurate tilt or a nearly round disk; the ends of the eclipse are on a slightly larger or smaller copy of the ellipse of the computed parameters |
| C109 | GradientRounded, SteepRounded | the computed numerator and denominator are near the two components of a vector along the edge, and the gradient is its direction, so the error is that of the vector over its length |
| C110 | FitRounded, SteepRounded | nothing but positive numbers is added, so all errors are factors; the errors of the gradients come in by the triangle inequality |
| C111 | ExtendedRounded, SteepRounded, BuildRounded | a displaced centre changes the vector along the edge by little if the centre is far from the horizontal axis; mirror images have the same vector up to signs; binary64 rounding of real numbers is monotone, odd and idempotent; binary64 witness at the centre |
| C112 | Notebook | the gradient of an ellipse given by inclination and tilt has the tangent of C94, whose normal vector is computed up to the factor 1 / cos i; the position of a point of the curve is determined by its time |
| C113 | NotebookRings | scaling the plane around the star scales the drawn ring of C91; a chord is not longer than twice the semi-major axis; the loop is followed index by index |
| C114 | Reanalysis, ReanalysisAny | `C114_any_partial`, for histories of all calls: every element of the scale factors is the original or NaN (Scheme), so that the second analysis is compared gradient by gradient with that of the new grid; `C114_partial`: every call of an analysis changes only gradients, fit and eclipse parameters of an unmasked grid, and leaves no fit without gradients; then C49, and C97 for the solutions |
| C115 | BuildRounded | a round of a loop raises, or goes on with the next number, or ends, and the numbers are below the rounded bound; the interpolation has error factors only, as the weights of a segment are positive; C108 for the ends of the eclipse |
| C116 | Recovery | the slopes caused by the disk ask for exactly the gradients of the disk, so no call raises (C34) and the fit is 0; then C97 |
| C117 | ConstructorMessages | one call after another: the errors of the first are about its demand, and if it succeeds its demand is met, so the errors of the rest are about theirs; C106 for each call |
| C118 | RescaleFailed | induction over the loop of `update_gradient_scaling`: a first gradient fails, the ones before are rescaled, the rest untouched; `determineMask_cases` |
| C119 | RecoveryRounded | C109 and C110 for the disk that caused the eclipse and for any other one, with C45 for the order; overflow and underflow are not modelled |
| C120 | ClosestRounded | squares are not negative, so the distance has error factors only; a row is moved by an absolute error, which moves the distance by no more (Minkowski); the choice is exact; the sides of the rows must be kept, which is shown for symmetric grids |
| C121 | HillRounded | C44 for the mask, C115 for the disk of a grid point, C105 for its radius, C52 for the edge of the true disk |
| C122 | StatsRounded | numpy's pairwise sum as a tree that adds every element once; error of any tree by induction, its depth for numpy's tree; the median by monotone rounding and exact halving |
| C123 | NotebookData | a gradient `HoldsRow` of its measurement; kept by `determine_mask`, so by `add_gradients` and by a rescaling (C50, C118); read back with C89 |
| C124 | NotebookPaper | the conversion is a reflection; `outerVertex` and `ringGradient` under it, with C112 and C113 |
| C125 | PatchRounded | absolute errors of products, sums and rounding; Bézier points as weighted means; the norm of the ellipse for the inner edge |
| C126 | NotebookRounded | the matrix of the edge has the eigenvalues 1 and 1/cos², so its image of the position is no shorter; absolute errors of its entries, then as in C109 |
| C127 | DrawRounded | the vertices of C125, the bound of C82 and the errors of the two sums of each limit |
| C128 | ViewerRounded | an invariant of scrolling (the near coordinates are marked), the vectors of C92 and the errors of distance and tolerance |
| C129 | ViewerShared | for the property a session is a sequence of its own calls, so C31 applies; the viewers by induction over the session, each action either leaves a viewer or draws it |
| C130 | Contrast | cases on whether each argument is accepted, the call computed in each; order by the extremal property of the default limits |
| C131 | BuildLog, BuildSays | each statement against the model without files and log (`Heeds`, `Acts`); what was said collected along the rows; counts of origins as products of counts; `AttributeError` excluded from every validator |
| C132 | Frame | one table (`Touches`) of the parts each call may change, every method shown to keep each other part with `Moves`; `C132_tight` shows entries of the table that do change |
| C133 | Exceptions, Divisions | one table (`CanRaise`) of the exceptions of each call, shown with `Fails`, the rule of sequencing for exceptions under an invariant; every method follows the validators' own tables (`number_kinds`, `array_kinds`, …); `Divisions` carries through all calls that no stored transmission change is a Python zero |
| C134 | RingExceptions | every `number` and `array` of the calls split into a wrong type and a wrong value; neighbours exist once the index passed |
| C135 | EditLaws | the parts of parts as one list of parts (blocks of `range (n * m)`); neighbours of a position in a list without it; `insertIdx_comm` |
| C136 | Undo | all outcomes of `add_gradients` append to the list (`addGradients_cases`), C40 for the positions at its end; a fit forgets the one before |
| C137 | RescaleLaws | C50 for each call: `determine_mask` depends on the data of a gradient and its arguments only, and stores the arguments it was given |
| C138 | FitOrder | addition of the model's numbers (with infinities and NaN) is commutative and associative, so the loop of the fit may be rearranged; the best solutions are determined by mask and fit (Refit) |
| C139 | RemoveLaws | the place of a position after a removal is the number of staying positions before it; filtering twice by such places is filtering once; for distinct positions (C40 is false for repeated ones) |
| C140 | ScrollLaws | picture and title are determined by the index (invariant of C67, one image per slice); marks of coordinates depend on the way (C71) and are left out |
| C141 | HillOrder | the calls that set up the analysis neither read nor write the mask of the disk radius (`Blind`), and leave its values (C132), from which the mask is made; the masked reads are left out: they do depend on the order (C43) |
| C142 | Repeat, RepeatReads | a getter is an idempotent function of the values of its own cube, given its mask and the combined mask; a reading made of several is repeatable because its parts touch different cubes and gradients (`Reader.bind`); the others are functions of parts that they do not write; extracting solutions cannot be repeated (C46) |
| C143 | ReadOrder | a reading writes NaN at a set of places that depends on the masks only; such writes commute and are idempotent; the *values* read of one property do depend on earlier readings of the same property (C43) |
| C144 | MapOrder | the other calls neither read nor write the map (`Unaware`), and leave the parameters and the disk radii from which it is made (C132); masked reads of the disk radius are left out, they put NaN where the map is made from (C43) |
| C145 | SaveAgain, SaveApart | steps that make missing directories, write or raise can be repeated over any files with the same places (`redo`), and depend on the files only through `at?` (`same_run`); `C145_grid` is for the `os.mkdir` of a finished grid |
| C146 | SaveApart | all steps of a save are inside its directory (`saving_inside`); such steps depend on what is there and on its parent only (`there_run`), and change nothing elsewhere |
| C102 | GridRefine, GridMethods, GridMethodsGradients, GridSession, GridBuildRefine, GridObjects | arrays as objects; every method by reference is followed statement by statement beside the method by value (`Refines`), which keeps the arrays apart and the values equal |
| C103 | GridSession, GridObjects | what a method may do to an array that exists is part of `Refines` |
| C84, C85 | PropertyHeap | arrays as objects; simulation: each step of a careful session is the step by value, so the by-value model of grids is sound where arrays are not shared |

Each theorem is followed by an `example` that meets its hypotheses, or names the
theorem that supplies one; some examples serve several theorems of their file.
Cases that need a grid are in `Complete`, `Measured`, `Solved`, `RoundTrip` and
`Cases`; they start from `throwAway`, the 2 by 2 grid that `ShallotGrid.load` builds.

## Disagreements between code and expectation

Status `partial` in `MANIFEST.json` means that the property as stated does not
hold of the code.  The negation is then proved (`Cxx_false…`), and what does hold
is proved beside it.

| id | what the code does instead |
|---|---|
| C02 | `validate.number` accepts NaN whatever the bounds |
| C05 | so a `Ring` can hold NaN |
| C09, C10 | ring objects given to a `RingSystem` are shared, so that editing them, or giving them to a second system, breaks the order of the rings and their common geometry; plain attributes can be overwritten too |
| C15 | with rounding, neighbouring ringlets of `split_rings` can overlap by a few units in the last place |
| C20 | the upper y limit of `plot` uses the x shift |
| C24, C25 | `extend_grid` with one y point raises after the x axis was extended; such a grid does not survive saving and loading |
| C26 | a crash while overwriting saved parameters can leave a loadable mix of old and new |
| C28 | after `extend`, `get_diagnostic` looks up a neighbouring grid point |
| C29 | the `extended` flag of diagnostics is not saved |
| C31, C43 | a masked read overwrites the stored data with NaN |
| C32 | a stale mask file in the directory is loaded with data that had no mask |
| C36 | a `determine_mask` that raises leaves new values beside the old mask |
| C37 | a mask set by `set_mask`, a stale file, or positions that agree to four decimals do not survive a round trip |
| C40 | a repeated index removes another gradient, or raises half-way; an empty gradient list cannot be given |
| C41, C42 | `add_gradients` that raises late leaves gradients without masks and a fit that does not include them; `C41_exact` says for every history which gradients the stored fit is of |
| C45 | with infinite fits `extract_solutions` returns one grid point twice |
| C46 | a second `extract_solutions` returns the next best points, and raises when none are left; after a new `determine_gradient_fit` it returns the rows of the first call |
| C47 | the rows are placed by dividing by their number instead of the number of gaps, so the last row is not found |
| C48 | an index equal to the axis length passes validation and raises `IndexError` |
| C49 | `set_eclipse_parameters` that raises keeps the parameters it had stored, and the old gradients |
| C62 | gradients are lost: their directories have a dot in the name, are taken for files and skipped; a position that is not finite gives a name without dot, and `load` raises `AttributeError` |
| C64 | `load` of the temporary directory deletes it before reading it |
| C65 | `ShallotGrid.save` calls `diagnostics.save()` without its argument: `TypeError` |
| C66 | building an extendable grid extends the caller's parameters |
| C69 | `replace_ring(True, ring)` puts the ring at every position, `replace_ring(False, ring)` at none |
| C70 | marks and labels of the viewer agree only if `max_rf` is 2 |
| C71 | marks of the previous slice stay |
| C76 | printing raises `TypeError` for a property of nothing but NaN, hence for a grid with one row on the axis or with a gradient measured at a NaN time, and for a gradient with a mask from `set_mask` |
| C77 | the contrast limits are printed as minimum and maximum of the data |
| C80 | diagnostics saved under `0` and under `False` are counted twice |
| C81 | `RingSystem.plot` of a system without rings raises IndexError after it drew the planet |
| C82 | `RingSystem.plot` cuts off systems shifted upwards, rings given in another order and planets much larger than the disk |
| C84 | a masked read writes NaN into arrays that earlier unmasked reads returned |
| C86 | in binary64 splitting and merging can change outer radii by a few units in the last place, fails for rings that are too thin, and does not merge back radii above about 2^33 with the default tolerance |
| C85 | properties of one array share it, and the caller's arrays stay connected to the property |
| C87 | `add_ring` of a system whose inclination was assigned out of range raises after it logged an override and changed the caller's ring |
| C88 | loggers are named by random numbers, so after reseeding numpy two systems share a logger: messages twice, or silenced |
| C90 | a property cannot be drawn along an axis with a single point: IndexError |
| C93 | the middle of an extended vector need not be zero: `extend_grid` divides the whole range anew, and `49 * (1 / 49)` is not 1 in binary64 |
| C95 | a disk whose edge is vertical where the star stands has the gradient NaN and is left out, though no edge is steeper; the disks centred on the star are always such disks |
| C98 | with a `np.longdouble` as eclipse duration `add_gradients` logs that it adds gradients, raises and adds none; the impact parameter that `determine_closest_grid_point` logs is not the `dy` that it returns |
| C99 | after reseeding numpy two grids share a logger; `load` first sets a logger of level 50, so it can silence a grid even if it raises; `load` checks `logging_level` last, after the temporary directory is removed |
| C103 | the getters of the disk properties and of fx and fy return the attribute itself; a later masked read puts NaN into the array that the caller has |
| C104 | the denominator of `_determine_fx` cancels: centres 2^27 eclipse durations from the star path give NaN for fy = 1, where fx = 1 is exact; likewise `_determine_fy` for fx = 1 and centres closer than 2^-28 |
| C106 | a number equal to two equal exclusive bounds gets the message "greater than 1.0000less than 1.0000", without anything between the parts |
| C107 | radii are shown with two digits, so a ring from 1.999 is rejected with "inner radius (2.00) > the preceding ring's outer radius (2.00)"; an equal radius is accepted although the message asks for a greater one |
| C117 | `Ring([1, 2], …)` with an array raises numpy's error about truth values; `r = Ring(nan, -5, 1)` is made, then `r.inner_radius = 3` blames "the upper_bound argument (-5.0000)"; `RingSystem` blames `outer_radius`, the attribute of a ring, for its argument `outer_radii` |
| C118 | `update_gradient_scaling(transverse_velocity=-1)` raises but stores the velocity, so that every later `add_gradients` raises; `update_gradient_scaling(2, transmission_changes=[1, -1])` raises after the first gradient has been rescaled and keeps the fit |
| C119 | in binary64 a light curve without any slope masks the circle centred 2^27 eclipse durations ahead of the star, whose edge is flat |
| C109 | the denominator of the tangent cancels for a centre far along the star path: the circle centred 2^27 eclipse durations ahead of the star has a flat edge in the middle of the eclipse, but its gradient is NaN and it is masked whatever was measured |
| C110 | fits that differ by less than the rounding error are computed to be equal, and the grid point that comes first is extracted |
| C111 | where the middle of both extended vectors is the same tiny number (C93), the shear of disks centred on the star is -1 instead of 0, and their gradient is about sin 45° although their edge is vertical; without rounding it is NaN |
| C112 | (not a failure of the property) where the star crosses the edge at a right angle the notebooks have the gradient 1, the grid has NaN (C94) |
| C113 | the curves of the second analysis are left out by the `dy_sorted` of the first, so a curve above the path may be drawn and the one of a drawn ring system left out |
| C114 | the getters and `get_grid_point_data` and `determine_closest_grid_point` write NaN into the disks, by default; what an analysis excluded and was then read is excluded from every later analysis of the grid (`C114_false`), as in the witness on a 3 by 3 by 3 grid (`C114_false_witness`) |
| C122 | three equal radii, just below 1.33335, are printed with minimum and maximum 1.3333 and mean 1.3334 (`C122_false_between`); the excess is at most one unit of the last place (`C122_printed_partial`) |
| C123 | the error bars at the rescaled gradients are those of the slopes (`C123_false_bars`); `pds_analysis.ipynb` L152 takes the errors of the first light curve for both (`C123_false_errors`); a time of 3.625 days of a 7 day eclipse is printed as 3.63 in binary64 (`C123_false_digits`) |
| C127 | at a shift of 2⁶⁰ stellar radii the two limits of an axis are the same binary64 number (`C127_false_far`); besides, what is false of C82 |
| C128 | half way between two slices a coordinate is marked on none (`C128_false_between`), along the Rf axis on two (`C128_false_twice`) |
| C129 | a second viewer with masked data puts NaN into the array that the first one shows (`C129_false`) |
| C130 | a limit that is stored before a later one raises, limits in the wrong order, strings as limits of data without numbers (`C130_false`) |
| C131 | `origin corrected` is said for a cell whose row is not `dy = 0` (`C131_false`); what `load` says before it sets the level is never shown, and `no gradients found` is never said (`C131_load_says`) |
| C133 | a grid point with an index equal to the length of its axis and a position to remove given twice raise `IndexError`, `extract_solutions` without a fit raises `AttributeError` (`C133_false`), `add_gradients` after a velocity of 0, which is accepted, and `update_gradient_scaling` to a velocity of 0 raise `ZeroDivisionError` (`C133_false_add`, `C133_false_velocity`) |
| C134 | `add_ring` with a `bool` below the number of rings passes validation and raises `AttributeError`; `merge_rings` after the last ring was removed raises `IndexError` (`C134_false`) |

Limits of the proved properties: C08, C14 and C16–C19 are about exact arithmetic
and ring systems that do not share rings.  C51–C56, C60, C75, C91, C94 and C95 are about exact
real arithmetic.  C63 is about interruptions after the first file operation, a
`num_fxfy` that is not a `bool`, and a copy of the temporary directory (C64).
C73 is about grids that are not extended (C28).

## Axioms

The theorems of the project, those that Lean generates for definitions
included, depend on no axioms other than `propext`, `Quot.sound` and
`Classical.choice`; many need only some of these, or none.  Of the 627 theorems
named in `MANIFEST.json` 593 depend on all three, and 34 on `propext` and
`Quot.sound` alone.  `#print axioms` shows which.

## Mutation tests

Each line of `seeded/LOG.jsonl` is an edit of one definition in a copy of the
project, as a realistic bug would make it.  `theorems_failed` are the
declarations whose proofs broke; `claims_resting_on_failed_lemmas` are claims
that use a broken lemma and so were not reached by the build.  `tightened` names
theorems that were strengthened because an edit got past them.
