# Formal model of pyspectral: design

Source: `/repo` (pytroll/pyspectral, pinned). Nothing in `/repo` is executed or changed.
Properties: `properties.jsonl`. Status of each property: `MANIFEST.json`. Wrong-program tests: `seeded/LOG.jsonl`.

## Layout

| Where | What |
|---|---|
| `lean/Verif/Base/` | Python/numpy primitives: errors, dictionaries, strings as `List Char`, the `PyNum` number interface and its instances, array primitives (trapezoid, clip, where, interp ...) |
| `lean/Verif/Model/` | the model of pyspectral, function by function, each definition citing `/repo` file:lines |
| `lean/Verif/Spec/` | small independent specifications (physical laws, "is sorted", "is an average of", ...), not using the model's helpers |
| `lean/Verif/Lemmas/` | supporting lemmas |
| `lean/Verif/Props/` | the property theorems (`C01_...`), each followed by a concrete `example` meeting its hypotheses |
| `lean/Verif/Check/` | executable sanity checks of the model on `Float` (tests, not proofs) against numbers in the repo's own test-suite |

## Numbers

Model functions are written once, polymorphic in a number type `α` with `[PyNum α]` (arithmetic, comparisons, `exp`, `log`, powers, `isNaN`, literals ...).

* `Float` instance: executable, used only in `Check/`.
* `XF` instance (`Base/XF.lean`): extended reals with the IEEE special values `nan | ninf | fin x | pinf` and **exact** real arithmetic on finite values.
  Comparisons with NaN are false, `x/0` is `±inf` or NaN, `log 0 = -inf`, `log` of a negative is NaN.
  Simplifications: no rounding, no overflow, no underflow, one zero (a zero divisor counts as `+0.0`).
  Unless stated otherwise the property theorems are about this instance: they say what the formulas compute, not the rounding error.
* `RF F` instance (`Base/FP.lean`): the same special values, every result of `+ - * /` and every literal rounded by `F.rnd`, library functions those of `F : FP`. `FP` lists what is assumed: rounding is monotone and odd, keeps integers up to 2^53, one half and numbers already rounded, makes differences of numbers within a factor of two exact (Sterbenz), has relative error at most 2^-52 between 1e-200 and 1e200 (overflow to infinity and underflow allowed outside); `exp` and `log` are monotone, have the usual special values and relative error at most 2^-50 on a stated range; `cos` has absolute error at most 2^-50 for arguments between -2 and 2; integer powers have relative error at most 2^-50 likewise, even powers are not negative, powers of NaN are NaN; sums of non-negative numbers are monotone in whatever order they are added, and for at most 2^20 numbers, each zero or between 1e-199 and 1e150, have relative error at most n/2^51.
  `Base/Double.lean` proves that IEEE double precision (round to nearest, ties to even, subnormals, overflow) with a correctly rounded library satisfies all of this. C114 on are about this instance. That a given machine's `libm` is monotone and accurate to 4 units is an assumption; float32 arrays are not covered.

`numpy` warnings (`errstate`) have no effect on values and are not modelled. dtypes: float32/float64 are not distinguished, except the `int16` cast of the LUT index, which is modelled exactly (wrap-around).

## Python

* Exceptions are values: `Py α := Except PyErr α`; one constructor per exception class used; messages are not modelled.
* A `dict` is an insertion-ordered association list; well-formedness (distinct keys) is a hypothesis where needed.
* Strings are `String`; `lower`, `replace`, `split`, `strip`, `startswith` are defined on `List Char` (ASCII case mapping only).
* Objects with mutable attributes are state records, method calls are state transformers (`PySt`, `Base/State.lean`: an exception keeps the state reached); histories are lists of calls.
* Files, directories and the network: `World` (`Base/World.lean`); an effect keeps every intermediate world (`Eff`), so that a crash is any of these worlds. Writing is byte by byte.
* Processes and threads: `Prog` (`Base/Conc.lean`), a program of atomic steps on shared state; `exec` runs any number of programs by any list of turns.
* dask arrays: lists of blocks, evaluated in an arbitrary order.
* Arrays with a shape: `Arr` (`Base/Arr.lean`), row-major data with numpy's broadcasting rules.
* Masked arrays: values with a mask bit (`Masked`).
* Context managers: functions of the body of the `with` block; the exit part always runs.

## What is modelled

| Source | Model | Parts left out |
|---|---|---|
| `pyspectral/blackbody.py` | `Model/Blackbody` | log messages |
| `pyspectral/utils.py` | `Model/Utils`, `Model/BandNames`, `Model/Rsr`, `Model/Logging`, `Model/Download`, `Model/Writer`, `Model/WriterSteps` | progress bar, message formatting |
| `pyspectral/bandnames.py` | `Model/Tables` (generated by `tools/gen_tables.py`) | |
| `pyspectral/radiance_tb_conversion.py` | `Model/RadTb`, `Model/Chunks`, `Model/EndToEnd` | |
| `pyspectral/rsr_reader.py` | `Model/Reader`, `Model/Download`, `Model/ConcurrentDownload` | representation of the HDF5 bytes |
| `pyspectral/raw_reader.py`, `pyspectral/config.py` | `Model/Config` | yaml syntax |
| `pyspectral/solar.py` | `Model/Solar` | `plot` |
| `pyspectral/rayleigh.py` | `Model/Rayleigh`, `Model/RayleighInts`, `Model/Chunks`, `Model/Download` | alignment of dask chunks, casts to float32 |
| `pyspectral/near_infrared_reflectance.py` | `Model/Nir`, `Model/EndToEnd`, `Model/Concurrent` | |
| `pyspectral/atm_correction_ir.py` | `Model/AtmIr`, `Model/AtmIrInts` | |
| `pyspectral/testing.py` | `Model/Testing`, `Model/Chunks` (the fake table) | its bytes |
| `rsr_convert_scripts/`: MODIS, VIIRS, SEVIRI, AGRI, GHI, MSU-GS, AMI, SLSTR (text), MERSI-1, AVHRR-1, Metop-C splitting, EPIC, GOCI-2, old AVHRR tables, MSI, OLI/TIRS, METimage, FCI, MODIS renaming, ABI, MERSI-2, MERSI-3, MERSI-RM, COCTS, AVHRR, VIRR, AATSR, AHI, MSU-GS/A, OLCI, SLSTR (netCDF) | `Model/Convert`, `Model/TextConvert`, `Model/SheetConvert`, `Model/ViirsConvert`, `Model/MoreConvert`, `Model/OtherConvert`, `Model/Avhrr1Convert`, `Model/MetimageConvert`, `Model/ModisProgram`, `Model/SeviriProgram`, `Model/Programs` | spreadsheet, text and number formats (parsed tables and parsers are parameters), command lines |
| `bin/*.py`, `plot_some_band.py` after parsing the arguments | `Model/Scripts` | `argparse`, axes and labels of the figures; opening a reader is a parameter of the plot programs |

`tools/coverage.py` lists, per source file, the functions no definition of the model cites. Not modelled: matplotlib and `argparse`.

## External libraries: parameters and contracts

Nothing is assumed of a library beyond what is listed; theorems carry the contract as a hypothesis or quantify over the parameter.

| Library | In the model | Assumed |
|---|---|---|
| scipy `InterpolatedUnivariateSpline` | parameter `Spline` | nothing, or "goes through the nodes" / positivity where a theorem states it |
| scipy `trapezoid`, numpy `diff`, `cumsum`, `linspace`, `arange`, `clip`, `where` | defined in `Base/NumPy` from their documentation | trusted translation |
| numpy `argsort` | any function with `IsArgsort` (`Props/Curves`: a permutation that sorts) | that |
| numpy cast of NaN to `int16` | parameter `nanCast` | nothing |
| geotiepoints `MultilinearInterpolator` | parameter | `IsMultilinear` (`Spec/Rayleigh`): trilinear inside the grid; nothing outside |
| h5py | parameter from file content to the tree of groups, data sets and attributes | nothing |
| `npz` files | `npzEncode`, `npzDecode` | decode after encode gives the table back, where stated; decoding a shortened or zero-patched file gives the table or an error (check sums), where stated |
| yaml | `yamlLoad`, `yamlDump` | load after dump gives the value back, where stated |
| `requests`, tarfile | `server : URL → Answer`, `untar : bytes → members read, reached the end` | nothing, or "a truncated archive is not read to its end" where stated |
| tempfile | `fresh` names | a fresh name is unused, where stated |
| logging | handlers with levels, records delivered to the handlers of a logger and its ancestors | trusted translation |
| Python `int()`, `float()` of text | `Parsers` | nothing |

## Trusted base

* Lean 4.33.0 kernel and Mathlib.
* Axioms: every theorem depends on at most `propext`, `Classical.choice`, `Quot.sound`. No `sorry`, no added axioms, no `native_decide`, no `bv_decide`. Theorems over the whole instrument and band tables use `decide +kernel`, which is evaluation by the kernel over the complete finite table.
* The hand translation of the Python into the model. `tools/check_citations.py` checks that every definition in `Model/` cites existing lines; `Check/Numbers.lean` runs the model on `Float` against numbers of the repository's own test-suite (tests, not proofs).
* The semantics of Python and numpy primitives in `Verif/Base`.

## Wrong programs

`seeded/LOG.jsonl` has one line per edit of the model made in a scratch copy. All modules depending on the edited one are elaborated again, past errors; a theorem counts as failed when it no longer has a proof free of `sorryAx`. `tightened` names theorems added or strengthened because an edit went unnoticed.

## Plan per property

| Id | Modelled / proof method |
|---|---|
| C01 | `planck` on lists, equals independent Planck-law spec over ℝ; algebra |
| C02 | `rad2temp`/`planck` inverse; `log (exp x) = x` |
| C03 | strict monotonicity and positivity of both; real analysis |
| C04 | case analysis on extended reals |
| C05 | field algebra |
| C06 | case analysis; list induction for the grid shape |
| C07 | dask array as list of blocks; map over concatenation; any evaluation permutation |
| C08 | wrapper modelled with positional/keyword arguments; refuted by witness, positional part proved |
| C09 | trapezoid of response-weighted Planck; weighted-mean bound by induction on the grid |
| C10 | strict monotonicity of the trapezoid by induction |
| C11 | algebra on trapezoid |
| C12 | index arithmetic incl. `int16` |
| C13 | floor arithmetic + C10 |
| C14 | refuted by int16 witness; exact entry for every temperature from modular arithmetic; holds up to 32767 steps above the start of the table |
| C15 | C02 + uniqueness by C03 |
| C16 | inverse of the regression for every table row |
| C17 | decision over the whole published tables; refuted (WV aliases, Meteosat-10) |
| C18 | decision logic of the constructors |
| C19 | refuted: conversion drops `central_wavelength` |
| C20, C21 | induction over bands/detectors/samples |
| C22 | weighted mean bound on trapezoid, scaling/reversal lemmas |
| C23, C24 | filter characterisation; C24 refuted/partial through alias tables |
| C25 | any sorting permutation as parameter; list induction |
| C26, C27 | index search; C27 refuted |
| C28 | cumulative sums; order claim refuted by spike, partial with the no-spike condition |
| C29 | index search |
| C30 | value sum type, case analysis |
| C31-C34 | whole instrument table by decision + string lemmas for all strings; C32, C33 refuted in part |
| C35, C36 | logging state machine, invariant by induction over calls; C36 refuted |
| C37 | association-list lookup |
| C38-C44 | reader model; induction over bands/detectors |
| C45-C49 | directory/network state machine with crash points |
| C50, C51 | HDF5 tree writer/reader; C50 refuted (wavelength dataset receives the response) |
| C52-C58 | solar object state machine; C57, C58 refuted |
| C59-C69 | Rayleigh: pixel functions over extended reals, LUT as arrays, download state machine; C60 (numpy arrays with dask installed, no red band) and C68 refuted |
| C70-C81 | Calculator pixel functions and state machine, LUT cache as file system; C73, C77, C80 refuted in part |
| C82-C87 | pixel functions, masked arrays; C85, C86 refuted |
| C88, C89 | nested trees, structural induction; file choice decision logic |
| C90-C92 | environment state machine; mocks as state overrides; name parsing; C92 refuted in part |
| C93 | decision logic of the options |
| C94 | refuted: the LUT path returns a plain number, which the inverse rejects; array part proved |
| C95 | constructor decision logic; refuted in wavenumber space |
| C96 | crash states of the table write; refuted (not atomic), partial when no write was interrupted |
| C97 | shapes through broadcasting; refuted without a table for images; exactly when the shape is kept, for any number of axes |
| C98-C100 | nested context managers; yaml and temporary names as contracts; C98 by structural induction on the configuration |
| C101-C103 | delivery of a record through handlers of a logger and its ancestors; invariant over call histories; C103 refuted after on-off-on |
| C104-C106 | lines of text to records; induction over lines; round trip through writer and reader |
| C107-C113 | tables by columns; filters, reversal, unit conversion; C109, C112 refuted in part |
| C125-C130 | the command line programs: `Model/Scripts`; runs on `World` (C125), induction over bands, platforms and scan rounds; the scan is a loop with fuel, termination shown by a bound on the rounds; C127, C130 refuted in part |
| C131, C132 | `Model/WriterSteps`: the writer statement by statement on the file being written; refinement of `Model/Writer` (same success, same file), and the invariant that a stopped run leaves a listed band without wavelengths; C132 refuted in part |
| C133-C139 | further converters: `Model/MoreConvert`; induction over the sections of the file (C133), the columns (C134-C136, C139), insertion into a sorted list (C137), refinement on the directory (C138); C133, C134, C137 refuted in part |
| C140-C142 | dask evaluation: `Model/Chunks` (a block is a list of pixel numbers, so chunks along any axes; any order of blocks, each with its own state of the file system); every pixel is computed from its own angles, induction over the schedule (C140, C141); the mocked table is constant over the angles, trilinear interpolation of a constant (C142) |
| C143 | the path of `convert2hdf5` against the path of a reader by names; file names are injective in the instrument, canonical names have no dash |
| C144, C145 | `Model/TextConvert`: `genfromtxt` gives an array or, with names, a list of columns; construction from the configuration (C93), then the writer step by step (C131, C132) |
| C146 | `Model/EndToEnd`: a converter with the reader it makes, on a file system; C38, C40 (reading), C20 (wavenumbers) and the direct calculation composed |
| C147 | `Model/EndToEnd`: a Calculator with its reader; C146, C95 (construction), the table the converter makes for itself, and the pixel formula of C70-C76 composed |
| C148 | the reader (C40), the effective wavelength (C69), the two tables (C61), clipping and secants (C62), the cell (C65) and the fading (C63) composed, with the value stated by a separate `TableValue` |
| C149 | the writer statement by statement with the file it leaves behind; distinct wavelengths (SortedUnique, C137), comparison with numpy's broadcasting, then the reader (C40); failing bands by a frame argument (a band writes into its own group only) |
| C150 | `Model/SheetConvert`, `Props/SheetConvert`: construction from the configuration (C93), columns after three rows, the row of the band |
| C151 | `Model/SheetConvert`, `Props/SheetConvert`: the cells of the sheet split into words; then the writer step by step (C131, C132) |
| C152 | `Model/SheetConvert`, `Props/SheetConvert`: dictionary of sheets, last one wins; files left behind by the failing conversion |
| C153 | `Base/Conc`, `Lemmas/Shared`, `Model/Concurrent`, `Props/Concurrent`: programs of atomic steps on shared files, `exec` over any list of process numbers; invariant: every byte of the file is right or zero, and what is missing is still to be written by a process that opened the file |
| C154 | `Model/ConcurrentDownload`, `Props/ConcurrentDownload`: archives as numbered files that outlive their names; the invariant of C153 (`Lemmas/Shared`) for every member, given up as soon as a process is bound to fail; schedules built step by step for the refutations |
| C155 | logging_on and get_logger as programs of atomic steps (Model/ConcurrentLogging.lean) on the logging state of C35; an invariant over the places of all threads, kept by every step, gives the positive part; a schedule in which all threads look at the flag first gives the refutation |
| C156 | override_config as a program of atomic steps (Model/ConcurrentTesting.lean); a predicate on programs that own the variable, kept by every schedule in which the others do not change it; concrete schedules for the refutations |
| C157 | C55 for the flux, composed with reading the file (C146, C147): a calculator that derives its flux is the calculator given that flux |
| C158 | Programs of atomic steps on shared files (Base/Conc.lean, Model/ConcurrentDownload.lean, Model/ConcurrentRayleigh.lean); ownership rules in Lemmas/Owns.lean; the refutation is a schedule built for arbitrary archives. |
| C159 | The tables are finite, so their comparison with the specification is evaluated completely in the kernel; the statement about look-ups is for all instruments, names and data sets. |
| C160 | Cells, headers, remarks, the loop over sheets that stops at an unknown name, and the writing of the files statement by statement are modelled; the theorem is by induction over the sheets. |
| C161 | Constructors of the remaining scripts over the configuration and a map from paths to tables; composed with the loads of C110, C111, C134, C135, C139 and, for AGRI of FY-4B, with the writer and the reader (C143). |
| C162 | Same model as C161; the cut for bands named 1, 2, 3 is modelled and never reached. |
| C163 | Relative error bounds for the products, the two trapezoid sums and the quotient; the exact weighted mean lies within the band. |
| C164 | Order by monotonicity of rounding, accuracy by relative error bounds, structure as for C20. |
| C165 | Bound the rounding of arange, of the scale 1/resolution and of the product before truncation; the clipped index is within one step of the exact position. |
| C166 | floating point: error analysis of the zenith term (absolute, the cosine may vanish), of the CO2 factor and of the band radiances (relative), and of the quotient of two differences; the day-side test cannot flip. |
| C167 | Model/Programs.lean lists every conversion program as the list of its convert2hdf5 calls and runs them one after another on a store of files. Props/Programs.lean proves by induction over that list that targets of distinct platforms are distinct, hence that nothing already written is touched; the failing case uses what a single failed conversion keeps (C132). |
| C168 | Model/OtherConvert.lean (OliRSR) and Model/Programs.lean (oliProgram); the places are stated in the property file as a separate relation; the curve by C136, the file by C50/C131 and the two files by C167. |
| C169 | Over RF F (rounded operations) with the same model definitions: clipping and comparisons are exact, so order is kept by monotone rounding and exact values by idempotent rounding; accuracy by adding up rounding errors. |
| C170 | Props/FloatGrid.lean and Props/FloatSolar.lean: linspace in rounded arithmetic point by point (rounding does not cross the float end points), then the trapezoid lemma of the floating point band radiance. |
| C171 | floating point: positions in the computed table (C165) composed with the error analysis of C166, which is stated for radiances taken at any pair of temperatures. |
| C172 | model of the conversions to element types (Model/Integers.lean), integers wrap around at 64 bits; proved on the extended reals. |
| C173 | the retrieval with the conversions of lines 251, 261, 264 (and of the table) to the element types of its arguments; equals the retrieval of C70 for floating point arrays. |
| C174 | look-up in the converted table (Model/Integers.lean) compared with the look-up in the table. |
| C175 | planck with the third power taken in 64 bit integers; compared with Planck's law. |
| C176 | rounded arithmetic (Base/FP.lean); the absolute error is followed through the code; specification as in C82. |
| C177 | rounded arithmetic; error of the trapezoid sum from the lemmas of C124. |
| C178 | The download of each aerosol type as for C67, with a server that refuses one type; induction over the types before it. |
| C179 | floating point: the error bounds of C119 and C166 composed with the subtraction and the product; the run of emissive_part_3x is the one of C76, stated for every number type. |
| C180 | dimensional analysis: Planck's law with its constants as arguments, homogeneous in the unit of length; the power is read off the unit's text by a small independent parser. |
| C181 | symbolic execution of the conversion and of the resampling with a missing abscissa, for every number type and interpolation routine. |
| C182 | `rayleighNewKw` reads the two keywords out of a dictionary and calls the modelled constructor; the file comes from C66. |
| C183 | Each trapezoid of one space is compared with the trapezoid of the same two samples in the other; induction over the spectrum. |
| C184 | As C183, with C146's description of what the converters hold. |
| C185 | Both trapezoid sums are written over half intervals; neighbouring terms are compared pairwise (Chebyshev's sum inequality), by induction over the curve. |
| C186 | planck_nearby: for wavelengths within a factor s, B(l, t/s^4) <= B(x, t) <= B(l, s^4 t); the band mean lies between the bounds and Planck's law is increasing in temperature, so the inverse does too. The file version uses converter_loaded (C146). |
| C187 | Small distances are computed exactly (Sterbenz), large ones do not round below epsilon (monotone rounding). |
| C188 | fp_sub_pos by cases on signs with rnd_sub and monotone rounding; then the masks of the two arithmetics are equal and C25 carries over. |
| C189 | Model/SolarPlot.lean: what is handed to matplotlib. C52 for the samples in wavenumber space. |
| C190 | The reader and converter of C146 in floating point: the scaled positions keep their order (Near), so that the sensor satisfies C124. |
| C191 | Rewriting of the construction: the reader inside is the reader outside, and the flux derived there is the flux computed outside. |
| C192 | The documented table as a specification (36 rows checked by the kernel), then C38 for every state of the file system. |
| C193 | The effects of making the object do not involve the names except in normalising the sensor; a wavelength never reads a response file. |
| C194 | The range of exact arithmetic is carried over: comparisons are exact and the samples are not recomputed. |
| C195 | A change of the wavelength by rounding is a small factor of the radiance; then the inverse of Planck's law (C117) and the emissive radiance (C179) are combined. |
| C196 | The relative error of the running sums is bounded by induction; the greatest of them is close to the total; the comparisons with the limits are then those of exact arithmetic unless a share is close to a limit. |
| C197 | The computed positions are near the stored ones; distances, integrals and Planck's law are bounded for slightly different positions and combined with the bound for exact positions (C119). |
| C198 | The construction with omitted arguments is the one with the documented values; what a constructed object holds follows by inversion of the construction. |
| C199 | Both constants are trapezoid sums; pair by pair the term in wavenumber space is 1000 times the other with the irradiances weighted by the ratio of the wavelengths (induction over the samples). |
| C200 | Every converted position and irradiance is within 4 units of rounding of the exact one; differences of positions lose 1/r (`gap_near`), the rounded trapezoid rule adds 4 + 2n (`trapVal_near`). |
| C201 | Per class: objects keep the instrument set in the constructor and the configured directory; the table is compared with the programs by evaluation. |
| C202 | Props/LandsatNumbers.lean, from C168_curve: the sheet read for each band against a table of the numbers used by the provider; counterexamples for B6 to B9 and for the unit of TIRS. |
| C203 | Model/MetimageConvert.lean (class, per-band steps, program) and Props/MetimageProgram.lean: C137 for each band, the loop over bands as in C149, and what the reader makes of the file. |
| C204 | Props/MetimageProgram.lean: the loop over the bands stops at the failing band, whose group stays absent, so that the listed bands cannot be read. |
| C205 | Props/ProgramsApart.lean: a run changes only files its calls are for (induction over the calls, whatever the outcome), which are those of the table of C201; the files of different programs differ (over the whole table); induction over the history. |
| C206 | Model/ModisProgram.lean (statement by statement) and Props/ModisProgram.lean: the steps of a band leave the group of C106 (induction over detectors and bands), so every successful conversion of C106 is what is left on disk. |
| C207 | Props/ModisProgram.lean: the loop over the bands stops at the missing one, whose group stays absent, so that the listed bands cannot be read. |
| C208 | Model/SeviriProgram.lean (statement by statement) and Props/SeviriProgram.lean: each channel leaves the group of C109 or one without responses; induction over channels and satellites. |
| C209 | Model/AtmIrInts.lean: arrays with element types, numpy promotion and in-place addition; Props/AtmIrInts.lean reduces the dask code to that of C82 and shows the first in-place addition to fail. |
| C210 | Model/RayleighInts.lean: get_reflectance with element types; Props/RayleighInts.lean: reduction to C148 for floats; for integers every table entry becomes zero. |
| C211 | Props/NirFailures.lean: state of the object at each point where a retrieval can raise; also the history version of C77. |
| C114, C116 | floating point: each rounded step of the formula is monotone on the sign range it is used in; composed, including overflow and underflow |
| C115, C117 | floating point: factors `e^δ` of relative error (`Near`) propagated through each step |
| C118, C120 | the same for sums of products of nonnegative rounded numbers (`trapVal_mono`), for the rounded table grid and the rounded index |
| C121, C122 | SEVIRI converter in floating point: as C114–C117, for every row of the coefficient table |
| C123 | reflectance of one pixel in floating point: numerator monotone, denominator the same; case analysis of infinities and NaN (`ratio_mono`) on top of C118/C120 |
| C124 | the constructor's unit and wavenumber conversion in floating point keeps curves usable (`curve_wavelength`, `curve_wavenumber`); then C118, C120 |
| C119 | `Near` through products, the sum contract (`sum_near`) and the quotient by the computed response integral |
