STATUS = {"C58": "partial", "C94": "partial", "C86": "partial"}
NOTES = {
 "C60": "The claim is false of the code for numpy arrays without red band where dask is installed: the zeros are a numpy array and .compute() raises AttributeError. Proved: that failure for every such call, the claim with a red band and without dask, and that dask makes no other difference for numpy arrays. Dask arrays are C140.",
 "C55": "The claim is false of the code for a band of at most half a step: one grid point, flux 0, irradiance NaN. Proved: that failure for all such bands, and the claim for wider ones. The spline is a parameter.",
 "C57": "The claim is false of the code: interpolate(dlambda=...) changes the step for good. Proved: a counterexample for any interpolation that reproduces squares and constants, and the claim for calls without a step.",
 "C58": "The claim is false of the code: proved that every decreasing response raises ValueError, for an interpolation that rejects such abscissae as scipy's does.",
 "C50": "The claim is false of the code: the responses are stored as wavelengths. Proved: what is read back for all data, a concrete counterexample, and that the responses are read back.",

 "C39": "The claim is false of the code: instrument 'oli_tirs' on 'X' and 'oli' on 'tirs_X' share a file name. Proved: the collision, the claim for names without an underscore clash and for all known platforms, and exactly which pairs share a file.",
 "C42": "The claim is false of the code for FY-3A/3B/3C, FY-4B and Sentinel-3A/3B without a sensor attribute: the instrument is a list and every alias lookup raises TypeError. Proved: the failure, and the claim for one instrument. Also proved: exactly when the default sensor works.",

 "C73": "The claim is false of the code with a look-up table: the NaN is replaced by an entry of the table. Proved: the failure, and the claim without table.",
 "C127": "The claim is false of the code: if a platform carries none of the sensors, the previous platform is drawn again (NameError if it is the first). Proved: both failures, and the claim when every platform carries one of the sensors. RelativeSpectralResponse(platform, sensor) is a function parameter; axes and labels are not modelled.",
 "C130": "The claim is false of the code: det = detectors[0] indexes the keys of a dictionary, a TypeError. Proved: no curve is ever drawn, every wavelength at which a listed sensor has a band fails, and the program ends with an empty figure otherwise.",
 "C77": "The claim is false of the code for tb=True (the default): AttributeError. Proved: the failure for every object without retrieval, and the claim for tb=False. C77_history: the same after any history of calls in which no reflectance was obtained, including failed attempts.",
 "C97": "The claim is false of the code without a table for images: every image of two or more rows and columns raises ValueError, a column of two pixels gives 2x2. Proved: both failures, the claim with a table or for one-dimensional arrays, what happens without a table for arrays of any number of axes, and exactly when the shape is kept.",

 "C80": "The claim is false of the code: the file name has neither detector nor wave space in it. Proved: a second object on the same file always gets the table of the first, a concrete pair of detectors with different tables, and the claim for any history whose objects on one file share one own table.",
 "C95": "The claim is false of the code: no wavenumber construction ever works, for any data set. Proved: that failure, and the claim in wavelength space for a good band and a writable cache place.",
 "C96": "The claim is false of the code: a death between opening and filling the file leaves an empty table that every later construction fails on. Proved: that failure, and the claim when the file is absent or complete after the death. The write of the table is modelled as open followed by one append.",

 "C08": "The claim is false of the code: every keyword call fails. Proved: the failure, the negation of the equivalence, and the positional part.",
 "C14": "The claim is false of the code: the scaled temperature is stored as int16 and overflows, so from 3426.8 K to 6703.5 K the coldest entry of the tables pyspectral makes is looked up. Proved: a counterexample, exactly which entry is looked up for every temperature, and monotonicity up to 32767 steps above the start of the table.",
 "C94": "The claim is false of the code: a one-element table look-up gives a Python float, which radiance2tb rejects. Proved: for every successful tb2radiance call of every converter, exactly these results are rejected and all others are converted element by element (C94_exactly).",
 "C17": "The claim is false of the code: the water-vapour aliases and every Meteosat-10 channel fail with KeyError. Proved: the failures, and convertibility of all other aliases on the other platforms. Also proved: among all names and platforms, exactly fourteen names on Meteosat-8 and Meteosat-9 are convertible (C17_exactly).",
 "C19": "The claim is false of the code: a numeric band never works in wavenumber space (KeyError). Proved: the failure for every sensor, and the named-band part.",
 "C24": "The claim is false of the code: the returned standard name need not be a key of the dictionary. Proved: a counterexample, the claim when the alias tables do not rename the channel, and exactly when the returned name is a key.",
 "C27": "The claim is false of the code: the threshold is the constant 0.5, not half of the maximum. Proved: a counterexample, and the claim for curves with maximum 1. Also proved: exactly when the returned width is that of half the maximum.",
 "C28": "The order of the bounds is false of the code for a spike. Proved: which samples give the bounds, when the call fails, a counterexample for the order, and the order when some sample lies between the limits. Also proved: exactly when the bounds exist in order.",
 "C30": "The exception class is false of the code for one-element object arrays (AttributeError). Proved: exactly which values are accepted, the counterexample, and ValueError for the rest.",
 "C32": "The claim is false of the code on FY-3A/B/C. Proved: a counterexample, idempotence on all other platforms, and that these three are the only excluded ones. Also proved: adjusting again changes a name exactly for mersi-1 on these platforms.",
 "C33": "Symmetry is false of the code. Proved: a counterexample, reflexivity, transitivity, symmetry away from the AVHRR dash names, exactly which pairs are identical, ValueError for non-strings.",
 "C103": "The claim is false of the code after on, off, on (nothing is printed). Proved: the counterexample, the claim for histories without logging_off in between, and exactly which histories print; delivery of records by the logging module is stated in Spec/Logging.lean.",
 "C101": "Delivery of records by the logging module (levels, ancestors, handler of last resort) is stated in Spec/Logging.lean.",
 "C102": "Delivery of records by the logging module is stated in Spec/Logging.lean.",
 "C36": "The claim is false of the code: after on, off, on there is no console handler. Proved: the counterexample, the claim for histories without logging_off in between, and exactly which histories have a console handler.",
 "C47": "The claim is false of the code: with a destination other than the RSR directory every call downloads again. Proved: the repetition for every such directory and server, and the claim for the RSR directory.",
 "C48": "The first half is false of the code when the archive has members after the version file. Proved: a counterexample that no later check repairs, the claim for archives with the version file last, and (fully) that re-running after any interruptions gives the files of an uninterrupted run. Also proved: for an archive with distinct names on an empty directory the claim holds exactly when the version file is the last member.",
 "C68": "The claim is false of the code: rayleigh.check_and_download ignores the option. Proved: the failure for every such configuration, and the claim for the other entry points.",
 "C85": "The claim is false of the code for every temperature above 210 K. Proved: that failure, and the claim for temperatures up to 210 K. Also proved: exactly the pixels nearer to nadir than a given angle are concerned (C85_exactly); at 300 K all pixels up to 60 degrees (C85_warm_sea).",
 "C86": "The claim is false of the code: every plain array raises AttributeError, after the nadir pixels were changed. Proved: that failure for every plain array, directly and through get_correction.",
 "C92": "The claim is false of the code for Landsat: the fake data of oli_tirs carry the platform name 'tirs'. Proved: that failure, and the claim for all names without an underscore, which covers every other known platform. Also proved: exactly when the fake data carry the platform name, and that they always exist.",
 "C104": "Number parsing is a parameter (any functions raising only ValueError).",
 "C105": "np.argsort is a parameter with its contract (IsArgsort).",
 "C106": "Storage as 32-bit float is an arbitrary function; the partial file left by a failing conversion is not modelled.",
 "C107": "Parsing of the table by np.genfromtxt and the writing of the VIIRS file are not modelled. The second way of reading (tables without a band column) selects columns by name and fails like C144.",
 "C109": "The claim is false of the code: a workbook with any channel other than IR raises IndexError (numpy indexed by '95'; only ValueError is caught). Proved: that failure for every such workbook and satellite, the claim for workbooks with infrared channels only, and TypeError for objects by wavenumber.",
 "C112": "The claim is false of the code: ch4 and ch8 share column 4. Proved: that, and distinct columns for all other bands; ch4 and ch8 are the only such pair (C112_exactly).",
 "C114": 'Numbers are those of any floating point arithmetic satisfying Base/FP.lean (monotone rounding to relative error 2^-52, accurate monotone exp and log); Base/Double.lean shows that IEEE double precision with a correctly rounded library is one. float32 arrays are not covered.',
 "C115": 'Numbers are those of any floating point arithmetic satisfying Base/FP.lean (monotone rounding to relative error 2^-52, accurate monotone exp and log); Base/Double.lean shows that IEEE double precision with a correctly rounded library is one. float32 arrays are not covered.',
 "C116": 'Numbers are those of any floating point arithmetic satisfying Base/FP.lean (monotone rounding to relative error 2^-52, accurate monotone exp and log); Base/Double.lean shows that IEEE double precision with a correctly rounded library is one. float32 arrays are not covered.',
 "C117": 'Numbers are those of any floating point arithmetic satisfying Base/FP.lean (monotone rounding to relative error 2^-52, accurate monotone exp and log); Base/Double.lean shows that IEEE double precision with a correctly rounded library is one. float32 arrays are not covered.',
 "C118": 'Numbers are those of any floating point arithmetic satisfying Base/FP.lean (monotone rounding to relative error 2^-52, accurate monotone exp and log, sums of nonnegative numbers accurate and monotone); Base/Double.lean shows that IEEE double precision with a correctly rounded library is one. float32 arrays are not covered.',
 "C119": 'Numbers are those of any floating point arithmetic satisfying Base/FP.lean (monotone rounding to relative error 2^-52, accurate monotone exp and log, sums of nonnegative numbers accurate and monotone); Base/Double.lean shows that IEEE double precision with a correctly rounded library is one. float32 arrays are not covered.',
 "C120": 'Numbers are those of any floating point arithmetic satisfying Base/FP.lean (monotone rounding to relative error 2^-52, accurate monotone exp and log, sums of nonnegative numbers accurate and monotone); Base/Double.lean shows that IEEE double precision with a correctly rounded library is one. float32 arrays are not covered.',
 "C121": 'Numbers are those of any floating point arithmetic satisfying Base/FP.lean (monotone rounding to relative error 2^-52, accurate monotone exp and log); Base/Double.lean shows that IEEE double precision with a correctly rounded library is one. float32 arrays are not covered.',
 "C122": 'Numbers are those of any floating point arithmetic satisfying Base/FP.lean (monotone rounding to relative error 2^-52, accurate monotone exp and log); Base/Double.lean shows that IEEE double precision with a correctly rounded library is one. float32 arrays are not covered.',
 "C123": 'Numbers are those of any floating point arithmetic satisfying Base/FP.lean (monotone rounding to relative error 2^-52, accurate monotone exp and log, sums of nonnegative numbers accurate and monotone); Base/Double.lean shows that IEEE double precision with a correctly rounded library is one. float32 arrays are not covered.',
 "C124": 'Numbers are those of any floating point arithmetic satisfying Base/FP.lean (monotone rounding to relative error 2^-52, accurate monotone exp and log, sums of nonnegative numbers accurate and monotone); Base/Double.lean shows that IEEE double precision with a correctly rounded library is one. float32 arrays are not covered.',
 "C131": 'Exceptions of Python; a process killed while HDF5 writes is not modelled. Creating and filling a data set is one step.',
 "C132": 'The claim is false of the code: the file is opened for writing (emptied) before the bands are written. Proved: once all data are read, a failure always leaves a target that does not load, with a concrete history; the claim when the original data of some band cannot be read; other files are never touched.',
 "C133": 'The claim is false of the code: the last line of the file is never read, and a section without samples makes its channel and all later ones empty (both proved). Proved: files of six non-empty sections, separated, with any last line after them. The rounding of the text written is not modelled.',
 "C134": 'The claim is false of the code: missing entries are dropped from each column by itself, so that pairs occur that are in no row (proved). Proved: what is stored for every pattern of gaps, and the claim when the same rows are missing in both columns.',
 "C136": 'The 0-dimensional array numpy makes of a single kept sample is not modelled.',
 "C137": 'The claim is false of the code if a wavelength is missing: the data set of wavelengths then has one entry more than the responses (proved). Proved: the claim without missing wavelengths; masked netCDF values are not modelled.',
 "C140": 'All dask arguments have the same blocks (dask aligns them); a mixture of numpy and dask arguments and dtype casts are not modelled. Holds for every number type, floating point included.',
 "C141": 'Tables with at least one radiance.',
 "C142": 'The interpolator is assumed trilinear inside the grid, as for C65. That the file is the one opened inside the block is C99.',
 "C143": 'The claim is false of the code: the writer drops only slashes from the instrument name, the reader also dashes, so files for mersi-rm, msu-gs (and any other name with a dash) are never opened (proved). Proved: exactly when the converted file is opened, and the claim for names without dash and upper-case letters. That h5py reads back what it wrote is a hypothesis.',
 "C144": 'The claim is false of the code: with numpy 1.20 or later genfromtxt(unpack=True, names=...) returns a list, so reading columns by name (AMI, AVHRR, COCTS, MERSI-2, VIRR) is a TypeError for every table, and VIRR objects are never made because the instrument is a list (proved). Proved: the claim for ABI, MERSI-3, MERSI-RM and MSU-GS. Parsing of the text is not modelled.',
 "C145": 'The claim is false of the code: all these converters but ABI only log a warning, and the writer empties the file before it fails (proved for MERSI-3, MERSI-RM and AMI). Proved: the claim for ABI.',
 "C146": 'Exact arithmetic. The file is the one present when the reader has updated its data; downloading itself is C45-C49. In wavenumber space all curves of the file must be response curves, since all are converted. Temperatures above 1e-6 K.',
 "C147": 'Exact arithmetic, finite pixels, wavelength space (in wavenumber space no Calculator can be made, C95). No table file yet (an old one is used as it is, C80); without table the arrays are one-dimensional (C97).',
 "C148": 'Exact arithmetic. The interpolator of geotiepoints is assumed to be multilinear (IsMultilinear, as in C65); azimuth differences inside the table, effective wavelength strictly inside the range of the table (outside: C60). The response file is the one present; downloading is C45-C49.',
 "C149": 'The claim is false of the code with numpy 2, which has no alltrue: AttributeError as soon as M1 has two detectors, after the old file was emptied (proved). A missing file of a later band also destroys the old file (proved). Proved: the round trip with numpy 1, given a sample per detector, no missing wavelength in single-detector bands, and equally many distinct wavelengths per band if numpy raises for uneven arrays (1.25).',
 "C150": "Numbers are exact; missing values of netCDF files and pandas' handling of a sheet whose number of columns differs from the given names are not modelled.",
 "C151": 'False of the code: rows after the 255th sample are dropped without a message (C151_rest_dropped), and a missing sheet only leaves `rsr` None, so the conversion fails after the old response file was emptied (C151_missing_sheet_loses). Proved: the first 255 samples are given, in order.',
 "C152": 'False of the code: the band names are given to h5py as the values of a dictionary, which it refuses, so the conversion always fails and replaces the response file by one that does not load (C152_never_converts). Proved: the reader has the samples of rows 6 to 5453 of the last sheet of each band.',
 "C153": 'The last part is false of the code: a process that finds the file while another one has only just opened it fails (C153_race). The rest is proved, and C153_alone shows that a process running alone does what the sequential model (C70-C81) does. Assumed: reading a shortened or zero-patched copy of the file raises or gives the table (the zip check sums); single bytes are read and written atomically.',
 "C154": 'The last two parts are false of the code: all processes use the same name for the archive, so one of two fails with FileNotFoundError when the other one removes it (C154_race), and with three a file can be left cut off under a current version, which no later check repairs (C154_marked_incomplete). The rest is proved, and C154_alone shows that a process running alone does what the sequential model (C45-C49) does. Assumed: an archive with missing or zero bytes that is read to its end without an error has the right members (check sum). Simplified: an archive is read completely before its members are written; the version line is read at once.',
 "C155": 'the full claim is false of the code (C155_race, C155_mixed); C155_printed_partial and C155_concurrent are what holds under every schedule',
 "C156": 'the full claim is false of the code (C156_race, C156_key_error, C156_race_temporary); C156_restored_partial and C156_in_force_partial cover one overriding thread among others; C156_one_at_a_time_restored and C156_one_at_a_time_in_force cover any number of overriding threads whose blocks do not overlap',
 "C157": 'wavelength space; the spline is any function that gives a real function on these samples',
 "C158": 'Proved for every schedule as long as no two processes have to fetch tables of the same aerosol type (any number may use tables that are current); then every finished process agrees with the sequential model, by an ownership argument (each process owns one directory and one address). False otherwise: C158_race gives a schedule in which one of two processes fails with FileNotFoundError, because the archive has one name per aerosol type and the other process removes it.',
 "C159": "The specification reads the numbers and letters of both names and does not use the tables. The METimage table (key 'VII', not reachable through an instrument name as the readers write it) is treated apart: its bands are numbered by increasing wavelength.",
 "C160": 'The theorem is about complete workbooks. Where the code does less than one would expect this is proved too: a missing workbook is not replaced by the one in the package (a misspelled attribute), responses by wavenumber can never be asked for (the method does not exist), and an unexpected sheet at the beginning makes the conversion fail after the NOAA-10 file has been destroyed.',
 "C161": 'Model/OtherConvert.lean. Not modelled: the 0-dimensional array that numpy makes when exactly one sample of an AGRI or GHI table remains; the parsing of text, sheets and NetCDF files. EPIC and GOCI-2 are stated for rows complete or empty in both columns (C134 has the others).',
 "C162": 'Partial: false for ch1-ch3 (C162_far_samples_kept: every far sample with a response above 0.001 is handed on); proved for the other bands and for tables without far samples. FY-3B reads its columns as in C112.',
 "C163": 'Error bounds through the trapezoid sums (trapVal_near), the products and the quotient; the exact mean is a ratio of trapezoid integrals.',
 "C164": 'Same structure as C20 with rounded arithmetic: monotone rounding gives the order, the error bound gives strictness.',
 "C165": 'Error bounds of table temperatures, scale and index; clipping at both ends.',
 "C166": 'Proved for every floating point arithmetic of Base/FP (instance: double precision).',
 "C167": 'The single-file programs of SEVIRI, AVHRR/1, VIIRS, MODIS and AHI are covered by their own properties.',
 "C168": 'One kept sample (numpy squeezes it to a 0-dimensional array) is outside the hypotheses. The wavelengths in the file are those of C50: the writer stores the responses in their place.',
 "C169": 'The interpolation in the angles (scipy/geotiepoints) is a parameter of the model; the percentage holds whatever it returns.',
 "C170": 'the band must be at least 0.6 steps wide (at most half a step is the failing case of C55)',
 "C171": '',
 "C172": 'Holds by wavenumber. False by wavelength: the wavelength is converted to the integer type of the radiances and becomes 0, so that every temperature is NaN, for every integer radiance and every wavelength below one metre (C172_integer_radiances_nan).',
 "C173": 'Proved when the table, the sunlight, the integral and the correction are whole numbers. False otherwise: with integer thermal temperatures and an integral below one (every band given by wavelengths) each reflectance is 0 or NaN, and 0 wherever the sunlight is at least 1 and the pixel is valid (C173_integer_temperatures_zero; example with 1/9 in floating point).',
 "C174": '',
 "C175": '',
 "C176": 'Assumes of the power function that results between 1e-100 and 1e100 are right to the fraction 2^-50; proved of the double precision instance.',
 "C177": '',
 "C178": '',
 "C179": 'Composes C119 (band radiance) and C166 (reflectance) with the two roundings of the product.',
 "C180": 'Two defects are recorded: the unit is wrong when a table made with the other normalized argument is used, and the documented unit of SEVIRI radiances is not the one the formula needs.',
 "C181": 'Records that wavespace and units are stale after the public method convert2wavenumber; wrong numbers are never returned by the in-band methods.',
 "C182": 'C182_other_keywords_ignored compares two keyword dictionaries with the same atmosphere and aerosol_type; C182_selected gives the table file; C182_documented_rural is the documented call.',
 "C183": 'C183_solar_constants; the documented example (1366.091 and 1366077.16482) is an instance.',
 "C184": "C184_integrated_radiances, from the file to the result; uses Planck's law per wavelength times wavelength squared being Planck's law per wavenumber.",
 "C185": 'C185_central_waves for curves, C185_convert for a reader, C185_documented_formula for the formula of the documentation.',
 "C186": "Exact arithmetic. planck_nearby bounds Planck's law at a nearby wavelength by Planck's law at a stretched temperature (convexity of exp). The bound (b/a)^4 is not claimed to be sharp.",
 "C187": 'Uses that differences of numbers within a factor of two are exact (Sterbenz), assumed of the arithmetic and proved for IEEE double (Double.rnd_sub).',
 "C188": 'A rounded difference is positive exactly if the difference is (fp_sub_pos), which needs gradual underflow: it follows from the exactness of differences within a factor of two.',
 "C189": 'Up to the figure: showing or saving it and the TeX settings are not modelled. matplotlib refusing None, unequal lengths and non-finite limits with ValueError is trusted.',
 "C190": 'C124 from the stored file on: scaling by the stored scale and 1e6 is included.',
 "C191": 'The flux must be that of the first detector (the default of inband_solarflux), also for a Calculator of another detector.',
 "C192": 'The claim is false of the code for one row: for FY-3D mersi-2 the documentation names rsr_mersi-2_FY-3D.h5, the reader opens rsr_mersi2_FY-3D.h5 (proved). Proved: the claim for the other 36 rows.',
 "C193": 'Partial: the documentation allows any name without response data, but a platform known with several sensors refuses other sensor names, C193_refused (ValueError, e.g. Sentinel-3A with ufo).',
 "C194": 'The samples are chosen by comparisons only, which are exact.',
 "C195": "Without look-up table (C171 covers the table's effect on the reflectance).",
 "C196": "numpy's cumsum adds in sequence. The order of the bounds can be reversed for a spike in one sample (C28).",
 "C197": 'Without the look-up table. Exponents between 0.71 and 299; responses zero or between 1e-10 and 1e10; at most 2^20 samples.',
 "C198": 'Defaults of the Rayleigh correction are in C66, of the solar step in C52, of the downloads in C67 and C125.',
 "C199": '',
 "C200": '',
 "C201": 'The claim is false of the code for the files of MERSI-1, MERSI-2, MERSI-RM, MSU-GS and MSU-GS/A, whose names keep a dash the reader drops: no reader for the platform opens them (proved). Proved: the names, directory and bands of all files, and the claim for the others. The VIRR program writes nothing (C167).',
 "C202": 'True of B1 to B5 (C202_numbers_partial). False of B6 to B9: they are made from the sheets of bands 9, 6, 7 and 8 of the provider (C202_renumbered). False of B10 and B11 if the column headed `wavelength [um]` is in micron as headed: the script divides it by 1000 as it does with the nanometres of OLI (C202_tirs_unit). The numbers of the provider are a table of the specification (`providerSheets`), not taken from the code.',
 "C203": 'Samples without missing values (C137 treats those). 32-bit rounding is a parameter; masks of netCDF variables are not modelled.',
 "C204": 'True without a section in the configuration and when the first band is missing (C204_unchanged_partial). False when another band is missing (C204_lacking_band_destroys) and when there is no original file at all, which is only a warning until the response file is already emptied (C204_no_file_destroys).',
 "C205": 'True for every file but rsr_slstr_Sentinel-3B.h5 (C205_apart_partial); all other files of the disk are unchanged as well (C205_only_own). False for SLSTR on Sentinel-3B: slstr_rsr.py and slstr_rsr_txt.py make the same file, and the later run replaces what the earlier made (C205_slstr_overwrites). The programs with their own writers (MODIS, VIIRS, SEVIRI, METimage, AHI) are not among the 22.',
 "C206": 'Extends C106 (the content of the file) to the program and its files. The group of a detector is made in one step.',
 "C207": 'True without a section in the configuration and when the file of band 20 is missing (C207_unchanged_partial), and for the file of Aqua when the conversion for Terra fails (C207_terra_first). False when the file of any other band is missing: the response file is emptied before (C207_missing_file_destroys).',
 "C208": 'True for workbooks with infrared channels only (C208_infrared_partial, C208_found). False for every workbook with a visible channel, as the published one: the program fails at Meteosat-8, whose previous response file is lost and replaced by one that cannot be read, and the other satellites are not converted (C208_visible_destroys).',
 "C209": 'True for dask arrays (C209_dask_partial: every pixel is the temperature plus the documented correction, as a float). False for numpy arrays: TypeError for every image, even one with nothing to correct, with the array left as it was (C209_numpy_raises, C209_get_correction_raises).',
 "C210": 'True when the red band (without one: the sun zenith angles) has floating point numbers; the element types of the other arrays do not matter (C210_floats_partial), and the correction is then positive (C210_floats_positive). False with integers there: the table itself is converted to integers, so the correction is zero at every pixel, if the interpolator does not refuse (C210_integers_no_correction).',
 "C211": 'False of the code. C211_mixed: after a success, a call of as many pixels with a wrong number of sun zenith angles raises ValueError but has already replaced the radiances; the emissive part then combines the new radiances with the old reflectances and belongs to neither scene (a concrete pair is shown). C211_unchanged_partial: calls that fail earlier leave the whole object as it was. C211_next_success: after any history of calls, failed or not, the next successful retrieval and its emissive part are those of an object on which no call was made.',
}
