import json
P=[]
def p(title, statement, quantifier, why, anchors):
    P.append(dict(id="C%02d"%(len(P)+1), title=title, statement=statement, quantifier=quantifier, why_tests_cant=why, anchors=anchors))
B="pyspectral/blackbody.py:"; R="pyspectral/radiance_tb_conversion.py:"; U="pyspectral/utils.py:"; D="pyspectral/rsr_reader.py:"; S="pyspectral/solar.py:"; Y="pyspectral/rayleigh.py:"; N="pyspectral/near_infrared_reflectance.py:"; A="pyspectral/atm_correction_ir.py:"; G="pyspectral/config.py:"; T="pyspectral/testing.py:"; W="pyspectral/raw_reader.py:"
# --- blackbody
p("Planck radiance is the Planck law","blackbody(wavelength, T) returns 2hc^2/wavelength^5/(exp(hc/(wavelength k T))-1), and blackbody_wn(wavenumber, T) returns 2hc^2 wavenumber^3/(exp(hc wavenumber/(k T))-1), with the CODATA constants the module states, for every positive wave and every temperature above 1e-6 K.","every positive finite wavelength/wavenumber and every temperature > 1e-6 K, for arrays of any length in either argument","a test compares a handful of temperatures to stored numbers; a wrong exponent or swapped branch can agree on one wavelength",[B+"planck",B+"blackbody",B+"blackbody_wn"])
p("Temperature/radiance round trip","Converting a temperature to radiance at one wavelength (or wavenumber) and back returns the same temperature; converting a positive radiance to temperature and back returns the same radiance (whenever the temperature found is above the 1e-6 K cut-off).","every positive wave, every temperature > 1e-6 K, every positive radiance","round-trip tests use two temperatures at one wavelength with a tolerance of degrees",[B+"blackbody",B+"blackbody_rad2temp",B+"blackbody_wn",B+"blackbody_wn_rad2temp"])
p("Planck radiance is positive and strictly increasing in temperature","At a fixed wave the returned radiance is positive, and a warmer temperature always gives a strictly larger radiance; likewise a larger positive radiance always gives a strictly warmer brightness temperature.","every positive wave and every ordered pair of temperatures > 1e-6 K (radiances > 0)","order over a continuum cannot be sampled",[B+"planck",B+"blackbody_rad2temp",B+"blackbody_wn_rad2temp"])
p("What rad2temp returns off the physical domain","blackbody_rad2temp returns 0 K for zero radiance, NaN exactly when the radiance is NaN or lies strictly between -2hc^2/wavelength^5 and 0, never raises, and its result is negative exactly for finite radiances below that bound.","every positive wavelength and every radiance including NaN, zero, negatives and infinities","tests only check that no warning is raised for three values",[B+"blackbody_rad2temp"])
p("Wavelength and wavenumber forms agree","blackbody(w, T) * w^2 = blackbody_wn(1/w, T): the two spectral densities are related by the change of variable.","every positive wavelength and every temperature > 1e-6 K","two independent branches that tests compare with independent stored constants at 11 micron only",[B+"planck"])
p("Temperatures at or near zero give NaN, never a number","planck returns NaN for every temperature with |T| <= 1e-6 or NaN temperature and a non-NaN value for every other finite temperature; entry (i, j) of the result depends only on temperature i and wave j and the result has one row per temperature and one column per wave.","every temperature, every wave > 0, all array lengths","needs all pairs of indices and the whole neighbourhood of zero",[B+"planck"])
p("Chunking never changes a brightness temperature","For the radiance argument given as a chunked array, the result of blackbody_rad2temp / blackbody_wn_rad2temp, once computed, equals the result on the unchunked data, whatever the chunk boundaries and whatever order blocks are evaluated in; an xarray wrapper keeps its metadata; an array type with chunks that is neither is refused.","every array, every partition of it into chunks, every block evaluation order","dask tests use one chunking",[U+"use_map_blocks_on",B+"blackbody_rad2temp",B+"blackbody_wn_rad2temp"])
p("rad2temp accepts its documented arguments by keyword","Calling a map-blocks-wrapped conversion with the radiance passed by keyword gives the same result as passing it by position.","every argument value and every positional/keyword split","tests only call positionally",[U+"use_map_blocks_on"])
# --- radtb
p("Band radiance is an average of Planck radiances over the band","The normalised tb2radiance lies between the smallest and the largest Planck radiance over the band's sample points, for a strictly increasing wave grid with non-negative response and non-zero integral; a constant radiance over the band is returned unchanged.","every grid, response and temperature > 1e-6 K","quantifies over every response curve",[R+"RadTbConverter.tb2radiance"])
p("Band radiance increases with brightness temperature","tb2radiance (normalised or not) is strictly increasing in the brightness temperature for any strictly increasing wave grid with non-negative response and non-zero integral.","all pairs of temperatures > 1e-6 K, all bands","order over a continuum and over every band",[R+"RadTbConverter.tb2radiance"])
p("Band-integrated radiance is band radiance times response integral","tb2radiance(normalized=False) equals tb2radiance(normalized=True) times the converter's rsr_integral, the reported units are the matching ones for the wave space, and scaling every response by one positive factor leaves the normalised radiance unchanged.","every band, temperature and positive scale factor","tested for one band",[R+"RadTbConverter.tb2radiance",R+"RadTbConverter._get_rsr"])
p("LUT lookup picks the tabulated temperature below","With a look-up table starting at t0 with resolution res, tb2radiance(tb, lut) returns the tabulated radiance at index floor-toward-zero(tb/res) - trunc(t0/res) clipped into the table: below the table the first entry, above the table the last, and never an index error.","every table of at least one entry, every temperature whose scaled value fits in int16","tests do not exercise the LUT index at all boundaries",[R+"RadTbConverter.tb2radiance",R+"RadTbConverter._getitem"])
p("LUT radiance is within one table step of the exact radiance","For 150 K <= tb < 360 K and a table made by make_tb2rad_lut at resolution 0.1, the LUT radiance L satisfies R(tb - 0.1) < L <= R(tb), where R is the exact band radiance; over that range LUT radiance is non-decreasing in tb.","every temperature in [150, 360), every band","needs all 2100 cells and all points inside them",[R+"RadTbConverter.make_tb2rad_lut",R+"RadTbConverter.tb2radiance"])
p("A hotter temperature never looks up a smaller radiance","For any table with non-decreasing radiance, tb2radiance with that table is non-decreasing in tb over all temperatures.","all pairs of temperatures, including arbitrarily large ones","the failure is at the int16 boundary 3276.8 K which no test visits",[R+"RadTbConverter.tb2radiance"])
p("Brightness temperature of a band radiance reproduces the radiance","The Tb returned by RadTbConverter.radiance2tb is the unique temperature whose Planck radiance at the band's central wavelength (micron to metre) is the given radiance.","every positive radiance and positive central wavelength","uniqueness over a continuum",[R+"RadTbConverter.radiance2tb",R+"radiance2tb"])
p("SEVIRI regression round trip","For every SEVIRI band and platform with tabulated coefficients, radiance2tb(tb2radiance(tb)) = tb and tb2radiance(radiance2tb(L)) = L, and tb2radiance is strictly increasing, with the formula of the EUMETSAT document.","every tabulated band/platform, every tb > 0, every L > 0 in the regression's range","a continuum for every table row",[R+"SeviriRadTbConverter.tb2radiance",R+"SeviriRadTbConverter.radiance2tb",R+"SEVIRI"])
p("Every SEVIRI thermal channel alias is convertible","Every SEVIRI channel alias the package publishes for a thermal band (IR_039 ... IR_134, WV_062, WV_073) can be converted by SeviriRadTbConverter on the platforms tabulated, and a platform listed in the table has coefficients.","all aliases and platforms of the published tables","only IR3.9 on Meteosat-9 is tested",[R+"SEVIRI","pyspectral/bandnames.py:BANDNAMES",R+"SeviriRadTbConverter.__init__"])
p("Converter construction validates before reading data","RadTbConverter raises AttributeError for a wavespace other than wavelength/wavenumber, and ZeroDivisionError for a temperature resolution of zero, without reading response data; any other resolution has no influence on whether construction succeeds or on the band data held; a successful construction selects the named (or uniquely matching) band, scales its waves to SI and stores the trapezoid integral of the response; SeviriRadTbConverter demands a string band and refuses a LUT or unnormalised request.","every constructor argument combination and every response data set","combinatorial",[R+"RadTbConverter.__init__",R+"RadTbConverter._get_rsr",R+"SeviriRadTbConverter.__init__",R+"SeviriRadTbConverter.tb2radiance"])
p("A band can be chosen by wavelength in wavenumber space","A RadTbConverter built with a numeric band (micron) in wavenumber space selects the same band as in wavelength space.","every response data set in wavelength space and every requested wavelength","tests only use a data set that already is in wavenumber space",[R+"RadTbConverter._get_rsr",U+"convert2wavenumber",U+"get_bandname_from_wavelength"])
# --- utils
p("Wavelength to wavenumber conversion preserves the curve","convert2wavenumber keeps exactly the same bands and detectors, maps each sample (wavelength w micron, response r) to (1e4/w cm-1, r), orders them by increasing wavenumber when wavelengths increase, reports unit cm-1 with SI scale 100, and does not change its input.","every response data set with any number of bands, detectors and samples","universally quantified over data sets",[U+"convert2wavenumber",U+"_band2wavenumber",U+"_detector2wavenumber",U+"_wavelength2wavenumber",U+"_collect_responses"])
p("Wavenumber conversion is idempotent and invertible","Converting a data set that is already in wavenumber space returns an equal copy; applying the inverse map 1e4/nu to a converted curve returns the original wavelengths and responses.","every data set","idempotence for all inputs",[U+"convert2wavenumber"])
p("Central wavelength lies inside the band","get_central_wave returns a value between the first and the last wave for an increasing grid, non-negative response*weight and non-zero integral; it is unchanged when responses are scaled, when both arrays are reversed, and shifts/scales with the grid; when the weighted integral is zero it is NaN, not an arbitrary number.","every grid, response and weight","every curve",[U+"get_central_wave"])
p("Band lookup by wavelength returns exactly the matching bands","get_bandname_from_wavelength considers exactly the bands whose first detector's central wavelength is within min(epsilon, 2.0) micron (strictly) of the request: it returns None if there is none, the band's standard name if there is one, and for several raises AttributeError unless multiple_bands is set, in which case it returns all of them in data order.","every data set, wavelength, epsilon and flag","every data set",[U+"get_bandname_from_wavelength"])
p("The band name found by wavelength can be used to index the data","The single name returned by get_bandname_from_wavelength is a valid key of the response data it was looked up in.","every sensor and every response data set of it","depends on the whole alias table",[U+"get_bandname_from_wavelength",D+"RSRDict.__getitem__"])
p("sort_data returns a strictly increasing de-duplicated curve","For any non-empty input, sort_data returns x strictly increasing, with exactly the set of distinct non-NaN x values of the input (NaN x are dropped unless the whole input is NaN), each paired with a y that was paired with that x in the input, whatever order the sort leaves equal keys in.","every pair of equal-length arrays with NaNs and duplicates, every unstable sort order","the argsort used is not stable: all tie orders must be covered",[U+"sort_data"])
p("FWHM is the distance between the first and last sample at or above one half","get_fullwidth_halfmax returns wvl[last]-wvl[first] over samples with response >= 0.5, raises ValueError exactly when fewer than two samples qualify, and is non-negative for increasing wavelengths.","every response curve","every curve",[U+"get_fullwidth_halfmax"])
p("FWHM is relative to the curve's own maximum","Scaling a response curve by a positive factor does not change its full width at half maximum (documented as width above half of the maximum response).","every curve and scale factor","only a curve with maximum about 1 is tested",[U+"get_fullwidth_halfmax"])
p("Integrated-energy bounds bracket the band","get_bounds_integrated_energy returns (lower, upper) with lower the first wavelength whose cumulative response share reaches the limit and upper the last whose share is at most 100-limit, with lower <= upper for increasing wavelengths.","every non-negative curve with positive total and limit in [0,50]","every curve; spikes are never tested",[U+"get_bounds_integrated_energy"])
p("Wave range brackets the samples above the threshold","get_wave_range returns [min, centre, max] where min and max are the wavelengths of the first and the last sample with response strictly above the threshold (so every sample above it lies between them), the centre is the response-weighted mean wavelength, and it raises IndexError exactly when no sample exceeds the threshold.","every curve and threshold","every curve",[U+"get_wave_range"])
p("String decoding accepts exactly strings, bytes and one-element string arrays","convert2str returns the text for a str, bytes, numpy bytes/str scalar or one-element array of strings/bytes, is the identity on str, and raises ValueError for every other value.","every value","type-dependent case analysis",[U+"convert2str",U+"np2str",U+"bytes2string"])
p("Adjusted instrument name is canonical and belongs to the platform","check_and_adjust_instrument_name always returns a lower-case name without '/' or '-'; for a known platform the result is the canonical form of one of the platform's instruments, and an instrument of the platform (in any letter case, avhrr with dash or slash) is kept.","every platform and every instrument string","every string",[U+"check_and_adjust_instrument_name",U+"are_instruments_identical",U+"INSTRUMENTS"])
p("Adjusting an adjusted instrument name changes nothing","check_and_adjust_instrument_name(p, check_and_adjust_instrument_name(p, i)) = check_and_adjust_instrument_name(p, i), so the instrument attribute of a reader can be used to build another reader.","every platform and instrument","tests call it once",[U+"check_and_adjust_instrument_name"])
p("Instrument identity is an equivalence","are_instruments_identical is reflexive, symmetric and transitive on strings and raises ValueError when either argument is not a string.","all pairs/triples of values","all pairs",[U+"are_instruments_identical"])
p("Rayleigh sensor normalisation","normalize_sensor returns the given sensor without slashes if it is one of a multi-sensor platform's, raises ValueError if it is not, replaces it by the platform's only sensor if the platform has one, and keeps it for unknown platforms.","every platform and sensor string","every string",[Y+"normalize_sensor"])
p("Repeated logging_on adds one handler","Over any sequence of logging_on/debug_on/logging_off/get_logger calls, at most one console handler is ever attached to the root logger, and after logging_on the root logger and all its handlers have the requested level.","every call history","histories",[U+"logging_on",U+"logging_off",U+"debug_on",U+"get_logger"])
p("logging_on turns logging on","After logging_on the root logger has a console handler, whatever was called before.","every call history","needs the history on, off, on",[U+"logging_on",U+"logging_off"])
# --- rsr reader
p("Band names resolve directly, then by instrument alias, then by generic alias","Indexing response data by name returns the entry stored under that name if present; otherwise the entry of the instrument's alias if the instrument has that alias; otherwise that of the generic alias; otherwise KeyError. get never raises for string instruments and returns the default exactly when indexing raises KeyError.","every data set, instrument and key","every data set",[D+"RSRDict.__getitem__",D+"RSRDict.get"])
p("Reader arguments are validated","RelativeSpectralResponse raises ValueError unless either a filename alone, or both platform and instrument, are given; with platform and instrument the file read is rsr_dir/rsr_<canonical instrument>_<platform>.h5 and the given platform name is kept; with a filename the names come from the file and no download is attempted.","every argument combination","combinatorial with file state",[D+"RelativeSpectralResponse.__init__",D+"RelativeSpectralResponse._sanitize_inputs"])
p("Different satellites never share a response file","Two different (platform, canonical instrument) pairs have different RSR file names.","every pair of names","injectivity",[D+"_get_rsr_filename"])
p("Reading an RSR file yields every detector of every band","For a well-formed file the loaded data have exactly the listed bands, each with detectors det-1..det-n (n from the file, 1 if absent), responses as stored, wavelengths in micron, per-detector data where present and band-level data otherwise; any missing required item raises KeyError.","every file","every file layout",[D+"_load_rsr_info_from_file",D+"_get_relative_spectral_responses",D+"_detector_names",D+"_get_band_responses_per_detector",D+"_get_band_wavelengths_per_detector",D+"_get_band_central_wavelength_per_detector"])
p("Platform and instrument names from file attributes","The platform name is the platform_name attribute, else platform-satnumber, else None, translated to the OSCAR name if it is a known old name; the instrument is the sensor attribute, else the platform's configured instrument.","every attribute set","combinatorial",[D+"_get_platform_name",D+"_get_instrument"])
p("The instrument read from a file is a single name","After RelativeSpectralResponse(filename=f) the instrument is a single string (or None) and looking up a band alias returns or raises KeyError.","every file","needs a multi-instrument platform file without a sensor attribute",[D+"_get_instrument",D+"RSRDict.__getitem__"])
p("convert() moves the reader to wavenumber space exactly once","On data with at least one detector the first convert() replaces every detector's wavelength by wavenumber 1e4/w in increasing order with the matching responses, adds the central wavenumber, removes the wavelength, keeps all other entries, sets unit cm-1 and scale 100; every later convert() raises NotImplementedError and changes nothing.","every data set and every number of calls","histories and data sets",[D+"RelativeSpectralResponse.convert"])
p("integral gives one trapezoid integral per detector","integral(band) has exactly the band's detectors as keys, each mapped to the trapezoid integral of response over wavelength, non-negative for non-negative responses on an increasing grid and bounded by the grid length when responses are at most 1.","every data set","every data set",[D+"RelativeSpectralResponse.integral"])
p("Download only when out of date, and only if allowed","download_rsr_updates returns False and touches nothing when the version file's first line is the current version; otherwise returns True, and requests the tarball exactly when download_from_internet is set and dry_run is not; with dry_run nothing is requested or written.","every directory state, configuration and flag","state space",[D+"_RSRDataBase.download_rsr_updates",D+"_RSRDataBase.rsr_data_version",D+"check_and_download",U+"download_rsr"])
p("A completed RSR download is not repeated","After a successful download into the RSR directory, further calls (any number) issue no request.","every later call sequence and every server tarball carrying the current version","histories",[D+"check_and_download",U+"download_rsr"])
p("check_and_download with a destination directory is not repeated either","Calling check_and_download(dest_dir=d) twice downloads at most once.","every destination directory","tests do not call it twice",[D+"check_and_download",U+"download_rsr"])
p("An interrupted download never looks complete","Whatever the point at which a download/extraction is interrupted, if the version file then says up to date, all data files of the tarball are in place; re-running the download after any interruption gives the same directory as an uninterrupted run.","every crash point, every tarball member order","crash points",[U+"_download_tarball_and_extract",D+"_RSRDataBase.rsr_data_version"])
p("A failed HTTP request changes no files","If the server answers with an error status, an exception is raised and no file is created or changed; after a successful download the temporary tarball is gone; if the connection is lost while the data arrives, an exception is raised and no file other than the temporary tarball is created, changed or removed.","every server answer and directory state","every state",[U+"_download_tarball_and_extract"])
p("Converted RSR files read back unchanged","Reading the file written by convert2hdf5 returns the wavelengths and responses that were written (single and multi detector).","every instrument data set","the existing test only checks the file exists",[U+"convert2hdf5",U+"_write_single_detector_data",U+"_write_multidetector_data",U+"_save_wavelengths"])
p("Converted RSR files carry names, responses and central wavelengths","The file written by convert2hdf5 is named after instrument (without slash) and platform, lists the band names, and for each band/detector has the response as given and the central wavelength of the non-NaN samples.","every instrument data set","every data set",[U+"convert2hdf5",U+"_write_global_attrs",U+"_write_channels"])
# --- solar
p("Solar spectrum conversion conserves energy per interval","In wavenumber space each sample has wavenumber 1e4/w and irradiance E*w^2/10, i.e. E_nu |d nu| = 1000 E_lambda |d lambda| pointwise, samples are reversed so wavenumbers increase, and the wavelength array is cleared. The default step is 0.005 micron, or 2 per cm in wavenumber space.","every spectrum","every spectrum",[S+"SolarIrradianceSpectrum.convert2wavenumber"])
p("Solar constant is the integral in whichever space is loaded","solar_constant integrates irradiance over wavenumber if in wavenumber space, else over wavelength, raises TypeError if neither is loaded, and is positive for a positive spectrum on an increasing grid of at least two points.","every spectrum","every spectrum",[S+"SolarIrradianceSpectrum.solar_constant"])
p("In-band irradiance is the flux over the equivalent width","inband_solarflux = inband_solarirradiance * (integral of the resampled response), the irradiance lies between the smallest and largest resampled solar irradiance when the resampled response is non-negative, and scaling the solar spectrum scales both.","every response, spectrum and interpolation result","every curve",[S+"SolarIrradianceSpectrum._band_calculations"])
p("Resampled response and spectrum always have matching grids","For every response on an increasing grid, the response and the solar spectrum are resampled on the same number of points (none is masked away), covering start to end exactly, with spacing within a half step of the requested one.","every start < end and step > 0","rounding of the point count",[S+"SolarIrradianceSpectrum._band_calculations",S+"SolarIrradianceSpectrum.interpolate"])
p("In-band results do not depend on earlier in-band calls","Any sequence of inband_solarflux / inband_solarirradiance calls returns for each call the value it would return on a fresh object.","every call history","histories",[S+"SolarIrradianceSpectrum._band_calculations",S+"SolarIrradianceSpectrum.interpolate"])
p("interpolate does not affect later in-band results","Calling interpolate with any options leaves later inband_solarflux results unchanged.","every call history","histories",[S+"SolarIrradianceSpectrum.interpolate"])
p("In-band flux accepts responses in decreasing order","inband_solarflux for a response given on a decreasing grid equals that of the same response in increasing order.","every response","only increasing grids tested",[S+"SolarIrradianceSpectrum._band_calculations"])
# --- rayleigh
p("Rayleigh correction is a percentage","Every element of get_reflectance is in [0, 100] or NaN; with a finite table on regular grids, a wavelength inside it, azimuth differences inside it and a finite (or no) red band no element is NaN, whatever the zenith angles, NaN and infinities included.","every LUT, angle, wavelength and red-band value","every input",[Y+"Rayleigh.get_reflectance"])
p("Outside the table's wavelengths the correction is zero","If the effective wavelength is not strictly inside the table's wavelength range the correction is zero for every pixel with finite (or no) red band, with the shape of the input, and NaN where the red band is NaN; a missing table file raises FileNotFoundError instead.","every LUT and wavelength","boundary",[Y+"Rayleigh.get_reflectance",Y+"_get_wavelength_adjusted_lut_rayleigh_reflectance"])
p("Wavelength interpolation is exact at nodes and between neighbours","The table adjusted to a wavelength strictly inside the grid is, cell by cell, the linear interpolation between the two neighbouring wavelengths of the (strictly increasing) grid: equal to the table at a grid wavelength and between the two neighbours otherwise.","every LUT and wavelength","continuum",[Y+"_get_wavelength_index_and_factor",Y+"_get_wavelength_adjusted_lut_rayleigh_reflectance"])
p("Angle clipping keeps zenith secants inside the table","After clipping every zenith angle (including NaN and infinities) lies between 0 and the angle of the largest tabulated secant, its secant lies in [1, secant_max], angles already inside are unchanged, and NaN becomes 0.","every angle and every secant_max >= 1","continuum and special values",[Y+"_clip_angles_inside_coordinate_range"])
p("Cloud relaxation fades the correction out with red reflectance","The correction is unchanged for red band below 20 %, then decreases linearly, continuous at 20, non-increasing in red reflectance, and is zero from 100 % on after clipping; a NaN red band gives NaN.","every red-band and correction value","continuum",[Y+"Rayleigh._relax_rayleigh_refl_correction_where_cloudy"])
p("High-zenith reduction only ever reduces","For thresh_zen < maxzen and strength >= 0, reduce_rayleigh_highzenith returns a value between 0 and the input (for non-negative input), equal to it at or below the threshold, non-increasing in zenith angle, zero at and beyond maxzen when strength >= 1.","every zenith, correction and parameters","continuum",[Y+"Rayleigh.reduce_rayleigh_highzenith"])
p("Angle interpolation is exact at table nodes and stays within the table","On a uniform grid, with angles inside the table, the interpolated correction equals 100 times the table value at grid nodes and lies between the smallest and largest value of the surrounding cell, hence of the table.","every table, every angle triple inside it","continuum",[Y+"Rayleigh._interp_rayleigh_refl_by_angles"])
p("Unsupported atmosphere or aerosol is rejected before any download","Rayleigh(...) raises AttributeError for an atmosphere or aerosol type not in the published lists, before any version check or network access; defaults are us-standard and marine_clean_aerosol; the table file is <rayleigh_dir>/<aerosol>/rayleigh_lut_<atmosphere with _>.h5.","every argument combination and state","combinatorial",[Y+"RayleighConfigBaseClass.__init__",Y+"Rayleigh.__init__"])
p("Rayleigh LUT download covers exactly the outdated types","check_and_download downloads exactly the requested aerosol types whose version file is not current, each from its own URL into its own directory, validates all types before the first request, and a second call downloads nothing. download_luts() without arguments requests every type exactly once, with given types those in their order.","every set of types and directory state","state space",[Y+"check_and_download",U+"download_luts",Y+"RayleighConfigBaseClass._get_lutfiles_version"])
p("download_from_internet=False prevents every download","With download_from_internet false no API entry point (reader construction, Rayleigh construction, either check_and_download) issues a request.","every entry point and state","all entry points",[Y+"check_and_download",D+"check_and_download",D+"RelativeSpectralResponse.__init__",Y+"Rayleigh.__init__"])
p("Rayleigh effective wavelength is not longer than the central wavelength","The effective wavelength used for Rayleigh correction (weight 1/w^4) lies within the band and is at most the unweighted central wavelength; a numeric band is taken as that wavelength in micron; the result is in nanometre.","every band with positive increasing wavelengths and non-negative response","an inequality over all curves",[Y+"Rayleigh._get_effective_wavelength_and_band_name",Y+"_get_rsr_wavelength_from_band_name"])
# --- NIR
p("3.x reflectance solves the radiance balance","Each unmasked reflectance r satisfies L_nir = r * L_sun + (1 - r) * L_therm, where L_sun is flux*cos(clipped zenith)/pi and L_therm the (CO2-corrected) band radiance at the thermal temperature.","every pixel and state","continuum",[N+"Calculator.reflectance_from_tbs",N+"Calculator._calculate_r3x",N+"Calculator._calculate_solar_radiance"])
p("Masked exactly where the retrieval is invalid","A reflectance is NaN if the sun zenith is outside [0, masking_limit] (when a limit is set), the NIR temperature is NaN, or L_sun - L_therm < 0.005; otherwise, for finite inputs, it is a finite number.","every pixel","boundaries",[N+"Calculator._calculate_r3x"])
p("Reflectance is between 0 and 1 exactly when the NIR radiance is between thermal and solar","For an unmasked pixel, 0 <= r <= 1 iff L_therm <= L_nir <= L_sun; r increases with the NIR temperature; the reflectance is not clipped otherwise.","every pixel","continuum",[N+"Calculator._calculate_r3x"])
p("A missing thermal temperature gives a missing reflectance","If the thermal brightness temperature of a pixel is NaN, its reflectance is NaN.","every pixel and configuration","the LUT path is never tested with NaN",[N+"Calculator.reflectance_from_tbs",R+"RadTbConverter.tb2radiance"])
p("Reflectance does not depend on earlier calls","reflectance_from_tbs returns the same for the same inputs whatever calls (with or without CO2 band, other LUTs, emissive_part_3x) were made before on the same object.","every call history","histories",[N+"Calculator.reflectance_from_tbs",N+"Calculator._calculate_rad3x_correction"])
p("CO2 correction factor","The CO2 correction multiplies the thermal radiance by ((3*bt11+bt13)/(4*bt11))^4, which is 1 iff bt13 = bt11, in (0,1) when 0 < bt13 < bt11, and lowering bt13 lowers it; any other method name raises AttributeError.","all temperature pairs","continuum",[N+"Calculator.derive_rad39_corr"])
p("Emissive part complements the reflectance","emissive_part_3x(tb=False) equals thermal radiance * (1 - r) where r is not NaN, and the observed NIR radiance where it is; with tb=True its brightness temperature; r * L_sun + emissive * integral = L_nir without CO2 correction.","every pixel and history","histories",[N+"Calculator.emissive_part_3x"])
p("Emissive part before any reflectance","Requesting the emissive part before deriving a reflectance does not raise (the code logs a warning asking to derive it first).","every history","histories",[N+"Calculator.emissive_part_3x"])
p("Only 3.5-3.95 micron bands are accepted","Constructing a Calculator raises NotImplementedError exactly when the band's central (or given) wavelength is below 3.5 or above 3.95 micron.","every band","boundary",[N+"Calculator._set_bandname_and_wavelength"])
p("LUT file name","The Tb/radiance LUT path is the configured one for the platform-instrument (per band if a dictionary; .npz appended; moved to tb2rad_dir if its directory is missing) and otherwise tb2rad_dir/tb2rad_lut_<platform>_<instrument>_<band>.npz in lower case.","every configuration","combinatorial",[N+"Calculator._set_lutfile",N+"Calculator._lutfile_from_config",N+"Calculator._lutfile_from_dict"])
p("A calculator uses a table made for its own band data","The look-up table a Calculator ends up with holds the radiances of its own platform, instrument, band and detector in its own wave space, whatever calculators were created before with the same cache directory.","every history of constructions","histories sharing a cache directory",[N+"Calculator._set_lut",N+"Calculator._set_lutfile"])
p("Mismatched shapes are rejected","reflectance_from_tbs raises ValueError when the two temperature arrays have different shapes, before changing any state; scalars are treated as one-element arrays.","all shapes","all shapes",[N+"Calculator.reflectance_from_tbs",N+"get_as_array"])
# --- atm ir
p("Limb correction: array types agree","viewzen_corr gives the same corrected value per pixel for numpy masked arrays and dask arrays (a pixel without a finite value stays without one: masked or non-finite).","every 2-D array pair","every array",[A+"viewzen_corr"])
p("Limb correction touches only zenith in [0, 90)","Pixels with zenith < 0, >= 90 or NaN and masked pixels keep their value; get_correction never modifies its input array.","every 2-D array","every array",[A+"viewzen_corr",A+"AtmosphericalCorrection.get_correction"])
p("Limb correction warms and grows with zenith","For zenith in (0, 90) the correction is ((t-170)/125)^4 * (7.2^(z/70) - 1) >= 0, and is non-decreasing in zenith.","every temperature and zenith","continuum",[A+"viewzen_corr"])
p("Limb correction is monotone from nadir on","The correction at nadir (zenith 0) is not larger than at any larger zenith below 90.","every temperature","zenith exactly 0 is never tested",[A+"viewzen_corr"])
p("Limb correction works on plain arrays","viewzen_corr accepts plain (non-masked) 2-D numpy arrays.","every plain array","tests only use masked arrays",[A+"viewzen_corr"])
p("IR correction rejects atmosphere types","AtmosphericalCorrection raises AttributeError for any non-empty atmosphere type.","every argument","every argument value, and that no data are read or changed first",[A+"AtmosphericalCorrection.__init__"])
# --- config
p("Recursive dictionary update is a right-biased deep merge","After recursive_dict_update(d, u), every path of u to a non-mapping value holds that value, every path of d not overridden by u is kept; updating an empty dict with u gives u; updating twice with u is the same as once.","every pair of nested dictionaries of any depth","every tree",[G+"recursive_dict_update"])
p("Configuration file choice","get_config reads the file given, else the file named by PSP_CONFIG_FILE, else the builtin; a PSP_CONFIG_FILE that is not a file raises IOError; the returned config always has existing rsr_dir and rayleigh_dir (the configured ones with ~ expanded, or the user data directory) and keeps all other options of the file.","every environment, file system and file content","state space",[G+"get_config",G+"_get_env_or_builtin_config_path"])
# --- testing
p("override_config restores the environment","After leaving any nesting of override_config blocks, normally or by an exception, PSP_CONFIG_FILE has the value (or absence) it had before, whatever the bodies did to it; the block's result is the body's, except that a body which deletes a variable that was absent before makes the exit raise KeyError; a temporary directory made by the block is gone afterwards.","every nesting and exit point","nestings and exceptions",[T+"override_config"])
p("Mocked downloads never reach the network","Inside mock_rsr / mock_rayleigh / mock_pyspectral_downloads with default options, constructing readers and Rayleigh objects issues no request, for every platform, instrument, aerosol and atmosphere; under forbid_pyspectral_downloads any attempt raises RuntimeError and writes nothing.","every object constructed in the block","all entry points",[T+"mock_rsr_files",T+"mock_rayleigh_luts",T+"forbid_pyspectral_downloads"])
p("Fake RSR data recover the names in the file name","The fake RSR data made for a reader's file carry the reader's platform name, and exactly the standard band names of its instrument.","every platform/instrument pair","all names",[T+"_fake_rsr_info_factory"])
p("Raw reader file names","InstrumentRSR collects for each requested band the configured path joined with the band's configured file name, takes output directory and path from the configuration, and raises KeyError when the platform-instrument section is missing.","every configuration","quantifies over every configuration dictionary and band list",[W+"InstrumentRSR._get_options_from_config",W+"InstrumentRSR._get_bandfilenames"])
p("A band radiance can be converted back to temperature","radiance2tb accepts what tb2radiance returned (with or without look-up table, for any number of temperatures).","every temperature array, LUT or not","tests convert literal arrays only; every length and both branches must agree",["pyspectral/radiance_tb_conversion.py:RadTbConverter.tb2radiance","pyspectral/radiance_tb_conversion.py:RadTbConverter.radiance2tb"])
p("A calculator can be made in either wave space","Constructing a Calculator for a 3.5-3.95 micron band works with wavespace 'wavelength' and with 'wavenumber'.","every sensor, band and detector","every sensor; tests construct in wavelength space only",[N+"Calculator.__init__",R+"RadTbConverter.__init__"])
p("An interrupted table write is harmless","If the process dies while a Calculator writes its Tb/radiance table, constructing the Calculator again gives a working object with a complete table.","every crash point of a construction","crash points",[N+"Calculator._set_lut",R+"RadTbConverter.make_tb2rad_lut"])
p("Reflectances have the shape of the temperatures","reflectance_from_tbs returns an array of the shape of the temperature arrays, with or without look-up table; it is lazy or masked as the inputs are.","every shape and array type","all shapes; tests use one-dimensional arrays without a table",[N+"Calculator.reflectance_from_tbs",R+"RadTbConverter.tb2radiance"])
p("Inside override_config the configuration is the given one","Inside override_config with config options, get_config returns exactly the given options at every path, except that rsr_dir and rayleigh_dir are the given directories with the home shortcut expanded (or the defaults when not given), whatever configuration was in force outside.","every option tree, outer environment and file system","every nested option dictionary and every outer configuration",[T+"override_config",T+"create_pyspectral_config_file",G+"get_config"])
p("Mocked Rayleigh tables exist","Inside mock_rayleigh (with an existing version) or mock_pyspectral_downloads, for every aerosol type and atmosphere and after any use of the library in the block, a Rayleigh object finds its look-up table file and the file holds the fake table.","every aerosol, atmosphere, platform, sensor and preceding use","all combinations and histories within the block",[T+"mock_rayleigh",T+"mock_rayleigh_luts",Y+"Rayleigh.__init__"])
p("Mocked readers give the requested central wavelengths","Inside mock_rsr, mock_tb_conversion or mock_pyspectral_downloads a reader for any known platform and instrument is built from fake data: it has the standard bands of the instrument and, for bands named in central_wavelengths by standard or alias name, the requested central wavelength.","every instrument, set of requested wavelengths and preceding use","all names and aliases and every history in the block",[T+"mock_rsr",T+"mock_tb_conversion",T+"_fake_rsr_info_factory"])
# --- logging output
p("get_logger is silent","get_logger gives a logger without handlers one NullHandler and changes nothing else; a program that only asks for loggers makes no output: no record of any level on such a logger is printed, not even by Python's handler of last resort.","every history of get_logger calls, logger and level","histories and all levels",[U+"get_logger",U+"NullHandler"])
p("logging_off silences every logger","After logging_off(), at any point of any history, no record on any logger makes output through the root logger's former handlers, and asking for more loggers does not change that.","every history, logger and level","histories",[U+"logging_off",U+"get_logger"])
p("logging_on prints each record once","After logging_on(level) a record on any logger is printed on the console exactly once if its level is at least the one requested last, and not at all otherwise.","every history, logger and level","histories",[U+"logging_on",U+"logging_off",U+"get_logger"])
# --- conversion scripts
X="rsr_convert_scripts/"
p("MODIS response files are read sample by sample","read_modis_response gives the detectors mentioned in the file and no others, each with exactly its own samples in the order of the file, without those marked missing (-99), wavelengths times the scale, whatever the order of lines and comments; a line that is neither a comment nor four words with numbers raises ValueError.","every file content","every text file",[X+"modis_rsr.py:read_modis_response"])
p("MODIS band data","For every platform and each of the 36 bands ModisRSR reads the band's own file (named after the platform's scheme) and gives every detector strictly increasing wavelengths in micron, exactly those of its valid samples, each with a response the file gives for it.","every platform, band and file content","every text file; no tests exist for the conversion scripts",[X+"modis_rsr.py:ModisRSR"])
p("MODIS conversion round trip","Converting the original MODIS files of a platform writes rsr_modis_<platform>.h5, and reading this file gives every band and detector its own curve: responses, central wavelength, and wavelengths within the comparison tolerance.","every content of the 36 files and every number of detectors","every file content",[X+"modis_rsr.py:convert2hdf5","pyspectral/rsr_reader.py:RelativeSpectralResponse._load_rsr_info"])
p("VIIRS tables","The header skipped is exactly the leading lines that begin with a percent sign; the detectors are det-1 to det-m, m the greatest number in the table, and each has exactly the rows with its number, in order, in micron.","every file content and table","every table",[X+"viirs_rsr.py:get_header_lines2skip",X+"viirs_rsr.py:ViirsRSR._load"])
p("SEVIRI data by wavelength and by wavenumber agree","Seviri(wavespace='wavenumber') holds the same channels, satellites, temperatures and samples as by wavelength (the hundred cells from the first sample row on of the wavelength column and of the column of the satellite and temperature), each response at the wavenumber 10000/wavelength, in ascending order; central waves are the response-weighted means and lie inside the channel; any other wave space raises AttributeError.","every workbook","every workbook",[X+"seviri_rsr.py:Seviri"])
p("SEVIRI files can be generated","generate_seviri_file writes, for each of Meteosat-8 to -11, a file that reads back with the wavelengths of every channel and the responses of that satellite (at 95 K for infrared channels).","every workbook and satellite","every workbook",[X+"seviri_rsr.py:generate_seviri_file"])
p("Tables by wavenumber","The MSU-GS and SLSTR converters turn samples at ascending positive wavenumbers into samples at ascending wavelengths 10000/wavenumber, every response staying with its sample.","every table","every table",[X+"msu_gs_reader.py:MsugsRSR._load",X+"slstr_rsr_txt.py:SlstrTxtRSR._load"])
p("AGRI and GHI samples","The samples kept are exactly those with a response above 0.001, in order, with their own wavelength in micron; responses are taken as percent exactly if one exceeds 1.","every table","every table",[X+"agri_rsr.py:AGRIRSR._load",X+"ghi_rsr.py:GHIRSR._load"])
p("Every MERSI-1 band has its own column","For FY-3B, different bands of the same file are read from different columns.","every pair of bands","no tests exist for the conversion scripts",[X+"mersi1_rsr.py:Mersi1FY3ABRSR._load"])
p("AVHRR-1 typo correction","The correction replaces a wavelength by 840 exactly if it is (nearly) 640 and less than the one before; ascending lists are unchanged; correcting twice is the same as once.","every list of wavelengths","every list",[X+"avhrr1_rsr.py:adjust_typo_avhrr1_srf_only_xls_file"])
# --- floating point
B="pyspectral/blackbody.py:"
p("Computed radiances never decrease with temperature","In floating point, for wavelengths from 10 nm to 1 cm (wavenumbers from 1/cm to 1e6/cm) and temperatures from 2e-6 K up, blackbody and blackbody_wn return numbers (never NaN) that are not negative and never smaller for a higher temperature, also where intermediate results overflow or underflow.","every wavelength and pair of temperatures; every rounding and monotone mathematical library","rounding errors could reverse neighbouring values; the continuum cannot be sampled",[B+"planck",B+"blackbody",B+"blackbody_wn"])
p("Accuracy of computed radiances","In floating point, where x = hc/(wavelength k T) is between 0.7 and 300, the computed radiance differs from Planck's law by less than the fraction (38 + 112 x)/2^50.","every wavelength and temperature in the range; every rounding and library of the stated accuracy","an error bound over a continuum",[B+"planck",B+"blackbody",B+"blackbody_wn"])
p("Computed brightness temperatures never decrease with radiance","In floating point the computed brightness temperature is a number, not negative, and never smaller for a higher radiance, zero and infinite radiances included.","every wavelength and pair of radiances; every rounding and monotone library","rounding errors could reverse neighbouring values",[B+"blackbody_rad2temp",B+"blackbody_wn_rad2temp"])
p("Accuracy of the computed round trip","In floating point, converting a temperature to radiance and back ends within the fraction (197 + 336 x)/2^50 of the temperature; within 1e-8 K for 3 to 15 micron and 150 to 400 K.","every wavelength and temperature in the range","an error bound over a continuum",[B+"blackbody",B+"blackbody_rad2temp",B+"blackbody_wn",B+"blackbody_wn_rad2temp"])
p("Computed band radiances never decrease with temperature","In floating point, for a loaded band (at most 2^20 ascending samples of realistic size, responses not negative), tb2radiance without a look-up table returns for temperatures from 2e-6 to 1e5 K numbers that are not negative and never smaller for a higher temperature, normalised or not, in wavelength and in wavenumber space.","every band, list of temperatures, rounding and library","rounding of the integral could reverse neighbouring values",[R+"RadTbConverter.tb2radiance",B+"planck"])
p("Accuracy of computed band radiances","In floating point the computed band radiance differs from the exact trapezoid integral of Planck's law times the response by less than the fraction (49 + 112 X + 4 n)/2^50 of it, n the number of samples and X the greatest hc/(wavelength k T) of the band (at most 300, all at least 0.7).","every band and temperature in the range","an error bound over a continuum",[R+"RadTbConverter.tb2radiance",B+"planck"])
p("The computed look-up table never decreases","In floating point the radiances of the table made by make_tb2rad_lut (resolution 0.02 to 10 K) never decrease, and for temperatures from 0 to 500 K tb2radiance with the table always finds an entry, never a smaller one for a higher temperature.","every band, resolution and list of temperatures","rounding of the table index and of the table temperatures",[R+"RadTbConverter.make_tb2rad_lut",R+"RadTbConverter.tb2radiance"])
p("Computed SEVIRI radiances and temperatures never decrease","In floating point, for every satellite and channel in the SEVIRI coefficient table, the SEVIRI converter's radiances are numbers that are not negative and never smaller for a higher temperature, and its temperatures are never smaller for a higher radiance; zero and infinity included.","every tabulated satellite and channel, every pair of inputs, every rounding and library","rounding errors could reverse neighbouring values",[R+"SeviriRadTbConverter.tb2radiance",R+"SeviriRadTbConverter.radiance2tb"])
p("Accuracy of the computed SEVIRI conversions","In floating point, for 100 to 400 K and every tabulated satellite and channel, the SEVIRI converter's radiance is within the fraction 1.4e-11 of the published formula, and converting to radiance and back ends within 1e-8 K.","every tabulated satellite and channel and every temperature in the range","an error bound over a continuum",[R+"SeviriRadTbConverter.tb2radiance",R+"SeviriRadTbConverter.radiance2tb"])
p("Computed reflectance never decreases with the 3.x micron temperature","In floating point, of two pixels of one scene with the same sun zenith angle, thermal and CO2 temperature, the one with the higher 3.x micron temperature never gets a lower reflectance, and is not masked if the other is not; directly (2e-6 to 1e5 K) and with the object's own look-up table (0 to 500 K), for any solar flux, threshold and mask limit, with or without the CO2 band.","every scene, band, configuration, rounding and library","rounding of radiances, index and ratio; infinities and NaN in between",[N+"Calculator.reflectance_from_tbs",R+"RadTbConverter.tb2radiance"])
p("Converters made from stored response curves never decrease in floating point","In floating point, a RadTbConverter made from response data (wavelengths in micron between 0.02 and 5000 um that differ by one part in 10^10, responses not negative and not all zero, at most 2^20 samples) for any band, detector and wave space returns radiances that never decrease with temperature, directly and, for a resolution of 0.02 to 10 K, through its own look-up table.","every response data set, band argument, detector and wave space for which the construction succeeds; every rounding and library","the rounding of unit conversion, wavenumber conversion and integration comes on top of that of Planck's law",[R+"RadTbConverter.__init__",R+"RadTbConverter._get_rsr",R+"RadTbConverter.tb2radiance","pyspectral/utils.py:convert2wavenumber"])
p("Download programs","With --dry_run the two download programs request nothing and write no file, whatever the other options; without it and with a good server download_rsr.py leaves the response data current and download_atm_correction_luts.py (no types given) leaves the tables of every aerosol type current; without --verbose no log record is printed, with it every record from DEBUG on exactly once.","every configuration, option value, server behaviour, file system state and interruption point","effects of a whole run at every point, over all starting states",["bin/download_rsr.py:23-35","bin/download_atm_correction_luts.py:28-38"])
p("Printed wavelength ranges","find_wavelengths_for_satpy.py prints, for every band asked for (all bands of the file without --bandname) in order, two wavelengths of the curve that enclose every sample above the threshold; at the first band without such a sample it stops with an IndexError after printing exactly the bands before it.","every response file, detector, threshold and band choice","all curves and thresholds",["bin/find_wavelengths_for_satpy.py:main"])
p("Composite plots show each platform's own data","composite_rsr_plot.py draws, for every platform asked for, the curves of that platform's own response data, in order, and leaves out platforms that cannot be read.","every list of platforms and sensors, and every response data set","a variable survives from one platform to the next, so it depends on the whole list",["bin/composite_rsr_plot.py:134-184","bin/composite_rsr_plot.py:plot_band"])
p("Composite plots cover the wavelength range","For a wavelength range and a positive resolution composite_rsr_plot.py ends, draws every band not excluded whose central wavelength lies in the range (resolutions up to 10 micron), no band twice, no excluded band, and none further from the range than the resolution; with a resolution of zero or less it never ends.","every response data set, range, resolution and list of exclusions","a loop whose length depends on range and resolution",["bin/composite_rsr_plot.py:169-184"])
p("Single band plots show every detector","A figure of plot_rsr.py shows the band named (or the only one within 0.1 micron of the wavelength): one curve per detector with exactly the samples above the minimum response.","every response data set, band, wavelength and minimum","all curves and detector sets",["bin/plot_rsr.py:51-67"])
p("plot_some_band draws the bands at a wavelength","plot_some_band.py draws, for every listed sensor with a band at the wavelength, that band.","every wavelength and response data set","every wavelength and data set",["plot_some_band.py:34-52"])
p("A failed conversion leaves no file that loads","Whatever makes convert2hdf5 raise for distinct band names, and at whichever statement, afterwards either all files are as before or only the target file is replaced, by one that RelativeSpectralResponse rejects; and a conversion that succeeds leaves exactly the finished file.","every instrument class, set of bands, detector list and point of failure","every statement at which writing can stop",[U+"convert2hdf5",U+"_write_channels",U+"_write_multidetector_data","pyspectral/rsr_reader.py:RelativeSpectralResponse._load_rsr_info"])
p("A failed conversion keeps the previous file","If convert2hdf5 raises, a response file of that instrument and platform that was there before is still there and loads.","every instrument class, set of bands and point of failure","every statement at which writing can stop",[U+"convert2hdf5"])
p("The Metop-C file is split into its sections","split_metop_avhrr_rsrfile.py writes, for each of the six channels, exactly the samples of that channel's section of the file, wavelengths 10000/wavenumber, ascending if the wavenumbers are.","every file content","every text file; no tests exist for the conversion scripts",[X+"split_metop_avhrr_rsrfile.py:33-62"])
p("Tables with gaps keep wavelength and response together","The EPIC, GOCI-2 and old AVHRR converters store with every wavelength the response of its own row, leaving out rows with missing entries; responses are scaled to a maximum of 1 (EPIC, GOCI-2) or from percent.","every table and pattern of missing entries","every table",[X+"epic_reader.py:EpicRSR._load",X+"goci2_rsr.py:GOCI2RSR._load",X+"convert_avhrr_old2star.py:unpack_data"])
p("MSI samples","The samples kept for Sentinel-2 MSI are exactly those no more than 2 nm outside the range of the samples with a response above 0.00001, in order, with their own response, wavelengths in micron.","every table","every table",[X+"msi_reader.py:MsiRSR._load"])
p("OLI and TIRS samples and places","The samples kept are exactly those with a response above 0.002, in order; every band of Landsat-8 and -9 is read from a place of its own (sheet and columns as named); any other band, and a TIRS band of any other platform, raises ValueError.","every table, band and platform name","every table and name",[X+"oli_tirs_reader.py:OliRSR"])
p("METimage samples","The METimage file written holds, per band, the different wavelengths of the original data in ascending order and with each the response of its first sample divided by the largest response; each band is read from the variable and group of its own wavelength.","every table, missing wavelengths included","every table",[X+"metimage_rsr.py:MetImageRSR",X+"metimage_rsr.py:generate_metimage_file",X+"metimage_rsr.py:get_groupname_from_bandname"])
p("Renaming MODIS files loses nothing","modis_old2new_rsr.py leaves the old files (and all others) as they are, and the new files load exactly as the old ones do except for the platform name (Aqua, Terra) and instrument modis; without an old file it stops with FileNotFoundError, having done the platforms before it.","every file content and state of the directory","every file and directory state",[X+"modis_old2new_rsr.py:45-69"])
p("FCI channels","The FCI reader gives the last column named like the band, wavelengths in micron, and nothing if no column has the name.","every table","every table",[X+"fci_rsr.py:FciRSR._load"])
p("Chunks do not change the Rayleigh correction","get_reflectance with dask arrays gives, for every way of cutting them into blocks and every order in which the blocks are computed, exactly the values (or the error) of the same call with numpy arrays where dask is not installed, as long as the table file is the same when the result is computed; if the file has gone by then, computing the result is an error, never wrong values.","every chunking, schedule, image, band, red band and file system history between call and computation","schedules and chunkings cannot be enumerated; the table file is opened again in every block",[Y+"Rayleigh.get_reflectance",Y+"_map_blocks_or_direct_call",Y+"Rayleigh._interp_rayleigh_refl_by_angles"])
p("Chunks do not change table radiances","tb2radiance with a look-up table gives for a dask array of temperatures, however cut into blocks and in whatever order computed, the radiances of the numpy array, or the same error.","every chunking, schedule, table and image","schedules and chunkings cannot be enumerated",[R+"RadTbConverter.tb2radiance",R+"RadTbConverter._getitem"])
p("The mocked Rayleigh tables depend on wavelength only","With the table file that mock_rayleigh creates, get_reflectance between 400 and 800 nm gives a straight line in wavelength from 66.8 to 11.5 percent whatever the zenith angles (NaN included) and azimuth differences from 0 to 180 degrees, faded out over clouds if a red band is given.","every image, angle, wavelength and red band","every angle and wavelength",["pyspectral/testing.py:_default_rayleigh_lut_data",Y+"Rayleigh.get_reflectance"])
p("A converted file is found by its names","After convert2hdf5 has written the responses of an instrument on a platform into the configured response directory, RelativeSpectralResponse(platform, instrument) opens that file and holds its bands and responses.","every converter, platform, instrument and state of the file system","every instrument name",["pyspectral/utils.py:convert2hdf5","pyspectral/utils.py:check_and_adjust_instrument_name","pyspectral/rsr_reader.py:RelativeSpectralResponse.__init__",X+"mersirm_rsr.py:MersiRMRSR",X+"msu_gs_reader.py:MsugsRSR"])
p("Text tables keep every sample","The converters that read one text table per band (ABI, AMI, AVHRR, COCTS, MERSI-2, MERSI-3, MERSI-RM, MSU-GS, VIRR) give every sample of the band's configured file, wavelengths in micron, each with its own response.","every table, band and configuration","every table; no tests exist for the conversion scripts",[X+"abi_rsr.py:AbiRSR",X+"ami_reader.py:AmiRSR",X+"avhrr_rsr.py:AvhrrRSR",X+"cocts_rsr.py:COCTS_RSR",X+"mersi2_rsr.py:Mersi2RSR",X+"mersi3_rsr.py:Mersi3RSR",X+"mersirm_rsr.py:MersiRMRSR",X+"msu_gs_reader.py:MsugsRSR",X+"virr_rsr.py:VirrRSR"])
p("A missing original file leaves the response file alone","If the original file of some band is missing, converting an instrument fails and the response file that was there before is unchanged.","every set of bands and of missing files","every set of missing files and previous state",[X+"abi_rsr.py:AbiRSR",X+"mersi3_rsr.py:Mersi3RSR",X+"mersirm_rsr.py:MersiRMRSR",X+"ami_reader.py:AmiRSR",U+"convert2hdf5"])
p("Radiances follow the response file","A RadTbConverter made for a platform, instrument and band name returns for every temperature the mean of Planck's law over the response curve that the platform's response file stores for that band (or the band the name is an alias of) and detector, weighted with the stored responses, in wavelength and in wavenumber space, for every temperature resolution but zero (ZeroDivisionError); if the file cannot be read the construction raises the reader's error.","every response file, platform, instrument, band, detector, temperature and state of the data directory","every file content; unit conversion, detector look-up, wavenumber conversion and integration are composed",[R+"RadTbConverter.__init__",R+"RadTbConverter._get_rsr",R+"RadTbConverter.tb2radiance","pyspectral/rsr_reader.py:RelativeSpectralResponse.__init__","pyspectral/utils.py:convert2wavenumber"])
p("Reflectances follow the response file","A near-infrared Calculator made for a platform, instrument and band name, with a given solar flux, retrieves in every pixel the reflectance that the radiance balance gives with the response curve stored in the platform's response file: with its own table temperatures from 150 up to 360 K are read to 0.1 K, without table they are used as they are; pixels outside the zenith limit or with too little sunlight are NaN.","every response file, platform, instrument, band, detector, flux, limits, image and pixel","every file and image; reading, table building, look-up and retrieval are composed",["pyspectral/near_infrared_reflectance.py:Calculator.__init__","pyspectral/near_infrared_reflectance.py:Calculator.reflectance_from_tbs",R+"RadTbConverter.make_tb2rad_lut","pyspectral/rsr_reader.py:RelativeSpectralResponse.__init__"])
p("Corrections follow the response file and the table file","get_reflectance for a band given by name uses the effective wavelength (mean weighted with wavelength to the power -4) of the response curve stored for the first detector in the platform's response file, interpolates linearly between the two tables of the table file next to it, then at the secants of the zenith angles (missing or negative angles count as 0, too large ones as the largest of the table) and 180 degrees minus the azimuth difference, in percent, faded out under a red band above 20 percent and limited to 0 to 100. Without response file it raises KeyError.","every response file, table file, platform, band, image, angle and red band","every file and image; reading, effective wavelength and both interpolations are composed",[Y+"Rayleigh.get_reflectance",Y+"Rayleigh._get_effective_wavelength_and_band_name",Y+"_get_rsr_wavelength_from_band_name",Y+"_get_wavelength_adjusted_lut_rayleigh_reflectance","pyspectral/rsr_reader.py:RelativeSpectralResponse.__init__"])
p("VIIRS tables come back","Converting VIIRS writes rsr_viirs_<platform>.h5 such that reading it back gives every band and detector its own samples of the original table: the different wavelengths in ascending order, each with the response of the first sample at it, and their central wavelength; if that is not possible the response file that was there before stays.","every table, number of detectors, pattern of repeated and missing wavelengths, configuration and state of the directory","every table; no tests exist for the conversion scripts",[X+"viirs_rsr.py:ViirsRSR",X+"viirs_rsr.py:create_viirs_rsr"])
p("Originals of MSU-GS/A, OLCI and SLSTR come through sample by sample","For every configuration and every original file: the converter of MSU-GS/A gives, for the two instruments, exactly the samples of their sheets for the band, in order; that of OLCI the row of the band with wavelengths in micron; that of SLSTR the wavelengths and responses of the file of the band. Other band names and missing files raise the documented error.","all configurations, workbooks and netCDF files of any size, all bands","A test uses one file; the columns, rows and header lines must be right for every table and band.",["rsr_convert_scripts/msu_gsa_reader.py: MsugsaRSR", "rsr_convert_scripts/olci_rsr.py: OlciRSR", "rsr_convert_scripts/slstr_rsr.py: SlstrRSR"])
p("Originals of AATSR come through sample by sample","For every workbook with a sheet for the band, the converter of AATSR gives every sample of that sheet, in order, and a workbook without the sheet of some band leaves an existing response file as it was.","all configurations, workbooks with any number of sheets and rows","A test uses one workbook; the number of rows is not bounded, and the failure depends on which sheets there are.",["rsr_convert_scripts/aatsr_reader.py: AatsrRSR", "pyspectral/utils.py: convert2hdf5"])
p("AHI originals can be converted","For every workbook of AHI responses that can be read, the conversion writes a response file that loads, with the samples of every band; when it fails, an existing response file stays as it was.","all configurations and workbooks, every set of response files before","A test on one workbook cannot show what is left after a failure for every workbook and every earlier file.",["rsr_convert_scripts/ahi_reader.py: AhiRSR, convert2hdf5"])
p("Calculators made at the same time share the table file safely","However the steps of any number of processes constructing calculators interleave: every construction that succeeds has the right table; when all have finished, the table file is absent or complete, and constructing again works with the right table; with a complete table at the beginning, every construction gives what it gives alone; and no construction fails because another one is running.","any number of processes and arguments, every schedule of single steps (directory, existence test, size, each byte read or written), every start with no table or a complete one","A test runs a few schedules; the window between opening the table file and its last byte is rarely hit.",["pyspectral/near_infrared_reflectance.py: Calculator.__init__, _set_lut", "pyspectral/radiance_tb_conversion.py: RadTbConverter.make_tb2rad_lut, read_tb2rad_lut"])
p("Processes that check for new response files at the same time do not harm each other","However the steps of any number of processes calling check_and_download interleave: with current data nothing is requested and no file changes; when all of them finish without an exception and one found the data out of date, every file of the archive is there, complete, and the data is marked as current; no process fails because of another one; and data marked as current is complete when all have finished.","any number of processes, every schedule of single steps (existence tests, opening, each byte read or written, removal), any earlier files, any archive with distinct names","A test runs a few schedules; the harmful ones need a process to be held up between two particular system calls.",["pyspectral/rsr_reader.py: check_and_download, _RSRDataBase.download_rsr_updates", "pyspectral/utils.py: download_rsr, _download_tarball_and_extract"])
p("Switching the logging on in several threads","Any number of threads may call logging_on at the same time: afterwards a record at or above the level asked for is printed exactly once on the console. Proved: under every schedule the handlers present before stay, each thread attaches at most one console handler and none if the logging was on before; as soon as one thread has finished a record at or above the level is printed at least once and at most once per thread (exactly once if the logging was on before), one below the level not at all, and all levels are ones that some thread asked for. Exactly once is false: for every number of threads there is a schedule after which each record is printed that many times, and threads asking for different levels can leave the root logger at one level and the handlers at another. Threads calling get_logger leave the root logger and loggers with handlers alone and make no output.","all numbers of threads, levels, schedules, logging states at the start, records and loggers","a test runs one schedule; the duplicate handlers need threads to look at the flag before another has set it",["pyspectral/utils.py:logging_on", "pyspectral/utils.py:get_logger"])
p("Overriding the configuration while other threads run","After all override_config blocks of all threads have been left, PSP_CONFIG_FILE has the value (or absence) it had before, and inside a block the configuration is the one of that block. Proved for one thread with blocks (any body, nested blocks included) while any number of other threads do anything but change the variable, under every schedule; for several threads with blocks at the same time, the variable is at all times what it was at the start or one of their files. The full claim is false: two threads can see each other's configuration, leave the variable naming the file of a finished block (with a temporary file every later get_config() raises IOError), or get a KeyError at the end of a block whose body succeeded.","all schedules, numbers of threads, bodies, files and states at the start","a test runs one schedule; the failures need two blocks that overlap without being nested",["pyspectral/testing.py:override_config", "pyspectral/testing.py:create_pyspectral_config_file", "pyspectral/config.py:get_config"])
p("In-band solar flux and near-infrared reflectance from stored response curves and the solar spectrum file","inband_solarflux and inband_solarirradiance of a band and detector of a reader made for a platform and instrument integrate the spectrum of the solar file times the response curve stored in the platform's response file, on one regular grid over that curve (wider than half a step). A near-infrared Calculator made by name without a solar flux uses the flux of the stored curve of the band's first detector on a 0.5 nm grid, whichever detector it is made for, and retrieves with it in every pixel the reflectance that the radiance balance gives.","all platforms, instruments, bands, detectors, response files, solar spectra, splines, pixels, shapes and zenith limits","a test uses one platform file and one spectrum; the claim connects the stored samples of any file with every retrieved pixel",["pyspectral/solar.py:inband_solarflux", "pyspectral/near_infrared_reflectance.py:_get_solarflux", "pyspectral/near_infrared_reflectance.py:reflectance_from_tbs", "pyspectral/rsr_reader.py:RelativeSpectralResponse"])
p("Rayleigh objects made at the same time","Any number of processes may make Rayleigh objects at the same time: each one gets the object (or the exception) it would get alone, the table files of its aerosol type are what it would leave alone, its tables are requested as often as alone, and no other file changes.","all numbers of processes, all platforms, sensors, atmospheres, aerosol types, file states, server answers and all interleavings of the steps, down to single bytes written","the number of interleavings is unbounded; a test sees the one the scheduler happens to choose",["pyspectral/rayleigh.py: Rayleigh.__init__, RayleighConfigBaseClass.__init__", "pyspectral/utils.py: download_luts, _download_tarball_and_extract"])
p("Another name of a band leads to the band it says","Looking up spectral responses by a band name returns data stored under that very name or under a name that says the same: the same number (VIS006 and VIS0.6, C07 and ch7, M05 and M5) and letters of the same family, with two stated conventions (the SLSTR fire channels F1 and F2 are bands 7 and 8, and AMI bands are counted by wavelength) and with the high resolution version exactly for the four FCI bands that have one. Every band name used by the data providers of ABI, AGRI, AHI, VIIRS, SEVIRI, FCI, AMI, SLSTR and MODIS, and every channel number 1 to 36 for any other instrument, is understood. Two names of one instrument never stand for the same band, apart from the SLSTR fire channels.","every instrument, every name asked for, every data set, every name offered by the providers","Tests look up a handful of names; a single swapped line in the tables gives the responses of another channel, without any error.",["pyspectral/bandnames.py: BANDNAMES", "pyspectral/rsr_reader.py: RSRDict.__getitem__", "pyspectral/utils.py: get_bandname_from_wavelength"])
p("AVHRR/1 responses: from the workbook to what the reader returns","Converting a complete workbook of AVHRR/1 responses writes one file for each of TIROS-N, NOAA-6, NOAA-8 and NOAA-10 into the configured directory and changes no other file. Reading a file back gives the platform, the instrument and the four channels, each with the responses and wavelengths of its own sheet: in micron whether the sheet is in nanometre or Angstrom, remarks below the samples ignored, and the mistyped wavelength of the TIROS-N sheets corrected. The reader looks for exactly these files, under whatever name the instrument is asked for.","every workbook with a sheet for every platform and channel in any order (with other sheets after them), any number of samples, any previous files","The script has no tests and the workbook is not distributed; sheets, units, remarks and orders of sheets form an unbounded set.",["rsr_convert_scripts/avhrr1_rsr.py: AvhrrRSR", "rsr_convert_scripts/avhrr1_rsr.py: generate_avhrr1_file", "rsr_convert_scripts/avhrr1_rsr.py: run_avhrr1", "pyspectral/rsr_reader.py: RelativeSpectralResponse"])
p("Further converters hand on the curves of the original files","The converters for AGRI and GHI hand on the samples of the band's text table with a response above 0.001, in order, as fractions (also from percent) and by wavelength in micron (also for the bands given in nm); that for SLSTR text tables those by wavenumber in ascending wavelength; those for EPIC and GOCI-2 the columns under the band's heading relative to their largest response; that for MSI the column of the platform's own sheet; that for FCI the last channel of that name. A missing file is an error for SLSTR, MSI and FCI, and for the others gives an object without a curve; unknown bands are refused. AGRI of FY-4B as a whole gives a file that the reader for FY-4B and agri finds, with these responses.","all configurations with a section for the platform and instrument, all tables, sheets and channels (any number of samples), all bands of the listed instruments, all other names","the scripts have no tests, the original files are not distributed, and the unit, percent and heading rules differ per band and platform",["rsr_convert_scripts/agri_rsr.py::AGRIRSR", "rsr_convert_scripts/ghi_rsr.py::GHIRSR", "rsr_convert_scripts/slstr_rsr_txt.py::SlstrTxtRSR", "rsr_convert_scripts/epic_reader.py::EpicRSR", "rsr_convert_scripts/goci2_rsr.py::GOCI2RSR", "rsr_convert_scripts/msi_reader.py::MsiRSR", "rsr_convert_scripts/fci_rsr.py::FciRSR"])
p("The MERSI-1 converter hands on the samples within the band","For MERSI-1 on FY-3A and FY-3C the samples handed on for a band are those of its table with a response above 0.001 and, for ch1-ch3, a wavelength below 800 nm.","all configurations, all tables, all twenty bands of both platforms","the cut from 800 nm on is in the code but never runs, because it asks for bands named 1, 2, 3; a test of a band without far samples passes",["rsr_convert_scripts/mersi1_rsr.py::Mersi1FY3ABRSR"])
p("Accuracy of computed central and effective wavelengths","In floating point the central wave of a response curve (get_central_wave) differs from the exact response-weighted mean by less than the fraction (12 + 4 n)/2^50, n the number of samples (at most 2^20), and the effective wavelength of the Rayleigh correction (weight 1/w^4) from its exact value by less than (22 + 4 n)/2^50; both leave the band by at most that fraction of its upper end.","every response curve with positive positions and responses not negative, every rounding and library","an error bound over all curves",["pyspectral/utils.py:get_central_wave", "pyspectral/rayleigh.py:Rayleigh._get_rsr_wavelength_from_band_name"])
p("Accuracy and order of computed wavenumbers","In floating point convert2wavenumber keeps bands, detectors and the pairing of samples and responses, each wavenumber differs from 1e4/w by less than the fraction 3/2^50, for ascending wavelengths the wavenumbers never descend, and wavelengths differing by one part in 10^14 keep distinct wavenumbers in the right order.","every data set with wavelengths between 1e-8 and 1e8 micron, every rounding","rounding could merge or reverse neighbouring samples; the continuum cannot be sampled",["pyspectral/utils.py:convert2wavenumber", "pyspectral/utils.py:_band2wavenumber", "pyspectral/utils.py:_detector2wavenumber"])
p("A computed look-up table is at most one step off","In floating point, with a table made by make_tb2rad_lut at a resolution of 0.02 to 10 K, the radiance tb2radiance looks up for a temperature from 150 to 360 K is the radiance computed directly for a temperature at most one step (and one part in 1e9 of it) away, and lies between the radiances computed directly one step below and one step above.","every band, resolution in the range, list of temperatures, rounding and library","the table temperatures, the scale and the truncated index are all rounded; a resolution such as 0.1 is not a floating point number",["pyspectral/radiance_tb_conversion.py:RadTbConverter.make_tb2rad_lut", "pyspectral/radiance_tb_conversion.py:RadTbConverter.tb2radiance"])
p("The computed 3.x micron reflectance is as accurate as double precision allows","Calculator.reflectance_from_tbs, called without a look-up table, gives every day-side pixel a number (not NaN), and that number differs from the reflectance the exact formula gives (observed radiance minus CO2-corrected thermal radiance, over sunlight minus thermal radiance) by at most (95 + 114 X + 7 n)/2^50 times (1 + |reflectance|) times (sum of the radiances)/(sunlight - thermal radiance), where n is the number of samples of the response and X bounds hc/(lambda k T).","Every floating point arithmetic meeting the stated assumptions, every well-formed response, every in-band flux from 1e-3 to 1e4, every zenith threshold up to 90 degrees, every scene, every pixel with sunlight at least 0.006 above the thermal radiance, with or without the CO2 band.","A test compares a few pixels with stored numbers to a chosen tolerance; how rounding of the cosine, of the Planck function, of the integrals and of the two cancelling differences adds up is a statement about all inputs.",["pyspectral/near_infrared_reflectance.py: Calculator.reflectance_from_tbs, derive_rad39_corr, get_solar_radiance (_get_solar_radiance)", "pyspectral/radiance_tb_conversion.py: RadTbConverter.tb2radiance", "pyspectral/blackbody.py: blackbody"])
p("A program converting several platforms handles each one by itself","Each of the 22 conversion programs that end in one or more calls of convert2hdf5 writes one file per platform. If every platform converts, the program ends normally, every file holds exactly what converting that platform alone gives, and no other file changes. If one platform fails, the program ends with that error, the files of the platforms before it are complete, and those of the platforms after it are as they were. The ABI program writes, for each of GOES-16 to GOES-19, a file that reads back with all 16 bands in order and the responses of the original text files. The VIRR program always ends with a TypeError and writes nothing.","Every list of conversions with distinct platform names without underscore (shown of all 22 programs), every configuration and content of the original files, every state of the output directory before the run, every position of the failing platform.","Whether a later platform can overwrite an earlier one's file, and what a failure in the middle leaves behind, are statements about every list of platforms and every earlier content of the directory; the scripts have no tests.",["rsr_convert_scripts/abi_rsr.py: main", "rsr_convert_scripts/virr_rsr.py: __main__", "rsr_convert_scripts/msi_reader.py: main", "rsr_convert_scripts/slstr_rsr.py: main", "rsr_convert_scripts/fci_rsr.py: main", "rsr_convert_scripts/mersi1_rsr.py: main", "pyspectral/utils.py: convert2hdf5"])
p("Landsat responses end up in the file of their own satellite and band","OliRSR reads each of the eleven Landsat bands from its own sheet and column of the workbook of its instrument (OLI for B1 to B9, TIRS for B10 and B11, with other sheets for Landsat-9 than for Landsat-8) and keeps exactly the samples with a response above 0.002, in order, with wavelengths divided by 1000 (micron for a column in nanometre). An unknown band, a TIRS band of another satellite and a missing sheet are a ValueError, a missing workbook is an IOError, a missing column a KeyError. The conversion program writes one file per satellite, rsr_oli_tirs_<platform>.h5, which reads back with the eleven bands in order and the kept responses of each.","Every configuration naming the workbooks, every content of the workbooks with two or more samples above 0.002 in each column, every state of the output directory, both satellites and all bands; for the errors every band name and platform.","The script has no tests; that no band is read from another band's place and that nothing is lost between workbook and file is a statement about every content of the workbooks.",["rsr_convert_scripts/oli_tirs_reader.py: OliRSR, __main__", "pyspectral/utils.py: convert2hdf5", "pyspectral/raw_reader.py: InstrumentRSR._get_options_from_config"])
p("The Rayleigh correction keeps its shape in floating point","In floating point: every element of get_reflectance is from 0 to 100 or NaN. The table at a wavelength inside the grid has in every cell a number that is not negative and differs from the linear interpolation between the neighbouring wavelengths by at most 16 M/2^52 (+1e-180), M the greatest cell; at a wavelength of the grid it is exactly the table. The correction of a cloudy pixel never grows with the red band and never shrinks with the clear-sky correction, is that correction up to 20 %, zero from 100 % on, and within 6 x/2^52 (+1e-190) of the exact fraction in between. reduce_rayleigh_highzenith returns a number between 0 and its input, never greater for a greater zenith angle, exactly the input up to the threshold and exactly 0 from maxzen on for a strength of 1 or more.","Every floating point arithmetic meeting the stated assumptions; every red band, correction and zenith angle that is a number of it; every increasing grid of wavelengths up to 1e6 nm with steps of 0.001 nm or more and every table of numbers from 0 to 1e6; every threshold, maxzen at least one degree greater, and strength from 0.","Tests compare a few pixels with a tolerance; whether rounding can break the order between pixels, push a value out of range or move a value that should be kept exactly is a statement about all floats.",["pyspectral/rayleigh.py: Rayleigh.get_reflectance, _relax_rayleigh_refl_correction_where_cloudy, reduce_rayleigh_highzenith, _get_wavelength_adjusted_lut_rayleigh_reflectance (table interpolation), _get_wavelength_index_and_factor"])
p("In floating point the resampled response and solar spectrum share one grid, and the in-band flux is accurate","With rounded arithmetic, for a band whose ends are floating point numbers between 0 and 1e6 (micron or 1/cm), sampled with a step of at least 1e-6, at least 0.6 steps wide and at most a million, the response and the solar spectrum are resampled on one common grid: it starts exactly at the first abscissa of the (scaled) response and ends exactly at the last, ascends strictly, stays inside the band, and each point is within 7 units of rounding of equal steps that differ from the requested one by at most 0.51 of it. No point is masked away, the arrays match, and inband_solarflux and inband_solarirradiance return a value whatever the spline returns. Where the splines are zero or between 1e-50 and 1e20, the flux differs from the trapezoid integral of the product over that grid by at most the fraction (5+2N)/2^50 (N the number of points), and the irradiance from the quotient of the exact integrals by at most (10+4N)/2^50.","every floating point arithmetic of the FP structure, every spline, every spectrum, response, scale, detector and both wave spaces; every band and step in the stated range","an off-by-one of the grid or a point rounded just outside the band happens for rare combinations of ends and step only, and then the call fails with a shape error",["pyspectral/solar.py:SolarIrradianceSpectrum._band_calculations", "pyspectral/solar.py:SolarIrradianceSpectrum.interpolate", "pyspectral/solar.py:SolarIrradianceSpectrum.inband_solarflux", "pyspectral/solar.py:SolarIrradianceSpectrum.inband_solarirradiance"])
p("With its look-up table the computed 3.x micron reflectance is that of temperatures at most one step away","Calculator.reflectance_from_tbs, called with the temperature/radiance table of the object's own converter, gives every day-side pixel a number (not NaN). Up to the rounding error stated in C166, this is the reflectance the exact formula gives with the two radiances taken at temperatures that differ from the given ones by at most one temperature step of the table (and one part in 1e9 of it); the CO2 correction is the one of the given temperatures.","Every floating point arithmetic meeting the stated assumptions, every well-formed response, every table step from 0.02 to 10 K, every in-band flux from 1e-3 to 1e4, every zenith threshold up to 90 degrees, every image of any shape, every pixel with temperatures from 150 to 360 K and sunlight at least 0.006 above the thermal radiance, with or without the CO2 band.","A test compares a few pixels with stored numbers; that truncating to table positions, rounding the scale and the 16-bit position arithmetic never move any pixel by more than one step is a statement about all inputs.",["pyspectral/near_infrared_reflectance.py: Calculator.reflectance_from_tbs", "pyspectral/radiance_tb_conversion.py: RadTbConverter.tb2radiance, make_tb2rad_lut"])
p("Integer radiances have the brightness temperatures of the equal floating point radiances","blackbody_rad2temp and blackbody_wn_rad2temp called with an array of positive integers return the brightness temperatures of these radiances, as for the equal floating point numbers.","all positive wavelengths/wavenumbers and all integer arrays","The element type of an array changes which conversions happen; tests only use floating point arrays, and no finite set of integers covers all of them.",["pyspectral/blackbody.py:blackbody_rad2temp", "pyspectral/blackbody.py:blackbody_wn_rad2temp"])
p("Integer temperatures have the reflectances of the equal floating point temperatures","reflectance_from_tbs called with arrays (or lists, or scalars) of integer temperatures returns the reflectances it returns for the equal floating point temperatures.","all objects, tables, shapes, pixels and element types of the two temperature arrays","A list of Python integers becomes an integer array; the effect depends on every number converted to that type. Tests use floating point arrays only.",["pyspectral/near_infrared_reflectance.py:Calculator.reflectance_from_tbs", "pyspectral/near_infrared_reflectance.py:Calculator._calculate_r3x"])
p("Band radiances looked up for integer temperatures are those of the table rounded down","tb2radiance with a table and integer temperatures returns the entries it returns for floating point temperatures, rounded down to whole numbers: less than one unit too small, and zero throughout if the entries of the table are below one (as they are by wavenumber).","all objects, tables with non-negative entries and integer temperatures","Ranges over all tables and temperatures.",["pyspectral/radiance_tb_conversion.py:RadTbConverter.tb2radiance"])
p("Radiances at integer wavenumbers are right exactly below 2^21 per metre","blackbody_wn with an array of positive integer wavenumbers (per metre) returns Planck's law at every wavenumber and temperature if and only if all of the wavenumbers are below 2^21 (wavelengths above 0.48 micrometres): the third power is computed among 64 bit integers and wraps around.","all lists of positive integer wavenumbers and of temperatures above a millionth kelvin","Ranges over all wavenumbers; the first wrong one is far from what tests use.",["pyspectral/blackbody.py:planck", "pyspectral/blackbody.py:blackbody_wn"])
p("The limb correction in floating point is accurate, for masked and chunked arrays alike","viewzen_corr in double precision returns, for plain, masked and chunked (dask) arrays, the same numbers, each within 1e-8 K of the documented correction, for brightness temperatures from 171 K to 400 K and satellite zenith angles from 0 up to 90 degrees; masked pixels stay masked.","all bands, all temperatures and zenith angles in these ranges, all arrays of such pixels","Rounding errors depend on every one of the pixel's values, and the two implementations are only compared on a few arrays by tests.",["pyspectral/atm_correction_ir.py:viewzen_corr"])
p("Band integrals are accurate in floating point","RelativeSpectralResponse.integral in double precision has exactly the band's detectors as keys, each with the trapezoid integral of response over wavelength to within the fraction (4 + 2 n)/2^50, n the number of samples.","all readers, bands, detectors and response curves with increasing wavelengths and at most 2^20 samples","Rounding errors depend on every sample; no finite set of curves covers them.",["pyspectral/rsr_reader.py:RelativeSpectralResponse.integral"])
p("A failed Rayleigh table download stops there and can be resumed","If the server delivers no archive for an outdated aerosol type (no connection, error status, connection lost while the data arrives), check_and_download raises after requesting exactly the outdated types up to that one; the types before it are current, and outside their directories at most the temporary tarball of the failed type has been touched. A later call with a working server requests exactly the missing types and succeeds.","every list of aerosol types, state of the disk, position and kind of the failure, later server behaviour, and point of interruption","The tests mock the downloads and never let one of several fail; the claim covers every position of the failure and every state of the directories.",["pyspectral/rayleigh.py:check_and_download", "pyspectral/utils.py:download_luts", "pyspectral/utils.py:download_tarball_and_extract"])
p("The emissive part of the 3.x micron radiance is accurate in floating point","After reflectance_from_tbs without a look-up table, emissive_part_3x(tb=False) in double precision returns an array of the pixels' shape in which every day-side pixel is a number, and this number differs from E*(1-rho) by at most (146 + 229 X + 12 n)/2^50 * E * (1 + |rho|) * (sum of the radiances)/(sunlight - thermal radiance), where E is the normalised thermal band radiance and rho the reflectance of the exact formulas, n the number of samples of the response and X a bound on hc/(lambda k T).","all calculators, response curves, scenes and pixels in the stated physical ranges, with and without the CO2 band","Errors of the band radiances, of the reflectance and of the final product accumulate and depend on every sample and pixel.",["pyspectral/near_infrared_reflectance.py:Calculator.emissive_part_3x", "pyspectral/near_infrared_reflectance.py:Calculator.reflectance_from_tbs"])
p("The unit returned with a radiance","The radiances tb2radiance computes directly are in the unit it returns with them: they are Planck's law integrated or averaged over the band in SI units, the scale is 1, and the power of length in the unit's text is the one with which the band's radiance changes when another unit of length is chosen. Through a look-up table the radiances are those of the normalized argument the table was made with, but the unit is that of the normalized argument of the call, so it is right exactly when the two agree. A SEVIRI converter's radiance2tb takes radiances in the unit its tb2radiance returns, W/m^2 sr^-1 (m^-1)^-1; a radiance in the unit its documentation names, mW/m^2 sr^-1 (cm^-1)^-1, gives a higher temperature.","all converters, bands, temperatures, changes of the unit of length, tables made by make_tb2rad_lut, both values of normalized, all tabulated SEVIRI channels","Tests compare numbers for a few bands and never relate them to the unit's text; the scaling law holds for every band and unit of length.",["pyspectral/radiance_tb_conversion.py:RadTbConverter.tb2radiance", "pyspectral/radiance_tb_conversion.py:RadTbConverter.make_tb2rad_lut", "pyspectral/radiance_tb_conversion.py:SeviriRadTbConverter.radiance2tb"])
p("A solar spectrum converted after construction, or made for an unknown wave space, refuses in-band integration","convert2wavenumber called on a SolarIrradianceSpectrum made in wavelength space gives it the wavenumbers, irradiances and solar constant of the spectrum made in wavenumber space from the same file, but its units remain those of wavelength space; a second conversion raises TypeError. After it every inband_solarflux and inband_solarirradiance call raises and leaves the object unchanged, and every interpolate call raises and changes at most the step. A spectrum made for a wave space that is neither 'wavelength' nor 'wavenumber' is constructed without complaint, has the solar constant of the file, and refuses every in-band integration.","all solar files, steps, responses, scales, detectors, intervals and interpolation routines","No test calls convert2wavenumber on an existing object and then integrates a band; the claim is that no response or option makes it return a number.",["pyspectral/solar.py:SolarIrradianceSpectrum.convert2wavenumber", "pyspectral/solar.py:SolarIrradianceSpectrum.inband_solarflux", "pyspectral/solar.py:SolarIrradianceSpectrum.interpolate", "pyspectral/solar.py:SolarIrradianceSpectrum.__init__"])
p("Keyword arguments of Rayleigh","Only the keywords atmosphere and aerosol_type select the table Rayleigh reads: a missing one means us-standard or marine_clean_aerosol, a value that is not text is refused, and any other keyword is silently ignored. In particular the documented call with rural_aerosol=True uses the marine_clean_aerosol table, never the rural one.","every configuration, server, state of the disk, platform, sensor and dictionary of keyword arguments","A test passes the keywords its author knows to exist; the claim covers every keyword dictionary, including those the documentation shows but the code never reads.",["pyspectral/rayleigh.py:Rayleigh.__init__", "pyspectral/rayleigh.py:RayleighConfigBaseClass.__init__", "doc/rayleigh_correction.rst"])
p("The solar constant does not depend on the wave space","For a non-negative spectrum at increasing positive wavelengths, solar_constant() of the spectrum made in wavenumber space is 1000 times (mW for W) that of the spectrum made in wavelength space from the same file, up to a factor of at most the largest ratio of two neighbouring wavelengths.","every spectrum file with increasing positive wavelengths and non-negative irradiances, of any length","The two numbers differ in every test, by the discretisation; only a bound in terms of the grid says how much they may differ for any spectrum.",["pyspectral/solar.py:SolarIrradianceSpectrum.solar_constant", "pyspectral/solar.py:SolarIrradianceSpectrum.convert2wavenumber", "doc/rad_definitions.rst"])
p("Band-integrated radiances do not depend on the wave space","RadTbConverters made in wavelength and in wavenumber space for the same platform, instrument, band and detector return with normalized=False, for every temperature, the same number of W/m^2 sr^-1 up to a factor of at most the largest ratio of two neighbouring wavelengths of the response curve in the platform's file.","every response file, band, detector, resolution and array of temperatures above 1e-6 K","Holds for every response curve and temperature; a test compares the two spaces, if at all, at stored values of one instrument.",["pyspectral/radiance_tb_conversion.py:RadTbConverter.tb2radiance", "pyspectral/radiance_tb_conversion.py:RadTbConverter._get_rsr", "pyspectral/utils.py:convert2wavenumber", "pyspectral/blackbody.py:blackbody"])
p("Central wavenumber against central wavelength","For any response curve (at least two increasing positive wavelengths, responses not negative and not all zero) the central wavenumber, as convert() stores it and get_central_wave computes it, is never below 10000 over the central wavelength in micron, and strictly above it as soon as two responses are positive; it equals the documented ratio of the integrals of response over wavelength cubed and over wavelength squared, up to the square of the largest ratio of neighbouring wavelengths.","every response curve, of any length and sampling","An inequality between two results for every curve, which examples can only illustrate.",["pyspectral/utils.py:get_central_wave", "pyspectral/utils.py:convert2wavenumber", "pyspectral/rsr_reader.py:RelativeSpectralResponse.convert", "doc/rad_definitions.rst"])
p("Converting temperatures to band radiances and back returns them up to the band's width","For a converter in wavelength space whose stored central wavelength lies between the first wavelength a and the last wavelength b of the band, feeding the normalised radiances of tb2radiance into radiance2tb returns, for every list of temperatures above 1e-6 K, temperatures between t/(b/a)^4 and t*(b/a)^4. This also holds for a converter made by platform, instrument and band name from the response file, with the curve and the central wavelength stored in the file.","all response curves with ascending positive wavelengths and non-negative responses, all stored central wavelengths inside the band, all lists of temperatures, all data directories and files from which the converter can be made","The forward conversion integrates over the band and the backward one inverts Planck's law at a single wavelength, so they are not inverses; tests compare a few temperatures of one band, while the error bound must hold for every curve shape and temperature.",["pyspectral/radiance_tb_conversion.py:RadTbConverter.radiance2tb", "pyspectral/radiance_tb_conversion.py:RadTbConverter.tb2radiance", "pyspectral/blackbody.py:blackbody_rad2temp", "pyspectral/rsr_reader.py:RelativeSpectralResponse"])
p("In floating point a band is found by wavelength exactly as in exact arithmetic","get_bandname_from_wavelength, computed in floating point, gives the same result (None, the name, the list of names or AttributeError) as with exact arithmetic on the same numbers, for every table of bands whose central wavelengths are at least twice epsilon. With the default epsilon it finds the band whenever one central wavelength is less than 0.1 - 1e-15 micron away and all others are more than 0.1 + 1e-15 away.","all tables of bands, all wavelengths and epsilons that are floating point numbers, every arithmetic that satisfies the assumptions in FP (IEEE double among them)","A rounded difference could fall on the other side of epsilon; tests look at a few wavelengths far from the limit.",["pyspectral/utils.py:get_bandname_from_wavelength"])
p("In floating point samples are sorted and widths measured as in exact arithmetic","sort_data in floating point returns exactly what it returns in exact arithmetic on the same numbers: distinct wavelengths, however close, are never taken for duplicates, so the result is strictly ascending, holds every wavelength given and pairs each with one of its responses. get_fullwidth_halfmax returns the exact width rounded once, and the exact width itself for bands whose longest wavelength is at most twice the shortest.","all arrays of floating point numbers of any length, every order in which argsort may leave equal keys, every arithmetic that satisfies the assumptions in FP","sort_data removes duplicates by comparing computed differences with zero, which would lose samples if a difference could underflow; tests use well separated samples.",["pyspectral/utils.py:sort_data", "pyspectral/utils.py:get_fullwidth_halfmax"])
p("Plots of the solar spectrum show the spectrum in the unit written at the axis","plot of a SolarIrradianceSpectrum shows every sample of the spectrum file: in wavelength space at (w, E) with axes in micron and W/(m^2 micron), in wavenumber space at (10^4/w, E w^2/10) in ascending order with axes in cm^-1 and mW/m^2 per cm^-1, from zero to the largest irradiance plotted. Inside the limits of the abscissa are the wavelengths up to 4.2 micron, and in wavenumber space the wavelengths from 2/7 micron on. A spectrum made for an unknown wave space raises TypeError, one converted after it was made ValueError.","all spectra of any length with positive wavelengths, all colours and steps","There is no test of the plot; that every sample is drawn in the unit of the label concerns all spectra.",["pyspectral/solar.py:SolarIrradianceSpectrum.plot", "pyspectral/solar.py:SolarIrradianceSpectrum.convert2wavenumber"])
p("Computed radiances from a response file never decrease","For every platform, instrument and listed band and detector whose response file holds ascending response curves (stored in any unit with a scale to metre), a RadTbConverter is made in both wave spaces, and in floating point arithmetic its radiances are numbers, not negative and never smaller for a higher temperature; neither are the entries of its table of radiances, nor radiances looked up there.","all faithful floating point arithmetics, all response files with curves between 21 nm and 4.9 mm (positions differing by two parts in 10^10), all bands, detectors, wave spaces, resolutions, temperatures and histories of the local data","Rounding when the file is scaled to micron and then to metre may disturb the order of the positions; tests use a few files and temperatures.",["pyspectral/rsr_reader.py: RelativeSpectralResponse.load, get_wavelengths", "pyspectral/radiance_tb_conversion.py: RadTbConverter.__init__, tb2radiance, make_tb2rad_lut", "pyspectral/utils.py: convert2wavenumber"])
p("Giving the documented solar flux changes nothing","A near-infrared Calculator that is given as solar_flux the value of inband_solarflux(rsr[band]) of a SolarIrradianceSpectrum with dlambda=0.0005, rsr being what the reader for the same platform and instrument holds, is in every respect (attributes, files written, errors) the Calculator made without solar_flux; for bands given by name and by wavelength, in exact and in floating point arithmetic.","all platforms, instruments, bands, detectors, limits, response and solar files, interpolations, arithmetics and states of the file system","The documentation promises that giving the flux only saves time; a test compares one printed reflectance of one band.",["pyspectral/near_infrared_reflectance.py: Calculator.__init__, _get_solarflux", "pyspectral/solar.py: SolarIrradianceSpectrum.__init__, inband_solarflux", "doc/seviri_example.rst"])
p("The documented response file is the one that is read","For every platform and sensor listed in the documentation of supported sensors, RelativeSpectralResponse(platform, sensor) reads the file named there from the configured response directory, whatever the state of the file system, and raises FileNotFoundError if that file is missing and none is downloaded.","all 37 rows of the documented table and all states of the file system, configurations and file contents","Tests check the file names of a few pairs with a mocked file system.",["doc/platforms_supported.rst", "pyspectral/rsr_reader.py: RelativeSpectralResponse.__init__, _sanitize_inputs, _get_rsr_filename", "pyspectral/utils.py: check_and_adjust_instrument_name, INSTRUMENTS"])
p("Rayleigh corrections at a wavelength under any names","A Rayleigh correction asked for at a wavelength does not depend on the names given for platform and sensor: for any two pairs of names, and whatever the response files contain, making the object and asking for the correction gives the same values or the same error, makes the same requests and leaves the same files.","all pairs of platform and sensor names, atmospheres, aerosol types, wavelengths, angles, red bands, and states of the file system and the network","Tests use a few names, with response files that are there or mocked; that no name and no response file can change the correction is a statement about all of them.",["pyspectral/rayleigh.py:Rayleigh.__init__", "pyspectral/rayleigh.py:Rayleigh._get_effective_wavelength_and_band_name", "pyspectral/rayleigh.py:Rayleigh.get_reflectance", "pyspectral/utils.py:normalize_sensor"])
p("Wavelength ranges of bands in floating point","In floating point, the wavelength range of a band runs from the first to the last stored sample whose response exceeds the threshold, returned unchanged, with the central wavelength accurate to a fraction proportional to the number of samples; it fails (IndexError) exactly when no sample exceeds the threshold.","all floating point arithmetics with the usual rounding, response curves of any number of samples up to 2^20, and thresholds","Rounding depends on every sample; a test sees the result for a few stored curves only.",["pyspectral/utils.py:get_wave_range", "pyspectral/utils.py:get_central_wave"])
p("Accuracy of computed band and emissive temperatures","In floating point, the brightness temperature computed for a band radiance is that of a blackbody with this radiance at the band's central wavelength, up to a fraction of about (128 + 75 x)/2^50, where x is the exponent of Planck's law; and the emissive temperature after a 3.x micron retrieval is that of the exact emissive radiance, up to this and 12 times the relative error of the emissive radiance.","all floating point arithmetics with the usual rounding, bands, central wavelengths from 0.02 to 9000 micrometer, radiances, scenes and pixels on the day side","Errors of the response integral, the reflectance, the wavelength in metre and the inverse of Planck's law add up differently for every pixel; tests compare a few values with a tolerance.",["pyspectral/radiance_tb_conversion.py:RadTbConverter.radiance2tb", "pyspectral/near_infrared_reflectance.py:Calculator.emissive_part_3x", "pyspectral/blackbody.py:blackbody_rad2temp"])
p("Bounds of the integrated energy in floating point","In floating point, get_bounds_integrated_energy returns two samples of the curve whose exact cumulative shares meet the limits up to 200 (n + 2)/2^50 percentage points, n the number of samples: the first that reaches the limit and the last that is at most 100 minus the limit. Unless a share lies within that error of a limit the result, IndexError included, is exactly that of exact arithmetic; and if a share lies between the limits by more than that error, the lower bound is not above the upper one.","all floating point arithmetics with the usual rounding, response curves of up to 2^20 samples that are zero or from 1e-60 to 1e40 and not all zero, limits from 0 to 99 percent","The running sum rounds once per sample and a sample near the limit may fall on either side; tests compare a few curves.",["pyspectral/utils.py:get_bounds_integrated_energy"])
p("Band radiances from a response file are those of the stored curve in floating point","For a platform, instrument, band, detector and wave space whose response file holds a response curve, RadTbConverter(platform, instrument, band) is made and tb2radiance returns, for every list of positive temperatures, finite numbers that differ from the trapezoid-rule band radiance of the curve as stored (positions times scale, in metre or inverse metre) by at most the fraction (89 + 177 X + 4 n + 256/rho)/2^50, normalised or not, where n is the number of samples, rho the least relative distance of neighbouring positions and X the largest exponent of Planck's law in the band.","every rounding satisfying the floating point model, every file, band, detector, curve, wave space, list of temperatures and normalisation flag","The error accumulates over the conversion to micrometer and back to metre (or to wavenumber), Planck's law at rounded positions, and two integrals; cancellation in the distances of neighbouring positions amplifies it, and no set of curves shows that it stays within a bound for all of them.",["pyspectral/rsr_reader.py: RelativeSpectralResponse.load", "pyspectral/radiance_tb_conversion.py: RadTbConverter.__init__, tb2radiance", "pyspectral/utils.py: convert2wavenumber", "pyspectral/blackbody.py: blackbody, blackbody_wn"])
p("Meaning of omitted arguments","RadTbConverter and Calculator made without options are for the first detector (det-1) in wavelength space; the converter's tables are in steps of 0.1 K and its radiances are normalised and computed without a table; the calculator derives its solar flux and cuts off and masks at a sun zenith angle of 85 degrees (as documented), its emissive part is a temperature and its correction is Rosenfeld's. Bands are looked up by wavelength within 0.1 micron and must be the only one; in-band fluxes are of detector 1 with positions as given; the programs use response thresholds of 0.15 (printed ranges) and 0.01 (plots).","every platform, instrument, band, response file, world state and input","A test with omitted arguments sees one result; it does not show that for every file and input the result is that of the documented value.",["pyspectral/radiance_tb_conversion.py: RadTbConverter.__init__, tb2radiance", "pyspectral/near_infrared_reflectance.py: Calculator.__init__, emissive_part_3x, derive_rad39_corr, TERMINATOR_LIMIT", "pyspectral/utils.py: get_bandname_from_wavelength", "pyspectral/solar.py: inband_solarflux, inband_solarirradiance", "bin/find_wavelengths_for_satpy.py: parse_arguments", "bin/plot_rsr.py: get_arguments", "doc/seviri_example.rst"])
p("The solar constant is the same in both wave spaces","The solar constant of a spectrum in wavenumber space (in mW/m2) is 1000 times the solar constant of the same spectrum in wavelength space (in W/m2), up to the largest fraction by which a wavelength of the file exceeds the one before it.","all non-negative spectra with increasing positive wavelengths, of any number of samples","the difference depends on the spacing of every pair of samples of the file; a test compares two numbers for one file",["pyspectral/solar.py: SolarIrradianceSpectrum.solar_constant, convert2wavenumber"])
p("The solar constant is accurate in floating point","In floating point, SolarIrradianceSpectrum.solar_constant() returns, in wavelength and in wavenumber space, the trapezoid integral of the spectrum of the file (converted without rounding) up to the fraction (8 + 2n + 64/r)/2^50, for n samples whose wavelengths differ by at least the fraction r.","all rounding functions of the model; all spectra of at most 2^20 samples between 0.02 and 5000 micron with irradiances zero or between 1e-40 and 1e10, and r of at least 2e-10","rounding of the converted positions is amplified by the differences of neighbours and depends on every sample",["pyspectral/solar.py: SolarIrradianceSpectrum.__init__, convert2wavenumber, solar_constant"])
p("Readers look for the files the conversion programs write","Each conversion program writes, for each of its platforms, one file named after instrument and platform into the configured response directory, with the stated number of different bands (32 files), and RelativeSpectralResponse(platform, instrument) for the same platform and instrument reads exactly this file.","all original files, all configurations with a response directory, all states of the file system","what is checked is an agreement between 21 programs and the reader, for whatever the original files hold; the programs are not run by the test suite",["rsr_convert_scripts/*.py: the main blocks and class constructors", "pyspectral/utils.py: convert2hdf5", "pyspectral/rsr_reader.py: RSRDataBase, RelativeSpectralResponse"])
p("Landsat bands have the numbers of the provider","In what the converter of OLI/TIRS makes of the original workbooks, band Bn is band n of the provider (B6 and B7 the two short-wave infrared bands, B8 the panchromatic band, B9 the cirrus band), with wavelengths in micron.","all workbooks, configurations, bands and platforms","the claim is about which of the sheets of every possible workbook ends up under which name; no test exists for the conversion scripts",["rsr_convert_scripts/oli_tirs_reader.py:OLI_BAND_NAMES", "rsr_convert_scripts/oli_tirs_reader.py:OliRSR"])
p("METimage is converted completely, to the file readers look for","If the netCDF file of original responses has all twenty bands, the METimage program writes rsr_metimage_Metop-SG-A1.h5 into the response directory, which RelativeSpectralResponse(Metop-SG-A1, metimage) reads; reading it back gives the platform and instrument and every band, in the order of wavelengths, with one detector that has the different wavelengths of its own variable in ascending order, each with the response of the first sample at it divided by the largest response of the band, in 32 bit.","all configurations, original files with finite samples, previous files and roundings to 32 bit","every possible original file; no test exists for the conversion scripts",["rsr_convert_scripts/metimage_rsr.py:generate_metimage_file", "rsr_convert_scripts/metimage_rsr.py:MetImageRSR", "pyspectral/rsr_reader.py:RelativeSpectralResponse"])
p("A failed METimage conversion leaves the response file alone","When the METimage program fails because of the configuration or the original data, the response file that was there before is still there.","all configurations, original files and previous files","crash histories over all original files; no test exists for the conversion scripts",["rsr_convert_scripts/metimage_rsr.py:generate_metimage_file", "rsr_convert_scripts/metimage_rsr.py:MetImageRSR"])
p("The conversion programs leave each other's files alone","A response file made by one conversion program is unchanged by any later runs of other conversion programs, in any order and number, with any configuration and original data, whether they succeed or fail.","all histories of runs of the 22 programs that use convert2hdf5, all configurations with a response directory and original data at each run, all previous files","histories of unbounded length with arbitrary failures; no test exists for the conversion scripts",["pyspectral/utils.py:convert2hdf5", "rsr_convert_scripts/slstr_rsr.py:main", "rsr_convert_scripts/slstr_rsr_txt.py:main"])
p("MODIS is converted for both platforms, to the files readers look for","With the original files of Terra and Aqua in place the MODIS program leaves rsr_modis_EOS-Terra.h5 and rsr_modis_EOS-Aqua.h5 in the response directory and changes no other file; RelativeSpectralResponse reads exactly these files for the two platforms, and each gives every band and detector the curve of its own platform's files.","all configurations, original files, parsers of numbers, previous files and roundings to 32 bit","every possible original file; no test exists for the conversion scripts",["rsr_convert_scripts/modis_rsr.py:convert2hdf5", "rsr_convert_scripts/modis_rsr.py:ModisRSR", "pyspectral/rsr_reader.py:RelativeSpectralResponse"])
p("A failed MODIS conversion leaves the response file alone","When the MODIS program fails because of the configuration or missing original files, the response files that were there before are still there.","all configurations, original files, platforms and previous files","crash histories over all original files; no test exists for the conversion scripts",["rsr_convert_scripts/modis_rsr.py:convert2hdf5", "rsr_convert_scripts/modis_rsr.py:ModisRSR"])
p("The SEVIRI program leaves a usable response file for every satellite","From the workbook of original responses the SEVIRI program makes rsr_seviri_<satellite>.h5 for Meteosat-8 to Meteosat-11, the files RelativeSpectralResponse reads for these satellites, each with the responses of its own satellite; no other file is changed.","all workbooks with columns of equal length, previous files and roundings to 32 bit","every possible workbook and previous state of the disk; no test exists for the conversion scripts",["rsr_convert_scripts/seviri_rsr.py:generate_seviri_file", "rsr_convert_scripts/seviri_rsr.py:Seviri", "pyspectral/rsr_reader.py:RelativeSpectralResponse"])
p("The limb correction of integer temperatures","Correcting brightness temperatures given as integers yields the corrected temperatures of the equal floating point numbers, for numpy and dask arrays.","all images of integer temperatures, all zenith angles, masked and plain arrays, all shapes","all images and element types; the tests use floats only",["pyspectral/atm_correction_ir.py:viewzen_corr", "pyspectral/atm_correction_ir.py:AtmosphericalCorrection.get_correction"])
p("The Rayleigh correction for integer arrays","get_reflectance gives for angles and red reflectances given as integers the correction of the equal floating point numbers.","all images of integers and floats, bands within the table, tables with reflectances between 0 and 1, interpolators","all images, tables and element types",["pyspectral/rayleigh.py:Rayleigh.get_reflectance", "pyspectral/rayleigh.py:Rayleigh._interp_rayleigh_refl_by_angles"])
p("A failed retrieval does not change the emissive part","When reflectance_from_tbs raises, a later emissive_part_3x() gives what it would have given without that call: the emissive part of the last scene for which a reflectance was obtained.","every calculator object, every earlier successful retrieval, every failing call (missing response data, mismatched shapes, temperatures that cannot be converted, a number of sun zenith angles that does not match), every pixel","A test that checks the exception does not look at the object afterwards; what is left behind depends on how far the failing call got, for every pair of scenes.",["pyspectral/near_infrared_reflectance.py: Calculator.reflectance_from_tbs, Calculator.emissive_part_3x"])
with open('/verif/properties.jsonl','w') as f:
    for x in P: f.write(json.dumps(x)+"\n")
for x in P: print(x['id'],x['title'])
