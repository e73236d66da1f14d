{"id": "C01", "title": "A value that was set is read back, and nothing else moves", "statement": "After set_sigma(mt, v) succeeds on an editor, get_sigma(mt) returns v (for every cross section and for nu-bar, MT 452), and get_sigma / get_energy of every other MT return what they returned before.", "quantifier": "every table, every editor state, every mt and every value array", "why_tests_cant": "a test sets a few MTs of one file; the frame condition ranges over every other MT and every earlier history", "anchors": ["ASAPy/AceIO.py: AceEditor.set_sigma", "ASAPy/AceIO.py: AceEditor.get_sigma", "ASAPy/AceIO.py: AceEditor.get_energy", "ASAPy/AceIO.py: AceEditor.set_nu_distro"]}
{"id": "C02", "title": "Original data survive every history", "statement": "After any sequence of set_sigma and apply_sum_rules calls, successful or rejected, get_sigma(mt, unadjusted=True) returns the value loaded from the ACE file, for every MT, and the energy grids returned by get_energy are the loaded ones.", "quantifier": "every history of calls of any length", "why_tests_cant": "unbounded interleavings of setters and sum rules", "anchors": ["ASAPy/AceIO.py: AceEditor.get_sigma", "ASAPy/AceIO.py: AceEditor.set_sigma", "ASAPy/AceIO.py: AceEditor.apply_sum_rules"]}
{"id": "C03", "title": "A rejected set leaves the editor as it was", "statement": "If set_sigma raises (unknown MT, array of the wrong length, chi distributions of the wrong shape), the editor's observable data and the set of adjusted MTs are exactly those before the call.", "quantifier": "every editor state and every rejected argument", "why_tests_cant": "failure atomicity has to hold at every point where the call can raise", "anchors": ["ASAPy/AceIO.py: AceEditor.set_sigma", "ASAPy/AceIO.py: AceEditor.set_chi_distro"]}
{"id": "C04", "title": "Every changed MT is reported as adjusted", "statement": "After any history, an MT whose data differ from the loaded file is in adjusted_mts, and every member of adjusted_mts is an MT of the editor. write_sampled_data only writes members of adjusted_mts, so a change outside the set would be lost.", "quantifier": "every history of calls of any length", "why_tests_cant": "an invariant of all reachable states", "anchors": ["ASAPy/AceIO.py: AceEditor.adjusted_mts", "ASAPy/AceIO.py: AceEditor.set_sigma", "ASAPy/AceIO.py: AceEditor.apply_sum_rules"]}
{"id": "C05", "title": "Sum rules keep the gap between a sum and its parts", "statement": "After apply_sum_rules, for every redundant MT on the file with at least one adjusted constituent, at every energy of its grid: sum - (total of its present constituents) equals the same difference in the loaded file.", "quantifier": "every table, every set of adjustments, every redundant MT, every grid energy", "why_tests_cant": "depends on which of ~300 MTs are present and adjusted, a space no test enumerates", "anchors": ["ASAPy/AceIO.py: AceEditor.apply_sum_rules", "ASAPy/data/function.py: Tabulated1D.__call__"]}
{"id": "C06", "title": "Applying the sum rules twice is applying them once", "statement": "A second apply_sum_rules right after the first changes nothing observable.", "quantifier": "every reachable editor state", "why_tests_cant": "requires the processing order of the rules to be compatible with their dependency graph, for every present/adjusted combination", "anchors": ["ASAPy/AceIO.py: AceEditor.apply_sum_rules"]}
{"id": "C07", "title": "The result does not depend on when or in which order MTs were set", "statement": "For adjustments of pairwise distinct MTs, the data after set/apply/set/apply/... (as write_sampled_data does) equal the data after setting all of them, in any order, and applying the sum rules once.", "quantifier": "every list of adjustments, every permutation and every placement of intermediate apply_sum_rules calls", "why_tests_cant": "factorially many interleavings", "anchors": ["ASAPy/AceIO.py: AceEditor.apply_sum_rules", "ASAPy/XsecSampler.py: write_sampled_data"]}
{"id": "C08", "title": "Reactions without adjusted constituents are untouched", "statement": "apply_sum_rules changes only redundant MTs (107,106,105,104,103,101,18,27,16,4,3,1) that have an adjusted constituent on the file; with no adjustments it changes nothing.", "quantifier": "every editor state", "why_tests_cant": "frame condition over all MTs", "anchors": ["ASAPy/AceIO.py: AceEditor.apply_sum_rules"]}
{"id": "C09", "title": "A change reaches the total through an absent intermediate sum", "statement": "If an intermediate sum (18 or 4) is not on the file but its parts are, adjusting a part still updates the total cross section MT 1 (the docstring: 'if we don't have MT18 but have 19, it should still be in the total xsec').", "quantifier": "every table and every adjusted part", "why_tests_cant": "depends on the set of MTs present", "anchors": ["ASAPy/AceIO.py: AceEditor.apply_sum_rules"]}
{"id": "C10", "title": "A directly adjusted intermediate sum reaches the sums above it", "statement": "When MT 103-107 or MT 18 is adjusted directly, the redundant absorption sums MT 101 and MT 27 (ENDF: 101 = 102 + 103 + ... ; 27 = 18 + 101) are updated by the same amount.", "quantifier": "every table and adjustment", "why_tests_cant": "depends on the set of MTs present", "anchors": ["ASAPy/AceIO.py: AceEditor.apply_sum_rules"]}
{"id": "C11", "title": "The sum rules never fail on a well-formed table", "statement": "On every table whose reactions carry data at the editor temperature with one value per grid energy, apply_sum_rules completes in every reachable state, and every cross section still has one value per grid energy.", "quantifier": "every well-formed table and every history", "why_tests_cant": "absence of exceptions over all states", "anchors": ["ASAPy/AceIO.py: AceEditor.apply_sum_rules", "ASAPy/AceIO.py: AceEditor.set_sigma"]}
{"id": "C12", "title": "Setting chi keeps it a normalised distribution", "statement": "After set_chi_distro(pdf), the cdf of every outgoing distribution ends in 1, its pdf is the given pdf divided by one common factor, its energy points are unchanged, and setting the pdf that is already there changes nothing (cdf ending in 1).", "quantifier": "every number and size of distributions, every pdf whose normalising factor is not zero", "why_tests_cant": "universally quantified over arrays", "anchors": ["ASAPy/AceIO.py: AceEditor.set_chi_distro"]}
{"id": "C13", "title": "Setting chi keeps the cdf non-decreasing", "statement": "If the stored cdf is the valid cdf of the stored pdf and the new pdf is non-negative, the new cdf is non-decreasing and within [0,1].", "quantifier": "every valid distribution and non-negative pdf", "why_tests_cant": "universally quantified over arrays", "anchors": ["ASAPy/AceIO.py: AceEditor.set_chi_distro"]}
{"id": "C14", "title": "A temperature on the file can be selected", "statement": "AceEditor(path, temperature=T) succeeds exactly when T (with K appended if missing) is a temperature of the file, and then reads data at T.", "quantifier": "every file and every temperature argument", "why_tests_cant": "all strings", "anchors": ["ASAPy/AceIO.py: AceEditor.__init__"]}
{"id": "C15", "title": "A tabulated function returns its tabulated values", "statement": "Evaluating a tabulated function at one of its own grid points returns the tabulated value there.", "quantifier": "every grid, every point, each interpolation law", "why_tests_cant": "depends on the spacing of grid points relative to a tolerance", "anchors": ["ASAPy/data/function.py: Tabulated1D.__call__"]}
{"id": "C16", "title": "Interpolated values stay between their neighbours and vanish outside the table", "statement": "Between two neighbouring grid points the value lies between the two tabulated values; below the first and above the last point (beyond the endpoint tolerance) it is 0.", "quantifier": "every grid, every argument", "why_tests_cant": "continuum of arguments", "anchors": ["ASAPy/data/function.py: Tabulated1D.__call__"]}
{"id": "C17", "title": "Lin-lin evaluation is linear in the data", "statement": "On one grid, evaluating the sum (or multiple) of two lin-lin tables equals the sum (multiple) of the evaluations, at every energy. The sum rules rely on it.", "quantifier": "every grid, all data, every energy", "why_tests_cant": "continuum", "anchors": ["ASAPy/data/function.py: Tabulated1D.__call__", "ASAPy/data/function.py: sum_functions"]}
{"id": "C18", "title": "integral() is the integral of the interpolated function", "statement": "Tabulated1D.integral() returns at every grid point the integral, from the first grid point, of the function that __call__ interpolates, for all five interpolation laws.", "quantifier": "every table and every law", "why_tests_cant": "continuum", "anchors": ["ASAPy/data/function.py: Tabulated1D.integral"]}
{"id": "C19", "title": "Replacing an array keeps the number of values in the file", "statement": "replace_array on an ACE text never changes how many whitespace-separated values the data section holds, whatever arrays are given and wherever the match falls.", "quantifier": "every text, every pair of equally long arrays, every replace count", "why_tests_cant": "arbitrary texts and match positions", "anchors": ["ASAPy/AceIO.py: WriteAce.replace_array", "ASAPy/AceIO.py: WriteAce.format_mcnp"]}
{"id": "C20", "title": "A written ACE file reads back to the same values", "statement": "The header lines and the sequence of data tokens read back from the file written by write_ace are those held in memory, with four values on every full line.", "quantifier": "every header and token sequence", "why_tests_cant": "all lengths modulo 4 and all token widths", "anchors": ["ASAPy/AceIO.py: WriteAce.write_ace", "ASAPy/AceIO.py: WriteAce._read_ace_to_a_line"]}
{"id": "C21", "title": "Writing an unmodified ACE file reproduces it byte for byte", "statement": "Reading an ACE file in the standard 4 x 20-column layout and writing it without changes gives back the same file.", "quantifier": "every ACE file", "why_tests_cant": "all data lengths", "anchors": ["ASAPy/AceIO.py: WriteAce.write_ace", "ASAPy/AceIO.py: WriteAce._read_ace_to_a_line"]}
{"id": "C22", "title": "replace_array replaces the array it was given, where it stands", "statement": "If the array's values occur in the data section exactly once, as whole values, replace_array puts the new values in those positions and leaves every other value alone; if they occur several times and one replacement is asked for, it does so at the first occurrence.", "quantifier": "every data section, array, position and every number of replacements but zero", "why_tests_cant": "arbitrary texts", "anchors": ["ASAPy/AceIO.py: WriteAce.replace_array"]}
{"id": "C23", "title": "replace_array never touches another reaction's data", "statement": "replace_array for one reaction never modifies values belonging to another reaction, nor changes the sign or digits of values that are not in the array.", "quantifier": "every file content", "why_tests_cant": "depends on coincidences between arrays anywhere in the file", "anchors": ["ASAPy/AceIO.py: WriteAce.replace_array", "ASAPy/XsecSampler.py: write_sampled_data"]}
{"id": "C24", "title": "A failed replacement leaves the text unchanged", "statement": "replace_array raises exactly when the lengths differ or the formatted array does not occur, and then the text is unchanged.", "quantifier": "every text and arrays", "why_tests_cant": "arbitrary texts", "anchors": ["ASAPy/AceIO.py: WriteAce.replace_array"]}
{"id": "C25", "title": "A sampled ACE file holds the sampled values at the reactions' places and the original values elsewhere", "statement": "When the base arrays of the adjusted reactions occur only at their own places (as whole values) during the writing loop - or, where one occurrence is to be replaced, at their own places first, as equal spectra do - the written file read back holds the sampled arrays at these places and the original values at every other place, for any number of adjusted reactions.", "quantifier": "every file, every set of adjusted reactions", "why_tests_cant": "composition of arbitrarily many replacements", "anchors": ["ASAPy/XsecSampler.py: write_sampled_data", "ASAPy/AceIO.py: WriteAce"]}
{"id": "C26", "title": "Every energy inside the group structure gets its own group's value", "statement": "map_groups_to_continuous gives an energy e with low_g < e <= high_g the value of group g; energies up to max_e above the highest group get group 1 and energies above min_e below the lowest high bound get the last group.", "quantifier": "every decreasing group structure, every energy array without min_e itself (C28)", "why_tests_cant": "all energies and boundary cases", "anchors": ["ASAPy/XsecSampler.py: map_groups_to_continuous"]}
{"id": "C27", "title": "Energies outside the range get the fill value", "statement": "Energies below min_e or above max_e get value_outside_of_range (default 1), independent of the group values, and the result has one value per energy.", "quantifier": "every decreasing group structure, every energy array without min_e itself (C28)", "why_tests_cant": "all energies", "anchors": ["ASAPy/XsecSampler.py: map_groups_to_continuous"]}
{"id": "C28", "title": "The lower bound min_e itself is inside the range", "statement": "An energy equal to min_e (the documented range is [min_e, max_e]) gets the value of the lowest group.", "quantifier": "every structure", "why_tests_cant": "boundary value", "anchors": ["ASAPy/XsecSampler.py: map_groups_to_continuous"]}
{"id": "C29", "title": "Inconsistent bounds are rejected", "statement": "map_groups_to_continuous raises whenever min_e is not below the lowest high bound or max_e is below the highest bound.", "quantifier": "every structure and bounds", "why_tests_cant": "all bounds", "anchors": ["ASAPy/XsecSampler.py: map_groups_to_continuous"]}
{"id": "C30", "title": "Negative samples are removed and the rest kept in order", "statement": "With remove_neg, the samples returned are exactly the drawn samples without a negative group value, in the order drawn, numbered 0,1,2,...; without it all drawn samples are returned.", "quantifier": "every sample matrix", "why_tests_cant": "every pattern of signs", "anchors": ["ASAPy/XsecSampler.py: XsecSampler._sample_check", "ASAPy/XsecSampler.py: XsecSampler.sample"]}
{"id": "C31", "title": "The requested number of samples is delivered for every reaction", "statement": "sample_xsec with num_oversamples delivers num_samples samples per MT, so that write_sampled_data finds every sample number for every MT.", "quantifier": "every sample matrix and number of reactions", "why_tests_cant": "depends on the signs of random draws", "anchors": ["ASAPy/XsecSampler.py: sample_xsec", "ASAPy/XsecSampler.py: write_sampled_data"]}
{"id": "C32", "title": "Relative samples times the mean are the sampled values", "statement": "For every group with non-zero mean the relative sample times the mean is the sampled value; for groups with zero mean the relative sample is the (finite) sampled value.", "quantifier": "every mean vector and sample matrix", "why_tests_cant": "all zero patterns", "anchors": ["ASAPy/XsecSampler.py: sample_xsec", "ASAPy/XsecSampler.py: XsecSampler._sample_check"]}
{"id": "C33", "title": "Each sample is written by exactly one process, whatever the interleaving", "statement": "For every number of MPI processes, each sample number is written by exactly one rank, and the set of files and their contents at the end do not depend on the interleaving of the ranks or on the number of ranks.", "quantifier": "every process count >= 1, every number of samples, every schedule", "why_tests_cant": "exponentially many schedules", "anchors": ["ASAPy/XsecSampler.py: write_sampled_data"]}
{"id": "C34", "title": "Points with zero cross section stay zero", "statement": "A grid point whose base cross section is zero (below threshold) has zero cross section in every sampled file.", "quantifier": "every table, every sample", "why_tests_cant": "depends on the position of zeros relative to the groups", "anchors": ["ASAPy/XsecSampler.py: write_sampled_data"]}
{"id": "C35", "title": "A unit sample reproduces the base data", "statement": "A sample whose relative values are all 1 leaves the sampled cross section equal to the base one.", "quantifier": "every table and group structure", "why_tests_cant": "all tables", "anchors": ["ASAPy/XsecSampler.py: write_sampled_data", "ASAPy/XsecSampler.py: map_groups_to_continuous"]}
{"id": "C36", "title": "The repaired correlation matrix is positive definite", "statement": "The matrix returned by the eigenvalue repair is symmetric and positive definite for every symmetric input with positive diagonal, and it is the input itself when all eigenvalues exceed 1e-8.", "quantifier": "every dimension and every symmetric matrix", "why_tests_cant": "all matrices", "anchors": ["ASAPy/XsecSampler.py: XsecSampler._fix_non_pos_semi_def_matrix_eigen"]}
{"id": "C37", "title": "The repaired matrix is still a correlation matrix", "statement": "The repaired matrix has a unit diagonal.", "quantifier": "every correlation matrix", "why_tests_cant": "all matrices", "anchors": ["ASAPy/XsecSampler.py: XsecSampler._fix_non_pos_semi_def_matrix_eigen"]}
{"id": "C38", "title": "Loading normalises the correlation and orders the bounds", "statement": "load_zaid_mt returns a correlation whose largest diagonal entry is 1 and whose entries keep their ratios, and e low / e high columns exchanged as a whole exactly when the first row has them the wrong way round; data stored in the right order are returned unchanged.", "quantifier": "every stored frame", "why_tests_cant": "all frames", "anchors": ["ASAPy/XsecSampler.py: XsecSampler.load_zaid_mt"]}
{"id": "C39", "title": "Correlation and covariance conversions are inverse", "statement": "correlation_to_cov gives a symmetric matrix with variances on the diagonal; cov_to_correlation(correlation_to_cov(std, corr)) = corr for positive std and a symmetric unit-diagonal corr, and correlation_to_cov(sqrt(diag cov), cov_to_correlation(cov)) = cov for symmetric cov with positive diagonal.", "quantifier": "every dimension and matrix", "why_tests_cant": "all matrices", "anchors": ["ASAPy/CovManipulation.py: correlation_to_cov", "ASAPy/CovManipulation.py: cov_to_correlation", "ASAPy/XsecSampler.py: XsecSampler.calc_cov"]}
{"id": "C40", "title": "The modified Cholesky factorisation reconstructs the matrix", "statement": "For every symmetric A, gmw_cholesky returns a permutation matrix P, a lower triangular L with positive diagonal and e >= 0 with (P L)(P L)^T = A + diag(P e).", "quantifier": "every dimension and symmetric matrix", "why_tests_cant": "induction over the pivoted elimination", "anchors": ["ASAPy/CovManipulation.py: gmw_cholesky"]}
{"id": "C41", "title": "The factor used for sampling reproduces the desired correlation", "statement": "The matrix C used by sample_with_corr satisfies C^T C = desired correlation (up to the documented diagonal shift) also when the plain Cholesky factorisation fails.", "quantifier": "every symmetric matrix", "why_tests_cant": "depends on pivoting", "anchors": ["ASAPy/CovManipulation.py: sample_with_corr", "ASAPy/CovManipulation.py: gmw_cholesky"]}
{"id": "C42", "title": "Reordering keeps every marginal sample and imposes the rank order", "statement": "order(rank(N), samples) returns in each column a permutation of that column's samples whose rank order is that of N's column.", "quantifier": "every matrix size and content, ties included", "why_tests_cant": "all permutations", "anchors": ["ASAPy/CovManipulation.py: rank", "ASAPy/CovManipulation.py: order"]}
{"id": "C43", "title": "Fixed variables keep their mean and sampled ones keep their place", "statement": "sample_with_corr returns num_samples rows with one column per variable; variables with standard deviation <= 1e-30, and zero-mean variables under lognormal, hold exactly their mean in every row, and the i-th remaining variable's draws appear in the i-th remaining column.", "quantifier": "every mean/std vector and sample count", "why_tests_cant": "every mask", "anchors": ["ASAPy/CovManipulation.py: sample_with_corr"]}
{"id": "C44", "title": "Variables without correlation data are never sampled", "statement": "A variable with zero on the diagonal of the correlation matrix keeps its mean in every sample.", "quantifier": "every mean/std/correlation", "why_tests_cant": "every mask combination", "anchors": ["ASAPy/CovManipulation.py: sample_with_corr"]}
{"id": "C45", "title": "Lognormal sampling keeps mean, variance and positivity", "statement": "The lognormal parameters derived from (mean, std) give a lognormal with exactly that mean and variance, every sample is positive, and the transformed correlation matrix is symmetric with unit diagonal.", "quantifier": "all positive means and standard deviations", "why_tests_cant": "continuum", "anchors": ["ASAPy/CovManipulation.py: sample_with_corr"]}
{"id": "C46", "title": "Uniform sampling is centred on the mean", "statement": "Uniform samples of a variable scatter around its mean.", "quantifier": "all means, std, draws", "why_tests_cant": "continuum", "anchors": ["ASAPy/CovManipulation.py: sample_with_corr"]}
{"id": "C47", "title": "Fixed-width BOXER blocks are read field by field", "statement": "A block of lines of 10-character fields is read as exactly those fields in order, whatever the number of fields and lines and also when fields touch without a blank.", "quantifier": "every list of fields", "why_tests_cant": "all lengths and line breaks", "anchors": ["ASAPy/EndfToCov.py: read_boxer_out_matrix._block_lines_to_array"]}
{"id": "C48", "title": "Block boundaries are found", "statement": "The blocks of a BOXER output are the maximal runs of lines between lines whose first word is an integer; a file with a BOXR error marker is rejected and a file without any block is rejected.", "quantifier": "every file", "why_tests_cant": "all files", "anchors": ["ASAPy/EndfToCov.py: read_boxer_out_matrix._find_block_line_nums", "ASAPy/EndfToCov.py: read_boxer_out_matrix.__init__"]}
{"id": "C49", "title": "Stored correlations are proper", "statement": "The correlation stored by process_cov_to_h5 is symmetric, has unit diagonal, contains no NaN and lies in [-1,1], for every covariance matrix read (including zero variances).", "quantifier": "every covariance matrix", "why_tests_cant": "all zero and sign patterns", "anchors": ["ASAPy/EndfToCov.py: process_cov_to_h5", "ASAPy/CovManipulation.py: cov_to_correlation"]}
{"id": "C50", "title": "The store never holds a correlation without its standard deviations", "statement": "At every point, also after an exception, the store holds corr and std_dev for the same (zaid, mt) or neither.", "quantifier": "every crash point and input", "why_tests_cant": "crash points", "anchors": ["ASAPy/EndfToCov.py: process_cov_to_h5", "ASAPy/AsapyCovStorage.py: add_corr_to_store", "ASAPy/AsapyCovStorage.py: add_stddev_to_store"]}
{"id": "C51", "title": "The covariance store is a faithful map", "statement": "What is stored under (mat1, mt1, mat2, mt2) is what is loaded from it; different quadruples and the two kinds of data never collide; the MT number is recovered from the key.", "quantifier": "every history of puts, every quadruple", "why_tests_cant": "all keys and histories", "anchors": ["ASAPy/AsapyCovStorage.py: df_key_stddev_formatter", "ASAPy/AsapyCovStorage.py: add_corr_to_store", "ASAPy/XsecSampler.py: XsecSampler.load_zaid_mt"]}
{"id": "C52", "title": "Only decreasing group structures are stored", "statement": "add_stddev_to_store accepts a frame exactly when both bound columns are strictly decreasing from group to group (hence for every pair of groups), and otherwise raises and leaves the store unchanged. add_corr_to_store accepts a frame exactly when its columns have the labels of its rows, in the same order.", "quantifier": "every frame with the labels 1 to n, as create_stddev_df makes them", "why_tests_cant": "all lengths", "anchors": ["ASAPy/AsapyCovStorage.py: check_stddev_df", "ASAPy/AsapyCovStorage.py: add_stddev_to_store"]}
{"id": "C53", "title": "Every NJOY covariance output is converted, and only those", "statement": "For every number of temperatures and nu/chi switches, with a non-empty MT list, the tapes selected as covariance tapes are exactly the COVR outputs, all tape numbers of a run are different, and every tape a module reads was produced by an earlier module or is an input.", "quantifier": "every temperature list and switch", "why_tests_cant": "all lengths", "anchors": ["ASAPy/EndfToCov.py: run_cover_chain", "ASAPy/njoy.py: make_njoy_run"]}
{"id": "C54", "title": "The files looked for are the files produced", "statement": "For every MT and temperature, the matrix file name that process_cov_to_h5 is asked to read is one that the cover chain writes, and different (tape, MT) pairs never write the same file.", "quantifier": "every temperature and MT", "why_tests_cant": "all names", "anchors": ["ASAPy/EndfToCov.py: _run_cover_chain", "ASAPy/EndfToCov.py: process_cov_to_h5"]}
{"id": "C55", "title": "ENDF numbers without exponent letter are read correctly", "statement": "float_endf inserts the missing 'e' in every ENDF number (sign, digits, point, digits, signed exponent) and leaves every number that is not in that form unchanged.", "quantifier": "every digit string", "why_tests_cant": "all strings", "anchors": ["ASAPy/endf.py: float_endf", "ASAPy/data/endf.py: float_endf"]}
{"id": "C56", "title": "LIST and TAB1 records are read completely and exactly", "statement": "Reading a LIST record consumes exactly the lines of the record and returns its values in order, for every length (including 0); likewise for TAB1 records.", "quantifier": "every length", "why_tests_cant": "all lengths", "anchors": ["ASAPy/endf.py: get_list_record", "ASAPy/endf.py: get_tab1_record"]}
{"id": "C57", "title": "Reading an ENDF file terminates", "statement": "Evaluation(file) terminates (with a result or an error) on every file, also truncated ones.", "quantifier": "every file", "why_tests_cant": "termination", "anchors": ["ASAPy/endf.py: Evaluation.__init__"]}
{"id": "C58", "title": "Nuclide identifiers decode to charge, mass and isomeric state", "statement": "get_metadata(zaid) recovers Z, A and the metastable state from zaid = 1000 Z + A (and A + 300 + 100 m for metastable states) in the mcnp and nndc conventions.", "quantifier": "every nuclide", "why_tests_cant": "all nuclides", "anchors": ["ASAPy/data/ace.py: get_metadata"]}
{"id": "C59", "title": "Binary ACE records are aligned", "statement": "The binary file produced by ascii_to_binary has every table start where the binary reader seeks it, for every table length and any number of tables.", "quantifier": "every list of table lengths", "why_tests_cant": "all lengths", "anchors": ["ASAPy/data/ace.py: ascii_to_binary", "ASAPy/data/ace.py: Library._read_binary"]}
{"id": "C60", "title": "Nuclide names round-trip", "statement": "zam(gnd_name(Z, A, m)) = (Z, A, m) and different nuclides have different names.", "quantifier": "every Z of the table, every A and m", "why_tests_cant": "all A, m", "anchors": ["ASAPy/data/data.py: gnd_name", "ASAPy/data/data.py: zam"]}
{"id": "C61", "title": "Reaction components are the present leaves", "statement": "get_reaction_components(mt) terminates, returns only reactions on the file, without repetition, and is empty only if none of the reactions in the sum is on the file.", "quantifier": "every set of present reactions", "why_tests_cant": "2^300 subsets", "anchors": ["ASAPy/data/neutron.py: IncidentNeutron.get_reaction_components"]}
{"id": "C62", "title": "Thinning keeps endpoints and accuracy", "statement": "thin returns a subsequence of the points including the first and last, and every dropped point is reproduced by linear interpolation between its surviving neighbours within the tolerance.", "quantifier": "every grid and data", "why_tests_cant": "all lengths", "anchors": ["ASAPy/data/grid.py: thin"]}
{"id": "C63", "title": "The built-in group structures are usable", "statement": "Each built-in group structure is strictly increasing, and stays so after rounding to the 4 significant digits of the BOXER output, so the store's order check accepts it.", "quantifier": "every pair of bounds of each structure, and every covariance computed on them", "why_tests_cant": "combined with the printing precision", "anchors": ["ASAPy/njoy.py: energy_groups_*", "ASAPy/AsapyCovStorage.py: check_stddev_df"]}
{"id": "C64", "title": "BOXER decompression fills the matrix it announces", "statement": "The run-length decompression assigns every element exactly once in row order, gives a symmetric matrix for symmetric data, and writes rows and columns from high to low energy.", "quantifier": "every control/value sequence", "why_tests_cant": "all sequences", "anchors": ["boxer2mat/boxer2mat.f"]}
{"id": "C65", "title": "An MT without usable covariance is skipped", "statement": "When the BOXER output of an MT carries the error marker, process_cov_to_h5 leaves the store as it was and returns normally, so the remaining MTs are processed; for every MT of the evaluation's covariance file, nu-bar (452) and chi (1018).", "quantifier": "every MT, every file with a marker, every store", "why_tests_cant": "all MTs and files; only the error path of unusual nuclides shows it", "anchors": ["ASAPy/EndfToCov.py: process_cov_to_h5", "ASAPy/data/reaction.py: REACTION_NAME"]}
{"id": "C66", "title": "By default exactly the nuclide's MTs are sampled", "statement": "Without a list of MTs, the sampler takes exactly the MTs for which the store can load data of the nuclide, also for stores with several nuclides.", "quantifier": "every store", "why_tests_cant": "all contents of a store", "anchors": ["ASAPy/XsecSampler.py: __main__", "ASAPy/XsecSampler.py: XsecSampler.load_zaid_mt"]}
{"id": "C67", "title": "The stored deviations are those of BOXER", "statement": "The std_dev frame stored has one row per group, in order, with the group's bounds, cross section and relative deviation as read; groups with zero cross section get fixed replacement values; no NaN or infinity is stored.", "quantifier": "every file, every pattern of zero cross sections", "why_tests_cant": "all sizes and zero patterns", "anchors": ["ASAPy/EndfToCov.py: process_cov_to_h5"]}
{"id": "C68", "title": "Every NJOY module reads the data it needs", "statement": "For every combination of the module switches, temperatures and names with which make_njoy_run builds an input, each module reads from its tapes the kind of data it needs (ENDF, PENDF, GENDF, ERRORR output, plot commands) and writes to tapes not used before; with run=True the input is run.", "quantifier": "every combination of switches, every temperature list", "why_tests_cant": "the switches combine, and the temperatures are unbounded", "anchors": ["ASAPy/njoy.py: make_njoy_run"]}
{"id": "C69", "title": "make_pendf produces a PENDF file", "statement": "make_pendf builds a run of RECONR alone and saves its output under the name asked for.", "quantifier": "every file name and temperature", "why_tests_cant": "all arguments", "anchors": ["ASAPy/njoy.py: make_pendf"]}
{"id": "C70", "title": "Every section of an evaluation is read", "statement": "Evaluation(file) stores, for every section of a well formed material, exactly its lines under (MF, MT), in file order, with the material number, and leaves the file after the line that ends the material.", "quantifier": "every number of sections, every contents, every text before and after", "why_tests_cant": "all sizes and contents", "anchors": ["ASAPy/endf.py: Evaluation.__init__", "ASAPy/data/endf.py: Evaluation.__init__"]}
{"id": "C71", "title": "All evaluations of a tape are returned", "statement": "get_evaluations(file) returns every evaluation of a tape of well formed evaluations, in order, up to the line that ends the tape.", "quantifier": "every number of evaluations", "why_tests_cant": "all tapes", "anchors": ["ASAPy/endf.py: get_evaluations", "ASAPy/data/endf.py: get_evaluations"]}
{"id": "C72", "title": "The header of an evaluation is read exactly", "statement": "For every section (1, 451) in format 6, the target's charge, mass number, mass, state and temperature, the flags, the text and the whole directory are those on the file, also when entries of the directory lack MOD; the one exception, on purpose, is the state of the first metastable Am-242.", "quantifier": "every header, every number of text lines and directory entries", "why_tests_cant": "all lengths", "anchors": ["ASAPy/endf.py: Evaluation._read_header", "ASAPy/data/endf.py: Evaluation._read_header"]}
{"id": "C73", "title": "INTG records give the correlations on the file", "statement": "get_intg_record returns a symmetric matrix with unit diagonal whose off-diagonal elements are those of the record, each at its own row and column.", "quantifier": "every number of lines and digits", "why_tests_cant": "all records", "anchors": ["ASAPy/data/endf.py: get_intg_record"]}
{"id": "C74", "title": "All tables of an ASCII ACE file are found", "statement": "Library(file) returns every table of an ASCII ACE file with any number of tables, old or new headers, in order, with all data; Library(file, names) returns those named; get_table(file, name) returns the first table with that name, the first table if no name is given, and raises ValueError if there is none.", "quantifier": "every number of tables, every table length, every set of names", "why_tests_cant": "all lengths and numbers of tables", "anchors": ["ASAPy/data/ace.py: Library._read_ascii", "ASAPy/data/ace.py: get_table"]}
{"id": "C75", "title": "Every ASCII ACE file that can be read can be converted", "statement": "ascii_to_binary converts every ASCII ACE file that Library reads, also if it ends with a blank line.", "quantifier": "every readable file", "why_tests_cant": "all files", "anchors": ["ASAPy/data/ace.py: ascii_to_binary", "ASAPy/data/ace.py: Library._read_ascii"]}
{"id": "C76", "title": "Numbers below 1e-100 in ASCII ACE files are read exactly", "statement": "NJOY writes numbers with three-digit exponents without the letter E. Library reads the exact value of every number of the XSS array, with or without the letter, wherever it stands.", "quantifier": "every array of numbers, every subset of them without the letter", "why_tests_cant": "all subsets and positions", "anchors": ["ASAPy/data/ace.py: Library._read_ascii"]}
{"id": "C77", "title": "Linearization keeps the given points and meets the tolerance", "statement": "Whenever linearize(x, f, tolerance) returns, and it does for every continuous f without zeros and positive tolerance, it returns increasing points including all the given ones, with the values of f there, such that halfway between any two neighbouring points linear interpolation is within the tolerance of f.", "quantifier": "every function and every grid", "why_tests_cant": "all functions", "anchors": ["ASAPy/data/grid.py: linearize"]}
{"id": "C78", "title": "The reactions of an ACE table are loaded as they are on the file", "statement": "If IncidentNeutron.from_ace loads a table, the editor's get_energy and get_sigma of every MT in the table's reaction list (gas production MT 201-218, damage MT 444 and the absorption MT 101 apart) return the part of the energy grid starting at the reaction's threshold point, in eV, and the table's cross sections, negative ones as zero. If an MT is listed twice the last one counts.", "quantifier": "every table, every number of reactions and energies, every threshold", "why_tests_cant": "all layouts of the XSS array and all lists of MTs", "anchors": ["ASAPy/data/neutron.py: IncidentNeutron.from_ace", "ASAPy/data/reaction.py: Reaction.from_ace", "ASAPy/AceIO.py: AceEditor.get_sigma"]}
{"id": "C79", "title": "Total, elastic and absorption cross sections are those of the main block", "statement": "If a table is loaded and does not list MT 1, 2 or 101 among its reactions, get_sigma(1), get_sigma(2) and get_sigma(101) return the total, elastic (negative ones as zero) and absorption cross sections of the table's main block, on its whole energy grid in eV; MT 101 exists if the absorption is not zero everywhere.", "quantifier": "every table", "why_tests_cant": "all tables", "anchors": ["ASAPy/data/neutron.py: IncidentNeutron.from_ace", "ASAPy/data/reaction.py: Reaction.from_ace"]}
{"id": "C80", "title": "Nu-bar is the total nu of the table", "statement": "If a table with a fission reaction has prompt and total nu, the total one tabulated with not all values the same, get_energy(452) and get_sigma(452) return its energies in eV and its values.", "quantifier": "every table, every number of interpolation regions and points", "why_tests_cant": "all tables", "anchors": ["ASAPy/data/reaction.py: _get_fission_products_ace", "ASAPy/data/function.py: Tabulated1D.from_ace", "ASAPy/AceIO.py: AceEditor.get_nu_distro"]}
{"id": "C81", "title": "The fission spectrum is that of the table", "statement": "If the neutrons of the fission reaction have a tabulated distribution (law 4) without discrete lines and the first nu is that of prompt neutrons, get_energy(1018) and get_sigma(1018) return for every incident energy the outgoing energies in eV and the probability densities per eV.", "quantifier": "every table, every number of incident energies and points", "why_tests_cant": "all tables", "anchors": ["ASAPy/data/energy_distribution.py: ContinuousTabular.from_ace", "ASAPy/data/angle_energy.py: AngleEnergy.from_ace", "ASAPy/AceIO.py: AceEditor.get_chi_distro"]}
{"id": "C82", "title": "Every MT the editor lists can be read", "statement": "For every MT in all_mts of an editor of a loaded table, get_energy and get_sigma return.", "quantifier": "every table that loads, every MT listed", "why_tests_cant": "all tables", "anchors": ["ASAPy/AceIO.py: AceEditor.__init__", "ASAPy/AceIO.py: AceEditor.get_sigma", "ASAPy/data/neutron.py: IncidentNeutron.from_ace"]}
{"id": "C83", "title": "A truncated ASCII ACE file is not read as a shorter table", "statement": "Every table Library returns for an ASCII file has exactly as many XSS numbers as its NXS array says.", "quantifier": "every file, complete or cut off anywhere, every set of names", "why_tests_cant": "all points where a file can be cut off", "anchors": ["ASAPy/data/ace.py: Library._read_ascii"]}
{"id": "C84", "title": "Written numbers are read again with eleven decimals", "statement": "Every finite number written by WriteAce (format '.11E') is read by the number parser of the ACE reader as a number within 5e-12 of it, relative.", "quantifier": "every finite number", "why_tests_cant": "all numbers, including those just below a power of ten", "anchors": ["ASAPy/AceIO.py: WriteAce.format_mcnp", "ASAPy/data/ace.py: Library._read_ascii"]}
{"id": "C85", "title": "The file write_ace writes is an ACE file", "statement": "Library reads the file WriteAce.write_ace writes: one table, with the header's name, weights, temperature, NXS and JXS, and the values written, however many there are and whether or not the last line is full.", "quantifier": "every number of values above four, every header as NJOY writes it", "why_tests_cant": "all numbers of values", "anchors": ["ASAPy/AceIO.py: WriteAce.write_ace", "ASAPy/data/ace.py: Library._read_ascii"]}
{"id": "C86", "title": "A sample file holds the sampled table", "statement": "If every array a sample replaces occurs, when its turn comes, only at its place in the file (or first at its place, where one occurrence is to be replaced) and the arrays do not overlap, the ACE reader reads from the sample's file the original table with the sampled values, rounded to twelve digits, at the places of the replaced arrays, and exactly the original values everywhere else.", "quantifier": "every file, every list of sampled MTs", "why_tests_cant": "all tables and samples", "anchors": ["ASAPy/XsecSampler.py: write_sampled_data", "ASAPy/AceIO.py: WriteAce", "ASAPy/data/ace.py: Library"]}
{"id": "C87", "title": "A sample file can be loaded by the editor and gives the sampled values", "statement": "If the sample's file as above is loaded again (the replaced values not being part of the table's structure), get_sigma returns for a replaced MT the rounded sampled values (negative ones as zero, except for total and absorption), for every other MT the original values, and get_energy the original energies.", "quantifier": "every table, every sample", "why_tests_cant": "all tables and samples", "anchors": ["ASAPy/XsecSampler.py: write_sampled_data", "ASAPy/AceIO.py: AceEditor", "ASAPy/data/neutron.py: IncidentNeutron.from_ace"]}
{"id": "C88", "title": "From relative samples to the cross sections of the written file", "statement": "For the loaded file of a sample, at every energy in group g where the original cross section is positive, the cross section of a sampled MT is the original one times the sampled relative value of g, within 5e-12 relative; outside the groups it is the original one.", "quantifier": "every table, every sample, every group structure, every energy", "why_tests_cant": "the whole path through sampling, writing, reading and loading", "anchors": ["ASAPy/XsecSampler.py: write_sampled_data", "ASAPy/XsecSampler.py: map_groups_to_continuous", "ASAPy/AceIO.py: AceEditor", "ASAPy/AceIO.py: WriteAce"]}
{"id": "C89", "title": "Loaded tables are well formed", "statement": "If from_ace loads a table with a non-empty energy grid and no empty reaction, every MT of the result occurs once, none is 452 or 1018, and every reaction has a non-empty lin-lin cross section with one value per energy at the table's temperature.", "quantifier": "every table", "why_tests_cant": "all tables; C01-C11 and C34 rest on it", "anchors": ["ASAPy/data/neutron.py: IncidentNeutron.from_ace", "ASAPy/data/reaction.py: Reaction.from_ace"]}
{"id": "C90", "title": "Missing sums of levels are added when a table is loaded", "statement": "If a table lists partial reactions of (n,2n), (n,p), (n,d), (n,t), (n,He3) or (n,alpha) but not the sum, the editor lists the sum; its energies are those of the grid from the lowest threshold of the parts on, and at each of them its value is the sum of the values of the parts.", "quantifier": "every table, every set of listed partial reactions and thresholds", "why_tests_cant": "all tables", "anchors": ["ASAPy/data/neutron.py: IncidentNeutron.from_ace", "ASAPy/data/neutron.py: IncidentNeutron._get_redundant_reaction", "ASAPy/AceIO.py: AceEditor.get_sigma"]}
{"id": "C91", "title": "The editor's data change only through its methods", "statement": "Whatever a caller does with arrays in place - those they passed to set_sigma, those they got from get_sigma or get_energy - get_sigma and get_energy return what the calls of the editor's methods alone lead to, with the values the arrays had at the time of the calls.", "quantifier": "every history of calls and of changes of arrays in place", "why_tests_cant": "all interleavings of calls and changes through shared references", "anchors": ["ASAPy/AceIO.py: AceEditor.get_sigma", "ASAPy/AceIO.py: AceEditor.set_sigma", "ASAPy/AceIO.py: AceEditor.get_energy", "ASAPy/AceIO.py: AceEditor.get_nu_distro", "ASAPy/AceIO.py: AceEditor.apply_sum_rules"]}
{"id": "C92", "title": "An interrupted run damages nothing and can be repeated", "statement": "If a run of the sampler is interrupted at any point, or processes are killed at any time, also while writing, then the base ACE file and all files that are no outputs are as before and every output is as before or a beginning of its text; running again to the end, with any number of processes, leaves the files an uninterrupted run leaves.", "quantifier": "every crash point of every schedule, every number of processes", "why_tests_cant": "all crash points and interleavings", "anchors": ["ASAPy/XsecSampler.py: write_sampled_data", "ASAPy/XsecSampler.py: main program", "ASAPy/AceIO.py: WriteAce.write_ace"]}
{"id": "C93", "title": "Files left by an interrupted run are complete", "statement": "Every sample file an interrupted run has created is a complete sample file.", "quantifier": "every crash point of every schedule", "why_tests_cant": "all crash points", "anchors": ["ASAPy/XsecSampler.py: write_sampled_data", "ASAPy/AceIO.py: WriteAce.write_ace"]}
{"id": "C94", "title": "A run writes the requested samples", "statement": "A run of the sampler for n samples that ends without error leaves exactly the ACE files of samples 0 to n-1, each computed from the sample of that number of every sampled MT, and a csv file for every MT.", "quantifier": "every store, every list of MTs, all drawn values, every number of processes and schedule", "why_tests_cant": "all draws and schedules", "anchors": ["ASAPy/XsecSampler.py: main program", "ASAPy/XsecSampler.py: sample_xsec", "ASAPy/XsecSampler.py: write_sampled_data"]}
{"id": "C95", "title": "Runs for different nuclides do not overwrite each other's files", "statement": "The output files of a run of the sampler for one nuclide are not output files of a run for another nuclide in the same directory.", "quantifier": "all pairs of nuclides, all samples and MTs", "why_tests_cant": "all names", "anchors": ["ASAPy/XsecSampler.py: main program", "ASAPy/data/ace.py: get_metadata"]}
{"id": "C96", "title": "Covariances are found under the key they were stored under", "statement": "The key under which EndfToCov stores the covariances of a nuclide is the one XsecSampler uses to load them, and different nuclides have different keys.", "quantifier": "all nuclides", "why_tests_cant": "all nuclides", "anchors": ["ASAPy/EndfToCov.py: main program", "ASAPy/XsecSampler.py: main program", "ASAPy/AsapyCovStorage.py: add_corr_to_store"]}
{"id": "C97", "title": "External programs are run to their end", "statement": "If a program, given the commands as its standard input, ends, then run_program (and njoy.run) with these commands returns after the program has ended, having received its complete output; it raises CalledProcessError with status and output if the status is not 0, and only then.", "quantifier": "every program, all commands, every interleaving of the two processes, every capacity of the pipes", "why_tests_cant": "all schedules of two processes connected by bounded pipes", "anchors": ["ASAPy/EndfToCov.py: run_program", "ASAPy/njoy.py: run"]}
{"id": "C98", "title": "A run of EndfToCov stores exactly the requested reactions", "statement": "After a run of EndfToCov, the store holds for each requested reaction (all of MF 33 if none is named; for fissionable targets also nu-bar and the fission spectrum) the correlation and the standard deviations of the file boxer2mat has written for it, if that has data; everything else in the store is as before.", "quantifier": "all evaluations, all requests, all contents of the matrix files and of the store", "why_tests_cant": "all combinations of good and bad files", "anchors": ["ASAPy/EndfToCov.py: main program", "ASAPy/EndfToCov.py: process_cov_to_h5", "ASAPy/EndfToCov.py: run_cover_chain"]}
{"id": "C99", "title": "Requests that cannot be met are rejected before anything is written", "statement": "If the evaluation has no covariances of cross sections, or if one of the reactions asked for is not among them, EndfToCov ends with an error, runs nothing and leaves all stores as they are; no other request is rejected.", "quantifier": "all evaluations and requests", "why_tests_cant": "all requests", "anchors": ["ASAPy/EndfToCov.py: main program"]}
{"id": "C100", "title": "Evaluating a table at a list is evaluating it at each element", "statement": "A tabulated function called with a list of numbers returns the list of the values it returns for each of the numbers alone.", "quantifier": "all tables, all lists of integers and floats", "why_tests_cant": "all lists", "anchors": ["ASAPy/data/function.py: Tabulated1D.__call__"]}
{"id": "C101", "title": "Sums of functions are the sums of their values", "statement": "The function returned by sum_functions has, at every argument, the sum of the values of the functions given; tables that are not lin-lin are refused.", "quantifier": "all lists of tables and polynomials, all arguments", "why_tests_cant": "all real arguments, all grids", "anchors": ["ASAPy/data/function.py: sum_functions"]}
{"id": "C102", "title": "Recoverable and total energy of fission are the sums of their components", "statement": "At every energy E: recoverable is the sum of all components but the neutrinos, total is recoverable plus neutrinos; q_recoverable and q_total are less by E; q_prompt is fragments plus prompt neutrons plus prompt photons minus E.", "quantifier": "all components (tables and polynomials), all energies", "why_tests_cant": "all functions and energies", "anchors": ["ASAPy/data/fission_energy.py: FissionEnergyRelease"]}
{"id": "C103", "title": "The components of the energy released by fission are those of the file", "statement": "FissionEnergyRelease.from_endf gives, for every component, the polynomial of the file's coefficients (those of second order in eV), for a single coefficient the energy dependence of Sher and Beck, and the table if the file has one.", "quantifier": "all MT 458 sections, all yields nu, all energies", "why_tests_cant": "all coefficients, orders and tables", "anchors": ["ASAPy/data/fission_energy.py: FissionEnergyRelease.from_endf"]}
{"id": "C104", "title": "A piecewise function uses each function on its own interval", "statement": "Regions1D evaluates function i for arguments between the i-th and the (i+1)-th limit.", "quantifier": "all functions, breakpoints and arguments", "why_tests_cant": "all arguments", "anchors": ["ASAPy/data/function.py: Regions1D"]}
{"id": "C105", "title": "The scores that order the samples have the correlations asked for", "statement": "The scores by whose ranks sample_with_corr orders the samples have the correlation coefficients of the matrix given.", "quantifier": "all correlation matrices, numbers of samples and random permutations", "why_tests_cant": "all matrices and permutations", "anchors": ["ASAPy/CovManipulation.py: sample_with_corr", "ASAPy/CovManipulation.py: col_independent_matrix"]}
{"id": "C106", "title": "Samples are stratified", "statement": "Every sampled column has exactly one value in each of the n intervals of equal probability of its distribution, whatever the correlations.", "quantifier": "all means, deviations, correlations, numbers of samples, random numbers", "why_tests_cant": "all random numbers and distributions", "anchors": ["ASAPy/CovManipulation.py: sample_with_corr", "ASAPy/CovManipulation.py: lhs_normal_sample", "ASAPy/CovManipulation.py: lhs_uniform_sample"]}
{"id": "C107", "title": "The sample type decides distribution and correlation, and all samples asked for are delivered", "statement": "Types are read without regard to case and others are refused; the uncorrelated types do not depend on the stored correlations; as many samples are delivered as asked for.", "quantifier": "all types, means, deviations, correlations, random numbers", "why_tests_cant": "all random numbers", "anchors": ["ASAPy/XsecSampler.py: XsecSampler.sample", "ASAPy/XsecSampler.py: sample_xsec", "ASAPy/CovManipulation.py: sample_with_corr"]}
{"id": "C108", "title": "Angular distributions are those of the ACE file", "statement": "AngleDistribution.from_ace gives the incident energies in eV and at each of them the distribution of the file: isotropic, 32 bins of equal probability as a histogram with these probabilities, or the table; a table with negative densities is refused.", "quantifier": "all tables, energies, bins and tables of cosines", "why_tests_cant": "all contents of the block", "anchors": ["ASAPy/data/angle_distribution.py: AngleDistribution.from_ace"]}
{"id": "C109", "title": "Energy distributions with parameters are those of the ACE file, in eV", "statement": "AngleEnergy.from_ace reads the Maxwell, evaporation, Watt, level, discrete photon and n-body laws with the parameters of the file, energies in eV; the parameter functions have at E eV the value of the file at E MeV; laws that are not supported are refused.", "quantifier": "all tables, laws, parameters and energies", "why_tests_cant": "all contents of the block", "anchors": ["ASAPy/data/angle_energy.py: AngleEnergy.from_ace", "ASAPy/data/energy_distribution.py: MaxwellEnergy.from_ace", "ASAPy/data/energy_distribution.py: WattEnergy.from_ace", "ASAPy/data/energy_distribution.py: LevelInelastic.from_ace"]}
{"id": "C110", "title": "Tabulated energy distributions are those of the ACE file, in eV", "statement": "Laws 4, 44 and 61 are read with all incident energies, interpolation regions, discrete lines, densities in 1/eV, Kalbach-Mann parameters and tables of cosines of the file.", "quantifier": "all tables, incident energies, spectra with or without lines", "why_tests_cant": "all contents of the block", "anchors": ["ASAPy/data/energy_distribution.py: ContinuousTabular.from_ace", "ASAPy/data/kalbach_mann.py: KalbachMann.from_ace", "ASAPy/data/correlated.py: CorrelatedAngleEnergy.from_ace"]}
{"id": "C111", "title": "Delayed neutrons add up to the delayed nu of the file", "statement": "Fission has a product for each group of precursors, with its decay rate in 1/s and its spectrum; the yields of the groups add up to the delayed nu of the file if the probabilities add up to one.", "quantifier": "all tables, groups, probabilities and energies", "why_tests_cant": "all groups and energies", "anchors": ["ASAPy/data/reaction.py: _get_fission_products_ace"]}
{"id": "C112", "title": "Nu is that of the ACE file", "statement": "The prompt or total yield of fission neutrons at E eV is the polynomial or table of the file at E MeV; one nu is total without and prompt with delayed neutrons, two are prompt and total.", "quantifier": "all tables, polynomials, tables of nu and energies", "why_tests_cant": "all coefficients and energies", "anchors": ["ASAPy/data/reaction.py: _get_fission_products_ace"]}
{"id": "C113", "title": "The neutrons of a reaction have the yield, the frame and all distributions of the ACE file", "statement": "Reaction.from_ace gives the yield of the TYR block, the frame by its sign, and all distributions of the chain in the order of the file with their applicability and angular distribution; it ends unless the chain runs in a ring.", "quantifier": "all tables, reactions and chains", "why_tests_cant": "chains of any length", "anchors": ["ASAPy/data/reaction.py: Reaction.from_ace"]}
{"id": "C114", "title": "Photons have the yields and distributions of the ACE file", "statement": "The photons of a reaction are those of the file whose number names it, in the order of the file; their yield is that of the file, or the production cross section divided by that of the reaction where this is positive; spectra and angular distributions are those of the file.", "quantifier": "all tables, photons, cross sections and energies", "why_tests_cant": "all photons and grids", "anchors": ["ASAPy/data/reaction.py: _get_photon_products_ace"]}
{"id": "C115", "title": "Probability tables are those of the ACE file", "statement": "ProbabilityTables.from_ace gives energies and heating in eV, all other rows and flags as in the file, nothing if there is no block, and refuses interpolation rules other than 2 and 5.", "quantifier": "all tables, numbers of energies and columns", "why_tests_cant": "all sizes", "anchors": ["ASAPy/data/urr.py: ProbabilityTables.from_ace"]}
{"id": "C116", "title": "The NJOY input says exactly what was asked for", "statement": "For all switches, temperatures, group bounds, weights and reactions to plot, NJOY reads the text make_njoy_run writes as the modules asked for and no others, each with its tapes, the material, the error, all temperatures, all group bounds, the weight spectrum, the reactions and suffixes; the tapes on the cards connect the modules.", "quantifier": "all options that can be written on cards, any number of temperatures, groups, weights and reactions", "why_tests_cant": "all combinations and sizes; the text is not parsed by any test", "anchors": ["ASAPy/njoy.py: make_njoy_run", "ASAPy/njoy.py: _TEMPLATE_RECONR", "ASAPy/njoy.py: _TEMPLATE_GROUPR_FOR_XSEC", "ASAPy/njoy.py: _TEMPLATE_ERRORR_33", "ASAPy/njoy.py: _TEMPLATE_ACER"]}
{"id": "C117", "title": "Each temperature has its own ACE table and file", "statement": "make_njoy_run asks for one ACE table per temperature, with a suffix of its own (as the number NJOY reads), and saves it and its xsdir line in files of its own named after the temperature.", "quantifier": "all lists of temperatures, file names and other options", "why_tests_cant": "any number of temperatures", "anchors": ["ASAPy/njoy.py: make_njoy_run"]}
{"id": "C118", "title": "The NJOY input for thermal scattering says what the ENDF files say", "statement": "make_ace_thermal writes an input that NJOY reads as RECONR, BROADR, two THERMR runs and an ACER run per temperature, with the name, all ZAIDs and the mixing number of the scatterer, its number of principal atoms, highest energy and kind of elastic scattering as in the thermal file, at the temperatures given or else at all temperatures of that file; a scatterer that is not known is refused.", "quantifier": "all ENDF sections (7,2) and (7,4), scatterers, temperatures given or not", "why_tests_cant": "all contents of the sections and numbers of temperatures", "anchors": ["ASAPy/njoy.py: make_ace_thermal", "ASAPy/njoy.py: _THERMAL_DATA", "ASAPy/njoy.py: _THERMAL_TEMPLATE_THERMR", "ASAPy/njoy.py: _THERMAL_TEMPLATE_ACER"]}
{"id": "C119", "title": "A run of NJOY leaves exactly its results", "statement": "If run returns, every output file asked for holds the tape NJOY wrote in this run, in a directory that held exactly the input tapes, and no other file but the input file has changed; if an input file is missing or NJOY fails, run raises and no file but the input file has changed.", "quantifier": "all file systems, programs that change only their directory, input and output tapes", "why_tests_cant": "all contents of the file system before the run and all behaviours of the program", "anchors": ["ASAPy/njoy.py: run"]}
{"id": "C120", "title": "Matrix files come from the tape NJOY wrote in this run", "statement": "If the chain of NJOY and boxer2mat returns, every file <name>_<mt>_matrix.txt is the matrix boxer2mat makes for that MT out of the tape NJOY wrote in this run for that name, whatever files there were before, and no file but the inputs, the listing, the tapes and the matrix files has changed.", "quantifier": "all file systems, programs that change only their directory, tapes and MTs", "why_tests_cant": "all contents of the file system before the run, all numbers of tapes and MTs", "anchors": ["ASAPy/EndfToCov.py: _run_cover_chain", "ASAPy/EndfToCov.py: run_program"]}
{"id": "C121", "title": "Distributions survive export to and import from HDF5", "statement": "Writing a distribution of secondary particles (uncorrelated, Kalbach-Mann, correlated, n-body; with any energy distribution that can be written) to an HDF5 group and reading the group gives the same distribution, a uniform distribution as a table of the same density.", "quantifier": "all distributions, numbers of incoming energies, of discrete lines, of outgoing energies and of cosines", "why_tests_cant": "all shapes of the packed tables and their offsets", "anchors": ["ASAPy/data/angle_energy.py: AngleEnergy", "ASAPy/data/uncorrelated.py: UncorrelatedAngleEnergy", "ASAPy/data/kalbach_mann.py: KalbachMann.to_hdf5, from_hdf5", "ASAPy/data/correlated.py: CorrelatedAngleEnergy.to_hdf5, from_hdf5", "ASAPy/data/energy_distribution.py: to_hdf5, from_hdf5", "ASAPy/data/angle_distribution.py: to_hdf5, from_hdf5"]}
{"id": "C122", "title": "Products and reactions survive export to and import from HDF5", "statement": "Writing a product or a reaction to an HDF5 group and reading the group gives the same particle, mode, decay constant, yield, distributions and probabilities, and the same MT, Q value, frame, flags, products and cross sections at every temperature, whatever the order in which the file lists its items.", "quantifier": "all products and reactions, numbers of products, distributions and temperatures, orders of the items in the file", "why_tests_cant": "all numbers of items and all orders in which they are listed", "anchors": ["ASAPy/data/product.py: Product.to_hdf5, from_hdf5", "ASAPy/data/reaction.py: Reaction.to_hdf5, from_hdf5"]}
{"id": "C123", "title": "Nuclides survive export to and import from HDF5", "statement": "Exporting a nuclide to HDF5 and importing it gives the same Z, A, isomeric state, mass, temperatures, energies, non-redundant reactions (and the redundant ones that are written) with products, cross sections and total neutron yields, probability tables and fission energy release, whatever the order in which the file lists its items, and nothing else but redundant sums.", "quantifier": "all nuclides, numbers of temperatures, reactions and products, orders of the items in the file", "why_tests_cant": "all combinations of optional parts, all numbers of items and all orders", "anchors": ["ASAPy/data/neutron.py: IncidentNeutron.export_to_hdf5, from_hdf5", "ASAPy/data/urr.py: ProbabilityTables.to_hdf5, from_hdf5", "ASAPy/data/fission_energy.py: FissionEnergyRelease.to_hdf5, from_hdf5"]}
{"id": "C124", "title": "Redundant reactions of an imported nuclide are the sums of their parts", "statement": "After from_hdf5 every redundant reaction that is not in the file exists if and only if one of its parts exists in the nuclide returned, and its cross section at every temperature is the sum of the cross sections of all its parts in the nuclide returned.", "quantifier": "all files, all sets of reactions in them", "why_tests_cant": "all subsets of reactions that a file can hold", "anchors": ["ASAPy/data/neutron.py: IncidentNeutron.from_hdf5", "ASAPy/data/endf.py: SUM_RULES"]}
{"id": "C125", "title": "A thermal scattering table is read as it says", "statement": "ThermalScattering.from_ace gives, at the temperature of the table, the inelastic cross section, the outgoing energies and cosines (or continuous spectra with equally likely cosines) and the elastic cross section and cosines that the table has, in eV, and applies to the nuclides the table names; the name given by the caller is used.", "quantifier": "all thermal tables, numbers of energies and cosines, kinds of secondary neutrons and of elastic scattering", "why_tests_cant": "all layouts and sizes of the blocks of a table", "anchors": ["ASAPy/data/thermal.py: ThermalScattering.from_ace"]}
{"id": "C126", "title": "Coherent elastic scattering is the sum of the structure factors below the energy", "statement": "Calling a CoherentElastic object at an energy E gives the sum of the structure factors of all Bragg edges below E, divided by E.", "quantifier": "all sets of Bragg edges and all energies", "why_tests_cant": "all energies between, at and above all edges", "anchors": ["ASAPy/data/thermal.py: CoherentElastic.__call__"]}
{"id": "C127", "title": "Thermal scattering materials and nuclides are named correctly", "statement": "get_thermal_name gives for every listed table name, in any letter case, the one material that lists it, keeps the names of materials and otherwise gives a material or c_ and the name. The nuclides of the data are exactly the isotopes named for H and Fe and the element and all its natural isotopes for others, each once.", "quantifier": "all names, all tables of ZAIDs", "why_tests_cant": "all names and all lists of ZAIDs", "anchors": ["ASAPy/data/thermal.py: get_thermal_name, ThermalScattering.from_ace", "ASAPy/data/data.py: NATURAL_ABUNDANCE"]}
{"id": "C128", "title": "All temperatures of a thermal library are kept", "statement": "from_njoy and add_temperature_from_ace keep every table of the material at its own temperature, in order, change nothing at other temperatures, and refuse tables of other materials.", "quantifier": "all numbers of tables and all temperatures", "why_tests_cant": "all lists of tables and temperatures", "anchors": ["ASAPy/data/thermal.py: ThermalScattering.add_temperature_from_ace, from_njoy, temperatures"]}
{"id": "C129", "title": "Thermal scattering data survive export to and import from HDF5", "statement": "Exporting thermal scattering data to HDF5 and importing them gives the same name, weight, nuclides, kind of secondary neutrons and temperatures and the same cross sections and distributions at every temperature, whatever the order in which the file lists its items.", "quantifier": "all thermal scattering data, numbers of temperatures, orders of the items in the file", "why_tests_cant": "all combinations of parts, all numbers of temperatures and all orders", "anchors": ["ASAPy/data/thermal.py: ThermalScattering.export_to_hdf5, from_hdf5, CoherentElastic.to_hdf5, from_hdf5"]}
{"id": "C130", "title": "Step plots show each group's value over the group's energies", "statement": "The covariance plot and the plot of relative deviations show, at every energy inside a group, the group's variance in the store, the variance of its samples and its relative deviation in percent, and nothing else.", "quantifier": "all group structures, deviations and samples, all energies", "why_tests_cant": "all numbers and widths of groups, all energies inside them", "anchors": ["ASAPy/XsecSampler.py: plot_sampled_info, plot_xsec"]}
{"id": "C131", "title": "Correlation maps show the correlation of the two groups at the two energies", "statement": "At energies inside two groups the first correlation map shows their correlation in the store, and the second one the correlation coefficient of their samples (0 for groups that were not sampled).", "quantifier": "all group structures, correlation matrices and samples, all pairs of energies", "why_tests_cant": "all sizes, orders of groups and pairs of energies", "anchors": ["ASAPy/XsecSampler.py: plot_sampled_info"]}
{"id": "C132", "title": "Colours of the correlation maps cover all values", "statement": "Both correlation maps have the same colour range, and it contains every value shown, with either choice of range.", "quantifier": "all correlation matrices and samples, both settings of use_max_range_for_correlation_plot", "why_tests_cant": "all matrices with entries between -1 and 1 and all samples", "anchors": ["ASAPy/XsecSampler.py: plot_sampled_info"]}
{"id": "C133", "title": "The sampled curves shown are those that are written", "statement": "The plot of sampled cross sections shows the cross section of the ACE file and, for each of the first ten samples, the cross section that is put into the ACE file of that sample.", "quantifier": "all ACE tables, reactions, group structures and samples", "why_tests_cant": "all numbers of samples and energies, zeros and special reactions included", "anchors": ["ASAPy/XsecSampler.py: plot_sampled_info, get_mt_from_ace, write_sampled_data"]}
{"id": "C134", "title": "No plot overwrites another", "statement": "The plots of different nuclides, reactions and kinds have different file names, in the folder that was given.", "quantifier": "all nuclides, MTs and folders", "why_tests_cant": "all numbers and names", "anchors": ["ASAPy/XsecSampler.py: plot_sampled_info, plot_xsec"]}
{"id": "C135", "title": "A batch job runs the program with the options it was given", "statement": "With --writepbs the job file runs the sampler with the same ACE file, store, number of samples, MTs, distribution, oversampling and plot options, on the number of processes asked for. A command line with a misspelt option is refused.", "quantifier": "all accepted command lines", "why_tests_cant": "all combinations, orders and abbreviations of options, all lists of MTs", "anchors": ["ASAPy/XsecSampler.py: create_argparser, __main__"]}
{"id": "C136", "title": "Sequences of decay modes are decoded", "statement": "The code of successive decay modes of an evaluation (RTYP) is decoded into the names of the modes in their order.", "quantifier": "all codes of the ENDF-6 manual: any sequence of modes, gamma radiation and unknown modes included", "why_tests_cant": "all sequences of modes of any length", "anchors": ["ASAPy/data/decay.py: get_decay_modes"]}
{"id": "C137", "title": "The daughter of a decay has the charge and mass that are left", "statement": "DecayMode.daughter is the name of the nuclide with the charge and mass number of the parent less what the modes carry away, in the state given; a daughter that is no element is an error.", "quantifier": "all parents in all states, all sequences of modes", "why_tests_cant": "all nuclides and all sequences of modes", "anchors": ["ASAPy/data/decay.py: DecayMode.daughter"]}
{"id": "C138", "title": "Decay data are read in full and into their places", "statement": "Decay(ev) has the nuclide, half-life, average energies, spin, parity, modes with energies and branching ratios, and the discrete and continuous spectra by radiation type that section (8, 457) of the evaluation holds.", "quantifier": "all sections of the ENDF-6 format: stable and radioactive nuclides, any number of modes, spectra and lines", "why_tests_cant": "all counts of records and all combinations of optional parts", "anchors": ["ASAPy/data/decay.py: Decay.__init__", "ASAPy/data/endf.py: get_head_record, get_list_record, get_tab1_record"]}
{"id": "C139", "title": "Fission yields are given by energy and nuclide", "statement": "FissionProductYields(ev) has for each energy the independent and the cumulative yields (with uncertainties) by the name of the product, at the same energies.", "quantifier": "all evaluations with one or both sections of yields, any number of energies and products", "why_tests_cant": "all numbers of energies and products, all nuclides and states", "anchors": ["ASAPy/data/decay.py: FissionProductYields.__init__"]}
{"id": "C140", "title": "The decay constant belongs to the half-life", "statement": "After the half-life half of the nuclei are left when they decay with decay_constant, and its relative uncertainty is that of the half-life.", "quantifier": "all positive half-lives and uncertainties", "why_tests_cant": "real numbers", "anchors": ["ASAPy/data/decay.py: Decay.decay_constant"]}
{"id": "C141", "title": "A library of data files survives its XML file", "statement": "DataLibrary.from_xml(path) of what export_to_xml(path) wrote has the same entries in the same order, with the same types and materials, and paths that lead to the same files, also when it is read in another working directory; get_by_material finds the file registered first that has the material.", "quantifier": "all lists of files with relative and absolute paths, all places of the XML file, all working directories, all histories of registrations", "why_tests_cant": "all paths and working directories", "anchors": ["ASAPy/data/library.py: DataLibrary.export_to_xml, from_xml, get_by_material, register_file"]}
{"id": "C142", "title": "Nested sequences are accepted exactly when they are as documented", "statement": "check_iterable_type ends for every value, accepts it when all items are of the expected type within min_depth to max_depth layers, and raises a TypeError otherwise.", "quantifier": "all values: sequences nested in any way, texts, items of any type; all depths", "why_tests_cant": "all shapes of trees of any depth", "anchors": ["ASAPy/data/checkvalue.py: check_iterable_type"]}
{"id": "C143", "title": "A CheckedList holds only elements of its type", "statement": "After any history of operations all elements of a CheckedList are of the expected type, operations that are rejected leave it as it was, and those accepted add what they are given in order.", "quantifier": "all histories of construction, append, insert, deletion, += and +, with lists and iterators", "why_tests_cant": "all histories of operations", "anchors": ["ASAPy/data/checkvalue.py: CheckedList, check_type"]}
{"id": "C144", "title": "Equality of data objects is that of their attributes", "statement": "a == b holds exactly when both are of one class and all attributes are equal, whichever stands first.", "quantifier": "all objects of classes that inherit EqualityMixin", "why_tests_cant": "all classes, attributes and values", "anchors": ["ASAPy/data/mixin.py: EqualityMixin.__eq__"]}
{"id": "C145", "title": "Breit-Wigner and Reich-Moore ranges are read completely", "statement": "A single-level, multi-level Breit-Wigner or Reich-Moore range read by from_endf has the limits, the target spin, the channel and scattering radius of each l that NRO, NAPS and APL ask for, the Q-values, and one row for each resonance of each l in the order of the file, with the competitive width that the total width leaves.", "quantifier": "all ranges: any number of l but zero, any number of resonances, all radii (constant, from the mass, tabulated)", "why_tests_cant": "all combinations of flags and all numbers of blocks and resonances", "anchors": ["ASAPy/data/resonance.py: MultiLevelBreitWigner.from_endf, SingleLevelBreitWigner, ReichMoore.from_endf"]}
{"id": "C146", "title": "Unresolved ranges are read completely", "statement": "An unresolved range has the rows of all l, J and energies in the order of the file, in each of the three forms of the format; where only fission widths depend on energy there is a table for each energy with the width at that energy.", "quantifier": "all unresolved ranges: any number of l, J and energies", "why_tests_cant": "all forms and all numbers of blocks", "anchors": ["ASAPy/data/resonance.py: Unresolved.from_endf"]}
{"id": "C147", "title": "R-matrix limited ranges are read completely", "statement": "A range of the R-matrix limited format has all particle pairs, and all spin groups with spin, parity, the channels with the pair each one names, and all resonances with the width of every channel under the name of its reaction.", "quantifier": "all ranges: any number of pairs, groups, channels (also more than one line) and resonances", "why_tests_cant": "all numbers of channels and resonances", "anchors": ["ASAPy/data/resonance.py: RMatrixLimited.from_endf"]}
{"id": "C148", "title": "All resonance ranges of a nuclide are found", "statement": "Resonances.from_endf has the ranges of all isotopes in the order of the file, each read in its format; resolved is the only resolved range and unresolved the first unresolved one, None where there is none.", "quantifier": "all sections (2, 151): any number of isotopes and ranges in any mixture of formats", "why_tests_cant": "all mixtures of formats", "anchors": ["ASAPy/data/resonance.py: Resonances.from_endf, Resonances.resolved, Resonances.unresolved, _FORMALISMS"]}
{"id": "C149", "title": "Covariances of resonance parameters: the general format", "statement": "A range of file 32 with LCOMP = 1 gives the resonances of the file in its order, with l and competitive width of the resonance of file 2 with the same energy, and the covariance matrix of all their parameters: the upper triangle of the file.", "quantifier": "all ranges of the general format: any number of resonances, parameters and blocks, any order of the resonances, Breit-Wigner and Reich-Moore", "why_tests_cant": "all numbers of resonances and parameters, all matrices", "anchors": ["ASAPy/data/resonance_covariance.py: MultiLevelBreitWignerCovariance.from_endf, ReichMooreCovariance.from_endf, _add_file2_contributions"]}
{"id": "C150", "title": "Covariances of resonance parameters: the compact format", "statement": "A range of file 32 with LCOMP = 2 gives the resonances of the file, and the covariance of two parameters is the product of their uncertainties and of the correlation of the INTG record.", "quantifier": "all ranges of the compact format: any number of resonances, three or four (Breit-Wigner), three to five (Reich-Moore) parameters", "why_tests_cant": "all numbers of resonances and parameters, all uncertainties and correlations", "anchors": ["ASAPy/data/resonance_covariance.py: MultiLevelBreitWignerCovariance.from_endf, ReichMooreCovariance.from_endf"]}
{"id": "C151", "title": "Covariances of resonance parameters: the compatible format", "statement": "A range of file 32 with LCOMP = 0 gives the resonances of the file and a matrix with the six variances and covariances of each resonance that the file has, and 0 for different resonances.", "quantifier": "all ranges of the compatible format: any number of l and resonances", "why_tests_cant": "all numbers of l and resonances, all values", "anchors": ["ASAPy/data/resonance_covariance.py: MultiLevelBreitWignerCovariance.from_endf, SingleLevelBreitWignerCovariance, ReichMooreCovariance.from_endf"]}
{"id": "C152", "title": "Sampled resonance parameters belong to their resonances", "statement": "sample asks for draws with the parameters of the resonances as the mean and their covariance matrix; each draw gives the range of file 2 with the numbers drawn for each resonance in its row, the total width the sum of the partial widths, and what is not drawn as it was.", "quantifier": "all ranges and draws: any number of resonances and parameters, all matrices, any generator", "why_tests_cant": "all numbers of resonances and all draws", "anchors": ["ASAPy/data/resonance_covariance.py: ResonanceCovarianceRange.sample"]}
{"id": "C153", "title": "A subset of resonances keeps their covariances", "statement": "subset gives the resonances whose value of a column lies within the bounds, in order, with the covariances of exactly these resonances; it can be taken again.", "quantifier": "all ranges, columns and bounds", "why_tests_cant": "all numbers of resonances, all patterns of resonances kept and dropped", "anchors": ["ASAPy/data/resonance_covariance.py: ResonanceCovarianceRange.subset"]}
{"id": "C154", "title": "All covariance ranges of file 32 are found with their ranges of file 2", "statement": "ResonanceCovariances.from_endf has one covariance range for each resolved range of the section, each with the range of file 2 of the same isotope and number.", "quantifier": "all sections (32, 151): any number of isotopes and ranges in any mixture of formats", "why_tests_cant": "all mixtures of formats", "anchors": ["ASAPy/data/resonance_covariance.py: ResonanceCovariances.from_endf, _FORMALISMS"]}
{"id": "C155", "title": "Angles of a reaction read from an evaluation", "statement": "The angular distribution read from a section of file 4 has the incident energies of the section in order, each with the distribution the section gives there: isotropic, Legendre coefficients with the zeroth 1 in front, or a table.", "quantifier": "all sections of file 4: every representation, any number of energies, coefficients and points, with or without the old transformation matrix", "why_tests_cant": "all numbers of energies, coefficients and points", "anchors": ["ASAPy/data/angle_distribution.py: AngleDistribution.from_endf", "ASAPy/data/endf.py: get_tab1_record, get_tab2_record, get_list_record"]}
{"id": "C156", "title": "Energies of neutrons read from an evaluation", "statement": "Each partial distribution of a section of file 5 gives a distribution of the class of its law with the parameters of the section, with its probability, in the order of the section.", "quantifier": "all sections of file 5: any number of partial distributions, laws 1, 5, 7, 9, 11 and 12, any tables", "why_tests_cant": "all numbers of parts and tables", "anchors": ["ASAPy/data/energy_distribution.py: EnergyDistribution.from_endf, ArbitraryTabulated.from_endf, GeneralEvaporation.from_endf, MaxwellEnergy.from_endf, Evaporation.from_endf, WattEnergy.from_endf, MadlandNix.from_endf"]}
{"id": "C157", "title": "Products of a reaction read from an evaluation", "statement": "Each subsection of file 6 gives a product with the name of the particle, its yield and the distribution of its law with the numbers of the file.", "quantifier": "all sections of file 6: any number of products, every law, any number of energies, cosines and coefficients", "why_tests_cant": "all numbers of products and tables", "anchors": ["ASAPy/data/reaction.py: _get_products", "ASAPy/data/correlated.py: CorrelatedAngleEnergy.from_endf", "ASAPy/data/kalbach_mann.py: KalbachMann.from_endf", "ASAPy/data/laboratory.py: LaboratoryAngleEnergy.from_endf", "ASAPy/data/nbody.py: NBodyPhaseSpace.from_endf"]}
{"id": "C158", "title": "Neutrons of fission read from an evaluation", "statement": "Fission has a prompt neutron with the prompt yield and a delayed neutron for each group with the decay constant, the spectrum and the yield of the group, which is the delayed yield times the fraction of the group; the total yield is derived.", "quantifier": "all evaluations of fission: any yields, groups and spectra", "why_tests_cant": "all numbers of groups and all tables", "anchors": ["ASAPy/data/reaction.py: _get_fission_products_endf"]}
{"id": "C159", "title": "States of nuclides produced by a reaction", "statement": "Each state of files 9 and 10 that file 8 announces becomes the yield of the product with its name, or a further product; the yield of file 10 is the ratio of its cross section and that of the reaction.", "quantifier": "all evaluations and reactions: any number of states, any tables", "why_tests_cant": "all numbers of states and products, all tables", "anchors": ["ASAPy/data/reaction.py: _get_activation_products"]}
{"id": "C160", "title": "Photons of a reaction read from an evaluation", "statement": "Each photon of file 12 gives a photon with its multiplicity as the yield, each photon of file 13 one with the ratio of its cross section and that of the reaction, with the energy the file gives.", "quantifier": "all sections of files 12 and 13: any number of photons, any tables", "why_tests_cant": "all numbers of photons and all tables", "anchors": ["ASAPy/data/reaction.py: _get_photon_products_endf"]}
{"id": "C161", "title": "A reaction read from an evaluation", "statement": "Reaction.from_endf gives the cross section and Q of file 3 and the products of files 4, 5 and 6 with the frame, the multiplicity and the distributions the evaluation says, then the states and photons.", "quantifier": "all evaluations and reactions: any combination of files", "why_tests_cant": "all combinations of sections, all tables", "anchors": ["ASAPy/data/reaction.py: Reaction.from_endf"]}
{"id": "C162", "title": "A nuclide read from an evaluation", "statement": "IncidentNeutron.from_endf gives the name, numbers and mass of the target, the resonances of file 2 and exactly the reactions of file 3; chances of fission without their own spectrum have that of fission; resonances are added to elastic scattering, capture and fission; its temperatures can be asked for.", "quantifier": "all evaluations: any directory, any sections", "why_tests_cant": "all directories and sections", "anchors": ["ASAPy/data/neutron.py: IncidentNeutron.from_endf, IncidentNeutron.temperatures"]}
{"id": "C163", "title": "Adding elastic data at 0 K changes nothing else", "statement": "Adding the elastic cross section at 0 K sets the energies and the elastic cross section at 0 K, to the same energies, and nothing else; a call that raises leaves the nuclide as it was, and data that are there are only replaced if that is asked for.", "quantifier": "all nuclides, evaluations and flags", "why_tests_cant": "all nuclides and evaluations, including those that cannot be used", "anchors": ["ASAPy/data/neutron.py: IncidentNeutron.add_elastic_0K_from_endf"]}
{"id": "C164", "title": "The table at 0 K follows the cross section", "statement": "The table stored covers each resolved range from limit to limit with values of the cross section; linear interpolation reproduces it within a thousandth at the points of a finer grid with a thousand energies in equal ratios and the points around the resonances, and in the middles of that grid.", "quantifier": "all lists of ranges, all resonances and all cross sections", "why_tests_cant": "all functions and all numbers of ranges and resonances", "anchors": ["ASAPy/data/neutron.py: IncidentNeutron.add_elastic_0K_from_endf", "ASAPy/data/grid.py: linearize, thin"]}
{"id": "C165", "title": "Points around resonances do not overlap", "statement": "The points added around one resonance do not overlap with the points around another, and include the energy of the resonance.", "quantifier": "all lists of resonances with their widths", "why_tests_cant": "all numbers, energies and widths of resonances", "anchors": ["ASAPy/data/neutron.py: IncidentNeutron.add_elastic_0K_from_endf"]}
{"id": "C166", "title": "Resonances are added to the background once", "statement": "A cross section with resonances is the background plus the cross section of the resolved range at the energy, and the background outside; an array of energies gives the values of its elements.", "quantifier": "all ranges, energies, arrays and backgrounds", "why_tests_cant": "all energies, including limits of ranges, and all lists of ranges", "anchors": ["ASAPy/data/function.py: ResonancesWithBackground.__call__"]}
{"id": "C167", "title": "Checked values are within the limits checked", "statement": "A value that passes a check of bounds, length, membership, element types or file version satisfies it, and a value that satisfies it passes.", "quantifier": "all numbers, NaN and infinities included, all lengths, lists, arrays and attributes of files", "why_tests_cant": "all numbers including special ones, all lengths and limits", "anchors": ["ASAPy/data/checkvalue.py: check_type, check_length, check_value, check_less_than, check_greater_than, check_filetype_version"]}
{"id": "C168", "title": "Automatic identifiers are fresh", "statement": "Objects whose id is assigned automatically get an integer that no object of their class has got and that is not reserved for it, since the last reset, however creations, explicit ids, reservations and set_auto_id are mixed; unless set_auto_id was called it is the smallest positive one. Ids of a class are different as long as no warning was issued and there was no reset. An explicit id in use is given again with a warning only, and a reset makes ids repeat silently.", "quantifier": "every history of assignments, reservations, resets and calls of set_auto_id, every number of classes", "why_tests_cant": "invariant over all histories and a loop without a bound", "anchors": ["ASAPy/data/mixin.py:IDManagerMixin", "ASAPy/data/mixin.py:reset_auto_ids", "ASAPy/data/mixin.py:reserve_ids", "ASAPy/data/mixin.py:set_auto_id"]}
{"id": "C169", "title": "Atomic masses and weights are those of the tables", "statement": "The atomic mass of a nuclide is the one in the mass file, for a natural mixture (C0, Zn0, Pt0, Os0, Tl0) the mean over its natural isotopes; capitals and excited states do not matter, an unknown name is a KeyError, and earlier calls change nothing.", "quantifier": "all mass files with entries in their columns, all tables of abundances, all names and all histories of calls", "why_tests_cant": "all files, names and histories of calls", "anchors": ["ASAPy/data/data.py: atomic_mass, _ATOMIC_MASS, NATURAL_ABUNDANCE"]}
{"id": "C170", "title": "The weight of an element is the mean of its natural isotopes", "statement": "The atomic weight of an element is the mean of the masses of its natural isotopes, and of no other element's, by their fractions; an element without natural isotopes is a ValueError; the mass of a natural mixture is the weight of the element.", "quantifier": "all mass files, tables of abundances and names of elements", "why_tests_cant": "all tables and names", "anchors": ["ASAPy/data/data.py: atomic_weight, atomic_mass"]}
{"id": "C171", "title": "The density of water is that of the formulation", "statement": "For every temperature and pressure of liquid water the density returned is positive and the one the IAPWS-IF97 formulation defines through the derivative of the Gibbs free energy; outside the region exactly the warnings of the limits passed are given.", "quantifier": "all temperatures and pressures", "why_tests_cant": "all real temperatures and pressures, a two-dimensional continuum with heavy cancellation between terms", "anchors": ["ASAPy/data/data.py: water_density"]}
{"id": "C172", "title": "Atomic relaxation data of an evaluation are kept by subshell", "statement": "Reading an atomic relaxation evaluation gives, for every subshell of section (28, 533), its binding energy, number of electrons and transitions (secondary and tertiary subshell, energy, probability) in order, under the name of the subshell; an evaluation without that section is refused, as are unknown subshells and negative energies or numbers of electrons.", "quantifier": "all sections with any number of subshells and transitions", "why_tests_cant": "any number of subshells with any number of transitions each, in any order", "anchors": ["ASAPy/data/photon.py: AtomicRelaxation.from_endf, _subshell"]}
{"id": "C173", "title": "Atomic relaxation data of an ACE table are kept by subshell", "statement": "Reading an ACE photoatomic table gives for every subshell its binding energy in eV, its number of electrons and each transition with its own probability, although the table has running sums; the result is the one of an evaluation with the same subshells.", "quantifier": "all tables with any number of subshells and transitions", "why_tests_cant": "any number of subshells and transitions; positions in the table depend on all numbers before", "anchors": ["ASAPy/data/photon.py: AtomicRelaxation.from_ace"]}
{"id": "C174", "title": "Photon reactions of an ACE table have its cross sections and form factors", "statement": "Coherent, incoherent, pair production and photoelectric reactions read from a photoatomic table have the energies in eV and the cross sections whose logarithms the table holds, and the form factors on the points of the table (new tables) or on the standard points (old tables); other reactions are refused.", "quantifier": "all tables, all energies and cross sections", "why_tests_cant": "any number of energies, any positions of the blocks, all positive cross sections", "anchors": ["ASAPy/data/photon.py: PhotonReaction.from_ace"]}
{"id": "C175", "title": "All photon data of an ACE table are read", "statement": "Reading a photoatomic table gives the atomic number of its name, the four reactions, the Compton profile of every shell with its electrons and binding energy in eV, and if the table has subshells their photoelectric cross sections, binding energies and the relaxation data.", "quantifier": "all tables with any number of shells, subshells and energies, all elements", "why_tests_cant": "any number of shells, profiles of different lengths, subshells in any order", "anchors": ["ASAPy/data/photon.py: IncidentPhoton.from_ace"]}
{"id": "C176", "title": "Photon reactions of an evaluation have the data of their sections", "statement": "Every reaction of file 23 is read in the order of the evaluation, with the cross section, the form factor of file 27, the binding energy and fluorescence yield of subshells and the anomalous scattering factors of coherent scattering; what has no section is left out.", "quantifier": "all photoatomic evaluations", "why_tests_cant": "any set of sections with any tables", "anchors": ["ASAPy/data/photon.py: PhotonReaction.from_endf, IncidentPhoton.from_endf"]}
{"id": "C177", "title": "Photon data of the accompanying files do not depend on what was read before", "statement": "Every call of IncidentPhoton.from_endf gives for its element the Compton profiles, stopping powers and bremsstrahlung cross sections of the files beside the module, in eV and b, whatever elements were read before in the same process, failed calls included; elements without data are refused.", "quantifier": "all sequences of calls for all elements", "why_tests_cant": "state shared by all calls of a process; arbitrary histories of calls including failures", "anchors": ["ASAPy/data/photon.py: IncidentPhoton.from_endf, _COMPTON_PROFILES, _STOPPING_POWERS, _BREMSSTRAHLUNG"]}
{"id": "C178", "title": "The HDF5 file of photon data has every cross section at every energy", "statement": "IncidentPhoton.export_to_hdf5 adds to a file without the element a group under its symbol with the energies of all reactions, each once and in ascending order, and the values of the coherent, incoherent, photoelectric and (if present) pair production cross sections at all of them; what else the file holds stays; complete data are always written, data without one of the three reactions every element has are refused.", "quantifier": "all photon data, all files", "why_tests_cant": "any number of reactions on different grids, any content of the file", "anchors": ["ASAPy/data/photon.py: IncidentPhoton.export_to_hdf5"]}
{"id": "C179", "title": "The HDF5 file of photon data has every shell with its relaxation data", "statement": "For every subshell with a photoionization cross section the file lists the shell and has the cross section from its threshold on with the place of the threshold among the energies, the binding energy and number of electrons, and the transitions with the numbers of the shells; a shell unknown to the relaxation data is refused.", "quantifier": "all photon data with any shells and transitions", "why_tests_cant": "any set and order of shells, any thresholds and grids", "anchors": ["ASAPy/data/photon.py: IncidentPhoton.export_to_hdf5, _SUBSHELLS"]}
{"id": "C180", "title": "Cross sections in the HDF5 file of photon data are those of the data also between the energies", "statement": "Linear interpolation between the values written at neighbouring common energies gives the cross section of the photon data at every energy of its range.", "quantifier": "all cross sections and energies", "why_tests_cant": "all energies between all grid points of arbitrary tables", "anchors": ["ASAPy/data/photon.py: IncidentPhoton.export_to_hdf5", "ASAPy/data/function.py: Tabulated1D.__call__"]}
{"id": "C181", "title": "The integrated form factor in the HDF5 file is the integral of the squared form factor", "statement": "The file has, at the squares of the momenta, the integral of the square of the form factor over Z up to there.", "quantifier": "all form factors", "why_tests_cant": "tables of any length", "anchors": ["ASAPy/data/photon.py: IncidentPhoton.export_to_hdf5", "ASAPy/data/function.py: Tabulated1D.integral"]}
{"id": "C182", "title": "The HDF5 file of photon data keeps profiles, stopping powers and bremsstrahlung", "statement": "Compton profiles are written with their momenta, electrons and binding energies; stopping powers and bremsstrahlung cross sections are written as they are; what the data do not have is left out.", "quantifier": "all photon data", "why_tests_cant": "any number of shells and points", "anchors": ["ASAPy/data/photon.py: IncidentPhoton.export_to_hdf5"]}
{"id": "C183", "title": "Outside their limits windowed multipole data give zero", "statement": "WindowedMultipole(E, T) gives zero for the three cross sections at every energy below E_min and above E_max, whatever the data and the temperature are.", "quantifier": "all data, energies and temperatures", "why_tests_cant": "all real energies and all data, also those that do not fit together", "anchors": ["ASAPy/data/multipole.py: WindowedMultipole._evaluate"]}
{"id": "C184", "title": "Within their limits windowed multipole data give cross sections", "statement": "For data whose windows span the range from E_min to E_max every energy from E_min to E_max is in one window, and the cross sections at it can be had at every temperature; a negative temperature is refused.", "quantifier": "all data that fit together, all energies and temperatures", "why_tests_cant": "the window is found by rounding a quotient of square roots; all energies including the limits", "anchors": ["ASAPy/data/multipole.py: WindowedMultipole._evaluate"]}
{"id": "C185", "title": "At 0 K windowed multipole data give the polynomial and the resonances of the window", "statement": "At 0 K and an energy E within the limits each cross section times E is the polynomial of the window, with its coefficients in ascending powers of sqrt(E), plus the sum over the poles p of the window of Re(i r / (sqrt(E) - p)) with the residue r of the channel; without fission data the fission cross section is zero.", "quantifier": "all data that fit together, all energies whose square root is no pole", "why_tests_cant": "any number of windows, poles and terms, all real energies", "anchors": ["ASAPy/data/multipole.py: WindowedMultipole._evaluate"]}
{"id": "C186", "title": "At a temperature windowed multipole data give Doppler broadened cross sections", "statement": "At a temperature T the resonances of the window are those at 0 K averaged over the Maxwell distribution of the target at T, and the polynomial is broadened likewise if the window says so and otherwise left as it is.", "quantifier": "all data that fit together with poles off the real axis, all energies and temperatures", "why_tests_cant": "an equation between a special function of complex numbers and integrals over all velocities", "anchors": ["ASAPy/data/multipole.py: WindowedMultipole._evaluate, _faddeeva, _broaden_wmp_polynomials"]}
{"id": "C187", "title": "The broadened terms of the polynomial are the free gas integrals", "statement": "Times the energy, the k-th number of _broaden_wmp_polynomials is the integral of u^k over the free gas kernel (that of SIGMA1): exactly up to six widths of the Maxwell distribution; beyond, odd terms are exact and even ones too large by at most 2 exp(-36) times a moment of the gas at rest. All are positive.", "quantifier": "all energies, temperatures and orders", "why_tests_cant": "a recursion of any length against integrals", "anchors": ["ASAPy/data/multipole.py: _broaden_wmp_polynomials"]}
{"id": "C188", "title": "_faddeeva is the integral of its documentation", "statement": "Off the real axis, above and below, _faddeeva(z) is i/pi times the integral of exp(-t^2)/(z - t), with wofz(z) = exp(-z^2) erfc(-iz).", "quantifier": "all complex numbers that are not real", "why_tests_cant": "all points of two half planes", "anchors": ["ASAPy/data/multipole.py: _faddeeva"]}
{"id": "C189", "title": "Cross sections of an array of energies are those of its elements", "statement": "WindowedMultipole called with an array of energies gives for each energy what it gives for this energy alone.", "quantifier": "all data, all arrays of energies in any order", "why_tests_cant": "depends on the order of the energies in arrays of any length", "anchors": ["ASAPy/data/multipole.py: WindowedMultipole.__call__"]}
{"id": "C190", "title": "Cross sections at low temperatures go to those at 0 K", "statement": "As the temperature goes to zero the cross sections at an energy go to those calculated at 0 K.", "quantifier": "all data that fit together with poles off the real axis, all energies", "why_tests_cant": "a limit; the program calculates the two in different ways", "anchors": ["ASAPy/data/multipole.py: WindowedMultipole._evaluate"]}
{"id": "C191", "title": "Windowed multipole data survive export to HDF5 and reading", "statement": "What export_to_hdf5 writes comes back from from_hdf5 the same, from the group of the nuclide and from the name of a file that holds only this nuclide; what else is in the file stays and a nuclide in the file is not overwritten.", "quantifier": "all data that fit together, all files", "why_tests_cant": "any number of windows, poles, terms and other groups", "anchors": ["ASAPy/data/multipole.py: WindowedMultipole.from_hdf5, export_to_hdf5"]}
{"id": "C192", "title": "Windowed multipole data that do not fit together are refused", "statement": "from_hdf5 refuses files without a version or of another major version, and data whose numbers are out of range or whose arrays do not fit together.", "quantifier": "all files", "why_tests_cant": "all combinations of shapes", "anchors": ["ASAPy/data/multipole.py: WindowedMultipole.from_hdf5 and the setters"]}
{"id": "C193", "title": "Penetration, shift and phase of the hard sphere follow their recursions", "statement": "For every l the penetration and the shift used in reconstruction are those of the recursion from l to l + 1 that starts with rho and 0, the penetration is positive, and the phase shift gives the same scattering as that of the recursion.", "quantifier": "all l and all values of rho", "why_tests_cant": "five closed forms, with quotients whose denominators have zeros, against a recursion, at all real numbers", "anchors": ["ASAPy/data/reconstruct.pyx: penetration_shift, phaseshift"]}
{"id": "C194", "title": "Multi-level Breit-Wigner cross sections are not negative", "statement": "For a multi-level Breit-Wigner range reconstruct(E) returns elastic, capture and fission cross sections that are not negative, at every positive energy and for every set of resonances with possible spins and widths that are not negative.", "quantifier": "all ranges with sound data, all energies", "why_tests_cant": "interference of any number of resonances at all real energies", "anchors": ["ASAPy/data/reconstruct.pyx: reconstruct_mlbw", "ASAPy/data/resonance.py: MultiLevelBreitWigner._prepare_resonances, ResonanceRange.reconstruct"]}
{"id": "C195", "title": "Single-level Breit-Wigner cross sections are the sums of the formulas", "statement": "For a single-level Breit-Wigner range the elastic cross section is potential scattering, once for each l, plus the levels with their interference, capture and fission are the sums over the levels; none is negative.", "quantifier": "all ranges with sound data, all energies", "why_tests_cant": "sums over any number of resonances at all real energies; resonances are grouped by l in a dict", "anchors": ["ASAPy/data/reconstruct.pyx: reconstruct_slbw", "ASAPy/data/resonance.py: MultiLevelBreitWigner._prepare_resonances, ResonanceRange.reconstruct"]}
{"id": "C196", "title": "The two Breit-Wigner formalisms agree where they should", "statement": "For the same parameters a single-level and a multi-level Breit-Wigner range give the same capture and fission cross sections, and the same elastic cross section if no two resonances share l and J.", "quantifier": "all ranges with sound data, all energies", "why_tests_cant": "two different programs, any number of resonances", "anchors": ["ASAPy/data/reconstruct.pyx: reconstruct_slbw, reconstruct_mlbw"]}
{"id": "C197", "title": "Reich-Moore cross sections are not negative and obey unitarity", "statement": "For a Reich-Moore range elastic, capture and fission cross sections are not negative and keep within the limits of unitarity, for every set of resonances, also with fission widths of either sign; the matrix to be inverted is never singular.", "quantifier": "all ranges with sound data, all energies", "why_tests_cant": "inverses of complex matrices that are sums over any number of resonances", "anchors": ["ASAPy/data/reconstruct.pyx: reconstruct_rm", "ASAPy/data/resonance.py: ReichMoore._prepare_resonances, ResonanceRange.reconstruct"]}
{"id": "C198", "title": "Competitive widths are taken into account", "statement": "A Breit-Wigner range whose resonances have competitive widths can be reconstructed.", "quantifier": "all Breit-Wigner ranges", "why_tests_cant": "any number of resonances, of which any may have such a width", "anchors": ["ASAPy/data/resonance.py: MultiLevelBreitWigner._prepare_resonances"]}
{"id": "C199", "title": "Every resonance of a Reich-Moore range counts", "statement": "Leaving out a resonance with a neutron width changes the cross sections.", "quantifier": "all Reich-Moore ranges and their resonances", "why_tests_cant": "the channels are chosen by comparing real numbers; all spins and any number of resonances", "anchors": ["ASAPy/data/reconstruct.pyx: reconstruct_rm"]}
{"id": "C200", "title": "Reconstruction at an array of energies is reconstruction at each of them", "statement": "reconstruct(energies) returns arrays whose items are the cross sections at the energies; without the compiled extension it raises RuntimeError whatever it is given.", "quantifier": "all ranges and all arrays", "why_tests_cant": "arrays of any length and of either type of number", "anchors": ["ASAPy/data/resonance.py: ResonanceRange.reconstruct"]}
{"id": "C201", "title": "What reconstruct returns does not depend on the history", "statement": "However a range and its copies have been copied, reconstructed and changed before, reconstruct returns the cross sections of the parameters the range has.", "quantifier": "all histories of a range and its copies", "why_tests_cant": "sequences of any length; resonances are prepared once and copies share the dict", "anchors": ["ASAPy/data/resonance.py: ResonanceRange.__copy__, ResonanceRange.reconstruct, _prepare_resonances"]}
{"id": "C202", "title": "The three formalisms agree for isolated resonances of s waves", "statement": "For resonances with l = 0 without fission, at most one for each J, Reich-Moore, multi-level and single-level Breit-Wigner ranges give the same cross sections; where a phase shift is below 3e-4, where the code uses a series for Reich-Moore, elastic scattering and capture agree within 5e-14 of the limit of unitarity.", "quantifier": "all such ranges, all energies", "why_tests_cant": "three different programs, one of them with complex exponentials and quotients", "anchors": ["ASAPy/data/reconstruct.pyx: reconstruct_slbw, reconstruct_mlbw, reconstruct_rm"]}
{"id": "C203", "title": "Reich-Moore cross sections are those of the collision matrix", "statement": "Reconstructing Reich-Moore resonances at an energy gives pi/k^2 times the sum, over the l of the resonances and over every pair of channel spin and total angular momentum J that can be formed, of the statistical factor times |1 - U_nn|^2 for elastic scattering, |U_nf|^2 of the two fission channels for fission, and what is missing from unitarity for capture. U is the collision matrix of the resonances that feed the channel: those of its l and J, where for l > 0 the sign of J tells the channel spin. Where a phase shift is small the difference is at most 5e-14 of the limit of unitarity.", "quantifier": "all targets, any number of resonances of any l up to 4 with widths of both signs for fission, all positive energies", "why_tests_cant": "the code inverts a complex 3 by 3 matrix in real arithmetic and loops over channel spins and J separately; a comparison with one evaluation does not see a channel left out or counted twice", "anchors": ["ASAPy/data/reconstruct.pyx: reconstruct_rm"]}
{"id": "C204", "title": "Multi-level Breit-Wigner elastic scattering is ENDF's formula", "statement": "Reconstructing multi-level Breit-Wigner resonances gives, for elastic scattering, pi/k^2 times the sum, over the l of the resonances, of the ENDF formula: over every J that l and the channel spins can form, (1 - cos 2phi - sum over the resonances of this l and J)^2 + (sin 2phi + ...)^2, and 2 D_l (1 - cos 2phi) for the J that are formed twice. Capture and fission are sums over the resonances.", "quantifier": "all targets of half-integer spin, any number of resonances for each l and J, all positive energies", "why_tests_cant": "the sums are kept in arrays indexed by J - Jmin with a number of J computed from l and the spin; a wrong index or size shows for some spins only", "anchors": ["ASAPy/data/reconstruct.pyx: reconstruct_mlbw"]}
{"id": "C205", "title": "The wave number is that of the format", "statement": "The wave number the reconstruction uses is 2.196771e-3 A/(A+1) sqrt|E|, the one of the ENDF format, within two parts in 100000, also for bound levels at negative energies.", "quantifier": "all masses and energies", "why_tests_cant": "a wrong unit or a wrong frame cancels in most ratios", "anchors": ["ASAPy/data/reconstruct.pyx: wave_number"]}
{"id": "C206", "title": "Cross sections of an evaluation are the formulas with the numbers of its file 2", "statement": "For every evaluation whose section of resonance parameters is as the format says, the cross section of elastic scattering, capture and fission at an energy is the background plus, for each resolved range that covers the energy, the formula of its formalism (single-level or multi-level Breit-Wigner, Reich-Moore) evaluated with the spin, mass, radii and resonances written in the file.", "quantifier": "all files with any number of isotopes, ranges, l and resonances, all energies", "why_tests_cant": "it links the reader of records to the numerical kernels: columns in another order, a radius of the wrong kind or the widths of another l give smooth, plausible values", "anchors": ["ASAPy/data/resonance.py: Resonances.from_endf, ResonanceRange.reconstruct", "ASAPy/data/reconstruct.pyx", "ASAPy/data/function.py: ResonancesWithBackground.__call__"]}
{"id": "C207", "title": "An array of energies gives the values of its items", "statement": "Calling a cross section with resonances with an array of energies gives the array of the values it gives for each of them, in order, wherever the calls for single energies return values.", "quantifier": "all arrays of floats, all lists of ranges and backgrounds", "why_tests_cant": "energies within a range are picked out, evaluated and put back: the positions must agree for every pattern of energies inside and outside of ranges that may overlap or touch", "anchors": ["ASAPy/data/function.py: ResonancesWithBackground.__call__", "ASAPy/data/resonance.py: ResonanceRange.reconstruct"]}
{"id": "C208", "title": "Isotopes of an element count by their abundance", "statement": "For an evaluation of an element, the resonances of its isotopes contribute to cross sections by the abundances given in the file.", "quantifier": "all files with any number of isotopes, all energies", "why_tests_cant": "evaluations of elements are rare, so that tests hardly ever meet an abundance other than 1", "anchors": ["ASAPy/data/resonance.py: Resonances.from_endf", "ASAPy/data/function.py: ResonancesWithBackground.__call__"]}
{"id": "C209", "title": "make_ace leaves one ACE file and one xsdir file with all temperatures, in order", "statement": "If make_ace returns, NJOY has run once on the input that the options ask for, the ACE file holds the tables of all temperatures one after the other, in the order of the temperatures, the xsdir file holds their entries in the same order, the files of the single temperatures are gone, and no other file has changed. If NJOY fails the exception reaches the caller.", "quantifier": "all option sets, lists of temperatures, NJOY programs that write in their own directory, and file systems", "why_tests_cant": "NJOY is an external program and the file system any: tests see one NJOY, one order of tapes and a fresh directory", "anchors": ["ASAPy/data/njoy.py: make_ace, run"]}
{"id": "C210", "title": "Tables of make_ace carry the identifier of the nuclide", "statement": "NJOY labels a table with 1000 Z + A for the ground state and for all metastable states. In the ACE file the identifier is read back as the same nuclide in the same state, in either metastable scheme.", "quantifier": "all elements, mass numbers and metastable states, all texts of tables", "why_tests_cant": "the identifier is patched by column in text, for one in a thousand nuclides; exceptions of the schemes are a handful of nuclides", "anchors": ["ASAPy/data/njoy.py: make_ace", "ASAPy/data/ace.py: get_metadata"]}
{"id": "C211", "title": "add_temperature_from_ace adds the data of one temperature", "statement": "Adding a table of the same nuclide at another temperature adds this temperature, its energies, the cross sections of all of its reactions and its probability tables, and nothing else changes, also after any sequence of such calls; a table of another nuclide is a ValueError and changes nothing; a table at a temperature that is there changes nothing.", "quantifier": "all nuclides, all tables, all sequences of calls", "why_tests_cant": "tables at different temperatures differ in their reactions and round to names of temperatures that may collide", "anchors": ["ASAPy/data/neutron.py: IncidentNeutron.add_temperature_from_ace"]}
{"id": "C212", "title": "from_njoy gives the nuclide at all temperatures and at 0 K", "statement": "from_njoy returns the nuclide of the evaluation with the data of every table of the ACE file at its temperature, and the elastic cross section of the PENDF file at 0 K.", "quantifier": "all lists of readable tables of a nuclide at different temperatures", "why_tests_cant": "the first table is read in one scheme of identifiers and the others in another, which differ for two nuclides of thousands", "anchors": ["ASAPy/data/neutron.py: IncidentNeutron.from_njoy, add_temperature_from_ace, from_ace"]}
{"id": "C213", "title": "make_pendf and make_ace_thermal leave exactly their files", "statement": "If make_pendf returns, the PENDF file holds what one RECONR run on the evaluation wrote, and no other file has changed. If make_ace_thermal returns, the ACE and xsdir files hold the thermal tables and entries of all temperatures in order, and no other file has changed. Both return if the evaluations are there and NJOY succeeds.", "quantifier": "all options, NJOY programs that write in their own directory, and file systems", "why_tests_cant": "NJOY is an external program and the file system any", "anchors": ["ASAPy/data/njoy.py: make_pendf, make_ace_thermal, run"]}
{"id": "C214", "title": "Legendre expansions are what their coefficients say", "statement": "A Legendre distribution made from coefficients a has the value sum over l of (2 l + 1)/2 a_l P_l(mu) for every mu, gives the same coefficients back, integrates to a_0 over [-1, 1] and has a_k as k-th moment, 0 beyond the last; two expansions that agree on [-1, 1] have the same coefficients; no coefficients raise ValueError.", "quantifier": "every non-empty list of coefficients, every cosine, every moment", "why_tests_cant": "an identity of integrals and polynomials for every order; a test evaluates a few", "anchors": ["ASAPy/data/univariate.py:Legendre"]}
{"id": "C215", "title": "Angular distributions of an evaluation are normalised", "statement": "Every Legendre expansion read from file 4, or from file 6, integrates to 1 over [-1, 1] and its moments are the coefficients of the file. Holds for file 4; for LAW 2 of file 6 the integral is the first coefficient, for LAW 1 it is the probability of the outgoing energy, which is then counted twice.", "quantifier": "every section of file 4, every LAW 1 and LAW 2 distribution of file 6", "why_tests_cant": "must hold for every evaluation; a test has one file", "anchors": ["ASAPy/data/angle_distribution.py:AngleDistribution.from_endf", "ASAPy/data/uncorrelated.py", "ASAPy/data/correlated.py:CorrelatedAngleEnergy.from_endf", "ASAPy/data/reaction.py"]}
{"id": "C216", "title": "Attributes of distributions keep their constraints", "statement": "However a Tabular, Discrete, Maxwell or Watt distribution is made and whatever is assigned to it afterwards, accepted or refused, probabilities are not negative (unless a Tabular was made to ignore that), schemes are among the five, parameters are positive, and values that are accepted are kept. A Uniform with a < b becomes a histogram that integrates to 1. An iterator that can be run through once is kept empty, and the numbers of values and probabilities are not compared.", "quantifier": "every history of assignments with every kind of value", "why_tests_cant": "invariant over all histories", "anchors": ["ASAPy/data/univariate.py:Discrete", "ASAPy/data/univariate.py:Uniform.to_tabular", "ASAPy/data/univariate.py:Maxwell", "ASAPy/data/univariate.py:Watt", "ASAPy/data/univariate.py:Tabular"]}
{"id": "C217", "title": "Distributions can be read back from their XML elements", "statement": "The XML element of a Tabular, Discrete or Watt distribution tells its type and scheme, and its parameters are the words of one text: first the values, then the probabilities. This can be undone exactly if there are as many of both; otherwise two distributions have the same element.", "quantifier": "every distribution, every way to write numbers without blanks", "why_tests_cant": "a round trip for every list of numbers", "anchors": ["ASAPy/data/univariate.py:Tabular.to_xml_element", "ASAPy/data/univariate.py:Discrete.to_xml_element", "ASAPy/data/univariate.py:Watt.to_xml_element"]}
{"id": "C218", "title": "Indenting an XML tree keeps its content", "statement": "clean_indentation keeps tags, attributes, the order of subelements and every text that is not blank, indents every blank text inside the tree by its level, and doing it again with any width is the same as doing it once; get_text prefers an attribute, then the first subelement of the name, then the default. A subelement without text gives None in spite of a default.", "quantifier": "every XML tree, every level and width", "why_tests_cant": "induction over trees of any depth", "anchors": ["ASAPy/data/_xml.py:clean_indentation", "ASAPy/data/_xml.py:get_text"]}
{"id": "C219", "title": "Options for negative samples do what they say", "statement": "With set_neg_to_zero every drawn sample is returned in order with 0 for each negative value and all other values as drawn; if negative samples are removed (the default) the option changes nothing. With raise_on_bad_sample the call raises exactly when fewer samples without negative values than asked for were drawn.", "quantifier": "every matrix of drawn samples, all means, all combinations of the options", "why_tests_cant": "all patterns of signs", "anchors": ["ASAPy/XsecSampler.py: XsecSampler.sample", "ASAPy/XsecSampler.py: XsecSampler._sample_check"]}
{"id": "C220", "title": "The command line of EndfToCov is taken as it is written", "statement": "Every command line of one ENDF file and options with their values in any order is accepted; each option has the value given last and every other one its default, and the order does not matter where no option is given twice. Whatever is accepted names a group structure that exists and has the number of groups in its name, and a weight from 2 to 12; a command line with a misspelt option is refused. Different names, targets or structures have different stores.", "quantifier": "every list of options and values of any length", "why_tests_cant": "the lists of words have no bound; argparse treats -mts with any number of values", "anchors": ["ASAPy/EndfToCov.py: parse_args", "ASAPy/EndfToCov.py: __main__"]}
{"id": "C221", "title": "A library of ACE tables is read in the format it is in", "statement": "Opening a file as a library finds the tables of an ASCII file, and the tables of a binary file that ascii_to_binary has written, without being told the format.", "quantifier": "all ASCII files and all converted binary files, with any number of tables", "why_tests_cant": "the format is guessed from the bytes of the first ten lines, and the bytes of a binary file can be any", "anchors": ["ASAPy/data/ace.py: Library.__init__", "ASAPy/data/ace.py: ascii_to_binary"]}
{"id": "C222", "title": "A reaction an ACE table only has photons of is the sum of its parts", "statement": "A loaded table that lists levels of the inelastic scattering has the inelastic scattering (MT 4) as their sum, and every table of a nuclide with photons of MT 3 or MT 4 can be loaded.", "quantifier": "all tables, with any levels, photons and absorption", "why_tests_cant": "the sum is only made for MTs in the list of photons, after the reactions were read, and absorption is a variable that may not exist", "anchors": ["ASAPy/data/neutron.py: IncidentNeutron.from_ace", "ASAPy/data/neutron.py: IncidentNeutron.get_reaction_components"]}
{"id": "C223", "title": "A loaded table's temperature is named by the nearest kelvin", "statement": "IncidentNeutron.from_ace gives the table's temperature the name of the nearest whole number of kelvin; every reaction has its cross section at it and at no other, it is what AceEditor opens without a temperature argument, and tables with the same name differ by at most one kelvin.", "quantifier": "all ACE tables that can be loaded, with any temperature that is not negative", "why_tests_cant": "a rounded quotient of a number read from a file", "anchors": ["ASAPy/data/neutron.py: IncidentNeutron.from_ace", "ASAPy/data/reaction.py: Reaction.from_ace", "ASAPy/AceEditor.py: AceEditor.__init__"]}
{"id": "C224", "title": "Tabulated functions follow the interpolation law of each region", "statement": "Between two neighbouring points, beyond the tolerance at the ends, Tabulated1D follows the one ENDF interpolation law of the region the points belong to; made of points alone it is linear; within the tolerance it has the value of the end point.", "quantifier": "every table of any number of regions, every law and argument (positive data for the logarithmic laws)", "why_tests_cant": "the regions are found from breakpoints counted from 1 by a loop over all of them", "anchors": ["ASAPy/data/function.py: Tabulated1D.__init__", "ASAPy/data/function.py: Tabulated1D.__call__"]}
{"id": "C225", "title": "The sampler's covariance is that of the file", "statement": "For a BOXER file whose variances are those of its relative deviations, what process_cov_to_h5 stores and XsecSampler reads back gives, with calc_cov, the covariance of the file: relative covariance times the two cross sections. Groups without a cross section have variance 0.", "quantifier": "all BOXER files with falling bounds, any number of groups and any contents of the store", "why_tests_cant": "a chain of conversions through a file: covariance, correlation, repair of NaN, deviations and back", "anchors": ["ASAPy/XsecSampler.py: XsecSampler.calc_cov", "ASAPy/XsecSampler.py: load_zaid_mt", "ASAPy/EndfToCov.py: process_cov_to_h5"]}
{"id": "C226", "title": "Attributes of nuclides, reactions and products keep their constraints", "statement": "However an IncidentNeutron, Reaction, Product, DecayMode, ProbabilityTables or NBodyPhaseSpace is made and whatever is assigned to it afterwards, accepted or refused, each attribute with a check is as documented: exactly such values are accepted and read back, others raise a TypeError or ValueError and leave the object as it was. The attributes documented are there from the start.", "quantifier": "all histories of assignments of any values, accepted or refused", "why_tests_cant": "the histories and values have no bound", "anchors": ["ASAPy/data/neutron.py: IncidentNeutron.__init__, IncidentNeutron.urr, IncidentNeutron.resonance_covariance", "ASAPy/data/reaction.py: Reaction.__init__, Reaction.xs", "ASAPy/data/product.py: Product.__init__, Product.yield_", "ASAPy/data/decay.py: DecayMode.__init__, DecayMode.branching_ratio", "ASAPy/data/urr.py: ProbabilityTables.__init__", "ASAPy/data/nbody.py: NBodyPhaseSpace.__init__"]}
{"id": "C227", "title": "Attributes of distributions and atomic data keep their constraints", "statement": "The constructors of the energy and angle distributions (Maxwell, evaporation, Watt, Madland-Nix, discrete photon, level, continuous tabular, Kalbach-Mann, angle, uncorrelated), of FissionEnergyRelease, CoherentElastic, AtomicRelaxation, IncidentPhoton and PhotonReaction accept their arguments exactly if each is of the documented kind, and whatever is assigned afterwards, accepted or refused, every attribute stays so.", "quantifier": "all arguments and all histories of assignments of any values (iterators that can be run through once aside)", "why_tests_cant": "the histories and values have no bound", "anchors": ["ASAPy/data/energy_distribution.py: MaxwellEnergy, Evaporation, WattEnergy, MadlandNix, DiscretePhoton, LevelInelastic, ContinuousTabular", "ASAPy/data/kalbach_mann.py: KalbachMann.__init__", "ASAPy/data/angle_distribution.py: AngleDistribution.__init__", "ASAPy/data/uncorrelated.py: UncorrelatedAngleEnergy.__init__", "ASAPy/data/fission_energy.py: FissionEnergyRelease.__init__", "ASAPy/data/thermal.py: CoherentElastic.__init__", "ASAPy/data/photon.py: AtomicRelaxation.__init__, IncidentPhoton.__init__, PhotonReaction.__init__"]}
{"id": "C228", "title": "The covariance program stores what NJOY and boxer2mat make of this file", "statement": "If the command-line covariance program returns, then NJOY was run on commands that it reads as the processing of this material at the given temperature, groups and weights; for each reaction asked for, and nu-bar and the spectrum of fissionable targets, boxer2mat was run for this material and reaction on the tape of the right covariance file that NJOY made of this ENDF file; and either there were no data or the correlation and the standard deviations of its answer are in the store under 1000 Z + A and the reaction. Everything else in the stores is as it was.", "quantifier": "all ENDF files, evaluations, requests, stores, directories, and all programs NJOY and boxer2mat that are functions of their input", "why_tests_cant": "it composes the deck, two external programs, the files in the directory, the parser and the store, for any reactions and any earlier contents", "anchors": ["ASAPy/EndfToCov.py: main, run_cover_chain, _run_cover_chain, process_cov_to_h5", "ASAPy/njoy.py: get_mat_from_endf, make_njoy_run"]}
{"id": "C229", "title": "The covariance program stores the numbers of the BOXER file", "statement": "If the text of the covariance file that NJOY wrote has the group bounds, cross sections, relative standard deviations and covariances of a material and reaction, then boxer2mat with the input ASAPy gives it ends normally, and what it prints is read by ASAPy as these numbers as printed to four digits, in the order of ASAPy's groups. After a whole run of the covariance program the correlations and standard deviations of these numbers are in the store.", "quantifier": "all texts of BOXER files, materials, reactions, group counts, ways of printing, and for whole runs all ENDF files, requests and stores", "why_tests_cant": "it composes formatted reading and decompression in a Fortran program, its printing, ASAPy's parser, the covariance arithmetic and the store, for files of any size", "anchors": ["boxer2mat/boxer2mat.f: BOXR, SETFOR", "ASAPy/EndfToCov.py: main, run_cover_chain, _run_cover_chain, process_cov_to_h5"]}
{"id": "C230", "title": "The products of each reaction of an ACE table are its own", "statement": "Each reaction read from an ACE table has, after its neutrons (if the table says it has neutrons), one product for each of the photon productions that the table lists for its MT, in the order of the table and with the spectrum the table gives for it; a sum of reactions that is added because the table has photons for it has these photons and nothing else. The neutrons of a reaction other than fission have the spectra that the table gives for it.", "quantifier": "all ACE tables, reactions, lists of photon productions and spectra", "why_tests_cant": "the photons of a reaction are found by dividing each number of the photon list by 1000, and their spectra through three tables of places, for tables of any size", "anchors": ["ASAPy/data/reaction.py: _get_photon_products_ace, Reaction.from_ace", "ASAPy/data/neutron.py: IncidentNeutron.from_ace"]}
{"id": "C231", "title": "The sampler samples with the covariance of the BOXER file", "statement": "After the covariance program has returned, a sampler for the nuclide and any processed reaction opens on the store of the number of groups; its rows are the groups of the covariance tape from the highest to the lowest, with their bounds, cross sections and deviations, and the covariance it calculates for two groups is their correlation on the tape times their deviations. In the sampled ACE files each energy gets the relative value sampled for the group of the tape it lies in (a fission spectrum is normalised afterwards).", "quantifier": "all ENDF files, command lines, behaviours of NJOY, covariance tapes, numbers of groups and values", "why_tests_cant": "the statement spans two programs, a Fortran filter, a text format and a store, and holds for every number of groups and every value", "anchors": ["ASAPy/EndfToCov.py: run_cover_chain, process_cov_to_h5", "ASAPy/XsecSampler.py: XsecSampler.__init__, load_zaid_mt, calc_cov", "ASAPy/CovManipulation.py: correlation_to_cov"]}
{"id": "C232", "title": "A sampled fission spectrum is the original one times the values of the groups, normalised", "statement": "Take an ACE file open in the editor whose fission reaction has prompt outgoing energy distributions, each with as many pdf and cdf values as energies and no negative pdf value. Apply one sample of the fission spectrum (chi, 1018) with relative values that are not negative, for groups whose bounds are usable and whose lower end is no outgoing energy. If the last cdf value plus the change of the integral by right rectangles is positive, the sample is applied without an error. Every incoming energy and every outgoing energy stays. Every cdf ends in one. Every pdf is that of the file times the relative value of the group in which each outgoing energy lies (times one outside the groups), divided by one positive number per distribution. Other reactions that are no sums keep their values. The condition on the integral holds when the cdf of the file ends in the integral of its pdf, the energies increase, the relative values are positive and the pdf has a positive value after the first energy.", "quantifier": "every ACE table with a prompt spectrum, every state reached by edits, every group structure and sample", "why_tests_cant": "The grids of the file and the bounds of the groups are arbitrary, and each distribution has its own grid; the normalisation mixes the old cdf with the change of the pdf.", "anchors": ["ASAPy/XsecSampler.py: write_sampled_data, map_groups_to_continuous", "ASAPy/AceIO.py: AceEditor.set_chi_distro, AceEditor.get_chi_distro, AceEditor.set_sigma"]}
{"id": "C233", "title": "Sampled nu-bar and fission spectra are the original ones times the sampled values when the file of the sample is loaded again", "statement": "Let a sample of nu-bar (MT 452) or of the fission spectrum (MT 1018) of an ACE file be written, every replaced array being found, when its turn comes, at its own place and no replaced array being part of the structure of the table (lengths, locators, energies, laws). If the written file can be loaded, the loaded nu-bar has the original energies and, at each energy, the original value times the sampled relative value of its group (the original value outside the groups) with a relative error of at most 5e-12; the loaded spectra have the original energies and, up to one positive factor for each spectrum, the original densities times the sampled relative values, with the same error. Without the condition on the places this is false: if the new cumulated probabilities of one spectrum are the old ones of the next, the wrong one is replaced.", "quantifier": "all ACE files, tables of nu and spectra of any lengths, group structures and sampled values that are not negative", "why_tests_cant": "The locators, laws and places of the nu and spectrum blocks differ from file to file, and a value next to them overwritten by a text replacement would only show on some files; the claim is about every table.", "anchors": ["ASAPy/XsecSampler.py: write_sampled_data", "ASAPy/AceIO.py: WriteAce", "ASAPy/data/reaction.py: _get_fission_products_ace", "ASAPy/data/energy_distribution.py: ContinuousTabular.from_ace", "ASAPy/AceIO.py: AceEditor"]}
