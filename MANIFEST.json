{
 "claims": [
  {
   "property": "C01",
   "status": "partial",
   "theorems": [
    "ASAPy.Ace.C01_set_then_get_partial",
    "ASAPy.Ace.C01_nothing_else",
    "ASAPy.Ace.C01_flat_refuted"
   ],
   "note": "False for nu-bar (MT 452) set to the same value at all energies: it is then not recognised as tabulated, and neither get_sigma nor set_sigma nor get_energy work on it any more. Proved for everything else, in any editor state. Chi (MT 1018) is covered by C12: it is normalised when set."
  },
  {
   "property": "C02",
   "status": "proved",
   "theorems": [
    "ASAPy.Ace.C02_original_survives"
   ],
   "note": "All histories, with rejected calls, on any table."
  },
  {
   "property": "C03",
   "status": "partial",
   "theorems": [
    "ASAPy.Ace.C03_rejected_set_partial",
    "ASAPy.Ace.C03_rejected_set_refuted"
   ],
   "note": "False in full: chi distributions are stored one by one, so a later wrong one (or a negative pdf, rejected after the cdf was stored) leaves a half-changed chi. Proved for everything else."
  },
  {
   "property": "C04",
   "status": "partial",
   "theorems": [
    "ASAPy.Ace.C04_changed_is_adjusted_partial",
    "ASAPy.Ace.C04_changed_is_adjusted_refuted"
   ],
   "note": "False for chi after a rejected set; proved for all other MTs and for chi in histories without a rejected set of chi."
  },
  {
   "property": "C05",
   "status": "proved",
   "theorems": [
    "ASAPy.Ace.C05_gap_is_kept",
    "ASAPy.Ace.C05_adjusted_stays"
   ],
   "note": "Values of the parts are those of get_sigma at the energies of the sum."
  },
  {
   "property": "C06",
   "status": "proved",
   "theorems": [
    "ASAPy.Ace.C06_apply_twice"
   ],
   "note": "Equality of the whole editor state."
  },
  {
   "property": "C07",
   "status": "proved",
   "theorems": [
    "ASAPy.Ace.C07_order_irrelevant"
   ],
   "note": ""
  },
  {
   "property": "C08",
   "status": "proved",
   "theorems": [
    "ASAPy.Ace.C08_adjusted_exactly",
    "ASAPy.Ace.C08_untouched",
    "ASAPy.Ace.C08_nothing_adjusted",
    "ASAPy.Ace.C08_redundant"
   ],
   "note": ""
  },
  {
   "property": "C09",
   "status": "partial",
   "theorems": [
    "ASAPy.Ace.C09_reaches_total_partial",
    "ASAPy.Ace.C09_reaches_total_refuted"
   ],
   "note": "False: the rule of MT 1 lists the intermediate sums only. Proved with the intermediate sum on the file."
  },
  {
   "property": "C10",
   "status": "partial",
   "theorems": [
    "ASAPy.Ace.C10_direct_adjustment_partial",
    "ASAPy.Ace.C10_direct_adjustment_refuted"
   ],
   "note": "False for MT 101 (its rule lists the levels, not 103-107). Proved for MT 3 and MT 1."
  },
  {
   "property": "C100",
   "status": "partial",
   "theorems": [
    "ASAPy.Func.C100_list_partial",
    "ASAPy.Func.C100_integral_partial",
    "ASAPy.Func.C100_integers_refuted"
   ],
   "note": "False for lists of integers (values are truncated). Proved for lists with a float, and for lists of integers with integral values."
  },
  {
   "property": "C101",
   "status": "partial",
   "theorems": [
    "ASAPy.Func.C101_sum_partial",
    "ASAPy.Func.C101_polynomials",
    "ASAPy.Func.C101_not_linear",
    "ASAPy.Func.C101_ranges_refuted",
    "ASAPy.Func.C101_quadratic_refuted",
    "ASAPy.Func.C101_outside_refuted"
   ],
   "note": "False for tables over different ranges, for polynomials of degree two or more with tables, and outside the tables. Proved for polynomials, and for lin-lin tables over a common range with polynomials of degree at most one."
  },
  {
   "property": "C102",
   "status": "partial",
   "theorems": [
    "ASAPy.Func.C102_totals_partial",
    "ASAPy.Func.C102_polynomials",
    "ASAPy.Func.C102_quadratic_refuted"
   ],
   "note": "As C101."
  },
  {
   "property": "C103",
   "status": "partial",
   "theorems": [
    "ASAPy.Func.C103_polynomials_partial",
    "ASAPy.Func.C103_sher_beck_partial",
    "ASAPy.Func.C103_prompt_neutrons_partial",
    "ASAPy.Func.C103_tabulated_partial",
    "ASAPy.Func.C103_recoverable_refuted"
   ],
   "note": "False for files with tables of the recoverable or total energy, which cannot be read; proved for all others (tabulated nu: lin-lin)."
  },
  {
   "property": "C104",
   "status": "partial",
   "theorems": [
    "ASAPy.Func.C104_pieces_partial",
    "ASAPy.Func.C104_documented_refuted"
   ],
   "note": "False with the breakpoints the documentation asks for; proved for breakpoints between the functions only."
  },
  {
   "property": "C105",
   "status": "partial",
   "theorems": [
    "ASAPy.Scores.C105_scores_partial",
    "ASAPy.Scores.C105_few_samples_refuted"
   ],
   "note": "False with at most as many samples as variables (proved for every factorisation and all permutations); proved when both matrices have a Cholesky factor (contract of scipy.linalg.cholesky)."
  },
  {
   "property": "C106",
   "status": "proved",
   "theorems": [
    "ASAPy.Lhs.C106_stratified",
    "ASAPy.Lhs.C106_normal",
    "ASAPy.Lhs.isCdf_exists",
    "ASAPy.Lhs.normal_quantile"
   ],
   "note": "Contract of SALib latin.sample: one number inside each interval."
  },
  {
   "property": "C107",
   "status": "partial",
   "theorems": [
    "ASAPy.Lhs.C107_unknown",
    "ASAPy.Lhs.C107_case",
    "ASAPy.Lhs.C107_uncorrelated",
    "ASAPy.Lhs.C107_delivered_partial",
    "ASAPy.Lhs.C107_run",
    "ASAPy.Lhs.C107_normal_refuted"
   ],
   "note": "The number delivered: false for the normal types with large deviations, whatever the random numbers; proved for the lognormal and uniform types."
  },
  {
   "property": "C108",
   "status": "proved",
   "theorems": [
    "ASAPy.Dists.C108_angles",
    "ASAPy.Dists.C108_negative"
   ],
   "note": ""
  },
  {
   "property": "C109",
   "status": "partial",
   "theorems": [
    "ASAPy.Dists.C109_maxwell",
    "ASAPy.Dists.C109_evaporation",
    "ASAPy.Dists.C109_watt",
    "ASAPy.Dists.C109_level",
    "ASAPy.Dists.C109_photon",
    "ASAPy.Dists.C109_nbody",
    "ASAPy.Dists.C109_nbody_alone",
    "ASAPy.Dists.C109_unsupported",
    "ASAPy.Dists.C109_function_partial",
    "ASAPy.Dists.C109_function_end",
    "ASAPy.Dists.C109_window_refuted"
   ],
   "note": "Everything is proved but one point: the tolerance within which Tabulated1D takes an argument for an end point has an absolute part, which is not converted; for energies whose distance from an end point exceeds 1e-5 of it by 1e-20 to 1e-14 MeV the values in MeV and eV differ (C109_window_refuted). All other energies: C109_function_partial."
  },
  {
   "property": "C11",
   "status": "proved",
   "theorems": [
    "ASAPy.Ace.C11_never_fails"
   ],
   "note": ""
  },
  {
   "property": "C110",
   "status": "proved",
   "theorems": [
    "ASAPy.Dists.C110_continuous",
    "ASAPy.Dists.C110_kalbach",
    "ASAPy.Dists.C110_correlated"
   ],
   "note": ""
  },
  {
   "property": "C111",
   "status": "partial",
   "theorems": [
    "ASAPy.Dists.C111_constant_partial",
    "ASAPy.Dists.C111_varying_partial",
    "ASAPy.Dists.Mixed.C111_mixed_refuted"
   ],
   "note": "False if some groups have probabilities that depend on the energy and others not; proved for constant probabilities (normalised to 1), and for varying ones the yield of each group at the energies of its table."
  },
  {
   "property": "C112",
   "status": "proved",
   "theorems": [
    "ASAPy.Dists.C112_total",
    "ASAPy.Dists.C112_prompt",
    "ASAPy.Dists.C112_both"
   ],
   "note": ""
  },
  {
   "property": "C113",
   "status": "proved",
   "theorems": [
    "ASAPy.Dists.C113_isotropic",
    "ASAPy.Dists.C113_angles",
    "ASAPy.Dists.C113_fission",
    "ASAPy.Dists.C113_ring"
   ],
   "note": "The reading of each law is the subject of C109 and C110."
  },
  {
   "property": "C114",
   "status": "proved",
   "theorems": [
    "ASAPy.Dists.C114_photons",
    "ASAPy.Dists.C114_other"
   ],
   "note": ""
  },
  {
   "property": "C115",
   "status": "proved",
   "theorems": [
    "ASAPy.Dists.C115_urr",
    "ASAPy.Dists.C115_interpolation",
    "ASAPy.Dists.C115_none"
   ],
   "note": ""
  },
  {
   "property": "C116",
   "status": "partial",
   "theorems": [
    "ASAPy.Deck.C116_deck_partial",
    "ASAPy.Deck.C116_tapes_partial",
    "ASAPy.Deck.C116_parameters_refuted",
    "ASAPy.Deck.C116_weights_refuted"
   ],
   "note": "False for weight option 4 (four parameters NJOY needs are not written) and for weight option 1 with nu-bar or chi (the weights are not written in these runs); proved otherwise. The reader of the input is a specification after the NJOY manual. The texts of numbers are given."
  },
  {
   "property": "C117",
   "status": "partial",
   "theorems": [
    "ASAPy.Deck.C117_suffixes_partial",
    "ASAPy.Deck.C117_files_partial",
    "ASAPy.Deck.C117_suffixes_refuted",
    "ASAPy.Deck.C117_files_refuted"
   ],
   "note": "Suffixes are different numbers for at most 99 temperatures, false for 100 (.10 and .100); each table goes to the files named after its temperature, which are the same for temperatures equal to one decimal."
  },
  {
   "property": "C118",
   "status": "partial",
   "theorems": [
    "ASAPy.Deck.C118_thermal",
    "ASAPy.Deck.C118_zaids_partial",
    "ASAPy.Deck.C118_zaids_refuted",
    "ASAPy.Deck.C118_zaids_materials",
    "ASAPy.Deck.C118_unknown"
   ],
   "note": "False for the materials 47, 49, 58 and 59, of whose ZAIDs only the first three are written; everything else is proved for all materials, and all of it for those with at most three ZAIDs."
  },
  {
   "property": "C119",
   "status": "partial",
   "theorems": [
    "ASAPy.Files.C119_success_partial",
    "ASAPy.Files.C119_returns",
    "ASAPy.Files.C119_failed",
    "ASAPy.Files.C119_stale_refuted"
   ],
   "note": "False if NJOY ends with return code 0 and has not written a tape asked for: run returns and a file of an earlier run stays in its place. Proved: all the rest, with that case stated."
  },
  {
   "property": "C12",
   "status": "proved",
   "theorems": [
    "ASAPy.Ace.C12_chi_normalised",
    "ASAPy.Ace.C12_read_back",
    "ASAPy.Ace.C12_same_pdf",
    "ASAPy.Ace.C12_single_value"
   ],
   "note": "The normalising factor must not be zero (in the code: NaN). Only the number of values of the first pdf is checked: a later one of a single value is accepted and stored as it is (C12_single_value)."
  },
  {
   "property": "C120",
   "status": "partial",
   "theorems": [
    "ASAPy.Files.C120_matrices_partial",
    "ASAPy.Files.C120_others",
    "ASAPy.Files.C120_stale_refuted"
   ],
   "note": "False without the temporary folder: a tape of an earlier run in the output directory is converted if NJOY does not write it. Proved with the temporary folder, which is the default."
  },
  {
   "property": "C121",
   "status": "partial",
   "theorems": [
    "ASAPy.Hdf5.C121_distributions_partial",
    "ASAPy.Hdf5.C121_uniform",
    "ASAPy.Hdf5.C121_negative_refuted",
    "ASAPy.Hdf5.C121_lines_refuted",
    "ASAPy.Hdf5.C121_scheme_refuted",
    "ASAPy.Hdf5.C121_madland_nix_refuted"
   ],
   "note": "False: negative densities are written and cannot be read, lines in correlated distributions cannot be written, only histogram and linear interpolation is stored, Madland-Nix spectra are written under another key than they are read. Proved for all distributions outside these cases."
  },
  {
   "property": "C122",
   "status": "partial",
   "theorems": [
    "ASAPy.Hdf5.C122_product_partial",
    "ASAPy.Hdf5.C122_reaction_partial",
    "ASAPy.Hdf5.C122_sum_refuted",
    "ASAPy.Hdf5.C122_scheme_refuted",
    "ASAPy.Hdf5.C122_grid_refuted"
   ],
   "note": "False for cross sections that are sums (cannot be written), not linear, or not on the energies of the nuclide. Proved for all others, and every order of the items."
  },
  {
   "property": "C123",
   "status": "partial",
   "theorems": [
    "ASAPy.Hdf5.C123_nuclide_partial",
    "ASAPy.Hdf5.C123_nothing_else",
    "ASAPy.Hdf5.C123_order_refuted",
    "ASAPy.Hdf5.C123_again_refuted"
   ],
   "note": "False: the temperatures come back in the order of their names (\"1200K\" before \"294K\"), and an imported nuclide with inelastic levels but no MT 4 in the file cannot be exported again. Proved up to the order of temperatures for all nuclides whose parts can be stored (C121, C122)."
  },
  {
   "property": "C124",
   "status": "partial",
   "theorems": [
    "ASAPy.Hdf5.C124_sums_partial",
    "ASAPy.Hdf5.C124_file_partial",
    "ASAPy.Hdf5.C124_fission_refuted"
   ],
   "note": "False if the file holds partial fission (MT 19, 20, 21, 38) but not MT 18: MT 27 is built before MT 18, so fission is missing from MT 27, 3 and 1. Proved for all other files and for all exported nuclides."
  },
  {
   "property": "C125",
   "status": "partial",
   "theorems": [
    "ASAPy.Thermal.C125_read_partial",
    "ASAPy.Thermal.C125_name_refuted"
   ],
   "note": "Proved for all tables except the last clause, which is false: the name given by the caller is overwritten (thermal.py 480)."
  },
  {
   "property": "C126",
   "status": "partial",
   "theorems": [
    "ASAPy.Thermal.C126_next_partial",
    "ASAPy.Thermal.C126_coherent_refuted"
   ],
   "note": "False at every energy, for positive structure factors: up to the last edge the structure factor of the next edge is included, above it IndexError is raised."
  },
  {
   "property": "C127",
   "status": "proved",
   "theorems": [
    "ASAPy.Thermal.C127_listed",
    "ASAPy.Thermal.C127_kept",
    "ASAPy.Thermal.C127_known",
    "ASAPy.Thermal.C127_once"
   ],
   "note": "difflib is a parameter, assumed to return elements of the list it is given. Each nuclide once if no ZAID is repeated in the table."
  },
  {
   "property": "C128",
   "status": "partial",
   "theorems": [
    "ASAPy.Thermal.C128_temperatures_partial",
    "ASAPy.Thermal.C128_kelvin",
    "ASAPy.Thermal.C128_other_material",
    "ASAPy.Thermal.C128_unreadable",
    "ASAPy.Thermal.C128_same_kelvin_refuted"
   ],
   "note": "False when two temperatures are the same in whole kelvin: the second table is dropped with a warning, even if it is for another material. Proved for temperatures with different names."
  },
  {
   "property": "C129",
   "status": "partial",
   "theorems": [
    "ASAPy.Thermal.C129_round_partial",
    "ASAPy.Thermal.C129_tables_partial",
    "ASAPy.Thermal.C129_mixed_refuted"
   ],
   "note": "False when temperatures differ in the kind of secondary neutrons (only that of the first table is kept) or in their parts: nothing can be exported. Proved for data where all temperatures have the same parts, and for tables of this kind from the ACE table to the data read back; temperatures may come back in another order."
  },
  {
   "property": "C13",
   "status": "partial",
   "theorems": [
    "ASAPy.Ace.C13_cdf_monotone_partial",
    "ASAPy.Ace.C13_cdf_monotone_refuted"
   ],
   "note": "False for histogram cdfs; proved for cdfs by right rectangles."
  },
  {
   "property": "C130",
   "status": "partial",
   "theorems": [
    "ASAPy.Plots.C130_cov_partial",
    "ASAPy.Plots.C130_rel_partial",
    "ASAPy.Plots.C130_figures",
    "ASAPy.Plots.C130_last_refuted",
    "ASAPy.Plots.C130_single_refuted",
    "ASAPy.Plots.C130_rel_refuted"
   ],
   "note": "False for the last group, which the covariance plot draws down to half its upper bound whatever its lower bound is, and which the deviation plot does not draw if the ACE data begin above it; with one group the program ends with a ValueError. Proved for all other groups and the drawn part of the last one."
  },
  {
   "property": "C131",
   "status": "partial",
   "theorems": [
    "ASAPy.Plots.C131_maps_partial",
    "ASAPy.Plots.C131_single_refuted"
   ],
   "note": "Proved for all group structures; a last group that reaches down to 0 is shown down to half its upper bound. False for a single group that reaches down to 0 (IndexError). The option corr_rel_diff is not modelled."
  },
  {
   "property": "C132",
   "status": "partial",
   "theorems": [
    "ASAPy.Plots.C132_range_partial",
    "ASAPy.Plots.C132_data_range_refuted"
   ],
   "note": "Proved for the default. False for use_max_range_for_correlation_plot=False: minimum and maximum are swapped."
  },
  {
   "property": "C133",
   "status": "partial",
   "theorems": [
    "ASAPy.Plots.C133_curves_partial",
    "ASAPy.Plots.grid_values",
    "ASAPy.Plots.C133_zero_refuted",
    "ASAPy.Plots.C133_chi_refuted",
    "ASAPy.Plots.C133_all_zero"
   ],
   "note": "False where the cross section is zero (shown 0, written the relative value) and for fission spectra (shown without normalisation, first incident energy only). Proved for elementary reactions and nu-bar without zeros. A cross section that is zero everywhere ends the program."
  },
  {
   "property": "C134",
   "status": "partial",
   "theorems": [
    "ASAPy.Plots.C134_no_overwrite",
    "ASAPy.Plots.C134_four",
    "ASAPy.Plots.C134_folder_partial",
    "ASAPy.Plots.C134_default_refuted"
   ],
   "note": "Names proved different for all nuclides, MTs and kinds, and in the folder the program gives. False for the default of the function: plots are saved in the root of the file system."
  },
  {
   "property": "C135",
   "status": "partial",
   "theorems": [
    "ASAPy.Batch.C135_job_partial",
    "ASAPy.Batch.C135_plot_only_refuted",
    "ASAPy.Batch.C135_blank_refuted",
    "ASAPy.Batch.C135_misspelt"
   ],
   "note": "False for --plot-only, which is dropped, so that the job writes all files and no plots; and for file names with blanks. Proved for all other accepted command lines."
  },
  {
   "property": "C136",
   "status": "partial",
   "theorems": [
    "ASAPy.Decay.C136_modes_partial",
    "ASAPy.Decay.C136_unknown_refuted"
   ],
   "note": "False for the code 10 of an unknown mode (read as beta- and gamma) and for 0 (read as no mode). Proved for all sequences that neither begin nor end with gamma radiation."
  },
  {
   "property": "C137",
   "status": "partial",
   "theorems": [
    "ASAPy.Decay.C137_daughter_partial",
    "ASAPy.Decay.C137_no_element",
    "ASAPy.Decay.C137_fission_refuted"
   ],
   "note": "False for spontaneous fission, whose daughter is the parent. Proved for all other modes."
  },
  {
   "property": "C138",
   "status": "partial",
   "theorems": [
    "ASAPy.Decay.C138_radioactive_partial",
    "ASAPy.Decay.C138_stable_partial",
    "ASAPy.Decay.C138_section",
    "ASAPy.Decay.C138_missing",
    "ASAPy.Decay.C138_stable_spin_refuted",
    "ASAPy.Decay.C138_unknown_refuted"
   ],
   "note": "False for stable nuclides of unknown spin (-77.777 is kept as the spin) and unknown modes. Proved for all other sections with at most one spectrum of each radiation type."
  },
  {
   "property": "C139",
   "status": "partial",
   "theorems": [
    "ASAPy.Decay.C139_yields_partial",
    "ASAPy.Decay.C139_independent",
    "ASAPy.Decay.C139_energies",
    "ASAPy.Decay.C139_cumulative_refuted",
    "ASAPy.Decay.C139_broadcast_refuted"
   ],
   "note": "False for evaluations with cumulative yields only (AttributeError), and one energy against none passes for equal. Proved for sections with both or with independent yields, each product once."
  },
  {
   "property": "C14",
   "status": "partial",
   "theorems": [
    "ASAPy.Ace.C14_default_temperature_partial",
    "ASAPy.Ace.C14_ambiguous",
    "ASAPy.Ace.C14_temperature_refuted"
   ],
   "note": "False: every temperature argument is rejected except \"K\". Proved: the default for files with one temperature."
  },
  {
   "property": "C140",
   "status": "proved",
   "theorems": [
    "ASAPy.Decay.C140_constant"
   ],
   "note": "First-order propagation of the uncertainty is that of the package uncertainties, which is not modelled otherwise."
  },
  {
   "property": "C141",
   "status": "partial",
   "theorems": [
    "ASAPy.Library.C141_round_trip_partial",
    "ASAPy.Library.C141_material",
    "ASAPy.Library.C141_registered",
    "ASAPy.Library.C141_blank_refuted"
   ],
   "note": "False for materials with blanks in their names, which fall apart. Proved for all others, for POSIX paths without symbolic links."
  },
  {
   "property": "C142",
   "status": "proved",
   "theorems": [
    "ASAPy.Check.C142_check"
   ],
   "note": "Sequences are finite and can be indexed."
  },
  {
   "property": "C143",
   "status": "partial",
   "theorems": [
    "ASAPy.Check.C143_construct",
    "ASAPy.Check.C143_operation",
    "ASAPy.Check.C143_history_partial",
    "ASAPy.Check.C143_sum",
    "ASAPy.Check.C143_unchecked_refuted",
    "ASAPy.Check.C143_iterator_refuted",
    "ASAPy.Check.C143_order_refuted"
   ],
   "note": "False for assignment to an element and extend, which are not checked, for += with an iterator, which adds nothing, and for a plain list in front of +, whose elements go behind. Proved for all other operations."
  },
  {
   "property": "C144",
   "status": "partial",
   "theorems": [
    "ASAPy.Check.C144_equal_partial",
    "ASAPy.Check.C144_symmetric_partial",
    "ASAPy.Check.C144_classes",
    "ASAPy.Check.C144_symmetric_refuted"
   ],
   "note": "False when one object has attributes the other has not. Proved for objects with the same attributes and for objects of different classes. Equality of values (numpy.array_equal) is a parameter."
  },
  {
   "property": "C145",
   "status": "proved",
   "theorems": [
    "ASAPy.Res.C145_breit_wigner",
    "ASAPy.Res.C145_reich_moore"
   ],
   "note": "Each l has one block; there is at least one. Reconstruction of cross sections is not modelled."
  },
  {
   "property": "C146",
   "status": "partial",
   "theorems": [
    "ASAPy.Res.C146_constant_partial",
    "ASAPy.Res.C146_energies_partial",
    "ASAPy.Res.C146_fission_partial",
    "ASAPy.Res.C146_fission_refuted"
   ],
   "note": "False where only fission widths depend on energy: each entry of the column is the list of the widths at all energies. The other two forms are proved, and what comes out in this one."
  },
  {
   "property": "C147",
   "status": "partial",
   "theorems": [
    "ASAPy.Res.C147_r_matrix_partial",
    "ASAPy.Res.C147_background_refuted"
   ],
   "note": "Background R-matrix and phase shifts of one channel are passed over (their values are dropped by the code); with more than one, the reader loses its place. The record of an extension is taken to have as many numbers as its kind LBK says, as the code does."
  },
  {
   "property": "C148",
   "status": "partial",
   "theorems": [
    "ASAPy.Res.C148_section_partial",
    "ASAPy.Res.C148_unresolved",
    "ASAPy.Res.C148_resolved",
    "ASAPy.Res.C148_flag_refuted"
   ],
   "note": "False for a flag other than 0, 1 and 2: the range before it is listed twice. Proved for the formats of C145-C147. The property resolved is a ValueError for more than one range."
  },
  {
   "property": "C149",
   "status": "partial",
   "theorems": [
    "ASAPy.ResCov.C149_breit_wigner_partial",
    "ASAPy.ResCov.C149_reich_moore_partial",
    "ASAPy.ResCov.C149_blocks_refuted"
   ],
   "note": "False for more than one block: only the matrix of the last one is kept, for the resonances of all. Proved for one block and different energies. Long-range blocks are not read."
  },
  {
   "property": "C15",
   "status": "partial",
   "theorems": [
    "ASAPy.Tab1D.C15_grid_point_value_partial",
    "ASAPy.Tab1D.C15_close_to_endpoint_refuted"
   ],
   "note": "Proved for every grid point that is an end point or not within the isclose tolerance of one; false for the others."
  },
  {
   "property": "C150",
   "status": "partial",
   "theorems": [
    "ASAPy.ResCov.C150_breit_wigner_partial",
    "ASAPy.ResCov.C150_reich_moore_partial",
    "ASAPy.ResCov.C150_uneven_refuted"
   ],
   "note": "False where the resonances do not all have the same number of parameters: what is read ends in a ValueError when it is sampled. Proved for the same number for each resonance, with the correlations that are read, which C73 shows not always to be those of the record."
  },
  {
   "property": "C151",
   "status": "partial",
   "theorems": [
    "ASAPy.ResCov.C151_compatible_partial",
    "ASAPy.ResCov.C151_covariance_refuted",
    "ASAPy.ResCov.C151_second_refuted",
    "ASAPy.ResCov.C151_reich_moore_refuted"
   ],
   "note": "False: the covariance of neutron and capture width is dropped, a second l with resonances ends in an IndexError, and Reich-Moore ranges in an UnboundLocalError. Proved for one l, but for that covariance."
  },
  {
   "property": "C152",
   "status": "partial",
   "theorems": [
    "ASAPy.ResCov.C152_call_partial",
    "ASAPy.ResCov.C152_call_rm_partial",
    "ASAPy.ResCov.C152_breit_wigner_partial",
    "ASAPy.ResCov.C152_reich_moore_partial",
    "ASAPy.ResCov.C152_compact_refuted",
    "ASAPy.ResCov.C152_reich_moore_refuted"
   ],
   "note": "False for the compact format, where all covariances are doubled, and for Reich-Moore ranges with one, two or four parameters, where sampling ends in an IndexError. Proved for the general format and three, four or five parameters (Reich-Moore: three or five)."
  },
  {
   "property": "C153",
   "status": "partial",
   "theorems": [
    "ASAPy.ResCov.C153_subset_partial",
    "ASAPy.ResCov.C153_order_refuted",
    "ASAPy.ResCov.C153_again_refuted"
   ],
   "note": "False where file 32 has the resonances in another order than file 2 (the covariances are those of others), and for the subset of a subset (IndexError). Proved for a range as it is read where the orders agree."
  },
  {
   "property": "C154",
   "status": "partial",
   "theorems": [
    "ASAPy.ResCov.C154_section_partial",
    "ASAPy.ResCov.C154_isotope_refuted",
    "ASAPy.ResCov.C154_second_refuted",
    "ASAPy.ResCov.C154_formalism_refuted"
   ],
   "note": "False for more than one isotope: the ranges of the second one are read with those of file 2 of the first, or end in a ValueError; R-matrix limited ranges are refused. Proved for one isotope with ranges of the general and the compact format and at most one unresolved range, at the end."
  },
  {
   "property": "C155",
   "status": "partial",
   "theorems": [
    "ASAPy.EndfRx.C155_angles_partial",
    "ASAPy.EndfRx.C155_schemes_refuted"
   ],
   "note": "False: how to interpolate between incident energies is read and dropped. Proved for all else in a section whose tables have one scheme each."
  },
  {
   "property": "C156",
   "status": "partial",
   "theorems": [
    "ASAPy.EndfRx.C156_laws_partial",
    "ASAPy.EndfRx.C156_section_partial",
    "ASAPy.EndfRx.C156_schemes_refuted"
   ],
   "note": "False for the scheme of interpolation between incident energies of law 1, which is dropped. Proved for all else."
  },
  {
   "property": "C157",
   "status": "partial",
   "theorems": [
    "ASAPy.EndfRx.C157_products_partial",
    "ASAPy.EndfRx.C157_legendre_refuted",
    "ASAPy.EndfRx.C157_charged_refuted",
    "ASAPy.EndfRx.C157_tabulated_refuted",
    "ASAPy.EndfRx.C157_isomer_refuted",
    "ASAPy.EndfRx.C157_nbody_refuted",
    "ASAPy.EndfRx.C157_spectrum_refuted",
    "ASAPy.EndfRx.C157_cosines_refuted"
   ],
   "note": "False: Legendre coefficients of LAW 2 are shifted by one, records of LAW 5 and tabulated angles of LAW 1 are not read (what follows is misread), isomers are not told apart, the n-body law has mass 1 and Q = 0, schemes of the spectra of LAW 7 are dropped and their weights are sums instead of integrals. Proved for the rest."
  },
  {
   "property": "C158",
   "status": "partial",
   "theorems": [
    "ASAPy.EndfRx.C158_neutrons_partial",
    "ASAPy.EndfRx.C158_total_partial",
    "ASAPy.EndfRx.C158_prompt_only",
    "ASAPy.EndfRx.C158_few_refuted",
    "ASAPy.EndfRx.C158_many_refuted",
    "ASAPy.EndfRx.C158_polynomial_refuted"
   ],
   "note": "False for other than six groups: with fewer the prompt neutrons have the delayed yield, with more the first groups are not multiplied by it; a yield that is a polynomial is multiplied in its constant term only. Proved for six groups."
  },
  {
   "property": "C159",
   "status": "partial",
   "theorems": [
    "ASAPy.EndfRx.C159_states_partial",
    "ASAPy.EndfRx.C159_isomer_refuted"
   ],
   "note": "False where two products have the same name: only the first has the yield. Proved where names are distinct."
  },
  {
   "property": "C16",
   "status": "proved",
   "theorems": [
    "ASAPy.Tab1D.C16_between_neighbours",
    "ASAPy.Tab1D.C16_zero_outside",
    "ASAPy.Tab1D.C16_total"
   ],
   "note": "Away from the endpoint tolerance, as the property says."
  },
  {
   "property": "C160",
   "status": "partial",
   "theorems": [
    "ASAPy.EndfRx.C160_multiplicities_partial",
    "ASAPy.EndfRx.C160_cross_sections_partial",
    "ASAPy.EndfRx.C160_transitions_refuted",
    "ASAPy.EndfRx.C160_continuum_refuted"
   ],
   "note": "False for transition probabilities (LO = 2), which give no photons, and for continuous spectra, whose file 15 is not read. Proved for multiplicities and cross sections of photons."
  },
  {
   "property": "C161",
   "status": "partial",
   "theorems": [
    "ASAPy.EndfRx.C161_reaction_partial",
    "ASAPy.EndfRx.C161_all_partial",
    "ASAPy.EndfRx.C161_fission_partial",
    "ASAPy.EndfRx.C161_fission6_partial",
    "ASAPy.EndfRx.C161_yields_partial",
    "ASAPy.EndfRx.C161_frame_refuted",
    "ASAPy.EndfRx.C161_multiplicity_refuted"
   ],
   "note": "False: the frame is the centre of mass whatever LCT says, and (n, 2n) with file 5 has one neutron. Proved for cross section, Q and products but for these."
  },
  {
   "property": "C162",
   "status": "partial",
   "theorems": [
    "ASAPy.EndfRx.C162_nuclide_partial",
    "ASAPy.EndfRx.C162_file2_refuted",
    "ASAPy.EndfRx.C162_temperatures_refuted",
    "ASAPy.EndfRx.C162_chances_refuted"
   ],
   "note": "False: without file 2 an evaluation ends in a TypeError, the temperatures cannot be asked for, and a chance of fission with its spectrum in file 6 has it replaced. Proved for evaluations with file 2 where each reaction is read. The covariances of resonances and the energy release of fission are not part of the model of the nuclide."
  },
  {
   "property": "C163",
   "status": "partial",
   "theorems": [
    "ASAPy.Elastic0K.C163_kept_partial",
    "ASAPy.Elastic0K.C163_half_refuted"
   ],
   "note": "False for a nuclide without elastic scattering: the energies are set before the error. Proved for all others."
  },
  {
   "property": "C164",
   "status": "partial",
   "theorems": [
    "ASAPy.Elastic0K.C164_table_partial",
    "ASAPy.Elastic0K.C164_plain",
    "ASAPy.Elastic0K.C164_radius_refuted",
    "ASAPy.Elastic0K.C164_unresolved_refuted",
    "ASAPy.Elastic0K.C164_no_resonance_refuted",
    "ASAPy.Elastic0K.C164_zero_refuted",
    "ASAPy.Elastic0K.C164_negative_refuted"
   ],
   "note": "False: evaluations with a scattering radius only, ranges without a resonance inside them or starting at zero are refused, with unresolved resonances only the table is empty, and negative widths give energies outside the range. Proved for all calls that return, for ranges with widths that are not negative."
  },
  {
   "property": "C165",
   "status": "partial",
   "theorems": [
    "ASAPy.Elastic0K.C165_apart_partial",
    "ASAPy.Elastic0K.C165_order_refuted",
    "ASAPy.Elastic0K.C165_peak_refuted"
   ],
   "note": "False: resonances are listed by angular momentum first, and then points overlap; the energy of a resonance is never one of its points. Proved for resonances listed by increasing energy."
  },
  {
   "property": "C166",
   "status": "partial",
   "theorems": [
    "ASAPy.Elastic0K.C166_value_partial",
    "ASAPy.Elastic0K.C166_array",
    "ASAPy.Elastic0K.C166_shared_refuted"
   ],
   "note": "False at a limit shared by two ranges, where both are added. Proved elsewhere; arrays without restriction."
  },
  {
   "property": "C167",
   "status": "partial",
   "theorems": [
    "ASAPy.Check.C167_bounds_partial",
    "ASAPy.Check.C167_lengths",
    "ASAPy.Check.C167_values",
    "ASAPy.Check.C167_elements",
    "ASAPy.Check.C167_version",
    "ASAPy.Check.C167_nan_refuted",
    "ASAPy.Check.C167_empty_refuted",
    "ASAPy.Check.C167_missing_refuted"
   ],
   "note": "False: NaN passes all checks of bounds, an empty array passes whatever its type, and a file without the attributes raises another exception than one of another version. Proved for all other values."
  },
  {
   "property": "C168",
   "status": "partial",
   "theorems": [
    "ASAPy.Ids.C168_automatic",
    "ASAPy.Ids.C168_smallest",
    "ASAPy.Ids.C168_set",
    "ASAPy.Ids.C168_given",
    "ASAPy.Ids.C168_unique_partial",
    "ASAPy.Ids.C168_warning_refuted",
    "ASAPy.Ids.C168_reset_refuted",
    "ASAPy.Ids.C168_nested_refuted",
    "ASAPy.Ids.C168_negative_refuted"
   ],
   "note": "Freshness is proved for all histories without a reset; uniqueness of all ids only without warnings, and is refuted for explicit ids and after a reset. Classes derived indirectly are not reset; set_auto_id admits negative numbers."
  },
  {
   "property": "C169",
   "status": "partial",
   "theorems": [
    "ASAPy.Masses.C169_history_partial",
    "ASAPy.Masses.C169_mass",
    "ASAPy.Masses.C169_mixture",
    "ASAPy.Masses.C169_unknown",
    "ASAPy.Masses.C169_broken_refuted"
   ],
   "note": "False when a line of the file cannot be read: the first call raises, the masses read so far stay, and later calls use them. Proved for every file that can be read. Seen while reading: the file names elements 113, 115, 117 and 118 Ed, Ef, Eh and Ei, so their masses are not found under the names of the package."
  },
  {
   "property": "C17",
   "status": "proved",
   "theorems": [
    "ASAPy.Tab1D.C17_linear_in_data"
   ],
   "note": ""
  },
  {
   "property": "C170",
   "status": "partial",
   "theorems": [
    "ASAPy.Masses.C170_weight",
    "ASAPy.Masses.C170_none",
    "ASAPy.Masses.C170_mixture",
    "ASAPy.Masses.C170_capitals_refuted"
   ],
   "note": "False of capitals: masses are found whatever the capitals, weights are not. The rest is proved."
  },
  {
   "property": "C171",
   "status": "partial",
   "theorems": [
    "ASAPy.Water.C171_density_partial",
    "ASAPy.Water.C171_warnings",
    "ASAPy.Water.C171_negative_refuted",
    "ASAPy.Water.C171_vacuum_refuted"
   ],
   "note": "False near vacuum (below 6e-10 MPa, zero included), where a ValueError is raised without a warning, and at negative pressures, where only a warning is announced but a TypeError follows. Proved from 0.0006 MPa (the triple point) to 100 MPa and from 273 K to 623.15 K in exact arithmetic."
  },
  {
   "property": "C172",
   "status": "partial",
   "theorems": [
    "ASAPy.Photon.C172_section",
    "ASAPy.Photon.C172_none",
    "ASAPy.Photon.C172_refused",
    "ASAPy.Photon.C172_high",
    "ASAPy.Photon.C172_negative_refuted"
   ],
   "note": "A negative number of a subshell is not refused but counted from the end of the names. Sections whose subshells have different numbers."
  },
  {
   "property": "C173",
   "status": "proved",
   "theorems": [
    "ASAPy.Photon.C173_table",
    "ASAPy.Photon.C173_refused",
    "ASAPy.Photon.C173_agree"
   ],
   "note": "Exact arithmetic; subshells with different numbers."
  },
  {
   "property": "C174",
   "status": "partial",
   "theorems": [
    "ASAPy.Photon.C174_reactions_partial",
    "ASAPy.Photon.C174_other",
    "ASAPy.Photon.C174_one_refuted"
   ],
   "note": "A cross section of exactly 1 b is read as 0, because its logarithm is taken for a missing cross section; proved for all other cross sections. The pair production cross section of the table (total) is stored under MT 515 (electron field)."
  },
  {
   "property": "C175",
   "status": "partial",
   "theorems": [
    "ASAPy.Photon.C175_table_partial",
    "ASAPy.Photon.C174_one_refuted"
   ],
   "note": "False for a cross section of 1 b, which is read as 0 (C174_one_refuted); proved for all other cross sections."
  },
  {
   "property": "C176",
   "status": "proved",
   "theorems": [
    "ASAPy.Photon.C176_reaction",
    "ASAPy.Photon.C176_list"
   ],
   "note": "Sections of HEAD and TAB1 records."
  },
  {
   "property": "C177",
   "status": "partial",
   "theorems": [
    "ASAPy.Photon.C177_data",
    "ASAPy.Photon.C177_range",
    "ASAPy.Photon.C177_history_partial",
    "ASAPy.Photon.C177_all",
    "ASAPy.Photon.C177_broken_refuted"
   ],
   "note": "Holds for complete files; if an element is missing from the file of Compton profiles the first call fails and leaves the dictionary partly filled, so that the same call succeeds the next time. Arrays are values here: that all results of an element share the arrays of the dictionaries is not modelled. The cubic spline is a parameter."
  },
  {
   "property": "C178",
   "status": "proved",
   "theorems": [
    "ASAPy.Photon.C178_cross_sections",
    "ASAPy.Photon.C178_file",
    "ASAPy.Photon.C178_needed",
    "ASAPy.Photon.C178_written"
   ],
   "note": "Over the reals; what an export that raises leaves in the file is not modelled."
  },
  {
   "property": "C179",
   "status": "proved",
   "theorems": [
    "ASAPy.Photon.C179_shells",
    "ASAPy.Photon.C179_unknown"
   ],
   "note": ""
  },
  {
   "property": "C18",
   "status": "partial",
   "theorems": [
    "ASAPy.Tab1D.C18_integral_partial",
    "ASAPy.Tab1D.C18_linlog_error",
    "ASAPy.Tab1D.C18_linlog_refuted",
    "ASAPy.Tab1D.C18_loglin_constant_refuted",
    "ASAPy.Tab1D.C18_loglog_inverse_refuted"
   ],
   "note": "Proved for tables all of whose panels are covered by PanelOK; false for lin-log panels (exact error given) and NaN for constant log-lin and 1/x log-log panels."
  },
  {
   "property": "C180",
   "status": "partial",
   "theorems": [
    "ASAPy.Photon.C180_between_partial",
    "ASAPy.Photon.C180_edge_refuted"
   ],
   "note": "Proved for lin-lin tables with ascending energies. False of a cross section with two values at one energy (an absorption edge): only the value above the edge is written."
  },
  {
   "property": "C181",
   "status": "partial",
   "theorems": [
    "ASAPy.Photon.C181_form_factor_partial",
    "ASAPy.Photon.C181_origin_refuted"
   ],
   "note": "Proved for lin-lin form factors. A log-log form factor that begins at the momentum 0 gives NaN everywhere."
  },
  {
   "property": "C182",
   "status": "partial",
   "theorems": [
    "ASAPy.Photon.C182_profiles_partial",
    "ASAPy.Photon.C182_momenta_refuted",
    "ASAPy.Photon.C182_electrons"
   ],
   "note": "Proved for profiles with common momenta. Of profiles with different momenta, as ACE tables can have them, only the momenta of the first are written."
  },
  {
   "property": "C183",
   "status": "proved",
   "theorems": [
    "ASAPy.Multipole.C183_outside"
   ],
   "note": ""
  },
  {
   "property": "C184",
   "status": "partial",
   "theorems": [
    "ASAPy.Multipole.C184_within_partial",
    "ASAPy.Multipole.C184_limit_refuted",
    "ASAPy.Multipole.C184_zero_refuted",
    "ASAPy.Multipole.C184_temperature"
   ],
   "note": "Proved if the windows reach beyond E_max. If the last window ends at E_max, E_max itself raises IndexError; an energy of 0 with E_min = 0 raises ZeroDivisionError."
  },
  {
   "property": "C185",
   "status": "proved",
   "theorems": [
    "ASAPy.Multipole.C185_cold"
   ],
   "note": "Over the reals; poles equal to the square root of the energy give 0 instead of NaN in the model."
  },
  {
   "property": "C186",
   "status": "proved",
   "theorems": [
    "ASAPy.Multipole.C186_warm"
   ],
   "note": "Over the reals. Resonances are averaged over the whole Maxwell distribution, as the program does; the polynomial over the free gas kernel up to six widths and the whole distribution beyond."
  },
  {
   "property": "C187",
   "status": "proved",
   "theorems": [
    "ASAPy.Multipole.C187_exact",
    "ASAPy.Multipole.C187_close",
    "ASAPy.Multipole.C187_positive"
   ],
   "note": ""
  },
  {
   "property": "C188",
   "status": "proved",
   "theorems": [
    "ASAPy.Multipole.C188_faddeeva"
   ],
   "note": "scipy.special.wofz is taken to be exp(-z^2) erfc(-iz)."
  },
  {
   "property": "C189",
   "status": "partial",
   "theorems": [
    "ASAPy.Multipole.C189_array_partial",
    "ASAPy.Multipole.C189_first_refuted"
   ],
   "note": "Proved if the first energy is within the limits. If it is below E_min, np.vectorize makes arrays of whole numbers and all cross sections are cut."
  },
  {
   "property": "C19",
   "status": "proved",
   "theorems": [
    "ASAPy.WriteAce.C19_value_count"
   ],
   "note": "For every format producing non-empty blank-free words; fmtE_word shows that .11E does."
  },
  {
   "property": "C190",
   "status": "proved",
   "theorems": [
    "ASAPy.Multipole.C190_limit"
   ],
   "note": ""
  },
  {
   "property": "C191",
   "status": "partial",
   "theorems": [
    "ASAPy.Multipole.C191_round_trip",
    "ASAPy.Multipole.C191_group",
    "ASAPy.Multipole.C191_first",
    "ASAPy.Multipole.C191_taken",
    "ASAPy.Multipole.C191_two_refuted"
   ],
   "note": "From the name of a file with several nuclides comes the first in the alphabet, not the one exported last."
  },
  {
   "property": "C192",
   "status": "partial",
   "theorems": [
    "ASAPy.Multipole.C192_version",
    "ASAPy.Multipole.C192_checked_partial",
    "ASAPy.Multipole.C192_fission_refuted"
   ],
   "note": "Not checked: that windows name existing poles, and that there is a polynomial for fission if there are residues; such data are read and no cross section can be had."
  },
  {
   "property": "C193",
   "status": "partial",
   "theorems": [
    "ASAPy.Recon.C193_hard_sphere_partial",
    "ASAPy.Recon.C193_l5_refuted"
   ],
   "note": "Proved for l up to 4. A resonance with a larger l raises TypeError."
  },
  {
   "property": "C194",
   "status": "proved",
   "theorems": [
    "ASAPy.Recon.C194_mlbw"
   ],
   "note": "Over the reals."
  },
  {
   "property": "C195",
   "status": "partial",
   "theorems": [
    "ASAPy.Recon.C195_slbw_partial",
    "ASAPy.Recon.C195_negative_refuted"
   ],
   "note": "The formulas are proved, and that capture and fission are not negative; the elastic cross section can be negative where levels of one spin overlap."
  },
  {
   "property": "C196",
   "status": "proved",
   "theorems": [
    "ASAPy.Recon.C196_agree"
   ],
   "note": "Over the reals."
  },
  {
   "property": "C197",
   "status": "partial",
   "theorems": [
    "ASAPy.Recon.C197_rm_partial",
    "ASAPy.Recon.C197_negative_refuted"
   ],
   "note": "Proved where no phase shift is below 3e-4. Below, the code uses a series, and capture can be negative by up to 25e-15 of the limit of unitarity."
  },
  {
   "property": "C198",
   "status": "partial",
   "theorems": [
    "ASAPy.Recon.C198_values_partial",
    "ASAPy.Recon.C198_competitive_refuted"
   ],
   "note": "A competitive width raises AttributeError (self.q does not exist); proved for ranges without."
  },
  {
   "property": "C199",
   "status": "partial",
   "theorems": [
    "ASAPy.Recon.C199_left_out_refuted"
   ],
   "note": "False: a resonance with l > 0 and J > 0 that only the lower channel spin can form is left out."
  },
  {
   "property": "C20",
   "status": "partial",
   "theorems": [
    "ASAPy.WriteAce.C20_written_text",
    "ASAPy.WriteAce.C20_round_trip_partial",
    "ASAPy.WriteAce.C20_wide_values_refuted"
   ],
   "note": "False for values of 20 or more characters (they merge). Proved for values up to 19 characters, which covers everything the program formats."
  },
  {
   "property": "C200",
   "status": "partial",
   "theorems": [
    "ASAPy.Recon.C200_floats_partial",
    "ASAPy.Recon.C200_ints_refuted",
    "ASAPy.Recon.C200_cut_refuted",
    "ASAPy.Recon.C200_unavailable"
   ],
   "note": "Proved for arrays of floats. For whole numbers every cross section is cut to a whole number."
  },
  {
   "property": "C201",
   "status": "partial",
   "theorems": [
    "ASAPy.Recon.C201_histories_partial",
    "ASAPy.Recon.C201_stale_refuted",
    "ASAPy.Recon.C201_shared_refuted"
   ],
   "note": "Proved if nothing is assigned. New parameters are not taken into account after a reconstruction, and copies share what has been prepared: changing a copy changes the original."
  },
  {
   "property": "C202",
   "status": "proved",
   "theorems": [
    "ASAPy.Recon.C202_s_wave",
    "ASAPy.Recon.C202_close"
   ],
   "note": "Over the reals."
  },
  {
   "property": "C203",
   "status": "proved",
   "theorems": [
    "ASAPy.Recon.C203_collision"
   ],
   "note": "Over the reals. Exact, except where a phase shift is below 3e-4: there the code uses a series, and the error is proved to be at most 5e-14 of the limit of unitarity."
  },
  {
   "property": "C204",
   "status": "proved",
   "theorems": [
    "ASAPy.Recon.C204_mlbw_formula"
   ],
   "note": "Over the reals."
  },
  {
   "property": "C205",
   "status": "proved",
   "theorems": [
    "ASAPy.Recon.C205_wave_number"
   ],
   "note": "Over the reals."
  },
  {
   "property": "C206",
   "status": "partial",
   "theorems": [
    "ASAPy.ReconEval.C206_values_partial",
    "ASAPy.ReconEval.C206_bound_refuted",
    "ASAPy.ReconEval.C206_rml_refuted"
   ],
   "note": "Proved for files whose covering ranges are Breit-Wigner or Reich-Moore with data that make sense. R-matrix limited ranges raise; with NRO=1, NAPS=1 the penetration of bound levels, by which widths are divided, is zero."
  },
  {
   "property": "C207",
   "status": "partial",
   "theorems": [
    "ASAPy.ReconEval.C207_array_partial",
    "ASAPy.ReconEval.C207_rml_refuted"
   ],
   "note": "Proved for floats and the reactions 2, 18, 102 if every resolved range can be reconstructed at some energy. With an R-matrix limited range every array raises, although numbers outside of it do not."
  },
  {
   "property": "C208",
   "status": "partial",
   "theorems": [
    "ASAPy.ReconEval.C208_weighted_partial",
    "ASAPy.ReconEval.C208_abundance_refuted"
   ],
   "note": "Holds if all abundances are 1. Abundances are read over: an isotope of abundance 1/2 counts as if it were 1."
  },
  {
   "property": "C209",
   "status": "partial",
   "theorems": [
    "ASAPy.DNjoy.C209_files_partial",
    "ASAPy.DNjoy.C209_returns",
    "ASAPy.DNjoy.C209_failed",
    "ASAPy.DNjoy.C209_equal_refuted",
    "ASAPy.DNjoy.C209_leftover_refuted"
   ],
   "note": "Proved if temperatures differ in the first decimal and the files of single temperatures are not there before. Temperatures that are equal to one decimal make the call raise; a table that NJOY did not write is taken from a file left over by an earlier run."
  },
  {
   "property": "C21",
   "status": "partial",
   "theorems": [
    "ASAPy.WriteAce.C21_identity_partial",
    "ASAPy.WriteAce.C21_identity_refuted"
   ],
   "note": "False exactly when the number of values is a multiple of four: a blank line is appended. Proved otherwise."
  },
  {
   "property": "C210",
   "status": "partial",
   "theorems": [
    "ASAPy.DNjoy.C210_names_partial",
    "ASAPy.DNjoy.C210_am242_refuted",
    "ASAPy.DNjoy.C210_second_refuted"
   ],
   "note": "Proved for ground and first metastable states of all nuclides but Am-242. Am-242 is read as Am-242m and conversely; a second metastable state is read as the first."
  },
  {
   "property": "C211",
   "status": "partial",
   "theorems": [
    "ASAPy.DNjoy.C211_add_partial",
    "ASAPy.DNjoy.C211_other",
    "ASAPy.DNjoy.C211_again",
    "ASAPy.DNjoy.C211_history_partial",
    "ASAPy.DNjoy.C211_rounding_refuted",
    "ASAPy.DNjoy.C211_missing_refuted"
   ],
   "note": "Proved for temperatures that differ in whole kelvins and the reactions that both have. Temperatures that round to the same kelvin are left out, as are reactions that the nuclide does not have."
  },
  {
   "property": "C212",
   "status": "partial",
   "theorems": [
    "ASAPy.DNjoy.C212_from_njoy_partial",
    "ASAPy.DNjoy.C212_am242_refuted"
   ],
   "note": "Proved if the identifier is read as the same nuclide in both schemes (with C210: all ground and first metastable states but Am-242). Am-242 and Am-242m at two temperatures raise ValueError."
  },
  {
   "property": "C213",
   "status": "partial",
   "theorems": [
    "ASAPy.DNjoy.C213_pendf",
    "ASAPy.DNjoy.C213_pendf_returns",
    "ASAPy.DNjoy.C213_thermal_partial",
    "ASAPy.DNjoy.C213_thermal_returns",
    "ASAPy.DNjoy.C213_leftover_refuted"
   ],
   "note": "For thermal tables, as in C118, the first three ZAIDs of the scatterer are on the card, and the files of single temperatures are not there before the call; if they are and NJOY writes no tapes, the old tables are taken (C213_leftover_refuted)."
  },
  {
   "property": "C214",
   "status": "proved",
   "theorems": [
    "ASAPy.Uni.C214_value",
    "ASAPy.Uni.C214_accepted",
    "ASAPy.Uni.C214_empty",
    "ASAPy.Uni.C214_coefficients",
    "ASAPy.Uni.C214_moments",
    "ASAPy.Uni.C214_integral",
    "ASAPy.Uni.C214_unique",
    "ASAPy.Uni.C214_polynomials"
   ],
   "note": "numpy's Legendre series is modelled by its recurrence (legval, Clenshaw), with exact reals; P is Bonnet's recurrence, shown to have degree n, value 1 at 1 and to be orthogonal."
  },
  {
   "property": "C215",
   "status": "partial",
   "theorems": [
    "ASAPy.Uni.C215_angles_partial",
    "ASAPy.Uni.C215_two_body_refuted",
    "ASAPy.Uni.C215_correlated_refuted"
   ],
   "note": "Proved for file 4. For LAW 2 and LAW 1 (LANG 1) of file 6 it is false of the code: what the expansions integrate to instead is proved."
  },
  {
   "property": "C216",
   "status": "partial",
   "theorems": [
    "ASAPy.Uni.C216_tabular",
    "ASAPy.Uni.C216_tabular_lists",
    "ASAPy.Uni.C216_interpolation",
    "ASAPy.Uni.C216_discrete",
    "ASAPy.Uni.C216_discrete_lists",
    "ASAPy.Uni.C216_discrete_numbers",
    "ASAPy.Uni.C216_watt",
    "ASAPy.Uni.C216_watt_numbers",
    "ASAPy.Uni.C216_uniform",
    "ASAPy.Uni.C216_uniform_refuted",
    "ASAPy.Uni.C216_iterator_refuted",
    "ASAPy.Uni.C216_lengths_refuted"
   ],
   "note": "Holds for histories of any length; refuted where a one-shot iterator is assigned (kept empty, negative values unseen), lengths differ, or the bounds of a Uniform are not in order. Maxwell is the one-parameter case of Watt. Numbers are reals: no NaN, which passes every comparison here."
  },
  {
   "property": "C217",
   "status": "partial",
   "theorems": [
    "ASAPy.Uni.C217_tabular_partial",
    "ASAPy.Uni.C217_discrete_partial",
    "ASAPy.Uni.C217_watt",
    "ASAPy.Uni.C217_ambiguous_refuted"
   ],
   "note": "str of numbers is a parameter that gives words. Refuted when there are not as many values as probabilities."
  },
  {
   "property": "C218",
   "status": "partial",
   "theorems": [
    "ASAPy.Uni.C218_kept",
    "ASAPy.Uni.C218_leaf",
    "ASAPy.Uni.C218_indented",
    "ASAPy.Uni.C218_again",
    "ASAPy.Uni.C218_text",
    "ASAPy.Uni.C218_default_refuted"
   ],
   "note": "Names in get_text are plain tags (no paths or namespaces). The default is not used for a subelement without text."
  },
  {
   "property": "C219",
   "status": "partial",
   "theorems": [
    "ASAPy.Sampler.C219_set_to_zero",
    "ASAPy.Sampler.C219_no_effect",
    "ASAPy.Sampler.C219_raises",
    "ASAPy.Sampler.C219_raise_refuted",
    "ASAPy.Sampler.C219_zero_mean_refuted"
   ],
   "note": "False: raise_on_bad_sample never raises for negative values if they are not removed, and ratios to a mean of zero stay infinite or NaN. Proved where negative samples are removed, and for means that are not zero."
  },
  {
   "property": "C22",
   "status": "proved",
   "theorems": [
    "ASAPy.WriteAce.C22_replaces_in_place",
    "ASAPy.WriteAce.C22_first"
   ],
   "note": ""
  },
  {
   "property": "C220",
   "status": "partial",
   "theorems": [
    "ASAPy.CovCli.C220_accepted",
    "ASAPy.CovCli.C220_misspelt",
    "ASAPy.CovCli.C220_one_file",
    "ASAPy.CovCli.C220_file",
    "ASAPy.CovCli.C220_order",
    "ASAPy.CovCli.C220_sound",
    "ASAPy.CovCli.C220_store",
    "ASAPy.CovCli.C220_default_store",
    "ASAPy.CovCli.C220_output",
    "ASAPy.CovCli.C220_mts_refuted",
    "ASAPy.CovCli.C220_weight_refuted",
    "ASAPy.CovCli.C220_name_refuted"
   ],
   "note": "False: the file directly behind the numbers of -mts is refused, weight 1 of the help is refused, and the name of the store has no underscore before the number of groups. Proved for every command line where the file does not follow -mts."
  },
  {
   "property": "C221",
   "status": "partial",
   "theorems": [
    "ASAPy.AceData.C221_ascii",
    "ASAPy.AceData.C221_binary",
    "ASAPy.AceData.C221_converted_partial",
    "ASAPy.AceData.C221_plain_refuted"
   ],
   "note": "False for a binary file whose bytes are all ASCII, such as the example beside C221_plain_refuted: an exception is raised. Proved if the atomic weight ratio of the first table has a byte that is not ASCII, and for all ASCII files (without carriage returns)."
  },
  {
   "property": "C222",
   "status": "partial",
   "theorems": [
    "ASAPy.FromAce.C222_inelastic_partial",
    "ASAPy.FromAce.C222_inelastic_refuted",
    "ASAPy.FromAce.C222_nonelastic",
    "ASAPy.FromAce.C222_absorption_refuted"
   ],
   "note": "False for tables without photons of MT 4 (the sum is not there), and for tables with photons of MT 3 and no absorption (UnboundLocalError). Proved for tables with photons of MT 4; with photons of MT 3, MT 101 is the absorption of the main block and MT 3 is not there."
  },
  {
   "property": "C223",
   "status": "proved",
   "theorems": [
    "ASAPy.FromAce.C223_kelvin",
    "ASAPy.FromAce.C223_same"
   ],
   "note": ""
  },
  {
   "property": "C224",
   "status": "proved",
   "theorems": [
    "ASAPy.Tab1D.C224_law",
    "ASAPy.Tab1D.C224_one_law",
    "ASAPy.Tab1D.C224_default",
    "ASAPy.Tab1D.C224_ends"
   ],
   "note": ""
  },
  {
   "property": "C225",
   "status": "partial",
   "theorems": [
    "ASAPy.Store.C225_covariance_partial",
    "ASAPy.Store.C225_zero_refuted"
   ],
   "note": "Proved for files in which every group has a cross section (Proper: symmetric, Cauchy-Schwarz, deviations that are those of the covariance). False for groups without a cross section: their variance becomes 1e-14 and not 0."
  },
  {
   "property": "C226",
   "status": "partial",
   "theorems": [
    "ASAPy.Attrs.C226_assigned",
    "ASAPy.Attrs.C226_neutron_partial",
    "ASAPy.Attrs.C226_reaction",
    "ASAPy.Attrs.C226_product",
    "ASAPy.Attrs.C226_decay",
    "ASAPy.Attrs.C226_tables",
    "ASAPy.Attrs.C226_nbody",
    "ASAPy.Attrs.C226_urr_refuted",
    "ASAPy.Attrs.C226_covariance_refuted"
   ],
   "note": "False for two attributes of IncidentNeutron: a dictionary of probability tables assigned to urr is refused unless it is empty, and reading resonance_covariance before it is assigned raises an AttributeError. NaN passes the checks of bounds, and one text passes for a list of decay modes; the specification says so."
  },
  {
   "property": "C227",
   "status": "proved",
   "theorems": [
    "ASAPy.Attrs.C227_constructed",
    "ASAPy.Attrs.C227_history",
    "ASAPy.Attrs.C227_photon",
    "ASAPy.Attrs.C227_photon_reaction",
    "ASAPy.Attrs.C227_uncorrelated",
    "ASAPy.Attrs.C226_assigned"
   ],
   "note": ""
  },
  {
   "property": "C228",
   "status": "partial",
   "theorems": [
    "ASAPy.CovRun.C228_stored_partial",
    "ASAPy.CovRun.C228_file_partial",
    "ASAPy.CovRun.C228_returns",
    "ASAPy.CovRun.C228_stale_refuted"
   ],
   "note": "False if the output directory has tapes of an earlier run: if NJOY makes no tape of this file, the old one is read and stored for this nuclide (C228_stale_refuted). Proved for a directory without them; also needed: A below 1000, no MT 452 or 1018 in MF 33, group boundaries and names that can be written on a card. The reading of the ENDF file by the evaluation class is a parameter in C228_stored_partial; in C228_file_partial it is that of C70 and C72."
  },
  {
   "property": "C229",
   "status": "partial",
   "theorems": [
    "ASAPy.CovRun.C229_read_back",
    "ASAPy.CovRun.C229_stored_partial",
    "ASAPy.CovRun.C231_file_partial",
    "ASAPy.CovRun.C228_stale_refuted",
    "ASAPy.Boxr.printF_close"
   ],
   "note": "The first half is proved in full for texts that follow the formats. The second half is false if the output directory has tapes of an earlier run (C228_stale_refuted) and proved for a directory without them. The printed numbers differ from those of the tape by at most 1/2000 of the value (printF_close). Single precision in boxer2mat is not modelled."
  },
  {
   "property": "C23",
   "status": "partial",
   "theorems": [
    "ASAPy.WriteAce.C23_first_occurrence_partial",
    "ASAPy.WriteAce.C23_other_data_refuted"
   ],
   "note": "False: the match is textual. Proved: exactly the first textual occurrence is replaced."
  },
  {
   "property": "C230",
   "status": "partial",
   "theorems": [
    "ASAPy.FromAce.C230_listed",
    "ASAPy.FromAce.C230_elastic",
    "ASAPy.FromAce.C230_added",
    "ASAPy.FromAce.C230_neutrons"
   ],
   "note": "Missing: MT 101, which photons of MT 3 may overwrite (see C222), and the sums 16 and 103-107, which are also added without photons. The yields of the photons and spectra of other laws than 4 are not in this model of the table."
  },
  {
   "property": "C231",
   "status": "partial",
   "theorems": [
    "ASAPy.CovRun.C231_sampled_partial",
    "ASAPy.CovRun.C231_file_partial",
    "ASAPy.CovRun.C231_applied",
    "ASAPy.CovRun.C231_chi",
    "ASAPy.CovRun.C231_written",
    "ASAPy.CovRun.C231_written_nu",
    "ASAPy.CovRun.C231_written_chi",
    "ASAPy.CovRun.C228_stale_refuted"
   ],
   "note": "False if the output directory has tapes of an earlier run (C228_stale_refuted); proved for a directory without them, for tapes whose printed covariances are symmetric, with positive variances and correlations of at most one. C231_file_partial starts from the text of the ENDF file and also gives the second half of C229. The last sentence is proved in the editor for elementary reactions and nu-bar (C231_applied) and for the fission spectrum, which is normalised afterwards (C231_chi), and on the written file for elementary reactions (C231_written), nu-bar (C231_written_nu) and the fission spectrum (C231_written_chi), any of them sampled together, with a cross section of zero counted as one (C34)."
  },
  {
   "property": "C232",
   "status": "proved",
   "theorems": [
    "ASAPy.Sampled.C232_chi",
    "ASAPy.Sampled.C232_norm",
    "ASAPy.Sampled.C34_with_chi"
   ],
   "note": "The state of the editor after the sample and the sum rules; the text of the written file is not part of it. C34 on zeros does not apply: for chi the code does not replace zeros."
  },
  {
   "property": "C233",
   "status": "proved",
   "theorems": [
    "ASAPy.EndToEnd.C233_nu",
    "ASAPy.EndToEnd.C233_chi",
    "ASAPy.EndToEnd.C233_nu_file",
    "ASAPy.EndToEnd.C233_chi_file",
    "ASAPy.EndToEnd.ChiExample.C233_places_refuted"
   ],
   "note": "C233_nu and C233_chi are for any replacements, C233_nu_file and C233_chi_file for those of a sample. Nu-bar as in C80 (tables of prompt and total nu, not all values the same), spectra of law 4 as in C81. C233_chi_file is for a sample with chi, alone or with other MTs, and assumes that the new cumulated probabilities are not negative. C233_places_refuted shows that the condition on the places is needed."
  },
  {
   "property": "C24",
   "status": "proved",
   "theorems": [
    "ASAPy.WriteAce.C24_failure"
   ],
   "note": ""
  },
  {
   "property": "C25",
   "status": "proved",
   "theorems": [
    "ASAPy.WriteAce.C25_sampled_file",
    "ASAPy.Sampled.C25_render"
   ],
   "note": "C25_render lifts the file theorem to the whole run of write_sampled_data for one sample."
  },
  {
   "property": "C26",
   "status": "proved",
   "theorems": [
    "ASAPy.MapGroups.C26_every_energy_has_one_group",
    "ASAPy.MapGroups.C26_energy_gets_its_group_value"
   ],
   "note": ""
  },
  {
   "property": "C27",
   "status": "proved",
   "theorems": [
    "ASAPy.MapGroups.C27_outside_gets_fill"
   ],
   "note": ""
  },
  {
   "property": "C28",
   "status": "partial",
   "theorems": [
    "ASAPy.MapGroups.C28_lower_bound_refuted"
   ],
   "note": "The code does not have the property: min_e itself gets the fill value. Refuted for every usable input; what happens above min_e is C26."
  },
  {
   "property": "C29",
   "status": "partial",
   "theorems": [
    "ASAPy.MapGroups.C29_inconsistent_bounds_rejected_partial",
    "ASAPy.MapGroups.C29_min_above_lowest_accepted_refuted"
   ],
   "note": "Rejection proved for the conditions the code checks; a min_e between the lowest high bound and the rest can be accepted (refuted)."
  },
  {
   "property": "C30",
   "status": "partial",
   "theorems": [
    "ASAPy.Sampler.C30_full_values",
    "ASAPy.Sampler.C30_relative_partial",
    "ASAPy.Sampler.C30_zero_mean_refuted"
   ],
   "note": "False for relative samples when a group has mean zero: the sample is lost. Proved for full values always and for relative values with positive means."
  },
  {
   "property": "C31",
   "status": "partial",
   "theorems": [
    "ASAPy.Sampler.C31_delivered_partial",
    "ASAPy.Sampler.C31_raises",
    "ASAPy.Sampler.C31_delivered_refuted"
   ],
   "note": "False: the oversampling number is ignored, so samples with negative values are missing at the end. Proved: the number delivered is the number of non-negative drawn samples."
  },
  {
   "property": "C32",
   "status": "partial",
   "theorems": [
    "ASAPy.Sampler.C32_relative_times_mean_partial",
    "ASAPy.Sampler.C32_zero_mean_refuted"
   ],
   "note": "False at groups with zero mean; proved for all others."
  },
  {
   "property": "C33",
   "status": "partial",
   "theorems": [
    "ASAPy.Mpi.C33_one_rank",
    "ASAPy.Mpi.C33_same_files_partial",
    "ASAPy.Mpi.C33_files",
    "ASAPy.Mpi.C33_can_finish",
    "ASAPy.Mpi.C33_failing_sample_refuted"
   ],
   "note": "Proved for every number of ranks and every complete interleaving of the file operations when no sample raises; with a sample that raises, the files written depend on the number of ranks (refuted)."
  },
  {
   "property": "C34",
   "status": "partial",
   "theorems": [
    "ASAPy.Sampled.C34_sampled_values_partial",
    "ASAPy.Sampled.C34_zero_refuted",
    "ASAPy.Sampled.C34_with_chi"
   ],
   "note": "False where the base value is zero: it is counted as one. Proved with that exception spelled out, for any number of elementary MTs, with the fission spectrum among the sampled ones or not (C34_with_chi)."
  },
  {
   "property": "C35",
   "status": "partial",
   "theorems": [
    "ASAPy.Sampled.C35_unit_sample_partial",
    "ASAPy.Sampled.C35_chi",
    "ASAPy.Sampled.C35_with_chi_partial",
    "ASAPy.Sampled.C35_unit_refuted"
   ],
   "note": "False for a file with zeros in sampled values; proved otherwise, for cross sections and nu-bar (C35_unit_sample_partial) and for the fission spectrum, whose cdfs end in one (C35_chi), and for both in one sample (C35_with_chi_partial)."
  },
  {
   "property": "C36",
   "status": "proved",
   "theorems": [
    "ASAPy.EigenFix.C36_selected_posdef",
    "ASAPy.EigenFix.C36_posdef",
    "ASAPy.EigenFix.C36_unchanged",
    "ASAPy.EigenFix.C36_no_diagonal"
   ],
   "note": "eigh is a parameter with its documented contract; existence of such a decomposition is shown (exists_contract)."
  },
  {
   "property": "C37",
   "status": "partial",
   "theorems": [
    "ASAPy.EigenFix.C37_diagonal_partial",
    "ASAPy.EigenFix.C37_trace_refuted"
   ],
   "note": "False as soon as an eigenvalue is below 1e-8: the trace grows. Proved: the diagonal is at least 1 and at most 1 plus the shift."
  },
  {
   "property": "C38",
   "status": "partial",
   "theorems": [
    "ASAPy.Load.C38_correlation_partial",
    "ASAPy.Load.C38_bounds",
    "ASAPy.Load.C38_ordered",
    "ASAPy.Load.C38_filled",
    "ASAPy.Load.C38_zero_diagonal_refuted"
   ],
   "note": "False for a correlation with a zero diagonal (division by zero); proved otherwise."
  },
  {
   "property": "C39",
   "status": "proved",
   "theorems": [
    "ASAPy.CovCorr.C39_symmetric",
    "ASAPy.CovCorr.C39_entries",
    "ASAPy.CovCorr.C39_corr_round_trip",
    "ASAPy.CovCorr.C39_cov_round_trip"
   ],
   "note": ""
  },
  {
   "property": "C40",
   "status": "proved",
   "theorems": [
    "ASAPy.Gmw.C40_reconstruction",
    "ASAPy.Gmw.C40_exact",
    "ASAPy.Gmw.C40_no_shift",
    "ASAPy.Gmw.C40_bounds"
   ],
   "note": "Exact arithmetic. C40_bounds limits the elements of the factor and the shift."
  },
  {
   "property": "C41",
   "status": "partial",
   "theorems": [
    "ASAPy.Gmw.C41_factor_partial",
    "ASAPy.Gmw.C41_pivoting_refuted"
   ],
   "note": "False: the fallback ignores the permutation returned by gmw_cholesky. Proved when the pivots are taken in order."
  },
  {
   "property": "C42",
   "status": "proved",
   "theorems": [
    "ASAPy.RankOrder.C42_ranks",
    "ASAPy.RankOrder.C42_reorder",
    "ASAPy.RankOrder.C42_same_ranks",
    "ASAPy.RankOrder.C42_all_columns"
   ],
   "note": ""
  },
  {
   "property": "C43",
   "status": "proved",
   "theorems": [
    "ASAPy.SampleCorr.C43_result",
    "ASAPy.SampleCorr.C43_returns"
   ],
   "note": "The matrix of scores and the drawn numbers are parameters."
  },
  {
   "property": "C44",
   "status": "partial",
   "theorems": [
    "ASAPy.SampleCorr.C44_no_data_partial",
    "ASAPy.SampleCorr.C44_no_data_refuted"
   ],
   "note": "False when no variable is excluded for another reason: the mask of missing data is dropped. Proved when some variable is."
  },
  {
   "property": "C45",
   "status": "proved",
   "theorems": [
    "ASAPy.SampleCorr.C45_mean",
    "ASAPy.SampleCorr.C45_variance",
    "ASAPy.SampleCorr.C45_positive",
    "ASAPy.SampleCorr.C45_log_corr",
    "ASAPy.SampleCorr.C45_log_corr_meaning",
    "ASAPy.SampleCorr.C45_log_corr_posSemidef",
    "ASAPy.SampleCorr.C45_log_corr_bounded"
   ],
   "note": "Mean and variance as integrals over the standard normal distribution; beyond the property: the transformed matrix is the lognormal correlation, stays positive semidefinite and within [-1,1]."
  },
  {
   "property": "C46",
   "status": "partial",
   "theorems": [
    "ASAPy.SampleCorr.C46_uniform_partial",
    "ASAPy.SampleCorr.C46_centred_refuted"
   ],
   "note": "False: samples lie in [mean, mean+std], their mean is mean+std/2."
  },
  {
   "property": "C47",
   "status": "partial",
   "theorems": [
    "ASAPy.Boxer.C47_fields",
    "ASAPy.Boxer.C47_values_partial",
    "ASAPy.Boxer.C47_wide_exponent_refuted"
   ],
   "note": "Cutting into 10-character fields is proved for all lines. All values with two-digit exponents are proved to be read exactly. A three-digit exponent, written by Fortran without E, stops the reading (counterexample), so the full statement is false."
  },
  {
   "property": "C48",
   "status": "proved",
   "theorems": [
    "ASAPy.Boxer.C48_starts",
    "ASAPy.Boxer.C48_rejected",
    "ASAPy.Boxer.C48_blocks",
    "ASAPy.Boxer.C48_written_file",
    "ASAPy.Boxer.C48_too_few"
   ],
   "note": "Block starts characterised for every file, rejections for every file, the four blocks of a well formed file, and the end-to-end reading of a written file."
  },
  {
   "property": "C49",
   "status": "proved",
   "theorems": [
    "ASAPy.CovCorr.C49_stored_is_proper",
    "ASAPy.CovCorr.C49_nothing_lost"
   ],
   "note": ""
  },
  {
   "property": "C50",
   "status": "partial",
   "theorems": [
    "ASAPy.Store.C50_complete_partial",
    "ASAPy.Store.C50_states_partial",
    "ASAPy.Store.C50_refuted",
    "ASAPy.Store.C50_crash_refuted"
   ],
   "note": "False: the correlation is stored before the std_dev frame is checked, and the two puts are separate. Proved: what the store can look like at every point, and that both frames are there after a successful run."
  },
  {
   "property": "C51",
   "status": "proved",
   "theorems": [
    "ASAPy.Store.C51_keys_differ",
    "ASAPy.Store.C51_history",
    "ASAPy.Store.C51_mts"
   ],
   "note": ""
  },
  {
   "property": "C52",
   "status": "proved",
   "theorems": [
    "ASAPy.Store.C52_accepted_iff",
    "ASAPy.Store.C52_corr_accepted_iff"
   ],
   "note": "For frames with the labels 1..n, the only ones create_stddev_df makes."
  },
  {
   "property": "C53",
   "status": "proved",
   "theorems": [
    "ASAPy.Njoy.C53_cover_tapes",
    "ASAPy.Njoy.C53_no_reactions_refuted"
   ],
   "note": "C53_no_reactions_refuted shows that the hypothesis of a non-empty MT list, part of the property, is needed."
  },
  {
   "property": "C54",
   "status": "partial",
   "theorems": [
    "ASAPy.Njoy.C54_written_partial",
    "ASAPy.Njoy.C54_asked",
    "ASAPy.Njoy.C54_no_clash",
    "ASAPy.Njoy.C54_first_temperature_refuted"
   ],
   "note": "Proved for every MT at every temperature, and for nu and chi at one temperature, which is how the program calls it. With several temperatures nu and chi are only made for the last one (counterexample)."
  },
  {
   "property": "C55",
   "status": "proved",
   "theorems": [
    "ASAPy.Endf.C55_others",
    "ASAPy.Endf.C55_value",
    "ASAPy.Endf.C55_letter",
    "ASAPy.Endf.C55_refused"
   ],
   "note": ""
  },
  {
   "property": "C56",
   "status": "proved",
   "theorems": [
    "ASAPy.Endf.C56_integer",
    "ASAPy.Endf.C56_list",
    "ASAPy.Endf.C56_tab1",
    "ASAPy.Endf.C56_tab2"
   ],
   "note": ""
  },
  {
   "property": "C57",
   "status": "partial",
   "theorems": [
    "ASAPy.Endf.C57_terminates_partial",
    "ASAPy.Endf.C57_truncated_refuted"
   ],
   "note": "False: on a file cut inside a section the reader loops for ever (readline returns the empty string, which never ends a section). Proved: it ends on every file whose last line ends a section (columns 73-75 blank blank 0)."
  },
  {
   "property": "C58",
   "status": "partial",
   "theorems": [
    "ASAPy.AceData.C58_nndc_partial",
    "ASAPy.AceData.C58_second_state_refuted",
    "ASAPy.AceData.C58_documented_refuted",
    "ASAPy.AceData.C58_mcnp",
    "ASAPy.AceData.C58_sza"
   ],
   "note": "Proved for ground and first metastable states. False for higher states, which are given as the first, and for the identifiers as the documentation of get_metadata describes them (1000 Z + A + 100 m)."
  },
  {
   "property": "C59",
   "status": "proved",
   "theorems": [
    "ASAPy.AceData.C59_round_trip"
   ],
   "note": "Stronger than the property: all data of all tables, or of those asked for by name, are read back."
  },
  {
   "property": "C60",
   "status": "proved",
   "theorems": [
    "ASAPy.AceData.C60_round_trip",
    "ASAPy.AceData.C60_injective"
   ],
   "note": ""
  },
  {
   "property": "C61",
   "status": "proved",
   "theorems": [
    "ASAPy.Comp.C61_components",
    "ASAPy.Comp.C61_no_overlap"
   ],
   "note": ""
  },
  {
   "property": "C62",
   "status": "partial",
   "theorems": [
    "ASAPy.Grid.C62_thin_partial",
    "ASAPy.Grid.C62_zero_tolerance_refuted"
   ],
   "note": "False for tolerance 0 with repeated points or for x repeated more than twice; proved for a positive tolerance and no x repeated more than once."
  },
  {
   "property": "C63",
   "status": "proved",
   "theorems": [
    "ASAPy.Groups.C63_increasing",
    "ASAPy.Groups.C63_rounded",
    "ASAPy.Groups.C63_stored"
   ],
   "note": ""
  },
  {
   "property": "C64",
   "status": "partial",
   "theorems": [
    "ASAPy.Boxr.C64_decompressed_partial",
    "ASAPy.Boxr.C64_accepted",
    "ASAPy.Boxr.C64_unique",
    "ASAPy.Boxr.C64_read_back",
    "ASAPy.Boxr.C64_only_data_on_file",
    "ASAPy.Boxr.C64_mixed_refuted"
   ],
   "note": "For pages of one size, as NJOY writes them; with pages of different sizes the count may agree although an element is not assigned (C64_mixed_refuted). Also proved end to end with the reader of ASAPy."
  },
  {
   "property": "C65",
   "status": "partial",
   "theorems": [
    "ASAPy.Store.C65_skipped_partial",
    "ASAPy.Store.C65_named_partial",
    "ASAPy.Store.C65_lumped_refuted"
   ],
   "note": "False for MTs that are not in REACTION_NAME, e.g. the lumped reactions 851-870: KeyError while printing the message. Proved for every MT with a name, which includes 452, 1018 and all reactions of the sum rules."
  },
  {
   "property": "C66",
   "status": "partial",
   "theorems": [
    "ASAPy.Store.C66_single_nuclide_partial",
    "ASAPy.Store.C66_two_nuclides_refuted"
   ],
   "note": "False for stores with several nuclides: MTs of other nuclides are taken too and raise KeyError. Proved for one nuclide."
  },
  {
   "property": "C67",
   "status": "proved",
   "theorems": [
    "ASAPy.Store.C67_row",
    "ASAPy.Store.C67_frame",
    "ASAPy.Store.C67_written_file"
   ],
   "note": "C67_written_file: from the text of the file to the store."
  },
  {
   "property": "C68",
   "status": "partial",
   "theorems": [
    "ASAPy.Njoy.C68_wired_partial",
    "ASAPy.Njoy.C68_refuted",
    "ASAPy.Njoy.C68_run_refuted"
   ],
   "note": "False: with covariances but without HEATR, PURR and ACER read the last covariance tape as PENDF; and run=True always raises. Proved for all other combinations of switches."
  },
  {
   "property": "C69",
   "status": "partial",
   "theorems": [
    "ASAPy.Njoy.C69_refuted",
    "ASAPy.Njoy.C69_partial"
   ],
   "note": "False: make_pendf always raises, since errorr is left on without groups. Proved for the call with errorr switched off."
  },
  {
   "property": "C70",
   "status": "proved",
   "theorems": [
    "ASAPy.Endf.C70_sections"
   ],
   "note": ""
  },
  {
   "property": "C71",
   "status": "partial",
   "theorems": [
    "ASAPy.Endf.C71_all_read_partial",
    "ASAPy.Endf.C71_closed_refuted",
    "ASAPy.Endf.C71_never_refuted"
   ],
   "note": "Proved for the version in ASAPy/data/endf.py. False for the one in ASAPy/endf.py, whose Evaluation closes the file: it always raises ValueError after the first evaluation."
  },
  {
   "property": "C72",
   "status": "proved",
   "theorems": [
    "ASAPy.Endf.C72_header"
   ],
   "note": ""
  },
  {
   "property": "C73",
   "status": "partial",
   "theorems": [
    "ASAPy.Endf.C73_symmetric_partial",
    "ASAPy.Endf.C73_single_partial",
    "ASAPy.Endf.C73_refuted"
   ],
   "note": "False: all elements of a line are put on its first column. Proved: the result is symmetric, the diagonal is 1, and everything is right if every line has one element."
  },
  {
   "property": "C74",
   "status": "partial",
   "theorems": [
    "ASAPy.AceData.C74_all_partial",
    "ASAPy.AceData.C74_get_table",
    "ASAPy.AceData.C74_names_refuted",
    "ASAPy.AceData.C74_small_refuted"
   ],
   "note": "False if the first table is not among the names asked for, or has at most four values and is followed by anything: the reader moves in a text file, which raises. Proved for all tables of files with longer tables."
  },
  {
   "property": "C75",
   "status": "partial",
   "theorems": [
    "ASAPy.AceData.C75_no_blank_partial",
    "ASAPy.AceData.C75_blank_refuted"
   ],
   "note": "False: IndexError if the file ends with a blank line, which the reader accepts. C59_round_trip shows the conversion of files without it."
  },
  {
   "property": "C76",
   "status": "partial",
   "theorems": [
    "ASAPy.AceData.C76_values_partial",
    "ASAPy.AceData.C76_last_refuted"
   ],
   "note": "False exactly when the last number is the only one without the letter: 1.0-120 is then read as 1. Proved in all other cases."
  },
  {
   "property": "C77",
   "status": "proved",
   "theorems": [
    "ASAPy.Grid.C77_linearize",
    "ASAPy.Grid.C77_terminates"
   ],
   "note": ""
  },
  {
   "property": "C78",
   "status": "proved",
   "theorems": [
    "ASAPy.FromAce.C78_reactions"
   ],
   "note": ""
  },
  {
   "property": "C79",
   "status": "proved",
   "theorems": [
    "ASAPy.FromAce.C79_main"
   ],
   "note": ""
  },
  {
   "property": "C80",
   "status": "proved",
   "theorems": [
    "ASAPy.FromAce.C80_nu"
   ],
   "note": ""
  },
  {
   "property": "C81",
   "status": "proved",
   "theorems": [
    "ASAPy.FromAce.C81_chi"
   ],
   "note": ""
  },
  {
   "property": "C82",
   "status": "partial",
   "theorems": [
    "ASAPy.FromAce.C82_listed_partial",
    "ASAPy.FromAce.C82_listed_refuted"
   ],
   "note": "False for nu-bar and the fission spectrum of tables that give one nu only; proved for every other MT."
  },
  {
   "property": "C83",
   "status": "proved",
   "theorems": [
    "ASAPy.AceData.C83_length"
   ],
   "note": ""
  },
  {
   "property": "C84",
   "status": "proved",
   "theorems": [
    "ASAPy.EndToEnd.C84_written"
   ],
   "note": ""
  },
  {
   "property": "C85",
   "status": "proved",
   "theorems": [
    "ASAPy.EndToEnd.C85_written_table"
   ],
   "note": "For headers as the ACE reader expects them, numbers of at most 19 characters and more than four of them."
  },
  {
   "property": "C86",
   "status": "proved",
   "theorems": [
    "ASAPy.EndToEnd.C86_sample_table"
   ],
   "note": ""
  },
  {
   "property": "C87",
   "status": "proved",
   "theorems": [
    "ASAPy.EndToEnd.C87_reload"
   ],
   "note": ""
  },
  {
   "property": "C88",
   "status": "proved",
   "theorems": [
    "ASAPy.EndToEnd.C88_sampled_file"
   ],
   "note": ""
  },
  {
   "property": "C89",
   "status": "proved",
   "theorems": [
    "ASAPy.FromAce.C89_well_formed"
   ],
   "note": ""
  },
  {
   "property": "C90",
   "status": "proved",
   "theorems": [
    "ASAPy.FromAce.C90_level_sums"
   ],
   "note": ""
  },
  {
   "property": "C91",
   "status": "partial",
   "theorems": [
    "ASAPy.Heap.C91_own_arrays_partial",
    "ASAPy.Heap.C91_no_change_partial",
    "ASAPy.Heap.C91_nu_refuted",
    "ASAPy.Heap.C91_set_refuted",
    "ASAPy.Heap.C91_energy_refuted"
   ],
   "note": "False: get_sigma(452), get_energy and set_sigma share arrays with the caller. Proved for arrays the caller made or got from get_sigma for a cross section and has not given to set_sigma, and for every history without changes in place."
  },
  {
   "property": "C92",
   "status": "proved",
   "theorems": [
    "ASAPy.Mpi.C92_interrupted"
   ],
   "note": "For runs in which every sample can be computed."
  },
  {
   "property": "C93",
   "status": "partial",
   "theorems": [
    "ASAPy.Mpi.C93_at_most_one_partial",
    "ASAPy.Mpi.C93_complete_refuted"
   ],
   "note": "False: a process killed while writing leaves the beginning of a file. Proved: at most one incomplete file per process."
  },
  {
   "property": "C94",
   "status": "partial",
   "theorems": [
    "ASAPy.Run.C94_requested_partial",
    "ASAPy.Run.C94_values",
    "ASAPy.Run.C94_accepted",
    "ASAPy.Run.C94_refused",
    "ASAPy.Run.C94_later_refuted",
    "ASAPy.Run.C94_fewer_refuted"
   ],
   "note": "False if negative values are drawn: fewer files, or a failing run; oversampling does not help. Proved if none is drawn."
  },
  {
   "property": "C95",
   "status": "partial",
   "theorems": [
    "ASAPy.Run.C95_files_partial",
    "ASAPy.Run.C95_isomer_refuted"
   ],
   "note": "False for isomers, proved for nuclides with different charge or mass."
  },
  {
   "property": "C96",
   "status": "partial",
   "theorems": [
    "ASAPy.Run.C96_key_partial",
    "ASAPy.Run.C96_neutron_refuted"
   ],
   "note": "False for targets without charge, proved for all others."
  },
  {
   "property": "C97",
   "status": "partial",
   "theorems": [
    "ASAPy.Subprocess.C97_runs_partial",
    "ASAPy.Subprocess.C97_eof_refuted",
    "ASAPy.Subprocess.C97_large_refuted",
    "ASAPy.Subprocess.C97_early_exit_refuted"
   ],
   "note": "False for programs that read to the end of their input, that exit early, or with commands and output larger than the pipes. Proved for programs that read exactly the commands, if commands or output fit a pipe."
  },
  {
   "property": "C98",
   "status": "partial",
   "theorems": [
    "ASAPy.CovRun.C98_stored_partial",
    "ASAPy.CovRun.C98_lumped_refuted",
    "ASAPy.CovRun.C98_prefix",
    "ASAPy.CovRun.C98_files"
   ],
   "note": "False if one file cannot be processed: the rest is not stored. Proved if every file is good or reports no data for a reaction with a name."
  },
  {
   "property": "C99",
   "status": "proved",
   "theorems": [
    "ASAPy.CovRun.C99_rejected"
   ],
   "note": ""
  }
 ]
}