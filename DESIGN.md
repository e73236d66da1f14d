# Formal model of ASAPy: design

The code in `/repo` is Python (plus one Fortran program, boxer2mat). The model is Lean 4, in `lean/Verif`, one directory per area:

* `Model.lean` the code, function by function; each definition cites the file and lines it models and says what it simplifies;
* `Spec.lean` what the theorems speak about (well-formed inputs, intended results), written without the model's functions. It may import
  the model's file for its data types;
* `Lemmas.lean` and others: helper lemmas;
* `Props.lean` (sometimes several) the property theorems, named after the property (`C26_...`), each followed by an
  `example` showing that its hypotheses are met by a concrete non-trivial case.

`properties.jsonl` states the properties in words, `MANIFEST.json` maps them to theorems, `seeded/LOG.jsonl` records the wrong programs the
theorems were tested against.

A property the code does not have is kept in full in `properties.jsonl`; the model then carries a theorem `Cxx_..._refuted` proving its
negation for a concrete input, and `Cxx_..._partial` for the part that holds. The status of such a property is `partial`.

## Conventions of the model

* **Numbers.** Python floats are modelled by exact arithmetic: an arbitrary linearly ordered field `K` when only field operations and
  comparisons occur, the real numbers when `sqrt`, `log` or `exp` occur, rational numbers where text is parsed. Rounding is not modelled. Where
  the code depends on NaN or infinity (division by zero in numpy), the number type is extended with explicit `nan`, `+inf`, `-inf` (`Flt.lean`).
  Floats in binary files are their bit patterns.
* **Exceptions** are values of an error type in `Except`; a state-changing method returns the new state together with the outcome, so that
  partial updates before an exception are visible. Which exception is raised first is only modelled where it can be observed by `except`.
* **Text** is a list of characters (ASCII); a file is a list of lines or a list of bytes.
* **Non-termination.** Loops run on a measure; where the code may loop for ever the model runs a given number of steps, and the theorems say that some
  number suffices or that none does (C57).
* **Concurrency** (MPI) is interleaving of atomic file operations (open and truncate, write, read).
* **Crashes** of the covariance store are prefixes of the sequence of `put`s; one `put` is taken to be atomic.
* **External code** (numpy, pandas, scipy, HDF5, NJOY, MPI) is replaced by its documented behaviour, re-implemented in the model. Numerical or random
  routines are parameters, and the theorems quantify over all results that satisfy the documented contract:
  `scipy.linalg.eigh` (`EigenFix.IsEigh`: orthonormal eigenvectors), the Cholesky factorisation (lower triangular with `L Lᵀ = A`, or an error),
  the matrix of scores and the drawn numbers of `sample_with_corr` (any numbers of the right shape; for the lognormal, the standard normal
  distribution), `rankdata(ordinal)` and `np.sort` (implemented), NJOY (which tapes a module reads and writes).
* **Aliasing.** Arrays are values, except in `Heap`, where the editor is modelled once more with references: `set_sigma` keeps its argument and `get_sigma(452)`
  hands out the live array.

## Trusted base

* Lean 4.33.0's kernel. Every theorem depends on no axioms other than `propext`, `Classical.choice` and `Quot.sound` (Mathlib's). There are no
  axioms of our own, no `sorry`, no `native_decide`, no `bv_decide`. Finite tables (group structures, element symbols, sum rules) are checked with `decide`,
  which is evaluated by the kernel.
* The faithfulness of the model, which is by reading: every definition cites the lines it models.
* The documented behaviour of Python, numpy and pandas functions re-implemented in the model (`searchsorted`, `rankdata`, boolean masks,
  label indexing, `str.replace`, `str.split`, `fromstring`, slices, `struct`, ...), and Fortran 77 DO loops and `1P8E10.3` output for boxer2mat.

## The areas

| directory | code modelled | properties |
|---|---|---|
| `Editor` | AceIO.py 7-410 `AceEditor` (loading from a parsed table, `get_sigma`, `set_sigma`, `apply_sum_rules`, chi, nu, temperatures) | C01-C14 |
| `Tab1D` | data/function.py `Tabulated1D.__call__`, `integral` | C15-C18, C224 |
| `WriteAce` | AceIO.py 413-510 `WriteAce`, the writing loop of `write_sampled_data`, `format(x, '.11E')` | C19-C25 |
| `MapGroups` | XsecSampler.py `map_groups_to_continuous` | C26-C29 |
| `Sampler` | XsecSampler.py `sample`, `_sample_check`, `sample_xsec` after the draw | C30-C32, C219 |
| `Sampled` | XsecSampler.py `write_sampled_data` for one sample; of the fission spectrum (`Chi`), and of both together (`Mixed`) | C25, C34, C35, C232 |
| `Mpi` | the same for all samples and all processes, interleaved | C33, C92, C93 |
| `EigenFix` | XsecSampler.py `_fix_non_pos_semi_def_matrix_eigen` and its use | C36, C37 |
| `Load` | XsecSampler.py `load_zaid_mt` | C38 |
| `CovCorr` | CovManipulation.py conversions; the correlation stored by EndfToCov.py | C39, C49 |
| `Gmw` | CovManipulation.py `gmw_cholesky` and the factor used for sampling | C40, C41 |
| `RankOrder` | CovManipulation.py `rank`, `order` | C42 |
| `SampleCorr` | CovManipulation.py `sample_with_corr`, lognormal parameters | C43-C46 |
| `Boxer` | EndfToCov.py `read_boxer_out_matrix` | C47, C48 |
| `Attrs` | the setters of neutron.py, reaction.py, product.py, decay.py `DecayMode`, urr.py, nbody.py, energy_distribution.py, kalbach_mann.py, angle_distribution.py, uncorrelated.py, fission_energy.py, thermal.py `CoherentElastic`, photon.py (over checkvalue.py) | C226, C227 |
| `Store` | AsapyCovStorage.py, EndfToCov.py `process_cov_to_h5`, the store keys used by XsecSampler.py | C50-C52, C65-C67, C225 |
| `NjoyTapes` | njoy.py `make_ace`, `make_pendf`, `run` (tapes and modules), EndfToCov.py `run_cov_chain` and conversions of tapes | C53, C54, C68, C69 |
| `Endf` | endf.py and data/endf.py: numbers, records, `Evaluation`, header, INTG, `get_evaluations` | C55-C57, C70-C73 |
| `AceData` | data/ace.py: identifiers, ASCII to binary, binary and ASCII readers, choice of the reader, `get_table`; names of data/data.py | C58-C60, C74-C76, C83, C221 |
| `Components` | data/neutron.py `get_reaction_components`, SUM_RULES | C61 |
| `Grid` | data/grid.py | C62, C77 |
| `Groups` | njoy.py group structures | C63 |
| `Boxer2Mat` | boxer2mat.f: the decoder, the reader of pages, the written file; the same from the text of the file (`Text`, `Prog`) and its printing to four digits (`Print`) | C64, C229 |
| `FromAce` | data/neutron.py `from_ace`, data/reaction.py `Reaction.from_ace`, nu blocks, law-4 spectra: from the arrays of an ACE table to the editor's table | C78-C82, C89, C90, C222, C223, C230 |
| `EndToEnd` | the path from a file through sampling and writing to the loaded sample: composition of the other areas and, for nu-bar and fission spectra, `ReloadNu`, `Nu`, `Chi` | C84-C88, C233 |
| `Heap` | AceIO.py `AceEditor` with references to arrays: which arrays the editor and its caller share | C91 |
| `Run` | XsecSampler.py main program: MTs, samples, file names, keys; EndfToCov.py key | C94-C96 |
| `Subprocess` | EndfToCov.py `run_program`, njoy.py `run`: parent, child and the pipes between them, interleaved | C97 |
| `CovRun` | EndfToCov.py main program: which reactions are processed, what is stored; the whole run with NJOY and boxer2mat as parameters (`Whole`, over `Deck`, `Files`, `Run`); with the model of boxer2mat as the program (`Boxer`), and the sampler opened on the result (`Sampled`, over `Store/Calc`) and the ACE files it writes (`Applied`, `Written`, `WrittenNu`, over `EndToEnd`) | C98, C99, C228, C229, C231 |
| `Func` | data/function.py: `sum_functions`, calls with lists, `Regions1D`; data/fission_energy.py | C100-C104 |
| `Scores` | CovManipulation.py 20-30, 361-379: the scores by whose ranks samples are ordered | C105 |
| `Lhs` | CovManipulation.py Latin hypercube draws; XsecSampler.py sample types | C106, C107 |
| `Dists` | angle_distribution.py, angle_energy.py, energy_distribution.py, kalbach_mann.py, correlated.py, nbody.py, urr.py and reaction.py: distributions and yields from ACE tables | C108-C115 |
| `Deck` | njoy.py `make_njoy_run`, `make_ace_thermal` and the templates: the text of the input, read back by a specification of NJOY's reader | C116-C118 |
| `Files` | njoy.py `run`, EndfToCov.py `_run_cover_chain`, `run_program`: the files before and after, with NJOY and boxer2mat as arbitrary programs that change only their directory | C119, C120 |
| `Hdf5` | angle_energy.py, uncorrelated.py, kalbach_mann.py, correlated.py, nbody.py, angle_distribution.py, energy_distribution.py, function.py, product.py, reaction.py, urr.py, fission_energy.py, neutron.py `to_hdf5`, `from_hdf5`: the groups, items and attributes written and read | C121-C124 |
| `Thermal` | data/thermal.py: names, coherent elastic scattering, thermal ACE tables, temperatures, HDF5 | C125-C129 |
| `Plots` | XsecSampler.py 389-718: what plot_sampled_info and plot_xsec hand to matplotlib, and file names | C130-C134 |
| `Batch` | XsecSampler.py 806-868: command line options and the batch job | C135 |
| `Decay` | data/decay.py: decay modes, daughters, decay data, fission yields | C136-C140 |
| `Library` | data/library.py: list of data files and its XML file | C141 |
| `Check` | data/checkvalue.py; data/mixin.py: equality | C142-C144, C167 |
| `Res` | data/resonance.py: reading of all formats of file 2 | C145-C148 |
| `ResCov` | data/resonance_covariance.py: reading, sampling and subsets of covariances of resonance parameters | C149-C154 |
| `EndfRx` | data/reaction.py, angle_distribution.py, energy_distribution.py, correlated.py, kalbach_mann.py, laboratory.py, nbody.py, neutron.py: reactions and nuclides read from evaluations | C155-C162 |
| `Elastic0K` | data/neutron.py `add_elastic_0K_from_endf`, data/function.py `ResonancesWithBackground` | C163-C166 |
| `Masses` | data/data.py `atomic_mass`, `atomic_weight` | C169, C170 |
| `Water` | data/data.py `water_density` | C171 |
| `Photon` | data/photon.py: `AtomicRelaxation`, `PhotonReaction`, `IncidentPhoton.from_ace`, `IncidentPhoton.from_endf` | C172-C177 |
| `Photon` (HDF5) | data/photon.py: `IncidentPhoton.export_to_hdf5` and `to_hdf5` of the reactions | C178-C182 |
| `Multipole` | data/multipole.py: `_faddeeva`, `_broaden_wmp_polynomials`, `WindowedMultipole` | C183-C192 |
| `Recon` | data/reconstruct.pyx: `wave_number`, `penetration_shift`, `phaseshift`, `reconstruct_mlbw`, `reconstruct_slbw`, `reconstruct_rm`; data/resonance.py: `_prepare_resonances`, `reconstruct`, `__copy__` | C193-C205 |
| `ReconEval` | function.py 592-669 with resonance.py 213-250 and reconstruct.pyx: cross sections of an evaluation from its file 2 | C206-C208 |
| `DataNjoy` | data/njoy.py `make_ace`, `make_pendf`, `make_ace_thermal` (files and identifiers), data/neutron.py `add_temperature_from_ace`, `from_njoy` | C209-C213 |
| `Uni` | ASAPy/data/univariate.py (Discrete, Uniform, Maxwell, Watt, Tabular, Legendre: setters, `to_tabular`, `to_xml_element`, values and coefficients), ASAPy/data/_xml.py | C214-C218 |
| `Ids` | ASAPy/data/mixin.py 28-113 (`IDManagerMixin.id`, `reset_auto_ids`, `reserve_ids`, `set_auto_id`) | C168 |
| `CovCli` | EndfToCov.py command line (argparse), group structure, name of the store | C220 |


## What the code does not do

The properties below are false of the code as it is. Each has a theorem with suffix `_refuted` (a concrete input, or every usable input, on which the property fails), and the part that holds is proved in the theorem with suffix `_partial`.

* **C01 A value that was set is read back, and nothing else moves.** False for nu-bar (MT 452) set to the same value at all energies: it is then not recognised as tabulated, and neither get_sigma nor set_sigma nor get_energy work on it any more. Proved for everything else, in any editor state. Chi (MT 1018) is covered by C12: it is normalised when set.
* **C03 A rejected set leaves the editor as it was.** False in full: chi distributions are stored one by one, so a later wrong one (or a negative pdf, rejected after the cdf was stored) leaves a half-changed chi. Proved for everything else.
* **C04 Every changed MT is reported as adjusted.** False for chi after a rejected set; proved for all other MTs and for chi in histories without a rejected set of chi.
* **C09 A change reaches the total through an absent intermediate sum.** False: the rule of MT 1 lists the intermediate sums only. Proved with the intermediate sum on the file.
* **C10 A directly adjusted intermediate sum reaches the sums above it.** False for MT 101 (its rule lists the levels, not 103-107). Proved for MT 3 and MT 1.
* **C13 Setting chi keeps the cdf non-decreasing.** False for histogram cdfs; proved for cdfs by right rectangles.
* **C14 A temperature on the file can be selected.** False: every temperature argument is rejected except "K". Proved: the default for files with one temperature.
* **C15 A tabulated function returns its tabulated values.** Proved for every grid point that is an end point or not within the isclose tolerance of one; false for the others.
* **C18 integral() is the integral of the interpolated function.** Proved for tables all of whose panels are covered by PanelOK; false for lin-log panels (exact error given) and NaN for constant log-lin and 1/x log-log panels.
* **C20 A written ACE file reads back to the same values.** False for values of 20 or more characters (they merge). Proved for values up to 19 characters, which covers everything the program formats.
* **C21 Writing an unmodified ACE file reproduces it byte for byte.** False exactly when the number of values is a multiple of four: a blank line is appended. Proved otherwise.
* **C23 replace_array never touches another reaction's data.** False: the match is textual. Proved: exactly the first textual occurrence is replaced.
* **C28 The lower bound min_e itself is inside the range.** The code does not have the property: min_e itself gets the fill value. Refuted for every usable input; what happens above min_e is C26.
* **C29 Inconsistent bounds are rejected.** Rejection proved for the conditions the code checks; a min_e between the lowest high bound and the rest can be accepted (refuted).
* **C30 Negative samples are removed and the rest kept in order.** False for relative samples when a group has mean zero: the sample is lost. Proved for full values always and for relative values with positive means.
* **C31 The requested number of samples is delivered for every reaction.** False: the oversampling number is ignored, so samples with negative values are missing at the end. Proved: the number delivered is the number of non-negative drawn samples.
* **C32 Relative samples times the mean are the sampled values.** False at groups with zero mean; proved for all others.
* **C33 Each sample is written by exactly one process, whatever the interleaving.** Proved for every number of ranks and every complete interleaving of the file operations when no sample raises; with a sample that raises, the files written depend on the number of ranks (refuted).
* **C34 Points with zero cross section stay zero.** False where the base value is zero: it is counted as one. Proved with that exception spelled out, for any number of elementary MTs, with the fission spectrum among the sampled ones or not (C34_with_chi).
* **C35 A unit sample reproduces the base data.** False for a file with zeros in sampled values; proved otherwise, for cross sections and nu-bar (C35_unit_sample_partial) and for the fission spectrum, whose cdfs end in one (C35_chi), and for both in one sample (C35_with_chi_partial).
* **C37 The repaired matrix is still a correlation matrix.** False as soon as an eigenvalue is below 1e-8: the trace grows. Proved: the diagonal is at least 1 and at most 1 plus the shift.
* **C38 Loading normalises the correlation and orders the bounds.** False for a correlation with a zero diagonal (division by zero); proved otherwise.
* **C41 The factor used for sampling reproduces the desired correlation.** False: the fallback ignores the permutation returned by gmw_cholesky. Proved when the pivots are taken in order.
* **C44 Variables without correlation data are never sampled.** False when no variable is excluded for another reason: the mask of missing data is dropped. Proved when some variable is.
* **C46 Uniform sampling is centred on the mean.** False: samples lie in [mean, mean+std], their mean is mean+std/2.
* **C47 Fixed-width BOXER blocks are read field by field.** Cutting into 10-character fields is proved for all lines. All values with two-digit exponents are proved to be read exactly. A three-digit exponent, written by Fortran without E, stops the reading (counterexample), so the full statement is false.
* **C50 The store never holds a correlation without its standard deviations.** False: the correlation is stored before the std_dev frame is checked, and the two puts are separate. Proved: what the store can look like at every point, and that both frames are there after a successful run.
* **C53 Every NJOY covariance output is converted, and only those.** C53_no_reactions_refuted shows that the hypothesis of a non-empty MT list, part of the property, is needed.
* **C54 The files looked for are the files produced.** Proved for every MT at every temperature, and for nu and chi at one temperature, which is how the program calls it. With several temperatures nu and chi are only made for the last one (counterexample).
* **C57 Reading an ENDF file terminates.** False: on a file cut inside a section the reader loops for ever (readline returns the empty string, which never ends a section). Proved: it ends on every file whose last line ends a section (columns 73-75 blank blank 0).
* **C58 Nuclide identifiers decode to charge, mass and isomeric state.** Proved for ground and first metastable states. False for higher states, which are given as the first, and for the identifiers as the documentation of get_metadata describes them (1000 Z + A + 100 m).
* **C62 Thinning keeps endpoints and accuracy.** False for tolerance 0 with repeated points or for x repeated more than twice; proved for a positive tolerance and no x repeated more than once.
* **C64 BOXER decompression fills the matrix it announces.** For pages of one size, as NJOY writes them; with pages of different sizes the count may agree although an element is not assigned (C64_mixed_refuted). Also proved end to end with the reader of ASAPy.
* **C65 An MT without usable covariance is skipped.** False for MTs that are not in REACTION_NAME, e.g. the lumped reactions 851-870: KeyError while printing the message. Proved for every MT with a name, which includes 452, 1018 and all reactions of the sum rules.
* **C66 By default exactly the nuclide's MTs are sampled.** False for stores with several nuclides: MTs of other nuclides are taken too and raise KeyError. Proved for one nuclide.
* **C68 Every NJOY module reads the data it needs.** False: with covariances but without HEATR, PURR and ACER read the last covariance tape as PENDF; and run=True always raises. Proved for all other combinations of switches.
* **C69 make_pendf produces a PENDF file.** False: make_pendf always raises, since errorr is left on without groups. Proved for the call with errorr switched off.
* **C71 All evaluations of a tape are returned.** Proved for the version in ASAPy/data/endf.py. False for the one in ASAPy/endf.py, whose Evaluation closes the file: it always raises ValueError after the first evaluation.
* **C73 INTG records give the correlations on the file.** False: all elements of a line are put on its first column. Proved: the result is symmetric, the diagonal is 1, and everything is right if every line has one element.
* **C74 All tables of an ASCII ACE file are found.** False if the first table is not among the names asked for, or has at most four values and is followed by anything: the reader moves in a text file, which raises. Proved for all tables of files with longer tables.
* **C75 Every ASCII ACE file that can be read can be converted.** False: IndexError if the file ends with a blank line, which the reader accepts. C59_round_trip shows the conversion of files without it.
* **C76 Numbers below 1e-100 in ASCII ACE files are read exactly.** False exactly when the last number is the only one without the letter: 1.0-120 is then read as 1. Proved in all other cases.
* **C82 Every MT the editor lists can be read.** False for nu-bar and the fission spectrum of tables that give one nu only; proved for every other MT.
* **C91 The editor's data change only through its methods.** False: get_sigma(452), get_energy and set_sigma share arrays with the caller. Proved for arrays the caller made or got from get_sigma for a cross section and has not given to set_sigma, and for every history without changes in place.
* **C93 Files left by an interrupted run are complete.** False: a process killed while writing leaves the beginning of a file. Proved: at most one incomplete file per process.
* **C94 A run writes the requested samples.** False if negative values are drawn: fewer files, or a failing run; oversampling does not help. Proved if none is drawn.
* **C95 Runs for different nuclides do not overwrite each other's files.** False for isomers, proved for nuclides with different charge or mass.
* **C96 Covariances are found under the key they were stored under.** False for targets without charge, proved for all others.
* **C97 External programs are run to their end.** False for programs that read to the end of their input, that exit early, or with commands and output larger than the pipes. Proved for programs that read exactly the commands, if commands or output fit a pipe.
* **C98 A run of EndfToCov stores exactly the requested reactions.** False if one file cannot be processed: the rest is not stored. Proved if every file is good or reports no data for a reaction with a name.
* **C100 Evaluating a table at a list is evaluating it at each element.** False for lists of integers (values are truncated). Proved for lists with a float, and for lists of integers with integral values.
* **C101 Sums of functions are the sums of their values.** False for tables over different ranges, for polynomials of degree two or more with tables, and outside the tables. Proved for polynomials, and for lin-lin tables over a common range with polynomials of degree at most one.
* **C102 Recoverable and total energy of fission are the sums of their components.** As C101.
* **C103 The components of the energy released by fission are those of the file.** False for files with tables of the recoverable or total energy, which cannot be read; proved for all others (tabulated nu: lin-lin).
* **C104 A piecewise function uses each function on its own interval.** False with the breakpoints the documentation asks for; proved for breakpoints between the functions only.
* **C105 The scores that order the samples have the correlations asked for.** False with at most as many samples as variables (proved for every factorisation and all permutations); proved when both matrices have a Cholesky factor (contract of scipy.linalg.cholesky).
* **C107 The sample type decides distribution and correlation, and all samples asked for are delivered.** The number delivered: false for the normal types with large deviations, whatever the random numbers; proved for the lognormal and uniform types.
* **C109 Energy distributions with parameters are those of the ACE file, in eV.** Everything is proved but one point: the tolerance within which Tabulated1D takes an argument for an end point has an absolute part, which is not converted; for energies whose distance from an end point exceeds 1e-5 of it by 1e-20 to 1e-14 MeV the values in MeV and eV differ (C109_window_refuted). All other energies: C109_function_partial.
* **C111 Delayed neutrons add up to the delayed nu of the file.** False if some groups have probabilities that depend on the energy and others not; proved for constant probabilities (normalised to 1), and for varying ones the yield of each group at the energies of its table.
* **C116 The NJOY input says exactly what was asked for.** False for weight option 4 (four parameters NJOY needs are not written) and for weight option 1 with nu-bar or chi (the weights are not written in these runs); proved otherwise. The reader of the input is a specification after the NJOY manual. The texts of numbers are given.
* **C117 Each temperature has its own ACE table and file.** Suffixes are different numbers for at most 99 temperatures, false for 100 (.10 and .100); each table goes to the files named after its temperature, which are the same for temperatures equal to one decimal.
* **C118 The NJOY input for thermal scattering says what the ENDF files say.** False for the materials 47, 49, 58 and 59, of whose ZAIDs only the first three are written; everything else is proved for all materials, and all of it for those with at most three ZAIDs.
* **C119 A run of NJOY leaves exactly its results.** False if NJOY ends with return code 0 and has not written a tape asked for: run returns and a file of an earlier run stays in its place. Proved: all the rest, with that case stated.
* **C120 Matrix files come from the tape NJOY wrote in this run.** False without the temporary folder: a tape of an earlier run in the output directory is converted if NJOY does not write it. Proved with the temporary folder, which is the default.
* **C121 Distributions survive export to and import from HDF5.** False: negative densities are written and cannot be read, lines in correlated distributions cannot be written, only histogram and linear interpolation is stored, Madland-Nix spectra are written under another key than they are read. Proved for all distributions outside these cases.
* **C122 Products and reactions survive export to and import from HDF5.** False for cross sections that are sums (cannot be written), not linear, or not on the energies of the nuclide. Proved for all others, and every order of the items.
* **C123 Nuclides survive export to and import from HDF5.** False: the temperatures come back in the order of their names ("1200K" before "294K"), and an imported nuclide with inelastic levels but no MT 4 in the file cannot be exported again. Proved up to the order of temperatures for all nuclides whose parts can be stored (C121, C122).
* **C124 Redundant reactions of an imported nuclide are the sums of their parts.** False if the file holds partial fission (MT 19, 20, 21, 38) but not MT 18: MT 27 is built before MT 18, so fission is missing from MT 27, 3 and 1. Proved for all other files and for all exported nuclides.
* **C125 A thermal scattering table is read as it says.** Proved for all tables except the last clause, which is false: the name given by the caller is overwritten (thermal.py 480).
* **C126 Coherent elastic scattering is the sum of the structure factors below the energy.** False at every energy, for positive structure factors: up to the last edge the structure factor of the next edge is included, above it IndexError is raised.
* **C128 All temperatures of a thermal library are kept.** False when two temperatures are the same in whole kelvin: the second table is dropped with a warning, even if it is for another material. Proved for temperatures with different names.
* **C129 Thermal scattering data survive export to and import from HDF5.** False when temperatures differ in the kind of secondary neutrons (only that of the first table is kept) or in their parts: nothing can be exported. Proved for data where all temperatures have the same parts, and for tables of this kind from the ACE table to the data read back; temperatures may come back in another order.
* **C130 Step plots show each group's value over the group's energies.** False for the last group, which the covariance plot draws down to half its upper bound whatever its lower bound is, and which the deviation plot does not draw if the ACE data begin above it; with one group the program ends with a ValueError. Proved for all other groups and the drawn part of the last one.
* **C131 Correlation maps show the correlation of the two groups at the two energies.** Proved for all group structures; a last group that reaches down to 0 is shown down to half its upper bound. False for a single group that reaches down to 0 (IndexError). The option corr_rel_diff is not modelled.
* **C132 Colours of the correlation maps cover all values.** Proved for the default. False for use_max_range_for_correlation_plot=False: minimum and maximum are swapped.
* **C133 The sampled curves shown are those that are written.** False where the cross section is zero (shown 0, written the relative value) and for fission spectra (shown without normalisation, first incident energy only). Proved for elementary reactions and nu-bar without zeros. A cross section that is zero everywhere ends the program.
* **C134 No plot overwrites another.** Names proved different for all nuclides, MTs and kinds, and in the folder the program gives. False for the default of the function: plots are saved in the root of the file system.
* **C135 A batch job runs the program with the options it was given.** False for --plot-only, which is dropped, so that the job writes all files and no plots; and for file names with blanks. Proved for all other accepted command lines.
* **C136 Sequences of decay modes are decoded.** False for the code 10 of an unknown mode (read as beta- and gamma) and for 0 (read as no mode). Proved for all sequences that neither begin nor end with gamma radiation.
* **C137 The daughter of a decay has the charge and mass that are left.** False for spontaneous fission, whose daughter is the parent. Proved for all other modes.
* **C138 Decay data are read in full and into their places.** False for stable nuclides of unknown spin (-77.777 is kept as the spin) and unknown modes. Proved for all other sections with at most one spectrum of each radiation type.
* **C139 Fission yields are given by energy and nuclide.** False for evaluations with cumulative yields only (AttributeError), and one energy against none passes for equal. Proved for sections with both or with independent yields, each product once.
* **C141 A library of data files survives its XML file.** False for materials with blanks in their names, which fall apart. Proved for all others, for POSIX paths without symbolic links.
* **C143 A CheckedList holds only elements of its type.** False for assignment to an element and extend, which are not checked, for += with an iterator, which adds nothing, and for a plain list in front of +, whose elements go behind. Proved for all other operations.
* **C144 Equality of data objects is that of their attributes.** False when one object has attributes the other has not. Proved for objects with the same attributes and for objects of different classes. Equality of values (numpy.array_equal) is a parameter.
* **C146 Unresolved ranges are read completely.** False where only fission widths depend on energy: each entry of the column is the list of the widths at all energies. The other two forms are proved, and what comes out in this one.
* **C147 R-matrix limited ranges are read completely.** Background R-matrix and phase shifts of one channel are passed over (their values are dropped by the code); with more than one, the reader loses its place. The record of an extension is taken to have as many numbers as its kind LBK says, as the code does.
* **C148 All resonance ranges of a nuclide are found.** False for a flag other than 0, 1 and 2: the range before it is listed twice. Proved for the formats of C145-C147. The property resolved is a ValueError for more than one range.
* **C149 Covariances of resonance parameters: the general format.** False for more than one block: only the matrix of the last one is kept, for the resonances of all. Proved for one block and different energies. Long-range blocks are not read.
* **C150 Covariances of resonance parameters: the compact format.** False where the resonances do not all have the same number of parameters: what is read ends in a ValueError when it is sampled. Proved for the same number for each resonance, with the correlations that are read, which C73 shows not always to be those of the record.
* **C151 Covariances of resonance parameters: the compatible format.** False: the covariance of neutron and capture width is dropped, a second l with resonances ends in an IndexError, and Reich-Moore ranges in an UnboundLocalError. Proved for one l, but for that covariance.
* **C152 Sampled resonance parameters belong to their resonances.** False for the compact format, where all covariances are doubled, and for Reich-Moore ranges with one, two or four parameters, where sampling ends in an IndexError. Proved for the general format and three, four or five parameters (Reich-Moore: three or five).
* **C153 A subset of resonances keeps their covariances.** False where file 32 has the resonances in another order than file 2 (the covariances are those of others), and for the subset of a subset (IndexError). Proved for a range as it is read where the orders agree.
* **C154 All covariance ranges of file 32 are found with their ranges of file 2.** False for more than one isotope: the ranges of the second one are read with those of file 2 of the first, or end in a ValueError; R-matrix limited ranges are refused. Proved for one isotope with ranges of the general and the compact format and at most one unresolved range, at the end.
* **C155 Angles of a reaction read from an evaluation.** False: how to interpolate between incident energies is read and dropped. Proved for all else in a section whose tables have one scheme each.
* **C156 Energies of neutrons read from an evaluation.** False for the scheme of interpolation between incident energies of law 1, which is dropped. Proved for all else.
* **C157 Products of a reaction read from an evaluation.** False: Legendre coefficients of LAW 2 are shifted by one, records of LAW 5 and tabulated angles of LAW 1 are not read (what follows is misread), isomers are not told apart, the n-body law has mass 1 and Q = 0, schemes of the spectra of LAW 7 are dropped and their weights are sums instead of integrals. Proved for the rest.
* **C158 Neutrons of fission read from an evaluation.** False for other than six groups: with fewer the prompt neutrons have the delayed yield, with more the first groups are not multiplied by it; a yield that is a polynomial is multiplied in its constant term only. Proved for six groups.
* **C159 States of nuclides produced by a reaction.** False where two products have the same name: only the first has the yield. Proved where names are distinct.
* **C160 Photons of a reaction read from an evaluation.** False for transition probabilities (LO = 2), which give no photons, and for continuous spectra, whose file 15 is not read. Proved for multiplicities and cross sections of photons.
* **C161 A reaction read from an evaluation.** False: the frame is the centre of mass whatever LCT says, and (n, 2n) with file 5 has one neutron. Proved for cross section, Q and products but for these.
* **C162 A nuclide read from an evaluation.** False: without file 2 an evaluation ends in a TypeError, the temperatures cannot be asked for, and a chance of fission with its spectrum in file 6 has it replaced. Proved for evaluations with file 2 where each reaction is read. The covariances of resonances and the energy release of fission are not part of the model of the nuclide.
* **C163 Adding elastic data at 0 K changes nothing else.** False for a nuclide without elastic scattering: the energies are set before the error. Proved for all others.
* **C164 The table at 0 K follows the cross section.** False: evaluations with a scattering radius only, ranges without a resonance inside them or starting at zero are refused, with unresolved resonances only the table is empty, and negative widths give energies outside the range. Proved for all calls that return, for ranges with widths that are not negative.
* **C165 Points around resonances do not overlap.** False: resonances are listed by angular momentum first, and then points overlap; the energy of a resonance is never one of its points. Proved for resonances listed by increasing energy.
* **C166 Resonances are added to the background once.** False at a limit shared by two ranges, where both are added. Proved elsewhere; arrays without restriction.
* **C167 Checked values are within the limits checked.** False: NaN passes all checks of bounds, an empty array passes whatever its type, and a file without the attributes raises another exception than one of another version. Proved for all other values.
* **C168 Automatic identifiers are fresh.** Freshness is proved for all histories without a reset; uniqueness of all ids only without warnings, and is refuted for explicit ids and after a reset. Classes derived indirectly are not reset; set_auto_id admits negative numbers.
* **C169 Atomic masses and weights are those of the tables.** False when a line of the file cannot be read: the first call raises, the masses read so far stay, and later calls use them. Proved for every file that can be read. Seen while reading: the file names elements 113, 115, 117 and 118 Ed, Ef, Eh and Ei, so their masses are not found under the names of the package.
* **C170 The weight of an element is the mean of its natural isotopes.** False of capitals: masses are found whatever the capitals, weights are not. The rest is proved.
* **C171 The density of water is that of the formulation.** False near vacuum (below 6e-10 MPa, zero included), where a ValueError is raised without a warning, and at negative pressures, where only a warning is announced but a TypeError follows. Proved from 0.0006 MPa (the triple point) to 100 MPa and from 273 K to 623.15 K in exact arithmetic.
* **C172 Atomic relaxation data of an evaluation are kept by subshell.** A negative number of a subshell is not refused but counted from the end of the names. Sections whose subshells have different numbers.
* **C174 Photon reactions of an ACE table have its cross sections and form factors.** A cross section of exactly 1 b is read as 0, because its logarithm is taken for a missing cross section; proved for all other cross sections. The pair production cross section of the table (total) is stored under MT 515 (electron field).
* **C175 All photon data of an ACE table are read.** False for a cross section of 1 b, which is read as 0 (C174_one_refuted); proved for all other cross sections.
* **C177 Photon data of the accompanying files do not depend on what was read before.** Holds for complete files; if an element is missing from the file of Compton profiles the first call fails and leaves the dictionary partly filled, so that the same call succeeds the next time. Arrays are values here: that all results of an element share the arrays of the dictionaries is not modelled. The cubic spline is a parameter.
* **C180 Cross sections in the HDF5 file of photon data are those of the data also between the energies.** Proved for lin-lin tables with ascending energies. False of a cross section with two values at one energy (an absorption edge): only the value above the edge is written.
* **C181 The integrated form factor in the HDF5 file is the integral of the squared form factor.** Proved for lin-lin form factors. A log-log form factor that begins at the momentum 0 gives NaN everywhere.
* **C182 The HDF5 file of photon data keeps profiles, stopping powers and bremsstrahlung.** Proved for profiles with common momenta. Of profiles with different momenta, as ACE tables can have them, only the momenta of the first are written.
* **C184 Within their limits windowed multipole data give cross sections.** Proved if the windows reach beyond E_max. If the last window ends at E_max, E_max itself raises IndexError; an energy of 0 with E_min = 0 raises ZeroDivisionError.
* **C189 Cross sections of an array of energies are those of its elements.** Proved if the first energy is within the limits. If it is below E_min, np.vectorize makes arrays of whole numbers and all cross sections are cut.
* **C191 Windowed multipole data survive export to HDF5 and reading.** From the name of a file with several nuclides comes the first in the alphabet, not the one exported last.
* **C192 Windowed multipole data that do not fit together are refused.** Not checked: that windows name existing poles, and that there is a polynomial for fission if there are residues; such data are read and no cross section can be had.
* **C193 Penetration, shift and phase of the hard sphere follow their recursions.** Proved for l up to 4. A resonance with a larger l raises TypeError.
* **C195 Single-level Breit-Wigner cross sections are the sums of the formulas.** The formulas are proved, and that capture and fission are not negative; the elastic cross section can be negative where levels of one spin overlap.
* **C197 Reich-Moore cross sections are not negative and obey unitarity.** Proved where no phase shift is below 3e-4. Below, the code uses a series, and capture can be negative by up to 25e-15 of the limit of unitarity.
* **C198 Competitive widths are taken into account.** A competitive width raises AttributeError (self.q does not exist); proved for ranges without.
* **C199 Every resonance of a Reich-Moore range counts.** False: a resonance with l > 0 and J > 0 that only the lower channel spin can form is left out.
* **C200 Reconstruction at an array of energies is reconstruction at each of them.** Proved for arrays of floats. For whole numbers every cross section is cut to a whole number.
* **C201 What reconstruct returns does not depend on the history.** Proved if nothing is assigned. New parameters are not taken into account after a reconstruction, and copies share what has been prepared: changing a copy changes the original.
* **C206 Cross sections of an evaluation are the formulas with the numbers of its file 2.** Proved for files whose covering ranges are Breit-Wigner or Reich-Moore with data that make sense. R-matrix limited ranges raise; with NRO=1, NAPS=1 the penetration of bound levels, by which widths are divided, is zero.
* **C207 An array of energies gives the values of its items.** Proved for floats and the reactions 2, 18, 102 if every resolved range can be reconstructed at some energy. With an R-matrix limited range every array raises, although numbers outside of it do not.
* **C208 Isotopes of an element count by their abundance.** Holds if all abundances are 1. Abundances are read over: an isotope of abundance 1/2 counts as if it were 1.
* **C209 make_ace leaves one ACE file and one xsdir file with all temperatures, in order.** Proved if temperatures differ in the first decimal and the files of single temperatures are not there before. Temperatures that are equal to one decimal make the call raise; a table that NJOY did not write is taken from a file left over by an earlier run.
* **C210 Tables of make_ace carry the identifier of the nuclide.** Proved for ground and first metastable states of all nuclides but Am-242. Am-242 is read as Am-242m and conversely; a second metastable state is read as the first.
* **C211 add_temperature_from_ace adds the data of one temperature.** Proved for temperatures that differ in whole kelvins and the reactions that both have. Temperatures that round to the same kelvin are left out, as are reactions that the nuclide does not have.
* **C212 from_njoy gives the nuclide at all temperatures and at 0 K.** Proved if the identifier is read as the same nuclide in both schemes (with C210: all ground and first metastable states but Am-242). Am-242 and Am-242m at two temperatures raise ValueError.
* **C213 make_pendf and make_ace_thermal leave exactly their files.** For thermal tables, as in C118, the first three ZAIDs of the scatterer are on the card, and the files of single temperatures are not there before the call; if they are and NJOY writes no tapes, the old tables are taken (C213_leftover_refuted).
* **C215 Angular distributions of an evaluation are normalised.** Proved for file 4. For LAW 2 and LAW 1 (LANG 1) of file 6 it is false of the code: what the expansions integrate to instead is proved.
* **C216 Attributes of distributions keep their constraints.** Holds for histories of any length; refuted where a one-shot iterator is assigned (kept empty, negative values unseen), lengths differ, or the bounds of a Uniform are not in order. Maxwell is the one-parameter case of Watt. Numbers are reals: no NaN, which passes every comparison here.
* **C217 Distributions can be read back from their XML elements.** str of numbers is a parameter that gives words. Refuted when there are not as many values as probabilities.
* **C218 Indenting an XML tree keeps its content.** Names in get_text are plain tags (no paths or namespaces). The default is not used for a subelement without text.
* **C219 Options for negative samples do what they say.** False: raise_on_bad_sample never raises for negative values if they are not removed, and ratios to a mean of zero stay infinite or NaN. Proved where negative samples are removed, and for means that are not zero.
* **C220 The command line of EndfToCov is taken as it is written.** False: the file directly behind the numbers of -mts is refused, weight 1 of the help is refused, and the name of the store has no underscore before the number of groups. Proved for every command line where the file does not follow -mts.
* **C221 A library of ACE tables is read in the format it is in.** False for a binary file whose bytes are all ASCII, such as the example beside C221_plain_refuted: an exception is raised. Proved if the atomic weight ratio of the first table has a byte that is not ASCII, and for all ASCII files (without carriage returns).
* **C222 A reaction an ACE table only has photons of is the sum of its parts.** False for tables without photons of MT 4 (the sum is not there), and for tables with photons of MT 3 and no absorption (UnboundLocalError). Proved for tables with photons of MT 4; with photons of MT 3, MT 101 is the absorption of the main block and MT 3 is not there.
* **C225 The sampler's covariance is that of the file.** Proved for files in which every group has a cross section (Proper: symmetric, Cauchy-Schwarz, deviations that are those of the covariance). False for groups without a cross section: their variance becomes 1e-14 and not 0.
* **C226 Attributes of nuclides, reactions and products keep their constraints.** False for two attributes of IncidentNeutron: a dictionary of probability tables assigned to urr is refused unless it is empty, and reading resonance_covariance before it is assigned raises an AttributeError. NaN passes the checks of bounds, and one text passes for a list of decay modes; the specification says so.
* **C228 The covariance program stores what NJOY and boxer2mat make of this file.** False if the output directory has tapes of an earlier run: if NJOY makes no tape of this file, the old one is read and stored for this nuclide (C228_stale_refuted). Proved for a directory without them; also needed: A below 1000, no MT 452 or 1018 in MF 33, group boundaries and names that can be written on a card. The reading of the ENDF file by the evaluation class is a parameter in C228_stored_partial; in C228_file_partial it is that of C70 and C72.
* **C229 The covariance program stores the numbers of the BOXER file.** The first half is proved in full for texts that follow the formats. The second half is false if the output directory has tapes of an earlier run (C228_stale_refuted) and proved for a directory without them. The printed numbers differ from those of the tape by at most 1/2000 of the value (printF_close). Single precision in boxer2mat is not modelled.
* **C231 The sampler samples with the covariance of the BOXER file.** False if the output directory has tapes of an earlier run (C228_stale_refuted); proved for a directory without them, for tapes whose printed covariances are symmetric, with positive variances and correlations of at most one. C231_file_partial starts from the text of the ENDF file and also gives the second half of C229. The last sentence is proved in the editor for elementary reactions and nu-bar (C231_applied) and for the fission spectrum, which is normalised afterwards (C231_chi), and on the written file for elementary reactions (C231_written), nu-bar (C231_written_nu) and the fission spectrum (C231_written_chi), any of them sampled together, with a cross section of zero counted as one (C34).
* **C233 Sampled nu-bar and fission spectra are the original ones times the sampled values when the file of the sample is loaded again.** C233_nu and C233_chi are for any replacements, C233_nu_file and C233_chi_file for those of a sample. Nu-bar as in C80 (tables of prompt and total nu, not all values the same), spectra of law 4 as in C81. C233_chi_file is for a sample with chi, alone or with other MTs, and assumes that the new cumulated probabilities are not negative. C233_places_refuted shows that the condition on the places is needed.

## How the properties are proved

* Editor: case analysis of one call, invariants by induction on the history; `apply_sum_rules` by a loop invariant over the rules, using that no rule
  refers to a later one (C05-C08, C11).
* Text (WriteAce, Boxer, Endf, AceData, Boxer2Mat): induction on the list of tokens, lines, records or bytes; the readers are run on the output of
  a specified writer, or shown to satisfy a characterisation on every input.
* Tables of numbers (Tab1D, MapGroups, Grid): properties of `searchsorted`, induction on the table; integrals against Mathlib's interval integral.
* Matrices (EigenFix, Gmw, CovCorr, SampleCorr): Mathlib's matrices over the reals; loop invariants for the factorisation.
* Mpi: commutation of operations on different files; every complete interleaving ends in the same files.
* Store: refinement of the store to a map; crash points as prefixes.

## Not modelled

* matplotlib (what is handed to it is modelled), submission of jobs, csv output beyond its file name.
* The HDF5 file itself (only its tree of groups is modelled).
* Floating-point rounding, integer overflow of numpy integers.
* In boxer2mat: its table of contents (`ITYPE = -1`), negative numbers on header cards, rounding to single precision, and the empty file that `OPEN` makes if there is no `fort.20`.
* Negative table lengths in ACE headers; non-ASCII text; the rounding of group structure literals.
* What NJOY computes: it is an arbitrary program in `Files`, a reader of its input in `Deck`, a child process in `Subprocess`.
