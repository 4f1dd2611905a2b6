{
 "claims": [
  {
   "property": "C01",
   "status": "proved",
   "theorems": [
    "Verif.Kinetics.C01_step_solves",
    "Verif.Kinetics.C01_solution_exists",
    "Verif.Kinetics.C01_init"
   ],
   "note": "Exact real arithmetic; the polynomial root finder is assumed exact (ExactRootFinder). Positive, distinct decay constants etc. (Physical)."
  },
  {
   "property": "C02",
   "status": "proved",
   "theorems": [
    "Verif.Kinetics.C02_derivative_consistent"
   ],
   "note": "For any root finder."
  },
  {
   "property": "C03",
   "status": "proved",
   "theorems": [
    "Verif.Kinetics.C03_equilibrium"
   ],
   "note": "Exact real arithmetic; the polynomial root finder is assumed exact (ExactRootFinder)."
  },
  {
   "property": "C04",
   "status": "proved",
   "theorems": [
    "Verif.Kinetics.C04_split",
    "Verif.Kinetics.C04_zero"
   ],
   "note": "Exact real arithmetic; the polynomial root finder is assumed exact (ExactRootFinder)."
  },
  {
   "property": "C05",
   "status": "proved",
   "theorems": [
    "Verif.Kinetics.C05_polynomial"
   ],
   "note": ""
  },
  {
   "property": "C06",
   "status": "proved",
   "theorems": [
    "Verif.Kinetics.C06_real_roots"
   ],
   "note": ""
  },
  {
   "property": "C07",
   "status": "proved",
   "theorems": [
    "Verif.Kinetics.C07_history",
    "Verif.Kinetics.C07_follows_solution",
    "Verif.Kinetics.C07_missing_times"
   ],
   "note": "Missing times are undefined behaviour."
  },
  {
   "property": "C08",
   "status": "proved",
   "theorems": [
    "Verif.Poly.C08_multiply_poly",
    "Verif.Poly.C08_multiply_poly_empty",
    "Verif.Poly.C08_prod_poly",
    "Verif.Poly.C08_prod_poly_i"
   ],
   "note": "Multiplying two empty lists is undefined behaviour (size underflow)."
  },
  {
   "property": "C09",
   "status": "proved",
   "theorems": [
    "Verif.Numeric.C09_calc",
    "Verif.Numeric.C09_round_to",
    "Verif.Numeric.C09_round_to_bad",
    "Verif.Numeric.C09_calc_base",
    "Verif.Numeric.C09_calc_base_at_base"
   ],
   "note": ""
  },
  {
   "property": "C10",
   "status": "partial",
   "theorems": [
    "Verif.Numeric.C10_laws",
    "Verif.Numeric.C10_negation_fails",
    "Verif.Numeric.C10_negation_partial",
    "Verif.Numeric.C10_equal_not_transitive"
   ],
   "note": "The exact-negation part is false when |x-y| equals the tolerance exactly (C10_negation_fails); the rest is proved."
  },
  {
   "property": "C100",
   "status": "partial",
   "theorems": [
    "Verif.Input.C100_diffusion",
    "Verif.Input.C100_transport_partial",
    "Verif.Input.C100_unrelaxed"
   ],
   "note": "Diffusion: proved, with the program's equations of heat conduction, right where C85_right applies. Transport: also with exact special functions and, in cylinders and spheres, rings resolved by the rays of the code (C51) at all temperatures. The conductivities are those of temperatures within the accuracy of the heat solver, or all temperatures are about one degree (the code compares with one degree in the first pass). That there is either a normal end or a message: for limits below the largest int. Nothing is said about which of the two occurs."
  },
  {
   "property": "C101",
   "status": "partial",
   "theorems": [
    "Verif.Output.C101_diffusion",
    "Verif.Output.C101_transport_partial"
   ],
   "note": "As C100; for limits below the largest int, a computer that starts with an empty reactor, an output file that can be written, and paths with a directory and an extension. Figures of temperatures and power densities are left out if the least value is zero (C94)."
  },
  {
   "property": "C102",
   "status": "partial",
   "theorems": [
    "Verif.Echo.C102_partial",
    "Verif.Echo.C102_log",
    "Verif.Echo.C102_closed",
    "Verif.Echo.C102_absent",
    "Verif.Echo.C102_false",
    "Verif.Echo.C102_wrong"
   ],
   "note": "For refusals by a call of exit. A number that cannot be read ends the program by an exception that nothing catches, and no line names the word (C102_false). A setting without a value is refused with the message that it has too many (C102_wrong; 'number of parameters exceeded' is taken to mean a number that is not allowed). The complaint about a value of a setting is shown to be justified for files that mention settings only at the beginning of a line (Proper)."
  },
  {
   "property": "C103",
   "status": "partial",
   "theorems": [
    "Verif.Echo.C103_partial",
    "Verif.Echo.C103_unique",
    "Verif.Echo.C103_log_partial",
    "Verif.Echo.C103_whole_partial",
    "Verif.Echo.C103_kinetics_partial",
    "Verif.Echo.C103_false"
   ],
   "note": "All but one line: behind 'Initial power' the generation time is shown (C103_false). C103_unique, that the specification leaves no freedom, needs lists of temperatures and heat sources in one of the forms of the manual. How a number is formatted is left open."
  },
  {
   "property": "C104",
   "status": "partial",
   "theorems": [
    "Verif.Gen.C104_partial",
    "Verif.Gen.C104_data_partial",
    "Verif.Gen.C104_stored_partial",
    "Verif.Gen.C104_false"
   ],
   "note": "For names of universes in small letters none of which is the beginning of another; otherwise false (C104_false: universes 1, 10 and 2). The first click only (later ones: C107). Exact real arithmetic; the interpolation functions are assumed to interpolate, numbers to be written with six digits that can be read again."
  },
  {
   "property": "C105",
   "status": "proved",
   "theorems": [
    "Verif.Gen.C105"
   ],
   "note": "Before the coefficients are rounded to six digits; exact real arithmetic; the interpolation functions are assumed to interpolate."
  },
  {
   "property": "C106",
   "status": "partial",
   "theorems": [
    "Verif.Gen.C106_partial",
    "Verif.Gen.C106_three",
    "Verif.Gen.C106_false"
   ],
   "note": "True for two files. For three files exactly if the parabola through the values does not turn between neighbours (C106_three); otherwise it may be negative between positive values (C106_false)."
  },
  {
   "property": "C107",
   "status": "partial",
   "theorems": [
    "Verif.Gen.C107_partial",
    "Verif.Gen.C107_message",
    "Verif.Gen.C107_third_false",
    "Verif.Gen.C107_equal_false",
    "Verif.Gen.C107_again_false",
    "Verif.Gen.C107_lost_false"
   ],
   "note": "True for the first click with different temperatures in all rows and files in the first rows. False otherwise: a third file without a second one is ignored, equal temperatures end in an exception, a second click uses the files of the first one, and a second file without the first universe is ignored."
  },
  {
   "property": "C108",
   "status": "partial",
   "theorems": [
    "Verif.Library.C108_partial",
    "Verif.Library.C108_false",
    "Verif.Library.C108_outside"
   ],
   "note": "True except just at 942 K and 1049 K, where the crystals change: there density and heat capacity are zero (C108_false). Exact real arithmetic. The file is not part of the build."
  },
  {
   "property": "C109",
   "status": "proved",
   "theorems": [
    "Verif.Kinetics.C109",
    "Verif.Kinetics.C109_history",
    "Verif.Kinetics.C109_sign",
    "Verif.Kinetics.C109_transient",
    "Verif.Output.C109_log"
   ],
   "note": "For exact roots of the in-hour polynomial, times that do not go back, and exact real arithmetic."
  },
  {
   "property": "C11",
   "status": "proved",
   "theorems": [
    "Verif.Numeric.C11_add_sub",
    "Verif.Numeric.C11_length_error",
    "Verif.Numeric.C11_mul",
    "Verif.Numeric.C11_div"
   ],
   "note": ""
  },
  {
   "property": "C110",
   "status": "proved",
   "theorems": [
    "Verif.Kinetics.C110",
    "Verif.Kinetics.C110_limits",
    "Verif.Kinetics.C110_jump"
   ],
   "note": "For exact roots of the in-hour polynomial, times that do not go back, and exact real arithmetic. The factors exist but are not computed, except from equilibrium (C110_jump)."
  },
  {
   "property": "C111",
   "status": "partial",
   "theorems": [
    "Verif.Kinetics.C111_partial",
    "Verif.Kinetics.C111_degenerate",
    "Verif.Kinetics.C111_false",
    "Verif.Output.C111_file"
   ],
   "note": "The order does not matter (C111_partial). False for groups with the same decay constant and groups without fraction: with exact roots every call divides by zero (C111_degenerate; C111_false: one group as two halves; C111_file: no file with such data is refused). With rounded roots the program divides by a number near zero instead; what it then shows is not modelled."
  },
  {
   "property": "C112",
   "status": "proved",
   "theorems": [
    "Verif.Kinetics.C112"
   ],
   "note": "For exact roots of the in-hour polynomial and exact real arithmetic."
  },
  {
   "property": "C113",
   "status": "proved",
   "theorems": [
    "Verif.Input.C113",
    "Verif.Input.C113_sum"
   ],
   "note": "For conductivities that do not depend on the temperature, sources that are not negative, and an exact solution of linear systems; exact real arithmetic. It holds although the equations are not quite the right ones (C24, C85)."
  },
  {
   "property": "C114",
   "status": "proved",
   "theorems": [
    "Verif.Input.C114",
    "Verif.Input.C114_results",
    "Verif.Input.C114_adjoint"
   ],
   "note": "For diffusion, forward and adjoint, and an exact solution of linear systems; exact real arithmetic (in floating point, the runs may end in different passes)."
  },
  {
   "property": "C12",
   "status": "partial",
   "theorems": [
    "Verif.Numeric.C12_fails",
    "Verif.Numeric.C12_partial"
   ],
   "note": "The code is wrong for a non-constant superdiagonal (C12_fails); C12_partial covers the systems for which it is right."
  },
  {
   "property": "C13",
   "status": "proved",
   "theorems": [
    "Verif.Diffusion.C13_cell_balance",
    "Verif.Diffusion.C13_reflecting",
    "Verif.Diffusion.C13_one_cell"
   ],
   "note": "Albedos between -1 and 1; at least two cells (one cell is undefined behaviour, C13_one_cell). Periodic boundaries are C45."
  },
  {
   "property": "C14",
   "status": "proved",
   "theorems": [
    "Verif.Diffusion.C14_symmetric",
    "Verif.Diffusion.C14_periodic_not_symmetric"
   ],
   "note": "Albedos between -1 and 1; at least two cells (one cell is undefined behaviour, C13_one_cell). The property speaks of non-periodic boundaries; it fails for periodic ones."
  },
  {
   "property": "C15",
   "status": "proved",
   "theorems": [
    "Verif.Diffusion.C15_transpose",
    "Verif.Diffusion.C15_same_k",
    "Verif.Diffusion.C15_periodic_not_transpose"
   ],
   "note": "Albedos between -1 and 1; at least two cells (one cell is undefined behaviour, C13_one_cell). The property speaks of non-periodic boundaries; it fails for periodic ones."
  },
  {
   "property": "C16",
   "status": "proved",
   "theorems": [
    "Verif.Diffusion.C16_entries"
   ],
   "note": "Albedo and periodic boundaries, at least two cells."
  },
  {
   "property": "C17",
   "status": "proved",
   "theorems": [
    "Verif.Diffusion.C17_thermal_power",
    "Verif.Diffusion.C17_nonneg",
    "Verif.Diffusion.C17_zero_total",
    "Verif.Diffusion.C17_no_modes",
    "Verif.CPM.C17_transport"
   ],
   "note": "Both solvers (same text in the code, shared model)."
  },
  {
   "property": "C18",
   "status": "proved",
   "theorems": [
    "Verif.CPM.C18_reciprocity",
    "Verif.CPM.C18_boundary",
    "Verif.CPM.C18_complete"
   ],
   "note": "Positive total cross sections, volumes and surface; increasing boundaries. Vacuum part for any special functions; complete calculation with the exact ones and albedo in [0,1]."
  },
  {
   "property": "C19",
   "status": "proved",
   "theorems": [
    "Verif.CPM.C19_balance",
    "Verif.CPM.C19_range",
    "Verif.CPM.C19_geometries",
    "Verif.CPM.C19_endless"
   ],
   "note": "For any probabilities with albedo*Pss != 1 (otherwise not a number, C19_endless), and for the computed ones."
  },
  {
   "property": "C20",
   "status": "proved",
   "theorems": [
    "Verif.CPM.C20_equation"
   ],
   "note": "Positive total cross sections, volumes and surface; increasing boundaries."
  },
  {
   "property": "C21",
   "status": "proved",
   "theorems": [
    "Verif.CPM.C21_tracks",
    "Verif.CPM.C21_slab"
   ],
   "note": "Positive total cross sections, volumes and surface; increasing boundaries. boost's exponential integral is assumed exact."
  },
  {
   "property": "C22",
   "status": "proved",
   "theorems": [
    "Verif.Eigen.C22_returns",
    "Verif.Eigen.C22_converged",
    "Verif.Eigen.C22_otherwise_exit",
    "Verif.Eigen.C22_sizes"
   ],
   "note": "For any linear solver, finite or not. A limit of 2147483647 iterations overflows an int."
  },
  {
   "property": "C23",
   "status": "proved",
   "theorems": [
    "Verif.Eigen.C23_modes",
    "Verif.Eigen.C23_k",
    "Verif.Eigen.C23_complex_refused"
   ],
   "note": "The library's eigenvalues and the order of equal keys are parameters. Zero eigenvectors become not-a-number."
  },
  {
   "property": "C24",
   "status": "partial",
   "theorems": [
    "Verif.Heat.C24_rows",
    "Verif.Heat.C24_balance_partial",
    "Verif.Heat.C24_cells_partial",
    "Verif.Heat.C24_unequal_cells_false",
    "Verif.Heat.C24_one_cell"
   ],
   "note": "Rows sum to zero on every mesh. The global balance holds exactly when the last cell is as large as the mean of the two before it or the last two temperatures agree; it is false otherwise (witness). One cell is undefined behaviour. C24_cells_partial: on every mesh the equations of the program say cell by cell what Heat.Conducted says, and are the right ones (Heat.Steady) if neighbours agree in size or conductivity, and in both at the last inner face."
  },
  {
   "property": "C25",
   "status": "proved",
   "theorems": [
    "Verif.Heat.C25_uniform"
   ],
   "note": "At least two cells (C24_one_cell)."
  },
  {
   "property": "C26",
   "status": "partial",
   "theorems": [
    "Verif.Heat.C26_between_partial",
    "Verif.Heat.C26_weights_false",
    "Verif.Heat.C26_last_false"
   ],
   "note": "Between the neighbours: proved. Series mean: false for unequal cells (weights exchanged) and at the last interface."
  },
  {
   "property": "C27",
   "status": "partial",
   "theorems": [
    "Verif.Heat.C27_converged_partial",
    "Verif.Heat.C27_nan_false"
   ],
   "note": "Exact contract for finite fields; a field of not-a-number values is accepted (witness)."
  },
  {
   "property": "C28",
   "status": "proved",
   "theorems": [
    "Verif.Calc.C28_returns",
    "Verif.Calc.C28_twice",
    "Verif.Calc.C28_exit",
    "Verif.Calc.C28_first",
    "Verif.Calc.C28_second"
   ],
   "note": "Any two solvers whose main parameters are numbers (finite or not) or finite fields of fixed size. With the largest int as limit, not converging overflows the counter."
  },
  {
   "property": "C29",
   "status": "partial",
   "theorems": [
    "Verif.Calc.C29_partial",
    "Verif.Calc.C29_field",
    "Verif.Calc.C29_false",
    "Verif.Calc.C29_mixed"
   ],
   "note": "Holds for numbers (k-factors). False for fields: the temperatures are compared in absolute terms (C29_field, C29_false); the relative field is computed and thrown away."
  },
  {
   "property": "C30",
   "status": "partial",
   "theorems": [
    "Verif.Calc.C30_temperatures",
    "Verif.Calc.C30_sources",
    "Verif.Calc.C30_between",
    "Verif.Calc.C30_between_sources",
    "Verif.Solve.C30_neutronics",
    "Verif.Solve.C30_power",
    "Verif.Solve.C30_lengths",
    "Verif.Input.C30_read",
    "Verif.Input.C30_ignored",
    "Verif.Input.C30_false"
   ],
   "note": "The blending is proved for all solvers. The parameter is read for a coupling of transport or diffusion with heat (C30_read); for every other pair it is zero whatever the input says (C30_ignored; C30_false: transport with diffusion), so all new results are thrown away."
  },
  {
   "property": "C31",
   "status": "partial",
   "theorems": [
    "Verif.Mesh.C31_volumes",
    "Verif.Mesh.C31_surfaces",
    "Verif.Mesh.C31_external_partial",
    "Verif.Mesh.C31_external_sphere_false",
    "Verif.Mesh.C31_unknown_unit",
    "Verif.Mesh.C31_no_geometry",
    "Verif.Mesh.C31_cells",
    "Verif.Mesh.C31_uniform"
   ],
   "note": "False for the external surface of spheres in cm: the unit factor is applied twice (C31_external_sphere_false, for every sphere). All else proved."
  },
  {
   "property": "C32",
   "status": "proved",
   "theorems": [
    "Verif.Input.C32",
    "Verif.Input.C32_bounds",
    "Verif.Input.C32_read",
    "Verif.Input.C32_lacking",
    "Verif.Input.C32_negative",
    "Verif.Input.C32_huge"
   ],
   "note": "Complete regions with at least one cell each; names that begin with a letter (others are converted to numbers when printed). C32_read is about the whole reader. A card whose last region lacks its material is undefined behaviour (C32_lacking), as are negative numbers of cells and 2147483647 of them (C32_negative, C32_huge)."
  },
  {
   "property": "C33",
   "status": "partial",
   "theorems": [
    "Verif.Input.C33_repeated",
    "Verif.Input.C33_spread",
    "Verif.Input.C33_partial",
    "Verif.Input.C33_false",
    "Verif.Input.C33_negative"
   ],
   "note": "False for whole numbers: '300 300' is taken for 300 steps and gives 301 values, '0 1 2' is undefined behaviour (C33_false). A negative count ends in an exception that nothing catches (C33_negative). Right for the two compressed forms, and for plain lists of words with a decimal point."
  },
  {
   "property": "C34",
   "status": "proved",
   "theorems": [
    "Verif.Input.C34",
    "Verif.Input.C34_cases",
    "Verif.Input.C34_sound",
    "Verif.Input.C34_blank"
   ],
   "note": "For libraries that give some character for the first one of an empty string; by the C++ standard an empty line is undefined behaviour (C34_blank)."
  },
  {
   "property": "C35",
   "status": "partial",
   "theorems": [
    "Verif.Input.C35_range",
    "Verif.Input.C35_partial",
    "Verif.Input.C35_missing",
    "Verif.Input.C35_false"
   ],
   "note": "False: with three materials a property missing from the first is taken from the second, and a material whose name begins the name of another one gets the data of that one (C35_false, whole reader). C35_range says which lines are searched for every file, C35_partial that what a block says is found, C35_missing when a missing property is reported."
  },
  {
   "property": "C36",
   "status": "proved",
   "theorems": [
    "Verif.Input.C36",
    "Verif.Input.C36_spaces",
    "Verif.Input.C36_end",
    "Verif.Input.C36_stored",
    "Verif.Input.C36_tidy",
    "Verif.Input.C36_foreign",
    "Verif.Input.C36_closed"
   ],
   "note": "For a line as a whole; a comment that mentions a keyword is a different matter, see C34."
  },
  {
   "property": "C37",
   "status": "proved",
   "theorems": [
    "Verif.Calc.C37_refused",
    "Verif.Calc.C37_one",
    "Verif.Calc.C37_kinetics",
    "Verif.Calc.C37_two",
    "Verif.Calc.C37_missing",
    "Verif.Input.C37_read",
    "Verif.Input.C37_unknown",
    "Verif.Input.C37_program",
    "Verif.Input.C37_three"
   ],
   "note": "From the input file to the calculation. Reading for libraries that give some character for the first one of an empty string."
  },
  {
   "property": "C38",
   "status": "partial",
   "theorems": [
    "Verif.Input.C38_whole",
    "Verif.Input.C38_decimal",
    "Verif.Input.C38_exclusive",
    "Verif.Input.C38_partial",
    "Verif.Input.C38_false"
   ],
   "note": "False: signs and letters e may stand anywhere, the character behind the point is not looked at, and a word ending with its point is undefined behaviour (C38_false). Proved: all numbers are accepted, whole numbers exactly, no word is both."
  },
  {
   "property": "C39",
   "status": "proved",
   "theorems": [
    "Verif.Mesh.C39_tables",
    "Verif.Mesh.C39_scattering",
    "Verif.Mesh.C39_production",
    "Verif.Mesh.C39_conductivity",
    "Verif.Mesh.C39_feedback",
    "Verif.Mesh.C39_missing"
   ],
   "note": "Too few laws for the groups is undefined behaviour (C39_missing)."
  },
  {
   "property": "C40",
   "status": "proved",
   "theorems": [
    "Verif.Mesh.C40_temperatures",
    "Verif.Mesh.C40_heat",
    "Verif.Mesh.C40_fluxes",
    "Verif.Mesh.C40_totals",
    "Verif.Mesh.C40_groups",
    "Verif.Mesh.C40_materials"
   ],
   "note": "Tables for more cells than there are is undefined behaviour."
  },
  {
   "property": "C41",
   "status": "proved",
   "theorems": [
    "Verif.Heat.C41_boundaries"
   ],
   "note": "The conversion of strings to numbers (std::stod) is not part of it."
  },
  {
   "property": "C42",
   "status": "partial",
   "theorems": [
    "Verif.Calc.C42_partial",
    "Verif.Calc.C42_whole",
    "Verif.Calc.C42_outside",
    "Verif.Calc.C42_false"
   ],
   "note": "False: the strength is stored in an unsigned integer, its fraction is lost (C42_false: half a unit gives no flux). Proportional to the whole part (C42_partial), hence right for whole strengths (C42_whole). C42_outside: positions, groups and strengths outside the range, in particular position or group 0, are undefined behaviour."
  },
  {
   "property": "C43",
   "status": "proved",
   "theorems": [
    "Verif.Output.C43",
    "Verif.Output.C43_nested",
    "Verif.Output.C43_unknown"
   ],
   "note": "For an output file that can be written and differs from the input file. The messages printed while reading and iterating are an arbitrary function of the input file; the time in a stamp is not modelled."
  },
  {
   "property": "C44",
   "status": "partial",
   "theorems": [
    "Verif.Output.C44_partial",
    "Verif.Output.C44_false",
    "Verif.Output.C44_extension"
   ],
   "note": "For input and output paths with a directory and input names with an extension. False otherwise: without a directory the log names the input file '/' and without a directory or an extension the names of all figures begin with an underscore, so that different cases overwrite each other's figures (C44_false, C44_extension)."
  },
  {
   "property": "C45",
   "status": "partial",
   "theorems": [
    "Verif.Diffusion.C45_periodic_partial",
    "Verif.Diffusion.C45_periodic_unlike_ends_false",
    "Verif.Diffusion.C45_two_cells_false"
   ],
   "note": "False in the code for unlike end cells and for two cells (witnesses); proved when the end cells are alike and there are at least three cells."
  },
  {
   "property": "C46",
   "status": "proved",
   "theorems": [
    "Verif.Diffusion.C46_positive_inverse"
   ],
   "note": "Albedos between -1 and 1; at least two cells (one cell is undefined behaviour, C13_one_cell)."
  },
  {
   "property": "C47",
   "status": "proved",
   "theorems": [
    "Verif.Heat.C47_extremum"
   ],
   "note": "At least two cells; the linear solver is not part of it (the theorem is about the exact solution)."
  },
  {
   "property": "C48",
   "status": "proved",
   "theorems": [
    "Verif.CPM.C48_chords"
   ],
   "note": "Positive total cross sections, volumes and surface; increasing boundaries. The Bickley function is assumed exact for the signs."
  },
  {
   "property": "C49",
   "status": "partial",
   "theorems": [
    "Verif.CPM.C49_cylinder",
    "Verif.CPM.C49_sphere",
    "Verif.CPM.C49_slab_partial",
    "Verif.CPM.C49_slab_negative"
   ],
   "note": "Cylinder: proved for the surface 2 pi R. Sphere: for 4 pi R^2 up to 1e-9 below zero (the rounded quadrature). Slab: false in the code, which counts one face only (witness); right if both faces are counted."
  },
  {
   "property": "C50",
   "status": "proved",
   "theorems": [
    "Verif.CPM.C50_balance"
   ],
   "note": "Positive total cross sections, volumes and surface; increasing boundaries."
  },
  {
   "property": "C51",
   "status": "partial",
   "theorems": [
    "Verif.CPM.C51_slab",
    "Verif.CPM.C51_round",
    "Verif.CPM.C51_rays",
    "Verif.CPM.C51_rod",
    "Verif.CPM.C51_sharp",
    "Verif.CPM.C51_false",
    "Verif.CPM.C51_cylinder",
    "Verif.Solve.C51_thick"
   ],
   "note": "Slab: proved. Cylinder and sphere: proved if each ring is opaque or the volume its eight rays see does not exceed the true one by too much (C51_rays); for rods of one cell that is an optical radius of 1/10^8 (C51_rod). False otherwise: a thin layer of gas around a rod has a negative probability of collision in itself, and a source in it that is nowhere negative has a negative flux (C51_false); so it is for every ring of which the rays see too much, if it is thin enough (C51_sharp)."
  },
  {
   "property": "C52",
   "status": "partial",
   "theorems": [
    "Verif.Eigen.C52_flat",
    "Verif.Eigen.C52_wrong_k",
    "Verif.Eigen.C52_partial",
    "Verif.Solve.C52_diffusion",
    "Verif.Solve.C52_diffusion_false",
    "Verif.Solve.C52_transport",
    "Verif.Solve.C52_transport_false",
    "Verif.Input.C52_files",
    "Verif.Input.C52_file_false",
    "Verif.Input.C52_transport_files",
    "Verif.Input.C52_transport_file_false"
   ],
   "note": "False in the code: if the flat source gives the flat flux the first pass stops with k = 1 (witnesses, also for whole diffusion and transport calculations, and from input files whose k-factors are 5/4 and 5/8 to results 1; every transport calculation without scattering is affected). C52_partial says what the returned pair satisfies."
  },
  {
   "property": "C53",
   "status": "proved",
   "theorems": [
    "Verif.Eigen.C53_positive"
   ],
   "note": "The hypothesis on the inverse is C46 for diffusion and C51 for transport."
  },
  {
   "property": "C54",
   "status": "proved",
   "theorems": [
    "Verif.Eigen.C54_bound"
   ],
   "note": ""
  },
  {
   "property": "C55",
   "status": "proved",
   "theorems": [
    "Verif.Eigen.C55_fundamental",
    "Verif.Eigen.C55_accuracy",
    "Verif.Eigen.C55_converges"
   ],
   "note": "Exact arithmetic. Closeness of what is returned excludes runs in which one step happens to leave k exactly unchanged before the limit (C52)."
  },
  {
   "property": "C56",
   "status": "partial",
   "theorems": [
    "Verif.Eigen.C56_no_fission",
    "Verif.Eigen.C56_all_modes_undefined"
   ],
   "note": "Fundamental calculation: proved. All modes: false, the first element of an empty list is taken (undefined behaviour)."
  },
  {
   "property": "C57",
   "status": "partial",
   "theorems": [
    "Verif.Eigen.C57_warning_partial",
    "Verif.Eigen.C57_equality_not_warned"
   ],
   "note": "Exact condition proved; equality, which is not strict dominance, gives no warning (witness)."
  },
  {
   "property": "C58",
   "status": "proved",
   "theorems": [
    "Verif.Solve.C58_forward",
    "Verif.Solve.C58_adjoint"
   ],
   "note": "Albedo boundaries; periodic ones are C45."
  },
  {
   "property": "C59",
   "status": "proved",
   "theorems": [
    "Verif.Solve.C59_balance",
    "Verif.Solve.C59_leakage",
    "Verif.Solve.C59_multiplication"
   ],
   "note": ""
  },
  {
   "property": "C60",
   "status": "proved",
   "theorems": [
    "Verif.Solve.C60_diffusion"
   ],
   "note": "Exact arithmetic; the QR solver is assumed to solve regular systems."
  },
  {
   "property": "C61",
   "status": "proved",
   "theorems": [
    "Verif.Solve.C61_forward",
    "Verif.Solve.C61_adjoint",
    "Verif.Solve.C61_transport"
   ],
   "note": ""
  },
  {
   "property": "C62",
   "status": "proved",
   "theorems": [
    "Verif.Solve.C62_forward",
    "Verif.Solve.C62_adjoint",
    "Verif.Solve.C62_safe",
    "Verif.Solve.C62_safe_adjoint",
    "Verif.Solve.C62_generations",
    "Verif.Solve.C62_generations_adjoint"
   ],
   "note": "The iterates are named: they are the generations of neutrons (Solve.Generations), which the data determine (C62_generations). Exact arithmetic; the QR solver is assumed to solve regular systems. The limit must fit an int. Runs in which the k-factor happens not to move between two passes stop early (C52)."
  },
  {
   "property": "C63",
   "status": "proved",
   "theorems": [
    "Verif.Solve.C63_diffusion",
    "Verif.Input.C63_files"
   ],
   "note": "Exact arithmetic; the QR solver is assumed to solve regular systems."
  },
  {
   "property": "C64",
   "status": "proved",
   "theorems": [
    "Verif.Solve.C64_forward",
    "Verif.Solve.C64_adjoint"
   ],
   "note": "The library is assumed to find all eigenvalues, all real; returns if the k-factor exceeds the tolerance."
  },
  {
   "property": "C65",
   "status": "proved",
   "theorems": [
    "Verif.Solve.C65_diffusion",
    "Verif.Input.C65_files"
   ],
   "note": "Exact arithmetic; the QR solver is assumed to solve regular systems. C65_files: from two input files to the two results, as C97."
  },
  {
   "property": "C66",
   "status": "partial",
   "theorems": [
    "Verif.Solve.C66_direction",
    "Verif.Solve.C66_modes",
    "Verif.Solve.C66_adjoint",
    "Verif.Solve.C66_transport_modes",
    "Verif.Solve.C66_transport_direction",
    "Verif.Solve.C66_partial",
    "Verif.Input.C66_direction",
    "Verif.Input.C66_modes",
    "Verif.Input.C66_words"
   ],
   "note": "False in the code: without a direction a null pointer is used, without the modes kind a forward run reads an empty list and an adjoint run stores nothing. C66_partial: a run that ends with results was given its options. Reader: a missing keyword is never read successfully (C66_direction, C66_modes), but two words for one are accepted and leave the option unset (C66_words)."
  },
  {
   "property": "C67",
   "status": "proved",
   "theorems": [
    "Verif.Solve.C67_transport"
   ],
   "note": "Exact arithmetic; the QR solver is assumed to solve regular systems. Special functions exact; outside slabs the computed self-collision probabilities are assumed non-negative (C51_thick: thick rings suffice)."
  },
  {
   "property": "C68",
   "status": "proved",
   "theorems": [
    "Verif.Solve.C68_transport",
    "Verif.Solve.C68_safe",
    "Verif.Solve.C68_generations"
   ],
   "note": "The iterates are named: they are the generations of neutrons (Solve.Generations), which the data determine (C68_generations). Exact arithmetic; the QR solver is assumed to solve regular systems. Special functions exact; outside slabs the computed self-collision probabilities are assumed positive (C51_thick: thick rings suffice). Runs in which the k-factor happens not to move between two passes stop early (C52)."
  },
  {
   "property": "C69",
   "status": "proved",
   "theorems": [
    "Verif.Solve.C69_transport",
    "Verif.Input.C69_files_partial"
   ],
   "note": "Exact arithmetic; the QR solver is assumed to solve regular systems. Special functions exact; outside slabs the computed self-collision probabilities are assumed positive (C51_thick: thick rings suffice). C69_files_partial: from the input file, for exact special functions and, in cylinders and spheres, rings resolved by the rays of the code."
  },
  {
   "property": "C70",
   "status": "proved",
   "theorems": [
    "Verif.Solve.C70_transport"
   ],
   "note": "Special functions exact; outside slabs the computed self-collision probabilities are assumed positive (C51_thick: thick rings suffice). The library is assumed to find all eigenvalues, all real; returns if the k-factor exceeds the tolerance."
  },
  {
   "property": "C71",
   "status": "proved",
   "theorems": [
    "Verif.Solve.C71_transport"
   ],
   "note": "Exact arithmetic; the QR solver is assumed to solve regular systems. Special functions exact; outside slabs the computed self-collision probabilities are assumed positive (C51_thick: thick rings suffice)."
  },
  {
   "property": "C72",
   "status": "proved",
   "theorems": [
    "Verif.Solve.C72_transport"
   ],
   "note": "Special functions exact."
  },
  {
   "property": "C73",
   "status": "proved",
   "theorems": [
    "Verif.Mesh.C73_transport",
    "Verif.Mesh.C73_diffusion",
    "Verif.Mesh.C73_heat",
    "Verif.Mesh.C73_no_geometry"
   ],
   "note": "The conclusions are the hypotheses of the transport, diffusion and heat theorems."
  },
  {
   "property": "C74",
   "status": "partial",
   "theorems": [
    "Verif.Mesh.C74_cylinder_partial",
    "Verif.Mesh.C74_extremes",
    "Verif.Mesh.C74_sphere_false",
    "Verif.Mesh.C74_slab_false"
   ],
   "note": "False for spheres (surface ten thousand times too large: reflection is nearly lost) and slabs (one of two faces): both for every such body and every albedo strictly between 0 and 1. Right for cylinders and for albedo 0 and 1."
  },
  {
   "property": "C75",
   "status": "partial",
   "theorems": [
    "Verif.Calc.C75_run",
    "Verif.Calc.C75_steady",
    "Verif.Calc.C75_constant",
    "Verif.Calc.C75_false"
   ],
   "note": "False in the code: the first pass compares the new temperatures with 1 degree instead of the old ones, so a calculation may stop with conductivities taken at the start temperatures (C75_false: the heat leaving is less than a fiftieth of the heat produced). C75_steady: right if that cannot happen (all temperatures at least 1 + accuracy), and otherwise exactly this is the alternative. For every mesh, by the equations of the program; these are the right ones where the errors of C24 do no harm (Heat.Harmless)."
  },
  {
   "property": "C76",
   "status": "proved",
   "theorems": [
    "Verif.Calc.C76_diffusion",
    "Verif.Calc.C76_transport",
    "Verif.Calc.C76_diffusion_safe",
    "Verif.Calc.C76_transport_safe"
   ],
   "note": "Exact arithmetic; the QR solver is assumed to solve regular systems. Transport: special functions exact, and outside slabs the computed self-collision probabilities are assumed non-negative (positive for the last part). Heat first: the given heat sources are not negative. Limits below the largest int."
  },
  {
   "property": "C77",
   "status": "partial",
   "theorems": [
    "Verif.Calc.C77_partial",
    "Verif.Calc.C77_false",
    "Verif.Calc.C77_frozen"
   ],
   "note": "Proved for relaxation parameter one: the result is what the two calculations give one after the other, starting from the result of the pass before, and both solvers agree with that within the accuracy. False for small parameters: the criterion compares what the solvers compute, not what is kept (C77_false: ends at 15 where the solver computes 5). C77_frozen: with parameter zero the result is that of one pass without any feedback."
  },
  {
   "property": "C78",
   "status": "partial",
   "theorems": [
    "Verif.Calc.C78_partial",
    "Verif.Calc.C78_false",
    "Verif.Calc.C78_groups_false"
   ],
   "note": "One group with as many modes as cells, positive and different factors: the flux is the only solution, and not negative below criticality. False with cells without fission (modes with factor 0 are dropped, C78_false: 1/3 instead of 5/6) and for two groups (wrong weights of the modes, C78_groups_false: flux of the first group twice too large), both with a library that returns all modes exactly."
  },
  {
   "property": "C79",
   "status": "partial",
   "theorems": [
    "Verif.Input.C79_partial",
    "Verif.Input.C79_albedo",
    "Verif.Input.C79_boundary",
    "Verif.Input.C79_groups",
    "Verif.Input.C79_mesh",
    "Verif.Input.C79_source",
    "Verif.Input.C79_negative",
    "Verif.Input.C79_false"
   ],
   "note": "Every setting comes from the lines searched for the solver (their range is C35's), provided every line that mentions a setting begins with it. False in general: a setting missing from the first of three blocks is taken from the second, even if that solver is not used (C79_false). Direction and eigenmodes: C66; relaxation parameter: C30."
  },
  {
   "property": "C80",
   "status": "partial",
   "theorems": [
    "Verif.Input.C80_partial",
    "Verif.Input.C80_false"
   ],
   "note": "False: two values instead of one are accepted and ignored, the accuracy stays zero (C80_false). C80_partial: a number of values other than one, two, three or six is never read successfully; C79_albedo and C79_boundary: nor is a count that does not suit the geometry."
  },
  {
   "property": "C81",
   "status": "partial",
   "theorems": [
    "Verif.Input.C81_partial",
    "Verif.Input.C81_read",
    "Verif.Input.C81_false"
   ],
   "note": "For files whose comments behind data mention no keyword (see C82) and that both begin with a line that says something, or both do not. False otherwise: an empty line before a header in the first line changes the block (C81_false). For libraries that give some character for the first one of an empty string."
  },
  {
   "property": "C82",
   "status": "partial",
   "theorems": [
    "Verif.Input.C82_partial",
    "Verif.Input.C82_false",
    "Verif.Input.C82_tab"
   ],
   "note": "C82_partial: comment lines beginning with a percent sign, after blanks, never matter; C81_partial: comments behind data that mention no keyword do not matter. False: a comment that mentions a material gives this material the data of another one without any message (C82_false); a comment line indented with a tab is not recognised and can lead to undefined behaviour (C82_tab)."
  },
  {
   "property": "C83",
   "status": "proved",
   "theorems": [
    "Verif.Input.C83",
    "Verif.Input.C83_heat",
    "Verif.Input.C83_kinetics",
    "Verif.Input.C83_unused"
   ],
   "note": "The tables are those found in the lines searched for the material (their range is C35's). Lists that are too short leave zeros, see C86. For libraries that give some character for the first one of an empty string."
  },
  {
   "property": "C84",
   "status": "partial",
   "theorems": [
    "Verif.Calc.C84_partial",
    "Verif.Calc.C84_false"
   ],
   "note": "With an accuracy below one such a calculation never ends normally (C84_partial: zero over zero is never small enough); with an accuracy of one or more it ends after the partner's calculation alone (C84_false)."
  },
  {
   "property": "C85",
   "status": "partial",
   "theorems": [
    "Verif.Input.C85_partial",
    "Verif.Input.C85_outcome",
    "Verif.Input.C85_constant",
    "Verif.Input.C85_right",
    "Verif.Input.C85_false",
    "Verif.Input.C85_lost"
   ],
   "note": "For every mesh, for files that mention settings only at the beginning of a line. False in the code as physics: the temperatures solve the equations of the program, which are the right ones if neighbours agree in size or conductivity and in both at the last inner face (C85_right); otherwise temperatures are wrong (C85_false) and heat is lost (C85_lost). As for C75, the conductivities may belong to the initial temperatures when the first field lies within the accuracy of one degree (C75_false); C85_constant: for constant conductivities nothing is missing."
  },
  {
   "property": "C86",
   "status": "partial",
   "theorems": [
    "Verif.Input.C86_partial",
    "Verif.Input.C86_long",
    "Verif.Input.C86_short",
    "Verif.Input.C86_false"
   ],
   "note": "C86_partial: a file without the line of a table, a scattering entry or a conductivity is never read successfully. False: the line without its numbers is accepted (C86_false), short lists of temperatures and heat sources leave zeros (C86_short), long lists are undefined behaviour (C86_long)."
  },
  {
   "property": "C87",
   "status": "proved",
   "theorems": [
    "Verif.Input.C87"
   ],
   "note": "Completeness is spelled out by the specification Full, line by line; empty lines must do no harm to the library (Clean)."
  },
  {
   "property": "C88",
   "status": "proved",
   "theorems": [
    "Verif.Input.C88",
    "Verif.Input.C88_empty"
   ],
   "note": "For libraries that give some character for the first one of an empty string. The order of the names is kept."
  },
  {
   "property": "C89",
   "status": "partial",
   "theorems": [
    "Verif.Output.C89_partial",
    "Verif.Output.C89_false",
    "Verif.Output.C89_output"
   ],
   "note": "False: with one argument missing the message says that there are too many (C89_false)."
  },
  {
   "property": "C90",
   "status": "partial",
   "theorems": [
    "Verif.Output.C90_partial",
    "Verif.Output.C90_replaced",
    "Verif.Output.C90_false"
   ],
   "note": "False if the same path is given for input and output: the input file is removed before it is read (C90_false)."
  },
  {
   "property": "C91",
   "status": "proved",
   "theorems": [
    "Verif.Output.C91",
    "Verif.Output.C91_steady",
    "Verif.Output.C91_constant"
   ],
   "note": "For an output file that can be written, paths with a directory and a name with an extension, and a computer that starts with an empty reactor. C91_steady and C91_constant say what the temperatures are, under the hypotheses of C85, on every mesh (by the equations of the program, see C85_right)."
  },
  {
   "property": "C92",
   "status": "partial",
   "theorems": [
    "Verif.Output.C92_partial",
    "Verif.Output.C92_unique",
    "Verif.Output.C92_plots",
    "Verif.Output.C92_surplus",
    "Verif.Output.C92_short",
    "Verif.Output.C92_lengths",
    "Verif.Output.C92_false"
   ],
   "note": "C92_partial: for files that ask for no figures and give as many fractions as decay constants. False otherwise: any figure asked for is undefined behaviour, as there is no mesh (C92_false, C92_plots); surplus fractions silently lower all reactivities (C92_surplus); missing fractions are undefined behaviour (C92_short). C92_lengths: different numbers of times and reactivities end the program. For exact roots, an output file that can be written, paths with a directory and a name with an extension."
  },
  {
   "property": "C93",
   "status": "proved",
   "theorems": [
    "Verif.Output.C93",
    "Verif.Output.C93_coupled"
   ],
   "note": "Under the same conditions, for files that mention settings only at the beginning of a line. What the factor and the fluxes are is the subject of C60, C62, C67, C68, C76 and C77."
  },
  {
   "property": "C94",
   "status": "partial",
   "theorems": [
    "Verif.Output.C94_partial",
    "Verif.Output.C94_dark",
    "Verif.Output.C94_temperature",
    "Verif.Output.C94_false"
   ],
   "note": "Power densities: only if all are positive; if one cell is not heated the figure is silently left out (C94_dark, C94_false with a wall of fuel and water). Temperatures: if they cannot fall to zero."
  },
  {
   "property": "C95",
   "status": "partial",
   "theorems": [
    "Verif.Output.C95_partial",
    "Verif.Output.C95_false",
    "Verif.Output.C95_totals"
   ],
   "note": "The log is complete, but none of the figures asked for is drawn (C95_false). C95_totals: what the figures of total fluxes would show if they were drawn. For an output file that can be written, paths with a directory and a name with an extension, a computer that starts with an empty reactor, and files that mention settings only at the beginning of a line."
  },
  {
   "property": "C96",
   "status": "partial",
   "theorems": [
    "Verif.Output.C96_partial",
    "Verif.Output.C96_false"
   ],
   "note": "For three numbers or more; for fewer the loop bound underflows and the list is read outside (C96_false)."
  },
  {
   "property": "C97",
   "status": "partial",
   "theorems": [
    "Verif.Input.C97_forward",
    "Verif.Input.C97_adjoint",
    "Verif.Input.C97_transport_partial"
   ],
   "note": "Complete for diffusion (C97_forward, C97_adjoint). C97_transport_partial: for exact special functions and, in cylinders and spheres, for rings resolved by the rays of the code (C51). All laws are taken at temperature zero, because a file without a heat solver sets no temperature; the power is that of the reactor the program starts with, because only the heat solver's file sets it."
  },
  {
   "property": "C98",
   "status": "partial",
   "theorems": [
    "Verif.Input.C98_partial"
   ],
   "note": "For one group and reactors in which as many modes are found as there are cells, with different factors. False otherwise: several groups (Verif.Calc.C78_groups_false), cells without fission (Verif.Calc.C78_false), strengths that are no whole numbers (Verif.Calc.C42_false)."
  },
  {
   "property": "C99",
   "status": "partial",
   "theorems": [
    "Verif.Output.C99_forward",
    "Verif.Output.C99_adjoint",
    "Verif.Output.C99_transport_partial"
   ],
   "note": "Diffusion: proved. Transport: with exact special functions, and in cylinders and spheres for rings resolved by the rays of the code (C51). For data taken at temperature zero, as the program does without a heat solver (C97), a computer that starts with an empty reactor, an output file that can be written, and paths with a directory and an extension."
  }
 ]
}