{"id": "C01", "title": "A point-kinetics step is the exact solution of the point-kinetics equations", "statement": "After a call power(rho, dt) the reported power and every delayed-precursor concentration are the values at time dt of the solution of the point-kinetics system P' = ((rho - sum beta)/alpha) P + sum lambda_i C_i, C_i' = (beta_i/alpha) P - lambda_i C_i that starts from the power and concentrations held before the call, provided the in-hour roots handed to the step are the exact, pairwise distinct roots and none of them equals a -lambda_i.", "quantifier": "for every number of delayed groups n, all delayed fractions and constants, every generation time alpha != 0, every reactivity, every step length and every prior state reachable by calls", "why_tests_cant": "The claim is an identity between a residue formula and the solution of a differential system for all parameters; a test compares finitely many powers with a tabulated transient.", "anchors": ["CORE/Kinetics.cpp: Kinetics::power(double,double)", "CORE/Kinetics.cpp: Kinetics::inHourEqRoots", "CORE/Kinetics.h: Kinetics::Kinetics"]}
{"id": "C02", "title": "The stored precursor derivative always agrees with power and concentration", "statement": "At construction and after any sequence of power calls, whatever reactivities and step lengths were used, the stored derivative of every precursor equals (beta_i/alpha)*power - lambda_i*concentration_i; so each step starts from a state in which its residue formula is valid.", "quantifier": "for all parameter sets with lambda_i, alpha nonzero and every finite sequence of (reactivity, step) calls", "why_tests_cant": "It is an invariant over call histories of unbounded length.", "anchors": ["CORE/Kinetics.h: Kinetics::Kinetics", "CORE/Kinetics.cpp: Kinetics::power(double,double)"]}
{"id": "C03", "title": "A critical reactor at equilibrium keeps its power for ever", "statement": "Starting from construction, any sequence of steps with zero reactivity returns exactly the initial power each time and leaves every precursor concentration at its initial value.", "quantifier": "for every number of groups, all positive lambda, beta, alpha, every initial power and every finite list of step lengths", "why_tests_cant": "Tests can only run some step lists for some parameter sets; the property is about drift over unboundedly many steps.", "anchors": ["CORE/Kinetics.cpp: Kinetics::power(double,double)", "CORE/Kinetics.cpp: Kinetics::inHourEqRoots", "CORE/Kinetics.h: Kinetics::Kinetics"]}
{"id": "C04", "title": "Splitting a time step at constant reactivity does not change the result", "statement": "Two consecutive calls power(rho, a), power(rho, b) leave the same power, the same concentrations and the same elapsed time as the single call power(rho, a+b); a call with dt = 0 changes nothing.", "quantifier": "for all parameters, reactivities, states with consistent derivatives, and all a, b", "why_tests_cant": "Universally quantified equation between executions (independence of the user's choice of time grid).", "anchors": ["CORE/Kinetics.cpp: Kinetics::power(double,double)"]}
{"id": "C05", "title": "The in-hour polynomial is the in-hour equation", "statement": "The coefficient list handed to the root finder has n+2 entries (so no vector-length error can be raised while assembling it), its value at s is Prod(lambda_i+s) * (rho - sum beta - alpha*s + sum lambda_i beta_i/(lambda_i+s)), and hence its roots different from every -lambda_i are exactly the solutions of the in-hour equation.", "quantifier": "for every number n >= 1 of groups with equally many fractions, all real parameters, all s", "why_tests_cant": "Identity of polynomials of arbitrary degree.", "anchors": ["CORE/Kinetics.cpp: Kinetics::inHourEqRoots", "Utilities/numeric_tools.cpp: multiply_poly, prod_poly, prod_poly_i", "Utilities/numeric_tools.h: operator+, operator-, operator*, operator+="]}
{"id": "C06", "title": "The in-hour equation has n+1 distinct real roots", "statement": "For physical data (alpha, all beta_i and lambda_i positive, lambda_i pairwise distinct) the in-hour polynomial has exactly n+1 roots in the complex plane, all real, simple and different from every -lambda_i, so discarding imaginary parts of computed roots loses nothing and no division in the step is by zero.", "quantifier": "for every n >= 1, all positive alpha, beta_i, pairwise distinct positive lambda_i, and every real reactivity", "why_tests_cant": "An existence statement over a continuum of parameters.", "anchors": ["CORE/Kinetics.cpp: Kinetics::inHourEqRoots, Kinetics::power", "Utilities/numeric_tools.cpp: poly_roots"]}
{"id": "C07", "title": "A reactivity history is processed one interval per entry and ends at the last requested time", "statement": "power(rhos, times) returns one power per reactivity; entry i is obtained by advancing from times[i-1] (0 for i = 0) to times[i] with reactivity rhos[i]; afterwards the elapsed time has grown by exactly the last used time; if fewer times than reactivities are supplied the access is out of bounds, and extra times are ignored.", "quantifier": "for all lists of reactivities and times", "why_tests_cant": "Quantifies over lists of any length, including the mismatched ones whose behaviour is undefined.", "anchors": ["CORE/Kinetics.cpp: Kinetics::power(std::vector<double>&, std::vector<double>&)", "CORE/Kinetics.h: advanceCumTime"]}
{"id": "C08", "title": "Polynomial products are products", "statement": "multiply_poly returns m+n-1 coefficients whose polynomial is the product of the two argument polynomials; prod_poly(c) is the expanded product of all (c_k + x), prod_poly_i(c,i) the same product with factor i left out.", "quantifier": "for all non-empty coefficient lists, all lists of constants and all indices", "why_tests_cant": "Algebraic identity in every degree.", "anchors": ["Utilities/numeric_tools.cpp: multiply_poly, prod_poly, prod_poly_i"]}
{"id": "C09", "title": "Temperature laws are evaluated as polynomials, and only above their base temperature", "statement": "calc(x) is c0 + c1 x + ... + cn x^n; calc(x, base) evaluates the same polynomial at the difference x - base rounded to six decimals, terminates the program if that rounded difference is negative beyond the comparison tolerance, and a difference that is within half a micro-degree below the base is accepted as zero.", "quantifier": "for all coefficient lists, arguments and bases", "why_tests_cant": "Quantifies over all lists and reals and includes the error branch.", "anchors": ["Utilities/PolynomialFunction.cpp: PolynomialFunction::calc", "Utilities/numeric_tools.h: round_to, is_lower"]}
{"id": "C10", "title": "The tolerant comparisons form a consistent order on reals", "statement": "is_greater is the exact negation of is_lower_equal and is_lower of is_greater_equal; exactly one of is_lower, is_greater and 'within tolerance' holds; is_equal is reflexive and symmetric, implied by true equality, but not transitive; every pair is comparable by is_lower_equal or is_greater_equal.", "quantifier": "for all pairs (triples) of real numbers, with one fixed positive tolerance", "why_tests_cant": "Order laws over all reals.", "anchors": ["Utilities/numeric_tools.h: is_equal, not_equal, is_greater, is_greater_equal, is_lower, is_lower_equal"]}
{"id": "C11", "title": "Vector arithmetic is elementwise and refuses mismatched sizes and division by zero", "statement": "The vector operators return the elementwise result with the operands' common length; adding or subtracting vectors of different lengths throws length_error; dividing by a number within tolerance of zero throws overflow_error.", "quantifier": "for all vectors and scalars", "why_tests_cant": "Quantifies over all lengths and values including the throwing branches.", "anchors": ["Utilities/numeric_tools.h: operator+, -, *, /, +=, -=, *=, /="]}
{"id": "C12", "title": "tridiag_solver returns the solution of the tridiagonal system", "statement": "For a diagonally dominant tridiagonal system with subdiagonal a, diagonal b, superdiagonal c and right-hand side f, the returned x satisfies a_i x_{i-1} + b_i x_i + c_i x_{i+1} = f_i for every row.", "quantifier": "for every size n and all coefficients for which the elimination has nonzero pivots", "why_tests_cant": "Correctness of an elimination algorithm for every size; existing use covers constant-superdiagonal cases only, where a shifted index cannot be noticed.", "anchors": ["Utilities/numeric_tools.cpp: tridiag_solver"]}
{"id": "C13", "title": "The diffusion operator balances collisions and leakage cell by cell", "statement": "Before the scattering terms are added, each row of the loss matrix applied to a flux is the neutron balance of its cell: total cross section times volume times flux plus the net currents through its two faces. The current through an inner face obeys Fick's law in both half cells and is shared by the two cells; at the ends it obeys the albedo condition. With reflecting boundaries (albedo 1) nothing leaks, so the operator neither creates nor destroys neutrons.", "quantifier": "for every mesh (cells >= 2), all group constants, all three geometries, all albedos between -1 and 1", "why_tests_cant": "Conservation law over all meshes and cross sections.", "anchors": ["Diffusion/BaseDiffusionCode.cpp: calcDiffOperatorMatrix, applyBoundaryConditions, getInterfaceDiffcoefficients"]}
{"id": "C14", "title": "The one-group diffusion operator is symmetric", "statement": "For non-periodic boundary conditions the within-group loss matrix (before scattering) equals its transpose.", "quantifier": "for every mesh, all diffusion coefficients, all albedos", "why_tests_cant": "Matrix identity of arbitrary size; for periodic boundaries the code can break it, which no shipped case shows.", "anchors": ["Diffusion/BaseDiffusionCode.cpp: calcDiffOperatorMatrix, applyBoundaryConditions"]}
{"id": "C15", "title": "The adjoint diffusion problem is the transpose of the forward one", "statement": "The loss matrix and the fission matrix assembled for the adjoint problem are the transposes of those assembled for the forward problem on the same mesh and cross sections, so both have the same characteristic polynomial (same k spectrum).", "quantifier": "for every number of energy groups and cells and all data, non-periodic boundaries", "why_tests_cant": "Matrix identity for all sizes; tests compare a few k values.", "anchors": ["Diffusion/ForwardDiffusionCode.cpp: calcMMatrix, calcFMatrix", "Diffusion/AdjointDiffusionCode.cpp: calcMMatrix, calcFMatrix"]}
{"id": "C16", "title": "The diffusion loss and fission matrices have the textbook entries", "statement": "Entry (cell i, group g ; cell j, group h) of the assembled forward matrices is: for losses the diffusion operator of group g when g = h and minus the scattering cross section from h into g times the cell volume when i = j (in-group scattering included, since the operator contains the total cross section); for fission chi_g * nu_h * Sigma_f,h * V_i when i = j and 0 otherwise. No entry outside the matrix is touched.", "quantifier": "for every number of groups and cells and all data", "why_tests_cant": "Index arithmetic over block matrices of arbitrary size; in-place block copies could corrupt blocks only for some sizes.", "anchors": ["Diffusion/ForwardDiffusionCode.cpp: calcMMatrix, calcFMatrix", "Diffusion/BaseDiffusionCode.cpp"]}
{"id": "C17", "title": "Computed heat sources integrate to the requested thermal power", "statement": "After a criticality calculation the heat sources written to the mesh, integrated over the cell volumes in cubic metres, sum to the reactor's thermal power whenever the total fission power of the computed flux is nonzero; if the total is zero the result is not a number.", "quantifier": "for every mesh, flux, cross sections and thermal power, both for the diffusion and for the transport solver", "why_tests_cant": "Universally quantified normalisation; the division by zero branch is an explicit case.", "anchors": ["Diffusion/BaseDiffusionCode.cpp: calcFissionPowerDistribution, setNewHeatSource", "CPM/BaseSpectrumCode.cpp: calcFissionPowerDistribution, setNewHeatSource"]}
{"id": "C18", "title": "First-collision probabilities obey reciprocity", "statement": "The collision probability matrix computed by the transport solver satisfies Sigma_i V_i P_ij = Sigma_j V_j P_ji, before and after the boundary condition is applied, in slab, cylinder and sphere.", "quantifier": "for every mesh, cross sections and albedo, all pairs of cells, all three geometries", "why_tests_cant": "A relation between matrix entries for all sizes and data, independent of the quadrature accuracy.", "anchors": ["CPM/SlabSpectrumCode.cpp: calcCPs, applyBoundaryConditions", "CPM/CylSpectrumCode.cpp: calcCPs, applyBoundaryConditions", "CPM/SphSpectrumCode.cpp: calcCPs, applyBoundaryConditions"]}
{"id": "C19", "title": "Boundary conditions conserve neutrons according to the albedo", "statement": "After the boundary condition is applied, a neutron born in cell i is either absorbed/collided somewhere or lost: the reduced collision probabilities satisfy sum_j P_ij Sigma_j = 1 - Pis_i (1-albedo)/(1 - albedo*Pss); in particular the sum is 1 with a fully reflecting boundary, is unchanged for albedo 0, and lies between 0 and 1 for physical escape probabilities and 0 <= albedo <= 1.", "quantifier": "for every mesh, collision probability matrix, cross sections and albedo with albedo*Pss != 1", "why_tests_cant": "Conservation law for all sizes and data.", "anchors": ["CPM/BaseSpectrumCode.cpp: particleBalanceCheck", "CPM/SlabSpectrumCode.cpp: applyBoundaryConditions", "CPM/CylSpectrumCode.cpp: applyBoundaryConditions", "CPM/SphSpectrumCode.cpp: applyBoundaryConditions"]}
{"id": "C20", "title": "The transport loss and fission matrices are I - P S and P F", "statement": "With energy groups and cells flattened group-major, the assembled loss matrix is the identity minus the collision probability of the receiving group times the scattering cross section of the source cell, and the fission matrix is that probability times chi times nu Sigma_f; a flux solves M x = F x / k exactly when in each group and cell it is the sum over cells of the probability times the emission density (scattering from all groups plus fission over k).", "quantifier": "for every number of groups and cells and all data", "why_tests_cant": "Index arithmetic over block matrices of arbitrary size.", "anchors": ["CPM/BaseSpectrumCode.cpp: calcCPMMatrix, calcMMatrix, calcFMatrix"]}
{"id": "C21", "title": "Slab optical paths and escape probabilities are consistent", "statement": "With the exact exponential integral the slab probabilities are the probabilities that a neutron born uniformly and isotropically in one cell has its first collision in the other. In a slab the optical track between two cells is the total optical thickness strictly between them (and the cell's own thickness for a cell with itself); the computed probabilities then leave for every cell an escape probability (1/2 tau_i)[E3(a)-E3(a+tau_i)+E3(b)-E3(b+tau_i)], a and b being the optical distances to the two faces, which is non-negative because E3 is decreasing.", "quantifier": "for every slab mesh with positive total cross sections, for the exact exponential-integral function", "why_tests_cant": "Telescoping identity for meshes of every size.", "anchors": ["CPM/SlabSpectrumCode.cpp: calcTracks, calcCPs, applyBoundaryConditions"]}
{"id": "C22", "title": "sourceIteration only returns a converged, normalised eigenpair iterate", "statement": "sourceIteration returns only if within the allowed number of iterations the relative change of k between two consecutive iterations fell below the requested accuracy; the returned flux has unit 1-norm, is proportional to the solution of M x = F(previous flux)/k (in the first pass: to the answer to a flat source), and the returned k is the last k; otherwise (including when values become NaN) the program terminates with an error instead of returning.", "quantifier": "for all matrices, iteration limits and accuracies, and for any linear solver used inside", "why_tests_cant": "Contract of a loop with data dependent exit, over all inputs, including NaN.", "anchors": ["Utilities/numeric_tools.cpp: sourceIteration"]}
{"id": "C23", "title": "The eigenmodes reported are exactly the positive eigenvalues in decreasing order with unit-norm modes", "statement": "sortEigenmodes keeps precisely the eigenvalues greater than the tolerance that are not NaN, in non-increasing order, each with its own eigenvector, scaled to unit 1-norm and with non-negative sum; the k-factor reported is the largest, provided there is one above the tolerance; complex spectra are refused.", "quantifier": "for all eigenvalue lists and eigenvector matrices", "why_tests_cant": "Contract over all lists, including NaN and empty ones.", "anchors": ["Utilities/numeric_tools.cpp: sortEigenmodes, hasImagValues, GeneralizedEigenSolver", "Utilities/eigenmodesResults.h", "Backbone/Datamodel/Reactor.h: getKFactor"]}
{"id": "C24", "title": "The heat conduction matrix neither creates nor destroys heat", "statement": "Before boundary conditions every row of the conduction matrix sums to zero and the right-hand side is the heat generated in the cell; with boundary conditions the solution satisfies a global balance: heat generated equals heat leaving through the boundaries.", "quantifier": "for every mesh, conductivities and sources, in the three geometries", "why_tests_cant": "Conservation law for all sizes; balance of a solution of a linear system for arbitrary non-uniform meshes.", "anchors": ["Heat/BaseHeatCode.cpp: setupSystem, applyBoundaryConditions, getInterfaceThermalConductivities, getInterfaceCellSizes"]}
{"id": "C25", "title": "A body without sources and with both faces at temperature T0 is at T0", "statement": "With zero heat sources and equal prescribed temperatures on both boundaries, the uniform temperature field is a solution of the assembled system, for every mesh and conductivity; hence it is what any exact linear solver returns when the system is regular.", "quantifier": "for every mesh (uniform or not), all conductivities, all T0", "why_tests_cant": "Universally quantified exactness property of the discretisation.", "anchors": ["Heat/BaseHeatCode.cpp: setupSystem, applyBoundaryConditions, solveSystem"]}
{"id": "C26", "title": "Interface conductivities are between the neighbouring conductivities and equal the series resistance", "statement": "The conductivity used at the interface of two cells lies between the two cells' conductivities, equals the common value if they agree, and is the series (resistance-weighted) mean of the two half cells.", "quantifier": "for all positive conductivities and cell sizes", "why_tests_cant": "Real-number property over a continuum; unequal cell sizes are needed to see the weights.", "anchors": ["Heat/BaseHeatCode.cpp: getInterfaceThermalConductivities, getInterfaceCellSizes"]}
{"id": "C27", "title": "The heat iteration returns only converged temperatures", "statement": "The heat solver's iteration ends normally only if the largest temperature change of the last iteration is below the accuracy within the iteration limit; otherwise the program terminates; in particular a field with not-a-number temperatures must not be accepted as converged.", "quantifier": "for every accuracy, iteration limit, and any sequence of temperature fields produced by the linear solver", "why_tests_cant": "Loop contract over all sequences including NaN.", "anchors": ["Heat/HeatSolver.cpp: solve", "Heat/HeatSolver.cpp: relaxResults"]}
{"id": "C28", "title": "A coupled calculation that finishes has converged", "statement": "A coupled calculation ends normally only if, in the last iteration, both solvers' changes with respect to the previous iteration are within the accuracy, and it performs at least two iterations when the accuracy is below one; if the limit is reached the program terminates with an error.", "quantifier": "for every accuracy, iteration limit and any pair of solvers", "why_tests_cant": "Loop contract over arbitrary solver behaviours.", "anchors": ["Backbone/Datamodel/DoubleCalculation.cpp: solve", "Backbone/Datamodel/BaseCalculation.cpp: getDifference"]}
{"id": "C29", "title": "Coupling convergence is measured relative to the new values", "statement": "The difference used to stop a coupled calculation is the largest relative change of the compared field, so it does not depend on the unit the field is expressed in.", "quantifier": "for all old and new fields of equal size and all positive scale factors", "why_tests_cant": "Scale invariance over all vectors and factors.", "anchors": ["Backbone/Datamodel/BaseCalculation.cpp: getDifference"]}
{"id": "C30", "title": "Relaxation blends old and new fields", "statement": "With relaxation parameter w the field kept after an iteration is w*new + (1-w)*old, so for 0 <= w <= 1 each value stays between its old and new value, w = 1 keeps the new and w = 0 the old field, and a coupled pair that can be relaxed reads w from the input.", "quantifier": "for all fields and parameters", "why_tests_cant": "Real inequality over all values plus which solver pairs read the parameter.", "anchors": ["Diffusion/DiffusionSolver.cpp: relaxResults", "Heat/HeatSolver.cpp: relaxResults", "CPM/SpectrumSolver.cpp: relaxResults", "Backbone/IO/Input.cpp: setSolverProperties"]}
{"id": "C31", "title": "Cell volumes partition the body and unit variants agree", "statement": "For each geometry the cell volumes are positive on an increasing mesh and sum to the volume of the whole body; the values requested in cm are those of the same body with its positions measured in cm; surfaces are the areas at the boundaries and the external surface is that of the outermost one.", "quantifier": "for every increasing mesh in slab, cylinder and sphere", "why_tests_cant": "Telescoping identity for all meshes.", "anchors": ["Backbone/Datamodel/Slab.cpp: volumes, surfaces, externalSurface", "Backbone/Datamodel/Cylinder.cpp: volumes, surfaces, externalSurface", "Backbone/Datamodel/Sphere.cpp: volumes, surfaces, externalSurface", "Backbone/Datamodel/Mesh.cpp: getVolumes, getSurfaces, getExternalSurface"]}
{"id": "C32", "title": "The mesh card expands to the requested regions", "statement": "A mesh card of regions (n_k cells, thickness d_k, material m_k) yields 1 + sum n_k boundaries that start at 0, increase strictly (for positive d_k), reach the partial sums of thicknesses exactly at region ends, and every cell gets the material of its region.", "quantifier": "for every list of regions", "why_tests_cant": "Quantifies over all region lists; region ends are obtained through incremental additions.", "anchors": ["Backbone/IO/Input.cpp: setMesh", "Backbone/Datamodel/Mesh.cpp: setBoundaries, createMaterials"]}
{"id": "C33", "title": "Compressed value lists expand to the intended list", "statement": "The 'value count value count ...' form expands to each value repeated its count of times in order, the 'count end' form to evenly spaced points ending exactly at the last value, and a plain list to itself; the expanded size is the sum of the counts.", "quantifier": "for all value/count lists", "why_tests_cant": "Quantifies over all input lists.", "anchors": ["Backbone/IO/Input.cpp: setManyParameters, readManyParameters"]}
{"id": "C34", "title": "Keyword lookup finds the first matching uncommented line of the block, in any letter case", "statement": "Looking up a keyword in a line range returns the first line of the range that is not a comment and contains the keyword, ignoring letter case; if there is none the program reports it as missing.", "quantifier": "for all files, keywords and ranges", "why_tests_cant": "Search correctness over all texts.", "anchors": ["Backbone/IO/Input.cpp: findKeyword, readData, storeInput"]}
{"id": "C35", "title": "A material's data come from that material's own block", "statement": "The line range searched for a material's property starts at that material's header and ends before the next block, so a property missing from a material is reported and never taken from another material.", "quantifier": "for all input files with any number of materials", "why_tests_cant": "Needs inputs with at least three materials and a missing property; universally quantified over files.", "anchors": ["Backbone/IO/Input.cpp: findBlock, setMaterialProperties"]}
{"id": "C36", "title": "White space and inline comments do not change the meaning of a line", "statement": "Splitting a line into words is insensitive to repeated spaces, and everything after an inline comment sign is ignored; words are preserved and in order.", "quantifier": "for all lines of text", "why_tests_cant": "String property for all lines.", "anchors": ["Backbone/IO/Input.cpp: removeExtraSpaces, splitLine"]}
{"id": "C37", "title": "Requested solvers determine the calculation performed", "statement": "The solver list keeps the user's order, gets the coupling settings appended exactly when at least two solvers are requested; one solver leads to a single (or source-driven) calculation, two to a coupled calculation, and any other number is refused.", "quantifier": "for all lists of solver names", "why_tests_cant": "All lists, including invalid ones.", "anchors": ["Backbone/IO/Input.cpp: setSolvers", "Backbone/Datamodel/BaseCalculation.cpp: setCalculation"]}
{"id": "C38", "title": "Number classification accepts numbers only", "statement": "A word is classified as a floating point value only if it is one (digits, a decimal point, optional exponent), as an integer only if it consists of digits; no word is both.", "quantifier": "for all strings", "why_tests_cant": "All strings; tests enumerate a few.", "anchors": ["Utilities/additionalPrintFuncs.cpp: isFloat, isInteger, isString"]}
{"id": "C39", "title": "Every cell gets the data of its own material at its own temperature", "statement": "Each cross section, conductivity and scattering matrix returned for a cell is the temperature law of the material assigned to that cell, evaluated at that cell's temperature, for the requested group(s).", "quantifier": "for every mesh, assignment of materials, temperatures and number of groups", "why_tests_cant": "Index bookkeeping across all meshes, groups and materials.", "anchors": ["Backbone/Datamodel/Mesh.cpp: getNis, getChis, getTotalXSs, getDiffusionConstants, getFissionXSs, getRemovalXSs, getScattMatrices, getThermalConductivities", "Backbone/Datamodel/Material.cpp"]}
{"id": "C40", "title": "Fluxes and temperatures stored are the ones read back", "statement": "Neutron fluxes written to the mesh as one flat vector per mode are read back cell by cell and group by group unchanged, and temperatures set in Celsius are returned in Celsius unchanged and in Kelvin 273.15 higher.", "quantifier": "for every number of modes, groups and cells", "why_tests_cant": "Round trip for all sizes.", "anchors": ["Backbone/Datamodel/Mesh.cpp: setNeutronFluxes, getNeutronFluxes, setTemperatures, getTemperatures"]}
{"id": "C41", "title": "Heat boundary data are interpreted as documented", "statement": "Three numbers give the right boundary with a symmetry condition on the left, six numbers give left then right, anything else is refused with an error.", "quantifier": "for all lists of numbers", "why_tests_cant": "All list lengths, including refusal.", "anchors": ["Backbone/Datamodel/SolverData.cpp: setHeatBoundaryConditions, getHeatBoundaryConditions"]}
{"id": "C42", "title": "The source-driven calculation scales with the requested source strength", "statement": "The total neutron flux of a source-driven (ADS) calculation is proportional to the source strength requested by the user; everything else is unaffected by the strength.", "quantifier": "for every strength, position and group of the source", "why_tests_cant": "Linearity over all real strengths.", "anchors": ["Backbone/Datamodel/ADSCalculation.cpp", "Backbone/IO/Input.cpp: setSolverProperties"]}
{"id": "C43", "title": "The log level filters messages monotonically", "statement": "Raising the requested verbosity never hides a message that was printed before; critical messages are always printed; an unknown level is reported and leaves the default level.", "quantifier": "for all levels and messages", "why_tests_cant": "Order property over all level pairs.", "anchors": ["Backbone/IO/Output.cpp: setLevel, print", "Backbone/IO/TraceLevel.h"]}
{"id": "C44", "title": "Log and figures are named after the files given on the command line", "statement": "The log names the input file with its directory and the output file, and all figures are saved under names that consist of the input file name without its extension, an underscore and the kind of the figure.", "quantifier": "for all paths of input and output files, all levels and all input files", "why_tests_cant": "String property over all paths and all calculations; different cases must not overwrite each other's figures.", "anchors": ["Backbone/IO/Output.cpp: setInputPath, setOutputPath, getInputNameNoExt", "Backbone/IO/Input.cpp: printData", "Utilities/plot.cpp"]}
{"id": "C45", "title": "Periodic diffusion boundaries conserve neutrons", "statement": "With periodic boundaries (albedo 2 on both sides of a slab) what leaves through one end enters at the other end: the operator is the balance of each cell, with one and the same current, driven by the flux difference of the last and the first cell, at both ends.", "quantifier": "for every slab mesh and all diffusion coefficients", "why_tests_cant": "Conservation must hold for every mesh and every flux.", "anchors": ["Diffusion/BaseDiffusionCode.cpp: applyBoundaryConditions"]}
{"id": "C46", "title": "Non-negative sources give unique non-negative fluxes", "statement": "For physical cross sections (positive diffusion coefficients, non-negative scattering, more removed by collisions in each group than scattered to all groups together) and albedos between -1 and 1 the diffusion loss matrix is regular, and the flux belonging to a non-negative source is non-negative everywhere.", "quantifier": "for every mesh with at least two cells, every number of groups, all such data and all sources", "why_tests_cant": "A positivity statement about the inverse of matrices of any size.", "anchors": ["Diffusion/BaseDiffusionCode.cpp", "Diffusion/ForwardDiffusionCode.cpp: calcMMatrix"]}
{"id": "C47", "title": "Temperatures obey the minimum and maximum principles", "statement": "With physical boundary conditions (non-negative coefficients, the temperature tied to the surroundings at one face at least) the heat system has exactly one solution; if no cell absorbs heat no temperature is below the coldest temperature the boundary conditions prescribe, and if no cell produces heat none is above the hottest.", "quantifier": "for every mesh, uniform or not, conductivities, sources and boundary numbers, in the three geometries", "why_tests_cant": "Existence, uniqueness and an inequality for the solution of a linear system of arbitrary size.", "anchors": ["Heat/BaseHeatCode.cpp: setupSystem, applyBoundaryConditions, solveSystem"]}
{"id": "C48", "title": "Cylinder and sphere probabilities are chord sums with a sound quadrature", "statement": "There is one fixed rule of eight nodes in (0,1) with positive weights, exact for polynomials times x dx up to degree 15 within 1e-10, such that in a cylinder or a sphere every first-collision probability is the sum over the chords of that rule, in each ring up to the inner of the two cells, of the flights along the chord; probabilities between different cells are non-negative, and what a row leaves over is the flow out of the body along the same chords, which is non-negative.", "quantifier": "for every mesh of any number of rings and groups, all positive cross sections and volumes", "why_tests_cant": "Identity between four nested loops and a geometric quantity for all sizes, plus an inequality.", "anchors": ["CPM/CylSpectrumCode.cpp: calcTracks, calcCPs", "CPM/SphSpectrumCode.cpp: calcTracks, calcCPs", "CPM/BaseSpectrumCode.cpp: abscissa, weights"]}
{"id": "C49", "title": "The probability of crossing the body is a probability", "statement": "The number Pss that the boundary condition uses for the neutrons returned by the boundary (they cross the body without collision) lies between 0 and 1 for the surface the mesh supplies.", "quantifier": "for every mesh and all positive cross sections, in the three geometries", "why_tests_cant": "Inequality over all data; depends on the consistency of surface, volumes and escape probabilities.", "anchors": ["CPM/SlabSpectrumCode.cpp: applyBoundaryConditions", "CPM/CylSpectrumCode.cpp: applyBoundaryConditions", "CPM/SphSpectrumCode.cpp: applyBoundaryConditions", "Backbone/Datamodel/Slab.cpp: externalSurface"]}
{"id": "C50", "title": "Transport fluxes balance collisions, emissions and leakage", "statement": "A flux that solves the transport equation satisfies in each group: collision rate over the body = emission rate (scattering in plus fission over k) less the leakage, the fraction lost of the emission of a cell being Pis (1-albedo)/(1-albedo*Pss); with a closed boundary collisions and emissions are equal.", "quantifier": "for every mesh, number of groups, cross sections, albedo between 0 and 1 and every solution", "why_tests_cant": "A conservation law for the solution of an eigenvalue problem of arbitrary size.", "anchors": ["CPM/BaseSpectrumCode.cpp: calcCPMMatrix, calcMMatrix, calcFMatrix", "CPM/SlabSpectrumCode.cpp", "CPM/CylSpectrumCode.cpp", "CPM/SphSpectrumCode.cpp"]}
{"id": "C51", "title": "Transport sources give unique non-negative fluxes", "statement": "If in each cell and group less is scattered than collides, the transport loss matrix is regular and non-negative sources give non-negative fluxes.", "quantifier": "for every mesh, every number of groups, all such data, albedos between 0 and 1 and all sources", "why_tests_cant": "A positivity statement about the inverse of matrices of any size.", "anchors": ["CPM/BaseSpectrumCode.cpp: calcMMatrix", "CPM/SlabSpectrumCode.cpp", "CPM/CylSpectrumCode.cpp", "CPM/SphSpectrumCode.cpp"]}
{"id": "C52", "title": "The k-factor and flux of a fundamental calculation solve the eigenvalue equation", "statement": "When the fundamental (power iteration) calculation returns, the k-factor and flux satisfy M phi = F phi / k up to the requested accuracy.", "quantifier": "for all matrices, iteration limits and accuracies, with a linear solver that solves its systems", "why_tests_cant": "Soundness of an iterative method for all inputs; the violating inputs form a thin set (M maps flat to flat) that spot tests need not hit.", "anchors": ["Utilities/numeric_tools.cpp: sourceIteration"]}
{"id": "C53", "title": "The reported k-factor is positive and the reported flux is a non-negative distribution", "statement": "If the inverse of the loss matrix and the fission matrix have no negative entries, a fundamental calculation that returns reports k > 0 and a non-negative flux that sums to one.", "quantifier": "for all such matrices of any size, iteration limits and accuracies", "why_tests_cant": "Invariant over an unbounded number of iterations for matrices of any size.", "anchors": ["Utilities/numeric_tools.cpp: sourceIteration"]}
{"id": "C54", "title": "The last two fission sources bound the error of the k-factor", "statement": "Unless the calculation stopped in its first pass, both the reported k-factor and the true one (that of a non-negative adjoint flux that sees the fission source) lie between the smallest and the largest ratio of the last two fission sources, so they differ by no more than the spread of these ratios.", "quantifier": "for all loss matrices with non-negative inverse, non-negative fission matrices, limits and accuracies", "why_tests_cant": "An a-posteriori bound relating the result to an unknown exact quantity.", "anchors": ["Utilities/numeric_tools.cpp: sourceIteration"]}
{"id": "C55", "title": "The fundamental calculation converges to the fundamental mode", "statement": "If the loss matrix has a non-negative inverse, fission is non-negative and fission anywhere leads to fission everywhere, there is exactly one k-factor with a non-negative flux; the k-factors and normalised fluxes of the iteration tend to it; for every accuracy the calculation returns once the iteration limit is large enough; and what it returns for a fine accuracy is close to the fundamental mode.", "quantifier": "for all such problems of any size and every accuracy", "why_tests_cant": "A limit statement with existence and uniqueness: no finite number of runs settles it.", "anchors": ["Utilities/numeric_tools.cpp: sourceIteration"]}
{"id": "C56", "title": "A medium without fission never gets a k-factor", "statement": "If the fission matrix is zero, or no eigenvalue exceeds the tolerance, the calculation ends with an error message and reports no k-factor.", "quantifier": "for all loss matrices and all options, fundamental and all modes", "why_tests_cant": "Error behaviour on all degenerate inputs, with 0/0 in the iteration.", "anchors": ["Utilities/numeric_tools.cpp: sourceIteration, GeneralizedEigenSolver", "Utilities/eigenmodesResults.h"]}
{"id": "C57", "title": "The convergence warning tells whether the loss matrix is diagonally dominant", "statement": "The warning about diagonal dominance is printed exactly when the loss matrix is not strictly diagonally dominant.", "quantifier": "for all square matrices", "why_tests_cant": "An equivalence over all matrices, including the boundary case of equality.", "anchors": ["Utilities/numeric_tools.cpp: diagonalDominanceCheck"]}
{"id": "C58", "title": "The diffusion solver solves the multigroup diffusion equation", "statement": "A k-factor and flux satisfy the assembled matrix equation exactly when, in every cell and group, collisions plus the net outflow (Fick's law in the half cells, albedo condition at the ends) equal scattering in plus the group's share of the fission neutrons over k; the adjoint solver solves the equation with the groups exchanged.", "quantifier": "for every mesh of at least two cells, number of groups, positive diffusion data, cross sections and albedos in [-1,1]", "why_tests_cant": "An equivalence between a matrix equation of any size and the balance equations users have in mind.", "anchors": ["Diffusion/BaseDiffusionCode.cpp", "Diffusion/ForwardDiffusionCode.cpp", "Diffusion/AdjointDiffusionCode.cpp"]}
{"id": "C59", "title": "The diffusion k-factor is production over absorption plus leakage", "statement": "For every solution, fission production divided by k is absorption plus leakage through the two boundaries; leakage of a non-negative flux is never negative and zero at a reflecting boundary, so k never exceeds production over absorption.", "quantifier": "for every mesh, number of groups, cross sections, albedos in [-1,1] and every solution, with a fission spectrum that adds up to one", "why_tests_cant": "A conservation law for all solutions of eigenvalue problems of any size.", "anchors": ["Diffusion/BaseDiffusionCode.cpp", "Diffusion/DiffusionSolver.cpp: solve"]}
{"id": "C60", "title": "A diffusion calculation that returns has stored a physical result", "statement": "When a forward calculation of the fundamental mode returns, the reactor holds one positive k-factor, a flux without negative entries that adds up to one, and non-negative heat sources that add up to the thermal power and are distributed like the fissions.", "quantifier": "for every mesh, number of groups, non-negative data with some absorption everywhere, iteration limit and accuracy", "why_tests_cant": "Holds for every run whatever the number of iterations.", "anchors": ["Diffusion/DiffusionSolver.cpp: solve", "Diffusion/BaseDiffusionCode.cpp", "Utilities/numeric_tools.cpp: sourceIteration"]}
{"id": "C61", "title": "A calculation changes only its own results", "statement": "A forward calculation leaves the adjoint results alone and an adjoint calculation leaves the forward results and the heat sources alone; a transport calculation, like a forward one, leaves the adjoint results alone. All save the heat sources of before for the relaxation.", "quantifier": "for all inputs and options and every outcome that returns", "why_tests_cant": "A frame property over all inputs.", "anchors": ["Diffusion/DiffusionSolver.cpp: solve", "Diffusion/BaseDiffusionCode.cpp: setNewHeatSource, setAdjointModes"]}
{"id": "C62", "title": "Diffusion calculations converge to the one physical solution", "statement": "For a connected multiplying reactor there is exactly one k-factor with a non-negative flux; the forward calculation follows the generations of neutrons that start with an even source (each born from the fissions of the one before) and converges to them, the adjoint calculation to the same k-factor and the one non-negative adjoint flux, and each returns for every accuracy if the iteration limit is large enough.", "quantifier": "for every mesh, number of groups, data with absorption everywhere and connected fission, albedos in [-1,1]", "why_tests_cant": "Existence, uniqueness and a limit; no finite set of runs settles them.", "anchors": ["Diffusion/DiffusionSolver.cpp: solve", "Diffusion/BaseDiffusionCode.cpp", "Utilities/numeric_tools.cpp: sourceIteration"]}
{"id": "C63", "title": "A reflected homogeneous reactor has the k-factor of the infinite medium", "statement": "If both boundaries reflect and every cell has the k-infinity and spectrum of the same infinite medium, the diffusion calculation converges to that k-infinity and to the spectrum, flat in space.", "quantifier": "for every mesh, number of groups and medium", "why_tests_cant": "An analytic benchmark for all media and meshes at once.", "anchors": ["Diffusion/DiffusionSolver.cpp: solve", "Diffusion/BaseDiffusionCode.cpp", "Utilities/numeric_tools.cpp: sourceIteration"]}
{"id": "C64", "title": "The all-modes calculation agrees with the fundamental calculation", "statement": "A calculation of all modes stores the solution the fundamental calculation converges to as the first mode, and every other mode with its own smaller k-factor and a flux that solves the equation; forward and adjoint.", "quantifier": "for every connected multiplying reactor for which the library finds all eigenvalues and they are real", "why_tests_cant": "Agreement of two different algorithms on all inputs.", "anchors": ["Diffusion/DiffusionSolver.cpp: solve", "Utilities/numeric_tools.cpp: GeneralizedEigenSolver, sourceIteration", "Utilities/eigenmodesResults.h"]}
{"id": "C65", "title": "More absorption, less fission or less reflection never raises the k-factor", "statement": "Raising total cross sections, lowering scattering or fission, or lowering an albedo never raises the k-factor a diffusion calculation converges to.", "quantifier": "for every pair of connected multiplying reactors on the same mesh with the same diffusion coefficients", "why_tests_cant": "A monotonicity statement about two arbitrary inputs.", "anchors": ["Diffusion/DiffusionSolver.cpp: solve", "Diffusion/BaseDiffusionCode.cpp", "Utilities/numeric_tools.cpp: sourceIteration"]}
{"id": "C66", "title": "A criticality calculation whose options were not given is refused", "statement": "If the direction or the kind of modes is missing from the input the program says so, and never works with unset options.", "quantifier": "for all inputs", "why_tests_cant": "Error behaviour for absent options, where the code dereferences a null pointer or reads an empty list.", "anchors": ["Backbone/IO/Input.cpp: setSolverProperties", "Diffusion/DiffusionCodeFactory.cpp", "Diffusion/DiffusionSolver.cpp: solve", "Backbone/Datamodel/Reactor.h: getKFactor"]}
{"id": "C67", "title": "A transport calculation that returns has stored a physical result", "statement": "When a transport calculation of the fundamental mode returns, the reactor holds one positive k-factor, a flux without negative entries that adds up to one, and non-negative heat sources that add up to the thermal power and are distributed like the fissions; adjoint results are untouched.", "quantifier": "for every slab, cylinder or sphere mesh, number of groups, non-negative data with some absorption everywhere, albedo in [0,1], iteration limit and accuracy", "why_tests_cant": "Holds for every run whatever the number of iterations.", "anchors": ["CPM/SpectrumSolver.cpp: solve", "CPM/BaseSpectrumCode.cpp", "Utilities/numeric_tools.cpp: sourceIteration"]}
{"id": "C68", "title": "Transport calculations converge to the one physical solution", "statement": "If fission neutrons can reach every fissile cell in a group that causes fission, the integral transport equation has exactly one k-factor with a non-negative flux; the transport calculation converges to them and returns for every accuracy if the iteration limit is large enough.", "quantifier": "for every mesh, number of groups, data with absorption everywhere and connected fission, albedo in [0,1]", "why_tests_cant": "Existence, uniqueness and a limit; no finite set of runs settles them.", "anchors": ["CPM/SpectrumSolver.cpp: solve", "CPM/BaseSpectrumCode.cpp", "CPM/SlabSpectrumCode.cpp", "CPM/CylSpectrumCode.cpp", "CPM/SphSpectrumCode.cpp", "Utilities/numeric_tools.cpp: sourceIteration"]}
{"id": "C69", "title": "A closed homogeneous body has the k-factor of the infinite medium in transport as in diffusion", "statement": "If the albedo is one and every cell has the k-infinity and spectrum of the same infinite medium, the transport calculation converges to that k-infinity and to the spectrum, flat in space, whatever the geometry.", "quantifier": "for every geometry, mesh, number of groups and medium", "why_tests_cant": "An analytic benchmark for all media and meshes at once, and the agreement of two methods.", "anchors": ["CPM/SpectrumSolver.cpp: solve", "CPM/BaseSpectrumCode.cpp: applyBoundaryConditions, calcMMatrix, calcFMatrix"]}
{"id": "C70", "title": "The all-modes transport calculation agrees with the fundamental calculation", "statement": "A transport calculation of all modes stores the solution the fundamental calculation converges to as the first mode, and every other mode with its own k-factor, not above the first, and a flux that solves the transport equation.", "quantifier": "for every connected multiplying body for which the library finds all eigenvalues and they are real", "why_tests_cant": "Agreement of two different algorithms on all inputs.", "anchors": ["CPM/SpectrumSolver.cpp: solve", "Utilities/numeric_tools.cpp: GeneralizedEigenSolver, sourceIteration", "Utilities/eigenmodesResults.h"]}
{"id": "C71", "title": "Less scattering, less fission or a lower albedo never raises the transport k-factor", "statement": "At the same total cross sections, lowering scattering (more absorption), lowering fission or lowering the albedo never raises the k-factor a transport calculation converges to.", "quantifier": "for every pair of connected multiplying bodies on the same mesh with the same total cross sections", "why_tests_cant": "A monotonicity statement about two arbitrary inputs.", "anchors": ["CPM/SpectrumSolver.cpp: solve", "CPM/BaseSpectrumCode.cpp: applyBoundaryConditions, calcMMatrix, calcFMatrix"]}
{"id": "C72", "title": "In transport, production over k is absorption plus leakage", "statement": "For every physical solution of the transport equation the neutrons produced divided by k are those absorbed plus those that leak; so k is at most production over absorption, with equality in a closed body.", "quantifier": "for every geometry, mesh, number of groups, cross sections, albedo in [0,1] and every solution, with fission spectra that add up to one", "why_tests_cant": "A conservation law for all solutions of eigenvalue problems of any size.", "anchors": ["CPM/SpectrumSolver.cpp: solve", "CPM/BaseSpectrumCode.cpp"]}
{"id": "C73", "title": "The solvers are given consistent data by the mesh", "statement": "For a sensible mesh whose materials have complete, physical data, the data handed to the transport, diffusion and heat calculations satisfy everything those calculations rely on: tables of the right size, positive volumes equal to those of the cells, increasing positions in the unit of the calculation, and in each cell the data of its own material at its own temperature.", "quantifier": "for every mesh, geometry, number of groups, materials and temperatures", "why_tests_cant": "Connects the requirements of the solvers with what users set; all sizes and values.", "anchors": ["Backbone/Datamodel/Mesh.cpp", "CPM/BaseSpectrumCode.h", "Diffusion/BaseDiffusionCode.h", "Heat/BaseHeatCode.h"]}
{"id": "C74", "title": "Albedo a sends back the fraction a of the escaping neutrons", "statement": "In a transport calculation on a mesh, a neutron that reaches the outer surface is lost with probability 1-a and otherwise re-enters, crosses the body with the probability that belongs to its true surface, and so on: losses are e(1-a)/(1-aX) with e the escape and X the crossing probability.", "quantifier": "for every mesh without a hole, geometry, cross sections and albedo in [0,1]", "why_tests_cant": "Combines mesh geometry, units, collision probabilities and boundary conditions, for all bodies.", "anchors": ["CPM/BaseSpectrumCode.cpp: applyBoundaryConditions", "Backbone/Datamodel/Mesh.cpp: getExternalSurface", "Backbone/Datamodel/Sphere.cpp: externalSurface"]}
{"id": "C75", "title": "A heat calculation ends with temperatures in balance with the heat sources", "statement": "A heat calculation that ends normally leaves temperatures for which every cell conducts away the heat it produces, with conductivities taken at temperatures that differ by less than the accuracy; it changes nothing else; temperatures never fall below the lowest boundary temperature; with conductivities that do not depend on temperature the calculation always ends, and the balance is exact.", "quantifier": "for every geometry, mesh, heat source, conductivity law, boundary condition, start temperatures, accuracy and iteration limit", "why_tests_cant": "Fixed-point iterations of any length, on meshes of any size, with any polynomial law.", "anchors": ["Heat/HeatSolver.cpp: solve", "Heat/BaseHeatCode.cpp: setupSystem, solveSystem", "Backbone/Datamodel/Mesh.cpp: getThermalConductivities, setTemperatures"]}
{"id": "C76", "title": "A coupled neutronics and heat calculation leaves the reactor in order", "statement": "Diffusion or transport coupled with heat conduction, in either order: a calculation that ends normally has not changed the mesh, the material laws or the power; the heat sources are not negative and add up to the power; no temperature is below the lowest boundary temperature; there is one positive k-factor. If the reactor is connected and multiplying at all temperatures, the only alternative to results is the end of the program with a message.", "quantifier": "for every geometry, mesh, materials with any temperature laws, start temperatures, relaxation parameter in [0,1], accuracies and iteration limits, whatever the number of passes", "why_tests_cant": "An invariant of nested iterations of any length over four modules.", "anchors": ["Backbone/Datamodel/DoubleCalculation.cpp: solve", "Diffusion/DiffusionSolver.cpp", "CPM/SpectrumSolver.cpp", "Heat/HeatSolver.cpp", "Backbone/Datamodel/Mesh.cpp"]}
{"id": "C77", "title": "The results of a coupled calculation belong together", "statement": "When a coupled calculation ends normally, making both calculations once more, one after the other, starting from its result, reproduces this result within the accuracy.", "quantifier": "for every two solvers, reactor, relaxation parameter, accuracy and iteration limit", "why_tests_cant": "A statement about the limit of an iteration on all inputs; a test sees single runs that look converged.", "anchors": ["Backbone/Datamodel/DoubleCalculation.cpp: solve", "Backbone/Datamodel/BaseCalculation.cpp: getDifference"]}
{"id": "C78", "title": "The flux of a source-driven calculation satisfies the neutron balance with the source", "statement": "The total flux of a source-driven (ADS) calculation solves the multigroup diffusion equation of the reactor with the external source: in every cell and group, what leaves, is absorbed or is scattered away equals what is scattered in, produced by fission and emitted by the source. For a subcritical reactor the flux is not negative.", "quantifier": "for every reactor, source position, group and strength", "why_tests_cant": "The flux is put together from all eigenmodes; whether the sum is a solution depends on completeness of the modes and on the weights, not on any single value.", "anchors": ["Backbone/Datamodel/ADSCalculation.cpp: solve", "Diffusion/DiffusionSolver.cpp: solve"]}
{"id": "C79", "title": "Every solver gets the settings of its own block", "statement": "Accuracy, iteration limit, albedos, boundary conditions, number of groups, direction and eigenmodes of a solver are the values given in the block of this solver, and a setting that its block does not give is reported as missing.", "quantifier": "for every input file that is read and every solver in it", "why_tests_cant": "All files: the value found depends on the order and number of blocks and on every line in between.", "anchors": ["Backbone/IO/Input.cpp: readData, setSolverProperties, findBlock, findKeyword"]}
{"id": "C80", "title": "A setting with a wrong number of values is refused", "statement": "If a setting has another number of values than the solver needs, the program ends with a message instead of calculating with something else.", "quantifier": "for every input file, solver and setting", "why_tests_cant": "Error behaviour over all lines; a wrong count is accepted silently or not depending on the count.", "anchors": ["Backbone/IO/Input.cpp: setSolverProperties"]}
{"id": "C84", "title": "A coupled calculation with a source-driven solver does that calculation", "statement": "A coupled calculation one of whose solvers is the source-driven one never ends normally without having calculated the source-driven flux.", "quantifier": "for all reactors, settings and partners", "why_tests_cant": "The solver's own function is empty, and whether the loop notices depends on not-a-number comparisons for every accuracy.", "anchors": ["Backbone/Datamodel/ADSSolver.h: solve", "Backbone/Datamodel/DoubleCalculation.cpp: solve", "Backbone/Datamodel/BaseCalculation.cpp: getDifference"]}
{"id": "C83", "title": "Every cell gets the data the file gives for its material and its place", "statement": "After reading, every cell has the tables and coefficients found for its material (cross sections, scattering, neutrons per fission, spectrum, diffusion coefficients, conductivity), the temperature and heat source at its place in the lists, and the kinetics data are those of the file; data that no solver needs are not set.", "quantifier": "for every input file that is read, every cell, group and pair of groups", "why_tests_cant": "The data of a cell are set by loops over materials, groups and cells; any file may be given, and a slip in an index shows only for particular numbers of groups, materials and cells.", "anchors": ["Backbone/IO/Input.cpp: readData, setMaterials, setMaterialProperties, setXS, setMatrixXS, setThermalConductivity, setTemperatures, setHeatSources, setKineticsParameters"]}
{"id": "C86", "title": "A file that lacks data is refused", "statement": "A file in which a table, a scattering entry, a conductivity or the temperature or heat source of a cell is missing, or which has more temperatures than cells, is not calculated: the program ends with a message.", "quantifier": "for every input file, solver, material, group and cell", "why_tests_cant": "Error behaviour over all files; missing data can end as zeros or as writing outside memory without any sign.", "anchors": ["Backbone/IO/Input.cpp: setXS, setMatrixXS, setTemperatures, setHeatSources", "Backbone/Datamodel/Mesh.cpp: setTemperatures, setHeatSources"]}
{"id": "C87", "title": "A complete file is read", "statement": "A file that has everything the solvers it names need (their blocks with suitable settings, geometry and mesh, the tables of every material, lists not longer than the mesh, kinetics data with as many times as reactivities) is read without an error message, and afterwards the reactor has the mesh, geometry, groups and solvers of the file.", "quantifier": "for every input file, any number and combination of solvers, regions, materials and groups", "why_tests_cant": "Success of the whole reader: about forty functions run one after the other, each of which may exit; all combinations of solvers and all sizes are meant, not the shipped cases.", "anchors": ["Backbone/IO/Input.cpp: readData, storeInput, setSolvers, setMesh, setSolverProperties, setMaterials, setMaterialProperties, setPlots"]}
{"id": "C88", "title": "The plots asked for are those named", "statement": "The list of plots is that of the names behind the keyword plots in the order of the line, where unknown names are skipped; without such a line there are no plots, and a line without names is refused.", "quantifier": "for every input file that is read", "why_tests_cant": "All files; the list is collected while all other data are read, by a search over all lines.", "anchors": ["Backbone/IO/Input.cpp: readData, setPlots, readManyParameters"]}
{"id": "C85", "title": "A heat calculation gives the steady temperatures of the file", "statement": "For a file that describes a heat calculation completely and sensibly, the program ends normally or with the message that the limit of passes was reached; if it ends normally, the reactor has the mesh and the heat sources of the file and its temperatures are those of steady heat conduction in the body of the file with the conductivities and boundary conditions of the file, the conductivities being taken at temperatures within the accuracy of the result.", "quantifier": "for every such file, any geometry, number of regions and materials, and every linear solver that solves regular systems", "why_tests_cant": "From text to physics: the statement joins the reader, the mesh, the conductivity laws and the iteration for all files; tests compare single shipped cases with stored results.", "anchors": ["app/main.cpp", "Backbone/IO/Input.cpp: readData", "Backbone/Datamodel/Problem.cpp: solve", "Heat/HeatSolver.cpp: solve"]}
{"id": "C81", "title": "The layout of an input file does not matter", "statement": "Two input files that say the same (the same texts before the percent signs, line by line, apart from letter case, indentation, repeated blanks, white space at the ends of lines, empty lines and comments) give the same calculation: the same solvers, reactor, plots and results, or the same failure.", "quantifier": "for all pairs of input files with the same content and all reactors before", "why_tests_cant": "Relates all pairs of files; every search of the reader uses line numbers, which differ between the two files.", "anchors": ["Backbone/IO/Input.cpp: storeInput, findKeyword, findBlock, splitLine, readData", "app/main.cpp"]}
{"id": "C82", "title": "Comments do not change a calculation", "statement": "Adding, changing or removing comments, in lines of their own or behind the data of a line, does not change what the program calculates.", "quantifier": "for all input files and all comments", "why_tests_cant": "All texts of comments and all places; the reader searches for keywords before comments are cut off, which shows only for particular words.", "anchors": ["Backbone/IO/Input.cpp: storeInput, findKeyword, findBlock, splitLine"]}
{"id": "C89", "title": "Wrong numbers of arguments are refused without doing harm", "statement": "With any number of arguments other than three after the program name the program stops before it touches any file, and the message on the console says whether arguments are missing or there are too many; with three arguments and an output file that can be written nothing is said on the console, and if the output file cannot be written the program ends with an exception before the input is read.", "quantifier": "for all lists of arguments, all files and all environments", "why_tests_cant": "All argument lists; no test starts the program with arguments.", "anchors": ["Backbone/IO/Input.cpp: getArguments", "Backbone/IO/Output.cpp: createLogger", "app/main.cpp"]}
{"id": "C90", "title": "No file but the output file is changed", "statement": "However the program ends, every file other than the output file named on the command line is as before, in particular the input file; of an old output file nothing remains.", "quantifier": "for all arguments, input files and contents of the disk, whatever happens during reading and calculating", "why_tests_cant": "Frame property over all runs, including those that fail anywhere.", "anchors": ["Backbone/IO/Output.cpp: setOutputPath, removeOldOutputFile, createLogger", "Backbone/IO/Input.cpp: getArguments", "app/main.cpp"]}
{"id": "C91", "title": "The log of a heat calculation shows the temperatures", "statement": "For a complete input file for a heat calculation that asks for no figure of the total flux, printing and drawing never fail, so the program ends as the calculation alone ends; if it comes to its end the log consists of the opening, the names of the files, the messages of the chosen level, exactly one temperature per cell in the order of the cells (those of the reactor at the end, which are the steady temperatures described by the file), and the closing, and the figures are exactly those the file asks for.", "quantifier": "for every complete heat file, any mesh and geometry, every level, every format of numbers and every disk", "why_tests_cant": "From the text of the input file to the text of the log, for all files; tests compare a few logs of shipped cases.", "anchors": ["app/main.cpp", "Backbone/IO/Output.cpp: print", "Backbone/Datamodel/AbstractSolver.cpp: plots", "Utilities/additionalPrintFuncs.cpp: printMatrix", "Heat/HeatSolver.cpp: printResults", "Backbone/Datamodel/Problem.cpp: solve"]}
{"id": "C93", "title": "The log of a criticality calculation shows its results", "statement": "For a complete input file with a transport or diffusion solver, alone or coupled with another one or with heat conduction, printing and drawing never fail, so the program ends as the calculation alone ends; if it comes to its end the log shows exactly the multiplication factor and the flux of the reactor at the end, group by group and cell by cell, forward or adjoint as the file says, all modes if there are several, the power densities if any is positive, and for coupled solvers the number of passes, which is between one and the limit of the file, and the results of both solvers in their order; the figures are those the file asks for (once per solver).", "quantifier": "for every complete file with such solvers, any number of groups, cells and modes, every level, every format of numbers and every disk", "why_tests_cant": "From the text of the input file to the text of the log, for all files, including that no matrix is read out of bounds while printing.", "anchors": ["app/main.cpp", "Backbone/IO/Output.cpp: print", "Backbone/Datamodel/AbstractSolver.cpp: plots", "Utilities/additionalPrintFuncs.cpp: printMatrix", "Diffusion/DiffusionSolver.cpp: printResults, printEigenmodesResults", "CPM/SpectrumSolver.cpp: printResults, printEigenmodesResults", "Backbone/Datamodel/Problem.cpp: solve", "Backbone/Datamodel/SingleCalculation.cpp: solve", "Backbone/Datamodel/DoubleCalculation.cpp: solve"]}
{"id": "C97", "title": "A criticality calculation finds the k-factor of the reactor described by the file", "statement": "For a complete input file of a diffusion, adjoint or transport calculation the text alone fixes a multigroup problem: mesh and materials from the regions, cross sections from the tables, albedos from the settings. If some material is fissile and the groups are linked by scattering and fission, this problem has exactly one k-factor with a positive flux; the k-factors of the generations of neutrons that start with an even source converge to it; the program ends with the first generation that meets the accuracy given in the file, with heat sources that add up to the power and share it like the fissions, or with a message if the limit given in the file comes first. Undefined behaviour does not occur.", "quantifier": "for every such file, any geometry, mesh, number of groups and materials, every library that solves regular systems", "why_tests_cant": "Existence and uniqueness of the k-factor, convergence of the iteration and the absence of undefined behaviour are statements about all files and all iterates.", "anchors": ["app/main.cpp", "Backbone/IO/Input.cpp: readData", "Backbone/Datamodel/Mesh.cpp", "Diffusion/DiffusionSolver.cpp: solve", "CPM/SpectrumSolver.cpp: solve", "Utilities/numeric_tools.cpp"]}
{"id": "C95", "title": "The log of a source-driven calculation shows its modes and fluxes, and the figures asked for are drawn", "statement": "For a complete file of a source-driven (ads) calculation the result of the program is that of the calculation alone. If it comes to its end, the log contains all forward and adjoint modes with their factors, three lists with one value per mode and the total fluxes of all groups and cells, and the figures of the kinds named on the plots card are drawn.", "quantifier": "for every complete file, any number of groups, cells and modes, every level and every disk", "why_tests_cant": "Printing reads tensors whose sizes depend on what the library returned; that no index leaves them is a statement about all files and libraries.", "anchors": ["Backbone/Datamodel/ADSCalculation.cpp: solve", "Backbone/Datamodel/AbstractSolver.cpp: plots", "Diffusion/DiffusionSolver.cpp: printEigenmodesResults", "Utilities/additionalPrintFuncs.cpp"]}
{"id": "C98", "title": "A source-driven calculation gives the flux of the source problem described by the file", "statement": "For a complete file of a source-driven calculation the text fixes a diffusion problem with an external source in one cell and group. If all modes are found, the total flux the program ends with is the only flux for which, in every cell, collisions and outflow balance scattering, fission and the source; below criticality it is nowhere negative.", "quantifier": "for every file, geometry and mesh, every source and every library that returns the modes of the reactor", "why_tests_cant": "Completeness of the modes and uniqueness of the flux are statements about all reactors; the sum over modes is only right if the weights are.", "anchors": ["Backbone/Datamodel/ADSCalculation.cpp: solve", "Backbone/IO/Input.cpp: readData", "Backbone/Datamodel/Mesh.cpp"]}
{"id": "C92", "title": "The log of a kinetics calculation shows the solution of the equations of point kinetics for the data of the file", "statement": "A complete file for a kinetics calculation (decay constants and fractions of the delayed neutrons, generation time, initial power, times and reactivities) with physical data fixes one solution of the equations of point kinetics: it starts in equilibrium at the initial power, has the given reactivities one after the other, and power and precursors are continuous where the reactivity changes. The program comes to its end and its log shows exactly the powers of this solution at the times of the file; different numbers of times and reactivities or of decay constants and fractions are refused with a message.", "quantifier": "for every such file, any number of delayed groups and of reactivity steps, every level, every format of numbers and every disk, and an exact finder of roots", "why_tests_cant": "Existence and uniqueness of the solution and its equality with the sums of exponentials the program evaluates are statements about real functions and all files; a test only compares a few powers with other rounded numbers.", "anchors": ["app/main.cpp", "Backbone/IO/Input.cpp: setKineticsParameters", "CORE/KineticsSolver.cpp: solve", "CORE/Kinetics.cpp: power", "Backbone/Datamodel/AbstractSolver.cpp: plots", "Backbone/Datamodel/SingleCalculation.cpp: solve"]}
{"id": "C94", "title": "The figures a heat calculation is asked for are drawn and show the heat sources and temperatures", "statement": "If the file of a heat calculation asks for the figure of the power densities and the program comes to its end, the figure is drawn: the heat sources of the file over the middles of the cells of the mesh the file describes. If it asks for the temperatures, the figure drawn shows the same temperatures as the log.", "quantifier": "for every complete file of a heat calculation with physical data, every mesh, geometry and boundary conditions, every level and every disk", "why_tests_cant": "Figures are not compared by tests at all; which figures are left out depends on the smallest value of all cells.", "anchors": ["Backbone/Datamodel/AbstractSolver.cpp: plots", "Utilities/plot.cpp: plotEigenVectorXd", "Heat/HeatSolver.cpp: printResults", "Backbone/IO/Input.cpp: readData"]}
{"id": "C96", "title": "createCppVector prints a definition of the vector in C++", "statement": "For every list of numbers createCppVector prints rows which, put together, read as the definition of a vector of C++ with these numbers in their order, separated by commas, five of them in each row but the first and the last.", "quantifier": "for every list of numbers, every format and every name", "why_tests_cant": "The positions of commas and line breaks depend on the length modulo five; tests print one or two lengths and compare nothing.", "anchors": ["Utilities/additionalPrintFuncs.cpp: createCppVector"]}
{"id": "C99", "title": "The log of a criticality calculation shows the k-factor and the flux of the reactor described by the file", "statement": "A complete file of a criticality calculation with physical data fixes a multigroup diffusion (forward or adjoint) or transport problem with exactly one k-factor that has a physical flux. The generations of neutrons that start with an even source converge to this k-factor and flux, and the log of the program shows the first k-factor that differs from the one before by less than the accuracy of the file together with the flux of the same pass, group by group and cell by cell, and nothing else; figures of the flux asked for show the same values, one figure for each group. If the limit of the file comes first, the program ends with status one.", "quantifier": "for every such file, geometry, mesh, number of groups, every level and every disk, and every library that solves regular systems", "why_tests_cant": "Existence, uniqueness and convergence are statements about all reactors; which iterate ends up in which line of the log depends on the whole chain from the reader to the printing of transposed tensors.", "anchors": ["app/main.cpp", "Backbone/Datamodel/SingleCalculation.cpp: solve", "Diffusion/DiffusionSolver.cpp: printResults", "CPM/SpectrumSolver.cpp: printResults", "Utilities/numeric_tools.cpp: sourceIteration"]}
{"id": "C100", "title": "A coupled calculation ends with a k-factor, a flux, temperatures and heat sources that belong together", "statement": "A complete file for diffusion or transport coupled with heat conduction, in either order, fixes the body, the nuclear data as functions of the temperature, the conductivities, the power and the relaxation parameter. The program ends normally or with a message. If it ends normally, k-factor and flux are the first generation of neutrons that meets the accuracy of the file in the multigroup problem at certain temperatures, and this problem has exactly one k-factor with a physical flux; the heat sources shared out last are those of its fissions and add up to the power; the temperatures found last are those of steady heat conduction with the heat sources it was given, and never below the boundary temperatures. Temperatures and heat sources of the reactor are mixtures, by the relaxation parameter, of those found last and those before; neutronics uses the temperatures, and heat conduction the heat sources, of the reactor as it is when they start. k-factors of the last two passes differ by at most the accuracy (relatively), temperatures found in them by at most the accuracy in every cell. Without relaxation the reactor is consistent: temperatures solve the heat problem with the heat sources of the reactor (neutronics first) or nuclear data are taken at the temperatures of the reactor (heat conduction first), and the other dependence holds within the accuracy or with the sources of the pass before.", "quantifier": "for every such file, every geometry, number of cells, groups and materials, every power, accuracy below one and relaxation parameter between zero and one, every library that solves regular systems", "why_tests_cant": "What is consistent with what at the end of a fixed-point iteration with relaxation is a statement about all passes of all reactors; a test compares a few numbers of one reactor.", "anchors": ["Backbone/Datamodel/Problem.cpp: solve", "Backbone/Datamodel/DoubleCalculation.cpp: solve", "Backbone/IO/Input.cpp: readData", "Heat/HeatSolver.cpp: solve, relaxResults", "Diffusion/DiffusionSolver.cpp: solve, relaxResults", "CPM/SpectrumSolver.cpp: solve, relaxResults"]}
{"id": "C101", "title": "The log and the figures of a coupled calculation show results that belong together", "statement": "For a complete file of diffusion or transport coupled with heat conduction with physical data the program ends with status one, or its log shows the number of passes, which is at most the limit of the file, a k-factor, a flux, power densities and temperatures that belong together in the sense of C100, in the order of the solvers; the figures asked for show the same flux, temperatures and power densities over the middles of the cells.", "quantifier": "for every such file, both orders of the solvers, every level, every format of numbers and every disk", "why_tests_cant": "Which of the many values computed in the passes end up in the log is decided by the whole chain from the reader to the printing; tests do not look at the log.", "anchors": ["app/main.cpp", "Backbone/Datamodel/DoubleCalculation.cpp: solve", "Heat/HeatSolver.cpp: printResults", "Diffusion/DiffusionSolver.cpp: printResults", "CPM/SpectrumSolver.cpp: printResults", "Backbone/Datamodel/AbstractSolver.cpp: plots"]}
{"id": "C102", "title": "A file that is refused is refused with a reason, and the reason is true", "statement": "Whenever the program ends with status one while reading the input file, the last line of its log is a complaint, and what it says is true of the file: the keyword it calls missing is needed by the solvers named in the file and no line of the block in question says it; the solver or geometry it does not recognise is named in the file; the line it calls too short or too long has that many words; the numbers of times and reactivities it gives are those of the file; a setting it calls in error has no value the solver can use. If the file cannot be opened, the log says so and gives the path.", "quantifier": "for every input file, every level and every disk, every library that finds blanks small and never ends the program itself", "why_tests_cant": "The complaint depends on the first thing wrong with the file in the order of reading; a test can only try some wrong files, and whether each of the some thirty calls of exit has a message that fits is a statement about all of them.", "anchors": ["Backbone/IO/Input.cpp: readData, findKeyword, readOneParameter, readManyParameters, setSolvers, setGeometryKind, setSolverProperties, setThermalConductivity, setKineticsParameters", "Backbone/IO/Output.cpp"]}
{"id": "C103", "title": "The log shows the input as it is used", "statement": "If the input file is read, the log shows, after the names of the files and whatever happens later, exactly this: the solvers in the order of the file; the geometry; the boundaries, volumes and middle points of the cells that are used in the calculation and the material of each cell; the lines of all settings of the file under the name of their solver; and for each solver its data for each cell, as they stand in the block of its material in the file: all groups of neutrons per fission, spectra, cross sections, diffusion coefficients and the scattering matrix, conductivities, temperatures, heat sources or power, and the data of point kinetics. Nothing else is shown, and the file determines the text. (The code violates this for the initial power of point kinetics.)", "quantifier": "for every file that is read, every set of solvers, geometry, mesh and number of groups, every level and every disk", "why_tests_cant": "The text has a part for each cell, group, material and setting, in an order that depends on the sorting of materials and the order of solvers; a test can compare a few logs and does not do even that.", "anchors": ["Backbone/IO/Input.cpp: readData, setSolvers, setGeometryKind, setMesh, setSolverProperties, setXS, setMatrixXS, setThermalConductivity, setKineticsParameters, setTemperatures, setHeatSources, setThermalPower", "Backbone/IO/Output.cpp", "Utilities/additionalPrintFuncs.cpp: printVector, stringFormat"]}
{"id": "C104", "title": "The cross section generator writes what Serpent computed", "statement": "After a first click on Generate in the window of SerpToALMOST.py, with one, two or three Serpent files that belong together (same universes, same groups, different temperatures), the generator writes lines which, pasted anywhere into an ALMOST input file that says nothing else about materials, give every material named like a universe all the tables its solver needs. At the temperatures of the files the laws read from the input have the values of Serpent (infinite-medium or leakage-corrected as asked for, with or without transport correction), up to the six digits that are printed.", "quantifier": "for every number of groups and universes, every contents of the Serpent files, every choice of settings, temperature units and interpolation library, and every input file around the generated lines", "why_tests_cant": "The chain goes through a window, two languages, an interpolation and two text formats: a test can follow a few files, but not all numbers of groups and universes, and whether a keyword of one table occurs in the line of another depends on all of the names and numbers in a file.", "anchors": ["scripts/SerpToALMOST.py: generate", "scripts/xs_gen.py: Generator", "Backbone/IO/Input.cpp: findBlock, findKeyword"]}
{"id": "C105", "title": "Generated cross sections keep the balances", "statement": "The polynomials the generator makes keep the neutron balance of Serpent's constants at every temperature, not only at those of the files: total cross section minus all scattering out of a group is the polynomial through Serpent's own differences, whether or not the transport correction is applied; and if the fission spectra of the files add up to one, so do the polynomials at every temperature.", "quantifier": "for every number of groups and universes, one to three files, every choice of settings and every temperature", "why_tests_cant": "It is a statement about all temperatures and about the sum over all groups; a test sees single temperatures.", "anchors": ["scripts/xs_gen.py: calculateALMOSTCrossSections, readSerpentOutput"]}
{"id": "C106", "title": "Generated cross sections lie between those of the files", "statement": "At every temperature between those of the Serpent files, every constant generated lies between the values of the files; in particular it is not negative if those of the files are not.", "quantifier": "for every pair or triple of files, every constant, every temperature between", "why_tests_cant": "It is a statement about a continuum of temperatures and all values at the nodes.", "anchors": ["scripts/xs_gen.py: calculateALMOSTCrossSections"]}
{"id": "C107", "title": "The generator uses the files it is given", "statement": "Every click on Generate uses exactly the Serpent files and temperatures that the window shows at that moment, and if a file is missing the message names that file.", "quantifier": "for all contents of the fields of the window, all files, and any number of clicks", "why_tests_cant": "It is about the state that is left over between clicks and all combinations of empty and filled fields.", "anchors": ["scripts/SerpToALMOST.py: generate", "scripts/xs_gen.py: prepareSerpentFiles, readSerpentOutput"]}
{"id": "C108", "title": "The library's data for uranium make sense up to the melting point", "statement": "For every temperature from 0 degrees Celsius to the melting point, the density of uranium in the library is positive, near that of uranium and falls with the temperature through all three forms of the crystals, the heat capacity is positive, and the conductivity is positive and grows with the temperature; outside that range all three are zero.", "quantifier": "for every real temperature, and every pair of temperatures for the monotony", "why_tests_cant": "It is a statement about a continuum of temperatures with exceptional points; a test of sample temperatures misses those points, where the strict comparisons with a tolerance leave gaps.", "anchors": ["Backbone/Library/Uranium.cpp: density, heatCapacity, thermalConductivity"]}
{"id": "C109", "title": "More reactivity never gives less power", "statement": "Two reactors with the same data that start with precursors in equilibrium, the second with no less power: if in every interval of time the second has no less reactivity, then it never has less power or fewer precursors, and it has more power from the first moment on at which it had more power or more reactivity. The power stays positive and no concentration becomes negative. From equilibrium the power never falls without negative reactivities and never rises without positive ones.", "quantifier": "for all physical data with any number of groups, all pairs of histories of reactivities at the same times that do not go back, and all positive powers", "why_tests_cant": "It compares infinitely many pairs of histories, and the residues the program adds up have different signs, so no single run shows that the sum cannot turn.", "anchors": ["CORE/Kinetics.cpp: power, init"]}
{"id": "C110", "title": "Under a constant reactivity the power follows the stable period", "statement": "After any history, under a constant reactivity the power stays between two positive multiples of exp(w t), where w is the only solution of the in-hour equation above all -lambda_i, the largest of its solutions, and has the sign of the reactivity. So the power grows beyond every bound or dies out according to the sign of the reactivity. From equilibrium it is never on the wrong side of the exponential itself.", "quantifier": "for all physical data with any number of groups, all histories before, all reactivities and all times from then on", "why_tests_cant": "It is a statement about all times up to infinity and about a solution of a transcendental equation for every reactivity.", "anchors": ["CORE/Kinetics.cpp: power, init"]}
{"id": "C111", "title": "How the groups of delayed neutrons are listed does not matter", "statement": "The powers of a kinetics calculation do not depend on the order in which the groups of delayed neutrons are listed, on whether a group is listed as one or as two groups with the same decay constant, or on whether groups without fraction are listed.", "quantifier": "for all physical data, all permutations of the groups and all call sequences; for the second half all data with a repeated decay constant or a fraction zero", "why_tests_cant": "The order enters a polynomial and its numerical roots; only a proof covers all permutations, and the repeated constants are single points of the space of data at which the formulas divide by zero.", "anchors": ["CORE/Kinetics.cpp: power, inHourEqRoots"]}
{"id": "C112", "title": "Kinetics does not depend on units", "statement": "The powers of a kinetics calculation are proportional to the initial power, do not depend on the unit of time, and stay the same if all reactivities, all fractions and the generation time are multiplied by one positive number, as for reactivities in dollars.", "quantifier": "for all physical data, all histories and all positive factors (for the power any real factor)", "why_tests_cant": "Proportionality for all factors and all histories needs the linearity of the equations solved; a test compares a few pairs of runs within a tolerance.", "anchors": ["CORE/Kinetics.cpp: power, init"]}
{"id": "C113", "title": "More heat never makes a cell colder, and temperatures add up", "statement": "Two heat calculations of the same body with constant conductivities: if the second file gives no cell less heat and no boundary colder surroundings, no cell is colder in the second result, and every cell that is given more heat is warmer. If the sources and the surroundings in a third file are a combination of those in two others, so are the temperatures. The temperatures to start with, the accuracies and the limits of passes do not matter.", "quantifier": "for all meshes with at least two cells in all geometries, all positive constant conductivities, all boundary conditions that make sense, and all pairs (triples) of sources and surroundings", "why_tests_cant": "It relates infinitely many pairs of runs; a test can only compare a few of them within a tolerance.", "anchors": ["Heat/HeatSolver.cpp: solve", "Heat/BaseHeatCode.cpp: setupSystem, applyBoundaryConditions"]}
{"id": "C114", "title": "A slab and its mirror image have the same k-factor", "statement": "Two input files for a diffusion calculation of a slab (forward or adjoint), the second with the regions in the opposite order and the albedos of the two sides exchanged: the k-factors of both runs agree in every pass, the fluxes are mirrored in every pass, and so are the limits. With the same accuracy and limit of passes, both forward runs give up, or both end with the same k-factor and mirrored fluxes.", "quantifier": "for all lists of regions with at least two cells, all numbers of groups, all data that make sense, and all pairs of albedos between -1 and 1", "why_tests_cant": "It relates infinitely many pairs of runs, and all passes of each; a test can only compare a few of them within a tolerance.", "anchors": ["Diffusion/DiffusionSolver.cpp: solve", "Diffusion/BaseDiffusionCode.cpp", "Utilities/numeric_tools.cpp: sourceIteration"]}
