# Verification of ALMOST: design

ALMOST is a small C++ reactor-physics code: input reader, 1-D mesh, multigroup diffusion,
collision-probability transport (CPM), heat conduction, point kinetics, and a coupling layer.
The source in `/repo` was read as text; nothing was built or run.
The Lean project in `lean/` contains hand-written models of parts of the code and theorems about them.
`properties.jsonl` lists the properties in English; `MANIFEST.json` says which theorem speaks about which property.

## How a model is related to the code

* Every model definition carries a comment with the file and lines it models, and its simplifications.
* `for` loops become `loop body n s`, a recursion over the same index whose state is the mutated variables; vectors and
  matrices carry their size, and every access is checked; matrices are filled entry by entry in the order of the code.
  The closed form of a loop is a *theorem*, never the definition.
* Outcomes. `Verif.Outcome` has five constructors: `ok a`, `exit` (the code prints an error and calls `exit(-1)`),
  `throws e` (a C++ exception), `ub` (undefined behaviour: out-of-bounds access, empty `front()`, unsigned
  wrap-around used as index, ...) and `nonfinite` (a division by zero: the C++ value is inf or NaN, the run goes on, the
  model stops). Undefined behaviour is never assumed away: a read with an index that may be out of bounds yields `ub`.
* Numbers. `double` is modelled by the exact reals (or by an arbitrary field, or a linearly ordered field), i.e.
  rounding errors are not modelled. Where a property is about not-a-number values, an explicit value type with a `nan`
  constructor is used. Division by zero: theorems carry a nonzero hypothesis, or the model has a distinct outcome.
* External numerics (Eigen's QR solve, generalized eigen solver, polynomial root finder, boost's exponential
  integral and quadrature, `std::stod/stoi`) are parameters of the model, with the assumption about them stated in
  the theorem that needs it.

## Layout of the Lean project

For each area X: `Verif/X/Model.lean` (the model), `Verif/X/Spec.lean` (specification vocabulary, if needed, that does
not use the model), `Verif/X/Lemmas.lean` (helper lemmas), `Verif/X/Props.lean` (the property theorems and, beside
each of them, a concrete non-trivial instance of its hypotheses).

## Trusted base

* Lean's kernel (4.33.0) and Mathlib's definitions (reals, `Real.exp`, derivatives, matrices, polynomials, ...).
* Axioms: every theorem depends on at most `propext`, `Classical.choice`, `Quot.sound`. No own axioms, no `sorry`,
  no `native_decide`, no `bv_decide`.
* The reading of the C++ in the model definitions (checked by eye and by mutation of the models, see `seeded/LOG.jsonl`).
* Reals instead of doubles, and the stated assumptions on external numerics.

### Modelled parts of the code

| area | code | model |
|---|---|---|
| numeric tools | `Utilities/numeric_tools.h/.cpp`, `Utilities/PolynomialFunction.cpp` | `Verif/Numeric`, `Verif/Poly` |
| point kinetics | `CORE/Kinetics.h/.cpp` | `Verif/Kinetics` |
| diffusion | `Diffusion/*DiffusionCode.cpp`, `DiffusionSolver.cpp` | `Verif/Diffusion` |
| transport | `CPM/*SpectrumCode.cpp` | `Verif/CPM` |
| eigenvalue loops | `numeric_tools.cpp: sourceIteration, sortEigenmodes` | `Verif/Eigen` |
| criticality runs | `Diffusion/DiffusionSolver.cpp`, `DiffusionCodeFactory.cpp`, `CPM/SpectrumSolver.cpp` | `Verif/Solve` |
| heat | `Heat/*.cpp` | `Verif/Heat` |
| coupling | `Backbone/Datamodel/*Calculation.cpp` | `Verif/Calc` |
| mesh, materials | `Backbone/Datamodel/Mesh, Material, Slab, Cylinder, Sphere, SolverData` | `Verif/Mesh` |
| input | `Backbone/IO/Input.cpp`, `Utilities/additionalPrintFuncs.cpp` | `Verif/Input` |
| messages of the reader | `Backbone/IO/Input.cpp`, `Output.cpp: print*`, `Utilities/additionalPrintFuncs.cpp: printVector, stringFormat` | `Verif/Echo` |
| output | `Backbone/IO/Output.cpp`, `Input.cpp: getArguments, printData`, `Utilities/additionalPrintFuncs.cpp`, `Utilities/plot.cpp`, `app/main.cpp`, printing and plotting of the solvers | `Verif/Output` |
| material library (not part of the build) | `Backbone/Library/Uranium.cpp` | `Verif/Library` |
| generator of cross sections (Python) | `scripts/SerpToALMOST.py: generate`, `scripts/xs_gen.py` without the header of its output | `Verif/Gen` |

### Not modelled

Floating-point rounding; the formatting of numbers and time stamps and the contents of the messages printed while iterating (arbitrary
functions; those printed while reading are modelled in `Verif/Echo`, which says what the function of `Verif/Output` is); the loss of buffered lines of the
log when the program is aborted by an exception that nothing catches; the drawing itself (a figure is its file name, axis and curves); `serpentTools`, `scipy`, `numpy` and `tkinter` (the generator gets universes, an interpolation and the contents of the fields of its window); Eigen, boost and the C++ standard
library themselves; the accuracy of the numerical quadratures.

## Plan per property

| id | what is modelled, how it is proved |
|---|---|
| C01 | `power(rho,dt)` as a state transformer with the roots as a parameter; spec: `HasDerivAt` of the point-kinetics system. Proof: residues of N/D, Lagrange interpolation identities, then differentiate. |
| C02 | invariant over a list of calls, induction. |
| C03 | zero is a root; residue at 0 is P, all other residues vanish because N(s) = P (D(s)/s); induction over the list of steps. |
| C04 | from the interpolation identities, or from uniqueness of the ODE solution. |
| C05 | lists of coefficients and their evaluation; loops as folds. |
| C06 | intermediate value theorem between consecutive poles; degree count. |
| C07 | fold over the history with explicit out-of-bounds outcome. |
| C08 | evaluation homomorphism plus length; double loop as fold. |
| C09 | Horner-free sum; rounding by `round` of the reals; exit branch. |
| C10 | real arithmetic. |
| C11 | lists with throwing outcomes. |
| C12 | model of forward elimination/back substitution. The code reads `c(i-1)` where row i needs `c(i)`: negation by witness, and partial theorem for constant superdiagonal. |
| C13, C14 | closed form of the assembled tridiagonal matrix; row sums; symmetry. Periodic case: counterexample. |
| C15, C16 | closed form of block loops; transpose. |
| C17 | sums over cells. |
| C45 | closed form of the periodic rows; two counterexamples; partial theorem for like ends. |
| C46 | Z-matrix with positive column sums (sum the rows with negative flux); linear algebra for existence. |
| C18-C20 | closed forms of the loops in `BaseSpectrumCode` and the three geometry codes; reciprocity from the formulas; row sums by algebra; the equation by splitting the flattened sums. |
| C21 | E3 as the concrete integral; the flight integrals over position and angle are evaluated (Fubini), then telescoping. |
| C48 | loops = chord sums for any transmission function; signs from decrease and convexity of `exp(-x)` and Ki3, proved from their integrals; moments of the tabulated rule by rational arithmetic. |
| C49 | total escape telescopes along each chord (slab: E3(0) - E3(T)); the slab's surface of one face gives a negative value: negation by witness. |
| C50 | reciprocity turns the sum over receivers into row sums. |
| C51 | Z-matrix with positive weighted column sums, as in C46. Self-collision probabilities in round bodies come from a quadrature with eight rays per ring, hence a proviso. `Resolved` (`CPM/RaySpec.lean`) is a condition on the input: opaque rings, or a volume seen by the rays that exceeds the true one by less than about the optical length of the rays (`C51_rays`, from bounds of the flights out of a ring, concave in the length of the ray; `C51_rod` for rods of one cell, by decimal bounds of the eight roots). `C51_sharp`: where the rays see too much, thin enough rings get a negative probability. `C51_false`: a rod in a layer of gas, with a negative flux for a source that is nowhere negative. |
| C22, C52, C56 | loop model over an arbitrary linear solver with reals extended by NaN and infinities; a finite quotient forces everything before it to be finite. False convergence in the first pass: negation by witness. |
| C23 | list model of filter/sort/normalise; the sort is any rearrangement in non-increasing order. |
| C53, C54 | invariants of the loop: non-negative fluxes, k is a weighted mean of the ratios; pairing with the adjoint flux. |
| C55 | Perron-Frobenius theory for the matrix that takes an emission density to the next one (`Core/Perron.lean`): ratios contract, k-factors lie between them, shapes converge by compactness and uniqueness. Second proof from a mode expansion. |
| C58, C59 | closed forms of the assembled rows are rewritten with the unique face currents; summing over groups and cells telescopes. |
| C60-C63, C65 | whole runs of `DiffusionSolver::solve`: assembly (C13-C16), positive inverse (C46), power iteration (C53, C55) and heat sources (C17) put together; paths of neutrons give the connectedness needed by Perron-Frobenius. C65 also from two input files to the two results through C97, and C63 from a file; C69 and C52 too (in transport every file without scattering gives k = 1). |
| C67-C72 | whole runs of `SpectrumSolver::solve`, in the same way: the response of a closed or leaking body is positive (strict convexity of the special functions, thick rings for the self-collision term), group paths give the connectedness, reciprocity the balance. |
| C64 | dominance of the positive eigenvector; the list model of the all-modes solver. |
| C66 | case analysis; violated: negation, and the part that holds. |
| C57 | row sums over the extended reals; negation by witness (all entries one). |
| C24-C26 | closed form of the heat matrix; the code's weights are swapped and the last interface is inconsistent on non-uniform meshes: negation by witness and partial theorems. `Heat.Conducted` says in words of flows what the program solves on any mesh, `Heat.Steady` what it should; they agree under `Heat.Harmless` (`C24_cells_partial`). |
| C47 | minimum principle by propagating the minimum to the boundary row. |
| C27 | loop model over an arbitrary sequence of fields; NaN makes it fail: negation by witness. |
| C28 | loop over two arbitrary solvers (`Calc.Part`); the specification is a history of passes, the theorem an equivalence. |
| C29 | the quotient is computed and discarded: negation by witness, exact value for numbers and fields. |
| C30 | real arithmetic on the mesh model; which pairs read the parameter: the whole reader (C79), negation by witness. |
| C31 | volumes as integrals of the area at a position, telescoping sums; the sphere's external surface in cm is wrong for every sphere. |
| C32 | the loops that fill boundaries and names, with unsigned and int arithmetic; closed form by invariants; sorting and `unique` of the names. The whole reader: every later step keeps the mesh (`Input/Frame.lean`). |
| C33 | the same loops; plain lists of whole numbers are misread: negation by witness. Negative counts throw (`Input/NegativeProps.lean`). |
| C34, C36 | text is `List Char`; the specification (`Input/Spec.lean`) speaks about lines that are no comments, infixes and maximal pieces without white space. |
| C35 | closed form of the scan (`Block`): last header to last section line. Violated: the whole reader is evaluated on two files. |
| C37 | the card, the settings and the choice of the calculation put together: induction over the words, kinds are kept by every later step (`Input/Frame.lean`). |
| C79, C80 | every pass over the solvers changes one setting only (`Input/Settings.lean`), so the setting read is that of its own pass; the file is assumed to mention settings at the beginning of a line only. Violated: the whole reader is evaluated on a file. |
| C83, C86 | effect of every step of the reader on one cell (`Input/DataRead.lean`), kept through the passes over the solvers (`Input/PlantRead.lean`): a cell is a function of the set of solvers. Missing numbers and short lists: the whole reader is evaluated on two files. |
| C87 | every step of the reader succeeds on a complete file (`Input/Complete.lean`); the specification (`Full`) lists what must be there. |
| C85 | C87, C79 and C83 give the hypotheses of the heat calculation (C75) from the words of the file (`Input/RunLemmas.lean`); the specification (`Input/RunSpec.lean`) speaks about the file, Fourier's law and what the program makes of it (`ConductedHeat`, any mesh). `Input/UnevenProps.lean`: when this is right (`SteadyHeat`), and two files where it is not. |
| C81 | lines of both files that say something are paired (`Input/Layout.lean`); keywords occur in a line exactly if they occur in its text, so first, last and block lines correspond and every search gives the same words; then step by step through the reader (`Input/LayoutRead.lean`). |
| C82 | searches depend on the lines that are no comments only; witnesses with concrete files, one of them calculated to the end with C85. |
| C88 | no step but the last one changes the plots; the search of the optional card. |
| C84 | the empty solver leaves the difference at zero over zero in the extended reals; negation by comparing with the partner's run. |
| C41 | case analysis of small functions on all inputs. |
| C43, C89, C90 | the program from its arguments to its end as actions on the surroundings (files, console, figures, logger; `Output/Model.lean`); the log is computed in closed form (`Output/Lemmas.lean`), frame and prefix properties by induction over the actions (`Output/Files.lean`). |
| C38 | model of the character loops with `ub`; violated: negation by witness. |
| C39, C40 | loops over cells and groups as in the code, with checked accesses; laws are polynomials in the temperature (C09). |
| C73 | the getters of the mesh put together as the constructors of the solvers do. |
| C74 | C73, then C19 with the surface the mesh returns; spheres and slabs get a wrong surface: negation for every such body. |
| C75 | every pass has exactly one solution (C47), so the run is a sequence of fields; the balance is C24's. First-pass comparison with one degree: negation by witness. |
| C76 | invariant of the passes (`Calc/Pair.lean`): each solver keeps the body, the neutronics run normalises, relaxation is a convex combination; temperatures by the minimum principle of C47, k-factor by C62/C68. |
| C77 | `_partial` for relaxation parameter one (the last two passes are separate calculations); negation by witness for small parameters; `_frozen` for parameter zero by the same invariant as C76. |
| C42 | `ADSCalculation::solve` as a whole; the strength is stored in an unsigned integer: every value derived from it is compared with the run for strength one; negation by witness, partial for whole strengths. |
| C78 | biorthogonality of forward and adjoint modes with different factors, completeness by counting (`Core/Modal.lean`), then the sum over modes is a solution, and the only one below criticality (C46). Cells without fission and several groups: negations by witness, with all modes of two reactors computed by hand. |
| C44 | the same, with `find_last_of`/`substr` on character lists; the names of the figures of every calculation (`Output/Figures.lean`). |
| C97 | the reader (C83, C87) gives the laws of every cell in terms of the words of the file (`Input/CriticalRead.lean`), these give the data of the solver and the paths of neutrons through cells and groups that Perron-Frobenius needs; then C62 and C68. The specification (`Input/CriticalSpec.lean`) speaks about the file, the balance equations and the generations of neutrons only (`Solve.Generations`; the data determine them, C62_generations, C68_generations). |
| C98 | as C97 with the card of the source (C79); then C78 for the reactor that was read (`Calc/DrivenFlux.lean`). The example is calculated to the end. |
| C95 | as C91 and C93, with the modes kept by the source-driven part (`Output/ReportDriven.lean`); negation: a file that asks for figures, run to the end with a library that returns its modes. `C95_totals`: the figures of total fluxes, if they were drawn, show each group its own flux. |
| C92 | the reader as for C97 (`Input/TransientRead.lean`), then C01-C07 chained over the steps (`Kinetics/Transient.lean`); more fractions than constants: the run is simulated step by step by one with the surplus cut off and lower reactivities (`Kinetics/Surplus.lean`). Figures of a run without mesh: undefined, by witness. |
| C99 | C97 and C93 together: the reactor at the end is known from C97, its log and figures from C93; without power the heat sources are at most zero, so no power densities are printed (`Output/CriticalProps.lean`). |
| C100 | the invariant of C76 carried one pass further (`Calc/PairLast.lean`): the last pass starts from a reactor in order, its two calculations are those of C62/C68 and C75 on known inputs, and the test of the loop compares its results with those of the pass before; the data come from the text as in C97 and C85 (`Input/CoupledRead.lean`). |
| C101 | C100 and C93 together (`Output/CoupledProps.lean`). |
| C102 | `Echo/Model.lean` is the reader of `Verif/Input` again, with what it prints; `Echo/Lemmas.lean` shows that its results are the same (erasure). Each part is then shown to exit only after a true complaint (`Loud`, `Echo/Loud.lean`). Numbers that cannot be read: an exception without a message, by witness. |
| C103 | `Echo/TextSpec.lean` says what the text has to be (`FileText`), from the lines of the file and the reactor alone. `Echo/Said.lean` and `Echo/SaidData.lean` go through the reader in the form "prints `t` and returns `ok r`"; loops give one part of text per step (`Parts`). `Echo/TextUnique.lean`: two texts that fit are equal. The log follows with C102's description of the output file. The line about the initial power is wrong, by witness. |
| C104 | `Gen/Model.lean` is the generator from the click to the printed lines, with its own type of results (`Run`: done, message and `sys.exit()`, Python exception, division by zero). `Gen/Lemmas.lean` (`cross_ok`): loops in closed form, so that every table is a polynomial through Serpent's points. `Gen/Print.lean`, `Gen/Read.lean`, `Gen/Chain.lean`: the lines printed, squeezed as the C++ reader stores them, are searched with the specification of `Verif/Input`; no keyword occurs in a wrong line because of brackets and suffixes. The result is stated with `TableFile` and `DiffFile`, the hypotheses of C96 and following, so the chain from Serpent to the calculation is closed: whatever tables a file with these lines gives, they are Serpent's (`C104_data_partial`, by uniqueness of the laws), and there are such files (`C104_stored_partial`: the lines are ASCII). The clash of `1` and `10` by evaluation of the reader. |
| C105 | `Gen/Fit.lean` (`combine`): two polynomials with fewer coefficients than nodes that agree at the nodes are equal, so linear balances are kept. |
| C106 | `Gen/Fit.lean` (`between`) for two files; values 1, 0.01 and 0.2 at 0, 300 and 600 degrees give a negative cross section at 400 degrees. `Gen/Parabola.lean`: a quadratic function stays between its values at the ends just if its slopes there have the same sign, hence the exact condition for three files. |
| C107 | the dictionary of the window in closed form (`request_ok`, `prepare_ok` in `Gen/Chain.lean`); no other part leaves with a message (`Quiet`). The failures are general statements with instances, the last one by evaluation. |
| C108 | the three functions as nested conditionals with the tolerant comparisons of `Verif/Numeric`; in each phase the closed form, then linear (for the heat capacity quadratic) arithmetic, for the density over all pairs of phases. At the changes of phase both neighbouring comparisons fail and the last branch returns zero. |
| C109 | the same model as C01. The difference of two solutions solves the equations with a source that is not negative; such a system keeps its quadrant (`Kinetics/Order.lean`: first moment of leaving it and integrating factors for the strict version, a perturbation that goes to zero for the weak one). By induction over the calls (`OrderSteps.lean`); C07 for the histories, C03 for the comparison with the critical reactor. `C109_transient` is the same without the program, `C109_log` the same for the log (C92). |
| C110 | `exp (w t)` with precursors in proportion is a solution itself; multiples of it above and below the present state stay above and below by the comparison of C109. The root by the intermediate value theorem between the smallest decay constant and the reactivity over the generation time, unique by monotony (`Kinetics/Period.lean`). |
| C111 | the transformed solution solves the equations of the other listing, so by uniqueness (C01) both runs agree (`Kinetics/Symmetry.lean`). With a repeated constant or a fraction zero the negative of the constant is a root of the polynomial, an exact root finder returns it, and the residue divides by zero (`Kinetics/Degenerate.lean`); `C111_file` follows this through the reader. |
| C112 | as the first half of C111, with factors instead of a permutation; C07 for histories. |
| C113 | two (three) input files for one body through C85; the differences of the temperatures solve the same system with the differences of the sources, and the minimum principle of its rows (as for C47) gives the sign; strict where the source differs. |
| C114 | two input files through C97; the data of the reversed list of regions are those of the list in the opposite order (names, widths, surfaces), the mirrored currents and fluxes answer the mirrored source, hence the mirrored generations are generations of the second problem, and these are unique (C62). The same for the adjoint equation. Example: a slab of two thin cells and a thick one with different albedos, and the file turned round. |
| C94 | corollary of C85 and C91: the power densities of the reactor are those of the file, so the test that suppresses a figure (`Vanishing`) is one on the data of the file. |
| C96 | invariant of the loop over the list: the rows so far flatten to the text so far (`Output/CppVector.lean`). Fewer than three numbers: undefined, by unfolding. |
| C91, C93 | what is printed and drawn for a mesh is computed in closed form (`Output/Report.lean`); each solver leaves a reactor with fluxes of the right sizes and factors for all modes (`Output/ReportRun.lean`, `ReportPart.lean`), starting from what a complete file gives (`ReportRead.lean`); so printing never leaves a matrix and the log is that of `Output/ReportSpec.lean`. |

## Disagreements and code bugs found

(Reading the code; each is turned into a witness theorem where listed in the table above.)

1. `tridiag_solver` uses `c(i-1)` in row i: wrong unless the superdiagonal is constant.
2. `Sphere::externalSurface("cm")` applies the factor 10000 twice (and -1 twice for an unknown unit).
3. `getInterfaceThermalConductivities` swaps the weights of the two half cells: not a series resistance unless the cells
   have equal size; the last row/last interface is inconsistent on non-uniform meshes, so the matrix is not symmetric
   and energy is not conserved there. With a single cell the assembly reads out of bounds. The last interface uses the
   conductivity of the last cell only, even on a uniform mesh. From the file: `C85_false` (equal cells, a drop of 3 degrees
   instead of 7/4), `C85_lost` (unequal cells, 13/4 W produced, 7/4 W leave).
4. `HeatSolver::solve` accepts NaN temperatures as converged.
5. `getDifference` discards the quotient: the difference is absolute, not relative.
6. ADS: the source strength is stored in an `unsigned`, fractions are lost; positions/groups given as 0 wrap around (C42).
7. `findBlock` keeps scanning after the next block header: with three or more materials the block of a material extends to
   the last later header; "M1" also matches "M10".
8. `isFloat` skips the character after the decimal point and reads past the end for "5.".
9. `getArguments` reports "too many" for too few arguments.
10. `setMesh` with a region of zero cells at the end divides 0/0; incomplete triples are read out of bounds.
11. Periodic diffusion boundaries: not symmetric if the first and last interface coefficients differ.
12. Kinetics: no check that delayed constants and fractions have the same number of entries. Surplus fractions silently lower every
    reactivity by their sum, missing ones are read outside their list (C92).
13. `relaxation_parameter` is only read for some solver pairs; the others relax with 0, i.e. never move.
14. `createCppVector` for fewer than 3 entries (C96) and `multiply_poly` of two empty lists underflow.
15. `setInputPath` without a separator leaves the names empty.
16. `getKFactor`/`front()` on empty eigenvalue lists.
17. `hasImagValues` ignores negative imaginary parts.
18. `diagonalDominanceCheck` does not warn on equality although its message says strict.
19. Thermal power defaults to -1, giving negative heat sources if it is not set.
20. The tolerant comparisons are not exact negations of each other when the difference equals the tolerance.
21. `Slab::externalSurface` is the area of one face although neutrons leave and return through both: for albedos strictly between
    0 and 1 the crossing probability of the transport solver is wrong, even negative (C49).
22. The albedo list is not compared with the geometry: a slab reads two entries, one is accepted by the reader.
23. Periodic diffusion boundaries couple the first and last cell with two different coefficients and, for two cells, with
    only half of the coupling: neutrons are not conserved (C45). A single cell makes every diffusion run access out of bounds.
24. `sourceIteration` starts with a flat flux and a flat source that do not belong together: whenever the loss matrix maps the flat
    flux to the flat source (e.g. transport without scattering) the first pass stops with k = 1, whatever the fission (C52). `C52_file_false` is an
    input file of a thin reflected slab whose k-factor is 5/4; the program ends with 1. Every transport file without scattering ends
    with 1 (`C52_transport_files`; in the witness the k-factor is 5/8).
25. `GeneralizedEigenSolver` on a medium without fission takes `front()` of an empty list (C56).
26. `direction` or `eigenmodes` given with a second word are silently ignored; the option stays undefined, and a null pointer or an
    empty list of modes is used (C66). If the keyword is missing the program ends with a message.
27. `HeatSolver::solve` compares the temperatures of the first pass with 1 °C instead of the old temperatures: a calculation whose
    first result happens to be near 1 °C stops there, with conductivities taken at the start temperatures (C75).
28. `DoubleCalculation::solve` compares the main parameters the solvers compute, taken before relaxation: with a small relaxation
    parameter the reactor hardly moves, the solvers compute nearly the same twice, and the calculation ends far from
    any solution of the coupled problem; with parameter zero there is no feedback at all (C77).
29. ADS: modes with factor zero are dropped, so neutrons of a source in a cell without fission are missing from the flux (C78).
30. ADS, several groups: the weight of a mode multiplies the flux of each group with the fission cross sections of all groups, where the sum over
    groups of cross section times flux belongs (C78).
31. `findKeyword` and `findBlock` take `front()` of every line, also of empty ones: undefined behaviour by the standard for nearly all
    example inputs (C34_blank). The other theorems assume that some character is returned.
32. A list of values without decimal points is taken for a compressed list: `300 300` gives 301 values (C33).
33. A coupled calculation with the source-driven solver calls an empty function and compares zero over zero; it runs to the
    limit of iterations and fails, or, for an accuracy of one or more, ends without any source-driven flux (C84).
34. The relaxation parameter is read only if a heat solver is coupled with transport or diffusion; any other pair is relaxed
    with zero, so that its new results are thrown away (C30).
35. A setting with two, three or six values where one is needed is ignored without a message (C80); the direction or the
    eigenmodes then stay undefined (C66).
36. A setting missing from the first of three or more solver blocks is taken from another one, even of a solver that is not
    used (C79).
37. The number of energy groups of the mesh is overwritten by each neutronic solver in turn; with two of them the numbers may differ and
    the last one wins.
38. The keyword of a table without any number behind it is accepted; the cells get a law without coefficients, i.e. zero (C86).
39. Lists of temperatures or heat sources shorter than the mesh are accepted, the remaining cells have zero; longer ones are written
    outside the vector of materials (C86).
40. Keywords are searched in comments behind data, too: a comment that mentions a material gives this material the data of the line with the
    comment (C82). A comment line indented with a tab is not recognised as a comment.
41. The first line of a file is treated specially by `findBlock` (start 0 means "not found"), so that an empty line before a header can change
    the range of its block (C81).
42. With one argument missing the program says "Too many input arguments!" (C89).
43. Without a directory in the path the input name stays empty: the log says "Input file: /" and figures are called `_temperature.pdf`, whatever the
    case; the same without an extension (C44).
44. If input and output are the same path, the input file is deleted before it is read (C90).
45. `ADSCalculation::solve` never calls `plots`: a source-driven calculation draws none of the figures its file asks for (C95), and the total
    fluxes it computes are drawn by no calculation at all.
46. Without a heat solver the temperatures of a file are not read: all cross section laws are evaluated at temperature zero, whatever the file
    says (C97), and the power stays at its default of -1, so that heat sources and drawn power densities are negative (see 19).
47. A kinetics calculation whose file asks for any figure computes the middle points of a mesh without boundaries, i.e. asks for a vector of
    -1 entries (C92).
48. A figure is left out without a message if the smallest value in it is zero: the power densities of any reactor with a cell that is not
    heated, temperatures with a cell at 0 °C (C94).
49. A heat calculation whose file asks for the total or neutron fluxes reads the number of energy groups of the mesh, which nobody has set
    (`Mesh()` leaves it uninitialised).
50. The message "Initial power [W]" of a kinetics calculation prints the generation time (`Input.cpp:632`; C103).
51. `printMatrix` of a tensor bounds the first index by the second dimension and vice versa; harmless as the tensors printed have square layers.
52. The old output file is removed even if the new one cannot be opened. Coupled calculations draw each figure once per solver.
53. Counts are not checked for their range: a value with a negative number of repetitions (`temperatures 300.0 -3`) ends the program with an exception that nothing catches, a negative number of cells and 2147483647 cells are undefined behaviour (`Input.cpp:347,358,687,694`).
54. A setting without a value is reported with "number of parameters exceeded!" (`Input.cpp:955-957`; C102).
55. A number that cannot be read ends the program by an exception that nothing catches (`std::stod`, `std::stoi`; `app/main.cpp`), so no message says what is wrong with the file (C102).
56. The eight rays per ring see too large a volume in thin rings (radii 1 and 1.01: 3.1e-5 too much; constants in `CPM/BaseSpectrumCode.cpp`), and nothing normalises it: a thin layer of gas around a rod gets a negative probability of a collision in itself and negative fluxes (C51).
57. The generator keeps the files and temperatures of the first click (`SerpToALMOST.py:26,58-59`: the dictionary is never cleared, and `xs_gen.py` takes its first three entries): later clicks with other temperatures write the old result again (C107).
58. Two equal temperatures in the window (two fields left empty in degrees Celsius are enough) end the generator with an `IndexError` (C107).
59. A third Serpent file is ignored without a message if the second field is empty; a second file that lacks the first universe of the first file is ignored for all universes (`xs_gen.py:51,76,110`: only the first material is counted; C107).
60. Material headers of the input are searched as parts of lines, so a generated file with the universes `1`, `10` and `2` gives the material `1` the data of `10` (C104). With only `1` and `10` nothing is found for `1`.
61. Parabolas through three temperatures may give negative cross sections between them (C106).
62. Names typed into the fields of the window are not used, only those chosen with the button (`SerpToALMOST.py:66-70`); without a first file `os.path.exists(None)` ends with a `TypeError`; a universe that occurs twice in a file (burnup steps) ends with an `IndexError` (`xs_gen.py:361-378`).
63. At exactly 942 K and 1049 K the library gives uranium no density and no heat capacity (`Uranium.cpp:35-48,66-79`: strict comparisons on both sides); the comments say that the argument is in kelvin, but 273.15 is added to it (C108).
64. Two groups of delayed neutrons with the same decay constant, or a group of fraction zero, are accepted, but make the residues divide by `r + lambda` = 0 (`Kinetics.cpp:51-62`); nothing checks for it (C111).
