# Formal model of NRG Ljubljana: design

The code in `/repo` (C++) is read as text. The model is written in Lean 4
(4.33.0) with Mathlib, in `lean/Verif/`. Each model definition cites the file
and lines it models. Property theorems live in files named `*Props.lean`,
separate from the models (`*Model.lean` or `Model/`) and from helper lemmas.

## Conventions

* **Numbers.** `double` is modelled by an exact ordered field: `ℚ` when the
  function should be executable, an arbitrary linearly ordered field `K` when
  only order and field operations are used, `ℝ` when `exp`, `log` or `sqrt`
  are used. Rounding, NaN, infinities and overflow are not modelled. Integers
  (`int`, `size_t`) are `ℤ`/`ℕ`; wrap-around is not modelled.
* **Outcomes.** A C++ exception, a failed `my_assert` (which always throws,
  `c++/portabil.hpp:55-65`) or `exit` is `Except.error` / `none`. A function
  that cannot fail in the C++ code is a plain total function.
* **Containers.** `std::vector` and ranges are `List`; `std::map` is a sorted
  association list or a function on keys, as stated at each definition;
  dense matrices are `Matrix (Fin m) (Fin n)` in algebraic theorems and lists
  of rows where storage order matters.
* **Concurrency** (MPI, OpenMP) is a transition system; a property holds for
  every run of the system, with no bound on its length.
* **Crashes** are modelled by stopping a sequence of file-system operations
  after any prefix.

## Trusted base

* Lean's kernel, and the axioms `propext`, `Classical.choice`, `Quot.sound`.
  No theorem depends on any other axiom (checked with `#print axioms`; the
  list is in the last section).
* The reading of the C++ text: that each definition is a faithful rendering
  of the lines it cites.
* For the tables of coefficients: the scripts that turn the text of the
  `*.dat` files into Lean literals: `gen_tables.py` (quantum numbers of ancestors
  and Hamiltonians, C04, C57), `gen_hops.py` (hopping calls, C73, C74),
  `gen_opers.py` (recalculation tables, C75) and `gen_factors.py` (their
  factors, C76). A wrong literal there would make the theorems speak about
  another table. `gen_plans.py`, `gen_runs.py`, `gen_decomp.py` and
  `gen_coef_all.py` only produce certificates and lists of cases that the
  kernel checks; nothing has to be believed about them. All generated modules
  are committed.

## Not modelled

Floating-point rounding; LAPACK (only its contract: a list of eigenpairs with
orthonormal vectors); HDF5 output; Boost serialisation's byte format (an
abstract token stream is used); the Mathematica front end; Python and shell
scripts; the build system; GMP arithmetic in `tools/nrgchain`.

## Plan per property

| Id | What is modelled | How it is proved |
|----|------------------|------------------|
| C01 | `Invar::combine`, `inverse` over a list of types, with the assertions | componentwise group laws, induction on the list |
| C02 | `ancestors`, `new_subspaces` | from C01 |
| C03 | the four coupling tests | integer arithmetic (`omega`), refinement of a half-integer specification |
| C04 | generated In/QN tables, `mult`, `Invar_allowed`, `triangle_inequality` of every symmetry class | case split on the boundary labels for each table, general integers otherwise |
| C05 | `new_subspaces` set, `SubspaceDimensions`, `SubspaceStructure` | double counting with C02 and C04 |
| C06 | `offset`, `view`, `part`, `chunk`, `total` | induction on the block list |
| C07 | `TaskList` | sort/filter/permutation lemmas |
| C08 | `truncate_prepare`, `Eigen` ranges | sorted-prefix counting lemma |
| C09 | `highest_retained_energy` | order statistics, loop invariant of the safeguard loop |
| C10 | `do_diag` retry loop, `NotEnough` | well-founded measure; counterexample for a non-increasing factor |
| C11 | `Clusters`, `fix_splittings` | invariant of the scan |
| C12 | `perform_sort_by_c`, eigenpair sorting | permutation lemma |
| C13 | `save`/`load` as writer/reader on token streams | round trip by induction |
| C14 | `DiagInfo::save` as file-system operations with crash after any prefix | invariant over prefixes and failures |
| C15 | `DiagInfo::load` | case analysis on outcomes |
| C16 | row-wise send/receive | round trip on a message queue |
| C17 | master/worker scheduler as a transition system | inductive invariant; termination measure |
| C18 | parallel loop with critical insertion | permutation invariance of map insertion |
| C19 | `nextline`, `parse_block`, `find_block`, `parser` | induction on lines; round trip |
| C20 | flag predicates | exhaustive over all switches (finite table, lifted) |
| C21 | index arithmetic of coefficient tables | linear arithmetic |
| C22 | `SCALE`, step factors | real powers |
| C23 | `Step` | induction |
| C24 | energy bookkeeping through a history of steps | induction on the history |
| C25 | `calc_ZnD` | algebra over sums |
| C26 | `cdmI`, `calc_densitymatrix_iterN` | trace cyclicity, double sum over blocks |
| C27 | FDM variant | as C26 with weights |
| C28 | `init_rho`, `grand_canonical_Z` | sums of exponentials |
| C29 | FDM lesser/greater/full | finite sums over index sets |
| C30 | CFS lesser/greater/full | as C29 |
| C31 | `add_std` | grid index arithmetic, weight split |
| C32 | `merge`, `trim` | list sums |
| C33 | window functions | real analysis of piecewise functions |
| C34 | mesh loops | geometric sequence |
| C35 | `Temp::add_value` | list invariant |
| C36 | Matsubara grids and merge | arithmetic, pointwise sums |
| C37 | `recalc_*`, `split_in_blocks` | block matrix algebra |
| C38 | matrix helpers | matrix algebra |
| C39 | `InvertParity` with its constructor's assertion | expected to fail: negation with witness |
| C40 | text insertion/extraction, `operator<` | round trip on token lists |
| C41 | `Allfields` | list invariant |
| C42 | `Annotated::dump` | grouping invariant |
| C43 | `LinInt` with its cached interval | invariant over query histories |
| C44 | Lanczos recursion over a finite discretisation | induction on the chain, inner products |
| C45 | `tables` weights | telescoping sum |
| C46 | `merge` of raw spectra | multiset sums |
| C47 | `calc_cumulative` two-pointer loop | loop invariant |
| C48 | expression parser on characters/tokens | print-then-parse round trip by induction |
| C49 | phase sequencing | prefix/failure model |
| C50 | thermodynamic sums | variance inequality |
| C51 | multiplet formula | sum of squares |
| C52 | degeneracy factors | arithmetic |
| C53 | `chit_weight` | real analysis |
| C54 | `my_fcmp` | ordered field |
| C55 | digit grouping | list induction |
| C56 | `init_laststored` | loop model; expected finding |
| C57 | OFFDIAG/DIAG tables generated from the sources (`scripts/gen_hops.py`) | kernel evaluation of checks over the whole finite tables, lifted by lemmas |
| C58 | `load`, `merge_meshes`, `interpolate`, `avg` of `tdavg` and `intavg` | sorting and `unique` lemmas, invariant of the interpolation objects over the mesh loop |
| C59 | `hilbert_transform` with exact integrals | change of variables, analytic integrals, case analysis; negation at the band edges |
| C60 | eigenpair count | ceiling/clamp arithmetic |
| C61 | `truncate_prepare` on partially computed spectra | order statistics under appending larger elements; negation with witness |
| C62 | row-major upper / column-major lower storage of a Hermitian matrix | matrix algebra from the LAPACK contract |
| C63 | file names | injectivity of decimal notation |
| C64 | `parse_block` followed by the parameter constructor | negation with witness (line without `=`); partial theorem |
| C65 | `keepall` selection | case analysis, `split` |
| C66 | `from_string<bool>` | case analysis on the stripped word |
| C67 | `sigmoid`, `inv_one_minus_exp_neg` | real analysis |
| C68 | file operations of a whole run, failures at any action | state of the file set after each segment, by induction on the steps |
| C69 | workspace formulas in 64-bit arithmetic and the selection rule | mod arithmetic, case analysis |
| C70 | totals of the CFS peaks | finite sums; negation with witness for bosons |
| C71 | totals of the DMNRG peaks | finite sums; negation with witness for complex density matrices |
| C72 | `filter`, raw and central moments of `specmoments` | pointwise; polynomial identities in the moments |
| C73 | `offdiag_function*`, `recalc_f` block selection, ancestors and dimensions for arbitrary retained spectra | label algebra (composition is associative) on top of the finite tables; negations with witnesses |
| C74 | occupations, hopping and recalculation tables | kernel evaluation over the whole finite tables; negation with witness |
| C75 | all tables of `recalc_doublet`, `recalc_triplet`, `recalc_orb_triplet`, `recalc_quadruplet` (labels and indices; factors by index), `recalc_general`, `recalc_singlet` | label expressions checked once over the finite tables and lifted to all labels by soundness lemmas; negations for the functions that lose operators |
| C76 | the factors in all recalculation tables as expressions over the reals with IEEE infinities and NaN; the recalculation functions with the values of all matrix elements | a verified normal-form evaluator for expressions with square roots (soundness theorem, run by the kernel); orthonormality of the factors for small spins one by one and for all larger spins symbolically; lifted to matrix elements by finite sums |
| C77 | `measure_singlet_fdm`, the sweep of full density matrices, `recalc_singlet`, `trim` | expectation values under one backward step (finite sums), induction over the run |
| C78 | the above, `Algo_FDMls` through all blocks and steps, operators carried by the recalculation functions | telescoping sum over the steps, using C76 for each of them |
| C79 | the class `Oprecalc`: tokenising the lists, `loopover`, `prepare_spec`, the set of operators, recalculation and evaluation in a sweep (matrices abstract) | both directions of the membership from a list of groups; induction over the steps of a sweep |
| C80 | `spec_fn` and the names built by `loopover` | unique decoding of the file name; two witnesses for the negation |
| C81 | `InputData::read`: header, spectra, chain operators, blocks, final check, on the text of the file | readers as functions on the remaining characters; a text object with arbitrary layout; round trip by induction over its parts; the checks hold for every text |
| C82 | the same | readers that leave something behind do not look at the end of the text; induction over the parts for every prefix; witnesses for the negation |
| C83 | the kernels of `broaden` with all options, `BR_NEW` of the main program, the two final passes | integrals over the real line by substitution in the log-Gaussian; case analysis; negations by strict positivity of an integral and by a numeric witness |
| C84 | `integrals_for_sumrules` | fold over the list of peaks, one identity per number |
| C85 | `savebins`, `continuous`, `weight_report` of the main program; reading, merging, filtering, mesh and broadening of the tool | sums over merged peaks are means of sums over files; the mesh of the tool sorted; pointwise equality |
| C86 | `KK::init`, `calc`, the integrand and `run` of the Kramers-Kronig tool; the integrals of the integrator | the integrand is the sum of two divided differences, which are continuous; limit of the integral without a symmetric neighbourhood, logarithms cancel; case analysis on the sorted table |
| C87 | loading, merging, mesh, sum and output of the Matsubara tool | induction over peaks and files, real and imaginary parts |
| C88 | the three reading loops over characters | files as lists of lines with arbitrary white space; induction over the lines; fuel shown to suffice; negations by files of every continuation |
| C89 | `rhs_F`, `rhs_G`, `eps` on the stateful interpolation objects; exact solutions of the equations | history independence from C43; derivative of the energy, fundamental theorem of calculus for right derivatives, constancy of a function with zero right derivative, slope of the integral at zero |
| C90 | `timestep`, `int_with_to`, `calc_f`, `shoot_g` for an arbitrary stateful right-hand side | induction over subdivisions, steps and output lines; Archimedean bound for termination |
| C91 | `calc_g`, `add_zero_point`, `rescale_xy`, `cmd_line` | induction over iterations; algebra of the secant; grammar of command lines as an inductive relation, equivalence in both directions |
| C92 | `find_block`, `parse_key_value_block`, `Params`, `Pbool` of the tools | both parsers compared with the same specification of the settings of a block |
| C93 | the whole path from the template to the file: lines and comments, header, subspaces, matrix files (evaluator of C48), diagonalisation, scaling, operators, tail; validation by the model of the reader | the text of a structured template is shown to become the text of a structured data file; then the round trip of the reader |
| C94 | command line, modes, list of file operations of a run, interrupted writes and removals | invariant of the contents of one file under all operations |
| C95 | the parser of sections | both parsers compared with the same specification of the settings of a block |
| C96 | all global variables of the library as one state; parameters, reset, modes, command line | the state after the reset is the same for all histories |
| C97 | loading of the band and the mesh, integrals, tables, the orthogonalisation loop with its stops, scaling | integrals of the interpolations by C70; the loop by C72; the flat band in closed form |
| C98 | list of file operations of a call | prefixes of this list; the tables as text are read back |
| C99 | all processes of a job with FIFO channels of any capacity; blocking sends, receives by tag, probes, broadcasts; start-up, scheduler, readers, exit | each worker is a deterministic automaton: an invariant says where it will be when it has taken all its input; the scheduler refines that of C17; lexicographic measure |
| C100 | the data of a calculation: spectra with eigenvectors and counters, operators, energies, stores, files; every step of both sweeps; eigensolver and recalculation of an operator are parameters | relation between the two sweeps, by induction over the steps; the preparation of a spectrum is idempotent; round trip of the files (C24) |
| C101 | the same, with resumed steps and with the Floquet preparation | negations: any run that splits stored spectra again is undefined |
| C102 | the adaptive broadening tool as a whole: options after parsing, reading and merging, mesh, broadening, integrals, derivatives, widths, interpolation with its state, refinement, files written | invariant of the iteration (mesh, widths, range); characterisation of the widths by index; integral of the kernel (C83); scaling commutes with every step |
| C103 | the same | negations with witnesses; files refused by case analysis |
| C104 | memory cells that may be uninitialised, views with strides, the Fortran routine with its checks and loops, `gemm_rowmajor` and all its callers | the loops write every cell once (injectivity of addresses); refinement of the matrix helpers of `Verif.Mat` |
| C105 | the text and binary readers and `save_matrix` on the bytes of files; number formats as a structure with their laws | structured files with their layout; readers followed through the lines by induction |
| C106 | `diag` and `unitary` on a set of files; dsyev as any function that meets the contract; products in memory from C104 | correspondence of flat array, rows and transposed storage; composition of the file round trips with the eigenvalue equation |
| C107 | the same | concrete files; general statement on what follows the first non-number |
| C108 | `main` up to the calculation; processes as a transition system with a broadcast | invariant over all steps, final states determined; a measure that decreases |
| C109 | the same | consequences of the final states; concrete environments and arguments |
| C110 | the functions of `openmp.hpp` that select and check the layer | cases against a specification of the selected layer |
| C111 | scratch directory as a map from paths, directories and calculations; events in any order | invariant: each work directory holds what its owner wrote; paths below different directories differ |
| C112 | `complex_data`, the table of names, `set_symmetry` with assignments into vectors | induction over the lines; finite tables checked by the kernel |
| C113 | the same | the assignments leave the vectors |
| C114 | `resample` from the options and the bytes of the files to the output file; the spline as any function that meets the contract | uniqueness of the sorted table; ends of the sorted table are extrema; composition with the round trip of tables (C88) |
| C115 | the same | the reader followed to the first NaN; concrete files; distance of decimals and doubles |
| C116 | the loop of the parser with its tables, the actions, the variables | expressions by induction over trees for every state in which an expression may begin; lists and statements likewise |
| C117 | the same | potential that decreases in each round; an invariant that ties the stack to the grammar; trees for every text of the grammar |
| C118 | the rules of the scanner, longest match; the table of names | length of the match of each rule on each kind of token; composition with C116 |
| C119 | the same | negations, for all names where possible, with the same lemmas |
| C120 | the model of `instantiate` (C48) and that of `matrix` (C116 to C118) | both texts reduced to the same sequence of tokens with text without meaning between them; the derivation of the calculator translated into one of the evaluator by induction; values compared by induction |
| C121 | the same | both sides evaluated for all names and values |
| C122 | `getopt` of the C library and the loops over options of fourteen tools | command lines built from pieces; induction over the pieces for what `getopt` reports, strong induction for the converse; settings by induction over the options given, compared with a specification that looks up the last occurrence |
| C123 | the same | unknown options end every such loop, by induction over the words before; the cases evaluated for all arguments |
| C124 | the whole program `hilb`: command line (C122), reading of the files, choice of the density of states, the transform (C59), what is written | induction over the numbers in the files; sorted permutations are unique; real and imaginary part of the complex integral |
| C125 | the same | the reading loops and the case distinction evaluated for all such inputs; positivity of an integral |
| C126 | the programs `binavg`, `specmoments`, `mats`, `intavg` from command line (C122) and files to what they write | loops over files as maps; sums over the merged spectrum by induction; a spectrum in increasing order is its own average |
| C127 | the same | first failure of a loop as an equivalence; the reading loop on all such files, and examples |
| C128 | the programs `tdavg`, `kk`, `integ` from command line (C122) and text files to what they write | lines and words of a file in any layout by induction; reading of blocks, averages, transform and integrals from C58 and C86 |
| C129 | the same | cases of the programs; a line without numbers ends the reading loop, by induction; examples |
| C130 | the program `matrix` from command line (C122), tables and program text (C116 to C118) to its output; composition with `nrgchain` (C97) and the reader of matrix files | numbers of a table in any layout by induction; channels by induction; lines by cases |
| C131 | the same | cases of the program; examples for all contents of files |
| C132 | the program `broaden` from command line (C122), raw data and table of the mesh to what it writes; composition with `binavg` (C126) | sums over merged files (C126); the loop of the mesh by induction on the number of points; cases of the options |
| C133 | the same | cases of the program; for the negations all inputs of the kind |
| C134 | the program `adapt` as a whole: command line (C91), parameters, hybridisation function, mesh, energies, files; `load_g` of nrgchain | the state of the interpolation objects is consistent (C87), so that the right-hand side has the values of the equation; induction on the rounds of the loops and of the search; files by cases of the operations |
| C135 | the same | cases of the program; witnesses: a flat band with Λ = 4 and one step of length 1, evaluated with bounds for log 4 |
| C136 | all calls of the HDF5 library in a run in their order, the names as they are put together from texts, the file with its groups | names are taken apart at the slashes; texts of numbers and labels are injective, no list of components is a prefix of another one (cases of all pairs of kinds); distinct addresses by induction on steps and tables; a sequence of writes succeeds iff the names are pairwise apart |
| C137 | the same, with the rounds of the diagonalisation | distinct addresses iff distinct subspaces in the rounds; witness: a run of one step and two rounds |
| C138 | the program `h5write` from its command line on; HDF5 files as in C136, text files with matrices | cases of the program; a sequence of runs refines a sequence of writes (induction on the runs); pairwise apart is symmetric |
| C139 | the same | cases of the program; general theorem for a missing input with -t, witnesses for the operands |
| C140 | the program `bw` from its command line and binary files to the tables it writes | composition of C122, C102 and the averaging of C126; invariant of the list of files by induction on the iterations; the last writer of a name; the calculation depends on the files through the mean only |
| C141 | the same | cases of the program; corollaries of C140 and C103 for all arguments, with examples |

## Coverage

Source files cited by definitions of the model, with the number of lines of the file and the
number of lines within cited ranges (lower bounds for the tables of coefficients, which are taken over
by the scripts named above). The symmetry files `sym-*-impl.hpp` and `nrg-recalc-*.hpp` are listed together.

| Source file | Lines | Lines cited | Model directories |
|---|---|---|---|
| `c++/algo.hpp` | 87 | 37 | Config, Select, Sumrule |
| `c++/algo_CFS.hpp` | 148 | 80 | Config, Select, Spectral |
| `c++/algo_DMNRG.hpp` | 132 | 54 | Config, Select, Spectral |
| `c++/algo_FDM.hpp` | 303 | 216 | Config, Select, Spectral |
| `c++/algo_FT.hpp` | 194 | 48 | Select, Spectral |
| `c++/basicio.hpp` | 186 | 75 | DataFile, Mx, Param, Text |
| `c++/bins.hpp` | 214 | 114 | Spectral |
| `c++/blas_gemm.hpp` | 104 | 66 | Gemm |
| `c++/coef.hpp` | 169 | 49 | Config, DataFile |
| `c++/core.hpp` | 342 | 231 | Config, Raw, Select, Subspaces, Sumrule, Sweep, Symm, Text, Thermo, Trunc |
| `c++/diag.hpp` | 662 | 447 | Diag, Ops, Sweep, Trunc |
| `c++/diag_mpi.hpp` | 173 | 94 | Job, Sched |
| `c++/diag_openmp.hpp` | 62 | 31 | Sched |
| `c++/diag_serial.hpp` | 37 | 18 | Sched |
| `c++/dmnrg.hpp` | 375 | 235 | Config, Dm, Thermo |
| `c++/eigen.hpp` | 654 | 373 | Config, DataFile, Dm, Ops, Raw, Spectral, Store, Sumrule, Sweep, Symm, Text, Thermo, Trunc |
| `c++/h5.hpp` | 48 | 26 | Raw |
| `c++/invar.hpp` | 183 | 112 | Coef, Invar, Spin, Store, Subspaces, Text |
| `c++/io.hpp` | 147 | 79 | Mx, Store |
| `c++/matrix.hpp` | 115 | 48 | Hop |
| `c++/matsubara.hpp` | 61 | 24 | Spectral |
| `c++/measurements.hpp` | 282 | 169 | Config, Out, Select, Spin, Sumrule, Thermo |
| `c++/misc.hpp` | 239 | 128 | Brun, DataFile, Hw, Param, Resample, Select, Spin, Start, Table, Text |
| `c++/mk_sym.hpp` | 111 | 87 | Start |
| `c++/nrg-general.hpp` | 229 | 83 | Config, Dm, Raw, Select, Sweep, Thermo |
| `c++/nrg-lib.cc` | 76 | 25 | Job, Sched |
| `c++/nrg.cc` | 254 | 53 | Job, Start |
| `c++/numerics.hpp` | 443 | 212 | Coef, Gemm, Mat, Num, Thermo |
| `c++/numerics_Eigen.hpp` | 176 | 105 | DataFile, Gemm, Mat, Mx, Oper, Store, Sweep |
| `c++/openmp.hpp` | 504 | 123 | Start |
| `c++/operators.hpp` | 246 | 115 | Config, DataFile, Dm, Ops, Raw, Select, Store, Sumrule, Sweep, Text |
| `c++/oprecalc.hpp` | 251 | 157 | Config, Select, Sweep |
| `c++/outfield.hpp` | 107 | 83 | Out |
| `c++/output.hpp` | 197 | 64 | Out, Raw |
| `c++/params.hpp` | 785 | 190 | Config, DataFile, Hop, Param, Raw, Select, Spectral, Start, Sweep, Symm, Text, Trunc |
| `c++/portabil.hpp` | 158 | 42 | Invar, Start, Subspaces |
| `c++/read-input.hpp` | 164 | 110 | DataFile, Text |
| `c++/recalc.hpp` | 195 | 149 | Coef, Hop, Oper, Ops, Raw, Sweep |
| `c++/spectral.hpp` | 178 | 92 | Broad, Num |
| `c++/spectrum.hpp` | 268 | 137 | Broad, Spectral |
| `c++/splitting.hpp` | 70 | 42 | Sweep, Trunc |
| `c++/stats.hpp` | 112 | 43 | Out, Raw, Thermo |
| `c++/step.hpp` | 85 | 42 | Config, Dm, Spectral |
| `c++/store.hpp` | 121 | 72 | Dm, Raw, Sweep, Thermo |
| `c++/subspaces.hpp` | 150 | 66 | Raw, Subspaces, Sweep, Symm |
| `c++/symmetry.hpp` | 339 | 109 | Coef, Hop, Oper, Ops, Spin, Start, Sumrule, Symm |
| `c++/symmetry/nrg-recalc-*.hpp` | 10469 | 207 | Coef, Hop, Oper |
| `c++/symmetry/sym-*-impl.hpp` | 3476 | 1009 | Hop, Out, Spin, Start, Symm |
| `c++/time_mem.hpp` | 133 | 10 | Text |
| `c++/traits.hpp` | 99 | 1 | Sched |
| `c++/tridiag.hpp` | 196 | 108 | Tools |
| `c++/truncation.hpp` | 101 | 62 | Sweep, Text, Trunc |
| `c++/workdir.hpp` | 83 | 41 | Start, Text |
| `tools/adapt/adapt.cc` | 137 | 80 | Adapt, Arun |
| `tools/adapt/adapt.hpp` | 371 | 291 | Adapt, Arun |
| `tools/adapt/load.hpp` | 86 | 19 | Adapt, Table |
| `tools/adapt/parser.hpp` | 42 | 11 | Arun, Param |
| `tools/binavg/binavg.cc` | 24 | 15 | Zrun |
| `tools/binavg/binavg.hpp` | 199 | 137 | Cmd, Tools, Zrun |
| `tools/broaden/broaden.cc` | 16 | 0 | Brun |
| `tools/broaden/broaden.hpp` | 555 | 392 | Broad, Brun, Cmd, Tools |
| `tools/bw/bw.cc` | 723 | 633 | Bw, Cmd, Wrun |
| `tools/common/calc.hpp` | 53 | 31 | Tools |
| `tools/common/io.hpp` | 39 | 12 | Table |
| `tools/common/lambda.hpp` | 27 | 15 | Adapt |
| `tools/common/linint.hpp` | 123 | 84 | Bw, Tools |
| `tools/common/parser.hpp` | 55 | 28 | Param |
| `tools/common/tabulated.hpp` | 129 | 75 | Adapt, NrgChain, Table |
| `tools/diag/diag.cc` | 252 | 200 | Cmd, Mx |
| `tools/h5write/h5write.cc` | 6 | 4 | Hw |
| `tools/h5write/h5write.hpp` | 72 | 33 | Cmd, Hw |
| `tools/hilb/hilb.hpp` | 513 | 263 | Cmd, Hrun, Tools |
| `tools/instantiate/instantiate.cc` | 784 | 593 | Seed |
| `tools/instantiate/matrix_evaluator.hpp` | 301 | 214 | Calc, Inst |
| `tools/intavg/intavg.cc` | 272 | 188 | Cmd, Tools, Zrun |
| `tools/integ/integ.cc` | 307 | 193 | Cmd, Kk, Qrun, Table |
| `tools/kk/kk.cc` | 13 | 0 | Qrun |
| `tools/kk/kk.hpp` | 285 | 135 | Kk, Qrun, Table |
| `tools/matrix/parser.cc` | 2142 | 616 | Calc |
| `tools/mats/mats.cc` | 267 | 177 | Cmd, Mats, Tools, Zrun |
| `tools/nrgchain/load.h` | 80 | 31 | NrgChain |
| `tools/nrgchain/nrgchain.cc` | 658 | 527 | NrgChain, Tools |
| `tools/nrgchain/nrgchain.hpp` | 33 | 10 | NrgChain |
| `tools/nrgchain/parser.h` | 34 | 16 | NrgChain, Param |
| `tools/resample/resample.cc` | 7 | 0 | Resample |
| `tools/resample/resample.hpp` | 193 | 96 | Cmd, Resample |
| `tools/specmoments/specmoments.cc` | 315 | 223 | Cmd, Tools, Zrun |
| `tools/tdavg/tdavg.cc` | 378 | 278 | Cmd, Qrun, Tools |
| `tools/unitary/unitary.hpp` | 118 | 45 | Cmd, Mx |

Not modelled at all: `c++/constants.hpp`, `c++/debug.hpp`, `c++/diagengine.hpp`, `c++/linalg.hpp`, `c++/mp.hpp`, `c++/nrg-lib.hpp`, `c++/nrg.hpp`, `c++/numerics_CUDA.hpp`, `c++/openmp_link_anchor.cc`, `tools/adapt/calc.hpp`, `tools/adapt/io.hpp`, `tools/adapt/lambda.hpp`, `tools/adapt/linint.hpp`, `tools/hilb/hilb.cc`, `tools/matrix/matrix.cc`, `tools/matrix/matrix.h`, `tools/nrgchain/calc.h`, `tools/nrgchain/io.h`, `tools/nrgchain/lambda.h`, `tools/nrgchain/linint.h`, `tools/unitary/unitary.cc` (and the `sym-*` files that only instantiate templates).


## Findings

Places where the code, as modelled, violates a property. "Theorem" names the Lean
theorem that proves the negation (with a concrete witness or for a whole class of inputs).
The last list holds observations that were made while reading and are not theorems.

### Operators and Hamiltonians

| Finding | Theorem |
|---------|---------|
| Symmetry QJ ignores the number of channels: with fewer than three the table is written after the end of the vectors, with more the remaining states have no quantum numbers | `Verif.Start.symmetry_QJ` |
| `substeps` with two or more channels and a symmetry that neither supports nor refuses it: the tables of quantum numbers are written after the end of the vectors | `Verif.Start.symmetry_substeps_outside` |
| The size of the result of a matrix product is checked by `assert` only; in the default build (without assertions) a result matrix that is too small is overrun. No caller does that | `Verif.Gemm.gemm_overrun` |
| `recalc_doublet` of DBLSU2 passes `Invar(2,0)`, `Invar(0,2)`, which never couple to integer-spaced isospins (`nrg-recalc-DBLSU2.hpp:41-86`): doublet operators are silently lost. The same happens in `recalc_triplet` of QSZTZ (`(0,3,0)`), doublets and triplets of SPSU2LR and SPU1LR, and doublets of SPSU2T (three components) | `Verif.Oper.losing_lose` |
| `InvarSinglet` of SPSU2LR is `(0,1)`, spin multiplicity 0: every scalar operator is lost after one step | `Verif.Oper.singlet_lost` |
| No case for three channels: ISO doublets and triplets, QSZ and SPSU2 triplets stop the program | `Verif.Oper.unfinished_stop` |
| The triplet tables of QS (3 and 4 channels), QSTZ and SPSU2T contain a factor that is `0·∞` for spin 1/2: `my_assert(isfinite(factor))` stops the run | `Verif.Coef.qs3_triplet_stops`, `qs4_triplet_stops`, `qstz_triplet_stops`, `spsu2t_triplet_stops` |
| `offdiag_function_QJ` uses 1-based indices on a 0-based vector: hoppings are dropped, uncoupled blocks are added, the vector is read past its end | `Verif.Hop.qj_hop_dropped`, `qj_uncoupled_added`, `qj_out_of_bounds` |
| SPSU2T asks for hopping matrices between two orbital singlets, which do not exist: exception | `Verif.Hop.spsu2t_matrix_not_found` |
| U1 without polarisation exchanges the spin labels of the two hopping matrices | `Verif.Hop.u1_nonpolarized_swaps_spin` |
| NONE, SL, SL3 do not override `triangle_inequality`: every triple couples | `Verif.Symm.builtin_triangle_trivial` |
| `InvertParity` throws for every non-empty label | `Verif.Invar.invertParity_always_throws` |

### Truncation and run control

| Finding | Theorem |
|---------|---------|
| A calculation that ends by a failed assertion leaves its work directory with all files behind, and no later calculation can use them: the search for stored steps always looks in a new directory | `Verif.Start.scratch_left`, `Verif.Start.scratch_nothing_stored` |
| `-w dir` is ignored without a message if there is any other argument; an empty NRG_WORKDIR makes the work directory in the root directory of the file system | `Verif.Start.scratch_surprises` |
| The check of the MKL threading layer is made in each MPI process before the decision to run is broadcast: a process whose environment differs leaves, and the others wait in the broadcast for ever | `Verif.Start.launch_stuck`, `Verif.Start.launch_missing`, `Verif.Start.prepare_differs` |
| The files with spectra are written after the matrix of eigenvectors has been cleared (`c++/core.hpp:278-282`); a resumed first sweep, and the second sweep with Floquet blocks, split the loaded spectra into blocks again and take submatrices of a matrix with no elements. Resuming is hidden by C56; Floquet calculations with `dm=true` are not | `Verif.Sweep.resume_undefined`, `floquet_second_undefined` |
| With partial diagonalisation the truncation can miss states below the cutoff | `Verif.Trunc.partial_diag_misses_states` |
| The retry loop does not terminate for `restartfactor ≤ 1`, nor for a stored spectrum that is too small | `Verif.Trunc.retry_diverges_without_growth`, `retry_diverges_on_checkpoint` |
| `resume`: the search for stored steps runs before `Nmax` is known and never finds any; a gap in the stored files is not noticed | `Verif.Text.resume_never_finds`, `lastStored_gap` |
| A parameter line without `=` is dropped without a message; items of the `keepall` list with blanks are ignored | `Verif.Param.line_without_eq_dropped`; C65 |

### Input and output

| Finding | Theorem |
|---------|---------|
| expectation values of operators whose names contain a slash can collide in `raw.h5`, which ends the run after its last step | `Verif.Raw.slash_in_name` |
| with `h5ham` a step that is repeated with a larger `diagratio` (`restart`) stores its Hamiltonian twice under the same name; the exception ends the run | `Verif.Raw.restart_ends_run`, `restart_example` |
| a header `[extra` without closing bracket ends the section for the main program, but not for `instantiate` | `Verif.Seed.open_header` |
| a section that occurs twice in the parameter file: the main program uses the first one, `instantiate` the last values of all of them | `Verif.Seed.repeated_section` |
| settings that are switched on by `1`, `yes` or `TRUE` are on in the main program and off in `adapt` and `nrgchain` | `Verif.Param.bool_agree` |
| `adapt` and `nrgchain` do not find the block of parameters if its header is followed by white space (CR LF line ends), and silently use the defaults for all parameters; the main program reads such files | `Verif.Param.crlf_differs`, `Verif.Param.defaults_unless_exact` |
| `readtable` of the library refuses a table with CR LF line ends, which the other readers accept | `Verif.Table.readTable_refuses_crlf` |
| A data file that ends within its last number is accepted with another value; with `tri=cpp` a file that ends between two blocks is accepted without the missing operators and ground-state energy; a count of −1 is taken as an empty table of coefficients | `Verif.DataFile.truncated_digit_accepted`, `truncated_blocks_accepted_cpp`, `negative_count_accepted` |
| Two spectra are written to the same file when operator names contain dashes, or when a singlet name is used for two kinds of operators | `Verif.Select.files_collide_dash`, `files_collide_kinds` |

### Spectral functions

| Finding | Theorem |
|---------|---------|
| DMNRG uses complex density matrices transposed | `Verif.Spectral.dmnrg_complex_wrong` |
| CFS: the sign of the bosonic commutator is wrong in part of the sum | `Verif.Spectral.cfs_boson_sign` |
| `chit_weight` is not symmetric in the window of nearly degenerate energies | C53 |
| Patching leaves gaps for several channels without the N/N+2 options, and all steps share one window for absolute energies | `Verif.Spectral.patch_gap`, `patch_absolute` |
| Degeneracy factors of DBLSU2 spectral functions and of QST and SPSU2T susceptibilities omit a multiplicity; SPSU2LR always throws; QSLR, QSC3, SPSU2C3, ISOSZ, ISOSZLR do not reject forbidden spin changes | `Verif.Spin.dblsu2_not_sumRule`, `qst_susceptibility_not_sumRule`, `spsu2t_susceptibility_not_sumRule`, `spsu2lr_always_throws`, `unchecked_not_rejects`, `singlets_not_rejected` |
| FDM on the Matsubara axis fails for a vanishing weight; accumulation bins outside the mesh; trapezoidal rule with a cut | `Verif.Spectral.fdmMats_fails_iff`, `Verif.Spectral.addAcc_outside`, `trapezAb_cut_wrong` |
| NaN is not rejected in the star representation of the bath | `star_nan_not_rejected` (Tools/ChainProps) |

### Tools

| Finding | Theorem |
|---------|---------|
| the files written by `bw` do not carry the name of the input: a second run replaces the result of the first | `Verif.Wrun.second_run_overwrites` |
| `bw -m` with an argument that cannot be read never ends | `Verif.Wrun.unreadable_endless` |
| `bw -n` with an argument that is not a positive number ends with success and writes no spectrum | `Verif.Wrun.no_iterations` |
| `h5write -s` stores zero for an operand that is not a number, and takes a negative number for an option | `Verif.Hw.text_as_scalar`, `negative_scalar` |
| `h5write -t` empties the HDF5 file before it reads the input: a mistyped name of the input destroys the contents | `Verif.Hw.truncate_destroys`, `truncate_example` |
| `outputstep=0` is accepted by `adapt`; with `adapt=true` no run then succeeds | `Verif.Arun.no_mesh_without_step`, `no_step_accepted` |
| `adapt` reports success with a table that ends long before `xmax` if `max_abs` is exceeded | `Verif.Arun.success_ends_early` |
| an error during the integration in `adapt` destroys the table of an earlier run (`FSOL.dat` is opened first) | `Verif.Arun.failure_destroys_energies` |
| `broaden -P -N` is accepted and gives zero everywhere; with `-a` equal to the largest frequency all points of the mesh coincide up to the sign | `Verif.Brun.nothing_kept`, `accumulation_at_max` |
| `broaden -L` with zero among the frequencies writes a value that is not a number (0/0) as soon as there is a peak away from zero, even if the options leave that peak out | `Verif.Brun.zero_on_mesh` |
| `broaden -m -1` is accepted and never ends (the mesh grows without bound) | `Verif.Brun.negative_min_endless` |
| `matrix -c two` runs without channels; `matrix -P` does not end the line of an empty matrix | `Verif.Mrun.no_channels`, `empty_matrix_line` |
| `matrix -s`: `gammapolch` is zero for every channel, and the files `Vij` of the second and further channels are required but not used | `Verif.Mrun.nambu_hybrid`, `nambu_first_channel` |
| `matrix` reads tables up to the first text that is not a number, and counts an unreadable hybridisation strength as zero, without a message | `Verif.Mrun.theta_comment`, `table_cut` |
| `tdavg` subtracts a file `td-ref.dat` that happens to exist from data with any name, and reads words as zeros | `Verif.Qrun.reference_unasked`, `words_accepted` |
| `tdavg` and `kk` open the result before they read the data: a failing run empties an earlier result, `kk f f` empties its data, `tdavg` with its own result as reference destroys it | `Verif.Qrun.earlier_lost`, `earlier_lost_missing`, `reference_destroyed`, `kk_earlier_lost`, `kk_same_file` |
| Averaging of raw spectra: complex spectra with an even number of rows are read as real ones, files cut between rows or empty count as spectra, `-o` with several calculations sends the average to `spec.bin`, `specmoments -p` keeps the frequency zero | `Verif.Zrun.wrong_columns`, `wrong_columns_weight`, `cut_accepted`, `empty_counts`, `one_of_many`, `zero_kept` |
| `hilb`: a table of two points makes it use a null pointer, one with a repeated abscissa an uninitialised spline; a comment ends the input silently; frequencies below 10⁻⁶ are not compared; zero is printed for real arguments outside the band | `Verif.Hrun.two_points`, `repeated_abscissa`, `comment_ends`, `small_labels`, `real_axis`, `output_is_input` |
| `hilb` aborts on negative numbers as operands; `matrix -V` and `hilb -V` abort; `1e3` points mean one; `hilb` with three operands ends with success | `Verif.Cmd.hilb_negative`, `matrix_V`, `hilb_V`, `integer_prefix`, `hilb_scale_text`, `hilb_nothing`, `help_needs_number` |
| `Sqrt[x]` with a variable, a name that is not set, `Pi`, `1/0` and rows of different lengths mean different things to `instantiate` and to `matrix` | `Verif.Calc.argument_differs`, `unset_differs`, `pi_differs`, `division_differs`, `ragged_differs` |
| `matrix`: a vector of 5000 or more elements exhausts the stack of the parser; after a syntax error or an exhausted stack the exit status is zero; a last line without line end is computed, printed and then rejected | `Verif.Calc.long_vector`, `Verif.Calc.errors_status` |
| `matrix`: names without a value are zero, `n/0` is `n`, matrices may have rows of different lengths | `Verif.Calc.unset_zero`, `Verif.Calc.division_by_zero`, `Verif.Calc.ragged_matrix` |
| `matrix`: `12e3` is read as the number 12 and the name `e3` (`5e3` is a number); a lone `.` is the number zero; integers from 2^31 on are undefined behaviour | `Verif.Calc.numbers_misread`, `Verif.Calc.integer_range` |
| `matrix`: `a=b` without blanks, where the right side begins with a letter, is dropped as a line of a parameter file | `Verif.Calc.assignment_dropped` |
| `matrix`: `f[x]`, where `x` is a name, is the variable `f`: the scanner drops `[x]` as the header of a section. `Sqrt[x]` gives 0 | `Verif.Calc.argument_dropped` |
| `writetable` prints 16 digits by default; 17 are needed for double precision, so that tables change when they are written and read | `Verif.Resample.sixteen_digits` |
| `resample` accepts a grid with one column: it reads the numbers in pairs and drops every second one | `Verif.Resample.resample_one_column` |
| `resample` without `-e` writes NaN for grid points outside the table, with exit status zero; the file cannot be read by `readtable` any more | `Verif.Resample.resample_nan` |
| `diag` uses only the upper triangle of its input and accepts matrices that are not symmetric without a message; the reported vectors are then not eigenvectors of the matrix | `Verif.Mx.diag_not_symmetric` |
| The text matrix reader counts words but reads numbers: `1-2 3` is a row of two columns, 1 and -2, and 3 is lost without a message | `Verif.Mx.readText_shifts` |
| `diag` silently ignores everything from the first thing that is not a number, including comments that `unitary` skips: a file with a 4x4 matrix and a comment after the first row is diagonalised as a 2x2 matrix | `Verif.Mx.diag_ignores_rest`, `Verif.Mx.diag_unitary_disagree` |
| The adaptive broadening tool drops a peak at frequency zero (the kernel vanishes for every output frequency) | `Verif.Bw.zero_peak_lost` |
| The adaptive broadening tool does not check its lower end of the mesh: with `-m 0` (or a negative value) the loop that makes the mesh never ends and fills the memory | `Verif.Bw.bw_endless` |
| tables with fewer than `mMAX+1` lines are read beyond their end | `Verif.NrgChain.short_table` |
| the call that loads the tables returns `theta = 0` | `Verif.NrgChain.loaded_theta` |
| `nrgchain` with `band=flat` and `adapt=true` does not read a mesh: the whole weight goes to the first interval and a chain with more than one site is refused | `Verif.NrgChain.flat_adapt` |
| `instantiate` removes all files whose names begin with `vec.` or `ham.` from the current directory, whoever made them | `Verif.Seed.own_files_removed` |
| `instantiate` removes the parameter file of the user if it is called `param.param`, `param.dmft` or `param.extra` | `Verif.Seed.parameter_file_removed` |
| `adapt` takes a parameter file called `p`, `n`, `pos`, … for the sign and reads the file `param` | `Verif.Adapt.file_not_sign` |
| `adapt` accepts `secant_factor=0` and then divides by zero | `Verif.Adapt.no_shift_divides_by_zero` |
| the maximal integration error printed by `adapt` includes rejected steps | `Verif.Adapt.max_error_counts_rejected` |
| `adapt` with `max_subdiv=0` accepts only inaccurate steps and stops at an accurate one | `Verif.Adapt.no_subdivisions_inverted` |
| `adapt` accepts `outputstep` <= 0 and then never ends | `Verif.Adapt.no_end_without_step` |
| `adapt` and `nrgchain` take an indented comment for a row of data and words for the number zero | `Verif.Table.loadPairs_takes_text` |
| `kk` and `integ` silently drop every row after a comment that follows the first row | `Verif.Table.kkRead_comment_loses_data` |
| `kk -` writes a message to standard output after the result, contrary to the comment on the modes | `Verif.Kk.kk_std_not_only_result` |
| The broadening tool without `-n` loses weight of a peak at zero frequency; with an accumulation point the weight over all energies is too large; the sum of the kernel in the final pass is computed but not used, so that the final pass does not conserve a constant spectrum | `Verif.Broad.zero_peak_loses_weight`, `accumulation_weight`, `final_pass_not_conserving` |
| `tdavg` accepts a first line without columns; a zero temperature is repeated in the mesh | `tdLoad_ragged`, `mesh_zero_repeated` (Tools/AvgProps) |
| `intavg` does not sort its input | `intavg_unordered` (Tools/AvgProps) |
| `hilb` evaluates no integral at the band edges | `Verif.Tools.Hilb.hilbert_edge_wrong`, `bethe_edge_wrong` |

### Observations (not theorems)

* The constructors of `Resample` for programs that use the library offer no way to select extrapolation (`tools/resample/resample.hpp:130-143`).
* `unitary` without `-o` computes the product and discards it, with exit status zero (`tools/unitary/unitary.hpp:88`).
* `diag -B -O file` without `-t` writes the eigenvectors as text and then overwrites the same file in binary form (`tools/diag/diag.cc:123-159`; `DiagFiles` in C106).
* The logarithmic derivatives of `bw` are backward differences on both sides of frequency zero, so a symmetric spectrum is broadened slightly asymmetrically.
* `bw` computes `log(E/omega)` also for a peak whose frequency is stored as negative zero; the result is NaN for all positive frequencies, and these lines are then left out of the output.
* The mesh of `bw` has a gap: the point just above the upper end is skipped and the next one is used instead (`tools/bw/bw.cc:310-320`; `InitialPoint` in C102).
* The `last` flag stored with a spectrum is that of the run that wrote it; a chain made longer on resuming would keep it.
* In Floquet calculations `DiagInfo::shift` shifts the raw eigenvalues as well, although its comment says that they remain untouched (`c++/eigen.hpp`).
* A worker that receives an unknown tag prints a message and goes on (`c++/nrg-lib.cc`); C99 proves that this never happens.
* `prepare_parallel_runtime` (`c++/nrg.cc`) is called on every process before the broadcast of the start-up status; if it fails on some processes only, these return while the others wait in the broadcast. An exception in the main process during the calculation unwinds through `~DiagMPI`, which sends blocking exit messages to workers that may be in the middle of a job; outside the model of C99.
* The test of the sum of the weights in `nrgchain` can fail only by rounding (`Verif.NrgChain.never_rejected`).
* The keyword that switches off the tridiagonalisation is `nrgchains_tridiag` (`tools/nrgchain/nrgchain.cc`), unlike its neighbours `nrgchain_tables_save` and `nrgchain_tables_load`; the setting `nrgchain_tridiag=false` has no effect. Unknown arguments on the command line are ignored.
* - `instantiate` does not check whether writing `data` succeeded (`tools/instantiate/instantiate.cc:749-754`): with a full disk it reports success.
* - `instantiate` copies operator blocks with the letter `v`, which the reader of the main program does not know, so such a template always fails at the validation; comments between the operators of the Wilson chain and a scale that is not a number also fail only there.
* - Unknown keywords are reported by the main program (C64) but ignored by the tools; repeated keywords are refused by the main program, the tools take the last one.
* - Duplicate energies in the table of the hybridisation function give a division by zero in the slope of the interpolation.
* - `print_minmax` starts the search for the maximum from 0; `timestep` gives up silently when it cannot subdivide further (`tools/adapt/adapt.hpp:117-126`).
* - The comment in `tools/kk/kk.hpp` that the correction approximates the intervals beyond the range is inaccurate: it is the singular part over the range itself.
* A requested spectrum that matches no pair of operators, and a value of `fdmexpvn` outside the sweep, are ignored without a message.
* In the header of the data file a line `#symtype X` without a blank after `#` is not recognised.
* `qstz-tripletp.dat` and `spsu2t-tripletp.dat` also evaluate to NaN for spin 0, where the row is not used.
* The `ANOMALOUS` table of SPSU2T violates the sum rule of the hopping factors.
* `Values::save`/`load` omit `c_shift`; `Vectors::standard_basis` does not set `_dim`; `SubspaceDimensions` stores only `dims`.
* The check `xi2 == 0` in `tridiag` should be `< 0`.
* The MPI scheduler lists node 0 twice in `nodes_available`.
* `measure_singlet_fdm` indexes the stored shells with `step.N()`, the density matrix with `step.ndx()`; the two differ with substeps.
* An unset output column is written as blanks, which shifts the columns for tools that split at blanks.
* Stored files are not synced to disk before the marker of completion is written.

## Status per property

141 properties: 96 proved, 45 partial. The theorems of each are listed in `MANIFEST.json`; every
theorem has an example beside it (or in an `Examples` module) that meets its hypotheses.

| | Property | Status | Restrictions |
|---|---|---|---|
| C01 | Composing quantum numbers is an abelian group law | proved | All type lists, all labels. |
| C02 | Ancestors and descendants are dual | proved |  |
| C03 | The spin triangle test is the angular-momentum coupling rule | proved |  |
| C04 | Every built-in symmetry table adds exactly one site's Hilbert space | proved | All 51 shipped tables; labels of actual multiplets, unbounded charge and spin. |
| C05 | The next step's subspace structure contains every state exactly once | proved | One step and, without truncation, any number of steps. |
| C06 | Blocks tile the Hamiltonian matrix | proved |  |
| C07 | The diagonalisation task list is complete, duplicate-free and largest-first | proved |  |
| C08 | Truncation keeps exactly the lowest-cost states | proved |  |
| C09 | The number of states kept respects keepmin, keep, keepenergy and the safeguard | proved | keep >= 1 and keepmin <= keep are enforced by parameter validation (the latter when keepenergy > 0). |
| C10 | Partial diagonalisation is retried until enough states are available | partial | Termination proved for restartfactor > 1 and computed steps; the code does not validate restartfactor and loops for ever on an insufficient checkpoint (both negations proved). |
| C11 | Removing round-off splittings is a bounded, order-preserving merge | proved |  |
| C12 | Sorting by cost permutes states as units | proved |  |
| C13 | A stored spectrum reads back as written | proved | Up to c_shift, a diagnostic member that is not stored. |
| C14 | Checkpoint writing is crash-atomic | proved | Assumes atomic rename; loss of flushed data in a power failure is not modelled. |
| C15 | Loading a checkpoint is all-or-nothing | proved |  |
| C16 | Matrices sent row by row between processes arrive unchanged | proved | Matrices of any shape; MPI point-to-point ordering assumed. |
| C17 | Distributed diagonalisation is schedule-independent | proved | All interleavings, any number of nodes and tasks. |
| C18 | Threaded diagonalisation is order-independent | proved | Critical section assumed atomic. |
| C19 | Parameter files are read block-wise with no silent loss of settings | proved |  |
| C20 | Derived calculation flags are consistent with the requested algorithms | proved |  |
| C21 | Coefficient tables address distinct storage for distinct meanings | proved |  |
| C22 | Energy scales form the geometric sequence implied by the discretisation | proved | Over the reals. |
| C23 | Step bookkeeping visits every iteration once | proved |  |
| C24 | Absolute energies are consistent across steps | proved |  |
| C25 | Full-density-matrix weights of the steps add up to one | proved |  |
| C26 | Reduced density matrices keep trace one through the backward sweep | proved | Exact arithmetic over real or complex numbers; without resume. |
| C27 | The full density matrix has the right trace at each step | proved | Exact arithmetic; all states of a subspace computed. |
| C28 | Boltzmann initial density matrix is normalised | proved |  |
| C29 | Lesser and greater spectra add up to the full spectrum and count every transition once | proved | Real and imaginary frequencies. fdmMats_fails_iff: the bosonic zero-frequency value is a division by zero when a kept and a discarded state are degenerate. |
| C30 | Complete-Fock-space lesser and greater parts add up | proved |  |
| C31 | Binning a delta peak conserves its weight and mean position | proved | With the accumulation grid, weight outside the grid is dropped (addAcc_outside, negation of conservation there). |
| C32 | Merging and trimming spectra conserve total weight | proved |  |
| C33 | Patching windows of consecutive steps form a partition of unity | partial | Proved for N/N+1 patching, and for N/N+2 and averaged N/N+2 with one channel; for several channels with neither option the windows leave gaps and with absolute energies all steps share one window (negations proved). |
| C34 | The output mesh is strictly geometric within its bounds | proved |  |
| C35 | Accumulating temperature-dependent results merges equal temperatures | proved |  |
| C36 | Imaginary-frequency results merge additively on the right grid | proved |  |
| C37 | Operator matrices transform consistently to the new basis | proved | Exact arithmetic; odd-parity singlets always throw (C02) and the CUDA path is not modelled. |
| C38 | Matrix helpers have their documented meaning on every shape | proved | Exact arithmetic; the CUDA backend is not modelled. |
| C39 | Parity inversion of a label works and is an involution | partial | The property fails: InvertParity always throws for a non-empty label. Negation proved. |
| C40 | Labels survive text output and input | proved |  |
| C41 | Output columns never shift | proved |  |
| C42 | The annotated level listing accounts for every reported state once | proved |  |
| C43 | Tabulated-function interpolation does not depend on the query history | proved | Exact arithmetic. trapezAb_cut_wrong: the clipped integral used for the printed estimate is wrong when the limit falls inside an interval. |
| C44 | The Wilson chain coefficients are the exact tridiagonal form of the discretised bath | proved | Exact arithmetic; the multiple-precision rounding is not modelled. |
| C45 | The discretised hybridisation weights are normalised by construction | proved | Exact arithmetic. star_nan_not_rejected: a negative interval weight gives NaN couplings that pass the checksum test. |
| C46 | Averaging over twist parameters conserves spectral weight | proved |  |
| C47 | The cumulative spectrum is the weight below each mesh point | proved |  |
| C48 | Matrix templates evaluate with ordinary precedence | proved | Exact arithmetic; strtod is modelled for decimal notation; sqrt, exp, log are uninterpreted. |
| C49 | The completion marker is written only after all requested sweeps | proved | Failures at any action; without resume. |
| C50 | Heat capacity and fluctuations are non-negative | proved |  |
| C51 | Spin moment contribution of a multiplet is that of its components | proved | All columns of all classes except the fluctuation columns of SL and SL3, which are differences of two of these columns. |
| C52 | Spin-degeneracy factors in spectral functions satisfy the sum rule | partial | Exactness and sum rule hold in all classes except DBLSU2, the susceptibilities of QST and SPSU2T, and SPSU2LR, for which the negation is proved; rejection holds in six classes and fails in the classes listed in unchecked_not_rejects and singlets_not_rejected (negations proved). |
| C53 | The susceptibility kernel is symmetric and positive | proved | Exact symmetry fails inside the degenerate window (negation proved); there it holds to the stated relative accuracy. |
| C54 | Tolerance-based comparison is consistent | proved |  |
| C55 | Human-readable memory figures denote the measured number | proved |  |
| C56 | Resuming from stored iterations finds the last stored iteration | partial | The property fails: the search runs while Nmax is 0, so nothing is ever found (negation proved), and a gap in the stored steps is not noticed (negation proved). The search itself is right for gap-free files once Nmax is known. |
| C57 | Hamiltonian tables couple only compatible blocks | proved | All 51 built-in classes, tables generated from the sources. Numerical factors of the entries are not part of this property. |
| C58 | Averaging over data sets interpolates on the merged mesh | proved | Exact arithmetic; data blocks without repeated temperatures. Violations outside these hypotheses are shown by witnesses: a leading line without columns is accepted, zero is repeated in the mesh, intavg does not sort. |
| C59 | Hilbert transform limits cover the whole band | partial | Exact integrals in place of the adaptive quadrature. Proved for arguments off the band edges (inside the band up to the cutoff, with a bound); violated at the edges, where no integral is evaluated. |
| C60 | Reduced diagonalisation computes the requested number of lowest eigenpairs | proved |  |
| C61 | An accepted partial diagonalisation keeps the states a complete one would keep | partial | Holds when more states were computed than requested (no energy cutoff, no safeguard); fails otherwise, negation proved. |
| C62 | Eigenvectors diagonalise the Hamiltonian block whatever the storage order | proved | LAPACK is a hypothesis (its documented contract); exact arithmetic. |
| C63 | Stored files of different iterations and kinds never share a name | proved |  |
| C64 | Every setting in the parameter file is used or reported | partial | Fails for lines without '=' (negation proved); proved for key=value lines. |
| C65 | The selection of iterations in which all states are retained is taken as written | proved | Items with spaces are ignored, as the second theorem states. |
| C66 | On/off settings have a fixed set of spellings | proved |  |
| C67 | Numerically safe Fermi and Bose factors equal the plain formulas | proved |  |
| C68 | A run never looks for a stored file it has not written | proved | Without resume; one diagonalisation attempt per step in the second sweep. |
| C69 | Workspaces handed to the eigensolver are never too small | proved | 32-bit LAPACK integers, 64-bit size_t. |
| C70 | Complete-Fock-space and full-density-matrix algorithms add the same total weight on intermediate steps | partial | Holds for fermionic operators; for bosonic operators the sign is opposite (negation proved). |
| C71 | DMNRG weights follow from the density matrix for real and complex calculations | partial | Holds for symmetric (real) density matrices; complex Hermitian ones are used transposed (negation proved). |
| C72 | Filtering and moments of raw spectra | proved | Exact arithmetic. |
| C73 | Building the Hamiltonian finds every operator block it needs | partial | Proved for all built-in classes except QJ, QST and SPSU2T. Violated by QJ (coupling test on shifted indices: entries dropped, uncoupled blocks added, out-of-bounds read) and SPSU2T (matrix not found when both ancestors are orbital singlets), shown by witnesses. For QST proved under the assumption that the factor vanishes for uncoupled ancestors. |
| C74 | Hopping conserves electron number, channel and spin | partial | Violated by U1 without polarisation (spin labels exchanged), shown by a witness. Where the occupation of one channel or spin is not sharp in the basis (LR classes, polarized SPU1) only the electron number is covered; entries meant to mix channels are excluded. |
| C75 | Operators keep all their blocks from one step to the next | partial | Violated in seven functions whose operator label can never couple (the operator is lost), in four functions without a case for three channels (the program stops), for singlets of SPSU2LR, and in four triplet functions with a factor that is zero times infinity for spin 1/2 (the run stops); the negations are theorems about every input of that kind. Otherwise proved with the actual factors (operator_carried_finite), except for the QST doublet and the QJ quadruplet, where the factors of the rows used are assumed to be finite. |
| C76 | Products of operators survive the step to the next site | partial | Proved for all tables that work (C75), for all spins, except two tables whose factors were not evaluated (QST doublet: too expensive; QJ quadruplet: not brought into normal form) and the spins at which four triplet tables have factors that are not finite (C75). Exact arithmetic, with the IEEE rules for zeros, infinities and NaN. |
| C77 | Expectation values from the full density matrix do not depend on the step | proved | Exact arithmetic. One operator of parity 1 at a time; reading the operators from the data file is outside. |
| C78 | The weight of a full-density-matrix spectral function obeys the sum rule | partial | The lesser part; the greater part would need the corresponding identity for the columns of the recalculation tables. The operator must not have an excluded factor (C75, C76), every subspace is diagonalised completely, and the degeneracy factor must be a constant times the multiplicity of the bra (as shown for QS in C52). |
| C79 | Exactly the requested spectra are computed, from operators carried through every step | proved | The matrices of the operators and their recalculation are abstract here (C75, C76 treat them). The evaluation before the first step (calc0) is not included. A requested name that matches no pair of operators, and a value of fdmexpvn outside the sweep, are ignored without a message. |
| C80 | No two spectra are written to the same file | partial | Violated when names of operators contain dashes, and when a name is used for singlet operators of two kinds (negations proved); proved otherwise. |
| C81 | The data file is read exactly as written, and contradictory files are refused | proved | Numbers are exact decimals (rounding to double precision and overflow are not modelled); real matrix elements only. negative_count_accepted records an oddity: a count of -1 is taken as an empty table. |
| C82 | A data file cut short is never taken for a complete one | partial | Proved when the chain coefficients are needed and come last, for every prefix that ends before the last number. Violated when the file ends within the last number, and when the coefficients are computed by the program (tri=cpp) and the file ends between blocks (witnesses). |
| C83 | Broadening conserves the spectral weight and the sign of a spectrum | partial | Exact real arithmetic. Weight is conserved with -g, and with -n without accumulation point. Violated otherwise (negations proved): without -n a peak at zero frequency loses weight, with -a > 0 the weight over all energies exceeds that of the peak, and the final convolution does not conserve a constant spectrum because the sum of the kernel is computed but not used. |
| C84 | The sum rules printed by the broadening tool are the integrals they are named after | proved | Exact real arithmetic. |
| C85 | The broadening tool reproduces the main program from its raw output | proved | Exact real arithmetic; the decimal notation of the numbers in the raw file is not rounded. The mesh values are those the tool builds itself. |
| C86 | The Kramers-Kronig tool computes the principal value, and the integrator the integrals it prints | partial | Exact real arithmetic; the interpolation is any function continuous on the interval and differentiable at the frequency; the quadrature is the exact integral. Violated: a message is always written to standard output after the result (negation proved). |
| C87 | The Matsubara tool computes the spectral sum at the fermionic frequencies | proved | Exact arithmetic over the complex numbers. |
| C88 | Tables in text files are read completely and alike by all readers | partial | The library reader is correct for every layout; that of kk and integ for comments at the beginning only; that of the discretisation tools for comments in the first column and empty blank lines. The failures of the full statement are proved: kk and integ silently drop everything after a comment that follows a row; adapt and nrgchain take indented comments and words for numbers; the library refuses files with CR LF line ends. Decimal numbers are exact. |
| C89 | Discretisation energies reproduce the hybridisation function | proved | Exact real arithmetic. The first two theorems are about the computed right-hand sides; the others are about exact solutions of the equations with these right-hand sides (right derivatives, continuous hybridisation function without zeros on the solution), not about the accumulated error of the Runge-Kutta steps. |
| C90 | The integration of the discretisation equation is accurate, aligned with the output mesh and finite | partial | Exact arithmetic. Violated, negations proved: outputstep <= 0 is accepted and the calculation does not end; with max_subdiv = 0 the accurate steps are refused and the inaccurate ones accepted; the printed maximal error includes rejected steps. |
| C91 | Search for the mesh, preparation of the table and command line of the discretisation solver | partial | The result of the integration is an arbitrary function of the parameter. Missing: convergence for a nonlinear dependence. Violated, negations proved: secant_factor = 0 is accepted and leads to a division by zero; a parameter file whose name is a word for a sign cannot be given. |
| C92 | A parameter file means the same to the discretisation tools and to the main program | partial | Proved for files whose header line has no surrounding white space. Violated otherwise, negations proved: a header followed by white space (CR LF line ends) is not found by the tools, which then use the defaults for everything without a message; the spellings 1, yes, TRUE of a setting that is on are read as off. Numbers are compared as text. |
| C93 | The instantiated template is the data file of the diagonalised model | proved | Exact arithmetic; the printed form of numbers is an arbitrary decimal text, what is read back is the value of this text. The eigensolver is an arbitrary function that returns sorted values. One channel of the Wilson chain. interrupted_write_partial does not cover an interruption within the last number. |
| C94 | The program instantiate changes no files but its own | partial | Names of files are compared as texts (no links, no equivalent paths). Violated, negations proved: the clean-up removes files that the program has not made, among them the parameter file if it is called param.param, and all files vec.* and ham.*. |
| C95 | A parameter file means the same to instantiate and to the main program | partial | Proved for files in which the section occurs once and all headers are closed. Violated otherwise, negations proved. |
| C96 | A calculation of the Wilson chain does not depend on earlier ones | proved | Exact arithmetic. The tables of interpolation are functions of their data: the search index they remember does not matter (C70). |
| C97 | The chain coefficients of nrgchain are those of the discretised bath | partial | Exact real arithmetic in place of GMP with preccpp bits: the loss of precision, for which preccpp exists, is not modelled. Violated for the band flat with the option adapt (no mesh is read; flat_adapt). |
| C98 | Files of nrgchain: interruption, and the calculation in two steps | partial | two_steps assumes that the numbers in the tables read back as written (18 digits). Each number is written by one operation. Violated, negations proved: the weight theta returned by the second step is zero, and a table that is too short is read beyond its end. |
| C99 | A parallel job ends on all processes, with the results of the serial program | proved | Message level: every send, receive, probe and broadcast is a step. Not modelled: failures of processes or of the network, exceptions thrown during the calculation (the other processes then wait, see the observations), and start-up checks that fail on some processes only. The matrix returned by a diagonalisation is assumed to have as many elements as rows times columns. |
| C100 | The second sweep works with the states of the first | proved | Exact arithmetic. The eigensolver, the recalculation of one operator and the trimming are parameters; for operators recalculated at different stages in the two sweeps (cfs with fdm) the statement assumes that recalculating and trimming commute, which is C37. P.project and HDF5 output are not modelled. Without Floquet blocks and without resuming (C101). |
| C101 | Continuing a calculation from stored spectra | partial | Both parts of the property are false: the stored spectra have their eigenvectors in the blocks only, and splitting them again reads elements of an empty matrix. What holds is that a run without a stored step does not depend on the request to resume (and by C56 the program never finds a stored step, so the resumed run in fact starts from the beginning). |
| C102 | Adaptive broadening of raw spectra | proved | Exact real arithmetic; results that are not finite are separate cases. Assertions are counted as failures, so the statement holds for builds with and without them. Parsing of the command line, number formatting and a failure to open an output file are not modelled. |
| C103 | Adaptive broadening: total weight and refusal of unusable input | partial | False in two ways: a peak at frequency zero loses its weight, and a lower end of the mesh that is not positive makes the tool run for ever. What holds is that input files that are missing or hold half a pair are refused. |
| C104 | Matrix products in memory | proved | Exact arithmetic. The Fortran routine is modelled by its documented effect on memory. Operands and result are different objects. The size of the result is checked by an assertion only: gemm_overrun shows what a build without assertions does with a result that is too small; all callers allocate it with the right size. CUDA is not modelled. |
| C105 | Matrix files of the tools | proved | Number formats are abstract: output with 18 digits is a decimal number that is read as the same number, eight bytes in memory are read as the same number. The file is the list of its bytes. Failures to open a file for writing are not modelled. |
| C106 | Eigensolver and transformation tools | proved | Exact arithmetic; products through the memory model of C104; dsyev by its documented contract, as in C62. Parsing of the command line and terminal output are not modelled. The file for diag must have no comments (see C107). |
| C107 | Matrix files: what is not a matrix is refused | partial | False: diag stops silently at the first thing that is not a number (also a comment), so that the same file can be a matrix of dimension four for unitary and one of dimension two for diag; a word like 1-2 is counted as one and read as two numbers, and the last number is lost; a matrix that is not symmetric is diagonalised as if it were. What holds is the refusal of lines of different lengths (C105) and of counts that are not squares (C106). |
| C108 | Start of a job: the same decision in all processes | proved | Processes with interleaved steps; MPI_Bcast either returns at once on the root or waits for all. The MPI library itself, the messages and the report are not modelled. |
| C109 | Start of a job: no process is left waiting, options are honoured | partial | False: the threading library is checked in each process before the broadcast of the decision, and the environments may differ, so that a process leaves and the others wait for ever; -w is ignored if there are further arguments; an empty NRG_WORKDIR selects the root directory; -h is understood only as the first argument (decision_spec). What holds is C108. |
| C110 | Check of the threading library | proved | Presence of the OpenMP functions in the process is a parameter. ASCII characters. |
| C111 | Calculations that share a scratch directory | proved | mkdtemp makes a directory that did not exist; file names within a work directory are arbitrary. Failures of the file system and signals are not modelled. The existing files must not lie in directories that do not exist. |
| C112 | Kind of numbers and symmetry named in the data file | proved | The tables are those of C08. |
| C113 | Unsupported combinations of symmetry, channels and substeps are refused | partial | False: with substeps the vectors are made for one channel, but most symmetries still assign their table for all channels (undefined behaviour); QJ does not look at the number of channels: with one or two it writes after the end of the vectors, with four or more some entries have no quantum numbers. What holds is C112. |
| C114 | Resampling of tables | proved | The Akima spline of the GSL by its contract: through the points, a value between them, none outside; five increasing points needed. Numbers in a linear order; printing is a parameter, exact where a round trip is claimed. Splitting of the command line by getopt is not modelled. |
| C115 | Resampling: results can be used, what is not a grid is refused | partial | False: without -e a grid point outside the range gives NaN in the output, which no reader of the library accepts, and the program reports success; a grid of one column is read as pairs; the default of sixteen digits is not enough to reproduce double precision numbers. What holds is C114. |
| C116 | Matrix calculator: values of programs | proved | The parser as the table-driven loop of parser.cc with its tables. Numbers in a field; sqrt, exp, log and the value of decimal numbers are parameters. |
| C117 | Matrix calculator: every input is decided | proved | As for C116. |
| C118 | Matrix calculator: from the text to the result | proved | The scanner as the rules of matrix.ll with longest match; the tables generated by flex are not modelled. `parse file`, `!command` and several input files are an outcome of their own. |
| C119 | Matrix calculator: what is written is what is computed | partial | False: f[x] with a name as argument loses the argument, a=b without blanks is no assignment, 12e3 is not a number, large integers are undefined behaviour, unset names are zero, n/0 is n, rows may have different lengths, vectors of 5000 elements exhaust the parser, and the exit status is zero after a syntax error. What holds is C116 to C118. |
| C120 | Both evaluators of matrices give the same matrix | proved | Numbers are elements of a field; both tools read decimal numbers as the same number (shown for exact decimals in decimal_lit and sample_same). Texts without dollar sign and exclamation mark; names followed immediately by an equal sign and a letter, and brackets followed immediately by a letter are excluded (see C121). At most 196 names; depth of the stack as in C116. |
| C121 | Every text has the same meaning in both evaluators of matrices | partial | False: Sqrt[x] with a variable as argument, names that are not set, Pi, division by zero and rows of different lengths; in all these cases the calculator prints a number or a matrix and exits with status zero. What holds is C120. |
| C122 | The command lines of the tools mean what they say | proved | getopt of the GNU C library is modelled (short options, operands anywhere; POSIXLY_CORRECT not set). Settings that only change messages are left out. Numbers are exact decimals; nan, inf and overflow are not modelled. |
| C123 | A tool refuses a command line only if it is wrong, and never takes a wrong one | partial | False: hilb does not take negative operands (except after --), matrix -V and hilb -V abort, -h is the filter of broaden and specmoments unless it stands alone, numbers are read up to the first character that does not fit (1e3 points are one) and a text without digits is zero, hilb with three operands ends with success. What holds is C122. |
| C124 | hilb: from the files to the Green's function | proved | The cubic spline of the GSL is used through its contract (continuous, through the points, zero for zero data), its quadrature is replaced by the exact integral; rounding and the 16 digits of the output are not modelled. The argument must not be real (see C125) and nothing is said straight above or below the edges of the band closer than 10^-3 (see C59). The files read are not among those written. |
| C125 | hilb uses all of its input or refuses it | partial | False: a table with two points makes it use a null pointer, one with a repeated abscissa an uninitialised spline; a comment ends the input silently; frequencies below 10^-6 are never found different; for real arguments outside the band zero is printed; -o may name the input file, which is then empty. What holds is C124. |
| C126 | Averages over calculations: from the files to the results | proved | Binary files are sequences of numbers of eight bytes; exact arithmetic; failures to open a file for writing are not modelled. For intavg the tables have comments at the beginning only and increasing arguments (see C58, C88 for the rest). |
| C127 | Averages over calculations: what is not a raw spectrum is refused | partial | Proved: missing files and incomplete rows are refused, whatever the number of files. False: a complex spectrum with an even number of rows is read as a real one, a file cut between rows or empty is accepted (the average is still divided by Nz), -o with several calculations sends the average to spec.bin, and -p keeps the frequency zero. |
| C128 | Averages of thermodynamic data, Kramers-Kronig transform and integrals: from text files to the results | proved | Exact arithmetic; how numbers are printed is arbitrary; the spline of kk and integ is an arbitrary function of the table, the quadrature exact. The data sets of tdavg are separated by comments, all rows have the same number of columns and no temperature occurs twice in a data set (see C58 for the rest); the tables of kk and integ have comments at the beginning only. |
| C129 | A run of tdavg or kk that fails leaves the files as they were | partial | Proved: no file but the one for the result is changed, the result of tdavg is never its data, a refused command line or a missing input of kk changes nothing, lines without numbers are refused, integ needs five points at distinct arguments. False: the result is opened before the data are read, so every failing run empties it (and the reference or, in kk, the data themselves if they have that name); words are read as zero; td-ref.dat is subtracted from data with any name. |
| C130 | The program matrix from tables and a program text to the lines it writes | proved | Exact arithmetic; how numbers are printed is arbitrary (for matrix_file: decimal numbers that are read back; for chain_to_matrix: decimal numbers, whose values are used). The program text comes from standard input or one file; several files are not modelled. What is written before an error in the scanner is not modelled. The meaning of the program text is C116 to C118. |
| C131 | The program matrix refuses tables it cannot use | partial | Proved: all files must exist, the number of channels must not be negative, a hybridisation strength that is read must not be negative. False: what cannot be read as a number counts as zero or ends the table silently; with -s gammapolch is zero and the files Vij of further channels are not used; a number of channels that is not a number counts as zero; with -P an empty matrix leaves a line without end. |
| C132 | The program broaden from raw spectra of several calculations to the spectrum it writes | proved | Exact arithmetic; lines are pairs of numbers (the text of a table that is read with -L is modelled, that of spec.dat is not). The mesh of the program needs a positive lower limit, and an accumulation point that is not negative unless -g is given; that of -L must be ordered and without zero unless -g is given. The kernel is that of C83. |
| C133 | The program broaden ends with a usable spectrum or a message | partial | Proved: files must exist with whole rows, the mesh must be ordered and not empty, limits and ratio in range. False: a negative lower limit gives an endless loop; zero on a mesh from a file gives a value that is not a number; -P with -N gives a spectrum that is zero; an accumulation point at the largest frequency gives a mesh with only two different points. |
| C134 | The program adapt from parameter file and hybridisation function to the files it writes | proved | Exact arithmetic; the command line is that of C91, the integration that of C89 and C90. outputstep and dx_fast must be positive (not checked by the program, see C135). Tables that are not strictly increasing and divisions by zero in the search are outside the model; so is the report on the terminal. For nrgchain: what is printed with 16 digits is read as a number. |
| C135 | adapt: success means a complete table, and failure leaves earlier results alone | partial | Proved: success is reported only for a request for help or a calculation that has come to its end; nothing is written unless command line, parameters and hybridisation function are accepted, and only the two files of the own sign are ever changed. False: an error during the integration leaves FSOL.dat with the lines computed so far; success is reported when the solution exceeds max_abs long before xmax; outputstep = 0 is accepted and the search for the mesh then never succeeds. |
| C136 | The HDF5 files raw.h5 and raw-dm.h5 contain everything that is to be stored under its name | proved | Of the HDF5 library it is assumed that a write creates the data set and the missing groups, and throws if the name is taken or if a part of it is a data set. The contents are opaque. Names of operators are assumed to be non-empty and without slash, labels to have at least one quantum number, keywords of parameters to be distinct; tables are maps and thus have distinct keys. That no Hamiltonian is set up twice holds if no step is repeated (see C137). |
| C137 | Storing raw data does not change whether a run succeeds | partial | Proved: with usable names the file is completed if and only if no stored step sets up the same Hamiltonian twice with h5ham. False: with h5ham a repeated step writes a second time under the same name, which throws and ends the run; names of operators with a slash can collide. |
| C138 | The program h5write stores a number or a matrix in an HDF5 file and leaves the rest | proved | The command line is that of C122, the text files with matrices those of C105. The HDF5 library is as in C136; opening without -t is assumed to fail if there is no file. The input is not the HDF5 file itself. The value of a scalar is exact. How the library stores a matrix without elements is not modelled. |
| C139 | h5write: a run that fails changes nothing, and only numbers are accepted as numbers | partial | Proved: without -t a run that fails changes nothing, and with it only the named HDF5 file. False: -t empties the file before the input is read, so that a mistyped name of the input destroys the contents; -s accepts any text (as zero or up to the first character that does not fit); a negative number is taken for an option unless -- is written. |
| C140 | The program bw from command line and raw spectra to its files | proved | The command line is that of C122, the calculation that of C102, the averaging that of C126. Numbers are exact; the digits written and failures to open a file for writing are not modelled. In `bw_average_first` the raw spectra have one column of weights. |
| C141 | bw: success means a result, and a run leaves other results alone | partial | Proved: a missing or incomplete raw spectrum is never followed by success. False: with a number of iterations that is not positive or cannot be read the program ends with success and writes no spectrum; with a lower end of the mesh that is not positive or cannot be read it never ends; the names of the results do not contain that of the input, so that a second run replaces the result of the first. The files left behind by a run that fails are not modelled. |

## Axioms per theorem

Output of `#print axioms` for the theorems in `MANIFEST.json`, grouped.

**Classical.choice, Quot.sound, propext** (640): `Invar.combine_comm`, `Invar.combine_assoc`, `Invar.combine_neutral`, `Invar.combine_inverse`, `Invar.get_spec`, `Invar.get_sane`, `Symm.ancestors_newSubspaces_dual`, `Symm.ancestor_eq_ancestors`, `Symm.builtins_wellFormed`, `Symm.su2Triangle_spec`, `Symm.su2Triangle_symm`, `Symm.su2Triangle_rejects`, `Symm.c3Equality_spec`, `Symm.builtin_triangle_spec`, `Symm.builtin_tables_count`, `Symm.structure_complete`, `Symm.fullSteps_count`, `Subspaces.blocks_tile`, `Subspaces.accessors_agree`, `Subspaces.offdiagContributes_spec`, `Subspaces.diagonal_filled`, `Trunc.kept_iff_below_cutoff`, `Trunc.kept_below_discarded`, `Trunc.cutoff_spec`, `Trunc.cutoff_rejects`, `Trunc.total_kept`, `Trunc.retry_terminates`, `Trunc.last_step_keeps_all`, `Trunc.retry_diverges_without_growth`, `Trunc.retry_diverges_on_checkpoint`, `Trunc.fixSplittings_spec`, `Trunc.fixSplittings_sorted`, `Trunc.sort_eigenpairs_as_units`, `Sched.mpi_each_task_once`, `Sched.mpi_result`, `Sched.mpi_result_lookup`, `Sched.mpi_no_deadlock`, `Sched.mpi_terminates`, `Sched.mpi_sizes`, `Sched.omp_result`, `Sched.omp_progress`, `Sched.omp_terminates`, `Param.write_read`, `Config.columns_distinct`, `Config.scale_pos`, `Config.stepFactor_gt_one`, `Config.scale_geometric`, `Config.scale_decreasing`, `Config.scale_closed_form`, `Config.substeps_per_site`, `Config.twist_period`, `Config.scale_unscale`, `Config.visits_every_step`, `Config.site_channel_bijection`, `Thermo.energies_consistent`, `Thermo.second_sweep_same`, `Thermo.fdm_weights`, `Thermo.complete_basis_count`, `Thermo.sweep_consistent`, `Dm.dmStep_trace`, `Dm.dmStep_nonneg`, `Dm.dmSweep_trace`, `Dm.dmSweep_nonneg`, `Dm.fdm_hermitian_nonneg`, `Dm.fdm_trace`, `Dm.fdm_trace_run`, `Dm.fdm_total_one`, `Thermo.init_rho_normalised`, `Spectral.fdmPairs_spec`, `Spectral.fdmGt_spec`, `Spectral.fdmLs_spec`, `Spectral.fdm_eq`, `Spectral.both_is_sum`, `Spectral.stepOne_total`, `Spectral.fdmMats_spec`, `Spectral.fdmMats_fails_iff`, `Spectral.matsTerm_degenerate`, `Spectral.mats_degenerate_limit`, `Spectral.cfs_intermediate`, `Spectral.cfs_last`, `Spectral.cfs_eq`, `Spectral.addStd_split`, `Spectral.addStd_position`, `Spectral.addStd_all`, `Spectral.setLimits_good`, `Spectral.loggridStd_spec`, `Spectral.addAcc_spec`, `Spectral.addAcc_energies`, `Spectral.addAcc_outside`, `Spectral.loggridAcc_spec`, `Spectral.addBins_total`, `Spectral.chainAdd_spec`, `Spectral.mergeBins_isSome`, `Spectral.mergeBins_spec`, `Spectral.mergeBins_comm`, `Spectral.mergeBins_assoc`, `Spectral.mergeCFS_total`, `Spectral.merge_of_binned`, `Spectral.merge_zero`, `Spectral.trimBins_spec`, `Spectral.trimBins_loss`, `Spectral.patch_partition_NN1`, `Spectral.patch_partition_NN2`, `Spectral.patch_partition_avg`, `Spectral.patch_gap`, `Spectral.patch_absolute`, `Spectral.windowFunction_isSome`, `Spectral.patchAll_same`, `Spectral.makeMesh_spec`, `Spectral.addValue_spec`, `Spectral.addValue_perm`, `Spectral.matsNew_spec`, `Spectral.matsMerge_eq`, `Spectral.matsMerge_same_grid`, `Ops.splitInBlocks_holds`, `Ops.recalcGeneral_conjugates`, `Ops.recalcGeneral_uncoupled`, `Ops.recalcSinglet_identity`, `Ops.recalcGeneral_linear`, `Ops.recalc_then_trim`, `Ops.recalcF_conjugates`, `Ops.recalcGlobal_conjugates`, `Mat.prodFit_spec`, `Mat.prodFitLeft_right_spec`, `Mat.prodAdjFitLeft_spec`, `Mat.product_spec`, `Mat.transform_spec`, `Mat.rotate_spec`, `Mat.rotateDiagonal_eq_rotate`, `Mat.traceContract_spec`, `Text.label_text_roundtrip`, `Text.label_names_distinct`, `Out.set_spec`, `Out.setAll_values`, `Out.td_file`, `Out.tdfdm_row`, `Out.cell_position`, `Out.seznam_spec`, `Out.fcmp_zero_of_between`, `Out.listed_spec`, `Out.groups_spec`, `Out.groups_next`, `Out.dump_spec`, `Out.scaledEnergy_mono`, `Tools.linEval_spec`, `Tools.history_irrelevant`, `Tools.trapez_spec`, `Tools.intEval_spec`, `Tools.trapez_integral`, `Tools.intEval_integral`, `Tools.interp_exists`, `Tools.trapezAb_all`, `Tools.trapezAb_cut_wrong`, `Tools.chain_tridiagonal`, `Tools.chain_stop`, `Tools.chain_length`, `Tools.star_weights`, `Tools.star_normalised`, `Tools.epsMesh_antitone`, `Tools.star_normalised_standard`, `Tools.star_nan_not_rejected`, `Tools.merge_spec`, `Tools.merge_order`, `Tools.points_spec`, `Tools.increasing_ext`, `Tools.cumulative_spec`, `Tools.cumulative_mono`, `Inst.evaluates`, `Inst.trailing_rejected`, `Inst.matrix_form`, `Inst.row_form`, `Inst.scalar_form`, `Inst.accepted_is_rectangle`, `Inst.escapes`, `Inst.never_out_of_fuel`, `Inst.decimal_ok`, `Inst.decimal_exponent`, `Inst.chain_functions`, `Inst.channel_out_of_range`, `Config.stages_in_order`, `Config.done_iff_complete`, `Config.measured_exactly_once`, `Config.done_means_all_measured`, `Thermo.fdm_heat_capacity_nonneg`, `Thermo.fdm_thermodynamics_exact`, `Thermo.td_canonical`, `Spin.td_moments`, `Spin.spinSq_mean`, `Spin.doublet_factors_exact`, `Spin.triplet_factors_exact`, `Spin.degeneracy_factors_QSC3`, `Spin.degeneracy_sum_rule_partial`, `Spin.doublet_factors_reject_partial`, `Spin.sqQJ_rejects_partial`, `Spin.dblsu2_not_sumRule`, `Spin.qst_susceptibility_not_sumRule`, `Spin.spsu2t_susceptibility_not_sumRule`, `Spin.spsu2lr_always_throws`, `Spin.unchecked_not_rejects`, `Spin.singlets_not_rejected`, `Num.chitWeight_exact`, `Num.chitWeight_accurate`, `Num.chitWeight_symm_approx`, `Num.chitWeight_not_symm`, `Num.kernel_symm`, `Num.kernel_pos`, `Num.kernel_between`, `Num.fcmp_antisymm`, `Num.fcmp_neg`, `Num.fcmp_eq_zero`, `Num.fcmp_sign`, `Num.numEqual_iff`, `Num.numEqual_self`, `Num.fcmp_not_transitive`, `Text.memory_figure`, `Text.memory_value`, `Text.lastStored_partial`, `Text.usesStored_partial`, `Hop.occupations_match_charge`, `Hop.occupations_match_channel_charge`, `Tools.tdLoad_spec`, `Tools.readFiles_spec`, `Tools.mesh_spec`, `Tools.mesh_exact`, `Tools.tdavg_spec`, `Tools.tdavg_ref_spec`, `Tools.interpolates_exists`, `Tools.intavg_spec`, `Tools.tdLoad_ragged`, `Tools.mesh_zero_repeated`, `Tools.intavg_unordered`, `Tools.Hilb.hilbert_direct`, `Tools.Hilb.hilbert_outside`, `Tools.Hilb.hilbert_inside`, `Tools.Hilb.hilbert_inside_error`, `Tools.Hilb.hilbert_edge_wrong`, `Tools.Hilb.bethe_edge_wrong`, `Tools.Hilb.interpolated_onBand`, `Tools.Hilb.bethe_onBand`, `Tools.Hilb.hilbArg_spec`, `Trunc.nrEigenpairs_spec`, `Trunc.nrEigenpairs_mono`, `Trunc.partial_diag_same_cutoff_partial`, `Diag.prepare_data`, `Diag.lapack_sees_transpose`, `Diag.diagonalise_spec`, `Diag.hermitianOfUpper_hermitian`, `Text.store_names_distinct`, `Text.tmp_names_distinct`, `Text.keepall_spec`, `Text.keepall_space_ignored`, `Param.bool_spellings`, `Num.sigmoid_spec`, `Num.sigmoid_range`, `Num.bose_spec`, `Num.bose_infinite`, `Num.fermiFnc_spec`, `Config.files_available`, `Config.stops_only_on_fault`, `Diag.selectWork_spec`, `Spectral.cfs_total`, `Spectral.fdm_total`, `Spectral.cfs_fermion_partial`, `Spectral.cfs_boson_sign`, `Spectral.dmnrg_total`, `Spectral.dmnrg_symmetric_partial`, `Spectral.dmnrg_complex_wrong`, `Spectral.dmnrg_window`, `Tools.centralMoment_spec`, `Tools.variance_nonneg`, `Hop.make_matrix_complete`, `Hop.site_hops_fit`, `Hop.recalc_rows_fit`, `Hop.qst_hops_partial`, `Hop.qj_out_of_bounds`, `Hop.hop_moves_one_electron`, `Hop.recalc_rows_create_one_electron`, `Hop.hop_moves_same_electron`, `Oper.operator_carried`, `Oper.singlet_carried`, `Oper.losing_lose`, `Oper.singlet_lost`, `Coef.operator_carried_finite`, `Coef.qs3_triplet_stops`, `Coef.qs4_triplet_stops`, `Coef.qstz_triplet_stops`, `Coef.spsu2t_triplet_stops`, `Coef.product_carried_partial`, `Coef.tables_orthonormal`, `Coef.nothingLost`, `Coef.keepsAll_exists`, `Sumrule.fdm_expectation`, `Sumrule.fdm_expectation_step`, `Sumrule.carriedScalar_exists`, `Sumrule.fdm_sum_rule_ls_partial`, `Sumrule.fdm_sum_rule_measured_partial`, `Sumrule.runs_exist`, `Select.spectra_exactly`, `Select.spectra_once`, `Select.spectra_use_carried`, `Select.fdm_values_iff`, `Select.files_distinct_partial`, `Select.fileName_inj`, `Select.files_collide_dash`, `Select.files_collide_kinds`, `DataFile.data_roundtrip`, `DataFile.read_consistent`, `DataFile.version_checked`, `DataFile.negative_count_accepted`, `DataFile.truncation_detected_partial`, `DataFile.truncated_digit_accepted`, `DataFile.truncated_blocks_accepted_cpp`, `Broad.kernel_normalised_partial`, `Broad.broadened_weight_partial`, `Broad.kernel_nonneg`, `Broad.broadened_nonneg`, `Broad.kernel_symmetric`, `Broad.main_kernel_agrees`, `Broad.final_kernels_normalised`, `Broad.final_pass`, `Broad.final_pass_value`, `Broad.zero_peak_loses_weight`, `Broad.accumulation_weight`, `Broad.final_pass_not_conserving`, `Broad.sumrule_integrals`, `Broad.broaden_merged`, `Broad.tool_reproduces_main`, `Broad.moments_agree`, `Kk.kk_principal_value`, `Kk.kk_parity`, `Kk.kk_edge`, `Kk.kk_init`, `Kk.kk_accepts`, `Kk.kk_program`, `Kk.integ_parts`, `Kk.integ_fermi`, `Kk.kk_std_not_only_result`, `Mats.mats_merged`, `Mats.mats_causal`, `Mats.mats_symmetric`, `Mats.mats_output`, `Table.loadAbs_spec`, `Table.loadPairs_takes_text`, `Table.readTable_refuses_crlf`, `Adapt.rhsF_value`, `Adapt.rhsG_value`, `Adapt.energy_closed_form`, `Adapt.energy_in_interval`, `Adapt.weights_reproduce`, `Adapt.average_over_z`, `Adapt.mesh_weight`, `Adapt.mesh_interval`, `Adapt.bounded_only_for_integral`, `Adapt.limit_for_integral`, `Adapt.flat_solution`, `Adapt.flat_step`, `Adapt.timestep_spec`, `Adapt.rk_exponential`, `Adapt.rk_simpson`, `Adapt.intTo_target`, `Adapt.intTo_back`, `Adapt.loop_done`, `Adapt.loop_ends`, `Adapt.calcF_lines`, `Adapt.shoot_lines`, `Adapt.calculations_end`, `Adapt.no_subdivisions_inverted`, `Adapt.no_end_without_step`, `Adapt.max_error_counts_rejected`, `Adapt.secant_exact`, `Adapt.no_shift_divides_by_zero`, `Adapt.rescale_total`, `Adapt.rescale_interp`, `Adapt.addZero_interp`, `Adapt.addZero_total`, `Adapt.addZero_good`, `Adapt.rescale_good`, `Adapt.command_line`, `Adapt.file_not_sign`, `Param.crlf_differs`, `Param.bool_agree`, `Seed.instantiate_read`, `Seed.build_file`, `Seed.energies_nonneg`, `Seed.between_product`, `Seed.between_hamiltonian`, `Seed.interrupted_write_partial`, `Seed.no_run_no_effect`, `Seed.others_untouched`, `Seed.data_kept`, `Seed.data_complete`, `Seed.only_data_created`, `Seed.nothing_removed`, `Seed.input_kept`, `Seed.default_run`, `Seed.parameter_file_removed`, `Seed.own_files_removed`, `Seed.same_parameters`, `Seed.repeated_section`, `Seed.open_header`, `NrgChain.call_history`, `NrgChain.call_file`, `NrgChain.program_call`, `NrgChain.loaded_chain`, `NrgChain.chain_written`, `NrgChain.calculated_chain`, `NrgChain.symmetric_zeta`, `NrgChain.flat_band`, `NrgChain.flat_adapt`, `NrgChain.thrown_nothing_written`, `NrgChain.files_written`, `NrgChain.interrupted`, `NrgChain.two_steps`, `NrgChain.loaded_theta`, `NrgChain.short_table`, `Job.job_result`, `Job.job_no_surprise`, `Job.job_current`, `Job.job_no_deadlock`, `Job.job_terminates`, `Job.job_completes`, `Sweep.sweeps_agree`, `Sweep.second_completes`, `Sweep.resume_undefined`, `Sweep.floquet_second_undefined`, `Bw.bw_result`, `Bw.bw_weight`, `Bw.bw_nonneg`, `Bw.bw_single`, `Bw.bw_scaling`, `Bw.zero_peak_lost`, `Bw.bw_endless`, `Bw.bw_refuses_partial`, `Gemm.gemm_correct`, `Gemm.gemm_range`, `Gemm.product_refines`, `Gemm.transform_refines`, `Gemm.rotate_refines`, `Gemm.rotateDiagonal_refines`, `Gemm.matrixProd_correct`, `Gemm.matrixAdjProd_correct`, `Gemm.prodFit_refines`, `Gemm.prodAdjFit_refines`, `Gemm.gemm_overrun`, `Mx.readBin_cut`, `Mx.diag_spec`, `Mx.diag_refuses`, `Mx.unitary_spec`, `Mx.unitary_output`, `Mx.diag_unitary`, `Mx.diag_ignores_rest`, `Mx.diag_unitary_disagree`, `Mx.readText_shifts`, `Mx.diag_not_symmetric`, `Start.decision_spec`, `Start.scratch_spec`, `Start.scratch_embedded`, `Start.launch_final`, `Start.launch_together`, `Start.launch_all_fail`, `Start.launch_stuck`, `Start.launch_missing`, `Start.prepare_differs`, `Start.scratch_surprises`, `Start.prepare_iff`, `Start.prepare_variable`, `Start.prepare_again`, `Start.prepare_case`, `Start.prepare_unknown`, `Start.scratch_nothing_stored`, `Start.complexData_iff`, `Start.symmetry_selected`, `Start.symmetry_substeps`, `Start.symmetry_substeps_outside`, `Start.symmetry_QJ`, `Resample.resample_accepts`, `Resample.resample_order`, `Resample.resample_values`, `Resample.resample_numbers`, `Resample.resample_self`, `Resample.resample_same_file`, `Resample.resample_twice`, `Resample.resample_nan`, `Resample.resample_one_column`, `Resample.sixteen_digits`, `Calc.parser_evaluates`, `Calc.parser_ends`, `Calc.parser_decides`, `Calc.grammar_trees`, `Calc.parser_prefix`, `Calc.lex_written`, `Calc.program_text`, `Calc.calculator_evaluates`, `Calc.calculator_symbols`, `Calc.argument_dropped`, `Calc.assignment_dropped`, `Calc.integer_range`, `Calc.numbers_misread`, `Calc.unset_zero`, `Calc.division_by_zero`, `Calc.ragged_matrix`, `Calc.long_vector`, `Calc.errors_status`, `Calc.brace_mismatch`, `Calc.same_matrix`, `Calc.argument_differs`, `Calc.unset_differs`, `Calc.pi_differs`, `Calc.division_differs`, `Calc.ragged_differs`, `Cmd.getopt_reads`, `Cmd.getopt_only`, `Cmd.tool_refuses`, `Cmd.main_help`, `Cmd.num_lit`, `Cmd.int_str`, `Cmd.binavg_command`, `Cmd.mats_command`, `Cmd.bw_command`, `Cmd.integ_command`, `Cmd.diag_command`, `Cmd.unitary_command`, `Cmd.matrix_command`, `Cmd.h5write_command`, `Cmd.intavg_command`, `Cmd.tdavg_command`, `Cmd.specmoments_command`, `Cmd.broaden_command`, `Cmd.hilb_command`, `Cmd.resample_command`, `Cmd.bw_defaults`, `Cmd.unknown_ends`, `Cmd.hilb_negative`, `Cmd.hilb_negative_partial`, `Cmd.matrix_V`, `Cmd.hilb_V`, `Cmd.help_needs_number`, `Cmd.integer_prefix`, `Cmd.hilb_scale_text`, `Cmd.hilb_nothing`, `Hrun.hilb_one`, `Hrun.hilb_stream`, `Hrun.hilb_files`, `Hrun.hilbert_value`, `Hrun.semi_normalised`, `Hrun.loadDos_spec`, `Hrun.two_points`, `Hrun.repeated_abscissa`, `Hrun.comment_ends`, `Hrun.output_is_input`, `Hrun.small_labels`, `Hrun.real_axis`, `Zrun.binavg_run`, `Zrun.specmoments_run`, `Zrun.mats_run`, `Zrun.intavg_run`, `Zrun.average_first`, `Zrun.unusable_refused_partial`, `Zrun.wrong_columns`, `Zrun.wrong_columns_weight`, `Zrun.cut_accepted`, `Zrun.empty_counts`, `Zrun.one_of_many`, `Zrun.zero_kept`, `Qrun.tdavg_run`, `Qrun.tdavg_ref_run`, `Qrun.kk_run`, `Qrun.kk_std_run`, `Qrun.integ_run`, `Qrun.integ_halves`, `Qrun.tdavg_others_partial`, `Qrun.kk_others_partial`, `Qrun.blank_refused`, `Qrun.integ_refuses`, `Qrun.earlier_lost`, `Qrun.earlier_lost_missing`, `Qrun.reference_destroyed`, `Qrun.reference_unasked`, `Qrun.words_accepted`, `Qrun.kk_earlier_lost`, `Qrun.kk_same_file`, `Mrun.matrix_run`, `Mrun.matrix_nambu`, `Mrun.matrix_output`, `Mrun.matrix_program`, `Mrun.matrix_file`, `Mrun.chain_to_matrix`, `Mrun.matrix_files_partial`, `Mrun.theta_comment`, `Mrun.table_cut`, `Mrun.nambu_hybrid`, `Mrun.nambu_first_channel`, `Mrun.no_channels`, `Mrun.empty_matrix_line`, `Brun.broaden_run`, `Brun.broaden_mesh`, `Brun.halves_add`, `Brun.broaden_average_first`, `Brun.broaden_files_partial`, `Brun.negative_min_endless`, `Brun.zero_on_mesh`, `Brun.nothing_kept`, `Brun.accumulation_at_max`, `Arun.adapt_settings`, `Arun.adapt_run`, `Arun.adapt_ends`, `Arun.adapt_read_by_nrgchain`, `Arun.adapt_reads`, `Arun.adapt_either_order`, `Arun.adapt_refused_partial`, `Arun.adapt_success_partial`, `Arun.failure_destroys_energies`, `Arun.success_ends_early`, `Arun.no_mesh_without_step`, `Arun.no_step_accepted`, `Raw.raw_names`, `Raw.raw_names_distinct`, `Raw.raw_complete`, `Raw.raw_any_order`, `Raw.raw_file_partial`, `Raw.restart_ends_run`, `Raw.restart_example`, `Raw.slash_in_name`, `Hw.h5write_success`, `Hw.h5write_found`, `Hw.h5write_matrix`, `Hw.session_iff`, `Hw.h5write_any_order`, `Hw.failure_partial`, `Hw.truncate_destroys`, `Hw.truncate_example`, `Hw.text_as_scalar`, `Hw.negative_scalar`, `Wrun.bw_run`, `Wrun.names_distinct`, `Wrun.bw_average_first`, `Wrun.bw_input_partial`, `Wrun.no_iterations`, `Wrun.unreadable_endless`, `Wrun.second_run_overwrites`.

**Quot.sound, propext** (87): `Invar.combine_is_composition`, `Invar.combine_rejects_invalid`, `Symm.u1Equality_spec`, `Symm.z2Equality_spec`, `Subspaces.blocks_consecutive`, `Subspaces.accessors_reject`, `Subspaces.tasks_complete`, `Subspaces.tasks_sorted`, `Trunc.kept_discarded_partition`, `Trunc.complete_never_notEnough`, `Trunc.sort_by_cost_permutes_states`, `Store.eig_roundtrip`, `Store.diag_roundtrip`, `Store.rho_roundtrip`, `Store.saveRho_injective`, `Store.truncated_not_accepted`, `Store.load_all_or_nothing`, `Store.load_after_save`, `Sched.matrix_transfer`, `Sched.result_transfer`, `Sched.pieces_are_rows`, `Sched.worker_answers`, `Param.parseBlock_spec`, `Param.settings_determined`, `Param.lookup_setting`, `Param.order_irrelevant`, `Param.notFound_iff`, `Param.insignificant_iff`, `Param.nextline_spec`, `Config.columns_onto`, `Config.tables_read`, `Config.tables_set`, `Ops.truncate_holds`, `Mat.trim_spec`, `Mat.submatrix_spec`, `Invar.invertMyParity_involution_partial`, `Invar.lt_trans`, `Out.addMany_spec`, `Out.extend_spec`, `Tools.IsInterp.unique`, `Tools.load_incomplete`, `Inst.printable_text`, `Spin.td_subjects`, `Num.fcmp_refl`, `Num.chop_spec`, `Hop.hops_connected`, `Hop.hops_distinct`, `Hop.occupations_complete`, `Tools.tdLoad_rejects`, `Tools.readFiles_empty`, `Param.applyAll_partial`, `Diag.minWork_documented`, `Tools.filter_spec`, `Hop.qj_hop_dropped`, `Hop.qj_uncoupled_added`, `Hop.spsu2t_matrix_not_found`, `Oper.rows_name_ancestors`, `Oper.unfinished_stop`, `Select.ops_iff`, `Table.readTable_file`, `Table.kkRead_file_partial`, `Table.loadPairs_file_partial`, `Table.loadPairs_blank_refused`, `Table.written_read`, `Table.kkRead_comment_loses_data`, `Adapt.timestep_errors`, `Adapt.mesh_found`, `Param.tool_value`, `Param.same_values`, `Job.complete_unique`, `Sweep.collected`, `Sweep.resume_nothing_partial`, `Gemm.gemm_mismatch`, `Mx.readText_layout`, `Mx.readText_range`, `Mx.readText_sizes`, `Mx.matText_read`, `Mx.readBin_read`, `Mx.unitary_mismatch`, `Start.launch_steps`, `Start.scratch_isolated`, `Start.scratch_outside`, `Start.scratch_clean`, `Start.scratch_left`, `Start.symmetry_refused`, `Resample.resample_files`, `Resample.resample_options`.

**propext** (28): `Symm.builtin_triangle_trivial`, `Symm.allowed_physical`, `Store.save_atomic`, `Store.save_can_succeed`, `Store.checkpoints_always_complete`, `Store.decoders_mono`, `Param.comments_ignored`, `Config.second_sweep_on`, `Config.second_sweep_iff`, `Config.recalc_exclusive`, `Config.complete_basis_algorithms`, `Config.keepAllLast_iff`, `Invar.invertParity_always_throws`, `Invar.invertParity_not_involution`, `Invar.lt_irrefl`, `Invar.lt_total`, `Out.row_words`, `Text.resume_never_finds`, `Trunc.partial_diag_misses_states`, `Param.line_without_eq_dropped`, `Hop.u1_nonpolarized_swaps_spin`, `Mx.readText_ragged`, `Start.served_iff`, `Start.symmetry_unknown`, `Start.symmetry_substeps_other`, `Resample.resample_grid`, `Resample.resample_missing`, `Raw.once_of_one_round`.

**none** (5): `Symm.builtin_names_distinct`, `Config.before_first`, `Text.lastStored_gap`, `Hop.hams_cover`, `Param.defaults_unless_exact`.
