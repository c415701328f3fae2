{"id": "C01", "title": "Composing quantum numbers is an abelian group law", "statement": "For any list of quantum-number types (additive, multiplicative parity, modulo 3) combining labels is associative and commutative, the neutral label changes nothing, combining a label with its inverse gives the neutral label, and a combination of well-formed labels is well-formed. A label whose own parity is not +1/-1 or whose own mod-3 component is outside 0..2 is rejected instead of being combined.", "quantifier": "every list of quantum-number types of any length and every pair or triple of labels of that length", "why_tests_cant": "The label space is infinite (unbounded charges) and the number and types of components vary with the symmetry; a test checks a few literals of one symmetry.", "anchors": ["c++/invar.hpp: Invar::combine, Invar::inverse"]}
{"id": "C02", "title": "Ancestors and descendants are dual", "statement": "For every site combination i, subspace I' is the i-th new subspace proposed for I exactly when I is the i-th ancestor listed for I'. Hence no retained state is lost or counted from a wrong origin when the subspaces of the next step are enumerated.", "quantifier": "every list of site quantum-number differences, every well-formed label I, I', every combination index", "why_tests_cant": "Needs to hold for all labels reachable in arbitrarily long runs and for all symmetry tables.", "anchors": ["c++/symmetry.hpp: Symmetry::ancestors, Symmetry::new_subspaces, Symmetry::ancestor", "c++/invar.hpp"]}
{"id": "C03", "title": "The spin triangle test is the angular-momentum coupling rule", "statement": "The multiplicity test accepts (a,b,c) exactly when a, b, c are positive and |Sa-Sb| <= Sc <= Sa+Sb with S=(mult-1)/2; it is invariant under every permutation of its arguments and rejects any non-positive multiplicity. The U(1), parity and C3 tests accept exactly the triples in which the first label is the composition of the other two.", "quantifier": "all integer triples", "why_tests_cant": "Unbounded integers; boundary cases on every side.", "anchors": ["c++/symmetry.hpp: su2_triangle_inequality, u1_equality, z2_equality, c3_equality"]}
{"id": "C04", "title": "Every built-in symmetry table adds exactly one site's Hilbert space", "statement": "For every built-in symmetry type and channel count: for every allowed label I of a retained multiplet, the multiplicities of the descendants that pass the coupling test sum to (number of states of the added site) x multiplicity(I). So adding a site multiplies the total number of states by exactly the site dimension, with no state lost or duplicated.", "quantifier": "every shipped symmetry table and every allowed label (unbounded charge and spin)", "why_tests_cant": "A typo in one of several hundred table lines changes the count only for some labels; regression tests cover a handful of symmetries at small N with truncation active, where a lost state is invisible.", "anchors": ["c++/symmetry/coefnew/*/*-In2.dat", "c++/symmetry/coefnew/*/*-QN.dat", "c++/symmetry/sym-*-impl.hpp: mult, Invar_allowed, triangle_inequality", "c++/core.hpp: SubspaceDimensions"]}
{"id": "C05", "title": "The next step's subspace structure contains every state exactly once", "statement": "Given the retained multiplets of a step, the structure built for the next step lists each allowed descendant label once, its blocks have the sizes of the retained ancestors that couple to it and zero otherwise, and the multiplicity-weighted sum of all block sizes equals site dimension x the multiplicity-weighted number of retained states.", "quantifier": "every finite set of retained subspaces with any sizes, every symmetry satisfying C04", "why_tests_cant": "Quantifies over all spectra and truncations.", "anchors": ["c++/core.hpp: SubspaceStructure, SubspaceDimensions, new_subspaces", "c++/subspaces.hpp"]}
{"id": "C06", "title": "Blocks tile the Hamiltonian matrix", "statement": "In each new subspace the index ranges of the ancestor blocks are pairwise disjoint, in order, and together cover 0..total-1; every row index belongs to exactly one block; 0-based and 1-based accessors agree; an out-of-range block index is rejected.", "quantifier": "every list of block dimensions (including empty blocks) and every index", "why_tests_cant": "Any number of blocks with any sizes.", "anchors": ["c++/subspaces.hpp: SubspaceDimensions::offset, rmax, view, view_mma, part, part_mma, chunk, total"]}
{"id": "C07", "title": "The diagonalisation task list is complete, duplicate-free and largest-first", "statement": "The task list contains each subspace with non-zero dimension exactly once and no other, ordered by non-increasing dimension with ties by decreasing label.", "quantifier": "every subspace structure", "why_tests_cant": "All structures, including empty and tied sizes.", "anchors": ["c++/subspaces.hpp: TaskList, tasks_descending_by_subspace_dimension"]}
{"id": "C08", "title": "Truncation keeps exactly the lowest-cost states", "statement": "After truncation each subspace keeps exactly the states whose cost does not exceed the common cutoff, these are the first states of the subspace, kept and discarded states are disjoint and together are all computed states, and no discarded state anywhere has cost below a kept state anywhere. On the last step with the keep-all option, nothing is discarded.", "quantifier": "every collection of cost-sorted subspaces and every cutoff", "why_tests_cant": "Any number of subspaces, any degeneracies.", "anchors": ["c++/truncation.hpp: truncate_prepare", "c++/eigen.hpp: Eigen::truncate_prepare, kept, discarded"]}
{"id": "C09", "title": "The number of states kept respects keepmin, keep, keepenergy and the safeguard", "statement": "The cutoff is a cost that occurs in the spectrum. Counting over all subspaces, at least min(keepmin, number of states) states survive; without the safeguard the number of retained levels is clamp(1 + number of costs <= keepenergy, keepmin, keep) up to exact ties; the safeguard extends it by at most safeguardmax levels and stops at the first gap larger than safeguard.", "quantifier": "every non-empty multiset of costs and every setting with keepmin <= keep", "why_tests_cant": "All spectra and parameter values; partial-sort fast paths and early exits must agree with the full sort.", "anchors": ["c++/truncation.hpp: highest_retained, keepall"]}
{"id": "C10", "title": "Partial diagonalisation is retried until enough states are available", "statement": "If a step does not compute enough states for the truncation the step is repeated with a larger fraction; with restartfactor > 1 the retry sequence terminates after finitely many attempts and the fraction never exceeds 1; with fraction 1 the 'not enough' condition cannot arise. A step whose spectrum is read from a checkpoint is not allowed to loop.", "quantifier": "every starting fraction in (0,1], every restartfactor, every diagonaliser behaviour", "why_tests_cant": "Termination over all parameter values.", "anchors": ["c++/core.hpp: do_diag, load_or_compute_diag", "c++/truncation.hpp: NotEnough"]}
{"id": "C11", "title": "Removing round-off splittings is a bounded, order-preserving merge", "statement": "Energies within a window of the first member of a cluster are all mapped to that first member: no energy moves up, none moves by as much as the threshold, the order of energies is preserved, cluster representatives are unchanged (the operation is idempotent), and energies in different clusters stay at least the threshold apart.", "quantifier": "every finite list of energies and every positive threshold", "why_tests_cant": "Chains of near-degenerate levels of any length.", "anchors": ["c++/splitting.hpp: Clusters, cluster_splitting, fix_splittings"]}
{"id": "C12", "title": "Sorting by cost permutes states as units", "statement": "Sorting the eigenpairs by truncation cost applies one and the same permutation to costs, energies, corrected energies and eigenvectors; the result is sorted by cost and is a rearrangement of the input states.", "quantifier": "every list of eigenpairs", "why_tests_cant": "Any size and any pattern of ties.", "anchors": ["c++/eigen.hpp: perform_sort_by_c", "c++/diag.hpp: sort_eigenpairs_by_value"]}
{"id": "C13", "title": "A stored spectrum reads back as written", "statement": "Saving a subspace's spectrum, vectors, blocks and counters and loading it again yields the same values, in the same order, consuming exactly the bytes written; the same for a complete map of subspaces.", "quantifier": "every record of any size", "why_tests_cant": "All sizes and contents; includes values such as empty blocks.", "anchors": ["c++/eigen.hpp: Values::save/load, Vectors::save/load, Blocks::save/load, Eigen::save/load, DiagInfo::save/load", "c++/numerics_Eigen.hpp: save, load"]}
{"id": "C14", "title": "Checkpoint writing is crash-atomic", "statement": "If the process dies at any point while a checkpoint is being written, the checkpoint file is either the previous complete version (or absent if there was none) or the new complete version, never a partial one. When the writer reports success the file is the new version. A reported failure leaves the previous version in place and no temporary file behind.", "quantifier": "every crash point, every previous file-system content, every failure of an individual operation", "why_tests_cant": "Crash points cannot be enumerated by a test of the API.", "anchors": ["c++/eigen.hpp: DiagInfo::save"]}
{"id": "C15", "title": "Loading a checkpoint is all-or-nothing", "statement": "Loading either replaces the whole in-memory spectrum by the file's contents or throws and leaves the in-memory spectrum untouched; when removal after loading is requested the file is deleted only after it was read completely, and a failure to delete does not lose data.", "quantifier": "every file content (complete, truncated, absent) and every in-memory state", "why_tests_cant": "All failure points.", "anchors": ["c++/eigen.hpp: DiagInfo::load"]}
{"id": "C16", "title": "Matrices sent row by row between processes arrive unchanged", "statement": "Sending a Hamiltonian or an eigenproblem result to another process row by row and receiving it reproduces the dimensions and every element.", "quantifier": "every matrix of any shape, including zero rows or columns", "why_tests_cant": "All shapes.", "anchors": ["c++/diag_mpi.hpp: send_matrix, receive_matrix, send_raweigen, receive_raweigen"]}
{"id": "C17", "title": "Distributed diagonalisation is schedule-independent", "statement": "For every number of workers and every order in which workers finish, the master/worker scheduler hands out every task exactly once, never gives two tasks to one busy worker, ends with all tasks done, and the collected result equals the serial result.", "quantifier": "every task list, every number of workers, every interleaving of completions and polls", "why_tests_cant": "The set of interleavings is unbounded.", "anchors": ["c++/diag_mpi.hpp: DiagMPI::diagonalisations", "c++/diag_serial.hpp"]}
{"id": "C18", "title": "Threaded diagonalisation is order-independent", "statement": "Executing the tasks in any order with insertions into the shared result under mutual exclusion yields the same map as the serial loop.", "quantifier": "every task list and every completion order", "why_tests_cant": "All thread schedules.", "anchors": ["c++/diag_openmp.hpp", "c++/diag_serial.hpp"]}
{"id": "C19", "title": "Parameter files are read block-wise with no silent loss of settings", "statement": "For every input text, the parser returns exactly the key=value lines of the requested [block] with surrounding white space removed and comments and blank lines ignored; a missing block and a duplicate keyword are reported as errors; the order of the lines of a block does not matter; a list of settings written out as a block is read back unchanged.", "quantifier": "all input texts and block names", "why_tests_cant": "Arbitrary arrangements of blocks, comments, white space and keys.", "anchors": ["c++/misc.hpp: nextline, parse_block, find_block, parser"]}
{"id": "C20", "title": "Derived calculation flags are consistent with the requested algorithms", "statement": "The matrix-element recalculation mode, the use of the density-matrix second pass and the full-Fock-space bookkeeping follow from the requested algorithms: each algorithm that needs the reduced density matrix turns the second pass on, at most one of 'recompute for kept states' and 'recompute for all states' is active at a time, and if nothing needs it the second pass is off.", "quantifier": "every combination of the boolean switches", "why_tests_cant": "2^n combinations of switches.", "anchors": ["c++/params.hpp: do_recalc_all, do_recalc_kept, do_recalc_none, cfs_flags, fdm_flags, dmnrg_flags, cfs_or_fdm_flags, dm_flags, keep_all_states_in_last_step, need_rho, need_rhoFDM"]}
{"id": "C21", "title": "Coefficient tables address distinct storage for distinct meanings", "statement": "For every symmetry class of coefficients the spin/channel index arithmetic maps different (channel, spin component) pairs to different columns within the declared number of columns, and reading outside the table is reported.", "quantifier": "every channel count and every channel/spin combination", "why_tests_cant": "All channel counts.", "anchors": ["c++/coef.hpp: coef_table, set_of_tables, xiUP, xiDOWN, xiUPDO, xiDOUP", "c++/params.hpp: coeffactor, coefchannels"]}
{"id": "C22", "title": "Energy scales form the geometric sequence implied by the discretisation", "statement": "For every discretisation scheme the scale of step N+1 equals the scale of step N divided by the step scale factor, scales are positive and strictly decreasing for Lambda>1, and rescaling an energy to the next step and back is the identity.", "quantifier": "every Lambda>1, twist z, channel count, step N", "why_tests_cant": "All N and all real parameter values.", "anchors": ["c++/params.hpp: SCALE, nrg_step_scale_factor, getEfactor", "c++/step.hpp: scale, unscale"]}
{"id": "C23", "title": "Step bookkeeping visits every iteration once", "statement": "Stepping from the first to the last iteration visits each index in [Ninit, Nmax) exactly once in order, in the first and second sweeps alike; first/last are true exactly at the ends; with substeps the (site, channel) decomposition of the index is a bijection with channel < channels.", "quantifier": "every Ninit < Nmax and channel count", "why_tests_cant": "All chain lengths.", "anchors": ["c++/step.hpp: Step::init, next, end, first, last, NM, firstsubstep"]}
{"id": "C24", "title": "Absolute energies are consistent across steps", "statement": "For every history of steps, the total energy assigned to a state equals its rescaled eigenvalue plus the sum of all earlier ground-state shifts, the lowest state of each step is at zero after the shift, and energies referenced to the final ground state differ from total energies by one constant for all states of all steps.", "quantifier": "every sequence of spectra, scales and shifts of any length", "why_tests_cant": "All histories.", "anchors": ["c++/eigen.hpp: Values::abs_T, abs_G, rel_zero", "c++/core.hpp: calculate_spectrum/after_diag energy bookkeeping", "c++/store.hpp: shift_abs_energies", "c++/stats.hpp"]}
{"id": "C25", "title": "Full-density-matrix weights of the steps add up to one", "statement": "The weight attributed to each step equals the share of the partition function carried by the states discarded at that step (all states at the last), degenerate environment included, and these weights sum to 1.", "quantifier": "every history of spectra with at least one discarded or final state", "why_tests_cant": "All histories and temperatures.", "anchors": ["c++/measurements.hpp: calc_ZnD", "c++/store.hpp"]}
{"id": "C26", "title": "Reduced density matrices keep trace one through the backward sweep", "statement": "Tracing out one site maps a density matrix with multiplicity-weighted trace one to one with multiplicity-weighted trace one, symmetric (Hermitian) input to symmetric output, and positive semidefinite input to positive semidefinite output, for every set of isometric (row-orthonormal) transformation blocks.", "quantifier": "every chain length, subspace structure and set of eigenvectors", "why_tests_cant": "All sizes and all eigenvectors.", "anchors": ["c++/dmnrg.hpp: calc_densitymatrix_iterN, cdmI, init_rho"]}
{"id": "C27", "title": "The full density matrix has the right trace at each step", "statement": "At each step of the backward sweep the trace of the reduced full density matrix over kept states equals the sum of the weights of all later steps; adding the discarded states' weights of the step reproduces one at the first step.", "quantifier": "every chain length and history", "why_tests_cant": "All sizes and histories.", "anchors": ["c++/dmnrg.hpp: init_rho_FDM, calc_fulldensitymatrix_iterN"]}
{"id": "C28", "title": "Boltzmann initial density matrix is normalised", "statement": "The density matrix formed at the last step has multiplicity-weighted trace one, is diagonal with entries in (0,1], and lower energies have at least the weight of higher ones.", "quantifier": "every final spectrum and temperature", "why_tests_cant": "All spectra.", "anchors": ["c++/dmnrg.hpp: init_rho", "c++/measurements.hpp: grand_canonical_Z"]}
{"id": "C29", "title": "Lesser and greater spectra add up to the full spectrum and count every transition once", "statement": "For the full-density-matrix algorithm, the spectral contributions of the full calculation equal those of the 'greater' plus the 'lesser' calculations up to the statistics sign; each pair of states in which at least one state is discarded is counted exactly once and pairs of two kept states are never counted.", "quantifier": "all pairs of subspaces of any sizes, all kept/discarded boundaries, all matrix elements", "why_tests_cant": "All sizes and boundaries.", "anchors": ["c++/algo_FDM.hpp: Algo_FDMls, Algo_FDMgt, Algo_FDM"]}
{"id": "C30", "title": "Complete-Fock-space lesser and greater parts add up", "statement": "For the complete-Fock-space algorithm the contributions of the full calculation equal those of the greater plus the lesser calculations, on intermediate and on last steps.", "quantifier": "all pairs of subspaces of any sizes and all matrix elements", "why_tests_cant": "All sizes.", "anchors": ["c++/algo_CFS.hpp"]}
{"id": "C31", "title": "Binning a delta peak conserves its weight and mean position", "statement": "Adding a peak to the logarithmic bin grid splits its weight between at most two adjacent bins whose total is the weight; nothing is lost at the low- and high-energy ends; negative weights and zero weights behave the same.", "quantifier": "every energy, weight and grid resolution", "why_tests_cant": "Floating grid boundaries and extreme energies.", "anchors": ["c++/bins.hpp: Bins::add_std, Bins::add, loggrid_std"]}
{"id": "C32", "title": "Merging and trimming spectra conserve total weight", "statement": "Merging two binned spectra adds bin by bin, so total weight is additive and merging is commutative and associative; trimming keeps the order, the last bin and every bin whose weight reaches the threshold, and the weight it removes is bounded by the threshold times the removed energy range.", "quantifier": "all pairs of bin vectors / all point lists", "why_tests_cant": "All contents.", "anchors": ["c++/bins.hpp: Bins::merge, Bins::trim", "c++/spectrum.hpp: ChainBinning, merge"]}
{"id": "C33", "title": "Patching windows of consecutive steps form a partition of unity", "statement": "When the spectra of successive steps are patched with linear or smooth windows, at every energy in the interior the window weights of the overlapping steps sum to one, so overlapping contributions are neither double counted nor dropped; this should hold for every supported patching scheme and number of channels.", "quantifier": "every energy and every admissible window geometry", "why_tests_cant": "Continuum of energies.", "anchors": ["c++/spectrum.hpp: windowfunction, mergeNN2", "c++/params.hpp: getE0, getEmin, getEx, getEmax"]}
{"id": "C34", "title": "The output mesh is strictly geometric within its bounds", "statement": "The frequency mesh used for output is strictly monotone, all points lie in the requested range, neighbouring points have the requested ratio, and its construction terminates.", "quantifier": "every range and ratio > 1", "why_tests_cant": "All parameter values.", "anchors": ["c++/spectrum.hpp: make_mesh", "tools/broaden/broaden.hpp: make_mesh"]}
{"id": "C35", "title": "Accumulating temperature-dependent results merges equal temperatures", "statement": "Results accumulated at the same temperature are added into one entry, different temperatures stay separate in order of first appearance, and the total is the sum of everything accumulated, whatever the order.", "quantifier": "every sequence of accumulated values", "why_tests_cant": "All sequences.", "anchors": ["c++/spectrum.hpp: Temp::add_value"]}
{"id": "C36", "title": "Imaginary-frequency results merge additively on the right grid", "statement": "Fermionic grid points are odd multiples and bosonic ones even multiples of pi T, all distinct and increasing; merging contributions adds the values point by point and requires equal grids.", "quantifier": "every index, temperature and pair of accumulators", "why_tests_cant": "All indices.", "anchors": ["c++/matsubara.hpp: ww, Matsubara::add, Matsubara::merge"]}
{"id": "C37", "title": "Operator matrices transform consistently to the new basis", "statement": "Recomputing an operator in the truncated new basis from its blocks in the old basis equals conjugating the block-assembled operator by the eigenvector matrix; in particular the identity operator stays the identity when the eigenvectors are orthonormal, and the result is linear in the operator.", "quantifier": "every block structure, eigenvector set and operator", "why_tests_cant": "All sizes.", "anchors": ["c++/recalc.hpp: recalc_general, recalc_f", "c++/symmetry.hpp: recalc_singlet", "c++/eigen.hpp: split_in_blocks"]}
{"id": "C38", "title": "Matrix helpers have their documented meaning on every shape", "statement": "Products that trim mismatched operands equal the product with the larger operand restricted to the common index range; rotating a diagonal operator by the specialised routine equals the general rotation; the trace-contraction equals the trace of the product.", "quantifier": "all matrix shapes and entries", "why_tests_cant": "All shapes.", "anchors": ["c++/numerics.hpp: trim_matrix, prod_fit_left, prod_fit_right, prod_fit, trace_contract", "c++/numerics_Eigen.hpp: transform, rotate, rotate_diagonal"]}
{"id": "C39", "title": "Parity inversion of a label works and is an involution", "statement": "For symmetries with a parity quantum number, inverting the parity of a label returns a label differing only in the sign of the parity, and doing it twice gives the original.", "quantifier": "every label of a parity-carrying symmetry", "why_tests_cant": "All labels.", "anchors": ["c++/invar.hpp: Invar::InvertParity, Invar::InvertMyParity, Invar(const InvType&)"]}
{"id": "C40", "title": "Labels survive text output and input", "statement": "Writing a label as text and reading it back with the same number of components gives the same label; names of different labels of one symmetry are different, and the ordering of labels is a strict total order.", "quantifier": "every label", "why_tests_cant": "All integers and lengths.", "anchors": ["c++/invar.hpp: insertor, extractor, name, operator<"]}
{"id": "C41", "title": "Output columns never shift", "statement": "Every value set for a named output column appears in that column in every row, columns keep the order in which they were declared, setting a value for an unknown column is an error, and the number of fields per row equals the header's.", "quantifier": "every sequence of declarations and assignments", "why_tests_cant": "All sequences.", "anchors": ["c++/outfield.hpp: Outfield, Allfields"]}
{"id": "C42", "title": "The annotated level listing accounts for every reported state once", "statement": "The annotated spectrum lists the lowest states in order of energy, never splits a degenerate group at the cut, and the reported degeneracies sum to the multiplicity-weighted number of listed states.", "quantifier": "every spectrum and cut", "why_tests_cant": "All degeneracy patterns.", "anchors": ["c++/output.hpp: Annotated::dump", "c++/numerics.hpp: my_fcmp"]}
{"id": "C43", "title": "Tabulated-function interpolation does not depend on the query history", "statement": "The value returned by the interpolator at a point depends only on the table and the point: it is the piecewise-linear interpolant (constant outside the range), whatever queries were made before, and no query on a strictly increasing table fails; its integral companion is the exact antiderivative of the interpolant.", "quantifier": "every strictly increasing table, every finite history of queries and every point", "why_tests_cant": "The interpolator caches its last interval; histories are unbounded.", "anchors": ["tools/common/linint.hpp: LinIntBase::findindex, operator(), IntLinIntBase::operator()", "tools/common/calc.hpp: integrate_trapezoidal"]}
{"id": "C44", "title": "The Wilson chain coefficients are the exact tridiagonal form of the discretised bath", "statement": "In exact arithmetic the produced orthonormal vectors satisfy the three-term recurrence with the reported on-site energies and hoppings, remain orthonormal for every chain length, and the hoppings are non-negative; the squared hopping never becomes negative.", "quantifier": "every discretisation (any number of intervals) and every chain length for which no hopping vanishes", "why_tests_cant": "All sizes; induction over the chain.", "anchors": ["tools/nrgchain/nrgchain.cc: tridiag, fix_norm", "c++/tridiag.hpp"]}
{"id": "C45", "title": "The discretised hybridisation weights are normalised by construction", "statement": "The interval weights telescope: their sum equals the total hybridisation weight used for normalisation, so the squared couplings sum to one exactly and the built-in checksum test passes whenever the total is positive.", "quantifier": "every hybridisation function, mesh and number of intervals", "why_tests_cant": "All inputs.", "anchors": ["tools/nrgchain/nrgchain.cc: tables"]}
{"id": "C46", "title": "Averaging over twist parameters conserves spectral weight", "statement": "Merging the raw spectra of Nz calculations gives, at each frequency, the mean of the weights found there (missing = 0); the total weight is the mean of the totals; the result does not depend on the order of files or of points in a file, and frequencies come out strictly increasing.", "quantifier": "every list of raw spectra", "why_tests_cant": "All inputs and orders.", "anchors": ["tools/binavg/binavg.hpp: merge", "tools/broaden/broaden.hpp: merge", "tools/mats/mats.cc: merge", "tools/specmoments/specmoments.cc: merge"]}
{"id": "C47", "title": "The cumulative spectrum is the weight below each mesh point", "statement": "At each mesh point the cumulative spectrum equals the total weight of peaks strictly below it; for non-negative weights it is non-decreasing along the mesh.", "quantifier": "every sorted spectrum and every sorted mesh", "why_tests_cant": "All inputs; a two-pointer sweep must equal the definition.", "anchors": ["tools/broaden/broaden.hpp: calc_cumulative"]}
{"id": "C48", "title": "Matrix templates evaluate with ordinary precedence", "statement": "Evaluating the text of an arithmetic expression gives its mathematical value with left-associative + - and * /, unary minus binding tighter than * and /, parentheses respected; every rectangular list of lists gives the matrix with those entries; ragged or mixed lists, trailing text, division by zero and unknown names are errors.", "quantifier": "every expression tree and every matrix of expressions", "why_tests_cant": "Unbounded nesting.", "anchors": ["tools/instantiate/matrix_evaluator.hpp: parse_expression, parse_product, parse_unary, parse_primary, parse_value, to_matrix"]}
{"id": "C49", "title": "The completion marker is written only after all requested sweeps", "statement": "The file that signals completion is created only after the first sweep, and, when requested, the density-matrix sweeps and second spectral sweep finished; if any stage throws, it is not created; stages run in the documented order.", "quantifier": "every combination of requested stages and every failure point", "why_tests_cant": "All failure points.", "anchors": ["c++/nrg-general.hpp: NRG_calculation, run_phase"]}
{"id": "C50", "title": "Heat capacity and fluctuations are non-negative", "statement": "For every spectrum and temperature the reported heat capacity is a non-negative variance and the reported free energy, energy and entropy satisfy F = E - T S.", "quantifier": "every finite spectrum with positive weights", "why_tests_cant": "All spectra.", "anchors": ["c++/measurements.hpp: calculate_TD, fdm_thermodynamics"]}
{"id": "C51", "title": "Spin moment contribution of a multiplet is that of its components", "statement": "The <Sz^2> weight used for a spin multiplet equals the sum over its components of m^2 divided by the multiplicity, and for the Sz-resolved symmetries equals m^2.", "quantifier": "every spin multiplicity", "why_tests_cant": "All spins.", "anchors": ["c++/symmetry/sym-QS-impl.hpp: calculate_TD", "c++/symmetry/sym-*-impl.hpp"]}
{"id": "C52", "title": "Spin-degeneracy factors in spectral functions satisfy the sum rule", "statement": "The degeneracy factors used for spin-doublet spectral functions obey (factor to S+1/2) + (factor to S-1/2) = multiplicity of the source multiplet, and those for the spin susceptibility add up over the allowed final spins to the multiplicity; forbidden combinations are rejected.", "quantifier": "every spin", "why_tests_cant": "All spins.", "anchors": ["c++/symmetry/sym-QS-impl.hpp: specdens_factor, dynamicsusceptibility_factor", "c++/symmetry/sym-*-impl.hpp"]}
{"id": "C53", "title": "The susceptibility kernel is symmetric and positive", "statement": "The weight for a pair of levels in the static susceptibility equals the exact kernel (the integral over imaginary time of the two Boltzmann factors) outside the near-degenerate window and agrees with it to a relative accuracy exp(+-1e-8) inside; hence it is positive, lies between the two Boltzmann factors up to that accuracy, is symmetric in the two levels outside the window and symmetric to relative accuracy exp(+-2e-8) inside.", "quantifier": "all pairs of energies and temperatures", "why_tests_cant": "Continuum of pairs; switch point.", "anchors": ["c++/numerics.hpp: chit_weight"]}
{"id": "C54", "title": "Tolerance-based comparison is consistent", "statement": "The comparison used to detect degenerate energies is antisymmetric and reflexive, invariant under a common sign flip, and never reports two numbers equal whose relative difference exceeds the tolerance unless both are below the absolute floor.", "quantifier": "all pairs of numbers", "why_tests_cant": "All magnitudes.", "anchors": ["c++/numerics.hpp: my_fcmp, num_equal"]}
{"id": "C55", "title": "Human-readable memory figures denote the measured number", "statement": "Inserting digit-group marks does not change the number: removing the marks gives back the decimal digits, marks stand exactly every three digits from the right, and there is no leading mark.", "quantifier": "every digit string", "why_tests_cant": "All lengths.", "anchors": ["c++/time_mem.hpp: format_memory_usage"]}
{"id": "C56", "title": "Resuming from stored iterations finds the last stored iteration", "statement": "When resuming, the reported last stored iteration is the largest N such that a stored file exists for N (and for every earlier iteration), and none when no file exists.", "quantifier": "every set of stored files and chain length", "why_tests_cant": "All directory contents.", "anchors": ["c++/params.hpp: init_laststored", "c++/workdir.hpp"]}
{"id": "C57", "title": "Hamiltonian tables couple only compatible blocks", "statement": "For every built-in symmetry each hopping entry couples two different site combinations whose quantum numbers differ by exactly one electron operator, each unordered pair occurs at most once per channel, and each diagonal occupation entry equals the occupation implied by the site charge.", "quantifier": "every shipped Hamiltonian table", "why_tests_cant": "Hundreds of table lines.", "anchors": ["c++/symmetry/coefnew/*/*-offdiag*.dat", "c++/symmetry/coefnew/*/*-diag.dat", "c++/core.hpp: offdiag_function_impl, diag_function_impl"]}
{"id": "C58", "title": "Averaging over data sets interpolates on the merged mesh", "statement": "The averaged thermodynamic table contains one row per distinct temperature found in any data set (temperatures that agree to a relative accuracy of 1e-6 count as one, represented by the smallest), in increasing order, and each entry is the mean over data sets of the interpolated columns (minus the mean of the reference data when given).", "quantifier": "every collection of data blocks", "why_tests_cant": "All inputs.", "anchors": ["tools/tdavg/tdavg.cc: merge_meshes, avg", "tools/intavg/intavg.cc"]}
{"id": "C59", "title": "Hilbert transform limits cover the whole band", "statement": "For every complex argument the transform computed by singularity subtraction integrates over the whole band exactly once, including arguments whose real part coincides with a band edge.", "quantifier": "every band half-width and every complex argument", "why_tests_cant": "Measure-zero special cases are never hit by random tests.", "anchors": ["tools/hilb/hilb.hpp: hilbert_transform calcA, reQ, imQ"]}
{"id": "C60", "title": "Reduced diagonalisation computes the requested number of lowest eigenpairs", "statement": "The number of eigenpairs requested for a matrix of dimension n and fraction r is ceil(r n) clamped to 1..n; it is n when r>=1, at least 1 always, and non-decreasing in r and n.", "quantifier": "all dimensions and fractions", "why_tests_cant": "All values.", "anchors": ["c++/diag.hpp: diagonalise_dsyevr, diagonalise_zheevr"]}
{"id": "C61", "title": "An accepted partial diagonalisation keeps the states a complete one would keep", "statement": "If a step computes only the lowest part of each subspace's spectrum and is accepted, the cutoff is the one the complete spectra would have given and every state with cost below the cutoff is among the kept states.", "quantifier": "every collection of complete spectra and every number of computed states per subspace", "why_tests_cant": "All spectra and all patterns of partially computed subspaces.", "anchors": ["c++/truncation.hpp: truncate_prepare, NotEnough", "c++/core.hpp: do_diag"]}
{"id": "C62", "title": "Eigenvectors diagonalise the Hamiltonian block whatever the storage order", "statement": "The matrix built row by row with its upper triangle filled is handed to a column-major routine as a lower triangle; the eigenvalues and (row) eigenvectors stored satisfy v H = E v with orthonormal rows for the Hermitian matrix H that the upper triangle determines, in the real and the complex case.", "quantifier": "all Hermitian matrices; any solver that meets the LAPACK contract", "why_tests_cant": "Storage conventions and complex conjugation must be right for every matrix, not only for real symmetric examples.", "anchors": ["c++/diag.hpp: diagonalise_dsyev, diagonalise_zheev, copy_vec"]}
{"id": "C63", "title": "Stored files of different iterations and kinds never share a name", "statement": "The names of the files holding eigenvectors, reduced density matrices and full density matrices are different for different iterations and different kinds, and the temporary name used while writing differs from every final name.", "quantifier": "all iteration numbers", "why_tests_cant": "Unbounded iteration numbers, all pairs.", "anchors": ["c++/workdir.hpp: unitaryfn, rhofn", "c++/eigen.hpp: DiagInfo::save", "c++/operators.hpp: DensMatElements::save"]}
{"id": "C64", "title": "Every setting in the parameter file is used or reported", "statement": "Each significant line of the parameter block either defines the value of a declared parameter, or is reported as an error or as an unused setting.", "quantifier": "all parameter blocks and parameter declarations", "why_tests_cant": "All texts; a silently dropped line changes the physics without notice.", "anchors": ["c++/misc.hpp: parse_block", "c++/params.hpp: Params constructor, parametric::set_str"]}
{"id": "C65", "title": "The selection of iterations in which all states are retained is taken as written", "statement": "With an empty selection no iteration retains all states; even and odd select by parity; a comma-separated list of numbers selects exactly the listed iterations (written without spaces; an item with a space is ignored).", "quantifier": "all iteration numbers and all lists of numbers", "why_tests_cant": "Unbounded numbers and lists.", "anchors": ["c++/truncation.hpp: keepall", "c++/misc.hpp: split"]}
{"id": "C66", "title": "On/off settings have a fixed set of spellings", "statement": "A boolean setting is accepted exactly if, apart from surrounding white space and upper/lower case, it is 1, true, yes, 0, false or no, and has the corresponding value; everything else is rejected.", "quantifier": "all strings", "why_tests_cant": "All strings.", "anchors": ["c++/basicio.hpp: from_string<bool>"]}
{"id": "C67", "title": "Numerically safe Fermi and Bose factors equal the plain formulas", "statement": "The branch-wise evaluation of 1/(1+exp(-x)) and 1/(1-exp(-x)) agrees with the plain formula for every argument, up to an explicitly bounded difference (half an epsilon, resp. one epsilon) where an expansion or cut-off is used; a value is infinite only at the pole or where the plain formula exceeds the largest double.", "quantifier": "all real arguments", "why_tests_cant": "All real arguments and branch boundaries.", "anchors": ["c++/spectral.hpp: sigmoid, inv_one_minus_exp_neg, fd_fermi, fd_bose"]}
{"id": "C68", "title": "A run never looks for a stored file it has not written", "statement": "For every combination of requested calculations, each stored file read in the backward pass or the second sweep was written earlier in the same run and has not been removed since; with removal of temporary files on, nothing read by the second sweep remains, and files of other iterations are never touched.", "quantifier": "every combination of switches, every Ninit < Nmax, every set of files present at the start, every failure point", "why_tests_cant": "All combinations of switches with all chain lengths.", "anchors": ["c++/nrg-general.hpp: NRG_calculation, prepare_rho, prepare_rhoFDM", "c++/dmnrg.hpp: calc_densitymatrix, calc_fulldensitymatrix", "c++/measurements.hpp: calculate_spectral_and_expv_impl", "c++/core.hpp: load_or_compute_diag, after_diag"]}
{"id": "C69", "title": "Workspaces handed to the eigensolver are never too small", "statement": "For every matrix size the work arrays passed to the eigensolvers have at least the documented minimal length and fit the solver's integer type, with or without the memory-saving switch; the calculation is refused exactly when even the minimum does not fit, and the size formulas never wrap around.", "quantifier": "every matrix size that fits a 32-bit integer, every suggested optimal size, every allocation limit", "why_tests_cant": "Overflow appears only for matrices far too large to diagonalise in a test.", "anchors": ["c++/diag.hpp: select_workspace_size, dsyev_min_lwork, dsyevd_min_lwork, zheevd_min_lrwork, checked_lapack_int"]}
{"id": "C70", "title": "Complete-Fock-space and full-density-matrix algorithms add the same total weight on intermediate steps", "statement": "On every intermediate step the total spectral weight that the complete-Fock-space algorithm adds for a pair of subspaces is the one prescribed by the reduced density matrix, Tr[rho A+ B] minus (bosons) or plus (fermions) Tr[rho B A+] over transitions between kept and discarded states, and hence agrees with the full-density-matrix algorithm, for fermionic and for bosonic operators.", "quantifier": "all matrix elements, density matrices, kept/discarded boundaries, both statistics", "why_tests_cant": "A sign that depends on the statistics and on the position in the chain is visible only in particular combinations of operator type and algorithm.", "anchors": ["c++/algo_CFS.hpp: Algo_CFSls::calc, Algo_CFSgt::calc", "c++/algo_FDM.hpp: Algo_FDM::calc"]}
{"id": "C71", "title": "DMNRG weights follow from the density matrix for real and complex calculations", "statement": "The total weight added by the density-matrix NRG algorithm for a pair of subspaces is Tr[A+ B rho] minus (bosons) or plus (fermions) Tr[rho B A+] over the kept states, for real and for complex density matrices.", "quantifier": "all matrix elements, real symmetric and complex Hermitian density matrices, all sizes", "why_tests_cant": "A transposed density matrix is invisible in every real calculation.", "anchors": ["c++/algo_DMNRG.hpp: Algo_DMNRG::calc"]}
{"id": "C72", "title": "Filtering and moments of raw spectra", "statement": "Filtering keeps every frequency and exactly the weights inside the window of absolute frequencies and of the requested signs (others become zero); the reported central moments are the usual combinations of the raw moments of the normalised spectrum; the variance of a non-negative spectrum is never negative and a spectrum of zero total weight is refused.", "quantifier": "every spectrum and every window", "why_tests_cant": "All inputs.", "anchors": ["tools/specmoments/specmoments.cc: filter, moment, central moments"]}
{"id": "C73", "title": "Building the Hamiltonian finds every operator block it needs", "statement": "After the electron operators of the previous step have been recalculated, building the Hamiltonian of any new subspace adds, for every hopping entry with two non-empty blocks, a stored matrix of exactly the size of the block; it never throws on a missing matrix, never skips such an entry and never reads outside its tables. The same holds for the products formed in the recalculation itself and for hopping between orbitals of the added site.", "quantifier": "every built-in symmetry and Hamiltonian variant, every set of retained subspaces with any dimensions, every new subspace", "why_tests_cant": "Unboundedly many spectra and labels; tests cover few symmetries and short chains.", "anchors": ["c++/matrix.hpp: offdiag_function_impl, offdiag_function", "c++/recalc.hpp: recalc_f", "c++/symmetry/sym-QJ-impl.hpp: offdiag_function_QJ", "c++/symmetry/sym-SPSU2T-impl.hpp", "c++/symmetry/sym-QST-impl.hpp"]}
{"id": "C74", "title": "Hopping conserves electron number, channel and spin", "statement": "Each ordinary hopping entry removes from the site exactly one electron of the channel (and spin, where resolved) that the operator it is combined with creates on the chain according to its own recalculation table; pairing entries add that electron instead.", "quantifier": "every shipped Hamiltonian table and recalculation table", "why_tests_cant": "Thousands of table lines in several code variants.", "anchors": ["c++/symmetry/coefnew/*/*-offdiag*.dat", "c++/symmetry/coefnew/*/*-spin*.dat", "c++/symmetry/sym-U1-impl.hpp: make_matrix_nonpolarized, recalc_irreduc"]}
{"id": "C75", "title": "Operators keep all their blocks from one step to the next", "statement": "When an operator (singlet, spin doublet, spin triplet, orbital triplet or quadruplet) is carried over to the next step, the result has exactly one matrix, of the right size, for every pair of retained subspaces that its quantum numbers can connect and none for any other pair; each such matrix combines exactly the listed pairs of blocks whose states come from subspaces the operator connected before, the labels in the tables always agree with the true ancestors, and the added site is left alone. No assertion about labels or sizes can fail.", "quantifier": "every built-in symmetry, every kind of operator it supports, every spectrum before and after the step, every operator", "why_tests_cant": "Unboundedly many spectra and labels; more than ten thousand table lines, most of them for symmetries no test exercises.", "anchors": ["c++/symmetry/nrg-recalc-*.hpp: recalc_doublet, recalc_triplet, recalc_orb_triplet, recalc_quadruplet", "c++/symmetry/coefnew/*/*-doublet*.dat, *-triplet*.dat", "c++/recalc.hpp: recalc_general", "c++/symmetry.hpp: recalc_singlet, have_stored_subspaces"]}
{"id": "C76", "title": "Products of operators survive the step to the next site", "statement": "When nothing is truncated, carrying two operators of the same kind to the next step and multiplying them there (A times the adjoint of B, summed over all intermediate subspaces and states) gives the same matrix elements as carrying over their product, which is a scalar. So the numerical factors in the recalculation tables are complete and orthonormal: for every bra label, every pair of combinations and every intermediate ancestor, the products of factors summed over all targets give one for equal combinations and zero otherwise.", "quantifier": "every built-in symmetry and kind of operator, all quantum numbers (spins without bound), all spectra and eigenvectors, all matrix elements, real and complex", "why_tests_cant": "Thousands of closed expressions in unbounded spins; a wrong sign or a missing row in one of them changes spectral functions slightly and no test computes the product independently.", "anchors": ["c++/symmetry/nrg-recalc-*.hpp: recalc_doublet, recalc_triplet, recalc_orb_triplet, recalc_quadruplet", "c++/symmetry/coefnew/*/*-doublet*.dat, *-triplet*.dat", "c++/recalc.hpp: recalc_general", "c++/symmetry.hpp: recalc_singlet"]}
{"id": "C77", "title": "Expectation values from the full density matrix do not depend on the step", "statement": "An expectation value of a scalar operator measured with the full density matrix equals the thermal average over the discarded states of all later steps, each counted with its multiplicity and its weight, with the operator carried along the chain. The measurement never fails. As long as no states are discarded in between, it does not matter at which step (parameter fdmexpvn) the value is measured.", "quantifier": "every built-in symmetry (except SPSU2LR, where scalar operators are lost), runs of any length, all spectra, truncations, eigenvectors, temperatures and scalar operators, real and complex", "why_tests_cant": "The identity connects the whole backward sweep of density matrices with the whole forward sweep of operators; tests compare single reference values of one model.", "anchors": ["c++/measurements.hpp: measure_singlet_fdm", "c++/dmnrg.hpp: calc_fulldensitymatrix_iterN, calc_fulldensitymatrix", "c++/symmetry.hpp: recalc_singlet", "c++/operators.hpp: MatrixElements::trim"]}
{"id": "C78", "title": "The weight of a full-density-matrix spectral function obeys the sum rule", "statement": "The total weight of the delta peaks of the lesser part of a spectral function of two operators A, B computed with the full density matrix, summed over all steps of the run and collected in the bins, equals (up to the sign of the statistics and the degeneracy factor) the expectation value of the product of B with the adjoint of A. It therefore equals the value reported for that scalar operator, whatever the truncation in later steps.", "quantifier": "all symmetries and kinds of operators whose recalculation works (C75), runs of any length, all spectra, truncations, eigenvectors and temperatures, all matrix elements", "why_tests_cant": "Sum rules are checked by users on single calculations, within broadening errors; the exact statement ranges over every truncation and every spectrum.", "anchors": ["c++/algo_FDM.hpp: Algo_FDMls", "c++/algo.hpp: BaseSpectrum::calc", "c++/dmnrg.hpp: calc_fulldensitymatrix", "c++/recalc.hpp: recalc_general", "c++/measurements.hpp: measure_singlet_fdm", "c++/spectrum.hpp: ChainBinning"]}
{"id": "C79", "title": "Exactly the requested spectra are computed, from operators carried through every step", "statement": "A spectral quantity is computed in a sweep exactly when its two operators are in the data file, the family combines their kinds, its name (operator names joined by a dash, with the spin label where the symmetry type resolves spin) is one of the words of the corresponding setting, and its algorithm is switched on for that sweep; it is computed once. In every step it uses the two operators as obtained by recalculating them in each step so far, never an operator that was dropped on the way. The expectation values use all singlet operators, carried in the same way, in every step of the first sweep and in step fdmexpvn of the second one. The full-density-matrix expectation values are evaluated exactly when fdmexpvn is one of the steps of the sweep.", "quantifier": "all lists of names in the settings, all sets of operators, all combinations of switches, sweeps of any length", "why_tests_cant": "The lists are free text, the switches can be combined in thousands of ways, and an operator that is dropped too early gives zeros, not an error.", "anchors": ["c++/oprecalc.hpp: Oprecalc, loopover, prepare_spec, recalculate_operators, Ops::do_s, Ops::do_g", "c++/misc.hpp: string_token", "c++/measurements.hpp: calculate_spectral_and_expv_impl", "c++/core.hpp: after_diag, iterate, nrg_loop"]}
{"id": "C80", "title": "No two spectra are written to the same file", "statement": "All the spectral quantities computed in both sweeps of a calculation are written to files with different names.", "quantifier": "all lists of names in the settings, all sets of operators and their names, all combinations of switches", "why_tests_cant": "Collisions depend on the names chosen by the user; the second file silently replaces the first.", "anchors": ["c++/algo.hpp: spec_fn", "c++/oprecalc.hpp: Oprecalc, loopover", "c++/algo_*.hpp: algoname"]}
{"id": "C81", "title": "The data file is read exactly as written, and contradictory files are refused", "statement": "Every well-formed file of seed data is read back as the data it stands for, whatever the layout of blanks, lines and comments: symmetry type, number of channels, all subspaces with their energies, the operators of the Wilson chain, and every block of operators and coefficients; of several blocks with the same kind and name the last one counts. Conversely every file that is accepted, well-formed or not, has the symmetry type asked for, announces its subspaces correctly and without repetition, contains matrix elements only between existing subspaces and with their dimensions, and (when the coefficients are taken from it) as many chain coefficients as announced. Files of another version are refused.", "quantifier": "all files of seed data; all texts whatsoever for the converse", "why_tests_cant": "The format is nested, counts determine what follows, and there are infinitely many layouts and contents.", "anchors": ["c++/read-input.hpp: InputData, read_data_header, read_blocks, determine_Nmax_Nlen", "c++/eigen.hpp: DiagInfo", "c++/operators.hpp: MatrixElements, Opch", "c++/coef.hpp: set_of_coef_tables", "c++/misc.hpp: skip_comments", "c++/basicio.hpp: read_one, read_std_vector"]}
{"id": "C82", "title": "A data file cut short is never taken for a complete one", "statement": "When a file of seed data ends too early (interrupted copy, full disk), at whatever character, it is refused.", "quantifier": "all well-formed files and all of their prefixes", "why_tests_cant": "There are as many ways to cut a file as it has characters; a test tries a few.", "anchors": ["c++/read-input.hpp: InputData, read_next_block, read_blocks, determine_Nmax_Nlen"]}
{"id": "C83", "title": "Broadening conserves the spectral weight and the sign of a spectrum", "statement": "Replacing the delta peaks of a raw spectrum by the broadening kernel of the tool gives a function with the same total weight as the peaks, for every choice of the broadening options; it is nowhere negative if the weights are not; the kernel used inside the main program is that of the tool; and the optional final convolution keeps the end points of the curve and conserves a constant spectrum.", "quantifier": "all broadening parameters, all options of the tool, all energies, all sets of peaks", "why_tests_cant": "The kernels are functions of two real variables with case distinctions and singular points; a test evaluates them at a few points and cannot integrate them.", "anchors": ["tools/broaden/broaden.hpp: BR_L, BR_G, BR_h, BR_h0, bfnc, broaden, convolve, gaussian_kernel, derfd_kernel, trapez", "c++/spectrum.hpp: BR_NEW, continuous"]}
{"id": "C84", "title": "The sum rules printed by the broadening tool are the integrals they are named after", "statement": "The seven numbers printed by the sum-rule option of the broadening tool are the total weight of the peaks, the weights at negative and positive energies, and the integrals weighted with the Fermi and Bose functions at the given temperature.", "quantifier": "all temperatures and all spectra", "why_tests_cant": "Conditional accumulations over lists of arbitrary length with special treatment of the zero frequency.", "anchors": ["tools/broaden/broaden.hpp: integrals_for_sumrules"]}
{"id": "C85", "title": "The broadening tool reproduces the main program from its raw output", "statement": "Applied to the binned raw file written by the main program, on the same mesh and with the same parameters, the broadening tool gives the same curve that the main program writes itself; with several files it gives the mean of the curves; and the moments reported by the main program are those of the file.", "quantifier": "all spectra with positive and negative peaks, all meshes, all broadening parameters, any number of files", "why_tests_cant": "Two separately written programs communicate through a file; equality must hold for every spectrum and at every point.", "anchors": ["tools/broaden/broaden.hpp: read_files, merge, filter, make_mesh, broaden", "c++/spectrum.hpp: savebins, continuous, weight_report", "c++/spectral.hpp: Spikes"]}
{"id": "C86", "title": "The Kramers-Kronig tool computes the principal value, and the integrator the integrals it prints", "statement": "At every frequency inside the range of the table the Kramers-Kronig tool returns the principal value of the transform of the interpolating function over the range; even input gives odd output and conversely; exactly symmetric tables with enough points are accepted in any order, an accepted table is symmetric within the tolerance and has distinct frequencies; the output has the frequencies of the input. The five numbers of the integrator are the integrals over the interval, over positive and negative arguments, of the magnitude and with the Fermi factor. With the result on standard output nothing else is written there.", "quantifier": "all tables and all continuous interpolating functions differentiable at the frequency, all intervals and temperatures", "why_tests_cant": "A singular integral: a test compares a few numerical values for known functions; that the subtraction and the analytic correction give the principal value for every function needs a limit argument.", "anchors": ["tools/kk/kk.hpp: KK::init, KK::calc, KK::Integrand, KK::run", "tools/integ/integ.cc: integrate, f_pos, f_neg, f_abs, f_fermi"]}
{"id": "C87", "title": "The Matsubara tool computes the spectral sum at the fermionic frequencies", "statement": "For files with complete rows the tool always succeeds; line n of the output holds the fermionic frequency (2n+1) pi T and the mean over the files of the sum of weight/(i omega - energy) over their rows; no frequency is a pole; the result is causal for non-negative weights and purely imaginary for symmetric spectra.", "quantifier": "all numbers of files, columns and frequencies, all spectra, all positive temperatures", "why_tests_cant": "Merging of arbitrary many files with equal energies and sums of arbitrary length.", "anchors": ["tools/mats/mats.cc: load, merge, omegan, make_mesh, compute, save"]}
{"id": "C88", "title": "Tables in text files are read completely and alike by all readers", "statement": "Each of the readers of two-column tables (the one of the Kramers-Kronig tool and of the integrator, the one of the library, and the one of the discretisation tools) returns all rows of the table in order, with comments and blank lines anywhere, and refuses what is not a table; the reader of hybridisation functions returns the rows of the requested sign with increasing magnitudes of the energies and refuses exactly negative values and empty results.", "quantifier": "all tables, every layout with spaces and tabulators, all comments", "why_tests_cant": "The layouts are unbounded; a test tries a few files. Silent loss of rows depends on where a comment stands.", "anchors": ["tools/kk/kk.hpp: load", "tools/integ/integ.cc: main", "c++/misc.hpp: readtable, skip_comments", "tools/common/io.hpp: load_pairs, load_abs_pairs"]}
{"id": "C89", "title": "Discretisation energies reproduce the hybridisation function", "statement": "Whatever was evaluated before, the solver of the discretisation equation computes the right-hand side from the interpolated hybridisation function and its exact integral over the interval of the mesh. For every exact solution of the equation that is integrated: the weight below the representative energy of an interval is the mean of the weights below the points of the mesh in it, so the energy lies in the interval; the weights placed at the energies, averaged over the twist parameter, reproduce the hybridisation function for every test function; the adaptive mesh has intervals whose weights are in the ratio Lambda; the adaptive solution stays bounded only when the parameter of the search is the total weight, and then converges to the value the search compares with. For a flat band the solution is known in closed form and the computed steps are exact beyond the first interval.", "quantifier": "all discretisation parameters above one, all continuous hybridisation functions, all meshes, all test functions, all numbers of intervals", "why_tests_cant": "A statement about solutions of a differential equation for arbitrary functions; a test integrates a few functions numerically.", "anchors": ["tools/adapt/adapt.hpp: rhs_F, rhs_G, eps, calc_f, shoot_g"]}
{"id": "C90", "title": "The integration of the discretisation equation is accurate, aligned with the output mesh and finite", "statement": "Every accepted step is the Runge-Kutta step at the current point with a length that is the requested one divided by a power of two, either accurate within the allowed error or not further divisible; exceptions occur only for the stated reasons; the output lines are at the multiples of the output step up to the tolerance; with a positive output step and positive step lengths the calculation ends.", "quantifier": "all right-hand sides, all step lengths, all error limits, all numbers of subdivisions, runs of any length", "why_tests_cant": "The number of steps and subdivisions is unbounded and depends on the input; non-termination cannot be observed by a test.", "anchors": ["tools/adapt/adapt.hpp: timestep, int_with_to, calc_f, shoot_g, set_parameters"]}
{"id": "C91", "title": "Search for the mesh, preparation of the table and command line of the discretisation solver", "statement": "A mesh is returned only if its end has the expected value within the requested accuracy, and it is the mesh of the last value tried; for a linear dependence the third trial is exact. The point added near zero does not change the interpolated function; rescaling the band gives the rescaled function with the same total weight. The command line is accepted exactly if it consists of at most one constant hybridisation, one sign and one file name in any order, and these are used.", "quantifier": "all results of the integration as a function of the parameter, all tables, all command lines", "why_tests_cant": "The convergence depends on the hybridisation function; command lines are unbounded in number and order.", "anchors": ["tools/adapt/adapt.hpp: calc_g, add_zero_point, load_init_rho", "tools/common/tabulated.hpp: rescale_xy", "tools/adapt/adapt.cc: cmd_line, parse_sign_arg"]}
{"id": "C92", "title": "A parameter file means the same to the discretisation tools and to the main program", "statement": "If the main program accepts a parameter file, the discretisation tools find the same value for every keyword of the block.", "quantifier": "all files, all block names, all keywords", "why_tests_cant": "Two independent parsers with different treatment of white space, comments and repetitions; a test compares a few files.", "anchors": ["tools/common/parser.hpp: find_block, parse_key_value_block, get_or_default", "tools/adapt/parser.hpp: Params", "tools/nrgchain/parser.h: parser", "c++/misc.hpp: parser"]}
{"id": "C93", "title": "The instantiated template is the data file of the diagonalised model", "statement": "For every well-formed template the program instantiate produces a file that the main program accepts. In it the energies are the eigenvalues of the Hamiltonians of the template, measured from the lowest of all subspaces and divided by the scale of the template; the operators are their matrix elements between the eigenstates; the energy of the ground state and the coefficients of the Wilson chain are there. The energies are not negative and the lowest is zero; products of operators and the Hamiltonian itself are represented correctly in the new basis. A file that is cut before its last number is not accepted.", "quantifier": "all templates with any number of subspaces, states, operators, comments and blank lines, all parameter values, all points of interruption", "why_tests_cant": "The template is a program for a text; a test instantiates a few models and cannot cover all layouts, dimensions and interruptions.", "anchors": ["tools/instantiate/instantiate.cc: read_seed, transformed_operator, write_tail, validate_generated_data, run_full_instantiation", "c++/read-input.hpp: read_data"]}
{"id": "C94", "title": "The program instantiate changes no files but its own", "statement": "At every point of the execution, also after an interruption, all files except data and the temporary ones are as before. The file data is changed only by a successful run in the full mode; it is then a text that the main program accepts, and before that the old file or a beginning of this text. Without options for the mode no file but data is created; in the other modes nothing is removed. The parameter file and the template are never changed with the default names. Command lines that are refused have no effect.", "quantifier": "all command lines, all contents of the file system, all parameter files and templates, all points of interruption", "why_tests_cant": "Interruptions and the contents of the directory cannot be enumerated.", "anchors": ["tools/instantiate/instantiate.cc: main, parse_options, run_full_instantiation, run_diag_seed_only, run_wilson_only, cleanup_instantiation_temporaries, write_param_section_files"]}
{"id": "C95", "title": "A parameter file means the same to instantiate and to the main program", "statement": "If the main program accepts a section of a parameter file, instantiate finds the same value for every keyword of the section.", "quantifier": "all files, all names of sections, all keywords", "why_tests_cant": "Two independent parsers with different treatment of headers and repetitions.", "anchors": ["tools/instantiate/instantiate.cc: parse_param_sections, param_value", "c++/misc.hpp: parser"]}
{"id": "C96", "title": "A calculation of the Wilson chain does not depend on earlier ones", "statement": "The library call for the coefficients of a Wilson chain returns the same coefficients, makes the same changes to the files and reports the same errors whatever calls preceded it in the same process. The program nrgchain does what a call with the file param and the mode from the command line does.", "quantifier": "all histories of calls, all parameters, all contents of the files, all command lines", "why_tests_cant": "The library keeps its data in global variables; a test can try only a few sequences of calls.", "anchors": ["tools/nrgchain/nrgchain.cc: reset_state, nrgchain, run_nrgchain, main, cmd_line_post", "tools/nrgchain/nrgchain.hpp: nrgchain, TableMode"]}
{"id": "C97", "title": "The chain coefficients of nrgchain are those of the discretised bath", "statement": "If the call returns, its weight is the integral of the hybridisation function over the mesh, the bath consists of one level per interval with the weight of the hybridisation function in it and with the representative energy of the interval, and the coefficients are a tridiagonal form of this bath with Nmax+1 sites that begins with the orbital coupled to the impurity, scaled as asked for. For the band flat the weight is known in closed form, the on-site energies vanish and the call succeeds exactly if there are enough intervals.", "quantifier": "all parameters, all tables of the hybridisation function and of the mesh, all numbers of intervals and sites", "why_tests_cant": "The coefficients are the result of a long chain of integrals, square roots and orthogonalisations with arbitrary tables.", "anchors": ["tools/nrgchain/nrgchain.cc: set_parameters, load_input, tables, tridiag, calc_tables", "tools/common/linint.hpp"]}
{"id": "C98", "title": "Files of nrgchain: interruption, and the calculation in two steps", "statement": "A call that throws has written nothing. The call writes only its own output files, and only those of its mode. After an interruption at any point the files of coefficients are either both untouched or hold a common initial part of the new coefficients, of which at most the last hopping has no on-site energy beside it. Saving the tables and computing the chain from them gives the same coefficients and files as the calculation in one step.", "quantifier": "all parameters, all contents of the files, all points of interruption", "why_tests_cant": "Interruptions cannot be enumerated, and the two-step calculation passes through text.", "anchors": ["tools/nrgchain/nrgchain.cc: save_tables, load_tables, tridiag, tables, run_nrgchain"]}
{"id": "C99", "title": "A parallel job ends on all processes, with the results of the serial program", "statement": "An MPI job with any number of processes computes, in all its diagonalisations one after another, exactly what the serial program computes. It cannot deadlock or run for ever if the serial program ends, no matter in which order messages arrive and how many of them MPI buffers. Every worker diagonalises with the parameters of the current step. No process gets a message that it does not expect. At the end all processes return the same exit code and no message is left; if the start-up checks fail, all processes return their code and nothing is computed.", "quantifier": "all numbers of processes, all capacities of the message buffers including none, all interleavings, all sequences of diagonalisations in which each one depends on the results of the earlier ones, all matrices", "why_tests_cant": "Deadlocks and stale parameters depend on the timing of messages and on the buffering of the MPI library; a test sees a few schedules with one library.", "anchors": ["c++/nrg.cc: main", "c++/nrg-lib.cc: run_nrg_slave_impl", "c++/diag_mpi.hpp: DiagMPI"]}
{"id": "C100", "title": "The second sweep works with the states of the first", "statement": "If a calculation with density matrices does both of its sweeps, the second one goes through the same iterations as the first and works in each of them with the same subspaces, energies, eigenvectors, kept states and operators of the chain. Operators that are carried through both sweeps have the same matrices at the end of each iteration, also if the second sweep recalculates them from all states and the first one from the kept ones. The spectra collected in the first sweep for the density matrices, the dimensions, the ground state energy and the total energy are the same afterwards. Once the first sweep is finished, the second one can fail only in the recalculation of an operator: the stored spectra are always found, readable and sufficient.", "quantifier": "all eigensolvers that return one spectrum per subspace, all lengths of the chain, all truncation parameters, all operators, all earlier contents of the directory, files removed after reading or not", "why_tests_cant": "The two sweeps communicate through files and through data modified in place; a test compares numbers of a few models and cannot see a state that is used in one sweep only.", "anchors": ["c++/core.hpp: iterate, do_diag, after_diag, nrg_loop", "c++/nrg-general.hpp: run_nrg, run_dmnrg", "c++/eigen.hpp: DiagInfo", "c++/store.hpp: Store"]}
{"id": "C101", "title": "Continuing a calculation from stored spectra", "statement": "A calculation that is resumed from the spectra stored by an earlier run of the same calculation gives the same results as without interruption. A calculation with Floquet blocks can do both sweeps.", "quantifier": "all calculations, all stored steps", "why_tests_cant": "The eigenvectors are moved between two representations in the course of an iteration; what a stored file lacks shows only when another run reads it.", "anchors": ["c++/core.hpp: load_or_compute_diag, prepare_floquet_for_truncation, after_diag", "c++/recalc.hpp: split_in_blocks_Eigen", "c++/params.hpp: resume, laststored, floquet"]}
{"id": "C102", "title": "Adaptive broadening of raw spectra", "statement": "With sensible settings (positive lower end of the mesh below the upper one, ratio above one, positive width and regularisation, least width not above the initial width, and with refinement at least three mesh points on each side) and with complete input files the adaptive broadening tool always finishes, whatever the spectrum. The spectra that it writes (only that of the last iteration, or all of them on request) are sums of the peaks averaged over the calculations, each broadened by a logarithmic Gaussian with a positive width between the least and the initial width; their total weight is that of the peaks at nonzero frequency. In the first iteration all widths are the initial one. In every other iteration the width of a peak follows, by interpolation between mesh points, from the logarithmic derivatives of the integrals of the spectrum of the iteration before, from frequency zero and from the end of the same side. The mesh is increasing, does not contain zero, keeps its range and never loses a point when it is refined. Multiplying all weights by a number multiplies the spectra by that number and changes neither the mesh nor the widths.", "quantifier": "all spectra, all numbers of calculations and iterations, all sensible settings", "why_tests_cant": "The iteration feeds back on itself: widths, mesh and interpolation tables change in every step, and a value outside its range shows up as a failed assertion or a NaN only for particular spectra.", "anchors": ["tools/bw/bw.cc: main, broaden, integrate_a, combinations, calc_deriv, calc_b, recalc_b, refine_mesh, make_mesh, LinInt"]}
{"id": "C103", "title": "Adaptive broadening: total weight and refusal of unusable input", "statement": "The adaptive broadening tool conserves the total weight of every input spectrum, and refuses settings and files that it cannot use.", "quantifier": "all spectra, all settings, all files", "why_tests_cant": "Whether a loop ends for every value of an option cannot be observed in finite time.", "anchors": ["tools/bw/bw.cc: bfnc, make_mesh, load, cmd_line"]}
{"id": "C104", "title": "Matrix products in memory", "statement": "For matrices of all sizes and for blocks of larger matrices, every matrix product of the program computes the product that its name says: sums of products of a matrix or of its transpose or adjoint with another one, added to a multiple of the result matrix; it reads only the operands, writes only the result matrix and not the memory around it, and does not use uninitialised memory. The transformations built on it (adding A B^+, A O B^+, U^+ O U, also for diagonal O, and the products of matrices that are cut to fit) are those of exact linear algebra, also if a size is zero. Operands that do not fit are refused, and so are sizes that the numerical library cannot represent.", "quantifier": "all sizes including zero, all blocks and strides, all transpositions, all factors, all contents of the memory, builds with and without assertions", "why_tests_cant": "Row-major storage is multiplied by a routine for column-major storage, with swapped operands and leading dimensions; an error shows only for particular shapes, blocks or complex elements, and a store outside the result may not be noticed at all.", "anchors": ["c++/blas_gemm.hpp: gemm_rowmajor, gemm_nn, gemm_nh, gemm_hn, checked_blas_int, blas_outer_stride", "c++/numerics_Eigen.hpp: product_Eigen, transform_Eigen, rotate, rotate_diagonal, matrix_prod, matrix_adj_prod", "c++/numerics.hpp: prod_fit, prod_adj_fit_left"]}
{"id": "C105", "title": "Matrix files of the tools", "statement": "A text file with a matrix is read correctly in every layout: any white space between the numbers, blank lines and comment lines anywhere, with or without an end of line after the last row. A file whose lines have different numbers of words is refused whatever it contains, and so is a number out of range. What the tools write as text is read again as the same matrix, except for the numbers that are set to zero because they are small; what they write in binary form is read as the same matrix, and a binary file that was cut anywhere is refused.", "quantifier": "all matrices of all sizes, all layouts, all places where a binary file is cut", "why_tests_cant": "Layouts and cuts are unbounded; a reader that counts words in one pass and reads numbers in another may agree on all files of a test.", "anchors": ["c++/io.hpp: read_matrix_text, read_matrix_bin, read_matrix_data, save_matrix", "c++/basicio.hpp: get_dims, count_words_in_string, is_blank_or_comment_line, read_one", "tools/diag/diag.cc: diagonalize"]}
{"id": "C106", "title": "Eigensolver and transformation tools", "statement": "`diag` on a file with n^2 numbers writes (unless the LAPACK routine fails) the ascending eigenvalues, times the scale, and, as rows, orthonormal eigenvectors of the symmetric matrix whose upper triangle is in the file; it writes no other files, and nothing if the count of numbers is zero or not a square. `unitary` writes the product of three matrices, the outer ones transposed on request, times the scale, to the output file if one is given and nothing else; matrices that do not fit are refused and nothing is written. For a symmetric matrix `diag` followed by `unitary` with the eigenvectors on both sides writes the diagonal matrix of the scaled eigenvalues, through text files and through binary files.", "quantifier": "all matrices of all sizes, all options, all LAPACK libraries that meet their specification", "why_tests_cant": "Row and column order, transposition and file format have to match between two programs and a Fortran library; for symmetric or small examples several mistakes cancel.", "anchors": ["tools/diag/diag.cc: diag_stream, diagonalize", "tools/unitary/unitary.hpp: run", "c++/numerics_Eigen.hpp: trans, matrix_prod"]}
{"id": "C107", "title": "Matrix files: what is not a matrix is refused", "statement": "A file that is not a rectangular table of numbers (for `diag`: not a symmetric matrix) is refused by the tools that read matrices, and the tools agree on what is in a file.", "quantifier": "all files", "why_tests_cant": "The failures are silent: a wrong matrix is used without a message.", "anchors": ["c++/io.hpp: read_matrix_text", "tools/diag/diag.cc: diag_stream, diagonalize"]}
{"id": "C108", "title": "Start of a job: the same decision in all processes", "statement": "What the program does after its start depends only on the arguments and on the two input files: help for `-h`, failure if an input file is missing, otherwise the calculation; the scratch directory is the one given by `-w`, otherwise the one in NRG_WORKDIR, otherwise the current directory. In a job with any number of processes, whatever the order of their steps and whether or not the broadcast waits, all processes end up doing the same, after at most two steps each, if the check of the threading library has the same answer everywhere.", "quantifier": "all arguments and environments, all numbers of processes, all orders of steps", "why_tests_cant": "The order of the processes at start-up cannot be controlled by a test.", "anchors": ["c++/nrg.cc: main, help, set_workdir", "c++/workdir.hpp: set_workdir"]}
{"id": "C109", "title": "Start of a job: no process is left waiting, options are honoured", "statement": "A process that refuses to start does not leave the others waiting, and `-h`, `-w` and NRG_WORKDIR are honoured wherever and however they are given.", "quantifier": "all environments of the processes, all arguments", "why_tests_cant": "Needs processes with different environments, or unusual arguments.", "anchors": ["c++/nrg.cc: main, set_workdir", "c++/openmp.hpp: prepare_parallel_runtime"]}
{"id": "C110", "title": "Check of the threading library", "statement": "The job is accepted exactly if the library that would be used needs no OpenMP runtime, or the runtime is present and, if the library is chosen at run time, the layer is the one of the build. A setting of the user is never changed, upper and lower case make no difference, repeating the check gives the same answer, and an unknown name passes.", "quantifier": "all builds, all values of the variable", "why_tests_cant": "The build options and the variable form an unbounded table; a test sees one build.", "anchors": ["c++/openmp.hpp: normalize_mkl_threading_layer, active_mkl_threading_layer, set_mkl_threading_layer_from_build, validate_mkl_threading_runtime, prepare_parallel_runtime"]}
{"id": "C111", "title": "Calculations that share a scratch directory", "statement": "Any number of calculations may use the same scratch directory at the same time: each finds in its work directory exactly what it has written and not removed itself, no file outside the work directories is touched, and when all have ended by returning, files and directories are as before. A calculation that ends otherwise leaves its directory with all its files. A new calculation never finds stored steps.", "quantifier": "all numbers of calculations, all interleavings of their events, all names chosen by the system", "why_tests_cant": "Interleavings and endings are unbounded.", "anchors": ["c++/workdir.hpp: Workdir, dtemp, remove_workdir, set_workdir", "c++/portabil.hpp: my_assert, exit", "c++/nrg.cc: main"]}
{"id": "C112", "title": "Kind of numbers and symmetry named in the data file", "statement": "The calculation uses complex numbers exactly if a comment among the first 64 lines, before any data, contains the word COMPLEX. A symmetry is known exactly if there is a table for it (and it does not need complex numbers in a real calculation); unknown names are refused. For a known symmetry and a supported number of channels the table of this number of channels is used, with substeps the table of one channel for the symmetries that support them; other numbers of channels are refused for all symmetries but one.", "quantifier": "all data files, all names, all numbers of channels, all build options", "why_tests_cant": "The combinations of name, channels, substeps and build are too many, and the header is free text.", "anchors": ["c++/misc.hpp: complex_data", "c++/mk_sym.hpp: get, set_symmetry", "c++/params.hpp: set_channels_and_combs", "c++/symmetry.hpp: Symmetry, erase_first", "c++/symmetry/sym-QS-impl.hpp: load"]}
{"id": "C113", "title": "Unsupported combinations of symmetry, channels and substeps are refused", "statement": "A combination of symmetry, number of channels and substeps that is not supported ends with a message.", "quantifier": "all symmetries, all numbers of channels", "why_tests_cant": "The failure is undefined behaviour: assignments after the end of a vector, which may go unnoticed.", "anchors": ["c++/mk_sym.hpp: set_symmetry", "c++/symmetry.hpp: Symmetry", "c++/symmetry/sym-QJ-impl.hpp: load", "c++/params.hpp: set_channels_and_combs"]}
{"id": "C114", "title": "Resampling of tables", "statement": "`resample` accepts exactly the tables with at least five points and different abscissae, in any order and any layout of the file; the output has the abscissae of the grid in their order, at points of the table its values, between the points numbers, and outside the range, with `-e`, the constants given by `-a` and `-b` or the values at the ends. With `-e` there is a number everywhere. A table resampled on its own grid stays the same, also if input, grid and output are one file; using the output as the grid changes nothing. Only the output file is written, and nothing if the input is refused. The order of the options does not matter, and `-a` and `-b` without `-e` are refused.", "quantifier": "all tables, grids, layouts of files, options, and all interpolations through the points", "why_tests_cant": "Tables, orders of lines and positions of grid points are unbounded.", "anchors": ["tools/resample/resample.hpp: parse_param, init, resample, run", "c++/misc.hpp: readtable, writetable"]}
{"id": "C115", "title": "Resampling: results can be used, what is not a grid is refused", "statement": "The output of `resample` can be read again with the same numbers, and a file that is not a grid of two columns is refused.", "quantifier": "all tables and grids", "why_tests_cant": "Depends on the position of single points and on the digits of single numbers.", "anchors": ["tools/resample/resample.hpp: resample", "c++/misc.hpp: readtable, writetable"]}
{"id": "C116", "title": "Matrix calculator: values of programs", "statement": "The calculator `matrix` carries out every sequence of lines with assignments, expressions, vectors and matrices: multiplication and division bind more tightly than addition and subtraction, operations of one rank group to the left, a minus sign binds to the next factor only, functions are called with either kind of brackets; statements act in their order, each variable has the value of its last assignment; coefficients are those of the tables, channels counted from one, sites from zero; a coefficient that does not exist ends the program, and what was printed before stays.", "quantifier": "all programs of any length and depth up to the limit of the stack of 10000, all values of coefficients, over any field and any functions", "why_tests_cant": "Programs and nesting of expressions are unbounded; the parser is a table of numbers generated by a tool, in which one wrong entry shows up only for particular sequences of tokens.", "anchors": ["tools/matrix/parser.yy: stmt, exp, exp_list, vec, mat", "tools/matrix/parser.cc: yyparse, yypact, yytable, yycheck"]}
{"id": "C117", "title": "Matrix calculator: every input is decided", "statement": "The parser ends for every input, after a number of steps proportional to the number of tokens; for inputs of up to 9995 tokens it accepts exactly what belongs to the grammar, with the values of C116, and reports a syntax error for everything else, unless a missing coefficient is found first; it never uses a value of the wrong kind or an empty stack. What follows does not change the results of the lines before.", "quantifier": "all sequences of tokens", "why_tests_cant": "Inputs are unbounded, and wrong inputs are of unlimited variety.", "anchors": ["tools/matrix/parser.yy: stmt_list, stmt, exp", "tools/matrix/parser.cc: yyparse"]}
{"id": "C118", "title": "Matrix calculator: from the text to the result", "statement": "The text of a program gives exactly its tokens: names, keywords, integers, decimal numbers with or without exponent, signs. Blanks may be left out wherever the next character could not belong to the token (a name not directly followed by an equal sign and a letter, an opening bracket not by a letter); line ends within braces, comment lines and everything after a dollar sign do not count. The calculator prints the results of this program. Every program has such a text. With more than 200 names nothing is computed.", "quantifier": "all programs, names, numbers, exponents and positions of blanks and line ends", "why_tests_cant": "Names, numbers and lengths of texts are unbounded; which of the rules of the scanner wins depends on all characters of a token.", "anchors": ["tools/matrix/matrix.ll: yylex", "tools/matrix/parser.yy: main, symlook"]}
{"id": "C119", "title": "Matrix calculator: what is written is what is computed", "statement": "Blanks between tokens may be left out, every number in the usual notation is read, names without a value and divisions by zero are errors, and a failure can be seen from the exit status.", "quantifier": "all texts", "why_tests_cant": "Depends on single characters and on the names used.", "anchors": ["tools/matrix/matrix.ll: yylex", "tools/matrix/parser.yy: main, exp, mat"]}
{"id": "C120", "title": "Both evaluators of matrices give the same matrix", "statement": "A number, vector or matrix in the common language of `instantiate` and of the calculator `matrix` (decimal numbers, variables with the same values, the four operations, parentheses, Sqrt, sqrt, exp, log, gammaPolCh, coefxi, coefzeta; blanks, tabulators, line ends within braces and comment lines anywhere) is accepted by `instantiate` as the matrix M exactly if the calculator, given the same text after lines that set the variables, prints M and no messages, with rows of the same length.", "quantifier": "all expressions of any depth, all layouts of the text, all values of variables and coefficients", "why_tests_cant": "Two hand-written and generated parsers are compared on an unbounded language.", "anchors": ["tools/instantiate/matrix_evaluator.hpp: MatrixEvaluator::evaluate_matrix", "tools/matrix/matrix.ll", "tools/matrix/parser.yy: main"]}
{"id": "C121", "title": "Every text has the same meaning in both evaluators of matrices", "statement": "A text that both `instantiate` and `matrix` accept denotes the same matrix in both.", "quantifier": "all texts and all values of variables", "why_tests_cant": "Depends on single characters in the text.", "anchors": ["tools/instantiate/matrix_evaluator.hpp: MatrixEvaluator::lookup_variable, parse_product, to_matrix", "tools/matrix/matrix.ll", "tools/matrix/parser.yy: expression"]}
{"id": "C122", "title": "The command lines of the tools mean what they say", "statement": "Each of fourteen tools (binavg, mats, intavg, tdavg, specmoments, broaden, bw, integ, hilb, diag, unitary, matrix, h5write, resample) begins its work exactly if its command line consists of its options, written alone, in groups, with the argument attached or in the next word, and of the right number of operands, anywhere, or after `--`; the settings are then those of the options given, the last one counting if an option is repeated, and otherwise the documented defaults; decimal and integer arguments are taken at their value.", "quantifier": "all command lines of any length, all arrangements of options and operands", "why_tests_cant": "There are infinitely many command lines; every combination of up to twenty options with repeated and grouped ones is a different case.", "anchors": ["tools/broaden/broaden.hpp: cmd_line", "tools/hilb/hilb.hpp: parse_param_run", "tools/bw/bw.cc: cmd_line", "tools/mats/mats.cc: cmd_line", "tools/binavg/binavg.hpp: cmd_line", "tools/intavg/intavg.cc: cmd_line", "tools/integ/integ.cc: cmd_line", "tools/specmoments/specmoments.cc: cmd_line", "tools/tdavg/tdavg.cc: cmd_line", "tools/diag/diag.cc: parse_param", "tools/unitary/unitary.hpp: parse_param", "tools/matrix/parser.yy: parse_param", "tools/h5write/h5write.hpp: parse_cmd_line", "tools/resample/resample.hpp: parse_param"]}
{"id": "C123", "title": "A tool refuses a command line only if it is wrong, and never takes a wrong one", "statement": "Negative numbers can be given as operands; every documented option is accepted; a word that is no number is refused where a number is expected; a wrong number of operands is reported with an exit status different from zero.", "quantifier": "all command lines", "why_tests_cant": "Depends on each word of the command line.", "anchors": ["tools/hilb/hilb.hpp: parse_param_run", "tools/matrix/parser.yy: parse_param, usage", "tools/mats/mats.cc: cmd_line", "tools/broaden/broaden.hpp: cmd_line"]}
{"id": "C124", "title": "hilb: from the files to the Green's function", "statement": "For every command line and all input files of numbers in any layout, `hilb` writes one line for each row: for a point (x, y) the imaginary part of the Green's function at x + iy plus the shifts (both parts with -G), with the label of the row; for a self-energy in two files the Green's function at omega - Sigma(omega), Im Sigma cut off at -10^-8, times -1/pi without -G, for the rows up to the first one whose frequencies differ by more than 10^-6, and it fails after that row. The density of states is the spline through the table of the last -d, whose rows may be in any order (at least three, with different abscissae), zero beyond its ends, or the normalised semicircle with the half-width of -B or -s. The number is the exact transform at a distance of 10^-3 from the real axis and outside the band, and close to the band the error is at most 3 C |Im z| exp(-36.8) with the Lipschitz constant C of the density.", "quantifier": "all command lines, all files, all points and densities of states", "why_tests_cant": "Infinitely many arrangements of options, layouts of files and points; the accuracy must hold for every density of states.", "anchors": ["tools/hilb/hilb.hpp: hilbert_transform, do_one, do_stream, do_hilb, load_dos, report_dos, parse_param_run"]}
{"id": "C125", "title": "hilb uses all of its input or refuses it", "statement": "A table of the density of states that cannot be used is refused with a message; comments in the input are skipped or refused; lines of the two parts of the self-energy with different frequencies are refused; a real argument is treated correctly or refused; a file is not used for input and output.", "quantifier": "all input files", "why_tests_cant": "Depends on the contents of the files.", "anchors": ["tools/hilb/hilb.hpp: load_dos, report_dos, interpolator, do_stream, do_hilb, calcA"]}
{"id": "C126", "title": "Averages over calculations: from the files to the results", "statement": "From the raw spectra 1/name, ..., Nz/name (or name itself, with -o and Nz = 1), for every command line: `binavg` writes every frequency that occurs, once and in increasing order, with the mean weight there in the chosen column, and changes no other file; `specmoments` prints the means of the sums of w omega^k over all rows within the limits and signs asked for, with -c the moments about the mean per total weight, or fails if there is none; `mats` prints the mean of the sum of w/(i omega_n - epsilon) at the fermionic frequencies; `intavg` writes the mean of the linear interpolations of the tables. Averaging first makes no difference: `specmoments`, `mats` and `binavg`, applied with -o to the file written by `binavg`, give exactly the result for all calculations.", "quantifier": "all command lines, numbers of calculations and spectra", "why_tests_cant": "Any number of calculations with any rows in any order; equality of two ways of calculating.", "anchors": ["tools/binavg/binavg.hpp: load, read_files, merge, save_binary, calc", "tools/specmoments/specmoments.cc: load, merge, filter, moments, central_moments, main", "tools/mats/mats.cc: load, merge, compute, save, main", "tools/intavg/intavg.cc: load, read_files, avg, save, main"]}
{"id": "C127", "title": "Averages over calculations: what is not a raw spectrum is refused", "statement": "A missing file, a file with an incomplete row, one that was cut short, an empty one, and a file with another number of columns than asked for end `binavg`, `specmoments` and `mats` without result; -o is refused for several calculations; -p keeps positive frequencies only.", "quantifier": "all files and command lines", "why_tests_cant": "Depends on the contents of the files.", "anchors": ["tools/binavg/binavg.hpp: load, calc", "tools/specmoments/specmoments.cc: load, filter", "tools/mats/mats.cc: load"]}
{"id": "C128", "title": "Averages of thermodynamic data, Kramers-Kronig transform and integrals: from text files to the results", "statement": "For every command line and files in any layout: `tdavg` writes, in the file named after the data, one row for every point of a mesh of temperatures from all data sets, with the means over the data sets of the linearly interpolated columns, minus those of the reference if one is given or a file td-ref.dat exists; with -c the last comment before the data comes first; no other file changes. `kk a b` writes to b the transform of the table in a, for the same frequencies in increasing order, `kk -` does so from standard input to standard output. `integ` prints the integral, over the range of the arguments, of the interpolated table with the weight asked for, and the numbers printed with -p and -n add up to the one printed without.", "quantifier": "all command lines, layouts of the files and numbers", "why_tests_cant": "Any number of data sets, columns and rows in any order and layout.", "anchors": ["tools/tdavg/tdavg.cc: cmd_line, split, load, read_files, merge_meshes, interpolate, avg, save, main", "tools/kk/kk.hpp: parse_cmd_line, read, write, init, KK", "tools/kk/kk.cc: main", "tools/integ/integ.cc: cmd_line, readtable, init, calc, main"]}
{"id": "C129", "title": "A run of tdavg or kk that fails leaves the files as they were", "statement": "If the data cannot be used, `tdavg` and `kk` say so and change no file: an earlier result remains, and so do the data and the reference. Lines that are not numbers are refused, a reference is subtracted only if asked for, and `integ` gives a number only for tables it can interpolate.", "quantifier": "all command lines and files", "why_tests_cant": "Depends on the contents of the files and the coincidence of names.", "anchors": ["tools/tdavg/tdavg.cc: cmd_line, main", "tools/kk/kk.hpp: parse_cmd_line", "tools/integ/integ.cc: init"]}
{"id": "C130", "title": "The program matrix from tables and a program text to the lines it writes", "statement": "For every command line of `matrix` and tables of the Wilson chain in any layout of numbers and white space, the program text is carried out with exactly these coefficients: `coefxi[c,i]` and `coefzeta[c,i]` are the i-th numbers, counted from zero, of the tables of channel c (whose number is part of the names if -c is given), `gammapolch[c]` is sqrt(theta/pi); with -s also `coefdelta`, `coefkappa` and `coefV`; nothing else can be asked for. The results are written in their order, a number or vector on a line, a matrix row by row, with the prefix if asked for. A matrix that is written can be read as a matrix file by the other tools. After a run of nrgchain, `matrix` knows the coefficients of that run as they were printed.", "quantifier": "all command lines, tables in any layout, numbers of channels and sites, program texts", "why_tests_cant": "Any number of channels and sites in any layout; composition of several programs.", "anchors": ["tools/matrix/parser.yy: parse_param, load_vector, load_discretization, load_discretization_sc, yywrap, main, dump_vector, dump_matrix, gammapolch, coefxi, coefzeta, coefdelta, coefkappa, coefV", "tools/nrgchain/nrgchain.cc: tables, tridiag", "c++/io.hpp: read_matrix_text"]}
{"id": "C131", "title": "The program matrix refuses tables it cannot use", "statement": "`matrix` computes nothing unless every table it needs can be opened and read to its end: text that is not a number, an empty table or a number of channels that is not a number are errors, and every coefficient that the program text can ask for comes from a file. Every result begins on a new line.", "quantifier": "all command lines and files", "why_tests_cant": "Depends on the contents of the files.", "anchors": ["tools/matrix/parser.yy: parse_param, load_vector, load_discretization, load_discretization_sc, gammapolch, coefV, dump_matrix"]}
{"id": "C132", "title": "The program broaden from raw spectra of several calculations to the spectrum it writes", "statement": "For every command line of `broaden` and raw spectra with any number of rows: the program ends, and `spec.dat` holds one line for each point of the mesh. Without -L the mesh consists of max, max/ratio, ... as long as these are above min, moved to the accumulation point, for the sides requested, in increasing order; with -L it is the first column of the table. The value is the mean over the calculations of the sum of weight times kernel over the peaks that -l, -h, -P and -N leave in; -f and -x apply one pass of convolution each. `cumulative.dat` holds the weight strictly below each point; -s prints the weights and the integrals with the Fermi and the Bose function. Weights that are not negative give a spectrum that is not negative. The results with -P and -N add up to the whole. Averaging first with `binavg` makes no difference.", "quantifier": "all command lines, raw spectra, numbers of calculations, meshes", "why_tests_cant": "Any number of files, peaks and points; composition of several programs.", "anchors": ["tools/broaden/broaden.hpp: cmd_line, read_files, merge, filter, integrals_for_sumrules, make_mesh, load_mesh, broaden, convolve, calc_cumulative, trapez, save, calc", "tools/broaden/broaden.cc: main", "tools/binavg/binavg.hpp"]}
{"id": "C133", "title": "The program broaden ends with a usable spectrum or a message", "statement": "`broaden` writes `spec.dat` only if every file of raw data is there with a whole number of rows and the mesh is usable; otherwise it ends with a message and changes no file. What it writes are numbers, at different frequencies, for the peaks that are selected.", "quantifier": "all command lines and files", "why_tests_cant": "Depends on the contents of the files and on the values of the options.", "anchors": ["tools/broaden/broaden.hpp: cmd_line, load, nr_rows, make_mesh, load_mesh, BR_L_acc, filter, trapez, calc"]}
{"id": "C134", "title": "The program adapt from parameter file and hybridisation function to the files it writes", "statement": "For every command line of `adapt`, parameter file and table of the hybridisation function: a run that ends with success has written the file of the energies of its sign (FSOL.dat or FSOLNEG.dat) with a table of the solution of the discretisation equation f' = f log \u039b - (integral of \u03c1 over an interval of the mesh)/(\u039b^(2-x) \u03c1(f \u039b^(2-x))), f(1) = 1/\u039b: every line follows from the one before by Runge-Kutta steps no longer than dx_fine or dx_fast, the lines are at distance outputstep, and the last is at xmax unless the solution exceeds max_abs. \u03c1 is constant with --flat and otherwise the half of the table with the sign of the run, in units of bandrescale. The mesh consists of powers of \u039b, or is the one read from GSOL.dat, or the one computed by the search and written there, which ends at the expected value. With positive lengths every run ends. nrgchain reads what was written. The runs for the two signs can be done in any order with the same results.", "quantifier": "all command lines, parameter files, tables of the hybridisation function, contents of the directory", "why_tests_cant": "Any number of steps, lines and rounds of the search; real-valued parameters; order of several runs.", "anchors": ["tools/adapt/adapt.cc: cmd_line, main", "tools/adapt/adapt.hpp: set_parameters, load_init_rho, shoot_g, calc_g, load_or_calc_g, calc_f, run", "tools/adapt/parser.hpp", "tools/nrgchain/nrgchain.cc: load_g"]}
{"id": "C135", "title": "adapt: success means a complete table, and failure leaves earlier results alone", "statement": "A run of `adapt` that ends with an error changes no file. A run that ends with success has written a table up to xmax. Parameters with which it can not end are refused.", "quantifier": "all command lines, parameter files and contents of the directory", "why_tests_cant": "Depends on where in the integration an error occurs and on real-valued parameters.", "anchors": ["tools/adapt/adapt.hpp: set_parameters, shoot_g, calc_f, int_with_to, timestep", "tools/adapt/adapt.cc: main"]}
{"id": "C136", "title": "The HDF5 files raw.h5 and raw-dm.h5 contain everything that is to be stored under its name", "statement": "For every run with `h5raw` in which no stored Hamiltonian is set up twice, every setting of the switches h5all, h5last, h5ham, h5ops, h5vectors, h5U and h5struct and every order in which the threads write: no write fails; every parameter, the results of the diagonalisation, the blocks of the eigenvectors, the matrices of the Hamiltonian and of the operators, the structure of the subspaces, the statistics and the expectation values that the switches ask for are found under the documented name with their value; the file contains nothing else. No two of them have the same name, and no name is that of a group that contains another one.", "quantifier": "all runs: parameters, numbers of steps and subspaces, quantum numbers, operators, switches, orders of the writes", "why_tests_cant": "Collisions of names depend on quantum numbers, on the number of steps and on names of operators; the order of the writes depends on the threads.", "anchors": ["c++/h5.hpp: h5_dump_scalar, h5_dump_vector, h5_dump_matrix", "c++/output.hpp: Output", "c++/core.hpp: hamiltonian, after_diag, iterate", "c++/nrg-general.hpp: run_phase", "c++/eigen.hpp: h5save", "c++/operators.hpp: h5save", "c++/recalc.hpp: h5save_blocks", "c++/subspaces.hpp: h5save", "c++/stats.hpp: h5save_nrg, h5save_dmnrg", "c++/store.hpp: h5save", "c++/params.hpp: h5save"]}
{"id": "C137", "title": "Storing raw data does not change whether a run succeeds", "statement": "A run that ends with success without `h5raw` also does so with it: in particular a step that is repeated because too few states were computed (`restart`) can be stored, and all names of operators can be stored.", "quantifier": "all runs, switches, numbers of repetitions of a step, names of operators", "why_tests_cant": "Whether a step is repeated depends on the spectrum.", "anchors": ["c++/core.hpp: hamiltonian, do_diag", "c++/h5.hpp: h5_dump_matrix", "c++/stats.hpp: h5save_nrg"]}
{"id": "C138", "title": "The program h5write stores a number or a matrix in an HDF5 file and leaves the rest", "statement": "A run of `h5write` ends with success if and only if there are three operands, the HDF5 file exists or -t is given, the input is a number (with -s) or a text file with a matrix, and the name is free in the file. Then the value is found under this name, under every other name the file contains what it did before (nothing with -t), and no other file is changed. A matrix saved as text by the other tools is stored as it is. Several runs with names that are apart succeed in every order, and all values are found.", "quantifier": "all command lines, HDF5 files, text files, names, sequences of runs", "why_tests_cant": "Any contents of the files, any order of runs.", "anchors": ["tools/h5write/h5write.hpp: H5Write, h5_copy_matrix_from_file", "c++/io.hpp: read_matrix_text, save_matrix", "c++/h5.hpp: h5_dump_scalar, h5_dump_matrix"]}
{"id": "C139", "title": "h5write: a run that fails changes nothing, and only numbers are accepted as numbers", "statement": "A run of `h5write` that ends with an error changes no file. With -s every number is accepted and nothing else.", "quantifier": "all command lines and files", "why_tests_cant": "Depends on the order of opening and reading, and on all texts of the operand.", "anchors": ["tools/h5write/h5write.hpp: parse_cmd_line, run", "c++/misc.hpp: atof"]}
{"id": "C140", "title": "The program bw from command line and raw spectra to its files", "statement": "With settings with which it can work and complete raw spectra, `bw name b0 Nz` ends with success. The file `a<i>.dat` of the last iteration, and with -s of every iteration, is then the adaptively broadened spectrum of that iteration for the mean of the raw spectra of all calculations, with the numbers of the options or their default values. Only the files that belong to the options are written, all under different names, and their contents do not depend on what was there before. To average with `binavg` first and to apply `bw -o` to the result makes no difference.", "quantifier": "all command lines, raw spectra, numbers of calculations and iterations, files present before", "why_tests_cant": "Any order of options, any number of calculations; equality of two ways to compute for all inputs.", "anchors": ["tools/bw/bw.cc: cmd_line, load, read_files, merge, save, main", "tools/binavg/binavg.hpp: save_binary"]}
{"id": "C141", "title": "bw: success means a result, and a run leaves other results alone", "statement": "A run of `bw` ends with an error if a raw spectrum is missing or incomplete or if an option has an unusable value; if it ends with success there is a spectrum. Results of runs for different spectra are kept.", "quantifier": "all command lines, raw spectra, and pairs of runs", "why_tests_cant": "Whether a run ends cannot be observed in finite time; all texts of the arguments.", "anchors": ["tools/bw/bw.cc: cmd_line, load, make_mesh, save, main"]}
