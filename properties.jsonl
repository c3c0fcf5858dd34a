{"id": "C01", "title": "Iteration budget", "statement": "A call to UltT2CC.kernel() performs at most min(max_iter, 76) amplitude updates, and when max_iter exceeds 76 an unconverged run ends the process instead of continuing.", "quantifier": "every max_iter, every residual function, every energy function, every stopping_eps, with and without DIIS", "why_tests_cant": "the number of updates depends on an unbounded family of integrals and on max_iter; a test fixes one molecule and one limit", "anchors": ["UT2/kernel.py:UltT2CC.kernel (316-318)"]}
{"id": "C02", "title": "The loop stops at the first small energy change", "statement": "When kernel() leaves its loop early, the last two energies differ by less than stopping_eps, and no earlier pair of successive energies did.", "quantifier": "every energy sequence produced by the iteration, every stopping_eps, every max_iter", "why_tests_cant": "needs every possible sequence of energies, not the one a molecule gives", "anchors": ["UT2/kernel.py:UltT2CC.kernel (451-462)"]}
{"id": "C03", "title": "The reported energy belongs to the returned amplitudes", "statement": "Whenever kernel() returns, the electronic energy used in the reported total energy is the energy functional evaluated at exactly the amplitudes that are returned and dumped, also after a DIIS extrapolation.", "quantifier": "every run that returns, any residual/energy function, any DIIS setting", "why_tests_cant": "an off-by-one between energy and amplitudes is numerically invisible at convergence", "anchors": ["UT2/kernel.py:UltT2CC.kernel (316-475)", "UT2/t2energySlow.py:ccd_energyMain", "UT2/t2energy.py:ccd_energyMain"]}
{"id": "C04", "title": "Non-convergence is reported", "statement": "If the iteration limit is reached without meeting the tolerance, the caller is told (an exception), and never receives an energy as if the run had converged.", "quantifier": "every max_iter, every tolerance, every system", "why_tests_cant": "the failing input is one whose iteration does not converge; tests only use convergent molecules", "anchors": ["UT2/kernel.py:UltT2CC.kernel (463-464)", "UT2/run_ccd.py:ccd_kernel (for/else)", "UT2/run_ccd_SOslow.py:ccd_kernel (347-348)", "UT2/test.py:DriveCC.kernel (208-215)"]}
{"id": "C05", "title": "Fixed points of the update are the solutions of the residual equations", "statement": "One amplitude update leaves the amplitudes unchanged exactly when the residual vanishes at every index, provided no denominator is infinite or zero.", "quantifier": "every amplitude tensor, every residual tensor, every denominator tensor of any shape with nonzero entries", "why_tests_cant": "both directions quantify over all tensors", "anchors": ["UT2/t2residEqnsSlow.py:residMain", "UT2/t2residEqns.py:residMain", "UT2/fullCCresidEqns.py:residMain (130-175)"]}
{"id": "C06", "title": "User settings are honoured", "statement": "max_iter, stopping_eps, diis_size and diis_start_cycle given by the caller in cc_runtype are the values the iteration uses.", "quantifier": "every cc_runtype dictionary with any method key", "why_tests_cant": "the dictionary space is unbounded; tests use dictionaries with the method key only", "anchors": ["UT2/run_ccd.py:ccd_main (125-243)", "docs/calc_setup.rst"]}
{"id": "C07", "title": "Documented defaults", "statement": "When a setting is absent from cc_runtype the documented default is used (stopping_eps 1e-10, max_iter 75, dump_tamps False), and filling in defaults never changes a key the caller supplied other than hf_energy and nuclear_energy (for methods run through fullCCType and ccdTypeSlow).", "quantifier": "every cc_runtype dictionary", "why_tests_cant": "absent/present combinations are unbounded (arbitrary extra keys)", "anchors": ["UT2/run_ccd.py:ccd_main (125-142)"]}
{"id": "C08", "title": "One method key selects one consistent code path", "statement": "For every cc_runtype, the driver, the denominator builder and the kernel agree on which family of equations (spin-integrated, spin-orbital, full) is being run.", "quantifier": "every set of method keys in cc_runtype", "why_tests_cant": "combinations of keys are never tested together", "anchors": ["UT2/run_ccd.py:ccd_main", "UT2/run_ccd.py:get_denoms", "UT2/kernel.py:get_calc"]}
{"id": "C09", "title": "Total energy equals reference plus correlation", "statement": "The two values returned by ccd_main satisfy total = hf_energy + correlation, for every supported method.", "quantifier": "every method name, every converged energy, reference energy and perturbative correction", "why_tests_cant": "tests only compare the total; the second return value is not checked against the first", "anchors": ["UT2/kernel.py:UltT2CC.finalize (226-280)"]}
{"id": "C10", "title": "DIIS history window", "statement": "After any sequence of calls the DIIS object holds exactly the last min(nvecs, number of calls after the warm-up) iterates and their errors, in order and paired.", "quantifier": "every sequence of calls of any length, every nvecs >= 1, every start_iter", "why_tests_cant": "a property of every history", "anchors": ["UT2/diis.py:DIIS.compute_new_vec"]}
{"id": "C11", "title": "DIIS warm-up is the identity", "statement": "The first start_iter calls return the given iterate unchanged and store nothing.", "quantifier": "every start_iter, every sequence of iterates", "why_tests_cant": "all histories", "anchors": ["UT2/diis.py:DIIS.compute_new_vec (46-48)"]}
{"id": "C12", "title": "DIIS extrapolates by an affine combination", "statement": "Whenever the linear solve succeeds, the returned vector is a combination of the stored iterates whose weights sum to one; if all stored iterates are equal the result is that iterate, and one stored iterate is returned unchanged.", "quantifier": "every history of iterates and error vectors of any length", "why_tests_cant": "weights depend on all error vectors", "anchors": ["UT2/diis.py:DIIS.compute_new_vec", "UT2/diis.py:DIIS.get_bmat"]}
{"id": "C13", "title": "DIIS minimises the extrapolated error", "statement": "The DIIS weights minimise the norm of the combined error vector among all weights summing to one.", "quantifier": "every history, every competing weight vector", "why_tests_cant": "universally quantified optimality", "anchors": ["UT2/diis.py:DIIS.get_bmat", "UT2/diis.py:DIIS.compute_new_vec"]}
{"id": "C14", "title": "When the DIIS system is solvable", "statement": "The DIIS linear system has a unique solution exactly when the stored error vectors are affinely independent; in particular it is singular as soon as more than d+1 vectors from a d-dimensional space are stored, or an error vector repeats.", "quantifier": "every list of error vectors of every length and dimension", "why_tests_cant": "iff over all histories", "anchors": ["UT2/diis.py:DIIS.get_bmat"]}
{"id": "C15", "title": "DIIS preserves linear symmetries", "statement": "If every iterate satisfies a linear constraint (for example antisymmetry of the amplitudes, or t2aa = t2bb), every DIIS output satisfies it.", "quantifier": "every linear constraint, every history", "why_tests_cant": "all constraints and histories", "anchors": ["UT2/diis.py:DIIS.compute_new_vec", "UT2/kernel.py:UltT2CC.kernel (338-436)"]}
{"id": "C16", "title": "DIIS packing round-trip", "statement": "Flattening the amplitude blocks into the DIIS vector and slicing it back returns every block unchanged, for each of the three layouts used.", "quantifier": "every block size (number of occupied and virtual orbitals) and every content", "why_tests_cant": "all sizes", "anchors": ["UT2/kernel.py:UltT2CC.kernel (338-436)", "UT2/kernel.py:UltT2CC.__init__ (139-167)"]}
{"id": "C17", "title": "DIIS is usable with every method", "statement": "For every method name and every choice of diis_size the DIIS vector built in an iteration has the same length as the stored previous vector, so the extrapolation is defined.", "quantifier": "every method name string, every method key, every orbital count", "why_tests_cant": "method names are matched by substring, so unbounded", "anchors": ["UT2/kernel.py:UltT2CC.__init__ (130-167)", "UT2/kernel.py:UltT2CC.kernel (338-371)"]}
{"id": "C18", "title": "Every documented method name runs to a result", "statement": "Each method listed in the documentation for its method key gets past amplitude set-up, residual evaluation, DIIS and energy reporting without a KeyError, UnboundLocalError or TypeError, and its advertised correction is included.", "quantifier": "every documented method name under its key, every orbital count and integral set", "why_tests_cant": "the repository's tests for several of these names stop at the first failing call; the claim is over all systems", "anchors": ["UT2/kernel.py:UltT2CC", "UT2/fullCCresidEqns.py:residMain (71-175)", "docs/calc_setup.rst"]}
{"id": "C19", "title": "Perturbation orders from the method name", "statement": "The list of perturbation orders derived from a method name is the consecutive list 5..n where n is the last decimal digit in the name, so it is always contained in 5..9; it is absent exactly when the name has no digit.", "quantifier": "every method name string", "why_tests_cant": "all strings", "anchors": ["UT2/kernel.py:extract_integer (62-83)"]}
{"id": "C20", "title": "XCCD orders read the quadruples of the same pass", "statement": "In an XCCD(n)/UT2-CCD(n) evaluation, the quadruples amplitudes that orders 7 and 9 read back from disk are those written by order 5 from the same doubles amplitudes, whatever was on disk before.", "quantifier": "every initial file content, every sequence of evaluations with any amplitudes, every method name", "why_tests_cant": "depends on every history of the file", "anchors": ["UT2/XCCDbasebuilder.py:build_XCCDbase", "UT2/kernel.py:extract_integer", "UT2/t2energySlow.py:add_XCCenergy"]}
{"id": "C21", "title": "Independent calculations do not share state", "statement": "Creating a StoredInfo for a new calculation starts from empty data: nothing stored by an earlier calculation is visible.", "quantifier": "every sequence of calculations", "why_tests_cant": "all histories; aliasing of mutable defaults is invisible in single-run tests", "anchors": ["UT2/run_ccd.py:StoredInfo.__init__ (41-46)", "UT2/run_ccd.py:ccd_main (171)"]}
{"id": "C22", "title": "StoredInfo lookups", "statement": "A getter with a key returns the value most recently stored under that key; missing keys raise KeyError except for occupation info, which yields None.", "quantifier": "every sequence of setter calls and keys", "why_tests_cant": "all histories", "anchors": ["UT2/run_ccd.py:StoredInfo"]}
{"id": "C23", "title": "Doubles denominators", "statement": "Entry [a,b,i,j] of D2aa/D2ab/D2bb is one over (eps_i+eps_j-eps_a-eps_b) with the orbital energies of the stated spins, for RHF and UHF.", "quantifier": "every set of orbital energies, occupation numbers and indices", "why_tests_cant": "all sizes and values", "anchors": ["UT2/run_ccd.py:get_denoms (979-999)"]}
{"id": "C24", "title": "Singles, triples and quadruples denominators", "statement": "Entry [a..,i..] of D1/D3/D4 for a spin case is one over the sum of occupied minus virtual orbital energies of exactly the spins in the key, for RHF and UHF.", "quantifier": "every set of alpha and beta orbital energies, occupation numbers and indices", "why_tests_cant": "UHF open-shell inputs are never tested for these keys", "anchors": ["UT2/run_ccd.py:get_denoms (1000-1142)", "UT2/set_denoms.py"]}
{"id": "C25", "title": "A gap makes denominators finite and negative", "statement": "If every occupied orbital energy lies strictly below every virtual one, every denominator is defined and negative, so no update divides by zero.", "quantifier": "every orbital energy list with a gap", "why_tests_cant": "all inputs", "anchors": ["UT2/run_ccd.py:get_denoms", "UT2/set_denoms.py"]}
{"id": "C26", "title": "Same-spin integrals are antisymmetric", "statement": "The same-spin integrals built from real AO integrals change sign under exchange of the first two or last two indices and are symmetric under bra-ket exchange.", "quantifier": "every integral tensor with the usual permutational symmetry, every orbital transformation, every size", "why_tests_cant": "all tensors", "anchors": ["UT2/run_ccd.py:generalUHF (1146-1215)", "UT2/run_ccd.py:convertSCFinfo_tmpslow (683-780)"]}
{"id": "C27", "title": "Spin blocking conserves spin", "statement": "Spin-orbital integrals vanish unless spin is conserved, and spin-conserving entries equal the spatial integral.", "quantifier": "every spatial integral tensor, every index", "why_tests_cant": "all sizes", "anchors": ["UT2/run_ccd.py:spin_block_tei (671-680)", "UT2/run_ccd.py:spinorb_from_spatial (1217-1257)", "UT2/run_ccd.py:spinorb_from_UHFspatial (1259-1301)"]}
{"id": "C28", "title": "Occupied plus virtual covers all spin orbitals", "statement": "In the spin-orbital set-up the number of occupied and virtual spin orbitals recorded matches the slices used on the integrals.", "quantifier": "every alpha/beta electron count and basis size", "why_tests_cant": "open-shell counts are not tested", "anchors": ["UT2/run_ccd.py:convertSCFinfo_tmpslow", "UT2/test.py:SetupCC.get_occInfo"]}
{"id": "C29", "title": "Antisymmetrisers produce antisymmetric tensors", "statement": "antisym_T2, antisym_T3 and antisym_T4 return tensors that change sign under every transposition of two occupied or two virtual indices, whatever tensor they are given.", "quantifier": "every input tensor, every size, every index", "why_tests_cant": "all tensors; 576 hand-listed terms", "anchors": ["UT2/tamps.py:antisym_T2,antisym_T3,antisym_T4", "UT2/wicked_T3corr.py:antisym_T2,antisym_T3", "UT2/antisym_t4resids.py:antisym_t4_residual", "UT2/antisym_t4resids.py:antisymmetrize_residual_2_2"]}
{"id": "C30", "title": "Antisymmetrising an antisymmetric tensor rescales it", "statement": "On an already antisymmetric tensor the antisymmetrisers multiply by 4, 36 and 576 respectively.", "quantifier": "every antisymmetric tensor of every size", "why_tests_cant": "all tensors", "anchors": ["UT2/tamps.py", "UT2/wicked_T3corr.py", "UT2/antisym_t4resids.py"]}
{"id": "C31", "title": "The antisymmetrisers are the full signed permutation sums", "statement": "Each antisymmetriser equals the sum over all pairs of an occupied and a virtual permutation, weighted by the product of their signs.", "quantifier": "every input tensor; every listed term", "why_tests_cant": "a wrong sign in one of 576 lines is invisible on symmetric test data", "anchors": ["UT2/tamps.py:antisym_T4 (110-692)", "UT2/antisym_t4resids.py:antisym_t4_residual (475-1054)"]}
{"id": "C32", "title": "Spin-orbital CCD amplitudes stay antisymmetric", "statement": "If the integrals are antisymmetric, the CCD residual of antisymmetric amplitudes is antisymmetric, hence every iterate of a ccdTypeSlow CCD run is antisymmetric.", "quantifier": "every integral tensor and amplitude tensor of any size; every number of iterations", "why_tests_cant": "all tensors and all iterations", "anchors": ["UT2/t2residEqnsSlow.py:ccd_t2residual", "UT2/t2residEqnsSlow.py:residMain"]}
{"id": "C33", "title": "Spin-integrated same-spin amplitudes stay antisymmetric", "statement": "The aaaa and bbbb residuals of the spin-integrated CCD code are antisymmetric whenever the same-spin integrals and amplitudes are.", "quantifier": "every tensor, every size", "why_tests_cant": "all tensors", "anchors": ["UT2/t2residEqns.py:ccd_t2_aaaa_residual", "UT2/t2residEqns.py:ccd_t2_bbbb_residual"]}
{"id": "C34", "title": "Alpha/beta interchange symmetry", "statement": "Exchanging the roles of alpha and beta in all inputs exchanges the aaaa and bbbb residuals and transposes the abab residual; hence a closed-shell calculation keeps t2aa = t2bb and t2ab[a,b,i,j] = t2ab[b,a,j,i] at every iteration.", "quantifier": "every input tensor of any size; every number of iterations", "why_tests_cant": "all tensors", "anchors": ["UT2/t2residEqns.py"]}
{"id": "C35", "title": "Spin-integrated and spin-orbital CCD energies agree", "statement": "The spin-integrated energy equals the spin-orbital energy evaluated on the spin-blocked amplitudes and integrals.", "quantifier": "every amplitude and integral set, every size", "why_tests_cant": "one molecule in the tests", "anchors": ["UT2/t2energy.py:ccd_energy_with_spin", "UT2/t2energySlow.py:ccdEnergy"]}
{"id": "C36", "title": "Spin-integrated and spin-orbital CCD residuals agree", "statement": "Each spin block of the spin-orbital CCD residual on spin-blocked inputs equals the corresponding spin-integrated residual.", "quantifier": "every amplitude and integral set with the stated symmetries, every size", "why_tests_cant": "one molecule in the tests, at convergence only", "anchors": ["UT2/t2residEqns.py", "UT2/t2residEqnsSlow.py:ccd_t2residual"]}
{"id": "C37", "title": "The two generated forms of the CCD equations agree", "statement": "The doubles equations used by the two spin-orbital drivers (residMain of ccdTypeSlow and cceqns_driver of DriveCC with T1 absent) give the same residual for the same amplitudes.", "quantifier": "every antisymmetric amplitude/integral set of every size", "why_tests_cant": "all tensors", "anchors": ["UT2/t2residEqnsSlow.py:ccd_t2residual", "UT2/cc_eqns.py:ccsd_t2resid"]}
{"id": "C38", "title": "Higher methods reduce to lower ones", "statement": "With T3 = 0 the CCSDT singles/doubles equations are the CCSD ones; with T4 = 0 the CCDQ doubles equations are the CCD ones; with T1 = 0 the CCSD doubles equations are the CCD ones.", "quantifier": "every remaining amplitude and integral tensor", "why_tests_cant": "all tensors", "anchors": ["UT2/ccsdt_eqns.py", "UT2/ccdq_eqns.py", "UT2/cc_eqns.py"]}
{"id": "C39", "title": "The first iteration is MP2", "statement": "Starting from zero amplitudes with a diagonal Fock matrix the first CCD update gives the first-order amplitudes and the energy gains exactly the MP2 correlation energy.", "quantifier": "every integral set and orbital energies with a gap", "why_tests_cant": "all inputs", "anchors": ["UT2/t2residEqnsSlow.py", "UT2/kernel.py:UltT2CC.kernel (301)", "UT2/t2residEqns.py"]}
{"id": "C40", "title": "Size consistency of CCD", "statement": "For two non-interacting fragments the CCD energy of the union, at fragment-block amplitudes, is the sum of fragment energies, the residual of the union is the fragment residual on fragment blocks and zero on mixed blocks, and hence every iterate from a block guess stays block-structured.", "quantifier": "every pair of fragments of any size, every amplitude set, every number of iterations", "why_tests_cant": "tests use one neon dimer", "anchors": ["UT2/tests/test_T2module_size_consistency.py", "UT2/t2residEqnsSlow.py", "UT2/t2residEqns.py", "UT2/t2energy.py"]}
{"id": "C41", "title": "Size consistency of the factorised-quadruples methods", "statement": "The same holds for the CCDQf-1 and CCDQf-2 residual corrections and for the (Qf) energy correction.", "quantifier": "every pair of fragments, every amplitude set", "why_tests_cant": "tests use one neon dimer", "anchors": ["UT2/modify_T2resid_T4Qf1.py", "UT2/modify_T2resid_T4Qf2.py", "UT2/modify_T2energy_pertQf.py"]}
{"id": "C42", "title": "Results do not depend on orbital ordering", "statement": "Relabelling occupied orbitals among themselves and virtual orbitals among themselves permutes every residual accordingly and leaves every energy unchanged.", "quantifier": "every relabelling, every input, every residual and energy function", "why_tests_cant": "all permutations", "anchors": ["UT2/t2residEqns.py", "UT2/t2residEqnsSlow.py", "UT2/modify_T2resid_T4Qf1.py"]}
{"id": "C43", "title": "Two-electron systems: quadruples corrections vanish", "statement": "For a closed-shell two-electron system the CCDQf-1 and CCDQf-2 corrections to the residual and the (Qf) energy correction are exactly zero, so all these methods equal CCD.", "quantifier": "every virtual space size, every amplitude and integral set", "why_tests_cant": "tests use H2 in three basis sets", "anchors": ["UT2/tests (test_H2energy)", "UT2/modify_T2resid_T4Qf1.py", "UT2/modify_T2resid_T4Qf2.py", "UT2/modify_T2energy_pertQf.py"]}
{"id": "C44", "title": "LCCD is linear", "statement": "The LCCD residual is an affine function of the amplitudes: the offset removes exactly the quadratic part of the CCD residual.", "quantifier": "every pair of amplitude tensors and weights", "why_tests_cant": "all tensors", "anchors": ["UT2/t2residEqnsSlow.py:doubles_resLCCDoffset,residMain"]}
{"id": "C45", "title": "Contractions are shape-safe", "statement": "No einsum call of the residual and energy modules can fail because of inconsistent dimensions: every subscript letter is used consistently for occupied or virtual dimensions, for all orbital counts.", "quantifier": "every einsum call in the listed modules, every number of occupied and virtual orbitals", "why_tests_cant": "thousands of calls, any sizes (including cases where occupied and virtual counts happen to coincide in tests)", "anchors": ["UT2/t2residEqns.py", "UT2/t2residEqnsSlow.py", "UT2/modify_T2resid_T4Qf1.py", "UT2/modify_T2resid_T4Qf2.py", "UT2/modify_T2energy_pertQf.py", "UT2/cc_eqns.py", "UT2/ccsdt_eqns.py", "UT2/ccdq_eqns.py", "UT2/fullCCresidEqns.py", "UT2/fullCCenergy.py", "UT2/ccdq_resids.py"]}
{"id": "C46", "title": "External doubles amplitudes are antisymmetric after reading", "statement": "After reading an amplitude file in the xacc format, the stored doubles tensor is antisymmetric in its virtual and in its occupied indices.", "quantifier": "every file content", "why_tests_cant": "unbounded file contents", "anchors": ["UT2/xacc.py:run_xacc.read_tamps (102-142)"]}
{"id": "C47", "title": "Last record wins", "statement": "When an integral or amplitude file repeats an index quadruple, the last record determines the stored value and entries not mentioned are zero.", "quantifier": "every file content", "why_tests_cant": "unbounded file contents", "anchors": ["UT2/xacc.py:run_xacc.read_tei (79-98)", "UT2/xacc.py:run_xacc.read_tamps"]}
{"id": "C48", "title": "Spin-orbital pCCD", "statement": "With antisymmetric spin-orbital integrals the pCCD projection used by ccdTypeSlow keeps only entries [a,a,i,i]; a pCCD calculation reports a non-trivial correlation energy.", "quantifier": "every integral set, every iteration count", "why_tests_cant": "all inputs", "anchors": ["UT2/t2residEqnsSlow.py:residMain (36-44, 72-80)"]}
{"id": "C49", "title": "Amplitude files can be reused", "statement": "Amplitudes written by dump_tamps are read back in the shape the perturbative-correction driver needs, with singles optional: supplying a singles file works.", "quantifier": "every amplitude content and shape, every choice of files", "why_tests_cant": "file contents and shapes are unbounded", "anchors": ["UT2/amphandler.py:AmpHandler.getAmps (34-56)", "UT2/kernel.py:UltT2CC.kernel (466-469)"]}
{"id": "C50", "title": "(T) energy includes singles and doubles parts", "statement": "The perturbative triples energy is the sum of its singles-bra and doubles-bra contributions.", "quantifier": "every amplitude and integral set", "why_tests_cant": "tests use zero singles, where dropping the term is invisible", "anchors": ["UT2/pdagq_T3corr.py:pdagq_T3energy (39-49)"]}
{"id": "C51", "title": "The two perturbative triples routes agree", "statement": "The pdaggerq and wicked generated second-order triples residuals are the same tensor up to index order, for the same amplitudes and integrals.", "quantifier": "every antisymmetric amplitude and integral set of every size", "why_tests_cant": "one molecule in the tests", "anchors": ["UT2/pdagq_T3corr.py:build_T3", "UT2/wicked_T3corr.py:build_T3_secondO,antisym_T3"]}
{"id": "C52", "title": "Perturbative corrections use the converged amplitudes", "statement": "The (Qf) correction is evaluated with de-excitation amplitudes that are the transpose of the returned doubles amplitudes.", "quantifier": "every run that returns, any residual function", "why_tests_cant": "at tight convergence the difference is below the test tolerance", "anchors": ["UT2/kernel.py:UltT2CC.kernel (320)", "UT2/kernel.py:UltT2CC.set_l2amps", "UT2/kernel.py:UltT2CC.finalize", "UT2/t2energy.py:ccd_energyMain"]}
{"id": "C53", "title": "Amplitude and residual setters", "statement": "set_tamps and set_resid with a label change only that entry; without a label they replace everything.", "quantifier": "every dictionary, label and value", "why_tests_cant": "all histories", "anchors": ["UT2/kernel.py:UltT2CC.set_tamps", "UT2/kernel.py:UltT2CC.set_resid"]}
{"id": "C54", "title": "DriveCC reports a consistent total energy", "statement": "For the DriveCC driver, the stored total energy equals hf energy plus stored correlation energy.", "quantifier": "every energy value", "why_tests_cant": "tests do not cover this driver", "anchors": ["UT2/test.py:DriveCC.kernel (194-195)", "UT2/test.py:DriveCC.finalizeCC"]}
{"id": "C55", "title": "DriveCC amplitude set-up is consistent", "statement": "For every method string the amplitudes created, the denominators created and the DIIS vector refer to the same excitation ranks.", "quantifier": "every method string", "why_tests_cant": "method strings are matched by substring", "anchors": ["UT2/tamps.py:set_tampsSLOW,get_oldvec", "UT2/test.py:SetupCC.get_denomsSlow", "UT2/cc_eqns.py:cceqns_driver"]}
{"id": "C56", "title": "Open-shell references are supported", "statement": "With UHF orbitals and different numbers of alpha and beta electrons the spin-integrated energy uses the beta occupied space for beta quantities.", "quantifier": "every alpha/beta electron count, every Fock and integral tensor", "why_tests_cant": "only equal counts are tested", "anchors": ["UT2/t2energy.py:ccd_energy_with_spin (66-101)", "UT2/t2residEqns.py"]}
{"id": "C57", "title": "The CCD energy is linear in the amplitudes around the reference", "statement": "At zero amplitudes the energy is the reference electronic energy and the correlation part is linear in the doubles amplitudes.", "quantifier": "every amplitude and integral set", "why_tests_cant": "all tensors", "anchors": ["UT2/t2energy.py:ccd_energy_with_spin", "UT2/t2energySlow.py:ccdEnergy"]}
{"id": "C58", "title": "Aliased zero amplitudes are harmless", "statement": "The amplitude blocks that initially share one zero array never influence each other through in-place updates.", "quantifier": "every run, any number of iterations", "why_tests_cant": "aliasing effects only appear for in-place updates", "anchors": ["UT2/kernel.py:UltT2CC.__init__ (124-156)"]}
{"id": "C60", "title": "UCC(4) doubles stay antisymmetric", "statement": "One pass of drive_ucc4.resid_main from antisymmetric amplitudes gives antisymmetric doubles and triples.", "quantifier": "every antisymmetric amplitude and integral set of every size", "why_tests_cant": "one small molecule with a scalar energy; with fewer than four occupied or virtual spin orbitals the broken symmetry cannot show", "anchors": ["UT2/drive_ucc4.py:resid_main (27-93)", "UT2/drive_ucc4.py:offset_t2resid_t2dag_w_t2 (195-213)"]}
{"id": "C64", "title": "Spin-integrated higher methods agree with the spin-orbital ones", "statement": "The spin blocks of the CCSDT singles and doubles residuals, the CCDQ doubles residual, the approximate triples, the CCSD energy and the [T] energy are the entries of the corresponding spin-orbital arrays.", "quantifier": "every number of orbitals, every Fock, integral and amplitude set with the required symmetries, every entry", "why_tests_cant": "hundreds of generated terms; tests compare single energies of small molecules", "anchors": ["UT2/fullCCresidEqns.py", "UT2/fullCCenergy.py", "UT2/ccdq_resids.py", "UT2/build_approxT3full.py", "UT2/square_brakT_corr.py", "UT2/ccsdt_eqns.py", "UT2/ccdq_eqns.py", "UT2/pdagq_T3corr.py"]}
{"id": "C65", "title": "Alternative forms of the factorised quadruples agree", "statement": "The doubles residual contributions of factorised quadruples computed by cc_energy/build_qf_correction (wicked) and modify_T2resid_T4Qf1Slow (pdaggerq) are the same arrays, and the two triples contributions of cc_energy are equal.", "quantifier": "every antisymmetric amplitude and integral set of every size, every entry", "why_tests_cant": "more than a hundred generated terms, any sizes", "anchors": ["UT2/cc_energy.py:optWnT2sqr,optWnT3,T3portion_Qf", "UT2/build_qf_correction.py:wnT2cubed_toT2", "UT2/modify_T2resid_T4Qf1Slow.py"]}
{"id": "C66", "title": "Alternative forms of the quadruples residual agree", "statement": "The generated quadruples residuals of antisym_t4resids and build_qf_correction equal the antisymmetrised short forms of modify_T2resid_T4Qf1Slow.", "quantifier": "every antisymmetric amplitude and integral set of every size, every entry", "why_tests_cant": "576-term antisymmetrisers and eight-index arrays; tests contract them to one number", "anchors": ["UT2/antisym_t4resids.py", "UT2/build_qf_correction.py:wnT2cubed_toT4", "UT2/modify_T2resid_T4Qf1Slow.py:unsym_residQf1,unsym_residQf2"]}
{"id": "C59", "title": "Occupied spin orbitals of the SCF result occupy the first places", "statement": "After sorting the spin-orbital energies in convertSCFinfo_tmpslow, the first na+nb places hold exactly the spin orbitals that the SCF result occupies.", "quantifier": "every number of orbitals and electrons, every set of orbital energies, every sorting permutation consistent with argsort (ties broken any way)", "why_tests_cant": "test molecules are closed shell or have a large gap; the property depends on the order of alpha against beta energies", "anchors": ["UT2/run_ccd.py:convertSCFinfo_tmpslow"]}
{"id": "C70", "title": "Both set-ups lead to the same calculation", "statement": "Starting from one SCF result, the spin-orbital CCD calculation (sorted spin orbitals) and the spin-integrated CCD calculation have the same energy in every iteration.", "quantifier": "every number of orbitals and occupied orbitals, every integral array with the permutational symmetries, every pair of orbital coefficient matrices that diagonalises the Fock matrices, every sorting permutation, every iteration number", "why_tests_cant": "tests compare converged energies of a few molecules; the set-ups use different index orders and different equations", "anchors": ["UT2/run_ccd.py:convertSCFinfo_tmpslow", "UT2/run_ccd.py:generalUHF", "UT2/t2residEqns.py:residMain", "UT2/t2residEqnsSlow.py:residMain"]}
{"id": "C71", "title": "Interleaved integrals are symmetric under exchange of the two electrons", "statement": "The two-body array built by spinorb_from_UHFspatial satisfies h[p,q,r,s] = h[q,p,s,r].", "quantifier": "every number of orbitals and every integral and coefficient arrays", "why_tests_cant": "restricted orbitals hide the missing transposition of the mixed block", "anchors": ["UT2/run_ccd.py:spinorb_from_UHFspatial"]}
{"id": "C69", "title": "Correction-only runs return the total energy and the correction", "statement": "A run that only evaluates a perturbative correction on amplitudes read from files (key pertCorr) returns the total energy including the correction and the correction itself.", "quantifier": "every requested correction, every set of amplitudes", "why_tests_cant": "the route needs external files and no test runs it", "anchors": ["UT2/amphandler.py", "UT2/run_ccd.py"]}
{"id": "C72", "title": "DriveCC ends with a result", "statement": "DriveCC runs to its end without an exception and reports energies, or reports that the iterations did not converge.", "quantifier": "every method name, every sequence of energies and residuals", "why_tests_cant": "the failing branches are never taken by the test inputs", "anchors": ["UT2/test.py:DriveCC", "UT2/cc_energy.py:perturbE_driver"]}
{"id": "C73", "title": "determine_pCCD_correction leaves its argument alone", "statement": "The function that splits off the pCCD part of an energy does not change the amplitude array of its caller.", "quantifier": "every size, every amplitude and integral array", "why_tests_cant": "the effect is visible only in later orders computed from the same array", "anchors": ["UT2/amphandler.py:run_wickedTest.determine_pCCD_correction"]}
{"id": "C74", "title": "The off-diagonal energy is the energy of the remaining amplitudes", "statement": "The energy returned by determine_pCCD_correction (full minus diagonal portion) equals the energy of the amplitudes whose diagonal entries have been set to zero, the check the function prints.", "quantifier": "every size, every antisymmetric integral array and amplitude array", "why_tests_cant": "only printed; depends on which orbitals the diagonal integrals belong to", "anchors": ["UT2/amphandler.py:run_wickedTest.determine_pCCD_correction"]}
{"id": "C75", "title": "The residuals are the projected Schroedinger equation", "statement": "For every Hamiltonian with Fock matrix f and antisymmetrised integrals g, and for all amplitudes, the CCD, CCSD, CCSDT and CCDQ residual arrays and the energies returned by the spin-orbital modules are the matrix elements <bra| e^-T H e^T |Phi> of second quantisation: the entry of a residual for occupied i,j,.. and virtual a,b,.. is the projection on the determinant excited from i,j,.. to a,b,.., and the energy is the projection on the reference (for triples and quadruples up to the nine-digit rounding of the printed coefficients, bounded by 5e-10 per term).", "quantifier": "every number of occupied and virtual orbitals, every Hamiltonian, every amplitude array, every excited determinant, any representation of the fermion operators", "why_tests_cant": "a test compares a converged energy for one molecule; a wrong term that vanishes or cancels there, or contributes below the tolerance, goes unnoticed", "anchors": ["UT2/cc_eqns.py:ccsd_t1resid", "UT2/cc_eqns.py:ccsd_t2resid", "UT2/ccsdt_eqns.py:ccsdt_t1eqns", "UT2/ccsdt_eqns.py:ccsdt_t2eqns", "UT2/ccsdt_eqns.py:ccsdt_t3eqns", "UT2/ccdq_eqns.py:ccdq_t2eqns", "UT2/ccdq_eqns.py:ccdq_t4eqns", "UT2/t2residEqnsSlow.py:ccd_t2residual", "UT2/t2energySlow.py:ccdEnergy", "UT2/cc_energy.py:spinorbitalCCSDE"]}
{"id": "C76", "title": "Coupled-cluster solutions and eigenstates of the Hamiltonian", "statement": "If e^(T1+T2) Phi is an eigenstate of the Hamiltonian, the CCSD residuals of the code vanish and its energy expression is the eigenvalue. For at most two electrons every solution of the CCSD equations of the code gives an exact eigenstate, with the CCSD energy of the code as exact energy; for at most three electrons the same holds for CCSDT.", "quantifier": "every orbital basis, every Hamiltonian, every solution of the equations", "why_tests_cant": "an exact reference is available only for small molecules, and agreement is checked to a tolerance", "anchors": ["UT2/cc_eqns.py:ccsd_t1resid", "UT2/cc_eqns.py:ccsd_t2resid", "UT2/ccsdt_eqns.py:ccsdt_t1eqns", "UT2/ccsdt_eqns.py:ccsdt_t2eqns", "UT2/ccsdt_eqns.py:ccsdt_t3eqns", "UT2/cc_energy.py:spinorbitalCCSDE"]}
{"id": "C77", "title": "Perturbative corrections and offsets are matrix elements of commutators", "statement": "For every Hamiltonian H = F + V (Fock operator plus fluctuation) and all amplitudes: the UCC(4) singles and triples equations, the T1/T3 and T2-squared offsets of its doubles equation, the LCCD offset, the triples residuals of wicked_T3corr and pdagq_T3corr, the [T] and (T) energies, the (Qf) energy, the quadruples residuals wnT2cubed_toT4 and wnT2T3_toT4, and the residual corrections residQf1, residQf2, optWnT3, wnT2T3_toT2 equal the matrix elements <bra| L ... [[V,T],T] |Phi> they are derived from (wnT2T3_toT4 up to nine-digit rounding, at most 5e-10 per term).", "quantifier": "every number of occupied and virtual orbitals, every Hamiltonian, every amplitude and de-excitation array, every entry, any representation of the fermion operators", "why_tests_cant": "tests compare total energies of single molecules to a tolerance; a wrong factor in a small perturbative term can stay below it", "anchors": ["UT2/drive_ucc4.py", "UT2/wicked_T3corr.py", "UT2/pdagq_T3corr.py", "UT2/build_qf_correction.py", "UT2/modify_T2resid_T4Qf1Slow.py", "UT2/modify_T2resid_T4Qf2Slow.py", "UT2/modify_T2energy_pertQfSlow.py", "UT2/cc_energy.py", "UT2/t2residEqnsSlow.py"]}
{"id": "C78", "title": "The XCCD base terms are matrix elements of T2-dagger and commutators", "statement": "For every Hamiltonian and all amplitudes, build_XCCDbase at order 5 is one half of <ijab| T2^+ (1/2)[[V,T2],T2] |Phi>, at order 6 one half of the same with the triple commutator (1/6)[[[V,T2],T2],T2], and at order 7 one sixth of <ijab| T2^+ [[T2^+,T2],T4] |Phi> for the net quadruples amplitudes T4 of order 5, plus the exactly given effect of coefficients rounded to nine digits. The energies of buildXCCD_T2energy are the expectation values obtained by a further de-excitation operator. Order 5 is one half of the CCDQf-1 correction and order 6 one half of residQf2; CCDQf-2 (which uses 1/2 and 1/6) agrees with the sum of orders 5 and 6 only where residQf2 vanishes. The order 5 energy is one half of the (Qf) energy of both spin-orbital and spin-integrated routes.", "quantifier": "every number of occupied and virtual orbitals, every Hamiltonian, all antisymmetric amplitudes, every entry", "why_tests_cant": "the source itself is unsure about the prefactors (run_ccd.py 384); a test compares two numbers for one molecule and cannot say which operator expression is being computed", "anchors": ["UT2/XCCDbasebuilder.py:build_XCCDbase", "UT2/kernel.py:buildXCCD_T2energy", "UT2/t2energySlow.py:add_XCCenergy", "UT2/t2residEqns.py", "UT2/t2energy.py", "UT2/modify_T2resid_T4Qf1Slow.py", "UT2/modify_T2resid_T4Qf2Slow.py"]}
{"id": "C63", "title": "Two systems side by side: residuals, corrections and energies separate for any sizes", "statement": "Take two systems with any orbital sets, and the joint arrays in which every entry mixing the two systems is zero. Then every residual, perturbative correction, quadruples array and energy of the coupled-cluster modules (spin-orbital and spin-integrated; CCSD, CCSDT, CCDQ, triples, UCC(4), quadruples, XCCD) is, on indices of one system, the value of that system; on mixed indices zero; and energies add up. Consequently joint amplitudes of solved subsystems solve the joint equations and the energy is the sum. The one exception in the code is the disconnected term fifthOrder_capC of wicked_T3corr.py.", "quantifier": "all pairs of orbital sets, all integrals and amplitudes, all entries", "why_tests_cant": "size consistency is a statement about pairs of arbitrary systems; a test can only compare a few molecules at large but finite separation", "anchors": ["UT2/t2residEqns.py", "UT2/t2energySlow.py", "UT2/wicked_T3corr.py", "UT2/modify_T2resid_T4Qf1.py", "UT2/XCCDbasebuilder.py"]}
{"id": "C79", "title": "The spin-integrated code solves the projected Schroedinger equation for all spin combinations", "statement": "For every set of spin blocks with the symmetries of the integrals, the blocks aaaa, abab and bbbb of the spin-integrated CCD, CCSDT (T1, T2) and CCDQ (T2) residuals are projections of e^{-T} H e^{T} on excited determinants over spin orbitals, and the spin-summed energy is its vacuum expectation value. If one pass of the CCD iteration leaves the amplitudes unchanged, then the projected equation holds for all spin combinations, including those the code never evaluates, and the reported energy is <Phi|e^{-T} H e^{T}|Phi>.", "quantifier": "every number of occupied and virtual orbitals, every Hamiltonian conserving spin, all amplitudes", "why_tests_cant": "a test sees only the converged energy of a molecule; that the equations not evaluated hold as well is a statement about all amplitudes", "anchors": ["UT2/t2residEqns.py", "UT2/t2energy.py", "UT2/modify_T2resid_T4Qf1.py", "UT2/kernel.py"]}
{"id": "C68", "title": "Energies are invariant and residuals covariant under rotations of the orbitals", "statement": "Transform all integrals and amplitudes with an orthogonal rotation among the occupied and among the virtual orbitals (in the spin-integrated modules with separate rotations for alpha and beta orbitals). Then every energy and perturbative correction is unchanged, and every residual and quadruples or triples array is transformed like an amplitude array. So rotated solutions of the CCD, CCSD, CCSDT and CCDQ equations are solutions with the same energy. Only the pair energy pccdEnergy depends on the choice of orbitals.", "quantifier": "all sizes, all rotations, all integrals and amplitudes without any symmetry assumption, all entries", "why_tests_cant": "a test would need to compare transformed inputs for all rotations; a wrong contraction that happens to agree for canonical orbitals (diagonal Fock matrix) is invisible to tests with canonical orbitals", "anchors": ["UT2/t2residEqns.py", "UT2/t2energySlow.py", "UT2/t2energy.py", "UT2/wicked_T3corr.py", "UT2/modify_T2resid_T4Qf1.py", "UT2/XCCDbasebuilder.py"]}
{"id": "C61", "title": "Perturbation energies printed by run_wickedTest", "statement": "For antisymmetric real integrals, the values run_wickedTest prints as full MP2 and full MP3 energy are the second- and third-order energies; the printed off-diagonal MP2 energy leaves out exactly the terms of neighbouring orbitals; for amplitudes that solve the linearised CCD equations, the MP2 energy plus the printed LCCD energy is their energy; kill_Diag_T2 keeps amplitudes antisymmetric.", "quantifier": "every number of orbitals, every integral array with the symmetries of antisymmetrised real integrals, all orbital energies without zero denominators", "why_tests_cant": "only printed; signs and prefactors matter for every system", "anchors": ["UT2/amphandler.py:run_wickedTest (202-303)", "UT2/wicked_T3corr.py:antisym_T2"]}
{"id": "C80", "title": "The two routes of run_UCCDcheck agree", "statement": "For antisymmetric amplitudes and antisymmetrised real integrals run_UCCDcheck prints the same energy for diagram C computed directly and through the antisymmetrised residual, and the same energy for diagrams A and B.", "quantifier": "every number of orbitals, all integrals and amplitudes with those symmetries", "why_tests_cant": "the comparison is made by eye for one molecule", "anchors": ["UT2/amphandler.py:run_UCCDcheck"]}
{"id": "C81", "title": "Closed-shell amplitudes stay spin adapted", "statement": "For a closed-shell reference (integrals and denominators that do not depend on the spin), the same-spin amplitudes of the spin-integrated CCD, CCDQf-1 and CCDQf-2 equal the mixed-spin amplitudes minus their exchange in every iteration, and the mixed-spin amplitudes are symmetric under exchange of the two electrons. The set-up code `generalUHF` on RHF orbitals produces such a start, and the energy is the closed-shell formula sum (2<ij|ab> - <ij|ba>) t_ij^ab on top of the Hartree-Fock energy.", "quantifier": "all finite sets of occupied and virtual orbitals, all closed-shell integrals and start amplitudes, all method names, all iteration counts", "why_tests_cant": "The code computes the aaaa, bbbb and abab blocks with three separate functions of many contractions; a wrong term in one block breaks the relation only for some integrals, and energies of small molecules agree to printed digits by accident. No finite set of molecules covers all orbital counts.", "anchors": ["UT2/t2residEqns.py:18-96", "UT2/t2energy.py:58-103", "UT2/kernel.py:200-206", "UT2/kernel.py:311-345", "UT2/run_ccd.py:1146-1215"]}
{"id": "C67", "title": "Conserved charges give selection rules for every function and every iteration", "statement": "Let every orbital carry a charge in an abelian group (spin projection, crystal momentum, irreducible representation of an abelian point group; alpha and beta orbitals may be labelled differently). If integrals and amplitudes vanish unless the charges of bra and ket balance, then so do the results of every residual, correction and intermediate function of the library, spin-orbital and spin-integrated, and the amplitudes after any number of iterations of CCD, LCCD, pCCD, CCDQf-1, CCDQf-2 and UCC(4).", "quantifier": "all abelian groups, all charges of orbitals, all orbital sets, all arrays that conserve the charge, all iteration counts", "why_tests_cant": "A term with a wrong index pattern violates symmetry only when the molecule has the symmetry and the block involved is populated; tests compare total energies of a few molecules, where such entries vanish or are tiny.", "anchors": ["UT2/t2residEqns.py:18-96", "UT2/t2residEqnsSlow.py:10-105", "UT2/drive_ucc4.py:27-93", "UT2/cc_eqns.py", "UT2/ccsdt_eqns.py", "UT2/ccdq_eqns.py", "UT2/kernel.py:311-345"]}
{"id": "C62", "title": "Whole calculations with DIIS return amplitudes with the symmetries of the problem", "statement": "If UltT2CC.kernel with ccdType CCD, CCD(Qf) (with or without DIIS) or CCDQf-1, CCDQf-2 (without DIIS) returns, the amplitudes it returns are antisymmetric in the same-spin blocks, obey the selection rules of every charge that the integrals conserve, and for a restricted reference are those of a singlet (t2aa = t2ab minus its exchange), with the returned energy equal to the closed-shell energy of the returned t2ab. With DIIS, CCDQf-1 and CCDQf-2 never return: the first pass ends in a KeyError (C17).", "quantifier": "all orbital spaces, integrals, starting amplitudes, denominators symmetric in the pairs, iteration limits, tolerances, DIIS sizes and starting cycles, and charges in any abelian group", "why_tests_cant": "Tests run a few molecules with one DIIS setting; the claim is about the composition of residuals, DIIS extrapolation and stopping rule in all runs.", "anchors": ["UT2/kernel.py:282-475", "UT2/diis.py:40-98", "UT2/t2residEqns.py", "UT2/t2energy.py"]}
{"id": "C82", "title": "Whole calculations do not depend on which spin is called alpha nor on the order of the orbitals", "statement": "Exchanging the two spins in the integrals, denominators and starting amplitudes, or renaming the orbitals within the occupied and within the virtual space, makes UltT2CC.kernel with CCD, CCDQf-1 or CCDQf-2 fail in the same way or return after the same number of iterations with the same energies and the exchanged or renamed amplitudes, with or without DIIS (with DIIS, CCDQf-1 and CCDQf-2 fail in both cases, C17). The total energy and corrE that finalize() sets, with the factorised-quadruples correction of CCD(Qf), are the same numbers too.", "quantifier": "all orbital spaces with the same range for both spins, integrals with their symmetries, starting amplitudes, denominators, iteration limits, tolerances, DIIS sizes and starting cycles", "why_tests_cant": "It compares two runs for all inputs, including the singular-matrix failure of DIIS; a test compares two runs of one molecule.", "anchors": ["UT2/kernel.py:282-475", "UT2/diis.py:40-98", "UT2/t2residEqns.py", "UT2/t2energy.py", "UT2/kernel.py:226-280 (finalize)"]}
{"id": "C83", "title": "Every spin block of the triples and quadruples residuals is the matrix element it stands for", "statement": "For arrays with the symmetries of spin-integrated integrals and amplitudes: the four blocks of the CCSDT triples residual (fullCCresidEqns) and the five blocks of the CCDQ quadruples residual (ccdq_resids) equal the spin-orbital functions ccsdt_t3eqns and ccdq_t4eqns at the spin orbitals of the block, and equal the projections of the similarity-transformed Hamiltonian onto triples and quadruples, up to the rounding of the printed coefficients, at most 2e-13 each. The five blocks ccsdtq_t4_* are exactly <ijkl abcd| 1/2 [[V,T2],T2] + [V,T3] |0>, the five blocks ccsdtqT2cubed_t4_* exactly <ijkl abcd| 1/6 [[[V,T2],T2],T2] |0>, the three blocks of testing_modifyT2eqns_with_T4 exactly <ij ab| L2 (1/2 [[V,T2],T2] + [V,T3]) |0>, and the energy of fullCCenergy.energy_pertQf is 1/16 sum g l2 t4 over spin orbitals.", "quantifier": "all finite sets of occupied and virtual orbitals, all arrays with the symmetries, all fields of characteristic zero, every representation of the fermion algebra, every number of commutators beyond the last that contributes", "why_tests_cant": "The blocks are separate generated functions of thousands of contractions; an error in a block that vanishes for few electrons (aaaaaaaa needs four alpha electrons and four alpha virtuals) shows in no small test.", "anchors": ["UT2/fullCCresidEqns.py", "UT2/ccdq_resids.py", "UT2/fullCCenergy.py", "UT2/testing_modifyT2eqns_with_T4.py"]}
{"id": "C84", "title": "The (Qf) correction of the CCSDT driver is half of <T2(1)† T2† (1/2[[V,T2],T2]+[V,T3])>, with the cubic term for Qf*", "statement": "fullCC_energyMain(get_perturbCorr=True) returns, for every method string, 1/2 <0| T2(1)^dagger T2^dagger ( 1/2 [[V,T2],T2] + [V,T3] ) |0>, where T2(1) = g*D2 are the first-order doubles, V the fluctuation potential in spin orbitals and T3 the stored triples, or for \"CCSD(Qf)\" the second-order triples <0| bra3 [V,T2] |0> * D3; for \"CCSDT(Qf*)\" and \"CCD(Qf*)\" it has 1/6 [[[V,T2],T2],T2] added inside. Without triples it equals the factorised energy of order 5 of the spin-orbital XCCD code (orders 5 and 6 for the methods with a star) on the same arrays written in spin orbitals. With get_perturbCorr=False it returns the CCSD energy in spin orbitals.", "quantifier": "all orbital sets and sizes with disjoint occupied and virtual ranges, all spin-blocked integrals, Fock matrices and amplitudes with the permutation symmetries of their spin blocks, all symmetric denominators, all method strings, any field of characteristic 0, any algebra of fermion operators with a Fermi vacuum", "why_tests_cant": "A test compares one number for one molecule. Ten residual functions of up to 600 lines and an energy function with a weight for each spin block have to fit together; a wrong weight can hide behind a small spin block, and the identity with the spin-orbital code is between two programs that share no line.", "anchors": ["UT2/fullCCenergy.py:9-162 (fullCC_energyMain)", "UT2/fullCCenergy.py:230-342 (energy_pertQf)", "UT2/fullCCenergy.py:165-226 (ccsd_energy_with_spin)", "UT2/build_approxT3full.py", "UT2/kernel.py:259-260 (finalize)", "UT2/kernel.py:524 (buildXCCD_T2energy)", "UT2/t2energySlow.py:66 (add_XCCenergy)"]}
{"id": "C85", "title": "Whole spin-orbital calculations: antisymmetry, agreement with the spin-integrated calculation, and what UT2-CCD(n) and XCCD(n) report", "statement": "For cc_runtype ccdTypeSlow with CCD, LCCD, pCCD, XCCD(n), UT2-CCD(n): (a) the amplitudes kernel() ends with are antisymmetric, with DIIS on or off. (b) Without DIIS, kernel() with ccdTypeSlow and kernel() with ccdType, given the same integrals and orbital energies, end with the same energy and the same amplitudes; the spin-orbital run starts from first-order amplitudes and is one pass ahead, so it lists one energy less (provided the first change of the energy is not below the threshold). (c) finalize() for UT2-CCD(5) and UT2-CCD(6) reports the energy <exp(-T2) H exp(T2)> of the returned amplitudes plus 1/2 <T2(1)^dagger T2^dagger (1/2 [[V,T2],T2] (+ 1/6 [[[V,T2],T2],T2]))>, added once to the total energy and to the correlation energy. (d) The energy of XCCD(5) and XCCD(6) is the same with T2^dagger in place of T2(1)^dagger. (e) A pass of XCCD(5) or XCCD(6) leaves an amplitude unchanged exactly if <ij->ab| exp(-T2) H exp(T2) + 1/2 T2^dagger (1/2 [[V,T2],T2] (+ 1/6 [[[V,T2],T2],T2])) |0> = 0. (f) Without DIIS a calculation of one to 76 passes always returns. (g) In a pass with DIIS the amplitudes are those of the update as long as DIIS waits; afterwards each amplitude is the combination, with weights that sum to one, of the same amplitude of stored updates, and the latest update is among them.", "quantifier": "all orbital sets and sizes, all antisymmetric integrals, all orbital energies or symmetric denominators, all thresholds, any number of passes, all DIIS depths and start cycles, any algebra of fermion operators with a Fermi vacuum", "why_tests_cant": "A test runs one molecule to one threshold and compares the first decimals of the energies of two routes. That two iterations agree in every pass, that extrapolation keeps the symmetry, and that the equations solved are the projected XCC equations, are statements about all inputs.", "anchors": ["UT2/kernel.py:84-180 (__init__)", "UT2/kernel.py:226-280 (finalize)", "UT2/kernel.py:282-475 (kernel)", "UT2/t2residEqnsSlow.py:10-105 (residMain)", "UT2/t2energySlow.py:14-84 (ccd_energyMain, add_XCCenergy)", "UT2/XCCDbasebuilder.py:6-87 (build_XCCDbase)", "UT2/t2residEqns.py (residMain)"]}
{"id": "C86", "title": "The choice of orbitals inside degenerate levels has no effect on a calculation", "statement": "For cc_runtype ccdType (CCD, CCD(Qf), CCDQf-1, CCDQf-2): replace the orbital coefficients given to the set-up by other orthonormal combinations of orbitals of the same spin, the same occupation and the same orbital energy. Then kernel() fails in the same way, or it runs through the same iterations and ends with the same energies and the same list of printed energies, and the amplitudes it ends with are the rotated ones; the total energy and corrE that finalize() sets, with the factorised-quadruples correction of CCD(Qf), are the same numbers. This holds with DIIS on or off (with DIIS on, CCDQf-1 and CCDQf-2 fail for every choice, C17).", "quantifier": "all orbital sets and sizes, all integrals, all alpha and beta orbital energies, all orthogonal matrices that mix only orbitals of equal energy, all thresholds, numbers of passes, DIIS depths and start cycles", "why_tests_cant": "The orbitals that an eigenvalue routine returns for a degenerate level are arbitrary, so a test sees one choice; there are infinitely many, and DIIS could depend on the choice through its inner products even if residual and energy do not.", "anchors": ["UT2/kernel.py:282-475 (kernel)", "UT2/kernel.py:361-436 (DIIS vector)", "UT2/t2residEqns.py:6-93 (residMain)", "UT2/t2energy.py (ccd_energyMain)", "UT2/run_ccd.py:1146-1215 (generalUHF)", "UT2/modify_T2energy_pertQf.py (energy_pertQf)"]}
{"id": "C87", "title": "A whole CCDQ calculation keeps the structure of its amplitudes and solves the equations it is meant to solve", "statement": "For cc_runtype fullCCType with the name CCDQ, kernel() from antisymmetric integrals and amplitudes: the doubles and quadruples it returns are antisymmetric in orbitals of equal spin, singles and triples are zero, and the amplitudes obey every selection rule that the integrals obey. Exchanging alpha and beta, or listing the orbitals in another order, gives the same failure or the same energies after the same number of passes, and the amplitudes exchanged or reordered. A pass leaves an amplitude as it is exactly if the projection of H exp(T2+T4) on its determinant vanishes (quadruples: up to the rounding of the printed coefficients, at most 2e-13 each). The returned energy is the expectation value of H exp(T2+T4) for the returned amplitudes, and finalize() adds the nuclear repulsion only. With one occupied orbital all quadruples are zero. All of this holds with and without DIIS. Any other method name ends in an UnboundLocalError in the first pass.", "quantifier": "all orbital sets and sizes, all real integrals, orbital energies and starting amplitudes, all thresholds, numbers of passes, DIIS depths and start cycles, all method names", "why_tests_cant": "A test runs one molecule for one number of passes; the structure of the quadruples (eight indices, five spin blocks, about 3000 printed contractions) and its survival through DIIS for every input is a statement about infinitely many runs.", "anchors": ["UT2/kernel.py:282-475 (kernel)", "UT2/kernel.py:348-359 (DIIS vector)", "UT2/fullCCresidEqns.py:10-188 (residMain)", "UT2/fullCCenergy.py (fullCC_energyMain)", "UT2/ccdq_resids.py (ccdq_t2_*, ccdq_t4_*)", "UT2/run_ccd.py:1085-1136 (D4)"]}
{"id": "C88", "title": "For weak interaction a CCD-type calculation converges to the one small solution of its equations", "statement": "Multiply the two-electron integrals by a number c and keep a diagonal Fock matrix whose occupied energies lie below the virtual ones. For every method name of cc_runtype ccdType there is a constant C, depending on integrals and orbital energies only, such that for |c| <= 1/C: the residual equations have exactly one antisymmetric solution with entries at most 1; its entries are at most |c| C. kernel() without DIIS, or before DIIS starts, from zero amplitudes returns; after n passes its amplitudes are within |c| C / 2^n of the solution and its energy within c^2 C / 2^n; the energy of every pass and that of the solution differ from reference energy plus second-order (MP2) energy by at most |c|^3 C. If c^2 C / 2^N is below stopping_eps, the loop stops after at most N + 1 passes.", "quantifier": "all orbital sets and sizes, all real antisymmetric integrals, all orbital energies with a gap, all method names, all interaction strengths |c| <= 1/C, all numbers of passes and thresholds", "why_tests_cant": "A test sees that one molecule converges; that there is a neighbourhood of zero interaction in which every calculation converges, to a unique solution and at a given rate, is a limit statement over all passes, strengths and integrals.", "anchors": ["UT2/kernel.py:282-475 (kernel)", "UT2/t2residEqns.py:6-93 (residMain)", "UT2/t2residEqns.py (ccd_t2_*, residQf1_*, residQf2_*)", "UT2/t2energy.py (ccd_energyMain, ccd_energy_with_spin)"]}
{"id": "C89", "title": "What a whole UCC(4) calculation returns", "statement": "kernel() of a spin-orbital calculation with method name 'UCC(4)', with or without DIIS, from symmetric integrals: the returned doubles and triples are antisymmetric; amplitudes obey the selection rules of every charge the integrals conserve; renaming the orbitals renames the amplitudes and changes no energy and no number of passes; with at most two occupied spin orbitals the triples are zero; without DIIS every run of 1 to 76 passes returns; the returned energy is the CCD energy of the returned doubles plus the UCC part of the same doubles, and finalize() reports it plus the nuclear repulsion. With a gap in the orbital energies a pass leaves amplitudes alone exactly if they solve the singles, doubles and triples equations, given by commutators. With a diagonal Fock matrix and a gap a pass sets the singles to the second-order ones, computed from integrals and doubles and divided by e_i - e_a, whatever singles went in, and likewise the triples if the old ones are antisymmetric; the returned energy, written out, contains the part with T2+ T2 over the denominator exactly twice. In a pass with DIIS the update is stored with the error vector (previous vector minus update); while DIIS waits the amplitudes are the update, afterwards singles, doubles and triples are one common combination, with weights that sum to one, of the stored vectors, and that is the previous vector of the next pass. The claim about antisymmetry is violated for the virtual orbitals.", "quantifier": "all orbital sets and sizes, all real symmetric integrals and orbital energies, all DIIS sizes and starting cycles, all numbers of passes and thresholds, all charges, all reorderings of the orbitals", "why_tests_cant": "The statements are about every number of passes with DIIS extrapolation in between, and about all symmetries of all integrals; no test looks at the antisymmetry of the returned doubles, which is lost in the first pass.", "anchors": ["UT2/kernel.py:282-475 (kernel)", "UT2/kernel.py:124-141 (__init__)", "UT2/kernel.py:339-346,373-387 (DIIS for UCC(4))", "UT2/drive_ucc4.py:8-24 (ucc4_energy_simplified)", "UT2/drive_ucc4.py:26-70 (resid_main)"]}
{"id": "C90", "title": "Calculations do not depend on the unit of energy", "statement": "Give kernel() all energies in another unit: integrals, Fock matrix, stopping_eps, nuclear repulsion and reference energy times c > 0, denominators divided by c. The calculation fails in the same way or returns the same amplitudes after the same number of passes, and every energy (of each pass, of the result, and those finalize() reports) is c times the old one. Holds for all spin-integrated calculations (every name of ccdType), all spin-orbital ones (CCD, LCCD, pCCD, XCCD(n), UT2-CCD(n)), CCDQ, and for the energies of fullCC_energyMain with and without the perturbative correction. Violated for UCC(4).", "quantifier": "all c > 0, all orbital sets and sizes, all integrals and denominators (no symmetry needed), all method names, all DIIS sizes and starting cycles, all numbers of passes", "why_tests_cant": "A test uses hartree only; a term that mixes energies and pure numbers, or a constant threshold hidden in the loop, changes no test that compares with a stored number of the same program.", "anchors": ["UT2/kernel.py:282-475 (kernel)", "UT2/kernel.py:226-280 (finalize)", "UT2/t2energy.py:6-60 (ccd_energyMain)", "UT2/fullCCenergy.py:9-60 (fullCC_energyMain)", "UT2/drive_ucc4.py:8-24 (ucc4_energy_simplified)"]}
{"id": "C91", "title": "What a whole DriveCC calculation returns", "statement": "DriveCC(mf, mol, cc_info).kernel() returns the amplitudes and the energy after the first pass that changes the energy by less than stopping_eps, with one energy per pass; if none of the max_iter passes does, it ends with an error. The amplitudes after every pass are antisymmetric; they conserve every charge the integrals conserve; they do not depend on the order of the orbitals or on the unit of energy; for two systems that do not interact they are those of the two calculations side by side, and the energies add. A further pass leaves the amplitudes alone exactly when they solve the equations of the method (CCSD, CCSDT, CCDQ, CCD), and for at most two electrons a CCSD calculation that returns such amplitudes has found an eigenstate of the Hamiltonian with the energy it returns. CCSDT with at most two electrons returns what CCSD returns, CCDQ with at most three electrons returns what CCD returns, and CCD returns what the UltT2CC driver returns for the same input without DIIS and with max_iter at most 76. The stored totalE is the reference energy plus the correlation energy of the returned amplitudes, totalCorrE that correlation energy if the SCF energy is the nuclear repulsion plus the reference energy, and mp2e (without amplitude file) the reference energy plus the second-order energy.", "quantifier": "all method names, all orbital sets and sizes, all integrals with the usual symmetry, all orbital energies, all thresholds and numbers of passes, with and without amplitude file", "why_tests_cant": "The repository has no test of this driver; a test fixes one molecule, one method and one number of passes, while the claims relate calculations for all systems and all passes to each other and to the operator equations.", "anchors": ["UT2/test.py:151-235 (DriveCC)", "UT2/cc_eqns.py:6-122 (cceqns_driver)", "UT2/cc_energy.py:8-40 (ccenergy_driver)", "UT2/tamps.py:4-29 (set_tampsSLOW)", "UT2/set_denoms.py:3-41", "UT2/ccsdt_eqns.py", "UT2/ccdq_eqns.py"]}
{"id": "C92", "title": "What the (qf) corrections of DriveCC print", "statement": "perturbE_driver(CCobj, name) prints several corrections twice, once through an array with eight axes and once through an array with four. The two must be equal: the quadratic doubles term (three numbers), the triples term (five numbers), the doubles-triples term and the cubic doubles term. When integrals and orbital energies are multiplied by c, every printed energy must be multiplied by c. [T] must never be positive when virtual orbitals lie above occupied ones. All this holds for the amplitudes a whole DriveCC calculation returns.", "quantifier": "all method names, all orbital sets and sizes, all integrals with the usual symmetry, all antisymmetric amplitudes, all orbital energies, all units", "why_tests_cant": "The numbers are printed and thrown away, so no test can read them from the API; the equality of a route with 576 permutations and a route with none must hold for every system, and the scaling law relates two calculations.", "anchors": ["UT2/cc_energy.py:46-88 (perturbE_driver)", "UT2/cc_energy.py:91-175 (sixthOrderQf_wnT2cubed, sixthOrderQf_wnT2T3, long_testQf5Order)", "UT2/cc_energy.py:177-255 (optWnT3, optWnT2sqr, T3portion_Qf, build_approxT3)", "UT2/build_qf_correction.py:5-142", "UT2/test.py:219-235 (finalizeCC)"]}
{"id": "C93", "title": "The triples energies of wicked_main", "statement": "wicked_main returns the fourth-order triples energy: the square of the matrix elements <Phi_ijk^abc|[V,T2]|Phi> over the denominators, which is the [T] energy of getE_squareBrackT and of pdagq_T3energy for the second-order triples up to the printed factor 0.111111111 (one part in 10^9). It is never positive when virtual orbitals lie above occupied ones and zero only without triples. The number printed for diagram A is twice the one for diagram B, so that the two printed contributions cancel. For first-order doubles the two-electron cap is the fourth-order energy. In another unit of energy all numbers scale alike, and for two systems without interaction all numbers add, including those of diagram C, whose array is not connected.", "quantifier": "all orbital sets and sizes, all integrals with the usual symmetry, all antisymmetric amplitudes, all denominators, all pairs of systems", "why_tests_cant": "The relations between the diagrams are identities between sums over 36 permutations and must hold for every system; most of the numbers are printed only.", "anchors": ["UT2/wicked_T3corr.py:4-29 (wicked_main)", "UT2/wicked_T3corr.py:31-65 (get_fifthOrder, fifthOrder_capC, fifthOrder_capA)", "UT2/wicked_T3corr.py:68-113 (get_fourthOrder, contractE, build_T3_resids, build_T3_thirdO, build_T3_secondO, getE_squareBrackT)"]}
{"id": "C94", "title": "DriveCC with weak interaction", "statement": "Multiply the two-electron integrals of a closed calculation by c and keep the orbital energies, which have a gap. For every method of DriveCC (CCD, CCSD, CCSDT, CCDQ) there is a constant C such that for |c| <= 1/C the equations have exactly one solution with amplitudes of at most one. Its amplitudes are at most |c| C, and its energy is the reference energy plus second- and third-order perturbation theory (written out as particle-particle, hole-hole and particle-hole ladders) up to c^4 C. A calculation without a file comes closer to it by a factor of two in every pass, reaches the threshold and ends without an error after a number of passes known beforehand; a calculation from a file with antisymmetric doubles of at most one converges to the same solution. The energies of two methods differ by at most c^4 C, whatever their thresholds and limits. The printed decimals of the CCSDT and CCDQ equations do not change this.", "quantifier": "all orbital sets and sizes, all integrals with the usual symmetry, all orbital energies with a gap, all couplings up to 1/C, all thresholds and limits, all starting files within the bound", "why_tests_cant": "Convergence, uniqueness of the solution and the order of the error are statements about all couplings and about infinitely many passes; a test sees one system and finitely many passes.", "anchors": ["UT2/test.py:151-235 (DriveCC)", "UT2/cc_eqns.py:6-122 (cceqns_driver)", "UT2/cc_energy.py:8-40 (ccenergy_driver)", "UT2/ccsdt_eqns.py", "UT2/ccdq_eqns.py", "UT2/tamps.py:4-29"]}
{"id": "C95", "title": "Order of the factorised-quadruples corrections", "statement": "Multiply the two-electron integrals of a closed-shell or unrestricted calculation by c and keep the orbital energies, which have a gap. There is a constant C such that for |c| <= 1/C: (1) the (Qf) energy which the kernel adds to the converged CCD energy is c^5 times the (Qf) energy of the first-order amplitudes, up to c^6 C; (2) the converged CCDQf-1 energy is the converged CCD energy plus one half of this (Qf) energy, up to c^6 C; (3) the converged CCDQf-2 and CCDQf-1 energies are the same up to c^6 C; (4) the total energies of the noniterative method CCD(Qf) and of the iterative method CCDQf-1 agree through fifth order.", "quantifier": "all orbital sets and sizes, all integrals with the usual symmetry, all orbital energies with a gap, all couplings up to 1/C, all solutions with amplitudes of at most one", "why_tests_cant": "The order in the coupling is a statement about a limit over all couplings and systems. A test compares printed energies of one molecule, where a difference of fifth order cannot be told from one of sixth order.", "anchors": ["UT2/kernel.py:225-275 (finalize)", "UT2/t2residEqns.py (residMain)", "UT2/t2energy.py (ccd_energyMain)", "UT2/modify_T2energy_pertQf.py", "UT2/modify_T2resid_T4Qf1.py", "UT2/modify_T2resid_T4Qf2.py"]}
{"id": "C96", "title": "What a pass with DIIS does to the amplitudes of spin-integrated calculations", "statement": "In kernel() of a ccdType calculation and of a 'CCDQ' calculation with diis_size not None: a pass stores the update (all blocks of tamps after residMain, in one vector) with the error vector old_vec minus update. While DIIS waits for diis_start_cycle, tamps are exactly the update. Afterwards all blocks of tamps are one common linear combination, with weights that sum to one, of the stored vectors, block by block and entry by entry at the right place; the update of this pass is among them if diis_size >= 1. old_vec is the vector of the new tamps. Over a whole run of a ccdType calculation every stored vector is the update computed from the amplitudes of one of its passes; the starting amplitudes and extrapolated vectors are never stored.", "quantifier": "all orbital sets and sizes, all real integrals and amplitudes, all methods, all diis sizes and starting cycles, all states of the DIIS object, all numbers of passes", "why_tests_cant": "Tests compare converged energies, and a DIIS that mixes blocks up or uses different weights for different blocks still converges to the same point or only more slowly; the statement is about every pass.", "anchors": ["UT2/kernel.py:338-436 (kernel, DIIS section)", "UT2/kernel.py:124-168 (__init__, old_vec)"]}
