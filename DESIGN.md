# Formal model of zww-4855/ut2

The subject is the coupled-cluster package in `/repo` (Python, NumPy, PySCF).
Everything here is Lean 4.33 with Mathlib, in `lean/Verif`.

## Shape of the model

1. **Control plane** (`Verif/Model/*.lean`): the drivers, the iteration loop, DIIS, the dictionaries,
   denominators, method-name dispatch, file readers. Each Python function becomes a total Lean
   function that follows the branches of the source; exceptions are values.
2. **Einsum programs** (`Verif/Ein/*.lean`, generated data in `Verif/Gen/*.lean`): the residual and
   energy modules are straight-line lists of `einsum` calls. They are transcribed mechanically from
   the source text by `tools/gen.py` into data (coefficient, factors, output labels, list of signed
   output permutations). `Verif/Ein/Core.lean` gives that data the meaning of NumPy's einsum: sum
   over all labels that are not output labels. A verified normaliser (rename summed labels, use
   tensor antisymmetry, reorder factors, merge like terms) decides identities; the search for the
   renaming is done outside (a certificate), the check is done by the kernel.
3. **Second quantisation** (`Verif/Wick/*.lean`): creation and annihilation operators, the Hamiltonian,
   the cluster operators and `e^{-T} H e^{T}`, none of which refers to the code. Wick's theorem and
   the commutator expansion are proved for any number of orbitals and carried out by a function on
   symbolic terms, whose result is compared with the code's programs by the same normaliser.
   Highly excited bras are contracted with an arbitrary antisymmetric array before the comparison
   (`Cap.lean`, `Box.lean`); `Delta.lean` recovers the single entries.
4. **Properties** (`Verif/Props/*.lean`): only the theorems of `properties.jsonl`, with
   specifications stated apart from the model and an `example` showing the hypotheses can be met.

## Trusted base

* Lean's kernel, and the axioms `propext`, `Classical.choice`, `Quot.sound` (no others; no `sorry`,
  no `native_decide`, no `bv_decide`).
* The transcription of Python to the model (each definition cites file and lines). For the einsum
  modules it is done by `tools/gen.py`, which reads the source text with Python's `ast`; the script
  and its output are part of what a reader has to believe.
* Numbers: floats are modelled by elements of a field (ℚ, ℝ or any field of characteristic 0).
  Rounding, NaN, overflow, and `allclose`-style tolerances are outside the model. Coefficients
  that the source rounds (such as `0.041666667`) are kept exactly as written.
* NumPy: `einsum`, slicing, `transpose`, `reciprocal`, `linalg.solve` are represented by their
  mathematical meaning (`solve` by "a vector satisfying the system, error if the matrix is
  singular").
* PySCF (integrals, SCF) is not modelled: orbital energies, coefficients and integrals are
  arbitrary inputs.
* Indices: an orbital index of the model is a global spin-orbital number; a virtual axis position
  `a` of an amplitude array stands for orbital `nocc + a`. Dimensions are never bounded.

## What is not modelled

* `UT2/drive_ccsd_SO.py` (imported by `kernel.py:30`), `UT2/_version.py` and `UT2/t6antisym.py` do not
  exist in the repository, so `import UT2.kernel` fails as checked out. The model treats the other
  modules as if those imports succeeded.
* `run_otherCC.py` (does not parse), `modifyAmps.py` (broken `super` call), printing, timing.

## Plan per property

| id | property | how it is modelled and proved |
|---|---|---|
| C01 | Iteration budget | Kernel loop model (`Verif/Model/Kernel.lean`), step function abstract; induction on the remaining iterations. |
| C02 | The loop stops at the first small energy change | Same model, with the trace of energies as observable. |
| C03 | The reported energy belongs to the returned amplitudes | Same model; invariant 'current energy = E(current amplitudes)'. |
| C04 | Non-convergence is reported | Kernel loop: expected to be violated (the raise at 463 is unreachable); negation with witness, and the positive statement for the legacy for/else loops. `_partial`. |
| C05 | Fixed points of the update are the solutions of the residual equations | Update formula over arbitrary index type and field; pointwise algebra. |
| C06 | User settings are honoured | Dictionary model of ccd_main; violated for ccdType (witness), proved for the two other keys. `_partial`. |
| C07 | Documented defaults | Same dictionary model. |
| C08 | One method key selects one consistent code path | Dispatch functions of the three modules; violated with two keys present (witness), proved when exactly one key is present. `_partial`. |
| C09 | Total energy equals reference plus correlation | finalize model; violated for the (Qf) family, proved for the others with an exact characterisation. `_partial`. |
| C10 | DIIS history window | DIIS state machine, induction over call lists. |
| C11 | DIIS warm-up is the identity | Same state machine. |
| C12 | DIIS extrapolates by an affine combination | DIIS linear system as in get_bmat over a field; the solve is abstracted by its specification (any vector solving the system). |
| C13 | DIIS minimises the extrapolated error | Same over the reals; convexity argument. |
| C14 | When the DIIS system is solvable | Same over the reals; kernel of the bordered Gram matrix versus affine dependence. |
| C15 | DIIS preserves linear symmetries | State machine plus affine combination; submodule-valued invariant. |
| C16 | DIIS packing round-trip | Flatten/slice model of the layouts on lists. |
| C17 | DIIS is usable with every method | Length model of the layouts with the substring dispatch; violated (witnesses), partial for the rest. |
| C18 | Every documented method name runs to a result | Availability model of the per-method code paths (which keys/variables are defined when read); violated (witnesses), `_partial` for those that run. |
| C19 | Perturbation orders from the method name | extract_integer on character lists. |
| C20 | XCCD orders read the quadruples of the same pass | Pickle file as a state; build_XCCDbase as transition; induction over order lists. |
| C21 | Independent calculations do not share state | Heap model of the shared default dictionaries; violated, witness; partial for histories that only use setters. |
| C22 | StoredInfo lookups | Dictionary laws. |
| C23 | Doubles denominators | Shallow model of get_denoms. |
| C24 | Singles, triples and quadruples denominators | Same; violated for UHF (witnesses); proved for RHF and for the correct keys under UHF. `_partial`. |
| C25 | A gap makes denominators finite and negative | Same; ordered field. |
| C26 | Same-spin integrals are antisymmetric | Integral transformation as finite sums over arbitrary index types. |
| C27 | Spin blocking conserves spin | Kronecker model; index arithmetic. |
| C28 | Occupied plus virtual covers all spin orbitals | Arithmetic; violated for na ≠ nb. `_partial`. |
| C29 | Antisymmetrisers produce antisymmetric tensors | Deep einsum model generated from the source; every listed permutation table is checked as a whole by the kernel and lifted to all tensors by a soundness theorem. |
| C30 | Antisymmetrising an antisymmetric tensor rescales it | Same. |
| C31 | The antisymmetrisers are the full signed permutation sums | Same. |
| C32 | Spin-orbital CCD amplitudes stay antisymmetric | Deep einsum model plus certificate-checking normaliser (sound for every tensor/size), then induction over iterations. |
| C33 | Spin-integrated same-spin amplitudes stay antisymmetric | Same. |
| C34 | Alpha/beta interchange symmetry | Same. |
| C35 | Spin-integrated and spin-orbital CCD energies agree | Spin expansion of einsum terms, normaliser. |
| C36 | Spin-integrated and spin-orbital CCD residuals agree | Same. |
| C37 | The two generated forms of the CCD equations agree | Normaliser. |
| C38 | Higher methods reduce to lower ones | Normaliser plus elimination of zero tensors. |
| C39 | The first iteration is MP2 | Shallow/deep bridge. |
| C40 | Size consistency of CCD | Connectedness of every einsum term, generic theorem. |
| C41 | Size consistency of the factorised-quadruples methods | Same generic theorem on the Qf modules. |
| C42 | Results do not depend on orbital ordering | Generic theorem for every einsum program. |
| C43 | Two-electron systems: quadruples corrections vanish | An antisymmetric array with more axes of a kind than there are spin orbitals is zero (`Props/Few.lean`), and the corrections are contractions of the quadruples arrays (C77, C78). For the iterations, `Ein/Local.lean` shows that a program only depends on the slices it reads. |
| C44 | LCCD is linear | Degree of terms in t2, generic theorem. |
| C45 | Contractions are shape-safe | `Shape/Core.lean`: straight-line functions with every einsum call as written (subscripts, slices, transposes, in-place sums, calls of other functions), and one interpreter that runs on numbers (numpy's run-time checks, broadcasting included) or on the letters occupied/virtual/all (a type checker). `Shape/Sound.lean`: a function that type-checks runs without error for all orbital counts. The functions and their argument shapes are written by `tools/shapegen.py` (116 functions, 18258 calls, all statements of these functions; numerical factors are dropped, dictionary arguments are separate parameters, the pickled T4 is an extra argument). Left out: drivers that use object attributes or loops (`perturbE_driver`, `wicked_main`, `ucc4_energy_simplified`, the unused loops of `antisym_t4resids.py`) and the unused `xccd9_resid`, which calls an undefined name. `pccd_t2resid` raises unless there are as many occupied as virtual orbitals; the spin-integrated functions raise for different numbers of alpha and beta electrons: both proved, hence `_partial` and `_violated`. |
| C46 | External doubles amplitudes are antisymmetric after reading | Parser model on records; violated for coinciding indices (witness); partial otherwise. |
| C47 | Last record wins | Same. |
| C48 | Spin-orbital pCCD | Violated: projection of an antisymmetric tensor on [a,a,i,i] is zero, so the correlation energy is always zero; both facts proved. |
| C49 | Amplitude files can be reused | Control-flow model of getAmps; violated for singles file. `_partial`. |
| C50 | (T) energy includes singles and doubles parts | Violated: witness; `_partial` for T1 = 0. |
| C51 | The two perturbative triples routes agree | Normaliser. |
| C52 | Perturbative corrections use the converged amplitudes | Kernel loop model with l2 as extra state; violated for the spin-integrated (Qf), `_partial`. |
| C53 | Amplitude and residual setters | Dictionary laws. |
| C54 | DriveCC reports a consistent total energy | DriveCC loop; violated unless nuc_e = 0. `_partial`. |
| C55 | DriveCC amplitude set-up is consistent | Substring dispatch of tamps.py. |
| C56 | Open-shell references are supported | Energy with separate alpha and beta ranges; violated. `_partial`. |
| C57 | The CCD energy is linear in the amplitudes around the reference | Deep model, degree. |
| C58 | Aliased zero amplitudes are harmless | Heap model of the initial arrays. |
| C59 | Occupied spin orbitals occupy the first places | Sorting by a permutation that makes the energies monotone (any tie-breaking); violated in general, proved with a gap. |
| C60 | UCC(4) residuals are antisymmetric | Normaliser; violated for the doubles (witness). `_partial`. |
| C64 | Spin-integrated higher methods agree with the spin-orbital ones | Spin expansion, normaliser. |
| C65 | Alternative forms of the factorised quadruples agree | Normaliser. |
| C66 | Alternative forms of the quadruples residual agree | Normaliser. |
| C70 | Both set-ups lead to the same calculation | Set-up model (`Verif/Model/Setup.lean`) plus C36 and invariance of programs under embeddings; induction over iterations. |
| C71 | Interleaved integrals are symmetric under electron exchange | Loops as a list of writes; violated for UHF (witness). `_partial`. |
| C69 | Correction-only runs return total energy and correction | Control flow of `amphandler.py`; violated. `_partial`. |
| C72 | DriveCC ends with a result | Control flow of `test.py` and `perturbE_driver` with exceptions as values; violated. `_partial`. |
| C73 | determine_pCCD_correction leaves its argument alone | The loop with the shared array as state; violated, exact effect proved. |
| C74 | Off-diagonal energy is the energy of the remaining amplitudes | Same model with the integrals; violated, exact difference proved. `_partial`. |
| C75 | Residuals are the projected Schroedinger equation | Fermion operators, Wick's theorem and the commutator expansion (`Verif/Wick`), proved for any number of orbitals. A symbolic contraction engine, proved sound, produces a program from `e^{-T} H e^{T}`; the normaliser compares it with the code. |
| C76 | Coupled-cluster solutions and eigenstates | C75 in the Fock space (`Verif/Wick/Fock.lean`, `Exact.lean`): nilpotency of `T`, particle number, coefficients of determinants. |
| C77 | Perturbative quantities are matrix elements of commutators | `Verif/Wick/Matrix.lean`: bras with de-excitation operators, commutators with the Fock or fluctuation operator, compared with the programs by the normaliser. Triply and quadruply excited bras are first contracted with an arbitrary antisymmetric array (`Cap.lean`, `Box.lean`), so that the comparison has few terms; the entry is recovered with a delta array (`Delta.lean`). |
| C78 | XCCD base terms as matrix elements | `Verif/Model/XccdBase.lean` models `build_XCCDbase` (orders 5, 6, 7), `buildXCCD_T2energy` and `add_XCCenergy`; the programs are compared with operator expressions as in C77 (a `T2^+` part is added to `Wick/Matrix.lean`). Orders 8 and 9 are not covered: the comparison for order 8 would have about 5400 terms. |
| C63 | Two systems side by side, all modules | The generic theorem of C40 (`Ein/Generic.lean`) instantiated for every connected program; `Props/Sizes.lean` is written by `tools/frag.py`. `fifthOrder_capC` is disconnected and left out; `pccdEnergy` works on diagonals and is not an instance. |
| C68 | Invariance under rotations of the orbitals | `Ein/Rotate.lean`: a program in which every letter occurs at exactly two axes of the same spin (output axes counted once) is invariant or covariant; proved by expanding the rotated operands and summing over the letters. The check is evaluated for every program, `Ein/RotArrays.lean` (written by `tools/rot.py`) defines the rotated arrays, `Props/Rotate.lean` is written by `tools/rotprops.py`. Rotations are orthogonal with entries in the field (real orbitals). The iteration itself with its diagonal denominators is not covariant and not part of the claim. |
| C79 | Spin-integrated code and the Schroedinger equation | Combination of C36/C64 (spin blocks are entries of spin-orbital arrays) with C75 (spin-orbital residuals are projections). Stationary points of the modelled CCD pass are covered; triples and quadruples residual blocks are not. |
| C61 | Perturbation energies printed by run_wickedTest | `Model/AmpPert.lean`: the local functions as Finset sums over `Fin no`, `Fin nv`, the loops of `kill_Diag_T2` as a fold. Spec: textbook second- and third-order energies. The MP2 value is right; MP3 and LCCD values are printed with the opposite sign. `_violated` and `_partial`. |
| C80 | The two routes of run_UCCDcheck agree | `uccdCheck` in `Model/AmpPert.lean`; both routes as sums, equality by reindexing. |
| C81 | Closed-shell amplitudes stay spin adapted | `Ein/SpinRot` shows that the value of a program whose arrays no rotation of the spin axis changes is not changed either; `Props/Singlet` shows that spin-adapted arrays are exactly of this kind, applies it to the spin-orbital residual, and carries the result to the three blocks with C36. |
| C67 | Conserved charges give selection rules for every function and every iteration | `Ein/ChargeCol` checks, per contraction, that every summation letter stands once on the creation and once on the annihilation side at axes of the same spin; `Props/Selection` (written by `tools/charge.py`) evaluates the check on the program of every function and lifts it with one soundness theorem. |
| C62 | Whole calculations with DIIS return amplitudes with the symmetries of the problem | Model/Whole puts the residual, energy, DIIS and loop models together into one calculation (`calculate`), over the reals. A property kept by iterations and by linear combinations of amplitude vectors holds for the result (`calculate_keeps`); instances antisymmetry, singlet, charges. `C62_returns` shows that the runs in question exist, `C62_ccdq_diis_fails` that the names with `CCDQ` in them always fail when DIIS is on (the vector of `kernel.py` 348-359 needs `t4aaaa`). Not modelled: rounding; DIIS for names with `UCC(4)` in them under `ccdType` (the model gives an error of its own). |
| C82 | Whole calculations do not depend on which spin is called alpha nor on the order of the orbitals | `C82_spin_report` and `C82_order_report` are about what `finalize` sets (`Whole.finish`). Two runs whose passes correspond correspond (`run_same`); DIIS commutes with linear maps that keep inner products (`newVec_map`), here renumberings of the positions; the passes correspond by C34 and C42. |
| C83 | Every spin block of the triples and quadruples residuals is the matrix element it stands for | `Ein/Thin`: an antisymmetrised program equals a shorter one in which equal transposes are taken once (`Prog.eval_thin`, checked by `Cert/Thin`); with it the spin-orbital functions with 576-fold antisymmetrisers become short enough for certificates against the spin blocks (`Cert/SpinCcT3`, `SpinCcT4_*`, `SpinQfT4`, `SpinT4`). The spin-orbital functions are matrix elements by C53/C54/C66; the term [V,T3] has no spin-orbital function in the code and is a two-block program `linT3` proved to be the commutator (`lin_eval`). Programs are compared after rounding coefficients to multiples of 1/2304 (`ideal`); the difference is `roundoff`. |
| C84 | The (Qf) correction of the CCSDT driver is half of <T2(1)† T2† (1/2[[V,T2],T2]+[V,T3])>, with the cubic term for Qf* | `Model/FullCC.lean` models the driver with the spin-blocked arrays as an `SI` and the denominators as a `FullDen`. `Ein/Blocks.lean` proves that an antisymmetric spin-orbital array of rank 8 is the array made of its five spin blocks. `Props/FullCC.lean` puts the matrix elements of C83 into the weights of `energy_pertQf` (`C84_correction`), identifies the triples (`C84_triples`), the energy (`C84_energy`) and the spin-orbital routes (`C84_routes`). Not modelled: the printing, and the `[T]` energy, which is printed only. `C84_routes` says that this route agrees with the factorised spin-orbital one, while C78 says that the route of `t2energy.py` is twice the unfactorised one. |
| C85 | Whole spin-orbital calculations: antisymmetry, agreement with the spin-integrated calculation, and what UT2-CCD(n) and XCCD(n) report | `Model/WholeSlow.lean` puts the residuals, the XCC base terms of orders 5 to 7, the energies, the DIIS vector and `finalize` into the loop of `Model/Kernel.lean`; orders 8 and 9 give an error of their own, names without digits the `TypeError` of iterating over `None`. `Props/WholeSlow.lean`: `C85_antisymmetry` (the span argument of C62), `C85_routes` (the loops agree pass by pass, shifted by one), `C85_ut2`, `C85_xccd_energy`, `C85_xccd_equations` (matrix elements of C75 and C78), `C85_returns`. The zero blocks `t2bb`, `t2ab` of the DIIS vector are left out of the model: they stay zero. UCC(4), which has its own residual driver, has its own model (C89); CCSD(Qf) is not in this loop (its driver file does not exist). `Props/SlowDiis.lean`: `C85_diis` says what DIIS does to the amplitudes, without `pack` and `unpack` (added after a mutation of their index order was not noticed). |
| C86 | The choice of orbitals inside degenerate levels has no effect on a calculation | `Props/WholeRotate.lean` on `Model/Whole.lean` and `Model/Setup.lean`. `calculate_related`: two calculations agree if a relation between their arrays is kept by passes and their amplitude vectors differ by an isometry. The relation is equality with the rotated arrays on the slices that the Python arrays have. `edot_rotVec`: rotations keep the inner products of DIIS. `iter_rotate`: a pass commutes with the rotation because the denominators are constant inside a level (rotation of the residuals is C68; the residuals read only the slices, `SameSlicesL.resid`). `generalUHF_mix`: the set-up turns new coefficients into rotated arrays. Theorems `C86_degenerate`, `C86_report` (with `Whole.finish`, which takes `self.l2` of the pass before the last, see C52), `C86_orbitals`. Numbers are real. The spin-orbital path is not covered (its single residuals are in C68). |
| C87 | A whole CCDQ calculation keeps the structure of its amplitudes and solves the equations it is meant to solve | `Model/WholeFull.lean` puts the pass of `fullCCresidEqns`, the DIIS vector of doubles and quadruples and the kernel loop together; the denominators are the intended ones, which are those of the code for equally many alpha and beta electrons (C24). `Props/CcdqSym.lean`: the antisymmetry of the residuals is checked on symbolic contractions (`Cert/AntiT4_*`, `AntiDq`) for two generators of the exchanges per block, the exchange of alpha and beta on `Cert/FlipT4_*` through `Ein/FlipProg.lean`. `Props/WholeFull.lean`: `full_keeps` and `full_related` carry properties and relations of one pass through DIIS and the loop; theorems `C87_antisymmetry`, `C87_no_singles_no_triples`, `C87_selection`, `C87_spin_exchange`, `C87_orbital_order`, `C87_stationary`, `C87_energy`, `C87_report`, `C87_two_electrons`, `C87_other_names`; `C87_returns` says that the runs spoken about exist. Numbers are real. |
| C88 | For weak interaction a CCD-type calculation converges to the one small solution of its equations | `Lemmas/Contract.lean`: maps that are bounded and Lipschitz on the unit ball, and the fixed point of such a map times a small number (Banach's theorem from Mathlib). `Ein/Tame.lean`: every einsum program is such a map of its amplitudes, and a program that reads the integrals at most once per term is linear in them plus its Fock part. `Props/Weak.lean`: with a diagonal Fock matrix a pass is `v -> c Q(v)` on antisymmetric amplitude vectors (`Holds.pass`), zero residual is the fixed point (`Holds.fixed`, needs the gap), the energy is written out (`energy_sum`), the first pass gives MP2 (`pairing_first`). `C88_weak_coupling` speaks about all iterates of the pass, `C88_calculations` about whole runs of `Model/Whole.lean`. CCDQ is not covered: the printed coefficients of the Fock terms in its quadruples equations are not exactly 1, so the Fock part does not cancel against the denominators. Numbers are real. |
| C89 | What a whole UCC(4) calculation returns | `Model/WholeUcc4.lean` is the kernel loop with `drive_ucc4.resid_main` (`residUcc4`), the DIIS vector of singles, doubles and triples, the starting amplitudes `t2 = g D2`, `t1 = t3 = 0` and the energy of `ucc4_energy_simplified`. `Props/WholeUcc4.lean`: `C89_antisymmetry_partial` (occupied orbitals: the certificates of the residual programs are replayed with the weaker symmetry), `C89_two_electrons`, `C89_selection`, `C89_orbital_order`, `C89_returns`, `C89_report`, `C89_stationary`, `C89_equations` (operator form, except the piece `offset_t2resid_t2dag_w_t2`, which stays an array). `C89_violated` is a whole calculation of one pass; its residual value is computed by the kernel over the rationals and moved to the reals with `Ein/Cast.lean`. `Props/Ucc4Canon.lean`: `C89_singles`, `C89_triples` (canonical orbitals; the old amplitudes drop out, which fixes sign and size of every denominator) and `C89_energy` (the energy without the model's helpers). `Props/Ucc4Diis.lean`: `C89_diis` (the values after a pass with DIIS). Names that contain 'UCC(4)' but are not equal to it are covered by the theorems without the hypothesis on the name. |
| C90 | Calculations do not depend on the unit of energy | `Props/Units.lean`. `soUnit`/`siUnit` multiply the integrals by `c`. Every term of every residual and energy program reads exactly one integral (`Prog.readsEq`, a decidable check of the whole program, lifted by `Prog.eval_scaled`), so values scale; with `D2/c` a pass returns the same amplitudes. `InUnit` carries this through the kernel loop with DIIS and errors: `C90_ccd`, `C90_ccd_slow`, `C90_ccdq`, `C90_full_energy`. For UCC(4) `C90_ucc4_partial` gives the amplitudes and the exact difference of the energies for equal numbers of passes, `C90_ucc4_violated` a whole calculation with one pass in two units whose energies do not match. |
| C91 | What a whole DriveCC calculation returns | `Model/WholeDrive.lean` is `DriveCC` with all its parts (dispatch on the name, the passes of the four methods, energies, denominators, start amplitudes or file, the loop `Cfg.driveRun`). `Props/WholeDrive.lean`: `driveAmps D o S k` is the `k`-fold iterate of a pass, `Settled` the stopping test; `C91_result` states which iterate is returned, or the error. `C91_antisymmetry`, `C91_selection`, `C91_orbital_order`, `C91_units`, `C91_fragments` are about all iterates or whole results. `Props/WholeDriveEq.lean`: `C91_stationary`, `C91_two_electrons` (with C76), `C91_ccsdt_few`, `C91_ccdq_few`, `C91_kernel` (against `WholeSlow.calculate`), `C91_report` (the three stored energies). The example is a two-electron calculation that returns after one pass with an eigenstate. |
| C92 | What the (qf) corrections of DriveCC print | `Model/PerturbE.lean` is `perturbE_driver` with the three functions it calls; the printed numbers are the fields of a record `Printed`, and the two short programs of `long_testQf5Order` are written out (`quadShort`, `linShort`, with the printed factor 0.041666667). `Props/PerturbE.lean`: `C92_quadratic`, `C92_triples`, `C92_t2t3` say which numbers agree and by which factor or rounding they differ; the proof goes through matrix elements of commutators (C77), because closing a quadruple excitation with the transposed doubles is the projection on the doubles behind the de-excitation operator (`close_bra4`). `C92_cubic_partial` says by what the two cubic numbers differ, `C92_cubic_violated` is a case with eight orbitals in which they do. `C92_units_partial` is the exact law for another unit of energy, `C92_units_violated` a case in which [T] is not an energy. `C92_squareT` is the sign of [T], `C92_whole` puts it together for the amplitudes of a whole calculation. Not modelled: the text printed, floating point. |
| C93 | The triples energies of wicked_main | `Model/Wicked.lean` is `wicked_main` with `get_fourthOrder`, `get_fifthOrder`, `build_T3_resids`; the denominators are arrays given by the caller. `C93_matrix` (matrix elements of commutators, by C77), `C93_square` (the energies of the other two modules), `C93_sign`, `C93_caps` (A is twice B), `C93_first`, `C93_units`, `C93_fragments`. The array of diagram C is not connected, so C63 does not apply to it; the energy is additive because the second-order triples have no entries between the systems. Nothing in the package can call the function at present: its only call (`amphandler.py` 416) comes after `sys.exit()`. |
| C94 | DriveCC with weak interaction | `Props/WeakFock.lean`: the part of each residual with the Fock matrix is the denominator times the amplitude, times 249999999/250000000 for triples and 15624999/15625000 for quadruples (printed decimals). `Props/WeakDrive.lean`: one pass on the vector of all amplitudes is `v ↦ δ v + c Q(v)` with a polynomial Q. `fixed_point_damped` (`Lemmas/Contract.lean`) gives solution, uniqueness and rate. `Props/WeakOrder.lean`: first, second and third order of the doubles and of the energy; `driveMp2` and `driveMp3` are explicit sums. `Props/WeakCC.lean`: `C94_weak_coupling`, `C94_calculations`, `C94_methods_agree`. The condition `hn` says that a name with S for which the energy contains singles also has equations for singles; all names in the package satisfy it. |
| C95 | Order of the factorised-quadruples corrections | `Lemmas/Corrections.lean`: `corrections` compares the small fixed points of `v ↦ c Q(v)`, of `v ↦ c (Q(v) + ½ R(v))` and of a third map of the same kind, R homogeneous. `Props/WeakQf.lean`: `pertQf_dot` proves for all amplitudes that the (Qf) energy is the contraction of the amplitudes with the blocks of the first correction; `qf_degree` gives the degrees of the corrections; `qfLeading` is the (Qf) energy of the first-order amplitudes, written out in `firstAmps`. `C95_orders` is (1)-(3). (4) is `AgreeFifth`; `C95_agree_iff` says that it holds exactly if `qfLeading` is zero, and `C95_violated` gives a system with four orbitals where `qfLeading` is two (`eval_keep` drops blocks with a slice that is zero, `Prog.terms` evaluates the others). `SmallSolution` is as in C88, where existence and uniqueness are proved. |
| C96 | What a pass with DIIS does to the amplitudes of spin-integrated calculations | `Props/SpinDiis.lean`, on `Whole.cfg` and `WholeFull.cfg`: `C96_ccd`, `C96_ccdq` (the places of the entries are written out in `ListsSi` and `ListsFull`, not with the `block` functions of the model; that `hstack`, slices and `reshape` realise these places is C16) and `C96_history`. The same for the spin-orbital families is `C85_diis` and `C89_diis`. |

## Disagreements between the code and the properties

Each has a theorem whose name contains `_violated` (the negation, with a witness or for all inputs) and
usually a `_partial` theorem for what does hold.

| id | what the code does instead |
|---|---|
| C04 | The `raise` of `UltT2CC.kernel` cannot be reached: an unconverged run returns the last energy like a converged one. |
| C06 | `ccd_main` replaces the user's settings for the key `ccdType`. |
| C07 | A `diis_size` without `diis_start_cycle` ends in a `KeyError` although the default is documented. |
| C08 | With `fullCCType` and `ccdTypeSlow` together the driver prepares spin-integrated data and the kernel runs spin-orbital equations. |
| C09 | For the five (Qf) names the second reported value is only the perturbative part; the legacy report contains the reference energy. |
| C17 | With DIIS the spin-integrated (Qf) methods end in a `KeyError`, and `fullCCType` names without `CCDQ` in a length mismatch. |
| C18 | Only `CCDQ` works under `fullCCType`; the documented key `fullCCtype` is not recognised; `CCD(Qf)` under `ccdTypeSlow` ends in a `TypeError`; `CCD(Qf*Hf)` requests no correction. |
| C21 | The default dictionaries are shared, and the perturbative path of `ccd_main` updates them in place. |
| C24, C25 | Mixed-spin denominators read energies or slices of the other spin; `D1bb` reads alpha occupied energies and can divide by zero. |
| C28 | The virtual count of the UHF set-up is `2(n - na)`; wrong when the numbers of alpha and beta electrons differ. |
| C45 | `pccd_t2resid` (unused) takes a diagonal of `g[o,v,o,v]` that exists only for equal numbers of occupied and virtual orbitals. |
| C46 | A record with a repeated index leaves a non-zero diagonal entry in the doubles. |
| C48 | The spin-orbital pCCD energy is the reference energy for every system. |
| C49 | A singles file is never read; doubles with occupied indices first are misread. |
| C50 | `pdagq_T3energy` overwrites the singles part of the triples correction. |
| C52 | The de-excitation amplitudes used for the spin-integrated correction are one update old. |
| C54 | The stored total energy of `DriveCC` lacks the nuclear repulsion. |
| C55 | `DriveCC` solves CCSDT for `CCSDTQ` and CCSD for `CCSDQ`, silently. |
| C56 | The spin-integrated residuals and energy use the alpha ranges for the beta electrons. |
| C58 | (holds) except that `resid_aaaaBKUP` of `t2residEqnsSlow` is no copy; nothing reads it. |
| C59 | The set-up sorts all spin-orbital energies and takes the lowest as occupied. |
| C60 | One doubles term of `drive_ucc4` is not antisymmetric in the virtual indices. |
| C69 | The correction-only route never returns a total energy with the correction. |
| C71 | The interleaved UHF integrals are not symmetric under exchange of the electrons. |
| C72 | `DriveCC` ends in `AttributeError` for corrections other than `(qf)` and in `NameError` without convergence. |
| C73 | `determine_pCCD_correction` zeroes entries of its caller's array, which is used for the next order. |
| C74 | The same function takes the integrals of the diagonal part from the occupied block. |
| C78 | The routes for the same quantity carry different prefactors: `CCD(Qf)` energies are twice the order 5 XCCD energy, and `CCDQf-2` weights the order 6 residual with 1/6 where the XCCD base has 1/2 (`C78_qf_routes`, `C78_ccdqf2_iff` give the exact condition for agreement). |
| C61 | `run_wickedTest` prints the MP3 energy and the LCCD energy with the wrong sign (`amphandler.py:279`, `293`). |
| C89 | a UCC(4) calculation does not return antisymmetric doubles: `offset_t2resid_t2dag_w_t2` (`UT2/drive_ucc4.py` 195) lacks an antisymmetrisation of the virtual orbitals (C60), so `t2[a,a,i,j]` is nonzero after the first pass. |
| C90 | the energy of UCC(4) depends on the unit of energy: `UT2/drive_ucc4.py` 17-21 multiplies the offset (a product of amplitudes and integrals) by `D2`, so that a number without dimension is added to the CCD energy. |
| C91 | `DriveCC` creates a DIIS object (`UT2/test.py` 171-174) and never uses it: `diis_size` changes nothing, the amplitudes returned are plain iterates (`C91_result`). With an amplitude file the stored `mp2e` is the energy of the amplitudes in the file (`C91_report` is without file). |
| C92 | `sixthOrderQf_wnT2cubed` (`UT2/cc_energy.py` 91-103) prints two numbers as the WnT2^3 contribution. They differ by the whole WnT2^2 contribution, because `wnT2cubed_toT4` contains the quadratic terms too and `wnT2cubed_toT2` does not (`C92_cubic_violated`, `C92_cubic_partial`). For names without a `T` the approximate triples (`UT2/cc_energy.py` 60-62) are not multiplied by denominators, so the printed triples contributions are multiplied by c^2 when the unit of energy is changed by c; for names with a `T` the number printed as [T] multiplies amplitudes by denominators and is divided by c (`C92_units_violated`, `C92_units_partial`). The factor 0.041666667 instead of 1/24 makes the two triples numbers differ by the factor 1.000000008 (`C92_triples`). |
| C95 | "CCD(Qf)" adds the whole (Qf) energy (`UT2/kernel.py` 250-266), "CCDQf-1" and "CCDQf-2" change the energy by one half of it in the same order, because their residuals contain the correction with the factor one half. The energies of the noniterative and of the iterative methods differ in fifth order (`C95_violated`) unless the leading correction vanishes (`C95_agree_iff`). |

Further observations without a theorem: `amphandler.py` and `test.py` use `sys` without importing it;
`pdagq_T3corr.ccsd_energy` and `wicked_T3corr.get_fifthOrder` return nothing; the generated modules
`ccsdt_eqns`, `ccdq_eqns` and `build_qf_correction` use coefficients rounded to nine digits.
