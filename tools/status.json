{
 "C04": {
  "note": "UltT2CC.kernel violates it (C04_violated_*); the partial theorems cover the legacy driver and DriveCC, which do report."
 },
 "C06": {
  "note": "violated for ccdType (ccd_main overwrites the settings); the partial theorem covers the two other keys."
 },
 "C07": {
  "note": "the defaults are proved; a diis_size without diis_start_cycle fails although the latter has a documented default (violated theorem)."
 },
 "C08": {
  "note": "violated when ccdTypeSlow is combined with another method key; the partial theorem says exactly when the dispatchers agree."
 },
 "C09": {
  "note": "violated for the five (Qf) names and by the legacy report; the partial theorem says exactly where it holds."
 },
 "C17": {
  "note": "violated for spin-integrated (Qf) methods and for fullCCType names without CCDQ; the partial theorem says exactly when an iteration with DIIS gets through."
 },
 "C18": {
  "note": "several documented names fail (violated theorems); partial theorem: exactly when a spin-orbital correction is evaluated."
 },
 "C21": {
  "note": "violated through the shared default dictionaries; partial theorem for histories that set before they update."
 },
 "C24": {
  "note": "violated for unrestricted references (mixed-spin arrays, D1bb); partial: right for restricted references and for the same-spin arrays."
 },
 "C25": {
  "note": "violated only by D1bb with more beta than alpha electrons; everything else proved."
 },
 "C28": {
  "note": "violated for different numbers of alpha and beta electrons; the partial theorem says exactly when the counts are right."
 },
 "C46": {
  "note": "violated by records with coinciding indices; partial theorem: antisymmetric after every file whose doubles records have distinct indices."
 },
 "C48": {
  "note": "the projection is proved; the claim of a non-trivial energy is violated for every system with antisymmetric arrays (C48_violated)."
 },
 "C49": {
  "note": "violated for singles files and for occupied-first doubles files; partial theorem for virtual-first doubles files."
 },
 "C50": {
  "note": "violated: line 41 is overwritten in line 44. Partial theorem: the returned number is the doubles part; the wicked route prints the full sum (C50_wicked)."
 },
 "C52": {
  "note": "violated: the stored de-excitation amplitudes are one update old."
 },
 "C54": {
  "note": "the stored total is purely electronic; partial theorem gives what is stored."
 },
 "C55": {
  "note": "violated: CCSDTQ and CCSDQ names select the CCSDT and CCSD equations silently; partial theorem for the other names."
 },
 "C56": {
  "note": "violated: the beta slices are ignored. Partial theorem: the returned value for any slices, and correctness for equal ranges."
 },
 "C58": {
  "note": "heap model of the names and in-place updates; contents of the arrays are arbitrary functions. The unread name resid_aaaaBKUP is excepted (C58_backup_is_no_copy)."
 },
 "C59": {
  "note": "violated when a beta orbital lies below an occupied alpha orbital without being occupied; proved whenever all occupied spin orbitals lie below all virtual ones (theorem C59_occupied_places)."
 },
 "C60": {
  "note": "violated for the doubles (virtual indices); partial theorem: triples fully, doubles in the occupied indices."
 },
 "C69": {
  "note": "violated for every input; the partial theorem says exactly when a value is returned at all."
 },
 "C71": {
  "note": "violated for unrestricted orbitals; partial theorem for arrays which have the symmetry themselves."
 },
 "C72": {
  "note": "violated by names with a parenthesis other than (qf) and by runs without convergence; partial theorem for the rest."
 },
 "C73": {
  "note": "violated for every array with a non-zero neighbouring entry; C73_argument_after gives the exact effect."
 },
 "C74": {
  "note": "violated: the diagonal integrals are taken from the occupied block; the partial theorem gives the exact difference."
 },
 "C78": {
  "note": "orders 5, 6 and 7; orders 8 and 9 of build_XCCDbase are not modelled."
 },
 "C45": {
  "note": "116 functions with 18258 calls proved for all orbital counts (restricted case). Violated by pccd_t2resid (unused) and, for different numbers of alpha and beta electrons, by the spin-integrated functions."
 },
 "C61": {
  "note": "MP2 values proved right. MP3 and LCCD values are minus the right ones, proved for all systems, violation with witness."
 },
 "C89": {
  "note": "antisymmetry of the returned doubles in the virtual orbitals is violated (C89_violated); partial theorem: occupied orbitals. The other claims are proved."
 },
 "C90": {
  "note": "Violated for UCC(4): a term of its energy has no dimension. All other methods are covered in full; for UCC(4) the amplitudes are."
 },
 "C91": {
  "note": "All parts proved for the real-number model of the driver; non-convergence is the NameError of C72."
 },
 "C92": {
  "note": "The quadratic, triples and WnT2T3 numbers agree for all inputs; the two WnT2^3 numbers do not (they differ by exactly the WnT2^2 number), and some numbers do not scale with the unit of energy (the exact law is proved)."
 },
 "C93": {
  "note": ""
 },
 "C94": {
  "note": ""
 },
 "C95": {
  "status": "partial",
  "note": "the corrections are determined through fifth order (C95_orders); the claim that the noniterative and the iterative method agree through fifth order is violated, and C95_agree_iff says exactly for which systems it holds."
 }
}