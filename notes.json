{
 "C05": {
  "status": "partial",
  "note": "mpz and non-negative arguments fully proved; negative machine integers that are multiples of p are stored as the non-canonical word p (C05_violated), everything else proved (C05_ctor_neg_partial)."
 },
 "C06": {
  "status": "partial",
  "note": "Digit strings of any length proved; replacement value equal to p, leading blanks / plus signs and the empty string violate the property (C06_violated)."
 },
 "C04": {
  "status": "proved",
  "note": "All claims for nonzero bases; base 0 with a field-element exponent is characterised completely by C04_pow_ffint_zero (exponent p-1 gives 1, not 0); negating the minimum of a signed type is undefined (C04_int_min_undefined)."
 },
 "C14": {
  "status": "partial",
  "note": "The code drops colliding product monomials: proved for factors whose monomial products are pairwise different, and refuted in general (C14_violated)."
 },
 "C16": {
  "status": "partial",
  "note": "Exact behaviour proved for every input: the shift of the polynomial without its constant monomial, which the code drops (C16_violated)."
 },
 "C34": {
  "status": "partial",
  "note": "Proved for objects whose degree has not been cached before the last modification; the cache is not invalidated (C34_violated)."
 },
 "C31": {
  "status": "proved",
  "note": "For all seeds and histories. get_rand_64 ends within 6 draws for every prime of the table; get_rand_32 within 2^46+1 draws for every modulus from 2^32. Without a set_seed call get_rand_64 never returns (C31_unseeded_violated)."
 },
 "C32": {
  "status": "partial",
  "note": "All operators entrywise except scalar - vec and scalar / vec, which exchange their operands (C32_scalar_vec_partial says what they compute, C32_violated refutes the property for every prime p > 3); at() refuses the last entry (C32_at_partial)."
 },
 "C21": {
  "status": "partial",
  "note": "Proved for all sequences that start with a nonzero value, including minimality of l and recovery of the generator of a sum of geometric sequences; a leading zero value is undefined behaviour in the code (C21_first_zero_violated)."
 },
 "C19": {
  "status": "proved",
  "note": "Reproduction, recovery and termination, under the hypothesis of the property that no division by zero occurred; without it the property fails (C19_zero_division_violated)."
 },
 "C22": {
  "status": "partial",
  "note": "Invertible systems are solved (C22_solve), the error is only raised for singular ones (C22_exit); the test looks at the last pivot only, so a singular system whose first n-1 columns are dependent can be answered with a vector that does not solve it (C22_violated, C22_unreported_partial)."
 },
 "C23": {
  "status": "proved",
  "note": "All functions of DenseSolver.hpp other than solve_gauss_system; the factorisation and the determinant also for singular matrices."
 },
 "C24": {
  "status": "partial",
  "note": "Proved for every well-formed text of the documented format (Spec/Expr.lean) with exponents below p-1 (negative ones also below 2^31), variable names of at most 16 letters and digits, for the evaluator used inside of the library (C24_evaluate); unbalanced texts are rejected (C24_validate_balanced). The public evaluate lacks negative exponents (C24_public_violated); negative exponents from 2^31 on are truncated (C24_large_negative_exponent_violated). Integer literals of more than 17 digits must not begin with 0: they are read by mpz_class(string), for which a leading 0 means octal (C24_octal_violated)."
 },
 "C25": {
  "status": "partial",
  "note": "Same prime: every function (C25_evaluate_pre). Any history of prime changes: every expression of the grammar none of whose divisors is itself a quotient (C25_expression for validated text, C25_expression_plain for text parsed as it stands; the condition is on the expression, not on its tokens), and every token list without two adjacent '/' (C25_evaluate_history_partial, C25_expression_partial); for x/(2/3) the code is wrong after a change of the prime (C25_compound_divisor_violated). evaluate_pre_2 agrees for functions of more than one token and overflows its array for single tokens. The token-list theorems assume that no literal that begins with 0 has more than 17 digits (OctFree); without it the value changes (C25_octal_violated)."
 },
 "C26": {
  "status": "proved",
  "note": "All three generators of HornerGenerator.cpp, Polynomial/RationalFunction::generate_horner, and the Horner form inside PolynomialFF together with its parsing, precomputation and evaluation (C26_calc_n_m_1_history discharges the hypothesis of C15_calc_n_m_1_history). Denotes is stated with the grammar of Spec/Expr.lean; exponents only need to be below p-1 when the text is evaluated modulo p. FFMap keys are distinct because they are map keys."
 },
 "C33": {
  "status": "proved",
  "note": "to_string of PolynomialFF, Polynomial, RationalFunctionFF and RationalFunction (with factors and variable order); C33_read_back composes it with the parser (C24). Total degrees that wrap around 2^32 are not modelled."
 },
 "C30": {
  "status": "proved",
  "note": "All interleavings of critical sections, any number of threads, tasks and clients. Tasks discarded by kill_all are counted as discarded. Also proved: no lost wake-up of workers, termination, quiescence, progress of the destructor, a single waiting client is not blocked. C30_two_clients_violated: two clients sleeping in wait/kill_all share notify_one and one of them can be blocked forever. C30_wait_queue_violated: wait() may return false with queued tasks. Not modelled: futures of packaged tasks, tasks that throw."
 },
 "C36": {
  "status": "partial",
  "note": "Univariate functions, default mode (no safe interpolation, no scan, no tag): C36_run and C36_three_primes prove that the result is n/d, or a Premature result that agrees with n/d modulo the product of the primes and at the probe of the test. That alternative cannot be removed: C36_wrong_violated shows a wrong result under all assumptions; C36_stuck_violated shows an object that asks for probes for ever. C36_combine_next and C36_guess hold for any number of variables. More than one variable: C46."
 },
 "C37": {
  "status": "proved",
  "note": "Interleaving model at the granularity of critical sections; processing a probe is abstracted to its effect (nothing, next prime field, done). C37_empty_bunch_violated: an empty bunch blocks the object (feed reads num[0], so the caller must not pass one)."
 },
 "C38": {
  "status": "proved",
  "note": "Interleaving model of the main thread and the workers at the granularity of critical sections, without MPI, files and factor scan; which points are requested is left open. C38_protocol shows that the assumptions of C37 hold. C38_no_deadlock excludes the case that attempt_to_continue requests no probe (gaveUp)."
 },
 "C39": {
  "status": "proved",
  "note": "Contents of the state files as text (gzip not modelled); which file exists after a crash is not part of this property. Names that are words of the file format are excluded (C39_tag_violated). C39_interrupted(_run) covers functions of one variable in the default mode, for any number of interruptions; round trips C39_round_trip, C39_initial, C39_zero hold for any number of variables."
 },
 "C40": {
  "status": "proved",
  "note": "Text of the probe files (gzip not modelled: a truncated file is modelled as a prefix of the text). C40_truncated_violated and C40_append_violated show what happens with a cut line: element beyond the end of a vector is read, respectively two lines are fused into a wrong probe."
 },
 "C41": {
  "status": "proved",
  "note": "For all histories of the transition system of Verif.Model.Crash. Not modelled: creation of the files in the first run, the shift and anchor point files, power failures (reordered writes)."
 },
 "C42": {
  "status": "partial",
  "note": "Proved for histories whose crashes are quiet (no object is writing its files, not within the operations at the end of a run): C42_probes_partial, C42_resumable_partial, C42_quiet_partial. Outside of these the property fails: C42_probes_violated (stale probes used after two crashes), C42_no_probe_file_violated, C42_zero_write_violated; C42_zero_violated: a function is taken to be zero after one zero probe when runs with a limited number of primes are resumed."
 },
 "C43": {
  "status": "proved",
  "note": "For anchor points that are generic for f (Fits/Generic in Verif.Spec.MultiPoly, stated without the algorithm) and for f that does not vanish. The zero polynomial is C43_zero (Newton); with Ben-Or/Tiwari only it is undefined behaviour (C43_zero_bt_violated). One prime field; mutexes and the queue are not in this model."
 },
 "C44": {
  "status": "proved",
  "note": "First prime field, n > 1, no scan of shifts or factors. Genericity of shift, anchor point and probes is stated without the algorithm in Verif.Spec.RatMultiHyps (Prob, GoodPts, ThieleOK; for single polynomials Generic of C43). After the removal of the first list element the code decrements an iterator beyond begin() (undefined); the model continues with the next element as intended. Mutexes, files and the queue are not in this model (queue: C38)."
 },
 "C45": {
  "status": "proved",
  "note": "For every sequence of different probes. The genericity of the probes (denominator not zero, homogenized systems regular, powers of the anchor point distinguish the monomials of one degree) is a hypothesis, shown to hold in the examples."
 },
 "C46": {
  "status": "proved",
  "note": "n > 1, no scans, no safe mode, no shift in the further fields; if every monomial shares its degree with another one, the model stops with `singular` after the first field (the branch with the singular systems is not modelled). Genericity and 'no coefficient is mistaken for another number' (Deceptive, excluded for coefficients below half of the primes) are hypotheses. Defect: C46_zero_first_violated."
 },
 "C47": {
  "status": "proved",
  "note": "Any number of variables, without RatReconst. The hypotheses per field are those of C43 for f modulo p (generic anchor point), and p divides no denominator. That a premature result may be reported (it agrees modulo the product of the primes and in one more value) is part of the statement. The value for (1, ..., 1) must be fed once per field at most: C47_stale_violated shows a wrong result otherwise."
 },
 "C48": {
  "status": "proved",
  "note": "Any number of workers, threads, probes and prime fields, all interleavings. Hypotheses: at least two threads for the master, at least one per worker, supported bunch sizes, fewer than 2^31 waiting probes and 2^64 probes per field. The points of the first packet are given (C48_first: right if no random number is repeated; C48_first_violated otherwise). C48_bunch_violated, C48_one_thread_violated: what happens with settings the code accepts but does not support. C48_idle_violated: workers may idle while probes wait (no loss)."
 },
 "C49": {
  "status": "partial",
  "note": "Proved for fresh runs and runs resumed inside the first prime field that do not reach the largest number of primes and do not stop after the factor scan; waiting may end spuriously except at line 4205. The full statement is false: C49_restart_violated (resumed at a change of the prime), C49_all_done_violated (resumed when everything is done), C49_limit_violated and C49_limit_never (largest number of primes), C49_leave_violated and C49_leave_never (stop after the factor scan), C49_spurious_violated (spurious wake-up at line 4205) are deadlocks of the code."
 },
 "C50": {
  "status": "proved",
  "note": "Proved for all numbers of variables and functions. Hypotheses are the generic choices of the code: Thiele's method works on the lines that are tried (LineOK), the powers of t seen in the scan contain those on the first line of the interpolation (FirstOK: after the scan new random values are drawn for the shift), the first linear system is regular."
 },
 "C51": {
  "status": "partial",
  "note": "Probe, point, order of the variables, get_early_results and get_factors_string proved for all factors, histories and points (C51_factor_value, C51_probe, C51_order, C51_point, C51_degrees, C51_early_results, C51_early_once, C51_factors_string). get_result returns the same if all functions are done and none was taken before (C51_get_result); otherwise it attaches the factors of another function (C51_get_result_violated)."
 },
 "C52": {
  "status": "partial",
  "note": "One prime field: the common factor is exactly h if the cofactors have no accidental common factor, and always divides both (C52_one_prime, C52_divides, C52_degree, C52_residues). Several prime fields: C52_scan (every report exact, or it passed the test with too few primes; all reported once the primes suffice), C52_exact. Holds only if no prime divides a coefficient: otherwise the residue of this coefficient is not updated and the factor is never found (C52_lost_residue_violated). A function can be reported later than its own coefficients need because the modulus is overwritten (C52_modulus_violated)."
 },
 "C53": {
  "status": "proved",
  "note": "C53_resume (points, tokens of the factors and printed results of a resumed run, for all factors, orders and leftovers of an interrupted scan), C53_probe (the probes of the resumed run). The assumption on the old files is needed: nothing in ff_save is removed by a new run (C53_stale, C53_stale_points)."
 },
 "C54": {
  "status": "partial",
  "note": "C54_write (every sequence of characters, strings and flushes, every size of the buffer, no failure of zlib), C54_read (every content without a short block behind a full one), C54_roundtrip, C54_reported (whichever calls of gzwrite fail, without a report at most one buffer at the end is missing), C54_flushed (nothing is missing after a flush without a report). Partial because the code violates the full claim: a failure of the last block is not reported (C54_close_violated), a long text is cut in append mode (C54_append_violated; C54_append_partial for short ones), overlapping memcpy for a short last block of a long file (C54_read_violated)."
 },
 "C55": {
  "status": "partial",
  "note": "C55_texts (every list of non-empty texts below 2^31 characters, every batch size, every following message), C55_setup (start of a run: the worker divides the probes of every function by the value of its factors in all later prime fields), C55_resume (the same after reading the files), C55_scan (end of a factor scan). Partial because the code violates the claim for longer texts (C55_size_violated)."
 },
 "C56": {
  "status": "partial",
  "note": "C56_line (format of a line), C56_history (every interleaving of requests, files, taking and feeding, at least two variables: no exit, requests written completely, answers handed on exactly once with their key). Partial because the code violates the claim for one variable (C56_univariate_violated: no line can be read) and during the factor scan (C56_scan_violated); C56_repeat_violated: answered requests stay in the file."
 },
 "C57": {
  "status": "partial",
  "note": "C57_terms, C57_file (reading), C57_coefficients, C57_sum, C57_black_box (with C25, coefficients without a quotient as a divisor), C57_duplicate, all for expressions and tables of any size. Condition: no name of a function is a part of another name. Partial because without it the result depends on the order of the names (C57_families_violated); a coefficient that is not behind a * is lost without an error (C57_operator_violated), and a second expression in one object gives wrong coefficients (C57_twice_violated)."
 },
 "C58": {
  "status": "proved",
  "note": "C58_merge, C58_round_trip. C58_sign_violated and C58_blank_violated show that files of other origin need signs before their first terms and a text."
 },
 "C59": {
  "status": "partial",
  "note": "C59_degree, C59_arithmetic, C59_shrink_rev, C59_division, C59_gcd, C59_print. Partial because zero divided by a constant (and gcd of zero and a constant) is undefined behaviour although the result exists (C59_zero_violated), and because the polynomial of the default constructor, printed as 0, makes every operation throw (C59_default_violated)."
 },
 "C60": {
  "status": "proved",
  "note": "C60_roots, C60_multiset (what is returned, for all draws), C60_can_return (no dead end, any multiplicities). C60_never_returns: for a polynomial that is no product of linear factors (excluded by the documentation) it runs for ever; C60_zero_violated: the zero polynomial is undefined behaviour."
 },
 "C61": {
  "status": "proved",
  "note": "C61_prime (safety, acceptance of guesses, correctness, bound on the requested probes), C61_enough (which probes are missing, for any order of arrival), C61_complete (termination when the probes asked for are given). Hypotheses: the supports are known (Spec/RatShift.lean, PriorOK, Prob), the probes give regular systems (GoodPts). Not covered: the normalization to the numerator with a constant term of the denominator to be asked (Prob.den0: then the denominator would have a constant term and vanish at the random shift by accident), and values left over in the storage from the previous prime field."
 },
 "C62": {
  "status": "proved",
  "note": "C62_first, C62_prime, C62_skip (one prime field each) and C62_run (all sequences). C62_ends: with B-bit coefficients no further field is waited for after 3B+3 used fields, whichever coefficients vanish; C62_right: no wrong result if no coefficient vanishes in the first field and all are small for its prime. Hypothesis Clear: no fraction that is small for the modulus of a coefficient can be mistaken for it (otherwise a coefficient is known wrongly). Not covered: one variable (normalizer chosen anew in every field, RatReconst.cpp 473-476; that is C73) and probes that are pending when a field ends."
 },
 "C63": {
  "status": "partial",
  "note": "C63_first, C63_prime, C63_skip (one prime field each), C63_run_partial and C63_finishes_partial (all sequences of fields that are not skipped). Violated if a field is skipped because its first probe is zero while the shift is needed: nothing asks for the shift of the next field, and the run ends with the error of a singular system (C63_skip_violated, C63_skip_fails). Hypothesis NoLateAsks: no other function asks for the shift after it has been disabled."
 },
 "C64": {
  "status": "partial",
  "note": "C64_collection (no check), C64_equal, C64_equal_exact, C64_false_equal (Schwartz-Zippel bound), C64_file, C64_add_otf, C64_add_otf_precompute, C64_trim, C64_trim_forced, C64_trim_otf, C64_evaluate, C64_evaluate_pre_2 (right unless a function is a single token, then undefined), C64_parse_function. The remaining cases are violated by the code: see the theorems C64_*_violated (add_otf without keep_rpn, add_otf with the check, trim and evaluate without keep_rpn, trim before a new prime field, add_otf_precompute in a new prime field, positions of add_otf with equal functions, accidental equality)."
 },
 "C65": {
  "status": "proved",
  "note": "C65_list (the requested numbers), C65_enough, C65_all (every schedule: all objects done and right at the end), C65_done, C65_no_deadlock, C65_ends (bound for the number of steps), C65_finishes, C65_no_surplus, C65_resume, C65_orders (first prime field). Assumption: get_needed_feed_vec, which takes no lock, is executed by one thread at a time (two interpolate jobs of one object can overlap in the code: a data race on needed_feed_vec). The theorems hold for one variable, too (used in C71)."
 },
 "C66": {
  "status": "proved",
  "note": "C66_request (what one object asks for, after any probes), C66_all (every schedule: all objects done and right at the end), C66_done, C66_no_deadlock, C66_ends (bounds for the number of steps and of probes, the same for all schedules), C66_finishes, C66_in_flight, C66_no_surplus. n > 1, without factor scan, scan of shifts and MPI; the probes of a bunch are single steps."
 },
 "C67": {
  "status": "partial",
  "note": "C67_counts, C67_flags, C67_enough, C67_books, C67_gives_up, C67_defined (every state and every prime field), C67_recovers and C67_rounds (first prime field: the call works from every state, and a bounded number of recoveries suffices). Violated in two cases: results fetched early are not counted as finished (C67_early_results_violated), and in a further prime field the list of requests is handed out only once, so that the recovery throws (C67_taken_violated). MPI is left out."
 },
 "C68": {
  "status": "partial",
  "note": "C68_accepts, C68_options, C68_empty, C68_all (all functions finish within the limit: exactly the needed fields), C68_limit (which functions are finished at the limit). Violated at the limit: the black box is evaluated in one more prime field and the run reports that it is done (C68_at_most_violated); with the default limit 300 the table of primes is read behind its end (C68_default_violated). What happens inside a prime field (C62, C65, C66) and the scans (C48, C52) is abstract here. A resumed run, precomputed probes and MPI are left out."
 },
 "C69": {
  "status": "proved",
  "note": "C69_run (results), C69_all (when all functions are reported), C69_right (no wrong result if the coefficients are small for the first prime), C69_first_ends and C69_later_ends (no deadlock, every field ends), C69_first_bound and C69_later_bound (every schedule of a field has a bounded number of steps), C69_later_probes (no surplus probe in a further field), C69_complete (a run can be completed). They join C66/C44 (first field), C65/C45 (further fields) and C46/C36 (recombination). Mode: more than one variable, no shift in the further fields, no safe mode, scans, factors, MPI or saved states; a function whose first value in a field is zero is excluded by the assumptions. WholeExamples: two objects for x/(x+40/3 y) with the primes 101, 103, 107; the assumptions hold, a schedule of the first field is executed, and the run is completed."
 },
 "C70": {
  "status": "partial",
  "note": "Everything is proved except where the code does not do it: zero() misses a zero polynomial with two or more stored monomials (C70_zero_missed: after *= 0), and convert_to_PolynomialFF of a polynomial without monomials reads beyond the end of the vector (C70_convert_empty). C70_zero is exact for polynomials without stored zeros and for those with at most one monomial, C70_mul without overflow of an exponent beyond 32 bits (an example shows the wrap)."
 },
 "C71": {
  "status": "proved",
  "note": "C71_run (results), C71_all (when all functions are reported), C71_right (no wrong result if the coefficients are small for the first prime), C71_first_ends, C71_first_bound and C71_later_ends (no deadlock, every field ends), C71_later_bound (schedules of further fields are bounded), C71_later_probes (no surplus probe), C71_complete (a run can be completed). They join C36 (one object over all primes) and the schedules of C65/C66 for one variable. Mode: no shift, safe mode, scans, factors, MPI or saved states; a probe with the value zero is excluded by the assumptions (Hyp), as is a probe for which Thiele's method divides by zero. WholeUniExamples: two objects for x/(1+40/3 x) and x/(1+5 x) with the primes 101, 103, 107 and an executed schedule."
 },
 "C72": {
  "status": "proved",
  "note": "C72_run (results), C72_all (when all functions are reported), C72_right (no wrong result if the coefficients are small for the first prime), C72_shift (when the shift is kept), C72_first_ends and C72_later_ends (no deadlock, every field ends), C72_first_bound and C72_later_bound (every schedule of a field has a bounded number of steps), C72_later_probes (no surplus probe in a further field), C72_complete (a run can be completed). They join C68/C69 and the schedules of C65/C66 with one object over all primes and any pattern of shifts (Model/RatShiftAll). Mode: more than one variable, no safe mode, scans, factors, MPI or saved states; a probe with the value zero is excluded by the assumptions (Hyp). WholeShiftExamples: two objects for (x+2y)/(x+40/3 y) with the shift (1,0) and the primes 101, 103, 107; the assumptions hold, a schedule of the first field is executed, the shift is kept afterwards, and the run is completed."
 },
 "C73": {
  "status": "partial",
  "note": "C73_first, C73_prime, C73_skip: one field; C73_run: all fields (Model/SafeUni). C73_ends: with b-bit coefficients and enough probes, a result is reported within 3b+3 fields that are not skipped, whichever coefficients vanish; C73_right: if no coefficient vanishes in the first field and all are small for its prime, no wrong result is reported. Assumed of each field (FieldOK): p divides no denominator of a coefficient of the normalized function (lowest coefficient of the denominator 1), the function has no common factor mod p, Thiele's method neither divides by zero nor stops too early, and no coefficient can be mistaken for another number (Clear). Missing: fields in which the lowest coefficient of the denominator vanishes. For them the claim is false: C73_vanishing_violated shows a correctly sampled field after which, whatever follows, x/(103+x) can only be reported with a constant in its numerator. In several variables the code tests for this case (div_by_zero, C54-C57), in one variable it does not. SafeUniExamples: the hypotheses of C73_run hold for (1+13x)/(1+40/3 x) and the primes 13, 3299, 3301, with the computed states and result."
 }
}