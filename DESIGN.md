# Formal model of FireFly (jklappert/FireFly) in Lean 4

## 1. Layers

* **Layer A – machine layer.** `FFInt` and the word-level helpers are modelled on `Nat`/`Int`
  values with *explicit* 64-bit wrap-around (`u64`, `i64`), explicit truncating division, an
  explicit rounding model of `long double` (any round-to-nearest to a 64-bit significand), and
  `Option`/`Except` results where C++ has undefined behaviour, throws or calls `exit`.
  Theorems relate these functions to `ZMod p`.
* **Layer B – algorithm layer.** Algorithms written against `FFInt` (polynomials, interpolators,
  linear solvers, parsers) are modelled over an arbitrary Lean `Field F` with decidable equality.
  The licence for this is C01: canonical `FFInt`s with prime `p < 2^63` *are* the field `ZMod p`,
  including `x/0 = 0`, which is also Lean's convention for `/` in a field.
* **Layer C – state machines.** ThreadPool, reconstruction bookkeeping, save/resume.

Hash maps (`ff_map`, `rn_map`, ...) are association lists with pairwise distinct keys in an
*arbitrary* order; theorems quantify over all such lists, hence over every iteration order.
`mpz_class` is `Int` with GMP's truncating `/` and `%` (`Int.tdiv`, `Int.tmod`).

## 2. Plan per property

| id | modelled | proof |
|----|----------|-------|
| C01 | FFInt operators (DEFAULT build) | refinement to `ZMod p`, using C02/C03 |
| C02 | `mod_mul` with rounding model | error analysis of the two roundings by cases on binades |
| C03 | `mod_inv` with wrap-around cofactors | loop invariant (Bezout relation + size bounds) |
| C04 | `mod_pow`, `FFInt::pow` | square-and-multiply invariant, Fermat |
| C05 | integral/mpz constructors | arithmetic; negative multiples of p are a genuine defect (negation proved) |
| C06 | string constructor, `parse_longint` | induction over chunks |
| C07 | prime tables | Pratt/Pocklington certificates and divisor certificates checked by the kernel |
| C08 | `run_chinese_remainder` | divisibility |
| C09,C10,C11 | `get_rational_coef(_mqrr)` | extended-Euclid invariants, lattice argument |
| C12 | `RationalNumber` | refinement to `Rat` |
| C13–C17 | `PolynomialFF` | coefficient/evaluation semantics over association lists |
| C18 | Newton coefficients | divided-difference invariant, root counting |
| C19 | Thiele | continued-fraction recursion |
| C20 | Vandermonde solvers | master polynomial / Lagrange argument |
| C21 | Berlekamp/Massey | annihilation invariant |
| C22,C23 | dense solvers | loop invariants over function-matrices |
| C24,C25 | shunting-yard parser | induction over expression syntax |
| C26,C33 | Horner/to_string generators | semantics of generated text through a reference grammar |
| C27 | comparisons | order axioms, colex characterisation |
| C28 | bunch size / job number | bit-smearing lemma on 32-bit words |
| C29 | shift enumeration | bijection with binary numerals |
| C30 | ThreadPool | invariant over all interleavings of atomic sections |
| C31 | PRNGs | invertibility of the state maps on `BitVec 64` |
| C32 | FFIntVec | entrywise lemmas; two mixed operators are a genuine defect |

| C33 | `to_string` of (PolynomialFF, Polynomial, RationalFunction(FF)) | printed text is in the reference grammar and denotes the function; composed with C24 |
| C34 | `max_deg`/`min_deg` caches | object model with cache fields, all histories of member calls |
| C35 | Ben-Or/Tiwari stage of PolyReconst | Berlekamp/Massey (C21) + Vandermonde (C20) + exponent recovery |
| C36 | RatReconst over several prime fields (n = 1 completely, combination of primes for all n) | invariant UniOK between prime fields; C08, C09, C11, C19, C22 for the single steps |
| C37 | RatReconst::feed/interpolate used by several threads | invariant over all interleavings of critical sections |
| C38 | Reconstructor::run_until_done, feed_job, interpolate_job, get_job, queue_probes, attempt_to_continue (no MPI, no files) | invariants over all interleavings of main thread and workers: values, counters, deadlock freedom |
| C39 | save_state, save_zero_state, set_tag_name, start_from_saved_file, parse_vector_32, parse_rational_number, parse_prime_number | text model of the files; round trip by entry lemmas; resumed runs (n = 1) through the invariant UniOK of C36 |
| C40 | write_food_to_file, read_in_probes, parse_vector_FFInt | text model of the files; prefixes of the text for a crash while writing |
| C41, C42 | the files in ff_save: save_state, save_zero_*, write_food_to_file, the replacement of probe files, run_until_done (change of the field, end of the run), resume_from_saved_state | transition system with pending file operations, crashes at any step, any number of functions; inductive invariants over all prefixes of pending operations |
| C43 | PolyReconst::interpolate in one prime field: all stages, Newton, Ben-Or/Tiwari, temporarily solved degrees, transposed Vandermonde systems | invariant per stage (which monomials of the first variables are known, which are open), measure that decreases with each probe; C18, C20, C21, C35 for the single steps |
| C44 | RatReconst::interpolate for n > 1 in the first prime field: Thiele's method, systems for the powers of t, saved values and saved probes, feed_poly, removal of the shift degree by degree, normalization | invariant per side (solved, open and dense degrees against the homogeneous parts of the shifted polynomial), rows of the system against the probes, pool of saved probes; measure (missing values, rows); C13, C17, C19, C23, C43 for the single steps |
| C45 | RatReconst::interpolate for n > 1 in a further prime field (no shift, no singular system): check of the guess, homogenized systems for the values of the unknown parts, Vandermonde systems for their coefficients, saved probes, sum of the parts | invariant per side (open parts, values so far, sum of the finished parts), rows of the system against the probes, pool of saved probes; number of unknown coefficients as measure; C15, C20, C22 for the single steps |
| C46 | the life of a RatReconst object for n > 1 over several prime fields: skipped fields (first probe zero), first field (C44), guess, further fields (C45), combination of residues, unknown monomials by degree, end | invariant between two fields (each coefficient known exactly or as a residue, C36; unknown monomials grouped by degree), per field C44/C45 on the reduced polynomials; induction on the list of fields; normalization: reduction commutes with the factor |
| C47 | the life of a PolyReconst object (any number of variables) over several prime fields: interpolation modulo p (C43), Chinese remainders, guess of the rational coefficients, test with the first value of the next field, end | invariant between two fields: the residues modulo the product of the primes of all coefficients are stored (missing monomials: residue 0); per field C43 on the reduced polynomial, C08/C09/C10 per coefficient; induction on the list of fields; termination since the product of the primes grows |
| C48 | the MPI protocol: send_first_jobs, mpi_communicate (master), MPIWorker::communicate and its thread pool (workers), queue_probes, get_job, compute_probe; change of the prime and end with their barriers | transition system of all processes and threads with FIFO channels and the packed words of the messages; invariant with decoded messages (whose turn it is between master and worker, conservation of probes as multisets); a measure that all steps but new requests decrease; quiet states by cases |
| C49 | the statements of the reconstructing thread and of the communication thread that touch `mutex_probe_queue`, `cond_val` and the flags, as straight blocks of instructions with program counters; condition variable with separate steps for reading the predicate, falling asleep, waking up and getting the mutex again | the control states are finitely many: an invariant that gives flags, owner and modes for each pair of program counters, its preservation checked by the kernel for all of them (`decide +kernel`, 1642 control states); induction over runs of any length; a rank that decreases with every step; counters of the marks relative to the number of rounds |
| C50 | `scan_for_shift` and what an object does in it (rounds, sets of variables in the order of generate_next_permutation, degrees on a line, acceptance), and the interpolation of an object that knows the powers of `t` from the scan (skip_thiele, build/solve_factor_uni_gauss) | one round: C19 gives degrees and powers; induction over the remaining sets of variables (C29); meaning of equal degrees by divisibility of polynomials; the linear system by uniqueness (C23), then the invariant of C44 |
| C51 | what happens to the factors after the factor scan: sets of strings, text, parser and tokens (C24, C25), division in compute_probe, optimal_var_order and the points of queue_probes, get_result, get_early_results, get_factors_string | the text is a well-formed expression without a quotient as divisor (induction over the monomials), then `C25_expression_plain`; texts in different variables differ; permutation and stability of the sort; algebra of the value of a result |
| C52 | `scan_for_factors`: the two scans in a prime field (common factors of FLINT's factorizations, get_canonical_factors), the degrees, the combination of the residues over the prime fields with the shared modulus, guess and test | one field: unique factorization over `ZMod p` (multiplicity of an irreducible polynomial in `h * G` with `G` coprime to `h`); several fields: invariant between two fields (residues of all coefficients of the active functions modulo the product of the primes), within a field the functions not yet visited keep the old modulus; C08, C09, C10 per coefficient |
| C53 | the files of the factor scan: writing `var_order.gz`, `factors_rf/<i>.gz`, `factors/<i>.gz`; reading them in `resume_from_saved_state`, `parse_factors_rf`, `parse_factors` | lines of numbers (as C27), state of the reading loop after each factor by induction; files written over leftovers as a set of (name, content); text of factors has no line break; then C51 for the probes |
| C54 | the streams of all compressed files: `gzstreambuf` (buffer, overflow, sync, flush_buffer, close, underflow with its put-back area) and the functions of the standard streams that call it | writing: file ++ buffer = what was written, by induction over the operations and over the blocks of `xsputn`; reading: what is left = window ++ unread rest, `memcpy` does not overlap, by induction over the characters; `getline` against `linesOf` |
| C55 | the broadcast of the factors: `mpi_setup`, the end of `scan_for_factors` (master), `MPIWorker::run` and the branch `FACTORS` of `communicate` (worker), the texts of `get_factors_string` | messages as a list; the parts of a text by induction over the loop, the texts by induction over the functions; the text is a well-formed expression without a quotient as a divisor (as C51), then C25 for the tokens of the worker; C53 for a resumed run |
| C56 | the mode with precomputed probes: reading the answers, writing the requests, and the queue operations they share | a line by the properties of `find` on texts without a bar; the history by an invariant over all sequences of operations (distinct indices, each with its entry in `index_map`), answers as a permutation; counterexamples for one variable, the factor scan and answered requests |
| C57 | AmplitudeParser: reading sums and tables (positions, `find`, `rfind`), the maps of functions and masters, the text of a coefficient | texts: invariants of the loops over positions; maps: an invariant with the functions, masters and entries as ghosts, over all terms, rules and masters; the coefficient text is the rendering of an expression, its value by regrouping sums; the black box by C25 |
| C58 | ff_insert: the files with coefficients and the merge | no name of a function occurs in a coefficient (infixes between separators), the merged text is a spelling of the sum, C57 for its value |
| C59 | Poly: all operators, the Newton inversion of the reversed divisor, gcd, output | coefficientwise induction over the loops; X^(2^i) divides 1 - f g_i along the Newton iteration; reflection of polynomials for the quotient |
| C60 | Poly::roots as a function of the list of random numbers | invariant: product of the queue times the linear factors found; existence of a separating shift in ZMod p, decreasing sum of squared degrees |
| C61 | RatReconst, further prime fields with a shift (singular system): set_singular_system_vars, the systems, the parts solved with their shift and from the highest degree on | one invariant for numerator and denominator (values stored = values of the shifted parts), the pass from the highest degree on by downward induction with the binomial expansion of the shift; a potential that counts the values that are missing |
| C62 | RatReconst with set_safe_interpolation for n > 1: feed, interpolate, normalization, combine_primes with a modulus for each coefficient, rec_rat_coef, the test of a guess | invariant between prime fields for each side (known / residue modulo the product of the primes that see the coefficient / never seen); each field by C44; Chinese remainders and both rational reconstructions by the lemmas of C06, C07, C45; induction over the prime fields |
| C63 | RatReconst for n > 1 over all prime fields, with the shift kept as long as `singular_system_set` asks for it: first field (RatMulti), fields with shift (RatShift), fields without (RatLater), combine_primes, check_for_solved_degs | invariant `Ready` between prime fields: coefficients known exactly or as residues, the monomials the shift produces are known, and either all coefficients of one degree are known or the shift is still on; each field by C44, C61, C45; induction over the fields |
| C64 | class ShuntingYardParser as an object: constructors, equal-function search, add_otf, add_otf_precompute, precompute_tokens, trim, evaluate, evaluate_pre, get_size, reading of the file | refinement: invariant that precomputed tokens are the precomputation of the stored RPN for the current prime (`SypReady`) and that the positions list the functions (`Listing`), then C25's single-function theorems; the bound by Schwartz-Zippel in Mathlib |
| C65 | (also for objects without unknown coefficients) check_if_done (computation of needed_feed_vec, with and without shift, stored probes), get_needed_feed_vec, the requests in interpolate_job with started_probes, get_zi_orders entries; all objects of a field as a transition system on top of RatLater (C45) and RatShift (C61) | the list is computed in closed form (counting lemmas on r_map); an invariant of the transition system (probes counted by started_probes, every request taken, waiting or covered), a potential that decreases with every step, and C45/C61 for each object |
| C66 | get_zi_orders with vandermonde_size, the first field of interpolate_job (balance_of_ones, started_probes), feed_job, start_first_runs; all objects as a transition system on top of RatMulti (C44) | for one object: an invariant that accounts for every probe it got (used, stored for a later system, or in the current system) and a potential that decreases when the request changes; for all objects: an invariant (every lack is covered by a probe on its way, a job that will look, or a request), and a count of the probes that can be queued |
| C67 | attempt_to_continue over abstract objects (an interface of six member functions), reset_new_prime; the objects of the first prime field are those of C66 | an invariant of the loop over the functions (what has been counted, queued and booked); rounds: the potential of C66 decreases when an object gets at least the probes it lacks |
| C68 | reconstruct: the options, the order of the scans, the loop over prime fields with its limit; the prime fields and scans themselves are abstract | options: induction over the history of calls; fields: induction over the fields, with the state of each function after k fields as specification |
| C69 | a whole run: the transition systems of C66 (first field) and C65 (further fields) for all objects, the recombination of C46 between the fields; a function is open or closed, open ones go to the next field | induction over the fields; in each field the probes an object has got, in the order it got them, are an admissible history for C44/C45, whatever the schedule; end of the fields from C65/C66 |
| C70 | Monomial.cpp, Polynomial.cpp (all members that are not printing), over the polynomial ring of Mathlib | direct; the sort is the only list meeting the contract of std::sort; the conversion by clearing all denominators at once in ℤ |
| C71 | the objects with one variable (Model/RatReconst) run by the schedules of Model/FirstFeed and Model/NeededFeed, all prime fields (Model/WholeUni) | the theorems of the schedules need only OK for the objects: shown from the theorems of C36; induction on the fields |
| C72 | the objects of several variables with the shift kept as long as some function is in singular_system_set (Model/RatShiftAll), run by the schedules of Model/FirstFeed and Model/NeededFeed, all prime fields (Model/WholeShift) | each field of one object is described for shift and no shift; the theorems of the schedules apply to the objects; induction on the fields with an invariant for each open function |
| C73 | the object of one variable with safe interpolation: Thiele's method from scratch in each field, the normalization of the field, combine_primes with a modulus for each coefficient, the test (Model/SafeUni) | the theorems of Thiele's method applied to the reduction mod p; the invariant of Model/RatSafe (OK) with univariate polynomials as polynomials in the variable 0; the defect by evaluation of two fields and an invariant (a monomial that is stored is kept) |

## 3. Trusted base

* Lean 4.33.0's kernel. No `sorry`, no own axioms, no `native_decide`/`bv_decide`; every theorem depends on at
  most `propext`, `Classical.choice`, `Quot.sound` (checked by `vcheck`). Concrete evaluations use
  `decide +kernel`, i.e. the kernel's own reduction with its built-in `Nat` arithmetic (GMP).
* The faithfulness of the hand-written models in `lean/Verif/Model/*.lean` to the C++ sources. Every definition cites
  file and lines; simplifications are stated in the comment. Nothing was compiled or run.
* Properties of the C++ platform used by the models: two's complement 64-bit words, `long double` with a
  64-bit significand and round-to-nearest (C02 is stated for every such arithmetic, the class `LongDouble`;
  `x87` is a concrete instance), `std::sort` sorts with respect to a strict weak order (`stdSort`),
  `std::mutex` gives mutual exclusion, `condition_variable` notifications as in the standard, including
  spurious wake-ups, GMP's integer functions are exact.

### What is modelled

| source | model | remarks |
|---|---|---|
| FFInt.cpp/.hpp (DEFAULT arithmetic) | Machine, FFInt, FFIntString | FLINT and custom back ends are not modelled |
| FFIntVec.cpp/.hpp | FFIntVec | all operators |
| RationalNumber.cpp | Rational | |
| utils.cpp (CRT, rational reconstruction, Vandermonde, shifts, comparison), ReconstHelper.cpp | Rational, Vandermonde, Utils, PrimeTable | |
| BaseReconst.cpp (random numbers) | Rng | |
| PolynomialFF.cpp, Polynomial.cpp, RationalFunction(FF).cpp | PolyFF, PolyObj, Printer | |
| HornerGenerator.cpp | Printer | |
| FFThieleInterpolator.cpp | Thiele | |
| PolyReconst.cpp (Newton, Berlekamp/Massey, Ben-Or/Tiwari end, Vandermonde) | Newton, Vandermonde, BenOrTiwari | |
| PolyReconst.cpp (interpolate, all stages) | MultiPoly | one prime field; mutexes and the queue are left out |
| PolyReconst.cpp (queue, new prime fields, combination, guess, test) | PolyRun | mutexes left out; without RatReconst |
| RatReconst.cpp (interpolate, feed_poly, build_uni_gauss, solve_gauss, calculate_shift_polynomials, normalization) for n > 1 | RatMulti | first prime field; no scans; mutexes, files and the queue are left out |
| RatReconst.cpp (interpolate, check_if_done, test_guess, build_homogenized_multi_gauss, solve_homogenized_multi_gauss, solve_vandermonde_system) for n > 1, further prime fields | RatLater | no shift, no singular system, no safe interpolation; mutexes, files and the queue are left out |
| RatReconst.cpp (feed, interpolate, combine_primes, add_non_solved_num/den, rec_rat_coef, get_result) for n > 1 over all prime fields | RatRun | as RatMulti and RatLater; the probes of a field are fed one after the other; a singular normalization stops the model |
| RatReconst.cpp (interpolate, set_singular_system_vars, build/solve_homogenized_multi_gauss, check_if_done, test_guess) for n > 1, further prime fields with a shift | RatShift | the subtraction terms of the previous prime field enter by their monomials only; the storage `dense_solve` starts empty; `needed_feed_vec`, files and mutexes are left out |
| RatReconst.cpp (feed, interpolate, combine_primes, rec_rat_coef, remove_ni/di) with `interpolations = 300` for n > 1 | RatSafe | the guess is computed at the start of a field; `num_eqn`, `non_solved_degs_*` left out; files and mutexes left out |
| RatReconst.cpp (feed, interpolate, combine_primes, check_for_solved_degs, set_singular_system_vars, need_shift, disable_shift) for n > 1 over several prime fields with a shift | RatShiftAll | `sub_num`, `sub_den` between two fields are their monomials; other functions are one Boolean for each field; a first field that is skipped is RatRun's; files and mutexes left out |
| DenseSolver.hpp | DenseSolver | |
| ShuntingYardParser.cpp/.hpp, ParserUtils.cpp (parsing, evaluation, precomputation) | Parser | |
| ShuntingYardParser.cpp/.hpp, the object: collections, equal functions, add_otf, add_otf_precompute, trim, file reading | ParserObj | hash maps are association lists; messages not modelled; `std::exit` and indices outside of vectors are `none`; the check points are arbitrary values |
| RatReconst.cpp 3446-3647 (needed_feed_vec), Reconstructor.hpp interpolate_job (requests) | NeededFeed | counts are natural numbers, a subtraction below zero is an error; a batch of probes is fed one by one; get_needed_feed_vec is atomic; MPI and the factor scan are left out |
| RatReconst.cpp 663-716, 3738-3766, PolyReconst.cpp 952-959, Reconstructor.hpp 2020-2270, 2893-2990, 3017-3119, 3205-3280 (first prime field) | FirstFeed | a batch of probes is fed one by one; the first bunch is fed to all objects before the first request; MPI, the factor scan and the scan of shifts are left out |
| Reconstructor.hpp 3479-3747 (attempt_to_continue, reset_new_prime) | Recover | the messages, the log and write_food_to_file are left out; MPI is left out; counters are natural numbers |
| Reconstructor.hpp 376-510, 885-1023, 2382-2483 (constructors, options, reconstruct, prime fields) | Driver | a prime field is one step; resumed runs, precomputed probes, files and MPI are left out |
| Reconstructor.hpp 2306-2850, 3017-3300 with RatReconst.cpp 131-543, 1395-1438, 3340-3587 (a whole run) | Whole | the pieces FirstFeed, NeededFeed, RatRun joined; the end of a field is the state in which all objects are done or want the next prime |
| Monomial.cpp, Polynomial.cpp 26-53, 133-178, RationalFunction.cpp 138-140 | RatPoly | all members but printing; the field is ZMod p |
| Reconstructor.hpp 2020-2850, 3017-3300 with RatReconst.cpp 131-543, 3340-3587, 3738-3766 for one variable | WholeUni | several functions, all fields, any schedule; no shift, safe mode, scans, MPI or saved states |
| Reconstructor.hpp 2306-2850, 3017-3300 with RatReconst.cpp 1664-1795, 2095-2099, 2425-2445, 3340-3425 | WholeShift | several functions with a shift, all fields, any schedule; no safe mode, scans, MPI or saved states |
| RatReconst.cpp 131-210, 298-346, 417-428, 472-499, 541-543, 1366-1684, 1711-1795, 3335-3383 | SafeUni | one variable, safe interpolation, all fields |
| RatReconst.cpp (feed, interpolate, check_if_done, combine_primes, rec_rat_coef, test_guess, linear systems) | RatReconst | n = 1; default mode |
| ThreadPool.hpp | ThreadPool | all interleavings |
| RatReconst.cpp (feed, interpolate as used by several threads) | RatQueue | processing of a probe abstracted to its effect |
| Reconstructor.hpp (run_until_done, get_probe, feed_job, interpolate_job, get_job, compute_probe, queue_probes, attempt_to_continue) | Scheduler | all interleavings; no MPI, no files, no factor scan |
| MPIWorker.hpp (communicate, get_job/compute of the pool), Reconstructor.hpp (send_first_jobs, mpi_communicate, queue_probes, get_job, compute_probe with MPI) | Mpi | all interleavings, FIFO channels per pair of processes; buffered sends or (`sync`) a wait for the last result; not modelled: time measurements, the broadcast of the factors (mpi_setup); the hand-over between main and communication thread is in Handshake |
| Reconstructor.hpp (reconstruct 905-917, 1022-1062, start_first_runs, queue_new_ones, run_until_done, queue_probes, mpi_communicate: everything that touches `cond_val`, with MPI) | Handshake | all interleavings of the statements; the work between them only as marks; plain `bool`s as sequentially consistent |
| Reconstructor.hpp (scan_for_shift 1197-1290), RatReconst.cpp (interpolate with `scan` or `skip_thiele`, is_shift_working, build_factor_uni_gauss, solve_factor_uni_gauss) | Scan | threads, output and files left out; each object gets its probes of a round in any order; random values of the shift as parameters |
| Reconstructor.hpp (scan_for_factors 1614-1635, 1748-1790, 1840-1876; queue_probes 2936-2950; compute_probe 3391-3399; get_result, get_early_results, get_factors_string 1097-1195) | Factors | sets are lists in any order; `compute_probe<N>` by lanes is the same; files and MPI left out |
| Reconstructor.hpp (scan_for_factors 1371-1740, combine_primes 1962-1986), RatReconst.cpp (factorization and get_canonical_factors 1767-1840, 1880-1948) | FactorScan | FLINT's factorization is a parameter with a contract (`IsFactorization`), its polynomials are `Polynomial (ZMod p)`; the factor strings are compared as pairs; threads, output and probes are left out (the univariate interpolation is C36); `prime_it_fac` beyond the table of primes is not modelled |
| Reconstructor.hpp (files of the factor scan 1786-1827, 1911-1921; resume_from_saved_state 563-623), ParserUtils.cpp (parse_factors_rf, parse_factors 79-210) | FactorFiles | compression, failures of the streams and messages left out; a hash table keeps the order of insertion; a directory is a list of names and contents in any order |
| gzstream.cpp | GzStream | zlib is a file that takes and returns characters (each `gzwrite` succeeds or fails as a whole); the calls of `sputc`, `sputn`, `sgetc`, `sbumpc`, `getline` by the standard library |
| Reconstructor.hpp (mpi_setup 3849-3906, scan_for_factors 1877-1928, get_factors_string), MPIWorker.hpp (run 126-183, communicate 302-352) | FactorMpi | a broadcast is a message in a list that every worker reads; different types or counts on the two sides and negative counts end the model |
| Reconstructor.hpp (load_precomputed_probes_from_file, write_requested_probes_to_file, queue_probes, get_probe, feed_job 3032-3049) | Precomputed | every critical section is one step; the messages, the missing file (exit), a line with fewer values than functions (undefined behaviour in `feed_job`) are not modelled |
| AmplitudeParser.cpp, AmplitudeParser.hpp | Amplitude | messages, log, missing files; hash maps are lists, the one loop over a hash map runs in any order; `master` below 2^64 - 2 |
| ff_insert.cpp (435-454, 503-535) | Insert | the other parts of `main` (command line, configuration files, directories, interpolation and its output) are not modelled |
| Poly.cpp, Poly.hpp | PolyClass | elements of a field instead of FFInt (C01); log2 and exp2 of doubles are exact; no aliasing of the operands |
| RatReconst.cpp (save_state, save_zero_state, set_tag_name, start_from_saved_file), ParserUtils.cpp (numbers, vectors, file names) | SaveState | contents of the files as text; compression not modelled |
| RatReconst.cpp (write_food_to_file, read_in_probes), ParserUtils.cpp (parse_vector_FFInt) | ProbeFile | contents of the files as text; compression not modelled; the sorting of `parsed_probes` by orders not modelled |
| the same functions and Reconstructor.hpp (resume_from_saved_state, run_until_done: file operations) | Crash | which files exist with which content; `rename` atomic, operations of a process persist in order |

### What is not modelled

Logger, zlib, the rest of ff_insert.cpp, the file
formats of the saved states apart from what section 2 lists, wall-clock and memory behaviour.

## 4. Defects found (each is a proved theorem or noted at the model)

* `FFInt(-k*p)` stores the non-canonical word `p` (`C05_violated`).
* `FFInt::operator++/--` do not modify the object; `FFInt(0).pow(FFInt(p-1)) = 1` (`C04_pow_ffint_zero`); negating the
  minimum of a signed type is undefined; `to_neg_int` truncates to 32 bits.
* String constructor: a replacement value equal to `p` is stored unreduced, blanks and signs are accepted,
  an empty string is undefined behaviour (`C06_violated`).
* A default constructed `RationalNumber` is 0/0.
* `compute_job_number` for an empty queue underflows; the bunch size is 0 for queues from 2^31 on with one thread.
* `PolynomialFF::operator*` drops colliding monomials (`C14_violated`); `add_shift` drops the constant
  monomial (`C16_violated`); `max_deg/min_deg` return stale values after `+=` (`C34_violated`); `homogenize`
  keeps a stale Horner form.
* `scalar - FFIntVec` and `scalar / FFIntVec` exchange their operands (`C32_violated`); `at(N-1)` throws.
* Parser: an integer literal of more than 17 digits that begins with 0 is handed to `mpz_class(string)`, which takes a
  leading 0 as the octal prefix (or throws on a digit 8 or 9): `C24_octal_violated`, `C25_octal_violated`;
  the public `evaluate` lacks negative exponents (`C24_public_violated`); negative exponents from 2^31 on are
  truncated; `x/(2/3)` is wrong after a change of the prime (`C25_compound_divisor_violated`); `evaluate_pre_2`
  overflows its array for single-token functions.
* Berlekamp/Massey is undefined for a leading zero value (`C21_first_zero_violated`).
* `RatReconst::interpolate` decrements the iterator `coef_n.begin()` when the first open degree is solved (RatReconst.cpp 632-635, 656-659): undefined by the standard; with the circular
  lists of the usual implementations the following `++it` leads back to the first element, which is what the model does.
* The zero polynomial with Ben-Or/Tiwari and without Newton interpolation is undefined behaviour (`C43_zero_bt_violated`).
* Without `set_seed`, `get_rand_64` never returns (`C31_unseeded_violated`).
* Thiele interpolation: an intermediate division by zero is silently 0 and breaks reproduction
  (`C19_zero_division_violated`).
* `solve_gauss_system` tests the last pivot only (`C22_violated`); `calc_lu_decomposition` constructs an
  exception without throwing it.
* `ThreadPool`: two clients in `wait`/`kill_all` share `notify_one` and one can sleep forever
  (`C30_two_clients_violated`); `wait()` returns `false` with queued tasks (`C30_wait_queue_violated`).
* RatReconst: a result is accepted on a single probe of the next prime field; with 101 and 103 as primes
  `20 + 33 x` is reported as `-1/5 - 2/3 x` (`C36_wrong_violated`). A coefficient with equal residues in
  two successive fields is taken to be known; if the test in the next field fails and no other coefficient is open, the
  object asks for probes for ever (`C36_stuck_violated`). A constant `1 + p1*p2` style coefficient triggers it for all
  primes.
* `RatReconst::feed` with an empty bunch reads `num[0]`, and the object is blocked afterwards (`C37_empty_bunch_violated`).
* A function whose name equals a word of the file format (`shift`, `is_done`, ...) loses its name when a run is resumed
  (`C39_tag_violated`); an initial state file cut off behind `individual_degrees_num` is not rejected, elements
  beyond the end of a vector are read (`C39_initial_truncated_violated`).
* Probe files: a line that is cut by a crash makes `read_in_probes` read beyond the end of a vector
  (`C40_truncated_violated`); probes appended after a cut line are fused with it into a wrong probe (`C40_append_violated`).
* Crashes: between the state file and the file of the probes (`C42_probes_violated`: after a second crash, probes of the previous prime field
  are taken for probes of the current one), while the file of the probes is replaced or at the end of a run
  (`C42_no_probe_file_violated`: the run cannot be resumed any more), while a zero function is recorded
  (`C42_zero_write_violated`). Without any crash, `reconstruct(k)` moves the state files to the number of a field that was not used; a function with one
  zero probe in field 0 is reported as zero after three such runs (`C42_zero_violated`).
* A function of several variables whose first probe in the first prime field is zero (the prime divides the numerator, or by chance): in the second field the object uses Thiele's method, but takes the branch
  with the Vandermonde systems, for which nothing has been prepared (RatReconst.cpp 534, 876-914): undefined behaviour (`C46_zero_first_violated`).
* PolyReconst: the queue is not emptied at the end of a prime field (PolyReconst.cpp 82-99). A second value for the orders (1, ..., 1), already in the queue, is used for the test of the guess of the same field and always passes: a wrong polynomial is reported after one field (`C47_stale_violated`).
* MPI: `MPIWorker` accepts every bunch size but has jobs for 1, 2, 4, ..., 128 only; with another one probes get lost and all processes wait for ever (`C48_bunch_violated`). A master that is started with one thread has `thr_n = 0` and divides by
  zero at the first reply if the bunch size is above one (`C48_one_thread_violated`). `get_job` tests the queue and resets `new_jobs` without the mutex: probes can wait while all workers are idle until the next call of `queue_probes` (`C48_idle_violated`).
  `send_first_jobs` leaves an index without a point in the packet when the generator repeats a number: all following probes of the packet are evaluated at wrong points (`C48_first_violated`).
* MPI hand-over (Reconstructor.hpp): a run resumed at a change of the prime field sets `continue_communication` and notifies without the mutex (2633-2635), the notification can be lost (`C49_restart_violated`); a run resumed when everything is
  done can hang because `proceed` is set twice before it is read (913, 4047; `C49_all_done_violated`); when the largest number of primes is reached, `done` is set in the middle of a change of the field (2427): the communication thread drops
  the results of the new field, for one of which the main thread waits (`C49_limit_violated`, in every schedule: `C49_limit_never`); with `stop_after_factor_scan` `reconstruct` never returns (959; `C49_leave_violated`, `C49_leave_never`);
  `new_jobs` is set and notified without the mutex, which is only harmless without spurious wake-ups (`C49_spurious_violated`).
* `get_result` (Reconstructor.hpp 1124-1143) looks up the factors with a counter of the functions that are done, not with their number: after `get_early_results`, or when an earlier function is not done, a function gets the factors of another one (`C51_get_result_violated`).
* `combine_primes` of the factor scan (Reconstructor.hpp 1962-1986) visits only the coefficients that occur in the new prime field: if a prime divides a coefficient of the factor, its residue is not updated although the modulus grows, and the factor is never accepted; `primes()[prime_it_fac]`
  (1726) is read without a check (`C52_lost_residue_violated`). `combined_prime` is overwritten in the loop over the functions (1606, 1611), the functions after the first combined one are guessed with a modulus their residues do not belong to (`C52_modulus_violated`).
* gzstream.cpp: `close` (89-100) drops the result of `sync`: if the last block cannot be written, neither the stream nor the caller is told (`C54_close_violated`). `overflow` (143) refuses a stream opened with `app`, although `open` was changed to allow it: a text longer than the buffer is cut
  (`C54_append_violated`; FireFly does not use this mode). The put-back area is copied with `memcpy` (113): the regions overlap if the last block of a file longer than the buffer has one, two or three characters (`C54_read_violated`).
* The broadcast of the factors (Reconstructor.hpp 1878-1906, 3865-3894) converts the size of the text to `int` before it divides it into batches: the branch `split > 1` is dead code, and a text with 2^31 to 2^32 - 1 characters is not sent (`C55_size_violated`).
* Precomputed probes (Reconstructor.hpp 3750-3846): with one variable the program writes `| t | x`, which it cannot read, and no line is readable at all (`C56_univariate_violated`); during the factor scan every answer ends the program (`C56_scan_violated`); a request stays in the file of requests although its answer was read (`C56_repeat_violated`).
* AmplitudeParser.cpp: if the name of a function is a part of another one, the sign of a term is lost, depending on the order of the names (147-158: the last name that is found counts; `C57_families_violated`). `F[1]/2` and `2F[1]` are read as `F[1]` (`C57_operator_violated`). `parse_amplitude_string` (67-69) resets the counters but not the maps: a second expression gives wrong coefficients (`C57_twice_violated`).
* ff_insert.cpp (508-530): merging files whose first term has no sign joins two terms to one (`C58_sign_violated`); a blank file is read at position `npos` (`C58_blank_violated`).
* Poly.cpp (166-219): zero divided by a constant, and `gcd` of zero and a constant, read the last element of an empty vector (`C59_zero_violated`); the default constructor makes an object that is printed as 0 and for which every operation throws (`C59_default_violated`); `roots` (243-308) of a polynomial that is no product of linear factors never returns (`C60_never_returns`).
* RatReconst.cpp 1466-1516 with safe interpolation: all residues are turned into a guess with the modulus of the coefficient that comes last in a hash map, or with 0 if no residue was combined; a guess is then useless and prime fields are wasted, results are not wrong (C62: `Steady` in `Determined`, `Tested`). With one variable (473-476) the normalization is chosen anew in every field: if the lowest coefficient of the denominator vanishes modulo a prime, residues of differently normalized functions are combined.
* RatReconst.cpp 145-179: a prime field that is skipped because its first probe is zero does not put the number of the next field into `singular_system_set` (as 1431-1436 and 1673-1692 do), although `is_singular_system` stays set. The caller disables the shift, and the object solves the systems for a shifted function with probes of the unshifted one: the error of a singular system (`C63_skip_violated`, `C63_skip_fails`).
* ShuntingYardParser.cpp 347-377 (`add_otf`): without `keep_rpn` the constructor has dropped the RPN of the listed functions; a function added later gets position 0, and after `precompute_tokens(true)` it is the only one left (`C64_add_otf_violated`).
* ShuntingYardParser.cpp `add_otf` with the check for equal functions: the check points were cleared by the `precompute_tokens` of the constructor, so the evaluation reads outside of the vectors for every function with a variable (`C64_add_otf_equal_violated`). For constants it returns positions that count different functions only, and sets `FFInt::p` back to the prime of the construction (`C64_add_otf_position_violated`).
* ShuntingYardParser.cpp `add_otf_precompute` in a new prime field before `precompute_tokens`: the object takes the new prime as its own, and the tokens of the other functions are never refreshed (`C64_add_otf_precompute_violated`).
* ShuntingYardParser.cpp `trim`: `partial_rpn` is not trimmed; after the next change of the prime field the kept functions have values of dropped ones (`C64_trim_refresh_violated`). Without `keep_rpn`, trim, evaluate and get_size lose every function or read outside of vectors (`C64_trim_violated`, `C64_evaluate_violated`).
* ShuntingYardParser.cpp 130-145, 156-170: functions that agree at two random points are taken as equal without a further check (`C64_equal_violated`; probability bounded by `C64_false_equal`).
* RatReconst.cpp 3642-3647 (`get_needed_feed_vec`): `needed_feed_vec` is moved and cleared without a lock, while another interpolate job of the same object may read or write it. The model assumes that this does not happen.
* RatReconst.cpp 3748, 3750, 3761 (`get_zi_orders`): `num_eqn - sub_term` is unsigned; it wraps if more probes are stored than the system has equations. `interpolate_job` is safe as long as the order vector has been started (`min` with `tmp_system_size - started`), otherwise about 2^32 probes would be queued.
* Reconstructor.hpp 2236-2262 (`start_first_runs`): a black box without functions is only noticed inside `if (verbosity > SILENT && first_print)`; otherwise `probes.front()` of an empty vector is read.
* The wrap of `num_eqn - sub_term` (see above) is harmless in the first prime field: `C66_request` and the invariant behind `C66_all` show that an entry that wraps belongs to an order vector whose probes have been started.
* Reconstructor.hpp 3489-3660 (`attempt_to_continue`): a function whose result was fetched with `get_early_results` (status DELETE) is not counted as done, although `items_done` counted it before; so the call does not declare the run complete or promote it, and throws "Cannot continue" (`C67_early_results_violated`).
* Reconstructor.hpp 3527 (`attempt_to_continue` in a further prime field): the list of `get_needed_feed_vec` has been moved out by the job that used it first; if its probes are lost, the recovery queues nothing and throws (`C67_taken_violated`).
* Reconstructor.hpp 2425-2483 (`run_until_done`): when the limit of prime fields is reached, `done` is set, but the body of the loop goes on: the next prime is set, probes are queued, and the black box is evaluated in one field more than `reconstruct(prime_counter)` allows; `reconstruction_done()` then is true although functions are unfinished (`C68_at_most_violated`).
* Reconstructor.hpp 2466, 2483: with the default limit 300 this reads `primes()[300]`, behind the end of the table (`C68_default_violated`). The loop over prime fields of the factor scan (1724) has no limit at all.
* `Polynomial::zero`, `RationalFunction::zero` (Polynomial.cpp 173-178): a polynomial with two or more stored monomials whose coefficients are all zero, e.g. after `*= 0`, is not recognised as zero (`C70_zero_missed`).
* `Polynomial::convert_to_PolynomialFF` (Polynomial.cpp 135) reads `coefs[0]` of an empty polynomial, i.e. of the zero polynomial (`C70_convert_empty`).
- One variable with safe interpolation (RatReconst.cpp 472-486, 541-543): the interpolation of a field is normalized to the lowest degree its denominator has in this field, and the degree is not compared with the stored normalizer (in several variables `div_by_zero` is tested). If the lowest coefficient of the denominator vanishes in one field, monomials that do not belong to the function are stored and never removed (`C73_vanishing_violated`).
