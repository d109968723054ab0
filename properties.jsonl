{"id": "C01", "title": "Finite-field arithmetic is exact", "statement": "For every prime p<2^63 installed with FFInt::set_new_prime and every two canonical field elements (stored value <p), a+b, a-b, a*b, a/b and -a are again canonical and represent exactly the sum, difference, product, quotient and negative in Z/p; dividing by zero yields 0. The compound operators agree with the binary ones.", "quantifier": "all primes p<2^63, all pairs of canonical elements", "why_tests_cant": "there are ~2^189 (p,a,b) triples and the wrap-around/rounding corner cases are a vanishing fraction of them", "anchors": ["source/FFInt.cpp: operator+,-,*,/ (DEFAULT)", "source/include/firefly/FFInt.hpp"]}
{"id": "C02", "title": "Modular multiplication survives floating point", "statement": "mod_mul(a,b,m), which obtains the quotient by long double arithmetic, returns exactly a*b mod m for every modulus 0<m<2^63 and all 64-bit a, b, when long double carries a 64-bit significand and rounds to nearest (any tie rule).", "quantifier": "all m<2^63, all uint64 a,b, all round-to-nearest tie rules", "why_tests_cant": "the quotient estimate can be off by one in either direction on rare operands only; the 2^190 inputs cannot be enumerated", "anchors": ["source/FFInt.cpp: mod_mul"]}
{"id": "C03", "title": "Modular inverse is correct and never overflows", "statement": "mod_inv(a,m) terminates for every 0<=a<m<2^63 and, if gcd(a,m)=1 and m>1, returns the unique r<m with a*r = 1 mod m; the signed 64-bit cofactors never leave the int64 range although the code mixes signed and unsigned wrap-around arithmetic.", "quantifier": "all m<2^63, all a<m", "why_tests_cant": "overflow would only show for particular Euclid quotient sequences", "anchors": ["source/FFInt.cpp: mod_inv"]}
{"id": "C04", "title": "Exponentiation equals repeated multiplication", "statement": "pow with a non-negative machine integer e returns a^e in Z/p (in particular x.pow(0)=1, also for x=0), with a negative integer (other than the minimum of its type, whose negation is undefined behaviour in C++) it returns the inverse power for a nonzero base, and with a field element as exponent it returns a^(stored value) for every nonzero base, whichever of the positive/negative exponent branches is taken.", "quantifier": "all primes p<2^63, all bases, all exponents", "why_tests_cant": "branches depend on the 63-bit exponent; square-and-multiply must be right for every bit pattern", "anchors": ["source/FFInt.cpp: FFInt::pow, mod_pow", "source/include/firefly/FFInt.hpp: FFInt::pow<T>"]}
{"id": "C05", "title": "Constructing a field element reduces canonically", "statement": "Constructing an FFInt from any integer (machine type or mpz_class) yields the canonical residue of that integer modulo p.", "quantifier": "all primes p<2^63, all integers of every supported type", "why_tests_cant": "negative multiples of p and type minima are measure-zero inputs that tests do not hit", "anchors": ["source/include/firefly/FFInt.hpp: FFInt(const T)", "source/FFInt.cpp: FFInt(mpz_class)"]}
{"id": "C06", "title": "Decimal strings of any length are read correctly", "statement": "Constructing an FFInt from a string of decimal digits of any length yields the value of the number modulo p; strings that are empty, negative or contain other characters are rejected; a declared replacement name yields the replacement value mod p.", "quantifier": "all digit strings (unbounded length), all primes p<2^63", "why_tests_cant": "lengths are unbounded and chunk boundaries (multiples of 18 digits, the 2^64 limit) interact", "anchors": ["source/FFInt.cpp: FFInt(const std::string&, ...), parse_longint"]}
{"id": "C07", "title": "The built-in prime table is what it claims to be", "statement": "The 300 entries of primes() are exactly the 300 largest primes below 2^63, strictly decreasing and hence pairwise distinct, so every field used is a field, moduli are coprime for Chinese remaindering and all moduli satisfy the 63-bit precondition of the arithmetic; primes_128() holds exactly the 10 largest primes below 2^128.", "quantifier": "all table entries and all integers between the smallest entry and 2^63 (resp. 2^128)", "why_tests_cant": "primality of 63-bit/128-bit numbers needs a proof, not a sample", "anchors": ["source/ReconstHelper.cpp: primes, primes_128"]}
{"id": "C08", "title": "Chinese remaindering", "statement": "For coprime positive moduli n1,n2 and residues a1,a2>=0, run_chinese_remainder returns (a, n1*n2) with 0<=a<n1*n2, a=a1 mod n1, a=a2 mod n2, and a is the only such integer.", "quantifier": "all coprime moduli and residues (arbitrary precision)", "why_tests_cant": "arbitrary-precision inputs; sign of the truncating % matters only for some inputs", "anchors": ["source/utils.cpp: run_chinese_remainder"]}
{"id": "C09", "title": "Rational reconstruction is sound", "statement": "Whenever get_rational_coef(a,p) reports success, the returned n/d satisfies d>0, gcd(n,d)=1, n = a*d mod p, 2n^2<=p and 2d^2<=p; whenever it reports failure the returned number is 1/1. It terminates for every 0<=a<p.", "quantifier": "all p>0, all 0<=a<p", "why_tests_cant": "arbitrary-precision inputs; correctness depends on the whole Euclid run", "anchors": ["source/utils.cpp: get_rational_coef"]}
{"id": "C10", "title": "Rational reconstruction is complete", "statement": "If any fraction n/d in lowest terms with 2n^2<p, 2d^2<p and n = a*d mod p exists, get_rational_coef(a,p) succeeds and returns exactly this fraction (so it is unique).", "quantifier": "all p>0, all 0<=a<p, all fractions in the bound", "why_tests_cant": "statement over all fractions and all moduli", "anchors": ["source/utils.cpp: get_rational_coef"]}
{"id": "C11", "title": "MQRR reconstruction is sound", "statement": "Whenever get_rational_coef_mqrr(u,p) reports success on u!=0 the returned n/d satisfies d>0, gcd(n,d)=1, n = u*d mod p and |n|*d*T<=p for the size bound T=1024*bitlength(p) (so a false positive must be this small); u=0 succeeds exactly if p>T. It terminates for all 0<=u<p.", "quantifier": "all p>0, all 0<=u<p", "why_tests_cant": "arbitrary-precision inputs; the accepted candidate depends on all quotients", "anchors": ["source/utils.cpp: get_rational_coef_mqrr"]}
{"id": "C12", "title": "RationalNumber is exact rational arithmetic in lowest terms", "statement": "Every RationalNumber built by the two-argument constructor with nonzero denominator, and every result of *, *=, +=, -= and unary - on such numbers, has positive denominator, coprime parts and the exact rational value; == holds exactly for equal rationals.", "quantifier": "all integer numerators/denominators, all operation sequences", "why_tests_cant": "arbitrary precision; invariants must survive every history of operations", "anchors": ["source/RationalNumber.cpp"]}
{"id": "C13", "title": "Sparse polynomial addition, subtraction and scaling", "statement": "For PolynomialFF operands +, -, +=, -=, scaling and division by a scalar produce a polynomial whose value at every point and whose coefficient at every monomial is the sum/difference/multiple of the operands', independently of the hash-map iteration order; + and - never leave a cancelled (zero) monomial behind at a key common to both.", "quantifier": "all sparse polynomials, all points, all iteration orders", "why_tests_cant": "unbounded supports; hash iteration order is unspecified", "anchors": ["source/PolynomialFF.cpp: operator+,-,+=,-=,*,/"]}
{"id": "C14", "title": "Sparse polynomial multiplication", "statement": "PolynomialFF a*b represents the product polynomial.", "quantifier": "all pairs of sparse polynomials", "why_tests_cant": "collisions between monomials of the product depend on the supports", "anchors": ["source/PolynomialFF.cpp: operator*(PolynomialFF,PolynomialFF)"]}
{"id": "C15", "title": "Polynomial evaluation", "statement": "PolynomialFF::calc(x) returns the value of the represented polynomial at x; it does not depend on the order in which the hash map is iterated, and calc_n_m_1 returns the value with the first variable set to one.", "quantifier": "all polynomials, points, iteration orders", "why_tests_cant": "unbounded supports; hash iteration order is unspecified", "anchors": ["source/PolynomialFF.cpp: calc, calc_n_m_1"]}
{"id": "C16", "title": "Variable shift", "statement": "PolynomialFF::add_shift(s) represents f(x+s).", "quantifier": "all polynomials and shift vectors", "why_tests_cant": "binomial expansion over arbitrary degrees and number of variables", "anchors": ["source/PolynomialFF.cpp: add_shift, mul_shift, bin_coef"]}
{"id": "C17", "title": "Homogenisation and multiplication by a variable", "statement": "homogenize(d) of a polynomial of total degree <= d is homogeneous of degree d and gives back the original on setting the new first variable to 1; mul(z) multiplies the polynomial by variable z.", "quantifier": "all polynomials, degrees, points", "why_tests_cant": "unbounded supports", "anchors": ["source/PolynomialFF.cpp: homogenize, mul"]}
{"id": "C18", "title": "Newton interpolation recovers the polynomial", "statement": "Feeding the values of any univariate polynomial of degree d at pairwise distinct points produces Newton coefficients that vanish from index d+1 on, and the canonical form built from the first d+1 coefficients has exactly the coefficients of the polynomial.", "quantifier": "all fields, polynomials, degrees, distinct point sequences", "why_tests_cant": "unbounded degree, exact algebraic identity", "anchors": ["source/PolyReconst.cpp: comp_ai, construct_canonical, iterate_canonical"]}
{"id": "C19", "title": "Thiele interpolation reproduces its data", "statement": "If ThieleInterpolator terminates (add_point returned true) and no division by zero occurred while adding points, the returned numerator N and denominator D satisfy N(t_i) = f_i D(t_i) at every fed point including the terminating one, and for points with D(t_i)!=0 the quotient is the fed value.", "quantifier": "all fields, all data sequences", "why_tests_cant": "unbounded number of points", "anchors": ["source/FFThieleInterpolator.cpp"]}
{"id": "C20", "title": "Vandermonde solvers", "statement": "solve_transposed_vandermonde and solve_vandermonde_system return the unique c with sum_i c_i v_i^(k+1) = f_k for k=0..n-1 whenever the v_i are pairwise distinct and nonzero.", "quantifier": "all fields, sizes n, distinct nonzero nodes, right-hand sides", "why_tests_cant": "unbounded system size", "anchors": ["source/PolyReconst.cpp: solve_transposed_vandermonde", "source/utils.cpp: solve_vandermonde_system"]}
{"id": "C21", "title": "Berlekamp/Massey state is a generator of the data", "statement": "After any number of berlekamp_massey_step calls the connection polynomial annihilates the whole sequence fed so far (from position l on) and its degree is at most l; the polynomial has constant term 1.", "quantifier": "all fields, all sequences, all lengths", "why_tests_cant": "unbounded sequences; invariant over histories", "anchors": ["source/PolyReconst.cpp: berlekamp_massey_step"]}
{"id": "C22", "title": "Dense Gauss solver", "statement": "If the n x n coefficient matrix is invertible, solve_gauss_system returns x with A x = b; if the matrix is singular and force is not set the program stops with the singular-system error rather than returning a vector that does not solve the system.", "quantifier": "all sizes, matrices, right-hand sides over any prime field", "why_tests_cant": "unbounded size; pivoting path depends on data", "anchors": ["source/include/firefly/DenseSolver.hpp: solve_gauss_system"]}
{"id": "C23", "title": "Matrix inverse, LU factorisation and determinant", "statement": "For an invertible A, calc_inverse returns A^-1; after calc_lu_decomposition succeeded, solve_lu solves A x=b, calc_inverse_lu returns A^-1 and calc_determinant_lu returns det A with the right sign.", "quantifier": "all sizes and matrices over any prime field", "why_tests_cant": "unbounded size; sign depends on the pivot history", "anchors": ["source/include/firefly/DenseSolver.hpp"]}
{"id": "C24", "title": "Expression parser respects the usual semantics", "statement": "For every arithmetic expression in the documented input format (numbers, variables, + - * / ^, parentheses, unary sign), parsing into reverse Polish notation and evaluating gives the value of the expression in the field under the usual precedence (power before product before sum, left to right).", "quantifier": "all expressions of unbounded size, all parameter points", "why_tests_cant": "unbounded nesting; precedence interactions", "anchors": ["source/ShuntingYardParser.cpp: validate, parse, evaluate"]}
{"id": "C25", "title": "Precomputed evaluation equals direct evaluation", "statement": "evaluate_pre returns the same values as evaluate for every parsed function and every point, also after the prime has been changed and precompute_tokens has been called again.", "quantifier": "all expressions, points and prime changes", "why_tests_cant": "unbounded expressions and prime histories", "anchors": ["source/ShuntingYardParser.cpp: precompute, precompute_tokens", "source/include/firefly/ShuntingYardParser.hpp: evaluate, evaluate_pre"]}
{"id": "C26", "title": "Horner forms denote the polynomial", "statement": "The Horner-form strings generated from sparse polynomials (finite-field, rational and PolynomialFF-internal generators) denote the same polynomial function as the monomial form.", "quantifier": "all sparse polynomials in any number of variables", "why_tests_cant": "unbounded supports and variables", "anchors": ["source/HornerGenerator.cpp", "source/PolynomialFF.cpp: generate_horner_coefs"]}
{"id": "C27", "title": "Degree comparisons are strict total orders", "statement": "a_grt_b and a_grt_b_s compare exponent vectors of equal length by a strict total order (irreflexive, transitive, connected), a_eq_b is equality, and a_grt_b is the colexicographic order, so std::sort on them is well defined and the order of results is deterministic.", "quantifier": "all exponent vectors of equal length", "why_tests_cant": "order axioms quantify over triples of arbitrary vectors", "anchors": ["source/utils.cpp: a_grt_b, a_grt_b_s, a_eq_b", "source/Monomial.cpp"]}
{"id": "C28", "title": "Bunch sizes and job counts", "statement": "For 1<=queue length<2^31 and at least one thread, compute_bunch_size returns a value between 1 and min(max_bunch_size, queue length) that is max_bunch_size or a power of two; compute_job_number returns at most the queue length, at least 1 for at least one thread, and never underflows.", "quantifier": "all queue lengths, thread counts, bunch sizes", "why_tests_cant": "all 2^96 parameter triples", "anchors": ["source/utils.cpp: compute_bunch_size, compute_job_number"]}
{"id": "C29", "title": "Shift enumeration", "statement": "generate_possible_shifts(r) lists every 0/1 vector of length r except the all-ones vector exactly once, ordered by number of ones; iterating generate_next_permutation from the zero-one start visits each 0/1 vector with at least as many ones exactly once.", "quantifier": "all r", "why_tests_cant": "exponential set for every r", "anchors": ["source/utils.cpp: generate_possible_shifts, generate_next_permutation"]}
{"id": "C30", "title": "Thread pool runs every task exactly once", "statement": "Under every interleaving, each task submitted to ThreadPool is started at most once, in FIFO order apart from priority tasks; when the destructor returns every task submitted before has been executed exactly once; after kill_all returns no task submitted before it is queued or running.", "quantifier": "all interleavings of submitters, workers, kill_all and destructor; any number of threads and tasks", "why_tests_cant": "interleavings cannot be enumerated by tests", "anchors": ["source/include/firefly/ThreadPool.hpp"]}
{"id": "C31", "title": "Random numbers never get stuck", "statement": "For every seed, after set_seed the 256-bit generator state is nonzero and remains nonzero for ever; get_rand_64/get_rand_32 return nonzero canonical field elements; the sequence is a function of the seed only.", "quantifier": "all 2^64 seeds, all numbers of draws", "why_tests_cant": "all seeds and unbounded draws", "anchors": ["source/BaseReconst.cpp: set_seed, xoshiro256ss, splitmix64, pcg32, get_rand_64"]}
{"id": "C32", "title": "Vectorised field elements act entrywise", "statement": "Every FFIntVec operation (also mixed with a scalar FFInt on either side) yields in entry i what the FFInt operation yields on the i-th entries.", "quantifier": "all vector lengths and entries", "why_tests_cant": "all lengths and values, operand order matters", "anchors": ["source/FFIntVec.cpp", "source/include/firefly/FFIntVec.hpp"]}
{"id": "C33", "title": "Printed results denote the result", "statement": "to_string of Polynomial/PolynomialFF/RationalFunction(FF) prints an expression that denotes the represented function: reading the text back with the usual arithmetic rules gives the same value at every point.", "quantifier": "all polynomials, variable names, points", "why_tests_cant": "unbounded supports", "anchors": ["source/Polynomial.cpp: to_string", "source/PolynomialFF.cpp: to_string", "source/RationalFunction.cpp: to_string"]}
{"id": "C34", "title": "Leading and trailing degree", "statement": "max_deg()/min_deg() return the exponent vector of a stored monomial whose total degree is maximal/minimal among all monomials of the polynomial, also after the polynomial has been modified.", "quantifier": "all nonempty sparse polynomials in at least one variable, all hash-map iteration orders, all histories of calls", "why_tests_cant": "ties and iteration orders vary with the hash function; staleness depends on the order of calls", "anchors": ["source/PolynomialFF.cpp: max_deg, min_deg"]}
{"id": "C35", "title": "Ben-Or/Tiwari stage recovers a sparse polynomial", "statement": "If a univariate polynomial p with t nonzero coefficients is probed at y, y^2, ..., y^n with n >= 2t, p(y) != 0, and the powers of y up to the degree of p differ from 1, then ending the Ben-Or/Tiwari stage yields exactly the exponents of p, each with its coefficient; and the stage reports its end at the latest after 2t + max(1, threshold) values.", "quantifier": "all fields, sparse polynomials, bases y, thresholds, degree bounds >= the degree, numbers of probes", "why_tests_cant": "unbounded supports, degrees and fields; the interplay of the linear recurrence, the root search and the Vandermonde solver must be exact for every support", "anchors": ["source/PolyReconst.cpp: interpolate, berlekamp_massey_step, rootsexponents, solve_transposed_vandermonde"]}
{"id": "C36", "title": "Rational functions are reconstructed over the rational numbers", "statement": "Feed a new reconstruction object of one variable with exact values of n/d over successive prime fields until it stops asking: it never ends in an error, and when it reports a result, the result is n/d, provided the primes divide no coefficient, the probes determine the coefficients, the interpolation of the first field did not stop early and no coefficient can be mistaken for a smaller fraction; it reports at the latest at the first probe of a field for which all numerators and denominators are below the square root of half of the product of the previous primes. A function that vanishes at the first probe of three fields is reported as zero; a field whose first probe is zero is skipped without losing information.", "quantifier": "all pairs of coprime polynomials over Q, all sequences of primes and probes, all iteration orders of the hash maps", "why_tests_cant": "the number of prime fields, degrees and coefficient sizes are unbounded and the correctness argument ranges over all residues; a test sees single functions and primes", "anchors": ["source/RatReconst.cpp: feed, interpolate, check_if_done, test_guess, combine_primes, rec_rat_coef, solve_homogenized_multi_gauss, build_homogenized_multi_gauss", "source/utils.cpp: run_chinese_remainder, get_rational_coef, get_rational_coef_mqrr"]}
{"id": "C37", "title": "Threads share one reconstruction object", "statement": "Any number of threads may feed one reconstruction object and call interpolate() on it: at no time do two threads process probes of the object, the probes of each prime field are processed in the order in which they were accepted and none twice, probes of another field or for a finished object change nothing, and when all calls that feed asked for have returned, every accepted probe of the current field has been processed (unless the object is done). Without further feeding all calls return.", "quantifier": "all interleavings of any number of threads, all sequences of probes, all outcomes of processing a probe", "why_tests_cant": "the property ranges over all interleavings of critical sections and all lengths of executions", "anchors": ["source/RatReconst.cpp: feed, interpolate, combine_primes"]}
{"id": "C38", "title": "Parallel reconstruction of several functions is scheduled correctly", "statement": "While the main thread and any number of worker threads reconstruct several functions: every value a function accepts for a point in a prime field is the value of the black box for that function, point and field; no requested probe is lost or delivered twice; the prime field changes only when no job is queued or running and every function is finished or has asked for the next field; the run ends only when all functions are finished or the last field has been reached; some thread can always make a step until then (unless the attempt to continue requests nothing), and between two requests of probes only finitely many steps are possible.", "quantifier": "all numbers of functions and worker threads, all interleavings, all bunch sizes, all black boxes, all outcomes of processing a probe", "why_tests_cant": "quantifies over all interleavings of all threads and all executions of unbounded length", "anchors": ["source/include/firefly/Reconstructor.hpp: run_until_done, get_probe, feed_job, interpolate_job, get_job, compute_probe, queue_probes, attempt_to_continue, reset_new_prime"]}
{"id": "C39", "title": "A saved reconstruction is restored completely, and interrupted runs give the same result", "statement": "Loading the file that save_state wrote for an object in prime field k into a new object restores all coefficients, residues, moduli, degrees, bounds, normalization, the name and whether it is finished; the next prime field is k+1 and its first probe is used as a test; the list of unsolved degrees consists of the unknown monomials. The initial file and the file of a function that has been zero so far are restored in the same way. A state file that lacks an entry is rejected. For functions of one variable, a run that is ended and resumed arbitrarily often reports a right result under the conditions under which the uninterrupted run does.", "quantifier": "all objects (numbers of variables, maps, degrees below 2^31, names that are not words of the format), all prime numbers, all random numbers; all file contents for the rejection; all sequences of interruptions of all runs", "why_tests_cant": "quantifies over all states, all file contents and all crash histories", "anchors": ["source/RatReconst.cpp: save_state, save_zero_state, save_zero_consecutive_prime, set_tag_name, start_from_saved_file", "source/ParserUtils.cpp: parse_vector_32, parse_rational_number, parse_prime_number"]}
{"id": "C40", "title": "Stored probes are read back unchanged", "statement": "The probes that were written to the probe file of an object in prime field k, in any number of batches, are read back completely, in order and with the same orders, shifts and values by an unfinished object working in prime field k; a finished object or one that works in another prime field takes no probe from the file. If only a part of the text has reached the disk, exactly the complete lines are read, provided the cut is at a line end; otherwise reading is undefined, but no wrong value is returned silently unless more text was appended.", "quantifier": "all lists of batches of probes, all numbers of variables, all primes below 2^64, all prime numbers below 2^31, all cut positions", "why_tests_cant": "quantifies over all probes, batch sizes and cut positions", "anchors": ["source/RatReconst.cpp: write_food_to_file, read_in_probes", "source/ParserUtils.cpp: parse_vector_32, parse_vector_FFInt, parse_prime_number"]}
{"id": "C41", "title": "Saved states survive crashes", "statement": "Whatever the history of crashes (at any moment, also while files are written or renamed) and resumptions: for each function there is exactly one state file; it is the last one that was saved, or the one before while a new one is being put in its place, and only while a first zero probe is recorded in the first prime field it can be unusable. It stands for the combination of pairwise different prime fields in increasing order, none larger than its number; no prime field is ever combined twice; after a resumption each function has the prime fields it had when the process ended, or all but the last one.", "quantifier": "all numbers of functions, all interleavings of their file operations with those of the main loop, all crash points, all histories of crashes and resumptions", "why_tests_cant": "quantifies over all crash points and histories", "anchors": ["source/RatReconst.cpp: save_state, save_zero_state, save_zero_consecutive_prime, feed, combine_primes, check_if_done", "source/include/firefly/Reconstructor.hpp: resume_from_saved_state, run_until_done"]}
{"id": "C42", "title": "After a crash the run can be resumed with the right probes", "statement": "After a crash the run can be resumed: a file of probes and a usable state file is found for each function, and the stored probes that are used belong to the prime field in which the function is continued; finished functions stay finished, a function is taken to be zero only if it was zero in three prime fields.", "quantifier": "all numbers of functions, all crash points, all histories of crashes and resumptions", "why_tests_cant": "quantifies over all crash points and histories", "anchors": ["source/RatReconst.cpp: save_state, save_zero_state, save_zero_consecutive_prime, write_food_to_file, read_in_probes, feed, combine_primes", "source/include/firefly/Reconstructor.hpp: resume_from_saved_state, run_until_done"]}
{"id": "C43", "title": "Multivariate polynomials are interpolated exactly from values at powers of an anchor point", "statement": "A polynomial object over one prime field that gets the value of a polynomial f at the orders it asks for ends after at most n*(2*(D+1)+threshold+1)*T probes (n variables, T terms, total degree D) and its result is f: the same monomials with the same coefficients. Values for other orders, repeated values or another order of arrival never lead to another result or to undefined behaviour; with a degree bound the result is homogenized so that setting the new variable to one gives f.", "quantifier": "all numbers of variables, all polynomials, all orders of arrival of probes, Newton or Ben-Or/Tiwari or both, all degree bounds that hold, all anchor points that are generic for f", "why_tests_cant": "the interpolation recurses variable by variable with bookkeeping that depends on the polynomial, the field and the order of arrival", "anchors": ["source/PolyReconst.cpp: interpolate, check_for_tmp_solved_degs_for_newton, check_for_tmp_solved_degs_for_bt, construct_tmp_canonical, build_and_solve_transposed_vandermonde, get_result_ff"]}
{"id": "C44", "title": "Multivariate rational functions are interpolated exactly in a prime field", "statement": "A rational-function object for n > 1 variables in its first prime field gets right values of N/D at probes (t, order vector), in any order, each at most once: no undefined behaviour and no singular linear system occurs; any result has the numerator and denominator of N/D up to one common non-zero factor, without vanishing terms and with the coefficient chosen for normalization equal to one; the monomial of this coefficient is the only one of its degree, or the result is marked as singular and every monomial of N and D shares its degree with another one. Before it has a result it gets fewer than an explicit number of probes that it has asked for; if every probe is one it asks for, it has its result after that number of probes.", "quantifier": "all numbers of variables, all N and D, all shifts and anchor points and values of t that are generic for N/D, all orders of arrival of the probes, all degree bounds that hold, both choices of normalization", "why_tests_cant": "degrees are interpolated one after the other while the shift is removed from the higher ones; the bookkeeping depends on the function, the field and the order of arrival of the probes", "anchors": ["source/RatReconst.cpp: interpolate, feed_poly, build_uni_gauss, solve_gauss, calculate_shift_polynomials, get_rand_zi_vec", "source/PolyReconst.cpp: interpolate", "source/FFThieleInterpolator.cpp"]}
{"id": "C45", "title": "In a further prime field the unknown coefficients of a multivariate rational function are found", "statement": "A rational-function object for n > 1 variables that knows the monomials (no shift, no singular system) gets right values of N/D at probes (t, order vector) in a further prime field, in any order, each at most once: no undefined behaviour and no singular linear system occurs. It accepts its guess of the rational coefficients if and only if the guess has the value of N/D at the first probe with the order vector (1, ..., 1). Otherwise any coefficients it hands to the Chinese remainder theorem are those of N and D. As long as neither has happened, it has got fewer probes that it has asked for than there are unknown coefficients; if every probe is one it asks for, it is finished after that number of probes; whatever the order of arrival, it is finished if for each o there are as many probes with the order vector (o, ..., o) as degrees with at least o unknown coefficients. With all coefficients known and a right guess it accepts the guess at the first probe with the order vector (1, ..., 1).", "quantifier": "all numbers of variables, all N and D, all splittings into known and unknown coefficients, all guesses, all anchor points and values of t that are generic for N/D, all orders of arrival of the probes", "why_tests_cant": "the systems shrink while parts are finished, subtraction terms change with each order vector, and the order of arrival is arbitrary", "anchors": ["source/RatReconst.cpp: interpolate, check_if_done, test_guess, build_homogenized_multi_gauss, solve_homogenized_multi_gauss", "source/utils.cpp: solve_vandermonde_system"]}
{"id": "C46", "title": "Multivariate rational functions over the rational numbers are reconstructed over several prime fields", "statement": "A new rational-function object for n > 1 variables gets right values of N/D (rational coefficients) in several prime fields, in any order: no undefined behaviour. Between the fields each coefficient is known exactly or as its residue modulo the product of the primes; fields whose first probe is zero (not the first field) are skipped without loss; a function with zero as first probe in the first three fields is reported as zero. Any reported result is N/D up to a common factor, or the coefficients were not yet small for the product of the primes and the result agrees with N/D modulo this product and at a probe of the last field. With coefficients below half of the primes, enough probes in the first two fields and one in the third, a result is reported.", "quantifier": "all N and D with rational coefficients and a monomial that is the only one of its degree, all prime fields whose primes do not divide the denominators, all generic shifts, anchor points and values of t, all orders of arrival of the probes, all iteration orders of the hash maps, any number of fields below 300", "why_tests_cant": "the result depends on the residues in each field, on guesses that may be premature, and on the order of arrival; a test sees single functions and primes only", "anchors": ["source/RatReconst.cpp: feed, interpolate, combine_primes, rec_rat_coef, test_guess, add_non_solved_num, add_non_solved_den, get_result", "source/include/firefly/Reconstructor.hpp: interpolate_job"]}
{"id": "C47", "title": "Polynomials over the rational numbers are reconstructed over several prime fields", "statement": "A new polynomial object gets right values of f (rational coefficients, any number of variables) in several prime fields, in any order, the value at the anchor point itself at most once per field: no undefined behaviour. Between the fields the residues of all coefficients modulo the product of the primes are stored, also if monomials vanish modulo some primes. A reported result is f if the coefficients of f are small for the product of the primes, and otherwise it agrees with f modulo this product and in one value of the last field. With enough values per field a result is always reported after finitely many fields.", "quantifier": "all polynomials with rational coefficients, all lists of different primes that do not divide a denominator, all anchor points generic for f modulo p, all orders of arrival of the values", "why_tests_cant": "monomials may vanish modulo a prime, guesses may be premature, and the number of fields depends on the size of the coefficients; a test sees single polynomials and primes", "anchors": ["source/PolyReconst.cpp: PolyReconst, feed, interpolate, test_guess, get_result", "source/BaseReconst.cpp: run_chinese_remainder, get_rational_coef, convert_to_mpz, convert_to_ffint"]}
{"id": "C48", "title": "With MPI every requested probe is computed once and delivered to its index, without deadlock", "statement": "A master and any number of worker processes with thread pools distribute the probes by MPI messages. In every execution: no process reads beyond the end of a message or rejects a result as corrupted; each stored result belongs to a probe that was requested in the current prime field and holds the residues of all functions at its point; no probe is delivered twice; without new requests all processes come to rest after boundedly many steps, and then every requested probe has been delivered, or the processes wait for the first probes of the next prime field after the change of the prime was asked for, or all have returned after the end was asked for. Results that are still under way when the prime changes never reach the next field.", "quantifier": "all numbers of workers, threads and bunch sizes that the code supports, all sequences of requests, changes of the prime and the end, all interleavings of the threads and message arrivals, all black boxes", "why_tests_cant": "the protocol depends on the interleaving of many processes and threads; lost probes, duplicate results or a deadlock need a rare schedule that a test does not produce", "anchors": ["source/include/firefly/MPIWorker.hpp: communicate, get_job", "source/include/firefly/Reconstructor.hpp: send_first_jobs, mpi_communicate, queue_probes, get_job, compute_probe"]}
{"id": "C49", "title": "With MPI the reconstructing thread and the communication thread hand over without deadlock and in the right order", "statement": "With MPI, reconstruct() hands over to its communication thread at the start, at every change of the prime field, at every run of the scan for a shift and at the end. In every schedule of the two threads, the local jobs and (spurious) wake-ups: the threads never wait for each other for ever; between two decisions of the reconstructing thread they take boundedly many steps; the local jobs of the old field are killed only after the workers have stopped, the prime is changed only after that and after all results of the old field were received, the new prime and the first probes are sent only then, and the local jobs of the new field start only then; when reconstruct() returns, no hand-over is left half done.", "quantifier": "all numbers of prime fields and scan runs, all interleavings of the statements of the two threads, all spurious wake-ups", "why_tests_cant": "a lost notification or a flag that is set twice before it is read needs a schedule that a test produces only by accident; the number of schedules is unbounded", "anchors": ["source/include/firefly/Reconstructor.hpp: reconstruct (905-917, 1022-1062), start_first_runs, queue_new_ones, run_until_done, queue_probes, mpi_communicate"]}
{"id": "C50", "title": "The scan finds a smallest set of variables to shift, and the interpolation after it is correct", "statement": "With the scan enabled, reconstruct() tries sets of variables, fewest first, and takes the first one for which every function has on a line the same degrees as with all variables shifted; it ends after at most 2^n + 1 rounds; every set with fewer variables failed for some function; if no proper subset works, all variables are shifted. With the set that was taken each function can be normalized at the shift (to the denominator if its constant does not vanish, otherwise to the numerator). An object that took part in the scan reconstructs its function from the powers of t seen there, with fewer probes and with the same result as without a scan.", "quantifier": "all numbers of variables and functions, all rational functions, all prime fields, all random choices for which the lines are generic, all orders of the probes after the scan", "why_tests_cant": "the number of sets is exponential in the number of variables, the degrees depend on the function; a wrong acceptance shows only for functions that cannot be normalized at the chosen shift", "anchors": ["source/include/firefly/Reconstructor.hpp: scan_for_shift (1197-1290)", "source/RatReconst.cpp: interpolate (340-537), is_shift_working, build_factor_uni_gauss, solve_factor_uni_gauss (2100-2165)", "source/utils.cpp: generate_next_permutation"]}
{"id": "C51", "title": "Factors are divided out of every probe and come back in the result", "statement": "With the factor scan enabled, every probe that enters the interpolation of a function is the value of the black box divided by the value of the factors found for this function, in every prime field and at every point, whatever the order in which the factors are stored; the variables are reordered by decreasing degree (stable) and each gets the coordinate of its new position. Conversely, if the interpolated function is this quotient, get_early_results() and get_result() return, in the user's variable names and order, a function with the value of the black box, and get_factors_string() the value of the factors.", "quantifier": "all factors (monic polynomials in one variable with rational coefficients), all numbers of functions and variables, all histories of primes, all points, all orders of the sets, all degrees", "why_tests_cant": "the factors pass through text, a parser and precomputed tokens that are rewritten at each change of the prime; a mistake shows only for special coefficients, orders of variables or sequences of primes, and for the mapping of factors to functions only when functions end in a certain order", "anchors": ["source/include/firefly/Reconstructor.hpp: scan_for_factors (1614-1635, 1748-1790, 1840-1876), queue_probes (2936-2950), compute_probe (3391-3399, 3449-3458), get_result, get_early_results, get_factors_string (1097-1195)", "source/ShuntingYardParser.cpp: parse_function, precompute_tokens, evaluate_pre", "source/RationalFunction.cpp: to_string"]}
{"id": "C52", "title": "The factor scan finds the factors that depend on one variable only", "statement": "With the factor scan enabled, for each variable and each function the scan reports exactly the monic factor of the numerator and of the denominator that depends on this variable only (nothing if there is none), with exact rational coefficients: in each prime field the common part of the factorizations at two random choices of the other variables is this factor modulo the prime, what is found always divides both, and the degree stored for the further run is the one without the factor; a report is exact, or it agrees with the factor modulo the primes used before and at a random point of a further prime field although these primes were too few; once the product of the primes exceeds twice the square of all numerators and denominators every factor has been reported, and no function is reported twice.", "quantifier": "all factors with rational coefficients, all numbers of functions, all sequences of distinct primes that divide no numerator or denominator of a coefficient, all random points and random values without accidental common factors, all factorizations that satisfy FLINT's contract, all orders of monomials", "why_tests_cant": "the result combines factorizations in several prime fields of several functions that end at different times and share one modulus; whether a coefficient is correct depends on all primes and on the other functions", "anchors": ["source/include/firefly/Reconstructor.hpp: scan_for_factors (1371-1740), combine_primes (1962-1986)", "source/RatReconst.cpp: interpolate (1767-1840), get_factors_ff, get_canonical_factors (1880-1948)", "source/utils.cpp: get_rational_coef, run_chinese_remainder"]}
{"id": "C53", "title": "A resumed run uses the factors and the order of variables that the factor scan has saved", "statement": "If a run with factor scan and saved states is interrupted after the scan, the resumed run reads the saved order of the variables and all saved factors without an error, in whatever order the directory lists the files and whatever damaged files an earlier interrupted scan of the same functions has left: it evaluates every probe at the same point, divides it by the same factors, and prints every result with the same factors and the same order of variables as the uninterrupted run.", "quantifier": "all numbers of variables and functions, all orders of the variables, all factors with rational coefficients, all orders of the sets of strings and of the directory entries, all leftovers with the same names, all primes and points of later probes", "why_tests_cant": "the factors pass through three formats of files and two parsers; a wrong field shows only for special combinations (a factor only in the denominator, negative or fractional coefficients, several factors in one file) and only after an interruption", "anchors": ["source/include/firefly/Reconstructor.hpp: scan_for_factors (1786-1827, 1841-1921), resume_from_saved_state (563-623)", "source/ParserUtils.cpp: parse_factors_rf, parse_factors, parse_vector_32, parse_rational_number"]}
{"id": "C54", "title": "A compressed file contains what was written to it and is read back line by line", "statement": "Whatever is written to a compressed output stream, character by character, as strings of any length, with or without flushes, is the content of the file after the stream is closed, and a later run that reads this file line by line gets exactly these lines; if a part could not be written, the stream reports a failure.", "quantifier": "all contents, all sequences of output operations, all sizes of the stream buffer (the program uses 2^30+47), all failures of zlib's write function", "why_tests_cant": "the buffer is larger than a gigabyte, so that no test reaches a second block; what happens at its boundary depends on the exact length of the file", "anchors": ["source/gzstream.cpp: gzstreambuf (open, close, underflow, overflow, flush_buffer, sync)", "source/RatReconst.cpp, source/include/firefly/Reconstructor.hpp: all uses of ogzstream and igzstream"]}
{"id": "C55", "title": "The MPI workers divide their probes by the factors the master has found", "statement": "Whenever the master has factors (after a factor scan or in a resumed run), every worker has, after the exchange, for every function the same factors as the master: in every later prime field the probe it returns for a function is the value of the black box divided by the value of the factors of this function, and the exchange leaves no message behind.", "quantifier": "all numbers of functions and variables, all factors, all lengths of their texts (and all batch sizes), all later prime fields and points", "why_tests_cant": "the texts are cut into batches of two gigabytes; a mistake in the counting of the batches or in the numbering of the functions shows only for large or special texts, and as wrong results or a hanging process", "anchors": ["source/include/firefly/Reconstructor.hpp: mpi_setup (3849-3906), scan_for_factors (1831-1928), get_factors_string (1097-1120)", "source/include/firefly/MPIWorker.hpp: run (126-183), communicate (302-352), compute (436-500)"]}
{"id": "C56", "title": "Probes computed by another program reach the interpolation under their own key", "statement": "In the mode with precomputed probes, the file of requested probes lists every probe requested in the run with its orders, its value of t and its point; every line of the file of answers written in the same format (with the values of the functions instead of the point) is handed to the interpolations exactly once with exactly its orders, its t and its values in their order, and no interleaving of requests, reading, taking and feeding ends the program or loses a probe.", "quantifier": "all numbers of variables, all orders, points and values, all sequences of requests, files and thread steps, all primes", "why_tests_cant": "the requests and the answers share one counter of indices and one map that threads erase from; a mix-up depends on the interleaving and gives a wrong interpolation without an error", "anchors": ["source/include/firefly/Reconstructor.hpp: load_precomputed_probes_from_file (3750-3818), write_requested_probes_to_file (3820-3846), queue_probes (2898-2990), get_probe (2996-3012), feed_job (3014-3049)"]}
{"id": "C57", "title": "Inserting replacement rules gives the coefficients of the remaining functions", "statement": "AmplitudeParser reads an expression (a sum of functions F[...] of the given names with coefficients, white space anywhere, braces or not) and any number of tables of rules. Every function that is left after the replacement is reported as exactly one master; the coefficient reported for it, and the value of the black box built for it in every prime field, is the coefficient of this function in the expression after the replacement; the sum of all masters times their coefficients is the replaced expression. A second rule for a function of the expression ends the program.", "quantifier": "all expressions and tables (any number of terms, rules and tables, any coefficients in the documented format, any spelling), all orders of the hash map, all values of the variables in all fields, all sequences of primes", "why_tests_cant": "positions in the text, numbers of functions, masters and entries are kept in five maps; a shift by one only shows for particular texts, and the result is a wrong coefficient without an error", "anchors": ["source/AmplitudeParser.cpp: parse_file, parse_amplitude_string, parse_string, parse_ibp_table_string, check_for_unreplaced_masters, get_unsimplified_coef, build_black_box, get_master", "source/include/firefly/AmplitudeParser.hpp: AmplitudeParser, FFAmplitudeBlackBox"]}
{"id": "C58", "title": "The files written by ff_insert can be merged and read again without a change of the value", "statement": "The files with the coefficients that ff_insert writes without interpolation, merged in any order of the files, form an expression that ff_insert reads again, and its value is the value of the original expression after the replacement. Merging files with sums whose terms all have signs gives the sum of all of them.", "quantifier": "all expressions and tables as in C57, all orders of the files, all values of the variables and functions in all fields", "why_tests_cant": "the merge works on texts without parsing them; whether the joined text means the sum depends on all terms and names that can occur", "anchors": ["ff_insert.cpp: main (435-454, 476-535)", "source/AmplitudeParser.cpp: get_unsimplified_coef, parse_string"]}
{"id": "C59", "title": "Univariate polynomials over the prime field are computed exactly", "statement": "The class Poly computes: get_deg is the degree; sum, difference, product, multiplication and division by a number are those of the polynomials; fast_euclidean_division (and / and %) returns quotient and remainder; gcd ends and returns a greatest common divisor; the output shows the terms that are not zero with falling exponents. All this holds for coefficient vectors with any zeros at their ends.", "quantifier": "all coefficient vectors of any length over all prime fields", "why_tests_cant": "the sum inserts into the vector while its degree changes, the quotient comes from a truncated Newton iteration on the reversed polynomials; a wrong truncation or a wrong number of passes only shows for particular degrees and cancellations", "anchors": ["source/Poly.cpp: get_deg, shrink_to_fit, rev, operator+=, operator-=, operator*=, operator/=, fast_euclidean_division, gcd, operator<<", "source/include/firefly/Poly.hpp: Poly"]}
{"id": "C60", "title": "The roots of a univariate polynomial are found with their multiplicities", "statement": "For a polynomial that is not zero Poly::roots never fails; when it returns, the returned list contains exactly the roots, each one as often as its multiplicity, and the polynomial is a constant times the product of the x - r. For a product of linear factors over an odd prime field no sequence of random numbers leads into a dead end: there are always further numbers with which it returns.", "quantifier": "all polynomials of any degree, all primes, all sequences of random numbers", "why_tests_cant": "the algorithm is randomised and its queue depends on all draws; a test sees one sequence", "anchors": ["source/Poly.cpp: roots, gcd, fast_euclidean_division", "source/include/firefly/Poly.hpp: roots"]}
{"id": "C61", "title": "The coefficients are found in every further prime field when a variable shift is used", "statement": "For a rational function in several variables that needs a shift, when the monomials of the function and of its shifted form are known, a further prime field: whatever the order of arrival of the probes, nothing is undefined and the linear systems are never reported singular; the guess is accepted if and only if it agrees with the function at the first probe of the first order vector; otherwise the coefficients returned are those of the unshifted function, normalized to the chosen coefficient; for this at most (number of degrees) x (largest number of monomials in one degree) of the requested probes are needed.", "quantifier": "all rational functions in any number of variables, all shifts and anchor points that distinguish the monomials, all orders and multiplicities of probes and order vectors, all fields with enough elements", "why_tests_cant": "the function's shifted parts are solved from the highest degree on and the contributions to lower degrees are subtracted with signs and binomial factors, some parts being solved with their shift in passing; an error appears only for particular combinations of supports, shifts and arrival orders", "anchors": ["source/RatReconst.cpp: interpolate, set_singular_system_vars, build_homogenized_multi_gauss, solve_homogenized_multi_gauss, check_if_done, test_guess, calculate_shift_polynomials"]}
{"id": "C62", "title": "Safe interpolation: coefficients may vanish in a prime field", "statement": "With set_safe_interpolation, a rational function in several variables over the rational numbers is probed in several prime fields, in any order of arrival, and coefficients of the function may vanish modulo the primes. Then nothing is undefined; a field in which the normalized coefficient vanishes is left out; every coefficient that has become known is right, every stored residue belongs to the coefficient modulo the product of exactly those primes that do not divide it, and coefficients never seen vanish in all fields used; every coefficient that is small for its own modulus before a field that sees it is known afterwards. A reported result is the function, or it was reported before the fields determined the function, and then it agrees with it in all coefficients that are determined and at the probe of the test. When the fields determine the function the object does not ask for another prime field if it gets a probe for the test.", "quantifier": "all rational functions over the rationals in any number of variables, all sequences of less than 300 prime fields with the assumptions of C44 in each, coefficients vanishing in any of them, all orders of probes, all iteration orders of the hash maps", "why_tests_cant": "coefficients that vanish modulo a 63 bit prime practically never occur in a test, and then each coefficient has its own history of moduli", "anchors": ["source/RatReconst.cpp: feed, interpolate, combine_primes, rec_rat_coef, test_guess, remove_ni, remove_di", "source/include/firefly/RatReconst.hpp: set_safe_interpolation"]}
{"id": "C63", "title": "Rational functions in several variables with a shift that is kept, over all prime fields", "statement": "A rational function in several variables over the rational numbers is probed in several prime fields with a variable shift; other functions may be reconstructed at the same time. The shift is kept in a further field exactly as long as the function, or another one, needs it: the function needs it as long as every degree of its numerator and denominator has several monomials and an unknown coefficient. Then, for any order of arrival of the probes, nothing is undefined; a result that is reported is the function itself (up to a common factor of numerator and denominator), or it was reported before the coefficients were small for the product of the primes and agrees with the function modulo this product and at a probe; a further field is requested only while the coefficients are not small for the product of the primes; with enough probes in every field the object finishes.", "quantifier": "all numbers of variables >= 2, all rational functions with arbitrary monomials, all sequences of prime fields, shifts, anchor points and arrival orders of probes, all behaviours of other functions that ask for the shift before it is disabled", "why_tests_cant": "Whether the shift is kept depends on which coefficients happen to be known after each prime field and on other functions; a test follows one such history. The number of fields, degrees and monomials is not bounded.", "anchors": ["source/RatReconst.cpp:RatReconst::feed", "source/RatReconst.cpp:RatReconst::interpolate", "source/RatReconst.cpp:RatReconst::check_for_solved_degs", "source/RatReconst.cpp:RatReconst::set_singular_system_vars", "source/RatReconst.cpp:RatReconst::combine_primes", "source/RatReconst.cpp:RatReconst::need_shift", "source/include/firefly/Reconstructor.hpp:Reconstructor::start_new_prime"]}
{"id": "C64", "title": "A parser object for a list of functions: order, equal functions, later additions, trimming, files", "statement": "A ShuntingYardParser is constructed from a list of functions (or from a file in which every function ends with a semicolon; blanks, tabs, newlines and a missing last semicolon do not matter). After any sequence of changes of the prime field, each followed by precompute_tokens, evaluate_pre returns one value for each function, in the order of the list, and it is the value of that function at the point. If the check for equal functions is on, the value at position i is the value of the first function of the list that agrees with function i at both check points, and two different functions agree at both check points for at most a fraction d^2/((p-1)(q-1)) of the check points (d the degree of their difference). add_otf and add_otf_precompute append functions and return their positions. trim returns the positions that are kept and their new positions, and afterwards exactly these functions are evaluated, in the same order. evaluate returns the same values as evaluate_pre.", "quantifier": "all lists of functions of the grammar, all variables, all prime histories, all points, all check points, all sets of kept functions, all functions added later", "why_tests_cant": "Positions, equal functions and prime changes interact; the lists, expressions and histories are unbounded, and a wrong identification of two functions happens only for special check points.", "anchors": ["source/ShuntingYardParser.cpp:ShuntingYardParser::ShuntingYardParser", "source/ShuntingYardParser.cpp:ShuntingYardParser::parse_collection", "source/ShuntingYardParser.cpp:ShuntingYardParser::add_otf", "source/ShuntingYardParser.cpp:ShuntingYardParser::add_otf_precompute", "source/ShuntingYardParser.cpp:ShuntingYardParser::trim", "source/ShuntingYardParser.cpp:ShuntingYardParser::precompute_tokens", "source/include/firefly/ShuntingYardParser.hpp:ShuntingYardParser::evaluate_pre"]}
{"id": "C65", "title": "The probes requested in a further prime field suffice, none is requested in vain, and the work ends", "statement": "In a further prime field each object asks once for numbers of probes, for the order vectors (1,...,1), (2,...,2), ...; the number for (o,...,o) is the number of parts of numerator and denominator that still have unknowns for it (without shift: parts with at least o unknown coefficients; with shift: parts whose number of monomials, including those of the shift, or the largest number of monomials of one degree is at least o). The Reconstructor queues the missing probes of all objects. For every set of objects and every interleaving of the threads: the number of steps is bounded, a thread can always do something until everything is handled, and then every object is done with this prime field and its result is right. The number of queued probes for an order vector is never larger than what was queued at the start or what one object needs. After a restart the stored probes count: stored and requested probes together are the needed ones. In the first prime field, a request raises the number of queued probes to the size of the system.", "quantifier": "all numbers of objects, all rational functions with and without shift (non-degenerate probe points), all schedules of feeding, taking and handling requests, all numbers of initial probes, all stored probes", "why_tests_cant": "A request that is too small leaves the run waiting for ever, and whether it is noticed depends on the schedule and on the other objects, whose probes are shared; the number of schedules is unbounded.", "anchors": ["source/RatReconst.cpp:RatReconst::check_if_done", "source/RatReconst.cpp:RatReconst::get_needed_feed_vec", "source/RatReconst.cpp:RatReconst::get_zi_orders", "source/include/firefly/Reconstructor.hpp:Reconstructor::interpolate_job", "source/include/firefly/Reconstructor.hpp:Reconstructor::queue_probes"]}
{"id": "C66", "title": "In the first prime field the requests suffice, not more is queued, and every schedule ends", "statement": "In the first prime field each object says after every probe what it wants next: probes for (1,...,1) until the degrees are known, then for the order vectors of its next systems, with the numbers that are missing. As long as an object is not done, its list of requests is defined, and the first entry is the number of probes that its current system lacks, which is positive. The Reconstructor keeps the number of (1,...,1) probes in flight constant and queues the missing probes of all objects. For every set of objects, every number of threads and every interleaving of computing, feeding, reading and handling requests: the number of steps and the number of probes are bounded, a thread can always do something until everything is handled, and then every object is done with the first prime field and its result is right. For an order vector other than (1,...,1) never more probes are queued than one object needs for a system, no probe is queued twice, and the number of (1,...,1) probes in flight plus the balance is constant.", "quantifier": "all numbers of objects, all rational functions in at least two variables (generic anchor points and shift), all numbers of threads and sizes of the first bunch, all schedules, all choices of the allowed values t", "why_tests_cant": "A request that is lost or too small leaves the run waiting for ever; whether this happens depends on the order in which probes arrive, on which thread reads a list when, and on the probes that other objects have started. The number of schedules is unbounded.", "anchors": ["source/RatReconst.cpp:RatReconst::get_zi_orders", "source/PolyReconst.cpp:PolyReconst::get_vandermonde_num_eqn", "source/include/firefly/Reconstructor.hpp:Reconstructor::start_first_runs", "source/include/firefly/Reconstructor.hpp:Reconstructor::feed_job", "source/include/firefly/Reconstructor.hpp:Reconstructor::interpolate_job", "source/include/firefly/Reconstructor.hpp:Reconstructor::queue_probes"]}
{"id": "C67", "title": "When nothing is left to feed, the recovery counts rightly, queues enough new probes, and in the first prime field leads to the end", "statement": "If no probe is queued and no job runs although some function is unfinished (for example because probes were lost), the run attempts to continue: it counts the functions again and requests new probes. After this call the numbers of finished functions and of functions that wait for the next prime field are right and no function is lost; the run is declared complete exactly if all functions are finished, and is promoted exactly if all others wait; otherwise for every unfinished function at least as many new probes are queued as it asks for, and never more for one set of variable powers than one of them asks for, and the books agree with what was queued. It gives up only if no unfinished function asks for a probe. In the first prime field this works from every state, whatever probes the functions have got and whatever was lost: the call does not fail and the number of recoveries is bounded.", "quantifier": "all numbers of functions, threads and variables, all states of the functions (all sets of probes they have got or lost), all counters and books before the call, all sequences of recoveries", "why_tests_cant": "The recovery runs only in states that a correct schedule does not reach; which probes are lost, and what has been started or taken by other jobs before, can be anything.", "anchors": ["source/include/firefly/Reconstructor.hpp:Reconstructor::attempt_to_continue", "source/include/firefly/Reconstructor.hpp:Reconstructor::run_until_done", "source/include/firefly/Reconstructor.hpp:Reconstructor::get_early_results", "source/RatReconst.cpp:RatReconst::get_needed_feed_vec", "source/RatReconst.cpp:RatReconst::get_zi_orders"]}
{"id": "C68", "title": "reconstruct(k) does the scans that were asked for and uses the prime fields one by one, not more than k", "statement": "For every sequence of option calls before reconstruct (safe interpolation, factor scan, scan for a shift, stopping after the factor scan), in any order: the factor scan is done exactly if it was enabled and is available, the shift scan exactly if it was enabled and there is more than one variable, both never in safe mode, in this order, each once; the run stops after the factor scan exactly if this was asked for; a black box without functions is done at once. reconstruct(k) evaluates the black box in the prime fields 0, 1, 2, ... of the table, one after the other, until all functions are finished, and in not more than k fields; when it returns, every function that is finished with the first k fields has its result, and the reconstruction is reported as done exactly if all functions are finished. No k leads outside of the table of primes.", "quantifier": "all histories of option calls, all numbers of variables and functions, all limits k, all numbers of prime fields the functions need", "why_tests_cant": "The histories of calls and the numbers of prime fields are unbounded; a function that needs 300 prime fields has coefficients of more than 18000 bits and does not occur in tests.", "anchors": ["source/include/firefly/Reconstructor.hpp:Reconstructor::reconstruct", "source/include/firefly/Reconstructor.hpp:Reconstructor::run_until_done", "source/include/firefly/Reconstructor.hpp:Reconstructor::reconstruction_done", "source/include/firefly/Reconstructor.hpp:Reconstructor::enable_factor_scan", "source/ReconstHelper.cpp:primes"]}
{"id": "C69", "title": "A whole run with several functions and threads reports every function right", "statement": "Several rational functions in two or more variables are reconstructed together over several prime fields. In each field any number of threads computes probes, feeds the objects and handles their requests in any interleaving; the numbers for the new probes are arbitrary allowed ones. Under genericity assumptions on primes, shift, anchor points and probes: whenever the run is stopped between two prime fields, each function is either reported, and then the result is the function (numerator and denominator with a common factor), or it was reported early, i.e. it agrees with the function modulo the product of the primes so far and at a probe although the coefficients are not yet small for this product; or it is still open, and then its coefficients are not small for the product of the primes of any earlier stage. If the coefficients are small already for the first prime, no wrong result is possible. Every field comes to its end in every schedule, and if the coefficients are small before one of the fields, the run ends there with all functions reported.", "quantifier": "all sets of functions, all numbers of variables, terms and prime fields, all schedules of the threads, all random numbers that are allowed", "why_tests_cant": "The result depends on the interleaving of the threads in every field and on the random numbers; a test sees a few schedules of a few functions.", "anchors": ["source/include/firefly/Reconstructor.hpp:Reconstructor::run_until_done", "source/include/firefly/Reconstructor.hpp:Reconstructor::interpolate_job", "source/include/firefly/Reconstructor.hpp:Reconstructor::feed_job", "source/RatReconst.cpp:RatReconst::interpolate"]}
{"id": "C70", "title": "Monomials and polynomials with rational coefficients behave as such", "statement": "Monomial and Polynomial, the classes in which results are handed to the user, denote polynomials over the rational numbers. Product and negative of monomials, Polynomial::operator*=, the constructors, clear and sort give exactly the product, negative, multiple and the same polynomial, with coefficients in lowest terms. The comparisons < and > of monomials are a strict total order and its converse for exponent vectors of one length: total degree first, then the larger exponent at the first difference. sort brings the monomials into the strictly increasing order decided by the last differing exponent, whatever the order before and whatever std::sort does within its contract. zero() is true exactly for the zero polynomial. convert_to_PolynomialFF gives the image in the prime field: every coefficient and every value at an integer point is the image of the rational one if the prime divides no denominator.", "quantifier": "all numbers of variables, all monomials, all polynomials in any order of their terms, all rational factors, all primes and all integer points", "why_tests_cant": "Orders, signs, common factors and vanishing images of coefficients are infinitely many, and the order of the map and the algorithm of std::sort are not fixed.", "anchors": ["source/Monomial.cpp:Monomial::operator<", "source/Monomial.cpp:Monomial::operator*", "source/Polynomial.cpp:Polynomial::sort", "source/Polynomial.cpp:Polynomial::convert_to_PolynomialFF", "source/Polynomial.cpp:Polynomial::operator*=", "source/Polynomial.cpp:Polynomial::zero", "source/RationalFunction.cpp:RationalFunction::zero"]}
{"id": "C71", "title": "A whole run with one variable gives the right functions", "statement": "A run with several rational functions of one variable, all prime fields, and any schedule of the threads within each field, reports each function right; or it reported it too early, before its coefficients were small for the product of the primes used so far (then the result agrees with the function modulo this product and at the probe of the test); or the function is not reported, and its coefficients were too large in every further field. If the coefficients are small for the first prime already, no wrong result is reported. Every field comes to its end: no deadlock while something is left to do, a bound for the number of steps in the first field that holds for every schedule, and the run can always be completed.", "quantifier": "all numbers of functions, all rational functions of one variable, all primes and lists of prime fields within the limit, all schedules of any number of threads, all random values, all orders of hash maps", "why_tests_cant": "Schedules, values, primes and functions are infinitely many; a test sees one schedule for one function.", "anchors": ["source/include/firefly/Reconstructor.hpp:Reconstructor::run_until_done", "source/include/firefly/Reconstructor.hpp:Reconstructor::start_first_runs", "source/include/firefly/Reconstructor.hpp:Reconstructor::interpolate_job", "source/RatReconst.cpp:RatReconst::feed", "source/RatReconst.cpp:RatReconst::interpolate", "source/RatReconst.cpp:RatReconst::get_needed_feed_vec", "source/RatReconst.cpp:RatReconst::get_zi_orders"]}
{"id": "C72", "title": "A whole run with a shift gives the right functions, however long the shift is kept", "statement": "A run with several rational functions of several variables, scanned with a variable shift, over all prime fields and with any schedule of the threads within each field, reports each function right, whether or not its monomials are determined without the shift in the further fields; or it reported it too early, before its coefficients were small for the product of the primes used so far (then its monomials are right, its coefficients agree with the function modulo this product, and so does its value at a probe); or the function is not reported, and its coefficients were too large in every further field. If the coefficients are small for the first prime already, no wrong result is reported. The shift is kept in a further field if and only if some function that is not done asks for it; if it is disabled, each open function has a degree in which all coefficients are known. Every field comes to its end, with no deadlock while something is left to do, and the run can always be completed.", "quantifier": "all numbers of functions and variables, all rational functions, shifts, anchor points, primes and lists of prime fields within the limit, all schedules of any number of threads, all random values, all orders of hash maps", "why_tests_cant": "Schedules, values, primes, shifts and functions are infinitely many, and whether one function keeps the shift depends on the others; a test sees one schedule for one set of functions.", "anchors": ["source/include/firefly/Reconstructor.hpp:Reconstructor::run_until_done", "source/include/firefly/Reconstructor.hpp:Reconstructor::start_first_runs", "source/include/firefly/Reconstructor.hpp:Reconstructor::interpolate_job", "source/RatReconst.cpp:RatReconst::need_shift", "source/RatReconst.cpp:RatReconst::disable_shift", "source/RatReconst.cpp:RatReconst::feed", "source/RatReconst.cpp:RatReconst::interpolate"]}
{"id": "C73", "title": "With safe interpolation, a rational function in one variable is found from prime fields in which coefficients vanish", "statement": "An object for one variable on which safe interpolation is set is fed with values of a rational function in several prime fields. In each field some coefficients may vanish and the degrees may drop. There is no undefined behaviour; each field gives exactly the coefficients that do not vanish in it, and they are combined with the modulus that belongs to each coefficient; a field whose first value is zero is skipped without loss. The reported function is the right one, or it has only monomials of the function, the right coefficients where they are determined, and the right value at the probe at which it was tested. As soon as all coefficients are determined, the next field reports the right function. More probes are asked for only if there have not been enough for the degrees of the function.", "quantifier": "all rational functions in one variable, all primes and probes within the assumptions, all numbers of prime fields below 300, all orders of hash maps", "why_tests_cant": "Which coefficients vanish depends on the prime and on the function; a test uses the large built-in primes, for which it practically does not happen.", "anchors": ["source/RatReconst.cpp:RatReconst::feed", "source/RatReconst.cpp:RatReconst::interpolate", "source/RatReconst.cpp:RatReconst::combine_primes", "source/RatReconst.cpp:RatReconst::set_safe_interpolation", "source/RatReconst.cpp:RatReconst::test_guess", "source/ThieleInterpolator.cpp:ThieleInterpolator::get_result"]}
