# Formal model of sandialabs/Polymers in Lean 4

Everything lives under `lean/Verif`. `properties.jsonl` lists the English properties, `MANIFEST.json`
maps them to theorem names, `seeded/LOG.jsonl` records the mutation experiments.

## 1. What is modelled

| Rust source | Lean module | how |
|---|---|---|
| `src/math/mod.rs` | `Verif/Model/Math.lean`, `Verif/Model/MathTables.lean` | hand-written; coefficient tables copied by script |
| `src/physics/mod.rs`, `src/physics/single_chain/mod.rs` (constants) | `Verif/Model/Base.lean` | hand-written |
| `src/physics/single_chain/{ideal,fjc,efjc,swfjc,ufjc/*,wlc}/**/mod.rs` | `Verif/Model/{Ideal,Fjc,Efjc,Swfjc,LennardJones,LogSquared,Morse,Wlc}.lean` | generated by `tools/rust2lean.py`, one Lean definition per Rust function/method/struct, same name, same argument order, same operator tree |
| functions of those files which use arrays or iterators (Treloar sums, WLC tables) | the same modules | hand-written overrides in `tools/overrides.txt` |
| `src/physics/single_chain/{fjc,efjc,frc,efrc}/thermodynamics/isometric/monte_carlo/mod.rs` | `Verif/Model/MonteCarlo.lean` | hand-written; the random stream is an explicit argument |
| `src/constitutive/**/mod.rs` | `Verif/Model/Constitutive.lean` | hand-written |
| `src/physics/single_chain/**/ex.rs` (C ABI) | `Verif/Model/C{Ideal,...,Wlc}.lean` | generated by `tools/ex2lean.py`, one definition per exported function |
| `src/physics/single_chain/**/py.rs` (Python classes) | `Verif/Model/Python{Ideal,...,Wlc}.lean` | generated by `tools/py2lean.py`; a numpy array is its shape and its entries (`NdArray` in `Model/PythonBase`; not its layout in memory), `mapv` keeps the shape; the registration of the modules is not modelled |
| `src/physics/single_chain/**/mod.jl` (Julia structures) | `Verif/Model/JuliaBase.lean`, `Verif/Model/Julia{Ideal,...,Wlc}.lean` | generated by `tools/jl2lean.py`; a number or array is its size and its entries (`JArr`), `broadcast` follows the rules of `Base.Broadcast` on sizes and indices, an exception is `none`; the parameters of a structure are numbers, as declared; a number divided by an array is a method of `LinearAlgebra` and an argument (`other`) of the constructors; `ccall` is the call of the modelled C function when the declared types are those of the export; the two calls where they are not go through an explicit calling convention |
| `src/constitutive/**/{py,ex}.rs` | `Verif/Model/BindingsConstitutive.lean` | hand-written; a C pointer is the list of numbers readable from it, `none` is undefined behaviour, an exception or a panic |

Every definition carries a comment with the file and the lines it models.

Not modelled: `test.rs`, the `py.rs` and `mod.jl` files which only register modules, the layout of numpy arrays in memory, the statistical quality of `rand` (the stream is universally quantified instead; C88 and later properties on averages assume independent uniform numbers).

### Number type

`f64` is a type variable `α` with the arithmetic operations and a class `Elem α` for the elementary
functions, comparisons, casts and `panic`. The same program text is then interpreted at

* `ℝ` - for the analytic theorems (derivatives, integrals, inequalities);
* `SReal` - reals plus `undef` and `panic`. Division by zero, logarithm of a non-positive number, square root
  of a negative number and so on give `undef`, which is strict; comparisons with `undef` are false; `panic`
  is absorbing. Definedness ("no division by zero happens while evaluating this") and failures are stated here,
  so that `1/0 = 0` of `ℝ` never makes a theorem true for the wrong reason;
* `F64 P` (`Model/Ieee.lean`) - IEEE 754 double precision on a platform `P`: rounding to nearest with any tie rule, overflow to
  infinities, NaN, gradual underflow, mathematical functions with a relative error `ε` between 2^-53 and 2^-40. The theorems from
  C72 on quantify over every platform; `Lemmas.correctlyRounded` shows that there is one;
* `Float` - only to run the model for sanity (tests, not proofs).

The theorems up to C71 are about exact arithmetic: they say nothing about rounding, overflow and underflow. In `F64 P` the two
zeros are one number and a NaN has no sign. `u8`/`u128`/`usize` are `Nat`
(theorems hold for all naturals); where the code relies on checked integer arithmetic (Treloar sums) the checks
are modelled and failure is `panic`.

### Loops

`while` loops of the Newton solvers are modelled by structural recursion on the remaining iteration budget,
`for` loops by `List` folds and recursion over `Nat`.

## 2. Trusted base

* Lean 4.33.0 kernel; axioms `propext`, `Classical.choice`, `Quot.sound` only.
* Mathlib definitions of the real functions occurring in the statements.
* For the theorems over `F64 P`: that the machine and its mathematical library satisfy the fields of `Platform`. They are
  hypotheses of the theorems, not axioms.
* That the model is a faithful transcription: the generator `tools/rust2lean.py` and the hand-written modules.
  Line citations make it checkable by eye. The generator is not verified.
* No `sorry`, no own axioms, no `native_decide`, no `bv_decide`.

## 3. Plan per property

| id | model | proof idea |
|---|---|---|
| C01 | `math.integrate_1d*` | fold = `Finset.sum`; sums of affine functions, linearity, monotonicity |
| C02 | same | per-cell Taylor bound of the midpoint rule, summed; limit from the bound |
| C03 | `math.integrate_2d*` | `flatMap` sum = double sum |
| C04 | `math.inverse_newton_raphson` | induction on remaining iterations |
| C05 | same | tangent line of a concave function lies above it; induction |
| C06 | `math.inverse_newton_raphson_powered` | algebra for the step; `SReal` evaluation for the failure |
| C07 | `math.inverse_langevin` | branch analysis, C04, Taylor bound for the Langevin function |
| C08 | `math.lambert_w` | algebra on the Halley update, cast analysis for the count |
| C09 | `math.bessel_i*` | polynomial parity, non-negative coefficients |
| C10 | `math.erf*` | accuracy: on each table arm the derivative of the computed function differs from the true one by a polynomial with small coefficients (exact rational arithmetic in the kernel); jumps between arms bounded the same way; the rest by branch analysis. Relative accuracy of the complement: from infinity the derivative of the asymptotic form against that of the error function, then the arms backwards from 50, each adding its slope and jump in units of `exp(-x²)`, which is at most `√π (x+1)` times the complement |
| C11, C13 | `ideal` | `HasDerivAt`, field algebra |
| C12 | `ideal` | Gaussian moment integral |
| C14 | `fjc.thermodynamics.isotensional` | derivative of `log (sinh x / x)`, inequalities for coth |
| C15, C16, C37, C38 | all generated models | unfolding and field algebra, stated for each function |
| C17 | `fjc.thermodynamics.isometric` | derivative of the truncated power sum, constant truncation index near the point |
| C18 | Treloar in `SReal` | integer range checks |
| C19, C28 | Legendre modules | field algebra |
| C20, C29, C34 | quadrature-based modules | differentiate a finite sum under the log |
| C21-C23, C27, C30, C31 | asymptotic modules | `HasDerivAt`, monotonicity |
| C24 | `efjc.thermodynamics.isotensional` | as the force tends to zero the last term of the extension behaves like c/η with c>0 (the omitted erf factor), the energy has a limit; a mean-value argument excludes that one is the derivative of the other |
| C25, C26 | isometric Legendre modules | `HasDerivAt` of the closure passed; C04 for the returned root; monotone quarter steps for Morse, log-squared and Lennard-Jones links; for log-squared links in seven phases whose rates are bounded by the accuracy of the Lambert W routine, for Lennard-Jones links with the difference quotient bounded by the quadratic convergence of the inner solver |
| C32 | force laws | calculus on one variable |
| C33 | `wlc.thermodynamics.isometric` | derivative identity |
| C35 | `wlc...legendre` in `SReal` | case split on the guard |
| C36 | all Legendre `init` | linearity of the quadrature |
| C39-C42 | `MonteCarlo` | invariants by induction over the link list and the sample list |
| C43-C45 | `Constitutive` | algebra, induction over the history |
| C46 | all models of the list, in `SReal` | strict evaluation equals real evaluation: one transfer lemma per operation (`Lemmas/Defined.lean`), side conditions discharged by positivity facts of each model |
| C47, C48 | Legendre modules of the extensible and worm-like chains | field algebra after reducing to the per-link functions |
| C49 | `Constitutive` | explicit histories, monotonicity of the survival integral |
| C50 | `fjc` isometric distribution | Irwin-Hall sums: piecewise polynomial integration by induction on the number of links |
| C51 | quadrature-based `ufjc` modules | weighted averages over a finite grid; covariance inequality |
| C52 | `math.bessel_i*` | truncation bound of the power series plus the size of the coefficient differences |
| C53 | distribution and Helmholtz methods | logarithm of the density, field algebra |
| C54 | isometric Legendre modules | concavity: the tangent lies above |
| C55 | `efjc.thermodynamics.isotensional` | numerator bounded below by 1/2 near zero force, denominator tends to zero from above |
| C58, C59, C60 | `Model/C*`, `Model/Python*`, `Model/Julia*` | per function, both sides unfold to the same Rust function; lists and histories by induction; Julia arrays by the rules of broadcasting (`Spec/Arrays`, `Lemmas/Julia`) |
| C61 | `Model/JuliaBase`, `Model/JuliaWlc` | the registers read by the callee do not contain the extension |
| C62 | `Model/BindingsConstitutive` | lengths of the constructed grid and matrix; the contract of `from_raw_parts` |
| C64 | `fjc` modified canonical asymptotics | the correction is a fixed multiple of the (reciprocal) stiffness; limits follow |
| C65 | same, against the integral of the exact distribution (`Spec/Ensemble`) | Laplace's method with a Taylor bound (`Lemmas/Laplace`) for stiff potentials, differentiation under the integral for soft ones |
| C66 | `fjc`, `ideal` isometric and isotensional | transform of the alternating spline by repeated integration by parts (`Lemmas/SplineTransform`) |
| C67 | `fjc` modified canonical | the sum over the grid is exponentially small or of order 1/c, the integral of order c^(-3/2) |
| C63 | `fjc`, `ideal`, `efjc`, `swfjc`, `ufjc::morse` isotensional | bounds of the Langevin function and squeezing |
| C68 | `fjc` isometric | the j-th derivative of the spline changes sign at most j times, by Rolle's theorem and induction (`Lemmas/SplineSign`) |
| C69 | `fjc`, `swfjc`, `efjc` isotensional, against the integral over one link (`Spec/LinkStatistics`) | integrals over directions and lengths in closed form; the tail of the harmonic link is a Gaussian integral |
| C70 | asymptotic and reduced modules of `efjc` and `ufjc`, against the same integral | Laplace's method for a stiff link to first order (`Lemmas/StiffLink`), the stretch computed by the code to first order |
| C71 | isotensional modules of the three anharmonic `ufjc` models, `integrate_1d` | only the smallest energy survives in a sum of stiff Boltzmann factors; the nearest point of the grid found by monotonicity of the potential |
| C72 | `fjc` isotensional, in `F64 P` | error propagation through the expression with relative and absolute bounds (`Lemmas/Ieee`); at small forces the rounding is determined exactly |
| C73 | isotensional and isotensional Legendre modules with closed forms, in `F64 P` | the exponential exceeds the largest finite number; an operand that is not finite stays so through the expression |
| C74 | `inverse_langevin`, `fjc` isometric Legendre, in `F64 P` | the Newton step squares the relative error and adds 7ε/(1-γ); invariant over the loop; the Padé start is within 2e-4 |
| C75 | `inverse_langevin`, round trip with the `fjc` isotensional length, in `F64 P` | the relative error of 1/(1-L) is squared by an exact Newton step (C07) and 1/(1-L) is 1-Lipschitz, so rounding adds at most 4200ε/(γ(1-γ)) per step; invariant over the loop; Padé start with relative error 1e-8; three regimes glued at 9e-4 and 0.999 |
| C76 | lengths of the isotensional modules | positive slope of the closed forms; for Lennard-Jones links two runs of the search are compared step by step: log-concavity of the slope of the link force keeps the residuals ordered, so the run at the larger force never stops earlier |
| C77 | math `lambert_w` | third-order error bound of one update from either side of the solution, closed form in the distance to it; bounds of the start; four updates chained. Next to the branch point each update removes at most two thirds of the distance to -1 |
| C78-C80 | `Spec/Network`, `Lemmas/GaussianMoments`, `Props/Network` | the lists of the code as finite sums over the grid; the Gaussian moments by parts for the mean square length of a link; two swelling ratios compared term by term |
| C81 | `Lemmas/NetworkNodes`, `Props/DefinedNetwork` | the models over numbers with explicit failure equal those over the reals term by term; no node or pair of nodes of the tanh grid is at full extension, by enclosures of `artanh (n/257)` for all nodes below one; a sum with an undefined term is undefined |
| C82 | `constitutive.hyperelastic_damage.*` | the weights `(2i²-j²)j` of the grid points, summed over the points within any distance of the origin, are positive: all 65536 sums are the digits of one number, read off by the kernel with one bitwise operation; summation by parts against the force over the extension times the Gaussian, which falls with the extension by a differential inequality for the Langevin function; the error of the force solver is smaller than the margin |
| C83 | `constitutive.hyperelastic.*` | the stress as a finite sum over the grid of a positive force times a Gaussian in the stretch; its derivative at stretch one is a sum of squares; each term vanishes in the limits because all nodes are positive; equibiaxial tension by C43 |
| C84 | `constitutive.hyperelastic_damage.*` | the fraction is a quotient of a sum over the grid inside a quarter of a disk and a sum along an axis, with a geometric weight in the square of the distance; their difference is summed by parts twice; all 65537 running sums are computed by the kernel as the digits of one number; the size of the gap by Cauchy-Schwarz and a telescoping bound |
| C85 | `fjc.thermodynamics.isometric.*`, `fjc.thermodynamics.isometric.legendre.*` | the partition function of C66 is a moment generating function of the exact distribution; Markov's inequality holds at every force, so also at the force which the code returns, with the free energy the code computes from it; the density at a point because it falls with the extension |
| C86 | single-chain structs at fixed length and at fixed force | from C15 (units), C76 and C34 (the extension grows with the force), and because force over stiffness, and every ratio that enters the stretch of a link, does not depend on the temperature |
| C87 | single-chain structs at fixed force | the correction of the asymptotic approach falls with the stiffness; the stretch of a link depends on force over stiffness, in which it increases (C76); the extension of a square-well link is a mean over the lengths in the well of an increasing function |
| C88 | Monte Carlo module and exact distribution of the freely jointed chain; the generator is any family of independent uniform random variables (`Verif/Spec/RandomDraws.lean`) | the mean of exp(h.n) over one link depends on |h| alone, by differentiating under the integral along a rotation of h; independence gives the power N; averaging over the direction of h and C66 give equal transforms of both laws, and equal transforms give equal laws by analytic continuation of the moment generating function; then C42 and the strong law of large numbers |
| C89 | the four Monte Carlo modules, with ideal draws | the numbers of a link are averaged before those of earlier links (independence and Fubini); the mean of a link given the links before it is zero, or cos(theta) times the link before it; links of the freely rotating chain are unit vectors with probability one since the random vector lies in a plane with probability zero; for the extensible freely rotating chain the direction of the next link is the sign of its stretch times a link of the freely rotating chain (`Props/MonteCarloRotating`); geometric sums; C63 |
| C90 | Monte Carlo modules of the extensible and freely rotating chains, with ideal draws | samples use disjoint blocks of independent draws; an event of positive probability for one block happens to some block by the second Borel-Cantelli lemma; one long link with short others; C40 gives a failing odd chain, and those near it fail too because the length is continuous in the numbers; C41, C42 |
| C91 | `Model/Julia{Efjc,LennardJones,LogSquared,Morse}`, `Spec/Arrays` | the sizes of broadcast results; a row against a column gives a table |
| C92 | the four Monte Carlo modules, with ideal draws | the samples use disjoint blocks of draws and are independent with one law; Hoeffding's inequality for each bin and the union over the bins; C42 reads the bins of the result; for the freely jointed chain C88 gives the probability of a bin, and the variance of a sum of independent indicators the mean square error |
| C93 | Monte Carlo modules of the freely jointed and extensible chain, ideal chain | `Lemmas/LongWalk`: the central limit theorem in each direction gives convergence of characteristic functions in space (Lévy); spheres have probability zero (portmanteau); monotone functions that converge to a continuous one converge uniformly; polar coordinates and scaling give the radial distribution of the code |
| C94 | ideal chain in `F64 P` against the same methods over the real numbers | `Lemmas/IeeeProduct`: products, quotients, squares, powers and exponentials keep a relative error counted in units while the size stays in a tracked range; logarithms and sums turn it into an absolute error |
| C95 | freely jointed chain at fixed force in `F64 P` against the same methods over the real numbers | `Lemmas/IeeeScale`: absolute errors measured by a scale, under sums and under products with numbers of known relative error; the Langevin function, `log (sinh x / x)` and `x coth x` change by a bounded multiple of the error of the nondimensional force |
| C96 | freely jointed chain at fixed length in `F64 P` against the same methods over the real numbers | `Lemmas/IeeeTreloar`: error of a term through its base, power, sign and coefficient; of the sum; terms present in only one of the two sums have a base below `6 ε`; `Lemmas/IeeeSized`: errors in proportion to a size under products, sums and quotients |
| C97 | energies of the freely jointed chain at fixed length in `F64 P` against the same methods over the real numbers | sizes of `Lemmas/IeeeSized` through the logarithm of the density (`sized_log`), the energy of the hinges (`sized_hinges`), the work (`sized_work`) and their differences |
| C98 | methods of the extensible chain (reduced approach) in `F64 P` against the same methods over the real numbers | the hyperbolic tangent does not amplify relative errors (`Acc.tanh`), sizes of `Lemmas/IeeeSized` for the terms and their differences (`sized_efjc`) |
| C99 | methods of the square-well chain in `F64 P` against the same methods over the real numbers | error of hyperbolic functions in proportion to the argument (`Acc.cosh`, `Acc.sinh`), sizes of `Lemmas/IeeeSized` for sums and quotients (`sized_well`, `sized_well_length`, `sized_well_gibbs`, `sized_well_helmholtz`); narrow wells by the exactness of differences of close numbers (`sterbenz`) |
| C100 | methods of the extensible chain in the alternative approach in `F64 P` against the same methods over the real numbers | sizes of `Lemmas/IeeeSized` for the terms; `(1 + eta) eta / sinh^2 eta <= 1 + 1/eta` (`sinh_quotient_le`) for the term of the coupling |
| C101 | methods of the chain with Morse links (reduced approach) in `F64 P` against the same methods over the real numbers | the relative error of `1 - eta/eta_max` through the root and the logarithm (`sized_morse_root`, `sized_morse_log`); above the largest force the sign of the rounded difference (`morse_root_above`) and the propagation of NaN |
| C102 | the eight Gibbs methods of the chain with Morse links (reduced approach) in `F64 P` against the same methods over the real numbers | the root and the logarithm of C101, the square of a number up to a half (`sized_square`), and the sum of the terms (`sized_morse_gibbs`); above the largest force the propagation of NaN through operations that cannot panic |
| C103 | the eight Helmholtz methods of the Legendre transformation for the chain with Morse links (reduced approach) in `F64 P` against the same methods over the real numbers | the root of C101, the square of C102, the bound on the hyperbolic cotangent (`coth_bounds`) and the sum of the terms (`sized_morse_helmholtz`); above the largest force the propagation of NaN |
| C104 | the four length methods and the eight Gibbs methods of the extensible chain (asymptotic approach) in `F64 P` against the same methods over the real numbers | the cancellation in the Langevin function and in the numerator of the coupling by sizes, the denominator as a sum of positive numbers (`Acc.add_pos`), the quotient of the extension by the denominator at most one (`sized_asymptotic_length`, `sized_asymptotic`) |
| C105 | the eight Helmholtz methods of the Legendre transformation for the extensible chain (asymptotic approach) in `F64 P` against the same methods over the real numbers | the sum of the terms of the Gibbs energy (`sized_asymptotic_core`) and the factor of the extension (`sized_asymptotic_factor`); the method of a single link, which repeats the formula with another argument of a logarithm, separately |
| C106 | the twenty methods of the chain with Morse links (asymptotic approach) in `F64 P` | the root of a negative number is NaN (`morse_root_above` of C101); NaN propagates through all operations and no operation panics (`calm_*`) |
| C57 | isometric Legendre modules of `lennard_jones`, `log_squared` | the run of the solver, with the slope it is given |
| C56 | isotensional `wlc`, isometric Legendre modules, in `SReal` | an invariant set of the Newton step on which the relation and its slope are defined |

## 4. How the theorems are stated

* `Verif/Spec/Api.lean` (generated by `tools/gen_api.py`) groups the public methods of each model into records: `EnergyMethods`
  (eight energies), `ForceMethods`, `LengthMethods`, `DistributionMethods`. A record is built from the public constructor,
  e.g. `fjc_isotensional_gibbs N ℓ m` evaluates the methods of `FJC::init(N, ℓ, m).thermodynamics.isotensional`. Property
  theorems speak about these records.
* `Verif/Spec/*.lean` hold the specifications: what it means that a length is minus the gradient of an energy
  (`IsMinusGradient`), that methods scale with temperature and length (`Scales`), that a family is defined (`DefinedAs`),
  the error function, the partition function on a grid, the reference Newton iteration and so on. They do not mention model
  functions.
* `Verif/Lemmas/*.lean` are helper facts, `Verif/Props/*.lean` the property theorems, named `Cxx_...`. Beside each theorem an
  `example` instantiates it at concrete parameters, or `Props/Cases.lean` does.

`DefinedAs` (C46, C56): the methods evaluated over `SReal` at real arguments return exactly `val` of the method evaluated over
the reals. Since `undef` and `panic` are strict this rules out every failing sub-expression; it also shows that the real-valued
theorems are about values the program really computes (up to rounding).

## 5. Behaviour of the code found while proving

Statements which turned out false of the code, with the theorem that shows it:

* `erf(x)` is positive for every `x < -26.7` (`C10_erf_negative_failure`). As a consequence the exact extensible chain loses its
  Gibbs energy at small force when `k l^2/kT > 1425.78` (`C55_efjc_gibbs_diverges`).
* The extension of the exact extensible chain is not the slope of its Gibbs energy and diverges at small force (`C24_*`); one of
  the two error-function factors is missing.
* The powered Newton variant divides zero by zero when an iterate hits the root exactly (`C06_*`).
* `bessel_i` uses the small-argument polynomial for every negative argument (`C09_*`, `C52_*`).
* The inverse Langevin routine returns `3y` for all negative extensions (`C07_*`).
* Treloar sums leave the `u128` range for long chains (`C18_*` gives the exact limits).
* Method 2 of the damage model ignores swelling: the power `j_1_3` of the swelling ratio is applied to the chains in method 3 only, so a swollen network answers as the dry one up to constant factors and seems to have lost chains before any damage (`C80_*`).
* The constitutive models evaluate the chain force on a grid, and the force cannot be evaluated at exactly full extension (C26). The damage model therefore returns no number at all for some ordinary critical extensions: 1.28 (also 0.8, 1.6, 2.56, 3.2) for both methods and every history, 1 and 2 for method 2 (`C81_damage_undefined`, `C81_damage_energy_undefined`). The hyperelastic model avoids this on its own grid, but method 2 meets it at isolated stretches (`C81_hyperelastic_energy_stretch`).
* The network of the damage model with Gaussian chains is under tension before it is stretched (`C82_undeformed_tension`): the grid has no
  points at zero axial extension, which a rectangle rule would count by half. For eight links of stiffness 50 the stress at rest is
  that of a strain of about 0.3 percent at a critical extension of 1.5 (computed outside Lean), for 255 links two percent.
* The hyperelastic stress goes to zero at large stretches, in tension and in compression (`C83_far`): the nodes of the grid nearest the axis and nearest the plane across it are a fixed distance away, and the Gaussian vanishes there. Nothing warns the user that the stretch is outside the range of the grid.
* The damage model reports a fraction of intact chains less than one before any chain is broken (`C84_fraction_at_rest_lt`, `C84_fraction_at_rest_le`): the sum over the grid leaves out half a cell on each side of the plane across the axis. Evaluated, the fraction is 0.989 for 8 links and 0.936 for 255 links (stiffness 50, critical extension 1.5).
* The damage of the constitutive model can decrease when the past maximum grows (`C49_*`).
* Worm-like chain at fixed force: the search panics when it leaves the unit interval (`C35_*`).
* Lennard-Jones Legendre methods pass a central difference, log-squared ones a slope that is exact only where the Lambert routine
  is (`C57_*`).
* Freely rotating Monte Carlo with an odd number of links can panic (`C40_frc_odd_panics`); freely jointed Monte Carlo with a
  single link drops every sample (`C42_fjc_single_link_dropped`).

* The square-well force solver diverges for wells at least eight link lengths wide between 90% and 91.5% of the largest
  extension (`C26_swfjc_wide_well`); in `f64` the iterates then overflow. For wells at most 0.9 link lengths wide
  it converges at every extension (`C26_swfjc_narrow_well`): the relation is concave with slope below the slope squared times a
  constant, so a Newton step from above stays positive and steps from below increase. The normalisation (C28, C36) is an exact-arithmetic
  statement about whatever the solver returns.
* Julia calls two exported worm-like chain functions with a `UInt8` where the library expects an `f64`. Where integers and floating-
  point numbers travel in separate registers the result is right by luck (`C60_julia_wlc_isometric_distribution`); under the
  Microsoft x64 convention it does not depend on the extension (`C61_julia_wlc_positional`).
* The nondimensional Julia functions of the extensible models divide a number by their temperature argument with `/`, not `./`. For a
  vector of temperatures this is the number times the pseudoinverse, a row, and the result is a matrix (`C91_*`).
* The C functions of the hyperelastic model construct slices 256 and 65536 times longer than the arrays they use, which is undefined
  behaviour for the obvious caller (`C62_c_hyperelastic_short_buffers`).
* The strong-potential Helmholtz energy of the freely jointed chain corrects with the second derivative of the density where the
  Laplacian belongs, and the weak-potential Gibbs energy leaves out the fluctuation of the extension; both are wrong at the order
  they claim to correct (`C65_strong_potential_error`, `C65_exact_correction`, `C65_code_correction`, `C65_weak_potential_error`).
* The modified canonical Helmholtz energy is useless for stiff potentials (`C67_modified_canonical_stiff`).
* The reduced asymptotic approaches miss a term of first order in the link compliance (`C70_*_reduced`); this is documented as a
  simplification, the theorems give its size.
* The 64-point quadrature of the anharmonic links at fixed force does not converge to stiff links: the result tends to that of a
  rigid link of 0.998 (log-squared) or 0.996 (Lennard-Jones) of the link length (`C71_log_squared_stiff`, `C71_lennard_jones_stiff`,
  `C71_morse_stiff`).
* In double precision the extension of the freely jointed chain is exactly zero for small positive forces (`C72_fjc_length_zero`)
  and the Gibbs and Legendre energies overflow from the nondimensional force 711 on (`C73_*_overflow`).  For the same reason the
  Helmholtz energy of the Legendre approach is negative infinity from an extension of 0.9987 on (`C74_fjc_legendre_helmholtz_overflow`).
* Next to its branch point `-1/e` the Lambert W function is off by more than half a percent: four updates are made whatever the
  argument (`C77_lambert_w_branch_point`). The stretch of log-squared links next to the breaking force is computed from it.
* Three freely jointed links exert no force below a third of their length, and the force of four does not vanish with the
  extension (`C68_fjc_few_links`).  This is physics, not a bug, but a caller who inverts the force has to know it.
* The Monte Carlo sampler of the extensible chain draws the stretch from a normal distribution and omits the factor `lambda^2` of
  the volume element.  Its mean square length is below the one that the force-extension relation of the same model requires
  (`C89_efjc_response`).
* The extensible freely rotating sampler also draws negative stretches, and builds the cone of the next link around the direction of
  the vector it has drawn: after a negative stretch the chain goes on in the opposite direction.  The correlation of two links then
  decays like (s cos theta)^k with the mean sign s of the stretch, not like cos(theta)^k (`C89_efrc`).
* A Monte Carlo run of an extensible chain panics with probability one once it has enough samples, whatever `gamma_max` is given,
  and so does a run of the freely rotating chain with an odd number of links (`C90_efjc`, `C90_efrc`, `C90_frc_odd`).
* In double precision the relative energies of the exact freely jointed chain at fixed length use the density at the fraction `1e-6` of the contour length as their reference (`ZERO`). The density divides an alternating sum of order `1e-6` by this fraction, so the bound of C96 for the reference is a million times the bound at fractions of order one, before the loss of the alternating sum. No lower bound of this loss is proved.
* The asymptotic formulas of the chain with Morse links, reduced or full, have the square root of `1 - eta/eta_max`. Above the largest force that the links bear the
  lengths, the Gibbs and the Helmholtz energies are therefore NaN, with no error and no panic (`C101_*_above`, `C102_*_above`, `C103_*_above`, `C106_*`); below it the rounding
  error grows like `1/sqrt(1 - eta/eta_max)`.
* In double precision the partition function of a link of the square-well chain at fixed force is a sum of four hyperbolic terms that cancel for narrow wells and small forces. A well narrower than `2^-56` link lengths vanishes in `1 + w/l`; the sum is then exactly zero, no length, Gibbs or Helmholtz energy is finite at nondimensional forces up to one, and no relative energy is finite at any force (C99), although the exact chain is near the freely jointed one. C99 bounds the error where the sum is resolved; at the reference force `1e-6` this needs wells of some percent of the link length.

## 6. What is not proved

* C56: each family on the range of parameters and extensions named in its theorem; for Lennard-Jones links this ends at the
  force κ/46, a little more than half of the largest force of a link, and wells wider than 0.9 link lengths are left out.
* Rounding of `f64` is treated only in C72 and later properties; the quality of the random numbers is outside the model (section 1): properties on averages take it as a hypothesis.
